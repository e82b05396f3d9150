import Verif.Model.GenCode
/-!
Functions of `ebcc/codegen/UCCSD.py`, written by `tools/gencode.py`.  Comments give the
number and the text of the line of each statement.
-/

set_option maxRecDepth 100000

namespace Ebcc.Gen.UCCSD

/-- codegen/UCCSD.py:19-59 `energy`. -/
def energy : GenFun where
  args := [chars! "v.bbbb.ovov", chars! "v.aaaa.ovov", chars! "f.bb.ov", chars! "v.aabb.ovov", chars! "t1.aa", chars! "t1.bb", chars! "f.aa.ov", chars! "t2.bbbb", chars! "t2.aaaa", chars! "t2.abab"]
  body := [
    -- 40: tmp0 = np.copy(np.transpose(v.bbbb.ovov, (0, 2, 3, 1)))
    .set 10 (.tr 0 [0, 2, 3, 1]) 1 1,
    -- 41: tmp0 += np.transpose(v.bbbb.ovov, (0, 2, 1, 3)) * -1
    .add 10 (.tr 0 [0, 2, 1, 3]) (-1) 1,
    -- 42: tmp2 = np.copy(np.transpose(v.aaaa.ovov, (0, 2, 3, 1))) * -1
    .set 11 (.tr 1 [0, 2, 3, 1]) (-1) 1,
    -- 43: tmp2 += np.transpose(v.aaaa.ovov, (0, 2, 1, 3))
    .add 11 (.tr 1 [0, 2, 1, 3]) 1 1,
    -- 44: tmp1 = np.copy(f.bb.ov) * 2
    .set 12 (.cp 2) 2 1,
    -- 45: tmp1 += einsum(v.aabb.ovov, (0, 1, 2, 3), t1.aa, (0, 1), (2, 3)) * 2
    .add 12 (.ein [(3, [0, 1, 2, 3]), (4, [0, 1])] [2, 3]) 2 1,
    -- 46: tmp1 += einsum(tmp0, (0, 1, 2, 3), t1.bb, (0, 2), (1, 3)) * -1
    .add 12 (.ein [(10, [0, 1, 2, 3]), (5, [0, 2])] [1, 3]) (-1) 1,
    -- 47: del tmp0
    .del 10,
    -- 48: tmp3 = np.copy(f.aa.ov)
    .set 13 (.cp 6) 1 1,
    -- 49: tmp3 += einsum(t1.aa, (0, 1), tmp2, (0, 2, 3, 1), (2, 3)) * -0.5
    .add 13 (.ein [(4, [0, 1]), (11, [0, 2, 3, 1])] [2, 3]) (-1) 2,
    -- 50: del tmp2
    .del 11,
    -- 51: e_cc = einsum(v.bbbb.ovov, (0, 1, 2, 3), t2.bbbb, (0, 2, 1, 3), ())
    .set 14 (.ein [(0, [0, 1, 2, 3]), (7, [0, 2, 1, 3])] []) 1 1,
    -- 52: e_cc += einsum(v.aaaa.ovov, (0, 1, 2, 3), t2.aaaa, (0, 2, 3, 1), ()) * -1
    .add 14 (.ein [(1, [0, 1, 2, 3]), (8, [0, 2, 3, 1])] []) (-1) 1,
    -- 53: e_cc += einsum(v.aabb.ovov, (0, 1, 2, 3), t2.abab, (0, 2, 1, 3), ())
    .add 14 (.ein [(3, [0, 1, 2, 3]), (9, [0, 2, 1, 3])] []) 1 1,
    -- 54: e_cc += einsum(tmp1, (0, 1), t1.bb, (0, 1), ()) * 0.5
    .add 14 (.ein [(12, [0, 1]), (5, [0, 1])] []) 1 2,
    -- 55: del tmp1
    .del 12,
    -- 56: e_cc += einsum(tmp3, (0, 1), t1.aa, (0, 1), ())
    .add 14 (.ein [(13, [0, 1]), (4, [0, 1])] []) 1 1,
    -- 57: del tmp3
    .del 13
  ]
  ret := [(chars! "e_cc", 14)]

/-- codegen/UCCSD.py:61-866 `update_amps`. -/
def update_amps : GenFun where
  args := [chars! "v.bbbb.ovov", chars! "v.aaaa.ovov", chars! "v.aabb.ovov", chars! "t1.aa", chars! "t1.bb", chars! "v.bbbb.ooov", chars! "f.bb.ov", chars! "v.bbbb.ovvv", chars! "v.bbbb.ovoo", chars! "v.aaaa.ovvv", chars! "v.aaaa.ooov", chars! "v.aaaa.ovoo", chars! "f.aa.ov", chars! "v.aabb.ovvv", chars! "t2.abab", chars! "t2.bbbb", chars! "v.aabb.ovoo", chars! "v.aabb.vvov", chars! "v.aabb.ooov", chars! "t2.aaaa", chars! "v.bbbb.vvvv", chars! "v.bbbb.oovv", chars! "f.bb.oo", chars! "v.aaaa.vvvv", chars! "v.aaaa.oovv", chars! "f.aa.oo", chars! "v.bbbb.oooo", chars! "f.bb.vv", chars! "v.aabb.vvvv", chars! "f.aa.vv", chars! "v.aabb.vvoo", chars! "v.aabb.oovv", chars! "v.aaaa.oooo", chars! "v.aabb.oooo"]
  body := [
    -- 86: tmp14 = np.copy(np.transpose(v.bbbb.ovov, (0, 2, 3, 1)))
    .set 34 (.tr 0 [0, 2, 3, 1]) 1 1,
    -- 87: tmp14 += np.transpose(v.bbbb.ovov, (0, 2, 1, 3)) * -1
    .add 34 (.tr 0 [0, 2, 1, 3]) (-1) 1,
    -- 88: tmp7 = np.copy(np.transpose(v.aaaa.ovov, (0, 2, 3, 1))) * -1
    .set 35 (.tr 1 [0, 2, 3, 1]) (-1) 1,
    -- 89: tmp7 += np.transpose(v.aaaa.ovov, (0, 2, 1, 3))
    .add 35 (.tr 1 [0, 2, 1, 3]) 1 1,
    -- 90: tmp117 = np.copy(np.transpose(v.bbbb.ovov, (0, 2, 3, 1)))
    .set 36 (.tr 0 [0, 2, 3, 1]) 1 1,
    -- 91: tmp117 += np.transpose(v.bbbb.ovov, (0, 2, 1, 3)) * -1
    .add 36 (.tr 0 [0, 2, 1, 3]) (-1) 1,
    -- 92: tmp13 = einsum(v.aabb.ovov, (0, 1, 2, 3), t1.aa, (0, 1), (2, 3))
    .set 37 (.ein [(2, [0, 1, 2, 3]), (3, [0, 1])] [2, 3]) 1 1,
    -- 93: tmp15 = einsum(tmp14, (0, 1, 2, 3), t1.bb, (0, 2), (1, 3))
    .set 38 (.ein [(34, [0, 1, 2, 3]), (4, [0, 2])] [1, 3]) 1 1,
    -- 94: tmp22 = einsum(v.bbbb.ovov, (0, 1, 2, 3), t1.bb, (4, 3), (4, 0, 2, 1))
    .set 39 (.ein [(0, [0, 1, 2, 3]), (4, [4, 3])] [4, 0, 2, 1]) 1 1,
    -- 95: tmp1 = einsum(v.aaaa.ovov, (0, 1, 2, 3), t1.aa, (4, 3), (4, 0, 2, 1))
    .set 40 (.ein [(1, [0, 1, 2, 3]), (3, [4, 3])] [4, 0, 2, 1]) 1 1,
    -- 96: tmp8 = einsum(t1.aa, (0, 1), tmp7, (0, 2, 3, 1), (2, 3))
    .set 41 (.ein [(3, [0, 1]), (35, [0, 2, 3, 1])] [2, 3]) 1 1,
    -- 97: tmp2 = einsum(v.aabb.ovov, (0, 1, 2, 3), t1.bb, (2, 3), (0, 1))
    .set 42 (.ein [(2, [0, 1, 2, 3]), (4, [2, 3])] [0, 1]) 1 1,
    -- 98: tmp21 = einsum(t1.bb, (0, 1), v.aabb.ovov, (2, 3, 4, 1), (2, 0, 4, 3))
    .set 43 (.ein [(4, [0, 1]), (2, [2, 3, 4, 1])] [2, 0, 4, 3]) 1 1,
    -- 99: tmp118 = einsum(tmp117, (0, 1, 2, 3), t1.bb, (0, 2), (1, 3))
    .set 44 (.ein [(36, [0, 1, 2, 3]), (4, [0, 2])] [1, 3]) 1 1,
    -- 100: tmp197 = np.copy(v.bbbb.ooov)
    .set 45 (.cp 5) 1 1,
    -- 101: tmp197 += np.transpose(v.bbbb.ooov, (0, 2, 1, 3)) * -1
    .add 45 (.tr 5 [0, 2, 1, 3]) (-1) 1,
    -- 102: tmp16 = np.copy(f.bb.ov)
    .set 46 (.cp 6) 1 1,
    -- 103: tmp16 += tmp13
    .add 46 (.cp 37) 1 1,
    -- 104: tmp16 += tmp15 * -1
    .add 46 (.cp 38) (-1) 1,
    -- 105: del tmp15
    .del 38,
    -- 106: tmp184 = np.copy(tmp22)
    .set 47 (.cp 39) 1 1,
    -- 107: tmp184 += np.transpose(tmp22, (0, 2, 1, 3)) * -1
    .add 47 (.tr 39 [0, 2, 1, 3]) (-1) 1,
    -- 108: tmp149 = np.copy(v.bbbb.ovvv) * -1
    .set 48 (.cp 7) (-1) 1,
    -- 109: tmp149 += np.transpose(v.bbbb.ovvv, (0, 2, 1, 3))
    .add 48 (.tr 7 [0, 2, 1, 3]) 1 1,
    -- 110: tmp141 = np.copy(v.bbbb.ooov)
    .set 49 (.cp 5) 1 1,
    -- 111: tmp141 += np.transpose(v.bbbb.ovoo, (0, 2, 3, 1)) * -1
    .add 49 (.tr 8 [0, 2, 3, 1]) (-1) 1,
    -- 112: tmp0 = einsum(t1.aa, (0, 1), v.aabb.ovov, (2, 1, 3, 4), (0, 2, 3, 4))
    .set 50 (.ein [(3, [0, 1]), (2, [2, 1, 3, 4])] [0, 2, 3, 4]) 1 1,
    -- 113: tmp71 = np.copy(v.aaaa.ovvv)
    .set 51 (.cp 9) 1 1,
    -- 114: tmp71 += np.transpose(v.aaaa.ovvv, (0, 2, 1, 3)) * -1
    .add 51 (.tr 9 [0, 2, 1, 3]) (-1) 1,
    -- 115: tmp73 = np.copy(tmp1) * -1
    .set 52 (.cp 40) (-1) 1,
    -- 116: tmp73 += np.transpose(tmp1, (0, 2, 1, 3))
    .add 52 (.tr 40 [0, 2, 1, 3]) 1 1,
    -- 117: tmp82 = np.copy(v.aaaa.ooov) * -1
    .set 53 (.cp 10) (-1) 1,
    -- 118: tmp82 += np.transpose(v.aaaa.ovoo, (0, 2, 3, 1))
    .add 53 (.tr 11 [0, 2, 3, 1]) 1 1,
    -- 119: tmp34 = np.copy(v.aaaa.ooov)
    .set 54 (.cp 10) 1 1,
    -- 120: tmp34 += np.transpose(v.aaaa.ovoo, (0, 2, 3, 1)) * -1
    .add 54 (.tr 11 [0, 2, 3, 1]) (-1) 1,
    -- 121: tmp9 = np.copy(f.aa.ov)
    .set 55 (.cp 12) 1 1,
    -- 122: tmp9 += tmp2
    .add 55 (.cp 42) 1 1,
    -- 123: tmp9 += tmp8 * -1
    .add 55 (.cp 41) (-1) 1,
    -- 124: del tmp8
    .del 41,
    -- 125: tmp127 = einsum(t1.bb, (0, 1), tmp21, (2, 3, 0, 4), (2, 3, 4, 1))
    .set 56 (.ein [(4, [0, 1]), (43, [2, 3, 0, 4])] [2, 3, 4, 1]) 1 1,
    -- 126: tmp128 = einsum(v.aabb.ovvv, (0, 1, 2, 3), t1.bb, (4, 3), (0, 4, 1, 2))
    .set 57 (.ein [(13, [0, 1, 2, 3]), (4, [4, 3])] [0, 4, 1, 2]) 1 1,
    -- 127: tmp29 = np.copy(v.bbbb.ooov)
    .set 58 (.cp 5) 1 1,
    -- 128: tmp29 += np.transpose(v.bbbb.ovoo, (0, 2, 3, 1)) * -1
    .add 58 (.tr 8 [0, 2, 3, 1]) (-1) 1,
    -- 129: tmp178 = einsum(t1.bb, (0, 1), v.bbbb.ovvv, (2, 3, 4, 1), (0, 2, 3, 4))
    .set 59 (.ein [(4, [0, 1]), (7, [2, 3, 4, 1])] [0, 2, 3, 4]) 1 1,
    -- 130: tmp171 = einsum(v.bbbb.ooov, (0, 1, 2, 3), t1.bb, (4, 3), (4, 0, 1, 2))
    .set 60 (.ein [(5, [0, 1, 2, 3]), (4, [4, 3])] [4, 0, 1, 2]) 1 1,
    -- 131: tmp119 = np.copy(f.bb.ov)
    .set 61 (.cp 6) 1 1,
    -- 132: tmp119 += tmp13
    .add 61 (.cp 37) 1 1,
    -- 133: tmp119 += tmp118 * -1
    .add 61 (.cp 44) (-1) 1,
    -- 134: del tmp118
    .del 44,
    -- 135: tmp201 = einsum(t1.bb, (0, 1), tmp22, (2, 3, 4, 1), (2, 0, 4, 3))
    .set 62 (.ein [(4, [0, 1]), (39, [2, 3, 4, 1])] [2, 0, 4, 3]) 1 1,
    -- 136: tmp198 = einsum(t1.bb, (0, 1), tmp197, (2, 3, 0, 4), (2, 3, 1, 4))
    .set 63 (.ein [(4, [0, 1]), (45, [2, 3, 0, 4])] [2, 3, 1, 4]) 1 1,
    -- 137: del tmp197
    .del 45,
    -- 138: tmp24 = einsum(v.aabb.ovov, (0, 1, 2, 3), t2.abab, (0, 4, 1, 3), (4, 2))
    .set 64 (.ein [(2, [0, 1, 2, 3]), (14, [0, 4, 1, 3])] [4, 2]) 1 1,
    -- 139: tmp122 = einsum(t1.bb, (0, 1), tmp16, (2, 1), (0, 2))
    .set 65 (.ein [(4, [0, 1]), (46, [2, 1])] [0, 2]) 1 1,
    -- 140: tmp25 = einsum(t2.bbbb, (0, 1, 2, 3), v.bbbb.ovov, (4, 3, 1, 2), (0, 4)) * -1
    .set 66 (.ein [(15, [0, 1, 2, 3]), (0, [4, 3, 1, 2])] [0, 4]) (-1) 1,
    -- 141: tmp185 = einsum(t1.bb, (0, 1), tmp184, (2, 0, 3, 4), (2, 3, 1, 4))
    .set 67 (.ein [(4, [0, 1]), (47, [2, 0, 3, 4])] [2, 3, 1, 4]) 1 1,
    -- 142: del tmp184
    .del 47,
    -- 143: tmp183 = einsum(t1.bb, (0, 1), tmp149, (2, 1, 3, 4), (0, 2, 3, 4))
    .set 68 (.ein [(4, [0, 1]), (48, [2, 1, 3, 4])] [0, 2, 3, 4]) 1 1,
    -- 144: tmp28 = einsum(v.aabb.ovoo, (0, 1, 2, 3), t1.aa, (0, 1), (2, 3))
    .set 69 (.ein [(16, [0, 1, 2, 3]), (3, [0, 1])] [2, 3]) 1 1,
    -- 145: tmp159 = einsum(t1.bb, (0, 1), tmp141, (0, 2, 3, 1), (2, 3))
    .set 70 (.ein [(4, [0, 1]), (49, [0, 2, 3, 1])] [2, 3]) 1 1,
    -- 146: tmp45 = np.copy(v.aaaa.ovvv)
    .set 71 (.cp 9) 1 1,
    -- 147: tmp45 += np.transpose(v.aaaa.ovvv, (0, 2, 3, 1)) * -1
    .add 71 (.tr 9 [0, 2, 3, 1]) (-1) 1,
    -- 148: tmp97 = einsum(tmp1, (0, 1, 2, 3), t1.aa, (4, 3), (0, 4, 2, 1))
    .set 72 (.ein [(40, [0, 1, 2, 3]), (3, [4, 3])] [0, 4, 2, 1]) 1 1,
    -- 149: tmp53 = einsum(v.aaaa.ooov, (0, 1, 2, 3), t1.aa, (4, 3), (4, 0, 1, 2))
    .set 73 (.ein [(10, [0, 1, 2, 3]), (3, [4, 3])] [4, 0, 1, 2]) 1 1,
    -- 150: tmp68 = einsum(t1.aa, (0, 1), tmp0, (2, 0, 3, 4), (2, 3, 1, 4))
    .set 74 (.ein [(3, [0, 1]), (50, [2, 0, 3, 4])] [2, 3, 1, 4]) 1 1,
    -- 151: tmp67 = einsum(t1.aa, (0, 1), v.aabb.vvov, (2, 1, 3, 4), (0, 3, 2, 4))
    .set 75 (.ein [(3, [0, 1]), (17, [2, 1, 3, 4])] [0, 3, 2, 4]) 1 1,
    -- 152: tmp72 = einsum(tmp71, (0, 1, 2, 3), t1.aa, (4, 2), (4, 0, 1, 3))
    .set 76 (.ein [(51, [0, 1, 2, 3]), (3, [4, 2])] [4, 0, 1, 3]) 1 1,
    -- 153: del tmp71
    .del 51,
    -- 154: tmp74 = einsum(t1.aa, (0, 1), tmp73, (2, 3, 0, 4), (2, 3, 1, 4))
    .set 77 (.ein [(3, [0, 1]), (52, [2, 3, 0, 4])] [2, 3, 1, 4]) 1 1,
    -- 155: del tmp73
    .del 52,
    -- 156: tmp50 = np.copy(np.transpose(v.aaaa.ovov, (0, 2, 3, 1))) * -1
    .set 78 (.tr 1 [0, 2, 3, 1]) (-1) 1,
    -- 157: tmp50 += np.transpose(v.aaaa.ovov, (0, 2, 1, 3))
    .add 78 (.tr 1 [0, 2, 1, 3]) 1 1,
    -- 158: tmp83 = einsum(t1.aa, (0, 1), tmp82, (0, 2, 3, 4), (2, 3, 1, 4))
    .set 79 (.ein [(3, [0, 1]), (53, [0, 2, 3, 4])] [2, 3, 1, 4]) 1 1,
    -- 159: del tmp82
    .del 53,
    -- 160: tmp62 = einsum(v.aaaa.ovvv, (0, 1, 2, 3), t1.aa, (4, 3), (4, 0, 1, 2))
    .set 80 (.ein [(9, [0, 1, 2, 3]), (3, [4, 3])] [4, 0, 1, 2]) 1 1,
    -- 161: tmp17 = einsum(t1.bb, (0, 1), v.aabb.ooov, (2, 3, 0, 1), (2, 3))
    .set 81 (.ein [(4, [0, 1]), (18, [2, 3, 0, 1])] [2, 3]) 1 1,
    -- 162: tmp35 = einsum(t1.aa, (0, 1), tmp34, (0, 2, 3, 1), (2, 3))
    .set 82 (.ein [(3, [0, 1]), (54, [0, 2, 3, 1])] [2, 3]) 1 1,
    -- 163: tmp6 = einsum(v.aabb.ovov, (0, 1, 2, 3), t2.abab, (4, 2, 1, 3), (4, 0))
    .set 83 (.ein [(2, [0, 1, 2, 3]), (14, [4, 2, 1, 3])] [4, 0]) 1 1,
    -- 164: tmp5 = einsum(v.aaaa.ovov, (0, 1, 2, 3), t2.aaaa, (4, 2, 1, 3), (4, 0))
    .set 84 (.ein [(1, [0, 1, 2, 3]), (19, [4, 2, 1, 3])] [4, 0]) 1 1,
    -- 165: tmp59 = einsum(tmp9, (0, 1), t1.aa, (2, 1), (2, 0)) * 0.5
    .set 85 (.ein [(55, [0, 1]), (3, [2, 1])] [2, 0]) 1 2,
    -- 166: tmp18 = np.copy(v.aaaa.ooov)
    .set 86 (.cp 10) 1 1,
    -- 167: tmp18 += np.transpose(v.aaaa.ovoo, (0, 2, 3, 1)) * -1
    .add 86 (.tr 11 [0, 2, 3, 1]) (-1) 1,
    -- 168: tmp131 = einsum(t1.bb, (0, 1), v.aabb.ovoo, (2, 3, 4, 0), (2, 4, 3, 1))
    .set 87 (.ein [(4, [0, 1]), (16, [2, 3, 4, 0])] [2, 4, 3, 1]) 1 1,
    -- 169: tmp181 = np.copy(tmp128) * -1
    .set 88 (.cp 57) (-1) 1,
    -- 170: tmp181 += tmp127
    .add 88 (.cp 56) 1 1,
    -- 171: tmp114 = einsum(v.aabb.ovov, (0, 1, 2, 3), t2.bbbb, (4, 2, 5, 3), (0, 4, 1, 5))
    .set 89 (.ein [(2, [0, 1, 2, 3]), (15, [4, 2, 5, 3])] [0, 4, 1, 5]) 1 1,
    -- 172: tmp30 = einsum(t1.bb, (0, 1), tmp29, (0, 2, 3, 1), (2, 3))
    .set 90 (.ein [(4, [0, 1]), (58, [0, 2, 3, 1])] [2, 3]) 1 1,
    -- 173: tmp205 = einsum(tmp178, (0, 1, 2, 3), t1.bb, (4, 2), (4, 0, 1, 3))
    .set 91 (.ein [(59, [0, 1, 2, 3]), (4, [4, 2])] [4, 0, 1, 3]) 1 1,
    -- 174: tmp211 = np.copy(v.bbbb.ovvv)
    .set 92 (.cp 7) 1 1,
    -- 175: tmp211 += einsum(v.bbbb.ovov, (0, 1, 2, 3), t1.bb, (2, 4), (0, 3, 4, 1))
    .add 92 (.ein [(0, [0, 1, 2, 3]), (4, [2, 4])] [0, 3, 4, 1]) 1 1,
    -- 176: tmp195 = einsum(v.aabb.ovoo, (0, 1, 2, 3), t2.abab, (0, 4, 1, 5), (4, 2, 3, 5))
    .set 93 (.ein [(16, [0, 1, 2, 3]), (14, [0, 4, 1, 5])] [4, 2, 3, 5]) 1 1,
    -- 177: tmp173 = einsum(t1.bb, (0, 1), tmp171, (2, 3, 4, 0), (2, 4, 3, 1))
    .set 94 (.ein [(4, [0, 1]), (60, [2, 3, 4, 0])] [2, 4, 3, 1]) 1 1,
    -- 178: tmp120 = einsum(t1.bb, (0, 1), tmp119, (0, 2), (1, 2))
    .set 95 (.ein [(4, [0, 1]), (61, [0, 2])] [1, 2]) 1 1,
    -- 179: del tmp119
    .del 61,
    -- 180: tmp115 = einsum(v.aabb.ovvv, (0, 1, 2, 3), t1.aa, (0, 1), (2, 3))
    .set 96 (.ein [(13, [0, 1, 2, 3]), (3, [0, 1])] [2, 3]) 1 1,
    -- 181: tmp203 = einsum(t1.bb, (0, 1), tmp201, (2, 3, 0, 4), (3, 2, 4, 1))
    .set 97 (.ein [(4, [0, 1]), (62, [2, 3, 0, 4])] [3, 2, 4, 1]) 1 1,
    -- 182: tmp112 = einsum(v.bbbb.ovov, (0, 1, 2, 3), t2.bbbb, (0, 2, 4, 3), (4, 1))
    .set 98 (.ein [(0, [0, 1, 2, 3]), (15, [0, 2, 4, 3])] [4, 1]) 1 1,
    -- 183: tmp111 = einsum(v.aabb.ovov, (0, 1, 2, 3), t2.abab, (0, 2, 1, 4), (4, 3))
    .set 99 (.ein [(2, [0, 1, 2, 3]), (14, [0, 2, 1, 4])] [4, 3]) 1 1,
    -- 184: tmp207 = einsum(v.bbbb.vvvv, (0, 1, 2, 3), t1.bb, (4, 3), (4, 0, 1, 2))
    .set 100 (.ein [(20, [0, 1, 2, 3]), (4, [4, 3])] [4, 0, 1, 2]) 1 1,
    -- 185: tmp152 = np.copy(tmp128)
    .set 101 (.cp 57) 1 1,
    -- 186: tmp152 += tmp127 * -1
    .add 101 (.cp 56) (-1) 1,
    -- 187: tmp199 = np.copy(v.bbbb.oovv)
    .set 102 (.cp 21) 1 1,
    -- 188: tmp199 += np.transpose(tmp198, (1, 0, 2, 3)) * -1
    .add 102 (.tr 63 [1, 0, 2, 3]) (-1) 1,
    -- 189: del tmp198
    .del 63,
    -- 190: tmp175 = np.copy(tmp24)
    .set 103 (.cp 64) 1 1,
    -- 191: tmp175 += tmp25 * 2
    .add 103 (.cp 66) 2 1,
    -- 192: tmp175 += tmp122
    .add 103 (.cp 65) 1 1,
    -- 193: tmp186 = np.copy(np.transpose(tmp183, (0, 1, 3, 2))) * -1
    .set 104 (.tr 68 [0, 1, 3, 2]) (-1) 1,
    -- 194: del tmp183
    .del 68,
    -- 195: tmp186 += tmp185 * -1
    .add 104 (.cp 67) (-1) 1,
    -- 196: del tmp185
    .del 67,
    -- 197: tmp179 = np.copy(tmp22)
    .set 105 (.cp 39) 1 1,
    -- 198: tmp179 += np.transpose(tmp22, (0, 2, 1, 3)) * -1
    .add 105 (.tr 39 [0, 2, 1, 3]) (-1) 1,
    -- 199: tmp166 = np.copy(v.bbbb.ovvv) * -1
    .set 106 (.cp 7) (-1) 1,
    -- 200: tmp166 += np.transpose(v.bbbb.ovvv, (0, 2, 1, 3))
    .add 106 (.tr 7 [0, 2, 1, 3]) 1 1,
    -- 201: tmp160 = np.copy(f.bb.oo)
    .set 107 (.cp 22) 1 1,
    -- 202: tmp160 += np.transpose(tmp28, (1, 0))
    .add 107 (.tr 69 [1, 0]) 1 1,
    -- 203: tmp160 += np.transpose(tmp159, (1, 0)) * -1
    .add 107 (.tr 70 [1, 0]) (-1) 1,
    -- 204: del tmp159
    .del 70,
    -- 205: tmp169 = einsum(t1.bb, (0, 1), v.bbbb.oovv, (2, 3, 4, 1), (0, 2, 3, 4))
    .set 108 (.ein [(4, [0, 1]), (21, [2, 3, 4, 1])] [0, 2, 3, 4]) 1 1,
    -- 206: tmp209 = einsum(t2.bbbb, (0, 1, 2, 3), v.bbbb.ovov, (4, 2, 5, 3), (0, 1, 4, 5))
    .set 109 (.ein [(15, [0, 1, 2, 3]), (0, [4, 2, 5, 3])] [0, 1, 4, 5]) 1 1,
    -- 207: tmp116 = np.copy(v.bbbb.ovvv) * -1
    .set 110 (.cp 7) (-1) 1,
    -- 208: tmp116 += np.transpose(v.bbbb.ovvv, (0, 2, 3, 1))
    .add 110 (.tr 7 [0, 2, 3, 1]) 1 1,
    -- 209: tmp46 = einsum(tmp45, (0, 1, 2, 3), t1.aa, (0, 1), (2, 3))
    .set 111 (.ein [(71, [0, 1, 2, 3]), (3, [0, 1])] [2, 3]) 1 1,
    -- 210: del tmp45
    .del 71,
    -- 211: tmp39 = einsum(v.aabb.ovov, (0, 1, 2, 3), t2.abab, (0, 2, 4, 3), (4, 1))
    .set 112 (.ein [(2, [0, 1, 2, 3]), (14, [0, 2, 4, 3])] [4, 1]) 1 1,
    -- 212: tmp38 = einsum(t2.aaaa, (0, 1, 2, 3), v.aaaa.ovov, (0, 4, 1, 3), (2, 4))
    .set 113 (.ein [(19, [0, 1, 2, 3]), (1, [0, 4, 1, 3])] [2, 4]) 1 1,
    -- 213: tmp44 = einsum(v.aabb.vvov, (0, 1, 2, 3), t1.bb, (2, 3), (0, 1))
    .set 114 (.ein [(17, [0, 1, 2, 3]), (4, [2, 3])] [0, 1]) 1 1,
    -- 214: tmp47 = einsum(t1.aa, (0, 1), tmp9, (0, 2), (1, 2))
    .set 115 (.ein [(3, [0, 1]), (55, [0, 2])] [1, 2]) 1 1,
    -- 215: tmp129 = einsum(v.aabb.vvov, (0, 1, 2, 3), t1.bb, (4, 3), (4, 2, 0, 1))
    .set 116 (.ein [(17, [0, 1, 2, 3]), (4, [4, 3])] [4, 2, 0, 1]) 1 1,
    -- 216: tmp144 = np.copy(np.transpose(v.aabb.vvov, (2, 0, 1, 3)))
    .set 117 (.tr 17 [2, 0, 1, 3]) 1 1,
    -- 217: tmp144 += einsum(v.aabb.ovov, (0, 1, 2, 3), t1.aa, (0, 4), (2, 4, 1, 3)) * -1
    .add 117 (.ein [(2, [0, 1, 2, 3]), (3, [0, 4])] [2, 4, 1, 3]) (-1) 1,
    -- 218: tmp138 = einsum(t2.aaaa, (0, 1, 2, 3), v.aabb.ovov, (1, 3, 4, 5), (0, 4, 2, 5))
    .set 118 (.ein [(19, [0, 1, 2, 3]), (2, [1, 3, 4, 5])] [0, 4, 2, 5]) 1 1,
    -- 219: tmp85 = einsum(t1.aa, (0, 1), v.aabb.ooov, (2, 0, 3, 4), (2, 3, 1, 4))
    .set 119 (.ein [(3, [0, 1]), (18, [2, 0, 3, 4])] [2, 3, 1, 4]) 1 1,
    -- 220: tmp147 = np.copy(tmp1)
    .set 120 (.cp 40) 1 1,
    -- 221: tmp147 += np.transpose(tmp1, (0, 2, 1, 3)) * -1
    .add 120 (.tr 40 [0, 2, 1, 3]) (-1) 1,
    -- 222: tmp146 = np.copy(v.aaaa.ovvv) * -1
    .set 121 (.cp 9) (-1) 1,
    -- 223: tmp146 += np.transpose(v.aaaa.ovvv, (0, 2, 1, 3))
    .add 121 (.tr 9 [0, 2, 1, 3]) 1 1,
    -- 224: tmp42 = einsum(v.aabb.ovov, (0, 1, 2, 3), t2.abab, (4, 2, 5, 3), (4, 0, 5, 1))
    .set 122 (.ein [(2, [0, 1, 2, 3]), (14, [4, 2, 5, 3])] [4, 0, 5, 1]) 1 1,
    -- 225: tmp81 = np.copy(np.transpose(v.aaaa.ovov, (0, 2, 3, 1)))
    .set 123 (.tr 1 [0, 2, 3, 1]) 1 1,
    -- 226: tmp81 += np.transpose(v.aaaa.ovov, (0, 2, 1, 3)) * -1
    .add 123 (.tr 1 [0, 2, 1, 3]) (-1) 1,
    -- 227: tmp10 = einsum(tmp9, (0, 1), t1.aa, (2, 1), (2, 0))
    .set 124 (.ein [(55, [0, 1]), (3, [2, 1])] [2, 0]) 1 1,
    -- 228: tmp150 = np.copy(tmp22) * -1
    .set 125 (.cp 39) (-1) 1,
    -- 229: tmp150 += np.transpose(tmp22, (0, 2, 1, 3))
    .add 125 (.tr 39 [0, 2, 1, 3]) 1 1,
    -- 230: tmp107 = np.copy(v.aaaa.ovvv)
    .set 126 (.cp 9) 1 1,
    -- 231: tmp107 += einsum(v.aaaa.ovov, (0, 1, 2, 3), t1.aa, (2, 4), (0, 3, 1, 4))
    .add 126 (.ein [(1, [0, 1, 2, 3]), (3, [2, 4])] [0, 3, 1, 4]) 1 1,
    -- 232: tmp101 = einsum(t1.aa, (0, 1), tmp97, (2, 3, 0, 4), (3, 2, 4, 1))
    .set 127 (.ein [(3, [0, 1]), (72, [2, 3, 0, 4])] [3, 2, 4, 1]) 1 1,
    -- 233: tmp64 = np.copy(v.aaaa.ovvv)
    .set 128 (.cp 9) 1 1,
    -- 234: tmp64 += np.transpose(v.aaaa.ovvv, (0, 2, 1, 3)) * -1
    .add 128 (.tr 9 [0, 2, 1, 3]) (-1) 1,
    -- 235: tmp65 = np.copy(tmp1) * -1
    .set 129 (.cp 40) (-1) 1,
    -- 236: tmp65 += np.transpose(tmp1, (0, 2, 1, 3))
    .add 129 (.tr 40 [0, 2, 1, 3]) 1 1,
    -- 237: tmp57 = einsum(t1.aa, (0, 1), tmp53, (2, 3, 4, 0), (2, 4, 3, 1))
    .set 130 (.ein [(3, [0, 1]), (73, [2, 3, 4, 0])] [2, 4, 3, 1]) 1 1,
    -- 238: tmp69 = np.copy(tmp67) * -1
    .set 131 (.cp 75) (-1) 1,
    -- 239: tmp69 += tmp68
    .add 131 (.cp 74) 1 1,
    -- 240: tmp75 = np.copy(np.transpose(tmp72, (0, 1, 3, 2))) * -1
    .set 132 (.tr 76 [0, 1, 3, 2]) (-1) 1,
    -- 241: del tmp72
    .del 76,
    -- 242: tmp75 += tmp74 * -1
    .add 132 (.cp 77) (-1) 1,
    -- 243: del tmp74
    .del 77,
    -- 244: tmp103 = einsum(t1.aa, (0, 1), v.aaaa.vvvv, (2, 3, 4, 1), (0, 2, 3, 4))
    .set 133 (.ein [(3, [0, 1]), (23, [2, 3, 4, 1])] [0, 2, 3, 4]) 1 1,
    -- 245: tmp91 = np.copy(np.transpose(v.bbbb.ovov, (0, 2, 3, 1))) * -1
    .set 134 (.tr 0 [0, 2, 3, 1]) (-1) 1,
    -- 246: tmp91 += np.transpose(v.bbbb.ovov, (0, 2, 1, 3))
    .add 134 (.tr 0 [0, 2, 1, 3]) 1 1,
    -- 247: tmp51 = np.copy(f.aa.ov)
    .set 135 (.cp 12) 1 1,
    -- 248: tmp51 += tmp2
    .add 135 (.cp 42) 1 1,
    -- 249: tmp51 += einsum(tmp50, (0, 1, 2, 3), t1.aa, (0, 3), (1, 2)) * -1
    .add 135 (.ein [(78, [0, 1, 2, 3]), (3, [0, 3])] [1, 2]) (-1) 1,
    -- 250: tmp49 = np.copy(v.aaaa.ovvv)
    .set 136 (.cp 9) 1 1,
    -- 251: tmp49 += np.transpose(v.aaaa.ovvv, (0, 2, 3, 1)) * -1
    .add 136 (.tr 9 [0, 2, 3, 1]) (-1) 1,
    -- 252: tmp95 = np.copy(v.aaaa.oovv)
    .set 137 (.cp 24) 1 1,
    -- 253: tmp95 += np.transpose(tmp83, (1, 0, 2, 3)) * -1
    .add 137 (.tr 79 [1, 0, 2, 3]) (-1) 1,
    -- 254: tmp88 = np.copy(np.transpose(v.aaaa.ovov, (0, 2, 3, 1)))
    .set 138 (.tr 1 [0, 2, 3, 1]) 1 1,
    -- 255: tmp88 += np.transpose(v.aaaa.ovov, (0, 2, 1, 3)) * -1
    .add 138 (.tr 1 [0, 2, 1, 3]) (-1) 1,
    -- 256: tmp89 = np.copy(v.aaaa.ooov) * -1
    .set 139 (.cp 10) (-1) 1,
    -- 257: tmp89 += np.transpose(v.aaaa.ovoo, (0, 2, 3, 1))
    .add 139 (.tr 11 [0, 2, 3, 1]) 1 1,
    -- 258: tmp105 = einsum(t2.aaaa, (0, 1, 2, 3), v.aaaa.ovov, (4, 3, 5, 2), (0, 1, 4, 5)) * -1
    .set 140 (.ein [(19, [0, 1, 2, 3]), (1, [4, 3, 5, 2])] [0, 1, 4, 5]) (-1) 1,
    -- 259: tmp77 = np.copy(tmp67)
    .set 141 (.cp 75) 1 1,
    -- 260: del tmp67
    .del 75,
    -- 261: tmp77 += tmp68 * -1
    .add 141 (.cp 74) (-1) 1,
    -- 262: tmp99 = einsum(t1.aa, (0, 1), tmp62, (2, 3, 1, 4), (0, 2, 3, 4))
    .set 142 (.ein [(3, [0, 1]), (80, [2, 3, 1, 4])] [0, 2, 3, 4]) 1 1,
    -- 263: tmp36 = np.copy(f.aa.oo)
    .set 143 (.cp 25) 1 1,
    -- 264: tmp36 += np.transpose(tmp17, (1, 0))
    .add 143 (.tr 81 [1, 0]) 1 1,
    -- 265: tmp36 += np.transpose(tmp35, (1, 0)) * -1
    .add 143 (.tr 82 [1, 0]) (-1) 1,
    -- 266: del tmp35
    .del 82,
    -- 267: tmp93 = einsum(v.aabb.ooov, (0, 1, 2, 3), t2.abab, (4, 2, 5, 3), (4, 0, 1, 5))
    .set 144 (.ein [(18, [0, 1, 2, 3]), (14, [4, 2, 5, 3])] [4, 0, 1, 5]) 1 1,
    -- 268: tmp60 = np.copy(tmp5)
    .set 145 (.cp 84) 1 1,
    -- 269: tmp60 += tmp6 * 0.5
    .add 145 (.cp 83) 1 2,
    -- 270: tmp60 += tmp59
    .add 145 (.cp 85) 1 1,
    -- 271: del tmp59
    .del 85,
    -- 272: tmp19 = einsum(tmp18, (0, 1, 2, 3), t1.aa, (0, 3), (1, 2))
    .set 146 (.ein [(86, [0, 1, 2, 3]), (3, [0, 3])] [1, 2]) 1 1,
    -- 273: del tmp18
    .del 86,
    -- 274: tmp86 = np.copy(np.transpose(v.bbbb.ovov, (0, 2, 3, 1))) * -1
    .set 147 (.tr 0 [0, 2, 3, 1]) (-1) 1,
    -- 275: tmp86 += np.transpose(v.bbbb.ovov, (0, 2, 1, 3))
    .add 147 (.tr 0 [0, 2, 1, 3]) 1 1,
    -- 276: tmp55 = einsum(t1.aa, (0, 1), v.aaaa.oovv, (2, 3, 4, 1), (0, 2, 3, 4))
    .set 148 (.ein [(3, [0, 1]), (24, [2, 3, 4, 1])] [0, 2, 3, 4]) 1 1,
    -- 277: tmp192 = np.copy(tmp131)
    .set 149 (.cp 87) 1 1,
    -- 278: tmp192 += einsum(tmp50, (0, 1, 2, 3), t2.abab, (0, 4, 3, 5), (1, 4, 2, 5))
    .add 149 (.ein [(78, [0, 1, 2, 3]), (14, [0, 4, 3, 5])] [1, 4, 2, 5]) 1 1,
    -- 279: del tmp50
    .del 78,
    -- 280: tmp182 = einsum(tmp181, (0, 1, 2, 3), t2.abab, (0, 4, 2, 5), (4, 1, 5, 3))
    .set 150 (.ein [(88, [0, 1, 2, 3]), (14, [0, 4, 2, 5])] [4, 1, 5, 3]) 1 1,
    -- 281: del tmp181
    .del 88,
    -- 282: tmp164 = einsum(t2.bbbb, (0, 1, 2, 3), v.bbbb.ovov, (4, 5, 1, 3), (0, 4, 2, 5))
    .set 151 (.ein [(15, [0, 1, 2, 3]), (0, [4, 5, 1, 3])] [0, 4, 2, 5]) 1 1,
    -- 283: tmp190 = einsum(tmp114, (0, 1, 2, 3), t2.abab, (0, 4, 2, 5), (4, 1, 5, 3))
    .set 152 (.ein [(89, [0, 1, 2, 3]), (14, [0, 4, 2, 5])] [4, 1, 5, 3]) 1 1,
    -- 284: tmp31 = np.copy(f.bb.oo)
    .set 153 (.cp 22) 1 1,
    -- 285: tmp31 += np.transpose(tmp28, (1, 0))
    .add 153 (.tr 69 [1, 0]) 1 1,
    -- 286: del tmp28
    .del 69,
    -- 287: tmp31 += np.transpose(tmp30, (1, 0)) * -1
    .add 153 (.tr 90 [1, 0]) (-1) 1,
    -- 288: del tmp30
    .del 90,
    -- 289: tmp165 = einsum(v.aabb.ovov, (0, 1, 2, 3), t2.abab, (0, 4, 1, 5), (4, 2, 5, 3))
    .set 154 (.ein [(2, [0, 1, 2, 3]), (14, [0, 4, 1, 5])] [4, 2, 5, 3]) 1 1,
    -- 290: tmp206 = einsum(t1.bb, (0, 1), tmp205, (2, 3, 0, 4), (2, 3, 1, 4))
    .set 155 (.ein [(4, [0, 1]), (91, [2, 3, 0, 4])] [2, 3, 1, 4]) 1 1,
    -- 291: del tmp205
    .del 91,
    -- 292: tmp158 = einsum(t2.bbbb, (0, 1, 2, 3), v.bbbb.oooo, (4, 1, 5, 0), (4, 5, 2, 3)) * -1
    .set 156 (.ein [(15, [0, 1, 2, 3]), (26, [4, 1, 5, 0])] [4, 5, 2, 3]) (-1) 1,
    -- 293: tmp212 = np.copy(v.bbbb.vvvv) * -1
    .set 157 (.cp 20) (-1) 1,
    -- 294: tmp212 += einsum(tmp211, (0, 1, 2, 3), t1.bb, (0, 4), (3, 2, 1, 4))
    .add 157 (.ein [(92, [0, 1, 2, 3]), (4, [0, 4])] [3, 2, 1, 4]) 1 1,
    -- 295: del tmp211
    .del 92,
    -- 296: tmp177 = einsum(t1.bb, (0, 1), tmp22, (2, 3, 0, 4), (2, 3, 1, 4))
    .set 158 (.ein [(4, [0, 1]), (39, [2, 3, 0, 4])] [2, 3, 1, 4]) 1 1,
    -- 297: tmp213 = einsum(v.bbbb.ovvv, (0, 1, 2, 3), t2.bbbb, (4, 5, 1, 3), (4, 5, 0, 2))
    .set 159 (.ein [(7, [0, 1, 2, 3]), (15, [4, 5, 1, 3])] [4, 5, 0, 2]) 1 1,
    -- 298: tmp196 = einsum(t1.bb, (0, 1), tmp195, (2, 3, 0, 4), (2, 3, 1, 4))
    .set 160 (.ein [(4, [0, 1]), (93, [2, 3, 0, 4])] [2, 3, 1, 4]) 1 1,
    -- 299: del tmp195
    .del 93,
    -- 300: tmp157 = np.copy(t2.bbbb)
    .set 161 (.cp 15) 1 1,
    -- 301: tmp157 += einsum(t1.bb, (0, 1), t1.bb, (2, 3), (0, 2, 1, 3)) * 2
    .add 161 (.ein [(4, [0, 1]), (4, [2, 3])] [0, 2, 1, 3]) 2 1,
    -- 302: tmp174 = einsum(t1.bb, (0, 1), tmp173, (2, 0, 3, 4), (2, 3, 1, 4))
    .set 162 (.ein [(4, [0, 1]), (94, [2, 0, 3, 4])] [2, 3, 1, 4]) 1 1,
    -- 303: del tmp173
    .del 94,
    -- 304: tmp168 = np.copy(f.bb.vv) * -1
    .set 163 (.cp 27) (-1) 1,
    -- 305: tmp168 += np.transpose(tmp115, (1, 0)) * -1
    .add 163 (.tr 96 [1, 0]) (-1) 1,
    -- 306: tmp168 += einsum(tmp149, (0, 1, 2, 3), t1.bb, (0, 2), (1, 3)) * -1
    .add 163 (.ein [(48, [0, 1, 2, 3]), (4, [0, 2])] [1, 3]) (-1) 1,
    -- 307: tmp168 += np.transpose(tmp120, (1, 0))
    .add 163 (.tr 95 [1, 0]) 1 1,
    -- 308: tmp204 = einsum(t1.bb, (0, 1), tmp203, (2, 3, 0, 4), (2, 3, 1, 4))
    .set 164 (.ein [(4, [0, 1]), (97, [2, 3, 0, 4])] [2, 3, 1, 4]) 1 1,
    -- 309: del tmp203
    .del 97,
    -- 310: tmp172 = einsum(t2.bbbb, (0, 1, 2, 3), tmp171, (4, 5, 1, 0), (4, 5, 2, 3)) * -1
    .set 165 (.ein [(15, [0, 1, 2, 3]), (60, [4, 5, 1, 0])] [4, 5, 2, 3]) (-1) 1,
    -- 311: del tmp171
    .del 60,
    -- 312: tmp162 = np.copy(tmp111) * 0.5
    .set 166 (.cp 99) 1 2,
    -- 313: tmp162 += tmp112
    .add 166 (.cp 98) 1 1,
    -- 314: tmp208 = einsum(tmp207, (0, 1, 2, 3), t1.bb, (4, 2), (4, 0, 1, 3))
    .set 167 (.ein [(100, [0, 1, 2, 3]), (4, [4, 2])] [4, 0, 1, 3]) 1 1,
    -- 315: del tmp207
    .del 100,
    -- 316: tmp202 = einsum(t2.bbbb, (0, 1, 2, 3), tmp201, (4, 5, 0, 1), (5, 4, 2, 3)) * -1
    .set 168 (.ein [(15, [0, 1, 2, 3]), (62, [4, 5, 0, 1])] [5, 4, 2, 3]) (-1) 1,
    -- 317: del tmp201
    .del 62,
    -- 318: tmp188 = einsum(tmp152, (0, 1, 2, 3), t2.abab, (0, 4, 2, 5), (4, 1, 5, 3))
    .set 169 (.ein [(101, [0, 1, 2, 3]), (14, [0, 4, 2, 5])] [4, 1, 5, 3]) 1 1,
    -- 319: tmp200 = einsum(t2.bbbb, (0, 1, 2, 3), tmp199, (1, 4, 5, 3), (0, 4, 2, 5))
    .set 170 (.ein [(15, [0, 1, 2, 3]), (102, [1, 4, 5, 3])] [0, 4, 2, 5]) 1 1,
    -- 320: del tmp199
    .del 102,
    -- 321: tmp176 = einsum(t2.bbbb, (0, 1, 2, 3), tmp175, (4, 1), (0, 4, 2, 3)) * -1
    .set 171 (.ein [(15, [0, 1, 2, 3]), (103, [4, 1])] [0, 4, 2, 3]) (-1) 1,
    -- 322: del tmp175
    .del 103,
    -- 323: tmp187 = einsum(t2.bbbb, (0, 1, 2, 3), tmp186, (4, 1, 5, 3), (0, 4, 2, 5))
    .set 172 (.ein [(15, [0, 1, 2, 3]), (104, [4, 1, 5, 3])] [0, 4, 2, 5]) 1 1,
    -- 324: del tmp186
    .del 104,
    -- 325: tmp180 = einsum(tmp166, (0, 1, 2, 3), t1.bb, (4, 1), (4, 0, 3, 2)) * -1
    .set 173 (.ein [(106, [0, 1, 2, 3]), (4, [4, 1])] [4, 0, 3, 2]) (-1) 1,
    -- 326: tmp180 += einsum(t1.bb, (0, 1), tmp179, (2, 0, 3, 4), (2, 3, 1, 4)) * -1
    .add 173 (.ein [(4, [0, 1]), (105, [2, 0, 3, 4])] [2, 3, 1, 4]) (-1) 1,
    -- 327: del tmp179
    .del 105,
    -- 328: tmp167 = np.copy(f.bb.vv) * -1
    .set 174 (.cp 27) (-1) 1,
    -- 329: tmp167 += np.transpose(tmp115, (1, 0)) * -1
    .add 174 (.tr 96 [1, 0]) (-1) 1,
    -- 330: tmp167 += np.transpose(tmp111, (1, 0))
    .add 174 (.tr 99 [1, 0]) 1 1,
    -- 331: tmp167 += np.transpose(tmp112, (1, 0)) * 2
    .add 174 (.tr 98 [1, 0]) 2 1,
    -- 332: tmp167 += einsum(tmp166, (0, 1, 2, 3), t1.bb, (0, 2), (1, 3)) * -1
    .add 174 (.ein [(106, [0, 1, 2, 3]), (4, [0, 2])] [1, 3]) (-1) 1,
    -- 333: del tmp166
    .del 106,
    -- 334: tmp167 += einsum(tmp16, (0, 1), t1.bb, (0, 2), (1, 2))
    .add 174 (.ein [(46, [0, 1]), (4, [0, 2])] [1, 2]) 1 1,
    -- 335: tmp193 = np.copy(v.bbbb.oovv)
    .set 175 (.cp 21) 1 1,
    -- 336: tmp193 += einsum(t2.bbbb, (0, 1, 2, 3), tmp14, (1, 4, 5, 3), (0, 4, 2, 5)) * -2
    .add 175 (.ein [(15, [0, 1, 2, 3]), (34, [1, 4, 5, 3])] [0, 4, 2, 5]) (-2) 1,
    -- 337: del tmp14
    .del 34,
    -- 338: tmp193 += einsum(t1.bb, (0, 1), tmp29, (2, 3, 0, 4), (3, 2, 1, 4)) * -1
    .add 175 (.ein [(4, [0, 1]), (58, [2, 3, 0, 4])] [3, 2, 1, 4]) (-1) 1,
    -- 339: del tmp29
    .del 58,
    -- 340: tmp161 = einsum(tmp160, (0, 1), t2.bbbb, (2, 0, 3, 4), (2, 1, 3, 4)) * -1
    .set 176 (.ein [(107, [0, 1]), (15, [2, 0, 3, 4])] [2, 1, 3, 4]) (-1) 1,
    -- 341: del tmp160
    .del 107,
    -- 342: tmp191 = np.copy(v.bbbb.oovv)
    .set 177 (.cp 21) 1 1,
    -- 343: tmp191 += einsum(t2.bbbb, (0, 1, 2, 3), tmp117, (1, 4, 5, 3), (0, 4, 2, 5)) * -2
    .add 177 (.ein [(15, [0, 1, 2, 3]), (36, [1, 4, 5, 3])] [0, 4, 2, 5]) (-2) 1,
    -- 344: tmp191 += einsum(t1.bb, (0, 1), tmp141, (2, 3, 0, 4), (3, 2, 1, 4)) * -1
    .add 177 (.ein [(4, [0, 1]), (49, [2, 3, 0, 4])] [3, 2, 1, 4]) (-1) 1,
    -- 345: tmp170 = einsum(t1.bb, (0, 1), tmp169, (2, 3, 0, 4), (2, 3, 1, 4))
    .set 178 (.ein [(4, [0, 1]), (108, [2, 3, 0, 4])] [2, 3, 1, 4]) 1 1,
    -- 346: del tmp169
    .del 108,
    -- 347: tmp210 = einsum(t2.bbbb, (0, 1, 2, 3), tmp209, (4, 5, 1, 0), (5, 4, 2, 3))
    .set 179 (.ein [(15, [0, 1, 2, 3]), (109, [4, 5, 1, 0])] [5, 4, 2, 3]) 1 1,
    -- 348: del tmp209
    .del 109,
    -- 349: tmp189 = einsum(t1.bb, (0, 1), v.bbbb.ooov, (2, 0, 3, 4), (2, 3, 1, 4))
    .set 180 (.ein [(4, [0, 1]), (5, [2, 0, 3, 4])] [2, 3, 1, 4]) 1 1,
    -- 350: tmp163 = einsum(t1.bb, (0, 1), t1.bb, (2, 3), (2, 0, 1, 3)) * 2
    .set 181 (.ein [(4, [0, 1]), (4, [2, 3])] [2, 0, 1, 3]) 2 1,
    -- 351: tmp163 += t2.bbbb * -1
    .add 181 (.cp 15) (-1) 1,
    -- 352: tmp194 = np.copy(tmp131)
    .set 182 (.cp 87) 1 1,
    -- 353: tmp194 += einsum(tmp7, (0, 1, 2, 3), t2.abab, (0, 4, 3, 5), (1, 4, 2, 5))
    .add 182 (.ein [(35, [0, 1, 2, 3]), (14, [0, 4, 3, 5])] [1, 4, 2, 5]) 1 1,
    -- 354: del tmp7
    .del 35,
    -- 355: tmp121 = np.copy(f.bb.vv)
    .set 183 (.cp 27) 1 1,
    -- 356: tmp121 += np.transpose(tmp115, (1, 0))
    .add 183 (.tr 96 [1, 0]) 1 1,
    -- 357: del tmp115
    .del 96,
    -- 358: tmp121 += einsum(tmp116, (0, 1, 2, 3), t1.bb, (0, 1), (3, 2)) * -1
    .add 183 (.ein [(110, [0, 1, 2, 3]), (4, [0, 1])] [3, 2]) (-1) 1,
    -- 359: del tmp116
    .del 110,
    -- 360: tmp121 += np.transpose(tmp120, (1, 0)) * -1
    .add 183 (.tr 95 [1, 0]) (-1) 1,
    -- 361: del tmp120
    .del 95,
    -- 362: tmp135 = np.copy(np.transpose(v.aabb.vvov, (2, 0, 1, 3)))
    .set 184 (.tr 17 [2, 0, 1, 3]) 1 1,
    -- 363: tmp135 += einsum(v.aabb.vvvv, (0, 1, 2, 3), t1.bb, (4, 3), (4, 0, 1, 2))
    .add 184 (.ein [(28, [0, 1, 2, 3]), (4, [4, 3])] [4, 0, 1, 2]) 1 1,
    -- 364: tmp140 = einsum(t2.aaaa, (0, 1, 2, 3), v.aabb.ovoo, (1, 3, 4, 5), (0, 4, 5, 2))
    .set 185 (.ein [(19, [0, 1, 2, 3]), (16, [1, 3, 4, 5])] [0, 4, 5, 2]) 1 1,
    -- 365: tmp3 = np.copy(t2.abab)
    .set 186 (.cp 14) 1 1,
    -- 366: tmp3 += einsum(t1.aa, (0, 1), t1.bb, (2, 3), (0, 2, 1, 3))
    .add 186 (.ein [(3, [0, 1]), (4, [2, 3])] [0, 2, 1, 3]) 1 1,
    -- 367: tmp48 = np.copy(f.aa.vv) * -1
    .set 187 (.cp 29) (-1) 1,
    -- 368: tmp48 += np.transpose(tmp44, (1, 0)) * -1
    .add 187 (.tr 114 [1, 0]) (-1) 1,
    -- 369: tmp48 += np.transpose(tmp38, (1, 0)) * 2
    .add 187 (.tr 113 [1, 0]) 2 1,
    -- 370: tmp48 += np.transpose(tmp39, (1, 0))
    .add 187 (.tr 112 [1, 0]) 1 1,
    -- 371: tmp48 += np.transpose(tmp46, (1, 0)) * -1
    .add 187 (.tr 111 [1, 0]) (-1) 1,
    -- 372: del tmp46
    .del 111,
    -- 373: tmp48 += np.transpose(tmp47, (1, 0))
    .add 187 (.tr 115 [1, 0]) 1 1,
    -- 374: del tmp47
    .del 115,
    -- 375: tmp126 = einsum(t1.aa, (0, 1), v.aabb.ovoo, (2, 1, 3, 4), (0, 2, 3, 4))
    .set 188 (.ein [(3, [0, 1]), (16, [2, 1, 3, 4])] [0, 2, 3, 4]) 1 1,
    -- 376: tmp134 = einsum(t1.aa, (0, 1), tmp129, (2, 3, 4, 1), (0, 2, 3, 4))
    .set 189 (.ein [(3, [0, 1]), (116, [2, 3, 4, 1])] [0, 2, 3, 4]) 1 1,
    -- 377: tmp145 = np.copy(v.aabb.vvvv)
    .set 190 (.cp 28) 1 1,
    -- 378: tmp145 += einsum(tmp144, (0, 1, 2, 3), t1.bb, (0, 4), (2, 1, 3, 4)) * -1
    .add 190 (.ein [(117, [0, 1, 2, 3]), (4, [0, 4])] [2, 1, 3, 4]) (-1) 1,
    -- 379: del tmp144
    .del 117,
    -- 380: tmp124 = einsum(v.aabb.ooov, (0, 1, 2, 3), t1.bb, (4, 3), (0, 1, 4, 2))
    .set 191 (.ein [(18, [0, 1, 2, 3]), (4, [4, 3])] [0, 1, 4, 2]) 1 1,
    -- 381: tmp125 = einsum(t1.aa, (0, 1), v.aabb.vvoo, (2, 1, 3, 4), (0, 3, 4, 2))
    .set 192 (.ein [(3, [0, 1]), (30, [2, 1, 3, 4])] [0, 3, 4, 2]) 1 1,
    -- 382: tmp142 = np.copy(v.bbbb.oovv)
    .set 193 (.cp 21) 1 1,
    -- 383: tmp142 += einsum(t1.bb, (0, 1), tmp141, (0, 2, 3, 4), (3, 2, 4, 1))
    .add 193 (.ein [(4, [0, 1]), (49, [0, 2, 3, 4])] [3, 2, 4, 1]) 1 1,
    -- 384: del tmp141
    .del 49,
    -- 385: tmp143 = einsum(v.aabb.ovov, (0, 1, 2, 3), t2.abab, (4, 5, 1, 3), (4, 0, 5, 2))
    .set 194 (.ein [(2, [0, 1, 2, 3]), (14, [4, 5, 1, 3])] [4, 0, 5, 2]) 1 1,
    -- 386: tmp154 = einsum(v.aabb.ovvv, (0, 1, 2, 3), t2.abab, (4, 5, 1, 3), (4, 0, 5, 2))
    .set 195 (.ein [(13, [0, 1, 2, 3]), (14, [4, 5, 1, 3])] [4, 0, 5, 2]) 1 1,
    -- 387: tmp136 = einsum(tmp21, (0, 1, 2, 3), t1.aa, (4, 3), (4, 0, 1, 2))
    .set 196 (.ein [(43, [0, 1, 2, 3]), (3, [4, 3])] [4, 0, 1, 2]) 1 1,
    -- 388: tmp132 = np.copy(np.transpose(v.aabb.vvoo, (2, 3, 0, 1))) * -1
    .set 197 (.tr 30 [2, 3, 0, 1]) (-1) 1,
    -- 389: tmp132 += einsum(t1.aa, (0, 1), v.aabb.ovoo, (0, 2, 3, 4), (3, 4, 2, 1))
    .add 197 (.ein [(3, [0, 1]), (16, [0, 2, 3, 4])] [3, 4, 2, 1]) 1 1,
    -- 390: tmp132 += einsum(v.aabb.ovov, (0, 1, 2, 3), t2.abab, (0, 4, 5, 3), (2, 4, 1, 5))
    .add 197 (.ein [(2, [0, 1, 2, 3]), (14, [0, 4, 5, 3])] [2, 4, 1, 5]) 1 1,
    -- 391: tmp110 = np.copy(t2.abab)
    .set 198 (.cp 14) 1 1,
    -- 392: tmp110 += einsum(t1.aa, (0, 1), t1.bb, (2, 3), (0, 2, 1, 3)) * 2
    .add 198 (.ein [(3, [0, 1]), (4, [2, 3])] [0, 2, 1, 3]) 2 1,
    -- 393: tmp139 = np.copy(tmp85) * -1
    .set 199 (.cp 119) (-1) 1,
    -- 394: tmp139 += tmp138 * 2
    .add 199 (.cp 118) 2 1,
    -- 395: tmp139 += einsum(tmp117, (0, 1, 2, 3), t2.abab, (4, 0, 5, 2), (4, 1, 5, 3)) * -1
    .add 199 (.ein [(36, [0, 1, 2, 3]), (14, [4, 0, 5, 2])] [4, 1, 5, 3]) (-1) 1,
    -- 396: del tmp117
    .del 36,
    -- 397: tmp123 = np.copy(np.transpose(tmp24, (1, 0)))
    .set 200 (.tr 64 [1, 0]) 1 1,
    -- 398: tmp123 += np.transpose(tmp25, (1, 0)) * 2
    .add 200 (.tr 66 [1, 0]) 2 1,
    -- 399: tmp123 += np.transpose(tmp122, (1, 0))
    .add 200 (.tr 65 [1, 0]) 1 1,
    -- 400: del tmp122
    .del 65,
    -- 401: tmp113 = np.copy(tmp111)
    .set 201 (.cp 99) 1 1,
    -- 402: del tmp111
    .del 99,
    -- 403: tmp113 += tmp112 * 2
    .add 201 (.cp 98) 2 1,
    -- 404: del tmp112
    .del 98,
    -- 405: tmp155 = einsum(v.aabb.oovv, (0, 1, 2, 3), t1.bb, (4, 3), (0, 1, 4, 2))
    .set 202 (.ein [(31, [0, 1, 2, 3]), (4, [4, 3])] [0, 1, 4, 2]) 1 1,
    -- 406: tmp148 = einsum(tmp146, (0, 1, 2, 3), t1.aa, (4, 2), (4, 0, 1, 3)) * -1
    .set 203 (.ein [(121, [0, 1, 2, 3]), (3, [4, 2])] [4, 0, 1, 3]) (-1) 1,
    -- 407: del tmp146
    .del 121,
    -- 408: tmp148 += einsum(t1.aa, (0, 1), tmp147, (2, 0, 3, 4), (2, 3, 4, 1))
    .add 203 (.ein [(3, [0, 1]), (120, [2, 0, 3, 4])] [2, 3, 4, 1]) 1 1,
    -- 409: del tmp147
    .del 120,
    -- 410: tmp137 = np.copy(v.aaaa.oovv)
    .set 204 (.cp 24) 1 1,
    -- 411: tmp137 += np.transpose(tmp42, (1, 0, 3, 2)) * -1
    .add 204 (.tr 122 [1, 0, 3, 2]) (-1) 1,
    -- 412: tmp137 += einsum(tmp81, (0, 1, 2, 3), t2.aaaa, (4, 0, 5, 2), (1, 4, 3, 5)) * 2
    .add 204 (.ein [(123, [0, 1, 2, 3]), (19, [4, 0, 5, 2])] [1, 4, 3, 5]) 2 1,
    -- 413: tmp137 += einsum(t1.aa, (0, 1), tmp34, (0, 2, 3, 4), (3, 2, 4, 1))
    .add 204 (.ein [(3, [0, 1]), (54, [0, 2, 3, 4])] [3, 2, 4, 1]) 1 1,
    -- 414: del tmp34
    .del 54,
    -- 415: tmp11 = np.copy(np.transpose(tmp5, (1, 0))) * 2
    .set 205 (.tr 84 [1, 0]) 2 1,
    -- 416: del tmp5
    .del 84,
    -- 417: tmp11 += np.transpose(tmp6, (1, 0))
    .add 205 (.tr 83 [1, 0]) 1 1,
    -- 418: del tmp6
    .del 83,
    -- 419: tmp11 += np.transpose(tmp10, (1, 0))
    .add 205 (.tr 124 [1, 0]) 1 1,
    -- 420: del tmp10
    .del 124,
    -- 421: tmp151 = einsum(tmp149, (0, 1, 2, 3), t1.bb, (4, 2), (4, 0, 1, 3)) * -1
    .set 206 (.ein [(48, [0, 1, 2, 3]), (4, [4, 2])] [4, 0, 1, 3]) (-1) 1,
    -- 422: del tmp149
    .del 48,
    -- 423: tmp151 += einsum(t1.bb, (0, 1), tmp150, (2, 3, 0, 4), (2, 3, 4, 1))
    .add 206 (.ein [(4, [0, 1]), (125, [2, 3, 0, 4])] [2, 3, 4, 1]) 1 1,
    -- 424: del tmp150
    .del 125,
    -- 425: tmp156 = einsum(tmp128, (0, 1, 2, 3), t1.aa, (4, 2), (4, 0, 1, 3))
    .set 207 (.ein [(57, [0, 1, 2, 3]), (3, [4, 2])] [4, 0, 1, 3]) 1 1,
    -- 426: tmp130 = np.copy(np.transpose(tmp129, (0, 1, 3, 2)))
    .set 208 (.tr 116 [0, 1, 3, 2]) 1 1,
    -- 427: del tmp129
    .del 116,
    -- 428: tmp130 += einsum(t1.aa, (0, 1), tmp21, (0, 2, 3, 4), (2, 3, 4, 1)) * -1
    .add 208 (.ein [(3, [0, 1]), (43, [0, 2, 3, 4])] [2, 3, 4, 1]) (-1) 1,
    -- 429: tmp153 = einsum(t1.aa, (0, 1), v.aabb.ovvv, (2, 1, 3, 4), (0, 2, 3, 4))
    .set 209 (.ein [(3, [0, 1]), (13, [2, 1, 3, 4])] [0, 2, 3, 4]) 1 1,
    -- 430: tmp153 += einsum(t1.bb, (0, 1), tmp0, (2, 3, 0, 4), (2, 3, 4, 1)) * -1
    .add 209 (.ein [(4, [0, 1]), (50, [2, 3, 0, 4])] [2, 3, 4, 1]) (-1) 1,
    -- 431: tmp133 = np.copy(v.aabb.oovv)
    .set 210 (.cp 31) 1 1,
    -- 432: tmp133 += einsum(v.aabb.ooov, (0, 1, 2, 3), t1.bb, (2, 4), (0, 1, 3, 4)) * -1
    .add 210 (.ein [(18, [0, 1, 2, 3]), (4, [2, 4])] [0, 1, 3, 4]) (-1) 1,
    -- 433: tmp41 = einsum(t1.aa, (0, 1), t1.aa, (2, 3), (0, 2, 3, 1)) * 2
    .set 211 (.ein [(3, [0, 1]), (3, [2, 3])] [0, 2, 3, 1]) 2 1,
    -- 434: tmp41 += t2.aaaa * -1
    .add 211 (.cp 19) (-1) 1,
    -- 435: tmp33 = einsum(t2.aaaa, (0, 1, 2, 3), v.aaaa.oooo, (4, 1, 5, 0), (4, 5, 2, 3)) * -1
    .set 212 (.ein [(19, [0, 1, 2, 3]), (32, [4, 1, 5, 0])] [4, 5, 2, 3]) (-1) 1,
    -- 436: tmp108 = np.copy(v.aaaa.vvvv)
    .set 213 (.cp 23) 1 1,
    -- 437: tmp108 += einsum(tmp107, (0, 1, 2, 3), t1.aa, (0, 4), (1, 3, 2, 4))
    .add 213 (.ein [(126, [0, 1, 2, 3]), (3, [0, 4])] [1, 3, 2, 4]) 1 1,
    -- 438: del tmp107
    .del 126,
    -- 439: tmp80 = einsum(t2.aaaa, (0, 1, 2, 3), tmp42, (4, 1, 5, 3), (0, 4, 2, 5))
    .set 214 (.ein [(19, [0, 1, 2, 3]), (122, [4, 1, 5, 3])] [0, 4, 2, 5]) 1 1,
    -- 440: tmp102 = einsum(tmp101, (0, 1, 2, 3), t1.aa, (2, 4), (0, 1, 4, 3))
    .set 215 (.ein [(127, [0, 1, 2, 3]), (3, [2, 4])] [0, 1, 4, 3]) 1 1,
    -- 441: del tmp101
    .del 127,
    -- 442: tmp66 = einsum(tmp64, (0, 1, 2, 3), t1.aa, (4, 2), (4, 0, 3, 1)) * -1
    .set 216 (.ein [(128, [0, 1, 2, 3]), (3, [4, 2])] [4, 0, 3, 1]) (-1) 1,
    -- 443: del tmp64
    .del 128,
    -- 444: tmp66 += einsum(tmp65, (0, 1, 2, 3), t1.aa, (2, 4), (0, 1, 4, 3)) * -1
    .add 216 (.ein [(129, [0, 1, 2, 3]), (3, [2, 4])] [0, 1, 4, 3]) (-1) 1,
    -- 445: del tmp65
    .del 129,
    -- 446: tmp58 = einsum(tmp57, (0, 1, 2, 3), t1.aa, (1, 4), (0, 2, 4, 3))
    .set 217 (.ein [(130, [0, 1, 2, 3]), (3, [1, 4])] [0, 2, 4, 3]) 1 1,
    -- 447: del tmp57
    .del 130,
    -- 448: tmp70 = einsum(tmp69, (0, 1, 2, 3), t2.abab, (4, 1, 5, 3), (4, 0, 5, 2))
    .set 218 (.ein [(131, [0, 1, 2, 3]), (14, [4, 1, 5, 3])] [4, 0, 5, 2]) 1 1,
    -- 449: del tmp69
    .del 131,
    -- 450: tmp76 = einsum(tmp75, (0, 1, 2, 3), t2.aaaa, (4, 1, 5, 3), (4, 0, 5, 2))
    .set 219 (.ein [(132, [0, 1, 2, 3]), (19, [4, 1, 5, 3])] [4, 0, 5, 2]) 1 1,
    -- 451: del tmp75
    .del 132,
    -- 452: tmp104 = einsum(tmp103, (0, 1, 2, 3), t1.aa, (4, 2), (4, 0, 1, 3))
    .set 220 (.ein [(133, [0, 1, 2, 3]), (3, [4, 2])] [4, 0, 1, 3]) 1 1,
    -- 453: del tmp103
    .del 133,
    -- 454: tmp92 = np.copy(tmp85)
    .set 221 (.cp 119) 1 1,
    -- 455: tmp92 += einsum(tmp91, (0, 1, 2, 3), t2.abab, (4, 0, 5, 2), (4, 1, 5, 3)) * -1
    .add 221 (.ein [(134, [0, 1, 2, 3]), (14, [4, 0, 5, 2])] [4, 1, 5, 3]) (-1) 1,
    -- 456: del tmp91
    .del 134,
    -- 457: tmp40 = np.copy(tmp38) * 2
    .set 222 (.cp 113) 2 1,
    -- 458: del tmp38
    .del 113,
    -- 459: tmp40 += tmp39
    .add 222 (.cp 112) 1 1,
    -- 460: del tmp39
    .del 112,
    -- 461: tmp54 = einsum(t2.aaaa, (0, 1, 2, 3), tmp53, (4, 5, 1, 0), (4, 5, 2, 3)) * -1
    .set 223 (.ein [(19, [0, 1, 2, 3]), (73, [4, 5, 1, 0])] [4, 5, 2, 3]) (-1) 1,
    -- 462: del tmp53
    .del 73,
    -- 463: tmp52 = np.copy(f.aa.vv) * -1
    .set 224 (.cp 29) (-1) 1,
    -- 464: tmp52 += np.transpose(tmp44, (1, 0)) * -1
    .add 224 (.tr 114 [1, 0]) (-1) 1,
    -- 465: del tmp44
    .del 114,
    -- 466: tmp52 += einsum(tmp49, (0, 1, 2, 3), t1.aa, (0, 1), (3, 2)) * -1
    .add 224 (.ein [(136, [0, 1, 2, 3]), (3, [0, 1])] [3, 2]) (-1) 1,
    -- 467: del tmp49
    .del 136,
    -- 468: tmp52 += einsum(t1.aa, (0, 1), tmp51, (0, 2), (2, 1))
    .add 224 (.ein [(3, [0, 1]), (135, [0, 2])] [2, 1]) 1 1,
    -- 469: del tmp51
    .del 135,
    -- 470: tmp96 = einsum(tmp95, (0, 1, 2, 3), t2.aaaa, (4, 0, 5, 3), (4, 1, 5, 2))
    .set 225 (.ein [(137, [0, 1, 2, 3]), (19, [4, 0, 5, 3])] [4, 1, 5, 2]) 1 1,
    -- 471: del tmp95
    .del 137,
    -- 472: tmp109 = einsum(v.aaaa.ovvv, (0, 1, 2, 3), t2.aaaa, (4, 5, 3, 1), (4, 5, 0, 2)) * -1
    .set 226 (.ein [(9, [0, 1, 2, 3]), (19, [4, 5, 3, 1])] [4, 5, 0, 2]) (-1) 1,
    -- 473: tmp90 = np.copy(v.aaaa.oovv)
    .set 227 (.cp 24) 1 1,
    -- 474: tmp90 += einsum(tmp88, (0, 1, 2, 3), t2.aaaa, (4, 0, 5, 3), (4, 1, 5, 2)) * -2
    .add 227 (.ein [(138, [0, 1, 2, 3]), (19, [4, 0, 5, 3])] [4, 1, 5, 2]) (-2) 1,
    -- 475: del tmp88
    .del 138,
    -- 476: tmp90 += einsum(tmp89, (0, 1, 2, 3), t1.aa, (0, 4), (1, 2, 4, 3)) * -1
    .add 227 (.ein [(139, [0, 1, 2, 3]), (3, [0, 4])] [1, 2, 4, 3]) (-1) 1,
    -- 477: del tmp89
    .del 139,
    -- 478: tmp98 = einsum(t2.aaaa, (0, 1, 2, 3), tmp97, (4, 5, 0, 1), (5, 4, 2, 3)) * -1
    .set 228 (.ein [(19, [0, 1, 2, 3]), (72, [4, 5, 0, 1])] [5, 4, 2, 3]) (-1) 1,
    -- 479: del tmp97
    .del 72,
    -- 480: tmp106 = einsum(t2.aaaa, (0, 1, 2, 3), tmp105, (4, 5, 1, 0), (5, 4, 2, 3))
    .set 229 (.ein [(19, [0, 1, 2, 3]), (140, [4, 5, 1, 0])] [5, 4, 2, 3]) 1 1,
    -- 481: del tmp105
    .del 140,
    -- 482: tmp84 = np.copy(v.aaaa.oovv)
    .set 230 (.cp 24) 1 1,
    -- 483: tmp84 += einsum(tmp81, (0, 1, 2, 3), t2.aaaa, (4, 0, 5, 3), (4, 1, 5, 2)) * -2
    .add 230 (.ein [(123, [0, 1, 2, 3]), (19, [4, 0, 5, 3])] [4, 1, 5, 2]) (-2) 1,
    -- 484: del tmp81
    .del 123,
    -- 485: tmp84 += tmp83 * -1
    .add 230 (.cp 79) (-1) 1,
    -- 486: del tmp83
    .del 79,
    -- 487: tmp78 = einsum(tmp77, (0, 1, 2, 3), t2.abab, (4, 1, 5, 3), (4, 0, 5, 2))
    .set 231 (.ein [(141, [0, 1, 2, 3]), (14, [4, 1, 5, 3])] [4, 0, 5, 2]) 1 1,
    -- 488: tmp100 = einsum(tmp99, (0, 1, 2, 3), t1.aa, (2, 4), (0, 1, 4, 3))
    .set 232 (.ein [(142, [0, 1, 2, 3]), (3, [2, 4])] [0, 1, 4, 3]) 1 1,
    -- 489: del tmp99
    .del 142,
    -- 490: tmp37 = einsum(t2.aaaa, (0, 1, 2, 3), tmp36, (1, 4), (0, 4, 2, 3)) * -1
    .set 233 (.ein [(19, [0, 1, 2, 3]), (143, [1, 4])] [0, 4, 2, 3]) (-1) 1,
    -- 491: tmp94 = einsum(tmp93, (0, 1, 2, 3), t1.aa, (2, 4), (0, 1, 4, 3))
    .set 234 (.ein [(144, [0, 1, 2, 3]), (3, [2, 4])] [0, 1, 4, 3]) 1 1,
    -- 492: del tmp93
    .del 144,
    -- 493: tmp32 = np.copy(t2.aaaa)
    .set 235 (.cp 19) 1 1,
    -- 494: tmp32 += einsum(t1.aa, (0, 1), t1.aa, (2, 3), (2, 0, 3, 1)) * 2
    .add 235 (.ein [(3, [0, 1]), (3, [2, 3])] [2, 0, 3, 1]) 2 1,
    -- 495: tmp79 = einsum(t1.aa, (0, 1), v.aaaa.ooov, (2, 0, 3, 4), (2, 3, 1, 4))
    .set 236 (.ein [(3, [0, 1]), (10, [2, 0, 3, 4])] [2, 3, 1, 4]) 1 1,
    -- 496: tmp43 = einsum(v.aaaa.ovov, (0, 1, 2, 3), t2.aaaa, (4, 2, 5, 3), (4, 0, 5, 1))
    .set 237 (.ein [(1, [0, 1, 2, 3]), (19, [4, 2, 5, 3])] [4, 0, 5, 1]) 1 1,
    -- 497: tmp63 = einsum(t1.aa, (0, 1), tmp1, (2, 3, 0, 4), (2, 3, 1, 4))
    .set 238 (.ein [(3, [0, 1]), (40, [2, 3, 0, 4])] [2, 3, 1, 4]) 1 1,
    -- 498: tmp61 = einsum(t2.aaaa, (0, 1, 2, 3), tmp60, (4, 1), (0, 4, 2, 3)) * -2
    .set 239 (.ein [(19, [0, 1, 2, 3]), (145, [4, 1])] [0, 4, 2, 3]) (-2) 1,
    -- 499: del tmp60
    .del 145,
    -- 500: tmp20 = np.copy(f.aa.oo)
    .set 240 (.cp 25) 1 1,
    -- 501: tmp20 += np.transpose(tmp17, (1, 0))
    .add 240 (.tr 81 [1, 0]) 1 1,
    -- 502: del tmp17
    .del 81,
    -- 503: tmp20 += np.transpose(tmp19, (1, 0)) * -1
    .add 240 (.tr 146 [1, 0]) (-1) 1,
    -- 504: del tmp19
    .del 146,
    -- 505: tmp87 = np.copy(tmp85)
    .set 241 (.cp 119) 1 1,
    -- 506: tmp87 += einsum(tmp86, (0, 1, 2, 3), t2.abab, (4, 0, 5, 2), (4, 1, 5, 3)) * -1
    .add 241 (.ein [(147, [0, 1, 2, 3]), (14, [4, 0, 5, 2])] [4, 1, 5, 3]) (-1) 1,
    -- 507: del tmp86
    .del 147,
    -- 508: tmp56 = einsum(t1.aa, (0, 1), tmp55, (2, 3, 0, 4), (2, 3, 1, 4))
    .set 242 (.ein [(3, [0, 1]), (148, [2, 3, 0, 4])] [2, 3, 1, 4]) 1 1,
    -- 509: del tmp55
    .del 148,
    -- 510: tmp26 = np.copy(np.transpose(tmp24, (1, 0))) * 0.5
    .set 243 (.tr 64 [1, 0]) 1 2,
    -- 511: del tmp24
    .del 64,
    -- 512: tmp26 += np.transpose(tmp25, (1, 0))
    .add 243 (.tr 66 [1, 0]) 1 1,
    -- 513: del tmp25
    .del 66,
    -- 514: tmp26 += einsum(t1.bb, (0, 1), tmp16, (2, 1), (2, 0)) * 0.5
    .add 243 (.ein [(4, [0, 1]), (46, [2, 1])] [2, 0]) 1 2,
    -- 515: tmp23 = np.copy(t2.bbbb) * 2
    .set 244 (.cp 15) 2 1,
    -- 516: tmp23 += einsum(t1.bb, (0, 1), t1.bb, (2, 3), (0, 2, 1, 3))
    .add 244 (.ein [(4, [0, 1]), (4, [2, 3])] [0, 2, 1, 3]) 1 1,
    -- 517: tmp27 = np.copy(f.bb.vv)
    .set 245 (.cp 27) 1 1,
    -- 518: tmp27 += einsum(v.bbbb.ovvv, (0, 1, 2, 3), t1.bb, (0, 3), (1, 2)) * -1
    .add 245 (.ein [(7, [0, 1, 2, 3]), (4, [0, 3])] [1, 2]) (-1) 1,
    -- 519: tmp4 = np.copy(t2.aaaa) * 2
    .set 246 (.cp 19) 2 1,
    -- 520: tmp4 += einsum(t1.aa, (0, 1), t1.aa, (2, 3), (2, 0, 3, 1))
    .add 246 (.ein [(3, [0, 1]), (3, [2, 3])] [2, 0, 3, 1]) 1 1,
    -- 521: tmp12 = np.copy(f.aa.vv)
    .set 247 (.cp 29) 1 1,
    -- 522: tmp12 += einsum(v.aaaa.ovvv, (0, 1, 2, 3), t1.aa, (0, 1), (2, 3))
    .add 247 (.ein [(9, [0, 1, 2, 3]), (3, [0, 1])] [2, 3]) 1 1,
    -- 523: t2new.bbbb = einsum(t2.bbbb, (0, 1, 2, 3), tmp31, (1, 4), (0, 4, 2, 3)) * -1
    .set 248 (.ein [(15, [0, 1, 2, 3]), (153, [1, 4])] [0, 4, 2, 3]) (-1) 1,
    -- 524: t2new.bbbb += einsum(v.bbbb.oooo, (0, 1, 2, 3), tmp157, (3, 1, 4, 5), (0, 2, 5, 4)) * 0.5
    .add 248 (.ein [(26, [0, 1, 2, 3]), (161, [3, 1, 4, 5])] [0, 2, 5, 4]) 1 2,
    -- 525: del tmp157
    .del 161,
    -- 526: t2new.bbbb += np.transpose(tmp158, (1, 0, 3, 2))
    .add 248 (.tr 156 [1, 0, 3, 2]) 1 1,
    -- 527: del tmp158
    .del 156,
    -- 528: t2new.bbbb += np.transpose(tmp161, (0, 1, 3, 2)) * -1
    .add 248 (.tr 176 [0, 1, 3, 2]) (-1) 1,
    -- 529: t2new.bbbb += einsum(tmp162, (0, 1), t2.bbbb, (2, 3, 4, 1), (2, 3, 4, 0)) * -4
    .add 248 (.ein [(166, [0, 1]), (15, [2, 3, 4, 1])] [2, 3, 4, 0]) (-4) 1,
    -- 530: del tmp162
    .del 166,
    -- 531: t2new.bbbb += np.transpose(tmp161, (1, 0, 3, 2)) * 2
    .add 248 (.tr 176 [1, 0, 3, 2]) 2 1,
    -- 532: del tmp161
    .del 176,
    -- 533: t2new.bbbb += einsum(v.bbbb.oooo, (0, 1, 2, 3), tmp163, (3, 1, 4, 5), (0, 2, 5, 4)) * -0.5
    .add 248 (.ein [(26, [0, 1, 2, 3]), (181, [3, 1, 4, 5])] [0, 2, 5, 4]) (-1) 2,
    -- 534: del tmp163
    .del 181,
    -- 535: t2new.bbbb += np.transpose(tmp164, (1, 0, 3, 2)) * 2
    .add 248 (.tr 151 [1, 0, 3, 2]) 2 1,
    -- 536: t2new.bbbb += np.transpose(tmp165, (1, 0, 3, 2))
    .add 248 (.tr 154 [1, 0, 3, 2]) 1 1,
    -- 537: t2new.bbbb += einsum(tmp167, (0, 1), t2.bbbb, (2, 3, 4, 0), (2, 3, 1, 4)) * 2
    .add 248 (.ein [(174, [0, 1]), (15, [2, 3, 4, 0])] [2, 3, 1, 4]) 2 1,
    -- 538: del tmp167
    .del 174,
    -- 539: t2new.bbbb += np.transpose(tmp164, (1, 0, 2, 3)) * -2
    .add 248 (.tr 151 [1, 0, 2, 3]) (-2) 1,
    -- 540: t2new.bbbb += np.transpose(tmp165, (1, 0, 2, 3)) * -1
    .add 248 (.tr 154 [1, 0, 2, 3]) (-1) 1,
    -- 541: t2new.bbbb += einsum(t2.bbbb, (0, 1, 2, 3), tmp168, (3, 4), (0, 1, 2, 4)) * -2
    .add 248 (.ein [(15, [0, 1, 2, 3]), (163, [3, 4])] [0, 1, 2, 4]) (-2) 1,
    -- 542: del tmp168
    .del 163,
    -- 543: t2new.bbbb += np.transpose(tmp170, (1, 0, 3, 2))
    .add 248 (.tr 178 [1, 0, 3, 2]) 1 1,
    -- 544: t2new.bbbb += np.transpose(tmp172, (1, 0, 3, 2)) * -2
    .add 248 (.tr 165 [1, 0, 3, 2]) (-2) 1,
    -- 545: t2new.bbbb += np.transpose(tmp174, (1, 0, 2, 3))
    .add 248 (.tr 162 [1, 0, 2, 3]) 1 1,
    -- 546: t2new.bbbb += np.transpose(tmp174, (1, 0, 3, 2)) * -1
    .add 248 (.tr 162 [1, 0, 3, 2]) (-1) 1,
    -- 547: t2new.bbbb += np.transpose(tmp176, (0, 1, 3, 2)) * -2
    .add 248 (.tr 171 [0, 1, 3, 2]) (-2) 1,
    -- 548: t2new.bbbb += np.transpose(tmp170, (1, 0, 2, 3)) * -1
    .add 248 (.tr 178 [1, 0, 2, 3]) (-1) 1,
    -- 549: t2new.bbbb += np.transpose(tmp170, (0, 1, 3, 2)) * -1
    .add 248 (.tr 178 [0, 1, 3, 2]) (-1) 1,
    -- 550: t2new.bbbb += np.transpose(tmp172, (0, 1, 3, 2)) * 2
    .add 248 (.tr 165 [0, 1, 3, 2]) 2 1,
    -- 551: del tmp172
    .del 165,
    -- 552: t2new.bbbb += tmp174 * -1
    .add 248 (.cp 162) (-1) 1,
    -- 553: t2new.bbbb += np.transpose(tmp174, (0, 1, 3, 2))
    .add 248 (.tr 162 [0, 1, 3, 2]) 1 1,
    -- 554: del tmp174
    .del 162,
    -- 555: t2new.bbbb += np.transpose(tmp176, (1, 0, 3, 2)) * 2
    .add 248 (.tr 171 [1, 0, 3, 2]) 2 1,
    -- 556: del tmp176
    .del 171,
    -- 557: t2new.bbbb += tmp170
    .add 248 (.cp 178) 1 1,
    -- 558: del tmp170
    .del 178,
    -- 559: t2new.bbbb += np.transpose(tmp177, (1, 0, 3, 2)) * -1
    .add 248 (.tr 158 [1, 0, 3, 2]) (-1) 1,
    -- 560: t2new.bbbb += np.transpose(tmp178, (1, 0, 2, 3))
    .add 248 (.tr 59 [1, 0, 2, 3]) 1 1,
    -- 561: t2new.bbbb += np.transpose(v.bbbb.ovov, (0, 2, 1, 3))
    .add 248 (.tr 0 [0, 2, 1, 3]) 1 1,
    -- 562: t2new.bbbb += einsum(tmp180, (0, 1, 2, 3), t2.bbbb, (4, 1, 5, 3), (4, 0, 2, 5)) * 2
    .add 248 (.ein [(173, [0, 1, 2, 3]), (15, [4, 1, 5, 3])] [4, 0, 2, 5]) 2 1,
    -- 563: del tmp180
    .del 173,
    -- 564: t2new.bbbb += np.transpose(tmp182, (0, 1, 3, 2))
    .add 248 (.tr 150 [0, 1, 3, 2]) 1 1,
    -- 565: t2new.bbbb += np.transpose(tmp177, (0, 1, 3, 2))
    .add 248 (.tr 158 [0, 1, 3, 2]) 1 1,
    -- 566: t2new.bbbb += tmp178 * -1
    .add 248 (.cp 59) (-1) 1,
    -- 567: t2new.bbbb += np.transpose(v.bbbb.ovov, (0, 2, 3, 1)) * -1
    .add 248 (.tr 0 [0, 2, 3, 1]) (-1) 1,
    -- 568: t2new.bbbb += np.transpose(tmp187, (1, 0, 3, 2)) * -2
    .add 248 (.tr 172 [1, 0, 3, 2]) (-2) 1,
    -- 569: t2new.bbbb += np.transpose(tmp188, (1, 0, 3, 2))
    .add 248 (.tr 169 [1, 0, 3, 2]) 1 1,
    -- 570: t2new.bbbb += np.transpose(tmp189, (0, 1, 3, 2))
    .add 248 (.tr 180 [0, 1, 3, 2]) 1 1,
    -- 571: t2new.bbbb += tmp190 * 2
    .add 248 (.cp 152) 2 1,
    -- 572: t2new.bbbb += np.transpose(tmp190, (1, 0, 3, 2)) * 2
    .add 248 (.tr 152 [1, 0, 3, 2]) 2 1,
    -- 573: t2new.bbbb += einsum(tmp191, (0, 1, 2, 3), t2.bbbb, (4, 1, 5, 3), (0, 4, 2, 5)) * -2
    .add 248 (.ein [(177, [0, 1, 2, 3]), (15, [4, 1, 5, 3])] [0, 4, 2, 5]) (-2) 1,
    -- 574: del tmp191
    .del 177,
    -- 575: t2new.bbbb += einsum(tmp192, (0, 1, 2, 3), t2.abab, (0, 4, 2, 5), (1, 4, 3, 5)) * -1
    .add 248 (.ein [(149, [0, 1, 2, 3]), (14, [0, 4, 2, 5])] [1, 4, 3, 5]) (-1) 1,
    -- 576: del tmp192
    .del 149,
    -- 577: t2new.bbbb += np.transpose(tmp189, (1, 0, 3, 2)) * -1
    .add 248 (.tr 180 [1, 0, 3, 2]) (-1) 1,
    -- 578: t2new.bbbb += np.transpose(tmp190, (0, 1, 3, 2)) * -2
    .add 248 (.tr 152 [0, 1, 3, 2]) (-2) 1,
    -- 579: t2new.bbbb += np.transpose(tmp190, (1, 0, 2, 3)) * -2
    .add 248 (.tr 152 [1, 0, 2, 3]) (-2) 1,
    -- 580: del tmp190
    .del 152,
    -- 581: t2new.bbbb += einsum(t2.bbbb, (0, 1, 2, 3), tmp193, (4, 1, 5, 3), (0, 4, 5, 2)) * 2
    .add 248 (.ein [(15, [0, 1, 2, 3]), (175, [4, 1, 5, 3])] [0, 4, 5, 2]) 2 1,
    -- 582: del tmp193
    .del 175,
    -- 583: t2new.bbbb += einsum(tmp194, (0, 1, 2, 3), t2.abab, (0, 4, 2, 5), (4, 1, 3, 5))
    .add 248 (.ein [(182, [0, 1, 2, 3]), (14, [0, 4, 2, 5])] [4, 1, 3, 5]) 1 1,
    -- 584: del tmp194
    .del 182,
    -- 585: t2new.bbbb += np.transpose(tmp196, (1, 0, 3, 2))
    .add 248 (.tr 160 [1, 0, 3, 2]) 1 1,
    -- 586: t2new.bbbb += tmp189 * -1
    .add 248 (.cp 180) (-1) 1,
    -- 587: t2new.bbbb += np.transpose(tmp200, (1, 0, 2, 3)) * 2
    .add 248 (.tr 170 [1, 0, 2, 3]) 2 1,
    -- 588: t2new.bbbb += np.transpose(tmp196, (0, 1, 3, 2)) * -1
    .add 248 (.tr 160 [0, 1, 3, 2]) (-1) 1,
    -- 589: del tmp196
    .del 160,
    -- 590: t2new.bbbb += np.transpose(tmp189, (1, 0, 2, 3))
    .add 248 (.tr 180 [1, 0, 2, 3]) 1 1,
    -- 591: del tmp189
    .del 180,
    -- 592: t2new.bbbb += tmp200 * -2
    .add 248 (.cp 170) (-2) 1,
    -- 593: del tmp200
    .del 170,
    -- 594: t2new.bbbb += np.transpose(tmp202, (0, 1, 3, 2)) * -2
    .add 248 (.tr 168 [0, 1, 3, 2]) (-2) 1,
    -- 595: del tmp202
    .del 168,
    -- 596: t2new.bbbb += np.transpose(tmp178, (0, 1, 3, 2))
    .add 248 (.tr 59 [0, 1, 3, 2]) 1 1,
    -- 597: t2new.bbbb += tmp204
    .add 248 (.cp 164) 1 1,
    -- 598: t2new.bbbb += np.transpose(tmp204, (0, 1, 3, 2)) * -1
    .add 248 (.tr 164 [0, 1, 3, 2]) (-1) 1,
    -- 599: del tmp204
    .del 164,
    -- 600: t2new.bbbb += np.transpose(tmp206, (0, 1, 3, 2))
    .add 248 (.tr 155 [0, 1, 3, 2]) 1 1,
    -- 601: t2new.bbbb += np.transpose(tmp206, (1, 0, 3, 2)) * -1
    .add 248 (.tr 155 [1, 0, 3, 2]) (-1) 1,
    -- 602: t2new.bbbb += tmp208
    .add 248 (.cp 167) 1 1,
    -- 603: t2new.bbbb += np.transpose(tmp208, (0, 1, 3, 2)) * -1
    .add 248 (.tr 167 [0, 1, 3, 2]) (-1) 1,
    -- 604: del tmp208
    .del 167,
    -- 605: t2new.bbbb += np.transpose(tmp210, (0, 1, 3, 2)) * -2
    .add 248 (.tr 179 [0, 1, 3, 2]) (-2) 1,
    -- 606: del tmp210
    .del 179,
    -- 607: t2new.bbbb += np.transpose(tmp178, (1, 0, 3, 2)) * -1
    .add 248 (.tr 59 [1, 0, 3, 2]) (-1) 1,
    -- 608: del tmp178
    .del 59,
    -- 609: t2new.bbbb += einsum(tmp212, (0, 1, 2, 3), t2.bbbb, (4, 5, 0, 2), (4, 5, 1, 3)) * -2
    .add 248 (.ein [(157, [0, 1, 2, 3]), (15, [4, 5, 0, 2])] [4, 5, 1, 3]) (-2) 1,
    -- 610: del tmp212
    .del 157,
    -- 611: t2new.bbbb += np.transpose(tmp164, (0, 1, 3, 2)) * -2
    .add 248 (.tr 151 [0, 1, 3, 2]) (-2) 1,
    -- 612: t2new.bbbb += np.transpose(tmp165, (0, 1, 3, 2)) * -1
    .add 248 (.tr 154 [0, 1, 3, 2]) (-1) 1,
    -- 613: t2new.bbbb += tmp164 * 2
    .add 248 (.cp 151) 2 1,
    -- 614: del tmp164
    .del 151,
    -- 615: t2new.bbbb += tmp165
    .add 248 (.cp 154) 1 1,
    -- 616: del tmp165
    .del 154,
    -- 617: t2new.bbbb += np.transpose(tmp177, (1, 0, 2, 3))
    .add 248 (.tr 158 [1, 0, 2, 3]) 1 1,
    -- 618: t2new.bbbb += tmp187 * -2
    .add 248 (.cp 172) (-2) 1,
    -- 619: t2new.bbbb += tmp182 * -1
    .add 248 (.cp 150) (-1) 1,
    -- 620: del tmp182
    .del 150,
    -- 621: t2new.bbbb += tmp177 * -1
    .add 248 (.cp 158) (-1) 1,
    -- 622: del tmp177
    .del 158,
    -- 623: t2new.bbbb += np.transpose(tmp187, (1, 0, 2, 3)) * 2
    .add 248 (.tr 172 [1, 0, 2, 3]) 2 1,
    -- 624: del tmp187
    .del 172,
    -- 625: t2new.bbbb += np.transpose(tmp188, (1, 0, 2, 3)) * -1
    .add 248 (.tr 169 [1, 0, 2, 3]) (-1) 1,
    -- 626: del tmp188
    .del 169,
    -- 627: t2new.bbbb += einsum(t1.bb, (0, 1), tmp213, (2, 3, 0, 4), (2, 3, 1, 4)) * -2
    .add 248 (.ein [(4, [0, 1]), (159, [2, 3, 0, 4])] [2, 3, 1, 4]) (-2) 1,
    -- 628: del tmp213
    .del 159,
    -- 629: t2new.bbbb += tmp206 * -1
    .add 248 (.cp 155) (-1) 1,
    -- 630: t2new.bbbb += np.transpose(tmp206, (1, 0, 2, 3))
    .add 248 (.tr 155 [1, 0, 2, 3]) 1 1,
    -- 631: del tmp206
    .del 155,
    -- 632: t2new.abab = einsum(tmp31, (0, 1), t2.abab, (2, 0, 3, 4), (2, 1, 3, 4)) * -1
    .set 249 (.ein [(153, [0, 1]), (14, [2, 0, 3, 4])] [2, 1, 3, 4]) (-1) 1,
    -- 633: t2new.abab += einsum(tmp110, (0, 1, 2, 3), v.aabb.oooo, (4, 0, 5, 1), (4, 5, 2, 3)) * 0.5
    .add 249 (.ein [(198, [0, 1, 2, 3]), (33, [4, 0, 5, 1])] [4, 5, 2, 3]) 1 2,
    -- 634: del tmp110
    .del 198,
    -- 635: t2new.abab += einsum(t2.abab, (0, 1, 2, 3), v.aabb.oooo, (4, 0, 5, 1), (4, 5, 2, 3)) * 0.5
    .add 249 (.ein [(14, [0, 1, 2, 3]), (33, [4, 0, 5, 1])] [4, 5, 2, 3]) 1 2,
    -- 636: t2new.abab += einsum(tmp113, (0, 1), t2.abab, (2, 3, 4, 1), (2, 3, 4, 0)) * -1
    .add 249 (.ein [(201, [0, 1]), (14, [2, 3, 4, 1])] [2, 3, 4, 0]) (-1) 1,
    -- 637: del tmp113
    .del 201,
    -- 638: t2new.abab += einsum(t2.abab, (0, 1, 2, 3), tmp36, (0, 4), (4, 1, 2, 3)) * -1
    .add 249 (.ein [(14, [0, 1, 2, 3]), (143, [0, 4])] [4, 1, 2, 3]) (-1) 1,
    -- 639: del tmp36
    .del 143,
    -- 640: t2new.abab += tmp114 * 2
    .add 249 (.cp 89) 2 1,
    -- 641: del tmp114
    .del 89,
    -- 642: t2new.abab += einsum(v.aaaa.ovov, (0, 1, 2, 3), t2.abab, (2, 4, 3, 5), (0, 4, 1, 5))
    .add 249 (.ein [(1, [0, 1, 2, 3]), (14, [2, 4, 3, 5])] [0, 4, 1, 5]) 1 1,
    -- 643: t2new.abab += einsum(tmp48, (0, 1), t2.abab, (2, 3, 0, 4), (2, 3, 1, 4)) * -1
    .add 249 (.ein [(187, [0, 1]), (14, [2, 3, 0, 4])] [2, 3, 1, 4]) (-1) 1,
    -- 644: t2new.abab += einsum(tmp121, (0, 1), t2.abab, (2, 3, 4, 0), (2, 3, 4, 1))
    .add 249 (.ein [(183, [0, 1]), (14, [2, 3, 4, 0])] [2, 3, 4, 1]) 1 1,
    -- 645: del tmp121
    .del 183,
    -- 646: t2new.abab += einsum(t2.abab, (0, 1, 2, 3), tmp123, (1, 4), (0, 4, 2, 3)) * -1
    .add 249 (.ein [(14, [0, 1, 2, 3]), (200, [1, 4])] [0, 4, 2, 3]) (-1) 1,
    -- 647: del tmp123
    .del 200,
    -- 648: t2new.abab += einsum(tmp124, (0, 1, 2, 3), tmp3, (0, 3, 4, 5), (1, 2, 4, 5))
    .add 249 (.ein [(191, [0, 1, 2, 3]), (186, [0, 3, 4, 5])] [1, 2, 4, 5]) 1 1,
    -- 649: del tmp124
    .del 191,
    -- 650: t2new.abab += einsum(t1.bb, (0, 1), tmp125, (2, 3, 0, 4), (2, 3, 4, 1)) * -1
    .add 249 (.ein [(4, [0, 1]), (192, [2, 3, 0, 4])] [2, 3, 4, 1]) (-1) 1,
    -- 651: del tmp125
    .del 192,
    -- 652: t2new.abab += einsum(tmp11, (0, 1), t2.abab, (0, 2, 3, 4), (1, 2, 3, 4)) * -1
    .add 249 (.ein [(205, [0, 1]), (14, [0, 2, 3, 4])] [1, 2, 3, 4]) (-1) 1,
    -- 653: t2new.abab += einsum(tmp126, (0, 1, 2, 3), tmp3, (1, 2, 4, 5), (0, 3, 4, 5))
    .add 249 (.ein [(188, [0, 1, 2, 3]), (186, [1, 2, 4, 5])] [0, 3, 4, 5]) 1 1,
    -- 654: del tmp126
    .del 188,
    -- 655: t2new.abab += np.transpose(v.aabb.ovov, (0, 2, 1, 3))
    .add 249 (.tr 2 [0, 2, 1, 3]) 1 1,
    -- 656: t2new.abab += tmp127 * -1
    .add 249 (.cp 56) (-1) 1,
    -- 657: del tmp127
    .del 56,
    -- 658: t2new.abab += tmp128
    .add 249 (.cp 57) 1 1,
    -- 659: del tmp128
    .del 57,
    -- 660: t2new.abab += einsum(t2.abab, (0, 1, 2, 3), tmp130, (4, 1, 2, 5), (0, 4, 5, 3)) * -1
    .add 249 (.ein [(14, [0, 1, 2, 3]), (208, [4, 1, 2, 5])] [0, 4, 5, 3]) (-1) 1,
    -- 661: del tmp130
    .del 208,
    -- 662: t2new.abab += tmp131 * -1
    .add 249 (.cp 87) (-1) 1,
    -- 663: del tmp131
    .del 87,
    -- 664: t2new.abab += einsum(t2.abab, (0, 1, 2, 3), tmp132, (1, 4, 2, 5), (0, 4, 5, 3))
    .add 249 (.ein [(14, [0, 1, 2, 3]), (197, [1, 4, 2, 5])] [0, 4, 5, 3]) 1 1,
    -- 665: del tmp132
    .del 197,
    -- 666: t2new.abab += tmp85 * -1
    .add 249 (.cp 119) (-1) 1,
    -- 667: del tmp85
    .del 119,
    -- 668: t2new.abab += einsum(tmp133, (0, 1, 2, 3), t2.abab, (0, 4, 5, 2), (1, 4, 5, 3)) * -1
    .add 249 (.ein [(210, [0, 1, 2, 3]), (14, [0, 4, 5, 2])] [1, 4, 5, 3]) (-1) 1,
    -- 669: del tmp133
    .del 210,
    -- 670: t2new.abab += einsum(t1.bb, (0, 1), tmp134, (2, 3, 0, 4), (2, 3, 4, 1)) * -1
    .add 249 (.ein [(4, [0, 1]), (189, [2, 3, 0, 4])] [2, 3, 4, 1]) (-1) 1,
    -- 671: del tmp134
    .del 189,
    -- 672: t2new.abab += einsum(t1.aa, (0, 1), tmp135, (2, 1, 3, 4), (0, 2, 3, 4))
    .add 249 (.ein [(3, [0, 1]), (184, [2, 1, 3, 4])] [0, 2, 3, 4]) 1 1,
    -- 673: del tmp135
    .del 184,
    -- 674: t2new.abab += einsum(tmp136, (0, 1, 2, 3), tmp3, (1, 3, 4, 5), (0, 2, 4, 5))
    .add 249 (.ein [(196, [0, 1, 2, 3]), (186, [1, 3, 4, 5])] [0, 2, 4, 5]) 1 1,
    -- 675: del tmp136
    .del 196,
    -- 676: t2new.abab += einsum(tmp137, (0, 1, 2, 3), t2.abab, (0, 4, 2, 5), (1, 4, 3, 5)) * -1
    .add 249 (.ein [(204, [0, 1, 2, 3]), (14, [0, 4, 2, 5])] [1, 4, 3, 5]) (-1) 1,
    -- 677: del tmp137
    .del 204,
    -- 678: t2new.abab += einsum(tmp139, (0, 1, 2, 3), t2.bbbb, (4, 1, 5, 3), (0, 4, 2, 5)) * 2
    .add 249 (.ein [(199, [0, 1, 2, 3]), (15, [4, 1, 5, 3])] [0, 4, 2, 5]) 2 1,
    -- 679: del tmp139
    .del 199,
    -- 680: t2new.abab += einsum(v.bbbb.ovov, (0, 1, 2, 3), t2.abab, (4, 2, 5, 3), (4, 0, 5, 1))
    .add 249 (.ein [(0, [0, 1, 2, 3]), (14, [4, 2, 5, 3])] [4, 0, 5, 1]) 1 1,
    -- 681: t2new.abab += tmp138 * 2
    .add 249 (.cp 118) 2 1,
    -- 682: del tmp138
    .del 118,
    -- 683: t2new.abab += einsum(t1.bb, (0, 1), tmp140, (2, 3, 0, 4), (2, 3, 4, 1)) * -2
    .add 249 (.ein [(4, [0, 1]), (185, [2, 3, 0, 4])] [2, 3, 4, 1]) (-2) 1,
    -- 684: del tmp140
    .del 185,
    -- 685: t2new.abab += einsum(tmp142, (0, 1, 2, 3), t2.abab, (4, 0, 5, 2), (4, 1, 5, 3)) * -1
    .add 249 (.ein [(193, [0, 1, 2, 3]), (14, [4, 0, 5, 2])] [4, 1, 5, 3]) (-1) 1,
    -- 686: del tmp142
    .del 193,
    -- 687: t2new.abab += einsum(tmp143, (0, 1, 2, 3), t2.abab, (1, 3, 4, 5), (0, 2, 4, 5))
    .add 249 (.ein [(194, [0, 1, 2, 3]), (14, [1, 3, 4, 5])] [0, 2, 4, 5]) 1 1,
    -- 688: del tmp143
    .del 194,
    -- 689: t2new.abab += einsum(t2.abab, (0, 1, 2, 3), tmp145, (2, 4, 3, 5), (0, 1, 4, 5))
    .add 249 (.ein [(14, [0, 1, 2, 3]), (190, [2, 4, 3, 5])] [0, 1, 4, 5]) 1 1,
    -- 690: del tmp145
    .del 190,
    -- 691: t2new.abab += einsum(tmp148, (0, 1, 2, 3), t2.abab, (1, 4, 2, 5), (0, 4, 3, 5))
    .add 249 (.ein [(203, [0, 1, 2, 3]), (14, [1, 4, 2, 5])] [0, 4, 3, 5]) 1 1,
    -- 692: del tmp148
    .del 203,
    -- 693: t2new.abab += einsum(t2.bbbb, (0, 1, 2, 3), tmp77, (4, 1, 5, 3), (4, 0, 5, 2)) * 2
    .add 249 (.ein [(15, [0, 1, 2, 3]), (141, [4, 1, 5, 3])] [4, 0, 5, 2]) 2 1,
    -- 694: del tmp77
    .del 141,
    -- 695: t2new.abab += einsum(tmp151, (0, 1, 2, 3), t2.abab, (4, 1, 5, 2), (4, 0, 5, 3))
    .add 249 (.ein [(206, [0, 1, 2, 3]), (14, [4, 1, 5, 2])] [4, 0, 5, 3]) 1 1,
    -- 696: del tmp151
    .del 206,
    -- 697: t2new.abab += einsum(tmp152, (0, 1, 2, 3), t2.aaaa, (4, 0, 5, 2), (4, 1, 5, 3)) * 2
    .add 249 (.ein [(101, [0, 1, 2, 3]), (19, [4, 0, 5, 2])] [4, 1, 5, 3]) 2 1,
    -- 698: del tmp152
    .del 101,
    -- 699: t2new.abab += tmp68 * -1
    .add 249 (.cp 74) (-1) 1,
    -- 700: del tmp68
    .del 74,
    -- 701: t2new.abab += einsum(tmp153, (0, 1, 2, 3), t2.abab, (1, 4, 5, 2), (0, 4, 5, 3)) * -1
    .add 249 (.ein [(209, [0, 1, 2, 3]), (14, [1, 4, 5, 2])] [0, 4, 5, 3]) (-1) 1,
    -- 702: del tmp153
    .del 209,
    -- 703: t2new.abab += einsum(t1.aa, (0, 1), tmp154, (2, 0, 3, 4), (2, 3, 1, 4)) * -1
    .add 249 (.ein [(3, [0, 1]), (195, [2, 0, 3, 4])] [2, 3, 1, 4]) (-1) 1,
    -- 704: del tmp154
    .del 195,
    -- 705: t2new.abab += einsum(t1.aa, (0, 1), tmp155, (2, 0, 3, 4), (2, 3, 1, 4)) * -1
    .add 249 (.ein [(3, [0, 1]), (202, [2, 0, 3, 4])] [2, 3, 1, 4]) (-1) 1,
    -- 706: del tmp155
    .del 202,
    -- 707: t2new.abab += einsum(t1.aa, (0, 1), tmp156, (2, 0, 3, 4), (2, 3, 1, 4)) * -1
    .add 249 (.ein [(3, [0, 1]), (207, [2, 0, 3, 4])] [2, 3, 1, 4]) (-1) 1,
    -- 708: del tmp156
    .del 207,
    -- 709: t2new.aaaa = einsum(t2.aaaa, (0, 1, 2, 3), tmp20, (1, 4), (0, 4, 2, 3)) * -1
    .set 250 (.ein [(19, [0, 1, 2, 3]), (240, [1, 4])] [0, 4, 2, 3]) (-1) 1,
    -- 710: t2new.aaaa += einsum(tmp32, (0, 1, 2, 3), v.aaaa.oooo, (4, 1, 5, 0), (4, 5, 3, 2)) * 0.5
    .add 250 (.ein [(235, [0, 1, 2, 3]), (32, [4, 1, 5, 0])] [4, 5, 3, 2]) 1 2,
    -- 711: del tmp32
    .del 235,
    -- 712: t2new.aaaa += np.transpose(tmp33, (1, 0, 3, 2))
    .add 250 (.tr 212 [1, 0, 3, 2]) 1 1,
    -- 713: del tmp33
    .del 212,
    -- 714: t2new.aaaa += np.transpose(tmp37, (0, 1, 3, 2)) * -1
    .add 250 (.tr 233 [0, 1, 3, 2]) (-1) 1,
    -- 715: t2new.aaaa += einsum(tmp40, (0, 1), t2.aaaa, (2, 3, 4, 1), (2, 3, 4, 0)) * -2
    .add 250 (.ein [(222, [0, 1]), (19, [2, 3, 4, 1])] [2, 3, 4, 0]) (-2) 1,
    -- 716: del tmp40
    .del 222,
    -- 717: t2new.aaaa += np.transpose(tmp37, (1, 0, 3, 2)) * 2
    .add 250 (.tr 233 [1, 0, 3, 2]) 2 1,
    -- 718: del tmp37
    .del 233,
    -- 719: t2new.aaaa += einsum(v.aaaa.oooo, (0, 1, 2, 3), tmp41, (3, 1, 4, 5), (0, 2, 5, 4)) * -0.5
    .add 250 (.ein [(32, [0, 1, 2, 3]), (211, [3, 1, 4, 5])] [0, 2, 5, 4]) (-1) 2,
    -- 720: del tmp41
    .del 211,
    -- 721: t2new.aaaa += np.transpose(tmp42, (1, 0, 3, 2))
    .add 250 (.tr 122 [1, 0, 3, 2]) 1 1,
    -- 722: t2new.aaaa += np.transpose(tmp43, (1, 0, 3, 2)) * 2
    .add 250 (.tr 237 [1, 0, 3, 2]) 2 1,
    -- 723: t2new.aaaa += einsum(t2.aaaa, (0, 1, 2, 3), tmp48, (3, 4), (0, 1, 4, 2)) * 2
    .add 250 (.ein [(19, [0, 1, 2, 3]), (187, [3, 4])] [0, 1, 4, 2]) 2 1,
    -- 724: del tmp48
    .del 187,
    -- 725: t2new.aaaa += np.transpose(tmp42, (1, 0, 2, 3)) * -1
    .add 250 (.tr 122 [1, 0, 2, 3]) (-1) 1,
    -- 726: t2new.aaaa += np.transpose(tmp43, (1, 0, 2, 3)) * -2
    .add 250 (.tr 237 [1, 0, 2, 3]) (-2) 1,
    -- 727: t2new.aaaa += einsum(tmp52, (0, 1), t2.aaaa, (2, 3, 4, 0), (2, 3, 4, 1)) * -2
    .add 250 (.ein [(224, [0, 1]), (19, [2, 3, 4, 0])] [2, 3, 4, 1]) (-2) 1,
    -- 728: del tmp52
    .del 224,
    -- 729: t2new.aaaa += np.transpose(tmp54, (1, 0, 3, 2)) * -2
    .add 250 (.tr 223 [1, 0, 3, 2]) (-2) 1,
    -- 730: t2new.aaaa += np.transpose(tmp56, (1, 0, 3, 2))
    .add 250 (.tr 242 [1, 0, 3, 2]) 1 1,
    -- 731: t2new.aaaa += np.transpose(tmp58, (1, 0, 2, 3))
    .add 250 (.tr 217 [1, 0, 2, 3]) 1 1,
    -- 732: t2new.aaaa += np.transpose(tmp58, (1, 0, 3, 2)) * -1
    .add 250 (.tr 217 [1, 0, 3, 2]) (-1) 1,
    -- 733: t2new.aaaa += np.transpose(tmp61, (0, 1, 3, 2)) * -2
    .add 250 (.tr 239 [0, 1, 3, 2]) (-2) 1,
    -- 734: t2new.aaaa += np.transpose(tmp56, (1, 0, 2, 3)) * -1
    .add 250 (.tr 242 [1, 0, 2, 3]) (-1) 1,
    -- 735: t2new.aaaa += np.transpose(tmp54, (0, 1, 3, 2)) * 2
    .add 250 (.tr 223 [0, 1, 3, 2]) 2 1,
    -- 736: del tmp54
    .del 223,
    -- 737: t2new.aaaa += np.transpose(tmp56, (0, 1, 3, 2)) * -1
    .add 250 (.tr 242 [0, 1, 3, 2]) (-1) 1,
    -- 738: t2new.aaaa += tmp58 * -1
    .add 250 (.cp 217) (-1) 1,
    -- 739: t2new.aaaa += np.transpose(tmp58, (0, 1, 3, 2))
    .add 250 (.tr 217 [0, 1, 3, 2]) 1 1,
    -- 740: del tmp58
    .del 217,
    -- 741: t2new.aaaa += np.transpose(tmp61, (1, 0, 3, 2)) * 2
    .add 250 (.tr 239 [1, 0, 3, 2]) 2 1,
    -- 742: del tmp61
    .del 239,
    -- 743: t2new.aaaa += tmp56
    .add 250 (.cp 242) 1 1,
    -- 744: del tmp56
    .del 242,
    -- 745: t2new.aaaa += np.transpose(tmp62, (1, 0, 2, 3))
    .add 250 (.tr 80 [1, 0, 2, 3]) 1 1,
    -- 746: t2new.aaaa += np.transpose(v.aaaa.ovov, (0, 2, 1, 3))
    .add 250 (.tr 1 [0, 2, 1, 3]) 1 1,
    -- 747: t2new.aaaa += np.transpose(tmp63, (1, 0, 3, 2)) * -1
    .add 250 (.tr 238 [1, 0, 3, 2]) (-1) 1,
    -- 748: t2new.aaaa += einsum(tmp66, (0, 1, 2, 3), t2.aaaa, (4, 1, 5, 3), (4, 0, 2, 5)) * 2
    .add 250 (.ein [(216, [0, 1, 2, 3]), (19, [4, 1, 5, 3])] [4, 0, 2, 5]) 2 1,
    -- 749: del tmp66
    .del 216,
    -- 750: t2new.aaaa += np.transpose(tmp70, (0, 1, 3, 2))
    .add 250 (.tr 218 [0, 1, 3, 2]) 1 1,
    -- 751: t2new.aaaa += tmp62 * -1
    .add 250 (.cp 80) (-1) 1,
    -- 752: t2new.aaaa += np.transpose(v.aaaa.ovov, (0, 2, 3, 1)) * -1
    .add 250 (.tr 1 [0, 2, 3, 1]) (-1) 1,
    -- 753: t2new.aaaa += np.transpose(tmp63, (0, 1, 3, 2))
    .add 250 (.tr 238 [0, 1, 3, 2]) 1 1,
    -- 754: t2new.aaaa += np.transpose(tmp76, (1, 0, 3, 2)) * -2
    .add 250 (.tr 219 [1, 0, 3, 2]) (-2) 1,
    -- 755: t2new.aaaa += np.transpose(tmp78, (1, 0, 3, 2))
    .add 250 (.tr 231 [1, 0, 3, 2]) 1 1,
    -- 756: t2new.aaaa += np.transpose(tmp79, (0, 1, 3, 2))
    .add 250 (.tr 236 [0, 1, 3, 2]) 1 1,
    -- 757: t2new.aaaa += tmp80 * 2
    .add 250 (.cp 214) 2 1,
    -- 758: t2new.aaaa += np.transpose(tmp80, (1, 0, 3, 2)) * 2
    .add 250 (.tr 214 [1, 0, 3, 2]) 2 1,
    -- 759: t2new.aaaa += einsum(tmp84, (0, 1, 2, 3), t2.aaaa, (4, 1, 5, 3), (0, 4, 2, 5)) * -2
    .add 250 (.ein [(230, [0, 1, 2, 3]), (19, [4, 1, 5, 3])] [0, 4, 2, 5]) (-2) 1,
    -- 760: del tmp84
    .del 230,
    -- 761: t2new.aaaa += einsum(tmp87, (0, 1, 2, 3), t2.abab, (4, 1, 5, 3), (0, 4, 2, 5)) * -1
    .add 250 (.ein [(241, [0, 1, 2, 3]), (14, [4, 1, 5, 3])] [0, 4, 2, 5]) (-1) 1,
    -- 762: del tmp87
    .del 241,
    -- 763: t2new.aaaa += np.transpose(tmp79, (1, 0, 3, 2)) * -1
    .add 250 (.tr 236 [1, 0, 3, 2]) (-1) 1,
    -- 764: t2new.aaaa += np.transpose(tmp80, (0, 1, 3, 2)) * -2
    .add 250 (.tr 214 [0, 1, 3, 2]) (-2) 1,
    -- 765: t2new.aaaa += np.transpose(tmp80, (1, 0, 2, 3)) * -2
    .add 250 (.tr 214 [1, 0, 2, 3]) (-2) 1,
    -- 766: del tmp80
    .del 214,
    -- 767: t2new.aaaa += einsum(tmp90, (0, 1, 2, 3), t2.aaaa, (4, 1, 5, 3), (4, 0, 2, 5)) * 2
    .add 250 (.ein [(227, [0, 1, 2, 3]), (19, [4, 1, 5, 3])] [4, 0, 2, 5]) 2 1,
    -- 768: del tmp90
    .del 227,
    -- 769: t2new.aaaa += einsum(t2.abab, (0, 1, 2, 3), tmp92, (4, 1, 5, 3), (0, 4, 5, 2))
    .add 250 (.ein [(14, [0, 1, 2, 3]), (221, [4, 1, 5, 3])] [0, 4, 5, 2]) 1 1,
    -- 770: del tmp92
    .del 221,
    -- 771: t2new.aaaa += tmp79 * -1
    .add 250 (.cp 236) (-1) 1,
    -- 772: t2new.aaaa += np.transpose(tmp94, (1, 0, 3, 2))
    .add 250 (.tr 234 [1, 0, 3, 2]) 1 1,
    -- 773: t2new.aaaa += np.transpose(tmp96, (1, 0, 2, 3)) * 2
    .add 250 (.tr 225 [1, 0, 2, 3]) 2 1,
    -- 774: t2new.aaaa += np.transpose(tmp79, (1, 0, 2, 3))
    .add 250 (.tr 236 [1, 0, 2, 3]) 1 1,
    -- 775: del tmp79
    .del 236,
    -- 776: t2new.aaaa += np.transpose(tmp94, (0, 1, 3, 2)) * -1
    .add 250 (.tr 234 [0, 1, 3, 2]) (-1) 1,
    -- 777: del tmp94
    .del 234,
    -- 778: t2new.aaaa += tmp96 * -2
    .add 250 (.cp 225) (-2) 1,
    -- 779: del tmp96
    .del 225,
    -- 780: t2new.aaaa += np.transpose(tmp62, (0, 1, 3, 2))
    .add 250 (.tr 80 [0, 1, 3, 2]) 1 1,
    -- 781: t2new.aaaa += np.transpose(tmp98, (0, 1, 3, 2)) * -2
    .add 250 (.tr 228 [0, 1, 3, 2]) (-2) 1,
    -- 782: del tmp98
    .del 228,
    -- 783: t2new.aaaa += np.transpose(tmp100, (0, 1, 3, 2))
    .add 250 (.tr 232 [0, 1, 3, 2]) 1 1,
    -- 784: t2new.aaaa += np.transpose(tmp100, (1, 0, 3, 2)) * -1
    .add 250 (.tr 232 [1, 0, 3, 2]) (-1) 1,
    -- 785: t2new.aaaa += tmp102
    .add 250 (.cp 215) 1 1,
    -- 786: t2new.aaaa += np.transpose(tmp102, (0, 1, 3, 2)) * -1
    .add 250 (.tr 215 [0, 1, 3, 2]) (-1) 1,
    -- 787: del tmp102
    .del 215,
    -- 788: t2new.aaaa += tmp104
    .add 250 (.cp 220) 1 1,
    -- 789: t2new.aaaa += np.transpose(tmp104, (0, 1, 3, 2)) * -1
    .add 250 (.tr 220 [0, 1, 3, 2]) (-1) 1,
    -- 790: del tmp104
    .del 220,
    -- 791: t2new.aaaa += np.transpose(tmp62, (1, 0, 3, 2)) * -1
    .add 250 (.tr 80 [1, 0, 3, 2]) (-1) 1,
    -- 792: del tmp62
    .del 80,
    -- 793: t2new.aaaa += np.transpose(tmp106, (0, 1, 3, 2)) * -2
    .add 250 (.tr 229 [0, 1, 3, 2]) (-2) 1,
    -- 794: del tmp106
    .del 229,
    -- 795: t2new.aaaa += einsum(t2.aaaa, (0, 1, 2, 3), tmp108, (2, 4, 3, 5), (0, 1, 4, 5)) * 2
    .add 250 (.ein [(19, [0, 1, 2, 3]), (213, [2, 4, 3, 5])] [0, 1, 4, 5]) 2 1,
    -- 796: del tmp108
    .del 213,
    -- 797: t2new.aaaa += np.transpose(tmp42, (0, 1, 3, 2)) * -1
    .add 250 (.tr 122 [0, 1, 3, 2]) (-1) 1,
    -- 798: t2new.aaaa += np.transpose(tmp43, (0, 1, 3, 2)) * -2
    .add 250 (.tr 237 [0, 1, 3, 2]) (-2) 1,
    -- 799: t2new.aaaa += tmp42
    .add 250 (.cp 122) 1 1,
    -- 800: del tmp42
    .del 122,
    -- 801: t2new.aaaa += tmp43 * 2
    .add 250 (.cp 237) 2 1,
    -- 802: del tmp43
    .del 237,
    -- 803: t2new.aaaa += np.transpose(tmp63, (1, 0, 2, 3))
    .add 250 (.tr 238 [1, 0, 2, 3]) 1 1,
    -- 804: t2new.aaaa += tmp76 * -2
    .add 250 (.cp 219) (-2) 1,
    -- 805: t2new.aaaa += tmp70 * -1
    .add 250 (.cp 218) (-1) 1,
    -- 806: del tmp70
    .del 218,
    -- 807: t2new.aaaa += tmp63 * -1
    .add 250 (.cp 238) (-1) 1,
    -- 808: del tmp63
    .del 238,
    -- 809: t2new.aaaa += np.transpose(tmp76, (1, 0, 2, 3)) * 2
    .add 250 (.tr 219 [1, 0, 2, 3]) 2 1,
    -- 810: del tmp76
    .del 219,
    -- 811: t2new.aaaa += np.transpose(tmp78, (1, 0, 2, 3)) * -1
    .add 250 (.tr 231 [1, 0, 2, 3]) (-1) 1,
    -- 812: del tmp78
    .del 231,
    -- 813: t2new.aaaa += einsum(tmp109, (0, 1, 2, 3), t1.aa, (2, 4), (0, 1, 4, 3)) * -2
    .add 250 (.ein [(226, [0, 1, 2, 3]), (3, [2, 4])] [0, 1, 4, 3]) (-2) 1,
    -- 814: del tmp109
    .del 226,
    -- 815: t2new.aaaa += tmp100 * -1
    .add 250 (.cp 232) (-1) 1,
    -- 816: t2new.aaaa += np.transpose(tmp100, (1, 0, 2, 3))
    .add 250 (.tr 232 [1, 0, 2, 3]) 1 1,
    -- 817: del tmp100
    .del 232,
    -- 818: t1new.bb = einsum(tmp21, (0, 1, 2, 3), t2.abab, (0, 2, 3, 4), (1, 4)) * -1
    .set 251 (.ein [(43, [0, 1, 2, 3]), (14, [0, 2, 3, 4])] [1, 4]) (-1) 1,
    -- 819: del tmp21
    .del 43,
    -- 820: t1new.bb += f.bb.ov
    .add 251 (.cp 6) 1 1,
    -- 821: t1new.bb += tmp13
    .add 251 (.cp 37) 1 1,
    -- 822: del tmp13
    .del 37,
    -- 823: t1new.bb += einsum(v.bbbb.ovov, (0, 1, 2, 3), t1.bb, (2, 3), (0, 1))
    .add 251 (.ein [(0, [0, 1, 2, 3]), (4, [2, 3])] [0, 1]) 1 1,
    -- 824: t1new.bb += einsum(t2.bbbb, (0, 1, 2, 3), tmp22, (4, 1, 0, 3), (4, 2)) * -2
    .add 251 (.ein [(15, [0, 1, 2, 3]), (39, [4, 1, 0, 3])] [4, 2]) (-2) 1,
    -- 825: del tmp22
    .del 39,
    -- 826: t1new.bb += einsum(tmp3, (0, 1, 2, 3), v.aabb.ovvv, (0, 2, 4, 3), (1, 4))
    .add 251 (.ein [(186, [0, 1, 2, 3]), (13, [0, 2, 4, 3])] [1, 4]) 1 1,
    -- 827: t1new.bb += einsum(v.bbbb.ovvv, (0, 1, 2, 3), tmp23, (0, 4, 1, 3), (4, 2))
    .add 251 (.ein [(7, [0, 1, 2, 3]), (244, [0, 4, 1, 3])] [4, 2]) 1 1,
    -- 828: del tmp23
    .del 244,
    -- 829: t1new.bb += einsum(t1.bb, (0, 1), tmp26, (0, 2), (2, 1)) * -2
    .add 251 (.ein [(4, [0, 1]), (243, [0, 2])] [2, 1]) (-2) 1,
    -- 830: del tmp26
    .del 243,
    -- 831: t1new.bb += einsum(t1.bb, (0, 1), tmp27, (1, 2), (0, 2))
    .add 251 (.ein [(4, [0, 1]), (245, [1, 2])] [0, 2]) 1 1,
    -- 832: del tmp27
    .del 245,
    -- 833: t1new.bb += einsum(t2.bbbb, (0, 1, 2, 3), v.bbbb.ooov, (4, 0, 1, 3), (4, 2)) * -2
    .add 251 (.ein [(15, [0, 1, 2, 3]), (5, [4, 0, 1, 3])] [4, 2]) (-2) 1,
    -- 834: t1new.bb += einsum(v.aabb.ovoo, (0, 1, 2, 3), t2.abab, (0, 3, 1, 4), (2, 4)) * -1
    .add 251 (.ein [(16, [0, 1, 2, 3]), (14, [0, 3, 1, 4])] [2, 4]) (-1) 1,
    -- 835: t1new.bb += einsum(v.bbbb.oovv, (0, 1, 2, 3), t1.bb, (1, 3), (0, 2)) * -1
    .add 251 (.ein [(21, [0, 1, 2, 3]), (4, [1, 3])] [0, 2]) (-1) 1,
    -- 836: t1new.bb += einsum(tmp9, (0, 1), t2.abab, (0, 2, 1, 3), (2, 3))
    .add 251 (.ein [(55, [0, 1]), (14, [0, 2, 1, 3])] [2, 3]) 1 1,
    -- 837: t1new.bb += einsum(t2.bbbb, (0, 1, 2, 3), tmp16, (1, 3), (0, 2)) * 2
    .add 251 (.ein [(15, [0, 1, 2, 3]), (46, [1, 3])] [0, 2]) 2 1,
    -- 838: t1new.bb += einsum(t1.bb, (0, 1), tmp31, (0, 2), (2, 1)) * -1
    .add 251 (.ein [(4, [0, 1]), (153, [0, 2])] [2, 1]) (-1) 1,
    -- 839: del tmp31
    .del 153,
    -- 840: t1new.aa = einsum(t2.abab, (0, 1, 2, 3), tmp0, (4, 0, 1, 3), (4, 2)) * -1
    .set 252 (.ein [(14, [0, 1, 2, 3]), (50, [4, 0, 1, 3])] [4, 2]) (-1) 1,
    -- 841: del tmp0
    .del 50,
    -- 842: t1new.aa += einsum(tmp1, (0, 1, 2, 3), t2.aaaa, (2, 1, 4, 3), (0, 4)) * -2
    .add 252 (.ein [(40, [0, 1, 2, 3]), (19, [2, 1, 4, 3])] [0, 4]) (-2) 1,
    -- 843: del tmp1
    .del 40,
    -- 844: t1new.aa += tmp2
    .add 252 (.cp 42) 1 1,
    -- 845: del tmp2
    .del 42,
    -- 846: t1new.aa += f.aa.ov
    .add 252 (.cp 12) 1 1,
    -- 847: t1new.aa += einsum(t1.aa, (0, 1), v.aaaa.ovov, (2, 3, 0, 1), (2, 3))
    .add 252 (.ein [(3, [0, 1]), (1, [2, 3, 0, 1])] [2, 3]) 1 1,
    -- 848: t1new.aa += einsum(tmp3, (0, 1, 2, 3), v.aabb.vvov, (4, 2, 1, 3), (0, 4))
    .add 252 (.ein [(186, [0, 1, 2, 3]), (17, [4, 2, 1, 3])] [0, 4]) 1 1,
    -- 849: del tmp3
    .del 186,
    -- 850: t1new.aa += einsum(v.aaaa.ovvv, (0, 1, 2, 3), tmp4, (0, 4, 3, 1), (4, 2)) * -1
    .add 252 (.ein [(9, [0, 1, 2, 3]), (246, [0, 4, 3, 1])] [4, 2]) (-1) 1,
    -- 851: del tmp4
    .del 246,
    -- 852: t1new.aa += einsum(tmp11, (0, 1), t1.aa, (0, 2), (1, 2)) * -1
    .add 252 (.ein [(205, [0, 1]), (3, [0, 2])] [1, 2]) (-1) 1,
    -- 853: del tmp11
    .del 205,
    -- 854: t1new.aa += einsum(t1.aa, (0, 1), tmp12, (1, 2), (0, 2))
    .add 252 (.ein [(3, [0, 1]), (247, [1, 2])] [0, 2]) 1 1,
    -- 855: del tmp12
    .del 247,
    -- 856: t1new.aa += einsum(t2.aaaa, (0, 1, 2, 3), v.aaaa.ooov, (4, 0, 1, 3), (4, 2)) * -2
    .add 252 (.ein [(19, [0, 1, 2, 3]), (10, [4, 0, 1, 3])] [4, 2]) (-2) 1,
    -- 857: t1new.aa += einsum(t1.aa, (0, 1), v.aaaa.oovv, (2, 0, 3, 1), (2, 3)) * -1
    .add 252 (.ein [(3, [0, 1]), (24, [2, 0, 3, 1])] [2, 3]) (-1) 1,
    -- 858: t1new.aa += einsum(t2.abab, (0, 1, 2, 3), v.aabb.ooov, (4, 0, 1, 3), (4, 2)) * -1
    .add 252 (.ein [(14, [0, 1, 2, 3]), (18, [4, 0, 1, 3])] [4, 2]) (-1) 1,
    -- 859: t1new.aa += einsum(tmp16, (0, 1), t2.abab, (2, 0, 3, 1), (2, 3))
    .add 252 (.ein [(46, [0, 1]), (14, [2, 0, 3, 1])] [2, 3]) 1 1,
    -- 860: del tmp16
    .del 46,
    -- 861: t1new.aa += einsum(t2.aaaa, (0, 1, 2, 3), tmp9, (1, 3), (0, 2)) * 2
    .add 252 (.ein [(19, [0, 1, 2, 3]), (55, [1, 3])] [0, 2]) 2 1,
    -- 862: del tmp9
    .del 55,
    -- 863: t1new.aa += einsum(t1.aa, (0, 1), tmp20, (0, 2), (2, 1)) * -1
    .add 252 (.ein [(3, [0, 1]), (240, [0, 2])] [2, 1]) (-1) 1,
    -- 864: del tmp20
    .del 240
  ]
  ret := [(chars! "t1new.bb", 251), (chars! "t1new.aa", 252), (chars! "t2new.bbbb", 248), (chars! "t2new.abab", 249), (chars! "t2new.aaaa", 250)]

/-- codegen/UCCSD.py:868-1920 `update_lams`. -/
def update_lams : GenFun where
  args := [chars! "v.bbbb.ovov", chars! "v.aaaa.ovov", chars! "v.aabb.ovov", chars! "t1.aa", chars! "t1.bb", chars! "f.bb.ov", chars! "v.bbbb.ooov", chars! "v.bbbb.ovoo", chars! "v.bbbb.ovvv", chars! "l2.bbbb", chars! "l2.abab", chars! "v.aaaa.ovvv", chars! "l2.aaaa", chars! "v.aaaa.ooov", chars! "v.aaaa.ovoo", chars! "f.aa.ov", chars! "v.aabb.ovoo", chars! "t2.abab", chars! "t2.bbbb", chars! "l1.bb", chars! "t2.aaaa", chars! "l1.aa", chars! "v.aabb.ovvv", chars! "v.aabb.vvov", chars! "v.aabb.ooov", chars! "f.bb.oo", chars! "f.bb.vv", chars! "v.bbbb.oovv", chars! "f.aa.vv", chars! "v.aaaa.oovv", chars! "f.aa.oo", chars! "v.aabb.vvoo", chars! "v.aabb.oooo", chars! "v.bbbb.oooo", chars! "v.aaaa.oooo", chars! "v.bbbb.vvvv", chars! "v.aabb.oovv", chars! "v.aabb.vvvv", chars! "v.aaaa.vvvv"]
  body := [
    -- 897: tmp98 = np.copy(np.transpose(v.bbbb.ovov, (0, 2, 3, 1)))
    .set 39 (.tr 0 [0, 2, 3, 1]) 1 1,
    -- 898: tmp98 += np.transpose(v.bbbb.ovov, (0, 2, 1, 3)) * -1
    .add 39 (.tr 0 [0, 2, 1, 3]) (-1) 1,
    -- 899: tmp7 = np.copy(np.transpose(v.aaaa.ovov, (0, 2, 3, 1))) * -1
    .set 40 (.tr 1 [0, 2, 3, 1]) (-1) 1,
    -- 900: tmp7 += np.transpose(v.aaaa.ovov, (0, 2, 1, 3))
    .add 40 (.tr 1 [0, 2, 1, 3]) 1 1,
    -- 901: tmp97 = einsum(v.aabb.ovov, (0, 1, 2, 3), t1.aa, (0, 1), (2, 3))
    .set 41 (.ein [(2, [0, 1, 2, 3]), (3, [0, 1])] [2, 3]) 1 1,
    -- 902: tmp99 = einsum(tmp98, (0, 1, 2, 3), t1.bb, (0, 2), (1, 3))
    .set 42 (.ein [(39, [0, 1, 2, 3]), (4, [0, 2])] [1, 3]) 1 1,
    -- 903: del tmp98
    .del 39,
    -- 904: tmp8 = einsum(t1.aa, (0, 1), tmp7, (0, 2, 3, 1), (2, 3))
    .set 43 (.ein [(3, [0, 1]), (40, [0, 2, 3, 1])] [2, 3]) 1 1,
    -- 905: del tmp7
    .del 40,
    -- 906: tmp6 = einsum(v.aabb.ovov, (0, 1, 2, 3), t1.bb, (2, 3), (0, 1))
    .set 44 (.ein [(2, [0, 1, 2, 3]), (4, [2, 3])] [0, 1]) 1 1,
    -- 907: tmp2 = einsum(t1.bb, (0, 1), v.aabb.ovov, (2, 3, 4, 1), (2, 0, 4, 3))
    .set 45 (.ein [(4, [0, 1]), (2, [2, 3, 4, 1])] [2, 0, 4, 3]) 1 1,
    -- 908: tmp100 = np.copy(f.bb.ov)
    .set 46 (.cp 5) 1 1,
    -- 909: tmp100 += tmp97
    .add 46 (.cp 41) 1 1,
    -- 910: tmp100 += tmp99 * -1
    .add 46 (.cp 42) (-1) 1,
    -- 911: del tmp99
    .del 42,
    -- 912: tmp117 = np.copy(v.bbbb.ooov)
    .set 47 (.cp 6) 1 1,
    -- 913: tmp117 += np.transpose(v.bbbb.ovoo, (0, 2, 3, 1)) * -1
    .add 47 (.tr 7 [0, 2, 3, 1]) (-1) 1,
    -- 914: tmp111 = np.copy(v.bbbb.ovvv) * -1
    .set 48 (.cp 8) (-1) 1,
    -- 915: tmp111 += np.transpose(v.bbbb.ovvv, (0, 2, 1, 3))
    .add 48 (.tr 8 [0, 2, 1, 3]) 1 1,
    -- 916: tmp52 = einsum(t1.bb, (0, 1), l2.bbbb, (2, 1, 3, 4), (3, 4, 0, 2))
    .set 49 (.ein [(4, [0, 1]), (9, [2, 1, 3, 4])] [3, 4, 0, 2]) 1 1,
    -- 917: tmp196 = np.copy(v.bbbb.ovvv)
    .set 50 (.cp 8) 1 1,
    -- 918: tmp196 += np.transpose(v.bbbb.ovvv, (0, 2, 1, 3)) * -1
    .add 50 (.tr 8 [0, 2, 1, 3]) (-1) 1,
    -- 919: tmp212 = np.copy(np.transpose(v.bbbb.ovov, (0, 2, 3, 1)))
    .set 51 (.tr 0 [0, 2, 3, 1]) 1 1,
    -- 920: tmp212 += np.transpose(v.bbbb.ovov, (0, 2, 1, 3)) * -1
    .add 51 (.tr 0 [0, 2, 1, 3]) (-1) 1,
    -- 921: tmp50 = einsum(t1.bb, (0, 1), l2.abab, (2, 1, 3, 4), (3, 4, 0, 2))
    .set 52 (.ein [(4, [0, 1]), (10, [2, 1, 3, 4])] [3, 4, 0, 2]) 1 1,
    -- 922: tmp31 = np.copy(v.aaaa.ovvv)
    .set 53 (.cp 11) 1 1,
    -- 923: tmp31 += np.transpose(v.aaaa.ovvv, (0, 2, 3, 1)) * -1
    .add 53 (.tr 11 [0, 2, 3, 1]) (-1) 1,
    -- 924: tmp38 = einsum(l2.aaaa, (0, 1, 2, 3), t1.aa, (4, 1), (2, 3, 4, 0))
    .set 54 (.ein [(12, [0, 1, 2, 3]), (3, [4, 1])] [2, 3, 4, 0]) 1 1,
    -- 925: tmp180 = np.copy(np.transpose(v.aaaa.ovov, (0, 2, 3, 1))) * -1
    .set 55 (.tr 1 [0, 2, 3, 1]) (-1) 1,
    -- 926: tmp180 += np.transpose(v.aaaa.ovov, (0, 2, 1, 3))
    .add 55 (.tr 1 [0, 2, 1, 3]) 1 1,
    -- 927: tmp164 = np.copy(v.aaaa.ovvv) * -1
    .set 56 (.cp 11) (-1) 1,
    -- 928: tmp164 += np.transpose(v.aaaa.ovvv, (0, 2, 1, 3))
    .add 56 (.tr 11 [0, 2, 1, 3]) 1 1,
    -- 929: tmp63 = np.copy(v.aaaa.ooov) * -1
    .set 57 (.cp 13) (-1) 1,
    -- 930: tmp63 += np.transpose(v.aaaa.ovoo, (0, 2, 3, 1))
    .add 57 (.tr 14 [0, 2, 3, 1]) 1 1,
    -- 931: tmp9 = np.copy(f.aa.ov)
    .set 58 (.cp 15) 1 1,
    -- 932: tmp9 += tmp6
    .add 58 (.cp 44) 1 1,
    -- 933: tmp9 += tmp8 * -1
    .add 58 (.cp 43) (-1) 1,
    -- 934: del tmp8
    .del 43,
    -- 935: tmp14 = np.copy(np.transpose(v.aabb.ovoo, (0, 2, 3, 1)))
    .set 59 (.tr 16 [0, 2, 3, 1]) 1 1,
    -- 936: tmp14 += tmp2
    .add 59 (.cp 45) 1 1,
    -- 937: tmp95 = einsum(v.bbbb.ovov, (0, 1, 2, 3), t1.bb, (4, 3), (4, 0, 2, 1))
    .set 60 (.ein [(0, [0, 1, 2, 3]), (4, [4, 3])] [4, 0, 2, 1]) 1 1,
    -- 938: tmp55 = einsum(l2.abab, (0, 1, 2, 3), t2.abab, (2, 4, 0, 1), (3, 4))
    .set 61 (.ein [(10, [0, 1, 2, 3]), (17, [2, 4, 0, 1])] [3, 4]) 1 1,
    -- 939: tmp56 = einsum(l2.bbbb, (0, 1, 2, 3), t2.bbbb, (4, 3, 0, 1), (2, 4))
    .set 62 (.ein [(9, [0, 1, 2, 3]), (18, [4, 3, 0, 1])] [2, 4]) 1 1,
    -- 940: tmp54 = einsum(t1.bb, (0, 1), l1.bb, (1, 2), (2, 0))
    .set 63 (.ein [(4, [0, 1]), (19, [1, 2])] [2, 0]) 1 1,
    -- 941: tmp0 = einsum(v.aaaa.ovov, (0, 1, 2, 3), t1.aa, (4, 3), (4, 0, 2, 1))
    .set 64 (.ein [(1, [0, 1, 2, 3]), (3, [4, 3])] [4, 0, 2, 1]) 1 1,
    -- 942: tmp43 = einsum(l2.aaaa, (0, 1, 2, 3), t2.aaaa, (4, 3, 0, 1), (2, 4))
    .set 65 (.ein [(12, [0, 1, 2, 3]), (20, [4, 3, 0, 1])] [2, 4]) 1 1,
    -- 943: tmp42 = einsum(l1.aa, (0, 1), t1.aa, (2, 0), (1, 2))
    .set 66 (.ein [(21, [0, 1]), (3, [2, 0])] [1, 2]) 1 1,
    -- 944: tmp44 = einsum(l2.abab, (0, 1, 2, 3), t2.abab, (4, 3, 0, 1), (2, 4))
    .set 67 (.ein [(10, [0, 1, 2, 3]), (17, [4, 3, 0, 1])] [2, 4]) 1 1,
    -- 945: tmp115 = einsum(v.aabb.ovov, (0, 1, 2, 3), t2.abab, (0, 4, 1, 3), (4, 2))
    .set 68 (.ein [(2, [0, 1, 2, 3]), (17, [0, 4, 1, 3])] [4, 2]) 1 1,
    -- 946: tmp114 = einsum(v.aabb.ovoo, (0, 1, 2, 3), t1.aa, (0, 1), (2, 3))
    .set 69 (.ein [(16, [0, 1, 2, 3]), (3, [0, 1])] [2, 3]) 1 1,
    -- 947: tmp116 = einsum(v.bbbb.ovov, (0, 1, 2, 3), t2.bbbb, (4, 2, 3, 1), (4, 0)) * -1
    .set 70 (.ein [(0, [0, 1, 2, 3]), (18, [4, 2, 3, 1])] [4, 0]) (-1) 1,
    -- 948: tmp119 = einsum(tmp100, (0, 1), t1.bb, (2, 1), (2, 0))
    .set 71 (.ein [(46, [0, 1]), (4, [2, 1])] [2, 0]) 1 1,
    -- 949: tmp118 = einsum(t1.bb, (0, 1), tmp117, (0, 2, 3, 1), (2, 3))
    .set 72 (.ein [(4, [0, 1]), (47, [0, 2, 3, 1])] [2, 3]) 1 1,
    -- 950: del tmp117
    .del 47,
    -- 951: tmp125 = einsum(l2.abab, (0, 1, 2, 3), t2.abab, (2, 4, 0, 5), (3, 4, 1, 5))
    .set 73 (.ein [(10, [0, 1, 2, 3]), (17, [2, 4, 0, 5])] [3, 4, 1, 5]) 1 1,
    -- 952: tmp126 = einsum(t2.bbbb, (0, 1, 2, 3), l2.bbbb, (4, 3, 5, 1), (5, 0, 4, 2))
    .set 74 (.ein [(18, [0, 1, 2, 3]), (9, [4, 3, 5, 1])] [5, 0, 4, 2]) 1 1,
    -- 953: tmp142 = einsum(v.aabb.ovvv, (0, 1, 2, 3), t1.aa, (0, 1), (2, 3))
    .set 75 (.ein [(22, [0, 1, 2, 3]), (3, [0, 1])] [2, 3]) 1 1,
    -- 954: tmp210 = einsum(t2.bbbb, (0, 1, 2, 3), v.bbbb.ovov, (0, 4, 1, 3), (2, 4))
    .set 76 (.ein [(18, [0, 1, 2, 3]), (0, [0, 4, 1, 3])] [2, 4]) 1 1,
    -- 955: tmp245 = einsum(t1.bb, (0, 1), tmp111, (0, 2, 1, 3), (2, 3))
    .set 77 (.ein [(4, [0, 1]), (48, [0, 2, 1, 3])] [2, 3]) 1 1,
    -- 956: tmp209 = einsum(v.aabb.ovov, (0, 1, 2, 3), t2.abab, (0, 2, 1, 4), (4, 3))
    .set 78 (.ein [(2, [0, 1, 2, 3]), (17, [0, 2, 1, 4])] [4, 3]) 1 1,
    -- 957: tmp137 = einsum(l2.bbbb, (0, 1, 2, 3), t2.bbbb, (4, 5, 0, 1), (2, 3, 4, 5))
    .set 79 (.ein [(9, [0, 1, 2, 3]), (18, [4, 5, 0, 1])] [2, 3, 4, 5]) 1 1,
    -- 958: tmp135 = einsum(t1.bb, (0, 1), tmp52, (2, 3, 4, 1), (2, 3, 0, 4))
    .set 80 (.ein [(4, [0, 1]), (49, [2, 3, 4, 1])] [2, 3, 0, 4]) 1 1,
    -- 959: tmp33 = einsum(l2.abab, (0, 1, 2, 3), t2.abab, (2, 3, 0, 4), (1, 4))
    .set 81 (.ein [(10, [0, 1, 2, 3]), (17, [2, 3, 0, 4])] [1, 4]) 1 1,
    -- 960: tmp34 = einsum(l2.bbbb, (0, 1, 2, 3), t2.bbbb, (2, 3, 4, 1), (0, 4))
    .set 82 (.ein [(9, [0, 1, 2, 3]), (18, [2, 3, 4, 1])] [0, 4]) 1 1,
    -- 961: tmp197 = einsum(t1.bb, (0, 1), tmp196, (2, 1, 3, 4), (2, 0, 3, 4))
    .set 83 (.ein [(4, [0, 1]), (50, [2, 1, 3, 4])] [2, 0, 3, 4]) 1 1,
    -- 962: del tmp196
    .del 50,
    -- 963: tmp195 = einsum(t2.bbbb, (0, 1, 2, 3), v.bbbb.ovov, (4, 5, 1, 3), (0, 4, 2, 5))
    .set 84 (.ein [(18, [0, 1, 2, 3]), (0, [4, 5, 1, 3])] [0, 4, 2, 5]) 1 1,
    -- 964: tmp194 = einsum(v.aabb.ovov, (0, 1, 2, 3), t2.abab, (0, 4, 1, 5), (4, 2, 5, 3))
    .set 85 (.ein [(2, [0, 1, 2, 3]), (17, [0, 4, 1, 5])] [4, 2, 5, 3]) 1 1,
    -- 965: tmp201 = einsum(v.bbbb.ovov, (0, 1, 2, 3), t2.abab, (4, 2, 5, 3), (4, 0, 5, 1))
    .set 86 (.ein [(0, [0, 1, 2, 3]), (17, [4, 2, 5, 3])] [4, 0, 5, 1]) 1 1,
    -- 966: tmp199 = einsum(t1.aa, (0, 1), v.aabb.vvov, (2, 1, 3, 4), (0, 3, 2, 4))
    .set 87 (.ein [(3, [0, 1]), (23, [2, 1, 3, 4])] [0, 3, 2, 4]) 1 1,
    -- 967: tmp200 = einsum(t2.aaaa, (0, 1, 2, 3), v.aabb.ovov, (1, 3, 4, 5), (0, 4, 2, 5))
    .set 88 (.ein [(20, [0, 1, 2, 3]), (2, [1, 3, 4, 5])] [0, 4, 2, 5]) 1 1,
    -- 968: tmp213 = einsum(tmp212, (0, 1, 2, 3), t1.bb, (0, 2), (1, 3))
    .set 89 (.ein [(51, [0, 1, 2, 3]), (4, [0, 2])] [1, 3]) 1 1,
    -- 969: del tmp212
    .del 51,
    -- 970: tmp77 = einsum(t1.aa, (0, 1), tmp50, (2, 3, 4, 1), (2, 0, 3, 4))
    .set 90 (.ein [(3, [0, 1]), (52, [2, 3, 4, 1])] [2, 0, 3, 4]) 1 1,
    -- 971: tmp76 = einsum(l2.abab, (0, 1, 2, 3), t2.abab, (4, 5, 0, 1), (2, 4, 3, 5))
    .set 91 (.ein [(10, [0, 1, 2, 3]), (17, [4, 5, 0, 1])] [2, 4, 3, 5]) 1 1,
    -- 972: tmp28 = einsum(l2.aaaa, (0, 1, 2, 3), t2.aaaa, (2, 3, 4, 1), (0, 4))
    .set 92 (.ein [(12, [0, 1, 2, 3]), (20, [2, 3, 4, 1])] [0, 4]) 1 1,
    -- 973: tmp29 = einsum(l2.abab, (0, 1, 2, 3), t2.abab, (2, 3, 4, 1), (0, 4))
    .set 93 (.ein [(10, [0, 1, 2, 3]), (17, [2, 3, 4, 1])] [0, 4]) 1 1,
    -- 974: tmp176 = einsum(v.aabb.ovov, (0, 1, 2, 3), t2.abab, (0, 2, 4, 3), (4, 1))
    .set 94 (.ein [(2, [0, 1, 2, 3]), (17, [0, 2, 4, 3])] [4, 1]) 1 1,
    -- 975: tmp177 = einsum(tmp31, (0, 1, 2, 3), t1.aa, (0, 1), (2, 3))
    .set 95 (.ein [(53, [0, 1, 2, 3]), (3, [0, 1])] [2, 3]) 1 1,
    -- 976: tmp91 = einsum(v.aabb.vvov, (0, 1, 2, 3), t1.bb, (2, 3), (0, 1))
    .set 96 (.ein [(23, [0, 1, 2, 3]), (4, [2, 3])] [0, 1]) 1 1,
    -- 977: tmp175 = einsum(t2.aaaa, (0, 1, 2, 3), v.aaaa.ovov, (0, 4, 1, 3), (2, 4))
    .set 97 (.ein [(20, [0, 1, 2, 3]), (1, [0, 4, 1, 3])] [2, 4]) 1 1,
    -- 978: tmp83 = einsum(t1.aa, (0, 1), tmp38, (2, 3, 4, 1), (3, 2, 4, 0))
    .set 98 (.ein [(3, [0, 1]), (54, [2, 3, 4, 1])] [3, 2, 4, 0]) 1 1,
    -- 979: tmp86 = einsum(t2.aaaa, (0, 1, 2, 3), l2.aaaa, (2, 3, 4, 5), (4, 5, 0, 1))
    .set 99 (.ein [(20, [0, 1, 2, 3]), (12, [2, 3, 4, 5])] [4, 5, 0, 1]) 1 1,
    -- 980: tmp181 = einsum(t1.aa, (0, 1), tmp180, (0, 2, 3, 1), (2, 3))
    .set 100 (.ein [(3, [0, 1]), (55, [0, 2, 3, 1])] [2, 3]) 1 1,
    -- 981: del tmp180
    .del 55,
    -- 982: tmp10 = einsum(v.aabb.ovvv, (0, 1, 2, 3), t1.bb, (4, 3), (0, 4, 1, 2))
    .set 101 (.ein [(22, [0, 1, 2, 3]), (4, [4, 3])] [0, 4, 1, 2]) 1 1,
    -- 983: tmp158 = einsum(v.aaaa.ovov, (0, 1, 2, 3), t2.abab, (2, 4, 3, 5), (0, 4, 1, 5))
    .set 102 (.ein [(1, [0, 1, 2, 3]), (17, [2, 4, 3, 5])] [0, 4, 1, 5]) 1 1,
    -- 984: tmp159 = einsum(t2.bbbb, (0, 1, 2, 3), v.aabb.ovov, (4, 5, 1, 3), (4, 0, 5, 2))
    .set 103 (.ein [(18, [0, 1, 2, 3]), (2, [4, 5, 1, 3])] [4, 0, 5, 2]) 1 1,
    -- 985: tmp156 = einsum(v.aabb.ovov, (0, 1, 2, 3), t2.abab, (4, 2, 5, 3), (4, 0, 5, 1))
    .set 104 (.ein [(2, [0, 1, 2, 3]), (17, [4, 2, 5, 3])] [4, 0, 5, 1]) 1 1,
    -- 986: tmp155 = einsum(v.aaaa.ovov, (0, 1, 2, 3), t2.aaaa, (4, 2, 5, 3), (4, 0, 5, 1))
    .set 105 (.ein [(1, [0, 1, 2, 3]), (20, [4, 2, 5, 3])] [4, 0, 5, 1]) 1 1,
    -- 987: tmp165 = einsum(tmp164, (0, 1, 2, 3), t1.aa, (4, 2), (0, 4, 1, 3))
    .set 106 (.ein [(56, [0, 1, 2, 3]), (3, [4, 2])] [0, 4, 1, 3]) 1 1,
    -- 988: del tmp164
    .del 56,
    -- 989: tmp62 = einsum(v.aabb.ovov, (0, 1, 2, 3), t2.abab, (4, 2, 1, 3), (4, 0))
    .set 107 (.ein [(2, [0, 1, 2, 3]), (17, [4, 2, 1, 3])] [4, 0]) 1 1,
    -- 990: tmp61 = einsum(v.aaaa.ovov, (0, 1, 2, 3), t2.aaaa, (4, 2, 1, 3), (4, 0))
    .set 108 (.ein [(1, [0, 1, 2, 3]), (20, [4, 2, 1, 3])] [4, 0]) 1 1,
    -- 991: tmp64 = einsum(tmp63, (0, 1, 2, 3), t1.aa, (2, 3), (0, 1))
    .set 109 (.ein [(57, [0, 1, 2, 3]), (3, [2, 3])] [0, 1]) 1 1,
    -- 992: del tmp63
    .del 57,
    -- 993: tmp60 = einsum(t1.bb, (0, 1), v.aabb.ooov, (2, 3, 0, 1), (2, 3))
    .set 110 (.ein [(4, [0, 1]), (24, [2, 3, 0, 1])] [2, 3]) 1 1,
    -- 994: tmp65 = einsum(tmp9, (0, 1), t1.aa, (2, 1), (2, 0))
    .set 111 (.ein [(58, [0, 1]), (3, [2, 1])] [2, 0]) 1 1,
    -- 995: tmp73 = einsum(t2.aaaa, (0, 1, 2, 3), l2.aaaa, (4, 3, 5, 1), (5, 0, 4, 2))
    .set 112 (.ein [(20, [0, 1, 2, 3]), (12, [4, 3, 5, 1])] [5, 0, 4, 2]) 1 1,
    -- 996: tmp74 = einsum(l2.abab, (0, 1, 2, 3), t2.abab, (4, 3, 5, 1), (2, 4, 0, 5))
    .set 113 (.ein [(10, [0, 1, 2, 3]), (17, [4, 3, 5, 1])] [2, 4, 0, 5]) 1 1,
    -- 997: tmp101 = einsum(v.aabb.vvov, (0, 1, 2, 3), t1.bb, (4, 3), (4, 2, 0, 1))
    .set 114 (.ein [(23, [0, 1, 2, 3]), (4, [4, 3])] [4, 2, 0, 1]) 1 1,
    -- 998: tmp13 = einsum(v.aabb.ovov, (0, 1, 2, 3), t2.abab, (4, 5, 1, 3), (4, 0, 5, 2))
    .set 115 (.ein [(2, [0, 1, 2, 3]), (17, [4, 5, 1, 3])] [4, 0, 5, 2]) 1 1,
    -- 999: tmp12 = einsum(v.aabb.ooov, (0, 1, 2, 3), t1.bb, (4, 3), (0, 1, 4, 2))
    .set 116 (.ein [(24, [0, 1, 2, 3]), (4, [4, 3])] [0, 1, 4, 2]) 1 1,
    -- 1000: tmp15 = einsum(tmp14, (0, 1, 2, 3), t1.aa, (4, 3), (4, 0, 1, 2))
    .set 117 (.ein [(59, [0, 1, 2, 3]), (3, [4, 3])] [4, 0, 1, 2]) 1 1,
    -- 1001: tmp4 = einsum(t1.aa, (0, 1), v.aabb.ovov, (2, 1, 3, 4), (0, 2, 3, 4))
    .set 118 (.ein [(3, [0, 1]), (2, [2, 1, 3, 4])] [0, 2, 3, 4]) 1 1,
    -- 1002: tmp107 = einsum(t1.bb, (0, 1), tmp95, (2, 3, 4, 1), (0, 2, 3, 4))
    .set 119 (.ein [(4, [0, 1]), (60, [2, 3, 4, 1])] [0, 2, 3, 4]) 1 1,
    -- 1003: tmp108 = einsum(v.bbbb.ooov, (0, 1, 2, 3), t1.bb, (4, 3), (4, 0, 1, 2))
    .set 120 (.ein [(6, [0, 1, 2, 3]), (4, [4, 3])] [4, 0, 1, 2]) 1 1,
    -- 1004: tmp106 = einsum(t2.bbbb, (0, 1, 2, 3), v.bbbb.ovov, (4, 2, 5, 3), (0, 1, 4, 5))
    .set 121 (.ein [(18, [0, 1, 2, 3]), (0, [4, 2, 5, 3])] [0, 1, 4, 5]) 1 1,
    -- 1005: tmp40 = einsum(l2.abab, (0, 1, 2, 3), t1.aa, (4, 0), (2, 4, 3, 1))
    .set 122 (.ein [(10, [0, 1, 2, 3]), (3, [4, 0])] [2, 4, 3, 1]) 1 1,
    -- 1006: tmp57 = np.copy(tmp54)
    .set 123 (.cp 63) 1 1,
    -- 1007: tmp57 += tmp55
    .add 123 (.cp 61) 1 1,
    -- 1008: tmp57 += tmp56 * 2
    .add 123 (.cp 62) 2 1,
    -- 1009: tmp24 = einsum(v.aaaa.ooov, (0, 1, 2, 3), t1.aa, (4, 3), (4, 0, 1, 2))
    .set 124 (.ein [(13, [0, 1, 2, 3]), (3, [4, 3])] [4, 0, 1, 2]) 1 1,
    -- 1010: tmp23 = einsum(t1.aa, (0, 1), tmp0, (2, 3, 4, 1), (0, 2, 3, 4))
    .set 125 (.ein [(3, [0, 1]), (64, [2, 3, 4, 1])] [0, 2, 3, 4]) 1 1,
    -- 1011: tmp22 = einsum(t2.aaaa, (0, 1, 2, 3), v.aaaa.ovov, (4, 3, 5, 2), (0, 1, 4, 5)) * -1
    .set 126 (.ein [(20, [0, 1, 2, 3]), (1, [4, 3, 5, 2])] [0, 1, 4, 5]) (-1) 1,
    -- 1012: tmp20 = einsum(v.aaaa.ovvv, (0, 1, 2, 3), t1.aa, (4, 3), (4, 0, 1, 2))
    .set 127 (.ein [(11, [0, 1, 2, 3]), (3, [4, 3])] [4, 0, 1, 2]) 1 1,
    -- 1013: tmp45 = np.copy(tmp42) * 0.5
    .set 128 (.cp 66) 1 2,
    -- 1014: tmp45 += tmp43
    .add 128 (.cp 65) 1 1,
    -- 1015: tmp45 += tmp44 * 0.5
    .add 128 (.cp 67) 1 2,
    -- 1016: tmp120 = np.copy(f.bb.oo)
    .set 129 (.cp 25) 1 1,
    -- 1017: tmp120 += np.transpose(tmp114, (1, 0))
    .add 129 (.tr 69 [1, 0]) 1 1,
    -- 1018: del tmp114
    .del 69,
    -- 1019: tmp120 += tmp115
    .add 129 (.cp 68) 1 1,
    -- 1020: del tmp115
    .del 68,
    -- 1021: tmp120 += tmp116 * 2
    .add 129 (.cp 70) 2 1,
    -- 1022: del tmp116
    .del 70,
    -- 1023: tmp120 += tmp118 * -1
    .add 129 (.cp 72) (-1) 1,
    -- 1024: del tmp118
    .del 72,
    -- 1025: tmp120 += tmp119
    .add 129 (.cp 71) 1 1,
    -- 1026: del tmp119
    .del 71,
    -- 1027: tmp228 = np.copy(np.transpose(v.bbbb.ooov, (0, 2, 1, 3)))
    .set 130 (.tr 6 [0, 2, 1, 3]) 1 1,
    -- 1028: tmp228 += tmp95
    .add 130 (.cp 60) 1 1,
    -- 1029: tmp255 = np.copy(tmp125)
    .set 131 (.cp 73) 1 1,
    -- 1030: tmp255 += tmp126 * 4
    .add 131 (.cp 74) 4 1,
    -- 1031: tmp203 = einsum(v.bbbb.ovov, (0, 1, 2, 3), t1.bb, (2, 3), (0, 1))
    .set 132 (.ein [(0, [0, 1, 2, 3]), (4, [2, 3])] [0, 1]) 1 1,
    -- 1032: tmp246 = np.copy(f.bb.vv) * -1
    .set 133 (.cp 26) (-1) 1,
    -- 1033: tmp246 += np.transpose(tmp142, (1, 0)) * -1
    .add 133 (.tr 75 [1, 0]) (-1) 1,
    -- 1034: tmp246 += np.transpose(tmp209, (1, 0))
    .add 133 (.tr 78 [1, 0]) 1 1,
    -- 1035: tmp246 += np.transpose(tmp210, (1, 0)) * 2
    .add 133 (.tr 76 [1, 0]) 2 1,
    -- 1036: tmp246 += tmp245 * -1
    .add 133 (.cp 77) (-1) 1,
    -- 1037: del tmp245
    .del 77,
    -- 1038: tmp243 = np.copy(np.transpose(tmp137, (1, 0, 3, 2)))
    .set 134 (.tr 79 [1, 0, 3, 2]) 1 1,
    -- 1039: tmp243 += np.transpose(tmp135, (0, 1, 3, 2)) * -1
    .add 134 (.tr 80 [0, 1, 3, 2]) (-1) 1,
    -- 1040: tmp225 = np.copy(tmp33)
    .set 135 (.cp 81) 1 1,
    -- 1041: tmp225 += tmp34 * 2
    .add 135 (.cp 82) 2 1,
    -- 1042: tmp198 = np.copy(np.transpose(v.bbbb.ovov, (0, 2, 1, 3)))
    .set 136 (.tr 0 [0, 2, 1, 3]) 1 1,
    -- 1043: tmp198 += v.bbbb.oovv * -1
    .add 136 (.cp 27) (-1) 1,
    -- 1044: tmp198 += tmp194
    .add 136 (.cp 85) 1 1,
    -- 1045: tmp198 += tmp195 * 2
    .add 136 (.cp 84) 2 1,
    -- 1046: tmp198 += np.transpose(tmp197, (1, 0, 3, 2)) * -1
    .add 136 (.tr 83 [1, 0, 3, 2]) (-1) 1,
    -- 1047: del tmp197
    .del 83,
    -- 1048: tmp202 = np.copy(np.transpose(v.aabb.ovov, (0, 2, 1, 3)))
    .set 137 (.tr 2 [0, 2, 1, 3]) 1 1,
    -- 1049: tmp202 += tmp199
    .add 137 (.cp 87) 1 1,
    -- 1050: tmp202 += tmp200 * 2
    .add 137 (.cp 88) 2 1,
    -- 1051: tmp202 += tmp201
    .add 137 (.cp 86) 1 1,
    -- 1052: tmp221 = np.copy(tmp54) * 0.5
    .set 138 (.cp 63) 1 2,
    -- 1053: del tmp54
    .del 63,
    -- 1054: tmp221 += tmp55 * 0.5
    .add 138 (.cp 61) 1 2,
    -- 1055: del tmp55
    .del 61,
    -- 1056: tmp221 += tmp56
    .add 138 (.cp 62) 1 1,
    -- 1057: del tmp56
    .del 62,
    -- 1058: tmp214 = np.copy(f.bb.ov)
    .set 139 (.cp 5) 1 1,
    -- 1059: tmp214 += tmp97
    .add 139 (.cp 41) 1 1,
    -- 1060: tmp214 += tmp213 * -1
    .add 139 (.cp 89) (-1) 1,
    -- 1061: del tmp213
    .del 89,
    -- 1062: tmp143 = np.copy(v.bbbb.ovvv)
    .set 140 (.cp 8) 1 1,
    -- 1063: tmp143 += np.transpose(v.bbbb.ovvv, (0, 2, 1, 3)) * -1
    .add 140 (.tr 8 [0, 2, 1, 3]) (-1) 1,
    -- 1064: tmp70 = einsum(t2.bbbb, (0, 1, 2, 3), l2.abab, (4, 3, 5, 1), (5, 0, 4, 2))
    .set 141 (.ein [(18, [0, 1, 2, 3]), (10, [4, 3, 5, 1])] [5, 0, 4, 2]) 1 1,
    -- 1065: tmp69 = einsum(l2.aaaa, (0, 1, 2, 3), t2.abab, (3, 4, 1, 5), (2, 4, 0, 5))
    .set 142 (.ein [(12, [0, 1, 2, 3]), (17, [3, 4, 1, 5])] [2, 4, 0, 5]) 1 1,
    -- 1066: tmp78 = np.copy(tmp76)
    .set 143 (.cp 91) 1 1,
    -- 1067: tmp78 += tmp77
    .add 143 (.cp 90) 1 1,
    -- 1068: tmp72 = np.copy(v.aaaa.ovvv)
    .set 144 (.cp 11) 1 1,
    -- 1069: tmp72 += np.transpose(v.aaaa.ovvv, (0, 2, 1, 3)) * -1
    .add 144 (.tr 11 [0, 2, 1, 3]) (-1) 1,
    -- 1070: tmp123 = einsum(t2.abab, (0, 1, 2, 3), l2.bbbb, (4, 3, 5, 1), (0, 5, 2, 4))
    .set 145 (.ein [(17, [0, 1, 2, 3]), (9, [4, 3, 5, 1])] [0, 5, 2, 4]) 1 1,
    -- 1071: tmp122 = einsum(l2.abab, (0, 1, 2, 3), t2.aaaa, (4, 2, 5, 0), (4, 3, 5, 1))
    .set 146 (.ein [(10, [0, 1, 2, 3]), (20, [4, 2, 5, 0])] [4, 3, 5, 1]) 1 1,
    -- 1072: tmp162 = einsum(t1.aa, (0, 1), v.aaaa.ovov, (2, 3, 0, 1), (2, 3))
    .set 147 (.ein [(3, [0, 1]), (1, [2, 3, 0, 1])] [2, 3]) 1 1,
    -- 1073: tmp3 = np.copy(np.transpose(v.aabb.ovoo, (0, 2, 3, 1)))
    .set 148 (.tr 16 [0, 2, 3, 1]) 1 1,
    -- 1074: tmp3 += np.transpose(tmp2, (0, 2, 1, 3))
    .add 148 (.tr 45 [0, 2, 1, 3]) 1 1,
    -- 1075: tmp94 = np.copy(tmp42)
    .set 149 (.cp 66) 1 1,
    -- 1076: del tmp42
    .del 66,
    -- 1077: tmp94 += tmp43 * 2
    .add 149 (.cp 65) 2 1,
    -- 1078: del tmp43
    .del 65,
    -- 1079: tmp94 += tmp44
    .add 149 (.cp 67) 1 1,
    -- 1080: del tmp44
    .del 67,
    -- 1081: tmp145 = np.copy(tmp28)
    .set 150 (.cp 92) 1 1,
    -- 1082: tmp145 += tmp29 * 0.5
    .add 150 (.cp 93) 1 2,
    -- 1083: tmp178 = np.copy(f.aa.vv) * -1
    .set 151 (.cp 28) (-1) 1,
    -- 1084: tmp178 += np.transpose(tmp91, (1, 0)) * -1
    .add 151 (.tr 96 [1, 0]) (-1) 1,
    -- 1085: tmp178 += np.transpose(tmp175, (1, 0)) * 2
    .add 151 (.tr 97 [1, 0]) 2 1,
    -- 1086: tmp178 += np.transpose(tmp176, (1, 0))
    .add 151 (.tr 94 [1, 0]) 1 1,
    -- 1087: tmp178 += np.transpose(tmp177, (1, 0)) * -1
    .add 151 (.tr 95 [1, 0]) (-1) 1,
    -- 1088: del tmp177
    .del 95,
    -- 1089: tmp92 = np.copy(v.aaaa.ovvv) * -1
    .set 152 (.cp 11) (-1) 1,
    -- 1090: tmp92 += np.transpose(v.aaaa.ovvv, (0, 2, 1, 3))
    .add 152 (.tr 11 [0, 2, 1, 3]) 1 1,
    -- 1091: tmp173 = np.copy(np.transpose(tmp86, (1, 0, 3, 2)))
    .set 153 (.tr 99 [1, 0, 3, 2]) 1 1,
    -- 1092: tmp173 += np.transpose(tmp83, (0, 1, 3, 2)) * -1
    .add 153 (.tr 98 [0, 1, 3, 2]) (-1) 1,
    -- 1093: tmp182 = np.copy(f.aa.ov)
    .set 154 (.cp 15) 1 1,
    -- 1094: tmp182 += tmp6
    .add 154 (.cp 44) 1 1,
    -- 1095: tmp182 += tmp181 * -1
    .add 154 (.cp 100) (-1) 1,
    -- 1096: del tmp181
    .del 100,
    -- 1097: tmp148 = np.copy(np.transpose(v.aaaa.ooov, (0, 2, 1, 3)))
    .set 155 (.tr 13 [0, 2, 1, 3]) 1 1,
    -- 1098: tmp148 += tmp0
    .add 155 (.cp 64) 1 1,
    -- 1099: tmp168 = np.copy(np.transpose(v.aabb.ovov, (0, 2, 1, 3)))
    .set 156 (.tr 2 [0, 2, 1, 3]) 1 1,
    -- 1100: tmp168 += tmp10
    .add 156 (.cp 101) 1 1,
    -- 1101: tmp168 += tmp158
    .add 156 (.cp 102) 1 1,
    -- 1102: tmp168 += tmp159 * 2
    .add 156 (.cp 103) 2 1,
    -- 1103: tmp166 = np.copy(np.transpose(v.aaaa.ovov, (0, 2, 1, 3)))
    .set 157 (.tr 1 [0, 2, 1, 3]) 1 1,
    -- 1104: tmp166 += v.aaaa.oovv * -1
    .add 157 (.cp 29) (-1) 1,
    -- 1105: tmp166 += tmp155 * 2
    .add 157 (.cp 105) 2 1,
    -- 1106: tmp166 += tmp156
    .add 157 (.cp 104) 1 1,
    -- 1107: tmp166 += np.transpose(tmp165, (1, 0, 3, 2)) * -1
    .add 157 (.tr 106 [1, 0, 3, 2]) (-1) 1,
    -- 1108: del tmp165
    .del 106,
    -- 1109: tmp66 = np.copy(f.aa.oo)
    .set 158 (.cp 30) 1 1,
    -- 1110: tmp66 += np.transpose(tmp60, (1, 0))
    .add 158 (.tr 110 [1, 0]) 1 1,
    -- 1111: del tmp60
    .del 110,
    -- 1112: tmp66 += tmp61 * 2
    .add 158 (.cp 108) 2 1,
    -- 1113: del tmp61
    .del 108,
    -- 1114: tmp66 += tmp62
    .add 158 (.cp 107) 1 1,
    -- 1115: del tmp62
    .del 107,
    -- 1116: tmp66 += np.transpose(tmp64, (1, 0)) * -1
    .add 158 (.tr 109 [1, 0]) (-1) 1,
    -- 1117: del tmp64
    .del 109,
    -- 1118: tmp66 += tmp65
    .add 158 (.cp 111) 1 1,
    -- 1119: del tmp65
    .del 111,
    -- 1120: tmp75 = np.copy(tmp73) * 4
    .set 159 (.cp 112) 4 1,
    -- 1121: del tmp73
    .del 112,
    -- 1122: tmp75 += tmp74
    .add 159 (.cp 113) 1 1,
    -- 1123: del tmp74
    .del 113,
    -- 1124: tmp51 = einsum(tmp50, (0, 1, 2, 3), t2.abab, (0, 1, 3, 4), (2, 4))
    .set 160 (.ein [(52, [0, 1, 2, 3]), (17, [0, 1, 3, 4])] [2, 4]) 1 1,
    -- 1125: tmp49 = einsum(l1.bb, (0, 1), t2.bbbb, (2, 1, 3, 0), (2, 3))
    .set 161 (.ein [(19, [0, 1]), (18, [2, 1, 3, 0])] [2, 3]) 1 1,
    -- 1126: tmp53 = einsum(tmp52, (0, 1, 2, 3), t2.bbbb, (1, 0, 4, 3), (2, 4))
    .set 162 (.ein [(49, [0, 1, 2, 3]), (18, [1, 0, 4, 3])] [2, 4]) 1 1,
    -- 1127: tmp48 = einsum(l1.aa, (0, 1), t2.abab, (1, 2, 0, 3), (2, 3))
    .set 163 (.ein [(21, [0, 1]), (17, [1, 2, 0, 3])] [2, 3]) 1 1,
    -- 1128: tmp27 = einsum(l1.aa, (0, 1), t1.aa, (1, 2), (0, 2))
    .set 164 (.ein [(21, [0, 1]), (3, [1, 2])] [0, 2]) 1 1,
    -- 1129: tmp102 = np.copy(np.transpose(v.aabb.vvoo, (2, 3, 0, 1)))
    .set 165 (.tr 31 [2, 3, 0, 1]) 1 1,
    -- 1130: tmp102 += np.transpose(tmp101, (1, 0, 3, 2))
    .add 165 (.tr 114 [1, 0, 3, 2]) 1 1,
    -- 1131: tmp96 = np.copy(v.bbbb.ooov) * -1
    .set 166 (.cp 6) (-1) 1,
    -- 1132: tmp96 += np.transpose(v.bbbb.ovoo, (0, 2, 3, 1))
    .add 166 (.tr 7 [0, 2, 3, 1]) 1 1,
    -- 1133: tmp96 += np.transpose(tmp95, (1, 0, 2, 3))
    .add 166 (.tr 60 [1, 0, 2, 3]) 1 1,
    -- 1134: tmp96 += np.transpose(tmp95, (2, 0, 1, 3)) * -1
    .add 166 (.tr 60 [2, 0, 1, 3]) (-1) 1,
    -- 1135: tmp16 = np.copy(v.aabb.oooo)
    .set 167 (.cp 32) 1 1,
    -- 1136: tmp16 += np.transpose(tmp12, (1, 0, 3, 2))
    .add 167 (.tr 116 [1, 0, 3, 2]) 1 1,
    -- 1137: tmp16 += np.transpose(tmp13, (1, 0, 3, 2))
    .add 167 (.tr 115 [1, 0, 3, 2]) 1 1,
    -- 1138: tmp16 += np.transpose(tmp15, (1, 0, 3, 2))
    .add 167 (.tr 117 [1, 0, 3, 2]) 1 1,
    -- 1139: del tmp15
    .del 117,
    -- 1140: tmp5 = np.copy(v.aabb.ooov)
    .set 168 (.cp 24) 1 1,
    -- 1141: tmp5 += np.transpose(tmp4, (1, 0, 2, 3))
    .add 168 (.tr 118 [1, 0, 2, 3]) 1 1,
    -- 1142: tmp32 = einsum(l1.bb, (0, 1), t1.bb, (1, 2), (0, 2))
    .set 169 (.ein [(19, [0, 1]), (4, [1, 2])] [0, 2]) 1 1,
    -- 1143: tmp133 = einsum(t2.abab, (0, 1, 2, 3), tmp50, (0, 4, 5, 2), (4, 5, 1, 3))
    .set 170 (.ein [(17, [0, 1, 2, 3]), (52, [0, 4, 5, 2])] [4, 5, 1, 3]) 1 1,
    -- 1144: tmp134 = einsum(t2.bbbb, (0, 1, 2, 3), tmp52, (4, 1, 5, 3), (4, 5, 0, 2)) * -1
    .set 171 (.ein [(18, [0, 1, 2, 3]), (49, [4, 1, 5, 3])] [4, 5, 0, 2]) (-1) 1,
    -- 1145: tmp105 = np.copy(np.transpose(v.bbbb.ovov, (0, 2, 1, 3)))
    .set 172 (.tr 0 [0, 2, 1, 3]) 1 1,
    -- 1146: tmp105 += v.bbbb.oovv * -1
    .add 172 (.cp 27) (-1) 1,
    -- 1147: tmp105 += einsum(v.bbbb.ovvv, (0, 1, 2, 3), t1.bb, (4, 3), (4, 0, 2, 1))
    .add 172 (.ein [(8, [0, 1, 2, 3]), (4, [4, 3])] [4, 0, 2, 1]) 1 1,
    -- 1148: tmp104 = np.copy(v.bbbb.ooov) * -1
    .set 173 (.cp 6) (-1) 1,
    -- 1149: tmp104 += np.transpose(v.bbbb.ooov, (0, 2, 1, 3))
    .add 173 (.tr 6 [0, 2, 1, 3]) 1 1,
    -- 1150: tmp104 += tmp95
    .add 173 (.cp 60) 1 1,
    -- 1151: tmp104 += np.transpose(tmp95, (0, 2, 1, 3)) * -1
    .add 173 (.tr 60 [0, 2, 1, 3]) (-1) 1,
    -- 1152: tmp109 = np.copy(v.bbbb.oooo)
    .set 174 (.cp 33) 1 1,
    -- 1153: tmp109 += np.transpose(tmp106, (3, 1, 2, 0))
    .add 174 (.tr 121 [3, 1, 2, 0]) 1 1,
    -- 1154: tmp109 += np.transpose(tmp107, (3, 1, 2, 0))
    .add 174 (.tr 119 [3, 1, 2, 0]) 1 1,
    -- 1155: tmp109 += np.transpose(tmp108, (2, 1, 3, 0))
    .add 174 (.tr 120 [2, 1, 3, 0]) 1 1,
    -- 1156: tmp109 += np.transpose(tmp108, (3, 2, 1, 0)) * -1
    .add 174 (.tr 120 [3, 2, 1, 0]) (-1) 1,
    -- 1157: tmp37 = einsum(l1.bb, (0, 1), t2.abab, (2, 1, 3, 0), (2, 3))
    .set 175 (.ein [(19, [0, 1]), (17, [2, 1, 3, 0])] [2, 3]) 1 1,
    -- 1158: tmp41 = einsum(tmp40, (0, 1, 2, 3), t2.abab, (0, 2, 4, 3), (1, 4))
    .set 176 (.ein [(122, [0, 1, 2, 3]), (17, [0, 2, 4, 3])] [1, 4]) 1 1,
    -- 1159: tmp39 = einsum(t2.aaaa, (0, 1, 2, 3), tmp38, (1, 0, 4, 3), (4, 2))
    .set 177 (.ein [(20, [0, 1, 2, 3]), (54, [1, 0, 4, 3])] [4, 2]) 1 1,
    -- 1160: tmp36 = einsum(l1.aa, (0, 1), t2.aaaa, (2, 1, 3, 0), (2, 3))
    .set 178 (.ein [(21, [0, 1]), (20, [2, 1, 3, 0])] [2, 3]) 1 1,
    -- 1161: tmp58 = einsum(t1.bb, (0, 1), tmp57, (0, 2), (2, 1))
    .set 179 (.ein [(4, [0, 1]), (123, [0, 2])] [2, 1]) 1 1,
    -- 1162: tmp82 = einsum(tmp38, (0, 1, 2, 3), t2.aaaa, (4, 1, 5, 3), (0, 2, 4, 5)) * -1
    .set 180 (.ein [(54, [0, 1, 2, 3]), (20, [4, 1, 5, 3])] [0, 2, 4, 5]) (-1) 1,
    -- 1163: tmp84 = einsum(tmp40, (0, 1, 2, 3), t2.abab, (4, 2, 5, 3), (0, 1, 4, 5))
    .set 181 (.ein [(122, [0, 1, 2, 3]), (17, [4, 2, 5, 3])] [0, 1, 4, 5]) 1 1,
    -- 1164: tmp25 = np.copy(v.aaaa.oooo)
    .set 182 (.cp 34) 1 1,
    -- 1165: tmp25 += np.transpose(tmp22, (3, 1, 2, 0))
    .add 182 (.tr 126 [3, 1, 2, 0]) 1 1,
    -- 1166: tmp25 += np.transpose(tmp23, (3, 1, 2, 0))
    .add 182 (.tr 125 [3, 1, 2, 0]) 1 1,
    -- 1167: tmp25 += np.transpose(tmp24, (2, 1, 3, 0))
    .add 182 (.tr 124 [2, 1, 3, 0]) 1 1,
    -- 1168: tmp25 += np.transpose(tmp24, (3, 2, 1, 0)) * -1
    .add 182 (.tr 124 [3, 2, 1, 0]) (-1) 1,
    -- 1169: tmp21 = np.copy(np.transpose(v.aaaa.ovov, (0, 2, 1, 3)))
    .set 183 (.tr 1 [0, 2, 1, 3]) 1 1,
    -- 1170: tmp21 += v.aaaa.oovv * -1
    .add 183 (.cp 29) (-1) 1,
    -- 1171: tmp21 += np.transpose(tmp20, (0, 1, 3, 2))
    .add 183 (.tr 127 [0, 1, 3, 2]) 1 1,
    -- 1172: tmp18 = np.copy(v.aaaa.ooov) * -1
    .set 184 (.cp 13) (-1) 1,
    -- 1173: tmp18 += np.transpose(v.aaaa.ooov, (0, 2, 1, 3))
    .add 184 (.tr 13 [0, 2, 1, 3]) 1 1,
    -- 1174: tmp18 += tmp0
    .add 184 (.cp 64) 1 1,
    -- 1175: tmp18 += np.transpose(tmp0, (0, 2, 1, 3)) * -1
    .add 184 (.tr 64 [0, 2, 1, 3]) (-1) 1,
    -- 1176: tmp19 = np.copy(v.aabb.ooov)
    .set 185 (.cp 24) 1 1,
    -- 1177: tmp19 += tmp4
    .add 185 (.cp 118) 1 1,
    -- 1178: tmp46 = einsum(tmp45, (0, 1), t1.aa, (0, 2), (1, 2))
    .set 186 (.ein [(128, [0, 1]), (3, [0, 2])] [1, 2]) 1 1,
    -- 1179: tmp11 = np.copy(np.transpose(v.aabb.ovov, (0, 2, 1, 3)))
    .set 187 (.tr 2 [0, 2, 1, 3]) 1 1,
    -- 1180: tmp11 += tmp10
    .add 187 (.cp 101) 1 1,
    -- 1181: tmp1 = np.copy(v.aaaa.ooov) * -1
    .set 188 (.cp 13) (-1) 1,
    -- 1182: tmp1 += np.transpose(v.aaaa.ovoo, (0, 2, 3, 1))
    .add 188 (.tr 14 [0, 2, 3, 1]) 1 1,
    -- 1183: tmp1 += np.transpose(tmp0, (1, 0, 2, 3))
    .add 188 (.tr 64 [1, 0, 2, 3]) 1 1,
    -- 1184: tmp1 += np.transpose(tmp0, (2, 0, 1, 3)) * -1
    .add 188 (.tr 64 [2, 0, 1, 3]) (-1) 1,
    -- 1185: tmp241 = einsum(v.bbbb.vvvv, (0, 1, 2, 3), l2.bbbb, (3, 1, 4, 5), (4, 5, 0, 2)) * -1
    .set 189 (.ein [(35, [0, 1, 2, 3]), (9, [3, 1, 4, 5])] [4, 5, 0, 2]) (-1) 1,
    -- 1186: tmp234 = einsum(tmp40, (0, 1, 2, 3), v.aabb.ooov, (1, 0, 4, 5), (2, 4, 3, 5))
    .set 190 (.ein [(122, [0, 1, 2, 3]), (24, [1, 0, 4, 5])] [2, 4, 3, 5]) 1 1,
    -- 1187: tmp249 = einsum(tmp108, (0, 1, 2, 3), l2.bbbb, (4, 5, 0, 1), (2, 3, 4, 5))
    .set 191 (.ein [(120, [0, 1, 2, 3]), (9, [4, 5, 0, 1])] [2, 3, 4, 5]) 1 1,
    -- 1188: del tmp108
    .del 120,
    -- 1189: tmp223 = einsum(v.bbbb.ovov, (0, 1, 2, 3), t1.bb, (2, 1), (0, 3))
    .set 192 (.ein [(0, [0, 1, 2, 3]), (4, [2, 1])] [0, 3]) 1 1,
    -- 1190: tmp236 = np.copy(np.transpose(v.aabb.ovov, (0, 2, 1, 3)))
    .set 193 (.tr 2 [0, 2, 1, 3]) 1 1,
    -- 1191: tmp236 += tmp199
    .add 193 (.cp 87) 1 1,
    -- 1192: del tmp199
    .del 87,
    -- 1193: tmp236 += tmp200 * 2
    .add 193 (.cp 88) 2 1,
    -- 1194: del tmp200
    .del 88,
    -- 1195: tmp236 += tmp201
    .add 193 (.cp 86) 1 1,
    -- 1196: del tmp201
    .del 86,
    -- 1197: tmp231 = einsum(tmp95, (0, 1, 2, 3), tmp52, (0, 4, 2, 5), (4, 1, 5, 3)) * -1
    .set 194 (.ein [(60, [0, 1, 2, 3]), (49, [0, 4, 2, 5])] [4, 1, 5, 3]) (-1) 1,
    -- 1198: tmp237 = einsum(tmp120, (0, 1), l2.bbbb, (2, 3, 4, 0), (4, 1, 2, 3)) * -2
    .set 195 (.ein [(129, [0, 1]), (9, [2, 3, 4, 0])] [4, 1, 2, 3]) (-2) 1,
    -- 1199: tmp229 = einsum(l1.bb, (0, 1), tmp228, (1, 2, 3, 4), (2, 3, 4, 0))
    .set 196 (.ein [(19, [0, 1]), (130, [1, 2, 3, 4])] [2, 3, 4, 0]) 1 1,
    -- 1200: del tmp228
    .del 130,
    -- 1201: tmp233 = einsum(tmp40, (0, 1, 2, 3), tmp4, (0, 1, 4, 5), (2, 4, 3, 5))
    .set 197 (.ein [(122, [0, 1, 2, 3]), (118, [0, 1, 4, 5])] [2, 4, 3, 5]) 1 1,
    -- 1202: tmp256 = einsum(v.bbbb.ovov, (0, 1, 2, 3), tmp255, (4, 2, 5, 1), (4, 0, 5, 3))
    .set 198 (.ein [(0, [0, 1, 2, 3]), (131, [4, 2, 5, 1])] [4, 0, 5, 3]) 1 1,
    -- 1203: del tmp255
    .del 131,
    -- 1204: tmp238 = np.copy(f.bb.ov)
    .set 199 (.cp 5) 1 1,
    -- 1205: tmp238 += tmp97
    .add 199 (.cp 41) 1 1,
    -- 1206: tmp238 += tmp203
    .add 199 (.cp 132) 1 1,
    -- 1207: tmp204 = np.copy(f.bb.ov)
    .set 200 (.cp 5) 1 1,
    -- 1208: tmp204 += tmp97
    .add 200 (.cp 41) 1 1,
    -- 1209: del tmp97
    .del 41,
    -- 1210: tmp204 += tmp203
    .add 200 (.cp 132) 1 1,
    -- 1211: del tmp203
    .del 132,
    -- 1212: tmp247 = einsum(l2.bbbb, (0, 1, 2, 3), tmp246, (4, 1), (2, 3, 4, 0)) * -1
    .set 201 (.ein [(9, [0, 1, 2, 3]), (133, [4, 1])] [2, 3, 4, 0]) (-1) 1,
    -- 1213: del tmp246
    .del 133,
    -- 1214: tmp244 = einsum(tmp243, (0, 1, 2, 3), v.bbbb.ovov, (2, 4, 3, 5), (0, 1, 4, 5)) * 0.5
    .set 202 (.ein [(134, [0, 1, 2, 3]), (0, [2, 4, 3, 5])] [0, 1, 4, 5]) 1 2,
    -- 1215: del tmp243
    .del 134,
    -- 1216: tmp226 = einsum(v.bbbb.ovov, (0, 1, 2, 3), tmp225, (4, 1), (0, 2, 4, 3))
    .set 203 (.ein [(0, [0, 1, 2, 3]), (135, [4, 1])] [0, 2, 4, 3]) 1 1,
    -- 1217: tmp251 = einsum(tmp225, (0, 1), v.bbbb.ovov, (2, 3, 4, 1), (2, 4, 0, 3))
    .set 204 (.ein [(135, [0, 1]), (0, [2, 3, 4, 1])] [2, 4, 0, 3]) 1 1,
    -- 1218: del tmp225
    .del 135,
    -- 1219: tmp239 = einsum(l2.bbbb, (0, 1, 2, 3), tmp198, (3, 4, 1, 5), (4, 2, 5, 0))
    .set 205 (.ein [(9, [0, 1, 2, 3]), (136, [3, 4, 1, 5])] [4, 2, 5, 0]) 1 1,
    -- 1220: tmp240 = einsum(tmp202, (0, 1, 2, 3), l2.abab, (2, 4, 0, 5), (1, 5, 3, 4))
    .set 206 (.ein [(137, [0, 1, 2, 3]), (10, [2, 4, 0, 5])] [1, 5, 3, 4]) 1 1,
    -- 1221: tmp253 = einsum(tmp52, (0, 1, 2, 3), tmp95, (1, 2, 4, 5), (0, 4, 3, 5))
    .set 207 (.ein [(49, [0, 1, 2, 3]), (60, [1, 2, 4, 5])] [0, 4, 3, 5]) 1 1,
    -- 1222: tmp258 = einsum(tmp221, (0, 1), v.bbbb.ovov, (2, 3, 1, 4), (0, 2, 4, 3)) * 2
    .set 208 (.ein [(138, [0, 1]), (0, [2, 3, 1, 4])] [0, 2, 4, 3]) 2 1,
    -- 1223: tmp230 = einsum(v.bbbb.ovvv, (0, 1, 2, 3), l1.bb, (3, 4), (4, 0, 1, 2))
    .set 209 (.ein [(8, [0, 1, 2, 3]), (19, [3, 4])] [4, 0, 1, 2]) 1 1,
    -- 1224: tmp242 = einsum(v.bbbb.ovvv, (0, 1, 2, 3), tmp52, (4, 5, 0, 3), (5, 4, 1, 2))
    .set 210 (.ein [(8, [0, 1, 2, 3]), (49, [4, 5, 0, 3])] [5, 4, 1, 2]) 1 1,
    -- 1225: tmp248 = einsum(tmp214, (0, 1), tmp52, (2, 3, 0, 4), (2, 3, 1, 4))
    .set 211 (.ein [(139, [0, 1]), (49, [2, 3, 0, 4])] [2, 3, 1, 4]) 1 1,
    -- 1226: tmp232 = einsum(v.bbbb.ovoo, (0, 1, 2, 3), tmp52, (3, 4, 2, 5), (4, 0, 5, 1)) * -1
    .set 212 (.ein [(7, [0, 1, 2, 3]), (49, [3, 4, 2, 5])] [4, 0, 5, 1]) (-1) 1,
    -- 1227: tmp254 = einsum(v.bbbb.ooov, (0, 1, 2, 3), tmp52, (1, 4, 2, 5), (4, 0, 5, 3)) * -1
    .set 213 (.ein [(6, [0, 1, 2, 3]), (49, [1, 4, 2, 5])] [4, 0, 5, 3]) (-1) 1,
    -- 1228: tmp235 = np.copy(np.transpose(v.bbbb.ovov, (0, 2, 1, 3)))
    .set 214 (.tr 0 [0, 2, 1, 3]) 1 1,
    -- 1229: tmp235 += v.bbbb.oovv * -1
    .add 214 (.cp 27) (-1) 1,
    -- 1230: tmp235 += tmp194
    .add 214 (.cp 85) 1 1,
    -- 1231: del tmp194
    .del 85,
    -- 1232: tmp235 += tmp195 * 2
    .add 214 (.cp 84) 2 1,
    -- 1233: del tmp195
    .del 84,
    -- 1234: tmp235 += einsum(tmp143, (0, 1, 2, 3), t1.bb, (4, 1), (4, 0, 3, 2)) * -1
    .add 214 (.ein [(140, [0, 1, 2, 3]), (4, [4, 1])] [4, 0, 3, 2]) (-1) 1,
    -- 1235: tmp227 = np.copy(v.bbbb.ooov)
    .set 215 (.cp 6) 1 1,
    -- 1236: tmp227 += np.transpose(tmp95, (0, 2, 1, 3))
    .add 215 (.tr 60 [0, 2, 1, 3]) 1 1,
    -- 1237: tmp252 = np.copy(v.bbbb.ooov)
    .set 216 (.cp 6) 1 1,
    -- 1238: tmp252 += np.transpose(tmp95, (0, 2, 1, 3))
    .add 216 (.tr 60 [0, 2, 1, 3]) 1 1,
    -- 1239: tmp250 = np.copy(v.bbbb.oooo) * -1
    .set 217 (.cp 33) (-1) 1,
    -- 1240: tmp250 += np.transpose(tmp106, (1, 3, 0, 2)) * -1
    .add 217 (.tr 121 [1, 3, 0, 2]) (-1) 1,
    -- 1241: del tmp106
    .del 121,
    -- 1242: tmp250 += np.transpose(tmp107, (0, 3, 1, 2))
    .add 217 (.tr 119 [0, 3, 1, 2]) 1 1,
    -- 1243: del tmp107
    .del 119,
    -- 1244: tmp257 = einsum(tmp57, (0, 1), v.bbbb.ovov, (2, 3, 1, 4), (2, 0, 4, 3))
    .set 218 (.ein [(123, [0, 1]), (0, [2, 3, 1, 4])] [2, 0, 4, 3]) 1 1,
    -- 1245: tmp218 = np.copy(v.aabb.oovv)
    .set 219 (.cp 36) 1 1,
    -- 1246: tmp218 += einsum(t1.aa, (0, 1), v.aabb.ovvv, (2, 1, 3, 4), (0, 2, 3, 4))
    .add 219 (.ein [(3, [0, 1]), (22, [2, 1, 3, 4])] [0, 2, 3, 4]) 1 1,
    -- 1247: tmp216 = np.copy(v.aabb.ooov)
    .set 220 (.cp 24) 1 1,
    -- 1248: tmp216 += tmp4
    .add 220 (.cp 118) 1 1,
    -- 1249: tmp206 = einsum(l2.abab, (0, 1, 2, 3), v.aabb.vvvv, (4, 0, 5, 1), (2, 3, 4, 5))
    .set 221 (.ein [(10, [0, 1, 2, 3]), (37, [4, 0, 5, 1])] [2, 3, 4, 5]) 1 1,
    -- 1250: tmp224 = np.copy(tmp69)
    .set 222 (.cp 142) 1 1,
    -- 1251: tmp224 += tmp70
    .add 222 (.cp 141) 1 1,
    -- 1252: tmp219 = einsum(v.aabb.ovov, (0, 1, 2, 3), t2.abab, (0, 4, 5, 3), (4, 2, 5, 1))
    .set 223 (.ein [(2, [0, 1, 2, 3]), (17, [0, 4, 5, 3])] [4, 2, 5, 1]) 1 1,
    -- 1253: tmp205 = np.copy(np.transpose(v.aabb.vvoo, (2, 3, 0, 1)))
    .set 224 (.tr 31 [2, 3, 0, 1]) 1 1,
    -- 1254: tmp205 += np.transpose(tmp101, (0, 1, 3, 2))
    .add 224 (.tr 114 [0, 1, 3, 2]) 1 1,
    -- 1255: del tmp101
    .del 114,
    -- 1256: tmp207 = einsum(v.aabb.ovov, (0, 1, 2, 3), tmp78, (4, 0, 5, 2), (4, 5, 1, 3)) * 0.5
    .set 225 (.ein [(2, [0, 1, 2, 3]), (143, [4, 0, 5, 2])] [4, 5, 1, 3]) 1 2,
    -- 1257: tmp208 = np.copy(f.aa.vv) * -1
    .set 226 (.cp 28) (-1) 1,
    -- 1258: tmp208 += np.transpose(tmp91, (1, 0)) * -1
    .add 226 (.tr 96 [1, 0]) (-1) 1,
    -- 1259: tmp208 += tmp175 * 2
    .add 226 (.cp 97) 2 1,
    -- 1260: del tmp175
    .del 97,
    -- 1261: tmp208 += tmp176
    .add 226 (.cp 94) 1 1,
    -- 1262: del tmp176
    .del 94,
    -- 1263: tmp208 += einsum(tmp72, (0, 1, 2, 3), t1.aa, (0, 1), (3, 2)) * -1
    .add 226 (.ein [(144, [0, 1, 2, 3]), (3, [0, 1])] [3, 2]) (-1) 1,
    -- 1264: tmp222 = np.copy(tmp122)
    .set 227 (.cp 146) 1 1,
    -- 1265: tmp222 += tmp123
    .add 227 (.cp 145) 1 1,
    -- 1266: tmp193 = np.copy(tmp33) * 0.5
    .set 228 (.cp 81) 1 2,
    -- 1267: tmp193 += tmp34
    .add 228 (.cp 82) 1 1,
    -- 1268: tmp211 = np.copy(f.bb.vv) * -0.5
    .set 229 (.cp 26) (-1) 2,
    -- 1269: tmp211 += np.transpose(tmp142, (1, 0)) * -0.5
    .add 229 (.tr 75 [1, 0]) (-1) 2,
    -- 1270: tmp211 += tmp209 * 0.5
    .add 229 (.cp 78) 1 2,
    -- 1271: del tmp209
    .del 78,
    -- 1272: tmp211 += tmp210
    .add 229 (.cp 76) 1 1,
    -- 1273: del tmp210
    .del 76,
    -- 1274: tmp211 += einsum(tmp111, (0, 1, 2, 3), t1.bb, (0, 2), (3, 1)) * -0.5
    .add 229 (.ein [(48, [0, 1, 2, 3]), (4, [0, 2])] [3, 1]) (-1) 2,
    -- 1275: tmp170 = np.copy(f.aa.ov)
    .set 230 (.cp 15) 1 1,
    -- 1276: tmp170 += tmp162
    .add 230 (.cp 147) 1 1,
    -- 1277: tmp170 += tmp6
    .add 230 (.cp 44) 1 1,
    -- 1278: tmp217 = np.copy(v.aabb.oooo)
    .set 231 (.cp 32) 1 1,
    -- 1279: tmp217 += np.transpose(tmp12, (1, 0, 2, 3))
    .add 231 (.tr 116 [1, 0, 2, 3]) 1 1,
    -- 1280: del tmp12
    .del 116,
    -- 1281: tmp217 += tmp13
    .add 231 (.cp 115) 1 1,
    -- 1282: del tmp13
    .del 115,
    -- 1283: tmp217 += einsum(tmp3, (0, 1, 2, 3), t1.aa, (4, 3), (4, 0, 2, 1))
    .add 231 (.ein [(148, [0, 1, 2, 3]), (3, [4, 3])] [4, 0, 2, 1]) 1 1,
    -- 1284: tmp189 = einsum(t1.aa, (0, 1), v.aaaa.ovov, (2, 1, 0, 3), (2, 3))
    .set 232 (.ein [(3, [0, 1]), (1, [2, 1, 0, 3])] [2, 3]) 1 1,
    -- 1285: tmp220 = einsum(v.aabb.ovov, (0, 1, 2, 3), t2.abab, (4, 2, 1, 5), (4, 0, 5, 3))
    .set 233 (.ein [(2, [0, 1, 2, 3]), (17, [4, 2, 1, 5])] [4, 0, 5, 3]) 1 1,
    -- 1286: tmp215 = np.copy(tmp28) * 2
    .set 234 (.cp 92) 2 1,
    -- 1287: tmp215 += tmp29
    .add 234 (.cp 93) 1 1,
    -- 1288: tmp192 = einsum(v.aaaa.ovov, (0, 1, 2, 3), tmp94, (4, 2), (0, 4, 3, 1))
    .set 235 (.ein [(1, [0, 1, 2, 3]), (149, [4, 2])] [0, 4, 3, 1]) 1 1,
    -- 1289: tmp186 = einsum(tmp145, (0, 1), v.aaaa.ovov, (2, 3, 4, 1), (2, 4, 0, 3)) * 2
    .set 236 (.ein [(150, [0, 1]), (1, [2, 3, 4, 1])] [2, 4, 0, 3]) 2 1,
    -- 1290: tmp146 = einsum(tmp145, (0, 1), v.aaaa.ovov, (2, 1, 3, 4), (2, 3, 0, 4)) * 2
    .set 237 (.ein [(150, [0, 1]), (1, [2, 1, 3, 4])] [2, 3, 0, 4]) 2 1,
    -- 1291: del tmp145
    .del 150,
    -- 1292: tmp184 = einsum(l2.aaaa, (0, 1, 2, 3), tmp24, (2, 3, 4, 5), (4, 5, 0, 1))
    .set 238 (.ein [(12, [0, 1, 2, 3]), (124, [2, 3, 4, 5])] [4, 5, 0, 1]) 1 1,
    -- 1293: del tmp24
    .del 124,
    -- 1294: tmp171 = einsum(l2.aaaa, (0, 1, 2, 3), v.aaaa.vvvv, (4, 0, 5, 1), (2, 3, 4, 5))
    .set 239 (.ein [(12, [0, 1, 2, 3]), (38, [4, 0, 5, 1])] [2, 3, 4, 5]) 1 1,
    -- 1295: tmp185 = np.copy(v.aaaa.oooo) * -1
    .set 240 (.cp 34) (-1) 1,
    -- 1296: tmp185 += np.transpose(tmp22, (1, 3, 0, 2)) * -1
    .add 240 (.tr 126 [1, 3, 0, 2]) (-1) 1,
    -- 1297: del tmp22
    .del 126,
    -- 1298: tmp185 += np.transpose(tmp23, (0, 3, 1, 2))
    .add 240 (.tr 125 [0, 3, 1, 2]) 1 1,
    -- 1299: del tmp23
    .del 125,
    -- 1300: tmp190 = einsum(tmp0, (0, 1, 2, 3), tmp38, (4, 0, 1, 5), (4, 2, 5, 3))
    .set 241 (.ein [(64, [0, 1, 2, 3]), (54, [4, 0, 1, 5])] [4, 2, 5, 3]) 1 1,
    -- 1301: tmp179 = einsum(l2.aaaa, (0, 1, 2, 3), tmp178, (4, 1), (2, 3, 4, 0)) * -1
    .set 242 (.ein [(12, [0, 1, 2, 3]), (151, [4, 1])] [2, 3, 4, 0]) (-1) 1,
    -- 1302: del tmp178
    .del 151,
    -- 1303: tmp150 = einsum(l1.aa, (0, 1), v.aaaa.ovvv, (2, 3, 4, 0), (1, 2, 3, 4))
    .set 243 (.ein [(21, [0, 1]), (11, [2, 3, 4, 0])] [1, 2, 3, 4]) 1 1,
    -- 1304: tmp152 = einsum(tmp50, (0, 1, 2, 3), v.aabb.ovoo, (4, 5, 2, 1), (0, 4, 3, 5))
    .set 244 (.ein [(52, [0, 1, 2, 3]), (16, [4, 5, 2, 1])] [0, 4, 3, 5]) 1 1,
    -- 1305: tmp157 = np.copy(np.transpose(v.aaaa.ovov, (0, 2, 1, 3)))
    .set 245 (.tr 1 [0, 2, 1, 3]) 1 1,
    -- 1306: tmp157 += v.aaaa.oovv * -1
    .add 245 (.cp 29) (-1) 1,
    -- 1307: tmp157 += tmp155 * 2
    .add 245 (.cp 105) 2 1,
    -- 1308: del tmp155
    .del 105,
    -- 1309: tmp157 += tmp156
    .add 245 (.cp 104) 1 1,
    -- 1310: del tmp156
    .del 104,
    -- 1311: tmp157 += einsum(tmp92, (0, 1, 2, 3), t1.aa, (4, 2), (4, 0, 3, 1)) * -1
    .add 245 (.ein [(152, [0, 1, 2, 3]), (3, [4, 2])] [4, 0, 3, 1]) (-1) 1,
    -- 1312: tmp174 = einsum(tmp173, (0, 1, 2, 3), v.aaaa.ovov, (2, 4, 3, 5), (0, 1, 4, 5)) * 0.5
    .set 246 (.ein [(153, [0, 1, 2, 3]), (1, [2, 4, 3, 5])] [0, 1, 4, 5]) 1 2,
    -- 1313: del tmp173
    .del 153,
    -- 1314: tmp160 = np.copy(np.transpose(v.aabb.ovov, (0, 2, 1, 3)))
    .set 247 (.tr 2 [0, 2, 1, 3]) 1 1,
    -- 1315: tmp160 += tmp10
    .add 247 (.cp 101) 1 1,
    -- 1316: del tmp10
    .del 101,
    -- 1317: tmp160 += tmp158
    .add 247 (.cp 102) 1 1,
    -- 1318: del tmp158
    .del 102,
    -- 1319: tmp160 += tmp159 * 2
    .add 247 (.cp 103) 2 1,
    -- 1320: del tmp159
    .del 103,
    -- 1321: tmp183 = einsum(tmp38, (0, 1, 2, 3), tmp182, (2, 4), (0, 1, 4, 3))
    .set 248 (.ein [(54, [0, 1, 2, 3]), (154, [2, 4])] [0, 1, 4, 3]) 1 1,
    -- 1322: tmp154 = einsum(tmp38, (0, 1, 2, 3), v.aaaa.ovoo, (4, 5, 2, 0), (1, 4, 3, 5)) * -1
    .set 249 (.ein [(54, [0, 1, 2, 3]), (14, [4, 5, 2, 0])] [1, 4, 3, 5]) (-1) 1,
    -- 1323: tmp172 = einsum(v.aaaa.ovvv, (0, 1, 2, 3), tmp38, (4, 5, 0, 3), (5, 4, 1, 2))
    .set 250 (.ein [(11, [0, 1, 2, 3]), (54, [4, 5, 0, 3])] [5, 4, 1, 2]) 1 1,
    -- 1324: tmp188 = einsum(tmp38, (0, 1, 2, 3), v.aaaa.ooov, (4, 0, 2, 5), (1, 4, 3, 5)) * -1
    .set 251 (.ein [(54, [0, 1, 2, 3]), (13, [4, 0, 2, 5])] [1, 4, 3, 5]) (-1) 1,
    -- 1325: tmp149 = einsum(l1.aa, (0, 1), tmp148, (1, 2, 3, 4), (2, 3, 4, 0))
    .set 252 (.ein [(21, [0, 1]), (155, [1, 2, 3, 4])] [2, 3, 4, 0]) 1 1,
    -- 1326: del tmp148
    .del 155,
    -- 1327: tmp151 = einsum(tmp2, (0, 1, 2, 3), tmp50, (4, 1, 2, 5), (4, 0, 5, 3))
    .set 253 (.ein [(45, [0, 1, 2, 3]), (52, [4, 1, 2, 5])] [4, 0, 5, 3]) 1 1,
    -- 1328: tmp187 = np.copy(v.aaaa.ooov)
    .set 254 (.cp 13) 1 1,
    -- 1329: tmp187 += np.transpose(tmp0, (0, 2, 1, 3))
    .add 254 (.tr 64 [0, 2, 1, 3]) 1 1,
    -- 1330: tmp169 = einsum(l2.abab, (0, 1, 2, 3), tmp168, (4, 3, 5, 1), (4, 2, 5, 0))
    .set 255 (.ein [(10, [0, 1, 2, 3]), (156, [4, 3, 5, 1])] [4, 2, 5, 0]) 1 1,
    -- 1331: tmp167 = einsum(l2.aaaa, (0, 1, 2, 3), tmp166, (3, 4, 1, 5), (4, 2, 5, 0))
    .set 256 (.ein [(12, [0, 1, 2, 3]), (157, [3, 4, 1, 5])] [4, 2, 5, 0]) 1 1,
    -- 1332: tmp147 = np.copy(v.aaaa.ooov)
    .set 257 (.cp 13) 1 1,
    -- 1333: tmp147 += np.transpose(tmp0, (0, 2, 1, 3))
    .add 257 (.tr 64 [0, 2, 1, 3]) 1 1,
    -- 1334: tmp161 = einsum(tmp66, (0, 1), l2.aaaa, (2, 3, 4, 0), (4, 1, 2, 3)) * -2
    .set 258 (.ein [(158, [0, 1]), (12, [2, 3, 4, 0])] [4, 1, 2, 3]) (-2) 1,
    -- 1335: tmp191 = einsum(v.aaaa.ovov, (0, 1, 2, 3), tmp75, (4, 2, 5, 1), (0, 4, 3, 5))
    .set 259 (.ein [(1, [0, 1, 2, 3]), (159, [4, 2, 5, 1])] [0, 4, 3, 5]) 1 1,
    -- 1336: tmp153 = einsum(tmp0, (0, 1, 2, 3), tmp38, (0, 4, 2, 5), (4, 1, 5, 3)) * -1
    .set 260 (.ein [(64, [0, 1, 2, 3]), (54, [0, 4, 2, 5])] [4, 1, 5, 3]) (-1) 1,
    -- 1337: tmp163 = np.copy(f.aa.ov)
    .set 261 (.cp 15) 1 1,
    -- 1338: tmp163 += tmp162
    .add 261 (.cp 147) 1 1,
    -- 1339: del tmp162
    .del 147,
    -- 1340: tmp163 += tmp6
    .add 261 (.cp 44) 1 1,
    -- 1341: del tmp6
    .del 44,
    -- 1342: tmp121 = einsum(t1.aa, (0, 1), v.aabb.vvvv, (2, 1, 3, 4), (0, 2, 3, 4))
    .set 262 (.ein [(3, [0, 1]), (37, [2, 1, 3, 4])] [0, 2, 3, 4]) 1 1,
    -- 1343: tmp128 = einsum(l1.bb, (0, 1), t2.abab, (2, 3, 4, 0), (2, 1, 3, 4))
    .set 263 (.ein [(19, [0, 1]), (17, [2, 3, 4, 0])] [2, 1, 3, 4]) 1 1,
    -- 1344: tmp128 += tmp50
    .add 263 (.cp 52) 1 1,
    -- 1345: tmp128 += einsum(t2.aaaa, (0, 1, 2, 3), tmp50, (1, 4, 5, 3), (0, 4, 5, 2)) * 2
    .add 263 (.ein [(20, [0, 1, 2, 3]), (52, [1, 4, 5, 3])] [0, 4, 5, 2]) 2 1,
    -- 1346: tmp128 += einsum(tmp40, (0, 1, 2, 3), t2.abab, (0, 4, 5, 3), (1, 2, 4, 5)) * -1
    .add 263 (.ein [(122, [0, 1, 2, 3]), (17, [0, 4, 5, 3])] [1, 2, 4, 5]) (-1) 1,
    -- 1347: tmp128 += einsum(tmp52, (0, 1, 2, 3), t2.abab, (4, 1, 5, 3), (4, 0, 2, 5)) * -2
    .add 263 (.ein [(49, [0, 1, 2, 3]), (17, [4, 1, 5, 3])] [4, 0, 2, 5]) (-2) 1,
    -- 1348: tmp128 += einsum(t1.aa, (0, 1), tmp78, (0, 2, 3, 4), (2, 3, 4, 1)) * -1
    .add 263 (.ein [(3, [0, 1]), (143, [0, 2, 3, 4])] [2, 3, 4, 1]) (-1) 1,
    -- 1349: tmp141 = np.copy(t1.bb) * -0.5
    .set 264 (.cp 4) (-1) 2,
    -- 1350: tmp141 += tmp48 * -0.5
    .add 264 (.cp 163) (-1) 2,
    -- 1351: tmp141 += tmp49 * -1
    .add 264 (.cp 161) (-1) 1,
    -- 1352: tmp141 += tmp51 * 0.5
    .add 264 (.cp 160) 1 2,
    -- 1353: tmp141 += tmp53
    .add 264 (.cp 162) 1 1,
    -- 1354: tmp141 += einsum(t1.bb, (0, 1), tmp57, (0, 2), (2, 1)) * 0.5
    .add 264 (.ein [(4, [0, 1]), (123, [0, 2])] [2, 1]) 1 2,
    -- 1355: tmp112 = np.copy(tmp27) * 0.5
    .set 265 (.cp 164) 1 2,
    -- 1356: tmp112 += tmp28
    .add 265 (.cp 92) 1 1,
    -- 1357: tmp112 += tmp29 * 0.5
    .add 265 (.cp 93) 1 2,
    -- 1358: tmp140 = np.copy(tmp76)
    .set 266 (.cp 91) 1 1,
    -- 1359: tmp140 += np.transpose(tmp77, (1, 0, 2, 3))
    .add 266 (.tr 90 [1, 0, 2, 3]) 1 1,
    -- 1360: tmp124 = np.copy(np.transpose(l2.abab, (2, 3, 0, 1)))
    .set 267 (.tr 10 [2, 3, 0, 1]) 1 1,
    -- 1361: tmp124 += tmp122 * 2
    .add 267 (.cp 146) 2 1,
    -- 1362: del tmp122
    .del 146,
    -- 1363: tmp124 += einsum(tmp40, (0, 1, 2, 3), t1.aa, (0, 4), (1, 2, 4, 3)) * -1
    .add 267 (.ein [(122, [0, 1, 2, 3]), (3, [0, 4])] [1, 2, 4, 3]) (-1) 1,
    -- 1364: tmp124 += tmp123 * 2
    .add 267 (.cp 145) 2 1,
    -- 1365: del tmp123
    .del 145,
    -- 1366: tmp103 = np.copy(np.transpose(v.aabb.ovoo, (0, 2, 3, 1)))
    .set 268 (.tr 16 [0, 2, 3, 1]) 1 1,
    -- 1367: tmp103 += tmp2
    .add 268 (.cp 45) 1 1,
    -- 1368: tmp103 += einsum(t2.abab, (0, 1, 2, 3), v.aabb.vvov, (4, 2, 5, 3), (0, 1, 5, 4))
    .add 268 (.ein [(17, [0, 1, 2, 3]), (23, [4, 2, 5, 3])] [0, 1, 5, 4]) 1 1,
    -- 1369: tmp103 += einsum(tmp96, (0, 1, 2, 3), t2.abab, (4, 0, 5, 3), (4, 1, 2, 5))
    .add 268 (.ein [(166, [0, 1, 2, 3]), (17, [4, 0, 5, 3])] [4, 1, 2, 5]) 1 1,
    -- 1370: del tmp96
    .del 166,
    -- 1371: tmp103 += einsum(tmp3, (0, 1, 2, 3), t2.aaaa, (4, 0, 5, 3), (4, 2, 1, 5)) * 2
    .add 268 (.ein [(148, [0, 1, 2, 3]), (20, [4, 0, 5, 3])] [4, 2, 1, 5]) 2 1,
    -- 1372: tmp103 += einsum(tmp5, (0, 1, 2, 3), t2.abab, (0, 4, 5, 3), (1, 4, 2, 5)) * -1
    .add 268 (.ein [(168, [0, 1, 2, 3]), (17, [0, 4, 5, 3])] [1, 4, 2, 5]) (-1) 1,
    -- 1373: tmp103 += einsum(tmp100, (0, 1), t2.abab, (2, 3, 4, 1), (2, 3, 0, 4))
    .add 268 (.ein [(46, [0, 1]), (17, [2, 3, 4, 1])] [2, 3, 0, 4]) 1 1,
    -- 1374: tmp103 += einsum(tmp102, (0, 1, 2, 3), t1.aa, (4, 2), (4, 1, 0, 3))
    .add 268 (.ein [(165, [0, 1, 2, 3]), (3, [4, 2])] [4, 1, 0, 3]) 1 1,
    -- 1375: del tmp102
    .del 165,
    -- 1376: tmp103 += einsum(t1.aa, (0, 1), tmp16, (0, 2, 3, 4), (2, 4, 3, 1)) * -1
    .add 268 (.ein [(3, [0, 1]), (167, [0, 2, 3, 4])] [2, 4, 3, 1]) (-1) 1,
    -- 1377: tmp144 = np.copy(f.bb.vv)
    .set 269 (.cp 26) 1 1,
    -- 1378: tmp144 += np.transpose(tmp142, (1, 0))
    .add 269 (.tr 75 [1, 0]) 1 1,
    -- 1379: del tmp142
    .del 75,
    -- 1380: tmp144 += einsum(tmp143, (0, 1, 2, 3), t1.bb, (0, 2), (3, 1)) * -1
    .add 269 (.ein [(140, [0, 1, 2, 3]), (4, [0, 2])] [3, 1]) (-1) 1,
    -- 1381: del tmp143
    .del 140,
    -- 1382: tmp35 = np.copy(tmp32)
    .set 270 (.cp 169) 1 1,
    -- 1383: del tmp32
    .del 169,
    -- 1384: tmp35 += tmp33
    .add 270 (.cp 81) 1 1,
    -- 1385: del tmp33
    .del 81,
    -- 1386: tmp35 += tmp34 * 2
    .add 270 (.cp 82) 2 1,
    -- 1387: del tmp34
    .del 82,
    -- 1388: tmp136 = einsum(t2.bbbb, (0, 1, 2, 3), l1.bb, (3, 4), (4, 0, 1, 2)) * 0.5
    .set 271 (.ein [(18, [0, 1, 2, 3]), (19, [3, 4])] [4, 0, 1, 2]) 1 2,
    -- 1389: tmp136 += np.transpose(tmp52, (1, 0, 2, 3)) * 0.5
    .add 271 (.tr 49 [1, 0, 2, 3]) 1 2,
    -- 1390: tmp136 += np.transpose(tmp133, (0, 2, 1, 3)) * 0.25
    .add 271 (.tr 170 [0, 2, 1, 3]) 1 4,
    -- 1391: tmp136 += np.transpose(tmp134, (0, 2, 1, 3))
    .add 271 (.tr 171 [0, 2, 1, 3]) 1 1,
    -- 1392: tmp136 += einsum(t1.bb, (0, 1), tmp135, (0, 2, 3, 4), (2, 3, 4, 1)) * -0.5
    .add 271 (.ein [(4, [0, 1]), (80, [0, 2, 3, 4])] [2, 3, 4, 1]) (-1) 2,
    -- 1393: tmp132 = einsum(t1.bb, (0, 1), tmp52, (2, 0, 3, 4), (2, 3, 4, 1))
    .set 272 (.ein [(4, [0, 1]), (49, [2, 0, 3, 4])] [2, 3, 4, 1]) 1 1,
    -- 1394: tmp110 = np.copy(np.transpose(v.bbbb.ooov, (0, 2, 1, 3))) * 0.5
    .set 273 (.tr 6 [0, 2, 1, 3]) 1 2,
    -- 1395: tmp110 += einsum(v.bbbb.ovvv, (0, 1, 2, 3), t2.bbbb, (4, 5, 1, 3), (0, 4, 5, 2)) * -0.5
    .add 273 (.ein [(8, [0, 1, 2, 3]), (18, [4, 5, 1, 3])] [0, 4, 5, 2]) (-1) 2,
    -- 1396: tmp110 += einsum(tmp104, (0, 1, 2, 3), t2.bbbb, (4, 1, 5, 3), (2, 4, 0, 5))
    .add 273 (.ein [(173, [0, 1, 2, 3]), (18, [4, 1, 5, 3])] [2, 4, 0, 5]) 1 1,
    -- 1397: del tmp104
    .del 173,
    -- 1398: tmp110 += einsum(tmp14, (0, 1, 2, 3), t2.abab, (0, 4, 3, 5), (2, 4, 1, 5)) * 0.5
    .add 273 (.ein [(59, [0, 1, 2, 3]), (17, [0, 4, 3, 5])] [2, 4, 1, 5]) 1 2,
    -- 1399: tmp110 += einsum(tmp100, (0, 1), t2.bbbb, (2, 3, 4, 1), (0, 2, 3, 4)) * 0.5
    .add 273 (.ein [(46, [0, 1]), (18, [2, 3, 4, 1])] [0, 2, 3, 4]) 1 2,
    -- 1400: tmp110 += einsum(t1.bb, (0, 1), tmp105, (2, 3, 4, 1), (3, 2, 0, 4)) * 0.5
    .add 273 (.ein [(4, [0, 1]), (172, [2, 3, 4, 1])] [3, 2, 0, 4]) 1 2,
    -- 1401: del tmp105
    .del 172,
    -- 1402: tmp110 += einsum(tmp109, (0, 1, 2, 3), t1.bb, (0, 4), (2, 1, 3, 4)) * -0.5
    .add 273 (.ein [(174, [0, 1, 2, 3]), (4, [0, 4])] [2, 1, 3, 4]) (-1) 2,
    -- 1403: del tmp109
    .del 174,
    -- 1404: tmp129 = einsum(l2.abab, (0, 1, 2, 3), t2.abab, (2, 4, 5, 1), (3, 4, 0, 5))
    .set 274 (.ein [(10, [0, 1, 2, 3]), (17, [2, 4, 5, 1])] [3, 4, 0, 5]) 1 1,
    -- 1405: tmp129 += einsum(t1.aa, (0, 1), tmp50, (0, 2, 3, 4), (2, 3, 1, 4))
    .add 274 (.ein [(3, [0, 1]), (52, [0, 2, 3, 4])] [2, 3, 1, 4]) 1 1,
    -- 1406: tmp139 = np.copy(np.transpose(tmp137, (1, 0, 3, 2)))
    .set 275 (.tr 79 [1, 0, 3, 2]) 1 1,
    -- 1407: tmp139 += np.transpose(tmp135, (2, 1, 0, 3))
    .add 275 (.tr 80 [2, 1, 0, 3]) 1 1,
    -- 1408: del tmp135
    .del 80,
    -- 1409: tmp113 = np.copy(np.transpose(l1.aa, (1, 0))) * -1
    .set 276 (.tr 21 [1, 0]) (-1) 1,
    -- 1410: tmp113 += t1.aa * -1
    .add 276 (.cp 3) (-1) 1,
    -- 1411: tmp113 += tmp36 * -2
    .add 276 (.cp 178) (-2) 1,
    -- 1412: tmp113 += tmp37 * -1
    .add 276 (.cp 175) (-1) 1,
    -- 1413: tmp113 += tmp39 * 2
    .add 276 (.cp 177) 2 1,
    -- 1414: tmp113 += tmp41
    .add 276 (.cp 176) 1 1,
    -- 1415: tmp113 += einsum(tmp45, (0, 1), t1.aa, (0, 2), (1, 2)) * 2
    .add 276 (.ein [(128, [0, 1]), (3, [0, 2])] [1, 2]) 2 1,
    -- 1416: tmp127 = np.copy(tmp125)
    .set 277 (.cp 73) 1 1,
    -- 1417: del tmp125
    .del 73,
    -- 1418: tmp127 += tmp126 * 4
    .add 277 (.cp 74) 4 1,
    -- 1419: del tmp126
    .del 74,
    -- 1420: tmp131 = np.copy(v.bbbb.ovvv) * -1
    .set 278 (.cp 8) (-1) 1,
    -- 1421: tmp131 += np.transpose(v.bbbb.ovvv, (0, 2, 3, 1))
    .add 278 (.tr 8 [0, 2, 3, 1]) 1 1,
    -- 1422: tmp130 = np.copy(v.bbbb.ovvv)
    .set 279 (.cp 8) 1 1,
    -- 1423: tmp130 += einsum(v.bbbb.vvvv, (0, 1, 2, 3), t1.bb, (4, 3), (4, 0, 2, 1)) * -1
    .add 279 (.ein [(35, [0, 1, 2, 3]), (4, [4, 3])] [4, 0, 2, 1]) (-1) 1,
    -- 1424: tmp138 = np.copy(tmp133) * 0.25
    .set 280 (.cp 170) 1 4,
    -- 1425: del tmp133
    .del 170,
    -- 1426: tmp138 += tmp134
    .add 280 (.cp 171) 1 1,
    -- 1427: del tmp134
    .del 171,
    -- 1428: tmp138 += einsum(tmp137, (0, 1, 2, 3), t1.bb, (1, 4), (0, 3, 2, 4)) * 0.5
    .add 280 (.ein [(79, [0, 1, 2, 3]), (4, [1, 4])] [0, 3, 2, 4]) 1 2,
    -- 1429: del tmp137
    .del 79,
    -- 1430: tmp59 = np.copy(np.transpose(l1.bb, (1, 0))) * -1
    .set 281 (.tr 19 [1, 0]) (-1) 1,
    -- 1431: tmp59 += t1.bb * -1
    .add 281 (.cp 4) (-1) 1,
    -- 1432: tmp59 += tmp48 * -1
    .add 281 (.cp 163) (-1) 1,
    -- 1433: del tmp48
    .del 163,
    -- 1434: tmp59 += tmp49 * -2
    .add 281 (.cp 161) (-2) 1,
    -- 1435: del tmp49
    .del 161,
    -- 1436: tmp59 += tmp51
    .add 281 (.cp 160) 1 1,
    -- 1437: del tmp51
    .del 160,
    -- 1438: tmp59 += tmp53 * 2
    .add 281 (.cp 162) 2 1,
    -- 1439: del tmp53
    .del 162,
    -- 1440: tmp59 += tmp58
    .add 281 (.cp 179) 1 1,
    -- 1441: del tmp58
    .del 179,
    -- 1442: tmp93 = np.copy(f.aa.vv)
    .set 282 (.cp 28) 1 1,
    -- 1443: tmp93 += np.transpose(tmp91, (1, 0))
    .add 282 (.tr 96 [1, 0]) 1 1,
    -- 1444: del tmp91
    .del 96,
    -- 1445: tmp93 += einsum(tmp92, (0, 1, 2, 3), t1.aa, (0, 1), (3, 2)) * -1
    .add 282 (.ein [(152, [0, 1, 2, 3]), (3, [0, 1])] [3, 2]) (-1) 1,
    -- 1446: del tmp92
    .del 152,
    -- 1447: tmp80 = einsum(l2.abab, (0, 1, 2, 3), t2.abab, (4, 3, 0, 5), (2, 4, 1, 5))
    .set 283 (.ein [(10, [0, 1, 2, 3]), (17, [4, 3, 0, 5])] [2, 4, 1, 5]) 1 1,
    -- 1448: tmp80 += einsum(tmp40, (0, 1, 2, 3), t1.bb, (2, 4), (0, 1, 4, 3))
    .add 283 (.ein [(122, [0, 1, 2, 3]), (4, [2, 4])] [0, 1, 4, 3]) 1 1,
    -- 1449: tmp85 = einsum(t2.aaaa, (0, 1, 2, 3), l1.aa, (3, 4), (4, 0, 1, 2)) * 2
    .set 284 (.ein [(20, [0, 1, 2, 3]), (21, [3, 4])] [4, 0, 1, 2]) 2 1,
    -- 1450: tmp85 += np.transpose(tmp38, (1, 0, 2, 3)) * 2
    .add 284 (.tr 54 [1, 0, 2, 3]) 2 1,
    -- 1451: tmp85 += np.transpose(tmp82, (0, 2, 1, 3)) * 4
    .add 284 (.tr 180 [0, 2, 1, 3]) 4 1,
    -- 1452: tmp85 += einsum(t1.aa, (0, 1), tmp83, (0, 2, 3, 4), (2, 3, 4, 1)) * -2
    .add 284 (.ein [(3, [0, 1]), (98, [0, 2, 3, 4])] [2, 3, 4, 1]) (-2) 1,
    -- 1453: tmp85 += np.transpose(tmp84, (0, 2, 1, 3))
    .add 284 (.tr 181 [0, 2, 1, 3]) 1 1,
    -- 1454: tmp71 = np.copy(np.transpose(l2.abab, (2, 3, 0, 1)))
    .set 285 (.tr 10 [2, 3, 0, 1]) 1 1,
    -- 1455: tmp71 += tmp69 * 2
    .add 285 (.cp 142) 2 1,
    -- 1456: del tmp69
    .del 142,
    -- 1457: tmp71 += tmp70 * 2
    .add 285 (.cp 141) 2 1,
    -- 1458: del tmp70
    .del 141,
    -- 1459: tmp71 += einsum(t1.bb, (0, 1), tmp50, (2, 0, 3, 4), (2, 3, 4, 1)) * -1
    .add 285 (.ein [(4, [0, 1]), (52, [2, 0, 3, 4])] [2, 3, 4, 1]) (-1) 1,
    -- 1460: tmp30 = np.copy(tmp27)
    .set 286 (.cp 164) 1 1,
    -- 1461: del tmp27
    .del 164,
    -- 1462: tmp30 += tmp28 * 2
    .add 286 (.cp 92) 2 1,
    -- 1463: del tmp28
    .del 92,
    -- 1464: tmp30 += tmp29
    .add 286 (.cp 93) 1 1,
    -- 1465: del tmp29
    .del 93,
    -- 1466: tmp81 = np.copy(np.transpose(l2.aaaa, (2, 3, 0, 1))) * -1
    .set 287 (.tr 12 [2, 3, 0, 1]) (-1) 1,
    -- 1467: tmp81 += einsum(tmp38, (0, 1, 2, 3), t1.aa, (0, 4), (1, 2, 3, 4)) * -1
    .add 287 (.ein [(54, [0, 1, 2, 3]), (3, [0, 4])] [1, 2, 3, 4]) (-1) 1,
    -- 1468: tmp26 = np.copy(np.transpose(v.aaaa.ooov, (0, 2, 1, 3)))
    .set 288 (.tr 13 [0, 2, 1, 3]) 1 1,
    -- 1469: tmp26 += einsum(v.aaaa.ovvv, (0, 1, 2, 3), t2.aaaa, (4, 5, 3, 1), (0, 4, 5, 2))
    .add 288 (.ein [(11, [0, 1, 2, 3]), (20, [4, 5, 3, 1])] [0, 4, 5, 2]) 1 1,
    -- 1470: tmp26 += einsum(t2.aaaa, (0, 1, 2, 3), tmp18, (4, 1, 5, 3), (5, 0, 4, 2)) * 2
    .add 288 (.ein [(20, [0, 1, 2, 3]), (184, [4, 1, 5, 3])] [5, 0, 4, 2]) 2 1,
    -- 1471: del tmp18
    .del 184,
    -- 1472: tmp26 += einsum(t2.abab, (0, 1, 2, 3), tmp19, (4, 5, 1, 3), (5, 0, 4, 2))
    .add 288 (.ein [(17, [0, 1, 2, 3]), (185, [4, 5, 1, 3])] [5, 0, 4, 2]) 1 1,
    -- 1473: del tmp19
    .del 185,
    -- 1474: tmp26 += einsum(t2.aaaa, (0, 1, 2, 3), tmp9, (4, 3), (4, 0, 1, 2))
    .add 288 (.ein [(20, [0, 1, 2, 3]), (58, [4, 3])] [4, 0, 1, 2]) 1 1,
    -- 1475: tmp26 += einsum(tmp21, (0, 1, 2, 3), t1.aa, (4, 3), (1, 0, 4, 2))
    .add 288 (.ein [(183, [0, 1, 2, 3]), (3, [4, 3])] [1, 0, 4, 2]) 1 1,
    -- 1476: del tmp21
    .del 183,
    -- 1477: tmp26 += einsum(t1.aa, (0, 1), tmp25, (0, 2, 3, 4), (3, 2, 4, 1)) * -1
    .add 288 (.ein [(3, [0, 1]), (182, [0, 2, 3, 4])] [3, 2, 4, 1]) (-1) 1,
    -- 1478: del tmp25
    .del 182,
    -- 1479: tmp89 = np.copy(tmp76)
    .set 289 (.cp 91) 1 1,
    -- 1480: del tmp76
    .del 91,
    -- 1481: tmp89 += np.transpose(tmp77, (0, 1, 3, 2))
    .add 289 (.tr 90 [0, 1, 3, 2]) 1 1,
    -- 1482: del tmp77
    .del 90,
    -- 1483: tmp90 = np.copy(t1.aa) * -0.5
    .set 290 (.cp 3) (-1) 2,
    -- 1484: tmp90 += tmp36 * -1
    .add 290 (.cp 178) (-1) 1,
    -- 1485: tmp90 += tmp37 * -0.5
    .add 290 (.cp 175) (-1) 2,
    -- 1486: tmp90 += tmp39
    .add 290 (.cp 177) 1 1,
    -- 1487: tmp90 += tmp41 * 0.5
    .add 290 (.cp 176) 1 2,
    -- 1488: tmp90 += tmp46
    .add 290 (.cp 186) 1 1,
    -- 1489: tmp88 = np.copy(np.transpose(tmp86, (1, 0, 3, 2)))
    .set 291 (.tr 99 [1, 0, 3, 2]) 1 1,
    -- 1490: tmp88 += np.transpose(tmp83, (2, 1, 0, 3))
    .add 291 (.tr 98 [2, 1, 0, 3]) 1 1,
    -- 1491: del tmp83
    .del 98,
    -- 1492: tmp17 = np.copy(v.aabb.ooov)
    .set 292 (.cp 24) 1 1,
    -- 1493: tmp17 += einsum(v.aabb.oovv, (0, 1, 2, 3), t1.bb, (4, 3), (0, 1, 4, 2))
    .add 292 (.ein [(36, [0, 1, 2, 3]), (4, [4, 3])] [0, 1, 4, 2]) 1 1,
    -- 1494: tmp17 += einsum(v.aabb.ovvv, (0, 1, 2, 3), t2.abab, (4, 5, 1, 3), (4, 0, 5, 2))
    .add 292 (.ein [(22, [0, 1, 2, 3]), (17, [4, 5, 1, 3])] [4, 0, 5, 2]) 1 1,
    -- 1495: tmp17 += einsum(tmp1, (0, 1, 2, 3), t2.abab, (0, 4, 3, 5), (1, 2, 4, 5))
    .add 292 (.ein [(188, [0, 1, 2, 3]), (17, [0, 4, 3, 5])] [1, 2, 4, 5]) 1 1,
    -- 1496: del tmp1
    .del 188,
    -- 1497: tmp17 += einsum(tmp3, (0, 1, 2, 3), t2.abab, (4, 1, 3, 5), (4, 0, 2, 5)) * -1
    .add 292 (.ein [(148, [0, 1, 2, 3]), (17, [4, 1, 3, 5])] [4, 0, 2, 5]) (-1) 1,
    -- 1498: del tmp3
    .del 148,
    -- 1499: tmp17 += einsum(t2.bbbb, (0, 1, 2, 3), tmp5, (4, 5, 1, 3), (5, 4, 0, 2)) * 2
    .add 292 (.ein [(18, [0, 1, 2, 3]), (168, [4, 5, 1, 3])] [5, 4, 0, 2]) 2 1,
    -- 1500: del tmp5
    .del 168,
    -- 1501: tmp17 += einsum(tmp9, (0, 1), t2.abab, (2, 3, 1, 4), (2, 0, 3, 4))
    .add 292 (.ein [(58, [0, 1]), (17, [2, 3, 1, 4])] [2, 0, 3, 4]) 1 1,
    -- 1502: tmp17 += einsum(t1.aa, (0, 1), tmp11, (2, 3, 1, 4), (0, 2, 3, 4))
    .add 292 (.ein [(3, [0, 1]), (187, [2, 3, 1, 4])] [0, 2, 3, 4]) 1 1,
    -- 1503: del tmp11
    .del 187,
    -- 1504: tmp17 += einsum(t1.bb, (0, 1), tmp16, (2, 3, 0, 4), (3, 2, 4, 1)) * -1
    .add 292 (.ein [(4, [0, 1]), (167, [2, 3, 0, 4])] [3, 2, 4, 1]) (-1) 1,
    -- 1505: del tmp16
    .del 167,
    -- 1506: tmp47 = np.copy(np.transpose(l1.aa, (1, 0))) * -0.5
    .set 293 (.tr 21 [1, 0]) (-1) 2,
    -- 1507: tmp47 += t1.aa * -0.5
    .add 293 (.cp 3) (-1) 2,
    -- 1508: tmp47 += tmp36 * -1
    .add 293 (.cp 178) (-1) 1,
    -- 1509: del tmp36
    .del 178,
    -- 1510: tmp47 += tmp37 * -0.5
    .add 293 (.cp 175) (-1) 2,
    -- 1511: del tmp37
    .del 175,
    -- 1512: tmp47 += tmp39
    .add 293 (.cp 177) 1 1,
    -- 1513: del tmp39
    .del 177,
    -- 1514: tmp47 += tmp41 * 0.5
    .add 293 (.cp 176) 1 2,
    -- 1515: del tmp41
    .del 176,
    -- 1516: tmp47 += tmp46
    .add 293 (.cp 186) 1 1,
    -- 1517: del tmp46
    .del 186,
    -- 1518: tmp68 = einsum(t1.aa, (0, 1), v.aaaa.vvvv, (2, 3, 4, 1), (0, 2, 3, 4))
    .set 294 (.ein [(3, [0, 1]), (38, [2, 3, 4, 1])] [0, 2, 3, 4]) 1 1,
    -- 1519: tmp79 = einsum(l1.aa, (0, 1), t2.abab, (2, 3, 0, 4), (1, 2, 3, 4)) * 0.5
    .set 295 (.ein [(21, [0, 1]), (17, [2, 3, 0, 4])] [1, 2, 3, 4]) 1 2,
    -- 1520: tmp79 += tmp40 * 0.5
    .add 295 (.cp 122) 1 2,
    -- 1521: tmp79 += einsum(tmp38, (0, 1, 2, 3), t2.abab, (1, 4, 3, 5), (0, 2, 4, 5)) * -1
    .add 295 (.ein [(54, [0, 1, 2, 3]), (17, [1, 4, 3, 5])] [0, 2, 4, 5]) (-1) 1,
    -- 1522: tmp79 += einsum(tmp40, (0, 1, 2, 3), t2.bbbb, (4, 2, 5, 3), (0, 1, 4, 5))
    .add 295 (.ein [(122, [0, 1, 2, 3]), (18, [4, 2, 5, 3])] [0, 1, 4, 5]) 1 1,
    -- 1523: tmp79 += einsum(tmp50, (0, 1, 2, 3), t2.abab, (4, 1, 3, 5), (0, 4, 2, 5)) * -0.5
    .add 295 (.ein [(52, [0, 1, 2, 3]), (17, [4, 1, 3, 5])] [0, 4, 2, 5]) (-1) 2,
    -- 1524: tmp79 += einsum(t1.bb, (0, 1), tmp78, (2, 3, 0, 4), (2, 3, 4, 1)) * -0.5
    .add 295 (.ein [(4, [0, 1]), (143, [2, 3, 0, 4])] [2, 3, 4, 1]) (-1) 2,
    -- 1525: del tmp78
    .del 143,
    -- 1526: tmp67 = einsum(t1.bb, (0, 1), v.aabb.vvvv, (2, 3, 4, 1), (0, 2, 3, 4))
    .set 296 (.ein [(4, [0, 1]), (37, [2, 3, 4, 1])] [0, 2, 3, 4]) 1 1,
    -- 1527: tmp87 = np.copy(tmp82) * 4
    .set 297 (.cp 180) 4 1,
    -- 1528: del tmp82
    .del 180,
    -- 1529: tmp87 += einsum(t1.aa, (0, 1), tmp86, (2, 0, 3, 4), (2, 4, 3, 1)) * 2
    .add 297 (.ein [(3, [0, 1]), (99, [2, 0, 3, 4])] [2, 4, 3, 1]) 2 1,
    -- 1530: del tmp86
    .del 99,
    -- 1531: tmp87 += tmp84
    .add 297 (.cp 181) 1 1,
    -- 1532: del tmp84
    .del 181,
    -- 1533: l2new.bbbb = np.copy(np.transpose(v.bbbb.ovov, (1, 3, 0, 2)))
    .set 298 (.tr 0 [1, 3, 0, 2]) 1 1,
    -- 1534: l2new.bbbb += np.transpose(tmp226, (3, 2, 1, 0)) * -1
    .add 298 (.tr 203 [3, 2, 1, 0]) (-1) 1,
    -- 1535: l2new.bbbb += einsum(l1.bb, (0, 1), tmp227, (1, 2, 3, 4), (4, 0, 3, 2)) * -1
    .add 298 (.ein [(19, [0, 1]), (215, [1, 2, 3, 4])] [4, 0, 3, 2]) (-1) 1,
    -- 1536: del tmp227
    .del 215,
    -- 1537: l2new.bbbb += np.transpose(v.bbbb.ovov, (3, 1, 0, 2)) * -1
    .add 298 (.tr 0 [3, 1, 0, 2]) (-1) 1,
    -- 1538: l2new.bbbb += np.transpose(tmp226, (2, 3, 1, 0))
    .add 298 (.tr 203 [2, 3, 1, 0]) 1 1,
    -- 1539: del tmp226
    .del 203,
    -- 1540: l2new.bbbb += np.transpose(tmp229, (3, 2, 0, 1))
    .add 298 (.tr 196 [3, 2, 0, 1]) 1 1,
    -- 1541: l2new.bbbb += np.transpose(tmp230, (2, 3, 0, 1)) * -1
    .add 298 (.tr 209 [2, 3, 0, 1]) (-1) 1,
    -- 1542: l2new.bbbb += np.transpose(tmp231, (3, 2, 0, 1)) * 2
    .add 298 (.tr 194 [3, 2, 0, 1]) 2 1,
    -- 1543: l2new.bbbb += np.transpose(tmp232, (3, 2, 0, 1)) * 2
    .add 298 (.tr 212 [3, 2, 0, 1]) 2 1,
    -- 1544: l2new.bbbb += np.transpose(tmp233, (3, 2, 0, 1))
    .add 298 (.tr 197 [3, 2, 0, 1]) 1 1,
    -- 1545: l2new.bbbb += np.transpose(tmp234, (3, 2, 0, 1))
    .add 298 (.tr 190 [3, 2, 0, 1]) 1 1,
    -- 1546: l2new.bbbb += einsum(l2.bbbb, (0, 1, 2, 3), tmp235, (3, 4, 1, 5), (5, 0, 2, 4)) * -2
    .add 298 (.ein [(9, [0, 1, 2, 3]), (214, [3, 4, 1, 5])] [5, 0, 2, 4]) (-2) 1,
    -- 1547: del tmp235
    .del 214,
    -- 1548: l2new.bbbb += einsum(tmp236, (0, 1, 2, 3), l2.abab, (2, 4, 0, 5), (3, 4, 5, 1)) * -1
    .add 298 (.ein [(193, [0, 1, 2, 3]), (10, [2, 4, 0, 5])] [3, 4, 5, 1]) (-1) 1,
    -- 1549: del tmp236
    .del 193,
    -- 1550: l2new.bbbb += np.transpose(tmp237, (3, 2, 0, 1)) * -1
    .add 298 (.tr 195 [3, 2, 0, 1]) (-1) 1,
    -- 1551: l2new.bbbb += einsum(tmp238, (0, 1), l1.bb, (2, 3), (1, 2, 3, 0)) * -1
    .add 298 (.ein [(199, [0, 1]), (19, [2, 3])] [1, 2, 3, 0]) (-1) 1,
    -- 1552: del tmp238
    .del 199,
    -- 1553: l2new.bbbb += np.transpose(tmp230, (2, 3, 1, 0))
    .add 298 (.tr 209 [2, 3, 1, 0]) 1 1,
    -- 1554: l2new.bbbb += np.transpose(tmp231, (3, 2, 1, 0)) * -2
    .add 298 (.tr 194 [3, 2, 1, 0]) (-2) 1,
    -- 1555: l2new.bbbb += np.transpose(tmp232, (3, 2, 1, 0)) * -2
    .add 298 (.tr 212 [3, 2, 1, 0]) (-2) 1,
    -- 1556: l2new.bbbb += np.transpose(tmp233, (3, 2, 1, 0)) * -1
    .add 298 (.tr 197 [3, 2, 1, 0]) (-1) 1,
    -- 1557: l2new.bbbb += np.transpose(tmp234, (3, 2, 1, 0)) * -1
    .add 298 (.tr 190 [3, 2, 1, 0]) (-1) 1,
    -- 1558: l2new.bbbb += np.transpose(tmp239, (2, 3, 0, 1)) * 2
    .add 298 (.tr 205 [2, 3, 0, 1]) 2 1,
    -- 1559: l2new.bbbb += np.transpose(tmp240, (2, 3, 0, 1))
    .add 298 (.tr 206 [2, 3, 0, 1]) 1 1,
    -- 1560: l2new.bbbb += np.transpose(tmp237, (3, 2, 1, 0))
    .add 298 (.tr 195 [3, 2, 1, 0]) 1 1,
    -- 1561: del tmp237
    .del 195,
    -- 1562: l2new.bbbb += einsum(l1.bb, (0, 1), tmp204, (2, 3), (3, 0, 2, 1))
    .add 298 (.ein [(19, [0, 1]), (200, [2, 3])] [3, 0, 2, 1]) 1 1,
    -- 1563: l2new.bbbb += np.transpose(tmp230, (3, 2, 0, 1))
    .add 298 (.tr 209 [3, 2, 0, 1]) 1 1,
    -- 1564: l2new.bbbb += np.transpose(tmp231, (2, 3, 0, 1)) * -2
    .add 298 (.tr 194 [2, 3, 0, 1]) (-2) 1,
    -- 1565: l2new.bbbb += np.transpose(tmp232, (2, 3, 0, 1)) * -2
    .add 298 (.tr 212 [2, 3, 0, 1]) (-2) 1,
    -- 1566: l2new.bbbb += np.transpose(tmp233, (2, 3, 0, 1)) * -1
    .add 298 (.tr 197 [2, 3, 0, 1]) (-1) 1,
    -- 1567: l2new.bbbb += np.transpose(tmp234, (2, 3, 0, 1)) * -1
    .add 298 (.tr 190 [2, 3, 0, 1]) (-1) 1,
    -- 1568: l2new.bbbb += np.transpose(tmp239, (3, 2, 1, 0)) * 2
    .add 298 (.tr 205 [3, 2, 1, 0]) 2 1,
    -- 1569: l2new.bbbb += np.transpose(tmp240, (3, 2, 1, 0))
    .add 298 (.tr 206 [3, 2, 1, 0]) 1 1,
    -- 1570: l2new.bbbb += einsum(l1.bb, (0, 1), tmp204, (2, 3), (0, 3, 1, 2))
    .add 298 (.ein [(19, [0, 1]), (200, [2, 3])] [0, 3, 1, 2]) 1 1,
    -- 1571: l2new.bbbb += np.transpose(tmp230, (3, 2, 1, 0)) * -1
    .add 298 (.tr 209 [3, 2, 1, 0]) (-1) 1,
    -- 1572: del tmp230
    .del 209,
    -- 1573: l2new.bbbb += np.transpose(tmp231, (2, 3, 1, 0)) * 2
    .add 298 (.tr 194 [2, 3, 1, 0]) 2 1,
    -- 1574: del tmp231
    .del 194,
    -- 1575: l2new.bbbb += np.transpose(tmp232, (2, 3, 1, 0)) * 2
    .add 298 (.tr 212 [2, 3, 1, 0]) 2 1,
    -- 1576: del tmp232
    .del 212,
    -- 1577: l2new.bbbb += np.transpose(tmp233, (2, 3, 1, 0))
    .add 298 (.tr 197 [2, 3, 1, 0]) 1 1,
    -- 1578: del tmp233
    .del 197,
    -- 1579: l2new.bbbb += np.transpose(tmp234, (2, 3, 1, 0))
    .add 298 (.tr 190 [2, 3, 1, 0]) 1 1,
    -- 1580: del tmp234
    .del 190,
    -- 1581: l2new.bbbb += np.transpose(tmp239, (3, 2, 0, 1)) * -2
    .add 298 (.tr 205 [3, 2, 0, 1]) (-2) 1,
    -- 1582: del tmp239
    .del 205,
    -- 1583: l2new.bbbb += np.transpose(tmp240, (3, 2, 0, 1)) * -1
    .add 298 (.tr 206 [3, 2, 0, 1]) (-1) 1,
    -- 1584: del tmp240
    .del 206,
    -- 1585: l2new.bbbb += einsum(l1.bb, (0, 1), tmp204, (2, 3), (0, 3, 2, 1)) * -1
    .add 298 (.ein [(19, [0, 1]), (200, [2, 3])] [0, 3, 2, 1]) (-1) 1,
    -- 1586: l2new.bbbb += np.transpose(tmp241, (3, 2, 1, 0)) * 2
    .add 298 (.tr 189 [3, 2, 1, 0]) 2 1,
    -- 1587: del tmp241
    .del 189,
    -- 1588: l2new.bbbb += np.transpose(tmp242, (2, 3, 1, 0)) * 2
    .add 298 (.tr 210 [2, 3, 1, 0]) 2 1,
    -- 1589: l2new.bbbb += np.transpose(tmp244, (3, 2, 1, 0)) * 4
    .add 298 (.tr 202 [3, 2, 1, 0]) 4 1,
    -- 1590: del tmp244
    .del 202,
    -- 1591: l2new.bbbb += np.transpose(tmp247, (2, 3, 1, 0)) * 2
    .add 298 (.tr 201 [2, 3, 1, 0]) 2 1,
    -- 1592: l2new.bbbb += np.transpose(tmp248, (2, 3, 1, 0)) * -2
    .add 298 (.tr 211 [2, 3, 1, 0]) (-2) 1,
    -- 1593: l2new.bbbb += np.transpose(tmp242, (3, 2, 1, 0)) * -2
    .add 298 (.tr 210 [3, 2, 1, 0]) (-2) 1,
    -- 1594: del tmp242
    .del 210,
    -- 1595: l2new.bbbb += np.transpose(tmp247, (3, 2, 1, 0)) * -2
    .add 298 (.tr 201 [3, 2, 1, 0]) (-2) 1,
    -- 1596: del tmp247
    .del 201,
    -- 1597: l2new.bbbb += np.transpose(tmp248, (3, 2, 1, 0)) * 2
    .add 298 (.tr 211 [3, 2, 1, 0]) 2 1,
    -- 1598: del tmp248
    .del 211,
    -- 1599: l2new.bbbb += np.transpose(tmp249, (2, 3, 0, 1)) * -2
    .add 298 (.tr 191 [2, 3, 0, 1]) (-2) 1,
    -- 1600: l2new.bbbb += np.transpose(tmp249, (2, 3, 1, 0)) * 2
    .add 298 (.tr 191 [2, 3, 1, 0]) 2 1,
    -- 1601: del tmp249
    .del 191,
    -- 1602: l2new.bbbb += einsum(l2.bbbb, (0, 1, 2, 3), tmp250, (2, 4, 3, 5), (0, 1, 4, 5)) * -2
    .add 298 (.ein [(9, [0, 1, 2, 3]), (217, [2, 4, 3, 5])] [0, 1, 4, 5]) (-2) 1,
    -- 1603: del tmp250
    .del 217,
    -- 1604: l2new.bbbb += np.transpose(tmp251, (3, 2, 1, 0))
    .add 298 (.tr 204 [3, 2, 1, 0]) 1 1,
    -- 1605: l2new.bbbb += einsum(l1.bb, (0, 1), tmp252, (1, 2, 3, 4), (4, 0, 2, 3))
    .add 298 (.ein [(19, [0, 1]), (216, [1, 2, 3, 4])] [4, 0, 2, 3]) 1 1,
    -- 1606: del tmp252
    .del 216,
    -- 1607: l2new.bbbb += np.transpose(tmp251, (2, 3, 1, 0)) * -1
    .add 298 (.tr 204 [2, 3, 1, 0]) (-1) 1,
    -- 1608: del tmp251
    .del 204,
    -- 1609: l2new.bbbb += np.transpose(tmp229, (3, 2, 1, 0)) * -1
    .add 298 (.tr 196 [3, 2, 1, 0]) (-1) 1,
    -- 1610: del tmp229
    .del 196,
    -- 1611: l2new.bbbb += np.transpose(tmp253, (3, 2, 0, 1)) * -2
    .add 298 (.tr 207 [3, 2, 0, 1]) (-2) 1,
    -- 1612: l2new.bbbb += einsum(tmp223, (0, 1), l1.bb, (2, 3), (1, 2, 3, 0))
    .add 298 (.ein [(192, [0, 1]), (19, [2, 3])] [1, 2, 3, 0]) 1 1,
    -- 1613: l2new.bbbb += np.transpose(tmp254, (3, 2, 0, 1)) * -2
    .add 298 (.tr 213 [3, 2, 0, 1]) (-2) 1,
    -- 1614: l2new.bbbb += np.transpose(tmp256, (3, 2, 0, 1))
    .add 298 (.tr 198 [3, 2, 0, 1]) 1 1,
    -- 1615: l2new.bbbb += np.transpose(tmp257, (2, 3, 1, 0)) * -1
    .add 298 (.tr 218 [2, 3, 1, 0]) (-1) 1,
    -- 1616: l2new.bbbb += np.transpose(tmp253, (2, 3, 0, 1)) * 2
    .add 298 (.tr 207 [2, 3, 0, 1]) 2 1,
    -- 1617: l2new.bbbb += einsum(l1.bb, (0, 1), tmp223, (2, 3), (0, 3, 1, 2)) * -1
    .add 298 (.ein [(19, [0, 1]), (192, [2, 3])] [0, 3, 1, 2]) (-1) 1,
    -- 1618: l2new.bbbb += np.transpose(tmp254, (2, 3, 0, 1)) * 2
    .add 298 (.tr 213 [2, 3, 0, 1]) 2 1,
    -- 1619: l2new.bbbb += np.transpose(tmp256, (2, 3, 0, 1)) * -1
    .add 298 (.tr 198 [2, 3, 0, 1]) (-1) 1,
    -- 1620: l2new.bbbb += np.transpose(tmp257, (3, 2, 1, 0))
    .add 298 (.tr 218 [3, 2, 1, 0]) 1 1,
    -- 1621: del tmp257
    .del 218,
    -- 1622: l2new.bbbb += np.transpose(tmp253, (3, 2, 1, 0)) * 2
    .add 298 (.tr 207 [3, 2, 1, 0]) 2 1,
    -- 1623: l2new.bbbb += einsum(l1.bb, (0, 1), tmp223, (2, 3), (3, 0, 2, 1)) * -1
    .add 298 (.ein [(19, [0, 1]), (192, [2, 3])] [3, 0, 2, 1]) (-1) 1,
    -- 1624: l2new.bbbb += np.transpose(tmp254, (3, 2, 1, 0)) * 2
    .add 298 (.tr 213 [3, 2, 1, 0]) 2 1,
    -- 1625: l2new.bbbb += np.transpose(tmp256, (3, 2, 1, 0)) * -1
    .add 298 (.tr 198 [3, 2, 1, 0]) (-1) 1,
    -- 1626: l2new.bbbb += np.transpose(tmp258, (2, 3, 1, 0))
    .add 298 (.tr 208 [2, 3, 1, 0]) 1 1,
    -- 1627: l2new.bbbb += np.transpose(tmp253, (2, 3, 1, 0)) * -2
    .add 298 (.tr 207 [2, 3, 1, 0]) (-2) 1,
    -- 1628: del tmp253
    .del 207,
    -- 1629: l2new.bbbb += einsum(l1.bb, (0, 1), tmp223, (2, 3), (0, 3, 2, 1))
    .add 298 (.ein [(19, [0, 1]), (192, [2, 3])] [0, 3, 2, 1]) 1 1,
    -- 1630: l2new.bbbb += np.transpose(tmp254, (2, 3, 1, 0)) * -2
    .add 298 (.tr 213 [2, 3, 1, 0]) (-2) 1,
    -- 1631: del tmp254
    .del 213,
    -- 1632: l2new.bbbb += np.transpose(tmp256, (2, 3, 1, 0))
    .add 298 (.tr 198 [2, 3, 1, 0]) 1 1,
    -- 1633: del tmp256
    .del 198,
    -- 1634: l2new.bbbb += np.transpose(tmp258, (3, 2, 1, 0)) * -1
    .add 298 (.tr 208 [3, 2, 1, 0]) (-1) 1,
    -- 1635: del tmp258
    .del 208,
    -- 1636: l2new.abab = np.copy(np.transpose(v.aabb.ovov, (1, 3, 0, 2)))
    .set 299 (.tr 2 [1, 3, 0, 2]) 1 1,
    -- 1637: l2new.abab += einsum(v.aabb.ovov, (0, 1, 2, 3), tmp193, (4, 3), (1, 4, 0, 2)) * -2
    .add 299 (.ein [(2, [0, 1, 2, 3]), (228, [4, 3])] [1, 4, 0, 2]) (-2) 1,
    -- 1638: del tmp193
    .del 228,
    -- 1639: l2new.abab += einsum(tmp14, (0, 1, 2, 3), l1.bb, (4, 1), (3, 4, 0, 2)) * -1
    .add 299 (.ein [(59, [0, 1, 2, 3]), (19, [4, 1])] [3, 4, 0, 2]) (-1) 1,
    -- 1640: l2new.abab += einsum(v.aabb.ovvv, (0, 1, 2, 3), l1.bb, (3, 4), (1, 2, 0, 4))
    .add 299 (.ein [(22, [0, 1, 2, 3]), (19, [3, 4])] [1, 2, 0, 4]) 1 1,
    -- 1641: l2new.abab += einsum(tmp40, (0, 1, 2, 3), v.aaaa.ovoo, (4, 5, 1, 0), (5, 3, 4, 2)) * -1
    .add 299 (.ein [(122, [0, 1, 2, 3]), (14, [4, 5, 1, 0])] [5, 3, 4, 2]) (-1) 1,
    -- 1642: l2new.abab += einsum(tmp40, (0, 1, 2, 3), tmp0, (0, 4, 1, 5), (5, 3, 4, 2)) * -1
    .add 299 (.ein [(122, [0, 1, 2, 3]), (64, [0, 4, 1, 5])] [5, 3, 4, 2]) (-1) 1,
    -- 1643: l2new.abab += einsum(tmp2, (0, 1, 2, 3), tmp52, (4, 1, 2, 5), (3, 5, 0, 4)) * -2
    .add 299 (.ein [(45, [0, 1, 2, 3]), (49, [4, 1, 2, 5])] [3, 5, 0, 4]) (-2) 1,
    -- 1644: del tmp2
    .del 45,
    -- 1645: l2new.abab += einsum(tmp52, (0, 1, 2, 3), v.aabb.ovoo, (4, 5, 2, 1), (5, 3, 4, 0)) * -2
    .add 299 (.ein [(49, [0, 1, 2, 3]), (16, [4, 5, 2, 1])] [5, 3, 4, 0]) (-2) 1,
    -- 1646: l2new.abab += einsum(l2.abab, (0, 1, 2, 3), tmp166, (2, 4, 0, 5), (5, 1, 4, 3))
    .add 299 (.ein [(10, [0, 1, 2, 3]), (157, [2, 4, 0, 5])] [5, 1, 4, 3]) 1 1,
    -- 1647: del tmp166
    .del 157,
    -- 1648: l2new.abab += einsum(l2.bbbb, (0, 1, 2, 3), tmp168, (4, 3, 5, 1), (5, 0, 4, 2)) * 2
    .add 299 (.ein [(9, [0, 1, 2, 3]), (156, [4, 3, 5, 1])] [5, 0, 4, 2]) 2 1,
    -- 1649: del tmp168
    .del 156,
    -- 1650: l2new.abab += einsum(l2.abab, (0, 1, 2, 3), tmp66, (2, 4), (0, 1, 4, 3)) * -1
    .add 299 (.ein [(10, [0, 1, 2, 3]), (158, [2, 4])] [0, 1, 4, 3]) (-1) 1,
    -- 1651: l2new.abab += einsum(l1.bb, (0, 1), tmp170, (2, 3), (3, 0, 2, 1))
    .add 299 (.ein [(19, [0, 1]), (230, [2, 3])] [3, 0, 2, 1]) 1 1,
    -- 1652: l2new.abab += einsum(tmp38, (0, 1, 2, 3), v.aabb.ooov, (2, 1, 4, 5), (3, 5, 0, 4)) * -2
    .add 299 (.ein [(54, [0, 1, 2, 3]), (24, [2, 1, 4, 5])] [3, 5, 0, 4]) (-2) 1,
    -- 1653: l2new.abab += einsum(tmp4, (0, 1, 2, 3), tmp38, (4, 0, 1, 5), (5, 3, 4, 2)) * -2
    .add 299 (.ein [(118, [0, 1, 2, 3]), (54, [4, 0, 1, 5])] [5, 3, 4, 2]) (-2) 1,
    -- 1654: del tmp4
    .del 118,
    -- 1655: l2new.abab += einsum(tmp50, (0, 1, 2, 3), tmp95, (1, 4, 2, 5), (3, 5, 0, 4)) * -1
    .add 299 (.ein [(52, [0, 1, 2, 3]), (60, [1, 4, 2, 5])] [3, 5, 0, 4]) (-1) 1,
    -- 1656: l2new.abab += einsum(v.aabb.vvov, (0, 1, 2, 3), l1.aa, (1, 4), (0, 3, 4, 2))
    .add 299 (.ein [(23, [0, 1, 2, 3]), (21, [1, 4])] [0, 3, 4, 2]) 1 1,
    -- 1657: l2new.abab += einsum(tmp50, (0, 1, 2, 3), v.bbbb.ovoo, (4, 5, 2, 1), (3, 5, 0, 4)) * -1
    .add 299 (.ein [(52, [0, 1, 2, 3]), (7, [4, 5, 2, 1])] [3, 5, 0, 4]) (-1) 1,
    -- 1658: l2new.abab += einsum(tmp198, (0, 1, 2, 3), l2.abab, (4, 2, 5, 0), (4, 3, 5, 1))
    .add 299 (.ein [(136, [0, 1, 2, 3]), (10, [4, 2, 5, 0])] [4, 3, 5, 1]) 1 1,
    -- 1659: del tmp198
    .del 136,
    -- 1660: l2new.abab += einsum(tmp202, (0, 1, 2, 3), l2.aaaa, (4, 2, 5, 0), (4, 3, 5, 1)) * 2
    .add 299 (.ein [(137, [0, 1, 2, 3]), (12, [4, 2, 5, 0])] [4, 3, 5, 1]) 2 1,
    -- 1661: del tmp202
    .del 137,
    -- 1662: l2new.abab += einsum(l1.aa, (0, 1), tmp204, (2, 3), (0, 3, 1, 2))
    .add 299 (.ein [(21, [0, 1]), (200, [2, 3])] [0, 3, 1, 2]) 1 1,
    -- 1663: del tmp204
    .del 200,
    -- 1664: l2new.abab += einsum(l2.abab, (0, 1, 2, 3), tmp205, (3, 4, 0, 5), (5, 1, 2, 4)) * -1
    .add 299 (.ein [(10, [0, 1, 2, 3]), (224, [3, 4, 0, 5])] [5, 1, 2, 4]) (-1) 1,
    -- 1665: del tmp205
    .del 224,
    -- 1666: l2new.abab += einsum(tmp120, (0, 1), l2.abab, (2, 3, 4, 0), (2, 3, 4, 1)) * -1
    .add 299 (.ein [(129, [0, 1]), (10, [2, 3, 4, 0])] [2, 3, 4, 1]) (-1) 1,
    -- 1667: l2new.abab += np.transpose(tmp206, (2, 3, 0, 1))
    .add 299 (.tr 221 [2, 3, 0, 1]) 1 1,
    -- 1668: del tmp206
    .del 221,
    -- 1669: l2new.abab += einsum(tmp40, (0, 1, 2, 3), v.aabb.ovvv, (1, 4, 5, 3), (4, 5, 0, 2)) * -1
    .add 299 (.ein [(122, [0, 1, 2, 3]), (22, [1, 4, 5, 3])] [4, 5, 0, 2]) (-1) 1,
    -- 1670: l2new.abab += np.transpose(tmp207, (2, 3, 0, 1)) * 2
    .add 299 (.tr 225 [2, 3, 0, 1]) 2 1,
    -- 1671: del tmp207
    .del 225,
    -- 1672: l2new.abab += einsum(l2.abab, (0, 1, 2, 3), tmp208, (0, 4), (4, 1, 2, 3)) * -1
    .add 299 (.ein [(10, [0, 1, 2, 3]), (226, [0, 4])] [4, 1, 2, 3]) (-1) 1,
    -- 1673: del tmp208
    .del 226,
    -- 1674: l2new.abab += einsum(tmp182, (0, 1), tmp40, (2, 0, 3, 4), (1, 4, 2, 3)) * -1
    .add 299 (.ein [(154, [0, 1]), (122, [2, 0, 3, 4])] [1, 4, 2, 3]) (-1) 1,
    -- 1675: del tmp182
    .del 154,
    -- 1676: l2new.abab += einsum(v.aabb.vvov, (0, 1, 2, 3), tmp50, (4, 5, 2, 1), (0, 3, 4, 5)) * -1
    .add 299 (.ein [(23, [0, 1, 2, 3]), (52, [4, 5, 2, 1])] [0, 3, 4, 5]) (-1) 1,
    -- 1677: l2new.abab += einsum(l2.abab, (0, 1, 2, 3), tmp211, (1, 4), (0, 4, 2, 3)) * -2
    .add 299 (.ein [(10, [0, 1, 2, 3]), (229, [1, 4])] [0, 4, 2, 3]) (-2) 1,
    -- 1678: del tmp211
    .del 229,
    -- 1679: l2new.abab += einsum(tmp214, (0, 1), tmp50, (2, 3, 0, 4), (4, 1, 2, 3)) * -1
    .add 299 (.ein [(139, [0, 1]), (52, [2, 3, 0, 4])] [4, 1, 2, 3]) (-1) 1,
    -- 1680: del tmp214
    .del 139,
    -- 1681: l2new.abab += einsum(v.aabb.ovov, (0, 1, 2, 3), tmp215, (4, 1), (4, 3, 0, 2)) * -1
    .add 299 (.ein [(2, [0, 1, 2, 3]), (234, [4, 1])] [4, 3, 0, 2]) (-1) 1,
    -- 1682: del tmp215
    .del 234,
    -- 1683: l2new.abab += einsum(tmp216, (0, 1, 2, 3), l1.aa, (4, 0), (4, 3, 1, 2)) * -1
    .add 299 (.ein [(220, [0, 1, 2, 3]), (21, [4, 0])] [4, 3, 1, 2]) (-1) 1,
    -- 1684: l2new.abab += einsum(tmp217, (0, 1, 2, 3), l2.abab, (4, 5, 0, 2), (4, 5, 1, 3))
    .add 299 (.ein [(231, [0, 1, 2, 3]), (10, [4, 5, 0, 2])] [4, 5, 1, 3]) 1 1,
    -- 1685: del tmp217
    .del 231,
    -- 1686: l2new.abab += einsum(l2.abab, (0, 1, 2, 3), tmp218, (2, 4, 1, 5), (0, 5, 4, 3)) * -1
    .add 299 (.ein [(10, [0, 1, 2, 3]), (219, [2, 4, 1, 5])] [0, 5, 4, 3]) (-1) 1,
    -- 1687: del tmp218
    .del 219,
    -- 1688: l2new.abab += einsum(tmp219, (0, 1, 2, 3), l2.abab, (2, 4, 5, 0), (3, 4, 5, 1))
    .add 299 (.ein [(223, [0, 1, 2, 3]), (10, [2, 4, 5, 0])] [3, 4, 5, 1]) 1 1,
    -- 1689: del tmp219
    .del 223,
    -- 1690: l2new.abab += einsum(tmp14, (0, 1, 2, 3), tmp40, (4, 0, 1, 5), (3, 5, 4, 2))
    .add 299 (.ein [(59, [0, 1, 2, 3]), (122, [4, 0, 1, 5])] [3, 5, 4, 2]) 1 1,
    -- 1691: del tmp14
    .del 59,
    -- 1692: l2new.abab += einsum(tmp94, (0, 1), v.aabb.ovov, (1, 2, 3, 4), (2, 4, 0, 3)) * -1
    .add 299 (.ein [(149, [0, 1]), (2, [1, 2, 3, 4])] [2, 4, 0, 3]) (-1) 1,
    -- 1693: l2new.abab += einsum(tmp220, (0, 1, 2, 3), l2.abab, (4, 2, 0, 5), (4, 3, 1, 5))
    .add 299 (.ein [(233, [0, 1, 2, 3]), (10, [4, 2, 0, 5])] [4, 3, 1, 5]) 1 1,
    -- 1694: del tmp220
    .del 233,
    -- 1695: l2new.abab += einsum(tmp216, (0, 1, 2, 3), tmp50, (0, 4, 2, 5), (5, 3, 1, 4))
    .add 299 (.ein [(220, [0, 1, 2, 3]), (52, [0, 4, 2, 5])] [5, 3, 1, 4]) 1 1,
    -- 1696: del tmp216
    .del 220,
    -- 1697: l2new.abab += einsum(tmp221, (0, 1), v.aabb.ovov, (2, 3, 1, 4), (3, 4, 2, 0)) * -2
    .add 299 (.ein [(138, [0, 1]), (2, [2, 3, 1, 4])] [3, 4, 2, 0]) (-2) 1,
    -- 1698: del tmp221
    .del 138,
    -- 1699: l2new.abab += einsum(tmp40, (0, 1, 2, 3), tmp0, (0, 1, 4, 5), (5, 3, 4, 2))
    .add 299 (.ein [(122, [0, 1, 2, 3]), (64, [0, 1, 4, 5])] [5, 3, 4, 2]) 1 1,
    -- 1700: del tmp0
    .del 64,
    -- 1701: l2new.abab += einsum(tmp40, (0, 1, 2, 3), v.aaaa.ooov, (4, 0, 1, 5), (5, 3, 4, 2))
    .add 299 (.ein [(122, [0, 1, 2, 3]), (13, [4, 0, 1, 5])] [5, 3, 4, 2]) 1 1,
    -- 1702: l2new.abab += einsum(l1.bb, (0, 1), tmp189, (2, 3), (3, 0, 2, 1)) * -1
    .add 299 (.ein [(19, [0, 1]), (232, [2, 3])] [3, 0, 2, 1]) (-1) 1,
    -- 1703: l2new.abab += einsum(v.aaaa.ovov, (0, 1, 2, 3), tmp222, (2, 4, 1, 5), (3, 5, 0, 4)) * -2
    .add 299 (.ein [(1, [0, 1, 2, 3]), (227, [2, 4, 1, 5])] [3, 5, 0, 4]) (-2) 1,
    -- 1704: del tmp222
    .del 227,
    -- 1705: l2new.abab += einsum(tmp50, (0, 1, 2, 3), v.bbbb.ooov, (4, 1, 2, 5), (3, 5, 0, 4))
    .add 299 (.ein [(52, [0, 1, 2, 3]), (6, [4, 1, 2, 5])] [3, 5, 0, 4]) 1 1,
    -- 1706: l2new.abab += einsum(tmp50, (0, 1, 2, 3), tmp95, (1, 2, 4, 5), (3, 5, 0, 4))
    .add 299 (.ein [(52, [0, 1, 2, 3]), (60, [1, 2, 4, 5])] [3, 5, 0, 4]) 1 1,
    -- 1707: del tmp95
    .del 60,
    -- 1708: l2new.abab += einsum(l1.aa, (0, 1), tmp223, (2, 3), (0, 3, 1, 2)) * -1
    .add 299 (.ein [(21, [0, 1]), (192, [2, 3])] [0, 3, 1, 2]) (-1) 1,
    -- 1709: del tmp223
    .del 192,
    -- 1710: l2new.abab += einsum(v.bbbb.ovov, (0, 1, 2, 3), tmp224, (4, 2, 5, 1), (5, 3, 4, 0)) * -2
    .add 299 (.ein [(0, [0, 1, 2, 3]), (222, [4, 2, 5, 1])] [5, 3, 4, 0]) (-2) 1,
    -- 1711: del tmp224
    .del 222,
    -- 1712: l2new.aaaa = np.copy(np.transpose(v.aaaa.ovov, (1, 3, 0, 2)))
    .set 300 (.tr 1 [1, 3, 0, 2]) 1 1,
    -- 1713: l2new.aaaa += np.transpose(tmp146, (3, 2, 1, 0)) * -1
    .add 300 (.tr 237 [3, 2, 1, 0]) (-1) 1,
    -- 1714: l2new.aaaa += einsum(l1.aa, (0, 1), tmp147, (1, 2, 3, 4), (4, 0, 3, 2)) * -1
    .add 300 (.ein [(21, [0, 1]), (257, [1, 2, 3, 4])] [4, 0, 3, 2]) (-1) 1,
    -- 1715: del tmp147
    .del 257,
    -- 1716: l2new.aaaa += np.transpose(v.aaaa.ovov, (3, 1, 0, 2)) * -1
    .add 300 (.tr 1 [3, 1, 0, 2]) (-1) 1,
    -- 1717: l2new.aaaa += np.transpose(tmp146, (2, 3, 1, 0))
    .add 300 (.tr 237 [2, 3, 1, 0]) 1 1,
    -- 1718: del tmp146
    .del 237,
    -- 1719: l2new.aaaa += np.transpose(tmp149, (3, 2, 0, 1))
    .add 300 (.tr 252 [3, 2, 0, 1]) 1 1,
    -- 1720: l2new.aaaa += np.transpose(tmp150, (2, 3, 0, 1)) * -1
    .add 300 (.tr 243 [2, 3, 0, 1]) (-1) 1,
    -- 1721: l2new.aaaa += np.transpose(tmp151, (3, 2, 0, 1))
    .add 300 (.tr 253 [3, 2, 0, 1]) 1 1,
    -- 1722: l2new.aaaa += np.transpose(tmp152, (3, 2, 0, 1))
    .add 300 (.tr 244 [3, 2, 0, 1]) 1 1,
    -- 1723: l2new.aaaa += np.transpose(tmp153, (3, 2, 0, 1)) * 2
    .add 300 (.tr 260 [3, 2, 0, 1]) 2 1,
    -- 1724: l2new.aaaa += np.transpose(tmp154, (3, 2, 0, 1)) * 2
    .add 300 (.tr 249 [3, 2, 0, 1]) 2 1,
    -- 1725: l2new.aaaa += einsum(l2.aaaa, (0, 1, 2, 3), tmp157, (3, 4, 1, 5), (5, 0, 2, 4)) * -2
    .add 300 (.ein [(12, [0, 1, 2, 3]), (245, [3, 4, 1, 5])] [5, 0, 2, 4]) (-2) 1,
    -- 1726: del tmp157
    .del 245,
    -- 1727: l2new.aaaa += einsum(l2.abab, (0, 1, 2, 3), tmp160, (4, 3, 5, 1), (5, 0, 2, 4)) * -1
    .add 300 (.ein [(10, [0, 1, 2, 3]), (247, [4, 3, 5, 1])] [5, 0, 2, 4]) (-1) 1,
    -- 1728: del tmp160
    .del 247,
    -- 1729: l2new.aaaa += np.transpose(tmp161, (3, 2, 0, 1)) * -1
    .add 300 (.tr 258 [3, 2, 0, 1]) (-1) 1,
    -- 1730: l2new.aaaa += einsum(tmp163, (0, 1), l1.aa, (2, 3), (1, 2, 3, 0)) * -1
    .add 300 (.ein [(261, [0, 1]), (21, [2, 3])] [1, 2, 3, 0]) (-1) 1,
    -- 1731: del tmp163
    .del 261,
    -- 1732: l2new.aaaa += np.transpose(tmp150, (2, 3, 1, 0))
    .add 300 (.tr 243 [2, 3, 1, 0]) 1 1,
    -- 1733: l2new.aaaa += np.transpose(tmp151, (3, 2, 1, 0)) * -1
    .add 300 (.tr 253 [3, 2, 1, 0]) (-1) 1,
    -- 1734: l2new.aaaa += np.transpose(tmp152, (3, 2, 1, 0)) * -1
    .add 300 (.tr 244 [3, 2, 1, 0]) (-1) 1,
    -- 1735: l2new.aaaa += np.transpose(tmp153, (3, 2, 1, 0)) * -2
    .add 300 (.tr 260 [3, 2, 1, 0]) (-2) 1,
    -- 1736: l2new.aaaa += np.transpose(tmp154, (3, 2, 1, 0)) * -2
    .add 300 (.tr 249 [3, 2, 1, 0]) (-2) 1,
    -- 1737: l2new.aaaa += np.transpose(tmp167, (2, 3, 0, 1)) * 2
    .add 300 (.tr 256 [2, 3, 0, 1]) 2 1,
    -- 1738: l2new.aaaa += np.transpose(tmp169, (2, 3, 0, 1))
    .add 300 (.tr 255 [2, 3, 0, 1]) 1 1,
    -- 1739: l2new.aaaa += np.transpose(tmp161, (3, 2, 1, 0))
    .add 300 (.tr 258 [3, 2, 1, 0]) 1 1,
    -- 1740: del tmp161
    .del 258,
    -- 1741: l2new.aaaa += einsum(l1.aa, (0, 1), tmp170, (2, 3), (3, 0, 2, 1))
    .add 300 (.ein [(21, [0, 1]), (230, [2, 3])] [3, 0, 2, 1]) 1 1,
    -- 1742: l2new.aaaa += np.transpose(tmp150, (3, 2, 0, 1))
    .add 300 (.tr 243 [3, 2, 0, 1]) 1 1,
    -- 1743: l2new.aaaa += np.transpose(tmp151, (2, 3, 0, 1)) * -1
    .add 300 (.tr 253 [2, 3, 0, 1]) (-1) 1,
    -- 1744: l2new.aaaa += np.transpose(tmp152, (2, 3, 0, 1)) * -1
    .add 300 (.tr 244 [2, 3, 0, 1]) (-1) 1,
    -- 1745: l2new.aaaa += np.transpose(tmp153, (2, 3, 0, 1)) * -2
    .add 300 (.tr 260 [2, 3, 0, 1]) (-2) 1,
    -- 1746: l2new.aaaa += np.transpose(tmp154, (2, 3, 0, 1)) * -2
    .add 300 (.tr 249 [2, 3, 0, 1]) (-2) 1,
    -- 1747: l2new.aaaa += np.transpose(tmp167, (3, 2, 1, 0)) * 2
    .add 300 (.tr 256 [3, 2, 1, 0]) 2 1,
    -- 1748: l2new.aaaa += np.transpose(tmp169, (3, 2, 1, 0))
    .add 300 (.tr 255 [3, 2, 1, 0]) 1 1,
    -- 1749: l2new.aaaa += einsum(l1.aa, (0, 1), tmp170, (2, 3), (0, 3, 1, 2))
    .add 300 (.ein [(21, [0, 1]), (230, [2, 3])] [0, 3, 1, 2]) 1 1,
    -- 1750: l2new.aaaa += np.transpose(tmp150, (3, 2, 1, 0)) * -1
    .add 300 (.tr 243 [3, 2, 1, 0]) (-1) 1,
    -- 1751: del tmp150
    .del 243,
    -- 1752: l2new.aaaa += np.transpose(tmp151, (2, 3, 1, 0))
    .add 300 (.tr 253 [2, 3, 1, 0]) 1 1,
    -- 1753: del tmp151
    .del 253,
    -- 1754: l2new.aaaa += np.transpose(tmp152, (2, 3, 1, 0))
    .add 300 (.tr 244 [2, 3, 1, 0]) 1 1,
    -- 1755: del tmp152
    .del 244,
    -- 1756: l2new.aaaa += np.transpose(tmp153, (2, 3, 1, 0)) * 2
    .add 300 (.tr 260 [2, 3, 1, 0]) 2 1,
    -- 1757: del tmp153
    .del 260,
    -- 1758: l2new.aaaa += np.transpose(tmp154, (2, 3, 1, 0)) * 2
    .add 300 (.tr 249 [2, 3, 1, 0]) 2 1,
    -- 1759: del tmp154
    .del 249,
    -- 1760: l2new.aaaa += np.transpose(tmp167, (3, 2, 0, 1)) * -2
    .add 300 (.tr 256 [3, 2, 0, 1]) (-2) 1,
    -- 1761: del tmp167
    .del 256,
    -- 1762: l2new.aaaa += np.transpose(tmp169, (3, 2, 0, 1)) * -1
    .add 300 (.tr 255 [3, 2, 0, 1]) (-1) 1,
    -- 1763: del tmp169
    .del 255,
    -- 1764: l2new.aaaa += einsum(l1.aa, (0, 1), tmp170, (2, 3), (0, 3, 2, 1)) * -1
    .add 300 (.ein [(21, [0, 1]), (230, [2, 3])] [0, 3, 2, 1]) (-1) 1,
    -- 1765: del tmp170
    .del 230,
    -- 1766: l2new.aaaa += np.transpose(tmp171, (3, 2, 1, 0)) * 2
    .add 300 (.tr 239 [3, 2, 1, 0]) 2 1,
    -- 1767: del tmp171
    .del 239,
    -- 1768: l2new.aaaa += np.transpose(tmp172, (2, 3, 1, 0)) * 2
    .add 300 (.tr 250 [2, 3, 1, 0]) 2 1,
    -- 1769: l2new.aaaa += np.transpose(tmp174, (3, 2, 1, 0)) * 4
    .add 300 (.tr 246 [3, 2, 1, 0]) 4 1,
    -- 1770: del tmp174
    .del 246,
    -- 1771: l2new.aaaa += np.transpose(tmp179, (2, 3, 1, 0)) * 2
    .add 300 (.tr 242 [2, 3, 1, 0]) 2 1,
    -- 1772: l2new.aaaa += np.transpose(tmp183, (2, 3, 1, 0)) * -2
    .add 300 (.tr 248 [2, 3, 1, 0]) (-2) 1,
    -- 1773: l2new.aaaa += np.transpose(tmp172, (3, 2, 1, 0)) * -2
    .add 300 (.tr 250 [3, 2, 1, 0]) (-2) 1,
    -- 1774: del tmp172
    .del 250,
    -- 1775: l2new.aaaa += np.transpose(tmp179, (3, 2, 1, 0)) * -2
    .add 300 (.tr 242 [3, 2, 1, 0]) (-2) 1,
    -- 1776: del tmp179
    .del 242,
    -- 1777: l2new.aaaa += np.transpose(tmp183, (3, 2, 1, 0)) * 2
    .add 300 (.tr 248 [3, 2, 1, 0]) 2 1,
    -- 1778: del tmp183
    .del 248,
    -- 1779: l2new.aaaa += np.transpose(tmp184, (2, 3, 0, 1)) * -2
    .add 300 (.tr 238 [2, 3, 0, 1]) (-2) 1,
    -- 1780: l2new.aaaa += np.transpose(tmp184, (2, 3, 1, 0)) * 2
    .add 300 (.tr 238 [2, 3, 1, 0]) 2 1,
    -- 1781: del tmp184
    .del 238,
    -- 1782: l2new.aaaa += einsum(l2.aaaa, (0, 1, 2, 3), tmp185, (2, 4, 3, 5), (0, 1, 4, 5)) * -2
    .add 300 (.ein [(12, [0, 1, 2, 3]), (240, [2, 4, 3, 5])] [0, 1, 4, 5]) (-2) 1,
    -- 1783: del tmp185
    .del 240,
    -- 1784: l2new.aaaa += np.transpose(tmp186, (3, 2, 1, 0))
    .add 300 (.tr 236 [3, 2, 1, 0]) 1 1,
    -- 1785: l2new.aaaa += einsum(l1.aa, (0, 1), tmp187, (1, 2, 3, 4), (4, 0, 2, 3))
    .add 300 (.ein [(21, [0, 1]), (254, [1, 2, 3, 4])] [4, 0, 2, 3]) 1 1,
    -- 1786: del tmp187
    .del 254,
    -- 1787: l2new.aaaa += np.transpose(tmp186, (2, 3, 1, 0)) * -1
    .add 300 (.tr 236 [2, 3, 1, 0]) (-1) 1,
    -- 1788: del tmp186
    .del 236,
    -- 1789: l2new.aaaa += np.transpose(tmp149, (3, 2, 1, 0)) * -1
    .add 300 (.tr 252 [3, 2, 1, 0]) (-1) 1,
    -- 1790: del tmp149
    .del 252,
    -- 1791: l2new.aaaa += np.transpose(tmp188, (3, 2, 0, 1)) * -2
    .add 300 (.tr 251 [3, 2, 0, 1]) (-2) 1,
    -- 1792: l2new.aaaa += einsum(tmp189, (0, 1), l1.aa, (2, 3), (1, 2, 3, 0))
    .add 300 (.ein [(232, [0, 1]), (21, [2, 3])] [1, 2, 3, 0]) 1 1,
    -- 1793: l2new.aaaa += np.transpose(tmp190, (3, 2, 0, 1)) * -2
    .add 300 (.tr 241 [3, 2, 0, 1]) (-2) 1,
    -- 1794: l2new.aaaa += np.transpose(tmp191, (2, 3, 1, 0))
    .add 300 (.tr 259 [2, 3, 1, 0]) 1 1,
    -- 1795: l2new.aaaa += np.transpose(tmp192, (2, 3, 1, 0)) * -1
    .add 300 (.tr 235 [2, 3, 1, 0]) (-1) 1,
    -- 1796: l2new.aaaa += np.transpose(tmp188, (2, 3, 0, 1)) * 2
    .add 300 (.tr 251 [2, 3, 0, 1]) 2 1,
    -- 1797: l2new.aaaa += einsum(l1.aa, (0, 1), tmp189, (2, 3), (0, 3, 1, 2)) * -1
    .add 300 (.ein [(21, [0, 1]), (232, [2, 3])] [0, 3, 1, 2]) (-1) 1,
    -- 1798: l2new.aaaa += np.transpose(tmp190, (2, 3, 0, 1)) * 2
    .add 300 (.tr 241 [2, 3, 0, 1]) 2 1,
    -- 1799: l2new.aaaa += np.transpose(tmp191, (3, 2, 1, 0)) * -1
    .add 300 (.tr 259 [3, 2, 1, 0]) (-1) 1,
    -- 1800: l2new.aaaa += np.transpose(tmp192, (3, 2, 1, 0))
    .add 300 (.tr 235 [3, 2, 1, 0]) 1 1,
    -- 1801: l2new.aaaa += np.transpose(tmp188, (3, 2, 1, 0)) * 2
    .add 300 (.tr 251 [3, 2, 1, 0]) 2 1,
    -- 1802: l2new.aaaa += einsum(l1.aa, (0, 1), tmp189, (2, 3), (3, 0, 2, 1)) * -1
    .add 300 (.ein [(21, [0, 1]), (232, [2, 3])] [3, 0, 2, 1]) (-1) 1,
    -- 1803: l2new.aaaa += np.transpose(tmp190, (3, 2, 1, 0)) * 2
    .add 300 (.tr 241 [3, 2, 1, 0]) 2 1,
    -- 1804: l2new.aaaa += np.transpose(tmp191, (2, 3, 0, 1)) * -1
    .add 300 (.tr 259 [2, 3, 0, 1]) (-1) 1,
    -- 1805: l2new.aaaa += np.transpose(tmp192, (2, 3, 0, 1))
    .add 300 (.tr 235 [2, 3, 0, 1]) 1 1,
    -- 1806: l2new.aaaa += np.transpose(tmp188, (2, 3, 1, 0)) * -2
    .add 300 (.tr 251 [2, 3, 1, 0]) (-2) 1,
    -- 1807: del tmp188
    .del 251,
    -- 1808: l2new.aaaa += einsum(tmp189, (0, 1), l1.aa, (2, 3), (2, 1, 0, 3))
    .add 300 (.ein [(232, [0, 1]), (21, [2, 3])] [2, 1, 0, 3]) 1 1,
    -- 1809: del tmp189
    .del 232,
    -- 1810: l2new.aaaa += np.transpose(tmp190, (2, 3, 1, 0)) * -2
    .add 300 (.tr 241 [2, 3, 1, 0]) (-2) 1,
    -- 1811: del tmp190
    .del 241,
    -- 1812: l2new.aaaa += np.transpose(tmp191, (3, 2, 0, 1))
    .add 300 (.tr 259 [3, 2, 0, 1]) 1 1,
    -- 1813: del tmp191
    .del 259,
    -- 1814: l2new.aaaa += np.transpose(tmp192, (3, 2, 0, 1)) * -1
    .add 300 (.tr 235 [3, 2, 0, 1]) (-1) 1,
    -- 1815: del tmp192
    .del 235,
    -- 1816: l1new.bb = einsum(v.bbbb.oovv, (0, 1, 2, 3), l1.bb, (3, 1), (2, 0)) * -1
    .set 301 (.ein [(27, [0, 1, 2, 3]), (19, [3, 1])] [2, 0]) (-1) 1,
    -- 1817: l1new.bb += np.transpose(f.bb.ov, (1, 0))
    .add 301 (.tr 5 [1, 0]) 1 1,
    -- 1818: l1new.bb += einsum(l2.abab, (0, 1, 2, 3), tmp103, (2, 3, 4, 0), (1, 4)) * -1
    .add 301 (.ein [(10, [0, 1, 2, 3]), (268, [2, 3, 4, 0])] [1, 4]) (-1) 1,
    -- 1819: del tmp103
    .del 268,
    -- 1820: l1new.bb += einsum(tmp110, (0, 1, 2, 3), l2.bbbb, (4, 3, 1, 2), (4, 0)) * 4
    .add 301 (.ein [(273, [0, 1, 2, 3]), (9, [4, 3, 1, 2])] [4, 0]) 4 1,
    -- 1821: del tmp110
    .del 273,
    -- 1822: l1new.bb += einsum(tmp111, (0, 1, 2, 3), tmp35, (3, 2), (1, 0)) * -1
    .add 301 (.ein [(48, [0, 1, 2, 3]), (270, [3, 2])] [1, 0]) (-1) 1,
    -- 1823: l1new.bb += einsum(v.aabb.vvov, (0, 1, 2, 3), tmp112, (1, 0), (3, 2)) * 2
    .add 301 (.ein [(23, [0, 1, 2, 3]), (265, [1, 0])] [3, 2]) 2 1,
    -- 1824: del tmp112
    .del 265,
    -- 1825: l1new.bb += einsum(v.bbbb.ovov, (0, 1, 2, 3), tmp59, (2, 3), (1, 0)) * -1
    .add 301 (.ein [(0, [0, 1, 2, 3]), (281, [2, 3])] [1, 0]) (-1) 1,
    -- 1826: l1new.bb += einsum(v.aabb.ovov, (0, 1, 2, 3), tmp113, (0, 1), (3, 2)) * -1
    .add 301 (.ein [(2, [0, 1, 2, 3]), (276, [0, 1])] [3, 2]) (-1) 1,
    -- 1827: del tmp113
    .del 276,
    -- 1828: l1new.bb += einsum(tmp57, (0, 1), v.bbbb.ovoo, (2, 3, 0, 1), (3, 2)) * -1
    .add 301 (.ein [(123, [0, 1]), (7, [2, 3, 0, 1])] [3, 2]) (-1) 1,
    -- 1829: l1new.bb += einsum(tmp45, (0, 1), v.aabb.ooov, (1, 0, 2, 3), (3, 2)) * -2
    .add 301 (.ein [(128, [0, 1]), (24, [1, 0, 2, 3])] [3, 2]) (-2) 1,
    -- 1830: l1new.bb += einsum(l1.bb, (0, 1), tmp120, (1, 2), (0, 2)) * -1
    .add 301 (.ein [(19, [0, 1]), (129, [1, 2])] [0, 2]) (-1) 1,
    -- 1831: del tmp120
    .del 129,
    -- 1832: l1new.bb += einsum(tmp121, (0, 1, 2, 3), l2.abab, (1, 3, 0, 4), (2, 4))
    .add 301 (.ein [(262, [0, 1, 2, 3]), (10, [1, 3, 0, 4])] [2, 4]) 1 1,
    -- 1833: del tmp121
    .del 262,
    -- 1834: l1new.bb += einsum(tmp52, (0, 1, 2, 3), v.bbbb.oovv, (2, 1, 4, 3), (4, 0)) * -2
    .add 301 (.ein [(49, [0, 1, 2, 3]), (27, [2, 1, 4, 3])] [4, 0]) (-2) 1,
    -- 1835: del tmp52
    .del 49,
    -- 1836: l1new.bb += einsum(tmp40, (0, 1, 2, 3), v.aabb.oovv, (1, 0, 4, 3), (4, 2)) * -1
    .add 301 (.ein [(122, [0, 1, 2, 3]), (36, [1, 0, 4, 3])] [4, 2]) (-1) 1,
    -- 1837: del tmp40
    .del 122,
    -- 1838: l1new.bb += einsum(v.aabb.ovvv, (0, 1, 2, 3), tmp124, (0, 4, 1, 3), (2, 4))
    .add 301 (.ein [(22, [0, 1, 2, 3]), (267, [0, 4, 1, 3])] [2, 4]) 1 1,
    -- 1839: del tmp124
    .del 267,
    -- 1840: l1new.bb += einsum(tmp111, (0, 1, 2, 3), tmp127, (4, 0, 3, 2), (1, 4))
    .add 301 (.ein [(48, [0, 1, 2, 3]), (277, [4, 0, 3, 2])] [1, 4]) 1 1,
    -- 1841: del tmp111, tmp127
    .del 48,
    .del 277,
    -- 1842: l1new.bb += einsum(tmp128, (0, 1, 2, 3), v.aabb.ovov, (0, 3, 2, 4), (4, 1)) * -1
    .add 301 (.ein [(263, [0, 1, 2, 3]), (2, [0, 3, 2, 4])] [4, 1]) (-1) 1,
    -- 1843: del tmp128
    .del 263,
    -- 1844: l1new.bb += einsum(tmp129, (0, 1, 2, 3), v.aabb.vvov, (2, 3, 1, 4), (4, 0)) * -1
    .add 301 (.ein [(274, [0, 1, 2, 3]), (23, [2, 3, 1, 4])] [4, 0]) (-1) 1,
    -- 1845: del tmp129
    .del 274,
    -- 1846: l1new.bb += einsum(l2.bbbb, (0, 1, 2, 3), tmp130, (3, 0, 1, 4), (4, 2)) * -2
    .add 301 (.ein [(9, [0, 1, 2, 3]), (279, [3, 0, 1, 4])] [4, 2]) (-2) 1,
    -- 1847: del tmp130
    .del 279,
    -- 1848: l1new.bb += einsum(tmp132, (0, 1, 2, 3), tmp131, (1, 4, 2, 3), (4, 0)) * -2
    .add 301 (.ein [(272, [0, 1, 2, 3]), (278, [1, 4, 2, 3])] [4, 0]) (-2) 1,
    -- 1849: del tmp132, tmp131
    .del 272,
    .del 278,
    -- 1850: l1new.bb += einsum(v.bbbb.ovov, (0, 1, 2, 3), tmp136, (4, 0, 2, 1), (3, 4)) * -4
    .add 301 (.ein [(0, [0, 1, 2, 3]), (271, [4, 0, 2, 1])] [3, 4]) (-4) 1,
    -- 1851: del tmp136
    .del 271,
    -- 1852: l1new.bb += einsum(tmp138, (0, 1, 2, 3), v.bbbb.ovov, (1, 3, 2, 4), (4, 0)) * 4
    .add 301 (.ein [(280, [0, 1, 2, 3]), (0, [1, 3, 2, 4])] [4, 0]) 4 1,
    -- 1853: del tmp138
    .del 280,
    -- 1854: l1new.bb += einsum(tmp139, (0, 1, 2, 3), v.bbbb.ooov, (0, 2, 3, 4), (4, 1)) * 2
    .add 301 (.ein [(275, [0, 1, 2, 3]), (6, [0, 2, 3, 4])] [4, 1]) 2 1,
    -- 1855: del tmp139
    .del 275,
    -- 1856: l1new.bb += einsum(v.aabb.ooov, (0, 1, 2, 3), tmp140, (0, 1, 4, 2), (3, 4))
    .add 301 (.ein [(24, [0, 1, 2, 3]), (266, [0, 1, 4, 2])] [3, 4]) 1 1,
    -- 1857: del tmp140
    .del 266,
    -- 1858: l1new.bb += einsum(v.bbbb.ovov, (0, 1, 2, 3), tmp141, (2, 1), (3, 0)) * 2
    .add 301 (.ein [(0, [0, 1, 2, 3]), (264, [2, 1])] [3, 0]) 2 1,
    -- 1859: del tmp141
    .del 264,
    -- 1860: l1new.bb += einsum(tmp57, (0, 1), v.bbbb.ooov, (2, 0, 1, 3), (3, 2))
    .add 301 (.ein [(123, [0, 1]), (6, [2, 0, 1, 3])] [3, 2]) 1 1,
    -- 1861: l1new.bb += einsum(tmp144, (0, 1), l1.bb, (0, 2), (1, 2))
    .add 301 (.ein [(269, [0, 1]), (19, [0, 2])] [1, 2]) 1 1,
    -- 1862: del tmp144
    .del 269,
    -- 1863: l1new.bb += einsum(tmp100, (0, 1), tmp57, (2, 0), (1, 2)) * -1
    .add 301 (.ein [(46, [0, 1]), (123, [2, 0])] [1, 2]) (-1) 1,
    -- 1864: del tmp100
    .del 46,
    -- 1865: l1new.aa = einsum(l1.aa, (0, 1), v.aaaa.oovv, (2, 1, 3, 0), (3, 2)) * -1
    .set 302 (.ein [(21, [0, 1]), (29, [2, 1, 3, 0])] [3, 2]) (-1) 1,
    -- 1866: l1new.aa += np.transpose(f.aa.ov, (1, 0))
    .add 302 (.tr 15 [1, 0]) 1 1,
    -- 1867: l1new.aa += einsum(l2.abab, (0, 1, 2, 3), tmp17, (2, 4, 3, 1), (0, 4)) * -1
    .add 302 (.ein [(10, [0, 1, 2, 3]), (292, [2, 4, 3, 1])] [0, 4]) (-1) 1,
    -- 1868: del tmp17
    .del 292,
    -- 1869: l1new.aa += einsum(tmp26, (0, 1, 2, 3), l2.aaaa, (4, 3, 1, 2), (4, 0)) * 2
    .add 302 (.ein [(288, [0, 1, 2, 3]), (12, [4, 3, 1, 2])] [4, 0]) 2 1,
    -- 1870: del tmp26
    .del 288,
    -- 1871: l1new.aa += einsum(tmp30, (0, 1), tmp31, (2, 1, 0, 3), (3, 2)) * -1
    .add 302 (.ein [(286, [0, 1]), (53, [2, 1, 0, 3])] [3, 2]) (-1) 1,
    -- 1872: del tmp31, tmp30
    .del 53,
    .del 286,
    -- 1873: l1new.aa += einsum(v.aabb.ovvv, (0, 1, 2, 3), tmp35, (3, 2), (1, 0))
    .add 302 (.ein [(22, [0, 1, 2, 3]), (270, [3, 2])] [1, 0]) 1 1,
    -- 1874: del tmp35
    .del 270,
    -- 1875: l1new.aa += einsum(tmp47, (0, 1), v.aaaa.ovov, (2, 3, 0, 1), (3, 2)) * -2
    .add 302 (.ein [(293, [0, 1]), (1, [2, 3, 0, 1])] [3, 2]) (-2) 1,
    -- 1876: del tmp47
    .del 293,
    -- 1877: l1new.aa += einsum(tmp59, (0, 1), v.aabb.ovov, (2, 3, 0, 1), (3, 2)) * -1
    .add 302 (.ein [(281, [0, 1]), (2, [2, 3, 0, 1])] [3, 2]) (-1) 1,
    -- 1878: del tmp59
    .del 281,
    -- 1879: l1new.aa += einsum(v.aabb.ovoo, (0, 1, 2, 3), tmp57, (3, 2), (1, 0)) * -1
    .add 302 (.ein [(16, [0, 1, 2, 3]), (123, [3, 2])] [1, 0]) (-1) 1,
    -- 1880: del tmp57
    .del 123,
    -- 1881: l1new.aa += einsum(tmp45, (0, 1), v.aaaa.ovoo, (2, 3, 1, 0), (3, 2)) * -2
    .add 302 (.ein [(128, [0, 1]), (14, [2, 3, 1, 0])] [3, 2]) (-2) 1,
    -- 1882: l1new.aa += einsum(tmp66, (0, 1), l1.aa, (2, 0), (2, 1)) * -1
    .add 302 (.ein [(158, [0, 1]), (21, [2, 0])] [2, 1]) (-1) 1,
    -- 1883: del tmp66
    .del 158,
    -- 1884: l1new.aa += einsum(v.aabb.vvoo, (0, 1, 2, 3), tmp50, (4, 3, 2, 1), (0, 4)) * -1
    .add 302 (.ein [(31, [0, 1, 2, 3]), (52, [4, 3, 2, 1])] [0, 4]) (-1) 1,
    -- 1885: del tmp50
    .del 52,
    -- 1886: l1new.aa += einsum(l2.abab, (0, 1, 2, 3), tmp67, (3, 4, 0, 1), (4, 2))
    .add 302 (.ein [(10, [0, 1, 2, 3]), (296, [3, 4, 0, 1])] [4, 2]) 1 1,
    -- 1887: del tmp67
    .del 296,
    -- 1888: l1new.aa += einsum(l2.aaaa, (0, 1, 2, 3), tmp68, (3, 4, 0, 1), (4, 2)) * 2
    .add 302 (.ein [(12, [0, 1, 2, 3]), (294, [3, 4, 0, 1])] [4, 2]) 2 1,
    -- 1889: del tmp68
    .del 294,
    -- 1890: l1new.aa += einsum(v.aaaa.oovv, (0, 1, 2, 3), tmp38, (4, 1, 0, 3), (2, 4)) * -2
    .add 302 (.ein [(29, [0, 1, 2, 3]), (54, [4, 1, 0, 3])] [2, 4]) (-2) 1,
    -- 1891: l1new.aa += einsum(tmp20, (0, 1, 2, 3), tmp38, (4, 0, 1, 3), (2, 4)) * 2
    .add 302 (.ein [(127, [0, 1, 2, 3]), (54, [4, 0, 1, 3])] [2, 4]) 2 1,
    -- 1892: del tmp38, tmp20
    .del 54,
    .del 127,
    -- 1893: l1new.aa += einsum(v.aabb.vvov, (0, 1, 2, 3), tmp71, (4, 2, 1, 3), (0, 4))
    .add 302 (.ein [(23, [0, 1, 2, 3]), (285, [4, 2, 1, 3])] [0, 4]) 1 1,
    -- 1894: del tmp71
    .del 285,
    -- 1895: l1new.aa += einsum(tmp75, (0, 1, 2, 3), tmp72, (1, 4, 3, 2), (4, 0)) * -1
    .add 302 (.ein [(159, [0, 1, 2, 3]), (144, [1, 4, 3, 2])] [4, 0]) (-1) 1,
    -- 1896: del tmp72, tmp75
    .del 144,
    .del 159,
    -- 1897: l1new.aa += einsum(tmp79, (0, 1, 2, 3), v.aabb.ovov, (1, 4, 2, 3), (4, 0)) * -2
    .add 302 (.ein [(295, [0, 1, 2, 3]), (2, [1, 4, 2, 3])] [4, 0]) (-2) 1,
    -- 1898: del tmp79
    .del 295,
    -- 1899: l1new.aa += einsum(tmp80, (0, 1, 2, 3), v.aabb.ovvv, (1, 4, 3, 2), (4, 0)) * -1
    .add 302 (.ein [(283, [0, 1, 2, 3]), (22, [1, 4, 3, 2])] [4, 0]) (-1) 1,
    -- 1900: del tmp80
    .del 283,
    -- 1901: l1new.aa += einsum(v.aaaa.ovvv, (0, 1, 2, 3), tmp81, (4, 0, 3, 1), (2, 4)) * -2
    .add 302 (.ein [(11, [0, 1, 2, 3]), (287, [4, 0, 3, 1])] [2, 4]) (-2) 1,
    -- 1902: del tmp81
    .del 287,
    -- 1903: l1new.aa += einsum(tmp85, (0, 1, 2, 3), v.aaaa.ovov, (1, 3, 2, 4), (4, 0)) * -1
    .add 302 (.ein [(284, [0, 1, 2, 3]), (1, [1, 3, 2, 4])] [4, 0]) (-1) 1,
    -- 1904: del tmp85
    .del 284,
    -- 1905: l1new.aa += einsum(v.aaaa.ovov, (0, 1, 2, 3), tmp87, (4, 2, 0, 3), (1, 4))
    .add 302 (.ein [(1, [0, 1, 2, 3]), (297, [4, 2, 0, 3])] [1, 4]) 1 1,
    -- 1906: del tmp87
    .del 297,
    -- 1907: l1new.aa += einsum(v.aaaa.ooov, (0, 1, 2, 3), tmp88, (1, 4, 0, 2), (3, 4)) * 2
    .add 302 (.ein [(13, [0, 1, 2, 3]), (291, [1, 4, 0, 2])] [3, 4]) 2 1,
    -- 1908: del tmp88
    .del 291,
    -- 1909: l1new.aa += einsum(tmp89, (0, 1, 2, 3), v.aabb.ovoo, (1, 4, 3, 2), (4, 0))
    .add 302 (.ein [(289, [0, 1, 2, 3]), (16, [1, 4, 3, 2])] [4, 0]) 1 1,
    -- 1910: del tmp89
    .del 289,
    -- 1911: l1new.aa += einsum(tmp90, (0, 1), v.aaaa.ovov, (2, 1, 0, 3), (3, 2)) * 2
    .add 302 (.ein [(290, [0, 1]), (1, [2, 1, 0, 3])] [3, 2]) 2 1,
    -- 1912: del tmp90
    .del 290,
    -- 1913: l1new.aa += einsum(tmp45, (0, 1), v.aaaa.ooov, (2, 0, 1, 3), (3, 2)) * 2
    .add 302 (.ein [(128, [0, 1]), (13, [2, 0, 1, 3])] [3, 2]) 2 1,
    -- 1914: del tmp45
    .del 128,
    -- 1915: l1new.aa += einsum(tmp93, (0, 1), l1.aa, (0, 2), (1, 2))
    .add 302 (.ein [(282, [0, 1]), (21, [0, 2])] [1, 2]) 1 1,
    -- 1916: del tmp93
    .del 282,
    -- 1917: l1new.aa += einsum(tmp9, (0, 1), tmp94, (2, 0), (1, 2)) * -1
    .add 302 (.ein [(58, [0, 1]), (149, [2, 0])] [1, 2]) (-1) 1,
    -- 1918: del tmp9, tmp94
    .del 58,
    .del 149
  ]
  ret := [(chars! "l1new.bb", 301), (chars! "l1new.aa", 302), (chars! "l2new.bbbb", 298), (chars! "l2new.abab", 299), (chars! "l2new.aaaa", 300)]

end Ebcc.Gen.UCCSD
