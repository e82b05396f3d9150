import Verif.Model.GenCode
/-!
Functions of `ebcc/codegen/UDCSD.py`, written by `tools/gencode.py`.  Comments give the
number and the text of the line of each statement.
-/

set_option maxRecDepth 100000

namespace Ebcc.Gen.UDCSD

/-- codegen/UDCSD.py:19-59 `energy`. -/
def energy : GenFun where
  args := [chars! "v.bbbb.ovov", chars! "v.aaaa.ovov", chars! "f.bb.ov", chars! "t1.aa", chars! "v.aabb.ovov", chars! "t1.bb", chars! "f.aa.ov", chars! "t2.bbbb", chars! "t2.abab", chars! "t2.aaaa"]
  body := [
    -- 40: tmp0 = np.copy(np.transpose(v.bbbb.ovov, (0, 2, 3, 1)))
    .set 10 (.tr 0 [0, 2, 3, 1]) 1 1,
    -- 41: tmp0 += np.transpose(v.bbbb.ovov, (0, 2, 1, 3)) * -1
    .add 10 (.tr 0 [0, 2, 1, 3]) (-1) 1,
    -- 42: tmp2 = np.copy(np.transpose(v.aaaa.ovov, (0, 2, 3, 1))) * -1
    .set 11 (.tr 1 [0, 2, 3, 1]) (-1) 1,
    -- 43: tmp2 += np.transpose(v.aaaa.ovov, (0, 2, 1, 3))
    .add 11 (.tr 1 [0, 2, 1, 3]) 1 1,
    -- 44: tmp1 = np.copy(f.bb.ov)
    .set 12 (.cp 2) 1 1,
    -- 45: tmp1 += einsum(t1.aa, (0, 1), v.aabb.ovov, (0, 1, 2, 3), (2, 3))
    .add 12 (.ein [(3, [0, 1]), (4, [0, 1, 2, 3])] [2, 3]) 1 1,
    -- 46: tmp1 += einsum(tmp0, (0, 1, 2, 3), t1.bb, (0, 2), (1, 3)) * -0.5
    .add 12 (.ein [(10, [0, 1, 2, 3]), (5, [0, 2])] [1, 3]) (-1) 2,
    -- 47: del tmp0
    .del 10,
    -- 48: tmp3 = np.copy(f.aa.ov) * 2
    .set 13 (.cp 6) 2 1,
    -- 49: tmp3 += einsum(tmp2, (0, 1, 2, 3), t1.aa, (0, 3), (1, 2)) * -1
    .add 13 (.ein [(11, [0, 1, 2, 3]), (3, [0, 3])] [1, 2]) (-1) 1,
    -- 50: del tmp2
    .del 11,
    -- 51: e_cc = einsum(t2.bbbb, (0, 1, 2, 3), v.bbbb.ovov, (0, 2, 1, 3), ())
    .set 14 (.ein [(7, [0, 1, 2, 3]), (0, [0, 2, 1, 3])] []) 1 1,
    -- 52: e_cc += einsum(t2.abab, (0, 1, 2, 3), v.aabb.ovov, (0, 2, 1, 3), ())
    .add 14 (.ein [(8, [0, 1, 2, 3]), (4, [0, 2, 1, 3])] []) 1 1,
    -- 53: e_cc += einsum(v.aaaa.ovov, (0, 1, 2, 3), t2.aaaa, (0, 2, 3, 1), ()) * -1
    .add 14 (.ein [(1, [0, 1, 2, 3]), (9, [0, 2, 3, 1])] []) (-1) 1,
    -- 54: e_cc += einsum(tmp1, (0, 1), t1.bb, (0, 1), ())
    .add 14 (.ein [(12, [0, 1]), (5, [0, 1])] []) 1 1,
    -- 55: del tmp1
    .del 12,
    -- 56: e_cc += einsum(t1.aa, (0, 1), tmp3, (0, 1), ()) * 0.5
    .add 14 (.ein [(3, [0, 1]), (13, [0, 1])] []) 1 2,
    -- 57: del tmp3
    .del 13
  ]
  ret := [(chars! "e_cc", 14)]

/-- codegen/UDCSD.py:61-784 `update_amps`. -/
def update_amps : GenFun where
  args := [chars! "v.bbbb.ovov", chars! "v.aaaa.ovov", chars! "t1.bb", chars! "t1.aa", chars! "v.aabb.ovov", chars! "v.bbbb.ooov", chars! "v.bbbb.ovoo", chars! "v.bbbb.ovvv", chars! "f.bb.ov", chars! "v.aaaa.ooov", chars! "v.aaaa.ovoo", chars! "v.aaaa.ovvv", chars! "f.aa.ov", chars! "t2.bbbb", chars! "v.aabb.ovvv", chars! "v.aabb.ovoo", chars! "t2.abab", chars! "t2.aaaa", chars! "v.aabb.ooov", chars! "v.aabb.vvov", chars! "v.bbbb.oovv", chars! "v.bbbb.vvvv", chars! "f.bb.vv", chars! "f.bb.oo", chars! "f.aa.oo", chars! "f.aa.vv", chars! "v.aaaa.oooo", chars! "v.aaaa.vvvv", chars! "v.aaaa.oovv", chars! "v.bbbb.oooo", chars! "v.aabb.vvoo", chars! "v.aabb.oovv", chars! "v.aabb.vvvv", chars! "v.aabb.oooo"]
  body := [
    -- 86: tmp14 = np.copy(np.transpose(v.bbbb.ovov, (0, 2, 3, 1)))
    .set 34 (.tr 0 [0, 2, 3, 1]) 1 1,
    -- 87: tmp14 += np.transpose(v.bbbb.ovov, (0, 2, 1, 3)) * -1
    .add 34 (.tr 0 [0, 2, 1, 3]) (-1) 1,
    -- 88: tmp7 = np.copy(np.transpose(v.aaaa.ovov, (0, 2, 3, 1))) * -1
    .set 35 (.tr 1 [0, 2, 3, 1]) (-1) 1,
    -- 89: tmp7 += np.transpose(v.aaaa.ovov, (0, 2, 1, 3))
    .add 35 (.tr 1 [0, 2, 1, 3]) 1 1,
    -- 90: tmp22 = einsum(t1.bb, (0, 1), v.bbbb.ovov, (2, 3, 4, 1), (0, 2, 4, 3))
    .set 36 (.ein [(2, [0, 1]), (0, [2, 3, 4, 1])] [0, 2, 4, 3]) 1 1,
    -- 91: tmp15 = einsum(tmp14, (0, 1, 2, 3), t1.bb, (0, 2), (1, 3))
    .set 37 (.ein [(34, [0, 1, 2, 3]), (2, [0, 2])] [1, 3]) 1 1,
    -- 92: del tmp14
    .del 34,
    -- 93: tmp13 = einsum(t1.aa, (0, 1), v.aabb.ovov, (0, 1, 2, 3), (2, 3))
    .set 38 (.ein [(3, [0, 1]), (4, [0, 1, 2, 3])] [2, 3]) 1 1,
    -- 94: tmp152 = np.copy(np.transpose(v.bbbb.ovov, (0, 2, 3, 1)))
    .set 39 (.tr 0 [0, 2, 3, 1]) 1 1,
    -- 95: tmp152 += np.transpose(v.bbbb.ovov, (0, 2, 1, 3)) * -1
    .add 39 (.tr 0 [0, 2, 1, 3]) (-1) 1,
    -- 96: tmp8 = einsum(tmp7, (0, 1, 2, 3), t1.aa, (0, 3), (1, 2))
    .set 40 (.ein [(35, [0, 1, 2, 3]), (3, [0, 3])] [1, 2]) 1 1,
    -- 97: del tmp7
    .del 35,
    -- 98: tmp2 = einsum(v.aabb.ovov, (0, 1, 2, 3), t1.bb, (2, 3), (0, 1))
    .set 41 (.ein [(4, [0, 1, 2, 3]), (2, [2, 3])] [0, 1]) 1 1,
    -- 99: tmp0 = einsum(t1.aa, (0, 1), v.aaaa.ovov, (2, 3, 4, 1), (0, 2, 4, 3))
    .set 42 (.ein [(3, [0, 1]), (1, [2, 3, 4, 1])] [0, 2, 4, 3]) 1 1,
    -- 100: tmp53 = np.copy(np.transpose(v.aaaa.ovov, (0, 2, 3, 1))) * -1
    .set 43 (.tr 1 [0, 2, 3, 1]) (-1) 1,
    -- 101: tmp53 += np.transpose(v.aaaa.ovov, (0, 2, 1, 3))
    .add 43 (.tr 1 [0, 2, 1, 3]) 1 1,
    -- 102: tmp173 = np.copy(v.bbbb.ooov)
    .set 44 (.cp 5) 1 1,
    -- 103: tmp173 += np.transpose(v.bbbb.ovoo, (0, 2, 3, 1)) * -1
    .add 44 (.tr 6 [0, 2, 3, 1]) (-1) 1,
    -- 104: tmp21 = einsum(v.aabb.ovov, (0, 1, 2, 3), t1.bb, (4, 3), (0, 4, 2, 1))
    .set 45 (.ein [(4, [0, 1, 2, 3]), (2, [4, 3])] [0, 4, 2, 1]) 1 1,
    -- 105: tmp164 = np.copy(v.bbbb.ovvv)
    .set 46 (.cp 7) 1 1,
    -- 106: tmp164 += np.transpose(v.bbbb.ovvv, (0, 2, 1, 3)) * -1
    .add 46 (.tr 7 [0, 2, 1, 3]) (-1) 1,
    -- 107: tmp166 = np.copy(tmp22) * -1
    .set 47 (.cp 36) (-1) 1,
    -- 108: tmp166 += np.transpose(tmp22, (0, 2, 1, 3))
    .add 47 (.tr 36 [0, 2, 1, 3]) 1 1,
    -- 109: tmp103 = np.copy(v.bbbb.ovvv)
    .set 48 (.cp 7) 1 1,
    -- 110: tmp103 += np.transpose(v.bbbb.ovvv, (0, 2, 3, 1)) * -1
    .add 48 (.tr 7 [0, 2, 3, 1]) (-1) 1,
    -- 111: tmp16 = np.copy(f.bb.ov)
    .set 49 (.cp 8) 1 1,
    -- 112: tmp16 += tmp13
    .add 49 (.cp 38) 1 1,
    -- 113: tmp16 += tmp15 * -1
    .add 49 (.cp 37) (-1) 1,
    -- 114: del tmp15
    .del 37,
    -- 115: tmp153 = einsum(tmp152, (0, 1, 2, 3), t1.bb, (0, 2), (1, 3))
    .set 50 (.ein [(39, [0, 1, 2, 3]), (2, [0, 2])] [1, 3]) 1 1,
    -- 116: del tmp152
    .del 39,
    -- 117: tmp29 = np.copy(v.bbbb.ooov) * -1
    .set 51 (.cp 5) (-1) 1,
    -- 118: tmp29 += np.transpose(v.bbbb.ooov, (0, 2, 1, 3))
    .add 51 (.tr 5 [0, 2, 1, 3]) 1 1,
    -- 119: tmp18 = np.copy(v.aaaa.ooov)
    .set 52 (.cp 9) 1 1,
    -- 120: tmp18 += np.transpose(v.aaaa.ovoo, (0, 2, 3, 1)) * -1
    .add 52 (.tr 10 [0, 2, 3, 1]) (-1) 1,
    -- 121: tmp42 = np.copy(v.aaaa.ovvv)
    .set 53 (.cp 11) 1 1,
    -- 122: tmp42 += np.transpose(v.aaaa.ovvv, (0, 2, 3, 1)) * -1
    .add 53 (.tr 11 [0, 2, 3, 1]) (-1) 1,
    -- 123: tmp9 = np.copy(f.aa.ov)
    .set 54 (.cp 12) 1 1,
    -- 124: tmp9 += tmp2
    .add 54 (.cp 41) 1 1,
    -- 125: tmp9 += tmp8 * -1
    .add 54 (.cp 40) (-1) 1,
    -- 126: del tmp8
    .del 40,
    -- 127: tmp69 = np.copy(tmp0)
    .set 55 (.cp 42) 1 1,
    -- 128: tmp69 += np.transpose(tmp0, (0, 2, 1, 3)) * -1
    .add 55 (.tr 42 [0, 2, 1, 3]) (-1) 1,
    -- 129: tmp67 = np.copy(v.aaaa.ovvv) * -1
    .set 56 (.cp 11) (-1) 1,
    -- 130: tmp67 += np.transpose(v.aaaa.ovvv, (0, 2, 1, 3))
    .add 56 (.tr 11 [0, 2, 1, 3]) 1 1,
    -- 131: tmp1 = einsum(t1.aa, (0, 1), v.aabb.ovov, (2, 1, 3, 4), (0, 2, 3, 4))
    .set 57 (.ein [(3, [0, 1]), (4, [2, 1, 3, 4])] [0, 2, 3, 4]) 1 1,
    -- 132: tmp54 = einsum(t1.aa, (0, 1), tmp53, (0, 2, 3, 1), (2, 3))
    .set 58 (.ein [(3, [0, 1]), (43, [0, 2, 3, 1])] [2, 3]) 1 1,
    -- 133: del tmp53
    .del 43,
    -- 134: tmp126 = einsum(t2.bbbb, (0, 1, 2, 3), v.bbbb.ovov, (4, 5, 1, 3), (0, 4, 2, 5))
    .set 59 (.ein [(13, [0, 1, 2, 3]), (0, [4, 5, 1, 3])] [0, 4, 2, 5]) 1 1,
    -- 135: tmp174 = einsum(tmp173, (0, 1, 2, 3), t1.bb, (0, 4), (1, 2, 4, 3))
    .set 60 (.ein [(44, [0, 1, 2, 3]), (2, [0, 4])] [1, 2, 4, 3]) 1 1,
    -- 136: del tmp173
    .del 44,
    -- 137: tmp111 = einsum(v.aabb.ovvv, (0, 1, 2, 3), t1.bb, (4, 3), (0, 4, 1, 2))
    .set 61 (.ein [(14, [0, 1, 2, 3]), (2, [4, 3])] [0, 4, 1, 2]) 1 1,
    -- 138: tmp112 = einsum(tmp21, (0, 1, 2, 3), t1.bb, (2, 4), (0, 1, 3, 4))
    .set 62 (.ein [(45, [0, 1, 2, 3]), (2, [2, 4])] [0, 1, 3, 4]) 1 1,
    -- 139: tmp165 = einsum(tmp164, (0, 1, 2, 3), t1.bb, (4, 2), (4, 0, 1, 3))
    .set 63 (.ein [(46, [0, 1, 2, 3]), (2, [4, 2])] [4, 0, 1, 3]) 1 1,
    -- 140: del tmp164
    .del 46,
    -- 141: tmp167 = einsum(tmp166, (0, 1, 2, 3), t1.bb, (2, 4), (0, 1, 4, 3))
    .set 64 (.ein [(47, [0, 1, 2, 3]), (2, [2, 4])] [0, 1, 4, 3]) 1 1,
    -- 142: del tmp166
    .del 47,
    -- 143: tmp115 = einsum(v.aabb.ovoo, (0, 1, 2, 3), t1.bb, (3, 4), (0, 2, 1, 4))
    .set 65 (.ein [(15, [0, 1, 2, 3]), (2, [3, 4])] [0, 2, 1, 4]) 1 1,
    -- 144: tmp98 = einsum(t2.abab, (0, 1, 2, 3), v.aaaa.ovov, (4, 5, 0, 2), (4, 1, 5, 3))
    .set 66 (.ein [(16, [0, 1, 2, 3]), (1, [4, 5, 0, 2])] [4, 1, 5, 3]) 1 1,
    -- 145: tmp104 = einsum(tmp103, (0, 1, 2, 3), t1.bb, (0, 1), (2, 3))
    .set 67 (.ein [(48, [0, 1, 2, 3]), (2, [0, 1])] [2, 3]) 1 1,
    -- 146: del tmp103
    .del 48,
    -- 147: tmp105 = einsum(tmp16, (0, 1), t1.bb, (0, 2), (2, 1))
    .set 68 (.ein [(49, [0, 1]), (2, [0, 2])] [2, 1]) 1 1,
    -- 148: tmp102 = einsum(t2.bbbb, (0, 1, 2, 3), v.bbbb.ovov, (0, 4, 1, 3), (2, 4))
    .set 69 (.ein [(13, [0, 1, 2, 3]), (0, [0, 4, 1, 3])] [2, 4]) 1 1,
    -- 149: tmp101 = einsum(t2.abab, (0, 1, 2, 3), v.aabb.ovov, (0, 2, 1, 4), (3, 4))
    .set 70 (.ein [(16, [0, 1, 2, 3]), (4, [0, 2, 1, 4])] [3, 4]) 1 1,
    -- 150: tmp100 = einsum(t1.aa, (0, 1), v.aabb.ovvv, (0, 1, 2, 3), (2, 3))
    .set 71 (.ein [(3, [0, 1]), (14, [0, 1, 2, 3])] [2, 3]) 1 1,
    -- 151: tmp179 = einsum(tmp22, (0, 1, 2, 3), t1.bb, (4, 3), (0, 4, 2, 1))
    .set 72 (.ein [(36, [0, 1, 2, 3]), (2, [4, 3])] [0, 4, 2, 1]) 1 1,
    -- 152: tmp154 = np.copy(f.bb.ov)
    .set 73 (.cp 8) 1 1,
    -- 153: tmp154 += tmp13
    .add 73 (.cp 38) 1 1,
    -- 154: tmp154 += tmp153 * -1
    .add 73 (.cp 50) (-1) 1,
    -- 155: del tmp153
    .del 50,
    -- 156: tmp157 = einsum(v.bbbb.ovvv, (0, 1, 2, 3), t1.bb, (4, 3), (4, 0, 1, 2))
    .set 74 (.ein [(7, [0, 1, 2, 3]), (2, [4, 3])] [4, 0, 1, 2]) 1 1,
    -- 157: tmp30 = einsum(t1.bb, (0, 1), tmp29, (2, 3, 0, 1), (2, 3))
    .set 75 (.ein [(2, [0, 1]), (51, [2, 3, 0, 1])] [2, 3]) 1 1,
    -- 158: del tmp29
    .del 51,
    -- 159: tmp28 = einsum(t1.aa, (0, 1), v.aabb.ovoo, (0, 1, 2, 3), (2, 3))
    .set 76 (.ein [(3, [0, 1]), (15, [0, 1, 2, 3])] [2, 3]) 1 1,
    -- 160: tmp25 = einsum(t2.bbbb, (0, 1, 2, 3), v.bbbb.ovov, (4, 3, 1, 2), (0, 4)) * -1
    .set 77 (.ein [(13, [0, 1, 2, 3]), (0, [4, 3, 1, 2])] [0, 4]) (-1) 1,
    -- 161: tmp24 = einsum(t2.abab, (0, 1, 2, 3), v.aabb.ovov, (0, 2, 4, 3), (1, 4))
    .set 78 (.ein [(16, [0, 1, 2, 3]), (4, [0, 2, 4, 3])] [1, 4]) 1 1,
    -- 162: tmp148 = einsum(v.bbbb.ooov, (0, 1, 2, 3), t1.bb, (4, 3), (4, 0, 1, 2))
    .set 79 (.ein [(5, [0, 1, 2, 3]), (2, [4, 3])] [4, 0, 1, 2]) 1 1,
    -- 163: tmp6 = einsum(t2.abab, (0, 1, 2, 3), v.aabb.ovov, (4, 2, 1, 3), (0, 4))
    .set 80 (.ein [(16, [0, 1, 2, 3]), (4, [4, 2, 1, 3])] [0, 4]) 1 1,
    -- 164: tmp5 = einsum(t2.aaaa, (0, 1, 2, 3), v.aaaa.ovov, (4, 3, 1, 2), (0, 4)) * -1
    .set 81 (.ein [(17, [0, 1, 2, 3]), (1, [4, 3, 1, 2])] [0, 4]) (-1) 1,
    -- 165: tmp19 = einsum(t1.aa, (0, 1), tmp18, (0, 2, 3, 1), (2, 3))
    .set 82 (.ein [(3, [0, 1]), (52, [0, 2, 3, 1])] [2, 3]) 1 1,
    -- 166: tmp17 = einsum(v.aabb.ooov, (0, 1, 2, 3), t1.bb, (2, 3), (0, 1))
    .set 83 (.ein [(18, [0, 1, 2, 3]), (2, [2, 3])] [0, 1]) 1 1,
    -- 167: tmp40 = einsum(v.aaaa.ovov, (0, 1, 2, 3), t2.aaaa, (0, 2, 4, 3), (4, 1))
    .set 84 (.ein [(1, [0, 1, 2, 3]), (17, [0, 2, 4, 3])] [4, 1]) 1 1,
    -- 168: tmp39 = einsum(v.aabb.vvov, (0, 1, 2, 3), t1.bb, (2, 3), (0, 1))
    .set 85 (.ein [(19, [0, 1, 2, 3]), (2, [2, 3])] [0, 1]) 1 1,
    -- 169: tmp43 = einsum(t1.aa, (0, 1), tmp42, (0, 1, 2, 3), (2, 3))
    .set 86 (.ein [(3, [0, 1]), (53, [0, 1, 2, 3])] [2, 3]) 1 1,
    -- 170: del tmp42
    .del 53,
    -- 171: tmp41 = einsum(t2.abab, (0, 1, 2, 3), v.aabb.ovov, (0, 4, 1, 3), (2, 4))
    .set 87 (.ein [(16, [0, 1, 2, 3]), (4, [0, 4, 1, 3])] [2, 4]) 1 1,
    -- 172: tmp44 = einsum(t1.aa, (0, 1), tmp9, (0, 2), (1, 2))
    .set 88 (.ein [(3, [0, 1]), (54, [0, 2])] [1, 2]) 1 1,
    -- 173: tmp70 = einsum(t1.aa, (0, 1), tmp69, (2, 0, 3, 4), (2, 3, 1, 4))
    .set 89 (.ein [(3, [0, 1]), (55, [2, 0, 3, 4])] [2, 3, 1, 4]) 1 1,
    -- 174: del tmp69
    .del 55,
    -- 175: tmp68 = einsum(tmp67, (0, 1, 2, 3), t1.aa, (4, 1), (4, 0, 2, 3))
    .set 90 (.ein [(56, [0, 1, 2, 3]), (3, [4, 1])] [4, 0, 2, 3]) 1 1,
    -- 176: tmp81 = einsum(t2.abab, (0, 1, 2, 3), v.bbbb.ovov, (4, 5, 1, 3), (0, 4, 2, 5))
    .set 91 (.ein [(16, [0, 1, 2, 3]), (0, [4, 5, 1, 3])] [0, 4, 2, 5]) 1 1,
    -- 177: tmp80 = einsum(v.aabb.ooov, (0, 1, 2, 3), t1.aa, (1, 4), (0, 2, 4, 3))
    .set 92 (.ein [(18, [0, 1, 2, 3]), (3, [1, 4])] [0, 2, 4, 3]) 1 1,
    -- 178: tmp49 = einsum(t1.aa, (0, 1), v.aaaa.ooov, (2, 3, 4, 1), (0, 2, 3, 4))
    .set 93 (.ein [(3, [0, 1]), (9, [2, 3, 4, 1])] [0, 2, 3, 4]) 1 1,
    -- 179: tmp63 = einsum(v.aabb.vvov, (0, 1, 2, 3), t1.aa, (4, 1), (4, 2, 0, 3))
    .set 94 (.ein [(19, [0, 1, 2, 3]), (3, [4, 1])] [4, 2, 0, 3]) 1 1,
    -- 180: tmp64 = einsum(tmp1, (0, 1, 2, 3), t1.aa, (1, 4), (0, 2, 4, 3))
    .set 95 (.ein [(57, [0, 1, 2, 3]), (3, [1, 4])] [0, 2, 4, 3]) 1 1,
    -- 181: tmp55 = np.copy(f.aa.ov)
    .set 96 (.cp 12) 1 1,
    -- 182: tmp55 += tmp2
    .add 96 (.cp 41) 1 1,
    -- 183: tmp55 += tmp54 * -1
    .add 96 (.cp 58) (-1) 1,
    -- 184: del tmp54
    .del 58,
    -- 185: tmp85 = einsum(tmp0, (0, 1, 2, 3), t1.aa, (4, 3), (0, 4, 2, 1))
    .set 97 (.ein [(42, [0, 1, 2, 3]), (3, [4, 3])] [0, 4, 2, 1]) 1 1,
    -- 186: tmp58 = einsum(t1.aa, (0, 1), v.aaaa.ovvv, (2, 3, 4, 1), (0, 2, 3, 4))
    .set 98 (.ein [(3, [0, 1]), (11, [2, 3, 4, 1])] [0, 2, 3, 4]) 1 1,
    -- 187: tmp77 = einsum(tmp18, (0, 1, 2, 3), t1.aa, (0, 4), (1, 2, 4, 3))
    .set 99 (.ein [(52, [0, 1, 2, 3]), (3, [0, 4])] [1, 2, 4, 3]) 1 1,
    -- 188: del tmp18
    .del 52,
    -- 189: tmp37 = einsum(v.aaaa.ovov, (0, 1, 2, 3), t2.aaaa, (4, 2, 5, 3), (4, 0, 5, 1))
    .set 100 (.ein [(1, [0, 1, 2, 3]), (17, [4, 2, 5, 3])] [4, 0, 5, 1]) 1 1,
    -- 190: tmp175 = np.copy(v.bbbb.oovv) * -1
    .set 101 (.cp 20) (-1) 1,
    -- 191: tmp175 += tmp126
    .add 101 (.cp 59) 1 1,
    -- 192: tmp175 += tmp174 * -1
    .add 101 (.cp 60) (-1) 1,
    -- 193: del tmp174
    .del 60,
    -- 194: tmp181 = einsum(t1.bb, (0, 1), v.bbbb.vvvv, (2, 3, 4, 1), (0, 2, 3, 4))
    .set 102 (.ein [(2, [0, 1]), (21, [2, 3, 4, 1])] [0, 2, 3, 4]) 1 1,
    -- 195: tmp159 = np.copy(v.bbbb.ovvv)
    .set 103 (.cp 7) 1 1,
    -- 196: tmp159 += np.transpose(v.bbbb.ovvv, (0, 2, 1, 3)) * -1
    .add 103 (.tr 7 [0, 2, 1, 3]) (-1) 1,
    -- 197: tmp160 = np.copy(tmp22) * -1
    .set 104 (.cp 36) (-1) 1,
    -- 198: tmp160 += np.transpose(tmp22, (0, 2, 1, 3))
    .add 104 (.tr 36 [0, 2, 1, 3]) 1 1,
    -- 199: tmp136 = np.copy(tmp111)
    .set 105 (.cp 61) 1 1,
    -- 200: tmp136 += tmp112 * -1
    .add 105 (.cp 62) (-1) 1,
    -- 201: tmp187 = np.copy(v.bbbb.ovvv)
    .set 106 (.cp 7) 1 1,
    -- 202: tmp187 += einsum(v.bbbb.ovov, (0, 1, 2, 3), t1.bb, (2, 4), (0, 3, 1, 4))
    .add 106 (.ein [(0, [0, 1, 2, 3]), (2, [2, 4])] [0, 3, 1, 4]) 1 1,
    -- 203: tmp168 = np.copy(np.transpose(tmp165, (0, 1, 3, 2))) * -1
    .set 107 (.tr 63 [0, 1, 3, 2]) (-1) 1,
    -- 204: del tmp165
    .del 63,
    -- 205: tmp168 += tmp167 * -1
    .add 107 (.cp 64) (-1) 1,
    -- 206: del tmp167
    .del 64,
    -- 207: tmp177 = np.copy(tmp115)
    .set 108 (.cp 65) 1 1,
    -- 208: tmp177 += tmp98 * -0.5
    .add 108 (.cp 66) (-1) 2,
    -- 209: tmp106 = np.copy(f.bb.vv) * -1
    .set 109 (.cp 22) (-1) 1,
    -- 210: tmp106 += np.transpose(tmp100, (1, 0)) * -1
    .add 109 (.tr 71 [1, 0]) (-1) 1,
    -- 211: del tmp100
    .del 71,
    -- 212: tmp106 += np.transpose(tmp101, (1, 0)) * 0.5
    .add 109 (.tr 70 [1, 0]) 1 2,
    -- 213: del tmp101
    .del 70,
    -- 214: tmp106 += np.transpose(tmp102, (1, 0))
    .add 109 (.tr 69 [1, 0]) 1 1,
    -- 215: del tmp102
    .del 69,
    -- 216: tmp106 += np.transpose(tmp104, (1, 0)) * -1
    .add 109 (.tr 67 [1, 0]) (-1) 1,
    -- 217: del tmp104
    .del 67,
    -- 218: tmp106 += np.transpose(tmp105, (1, 0))
    .add 109 (.tr 68 [1, 0]) 1 1,
    -- 219: del tmp105
    .del 68,
    -- 220: tmp162 = np.copy(tmp111) * -1
    .set 110 (.cp 61) (-1) 1,
    -- 221: tmp162 += tmp112
    .add 110 (.cp 62) 1 1,
    -- 222: tmp183 = einsum(t1.bb, (0, 1), tmp179, (2, 3, 0, 4), (3, 2, 4, 1))
    .set 111 (.ein [(2, [0, 1]), (72, [2, 3, 0, 4])] [3, 2, 4, 1]) 1 1,
    -- 223: tmp146 = einsum(v.bbbb.oovv, (0, 1, 2, 3), t1.bb, (4, 3), (4, 0, 1, 2))
    .set 112 (.ein [(20, [0, 1, 2, 3]), (2, [4, 3])] [4, 0, 1, 2]) 1 1,
    -- 224: tmp155 = einsum(tmp154, (0, 1), t1.bb, (2, 1), (2, 0))
    .set 113 (.ein [(73, [0, 1]), (2, [2, 1])] [2, 0]) 1 1,
    -- 225: del tmp154
    .del 73,
    -- 226: tmp185 = einsum(tmp157, (0, 1, 2, 3), t1.bb, (4, 2), (4, 0, 1, 3))
    .set 114 (.ein [(74, [0, 1, 2, 3]), (2, [4, 2])] [4, 0, 1, 3]) 1 1,
    -- 227: tmp96 = np.copy(f.bb.oo)
    .set 115 (.cp 23) 1 1,
    -- 228: tmp96 += np.transpose(tmp28, (1, 0))
    .add 115 (.tr 76 [1, 0]) 1 1,
    -- 229: tmp96 += np.transpose(tmp24, (1, 0)) * 0.5
    .add 115 (.tr 78 [1, 0]) 1 2,
    -- 230: tmp96 += np.transpose(tmp25, (1, 0))
    .add 115 (.tr 77 [1, 0]) 1 1,
    -- 231: tmp96 += np.transpose(tmp30, (1, 0)) * -1
    .add 115 (.tr 75 [1, 0]) (-1) 1,
    -- 232: tmp99 = einsum(v.aabb.ovov, (0, 1, 2, 3), t2.bbbb, (4, 2, 5, 3), (0, 4, 1, 5))
    .set 116 (.ein [(4, [0, 1, 2, 3]), (13, [4, 2, 5, 3])] [0, 4, 1, 5]) 1 1,
    -- 233: tmp150 = einsum(t1.bb, (0, 1), tmp148, (2, 3, 4, 0), (2, 4, 3, 1))
    .set 117 (.ein [(2, [0, 1]), (79, [2, 3, 4, 0])] [2, 4, 3, 1]) 1 1,
    -- 234: tmp123 = einsum(t2.aaaa, (0, 1, 2, 3), v.aabb.ovov, (1, 3, 4, 5), (0, 4, 2, 5))
    .set 118 (.ein [(17, [0, 1, 2, 3]), (4, [1, 3, 4, 5])] [0, 4, 2, 5]) 1 1,
    -- 235: tmp113 = einsum(v.aabb.vvov, (0, 1, 2, 3), t1.bb, (4, 3), (4, 2, 0, 1))
    .set 119 (.ein [(19, [0, 1, 2, 3]), (2, [4, 3])] [4, 2, 0, 1]) 1 1,
    -- 236: tmp121 = np.copy(v.aaaa.ooov)
    .set 120 (.cp 9) 1 1,
    -- 237: tmp121 += np.transpose(v.aaaa.ooov, (0, 2, 1, 3)) * -1
    .add 120 (.tr 9 [0, 2, 1, 3]) (-1) 1,
    -- 238: tmp38 = einsum(t2.abab, (0, 1, 2, 3), v.aabb.ovov, (4, 5, 1, 3), (0, 4, 2, 5))
    .set 121 (.ein [(16, [0, 1, 2, 3]), (4, [4, 5, 1, 3])] [0, 4, 2, 5]) 1 1,
    -- 239: tmp130 = np.copy(np.transpose(v.aabb.vvov, (2, 0, 1, 3)))
    .set 122 (.tr 19 [2, 0, 1, 3]) 1 1,
    -- 240: tmp130 += einsum(t1.aa, (0, 1), v.aabb.ovov, (0, 2, 3, 4), (3, 1, 2, 4)) * -1
    .add 122 (.ein [(3, [0, 1]), (4, [0, 2, 3, 4])] [3, 1, 2, 4]) (-1) 1,
    -- 241: tmp127 = np.copy(v.bbbb.ooov)
    .set 123 (.cp 5) 1 1,
    -- 242: tmp127 += np.transpose(v.bbbb.ooov, (0, 2, 1, 3)) * -1
    .add 123 (.tr 5 [0, 2, 1, 3]) (-1) 1,
    -- 243: tmp125 = einsum(t2.abab, (0, 1, 2, 3), v.aabb.ovov, (0, 2, 4, 5), (1, 4, 3, 5))
    .set 124 (.ein [(16, [0, 1, 2, 3]), (4, [0, 2, 4, 5])] [1, 4, 3, 5]) 1 1,
    -- 244: tmp133 = np.copy(v.bbbb.ovvv) * -1
    .set 125 (.cp 7) (-1) 1,
    -- 245: tmp133 += np.transpose(v.bbbb.ovvv, (0, 2, 1, 3))
    .add 125 (.tr 7 [0, 2, 1, 3]) 1 1,
    -- 246: tmp134 = np.copy(tmp22)
    .set 126 (.cp 36) 1 1,
    -- 247: tmp134 += np.transpose(tmp22, (0, 2, 1, 3)) * -1
    .add 126 (.tr 36 [0, 2, 1, 3]) (-1) 1,
    -- 248: tmp35 = np.copy(f.aa.oo)
    .set 127 (.cp 24) 1 1,
    -- 249: tmp35 += np.transpose(tmp17, (1, 0))
    .add 127 (.tr 83 [1, 0]) 1 1,
    -- 250: tmp35 += np.transpose(tmp5, (1, 0))
    .add 127 (.tr 81 [1, 0]) 1 1,
    -- 251: tmp35 += np.transpose(tmp6, (1, 0)) * 0.5
    .add 127 (.tr 80 [1, 0]) 1 2,
    -- 252: tmp35 += np.transpose(tmp19, (1, 0)) * -1
    .add 127 (.tr 82 [1, 0]) (-1) 1,
    -- 253: tmp45 = np.copy(f.aa.vv) * -1
    .set 128 (.cp 25) (-1) 1,
    -- 254: tmp45 += np.transpose(tmp39, (1, 0)) * -1
    .add 128 (.tr 85 [1, 0]) (-1) 1,
    -- 255: del tmp39
    .del 85,
    -- 256: tmp45 += np.transpose(tmp40, (1, 0))
    .add 128 (.tr 84 [1, 0]) 1 1,
    -- 257: del tmp40
    .del 84,
    -- 258: tmp45 += np.transpose(tmp41, (1, 0)) * 0.5
    .add 128 (.tr 87 [1, 0]) 1 2,
    -- 259: del tmp41
    .del 87,
    -- 260: tmp45 += np.transpose(tmp43, (1, 0)) * -1
    .add 128 (.tr 86 [1, 0]) (-1) 1,
    -- 261: del tmp43
    .del 86,
    -- 262: tmp45 += np.transpose(tmp44, (1, 0))
    .add 128 (.tr 88 [1, 0]) 1 1,
    -- 263: del tmp44
    .del 88,
    -- 264: tmp71 = np.copy(np.transpose(tmp68, (0, 1, 3, 2))) * -1
    .set 129 (.tr 90 [0, 1, 3, 2]) (-1) 1,
    -- 265: del tmp68
    .del 90,
    -- 266: tmp71 += tmp70 * -1
    .add 129 (.cp 89) (-1) 1,
    -- 267: tmp83 = np.copy(tmp80) * 2
    .set 130 (.cp 92) 2 1,
    -- 268: tmp83 += tmp81 * -1
    .add 130 (.cp 91) (-1) 1,
    -- 269: tmp33 = einsum(v.aaaa.oooo, (0, 1, 2, 3), t1.aa, (3, 4), (0, 1, 2, 4))
    .set 131 (.ein [(26, [0, 1, 2, 3]), (3, [3, 4])] [0, 1, 2, 4]) 1 1,
    -- 270: tmp51 = einsum(t1.aa, (0, 1), tmp49, (2, 3, 4, 0), (2, 4, 3, 1))
    .set 132 (.ein [(3, [0, 1]), (93, [2, 3, 4, 0])] [2, 4, 3, 1]) 1 1,
    -- 271: tmp93 = np.copy(v.aaaa.ovvv)
    .set 133 (.cp 11) 1 1,
    -- 272: tmp93 += einsum(t1.aa, (0, 1), v.aaaa.ovov, (2, 3, 0, 4), (2, 4, 1, 3))
    .add 133 (.ein [(3, [0, 1]), (1, [2, 3, 0, 4])] [2, 4, 1, 3]) 1 1,
    -- 273: tmp73 = np.copy(tmp63)
    .set 134 (.cp 94) 1 1,
    -- 274: tmp73 += tmp64 * -1
    .add 134 (.cp 95) (-1) 1,
    -- 275: tmp56 = einsum(t1.aa, (0, 1), tmp55, (2, 1), (0, 2))
    .set 135 (.ein [(3, [0, 1]), (96, [2, 1])] [0, 2]) 1 1,
    -- 276: del tmp55
    .del 96,
    -- 277: tmp87 = einsum(tmp85, (0, 1, 2, 3), t1.aa, (2, 4), (1, 0, 3, 4))
    .set 136 (.ein [(97, [0, 1, 2, 3]), (3, [2, 4])] [1, 0, 3, 4]) 1 1,
    -- 278: tmp89 = einsum(t1.aa, (0, 1), tmp58, (2, 3, 1, 4), (0, 2, 3, 4))
    .set 137 (.ein [(3, [0, 1]), (98, [2, 3, 1, 4])] [0, 2, 3, 4]) 1 1,
    -- 279: tmp91 = einsum(v.aaaa.vvvv, (0, 1, 2, 3), t1.aa, (4, 3), (4, 0, 1, 2))
    .set 138 (.ein [(27, [0, 1, 2, 3]), (3, [4, 3])] [4, 0, 1, 2]) 1 1,
    -- 280: tmp60 = np.copy(v.aaaa.ovvv) * -1
    .set 139 (.cp 11) (-1) 1,
    -- 281: tmp60 += np.transpose(v.aaaa.ovvv, (0, 2, 1, 3))
    .add 139 (.tr 11 [0, 2, 1, 3]) 1 1,
    -- 282: tmp61 = np.copy(tmp0)
    .set 140 (.cp 42) 1 1,
    -- 283: tmp61 += np.transpose(tmp0, (0, 2, 1, 3)) * -1
    .add 140 (.tr 42 [0, 2, 1, 3]) (-1) 1,
    -- 284: tmp47 = einsum(t1.aa, (0, 1), v.aaaa.oovv, (2, 3, 4, 1), (0, 2, 3, 4))
    .set 141 (.ein [(3, [0, 1]), (28, [2, 3, 4, 1])] [0, 2, 3, 4]) 1 1,
    -- 285: tmp78 = np.copy(v.aaaa.oovv) * -1
    .set 142 (.cp 28) (-1) 1,
    -- 286: tmp78 += tmp37
    .add 142 (.cp 100) 1 1,
    -- 287: tmp78 += tmp77 * -1
    .add 142 (.cp 99) (-1) 1,
    -- 288: del tmp77
    .del 99,
    -- 289: tmp65 = np.copy(tmp63) * -1
    .set 143 (.cp 94) (-1) 1,
    -- 290: del tmp63
    .del 94,
    -- 291: tmp65 += tmp64
    .add 143 (.cp 95) 1 1,
    -- 292: tmp10 = einsum(t1.aa, (0, 1), tmp9, (2, 1), (0, 2))
    .set 144 (.ein [(3, [0, 1]), (54, [2, 1])] [0, 2]) 1 1,
    -- 293: tmp176 = einsum(tmp175, (0, 1, 2, 3), t2.bbbb, (4, 1, 5, 3), (4, 0, 5, 2)) * 2
    .set 145 (.ein [(101, [0, 1, 2, 3]), (13, [4, 1, 5, 3])] [4, 0, 5, 2]) 2 1,
    -- 294: del tmp175
    .del 101,
    -- 295: tmp182 = einsum(tmp181, (0, 1, 2, 3), t1.bb, (4, 2), (4, 0, 1, 3))
    .set 146 (.ein [(102, [0, 1, 2, 3]), (2, [4, 2])] [4, 0, 1, 3]) 1 1,
    -- 296: del tmp181
    .del 102,
    -- 297: tmp161 = einsum(tmp159, (0, 1, 2, 3), t1.bb, (4, 2), (4, 0, 3, 1)) * -1
    .set 147 (.ein [(103, [0, 1, 2, 3]), (2, [4, 2])] [4, 0, 3, 1]) (-1) 1,
    -- 298: del tmp159
    .del 103,
    -- 299: tmp161 += einsum(tmp160, (0, 1, 2, 3), t1.bb, (2, 4), (0, 1, 4, 3)) * -1
    .add 147 (.ein [(104, [0, 1, 2, 3]), (2, [2, 4])] [0, 1, 4, 3]) (-1) 1,
    -- 300: del tmp160
    .del 104,
    -- 301: tmp170 = einsum(t2.abab, (0, 1, 2, 3), tmp136, (0, 4, 2, 5), (1, 4, 3, 5))
    .set 148 (.ein [(16, [0, 1, 2, 3]), (105, [0, 4, 2, 5])] [1, 4, 3, 5]) 1 1,
    -- 302: tmp188 = np.copy(v.bbbb.vvvv) * -1
    .set 149 (.cp 21) (-1) 1,
    -- 303: tmp188 += einsum(t1.bb, (0, 1), tmp187, (0, 2, 3, 4), (2, 1, 4, 3))
    .add 149 (.ein [(2, [0, 1]), (106, [0, 2, 3, 4])] [2, 1, 4, 3]) 1 1,
    -- 304: del tmp187
    .del 106,
    -- 305: tmp158 = einsum(tmp22, (0, 1, 2, 3), t1.bb, (2, 4), (0, 1, 4, 3))
    .set 150 (.ein [(36, [0, 1, 2, 3]), (2, [2, 4])] [0, 1, 4, 3]) 1 1,
    -- 306: tmp171 = einsum(t1.bb, (0, 1), v.bbbb.ooov, (2, 0, 3, 4), (2, 3, 1, 4))
    .set 151 (.ein [(2, [0, 1]), (5, [2, 0, 3, 4])] [2, 3, 1, 4]) 1 1,
    -- 307: tmp169 = einsum(tmp168, (0, 1, 2, 3), t2.bbbb, (4, 1, 5, 3), (4, 0, 5, 2))
    .set 152 (.ein [(107, [0, 1, 2, 3]), (13, [4, 1, 5, 3])] [4, 0, 5, 2]) 1 1,
    -- 308: del tmp168
    .del 107,
    -- 309: tmp178 = einsum(t2.abab, (0, 1, 2, 3), tmp177, (0, 4, 2, 5), (1, 4, 3, 5))
    .set 153 (.ein [(16, [0, 1, 2, 3]), (108, [0, 4, 2, 5])] [1, 4, 3, 5]) 1 1,
    -- 310: del tmp177
    .del 108,
    -- 311: tmp145 = einsum(t2.bbbb, (0, 1, 2, 3), tmp106, (3, 4), (0, 1, 2, 4)) * -2
    .set 154 (.ein [(13, [0, 1, 2, 3]), (109, [3, 4])] [0, 1, 2, 4]) (-2) 1,
    -- 312: tmp143 = einsum(v.bbbb.oooo, (0, 1, 2, 3), t2.bbbb, (3, 1, 4, 5), (0, 2, 4, 5)) * -1
    .set 155 (.ein [(29, [0, 1, 2, 3]), (13, [3, 1, 4, 5])] [0, 2, 4, 5]) (-1) 1,
    -- 313: tmp180 = einsum(tmp179, (0, 1, 2, 3), t2.bbbb, (2, 3, 4, 5), (1, 0, 4, 5)) * -1
    .set 156 (.ein [(72, [0, 1, 2, 3]), (13, [2, 3, 4, 5])] [1, 0, 4, 5]) (-1) 1,
    -- 314: del tmp179
    .del 72,
    -- 315: tmp163 = einsum(t2.abab, (0, 1, 2, 3), tmp162, (0, 4, 2, 5), (1, 4, 3, 5))
    .set 157 (.ein [(16, [0, 1, 2, 3]), (110, [0, 4, 2, 5])] [1, 4, 3, 5]) 1 1,
    -- 316: del tmp162
    .del 110,
    -- 317: tmp184 = einsum(t1.bb, (0, 1), tmp183, (2, 3, 0, 4), (2, 3, 1, 4))
    .set 158 (.ein [(2, [0, 1]), (111, [2, 3, 0, 4])] [2, 3, 1, 4]) 1 1,
    -- 318: del tmp183
    .del 111,
    -- 319: tmp147 = einsum(tmp146, (0, 1, 2, 3), t1.bb, (2, 4), (0, 1, 4, 3))
    .set 159 (.ein [(112, [0, 1, 2, 3]), (2, [2, 4])] [0, 1, 4, 3]) 1 1,
    -- 320: del tmp146
    .del 112,
    -- 321: tmp156 = einsum(t2.bbbb, (0, 1, 2, 3), tmp155, (4, 1), (0, 4, 2, 3)) * -1
    .set 160 (.ein [(13, [0, 1, 2, 3]), (113, [4, 1])] [0, 4, 2, 3]) (-1) 1,
    -- 322: del tmp155
    .del 113,
    -- 323: tmp149 = einsum(tmp148, (0, 1, 2, 3), t2.bbbb, (3, 2, 4, 5), (0, 1, 4, 5)) * -1
    .set 161 (.ein [(79, [0, 1, 2, 3]), (13, [3, 2, 4, 5])] [0, 1, 4, 5]) (-1) 1,
    -- 324: del tmp148
    .del 79,
    -- 325: tmp142 = np.copy(t2.bbbb)
    .set 162 (.cp 13) 1 1,
    -- 326: tmp142 += einsum(t1.bb, (0, 1), t1.bb, (2, 3), (2, 0, 3, 1)) * 2
    .add 162 (.ein [(2, [0, 1]), (2, [2, 3])] [2, 0, 3, 1]) 2 1,
    -- 327: tmp144 = einsum(t1.bb, (0, 1), t1.bb, (2, 3), (0, 2, 3, 1)) * 2
    .set 163 (.ein [(2, [0, 1]), (2, [2, 3])] [0, 2, 3, 1]) 2 1,
    -- 328: tmp144 += t2.bbbb * -1
    .add 163 (.cp 13) (-1) 1,
    -- 329: tmp186 = einsum(t1.bb, (0, 1), tmp185, (2, 3, 0, 4), (2, 3, 1, 4))
    .set 164 (.ein [(2, [0, 1]), (114, [2, 3, 0, 4])] [2, 3, 1, 4]) 1 1,
    -- 330: del tmp185
    .del 114,
    -- 331: tmp189 = einsum(v.bbbb.ovvv, (0, 1, 2, 3), t2.bbbb, (4, 5, 3, 1), (4, 5, 0, 2)) * -1
    .set 165 (.ein [(7, [0, 1, 2, 3]), (13, [4, 5, 3, 1])] [4, 5, 0, 2]) (-1) 1,
    -- 332: tmp107 = einsum(tmp16, (0, 1), t1.bb, (2, 1), (2, 0))
    .set 166 (.ein [(49, [0, 1]), (2, [2, 1])] [2, 0]) 1 1,
    -- 333: tmp141 = einsum(t2.bbbb, (0, 1, 2, 3), tmp96, (1, 4), (0, 4, 2, 3)) * -1
    .set 167 (.ein [(13, [0, 1, 2, 3]), (115, [1, 4])] [0, 4, 2, 3]) (-1) 1,
    -- 334: tmp172 = einsum(t2.abab, (0, 1, 2, 3), tmp99, (0, 4, 2, 5), (1, 4, 3, 5))
    .set 168 (.ein [(16, [0, 1, 2, 3]), (116, [0, 4, 2, 5])] [1, 4, 3, 5]) 1 1,
    -- 335: tmp151 = einsum(tmp150, (0, 1, 2, 3), t1.bb, (1, 4), (0, 2, 4, 3))
    .set 169 (.ein [(117, [0, 1, 2, 3]), (2, [1, 4])] [0, 2, 4, 3]) 1 1,
    -- 336: del tmp150
    .del 117,
    -- 337: tmp124 = np.copy(tmp80) * -1
    .set 170 (.cp 92) (-1) 1,
    -- 338: tmp124 += tmp123
    .add 170 (.cp 118) 1 1,
    -- 339: tmp124 += tmp81 * 0.5
    .add 170 (.cp 91) 1 2,
    -- 340: tmp129 = np.copy(tmp115) * -1
    .set 171 (.cp 65) (-1) 1,
    -- 341: tmp129 += tmp98 * 0.5
    .add 171 (.cp 66) 1 2,
    -- 342: tmp129 += tmp99
    .add 171 (.cp 116) 1 1,
    -- 343: tmp118 = einsum(t1.aa, (0, 1), tmp113, (2, 3, 4, 1), (0, 2, 3, 4))
    .set 172 (.ein [(3, [0, 1]), (119, [2, 3, 4, 1])] [0, 2, 3, 4]) 1 1,
    -- 344: tmp114 = np.copy(np.transpose(tmp113, (0, 1, 3, 2)))
    .set 173 (.tr 119 [0, 1, 3, 2]) 1 1,
    -- 345: del tmp113
    .del 119,
    -- 346: tmp114 += einsum(tmp21, (0, 1, 2, 3), t1.aa, (0, 4), (1, 2, 3, 4)) * -1
    .add 173 (.ein [(45, [0, 1, 2, 3]), (3, [0, 4])] [1, 2, 3, 4]) (-1) 1,
    -- 347: tmp132 = einsum(tmp67, (0, 1, 2, 3), t1.aa, (4, 2), (4, 0, 1, 3)) * -1
    .set 174 (.ein [(56, [0, 1, 2, 3]), (3, [4, 2])] [4, 0, 1, 3]) (-1) 1,
    -- 348: del tmp67
    .del 56,
    -- 349: tmp132 += np.transpose(tmp70, (0, 1, 3, 2))
    .add 174 (.tr 89 [0, 1, 3, 2]) 1 1,
    -- 350: del tmp70
    .del 89,
    -- 351: tmp97 = np.copy(t2.abab)
    .set 175 (.cp 16) 1 1,
    -- 352: tmp97 += einsum(t1.aa, (0, 1), t1.bb, (2, 3), (0, 2, 1, 3)) * 2
    .add 175 (.ein [(3, [0, 1]), (2, [2, 3])] [0, 2, 1, 3]) 2 1,
    -- 353: tmp3 = np.copy(t2.abab)
    .set 176 (.cp 16) 1 1,
    -- 354: tmp3 += einsum(t1.aa, (0, 1), t1.bb, (2, 3), (0, 2, 1, 3))
    .add 176 (.ein [(3, [0, 1]), (2, [2, 3])] [0, 2, 1, 3]) 1 1,
    -- 355: tmp122 = np.copy(v.aaaa.oovv) * -1
    .set 177 (.cp 28) (-1) 1,
    -- 356: tmp122 += np.transpose(tmp37, (1, 0, 3, 2))
    .add 177 (.tr 100 [1, 0, 3, 2]) 1 1,
    -- 357: tmp122 += np.transpose(tmp38, (1, 0, 3, 2)) * 0.5
    .add 177 (.tr 121 [1, 0, 3, 2]) 1 2,
    -- 358: tmp122 += einsum(tmp121, (0, 1, 2, 3), t1.aa, (2, 4), (1, 0, 3, 4))
    .add 177 (.ein [(120, [0, 1, 2, 3]), (3, [2, 4])] [1, 0, 3, 4]) 1 1,
    -- 359: del tmp121
    .del 120,
    -- 360: tmp120 = einsum(t1.aa, (0, 1), tmp21, (2, 3, 4, 1), (0, 2, 3, 4))
    .set 178 (.ein [(3, [0, 1]), (45, [2, 3, 4, 1])] [0, 2, 3, 4]) 1 1,
    -- 361: tmp109 = einsum(t1.aa, (0, 1), v.aabb.vvoo, (2, 1, 3, 4), (0, 3, 4, 2))
    .set 179 (.ein [(3, [0, 1]), (30, [2, 1, 3, 4])] [0, 3, 4, 2]) 1 1,
    -- 362: tmp137 = einsum(t1.aa, (0, 1), v.aabb.ovvv, (2, 1, 3, 4), (0, 2, 3, 4))
    .set 180 (.ein [(3, [0, 1]), (14, [2, 1, 3, 4])] [0, 2, 3, 4]) 1 1,
    -- 363: tmp137 += einsum(tmp1, (0, 1, 2, 3), t1.bb, (2, 4), (0, 1, 3, 4)) * -1
    .add 180 (.ein [(57, [0, 1, 2, 3]), (2, [2, 4])] [0, 1, 3, 4]) (-1) 1,
    -- 364: tmp139 = einsum(v.aabb.oovv, (0, 1, 2, 3), t1.bb, (4, 3), (0, 1, 4, 2))
    .set 181 (.ein [(31, [0, 1, 2, 3]), (2, [4, 3])] [0, 1, 4, 2]) 1 1,
    -- 365: tmp131 = np.copy(v.aabb.vvvv)
    .set 182 (.cp 32) 1 1,
    -- 366: tmp131 += einsum(tmp130, (0, 1, 2, 3), t1.bb, (0, 4), (2, 1, 3, 4)) * -1
    .add 182 (.ein [(122, [0, 1, 2, 3]), (2, [0, 4])] [2, 1, 3, 4]) (-1) 1,
    -- 367: del tmp130
    .del 122,
    -- 368: tmp108 = einsum(v.aabb.ooov, (0, 1, 2, 3), t1.bb, (4, 3), (0, 1, 4, 2))
    .set 183 (.ein [(18, [0, 1, 2, 3]), (2, [4, 3])] [0, 1, 4, 2]) 1 1,
    -- 369: tmp117 = np.copy(v.aabb.oovv)
    .set 184 (.cp 31) 1 1,
    -- 370: tmp117 += einsum(t1.bb, (0, 1), v.aabb.ooov, (2, 3, 0, 4), (2, 3, 4, 1)) * -1
    .add 184 (.ein [(2, [0, 1]), (18, [2, 3, 0, 4])] [2, 3, 4, 1]) (-1) 1,
    -- 371: tmp119 = np.copy(np.transpose(v.aabb.vvov, (2, 0, 1, 3)))
    .set 185 (.tr 19 [2, 0, 1, 3]) 1 1,
    -- 372: tmp119 += einsum(t1.bb, (0, 1), v.aabb.vvvv, (2, 3, 4, 1), (0, 2, 3, 4))
    .add 185 (.ein [(2, [0, 1]), (32, [2, 3, 4, 1])] [0, 2, 3, 4]) 1 1,
    -- 373: tmp128 = np.copy(v.bbbb.oovv) * -2
    .set 186 (.cp 20) (-2) 1,
    -- 374: tmp128 += np.transpose(tmp125, (1, 0, 3, 2))
    .add 186 (.tr 124 [1, 0, 3, 2]) 1 1,
    -- 375: tmp128 += np.transpose(tmp126, (1, 0, 3, 2)) * 2
    .add 186 (.tr 59 [1, 0, 3, 2]) 2 1,
    -- 376: tmp128 += einsum(tmp127, (0, 1, 2, 3), t1.bb, (2, 4), (1, 0, 3, 4)) * 2
    .add 186 (.ein [(123, [0, 1, 2, 3]), (2, [2, 4])] [1, 0, 3, 4]) 2 1,
    -- 377: del tmp127
    .del 123,
    -- 378: tmp140 = einsum(t1.aa, (0, 1), tmp111, (2, 3, 1, 4), (0, 2, 3, 4))
    .set 187 (.ein [(3, [0, 1]), (61, [2, 3, 1, 4])] [0, 2, 3, 4]) 1 1,
    -- 379: tmp138 = einsum(v.aabb.ovvv, (0, 1, 2, 3), t2.abab, (4, 5, 1, 3), (4, 0, 5, 2))
    .set 188 (.ein [(14, [0, 1, 2, 3]), (16, [4, 5, 1, 3])] [4, 0, 5, 2]) 1 1,
    -- 380: tmp116 = np.copy(np.transpose(v.aabb.vvoo, (2, 3, 0, 1)))
    .set 189 (.tr 30 [2, 3, 0, 1]) 1 1,
    -- 381: tmp116 += einsum(v.aabb.ovoo, (0, 1, 2, 3), t1.aa, (0, 4), (2, 3, 1, 4)) * -1
    .add 189 (.ein [(15, [0, 1, 2, 3]), (3, [0, 4])] [2, 3, 1, 4]) (-1) 1,
    -- 382: tmp110 = einsum(t1.aa, (0, 1), v.aabb.ovoo, (2, 1, 3, 4), (0, 2, 3, 4))
    .set 190 (.ein [(3, [0, 1]), (15, [2, 1, 3, 4])] [0, 2, 3, 4]) 1 1,
    -- 383: tmp135 = einsum(tmp133, (0, 1, 2, 3), t1.bb, (4, 2), (4, 0, 1, 3)) * -1
    .set 191 (.ein [(125, [0, 1, 2, 3]), (2, [4, 2])] [4, 0, 1, 3]) (-1) 1,
    -- 384: del tmp133
    .del 125,
    -- 385: tmp135 += einsum(tmp134, (0, 1, 2, 3), t1.bb, (1, 4), (0, 2, 3, 4))
    .add 191 (.ein [(126, [0, 1, 2, 3]), (2, [1, 4])] [0, 2, 3, 4]) 1 1,
    -- 386: del tmp134
    .del 126,
    -- 387: tmp36 = einsum(tmp35, (0, 1), t2.aaaa, (2, 0, 3, 4), (2, 1, 3, 4)) * -1
    .set 192 (.ein [(127, [0, 1]), (17, [2, 0, 3, 4])] [2, 1, 3, 4]) (-1) 1,
    -- 388: tmp46 = einsum(t2.aaaa, (0, 1, 2, 3), tmp45, (3, 4), (0, 1, 2, 4)) * -2
    .set 193 (.ein [(17, [0, 1, 2, 3]), (128, [3, 4])] [0, 1, 2, 4]) (-2) 1,
    -- 389: tmp76 = einsum(t2.aaaa, (0, 1, 2, 3), tmp38, (4, 1, 5, 3), (0, 4, 2, 5))
    .set 194 (.ein [(17, [0, 1, 2, 3]), (121, [4, 1, 5, 3])] [0, 4, 2, 5]) 1 1,
    -- 390: tmp72 = einsum(t2.aaaa, (0, 1, 2, 3), tmp71, (4, 1, 5, 3), (0, 4, 2, 5))
    .set 195 (.ein [(17, [0, 1, 2, 3]), (129, [4, 1, 5, 3])] [0, 4, 2, 5]) 1 1,
    -- 391: del tmp71
    .del 129,
    -- 392: tmp84 = einsum(t2.abab, (0, 1, 2, 3), tmp83, (4, 1, 5, 3), (0, 4, 2, 5)) * 0.5
    .set 196 (.ein [(16, [0, 1, 2, 3]), (130, [4, 1, 5, 3])] [0, 4, 2, 5]) 1 2,
    -- 393: del tmp83
    .del 130,
    -- 394: tmp34 = einsum(tmp33, (0, 1, 2, 3), t1.aa, (1, 4), (0, 2, 4, 3))
    .set 197 (.ein [(131, [0, 1, 2, 3]), (3, [1, 4])] [0, 2, 4, 3]) 1 1,
    -- 395: del tmp33
    .del 131,
    -- 396: tmp82 = np.copy(tmp80)
    .set 198 (.cp 92) 1 1,
    -- 397: tmp82 += tmp81 * -0.5
    .add 198 (.cp 91) (-1) 2,
    -- 398: tmp75 = einsum(t1.aa, (0, 1), v.aaaa.ooov, (2, 0, 3, 4), (2, 3, 1, 4))
    .set 199 (.ein [(3, [0, 1]), (9, [2, 0, 3, 4])] [2, 3, 1, 4]) 1 1,
    -- 399: tmp52 = einsum(tmp51, (0, 1, 2, 3), t1.aa, (1, 4), (0, 2, 4, 3))
    .set 200 (.ein [(132, [0, 1, 2, 3]), (3, [1, 4])] [0, 2, 4, 3]) 1 1,
    -- 400: del tmp51
    .del 132,
    -- 401: tmp50 = einsum(t2.aaaa, (0, 1, 2, 3), tmp49, (4, 5, 0, 1), (4, 5, 2, 3))
    .set 201 (.ein [(17, [0, 1, 2, 3]), (93, [4, 5, 0, 1])] [4, 5, 2, 3]) 1 1,
    -- 402: del tmp49
    .del 93,
    -- 403: tmp32 = einsum(t2.aaaa, (0, 1, 2, 3), v.aaaa.oooo, (4, 0, 5, 1), (4, 5, 2, 3))
    .set 202 (.ein [(17, [0, 1, 2, 3]), (26, [4, 0, 5, 1])] [4, 5, 2, 3]) 1 1,
    -- 404: tmp95 = einsum(v.aaaa.ovvv, (0, 1, 2, 3), t2.aaaa, (4, 5, 1, 3), (4, 5, 0, 2))
    .set 203 (.ein [(11, [0, 1, 2, 3]), (17, [4, 5, 1, 3])] [4, 5, 0, 2]) 1 1,
    -- 405: tmp94 = np.copy(v.aaaa.vvvv)
    .set 204 (.cp 27) 1 1,
    -- 406: tmp94 += einsum(tmp93, (0, 1, 2, 3), t1.aa, (0, 4), (3, 4, 2, 1))
    .add 204 (.ein [(133, [0, 1, 2, 3]), (3, [0, 4])] [3, 4, 2, 1]) 1 1,
    -- 407: del tmp93
    .del 133,
    -- 408: tmp86 = einsum(t2.aaaa, (0, 1, 2, 3), tmp85, (4, 5, 1, 0), (5, 4, 2, 3))
    .set 205 (.ein [(17, [0, 1, 2, 3]), (97, [4, 5, 1, 0])] [5, 4, 2, 3]) 1 1,
    -- 409: del tmp85
    .del 97,
    -- 410: tmp74 = einsum(t2.abab, (0, 1, 2, 3), tmp73, (4, 1, 5, 3), (0, 4, 2, 5))
    .set 206 (.ein [(16, [0, 1, 2, 3]), (134, [4, 1, 5, 3])] [0, 4, 2, 5]) 1 1,
    -- 411: tmp57 = einsum(t2.aaaa, (0, 1, 2, 3), tmp56, (4, 1), (0, 4, 2, 3)) * -1
    .set 207 (.ein [(17, [0, 1, 2, 3]), (135, [4, 1])] [0, 4, 2, 3]) (-1) 1,
    -- 412: tmp88 = einsum(tmp87, (0, 1, 2, 3), t1.aa, (2, 4), (0, 1, 4, 3))
    .set 208 (.ein [(136, [0, 1, 2, 3]), (3, [2, 4])] [0, 1, 4, 3]) 1 1,
    -- 413: del tmp87
    .del 136,
    -- 414: tmp90 = einsum(t1.aa, (0, 1), tmp89, (2, 3, 0, 4), (2, 3, 1, 4))
    .set 209 (.ein [(3, [0, 1]), (137, [2, 3, 0, 4])] [2, 3, 1, 4]) 1 1,
    -- 415: del tmp89
    .del 137,
    -- 416: tmp92 = einsum(t1.aa, (0, 1), tmp91, (2, 3, 1, 4), (0, 2, 3, 4))
    .set 210 (.ein [(3, [0, 1]), (138, [2, 3, 1, 4])] [0, 2, 3, 4]) 1 1,
    -- 417: del tmp91
    .del 138,
    -- 418: tmp62 = einsum(t1.aa, (0, 1), tmp60, (2, 1, 3, 4), (0, 2, 4, 3)) * -1
    .set 211 (.ein [(3, [0, 1]), (139, [2, 1, 3, 4])] [0, 2, 4, 3]) (-1) 1,
    -- 419: del tmp60
    .del 139,
    -- 420: tmp62 += einsum(tmp61, (0, 1, 2, 3), t1.aa, (1, 4), (0, 2, 4, 3)) * -1
    .add 211 (.ein [(140, [0, 1, 2, 3]), (3, [1, 4])] [0, 2, 4, 3]) (-1) 1,
    -- 421: del tmp61
    .del 140,
    -- 422: tmp59 = einsum(t1.aa, (0, 1), tmp0, (2, 3, 0, 4), (2, 3, 1, 4))
    .set 212 (.ein [(3, [0, 1]), (42, [2, 3, 0, 4])] [2, 3, 1, 4]) 1 1,
    -- 423: tmp48 = einsum(t1.aa, (0, 1), tmp47, (2, 3, 0, 4), (2, 3, 1, 4))
    .set 213 (.ein [(3, [0, 1]), (141, [2, 3, 0, 4])] [2, 3, 1, 4]) 1 1,
    -- 424: del tmp47
    .del 141,
    -- 425: tmp79 = einsum(t2.aaaa, (0, 1, 2, 3), tmp78, (4, 1, 5, 3), (0, 4, 2, 5)) * 2
    .set 214 (.ein [(17, [0, 1, 2, 3]), (142, [4, 1, 5, 3])] [0, 4, 2, 5]) 2 1,
    -- 426: del tmp78
    .del 142,
    -- 427: tmp66 = einsum(t2.abab, (0, 1, 2, 3), tmp65, (4, 1, 5, 3), (0, 4, 2, 5))
    .set 215 (.ein [(16, [0, 1, 2, 3]), (143, [4, 1, 5, 3])] [0, 4, 2, 5]) 1 1,
    -- 428: del tmp65
    .del 143,
    -- 429: tmp23 = np.copy(t2.bbbb) * 2
    .set 216 (.cp 13) 2 1,
    -- 430: tmp23 += einsum(t1.bb, (0, 1), t1.bb, (2, 3), (2, 0, 3, 1))
    .add 216 (.ein [(2, [0, 1]), (2, [2, 3])] [2, 0, 3, 1]) 1 1,
    -- 431: tmp27 = np.copy(f.bb.vv)
    .set 217 (.cp 22) 1 1,
    -- 432: tmp27 += einsum(v.bbbb.ovvv, (0, 1, 2, 3), t1.bb, (0, 3), (1, 2)) * -1
    .add 217 (.ein [(7, [0, 1, 2, 3]), (2, [0, 3])] [1, 2]) (-1) 1,
    -- 433: tmp26 = np.copy(np.transpose(tmp24, (1, 0))) * 0.5
    .set 218 (.tr 78 [1, 0]) 1 2,
    -- 434: del tmp24
    .del 78,
    -- 435: tmp26 += np.transpose(tmp25, (1, 0))
    .add 218 (.tr 77 [1, 0]) 1 1,
    -- 436: del tmp25
    .del 77,
    -- 437: tmp26 += einsum(tmp16, (0, 1), t1.bb, (2, 1), (0, 2)) * 0.5
    .add 218 (.ein [(49, [0, 1]), (2, [2, 1])] [0, 2]) 1 2,
    -- 438: tmp31 = np.copy(f.bb.oo)
    .set 219 (.cp 23) 1 1,
    -- 439: tmp31 += np.transpose(tmp28, (1, 0))
    .add 219 (.tr 76 [1, 0]) 1 1,
    -- 440: del tmp28
    .del 76,
    -- 441: tmp31 += np.transpose(tmp30, (1, 0)) * -1
    .add 219 (.tr 75 [1, 0]) (-1) 1,
    -- 442: del tmp30
    .del 75,
    -- 443: tmp12 = np.copy(f.aa.vv)
    .set 220 (.cp 25) 1 1,
    -- 444: tmp12 += einsum(t1.aa, (0, 1), v.aaaa.ovvv, (0, 2, 3, 1), (2, 3)) * -1
    .add 220 (.ein [(3, [0, 1]), (11, [0, 2, 3, 1])] [2, 3]) (-1) 1,
    -- 445: tmp11 = np.copy(np.transpose(tmp5, (1, 0))) * 2
    .set 221 (.tr 81 [1, 0]) 2 1,
    -- 446: del tmp5
    .del 81,
    -- 447: tmp11 += np.transpose(tmp6, (1, 0))
    .add 221 (.tr 80 [1, 0]) 1 1,
    -- 448: del tmp6
    .del 80,
    -- 449: tmp11 += np.transpose(tmp10, (1, 0))
    .add 221 (.tr 144 [1, 0]) 1 1,
    -- 450: tmp20 = np.copy(f.aa.oo)
    .set 222 (.cp 24) 1 1,
    -- 451: tmp20 += np.transpose(tmp17, (1, 0))
    .add 222 (.tr 83 [1, 0]) 1 1,
    -- 452: del tmp17
    .del 83,
    -- 453: tmp20 += np.transpose(tmp19, (1, 0)) * -1
    .add 222 (.tr 82 [1, 0]) (-1) 1,
    -- 454: del tmp19
    .del 82,
    -- 455: tmp4 = np.copy(t2.aaaa) * 2
    .set 223 (.cp 17) 2 1,
    -- 456: tmp4 += einsum(t1.aa, (0, 1), t1.aa, (2, 3), (0, 2, 1, 3))
    .add 223 (.ein [(3, [0, 1]), (3, [2, 3])] [0, 2, 1, 3]) 1 1,
    -- 457: t2new.bbbb = np.copy(np.transpose(tmp141, (0, 1, 3, 2))) * -2
    .set 224 (.tr 167 [0, 1, 3, 2]) (-2) 1,
    -- 458: t2new.bbbb += einsum(v.bbbb.oooo, (0, 1, 2, 3), tmp142, (3, 1, 4, 5), (0, 2, 5, 4)) * 0.5
    .add 224 (.ein [(29, [0, 1, 2, 3]), (162, [3, 1, 4, 5])] [0, 2, 5, 4]) 1 2,
    -- 459: del tmp142
    .del 162,
    -- 460: t2new.bbbb += np.transpose(tmp143, (1, 0, 3, 2))
    .add 224 (.tr 155 [1, 0, 3, 2]) 1 1,
    -- 461: del tmp143
    .del 155,
    -- 462: t2new.bbbb += np.transpose(tmp141, (1, 0, 3, 2)) * 2
    .add 224 (.tr 167 [1, 0, 3, 2]) 2 1,
    -- 463: del tmp141
    .del 167,
    -- 464: t2new.bbbb += einsum(v.bbbb.oooo, (0, 1, 2, 3), tmp144, (3, 1, 4, 5), (0, 2, 5, 4)) * -0.5
    .add 224 (.ein [(29, [0, 1, 2, 3]), (163, [3, 1, 4, 5])] [0, 2, 5, 4]) (-1) 2,
    -- 465: del tmp144
    .del 163,
    -- 466: t2new.bbbb += np.transpose(tmp126, (1, 0, 3, 2)) * 2
    .add 224 (.tr 59 [1, 0, 3, 2]) 2 1,
    -- 467: t2new.bbbb += np.transpose(tmp125, (1, 0, 3, 2))
    .add 224 (.tr 124 [1, 0, 3, 2]) 1 1,
    -- 468: t2new.bbbb += np.transpose(tmp145, (1, 0, 3, 2))
    .add 224 (.tr 154 [1, 0, 3, 2]) 1 1,
    -- 469: t2new.bbbb += np.transpose(tmp126, (1, 0, 2, 3)) * -2
    .add 224 (.tr 59 [1, 0, 2, 3]) (-2) 1,
    -- 470: t2new.bbbb += np.transpose(tmp125, (1, 0, 2, 3)) * -1
    .add 224 (.tr 124 [1, 0, 2, 3]) (-1) 1,
    -- 471: t2new.bbbb += np.transpose(tmp145, (1, 0, 2, 3)) * -1
    .add 224 (.tr 154 [1, 0, 2, 3]) (-1) 1,
    -- 472: del tmp145
    .del 154,
    -- 473: t2new.bbbb += np.transpose(tmp147, (1, 0, 3, 2))
    .add 224 (.tr 159 [1, 0, 3, 2]) 1 1,
    -- 474: t2new.bbbb += np.transpose(tmp149, (1, 0, 3, 2)) * -2
    .add 224 (.tr 161 [1, 0, 3, 2]) (-2) 1,
    -- 475: t2new.bbbb += np.transpose(tmp151, (1, 0, 2, 3))
    .add 224 (.tr 169 [1, 0, 2, 3]) 1 1,
    -- 476: t2new.bbbb += np.transpose(tmp151, (1, 0, 3, 2)) * -1
    .add 224 (.tr 169 [1, 0, 3, 2]) (-1) 1,
    -- 477: t2new.bbbb += einsum(t2.bbbb, (0, 1, 2, 3), tmp107, (4, 1), (0, 4, 2, 3)) * -1
    .add 224 (.ein [(13, [0, 1, 2, 3]), (166, [4, 1])] [0, 4, 2, 3]) (-1) 1,
    -- 478: t2new.bbbb += np.transpose(tmp147, (1, 0, 2, 3)) * -1
    .add 224 (.tr 159 [1, 0, 2, 3]) (-1) 1,
    -- 479: t2new.bbbb += np.transpose(tmp156, (0, 1, 3, 2)) * -1
    .add 224 (.tr 160 [0, 1, 3, 2]) (-1) 1,
    -- 480: t2new.bbbb += np.transpose(tmp147, (0, 1, 3, 2)) * -1
    .add 224 (.tr 159 [0, 1, 3, 2]) (-1) 1,
    -- 481: t2new.bbbb += np.transpose(tmp149, (0, 1, 3, 2)) * 2
    .add 224 (.tr 161 [0, 1, 3, 2]) 2 1,
    -- 482: del tmp149
    .del 161,
    -- 483: t2new.bbbb += tmp151 * -1
    .add 224 (.cp 169) (-1) 1,
    -- 484: t2new.bbbb += np.transpose(tmp151, (0, 1, 3, 2))
    .add 224 (.tr 169 [0, 1, 3, 2]) 1 1,
    -- 485: del tmp151
    .del 169,
    -- 486: t2new.bbbb += np.transpose(tmp156, (1, 0, 3, 2)) * 2
    .add 224 (.tr 160 [1, 0, 3, 2]) 2 1,
    -- 487: del tmp156
    .del 160,
    -- 488: t2new.bbbb += tmp147
    .add 224 (.cp 159) 1 1,
    -- 489: del tmp147
    .del 159,
    -- 490: t2new.bbbb += np.transpose(v.bbbb.ovov, (0, 2, 1, 3))
    .add 224 (.tr 0 [0, 2, 1, 3]) 1 1,
    -- 491: t2new.bbbb += np.transpose(tmp157, (1, 0, 2, 3))
    .add 224 (.tr 74 [1, 0, 2, 3]) 1 1,
    -- 492: t2new.bbbb += np.transpose(tmp158, (1, 0, 3, 2)) * -1
    .add 224 (.tr 150 [1, 0, 3, 2]) (-1) 1,
    -- 493: t2new.bbbb += einsum(tmp161, (0, 1, 2, 3), t2.bbbb, (4, 1, 5, 3), (4, 0, 2, 5)) * 2
    .add 224 (.ein [(147, [0, 1, 2, 3]), (13, [4, 1, 5, 3])] [4, 0, 2, 5]) 2 1,
    -- 494: del tmp161
    .del 147,
    -- 495: t2new.bbbb += np.transpose(tmp163, (0, 1, 3, 2))
    .add 224 (.tr 157 [0, 1, 3, 2]) 1 1,
    -- 496: t2new.bbbb += np.transpose(v.bbbb.ovov, (0, 2, 3, 1)) * -1
    .add 224 (.tr 0 [0, 2, 3, 1]) (-1) 1,
    -- 497: t2new.bbbb += tmp157 * -1
    .add 224 (.cp 74) (-1) 1,
    -- 498: t2new.bbbb += np.transpose(tmp158, (0, 1, 3, 2))
    .add 224 (.tr 150 [0, 1, 3, 2]) 1 1,
    -- 499: t2new.bbbb += np.transpose(tmp169, (1, 0, 3, 2)) * -2
    .add 224 (.tr 152 [1, 0, 3, 2]) (-2) 1,
    -- 500: t2new.bbbb += np.transpose(tmp170, (1, 0, 3, 2))
    .add 224 (.tr 148 [1, 0, 3, 2]) 1 1,
    -- 501: t2new.bbbb += np.transpose(tmp171, (0, 1, 3, 2))
    .add 224 (.tr 151 [0, 1, 3, 2]) 1 1,
    -- 502: t2new.bbbb += tmp172 * 2
    .add 224 (.cp 168) 2 1,
    -- 503: t2new.bbbb += np.transpose(tmp172, (1, 0, 3, 2)) * 2
    .add 224 (.tr 168 [1, 0, 3, 2]) 2 1,
    -- 504: t2new.bbbb += np.transpose(tmp176, (1, 0, 3, 2))
    .add 224 (.tr 145 [1, 0, 3, 2]) 1 1,
    -- 505: t2new.bbbb += np.transpose(tmp178, (1, 0, 3, 2)) * -1
    .add 224 (.tr 153 [1, 0, 3, 2]) (-1) 1,
    -- 506: t2new.bbbb += np.transpose(tmp171, (1, 0, 3, 2)) * -1
    .add 224 (.tr 151 [1, 0, 3, 2]) (-1) 1,
    -- 507: t2new.bbbb += np.transpose(tmp172, (0, 1, 3, 2)) * -2
    .add 224 (.tr 168 [0, 1, 3, 2]) (-2) 1,
    -- 508: t2new.bbbb += np.transpose(tmp172, (1, 0, 2, 3)) * -2
    .add 224 (.tr 168 [1, 0, 2, 3]) (-2) 1,
    -- 509: del tmp172
    .del 168,
    -- 510: t2new.bbbb += np.transpose(tmp176, (0, 1, 3, 2)) * -1
    .add 224 (.tr 145 [0, 1, 3, 2]) (-1) 1,
    -- 511: t2new.bbbb += np.transpose(tmp178, (0, 1, 3, 2))
    .add 224 (.tr 153 [0, 1, 3, 2]) 1 1,
    -- 512: t2new.bbbb += tmp171 * -1
    .add 224 (.cp 151) (-1) 1,
    -- 513: t2new.bbbb += np.transpose(tmp176, (1, 0, 2, 3)) * -1
    .add 224 (.tr 145 [1, 0, 2, 3]) (-1) 1,
    -- 514: t2new.bbbb += np.transpose(tmp178, (1, 0, 2, 3))
    .add 224 (.tr 153 [1, 0, 2, 3]) 1 1,
    -- 515: t2new.bbbb += np.transpose(tmp171, (1, 0, 2, 3))
    .add 224 (.tr 151 [1, 0, 2, 3]) 1 1,
    -- 516: del tmp171
    .del 151,
    -- 517: t2new.bbbb += tmp176
    .add 224 (.cp 145) 1 1,
    -- 518: del tmp176
    .del 145,
    -- 519: t2new.bbbb += tmp178 * -1
    .add 224 (.cp 153) (-1) 1,
    -- 520: del tmp178
    .del 153,
    -- 521: t2new.bbbb += np.transpose(tmp157, (0, 1, 3, 2))
    .add 224 (.tr 74 [0, 1, 3, 2]) 1 1,
    -- 522: t2new.bbbb += np.transpose(tmp180, (0, 1, 3, 2)) * -2
    .add 224 (.tr 156 [0, 1, 3, 2]) (-2) 1,
    -- 523: del tmp180
    .del 156,
    -- 524: t2new.bbbb += tmp182
    .add 224 (.cp 146) 1 1,
    -- 525: t2new.bbbb += np.transpose(tmp182, (0, 1, 3, 2)) * -1
    .add 224 (.tr 146 [0, 1, 3, 2]) (-1) 1,
    -- 526: del tmp182
    .del 146,
    -- 527: t2new.bbbb += tmp184
    .add 224 (.cp 158) 1 1,
    -- 528: t2new.bbbb += np.transpose(tmp184, (0, 1, 3, 2)) * -1
    .add 224 (.tr 158 [0, 1, 3, 2]) (-1) 1,
    -- 529: del tmp184
    .del 158,
    -- 530: t2new.bbbb += np.transpose(tmp186, (0, 1, 3, 2))
    .add 224 (.tr 164 [0, 1, 3, 2]) 1 1,
    -- 531: t2new.bbbb += np.transpose(tmp186, (1, 0, 3, 2)) * -1
    .add 224 (.tr 164 [1, 0, 3, 2]) (-1) 1,
    -- 532: t2new.bbbb += np.transpose(tmp157, (1, 0, 3, 2)) * -1
    .add 224 (.tr 74 [1, 0, 3, 2]) (-1) 1,
    -- 533: del tmp157
    .del 74,
    -- 534: t2new.bbbb += einsum(tmp188, (0, 1, 2, 3), t2.bbbb, (4, 5, 0, 3), (4, 5, 2, 1)) * 2
    .add 224 (.ein [(149, [0, 1, 2, 3]), (13, [4, 5, 0, 3])] [4, 5, 2, 1]) 2 1,
    -- 535: del tmp188
    .del 149,
    -- 536: t2new.bbbb += np.transpose(tmp126, (0, 1, 3, 2)) * -2
    .add 224 (.tr 59 [0, 1, 3, 2]) (-2) 1,
    -- 537: t2new.bbbb += np.transpose(tmp125, (0, 1, 3, 2)) * -1
    .add 224 (.tr 124 [0, 1, 3, 2]) (-1) 1,
    -- 538: t2new.bbbb += tmp126 * 2
    .add 224 (.cp 59) 2 1,
    -- 539: del tmp126
    .del 59,
    -- 540: t2new.bbbb += tmp125
    .add 224 (.cp 124) 1 1,
    -- 541: del tmp125
    .del 124,
    -- 542: t2new.bbbb += np.transpose(tmp158, (1, 0, 2, 3))
    .add 224 (.tr 150 [1, 0, 2, 3]) 1 1,
    -- 543: t2new.bbbb += tmp169 * -2
    .add 224 (.cp 152) (-2) 1,
    -- 544: t2new.bbbb += tmp163 * -1
    .add 224 (.cp 157) (-1) 1,
    -- 545: del tmp163
    .del 157,
    -- 546: t2new.bbbb += tmp158 * -1
    .add 224 (.cp 150) (-1) 1,
    -- 547: del tmp158
    .del 150,
    -- 548: t2new.bbbb += np.transpose(tmp169, (1, 0, 2, 3)) * 2
    .add 224 (.tr 152 [1, 0, 2, 3]) 2 1,
    -- 549: del tmp169
    .del 152,
    -- 550: t2new.bbbb += np.transpose(tmp170, (1, 0, 2, 3)) * -1
    .add 224 (.tr 148 [1, 0, 2, 3]) (-1) 1,
    -- 551: del tmp170
    .del 148,
    -- 552: t2new.bbbb += einsum(t1.bb, (0, 1), tmp189, (2, 3, 0, 4), (2, 3, 1, 4)) * -2
    .add 224 (.ein [(2, [0, 1]), (165, [2, 3, 0, 4])] [2, 3, 1, 4]) (-2) 1,
    -- 553: del tmp189
    .del 165,
    -- 554: t2new.bbbb += tmp186 * -1
    .add 224 (.cp 164) (-1) 1,
    -- 555: t2new.bbbb += np.transpose(tmp186, (1, 0, 2, 3))
    .add 224 (.tr 164 [1, 0, 2, 3]) 1 1,
    -- 556: del tmp186
    .del 164,
    -- 557: t2new.abab = einsum(t2.abab, (0, 1, 2, 3), tmp96, (1, 4), (0, 4, 2, 3)) * -1
    .set 225 (.ein [(16, [0, 1, 2, 3]), (115, [1, 4])] [0, 4, 2, 3]) (-1) 1,
    -- 558: del tmp96
    .del 115,
    -- 559: t2new.abab += einsum(tmp97, (0, 1, 2, 3), v.aabb.oooo, (4, 0, 5, 1), (4, 5, 2, 3)) * 0.5
    .add 225 (.ein [(175, [0, 1, 2, 3]), (33, [4, 0, 5, 1])] [4, 5, 2, 3]) 1 2,
    -- 560: del tmp97
    .del 175,
    -- 561: t2new.abab += einsum(t2.abab, (0, 1, 2, 3), v.aabb.oooo, (4, 0, 5, 1), (4, 5, 2, 3)) * 0.5
    .add 225 (.ein [(16, [0, 1, 2, 3]), (33, [4, 0, 5, 1])] [4, 5, 2, 3]) 1 2,
    -- 562: t2new.abab += einsum(t2.abab, (0, 1, 2, 3), tmp35, (0, 4), (4, 1, 2, 3)) * -1
    .add 225 (.ein [(16, [0, 1, 2, 3]), (127, [0, 4])] [4, 1, 2, 3]) (-1) 1,
    -- 563: del tmp35
    .del 127,
    -- 564: t2new.abab += tmp98
    .add 225 (.cp 66) 1 1,
    -- 565: del tmp98
    .del 66,
    -- 566: t2new.abab += tmp99 * 2
    .add 225 (.cp 116) 2 1,
    -- 567: del tmp99
    .del 116,
    -- 568: t2new.abab += einsum(t2.abab, (0, 1, 2, 3), tmp45, (2, 4), (0, 1, 4, 3)) * -1
    .add 225 (.ein [(16, [0, 1, 2, 3]), (128, [2, 4])] [0, 1, 4, 3]) (-1) 1,
    -- 569: del tmp45
    .del 128,
    -- 570: t2new.abab += einsum(tmp106, (0, 1), t2.abab, (2, 3, 4, 0), (2, 3, 4, 1)) * -1
    .add 225 (.ein [(109, [0, 1]), (16, [2, 3, 4, 0])] [2, 3, 4, 1]) (-1) 1,
    -- 571: del tmp106
    .del 109,
    -- 572: t2new.abab += einsum(t2.abab, (0, 1, 2, 3), tmp107, (4, 1), (0, 4, 2, 3)) * -1
    .add 225 (.ein [(16, [0, 1, 2, 3]), (166, [4, 1])] [0, 4, 2, 3]) (-1) 1,
    -- 573: del tmp107
    .del 166,
    -- 574: t2new.abab += einsum(tmp3, (0, 1, 2, 3), tmp108, (0, 4, 5, 1), (4, 5, 2, 3))
    .add 225 (.ein [(176, [0, 1, 2, 3]), (183, [0, 4, 5, 1])] [4, 5, 2, 3]) 1 1,
    -- 575: del tmp108
    .del 183,
    -- 576: t2new.abab += einsum(t1.bb, (0, 1), tmp109, (2, 3, 0, 4), (2, 3, 4, 1)) * -1
    .add 225 (.ein [(2, [0, 1]), (179, [2, 3, 0, 4])] [2, 3, 4, 1]) (-1) 1,
    -- 577: del tmp109
    .del 179,
    -- 578: t2new.abab += einsum(tmp56, (0, 1), t2.abab, (1, 2, 3, 4), (0, 2, 3, 4)) * -1
    .add 225 (.ein [(135, [0, 1]), (16, [1, 2, 3, 4])] [0, 2, 3, 4]) (-1) 1,
    -- 579: del tmp56
    .del 135,
    -- 580: t2new.abab += einsum(tmp3, (0, 1, 2, 3), tmp110, (4, 0, 1, 5), (4, 5, 2, 3))
    .add 225 (.ein [(176, [0, 1, 2, 3]), (190, [4, 0, 1, 5])] [4, 5, 2, 3]) 1 1,
    -- 581: del tmp110
    .del 190,
    -- 582: t2new.abab += tmp111
    .add 225 (.cp 61) 1 1,
    -- 583: del tmp111
    .del 61,
    -- 584: t2new.abab += tmp112 * -1
    .add 225 (.cp 62) (-1) 1,
    -- 585: del tmp112
    .del 62,
    -- 586: t2new.abab += np.transpose(v.aabb.ovov, (0, 2, 1, 3))
    .add 225 (.tr 4 [0, 2, 1, 3]) 1 1,
    -- 587: t2new.abab += einsum(t2.abab, (0, 1, 2, 3), tmp114, (4, 1, 2, 5), (0, 4, 5, 3)) * -1
    .add 225 (.ein [(16, [0, 1, 2, 3]), (173, [4, 1, 2, 5])] [0, 4, 5, 3]) (-1) 1,
    -- 588: del tmp114
    .del 173,
    -- 589: t2new.abab += tmp115 * -1
    .add 225 (.cp 65) (-1) 1,
    -- 590: del tmp115
    .del 65,
    -- 591: t2new.abab += einsum(t2.abab, (0, 1, 2, 3), tmp116, (1, 4, 2, 5), (0, 4, 5, 3)) * -1
    .add 225 (.ein [(16, [0, 1, 2, 3]), (189, [1, 4, 2, 5])] [0, 4, 5, 3]) (-1) 1,
    -- 592: del tmp116
    .del 189,
    -- 593: t2new.abab += tmp80 * -1
    .add 225 (.cp 92) (-1) 1,
    -- 594: del tmp80
    .del 92,
    -- 595: t2new.abab += einsum(t2.abab, (0, 1, 2, 3), tmp117, (0, 4, 3, 5), (4, 1, 2, 5)) * -1
    .add 225 (.ein [(16, [0, 1, 2, 3]), (184, [0, 4, 3, 5])] [4, 1, 2, 5]) (-1) 1,
    -- 596: del tmp117
    .del 184,
    -- 597: t2new.abab += einsum(t1.bb, (0, 1), tmp118, (2, 3, 0, 4), (2, 3, 4, 1)) * -1
    .add 225 (.ein [(2, [0, 1]), (172, [2, 3, 0, 4])] [2, 3, 4, 1]) (-1) 1,
    -- 598: del tmp118
    .del 172,
    -- 599: t2new.abab += einsum(t1.aa, (0, 1), tmp119, (2, 1, 3, 4), (0, 2, 3, 4))
    .add 225 (.ein [(3, [0, 1]), (185, [2, 1, 3, 4])] [0, 2, 3, 4]) 1 1,
    -- 600: del tmp119
    .del 185,
    -- 601: t2new.abab += einsum(tmp120, (0, 1, 2, 3), tmp3, (1, 3, 4, 5), (0, 2, 4, 5))
    .add 225 (.ein [(178, [0, 1, 2, 3]), (176, [1, 3, 4, 5])] [0, 2, 4, 5]) 1 1,
    -- 602: del tmp120
    .del 178,
    -- 603: t2new.abab += einsum(t2.abab, (0, 1, 2, 3), tmp122, (0, 4, 2, 5), (4, 1, 5, 3))
    .add 225 (.ein [(16, [0, 1, 2, 3]), (177, [0, 4, 2, 5])] [4, 1, 5, 3]) 1 1,
    -- 604: del tmp122
    .del 177,
    -- 605: t2new.abab += einsum(t2.bbbb, (0, 1, 2, 3), tmp124, (4, 1, 5, 3), (4, 0, 5, 2)) * 2
    .add 225 (.ein [(13, [0, 1, 2, 3]), (170, [4, 1, 5, 3])] [4, 0, 5, 2]) 2 1,
    -- 606: del tmp124
    .del 170,
    -- 607: t2new.abab += tmp81
    .add 225 (.cp 91) 1 1,
    -- 608: del tmp81
    .del 91,
    -- 609: t2new.abab += tmp123 * 2
    .add 225 (.cp 118) 2 1,
    -- 610: del tmp123
    .del 118,
    -- 611: t2new.abab += einsum(t2.abab, (0, 1, 2, 3), tmp128, (1, 4, 3, 5), (0, 4, 2, 5)) * 0.5
    .add 225 (.ein [(16, [0, 1, 2, 3]), (186, [1, 4, 3, 5])] [0, 4, 2, 5]) 1 2,
    -- 612: del tmp128
    .del 186,
    -- 613: t2new.abab += einsum(tmp129, (0, 1, 2, 3), t2.aaaa, (4, 0, 5, 2), (4, 1, 5, 3)) * 2
    .add 225 (.ein [(171, [0, 1, 2, 3]), (17, [4, 0, 5, 2])] [4, 1, 5, 3]) 2 1,
    -- 614: del tmp129
    .del 171,
    -- 615: t2new.abab += einsum(tmp131, (0, 1, 2, 3), t2.abab, (4, 5, 0, 2), (4, 5, 1, 3))
    .add 225 (.ein [(182, [0, 1, 2, 3]), (16, [4, 5, 0, 2])] [4, 5, 1, 3]) 1 1,
    -- 616: del tmp131
    .del 182,
    -- 617: t2new.abab += einsum(t2.abab, (0, 1, 2, 3), tmp132, (4, 0, 2, 5), (4, 1, 5, 3))
    .add 225 (.ein [(16, [0, 1, 2, 3]), (174, [4, 0, 2, 5])] [4, 1, 5, 3]) 1 1,
    -- 618: del tmp132
    .del 174,
    -- 619: t2new.abab += einsum(t2.bbbb, (0, 1, 2, 3), tmp73, (4, 1, 5, 3), (4, 0, 5, 2)) * 2
    .add 225 (.ein [(13, [0, 1, 2, 3]), (134, [4, 1, 5, 3])] [4, 0, 5, 2]) 2 1,
    -- 620: del tmp73
    .del 134,
    -- 621: t2new.abab += einsum(t2.abab, (0, 1, 2, 3), tmp135, (4, 1, 3, 5), (0, 4, 2, 5))
    .add 225 (.ein [(16, [0, 1, 2, 3]), (191, [4, 1, 3, 5])] [0, 4, 2, 5]) 1 1,
    -- 622: del tmp135
    .del 191,
    -- 623: t2new.abab += einsum(tmp136, (0, 1, 2, 3), t2.aaaa, (4, 0, 5, 2), (4, 1, 5, 3)) * 2
    .add 225 (.ein [(105, [0, 1, 2, 3]), (17, [4, 0, 5, 2])] [4, 1, 5, 3]) 2 1,
    -- 624: del tmp136
    .del 105,
    -- 625: t2new.abab += tmp64 * -1
    .add 225 (.cp 95) (-1) 1,
    -- 626: del tmp64
    .del 95,
    -- 627: t2new.abab += einsum(tmp137, (0, 1, 2, 3), t2.abab, (1, 4, 5, 2), (0, 4, 5, 3)) * -1
    .add 225 (.ein [(180, [0, 1, 2, 3]), (16, [1, 4, 5, 2])] [0, 4, 5, 3]) (-1) 1,
    -- 628: del tmp137
    .del 180,
    -- 629: t2new.abab += einsum(tmp138, (0, 1, 2, 3), t1.aa, (1, 4), (0, 2, 4, 3)) * -1
    .add 225 (.ein [(188, [0, 1, 2, 3]), (3, [1, 4])] [0, 2, 4, 3]) (-1) 1,
    -- 630: del tmp138
    .del 188,
    -- 631: t2new.abab += einsum(t1.aa, (0, 1), tmp139, (2, 0, 3, 4), (2, 3, 1, 4)) * -1
    .add 225 (.ein [(3, [0, 1]), (181, [2, 0, 3, 4])] [2, 3, 1, 4]) (-1) 1,
    -- 632: del tmp139
    .del 181,
    -- 633: t2new.abab += einsum(t1.aa, (0, 1), tmp140, (2, 0, 3, 4), (2, 3, 1, 4)) * -1
    .add 225 (.ein [(3, [0, 1]), (187, [2, 0, 3, 4])] [2, 3, 1, 4]) (-1) 1,
    -- 634: del tmp140
    .del 187,
    -- 635: t2new.aaaa = np.copy(np.transpose(tmp32, (1, 0, 3, 2))) * 2
    .set 226 (.tr 202 [1, 0, 3, 2]) 2 1,
    -- 636: del tmp32
    .del 202,
    -- 637: t2new.aaaa += tmp34
    .add 226 (.cp 197) 1 1,
    -- 638: t2new.aaaa += np.transpose(tmp36, (0, 1, 3, 2)) * -2
    .add 226 (.tr 192 [0, 1, 3, 2]) (-2) 1,
    -- 639: t2new.aaaa += np.transpose(tmp34, (0, 1, 3, 2)) * -1
    .add 226 (.tr 197 [0, 1, 3, 2]) (-1) 1,
    -- 640: del tmp34
    .del 197,
    -- 641: t2new.aaaa += np.transpose(tmp36, (1, 0, 3, 2)) * 2
    .add 226 (.tr 192 [1, 0, 3, 2]) 2 1,
    -- 642: del tmp36
    .del 192,
    -- 643: t2new.aaaa += np.transpose(tmp37, (1, 0, 3, 2)) * 2
    .add 226 (.tr 100 [1, 0, 3, 2]) 2 1,
    -- 644: t2new.aaaa += np.transpose(tmp38, (1, 0, 3, 2))
    .add 226 (.tr 121 [1, 0, 3, 2]) 1 1,
    -- 645: t2new.aaaa += np.transpose(tmp46, (1, 0, 3, 2))
    .add 226 (.tr 193 [1, 0, 3, 2]) 1 1,
    -- 646: t2new.aaaa += np.transpose(tmp37, (1, 0, 2, 3)) * -2
    .add 226 (.tr 100 [1, 0, 2, 3]) (-2) 1,
    -- 647: t2new.aaaa += np.transpose(tmp38, (1, 0, 2, 3)) * -1
    .add 226 (.tr 121 [1, 0, 2, 3]) (-1) 1,
    -- 648: t2new.aaaa += np.transpose(tmp46, (1, 0, 2, 3)) * -1
    .add 226 (.tr 193 [1, 0, 2, 3]) (-1) 1,
    -- 649: del tmp46
    .del 193,
    -- 650: t2new.aaaa += np.transpose(tmp48, (1, 0, 3, 2))
    .add 226 (.tr 213 [1, 0, 3, 2]) 1 1,
    -- 651: t2new.aaaa += np.transpose(tmp50, (1, 0, 3, 2)) * -2
    .add 226 (.tr 201 [1, 0, 3, 2]) (-2) 1,
    -- 652: t2new.aaaa += np.transpose(tmp52, (1, 0, 2, 3))
    .add 226 (.tr 200 [1, 0, 2, 3]) 1 1,
    -- 653: t2new.aaaa += np.transpose(tmp52, (1, 0, 3, 2)) * -1
    .add 226 (.tr 200 [1, 0, 3, 2]) (-1) 1,
    -- 654: t2new.aaaa += einsum(t2.aaaa, (0, 1, 2, 3), tmp10, (4, 1), (0, 4, 2, 3)) * -1
    .add 226 (.ein [(17, [0, 1, 2, 3]), (144, [4, 1])] [0, 4, 2, 3]) (-1) 1,
    -- 655: del tmp10
    .del 144,
    -- 656: t2new.aaaa += np.transpose(tmp48, (1, 0, 2, 3)) * -1
    .add 226 (.tr 213 [1, 0, 2, 3]) (-1) 1,
    -- 657: t2new.aaaa += np.transpose(tmp57, (0, 1, 3, 2)) * -1
    .add 226 (.tr 207 [0, 1, 3, 2]) (-1) 1,
    -- 658: t2new.aaaa += np.transpose(tmp48, (0, 1, 3, 2)) * -1
    .add 226 (.tr 213 [0, 1, 3, 2]) (-1) 1,
    -- 659: t2new.aaaa += np.transpose(tmp50, (0, 1, 3, 2)) * 2
    .add 226 (.tr 201 [0, 1, 3, 2]) 2 1,
    -- 660: del tmp50
    .del 201,
    -- 661: t2new.aaaa += tmp52 * -1
    .add 226 (.cp 200) (-1) 1,
    -- 662: t2new.aaaa += np.transpose(tmp52, (0, 1, 3, 2))
    .add 226 (.tr 200 [0, 1, 3, 2]) 1 1,
    -- 663: del tmp52
    .del 200,
    -- 664: t2new.aaaa += np.transpose(tmp57, (1, 0, 3, 2)) * 2
    .add 226 (.tr 207 [1, 0, 3, 2]) 2 1,
    -- 665: del tmp57
    .del 207,
    -- 666: t2new.aaaa += tmp48
    .add 226 (.cp 213) 1 1,
    -- 667: del tmp48
    .del 213,
    -- 668: t2new.aaaa += np.transpose(tmp58, (1, 0, 2, 3))
    .add 226 (.tr 98 [1, 0, 2, 3]) 1 1,
    -- 669: t2new.aaaa += np.transpose(tmp59, (1, 0, 3, 2)) * -1
    .add 226 (.tr 212 [1, 0, 3, 2]) (-1) 1,
    -- 670: t2new.aaaa += np.transpose(v.aaaa.ovov, (0, 2, 1, 3))
    .add 226 (.tr 1 [0, 2, 1, 3]) 1 1,
    -- 671: t2new.aaaa += einsum(tmp62, (0, 1, 2, 3), t2.aaaa, (4, 1, 5, 3), (4, 0, 2, 5)) * 2
    .add 226 (.ein [(211, [0, 1, 2, 3]), (17, [4, 1, 5, 3])] [4, 0, 2, 5]) 2 1,
    -- 672: del tmp62
    .del 211,
    -- 673: t2new.aaaa += np.transpose(tmp66, (0, 1, 3, 2))
    .add 226 (.tr 215 [0, 1, 3, 2]) 1 1,
    -- 674: t2new.aaaa += tmp58 * -1
    .add 226 (.cp 98) (-1) 1,
    -- 675: t2new.aaaa += np.transpose(tmp59, (0, 1, 3, 2))
    .add 226 (.tr 212 [0, 1, 3, 2]) 1 1,
    -- 676: t2new.aaaa += np.transpose(v.aaaa.ovov, (0, 2, 3, 1)) * -1
    .add 226 (.tr 1 [0, 2, 3, 1]) (-1) 1,
    -- 677: t2new.aaaa += np.transpose(tmp72, (1, 0, 3, 2)) * -2
    .add 226 (.tr 195 [1, 0, 3, 2]) (-2) 1,
    -- 678: t2new.aaaa += np.transpose(tmp74, (1, 0, 3, 2))
    .add 226 (.tr 206 [1, 0, 3, 2]) 1 1,
    -- 679: t2new.aaaa += np.transpose(tmp75, (0, 1, 3, 2))
    .add 226 (.tr 199 [0, 1, 3, 2]) 1 1,
    -- 680: t2new.aaaa += tmp76 * 2
    .add 226 (.cp 194) 2 1,
    -- 681: t2new.aaaa += np.transpose(tmp76, (1, 0, 3, 2)) * 2
    .add 226 (.tr 194 [1, 0, 3, 2]) 2 1,
    -- 682: t2new.aaaa += np.transpose(tmp79, (1, 0, 3, 2))
    .add 226 (.tr 214 [1, 0, 3, 2]) 1 1,
    -- 683: t2new.aaaa += einsum(tmp82, (0, 1, 2, 3), t2.abab, (4, 1, 5, 3), (0, 4, 2, 5)) * -1
    .add 226 (.ein [(198, [0, 1, 2, 3]), (16, [4, 1, 5, 3])] [0, 4, 2, 5]) (-1) 1,
    -- 684: del tmp82
    .del 198,
    -- 685: t2new.aaaa += np.transpose(tmp75, (1, 0, 3, 2)) * -1
    .add 226 (.tr 199 [1, 0, 3, 2]) (-1) 1,
    -- 686: t2new.aaaa += np.transpose(tmp76, (0, 1, 3, 2)) * -2
    .add 226 (.tr 194 [0, 1, 3, 2]) (-2) 1,
    -- 687: t2new.aaaa += np.transpose(tmp76, (1, 0, 2, 3)) * -2
    .add 226 (.tr 194 [1, 0, 2, 3]) (-2) 1,
    -- 688: del tmp76
    .del 194,
    -- 689: t2new.aaaa += np.transpose(tmp79, (0, 1, 3, 2)) * -1
    .add 226 (.tr 214 [0, 1, 3, 2]) (-1) 1,
    -- 690: t2new.aaaa += np.transpose(tmp84, (0, 1, 3, 2))
    .add 226 (.tr 196 [0, 1, 3, 2]) 1 1,
    -- 691: t2new.aaaa += tmp75 * -1
    .add 226 (.cp 199) (-1) 1,
    -- 692: t2new.aaaa += np.transpose(tmp79, (1, 0, 2, 3)) * -1
    .add 226 (.tr 214 [1, 0, 2, 3]) (-1) 1,
    -- 693: t2new.aaaa += np.transpose(tmp84, (1, 0, 2, 3))
    .add 226 (.tr 196 [1, 0, 2, 3]) 1 1,
    -- 694: t2new.aaaa += np.transpose(tmp75, (1, 0, 2, 3))
    .add 226 (.tr 199 [1, 0, 2, 3]) 1 1,
    -- 695: del tmp75
    .del 199,
    -- 696: t2new.aaaa += tmp79
    .add 226 (.cp 214) 1 1,
    -- 697: del tmp79
    .del 214,
    -- 698: t2new.aaaa += tmp84 * -1
    .add 226 (.cp 196) (-1) 1,
    -- 699: del tmp84
    .del 196,
    -- 700: t2new.aaaa += np.transpose(tmp86, (0, 1, 3, 2)) * -2
    .add 226 (.tr 205 [0, 1, 3, 2]) (-2) 1,
    -- 701: del tmp86
    .del 205,
    -- 702: t2new.aaaa += np.transpose(tmp58, (0, 1, 3, 2))
    .add 226 (.tr 98 [0, 1, 3, 2]) 1 1,
    -- 703: t2new.aaaa += tmp88
    .add 226 (.cp 208) 1 1,
    -- 704: t2new.aaaa += np.transpose(tmp88, (0, 1, 3, 2)) * -1
    .add 226 (.tr 208 [0, 1, 3, 2]) (-1) 1,
    -- 705: del tmp88
    .del 208,
    -- 706: t2new.aaaa += np.transpose(tmp90, (0, 1, 3, 2))
    .add 226 (.tr 209 [0, 1, 3, 2]) 1 1,
    -- 707: t2new.aaaa += np.transpose(tmp90, (1, 0, 3, 2)) * -1
    .add 226 (.tr 209 [1, 0, 3, 2]) (-1) 1,
    -- 708: t2new.aaaa += tmp92
    .add 226 (.cp 210) 1 1,
    -- 709: t2new.aaaa += np.transpose(tmp92, (0, 1, 3, 2)) * -1
    .add 226 (.tr 210 [0, 1, 3, 2]) (-1) 1,
    -- 710: del tmp92
    .del 210,
    -- 711: t2new.aaaa += np.transpose(tmp58, (1, 0, 3, 2)) * -1
    .add 226 (.tr 98 [1, 0, 3, 2]) (-1) 1,
    -- 712: del tmp58
    .del 98,
    -- 713: t2new.aaaa += einsum(t2.aaaa, (0, 1, 2, 3), tmp94, (2, 4, 5, 3), (0, 1, 5, 4)) * -2
    .add 226 (.ein [(17, [0, 1, 2, 3]), (204, [2, 4, 5, 3])] [0, 1, 5, 4]) (-2) 1,
    -- 714: del tmp94
    .del 204,
    -- 715: t2new.aaaa += np.transpose(tmp38, (0, 1, 3, 2)) * -1
    .add 226 (.tr 121 [0, 1, 3, 2]) (-1) 1,
    -- 716: t2new.aaaa += np.transpose(tmp37, (0, 1, 3, 2)) * -2
    .add 226 (.tr 100 [0, 1, 3, 2]) (-2) 1,
    -- 717: t2new.aaaa += tmp38
    .add 226 (.cp 121) 1 1,
    -- 718: del tmp38
    .del 121,
    -- 719: t2new.aaaa += tmp37 * 2
    .add 226 (.cp 100) 2 1,
    -- 720: del tmp37
    .del 100,
    -- 721: t2new.aaaa += np.transpose(tmp59, (1, 0, 2, 3))
    .add 226 (.tr 212 [1, 0, 2, 3]) 1 1,
    -- 722: t2new.aaaa += tmp72 * -2
    .add 226 (.cp 195) (-2) 1,
    -- 723: t2new.aaaa += tmp66 * -1
    .add 226 (.cp 215) (-1) 1,
    -- 724: del tmp66
    .del 215,
    -- 725: t2new.aaaa += tmp59 * -1
    .add 226 (.cp 212) (-1) 1,
    -- 726: del tmp59
    .del 212,
    -- 727: t2new.aaaa += np.transpose(tmp72, (1, 0, 2, 3)) * 2
    .add 226 (.tr 195 [1, 0, 2, 3]) 2 1,
    -- 728: del tmp72
    .del 195,
    -- 729: t2new.aaaa += np.transpose(tmp74, (1, 0, 2, 3)) * -1
    .add 226 (.tr 206 [1, 0, 2, 3]) (-1) 1,
    -- 730: del tmp74
    .del 206,
    -- 731: t2new.aaaa += einsum(tmp95, (0, 1, 2, 3), t1.aa, (2, 4), (0, 1, 4, 3)) * -2
    .add 226 (.ein [(203, [0, 1, 2, 3]), (3, [2, 4])] [0, 1, 4, 3]) (-2) 1,
    -- 732: del tmp95
    .del 203,
    -- 733: t2new.aaaa += tmp90 * -1
    .add 226 (.cp 209) (-1) 1,
    -- 734: t2new.aaaa += np.transpose(tmp90, (1, 0, 2, 3))
    .add 226 (.tr 209 [1, 0, 2, 3]) 1 1,
    -- 735: del tmp90
    .del 209,
    -- 736: t1new.bb = einsum(tmp21, (0, 1, 2, 3), t2.abab, (0, 2, 3, 4), (1, 4)) * -1
    .set 227 (.ein [(45, [0, 1, 2, 3]), (16, [0, 2, 3, 4])] [1, 4]) (-1) 1,
    -- 737: del tmp21
    .del 45,
    -- 738: t1new.bb += einsum(v.bbbb.ovov, (0, 1, 2, 3), t1.bb, (2, 3), (0, 1))
    .add 227 (.ein [(0, [0, 1, 2, 3]), (2, [2, 3])] [0, 1]) 1 1,
    -- 739: t1new.bb += f.bb.ov
    .add 227 (.cp 8) 1 1,
    -- 740: t1new.bb += einsum(t2.bbbb, (0, 1, 2, 3), tmp22, (4, 1, 0, 3), (4, 2)) * -2
    .add 227 (.ein [(13, [0, 1, 2, 3]), (36, [4, 1, 0, 3])] [4, 2]) (-2) 1,
    -- 741: del tmp22
    .del 36,
    -- 742: t1new.bb += tmp13
    .add 227 (.cp 38) 1 1,
    -- 743: del tmp13
    .del 38,
    -- 744: t1new.bb += einsum(v.aabb.ovvv, (0, 1, 2, 3), tmp3, (0, 4, 1, 3), (4, 2))
    .add 227 (.ein [(14, [0, 1, 2, 3]), (176, [0, 4, 1, 3])] [4, 2]) 1 1,
    -- 745: t1new.bb += einsum(v.bbbb.ovvv, (0, 1, 2, 3), tmp23, (0, 4, 1, 3), (4, 2))
    .add 227 (.ein [(7, [0, 1, 2, 3]), (216, [0, 4, 1, 3])] [4, 2]) 1 1,
    -- 746: del tmp23
    .del 216,
    -- 747: t1new.bb += einsum(t1.bb, (0, 1), tmp26, (0, 2), (2, 1)) * -2
    .add 227 (.ein [(2, [0, 1]), (218, [0, 2])] [2, 1]) (-2) 1,
    -- 748: del tmp26
    .del 218,
    -- 749: t1new.bb += einsum(t1.bb, (0, 1), tmp27, (1, 2), (0, 2))
    .add 227 (.ein [(2, [0, 1]), (217, [1, 2])] [0, 2]) 1 1,
    -- 750: del tmp27
    .del 217,
    -- 751: t1new.bb += einsum(v.bbbb.oovv, (0, 1, 2, 3), t1.bb, (1, 3), (0, 2)) * -1
    .add 227 (.ein [(20, [0, 1, 2, 3]), (2, [1, 3])] [0, 2]) (-1) 1,
    -- 752: t1new.bb += einsum(t2.bbbb, (0, 1, 2, 3), v.bbbb.ooov, (4, 0, 1, 3), (4, 2)) * -2
    .add 227 (.ein [(13, [0, 1, 2, 3]), (5, [4, 0, 1, 3])] [4, 2]) (-2) 1,
    -- 753: t1new.bb += einsum(v.aabb.ovoo, (0, 1, 2, 3), t2.abab, (0, 3, 1, 4), (2, 4)) * -1
    .add 227 (.ein [(15, [0, 1, 2, 3]), (16, [0, 3, 1, 4])] [2, 4]) (-1) 1,
    -- 754: t1new.bb += einsum(t2.abab, (0, 1, 2, 3), tmp9, (0, 2), (1, 3))
    .add 227 (.ein [(16, [0, 1, 2, 3]), (54, [0, 2])] [1, 3]) 1 1,
    -- 755: t1new.bb += einsum(t2.bbbb, (0, 1, 2, 3), tmp16, (1, 3), (0, 2)) * 2
    .add 227 (.ein [(13, [0, 1, 2, 3]), (49, [1, 3])] [0, 2]) 2 1,
    -- 756: t1new.bb += einsum(t1.bb, (0, 1), tmp31, (0, 2), (2, 1)) * -1
    .add 227 (.ein [(2, [0, 1]), (219, [0, 2])] [2, 1]) (-1) 1,
    -- 757: del tmp31
    .del 219,
    -- 758: t1new.aa = einsum(v.aaaa.ovov, (0, 1, 2, 3), t1.aa, (2, 3), (0, 1))
    .set 228 (.ein [(1, [0, 1, 2, 3]), (3, [2, 3])] [0, 1]) 1 1,
    -- 759: t1new.aa += einsum(t2.aaaa, (0, 1, 2, 3), tmp0, (4, 1, 0, 3), (4, 2)) * -2
    .add 228 (.ein [(17, [0, 1, 2, 3]), (42, [4, 1, 0, 3])] [4, 2]) (-2) 1,
    -- 760: del tmp0
    .del 42,
    -- 761: t1new.aa += f.aa.ov
    .add 228 (.cp 12) 1 1,
    -- 762: t1new.aa += einsum(tmp1, (0, 1, 2, 3), t2.abab, (1, 2, 4, 3), (0, 4)) * -1
    .add 228 (.ein [(57, [0, 1, 2, 3]), (16, [1, 2, 4, 3])] [0, 4]) (-1) 1,
    -- 763: del tmp1
    .del 57,
    -- 764: t1new.aa += tmp2
    .add 228 (.cp 41) 1 1,
    -- 765: del tmp2
    .del 41,
    -- 766: t1new.aa += einsum(v.aabb.vvov, (0, 1, 2, 3), tmp3, (4, 2, 1, 3), (4, 0))
    .add 228 (.ein [(19, [0, 1, 2, 3]), (176, [4, 2, 1, 3])] [4, 0]) 1 1,
    -- 767: del tmp3
    .del 176,
    -- 768: t1new.aa += einsum(v.aaaa.ovvv, (0, 1, 2, 3), tmp4, (0, 4, 1, 3), (4, 2))
    .add 228 (.ein [(11, [0, 1, 2, 3]), (223, [0, 4, 1, 3])] [4, 2]) 1 1,
    -- 769: del tmp4
    .del 223,
    -- 770: t1new.aa += einsum(t1.aa, (0, 1), tmp11, (0, 2), (2, 1)) * -1
    .add 228 (.ein [(3, [0, 1]), (221, [0, 2])] [2, 1]) (-1) 1,
    -- 771: del tmp11
    .del 221,
    -- 772: t1new.aa += einsum(tmp12, (0, 1), t1.aa, (2, 0), (2, 1))
    .add 228 (.ein [(220, [0, 1]), (3, [2, 0])] [2, 1]) 1 1,
    -- 773: del tmp12
    .del 220,
    -- 774: t1new.aa += einsum(v.aaaa.oovv, (0, 1, 2, 3), t1.aa, (1, 3), (0, 2)) * -1
    .add 228 (.ein [(28, [0, 1, 2, 3]), (3, [1, 3])] [0, 2]) (-1) 1,
    -- 775: t1new.aa += einsum(v.aabb.ooov, (0, 1, 2, 3), t2.abab, (1, 2, 4, 3), (0, 4)) * -1
    .add 228 (.ein [(18, [0, 1, 2, 3]), (16, [1, 2, 4, 3])] [0, 4]) (-1) 1,
    -- 776: t1new.aa += einsum(t2.aaaa, (0, 1, 2, 3), v.aaaa.ooov, (4, 0, 1, 3), (4, 2)) * -2
    .add 228 (.ein [(17, [0, 1, 2, 3]), (9, [4, 0, 1, 3])] [4, 2]) (-2) 1,
    -- 777: t1new.aa += einsum(t2.aaaa, (0, 1, 2, 3), tmp9, (1, 3), (0, 2)) * 2
    .add 228 (.ein [(17, [0, 1, 2, 3]), (54, [1, 3])] [0, 2]) 2 1,
    -- 778: del tmp9
    .del 54,
    -- 779: t1new.aa += einsum(tmp16, (0, 1), t2.abab, (2, 0, 3, 1), (2, 3))
    .add 228 (.ein [(49, [0, 1]), (16, [2, 0, 3, 1])] [2, 3]) 1 1,
    -- 780: del tmp16
    .del 49,
    -- 781: t1new.aa += einsum(tmp20, (0, 1), t1.aa, (0, 2), (1, 2)) * -1
    .add 228 (.ein [(222, [0, 1]), (3, [0, 2])] [1, 2]) (-1) 1,
    -- 782: del tmp20
    .del 222
  ]
  ret := [(chars! "t1new.bb", 227), (chars! "t1new.aa", 228), (chars! "t2new.bbbb", 224), (chars! "t2new.abab", 225), (chars! "t2new.aaaa", 226)]

end Ebcc.Gen.UDCSD
