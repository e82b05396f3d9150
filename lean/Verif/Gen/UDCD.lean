import Verif.Model.GenCode
/-!
Functions of `ebcc/codegen/UDCD.py`, written by `tools/gencode.py`.  Comments give the
number and the text of the line of each statement.
-/

set_option maxRecDepth 100000

namespace Ebcc.Gen.UDCD

/-- codegen/UDCD.py:19-40 `energy`. -/
def energy : GenFun where
  args := [chars! "v.aaaa.ovov", chars! "t2.aaaa", chars! "t2.abab", chars! "v.aabb.ovov", chars! "t2.bbbb", chars! "v.bbbb.ovov"]
  body := [
    -- 36: e_cc = einsum(v.aaaa.ovov, (0, 1, 2, 3), t2.aaaa, (0, 2, 1, 3), ())
    .set 6 (.ein [(0, [0, 1, 2, 3]), (1, [0, 2, 1, 3])] []) 1 1,
    -- 37: e_cc += einsum(t2.abab, (0, 1, 2, 3), v.aabb.ovov, (0, 2, 1, 3), ())
    .add 6 (.ein [(2, [0, 1, 2, 3]), (3, [0, 2, 1, 3])] []) 1 1,
    -- 38: e_cc += einsum(t2.bbbb, (0, 1, 2, 3), v.bbbb.ovov, (0, 3, 1, 2), ()) * -1
    .add 6 (.ein [(4, [0, 1, 2, 3]), (5, [0, 3, 1, 2])] []) (-1) 1
  ]
  ret := [(chars! "e_cc", 6)]

/-- codegen/UDCD.py:42-260 `update_amps`. -/
def update_amps : GenFun where
  args := [chars! "v.aabb.ovov", chars! "t2.abab", chars! "v.bbbb.ovov", chars! "t2.bbbb", chars! "v.aaaa.ovov", chars! "t2.aaaa", chars! "f.bb.oo", chars! "f.aa.vv", chars! "f.aa.oo", chars! "f.bb.vv", chars! "v.bbbb.vvvv", chars! "v.bbbb.oovv", chars! "v.bbbb.oooo", chars! "v.aabb.vvvv", chars! "v.aaaa.vvvv", chars! "v.aaaa.oooo", chars! "v.aaaa.oovv", chars! "v.aabb.oooo", chars! "v.aabb.oovv", chars! "v.aabb.vvoo"]
  body := [
    -- 63: tmp22 = einsum(v.aabb.ovov, (0, 1, 2, 3), t2.abab, (0, 4, 1, 3), (4, 2))
    .set 20 (.ein [(0, [0, 1, 2, 3]), (1, [0, 4, 1, 3])] [4, 2]) 1 1,
    -- 64: tmp23 = einsum(v.bbbb.ovov, (0, 1, 2, 3), t2.bbbb, (4, 2, 1, 3), (4, 0))
    .set 21 (.ein [(2, [0, 1, 2, 3]), (3, [4, 2, 1, 3])] [4, 0]) 1 1,
    -- 65: tmp35 = einsum(v.aaaa.ovov, (0, 1, 2, 3), t2.abab, (2, 4, 3, 5), (0, 4, 1, 5))
    .set 22 (.ein [(4, [0, 1, 2, 3]), (1, [2, 4, 3, 5])] [0, 4, 1, 5]) 1 1,
    -- 66: tmp33 = einsum(v.bbbb.ovov, (0, 1, 2, 3), t2.bbbb, (4, 2, 5, 3), (4, 0, 5, 1))
    .set 23 (.ein [(2, [0, 1, 2, 3]), (3, [4, 2, 5, 3])] [4, 0, 5, 1]) 1 1,
    -- 67: tmp9 = einsum(v.aabb.ovov, (0, 1, 2, 3), t2.abab, (0, 2, 4, 3), (4, 1))
    .set 24 (.ein [(0, [0, 1, 2, 3]), (1, [0, 2, 4, 3])] [4, 1]) 1 1,
    -- 68: tmp8 = einsum(t2.aaaa, (0, 1, 2, 3), v.aaaa.ovov, (0, 3, 1, 4), (2, 4)) * -1
    .set 25 (.ein [(5, [0, 1, 2, 3]), (4, [0, 3, 1, 4])] [2, 4]) (-1) 1,
    -- 69: tmp0 = einsum(v.aaaa.ovov, (0, 1, 2, 3), t2.aaaa, (4, 2, 1, 3), (4, 0))
    .set 26 (.ein [(4, [0, 1, 2, 3]), (5, [4, 2, 1, 3])] [4, 0]) 1 1,
    -- 70: tmp1 = einsum(t2.abab, (0, 1, 2, 3), v.aabb.ovov, (4, 2, 1, 3), (0, 4))
    .set 27 (.ein [(1, [0, 1, 2, 3]), (0, [4, 2, 1, 3])] [0, 4]) 1 1,
    -- 71: tmp14 = einsum(v.aaaa.ovov, (0, 1, 2, 3), t2.aaaa, (4, 2, 5, 3), (4, 0, 5, 1))
    .set 28 (.ein [(4, [0, 1, 2, 3]), (5, [4, 2, 5, 3])] [4, 0, 5, 1]) 1 1,
    -- 72: tmp17 = einsum(v.bbbb.ovov, (0, 1, 2, 3), t2.abab, (4, 2, 5, 3), (4, 0, 5, 1))
    .set 29 (.ein [(2, [0, 1, 2, 3]), (1, [4, 2, 5, 3])] [4, 0, 5, 1]) 1 1,
    -- 73: tmp27 = einsum(t2.abab, (0, 1, 2, 3), v.aabb.ovov, (0, 2, 1, 4), (3, 4))
    .set 30 (.ein [(1, [0, 1, 2, 3]), (0, [0, 2, 1, 4])] [3, 4]) 1 1,
    -- 74: tmp28 = einsum(t2.bbbb, (0, 1, 2, 3), v.bbbb.ovov, (0, 3, 1, 4), (2, 4)) * -1
    .set 31 (.ein [(3, [0, 1, 2, 3]), (2, [0, 3, 1, 4])] [2, 4]) (-1) 1,
    -- 75: tmp36 = einsum(t2.bbbb, (0, 1, 2, 3), v.aabb.ovov, (4, 5, 1, 3), (4, 0, 5, 2))
    .set 32 (.ein [(3, [0, 1, 2, 3]), (0, [4, 5, 1, 3])] [4, 0, 5, 2]) 1 1,
    -- 76: tmp38 = np.copy(f.bb.oo)
    .set 33 (.cp 6) 1 1,
    -- 77: tmp38 += tmp22 * 0.5
    .add 33 (.cp 20) 1 2,
    -- 78: tmp38 += tmp23
    .add 33 (.cp 21) 1 1,
    -- 79: tmp45 = np.copy(np.transpose(v.aabb.ovov, (0, 2, 1, 3))) * 2
    .set 34 (.tr 0 [0, 2, 1, 3]) 2 1,
    -- 80: tmp45 += tmp35
    .add 34 (.cp 22) 1 1,
    -- 81: tmp47 = np.copy(np.transpose(v.bbbb.ovov, (0, 2, 1, 3)))
    .set 35 (.tr 2 [0, 2, 1, 3]) 1 1,
    -- 82: tmp47 += tmp33
    .add 35 (.cp 23) 1 1,
    -- 83: tmp12 = einsum(v.aabb.ovov, (0, 1, 2, 3), t2.abab, (4, 2, 5, 3), (4, 0, 5, 1))
    .set 36 (.ein [(0, [0, 1, 2, 3]), (1, [4, 2, 5, 3])] [4, 0, 5, 1]) 1 1,
    -- 84: tmp10 = np.copy(f.aa.vv) * -1
    .set 37 (.cp 7) (-1) 1,
    -- 85: tmp10 += tmp8
    .add 37 (.cp 25) 1 1,
    -- 86: tmp10 += tmp9 * 0.5
    .add 37 (.cp 24) 1 2,
    -- 87: tmp5 = np.copy(f.aa.oo)
    .set 38 (.cp 8) 1 1,
    -- 88: tmp5 += tmp0
    .add 38 (.cp 26) 1 1,
    -- 89: tmp5 += tmp1 * 0.5
    .add 38 (.cp 27) 1 2,
    -- 90: tmp15 = np.copy(np.transpose(v.aaaa.ovov, (0, 2, 1, 3)))
    .set 39 (.tr 4 [0, 2, 1, 3]) 1 1,
    -- 91: tmp15 += tmp14
    .add 39 (.cp 28) 1 1,
    -- 92: tmp18 = np.copy(np.transpose(v.aabb.ovov, (0, 2, 1, 3))) * 2
    .set 40 (.tr 0 [0, 2, 1, 3]) 2 1,
    -- 93: tmp18 += tmp17
    .add 40 (.cp 29) 1 1,
    -- 94: tmp2 = np.copy(f.aa.oo) * 2
    .set 41 (.cp 8) 2 1,
    -- 95: tmp2 += tmp0 * 2
    .add 41 (.cp 26) 2 1,
    -- 96: tmp2 += tmp1
    .add 41 (.cp 27) 1 1,
    -- 97: tmp42 = np.copy(f.bb.vv) * -1
    .set 42 (.cp 9) (-1) 1,
    -- 98: tmp42 += tmp27 * 0.5
    .add 42 (.cp 30) 1 2,
    -- 99: tmp42 += tmp28
    .add 42 (.cp 31) 1 1,
    -- 100: tmp44 = einsum(t2.abab, (0, 1, 2, 3), tmp36, (0, 4, 2, 5), (1, 4, 3, 5))
    .set 43 (.ein [(1, [0, 1, 2, 3]), (32, [0, 4, 2, 5])] [1, 4, 3, 5]) 1 1,
    -- 101: tmp39 = einsum(tmp38, (0, 1), t2.bbbb, (2, 1, 3, 4), (0, 2, 3, 4)) * -1
    .set 44 (.ein [(33, [0, 1]), (3, [2, 1, 3, 4])] [0, 2, 3, 4]) (-1) 1,
    -- 102: del tmp38
    .del 33,
    -- 103: tmp46 = einsum(tmp45, (0, 1, 2, 3), t2.abab, (0, 4, 2, 5), (1, 4, 3, 5)) * 0.5
    .set 45 (.ein [(34, [0, 1, 2, 3]), (1, [0, 4, 2, 5])] [1, 4, 3, 5]) 1 2,
    -- 104: del tmp45
    .del 34,
    -- 105: tmp49 = einsum(v.bbbb.vvvv, (0, 1, 2, 3), t2.bbbb, (4, 5, 3, 1), (4, 5, 0, 2)) * -1
    .set 46 (.ein [(10, [0, 1, 2, 3]), (3, [4, 5, 3, 1])] [4, 5, 0, 2]) (-1) 1,
    -- 106: tmp41 = einsum(v.bbbb.oovv, (0, 1, 2, 3), t2.bbbb, (4, 1, 5, 3), (4, 0, 5, 2))
    .set 47 (.ein [(11, [0, 1, 2, 3]), (3, [4, 1, 5, 3])] [4, 0, 5, 2]) 1 1,
    -- 107: tmp48 = einsum(t2.bbbb, (0, 1, 2, 3), tmp47, (4, 1, 5, 3), (4, 0, 5, 2)) * 2
    .set 48 (.ein [(3, [0, 1, 2, 3]), (35, [4, 1, 5, 3])] [4, 0, 5, 2]) 2 1,
    -- 108: del tmp47
    .del 35,
    -- 109: tmp43 = np.copy(f.bb.vv) * -2
    .set 49 (.cp 9) (-2) 1,
    -- 110: tmp43 += tmp27
    .add 49 (.cp 30) 1 1,
    -- 111: tmp43 += tmp28 * 2
    .add 49 (.cp 31) 2 1,
    -- 112: tmp40 = einsum(v.bbbb.oooo, (0, 1, 2, 3), t2.bbbb, (3, 1, 4, 5), (0, 2, 4, 5)) * -1
    .set 50 (.ein [(12, [0, 1, 2, 3]), (3, [3, 1, 4, 5])] [0, 2, 4, 5]) (-1) 1,
    -- 113: tmp26 = np.copy(f.aa.vv) * -1
    .set 51 (.cp 7) (-1) 1,
    -- 114: tmp26 += np.transpose(tmp8, (1, 0))
    .add 51 (.tr 25 [1, 0]) 1 1,
    -- 115: del tmp8
    .del 25,
    -- 116: tmp26 += np.transpose(tmp9, (1, 0)) * 0.5
    .add 51 (.tr 24 [1, 0]) 1 2,
    -- 117: del tmp9
    .del 24,
    -- 118: tmp32 = einsum(v.aabb.vvvv, (0, 1, 2, 3), t2.abab, (4, 5, 1, 3), (4, 5, 0, 2))
    .set 52 (.ein [(13, [0, 1, 2, 3]), (1, [4, 5, 1, 3])] [4, 5, 0, 2]) 1 1,
    -- 119: tmp34 = np.copy(np.transpose(v.bbbb.ovov, (0, 2, 1, 3)))
    .set 53 (.tr 2 [0, 2, 1, 3]) 1 1,
    -- 120: tmp34 += einsum(t2.abab, (0, 1, 2, 3), v.aabb.ovov, (0, 2, 4, 5), (4, 1, 5, 3)) * 0.5
    .add 53 (.ein [(1, [0, 1, 2, 3]), (0, [0, 2, 4, 5])] [4, 1, 5, 3]) 1 2,
    -- 121: tmp34 += np.transpose(tmp33, (1, 0, 3, 2))
    .add 53 (.tr 23 [1, 0, 3, 2]) 1 1,
    -- 122: del tmp33
    .del 23,
    -- 123: tmp30 = np.copy(np.transpose(v.aabb.ovov, (0, 2, 1, 3))) * 2
    .set 54 (.tr 0 [0, 2, 1, 3]) 2 1,
    -- 124: tmp30 += einsum(t2.aaaa, (0, 1, 2, 3), v.aabb.ovov, (1, 3, 4, 5), (0, 4, 2, 5)) * 2
    .add 54 (.ein [(5, [0, 1, 2, 3]), (0, [1, 3, 4, 5])] [0, 4, 2, 5]) 2 1,
    -- 125: tmp30 += tmp17
    .add 54 (.cp 29) 1 1,
    -- 126: tmp25 = np.copy(f.aa.oo)
    .set 55 (.cp 8) 1 1,
    -- 127: tmp25 += np.transpose(tmp0, (1, 0))
    .add 55 (.tr 26 [1, 0]) 1 1,
    -- 128: del tmp0
    .del 26,
    -- 129: tmp25 += np.transpose(tmp1, (1, 0)) * 0.5
    .add 55 (.tr 27 [1, 0]) 1 2,
    -- 130: del tmp1
    .del 27,
    -- 131: tmp24 = np.copy(f.bb.oo)
    .set 56 (.cp 6) 1 1,
    -- 132: tmp24 += np.transpose(tmp22, (1, 0)) * 0.5
    .add 56 (.tr 20 [1, 0]) 1 2,
    -- 133: del tmp22
    .del 20,
    -- 134: tmp24 += np.transpose(tmp23, (1, 0))
    .add 56 (.tr 21 [1, 0]) 1 1,
    -- 135: del tmp23
    .del 21,
    -- 136: tmp31 = np.copy(np.transpose(v.aaaa.ovov, (0, 2, 1, 3)))
    .set 57 (.tr 4 [0, 2, 1, 3]) 1 1,
    -- 137: tmp31 += np.transpose(tmp14, (1, 0, 3, 2))
    .add 57 (.tr 28 [1, 0, 3, 2]) 1 1,
    -- 138: del tmp14
    .del 28,
    -- 139: tmp31 += np.transpose(tmp12, (1, 0, 3, 2)) * 0.5
    .add 57 (.tr 36 [1, 0, 3, 2]) 1 2,
    -- 140: tmp29 = np.copy(f.bb.vv) * -1
    .set 58 (.cp 9) (-1) 1,
    -- 141: tmp29 += np.transpose(tmp27, (1, 0)) * 0.5
    .add 58 (.tr 30 [1, 0]) 1 2,
    -- 142: del tmp27
    .del 30,
    -- 143: tmp29 += np.transpose(tmp28, (1, 0))
    .add 58 (.tr 31 [1, 0]) 1 1,
    -- 144: del tmp28
    .del 31,
    -- 145: tmp37 = np.copy(np.transpose(v.aabb.ovov, (0, 2, 1, 3)))
    .set 59 (.tr 0 [0, 2, 1, 3]) 1 1,
    -- 146: tmp37 += tmp35 * 0.5
    .add 59 (.cp 22) 1 2,
    -- 147: del tmp35
    .del 22,
    -- 148: tmp37 += tmp36
    .add 59 (.cp 32) 1 1,
    -- 149: del tmp36
    .del 32,
    -- 150: tmp21 = einsum(v.aaaa.vvvv, (0, 1, 2, 3), t2.aaaa, (4, 5, 1, 3), (4, 5, 0, 2))
    .set 60 (.ein [(14, [0, 1, 2, 3]), (5, [4, 5, 1, 3])] [4, 5, 0, 2]) 1 1,
    -- 151: tmp11 = einsum(tmp10, (0, 1), t2.aaaa, (2, 3, 4, 1), (2, 3, 4, 0)) * -2
    .set 61 (.ein [(37, [0, 1]), (5, [2, 3, 4, 1])] [2, 3, 4, 0]) (-2) 1,
    -- 152: del tmp10
    .del 37,
    -- 153: tmp6 = einsum(tmp5, (0, 1), t2.aaaa, (2, 1, 3, 4), (2, 0, 3, 4)) * -1
    .set 62 (.ein [(38, [0, 1]), (5, [2, 1, 3, 4])] [2, 0, 3, 4]) (-1) 1,
    -- 154: del tmp5
    .del 38,
    -- 155: tmp13 = einsum(tmp12, (0, 1, 2, 3), t2.aaaa, (4, 1, 5, 3), (4, 0, 5, 2))
    .set 63 (.ein [(36, [0, 1, 2, 3]), (5, [4, 1, 5, 3])] [4, 0, 5, 2]) 1 1,
    -- 156: del tmp12
    .del 36,
    -- 157: tmp20 = np.copy(np.transpose(v.aabb.ovov, (0, 2, 1, 3)))
    .set 64 (.tr 0 [0, 2, 1, 3]) 1 1,
    -- 158: tmp20 += tmp17 * 0.5
    .add 64 (.cp 29) 1 2,
    -- 159: del tmp17
    .del 29,
    -- 160: tmp16 = einsum(t2.aaaa, (0, 1, 2, 3), tmp15, (4, 1, 5, 3), (0, 4, 2, 5)) * 2
    .set 65 (.ein [(5, [0, 1, 2, 3]), (39, [4, 1, 5, 3])] [0, 4, 2, 5]) 2 1,
    -- 161: del tmp15
    .del 39,
    -- 162: tmp19 = einsum(t2.abab, (0, 1, 2, 3), tmp18, (4, 1, 5, 3), (0, 4, 2, 5)) * 0.5
    .set 66 (.ein [(1, [0, 1, 2, 3]), (40, [4, 1, 5, 3])] [0, 4, 2, 5]) 1 2,
    -- 163: del tmp18
    .del 40,
    -- 164: tmp4 = einsum(t2.aaaa, (0, 1, 2, 3), v.aaaa.oooo, (4, 0, 5, 1), (4, 5, 2, 3))
    .set 67 (.ein [(5, [0, 1, 2, 3]), (15, [4, 0, 5, 1])] [4, 5, 2, 3]) 1 1,
    -- 165: tmp7 = einsum(v.aaaa.oovv, (0, 1, 2, 3), t2.aaaa, (4, 1, 5, 3), (4, 0, 5, 2))
    .set 68 (.ein [(16, [0, 1, 2, 3]), (5, [4, 1, 5, 3])] [4, 0, 5, 2]) 1 1,
    -- 166: tmp3 = einsum(tmp2, (0, 1), t2.aaaa, (2, 1, 3, 4), (2, 0, 3, 4)) * -0.5
    .set 69 (.ein [(41, [0, 1]), (5, [2, 1, 3, 4])] [2, 0, 3, 4]) (-1) 2,
    -- 167: del tmp2
    .del 41,
    -- 168: t2new.bbbb = np.copy(np.transpose(tmp39, (1, 0, 3, 2))) * -2
    .set 70 (.tr 44 [1, 0, 3, 2]) (-2) 1,
    -- 169: t2new.bbbb += np.transpose(tmp40, (1, 0, 3, 2)) * 2
    .add 70 (.tr 50 [1, 0, 3, 2]) 2 1,
    -- 170: del tmp40
    .del 50,
    -- 171: t2new.bbbb += np.transpose(tmp39, (0, 1, 3, 2)) * 2
    .add 70 (.tr 44 [0, 1, 3, 2]) 2 1,
    -- 172: del tmp39
    .del 44,
    -- 173: t2new.bbbb += np.transpose(tmp41, (1, 0, 3, 2)) * -2
    .add 70 (.tr 47 [1, 0, 3, 2]) (-2) 1,
    -- 174: t2new.bbbb += einsum(t2.bbbb, (0, 1, 2, 3), tmp42, (4, 3), (0, 1, 4, 2)) * 2
    .add 70 (.ein [(3, [0, 1, 2, 3]), (42, [4, 3])] [0, 1, 4, 2]) 2 1,
    -- 175: del tmp42
    .del 42,
    -- 176: t2new.bbbb += np.transpose(tmp41, (1, 0, 2, 3)) * 2
    .add 70 (.tr 47 [1, 0, 2, 3]) 2 1,
    -- 177: t2new.bbbb += einsum(t2.bbbb, (0, 1, 2, 3), tmp43, (4, 3), (0, 1, 2, 4)) * -1
    .add 70 (.ein [(3, [0, 1, 2, 3]), (49, [4, 3])] [0, 1, 2, 4]) (-1) 1,
    -- 178: del tmp43
    .del 49,
    -- 179: t2new.bbbb += np.transpose(v.bbbb.ovov, (0, 2, 1, 3))
    .add 70 (.tr 2 [0, 2, 1, 3]) 1 1,
    -- 180: t2new.bbbb += tmp44 * 2
    .add 70 (.cp 43) 2 1,
    -- 181: t2new.bbbb += np.transpose(tmp44, (1, 0, 3, 2)) * 2
    .add 70 (.tr 43 [1, 0, 3, 2]) 2 1,
    -- 182: t2new.bbbb += tmp46
    .add 70 (.cp 45) 1 1,
    -- 183: t2new.bbbb += tmp48
    .add 70 (.cp 48) 1 1,
    -- 184: t2new.bbbb += np.transpose(v.bbbb.ovov, (0, 2, 3, 1)) * -1
    .add 70 (.tr 2 [0, 2, 3, 1]) (-1) 1,
    -- 185: t2new.bbbb += np.transpose(tmp44, (0, 1, 3, 2)) * -2
    .add 70 (.tr 43 [0, 1, 3, 2]) (-2) 1,
    -- 186: t2new.bbbb += np.transpose(tmp44, (1, 0, 2, 3)) * -2
    .add 70 (.tr 43 [1, 0, 2, 3]) (-2) 1,
    -- 187: del tmp44
    .del 43,
    -- 188: t2new.bbbb += np.transpose(tmp46, (0, 1, 3, 2)) * -1
    .add 70 (.tr 45 [0, 1, 3, 2]) (-1) 1,
    -- 189: t2new.bbbb += np.transpose(tmp48, (0, 1, 3, 2)) * -1
    .add 70 (.tr 48 [0, 1, 3, 2]) (-1) 1,
    -- 190: t2new.bbbb += np.transpose(tmp49, (1, 0, 3, 2)) * 2
    .add 70 (.tr 46 [1, 0, 3, 2]) 2 1,
    -- 191: del tmp49
    .del 46,
    -- 192: t2new.bbbb += np.transpose(tmp46, (1, 0, 3, 2))
    .add 70 (.tr 45 [1, 0, 3, 2]) 1 1,
    -- 193: t2new.bbbb += np.transpose(tmp48, (1, 0, 3, 2))
    .add 70 (.tr 48 [1, 0, 3, 2]) 1 1,
    -- 194: t2new.bbbb += tmp41 * -2
    .add 70 (.cp 47) (-2) 1,
    -- 195: t2new.bbbb += np.transpose(tmp46, (1, 0, 2, 3)) * -1
    .add 70 (.tr 45 [1, 0, 2, 3]) (-1) 1,
    -- 196: del tmp46
    .del 45,
    -- 197: t2new.bbbb += np.transpose(tmp48, (1, 0, 2, 3)) * -1
    .add 70 (.tr 48 [1, 0, 2, 3]) (-1) 1,
    -- 198: del tmp48
    .del 48,
    -- 199: t2new.bbbb += np.transpose(tmp41, (0, 1, 3, 2)) * 2
    .add 70 (.tr 47 [0, 1, 3, 2]) 2 1,
    -- 200: del tmp41
    .del 47,
    -- 201: t2new.abab = einsum(t2.abab, (0, 1, 2, 3), tmp24, (1, 4), (0, 4, 2, 3)) * -1
    .set 71 (.ein [(1, [0, 1, 2, 3]), (56, [1, 4])] [0, 4, 2, 3]) (-1) 1,
    -- 202: del tmp24
    .del 56,
    -- 203: t2new.abab += einsum(t2.abab, (0, 1, 2, 3), v.aabb.oooo, (4, 0, 5, 1), (4, 5, 2, 3))
    .add 71 (.ein [(1, [0, 1, 2, 3]), (17, [4, 0, 5, 1])] [4, 5, 2, 3]) 1 1,
    -- 204: t2new.abab += einsum(t2.abab, (0, 1, 2, 3), tmp25, (0, 4), (4, 1, 2, 3)) * -1
    .add 71 (.ein [(1, [0, 1, 2, 3]), (55, [0, 4])] [4, 1, 2, 3]) (-1) 1,
    -- 205: del tmp25
    .del 55,
    -- 206: t2new.abab += einsum(v.aaaa.oovv, (0, 1, 2, 3), t2.abab, (1, 4, 3, 5), (0, 4, 2, 5)) * -1
    .add 71 (.ein [(16, [0, 1, 2, 3]), (1, [1, 4, 3, 5])] [0, 4, 2, 5]) (-1) 1,
    -- 207: t2new.abab += einsum(tmp26, (0, 1), t2.abab, (2, 3, 0, 4), (2, 3, 1, 4)) * -1
    .add 71 (.ein [(51, [0, 1]), (1, [2, 3, 0, 4])] [2, 3, 1, 4]) (-1) 1,
    -- 208: del tmp26
    .del 51,
    -- 209: t2new.abab += einsum(t2.abab, (0, 1, 2, 3), v.aabb.oovv, (4, 0, 5, 3), (4, 1, 2, 5)) * -1
    .add 71 (.ein [(1, [0, 1, 2, 3]), (18, [4, 0, 5, 3])] [4, 1, 2, 5]) (-1) 1,
    -- 210: t2new.abab += einsum(tmp29, (0, 1), t2.abab, (2, 3, 4, 0), (2, 3, 4, 1)) * -1
    .add 71 (.ein [(58, [0, 1]), (1, [2, 3, 4, 0])] [2, 3, 4, 1]) (-1) 1,
    -- 211: del tmp29
    .del 58,
    -- 212: t2new.abab += np.transpose(v.aabb.ovov, (0, 2, 1, 3))
    .add 71 (.tr 0 [0, 2, 1, 3]) 1 1,
    -- 213: t2new.abab += einsum(tmp30, (0, 1, 2, 3), t2.bbbb, (4, 1, 5, 3), (0, 4, 2, 5))
    .add 71 (.ein [(54, [0, 1, 2, 3]), (3, [4, 1, 5, 3])] [0, 4, 2, 5]) 1 1,
    -- 214: del tmp30
    .del 54,
    -- 215: t2new.abab += einsum(tmp31, (0, 1, 2, 3), t2.abab, (0, 4, 2, 5), (1, 4, 3, 5))
    .add 71 (.ein [(57, [0, 1, 2, 3]), (1, [0, 4, 2, 5])] [1, 4, 3, 5]) 1 1,
    -- 216: del tmp31
    .del 57,
    -- 217: t2new.abab += tmp32
    .add 71 (.cp 52) 1 1,
    -- 218: del tmp32
    .del 52,
    -- 219: t2new.abab += einsum(tmp34, (0, 1, 2, 3), t2.abab, (4, 0, 5, 2), (4, 1, 5, 3))
    .add 71 (.ein [(53, [0, 1, 2, 3]), (1, [4, 0, 5, 2])] [4, 1, 5, 3]) 1 1,
    -- 220: del tmp34
    .del 53,
    -- 221: t2new.abab += einsum(tmp37, (0, 1, 2, 3), t2.aaaa, (4, 0, 5, 2), (4, 1, 5, 3)) * 2
    .add 71 (.ein [(59, [0, 1, 2, 3]), (5, [4, 0, 5, 2])] [4, 1, 5, 3]) 2 1,
    -- 222: del tmp37
    .del 59,
    -- 223: t2new.abab += einsum(v.bbbb.oovv, (0, 1, 2, 3), t2.abab, (4, 1, 5, 3), (4, 0, 5, 2)) * -1
    .add 71 (.ein [(11, [0, 1, 2, 3]), (1, [4, 1, 5, 3])] [4, 0, 5, 2]) (-1) 1,
    -- 224: t2new.abab += einsum(v.aabb.vvoo, (0, 1, 2, 3), t2.abab, (4, 3, 1, 5), (4, 2, 0, 5)) * -1
    .add 71 (.ein [(19, [0, 1, 2, 3]), (1, [4, 3, 1, 5])] [4, 2, 0, 5]) (-1) 1,
    -- 225: t2new.aaaa = np.copy(np.transpose(tmp3, (0, 1, 3, 2))) * -2
    .set 72 (.tr 69 [0, 1, 3, 2]) (-2) 1,
    -- 226: del tmp3
    .del 69,
    -- 227: t2new.aaaa += np.transpose(tmp4, (1, 0, 3, 2)) * 2
    .add 72 (.tr 67 [1, 0, 3, 2]) 2 1,
    -- 228: del tmp4
    .del 67,
    -- 229: t2new.aaaa += np.transpose(tmp6, (1, 0, 3, 2)) * 2
    .add 72 (.tr 62 [1, 0, 3, 2]) 2 1,
    -- 230: del tmp6
    .del 62,
    -- 231: t2new.aaaa += np.transpose(tmp7, (1, 0, 3, 2)) * -2
    .add 72 (.tr 68 [1, 0, 3, 2]) (-2) 1,
    -- 232: t2new.aaaa += np.transpose(tmp11, (1, 0, 3, 2))
    .add 72 (.tr 61 [1, 0, 3, 2]) 1 1,
    -- 233: t2new.aaaa += np.transpose(tmp7, (1, 0, 2, 3)) * 2
    .add 72 (.tr 68 [1, 0, 2, 3]) 2 1,
    -- 234: t2new.aaaa += np.transpose(tmp11, (1, 0, 2, 3)) * -1
    .add 72 (.tr 61 [1, 0, 2, 3]) (-1) 1,
    -- 235: del tmp11
    .del 61,
    -- 236: t2new.aaaa += np.transpose(v.aaaa.ovov, (0, 2, 1, 3))
    .add 72 (.tr 4 [0, 2, 1, 3]) 1 1,
    -- 237: t2new.aaaa += tmp13 * 2
    .add 72 (.cp 63) 2 1,
    -- 238: t2new.aaaa += np.transpose(tmp13, (1, 0, 3, 2)) * 2
    .add 72 (.tr 63 [1, 0, 3, 2]) 2 1,
    -- 239: t2new.aaaa += np.transpose(tmp16, (1, 0, 3, 2))
    .add 72 (.tr 65 [1, 0, 3, 2]) 1 1,
    -- 240: t2new.aaaa += np.transpose(tmp19, (1, 0, 3, 2))
    .add 72 (.tr 66 [1, 0, 3, 2]) 1 1,
    -- 241: t2new.aaaa += np.transpose(v.aaaa.ovov, (0, 2, 3, 1)) * -1
    .add 72 (.tr 4 [0, 2, 3, 1]) (-1) 1,
    -- 242: t2new.aaaa += np.transpose(tmp13, (0, 1, 3, 2)) * -2
    .add 72 (.tr 63 [0, 1, 3, 2]) (-2) 1,
    -- 243: t2new.aaaa += np.transpose(tmp13, (1, 0, 2, 3)) * -2
    .add 72 (.tr 63 [1, 0, 2, 3]) (-2) 1,
    -- 244: del tmp13
    .del 63,
    -- 245: t2new.aaaa += np.transpose(tmp16, (1, 0, 2, 3)) * -1
    .add 72 (.tr 65 [1, 0, 2, 3]) (-1) 1,
    -- 246: t2new.aaaa += einsum(tmp20, (0, 1, 2, 3), t2.abab, (4, 1, 5, 3), (0, 4, 5, 2)) * -1
    .add 72 (.ein [(64, [0, 1, 2, 3]), (1, [4, 1, 5, 3])] [0, 4, 5, 2]) (-1) 1,
    -- 247: del tmp20
    .del 64,
    -- 248: t2new.aaaa += np.transpose(tmp21, (1, 0, 3, 2)) * 2
    .add 72 (.tr 60 [1, 0, 3, 2]) 2 1,
    -- 249: del tmp21
    .del 60,
    -- 250: t2new.aaaa += tmp16
    .add 72 (.cp 65) 1 1,
    -- 251: t2new.aaaa += tmp19
    .add 72 (.cp 66) 1 1,
    -- 252: t2new.aaaa += tmp7 * -2
    .add 72 (.cp 68) (-2) 1,
    -- 253: t2new.aaaa += np.transpose(tmp16, (0, 1, 3, 2)) * -1
    .add 72 (.tr 65 [0, 1, 3, 2]) (-1) 1,
    -- 254: del tmp16
    .del 65,
    -- 255: t2new.aaaa += np.transpose(tmp19, (0, 1, 3, 2)) * -1
    .add 72 (.tr 66 [0, 1, 3, 2]) (-1) 1,
    -- 256: del tmp19
    .del 66,
    -- 257: t2new.aaaa += np.transpose(tmp7, (0, 1, 3, 2)) * 2
    .add 72 (.tr 68 [0, 1, 3, 2]) 2 1,
    -- 258: del tmp7
    .del 68
  ]
  ret := [(chars! "t2new.bbbb", 70), (chars! "t2new.abab", 71), (chars! "t2new.aaaa", 72)]

end Ebcc.Gen.UDCD
