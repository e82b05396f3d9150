import Verif.Model.GenCode
/-!
Functions of `ebcc/codegen/UCCD.py`, written by `tools/gencode.py`.  Comments give the
number and the text of the line of each statement.
-/

set_option maxRecDepth 100000

namespace Ebcc.Gen.UCCD

/-- codegen/UCCD.py:19-40 `energy`. -/
def energy : GenFun where
  args := [chars! "v.bbbb.ovov", chars! "t2.bbbb", chars! "t2.abab", chars! "v.aabb.ovov", chars! "v.aaaa.ovov", chars! "t2.aaaa"]
  body := [
    -- 36: e_cc = einsum(v.bbbb.ovov, (0, 1, 2, 3), t2.bbbb, (0, 2, 3, 1), ()) * -1
    .set 6 (.ein [(0, [0, 1, 2, 3]), (1, [0, 2, 3, 1])] []) (-1) 1,
    -- 37: e_cc += einsum(t2.abab, (0, 1, 2, 3), v.aabb.ovov, (0, 2, 1, 3), ())
    .add 6 (.ein [(2, [0, 1, 2, 3]), (3, [0, 2, 1, 3])] []) 1 1,
    -- 38: e_cc += einsum(v.aaaa.ovov, (0, 1, 2, 3), t2.aaaa, (0, 2, 3, 1), ()) * -1
    .add 6 (.ein [(4, [0, 1, 2, 3]), (5, [0, 2, 3, 1])] []) (-1) 1
  ]
  ret := [(chars! "e_cc", 6)]

/-- codegen/UCCD.py:42-268 `update_amps`. -/
def update_amps : GenFun where
  args := [chars! "v.bbbb.ovov", chars! "v.aaaa.ovov", chars! "t2.bbbb", chars! "t2.abab", chars! "v.aabb.ovov", chars! "t2.aaaa", chars! "v.bbbb.oovv", chars! "v.aaaa.oovv", chars! "f.bb.oo", chars! "f.bb.vv", chars! "v.bbbb.oooo", chars! "f.aa.vv", chars! "v.aabb.vvoo", chars! "v.aabb.oooo", chars! "v.aaaa.oooo", chars! "f.aa.oo", chars! "v.bbbb.vvvv", chars! "v.aabb.oovv", chars! "v.aabb.vvvv", chars! "v.aaaa.vvvv"]
  body := [
    -- 62: tmp13 = np.copy(np.transpose(v.bbbb.ovov, (0, 2, 3, 1)))
    .set 20 (.tr 0 [0, 2, 3, 1]) 1 1,
    -- 63: tmp13 += np.transpose(v.bbbb.ovov, (0, 2, 1, 3)) * -1
    .add 20 (.tr 0 [0, 2, 1, 3]) (-1) 1,
    -- 64: tmp9 = np.copy(np.transpose(v.aaaa.ovov, (0, 2, 3, 1)))
    .set 21 (.tr 1 [0, 2, 3, 1]) 1 1,
    -- 65: tmp9 += np.transpose(v.aaaa.ovov, (0, 2, 1, 3)) * -1
    .add 21 (.tr 1 [0, 2, 1, 3]) (-1) 1,
    -- 66: tmp35 = einsum(v.bbbb.ovov, (0, 1, 2, 3), t2.bbbb, (4, 2, 1, 3), (4, 0))
    .set 22 (.ein [(0, [0, 1, 2, 3]), (2, [4, 2, 1, 3])] [4, 0]) 1 1,
    -- 67: tmp34 = einsum(t2.abab, (0, 1, 2, 3), v.aabb.ovov, (0, 2, 4, 3), (1, 4))
    .set 23 (.ein [(3, [0, 1, 2, 3]), (4, [0, 2, 4, 3])] [1, 4]) 1 1,
    -- 68: tmp44 = einsum(t2.bbbb, (0, 1, 2, 3), tmp13, (1, 4, 5, 3), (0, 4, 2, 5))
    .set 24 (.ein [(2, [0, 1, 2, 3]), (20, [1, 4, 5, 3])] [0, 4, 2, 5]) 1 1,
    -- 69: tmp10 = einsum(t2.aaaa, (0, 1, 2, 3), tmp9, (1, 4, 5, 3), (0, 4, 2, 5))
    .set 25 (.ein [(5, [0, 1, 2, 3]), (21, [1, 4, 5, 3])] [0, 4, 2, 5]) 1 1,
    -- 70: tmp19 = einsum(t2.aaaa, (0, 1, 2, 3), v.aaaa.ovov, (4, 3, 1, 2), (0, 4)) * -1
    .set 26 (.ein [(5, [0, 1, 2, 3]), (1, [4, 3, 1, 2])] [0, 4]) (-1) 1,
    -- 71: tmp20 = einsum(t2.abab, (0, 1, 2, 3), v.aabb.ovov, (4, 2, 1, 3), (0, 4))
    .set 27 (.ein [(3, [0, 1, 2, 3]), (4, [4, 2, 1, 3])] [0, 4]) 1 1,
    -- 72: tmp36 = np.copy(tmp34)
    .set 28 (.cp 23) 1 1,
    -- 73: del tmp34
    .del 23,
    -- 74: tmp36 += tmp35 * 2
    .add 28 (.cp 22) 2 1,
    -- 75: del tmp35
    .del 22,
    -- 76: tmp50 = einsum(t2.bbbb, (0, 1, 2, 3), v.bbbb.ovov, (4, 3, 5, 2), (0, 1, 4, 5)) * -1
    .set 29 (.ein [(2, [0, 1, 2, 3]), (0, [4, 3, 5, 2])] [0, 1, 4, 5]) (-1) 1,
    -- 77: tmp24 = einsum(v.aabb.ovov, (0, 1, 2, 3), t2.abab, (0, 2, 1, 4), (4, 3))
    .set 30 (.ein [(4, [0, 1, 2, 3]), (3, [0, 2, 1, 4])] [4, 3]) 1 1,
    -- 78: tmp25 = einsum(t2.bbbb, (0, 1, 2, 3), v.bbbb.ovov, (0, 4, 1, 3), (2, 4))
    .set 31 (.ein [(2, [0, 1, 2, 3]), (0, [0, 4, 1, 3])] [2, 4]) 1 1,
    -- 79: tmp45 = np.copy(v.bbbb.oovv)
    .set 32 (.cp 6) 1 1,
    -- 80: tmp45 += tmp44 * -2
    .add 32 (.cp 24) (-2) 1,
    -- 81: del tmp44
    .del 24,
    -- 82: tmp27 = einsum(v.aabb.ovov, (0, 1, 2, 3), t2.bbbb, (4, 2, 5, 3), (0, 4, 1, 5))
    .set 33 (.ein [(4, [0, 1, 2, 3]), (2, [4, 2, 5, 3])] [0, 4, 1, 5]) 1 1,
    -- 83: tmp47 = einsum(t2.abab, (0, 1, 2, 3), tmp9, (0, 4, 5, 2), (4, 1, 5, 3))
    .set 34 (.ein [(3, [0, 1, 2, 3]), (21, [0, 4, 5, 2])] [4, 1, 5, 3]) 1 1,
    -- 84: tmp2 = einsum(v.aaaa.ovov, (0, 1, 2, 3), t2.aaaa, (0, 2, 4, 1), (4, 3)) * -1
    .set 35 (.ein [(1, [0, 1, 2, 3]), (5, [0, 2, 4, 1])] [4, 3]) (-1) 1,
    -- 85: tmp3 = einsum(t2.abab, (0, 1, 2, 3), v.aabb.ovov, (0, 4, 1, 3), (2, 4))
    .set 36 (.ein [(3, [0, 1, 2, 3]), (4, [0, 4, 1, 3])] [2, 4]) 1 1,
    -- 86: tmp31 = einsum(v.aabb.ovov, (0, 1, 2, 3), t2.aaaa, (4, 0, 5, 1), (4, 2, 5, 3))
    .set 37 (.ein [(4, [0, 1, 2, 3]), (5, [4, 0, 5, 1])] [4, 2, 5, 3]) 1 1,
    -- 87: tmp14 = einsum(tmp13, (0, 1, 2, 3), t2.abab, (4, 0, 5, 2), (4, 1, 5, 3))
    .set 38 (.ein [(20, [0, 1, 2, 3]), (3, [4, 0, 5, 2])] [4, 1, 5, 3]) 1 1,
    -- 88: del tmp13
    .del 20,
    -- 89: tmp6 = einsum(t2.abab, (0, 1, 2, 3), v.aabb.ovov, (4, 5, 1, 3), (0, 4, 2, 5))
    .set 39 (.ein [(3, [0, 1, 2, 3]), (4, [4, 5, 1, 3])] [0, 4, 2, 5]) 1 1,
    -- 90: tmp17 = einsum(v.aaaa.ovov, (0, 1, 2, 3), t2.aaaa, (4, 5, 3, 1), (4, 5, 0, 2)) * -1
    .set 40 (.ein [(1, [0, 1, 2, 3]), (5, [4, 5, 3, 1])] [4, 5, 0, 2]) (-1) 1,
    -- 91: tmp11 = np.copy(v.aaaa.oovv)
    .set 41 (.cp 7) 1 1,
    -- 92: tmp11 += tmp10 * -2
    .add 41 (.cp 25) (-2) 1,
    -- 93: del tmp10
    .del 25,
    -- 94: tmp21 = np.copy(tmp19) * 2
    .set 42 (.cp 26) 2 1,
    -- 95: tmp21 += tmp20
    .add 42 (.cp 27) 1 1,
    -- 96: tmp40 = einsum(t2.abab, (0, 1, 2, 3), v.aabb.ovov, (0, 2, 4, 5), (1, 4, 3, 5))
    .set 43 (.ein [(3, [0, 1, 2, 3]), (4, [0, 2, 4, 5])] [1, 4, 3, 5]) 1 1,
    -- 97: tmp41 = einsum(t2.bbbb, (0, 1, 2, 3), v.bbbb.ovov, (4, 5, 1, 3), (0, 4, 2, 5))
    .set 44 (.ein [(2, [0, 1, 2, 3]), (0, [4, 5, 1, 3])] [0, 4, 2, 5]) 1 1,
    -- 98: tmp52 = einsum(tmp36, (0, 1), t2.bbbb, (2, 1, 3, 4), (2, 0, 3, 4)) * -1
    .set 45 (.ein [(28, [0, 1]), (2, [2, 1, 3, 4])] [2, 0, 3, 4]) (-1) 1,
    -- 99: tmp51 = einsum(tmp50, (0, 1, 2, 3), t2.bbbb, (3, 2, 4, 5), (1, 0, 4, 5))
    .set 46 (.ein [(29, [0, 1, 2, 3]), (2, [3, 2, 4, 5])] [1, 0, 4, 5]) 1 1,
    -- 100: del tmp50
    .del 29,
    -- 101: tmp49 = einsum(t2.bbbb, (0, 1, 2, 3), v.bbbb.oovv, (4, 1, 5, 3), (0, 4, 2, 5))
    .set 47 (.ein [(2, [0, 1, 2, 3]), (6, [4, 1, 5, 3])] [0, 4, 2, 5]) 1 1,
    -- 102: tmp26 = np.copy(tmp24) * 0.5
    .set 48 (.cp 30) 1 2,
    -- 103: tmp26 += tmp25
    .add 48 (.cp 31) 1 1,
    -- 104: tmp46 = einsum(t2.bbbb, (0, 1, 2, 3), tmp45, (4, 1, 5, 3), (0, 4, 2, 5))
    .set 49 (.ein [(2, [0, 1, 2, 3]), (32, [4, 1, 5, 3])] [0, 4, 2, 5]) 1 1,
    -- 105: del tmp45
    .del 32,
    -- 106: tmp38 = einsum(t2.bbbb, (0, 1, 2, 3), f.bb.oo, (4, 1), (4, 0, 2, 3))
    .set 50 (.ein [(2, [0, 1, 2, 3]), (8, [4, 1])] [4, 0, 2, 3]) 1 1,
    -- 107: tmp43 = einsum(t2.abab, (0, 1, 2, 3), tmp27, (0, 4, 2, 5), (1, 4, 3, 5))
    .set 51 (.ein [(3, [0, 1, 2, 3]), (33, [0, 4, 2, 5])] [1, 4, 3, 5]) 1 1,
    -- 108: tmp42 = np.copy(f.bb.vv) * -1
    .set 52 (.cp 9) (-1) 1,
    -- 109: tmp42 += tmp24
    .add 52 (.cp 30) 1 1,
    -- 110: del tmp24
    .del 30,
    -- 111: tmp42 += tmp25 * 2
    .add 52 (.cp 31) 2 1,
    -- 112: del tmp25
    .del 31,
    -- 113: tmp39 = einsum(v.bbbb.oooo, (0, 1, 2, 3), t2.bbbb, (3, 1, 4, 5), (0, 2, 4, 5)) * -1
    .set 53 (.ein [(10, [0, 1, 2, 3]), (2, [3, 1, 4, 5])] [0, 2, 4, 5]) (-1) 1,
    -- 114: tmp48 = einsum(tmp47, (0, 1, 2, 3), t2.abab, (0, 4, 2, 5), (1, 4, 3, 5))
    .set 54 (.ein [(34, [0, 1, 2, 3]), (3, [0, 4, 2, 5])] [1, 4, 3, 5]) 1 1,
    -- 115: del tmp47
    .del 34,
    -- 116: tmp28 = np.copy(f.aa.vv) * -1
    .set 55 (.cp 11) (-1) 1,
    -- 117: tmp28 += np.transpose(tmp2, (1, 0)) * 2
    .add 55 (.tr 35 [1, 0]) 2 1,
    -- 118: tmp28 += np.transpose(tmp3, (1, 0))
    .add 55 (.tr 36 [1, 0]) 1 1,
    -- 119: tmp33 = einsum(t2.abab, (0, 1, 2, 3), v.aabb.ovov, (4, 2, 5, 3), (0, 4, 1, 5))
    .set 56 (.ein [(3, [0, 1, 2, 3]), (4, [4, 2, 5, 3])] [0, 4, 1, 5]) 1 1,
    -- 120: tmp29 = np.copy(np.transpose(v.aabb.vvoo, (2, 3, 0, 1)))
    .set 57 (.tr 12 [2, 3, 0, 1]) 1 1,
    -- 121: tmp29 += einsum(t2.abab, (0, 1, 2, 3), v.aabb.ovov, (0, 4, 5, 3), (5, 1, 4, 2)) * -1
    .add 57 (.ein [(3, [0, 1, 2, 3]), (4, [0, 4, 5, 3])] [5, 1, 4, 2]) (-1) 1,
    -- 122: tmp32 = np.copy(tmp31) * 2
    .set 58 (.cp 37) 2 1,
    -- 123: tmp32 += tmp14 * -1
    .add 58 (.cp 38) (-1) 1,
    -- 124: tmp30 = np.copy(v.aaaa.oovv)
    .set 59 (.cp 7) 1 1,
    -- 125: tmp30 += np.transpose(tmp6, (1, 0, 3, 2)) * -1
    .add 59 (.tr 39 [1, 0, 3, 2]) (-1) 1,
    -- 126: tmp30 += einsum(tmp9, (0, 1, 2, 3), t2.aaaa, (4, 0, 5, 2), (1, 4, 3, 5)) * 2
    .add 59 (.ein [(21, [0, 1, 2, 3]), (5, [4, 0, 5, 2])] [1, 4, 3, 5]) 2 1,
    -- 127: del tmp9
    .del 21,
    -- 128: tmp23 = einsum(t2.abab, (0, 1, 2, 3), v.aabb.oooo, (4, 0, 5, 1), (4, 5, 2, 3))
    .set 60 (.ein [(3, [0, 1, 2, 3]), (13, [4, 0, 5, 1])] [4, 5, 2, 3]) 1 1,
    -- 129: tmp37 = np.copy(tmp19)
    .set 61 (.cp 26) 1 1,
    -- 130: del tmp19
    .del 26,
    -- 131: tmp37 += tmp20 * 0.5
    .add 61 (.cp 27) 1 2,
    -- 132: del tmp20
    .del 27,
    -- 133: tmp5 = einsum(t2.aaaa, (0, 1, 2, 3), v.aaaa.ovov, (4, 5, 1, 3), (0, 4, 2, 5))
    .set 62 (.ein [(5, [0, 1, 2, 3]), (1, [4, 5, 1, 3])] [0, 4, 2, 5]) 1 1,
    -- 134: tmp18 = einsum(t2.aaaa, (0, 1, 2, 3), tmp17, (4, 5, 1, 0), (5, 4, 2, 3))
    .set 63 (.ein [(5, [0, 1, 2, 3]), (40, [4, 5, 1, 0])] [5, 4, 2, 3]) 1 1,
    -- 135: del tmp17
    .del 40,
    -- 136: tmp15 = einsum(tmp14, (0, 1, 2, 3), t2.abab, (4, 1, 5, 3), (4, 0, 5, 2)) * -1
    .set 64 (.ein [(38, [0, 1, 2, 3]), (3, [4, 1, 5, 3])] [4, 0, 5, 2]) (-1) 1,
    -- 137: del tmp14
    .del 38,
    -- 138: tmp4 = np.copy(tmp2)
    .set 65 (.cp 35) 1 1,
    -- 139: tmp4 += tmp3 * 0.5
    .add 65 (.cp 36) 1 2,
    -- 140: tmp12 = einsum(tmp11, (0, 1, 2, 3), t2.aaaa, (4, 1, 5, 3), (4, 0, 5, 2))
    .set 66 (.ein [(41, [0, 1, 2, 3]), (5, [4, 1, 5, 3])] [4, 0, 5, 2]) 1 1,
    -- 141: del tmp11
    .del 41,
    -- 142: tmp1 = einsum(v.aaaa.oooo, (0, 1, 2, 3), t2.aaaa, (1, 3, 4, 5), (0, 2, 4, 5))
    .set 67 (.ein [(14, [0, 1, 2, 3]), (5, [1, 3, 4, 5])] [0, 2, 4, 5]) 1 1,
    -- 143: tmp16 = einsum(t2.aaaa, (0, 1, 2, 3), v.aaaa.oovv, (4, 1, 5, 3), (0, 4, 2, 5))
    .set 68 (.ein [(5, [0, 1, 2, 3]), (7, [4, 1, 5, 3])] [0, 4, 2, 5]) 1 1,
    -- 144: tmp0 = einsum(f.aa.oo, (0, 1), t2.aaaa, (2, 1, 3, 4), (0, 2, 3, 4))
    .set 69 (.ein [(15, [0, 1]), (5, [2, 1, 3, 4])] [0, 2, 3, 4]) 1 1,
    -- 145: tmp7 = np.copy(f.aa.vv) * -1
    .set 70 (.cp 11) (-1) 1,
    -- 146: tmp7 += tmp2 * 2
    .add 70 (.cp 35) 2 1,
    -- 147: del tmp2
    .del 35,
    -- 148: tmp7 += tmp3
    .add 70 (.cp 36) 1 1,
    -- 149: del tmp3
    .del 36,
    -- 150: tmp8 = einsum(t2.aaaa, (0, 1, 2, 3), tmp6, (4, 1, 5, 3), (0, 4, 2, 5))
    .set 71 (.ein [(5, [0, 1, 2, 3]), (39, [4, 1, 5, 3])] [0, 4, 2, 5]) 1 1,
    -- 151: tmp22 = einsum(tmp21, (0, 1), t2.aaaa, (2, 1, 3, 4), (0, 2, 3, 4)) * -1
    .set 72 (.ein [(42, [0, 1]), (5, [2, 1, 3, 4])] [0, 2, 3, 4]) (-1) 1,
    -- 152: del tmp21
    .del 42,
    -- 153: t2new.bbbb = np.copy(np.transpose(tmp38, (1, 0, 3, 2))) * 2
    .set 73 (.tr 50 [1, 0, 3, 2]) 2 1,
    -- 154: t2new.bbbb += np.transpose(tmp39, (1, 0, 3, 2)) * 2
    .add 73 (.tr 53 [1, 0, 3, 2]) 2 1,
    -- 155: del tmp39
    .del 53,
    -- 156: t2new.bbbb += np.transpose(tmp38, (0, 1, 3, 2)) * -2
    .add 73 (.tr 50 [0, 1, 3, 2]) (-2) 1,
    -- 157: del tmp38
    .del 50,
    -- 158: t2new.bbbb += einsum(tmp26, (0, 1), t2.bbbb, (2, 3, 4, 1), (2, 3, 4, 0)) * -4
    .add 73 (.ein [(48, [0, 1]), (2, [2, 3, 4, 1])] [2, 3, 4, 0]) (-4) 1,
    -- 159: t2new.bbbb += np.transpose(tmp40, (1, 0, 3, 2))
    .add 73 (.tr 43 [1, 0, 3, 2]) 1 1,
    -- 160: t2new.bbbb += np.transpose(tmp41, (1, 0, 3, 2)) * 2
    .add 73 (.tr 44 [1, 0, 3, 2]) 2 1,
    -- 161: t2new.bbbb += einsum(t2.bbbb, (0, 1, 2, 3), tmp42, (4, 3), (0, 1, 4, 2)) * 2
    .add 73 (.ein [(2, [0, 1, 2, 3]), (52, [4, 3])] [0, 1, 4, 2]) 2 1,
    -- 162: del tmp42
    .del 52,
    -- 163: t2new.bbbb += np.transpose(tmp40, (1, 0, 2, 3)) * -1
    .add 73 (.tr 43 [1, 0, 2, 3]) (-1) 1,
    -- 164: t2new.bbbb += einsum(f.bb.vv, (0, 1), t2.bbbb, (2, 3, 4, 1), (2, 3, 4, 0)) * 2
    .add 73 (.ein [(9, [0, 1]), (2, [2, 3, 4, 1])] [2, 3, 4, 0]) 2 1,
    -- 165: t2new.bbbb += np.transpose(tmp41, (1, 0, 2, 3)) * -2
    .add 73 (.tr 44 [1, 0, 2, 3]) (-2) 1,
    -- 166: t2new.bbbb += np.transpose(v.bbbb.ovov, (0, 2, 1, 3))
    .add 73 (.tr 0 [0, 2, 1, 3]) 1 1,
    -- 167: t2new.bbbb += np.transpose(v.bbbb.ovov, (0, 2, 3, 1)) * -1
    .add 73 (.tr 0 [0, 2, 3, 1]) (-1) 1,
    -- 168: t2new.bbbb += np.transpose(tmp40, (0, 1, 3, 2)) * -1
    .add 73 (.tr 43 [0, 1, 3, 2]) (-1) 1,
    -- 169: t2new.bbbb += np.transpose(tmp41, (0, 1, 3, 2)) * -2
    .add 73 (.tr 44 [0, 1, 3, 2]) (-2) 1,
    -- 170: t2new.bbbb += np.transpose(tmp43, (0, 1, 3, 2)) * -2
    .add 73 (.tr 51 [0, 1, 3, 2]) (-2) 1,
    -- 171: t2new.bbbb += np.transpose(tmp43, (1, 0, 2, 3)) * -2
    .add 73 (.tr 51 [1, 0, 2, 3]) (-2) 1,
    -- 172: t2new.bbbb += np.transpose(tmp46, (0, 1, 3, 2)) * 2
    .add 73 (.tr 49 [0, 1, 3, 2]) 2 1,
    -- 173: t2new.bbbb += np.transpose(tmp48, (1, 0, 2, 3)) * -1
    .add 73 (.tr 54 [1, 0, 2, 3]) (-1) 1,
    -- 174: t2new.bbbb += tmp43 * 2
    .add 73 (.cp 51) 2 1,
    -- 175: t2new.bbbb += np.transpose(tmp43, (1, 0, 3, 2)) * 2
    .add 73 (.tr 51 [1, 0, 3, 2]) 2 1,
    -- 176: del tmp43
    .del 51,
    -- 177: t2new.bbbb += np.transpose(tmp46, (1, 0, 3, 2)) * -2
    .add 73 (.tr 49 [1, 0, 3, 2]) (-2) 1,
    -- 178: del tmp46
    .del 49,
    -- 179: t2new.bbbb += tmp48
    .add 73 (.cp 54) 1 1,
    -- 180: del tmp48
    .del 54,
    -- 181: t2new.bbbb += tmp40
    .add 73 (.cp 43) 1 1,
    -- 182: del tmp40
    .del 43,
    -- 183: t2new.bbbb += tmp41 * 2
    .add 73 (.cp 44) 2 1,
    -- 184: del tmp41
    .del 44,
    -- 185: t2new.bbbb += tmp49 * -2
    .add 73 (.cp 47) (-2) 1,
    -- 186: t2new.bbbb += np.transpose(tmp49, (1, 0, 2, 3)) * 2
    .add 73 (.tr 47 [1, 0, 2, 3]) 2 1,
    -- 187: del tmp49
    .del 47,
    -- 188: t2new.bbbb += einsum(v.bbbb.vvvv, (0, 1, 2, 3), t2.bbbb, (4, 5, 3, 1), (4, 5, 0, 2)) * -2
    .add 73 (.ein [(16, [0, 1, 2, 3]), (2, [4, 5, 3, 1])] [4, 5, 0, 2]) (-2) 1,
    -- 189: t2new.bbbb += np.transpose(tmp51, (0, 1, 3, 2)) * -2
    .add 73 (.tr 46 [0, 1, 3, 2]) (-2) 1,
    -- 190: del tmp51
    .del 46,
    -- 191: t2new.bbbb += np.transpose(tmp52, (0, 1, 3, 2)) * -2
    .add 73 (.tr 45 [0, 1, 3, 2]) (-2) 1,
    -- 192: t2new.bbbb += np.transpose(tmp52, (1, 0, 3, 2)) * 2
    .add 73 (.tr 45 [1, 0, 3, 2]) 2 1,
    -- 193: del tmp52
    .del 45,
    -- 194: t2new.abab = einsum(f.bb.oo, (0, 1), t2.abab, (2, 1, 3, 4), (2, 0, 3, 4)) * -1
    .set 74 (.ein [(8, [0, 1]), (3, [2, 1, 3, 4])] [2, 0, 3, 4]) (-1) 1,
    -- 195: t2new.abab += tmp23
    .add 74 (.cp 60) 1 1,
    -- 196: del tmp23
    .del 60,
    -- 197: t2new.abab += einsum(t2.abab, (0, 1, 2, 3), f.aa.oo, (4, 0), (4, 1, 2, 3)) * -1
    .add 74 (.ein [(3, [0, 1, 2, 3]), (15, [4, 0])] [4, 1, 2, 3]) (-1) 1,
    -- 198: t2new.abab += einsum(t2.abab, (0, 1, 2, 3), tmp26, (4, 3), (0, 1, 2, 4)) * -2
    .add 74 (.ein [(3, [0, 1, 2, 3]), (48, [4, 3])] [0, 1, 2, 4]) (-2) 1,
    -- 199: del tmp26
    .del 48,
    -- 200: t2new.abab += tmp27 * 2
    .add 74 (.cp 33) 2 1,
    -- 201: del tmp27
    .del 33,
    -- 202: t2new.abab += einsum(t2.abab, (0, 1, 2, 3), v.aaaa.ovov, (4, 5, 0, 2), (4, 1, 5, 3))
    .add 74 (.ein [(3, [0, 1, 2, 3]), (1, [4, 5, 0, 2])] [4, 1, 5, 3]) 1 1,
    -- 203: t2new.abab += einsum(tmp28, (0, 1), t2.abab, (2, 3, 0, 4), (2, 3, 1, 4)) * -1
    .add 74 (.ein [(55, [0, 1]), (3, [2, 3, 0, 4])] [2, 3, 1, 4]) (-1) 1,
    -- 204: del tmp28
    .del 55,
    -- 205: t2new.abab += einsum(f.bb.vv, (0, 1), t2.abab, (2, 3, 4, 1), (2, 3, 4, 0))
    .add 74 (.ein [(9, [0, 1]), (3, [2, 3, 4, 1])] [2, 3, 4, 0]) 1 1,
    -- 206: t2new.abab += np.transpose(v.aabb.ovov, (0, 2, 1, 3))
    .add 74 (.tr 4 [0, 2, 1, 3]) 1 1,
    -- 207: t2new.abab += einsum(t2.abab, (0, 1, 2, 3), tmp29, (1, 4, 2, 5), (0, 4, 5, 3)) * -1
    .add 74 (.ein [(3, [0, 1, 2, 3]), (57, [1, 4, 2, 5])] [0, 4, 5, 3]) (-1) 1,
    -- 208: del tmp29
    .del 57,
    -- 209: t2new.abab += einsum(t2.abab, (0, 1, 2, 3), tmp30, (0, 4, 2, 5), (4, 1, 5, 3)) * -1
    .add 74 (.ein [(3, [0, 1, 2, 3]), (59, [0, 4, 2, 5])] [4, 1, 5, 3]) (-1) 1,
    -- 210: del tmp30
    .del 59,
    -- 211: t2new.abab += einsum(t2.bbbb, (0, 1, 2, 3), tmp32, (4, 1, 5, 3), (4, 0, 5, 2)) * 2
    .add 74 (.ein [(2, [0, 1, 2, 3]), (58, [4, 1, 5, 3])] [4, 0, 5, 2]) 2 1,
    -- 212: del tmp32
    .del 58,
    -- 213: t2new.abab += tmp31 * 2
    .add 74 (.cp 37) 2 1,
    -- 214: del tmp31
    .del 37,
    -- 215: t2new.abab += einsum(v.bbbb.ovov, (0, 1, 2, 3), t2.abab, (4, 2, 5, 3), (4, 0, 5, 1))
    .add 74 (.ein [(0, [0, 1, 2, 3]), (3, [4, 2, 5, 3])] [4, 0, 5, 1]) 1 1,
    -- 216: t2new.abab += einsum(v.bbbb.oovv, (0, 1, 2, 3), t2.abab, (4, 1, 5, 3), (4, 0, 5, 2)) * -1
    .add 74 (.ein [(6, [0, 1, 2, 3]), (3, [4, 1, 5, 3])] [4, 0, 5, 2]) (-1) 1,
    -- 217: t2new.abab += einsum(t2.abab, (0, 1, 2, 3), v.aabb.oovv, (4, 0, 5, 3), (4, 1, 2, 5)) * -1
    .add 74 (.ein [(3, [0, 1, 2, 3]), (17, [4, 0, 5, 3])] [4, 1, 2, 5]) (-1) 1,
    -- 218: t2new.abab += einsum(t2.abab, (0, 1, 2, 3), v.aabb.vvvv, (4, 2, 5, 3), (0, 1, 4, 5))
    .add 74 (.ein [(3, [0, 1, 2, 3]), (18, [4, 2, 5, 3])] [0, 1, 4, 5]) 1 1,
    -- 219: t2new.abab += einsum(t2.abab, (0, 1, 2, 3), tmp33, (4, 0, 5, 1), (4, 5, 2, 3))
    .add 74 (.ein [(3, [0, 1, 2, 3]), (56, [4, 0, 5, 1])] [4, 5, 2, 3]) 1 1,
    -- 220: del tmp33
    .del 56,
    -- 221: t2new.abab += einsum(t2.abab, (0, 1, 2, 3), tmp36, (4, 1), (0, 4, 2, 3)) * -1
    .add 74 (.ein [(3, [0, 1, 2, 3]), (28, [4, 1])] [0, 4, 2, 3]) (-1) 1,
    -- 222: del tmp36
    .del 28,
    -- 223: t2new.abab += einsum(tmp37, (0, 1), t2.abab, (1, 2, 3, 4), (0, 2, 3, 4)) * -2
    .add 74 (.ein [(61, [0, 1]), (3, [1, 2, 3, 4])] [0, 2, 3, 4]) (-2) 1,
    -- 224: del tmp37
    .del 61,
    -- 225: t2new.aaaa = np.copy(np.transpose(tmp0, (1, 0, 3, 2))) * 2
    .set 75 (.tr 69 [1, 0, 3, 2]) 2 1,
    -- 226: t2new.aaaa += np.transpose(tmp1, (1, 0, 3, 2)) * 2
    .add 75 (.tr 67 [1, 0, 3, 2]) 2 1,
    -- 227: del tmp1
    .del 67,
    -- 228: t2new.aaaa += np.transpose(tmp0, (0, 1, 3, 2)) * -2
    .add 75 (.tr 69 [0, 1, 3, 2]) (-2) 1,
    -- 229: del tmp0
    .del 69,
    -- 230: t2new.aaaa += einsum(tmp4, (0, 1), t2.aaaa, (2, 3, 4, 1), (2, 3, 4, 0)) * -4
    .add 75 (.ein [(65, [0, 1]), (5, [2, 3, 4, 1])] [2, 3, 4, 0]) (-4) 1,
    -- 231: del tmp4
    .del 65,
    -- 232: t2new.aaaa += np.transpose(tmp5, (1, 0, 3, 2)) * 2
    .add 75 (.tr 62 [1, 0, 3, 2]) 2 1,
    -- 233: t2new.aaaa += np.transpose(tmp6, (1, 0, 3, 2))
    .add 75 (.tr 39 [1, 0, 3, 2]) 1 1,
    -- 234: t2new.aaaa += einsum(t2.aaaa, (0, 1, 2, 3), tmp7, (4, 3), (0, 1, 4, 2)) * 2
    .add 75 (.ein [(5, [0, 1, 2, 3]), (70, [4, 3])] [0, 1, 4, 2]) 2 1,
    -- 235: del tmp7
    .del 70,
    -- 236: t2new.aaaa += np.transpose(tmp5, (1, 0, 2, 3)) * -2
    .add 75 (.tr 62 [1, 0, 2, 3]) (-2) 1,
    -- 237: t2new.aaaa += einsum(f.aa.vv, (0, 1), t2.aaaa, (2, 3, 4, 1), (2, 3, 4, 0)) * 2
    .add 75 (.ein [(11, [0, 1]), (5, [2, 3, 4, 1])] [2, 3, 4, 0]) 2 1,
    -- 238: t2new.aaaa += np.transpose(tmp6, (1, 0, 2, 3)) * -1
    .add 75 (.tr 39 [1, 0, 2, 3]) (-1) 1,
    -- 239: t2new.aaaa += np.transpose(v.aaaa.ovov, (0, 2, 1, 3))
    .add 75 (.tr 1 [0, 2, 1, 3]) 1 1,
    -- 240: t2new.aaaa += np.transpose(v.aaaa.ovov, (0, 2, 3, 1)) * -1
    .add 75 (.tr 1 [0, 2, 3, 1]) (-1) 1,
    -- 241: t2new.aaaa += np.transpose(tmp5, (0, 1, 3, 2)) * -2
    .add 75 (.tr 62 [0, 1, 3, 2]) (-2) 1,
    -- 242: t2new.aaaa += np.transpose(tmp6, (0, 1, 3, 2)) * -1
    .add 75 (.tr 39 [0, 1, 3, 2]) (-1) 1,
    -- 243: t2new.aaaa += np.transpose(tmp8, (0, 1, 3, 2)) * -2
    .add 75 (.tr 71 [0, 1, 3, 2]) (-2) 1,
    -- 244: t2new.aaaa += np.transpose(tmp8, (1, 0, 2, 3)) * -2
    .add 75 (.tr 71 [1, 0, 2, 3]) (-2) 1,
    -- 245: t2new.aaaa += np.transpose(tmp12, (0, 1, 3, 2)) * 2
    .add 75 (.tr 66 [0, 1, 3, 2]) 2 1,
    -- 246: t2new.aaaa += np.transpose(tmp15, (1, 0, 2, 3)) * -1
    .add 75 (.tr 64 [1, 0, 2, 3]) (-1) 1,
    -- 247: t2new.aaaa += tmp8 * 2
    .add 75 (.cp 71) 2 1,
    -- 248: t2new.aaaa += np.transpose(tmp8, (1, 0, 3, 2)) * 2
    .add 75 (.tr 71 [1, 0, 3, 2]) 2 1,
    -- 249: del tmp8
    .del 71,
    -- 250: t2new.aaaa += np.transpose(tmp12, (1, 0, 3, 2)) * -2
    .add 75 (.tr 66 [1, 0, 3, 2]) (-2) 1,
    -- 251: del tmp12
    .del 66,
    -- 252: t2new.aaaa += np.transpose(tmp15, (1, 0, 3, 2))
    .add 75 (.tr 64 [1, 0, 3, 2]) 1 1,
    -- 253: del tmp15
    .del 64,
    -- 254: t2new.aaaa += tmp5 * 2
    .add 75 (.cp 62) 2 1,
    -- 255: del tmp5
    .del 62,
    -- 256: t2new.aaaa += tmp6
    .add 75 (.cp 39) 1 1,
    -- 257: del tmp6
    .del 39,
    -- 258: t2new.aaaa += tmp16 * -2
    .add 75 (.cp 68) (-2) 1,
    -- 259: t2new.aaaa += np.transpose(tmp16, (1, 0, 2, 3)) * 2
    .add 75 (.tr 68 [1, 0, 2, 3]) 2 1,
    -- 260: del tmp16
    .del 68,
    -- 261: t2new.aaaa += einsum(v.aaaa.vvvv, (0, 1, 2, 3), t2.aaaa, (4, 5, 1, 3), (4, 5, 0, 2)) * 2
    .add 75 (.ein [(19, [0, 1, 2, 3]), (5, [4, 5, 1, 3])] [4, 5, 0, 2]) 2 1,
    -- 262: t2new.aaaa += np.transpose(tmp18, (0, 1, 3, 2)) * -2
    .add 75 (.tr 63 [0, 1, 3, 2]) (-2) 1,
    -- 263: del tmp18
    .del 63,
    -- 264: t2new.aaaa += np.transpose(tmp22, (1, 0, 3, 2)) * -2
    .add 75 (.tr 72 [1, 0, 3, 2]) (-2) 1,
    -- 265: t2new.aaaa += np.transpose(tmp22, (0, 1, 3, 2)) * 2
    .add 75 (.tr 72 [0, 1, 3, 2]) 2 1,
    -- 266: del tmp22
    .del 72
  ]
  ret := [(chars! "t2new.bbbb", 73), (chars! "t2new.abab", 74), (chars! "t2new.aaaa", 75)]

/-- codegen/UCCD.py:270-586 `update_lams`. -/
def update_lams : GenFun where
  args := [chars! "t2.bbbb", chars! "l2.bbbb", chars! "l2.abab", chars! "t2.abab", chars! "v.bbbb.ovov", chars! "v.aabb.ovov", chars! "t2.aaaa", chars! "v.aaaa.ovov", chars! "l2.aaaa", chars! "f.bb.vv", chars! "v.bbbb.oovv", chars! "f.bb.oo", chars! "f.aa.vv", chars! "v.aaaa.oovv", chars! "v.bbbb.oooo", chars! "v.bbbb.vvvv", chars! "f.aa.oo", chars! "v.aabb.oooo", chars! "v.aabb.vvvv", chars! "v.aaaa.vvvv", chars! "v.aaaa.oooo", chars! "v.aabb.vvoo", chars! "v.aabb.oovv"]
  body := [
    -- 292: tmp38 = einsum(t2.bbbb, (0, 1, 2, 3), l2.bbbb, (4, 3, 0, 1), (4, 2))
    .set 23 (.ein [(0, [0, 1, 2, 3]), (1, [4, 3, 0, 1])] [4, 2]) 1 1,
    -- 293: tmp37 = einsum(l2.abab, (0, 1, 2, 3), t2.abab, (2, 3, 0, 4), (1, 4))
    .set 24 (.ein [(2, [0, 1, 2, 3]), (3, [2, 3, 0, 4])] [1, 4]) 1 1,
    -- 294: tmp47 = einsum(v.bbbb.ovov, (0, 1, 2, 3), t2.bbbb, (0, 2, 4, 1), (4, 3)) * -1
    .set 25 (.ein [(4, [0, 1, 2, 3]), (0, [0, 2, 4, 1])] [4, 3]) (-1) 1,
    -- 295: tmp46 = einsum(v.aabb.ovov, (0, 1, 2, 3), t2.abab, (0, 2, 1, 4), (4, 3))
    .set 26 (.ein [(5, [0, 1, 2, 3]), (3, [0, 2, 1, 4])] [4, 3]) 1 1,
    -- 296: tmp77 = einsum(l2.abab, (0, 1, 2, 3), t2.abab, (2, 4, 0, 5), (3, 4, 1, 5))
    .set 27 (.ein [(2, [0, 1, 2, 3]), (3, [2, 4, 0, 5])] [3, 4, 1, 5]) 1 1,
    -- 297: tmp78 = einsum(t2.bbbb, (0, 1, 2, 3), l2.bbbb, (4, 3, 5, 1), (5, 0, 4, 2))
    .set 28 (.ein [(0, [0, 1, 2, 3]), (1, [4, 3, 5, 1])] [5, 0, 4, 2]) 1 1,
    -- 298: tmp54 = einsum(v.bbbb.ovov, (0, 1, 2, 3), t2.abab, (4, 2, 5, 3), (4, 0, 5, 1))
    .set 29 (.ein [(4, [0, 1, 2, 3]), (3, [4, 2, 5, 3])] [4, 0, 5, 1]) 1 1,
    -- 299: tmp53 = einsum(t2.aaaa, (0, 1, 2, 3), v.aabb.ovov, (1, 3, 4, 5), (0, 4, 2, 5))
    .set 30 (.ein [(6, [0, 1, 2, 3]), (5, [1, 3, 4, 5])] [0, 4, 2, 5]) 1 1,
    -- 300: tmp58 = einsum(l2.abab, (0, 1, 2, 3), t2.abab, (2, 4, 0, 1), (3, 4))
    .set 31 (.ein [(2, [0, 1, 2, 3]), (3, [2, 4, 0, 1])] [3, 4]) 1 1,
    -- 301: tmp59 = einsum(t2.bbbb, (0, 1, 2, 3), l2.bbbb, (2, 3, 4, 1), (4, 0))
    .set 32 (.ein [(0, [0, 1, 2, 3]), (1, [2, 3, 4, 1])] [4, 0]) 1 1,
    -- 302: tmp51 = einsum(t2.bbbb, (0, 1, 2, 3), v.bbbb.ovov, (4, 5, 1, 3), (0, 4, 2, 5))
    .set 33 (.ein [(0, [0, 1, 2, 3]), (4, [4, 5, 1, 3])] [0, 4, 2, 5]) 1 1,
    -- 303: tmp50 = einsum(t2.abab, (0, 1, 2, 3), v.aabb.ovov, (0, 2, 4, 5), (1, 4, 3, 5))
    .set 34 (.ein [(3, [0, 1, 2, 3]), (5, [0, 2, 4, 5])] [1, 4, 3, 5]) 1 1,
    -- 304: tmp41 = einsum(t2.bbbb, (0, 1, 2, 3), v.bbbb.ovov, (4, 3, 1, 2), (0, 4)) * -1
    .set 35 (.ein [(0, [0, 1, 2, 3]), (4, [4, 3, 1, 2])] [0, 4]) (-1) 1,
    -- 305: tmp40 = einsum(t2.abab, (0, 1, 2, 3), v.aabb.ovov, (0, 2, 4, 3), (1, 4))
    .set 36 (.ein [(3, [0, 1, 2, 3]), (5, [0, 2, 4, 3])] [1, 4]) 1 1,
    -- 306: tmp19 = einsum(v.aaaa.ovov, (0, 1, 2, 3), t2.aaaa, (0, 2, 4, 3), (4, 1))
    .set 37 (.ein [(7, [0, 1, 2, 3]), (6, [0, 2, 4, 3])] [4, 1]) 1 1,
    -- 307: tmp20 = einsum(t2.abab, (0, 1, 2, 3), v.aabb.ovov, (0, 4, 1, 3), (2, 4))
    .set 38 (.ein [(3, [0, 1, 2, 3]), (5, [0, 4, 1, 3])] [2, 4]) 1 1,
    -- 308: tmp7 = einsum(t2.abab, (0, 1, 2, 3), v.aaaa.ovov, (4, 5, 0, 2), (4, 1, 5, 3))
    .set 39 (.ein [(3, [0, 1, 2, 3]), (7, [4, 5, 0, 2])] [4, 1, 5, 3]) 1 1,
    -- 309: tmp8 = einsum(v.aabb.ovov, (0, 1, 2, 3), t2.bbbb, (4, 2, 5, 3), (0, 4, 1, 5))
    .set 40 (.ein [(5, [0, 1, 2, 3]), (0, [4, 2, 5, 3])] [0, 4, 1, 5]) 1 1,
    -- 310: tmp5 = einsum(t2.abab, (0, 1, 2, 3), v.aabb.ovov, (4, 5, 1, 3), (0, 4, 2, 5))
    .set 41 (.ein [(3, [0, 1, 2, 3]), (5, [4, 5, 1, 3])] [0, 4, 2, 5]) 1 1,
    -- 311: tmp4 = einsum(v.aaaa.ovov, (0, 1, 2, 3), t2.aaaa, (4, 2, 5, 3), (4, 0, 5, 1))
    .set 42 (.ein [(7, [0, 1, 2, 3]), (6, [4, 2, 5, 3])] [4, 0, 5, 1]) 1 1,
    -- 312: tmp31 = einsum(t2.aaaa, (0, 1, 2, 3), l2.aaaa, (2, 3, 4, 1), (4, 0))
    .set 43 (.ein [(6, [0, 1, 2, 3]), (8, [2, 3, 4, 1])] [4, 0]) 1 1,
    -- 313: tmp32 = einsum(l2.abab, (0, 1, 2, 3), t2.abab, (4, 3, 0, 1), (2, 4))
    .set 44 (.ein [(2, [0, 1, 2, 3]), (3, [4, 3, 0, 1])] [2, 4]) 1 1,
    -- 314: tmp27 = einsum(t2.aaaa, (0, 1, 2, 3), l2.aaaa, (4, 3, 5, 1), (5, 0, 4, 2))
    .set 45 (.ein [(6, [0, 1, 2, 3]), (8, [4, 3, 5, 1])] [5, 0, 4, 2]) 1 1,
    -- 315: tmp28 = einsum(l2.abab, (0, 1, 2, 3), t2.abab, (4, 3, 5, 1), (2, 4, 0, 5))
    .set 46 (.ein [(2, [0, 1, 2, 3]), (3, [4, 3, 5, 1])] [2, 4, 0, 5]) 1 1,
    -- 316: tmp0 = einsum(l2.aaaa, (0, 1, 2, 3), t2.aaaa, (2, 3, 4, 1), (0, 4))
    .set 47 (.ein [(8, [0, 1, 2, 3]), (6, [2, 3, 4, 1])] [0, 4]) 1 1,
    -- 317: tmp1 = einsum(l2.abab, (0, 1, 2, 3), t2.abab, (2, 3, 4, 1), (0, 4))
    .set 48 (.ein [(2, [0, 1, 2, 3]), (3, [2, 3, 4, 1])] [0, 4]) 1 1,
    -- 318: tmp39 = np.copy(tmp37)
    .set 49 (.cp 24) 1 1,
    -- 319: del tmp37
    .del 24,
    -- 320: tmp39 += tmp38 * 2
    .add 49 (.cp 23) 2 1,
    -- 321: del tmp38
    .del 23,
    -- 322: tmp48 = np.copy(f.bb.vv) * -1
    .set 50 (.cp 9) (-1) 1,
    -- 323: tmp48 += tmp46
    .add 50 (.cp 26) 1 1,
    -- 324: del tmp46
    .del 26,
    -- 325: tmp48 += tmp47 * 2
    .add 50 (.cp 25) 2 1,
    -- 326: del tmp47
    .del 25,
    -- 327: tmp79 = np.copy(tmp77)
    .set 51 (.cp 27) 1 1,
    -- 328: del tmp77
    .del 27,
    -- 329: tmp79 += tmp78 * 4
    .add 51 (.cp 28) 4 1,
    -- 330: del tmp78
    .del 28,
    -- 331: tmp55 = np.copy(np.transpose(v.aabb.ovov, (0, 2, 1, 3)))
    .set 52 (.tr 5 [0, 2, 1, 3]) 1 1,
    -- 332: tmp55 += tmp53 * 2
    .add 52 (.cp 30) 2 1,
    -- 333: del tmp53
    .del 30,
    -- 334: tmp55 += tmp54
    .add 52 (.cp 29) 1 1,
    -- 335: del tmp54
    .del 29,
    -- 336: tmp71 = einsum(l2.bbbb, (0, 1, 2, 3), t2.bbbb, (4, 5, 0, 1), (2, 3, 4, 5))
    .set 53 (.ein [(1, [0, 1, 2, 3]), (0, [4, 5, 0, 1])] [2, 3, 4, 5]) 1 1,
    -- 337: tmp60 = np.copy(tmp58) * 0.5
    .set 54 (.cp 31) 1 2,
    -- 338: tmp60 += tmp59
    .add 54 (.cp 32) 1 1,
    -- 339: tmp65 = np.copy(np.transpose(v.bbbb.ovov, (0, 2, 1, 3)))
    .set 55 (.tr 4 [0, 2, 1, 3]) 1 1,
    -- 340: tmp65 += v.bbbb.oovv * -1
    .add 55 (.cp 10) (-1) 1,
    -- 341: tmp65 += tmp50
    .add 55 (.cp 34) 1 1,
    -- 342: tmp65 += tmp51 * 2
    .add 55 (.cp 33) 2 1,
    -- 343: tmp68 = np.copy(f.bb.oo)
    .set 56 (.cp 11) 1 1,
    -- 344: tmp68 += tmp40
    .add 56 (.cp 36) 1 1,
    -- 345: tmp68 += tmp41 * 2
    .add 56 (.cp 35) 2 1,
    -- 346: tmp81 = np.copy(tmp58)
    .set 57 (.cp 31) 1 1,
    -- 347: del tmp58
    .del 31,
    -- 348: tmp81 += tmp59 * 2
    .add 57 (.cp 32) 2 1,
    -- 349: del tmp59
    .del 32,
    -- 350: tmp52 = np.copy(np.transpose(v.bbbb.ovov, (0, 2, 1, 3)))
    .set 58 (.tr 4 [0, 2, 1, 3]) 1 1,
    -- 351: tmp52 += v.bbbb.oovv * -1
    .add 58 (.cp 10) (-1) 1,
    -- 352: tmp52 += tmp50
    .add 58 (.cp 34) 1 1,
    -- 353: del tmp50
    .del 34,
    -- 354: tmp52 += tmp51 * 2
    .add 58 (.cp 33) 2 1,
    -- 355: del tmp51
    .del 33,
    -- 356: tmp12 = einsum(t2.abab, (0, 1, 2, 3), v.aabb.ovov, (4, 2, 1, 3), (0, 4))
    .set 59 (.ein [(3, [0, 1, 2, 3]), (5, [4, 2, 1, 3])] [0, 4]) 1 1,
    -- 357: tmp11 = einsum(t2.aaaa, (0, 1, 2, 3), v.aaaa.ovov, (4, 2, 1, 3), (0, 4))
    .set 60 (.ein [(6, [0, 1, 2, 3]), (7, [4, 2, 1, 3])] [0, 4]) 1 1,
    -- 358: tmp44 = einsum(t2.abab, (0, 1, 2, 3), l2.abab, (2, 3, 4, 5), (4, 0, 5, 1))
    .set 61 (.ein [(3, [0, 1, 2, 3]), (2, [2, 3, 4, 5])] [4, 0, 5, 1]) 1 1,
    -- 359: tmp21 = np.copy(f.aa.vv) * -1
    .set 62 (.cp 12) (-1) 1,
    -- 360: tmp21 += tmp19 * 2
    .add 62 (.cp 37) 2 1,
    -- 361: del tmp19
    .del 37,
    -- 362: tmp21 += tmp20
    .add 62 (.cp 38) 1 1,
    -- 363: del tmp20
    .del 38,
    -- 364: tmp17 = einsum(t2.aaaa, (0, 1, 2, 3), l2.aaaa, (2, 3, 4, 5), (4, 5, 0, 1))
    .set 63 (.ein [(6, [0, 1, 2, 3]), (8, [2, 3, 4, 5])] [4, 5, 0, 1]) 1 1,
    -- 365: tmp9 = np.copy(np.transpose(v.aabb.ovov, (0, 2, 1, 3)))
    .set 64 (.tr 5 [0, 2, 1, 3]) 1 1,
    -- 366: tmp9 += tmp7
    .add 64 (.cp 39) 1 1,
    -- 367: del tmp7
    .del 39,
    -- 368: tmp9 += tmp8 * 2
    .add 64 (.cp 40) 2 1,
    -- 369: del tmp8
    .del 40,
    -- 370: tmp25 = np.copy(np.transpose(v.aaaa.ovov, (0, 2, 1, 3)))
    .set 65 (.tr 7 [0, 2, 1, 3]) 1 1,
    -- 371: tmp25 += v.aaaa.oovv * -1
    .add 65 (.cp 13) (-1) 1,
    -- 372: tmp25 += tmp4 * 2
    .add 65 (.cp 42) 2 1,
    -- 373: tmp25 += tmp5
    .add 65 (.cp 41) 1 1,
    -- 374: tmp35 = np.copy(tmp31)
    .set 66 (.cp 43) 1 1,
    -- 375: tmp35 += tmp32 * 0.5
    .add 66 (.cp 44) 1 2,
    -- 376: tmp33 = np.copy(tmp31) * 2
    .set 67 (.cp 43) 2 1,
    -- 377: del tmp31
    .del 43,
    -- 378: tmp33 += tmp32
    .add 67 (.cp 44) 1 1,
    -- 379: del tmp32
    .del 44,
    -- 380: tmp29 = np.copy(tmp27) * 4
    .set 68 (.cp 45) 4 1,
    -- 381: del tmp27
    .del 45,
    -- 382: tmp29 += tmp28
    .add 68 (.cp 46) 1 1,
    -- 383: del tmp28
    .del 46,
    -- 384: tmp2 = np.copy(tmp0) * 2
    .set 69 (.cp 47) 2 1,
    -- 385: tmp2 += tmp1
    .add 69 (.cp 48) 1 1,
    -- 386: tmp75 = einsum(tmp39, (0, 1), v.bbbb.ovov, (2, 3, 4, 1), (2, 4, 0, 3))
    .set 70 (.ein [(49, [0, 1]), (4, [2, 3, 4, 1])] [2, 4, 0, 3]) 1 1,
    -- 387: tmp64 = einsum(v.bbbb.ovov, (0, 1, 2, 3), tmp39, (4, 1), (0, 2, 4, 3))
    .set 71 (.ein [(4, [0, 1, 2, 3]), (49, [4, 1])] [0, 2, 4, 3]) 1 1,
    -- 388: tmp73 = einsum(tmp48, (0, 1), l2.bbbb, (2, 0, 3, 4), (3, 4, 2, 1)) * -1
    .set 72 (.ein [(50, [0, 1]), (1, [2, 0, 3, 4])] [3, 4, 2, 1]) (-1) 1,
    -- 389: tmp80 = einsum(tmp79, (0, 1, 2, 3), v.bbbb.ovov, (4, 3, 1, 5), (0, 4, 2, 5))
    .set 73 (.ein [(51, [0, 1, 2, 3]), (4, [4, 3, 1, 5])] [0, 4, 2, 5]) 1 1,
    -- 390: del tmp79
    .del 51,
    -- 391: tmp74 = np.copy(v.bbbb.oooo)
    .set 74 (.cp 14) 1 1,
    -- 392: tmp74 += einsum(t2.bbbb, (0, 1, 2, 3), v.bbbb.ovov, (4, 2, 5, 3), (0, 4, 5, 1))
    .add 74 (.ein [(0, [0, 1, 2, 3]), (4, [4, 2, 5, 3])] [0, 4, 5, 1]) 1 1,
    -- 393: tmp67 = einsum(tmp55, (0, 1, 2, 3), l2.abab, (2, 4, 0, 5), (1, 5, 3, 4))
    .set 75 (.ein [(52, [0, 1, 2, 3]), (2, [2, 4, 0, 5])] [1, 5, 3, 4]) 1 1,
    -- 394: tmp72 = einsum(tmp71, (0, 1, 2, 3), v.bbbb.ovov, (3, 4, 2, 5), (1, 0, 5, 4)) * -1
    .set 76 (.ein [(53, [0, 1, 2, 3]), (4, [3, 4, 2, 5])] [1, 0, 5, 4]) (-1) 1,
    -- 395: del tmp71
    .del 53,
    -- 396: tmp83 = einsum(tmp60, (0, 1), v.bbbb.ovov, (2, 3, 1, 4), (0, 2, 4, 3)) * 2
    .set 77 (.ein [(54, [0, 1]), (4, [2, 3, 1, 4])] [0, 2, 4, 3]) 2 1,
    -- 397: tmp70 = einsum(l2.bbbb, (0, 1, 2, 3), v.bbbb.vvvv, (4, 0, 5, 1), (2, 3, 4, 5))
    .set 78 (.ein [(1, [0, 1, 2, 3]), (15, [4, 0, 5, 1])] [2, 3, 4, 5]) 1 1,
    -- 398: tmp66 = einsum(tmp65, (0, 1, 2, 3), l2.bbbb, (4, 2, 5, 0), (5, 1, 4, 3)) * 2
    .set 79 (.ein [(55, [0, 1, 2, 3]), (1, [4, 2, 5, 0])] [5, 1, 4, 3]) 2 1,
    -- 399: del tmp65
    .del 55,
    -- 400: tmp69 = einsum(l2.bbbb, (0, 1, 2, 3), tmp68, (3, 4), (2, 4, 0, 1)) * -2
    .set 80 (.ein [(1, [0, 1, 2, 3]), (56, [3, 4])] [2, 4, 0, 1]) (-2) 1,
    -- 401: del tmp68
    .del 56,
    -- 402: tmp82 = einsum(tmp81, (0, 1), v.bbbb.ovov, (2, 3, 1, 4), (0, 2, 4, 3))
    .set 81 (.ein [(57, [0, 1]), (4, [2, 3, 1, 4])] [0, 2, 4, 3]) 1 1,
    -- 403: del tmp81
    .del 57,
    -- 404: tmp76 = einsum(tmp52, (0, 1, 2, 3), l2.bbbb, (4, 2, 5, 0), (5, 1, 4, 3))
    .set 82 (.ein [(58, [0, 1, 2, 3]), (1, [4, 2, 5, 0])] [5, 1, 4, 3]) 1 1,
    -- 405: tmp15 = np.copy(f.aa.oo)
    .set 83 (.cp 16) 1 1,
    -- 406: tmp15 += tmp11 * 2
    .add 83 (.cp 60) 2 1,
    -- 407: tmp15 += tmp12
    .add 83 (.cp 59) 1 1,
    -- 408: tmp57 = einsum(t2.abab, (0, 1, 2, 3), v.aabb.ovov, (4, 2, 1, 5), (0, 4, 3, 5))
    .set 84 (.ein [(3, [0, 1, 2, 3]), (5, [4, 2, 1, 5])] [0, 4, 3, 5]) 1 1,
    -- 409: tmp62 = einsum(l2.abab, (0, 1, 2, 3), t2.aaaa, (4, 2, 5, 0), (4, 3, 5, 1))
    .set 85 (.ein [(2, [0, 1, 2, 3]), (6, [4, 2, 5, 0])] [4, 3, 5, 1]) 1 1,
    -- 410: tmp62 += einsum(l2.bbbb, (0, 1, 2, 3), t2.abab, (4, 3, 5, 1), (4, 2, 5, 0))
    .add 85 (.ein [(1, [0, 1, 2, 3]), (3, [4, 3, 5, 1])] [4, 2, 5, 0]) 1 1,
    -- 411: tmp45 = einsum(tmp44, (0, 1, 2, 3), v.aabb.ovov, (1, 4, 3, 5), (0, 2, 4, 5))
    .set 86 (.ein [(61, [0, 1, 2, 3]), (5, [1, 4, 3, 5])] [0, 2, 4, 5]) 1 1,
    -- 412: del tmp44
    .del 61,
    -- 413: tmp49 = np.copy(v.aabb.oooo)
    .set 87 (.cp 17) 1 1,
    -- 414: tmp49 += einsum(t2.abab, (0, 1, 2, 3), v.aabb.ovov, (4, 2, 5, 3), (0, 4, 1, 5))
    .add 87 (.ein [(3, [0, 1, 2, 3]), (5, [4, 2, 5, 3])] [0, 4, 1, 5]) 1 1,
    -- 415: tmp43 = einsum(v.aabb.vvvv, (0, 1, 2, 3), l2.abab, (1, 3, 4, 5), (4, 5, 0, 2))
    .set 88 (.ein [(18, [0, 1, 2, 3]), (2, [1, 3, 4, 5])] [4, 5, 0, 2]) 1 1,
    -- 416: tmp61 = np.copy(tmp0)
    .set 89 (.cp 47) 1 1,
    -- 417: del tmp0
    .del 47,
    -- 418: tmp61 += tmp1 * 0.5
    .add 89 (.cp 48) 1 2,
    -- 419: del tmp1
    .del 48,
    -- 420: tmp63 = einsum(t2.abab, (0, 1, 2, 3), l2.aaaa, (4, 2, 5, 0), (5, 1, 4, 3))
    .set 90 (.ein [(3, [0, 1, 2, 3]), (8, [4, 2, 5, 0])] [5, 1, 4, 3]) 1 1,
    -- 421: tmp63 += einsum(t2.bbbb, (0, 1, 2, 3), l2.abab, (4, 3, 5, 1), (5, 0, 4, 2))
    .add 90 (.ein [(0, [0, 1, 2, 3]), (2, [4, 3, 5, 1])] [5, 0, 4, 2]) 1 1,
    -- 422: tmp42 = np.copy(f.bb.oo) * 0.5
    .set 91 (.cp 11) 1 2,
    -- 423: tmp42 += tmp40 * 0.5
    .add 91 (.cp 36) 1 2,
    -- 424: del tmp40
    .del 36,
    -- 425: tmp42 += tmp41
    .add 91 (.cp 35) 1 1,
    -- 426: del tmp41
    .del 35,
    -- 427: tmp14 = np.copy(np.transpose(v.aaaa.ovov, (0, 2, 1, 3)))
    .set 92 (.tr 7 [0, 2, 1, 3]) 1 1,
    -- 428: tmp14 += v.aaaa.oovv * -1
    .add 92 (.cp 13) (-1) 1,
    -- 429: tmp14 += tmp4 * 2
    .add 92 (.cp 42) 2 1,
    -- 430: tmp14 += tmp5
    .add 92 (.cp 41) 1 1,
    -- 431: tmp56 = einsum(t2.abab, (0, 1, 2, 3), v.aabb.ovov, (0, 4, 5, 3), (1, 5, 2, 4))
    .set 93 (.ein [(3, [0, 1, 2, 3]), (5, [0, 4, 5, 3])] [1, 5, 2, 4]) 1 1,
    -- 432: tmp22 = einsum(tmp21, (0, 1), l2.aaaa, (2, 0, 3, 4), (3, 4, 1, 2)) * -1
    .set 94 (.ein [(62, [0, 1]), (8, [2, 0, 3, 4])] [3, 4, 1, 2]) (-1) 1,
    -- 433: tmp6 = np.copy(np.transpose(v.aaaa.ovov, (0, 2, 1, 3))) * 0.5
    .set 95 (.tr 7 [0, 2, 1, 3]) 1 2,
    -- 434: tmp6 += v.aaaa.oovv * -0.5
    .add 95 (.cp 13) (-1) 2,
    -- 435: tmp6 += tmp4
    .add 95 (.cp 42) 1 1,
    -- 436: del tmp4
    .del 42,
    -- 437: tmp6 += tmp5 * 0.5
    .add 95 (.cp 41) 1 2,
    -- 438: del tmp5
    .del 41,
    -- 439: tmp13 = np.copy(f.aa.oo) * 0.5
    .set 96 (.cp 16) 1 2,
    -- 440: tmp13 += tmp11
    .add 96 (.cp 60) 1 1,
    -- 441: del tmp11
    .del 60,
    -- 442: tmp13 += tmp12 * 0.5
    .add 96 (.cp 59) 1 2,
    -- 443: del tmp12
    .del 59,
    -- 444: tmp18 = einsum(v.aaaa.ovov, (0, 1, 2, 3), tmp17, (4, 5, 2, 0), (5, 4, 3, 1)) * -1
    .set 97 (.ein [(7, [0, 1, 2, 3]), (63, [4, 5, 2, 0])] [5, 4, 3, 1]) (-1) 1,
    -- 445: del tmp17
    .del 63,
    -- 446: tmp10 = einsum(tmp9, (0, 1, 2, 3), l2.abab, (4, 3, 5, 1), (0, 5, 2, 4))
    .set 98 (.ein [(64, [0, 1, 2, 3]), (2, [4, 3, 5, 1])] [0, 5, 2, 4]) 1 1,
    -- 447: tmp26 = einsum(l2.aaaa, (0, 1, 2, 3), tmp25, (3, 4, 1, 5), (4, 2, 5, 0))
    .set 99 (.ein [(8, [0, 1, 2, 3]), (65, [3, 4, 1, 5])] [4, 2, 5, 0]) 1 1,
    -- 448: del tmp25
    .del 65,
    -- 449: tmp36 = einsum(v.aaaa.ovov, (0, 1, 2, 3), tmp35, (4, 2), (0, 4, 3, 1)) * 2
    .set 100 (.ein [(7, [0, 1, 2, 3]), (66, [4, 2])] [0, 4, 3, 1]) 2 1,
    -- 450: tmp16 = einsum(v.aaaa.vvvv, (0, 1, 2, 3), l2.aaaa, (3, 1, 4, 5), (4, 5, 0, 2)) * -1
    .set 101 (.ein [(19, [0, 1, 2, 3]), (8, [3, 1, 4, 5])] [4, 5, 0, 2]) (-1) 1,
    -- 451: tmp34 = einsum(v.aaaa.ovov, (0, 1, 2, 3), tmp33, (4, 2), (0, 4, 3, 1))
    .set 102 (.ein [(7, [0, 1, 2, 3]), (67, [4, 2])] [0, 4, 3, 1]) 1 1,
    -- 452: del tmp33
    .del 67,
    -- 453: tmp30 = einsum(v.aaaa.ovov, (0, 1, 2, 3), tmp29, (4, 2, 5, 1), (0, 4, 3, 5))
    .set 103 (.ein [(7, [0, 1, 2, 3]), (68, [4, 2, 5, 1])] [0, 4, 3, 5]) 1 1,
    -- 454: del tmp29
    .del 68,
    -- 455: tmp24 = einsum(tmp2, (0, 1), v.aaaa.ovov, (2, 3, 4, 1), (2, 4, 3, 0))
    .set 104 (.ein [(69, [0, 1]), (7, [2, 3, 4, 1])] [2, 4, 3, 0]) 1 1,
    -- 456: tmp3 = einsum(v.aaaa.ovov, (0, 1, 2, 3), tmp2, (4, 1), (0, 2, 3, 4))
    .set 105 (.ein [(7, [0, 1, 2, 3]), (69, [4, 1])] [0, 2, 3, 4]) 1 1,
    -- 457: del tmp2
    .del 69,
    -- 458: tmp23 = np.copy(v.aaaa.oooo)
    .set 106 (.cp 20) 1 1,
    -- 459: tmp23 += einsum(t2.aaaa, (0, 1, 2, 3), v.aaaa.ovov, (4, 3, 5, 2), (0, 4, 1, 5)) * -1
    .add 106 (.ein [(6, [0, 1, 2, 3]), (7, [4, 3, 5, 2])] [0, 4, 1, 5]) (-1) 1,
    -- 460: l2new.bbbb = np.copy(np.transpose(v.bbbb.ovov, (1, 3, 0, 2)))
    .set 107 (.tr 4 [1, 3, 0, 2]) 1 1,
    -- 461: l2new.bbbb += np.transpose(tmp64, (3, 2, 1, 0)) * -1
    .add 107 (.tr 71 [3, 2, 1, 0]) (-1) 1,
    -- 462: l2new.bbbb += np.transpose(v.bbbb.ovov, (3, 1, 0, 2)) * -1
    .add 107 (.tr 4 [3, 1, 0, 2]) (-1) 1,
    -- 463: l2new.bbbb += np.transpose(tmp64, (2, 3, 1, 0))
    .add 107 (.tr 71 [2, 3, 1, 0]) 1 1,
    -- 464: del tmp64
    .del 71,
    -- 465: l2new.bbbb += np.transpose(tmp66, (3, 2, 0, 1)) * -1
    .add 107 (.tr 79 [3, 2, 0, 1]) (-1) 1,
    -- 466: l2new.bbbb += np.transpose(tmp67, (2, 3, 1, 0)) * -1
    .add 107 (.tr 75 [2, 3, 1, 0]) (-1) 1,
    -- 467: l2new.bbbb += np.transpose(tmp69, (3, 2, 0, 1)) * -1
    .add 107 (.tr 80 [3, 2, 0, 1]) (-1) 1,
    -- 468: l2new.bbbb += np.transpose(tmp66, (3, 2, 1, 0))
    .add 107 (.tr 79 [3, 2, 1, 0]) 1 1,
    -- 469: del tmp66
    .del 79,
    -- 470: l2new.bbbb += np.transpose(tmp67, (2, 3, 0, 1))
    .add 107 (.tr 75 [2, 3, 0, 1]) 1 1,
    -- 471: l2new.bbbb += np.transpose(tmp69, (3, 2, 1, 0))
    .add 107 (.tr 80 [3, 2, 1, 0]) 1 1,
    -- 472: del tmp69
    .del 80,
    -- 473: l2new.bbbb += np.transpose(tmp70, (3, 2, 1, 0)) * 2
    .add 107 (.tr 78 [3, 2, 1, 0]) 2 1,
    -- 474: del tmp70
    .del 78,
    -- 475: l2new.bbbb += np.transpose(tmp72, (3, 2, 1, 0)) * 2
    .add 107 (.tr 76 [3, 2, 1, 0]) 2 1,
    -- 476: del tmp72
    .del 76,
    -- 477: l2new.bbbb += np.transpose(tmp73, (3, 2, 1, 0)) * 2
    .add 107 (.tr 72 [3, 2, 1, 0]) 2 1,
    -- 478: l2new.bbbb += np.transpose(tmp73, (2, 3, 1, 0)) * -2
    .add 107 (.tr 72 [2, 3, 1, 0]) (-2) 1,
    -- 479: del tmp73
    .del 72,
    -- 480: l2new.bbbb += einsum(l2.bbbb, (0, 1, 2, 3), tmp74, (2, 4, 5, 3), (0, 1, 5, 4)) * -2
    .add 107 (.ein [(1, [0, 1, 2, 3]), (74, [2, 4, 5, 3])] [0, 1, 5, 4]) (-2) 1,
    -- 481: del tmp74
    .del 74,
    -- 482: l2new.bbbb += np.transpose(tmp75, (3, 2, 1, 0))
    .add 107 (.tr 70 [3, 2, 1, 0]) 1 1,
    -- 483: l2new.bbbb += np.transpose(tmp76, (2, 3, 0, 1)) * 2
    .add 107 (.tr 82 [2, 3, 0, 1]) 2 1,
    -- 484: l2new.bbbb += np.transpose(tmp67, (3, 2, 1, 0))
    .add 107 (.tr 75 [3, 2, 1, 0]) 1 1,
    -- 485: l2new.bbbb += np.transpose(tmp76, (2, 3, 1, 0)) * -2
    .add 107 (.tr 82 [2, 3, 1, 0]) (-2) 1,
    -- 486: del tmp76
    .del 82,
    -- 487: l2new.bbbb += np.transpose(tmp67, (3, 2, 0, 1)) * -1
    .add 107 (.tr 75 [3, 2, 0, 1]) (-1) 1,
    -- 488: del tmp67
    .del 75,
    -- 489: l2new.bbbb += np.transpose(tmp80, (3, 2, 0, 1))
    .add 107 (.tr 73 [3, 2, 0, 1]) 1 1,
    -- 490: l2new.bbbb += np.transpose(tmp82, (2, 3, 0, 1)) * -1
    .add 107 (.tr 81 [2, 3, 0, 1]) (-1) 1,
    -- 491: l2new.bbbb += np.transpose(tmp80, (2, 3, 0, 1)) * -1
    .add 107 (.tr 73 [2, 3, 0, 1]) (-1) 1,
    -- 492: l2new.bbbb += np.transpose(tmp82, (3, 2, 0, 1))
    .add 107 (.tr 81 [3, 2, 0, 1]) 1 1,
    -- 493: del tmp82
    .del 81,
    -- 494: l2new.bbbb += np.transpose(tmp80, (3, 2, 1, 0)) * -1
    .add 107 (.tr 73 [3, 2, 1, 0]) (-1) 1,
    -- 495: l2new.bbbb += np.transpose(tmp83, (2, 3, 1, 0))
    .add 107 (.tr 77 [2, 3, 1, 0]) 1 1,
    -- 496: l2new.bbbb += np.transpose(tmp80, (2, 3, 1, 0))
    .add 107 (.tr 73 [2, 3, 1, 0]) 1 1,
    -- 497: del tmp80
    .del 73,
    -- 498: l2new.bbbb += np.transpose(tmp83, (3, 2, 1, 0)) * -1
    .add 107 (.tr 77 [3, 2, 1, 0]) (-1) 1,
    -- 499: del tmp83
    .del 77,
    -- 500: l2new.bbbb += np.transpose(tmp75, (2, 3, 1, 0)) * -1
    .add 107 (.tr 70 [2, 3, 1, 0]) (-1) 1,
    -- 501: del tmp75
    .del 70,
    -- 502: l2new.abab = np.copy(np.transpose(v.aabb.ovov, (1, 3, 0, 2)))
    .set 108 (.tr 5 [1, 3, 0, 2]) 1 1,
    -- 503: l2new.abab += einsum(v.aabb.ovov, (0, 1, 2, 3), tmp39, (4, 3), (1, 4, 0, 2)) * -1
    .add 108 (.ein [(5, [0, 1, 2, 3]), (49, [4, 3])] [1, 4, 0, 2]) (-1) 1,
    -- 504: del tmp39
    .del 49,
    -- 505: l2new.abab += einsum(v.aabb.vvoo, (0, 1, 2, 3), l2.abab, (1, 4, 5, 3), (0, 4, 5, 2)) * -1
    .add 108 (.ein [(21, [0, 1, 2, 3]), (2, [1, 4, 5, 3])] [0, 4, 5, 2]) (-1) 1,
    -- 506: l2new.abab += einsum(tmp42, (0, 1), l2.abab, (2, 3, 4, 0), (2, 3, 4, 1)) * -2
    .add 108 (.ein [(91, [0, 1]), (2, [2, 3, 4, 0])] [2, 3, 4, 1]) (-2) 1,
    -- 507: del tmp42
    .del 91,
    -- 508: l2new.abab += einsum(tmp14, (0, 1, 2, 3), l2.abab, (2, 4, 0, 5), (3, 4, 1, 5))
    .add 108 (.ein [(92, [0, 1, 2, 3]), (2, [2, 4, 0, 5])] [3, 4, 1, 5]) 1 1,
    -- 509: l2new.abab += einsum(l2.bbbb, (0, 1, 2, 3), tmp9, (4, 3, 5, 1), (5, 0, 4, 2)) * 2
    .add 108 (.ein [(1, [0, 1, 2, 3]), (64, [4, 3, 5, 1])] [5, 0, 4, 2]) 2 1,
    -- 510: del tmp9
    .del 64,
    -- 511: l2new.abab += einsum(l2.abab, (0, 1, 2, 3), tmp15, (2, 4), (0, 1, 4, 3)) * -1
    .add 108 (.ein [(2, [0, 1, 2, 3]), (83, [2, 4])] [0, 1, 4, 3]) (-1) 1,
    -- 512: l2new.abab += np.transpose(tmp43, (2, 3, 0, 1))
    .add 108 (.tr 88 [2, 3, 0, 1]) 1 1,
    -- 513: del tmp43
    .del 88,
    -- 514: l2new.abab += np.transpose(tmp45, (2, 3, 0, 1))
    .add 108 (.tr 86 [2, 3, 0, 1]) 1 1,
    -- 515: del tmp45
    .del 86,
    -- 516: l2new.abab += einsum(tmp21, (0, 1), l2.abab, (0, 2, 3, 4), (1, 2, 3, 4)) * -1
    .add 108 (.ein [(62, [0, 1]), (2, [0, 2, 3, 4])] [1, 2, 3, 4]) (-1) 1,
    -- 517: del tmp21
    .del 62,
    -- 518: l2new.abab += einsum(l2.abab, (0, 1, 2, 3), tmp48, (1, 4), (0, 4, 2, 3)) * -1
    .add 108 (.ein [(2, [0, 1, 2, 3]), (50, [1, 4])] [0, 4, 2, 3]) (-1) 1,
    -- 519: del tmp48
    .del 50,
    -- 520: l2new.abab += einsum(tmp49, (0, 1, 2, 3), l2.abab, (4, 5, 0, 2), (4, 5, 1, 3))
    .add 108 (.ein [(87, [0, 1, 2, 3]), (2, [4, 5, 0, 2])] [4, 5, 1, 3]) 1 1,
    -- 521: del tmp49
    .del 87,
    -- 522: l2new.abab += einsum(tmp52, (0, 1, 2, 3), l2.abab, (4, 2, 5, 0), (4, 3, 5, 1))
    .add 108 (.ein [(58, [0, 1, 2, 3]), (2, [4, 2, 5, 0])] [4, 3, 5, 1]) 1 1,
    -- 523: del tmp52
    .del 58,
    -- 524: l2new.abab += einsum(l2.aaaa, (0, 1, 2, 3), tmp55, (3, 4, 1, 5), (0, 5, 2, 4)) * 2
    .add 108 (.ein [(8, [0, 1, 2, 3]), (52, [3, 4, 1, 5])] [0, 5, 2, 4]) 2 1,
    -- 525: del tmp55
    .del 52,
    -- 526: l2new.abab += einsum(l2.abab, (0, 1, 2, 3), v.aabb.oovv, (4, 2, 5, 1), (0, 5, 4, 3)) * -1
    .add 108 (.ein [(2, [0, 1, 2, 3]), (22, [4, 2, 5, 1])] [0, 5, 4, 3]) (-1) 1,
    -- 527: l2new.abab += einsum(l2.abab, (0, 1, 2, 3), tmp56, (3, 4, 0, 5), (5, 1, 2, 4))
    .add 108 (.ein [(2, [0, 1, 2, 3]), (93, [3, 4, 0, 5])] [5, 1, 2, 4]) 1 1,
    -- 528: del tmp56
    .del 93,
    -- 529: l2new.abab += einsum(v.aabb.ovov, (0, 1, 2, 3), tmp35, (4, 0), (1, 3, 4, 2)) * -2
    .add 108 (.ein [(5, [0, 1, 2, 3]), (66, [4, 0])] [1, 3, 4, 2]) (-2) 1,
    -- 530: del tmp35
    .del 66,
    -- 531: l2new.abab += einsum(tmp57, (0, 1, 2, 3), l2.abab, (4, 2, 0, 5), (4, 3, 1, 5))
    .add 108 (.ein [(84, [0, 1, 2, 3]), (2, [4, 2, 0, 5])] [4, 3, 1, 5]) 1 1,
    -- 532: del tmp57
    .del 84,
    -- 533: l2new.abab += einsum(tmp60, (0, 1), v.aabb.ovov, (2, 3, 1, 4), (3, 4, 2, 0)) * -2
    .add 108 (.ein [(54, [0, 1]), (5, [2, 3, 1, 4])] [3, 4, 2, 0]) (-2) 1,
    -- 534: del tmp60
    .del 54,
    -- 535: l2new.abab += einsum(tmp61, (0, 1), v.aabb.ovov, (2, 1, 3, 4), (0, 4, 2, 3)) * -2
    .add 108 (.ein [(89, [0, 1]), (5, [2, 1, 3, 4])] [0, 4, 2, 3]) (-2) 1,
    -- 536: del tmp61
    .del 89,
    -- 537: l2new.abab += einsum(tmp62, (0, 1, 2, 3), v.aaaa.ovov, (4, 2, 0, 5), (5, 3, 4, 1)) * -2
    .add 108 (.ein [(85, [0, 1, 2, 3]), (7, [4, 2, 0, 5])] [5, 3, 4, 1]) (-2) 1,
    -- 538: del tmp62
    .del 85,
    -- 539: l2new.abab += einsum(v.bbbb.ovov, (0, 1, 2, 3), tmp63, (4, 2, 5, 1), (5, 3, 4, 0)) * -2
    .add 108 (.ein [(4, [0, 1, 2, 3]), (90, [4, 2, 5, 1])] [5, 3, 4, 0]) (-2) 1,
    -- 540: del tmp63
    .del 90,
    -- 541: l2new.aaaa = np.copy(np.transpose(v.aaaa.ovov, (1, 3, 0, 2)))
    .set 109 (.tr 7 [1, 3, 0, 2]) 1 1,
    -- 542: l2new.aaaa += np.transpose(tmp3, (2, 3, 1, 0)) * -1
    .add 109 (.tr 105 [2, 3, 1, 0]) (-1) 1,
    -- 543: l2new.aaaa += np.transpose(v.aaaa.ovov, (3, 1, 0, 2)) * -1
    .add 109 (.tr 7 [3, 1, 0, 2]) (-1) 1,
    -- 544: l2new.aaaa += np.transpose(tmp3, (3, 2, 1, 0))
    .add 109 (.tr 105 [3, 2, 1, 0]) 1 1,
    -- 545: del tmp3
    .del 105,
    -- 546: l2new.aaaa += einsum(l2.aaaa, (0, 1, 2, 3), tmp6, (3, 4, 1, 5), (5, 0, 2, 4)) * -4
    .add 109 (.ein [(8, [0, 1, 2, 3]), (95, [3, 4, 1, 5])] [5, 0, 2, 4]) (-4) 1,
    -- 547: del tmp6
    .del 95,
    -- 548: l2new.aaaa += np.transpose(tmp10, (2, 3, 1, 0)) * -1
    .add 109 (.tr 98 [2, 3, 1, 0]) (-1) 1,
    -- 549: l2new.aaaa += einsum(l2.aaaa, (0, 1, 2, 3), tmp13, (3, 4), (0, 1, 2, 4)) * -4
    .add 109 (.ein [(8, [0, 1, 2, 3]), (96, [3, 4])] [0, 1, 2, 4]) (-4) 1,
    -- 550: del tmp13
    .del 96,
    -- 551: l2new.aaaa += einsum(l2.aaaa, (0, 1, 2, 3), tmp14, (3, 4, 1, 5), (5, 0, 4, 2)) * 2
    .add 109 (.ein [(8, [0, 1, 2, 3]), (92, [3, 4, 1, 5])] [5, 0, 4, 2]) 2 1,
    -- 552: del tmp14
    .del 92,
    -- 553: l2new.aaaa += np.transpose(tmp10, (2, 3, 0, 1))
    .add 109 (.tr 98 [2, 3, 0, 1]) 1 1,
    -- 554: l2new.aaaa += einsum(tmp15, (0, 1), l2.aaaa, (2, 3, 4, 0), (2, 3, 1, 4)) * 2
    .add 109 (.ein [(83, [0, 1]), (8, [2, 3, 4, 0])] [2, 3, 1, 4]) 2 1,
    -- 555: del tmp15
    .del 83,
    -- 556: l2new.aaaa += np.transpose(tmp16, (3, 2, 1, 0)) * 2
    .add 109 (.tr 101 [3, 2, 1, 0]) 2 1,
    -- 557: del tmp16
    .del 101,
    -- 558: l2new.aaaa += np.transpose(tmp18, (3, 2, 1, 0)) * 2
    .add 109 (.tr 97 [3, 2, 1, 0]) 2 1,
    -- 559: del tmp18
    .del 97,
    -- 560: l2new.aaaa += np.transpose(tmp22, (2, 3, 1, 0)) * 2
    .add 109 (.tr 94 [2, 3, 1, 0]) 2 1,
    -- 561: l2new.aaaa += np.transpose(tmp22, (3, 2, 1, 0)) * -2
    .add 109 (.tr 94 [3, 2, 1, 0]) (-2) 1,
    -- 562: del tmp22
    .del 94,
    -- 563: l2new.aaaa += einsum(tmp23, (0, 1, 2, 3), l2.aaaa, (4, 5, 0, 2), (4, 5, 1, 3)) * 2
    .add 109 (.ein [(106, [0, 1, 2, 3]), (8, [4, 5, 0, 2])] [4, 5, 1, 3]) 2 1,
    -- 564: del tmp23
    .del 106,
    -- 565: l2new.aaaa += np.transpose(tmp24, (2, 3, 1, 0))
    .add 109 (.tr 104 [2, 3, 1, 0]) 1 1,
    -- 566: l2new.aaaa += np.transpose(tmp26, (3, 2, 1, 0)) * 2
    .add 109 (.tr 99 [3, 2, 1, 0]) 2 1,
    -- 567: l2new.aaaa += np.transpose(tmp10, (3, 2, 1, 0))
    .add 109 (.tr 98 [3, 2, 1, 0]) 1 1,
    -- 568: l2new.aaaa += np.transpose(tmp26, (3, 2, 0, 1)) * -2
    .add 109 (.tr 99 [3, 2, 0, 1]) (-2) 1,
    -- 569: del tmp26
    .del 99,
    -- 570: l2new.aaaa += np.transpose(tmp10, (3, 2, 0, 1)) * -1
    .add 109 (.tr 98 [3, 2, 0, 1]) (-1) 1,
    -- 571: del tmp10
    .del 98,
    -- 572: l2new.aaaa += np.transpose(tmp30, (2, 3, 1, 0))
    .add 109 (.tr 103 [2, 3, 1, 0]) 1 1,
    -- 573: l2new.aaaa += np.transpose(tmp34, (2, 3, 1, 0)) * -1
    .add 109 (.tr 102 [2, 3, 1, 0]) (-1) 1,
    -- 574: l2new.aaaa += np.transpose(tmp30, (3, 2, 1, 0)) * -1
    .add 109 (.tr 103 [3, 2, 1, 0]) (-1) 1,
    -- 575: l2new.aaaa += np.transpose(tmp34, (3, 2, 1, 0))
    .add 109 (.tr 102 [3, 2, 1, 0]) 1 1,
    -- 576: del tmp34
    .del 102,
    -- 577: l2new.aaaa += np.transpose(tmp30, (2, 3, 0, 1)) * -1
    .add 109 (.tr 103 [2, 3, 0, 1]) (-1) 1,
    -- 578: l2new.aaaa += np.transpose(tmp36, (2, 3, 0, 1))
    .add 109 (.tr 100 [2, 3, 0, 1]) 1 1,
    -- 579: l2new.aaaa += np.transpose(tmp30, (3, 2, 0, 1))
    .add 109 (.tr 103 [3, 2, 0, 1]) 1 1,
    -- 580: del tmp30
    .del 103,
    -- 581: l2new.aaaa += np.transpose(tmp36, (3, 2, 0, 1)) * -1
    .add 109 (.tr 100 [3, 2, 0, 1]) (-1) 1,
    -- 582: del tmp36
    .del 100,
    -- 583: l2new.aaaa += np.transpose(tmp24, (3, 2, 1, 0)) * -1
    .add 109 (.tr 104 [3, 2, 1, 0]) (-1) 1,
    -- 584: del tmp24
    .del 104
  ]
  ret := [(chars! "l2new.bbbb", 107), (chars! "l2new.abab", 108), (chars! "l2new.aaaa", 109)]

end Ebcc.Gen.UCCD
