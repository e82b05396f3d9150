import Verif.Model.GenCode
/-!
Functions of `ebcc/codegen/UQCISD.py`, written by `tools/gencode.py`.  Comments give the
number and the text of the line of each statement.
-/

set_option maxRecDepth 100000

namespace Ebcc.Gen.UQCISD

/-- codegen/UQCISD.py:19-40 `energy`. -/
def energy : GenFun where
  args := [chars! "v.aabb.ovov", chars! "t2.abab", chars! "v.bbbb.ovov", chars! "t2.bbbb", chars! "v.aaaa.ovov", chars! "t2.aaaa"]
  body := [
    -- 36: e_cc = einsum(v.aabb.ovov, (0, 1, 2, 3), t2.abab, (0, 2, 1, 3), ())
    .set 6 (.ein [(0, [0, 1, 2, 3]), (1, [0, 2, 1, 3])] []) 1 1,
    -- 37: e_cc += einsum(v.bbbb.ovov, (0, 1, 2, 3), t2.bbbb, (0, 2, 1, 3), ())
    .add 6 (.ein [(2, [0, 1, 2, 3]), (3, [0, 2, 1, 3])] []) 1 1,
    -- 38: e_cc += einsum(v.aaaa.ovov, (0, 1, 2, 3), t2.aaaa, (0, 2, 1, 3), ())
    .add 6 (.ein [(4, [0, 1, 2, 3]), (5, [0, 2, 1, 3])] []) 1 1
  ]
  ret := [(chars! "e_cc", 6)]

/-- codegen/UQCISD.py:42-368 `update_amps`. -/
def update_amps : GenFun where
  args := [chars! "v.bbbb.ovov", chars! "v.aaaa.ovov", chars! "t2.bbbb", chars! "v.aabb.ovov", chars! "t2.abab", chars! "t2.aaaa", chars! "v.bbbb.oovv", chars! "v.aaaa.oovv", chars! "t1.aa", chars! "t1.bb", chars! "f.bb.vv", chars! "f.bb.oo", chars! "v.bbbb.ovvv", chars! "v.bbbb.oooo", chars! "v.bbbb.ooov", chars! "v.aabb.vvoo", chars! "f.aa.vv", chars! "v.aabb.oooo", chars! "f.aa.oo", chars! "v.aaaa.ovvv", chars! "v.aaaa.ooov", chars! "v.aaaa.oooo", chars! "f.aa.ov", chars! "f.bb.ov", chars! "v.bbbb.vvvv", chars! "v.aabb.ovvv", chars! "v.aabb.ovoo", chars! "v.aabb.oovv", chars! "v.aabb.ooov", chars! "v.aabb.vvov", chars! "v.aabb.vvvv", chars! "v.aaaa.vvvv"]
  body := [
    -- 67: tmp26 = np.copy(np.transpose(v.bbbb.ovov, (0, 2, 3, 1))) * -1
    .set 32 (.tr 0 [0, 2, 3, 1]) (-1) 1,
    -- 68: tmp26 += np.transpose(v.bbbb.ovov, (0, 2, 1, 3))
    .add 32 (.tr 0 [0, 2, 1, 3]) 1 1,
    -- 69: tmp22 = np.copy(np.transpose(v.aaaa.ovov, (0, 2, 3, 1))) * -1
    .set 33 (.tr 1 [0, 2, 3, 1]) (-1) 1,
    -- 70: tmp22 += np.transpose(v.aaaa.ovov, (0, 2, 1, 3))
    .add 33 (.tr 1 [0, 2, 1, 3]) 1 1,
    -- 71: tmp56 = einsum(tmp26, (0, 1, 2, 3), t2.bbbb, (4, 0, 5, 2), (4, 1, 5, 3))
    .set 34 (.ein [(32, [0, 1, 2, 3]), (2, [4, 0, 5, 2])] [4, 1, 5, 3]) 1 1,
    -- 72: tmp16 = einsum(v.bbbb.ovov, (0, 1, 2, 3), t2.bbbb, (4, 2, 1, 3), (4, 0))
    .set 35 (.ein [(0, [0, 1, 2, 3]), (2, [4, 2, 1, 3])] [4, 0]) 1 1,
    -- 73: tmp15 = einsum(v.aabb.ovov, (0, 1, 2, 3), t2.abab, (0, 4, 1, 3), (4, 2))
    .set 36 (.ein [(3, [0, 1, 2, 3]), (4, [0, 4, 1, 3])] [4, 2]) 1 1,
    -- 74: tmp23 = einsum(t2.aaaa, (0, 1, 2, 3), tmp22, (1, 4, 3, 5), (0, 4, 2, 5))
    .set 37 (.ein [(5, [0, 1, 2, 3]), (33, [1, 4, 3, 5])] [0, 4, 2, 5]) 1 1,
    -- 75: tmp10 = einsum(t2.aaaa, (0, 1, 2, 3), v.aaaa.ovov, (4, 2, 1, 3), (0, 4))
    .set 38 (.ein [(5, [0, 1, 2, 3]), (1, [4, 2, 1, 3])] [0, 4]) 1 1,
    -- 76: tmp11 = einsum(t2.abab, (0, 1, 2, 3), v.aabb.ovov, (4, 2, 1, 3), (0, 4))
    .set 39 (.ein [(4, [0, 1, 2, 3]), (3, [4, 2, 1, 3])] [0, 4]) 1 1,
    -- 77: tmp1 = np.copy(np.transpose(v.aaaa.ovov, (0, 2, 3, 1)))
    .set 40 (.tr 1 [0, 2, 3, 1]) 1 1,
    -- 78: tmp1 += np.transpose(v.aaaa.ovov, (0, 2, 1, 3)) * -1
    .add 40 (.tr 1 [0, 2, 1, 3]) (-1) 1,
    -- 79: tmp5 = np.copy(np.transpose(v.bbbb.ovov, (0, 2, 3, 1))) * -1
    .set 41 (.tr 0 [0, 2, 3, 1]) (-1) 1,
    -- 80: tmp5 += np.transpose(v.bbbb.ovov, (0, 2, 1, 3))
    .add 41 (.tr 0 [0, 2, 1, 3]) 1 1,
    -- 81: tmp59 = einsum(t2.abab, (0, 1, 2, 3), tmp22, (0, 4, 2, 5), (4, 1, 5, 3))
    .set 42 (.ein [(4, [0, 1, 2, 3]), (33, [0, 4, 2, 5])] [4, 1, 5, 3]) 1 1,
    -- 82: del tmp22
    .del 33,
    -- 83: tmp44 = einsum(t2.bbbb, (0, 1, 2, 3), v.bbbb.ovov, (0, 3, 1, 4), (2, 4)) * -1
    .set 43 (.ein [(2, [0, 1, 2, 3]), (0, [0, 3, 1, 4])] [2, 4]) (-1) 1,
    -- 84: tmp43 = einsum(v.aabb.ovov, (0, 1, 2, 3), t2.abab, (0, 2, 1, 4), (4, 3))
    .set 44 (.ein [(3, [0, 1, 2, 3]), (4, [0, 2, 1, 4])] [4, 3]) 1 1,
    -- 85: tmp46 = einsum(v.aabb.ovov, (0, 1, 2, 3), t2.bbbb, (4, 2, 5, 3), (0, 4, 1, 5))
    .set 45 (.ein [(3, [0, 1, 2, 3]), (2, [4, 2, 5, 3])] [0, 4, 1, 5]) 1 1,
    -- 86: tmp57 = np.copy(v.bbbb.oovv)
    .set 46 (.cp 6) 1 1,
    -- 87: tmp57 += tmp56 * -2
    .add 46 (.cp 34) (-2) 1,
    -- 88: del tmp56
    .del 34,
    -- 89: tmp70 = np.copy(tmp15)
    .set 47 (.cp 36) 1 1,
    -- 90: tmp70 += tmp16 * 2
    .add 47 (.cp 35) 2 1,
    -- 91: tmp62 = einsum(t2.bbbb, (0, 1, 2, 3), v.bbbb.ovov, (4, 3, 5, 2), (0, 1, 4, 5)) * -1
    .set 48 (.ein [(2, [0, 1, 2, 3]), (0, [4, 3, 5, 2])] [0, 1, 4, 5]) (-1) 1,
    -- 92: tmp34 = einsum(t2.aaaa, (0, 1, 2, 3), v.aaaa.ovov, (0, 4, 1, 3), (2, 4))
    .set 49 (.ein [(5, [0, 1, 2, 3]), (1, [0, 4, 1, 3])] [2, 4]) 1 1,
    -- 93: tmp35 = einsum(t2.abab, (0, 1, 2, 3), v.aabb.ovov, (0, 4, 1, 3), (2, 4))
    .set 50 (.ein [(4, [0, 1, 2, 3]), (3, [0, 4, 1, 3])] [2, 4]) 1 1,
    -- 94: tmp50 = einsum(t2.aaaa, (0, 1, 2, 3), v.aabb.ovov, (1, 3, 4, 5), (0, 4, 2, 5))
    .set 51 (.ein [(5, [0, 1, 2, 3]), (3, [1, 3, 4, 5])] [0, 4, 2, 5]) 1 1,
    -- 95: tmp27 = einsum(t2.abab, (0, 1, 2, 3), tmp26, (1, 4, 5, 3), (0, 4, 2, 5))
    .set 52 (.ein [(4, [0, 1, 2, 3]), (32, [1, 4, 5, 3])] [0, 4, 2, 5]) 1 1,
    -- 96: del tmp26
    .del 32,
    -- 97: tmp48 = np.copy(np.transpose(v.aaaa.ovov, (0, 2, 3, 1)))
    .set 53 (.tr 1 [0, 2, 3, 1]) 1 1,
    -- 98: tmp48 += np.transpose(v.aaaa.ovov, (0, 2, 1, 3)) * -1
    .add 53 (.tr 1 [0, 2, 1, 3]) (-1) 1,
    -- 99: tmp20 = einsum(t2.abab, (0, 1, 2, 3), v.aabb.ovov, (4, 5, 1, 3), (0, 4, 2, 5))
    .set 54 (.ein [(4, [0, 1, 2, 3]), (3, [4, 5, 1, 3])] [0, 4, 2, 5]) 1 1,
    -- 100: tmp24 = np.copy(v.aaaa.oovv)
    .set 55 (.cp 7) 1 1,
    -- 101: tmp24 += tmp23 * -2
    .add 55 (.cp 37) (-2) 1,
    -- 102: del tmp23
    .del 37,
    -- 103: tmp39 = np.copy(tmp10) * 2
    .set 56 (.cp 38) 2 1,
    -- 104: tmp39 += tmp11
    .add 56 (.cp 39) 1 1,
    -- 105: tmp30 = einsum(v.aaaa.ovov, (0, 1, 2, 3), t2.aaaa, (4, 5, 1, 3), (4, 5, 0, 2))
    .set 57 (.ein [(1, [0, 1, 2, 3]), (5, [4, 5, 1, 3])] [4, 5, 0, 2]) 1 1,
    -- 106: tmp2 = einsum(t1.aa, (0, 1), tmp1, (0, 2, 1, 3), (2, 3))
    .set 58 (.ein [(8, [0, 1]), (40, [0, 2, 1, 3])] [2, 3]) 1 1,
    -- 107: del tmp1
    .del 40,
    -- 108: tmp0 = einsum(v.aabb.ovov, (0, 1, 2, 3), t1.bb, (2, 3), (0, 1))
    .set 59 (.ein [(3, [0, 1, 2, 3]), (9, [2, 3])] [0, 1]) 1 1,
    -- 109: tmp6 = einsum(tmp5, (0, 1, 2, 3), t1.bb, (0, 3), (1, 2))
    .set 60 (.ein [(41, [0, 1, 2, 3]), (9, [0, 3])] [1, 2]) 1 1,
    -- 110: del tmp5
    .del 41,
    -- 111: tmp4 = einsum(v.aabb.ovov, (0, 1, 2, 3), t1.aa, (0, 1), (2, 3))
    .set 61 (.ein [(3, [0, 1, 2, 3]), (8, [0, 1])] [2, 3]) 1 1,
    -- 112: tmp60 = einsum(t2.abab, (0, 1, 2, 3), tmp59, (0, 4, 2, 5), (1, 4, 3, 5))
    .set 62 (.ein [(4, [0, 1, 2, 3]), (42, [0, 4, 2, 5])] [1, 4, 3, 5]) 1 1,
    -- 113: del tmp59
    .del 42,
    -- 114: tmp69 = np.copy(f.bb.vv) * -1
    .set 63 (.cp 10) (-1) 1,
    -- 115: tmp69 += tmp43
    .add 63 (.cp 44) 1 1,
    -- 116: tmp69 += tmp44 * 2
    .add 63 (.cp 43) 2 1,
    -- 117: tmp68 = einsum(v.bbbb.ovov, (0, 1, 2, 3), t2.bbbb, (4, 2, 5, 3), (4, 0, 5, 1))
    .set 64 (.ein [(0, [0, 1, 2, 3]), (2, [4, 2, 5, 3])] [4, 0, 5, 1]) 1 1,
    -- 118: tmp55 = einsum(tmp46, (0, 1, 2, 3), t2.abab, (0, 4, 2, 5), (4, 1, 5, 3))
    .set 65 (.ein [(45, [0, 1, 2, 3]), (4, [0, 4, 2, 5])] [4, 1, 5, 3]) 1 1,
    -- 119: tmp67 = einsum(v.aabb.ovov, (0, 1, 2, 3), t2.abab, (0, 4, 1, 5), (4, 2, 5, 3))
    .set 66 (.ein [(3, [0, 1, 2, 3]), (4, [0, 4, 1, 5])] [4, 2, 5, 3]) 1 1,
    -- 120: tmp58 = einsum(t2.bbbb, (0, 1, 2, 3), tmp57, (4, 1, 5, 3), (0, 4, 2, 5))
    .set 67 (.ein [(2, [0, 1, 2, 3]), (46, [4, 1, 5, 3])] [0, 4, 2, 5]) 1 1,
    -- 121: del tmp57
    .del 46,
    -- 122: tmp65 = einsum(t2.bbbb, (0, 1, 2, 3), f.bb.oo, (4, 1), (4, 0, 2, 3))
    .set 68 (.ein [(2, [0, 1, 2, 3]), (11, [4, 1])] [4, 0, 2, 3]) 1 1,
    -- 123: tmp61 = einsum(v.bbbb.oovv, (0, 1, 2, 3), t2.bbbb, (4, 1, 5, 3), (4, 0, 5, 2))
    .set 69 (.ein [(6, [0, 1, 2, 3]), (2, [4, 1, 5, 3])] [4, 0, 5, 2]) 1 1,
    -- 124: tmp53 = einsum(v.bbbb.ovvv, (0, 1, 2, 3), t1.bb, (4, 3), (4, 0, 1, 2))
    .set 70 (.ein [(12, [0, 1, 2, 3]), (9, [4, 3])] [4, 0, 1, 2]) 1 1,
    -- 125: tmp66 = np.copy(tmp43) * 0.5
    .set 71 (.cp 44) 1 2,
    -- 126: tmp66 += tmp44
    .add 71 (.cp 43) 1 1,
    -- 127: tmp71 = einsum(tmp70, (0, 1), t2.bbbb, (2, 1, 3, 4), (2, 0, 3, 4)) * -1
    .set 72 (.ein [(47, [0, 1]), (2, [2, 1, 3, 4])] [2, 0, 3, 4]) (-1) 1,
    -- 128: del tmp70
    .del 47,
    -- 129: tmp64 = einsum(t2.bbbb, (0, 1, 2, 3), v.bbbb.oooo, (4, 1, 5, 0), (4, 5, 2, 3)) * -1
    .set 73 (.ein [(2, [0, 1, 2, 3]), (13, [4, 1, 5, 0])] [4, 5, 2, 3]) (-1) 1,
    -- 130: tmp54 = einsum(t1.bb, (0, 1), v.bbbb.ooov, (2, 0, 3, 4), (2, 3, 1, 4))
    .set 74 (.ein [(9, [0, 1]), (14, [2, 0, 3, 4])] [2, 3, 1, 4]) 1 1,
    -- 131: tmp63 = einsum(tmp62, (0, 1, 2, 3), t2.bbbb, (3, 2, 4, 5), (1, 0, 4, 5))
    .set 75 (.ein [(48, [0, 1, 2, 3]), (2, [3, 2, 4, 5])] [1, 0, 4, 5]) 1 1,
    -- 132: del tmp62
    .del 48,
    -- 133: tmp45 = np.copy(tmp43)
    .set 76 (.cp 44) 1 1,
    -- 134: del tmp43
    .del 44,
    -- 135: tmp45 += tmp44 * 2
    .add 76 (.cp 43) 2 1,
    -- 136: del tmp44
    .del 43,
    -- 137: tmp41 = np.copy(np.transpose(v.aabb.vvoo, (2, 3, 0, 1)))
    .set 77 (.tr 15 [2, 3, 0, 1]) 1 1,
    -- 138: tmp41 += einsum(v.aabb.ovov, (0, 1, 2, 3), t2.abab, (0, 4, 5, 3), (2, 4, 1, 5)) * -1
    .add 77 (.ein [(3, [0, 1, 2, 3]), (4, [0, 4, 5, 3])] [2, 4, 1, 5]) (-1) 1,
    -- 139: tmp47 = np.copy(f.aa.vv) * -1
    .set 78 (.cp 16) (-1) 1,
    -- 140: tmp47 += np.transpose(tmp34, (1, 0)) * 2
    .add 78 (.tr 49 [1, 0]) 2 1,
    -- 141: tmp47 += np.transpose(tmp35, (1, 0))
    .add 78 (.tr 50 [1, 0]) 1 1,
    -- 142: tmp51 = np.copy(tmp50) * 2
    .set 79 (.cp 51) 2 1,
    -- 143: tmp51 += tmp27 * -1
    .add 79 (.cp 52) (-1) 1,
    -- 144: tmp42 = einsum(t2.abab, (0, 1, 2, 3), v.aabb.oooo, (4, 0, 5, 1), (4, 5, 2, 3))
    .set 80 (.ein [(4, [0, 1, 2, 3]), (17, [4, 0, 5, 1])] [4, 5, 2, 3]) 1 1,
    -- 145: tmp49 = np.copy(v.aaaa.oovv)
    .set 81 (.cp 7) 1 1,
    -- 146: tmp49 += np.transpose(tmp20, (1, 0, 3, 2)) * -1
    .add 81 (.tr 54 [1, 0, 3, 2]) (-1) 1,
    -- 147: tmp49 += einsum(t2.aaaa, (0, 1, 2, 3), tmp48, (1, 4, 3, 5), (4, 0, 5, 2)) * 2
    .add 81 (.ein [(5, [0, 1, 2, 3]), (53, [1, 4, 3, 5])] [4, 0, 5, 2]) 2 1,
    -- 148: del tmp48
    .del 53,
    -- 149: tmp17 = np.copy(tmp15) * 0.5
    .set 82 (.cp 36) 1 2,
    -- 150: del tmp15
    .del 36,
    -- 151: tmp17 += tmp16
    .add 82 (.cp 35) 1 1,
    -- 152: del tmp16
    .del 35,
    -- 153: tmp52 = einsum(v.aabb.ovov, (0, 1, 2, 3), t2.abab, (4, 5, 1, 3), (4, 0, 5, 2))
    .set 83 (.ein [(3, [0, 1, 2, 3]), (4, [4, 5, 1, 3])] [4, 0, 5, 2]) 1 1,
    -- 154: tmp33 = einsum(f.aa.oo, (0, 1), t2.aaaa, (2, 1, 3, 4), (0, 2, 3, 4))
    .set 84 (.ein [(18, [0, 1]), (5, [2, 1, 3, 4])] [0, 2, 3, 4]) 1 1,
    -- 155: tmp21 = einsum(t2.aaaa, (0, 1, 2, 3), tmp20, (4, 1, 5, 3), (0, 4, 2, 5))
    .set 85 (.ein [(5, [0, 1, 2, 3]), (54, [4, 1, 5, 3])] [0, 4, 2, 5]) 1 1,
    -- 156: tmp38 = np.copy(f.aa.vv) * -1
    .set 86 (.cp 16) (-1) 1,
    -- 157: tmp38 += tmp34 * 2
    .add 86 (.cp 49) 2 1,
    -- 158: tmp38 += tmp35
    .add 86 (.cp 50) 1 1,
    -- 159: tmp29 = einsum(t2.aaaa, (0, 1, 2, 3), v.aaaa.oovv, (4, 1, 5, 3), (0, 4, 2, 5))
    .set 87 (.ein [(5, [0, 1, 2, 3]), (7, [4, 1, 5, 3])] [0, 4, 2, 5]) 1 1,
    -- 160: tmp18 = einsum(t1.aa, (0, 1), v.aaaa.ovvv, (2, 3, 4, 1), (0, 2, 3, 4))
    .set 88 (.ein [(8, [0, 1]), (19, [2, 3, 4, 1])] [0, 2, 3, 4]) 1 1,
    -- 161: tmp25 = einsum(tmp24, (0, 1, 2, 3), t2.aaaa, (4, 1, 5, 3), (4, 0, 5, 2))
    .set 89 (.ein [(55, [0, 1, 2, 3]), (5, [4, 1, 5, 3])] [4, 0, 5, 2]) 1 1,
    -- 162: del tmp24
    .del 55,
    -- 163: tmp36 = np.copy(tmp34)
    .set 90 (.cp 49) 1 1,
    -- 164: del tmp34
    .del 49,
    -- 165: tmp36 += tmp35 * 0.5
    .add 90 (.cp 50) 1 2,
    -- 166: del tmp35
    .del 50,
    -- 167: tmp40 = einsum(t2.aaaa, (0, 1, 2, 3), tmp39, (4, 1), (0, 4, 2, 3)) * -1
    .set 91 (.ein [(5, [0, 1, 2, 3]), (56, [4, 1])] [0, 4, 2, 3]) (-1) 1,
    -- 168: tmp19 = einsum(t1.aa, (0, 1), v.aaaa.ooov, (2, 0, 3, 4), (2, 3, 1, 4))
    .set 92 (.ein [(8, [0, 1]), (20, [2, 0, 3, 4])] [2, 3, 1, 4]) 1 1,
    -- 169: tmp37 = einsum(t2.aaaa, (0, 1, 2, 3), v.aaaa.ovov, (4, 5, 1, 3), (0, 4, 2, 5))
    .set 93 (.ein [(5, [0, 1, 2, 3]), (1, [4, 5, 1, 3])] [0, 4, 2, 5]) 1 1,
    -- 170: tmp28 = einsum(tmp27, (0, 1, 2, 3), t2.abab, (4, 1, 5, 3), (4, 0, 5, 2)) * -1
    .set 94 (.ein [(52, [0, 1, 2, 3]), (4, [4, 1, 5, 3])] [4, 0, 5, 2]) (-1) 1,
    -- 171: del tmp27
    .del 52,
    -- 172: tmp32 = einsum(v.aaaa.oooo, (0, 1, 2, 3), t2.aaaa, (3, 1, 4, 5), (0, 2, 4, 5)) * -1
    .set 95 (.ein [(21, [0, 1, 2, 3]), (5, [3, 1, 4, 5])] [0, 2, 4, 5]) (-1) 1,
    -- 173: tmp31 = einsum(tmp30, (0, 1, 2, 3), t2.aaaa, (3, 2, 4, 5), (1, 0, 4, 5))
    .set 96 (.ein [(57, [0, 1, 2, 3]), (5, [3, 2, 4, 5])] [1, 0, 4, 5]) 1 1,
    -- 174: del tmp30
    .del 57,
    -- 175: tmp3 = np.copy(f.aa.ov)
    .set 97 (.cp 22) 1 1,
    -- 176: tmp3 += tmp0
    .add 97 (.cp 59) 1 1,
    -- 177: tmp3 += tmp2 * -1
    .add 97 (.cp 58) (-1) 1,
    -- 178: del tmp2
    .del 58,
    -- 179: tmp7 = np.copy(f.bb.ov)
    .set 98 (.cp 23) 1 1,
    -- 180: tmp7 += tmp4
    .add 98 (.cp 61) 1 1,
    -- 181: tmp7 += tmp6 * -1
    .add 98 (.cp 60) (-1) 1,
    -- 182: del tmp6
    .del 60,
    -- 183: tmp14 = einsum(t1.bb, (0, 1), v.bbbb.ovov, (2, 3, 4, 1), (0, 2, 4, 3))
    .set 99 (.ein [(9, [0, 1]), (0, [2, 3, 4, 1])] [0, 2, 4, 3]) 1 1,
    -- 184: tmp13 = einsum(v.aabb.ovov, (0, 1, 2, 3), t1.bb, (4, 3), (0, 4, 2, 1))
    .set 100 (.ein [(3, [0, 1, 2, 3]), (9, [4, 3])] [0, 4, 2, 1]) 1 1,
    -- 185: tmp9 = einsum(v.aaaa.ovov, (0, 1, 2, 3), t1.aa, (4, 3), (4, 0, 2, 1))
    .set 101 (.ein [(1, [0, 1, 2, 3]), (8, [4, 3])] [4, 0, 2, 1]) 1 1,
    -- 186: tmp8 = einsum(t1.aa, (0, 1), v.aabb.ovov, (2, 1, 3, 4), (0, 2, 3, 4))
    .set 102 (.ein [(8, [0, 1]), (3, [2, 1, 3, 4])] [0, 2, 3, 4]) 1 1,
    -- 187: tmp12 = np.copy(tmp10)
    .set 103 (.cp 38) 1 1,
    -- 188: del tmp10
    .del 38,
    -- 189: tmp12 += tmp11 * 0.5
    .add 103 (.cp 39) 1 2,
    -- 190: del tmp11
    .del 39,
    -- 191: t2new.bbbb = np.copy(np.transpose(tmp53, (1, 0, 2, 3)))
    .set 104 (.tr 70 [1, 0, 2, 3]) 1 1,
    -- 192: t2new.bbbb += np.transpose(v.bbbb.ovov, (0, 2, 1, 3))
    .add 104 (.tr 0 [0, 2, 1, 3]) 1 1,
    -- 193: t2new.bbbb += tmp53 * -1
    .add 104 (.cp 70) (-1) 1,
    -- 194: t2new.bbbb += np.transpose(v.bbbb.ovov, (0, 2, 3, 1)) * -1
    .add 104 (.tr 0 [0, 2, 3, 1]) (-1) 1,
    -- 195: t2new.bbbb += np.transpose(tmp54, (0, 1, 3, 2))
    .add 104 (.tr 74 [0, 1, 3, 2]) 1 1,
    -- 196: t2new.bbbb += tmp55 * 2
    .add 104 (.cp 65) 2 1,
    -- 197: t2new.bbbb += np.transpose(tmp55, (1, 0, 3, 2)) * 2
    .add 104 (.tr 65 [1, 0, 3, 2]) 2 1,
    -- 198: t2new.bbbb += np.transpose(tmp58, (1, 0, 3, 2)) * -2
    .add 104 (.tr 67 [1, 0, 3, 2]) (-2) 1,
    -- 199: t2new.bbbb += np.transpose(tmp60, (1, 0, 3, 2))
    .add 104 (.tr 62 [1, 0, 3, 2]) 1 1,
    -- 200: t2new.bbbb += np.transpose(tmp54, (1, 0, 3, 2)) * -1
    .add 104 (.tr 74 [1, 0, 3, 2]) (-1) 1,
    -- 201: t2new.bbbb += np.transpose(tmp55, (0, 1, 3, 2)) * -2
    .add 104 (.tr 65 [0, 1, 3, 2]) (-2) 1,
    -- 202: t2new.bbbb += np.transpose(tmp55, (1, 0, 2, 3)) * -2
    .add 104 (.tr 65 [1, 0, 2, 3]) (-2) 1,
    -- 203: del tmp55
    .del 65,
    -- 204: t2new.bbbb += np.transpose(tmp58, (0, 1, 3, 2)) * 2
    .add 104 (.tr 67 [0, 1, 3, 2]) 2 1,
    -- 205: del tmp58
    .del 67,
    -- 206: t2new.bbbb += np.transpose(tmp60, (0, 1, 3, 2)) * -1
    .add 104 (.tr 62 [0, 1, 3, 2]) (-1) 1,
    -- 207: del tmp60
    .del 62,
    -- 208: t2new.bbbb += tmp54 * -1
    .add 104 (.cp 74) (-1) 1,
    -- 209: t2new.bbbb += np.transpose(tmp61, (1, 0, 2, 3)) * 2
    .add 104 (.tr 69 [1, 0, 2, 3]) 2 1,
    -- 210: t2new.bbbb += np.transpose(tmp54, (1, 0, 2, 3))
    .add 104 (.tr 74 [1, 0, 2, 3]) 1 1,
    -- 211: del tmp54
    .del 74,
    -- 212: t2new.bbbb += tmp61 * -2
    .add 104 (.cp 69) (-2) 1,
    -- 213: del tmp61
    .del 69,
    -- 214: t2new.bbbb += np.transpose(tmp53, (0, 1, 3, 2))
    .add 104 (.tr 70 [0, 1, 3, 2]) 1 1,
    -- 215: t2new.bbbb += einsum(v.bbbb.vvvv, (0, 1, 2, 3), t2.bbbb, (4, 5, 3, 1), (4, 5, 0, 2)) * -2
    .add 104 (.ein [(24, [0, 1, 2, 3]), (2, [4, 5, 3, 1])] [4, 5, 0, 2]) (-2) 1,
    -- 216: t2new.bbbb += np.transpose(tmp53, (1, 0, 3, 2)) * -1
    .add 104 (.tr 70 [1, 0, 3, 2]) (-1) 1,
    -- 217: del tmp53
    .del 70,
    -- 218: t2new.bbbb += np.transpose(tmp63, (0, 1, 3, 2)) * -2
    .add 104 (.tr 75 [0, 1, 3, 2]) (-2) 1,
    -- 219: del tmp63
    .del 75,
    -- 220: t2new.bbbb += np.transpose(tmp64, (1, 0, 3, 2)) * 2
    .add 104 (.tr 73 [1, 0, 3, 2]) 2 1,
    -- 221: del tmp64
    .del 73,
    -- 222: t2new.bbbb += np.transpose(tmp65, (1, 0, 3, 2)) * 2
    .add 104 (.tr 68 [1, 0, 3, 2]) 2 1,
    -- 223: t2new.bbbb += np.transpose(tmp65, (0, 1, 3, 2)) * -2
    .add 104 (.tr 68 [0, 1, 3, 2]) (-2) 1,
    -- 224: del tmp65
    .del 68,
    -- 225: t2new.bbbb += einsum(tmp66, (0, 1), t2.bbbb, (2, 3, 4, 1), (2, 3, 4, 0)) * -4
    .add 104 (.ein [(71, [0, 1]), (2, [2, 3, 4, 1])] [2, 3, 4, 0]) (-4) 1,
    -- 226: del tmp66
    .del 71,
    -- 227: t2new.bbbb += np.transpose(tmp67, (1, 0, 3, 2))
    .add 104 (.tr 66 [1, 0, 3, 2]) 1 1,
    -- 228: t2new.bbbb += np.transpose(tmp68, (1, 0, 3, 2)) * 2
    .add 104 (.tr 64 [1, 0, 3, 2]) 2 1,
    -- 229: t2new.bbbb += einsum(tmp69, (0, 1), t2.bbbb, (2, 3, 4, 1), (2, 3, 0, 4)) * 2
    .add 104 (.ein [(63, [0, 1]), (2, [2, 3, 4, 1])] [2, 3, 0, 4]) 2 1,
    -- 230: del tmp69
    .del 63,
    -- 231: t2new.bbbb += einsum(t2.bbbb, (0, 1, 2, 3), f.bb.vv, (4, 3), (0, 1, 2, 4)) * 2
    .add 104 (.ein [(2, [0, 1, 2, 3]), (10, [4, 3])] [0, 1, 2, 4]) 2 1,
    -- 232: t2new.bbbb += np.transpose(tmp67, (1, 0, 2, 3)) * -1
    .add 104 (.tr 66 [1, 0, 2, 3]) (-1) 1,
    -- 233: t2new.bbbb += np.transpose(tmp68, (1, 0, 2, 3)) * -2
    .add 104 (.tr 64 [1, 0, 2, 3]) (-2) 1,
    -- 234: t2new.bbbb += np.transpose(tmp67, (0, 1, 3, 2)) * -1
    .add 104 (.tr 66 [0, 1, 3, 2]) (-1) 1,
    -- 235: t2new.bbbb += np.transpose(tmp68, (0, 1, 3, 2)) * -2
    .add 104 (.tr 64 [0, 1, 3, 2]) (-2) 1,
    -- 236: t2new.bbbb += tmp67
    .add 104 (.cp 66) 1 1,
    -- 237: del tmp67
    .del 66,
    -- 238: t2new.bbbb += tmp68 * 2
    .add 104 (.cp 64) 2 1,
    -- 239: del tmp68
    .del 64,
    -- 240: t2new.bbbb += np.transpose(tmp71, (0, 1, 3, 2)) * -2
    .add 104 (.tr 72 [0, 1, 3, 2]) (-2) 1,
    -- 241: t2new.bbbb += np.transpose(tmp71, (1, 0, 3, 2)) * 2
    .add 104 (.tr 72 [1, 0, 3, 2]) 2 1,
    -- 242: del tmp71
    .del 72,
    -- 243: t2new.abab = np.copy(np.transpose(v.aabb.ovov, (0, 2, 1, 3)))
    .set 105 (.tr 3 [0, 2, 1, 3]) 1 1,
    -- 244: t2new.abab += einsum(v.aabb.ovvv, (0, 1, 2, 3), t1.bb, (4, 3), (0, 4, 1, 2))
    .add 105 (.ein [(25, [0, 1, 2, 3]), (9, [4, 3])] [0, 4, 1, 2]) 1 1,
    -- 245: t2new.abab += einsum(t1.bb, (0, 1), v.aabb.ovoo, (2, 3, 4, 0), (2, 4, 3, 1)) * -1
    .add 105 (.ein [(9, [0, 1]), (26, [2, 3, 4, 0])] [2, 4, 3, 1]) (-1) 1,
    -- 246: t2new.abab += einsum(t2.abab, (0, 1, 2, 3), tmp41, (1, 4, 2, 5), (0, 4, 5, 3)) * -1
    .add 105 (.ein [(4, [0, 1, 2, 3]), (77, [1, 4, 2, 5])] [0, 4, 5, 3]) (-1) 1,
    -- 247: del tmp41
    .del 77,
    -- 248: t2new.abab += einsum(v.aabb.oovv, (0, 1, 2, 3), t2.abab, (1, 4, 5, 3), (0, 4, 5, 2)) * -1
    .add 105 (.ein [(27, [0, 1, 2, 3]), (4, [1, 4, 5, 3])] [0, 4, 5, 2]) (-1) 1,
    -- 249: t2new.abab += einsum(t1.aa, (0, 1), v.aabb.ooov, (2, 0, 3, 4), (2, 3, 1, 4)) * -1
    .add 105 (.ein [(8, [0, 1]), (28, [2, 0, 3, 4])] [2, 3, 1, 4]) (-1) 1,
    -- 250: t2new.abab += einsum(t1.aa, (0, 1), v.aabb.vvov, (2, 1, 3, 4), (0, 3, 2, 4))
    .add 105 (.ein [(8, [0, 1]), (29, [2, 1, 3, 4])] [0, 3, 2, 4]) 1 1,
    -- 251: t2new.abab += einsum(t2.abab, (0, 1, 2, 3), f.bb.oo, (4, 1), (0, 4, 2, 3)) * -1
    .add 105 (.ein [(4, [0, 1, 2, 3]), (11, [4, 1])] [0, 4, 2, 3]) (-1) 1,
    -- 252: t2new.abab += tmp42
    .add 105 (.cp 80) 1 1,
    -- 253: del tmp42
    .del 80,
    -- 254: t2new.abab += einsum(t2.abab, (0, 1, 2, 3), f.aa.oo, (4, 0), (4, 1, 2, 3)) * -1
    .add 105 (.ein [(4, [0, 1, 2, 3]), (18, [4, 0])] [4, 1, 2, 3]) (-1) 1,
    -- 255: t2new.abab += einsum(t2.abab, (0, 1, 2, 3), tmp45, (4, 3), (0, 1, 2, 4)) * -1
    .add 105 (.ein [(4, [0, 1, 2, 3]), (76, [4, 3])] [0, 1, 2, 4]) (-1) 1,
    -- 256: del tmp45
    .del 76,
    -- 257: t2new.abab += tmp46 * 2
    .add 105 (.cp 45) 2 1,
    -- 258: del tmp46
    .del 45,
    -- 259: t2new.abab += einsum(t2.abab, (0, 1, 2, 3), v.aaaa.ovov, (4, 5, 0, 2), (4, 1, 5, 3))
    .add 105 (.ein [(4, [0, 1, 2, 3]), (1, [4, 5, 0, 2])] [4, 1, 5, 3]) 1 1,
    -- 260: t2new.abab += einsum(tmp47, (0, 1), t2.abab, (2, 3, 0, 4), (2, 3, 1, 4)) * -1
    .add 105 (.ein [(78, [0, 1]), (4, [2, 3, 0, 4])] [2, 3, 1, 4]) (-1) 1,
    -- 261: del tmp47
    .del 78,
    -- 262: t2new.abab += einsum(t2.abab, (0, 1, 2, 3), f.bb.vv, (4, 3), (0, 1, 2, 4))
    .add 105 (.ein [(4, [0, 1, 2, 3]), (10, [4, 3])] [0, 1, 2, 4]) 1 1,
    -- 263: t2new.abab += einsum(t2.abab, (0, 1, 2, 3), tmp49, (0, 4, 2, 5), (4, 1, 5, 3)) * -1
    .add 105 (.ein [(4, [0, 1, 2, 3]), (81, [0, 4, 2, 5])] [4, 1, 5, 3]) (-1) 1,
    -- 264: del tmp49
    .del 81,
    -- 265: t2new.abab += einsum(tmp51, (0, 1, 2, 3), t2.bbbb, (4, 1, 5, 3), (0, 4, 2, 5)) * 2
    .add 105 (.ein [(79, [0, 1, 2, 3]), (2, [4, 1, 5, 3])] [0, 4, 2, 5]) 2 1,
    -- 266: del tmp51
    .del 79,
    -- 267: t2new.abab += tmp50 * 2
    .add 105 (.cp 51) 2 1,
    -- 268: del tmp50
    .del 51,
    -- 269: t2new.abab += einsum(t2.abab, (0, 1, 2, 3), v.bbbb.ovov, (4, 5, 1, 3), (0, 4, 2, 5))
    .add 105 (.ein [(4, [0, 1, 2, 3]), (0, [4, 5, 1, 3])] [0, 4, 2, 5]) 1 1,
    -- 270: t2new.abab += einsum(v.bbbb.oovv, (0, 1, 2, 3), t2.abab, (4, 1, 5, 3), (4, 0, 5, 2)) * -1
    .add 105 (.ein [(6, [0, 1, 2, 3]), (4, [4, 1, 5, 3])] [4, 0, 5, 2]) (-1) 1,
    -- 271: t2new.abab += einsum(v.aabb.vvvv, (0, 1, 2, 3), t2.abab, (4, 5, 1, 3), (4, 5, 0, 2))
    .add 105 (.ein [(30, [0, 1, 2, 3]), (4, [4, 5, 1, 3])] [4, 5, 0, 2]) 1 1,
    -- 272: t2new.abab += einsum(t2.abab, (0, 1, 2, 3), tmp52, (4, 0, 5, 1), (4, 5, 2, 3))
    .add 105 (.ein [(4, [0, 1, 2, 3]), (83, [4, 0, 5, 1])] [4, 5, 2, 3]) 1 1,
    -- 273: del tmp52
    .del 83,
    -- 274: t2new.abab += einsum(tmp17, (0, 1), t2.abab, (2, 1, 3, 4), (2, 0, 3, 4)) * -2
    .add 105 (.ein [(82, [0, 1]), (4, [2, 1, 3, 4])] [2, 0, 3, 4]) (-2) 1,
    -- 275: t2new.abab += einsum(t2.abab, (0, 1, 2, 3), tmp39, (4, 0), (4, 1, 2, 3)) * -1
    .add 105 (.ein [(4, [0, 1, 2, 3]), (56, [4, 0])] [4, 1, 2, 3]) (-1) 1,
    -- 276: del tmp39
    .del 56,
    -- 277: t2new.aaaa = np.copy(np.transpose(tmp18, (1, 0, 2, 3)))
    .set 106 (.tr 88 [1, 0, 2, 3]) 1 1,
    -- 278: t2new.aaaa += np.transpose(v.aaaa.ovov, (0, 2, 1, 3))
    .add 106 (.tr 1 [0, 2, 1, 3]) 1 1,
    -- 279: t2new.aaaa += tmp18 * -1
    .add 106 (.cp 88) (-1) 1,
    -- 280: t2new.aaaa += np.transpose(v.aaaa.ovov, (0, 2, 3, 1)) * -1
    .add 106 (.tr 1 [0, 2, 3, 1]) (-1) 1,
    -- 281: t2new.aaaa += np.transpose(tmp19, (0, 1, 3, 2))
    .add 106 (.tr 92 [0, 1, 3, 2]) 1 1,
    -- 282: t2new.aaaa += tmp21 * 2
    .add 106 (.cp 85) 2 1,
    -- 283: t2new.aaaa += np.transpose(tmp21, (1, 0, 3, 2)) * 2
    .add 106 (.tr 85 [1, 0, 3, 2]) 2 1,
    -- 284: t2new.aaaa += np.transpose(tmp25, (1, 0, 3, 2)) * -2
    .add 106 (.tr 89 [1, 0, 3, 2]) (-2) 1,
    -- 285: t2new.aaaa += np.transpose(tmp28, (1, 0, 3, 2))
    .add 106 (.tr 94 [1, 0, 3, 2]) 1 1,
    -- 286: t2new.aaaa += np.transpose(tmp19, (1, 0, 3, 2)) * -1
    .add 106 (.tr 92 [1, 0, 3, 2]) (-1) 1,
    -- 287: t2new.aaaa += np.transpose(tmp21, (0, 1, 3, 2)) * -2
    .add 106 (.tr 85 [0, 1, 3, 2]) (-2) 1,
    -- 288: t2new.aaaa += np.transpose(tmp21, (1, 0, 2, 3)) * -2
    .add 106 (.tr 85 [1, 0, 2, 3]) (-2) 1,
    -- 289: del tmp21
    .del 85,
    -- 290: t2new.aaaa += np.transpose(tmp25, (0, 1, 3, 2)) * 2
    .add 106 (.tr 89 [0, 1, 3, 2]) 2 1,
    -- 291: del tmp25
    .del 89,
    -- 292: t2new.aaaa += np.transpose(tmp28, (1, 0, 2, 3)) * -1
    .add 106 (.tr 94 [1, 0, 2, 3]) (-1) 1,
    -- 293: del tmp28
    .del 94,
    -- 294: t2new.aaaa += np.transpose(tmp29, (1, 0, 2, 3)) * 2
    .add 106 (.tr 87 [1, 0, 2, 3]) 2 1,
    -- 295: t2new.aaaa += tmp19 * -1
    .add 106 (.cp 92) (-1) 1,
    -- 296: t2new.aaaa += tmp29 * -2
    .add 106 (.cp 87) (-2) 1,
    -- 297: del tmp29
    .del 87,
    -- 298: t2new.aaaa += np.transpose(tmp19, (1, 0, 2, 3))
    .add 106 (.tr 92 [1, 0, 2, 3]) 1 1,
    -- 299: del tmp19
    .del 92,
    -- 300: t2new.aaaa += np.transpose(tmp18, (0, 1, 3, 2))
    .add 106 (.tr 88 [0, 1, 3, 2]) 1 1,
    -- 301: t2new.aaaa += np.transpose(tmp31, (0, 1, 3, 2)) * -2
    .add 106 (.tr 96 [0, 1, 3, 2]) (-2) 1,
    -- 302: del tmp31
    .del 96,
    -- 303: t2new.aaaa += np.transpose(tmp18, (1, 0, 3, 2)) * -1
    .add 106 (.tr 88 [1, 0, 3, 2]) (-1) 1,
    -- 304: del tmp18
    .del 88,
    -- 305: t2new.aaaa += einsum(t2.aaaa, (0, 1, 2, 3), v.aaaa.vvvv, (4, 3, 5, 2), (0, 1, 4, 5)) * -2
    .add 106 (.ein [(5, [0, 1, 2, 3]), (31, [4, 3, 5, 2])] [0, 1, 4, 5]) (-2) 1,
    -- 306: t2new.aaaa += np.transpose(tmp32, (1, 0, 3, 2)) * 2
    .add 106 (.tr 95 [1, 0, 3, 2]) 2 1,
    -- 307: del tmp32
    .del 95,
    -- 308: t2new.aaaa += np.transpose(tmp33, (1, 0, 3, 2)) * 2
    .add 106 (.tr 84 [1, 0, 3, 2]) 2 1,
    -- 309: t2new.aaaa += np.transpose(tmp33, (0, 1, 3, 2)) * -2
    .add 106 (.tr 84 [0, 1, 3, 2]) (-2) 1,
    -- 310: del tmp33
    .del 84,
    -- 311: t2new.aaaa += einsum(t2.aaaa, (0, 1, 2, 3), tmp36, (4, 3), (0, 1, 2, 4)) * -4
    .add 106 (.ein [(5, [0, 1, 2, 3]), (90, [4, 3])] [0, 1, 2, 4]) (-4) 1,
    -- 312: del tmp36
    .del 90,
    -- 313: t2new.aaaa += np.transpose(tmp37, (1, 0, 3, 2)) * 2
    .add 106 (.tr 93 [1, 0, 3, 2]) 2 1,
    -- 314: t2new.aaaa += np.transpose(tmp20, (1, 0, 3, 2))
    .add 106 (.tr 54 [1, 0, 3, 2]) 1 1,
    -- 315: t2new.aaaa += einsum(tmp38, (0, 1), t2.aaaa, (2, 3, 4, 1), (2, 3, 0, 4)) * 2
    .add 106 (.ein [(86, [0, 1]), (5, [2, 3, 4, 1])] [2, 3, 0, 4]) 2 1,
    -- 316: del tmp38
    .del 86,
    -- 317: t2new.aaaa += np.transpose(tmp37, (1, 0, 2, 3)) * -2
    .add 106 (.tr 93 [1, 0, 2, 3]) (-2) 1,
    -- 318: t2new.aaaa += einsum(t2.aaaa, (0, 1, 2, 3), f.aa.vv, (4, 3), (0, 1, 2, 4)) * 2
    .add 106 (.ein [(5, [0, 1, 2, 3]), (16, [4, 3])] [0, 1, 2, 4]) 2 1,
    -- 319: t2new.aaaa += np.transpose(tmp20, (1, 0, 2, 3)) * -1
    .add 106 (.tr 54 [1, 0, 2, 3]) (-1) 1,
    -- 320: t2new.aaaa += np.transpose(tmp37, (0, 1, 3, 2)) * -2
    .add 106 (.tr 93 [0, 1, 3, 2]) (-2) 1,
    -- 321: t2new.aaaa += np.transpose(tmp20, (0, 1, 3, 2)) * -1
    .add 106 (.tr 54 [0, 1, 3, 2]) (-1) 1,
    -- 322: t2new.aaaa += tmp37 * 2
    .add 106 (.cp 93) 2 1,
    -- 323: del tmp37
    .del 93,
    -- 324: t2new.aaaa += tmp20
    .add 106 (.cp 54) 1 1,
    -- 325: del tmp20
    .del 54,
    -- 326: t2new.aaaa += np.transpose(tmp40, (0, 1, 3, 2)) * -2
    .add 106 (.tr 91 [0, 1, 3, 2]) (-2) 1,
    -- 327: t2new.aaaa += np.transpose(tmp40, (1, 0, 3, 2)) * 2
    .add 106 (.tr 91 [1, 0, 3, 2]) 2 1,
    -- 328: del tmp40
    .del 91,
    -- 329: t1new.bb = einsum(v.bbbb.ooov, (0, 1, 2, 3), t2.bbbb, (2, 1, 4, 3), (0, 4)) * 2
    .set 107 (.ein [(14, [0, 1, 2, 3]), (2, [2, 1, 4, 3])] [0, 4]) 2 1,
    -- 330: t1new.bb += einsum(v.bbbb.oovv, (0, 1, 2, 3), t1.bb, (1, 3), (0, 2)) * -1
    .add 107 (.ein [(6, [0, 1, 2, 3]), (9, [1, 3])] [0, 2]) (-1) 1,
    -- 331: t1new.bb += einsum(t2.abab, (0, 1, 2, 3), v.aabb.ovoo, (0, 2, 4, 1), (4, 3)) * -1
    .add 107 (.ein [(4, [0, 1, 2, 3]), (26, [0, 2, 4, 1])] [4, 3]) (-1) 1,
    -- 332: t1new.bb += einsum(t1.bb, (0, 1), f.bb.oo, (2, 0), (2, 1)) * -1
    .add 107 (.ein [(9, [0, 1]), (11, [2, 0])] [2, 1]) (-1) 1,
    -- 333: t1new.bb += einsum(tmp3, (0, 1), t2.abab, (0, 2, 1, 3), (2, 3))
    .add 107 (.ein [(97, [0, 1]), (4, [0, 2, 1, 3])] [2, 3]) 1 1,
    -- 334: t1new.bb += einsum(tmp7, (0, 1), t2.bbbb, (2, 0, 3, 1), (2, 3)) * 2
    .add 107 (.ein [(98, [0, 1]), (2, [2, 0, 3, 1])] [2, 3]) 2 1,
    -- 335: t1new.bb += einsum(tmp13, (0, 1, 2, 3), t2.abab, (0, 2, 3, 4), (1, 4)) * -1
    .add 107 (.ein [(100, [0, 1, 2, 3]), (4, [0, 2, 3, 4])] [1, 4]) (-1) 1,
    -- 336: del tmp13
    .del 100,
    -- 337: t1new.bb += einsum(v.bbbb.ovov, (0, 1, 2, 3), t1.bb, (2, 3), (0, 1))
    .add 107 (.ein [(0, [0, 1, 2, 3]), (9, [2, 3])] [0, 1]) 1 1,
    -- 338: t1new.bb += tmp4
    .add 107 (.cp 61) 1 1,
    -- 339: del tmp4
    .del 61,
    -- 340: t1new.bb += einsum(v.bbbb.ovvv, (0, 1, 2, 3), t2.bbbb, (4, 0, 1, 3), (4, 2)) * -2
    .add 107 (.ein [(12, [0, 1, 2, 3]), (2, [4, 0, 1, 3])] [4, 2]) (-2) 1,
    -- 341: t1new.bb += einsum(v.aabb.ovvv, (0, 1, 2, 3), t2.abab, (0, 4, 1, 3), (4, 2))
    .add 107 (.ein [(25, [0, 1, 2, 3]), (4, [0, 4, 1, 3])] [4, 2]) 1 1,
    -- 342: t1new.bb += einsum(t1.bb, (0, 1), f.bb.vv, (2, 1), (0, 2))
    .add 107 (.ein [(9, [0, 1]), (10, [2, 1])] [0, 2]) 1 1,
    -- 343: t1new.bb += einsum(t2.bbbb, (0, 1, 2, 3), tmp14, (4, 0, 1, 3), (4, 2)) * 2
    .add 107 (.ein [(2, [0, 1, 2, 3]), (99, [4, 0, 1, 3])] [4, 2]) 2 1,
    -- 344: del tmp14
    .del 99,
    -- 345: t1new.bb += einsum(tmp17, (0, 1), t1.bb, (1, 2), (0, 2)) * -2
    .add 107 (.ein [(82, [0, 1]), (9, [1, 2])] [0, 2]) (-2) 1,
    -- 346: del tmp17
    .del 82,
    -- 347: t1new.aa = einsum(f.aa.oo, (0, 1), t1.aa, (1, 2), (0, 2)) * -1
    .set 108 (.ein [(18, [0, 1]), (8, [1, 2])] [0, 2]) (-1) 1,
    -- 348: t1new.aa += einsum(t1.aa, (0, 1), v.aaaa.oovv, (2, 0, 3, 1), (2, 3)) * -1
    .add 108 (.ein [(8, [0, 1]), (7, [2, 0, 3, 1])] [2, 3]) (-1) 1,
    -- 349: t1new.aa += einsum(t2.abab, (0, 1, 2, 3), v.aabb.ooov, (4, 0, 1, 3), (4, 2)) * -1
    .add 108 (.ein [(4, [0, 1, 2, 3]), (28, [4, 0, 1, 3])] [4, 2]) (-1) 1,
    -- 350: t1new.aa += einsum(v.aaaa.ooov, (0, 1, 2, 3), t2.aaaa, (1, 2, 4, 3), (0, 4)) * -2
    .add 108 (.ein [(20, [0, 1, 2, 3]), (5, [1, 2, 4, 3])] [0, 4]) (-2) 1,
    -- 351: t1new.aa += einsum(tmp3, (0, 1), t2.aaaa, (2, 0, 3, 1), (2, 3)) * 2
    .add 108 (.ein [(97, [0, 1]), (5, [2, 0, 3, 1])] [2, 3]) 2 1,
    -- 352: del tmp3
    .del 97,
    -- 353: t1new.aa += einsum(tmp7, (0, 1), t2.abab, (2, 0, 3, 1), (2, 3))
    .add 108 (.ein [(98, [0, 1]), (4, [2, 0, 3, 1])] [2, 3]) 1 1,
    -- 354: del tmp7
    .del 98,
    -- 355: t1new.aa += einsum(t1.aa, (0, 1), v.aaaa.ovov, (2, 3, 0, 1), (2, 3))
    .add 108 (.ein [(8, [0, 1]), (1, [2, 3, 0, 1])] [2, 3]) 1 1,
    -- 356: t1new.aa += einsum(f.aa.vv, (0, 1), t1.aa, (2, 1), (2, 0))
    .add 108 (.ein [(16, [0, 1]), (8, [2, 1])] [2, 0]) 1 1,
    -- 357: t1new.aa += einsum(t2.abab, (0, 1, 2, 3), tmp8, (4, 0, 1, 3), (4, 2)) * -1
    .add 108 (.ein [(4, [0, 1, 2, 3]), (102, [4, 0, 1, 3])] [4, 2]) (-1) 1,
    -- 358: del tmp8
    .del 102,
    -- 359: t1new.aa += tmp0
    .add 108 (.cp 59) 1 1,
    -- 360: del tmp0
    .del 59,
    -- 361: t1new.aa += einsum(tmp9, (0, 1, 2, 3), t2.aaaa, (2, 1, 4, 3), (0, 4)) * -2
    .add 108 (.ein [(101, [0, 1, 2, 3]), (5, [2, 1, 4, 3])] [0, 4]) (-2) 1,
    -- 362: del tmp9
    .del 101,
    -- 363: t1new.aa += einsum(v.aaaa.ovvv, (0, 1, 2, 3), t2.aaaa, (4, 0, 1, 3), (4, 2)) * -2
    .add 108 (.ein [(19, [0, 1, 2, 3]), (5, [4, 0, 1, 3])] [4, 2]) (-2) 1,
    -- 364: t1new.aa += einsum(t2.abab, (0, 1, 2, 3), v.aabb.vvov, (4, 2, 1, 3), (0, 4))
    .add 108 (.ein [(4, [0, 1, 2, 3]), (29, [4, 2, 1, 3])] [0, 4]) 1 1,
    -- 365: t1new.aa += einsum(t1.aa, (0, 1), tmp12, (2, 0), (2, 1)) * -2
    .add 108 (.ein [(8, [0, 1]), (103, [2, 0])] [2, 1]) (-2) 1,
    -- 366: del tmp12
    .del 103
  ]
  ret := [(chars! "t1new.bb", 107), (chars! "t1new.aa", 108), (chars! "t2new.bbbb", 104), (chars! "t2new.abab", 105), (chars! "t2new.aaaa", 106)]

end Ebcc.Gen.UQCISD
