import Verif.Model.GenCode
/-!
Functions of `ebcc/codegen/RDCSD.py`, written by `tools/gencode.py`.  Comments give the
number and the text of the line of each statement.
-/

set_option maxRecDepth 100000

namespace Ebcc.Gen.RDCSD

/-- codegen/RDCSD.py:19-50 `energy`. -/
def energy : GenFun where
  args := [chars! "v.ovov", chars! "f.ov", chars! "t1", chars! "t2"]
  body := [
    -- 40: tmp0 = np.copy(np.transpose(v.ovov, (0, 2, 3, 1)))
    .set 4 (.tr 0 [0, 2, 3, 1]) 1 1,
    -- 41: tmp0 += np.transpose(v.ovov, (0, 2, 1, 3)) * -0.5
    .add 4 (.tr 0 [0, 2, 1, 3]) (-1) 2,
    -- 42: tmp1 = np.copy(f.ov)
    .set 5 (.cp 1) 1 1,
    -- 43: tmp1 += einsum(t1, (0, 1), tmp0, (0, 2, 3, 1), (2, 3))
    .add 5 (.ein [(2, [0, 1]), (4, [0, 2, 3, 1])] [2, 3]) 1 1,
    -- 44: del tmp0
    .del 4,
    -- 45: e_cc = einsum(t2, (0, 1, 2, 3), v.ovov, (0, 2, 1, 3), ()) * 2
    .set 6 (.ein [(3, [0, 1, 2, 3]), (0, [0, 2, 1, 3])] []) 2 1,
    -- 46: e_cc += einsum(t2, (0, 1, 2, 3), v.ovov, (0, 3, 1, 2), ()) * -1
    .add 6 (.ein [(3, [0, 1, 2, 3]), (0, [0, 3, 1, 2])] []) (-1) 1,
    -- 47: e_cc += einsum(t1, (0, 1), tmp1, (0, 1), ()) * 2
    .add 6 (.ein [(2, [0, 1]), (5, [0, 1])] []) 2 1,
    -- 48: del tmp1
    .del 5
  ]
  ret := [(chars! "e_cc", 6)]

/-- codegen/RDCSD.py:52-302 `update_amps`. -/
def update_amps : GenFun where
  args := [chars! "t1", chars! "v.ovov", chars! "t2", chars! "v.ovvv", chars! "v.ooov", chars! "f.ov", chars! "v.oovv", chars! "f.oo", chars! "v.oooo", chars! "f.vv", chars! "v.vvvv", chars! "v.ovoo"]
  body := [
    -- 75: tmp1 = einsum(t1, (0, 1), v.ovov, (2, 3, 4, 1), (0, 2, 4, 3))
    .set 12 (.ein [(0, [0, 1]), (1, [2, 3, 4, 1])] [0, 2, 4, 3]) 1 1,
    -- 76: tmp3 = np.copy(np.transpose(v.ovov, (0, 2, 3, 1))) * 2
    .set 13 (.tr 1 [0, 2, 3, 1]) 2 1,
    -- 77: tmp3 += np.transpose(v.ovov, (0, 2, 1, 3)) * -1
    .add 13 (.tr 1 [0, 2, 1, 3]) (-1) 1,
    -- 78: tmp44 = np.copy(tmp1) * 2
    .set 14 (.cp 12) 2 1,
    -- 79: tmp44 += np.transpose(tmp1, (0, 2, 1, 3)) * -1
    .add 14 (.tr 12 [0, 2, 1, 3]) (-1) 1,
    -- 80: tmp31 = einsum(t1, (0, 1), t1, (2, 3), (2, 0, 3, 1))
    .set 15 (.ein [(0, [0, 1]), (0, [2, 3])] [2, 0, 3, 1]) 1 1,
    -- 81: tmp31 += np.transpose(t2, (0, 1, 3, 2)) * -2
    .add 15 (.tr 2 [0, 1, 3, 2]) (-2) 1,
    -- 82: tmp31 += t2
    .add 15 (.cp 2) 1 1,
    -- 83: tmp4 = einsum(t1, (0, 1), tmp3, (0, 2, 3, 1), (2, 3))
    .set 16 (.ein [(0, [0, 1]), (13, [0, 2, 3, 1])] [2, 3]) 1 1,
    -- 84: del tmp3
    .del 13,
    -- 85: tmp39 = np.copy(v.ovvv) * 2
    .set 17 (.cp 3) 2 1,
    -- 86: tmp39 += np.transpose(v.ovvv, (0, 2, 3, 1)) * -1
    .add 17 (.tr 3 [0, 2, 3, 1]) (-1) 1,
    -- 87: tmp43 = einsum(t2, (0, 1, 2, 3), tmp1, (4, 1, 5, 2), (4, 0, 5, 3))
    .set 18 (.ein [(2, [0, 1, 2, 3]), (12, [4, 1, 5, 2])] [4, 0, 5, 3]) 1 1,
    -- 88: tmp45 = einsum(t2, (0, 1, 2, 3), tmp44, (4, 1, 5, 3), (4, 5, 0, 2))
    .set 19 (.ein [(2, [0, 1, 2, 3]), (14, [4, 1, 5, 3])] [4, 5, 0, 2]) 1 1,
    -- 89: del tmp44
    .del 14,
    -- 90: tmp42 = einsum(t2, (0, 1, 2, 3), v.ooov, (4, 1, 5, 2), (0, 4, 5, 3))
    .set 20 (.ein [(2, [0, 1, 2, 3]), (4, [4, 1, 5, 2])] [0, 4, 5, 3]) 1 1,
    -- 91: tmp48 = np.copy(v.ooov) * 2
    .set 21 (.cp 4) 2 1,
    -- 92: tmp48 += np.transpose(v.ooov, (0, 2, 1, 3)) * -1
    .add 21 (.tr 4 [0, 2, 1, 3]) (-1) 1,
    -- 93: tmp65 = einsum(t1, (0, 1), f.ov, (2, 1), (2, 0))
    .set 22 (.ein [(0, [0, 1]), (5, [2, 1])] [2, 0]) 1 1,
    -- 94: tmp55 = np.copy(np.transpose(v.ovov, (0, 2, 3, 1))) * -0.5
    .set 23 (.tr 1 [0, 2, 3, 1]) (-1) 2,
    -- 95: tmp55 += np.transpose(v.ovov, (0, 2, 1, 3))
    .add 23 (.tr 1 [0, 2, 1, 3]) 1 1,
    -- 96: tmp32 = einsum(tmp31, (0, 1, 2, 3), v.ooov, (4, 5, 0, 3), (4, 5, 1, 2))
    .set 24 (.ein [(15, [0, 1, 2, 3]), (4, [4, 5, 0, 3])] [4, 5, 1, 2]) 1 1,
    -- 97: del tmp31
    .del 15,
    -- 98: tmp30 = einsum(t2, (0, 1, 2, 3), tmp1, (4, 5, 1, 2), (4, 0, 5, 3))
    .set 25 (.ein [(2, [0, 1, 2, 3]), (12, [4, 5, 1, 2])] [4, 0, 5, 3]) 1 1,
    -- 99: tmp33 = einsum(t2, (0, 1, 2, 3), tmp4, (4, 2), (4, 0, 1, 3))
    .set 26 (.ein [(2, [0, 1, 2, 3]), (16, [4, 2])] [4, 0, 1, 3]) 1 1,
    -- 100: tmp28 = einsum(t1, (0, 1), v.oovv, (2, 3, 4, 1), (0, 2, 3, 4))
    .set 27 (.ein [(0, [0, 1]), (6, [2, 3, 4, 1])] [0, 2, 3, 4]) 1 1,
    -- 101: tmp29 = einsum(v.ooov, (0, 1, 2, 3), t2, (4, 1, 5, 3), (4, 0, 2, 5))
    .set 28 (.ein [(4, [0, 1, 2, 3]), (2, [4, 1, 5, 3])] [4, 0, 2, 5]) 1 1,
    -- 102: tmp16 = einsum(t1, (0, 1), tmp1, (2, 3, 4, 1), (2, 0, 4, 3))
    .set 29 (.ein [(0, [0, 1]), (12, [2, 3, 4, 1])] [2, 0, 4, 3]) 1 1,
    -- 103: tmp40 = einsum(t1, (0, 1), tmp39, (0, 1, 2, 3), (2, 3))
    .set 30 (.ein [(0, [0, 1]), (17, [0, 1, 2, 3])] [2, 3]) 1 1,
    -- 104: del tmp39
    .del 17,
    -- 105: tmp46 = np.copy(tmp1) * -1
    .set 31 (.cp 12) (-1) 1,
    -- 106: tmp46 += tmp42
    .add 31 (.cp 20) 1 1,
    -- 107: del tmp42
    .del 20,
    -- 108: tmp46 += tmp43
    .add 31 (.cp 18) 1 1,
    -- 109: del tmp43
    .del 18,
    -- 110: tmp46 += np.transpose(tmp45, (0, 2, 1, 3)) * -1
    .add 31 (.tr 19 [0, 2, 1, 3]) (-1) 1,
    -- 111: del tmp45
    .del 19,
    -- 112: tmp49 = einsum(tmp48, (0, 1, 2, 3), t1, (2, 3), (0, 1))
    .set 32 (.ein [(21, [0, 1, 2, 3]), (0, [2, 3])] [0, 1]) 1 1,
    -- 113: del tmp48
    .del 21,
    -- 114: tmp63 = einsum(t2, (0, 1, 2, 3), f.ov, (4, 3), (4, 0, 1, 2))
    .set 33 (.ein [(2, [0, 1, 2, 3]), (5, [4, 3])] [4, 0, 1, 2]) 1 1,
    -- 115: tmp66 = np.copy(f.oo)
    .set 34 (.cp 7) 1 1,
    -- 116: tmp66 += tmp65
    .add 34 (.cp 22) 1 1,
    -- 117: del tmp65
    .del 22,
    -- 118: tmp17 = einsum(t2, (0, 1, 2, 3), v.ovov, (4, 5, 1, 2), (0, 4, 3, 5))
    .set 35 (.ein [(2, [0, 1, 2, 3]), (1, [4, 5, 1, 2])] [0, 4, 3, 5]) 1 1,
    -- 119: tmp56 = einsum(tmp55, (0, 1, 2, 3), t2, (0, 1, 4, 3), (2, 4))
    .set 36 (.ein [(23, [0, 1, 2, 3]), (2, [0, 1, 4, 3])] [2, 4]) 1 1,
    -- 120: tmp58 = einsum(t2, (0, 1, 2, 3), tmp55, (1, 4, 3, 2), (4, 0)) * 2
    .set 37 (.ein [(2, [0, 1, 2, 3]), (23, [1, 4, 3, 2])] [4, 0]) 2 1,
    -- 121: del tmp55
    .del 23,
    -- 122: tmp52 = einsum(v.ovvv, (0, 1, 2, 3), t2, (4, 5, 1, 3), (4, 5, 0, 2))
    .set 38 (.ein [(3, [0, 1, 2, 3]), (2, [4, 5, 1, 3])] [4, 5, 0, 2]) 1 1,
    -- 123: tmp36 = einsum(tmp4, (0, 1), t1, (2, 1), (0, 2))
    .set 39 (.ein [(16, [0, 1]), (0, [2, 1])] [0, 2]) 1 1,
    -- 124: tmp34 = np.copy(np.transpose(tmp28, (0, 2, 1, 3))) * -1
    .set 40 (.tr 27 [0, 2, 1, 3]) (-1) 1,
    -- 125: del tmp28
    .del 27,
    -- 126: tmp34 += np.transpose(tmp29, (0, 2, 1, 3))
    .add 40 (.tr 28 [0, 2, 1, 3]) 1 1,
    -- 127: del tmp29
    .del 28,
    -- 128: tmp34 += np.transpose(tmp30, (0, 2, 1, 3))
    .add 40 (.tr 25 [0, 2, 1, 3]) 1 1,
    -- 129: del tmp30
    .del 25,
    -- 130: tmp34 += np.transpose(tmp32, (2, 1, 0, 3))
    .add 40 (.tr 24 [2, 1, 0, 3]) 1 1,
    -- 131: del tmp32
    .del 24,
    -- 132: tmp34 += np.transpose(tmp33, (2, 0, 1, 3)) * -1
    .add 40 (.tr 26 [2, 0, 1, 3]) (-1) 1,
    -- 133: del tmp33
    .del 26,
    -- 134: tmp26 = np.copy(np.transpose(t2, (0, 1, 3, 2))) * -1
    .set 41 (.tr 2 [0, 1, 3, 2]) (-1) 1,
    -- 135: tmp26 += t2 * 2
    .add 41 (.cp 2) 2 1,
    -- 136: tmp23 = einsum(t1, (0, 1), v.ovvv, (2, 3, 4, 1), (0, 2, 3, 4))
    .set 42 (.ein [(0, [0, 1]), (3, [2, 3, 4, 1])] [0, 2, 3, 4]) 1 1,
    -- 137: tmp19 = einsum(t1, (0, 1), v.ovvv, (2, 1, 3, 4), (0, 2, 3, 4))
    .set 43 (.ein [(0, [0, 1]), (3, [2, 1, 3, 4])] [0, 2, 3, 4]) 1 1,
    -- 138: tmp12 = np.copy(np.transpose(v.ovov, (0, 2, 3, 1)))
    .set 44 (.tr 1 [0, 2, 3, 1]) 1 1,
    -- 139: tmp12 += np.transpose(v.ovov, (0, 2, 1, 3)) * -0.5
    .add 44 (.tr 1 [0, 2, 1, 3]) (-1) 2,
    -- 140: tmp69 = np.copy(v.oooo)
    .set 45 (.cp 8) 1 1,
    -- 141: tmp69 += einsum(v.ovov, (0, 1, 2, 3), t2, (4, 5, 1, 3), (0, 4, 5, 2))
    .add 45 (.ein [(1, [0, 1, 2, 3]), (2, [4, 5, 1, 3])] [0, 4, 5, 2]) 1 1,
    -- 142: tmp69 += np.transpose(tmp16, (3, 1, 0, 2))
    .add 45 (.tr 29 [3, 1, 0, 2]) 1 1,
    -- 143: tmp41 = einsum(tmp40, (0, 1), t2, (2, 3, 1, 4), (2, 3, 0, 4))
    .set 46 (.ein [(30, [0, 1]), (2, [2, 3, 1, 4])] [2, 3, 0, 4]) 1 1,
    -- 144: del tmp40
    .del 30,
    -- 145: tmp47 = einsum(tmp46, (0, 1, 2, 3), t1, (2, 4), (0, 1, 3, 4))
    .set 47 (.ein [(31, [0, 1, 2, 3]), (0, [2, 4])] [0, 1, 3, 4]) 1 1,
    -- 146: del tmp46
    .del 31,
    -- 147: tmp50 = einsum(tmp49, (0, 1), t2, (2, 1, 3, 4), (0, 2, 4, 3))
    .set 48 (.ein [(32, [0, 1]), (2, [2, 1, 3, 4])] [0, 2, 4, 3]) 1 1,
    -- 148: del tmp49
    .del 32,
    -- 149: tmp64 = einsum(t1, (0, 1), tmp63, (0, 2, 3, 4), (2, 3, 1, 4))
    .set 49 (.ein [(0, [0, 1]), (33, [0, 2, 3, 4])] [2, 3, 1, 4]) 1 1,
    -- 150: del tmp63
    .del 33,
    -- 151: tmp67 = einsum(t2, (0, 1, 2, 3), tmp66, (1, 4), (4, 0, 3, 2))
    .set 50 (.ein [(2, [0, 1, 2, 3]), (34, [1, 4])] [4, 0, 3, 2]) 1 1,
    -- 152: del tmp66
    .del 34,
    -- 153: tmp54 = einsum(tmp17, (0, 1, 2, 3), t2, (4, 1, 5, 3), (4, 0, 5, 2))
    .set 51 (.ein [(35, [0, 1, 2, 3]), (2, [4, 1, 5, 3])] [4, 0, 5, 2]) 1 1,
    -- 154: tmp57 = einsum(tmp56, (0, 1), t2, (2, 3, 0, 4), (2, 3, 1, 4))
    .set 52 (.ein [(36, [0, 1]), (2, [2, 3, 0, 4])] [2, 3, 1, 4]) 1 1,
    -- 155: del tmp56
    .del 36,
    -- 156: tmp59 = einsum(t2, (0, 1, 2, 3), tmp58, (1, 4), (4, 0, 3, 2)) * 0.5
    .set 53 (.ein [(2, [0, 1, 2, 3]), (37, [1, 4])] [4, 0, 3, 2]) 1 2,
    -- 157: del tmp58
    .del 37,
    -- 158: tmp53 = einsum(t1, (0, 1), tmp52, (2, 3, 0, 4), (2, 3, 1, 4))
    .set 54 (.ein [(0, [0, 1]), (38, [2, 3, 0, 4])] [2, 3, 1, 4]) 1 1,
    -- 159: del tmp52
    .del 38,
    -- 160: tmp18 = einsum(v.ovov, (0, 1, 2, 3), t2, (4, 2, 5, 3), (4, 0, 5, 1))
    .set 55 (.ein [(1, [0, 1, 2, 3]), (2, [4, 2, 5, 3])] [4, 0, 5, 1]) 1 1,
    -- 161: tmp61 = einsum(v.ooov, (0, 1, 2, 3), t1, (4, 3), (4, 0, 1, 2))
    .set 56 (.ein [(4, [0, 1, 2, 3]), (0, [4, 3])] [4, 0, 1, 2]) 1 1,
    -- 162: tmp37 = einsum(tmp36, (0, 1), t2, (2, 0, 3, 4), (1, 2, 4, 3))
    .set 57 (.ein [(39, [0, 1]), (2, [2, 0, 3, 4])] [1, 2, 4, 3]) 1 1,
    -- 163: del tmp36
    .del 39,
    -- 164: tmp35 = einsum(tmp34, (0, 1, 2, 3), t1, (1, 4), (0, 2, 3, 4))
    .set 58 (.ein [(40, [0, 1, 2, 3]), (0, [1, 4])] [0, 2, 3, 4]) 1 1,
    -- 165: del tmp34
    .del 40,
    -- 166: tmp27 = einsum(tmp23, (0, 1, 2, 3), tmp26, (1, 4, 2, 5), (4, 0, 5, 3))
    .set 59 (.ein [(42, [0, 1, 2, 3]), (41, [1, 4, 2, 5])] [4, 0, 5, 3]) 1 1,
    -- 167: del tmp26
    .del 41,
    -- 168: tmp22 = einsum(f.vv, (0, 1), t2, (2, 3, 4, 1), (2, 3, 0, 4))
    .set 60 (.ein [(9, [0, 1]), (2, [2, 3, 4, 1])] [2, 3, 0, 4]) 1 1,
    -- 169: tmp25 = einsum(t2, (0, 1, 2, 3), tmp19, (4, 1, 5, 3), (4, 0, 2, 5))
    .set 61 (.ein [(2, [0, 1, 2, 3]), (43, [4, 1, 5, 3])] [4, 0, 2, 5]) 1 1,
    -- 170: tmp24 = einsum(v.oovv, (0, 1, 2, 3), t2, (4, 1, 3, 5), (4, 0, 5, 2))
    .set 62 (.ein [(6, [0, 1, 2, 3]), (2, [4, 1, 3, 5])] [4, 0, 5, 2]) 1 1,
    -- 171: tmp20 = np.copy(t2)
    .set 63 (.cp 2) 1 1,
    -- 172: tmp20 += einsum(t1, (0, 1), t1, (2, 3), (2, 0, 3, 1))
    .add 63 (.ein [(0, [0, 1]), (0, [2, 3])] [2, 0, 3, 1]) 1 1,
    -- 173: tmp8 = np.copy(v.ovvv)
    .set 64 (.cp 3) 1 1,
    -- 174: tmp8 += np.transpose(v.ovvv, (0, 2, 3, 1)) * -0.5
    .add 64 (.tr 3 [0, 2, 3, 1]) (-1) 2,
    -- 175: tmp10 = np.copy(np.transpose(v.ovov, (0, 2, 3, 1))) * 2
    .set 65 (.tr 1 [0, 2, 3, 1]) 2 1,
    -- 176: tmp10 += np.transpose(v.ovov, (0, 2, 1, 3)) * -1
    .add 65 (.tr 1 [0, 2, 1, 3]) (-1) 1,
    -- 177: tmp13 = np.copy(f.ov) * 0.5
    .set 66 (.cp 5) 1 2,
    -- 178: tmp13 += einsum(t1, (0, 1), tmp12, (0, 2, 3, 1), (2, 3))
    .add 66 (.ein [(0, [0, 1]), (44, [0, 2, 3, 1])] [2, 3]) 1 1,
    -- 179: del tmp12
    .del 44,
    -- 180: tmp11 = np.copy(v.ooov)
    .set 67 (.cp 4) 1 1,
    -- 181: tmp11 += np.transpose(v.ooov, (0, 2, 1, 3)) * -0.5
    .add 67 (.tr 4 [0, 2, 1, 3]) (-1) 2,
    -- 182: tmp15 = einsum(t1, (0, 1), v.vvvv, (2, 3, 4, 1), (0, 2, 3, 4))
    .set 68 (.ein [(0, [0, 1]), (10, [2, 3, 4, 1])] [0, 2, 3, 4]) 1 1,
    -- 183: tmp70 = np.copy(np.transpose(v.ooov, (0, 2, 1, 3))) * -1
    .set 69 (.tr 4 [0, 2, 1, 3]) (-1) 1,
    -- 184: tmp70 += einsum(tmp69, (0, 1, 2, 3), t1, (0, 4), (2, 1, 3, 4))
    .add 69 (.ein [(45, [0, 1, 2, 3]), (0, [0, 4])] [2, 1, 3, 4]) 1 1,
    -- 185: del tmp69
    .del 45,
    -- 186: tmp51 = np.copy(np.transpose(tmp41, (1, 0, 3, 2)))
    .set 70 (.tr 46 [1, 0, 3, 2]) 1 1,
    -- 187: del tmp41
    .del 46,
    -- 188: tmp51 += np.transpose(tmp47, (0, 1, 3, 2))
    .add 70 (.tr 47 [0, 1, 3, 2]) 1 1,
    -- 189: del tmp47
    .del 47,
    -- 190: tmp51 += np.transpose(tmp50, (1, 0, 3, 2)) * -1
    .add 70 (.tr 48 [1, 0, 3, 2]) (-1) 1,
    -- 191: del tmp50
    .del 48,
    -- 192: tmp71 = np.copy(np.transpose(v.ovov, (0, 2, 1, 3))) * -1
    .set 71 (.tr 1 [0, 2, 1, 3]) (-1) 1,
    -- 193: tmp71 += tmp17
    .add 71 (.cp 35) 1 1,
    -- 194: tmp68 = np.copy(tmp64)
    .set 72 (.cp 49) 1 1,
    -- 195: del tmp64
    .del 49,
    -- 196: tmp68 += np.transpose(tmp67, (0, 1, 3, 2))
    .add 72 (.tr 50 [0, 1, 3, 2]) 1 1,
    -- 197: del tmp67
    .del 50,
    -- 198: tmp60 = np.copy(tmp53)
    .set 73 (.cp 54) 1 1,
    -- 199: del tmp53
    .del 54,
    -- 200: tmp60 += tmp54 * 2
    .add 73 (.cp 51) 2 1,
    -- 201: del tmp54
    .del 51,
    -- 202: tmp60 += np.transpose(tmp57, (1, 0, 3, 2))
    .add 73 (.tr 52 [1, 0, 3, 2]) 1 1,
    -- 203: del tmp57
    .del 52,
    -- 204: tmp60 += np.transpose(tmp59, (1, 0, 3, 2))
    .add 73 (.tr 53 [1, 0, 3, 2]) 1 1,
    -- 205: del tmp59
    .del 53,
    -- 206: tmp72 = np.copy(np.transpose(v.ovov, (0, 2, 1, 3))) * 0.5
    .set 74 (.tr 1 [0, 2, 1, 3]) 1 2,
    -- 207: tmp72 += v.oovv * -0.25
    .add 74 (.cp 6) (-1) 4,
    -- 208: tmp72 += tmp18
    .add 74 (.cp 55) 1 1,
    -- 209: tmp62 = einsum(t2, (0, 1, 2, 3), tmp61, (4, 5, 0, 1), (4, 5, 2, 3))
    .set 75 (.ein [(2, [0, 1, 2, 3]), (56, [4, 5, 0, 1])] [4, 5, 2, 3]) 1 1,
    -- 210: del tmp61
    .del 56,
    -- 211: tmp38 = np.copy(tmp22)
    .set 76 (.cp 60) 1 1,
    -- 212: del tmp22
    .del 60,
    -- 213: tmp38 += tmp23
    .add 76 (.cp 42) 1 1,
    -- 214: del tmp23
    .del 42,
    -- 215: tmp38 += tmp24 * -1
    .add 76 (.cp 62) (-1) 1,
    -- 216: del tmp24
    .del 62,
    -- 217: tmp38 += tmp25 * -1
    .add 76 (.cp 61) (-1) 1,
    -- 218: del tmp25
    .del 61,
    -- 219: tmp38 += np.transpose(tmp27, (1, 0, 2, 3))
    .add 76 (.tr 59 [1, 0, 2, 3]) 1 1,
    -- 220: del tmp27
    .del 59,
    -- 221: tmp38 += np.transpose(tmp35, (0, 1, 3, 2))
    .add 76 (.tr 58 [0, 1, 3, 2]) 1 1,
    -- 222: del tmp35
    .del 58,
    -- 223: tmp38 += np.transpose(tmp37, (0, 1, 3, 2)) * -1
    .add 76 (.tr 57 [0, 1, 3, 2]) (-1) 1,
    -- 224: del tmp37
    .del 57,
    -- 225: tmp21 = einsum(tmp20, (0, 1, 2, 3), tmp19, (4, 0, 3, 5), (4, 1, 5, 2))
    .set 77 (.ein [(63, [0, 1, 2, 3]), (43, [4, 0, 3, 5])] [4, 1, 5, 2]) 1 1,
    -- 226: del tmp19, tmp20
    .del 43,
    .del 63,
    -- 227: tmp9 = np.copy(f.vv)
    .set 78 (.cp 9) 1 1,
    -- 228: tmp9 += einsum(t1, (0, 1), tmp8, (0, 1, 2, 3), (3, 2)) * 2
    .add 78 (.ein [(0, [0, 1]), (64, [0, 1, 2, 3])] [3, 2]) 2 1,
    -- 229: del tmp8
    .del 64,
    -- 230: tmp0 = np.copy(v.ovvv) * -0.5
    .set 79 (.cp 3) (-1) 2,
    -- 231: tmp0 += np.transpose(v.ovvv, (0, 2, 1, 3))
    .add 79 (.tr 3 [0, 2, 1, 3]) 1 1,
    -- 232: tmp6 = np.copy(np.transpose(t2, (0, 1, 3, 2))) * 2
    .set 80 (.tr 2 [0, 1, 3, 2]) 2 1,
    -- 233: tmp6 += t2 * -1
    .add 80 (.cp 2) (-1) 1,
    -- 234: tmp7 = np.copy(np.transpose(v.ovov, (0, 2, 1, 3))) * 2
    .set 81 (.tr 1 [0, 2, 1, 3]) 2 1,
    -- 235: tmp7 += v.oovv * -1
    .add 81 (.cp 6) (-1) 1,
    -- 236: tmp5 = np.copy(f.ov)
    .set 82 (.cp 5) 1 1,
    -- 237: tmp5 += tmp4
    .add 82 (.cp 16) 1 1,
    -- 238: del tmp4
    .del 16,
    -- 239: tmp14 = np.copy(f.oo)
    .set 83 (.cp 7) 1 1,
    -- 240: tmp14 += einsum(tmp10, (0, 1, 2, 3), t2, (4, 0, 2, 3), (1, 4))
    .add 83 (.ein [(65, [0, 1, 2, 3]), (2, [4, 0, 2, 3])] [1, 4]) 1 1,
    -- 241: del tmp10
    .del 65,
    -- 242: tmp14 += einsum(t1, (0, 1), tmp11, (2, 3, 0, 1), (3, 2)) * 2
    .add 83 (.ein [(0, [0, 1]), (67, [2, 3, 0, 1])] [3, 2]) 2 1,
    -- 243: del tmp11
    .del 67,
    -- 244: tmp14 += einsum(tmp13, (0, 1), t1, (2, 1), (0, 2)) * 2
    .add 83 (.ein [(66, [0, 1]), (0, [2, 1])] [0, 2]) 2 1,
    -- 245: del tmp13
    .del 66,
    -- 246: tmp2 = np.copy(v.ooov)
    .set 84 (.cp 4) 1 1,
    -- 247: tmp2 += np.transpose(v.ooov, (0, 2, 1, 3)) * -0.5
    .add 84 (.tr 4 [0, 2, 1, 3]) (-1) 2,
    -- 248: tmp2 += tmp1 * -0.5
    .add 84 (.cp 12) (-1) 2,
    -- 249: tmp2 += np.transpose(tmp1, (0, 2, 1, 3))
    .add 84 (.tr 12 [0, 2, 1, 3]) 1 1,
    -- 250: del tmp1
    .del 12,
    -- 251: t2new = einsum(t2, (0, 1, 2, 3), v.vvvv, (4, 2, 5, 3), (0, 1, 4, 5))
    .set 85 (.ein [(2, [0, 1, 2, 3]), (10, [4, 2, 5, 3])] [0, 1, 4, 5]) 1 1,
    -- 252: t2new += einsum(t1, (0, 1), tmp15, (2, 3, 1, 4), (0, 2, 3, 4))
    .add 85 (.ein [(0, [0, 1]), (68, [2, 3, 1, 4])] [0, 2, 3, 4]) 1 1,
    -- 253: del tmp15
    .del 68,
    -- 254: t2new += np.transpose(v.ovov, (0, 2, 1, 3))
    .add 85 (.tr 1 [0, 2, 1, 3]) 1 1,
    -- 255: t2new += einsum(t2, (0, 1, 2, 3), v.oooo, (4, 1, 5, 0), (4, 5, 3, 2))
    .add 85 (.ein [(2, [0, 1, 2, 3]), (8, [4, 1, 5, 0])] [4, 5, 3, 2]) 1 1,
    -- 256: t2new += einsum(t2, (0, 1, 2, 3), tmp16, (4, 5, 1, 0), (5, 4, 2, 3))
    .add 85 (.ein [(2, [0, 1, 2, 3]), (29, [4, 5, 1, 0])] [5, 4, 2, 3]) 1 1,
    -- 257: del tmp16
    .del 29,
    -- 258: t2new += einsum(t2, (0, 1, 2, 3), v.oovv, (4, 1, 5, 3), (4, 0, 5, 2)) * -1
    .add 85 (.ein [(2, [0, 1, 2, 3]), (6, [4, 1, 5, 3])] [4, 0, 5, 2]) (-1) 1,
    -- 259: t2new += tmp17 * -1
    .add 85 (.cp 35) (-1) 1,
    -- 260: del tmp17
    .del 35,
    -- 261: t2new += np.transpose(tmp18, (1, 0, 3, 2)) * 2
    .add 85 (.tr 55 [1, 0, 3, 2]) 2 1,
    -- 262: del tmp18
    .del 55,
    -- 263: t2new += einsum(v.ovoo, (0, 1, 2, 3), t1, (3, 4), (0, 2, 1, 4)) * -1
    .add 85 (.ein [(11, [0, 1, 2, 3]), (0, [3, 4])] [0, 2, 1, 4]) (-1) 1,
    -- 264: t2new += np.transpose(tmp21, (0, 1, 3, 2)) * -1
    .add 85 (.tr 77 [0, 1, 3, 2]) (-1) 1,
    -- 265: t2new += np.transpose(tmp21, (1, 0, 2, 3)) * -1
    .add 85 (.tr 77 [1, 0, 2, 3]) (-1) 1,
    -- 266: del tmp21
    .del 77,
    -- 267: t2new += np.transpose(tmp38, (0, 1, 3, 2))
    .add 85 (.tr 76 [0, 1, 3, 2]) 1 1,
    -- 268: t2new += np.transpose(tmp38, (1, 0, 2, 3))
    .add 85 (.tr 76 [1, 0, 2, 3]) 1 1,
    -- 269: del tmp38
    .del 76,
    -- 270: t2new += tmp51
    .add 85 (.cp 70) 1 1,
    -- 271: t2new += np.transpose(tmp51, (1, 0, 3, 2))
    .add 85 (.tr 70 [1, 0, 3, 2]) 1 1,
    -- 272: del tmp51
    .del 70,
    -- 273: t2new += tmp60 * -1
    .add 85 (.cp 73) (-1) 1,
    -- 274: t2new += np.transpose(tmp60, (1, 0, 3, 2)) * -1
    .add 85 (.tr 73 [1, 0, 3, 2]) (-1) 1,
    -- 275: del tmp60
    .del 73,
    -- 276: t2new += np.transpose(tmp62, (0, 1, 3, 2))
    .add 85 (.tr 75 [0, 1, 3, 2]) 1 1,
    -- 277: t2new += np.transpose(tmp62, (1, 0, 2, 3))
    .add 85 (.tr 75 [1, 0, 2, 3]) 1 1,
    -- 278: del tmp62
    .del 75,
    -- 279: t2new += np.transpose(tmp68, (0, 1, 3, 2)) * -1
    .add 85 (.tr 72 [0, 1, 3, 2]) (-1) 1,
    -- 280: t2new += np.transpose(tmp68, (1, 0, 2, 3)) * -1
    .add 85 (.tr 72 [1, 0, 2, 3]) (-1) 1,
    -- 281: del tmp68
    .del 72,
    -- 282: t2new += einsum(t1, (0, 1), tmp70, (2, 3, 0, 4), (2, 3, 1, 4))
    .add 85 (.ein [(0, [0, 1]), (69, [2, 3, 0, 4])] [2, 3, 1, 4]) 1 1,
    -- 283: del tmp70
    .del 69,
    -- 284: t2new += einsum(t2, (0, 1, 2, 3), tmp71, (4, 1, 5, 2), (4, 0, 5, 3))
    .add 85 (.ein [(2, [0, 1, 2, 3]), (71, [4, 1, 5, 2])] [4, 0, 5, 3]) 1 1,
    -- 285: del tmp71
    .del 71,
    -- 286: t2new += einsum(tmp72, (0, 1, 2, 3), t2, (4, 1, 5, 3), (4, 0, 5, 2)) * 4
    .add 85 (.ein [(74, [0, 1, 2, 3]), (2, [4, 1, 5, 3])] [4, 0, 5, 2]) 4 1,
    -- 287: del tmp72
    .del 74,
    -- 288: t1new = np.copy(f.ov)
    .set 86 (.cp 5) 1 1,
    -- 289: t1new += einsum(tmp0, (0, 1, 2, 3), t2, (4, 0, 1, 2), (4, 3)) * 2
    .add 86 (.ein [(79, [0, 1, 2, 3]), (2, [4, 0, 1, 2])] [4, 3]) 2 1,
    -- 290: del tmp0
    .del 79,
    -- 291: t1new += einsum(tmp2, (0, 1, 2, 3), t2, (1, 2, 4, 3), (0, 4)) * -2
    .add 86 (.ein [(84, [0, 1, 2, 3]), (2, [1, 2, 4, 3])] [0, 4]) (-2) 1,
    -- 292: del tmp2
    .del 84,
    -- 293: t1new += einsum(tmp5, (0, 1), tmp6, (0, 2, 3, 1), (2, 3))
    .add 86 (.ein [(82, [0, 1]), (80, [0, 2, 3, 1])] [2, 3]) 1 1,
    -- 294: del tmp5, tmp6
    .del 82,
    .del 80,
    -- 295: t1new += einsum(t1, (0, 1), tmp7, (0, 2, 1, 3), (2, 3))
    .add 86 (.ein [(0, [0, 1]), (81, [0, 2, 1, 3])] [2, 3]) 1 1,
    -- 296: del tmp7
    .del 81,
    -- 297: t1new += einsum(t1, (0, 1), tmp9, (1, 2), (0, 2))
    .add 86 (.ein [(0, [0, 1]), (78, [1, 2])] [0, 2]) 1 1,
    -- 298: del tmp9
    .del 78,
    -- 299: t1new += einsum(t1, (0, 1), tmp14, (0, 2), (2, 1)) * -1
    .add 86 (.ein [(0, [0, 1]), (83, [0, 2])] [2, 1]) (-1) 1,
    -- 300: del tmp14
    .del 83
  ]
  ret := [(chars! "t1new", 86), (chars! "t2new", 85)]

end Ebcc.Gen.RDCSD
