import Verif.Model.GenCode
/-!
Functions of `ebcc/codegen/RCCSD.py`, written by `tools/gencode.py`.  Comments give the
number and the text of the line of each statement.
-/

set_option maxRecDepth 100000

namespace Ebcc.Gen.RCCSD

/-- codegen/RCCSD.py:19-50 `energy`. -/
def energy : GenFun where
  args := [chars! "v.ovov", chars! "f.ov", chars! "t1", chars! "t2"]
  body := [
    -- 40: tmp0 = np.copy(np.transpose(v.ovov, (0, 2, 3, 1))) * -0.5
    .set 4 (.tr 0 [0, 2, 3, 1]) (-1) 2,
    -- 41: tmp0 += np.transpose(v.ovov, (0, 2, 1, 3))
    .add 4 (.tr 0 [0, 2, 1, 3]) 1 1,
    -- 42: tmp1 = np.copy(f.ov)
    .set 5 (.cp 1) 1 1,
    -- 43: tmp1 += einsum(t1, (0, 1), tmp0, (0, 2, 1, 3), (2, 3))
    .add 5 (.ein [(2, [0, 1]), (4, [0, 2, 1, 3])] [2, 3]) 1 1,
    -- 44: del tmp0
    .del 4,
    -- 45: e_cc = einsum(v.ovov, (0, 1, 2, 3), t2, (0, 2, 1, 3), ()) * 2
    .set 6 (.ein [(0, [0, 1, 2, 3]), (3, [0, 2, 1, 3])] []) 2 1,
    -- 46: e_cc += einsum(v.ovov, (0, 1, 2, 3), t2, (0, 2, 3, 1), ()) * -1
    .add 6 (.ein [(0, [0, 1, 2, 3]), (3, [0, 2, 3, 1])] []) (-1) 1,
    -- 47: e_cc += einsum(t1, (0, 1), tmp1, (0, 1), ()) * 2
    .add 6 (.ein [(2, [0, 1]), (5, [0, 1])] []) 2 1,
    -- 48: del tmp1
    .del 5
  ]
  ret := [(chars! "e_cc", 6)]

/-- codegen/RCCSD.py:52-298 `update_amps`. -/
def update_amps : GenFun where
  args := [chars! "t1", chars! "v.ovov", chars! "t2", chars! "f.ov", chars! "v.ooov", chars! "v.ovoo", chars! "v.ovvv", chars! "v.oovv", chars! "f.oo", chars! "f.vv", chars! "v.vvvv", chars! "v.oooo"]
  body := [
    -- 75: tmp2 = einsum(t1, (0, 1), v.ovov, (2, 3, 4, 1), (0, 2, 4, 3))
    .set 12 (.ein [(0, [0, 1]), (1, [2, 3, 4, 1])] [0, 2, 4, 3]) 1 1,
    -- 76: tmp4 = np.copy(np.transpose(v.ovov, (0, 2, 3, 1))) * -1
    .set 13 (.tr 1 [0, 2, 3, 1]) (-1) 1,
    -- 77: tmp4 += np.transpose(v.ovov, (0, 2, 1, 3)) * 2
    .add 13 (.tr 1 [0, 2, 1, 3]) 2 1,
    -- 78: tmp43 = np.copy(tmp2) * -1
    .set 14 (.cp 12) (-1) 1,
    -- 79: tmp43 += np.transpose(tmp2, (0, 2, 1, 3)) * 2
    .add 14 (.tr 12 [0, 2, 1, 3]) 2 1,
    -- 80: tmp5 = einsum(t1, (0, 1), tmp4, (0, 2, 1, 3), (2, 3))
    .set 15 (.ein [(0, [0, 1]), (13, [0, 2, 1, 3])] [2, 3]) 1 1,
    -- 81: tmp25 = einsum(t1, (0, 1), t1, (2, 3), (2, 0, 3, 1))
    .set 16 (.ein [(0, [0, 1]), (0, [2, 3])] [2, 0, 3, 1]) 1 1,
    -- 82: tmp25 += np.transpose(t2, (0, 1, 3, 2)) * -2
    .add 16 (.tr 2 [0, 1, 3, 2]) (-2) 1,
    -- 83: tmp25 += t2
    .add 16 (.cp 2) 1 1,
    -- 84: tmp9 = einsum(t1, (0, 1), f.ov, (2, 1), (2, 0))
    .set 17 (.ein [(0, [0, 1]), (3, [2, 1])] [2, 0]) 1 1,
    -- 85: tmp42 = einsum(v.ooov, (0, 1, 2, 3), t2, (4, 1, 3, 5), (4, 0, 2, 5))
    .set 18 (.ein [(4, [0, 1, 2, 3]), (2, [4, 1, 3, 5])] [4, 0, 2, 5]) 1 1,
    -- 86: tmp44 = einsum(t2, (0, 1, 2, 3), tmp43, (4, 5, 1, 3), (4, 5, 0, 2))
    .set 19 (.ein [(2, [0, 1, 2, 3]), (14, [4, 5, 1, 3])] [4, 5, 0, 2]) 1 1,
    -- 87: del tmp43
    .del 14,
    -- 88: tmp47 = np.copy(v.ooov) * -1
    .set 20 (.cp 4) (-1) 1,
    -- 89: tmp47 += np.transpose(v.ovoo, (0, 2, 3, 1)) * 2
    .add 20 (.tr 5 [0, 2, 3, 1]) 2 1,
    -- 90: tmp36 = einsum(tmp4, (0, 1, 2, 3), t2, (4, 0, 5, 2), (1, 4, 3, 5))
    .set 21 (.ein [(13, [0, 1, 2, 3]), (2, [4, 0, 5, 2])] [1, 4, 3, 5]) 1 1,
    -- 91: del tmp4
    .del 13,
    -- 92: tmp35 = einsum(t1, (0, 1), tmp2, (2, 3, 0, 4), (2, 3, 1, 4))
    .set 22 (.ein [(0, [0, 1]), (12, [2, 3, 0, 4])] [2, 3, 1, 4]) 1 1,
    -- 93: tmp39 = np.copy(v.ovvv) * -1
    .set 23 (.cp 6) (-1) 1,
    -- 94: tmp39 += np.transpose(v.ovvv, (0, 2, 1, 3)) * 2
    .add 23 (.tr 6 [0, 2, 1, 3]) 2 1,
    -- 95: tmp22 = einsum(t1, (0, 1), v.oovv, (2, 3, 4, 1), (0, 2, 3, 4))
    .set 24 (.ein [(0, [0, 1]), (7, [2, 3, 4, 1])] [0, 2, 3, 4]) 1 1,
    -- 96: tmp27 = einsum(tmp5, (0, 1), t2, (2, 3, 1, 4), (0, 2, 3, 4))
    .set 25 (.ein [(15, [0, 1]), (2, [2, 3, 1, 4])] [0, 2, 3, 4]) 1 1,
    -- 97: tmp26 = einsum(v.ooov, (0, 1, 2, 3), tmp25, (2, 4, 5, 3), (0, 1, 4, 5))
    .set 26 (.ein [(4, [0, 1, 2, 3]), (16, [2, 4, 5, 3])] [0, 1, 4, 5]) 1 1,
    -- 98: del tmp25
    .del 16,
    -- 99: tmp23 = einsum(t2, (0, 1, 2, 3), v.ooov, (4, 1, 5, 3), (0, 4, 5, 2))
    .set 27 (.ein [(2, [0, 1, 2, 3]), (4, [4, 1, 5, 3])] [0, 4, 5, 2]) 1 1,
    -- 100: tmp24 = einsum(t2, (0, 1, 2, 3), tmp2, (4, 5, 1, 2), (4, 0, 5, 3))
    .set 28 (.ein [(2, [0, 1, 2, 3]), (12, [4, 5, 1, 2])] [4, 0, 5, 3]) 1 1,
    -- 101: tmp56 = np.copy(np.transpose(v.ovov, (0, 2, 3, 1)))
    .set 29 (.tr 1 [0, 2, 3, 1]) 1 1,
    -- 102: tmp56 += np.transpose(v.ovov, (0, 2, 1, 3)) * -0.5
    .add 29 (.tr 1 [0, 2, 1, 3]) (-1) 2,
    -- 103: tmp53 = np.copy(np.transpose(v.ovov, (0, 2, 3, 1))) * -0.5
    .set 30 (.tr 1 [0, 2, 3, 1]) (-1) 2,
    -- 104: tmp53 += np.transpose(v.ovov, (0, 2, 1, 3))
    .add 30 (.tr 1 [0, 2, 1, 3]) 1 1,
    -- 105: tmp60 = einsum(f.ov, (0, 1), t2, (2, 3, 4, 1), (0, 2, 3, 4))
    .set 31 (.ein [(3, [0, 1]), (2, [2, 3, 4, 1])] [0, 2, 3, 4]) 1 1,
    -- 106: tmp62 = np.copy(f.oo)
    .set 32 (.cp 8) 1 1,
    -- 107: tmp62 += tmp9
    .add 32 (.cp 17) 1 1,
    -- 108: tmp45 = np.copy(tmp2)
    .set 33 (.cp 12) 1 1,
    -- 109: tmp45 += tmp42 * -1
    .add 33 (.cp 18) (-1) 1,
    -- 110: del tmp42
    .del 18,
    -- 111: tmp45 += np.transpose(tmp44, (0, 2, 1, 3))
    .add 33 (.tr 19 [0, 2, 1, 3]) 1 1,
    -- 112: del tmp44
    .del 19,
    -- 113: tmp48 = einsum(tmp47, (0, 1, 2, 3), t1, (0, 3), (1, 2))
    .set 34 (.ein [(20, [0, 1, 2, 3]), (0, [0, 3])] [1, 2]) 1 1,
    -- 114: del tmp47
    .del 20,
    -- 115: tmp37 = np.copy(tmp35)
    .set 35 (.cp 22) 1 1,
    -- 116: del tmp35
    .del 22,
    -- 117: tmp37 += np.transpose(tmp36, (1, 0, 3, 2)) * -1
    .add 35 (.tr 21 [1, 0, 3, 2]) (-1) 1,
    -- 118: tmp40 = einsum(tmp39, (0, 1, 2, 3), t1, (0, 2), (1, 3))
    .set 36 (.ein [(23, [0, 1, 2, 3]), (0, [0, 2])] [1, 3]) 1 1,
    -- 119: del tmp39
    .del 23,
    -- 120: tmp28 = np.copy(np.transpose(tmp22, (0, 2, 1, 3))) * -1
    .set 37 (.tr 24 [0, 2, 1, 3]) (-1) 1,
    -- 121: del tmp22
    .del 24,
    -- 122: tmp28 += np.transpose(tmp23, (0, 2, 1, 3))
    .add 37 (.tr 27 [0, 2, 1, 3]) 1 1,
    -- 123: del tmp23
    .del 27,
    -- 124: tmp28 += np.transpose(tmp24, (0, 2, 1, 3))
    .add 37 (.tr 28 [0, 2, 1, 3]) 1 1,
    -- 125: del tmp24
    .del 28,
    -- 126: tmp28 += np.transpose(tmp26, (2, 1, 0, 3))
    .add 37 (.tr 26 [2, 1, 0, 3]) 1 1,
    -- 127: del tmp26
    .del 26,
    -- 128: tmp28 += np.transpose(tmp27, (2, 0, 1, 3)) * -1
    .add 37 (.tr 25 [2, 0, 1, 3]) (-1) 1,
    -- 129: del tmp27
    .del 25,
    -- 130: tmp20 = np.copy(np.transpose(t2, (0, 1, 3, 2))) * 2
    .set 38 (.tr 2 [0, 1, 3, 2]) 2 1,
    -- 131: tmp20 += t2 * -1
    .add 38 (.cp 2) (-1) 1,
    -- 132: tmp17 = einsum(t1, (0, 1), v.ovvv, (2, 3, 4, 1), (0, 2, 3, 4))
    .set 39 (.ein [(0, [0, 1]), (6, [2, 3, 4, 1])] [0, 2, 3, 4]) 1 1,
    -- 133: tmp30 = einsum(t1, (0, 1), tmp5, (2, 1), (2, 0))
    .set 40 (.ein [(0, [0, 1]), (15, [2, 1])] [2, 0]) 1 1,
    -- 134: tmp18 = einsum(t1, (0, 1), v.ovvv, (2, 1, 3, 4), (0, 2, 3, 4))
    .set 41 (.ein [(0, [0, 1]), (6, [2, 1, 3, 4])] [0, 2, 3, 4]) 1 1,
    -- 135: tmp57 = einsum(tmp56, (0, 1, 2, 3), t2, (4, 0, 2, 3), (1, 4)) * 2
    .set 42 (.ein [(29, [0, 1, 2, 3]), (2, [4, 0, 2, 3])] [1, 4]) 2 1,
    -- 136: del tmp56
    .del 29,
    -- 137: tmp54 = einsum(tmp53, (0, 1, 2, 3), t2, (0, 1, 2, 4), (3, 4))
    .set 43 (.ein [(30, [0, 1, 2, 3]), (2, [0, 1, 2, 4])] [3, 4]) 1 1,
    -- 138: del tmp53
    .del 30,
    -- 139: tmp51 = einsum(t2, (0, 1, 2, 3), v.ovvv, (4, 2, 5, 3), (0, 1, 4, 5))
    .set 44 (.ein [(2, [0, 1, 2, 3]), (6, [4, 2, 5, 3])] [0, 1, 4, 5]) 1 1,
    -- 140: tmp65 = einsum(t1, (0, 1), v.ooov, (2, 3, 4, 1), (0, 2, 3, 4))
    .set 45 (.ein [(0, [0, 1]), (4, [2, 3, 4, 1])] [0, 2, 3, 4]) 1 1,
    -- 141: tmp61 = einsum(t1, (0, 1), tmp60, (0, 2, 3, 4), (2, 3, 1, 4))
    .set 46 (.ein [(0, [0, 1]), (31, [0, 2, 3, 4])] [2, 3, 1, 4]) 1 1,
    -- 142: del tmp60
    .del 31,
    -- 143: tmp63 = einsum(t2, (0, 1, 2, 3), tmp62, (1, 4), (4, 0, 3, 2))
    .set 47 (.ein [(2, [0, 1, 2, 3]), (32, [1, 4])] [4, 0, 3, 2]) 1 1,
    -- 144: del tmp62
    .del 32,
    -- 145: tmp46 = einsum(t1, (0, 1), tmp45, (2, 3, 0, 4), (2, 3, 4, 1))
    .set 48 (.ein [(0, [0, 1]), (33, [2, 3, 0, 4])] [2, 3, 4, 1]) 1 1,
    -- 146: del tmp45
    .del 33,
    -- 147: tmp49 = einsum(t2, (0, 1, 2, 3), tmp48, (4, 1), (4, 0, 3, 2))
    .set 49 (.ein [(2, [0, 1, 2, 3]), (34, [4, 1])] [4, 0, 3, 2]) 1 1,
    -- 148: del tmp48
    .del 34,
    -- 149: tmp38 = einsum(tmp37, (0, 1, 2, 3), t2, (4, 1, 3, 5), (0, 4, 2, 5))
    .set 50 (.ein [(35, [0, 1, 2, 3]), (2, [4, 1, 3, 5])] [0, 4, 2, 5]) 1 1,
    -- 150: del tmp37
    .del 35,
    -- 151: tmp41 = einsum(tmp40, (0, 1), t2, (2, 3, 0, 4), (2, 3, 1, 4))
    .set 51 (.ein [(36, [0, 1]), (2, [2, 3, 0, 4])] [2, 3, 1, 4]) 1 1,
    -- 152: del tmp40
    .del 36,
    -- 153: tmp16 = einsum(t2, (0, 1, 2, 3), f.vv, (4, 3), (0, 1, 4, 2))
    .set 52 (.ein [(2, [0, 1, 2, 3]), (9, [4, 3])] [0, 1, 4, 2]) 1 1,
    -- 154: tmp29 = einsum(t1, (0, 1), tmp28, (2, 0, 3, 4), (2, 3, 4, 1))
    .set 53 (.ein [(0, [0, 1]), (37, [2, 0, 3, 4])] [2, 3, 4, 1]) 1 1,
    -- 155: del tmp28
    .del 37,
    -- 156: tmp21 = einsum(tmp20, (0, 1, 2, 3), tmp17, (4, 0, 3, 5), (1, 4, 2, 5))
    .set 54 (.ein [(38, [0, 1, 2, 3]), (39, [4, 0, 3, 5])] [1, 4, 2, 5]) 1 1,
    -- 157: del tmp20
    .del 38,
    -- 158: tmp31 = einsum(t2, (0, 1, 2, 3), tmp30, (1, 4), (4, 0, 3, 2))
    .set 55 (.ein [(2, [0, 1, 2, 3]), (40, [1, 4])] [4, 0, 3, 2]) 1 1,
    -- 159: del tmp30
    .del 40,
    -- 160: tmp19 = einsum(t2, (0, 1, 2, 3), tmp18, (4, 1, 5, 3), (4, 0, 2, 5))
    .set 56 (.ein [(2, [0, 1, 2, 3]), (41, [4, 1, 5, 3])] [4, 0, 2, 5]) 1 1,
    -- 161: tmp14 = einsum(t1, (0, 1), tmp2, (2, 3, 4, 1), (2, 0, 4, 3))
    .set 57 (.ein [(0, [0, 1]), (12, [2, 3, 4, 1])] [2, 0, 4, 3]) 1 1,
    -- 162: tmp33 = np.copy(t2)
    .set 58 (.cp 2) 1 1,
    -- 163: tmp33 += einsum(t1, (0, 1), t1, (2, 3), (2, 0, 3, 1))
    .add 58 (.ein [(0, [0, 1]), (0, [2, 3])] [2, 0, 3, 1]) 1 1,
    -- 164: tmp15 = einsum(t2, (0, 1, 2, 3), v.ovov, (4, 5, 1, 2), (0, 4, 3, 5))
    .set 59 (.ein [(2, [0, 1, 2, 3]), (1, [4, 5, 1, 2])] [0, 4, 3, 5]) 1 1,
    -- 165: tmp58 = einsum(tmp57, (0, 1), t2, (2, 0, 3, 4), (1, 2, 4, 3))
    .set 60 (.ein [(42, [0, 1]), (2, [2, 0, 3, 4])] [1, 2, 4, 3]) 1 1,
    -- 166: del tmp57
    .del 42,
    -- 167: tmp55 = einsum(tmp54, (0, 1), t2, (2, 3, 0, 4), (2, 3, 1, 4)) * 2
    .set 61 (.ein [(43, [0, 1]), (2, [2, 3, 0, 4])] [2, 3, 1, 4]) 2 1,
    -- 168: del tmp54
    .del 43,
    -- 169: tmp52 = einsum(tmp51, (0, 1, 2, 3), t1, (2, 4), (0, 1, 4, 3))
    .set 62 (.ein [(44, [0, 1, 2, 3]), (0, [2, 4])] [0, 1, 4, 3]) 1 1,
    -- 170: del tmp51
    .del 44,
    -- 171: tmp11 = np.copy(v.ooov) * -0.5
    .set 63 (.cp 4) (-1) 2,
    -- 172: tmp11 += np.transpose(v.ovoo, (0, 2, 3, 1))
    .add 63 (.tr 5 [0, 2, 3, 1]) 1 1,
    -- 173: tmp10 = np.copy(np.transpose(v.ovov, (0, 2, 3, 1))) * -1
    .set 64 (.tr 1 [0, 2, 3, 1]) (-1) 1,
    -- 174: tmp10 += np.transpose(v.ovov, (0, 2, 1, 3)) * 2
    .add 64 (.tr 1 [0, 2, 1, 3]) 2 1,
    -- 175: tmp0 = np.copy(t2)
    .set 65 (.cp 2) 1 1,
    -- 176: tmp0 += einsum(t1, (0, 1), t1, (2, 3), (2, 0, 3, 1))
    .add 65 (.ein [(0, [0, 1]), (0, [2, 3])] [2, 0, 3, 1]) 1 1,
    -- 177: tmp66 = einsum(t2, (0, 1, 2, 3), tmp65, (4, 5, 1, 0), (4, 5, 3, 2))
    .set 66 (.ein [(2, [0, 1, 2, 3]), (45, [4, 5, 1, 0])] [4, 5, 3, 2]) 1 1,
    -- 178: del tmp65
    .del 45,
    -- 179: tmp64 = np.copy(tmp61)
    .set 67 (.cp 46) 1 1,
    -- 180: del tmp61
    .del 46,
    -- 181: tmp64 += np.transpose(tmp63, (0, 1, 3, 2))
    .add 67 (.tr 47 [0, 1, 3, 2]) 1 1,
    -- 182: del tmp63
    .del 47,
    -- 183: tmp13 = einsum(t1, (0, 1), v.vvvv, (2, 3, 4, 1), (0, 2, 3, 4))
    .set 68 (.ein [(0, [0, 1]), (10, [2, 3, 4, 1])] [0, 2, 3, 4]) 1 1,
    -- 184: tmp50 = np.copy(tmp38)
    .set 69 (.cp 50) 1 1,
    -- 185: del tmp38
    .del 50,
    -- 186: tmp50 += np.transpose(tmp41, (1, 0, 3, 2))
    .add 69 (.tr 51 [1, 0, 3, 2]) 1 1,
    -- 187: del tmp41
    .del 51,
    -- 188: tmp50 += np.transpose(tmp46, (0, 1, 3, 2)) * -1
    .add 69 (.tr 48 [0, 1, 3, 2]) (-1) 1,
    -- 189: del tmp46
    .del 48,
    -- 190: tmp50 += np.transpose(tmp49, (1, 0, 3, 2)) * -1
    .add 69 (.tr 49 [1, 0, 3, 2]) (-1) 1,
    -- 191: del tmp49
    .del 49,
    -- 192: tmp67 = np.copy(np.transpose(v.ovov, (0, 2, 1, 3))) * 2
    .set 70 (.tr 1 [0, 2, 1, 3]) 2 1,
    -- 193: tmp67 += v.oovv * -1
    .add 70 (.cp 7) (-1) 1,
    -- 194: tmp67 += np.transpose(tmp36, (1, 0, 3, 2)) * 2
    .add 70 (.tr 21 [1, 0, 3, 2]) 2 1,
    -- 195: del tmp36
    .del 21,
    -- 196: tmp32 = np.copy(tmp16)
    .set 71 (.cp 52) 1 1,
    -- 197: del tmp16
    .del 52,
    -- 198: tmp32 += tmp17
    .add 71 (.cp 39) 1 1,
    -- 199: del tmp17
    .del 39,
    -- 200: tmp32 += tmp19 * -1
    .add 71 (.cp 56) (-1) 1,
    -- 201: del tmp19
    .del 56,
    -- 202: tmp32 += np.transpose(tmp21, (1, 0, 2, 3))
    .add 71 (.tr 54 [1, 0, 2, 3]) 1 1,
    -- 203: del tmp21
    .del 54,
    -- 204: tmp32 += np.transpose(tmp29, (0, 1, 3, 2))
    .add 71 (.tr 53 [0, 1, 3, 2]) 1 1,
    -- 205: del tmp29
    .del 53,
    -- 206: tmp32 += np.transpose(tmp31, (0, 1, 3, 2)) * -1
    .add 71 (.tr 55 [0, 1, 3, 2]) (-1) 1,
    -- 207: del tmp31
    .del 55,
    -- 208: tmp69 = np.copy(np.transpose(v.ooov, (0, 2, 1, 3))) * -1
    .set 72 (.tr 4 [0, 2, 1, 3]) (-1) 1,
    -- 209: tmp69 += einsum(tmp14, (0, 1, 2, 3), t1, (2, 4), (1, 0, 3, 4))
    .add 72 (.ein [(57, [0, 1, 2, 3]), (0, [2, 4])] [1, 0, 3, 4]) 1 1,
    -- 210: tmp70 = np.copy(v.oovv) * -1
    .set 73 (.cp 7) (-1) 1,
    -- 211: tmp70 += einsum(t2, (0, 1, 2, 3), v.ovov, (4, 2, 1, 5), (0, 4, 3, 5))
    .add 73 (.ein [(2, [0, 1, 2, 3]), (1, [4, 2, 1, 5])] [0, 4, 3, 5]) 1 1,
    -- 212: tmp34 = einsum(tmp18, (0, 1, 2, 3), tmp33, (1, 4, 5, 2), (0, 4, 3, 5))
    .set 74 (.ein [(41, [0, 1, 2, 3]), (58, [1, 4, 5, 2])] [0, 4, 3, 5]) 1 1,
    -- 213: del tmp18, tmp33
    .del 41,
    .del 58,
    -- 214: tmp68 = np.copy(v.oooo)
    .set 75 (.cp 11) 1 1,
    -- 215: tmp68 += einsum(t2, (0, 1, 2, 3), v.ovov, (4, 2, 5, 3), (4, 0, 1, 5))
    .add 75 (.ein [(2, [0, 1, 2, 3]), (1, [4, 2, 5, 3])] [4, 0, 1, 5]) 1 1,
    -- 216: tmp71 = np.copy(np.transpose(v.ovov, (0, 2, 1, 3))) * -1
    .set 76 (.tr 1 [0, 2, 1, 3]) (-1) 1,
    -- 217: tmp71 += tmp15
    .add 76 (.cp 59) 1 1,
    -- 218: tmp59 = np.copy(tmp52)
    .set 77 (.cp 62) 1 1,
    -- 219: del tmp52
    .del 62,
    -- 220: tmp59 += np.transpose(tmp55, (1, 0, 3, 2))
    .add 77 (.tr 61 [1, 0, 3, 2]) 1 1,
    -- 221: del tmp55
    .del 61,
    -- 222: tmp59 += np.transpose(tmp58, (1, 0, 3, 2))
    .add 77 (.tr 60 [1, 0, 3, 2]) 1 1,
    -- 223: del tmp58
    .del 60,
    -- 224: tmp12 = np.copy(f.oo)
    .set 78 (.cp 8) 1 1,
    -- 225: tmp12 += tmp9
    .add 78 (.cp 17) 1 1,
    -- 226: del tmp9
    .del 17,
    -- 227: tmp12 += einsum(tmp10, (0, 1, 2, 3), tmp0, (0, 4, 2, 3), (1, 4))
    .add 78 (.ein [(64, [0, 1, 2, 3]), (65, [0, 4, 2, 3])] [1, 4]) 1 1,
    -- 228: del tmp10
    .del 64,
    -- 229: tmp12 += einsum(tmp11, (0, 1, 2, 3), t1, (0, 3), (2, 1)) * 2
    .add 78 (.ein [(63, [0, 1, 2, 3]), (0, [0, 3])] [2, 1]) 2 1,
    -- 230: del tmp11
    .del 63,
    -- 231: tmp6 = np.copy(f.ov)
    .set 79 (.cp 3) 1 1,
    -- 232: tmp6 += tmp5
    .add 79 (.cp 15) 1 1,
    -- 233: del tmp5
    .del 15,
    -- 234: tmp1 = np.copy(v.ovvv) * -0.5
    .set 80 (.cp 6) (-1) 2,
    -- 235: tmp1 += np.transpose(v.ovvv, (0, 2, 1, 3))
    .add 80 (.tr 6 [0, 2, 1, 3]) 1 1,
    -- 236: tmp3 = np.copy(v.ooov) * -0.5
    .set 81 (.cp 4) (-1) 2,
    -- 237: tmp3 += np.transpose(v.ooov, (0, 2, 1, 3))
    .add 81 (.tr 4 [0, 2, 1, 3]) 1 1,
    -- 238: tmp3 += tmp2
    .add 81 (.cp 12) 1 1,
    -- 239: tmp3 += np.transpose(tmp2, (0, 2, 1, 3)) * -0.5
    .add 81 (.tr 12 [0, 2, 1, 3]) (-1) 2,
    -- 240: del tmp2
    .del 12,
    -- 241: tmp8 = np.copy(np.transpose(v.ovov, (0, 2, 1, 3))) * 2
    .set 82 (.tr 1 [0, 2, 1, 3]) 2 1,
    -- 242: tmp8 += v.oovv * -1
    .add 82 (.cp 7) (-1) 1,
    -- 243: tmp7 = np.copy(np.transpose(t2, (0, 1, 3, 2))) * -1
    .set 83 (.tr 2 [0, 1, 3, 2]) (-1) 1,
    -- 244: tmp7 += t2 * 2
    .add 83 (.cp 2) 2 1,
    -- 245: t2new = einsum(t2, (0, 1, 2, 3), v.vvvv, (4, 2, 5, 3), (0, 1, 4, 5))
    .set 84 (.ein [(2, [0, 1, 2, 3]), (10, [4, 2, 5, 3])] [0, 1, 4, 5]) 1 1,
    -- 246: t2new += einsum(t1, (0, 1), tmp13, (2, 3, 1, 4), (0, 2, 3, 4))
    .add 84 (.ein [(0, [0, 1]), (68, [2, 3, 1, 4])] [0, 2, 3, 4]) 1 1,
    -- 247: del tmp13
    .del 68,
    -- 248: t2new += einsum(t1, (0, 1), v.ovoo, (2, 3, 4, 0), (2, 4, 3, 1)) * -1
    .add 84 (.ein [(0, [0, 1]), (5, [2, 3, 4, 0])] [2, 4, 3, 1]) (-1) 1,
    -- 249: t2new += np.transpose(v.ovov, (0, 2, 1, 3))
    .add 84 (.tr 1 [0, 2, 1, 3]) 1 1,
    -- 250: t2new += einsum(t2, (0, 1, 2, 3), tmp14, (4, 5, 0, 1), (5, 4, 3, 2))
    .add 84 (.ein [(2, [0, 1, 2, 3]), (57, [4, 5, 0, 1])] [5, 4, 3, 2]) 1 1,
    -- 251: del tmp14
    .del 57,
    -- 252: t2new += einsum(t2, (0, 1, 2, 3), v.oovv, (4, 1, 5, 3), (0, 4, 2, 5)) * -1
    .add 84 (.ein [(2, [0, 1, 2, 3]), (7, [4, 1, 5, 3])] [0, 4, 2, 5]) (-1) 1,
    -- 253: t2new += tmp15 * -1
    .add 84 (.cp 59) (-1) 1,
    -- 254: del tmp15
    .del 59,
    -- 255: t2new += einsum(t2, (0, 1, 2, 3), v.oovv, (4, 1, 5, 2), (4, 0, 3, 5)) * -1
    .add 84 (.ein [(2, [0, 1, 2, 3]), (7, [4, 1, 5, 2])] [4, 0, 3, 5]) (-1) 1,
    -- 256: t2new += einsum(v.ovov, (0, 1, 2, 3), t2, (4, 2, 5, 3), (4, 0, 5, 1)) * 2
    .add 84 (.ein [(1, [0, 1, 2, 3]), (2, [4, 2, 5, 3])] [4, 0, 5, 1]) 2 1,
    -- 257: t2new += np.transpose(tmp32, (0, 1, 3, 2))
    .add 84 (.tr 71 [0, 1, 3, 2]) 1 1,
    -- 258: t2new += np.transpose(tmp32, (1, 0, 2, 3))
    .add 84 (.tr 71 [1, 0, 2, 3]) 1 1,
    -- 259: del tmp32
    .del 71,
    -- 260: t2new += np.transpose(tmp34, (0, 1, 3, 2)) * -1
    .add 84 (.tr 74 [0, 1, 3, 2]) (-1) 1,
    -- 261: t2new += np.transpose(tmp34, (1, 0, 2, 3)) * -1
    .add 84 (.tr 74 [1, 0, 2, 3]) (-1) 1,
    -- 262: del tmp34
    .del 74,
    -- 263: t2new += tmp50
    .add 84 (.cp 69) 1 1,
    -- 264: t2new += np.transpose(tmp50, (1, 0, 3, 2))
    .add 84 (.tr 69 [1, 0, 3, 2]) 1 1,
    -- 265: del tmp50
    .del 69,
    -- 266: t2new += tmp59 * -1
    .add 84 (.cp 77) (-1) 1,
    -- 267: t2new += np.transpose(tmp59, (1, 0, 3, 2)) * -1
    .add 84 (.tr 77 [1, 0, 3, 2]) (-1) 1,
    -- 268: del tmp59
    .del 77,
    -- 269: t2new += np.transpose(tmp64, (0, 1, 3, 2)) * -1
    .add 84 (.tr 67 [0, 1, 3, 2]) (-1) 1,
    -- 270: t2new += np.transpose(tmp64, (1, 0, 2, 3)) * -1
    .add 84 (.tr 67 [1, 0, 2, 3]) (-1) 1,
    -- 271: del tmp64
    .del 67,
    -- 272: t2new += np.transpose(tmp66, (0, 1, 3, 2))
    .add 84 (.tr 66 [0, 1, 3, 2]) 1 1,
    -- 273: t2new += np.transpose(tmp66, (1, 0, 2, 3))
    .add 84 (.tr 66 [1, 0, 2, 3]) 1 1,
    -- 274: del tmp66
    .del 66,
    -- 275: t2new += einsum(tmp67, (0, 1, 2, 3), t2, (4, 1, 5, 3), (0, 4, 2, 5))
    .add 84 (.ein [(70, [0, 1, 2, 3]), (2, [4, 1, 5, 3])] [0, 4, 2, 5]) 1 1,
    -- 276: del tmp67
    .del 70,
    -- 277: t2new += einsum(tmp68, (0, 1, 2, 3), tmp0, (0, 3, 4, 5), (2, 1, 5, 4))
    .add 84 (.ein [(75, [0, 1, 2, 3]), (65, [0, 3, 4, 5])] [2, 1, 5, 4]) 1 1,
    -- 278: del tmp68
    .del 75,
    -- 279: t2new += einsum(t1, (0, 1), tmp69, (2, 3, 0, 4), (2, 3, 1, 4))
    .add 84 (.ein [(0, [0, 1]), (72, [2, 3, 0, 4])] [2, 3, 1, 4]) 1 1,
    -- 280: del tmp69
    .del 72,
    -- 281: t2new += einsum(t2, (0, 1, 2, 3), tmp70, (4, 1, 5, 2), (0, 4, 5, 3))
    .add 84 (.ein [(2, [0, 1, 2, 3]), (73, [4, 1, 5, 2])] [0, 4, 5, 3]) 1 1,
    -- 282: del tmp70
    .del 73,
    -- 283: t2new += einsum(t2, (0, 1, 2, 3), tmp71, (4, 1, 5, 2), (4, 0, 5, 3))
    .add 84 (.ein [(2, [0, 1, 2, 3]), (76, [4, 1, 5, 2])] [4, 0, 5, 3]) 1 1,
    -- 284: del tmp71
    .del 76,
    -- 285: t1new = np.copy(f.ov)
    .set 85 (.cp 3) 1 1,
    -- 286: t1new += einsum(t1, (0, 1), f.vv, (2, 1), (0, 2))
    .add 85 (.ein [(0, [0, 1]), (9, [2, 1])] [0, 2]) 1 1,
    -- 287: t1new += einsum(tmp0, (0, 1, 2, 3), tmp1, (0, 3, 2, 4), (1, 4)) * 2
    .add 85 (.ein [(65, [0, 1, 2, 3]), (80, [0, 3, 2, 4])] [1, 4]) 2 1,
    -- 288: del tmp0, tmp1
    .del 65,
    .del 80,
    -- 289: t1new += einsum(tmp3, (0, 1, 2, 3), t2, (1, 2, 3, 4), (0, 4)) * -2
    .add 85 (.ein [(81, [0, 1, 2, 3]), (2, [1, 2, 3, 4])] [0, 4]) (-2) 1,
    -- 290: del tmp3
    .del 81,
    -- 291: t1new += einsum(tmp6, (0, 1), tmp7, (0, 2, 1, 3), (2, 3))
    .add 85 (.ein [(79, [0, 1]), (83, [0, 2, 1, 3])] [2, 3]) 1 1,
    -- 292: del tmp6, tmp7
    .del 79,
    .del 83,
    -- 293: t1new += einsum(t1, (0, 1), tmp8, (0, 2, 1, 3), (2, 3))
    .add 85 (.ein [(0, [0, 1]), (82, [0, 2, 1, 3])] [2, 3]) 1 1,
    -- 294: del tmp8
    .del 82,
    -- 295: t1new += einsum(t1, (0, 1), tmp12, (0, 2), (2, 1)) * -1
    .add 85 (.ein [(0, [0, 1]), (78, [0, 2])] [2, 1]) (-1) 1,
    -- 296: del tmp12
    .del 78
  ]
  ret := [(chars! "t1new", 85), (chars! "t2new", 84)]

/-- codegen/RCCSD.py:300-692 `update_lams`. -/
def update_lams : GenFun where
  args := [chars! "v.ovov", chars! "t1", chars! "t2", chars! "l1", chars! "l2", chars! "v.ooov", chars! "v.ovvv", chars! "v.oovv", chars! "f.ov", chars! "f.oo", chars! "v.ovoo", chars! "f.vv", chars! "v.oooo", chars! "v.vvvv"]
  body := [
    -- 327: tmp51 = np.copy(np.transpose(v.ovov, (0, 2, 3, 1))) * -1
    .set 14 (.tr 0 [0, 2, 3, 1]) (-1) 1,
    -- 328: tmp51 += np.transpose(v.ovov, (0, 2, 1, 3)) * 2
    .add 14 (.tr 0 [0, 2, 1, 3]) 2 1,
    -- 329: tmp5 = einsum(t1, (0, 1), v.ovov, (2, 3, 4, 1), (0, 2, 4, 3))
    .set 15 (.ein [(1, [0, 1]), (0, [2, 3, 4, 1])] [0, 2, 4, 3]) 1 1,
    -- 330: tmp20 = np.copy(np.transpose(t2, (0, 1, 3, 2))) * -0.5
    .set 16 (.tr 2 [0, 1, 3, 2]) (-1) 2,
    -- 331: tmp20 += t2
    .add 16 (.cp 2) 1 1,
    -- 332: tmp46 = np.copy(np.transpose(t2, (0, 1, 3, 2))) * -1
    .set 17 (.tr 2 [0, 1, 3, 2]) (-1) 1,
    -- 333: tmp46 += t2 * 2
    .add 17 (.cp 2) 2 1,
    -- 334: tmp82 = np.copy(np.transpose(t2, (0, 1, 3, 2))) * -1
    .set 18 (.tr 2 [0, 1, 3, 2]) (-1) 1,
    -- 335: tmp82 += t2 * 2
    .add 18 (.cp 2) 2 1,
    -- 336: tmp92 = einsum(t1, (0, 1), tmp51, (0, 2, 1, 3), (2, 3))
    .set 19 (.ein [(1, [0, 1]), (14, [0, 2, 1, 3])] [2, 3]) 1 1,
    -- 337: tmp6 = einsum(t1, (0, 1), tmp5, (2, 3, 4, 1), (0, 2, 3, 4))
    .set 20 (.ein [(1, [0, 1]), (15, [2, 3, 4, 1])] [0, 2, 3, 4]) 1 1,
    -- 338: tmp4 = einsum(v.ovov, (0, 1, 2, 3), t2, (4, 5, 1, 3), (4, 5, 0, 2))
    .set 21 (.ein [(0, [0, 1, 2, 3]), (2, [4, 5, 1, 3])] [4, 5, 0, 2]) 1 1,
    -- 339: tmp47 = einsum(t1, (0, 1), l1, (1, 2), (2, 0))
    .set 22 (.ein [(1, [0, 1]), (3, [1, 2])] [2, 0]) 1 1,
    -- 340: tmp57 = einsum(tmp20, (0, 1, 2, 3), l2, (2, 3, 0, 4), (4, 1)) * 2
    .set 23 (.ein [(16, [0, 1, 2, 3]), (4, [2, 3, 0, 4])] [4, 1]) 2 1,
    -- 341: tmp110 = einsum(tmp46, (0, 1, 2, 3), v.ovov, (4, 3, 0, 2), (4, 1)) * 0.5
    .set 24 (.ein [(17, [0, 1, 2, 3]), (0, [4, 3, 0, 2])] [4, 1]) 1 2,
    -- 342: tmp109 = einsum(t1, (0, 1), v.ooov, (2, 3, 0, 1), (2, 3))
    .set 25 (.ein [(1, [0, 1]), (5, [2, 3, 0, 1])] [2, 3]) 1 1,
    -- 343: tmp70 = einsum(t2, (0, 1, 2, 3), v.ovov, (4, 2, 1, 5), (0, 4, 3, 5))
    .set 26 (.ein [(2, [0, 1, 2, 3]), (0, [4, 2, 1, 5])] [0, 4, 3, 5]) 1 1,
    -- 344: tmp2 = einsum(t1, (0, 1), v.ovvv, (2, 1, 3, 4), (0, 2, 3, 4))
    .set 27 (.ein [(1, [0, 1]), (6, [2, 1, 3, 4])] [0, 2, 3, 4]) 1 1,
    -- 345: tmp21 = einsum(t1, (0, 1), l2, (2, 1, 3, 4), (3, 4, 0, 2))
    .set 28 (.ein [(1, [0, 1]), (4, [2, 1, 3, 4])] [3, 4, 0, 2]) 1 1,
    -- 346: tmp83 = einsum(tmp82, (0, 1, 2, 3), v.ovov, (4, 5, 0, 2), (4, 1, 5, 3))
    .set 29 (.ein [(18, [0, 1, 2, 3]), (0, [4, 5, 0, 2])] [4, 1, 5, 3]) 1 1,
    -- 347: del tmp82
    .del 18,
    -- 348: tmp80 = einsum(t1, (0, 1), v.ovvv, (2, 3, 4, 1), (0, 2, 3, 4))
    .set 30 (.ein [(1, [0, 1]), (6, [2, 3, 4, 1])] [0, 2, 3, 4]) 1 1,
    -- 349: tmp81 = einsum(v.ovov, (0, 1, 2, 3), t2, (4, 2, 5, 1), (4, 0, 5, 3))
    .set 31 (.ein [(0, [0, 1, 2, 3]), (2, [4, 2, 5, 1])] [4, 0, 5, 3]) 1 1,
    -- 350: tmp93 = einsum(t1, (0, 1), tmp92, (2, 1), (0, 2))
    .set 32 (.ein [(1, [0, 1]), (19, [2, 1])] [0, 2]) 1 1,
    -- 351: tmp91 = einsum(t1, (0, 1), v.ooov, (2, 0, 3, 1), (2, 3))
    .set 33 (.ein [(1, [0, 1]), (5, [2, 0, 3, 1])] [2, 3]) 1 1,
    -- 352: tmp10 = np.copy(np.transpose(v.ovov, (0, 2, 3, 1))) * -0.5
    .set 34 (.tr 0 [0, 2, 3, 1]) (-1) 2,
    -- 353: tmp10 += np.transpose(v.ovov, (0, 2, 1, 3))
    .add 34 (.tr 0 [0, 2, 1, 3]) 1 1,
    -- 354: tmp7 = np.copy(np.transpose(tmp4, (1, 0, 3, 2)))
    .set 35 (.tr 21 [1, 0, 3, 2]) 1 1,
    -- 355: del tmp4
    .del 21,
    -- 356: tmp7 += tmp6
    .add 35 (.cp 20) 1 1,
    -- 357: del tmp6
    .del 20,
    -- 358: tmp58 = np.copy(tmp47)
    .set 36 (.cp 22) 1 1,
    -- 359: tmp58 += tmp57
    .add 36 (.cp 23) 1 1,
    -- 360: del tmp57
    .del 23,
    -- 361: tmp102 = einsum(l2, (0, 1, 2, 3), tmp20, (3, 2, 1, 4), (0, 4)) * 2
    .set 37 (.ein [(4, [0, 1, 2, 3]), (16, [3, 2, 1, 4])] [0, 4]) 2 1,
    -- 362: tmp107 = einsum(v.ovov, (0, 1, 2, 3), tmp46, (0, 2, 1, 4), (3, 4)) * 0.5
    .set 38 (.ein [(0, [0, 1, 2, 3]), (17, [0, 2, 1, 4])] [3, 4]) 1 2,
    -- 363: tmp111 = np.copy(np.transpose(tmp109, (1, 0)))
    .set 39 (.tr 25 [1, 0]) 1 1,
    -- 364: del tmp109
    .del 25,
    -- 365: tmp111 += np.transpose(tmp110, (1, 0))
    .add 39 (.tr 24 [1, 0]) 1 1,
    -- 366: del tmp110
    .del 24,
    -- 367: tmp71 = np.copy(v.oovv)
    .set 40 (.cp 7) 1 1,
    -- 368: tmp71 += np.transpose(tmp2, (0, 1, 3, 2))
    .add 40 (.tr 27 [0, 1, 3, 2]) 1 1,
    -- 369: tmp71 += tmp70 * -1
    .add 40 (.cp 26) (-1) 1,
    -- 370: del tmp70
    .del 26,
    -- 371: tmp87 = np.copy(tmp21) * -1
    .set 41 (.cp 28) (-1) 1,
    -- 372: tmp87 += np.transpose(tmp21, (1, 0, 2, 3)) * 2
    .add 41 (.tr 28 [1, 0, 2, 3]) 2 1,
    -- 373: tmp79 = np.copy(np.transpose(l2, (3, 2, 0, 1))) * -1
    .set 42 (.tr 4 [3, 2, 0, 1]) (-1) 1,
    -- 374: tmp79 += np.transpose(l2, (2, 3, 0, 1)) * 2
    .add 42 (.tr 4 [2, 3, 0, 1]) 2 1,
    -- 375: tmp84 = np.copy(np.transpose(v.ovov, (0, 2, 1, 3)))
    .set 43 (.tr 0 [0, 2, 1, 3]) 1 1,
    -- 376: tmp84 += np.transpose(tmp80, (0, 1, 3, 2))
    .add 43 (.tr 30 [0, 1, 3, 2]) 1 1,
    -- 377: del tmp80
    .del 30,
    -- 378: tmp84 += tmp81 * -1
    .add 43 (.cp 31) (-1) 1,
    -- 379: del tmp81
    .del 31,
    -- 380: tmp84 += np.transpose(tmp83, (1, 0, 3, 2))
    .add 43 (.tr 29 [1, 0, 3, 2]) 1 1,
    -- 381: del tmp83
    .del 29,
    -- 382: tmp75 = einsum(t1, (0, 1), v.ovvv, (0, 1, 2, 3), (2, 3))
    .set 44 (.ein [(1, [0, 1]), (6, [0, 1, 2, 3])] [2, 3]) 1 1,
    -- 383: tmp94 = np.copy(tmp91)
    .set 45 (.cp 33) 1 1,
    -- 384: del tmp91
    .del 33,
    -- 385: tmp94 += tmp93 * -1
    .add 45 (.cp 32) (-1) 1,
    -- 386: del tmp93
    .del 32,
    -- 387: tmp89 = np.copy(tmp5) * -1
    .set 46 (.cp 15) (-1) 1,
    -- 388: tmp89 += np.transpose(tmp5, (0, 2, 1, 3)) * 2
    .add 46 (.tr 15 [0, 2, 1, 3]) 2 1,
    -- 389: tmp64 = einsum(t1, (0, 1), f.ov, (2, 1), (2, 0))
    .set 47 (.ein [(1, [0, 1]), (8, [2, 1])] [2, 0]) 1 1,
    -- 390: tmp16 = einsum(t1, (0, 1), v.ooov, (2, 3, 4, 1), (0, 2, 3, 4))
    .set 48 (.ein [(1, [0, 1]), (5, [2, 3, 4, 1])] [0, 2, 3, 4]) 1 1,
    -- 391: tmp11 = einsum(t1, (0, 1), tmp10, (0, 2, 1, 3), (2, 3)) * 2
    .set 49 (.ein [(1, [0, 1]), (34, [0, 2, 1, 3])] [2, 3]) 2 1,
    -- 392: tmp8 = einsum(tmp7, (0, 1, 2, 3), t1, (2, 4), (0, 1, 3, 4))
    .set 50 (.ein [(35, [0, 1, 2, 3]), (1, [2, 4])] [0, 1, 3, 4]) 1 1,
    -- 393: tmp1 = einsum(t2, (0, 1, 2, 3), v.ovvv, (4, 2, 5, 3), (0, 1, 4, 5))
    .set 51 (.ein [(2, [0, 1, 2, 3]), (6, [4, 2, 5, 3])] [0, 1, 4, 5]) 1 1,
    -- 394: tmp3 = einsum(t1, (0, 1), tmp2, (2, 3, 4, 1), (2, 0, 3, 4))
    .set 52 (.ein [(1, [0, 1]), (27, [2, 3, 4, 1])] [2, 0, 3, 4]) 1 1,
    -- 395: del tmp2
    .del 27,
    -- 396: tmp36 = einsum(tmp21, (0, 1, 2, 3), t1, (4, 3), (1, 0, 2, 4))
    .set 53 (.ein [(28, [0, 1, 2, 3]), (1, [4, 3])] [1, 0, 2, 4]) 1 1,
    -- 397: tmp48 = einsum(tmp20, (0, 1, 2, 3), l2, (2, 3, 0, 4), (4, 1))
    .set 54 (.ein [(16, [0, 1, 2, 3]), (4, [2, 3, 0, 4])] [4, 1]) 1 1,
    -- 398: tmp39 = einsum(l2, (0, 1, 2, 3), t2, (4, 5, 0, 1), (2, 3, 4, 5))
    .set 55 (.ein [(4, [0, 1, 2, 3]), (2, [4, 5, 0, 1])] [2, 3, 4, 5]) 1 1,
    -- 399: tmp98 = einsum(t1, (0, 1), v.ovvv, (0, 2, 3, 1), (2, 3))
    .set 56 (.ein [(1, [0, 1]), (6, [0, 2, 3, 1])] [2, 3]) 1 1,
    -- 400: tmp101 = einsum(l1, (0, 1), tmp5, (1, 2, 3, 4), (2, 3, 0, 4))
    .set 57 (.ein [(3, [0, 1]), (15, [1, 2, 3, 4])] [2, 3, 0, 4]) 1 1,
    -- 401: tmp104 = einsum(v.ovov, (0, 1, 2, 3), tmp58, (4, 2), (0, 4, 3, 1))
    .set 58 (.ein [(0, [0, 1, 2, 3]), (36, [4, 2])] [0, 4, 3, 1]) 1 1,
    -- 402: tmp103 = einsum(tmp102, (0, 1), v.ovov, (2, 1, 3, 4), (2, 3, 4, 0))
    .set 59 (.ein [(37, [0, 1]), (0, [2, 1, 3, 4])] [2, 3, 4, 0]) 1 1,
    -- 403: del tmp102
    .del 37,
    -- 404: tmp100 = einsum(l2, (0, 1, 2, 3), f.oo, (4, 3), (4, 2, 0, 1))
    .set 60 (.ein [(4, [0, 1, 2, 3]), (9, [4, 3])] [4, 2, 0, 1]) 1 1,
    -- 405: tmp108 = einsum(tmp107, (0, 1), l2, (2, 1, 3, 4), (4, 3, 2, 0)) * 2
    .set 61 (.ein [(38, [0, 1]), (4, [2, 1, 3, 4])] [4, 3, 2, 0]) 2 1,
    -- 406: del tmp107
    .del 38,
    -- 407: tmp106 = einsum(v.ooov, (0, 1, 2, 3), l1, (4, 1), (0, 2, 4, 3))
    .set 62 (.ein [(5, [0, 1, 2, 3]), (3, [4, 1])] [0, 2, 4, 3]) 1 1,
    -- 408: tmp112 = einsum(tmp111, (0, 1), l2, (2, 3, 0, 4), (4, 1, 2, 3)) * 2
    .set 63 (.ein [(39, [0, 1]), (4, [2, 3, 0, 4])] [4, 1, 2, 3]) 2 1,
    -- 409: del tmp111
    .del 39,
    -- 410: tmp74 = einsum(tmp21, (0, 1, 2, 3), v.ooov, (4, 1, 2, 5), (0, 4, 3, 5))
    .set 64 (.ein [(28, [0, 1, 2, 3]), (5, [4, 1, 2, 5])] [0, 4, 3, 5]) 1 1,
    -- 411: tmp86 = einsum(l2, (0, 1, 2, 3), tmp71, (3, 4, 1, 5), (2, 4, 0, 5))
    .set 65 (.ein [(4, [0, 1, 2, 3]), (40, [3, 4, 1, 5])] [2, 4, 0, 5]) 1 1,
    -- 412: tmp88 = einsum(v.ovoo, (0, 1, 2, 3), tmp87, (2, 4, 3, 5), (0, 4, 1, 5))
    .set 66 (.ein [(10, [0, 1, 2, 3]), (41, [2, 4, 3, 5])] [0, 4, 1, 5]) 1 1,
    -- 413: del tmp87
    .del 41,
    -- 414: tmp78 = einsum(tmp5, (0, 1, 2, 3), tmp21, (0, 4, 2, 5), (4, 1, 5, 3))
    .set 67 (.ein [(15, [0, 1, 2, 3]), (28, [0, 4, 2, 5])] [4, 1, 5, 3]) 1 1,
    -- 415: tmp85 = einsum(tmp79, (0, 1, 2, 3), tmp84, (0, 4, 2, 5), (1, 4, 3, 5))
    .set 68 (.ein [(42, [0, 1, 2, 3]), (43, [0, 4, 2, 5])] [1, 4, 3, 5]) 1 1,
    -- 416: del tmp79, tmp84
    .del 42,
    .del 43,
    -- 417: tmp76 = einsum(tmp75, (0, 1), l2, (2, 1, 3, 4), (3, 4, 2, 0))
    .set 69 (.ein [(44, [0, 1]), (4, [2, 1, 3, 4])] [3, 4, 2, 0]) 1 1,
    -- 418: del tmp75
    .del 44,
    -- 419: tmp96 = einsum(tmp92, (0, 1), tmp21, (2, 3, 0, 4), (2, 3, 4, 1))
    .set 70 (.ein [(19, [0, 1]), (28, [2, 3, 0, 4])] [2, 3, 4, 1]) 1 1,
    -- 420: tmp95 = einsum(tmp94, (0, 1), l2, (2, 3, 0, 4), (4, 1, 2, 3))
    .set 71 (.ein [(45, [0, 1]), (4, [2, 3, 0, 4])] [4, 1, 2, 3]) 1 1,
    -- 421: del tmp94
    .del 45,
    -- 422: tmp90 = einsum(tmp21, (0, 1, 2, 3), tmp89, (1, 2, 4, 5), (0, 4, 3, 5))
    .set 72 (.ein [(28, [0, 1, 2, 3]), (46, [1, 2, 4, 5])] [0, 4, 3, 5]) 1 1,
    -- 423: del tmp89
    .del 46,
    -- 424: tmp77 = einsum(tmp21, (0, 1, 2, 3), v.ovvv, (2, 4, 5, 3), (1, 0, 4, 5))
    .set 73 (.ein [(28, [0, 1, 2, 3]), (6, [2, 4, 5, 3])] [1, 0, 4, 5]) 1 1,
    -- 425: tmp66 = einsum(tmp21, (0, 1, 2, 3), f.ov, (2, 4), (0, 1, 4, 3))
    .set 74 (.ein [(28, [0, 1, 2, 3]), (8, [2, 4])] [0, 1, 4, 3]) 1 1,
    -- 426: tmp62 = einsum(l2, (0, 1, 2, 3), f.vv, (4, 1), (2, 3, 4, 0))
    .set 75 (.ein [(4, [0, 1, 2, 3]), (11, [4, 1])] [2, 3, 4, 0]) 1 1,
    -- 427: tmp63 = einsum(l1, (0, 1), v.ovvv, (2, 3, 4, 0), (1, 2, 3, 4))
    .set 76 (.ein [(3, [0, 1]), (6, [2, 3, 4, 0])] [1, 2, 3, 4]) 1 1,
    -- 428: tmp68 = einsum(v.ooov, (0, 1, 2, 3), tmp21, (1, 4, 2, 5), (4, 0, 5, 3))
    .set 77 (.ein [(5, [0, 1, 2, 3]), (28, [1, 4, 2, 5])] [4, 0, 5, 3]) 1 1,
    -- 429: tmp65 = einsum(tmp64, (0, 1), l2, (2, 3, 4, 1), (0, 4, 2, 3))
    .set 78 (.ein [(47, [0, 1]), (4, [2, 3, 4, 1])] [0, 4, 2, 3]) 1 1,
    -- 430: del tmp64
    .del 47,
    -- 431: tmp72 = einsum(tmp71, (0, 1, 2, 3), l2, (4, 2, 0, 5), (5, 1, 4, 3))
    .set 79 (.ein [(40, [0, 1, 2, 3]), (4, [4, 2, 0, 5])] [5, 1, 4, 3]) 1 1,
    -- 432: del tmp71
    .del 40,
    -- 433: tmp67 = einsum(l2, (0, 1, 2, 3), tmp16, (2, 3, 4, 5), (4, 5, 0, 1))
    .set 80 (.ein [(4, [0, 1, 2, 3]), (48, [2, 3, 4, 5])] [4, 5, 0, 1]) 1 1,
    -- 434: tmp69 = einsum(tmp5, (0, 1, 2, 3), tmp21, (0, 4, 1, 5), (4, 2, 5, 3))
    .set 81 (.ein [(15, [0, 1, 2, 3]), (28, [0, 4, 1, 5])] [4, 2, 5, 3]) 1 1,
    -- 435: tmp60 = np.copy(f.ov)
    .set 82 (.cp 8) 1 1,
    -- 436: tmp60 += tmp11
    .add 82 (.cp 49) 1 1,
    -- 437: tmp59 = np.copy(v.ooov) * -0.5
    .set 83 (.cp 5) (-1) 2,
    -- 438: tmp59 += np.transpose(v.ovoo, (0, 2, 3, 1))
    .add 83 (.tr 10 [0, 2, 3, 1]) 1 1,
    -- 439: tmp12 = einsum(tmp11, (0, 1), t2, (2, 3, 1, 4), (2, 3, 0, 4)) * 0.5
    .set 84 (.ein [(49, [0, 1]), (2, [2, 3, 1, 4])] [2, 3, 0, 4]) 1 2,
    -- 440: del tmp11
    .del 49,
    -- 441: tmp9 = np.copy(tmp1)
    .set 85 (.cp 51) 1 1,
    -- 442: del tmp1
    .del 51,
    -- 443: tmp9 += tmp3
    .add 85 (.cp 52) 1 1,
    -- 444: del tmp3
    .del 52,
    -- 445: tmp9 += np.transpose(tmp8, (1, 0, 2, 3)) * -1
    .add 85 (.tr 50 [1, 0, 2, 3]) (-1) 1,
    -- 446: del tmp8
    .del 50,
    -- 447: tmp14 = np.copy(np.transpose(t2, (0, 1, 3, 2)))
    .set 86 (.tr 2 [0, 1, 3, 2]) 1 1,
    -- 448: tmp14 += t2 * -0.5
    .add 86 (.cp 2) (-1) 2,
    -- 449: tmp17 = np.copy(np.transpose(v.oooo, (0, 2, 1, 3))) * -1
    .set 87 (.tr 12 [0, 2, 1, 3]) (-1) 1,
    -- 450: tmp17 += v.oooo * 2
    .add 87 (.cp 12) 2 1,
    -- 451: tmp17 += np.transpose(tmp16, (2, 1, 0, 3)) * 2
    .add 87 (.tr 48 [2, 1, 0, 3]) 2 1,
    -- 452: tmp17 += np.transpose(tmp16, (3, 2, 0, 1)) * -1
    .add 87 (.tr 48 [3, 2, 0, 1]) (-1) 1,
    -- 453: tmp0 = einsum(f.ov, (0, 1), t2, (2, 3, 4, 1), (0, 2, 3, 4))
    .set 88 (.ein [(8, [0, 1]), (2, [2, 3, 4, 1])] [0, 2, 3, 4]) 1 1,
    -- 454: tmp13 = np.copy(v.ooov)
    .set 89 (.cp 5) 1 1,
    -- 455: tmp13 += np.transpose(v.ooov, (0, 2, 1, 3)) * -0.5
    .add 89 (.tr 5 [0, 2, 1, 3]) (-1) 2,
    -- 456: tmp13 += tmp5 * -0.5
    .add 89 (.cp 15) (-1) 2,
    -- 457: tmp13 += np.transpose(tmp5, (0, 2, 1, 3))
    .add 89 (.tr 15 [0, 2, 1, 3]) 1 1,
    -- 458: tmp15 = np.copy(np.transpose(v.ovov, (0, 2, 1, 3))) * 2
    .set 90 (.tr 0 [0, 2, 1, 3]) 2 1,
    -- 459: tmp15 += v.oovv * -1
    .add 90 (.cp 7) (-1) 1,
    -- 460: tmp26 = np.copy(np.transpose(l2, (3, 2, 0, 1))) * -1
    .set 91 (.tr 4 [3, 2, 0, 1]) (-1) 1,
    -- 461: tmp26 += np.transpose(l2, (2, 3, 0, 1)) * 2
    .add 91 (.tr 4 [2, 3, 0, 1]) 2 1,
    -- 462: tmp33 = np.copy(tmp21) * 2
    .set 92 (.cp 28) 2 1,
    -- 463: tmp33 += np.transpose(tmp21, (1, 0, 2, 3)) * -1
    .add 92 (.tr 28 [1, 0, 2, 3]) (-1) 1,
    -- 464: tmp35 = einsum(l1, (0, 1), t2, (2, 3, 4, 0), (1, 2, 3, 4))
    .set 93 (.ein [(3, [0, 1]), (2, [2, 3, 4, 0])] [1, 2, 3, 4]) 1 1,
    -- 465: tmp37 = einsum(tmp36, (0, 1, 2, 3), t1, (0, 4), (1, 3, 2, 4))
    .set 94 (.ein [(53, [0, 1, 2, 3]), (1, [0, 4])] [1, 3, 2, 4]) 1 1,
    -- 466: tmp49 = np.copy(tmp47) * 0.5
    .set 95 (.cp 22) 1 2,
    -- 467: del tmp47
    .del 22,
    -- 468: tmp49 += tmp48
    .add 95 (.cp 54) 1 1,
    -- 469: del tmp48
    .del 54,
    -- 470: tmp29 = np.copy(v.ooov) * -1
    .set 96 (.cp 5) (-1) 1,
    -- 471: tmp29 += np.transpose(v.ooov, (0, 2, 1, 3)) * 2
    .add 96 (.tr 5 [0, 2, 1, 3]) 2 1,
    -- 472: tmp29 += tmp5 * 2
    .add 96 (.cp 15) 2 1,
    -- 473: tmp29 += np.transpose(tmp5, (0, 2, 1, 3)) * -1
    .add 96 (.tr 15 [0, 2, 1, 3]) (-1) 1,
    -- 474: tmp28 = np.copy(v.ooov) * 2
    .set 97 (.cp 5) 2 1,
    -- 475: tmp28 += np.transpose(v.ooov, (0, 2, 1, 3)) * -1
    .add 97 (.tr 5 [0, 2, 1, 3]) (-1) 1,
    -- 476: tmp28 += tmp5 * -1
    .add 97 (.cp 15) (-1) 1,
    -- 477: tmp28 += np.transpose(tmp5, (0, 2, 1, 3)) * 2
    .add 97 (.tr 15 [0, 2, 1, 3]) 2 1,
    -- 478: del tmp5
    .del 15,
    -- 479: tmp31 = np.copy(np.transpose(tmp16, (0, 2, 1, 3))) * -1
    .set 98 (.tr 48 [0, 2, 1, 3]) (-1) 1,
    -- 480: tmp31 += np.transpose(tmp16, (0, 3, 2, 1)) * 2
    .add 98 (.tr 48 [0, 3, 2, 1]) 2 1,
    -- 481: del tmp16
    .del 48,
    -- 482: tmp30 = np.copy(np.transpose(v.ovov, (0, 2, 1, 3))) * -1
    .set 99 (.tr 0 [0, 2, 1, 3]) (-1) 1,
    -- 483: tmp30 += v.oovv * 2
    .add 99 (.cp 7) 2 1,
    -- 484: tmp22 = np.copy(tmp21) * -0.5
    .set 100 (.cp 28) (-1) 2,
    -- 485: tmp22 += np.transpose(tmp21, (1, 0, 2, 3))
    .add 100 (.tr 28 [1, 0, 2, 3]) 1 1,
    -- 486: tmp40 = einsum(tmp39, (0, 1, 2, 3), t1, (1, 4), (0, 2, 3, 4))
    .set 101 (.ein [(55, [0, 1, 2, 3]), (1, [1, 4])] [0, 2, 3, 4]) 1 1,
    -- 487: tmp19 = np.copy(np.transpose(t2, (0, 1, 3, 2))) * 2
    .set 102 (.tr 2 [0, 1, 3, 2]) 2 1,
    -- 488: tmp19 += t2 * -1
    .add 102 (.cp 2) (-1) 1,
    -- 489: tmp54 = np.copy(v.ovvv) * -0.5
    .set 103 (.cp 6) (-1) 2,
    -- 490: tmp54 += np.transpose(v.ovvv, (0, 2, 1, 3))
    .add 103 (.tr 6 [0, 2, 1, 3]) 1 1,
    -- 491: tmp99 = einsum(tmp98, (0, 1), l2, (2, 1, 3, 4), (3, 4, 2, 0))
    .set 104 (.ein [(56, [0, 1]), (4, [2, 1, 3, 4])] [3, 4, 2, 0]) 1 1,
    -- 492: del tmp98
    .del 56,
    -- 493: tmp105 = np.copy(tmp100)
    .set 105 (.cp 60) 1 1,
    -- 494: del tmp100
    .del 60,
    -- 495: tmp105 += tmp101
    .add 105 (.cp 57) 1 1,
    -- 496: del tmp101
    .del 57,
    -- 497: tmp105 += np.transpose(tmp103, (1, 0, 3, 2))
    .add 105 (.tr 59 [1, 0, 3, 2]) 1 1,
    -- 498: del tmp103
    .del 59,
    -- 499: tmp105 += np.transpose(tmp104, (1, 0, 3, 2))
    .add 105 (.tr 58 [1, 0, 3, 2]) 1 1,
    -- 500: del tmp104
    .del 58,
    -- 501: tmp113 = np.copy(tmp106)
    .set 106 (.cp 62) 1 1,
    -- 502: del tmp106
    .del 62,
    -- 503: tmp113 += np.transpose(tmp108, (1, 0, 2, 3))
    .add 106 (.tr 61 [1, 0, 2, 3]) 1 1,
    -- 504: del tmp108
    .del 61,
    -- 505: tmp113 += np.transpose(tmp112, (0, 1, 3, 2))
    .add 106 (.tr 63 [0, 1, 3, 2]) 1 1,
    -- 506: del tmp112
    .del 63,
    -- 507: tmp97 = einsum(l1, (0, 1), f.ov, (2, 3), (2, 1, 3, 0))
    .set 107 (.ein [(3, [0, 1]), (8, [2, 3])] [2, 1, 3, 0]) 1 1,
    -- 508: tmp97 += tmp74
    .add 107 (.cp 64) 1 1,
    -- 509: del tmp74
    .del 64,
    -- 510: tmp97 += tmp76 * 2
    .add 107 (.cp 69) 2 1,
    -- 511: del tmp76
    .del 69,
    -- 512: tmp97 += tmp77 * -1
    .add 107 (.cp 73) (-1) 1,
    -- 513: del tmp77
    .del 73,
    -- 514: tmp97 += tmp78
    .add 107 (.cp 67) 1 1,
    -- 515: del tmp78
    .del 67,
    -- 516: tmp97 += tmp85
    .add 107 (.cp 68) 1 1,
    -- 517: del tmp85
    .del 68,
    -- 518: tmp97 += tmp86 * -1
    .add 107 (.cp 65) (-1) 1,
    -- 519: del tmp86
    .del 65,
    -- 520: tmp97 += np.transpose(tmp88, (1, 0, 3, 2)) * -1
    .add 107 (.tr 66 [1, 0, 3, 2]) (-1) 1,
    -- 521: del tmp88
    .del 66,
    -- 522: tmp97 += tmp90 * -1
    .add 107 (.cp 72) (-1) 1,
    -- 523: del tmp90
    .del 72,
    -- 524: tmp97 += np.transpose(tmp95, (0, 1, 3, 2))
    .add 107 (.tr 71 [0, 1, 3, 2]) 1 1,
    -- 525: del tmp95
    .del 71,
    -- 526: tmp97 += tmp96 * -1
    .add 107 (.cp 70) (-1) 1,
    -- 527: del tmp96
    .del 70,
    -- 528: tmp97 += einsum(l1, (0, 1), tmp92, (2, 3), (1, 2, 0, 3))
    .add 107 (.ein [(3, [0, 1]), (19, [2, 3])] [1, 2, 0, 3]) 1 1,
    -- 529: del tmp92
    .del 19,
    -- 530: tmp73 = np.copy(tmp62)
    .set 108 (.cp 75) 1 1,
    -- 531: del tmp62
    .del 75,
    -- 532: tmp73 += tmp63
    .add 108 (.cp 76) 1 1,
    -- 533: del tmp63
    .del 76,
    -- 534: tmp73 += tmp65 * -1
    .add 108 (.cp 78) (-1) 1,
    -- 535: del tmp65
    .del 78,
    -- 536: tmp73 += tmp66 * -1
    .add 108 (.cp 74) (-1) 1,
    -- 537: del tmp66
    .del 74,
    -- 538: tmp73 += tmp67
    .add 108 (.cp 80) 1 1,
    -- 539: del tmp67
    .del 80,
    -- 540: tmp73 += tmp68
    .add 108 (.cp 77) 1 1,
    -- 541: del tmp68
    .del 77,
    -- 542: tmp73 += tmp69
    .add 108 (.cp 81) 1 1,
    -- 543: del tmp69
    .del 81,
    -- 544: tmp73 += tmp72 * -1
    .add 108 (.cp 79) (-1) 1,
    -- 545: del tmp72
    .del 79,
    -- 546: tmp45 = np.copy(v.ovvv) * 2
    .set 109 (.cp 6) 2 1,
    -- 547: tmp45 += np.transpose(v.ovvv, (0, 2, 1, 3)) * -1
    .add 109 (.tr 6 [0, 2, 1, 3]) (-1) 1,
    -- 548: tmp61 = np.copy(f.oo)
    .set 110 (.cp 9) 1 1,
    -- 549: tmp61 += einsum(tmp46, (0, 1, 2, 3), v.ovov, (4, 3, 0, 2), (1, 4))
    .add 110 (.ein [(17, [0, 1, 2, 3]), (0, [4, 3, 0, 2])] [1, 4]) 1 1,
    -- 550: tmp61 += einsum(t1, (0, 1), tmp59, (0, 2, 3, 1), (2, 3)) * 2
    .add 110 (.ein [(1, [0, 1]), (83, [0, 2, 3, 1])] [2, 3]) 2 1,
    -- 551: del tmp59
    .del 83,
    -- 552: tmp61 += einsum(tmp60, (0, 1), t1, (2, 1), (2, 0))
    .add 110 (.ein [(82, [0, 1]), (1, [2, 1])] [2, 0]) 1 1,
    -- 553: del tmp60
    .del 82,
    -- 554: tmp53 = np.copy(np.transpose(v.ovov, (0, 2, 1, 3))) * 2
    .set 111 (.tr 0 [0, 2, 1, 3]) 2 1,
    -- 555: tmp53 += v.oovv * -1
    .add 111 (.cp 7) (-1) 1,
    -- 556: tmp18 = np.copy(np.transpose(v.ooov, (0, 2, 1, 3))) * -1
    .set 112 (.tr 5 [0, 2, 1, 3]) (-1) 1,
    -- 557: tmp18 += np.transpose(v.ovoo, (0, 2, 3, 1)) * 0.5
    .add 112 (.tr 10 [0, 2, 3, 1]) 1 2,
    -- 558: tmp18 += np.transpose(tmp0, (1, 2, 0, 3)) * 0.5
    .add 112 (.tr 88 [1, 2, 0, 3]) 1 2,
    -- 559: tmp18 += np.transpose(tmp0, (2, 1, 0, 3)) * -1
    .add 112 (.tr 88 [2, 1, 0, 3]) (-1) 1,
    -- 560: del tmp0
    .del 88,
    -- 561: tmp18 += tmp9 * -1
    .add 112 (.cp 85) (-1) 1,
    -- 562: tmp18 += np.transpose(tmp9, (1, 0, 2, 3)) * 0.5
    .add 112 (.tr 85 [1, 0, 2, 3]) 1 2,
    -- 563: del tmp9
    .del 85,
    -- 564: tmp18 += np.transpose(tmp12, (1, 0, 2, 3))
    .add 112 (.tr 84 [1, 0, 2, 3]) 1 1,
    -- 565: tmp18 += tmp12 * -2
    .add 112 (.cp 84) (-2) 1,
    -- 566: del tmp12
    .del 84,
    -- 567: tmp18 += einsum(tmp13, (0, 1, 2, 3), tmp14, (2, 4, 5, 3), (0, 4, 1, 5)) * -2
    .add 112 (.ein [(89, [0, 1, 2, 3]), (86, [2, 4, 5, 3])] [0, 4, 1, 5]) (-2) 1,
    -- 568: del tmp13
    .del 89,
    -- 569: tmp18 += einsum(t1, (0, 1), tmp15, (2, 3, 1, 4), (0, 3, 2, 4)) * -0.5
    .add 112 (.ein [(1, [0, 1]), (90, [2, 3, 1, 4])] [0, 3, 2, 4]) (-1) 2,
    -- 570: del tmp15
    .del 90,
    -- 571: tmp18 += einsum(tmp17, (0, 1, 2, 3), t1, (0, 4), (2, 1, 3, 4)) * 0.5
    .add 112 (.ein [(87, [0, 1, 2, 3]), (1, [0, 4])] [2, 1, 3, 4]) 1 2,
    -- 572: del tmp17
    .del 87,
    -- 573: tmp27 = np.copy(np.transpose(l2, (2, 3, 0, 1)))
    .set 113 (.tr 4 [2, 3, 0, 1]) 1 1,
    -- 574: tmp27 += einsum(tmp26, (0, 1, 2, 3), tmp20, (0, 4, 2, 5), (1, 4, 3, 5))
    .add 113 (.ein [(91, [0, 1, 2, 3]), (16, [0, 4, 2, 5])] [1, 4, 3, 5]) 1 1,
    -- 575: del tmp26
    .del 91,
    -- 576: tmp38 = np.copy(tmp35) * -0.5
    .set 114 (.cp 93) (-1) 2,
    -- 577: tmp38 += np.transpose(tmp35, (0, 2, 1, 3))
    .add 114 (.tr 93 [0, 2, 1, 3]) 1 1,
    -- 578: del tmp35
    .del 93,
    -- 579: tmp38 += np.transpose(tmp21, (0, 2, 1, 3)) * -0.5
    .add 114 (.tr 28 [0, 2, 1, 3]) (-1) 2,
    -- 580: tmp38 += np.transpose(tmp21, (1, 2, 0, 3))
    .add 114 (.tr 28 [1, 2, 0, 3]) 1 1,
    -- 581: tmp38 += tmp37 * -1
    .add 114 (.cp 94) (-1) 1,
    -- 582: tmp38 += np.transpose(tmp37, (0, 2, 1, 3)) * 0.5
    .add 114 (.tr 94 [0, 2, 1, 3]) 1 2,
    -- 583: del tmp37
    .del 94,
    -- 584: tmp38 += einsum(tmp20, (0, 1, 2, 3), tmp33, (0, 4, 5, 2), (4, 5, 1, 3))
    .add 114 (.ein [(16, [0, 1, 2, 3]), (92, [0, 4, 5, 2])] [4, 5, 1, 3]) 1 1,
    -- 585: tmp42 = np.copy(tmp21) * 2
    .set 115 (.cp 28) 2 1,
    -- 586: tmp42 += np.transpose(tmp21, (1, 0, 2, 3)) * -1
    .add 115 (.tr 28 [1, 0, 2, 3]) (-1) 1,
    -- 587: tmp50 = np.copy(t1) * -1
    .set 116 (.cp 1) (-1) 1,
    -- 588: tmp50 += einsum(tmp14, (0, 1, 2, 3), tmp21, (0, 1, 4, 3), (4, 2)) * 2
    .add 116 (.ein [(86, [0, 1, 2, 3]), (28, [0, 1, 4, 3])] [4, 2]) 2 1,
    -- 589: del tmp21, tmp14
    .del 28,
    .del 86,
    -- 590: tmp50 += einsum(tmp46, (0, 1, 2, 3), l1, (2, 0), (1, 3)) * -1
    .add 116 (.ein [(17, [0, 1, 2, 3]), (3, [2, 0])] [1, 3]) (-1) 1,
    -- 591: del tmp46
    .del 17,
    -- 592: tmp50 += einsum(t1, (0, 1), tmp49, (0, 2), (2, 1)) * 2
    .add 116 (.ein [(1, [0, 1]), (95, [0, 2])] [2, 1]) 2 1,
    -- 593: tmp52 = np.copy(v.ooov)
    .set 117 (.cp 5) 1 1,
    -- 594: tmp52 += np.transpose(v.ovoo, (0, 2, 3, 1)) * -0.5
    .add 117 (.tr 10 [0, 2, 3, 1]) (-1) 2,
    -- 595: tmp32 = einsum(t2, (0, 1, 2, 3), tmp28, (4, 5, 1, 3), (4, 0, 5, 2))
    .set 118 (.ein [(2, [0, 1, 2, 3]), (97, [4, 5, 1, 3])] [4, 0, 5, 2]) 1 1,
    -- 596: del tmp28
    .del 97,
    -- 597: tmp32 += einsum(tmp29, (0, 1, 2, 3), t2, (4, 2, 3, 5), (0, 4, 1, 5))
    .add 118 (.ein [(96, [0, 1, 2, 3]), (2, [4, 2, 3, 5])] [0, 4, 1, 5]) 1 1,
    -- 598: del tmp29
    .del 96,
    -- 599: tmp32 += einsum(t1, (0, 1), tmp30, (2, 3, 1, 4), (0, 3, 2, 4)) * -1
    .add 118 (.ein [(1, [0, 1]), (99, [2, 3, 1, 4])] [0, 3, 2, 4]) (-1) 1,
    -- 600: del tmp30
    .del 99,
    -- 601: tmp32 += einsum(tmp31, (0, 1, 2, 3), t1, (1, 4), (0, 2, 3, 4))
    .add 118 (.ein [(98, [0, 1, 2, 3]), (1, [1, 4])] [0, 2, 3, 4]) 1 1,
    -- 602: del tmp31
    .del 98,
    -- 603: tmp24 = einsum(t1, (0, 1), l2, (2, 3, 4, 0), (4, 2, 3, 1))
    .set 119 (.ein [(1, [0, 1]), (4, [2, 3, 4, 0])] [4, 2, 3, 1]) 1 1,
    -- 604: tmp43 = np.copy(np.transpose(tmp39, (1, 0, 2, 3)))
    .set 120 (.tr 55 [1, 0, 2, 3]) 1 1,
    -- 605: tmp43 += np.transpose(tmp39, (1, 0, 3, 2)) * -0.5
    .add 120 (.tr 55 [1, 0, 3, 2]) (-1) 2,
    -- 606: tmp43 += np.transpose(tmp36, (2, 1, 3, 0))
    .add 120 (.tr 53 [2, 1, 3, 0]) 1 1,
    -- 607: tmp43 += np.transpose(tmp36, (3, 1, 2, 0)) * -0.5
    .add 120 (.tr 53 [3, 1, 2, 0]) (-1) 2,
    -- 608: tmp44 = einsum(t1, (0, 1), l1, (2, 0), (2, 1)) * 0.5
    .set 121 (.ein [(1, [0, 1]), (3, [2, 0])] [2, 1]) 1 2,
    -- 609: tmp44 += einsum(l2, (0, 1, 2, 3), tmp20, (3, 2, 1, 4), (0, 4))
    .add 121 (.ein [(4, [0, 1, 2, 3]), (16, [3, 2, 1, 4])] [0, 4]) 1 1,
    -- 610: tmp41 = np.copy(tmp40) * -1
    .set 122 (.cp 101) (-1) 1,
    -- 611: tmp41 += np.transpose(tmp40, (0, 2, 1, 3)) * 2
    .add 122 (.tr 101 [0, 2, 1, 3]) 2 1,
    -- 612: del tmp40
    .del 101,
    -- 613: tmp41 += einsum(t2, (0, 1, 2, 3), tmp33, (1, 4, 5, 3), (4, 5, 0, 2))
    .add 122 (.ein [(2, [0, 1, 2, 3]), (92, [1, 4, 5, 3])] [4, 5, 0, 2]) 1 1,
    -- 614: tmp41 += einsum(t2, (0, 1, 2, 3), tmp22, (1, 4, 5, 2), (4, 5, 0, 3)) * 2
    .add 122 (.ein [(2, [0, 1, 2, 3]), (100, [1, 4, 5, 2])] [4, 5, 0, 3]) 2 1,
    -- 615: tmp56 = np.copy(f.ov) * 0.5
    .set 123 (.cp 8) 1 2,
    -- 616: tmp56 += einsum(t1, (0, 1), tmp10, (0, 2, 1, 3), (2, 3))
    .add 123 (.ein [(1, [0, 1]), (34, [0, 2, 1, 3])] [2, 3]) 1 1,
    -- 617: del tmp10
    .del 34,
    -- 618: tmp23 = einsum(tmp19, (0, 1, 2, 3), l2, (4, 2, 0, 5), (5, 1, 4, 3))
    .set 124 (.ein [(102, [0, 1, 2, 3]), (4, [4, 2, 0, 5])] [5, 1, 4, 3]) 1 1,
    -- 619: del tmp19
    .del 102,
    -- 620: tmp23 += einsum(l2, (0, 1, 2, 3), tmp20, (3, 4, 1, 5), (2, 4, 0, 5)) * 2
    .add 124 (.ein [(4, [0, 1, 2, 3]), (16, [3, 4, 1, 5])] [2, 4, 0, 5]) 2 1,
    -- 621: del tmp20
    .del 16,
    -- 622: tmp23 += einsum(tmp22, (0, 1, 2, 3), t1, (1, 4), (0, 2, 4, 3)) * 2
    .add 124 (.ein [(100, [0, 1, 2, 3]), (1, [1, 4])] [0, 2, 4, 3]) 2 1,
    -- 623: del tmp22
    .del 100,
    -- 624: tmp25 = np.copy(np.transpose(v.vvvv, (0, 2, 1, 3))) * -1
    .set 125 (.tr 13 [0, 2, 1, 3]) (-1) 1,
    -- 625: tmp25 += v.vvvv * 2
    .add 125 (.cp 13) 2 1,
    -- 626: tmp34 = np.copy(np.transpose(l2, (3, 2, 0, 1)))
    .set 126 (.tr 4 [3, 2, 0, 1]) 1 1,
    -- 627: tmp34 += einsum(t1, (0, 1), tmp33, (2, 0, 3, 4), (2, 3, 4, 1))
    .add 126 (.ein [(1, [0, 1]), (92, [2, 0, 3, 4])] [2, 3, 4, 1]) 1 1,
    -- 628: del tmp33
    .del 92,
    -- 629: tmp55 = np.copy(f.vv)
    .set 127 (.cp 11) 1 1,
    -- 630: tmp55 += einsum(t1, (0, 1), tmp54, (0, 2, 1, 3), (3, 2)) * 2
    .add 127 (.ein [(1, [0, 1]), (103, [0, 2, 1, 3])] [3, 2]) 2 1,
    -- 631: del tmp54
    .del 103,
    -- 632: l2new = einsum(v.oooo, (0, 1, 2, 3), l2, (4, 5, 1, 3), (4, 5, 0, 2))
    .set 128 (.ein [(12, [0, 1, 2, 3]), (4, [4, 5, 1, 3])] [4, 5, 0, 2]) 1 1,
    -- 633: l2new += einsum(l2, (0, 1, 2, 3), v.vvvv, (4, 1, 5, 0), (4, 5, 3, 2))
    .add 128 (.ein [(4, [0, 1, 2, 3]), (13, [4, 1, 5, 0])] [4, 5, 3, 2]) 1 1,
    -- 634: l2new += np.transpose(v.ovov, (1, 3, 0, 2))
    .add 128 (.tr 0 [1, 3, 0, 2]) 1 1,
    -- 635: l2new += einsum(v.ovov, (0, 1, 2, 3), tmp39, (4, 5, 2, 0), (3, 1, 4, 5))
    .add 128 (.ein [(0, [0, 1, 2, 3]), (55, [4, 5, 2, 0])] [3, 1, 4, 5]) 1 1,
    -- 636: del tmp39
    .del 55,
    -- 637: l2new += einsum(tmp36, (0, 1, 2, 3), v.ovov, (3, 4, 2, 5), (4, 5, 1, 0))
    .add 128 (.ein [(53, [0, 1, 2, 3]), (0, [3, 4, 2, 5])] [4, 5, 1, 0]) 1 1,
    -- 638: del tmp36
    .del 53,
    -- 639: l2new += np.transpose(tmp73, (3, 2, 0, 1))
    .add 128 (.tr 108 [3, 2, 0, 1]) 1 1,
    -- 640: l2new += np.transpose(tmp73, (2, 3, 1, 0))
    .add 128 (.tr 108 [2, 3, 1, 0]) 1 1,
    -- 641: del tmp73
    .del 108,
    -- 642: l2new += np.transpose(tmp97, (2, 3, 0, 1))
    .add 128 (.tr 107 [2, 3, 0, 1]) 1 1,
    -- 643: l2new += np.transpose(tmp97, (3, 2, 1, 0))
    .add 128 (.tr 107 [3, 2, 1, 0]) 1 1,
    -- 644: del tmp97
    .del 107,
    -- 645: l2new += np.transpose(tmp99, (2, 3, 0, 1)) * -1
    .add 128 (.tr 104 [2, 3, 0, 1]) (-1) 1,
    -- 646: l2new += np.transpose(tmp99, (3, 2, 1, 0)) * -1
    .add 128 (.tr 104 [3, 2, 1, 0]) (-1) 1,
    -- 647: del tmp99
    .del 104,
    -- 648: l2new += np.transpose(tmp105, (3, 2, 0, 1)) * -1
    .add 128 (.tr 105 [3, 2, 0, 1]) (-1) 1,
    -- 649: l2new += np.transpose(tmp105, (2, 3, 1, 0)) * -1
    .add 128 (.tr 105 [2, 3, 1, 0]) (-1) 1,
    -- 650: del tmp105
    .del 105,
    -- 651: l2new += np.transpose(tmp113, (2, 3, 0, 1)) * -1
    .add 128 (.tr 106 [2, 3, 0, 1]) (-1) 1,
    -- 652: l2new += np.transpose(tmp113, (3, 2, 1, 0)) * -1
    .add 128 (.tr 106 [3, 2, 1, 0]) (-1) 1,
    -- 653: del tmp113
    .del 106,
    -- 654: l2new += einsum(l2, (0, 1, 2, 3), tmp7, (3, 2, 4, 5), (0, 1, 5, 4))
    .add 128 (.ein [(4, [0, 1, 2, 3]), (35, [3, 2, 4, 5])] [0, 1, 5, 4]) 1 1,
    -- 655: del tmp7
    .del 35,
    -- 656: l1new = np.copy(np.transpose(f.ov, (1, 0)))
    .set 129 (.tr 8 [1, 0]) 1 1,
    -- 657: l1new += einsum(l2, (0, 1, 2, 3), tmp18, (2, 3, 4, 1), (0, 4)) * 2
    .add 129 (.ein [(4, [0, 1, 2, 3]), (112, [2, 3, 4, 1])] [0, 4]) 2 1,
    -- 658: del tmp18
    .del 112,
    -- 659: l1new += einsum(tmp23, (0, 1, 2, 3), v.ovvv, (1, 4, 3, 2), (4, 0)) * -1
    .add 129 (.ein [(124, [0, 1, 2, 3]), (6, [1, 4, 3, 2])] [4, 0]) (-1) 1,
    -- 660: del tmp23
    .del 124,
    -- 661: l1new += einsum(tmp24, (0, 1, 2, 3), tmp25, (2, 3, 4, 1), (4, 0))
    .add 129 (.ein [(119, [0, 1, 2, 3]), (125, [2, 3, 4, 1])] [4, 0]) 1 1,
    -- 662: del tmp24, tmp25
    .del 119,
    .del 125,
    -- 663: l1new += einsum(v.ovvv, (0, 1, 2, 3), tmp27, (4, 0, 3, 1), (2, 4)) * 2
    .add 129 (.ein [(6, [0, 1, 2, 3]), (113, [4, 0, 3, 1])] [2, 4]) 2 1,
    -- 664: del tmp27
    .del 113,
    -- 665: l1new += einsum(tmp32, (0, 1, 2, 3), l2, (4, 3, 1, 0), (4, 2))
    .add 129 (.ein [(118, [0, 1, 2, 3]), (4, [4, 3, 1, 0])] [4, 2]) 1 1,
    -- 666: del tmp32
    .del 118,
    -- 667: l1new += einsum(tmp34, (0, 1, 2, 3), v.ovvv, (1, 3, 4, 2), (4, 0)) * -1
    .add 129 (.ein [(126, [0, 1, 2, 3]), (6, [1, 3, 4, 2])] [4, 0]) (-1) 1,
    -- 668: del tmp34
    .del 126,
    -- 669: l1new += einsum(tmp38, (0, 1, 2, 3), v.ovov, (2, 3, 1, 4), (4, 0)) * -2
    .add 129 (.ein [(114, [0, 1, 2, 3]), (0, [2, 3, 1, 4])] [4, 0]) (-2) 1,
    -- 670: del tmp38
    .del 114,
    -- 671: l1new += einsum(v.ovov, (0, 1, 2, 3), tmp41, (4, 2, 0, 3), (1, 4))
    .add 129 (.ein [(0, [0, 1, 2, 3]), (122, [4, 2, 0, 3])] [1, 4]) 1 1,
    -- 672: del tmp41
    .del 122,
    -- 673: l1new += einsum(tmp42, (0, 1, 2, 3), v.oovv, (1, 2, 4, 3), (4, 0)) * -1
    .add 129 (.ein [(115, [0, 1, 2, 3]), (7, [1, 2, 4, 3])] [4, 0]) (-1) 1,
    -- 674: del tmp42
    .del 115,
    -- 675: l1new += einsum(tmp43, (0, 1, 2, 3), v.ooov, (3, 0, 2, 4), (4, 1)) * 2
    .add 129 (.ein [(120, [0, 1, 2, 3]), (5, [3, 0, 2, 4])] [4, 1]) 2 1,
    -- 676: del tmp43
    .del 120,
    -- 677: l1new += einsum(tmp45, (0, 1, 2, 3), tmp44, (3, 2), (1, 0)) * 2
    .add 129 (.ein [(109, [0, 1, 2, 3]), (121, [3, 2])] [1, 0]) 2 1,
    -- 678: del tmp45, tmp44
    .del 109,
    .del 121,
    -- 679: l1new += einsum(tmp50, (0, 1), tmp51, (0, 2, 1, 3), (3, 2)) * -1
    .add 129 (.ein [(116, [0, 1]), (14, [0, 2, 1, 3])] [3, 2]) (-1) 1,
    -- 680: del tmp51, tmp50
    .del 14,
    .del 116,
    -- 681: l1new += einsum(tmp52, (0, 1, 2, 3), tmp49, (1, 0), (3, 2)) * -4
    .add 129 (.ein [(117, [0, 1, 2, 3]), (95, [1, 0])] [3, 2]) (-4) 1,
    -- 682: del tmp49, tmp52
    .del 95,
    .del 117,
    -- 683: l1new += einsum(tmp53, (0, 1, 2, 3), l1, (2, 0), (3, 1))
    .add 129 (.ein [(111, [0, 1, 2, 3]), (3, [2, 0])] [3, 1]) 1 1,
    -- 684: del tmp53
    .del 111,
    -- 685: l1new += einsum(l1, (0, 1), tmp55, (0, 2), (2, 1))
    .add 129 (.ein [(3, [0, 1]), (127, [0, 2])] [2, 1]) 1 1,
    -- 686: del tmp55
    .del 127,
    -- 687: l1new += einsum(tmp58, (0, 1), tmp56, (1, 2), (2, 0)) * -2
    .add 129 (.ein [(36, [0, 1]), (123, [1, 2])] [2, 0]) (-2) 1,
    -- 688: del tmp58, tmp56
    .del 36,
    .del 123,
    -- 689: l1new += einsum(tmp61, (0, 1), l1, (2, 0), (2, 1)) * -1
    .add 129 (.ein [(110, [0, 1]), (3, [2, 0])] [2, 1]) (-1) 1,
    -- 690: del tmp61
    .del 110
  ]
  ret := [(chars! "l1new", 129), (chars! "l2new", 128)]

end Ebcc.Gen.RCCSD
