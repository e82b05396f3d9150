import Verif.Model.GenCode
/-!
Functions of `ebcc/codegen/RDFCCSD.py`, written by `tools/gencode.py`.  Comments give the
number and the text of the line of each statement.
-/

set_option maxRecDepth 100000

namespace Ebcc.Gen.RDFCCSD

/-- codegen/RDFCCSD.py:19-56 `energy`. -/
def energy : GenFun where
  args := [chars! "v.xov", chars! "t1", chars! "t2", chars! "f.ov"]
  body := [
    -- 40: tmp3 = einsum(v.xov, (0, 1, 2), t1, (3, 2), (3, 1, 0))
    .set 4 (.ein [(0, [0, 1, 2]), (1, [3, 2])] [3, 1, 0]) 1 1,
    -- 41: tmp0 = einsum(t1, (0, 1), v.xov, (2, 0, 1), (2,))
    .set 5 (.ein [(1, [0, 1]), (0, [2, 0, 1])] [2]) 1 1,
    -- 42: tmp1 = np.copy(np.transpose(t2, (0, 1, 3, 2))) * 2
    .set 6 (.tr 2 [0, 1, 3, 2]) 2 1,
    -- 43: tmp1 += t2 * -1
    .add 6 (.cp 2) (-1) 1,
    -- 44: tmp4 = np.copy(f.ov) * 2
    .set 7 (.cp 3) 2 1,
    -- 45: tmp4 += einsum(v.xov, (0, 1, 2), tmp3, (1, 3, 0), (3, 2)) * -1
    .add 7 (.ein [(0, [0, 1, 2]), (4, [1, 3, 0])] [3, 2]) (-1) 1,
    -- 46: del tmp3
    .del 4,
    -- 47: tmp2 = einsum(tmp0, (0,), t1, (1, 2), (1, 2, 0))
    .set 8 (.ein [(5, [0]), (1, [1, 2])] [1, 2, 0]) 1 1,
    -- 48: del tmp0
    .del 5,
    -- 49: tmp2 += einsum(tmp1, (0, 1, 2, 3), v.xov, (4, 0, 3), (1, 2, 4)) * 0.5
    .add 8 (.ein [(6, [0, 1, 2, 3]), (0, [4, 0, 3])] [1, 2, 4]) 1 2,
    -- 50: del tmp1
    .del 6,
    -- 51: e_cc = einsum(tmp2, (0, 1, 2), v.xov, (2, 0, 1), ()) * 2
    .set 9 (.ein [(8, [0, 1, 2]), (0, [2, 0, 1])] []) 2 1,
    -- 52: del tmp2
    .del 8,
    -- 53: e_cc += einsum(tmp4, (0, 1), t1, (0, 1), ())
    .add 9 (.ein [(7, [0, 1]), (1, [0, 1])] []) 1 1,
    -- 54: del tmp4
    .del 7
  ]
  ret := [(chars! "e_cc", 9)]

/-- codegen/RDFCCSD.py:58-338 `update_amps`. -/
def update_amps : GenFun where
  args := [chars! "v.xov", chars! "t1", chars! "t2", chars! "v.xoo", chars! "v.xvv", chars! "f.ov", chars! "f.vv", chars! "f.oo"]
  body := [
    -- 81: tmp2 = einsum(v.xov, (0, 1, 2), t1, (3, 2), (3, 1, 0))
    .set 8 (.ein [(0, [0, 1, 2]), (1, [3, 2])] [3, 1, 0]) 1 1,
    -- 82: tmp0 = einsum(t1, (0, 1), v.xov, (2, 0, 1), (2,))
    .set 9 (.ein [(1, [0, 1]), (0, [2, 0, 1])] [2]) 1 1,
    -- 83: tmp17 = einsum(t2, (0, 1, 2, 3), v.xov, (4, 1, 2), (0, 3, 4))
    .set 10 (.ein [(2, [0, 1, 2, 3]), (0, [4, 1, 2])] [0, 3, 4]) 1 1,
    -- 84: tmp37 = einsum(v.xov, (0, 1, 2), tmp2, (3, 4, 0), (3, 1, 4, 2))
    .set 11 (.ein [(0, [0, 1, 2]), (8, [3, 4, 0])] [3, 1, 4, 2]) 1 1,
    -- 85: tmp44 = np.copy(t2)
    .set 12 (.cp 2) 1 1,
    -- 86: tmp44 += einsum(t1, (0, 1), t1, (2, 3), (2, 0, 3, 1))
    .add 12 (.ein [(1, [0, 1]), (1, [2, 3])] [2, 0, 3, 1]) 1 1,
    -- 87: tmp9 = einsum(v.xov, (0, 1, 2), tmp2, (1, 3, 0), (3, 2))
    .set 13 (.ein [(0, [0, 1, 2]), (8, [1, 3, 0])] [3, 2]) 1 1,
    -- 88: tmp1 = einsum(tmp0, (0,), v.xov, (0, 1, 2), (1, 2))
    .set 14 (.ein [(9, [0]), (0, [0, 1, 2])] [1, 2]) 1 1,
    -- 89: tmp39 = einsum(v.xov, (0, 1, 2), v.xoo, (0, 3, 4), (3, 4, 1, 2))
    .set 15 (.ein [(0, [0, 1, 2]), (3, [0, 3, 4])] [3, 4, 1, 2]) 1 1,
    -- 90: tmp18 = einsum(v.xov, (0, 1, 2), v.xov, (0, 3, 4), (3, 1, 4, 2))
    .set 16 (.ein [(0, [0, 1, 2]), (0, [0, 3, 4])] [3, 1, 4, 2]) 1 1,
    -- 91: tmp52 = np.copy(np.transpose(v.xov, (1, 2, 0)))
    .set 17 (.tr 0 [1, 2, 0]) 1 1,
    -- 92: tmp52 += tmp17 * -1
    .add 17 (.cp 10) (-1) 1,
    -- 93: tmp21 = einsum(t1, (0, 1), v.xvv, (2, 3, 1), (0, 3, 2))
    .set 18 (.ein [(1, [0, 1]), (4, [2, 3, 1])] [0, 3, 2]) 1 1,
    -- 94: tmp64 = np.copy(tmp37) * 2
    .set 19 (.cp 11) 2 1,
    -- 95: tmp64 += np.transpose(tmp37, (0, 2, 1, 3)) * -1
    .add 19 (.tr 11 [0, 2, 1, 3]) (-1) 1,
    -- 96: tmp5 = np.copy(np.transpose(t2, (0, 1, 3, 2))) * 2
    .set 20 (.tr 2 [0, 1, 3, 2]) 2 1,
    -- 97: tmp5 += t2 * -1
    .add 20 (.cp 2) (-1) 1,
    -- 98: tmp45 = einsum(tmp44, (0, 1, 2, 3), v.xov, (4, 0, 3), (1, 2, 4))
    .set 21 (.ein [(12, [0, 1, 2, 3]), (0, [4, 0, 3])] [1, 2, 4]) 1 1,
    -- 99: del tmp44
    .del 12,
    -- 100: tmp42 = np.copy(tmp1) * 2
    .set 22 (.cp 14) 2 1,
    -- 101: tmp42 += tmp9 * -1
    .add 22 (.cp 13) (-1) 1,
    -- 102: tmp40 = np.copy(np.transpose(tmp39, (1, 0, 2, 3))) * 2
    .set 23 (.tr 15 [1, 0, 2, 3]) 2 1,
    -- 103: tmp40 += np.transpose(tmp39, (1, 2, 0, 3)) * -1
    .add 23 (.tr 15 [1, 2, 0, 3]) (-1) 1,
    -- 104: tmp11 = np.copy(np.transpose(t2, (0, 1, 3, 2))) * 2
    .set 24 (.tr 2 [0, 1, 3, 2]) 2 1,
    -- 105: tmp11 += t2 * -1
    .add 24 (.cp 2) (-1) 1,
    -- 106: tmp30 = einsum(v.xvv, (0, 1, 2), v.xoo, (0, 3, 4), (3, 4, 1, 2))
    .set 25 (.ein [(4, [0, 1, 2]), (3, [0, 3, 4])] [3, 4, 1, 2]) 1 1,
    -- 107: tmp19 = einsum(tmp18, (0, 1, 2, 3), t2, (4, 0, 3, 5), (4, 1, 5, 2))
    .set 26 (.ein [(16, [0, 1, 2, 3]), (2, [4, 0, 3, 5])] [4, 1, 5, 2]) 1 1,
    -- 108: tmp53 = einsum(tmp52, (0, 1, 2), v.xov, (2, 3, 4), (0, 3, 1, 4))
    .set 27 (.ein [(17, [0, 1, 2]), (0, [2, 3, 4])] [0, 3, 1, 4]) 1 1,
    -- 109: del tmp52
    .del 17,
    -- 110: tmp58 = einsum(tmp0, (0,), v.xvv, (0, 1, 2), (1, 2))
    .set 28 (.ein [(9, [0]), (4, [0, 1, 2])] [1, 2]) 1 1,
    -- 111: tmp59 = einsum(tmp21, (0, 1, 2), v.xov, (2, 0, 3), (3, 1))
    .set 29 (.ein [(18, [0, 1, 2]), (0, [2, 0, 3])] [3, 1]) 1 1,
    -- 112: tmp68 = einsum(v.xoo, (0, 1, 2), tmp2, (2, 3, 0), (1, 3))
    .set 30 (.ein [(3, [0, 1, 2]), (8, [2, 3, 0])] [1, 3]) 1 1,
    -- 113: tmp12 = einsum(tmp0, (0,), v.xoo, (0, 1, 2), (1, 2))
    .set 31 (.ein [(9, [0]), (3, [0, 1, 2])] [1, 2]) 1 1,
    -- 114: tmp63 = einsum(tmp17, (0, 1, 2), tmp2, (3, 4, 2), (3, 0, 4, 1))
    .set 32 (.ein [(10, [0, 1, 2]), (8, [3, 4, 2])] [3, 0, 4, 1]) 1 1,
    -- 115: tmp65 = einsum(t2, (0, 1, 2, 3), tmp64, (4, 1, 5, 3), (4, 5, 0, 2))
    .set 33 (.ein [(2, [0, 1, 2, 3]), (19, [4, 1, 5, 3])] [4, 5, 0, 2]) 1 1,
    -- 116: del tmp64
    .del 19,
    -- 117: tmp62 = einsum(tmp39, (0, 1, 2, 3), t2, (4, 1, 3, 5), (4, 0, 2, 5))
    .set 34 (.ein [(15, [0, 1, 2, 3]), (2, [4, 1, 3, 5])] [4, 0, 2, 5]) 1 1,
    -- 118: del tmp39
    .del 15,
    -- 119: tmp6 = einsum(v.xoo, (0, 1, 2), t1, (2, 3), (1, 3, 0))
    .set 35 (.ein [(3, [0, 1, 2]), (1, [2, 3])] [1, 3, 0]) 1 1,
    -- 120: tmp72 = einsum(v.xov, (0, 1, 2), v.xvv, (0, 3, 4), (1, 3, 4, 2))
    .set 36 (.ein [(0, [0, 1, 2]), (4, [0, 3, 4])] [1, 3, 4, 2]) 1 1,
    -- 121: tmp13 = einsum(tmp5, (0, 1, 2, 3), v.xov, (4, 0, 3), (1, 2, 4))
    .set 37 (.ein [(20, [0, 1, 2, 3]), (0, [4, 0, 3])] [1, 2, 4]) 1 1,
    -- 122: tmp38 = einsum(tmp37, (0, 1, 2, 3), t2, (4, 2, 3, 5), (0, 4, 1, 5))
    .set 38 (.ein [(11, [0, 1, 2, 3]), (2, [4, 2, 3, 5])] [0, 4, 1, 5]) 1 1,
    -- 123: del tmp37
    .del 11,
    -- 124: tmp46 = einsum(tmp45, (0, 1, 2), v.xoo, (2, 3, 4), (0, 3, 4, 1))
    .set 39 (.ein [(21, [0, 1, 2]), (3, [2, 3, 4])] [0, 3, 4, 1]) 1 1,
    -- 125: tmp43 = einsum(t2, (0, 1, 2, 3), tmp42, (4, 2), (4, 0, 1, 3))
    .set 40 (.ein [(2, [0, 1, 2, 3]), (22, [4, 2])] [4, 0, 1, 3]) 1 1,
    -- 126: tmp41 = einsum(tmp40, (0, 1, 2, 3), t2, (4, 2, 5, 3), (0, 1, 4, 5))
    .set 41 (.ein [(23, [0, 1, 2, 3]), (2, [4, 2, 5, 3])] [0, 1, 4, 5]) 1 1,
    -- 127: del tmp40
    .del 23,
    -- 128: tmp34 = einsum(v.xov, (0, 1, 2), tmp11, (1, 3, 4, 2), (3, 4, 0))
    .set 42 (.ein [(0, [0, 1, 2]), (24, [1, 3, 4, 2])] [3, 4, 0]) 1 1,
    -- 129: tmp54 = np.copy(np.transpose(tmp30, (1, 0, 3, 2)))
    .set 43 (.tr 25 [1, 0, 3, 2]) 1 1,
    -- 130: tmp54 += tmp19 * -1
    .add 43 (.cp 26) (-1) 1,
    -- 131: tmp54 += tmp53 * -2
    .add 43 (.cp 27) (-2) 1,
    -- 132: del tmp53
    .del 27,
    -- 133: tmp60 = np.copy(np.transpose(tmp58, (1, 0))) * 2
    .set 44 (.tr 28 [1, 0]) 2 1,
    -- 134: del tmp58
    .del 28,
    -- 135: tmp60 += tmp59 * -1
    .add 44 (.cp 29) (-1) 1,
    -- 136: del tmp59
    .del 29,
    -- 137: tmp69 = np.copy(np.transpose(tmp68, (1, 0))) * -1
    .set 45 (.tr 30 [1, 0]) (-1) 1,
    -- 138: del tmp68
    .del 30,
    -- 139: tmp69 += np.transpose(tmp12, (1, 0)) * 2
    .add 45 (.tr 31 [1, 0]) 2 1,
    -- 140: tmp66 = np.copy(tmp62)
    .set 46 (.cp 34) 1 1,
    -- 141: del tmp62
    .del 34,
    -- 142: tmp66 += tmp63
    .add 46 (.cp 32) 1 1,
    -- 143: del tmp63
    .del 32,
    -- 144: tmp66 += np.transpose(tmp65, (0, 2, 1, 3)) * -1
    .add 46 (.tr 33 [0, 2, 1, 3]) (-1) 1,
    -- 145: del tmp65
    .del 33,
    -- 146: tmp56 = np.copy(tmp6)
    .set 47 (.cp 35) 1 1,
    -- 147: tmp56 += tmp45
    .add 47 (.cp 21) 1 1,
    -- 148: del tmp45
    .del 21,
    -- 149: tmp73 = einsum(tmp72, (0, 1, 2, 3), t2, (4, 5, 3, 2), (4, 5, 0, 1))
    .set 48 (.ein [(36, [0, 1, 2, 3]), (2, [4, 5, 3, 2])] [4, 5, 0, 1]) 1 1,
    -- 150: del tmp72
    .del 36,
    -- 151: tmp77 = einsum(v.xov, (0, 1, 2), tmp13, (3, 2, 0), (3, 1))
    .set 49 (.ein [(0, [0, 1, 2]), (37, [3, 2, 0])] [3, 1]) 1 1,
    -- 152: tmp75 = einsum(v.xov, (0, 1, 2), tmp13, (1, 3, 0), (3, 2)) * 0.5
    .set 50 (.ein [(0, [0, 1, 2]), (37, [1, 3, 0])] [3, 2]) 1 2,
    -- 153: tmp47 = np.copy(np.transpose(tmp38, (0, 2, 1, 3)))
    .set 51 (.tr 38 [0, 2, 1, 3]) 1 1,
    -- 154: del tmp38
    .del 38,
    -- 155: tmp47 += np.transpose(tmp41, (2, 1, 0, 3)) * -1
    .add 51 (.tr 41 [2, 1, 0, 3]) (-1) 1,
    -- 156: del tmp41
    .del 41,
    -- 157: tmp47 += np.transpose(tmp43, (2, 0, 1, 3)) * -1
    .add 51 (.tr 40 [2, 0, 1, 3]) (-1) 1,
    -- 158: del tmp43
    .del 40,
    -- 159: tmp47 += np.transpose(tmp46, (0, 2, 1, 3))
    .add 51 (.tr 39 [0, 2, 1, 3]) 1 1,
    -- 160: del tmp46
    .del 39,
    -- 161: tmp35 = np.copy(np.transpose(v.xov, (1, 2, 0)))
    .set 52 (.tr 0 [1, 2, 0]) 1 1,
    -- 162: tmp35 += tmp6 * -1
    .add 52 (.cp 35) (-1) 1,
    -- 163: tmp35 += tmp34
    .add 52 (.cp 42) 1 1,
    -- 164: del tmp34
    .del 42,
    -- 165: tmp32 = einsum(v.xvv, (0, 1, 2), tmp2, (3, 4, 0), (3, 4, 1, 2))
    .set 53 (.ein [(4, [0, 1, 2]), (8, [3, 4, 0])] [3, 4, 1, 2]) 1 1,
    -- 166: tmp49 = einsum(tmp42, (0, 1), t1, (2, 1), (0, 2))
    .set 54 (.ein [(22, [0, 1]), (1, [2, 1])] [0, 2]) 1 1,
    -- 167: del tmp42
    .del 22,
    -- 168: tmp82 = einsum(tmp21, (0, 1, 2), tmp2, (3, 4, 2), (3, 0, 4, 1))
    .set 55 (.ein [(18, [0, 1, 2]), (8, [3, 4, 2])] [3, 0, 4, 1]) 1 1,
    -- 169: tmp26 = einsum(v.xoo, (0, 1, 2), tmp2, (3, 4, 0), (3, 1, 2, 4))
    .set 56 (.ein [(3, [0, 1, 2]), (8, [3, 4, 0])] [3, 1, 2, 4]) 1 1,
    -- 170: tmp22 = einsum(t1, (0, 1), f.ov, (2, 1), (2, 0))
    .set 57 (.ein [(1, [0, 1]), (5, [2, 1])] [2, 0]) 1 1,
    -- 171: tmp24 = einsum(f.ov, (0, 1), t2, (2, 3, 4, 1), (0, 2, 3, 4))
    .set 58 (.ein [(5, [0, 1]), (2, [2, 3, 4, 1])] [0, 2, 3, 4]) 1 1,
    -- 172: tmp55 = einsum(tmp54, (0, 1, 2, 3), t2, (4, 1, 5, 3), (0, 4, 2, 5))
    .set 59 (.ein [(43, [0, 1, 2, 3]), (2, [4, 1, 5, 3])] [0, 4, 2, 5]) 1 1,
    -- 173: del tmp54
    .del 43,
    -- 174: tmp61 = einsum(t2, (0, 1, 2, 3), tmp60, (2, 4), (0, 1, 4, 3))
    .set 60 (.ein [(2, [0, 1, 2, 3]), (44, [2, 4])] [0, 1, 4, 3]) 1 1,
    -- 175: del tmp60
    .del 44,
    -- 176: tmp70 = einsum(t2, (0, 1, 2, 3), tmp69, (1, 4), (4, 0, 3, 2))
    .set 61 (.ein [(2, [0, 1, 2, 3]), (45, [1, 4])] [4, 0, 3, 2]) 1 1,
    -- 177: del tmp69
    .del 45,
    -- 178: tmp67 = einsum(tmp66, (0, 1, 2, 3), t1, (2, 4), (0, 1, 3, 4))
    .set 62 (.ein [(46, [0, 1, 2, 3]), (1, [2, 4])] [0, 1, 3, 4]) 1 1,
    -- 179: del tmp66
    .del 46,
    -- 180: tmp57 = einsum(tmp56, (0, 1, 2), v.xov, (2, 3, 4), (0, 3, 1, 4))
    .set 63 (.ein [(47, [0, 1, 2]), (0, [2, 3, 4])] [0, 3, 1, 4]) 1 1,
    -- 181: del tmp56
    .del 47,
    -- 182: tmp74 = einsum(t1, (0, 1), tmp73, (2, 3, 0, 4), (2, 3, 1, 4))
    .set 64 (.ein [(1, [0, 1]), (48, [2, 3, 0, 4])] [2, 3, 1, 4]) 1 1,
    -- 183: del tmp73
    .del 48,
    -- 184: tmp78 = einsum(tmp77, (0, 1), t2, (2, 1, 3, 4), (0, 2, 4, 3))
    .set 65 (.ein [(49, [0, 1]), (2, [2, 1, 3, 4])] [0, 2, 4, 3]) 1 1,
    -- 185: del tmp77
    .del 49,
    -- 186: tmp76 = einsum(tmp75, (0, 1), t2, (2, 3, 1, 4), (2, 3, 0, 4)) * 2
    .set 66 (.ein [(50, [0, 1]), (2, [2, 3, 1, 4])] [2, 3, 0, 4]) 2 1,
    -- 187: del tmp75
    .del 50,
    -- 188: tmp48 = einsum(tmp47, (0, 1, 2, 3), t1, (1, 4), (0, 2, 3, 4))
    .set 67 (.ein [(51, [0, 1, 2, 3]), (1, [1, 4])] [0, 2, 3, 4]) 1 1,
    -- 189: del tmp47
    .del 51,
    -- 190: tmp36 = einsum(tmp21, (0, 1, 2), tmp35, (3, 4, 2), (0, 3, 1, 4))
    .set 68 (.ein [(18, [0, 1, 2]), (52, [3, 4, 2])] [0, 3, 1, 4]) 1 1,
    -- 191: del tmp35
    .del 52,
    -- 192: tmp33 = einsum(t2, (0, 1, 2, 3), tmp32, (4, 1, 5, 3), (4, 0, 2, 5))
    .set 69 (.ein [(2, [0, 1, 2, 3]), (53, [4, 1, 5, 3])] [4, 0, 2, 5]) 1 1,
    -- 193: tmp29 = einsum(f.vv, (0, 1), t2, (2, 3, 4, 1), (2, 3, 0, 4))
    .set 70 (.ein [(6, [0, 1]), (2, [2, 3, 4, 1])] [2, 3, 0, 4]) 1 1,
    -- 194: tmp50 = einsum(t2, (0, 1, 2, 3), tmp49, (1, 4), (4, 0, 3, 2))
    .set 71 (.ein [(2, [0, 1, 2, 3]), (54, [1, 4])] [4, 0, 3, 2]) 1 1,
    -- 195: del tmp49
    .del 54,
    -- 196: tmp31 = einsum(tmp30, (0, 1, 2, 3), t2, (4, 1, 3, 5), (4, 0, 5, 2))
    .set 72 (.ein [(25, [0, 1, 2, 3]), (2, [4, 1, 3, 5])] [4, 0, 5, 2]) 1 1,
    -- 197: del tmp30
    .del 25,
    -- 198: tmp81 = einsum(tmp32, (0, 1, 2, 3), t2, (4, 1, 3, 5), (0, 4, 5, 2))
    .set 73 (.ein [(53, [0, 1, 2, 3]), (2, [4, 1, 3, 5])] [0, 4, 5, 2]) 1 1,
    -- 199: del tmp32
    .del 53,
    -- 200: tmp83 = einsum(t1, (0, 1), tmp82, (2, 3, 0, 4), (2, 3, 1, 4))
    .set 74 (.ein [(1, [0, 1]), (55, [2, 3, 0, 4])] [2, 3, 1, 4]) 1 1,
    -- 201: del tmp82
    .del 55,
    -- 202: tmp27 = einsum(tmp26, (0, 1, 2, 3), t2, (1, 3, 4, 5), (0, 2, 4, 5))
    .set 75 (.ein [(56, [0, 1, 2, 3]), (2, [1, 3, 4, 5])] [0, 2, 4, 5]) 1 1,
    -- 203: del tmp26
    .del 56,
    -- 204: tmp23 = einsum(t2, (0, 1, 2, 3), tmp22, (1, 4), (4, 0, 2, 3))
    .set 76 (.ein [(2, [0, 1, 2, 3]), (57, [1, 4])] [4, 0, 2, 3]) 1 1,
    -- 205: del tmp22
    .del 57,
    -- 206: tmp25 = einsum(t1, (0, 1), tmp24, (0, 2, 3, 4), (2, 3, 1, 4))
    .set 77 (.ein [(1, [0, 1]), (58, [0, 2, 3, 4])] [2, 3, 1, 4]) 1 1,
    -- 207: del tmp24
    .del 58,
    -- 208: tmp87 = einsum(tmp18, (0, 1, 2, 3), t1, (1, 4), (0, 4, 2, 3))
    .set 78 (.ein [(16, [0, 1, 2, 3]), (1, [1, 4])] [0, 4, 2, 3]) 1 1,
    -- 209: tmp89 = np.copy(np.transpose(tmp18, (1, 0, 2, 3))) * -1
    .set 79 (.tr 16 [1, 0, 2, 3]) (-1) 1,
    -- 210: tmp89 += np.transpose(tmp18, (1, 0, 3, 2)) * 2
    .add 79 (.tr 16 [1, 0, 3, 2]) 2 1,
    -- 211: tmp3 = np.copy(np.transpose(v.xoo, (1, 2, 0)))
    .set 80 (.tr 3 [1, 2, 0]) 1 1,
    -- 212: tmp3 += np.transpose(tmp2, (1, 0, 2))
    .add 80 (.tr 8 [1, 0, 2]) 1 1,
    -- 213: tmp7 = einsum(t1, (0, 1), t1, (2, 3), (2, 0, 3, 1)) * 0.5
    .set 81 (.ein [(1, [0, 1]), (1, [2, 3])] [2, 0, 3, 1]) 1 2,
    -- 214: tmp7 += np.transpose(t2, (0, 1, 3, 2)) * -1
    .add 81 (.tr 2 [0, 1, 3, 2]) (-1) 1,
    -- 215: tmp7 += t2 * 0.5
    .add 81 (.cp 2) 1 2,
    -- 216: tmp15 = np.copy(f.ov)
    .set 82 (.cp 5) 1 1,
    -- 217: tmp15 += tmp9 * -1
    .add 82 (.cp 13) (-1) 1,
    -- 218: tmp14 = np.copy(tmp6) * -1
    .set 83 (.cp 35) (-1) 1,
    -- 219: tmp14 += einsum(tmp0, (0,), t1, (1, 2), (1, 2, 0)) * 2
    .add 83 (.ein [(9, [0]), (1, [1, 2])] [1, 2, 0]) 2 1,
    -- 220: tmp14 += tmp13
    .add 83 (.cp 37) 1 1,
    -- 221: del tmp13
    .del 37,
    -- 222: tmp71 = np.copy(np.transpose(tmp55, (1, 0, 3, 2)))
    .set 84 (.tr 59 [1, 0, 3, 2]) 1 1,
    -- 223: del tmp55
    .del 59,
    -- 224: tmp71 += tmp57
    .add 84 (.cp 63) 1 1,
    -- 225: del tmp57
    .del 63,
    -- 226: tmp71 += np.transpose(tmp61, (1, 0, 3, 2)) * -1
    .add 84 (.tr 60 [1, 0, 3, 2]) (-1) 1,
    -- 227: del tmp61
    .del 60,
    -- 228: tmp71 += np.transpose(tmp67, (0, 1, 3, 2)) * -1
    .add 84 (.tr 62 [0, 1, 3, 2]) (-1) 1,
    -- 229: del tmp67
    .del 62,
    -- 230: tmp71 += np.transpose(tmp70, (1, 0, 3, 2))
    .add 84 (.tr 61 [1, 0, 3, 2]) 1 1,
    -- 231: del tmp70
    .del 61,
    -- 232: tmp79 = np.copy(tmp74)
    .set 85 (.cp 64) 1 1,
    -- 233: del tmp74
    .del 64,
    -- 234: tmp79 += np.transpose(tmp76, (1, 0, 3, 2))
    .add 85 (.tr 66 [1, 0, 3, 2]) 1 1,
    -- 235: del tmp76
    .del 66,
    -- 236: tmp79 += np.transpose(tmp78, (1, 0, 3, 2))
    .add 85 (.tr 65 [1, 0, 3, 2]) 1 1,
    -- 237: del tmp78
    .del 65,
    -- 238: tmp51 = np.copy(tmp29)
    .set 86 (.cp 70) 1 1,
    -- 239: del tmp29
    .del 70,
    -- 240: tmp51 += tmp31 * -1
    .add 86 (.cp 72) (-1) 1,
    -- 241: del tmp31
    .del 72,
    -- 242: tmp51 += tmp33 * -1
    .add 86 (.cp 69) (-1) 1,
    -- 243: del tmp33
    .del 69,
    -- 244: tmp51 += np.transpose(tmp36, (0, 1, 3, 2))
    .add 86 (.tr 68 [0, 1, 3, 2]) 1 1,
    -- 245: del tmp36
    .del 68,
    -- 246: tmp51 += np.transpose(tmp48, (0, 1, 3, 2))
    .add 86 (.tr 67 [0, 1, 3, 2]) 1 1,
    -- 247: del tmp48
    .del 67,
    -- 248: tmp51 += np.transpose(tmp50, (0, 1, 3, 2)) * -1
    .add 86 (.tr 71 [0, 1, 3, 2]) (-1) 1,
    -- 249: del tmp50
    .del 71,
    -- 250: tmp84 = np.copy(tmp81)
    .set 87 (.cp 73) 1 1,
    -- 251: del tmp81
    .del 73,
    -- 252: tmp84 += tmp83
    .add 87 (.cp 74) 1 1,
    -- 253: del tmp83
    .del 74,
    -- 254: tmp28 = np.copy(tmp23)
    .set 88 (.cp 76) 1 1,
    -- 255: del tmp23
    .del 76,
    -- 256: tmp28 += tmp25
    .add 88 (.cp 77) 1 1,
    -- 257: del tmp25
    .del 77,
    -- 258: tmp28 += tmp27 * -1
    .add 88 (.cp 75) (-1) 1,
    -- 259: del tmp27
    .del 75,
    -- 260: tmp88 = einsum(v.xvv, (0, 1, 2), v.xvv, (0, 3, 4), (3, 1, 2, 4))
    .set 89 (.ein [(4, [0, 1, 2]), (4, [0, 3, 4])] [3, 1, 2, 4]) 1 1,
    -- 261: tmp88 += einsum(t1, (0, 1), tmp87, (0, 2, 3, 4), (4, 1, 3, 2))
    .add 89 (.ein [(1, [0, 1]), (78, [0, 2, 3, 4])] [4, 1, 3, 2]) 1 1,
    -- 262: del tmp87
    .del 78,
    -- 263: tmp90 = einsum(t2, (0, 1, 2, 3), tmp89, (1, 4, 3, 5), (0, 4, 2, 5))
    .set 90 (.ein [(2, [0, 1, 2, 3]), (79, [1, 4, 3, 5])] [0, 4, 2, 5]) 1 1,
    -- 264: del tmp89
    .del 79,
    -- 265: tmp80 = einsum(t2, (0, 1, 2, 3), f.oo, (4, 1), (4, 0, 2, 3))
    .set 91 (.ein [(2, [0, 1, 2, 3]), (7, [4, 1])] [4, 0, 2, 3]) 1 1,
    -- 266: tmp20 = einsum(t2, (0, 1, 2, 3), tmp18, (4, 5, 3, 2), (0, 1, 5, 4))
    .set 92 (.ein [(2, [0, 1, 2, 3]), (16, [4, 5, 3, 2])] [0, 1, 5, 4]) 1 1,
    -- 267: tmp86 = np.copy(t2)
    .set 93 (.cp 2) 1 1,
    -- 268: tmp86 += einsum(t1, (0, 1), t1, (2, 3), (2, 0, 3, 1))
    .add 93 (.ein [(1, [0, 1]), (1, [2, 3])] [2, 0, 3, 1]) 1 1,
    -- 269: tmp85 = einsum(v.xoo, (0, 1, 2), v.xoo, (0, 3, 4), (1, 3, 4, 2))
    .set 94 (.ein [(3, [0, 1, 2]), (3, [0, 3, 4])] [1, 3, 4, 2]) 1 1,
    -- 270: tmp85 += einsum(tmp2, (0, 1, 2), tmp2, (3, 4, 2), (4, 0, 1, 3))
    .add 94 (.ein [(8, [0, 1, 2]), (8, [3, 4, 2])] [4, 0, 1, 3]) 1 1,
    -- 271: del tmp2
    .del 8,
    -- 272: tmp4 = einsum(v.xov, (0, 1, 2), tmp3, (3, 4, 0), (4, 1, 3, 2))
    .set 95 (.ein [(0, [0, 1, 2]), (80, [3, 4, 0])] [4, 1, 3, 2]) 1 1,
    -- 273: del tmp3
    .del 80,
    -- 274: tmp10 = np.copy(f.ov)
    .set 96 (.cp 5) 1 1,
    -- 275: tmp10 += tmp1 * 2
    .add 96 (.cp 14) 2 1,
    -- 276: tmp10 += tmp9 * -1
    .add 96 (.cp 13) (-1) 1,
    -- 277: del tmp9
    .del 13,
    -- 278: tmp8 = np.copy(tmp6)
    .set 97 (.cp 35) 1 1,
    -- 279: del tmp6
    .del 35,
    -- 280: tmp8 += einsum(tmp0, (0,), t1, (1, 2), (1, 2, 0)) * -2
    .add 97 (.ein [(9, [0]), (1, [1, 2])] [1, 2, 0]) (-2) 1,
    -- 281: del tmp0
    .del 9,
    -- 282: tmp8 += einsum(v.xov, (0, 1, 2), tmp7, (1, 3, 4, 2), (3, 4, 0)) * 2
    .add 97 (.ein [(0, [0, 1, 2]), (81, [1, 3, 4, 2])] [3, 4, 0]) 2 1,
    -- 283: del tmp7
    .del 81,
    -- 284: tmp16 = np.copy(f.oo)
    .set 98 (.cp 7) 1 1,
    -- 285: tmp16 += np.transpose(tmp12, (1, 0)) * 2
    .add 98 (.tr 31 [1, 0]) 2 1,
    -- 286: del tmp12
    .del 31,
    -- 287: tmp16 += einsum(tmp14, (0, 1, 2), v.xov, (2, 3, 1), (3, 0))
    .add 98 (.ein [(83, [0, 1, 2]), (0, [2, 3, 1])] [3, 0]) 1 1,
    -- 288: del tmp14
    .del 83,
    -- 289: tmp16 += einsum(tmp15, (0, 1), t1, (2, 1), (0, 2))
    .add 98 (.ein [(82, [0, 1]), (1, [2, 1])] [0, 2]) 1 1,
    -- 290: del tmp15
    .del 82,
    -- 291: t2new = einsum(tmp17, (0, 1, 2), tmp17, (3, 4, 2), (0, 3, 1, 4))
    .set 99 (.ein [(10, [0, 1, 2]), (10, [3, 4, 2])] [0, 3, 1, 4]) 1 1,
    -- 292: del tmp17
    .del 10,
    -- 293: t2new += einsum(tmp19, (0, 1, 2, 3), t2, (4, 1, 3, 5), (4, 0, 2, 5))
    .add 99 (.ein [(26, [0, 1, 2, 3]), (2, [4, 1, 3, 5])] [4, 0, 2, 5]) 1 1,
    -- 294: del tmp19
    .del 26,
    -- 295: t2new += einsum(t2, (0, 1, 2, 3), tmp20, (4, 5, 0, 1), (5, 4, 3, 2))
    .add 99 (.ein [(2, [0, 1, 2, 3]), (92, [4, 5, 0, 1])] [5, 4, 3, 2]) 1 1,
    -- 296: del tmp20
    .del 92,
    -- 297: t2new += np.transpose(tmp18, (1, 0, 3, 2))
    .add 99 (.tr 16 [1, 0, 3, 2]) 1 1,
    -- 298: del tmp18
    .del 16,
    -- 299: t2new += einsum(tmp21, (0, 1, 2), tmp21, (3, 4, 2), (0, 3, 1, 4))
    .add 99 (.ein [(18, [0, 1, 2]), (18, [3, 4, 2])] [0, 3, 1, 4]) 1 1,
    -- 300: del tmp21
    .del 18,
    -- 301: t2new += np.transpose(tmp28, (0, 1, 3, 2)) * -1
    .add 99 (.tr 88 [0, 1, 3, 2]) (-1) 1,
    -- 302: t2new += np.transpose(tmp28, (1, 0, 2, 3)) * -1
    .add 99 (.tr 88 [1, 0, 2, 3]) (-1) 1,
    -- 303: del tmp28
    .del 88,
    -- 304: t2new += np.transpose(tmp51, (0, 1, 3, 2))
    .add 99 (.tr 86 [0, 1, 3, 2]) 1 1,
    -- 305: t2new += np.transpose(tmp51, (1, 0, 2, 3))
    .add 99 (.tr 86 [1, 0, 2, 3]) 1 1,
    -- 306: del tmp51
    .del 86,
    -- 307: t2new += tmp71 * -1
    .add 99 (.cp 84) (-1) 1,
    -- 308: t2new += np.transpose(tmp71, (1, 0, 3, 2)) * -1
    .add 99 (.tr 84 [1, 0, 3, 2]) (-1) 1,
    -- 309: del tmp71
    .del 84,
    -- 310: t2new += tmp79 * -1
    .add 99 (.cp 85) (-1) 1,
    -- 311: t2new += np.transpose(tmp79, (1, 0, 3, 2)) * -1
    .add 99 (.tr 85 [1, 0, 3, 2]) (-1) 1,
    -- 312: del tmp79
    .del 85,
    -- 313: t2new += np.transpose(tmp80, (0, 1, 3, 2)) * -1
    .add 99 (.tr 91 [0, 1, 3, 2]) (-1) 1,
    -- 314: t2new += np.transpose(tmp80, (1, 0, 2, 3)) * -1
    .add 99 (.tr 91 [1, 0, 2, 3]) (-1) 1,
    -- 315: del tmp80
    .del 91,
    -- 316: t2new += tmp84 * -1
    .add 99 (.cp 87) (-1) 1,
    -- 317: t2new += np.transpose(tmp84, (1, 0, 3, 2)) * -1
    .add 99 (.tr 87 [1, 0, 3, 2]) (-1) 1,
    -- 318: del tmp84
    .del 87,
    -- 319: t2new += einsum(tmp85, (0, 1, 2, 3), tmp86, (0, 2, 4, 5), (1, 3, 5, 4))
    .add 99 (.ein [(94, [0, 1, 2, 3]), (93, [0, 2, 4, 5])] [1, 3, 5, 4]) 1 1,
    -- 320: del tmp85, tmp86
    .del 94,
    .del 93,
    -- 321: t2new += einsum(tmp88, (0, 1, 2, 3), t2, (4, 5, 2, 0), (4, 5, 1, 3))
    .add 99 (.ein [(89, [0, 1, 2, 3]), (2, [4, 5, 2, 0])] [4, 5, 1, 3]) 1 1,
    -- 322: del tmp88
    .del 89,
    -- 323: t2new += einsum(tmp90, (0, 1, 2, 3), t2, (4, 1, 5, 3), (0, 4, 2, 5)) * 2
    .add 99 (.ein [(90, [0, 1, 2, 3]), (2, [4, 1, 5, 3])] [0, 4, 2, 5]) 2 1,
    -- 324: del tmp90
    .del 90,
    -- 325: t1new = np.copy(f.ov)
    .set 100 (.cp 5) 1 1,
    -- 326: t1new += tmp1 * 2
    .add 100 (.cp 14) 2 1,
    -- 327: del tmp1
    .del 14,
    -- 328: t1new += einsum(t1, (0, 1), f.vv, (2, 1), (0, 2))
    .add 100 (.ein [(1, [0, 1]), (6, [2, 1])] [0, 2]) 1 1,
    -- 329: t1new += einsum(tmp4, (0, 1, 2, 3), tmp5, (1, 2, 4, 3), (0, 4)) * -1
    .add 100 (.ein [(95, [0, 1, 2, 3]), (20, [1, 2, 4, 3])] [0, 4]) (-1) 1,
    -- 330: del tmp5, tmp4
    .del 20,
    .del 95,
    -- 331: t1new += einsum(v.xvv, (0, 1, 2), tmp8, (3, 2, 0), (3, 1)) * -1
    .add 100 (.ein [(4, [0, 1, 2]), (97, [3, 2, 0])] [3, 1]) (-1) 1,
    -- 332: del tmp8
    .del 97,
    -- 333: t1new += einsum(tmp10, (0, 1), tmp11, (0, 2, 3, 1), (2, 3))
    .add 100 (.ein [(96, [0, 1]), (24, [0, 2, 3, 1])] [2, 3]) 1 1,
    -- 334: del tmp11, tmp10
    .del 24,
    .del 96,
    -- 335: t1new += einsum(tmp16, (0, 1), t1, (0, 2), (1, 2)) * -1
    .add 100 (.ein [(98, [0, 1]), (1, [0, 2])] [1, 2]) (-1) 1,
    -- 336: del tmp16
    .del 98
  ]
  ret := [(chars! "t1new", 100), (chars! "t2new", 99)]

/-- codegen/RDFCCSD.py:340-754 `update_lams`. -/
def update_lams : GenFun where
  args := [chars! "t1", chars! "v.xov", chars! "t2", chars! "l2", chars! "v.xvv", chars! "v.xoo", chars! "l1", chars! "f.ov", chars! "f.vv", chars! "f.oo"]
  body := [
    -- 367: tmp9 = einsum(t1, (0, 1), v.xov, (2, 0, 1), (2,))
    .set 10 (.ein [(0, [0, 1]), (1, [2, 0, 1])] [2]) 1 1,
    -- 368: tmp11 = einsum(v.xov, (0, 1, 2), t1, (3, 2), (3, 1, 0))
    .set 11 (.ein [(1, [0, 1, 2]), (0, [3, 2])] [3, 1, 0]) 1 1,
    -- 369: tmp89 = np.copy(np.transpose(t2, (0, 1, 3, 2))) * 2
    .set 12 (.tr 2 [0, 1, 3, 2]) 2 1,
    -- 370: tmp89 += t2 * -1
    .add 12 (.cp 2) (-1) 1,
    -- 371: tmp17 = np.copy(np.transpose(t2, (0, 1, 3, 2))) * -0.5
    .set 13 (.tr 2 [0, 1, 3, 2]) (-1) 2,
    -- 372: tmp17 += t2
    .add 13 (.cp 2) 1 1,
    -- 373: tmp10 = einsum(tmp9, (0,), v.xov, (0, 1, 2), (1, 2))
    .set 14 (.ein [(10, [0]), (1, [0, 1, 2])] [1, 2]) 1 1,
    -- 374: tmp12 = einsum(tmp11, (0, 1, 2), v.xov, (2, 0, 3), (1, 3))
    .set 15 (.ein [(11, [0, 1, 2]), (1, [2, 0, 3])] [1, 3]) 1 1,
    -- 375: tmp34 = einsum(l2, (0, 1, 2, 3), t1, (4, 1), (2, 3, 4, 0))
    .set 16 (.ein [(3, [0, 1, 2, 3]), (0, [4, 1])] [2, 3, 4, 0]) 1 1,
    -- 376: tmp93 = einsum(tmp89, (0, 1, 2, 3), v.xov, (4, 0, 3), (1, 2, 4))
    .set 17 (.ein [(12, [0, 1, 2, 3]), (1, [4, 0, 3])] [1, 2, 4]) 1 1,
    -- 377: tmp0 = einsum(t1, (0, 1), v.xvv, (2, 3, 1), (0, 3, 2))
    .set 18 (.ein [(0, [0, 1]), (4, [2, 3, 1])] [0, 3, 2]) 1 1,
    -- 378: tmp18 = np.copy(np.transpose(t2, (0, 1, 3, 2))) * 2
    .set 19 (.tr 2 [0, 1, 3, 2]) 2 1,
    -- 379: tmp18 += t2 * -1
    .add 19 (.cp 2) (-1) 1,
    -- 380: tmp5 = einsum(v.xov, (0, 1, 2), v.xov, (0, 3, 4), (3, 1, 4, 2))
    .set 20 (.ein [(1, [0, 1, 2]), (1, [0, 3, 4])] [3, 1, 4, 2]) 1 1,
    -- 381: tmp78 = np.copy(np.transpose(v.xoo, (1, 2, 0)))
    .set 21 (.tr 5 [1, 2, 0]) 1 1,
    -- 382: tmp78 += np.transpose(tmp11, (1, 0, 2))
    .add 21 (.tr 11 [1, 0, 2]) 1 1,
    -- 383: tmp48 = einsum(l1, (0, 1), t1, (2, 0), (1, 2))
    .set 22 (.ein [(6, [0, 1]), (0, [2, 0])] [1, 2]) 1 1,
    -- 384: tmp49 = einsum(tmp17, (0, 1, 2, 3), l2, (2, 3, 0, 4), (4, 1))
    .set 23 (.ein [(13, [0, 1, 2, 3]), (3, [2, 3, 0, 4])] [4, 1]) 1 1,
    -- 385: tmp103 = np.copy(tmp10) * 2
    .set 24 (.cp 14) 2 1,
    -- 386: tmp103 += tmp12 * -1
    .add 24 (.cp 15) (-1) 1,
    -- 387: tmp97 = np.copy(tmp34) * -1
    .set 25 (.cp 16) (-1) 1,
    -- 388: tmp97 += np.transpose(tmp34, (1, 0, 2, 3)) * 2
    .add 25 (.tr 16 [1, 0, 2, 3]) 2 1,
    -- 389: tmp99 = np.copy(tmp34) * 2
    .set 26 (.cp 16) 2 1,
    -- 390: tmp99 += np.transpose(tmp34, (1, 0, 2, 3)) * -1
    .add 26 (.tr 16 [1, 0, 2, 3]) (-1) 1,
    -- 391: tmp95 = np.copy(np.transpose(l2, (3, 2, 0, 1))) * 2
    .set 27 (.tr 3 [3, 2, 0, 1]) 2 1,
    -- 392: tmp95 += np.transpose(l2, (2, 3, 0, 1)) * -1
    .add 27 (.tr 3 [2, 3, 0, 1]) (-1) 1,
    -- 393: tmp94 = np.copy(np.transpose(v.xov, (1, 2, 0)))
    .set 28 (.tr 1 [1, 2, 0]) 1 1,
    -- 394: tmp94 += tmp0
    .add 28 (.cp 18) 1 1,
    -- 395: tmp94 += tmp93
    .add 28 (.cp 17) 1 1,
    -- 396: del tmp93
    .del 17,
    -- 397: tmp19 = einsum(v.xov, (0, 1, 2), tmp18, (1, 3, 4, 2), (3, 4, 0))
    .set 29 (.ein [(1, [0, 1, 2]), (19, [1, 3, 4, 2])] [3, 4, 0]) 1 1,
    -- 398: tmp77 = einsum(tmp5, (0, 1, 2, 3), t2, (4, 1, 2, 5), (4, 0, 5, 3))
    .set 30 (.ein [(20, [0, 1, 2, 3]), (2, [4, 1, 2, 5])] [4, 0, 5, 3]) 1 1,
    -- 399: tmp79 = einsum(tmp78, (0, 1, 2), v.xvv, (2, 3, 4), (0, 1, 3, 4))
    .set 31 (.ein [(21, [0, 1, 2]), (4, [2, 3, 4])] [0, 1, 3, 4]) 1 1,
    -- 400: del tmp78
    .del 21,
    -- 401: tmp37 = einsum(tmp17, (0, 1, 2, 3), l2, (4, 2, 1, 0), (4, 3)) * 2
    .set 32 (.ein [(13, [0, 1, 2, 3]), (3, [4, 2, 1, 0])] [4, 3]) 2 1,
    -- 402: tmp50 = np.copy(tmp48) * 0.5
    .set 33 (.cp 22) 1 2,
    -- 403: tmp50 += tmp49
    .add 33 (.cp 23) 1 1,
    -- 404: del tmp49
    .del 23,
    -- 405: tmp90 = einsum(tmp5, (0, 1, 2, 3), tmp89, (0, 4, 5, 3), (1, 4, 2, 5))
    .set 34 (.ein [(20, [0, 1, 2, 3]), (12, [0, 4, 5, 3])] [1, 4, 2, 5]) 1 1,
    -- 406: del tmp89
    .del 12,
    -- 407: tmp61 = einsum(v.xoo, (0, 1, 2), tmp11, (2, 3, 0), (1, 3))
    .set 35 (.ein [(5, [0, 1, 2]), (11, [2, 3, 0])] [1, 3]) 1 1,
    -- 408: tmp104 = einsum(t1, (0, 1), tmp103, (2, 1), (0, 2))
    .set 36 (.ein [(0, [0, 1]), (24, [2, 1])] [0, 2]) 1 1,
    -- 409: tmp98 = einsum(v.xoo, (0, 1, 2), tmp97, (1, 3, 2, 4), (3, 4, 0))
    .set 37 (.ein [(5, [0, 1, 2]), (25, [1, 3, 2, 4])] [3, 4, 0]) 1 1,
    -- 410: del tmp97
    .del 25,
    -- 411: tmp100 = einsum(tmp99, (0, 1, 2, 3), tmp11, (1, 2, 4), (0, 3, 4))
    .set 38 (.ein [(26, [0, 1, 2, 3]), (11, [1, 2, 4])] [0, 3, 4]) 1 1,
    -- 412: del tmp99
    .del 26,
    -- 413: tmp96 = einsum(tmp94, (0, 1, 2), tmp95, (0, 3, 4, 1), (3, 4, 2))
    .set 39 (.ein [(28, [0, 1, 2]), (27, [0, 3, 4, 1])] [3, 4, 2]) 1 1,
    -- 414: del tmp94, tmp95
    .del 28,
    .del 27,
    -- 415: tmp60 = einsum(tmp9, (0,), v.xoo, (0, 1, 2), (1, 2))
    .set 40 (.ein [(10, [0]), (5, [0, 1, 2])] [1, 2]) 1 1,
    -- 416: tmp117 = einsum(tmp19, (0, 1, 2), v.xov, (2, 3, 1), (3, 0)) * 0.5
    .set 41 (.ein [(29, [0, 1, 2]), (1, [2, 3, 1])] [3, 0]) 1 2,
    -- 417: tmp6 = einsum(tmp5, (0, 1, 2, 3), t2, (4, 5, 2, 3), (4, 5, 0, 1))
    .set 42 (.ein [(20, [0, 1, 2, 3]), (2, [4, 5, 2, 3])] [4, 5, 0, 1]) 1 1,
    -- 418: tmp3 = einsum(v.xov, (0, 1, 2), v.xvv, (0, 3, 4), (1, 3, 4, 2))
    .set 43 (.ein [(1, [0, 1, 2]), (4, [0, 3, 4])] [1, 3, 4, 2]) 1 1,
    -- 419: tmp26 = einsum(tmp11, (0, 1, 2), tmp11, (3, 4, 2), (0, 3, 1, 4))
    .set 44 (.ein [(11, [0, 1, 2]), (11, [3, 4, 2])] [0, 3, 1, 4]) 1 1,
    -- 420: tmp73 = einsum(v.xov, (0, 1, 2), v.xoo, (0, 3, 4), (3, 4, 1, 2))
    .set 45 (.ein [(1, [0, 1, 2]), (5, [0, 3, 4])] [3, 4, 1, 2]) 1 1,
    -- 421: tmp123 = einsum(tmp0, (0, 1, 2), v.xov, (2, 0, 3), (3, 1))
    .set 46 (.ein [(18, [0, 1, 2]), (1, [2, 0, 3])] [3, 1]) 1 1,
    -- 422: tmp70 = einsum(v.xvv, (0, 1, 2), l1, (2, 3), (3, 1, 0))
    .set 47 (.ein [(4, [0, 1, 2]), (6, [2, 3])] [3, 1, 0]) 1 1,
    -- 423: tmp75 = einsum(v.xov, (0, 1, 2), tmp11, (3, 4, 0), (3, 1, 4, 2))
    .set 48 (.ein [(1, [0, 1, 2]), (11, [3, 4, 0])] [3, 1, 4, 2]) 1 1,
    -- 424: tmp67 = einsum(t1, (0, 1), f.ov, (2, 1), (2, 0))
    .set 49 (.ein [(0, [0, 1]), (7, [2, 1])] [2, 0]) 1 1,
    -- 425: tmp80 = np.copy(tmp77) * -1
    .set 50 (.cp 30) (-1) 1,
    -- 426: del tmp77
    .del 30,
    -- 427: tmp80 += np.transpose(tmp79, (1, 0, 3, 2))
    .add 50 (.tr 31 [1, 0, 3, 2]) 1 1,
    -- 428: tmp22 = einsum(v.xoo, (0, 1, 2), tmp11, (3, 4, 0), (3, 1, 2, 4))
    .set 51 (.ein [(5, [0, 1, 2]), (11, [3, 4, 0])] [3, 1, 2, 4]) 1 1,
    -- 429: tmp112 = einsum(v.xov, (0, 1, 2), tmp37, (3, 2), (1, 3, 0)) * 0.5
    .set 52 (.ein [(1, [0, 1, 2]), (32, [3, 2])] [1, 3, 0]) 1 2,
    -- 430: tmp110 = einsum(tmp50, (0, 1), v.xov, (2, 1, 3), (0, 3, 2)) * 2
    .set 53 (.ein [(33, [0, 1]), (1, [2, 1, 3])] [0, 3, 2]) 2 1,
    -- 431: tmp91 = np.copy(np.transpose(tmp90, (1, 0, 3, 2)))
    .set 54 (.tr 34 [1, 0, 3, 2]) 1 1,
    -- 432: del tmp90
    .del 34,
    -- 433: tmp91 += np.transpose(tmp79, (1, 0, 3, 2))
    .add 54 (.tr 31 [1, 0, 3, 2]) 1 1,
    -- 434: del tmp79
    .del 31,
    -- 435: tmp105 = np.copy(tmp61)
    .set 55 (.cp 35) 1 1,
    -- 436: tmp105 += tmp104 * -1
    .add 55 (.cp 36) (-1) 1,
    -- 437: del tmp104
    .del 36,
    -- 438: tmp63 = einsum(tmp9, (0,), v.xvv, (0, 1, 2), (1, 2))
    .set 56 (.ein [(10, [0]), (4, [0, 1, 2])] [1, 2]) 1 1,
    -- 439: del tmp9
    .del 10,
    -- 440: tmp86 = einsum(t2, (0, 1, 2, 3), l2, (4, 3, 1, 5), (5, 0, 4, 2))
    .set 57 (.ein [(2, [0, 1, 2, 3]), (3, [4, 3, 1, 5])] [5, 0, 4, 2]) 1 1,
    -- 441: tmp101 = np.copy(tmp96) * -1
    .set 58 (.cp 39) (-1) 1,
    -- 442: del tmp96
    .del 39,
    -- 443: tmp101 += tmp98
    .add 58 (.cp 37) 1 1,
    -- 444: del tmp98
    .del 37,
    -- 445: tmp101 += tmp100
    .add 58 (.cp 38) 1 1,
    -- 446: del tmp100
    .del 38,
    -- 447: tmp118 = np.copy(np.transpose(tmp60, (1, 0)))
    .set 59 (.tr 40 [1, 0]) 1 1,
    -- 448: tmp118 += np.transpose(tmp117, (1, 0))
    .add 59 (.tr 41 [1, 0]) 1 1,
    -- 449: del tmp117
    .del 41,
    -- 450: tmp115 = einsum(tmp19, (0, 1, 2), v.xov, (2, 0, 3), (3, 1)) * 0.5
    .set 60 (.ein [(29, [0, 1, 2]), (1, [2, 0, 3])] [3, 1]) 1 2,
    -- 451: tmp7 = einsum(t1, (0, 1), tmp6, (2, 3, 4, 0), (2, 3, 4, 1))
    .set 61 (.ein [(0, [0, 1]), (42, [2, 3, 4, 0])] [2, 3, 4, 1]) 1 1,
    -- 452: tmp4 = einsum(t2, (0, 1, 2, 3), tmp3, (4, 3, 5, 2), (0, 1, 4, 5))
    .set 62 (.ein [(2, [0, 1, 2, 3]), (43, [4, 3, 5, 2])] [0, 1, 4, 5]) 1 1,
    -- 453: tmp13 = np.copy(tmp10) * 2
    .set 63 (.cp 14) 2 1,
    -- 454: tmp13 += tmp12 * -1
    .add 63 (.cp 15) (-1) 1,
    -- 455: tmp21 = einsum(v.xoo, (0, 1, 2), v.xoo, (0, 3, 4), (3, 1, 2, 4))
    .set 64 (.ein [(5, [0, 1, 2]), (5, [0, 3, 4])] [3, 1, 2, 4]) 1 1,
    -- 456: tmp15 = np.copy(np.transpose(v.xoo, (1, 2, 0)))
    .set 65 (.tr 5 [1, 2, 0]) 1 1,
    -- 457: tmp15 += np.transpose(tmp11, (1, 0, 2))
    .add 65 (.tr 11 [1, 0, 2]) 1 1,
    -- 458: tmp55 = np.copy(tmp48)
    .set 66 (.cp 22) 1 1,
    -- 459: tmp55 += einsum(tmp17, (0, 1, 2, 3), l2, (2, 3, 0, 4), (4, 1)) * 2
    .add 66 (.ein [(13, [0, 1, 2, 3]), (3, [2, 3, 0, 4])] [4, 1]) 2 1,
    -- 460: tmp54 = np.copy(np.transpose(t2, (0, 1, 3, 2))) * -1
    .set 67 (.tr 2 [0, 1, 3, 2]) (-1) 1,
    -- 461: tmp54 += t2 * 2
    .add 67 (.cp 2) 2 1,
    -- 462: tmp29 = np.copy(np.transpose(t2, (0, 1, 3, 2)))
    .set 68 (.tr 2 [0, 1, 3, 2]) 1 1,
    -- 463: tmp29 += t2 * -0.5
    .add 68 (.cp 2) (-1) 2,
    -- 464: tmp45 = einsum(l2, (0, 1, 2, 3), t2, (4, 5, 0, 1), (2, 3, 4, 5))
    .set 69 (.ein [(3, [0, 1, 2, 3]), (2, [4, 5, 0, 1])] [2, 3, 4, 5]) 1 1,
    -- 465: tmp46 = einsum(tmp34, (0, 1, 2, 3), t1, (4, 3), (1, 0, 2, 4))
    .set 70 (.ein [(16, [0, 1, 2, 3]), (0, [4, 3])] [1, 0, 2, 4]) 1 1,
    -- 466: tmp43 = np.copy(tmp34) * 2
    .set 71 (.cp 16) 2 1,
    -- 467: tmp43 += np.transpose(tmp34, (1, 0, 2, 3)) * -1
    .add 71 (.tr 16 [1, 0, 2, 3]) (-1) 1,
    -- 468: tmp41 = np.copy(tmp34) * -0.5
    .set 72 (.cp 16) (-1) 2,
    -- 469: tmp41 += np.transpose(tmp34, (1, 0, 2, 3))
    .add 72 (.tr 16 [1, 0, 2, 3]) 1 1,
    -- 470: tmp42 = einsum(t2, (0, 1, 2, 3), l1, (3, 4), (4, 0, 1, 2))
    .set 73 (.ein [(2, [0, 1, 2, 3]), (6, [3, 4])] [4, 0, 1, 2]) 1 1,
    -- 471: tmp27 = einsum(t1, (0, 1), tmp26, (2, 3, 4, 0), (2, 3, 4, 1))
    .set 74 (.ein [(0, [0, 1]), (44, [2, 3, 4, 0])] [2, 3, 4, 1]) 1 1,
    -- 472: tmp25 = einsum(tmp0, (0, 1, 2), tmp11, (3, 4, 2), (3, 0, 4, 1))
    .set 75 (.ein [(18, [0, 1, 2]), (11, [3, 4, 2])] [3, 0, 4, 1]) 1 1,
    -- 473: tmp122 = einsum(tmp73, (0, 1, 2, 3), l1, (4, 1), (0, 2, 4, 3))
    .set 76 (.ein [(45, [0, 1, 2, 3]), (6, [4, 1])] [0, 2, 4, 3]) 1 1,
    -- 474: tmp124 = einsum(tmp123, (0, 1), l2, (2, 1, 3, 4), (3, 4, 2, 0))
    .set 77 (.ein [(46, [0, 1]), (3, [2, 1, 3, 4])] [3, 4, 2, 0]) 1 1,
    -- 475: del tmp123
    .del 46,
    -- 476: tmp74 = einsum(tmp34, (0, 1, 2, 3), tmp73, (4, 0, 2, 5), (1, 4, 3, 5))
    .set 78 (.ein [(16, [0, 1, 2, 3]), (45, [4, 0, 2, 5])] [1, 4, 3, 5]) 1 1,
    -- 477: tmp71 = einsum(v.xov, (0, 1, 2), tmp70, (3, 4, 0), (3, 1, 2, 4))
    .set 79 (.ein [(1, [0, 1, 2]), (47, [3, 4, 0])] [3, 1, 2, 4]) 1 1,
    -- 478: del tmp70
    .del 47,
    -- 479: tmp66 = einsum(f.vv, (0, 1), l2, (2, 1, 3, 4), (3, 4, 0, 2))
    .set 80 (.ein [(8, [0, 1]), (3, [2, 1, 3, 4])] [3, 4, 0, 2]) 1 1,
    -- 480: tmp76 = einsum(tmp75, (0, 1, 2, 3), tmp34, (0, 4, 1, 5), (4, 2, 5, 3))
    .set 81 (.ein [(48, [0, 1, 2, 3]), (16, [0, 4, 1, 5])] [4, 2, 5, 3]) 1 1,
    -- 481: tmp68 = einsum(l2, (0, 1, 2, 3), tmp67, (4, 3), (4, 2, 0, 1))
    .set 82 (.ein [(3, [0, 1, 2, 3]), (49, [4, 3])] [4, 2, 0, 1]) 1 1,
    -- 482: del tmp67
    .del 49,
    -- 483: tmp81 = einsum(tmp80, (0, 1, 2, 3), l2, (4, 2, 0, 5), (5, 1, 4, 3))
    .set 83 (.ein [(50, [0, 1, 2, 3]), (3, [4, 2, 0, 5])] [5, 1, 4, 3]) 1 1,
    -- 484: del tmp80
    .del 50,
    -- 485: tmp72 = einsum(l2, (0, 1, 2, 3), tmp22, (2, 3, 4, 5), (4, 5, 0, 1))
    .set 84 (.ein [(3, [0, 1, 2, 3]), (51, [2, 3, 4, 5])] [4, 5, 0, 1]) 1 1,
    -- 486: tmp69 = einsum(tmp34, (0, 1, 2, 3), f.ov, (2, 4), (0, 1, 4, 3))
    .set 85 (.ein [(16, [0, 1, 2, 3]), (7, [2, 4])] [0, 1, 4, 3]) 1 1,
    -- 487: tmp113 = einsum(v.xov, (0, 1, 2), tmp112, (3, 4, 0), (1, 3, 2, 4)) * 2
    .set 86 (.ein [(1, [0, 1, 2]), (52, [3, 4, 0])] [1, 3, 2, 4]) 2 1,
    -- 488: del tmp112
    .del 52,
    -- 489: tmp109 = einsum(l1, (0, 1), tmp75, (1, 2, 3, 4), (2, 3, 0, 4))
    .set 87 (.ein [(6, [0, 1]), (48, [1, 2, 3, 4])] [2, 3, 0, 4]) 1 1,
    -- 490: tmp111 = einsum(tmp110, (0, 1, 2), v.xov, (2, 3, 4), (3, 0, 4, 1))
    .set 88 (.ein [(53, [0, 1, 2]), (1, [2, 3, 4])] [3, 0, 4, 1]) 1 1,
    -- 491: del tmp110
    .del 53,
    -- 492: tmp107 = einsum(tmp34, (0, 1, 2, 3), tmp103, (2, 4), (0, 1, 3, 4))
    .set 89 (.ein [(16, [0, 1, 2, 3]), (24, [2, 4])] [0, 1, 3, 4]) 1 1,
    -- 493: tmp85 = einsum(tmp34, (0, 1, 2, 3), tmp3, (2, 4, 3, 5), (1, 0, 5, 4))
    .set 90 (.ein [(16, [0, 1, 2, 3]), (43, [2, 4, 3, 5])] [1, 0, 5, 4]) 1 1,
    -- 494: del tmp3
    .del 43,
    -- 495: tmp92 = einsum(l2, (0, 1, 2, 3), tmp91, (3, 4, 1, 5), (2, 4, 0, 5))
    .set 91 (.ein [(3, [0, 1, 2, 3]), (54, [3, 4, 1, 5])] [2, 4, 0, 5]) 1 1,
    -- 496: del tmp91
    .del 54,
    -- 497: tmp106 = einsum(l2, (0, 1, 2, 3), tmp105, (2, 4), (3, 4, 0, 1))
    .set 92 (.ein [(3, [0, 1, 2, 3]), (55, [2, 4])] [3, 4, 0, 1]) 1 1,
    -- 498: del tmp105
    .del 55,
    -- 499: tmp88 = einsum(tmp34, (0, 1, 2, 3), tmp75, (1, 2, 4, 5), (0, 4, 3, 5))
    .set 93 (.ein [(16, [0, 1, 2, 3]), (48, [1, 2, 4, 5])] [0, 4, 3, 5]) 1 1,
    -- 500: del tmp75
    .del 48,
    -- 501: tmp84 = einsum(l2, (0, 1, 2, 3), tmp63, (4, 1), (2, 3, 0, 4))
    .set 94 (.ein [(3, [0, 1, 2, 3]), (56, [4, 1])] [2, 3, 0, 4]) 1 1,
    -- 502: tmp87 = einsum(tmp5, (0, 1, 2, 3), tmp86, (4, 0, 5, 3), (4, 1, 5, 2))
    .set 95 (.ein [(20, [0, 1, 2, 3]), (57, [4, 0, 5, 3])] [4, 1, 5, 2]) 1 1,
    -- 503: del tmp86
    .del 57,
    -- 504: tmp102 = einsum(tmp101, (0, 1, 2), v.xov, (2, 3, 4), (3, 0, 4, 1))
    .set 96 (.ein [(58, [0, 1, 2]), (1, [2, 3, 4])] [3, 0, 4, 1]) 1 1,
    -- 505: del tmp101
    .del 58,
    -- 506: tmp83 = einsum(tmp34, (0, 1, 2, 3), tmp73, (4, 1, 2, 5), (0, 4, 3, 5))
    .set 97 (.ein [(16, [0, 1, 2, 3]), (45, [4, 1, 2, 5])] [0, 4, 3, 5]) 1 1,
    -- 507: del tmp73
    .del 45,
    -- 508: tmp119 = einsum(l2, (0, 1, 2, 3), tmp118, (2, 4), (3, 4, 0, 1)) * 2
    .set 98 (.ein [(3, [0, 1, 2, 3]), (59, [2, 4])] [3, 4, 0, 1]) 2 1,
    -- 509: del tmp118
    .del 59,
    -- 510: tmp116 = einsum(l2, (0, 1, 2, 3), tmp115, (4, 1), (3, 2, 0, 4)) * 2
    .set 99 (.ein [(3, [0, 1, 2, 3]), (60, [4, 1])] [3, 2, 0, 4]) 2 1,
    -- 511: del tmp115
    .del 60,
    -- 512: tmp59 = np.copy(f.ov)
    .set 100 (.cp 7) 1 1,
    -- 513: tmp59 += tmp10 * 2
    .add 100 (.cp 14) 2 1,
    -- 514: del tmp10
    .del 14,
    -- 515: tmp59 += tmp12 * -1
    .add 100 (.cp 15) (-1) 1,
    -- 516: del tmp12
    .del 15,
    -- 517: tmp35 = np.copy(tmp34) * -1
    .set 101 (.cp 16) (-1) 1,
    -- 518: tmp35 += np.transpose(tmp34, (1, 0, 2, 3)) * 2
    .add 101 (.tr 16 [1, 0, 2, 3]) 2 1,
    -- 519: tmp32 = np.copy(np.transpose(v.xov, (1, 2, 0)))
    .set 102 (.tr 1 [1, 2, 0]) 1 1,
    -- 520: tmp32 += tmp0
    .add 102 (.cp 18) 1 1,
    -- 521: tmp32 += tmp19
    .add 102 (.cp 29) 1 1,
    -- 522: tmp36 = np.copy(tmp34)
    .set 103 (.cp 16) 1 1,
    -- 523: tmp36 += np.transpose(tmp34, (1, 0, 2, 3)) * -0.5
    .add 103 (.tr 16 [1, 0, 2, 3]) (-1) 2,
    -- 524: tmp33 = np.copy(np.transpose(l2, (3, 2, 0, 1)))
    .set 104 (.tr 3 [3, 2, 0, 1]) 1 1,
    -- 525: tmp33 += np.transpose(l2, (2, 3, 0, 1)) * -0.5
    .add 104 (.tr 3 [2, 3, 0, 1]) (-1) 2,
    -- 526: tmp38 = np.copy(np.transpose(v.xoo, (1, 2, 0)))
    .set 105 (.tr 5 [1, 2, 0]) 1 1,
    -- 527: tmp38 += tmp11
    .add 105 (.cp 11) 1 1,
    -- 528: tmp8 = np.copy(tmp4)
    .set 106 (.cp 62) 1 1,
    -- 529: del tmp4
    .del 62,
    -- 530: tmp8 += tmp7 * -1
    .add 106 (.cp 61) (-1) 1,
    -- 531: del tmp7
    .del 61,
    -- 532: tmp2 = einsum(f.ov, (0, 1), t2, (2, 3, 4, 1), (0, 2, 3, 4))
    .set 107 (.ein [(7, [0, 1]), (2, [2, 3, 4, 1])] [0, 2, 3, 4]) 1 1,
    -- 533: tmp1 = einsum(v.xoo, (0, 1, 2), tmp0, (3, 4, 0), (3, 1, 2, 4))
    .set 108 (.ein [(5, [0, 1, 2]), (18, [3, 4, 0])] [3, 1, 2, 4]) 1 1,
    -- 534: tmp14 = einsum(t2, (0, 1, 2, 3), tmp13, (4, 2), (0, 1, 4, 3)) * 2
    .set 109 (.ein [(2, [0, 1, 2, 3]), (63, [4, 2])] [0, 1, 4, 3]) 2 1,
    -- 535: del tmp13
    .del 63,
    -- 536: tmp23 = np.copy(np.transpose(tmp21, (3, 2, 1, 0)))
    .set 110 (.tr 64 [3, 2, 1, 0]) 1 1,
    -- 537: tmp23 += np.transpose(tmp22, (1, 0, 3, 2))
    .add 110 (.tr 51 [1, 0, 3, 2]) 1 1,
    -- 538: tmp23 += np.transpose(tmp22, (3, 0, 2, 1)) * -2
    .add 110 (.tr 51 [3, 0, 2, 1]) (-2) 1,
    -- 539: tmp20 = np.copy(np.transpose(v.xov, (1, 2, 0)))
    .set 111 (.tr 1 [1, 2, 0]) 1 1,
    -- 540: tmp20 += tmp19
    .add 111 (.cp 29) 1 1,
    -- 541: tmp16 = einsum(tmp15, (0, 1, 2), v.xov, (2, 3, 4), (3, 0, 1, 4))
    .set 112 (.ein [(65, [0, 1, 2]), (1, [2, 3, 4])] [3, 0, 1, 4]) 1 1,
    -- 542: tmp56 = np.copy(np.transpose(l1, (1, 0)))
    .set 113 (.tr 6 [1, 0]) 1 1,
    -- 543: tmp56 += t1
    .add 113 (.cp 0) 1 1,
    -- 544: tmp56 += einsum(tmp54, (0, 1, 2, 3), tmp34, (1, 0, 4, 3), (4, 2)) * -1
    .add 113 (.ein [(67, [0, 1, 2, 3]), (16, [1, 0, 4, 3])] [4, 2]) (-1) 1,
    -- 545: tmp56 += einsum(l1, (0, 1), tmp29, (1, 2, 3, 0), (2, 3)) * 2
    .add 113 (.ein [(6, [0, 1]), (68, [1, 2, 3, 0])] [2, 3]) 2 1,
    -- 546: tmp56 += einsum(tmp55, (0, 1), t1, (0, 2), (1, 2)) * -1
    .add 113 (.ein [(66, [0, 1]), (0, [0, 2])] [1, 2]) (-1) 1,
    -- 547: del tmp55
    .del 66,
    -- 548: tmp57 = np.copy(tmp48)
    .set 114 (.cp 22) 1 1,
    -- 549: del tmp48
    .del 22,
    -- 550: tmp57 += einsum(l2, (0, 1, 2, 3), tmp54, (2, 4, 0, 1), (4, 3))
    .add 114 (.ein [(3, [0, 1, 2, 3]), (67, [2, 4, 0, 1])] [4, 3]) 1 1,
    -- 551: del tmp54
    .del 67,
    -- 552: tmp53 = einsum(t1, (0, 1), l1, (2, 0), (2, 1)) * 0.5
    .set 115 (.ein [(0, [0, 1]), (6, [2, 0])] [2, 1]) 1 2,
    -- 553: tmp53 += einsum(tmp17, (0, 1, 2, 3), l2, (4, 2, 1, 0), (4, 3))
    .add 115 (.ein [(13, [0, 1, 2, 3]), (3, [4, 2, 1, 0])] [4, 3]) 1 1,
    -- 554: tmp47 = np.copy(np.transpose(tmp45, (1, 0, 2, 3))) * 2
    .set 116 (.tr 69 [1, 0, 2, 3]) 2 1,
    -- 555: tmp47 += np.transpose(tmp45, (1, 0, 3, 2)) * -1
    .add 116 (.tr 69 [1, 0, 3, 2]) (-1) 1,
    -- 556: tmp47 += tmp46 * -1
    .add 116 (.cp 70) (-1) 1,
    -- 557: tmp47 += np.transpose(tmp46, (0, 1, 3, 2)) * 2
    .add 116 (.tr 70 [0, 1, 3, 2]) 2 1,
    -- 558: tmp51 = np.copy(t1) * -0.5
    .set 117 (.cp 0) (-1) 2,
    -- 559: tmp51 += einsum(tmp17, (0, 1, 2, 3), tmp34, (1, 0, 4, 3), (4, 2))
    .add 117 (.ein [(13, [0, 1, 2, 3]), (16, [1, 0, 4, 3])] [4, 2]) 1 1,
    -- 560: del tmp34
    .del 16,
    -- 561: tmp51 += einsum(l1, (0, 1), tmp18, (1, 2, 3, 0), (2, 3)) * -0.5
    .add 117 (.ein [(6, [0, 1]), (19, [1, 2, 3, 0])] [2, 3]) (-1) 2,
    -- 562: tmp51 += einsum(t1, (0, 1), tmp50, (0, 2), (2, 1))
    .add 117 (.ein [(0, [0, 1]), (33, [0, 2])] [2, 1]) 1 1,
    -- 563: tmp44 = np.copy(tmp42) * -1
    .set 118 (.cp 73) (-1) 1,
    -- 564: tmp44 += np.transpose(tmp42, (0, 2, 1, 3)) * 0.5
    .add 118 (.tr 73 [0, 2, 1, 3]) 1 2,
    -- 565: del tmp42
    .del 73,
    -- 566: tmp44 += einsum(t2, (0, 1, 2, 3), tmp43, (1, 4, 5, 3), (4, 5, 0, 2)) * 0.5
    .add 118 (.ein [(2, [0, 1, 2, 3]), (71, [1, 4, 5, 3])] [4, 5, 0, 2]) 1 2,
    -- 567: del tmp43
    .del 71,
    -- 568: tmp44 += einsum(t2, (0, 1, 2, 3), tmp41, (1, 4, 5, 2), (4, 5, 0, 3))
    .add 118 (.ein [(2, [0, 1, 2, 3]), (72, [1, 4, 5, 2])] [4, 5, 0, 3]) 1 1,
    -- 569: tmp40 = einsum(tmp18, (0, 1, 2, 3), l2, (4, 2, 0, 5), (5, 1, 4, 3))
    .set 119 (.ein [(19, [0, 1, 2, 3]), (3, [4, 2, 0, 5])] [5, 1, 4, 3]) 1 1,
    -- 570: del tmp18
    .del 19,
    -- 571: tmp40 += einsum(l2, (0, 1, 2, 3), tmp17, (3, 4, 1, 5), (2, 4, 0, 5)) * 2
    .add 119 (.ein [(3, [0, 1, 2, 3]), (13, [3, 4, 1, 5])] [2, 4, 0, 5]) 2 1,
    -- 572: tmp30 = np.copy(np.transpose(tmp21, (3, 2, 1, 0)))
    .set 120 (.tr 64 [3, 2, 1, 0]) 1 1,
    -- 573: tmp30 += np.transpose(tmp22, (1, 0, 3, 2))
    .add 120 (.tr 51 [1, 0, 3, 2]) 1 1,
    -- 574: tmp30 += np.transpose(tmp22, (3, 0, 2, 1)) * -0.5
    .add 120 (.tr 51 [3, 0, 2, 1]) (-1) 2,
    -- 575: del tmp22
    .del 51,
    -- 576: tmp28 = np.copy(tmp25) * 2
    .set 121 (.cp 75) 2 1,
    -- 577: del tmp25
    .del 75,
    -- 578: tmp28 += tmp27 * -2
    .add 121 (.cp 74) (-2) 1,
    -- 579: del tmp27
    .del 74,
    -- 580: tmp126 = np.copy(np.transpose(tmp21, (3, 2, 1, 0)))
    .set 122 (.tr 64 [3, 2, 1, 0]) 1 1,
    -- 581: del tmp21
    .del 64,
    -- 582: tmp126 += np.transpose(tmp6, (0, 3, 1, 2))
    .add 122 (.tr 42 [0, 3, 1, 2]) 1 1,
    -- 583: del tmp6
    .del 42,
    -- 584: tmp126 += np.transpose(tmp26, (0, 3, 1, 2))
    .add 122 (.tr 44 [0, 3, 1, 2]) 1 1,
    -- 585: del tmp26
    .del 44,
    -- 586: tmp125 = np.copy(tmp122)
    .set 123 (.cp 76) 1 1,
    -- 587: del tmp122
    .del 76,
    -- 588: tmp125 += tmp124
    .add 123 (.cp 77) 1 1,
    -- 589: del tmp124
    .del 77,
    -- 590: tmp127 = np.copy(np.transpose(tmp45, (1, 0, 3, 2)))
    .set 124 (.tr 69 [1, 0, 3, 2]) 1 1,
    -- 591: del tmp45
    .del 69,
    -- 592: tmp127 += tmp46
    .add 124 (.cp 70) 1 1,
    -- 593: del tmp46
    .del 70,
    -- 594: tmp82 = np.copy(tmp66)
    .set 125 (.cp 80) 1 1,
    -- 595: del tmp66
    .del 80,
    -- 596: tmp82 += tmp68 * -1
    .add 125 (.cp 82) (-1) 1,
    -- 597: del tmp68
    .del 82,
    -- 598: tmp82 += tmp69 * -1
    .add 125 (.cp 85) (-1) 1,
    -- 599: del tmp69
    .del 85,
    -- 600: tmp82 += tmp71
    .add 125 (.cp 79) 1 1,
    -- 601: del tmp71
    .del 79,
    -- 602: tmp82 += tmp72
    .add 125 (.cp 84) 1 1,
    -- 603: del tmp72
    .del 84,
    -- 604: tmp82 += tmp74
    .add 125 (.cp 78) 1 1,
    -- 605: del tmp74
    .del 78,
    -- 606: tmp82 += tmp76
    .add 125 (.cp 81) 1 1,
    -- 607: del tmp76
    .del 81,
    -- 608: tmp82 += tmp81 * -1
    .add 125 (.cp 83) (-1) 1,
    -- 609: del tmp81
    .del 83,
    -- 610: tmp114 = np.copy(tmp109)
    .set 126 (.cp 87) 1 1,
    -- 611: del tmp109
    .del 87,
    -- 612: tmp114 += np.transpose(tmp111, (1, 0, 2, 3))
    .add 126 (.tr 88 [1, 0, 2, 3]) 1 1,
    -- 613: del tmp111
    .del 88,
    -- 614: tmp114 += np.transpose(tmp113, (0, 1, 3, 2))
    .add 126 (.tr 86 [0, 1, 3, 2]) 1 1,
    -- 615: del tmp113
    .del 86,
    -- 616: tmp108 = einsum(l1, (0, 1), f.ov, (2, 3), (2, 1, 3, 0))
    .set 127 (.ein [(6, [0, 1]), (7, [2, 3])] [2, 1, 3, 0]) 1 1,
    -- 617: tmp108 += tmp83
    .add 127 (.cp 97) 1 1,
    -- 618: del tmp83
    .del 97,
    -- 619: tmp108 += tmp84 * 2
    .add 127 (.cp 94) 2 1,
    -- 620: del tmp84
    .del 94,
    -- 621: tmp108 += tmp85 * -1
    .add 127 (.cp 90) (-1) 1,
    -- 622: del tmp85
    .del 90,
    -- 623: tmp108 += tmp87
    .add 127 (.cp 95) 1 1,
    -- 624: del tmp87
    .del 95,
    -- 625: tmp108 += tmp88
    .add 127 (.cp 93) 1 1,
    -- 626: del tmp88
    .del 93,
    -- 627: tmp108 += tmp92 * -1
    .add 127 (.cp 91) (-1) 1,
    -- 628: del tmp92
    .del 91,
    -- 629: tmp108 += np.transpose(tmp102, (1, 0, 3, 2)) * -1
    .add 127 (.tr 96 [1, 0, 3, 2]) (-1) 1,
    -- 630: del tmp102
    .del 96,
    -- 631: tmp108 += np.transpose(tmp106, (0, 1, 3, 2))
    .add 127 (.tr 92 [0, 1, 3, 2]) 1 1,
    -- 632: del tmp106
    .del 92,
    -- 633: tmp108 += tmp107 * -1
    .add 127 (.cp 89) (-1) 1,
    -- 634: del tmp107
    .del 89,
    -- 635: tmp108 += einsum(l1, (0, 1), tmp103, (2, 3), (1, 2, 0, 3))
    .add 127 (.ein [(6, [0, 1]), (24, [2, 3])] [1, 2, 0, 3]) 1 1,
    -- 636: del tmp103
    .del 24,
    -- 637: tmp65 = einsum(v.xvv, (0, 1, 2), v.xvv, (0, 3, 4), (1, 3, 4, 2))
    .set 128 (.ein [(4, [0, 1, 2]), (4, [0, 3, 4])] [1, 3, 4, 2]) 1 1,
    -- 638: tmp121 = einsum(l2, (0, 1, 2, 3), f.oo, (4, 3), (4, 2, 0, 1))
    .set 129 (.ein [(3, [0, 1, 2, 3]), (9, [4, 3])] [4, 2, 0, 1]) 1 1,
    -- 639: tmp120 = np.copy(np.transpose(tmp116, (1, 0, 2, 3)))
    .set 130 (.tr 99 [1, 0, 2, 3]) 1 1,
    -- 640: del tmp116
    .del 99,
    -- 641: tmp120 += np.transpose(tmp119, (0, 1, 3, 2))
    .add 130 (.tr 98 [0, 1, 3, 2]) 1 1,
    -- 642: del tmp119
    .del 98,
    -- 643: tmp62 = np.copy(f.oo)
    .set 131 (.cp 9) 1 1,
    -- 644: tmp62 += np.transpose(tmp60, (1, 0)) * 2
    .add 131 (.tr 40 [1, 0]) 2 1,
    -- 645: del tmp60
    .del 40,
    -- 646: tmp62 += tmp61 * -1
    .add 131 (.cp 35) (-1) 1,
    -- 647: del tmp61
    .del 35,
    -- 648: tmp62 += einsum(v.xov, (0, 1, 2), tmp19, (3, 2, 0), (3, 1))
    .add 131 (.ein [(1, [0, 1, 2]), (29, [3, 2, 0])] [3, 1]) 1 1,
    -- 649: del tmp19
    .del 29,
    -- 650: tmp62 += einsum(tmp59, (0, 1), t1, (2, 1), (2, 0))
    .add 131 (.ein [(100, [0, 1]), (0, [2, 1])] [2, 0]) 1 1,
    -- 651: tmp39 = einsum(tmp32, (0, 1, 2), tmp33, (0, 3, 4, 1), (3, 4, 2)) * -2
    .set 132 (.ein [(102, [0, 1, 2]), (104, [0, 3, 4, 1])] [3, 4, 2]) (-2) 1,
    -- 652: del tmp33
    .del 104,
    -- 653: tmp39 += einsum(tmp35, (0, 1, 2, 3), v.xoo, (4, 0, 2), (1, 3, 4))
    .add 132 (.ein [(101, [0, 1, 2, 3]), (5, [4, 0, 2])] [1, 3, 4]) 1 1,
    -- 654: del tmp35
    .del 101,
    -- 655: tmp39 += einsum(tmp36, (0, 1, 2, 3), tmp11, (1, 2, 4), (0, 3, 4)) * 2
    .add 132 (.ein [(103, [0, 1, 2, 3]), (11, [1, 2, 4])] [0, 3, 4]) 2 1,
    -- 656: del tmp36
    .del 103,
    -- 657: tmp39 += einsum(v.xov, (0, 1, 2), tmp37, (3, 2), (1, 3, 0))
    .add 132 (.ein [(1, [0, 1, 2]), (32, [3, 2])] [1, 3, 0]) 1 1,
    -- 658: del tmp37
    .del 32,
    -- 659: tmp39 += einsum(tmp38, (0, 1, 2), l1, (3, 0), (1, 3, 2))
    .add 132 (.ein [(105, [0, 1, 2]), (6, [3, 0])] [1, 3, 2]) 1 1,
    -- 660: del tmp38
    .del 105,
    -- 661: tmp24 = np.copy(np.transpose(tmp1, (0, 2, 1, 3))) * -2
    .set 133 (.tr 108 [0, 2, 1, 3]) (-2) 1,
    -- 662: tmp24 += np.transpose(tmp2, (1, 0, 2, 3)) * -2
    .add 133 (.tr 107 [1, 0, 2, 3]) (-2) 1,
    -- 663: tmp24 += np.transpose(tmp2, (2, 0, 1, 3))
    .add 133 (.tr 107 [2, 0, 1, 3]) 1 1,
    -- 664: del tmp2
    .del 107,
    -- 665: tmp24 += np.transpose(tmp8, (0, 2, 1, 3))
    .add 133 (.tr 106 [0, 2, 1, 3]) 1 1,
    -- 666: tmp24 += np.transpose(tmp8, (1, 2, 0, 3)) * -2
    .add 133 (.tr 106 [1, 2, 0, 3]) (-2) 1,
    -- 667: del tmp8
    .del 106,
    -- 668: tmp24 += np.transpose(tmp14, (1, 2, 0, 3)) * -1
    .add 133 (.tr 109 [1, 2, 0, 3]) (-1) 1,
    -- 669: tmp24 += np.transpose(tmp14, (0, 2, 1, 3)) * 0.5
    .add 133 (.tr 109 [0, 2, 1, 3]) 1 2,
    -- 670: del tmp14
    .del 109,
    -- 671: tmp24 += einsum(tmp17, (0, 1, 2, 3), tmp16, (4, 0, 5, 3), (5, 4, 1, 2)) * 2
    .add 133 (.ein [(13, [0, 1, 2, 3]), (112, [4, 0, 5, 3])] [5, 4, 1, 2]) 2 1,
    -- 672: del tmp17
    .del 13,
    -- 673: tmp24 += einsum(tmp15, (0, 1, 2), tmp20, (3, 4, 2), (1, 0, 3, 4))
    .add 133 (.ein [(65, [0, 1, 2]), (111, [3, 4, 2])] [1, 0, 3, 4]) 1 1,
    -- 674: tmp24 += einsum(t1, (0, 1), tmp23, (0, 2, 3, 4), (2, 3, 4, 1)) * -1
    .add 133 (.ein [(0, [0, 1]), (110, [0, 2, 3, 4])] [2, 3, 4, 1]) (-1) 1,
    -- 675: del tmp23
    .del 110,
    -- 676: tmp64 = np.copy(f.vv)
    .set 134 (.cp 8) 1 1,
    -- 677: tmp64 += np.transpose(tmp63, (1, 0)) * 2
    .add 134 (.tr 56 [1, 0]) 2 1,
    -- 678: del tmp63
    .del 56,
    -- 679: tmp58 = einsum(tmp53, (0, 1), v.xvv, (2, 1, 0), (2,)) * 2
    .set 135 (.ein [(115, [0, 1]), (4, [2, 1, 0])] [2]) 2 1,
    -- 680: del tmp53
    .del 115,
    -- 681: tmp58 += einsum(tmp56, (0, 1), v.xov, (2, 0, 1), (2,))
    .add 135 (.ein [(113, [0, 1]), (1, [2, 0, 1])] [2]) 1 1,
    -- 682: del tmp56
    .del 113,
    -- 683: tmp58 += einsum(tmp57, (0, 1), v.xoo, (2, 1, 0), (2,)) * -1
    .add 135 (.ein [(114, [0, 1]), (5, [2, 1, 0])] [2]) (-1) 1,
    -- 684: del tmp57
    .del 114,
    -- 685: tmp52 = einsum(tmp0, (0, 1, 2), l1, (1, 3), (0, 3, 2)) * -1
    .set 136 (.ein [(18, [0, 1, 2]), (6, [1, 3])] [0, 3, 2]) (-1) 1,
    -- 686: del tmp0
    .del 18,
    -- 687: tmp52 += einsum(v.xvv, (0, 1, 2), tmp40, (3, 4, 2, 1), (4, 3, 0)) * -1
    .add 136 (.ein [(4, [0, 1, 2]), (119, [3, 4, 2, 1])] [4, 3, 0]) (-1) 1,
    -- 688: del tmp40
    .del 119,
    -- 689: tmp52 += einsum(tmp32, (0, 1, 2), tmp41, (3, 0, 4, 1), (4, 3, 2)) * -2
    .add 136 (.ein [(102, [0, 1, 2]), (72, [3, 0, 4, 1])] [4, 3, 2]) (-2) 1,
    -- 690: del tmp41, tmp32
    .del 72,
    .del 102,
    -- 691: tmp52 += einsum(tmp44, (0, 1, 2, 3), v.xov, (4, 1, 3), (2, 0, 4)) * 2
    .add 136 (.ein [(118, [0, 1, 2, 3]), (1, [4, 1, 3])] [2, 0, 4]) 2 1,
    -- 692: del tmp44
    .del 118,
    -- 693: tmp52 += einsum(tmp47, (0, 1, 2, 3), tmp11, (0, 3, 4), (2, 1, 4))
    .add 136 (.ein [(116, [0, 1, 2, 3]), (11, [0, 3, 4])] [2, 1, 4]) 1 1,
    -- 694: del tmp11
    .del 11,
    -- 695: tmp52 += einsum(tmp47, (0, 1, 2, 3), v.xoo, (4, 0, 3), (2, 1, 4))
    .add 136 (.ein [(116, [0, 1, 2, 3]), (5, [4, 0, 3])] [2, 1, 4]) 1 1,
    -- 696: del tmp47
    .del 116,
    -- 697: tmp52 += einsum(v.xov, (0, 1, 2), tmp51, (3, 2), (3, 1, 0)) * 2
    .add 136 (.ein [(1, [0, 1, 2]), (117, [3, 2])] [3, 1, 0]) 2 1,
    -- 698: del tmp51
    .del 117,
    -- 699: tmp52 += einsum(tmp50, (0, 1), v.xoo, (2, 3, 0), (1, 3, 2)) * 2
    .add 136 (.ein [(33, [0, 1]), (5, [2, 3, 0])] [1, 3, 2]) 2 1,
    -- 700: tmp31 = np.copy(np.transpose(tmp1, (0, 2, 1, 3)))
    .set 137 (.tr 108 [0, 2, 1, 3]) 1 1,
    -- 701: del tmp1
    .del 108,
    -- 702: tmp31 += np.transpose(tmp28, (0, 2, 1, 3)) * -1
    .add 137 (.tr 121 [0, 2, 1, 3]) (-1) 1,
    -- 703: tmp31 += np.transpose(tmp28, (1, 2, 0, 3)) * 0.5
    .add 137 (.tr 121 [1, 2, 0, 3]) 1 2,
    -- 704: del tmp28
    .del 121,
    -- 705: tmp31 += einsum(tmp16, (0, 1, 2, 3), tmp29, (1, 4, 5, 3), (2, 0, 4, 5)) * 2
    .add 137 (.ein [(112, [0, 1, 2, 3]), (68, [1, 4, 5, 3])] [2, 0, 4, 5]) 2 1,
    -- 706: del tmp29, tmp16
    .del 68,
    .del 112,
    -- 707: tmp31 += einsum(tmp15, (0, 1, 2), tmp20, (3, 4, 2), (1, 0, 3, 4)) * -2
    .add 137 (.ein [(65, [0, 1, 2]), (111, [3, 4, 2])] [1, 0, 3, 4]) (-2) 1,
    -- 708: del tmp15, tmp20
    .del 65,
    .del 111,
    -- 709: tmp31 += einsum(t1, (0, 1), tmp30, (0, 2, 3, 4), (2, 3, 4, 1)) * 2
    .add 137 (.ein [(0, [0, 1]), (120, [0, 2, 3, 4])] [2, 3, 4, 1]) 2 1,
    -- 710: del tmp30
    .del 120,
    -- 711: l2new = np.copy(np.transpose(tmp5, (3, 2, 1, 0)))
    .set 138 (.tr 20 [3, 2, 1, 0]) 1 1,
    -- 712: l2new += einsum(tmp65, (0, 1, 2, 3), l2, (3, 2, 4, 5), (0, 1, 4, 5))
    .add 138 (.ein [(128, [0, 1, 2, 3]), (3, [3, 2, 4, 5])] [0, 1, 4, 5]) 1 1,
    -- 713: del tmp65
    .del 128,
    -- 714: l2new += np.transpose(tmp82, (3, 2, 0, 1))
    .add 138 (.tr 125 [3, 2, 0, 1]) 1 1,
    -- 715: l2new += np.transpose(tmp82, (2, 3, 1, 0))
    .add 138 (.tr 125 [2, 3, 1, 0]) 1 1,
    -- 716: del tmp82
    .del 125,
    -- 717: l2new += np.transpose(tmp108, (2, 3, 0, 1))
    .add 138 (.tr 127 [2, 3, 0, 1]) 1 1,
    -- 718: l2new += np.transpose(tmp108, (3, 2, 1, 0))
    .add 138 (.tr 127 [3, 2, 1, 0]) 1 1,
    -- 719: del tmp108
    .del 127,
    -- 720: l2new += np.transpose(tmp114, (3, 2, 0, 1)) * -1
    .add 138 (.tr 126 [3, 2, 0, 1]) (-1) 1,
    -- 721: l2new += np.transpose(tmp114, (2, 3, 1, 0)) * -1
    .add 138 (.tr 126 [2, 3, 1, 0]) (-1) 1,
    -- 722: del tmp114
    .del 126,
    -- 723: l2new += np.transpose(tmp120, (2, 3, 0, 1)) * -1
    .add 138 (.tr 130 [2, 3, 0, 1]) (-1) 1,
    -- 724: l2new += np.transpose(tmp120, (3, 2, 1, 0)) * -1
    .add 138 (.tr 130 [3, 2, 1, 0]) (-1) 1,
    -- 725: del tmp120
    .del 130,
    -- 726: l2new += np.transpose(tmp121, (3, 2, 0, 1)) * -1
    .add 138 (.tr 129 [3, 2, 0, 1]) (-1) 1,
    -- 727: l2new += np.transpose(tmp121, (2, 3, 1, 0)) * -1
    .add 138 (.tr 129 [2, 3, 1, 0]) (-1) 1,
    -- 728: del tmp121
    .del 129,
    -- 729: l2new += np.transpose(tmp125, (2, 3, 0, 1)) * -1
    .add 138 (.tr 123 [2, 3, 0, 1]) (-1) 1,
    -- 730: l2new += np.transpose(tmp125, (3, 2, 1, 0)) * -1
    .add 138 (.tr 123 [3, 2, 1, 0]) (-1) 1,
    -- 731: del tmp125
    .del 123,
    -- 732: l2new += einsum(tmp126, (0, 1, 2, 3), l2, (4, 5, 2, 0), (4, 5, 1, 3))
    .add 138 (.ein [(122, [0, 1, 2, 3]), (3, [4, 5, 2, 0])] [4, 5, 1, 3]) 1 1,
    -- 733: del tmp126
    .del 122,
    -- 734: l2new += einsum(tmp5, (0, 1, 2, 3), tmp127, (4, 5, 0, 1), (3, 2, 5, 4))
    .add 138 (.ein [(20, [0, 1, 2, 3]), (124, [4, 5, 0, 1])] [3, 2, 5, 4]) 1 1,
    -- 735: del tmp5, tmp127
    .del 20,
    .del 124,
    -- 736: l1new = np.copy(np.transpose(f.ov, (1, 0)))
    .set 139 (.tr 7 [1, 0]) 1 1,
    -- 737: l1new += einsum(l2, (0, 1, 2, 3), tmp24, (3, 4, 2, 1), (0, 4))
    .add 139 (.ein [(3, [0, 1, 2, 3]), (133, [3, 4, 2, 1])] [0, 4]) 1 1,
    -- 738: del tmp24
    .del 133,
    -- 739: l1new += einsum(l2, (0, 1, 2, 3), tmp31, (2, 4, 3, 1), (0, 4))
    .add 139 (.ein [(3, [0, 1, 2, 3]), (137, [2, 4, 3, 1])] [0, 4]) 1 1,
    -- 740: del tmp31
    .del 137,
    -- 741: l1new += einsum(v.xvv, (0, 1, 2), tmp39, (3, 2, 0), (1, 3)) * -1
    .add 139 (.ein [(4, [0, 1, 2]), (132, [3, 2, 0])] [1, 3]) (-1) 1,
    -- 742: del tmp39
    .del 132,
    -- 743: l1new += einsum(tmp52, (0, 1, 2), v.xov, (2, 0, 3), (3, 1))
    .add 139 (.ein [(136, [0, 1, 2]), (1, [2, 0, 3])] [3, 1]) 1 1,
    -- 744: del tmp52
    .del 136,
    -- 745: l1new += einsum(tmp58, (0,), v.xov, (0, 1, 2), (2, 1)) * 2
    .add 139 (.ein [(135, [0]), (1, [0, 1, 2])] [2, 1]) 2 1,
    -- 746: del tmp58
    .del 135,
    -- 747: l1new += einsum(tmp59, (0, 1), tmp50, (2, 0), (1, 2)) * -2
    .add 139 (.ein [(100, [0, 1]), (33, [2, 0])] [1, 2]) (-2) 1,
    -- 748: del tmp50, tmp59
    .del 33,
    .del 100,
    -- 749: l1new += einsum(tmp62, (0, 1), l1, (2, 0), (2, 1)) * -1
    .add 139 (.ein [(131, [0, 1]), (6, [2, 0])] [2, 1]) (-1) 1,
    -- 750: del tmp62
    .del 131,
    -- 751: l1new += einsum(tmp64, (0, 1), l1, (0, 2), (1, 2))
    .add 139 (.ein [(134, [0, 1]), (6, [0, 2])] [1, 2]) 1 1,
    -- 752: del tmp64
    .del 134
  ]
  ret := [(chars! "l1new", 139), (chars! "l2new", 138)]

end Ebcc.Gen.RDFCCSD
