import Verif.Model.GenCode
/-!
Functions of `ebcc/codegen/RDFDCSD.py`, written by `tools/gencode.py`.  Comments give the
number and the text of the line of each statement.
-/

set_option maxRecDepth 100000

namespace Ebcc.Gen.RDFDCSD

/-- codegen/RDFDCSD.py:19-56 `energy`. -/
def energy : GenFun where
  args := [chars! "v.xov", chars! "t1", chars! "t2", chars! "f.ov"]
  body := [
    -- 40: tmp3 = einsum(v.xov, (0, 1, 2), t1, (3, 2), (3, 1, 0))
    .set 4 (.ein [(0, [0, 1, 2]), (1, [3, 2])] [3, 1, 0]) 1 1,
    -- 41: tmp0 = einsum(t1, (0, 1), v.xov, (2, 0, 1), (2,))
    .set 5 (.ein [(1, [0, 1]), (0, [2, 0, 1])] [2]) 1 1,
    -- 42: tmp1 = np.copy(np.transpose(t2, (0, 1, 3, 2))) * -1
    .set 6 (.tr 2 [0, 1, 3, 2]) (-1) 1,
    -- 43: tmp1 += t2 * 2
    .add 6 (.cp 2) 2 1,
    -- 44: tmp4 = np.copy(f.ov) * 2
    .set 7 (.cp 3) 2 1,
    -- 45: tmp4 += einsum(v.xov, (0, 1, 2), tmp3, (1, 3, 0), (3, 2)) * -1
    .add 7 (.ein [(0, [0, 1, 2]), (4, [1, 3, 0])] [3, 2]) (-1) 1,
    -- 46: del tmp3
    .del 4,
    -- 47: tmp2 = einsum(tmp0, (0,), t1, (1, 2), (1, 2, 0))
    .set 8 (.ein [(5, [0]), (1, [1, 2])] [1, 2, 0]) 1 1,
    -- 48: del tmp0
    .del 5,
    -- 49: tmp2 += einsum(v.xov, (0, 1, 2), tmp1, (1, 3, 2, 4), (3, 4, 0)) * 0.5
    .add 8 (.ein [(0, [0, 1, 2]), (6, [1, 3, 2, 4])] [3, 4, 0]) 1 2,
    -- 50: del tmp1
    .del 6,
    -- 51: e_cc = einsum(tmp2, (0, 1, 2), v.xov, (2, 0, 1), ()) * 2
    .set 9 (.ein [(8, [0, 1, 2]), (0, [2, 0, 1])] []) 2 1,
    -- 52: del tmp2
    .del 8,
    -- 53: e_cc += einsum(t1, (0, 1), tmp4, (0, 1), ())
    .add 9 (.ein [(1, [0, 1]), (7, [0, 1])] []) 1 1,
    -- 54: del tmp4
    .del 7
  ]
  ret := [(chars! "e_cc", 9)]

/-- codegen/RDFDCSD.py:58-329 `update_amps`. -/
def update_amps : GenFun where
  args := [chars! "v.xov", chars! "t1", chars! "v.xoo", chars! "t2", chars! "v.xvv", chars! "f.ov", chars! "f.vv", chars! "f.oo"]
  body := [
    -- 81: tmp2 = einsum(v.xov, (0, 1, 2), t1, (3, 2), (3, 1, 0))
    .set 8 (.ein [(0, [0, 1, 2]), (1, [3, 2])] [3, 1, 0]) 1 1,
    -- 82: tmp0 = einsum(t1, (0, 1), v.xov, (2, 0, 1), (2,))
    .set 9 (.ein [(1, [0, 1]), (0, [2, 0, 1])] [2]) 1 1,
    -- 83: tmp29 = einsum(v.xov, (0, 1, 2), tmp2, (3, 4, 0), (3, 1, 4, 2))
    .set 10 (.ein [(0, [0, 1, 2]), (8, [3, 4, 0])] [3, 1, 4, 2]) 1 1,
    -- 84: tmp31 = einsum(v.xoo, (0, 1, 2), v.xov, (0, 3, 4), (1, 2, 3, 4))
    .set 11 (.ein [(2, [0, 1, 2]), (0, [0, 3, 4])] [1, 2, 3, 4]) 1 1,
    -- 85: tmp1 = einsum(tmp0, (0,), v.xov, (0, 1, 2), (1, 2))
    .set 12 (.ein [(9, [0]), (0, [0, 1, 2])] [1, 2]) 1 1,
    -- 86: tmp9 = einsum(v.xov, (0, 1, 2), tmp2, (1, 3, 0), (3, 2))
    .set 13 (.ein [(0, [0, 1, 2]), (8, [1, 3, 0])] [3, 2]) 1 1,
    -- 87: tmp36 = np.copy(t2)
    .set 14 (.cp 3) 1 1,
    -- 88: tmp36 += einsum(t1, (0, 1), t1, (2, 3), (0, 2, 1, 3))
    .add 14 (.ein [(1, [0, 1]), (1, [2, 3])] [0, 2, 1, 3]) 1 1,
    -- 89: tmp18 = einsum(v.xov, (0, 1, 2), t2, (3, 1, 2, 4), (3, 4, 0))
    .set 15 (.ein [(0, [0, 1, 2]), (3, [3, 1, 2, 4])] [3, 4, 0]) 1 1,
    -- 90: tmp59 = np.copy(tmp29) * -1
    .set 16 (.cp 10) (-1) 1,
    -- 91: tmp59 += np.transpose(tmp29, (0, 2, 1, 3)) * 2
    .add 16 (.tr 10 [0, 2, 1, 3]) 2 1,
    -- 92: tmp49 = einsum(t1, (0, 1), t1, (2, 3), (0, 2, 1, 3))
    .set 17 (.ein [(1, [0, 1]), (1, [2, 3])] [0, 2, 1, 3]) 1 1,
    -- 93: tmp49 += np.transpose(t2, (0, 1, 3, 2)) * -2
    .add 17 (.tr 3 [0, 1, 3, 2]) (-2) 1,
    -- 94: tmp49 += t2
    .add 17 (.cp 3) 1 1,
    -- 95: tmp17 = einsum(t1, (0, 1), v.xvv, (2, 3, 1), (0, 3, 2))
    .set 18 (.ein [(1, [0, 1]), (4, [2, 3, 1])] [0, 3, 2]) 1 1,
    -- 96: tmp11 = np.copy(np.transpose(t2, (0, 1, 3, 2))) * -1
    .set 19 (.tr 3 [0, 1, 3, 2]) (-1) 1,
    -- 97: tmp11 += t2 * 2
    .add 19 (.cp 3) 2 1,
    -- 98: tmp32 = np.copy(np.transpose(tmp31, (1, 0, 2, 3))) * -1
    .set 20 (.tr 11 [1, 0, 2, 3]) (-1) 1,
    -- 99: tmp32 += np.transpose(tmp31, (2, 1, 0, 3)) * 2
    .add 20 (.tr 11 [2, 1, 0, 3]) 2 1,
    -- 100: tmp34 = np.copy(tmp1) * 2
    .set 21 (.cp 12) 2 1,
    -- 101: tmp34 += tmp9 * -1
    .add 21 (.cp 13) (-1) 1,
    -- 102: tmp37 = einsum(v.xov, (0, 1, 2), tmp36, (1, 3, 4, 2), (3, 4, 0))
    .set 22 (.ein [(0, [0, 1, 2]), (14, [1, 3, 4, 2])] [3, 4, 0]) 1 1,
    -- 103: del tmp36
    .del 14,
    -- 104: tmp5 = np.copy(np.transpose(t2, (0, 1, 3, 2))) * -1
    .set 23 (.tr 3 [0, 1, 3, 2]) (-1) 1,
    -- 105: tmp5 += t2 * 2
    .add 23 (.cp 3) 2 1,
    -- 106: tmp57 = einsum(t2, (0, 1, 2, 3), tmp31, (4, 1, 5, 2), (0, 4, 5, 3))
    .set 24 (.ein [(3, [0, 1, 2, 3]), (11, [4, 1, 5, 2])] [0, 4, 5, 3]) 1 1,
    -- 107: del tmp31
    .del 11,
    -- 108: tmp58 = einsum(tmp2, (0, 1, 2), tmp18, (3, 4, 2), (0, 3, 1, 4))
    .set 25 (.ein [(8, [0, 1, 2]), (15, [3, 4, 2])] [0, 3, 1, 4]) 1 1,
    -- 109: tmp60 = einsum(tmp59, (0, 1, 2, 3), t2, (4, 2, 5, 3), (0, 1, 4, 5))
    .set 26 (.ein [(16, [0, 1, 2, 3]), (3, [4, 2, 5, 3])] [0, 1, 4, 5]) 1 1,
    -- 110: del tmp59
    .del 16,
    -- 111: tmp50 = einsum(v.xov, (0, 1, 2), tmp49, (1, 3, 4, 2), (3, 4, 0))
    .set 27 (.ein [(0, [0, 1, 2]), (17, [1, 3, 4, 2])] [3, 4, 0]) 1 1,
    -- 112: del tmp49
    .del 17,
    -- 113: tmp6 = einsum(v.xoo, (0, 1, 2), t1, (2, 3), (1, 3, 0))
    .set 28 (.ein [(2, [0, 1, 2]), (1, [2, 3])] [1, 3, 0]) 1 1,
    -- 114: tmp12 = einsum(v.xoo, (0, 1, 2), tmp0, (0,), (1, 2))
    .set 29 (.ein [(2, [0, 1, 2]), (9, [0])] [1, 2]) 1 1,
    -- 115: tmp63 = einsum(tmp2, (0, 1, 2), v.xoo, (2, 3, 0), (3, 1))
    .set 30 (.ein [(8, [0, 1, 2]), (2, [2, 3, 0])] [3, 1]) 1 1,
    -- 116: tmp54 = einsum(tmp17, (0, 1, 2), v.xov, (2, 0, 3), (3, 1))
    .set 31 (.ein [(18, [0, 1, 2]), (0, [2, 0, 3])] [3, 1]) 1 1,
    -- 117: tmp53 = einsum(tmp0, (0,), v.xvv, (0, 1, 2), (1, 2))
    .set 32 (.ein [(9, [0]), (4, [0, 1, 2])] [1, 2]) 1 1,
    -- 118: tmp26 = einsum(v.xov, (0, 1, 2), tmp11, (1, 3, 2, 4), (3, 4, 0))
    .set 33 (.ein [(0, [0, 1, 2]), (19, [1, 3, 2, 4])] [3, 4, 0]) 1 1,
    -- 119: tmp33 = einsum(t2, (0, 1, 2, 3), tmp32, (1, 4, 5, 3), (4, 5, 0, 2))
    .set 34 (.ein [(3, [0, 1, 2, 3]), (20, [1, 4, 5, 3])] [4, 5, 0, 2]) 1 1,
    -- 120: del tmp32
    .del 20,
    -- 121: tmp35 = einsum(t2, (0, 1, 2, 3), tmp34, (4, 2), (4, 0, 1, 3))
    .set 35 (.ein [(3, [0, 1, 2, 3]), (21, [4, 2])] [4, 0, 1, 3]) 1 1,
    -- 122: tmp30 = einsum(t2, (0, 1, 2, 3), tmp29, (4, 5, 1, 2), (4, 0, 5, 3))
    .set 36 (.ein [(3, [0, 1, 2, 3]), (10, [4, 5, 1, 2])] [4, 0, 5, 3]) 1 1,
    -- 123: del tmp29
    .del 10,
    -- 124: tmp38 = einsum(v.xoo, (0, 1, 2), tmp37, (3, 4, 0), (1, 2, 3, 4))
    .set 37 (.ein [(2, [0, 1, 2]), (22, [3, 4, 0])] [1, 2, 3, 4]) 1 1,
    -- 125: del tmp37
    .del 22,
    -- 126: tmp67 = einsum(v.xov, (0, 1, 2), v.xvv, (0, 3, 4), (1, 3, 4, 2))
    .set 38 (.ein [(0, [0, 1, 2]), (4, [0, 3, 4])] [1, 3, 4, 2]) 1 1,
    -- 127: tmp13 = einsum(v.xov, (0, 1, 2), tmp5, (1, 3, 2, 4), (3, 4, 0))
    .set 39 (.ein [(0, [0, 1, 2]), (23, [1, 3, 2, 4])] [3, 4, 0]) 1 1,
    -- 128: tmp22 = einsum(v.xoo, (0, 1, 2), v.xvv, (0, 3, 4), (1, 2, 3, 4))
    .set 40 (.ein [(2, [0, 1, 2]), (4, [0, 3, 4])] [1, 2, 3, 4]) 1 1,
    -- 129: tmp61 = np.copy(tmp57)
    .set 41 (.cp 24) 1 1,
    -- 130: del tmp57
    .del 24,
    -- 131: tmp61 += tmp58
    .add 41 (.cp 25) 1 1,
    -- 132: del tmp58
    .del 25,
    -- 133: tmp61 += np.transpose(tmp60, (0, 2, 1, 3)) * -1
    .add 41 (.tr 26 [0, 2, 1, 3]) (-1) 1,
    -- 134: del tmp60
    .del 26,
    -- 135: tmp51 = np.copy(tmp6)
    .set 42 (.cp 28) 1 1,
    -- 136: tmp51 += tmp50
    .add 42 (.cp 27) 1 1,
    -- 137: del tmp50
    .del 27,
    -- 138: tmp64 = np.copy(np.transpose(tmp63, (1, 0))) * -1
    .set 43 (.tr 30 [1, 0]) (-1) 1,
    -- 139: del tmp63
    .del 30,
    -- 140: tmp64 += np.transpose(tmp12, (1, 0)) * 2
    .add 43 (.tr 29 [1, 0]) 2 1,
    -- 141: tmp55 = np.copy(np.transpose(tmp53, (1, 0))) * 2
    .set 44 (.tr 32 [1, 0]) 2 1,
    -- 142: del tmp53
    .del 32,
    -- 143: tmp55 += tmp54 * -1
    .add 44 (.cp 31) (-1) 1,
    -- 144: del tmp54
    .del 31,
    -- 145: tmp20 = einsum(v.xov, (0, 1, 2), v.xov, (0, 3, 4), (3, 1, 4, 2))
    .set 45 (.ein [(0, [0, 1, 2]), (0, [0, 3, 4])] [3, 1, 4, 2]) 1 1,
    -- 146: tmp45 = einsum(tmp17, (0, 1, 2), tmp2, (3, 4, 2), (3, 0, 4, 1))
    .set 46 (.ein [(18, [0, 1, 2]), (8, [3, 4, 2])] [3, 0, 4, 1]) 1 1,
    -- 147: tmp24 = einsum(tmp2, (0, 1, 2), v.xvv, (2, 3, 4), (0, 1, 3, 4))
    .set 47 (.ein [(8, [0, 1, 2]), (4, [2, 3, 4])] [0, 1, 3, 4]) 1 1,
    -- 148: tmp27 = np.copy(np.transpose(v.xov, (1, 2, 0)))
    .set 48 (.tr 0 [1, 2, 0]) 1 1,
    -- 149: tmp27 += tmp6 * -1
    .add 48 (.cp 28) (-1) 1,
    -- 150: tmp27 += tmp26
    .add 48 (.cp 33) 1 1,
    -- 151: del tmp26
    .del 33,
    -- 152: tmp41 = einsum(tmp34, (0, 1), t1, (2, 1), (0, 2))
    .set 49 (.ein [(21, [0, 1]), (1, [2, 1])] [0, 2]) 1 1,
    -- 153: del tmp34
    .del 21,
    -- 154: tmp39 = np.copy(np.transpose(tmp30, (0, 2, 1, 3)))
    .set 50 (.tr 36 [0, 2, 1, 3]) 1 1,
    -- 155: del tmp30
    .del 36,
    -- 156: tmp39 += np.transpose(tmp33, (2, 1, 0, 3)) * -1
    .add 50 (.tr 34 [2, 1, 0, 3]) (-1) 1,
    -- 157: del tmp33
    .del 34,
    -- 158: tmp39 += np.transpose(tmp35, (2, 0, 1, 3)) * -1
    .add 50 (.tr 35 [2, 0, 1, 3]) (-1) 1,
    -- 159: del tmp35
    .del 35,
    -- 160: tmp39 += np.transpose(tmp38, (2, 1, 0, 3))
    .add 50 (.tr 37 [2, 1, 0, 3]) 1 1,
    -- 161: del tmp38
    .del 37,
    -- 162: tmp68 = einsum(t2, (0, 1, 2, 3), tmp67, (4, 5, 3, 2), (0, 1, 4, 5))
    .set 51 (.ein [(3, [0, 1, 2, 3]), (38, [4, 5, 3, 2])] [0, 1, 4, 5]) 1 1,
    -- 163: del tmp67
    .del 38,
    -- 164: tmp71 = einsum(v.xov, (0, 1, 2), tmp13, (1, 3, 0), (3, 2)) * 0.5
    .set 52 (.ein [(0, [0, 1, 2]), (39, [1, 3, 0])] [3, 2]) 1 2,
    -- 165: tmp73 = einsum(v.xov, (0, 1, 2), tmp13, (3, 2, 0), (3, 1))
    .set 53 (.ein [(0, [0, 1, 2]), (39, [3, 2, 0])] [3, 1]) 1 1,
    -- 166: tmp19 = einsum(v.xov, (0, 1, 2), t2, (3, 1, 4, 2), (3, 4, 0))
    .set 54 (.ein [(0, [0, 1, 2]), (3, [3, 1, 4, 2])] [3, 4, 0]) 1 1,
    -- 167: tmp80 = einsum(v.xoo, (0, 1, 2), tmp2, (3, 4, 0), (3, 1, 2, 4))
    .set 55 (.ein [(2, [0, 1, 2]), (8, [3, 4, 0])] [3, 1, 2, 4]) 1 1,
    -- 168: tmp76 = einsum(f.ov, (0, 1), t1, (2, 1), (0, 2))
    .set 56 (.ein [(5, [0, 1]), (1, [2, 1])] [0, 2]) 1 1,
    -- 169: tmp78 = einsum(t2, (0, 1, 2, 3), f.ov, (4, 3), (4, 0, 1, 2))
    .set 57 (.ein [(3, [0, 1, 2, 3]), (5, [4, 3])] [4, 0, 1, 2]) 1 1,
    -- 170: tmp48 = einsum(tmp22, (0, 1, 2, 3), t2, (4, 1, 5, 3), (4, 0, 5, 2))
    .set 58 (.ein [(40, [0, 1, 2, 3]), (3, [4, 1, 5, 3])] [4, 0, 5, 2]) 1 1,
    -- 171: tmp62 = einsum(t1, (0, 1), tmp61, (2, 3, 0, 4), (2, 3, 4, 1))
    .set 59 (.ein [(1, [0, 1]), (41, [2, 3, 0, 4])] [2, 3, 4, 1]) 1 1,
    -- 172: del tmp61
    .del 41,
    -- 173: tmp52 = einsum(v.xov, (0, 1, 2), tmp51, (3, 4, 0), (3, 1, 4, 2))
    .set 60 (.ein [(0, [0, 1, 2]), (42, [3, 4, 0])] [3, 1, 4, 2]) 1 1,
    -- 174: del tmp51
    .del 42,
    -- 175: tmp65 = einsum(t2, (0, 1, 2, 3), tmp64, (1, 4), (4, 0, 3, 2))
    .set 61 (.ein [(3, [0, 1, 2, 3]), (43, [1, 4])] [4, 0, 3, 2]) 1 1,
    -- 176: del tmp64
    .del 43,
    -- 177: tmp56 = einsum(t2, (0, 1, 2, 3), tmp55, (2, 4), (0, 1, 4, 3))
    .set 62 (.ein [(3, [0, 1, 2, 3]), (44, [2, 4])] [0, 1, 4, 3]) 1 1,
    -- 178: del tmp55
    .del 44,
    -- 179: tmp86 = einsum(tmp20, (0, 1, 2, 3), t1, (1, 4), (0, 4, 2, 3))
    .set 63 (.ein [(45, [0, 1, 2, 3]), (1, [1, 4])] [0, 4, 2, 3]) 1 1,
    -- 180: tmp46 = einsum(t1, (0, 1), tmp45, (2, 3, 0, 4), (2, 3, 1, 4))
    .set 64 (.ein [(1, [0, 1]), (46, [2, 3, 0, 4])] [2, 3, 1, 4]) 1 1,
    -- 181: del tmp45
    .del 46,
    -- 182: tmp44 = einsum(t2, (0, 1, 2, 3), tmp24, (4, 1, 5, 2), (4, 0, 3, 5))
    .set 65 (.ein [(3, [0, 1, 2, 3]), (47, [4, 1, 5, 2])] [4, 0, 3, 5]) 1 1,
    -- 183: tmp28 = einsum(tmp27, (0, 1, 2), tmp17, (3, 4, 2), (3, 0, 4, 1))
    .set 66 (.ein [(48, [0, 1, 2]), (18, [3, 4, 2])] [3, 0, 4, 1]) 1 1,
    -- 184: del tmp27
    .del 48,
    -- 185: tmp23 = einsum(t2, (0, 1, 2, 3), tmp22, (4, 1, 5, 2), (0, 4, 3, 5))
    .set 67 (.ein [(3, [0, 1, 2, 3]), (40, [4, 1, 5, 2])] [0, 4, 3, 5]) 1 1,
    -- 186: del tmp22
    .del 40,
    -- 187: tmp21 = einsum(t2, (0, 1, 2, 3), f.vv, (4, 3), (0, 1, 4, 2))
    .set 68 (.ein [(3, [0, 1, 2, 3]), (6, [4, 3])] [0, 1, 4, 2]) 1 1,
    -- 188: tmp42 = einsum(tmp41, (0, 1), t2, (2, 0, 3, 4), (1, 2, 4, 3))
    .set 69 (.ein [(49, [0, 1]), (3, [2, 0, 3, 4])] [1, 2, 4, 3]) 1 1,
    -- 189: del tmp41
    .del 49,
    -- 190: tmp40 = einsum(tmp39, (0, 1, 2, 3), t1, (1, 4), (0, 2, 3, 4))
    .set 70 (.ein [(50, [0, 1, 2, 3]), (1, [1, 4])] [0, 2, 3, 4]) 1 1,
    -- 191: del tmp39
    .del 50,
    -- 192: tmp25 = einsum(tmp24, (0, 1, 2, 3), t2, (4, 1, 5, 3), (0, 4, 5, 2))
    .set 71 (.ein [(47, [0, 1, 2, 3]), (3, [4, 1, 5, 3])] [0, 4, 5, 2]) 1 1,
    -- 193: del tmp24
    .del 47,
    -- 194: tmp69 = einsum(tmp68, (0, 1, 2, 3), t1, (2, 4), (0, 1, 4, 3))
    .set 72 (.ein [(51, [0, 1, 2, 3]), (1, [2, 4])] [0, 1, 4, 3]) 1 1,
    -- 195: del tmp68
    .del 51,
    -- 196: tmp72 = einsum(tmp71, (0, 1), t2, (2, 3, 1, 4), (2, 3, 0, 4))
    .set 73 (.ein [(52, [0, 1]), (3, [2, 3, 1, 4])] [2, 3, 0, 4]) 1 1,
    -- 197: del tmp71
    .del 52,
    -- 198: tmp74 = einsum(t2, (0, 1, 2, 3), tmp73, (4, 1), (4, 0, 3, 2)) * 0.5
    .set 74 (.ein [(3, [0, 1, 2, 3]), (53, [4, 1])] [4, 0, 3, 2]) 1 2,
    -- 199: del tmp73
    .del 53,
    -- 200: tmp70 = einsum(tmp18, (0, 1, 2), tmp19, (3, 4, 2), (3, 0, 4, 1))
    .set 75 (.ein [(15, [0, 1, 2]), (54, [3, 4, 2])] [3, 0, 4, 1]) 1 1,
    -- 201: tmp81 = einsum(t2, (0, 1, 2, 3), tmp80, (4, 0, 5, 1), (4, 5, 2, 3))
    .set 76 (.ein [(3, [0, 1, 2, 3]), (55, [4, 0, 5, 1])] [4, 5, 2, 3]) 1 1,
    -- 202: del tmp80
    .del 55,
    -- 203: tmp77 = einsum(t2, (0, 1, 2, 3), tmp76, (1, 4), (4, 0, 2, 3))
    .set 77 (.ein [(3, [0, 1, 2, 3]), (56, [1, 4])] [4, 0, 2, 3]) 1 1,
    -- 204: del tmp76
    .del 56,
    -- 205: tmp79 = einsum(tmp78, (0, 1, 2, 3), t1, (0, 4), (1, 2, 4, 3))
    .set 78 (.ein [(57, [0, 1, 2, 3]), (1, [0, 4])] [1, 2, 4, 3]) 1 1,
    -- 206: del tmp78
    .del 57,
    -- 207: tmp7 = einsum(t1, (0, 1), t1, (2, 3), (0, 2, 1, 3)) * 0.5
    .set 79 (.ein [(1, [0, 1]), (1, [2, 3])] [0, 2, 1, 3]) 1 2,
    -- 208: tmp7 += np.transpose(t2, (0, 1, 3, 2)) * -1
    .add 79 (.tr 3 [0, 1, 3, 2]) (-1) 1,
    -- 209: tmp7 += t2 * 0.5
    .add 79 (.cp 3) 1 2,
    -- 210: tmp14 = np.copy(tmp6) * -1
    .set 80 (.cp 28) (-1) 1,
    -- 211: tmp14 += einsum(tmp0, (0,), t1, (1, 2), (1, 2, 0)) * 2
    .add 80 (.ein [(9, [0]), (1, [1, 2])] [1, 2, 0]) 2 1,
    -- 212: tmp14 += tmp13
    .add 80 (.cp 39) 1 1,
    -- 213: del tmp13
    .del 39,
    -- 214: tmp15 = np.copy(f.ov)
    .set 81 (.cp 5) 1 1,
    -- 215: tmp15 += tmp9 * -1
    .add 81 (.cp 13) (-1) 1,
    -- 216: tmp3 = np.copy(np.transpose(v.xoo, (1, 2, 0)))
    .set 82 (.tr 2 [1, 2, 0]) 1 1,
    -- 217: tmp3 += np.transpose(tmp2, (1, 0, 2))
    .add 82 (.tr 8 [1, 0, 2]) 1 1,
    -- 218: tmp84 = einsum(v.xoo, (0, 1, 2), v.xoo, (0, 3, 4), (1, 3, 4, 2))
    .set 83 (.ein [(2, [0, 1, 2]), (2, [0, 3, 4])] [1, 3, 4, 2]) 1 1,
    -- 219: tmp84 += einsum(tmp2, (0, 1, 2), tmp2, (3, 4, 2), (1, 3, 4, 0))
    .add 83 (.ein [(8, [0, 1, 2]), (8, [3, 4, 2])] [1, 3, 4, 0]) 1 1,
    -- 220: del tmp2
    .del 8,
    -- 221: tmp66 = np.copy(tmp48)
    .set 84 (.cp 58) 1 1,
    -- 222: del tmp48
    .del 58,
    -- 223: tmp66 += tmp52
    .add 84 (.cp 60) 1 1,
    -- 224: del tmp52
    .del 60,
    -- 225: tmp66 += np.transpose(tmp56, (1, 0, 3, 2)) * -1
    .add 84 (.tr 62 [1, 0, 3, 2]) (-1) 1,
    -- 226: del tmp56
    .del 62,
    -- 227: tmp66 += np.transpose(tmp62, (0, 1, 3, 2)) * -1
    .add 84 (.tr 59 [0, 1, 3, 2]) (-1) 1,
    -- 228: del tmp62
    .del 59,
    -- 229: tmp66 += np.transpose(tmp65, (1, 0, 3, 2))
    .add 84 (.tr 61 [1, 0, 3, 2]) 1 1,
    -- 230: del tmp65
    .del 61,
    -- 231: tmp87 = einsum(v.xvv, (0, 1, 2), v.xvv, (0, 3, 4), (1, 3, 4, 2))
    .set 85 (.ein [(4, [0, 1, 2]), (4, [0, 3, 4])] [1, 3, 4, 2]) 1 1,
    -- 232: tmp87 += einsum(t1, (0, 1), tmp86, (0, 2, 3, 4), (4, 3, 1, 2))
    .add 85 (.ein [(1, [0, 1]), (63, [0, 2, 3, 4])] [4, 3, 1, 2]) 1 1,
    -- 233: del tmp86
    .del 63,
    -- 234: tmp85 = np.copy(t2)
    .set 86 (.cp 3) 1 1,
    -- 235: tmp85 += einsum(t1, (0, 1), t1, (2, 3), (0, 2, 1, 3))
    .add 86 (.ein [(1, [0, 1]), (1, [2, 3])] [0, 2, 1, 3]) 1 1,
    -- 236: tmp47 = np.copy(tmp44)
    .set 87 (.cp 65) 1 1,
    -- 237: del tmp44
    .del 65,
    -- 238: tmp47 += tmp46
    .add 87 (.cp 64) 1 1,
    -- 239: del tmp46
    .del 64,
    -- 240: tmp83 = einsum(t2, (0, 1, 2, 3), f.oo, (4, 1), (4, 0, 2, 3))
    .set 88 (.ein [(3, [0, 1, 2, 3]), (7, [4, 1])] [4, 0, 2, 3]) 1 1,
    -- 241: tmp43 = np.copy(tmp21)
    .set 89 (.cp 68) 1 1,
    -- 242: del tmp21
    .del 68,
    -- 243: tmp43 += tmp23 * -1
    .add 89 (.cp 67) (-1) 1,
    -- 244: del tmp23
    .del 67,
    -- 245: tmp43 += tmp25 * -1
    .add 89 (.cp 71) (-1) 1,
    -- 246: del tmp25
    .del 71,
    -- 247: tmp43 += np.transpose(tmp28, (0, 1, 3, 2))
    .add 89 (.tr 66 [0, 1, 3, 2]) 1 1,
    -- 248: del tmp28
    .del 66,
    -- 249: tmp43 += np.transpose(tmp40, (0, 1, 3, 2))
    .add 89 (.tr 70 [0, 1, 3, 2]) 1 1,
    -- 250: del tmp40
    .del 70,
    -- 251: tmp43 += np.transpose(tmp42, (0, 1, 3, 2)) * -1
    .add 89 (.tr 69 [0, 1, 3, 2]) (-1) 1,
    -- 252: del tmp42
    .del 69,
    -- 253: tmp75 = np.copy(tmp69)
    .set 90 (.cp 72) 1 1,
    -- 254: del tmp69
    .del 72,
    -- 255: tmp75 += tmp70 * 2
    .add 90 (.cp 75) 2 1,
    -- 256: del tmp70
    .del 75,
    -- 257: tmp75 += np.transpose(tmp72, (1, 0, 3, 2))
    .add 90 (.tr 73 [1, 0, 3, 2]) 1 1,
    -- 258: del tmp72
    .del 73,
    -- 259: tmp75 += np.transpose(tmp74, (1, 0, 3, 2))
    .add 90 (.tr 74 [1, 0, 3, 2]) 1 1,
    -- 260: del tmp74
    .del 74,
    -- 261: tmp82 = np.copy(tmp77)
    .set 91 (.cp 77) 1 1,
    -- 262: del tmp77
    .del 77,
    -- 263: tmp82 += tmp79
    .add 91 (.cp 78) 1 1,
    -- 264: del tmp79
    .del 78,
    -- 265: tmp82 += tmp81 * -1
    .add 91 (.cp 76) (-1) 1,
    -- 266: del tmp81
    .del 76,
    -- 267: tmp8 = np.copy(tmp6) * 0.5
    .set 92 (.cp 28) 1 2,
    -- 268: del tmp6
    .del 28,
    -- 269: tmp8 += einsum(tmp0, (0,), t1, (1, 2), (1, 2, 0)) * -1
    .add 92 (.ein [(9, [0]), (1, [1, 2])] [1, 2, 0]) (-1) 1,
    -- 270: del tmp0
    .del 9,
    -- 271: tmp8 += einsum(v.xov, (0, 1, 2), tmp7, (1, 3, 4, 2), (3, 4, 0))
    .add 92 (.ein [(0, [0, 1, 2]), (79, [1, 3, 4, 2])] [3, 4, 0]) 1 1,
    -- 272: del tmp7
    .del 79,
    -- 273: tmp16 = np.copy(f.oo) * 0.5
    .set 93 (.cp 7) 1 2,
    -- 274: tmp16 += np.transpose(tmp12, (1, 0))
    .add 93 (.tr 29 [1, 0]) 1 1,
    -- 275: del tmp12
    .del 29,
    -- 276: tmp16 += einsum(tmp14, (0, 1, 2), v.xov, (2, 3, 1), (3, 0)) * 0.5
    .add 93 (.ein [(80, [0, 1, 2]), (0, [2, 3, 1])] [3, 0]) 1 2,
    -- 277: del tmp14
    .del 80,
    -- 278: tmp16 += einsum(tmp15, (0, 1), t1, (2, 1), (0, 2)) * 0.5
    .add 93 (.ein [(81, [0, 1]), (1, [2, 1])] [0, 2]) 1 2,
    -- 279: del tmp15
    .del 81,
    -- 280: tmp10 = np.copy(f.ov)
    .set 94 (.cp 5) 1 1,
    -- 281: tmp10 += tmp1 * 2
    .add 94 (.cp 12) 2 1,
    -- 282: tmp10 += tmp9 * -1
    .add 94 (.cp 13) (-1) 1,
    -- 283: del tmp9
    .del 13,
    -- 284: tmp4 = einsum(v.xov, (0, 1, 2), tmp3, (3, 4, 0), (4, 1, 3, 2))
    .set 95 (.ein [(0, [0, 1, 2]), (82, [3, 4, 0])] [4, 1, 3, 2]) 1 1,
    -- 285: del tmp3
    .del 82,
    -- 286: t2new = einsum(tmp17, (0, 1, 2), tmp17, (3, 4, 2), (3, 0, 4, 1))
    .set 96 (.ein [(18, [0, 1, 2]), (18, [3, 4, 2])] [3, 0, 4, 1]) 1 1,
    -- 287: del tmp17
    .del 18,
    -- 288: t2new += einsum(tmp18, (0, 1, 2), tmp18, (3, 4, 2), (3, 0, 4, 1))
    .add 96 (.ein [(15, [0, 1, 2]), (15, [3, 4, 2])] [3, 0, 4, 1]) 1 1,
    -- 289: del tmp18
    .del 15,
    -- 290: t2new += einsum(tmp19, (0, 1, 2), tmp19, (3, 4, 2), (3, 0, 4, 1)) * 4
    .add 96 (.ein [(54, [0, 1, 2]), (54, [3, 4, 2])] [3, 0, 4, 1]) 4 1,
    -- 291: del tmp19
    .del 54,
    -- 292: t2new += np.transpose(tmp20, (1, 0, 3, 2))
    .add 96 (.tr 45 [1, 0, 3, 2]) 1 1,
    -- 293: del tmp20
    .del 45,
    -- 294: t2new += np.transpose(tmp43, (0, 1, 3, 2))
    .add 96 (.tr 89 [0, 1, 3, 2]) 1 1,
    -- 295: t2new += np.transpose(tmp43, (1, 0, 2, 3))
    .add 96 (.tr 89 [1, 0, 2, 3]) 1 1,
    -- 296: del tmp43
    .del 89,
    -- 297: t2new += tmp47 * -1
    .add 96 (.cp 87) (-1) 1,
    -- 298: t2new += np.transpose(tmp47, (1, 0, 3, 2)) * -1
    .add 96 (.tr 87 [1, 0, 3, 2]) (-1) 1,
    -- 299: del tmp47
    .del 87,
    -- 300: t2new += tmp66 * -1
    .add 96 (.cp 84) (-1) 1,
    -- 301: t2new += np.transpose(tmp66, (1, 0, 3, 2)) * -1
    .add 96 (.tr 84 [1, 0, 3, 2]) (-1) 1,
    -- 302: del tmp66
    .del 84,
    -- 303: t2new += tmp75 * -1
    .add 96 (.cp 90) (-1) 1,
    -- 304: t2new += np.transpose(tmp75, (1, 0, 3, 2)) * -1
    .add 96 (.tr 90 [1, 0, 3, 2]) (-1) 1,
    -- 305: del tmp75
    .del 90,
    -- 306: t2new += np.transpose(tmp82, (0, 1, 3, 2)) * -1
    .add 96 (.tr 91 [0, 1, 3, 2]) (-1) 1,
    -- 307: t2new += np.transpose(tmp82, (1, 0, 2, 3)) * -1
    .add 96 (.tr 91 [1, 0, 2, 3]) (-1) 1,
    -- 308: del tmp82
    .del 91,
    -- 309: t2new += np.transpose(tmp83, (0, 1, 3, 2)) * -1
    .add 96 (.tr 88 [0, 1, 3, 2]) (-1) 1,
    -- 310: t2new += np.transpose(tmp83, (1, 0, 2, 3)) * -1
    .add 96 (.tr 88 [1, 0, 2, 3]) (-1) 1,
    -- 311: del tmp83
    .del 88,
    -- 312: t2new += einsum(tmp85, (0, 1, 2, 3), tmp84, (0, 4, 1, 5), (4, 5, 3, 2))
    .add 96 (.ein [(86, [0, 1, 2, 3]), (83, [0, 4, 1, 5])] [4, 5, 3, 2]) 1 1,
    -- 313: del tmp85, tmp84
    .del 86,
    .del 83,
    -- 314: t2new += einsum(tmp87, (0, 1, 2, 3), t2, (4, 5, 0, 1), (4, 5, 3, 2))
    .add 96 (.ein [(85, [0, 1, 2, 3]), (3, [4, 5, 0, 1])] [4, 5, 3, 2]) 1 1,
    -- 315: del tmp87
    .del 85,
    -- 316: t1new = np.copy(tmp1) * 2
    .set 97 (.cp 12) 2 1,
    -- 317: del tmp1
    .del 12,
    -- 318: t1new += einsum(t1, (0, 1), f.vv, (2, 1), (0, 2))
    .add 97 (.ein [(1, [0, 1]), (6, [2, 1])] [0, 2]) 1 1,
    -- 319: t1new += f.ov
    .add 97 (.cp 5) 1 1,
    -- 320: t1new += einsum(tmp5, (0, 1, 2, 3), tmp4, (4, 0, 1, 2), (4, 3)) * -1
    .add 97 (.ein [(23, [0, 1, 2, 3]), (95, [4, 0, 1, 2])] [4, 3]) (-1) 1,
    -- 321: del tmp5, tmp4
    .del 23,
    .del 95,
    -- 322: t1new += einsum(v.xvv, (0, 1, 2), tmp8, (3, 2, 0), (3, 1)) * -2
    .add 97 (.ein [(4, [0, 1, 2]), (92, [3, 2, 0])] [3, 1]) (-2) 1,
    -- 323: del tmp8
    .del 92,
    -- 324: t1new += einsum(tmp11, (0, 1, 2, 3), tmp10, (0, 2), (1, 3))
    .add 97 (.ein [(19, [0, 1, 2, 3]), (94, [0, 2])] [1, 3]) 1 1,
    -- 325: del tmp11, tmp10
    .del 19,
    .del 94,
    -- 326: t1new += einsum(tmp16, (0, 1), t1, (0, 2), (1, 2)) * -2
    .add 97 (.ein [(93, [0, 1]), (1, [0, 2])] [1, 2]) (-2) 1,
    -- 327: del tmp16
    .del 93
  ]
  ret := [(chars! "t1new", 97), (chars! "t2new", 96)]

end Ebcc.Gen.RDFDCSD
