import Verif.Model.GenCode
/-!
Functions of `ebcc/codegen/RCCD.py`, written by `tools/gencode.py`.  Comments give the
number and the text of the line of each statement.
-/

set_option maxRecDepth 100000

namespace Ebcc.Gen.RCCD

/-- codegen/RCCD.py:19-39 `energy`. -/
def energy : GenFun where
  args := [chars! "v.ovov", chars! "t2"]
  body := [
    -- 36: e_cc = einsum(v.ovov, (0, 1, 2, 3), t2, (0, 2, 1, 3), ()) * 2
    .set 2 (.ein [(0, [0, 1, 2, 3]), (1, [0, 2, 1, 3])] []) 2 1,
    -- 37: e_cc += einsum(v.ovov, (0, 1, 2, 3), t2, (0, 2, 3, 1), ()) * -1
    .add 2 (.ein [(0, [0, 1, 2, 3]), (1, [0, 2, 3, 1])] []) (-1) 1
  ]
  ret := [(chars! "e_cc", 2)]

/-- codegen/RCCD.py:41-119 `update_amps`. -/
def update_amps : GenFun where
  args := [chars! "v.ovov", chars! "t2", chars! "f.vv", chars! "f.oo", chars! "v.oovv", chars! "v.oooo", chars! "v.vvvv"]
  body := [
    -- 60: tmp5 = np.copy(np.transpose(v.ovov, (0, 2, 3, 1)))
    .set 7 (.tr 0 [0, 2, 3, 1]) 1 1,
    -- 61: tmp5 += np.transpose(v.ovov, (0, 2, 1, 3)) * -0.5
    .add 7 (.tr 0 [0, 2, 1, 3]) (-1) 2,
    -- 62: tmp2 = np.copy(np.transpose(v.ovov, (0, 2, 3, 1))) * -1
    .set 8 (.tr 0 [0, 2, 3, 1]) (-1) 1,
    -- 63: tmp2 += np.transpose(v.ovov, (0, 2, 1, 3)) * 2
    .add 8 (.tr 0 [0, 2, 1, 3]) 2 1,
    -- 64: tmp6 = einsum(tmp5, (0, 1, 2, 3), t2, (0, 1, 3, 4), (4, 2))
    .set 9 (.ein [(7, [0, 1, 2, 3]), (1, [0, 1, 3, 4])] [4, 2]) 1 1,
    -- 65: tmp8 = einsum(t2, (0, 1, 2, 3), tmp5, (1, 4, 2, 3), (0, 4)) * 2
    .set 10 (.ein [(1, [0, 1, 2, 3]), (7, [1, 4, 2, 3])] [0, 4]) 2 1,
    -- 66: del tmp5
    .del 7,
    -- 67: tmp3 = einsum(t2, (0, 1, 2, 3), tmp2, (1, 4, 3, 5), (0, 4, 2, 5))
    .set 11 (.ein [(1, [0, 1, 2, 3]), (8, [1, 4, 3, 5])] [0, 4, 2, 5]) 1 1,
    -- 68: del tmp2
    .del 8,
    -- 69: tmp0 = einsum(t2, (0, 1, 2, 3), v.ovov, (4, 5, 1, 2), (0, 4, 3, 5))
    .set 12 (.ein [(1, [0, 1, 2, 3]), (0, [4, 5, 1, 2])] [0, 4, 3, 5]) 1 1,
    -- 70: tmp7 = einsum(tmp6, (0, 1), t2, (2, 3, 1, 4), (2, 3, 4, 0)) * 2
    .set 13 (.ein [(9, [0, 1]), (1, [2, 3, 1, 4])] [2, 3, 4, 0]) 2 1,
    -- 71: del tmp6
    .del 9,
    -- 72: tmp9 = einsum(t2, (0, 1, 2, 3), tmp8, (4, 1), (0, 4, 3, 2))
    .set 14 (.ein [(1, [0, 1, 2, 3]), (10, [4, 1])] [0, 4, 3, 2]) 1 1,
    -- 73: del tmp8
    .del 10,
    -- 74: tmp11 = einsum(t2, (0, 1, 2, 3), f.vv, (4, 3), (0, 1, 4, 2))
    .set 15 (.ein [(1, [0, 1, 2, 3]), (2, [4, 3])] [0, 1, 4, 2]) 1 1,
    -- 75: tmp4 = einsum(tmp3, (0, 1, 2, 3), t2, (4, 1, 3, 5), (4, 0, 5, 2))
    .set 16 (.ein [(11, [0, 1, 2, 3]), (1, [4, 1, 3, 5])] [4, 0, 5, 2]) 1 1,
    -- 76: tmp1 = einsum(f.oo, (0, 1), t2, (2, 1, 3, 4), (0, 2, 3, 4))
    .set 17 (.ein [(3, [0, 1]), (1, [2, 1, 3, 4])] [0, 2, 3, 4]) 1 1,
    -- 77: tmp15 = np.copy(v.oovv) * -1
    .set 18 (.cp 4) (-1) 1,
    -- 78: tmp15 += einsum(v.ovov, (0, 1, 2, 3), t2, (4, 2, 1, 5), (4, 0, 5, 3))
    .add 18 (.ein [(0, [0, 1, 2, 3]), (1, [4, 2, 1, 5])] [4, 0, 5, 3]) 1 1,
    -- 79: tmp13 = np.copy(v.oooo)
    .set 19 (.cp 5) 1 1,
    -- 80: tmp13 += einsum(t2, (0, 1, 2, 3), v.ovov, (4, 2, 5, 3), (4, 0, 1, 5))
    .add 19 (.ein [(1, [0, 1, 2, 3]), (0, [4, 2, 5, 3])] [4, 0, 1, 5]) 1 1,
    -- 81: tmp12 = np.copy(np.transpose(v.ovov, (0, 2, 1, 3))) * 2
    .set 20 (.tr 0 [0, 2, 1, 3]) 2 1,
    -- 82: tmp12 += v.oovv * -1
    .add 20 (.cp 4) (-1) 1,
    -- 83: tmp12 += tmp3 * 2
    .add 20 (.cp 11) 2 1,
    -- 84: del tmp3
    .del 11,
    -- 85: tmp14 = np.copy(np.transpose(v.ovov, (0, 2, 1, 3))) * -1
    .set 21 (.tr 0 [0, 2, 1, 3]) (-1) 1,
    -- 86: tmp14 += tmp0
    .add 21 (.cp 12) 1 1,
    -- 87: tmp10 = np.copy(np.transpose(tmp7, (1, 0, 2, 3)))
    .set 22 (.tr 13 [1, 0, 2, 3]) 1 1,
    -- 88: del tmp7
    .del 13,
    -- 89: tmp10 += np.transpose(tmp9, (0, 1, 3, 2))
    .add 22 (.tr 14 [0, 1, 3, 2]) 1 1,
    -- 90: del tmp9
    .del 14,
    -- 91: t2new = np.copy(np.transpose(v.ovov, (0, 2, 1, 3)))
    .set 23 (.tr 0 [0, 2, 1, 3]) 1 1,
    -- 92: t2new += einsum(v.vvvv, (0, 1, 2, 3), t2, (4, 5, 1, 3), (4, 5, 0, 2))
    .add 23 (.ein [(6, [0, 1, 2, 3]), (1, [4, 5, 1, 3])] [4, 5, 0, 2]) 1 1,
    -- 93: t2new += einsum(v.oovv, (0, 1, 2, 3), t2, (4, 1, 5, 3), (4, 0, 5, 2)) * -1
    .add 23 (.ein [(4, [0, 1, 2, 3]), (1, [4, 1, 5, 3])] [4, 0, 5, 2]) (-1) 1,
    -- 94: t2new += tmp0 * -1
    .add 23 (.cp 12) (-1) 1,
    -- 95: del tmp0
    .del 12,
    -- 96: t2new += einsum(t2, (0, 1, 2, 3), v.oovv, (4, 1, 5, 2), (0, 4, 5, 3)) * -1
    .add 23 (.ein [(1, [0, 1, 2, 3]), (4, [4, 1, 5, 2])] [0, 4, 5, 3]) (-1) 1,
    -- 97: t2new += einsum(t2, (0, 1, 2, 3), v.ovov, (4, 5, 1, 3), (0, 4, 2, 5)) * 2
    .add 23 (.ein [(1, [0, 1, 2, 3]), (0, [4, 5, 1, 3])] [0, 4, 2, 5]) 2 1,
    -- 98: t2new += np.transpose(tmp1, (0, 1, 3, 2)) * -1
    .add 23 (.tr 17 [0, 1, 3, 2]) (-1) 1,
    -- 99: t2new += np.transpose(tmp1, (1, 0, 2, 3)) * -1
    .add 23 (.tr 17 [1, 0, 2, 3]) (-1) 1,
    -- 100: del tmp1
    .del 17,
    -- 101: t2new += np.transpose(tmp4, (1, 0, 3, 2)) * -1
    .add 23 (.tr 16 [1, 0, 3, 2]) (-1) 1,
    -- 102: t2new += tmp4 * -1
    .add 23 (.cp 16) (-1) 1,
    -- 103: del tmp4
    .del 16,
    -- 104: t2new += tmp10 * -1
    .add 23 (.cp 22) (-1) 1,
    -- 105: t2new += np.transpose(tmp10, (1, 0, 3, 2)) * -1
    .add 23 (.tr 22 [1, 0, 3, 2]) (-1) 1,
    -- 106: del tmp10
    .del 22,
    -- 107: t2new += np.transpose(tmp11, (0, 1, 3, 2))
    .add 23 (.tr 15 [0, 1, 3, 2]) 1 1,
    -- 108: t2new += np.transpose(tmp11, (1, 0, 2, 3))
    .add 23 (.tr 15 [1, 0, 2, 3]) 1 1,
    -- 109: del tmp11
    .del 15,
    -- 110: t2new += einsum(tmp12, (0, 1, 2, 3), t2, (4, 1, 5, 3), (0, 4, 2, 5))
    .add 23 (.ein [(20, [0, 1, 2, 3]), (1, [4, 1, 5, 3])] [0, 4, 2, 5]) 1 1,
    -- 111: del tmp12
    .del 20,
    -- 112: t2new += einsum(tmp13, (0, 1, 2, 3), t2, (0, 3, 4, 5), (2, 1, 5, 4))
    .add 23 (.ein [(19, [0, 1, 2, 3]), (1, [0, 3, 4, 5])] [2, 1, 5, 4]) 1 1,
    -- 113: del tmp13
    .del 19,
    -- 114: t2new += einsum(t2, (0, 1, 2, 3), tmp14, (4, 1, 5, 2), (4, 0, 5, 3))
    .add 23 (.ein [(1, [0, 1, 2, 3]), (21, [4, 1, 5, 2])] [4, 0, 5, 3]) 1 1,
    -- 115: del tmp14
    .del 21,
    -- 116: t2new += einsum(tmp15, (0, 1, 2, 3), t2, (4, 1, 3, 5), (0, 4, 5, 2))
    .add 23 (.ein [(18, [0, 1, 2, 3]), (1, [4, 1, 3, 5])] [0, 4, 5, 2]) 1 1,
    -- 117: del tmp15
    .del 18
  ]
  ret := [(chars! "t2new", 23)]

/-- codegen/RCCD.py:121-235 `update_lams`. -/
def update_lams : GenFun where
  args := [chars! "l2", chars! "t2", chars! "v.ovov", chars! "v.oovv", chars! "f.vv", chars! "f.oo", chars! "v.oooo", chars! "v.vvvv"]
  body := [
    -- 142: tmp5 = np.copy(np.transpose(l2, (3, 2, 0, 1))) * -1
    .set 8 (.tr 0 [3, 2, 0, 1]) (-1) 1,
    -- 143: tmp5 += np.transpose(l2, (2, 3, 0, 1)) * 2
    .add 8 (.tr 0 [2, 3, 0, 1]) 2 1,
    -- 144: tmp10 = einsum(l2, (0, 1, 2, 3), t2, (4, 2, 1, 5), (3, 4, 0, 5))
    .set 9 (.ein [(0, [0, 1, 2, 3]), (1, [4, 2, 1, 5])] [3, 4, 0, 5]) 1 1,
    -- 145: tmp4 = einsum(l2, (0, 1, 2, 3), t2, (4, 3, 1, 5), (2, 4, 0, 5))
    .set 10 (.ein [(0, [0, 1, 2, 3]), (1, [4, 3, 1, 5])] [2, 4, 0, 5]) 1 1,
    -- 146: tmp6 = einsum(t2, (0, 1, 2, 3), tmp5, (1, 4, 3, 5), (0, 4, 2, 5))
    .set 11 (.ein [(1, [0, 1, 2, 3]), (8, [1, 4, 3, 5])] [0, 4, 2, 5]) 1 1,
    -- 147: del tmp5
    .del 8,
    -- 148: tmp26 = np.copy(np.transpose(t2, (0, 1, 3, 2)))
    .set 12 (.tr 1 [0, 1, 3, 2]) 1 1,
    -- 149: tmp26 += t2 * -0.5
    .add 12 (.cp 1) (-1) 2,
    -- 150: tmp15 = einsum(v.ovov, (0, 1, 2, 3), t2, (4, 2, 1, 5), (4, 0, 5, 3))
    .set 13 (.ein [(2, [0, 1, 2, 3]), (1, [4, 2, 1, 5])] [4, 0, 5, 3]) 1 1,
    -- 151: tmp19 = np.copy(np.transpose(t2, (0, 1, 3, 2))) * -1
    .set 14 (.tr 1 [0, 1, 3, 2]) (-1) 1,
    -- 152: tmp19 += t2 * 2
    .add 14 (.cp 1) 2 1,
    -- 153: tmp22 = np.copy(np.transpose(t2, (0, 1, 3, 2))) * 2
    .set 15 (.tr 1 [0, 1, 3, 2]) 2 1,
    -- 154: tmp22 += t2 * -1
    .add 15 (.cp 1) (-1) 1,
    -- 155: tmp11 = np.copy(tmp10)
    .set 16 (.cp 9) 1 1,
    -- 156: del tmp10
    .del 9,
    -- 157: tmp11 += np.transpose(l2, (3, 2, 0, 1)) * -1
    .add 16 (.tr 0 [3, 2, 0, 1]) (-1) 1,
    -- 158: tmp11 += np.transpose(l2, (2, 3, 0, 1)) * 2
    .add 16 (.tr 0 [2, 3, 0, 1]) 2 1,
    -- 159: tmp8 = np.copy(np.transpose(v.ovov, (0, 2, 3, 1))) * -1
    .set 17 (.tr 2 [0, 2, 3, 1]) (-1) 1,
    -- 160: tmp8 += np.transpose(v.ovov, (0, 2, 1, 3)) * 2
    .add 17 (.tr 2 [0, 2, 1, 3]) 2 1,
    -- 161: tmp7 = np.copy(tmp4)
    .set 18 (.cp 10) 1 1,
    -- 162: del tmp4
    .del 10,
    -- 163: tmp7 += np.transpose(tmp6, (1, 0, 3, 2)) * -1
    .add 18 (.tr 11 [1, 0, 3, 2]) (-1) 1,
    -- 164: del tmp6
    .del 11,
    -- 165: tmp29 = einsum(l2, (0, 1, 2, 3), tmp26, (2, 4, 1, 0), (3, 4)) * 2
    .set 19 (.ein [(0, [0, 1, 2, 3]), (12, [2, 4, 1, 0])] [3, 4]) 2 1,
    -- 166: tmp27 = einsum(l2, (0, 1, 2, 3), tmp26, (3, 2, 4, 1), (0, 4)) * 2
    .set 20 (.ein [(0, [0, 1, 2, 3]), (12, [3, 2, 4, 1])] [0, 4]) 2 1,
    -- 167: del tmp26
    .del 12,
    -- 168: tmp16 = np.copy(v.oovv) * -1
    .set 21 (.cp 3) (-1) 1,
    -- 169: tmp16 += tmp15
    .add 21 (.cp 13) 1 1,
    -- 170: del tmp15
    .del 13,
    -- 171: tmp20 = einsum(v.ovov, (0, 1, 2, 3), tmp19, (0, 2, 1, 4), (3, 4)) * 0.5
    .set 22 (.ein [(2, [0, 1, 2, 3]), (14, [0, 2, 1, 4])] [3, 4]) 1 2,
    -- 172: del tmp19
    .del 14,
    -- 173: tmp23 = einsum(tmp22, (0, 1, 2, 3), v.ovov, (4, 2, 0, 3), (4, 1))
    .set 23 (.ein [(15, [0, 1, 2, 3]), (2, [4, 2, 0, 3])] [4, 1]) 1 1,
    -- 174: del tmp22
    .del 15,
    -- 175: tmp12 = einsum(tmp11, (0, 1, 2, 3), v.ovov, (4, 5, 1, 3), (4, 0, 5, 2))
    .set 24 (.ein [(16, [0, 1, 2, 3]), (2, [4, 5, 1, 3])] [4, 0, 5, 2]) 1 1,
    -- 176: del tmp11
    .del 16,
    -- 177: tmp3 = einsum(v.oovv, (0, 1, 2, 3), l2, (4, 3, 5, 1), (5, 0, 4, 2))
    .set 25 (.ein [(3, [0, 1, 2, 3]), (0, [4, 3, 5, 1])] [5, 0, 4, 2]) 1 1,
    -- 178: tmp9 = einsum(tmp7, (0, 1, 2, 3), tmp8, (1, 4, 3, 5), (0, 4, 2, 5))
    .set 26 (.ein [(18, [0, 1, 2, 3]), (17, [1, 4, 3, 5])] [0, 4, 2, 5]) 1 1,
    -- 179: del tmp7, tmp8
    .del 18,
    .del 17,
    -- 180: tmp30 = einsum(tmp29, (0, 1), v.ovov, (2, 3, 1, 4), (2, 0, 4, 3))
    .set 27 (.ein [(19, [0, 1]), (2, [2, 3, 1, 4])] [2, 0, 4, 3]) 1 1,
    -- 181: del tmp29
    .del 19,
    -- 182: tmp28 = einsum(tmp27, (0, 1), v.ovov, (2, 1, 3, 4), (2, 3, 4, 0))
    .set 28 (.ein [(20, [0, 1]), (2, [2, 1, 3, 4])] [2, 3, 4, 0]) 1 1,
    -- 183: del tmp27
    .del 20,
    -- 184: tmp14 = einsum(l2, (0, 1, 2, 3), f.vv, (4, 1), (2, 3, 4, 0))
    .set 29 (.ein [(0, [0, 1, 2, 3]), (4, [4, 1])] [2, 3, 4, 0]) 1 1,
    -- 185: tmp17 = einsum(tmp16, (0, 1, 2, 3), l2, (4, 2, 0, 5), (5, 1, 4, 3))
    .set 30 (.ein [(21, [0, 1, 2, 3]), (0, [4, 2, 0, 5])] [5, 1, 4, 3]) 1 1,
    -- 186: del tmp16
    .del 21,
    -- 187: tmp21 = einsum(l2, (0, 1, 2, 3), tmp20, (4, 1), (3, 2, 0, 4)) * 2
    .set 31 (.ein [(0, [0, 1, 2, 3]), (22, [4, 1])] [3, 2, 0, 4]) 2 1,
    -- 188: del tmp20
    .del 22,
    -- 189: tmp24 = einsum(l2, (0, 1, 2, 3), tmp23, (4, 2), (3, 4, 0, 1))
    .set 32 (.ein [(0, [0, 1, 2, 3]), (23, [4, 2])] [3, 4, 0, 1]) 1 1,
    -- 190: del tmp23
    .del 23,
    -- 191: tmp13 = np.copy(tmp3)
    .set 33 (.cp 25) 1 1,
    -- 192: del tmp3
    .del 25,
    -- 193: tmp13 += tmp9
    .add 33 (.cp 26) 1 1,
    -- 194: del tmp9
    .del 26,
    -- 195: tmp13 += np.transpose(tmp12, (1, 0, 3, 2)) * -1
    .add 33 (.tr 24 [1, 0, 3, 2]) (-1) 1,
    -- 196: del tmp12
    .del 24,
    -- 197: tmp31 = np.copy(np.transpose(tmp28, (1, 0, 3, 2)))
    .set 34 (.tr 28 [1, 0, 3, 2]) 1 1,
    -- 198: del tmp28
    .del 28,
    -- 199: tmp31 += np.transpose(tmp30, (1, 0, 3, 2))
    .add 34 (.tr 27 [1, 0, 3, 2]) 1 1,
    -- 200: del tmp30
    .del 27,
    -- 201: tmp18 = np.copy(tmp14)
    .set 35 (.cp 29) 1 1,
    -- 202: del tmp14
    .del 29,
    -- 203: tmp18 += tmp17
    .add 35 (.cp 30) 1 1,
    -- 204: del tmp17
    .del 30,
    -- 205: tmp1 = einsum(t2, (0, 1, 2, 3), l2, (3, 2, 4, 5), (5, 4, 0, 1))
    .set 36 (.ein [(1, [0, 1, 2, 3]), (0, [3, 2, 4, 5])] [5, 4, 0, 1]) 1 1,
    -- 206: tmp25 = np.copy(np.transpose(tmp21, (1, 0, 2, 3)))
    .set 37 (.tr 31 [1, 0, 2, 3]) 1 1,
    -- 207: del tmp21
    .del 31,
    -- 208: tmp25 += np.transpose(tmp24, (0, 1, 3, 2))
    .add 37 (.tr 32 [0, 1, 3, 2]) 1 1,
    -- 209: del tmp24
    .del 32,
    -- 210: tmp2 = einsum(f.oo, (0, 1), l2, (2, 3, 4, 1), (0, 4, 2, 3))
    .set 38 (.ein [(5, [0, 1]), (0, [2, 3, 4, 1])] [0, 4, 2, 3]) 1 1,
    -- 211: tmp0 = einsum(t2, (0, 1, 2, 3), v.ovov, (4, 2, 5, 3), (0, 1, 4, 5))
    .set 39 (.ein [(1, [0, 1, 2, 3]), (2, [4, 2, 5, 3])] [0, 1, 4, 5]) 1 1,
    -- 212: l2new = einsum(v.oooo, (0, 1, 2, 3), l2, (4, 5, 1, 3), (4, 5, 0, 2))
    .set 40 (.ein [(6, [0, 1, 2, 3]), (0, [4, 5, 1, 3])] [4, 5, 0, 2]) 1 1,
    -- 213: l2new += np.transpose(v.ovov, (1, 3, 0, 2))
    .add 40 (.tr 2 [1, 3, 0, 2]) 1 1,
    -- 214: l2new += einsum(v.vvvv, (0, 1, 2, 3), l2, (1, 3, 4, 5), (0, 2, 4, 5))
    .add 40 (.ein [(7, [0, 1, 2, 3]), (0, [1, 3, 4, 5])] [0, 2, 4, 5]) 1 1,
    -- 215: l2new += einsum(l2, (0, 1, 2, 3), tmp0, (2, 3, 4, 5), (0, 1, 4, 5))
    .add 40 (.ein [(0, [0, 1, 2, 3]), (39, [2, 3, 4, 5])] [0, 1, 4, 5]) 1 1,
    -- 216: del tmp0
    .del 39,
    -- 217: l2new += einsum(tmp1, (0, 1, 2, 3), v.ovov, (3, 4, 2, 5), (5, 4, 0, 1))
    .add 40 (.ein [(36, [0, 1, 2, 3]), (2, [3, 4, 2, 5])] [5, 4, 0, 1]) 1 1,
    -- 218: del tmp1
    .del 36,
    -- 219: l2new += np.transpose(tmp2, (3, 2, 0, 1)) * -1
    .add 40 (.tr 38 [3, 2, 0, 1]) (-1) 1,
    -- 220: l2new += np.transpose(tmp2, (2, 3, 1, 0)) * -1
    .add 40 (.tr 38 [2, 3, 1, 0]) (-1) 1,
    -- 221: del tmp2
    .del 38,
    -- 222: l2new += np.transpose(tmp13, (2, 3, 0, 1)) * -1
    .add 40 (.tr 33 [2, 3, 0, 1]) (-1) 1,
    -- 223: l2new += np.transpose(tmp13, (3, 2, 1, 0)) * -1
    .add 40 (.tr 33 [3, 2, 1, 0]) (-1) 1,
    -- 224: del tmp13
    .del 33,
    -- 225: l2new += np.transpose(tmp18, (3, 2, 0, 1))
    .add 40 (.tr 35 [3, 2, 0, 1]) 1 1,
    -- 226: l2new += np.transpose(tmp18, (2, 3, 1, 0))
    .add 40 (.tr 35 [2, 3, 1, 0]) 1 1,
    -- 227: del tmp18
    .del 35,
    -- 228: l2new += np.transpose(tmp25, (2, 3, 0, 1)) * -1
    .add 40 (.tr 37 [2, 3, 0, 1]) (-1) 1,
    -- 229: l2new += np.transpose(tmp25, (3, 2, 1, 0)) * -1
    .add 40 (.tr 37 [3, 2, 1, 0]) (-1) 1,
    -- 230: del tmp25
    .del 37,
    -- 231: l2new += np.transpose(tmp31, (3, 2, 0, 1)) * -1
    .add 40 (.tr 34 [3, 2, 0, 1]) (-1) 1,
    -- 232: l2new += np.transpose(tmp31, (2, 3, 1, 0)) * -1
    .add 40 (.tr 34 [2, 3, 1, 0]) (-1) 1,
    -- 233: del tmp31
    .del 34
  ]
  ret := [(chars! "l2new", 40)]

end Ebcc.Gen.RCCD
