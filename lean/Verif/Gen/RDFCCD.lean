import Verif.Model.GenCode
/-!
Functions of `ebcc/codegen/RDFCCD.py`, written by `tools/gencode.py`.  Comments give the
number and the text of the line of each statement.
-/

set_option maxRecDepth 100000

namespace Ebcc.Gen.RDFCCD

/-- codegen/RDFCCD.py:19-43 `energy`. -/
def energy : GenFun where
  args := [chars! "t2", chars! "v.xov"]
  body := [
    -- 36: tmp0 = np.copy(np.transpose(t2, (0, 1, 3, 2))) * 2
    .set 2 (.tr 0 [0, 1, 3, 2]) 2 1,
    -- 37: tmp0 += t2 * -1
    .add 2 (.cp 0) (-1) 1,
    -- 38: tmp1 = einsum(v.xov, (0, 1, 2), tmp0, (1, 3, 4, 2), (3, 4, 0)) * 0.5
    .set 3 (.ein [(1, [0, 1, 2]), (2, [1, 3, 4, 2])] [3, 4, 0]) 1 2,
    -- 39: del tmp0
    .del 2,
    -- 40: e_cc = einsum(v.xov, (0, 1, 2), tmp1, (1, 2, 0), ()) * 2
    .set 4 (.ein [(1, [0, 1, 2]), (3, [1, 2, 0])] []) 2 1,
    -- 41: del tmp1
    .del 3
  ]
  ret := [(chars! "e_cc", 4)]

/-- codegen/RDFCCD.py:45-138 `update_amps`. -/
def update_amps : GenFun where
  args := [chars! "v.xov", chars! "t2", chars! "v.xvv", chars! "v.xoo", chars! "f.vv", chars! "f.oo"]
  body := [
    -- 64: tmp0 = einsum(v.xov, (0, 1, 2), t2, (3, 1, 2, 4), (3, 4, 0))
    .set 6 (.ein [(0, [0, 1, 2]), (1, [3, 1, 2, 4])] [3, 4, 0]) 1 1,
    -- 65: tmp6 = np.copy(np.transpose(v.xov, (1, 2, 0)))
    .set 7 (.tr 0 [1, 2, 0]) 1 1,
    -- 66: tmp6 += tmp0 * -1
    .add 7 (.cp 6) (-1) 1,
    -- 67: tmp1 = einsum(v.xov, (0, 1, 2), v.xov, (0, 3, 4), (3, 1, 4, 2))
    .set 8 (.ein [(0, [0, 1, 2]), (0, [0, 3, 4])] [3, 1, 4, 2]) 1 1,
    -- 68: tmp11 = np.copy(np.transpose(t2, (0, 1, 3, 2))) * 2
    .set 9 (.tr 1 [0, 1, 3, 2]) 2 1,
    -- 69: tmp11 += t2 * -1
    .add 9 (.cp 1) (-1) 1,
    -- 70: tmp5 = einsum(v.xvv, (0, 1, 2), v.xoo, (0, 3, 4), (3, 4, 1, 2))
    .set 10 (.ein [(2, [0, 1, 2]), (3, [0, 3, 4])] [3, 4, 1, 2]) 1 1,
    -- 71: tmp7 = einsum(v.xov, (0, 1, 2), tmp6, (3, 4, 0), (1, 3, 2, 4))
    .set 11 (.ein [(0, [0, 1, 2]), (7, [3, 4, 0])] [1, 3, 2, 4]) 1 1,
    -- 72: del tmp6
    .del 7,
    -- 73: tmp2 = einsum(t2, (0, 1, 2, 3), tmp1, (1, 4, 5, 2), (0, 4, 3, 5))
    .set 12 (.ein [(1, [0, 1, 2, 3]), (8, [1, 4, 5, 2])] [0, 4, 3, 5]) 1 1,
    -- 74: tmp12 = einsum(v.xov, (0, 1, 2), tmp11, (1, 3, 4, 2), (3, 4, 0))
    .set 13 (.ein [(0, [0, 1, 2]), (9, [1, 3, 4, 2])] [3, 4, 0]) 1 1,
    -- 75: del tmp11
    .del 9,
    -- 76: tmp8 = np.copy(np.transpose(tmp5, (1, 0, 3, 2)))
    .set 14 (.tr 10 [1, 0, 3, 2]) 1 1,
    -- 77: tmp8 += tmp2 * -1
    .add 14 (.cp 12) (-1) 1,
    -- 78: tmp8 += np.transpose(tmp7, (1, 0, 3, 2)) * -2
    .add 14 (.tr 11 [1, 0, 3, 2]) (-2) 1,
    -- 79: del tmp7
    .del 11,
    -- 80: tmp15 = einsum(tmp12, (0, 1, 2), v.xov, (2, 3, 1), (3, 0))
    .set 15 (.ein [(13, [0, 1, 2]), (0, [2, 3, 1])] [3, 0]) 1 1,
    -- 81: tmp13 = einsum(v.xov, (0, 1, 2), tmp12, (1, 3, 0), (2, 3)) * 0.5
    .set 16 (.ein [(0, [0, 1, 2]), (13, [1, 3, 0])] [2, 3]) 1 2,
    -- 82: del tmp12
    .del 13,
    -- 83: tmp23 = np.copy(np.transpose(tmp1, (1, 0, 2, 3))) * 2
    .set 17 (.tr 8 [1, 0, 2, 3]) 2 1,
    -- 84: tmp23 += np.transpose(tmp1, (1, 0, 3, 2)) * -1
    .add 17 (.tr 8 [1, 0, 3, 2]) (-1) 1,
    -- 85: tmp9 = einsum(tmp8, (0, 1, 2, 3), t2, (4, 1, 5, 3), (4, 0, 5, 2))
    .set 18 (.ein [(14, [0, 1, 2, 3]), (1, [4, 1, 5, 3])] [4, 0, 5, 2]) 1 1,
    -- 86: del tmp8
    .del 14,
    -- 87: tmp4 = einsum(v.xov, (0, 1, 2), tmp0, (3, 4, 0), (3, 1, 4, 2))
    .set 19 (.ein [(0, [0, 1, 2]), (6, [3, 4, 0])] [3, 1, 4, 2]) 1 1,
    -- 88: tmp19 = einsum(f.vv, (0, 1), t2, (2, 3, 4, 1), (2, 3, 0, 4))
    .set 20 (.ein [(4, [0, 1]), (1, [2, 3, 4, 1])] [2, 3, 0, 4]) 1 1,
    -- 89: tmp20 = einsum(t2, (0, 1, 2, 3), tmp5, (4, 1, 5, 2), (0, 4, 3, 5))
    .set 21 (.ein [(1, [0, 1, 2, 3]), (10, [4, 1, 5, 2])] [0, 4, 3, 5]) 1 1,
    -- 90: del tmp5
    .del 10,
    -- 91: tmp16 = einsum(t2, (0, 1, 2, 3), tmp15, (1, 4), (0, 4, 3, 2))
    .set 22 (.ein [(1, [0, 1, 2, 3]), (15, [1, 4])] [0, 4, 3, 2]) 1 1,
    -- 92: del tmp15
    .del 15,
    -- 93: tmp14 = einsum(t2, (0, 1, 2, 3), tmp13, (2, 4), (0, 1, 3, 4)) * 2
    .set 23 (.ein [(1, [0, 1, 2, 3]), (16, [2, 4])] [0, 1, 3, 4]) 2 1,
    -- 94: del tmp13
    .del 16,
    -- 95: tmp3 = einsum(v.xvv, (0, 1, 2), v.xvv, (0, 3, 4), (1, 3, 4, 2))
    .set 24 (.ein [(2, [0, 1, 2]), (2, [0, 3, 4])] [1, 3, 4, 2]) 1 1,
    -- 96: tmp24 = einsum(t2, (0, 1, 2, 3), tmp23, (1, 4, 5, 3), (0, 4, 2, 5))
    .set 25 (.ein [(1, [0, 1, 2, 3]), (17, [1, 4, 5, 3])] [0, 4, 2, 5]) 1 1,
    -- 97: del tmp23
    .del 17,
    -- 98: tmp10 = np.copy(tmp4)
    .set 26 (.cp 19) 1 1,
    -- 99: del tmp4
    .del 19,
    -- 100: tmp10 += tmp9
    .add 26 (.cp 18) 1 1,
    -- 101: del tmp9
    .del 18,
    -- 102: tmp22 = einsum(v.xoo, (0, 1, 2), v.xoo, (0, 3, 4), (3, 1, 2, 4))
    .set 27 (.ein [(3, [0, 1, 2]), (3, [0, 3, 4])] [3, 1, 2, 4]) 1 1,
    -- 103: tmp22 += einsum(tmp1, (0, 1, 2, 3), t2, (4, 5, 3, 2), (0, 4, 1, 5))
    .add 27 (.ein [(8, [0, 1, 2, 3]), (1, [4, 5, 3, 2])] [0, 4, 1, 5]) 1 1,
    -- 104: tmp21 = np.copy(tmp19)
    .set 28 (.cp 20) 1 1,
    -- 105: del tmp19
    .del 20,
    -- 106: tmp21 += tmp20 * -1
    .add 28 (.cp 21) (-1) 1,
    -- 107: del tmp20
    .del 21,
    -- 108: tmp17 = np.copy(np.transpose(tmp14, (1, 0, 2, 3)))
    .set 29 (.tr 23 [1, 0, 2, 3]) 1 1,
    -- 109: del tmp14
    .del 23,
    -- 110: tmp17 += np.transpose(tmp16, (0, 1, 3, 2))
    .add 29 (.tr 22 [0, 1, 3, 2]) 1 1,
    -- 111: del tmp16
    .del 22,
    -- 112: tmp18 = einsum(t2, (0, 1, 2, 3), f.oo, (4, 1), (4, 0, 2, 3))
    .set 30 (.ein [(1, [0, 1, 2, 3]), (5, [4, 1])] [4, 0, 2, 3]) 1 1,
    -- 113: t2new = einsum(tmp0, (0, 1, 2), tmp0, (3, 4, 2), (3, 0, 4, 1))
    .set 31 (.ein [(6, [0, 1, 2]), (6, [3, 4, 2])] [3, 0, 4, 1]) 1 1,
    -- 114: del tmp0
    .del 6,
    -- 115: t2new += einsum(tmp2, (0, 1, 2, 3), t2, (4, 1, 3, 5), (4, 0, 2, 5))
    .add 31 (.ein [(12, [0, 1, 2, 3]), (1, [4, 1, 3, 5])] [4, 0, 2, 5]) 1 1,
    -- 116: del tmp2
    .del 12,
    -- 117: t2new += np.transpose(tmp1, (1, 0, 3, 2))
    .add 31 (.tr 8 [1, 0, 3, 2]) 1 1,
    -- 118: del tmp1
    .del 8,
    -- 119: t2new += einsum(t2, (0, 1, 2, 3), tmp3, (4, 3, 5, 2), (0, 1, 4, 5))
    .add 31 (.ein [(1, [0, 1, 2, 3]), (24, [4, 3, 5, 2])] [0, 1, 4, 5]) 1 1,
    -- 120: del tmp3
    .del 24,
    -- 121: t2new += tmp10 * -1
    .add 31 (.cp 26) (-1) 1,
    -- 122: t2new += np.transpose(tmp10, (1, 0, 3, 2)) * -1
    .add 31 (.tr 26 [1, 0, 3, 2]) (-1) 1,
    -- 123: del tmp10
    .del 26,
    -- 124: t2new += tmp17 * -1
    .add 31 (.cp 29) (-1) 1,
    -- 125: t2new += np.transpose(tmp17, (1, 0, 3, 2)) * -1
    .add 31 (.tr 29 [1, 0, 3, 2]) (-1) 1,
    -- 126: del tmp17
    .del 29,
    -- 127: t2new += np.transpose(tmp18, (0, 1, 3, 2)) * -1
    .add 31 (.tr 30 [0, 1, 3, 2]) (-1) 1,
    -- 128: t2new += np.transpose(tmp18, (1, 0, 2, 3)) * -1
    .add 31 (.tr 30 [1, 0, 2, 3]) (-1) 1,
    -- 129: del tmp18
    .del 30,
    -- 130: t2new += np.transpose(tmp21, (0, 1, 3, 2))
    .add 31 (.tr 28 [0, 1, 3, 2]) 1 1,
    -- 131: t2new += np.transpose(tmp21, (1, 0, 2, 3))
    .add 31 (.tr 28 [1, 0, 2, 3]) 1 1,
    -- 132: del tmp21
    .del 28,
    -- 133: t2new += einsum(t2, (0, 1, 2, 3), tmp22, (0, 4, 1, 5), (4, 5, 3, 2))
    .add 31 (.ein [(1, [0, 1, 2, 3]), (27, [0, 4, 1, 5])] [4, 5, 3, 2]) 1 1,
    -- 134: del tmp22
    .del 27,
    -- 135: t2new += einsum(tmp24, (0, 1, 2, 3), t2, (4, 1, 5, 3), (0, 4, 2, 5)) * 2
    .add 31 (.ein [(25, [0, 1, 2, 3]), (1, [4, 1, 5, 3])] [0, 4, 2, 5]) 2 1,
    -- 136: del tmp24
    .del 25
  ]
  ret := [(chars! "t2new", 31)]

/-- codegen/RDFCCD.py:140-267 `update_lams`. -/
def update_lams : GenFun where
  args := [chars! "t2", chars! "l2", chars! "v.xov", chars! "v.xvv", chars! "v.xoo", chars! "f.vv", chars! "f.oo"]
  body := [
    -- 161: tmp10 = np.copy(np.transpose(t2, (0, 1, 3, 2))) * 2
    .set 7 (.tr 0 [0, 1, 3, 2]) 2 1,
    -- 162: tmp10 += t2 * -1
    .add 7 (.cp 0) (-1) 1,
    -- 163: tmp22 = np.copy(np.transpose(t2, (0, 1, 3, 2)))
    .set 8 (.tr 0 [0, 1, 3, 2]) 1 1,
    -- 164: tmp22 += t2 * -0.5
    .add 8 (.cp 0) (-1) 2,
    -- 165: tmp6 = np.copy(np.transpose(l2, (3, 2, 0, 1))) * -1
    .set 9 (.tr 1 [3, 2, 0, 1]) (-1) 1,
    -- 166: tmp6 += np.transpose(l2, (2, 3, 0, 1)) * 2
    .add 9 (.tr 1 [2, 3, 0, 1]) 2 1,
    -- 167: tmp11 = einsum(v.xov, (0, 1, 2), tmp10, (1, 3, 4, 2), (3, 4, 0))
    .set 10 (.ein [(2, [0, 1, 2]), (7, [1, 3, 4, 2])] [3, 4, 0]) 1 1,
    -- 168: del tmp10
    .del 7,
    -- 169: tmp0 = einsum(v.xov, (0, 1, 2), v.xov, (0, 3, 4), (3, 1, 4, 2))
    .set 11 (.ein [(2, [0, 1, 2]), (2, [0, 3, 4])] [3, 1, 4, 2]) 1 1,
    -- 170: tmp30 = np.copy(np.transpose(t2, (0, 1, 3, 2))) * 2
    .set 12 (.tr 0 [0, 1, 3, 2]) 2 1,
    -- 171: tmp30 += t2 * -1
    .add 12 (.cp 0) (-1) 1,
    -- 172: tmp26 = einsum(tmp22, (0, 1, 2, 3), l2, (4, 3, 1, 0), (4, 2)) * 2
    .set 13 (.ein [(8, [0, 1, 2, 3]), (1, [4, 3, 1, 0])] [4, 2]) 2 1,
    -- 173: tmp23 = einsum(l2, (0, 1, 2, 3), tmp22, (2, 4, 1, 0), (3, 4)) * 2
    .set 14 (.ein [(1, [0, 1, 2, 3]), (8, [2, 4, 1, 0])] [3, 4]) 2 1,
    -- 174: del tmp22
    .del 8,
    -- 175: tmp5 = einsum(l2, (0, 1, 2, 3), t2, (4, 3, 1, 5), (2, 4, 0, 5))
    .set 15 (.ein [(1, [0, 1, 2, 3]), (0, [4, 3, 1, 5])] [2, 4, 0, 5]) 1 1,
    -- 176: tmp7 = einsum(tmp6, (0, 1, 2, 3), t2, (4, 0, 5, 2), (4, 1, 5, 3))
    .set 16 (.ein [(9, [0, 1, 2, 3]), (0, [4, 0, 5, 2])] [4, 1, 5, 3]) 1 1,
    -- 177: del tmp6
    .del 9,
    -- 178: tmp12 = np.copy(np.transpose(v.xov, (1, 2, 0)))
    .set 17 (.tr 2 [1, 2, 0]) 1 1,
    -- 179: tmp12 += tmp11
    .add 17 (.cp 10) 1 1,
    -- 180: del tmp11
    .del 10,
    -- 181: tmp13 = np.copy(np.transpose(l2, (3, 2, 0, 1))) * 2
    .set 18 (.tr 1 [3, 2, 0, 1]) 2 1,
    -- 182: tmp13 += np.transpose(l2, (2, 3, 0, 1)) * -1
    .add 18 (.tr 1 [2, 3, 0, 1]) (-1) 1,
    -- 183: tmp18 = einsum(t2, (0, 1, 2, 3), tmp0, (4, 1, 2, 5), (0, 4, 3, 5))
    .set 19 (.ein [(0, [0, 1, 2, 3]), (11, [4, 1, 2, 5])] [0, 4, 3, 5]) 1 1,
    -- 184: tmp3 = einsum(v.xvv, (0, 1, 2), v.xoo, (0, 3, 4), (3, 4, 1, 2))
    .set 20 (.ein [(3, [0, 1, 2]), (4, [0, 3, 4])] [3, 4, 1, 2]) 1 1,
    -- 185: tmp31 = einsum(v.xov, (0, 1, 2), tmp30, (1, 3, 4, 2), (3, 4, 0))
    .set 21 (.ein [(2, [0, 1, 2]), (12, [1, 3, 4, 2])] [3, 4, 0]) 1 1,
    -- 186: del tmp30
    .del 12,
    -- 187: tmp27 = einsum(tmp26, (0, 1), v.xov, (2, 3, 1), (3, 0, 2))
    .set 22 (.ein [(13, [0, 1]), (2, [2, 3, 1])] [3, 0, 2]) 1 1,
    -- 188: del tmp26
    .del 13,
    -- 189: tmp24 = einsum(tmp23, (0, 1), v.xov, (2, 1, 3), (0, 3, 2)) * 0.5
    .set 23 (.ein [(14, [0, 1]), (2, [2, 1, 3])] [0, 3, 2]) 1 2,
    -- 190: del tmp23
    .del 14,
    -- 191: tmp8 = np.copy(tmp5)
    .set 24 (.cp 15) 1 1,
    -- 192: del tmp5
    .del 15,
    -- 193: tmp8 += np.transpose(tmp7, (1, 0, 3, 2)) * -1
    .add 24 (.tr 16 [1, 0, 3, 2]) (-1) 1,
    -- 194: del tmp7
    .del 16,
    -- 195: tmp14 = einsum(tmp12, (0, 1, 2), tmp13, (0, 3, 4, 1), (3, 4, 2))
    .set 25 (.ein [(17, [0, 1, 2]), (18, [0, 3, 4, 1])] [3, 4, 2]) 1 1,
    -- 196: del tmp12, tmp13
    .del 17,
    .del 18,
    -- 197: tmp19 = np.copy(np.transpose(tmp3, (1, 0, 3, 2))) * -1
    .set 26 (.tr 20 [1, 0, 3, 2]) (-1) 1,
    -- 198: tmp19 += tmp18
    .add 26 (.cp 19) 1 1,
    -- 199: del tmp18
    .del 19,
    -- 200: tmp34 = einsum(tmp31, (0, 1, 2), v.xov, (2, 3, 1), (3, 0))
    .set 27 (.ein [(21, [0, 1, 2]), (2, [2, 3, 1])] [3, 0]) 1 1,
    -- 201: tmp32 = einsum(tmp31, (0, 1, 2), v.xov, (2, 0, 3), (3, 1)) * 0.5
    .set 28 (.ein [(21, [0, 1, 2]), (2, [2, 0, 3])] [3, 1]) 1 2,
    -- 202: del tmp31
    .del 21,
    -- 203: tmp28 = einsum(v.xov, (0, 1, 2), tmp27, (3, 4, 0), (1, 3, 2, 4))
    .set 29 (.ein [(2, [0, 1, 2]), (22, [3, 4, 0])] [1, 3, 2, 4]) 1 1,
    -- 204: del tmp27
    .del 22,
    -- 205: tmp25 = einsum(v.xov, (0, 1, 2), tmp24, (3, 4, 0), (1, 3, 2, 4)) * 2
    .set 30 (.ein [(2, [0, 1, 2]), (23, [3, 4, 0])] [1, 3, 2, 4]) 2 1,
    -- 206: del tmp24
    .del 23,
    -- 207: tmp9 = einsum(tmp8, (0, 1, 2, 3), tmp0, (1, 4, 5, 3), (4, 0, 5, 2))
    .set 31 (.ein [(24, [0, 1, 2, 3]), (11, [1, 4, 5, 3])] [4, 0, 5, 2]) 1 1,
    -- 208: del tmp8
    .del 24,
    -- 209: tmp15 = einsum(tmp14, (0, 1, 2), v.xov, (2, 3, 4), (3, 0, 4, 1))
    .set 32 (.ein [(25, [0, 1, 2]), (2, [2, 3, 4])] [3, 0, 4, 1]) 1 1,
    -- 210: del tmp14
    .del 25,
    -- 211: tmp4 = einsum(l2, (0, 1, 2, 3), tmp3, (4, 3, 5, 1), (2, 4, 0, 5))
    .set 33 (.ein [(1, [0, 1, 2, 3]), (20, [4, 3, 5, 1])] [2, 4, 0, 5]) 1 1,
    -- 212: del tmp3
    .del 20,
    -- 213: tmp17 = einsum(l2, (0, 1, 2, 3), f.vv, (4, 1), (2, 3, 4, 0))
    .set 34 (.ein [(1, [0, 1, 2, 3]), (5, [4, 1])] [2, 3, 4, 0]) 1 1,
    -- 214: tmp20 = einsum(tmp19, (0, 1, 2, 3), l2, (4, 2, 0, 5), (5, 1, 4, 3))
    .set 35 (.ein [(26, [0, 1, 2, 3]), (1, [4, 2, 0, 5])] [5, 1, 4, 3]) 1 1,
    -- 215: del tmp19
    .del 26,
    -- 216: tmp35 = einsum(l2, (0, 1, 2, 3), tmp34, (4, 2), (4, 3, 0, 1))
    .set 36 (.ein [(1, [0, 1, 2, 3]), (27, [4, 2])] [4, 3, 0, 1]) 1 1,
    -- 217: del tmp34
    .del 27,
    -- 218: tmp33 = einsum(l2, (0, 1, 2, 3), tmp32, (4, 1), (3, 2, 0, 4)) * 2
    .set 37 (.ein [(1, [0, 1, 2, 3]), (28, [4, 1])] [3, 2, 0, 4]) 2 1,
    -- 219: del tmp32
    .del 28,
    -- 220: tmp29 = np.copy(np.transpose(tmp25, (1, 0, 2, 3)))
    .set 38 (.tr 30 [1, 0, 2, 3]) 1 1,
    -- 221: del tmp25
    .del 30,
    -- 222: tmp29 += np.transpose(tmp28, (0, 1, 3, 2))
    .add 38 (.tr 29 [0, 1, 3, 2]) 1 1,
    -- 223: del tmp28
    .del 29,
    -- 224: tmp16 = np.copy(tmp4)
    .set 39 (.cp 33) 1 1,
    -- 225: del tmp4
    .del 33,
    -- 226: tmp16 += np.transpose(tmp9, (1, 0, 3, 2)) * -1
    .add 39 (.tr 31 [1, 0, 3, 2]) (-1) 1,
    -- 227: del tmp9
    .del 31,
    -- 228: tmp16 += np.transpose(tmp15, (1, 0, 3, 2)) * -1
    .add 39 (.tr 32 [1, 0, 3, 2]) (-1) 1,
    -- 229: del tmp15
    .del 32,
    -- 230: tmp38 = einsum(v.xoo, (0, 1, 2), v.xoo, (0, 3, 4), (3, 1, 2, 4))
    .set 40 (.ein [(4, [0, 1, 2]), (4, [0, 3, 4])] [3, 1, 2, 4]) 1 1,
    -- 231: tmp38 += einsum(t2, (0, 1, 2, 3), tmp0, (4, 5, 3, 2), (0, 1, 4, 5))
    .add 40 (.ein [(0, [0, 1, 2, 3]), (11, [4, 5, 3, 2])] [0, 1, 4, 5]) 1 1,
    -- 232: tmp21 = np.copy(tmp17)
    .set 41 (.cp 34) 1 1,
    -- 233: del tmp17
    .del 34,
    -- 234: tmp21 += tmp20
    .add 41 (.cp 35) 1 1,
    -- 235: del tmp20
    .del 35,
    -- 236: tmp36 = np.copy(np.transpose(tmp33, (1, 0, 2, 3)))
    .set 42 (.tr 37 [1, 0, 2, 3]) 1 1,
    -- 237: del tmp33
    .del 37,
    -- 238: tmp36 += np.transpose(tmp35, (1, 0, 3, 2))
    .add 42 (.tr 36 [1, 0, 3, 2]) 1 1,
    -- 239: del tmp35
    .del 36,
    -- 240: tmp1 = einsum(t2, (0, 1, 2, 3), l2, (3, 2, 4, 5), (5, 4, 0, 1))
    .set 43 (.ein [(0, [0, 1, 2, 3]), (1, [3, 2, 4, 5])] [5, 4, 0, 1]) 1 1,
    -- 241: tmp2 = einsum(v.xvv, (0, 1, 2), v.xvv, (0, 3, 4), (1, 3, 4, 2))
    .set 44 (.ein [(3, [0, 1, 2]), (3, [0, 3, 4])] [1, 3, 4, 2]) 1 1,
    -- 242: tmp37 = einsum(l2, (0, 1, 2, 3), f.oo, (4, 3), (4, 2, 0, 1))
    .set 45 (.ein [(1, [0, 1, 2, 3]), (6, [4, 3])] [4, 2, 0, 1]) 1 1,
    -- 243: l2new = einsum(tmp0, (0, 1, 2, 3), tmp1, (4, 5, 0, 1), (3, 2, 5, 4))
    .set 46 (.ein [(11, [0, 1, 2, 3]), (43, [4, 5, 0, 1])] [3, 2, 5, 4]) 1 1,
    -- 244: del tmp1
    .del 43,
    -- 245: l2new += np.transpose(tmp0, (3, 2, 1, 0))
    .add 46 (.tr 11 [3, 2, 1, 0]) 1 1,
    -- 246: del tmp0
    .del 11,
    -- 247: l2new += einsum(tmp2, (0, 1, 2, 3), l2, (1, 3, 4, 5), (2, 0, 4, 5))
    .add 46 (.ein [(44, [0, 1, 2, 3]), (1, [1, 3, 4, 5])] [2, 0, 4, 5]) 1 1,
    -- 248: del tmp2
    .del 44,
    -- 249: l2new += np.transpose(tmp16, (2, 3, 0, 1)) * -1
    .add 46 (.tr 39 [2, 3, 0, 1]) (-1) 1,
    -- 250: l2new += np.transpose(tmp16, (3, 2, 1, 0)) * -1
    .add 46 (.tr 39 [3, 2, 1, 0]) (-1) 1,
    -- 251: del tmp16
    .del 39,
    -- 252: l2new += np.transpose(tmp21, (3, 2, 0, 1))
    .add 46 (.tr 41 [3, 2, 0, 1]) 1 1,
    -- 253: l2new += np.transpose(tmp21, (2, 3, 1, 0))
    .add 46 (.tr 41 [2, 3, 1, 0]) 1 1,
    -- 254: del tmp21
    .del 41,
    -- 255: l2new += np.transpose(tmp29, (3, 2, 0, 1)) * -1
    .add 46 (.tr 38 [3, 2, 0, 1]) (-1) 1,
    -- 256: l2new += np.transpose(tmp29, (2, 3, 1, 0)) * -1
    .add 46 (.tr 38 [2, 3, 1, 0]) (-1) 1,
    -- 257: del tmp29
    .del 38,
    -- 258: l2new += np.transpose(tmp36, (2, 3, 0, 1)) * -1
    .add 46 (.tr 42 [2, 3, 0, 1]) (-1) 1,
    -- 259: l2new += np.transpose(tmp36, (3, 2, 1, 0)) * -1
    .add 46 (.tr 42 [3, 2, 1, 0]) (-1) 1,
    -- 260: del tmp36
    .del 42,
    -- 261: l2new += np.transpose(tmp37, (3, 2, 0, 1)) * -1
    .add 46 (.tr 45 [3, 2, 0, 1]) (-1) 1,
    -- 262: l2new += np.transpose(tmp37, (2, 3, 1, 0)) * -1
    .add 46 (.tr 45 [2, 3, 1, 0]) (-1) 1,
    -- 263: del tmp37
    .del 45,
    -- 264: l2new += einsum(tmp38, (0, 1, 2, 3), l2, (4, 5, 0, 1), (4, 5, 3, 2))
    .add 46 (.ein [(40, [0, 1, 2, 3]), (1, [4, 5, 0, 1])] [4, 5, 3, 2]) 1 1,
    -- 265: del tmp38
    .del 40
  ]
  ret := [(chars! "l2new", 46)]

end Ebcc.Gen.RDFCCD
