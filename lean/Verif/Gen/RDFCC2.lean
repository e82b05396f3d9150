import Verif.Model.GenCode
/-!
Functions of `ebcc/codegen/RDFCC2.py`, written by `tools/gencode.py`.  Comments give the
number and the text of the line of each statement.
-/

set_option maxRecDepth 100000

namespace Ebcc.Gen.RDFCC2

/-- codegen/RDFCC2.py:19-56 `energy`. -/
def energy : GenFun where
  args := [chars! "t1", chars! "v.xov", chars! "t2", chars! "f.ov"]
  body := [
    -- 40: tmp3 = einsum(t1, (0, 1), v.xov, (2, 3, 1), (0, 3, 2))
    .set 4 (.ein [(0, [0, 1]), (1, [2, 3, 1])] [0, 3, 2]) 1 1,
    -- 41: tmp1 = np.copy(np.transpose(t2, (0, 1, 3, 2))) * 2
    .set 5 (.tr 2 [0, 1, 3, 2]) 2 1,
    -- 42: tmp1 += t2 * -1
    .add 5 (.cp 2) (-1) 1,
    -- 43: tmp0 = einsum(v.xov, (0, 1, 2), t1, (1, 2), (0,))
    .set 6 (.ein [(1, [0, 1, 2]), (0, [1, 2])] [0]) 1 1,
    -- 44: tmp4 = np.copy(f.ov) * 2
    .set 7 (.cp 3) 2 1,
    -- 45: tmp4 += einsum(tmp3, (0, 1, 2), v.xov, (2, 0, 3), (1, 3)) * -1
    .add 7 (.ein [(4, [0, 1, 2]), (1, [2, 0, 3])] [1, 3]) (-1) 1,
    -- 46: del tmp3
    .del 4,
    -- 47: tmp2 = einsum(t1, (0, 1), tmp0, (2,), (0, 1, 2))
    .set 8 (.ein [(0, [0, 1]), (6, [2])] [0, 1, 2]) 1 1,
    -- 48: del tmp0
    .del 6,
    -- 49: tmp2 += einsum(v.xov, (0, 1, 2), tmp1, (1, 3, 4, 2), (3, 4, 0)) * 0.5
    .add 8 (.ein [(1, [0, 1, 2]), (5, [1, 3, 4, 2])] [3, 4, 0]) 1 2,
    -- 50: del tmp1
    .del 5,
    -- 51: e_cc = einsum(v.xov, (0, 1, 2), tmp2, (1, 2, 0), ()) * 2
    .set 9 (.ein [(1, [0, 1, 2]), (8, [1, 2, 0])] []) 2 1,
    -- 52: del tmp2
    .del 8,
    -- 53: e_cc += einsum(tmp4, (0, 1), t1, (0, 1), ())
    .add 9 (.ein [(7, [0, 1]), (0, [0, 1])] []) 1 1,
    -- 54: del tmp4
    .del 7
  ]
  ret := [(chars! "e_cc", 9)]

/-- codegen/RDFCC2.py:58-193 `update_amps`. -/
def update_amps : GenFun where
  args := [chars! "t1", chars! "v.xov", chars! "v.xoo", chars! "v.xvv", chars! "t2", chars! "f.ov", chars! "f.vv", chars! "f.oo"]
  body := [
    -- 81: tmp2 = einsum(t1, (0, 1), v.xov, (2, 3, 1), (0, 3, 2))
    .set 8 (.ein [(0, [0, 1]), (1, [2, 3, 1])] [0, 3, 2]) 1 1,
    -- 82: tmp18 = einsum(v.xoo, (0, 1, 2), tmp2, (3, 4, 0), (3, 1, 2, 4))
    .set 9 (.ein [(2, [0, 1, 2]), (8, [3, 4, 0])] [3, 1, 2, 4]) 1 1,
    -- 83: tmp6 = einsum(v.xoo, (0, 1, 2), t1, (2, 3), (1, 3, 0))
    .set 10 (.ein [(2, [0, 1, 2]), (0, [2, 3])] [1, 3, 0]) 1 1,
    -- 84: tmp15 = einsum(v.xvv, (0, 1, 2), t1, (3, 2), (3, 1, 0))
    .set 11 (.ein [(3, [0, 1, 2]), (0, [3, 2])] [3, 1, 0]) 1 1,
    -- 85: tmp28 = einsum(t2, (0, 1, 2, 3), f.ov, (4, 3), (4, 0, 1, 2))
    .set 12 (.ein [(4, [0, 1, 2, 3]), (5, [4, 3])] [4, 0, 1, 2]) 1 1,
    -- 86: tmp26 = einsum(f.ov, (0, 1), t1, (2, 1), (0, 2))
    .set 13 (.ein [(5, [0, 1]), (0, [2, 1])] [0, 2]) 1 1,
    -- 87: tmp31 = np.copy(np.transpose(v.xoo, (1, 2, 0)))
    .set 14 (.tr 2 [1, 2, 0]) 1 1,
    -- 88: tmp31 += np.transpose(tmp2, (1, 0, 2))
    .add 14 (.tr 8 [1, 0, 2]) 1 1,
    -- 89: tmp19 = einsum(tmp18, (0, 1, 2, 3), t1, (3, 4), (0, 1, 2, 4))
    .set 15 (.ein [(9, [0, 1, 2, 3]), (0, [3, 4])] [0, 1, 2, 4]) 1 1,
    -- 90: del tmp18
    .del 9,
    -- 91: tmp21 = np.copy(np.transpose(v.xov, (1, 2, 0))) * -1
    .set 16 (.tr 1 [1, 2, 0]) (-1) 1,
    -- 92: tmp21 += tmp6
    .add 16 (.cp 10) 1 1,
    -- 93: tmp9 = einsum(tmp2, (0, 1, 2), v.xov, (2, 0, 3), (1, 3))
    .set 17 (.ein [(8, [0, 1, 2]), (1, [2, 0, 3])] [1, 3]) 1 1,
    -- 94: tmp0 = einsum(v.xov, (0, 1, 2), t1, (1, 2), (0,))
    .set 18 (.ein [(1, [0, 1, 2]), (0, [1, 2])] [0]) 1 1,
    -- 95: tmp5 = np.copy(np.transpose(t2, (0, 1, 3, 2))) * 2
    .set 19 (.tr 4 [0, 1, 3, 2]) 2 1,
    -- 96: tmp5 += t2 * -1
    .add 19 (.cp 4) (-1) 1,
    -- 97: tmp24 = einsum(tmp2, (0, 1, 2), tmp15, (3, 4, 2), (0, 3, 1, 4))
    .set 20 (.ein [(8, [0, 1, 2]), (11, [3, 4, 2])] [0, 3, 1, 4]) 1 1,
    -- 98: tmp29 = einsum(t1, (0, 1), tmp28, (0, 2, 3, 4), (2, 3, 1, 4))
    .set 21 (.ein [(0, [0, 1]), (12, [0, 2, 3, 4])] [2, 3, 1, 4]) 1 1,
    -- 99: del tmp28
    .del 12,
    -- 100: tmp27 = einsum(t2, (0, 1, 2, 3), tmp26, (1, 4), (4, 0, 2, 3))
    .set 22 (.ein [(4, [0, 1, 2, 3]), (13, [1, 4])] [4, 0, 2, 3]) 1 1,
    -- 101: del tmp26
    .del 13,
    -- 102: tmp34 = einsum(v.xoo, (0, 1, 2), v.xoo, (0, 3, 4), (3, 1, 2, 4))
    .set 23 (.ein [(2, [0, 1, 2]), (2, [0, 3, 4])] [3, 1, 2, 4]) 1 1,
    -- 103: tmp34 += einsum(tmp2, (0, 1, 2), tmp2, (3, 4, 2), (4, 0, 1, 3))
    .add 23 (.ein [(8, [0, 1, 2]), (8, [3, 4, 2])] [4, 0, 1, 3]) 1 1,
    -- 104: tmp32 = einsum(tmp31, (0, 1, 2), v.xov, (2, 3, 4), (0, 1, 3, 4))
    .set 24 (.ein [(14, [0, 1, 2]), (1, [2, 3, 4])] [0, 1, 3, 4]) 1 1,
    -- 105: del tmp31
    .del 14,
    -- 106: tmp20 = einsum(t1, (0, 1), tmp19, (2, 0, 3, 4), (2, 3, 1, 4))
    .set 25 (.ein [(0, [0, 1]), (15, [2, 0, 3, 4])] [2, 3, 1, 4]) 1 1,
    -- 107: del tmp19
    .del 15,
    -- 108: tmp22 = einsum(tmp21, (0, 1, 2), tmp15, (3, 4, 2), (0, 3, 1, 4))
    .set 26 (.ein [(16, [0, 1, 2]), (11, [3, 4, 2])] [0, 3, 1, 4]) 1 1,
    -- 109: del tmp21
    .del 16,
    -- 110: tmp17 = einsum(t2, (0, 1, 2, 3), f.vv, (4, 3), (0, 1, 4, 2))
    .set 27 (.ein [(4, [0, 1, 2, 3]), (6, [4, 3])] [0, 1, 4, 2]) 1 1,
    -- 111: tmp7 = einsum(t1, (0, 1), t1, (2, 3), (2, 0, 3, 1)) * 0.5
    .set 28 (.ein [(0, [0, 1]), (0, [2, 3])] [2, 0, 3, 1]) 1 2,
    -- 112: tmp7 += np.transpose(t2, (0, 1, 3, 2)) * -1
    .add 28 (.tr 4 [0, 1, 3, 2]) (-1) 1,
    -- 113: tmp7 += t2 * 0.5
    .add 28 (.cp 4) 1 2,
    -- 114: tmp3 = np.copy(np.transpose(v.xoo, (1, 2, 0)))
    .set 29 (.tr 2 [1, 2, 0]) 1 1,
    -- 115: tmp3 += np.transpose(tmp2, (1, 0, 2))
    .add 29 (.tr 8 [1, 0, 2]) 1 1,
    -- 116: del tmp2
    .del 8,
    -- 117: tmp13 = np.copy(f.ov)
    .set 30 (.cp 5) 1 1,
    -- 118: tmp13 += tmp9 * -1
    .add 30 (.cp 17) (-1) 1,
    -- 119: tmp12 = np.copy(tmp6) * -1
    .set 31 (.cp 10) (-1) 1,
    -- 120: tmp12 += einsum(t1, (0, 1), tmp0, (2,), (0, 1, 2)) * 2
    .add 31 (.ein [(0, [0, 1]), (18, [2])] [0, 1, 2]) 2 1,
    -- 121: tmp12 += einsum(v.xov, (0, 1, 2), tmp5, (1, 3, 4, 2), (3, 4, 0))
    .add 31 (.ein [(1, [0, 1, 2]), (19, [1, 3, 4, 2])] [3, 4, 0]) 1 1,
    -- 122: tmp1 = einsum(v.xov, (0, 1, 2), tmp0, (0,), (1, 2))
    .set 32 (.ein [(1, [0, 1, 2]), (18, [0])] [1, 2]) 1 1,
    -- 123: tmp25 = einsum(t1, (0, 1), tmp24, (2, 3, 0, 4), (2, 3, 1, 4))
    .set 33 (.ein [(0, [0, 1]), (20, [2, 3, 0, 4])] [2, 3, 1, 4]) 1 1,
    -- 124: del tmp24
    .del 20,
    -- 125: tmp30 = np.copy(tmp27)
    .set 34 (.cp 22) 1 1,
    -- 126: del tmp27
    .del 22,
    -- 127: tmp30 += tmp29
    .add 34 (.cp 21) 1 1,
    -- 128: del tmp29
    .del 21,
    -- 129: tmp16 = einsum(t2, (0, 1, 2, 3), f.oo, (4, 1), (4, 0, 2, 3))
    .set 35 (.ein [(4, [0, 1, 2, 3]), (7, [4, 1])] [4, 0, 2, 3]) 1 1,
    -- 130: tmp35 = einsum(t1, (0, 1), tmp34, (0, 2, 3, 4), (2, 4, 3, 1))
    .set 36 (.ein [(0, [0, 1]), (23, [0, 2, 3, 4])] [2, 4, 3, 1]) 1 1,
    -- 131: del tmp34
    .del 23,
    -- 132: tmp33 = einsum(tmp32, (0, 1, 2, 3), t1, (0, 4), (1, 2, 3, 4))
    .set 37 (.ein [(24, [0, 1, 2, 3]), (0, [0, 4])] [1, 2, 3, 4]) 1 1,
    -- 133: del tmp32
    .del 24,
    -- 134: tmp23 = np.copy(tmp17)
    .set 38 (.cp 27) 1 1,
    -- 135: del tmp17
    .del 27,
    -- 136: tmp23 += tmp20
    .add 38 (.cp 25) 1 1,
    -- 137: del tmp20
    .del 25,
    -- 138: tmp23 += np.transpose(tmp22, (1, 0, 2, 3)) * -1
    .add 38 (.tr 26 [1, 0, 2, 3]) (-1) 1,
    -- 139: del tmp22
    .del 26,
    -- 140: tmp8 = np.copy(tmp6) * 0.5
    .set 39 (.cp 10) 1 2,
    -- 141: del tmp6
    .del 10,
    -- 142: tmp8 += einsum(t1, (0, 1), tmp0, (2,), (0, 1, 2)) * -1
    .add 39 (.ein [(0, [0, 1]), (18, [2])] [0, 1, 2]) (-1) 1,
    -- 143: tmp8 += einsum(v.xov, (0, 1, 2), tmp7, (1, 3, 4, 2), (3, 4, 0))
    .add 39 (.ein [(1, [0, 1, 2]), (28, [1, 3, 4, 2])] [3, 4, 0]) 1 1,
    -- 144: del tmp7
    .del 28,
    -- 145: tmp4 = einsum(tmp3, (0, 1, 2), v.xov, (2, 3, 4), (1, 3, 0, 4))
    .set 40 (.ein [(29, [0, 1, 2]), (1, [2, 3, 4])] [1, 3, 0, 4]) 1 1,
    -- 146: del tmp3
    .del 29,
    -- 147: tmp11 = np.copy(np.transpose(t2, (0, 1, 3, 2))) * 2
    .set 41 (.tr 4 [0, 1, 3, 2]) 2 1,
    -- 148: tmp11 += t2 * -1
    .add 41 (.cp 4) (-1) 1,
    -- 149: tmp14 = np.copy(f.oo) * 0.5
    .set 42 (.cp 7) 1 2,
    -- 150: tmp14 += einsum(v.xoo, (0, 1, 2), tmp0, (0,), (1, 2))
    .add 42 (.ein [(2, [0, 1, 2]), (18, [0])] [1, 2]) 1 1,
    -- 151: del tmp0
    .del 18,
    -- 152: tmp14 += einsum(v.xov, (0, 1, 2), tmp12, (3, 2, 0), (1, 3)) * 0.5
    .add 42 (.ein [(1, [0, 1, 2]), (31, [3, 2, 0])] [1, 3]) 1 2,
    -- 153: del tmp12
    .del 31,
    -- 154: tmp14 += einsum(tmp13, (0, 1), t1, (2, 1), (0, 2)) * 0.5
    .add 42 (.ein [(30, [0, 1]), (0, [2, 1])] [0, 2]) 1 2,
    -- 155: del tmp13
    .del 30,
    -- 156: tmp10 = np.copy(f.ov)
    .set 43 (.cp 5) 1 1,
    -- 157: tmp10 += tmp1 * 2
    .add 43 (.cp 32) 2 1,
    -- 158: tmp10 += tmp9 * -1
    .add 43 (.cp 17) (-1) 1,
    -- 159: del tmp9
    .del 17,
    -- 160: t2new = einsum(tmp15, (0, 1, 2), tmp15, (3, 4, 2), (3, 0, 4, 1))
    .set 44 (.ein [(11, [0, 1, 2]), (11, [3, 4, 2])] [3, 0, 4, 1]) 1 1,
    -- 161: del tmp15
    .del 11,
    -- 162: t2new += einsum(v.xov, (0, 1, 2), v.xov, (0, 3, 4), (1, 3, 2, 4))
    .add 44 (.ein [(1, [0, 1, 2]), (1, [0, 3, 4])] [1, 3, 2, 4]) 1 1,
    -- 163: t2new += np.transpose(tmp16, (0, 1, 3, 2)) * -1
    .add 44 (.tr 35 [0, 1, 3, 2]) (-1) 1,
    -- 164: t2new += np.transpose(tmp16, (1, 0, 2, 3)) * -1
    .add 44 (.tr 35 [1, 0, 2, 3]) (-1) 1,
    -- 165: del tmp16
    .del 35,
    -- 166: t2new += np.transpose(tmp23, (0, 1, 3, 2))
    .add 44 (.tr 38 [0, 1, 3, 2]) 1 1,
    -- 167: t2new += np.transpose(tmp23, (1, 0, 2, 3))
    .add 44 (.tr 38 [1, 0, 2, 3]) 1 1,
    -- 168: del tmp23
    .del 38,
    -- 169: t2new += tmp25 * -1
    .add 44 (.cp 33) (-1) 1,
    -- 170: t2new += np.transpose(tmp25, (1, 0, 3, 2)) * -1
    .add 44 (.tr 33 [1, 0, 3, 2]) (-1) 1,
    -- 171: del tmp25
    .del 33,
    -- 172: t2new += np.transpose(tmp30, (0, 1, 3, 2)) * -1
    .add 44 (.tr 34 [0, 1, 3, 2]) (-1) 1,
    -- 173: t2new += np.transpose(tmp30, (1, 0, 2, 3)) * -1
    .add 44 (.tr 34 [1, 0, 2, 3]) (-1) 1,
    -- 174: del tmp30
    .del 34,
    -- 175: t2new += np.transpose(tmp33, (0, 1, 3, 2)) * -1
    .add 44 (.tr 37 [0, 1, 3, 2]) (-1) 1,
    -- 176: t2new += np.transpose(tmp33, (1, 0, 2, 3)) * -1
    .add 44 (.tr 37 [1, 0, 2, 3]) (-1) 1,
    -- 177: del tmp33
    .del 37,
    -- 178: t2new += einsum(t1, (0, 1), tmp35, (2, 3, 0, 4), (2, 3, 1, 4))
    .add 44 (.ein [(0, [0, 1]), (36, [2, 3, 0, 4])] [2, 3, 1, 4]) 1 1,
    -- 179: del tmp35
    .del 36,
    -- 180: t1new = np.copy(f.ov)
    .set 45 (.cp 5) 1 1,
    -- 181: t1new += tmp1 * 2
    .add 45 (.cp 32) 2 1,
    -- 182: del tmp1
    .del 32,
    -- 183: t1new += einsum(f.vv, (0, 1), t1, (2, 1), (2, 0))
    .add 45 (.ein [(6, [0, 1]), (0, [2, 1])] [2, 0]) 1 1,
    -- 184: t1new += einsum(tmp5, (0, 1, 2, 3), tmp4, (4, 0, 1, 3), (4, 2)) * -1
    .add 45 (.ein [(19, [0, 1, 2, 3]), (40, [4, 0, 1, 3])] [4, 2]) (-1) 1,
    -- 185: del tmp5, tmp4
    .del 19,
    .del 40,
    -- 186: t1new += einsum(tmp8, (0, 1, 2), v.xvv, (2, 3, 1), (0, 3)) * -2
    .add 45 (.ein [(39, [0, 1, 2]), (3, [2, 3, 1])] [0, 3]) (-2) 1,
    -- 187: del tmp8
    .del 39,
    -- 188: t1new += einsum(tmp10, (0, 1), tmp11, (0, 2, 3, 1), (2, 3))
    .add 45 (.ein [(43, [0, 1]), (41, [0, 2, 3, 1])] [2, 3]) 1 1,
    -- 189: del tmp10, tmp11
    .del 43,
    .del 41,
    -- 190: t1new += einsum(tmp14, (0, 1), t1, (0, 2), (1, 2)) * -2
    .add 45 (.ein [(42, [0, 1]), (0, [0, 2])] [1, 2]) (-2) 1,
    -- 191: del tmp14
    .del 42
  ]
  ret := [(chars! "t1new", 45), (chars! "t2new", 44)]

/-- codegen/RDFCC2.py:195-567 `update_lams`. -/
def update_lams : GenFun where
  args := [chars! "v.xov", chars! "t1", chars! "l2", chars! "v.xvv", chars! "t2", chars! "v.xoo", chars! "l1", chars! "f.ov", chars! "f.vv", chars! "f.oo"]
  body := [
    -- 222: tmp13 = einsum(v.xov, (0, 1, 2), t1, (1, 2), (0,))
    .set 10 (.ein [(0, [0, 1, 2]), (1, [1, 2])] [0]) 1 1,
    -- 223: tmp5 = einsum(t1, (0, 1), v.xov, (2, 3, 1), (0, 3, 2))
    .set 11 (.ein [(1, [0, 1]), (0, [2, 3, 1])] [0, 3, 2]) 1 1,
    -- 224: tmp14 = einsum(tmp13, (0,), v.xov, (0, 1, 2), (1, 2))
    .set 12 (.ein [(10, [0]), (0, [0, 1, 2])] [1, 2]) 1 1,
    -- 225: tmp15 = einsum(tmp5, (0, 1, 2), v.xov, (2, 0, 3), (1, 3))
    .set 13 (.ein [(11, [0, 1, 2]), (0, [2, 0, 3])] [1, 3]) 1 1,
    -- 226: tmp33 = einsum(l2, (0, 1, 2, 3), t1, (4, 1), (2, 3, 4, 0))
    .set 14 (.ein [(2, [0, 1, 2, 3]), (1, [4, 1])] [2, 3, 4, 0]) 1 1,
    -- 227: tmp0 = einsum(t1, (0, 1), v.xvv, (2, 3, 1), (0, 3, 2))
    .set 15 (.ein [(1, [0, 1]), (3, [2, 3, 1])] [0, 3, 2]) 1 1,
    -- 228: tmp7 = einsum(v.xov, (0, 1, 2), v.xov, (0, 3, 4), (1, 3, 2, 4))
    .set 16 (.ein [(0, [0, 1, 2]), (0, [0, 3, 4])] [1, 3, 2, 4]) 1 1,
    -- 229: tmp97 = np.copy(tmp14) * 2
    .set 17 (.cp 12) 2 1,
    -- 230: tmp97 += tmp15 * -1
    .add 17 (.cp 13) (-1) 1,
    -- 231: tmp92 = np.copy(tmp33) * -1
    .set 18 (.cp 14) (-1) 1,
    -- 232: tmp92 += np.transpose(tmp33, (1, 0, 2, 3)) * 2
    .add 18 (.tr 14 [1, 0, 2, 3]) 2 1,
    -- 233: tmp89 = np.copy(np.transpose(v.xov, (1, 2, 0)))
    .set 19 (.tr 0 [1, 2, 0]) 1 1,
    -- 234: tmp89 += tmp0
    .add 19 (.cp 15) 1 1,
    -- 235: tmp90 = np.copy(np.transpose(l2, (3, 2, 0, 1))) * 2
    .set 20 (.tr 2 [3, 2, 0, 1]) 2 1,
    -- 236: tmp90 += np.transpose(l2, (2, 3, 0, 1)) * -1
    .add 20 (.tr 2 [2, 3, 0, 1]) (-1) 1,
    -- 237: tmp8 = einsum(tmp7, (0, 1, 2, 3), t2, (4, 5, 3, 2), (4, 5, 1, 0))
    .set 21 (.ein [(16, [0, 1, 2, 3]), (4, [4, 5, 3, 2])] [4, 5, 1, 0]) 1 1,
    -- 238: tmp9 = einsum(tmp5, (0, 1, 2), tmp5, (3, 4, 2), (3, 0, 4, 1))
    .set 22 (.ein [(11, [0, 1, 2]), (11, [3, 4, 2])] [3, 0, 4, 1]) 1 1,
    -- 239: tmp28 = np.copy(np.transpose(t2, (0, 1, 3, 2))) * -0.5
    .set 23 (.tr 4 [0, 1, 3, 2]) (-1) 2,
    -- 240: tmp28 += t2
    .add 23 (.cp 4) 1 1,
    -- 241: tmp63 = einsum(v.xoo, (0, 1, 2), tmp5, (2, 3, 0), (1, 3))
    .set 24 (.ein [(5, [0, 1, 2]), (11, [2, 3, 0])] [1, 3]) 1 1,
    -- 242: tmp98 = einsum(tmp97, (0, 1), t1, (2, 1), (2, 0))
    .set 25 (.ein [(17, [0, 1]), (1, [2, 1])] [2, 0]) 1 1,
    -- 243: tmp93 = einsum(v.xoo, (0, 1, 2), tmp92, (1, 3, 2, 4), (3, 4, 0))
    .set 26 (.ein [(5, [0, 1, 2]), (18, [1, 3, 2, 4])] [3, 4, 0]) 1 1,
    -- 244: tmp94 = einsum(tmp92, (0, 1, 2, 3), tmp5, (0, 2, 4), (1, 3, 4))
    .set 27 (.ein [(18, [0, 1, 2, 3]), (11, [0, 2, 4])] [1, 3, 4]) 1 1,
    -- 245: del tmp92
    .del 18,
    -- 246: tmp91 = einsum(tmp90, (0, 1, 2, 3), tmp89, (0, 3, 4), (1, 2, 4))
    .set 28 (.ein [(20, [0, 1, 2, 3]), (19, [0, 3, 4])] [1, 2, 4]) 1 1,
    -- 247: del tmp90, tmp89
    .del 20,
    .del 19,
    -- 248: tmp80 = np.copy(np.transpose(v.xoo, (1, 2, 0)))
    .set 29 (.tr 5 [1, 2, 0]) 1 1,
    -- 249: tmp80 += np.transpose(tmp5, (1, 0, 2))
    .add 29 (.tr 11 [1, 0, 2]) 1 1,
    -- 250: tmp49 = einsum(l1, (0, 1), t1, (2, 0), (1, 2))
    .set 30 (.ein [(6, [0, 1]), (1, [2, 0])] [1, 2]) 1 1,
    -- 251: tmp21 = np.copy(np.transpose(t2, (0, 1, 3, 2))) * 2
    .set 31 (.tr 4 [0, 1, 3, 2]) 2 1,
    -- 252: tmp21 += t2 * -1
    .add 31 (.cp 4) (-1) 1,
    -- 253: tmp3 = einsum(v.xvv, (0, 1, 2), v.xov, (0, 3, 4), (3, 1, 2, 4))
    .set 32 (.ein [(3, [0, 1, 2]), (0, [0, 3, 4])] [3, 1, 2, 4]) 1 1,
    -- 254: tmp10 = np.copy(tmp8)
    .set 33 (.cp 21) 1 1,
    -- 255: del tmp8
    .del 21,
    -- 256: tmp10 += tmp9
    .add 33 (.cp 22) 1 1,
    -- 257: tmp50 = einsum(tmp28, (0, 1, 2, 3), l2, (2, 3, 0, 4), (4, 1))
    .set 34 (.ein [(23, [0, 1, 2, 3]), (2, [2, 3, 0, 4])] [4, 1]) 1 1,
    -- 258: tmp55 = einsum(tmp28, (0, 1, 2, 3), l2, (2, 3, 0, 4), (4, 1)) * 2
    .set 35 (.ein [(23, [0, 1, 2, 3]), (2, [2, 3, 0, 4])] [4, 1]) 2 1,
    -- 259: tmp78 = einsum(tmp5, (0, 1, 2), v.xov, (2, 3, 4), (0, 3, 1, 4))
    .set 36 (.ein [(11, [0, 1, 2]), (0, [2, 3, 4])] [0, 3, 1, 4]) 1 1,
    -- 260: tmp76 = einsum(v.xov, (0, 1, 2), v.xoo, (0, 3, 4), (3, 4, 1, 2))
    .set 37 (.ein [(0, [0, 1, 2]), (5, [0, 3, 4])] [3, 4, 1, 2]) 1 1,
    -- 261: tmp99 = np.copy(tmp63)
    .set 38 (.cp 24) 1 1,
    -- 262: tmp99 += tmp98 * -1
    .add 38 (.cp 25) (-1) 1,
    -- 263: del tmp98
    .del 25,
    -- 264: tmp65 = einsum(tmp13, (0,), v.xvv, (0, 1, 2), (1, 2))
    .set 39 (.ein [(10, [0]), (3, [0, 1, 2])] [1, 2]) 1 1,
    -- 265: tmp95 = np.copy(tmp91)
    .set 40 (.cp 28) 1 1,
    -- 266: del tmp91
    .del 28,
    -- 267: tmp95 += tmp93 * -1
    .add 40 (.cp 26) (-1) 1,
    -- 268: del tmp93
    .del 26,
    -- 269: tmp95 += tmp94 * -1
    .add 40 (.cp 27) (-1) 1,
    -- 270: del tmp94
    .del 27,
    -- 271: tmp81 = einsum(v.xvv, (0, 1, 2), tmp80, (3, 4, 0), (3, 4, 1, 2))
    .set 41 (.ein [(3, [0, 1, 2]), (29, [3, 4, 0])] [3, 4, 1, 2]) 1 1,
    -- 272: del tmp80
    .del 29,
    -- 273: tmp109 = einsum(v.xov, (0, 1, 2), tmp49, (3, 1), (3, 2, 0))
    .set 42 (.ein [(0, [0, 1, 2]), (30, [3, 1])] [3, 2, 0]) 1 1,
    -- 274: tmp73 = einsum(v.xvv, (0, 1, 2), l1, (2, 3), (3, 1, 0))
    .set 43 (.ein [(3, [0, 1, 2]), (6, [2, 3])] [3, 1, 0]) 1 1,
    -- 275: tmp25 = einsum(v.xoo, (0, 1, 2), tmp5, (3, 4, 0), (3, 1, 2, 4))
    .set 44 (.ein [(5, [0, 1, 2]), (11, [3, 4, 0])] [3, 1, 2, 4]) 1 1,
    -- 276: tmp70 = einsum(f.ov, (0, 1), t1, (2, 1), (0, 2))
    .set 45 (.ein [(7, [0, 1]), (1, [2, 1])] [0, 2]) 1 1,
    -- 277: tmp104 = einsum(v.xov, (0, 1, 2), tmp0, (1, 3, 0), (2, 3))
    .set 46 (.ein [(0, [0, 1, 2]), (15, [1, 3, 0])] [2, 3]) 1 1,
    -- 278: tmp18 = np.copy(np.transpose(v.xoo, (1, 2, 0)))
    .set 47 (.tr 5 [1, 2, 0]) 1 1,
    -- 279: tmp18 += np.transpose(tmp5, (1, 0, 2))
    .add 47 (.tr 11 [1, 0, 2]) 1 1,
    -- 280: tmp16 = np.copy(tmp14) * 2
    .set 48 (.cp 12) 2 1,
    -- 281: tmp16 += tmp15 * -1
    .add 48 (.cp 13) (-1) 1,
    -- 282: tmp24 = einsum(v.xoo, (0, 1, 2), v.xoo, (0, 3, 4), (1, 3, 4, 2))
    .set 49 (.ein [(5, [0, 1, 2]), (5, [0, 3, 4])] [1, 3, 4, 2]) 1 1,
    -- 283: tmp22 = einsum(v.xov, (0, 1, 2), tmp21, (1, 3, 4, 2), (3, 4, 0))
    .set 50 (.ein [(0, [0, 1, 2]), (31, [1, 3, 4, 2])] [3, 4, 0]) 1 1,
    -- 284: tmp6 = einsum(tmp0, (0, 1, 2), tmp5, (3, 4, 2), (3, 0, 4, 1))
    .set 51 (.ein [(15, [0, 1, 2]), (11, [3, 4, 2])] [3, 0, 4, 1]) 1 1,
    -- 285: tmp4 = einsum(t2, (0, 1, 2, 3), tmp3, (4, 3, 5, 2), (0, 1, 4, 5))
    .set 52 (.ein [(4, [0, 1, 2, 3]), (32, [4, 3, 5, 2])] [0, 1, 4, 5]) 1 1,
    -- 286: tmp11 = einsum(tmp10, (0, 1, 2, 3), t1, (3, 4), (0, 1, 2, 4)) * 2
    .set 53 (.ein [(33, [0, 1, 2, 3]), (1, [3, 4])] [0, 1, 2, 4]) 2 1,
    -- 287: del tmp10
    .del 33,
    -- 288: tmp20 = np.copy(np.transpose(t2, (0, 1, 3, 2)))
    .set 54 (.tr 4 [0, 1, 3, 2]) 1 1,
    -- 289: tmp20 += t2 * -0.5
    .add 54 (.cp 4) (-1) 2,
    -- 290: tmp46 = einsum(tmp33, (0, 1, 2, 3), t1, (4, 3), (1, 0, 2, 4))
    .set 55 (.ein [(14, [0, 1, 2, 3]), (1, [4, 3])] [1, 0, 2, 4]) 1 1,
    -- 291: tmp35 = np.copy(tmp33) * -0.5
    .set 56 (.cp 14) (-1) 2,
    -- 292: tmp35 += np.transpose(tmp33, (1, 0, 2, 3))
    .add 56 (.tr 14 [1, 0, 2, 3]) 1 1,
    -- 293: tmp41 = einsum(t2, (0, 1, 2, 3), l1, (3, 4), (4, 0, 1, 2))
    .set 57 (.ein [(4, [0, 1, 2, 3]), (6, [3, 4])] [4, 0, 1, 2]) 1 1,
    -- 294: tmp42 = np.copy(tmp33) * 2
    .set 58 (.cp 14) 2 1,
    -- 295: tmp42 += np.transpose(tmp33, (1, 0, 2, 3)) * -1
    .add 58 (.tr 14 [1, 0, 2, 3]) (-1) 1,
    -- 296: tmp51 = np.copy(tmp49) * 0.5
    .set 59 (.cp 30) 1 2,
    -- 297: tmp51 += tmp50
    .add 59 (.cp 34) 1 1,
    -- 298: del tmp50
    .del 34,
    -- 299: tmp44 = einsum(t2, (0, 1, 2, 3), l2, (2, 3, 4, 5), (4, 5, 0, 1))
    .set 60 (.ein [(4, [0, 1, 2, 3]), (2, [2, 3, 4, 5])] [4, 5, 0, 1]) 1 1,
    -- 300: tmp58 = np.copy(np.transpose(t2, (0, 1, 3, 2))) * -1
    .set 61 (.tr 4 [0, 1, 3, 2]) (-1) 1,
    -- 301: tmp58 += t2 * 2
    .add 61 (.cp 4) 2 1,
    -- 302: tmp56 = np.copy(tmp49)
    .set 62 (.cp 30) 1 1,
    -- 303: tmp56 += tmp55
    .add 62 (.cp 35) 1 1,
    -- 304: del tmp55
    .del 35,
    -- 305: tmp87 = einsum(tmp33, (0, 1, 2, 3), tmp78, (1, 2, 4, 5), (0, 4, 3, 5))
    .set 63 (.ein [(14, [0, 1, 2, 3]), (36, [1, 2, 4, 5])] [0, 4, 3, 5]) 1 1,
    -- 306: tmp84 = einsum(tmp33, (0, 1, 2, 3), tmp76, (4, 1, 2, 5), (0, 4, 3, 5))
    .set 64 (.ein [(14, [0, 1, 2, 3]), (37, [4, 1, 2, 5])] [0, 4, 3, 5]) 1 1,
    -- 307: tmp100 = einsum(tmp99, (0, 1), l2, (2, 3, 0, 4), (4, 1, 2, 3))
    .set 65 (.ein [(38, [0, 1]), (2, [2, 3, 0, 4])] [4, 1, 2, 3]) 1 1,
    -- 308: del tmp99
    .del 38,
    -- 309: tmp101 = einsum(tmp33, (0, 1, 2, 3), tmp97, (2, 4), (0, 1, 3, 4))
    .set 66 (.ein [(14, [0, 1, 2, 3]), (17, [2, 4])] [0, 1, 3, 4]) 1 1,
    -- 310: tmp85 = einsum(l2, (0, 1, 2, 3), tmp65, (4, 1), (2, 3, 0, 4))
    .set 67 (.ein [(2, [0, 1, 2, 3]), (39, [4, 1])] [2, 3, 0, 4]) 1 1,
    -- 311: tmp96 = einsum(v.xov, (0, 1, 2), tmp95, (3, 4, 0), (1, 3, 2, 4))
    .set 68 (.ein [(0, [0, 1, 2]), (40, [3, 4, 0])] [1, 3, 2, 4]) 1 1,
    -- 312: del tmp95
    .del 40,
    -- 313: tmp88 = einsum(tmp81, (0, 1, 2, 3), l2, (4, 3, 5, 1), (5, 0, 4, 2))
    .set 69 (.ein [(41, [0, 1, 2, 3]), (2, [4, 3, 5, 1])] [5, 0, 4, 2]) 1 1,
    -- 314: tmp86 = einsum(tmp33, (0, 1, 2, 3), tmp3, (2, 4, 3, 5), (1, 0, 5, 4))
    .set 70 (.ein [(14, [0, 1, 2, 3]), (32, [2, 4, 3, 5])] [1, 0, 5, 4]) 1 1,
    -- 315: del tmp3
    .del 32,
    -- 316: tmp110 = einsum(tmp109, (0, 1, 2), v.xov, (2, 3, 4), (0, 3, 4, 1))
    .set 71 (.ein [(42, [0, 1, 2]), (0, [2, 3, 4])] [0, 3, 4, 1]) 1 1,
    -- 317: del tmp109
    .del 42,
    -- 318: tmp108 = einsum(l1, (0, 1), tmp78, (1, 2, 3, 4), (2, 3, 0, 4))
    .set 72 (.ein [(6, [0, 1]), (36, [1, 2, 3, 4])] [2, 3, 0, 4]) 1 1,
    -- 319: tmp62 = einsum(tmp13, (0,), v.xoo, (0, 1, 2), (1, 2))
    .set 73 (.ein [(10, [0]), (5, [0, 1, 2])] [1, 2]) 1 1,
    -- 320: del tmp13
    .del 10,
    -- 321: tmp79 = einsum(tmp78, (0, 1, 2, 3), tmp33, (0, 4, 1, 5), (4, 2, 5, 3))
    .set 74 (.ein [(36, [0, 1, 2, 3]), (14, [0, 4, 1, 5])] [4, 2, 5, 3]) 1 1,
    -- 322: del tmp78
    .del 36,
    -- 323: tmp77 = einsum(tmp76, (0, 1, 2, 3), tmp33, (1, 4, 2, 5), (4, 0, 5, 3))
    .set 75 (.ein [(37, [0, 1, 2, 3]), (14, [1, 4, 2, 5])] [4, 0, 5, 3]) 1 1,
    -- 324: tmp74 = einsum(v.xov, (0, 1, 2), tmp73, (3, 4, 0), (3, 1, 2, 4))
    .set 76 (.ein [(0, [0, 1, 2]), (43, [3, 4, 0])] [3, 1, 2, 4]) 1 1,
    -- 325: del tmp73
    .del 43,
    -- 326: tmp75 = einsum(l2, (0, 1, 2, 3), tmp25, (2, 3, 4, 5), (4, 5, 0, 1))
    .set 77 (.ein [(2, [0, 1, 2, 3]), (44, [2, 3, 4, 5])] [4, 5, 0, 1]) 1 1,
    -- 327: tmp69 = einsum(l2, (0, 1, 2, 3), f.vv, (4, 1), (2, 3, 4, 0))
    .set 78 (.ein [(2, [0, 1, 2, 3]), (8, [4, 1])] [2, 3, 4, 0]) 1 1,
    -- 328: tmp72 = einsum(tmp33, (0, 1, 2, 3), f.ov, (2, 4), (0, 1, 4, 3))
    .set 79 (.ein [(14, [0, 1, 2, 3]), (7, [2, 4])] [0, 1, 4, 3]) 1 1,
    -- 329: tmp82 = einsum(l2, (0, 1, 2, 3), tmp81, (4, 2, 5, 1), (3, 4, 0, 5))
    .set 80 (.ein [(2, [0, 1, 2, 3]), (41, [4, 2, 5, 1])] [3, 4, 0, 5]) 1 1,
    -- 330: del tmp81
    .del 41,
    -- 331: tmp71 = einsum(tmp70, (0, 1), l2, (2, 3, 4, 1), (0, 4, 2, 3))
    .set 81 (.ein [(45, [0, 1]), (2, [2, 3, 4, 1])] [0, 4, 2, 3]) 1 1,
    -- 332: del tmp70
    .del 45,
    -- 333: tmp105 = einsum(tmp104, (0, 1), l2, (2, 1, 3, 4), (3, 4, 2, 0))
    .set 82 (.ein [(46, [0, 1]), (2, [2, 1, 3, 4])] [3, 4, 2, 0]) 1 1,
    -- 334: del tmp104
    .del 46,
    -- 335: tmp103 = einsum(l1, (0, 1), tmp76, (2, 1, 3, 4), (2, 3, 0, 4))
    .set 83 (.ein [(6, [0, 1]), (37, [2, 1, 3, 4])] [2, 3, 0, 4]) 1 1,
    -- 336: del tmp76
    .del 37,
    -- 337: tmp19 = einsum(v.xov, (0, 1, 2), tmp18, (3, 4, 0), (1, 3, 4, 2))
    .set 84 (.ein [(0, [0, 1, 2]), (47, [3, 4, 0])] [1, 3, 4, 2]) 1 1,
    -- 338: tmp17 = einsum(tmp16, (0, 1), t2, (2, 3, 1, 4), (2, 3, 0, 4))
    .set 85 (.ein [(48, [0, 1]), (4, [2, 3, 1, 4])] [2, 3, 0, 4]) 1 1,
    -- 339: del tmp16
    .del 48,
    -- 340: tmp2 = einsum(t2, (0, 1, 2, 3), f.ov, (4, 3), (4, 0, 1, 2))
    .set 86 (.ein [(4, [0, 1, 2, 3]), (7, [4, 3])] [4, 0, 1, 2]) 1 1,
    -- 341: tmp1 = einsum(v.xoo, (0, 1, 2), tmp0, (3, 4, 0), (3, 1, 2, 4))
    .set 87 (.ein [(5, [0, 1, 2]), (15, [3, 4, 0])] [3, 1, 2, 4]) 1 1,
    -- 342: tmp26 = np.copy(np.transpose(tmp24, (3, 2, 1, 0)))
    .set 88 (.tr 49 [3, 2, 1, 0]) 1 1,
    -- 343: tmp26 += np.transpose(tmp25, (1, 0, 3, 2))
    .add 88 (.tr 44 [1, 0, 3, 2]) 1 1,
    -- 344: tmp26 += np.transpose(tmp25, (3, 0, 2, 1)) * -0.5
    .add 88 (.tr 44 [3, 0, 2, 1]) (-1) 2,
    -- 345: tmp23 = np.copy(np.transpose(v.xov, (1, 2, 0)))
    .set 89 (.tr 0 [1, 2, 0]) 1 1,
    -- 346: tmp23 += tmp22
    .add 89 (.cp 50) 1 1,
    -- 347: tmp12 = np.copy(tmp4) * 2
    .set 90 (.cp 52) 2 1,
    -- 348: del tmp4
    .del 52,
    -- 349: tmp12 += tmp6 * 2
    .add 90 (.cp 51) 2 1,
    -- 350: del tmp6
    .del 51,
    -- 351: tmp12 += tmp11 * -1
    .add 90 (.cp 53) (-1) 1,
    -- 352: del tmp11
    .del 53,
    -- 353: tmp29 = np.copy(np.transpose(tmp24, (3, 2, 1, 0))) * 0.5
    .set 91 (.tr 49 [3, 2, 1, 0]) 1 2,
    -- 354: tmp29 += np.transpose(tmp25, (1, 0, 3, 2)) * 0.5
    .add 91 (.tr 44 [1, 0, 3, 2]) 1 2,
    -- 355: tmp29 += np.transpose(tmp25, (3, 0, 2, 1)) * -1
    .add 91 (.tr 44 [3, 0, 2, 1]) (-1) 1,
    -- 356: del tmp25
    .del 44,
    -- 357: tmp61 = np.copy(f.ov)
    .set 92 (.cp 7) 1 1,
    -- 358: tmp61 += tmp14 * 2
    .add 92 (.cp 12) 2 1,
    -- 359: del tmp14
    .del 12,
    -- 360: tmp61 += tmp15 * -1
    .add 92 (.cp 13) (-1) 1,
    -- 361: del tmp15
    .del 13,
    -- 362: tmp34 = np.copy(tmp33) * -1
    .set 93 (.cp 14) (-1) 1,
    -- 363: tmp34 += np.transpose(tmp33, (1, 0, 2, 3)) * 2
    .add 93 (.tr 14 [1, 0, 2, 3]) 2 1,
    -- 364: tmp37 = np.copy(np.transpose(v.xoo, (1, 2, 0)))
    .set 94 (.tr 5 [1, 2, 0]) 1 1,
    -- 365: tmp37 += tmp5
    .add 94 (.cp 11) 1 1,
    -- 366: tmp32 = np.copy(np.transpose(l2, (3, 2, 0, 1)))
    .set 95 (.tr 2 [3, 2, 0, 1]) 1 1,
    -- 367: tmp32 += np.transpose(l2, (2, 3, 0, 1)) * -0.5
    .add 95 (.tr 2 [2, 3, 0, 1]) (-1) 2,
    -- 368: tmp36 = einsum(l2, (0, 1, 2, 3), tmp20, (2, 3, 1, 4), (0, 4)) * 2
    .set 96 (.ein [(2, [0, 1, 2, 3]), (54, [2, 3, 1, 4])] [0, 4]) 2 1,
    -- 369: tmp31 = np.copy(np.transpose(v.xov, (1, 2, 0)))
    .set 97 (.tr 0 [1, 2, 0]) 1 1,
    -- 370: tmp31 += tmp0
    .add 97 (.cp 15) 1 1,
    -- 371: tmp31 += tmp22
    .add 97 (.cp 50) 1 1,
    -- 372: tmp48 = np.copy(tmp46) * -0.5
    .set 98 (.cp 55) (-1) 2,
    -- 373: tmp48 += np.transpose(tmp46, (0, 1, 3, 2))
    .add 98 (.tr 55 [0, 1, 3, 2]) 1 1,
    -- 374: tmp43 = np.copy(tmp41) * -1
    .set 99 (.cp 57) (-1) 1,
    -- 375: tmp43 += np.transpose(tmp41, (0, 2, 1, 3)) * 0.5
    .add 99 (.tr 57 [0, 2, 1, 3]) 1 2,
    -- 376: del tmp41
    .del 57,
    -- 377: tmp43 += einsum(t2, (0, 1, 2, 3), tmp42, (1, 4, 5, 3), (4, 5, 0, 2)) * 0.5
    .add 99 (.ein [(4, [0, 1, 2, 3]), (58, [1, 4, 5, 3])] [4, 5, 0, 2]) 1 2,
    -- 378: del tmp42
    .del 58,
    -- 379: tmp43 += einsum(tmp35, (0, 1, 2, 3), t2, (4, 0, 3, 5), (1, 2, 4, 5))
    .add 99 (.ein [(56, [0, 1, 2, 3]), (4, [4, 0, 3, 5])] [1, 2, 4, 5]) 1 1,
    -- 380: tmp39 = einsum(l2, (0, 1, 2, 3), tmp21, (2, 4, 1, 5), (3, 4, 0, 5))
    .set 100 (.ein [(2, [0, 1, 2, 3]), (31, [2, 4, 1, 5])] [3, 4, 0, 5]) 1 1,
    -- 381: tmp39 += einsum(tmp28, (0, 1, 2, 3), l2, (4, 2, 5, 0), (5, 1, 4, 3)) * 2
    .add 100 (.ein [(23, [0, 1, 2, 3]), (2, [4, 2, 5, 0])] [5, 1, 4, 3]) 2 1,
    -- 382: tmp52 = np.copy(t1) * -0.5
    .set 101 (.cp 1) (-1) 2,
    -- 383: tmp52 += einsum(tmp33, (0, 1, 2, 3), tmp20, (0, 1, 4, 3), (2, 4))
    .add 101 (.ein [(14, [0, 1, 2, 3]), (54, [0, 1, 4, 3])] [2, 4]) 1 1,
    -- 384: tmp52 += einsum(l1, (0, 1), tmp21, (1, 2, 3, 0), (2, 3)) * -0.5
    .add 101 (.ein [(6, [0, 1]), (31, [1, 2, 3, 0])] [2, 3]) (-1) 2,
    -- 385: tmp52 += einsum(tmp51, (0, 1), t1, (0, 2), (1, 2))
    .add 101 (.ein [(59, [0, 1]), (1, [0, 2])] [1, 2]) 1 1,
    -- 386: tmp47 = np.copy(tmp46) * 2
    .set 102 (.cp 55) 2 1,
    -- 387: tmp47 += np.transpose(tmp46, (0, 1, 3, 2)) * -1
    .add 102 (.tr 55 [0, 1, 3, 2]) (-1) 1,
    -- 388: tmp45 = np.copy(np.transpose(tmp44, (1, 0, 2, 3))) * -0.5
    .set 103 (.tr 60 [1, 0, 2, 3]) (-1) 2,
    -- 389: tmp45 += np.transpose(tmp44, (1, 0, 3, 2))
    .add 103 (.tr 60 [1, 0, 3, 2]) 1 1,
    -- 390: del tmp44
    .del 60,
    -- 391: tmp40 = np.copy(tmp33)
    .set 104 (.cp 14) 1 1,
    -- 392: tmp40 += np.transpose(tmp33, (1, 0, 2, 3)) * -0.5
    .add 104 (.tr 14 [1, 0, 2, 3]) (-1) 2,
    -- 393: tmp54 = einsum(l1, (0, 1), t1, (1, 2), (0, 2)) * 0.5
    .set 105 (.ein [(6, [0, 1]), (1, [1, 2])] [0, 2]) 1 2,
    -- 394: tmp54 += einsum(l2, (0, 1, 2, 3), tmp20, (2, 3, 1, 4), (0, 4))
    .add 105 (.ein [(2, [0, 1, 2, 3]), (54, [2, 3, 1, 4])] [0, 4]) 1 1,
    -- 395: tmp59 = np.copy(tmp49)
    .set 106 (.cp 30) 1 1,
    -- 396: del tmp49
    .del 30,
    -- 397: tmp59 += einsum(l2, (0, 1, 2, 3), tmp58, (2, 4, 0, 1), (4, 3))
    .add 106 (.ein [(2, [0, 1, 2, 3]), (61, [2, 4, 0, 1])] [4, 3]) 1 1,
    -- 398: del tmp58
    .del 61,
    -- 399: tmp57 = np.copy(np.transpose(l1, (1, 0)))
    .set 107 (.tr 6 [1, 0]) 1 1,
    -- 400: tmp57 += t1
    .add 107 (.cp 1) 1 1,
    -- 401: tmp57 += einsum(tmp33, (0, 1, 2, 3), tmp21, (0, 1, 4, 3), (2, 4)) * -1
    .add 107 (.ein [(14, [0, 1, 2, 3]), (31, [0, 1, 4, 3])] [2, 4]) (-1) 1,
    -- 402: del tmp33, tmp21
    .del 14,
    .del 31,
    -- 403: tmp57 += einsum(l1, (0, 1), tmp20, (1, 2, 3, 0), (2, 3)) * 2
    .add 107 (.ein [(6, [0, 1]), (54, [1, 2, 3, 0])] [2, 3]) 2 1,
    -- 404: tmp57 += einsum(tmp56, (0, 1), t1, (0, 2), (1, 2)) * -1
    .add 107 (.ein [(62, [0, 1]), (1, [0, 2])] [1, 2]) (-1) 1,
    -- 405: tmp68 = einsum(l2, (0, 1, 2, 3), f.oo, (4, 3), (4, 2, 0, 1))
    .set 108 (.ein [(2, [0, 1, 2, 3]), (9, [4, 3])] [4, 2, 0, 1]) 1 1,
    -- 406: tmp112 = np.copy(np.transpose(tmp24, (3, 2, 1, 0)))
    .set 109 (.tr 49 [3, 2, 1, 0]) 1 1,
    -- 407: del tmp24
    .del 49,
    -- 408: tmp112 += np.transpose(tmp9, (0, 3, 1, 2))
    .add 109 (.tr 22 [0, 3, 1, 2]) 1 1,
    -- 409: del tmp9
    .del 22,
    -- 410: tmp102 = einsum(l1, (0, 1), f.ov, (2, 3), (2, 1, 3, 0))
    .set 110 (.ein [(6, [0, 1]), (7, [2, 3])] [2, 1, 3, 0]) 1 1,
    -- 411: tmp102 += tmp84
    .add 110 (.cp 64) 1 1,
    -- 412: del tmp84
    .del 64,
    -- 413: tmp102 += tmp85 * 2
    .add 110 (.cp 67) 2 1,
    -- 414: del tmp85
    .del 67,
    -- 415: tmp102 += tmp86 * -1
    .add 110 (.cp 70) (-1) 1,
    -- 416: del tmp86
    .del 70,
    -- 417: tmp102 += tmp87
    .add 110 (.cp 63) 1 1,
    -- 418: del tmp87
    .del 63,
    -- 419: tmp102 += tmp88 * -1
    .add 110 (.cp 69) (-1) 1,
    -- 420: del tmp88
    .del 69,
    -- 421: tmp102 += np.transpose(tmp96, (1, 0, 3, 2))
    .add 110 (.tr 68 [1, 0, 3, 2]) 1 1,
    -- 422: del tmp96
    .del 68,
    -- 423: tmp102 += np.transpose(tmp100, (0, 1, 3, 2))
    .add 110 (.tr 65 [0, 1, 3, 2]) 1 1,
    -- 424: del tmp100
    .del 65,
    -- 425: tmp102 += tmp101 * -1
    .add 110 (.cp 66) (-1) 1,
    -- 426: del tmp101
    .del 66,
    -- 427: tmp102 += einsum(l1, (0, 1), tmp97, (2, 3), (1, 2, 0, 3))
    .add 110 (.ein [(6, [0, 1]), (17, [2, 3])] [1, 2, 0, 3]) 1 1,
    -- 428: del tmp97
    .del 17,
    -- 429: tmp67 = einsum(v.xvv, (0, 1, 2), v.xvv, (0, 3, 4), (1, 3, 4, 2))
    .set 111 (.ein [(3, [0, 1, 2]), (3, [0, 3, 4])] [1, 3, 4, 2]) 1 1,
    -- 430: tmp111 = np.copy(tmp108)
    .set 112 (.cp 72) 1 1,
    -- 431: del tmp108
    .del 72,
    -- 432: tmp111 += tmp110
    .add 112 (.cp 71) 1 1,
    -- 433: del tmp110
    .del 71,
    -- 434: tmp107 = einsum(l2, (0, 1, 2, 3), tmp62, (4, 3), (2, 4, 0, 1))
    .set 113 (.ein [(2, [0, 1, 2, 3]), (73, [4, 3])] [2, 4, 0, 1]) 1 1,
    -- 435: tmp83 = np.copy(tmp69)
    .set 114 (.cp 78) 1 1,
    -- 436: del tmp69
    .del 78,
    -- 437: tmp83 += tmp71 * -1
    .add 114 (.cp 81) (-1) 1,
    -- 438: del tmp71
    .del 81,
    -- 439: tmp83 += tmp72 * -1
    .add 114 (.cp 79) (-1) 1,
    -- 440: del tmp72
    .del 79,
    -- 441: tmp83 += tmp74
    .add 114 (.cp 76) 1 1,
    -- 442: del tmp74
    .del 76,
    -- 443: tmp83 += tmp75
    .add 114 (.cp 77) 1 1,
    -- 444: del tmp75
    .del 77,
    -- 445: tmp83 += tmp77
    .add 114 (.cp 75) 1 1,
    -- 446: del tmp77
    .del 75,
    -- 447: tmp83 += tmp79
    .add 114 (.cp 74) 1 1,
    -- 448: del tmp79
    .del 74,
    -- 449: tmp83 += tmp82 * -1
    .add 114 (.cp 80) (-1) 1,
    -- 450: del tmp82
    .del 80,
    -- 451: tmp106 = np.copy(tmp103)
    .set 115 (.cp 83) 1 1,
    -- 452: del tmp103
    .del 83,
    -- 453: tmp106 += tmp105
    .add 115 (.cp 82) 1 1,
    -- 454: del tmp105
    .del 82,
    -- 455: tmp66 = np.copy(f.vv)
    .set 116 (.cp 8) 1 1,
    -- 456: tmp66 += np.transpose(tmp65, (1, 0)) * 2
    .add 116 (.tr 39 [1, 0]) 2 1,
    -- 457: del tmp65
    .del 39,
    -- 458: tmp27 = np.copy(np.transpose(tmp1, (0, 2, 1, 3)))
    .set 117 (.tr 87 [0, 2, 1, 3]) 1 1,
    -- 459: tmp27 += np.transpose(tmp2, (1, 0, 2, 3))
    .add 117 (.tr 86 [1, 0, 2, 3]) 1 1,
    -- 460: tmp27 += np.transpose(tmp2, (2, 0, 1, 3)) * -2
    .add 117 (.tr 86 [2, 0, 1, 3]) (-2) 1,
    -- 461: del tmp2
    .del 86,
    -- 462: tmp27 += np.transpose(tmp12, (0, 2, 1, 3)) * -1
    .add 117 (.tr 90 [0, 2, 1, 3]) (-1) 1,
    -- 463: tmp27 += np.transpose(tmp12, (1, 2, 0, 3)) * 0.5
    .add 117 (.tr 90 [1, 2, 0, 3]) 1 2,
    -- 464: del tmp12
    .del 90,
    -- 465: tmp27 += np.transpose(tmp17, (1, 2, 0, 3))
    .add 117 (.tr 85 [1, 2, 0, 3]) 1 1,
    -- 466: tmp27 += np.transpose(tmp17, (0, 2, 1, 3)) * -2
    .add 117 (.tr 85 [0, 2, 1, 3]) (-2) 1,
    -- 467: del tmp17
    .del 85,
    -- 468: tmp27 += einsum(tmp19, (0, 1, 2, 3), tmp20, (1, 4, 5, 3), (2, 0, 4, 5)) * 2
    .add 117 (.ein [(84, [0, 1, 2, 3]), (54, [1, 4, 5, 3])] [2, 0, 4, 5]) 2 1,
    -- 469: del tmp20
    .del 54,
    -- 470: tmp27 += einsum(tmp18, (0, 1, 2), tmp23, (3, 4, 2), (1, 0, 3, 4)) * -2
    .add 117 (.ein [(47, [0, 1, 2]), (89, [3, 4, 2])] [1, 0, 3, 4]) (-2) 1,
    -- 471: tmp27 += einsum(tmp26, (0, 1, 2, 3), t1, (0, 4), (1, 2, 3, 4)) * 2
    .add 117 (.ein [(88, [0, 1, 2, 3]), (1, [0, 4])] [1, 2, 3, 4]) 2 1,
    -- 472: del tmp26
    .del 88,
    -- 473: tmp30 = np.copy(np.transpose(tmp1, (0, 2, 1, 3))) * -1
    .set 118 (.tr 87 [0, 2, 1, 3]) (-1) 1,
    -- 474: del tmp1
    .del 87,
    -- 475: tmp30 += einsum(tmp19, (0, 1, 2, 3), tmp28, (1, 4, 5, 3), (2, 0, 4, 5))
    .add 118 (.ein [(84, [0, 1, 2, 3]), (23, [1, 4, 5, 3])] [2, 0, 4, 5]) 1 1,
    -- 476: del tmp28, tmp19
    .del 23,
    .del 84,
    -- 477: tmp30 += einsum(tmp18, (0, 1, 2), tmp23, (3, 4, 2), (1, 0, 3, 4)) * 0.5
    .add 118 (.ein [(47, [0, 1, 2]), (89, [3, 4, 2])] [1, 0, 3, 4]) 1 2,
    -- 478: del tmp23
    .del 89,
    -- 479: tmp30 += einsum(t1, (0, 1), tmp29, (0, 2, 3, 4), (2, 3, 4, 1)) * -1
    .add 118 (.ein [(1, [0, 1]), (91, [0, 2, 3, 4])] [2, 3, 4, 1]) (-1) 1,
    -- 480: del tmp29
    .del 91,
    -- 481: tmp64 = np.copy(f.oo)
    .set 119 (.cp 9) 1 1,
    -- 482: tmp64 += np.transpose(tmp62, (1, 0)) * 2
    .add 119 (.tr 73 [1, 0]) 2 1,
    -- 483: del tmp62
    .del 73,
    -- 484: tmp64 += tmp63 * -1
    .add 119 (.cp 24) (-1) 1,
    -- 485: del tmp63
    .del 24,
    -- 486: tmp64 += einsum(tmp22, (0, 1, 2), v.xov, (2, 3, 1), (0, 3))
    .add 119 (.ein [(50, [0, 1, 2]), (0, [2, 3, 1])] [0, 3]) 1 1,
    -- 487: del tmp22
    .del 50,
    -- 488: tmp64 += einsum(t1, (0, 1), tmp61, (2, 1), (0, 2))
    .add 119 (.ein [(1, [0, 1]), (92, [2, 1])] [0, 2]) 1 1,
    -- 489: tmp38 = einsum(tmp32, (0, 1, 2, 3), tmp31, (0, 3, 4), (1, 2, 4)) * -1
    .set 120 (.ein [(95, [0, 1, 2, 3]), (97, [0, 3, 4])] [1, 2, 4]) (-1) 1,
    -- 490: del tmp32
    .del 95,
    -- 491: tmp38 += einsum(tmp34, (0, 1, 2, 3), v.xoo, (4, 0, 2), (1, 3, 4)) * 0.5
    .add 120 (.ein [(93, [0, 1, 2, 3]), (5, [4, 0, 2])] [1, 3, 4]) 1 2,
    -- 492: del tmp34
    .del 93,
    -- 493: tmp38 += einsum(tmp5, (0, 1, 2), tmp35, (0, 3, 1, 4), (3, 4, 2))
    .add 120 (.ein [(11, [0, 1, 2]), (56, [0, 3, 1, 4])] [3, 4, 2]) 1 1,
    -- 494: del tmp35
    .del 56,
    -- 495: tmp38 += einsum(v.xov, (0, 1, 2), tmp36, (3, 2), (1, 3, 0)) * 0.5
    .add 120 (.ein [(0, [0, 1, 2]), (96, [3, 2])] [1, 3, 0]) 1 2,
    -- 496: del tmp36
    .del 96,
    -- 497: tmp38 += einsum(l1, (0, 1), tmp37, (1, 2, 3), (2, 0, 3)) * 0.5
    .add 120 (.ein [(6, [0, 1]), (94, [1, 2, 3])] [2, 0, 3]) 1 2,
    -- 498: del tmp37
    .del 94,
    -- 499: tmp53 = einsum(l1, (0, 1), tmp0, (2, 0, 3), (2, 1, 3)) * -0.5
    .set 121 (.ein [(6, [0, 1]), (15, [2, 0, 3])] [2, 1, 3]) (-1) 2,
    -- 500: del tmp0
    .del 15,
    -- 501: tmp53 += einsum(v.xvv, (0, 1, 2), tmp39, (3, 4, 2, 1), (4, 3, 0)) * -0.5
    .add 121 (.ein [(3, [0, 1, 2]), (100, [3, 4, 2, 1])] [4, 3, 0]) (-1) 2,
    -- 502: del tmp39
    .del 100,
    -- 503: tmp53 += einsum(tmp31, (0, 1, 2), tmp40, (0, 3, 4, 1), (4, 3, 2)) * -1
    .add 121 (.ein [(97, [0, 1, 2]), (104, [0, 3, 4, 1])] [4, 3, 2]) (-1) 1,
    -- 504: del tmp31, tmp40
    .del 97,
    .del 104,
    -- 505: tmp53 += einsum(v.xov, (0, 1, 2), tmp43, (3, 1, 4, 2), (4, 3, 0))
    .add 121 (.ein [(0, [0, 1, 2]), (99, [3, 1, 4, 2])] [4, 3, 0]) 1 1,
    -- 506: del tmp43
    .del 99,
    -- 507: tmp53 += einsum(tmp18, (0, 1, 2), tmp45, (1, 3, 0, 4), (4, 3, 2))
    .add 121 (.ein [(47, [0, 1, 2]), (103, [1, 3, 0, 4])] [4, 3, 2]) 1 1,
    -- 508: del tmp18, tmp45
    .del 47,
    .del 103,
    -- 509: tmp53 += einsum(tmp47, (0, 1, 2, 3), tmp5, (0, 2, 4), (3, 1, 4)) * 0.5
    .add 121 (.ein [(102, [0, 1, 2, 3]), (11, [0, 2, 4])] [3, 1, 4]) 1 2,
    -- 510: del tmp5, tmp47
    .del 11,
    .del 102,
    -- 511: tmp53 += einsum(tmp48, (0, 1, 2, 3), v.xoo, (4, 0, 3), (2, 1, 4))
    .add 121 (.ein [(98, [0, 1, 2, 3]), (5, [4, 0, 3])] [2, 1, 4]) 1 1,
    -- 512: del tmp48
    .del 98,
    -- 513: tmp53 += einsum(tmp52, (0, 1), v.xov, (2, 3, 1), (0, 3, 2))
    .add 121 (.ein [(101, [0, 1]), (0, [2, 3, 1])] [0, 3, 2]) 1 1,
    -- 514: del tmp52
    .del 101,
    -- 515: tmp53 += einsum(tmp51, (0, 1), v.xoo, (2, 3, 0), (1, 3, 2))
    .add 121 (.ein [(59, [0, 1]), (5, [2, 3, 0])] [1, 3, 2]) 1 1,
    -- 516: del tmp51
    .del 59,
    -- 517: tmp60 = einsum(tmp54, (0, 1), v.xvv, (2, 1, 0), (2,)) * 2
    .set 122 (.ein [(105, [0, 1]), (3, [2, 1, 0])] [2]) 2 1,
    -- 518: del tmp54
    .del 105,
    -- 519: tmp60 += einsum(v.xov, (0, 1, 2), tmp57, (1, 2), (0,))
    .add 122 (.ein [(0, [0, 1, 2]), (107, [1, 2])] [0]) 1 1,
    -- 520: del tmp57
    .del 107,
    -- 521: tmp60 += einsum(tmp59, (0, 1), v.xoo, (2, 1, 0), (2,)) * -1
    .add 122 (.ein [(106, [0, 1]), (5, [2, 1, 0])] [2]) (-1) 1,
    -- 522: del tmp59
    .del 106,
    -- 523: l2new = einsum(tmp67, (0, 1, 2, 3), l2, (3, 2, 4, 5), (0, 1, 4, 5))
    .set 123 (.ein [(111, [0, 1, 2, 3]), (2, [3, 2, 4, 5])] [0, 1, 4, 5]) 1 1,
    -- 524: del tmp67
    .del 111,
    -- 525: l2new += einsum(tmp46, (0, 1, 2, 3), tmp7, (2, 3, 4, 5), (5, 4, 1, 0))
    .add 123 (.ein [(55, [0, 1, 2, 3]), (16, [2, 3, 4, 5])] [5, 4, 1, 0]) 1 1,
    -- 526: del tmp46
    .del 55,
    -- 527: l2new += np.transpose(tmp7, (3, 2, 1, 0))
    .add 123 (.tr 16 [3, 2, 1, 0]) 1 1,
    -- 528: del tmp7
    .del 16,
    -- 529: l2new += np.transpose(tmp68, (3, 2, 0, 1)) * -1
    .add 123 (.tr 108 [3, 2, 0, 1]) (-1) 1,
    -- 530: l2new += np.transpose(tmp68, (2, 3, 1, 0)) * -1
    .add 123 (.tr 108 [2, 3, 1, 0]) (-1) 1,
    -- 531: del tmp68
    .del 108,
    -- 532: l2new += np.transpose(tmp83, (3, 2, 0, 1))
    .add 123 (.tr 114 [3, 2, 0, 1]) 1 1,
    -- 533: l2new += np.transpose(tmp83, (2, 3, 1, 0))
    .add 123 (.tr 114 [2, 3, 1, 0]) 1 1,
    -- 534: del tmp83
    .del 114,
    -- 535: l2new += np.transpose(tmp102, (2, 3, 0, 1))
    .add 123 (.tr 110 [2, 3, 0, 1]) 1 1,
    -- 536: l2new += np.transpose(tmp102, (3, 2, 1, 0))
    .add 123 (.tr 110 [3, 2, 1, 0]) 1 1,
    -- 537: del tmp102
    .del 110,
    -- 538: l2new += np.transpose(tmp106, (2, 3, 0, 1)) * -1
    .add 123 (.tr 115 [2, 3, 0, 1]) (-1) 1,
    -- 539: l2new += np.transpose(tmp106, (3, 2, 1, 0)) * -1
    .add 123 (.tr 115 [3, 2, 1, 0]) (-1) 1,
    -- 540: del tmp106
    .del 115,
    -- 541: l2new += np.transpose(tmp107, (2, 3, 0, 1)) * -2
    .add 123 (.tr 113 [2, 3, 0, 1]) (-2) 1,
    -- 542: l2new += np.transpose(tmp107, (3, 2, 1, 0)) * -2
    .add 123 (.tr 113 [3, 2, 1, 0]) (-2) 1,
    -- 543: del tmp107
    .del 113,
    -- 544: l2new += np.transpose(tmp111, (3, 2, 0, 1)) * -1
    .add 123 (.tr 112 [3, 2, 0, 1]) (-1) 1,
    -- 545: l2new += np.transpose(tmp111, (2, 3, 1, 0)) * -1
    .add 123 (.tr 112 [2, 3, 1, 0]) (-1) 1,
    -- 546: del tmp111
    .del 112,
    -- 547: l2new += einsum(tmp112, (0, 1, 2, 3), l2, (4, 5, 2, 0), (4, 5, 1, 3))
    .add 123 (.ein [(109, [0, 1, 2, 3]), (2, [4, 5, 2, 0])] [4, 5, 1, 3]) 1 1,
    -- 548: del tmp112
    .del 109,
    -- 549: l1new = np.copy(np.transpose(f.ov, (1, 0)))
    .set 124 (.tr 7 [1, 0]) 1 1,
    -- 550: l1new += einsum(tmp27, (0, 1, 2, 3), l2, (4, 3, 0, 2), (4, 1))
    .add 124 (.ein [(117, [0, 1, 2, 3]), (2, [4, 3, 0, 2])] [4, 1]) 1 1,
    -- 551: del tmp27
    .del 117,
    -- 552: l1new += einsum(l2, (0, 1, 2, 3), tmp30, (3, 4, 2, 1), (0, 4)) * 2
    .add 124 (.ein [(2, [0, 1, 2, 3]), (118, [3, 4, 2, 1])] [0, 4]) 2 1,
    -- 553: del tmp30
    .del 118,
    -- 554: l1new += einsum(tmp38, (0, 1, 2), v.xvv, (2, 3, 1), (3, 0)) * -2
    .add 124 (.ein [(120, [0, 1, 2]), (3, [2, 3, 1])] [3, 0]) (-2) 1,
    -- 555: del tmp38
    .del 120,
    -- 556: l1new += einsum(tmp53, (0, 1, 2), v.xov, (2, 0, 3), (3, 1)) * 2
    .add 124 (.ein [(121, [0, 1, 2]), (0, [2, 0, 3])] [3, 1]) 2 1,
    -- 557: del tmp53
    .del 121,
    -- 558: l1new += einsum(v.xov, (0, 1, 2), tmp60, (0,), (2, 1)) * 2
    .add 124 (.ein [(0, [0, 1, 2]), (122, [0])] [2, 1]) 2 1,
    -- 559: del tmp60
    .del 122,
    -- 560: l1new += einsum(tmp56, (0, 1), tmp61, (1, 2), (2, 0)) * -1
    .add 124 (.ein [(62, [0, 1]), (92, [1, 2])] [2, 0]) (-1) 1,
    -- 561: del tmp56, tmp61
    .del 62,
    .del 92,
    -- 562: l1new += einsum(tmp64, (0, 1), l1, (2, 0), (2, 1)) * -1
    .add 124 (.ein [(119, [0, 1]), (6, [2, 0])] [2, 1]) (-1) 1,
    -- 563: del tmp64
    .del 119,
    -- 564: l1new += einsum(l1, (0, 1), tmp66, (0, 2), (2, 1))
    .add 124 (.ein [(6, [0, 1]), (116, [0, 2])] [2, 1]) 1 1,
    -- 565: del tmp66
    .del 116
  ]
  ret := [(chars! "l1new", 124), (chars! "l2new", 123)]

end Ebcc.Gen.RDFCC2
