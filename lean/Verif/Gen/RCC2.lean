import Verif.Model.GenCode
/-!
Functions of `ebcc/codegen/RCC2.py`, written by `tools/gencode.py`.  Comments give the
number and the text of the line of each statement.
-/

set_option maxRecDepth 100000

namespace Ebcc.Gen.RCC2

/-- codegen/RCC2.py:19-50 `energy`. -/
def energy : GenFun where
  args := [chars! "v.ovov", chars! "f.ov", chars! "t1", chars! "t2"]
  body := [
    -- 40: tmp0 = np.copy(np.transpose(v.ovov, (0, 2, 3, 1)))
    .set 4 (.tr 0 [0, 2, 3, 1]) 1 1,
    -- 41: tmp0 += np.transpose(v.ovov, (0, 2, 1, 3)) * -0.5
    .add 4 (.tr 0 [0, 2, 1, 3]) (-1) 2,
    -- 42: tmp1 = np.copy(f.ov)
    .set 5 (.cp 1) 1 1,
    -- 43: tmp1 += einsum(tmp0, (0, 1, 2, 3), t1, (0, 3), (1, 2))
    .add 5 (.ein [(4, [0, 1, 2, 3]), (2, [0, 3])] [1, 2]) 1 1,
    -- 44: del tmp0
    .del 4,
    -- 45: e_cc = einsum(v.ovov, (0, 1, 2, 3), t2, (0, 2, 1, 3), ()) * 2
    .set 6 (.ein [(0, [0, 1, 2, 3]), (3, [0, 2, 1, 3])] []) 2 1,
    -- 46: e_cc += einsum(t2, (0, 1, 2, 3), v.ovov, (0, 3, 1, 2), ()) * -1
    .add 6 (.ein [(3, [0, 1, 2, 3]), (0, [0, 3, 1, 2])] []) (-1) 1,
    -- 47: e_cc += einsum(tmp1, (0, 1), t1, (0, 1), ()) * 2
    .add 6 (.ein [(5, [0, 1]), (2, [0, 1])] []) 2 1,
    -- 48: del tmp1
    .del 5
  ]
  ret := [(chars! "e_cc", 6)]

/-- codegen/RCC2.py:52-187 `update_amps`. -/
def update_amps : GenFun where
  args := [chars! "v.ooov", chars! "t1", chars! "f.ov", chars! "t2", chars! "v.oovv", chars! "v.ovvv", chars! "v.ovov", chars! "f.vv", chars! "v.oooo", chars! "v.ovoo", chars! "v.vvvv", chars! "f.oo"]
  body := [
    -- 75: tmp17 = einsum(v.ooov, (0, 1, 2, 3), t1, (4, 3), (4, 0, 1, 2))
    .set 12 (.ein [(0, [0, 1, 2, 3]), (1, [4, 3])] [4, 0, 1, 2]) 1 1,
    -- 76: tmp26 = einsum(f.ov, (0, 1), t2, (2, 3, 4, 1), (0, 2, 3, 4))
    .set 13 (.ein [(2, [0, 1]), (3, [2, 3, 4, 1])] [0, 2, 3, 4]) 1 1,
    -- 77: tmp27 = einsum(t1, (0, 1), v.oovv, (2, 3, 4, 1), (0, 2, 3, 4))
    .set 14 (.ein [(1, [0, 1]), (4, [2, 3, 4, 1])] [0, 2, 3, 4]) 1 1,
    -- 78: tmp18 = einsum(tmp17, (0, 1, 2, 3), t1, (3, 4), (0, 2, 1, 4))
    .set 15 (.ein [(12, [0, 1, 2, 3]), (1, [3, 4])] [0, 2, 1, 4]) 1 1,
    -- 79: del tmp17
    .del 12,
    -- 80: tmp16 = einsum(t1, (0, 1), v.ovvv, (2, 3, 4, 1), (0, 2, 3, 4))
    .set 16 (.ein [(1, [0, 1]), (5, [2, 3, 4, 1])] [0, 2, 3, 4]) 1 1,
    -- 81: tmp28 = np.copy(tmp26)
    .set 17 (.cp 13) 1 1,
    -- 82: del tmp26
    .del 13,
    -- 83: tmp28 += np.transpose(tmp27, (2, 0, 1, 3))
    .add 17 (.tr 14 [2, 0, 1, 3]) 1 1,
    -- 84: del tmp27
    .del 14,
    -- 85: tmp24 = einsum(f.ov, (0, 1), t1, (2, 1), (0, 2))
    .set 18 (.ein [(2, [0, 1]), (1, [2, 1])] [0, 2]) 1 1,
    -- 86: tmp1 = einsum(t1, (0, 1), v.ovov, (2, 3, 4, 1), (0, 2, 4, 3))
    .set 19 (.ein [(1, [0, 1]), (6, [2, 3, 4, 1])] [0, 2, 4, 3]) 1 1,
    -- 87: tmp11 = np.copy(np.transpose(v.ovov, (0, 2, 3, 1)))
    .set 20 (.tr 6 [0, 2, 3, 1]) 1 1,
    -- 88: tmp11 += np.transpose(v.ovov, (0, 2, 1, 3)) * -0.5
    .add 20 (.tr 6 [0, 2, 1, 3]) (-1) 2,
    -- 89: tmp15 = einsum(f.vv, (0, 1), t2, (2, 3, 4, 1), (2, 3, 0, 4))
    .set 21 (.ein [(7, [0, 1]), (3, [2, 3, 4, 1])] [2, 3, 0, 4]) 1 1,
    -- 90: tmp19 = einsum(tmp18, (0, 1, 2, 3), t1, (1, 4), (0, 2, 4, 3))
    .set 22 (.ein [(15, [0, 1, 2, 3]), (1, [1, 4])] [0, 2, 4, 3]) 1 1,
    -- 91: del tmp18
    .del 15,
    -- 92: tmp21 = einsum(t1, (0, 1), tmp16, (2, 3, 1, 4), (0, 2, 3, 4))
    .set 23 (.ein [(1, [0, 1]), (16, [2, 3, 1, 4])] [0, 2, 3, 4]) 1 1,
    -- 93: tmp29 = einsum(tmp28, (0, 1, 2, 3), t1, (0, 4), (1, 2, 3, 4))
    .set 24 (.ein [(17, [0, 1, 2, 3]), (1, [0, 4])] [1, 2, 3, 4]) 1 1,
    -- 94: del tmp28
    .del 17,
    -- 95: tmp25 = einsum(t2, (0, 1, 2, 3), tmp24, (1, 4), (4, 0, 2, 3))
    .set 25 (.ein [(3, [0, 1, 2, 3]), (18, [1, 4])] [4, 0, 2, 3]) 1 1,
    -- 96: del tmp24
    .del 18,
    -- 97: tmp32 = np.copy(v.oooo)
    .set 26 (.cp 8) 1 1,
    -- 98: tmp32 += einsum(tmp1, (0, 1, 2, 3), t1, (4, 3), (1, 4, 2, 0))
    .add 26 (.ein [(19, [0, 1, 2, 3]), (1, [4, 3])] [1, 4, 2, 0]) 1 1,
    -- 99: tmp3 = np.copy(np.transpose(v.ovov, (0, 2, 3, 1))) * 2
    .set 27 (.tr 6 [0, 2, 3, 1]) 2 1,
    -- 100: tmp3 += np.transpose(v.ovov, (0, 2, 1, 3)) * -1
    .add 27 (.tr 6 [0, 2, 1, 3]) (-1) 1,
    -- 101: tmp7 = np.copy(v.ovvv)
    .set 28 (.cp 5) 1 1,
    -- 102: tmp7 += np.transpose(v.ovvv, (0, 2, 3, 1)) * -0.5
    .add 28 (.tr 5 [0, 2, 3, 1]) (-1) 2,
    -- 103: tmp9 = np.copy(np.transpose(v.ovov, (0, 2, 3, 1))) * -1
    .set 29 (.tr 6 [0, 2, 3, 1]) (-1) 1,
    -- 104: tmp9 += np.transpose(v.ovov, (0, 2, 1, 3)) * 2
    .add 29 (.tr 6 [0, 2, 1, 3]) 2 1,
    -- 105: tmp10 = np.copy(v.ooov) * -0.5
    .set 30 (.cp 0) (-1) 2,
    -- 106: tmp10 += np.transpose(v.ovoo, (0, 2, 3, 1))
    .add 30 (.tr 9 [0, 2, 3, 1]) 1 1,
    -- 107: tmp12 = np.copy(f.ov) * 0.5
    .set 31 (.cp 2) 1 2,
    -- 108: tmp12 += einsum(tmp11, (0, 1, 2, 3), t1, (0, 3), (1, 2))
    .add 31 (.ein [(20, [0, 1, 2, 3]), (1, [0, 3])] [1, 2]) 1 1,
    -- 109: del tmp11
    .del 20,
    -- 110: tmp20 = np.copy(tmp15)
    .set 32 (.cp 21) 1 1,
    -- 111: del tmp15
    .del 21,
    -- 112: tmp20 += tmp16
    .add 32 (.cp 16) 1 1,
    -- 113: del tmp16
    .del 16,
    -- 114: tmp20 += tmp19
    .add 32 (.cp 22) 1 1,
    -- 115: del tmp19
    .del 22,
    -- 116: tmp22 = einsum(tmp21, (0, 1, 2, 3), t1, (2, 4), (0, 1, 4, 3))
    .set 33 (.ein [(23, [0, 1, 2, 3]), (1, [2, 4])] [0, 1, 4, 3]) 1 1,
    -- 117: del tmp21
    .del 23,
    -- 118: tmp14 = einsum(t1, (0, 1), v.vvvv, (2, 3, 4, 1), (0, 2, 3, 4))
    .set 34 (.ein [(1, [0, 1]), (10, [2, 3, 4, 1])] [0, 2, 3, 4]) 1 1,
    -- 119: tmp23 = einsum(t2, (0, 1, 2, 3), f.oo, (4, 1), (4, 0, 2, 3))
    .set 35 (.ein [(3, [0, 1, 2, 3]), (11, [4, 1])] [4, 0, 2, 3]) 1 1,
    -- 120: tmp30 = np.copy(tmp25)
    .set 36 (.cp 25) 1 1,
    -- 121: del tmp25
    .del 25,
    -- 122: tmp30 += np.transpose(tmp29, (0, 1, 3, 2))
    .add 36 (.tr 24 [0, 1, 3, 2]) 1 1,
    -- 123: del tmp29
    .del 24,
    -- 124: tmp31 = einsum(tmp1, (0, 1, 2, 3), t1, (2, 4), (0, 1, 4, 3))
    .set 37 (.ein [(19, [0, 1, 2, 3]), (1, [2, 4])] [0, 1, 4, 3]) 1 1,
    -- 125: tmp33 = np.copy(v.ooov) * -1
    .set 38 (.cp 0) (-1) 1,
    -- 126: tmp33 += einsum(tmp32, (0, 1, 2, 3), t1, (0, 4), (2, 3, 1, 4))
    .add 38 (.ein [(26, [0, 1, 2, 3]), (1, [0, 4])] [2, 3, 1, 4]) 1 1,
    -- 127: del tmp32
    .del 26,
    -- 128: tmp4 = np.copy(f.ov)
    .set 39 (.cp 2) 1 1,
    -- 129: tmp4 += einsum(t1, (0, 1), tmp3, (0, 2, 3, 1), (2, 3))
    .add 39 (.ein [(1, [0, 1]), (27, [0, 2, 3, 1])] [2, 3]) 1 1,
    -- 130: del tmp3
    .del 27,
    -- 131: tmp8 = np.copy(f.vv) * 0.5
    .set 40 (.cp 7) 1 2,
    -- 132: tmp8 += einsum(t1, (0, 1), tmp7, (0, 1, 2, 3), (3, 2))
    .add 40 (.ein [(1, [0, 1]), (28, [0, 1, 2, 3])] [3, 2]) 1 1,
    -- 133: del tmp7
    .del 28,
    -- 134: tmp6 = np.copy(np.transpose(v.ovov, (0, 2, 1, 3))) * 2
    .set 41 (.tr 6 [0, 2, 1, 3]) 2 1,
    -- 135: tmp6 += v.oovv * -1
    .add 41 (.cp 4) (-1) 1,
    -- 136: tmp5 = np.copy(np.transpose(t2, (0, 1, 3, 2))) * 2
    .set 42 (.tr 3 [0, 1, 3, 2]) 2 1,
    -- 137: tmp5 += t2 * -1
    .add 42 (.cp 3) (-1) 1,
    -- 138: tmp13 = np.copy(f.oo)
    .set 43 (.cp 11) 1 1,
    -- 139: tmp13 += einsum(tmp9, (0, 1, 2, 3), t2, (4, 0, 3, 2), (1, 4))
    .add 43 (.ein [(29, [0, 1, 2, 3]), (3, [4, 0, 3, 2])] [1, 4]) 1 1,
    -- 140: del tmp9
    .del 29,
    -- 141: tmp13 += einsum(tmp10, (0, 1, 2, 3), t1, (0, 3), (2, 1)) * 2
    .add 43 (.ein [(30, [0, 1, 2, 3]), (1, [0, 3])] [2, 1]) 2 1,
    -- 142: del tmp10
    .del 30,
    -- 143: tmp13 += einsum(t1, (0, 1), tmp12, (2, 1), (2, 0)) * 2
    .add 43 (.ein [(1, [0, 1]), (31, [2, 1])] [2, 0]) 2 1,
    -- 144: del tmp12
    .del 31,
    -- 145: tmp2 = np.copy(v.ooov)
    .set 44 (.cp 0) 1 1,
    -- 146: tmp2 += np.transpose(v.ooov, (0, 2, 1, 3)) * -0.5
    .add 44 (.tr 0 [0, 2, 1, 3]) (-1) 2,
    -- 147: tmp2 += tmp1 * -0.5
    .add 44 (.cp 19) (-1) 2,
    -- 148: tmp2 += np.transpose(tmp1, (0, 2, 1, 3))
    .add 44 (.tr 19 [0, 2, 1, 3]) 1 1,
    -- 149: del tmp1
    .del 19,
    -- 150: tmp0 = np.copy(v.ovvv) * -0.5
    .set 45 (.cp 5) (-1) 2,
    -- 151: tmp0 += np.transpose(v.ovvv, (0, 2, 1, 3))
    .add 45 (.tr 5 [0, 2, 1, 3]) 1 1,
    -- 152: t2new = einsum(tmp14, (0, 1, 2, 3), t1, (4, 2), (4, 0, 1, 3))
    .set 46 (.ein [(34, [0, 1, 2, 3]), (1, [4, 2])] [4, 0, 1, 3]) 1 1,
    -- 153: del tmp14
    .del 34,
    -- 154: t2new += np.transpose(v.ovov, (0, 2, 1, 3))
    .add 46 (.tr 6 [0, 2, 1, 3]) 1 1,
    -- 155: t2new += einsum(v.ooov, (0, 1, 2, 3), t1, (1, 4), (0, 2, 4, 3)) * -1
    .add 46 (.ein [(0, [0, 1, 2, 3]), (1, [1, 4])] [0, 2, 4, 3]) (-1) 1,
    -- 156: t2new += np.transpose(tmp20, (0, 1, 3, 2))
    .add 46 (.tr 32 [0, 1, 3, 2]) 1 1,
    -- 157: t2new += np.transpose(tmp20, (1, 0, 2, 3))
    .add 46 (.tr 32 [1, 0, 2, 3]) 1 1,
    -- 158: del tmp20
    .del 32,
    -- 159: t2new += tmp22 * -1
    .add 46 (.cp 33) (-1) 1,
    -- 160: t2new += np.transpose(tmp22, (1, 0, 3, 2)) * -1
    .add 46 (.tr 33 [1, 0, 3, 2]) (-1) 1,
    -- 161: del tmp22
    .del 33,
    -- 162: t2new += np.transpose(tmp23, (0, 1, 3, 2)) * -1
    .add 46 (.tr 35 [0, 1, 3, 2]) (-1) 1,
    -- 163: t2new += np.transpose(tmp23, (1, 0, 2, 3)) * -1
    .add 46 (.tr 35 [1, 0, 2, 3]) (-1) 1,
    -- 164: del tmp23
    .del 35,
    -- 165: t2new += np.transpose(tmp30, (0, 1, 3, 2)) * -1
    .add 46 (.tr 36 [0, 1, 3, 2]) (-1) 1,
    -- 166: t2new += np.transpose(tmp30, (1, 0, 2, 3)) * -1
    .add 46 (.tr 36 [1, 0, 2, 3]) (-1) 1,
    -- 167: del tmp30
    .del 36,
    -- 168: t2new += tmp31 * -1
    .add 46 (.cp 37) (-1) 1,
    -- 169: t2new += np.transpose(tmp31, (1, 0, 3, 2)) * -1
    .add 46 (.tr 37 [1, 0, 3, 2]) (-1) 1,
    -- 170: del tmp31
    .del 37,
    -- 171: t2new += einsum(tmp33, (0, 1, 2, 3), t1, (0, 4), (2, 1, 3, 4))
    .add 46 (.ein [(38, [0, 1, 2, 3]), (1, [0, 4])] [2, 1, 3, 4]) 1 1,
    -- 172: del tmp33
    .del 38,
    -- 173: t1new = np.copy(f.ov)
    .set 47 (.cp 2) 1 1,
    -- 174: t1new += einsum(t2, (0, 1, 2, 3), tmp0, (1, 2, 3, 4), (0, 4)) * 2
    .add 47 (.ein [(3, [0, 1, 2, 3]), (45, [1, 2, 3, 4])] [0, 4]) 2 1,
    -- 175: del tmp0
    .del 45,
    -- 176: t1new += einsum(t2, (0, 1, 2, 3), tmp2, (4, 0, 1, 3), (4, 2)) * -2
    .add 47 (.ein [(3, [0, 1, 2, 3]), (44, [4, 0, 1, 3])] [4, 2]) (-2) 1,
    -- 177: del tmp2
    .del 44,
    -- 178: t1new += einsum(tmp4, (0, 1), tmp5, (0, 2, 3, 1), (2, 3))
    .add 47 (.ein [(39, [0, 1]), (42, [0, 2, 3, 1])] [2, 3]) 1 1,
    -- 179: del tmp4, tmp5
    .del 39,
    .del 42,
    -- 180: t1new += einsum(tmp6, (0, 1, 2, 3), t1, (0, 2), (1, 3))
    .add 47 (.ein [(41, [0, 1, 2, 3]), (1, [0, 2])] [1, 3]) 1 1,
    -- 181: del tmp6
    .del 41,
    -- 182: t1new += einsum(t1, (0, 1), tmp8, (1, 2), (0, 2)) * 2
    .add 47 (.ein [(1, [0, 1]), (40, [1, 2])] [0, 2]) 2 1,
    -- 183: del tmp8
    .del 40,
    -- 184: t1new += einsum(tmp13, (0, 1), t1, (0, 2), (1, 2)) * -1
    .add 47 (.ein [(43, [0, 1]), (1, [0, 2])] [1, 2]) (-1) 1,
    -- 185: del tmp13
    .del 43
  ]
  ret := [(chars! "t1new", 47), (chars! "t2new", 46)]

/-- codegen/RCC2.py:189-548 `update_lams`. -/
def update_lams : GenFun where
  args := [chars! "v.ovov", chars! "t1", chars! "l2", chars! "v.ovvv", chars! "v.ooov", chars! "t2", chars! "l1", chars! "v.oovv", chars! "f.ov", chars! "f.oo", chars! "f.vv", chars! "v.ovoo", chars! "v.oooo", chars! "v.vvvv"]
  body := [
    -- 216: tmp50 = np.copy(np.transpose(v.ovov, (0, 2, 3, 1))) * 2
    .set 14 (.tr 0 [0, 2, 3, 1]) 2 1,
    -- 217: tmp50 += np.transpose(v.ovov, (0, 2, 1, 3)) * -1
    .add 14 (.tr 0 [0, 2, 1, 3]) (-1) 1,
    -- 218: tmp86 = einsum(tmp50, (0, 1, 2, 3), t1, (0, 3), (1, 2))
    .set 15 (.ein [(14, [0, 1, 2, 3]), (1, [0, 3])] [1, 2]) 1 1,
    -- 219: tmp8 = einsum(t1, (0, 1), v.ovov, (2, 3, 4, 1), (0, 2, 4, 3))
    .set 16 (.ein [(1, [0, 1]), (0, [2, 3, 4, 1])] [0, 2, 4, 3]) 1 1,
    -- 220: tmp17 = einsum(l2, (0, 1, 2, 3), t1, (4, 1), (2, 3, 4, 0))
    .set 17 (.ein [(2, [0, 1, 2, 3]), (1, [4, 1])] [2, 3, 4, 0]) 1 1,
    -- 221: tmp25 = einsum(t1, (0, 1), v.ovvv, (2, 1, 3, 4), (0, 2, 3, 4))
    .set 18 (.ein [(1, [0, 1]), (3, [2, 1, 3, 4])] [0, 2, 3, 4]) 1 1,
    -- 222: tmp78 = einsum(t1, (0, 1), v.ovvv, (2, 3, 4, 1), (0, 2, 3, 4))
    .set 19 (.ein [(1, [0, 1]), (3, [2, 3, 4, 1])] [0, 2, 3, 4]) 1 1,
    -- 223: tmp85 = einsum(v.ooov, (0, 1, 2, 3), t1, (1, 3), (0, 2))
    .set 20 (.ein [(4, [0, 1, 2, 3]), (1, [1, 3])] [0, 2]) 1 1,
    -- 224: tmp87 = einsum(tmp86, (0, 1), t1, (2, 1), (2, 0))
    .set 21 (.ein [(15, [0, 1]), (1, [2, 1])] [2, 0]) 1 1,
    -- 225: tmp2 = einsum(v.ovov, (0, 1, 2, 3), t2, (4, 5, 1, 3), (4, 5, 0, 2))
    .set 22 (.ein [(0, [0, 1, 2, 3]), (5, [4, 5, 1, 3])] [4, 5, 0, 2]) 1 1,
    -- 226: tmp5 = np.copy(np.transpose(v.ovov, (0, 2, 3, 1)))
    .set 23 (.tr 0 [0, 2, 3, 1]) 1 1,
    -- 227: tmp5 += np.transpose(v.ovov, (0, 2, 1, 3)) * -0.5
    .add 23 (.tr 0 [0, 2, 1, 3]) (-1) 2,
    -- 228: tmp27 = einsum(tmp8, (0, 1, 2, 3), t1, (4, 3), (4, 0, 1, 2))
    .set 24 (.ein [(16, [0, 1, 2, 3]), (1, [4, 3])] [4, 0, 1, 2]) 1 1,
    -- 229: tmp34 = einsum(l2, (0, 1, 2, 3), t2, (4, 5, 1, 0), (3, 2, 4, 5))
    .set 25 (.ein [(2, [0, 1, 2, 3]), (5, [4, 5, 1, 0])] [3, 2, 4, 5]) 1 1,
    -- 230: tmp35 = einsum(tmp17, (0, 1, 2, 3), t1, (4, 3), (1, 0, 2, 4))
    .set 26 (.ein [(17, [0, 1, 2, 3]), (1, [4, 3])] [1, 0, 2, 4]) 1 1,
    -- 231: tmp47 = einsum(l1, (0, 1), t1, (2, 0), (1, 2))
    .set 27 (.ein [(6, [0, 1]), (1, [2, 0])] [1, 2]) 1 1,
    -- 232: tmp12 = einsum(v.ooov, (0, 1, 2, 3), t1, (4, 3), (4, 0, 1, 2))
    .set 28 (.ein [(4, [0, 1, 2, 3]), (1, [4, 3])] [4, 0, 1, 2]) 1 1,
    -- 233: tmp69 = np.copy(v.oovv)
    .set 29 (.cp 7) 1 1,
    -- 234: tmp69 += np.transpose(tmp25, (0, 1, 3, 2))
    .add 29 (.tr 18 [0, 1, 3, 2]) 1 1,
    -- 235: tmp63 = einsum(f.ov, (0, 1), t1, (2, 1), (0, 2))
    .set 30 (.ein [(8, [0, 1]), (1, [2, 1])] [0, 2]) 1 1,
    -- 236: tmp79 = np.copy(np.transpose(v.ovov, (0, 2, 3, 1)))
    .set 31 (.tr 0 [0, 2, 3, 1]) 1 1,
    -- 237: tmp79 += tmp78
    .add 31 (.cp 19) 1 1,
    -- 238: del tmp78
    .del 19,
    -- 239: tmp77 = np.copy(np.transpose(l2, (3, 2, 0, 1))) * -1
    .set 32 (.tr 2 [3, 2, 0, 1]) (-1) 1,
    -- 240: tmp77 += np.transpose(l2, (2, 3, 0, 1)) * 2
    .add 32 (.tr 2 [2, 3, 0, 1]) 2 1,
    -- 241: tmp73 = einsum(t1, (0, 1), v.ovvv, (0, 1, 2, 3), (2, 3))
    .set 33 (.ein [(1, [0, 1]), (3, [0, 1, 2, 3])] [2, 3]) 1 1,
    -- 242: tmp83 = np.copy(tmp8) * -1
    .set 34 (.cp 16) (-1) 1,
    -- 243: tmp83 += np.transpose(tmp8, (0, 2, 1, 3)) * 2
    .add 34 (.tr 16 [0, 2, 1, 3]) 2 1,
    -- 244: tmp42 = np.copy(tmp17) * -1
    .set 35 (.cp 17) (-1) 1,
    -- 245: tmp42 += np.transpose(tmp17, (1, 0, 2, 3)) * 2
    .add 35 (.tr 17 [1, 0, 2, 3]) 2 1,
    -- 246: tmp88 = np.copy(tmp85)
    .set 36 (.cp 20) 1 1,
    -- 247: del tmp85
    .del 20,
    -- 248: tmp88 += tmp87 * -1
    .add 36 (.cp 21) (-1) 1,
    -- 249: del tmp87
    .del 21,
    -- 250: tmp93 = einsum(v.ooov, (0, 1, 2, 3), t1, (2, 3), (0, 1))
    .set 37 (.ein [(4, [0, 1, 2, 3]), (1, [2, 3])] [0, 1]) 1 1,
    -- 251: tmp3 = einsum(tmp2, (0, 1, 2, 3), t1, (3, 4), (0, 1, 2, 4))
    .set 38 (.ein [(22, [0, 1, 2, 3]), (1, [3, 4])] [0, 1, 2, 4]) 1 1,
    -- 252: del tmp2
    .del 22,
    -- 253: tmp1 = einsum(v.ovvv, (0, 1, 2, 3), t2, (4, 5, 1, 3), (4, 5, 0, 2))
    .set 39 (.ein [(3, [0, 1, 2, 3]), (5, [4, 5, 1, 3])] [4, 5, 0, 2]) 1 1,
    -- 254: tmp6 = einsum(t1, (0, 1), tmp5, (0, 2, 3, 1), (2, 3)) * 2
    .set 40 (.ein [(1, [0, 1]), (23, [0, 2, 3, 1])] [2, 3]) 2 1,
    -- 255: tmp28 = einsum(tmp27, (0, 1, 2, 3), t1, (3, 4), (0, 1, 2, 4))
    .set 41 (.ein [(24, [0, 1, 2, 3]), (1, [3, 4])] [0, 1, 2, 4]) 1 1,
    -- 256: tmp26 = einsum(tmp25, (0, 1, 2, 3), t1, (4, 3), (0, 4, 1, 2))
    .set 42 (.ein [(18, [0, 1, 2, 3]), (1, [4, 3])] [0, 4, 1, 2]) 1 1,
    -- 257: del tmp25
    .del 18,
    -- 258: tmp16 = np.copy(np.transpose(t2, (0, 1, 3, 2))) * -0.5
    .set 43 (.tr 5 [0, 1, 3, 2]) (-1) 2,
    -- 259: tmp16 += t2
    .add 43 (.cp 5) 1 1,
    -- 260: tmp36 = np.copy(np.transpose(tmp34, (1, 0, 3, 2)))
    .set 44 (.tr 25 [1, 0, 3, 2]) 1 1,
    -- 261: tmp36 += tmp35
    .add 44 (.cp 26) 1 1,
    -- 262: tmp98 = einsum(l2, (0, 1, 2, 3), f.oo, (4, 3), (4, 2, 0, 1))
    .set 45 (.ein [(2, [0, 1, 2, 3]), (9, [4, 3])] [4, 2, 0, 1]) 1 1,
    -- 263: tmp100 = einsum(tmp47, (0, 1), v.ovov, (2, 3, 1, 4), (0, 2, 3, 4))
    .set 46 (.ein [(27, [0, 1]), (0, [2, 3, 1, 4])] [0, 2, 3, 4]) 1 1,
    -- 264: tmp99 = einsum(tmp8, (0, 1, 2, 3), l1, (4, 0), (1, 2, 4, 3))
    .set 47 (.ein [(16, [0, 1, 2, 3]), (6, [4, 0])] [1, 2, 4, 3]) 1 1,
    -- 265: tmp66 = einsum(tmp12, (0, 1, 2, 3), l2, (4, 5, 0, 1), (2, 3, 4, 5))
    .set 48 (.ein [(28, [0, 1, 2, 3]), (2, [4, 5, 0, 1])] [2, 3, 4, 5]) 1 1,
    -- 266: tmp70 = einsum(l2, (0, 1, 2, 3), tmp69, (2, 4, 1, 5), (3, 4, 0, 5))
    .set 49 (.ein [(2, [0, 1, 2, 3]), (29, [2, 4, 1, 5])] [3, 4, 0, 5]) 1 1,
    -- 267: tmp61 = einsum(l2, (0, 1, 2, 3), f.vv, (4, 1), (2, 3, 4, 0))
    .set 50 (.ein [(2, [0, 1, 2, 3]), (10, [4, 1])] [2, 3, 4, 0]) 1 1,
    -- 268: tmp65 = einsum(tmp17, (0, 1, 2, 3), f.ov, (2, 4), (0, 1, 4, 3))
    .set 51 (.ein [(17, [0, 1, 2, 3]), (8, [2, 4])] [0, 1, 4, 3]) 1 1,
    -- 269: tmp64 = einsum(tmp63, (0, 1), l2, (2, 3, 4, 1), (0, 4, 2, 3))
    .set 52 (.ein [(30, [0, 1]), (2, [2, 3, 4, 1])] [0, 4, 2, 3]) 1 1,
    -- 270: del tmp63
    .del 30,
    -- 271: tmp67 = einsum(v.ooov, (0, 1, 2, 3), tmp17, (1, 4, 2, 5), (4, 0, 5, 3))
    .set 53 (.ein [(4, [0, 1, 2, 3]), (17, [1, 4, 2, 5])] [4, 0, 5, 3]) 1 1,
    -- 272: tmp68 = einsum(tmp8, (0, 1, 2, 3), tmp17, (0, 4, 1, 5), (4, 2, 5, 3))
    .set 54 (.ein [(16, [0, 1, 2, 3]), (17, [0, 4, 1, 5])] [4, 2, 5, 3]) 1 1,
    -- 273: tmp62 = einsum(v.ovvv, (0, 1, 2, 3), l1, (3, 4), (4, 0, 1, 2))
    .set 55 (.ein [(3, [0, 1, 2, 3]), (6, [3, 4])] [4, 0, 1, 2]) 1 1,
    -- 274: tmp72 = einsum(tmp17, (0, 1, 2, 3), v.ooov, (4, 1, 2, 5), (0, 4, 3, 5))
    .set 56 (.ein [(17, [0, 1, 2, 3]), (4, [4, 1, 2, 5])] [0, 4, 3, 5]) 1 1,
    -- 275: tmp76 = einsum(tmp8, (0, 1, 2, 3), tmp17, (0, 4, 2, 5), (4, 1, 5, 3))
    .set 57 (.ein [(16, [0, 1, 2, 3]), (17, [0, 4, 2, 5])] [4, 1, 5, 3]) 1 1,
    -- 276: tmp80 = einsum(tmp79, (0, 1, 2, 3), tmp77, (0, 4, 3, 5), (4, 1, 5, 2))
    .set 58 (.ein [(31, [0, 1, 2, 3]), (32, [0, 4, 3, 5])] [4, 1, 5, 2]) 1 1,
    -- 277: del tmp79, tmp77
    .del 31,
    .del 32,
    -- 278: tmp74 = einsum(l2, (0, 1, 2, 3), tmp73, (4, 1), (2, 3, 0, 4))
    .set 59 (.ein [(2, [0, 1, 2, 3]), (33, [4, 1])] [2, 3, 0, 4]) 1 1,
    -- 279: del tmp73
    .del 33,
    -- 280: tmp84 = einsum(tmp83, (0, 1, 2, 3), tmp17, (4, 0, 1, 5), (4, 2, 5, 3))
    .set 60 (.ein [(34, [0, 1, 2, 3]), (17, [4, 0, 1, 5])] [4, 2, 5, 3]) 1 1,
    -- 281: del tmp83
    .del 34,
    -- 282: tmp75 = einsum(v.ovvv, (0, 1, 2, 3), tmp17, (4, 5, 0, 3), (5, 4, 1, 2))
    .set 61 (.ein [(3, [0, 1, 2, 3]), (17, [4, 5, 0, 3])] [5, 4, 1, 2]) 1 1,
    -- 283: tmp81 = einsum(tmp69, (0, 1, 2, 3), l2, (4, 2, 5, 0), (5, 1, 4, 3))
    .set 62 (.ein [(29, [0, 1, 2, 3]), (2, [4, 2, 5, 0])] [5, 1, 4, 3]) 1 1,
    -- 284: del tmp69
    .del 29,
    -- 285: tmp82 = einsum(v.ovoo, (0, 1, 2, 3), tmp42, (2, 4, 3, 5), (0, 4, 1, 5))
    .set 63 (.ein [(11, [0, 1, 2, 3]), (35, [2, 4, 3, 5])] [0, 4, 1, 5]) 1 1,
    -- 286: tmp90 = einsum(tmp86, (0, 1), tmp17, (2, 3, 0, 4), (2, 3, 4, 1))
    .set 64 (.ein [(15, [0, 1]), (17, [2, 3, 0, 4])] [2, 3, 4, 1]) 1 1,
    -- 287: tmp89 = einsum(l2, (0, 1, 2, 3), tmp88, (2, 4), (3, 4, 0, 1))
    .set 65 (.ein [(2, [0, 1, 2, 3]), (36, [2, 4])] [3, 4, 0, 1]) 1 1,
    -- 288: del tmp88
    .del 36,
    -- 289: tmp96 = einsum(v.ovvv, (0, 1, 2, 3), t1, (0, 3), (1, 2))
    .set 66 (.ein [(3, [0, 1, 2, 3]), (1, [0, 3])] [1, 2]) 1 1,
    -- 290: tmp94 = einsum(tmp93, (0, 1), l2, (2, 3, 4, 1), (4, 0, 2, 3))
    .set 67 (.ein [(37, [0, 1]), (2, [2, 3, 4, 1])] [4, 0, 2, 3]) 1 1,
    -- 291: del tmp93
    .del 37,
    -- 292: tmp92 = einsum(v.ooov, (0, 1, 2, 3), l1, (4, 1), (0, 2, 4, 3))
    .set 68 (.ein [(4, [0, 1, 2, 3]), (6, [4, 1])] [0, 2, 4, 3]) 1 1,
    -- 293: tmp4 = np.copy(tmp1)
    .set 69 (.cp 39) 1 1,
    -- 294: del tmp1
    .del 39,
    -- 295: tmp4 += tmp3 * -1
    .add 69 (.cp 38) (-1) 1,
    -- 296: del tmp3
    .del 38,
    -- 297: tmp9 = np.copy(v.ooov) * 2
    .set 70 (.cp 4) 2 1,
    -- 298: tmp9 += np.transpose(v.ooov, (0, 2, 1, 3)) * -1
    .add 70 (.tr 4 [0, 2, 1, 3]) (-1) 1,
    -- 299: tmp9 += tmp8 * -1
    .add 70 (.cp 16) (-1) 1,
    -- 300: tmp9 += np.transpose(tmp8, (0, 2, 1, 3)) * 2
    .add 70 (.tr 16 [0, 2, 1, 3]) 2 1,
    -- 301: tmp11 = np.copy(v.oovv) * 2
    .set 71 (.cp 7) 2 1,
    -- 302: tmp11 += np.transpose(v.ovov, (0, 2, 1, 3)) * -1
    .add 71 (.tr 0 [0, 2, 1, 3]) (-1) 1,
    -- 303: tmp10 = np.copy(v.ooov) * -0.5
    .set 72 (.cp 4) (-1) 2,
    -- 304: tmp10 += np.transpose(v.ooov, (0, 2, 1, 3))
    .add 72 (.tr 4 [0, 2, 1, 3]) 1 1,
    -- 305: tmp10 += tmp8
    .add 72 (.cp 16) 1 1,
    -- 306: tmp10 += np.transpose(tmp8, (0, 2, 1, 3)) * -0.5
    .add 72 (.tr 16 [0, 2, 1, 3]) (-1) 2,
    -- 307: del tmp8
    .del 16,
    -- 308: tmp7 = einsum(tmp6, (0, 1), t2, (2, 3, 1, 4), (2, 3, 0, 4)) * 2
    .set 73 (.ein [(40, [0, 1]), (5, [2, 3, 1, 4])] [2, 3, 0, 4]) 2 1,
    -- 309: tmp13 = np.copy(np.transpose(v.oooo, (0, 2, 1, 3))) * 2
    .set 74 (.tr 12 [0, 2, 1, 3]) 2 1,
    -- 310: tmp13 += v.oooo * -1
    .add 74 (.cp 12) (-1) 1,
    -- 311: tmp13 += np.transpose(tmp12, (2, 1, 0, 3)) * -1
    .add 74 (.tr 28 [2, 1, 0, 3]) (-1) 1,
    -- 312: tmp13 += np.transpose(tmp12, (3, 2, 0, 1)) * 2
    .add 74 (.tr 28 [3, 2, 0, 1]) 2 1,
    -- 313: tmp0 = einsum(f.ov, (0, 1), t2, (2, 3, 4, 1), (0, 2, 3, 4))
    .set 75 (.ein [(8, [0, 1]), (5, [2, 3, 4, 1])] [0, 2, 3, 4]) 1 1,
    -- 314: tmp55 = np.copy(v.ovvv)
    .set 76 (.cp 3) 1 1,
    -- 315: tmp55 += np.transpose(v.ovvv, (0, 2, 1, 3)) * -0.5
    .add 76 (.tr 3 [0, 2, 1, 3]) (-1) 2,
    -- 316: tmp15 = np.copy(np.transpose(t2, (0, 1, 3, 2))) * 2
    .set 77 (.tr 5 [0, 1, 3, 2]) 2 1,
    -- 317: tmp15 += t2 * -1
    .add 77 (.cp 5) (-1) 1,
    -- 318: tmp18 = np.copy(tmp17)
    .set 78 (.cp 17) 1 1,
    -- 319: tmp18 += np.transpose(tmp17, (1, 0, 2, 3)) * -0.5
    .add 78 (.tr 17 [1, 0, 2, 3]) (-1) 2,
    -- 320: tmp30 = np.copy(np.transpose(v.ovov, (0, 2, 1, 3))) * 2
    .set 79 (.tr 0 [0, 2, 1, 3]) 2 1,
    -- 321: tmp30 += v.oovv * -1
    .add 79 (.cp 7) (-1) 1,
    -- 322: tmp31 = np.copy(np.transpose(tmp12, (0, 2, 1, 3))) * 2
    .set 80 (.tr 28 [0, 2, 1, 3]) 2 1,
    -- 323: tmp31 += np.transpose(tmp12, (0, 3, 2, 1)) * -1
    .add 80 (.tr 28 [0, 3, 2, 1]) (-1) 1,
    -- 324: del tmp12
    .del 28,
    -- 325: tmp29 = np.copy(tmp26) * 2
    .set 81 (.cp 42) 2 1,
    -- 326: del tmp26
    .del 42,
    -- 327: tmp29 += tmp28 * -2
    .add 81 (.cp 41) (-2) 1,
    -- 328: del tmp28
    .del 41,
    -- 329: tmp48 = np.copy(tmp47) * 0.5
    .set 82 (.cp 27) 1 2,
    -- 330: tmp48 += einsum(l2, (0, 1, 2, 3), tmp16, (2, 4, 0, 1), (3, 4))
    .add 82 (.ein [(2, [0, 1, 2, 3]), (43, [2, 4, 0, 1])] [3, 4]) 1 1,
    -- 331: tmp22 = np.copy(np.transpose(l2, (3, 2, 0, 1))) * -1
    .set 83 (.tr 2 [3, 2, 0, 1]) (-1) 1,
    -- 332: tmp22 += np.transpose(l2, (2, 3, 0, 1)) * 2
    .add 83 (.tr 2 [2, 3, 0, 1]) 2 1,
    -- 333: tmp23 = np.copy(np.transpose(t2, (0, 1, 3, 2))) * -1
    .set 84 (.tr 5 [0, 1, 3, 2]) (-1) 1,
    -- 334: tmp23 += t2 * 2
    .add 84 (.cp 5) 2 1,
    -- 335: tmp58 = np.copy(v.ooov) * -0.5
    .set 85 (.cp 4) (-1) 2,
    -- 336: tmp58 += np.transpose(v.ovoo, (0, 2, 3, 1))
    .add 85 (.tr 11 [0, 2, 3, 1]) 1 1,
    -- 337: tmp59 = np.copy(f.ov)
    .set 86 (.cp 8) 1 1,
    -- 338: tmp59 += tmp6
    .add 86 (.cp 40) 1 1,
    -- 339: del tmp6
    .del 40,
    -- 340: tmp51 = einsum(l2, (0, 1, 2, 3), tmp16, (2, 4, 0, 1), (3, 4)) * 2
    .set 87 (.ein [(2, [0, 1, 2, 3]), (43, [2, 4, 0, 1])] [3, 4]) 2 1,
    -- 341: tmp38 = np.copy(tmp17) * -1
    .set 88 (.cp 17) (-1) 1,
    -- 342: tmp38 += np.transpose(tmp17, (1, 0, 2, 3)) * 2
    .add 88 (.tr 17 [1, 0, 2, 3]) 2 1,
    -- 343: tmp37 = einsum(tmp36, (0, 1, 2, 3), t1, (0, 4), (1, 2, 3, 4))
    .set 89 (.ein [(44, [0, 1, 2, 3]), (1, [0, 4])] [1, 2, 3, 4]) 1 1,
    -- 344: del tmp36
    .del 44,
    -- 345: tmp40 = einsum(l1, (0, 1), t2, (2, 3, 4, 0), (1, 2, 3, 4))
    .set 90 (.ein [(6, [0, 1]), (5, [2, 3, 4, 0])] [1, 2, 3, 4]) 1 1,
    -- 346: tmp102 = np.copy(v.oooo)
    .set 91 (.cp 12) 1 1,
    -- 347: tmp102 += np.transpose(tmp27, (0, 2, 3, 1))
    .add 91 (.tr 24 [0, 2, 3, 1]) 1 1,
    -- 348: del tmp27
    .del 24,
    -- 349: tmp101 = np.copy(tmp98)
    .set 92 (.cp 45) 1 1,
    -- 350: del tmp98
    .del 45,
    -- 351: tmp101 += tmp99
    .add 92 (.cp 47) 1 1,
    -- 352: del tmp99
    .del 47,
    -- 353: tmp101 += tmp100
    .add 92 (.cp 46) 1 1,
    -- 354: del tmp100
    .del 46,
    -- 355: tmp71 = np.copy(tmp61)
    .set 93 (.cp 50) 1 1,
    -- 356: del tmp61
    .del 50,
    -- 357: tmp71 += tmp62
    .add 93 (.cp 55) 1 1,
    -- 358: del tmp62
    .del 55,
    -- 359: tmp71 += tmp64 * -1
    .add 93 (.cp 52) (-1) 1,
    -- 360: del tmp64
    .del 52,
    -- 361: tmp71 += tmp65 * -1
    .add 93 (.cp 51) (-1) 1,
    -- 362: del tmp65
    .del 51,
    -- 363: tmp71 += tmp66
    .add 93 (.cp 48) 1 1,
    -- 364: del tmp66
    .del 48,
    -- 365: tmp71 += tmp67
    .add 93 (.cp 53) 1 1,
    -- 366: del tmp67
    .del 53,
    -- 367: tmp71 += tmp68
    .add 93 (.cp 54) 1 1,
    -- 368: del tmp68
    .del 54,
    -- 369: tmp71 += tmp70 * -1
    .add 93 (.cp 49) (-1) 1,
    -- 370: del tmp70
    .del 49,
    -- 371: tmp91 = einsum(l1, (0, 1), f.ov, (2, 3), (2, 1, 3, 0))
    .set 94 (.ein [(6, [0, 1]), (8, [2, 3])] [2, 1, 3, 0]) 1 1,
    -- 372: tmp91 += tmp72
    .add 94 (.cp 56) 1 1,
    -- 373: del tmp72
    .del 56,
    -- 374: tmp91 += tmp74 * 2
    .add 94 (.cp 59) 2 1,
    -- 375: del tmp74
    .del 59,
    -- 376: tmp91 += tmp75 * -1
    .add 94 (.cp 61) (-1) 1,
    -- 377: del tmp75
    .del 61,
    -- 378: tmp91 += tmp76
    .add 94 (.cp 57) 1 1,
    -- 379: del tmp76
    .del 57,
    -- 380: tmp91 += tmp80
    .add 94 (.cp 58) 1 1,
    -- 381: del tmp80
    .del 58,
    -- 382: tmp91 += tmp81 * -1
    .add 94 (.cp 62) (-1) 1,
    -- 383: del tmp81
    .del 62,
    -- 384: tmp91 += np.transpose(tmp82, (1, 0, 3, 2)) * -1
    .add 94 (.tr 63 [1, 0, 3, 2]) (-1) 1,
    -- 385: del tmp82
    .del 63,
    -- 386: tmp91 += tmp84 * -1
    .add 94 (.cp 60) (-1) 1,
    -- 387: del tmp84
    .del 60,
    -- 388: tmp91 += np.transpose(tmp89, (0, 1, 3, 2))
    .add 94 (.tr 65 [0, 1, 3, 2]) 1 1,
    -- 389: del tmp89
    .del 65,
    -- 390: tmp91 += tmp90 * -1
    .add 94 (.cp 64) (-1) 1,
    -- 391: del tmp90
    .del 64,
    -- 392: tmp91 += einsum(l1, (0, 1), tmp86, (2, 3), (1, 2, 0, 3))
    .add 94 (.ein [(6, [0, 1]), (15, [2, 3])] [1, 2, 0, 3]) 1 1,
    -- 393: del tmp86
    .del 15,
    -- 394: tmp97 = einsum(l2, (0, 1, 2, 3), tmp96, (4, 1), (2, 3, 0, 4))
    .set 95 (.ein [(2, [0, 1, 2, 3]), (66, [4, 1])] [2, 3, 0, 4]) 1 1,
    -- 395: del tmp96
    .del 66,
    -- 396: tmp95 = np.copy(tmp92)
    .set 96 (.cp 68) 1 1,
    -- 397: del tmp92
    .del 68,
    -- 398: tmp95 += tmp94 * 2
    .add 96 (.cp 67) 2 1,
    -- 399: del tmp94
    .del 67,
    -- 400: tmp14 = np.copy(np.transpose(v.ooov, (0, 2, 1, 3)))
    .set 97 (.tr 4 [0, 2, 1, 3]) 1 1,
    -- 401: tmp14 += np.transpose(v.ovoo, (0, 2, 3, 1)) * -2
    .add 97 (.tr 11 [0, 2, 3, 1]) (-2) 1,
    -- 402: tmp14 += np.transpose(tmp0, (1, 2, 0, 3)) * -2
    .add 97 (.tr 75 [1, 2, 0, 3]) (-2) 1,
    -- 403: tmp14 += np.transpose(tmp0, (2, 1, 0, 3))
    .add 97 (.tr 75 [2, 1, 0, 3]) 1 1,
    -- 404: del tmp0
    .del 75,
    -- 405: tmp14 += tmp4
    .add 97 (.cp 69) 1 1,
    -- 406: tmp14 += np.transpose(tmp4, (1, 0, 2, 3)) * -2
    .add 97 (.tr 69 [1, 0, 2, 3]) (-2) 1,
    -- 407: del tmp4
    .del 69,
    -- 408: tmp14 += np.transpose(tmp7, (1, 0, 2, 3)) * -1
    .add 97 (.tr 73 [1, 0, 2, 3]) (-1) 1,
    -- 409: tmp14 += tmp7 * 0.5
    .add 97 (.cp 73) 1 2,
    -- 410: del tmp7
    .del 73,
    -- 411: tmp14 += einsum(t2, (0, 1, 2, 3), tmp9, (4, 5, 1, 3), (4, 0, 5, 2))
    .add 97 (.ein [(5, [0, 1, 2, 3]), (70, [4, 5, 1, 3])] [4, 0, 5, 2]) 1 1,
    -- 412: del tmp9
    .del 70,
    -- 413: tmp14 += einsum(t2, (0, 1, 2, 3), tmp10, (4, 5, 1, 2), (4, 0, 5, 3)) * 2
    .add 97 (.ein [(5, [0, 1, 2, 3]), (72, [4, 5, 1, 2])] [4, 0, 5, 3]) 2 1,
    -- 414: tmp14 += einsum(t1, (0, 1), tmp11, (2, 3, 1, 4), (0, 3, 2, 4)) * -1
    .add 97 (.ein [(1, [0, 1]), (71, [2, 3, 1, 4])] [0, 3, 2, 4]) (-1) 1,
    -- 415: del tmp11
    .del 71,
    -- 416: tmp14 += einsum(tmp13, (0, 1, 2, 3), t1, (0, 4), (2, 1, 3, 4))
    .add 97 (.ein [(74, [0, 1, 2, 3]), (1, [0, 4])] [2, 1, 3, 4]) 1 1,
    -- 417: del tmp13
    .del 74,
    -- 418: tmp57 = np.copy(f.ov) * 0.5
    .set 98 (.cp 8) 1 2,
    -- 419: tmp57 += einsum(t1, (0, 1), tmp5, (0, 2, 3, 1), (2, 3))
    .add 98 (.ein [(1, [0, 1]), (23, [0, 2, 3, 1])] [2, 3]) 1 1,
    -- 420: del tmp5
    .del 23,
    -- 421: tmp44 = np.copy(np.transpose(tmp34, (1, 0, 2, 3))) * -1
    .set 99 (.tr 25 [1, 0, 2, 3]) (-1) 1,
    -- 422: tmp44 += np.transpose(tmp34, (1, 0, 3, 2)) * 2
    .add 99 (.tr 25 [1, 0, 3, 2]) 2 1,
    -- 423: del tmp34
    .del 25,
    -- 424: tmp56 = np.copy(f.vv)
    .set 100 (.cp 10) 1 1,
    -- 425: tmp56 += einsum(t1, (0, 1), tmp55, (0, 1, 2, 3), (3, 2)) * 2
    .add 100 (.ein [(1, [0, 1]), (76, [0, 1, 2, 3])] [3, 2]) 2 1,
    -- 426: del tmp55
    .del 76,
    -- 427: tmp19 = einsum(l2, (0, 1, 2, 3), tmp15, (2, 4, 1, 5), (3, 4, 0, 5))
    .set 101 (.ein [(2, [0, 1, 2, 3]), (77, [2, 4, 1, 5])] [3, 4, 0, 5]) 1 1,
    -- 428: tmp19 += einsum(l2, (0, 1, 2, 3), tmp16, (3, 4, 1, 5), (2, 4, 0, 5)) * 2
    .add 101 (.ein [(2, [0, 1, 2, 3]), (43, [3, 4, 1, 5])] [2, 4, 0, 5]) 2 1,
    -- 429: tmp19 += einsum(tmp18, (0, 1, 2, 3), t1, (0, 4), (1, 2, 4, 3)) * 2
    .add 101 (.ein [(78, [0, 1, 2, 3]), (1, [0, 4])] [1, 2, 4, 3]) 2 1,
    -- 430: tmp32 = np.copy(tmp29) * -1
    .set 102 (.cp 81) (-1) 1,
    -- 431: tmp32 += np.transpose(tmp29, (1, 0, 2, 3)) * 0.5
    .add 102 (.tr 81 [1, 0, 2, 3]) 1 2,
    -- 432: del tmp29
    .del 81,
    -- 433: tmp32 += einsum(tmp16, (0, 1, 2, 3), tmp10, (4, 0, 5, 2), (4, 1, 5, 3)) * -4
    .add 102 (.ein [(43, [0, 1, 2, 3]), (72, [4, 0, 5, 2])] [4, 1, 5, 3]) (-4) 1,
    -- 434: del tmp10
    .del 72,
    -- 435: tmp32 += einsum(t1, (0, 1), tmp30, (2, 3, 1, 4), (0, 3, 2, 4)) * -1
    .add 102 (.ein [(1, [0, 1]), (79, [2, 3, 1, 4])] [0, 3, 2, 4]) (-1) 1,
    -- 436: del tmp30
    .del 79,
    -- 437: tmp32 += einsum(tmp31, (0, 1, 2, 3), t1, (1, 4), (0, 2, 3, 4))
    .add 102 (.ein [(80, [0, 1, 2, 3]), (1, [1, 4])] [0, 2, 3, 4]) 1 1,
    -- 438: del tmp31
    .del 80,
    -- 439: tmp53 = np.copy(v.ooov) * 2
    .set 103 (.cp 4) 2 1,
    -- 440: tmp53 += np.transpose(v.ovoo, (0, 2, 3, 1)) * -1
    .add 103 (.tr 11 [0, 2, 3, 1]) (-1) 1,
    -- 441: tmp20 = einsum(t1, (0, 1), l2, (2, 3, 4, 0), (4, 2, 3, 1))
    .set 104 (.ein [(1, [0, 1]), (2, [2, 3, 4, 0])] [4, 2, 3, 1]) 1 1,
    -- 442: tmp54 = np.copy(np.transpose(v.ovov, (0, 2, 1, 3))) * 2
    .set 105 (.tr 0 [0, 2, 1, 3]) 2 1,
    -- 443: tmp54 += v.oovv * -1
    .add 105 (.cp 7) (-1) 1,
    -- 444: tmp49 = np.copy(t1) * -0.5
    .set 106 (.cp 1) (-1) 2,
    -- 445: tmp49 += einsum(tmp17, (0, 1, 2, 3), tmp16, (1, 0, 4, 3), (2, 4))
    .add 106 (.ein [(17, [0, 1, 2, 3]), (43, [1, 0, 4, 3])] [2, 4]) 1 1,
    -- 446: tmp49 += einsum(l1, (0, 1), tmp15, (1, 2, 3, 0), (2, 3)) * -0.5
    .add 106 (.ein [(6, [0, 1]), (77, [1, 2, 3, 0])] [2, 3]) (-1) 2,
    -- 447: del tmp15
    .del 77,
    -- 448: tmp49 += einsum(tmp48, (0, 1), t1, (0, 2), (1, 2))
    .add 106 (.ein [(82, [0, 1]), (1, [0, 2])] [1, 2]) 1 1,
    -- 449: del tmp48
    .del 82,
    -- 450: tmp24 = np.copy(np.transpose(l2, (3, 2, 0, 1)))
    .set 107 (.tr 2 [3, 2, 0, 1]) 1 1,
    -- 451: tmp24 += einsum(tmp23, (0, 1, 2, 3), tmp22, (0, 4, 2, 5), (4, 1, 5, 3)) * -1
    .add 107 (.ein [(84, [0, 1, 2, 3]), (83, [0, 4, 2, 5])] [4, 1, 5, 3]) (-1) 1,
    -- 452: del tmp22
    .del 83,
    -- 453: tmp60 = np.copy(f.oo)
    .set 108 (.cp 9) 1 1,
    -- 454: tmp60 += einsum(v.ovov, (0, 1, 2, 3), tmp23, (2, 4, 3, 1), (4, 0))
    .add 108 (.ein [(0, [0, 1, 2, 3]), (84, [2, 4, 3, 1])] [4, 0]) 1 1,
    -- 455: tmp60 += einsum(tmp58, (0, 1, 2, 3), t1, (0, 3), (1, 2)) * 2
    .add 108 (.ein [(85, [0, 1, 2, 3]), (1, [0, 3])] [1, 2]) 2 1,
    -- 456: del tmp58
    .del 85,
    -- 457: tmp60 += einsum(tmp59, (0, 1), t1, (2, 1), (2, 0))
    .add 108 (.ein [(86, [0, 1]), (1, [2, 1])] [2, 0]) 1 1,
    -- 458: del tmp59
    .del 86,
    -- 459: tmp46 = np.copy(v.ovvv) * -1
    .set 109 (.cp 3) (-1) 1,
    -- 460: tmp46 += np.transpose(v.ovvv, (0, 2, 3, 1)) * 2
    .add 109 (.tr 3 [0, 2, 3, 1]) 2 1,
    -- 461: tmp43 = np.copy(tmp35) * -0.5
    .set 110 (.cp 26) (-1) 2,
    -- 462: tmp43 += np.transpose(tmp35, (0, 1, 3, 2))
    .add 110 (.tr 26 [0, 1, 3, 2]) 1 1,
    -- 463: tmp52 = np.copy(tmp47)
    .set 111 (.cp 27) 1 1,
    -- 464: del tmp47
    .del 27,
    -- 465: tmp52 += tmp51
    .add 111 (.cp 87) 1 1,
    -- 466: del tmp51
    .del 87,
    -- 467: tmp21 = np.copy(np.transpose(v.vvvv, (0, 2, 1, 3))) * 2
    .set 112 (.tr 13 [0, 2, 1, 3]) 2 1,
    -- 468: tmp21 += v.vvvv * -1
    .add 112 (.cp 13) (-1) 1,
    -- 469: tmp45 = einsum(t1, (0, 1), l1, (2, 0), (2, 1))
    .set 113 (.ein [(1, [0, 1]), (6, [2, 0])] [2, 1]) 1 1,
    -- 470: tmp45 += einsum(l2, (0, 1, 2, 3), tmp16, (3, 2, 1, 4), (0, 4)) * 2
    .add 113 (.ein [(2, [0, 1, 2, 3]), (43, [3, 2, 1, 4])] [0, 4]) 2 1,
    -- 471: del tmp16
    .del 43,
    -- 472: tmp33 = np.copy(np.transpose(l2, (2, 3, 0, 1)))
    .set 114 (.tr 2 [2, 3, 0, 1]) 1 1,
    -- 473: tmp33 += einsum(tmp18, (0, 1, 2, 3), t1, (1, 4), (0, 2, 3, 4)) * -1
    .add 114 (.ein [(78, [0, 1, 2, 3]), (1, [1, 4])] [0, 2, 3, 4]) (-1) 1,
    -- 474: tmp39 = np.copy(np.transpose(tmp17, (0, 2, 1, 3))) * 0.5
    .set 115 (.tr 17 [0, 2, 1, 3]) 1 2,
    -- 475: tmp39 += np.transpose(tmp17, (1, 2, 0, 3)) * -1
    .add 115 (.tr 17 [1, 2, 0, 3]) (-1) 1,
    -- 476: del tmp17
    .del 17,
    -- 477: tmp39 += np.transpose(tmp37, (0, 2, 1, 3))
    .add 115 (.tr 89 [0, 2, 1, 3]) 1 1,
    -- 478: tmp39 += tmp37 * -0.5
    .add 115 (.cp 89) (-1) 2,
    -- 479: del tmp37
    .del 89,
    -- 480: tmp39 += einsum(tmp38, (0, 1, 2, 3), tmp23, (1, 4, 3, 5), (0, 2, 4, 5)) * -0.5
    .add 115 (.ein [(88, [0, 1, 2, 3]), (84, [1, 4, 3, 5])] [0, 2, 4, 5]) (-1) 2,
    -- 481: del tmp23
    .del 84,
    -- 482: tmp41 = np.copy(tmp40) * -2
    .set 116 (.cp 90) (-2) 1,
    -- 483: tmp41 += np.transpose(tmp40, (0, 2, 1, 3))
    .add 116 (.tr 90 [0, 2, 1, 3]) 1 1,
    -- 484: del tmp40
    .del 90,
    -- 485: tmp41 += einsum(t2, (0, 1, 2, 3), tmp38, (4, 1, 5, 3), (4, 5, 0, 2))
    .add 116 (.ein [(5, [0, 1, 2, 3]), (88, [4, 1, 5, 3])] [4, 5, 0, 2]) 1 1,
    -- 486: del tmp38
    .del 88,
    -- 487: tmp41 += einsum(tmp18, (0, 1, 2, 3), t2, (4, 1, 3, 5), (0, 2, 4, 5)) * 2
    .add 116 (.ein [(78, [0, 1, 2, 3]), (5, [4, 1, 3, 5])] [0, 2, 4, 5]) 2 1,
    -- 488: del tmp18
    .del 78,
    -- 489: l2new = einsum(v.vvvv, (0, 1, 2, 3), l2, (1, 3, 4, 5), (0, 2, 4, 5))
    .set 117 (.ein [(13, [0, 1, 2, 3]), (2, [1, 3, 4, 5])] [0, 2, 4, 5]) 1 1,
    -- 490: l2new += einsum(v.ovov, (0, 1, 2, 3), tmp35, (4, 5, 2, 0), (1, 3, 5, 4))
    .add 117 (.ein [(0, [0, 1, 2, 3]), (26, [4, 5, 2, 0])] [1, 3, 5, 4]) 1 1,
    -- 491: del tmp35
    .del 26,
    -- 492: l2new += np.transpose(v.ovov, (1, 3, 0, 2))
    .add 117 (.tr 0 [1, 3, 0, 2]) 1 1,
    -- 493: l2new += np.transpose(tmp71, (3, 2, 0, 1))
    .add 117 (.tr 93 [3, 2, 0, 1]) 1 1,
    -- 494: l2new += np.transpose(tmp71, (2, 3, 1, 0))
    .add 117 (.tr 93 [2, 3, 1, 0]) 1 1,
    -- 495: del tmp71
    .del 93,
    -- 496: l2new += np.transpose(tmp91, (2, 3, 0, 1))
    .add 117 (.tr 94 [2, 3, 0, 1]) 1 1,
    -- 497: l2new += np.transpose(tmp91, (3, 2, 1, 0))
    .add 117 (.tr 94 [3, 2, 1, 0]) 1 1,
    -- 498: del tmp91
    .del 94,
    -- 499: l2new += np.transpose(tmp95, (2, 3, 0, 1)) * -1
    .add 117 (.tr 96 [2, 3, 0, 1]) (-1) 1,
    -- 500: l2new += np.transpose(tmp95, (3, 2, 1, 0)) * -1
    .add 117 (.tr 96 [3, 2, 1, 0]) (-1) 1,
    -- 501: del tmp95
    .del 96,
    -- 502: l2new += np.transpose(tmp97, (2, 3, 0, 1)) * -1
    .add 117 (.tr 95 [2, 3, 0, 1]) (-1) 1,
    -- 503: l2new += np.transpose(tmp97, (3, 2, 1, 0)) * -1
    .add 117 (.tr 95 [3, 2, 1, 0]) (-1) 1,
    -- 504: del tmp97
    .del 95,
    -- 505: l2new += np.transpose(tmp101, (3, 2, 0, 1)) * -1
    .add 117 (.tr 92 [3, 2, 0, 1]) (-1) 1,
    -- 506: l2new += np.transpose(tmp101, (2, 3, 1, 0)) * -1
    .add 117 (.tr 92 [2, 3, 1, 0]) (-1) 1,
    -- 507: del tmp101
    .del 92,
    -- 508: l2new += einsum(tmp102, (0, 1, 2, 3), l2, (4, 5, 3, 0), (4, 5, 2, 1))
    .add 117 (.ein [(91, [0, 1, 2, 3]), (2, [4, 5, 3, 0])] [4, 5, 2, 1]) 1 1,
    -- 509: del tmp102
    .del 91,
    -- 510: l1new = np.copy(np.transpose(f.ov, (1, 0)))
    .set 118 (.tr 8 [1, 0]) 1 1,
    -- 511: l1new += einsum(tmp14, (0, 1, 2, 3), l2, (4, 3, 1, 0), (4, 2))
    .add 118 (.ein [(97, [0, 1, 2, 3]), (2, [4, 3, 1, 0])] [4, 2]) 1 1,
    -- 512: del tmp14
    .del 97,
    -- 513: l1new += einsum(tmp19, (0, 1, 2, 3), v.ovvv, (1, 4, 3, 2), (4, 0)) * -1
    .add 118 (.ein [(101, [0, 1, 2, 3]), (3, [1, 4, 3, 2])] [4, 0]) (-1) 1,
    -- 514: del tmp19
    .del 101,
    -- 515: l1new += einsum(tmp21, (0, 1, 2, 3), tmp20, (4, 0, 3, 1), (2, 4))
    .add 118 (.ein [(112, [0, 1, 2, 3]), (104, [4, 0, 3, 1])] [2, 4]) 1 1,
    -- 516: del tmp21, tmp20
    .del 112,
    .del 104,
    -- 517: l1new += einsum(v.ovvv, (0, 1, 2, 3), tmp24, (4, 0, 3, 1), (2, 4)) * -1
    .add 118 (.ein [(3, [0, 1, 2, 3]), (107, [4, 0, 3, 1])] [2, 4]) (-1) 1,
    -- 518: del tmp24
    .del 107,
    -- 519: l1new += einsum(tmp32, (0, 1, 2, 3), l2, (4, 3, 0, 1), (4, 2))
    .add 118 (.ein [(102, [0, 1, 2, 3]), (2, [4, 3, 0, 1])] [4, 2]) 1 1,
    -- 520: del tmp32
    .del 102,
    -- 521: l1new += einsum(v.ovvv, (0, 1, 2, 3), tmp33, (4, 0, 3, 1), (2, 4)) * 2
    .add 118 (.ein [(3, [0, 1, 2, 3]), (114, [4, 0, 3, 1])] [2, 4]) 2 1,
    -- 522: del tmp33
    .del 114,
    -- 523: l1new += einsum(tmp39, (0, 1, 2, 3), v.ovov, (2, 3, 1, 4), (4, 0)) * 2
    .add 118 (.ein [(115, [0, 1, 2, 3]), (0, [2, 3, 1, 4])] [4, 0]) 2 1,
    -- 524: del tmp39
    .del 115,
    -- 525: l1new += einsum(tmp41, (0, 1, 2, 3), v.ovov, (2, 4, 1, 3), (4, 0))
    .add 118 (.ein [(116, [0, 1, 2, 3]), (0, [2, 4, 1, 3])] [4, 0]) 1 1,
    -- 526: del tmp41
    .del 116,
    -- 527: l1new += einsum(v.oovv, (0, 1, 2, 3), tmp42, (0, 4, 1, 3), (2, 4)) * -1
    .add 118 (.ein [(7, [0, 1, 2, 3]), (35, [0, 4, 1, 3])] [2, 4]) (-1) 1,
    -- 528: del tmp42
    .del 35,
    -- 529: l1new += einsum(v.ooov, (0, 1, 2, 3), tmp43, (4, 0, 1, 2), (3, 4)) * 2
    .add 118 (.ein [(4, [0, 1, 2, 3]), (110, [4, 0, 1, 2])] [3, 4]) 2 1,
    -- 530: del tmp43
    .del 110,
    -- 531: l1new += einsum(v.ooov, (0, 1, 2, 3), tmp44, (1, 4, 0, 2), (3, 4))
    .add 118 (.ein [(4, [0, 1, 2, 3]), (99, [1, 4, 0, 2])] [3, 4]) 1 1,
    -- 532: del tmp44
    .del 99,
    -- 533: l1new += einsum(tmp45, (0, 1), tmp46, (2, 1, 0, 3), (3, 2))
    .add 118 (.ein [(113, [0, 1]), (109, [2, 1, 0, 3])] [3, 2]) 1 1,
    -- 534: del tmp45, tmp46
    .del 113,
    .del 109,
    -- 535: l1new += einsum(tmp49, (0, 1), tmp50, (0, 2, 3, 1), (3, 2)) * -2
    .add 118 (.ein [(106, [0, 1]), (14, [0, 2, 3, 1])] [3, 2]) (-2) 1,
    -- 536: del tmp50, tmp49
    .del 14,
    .del 106,
    -- 537: l1new += einsum(tmp53, (0, 1, 2, 3), tmp52, (1, 0), (3, 2)) * -1
    .add 118 (.ein [(103, [0, 1, 2, 3]), (111, [1, 0])] [3, 2]) (-1) 1,
    -- 538: del tmp53
    .del 103,
    -- 539: l1new += einsum(l1, (0, 1), tmp54, (1, 2, 0, 3), (3, 2))
    .add 118 (.ein [(6, [0, 1]), (105, [1, 2, 0, 3])] [3, 2]) 1 1,
    -- 540: del tmp54
    .del 105,
    -- 541: l1new += einsum(l1, (0, 1), tmp56, (0, 2), (2, 1))
    .add 118 (.ein [(6, [0, 1]), (100, [0, 2])] [2, 1]) 1 1,
    -- 542: del tmp56
    .del 100,
    -- 543: l1new += einsum(tmp52, (0, 1), tmp57, (1, 2), (2, 0)) * -2
    .add 118 (.ein [(111, [0, 1]), (98, [1, 2])] [2, 0]) (-2) 1,
    -- 544: del tmp52, tmp57
    .del 111,
    .del 98,
    -- 545: l1new += einsum(tmp60, (0, 1), l1, (2, 0), (2, 1)) * -1
    .add 118 (.ein [(108, [0, 1]), (6, [2, 0])] [2, 1]) (-1) 1,
    -- 546: del tmp60
    .del 108
  ]
  ret := [(chars! "l1new", 118), (chars! "l2new", 117)]

end Ebcc.Gen.RCC2
