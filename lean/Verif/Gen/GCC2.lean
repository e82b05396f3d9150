import Verif.Model.GenCode
/-!
Functions of `ebcc/codegen/GCC2.py`, written by `tools/gencode.py`.  Comments give the
number and the text of the line of each statement.
-/

set_option maxRecDepth 100000

namespace Ebcc.Gen.GCC2

/-- codegen/GCC2.py:19-46 `energy`. -/
def energy : GenFun where
  args := [chars! "t2", chars! "t1", chars! "f.ov", chars! "v.oovv"]
  body := [
    -- 40: tmp0 = np.copy(t2)
    .set 4 (.cp 0) 1 1,
    -- 41: tmp0 += einsum(t1, (0, 1), t1, (2, 3), (2, 0, 3, 1)) * 2
    .add 4 (.ein [(1, [0, 1]), (1, [2, 3])] [2, 0, 3, 1]) 2 1,
    -- 42: e_cc = einsum(f.ov, (0, 1), t1, (0, 1), ())
    .set 5 (.ein [(2, [0, 1]), (1, [0, 1])] []) 1 1,
    -- 43: e_cc += einsum(v.oovv, (0, 1, 2, 3), tmp0, (0, 1, 2, 3), ()) * 0.25
    .add 5 (.ein [(3, [0, 1, 2, 3]), (4, [0, 1, 2, 3])] []) 1 4,
    -- 44: del tmp0
    .del 4
  ]
  ret := [(chars! "e_cc", 5)]

/-- codegen/GCC2.py:48-159 `update_amps`. -/
def update_amps : GenFun where
  args := [chars! "v.ooov", chars! "t1", chars! "v.oovv", chars! "f.ov", chars! "v.ovvv", chars! "v.oooo", chars! "t2", chars! "v.ovov", chars! "v.vvvv", chars! "f.vv", chars! "f.oo", chars! "v.ovoo"]
  body := [
    -- 71: tmp16 = einsum(v.ooov, (0, 1, 2, 3), t1, (4, 3), (4, 0, 1, 2))
    .set 12 (.ein [(0, [0, 1, 2, 3]), (1, [4, 3])] [4, 0, 1, 2]) 1 1,
    -- 72: tmp0 = einsum(v.oovv, (0, 1, 2, 3), t1, (4, 3), (4, 0, 1, 2))
    .set 13 (.ein [(2, [0, 1, 2, 3]), (1, [4, 3])] [4, 0, 1, 2]) 1 1,
    -- 73: tmp17 = einsum(tmp16, (0, 1, 2, 3), t1, (1, 4), (0, 2, 3, 4)) * -1
    .set 14 (.ein [(12, [0, 1, 2, 3]), (1, [1, 4])] [0, 2, 3, 4]) (-1) 1,
    -- 74: del tmp16
    .del 12,
    -- 75: tmp4 = einsum(t1, (0, 1), f.ov, (2, 1), (2, 0))
    .set 15 (.ein [(1, [0, 1]), (3, [2, 1])] [2, 0]) 1 1,
    -- 76: tmp8 = einsum(v.ovvv, (0, 1, 2, 3), t1, (4, 3), (4, 0, 1, 2))
    .set 16 (.ein [(4, [0, 1, 2, 3]), (1, [4, 3])] [4, 0, 1, 2]) 1 1,
    -- 77: tmp23 = np.copy(v.oooo)
    .set 17 (.cp 5) 1 1,
    -- 78: tmp23 += einsum(t1, (0, 1), tmp0, (2, 3, 4, 1), (4, 3, 0, 2)) * -1
    .add 17 (.ein [(1, [0, 1]), (13, [2, 3, 4, 1])] [4, 3, 0, 2]) (-1) 1,
    -- 79: tmp11 = einsum(t2, (0, 1, 2, 3), f.ov, (4, 3), (4, 0, 1, 2))
    .set 18 (.ein [(6, [0, 1, 2, 3]), (3, [4, 3])] [4, 0, 1, 2]) 1 1,
    -- 80: tmp13 = einsum(v.ovov, (0, 1, 2, 3), t1, (4, 3), (4, 0, 2, 1))
    .set 19 (.ein [(7, [0, 1, 2, 3]), (1, [4, 3])] [4, 0, 2, 1]) 1 1,
    -- 81: tmp18 = einsum(t1, (0, 1), tmp17, (2, 0, 3, 4), (2, 3, 4, 1)) * -1
    .set 20 (.ein [(1, [0, 1]), (14, [2, 0, 3, 4])] [2, 3, 4, 1]) (-1) 1,
    -- 82: del tmp17
    .del 14,
    -- 83: tmp15 = einsum(t2, (0, 1, 2, 3), tmp4, (1, 4), (4, 0, 2, 3))
    .set 21 (.ein [(6, [0, 1, 2, 3]), (15, [1, 4])] [4, 0, 2, 3]) 1 1,
    -- 84: tmp9 = einsum(t1, (0, 1), tmp8, (2, 3, 4, 1), (2, 0, 3, 4)) * -1
    .set 22 (.ein [(1, [0, 1]), (16, [2, 3, 4, 1])] [2, 0, 3, 4]) (-1) 1,
    -- 85: del tmp8
    .del 16,
    -- 86: tmp5 = np.copy(t2)
    .set 23 (.cp 6) 1 1,
    -- 87: tmp5 += einsum(t1, (0, 1), t1, (2, 3), (2, 0, 3, 1)) * 2
    .add 23 (.ein [(1, [0, 1]), (1, [2, 3])] [2, 0, 3, 1]) 2 1,
    -- 88: tmp24 = np.copy(v.ooov) * -1
    .set 24 (.cp 0) (-1) 1,
    -- 89: tmp24 += einsum(tmp23, (0, 1, 2, 3), t1, (0, 4), (2, 3, 1, 4)) * -1
    .add 24 (.ein [(17, [0, 1, 2, 3]), (1, [0, 4])] [2, 3, 1, 4]) (-1) 1,
    -- 90: del tmp23
    .del 17,
    -- 91: tmp21 = einsum(v.ovvv, (0, 1, 2, 3), t1, (4, 1), (4, 0, 2, 3))
    .set 25 (.ein [(4, [0, 1, 2, 3]), (1, [4, 1])] [4, 0, 2, 3]) 1 1,
    -- 92: tmp7 = einsum(t1, (0, 1), v.vvvv, (2, 3, 4, 1), (0, 2, 3, 4))
    .set 26 (.ein [(1, [0, 1]), (8, [2, 3, 4, 1])] [0, 2, 3, 4]) 1 1,
    -- 93: tmp20 = einsum(t2, (0, 1, 2, 3), f.vv, (4, 3), (0, 1, 4, 2))
    .set 27 (.ein [(6, [0, 1, 2, 3]), (9, [4, 3])] [0, 1, 4, 2]) 1 1,
    -- 94: tmp22 = einsum(t2, (0, 1, 2, 3), f.oo, (4, 1), (4, 0, 2, 3))
    .set 28 (.ein [(6, [0, 1, 2, 3]), (10, [4, 1])] [4, 0, 2, 3]) 1 1,
    -- 95: tmp12 = einsum(t1, (0, 1), tmp11, (0, 2, 3, 4), (2, 3, 1, 4))
    .set 29 (.ein [(1, [0, 1]), (18, [0, 2, 3, 4])] [2, 3, 1, 4]) 1 1,
    -- 96: del tmp11
    .del 18,
    -- 97: tmp14 = einsum(t1, (0, 1), tmp13, (2, 0, 3, 4), (2, 3, 1, 4))
    .set 30 (.ein [(1, [0, 1]), (19, [2, 0, 3, 4])] [2, 3, 1, 4]) 1 1,
    -- 98: del tmp13
    .del 19,
    -- 99: tmp19 = np.copy(np.transpose(tmp15, (0, 1, 3, 2))) * -1
    .set 31 (.tr 21 [0, 1, 3, 2]) (-1) 1,
    -- 100: del tmp15
    .del 21,
    -- 101: tmp19 += np.transpose(tmp18, (0, 1, 3, 2))
    .add 31 (.tr 20 [0, 1, 3, 2]) 1 1,
    -- 102: del tmp18
    .del 20,
    -- 103: tmp10 = einsum(tmp9, (0, 1, 2, 3), t1, (2, 4), (1, 0, 4, 3)) * -1
    .set 32 (.ein [(22, [0, 1, 2, 3]), (1, [2, 4])] [1, 0, 4, 3]) (-1) 1,
    -- 104: del tmp9
    .del 22,
    -- 105: tmp2 = np.copy(t2) * 0.5
    .set 33 (.cp 6) 1 2,
    -- 106: tmp2 += einsum(t1, (0, 1), t1, (2, 3), (2, 0, 3, 1))
    .add 33 (.ein [(1, [0, 1]), (1, [2, 3])] [2, 0, 3, 1]) 1 1,
    -- 107: tmp3 = np.copy(f.ov)
    .set 34 (.cp 3) 1 1,
    -- 108: tmp3 += einsum(t1, (0, 1), v.oovv, (2, 0, 3, 1), (2, 3))
    .add 34 (.ein [(1, [0, 1]), (2, [2, 0, 3, 1])] [2, 3]) 1 1,
    -- 109: tmp1 = np.copy(np.transpose(v.ovoo, (0, 2, 3, 1))) * -1
    .set 35 (.tr 11 [0, 2, 3, 1]) (-1) 1,
    -- 110: tmp1 += np.transpose(tmp0, (0, 2, 1, 3)) * -1
    .add 35 (.tr 13 [0, 2, 1, 3]) (-1) 1,
    -- 111: del tmp0
    .del 13,
    -- 112: tmp6 = np.copy(f.oo)
    .set 36 (.cp 10) 1 1,
    -- 113: tmp6 += tmp4
    .add 36 (.cp 15) 1 1,
    -- 114: del tmp4
    .del 15,
    -- 115: tmp6 += einsum(v.ooov, (0, 1, 2, 3), t1, (1, 3), (0, 2))
    .add 36 (.ein [(0, [0, 1, 2, 3]), (1, [1, 3])] [0, 2]) 1 1,
    -- 116: tmp6 += einsum(tmp5, (0, 1, 2, 3), v.oovv, (4, 0, 2, 3), (4, 1)) * -0.5
    .add 36 (.ein [(23, [0, 1, 2, 3]), (2, [4, 0, 2, 3])] [4, 1]) (-1) 2,
    -- 117: del tmp5
    .del 23,
    -- 118: t2new = einsum(tmp7, (0, 1, 2, 3), t1, (4, 3), (4, 0, 2, 1)) * -1
    .set 37 (.ein [(26, [0, 1, 2, 3]), (1, [4, 3])] [4, 0, 2, 1]) (-1) 1,
    -- 119: del tmp7
    .del 26,
    -- 120: t2new += v.oovv
    .add 37 (.cp 2) 1 1,
    -- 121: t2new += einsum(v.ooov, (0, 1, 2, 3), t1, (2, 4), (0, 1, 3, 4))
    .add 37 (.ein [(0, [0, 1, 2, 3]), (1, [2, 4])] [0, 1, 3, 4]) 1 1,
    -- 122: t2new += tmp10 * -1
    .add 37 (.cp 32) (-1) 1,
    -- 123: t2new += np.transpose(tmp10, (0, 1, 3, 2))
    .add 37 (.tr 32 [0, 1, 3, 2]) 1 1,
    -- 124: del tmp10
    .del 32,
    -- 125: t2new += tmp12
    .add 37 (.cp 29) 1 1,
    -- 126: t2new += np.transpose(tmp12, (0, 1, 3, 2)) * -1
    .add 37 (.tr 29 [0, 1, 3, 2]) (-1) 1,
    -- 127: del tmp12
    .del 29,
    -- 128: t2new += tmp14
    .add 37 (.cp 30) 1 1,
    -- 129: t2new += np.transpose(tmp14, (0, 1, 3, 2)) * -1
    .add 37 (.tr 30 [0, 1, 3, 2]) (-1) 1,
    -- 130: t2new += np.transpose(tmp14, (1, 0, 2, 3)) * -1
    .add 37 (.tr 30 [1, 0, 2, 3]) (-1) 1,
    -- 131: t2new += np.transpose(tmp14, (1, 0, 3, 2))
    .add 37 (.tr 30 [1, 0, 3, 2]) 1 1,
    -- 132: del tmp14
    .del 30,
    -- 133: t2new += tmp19
    .add 37 (.cp 31) 1 1,
    -- 134: t2new += np.transpose(tmp19, (1, 0, 2, 3)) * -1
    .add 37 (.tr 31 [1, 0, 2, 3]) (-1) 1,
    -- 135: del tmp19
    .del 31,
    -- 136: t2new += np.transpose(tmp20, (1, 0, 2, 3))
    .add 37 (.tr 27 [1, 0, 2, 3]) 1 1,
    -- 137: t2new += np.transpose(tmp20, (1, 0, 3, 2)) * -1
    .add 37 (.tr 27 [1, 0, 3, 2]) (-1) 1,
    -- 138: del tmp20
    .del 27,
    -- 139: t2new += np.transpose(tmp21, (0, 1, 3, 2))
    .add 37 (.tr 25 [0, 1, 3, 2]) 1 1,
    -- 140: t2new += np.transpose(tmp21, (1, 0, 3, 2)) * -1
    .add 37 (.tr 25 [1, 0, 3, 2]) (-1) 1,
    -- 141: del tmp21
    .del 25,
    -- 142: t2new += np.transpose(tmp22, (0, 1, 3, 2)) * -1
    .add 37 (.tr 28 [0, 1, 3, 2]) (-1) 1,
    -- 143: t2new += np.transpose(tmp22, (1, 0, 3, 2))
    .add 37 (.tr 28 [1, 0, 3, 2]) 1 1,
    -- 144: del tmp22
    .del 28,
    -- 145: t2new += einsum(t1, (0, 1), tmp24, (2, 3, 0, 4), (2, 3, 1, 4))
    .add 37 (.ein [(1, [0, 1]), (24, [2, 3, 0, 4])] [2, 3, 1, 4]) 1 1,
    -- 146: del tmp24
    .del 24,
    -- 147: t1new = np.copy(f.ov)
    .set 38 (.cp 3) 1 1,
    -- 148: t1new += einsum(f.vv, (0, 1), t1, (2, 1), (2, 0))
    .add 38 (.ein [(9, [0, 1]), (1, [2, 1])] [2, 0]) 1 1,
    -- 149: t1new += einsum(t1, (0, 1), v.ovov, (2, 1, 0, 3), (2, 3)) * -1
    .add 38 (.ein [(1, [0, 1]), (7, [2, 1, 0, 3])] [2, 3]) (-1) 1,
    -- 150: t1new += einsum(tmp1, (0, 1, 2, 3), t2, (1, 2, 4, 3), (0, 4)) * 0.5
    .add 38 (.ein [(35, [0, 1, 2, 3]), (6, [1, 2, 4, 3])] [0, 4]) 1 2,
    -- 151: del tmp1
    .del 35,
    -- 152: t1new += einsum(v.ovvv, (0, 1, 2, 3), tmp2, (0, 4, 2, 3), (4, 1))
    .add 38 (.ein [(4, [0, 1, 2, 3]), (33, [0, 4, 2, 3])] [4, 1]) 1 1,
    -- 153: del tmp2
    .del 33,
    -- 154: t1new += einsum(tmp3, (0, 1), t2, (2, 0, 3, 1), (2, 3))
    .add 38 (.ein [(34, [0, 1]), (6, [2, 0, 3, 1])] [2, 3]) 1 1,
    -- 155: del tmp3
    .del 34,
    -- 156: t1new += einsum(t1, (0, 1), tmp6, (0, 2), (2, 1)) * -1
    .add 38 (.ein [(1, [0, 1]), (36, [0, 2])] [2, 1]) (-1) 1,
    -- 157: del tmp6
    .del 36
  ]
  ret := [(chars! "t1new", 38), (chars! "t2new", 37)]

/-- codegen/GCC2.py:161-360 `update_lams`. -/
def update_lams : GenFun where
  args := [chars! "v.oovv", chars! "t1", chars! "v.ovvv", chars! "l2", chars! "f.ov", chars! "v.ooov", chars! "l1", chars! "v.ovoo", chars! "v.ovov", chars! "t2", chars! "f.oo", chars! "f.vv", chars! "v.oooo", chars! "v.vvvv"]
  body := [
    -- 188: tmp5 = einsum(v.oovv, (0, 1, 2, 3), t1, (4, 3), (4, 0, 1, 2))
    .set 14 (.ein [(0, [0, 1, 2, 3]), (1, [4, 3])] [4, 0, 1, 2]) 1 1,
    -- 189: tmp2 = einsum(v.ovvv, (0, 1, 2, 3), t1, (4, 3), (4, 0, 1, 2))
    .set 15 (.ein [(2, [0, 1, 2, 3]), (1, [4, 3])] [4, 0, 1, 2]) 1 1,
    -- 190: tmp0 = einsum(t1, (0, 1), l2, (2, 1, 3, 4), (3, 4, 0, 2))
    .set 16 (.ein [(1, [0, 1]), (3, [2, 1, 3, 4])] [3, 4, 0, 2]) 1 1,
    -- 191: tmp33 = einsum(t1, (0, 1), f.ov, (2, 1), (2, 0))
    .set 17 (.ein [(1, [0, 1]), (4, [2, 1])] [2, 0]) 1 1,
    -- 192: tmp23 = einsum(v.ooov, (0, 1, 2, 3), t1, (1, 3), (0, 2))
    .set 18 (.ein [(5, [0, 1, 2, 3]), (1, [1, 3])] [0, 2]) 1 1,
    -- 193: tmp17 = einsum(t1, (0, 1), l1, (1, 2), (2, 0))
    .set 19 (.ein [(1, [0, 1]), (6, [1, 2])] [2, 0]) 1 1,
    -- 194: tmp6 = np.copy(np.transpose(v.ovoo, (0, 2, 3, 1))) * -1
    .set 20 (.tr 7 [0, 2, 3, 1]) (-1) 1,
    -- 195: tmp6 += np.transpose(tmp5, (0, 2, 1, 3)) * -1
    .add 20 (.tr 14 [0, 2, 1, 3]) (-1) 1,
    -- 196: tmp21 = einsum(v.ovvv, (0, 1, 2, 3), t1, (0, 3), (1, 2))
    .set 21 (.ein [(2, [0, 1, 2, 3]), (1, [0, 3])] [1, 2]) 1 1,
    -- 197: tmp7 = einsum(t1, (0, 1), v.oovv, (2, 0, 3, 1), (2, 3))
    .set 22 (.ein [(1, [0, 1]), (0, [2, 0, 3, 1])] [2, 3]) 1 1,
    -- 198: tmp26 = np.copy(np.transpose(v.ovov, (0, 2, 3, 1))) * -1
    .set 23 (.tr 8 [0, 2, 3, 1]) (-1) 1,
    -- 199: tmp26 += tmp2
    .add 23 (.cp 15) 1 1,
    -- 200: tmp10 = np.copy(v.ooov)
    .set 24 (.cp 5) 1 1,
    -- 201: tmp10 += np.transpose(tmp5, (2, 1, 0, 3)) * 0.5
    .add 24 (.tr 14 [2, 1, 0, 3]) 1 2,
    -- 202: tmp18 = einsum(t2, (0, 1, 2, 3), l2, (2, 3, 4, 1), (4, 0))
    .set 25 (.ein [(9, [0, 1, 2, 3]), (3, [2, 3, 4, 1])] [4, 0]) 1 1,
    -- 203: tmp3 = einsum(t2, (0, 1, 2, 3), l2, (2, 3, 4, 5), (4, 5, 0, 1))
    .set 26 (.ein [(9, [0, 1, 2, 3]), (3, [2, 3, 4, 5])] [4, 5, 0, 1]) 1 1,
    -- 204: tmp4 = einsum(tmp0, (0, 1, 2, 3), t1, (4, 3), (1, 0, 2, 4))
    .set 27 (.ein [(16, [0, 1, 2, 3]), (1, [4, 3])] [1, 0, 2, 4]) 1 1,
    -- 205: tmp34 = einsum(tmp33, (0, 1), l2, (2, 3, 4, 1), (0, 4, 2, 3))
    .set 28 (.ein [(17, [0, 1]), (3, [2, 3, 4, 1])] [0, 4, 2, 3]) 1 1,
    -- 206: del tmp33
    .del 17,
    -- 207: tmp36 = einsum(l2, (0, 1, 2, 3), tmp23, (4, 3), (2, 4, 0, 1))
    .set 29 (.ein [(3, [0, 1, 2, 3]), (18, [4, 3])] [2, 4, 0, 1]) 1 1,
    -- 208: tmp35 = einsum(tmp17, (0, 1), v.oovv, (2, 1, 3, 4), (0, 2, 3, 4))
    .set 30 (.ein [(19, [0, 1]), (0, [2, 1, 3, 4])] [0, 2, 3, 4]) 1 1,
    -- 209: tmp29 = einsum(tmp0, (0, 1, 2, 3), f.ov, (2, 4), (0, 1, 4, 3))
    .set 31 (.ein [(16, [0, 1, 2, 3]), (4, [2, 4])] [0, 1, 4, 3]) 1 1,
    -- 210: tmp31 = einsum(tmp6, (0, 1, 2, 3), l1, (4, 0), (1, 2, 4, 3))
    .set 32 (.ein [(20, [0, 1, 2, 3]), (6, [4, 0])] [1, 2, 4, 3]) 1 1,
    -- 211: tmp30 = einsum(tmp21, (0, 1), l2, (2, 0, 3, 4), (3, 4, 2, 1))
    .set 33 (.ein [(21, [0, 1]), (3, [2, 0, 3, 4])] [3, 4, 2, 1]) 1 1,
    -- 212: tmp44 = einsum(tmp7, (0, 1), t1, (2, 1), (2, 0))
    .set 34 (.ein [(22, [0, 1]), (1, [2, 1])] [2, 0]) 1 1,
    -- 213: tmp25 = einsum(tmp0, (0, 1, 2, 3), v.ooov, (4, 2, 1, 5), (0, 4, 3, 5))
    .set 35 (.ein [(16, [0, 1, 2, 3]), (5, [4, 2, 1, 5])] [0, 4, 3, 5]) 1 1,
    -- 214: tmp27 = einsum(l2, (0, 1, 2, 3), tmp26, (3, 4, 1, 5), (4, 2, 5, 0))
    .set 36 (.ein [(3, [0, 1, 2, 3]), (23, [3, 4, 1, 5])] [4, 2, 5, 0]) 1 1,
    -- 215: del tmp26
    .del 23,
    -- 216: tmp42 = einsum(v.ovvv, (0, 1, 2, 3), l1, (1, 4), (4, 0, 2, 3))
    .set 37 (.ein [(2, [0, 1, 2, 3]), (6, [1, 4])] [4, 0, 2, 3]) 1 1,
    -- 217: tmp41 = einsum(f.oo, (0, 1), l2, (2, 3, 4, 1), (0, 4, 2, 3))
    .set 38 (.ein [(10, [0, 1]), (3, [2, 3, 4, 1])] [0, 4, 2, 3]) 1 1,
    -- 218: tmp39 = einsum(tmp7, (0, 1), tmp0, (2, 3, 0, 4), (2, 3, 4, 1))
    .set 39 (.ein [(22, [0, 1]), (16, [2, 3, 0, 4])] [2, 3, 4, 1]) 1 1,
    -- 219: tmp38 = einsum(l2, (0, 1, 2, 3), f.vv, (4, 1), (2, 3, 4, 0))
    .set 40 (.ein [(3, [0, 1, 2, 3]), (11, [4, 1])] [2, 3, 4, 0]) 1 1,
    -- 220: tmp8 = np.copy(f.ov)
    .set 41 (.cp 4) 1 1,
    -- 221: tmp8 += tmp7
    .add 41 (.cp 22) 1 1,
    -- 222: tmp9 = np.copy(np.transpose(v.ovov, (0, 2, 1, 3)))
    .set 42 (.tr 8 [0, 2, 1, 3]) 1 1,
    -- 223: tmp9 += np.transpose(tmp2, (0, 1, 3, 2)) * -0.5
    .add 42 (.tr 15 [0, 1, 3, 2]) (-1) 2,
    -- 224: tmp11 = np.copy(v.oooo) * -0.5
    .set 43 (.cp 12) (-1) 2,
    -- 225: tmp11 += einsum(t2, (0, 1, 2, 3), v.oovv, (4, 5, 2, 3), (4, 5, 0, 1)) * -0.25
    .add 43 (.ein [(9, [0, 1, 2, 3]), (0, [4, 5, 2, 3])] [4, 5, 0, 1]) (-1) 4,
    -- 226: tmp11 += einsum(t1, (0, 1), tmp10, (2, 3, 4, 1), (3, 2, 0, 4)) * -1
    .add 43 (.ein [(1, [0, 1]), (24, [2, 3, 4, 1])] [3, 2, 0, 4]) (-1) 1,
    -- 227: tmp19 = np.copy(tmp17) * 2
    .set 44 (.cp 19) 2 1,
    -- 228: del tmp17
    .del 19,
    -- 229: tmp19 += tmp18
    .add 44 (.cp 25) 1 1,
    -- 230: del tmp18
    .del 25,
    -- 231: tmp14 = np.copy(np.transpose(tmp3, (1, 0, 3, 2))) * -0.5
    .set 45 (.tr 26 [1, 0, 3, 2]) (-1) 2,
    -- 232: tmp14 += np.transpose(tmp4, (0, 1, 3, 2))
    .add 45 (.tr 27 [0, 1, 3, 2]) 1 1,
    -- 233: tmp37 = np.copy(np.transpose(tmp34, (0, 1, 3, 2))) * -1
    .set 46 (.tr 28 [0, 1, 3, 2]) (-1) 1,
    -- 234: del tmp34
    .del 28,
    -- 235: tmp37 += np.transpose(tmp35, (0, 1, 3, 2)) * -1
    .add 46 (.tr 30 [0, 1, 3, 2]) (-1) 1,
    -- 236: del tmp35
    .del 30,
    -- 237: tmp37 += np.transpose(tmp36, (0, 1, 3, 2))
    .add 46 (.tr 29 [0, 1, 3, 2]) 1 1,
    -- 238: del tmp36
    .del 29,
    -- 239: tmp32 = np.copy(tmp29) * -1
    .set 47 (.cp 31) (-1) 1,
    -- 240: del tmp29
    .del 31,
    -- 241: tmp32 += tmp30
    .add 47 (.cp 33) 1 1,
    -- 242: del tmp30
    .del 33,
    -- 243: tmp32 += np.transpose(tmp31, (1, 0, 2, 3))
    .add 47 (.tr 32 [1, 0, 2, 3]) 1 1,
    -- 244: del tmp31
    .del 32,
    -- 245: tmp47 = np.copy(v.oooo)
    .set 48 (.cp 12) 1 1,
    -- 246: tmp47 += einsum(t1, (0, 1), tmp10, (2, 3, 4, 1), (4, 0, 3, 2)) * -2
    .add 48 (.ein [(1, [0, 1]), (24, [2, 3, 4, 1])] [4, 0, 3, 2]) (-2) 1,
    -- 247: del tmp10
    .del 24,
    -- 248: tmp46 = einsum(tmp5, (0, 1, 2, 3), tmp0, (0, 4, 2, 5), (4, 1, 5, 3)) * -1
    .set 49 (.ein [(14, [0, 1, 2, 3]), (16, [0, 4, 2, 5])] [4, 1, 5, 3]) (-1) 1,
    -- 249: del tmp5
    .del 14,
    -- 250: tmp45 = einsum(l2, (0, 1, 2, 3), tmp44, (3, 4), (2, 4, 0, 1))
    .set 50 (.ein [(3, [0, 1, 2, 3]), (34, [3, 4])] [2, 4, 0, 1]) 1 1,
    -- 251: del tmp44
    .del 34,
    -- 252: tmp28 = einsum(tmp7, (0, 1), l1, (2, 3), (3, 0, 2, 1))
    .set 51 (.ein [(22, [0, 1]), (6, [2, 3])] [3, 0, 2, 1]) 1 1,
    -- 253: del tmp7
    .del 22,
    -- 254: tmp28 += tmp25
    .add 51 (.cp 35) 1 1,
    -- 255: del tmp25
    .del 35,
    -- 256: tmp28 += np.transpose(tmp27, (1, 0, 3, 2))
    .add 51 (.tr 36 [1, 0, 3, 2]) 1 1,
    -- 257: del tmp27
    .del 36,
    -- 258: tmp43 = np.copy(np.transpose(tmp41, (0, 1, 3, 2))) * -1
    .set 52 (.tr 38 [0, 1, 3, 2]) (-1) 1,
    -- 259: del tmp41
    .del 38,
    -- 260: tmp43 += np.transpose(tmp42, (0, 1, 3, 2))
    .add 52 (.tr 37 [0, 1, 3, 2]) 1 1,
    -- 261: del tmp42
    .del 37,
    -- 262: tmp40 = np.copy(np.transpose(tmp38, (1, 0, 2, 3))) * -1
    .set 53 (.tr 40 [1, 0, 2, 3]) (-1) 1,
    -- 263: del tmp38
    .del 40,
    -- 264: tmp40 += tmp39
    .add 53 (.cp 39) 1 1,
    -- 265: del tmp39
    .del 39,
    -- 266: tmp12 = np.copy(np.transpose(v.ovoo, (0, 2, 3, 1))) * -0.5
    .set 54 (.tr 7 [0, 2, 3, 1]) (-1) 2,
    -- 267: tmp12 += einsum(v.ovvv, (0, 1, 2, 3), t2, (4, 5, 2, 3), (0, 4, 5, 1)) * -0.25
    .add 54 (.ein [(2, [0, 1, 2, 3]), (9, [4, 5, 2, 3])] [0, 4, 5, 1]) (-1) 4,
    -- 268: tmp12 += einsum(tmp6, (0, 1, 2, 3), t2, (4, 1, 5, 3), (2, 4, 0, 5))
    .add 54 (.ein [(20, [0, 1, 2, 3]), (9, [4, 1, 5, 3])] [2, 4, 0, 5]) 1 1,
    -- 269: del tmp6
    .del 20,
    -- 270: tmp12 += einsum(t2, (0, 1, 2, 3), tmp8, (4, 3), (4, 0, 1, 2)) * 0.5
    .add 54 (.ein [(9, [0, 1, 2, 3]), (41, [4, 3])] [4, 0, 1, 2]) 1 2,
    -- 271: tmp12 += einsum(tmp9, (0, 1, 2, 3), t1, (4, 2), (1, 0, 4, 3)) * -1
    .add 54 (.ein [(42, [0, 1, 2, 3]), (1, [4, 2])] [1, 0, 4, 3]) (-1) 1,
    -- 272: del tmp9
    .del 42,
    -- 273: tmp12 += einsum(tmp11, (0, 1, 2, 3), t1, (0, 4), (1, 3, 2, 4)) * -1
    .add 54 (.ein [(43, [0, 1, 2, 3]), (1, [0, 4])] [1, 3, 2, 4]) (-1) 1,
    -- 274: del tmp11
    .del 43,
    -- 275: tmp13 = np.copy(v.ovvv)
    .set 55 (.cp 2) 1 1,
    -- 276: tmp13 += einsum(v.vvvv, (0, 1, 2, 3), t1, (4, 1), (4, 0, 2, 3)) * -1
    .add 55 (.ein [(13, [0, 1, 2, 3]), (1, [4, 1])] [4, 0, 2, 3]) (-1) 1,
    -- 277: tmp20 = np.copy(t1) * -1
    .set 56 (.cp 1) (-1) 1,
    -- 278: tmp20 += einsum(l1, (0, 1), t2, (2, 1, 3, 0), (2, 3)) * -1
    .add 56 (.ein [(6, [0, 1]), (9, [2, 1, 3, 0])] [2, 3]) (-1) 1,
    -- 279: tmp20 += einsum(tmp0, (0, 1, 2, 3), t2, (1, 0, 4, 3), (2, 4)) * 0.5
    .add 56 (.ein [(16, [0, 1, 2, 3]), (9, [1, 0, 4, 3])] [2, 4]) 1 2,
    -- 280: tmp20 += einsum(tmp19, (0, 1), t1, (0, 2), (1, 2)) * 0.5
    .add 56 (.ein [(44, [0, 1]), (1, [0, 2])] [1, 2]) 1 2,
    -- 281: tmp16 = einsum(l1, (0, 1), t1, (1, 2), (0, 2)) * 2
    .set 57 (.ein [(6, [0, 1]), (1, [1, 2])] [0, 2]) 2 1,
    -- 282: tmp16 += einsum(l2, (0, 1, 2, 3), t2, (2, 3, 4, 1), (0, 4))
    .add 57 (.ein [(3, [0, 1, 2, 3]), (9, [2, 3, 4, 1])] [0, 4]) 1 1,
    -- 283: tmp15 = einsum(l1, (0, 1), t2, (2, 3, 4, 0), (1, 2, 3, 4)) * 0.5
    .set 58 (.ein [(6, [0, 1]), (9, [2, 3, 4, 0])] [1, 2, 3, 4]) 1 2,
    -- 284: tmp15 += einsum(tmp0, (0, 1, 2, 3), t2, (4, 1, 5, 3), (0, 4, 2, 5)) * -1
    .add 58 (.ein [(16, [0, 1, 2, 3]), (9, [4, 1, 5, 3])] [0, 4, 2, 5]) (-1) 1,
    -- 285: tmp15 += einsum(tmp14, (0, 1, 2, 3), t1, (0, 4), (1, 3, 2, 4)) * -0.5
    .add 58 (.ein [(45, [0, 1, 2, 3]), (1, [0, 4])] [1, 3, 2, 4]) (-1) 2,
    -- 286: del tmp14
    .del 45,
    -- 287: tmp22 = np.copy(f.vv)
    .set 59 (.cp 11) 1 1,
    -- 288: tmp22 += tmp21 * -1
    .add 59 (.cp 21) (-1) 1,
    -- 289: del tmp21
    .del 21,
    -- 290: tmp24 = np.copy(f.oo) * 2
    .set 60 (.cp 10) 2 1,
    -- 291: tmp24 += np.transpose(tmp23, (1, 0)) * 2
    .add 60 (.tr 18 [1, 0]) 2 1,
    -- 292: del tmp23
    .del 18,
    -- 293: tmp24 += einsum(t2, (0, 1, 2, 3), v.oovv, (4, 1, 2, 3), (0, 4))
    .add 60 (.ein [(9, [0, 1, 2, 3]), (0, [4, 1, 2, 3])] [0, 4]) 1 1,
    -- 294: tmp24 += einsum(tmp8, (0, 1), t1, (2, 1), (2, 0)) * 2
    .add 60 (.ein [(41, [0, 1]), (1, [2, 1])] [2, 0]) 2 1,
    -- 295: tmp1 = einsum(t2, (0, 1, 2, 3), l2, (4, 3, 5, 1), (5, 0, 4, 2))
    .set 61 (.ein [(9, [0, 1, 2, 3]), (3, [4, 3, 5, 1])] [5, 0, 4, 2]) 1 1,
    -- 296: l2new = einsum(tmp0, (0, 1, 2, 3), v.ovvv, (2, 3, 4, 5), (4, 5, 0, 1))
    .set 62 (.ein [(16, [0, 1, 2, 3]), (2, [2, 3, 4, 5])] [4, 5, 0, 1]) 1 1,
    -- 297: l2new += einsum(v.vvvv, (0, 1, 2, 3), l2, (2, 3, 4, 5), (0, 1, 4, 5)) * 0.5
    .add 62 (.ein [(13, [0, 1, 2, 3]), (3, [2, 3, 4, 5])] [0, 1, 4, 5]) 1 2,
    -- 298: l2new += np.transpose(v.oovv, (2, 3, 0, 1))
    .add 62 (.tr 0 [2, 3, 0, 1]) 1 1,
    -- 299: l2new += einsum(tmp4, (0, 1, 2, 3), v.oovv, (3, 2, 4, 5), (4, 5, 1, 0)) * 0.5
    .add 62 (.ein [(27, [0, 1, 2, 3]), (0, [3, 2, 4, 5])] [4, 5, 1, 0]) 1 2,
    -- 300: l2new += np.transpose(tmp28, (2, 3, 0, 1))
    .add 62 (.tr 51 [2, 3, 0, 1]) 1 1,
    -- 301: l2new += np.transpose(tmp28, (3, 2, 0, 1)) * -1
    .add 62 (.tr 51 [3, 2, 0, 1]) (-1) 1,
    -- 302: l2new += np.transpose(tmp28, (2, 3, 1, 0)) * -1
    .add 62 (.tr 51 [2, 3, 1, 0]) (-1) 1,
    -- 303: l2new += np.transpose(tmp28, (3, 2, 1, 0))
    .add 62 (.tr 51 [3, 2, 1, 0]) 1 1,
    -- 304: del tmp28
    .del 51,
    -- 305: l2new += np.transpose(tmp32, (2, 3, 0, 1)) * -1
    .add 62 (.tr 47 [2, 3, 0, 1]) (-1) 1,
    -- 306: l2new += np.transpose(tmp32, (3, 2, 0, 1))
    .add 62 (.tr 47 [3, 2, 0, 1]) 1 1,
    -- 307: del tmp32
    .del 47,
    -- 308: l2new += np.transpose(tmp37, (3, 2, 0, 1)) * -1
    .add 62 (.tr 46 [3, 2, 0, 1]) (-1) 1,
    -- 309: l2new += np.transpose(tmp37, (3, 2, 1, 0))
    .add 62 (.tr 46 [3, 2, 1, 0]) 1 1,
    -- 310: del tmp37
    .del 46,
    -- 311: l2new += einsum(l1, (0, 1), f.ov, (2, 3), (3, 0, 2, 1))
    .add 62 (.ein [(6, [0, 1]), (4, [2, 3])] [3, 0, 2, 1]) 1 1,
    -- 312: l2new += einsum(l1, (0, 1), f.ov, (2, 3), (0, 3, 2, 1)) * -1
    .add 62 (.ein [(6, [0, 1]), (4, [2, 3])] [0, 3, 2, 1]) (-1) 1,
    -- 313: l2new += einsum(f.ov, (0, 1), l1, (2, 3), (1, 2, 3, 0)) * -1
    .add 62 (.ein [(4, [0, 1]), (6, [2, 3])] [1, 2, 3, 0]) (-1) 1,
    -- 314: l2new += einsum(l1, (0, 1), f.ov, (2, 3), (0, 3, 1, 2))
    .add 62 (.ein [(6, [0, 1]), (4, [2, 3])] [0, 3, 1, 2]) 1 1,
    -- 315: l2new += np.transpose(tmp40, (2, 3, 0, 1)) * -1
    .add 62 (.tr 53 [2, 3, 0, 1]) (-1) 1,
    -- 316: l2new += np.transpose(tmp40, (3, 2, 0, 1))
    .add 62 (.tr 53 [3, 2, 0, 1]) 1 1,
    -- 317: del tmp40
    .del 53,
    -- 318: l2new += np.transpose(tmp43, (2, 3, 0, 1))
    .add 62 (.tr 52 [2, 3, 0, 1]) 1 1,
    -- 319: l2new += np.transpose(tmp43, (2, 3, 1, 0)) * -1
    .add 62 (.tr 52 [2, 3, 1, 0]) (-1) 1,
    -- 320: del tmp43
    .del 52,
    -- 321: l2new += np.transpose(tmp45, (2, 3, 0, 1)) * -1
    .add 62 (.tr 50 [2, 3, 0, 1]) (-1) 1,
    -- 322: l2new += np.transpose(tmp45, (2, 3, 1, 0))
    .add 62 (.tr 50 [2, 3, 1, 0]) 1 1,
    -- 323: del tmp45
    .del 50,
    -- 324: l2new += np.transpose(tmp46, (2, 3, 0, 1)) * -1
    .add 62 (.tr 49 [2, 3, 0, 1]) (-1) 1,
    -- 325: l2new += np.transpose(tmp46, (3, 2, 0, 1))
    .add 62 (.tr 49 [3, 2, 0, 1]) 1 1,
    -- 326: l2new += np.transpose(tmp46, (2, 3, 1, 0))
    .add 62 (.tr 49 [2, 3, 1, 0]) 1 1,
    -- 327: l2new += np.transpose(tmp46, (3, 2, 1, 0)) * -1
    .add 62 (.tr 49 [3, 2, 1, 0]) (-1) 1,
    -- 328: del tmp46
    .del 49,
    -- 329: l2new += einsum(l2, (0, 1, 2, 3), tmp47, (2, 3, 4, 5), (0, 1, 4, 5)) * 0.5
    .add 62 (.ein [(3, [0, 1, 2, 3]), (48, [2, 3, 4, 5])] [0, 1, 4, 5]) 1 2,
    -- 330: del tmp47
    .del 48,
    -- 331: l1new = einsum(tmp0, (0, 1, 2, 3), v.ovov, (2, 3, 1, 4), (4, 0)) * -1
    .set 63 (.ein [(16, [0, 1, 2, 3]), (8, [2, 3, 1, 4])] [4, 0]) (-1) 1,
    -- 332: l1new += np.transpose(f.ov, (1, 0))
    .add 63 (.tr 4 [1, 0]) 1 1,
    -- 333: l1new += einsum(v.ovvv, (0, 1, 2, 3), tmp1, (4, 0, 1, 3), (2, 4)) * -1
    .add 63 (.ein [(2, [0, 1, 2, 3]), (61, [4, 0, 1, 3])] [2, 4]) (-1) 1,
    -- 334: del tmp1
    .del 61,
    -- 335: l1new += einsum(tmp0, (0, 1, 2, 3), tmp2, (1, 2, 3, 4), (4, 0))
    .add 63 (.ein [(16, [0, 1, 2, 3]), (15, [1, 2, 3, 4])] [4, 0]) 1 1,
    -- 336: del tmp2, tmp0
    .del 15,
    .del 16,
    -- 337: l1new += einsum(l1, (0, 1), v.ovov, (2, 0, 1, 3), (3, 2)) * -1
    .add 63 (.ein [(6, [0, 1]), (8, [2, 0, 1, 3])] [3, 2]) (-1) 1,
    -- 338: l1new += einsum(v.ovoo, (0, 1, 2, 3), tmp3, (4, 0, 3, 2), (1, 4)) * 0.25
    .add 63 (.ein [(7, [0, 1, 2, 3]), (26, [4, 0, 3, 2])] [1, 4]) 1 4,
    -- 339: del tmp3
    .del 26,
    -- 340: l1new += einsum(v.ooov, (0, 1, 2, 3), tmp4, (4, 2, 0, 1), (3, 4)) * -0.5
    .add 63 (.ein [(5, [0, 1, 2, 3]), (27, [4, 2, 0, 1])] [3, 4]) (-1) 2,
    -- 341: del tmp4
    .del 27,
    -- 342: l1new += einsum(tmp12, (0, 1, 2, 3), l2, (4, 3, 1, 2), (4, 0))
    .add 63 (.ein [(54, [0, 1, 2, 3]), (3, [4, 3, 1, 2])] [4, 0]) 1 1,
    -- 343: del tmp12
    .del 54,
    -- 344: l1new += einsum(tmp13, (0, 1, 2, 3), l2, (2, 3, 4, 0), (1, 4)) * -0.5
    .add 63 (.ein [(55, [0, 1, 2, 3]), (3, [2, 3, 4, 0])] [1, 4]) (-1) 2,
    -- 345: del tmp13
    .del 55,
    -- 346: l1new += einsum(tmp15, (0, 1, 2, 3), v.oovv, (1, 2, 4, 3), (4, 0))
    .add 63 (.ein [(58, [0, 1, 2, 3]), (0, [1, 2, 4, 3])] [4, 0]) 1 1,
    -- 347: del tmp15
    .del 58,
    -- 348: l1new += einsum(v.ovvv, (0, 1, 2, 3), tmp16, (1, 3), (2, 0)) * 0.5
    .add 63 (.ein [(2, [0, 1, 2, 3]), (57, [1, 3])] [2, 0]) 1 2,
    -- 349: del tmp16
    .del 57,
    -- 350: l1new += einsum(tmp20, (0, 1), v.oovv, (2, 0, 3, 1), (3, 2)) * -1
    .add 63 (.ein [(56, [0, 1]), (0, [2, 0, 3, 1])] [3, 2]) (-1) 1,
    -- 351: del tmp20
    .del 56,
    -- 352: l1new += einsum(v.ooov, (0, 1, 2, 3), tmp19, (2, 1), (3, 0)) * 0.5
    .add 63 (.ein [(5, [0, 1, 2, 3]), (44, [2, 1])] [3, 0]) 1 2,
    -- 353: l1new += einsum(l1, (0, 1), tmp22, (0, 2), (2, 1))
    .add 63 (.ein [(6, [0, 1]), (59, [0, 2])] [2, 1]) 1 1,
    -- 354: del tmp22
    .del 59,
    -- 355: l1new += einsum(l1, (0, 1), tmp24, (1, 2), (0, 2)) * -0.5
    .add 63 (.ein [(6, [0, 1]), (60, [1, 2])] [0, 2]) (-1) 2,
    -- 356: del tmp24
    .del 60,
    -- 357: l1new += einsum(tmp8, (0, 1), tmp19, (2, 0), (1, 2)) * -0.5
    .add 63 (.ein [(41, [0, 1]), (44, [2, 0])] [1, 2]) (-1) 2,
    -- 358: del tmp8, tmp19
    .del 41,
    .del 44
  ]
  ret := [(chars! "l1new", 63), (chars! "l2new", 62)]

/-- codegen/GCC2.py:362-410 `make_rdm1_f`. -/
def make_rdm1_f : GenFun where
  args := [chars! "t1", chars! "l1", chars! "l2", chars! "t2"]
  body := [
    -- 384: delta = Namespace(
    .eye 4 0,
    .eye 5 1,
    -- 388: tmp1 = einsum(t1, (0, 1), l1, (1, 2), (2, 0))
    .set 6 (.ein [(0, [0, 1]), (1, [1, 2])] [2, 0]) 1 1,
    -- 389: tmp0 = einsum(l2, (0, 1, 2, 3), t2, (4, 3, 0, 1), (2, 4))
    .set 7 (.ein [(2, [0, 1, 2, 3]), (3, [4, 3, 0, 1])] [2, 4]) 1 1,
    -- 390: tmp2 = einsum(t1, (0, 1), l2, (2, 1, 3, 4), (3, 4, 0, 2))
    .set 8 (.ein [(0, [0, 1]), (2, [2, 1, 3, 4])] [3, 4, 0, 2]) 1 1,
    -- 391: tmp3 = np.copy(tmp1) * 2
    .set 9 (.cp 6) 2 1,
    -- 392: tmp3 += tmp0
    .add 9 (.cp 7) 1 1,
    -- 393: rdm1.vv = einsum(l1, (0, 1), t1, (1, 2), (0, 2))
    .set 10 (.ein [(1, [0, 1]), (0, [1, 2])] [0, 2]) 1 1,
    -- 394: rdm1.vv += einsum(l2, (0, 1, 2, 3), t2, (2, 3, 4, 1), (0, 4)) * 0.5
    .add 10 (.ein [(2, [0, 1, 2, 3]), (3, [2, 3, 4, 1])] [0, 4]) 1 2,
    -- 395: rdm1.vo = np.copy(l1)
    .set 11 (.cp 1) 1 1,
    -- 396: rdm1.ov = einsum(l1, (0, 1), t2, (2, 1, 3, 0), (2, 3))
    .set 12 (.ein [(1, [0, 1]), (3, [2, 1, 3, 0])] [2, 3]) 1 1,
    -- 397: rdm1.ov += einsum(t2, (0, 1, 2, 3), tmp2, (1, 0, 4, 3), (4, 2)) * -0.5
    .add 12 (.ein [(3, [0, 1, 2, 3]), (8, [1, 0, 4, 3])] [4, 2]) (-1) 2,
    -- 398: del tmp2
    .del 8,
    -- 399: rdm1.ov += t1
    .add 12 (.cp 0) 1 1,
    -- 400: rdm1.ov += einsum(tmp3, (0, 1), t1, (0, 2), (1, 2)) * -0.5
    .add 12 (.ein [(9, [0, 1]), (0, [0, 2])] [1, 2]) (-1) 2,
    -- 401: del tmp3
    .del 9,
    -- 402: rdm1.oo = np.copy(delta.oo)
    .set 13 (.cp 4) 1 1,
    -- 403: del delta
    .del 4,
    .del 5,
    -- 404: rdm1.oo += np.transpose(tmp0, (1, 0)) * -0.5
    .add 13 (.tr 7 [1, 0]) (-1) 2,
    -- 405: del tmp0
    .del 7,
    -- 406: rdm1.oo += np.transpose(tmp1, (1, 0)) * -1
    .add 13 (.tr 6 [1, 0]) (-1) 1,
    -- 407: del tmp1
    .del 6
  ]
  ret := [(chars! "rdm1.oo", 13), (chars! "rdm1.ov", 12), (chars! "rdm1.vo", 11), (chars! "rdm1.vv", 10)]

/-- codegen/GCC2.py:412-631 `make_rdm2_f`. -/
def make_rdm2_f : GenFun where
  args := [chars! "t1", chars! "l2", chars! "l1", chars! "t2"]
  body := [
    -- 434: delta = Namespace(
    .eye 4 0,
    .eye 5 1,
    -- 438: tmp1 = einsum(t1, (0, 1), l2, (2, 1, 3, 4), (3, 4, 0, 2))
    .set 6 (.ein [(0, [0, 1]), (1, [2, 1, 3, 4])] [3, 4, 0, 2]) 1 1,
    -- 439: tmp4 = einsum(t1, (0, 1), l1, (1, 2), (2, 0))
    .set 7 (.ein [(0, [0, 1]), (2, [1, 2])] [2, 0]) 1 1,
    -- 440: tmp3 = einsum(l2, (0, 1, 2, 3), t2, (4, 3, 0, 1), (2, 4))
    .set 8 (.ein [(1, [0, 1, 2, 3]), (3, [4, 3, 0, 1])] [2, 4]) 1 1,
    -- 441: tmp19 = einsum(l2, (0, 1, 2, 3), t2, (4, 3, 5, 1), (2, 4, 0, 5))
    .set 9 (.ein [(1, [0, 1, 2, 3]), (3, [4, 3, 5, 1])] [2, 4, 0, 5]) 1 1,
    -- 442: tmp5 = einsum(t2, (0, 1, 2, 3), l1, (3, 4), (4, 0, 1, 2))
    .set 10 (.ein [(3, [0, 1, 2, 3]), (2, [3, 4])] [4, 0, 1, 2]) 1 1,
    -- 443: tmp2 = einsum(t1, (0, 1), tmp1, (2, 3, 4, 1), (2, 3, 0, 4))
    .set 11 (.ein [(0, [0, 1]), (6, [2, 3, 4, 1])] [2, 3, 0, 4]) 1 1,
    -- 444: tmp0 = einsum(t2, (0, 1, 2, 3), l2, (2, 3, 4, 5), (4, 5, 0, 1))
    .set 12 (.ein [(3, [0, 1, 2, 3]), (1, [2, 3, 4, 5])] [4, 5, 0, 1]) 1 1,
    -- 445: tmp12 = einsum(tmp1, (0, 1, 2, 3), t2, (4, 1, 5, 3), (0, 2, 4, 5)) * -1
    .set 13 (.ein [(6, [0, 1, 2, 3]), (3, [4, 1, 5, 3])] [0, 2, 4, 5]) (-1) 1,
    -- 446: tmp7 = einsum(t1, (0, 1), tmp4, (0, 2), (2, 1))
    .set 14 (.ein [(0, [0, 1]), (7, [0, 2])] [2, 1]) 1 1,
    -- 447: tmp6 = einsum(l1, (0, 1), t2, (2, 1, 3, 0), (2, 3))
    .set 15 (.ein [(2, [0, 1]), (3, [2, 1, 3, 0])] [2, 3]) 1 1,
    -- 448: tmp14 = np.copy(tmp4) * 2
    .set 16 (.cp 7) 2 1,
    -- 449: tmp14 += tmp3
    .add 16 (.cp 8) 1 1,
    -- 450: tmp22 = einsum(l2, (0, 1, 2, 3), t2, (2, 3, 4, 1), (0, 4))
    .set 17 (.ein [(1, [0, 1, 2, 3]), (3, [2, 3, 4, 1])] [0, 4]) 1 1,
    -- 451: tmp30 = einsum(l1, (0, 1), t1, (1, 2), (0, 2))
    .set 18 (.ein [(2, [0, 1]), (0, [1, 2])] [0, 2]) 1 1,
    -- 452: tmp29 = einsum(tmp1, (0, 1, 2, 3), t1, (1, 4), (0, 2, 3, 4))
    .set 19 (.ein [(6, [0, 1, 2, 3]), (0, [1, 4])] [0, 2, 3, 4]) 1 1,
    -- 453: tmp36 = einsum(t1, (0, 1), tmp19, (0, 2, 3, 4), (2, 3, 1, 4))
    .set 20 (.ein [(0, [0, 1]), (9, [0, 2, 3, 4])] [2, 3, 1, 4]) 1 1,
    -- 454: tmp18 = einsum(t1, (0, 1), tmp5, (0, 2, 3, 4), (2, 3, 1, 4))
    .set 21 (.ein [(0, [0, 1]), (10, [0, 2, 3, 4])] [2, 3, 1, 4]) 1 1,
    -- 455: tmp20 = einsum(t2, (0, 1, 2, 3), tmp19, (1, 4, 3, 5), (4, 0, 5, 2))
    .set 22 (.ein [(3, [0, 1, 2, 3]), (9, [1, 4, 3, 5])] [4, 0, 5, 2]) 1 1,
    -- 456: tmp13 = np.copy(np.transpose(tmp0, (1, 0, 3, 2))) * -0.5
    .set 23 (.tr 12 [1, 0, 3, 2]) (-1) 2,
    -- 457: tmp13 += np.transpose(tmp2, (0, 1, 3, 2))
    .add 23 (.tr 11 [0, 1, 3, 2]) 1 1,
    -- 458: tmp25 = einsum(tmp12, (0, 1, 2, 3), t1, (0, 4), (1, 2, 4, 3))
    .set 24 (.ein [(13, [0, 1, 2, 3]), (0, [0, 4])] [1, 2, 4, 3]) 1 1,
    -- 459: tmp8 = np.copy(tmp6)
    .set 25 (.cp 15) 1 1,
    -- 460: tmp8 += tmp7 * -1
    .add 25 (.cp 14) (-1) 1,
    -- 461: del tmp7
    .del 14,
    -- 462: tmp10 = einsum(tmp3, (0, 1), t1, (0, 2), (1, 2))
    .set 26 (.ein [(8, [0, 1]), (0, [0, 2])] [1, 2]) 1 1,
    -- 463: tmp9 = einsum(tmp1, (0, 1, 2, 3), t2, (1, 0, 4, 3), (2, 4))
    .set 27 (.ein [(6, [0, 1, 2, 3]), (3, [1, 0, 4, 3])] [2, 4]) 1 1,
    -- 464: tmp15 = einsum(t1, (0, 1), tmp14, (0, 2), (2, 1)) * 0.5
    .set 28 (.ein [(0, [0, 1]), (16, [0, 2])] [2, 1]) 1 2,
    -- 465: del tmp14
    .del 16,
    -- 466: tmp38 = einsum(t1, (0, 1), l2, (2, 3, 4, 0), (4, 2, 3, 1))
    .set 29 (.ein [(0, [0, 1]), (1, [2, 3, 4, 0])] [4, 2, 3, 1]) 1 1,
    -- 467: tmp31 = np.copy(tmp30)
    .set 30 (.cp 18) 1 1,
    -- 468: tmp31 += tmp22 * 0.5
    .add 30 (.cp 17) 1 2,
    -- 469: tmp33 = einsum(l1, (0, 1), t2, (2, 1, 3, 4), (2, 0, 3, 4))
    .set 31 (.ein [(2, [0, 1]), (3, [2, 1, 3, 4])] [2, 0, 3, 4]) 1 1,
    -- 470: tmp34 = einsum(tmp1, (0, 1, 2, 3), t2, (1, 0, 4, 5), (2, 3, 4, 5)) * -1
    .set 32 (.ein [(6, [0, 1, 2, 3]), (3, [1, 0, 4, 5])] [2, 3, 4, 5]) (-1) 1,
    -- 471: tmp35 = einsum(t1, (0, 1), tmp29, (0, 2, 3, 4), (2, 3, 4, 1)) * -1
    .set 33 (.ein [(0, [0, 1]), (19, [0, 2, 3, 4])] [2, 3, 4, 1]) (-1) 1,
    -- 472: tmp37 = np.copy(tmp36)
    .set 34 (.cp 20) 1 1,
    -- 473: tmp37 += einsum(tmp22, (0, 1), t1, (2, 3), (2, 0, 3, 1)) * -0.5
    .add 34 (.ein [(17, [0, 1]), (0, [2, 3])] [2, 0, 3, 1]) (-1) 2,
    -- 474: tmp32 = np.copy(tmp30) * 2
    .set 35 (.cp 18) 2 1,
    -- 475: tmp32 += tmp22
    .add 35 (.cp 17) 1 1,
    -- 476: tmp24 = einsum(t2, (0, 1, 2, 3), tmp3, (1, 4), (0, 4, 2, 3))
    .set 36 (.ein [(3, [0, 1, 2, 3]), (8, [1, 4])] [0, 4, 2, 3]) 1 1,
    -- 477: tmp21 = np.copy(tmp18)
    .set 37 (.cp 21) 1 1,
    -- 478: del tmp18
    .del 21,
    -- 479: tmp21 += tmp20
    .add 37 (.cp 22) 1 1,
    -- 480: del tmp20
    .del 22,
    -- 481: tmp28 = einsum(tmp13, (0, 1, 2, 3), t1, (0, 4), (1, 3, 2, 4)) * -2
    .set 38 (.ein [(23, [0, 1, 2, 3]), (0, [0, 4])] [1, 3, 2, 4]) (-2) 1,
    -- 482: tmp26 = np.copy(tmp25)
    .set 39 (.cp 24) 1 1,
    -- 483: del tmp25
    .del 24,
    -- 484: tmp26 += einsum(tmp8, (0, 1), t1, (2, 3), (2, 0, 3, 1)) * -1
    .add 39 (.ein [(25, [0, 1]), (0, [2, 3])] [2, 0, 3, 1]) (-1) 1,
    -- 485: tmp11 = np.copy(tmp9)
    .set 40 (.cp 27) 1 1,
    -- 486: tmp11 += tmp10
    .add 40 (.cp 26) 1 1,
    -- 487: del tmp10
    .del 26,
    -- 488: tmp23 = einsum(tmp22, (0, 1), t2, (2, 3, 4, 0), (2, 3, 4, 1))
    .set 41 (.ein [(17, [0, 1]), (3, [2, 3, 4, 0])] [2, 3, 4, 1]) 1 1,
    -- 489: del tmp22
    .del 17,
    -- 490: tmp27 = einsum(t2, (0, 1, 2, 3), tmp4, (1, 4), (4, 0, 2, 3))
    .set 42 (.ein [(3, [0, 1, 2, 3]), (7, [1, 4])] [4, 0, 2, 3]) 1 1,
    -- 491: tmp17 = np.copy(np.transpose(tmp0, (1, 0, 3, 2))) * -1
    .set 43 (.tr 12 [1, 0, 3, 2]) (-1) 1,
    -- 492: tmp17 += np.transpose(tmp2, (0, 1, 3, 2)) * 2
    .add 43 (.tr 11 [0, 1, 3, 2]) 2 1,
    -- 493: tmp16 = np.copy(tmp6) * -1
    .set 44 (.cp 15) (-1) 1,
    -- 494: del tmp6
    .del 15,
    -- 495: tmp16 += tmp9 * 0.5
    .add 44 (.cp 27) 1 2,
    -- 496: del tmp9
    .del 27,
    -- 497: tmp16 += tmp15
    .add 44 (.cp 28) 1 1,
    -- 498: del tmp15
    .del 28,
    -- 499: rdm2.vvvv = einsum(t2, (0, 1, 2, 3), l2, (4, 5, 0, 1), (4, 5, 2, 3)) * 0.5
    .set 45 (.ein [(3, [0, 1, 2, 3]), (1, [4, 5, 0, 1])] [4, 5, 2, 3]) 1 2,
    -- 500: rdm2.vvvv += einsum(tmp38, (0, 1, 2, 3), t1, (0, 4), (1, 2, 4, 3))
    .add 45 (.ein [(29, [0, 1, 2, 3]), (0, [0, 4])] [1, 2, 4, 3]) 1 1,
    -- 501: rdm2.vvvo = np.copy(np.transpose(tmp38, (2, 1, 3, 0)))
    .set 46 (.tr 29 [2, 1, 3, 0]) 1 1,
    -- 502: rdm2.vvov = np.copy(np.transpose(tmp38, (2, 1, 0, 3))) * -1
    .set 47 (.tr 29 [2, 1, 0, 3]) (-1) 1,
    -- 503: del tmp38
    .del 29,
    -- 504: rdm2.vovv = np.copy(np.transpose(tmp33, (1, 0, 3, 2)))
    .set 48 (.tr 31 [1, 0, 3, 2]) 1 1,
    -- 505: rdm2.vovv += np.transpose(tmp34, (1, 0, 3, 2)) * 0.5
    .add 48 (.tr 32 [1, 0, 3, 2]) 1 2,
    -- 506: rdm2.vovv += np.transpose(tmp35, (1, 0, 3, 2))
    .add 48 (.tr 33 [1, 0, 3, 2]) 1 1,
    -- 507: rdm2.vovv += einsum(t1, (0, 1), tmp31, (2, 3), (2, 0, 1, 3)) * -1
    .add 48 (.ein [(0, [0, 1]), (30, [2, 3])] [2, 0, 1, 3]) (-1) 1,
    -- 508: rdm2.vovv += einsum(tmp31, (0, 1), t1, (2, 3), (0, 2, 1, 3))
    .add 48 (.ein [(30, [0, 1]), (0, [2, 3])] [0, 2, 1, 3]) 1 1,
    -- 509: rdm2.vovv += np.transpose(tmp36, (1, 0, 2, 3))
    .add 48 (.tr 20 [1, 0, 2, 3]) 1 1,
    -- 510: rdm2.vovv += np.transpose(tmp36, (1, 0, 3, 2)) * -1
    .add 48 (.tr 20 [1, 0, 3, 2]) (-1) 1,
    -- 511: del tmp36
    .del 20,
    -- 512: rdm2.ovvv = np.copy(np.transpose(tmp33, (0, 1, 3, 2))) * -1
    .set 49 (.tr 31 [0, 1, 3, 2]) (-1) 1,
    -- 513: del tmp33
    .del 31,
    -- 514: rdm2.ovvv += np.transpose(tmp34, (0, 1, 3, 2)) * -0.5
    .add 49 (.tr 32 [0, 1, 3, 2]) (-1) 2,
    -- 515: del tmp34
    .del 32,
    -- 516: rdm2.ovvv += np.transpose(tmp35, (0, 1, 3, 2)) * -1
    .add 49 (.tr 33 [0, 1, 3, 2]) (-1) 1,
    -- 517: del tmp35
    .del 33,
    -- 518: rdm2.ovvv += einsum(tmp30, (0, 1), t1, (2, 3), (2, 0, 3, 1))
    .add 49 (.ein [(18, [0, 1]), (0, [2, 3])] [2, 0, 3, 1]) 1 1,
    -- 519: rdm2.ovvv += einsum(tmp30, (0, 1), t1, (2, 3), (2, 0, 1, 3)) * -1
    .add 49 (.ein [(18, [0, 1]), (0, [2, 3])] [2, 0, 1, 3]) (-1) 1,
    -- 520: del tmp30
    .del 18,
    -- 521: rdm2.ovvv += tmp37 * -1
    .add 49 (.cp 34) (-1) 1,
    -- 522: rdm2.ovvv += np.transpose(tmp37, (0, 1, 3, 2))
    .add 49 (.tr 34 [0, 1, 3, 2]) 1 1,
    -- 523: del tmp37
    .del 34,
    -- 524: rdm2.vvoo = np.copy(l2)
    .set 50 (.cp 1) 1 1,
    -- 525: rdm2.vovo = einsum(l1, (0, 1), t1, (2, 3), (0, 2, 3, 1)) * -1
    .set 51 (.ein [(2, [0, 1]), (0, [2, 3])] [0, 2, 3, 1]) (-1) 1,
    -- 526: rdm2.vovo += np.transpose(tmp19, (2, 1, 3, 0)) * -1
    .add 51 (.tr 9 [2, 1, 3, 0]) (-1) 1,
    -- 527: rdm2.vovo += np.transpose(tmp29, (2, 1, 3, 0))
    .add 51 (.tr 19 [2, 1, 3, 0]) 1 1,
    -- 528: rdm2.vovo += einsum(delta.oo, (0, 1), tmp32, (2, 3), (2, 0, 3, 1)) * 0.5
    .add 51 (.ein [(4, [0, 1]), (35, [2, 3])] [2, 0, 3, 1]) 1 2,
    -- 529: rdm2.voov = einsum(l1, (0, 1), t1, (2, 3), (0, 2, 1, 3))
    .set 52 (.ein [(2, [0, 1]), (0, [2, 3])] [0, 2, 1, 3]) 1 1,
    -- 530: rdm2.voov += np.transpose(tmp19, (2, 1, 0, 3))
    .add 52 (.tr 9 [2, 1, 0, 3]) 1 1,
    -- 531: rdm2.voov += np.transpose(tmp29, (2, 1, 0, 3)) * -1
    .add 52 (.tr 19 [2, 1, 0, 3]) (-1) 1,
    -- 532: rdm2.voov += einsum(tmp31, (0, 1), delta.oo, (2, 3), (0, 2, 3, 1)) * -1
    .add 52 (.ein [(30, [0, 1]), (4, [2, 3])] [0, 2, 3, 1]) (-1) 1,
    -- 533: rdm2.ovvo = einsum(l1, (0, 1), t1, (2, 3), (2, 0, 3, 1))
    .set 53 (.ein [(2, [0, 1]), (0, [2, 3])] [2, 0, 3, 1]) 1 1,
    -- 534: rdm2.ovvo += np.transpose(tmp19, (1, 2, 3, 0))
    .add 53 (.tr 9 [1, 2, 3, 0]) 1 1,
    -- 535: rdm2.ovvo += np.transpose(tmp29, (1, 2, 3, 0)) * -1
    .add 53 (.tr 19 [1, 2, 3, 0]) (-1) 1,
    -- 536: rdm2.ovvo += einsum(delta.oo, (0, 1), tmp32, (2, 3), (0, 2, 3, 1)) * -0.5
    .add 53 (.ein [(4, [0, 1]), (35, [2, 3])] [0, 2, 3, 1]) (-1) 2,
    -- 537: del tmp32
    .del 35,
    -- 538: rdm2.ovov = einsum(l1, (0, 1), t1, (2, 3), (2, 0, 1, 3)) * -1
    .set 54 (.ein [(2, [0, 1]), (0, [2, 3])] [2, 0, 1, 3]) (-1) 1,
    -- 539: rdm2.ovov += np.transpose(tmp19, (1, 2, 0, 3)) * -1
    .add 54 (.tr 9 [1, 2, 0, 3]) (-1) 1,
    -- 540: del tmp19
    .del 9,
    -- 541: rdm2.ovov += np.transpose(tmp29, (1, 2, 0, 3))
    .add 54 (.tr 19 [1, 2, 0, 3]) 1 1,
    -- 542: del tmp29
    .del 19,
    -- 543: rdm2.ovov += einsum(tmp31, (0, 1), delta.oo, (2, 3), (2, 0, 3, 1))
    .add 54 (.ein [(30, [0, 1]), (4, [2, 3])] [2, 0, 3, 1]) 1 1,
    -- 544: del tmp31
    .del 30,
    -- 545: rdm2.oovv = np.copy(t2)
    .set 55 (.cp 3) 1 1,
    -- 546: rdm2.oovv += einsum(t1, (0, 1), t1, (2, 3), (2, 0, 1, 3)) * -1
    .add 55 (.ein [(0, [0, 1]), (0, [2, 3])] [2, 0, 1, 3]) (-1) 1,
    -- 547: rdm2.oovv += einsum(t1, (0, 1), t1, (2, 3), (2, 0, 3, 1))
    .add 55 (.ein [(0, [0, 1]), (0, [2, 3])] [2, 0, 3, 1]) 1 1,
    -- 548: rdm2.oovv += tmp21
    .add 55 (.cp 37) 1 1,
    -- 549: rdm2.oovv += np.transpose(tmp21, (0, 1, 3, 2)) * -1
    .add 55 (.tr 37 [0, 1, 3, 2]) (-1) 1,
    -- 550: del tmp21
    .del 37,
    -- 551: rdm2.oovv += tmp23 * -0.5
    .add 55 (.cp 41) (-1) 2,
    -- 552: rdm2.oovv += np.transpose(tmp23, (0, 1, 3, 2)) * 0.5
    .add 55 (.tr 41 [0, 1, 3, 2]) 1 2,
    -- 553: del tmp23
    .del 41,
    -- 554: rdm2.oovv += np.transpose(tmp24, (0, 1, 3, 2)) * 0.5
    .add 55 (.tr 36 [0, 1, 3, 2]) 1 2,
    -- 555: rdm2.oovv += np.transpose(tmp24, (1, 0, 3, 2)) * -0.5
    .add 55 (.tr 36 [1, 0, 3, 2]) (-1) 2,
    -- 556: del tmp24
    .del 36,
    -- 557: rdm2.oovv += tmp26 * -1
    .add 55 (.cp 39) (-1) 1,
    -- 558: rdm2.oovv += np.transpose(tmp26, (0, 1, 3, 2))
    .add 55 (.tr 39 [0, 1, 3, 2]) 1 1,
    -- 559: rdm2.oovv += np.transpose(tmp26, (1, 0, 2, 3))
    .add 55 (.tr 39 [1, 0, 2, 3]) 1 1,
    -- 560: rdm2.oovv += np.transpose(tmp26, (1, 0, 3, 2)) * -1
    .add 55 (.tr 39 [1, 0, 3, 2]) (-1) 1,
    -- 561: del tmp26
    .del 39,
    -- 562: rdm2.oovv += einsum(tmp11, (0, 1), t1, (2, 3), (2, 0, 3, 1)) * -0.5
    .add 55 (.ein [(40, [0, 1]), (0, [2, 3])] [2, 0, 3, 1]) (-1) 2,
    -- 563: rdm2.oovv += einsum(tmp11, (0, 1), t1, (2, 3), (2, 0, 1, 3)) * 0.5
    .add 55 (.ein [(40, [0, 1]), (0, [2, 3])] [2, 0, 1, 3]) 1 2,
    -- 564: rdm2.oovv += einsum(t1, (0, 1), tmp11, (2, 3), (2, 0, 1, 3)) * 0.5
    .add 55 (.ein [(0, [0, 1]), (40, [2, 3])] [2, 0, 1, 3]) 1 2,
    -- 565: rdm2.oovv += einsum(t1, (0, 1), tmp11, (2, 3), (2, 0, 3, 1)) * -0.5
    .add 55 (.ein [(0, [0, 1]), (40, [2, 3])] [2, 0, 3, 1]) (-1) 2,
    -- 566: rdm2.oovv += np.transpose(tmp27, (0, 1, 3, 2)) * -1
    .add 55 (.tr 42 [0, 1, 3, 2]) (-1) 1,
    -- 567: rdm2.oovv += np.transpose(tmp27, (1, 0, 3, 2))
    .add 55 (.tr 42 [1, 0, 3, 2]) 1 1,
    -- 568: del tmp27
    .del 42,
    -- 569: rdm2.oovv += einsum(tmp13, (0, 1, 2, 3), t2, (0, 1, 4, 5), (3, 2, 4, 5)) * 0.5
    .add 55 (.ein [(23, [0, 1, 2, 3]), (3, [0, 1, 4, 5])] [3, 2, 4, 5]) 1 2,
    -- 570: rdm2.oovv += einsum(t1, (0, 1), tmp28, (0, 2, 3, 4), (2, 3, 1, 4)) * 0.5
    .add 55 (.ein [(0, [0, 1]), (38, [0, 2, 3, 4])] [2, 3, 1, 4]) 1 2,
    -- 571: del tmp28
    .del 38,
    -- 572: rdm2.vooo = np.copy(np.transpose(tmp1, (3, 2, 1, 0)))
    .set 56 (.tr 6 [3, 2, 1, 0]) 1 1,
    -- 573: rdm2.vooo += einsum(delta.oo, (0, 1), l1, (2, 3), (2, 0, 3, 1))
    .add 56 (.ein [(4, [0, 1]), (2, [2, 3])] [2, 0, 3, 1]) 1 1,
    -- 574: rdm2.vooo += einsum(l1, (0, 1), delta.oo, (2, 3), (0, 2, 3, 1)) * -1
    .add 56 (.ein [(2, [0, 1]), (4, [2, 3])] [0, 2, 3, 1]) (-1) 1,
    -- 575: rdm2.ovoo = np.copy(np.transpose(tmp1, (2, 3, 1, 0))) * -1
    .set 57 (.tr 6 [2, 3, 1, 0]) (-1) 1,
    -- 576: del tmp1
    .del 6,
    -- 577: rdm2.ovoo += einsum(delta.oo, (0, 1), l1, (2, 3), (0, 2, 3, 1)) * -1
    .add 57 (.ein [(4, [0, 1]), (2, [2, 3])] [0, 2, 3, 1]) (-1) 1,
    -- 578: rdm2.ovoo += einsum(l1, (0, 1), delta.oo, (2, 3), (2, 0, 3, 1))
    .add 57 (.ein [(2, [0, 1]), (4, [2, 3])] [2, 0, 3, 1]) 1 1,
    -- 579: rdm2.oovo = np.copy(np.transpose(tmp5, (2, 1, 3, 0)))
    .set 58 (.tr 10 [2, 1, 3, 0]) 1 1,
    -- 580: rdm2.oovo += einsum(tmp16, (0, 1), delta.oo, (2, 3), (0, 2, 1, 3)) * -1
    .add 58 (.ein [(44, [0, 1]), (4, [2, 3])] [0, 2, 1, 3]) (-1) 1,
    -- 581: rdm2.oovo += einsum(delta.oo, (0, 1), tmp16, (2, 3), (0, 2, 3, 1))
    .add 58 (.ein [(4, [0, 1]), (44, [2, 3])] [0, 2, 3, 1]) 1 1,
    -- 582: del tmp16
    .del 44,
    -- 583: rdm2.oovo += einsum(delta.oo, (0, 1), t1, (2, 3), (2, 0, 3, 1))
    .add 58 (.ein [(4, [0, 1]), (0, [2, 3])] [2, 0, 3, 1]) 1 1,
    -- 584: rdm2.oovo += einsum(delta.oo, (0, 1), t1, (2, 3), (0, 2, 3, 1)) * -1
    .add 58 (.ein [(4, [0, 1]), (0, [2, 3])] [0, 2, 3, 1]) (-1) 1,
    -- 585: rdm2.oovo += einsum(tmp4, (0, 1), t1, (2, 3), (2, 1, 3, 0)) * -1
    .add 58 (.ein [(7, [0, 1]), (0, [2, 3])] [2, 1, 3, 0]) (-1) 1,
    -- 586: rdm2.oovo += einsum(t1, (0, 1), tmp4, (2, 3), (3, 0, 1, 2))
    .add 58 (.ein [(0, [0, 1]), (7, [2, 3])] [3, 0, 1, 2]) 1 1,
    -- 587: rdm2.oovo += np.transpose(tmp12, (1, 2, 3, 0))
    .add 58 (.tr 13 [1, 2, 3, 0]) 1 1,
    -- 588: rdm2.oovo += np.transpose(tmp12, (2, 1, 3, 0)) * -1
    .add 58 (.tr 13 [2, 1, 3, 0]) (-1) 1,
    -- 589: rdm2.oovo += einsum(tmp3, (0, 1), t1, (2, 3), (2, 1, 3, 0)) * -0.5
    .add 58 (.ein [(8, [0, 1]), (0, [2, 3])] [2, 1, 3, 0]) (-1) 2,
    -- 590: rdm2.oovo += einsum(t1, (0, 1), tmp3, (2, 3), (3, 0, 1, 2)) * 0.5
    .add 58 (.ein [(0, [0, 1]), (8, [2, 3])] [3, 0, 1, 2]) 1 2,
    -- 591: rdm2.oovo += einsum(tmp17, (0, 1, 2, 3), t1, (0, 4), (3, 2, 4, 1)) * 0.5
    .add 58 (.ein [(43, [0, 1, 2, 3]), (0, [0, 4])] [3, 2, 4, 1]) 1 2,
    -- 592: del tmp17
    .del 43,
    -- 593: rdm2.ooov = np.copy(np.transpose(tmp5, (2, 1, 0, 3))) * -1
    .set 59 (.tr 10 [2, 1, 0, 3]) (-1) 1,
    -- 594: del tmp5
    .del 10,
    -- 595: rdm2.ooov += einsum(tmp8, (0, 1), delta.oo, (2, 3), (0, 2, 3, 1)) * -1
    .add 59 (.ein [(25, [0, 1]), (4, [2, 3])] [0, 2, 3, 1]) (-1) 1,
    -- 596: rdm2.ooov += einsum(tmp8, (0, 1), delta.oo, (2, 3), (2, 0, 3, 1))
    .add 59 (.ein [(25, [0, 1]), (4, [2, 3])] [2, 0, 3, 1]) 1 1,
    -- 597: del tmp8
    .del 25,
    -- 598: rdm2.ooov += einsum(delta.oo, (0, 1), t1, (2, 3), (2, 0, 1, 3)) * -1
    .add 59 (.ein [(4, [0, 1]), (0, [2, 3])] [2, 0, 1, 3]) (-1) 1,
    -- 599: rdm2.ooov += einsum(delta.oo, (0, 1), t1, (2, 3), (0, 2, 1, 3))
    .add 59 (.ein [(4, [0, 1]), (0, [2, 3])] [0, 2, 1, 3]) 1 1,
    -- 600: rdm2.ooov += einsum(tmp4, (0, 1), t1, (2, 3), (2, 1, 0, 3))
    .add 59 (.ein [(7, [0, 1]), (0, [2, 3])] [2, 1, 0, 3]) 1 1,
    -- 601: rdm2.ooov += einsum(t1, (0, 1), tmp4, (2, 3), (3, 0, 2, 1)) * -1
    .add 59 (.ein [(0, [0, 1]), (7, [2, 3])] [3, 0, 2, 1]) (-1) 1,
    -- 602: rdm2.ooov += einsum(delta.oo, (0, 1), tmp11, (2, 3), (2, 0, 1, 3)) * 0.5
    .add 59 (.ein [(4, [0, 1]), (40, [2, 3])] [2, 0, 1, 3]) 1 2,
    -- 603: rdm2.ooov += einsum(delta.oo, (0, 1), tmp11, (2, 3), (0, 2, 1, 3)) * -0.5
    .add 59 (.ein [(4, [0, 1]), (40, [2, 3])] [0, 2, 1, 3]) (-1) 2,
    -- 604: del tmp11
    .del 40,
    -- 605: rdm2.ooov += np.transpose(tmp12, (1, 2, 0, 3)) * -1
    .add 59 (.tr 13 [1, 2, 0, 3]) (-1) 1,
    -- 606: rdm2.ooov += np.transpose(tmp12, (2, 1, 0, 3))
    .add 59 (.tr 13 [2, 1, 0, 3]) 1 1,
    -- 607: del tmp12
    .del 13,
    -- 608: rdm2.ooov += einsum(tmp3, (0, 1), t1, (2, 3), (2, 1, 0, 3)) * 0.5
    .add 59 (.ein [(8, [0, 1]), (0, [2, 3])] [2, 1, 0, 3]) 1 2,
    -- 609: rdm2.ooov += einsum(t1, (0, 1), tmp3, (2, 3), (3, 0, 2, 1)) * -0.5
    .add 59 (.ein [(0, [0, 1]), (8, [2, 3])] [3, 0, 2, 1]) (-1) 2,
    -- 610: rdm2.ooov += einsum(tmp13, (0, 1, 2, 3), t1, (0, 4), (3, 2, 1, 4)) * -1
    .add 59 (.ein [(23, [0, 1, 2, 3]), (0, [0, 4])] [3, 2, 1, 4]) (-1) 1,
    -- 611: del tmp13
    .del 23,
    -- 612: rdm2.oooo = np.copy(np.transpose(tmp0, (3, 2, 1, 0))) * 0.5
    .set 60 (.tr 12 [3, 2, 1, 0]) 1 2,
    -- 613: del tmp0
    .del 12,
    -- 614: rdm2.oooo += np.transpose(tmp2, (2, 3, 1, 0)) * -1
    .add 60 (.tr 11 [2, 3, 1, 0]) (-1) 1,
    -- 615: del tmp2
    .del 11,
    -- 616: rdm2.oooo += einsum(delta.oo, (0, 1), delta.oo, (2, 3), (0, 2, 1, 3))
    .add 60 (.ein [(4, [0, 1]), (4, [2, 3])] [0, 2, 1, 3]) 1 1,
    -- 617: rdm2.oooo += einsum(delta.oo, (0, 1), delta.oo, (2, 3), (0, 2, 3, 1)) * -1
    .add 60 (.ein [(4, [0, 1]), (4, [2, 3])] [0, 2, 3, 1]) (-1) 1,
    -- 618: rdm2.oooo += einsum(delta.oo, (0, 1), tmp3, (2, 3), (3, 0, 2, 1)) * -0.5
    .add 60 (.ein [(4, [0, 1]), (8, [2, 3])] [3, 0, 2, 1]) (-1) 2,
    -- 619: rdm2.oooo += einsum(tmp3, (0, 1), delta.oo, (2, 3), (2, 1, 0, 3)) * 0.5
    .add 60 (.ein [(8, [0, 1]), (4, [2, 3])] [2, 1, 0, 3]) 1 2,
    -- 620: rdm2.oooo += einsum(delta.oo, (0, 1), tmp3, (2, 3), (3, 0, 1, 2)) * 0.5
    .add 60 (.ein [(4, [0, 1]), (8, [2, 3])] [3, 0, 1, 2]) 1 2,
    -- 621: rdm2.oooo += einsum(delta.oo, (0, 1), tmp3, (2, 3), (0, 3, 1, 2)) * -0.5
    .add 60 (.ein [(4, [0, 1]), (8, [2, 3])] [0, 3, 1, 2]) (-1) 2,
    -- 622: del tmp3
    .del 8,
    -- 623: rdm2.oooo += einsum(delta.oo, (0, 1), tmp4, (2, 3), (3, 0, 2, 1)) * -1
    .add 60 (.ein [(4, [0, 1]), (7, [2, 3])] [3, 0, 2, 1]) (-1) 1,
    -- 624: rdm2.oooo += einsum(tmp4, (0, 1), delta.oo, (2, 3), (2, 1, 0, 3))
    .add 60 (.ein [(7, [0, 1]), (4, [2, 3])] [2, 1, 0, 3]) 1 1,
    -- 625: rdm2.oooo += einsum(tmp4, (0, 1), delta.oo, (2, 3), (1, 2, 3, 0))
    .add 60 (.ein [(7, [0, 1]), (4, [2, 3])] [1, 2, 3, 0]) 1 1,
    -- 626: rdm2.oooo += einsum(delta.oo, (0, 1), tmp4, (2, 3), (0, 3, 1, 2)) * -1
    .add 60 (.ein [(4, [0, 1]), (7, [2, 3])] [0, 3, 1, 2]) (-1) 1,
    -- 627: del tmp4, delta
    .del 7,
    .del 4,
    .del 5,
    -- 629: rdm2 = np.transpose(rdm2, (0, 2, 1, 3))
    .set 61 (.tr 60 [0, 2, 1, 3]) 1 1,
    .set 62 (.tr 59 [0, 2, 1, 3]) 1 1,
    .set 63 (.tr 57 [0, 2, 1, 3]) 1 1,
    .set 64 (.tr 58 [0, 2, 1, 3]) 1 1,
    .set 65 (.tr 56 [0, 2, 1, 3]) 1 1,
    .set 66 (.tr 54 [0, 2, 1, 3]) 1 1,
    .set 67 (.tr 55 [0, 2, 1, 3]) 1 1,
    .set 68 (.tr 53 [0, 2, 1, 3]) 1 1,
    .set 69 (.tr 52 [0, 2, 1, 3]) 1 1,
    .set 70 (.tr 50 [0, 2, 1, 3]) 1 1,
    .set 71 (.tr 51 [0, 2, 1, 3]) 1 1,
    .set 72 (.tr 49 [0, 2, 1, 3]) 1 1,
    .set 73 (.tr 47 [0, 2, 1, 3]) 1 1,
    .set 74 (.tr 48 [0, 2, 1, 3]) 1 1,
    .set 75 (.tr 46 [0, 2, 1, 3]) 1 1,
    .set 76 (.tr 45 [0, 2, 1, 3]) 1 1
  ]
  ret := [(chars! "rdm2.oooo", 61), (chars! "rdm2.ooov", 62), (chars! "rdm2.oovo", 63), (chars! "rdm2.ovoo", 64), (chars! "rdm2.vooo", 65), (chars! "rdm2.oovv", 66), (chars! "rdm2.ovov", 67), (chars! "rdm2.ovvo", 68), (chars! "rdm2.voov", 69), (chars! "rdm2.vovo", 70), (chars! "rdm2.vvoo", 71), (chars! "rdm2.ovvv", 72), (chars! "rdm2.vovv", 73), (chars! "rdm2.vvov", 74), (chars! "rdm2.vvvo", 75), (chars! "rdm2.vvvv", 76)]

end Ebcc.Gen.GCC2
