import Verif.Model.GenCode
/-!
Functions of `ebcc/codegen/RQCISD.py`, written by `tools/gencode.py`.  Comments give the
number and the text of the line of each statement.
-/

set_option maxRecDepth 100000

namespace Ebcc.Gen.RQCISD

/-- codegen/RQCISD.py:19-39 `energy`. -/
def energy : GenFun where
  args := [chars! "t2", chars! "v.ovov"]
  body := [
    -- 36: e_cc = einsum(t2, (0, 1, 2, 3), v.ovov, (0, 2, 1, 3), ()) * 2
    .set 2 (.ein [(0, [0, 1, 2, 3]), (1, [0, 2, 1, 3])] []) 2 1,
    -- 37: e_cc += einsum(t2, (0, 1, 2, 3), v.ovov, (0, 3, 1, 2), ()) * -1
    .add 2 (.ein [(0, [0, 1, 2, 3]), (1, [0, 3, 1, 2])] []) (-1) 1
  ]
  ret := [(chars! "e_cc", 2)]

/-- codegen/RQCISD.py:41-166 `update_amps`. -/
def update_amps : GenFun where
  args := [chars! "v.ovov", chars! "t2", chars! "v.ovvv", chars! "t1", chars! "f.vv", chars! "v.ooov", chars! "f.oo", chars! "v.oovv", chars! "v.oooo", chars! "f.ov", chars! "v.vvvv"]
  body := [
    -- 64: tmp19 = np.copy(np.transpose(v.ovov, (0, 2, 3, 1)))
    .set 11 (.tr 0 [0, 2, 3, 1]) 1 1,
    -- 65: tmp19 += np.transpose(v.ovov, (0, 2, 1, 3)) * -0.5
    .add 11 (.tr 0 [0, 2, 1, 3]) (-1) 2,
    -- 66: tmp12 = np.copy(np.transpose(v.ovov, (0, 2, 3, 1))) * -1
    .set 12 (.tr 0 [0, 2, 3, 1]) (-1) 1,
    -- 67: tmp12 += np.transpose(v.ovov, (0, 2, 1, 3)) * 2
    .add 12 (.tr 0 [0, 2, 1, 3]) 2 1,
    -- 68: tmp20 = einsum(t2, (0, 1, 2, 3), tmp19, (0, 1, 4, 2), (3, 4))
    .set 13 (.ein [(1, [0, 1, 2, 3]), (11, [0, 1, 4, 2])] [3, 4]) 1 1,
    -- 69: tmp22 = einsum(t2, (0, 1, 2, 3), tmp19, (1, 4, 2, 3), (0, 4)) * 2
    .set 14 (.ein [(1, [0, 1, 2, 3]), (11, [1, 4, 2, 3])] [0, 4]) 2 1,
    -- 70: del tmp19
    .del 11,
    -- 71: tmp13 = einsum(tmp12, (0, 1, 2, 3), t2, (4, 0, 5, 2), (4, 1, 5, 3))
    .set 15 (.ein [(12, [0, 1, 2, 3]), (1, [4, 0, 5, 2])] [4, 1, 5, 3]) 1 1,
    -- 72: del tmp12
    .del 12,
    -- 73: tmp17 = einsum(v.ovvv, (0, 1, 2, 3), t1, (4, 3), (4, 0, 1, 2))
    .set 16 (.ein [(2, [0, 1, 2, 3]), (3, [4, 3])] [4, 0, 1, 2]) 1 1,
    -- 74: tmp16 = einsum(f.vv, (0, 1), t2, (2, 3, 4, 1), (2, 3, 0, 4))
    .set 17 (.ein [(4, [0, 1]), (1, [2, 3, 4, 1])] [2, 3, 0, 4]) 1 1,
    -- 75: tmp21 = einsum(tmp20, (0, 1), t2, (2, 3, 1, 4), (2, 3, 4, 0)) * 2
    .set 18 (.ein [(13, [0, 1]), (1, [2, 3, 1, 4])] [2, 3, 4, 0]) 2 1,
    -- 76: del tmp20
    .del 13,
    -- 77: tmp23 = einsum(t2, (0, 1, 2, 3), tmp22, (4, 1), (0, 4, 3, 2))
    .set 19 (.ein [(1, [0, 1, 2, 3]), (14, [4, 1])] [0, 4, 3, 2]) 1 1,
    -- 78: del tmp22
    .del 14,
    -- 79: tmp9 = einsum(t2, (0, 1, 2, 3), v.ovov, (4, 5, 1, 2), (0, 4, 3, 5))
    .set 20 (.ein [(1, [0, 1, 2, 3]), (0, [4, 5, 1, 2])] [0, 4, 3, 5]) 1 1,
    -- 80: tmp14 = einsum(t2, (0, 1, 2, 3), tmp13, (4, 1, 5, 2), (0, 4, 3, 5))
    .set 21 (.ein [(1, [0, 1, 2, 3]), (15, [4, 1, 5, 2])] [0, 4, 3, 5]) 1 1,
    -- 81: tmp11 = einsum(t1, (0, 1), v.ooov, (2, 0, 3, 4), (2, 3, 1, 4))
    .set 22 (.ein [(3, [0, 1]), (5, [2, 0, 3, 4])] [2, 3, 1, 4]) 1 1,
    -- 82: tmp3 = np.copy(np.transpose(v.ovov, (0, 2, 3, 1))) * 2
    .set 23 (.tr 0 [0, 2, 3, 1]) 2 1,
    -- 83: tmp3 += np.transpose(v.ovov, (0, 2, 1, 3)) * -1
    .add 23 (.tr 0 [0, 2, 1, 3]) (-1) 1,
    -- 84: tmp1 = einsum(t1, (0, 1), v.ovov, (2, 3, 4, 1), (0, 2, 4, 3))
    .set 24 (.ein [(3, [0, 1]), (0, [2, 3, 4, 1])] [0, 2, 4, 3]) 1 1,
    -- 85: tmp7 = np.copy(np.transpose(v.ovov, (0, 2, 3, 1))) * 2
    .set 25 (.tr 0 [0, 2, 3, 1]) 2 1,
    -- 86: tmp7 += np.transpose(v.ovov, (0, 2, 1, 3)) * -1
    .add 25 (.tr 0 [0, 2, 1, 3]) (-1) 1,
    -- 87: tmp18 = np.copy(tmp16)
    .set 26 (.cp 17) 1 1,
    -- 88: del tmp16
    .del 17,
    -- 89: tmp18 += tmp17
    .add 26 (.cp 16) 1 1,
    -- 90: del tmp17
    .del 16,
    -- 91: tmp24 = np.copy(np.transpose(tmp21, (1, 0, 2, 3)))
    .set 27 (.tr 18 [1, 0, 2, 3]) 1 1,
    -- 92: del tmp21
    .del 18,
    -- 93: tmp24 += np.transpose(tmp23, (0, 1, 3, 2))
    .add 27 (.tr 19 [0, 1, 3, 2]) 1 1,
    -- 94: del tmp23
    .del 19,
    -- 95: tmp27 = np.copy(np.transpose(v.ovov, (0, 2, 1, 3))) * -1
    .set 28 (.tr 0 [0, 2, 1, 3]) (-1) 1,
    -- 96: tmp27 += tmp9
    .add 28 (.cp 20) 1 1,
    -- 97: tmp10 = einsum(t2, (0, 1, 2, 3), f.oo, (4, 1), (4, 0, 2, 3))
    .set 29 (.ein [(1, [0, 1, 2, 3]), (6, [4, 1])] [4, 0, 2, 3]) 1 1,
    -- 98: tmp25 = np.copy(np.transpose(v.ovov, (0, 2, 1, 3))) * 2
    .set 30 (.tr 0 [0, 2, 1, 3]) 2 1,
    -- 99: tmp25 += v.oovv * -1
    .add 30 (.cp 7) (-1) 1,
    -- 100: tmp25 += tmp13 * 2
    .add 30 (.cp 15) 2 1,
    -- 101: del tmp13
    .del 15,
    -- 102: tmp15 = np.copy(tmp11)
    .set 31 (.cp 22) 1 1,
    -- 103: del tmp11
    .del 22,
    -- 104: tmp15 += np.transpose(tmp14, (1, 0, 3, 2))
    .add 31 (.tr 21 [1, 0, 3, 2]) 1 1,
    -- 105: del tmp14
    .del 21,
    -- 106: tmp28 = np.copy(v.oovv) * -1
    .set 32 (.cp 7) (-1) 1,
    -- 107: tmp28 += einsum(v.ovov, (0, 1, 2, 3), t2, (4, 2, 1, 5), (4, 0, 5, 3))
    .add 32 (.ein [(0, [0, 1, 2, 3]), (1, [4, 2, 1, 5])] [4, 0, 5, 3]) 1 1,
    -- 108: tmp26 = np.copy(v.oooo)
    .set 33 (.cp 8) 1 1,
    -- 109: tmp26 += einsum(v.ovov, (0, 1, 2, 3), t2, (4, 5, 1, 3), (0, 4, 5, 2))
    .add 33 (.ein [(0, [0, 1, 2, 3]), (1, [4, 5, 1, 3])] [0, 4, 5, 2]) 1 1,
    -- 110: tmp0 = np.copy(v.ovvv)
    .set 34 (.cp 2) 1 1,
    -- 111: tmp0 += np.transpose(v.ovvv, (0, 2, 1, 3)) * -0.5
    .add 34 (.tr 2 [0, 2, 1, 3]) (-1) 2,
    -- 112: tmp5 = np.copy(np.transpose(t2, (0, 1, 3, 2))) * 2
    .set 35 (.tr 1 [0, 1, 3, 2]) 2 1,
    -- 113: tmp5 += t2 * -1
    .add 35 (.cp 1) (-1) 1,
    -- 114: tmp4 = np.copy(f.ov)
    .set 36 (.cp 9) 1 1,
    -- 115: tmp4 += einsum(t1, (0, 1), tmp3, (0, 2, 3, 1), (2, 3))
    .add 36 (.ein [(3, [0, 1]), (23, [0, 2, 3, 1])] [2, 3]) 1 1,
    -- 116: del tmp3
    .del 23,
    -- 117: tmp6 = np.copy(np.transpose(v.ovov, (0, 2, 1, 3))) * 2
    .set 37 (.tr 0 [0, 2, 1, 3]) 2 1,
    -- 118: tmp6 += v.oovv * -1
    .add 37 (.cp 7) (-1) 1,
    -- 119: tmp2 = np.copy(v.ooov) * -0.5
    .set 38 (.cp 5) (-1) 2,
    -- 120: tmp2 += np.transpose(v.ooov, (0, 2, 1, 3))
    .add 38 (.tr 5 [0, 2, 1, 3]) 1 1,
    -- 121: tmp2 += tmp1
    .add 38 (.cp 24) 1 1,
    -- 122: tmp2 += np.transpose(tmp1, (0, 2, 1, 3)) * -0.5
    .add 38 (.tr 24 [0, 2, 1, 3]) (-1) 2,
    -- 123: del tmp1
    .del 24,
    -- 124: tmp8 = np.copy(f.oo)
    .set 39 (.cp 6) 1 1,
    -- 125: tmp8 += einsum(t2, (0, 1, 2, 3), tmp7, (1, 4, 2, 3), (4, 0))
    .add 39 (.ein [(1, [0, 1, 2, 3]), (25, [1, 4, 2, 3])] [4, 0]) 1 1,
    -- 126: del tmp7
    .del 25,
    -- 127: t2new = np.copy(np.transpose(v.ovov, (0, 2, 1, 3)))
    .set 40 (.tr 0 [0, 2, 1, 3]) 1 1,
    -- 128: t2new += einsum(v.oovv, (0, 1, 2, 3), t2, (4, 1, 5, 3), (0, 4, 2, 5)) * -1
    .add 40 (.ein [(7, [0, 1, 2, 3]), (1, [4, 1, 5, 3])] [0, 4, 2, 5]) (-1) 1,
    -- 129: t2new += np.transpose(tmp9, (1, 0, 3, 2)) * -1
    .add 40 (.tr 20 [1, 0, 3, 2]) (-1) 1,
    -- 130: del tmp9
    .del 20,
    -- 131: t2new += einsum(t2, (0, 1, 2, 3), v.oovv, (4, 1, 5, 2), (0, 4, 5, 3)) * -1
    .add 40 (.ein [(1, [0, 1, 2, 3]), (7, [4, 1, 5, 2])] [0, 4, 5, 3]) (-1) 1,
    -- 132: t2new += einsum(t2, (0, 1, 2, 3), v.ovov, (4, 5, 1, 3), (4, 0, 5, 2)) * 2
    .add 40 (.ein [(1, [0, 1, 2, 3]), (0, [4, 5, 1, 3])] [4, 0, 5, 2]) 2 1,
    -- 133: t2new += einsum(v.vvvv, (0, 1, 2, 3), t2, (4, 5, 1, 3), (4, 5, 0, 2))
    .add 40 (.ein [(10, [0, 1, 2, 3]), (1, [4, 5, 1, 3])] [4, 5, 0, 2]) 1 1,
    -- 134: t2new += np.transpose(tmp10, (0, 1, 3, 2)) * -1
    .add 40 (.tr 29 [0, 1, 3, 2]) (-1) 1,
    -- 135: t2new += np.transpose(tmp10, (1, 0, 2, 3)) * -1
    .add 40 (.tr 29 [1, 0, 2, 3]) (-1) 1,
    -- 136: del tmp10
    .del 29,
    -- 137: t2new += tmp15 * -1
    .add 40 (.cp 31) (-1) 1,
    -- 138: t2new += np.transpose(tmp15, (1, 0, 3, 2)) * -1
    .add 40 (.tr 31 [1, 0, 3, 2]) (-1) 1,
    -- 139: del tmp15
    .del 31,
    -- 140: t2new += np.transpose(tmp18, (0, 1, 3, 2))
    .add 40 (.tr 26 [0, 1, 3, 2]) 1 1,
    -- 141: t2new += np.transpose(tmp18, (1, 0, 2, 3))
    .add 40 (.tr 26 [1, 0, 2, 3]) 1 1,
    -- 142: del tmp18
    .del 26,
    -- 143: t2new += tmp24 * -1
    .add 40 (.cp 27) (-1) 1,
    -- 144: t2new += np.transpose(tmp24, (1, 0, 3, 2)) * -1
    .add 40 (.tr 27 [1, 0, 3, 2]) (-1) 1,
    -- 145: del tmp24
    .del 27,
    -- 146: t2new += einsum(tmp25, (0, 1, 2, 3), t2, (4, 1, 5, 3), (4, 0, 5, 2))
    .add 40 (.ein [(30, [0, 1, 2, 3]), (1, [4, 1, 5, 3])] [4, 0, 5, 2]) 1 1,
    -- 147: del tmp25
    .del 30,
    -- 148: t2new += einsum(tmp26, (0, 1, 2, 3), t2, (0, 3, 4, 5), (2, 1, 5, 4))
    .add 40 (.ein [(33, [0, 1, 2, 3]), (1, [0, 3, 4, 5])] [2, 1, 5, 4]) 1 1,
    -- 149: del tmp26
    .del 33,
    -- 150: t2new += einsum(tmp27, (0, 1, 2, 3), t2, (4, 1, 3, 5), (4, 0, 5, 2))
    .add 40 (.ein [(28, [0, 1, 2, 3]), (1, [4, 1, 3, 5])] [4, 0, 5, 2]) 1 1,
    -- 151: del tmp27
    .del 28,
    -- 152: t2new += einsum(tmp28, (0, 1, 2, 3), t2, (4, 1, 3, 5), (0, 4, 5, 2))
    .add 40 (.ein [(32, [0, 1, 2, 3]), (1, [4, 1, 3, 5])] [0, 4, 5, 2]) 1 1,
    -- 153: del tmp28
    .del 32,
    -- 154: t1new = einsum(t1, (0, 1), f.vv, (2, 1), (0, 2))
    .set 41 (.ein [(3, [0, 1]), (4, [2, 1])] [0, 2]) 1 1,
    -- 155: t1new += einsum(tmp0, (0, 1, 2, 3), t2, (4, 0, 2, 1), (4, 3)) * 2
    .add 41 (.ein [(34, [0, 1, 2, 3]), (1, [4, 0, 2, 1])] [4, 3]) 2 1,
    -- 156: del tmp0
    .del 34,
    -- 157: t1new += einsum(t2, (0, 1, 2, 3), tmp2, (4, 0, 1, 2), (4, 3)) * -2
    .add 41 (.ein [(1, [0, 1, 2, 3]), (38, [4, 0, 1, 2])] [4, 3]) (-2) 1,
    -- 158: del tmp2
    .del 38,
    -- 159: t1new += einsum(tmp4, (0, 1), tmp5, (0, 2, 3, 1), (2, 3))
    .add 41 (.ein [(36, [0, 1]), (35, [0, 2, 3, 1])] [2, 3]) 1 1,
    -- 160: del tmp4, tmp5
    .del 36,
    .del 35,
    -- 161: t1new += einsum(tmp6, (0, 1, 2, 3), t1, (0, 2), (1, 3))
    .add 41 (.ein [(37, [0, 1, 2, 3]), (3, [0, 2])] [1, 3]) 1 1,
    -- 162: del tmp6
    .del 37,
    -- 163: t1new += einsum(t1, (0, 1), tmp8, (0, 2), (2, 1)) * -1
    .add 41 (.ein [(3, [0, 1]), (39, [0, 2])] [2, 1]) (-1) 1,
    -- 164: del tmp8
    .del 39
  ]
  ret := [(chars! "t1new", 41), (chars! "t2new", 40)]

end Ebcc.Gen.RQCISD
