import Verif.Model.GenCode
/-!
Functions of `ebcc/codegen/RDFLCCSD.py`, written by `tools/gencode.py`.  Comments give the
number and the text of the line of each statement.
-/

set_option maxRecDepth 100000

namespace Ebcc.Gen.RDFLCCSD

/-- codegen/RDFLCCSD.py:17-38 `energy`. -/
def energy : GenFun where
  args := [chars! "f.ov", chars! "t1", chars! "t2", chars! "v.xov"]
  body := [
    -- 30: e_cc = einsum(f.ov, (0, 1), t1, (0, 1), ()) * 2
    .set 4 (.ein [(0, [0, 1]), (1, [0, 1])] []) 2 1,
    -- 31: tmp0 = np.copy(np.transpose(t2, (1, 0, 2, 3))) * 2
    .set 5 (.tr 2 [1, 0, 2, 3]) 2 1,
    -- 32: tmp0 += np.transpose(t2, (1, 0, 3, 2)) * -1
    .add 5 (.tr 2 [1, 0, 3, 2]) (-1) 1,
    -- 33: tmp1 = einsum(tmp0, (0, 1, 2, 3), v.xov, (4, 0, 3), (1, 2, 4)) * 0.5
    .set 6 (.ein [(5, [0, 1, 2, 3]), (3, [4, 0, 3])] [1, 2, 4]) 1 2,
    -- 34: del tmp0
    .del 5,
    -- 35: e_cc += einsum(v.xov, (0, 1, 2), tmp1, (1, 2, 0), ()) * 2
    .add 4 (.ein [(3, [0, 1, 2]), (6, [1, 2, 0])] []) 2 1,
    -- 36: del tmp1
    .del 6
  ]
  ret := [(chars! "e_cc", 4)]

/-- codegen/RDFLCCSD.py:40-116 `update_amps`. -/
def update_amps : GenFun where
  args := [chars! "f.vv", chars! "t1", chars! "f.ov", chars! "v.xov", chars! "f.oo", chars! "v.xoo", chars! "t2", chars! "v.xvv"]
  body := [
    -- 54: t1new = einsum(f.vv, (0, 1), t1, (2, 1), (2, 0))
    .set 8 (.ein [(0, [0, 1]), (1, [2, 1])] [2, 0]) 1 1,
    -- 55: t1new += f.ov
    .add 8 (.cp 2) 1 1,
    -- 56: tmp0 = einsum(v.xov, (0, 1, 2), t1, (1, 2), (0,))
    .set 9 (.ein [(3, [0, 1, 2]), (1, [1, 2])] [0]) 1 1,
    -- 57: t1new += einsum(v.xov, (0, 1, 2), tmp0, (0,), (1, 2)) * 2
    .add 8 (.ein [(3, [0, 1, 2]), (9, [0])] [1, 2]) 2 1,
    -- 58: del tmp0
    .del 9,
    -- 59: t1new += einsum(t1, (0, 1), f.oo, (2, 0), (2, 1)) * -1
    .add 8 (.ein [(1, [0, 1]), (4, [2, 0])] [2, 1]) (-1) 1,
    -- 60: tmp1 = einsum(v.xoo, (0, 1, 2), v.xov, (0, 3, 4), (1, 2, 3, 4))
    .set 10 (.ein [(5, [0, 1, 2]), (3, [0, 3, 4])] [1, 2, 3, 4]) 1 1,
    -- 61: tmp2 = np.copy(np.transpose(t2, (0, 1, 3, 2))) * 2
    .set 11 (.tr 6 [0, 1, 3, 2]) 2 1,
    -- 62: tmp2 += t2 * -1
    .add 11 (.cp 6) (-1) 1,
    -- 63: t1new += einsum(tmp1, (0, 1, 2, 3), tmp2, (2, 0, 4, 3), (1, 4)) * -1
    .add 8 (.ein [(10, [0, 1, 2, 3]), (11, [2, 0, 4, 3])] [1, 4]) (-1) 1,
    -- 64: del tmp1, tmp2
    .del 10,
    .del 11,
    -- 65: tmp3 = einsum(t1, (0, 1), v.xoo, (2, 3, 0), (3, 1, 2))
    .set 12 (.ein [(1, [0, 1]), (5, [2, 3, 0])] [3, 1, 2]) 1 1,
    -- 66: tmp6 = np.copy(tmp3)
    .set 13 (.cp 12) 1 1,
    -- 67: del tmp3
    .del 12,
    -- 68: tmp4 = np.copy(np.transpose(t2, (0, 1, 3, 2)))
    .set 14 (.tr 6 [0, 1, 3, 2]) 1 1,
    -- 69: tmp4 += t2 * -0.5
    .add 14 (.cp 6) (-1) 2,
    -- 70: tmp5 = einsum(tmp4, (0, 1, 2, 3), v.xov, (4, 0, 3), (1, 2, 4)) * 2
    .set 15 (.ein [(14, [0, 1, 2, 3]), (3, [4, 0, 3])] [1, 2, 4]) 2 1,
    -- 71: tmp6 += tmp5 * -1
    .add 13 (.cp 15) (-1) 1,
    -- 72: del tmp5
    .del 15,
    -- 73: t1new += einsum(v.xvv, (0, 1, 2), tmp6, (3, 2, 0), (3, 1)) * -1
    .add 8 (.ein [(7, [0, 1, 2]), (13, [3, 2, 0])] [3, 1]) (-1) 1,
    -- 74: t1new += einsum(tmp4, (0, 1, 2, 3), f.ov, (0, 3), (1, 2)) * 2
    .add 8 (.ein [(14, [0, 1, 2, 3]), (2, [0, 3])] [1, 2]) 2 1,
    -- 75: del tmp4
    .del 14,
    -- 76: tmp7 = einsum(v.xvv, (0, 1, 2), v.xvv, (0, 3, 4), (1, 3, 4, 2))
    .set 16 (.ein [(7, [0, 1, 2]), (7, [0, 3, 4])] [1, 3, 4, 2]) 1 1,
    -- 77: t2new = einsum(t2, (0, 1, 2, 3), tmp7, (4, 3, 5, 2), (0, 1, 4, 5))
    .set 17 (.ein [(6, [0, 1, 2, 3]), (16, [4, 3, 5, 2])] [0, 1, 4, 5]) 1 1,
    -- 78: del tmp7
    .del 16,
    -- 79: t2new += einsum(v.xov, (0, 1, 2), v.xov, (0, 3, 4), (1, 3, 2, 4))
    .add 17 (.ein [(3, [0, 1, 2]), (3, [0, 3, 4])] [1, 3, 2, 4]) 1 1,
    -- 80: tmp8 = einsum(v.xoo, (0, 1, 2), v.xoo, (0, 3, 4), (1, 3, 4, 2))
    .set 18 (.ein [(5, [0, 1, 2]), (5, [0, 3, 4])] [1, 3, 4, 2]) 1 1,
    -- 81: t2new += einsum(tmp8, (0, 1, 2, 3), t2, (1, 3, 4, 5), (2, 0, 4, 5))
    .add 17 (.ein [(18, [0, 1, 2, 3]), (6, [1, 3, 4, 5])] [2, 0, 4, 5]) 1 1,
    -- 82: del tmp8
    .del 18,
    -- 83: tmp9 = einsum(v.xoo, (0, 1, 2), v.xvv, (0, 3, 4), (1, 2, 3, 4))
    .set 19 (.ein [(5, [0, 1, 2]), (7, [0, 3, 4])] [1, 2, 3, 4]) 1 1,
    -- 84: tmp10 = einsum(tmp9, (0, 1, 2, 3), t2, (4, 1, 5, 3), (4, 0, 5, 2))
    .set 20 (.ein [(19, [0, 1, 2, 3]), (6, [4, 1, 5, 3])] [4, 0, 5, 2]) 1 1,
    -- 85: tmp12 = np.copy(tmp10)
    .set 21 (.cp 20) 1 1,
    -- 86: del tmp10
    .del 20,
    -- 87: tmp11 = einsum(v.xov, (0, 1, 2), tmp6, (3, 4, 0), (1, 3, 2, 4))
    .set 22 (.ein [(3, [0, 1, 2]), (13, [3, 4, 0])] [1, 3, 2, 4]) 1 1,
    -- 88: del tmp6
    .del 13,
    -- 89: tmp12 += np.transpose(tmp11, (1, 0, 3, 2))
    .add 21 (.tr 22 [1, 0, 3, 2]) 1 1,
    -- 90: del tmp11
    .del 22,
    -- 91: t2new += tmp12 * -1
    .add 17 (.cp 21) (-1) 1,
    -- 92: t2new += np.transpose(tmp12, (1, 0, 3, 2)) * -1
    .add 17 (.tr 21 [1, 0, 3, 2]) (-1) 1,
    -- 93: del tmp12
    .del 21,
    -- 94: tmp13 = einsum(f.oo, (0, 1), t2, (2, 1, 3, 4), (0, 2, 3, 4))
    .set 23 (.ein [(4, [0, 1]), (6, [2, 1, 3, 4])] [0, 2, 3, 4]) 1 1,
    -- 95: tmp15 = np.copy(tmp13)
    .set 24 (.cp 23) 1 1,
    -- 96: del tmp13
    .del 23,
    -- 97: tmp14 = einsum(t2, (0, 1, 2, 3), tmp9, (4, 1, 5, 2), (0, 4, 3, 5))
    .set 25 (.ein [(6, [0, 1, 2, 3]), (19, [4, 1, 5, 2])] [0, 4, 3, 5]) 1 1,
    -- 98: del tmp9
    .del 19,
    -- 99: tmp15 += tmp14
    .add 24 (.cp 25) 1 1,
    -- 100: del tmp14
    .del 25,
    -- 101: t2new += np.transpose(tmp15, (0, 1, 3, 2)) * -1
    .add 17 (.tr 24 [0, 1, 3, 2]) (-1) 1,
    -- 102: t2new += np.transpose(tmp15, (1, 0, 2, 3)) * -1
    .add 17 (.tr 24 [1, 0, 2, 3]) (-1) 1,
    -- 103: del tmp15
    .del 24,
    -- 104: tmp16 = einsum(f.vv, (0, 1), t2, (2, 3, 4, 1), (2, 3, 0, 4))
    .set 26 (.ein [(0, [0, 1]), (6, [2, 3, 4, 1])] [2, 3, 0, 4]) 1 1,
    -- 105: tmp19 = np.copy(tmp16)
    .set 27 (.cp 26) 1 1,
    -- 106: del tmp16
    .del 26,
    -- 107: tmp17 = einsum(t1, (0, 1), v.xvv, (2, 3, 1), (0, 3, 2))
    .set 28 (.ein [(1, [0, 1]), (7, [2, 3, 1])] [0, 3, 2]) 1 1,
    -- 108: tmp18 = einsum(tmp17, (0, 1, 2), v.xov, (2, 3, 4), (0, 3, 4, 1))
    .set 29 (.ein [(28, [0, 1, 2]), (3, [2, 3, 4])] [0, 3, 4, 1]) 1 1,
    -- 109: del tmp17
    .del 28,
    -- 110: tmp19 += tmp18
    .add 27 (.cp 29) 1 1,
    -- 111: del tmp18
    .del 29,
    -- 112: t2new += np.transpose(tmp19, (0, 1, 3, 2))
    .add 17 (.tr 27 [0, 1, 3, 2]) 1 1,
    -- 113: t2new += np.transpose(tmp19, (1, 0, 2, 3))
    .add 17 (.tr 27 [1, 0, 2, 3]) 1 1,
    -- 114: del tmp19
    .del 27
  ]
  ret := [(chars! "t1new", 8), (chars! "t2new", 17)]

end Ebcc.Gen.RDFLCCSD
