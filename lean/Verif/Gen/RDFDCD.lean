import Verif.Model.GenCode
/-!
Functions of `ebcc/codegen/RDFDCD.py`, written by `tools/gencode.py`.  Comments give the
number and the text of the line of each statement.
-/

set_option maxRecDepth 100000

namespace Ebcc.Gen.RDFDCD

/-- codegen/RDFDCD.py:19-43 `energy`. -/
def energy : GenFun where
  args := [chars! "t2", chars! "v.xov"]
  body := [
    -- 36: tmp0 = np.copy(np.transpose(t2, (0, 1, 3, 2))) * -1
    .set 2 (.tr 0 [0, 1, 3, 2]) (-1) 1,
    -- 37: tmp0 += t2 * 2
    .add 2 (.cp 0) 2 1,
    -- 38: tmp1 = einsum(tmp0, (0, 1, 2, 3), v.xov, (4, 0, 2), (1, 3, 4)) * 0.5
    .set 3 (.ein [(2, [0, 1, 2, 3]), (1, [4, 0, 2])] [1, 3, 4]) 1 2,
    -- 39: del tmp0
    .del 2,
    -- 40: e_cc = einsum(tmp1, (0, 1, 2), v.xov, (2, 0, 1), ()) * 2
    .set 4 (.ein [(3, [0, 1, 2]), (1, [2, 0, 1])] []) 2 1,
    -- 41: del tmp1
    .del 3
  ]
  ret := [(chars! "e_cc", 4)]

/-- codegen/RDFDCD.py:45-128 `update_amps`. -/
def update_amps : GenFun where
  args := [chars! "t2", chars! "v.xov", chars! "v.xvv", chars! "v.xoo", chars! "f.vv", chars! "f.oo"]
  body := [
    -- 64: tmp6 = np.copy(np.transpose(t2, (0, 1, 3, 2))) * -1
    .set 6 (.tr 0 [0, 1, 3, 2]) (-1) 1,
    -- 65: tmp6 += t2 * 2
    .add 6 (.cp 0) 2 1,
    -- 66: tmp7 = einsum(tmp6, (0, 1, 2, 3), v.xov, (4, 0, 2), (1, 3, 4))
    .set 7 (.ein [(6, [0, 1, 2, 3]), (1, [4, 0, 2])] [1, 3, 4]) 1 1,
    -- 67: del tmp6
    .del 6,
    -- 68: tmp18 = np.copy(np.transpose(t2, (0, 1, 3, 2))) * -1
    .set 8 (.tr 0 [0, 1, 3, 2]) (-1) 1,
    -- 69: tmp18 += t2 * 2
    .add 8 (.cp 0) 2 1,
    -- 70: tmp10 = einsum(v.xov, (0, 1, 2), tmp7, (3, 2, 0), (1, 3))
    .set 9 (.ein [(1, [0, 1, 2]), (7, [3, 2, 0])] [1, 3]) 1 1,
    -- 71: tmp8 = einsum(v.xov, (0, 1, 2), tmp7, (1, 3, 0), (2, 3)) * 0.5
    .set 10 (.ein [(1, [0, 1, 2]), (7, [1, 3, 0])] [2, 3]) 1 2,
    -- 72: del tmp7
    .del 7,
    -- 73: tmp1 = einsum(t2, (0, 1, 2, 3), v.xov, (4, 1, 2), (0, 3, 4))
    .set 11 (.ein [(0, [0, 1, 2, 3]), (1, [4, 1, 2])] [0, 3, 4]) 1 1,
    -- 74: tmp2 = einsum(t2, (0, 1, 2, 3), v.xov, (4, 1, 3), (0, 2, 4))
    .set 12 (.ein [(0, [0, 1, 2, 3]), (1, [4, 1, 3])] [0, 2, 4]) 1 1,
    -- 75: tmp14 = einsum(v.xvv, (0, 1, 2), v.xoo, (0, 3, 4), (3, 4, 1, 2))
    .set 13 (.ein [(2, [0, 1, 2]), (3, [0, 3, 4])] [3, 4, 1, 2]) 1 1,
    -- 76: tmp19 = einsum(v.xov, (0, 1, 2), tmp18, (1, 3, 2, 4), (3, 4, 0))
    .set 14 (.ein [(1, [0, 1, 2]), (8, [1, 3, 2, 4])] [3, 4, 0]) 1 1,
    -- 77: del tmp18
    .del 8,
    -- 78: tmp11 = einsum(t2, (0, 1, 2, 3), tmp10, (1, 4), (0, 4, 3, 2)) * 0.5
    .set 15 (.ein [(0, [0, 1, 2, 3]), (9, [1, 4])] [0, 4, 3, 2]) 1 2,
    -- 79: del tmp10
    .del 9,
    -- 80: tmp9 = einsum(tmp8, (0, 1), t2, (2, 3, 0, 4), (2, 3, 4, 1))
    .set 16 (.ein [(10, [0, 1]), (0, [2, 3, 0, 4])] [2, 3, 4, 1]) 1 1,
    -- 81: del tmp8
    .del 10,
    -- 82: tmp5 = einsum(tmp2, (0, 1, 2), tmp1, (3, 4, 2), (0, 3, 1, 4))
    .set 17 (.ein [(12, [0, 1, 2]), (11, [3, 4, 2])] [0, 3, 1, 4]) 1 1,
    -- 83: tmp17 = einsum(t2, (0, 1, 2, 3), tmp14, (4, 1, 5, 3), (0, 4, 2, 5))
    .set 18 (.ein [(0, [0, 1, 2, 3]), (13, [4, 1, 5, 3])] [0, 4, 2, 5]) 1 1,
    -- 84: tmp20 = einsum(v.xov, (0, 1, 2), tmp19, (3, 4, 0), (1, 3, 2, 4))
    .set 19 (.ein [(1, [0, 1, 2]), (14, [3, 4, 0])] [1, 3, 2, 4]) 1 1,
    -- 85: del tmp19
    .del 14,
    -- 86: tmp15 = einsum(t2, (0, 1, 2, 3), tmp14, (4, 1, 5, 2), (0, 4, 3, 5))
    .set 20 (.ein [(0, [0, 1, 2, 3]), (13, [4, 1, 5, 2])] [0, 4, 3, 5]) 1 1,
    -- 87: del tmp14
    .del 13,
    -- 88: tmp13 = einsum(f.vv, (0, 1), t2, (2, 3, 4, 1), (2, 3, 0, 4))
    .set 21 (.ein [(4, [0, 1]), (0, [2, 3, 4, 1])] [2, 3, 0, 4]) 1 1,
    -- 89: tmp4 = einsum(f.oo, (0, 1), t2, (2, 1, 3, 4), (0, 2, 3, 4))
    .set 22 (.ein [(5, [0, 1]), (0, [2, 1, 3, 4])] [0, 2, 3, 4]) 1 1,
    -- 90: tmp0 = einsum(v.xoo, (0, 1, 2), v.xoo, (0, 3, 4), (3, 1, 2, 4))
    .set 23 (.ein [(3, [0, 1, 2]), (3, [0, 3, 4])] [3, 1, 2, 4]) 1 1,
    -- 91: tmp3 = einsum(v.xvv, (0, 1, 2), v.xvv, (0, 3, 4), (1, 3, 4, 2))
    .set 24 (.ein [(2, [0, 1, 2]), (2, [0, 3, 4])] [1, 3, 4, 2]) 1 1,
    -- 92: tmp12 = np.copy(tmp5) * 2
    .set 25 (.cp 17) 2 1,
    -- 93: del tmp5
    .del 17,
    -- 94: tmp12 += np.transpose(tmp9, (1, 0, 2, 3))
    .add 25 (.tr 16 [1, 0, 2, 3]) 1 1,
    -- 95: del tmp9
    .del 16,
    -- 96: tmp12 += np.transpose(tmp11, (0, 1, 3, 2))
    .add 25 (.tr 15 [0, 1, 3, 2]) 1 1,
    -- 97: del tmp11
    .del 15,
    -- 98: tmp21 = np.copy(tmp17)
    .set 26 (.cp 18) 1 1,
    -- 99: del tmp17
    .del 18,
    -- 100: tmp21 += np.transpose(tmp20, (1, 0, 3, 2)) * -1
    .add 26 (.tr 19 [1, 0, 3, 2]) (-1) 1,
    -- 101: del tmp20
    .del 19,
    -- 102: tmp16 = np.copy(tmp13)
    .set 27 (.cp 21) 1 1,
    -- 103: del tmp13
    .del 21,
    -- 104: tmp16 += tmp15 * -1
    .add 27 (.cp 20) (-1) 1,
    -- 105: del tmp15
    .del 20,
    -- 106: t2new = einsum(v.xov, (0, 1, 2), v.xov, (0, 3, 4), (1, 3, 2, 4))
    .set 28 (.ein [(1, [0, 1, 2]), (1, [0, 3, 4])] [1, 3, 2, 4]) 1 1,
    -- 107: t2new += einsum(tmp0, (0, 1, 2, 3), t2, (1, 3, 4, 5), (2, 0, 4, 5))
    .add 28 (.ein [(23, [0, 1, 2, 3]), (0, [1, 3, 4, 5])] [2, 0, 4, 5]) 1 1,
    -- 108: del tmp0
    .del 23,
    -- 109: t2new += einsum(tmp1, (0, 1, 2), tmp1, (3, 4, 2), (0, 3, 1, 4))
    .add 28 (.ein [(11, [0, 1, 2]), (11, [3, 4, 2])] [0, 3, 1, 4]) 1 1,
    -- 110: del tmp1
    .del 11,
    -- 111: t2new += einsum(tmp2, (0, 1, 2), tmp2, (3, 4, 2), (0, 3, 1, 4)) * 4
    .add 28 (.ein [(12, [0, 1, 2]), (12, [3, 4, 2])] [0, 3, 1, 4]) 4 1,
    -- 112: del tmp2
    .del 12,
    -- 113: t2new += einsum(tmp3, (0, 1, 2, 3), t2, (4, 5, 1, 3), (4, 5, 2, 0))
    .add 28 (.ein [(24, [0, 1, 2, 3]), (0, [4, 5, 1, 3])] [4, 5, 2, 0]) 1 1,
    -- 114: del tmp3
    .del 24,
    -- 115: t2new += np.transpose(tmp4, (0, 1, 3, 2)) * -1
    .add 28 (.tr 22 [0, 1, 3, 2]) (-1) 1,
    -- 116: t2new += np.transpose(tmp4, (1, 0, 2, 3)) * -1
    .add 28 (.tr 22 [1, 0, 2, 3]) (-1) 1,
    -- 117: del tmp4
    .del 22,
    -- 118: t2new += tmp12 * -1
    .add 28 (.cp 25) (-1) 1,
    -- 119: t2new += np.transpose(tmp12, (1, 0, 3, 2)) * -1
    .add 28 (.tr 25 [1, 0, 3, 2]) (-1) 1,
    -- 120: del tmp12
    .del 25,
    -- 121: t2new += np.transpose(tmp16, (0, 1, 3, 2))
    .add 28 (.tr 27 [0, 1, 3, 2]) 1 1,
    -- 122: t2new += np.transpose(tmp16, (1, 0, 2, 3))
    .add 28 (.tr 27 [1, 0, 2, 3]) 1 1,
    -- 123: del tmp16
    .del 27,
    -- 124: t2new += tmp21 * -1
    .add 28 (.cp 26) (-1) 1,
    -- 125: t2new += np.transpose(tmp21, (1, 0, 3, 2)) * -1
    .add 28 (.tr 26 [1, 0, 3, 2]) (-1) 1,
    -- 126: del tmp21
    .del 26
  ]
  ret := [(chars! "t2new", 28)]

end Ebcc.Gen.RDFDCD
