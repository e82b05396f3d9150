import Verif.Model.GenCode
/-!
Functions of `ebcc/codegen/RDCD.py`, written by `tools/gencode.py`.  Comments give the
number and the text of the line of each statement.
-/

set_option maxRecDepth 100000

namespace Ebcc.Gen.RDCD

/-- codegen/RDCD.py:19-39 `energy`. -/
def energy : GenFun where
  args := [chars! "t2", chars! "v.ovov"]
  body := [
    -- 36: e_cc = einsum(t2, (0, 1, 2, 3), v.ovov, (0, 2, 1, 3), ()) * 2
    .set 2 (.ein [(0, [0, 1, 2, 3]), (1, [0, 2, 1, 3])] []) 2 1,
    -- 37: e_cc += einsum(t2, (0, 1, 2, 3), v.ovov, (0, 3, 1, 2), ()) * -1
    .add 2 (.ein [(0, [0, 1, 2, 3]), (1, [0, 3, 1, 2])] []) (-1) 1
  ]
  ret := [(chars! "e_cc", 2)]

/-- codegen/RDCD.py:41-112 `update_amps`. -/
def update_amps : GenFun where
  args := [chars! "v.ovov", chars! "t2", chars! "f.vv", chars! "v.oovv", chars! "f.oo", chars! "v.vvvv", chars! "v.oooo"]
  body := [
    -- 60: tmp6 = np.copy(np.transpose(v.ovov, (0, 2, 3, 1)))
    .set 7 (.tr 0 [0, 2, 3, 1]) 1 1,
    -- 61: tmp6 += np.transpose(v.ovov, (0, 2, 1, 3)) * -0.5
    .add 7 (.tr 0 [0, 2, 1, 3]) (-1) 2,
    -- 62: tmp7 = einsum(t2, (0, 1, 2, 3), tmp6, (0, 1, 3, 4), (2, 4))
    .set 8 (.ein [(1, [0, 1, 2, 3]), (7, [0, 1, 3, 4])] [2, 4]) 1 1,
    -- 63: tmp0 = einsum(v.ovov, (0, 1, 2, 3), t2, (4, 2, 3, 5), (4, 0, 5, 1))
    .set 9 (.ein [(0, [0, 1, 2, 3]), (1, [4, 2, 3, 5])] [4, 0, 5, 1]) 1 1,
    -- 64: tmp9 = einsum(t2, (0, 1, 2, 3), tmp6, (1, 4, 2, 3), (0, 4)) * 2
    .set 10 (.ein [(1, [0, 1, 2, 3]), (7, [1, 4, 2, 3])] [0, 4]) 2 1,
    -- 65: del tmp6
    .del 7,
    -- 66: tmp1 = einsum(v.ovov, (0, 1, 2, 3), t2, (4, 2, 5, 3), (4, 0, 5, 1))
    .set 11 (.ein [(0, [0, 1, 2, 3]), (1, [4, 2, 5, 3])] [4, 0, 5, 1]) 1 1,
    -- 67: tmp8 = einsum(t2, (0, 1, 2, 3), tmp7, (4, 2), (0, 1, 3, 4))
    .set 12 (.ein [(1, [0, 1, 2, 3]), (8, [4, 2])] [0, 1, 3, 4]) 1 1,
    -- 68: del tmp7
    .del 8,
    -- 69: tmp5 = einsum(t2, (0, 1, 2, 3), tmp0, (4, 1, 5, 3), (0, 4, 2, 5))
    .set 13 (.ein [(1, [0, 1, 2, 3]), (9, [4, 1, 5, 3])] [0, 4, 2, 5]) 1 1,
    -- 70: tmp10 = einsum(t2, (0, 1, 2, 3), tmp9, (4, 1), (0, 4, 3, 2)) * 0.5
    .set 14 (.ein [(1, [0, 1, 2, 3]), (10, [4, 1])] [0, 4, 3, 2]) 1 2,
    -- 71: del tmp9
    .del 10,
    -- 72: tmp2 = einsum(t2, (0, 1, 2, 3), f.vv, (4, 3), (0, 1, 4, 2))
    .set 15 (.ein [(1, [0, 1, 2, 3]), (2, [4, 3])] [0, 1, 4, 2]) 1 1,
    -- 73: tmp3 = einsum(v.oovv, (0, 1, 2, 3), t2, (4, 1, 3, 5), (4, 0, 5, 2))
    .set 16 (.ein [(3, [0, 1, 2, 3]), (1, [4, 1, 3, 5])] [4, 0, 5, 2]) 1 1,
    -- 74: tmp14 = np.copy(np.transpose(v.ovov, (0, 2, 1, 3))) * 2
    .set 17 (.tr 0 [0, 2, 1, 3]) 2 1,
    -- 75: tmp14 += v.oovv * -1
    .add 17 (.cp 3) (-1) 1,
    -- 76: tmp14 += tmp1 * 4
    .add 17 (.cp 11) 4 1,
    -- 77: tmp11 = np.copy(tmp5) * 2
    .set 18 (.cp 13) 2 1,
    -- 78: del tmp5
    .del 13,
    -- 79: tmp11 += np.transpose(tmp8, (1, 0, 2, 3))
    .add 18 (.tr 12 [1, 0, 2, 3]) 1 1,
    -- 80: del tmp8
    .del 12,
    -- 81: tmp11 += np.transpose(tmp10, (0, 1, 3, 2))
    .add 18 (.tr 14 [0, 1, 3, 2]) 1 1,
    -- 82: del tmp10
    .del 14,
    -- 83: tmp13 = np.copy(np.transpose(v.ovov, (0, 2, 1, 3))) * -1
    .set 19 (.tr 0 [0, 2, 1, 3]) (-1) 1,
    -- 84: tmp13 += tmp0
    .add 19 (.cp 9) 1 1,
    -- 85: tmp4 = np.copy(tmp2)
    .set 20 (.cp 15) 1 1,
    -- 86: del tmp2
    .del 15,
    -- 87: tmp4 += tmp3 * -1
    .add 20 (.cp 16) (-1) 1,
    -- 88: del tmp3
    .del 16,
    -- 89: tmp12 = einsum(t2, (0, 1, 2, 3), f.oo, (4, 1), (4, 0, 2, 3))
    .set 21 (.ein [(1, [0, 1, 2, 3]), (4, [4, 1])] [4, 0, 2, 3]) 1 1,
    -- 90: t2new = einsum(v.oovv, (0, 1, 2, 3), t2, (4, 1, 5, 3), (0, 4, 2, 5)) * -1
    .set 22 (.ein [(3, [0, 1, 2, 3]), (1, [4, 1, 5, 3])] [0, 4, 2, 5]) (-1) 1,
    -- 91: t2new += np.transpose(tmp0, (1, 0, 3, 2)) * -1
    .add 22 (.tr 9 [1, 0, 3, 2]) (-1) 1,
    -- 92: del tmp0
    .del 9,
    -- 93: t2new += np.transpose(tmp1, (1, 0, 3, 2)) * 2
    .add 22 (.tr 11 [1, 0, 3, 2]) 2 1,
    -- 94: del tmp1
    .del 11,
    -- 95: t2new += einsum(v.vvvv, (0, 1, 2, 3), t2, (4, 5, 1, 3), (4, 5, 0, 2))
    .add 22 (.ein [(5, [0, 1, 2, 3]), (1, [4, 5, 1, 3])] [4, 5, 0, 2]) 1 1,
    -- 96: t2new += np.transpose(v.ovov, (0, 2, 1, 3))
    .add 22 (.tr 0 [0, 2, 1, 3]) 1 1,
    -- 97: t2new += einsum(t2, (0, 1, 2, 3), v.oooo, (4, 1, 5, 0), (4, 5, 3, 2))
    .add 22 (.ein [(1, [0, 1, 2, 3]), (6, [4, 1, 5, 0])] [4, 5, 3, 2]) 1 1,
    -- 98: t2new += np.transpose(tmp4, (0, 1, 3, 2))
    .add 22 (.tr 20 [0, 1, 3, 2]) 1 1,
    -- 99: t2new += np.transpose(tmp4, (1, 0, 2, 3))
    .add 22 (.tr 20 [1, 0, 2, 3]) 1 1,
    -- 100: del tmp4
    .del 20,
    -- 101: t2new += tmp11 * -1
    .add 22 (.cp 18) (-1) 1,
    -- 102: t2new += np.transpose(tmp11, (1, 0, 3, 2)) * -1
    .add 22 (.tr 18 [1, 0, 3, 2]) (-1) 1,
    -- 103: del tmp11
    .del 18,
    -- 104: t2new += np.transpose(tmp12, (0, 1, 3, 2)) * -1
    .add 22 (.tr 21 [0, 1, 3, 2]) (-1) 1,
    -- 105: t2new += np.transpose(tmp12, (1, 0, 2, 3)) * -1
    .add 22 (.tr 21 [1, 0, 2, 3]) (-1) 1,
    -- 106: del tmp12
    .del 21,
    -- 107: t2new += einsum(tmp13, (0, 1, 2, 3), t2, (4, 1, 3, 5), (4, 0, 5, 2))
    .add 22 (.ein [(19, [0, 1, 2, 3]), (1, [4, 1, 3, 5])] [4, 0, 5, 2]) 1 1,
    -- 108: del tmp13
    .del 19,
    -- 109: t2new += einsum(tmp14, (0, 1, 2, 3), t2, (4, 1, 5, 3), (4, 0, 5, 2))
    .add 22 (.ein [(17, [0, 1, 2, 3]), (1, [4, 1, 5, 3])] [4, 0, 5, 2]) 1 1,
    -- 110: del tmp14
    .del 17
  ]
  ret := [(chars! "t2new", 22)]

end Ebcc.Gen.RDCD
