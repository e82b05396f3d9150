import Verif.Model.GenCode
/-!
Functions of `ebcc/codegen/GQCISD.py`, written by `tools/gencode.py`.  Comments give the
number and the text of the line of each statement.
-/

set_option maxRecDepth 100000

namespace Ebcc.Gen.GQCISD

/-- codegen/GQCISD.py:19-38 `energy`. -/
def energy : GenFun where
  args := [chars! "t2", chars! "v.oovv"]
  body := [
    -- 36: e_cc = einsum(t2, (0, 1, 2, 3), v.oovv, (0, 1, 2, 3), ()) * 0.25
    .set 2 (.ein [(0, [0, 1, 2, 3]), (1, [0, 1, 2, 3])] []) 1 4
  ]
  ret := [(chars! "e_cc", 2)]

/-- codegen/GQCISD.py:40-126 `update_amps`. -/
def update_amps : GenFun where
  args := [chars! "v.oovv", chars! "t2", chars! "f.vv", chars! "v.ooov", chars! "t1", chars! "v.ovvv", chars! "v.ovov", chars! "f.oo", chars! "v.oooo", chars! "v.ovoo", chars! "f.ov", chars! "v.vvvv"]
  body := [
    -- 63: tmp7 = einsum(v.oovv, (0, 1, 2, 3), t2, (0, 1, 4, 3), (4, 2))
    .set 12 (.ein [(0, [0, 1, 2, 3]), (1, [0, 1, 4, 3])] [4, 2]) 1 1,
    -- 64: tmp2 = einsum(t2, (0, 1, 2, 3), v.oovv, (4, 1, 2, 3), (0, 4))
    .set 13 (.ein [(1, [0, 1, 2, 3]), (0, [4, 1, 2, 3])] [0, 4]) 1 1,
    -- 65: tmp11 = einsum(f.vv, (0, 1), t2, (2, 3, 4, 1), (2, 3, 0, 4))
    .set 14 (.ein [(2, [0, 1]), (1, [2, 3, 4, 1])] [2, 3, 0, 4]) 1 1,
    -- 66: tmp10 = einsum(v.ooov, (0, 1, 2, 3), t1, (2, 4), (0, 1, 4, 3))
    .set 15 (.ein [(3, [0, 1, 2, 3]), (4, [2, 4])] [0, 1, 4, 3]) 1 1,
    -- 67: tmp5 = einsum(t2, (0, 1, 2, 3), v.oovv, (4, 1, 5, 3), (0, 4, 2, 5))
    .set 16 (.ein [(1, [0, 1, 2, 3]), (0, [4, 1, 5, 3])] [0, 4, 2, 5]) 1 1,
    -- 68: tmp14 = einsum(v.ovvv, (0, 1, 2, 3), t1, (4, 1), (4, 0, 2, 3))
    .set 17 (.ein [(5, [0, 1, 2, 3]), (4, [4, 1])] [4, 0, 2, 3]) 1 1,
    -- 69: tmp8 = einsum(tmp7, (0, 1), t2, (2, 3, 4, 1), (2, 3, 4, 0))
    .set 18 (.ein [(12, [0, 1]), (1, [2, 3, 4, 1])] [2, 3, 4, 0]) 1 1,
    -- 70: del tmp7
    .del 12,
    -- 71: tmp4 = einsum(v.ovov, (0, 1, 2, 3), t2, (4, 2, 5, 1), (4, 0, 5, 3))
    .set 19 (.ein [(6, [0, 1, 2, 3]), (1, [4, 2, 5, 1])] [4, 0, 5, 3]) 1 1,
    -- 72: tmp13 = einsum(f.oo, (0, 1), t2, (2, 1, 3, 4), (0, 2, 3, 4))
    .set 20 (.ein [(7, [0, 1]), (1, [2, 1, 3, 4])] [0, 2, 3, 4]) 1 1,
    -- 73: tmp9 = einsum(tmp2, (0, 1), t2, (2, 1, 3, 4), (2, 0, 3, 4))
    .set 21 (.ein [(13, [0, 1]), (1, [2, 1, 3, 4])] [2, 0, 3, 4]) 1 1,
    -- 74: tmp15 = np.copy(v.oooo)
    .set 22 (.cp 8) 1 1,
    -- 75: tmp15 += einsum(t2, (0, 1, 2, 3), v.oovv, (4, 5, 2, 3), (4, 5, 0, 1)) * 0.5
    .add 22 (.ein [(1, [0, 1, 2, 3]), (0, [4, 5, 2, 3])] [4, 5, 0, 1]) 1 2,
    -- 76: tmp12 = np.copy(np.transpose(tmp10, (1, 0, 2, 3))) * -1
    .set 23 (.tr 15 [1, 0, 2, 3]) (-1) 1,
    -- 77: del tmp10
    .del 15,
    -- 78: tmp12 += np.transpose(tmp11, (1, 0, 2, 3)) * -1
    .add 23 (.tr 14 [1, 0, 2, 3]) (-1) 1,
    -- 79: del tmp11
    .del 14,
    -- 80: tmp6 = einsum(tmp5, (0, 1, 2, 3), t2, (4, 1, 5, 3), (4, 0, 5, 2))
    .set 24 (.ein [(16, [0, 1, 2, 3]), (1, [4, 1, 5, 3])] [4, 0, 5, 2]) 1 1,
    -- 81: del tmp5
    .del 16,
    -- 82: tmp3 = np.copy(f.oo) * 2
    .set 25 (.cp 7) 2 1,
    -- 83: tmp3 += np.transpose(tmp2, (1, 0))
    .add 25 (.tr 13 [1, 0]) 1 1,
    -- 84: del tmp2
    .del 13,
    -- 85: tmp0 = np.copy(np.transpose(v.ovoo, (0, 2, 3, 1))) * -1
    .set 26 (.tr 9 [0, 2, 3, 1]) (-1) 1,
    -- 86: tmp0 += einsum(v.oovv, (0, 1, 2, 3), t1, (4, 3), (4, 0, 1, 2))
    .add 26 (.ein [(0, [0, 1, 2, 3]), (4, [4, 3])] [4, 0, 1, 2]) 1 1,
    -- 87: tmp1 = np.copy(f.ov)
    .set 27 (.cp 10) 1 1,
    -- 88: tmp1 += einsum(t1, (0, 1), v.oovv, (2, 0, 3, 1), (2, 3))
    .add 27 (.ein [(4, [0, 1]), (0, [2, 0, 3, 1])] [2, 3]) 1 1,
    -- 89: t2new = einsum(v.vvvv, (0, 1, 2, 3), t2, (4, 5, 2, 3), (4, 5, 0, 1)) * 0.5
    .set 28 (.ein [(11, [0, 1, 2, 3]), (1, [4, 5, 2, 3])] [4, 5, 0, 1]) 1 2,
    -- 90: t2new += v.oovv
    .add 28 (.cp 0) 1 1,
    -- 91: t2new += tmp4 * -1
    .add 28 (.cp 19) (-1) 1,
    -- 92: t2new += np.transpose(tmp4, (0, 1, 3, 2))
    .add 28 (.tr 19 [0, 1, 3, 2]) 1 1,
    -- 93: t2new += np.transpose(tmp4, (1, 0, 2, 3))
    .add 28 (.tr 19 [1, 0, 2, 3]) 1 1,
    -- 94: t2new += np.transpose(tmp4, (1, 0, 3, 2)) * -1
    .add 28 (.tr 19 [1, 0, 3, 2]) (-1) 1,
    -- 95: del tmp4
    .del 19,
    -- 96: t2new += tmp6
    .add 28 (.cp 24) 1 1,
    -- 97: t2new += np.transpose(tmp6, (0, 1, 3, 2)) * -1
    .add 28 (.tr 24 [0, 1, 3, 2]) (-1) 1,
    -- 98: del tmp6
    .del 24,
    -- 99: t2new += tmp8 * -0.5
    .add 28 (.cp 18) (-1) 2,
    -- 100: t2new += np.transpose(tmp8, (0, 1, 3, 2)) * 0.5
    .add 28 (.tr 18 [0, 1, 3, 2]) 1 2,
    -- 101: del tmp8
    .del 18,
    -- 102: t2new += np.transpose(tmp9, (0, 1, 3, 2)) * 0.5
    .add 28 (.tr 21 [0, 1, 3, 2]) 1 2,
    -- 103: t2new += np.transpose(tmp9, (1, 0, 3, 2)) * -0.5
    .add 28 (.tr 21 [1, 0, 3, 2]) (-1) 2,
    -- 104: del tmp9
    .del 21,
    -- 105: t2new += tmp12 * -1
    .add 28 (.cp 23) (-1) 1,
    -- 106: t2new += np.transpose(tmp12, (0, 1, 3, 2))
    .add 28 (.tr 23 [0, 1, 3, 2]) 1 1,
    -- 107: del tmp12
    .del 23,
    -- 108: t2new += np.transpose(tmp13, (0, 1, 3, 2)) * -1
    .add 28 (.tr 20 [0, 1, 3, 2]) (-1) 1,
    -- 109: t2new += np.transpose(tmp13, (1, 0, 3, 2))
    .add 28 (.tr 20 [1, 0, 3, 2]) 1 1,
    -- 110: del tmp13
    .del 20,
    -- 111: t2new += np.transpose(tmp14, (0, 1, 3, 2))
    .add 28 (.tr 17 [0, 1, 3, 2]) 1 1,
    -- 112: t2new += np.transpose(tmp14, (1, 0, 3, 2)) * -1
    .add 28 (.tr 17 [1, 0, 3, 2]) (-1) 1,
    -- 113: del tmp14
    .del 17,
    -- 114: t2new += einsum(t2, (0, 1, 2, 3), tmp15, (0, 1, 4, 5), (4, 5, 2, 3)) * 0.5
    .add 28 (.ein [(1, [0, 1, 2, 3]), (22, [0, 1, 4, 5])] [4, 5, 2, 3]) 1 2,
    -- 115: del tmp15
    .del 22,
    -- 116: t1new = einsum(t1, (0, 1), v.ovov, (2, 1, 0, 3), (2, 3)) * -1
    .set 29 (.ein [(4, [0, 1]), (6, [2, 1, 0, 3])] [2, 3]) (-1) 1,
    -- 117: t1new += einsum(f.vv, (0, 1), t1, (2, 1), (2, 0))
    .add 29 (.ein [(2, [0, 1]), (4, [2, 1])] [2, 0]) 1 1,
    -- 118: t1new += einsum(v.ovvv, (0, 1, 2, 3), t2, (4, 0, 2, 3), (4, 1)) * -0.5
    .add 29 (.ein [(5, [0, 1, 2, 3]), (1, [4, 0, 2, 3])] [4, 1]) (-1) 2,
    -- 119: t1new += einsum(tmp0, (0, 1, 2, 3), t2, (1, 2, 4, 3), (0, 4)) * 0.5
    .add 29 (.ein [(26, [0, 1, 2, 3]), (1, [1, 2, 4, 3])] [0, 4]) 1 2,
    -- 120: del tmp0
    .del 26,
    -- 121: t1new += einsum(t2, (0, 1, 2, 3), tmp1, (1, 3), (0, 2))
    .add 29 (.ein [(1, [0, 1, 2, 3]), (27, [1, 3])] [0, 2]) 1 1,
    -- 122: del tmp1
    .del 27,
    -- 123: t1new += einsum(tmp3, (0, 1), t1, (0, 2), (1, 2)) * -0.5
    .add 29 (.ein [(25, [0, 1]), (4, [0, 2])] [1, 2]) (-1) 2,
    -- 124: del tmp3
    .del 25
  ]
  ret := [(chars! "t1new", 29), (chars! "t2new", 28)]

end Ebcc.Gen.GQCISD
