import Verif.Model.GenCode
/-!
Functions of `ebcc/codegen/RLCCSD.py`, written by `tools/gencode.py`.  Comments give the
number and the text of the line of each statement.
-/

set_option maxRecDepth 100000

namespace Ebcc.Gen.RLCCSD

/-- codegen/RLCCSD.py:17-34 `energy`. -/
def energy : GenFun where
  args := [chars! "v.ovov", chars! "t2", chars! "t1", chars! "f.ov"]
  body := [
    -- 30: e_cc = einsum(v.ovov, (0, 1, 2, 3), t2, (0, 2, 1, 3), ()) * 2
    .set 4 (.ein [(0, [0, 1, 2, 3]), (1, [0, 2, 1, 3])] []) 2 1,
    -- 31: e_cc += einsum(t2, (0, 1, 2, 3), v.ovov, (0, 3, 1, 2), ()) * -1
    .add 4 (.ein [(1, [0, 1, 2, 3]), (0, [0, 3, 1, 2])] []) (-1) 1,
    -- 32: e_cc += einsum(t1, (0, 1), f.ov, (0, 1), ()) * 2
    .add 4 (.ein [(2, [0, 1]), (3, [0, 1])] []) 2 1
  ]
  ret := [(chars! "e_cc", 4)]

/-- codegen/RLCCSD.py:36-106 `update_amps`. -/
def update_amps : GenFun where
  args := [chars! "f.ov", chars! "t1", chars! "f.oo", chars! "f.vv", chars! "v.ovvv", chars! "t2", chars! "v.ooov", chars! "v.ovoo", chars! "v.ovov", chars! "v.oovv", chars! "v.vvvv", chars! "v.oooo"]
  body := [
    -- 50: t1new = np.copy(f.ov)
    .set 12 (.cp 0) 1 1,
    -- 51: t1new += einsum(t1, (0, 1), f.oo, (2, 0), (2, 1)) * -1
    .add 12 (.ein [(1, [0, 1]), (2, [2, 0])] [2, 1]) (-1) 1,
    -- 52: t1new += einsum(f.vv, (0, 1), t1, (2, 1), (2, 0))
    .add 12 (.ein [(3, [0, 1]), (1, [2, 1])] [2, 0]) 1 1,
    -- 53: tmp0 = np.copy(v.ovvv) * -0.5
    .set 13 (.cp 4) (-1) 2,
    -- 54: tmp0 += np.transpose(v.ovvv, (0, 2, 1, 3))
    .add 13 (.tr 4 [0, 2, 1, 3]) 1 1,
    -- 55: t1new += einsum(t2, (0, 1, 2, 3), tmp0, (1, 2, 3, 4), (0, 4)) * 2
    .add 12 (.ein [(5, [0, 1, 2, 3]), (13, [1, 2, 3, 4])] [0, 4]) 2 1,
    -- 56: del tmp0
    .del 13,
    -- 57: tmp1 = np.copy(v.ooov) * -0.5
    .set 14 (.cp 6) (-1) 2,
    -- 58: tmp1 += np.transpose(v.ovoo, (0, 2, 3, 1))
    .add 14 (.tr 7 [0, 2, 3, 1]) 1 1,
    -- 59: t1new += einsum(tmp1, (0, 1, 2, 3), t2, (0, 2, 3, 4), (1, 4)) * -2
    .add 12 (.ein [(14, [0, 1, 2, 3]), (5, [0, 2, 3, 4])] [1, 4]) (-2) 1,
    -- 60: del tmp1
    .del 14,
    -- 61: tmp2 = np.copy(np.transpose(v.ovov, (0, 2, 1, 3)))
    .set 15 (.tr 8 [0, 2, 1, 3]) 1 1,
    -- 62: tmp2 += v.oovv * -0.5
    .add 15 (.cp 9) (-1) 2,
    -- 63: t1new += einsum(t1, (0, 1), tmp2, (0, 2, 1, 3), (2, 3)) * 2
    .add 12 (.ein [(1, [0, 1]), (15, [0, 2, 1, 3])] [2, 3]) 2 1,
    -- 64: del tmp2
    .del 15,
    -- 65: tmp3 = np.copy(np.transpose(t2, (0, 1, 3, 2))) * -0.5
    .set 16 (.tr 5 [0, 1, 3, 2]) (-1) 2,
    -- 66: tmp3 += t2
    .add 16 (.cp 5) 1 1,
    -- 67: t1new += einsum(f.ov, (0, 1), tmp3, (0, 2, 1, 3), (2, 3)) * 2
    .add 12 (.ein [(0, [0, 1]), (16, [0, 2, 1, 3])] [2, 3]) 2 1,
    -- 68: del tmp3
    .del 16,
    -- 69: t2new = einsum(v.vvvv, (0, 1, 2, 3), t2, (4, 5, 1, 3), (4, 5, 0, 2))
    .set 17 (.ein [(10, [0, 1, 2, 3]), (5, [4, 5, 1, 3])] [4, 5, 0, 2]) 1 1,
    -- 70: t2new += np.transpose(v.ovov, (0, 2, 1, 3))
    .add 17 (.tr 8 [0, 2, 1, 3]) 1 1,
    -- 71: t2new += einsum(t2, (0, 1, 2, 3), v.oooo, (4, 1, 5, 0), (4, 5, 3, 2))
    .add 17 (.ein [(5, [0, 1, 2, 3]), (11, [4, 1, 5, 0])] [4, 5, 3, 2]) 1 1,
    -- 72: tmp4 = einsum(v.ooov, (0, 1, 2, 3), t1, (1, 4), (0, 2, 4, 3))
    .set 18 (.ein [(6, [0, 1, 2, 3]), (1, [1, 4])] [0, 2, 4, 3]) 1 1,
    -- 73: tmp8 = np.copy(tmp4)
    .set 19 (.cp 18) 1 1,
    -- 74: del tmp4
    .del 18,
    -- 75: tmp5 = einsum(v.oovv, (0, 1, 2, 3), t2, (4, 1, 5, 3), (4, 0, 5, 2))
    .set 20 (.ein [(9, [0, 1, 2, 3]), (5, [4, 1, 5, 3])] [4, 0, 5, 2]) 1 1,
    -- 76: tmp8 += tmp5
    .add 19 (.cp 20) 1 1,
    -- 77: del tmp5
    .del 20,
    -- 78: tmp6 = np.copy(np.transpose(t2, (0, 1, 3, 2))) * -1
    .set 21 (.tr 5 [0, 1, 3, 2]) (-1) 1,
    -- 79: tmp6 += t2 * 2
    .add 21 (.cp 5) 2 1,
    -- 80: tmp7 = einsum(tmp6, (0, 1, 2, 3), v.ovov, (4, 5, 0, 2), (4, 1, 5, 3))
    .set 22 (.ein [(21, [0, 1, 2, 3]), (8, [4, 5, 0, 2])] [4, 1, 5, 3]) 1 1,
    -- 81: del tmp6
    .del 21,
    -- 82: tmp8 += np.transpose(tmp7, (1, 0, 3, 2)) * -1
    .add 19 (.tr 22 [1, 0, 3, 2]) (-1) 1,
    -- 83: del tmp7
    .del 22,
    -- 84: t2new += tmp8 * -1
    .add 17 (.cp 19) (-1) 1,
    -- 85: t2new += np.transpose(tmp8, (1, 0, 3, 2)) * -1
    .add 17 (.tr 19 [1, 0, 3, 2]) (-1) 1,
    -- 86: del tmp8
    .del 19,
    -- 87: tmp9 = einsum(t2, (0, 1, 2, 3), f.oo, (4, 1), (4, 0, 2, 3))
    .set 23 (.ein [(5, [0, 1, 2, 3]), (2, [4, 1])] [4, 0, 2, 3]) 1 1,
    -- 88: tmp11 = np.copy(tmp9)
    .set 24 (.cp 23) 1 1,
    -- 89: del tmp9
    .del 23,
    -- 90: tmp10 = einsum(v.oovv, (0, 1, 2, 3), t2, (4, 1, 3, 5), (4, 0, 5, 2))
    .set 25 (.ein [(9, [0, 1, 2, 3]), (5, [4, 1, 3, 5])] [4, 0, 5, 2]) 1 1,
    -- 91: tmp11 += tmp10
    .add 24 (.cp 25) 1 1,
    -- 92: del tmp10
    .del 25,
    -- 93: t2new += np.transpose(tmp11, (0, 1, 3, 2)) * -1
    .add 17 (.tr 24 [0, 1, 3, 2]) (-1) 1,
    -- 94: t2new += np.transpose(tmp11, (1, 0, 2, 3)) * -1
    .add 17 (.tr 24 [1, 0, 2, 3]) (-1) 1,
    -- 95: del tmp11
    .del 24,
    -- 96: tmp12 = einsum(f.vv, (0, 1), t2, (2, 3, 4, 1), (2, 3, 0, 4))
    .set 26 (.ein [(3, [0, 1]), (5, [2, 3, 4, 1])] [2, 3, 0, 4]) 1 1,
    -- 97: tmp14 = np.copy(tmp12)
    .set 27 (.cp 26) 1 1,
    -- 98: del tmp12
    .del 26,
    -- 99: tmp13 = einsum(t1, (0, 1), v.ovvv, (2, 3, 4, 1), (0, 2, 3, 4))
    .set 28 (.ein [(1, [0, 1]), (4, [2, 3, 4, 1])] [0, 2, 3, 4]) 1 1,
    -- 100: tmp14 += tmp13
    .add 27 (.cp 28) 1 1,
    -- 101: del tmp13
    .del 28,
    -- 102: t2new += np.transpose(tmp14, (0, 1, 3, 2))
    .add 17 (.tr 27 [0, 1, 3, 2]) 1 1,
    -- 103: t2new += np.transpose(tmp14, (1, 0, 2, 3))
    .add 17 (.tr 27 [1, 0, 2, 3]) 1 1,
    -- 104: del tmp14
    .del 27
  ]
  ret := [(chars! "t1new", 12), (chars! "t2new", 17)]

end Ebcc.Gen.RLCCSD
