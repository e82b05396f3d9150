import Verif.Model.GenCode
/-!
Functions of `ebcc/codegen/UMP3.py`, written by `tools/gencode.py`.  Comments give the
number and the text of the line of each statement.
-/

set_option maxRecDepth 100000

namespace Ebcc.Gen.UMP3

/-- codegen/UMP3.py:19-71 `energy`. -/
def energy : GenFun where
  args := [chars! "v.aaaa.ovov", chars! "v.aaaa.oovv", chars! "v.bbbb.ovov", chars! "v.bbbb.oovv", chars! "t2.bbbb", chars! "t2.aaaa", chars! "v.aaaa.vvvv", chars! "t2.abab", chars! "v.aabb.ovov", chars! "v.aabb.oovv", chars! "v.aabb.vvoo", chars! "v.aabb.vvvv", chars! "v.bbbb.vvvv", chars! "v.bbbb.oooo", chars! "v.aaaa.oooo", chars! "v.aabb.oooo"]
  body := [
    -- 35: tmp3 = np.copy(np.transpose(v.aaaa.ovov, (0, 2, 1, 3)))
    .set 16 (.tr 0 [0, 2, 1, 3]) 1 1,
    -- 36: tmp3 += v.aaaa.oovv * -1
    .add 16 (.cp 1) (-1) 1,
    -- 37: tmp4 = np.copy(np.transpose(v.bbbb.ovov, (0, 2, 1, 3)))
    .set 17 (.tr 2 [0, 2, 1, 3]) 1 1,
    -- 38: tmp4 += v.bbbb.oovv * -1
    .add 17 (.cp 3) (-1) 1,
    -- 39: tmp0 = einsum(t2.bbbb, (0, 1, 2, 3), t2.bbbb, (4, 5, 2, 3), (4, 0, 1, 5))
    .set 18 (.ein [(4, [0, 1, 2, 3]), (4, [4, 5, 2, 3])] [4, 0, 1, 5]) 1 1,
    -- 40: tmp6 = np.copy(np.transpose(v.aaaa.ovov, (0, 2, 1, 3)))
    .set 19 (.tr 0 [0, 2, 1, 3]) 1 1,
    -- 41: tmp6 += einsum(t2.aaaa, (0, 1, 2, 3), v.aaaa.vvvv, (4, 3, 5, 2), (0, 1, 4, 5)) * -1
    .add 19 (.ein [(5, [0, 1, 2, 3]), (6, [4, 3, 5, 2])] [0, 1, 4, 5]) (-1) 1,
    -- 42: tmp6 += einsum(tmp3, (0, 1, 2, 3), t2.aaaa, (4, 0, 5, 2), (1, 4, 3, 5)) * 4
    .add 19 (.ein [(16, [0, 1, 2, 3]), (5, [4, 0, 5, 2])] [1, 4, 3, 5]) 4 1,
    -- 43: tmp1 = einsum(t2.aaaa, (0, 1, 2, 3), t2.aaaa, (4, 5, 2, 3), (0, 4, 5, 1))
    .set 20 (.ein [(5, [0, 1, 2, 3]), (5, [4, 5, 2, 3])] [0, 4, 5, 1]) 1 1,
    -- 44: tmp2 = einsum(t2.abab, (0, 1, 2, 3), t2.abab, (4, 5, 2, 3), (0, 4, 1, 5))
    .set 21 (.ein [(7, [0, 1, 2, 3]), (7, [4, 5, 2, 3])] [0, 4, 1, 5]) 1 1,
    -- 45: tmp5 = np.copy(np.transpose(v.aabb.ovov, (0, 2, 1, 3)))
    .set 22 (.tr 8 [0, 2, 1, 3]) 1 1,
    -- 46: tmp5 += einsum(t2.aaaa, (0, 1, 2, 3), v.aabb.ovov, (1, 3, 4, 5), (0, 4, 2, 5)) * 4
    .add 22 (.ein [(5, [0, 1, 2, 3]), (8, [1, 3, 4, 5])] [0, 4, 2, 5]) 4 1,
    -- 47: tmp5 += einsum(v.aabb.oovv, (0, 1, 2, 3), t2.abab, (1, 4, 5, 3), (0, 4, 5, 2)) * -1
    .add 22 (.ein [(9, [0, 1, 2, 3]), (7, [1, 4, 5, 3])] [0, 4, 5, 2]) (-1) 1,
    -- 48: tmp5 += einsum(v.aabb.vvoo, (0, 1, 2, 3), t2.abab, (4, 3, 1, 5), (4, 2, 0, 5)) * -1
    .add 22 (.ein [(10, [0, 1, 2, 3]), (7, [4, 3, 1, 5])] [4, 2, 0, 5]) (-1) 1,
    -- 49: tmp5 += einsum(t2.bbbb, (0, 1, 2, 3), v.aabb.ovov, (4, 5, 1, 3), (4, 0, 5, 2)) * 4
    .add 22 (.ein [(4, [0, 1, 2, 3]), (8, [4, 5, 1, 3])] [4, 0, 5, 2]) 4 1,
    -- 50: tmp5 += einsum(v.aabb.vvvv, (0, 1, 2, 3), t2.abab, (4, 5, 1, 3), (4, 5, 0, 2))
    .add 22 (.ein [(11, [0, 1, 2, 3]), (7, [4, 5, 1, 3])] [4, 5, 0, 2]) 1 1,
    -- 51: tmp5 += einsum(tmp3, (0, 1, 2, 3), t2.abab, (0, 4, 2, 5), (1, 4, 3, 5))
    .add 22 (.ein [(16, [0, 1, 2, 3]), (7, [0, 4, 2, 5])] [1, 4, 3, 5]) 1 1,
    -- 52: del tmp3
    .del 16,
    -- 53: tmp5 += einsum(tmp4, (0, 1, 2, 3), t2.abab, (4, 0, 5, 2), (4, 1, 5, 3))
    .add 22 (.ein [(17, [0, 1, 2, 3]), (7, [4, 0, 5, 2])] [4, 1, 5, 3]) 1 1,
    -- 54: tmp7 = np.copy(np.transpose(v.bbbb.ovov, (0, 2, 1, 3)))
    .set 23 (.tr 2 [0, 2, 1, 3]) 1 1,
    -- 55: tmp7 += einsum(t2.bbbb, (0, 1, 2, 3), v.bbbb.vvvv, (4, 2, 5, 3), (0, 1, 4, 5))
    .add 23 (.ein [(4, [0, 1, 2, 3]), (12, [4, 2, 5, 3])] [0, 1, 4, 5]) 1 1,
    -- 56: tmp7 += einsum(tmp4, (0, 1, 2, 3), t2.bbbb, (4, 0, 5, 2), (1, 4, 3, 5)) * 4
    .add 23 (.ein [(17, [0, 1, 2, 3]), (4, [4, 0, 5, 2])] [1, 4, 3, 5]) 4 1,
    -- 57: del tmp4
    .del 17,
    -- 58: e_mp = einsum(v.bbbb.oooo, (0, 1, 2, 3), tmp0, (1, 0, 2, 3), ())
    .set 24 (.ein [(13, [0, 1, 2, 3]), (18, [1, 0, 2, 3])] []) 1 1,
    -- 59: del tmp0
    .del 18,
    -- 60: e_mp += einsum(tmp1, (0, 1, 2, 3), v.aaaa.oooo, (1, 0, 2, 3), ())
    .add 24 (.ein [(20, [0, 1, 2, 3]), (14, [1, 0, 2, 3])] []) 1 1,
    -- 61: del tmp1
    .del 20,
    -- 62: e_mp += einsum(tmp2, (0, 1, 2, 3), v.aabb.oooo, (1, 0, 3, 2), ())
    .add 24 (.ein [(21, [0, 1, 2, 3]), (15, [1, 0, 3, 2])] []) 1 1,
    -- 63: del tmp2
    .del 21,
    -- 64: e_mp += einsum(tmp5, (0, 1, 2, 3), t2.abab, (0, 1, 2, 3), ())
    .add 24 (.ein [(22, [0, 1, 2, 3]), (7, [0, 1, 2, 3])] []) 1 1,
    -- 65: del tmp5
    .del 22,
    -- 66: e_mp += einsum(t2.aaaa, (0, 1, 2, 3), tmp6, (0, 1, 2, 3), ())
    .add 24 (.ein [(5, [0, 1, 2, 3]), (19, [0, 1, 2, 3])] []) 1 1,
    -- 67: del tmp6
    .del 19,
    -- 68: e_mp += einsum(t2.bbbb, (0, 1, 2, 3), tmp7, (0, 1, 2, 3), ())
    .add 24 (.ein [(4, [0, 1, 2, 3]), (23, [0, 1, 2, 3])] []) 1 1,
    -- 69: del tmp7
    .del 23
  ]
  ret := [(chars! "e_mp", 24)]

end Ebcc.Gen.UMP3
