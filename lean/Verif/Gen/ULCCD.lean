import Verif.Model.GenCode
/-!
Functions of `ebcc/codegen/ULCCD.py`, written by `tools/gencode.py`.  Comments give the
number and the text of the line of each statement.
-/

set_option maxRecDepth 100000

namespace Ebcc.Gen.ULCCD

/-- codegen/ULCCD.py:17-32 `energy`. -/
def energy : GenFun where
  args := [chars! "t2.abab", chars! "v.aabb.ovov", chars! "v.aaaa.ovov", chars! "t2.aaaa", chars! "t2.bbbb", chars! "v.bbbb.ovov"]
  body := [
    -- 28: e_cc = einsum(t2.abab, (0, 1, 2, 3), v.aabb.ovov, (0, 2, 1, 3), ())
    .set 6 (.ein [(0, [0, 1, 2, 3]), (1, [0, 2, 1, 3])] []) 1 1,
    -- 29: e_cc += einsum(v.aaaa.ovov, (0, 1, 2, 3), t2.aaaa, (0, 2, 3, 1), ()) * -1
    .add 6 (.ein [(2, [0, 1, 2, 3]), (3, [0, 2, 3, 1])] []) (-1) 1,
    -- 30: e_cc += einsum(t2.bbbb, (0, 1, 2, 3), v.bbbb.ovov, (0, 3, 1, 2), ()) * -1
    .add 6 (.ein [(4, [0, 1, 2, 3]), (5, [0, 3, 1, 2])] []) (-1) 1
  ]
  ret := [(chars! "e_cc", 6)]

/-- codegen/ULCCD.py:34-115 `update_amps`. -/
def update_amps : GenFun where
  args := [chars! "t2.aaaa", chars! "f.aa.oo", chars! "v.aaaa.oooo", chars! "f.aa.vv", chars! "v.aaaa.ovov", chars! "t2.abab", chars! "v.aabb.ovov", chars! "v.aaaa.oovv", chars! "v.aaaa.vvvv", chars! "f.bb.oo", chars! "v.aabb.oooo", chars! "f.bb.vv", chars! "t2.bbbb", chars! "v.aabb.vvoo", chars! "v.bbbb.ovov", chars! "v.bbbb.oovv", chars! "v.aabb.oovv", chars! "v.aabb.vvvv", chars! "v.bbbb.oooo", chars! "v.bbbb.vvvv"]
  body := [
    -- 46: tmp0 = einsum(t2.aaaa, (0, 1, 2, 3), f.aa.oo, (4, 1), (4, 0, 2, 3))
    .set 20 (.ein [(0, [0, 1, 2, 3]), (1, [4, 1])] [4, 0, 2, 3]) 1 1,
    -- 48: t2new.aaaa = np.copy(np.transpose(tmp0, (1, 0, 3, 2))) * 2
    .set 21 (.tr 20 [1, 0, 3, 2]) 2 1,
    -- 49: t2new.aaaa += np.transpose(tmp0, (0, 1, 3, 2)) * -2
    .add 21 (.tr 20 [0, 1, 3, 2]) (-2) 1,
    -- 50: del tmp0
    .del 20,
    -- 51: t2new.aaaa += einsum(t2.aaaa, (0, 1, 2, 3), v.aaaa.oooo, (4, 0, 5, 1), (4, 5, 2, 3)) * 2
    .add 21 (.ein [(0, [0, 1, 2, 3]), (2, [4, 0, 5, 1])] [4, 5, 2, 3]) 2 1,
    -- 52: tmp1 = einsum(t2.aaaa, (0, 1, 2, 3), f.aa.vv, (4, 3), (0, 1, 4, 2))
    .set 22 (.ein [(0, [0, 1, 2, 3]), (3, [4, 3])] [0, 1, 4, 2]) 1 1,
    -- 53: t2new.aaaa += np.transpose(tmp1, (1, 0, 2, 3)) * 2
    .add 21 (.tr 22 [1, 0, 2, 3]) 2 1,
    -- 54: t2new.aaaa += np.transpose(tmp1, (1, 0, 3, 2)) * -2
    .add 21 (.tr 22 [1, 0, 3, 2]) (-2) 1,
    -- 55: del tmp1
    .del 22,
    -- 56: t2new.aaaa += np.transpose(v.aaaa.ovov, (0, 2, 1, 3))
    .add 21 (.tr 4 [0, 2, 1, 3]) 1 1,
    -- 57: tmp2 = einsum(t2.abab, (0, 1, 2, 3), v.aabb.ovov, (4, 5, 1, 3), (0, 4, 2, 5))
    .set 23 (.ein [(5, [0, 1, 2, 3]), (6, [4, 5, 1, 3])] [0, 4, 2, 5]) 1 1,
    -- 58: t2new.aaaa += np.transpose(tmp2, (1, 0, 3, 2))
    .add 21 (.tr 23 [1, 0, 3, 2]) 1 1,
    -- 59: tmp3 = np.copy(np.transpose(v.aaaa.ovov, (0, 2, 1, 3)))
    .set 24 (.tr 4 [0, 2, 1, 3]) 1 1,
    -- 60: tmp3 += v.aaaa.oovv * -1
    .add 24 (.cp 7) (-1) 1,
    -- 61: tmp4 = einsum(tmp3, (0, 1, 2, 3), t2.aaaa, (4, 0, 5, 2), (4, 1, 5, 3)) * 2
    .set 25 (.ein [(24, [0, 1, 2, 3]), (0, [4, 0, 5, 2])] [4, 1, 5, 3]) 2 1,
    -- 62: t2new.aaaa += np.transpose(tmp4, (1, 0, 3, 2))
    .add 21 (.tr 25 [1, 0, 3, 2]) 1 1,
    -- 63: t2new.aaaa += np.transpose(v.aaaa.ovov, (0, 2, 3, 1)) * -1
    .add 21 (.tr 4 [0, 2, 3, 1]) (-1) 1,
    -- 64: t2new.aaaa += np.transpose(tmp2, (1, 0, 2, 3)) * -1
    .add 21 (.tr 23 [1, 0, 2, 3]) (-1) 1,
    -- 65: t2new.aaaa += np.transpose(tmp4, (1, 0, 2, 3)) * -1
    .add 21 (.tr 25 [1, 0, 2, 3]) (-1) 1,
    -- 66: t2new.aaaa += np.transpose(tmp2, (0, 1, 3, 2)) * -1
    .add 21 (.tr 23 [0, 1, 3, 2]) (-1) 1,
    -- 67: t2new.aaaa += np.transpose(tmp4, (0, 1, 3, 2)) * -1
    .add 21 (.tr 25 [0, 1, 3, 2]) (-1) 1,
    -- 68: t2new.aaaa += tmp2
    .add 21 (.cp 23) 1 1,
    -- 69: del tmp2
    .del 23,
    -- 70: t2new.aaaa += tmp4
    .add 21 (.cp 25) 1 1,
    -- 71: del tmp4
    .del 25,
    -- 72: t2new.aaaa += einsum(v.aaaa.vvvv, (0, 1, 2, 3), t2.aaaa, (4, 5, 1, 3), (4, 5, 0, 2)) * 2
    .add 21 (.ein [(8, [0, 1, 2, 3]), (0, [4, 5, 1, 3])] [4, 5, 0, 2]) 2 1,
    -- 73: t2new.abab = einsum(f.bb.oo, (0, 1), t2.abab, (2, 1, 3, 4), (2, 0, 3, 4)) * -1
    .set 26 (.ein [(9, [0, 1]), (5, [2, 1, 3, 4])] [2, 0, 3, 4]) (-1) 1,
    -- 74: t2new.abab += einsum(t2.abab, (0, 1, 2, 3), v.aabb.oooo, (4, 0, 5, 1), (4, 5, 2, 3))
    .add 26 (.ein [(5, [0, 1, 2, 3]), (10, [4, 0, 5, 1])] [4, 5, 2, 3]) 1 1,
    -- 75: t2new.abab += einsum(f.aa.oo, (0, 1), t2.abab, (1, 2, 3, 4), (0, 2, 3, 4)) * -1
    .add 26 (.ein [(1, [0, 1]), (5, [1, 2, 3, 4])] [0, 2, 3, 4]) (-1) 1,
    -- 76: t2new.abab += einsum(t2.abab, (0, 1, 2, 3), f.aa.vv, (4, 2), (0, 1, 4, 3))
    .add 26 (.ein [(5, [0, 1, 2, 3]), (3, [4, 2])] [0, 1, 4, 3]) 1 1,
    -- 77: t2new.abab += einsum(f.bb.vv, (0, 1), t2.abab, (2, 3, 4, 1), (2, 3, 4, 0))
    .add 26 (.ein [(11, [0, 1]), (5, [2, 3, 4, 1])] [2, 3, 4, 0]) 1 1,
    -- 78: t2new.abab += einsum(v.aabb.ovov, (0, 1, 2, 3), t2.bbbb, (4, 2, 5, 3), (0, 4, 1, 5)) * 2
    .add 26 (.ein [(6, [0, 1, 2, 3]), (12, [4, 2, 5, 3])] [0, 4, 1, 5]) 2 1,
    -- 79: t2new.abab += np.transpose(v.aabb.ovov, (0, 2, 1, 3))
    .add 26 (.tr 6 [0, 2, 1, 3]) 1 1,
    -- 80: t2new.abab += einsum(t2.abab, (0, 1, 2, 3), tmp3, (0, 4, 2, 5), (4, 1, 5, 3))
    .add 26 (.ein [(5, [0, 1, 2, 3]), (24, [0, 4, 2, 5])] [4, 1, 5, 3]) 1 1,
    -- 81: del tmp3
    .del 24,
    -- 82: t2new.abab += einsum(v.aabb.vvoo, (0, 1, 2, 3), t2.abab, (4, 3, 1, 5), (4, 2, 0, 5)) * -1
    .add 26 (.ein [(13, [0, 1, 2, 3]), (5, [4, 3, 1, 5])] [4, 2, 0, 5]) (-1) 1,
    -- 83: t2new.abab += einsum(t2.aaaa, (0, 1, 2, 3), v.aabb.ovov, (1, 3, 4, 5), (0, 4, 2, 5)) * 2
    .add 26 (.ein [(0, [0, 1, 2, 3]), (6, [1, 3, 4, 5])] [0, 4, 2, 5]) 2 1,
    -- 84: tmp5 = np.copy(np.transpose(v.bbbb.ovov, (0, 2, 1, 3)))
    .set 27 (.tr 14 [0, 2, 1, 3]) 1 1,
    -- 85: tmp5 += v.bbbb.oovv * -1
    .add 27 (.cp 15) (-1) 1,
    -- 86: t2new.abab += einsum(t2.abab, (0, 1, 2, 3), tmp5, (1, 4, 3, 5), (0, 4, 2, 5))
    .add 26 (.ein [(5, [0, 1, 2, 3]), (27, [1, 4, 3, 5])] [0, 4, 2, 5]) 1 1,
    -- 87: t2new.abab += einsum(t2.abab, (0, 1, 2, 3), v.aabb.oovv, (4, 0, 5, 3), (4, 1, 2, 5)) * -1
    .add 26 (.ein [(5, [0, 1, 2, 3]), (16, [4, 0, 5, 3])] [4, 1, 2, 5]) (-1) 1,
    -- 88: t2new.abab += einsum(t2.abab, (0, 1, 2, 3), v.aabb.vvvv, (4, 2, 5, 3), (0, 1, 4, 5))
    .add 26 (.ein [(5, [0, 1, 2, 3]), (17, [4, 2, 5, 3])] [0, 1, 4, 5]) 1 1,
    -- 89: tmp6 = einsum(f.bb.oo, (0, 1), t2.bbbb, (2, 1, 3, 4), (0, 2, 3, 4))
    .set 28 (.ein [(9, [0, 1]), (12, [2, 1, 3, 4])] [0, 2, 3, 4]) 1 1,
    -- 90: t2new.bbbb = np.copy(np.transpose(tmp6, (1, 0, 3, 2))) * 2
    .set 29 (.tr 28 [1, 0, 3, 2]) 2 1,
    -- 91: t2new.bbbb += np.transpose(tmp6, (0, 1, 3, 2)) * -2
    .add 29 (.tr 28 [0, 1, 3, 2]) (-2) 1,
    -- 92: del tmp6
    .del 28,
    -- 93: t2new.bbbb += einsum(t2.bbbb, (0, 1, 2, 3), v.bbbb.oooo, (4, 0, 5, 1), (4, 5, 2, 3)) * 2
    .add 29 (.ein [(12, [0, 1, 2, 3]), (18, [4, 0, 5, 1])] [4, 5, 2, 3]) 2 1,
    -- 94: tmp7 = einsum(t2.bbbb, (0, 1, 2, 3), f.bb.vv, (4, 3), (0, 1, 4, 2))
    .set 30 (.ein [(12, [0, 1, 2, 3]), (11, [4, 3])] [0, 1, 4, 2]) 1 1,
    -- 95: t2new.bbbb += np.transpose(tmp7, (1, 0, 2, 3)) * 2
    .add 29 (.tr 30 [1, 0, 2, 3]) 2 1,
    -- 96: t2new.bbbb += np.transpose(tmp7, (1, 0, 3, 2)) * -2
    .add 29 (.tr 30 [1, 0, 3, 2]) (-2) 1,
    -- 97: del tmp7
    .del 30,
    -- 98: tmp8 = einsum(t2.abab, (0, 1, 2, 3), v.aabb.ovov, (0, 2, 4, 5), (1, 4, 3, 5))
    .set 31 (.ein [(5, [0, 1, 2, 3]), (6, [0, 2, 4, 5])] [1, 4, 3, 5]) 1 1,
    -- 99: t2new.bbbb += np.transpose(tmp8, (1, 0, 3, 2))
    .add 29 (.tr 31 [1, 0, 3, 2]) 1 1,
    -- 100: t2new.bbbb += np.transpose(v.bbbb.ovov, (0, 2, 1, 3))
    .add 29 (.tr 14 [0, 2, 1, 3]) 1 1,
    -- 101: tmp9 = einsum(t2.bbbb, (0, 1, 2, 3), tmp5, (1, 4, 3, 5), (0, 4, 2, 5)) * 2
    .set 32 (.ein [(12, [0, 1, 2, 3]), (27, [1, 4, 3, 5])] [0, 4, 2, 5]) 2 1,
    -- 102: del tmp5
    .del 27,
    -- 103: t2new.bbbb += np.transpose(tmp9, (1, 0, 3, 2))
    .add 29 (.tr 32 [1, 0, 3, 2]) 1 1,
    -- 104: t2new.bbbb += np.transpose(v.bbbb.ovov, (0, 2, 3, 1)) * -1
    .add 29 (.tr 14 [0, 2, 3, 1]) (-1) 1,
    -- 105: t2new.bbbb += np.transpose(tmp8, (1, 0, 2, 3)) * -1
    .add 29 (.tr 31 [1, 0, 2, 3]) (-1) 1,
    -- 106: t2new.bbbb += np.transpose(tmp9, (1, 0, 2, 3)) * -1
    .add 29 (.tr 32 [1, 0, 2, 3]) (-1) 1,
    -- 107: t2new.bbbb += np.transpose(tmp8, (0, 1, 3, 2)) * -1
    .add 29 (.tr 31 [0, 1, 3, 2]) (-1) 1,
    -- 108: t2new.bbbb += np.transpose(tmp9, (0, 1, 3, 2)) * -1
    .add 29 (.tr 32 [0, 1, 3, 2]) (-1) 1,
    -- 109: t2new.bbbb += tmp8
    .add 29 (.cp 31) 1 1,
    -- 110: del tmp8
    .del 31,
    -- 111: t2new.bbbb += tmp9
    .add 29 (.cp 32) 1 1,
    -- 112: del tmp9
    .del 32,
    -- 113: t2new.bbbb += einsum(t2.bbbb, (0, 1, 2, 3), v.bbbb.vvvv, (4, 2, 5, 3), (0, 1, 4, 5)) * 2
    .add 29 (.ein [(12, [0, 1, 2, 3]), (19, [4, 2, 5, 3])] [0, 1, 4, 5]) 2 1
  ]
  ret := [(chars! "t2new.aaaa", 21), (chars! "t2new.abab", 26), (chars! "t2new.bbbb", 29)]

end Ebcc.Gen.ULCCD
