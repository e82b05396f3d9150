import Verif.Model.GenCode
/-!
Functions of `ebcc/codegen/ULCCSD.py`, written by `tools/gencode.py`.  Comments give the
number and the text of the line of each statement.
-/

set_option maxRecDepth 100000

namespace Ebcc.Gen.ULCCSD

/-- codegen/ULCCSD.py:17-36 `energy`. -/
def energy : GenFun where
  args := [chars! "t1.aa", chars! "f.aa.ov", chars! "v.bbbb.ovov", chars! "t2.bbbb", chars! "v.aaaa.ovov", chars! "t2.aaaa", chars! "v.aabb.ovov", chars! "t2.abab", chars! "f.bb.ov", chars! "t1.bb"]
  body := [
    -- 30: e_cc = einsum(t1.aa, (0, 1), f.aa.ov, (0, 1), ())
    .set 10 (.ein [(0, [0, 1]), (1, [0, 1])] []) 1 1,
    -- 31: e_cc += einsum(v.bbbb.ovov, (0, 1, 2, 3), t2.bbbb, (0, 2, 3, 1), ()) * -1
    .add 10 (.ein [(2, [0, 1, 2, 3]), (3, [0, 2, 3, 1])] []) (-1) 1,
    -- 32: e_cc += einsum(v.aaaa.ovov, (0, 1, 2, 3), t2.aaaa, (0, 2, 3, 1), ()) * -1
    .add 10 (.ein [(4, [0, 1, 2, 3]), (5, [0, 2, 3, 1])] []) (-1) 1,
    -- 33: e_cc += einsum(v.aabb.ovov, (0, 1, 2, 3), t2.abab, (0, 2, 1, 3), ())
    .add 10 (.ein [(6, [0, 1, 2, 3]), (7, [0, 2, 1, 3])] []) 1 1,
    -- 34: e_cc += einsum(f.bb.ov, (0, 1), t1.bb, (0, 1), ())
    .add 10 (.ein [(8, [0, 1]), (9, [0, 1])] []) 1 1
  ]
  ret := [(chars! "e_cc", 10)]

/-- codegen/ULCCSD.py:38-172 `update_amps`. -/
def update_amps : GenFun where
  args := [chars! "f.aa.oo", chars! "t1.aa", chars! "f.aa.ov", chars! "t2.aaaa", chars! "v.aaaa.ooov", chars! "v.aabb.ooov", chars! "t2.abab", chars! "f.bb.ov", chars! "t1.bb", chars! "v.aabb.ovov", chars! "v.aaaa.ovov", chars! "v.aaaa.oovv", chars! "v.aaaa.ovvv", chars! "f.aa.vv", chars! "v.aabb.vvov", chars! "f.bb.oo", chars! "v.aabb.ovoo", chars! "t2.bbbb", chars! "v.bbbb.ooov", chars! "v.bbbb.ovov", chars! "v.bbbb.oovv", chars! "v.bbbb.ovvv", chars! "v.aabb.ovvv", chars! "f.bb.vv", chars! "v.aaaa.oooo", chars! "v.aaaa.vvvv", chars! "v.aabb.oooo", chars! "v.aabb.vvoo", chars! "v.aabb.oovv", chars! "v.aabb.vvvv", chars! "v.bbbb.oooo", chars! "v.bbbb.vvvv"]
  body := [
    -- 53: t1new.aa = einsum(f.aa.oo, (0, 1), t1.aa, (1, 2), (0, 2)) * -1
    .set 32 (.ein [(0, [0, 1]), (1, [1, 2])] [0, 2]) (-1) 1,
    -- 54: t1new.aa += f.aa.ov
    .add 32 (.cp 2) 1 1,
    -- 55: t1new.aa += einsum(t2.aaaa, (0, 1, 2, 3), f.aa.ov, (1, 3), (0, 2)) * 2
    .add 32 (.ein [(3, [0, 1, 2, 3]), (2, [1, 3])] [0, 2]) 2 1,
    -- 56: t1new.aa += einsum(v.aaaa.ooov, (0, 1, 2, 3), t2.aaaa, (2, 1, 4, 3), (0, 4)) * 2
    .add 32 (.ein [(4, [0, 1, 2, 3]), (3, [2, 1, 4, 3])] [0, 4]) 2 1,
    -- 57: t1new.aa += einsum(v.aabb.ooov, (0, 1, 2, 3), t2.abab, (1, 2, 4, 3), (0, 4)) * -1
    .add 32 (.ein [(5, [0, 1, 2, 3]), (6, [1, 2, 4, 3])] [0, 4]) (-1) 1,
    -- 58: t1new.aa += einsum(f.bb.ov, (0, 1), t2.abab, (2, 0, 3, 1), (2, 3))
    .add 32 (.ein [(7, [0, 1]), (6, [2, 0, 3, 1])] [2, 3]) 1 1,
    -- 59: t1new.aa += einsum(t1.bb, (0, 1), v.aabb.ovov, (2, 3, 0, 1), (2, 3))
    .add 32 (.ein [(8, [0, 1]), (9, [2, 3, 0, 1])] [2, 3]) 1 1,
    -- 60: tmp0 = np.copy(np.transpose(v.aaaa.ovov, (0, 2, 1, 3)))
    .set 33 (.tr 10 [0, 2, 1, 3]) 1 1,
    -- 61: tmp0 += v.aaaa.oovv * -1
    .add 33 (.cp 11) (-1) 1,
    -- 62: t1new.aa += einsum(tmp0, (0, 1, 2, 3), t1.aa, (0, 2), (1, 3))
    .add 32 (.ein [(33, [0, 1, 2, 3]), (1, [0, 2])] [1, 3]) 1 1,
    -- 63: t1new.aa += einsum(v.aaaa.ovvv, (0, 1, 2, 3), t2.aaaa, (4, 0, 1, 3), (4, 2)) * -2
    .add 32 (.ein [(12, [0, 1, 2, 3]), (3, [4, 0, 1, 3])] [4, 2]) (-2) 1,
    -- 64: t1new.aa += einsum(f.aa.vv, (0, 1), t1.aa, (2, 1), (2, 0))
    .add 32 (.ein [(13, [0, 1]), (1, [2, 1])] [2, 0]) 1 1,
    -- 65: t1new.aa += einsum(v.aabb.vvov, (0, 1, 2, 3), t2.abab, (4, 2, 1, 3), (4, 0))
    .add 32 (.ein [(14, [0, 1, 2, 3]), (6, [4, 2, 1, 3])] [4, 0]) 1 1,
    -- 66: t1new.bb = einsum(f.aa.ov, (0, 1), t2.abab, (0, 2, 1, 3), (2, 3))
    .set 34 (.ein [(2, [0, 1]), (6, [0, 2, 1, 3])] [2, 3]) 1 1,
    -- 67: t1new.bb += einsum(t1.aa, (0, 1), v.aabb.ovov, (0, 1, 2, 3), (2, 3))
    .add 34 (.ein [(1, [0, 1]), (9, [0, 1, 2, 3])] [2, 3]) 1 1,
    -- 68: t1new.bb += einsum(t1.bb, (0, 1), f.bb.oo, (2, 0), (2, 1)) * -1
    .add 34 (.ein [(8, [0, 1]), (15, [2, 0])] [2, 1]) (-1) 1,
    -- 69: t1new.bb += f.bb.ov
    .add 34 (.cp 7) 1 1,
    -- 70: t1new.bb += einsum(v.aabb.ovoo, (0, 1, 2, 3), t2.abab, (0, 3, 1, 4), (2, 4)) * -1
    .add 34 (.ein [(16, [0, 1, 2, 3]), (6, [0, 3, 1, 4])] [2, 4]) (-1) 1,
    -- 71: t1new.bb += einsum(t2.bbbb, (0, 1, 2, 3), f.bb.ov, (1, 3), (0, 2)) * 2
    .add 34 (.ein [(17, [0, 1, 2, 3]), (7, [1, 3])] [0, 2]) 2 1,
    -- 72: t1new.bb += einsum(t2.bbbb, (0, 1, 2, 3), v.bbbb.ooov, (4, 0, 1, 3), (4, 2)) * -2
    .add 34 (.ein [(17, [0, 1, 2, 3]), (18, [4, 0, 1, 3])] [4, 2]) (-2) 1,
    -- 73: tmp1 = np.copy(np.transpose(v.bbbb.ovov, (0, 2, 1, 3)))
    .set 35 (.tr 19 [0, 2, 1, 3]) 1 1,
    -- 74: tmp1 += v.bbbb.oovv * -1
    .add 35 (.cp 20) (-1) 1,
    -- 75: t1new.bb += einsum(t1.bb, (0, 1), tmp1, (0, 2, 1, 3), (2, 3))
    .add 34 (.ein [(8, [0, 1]), (35, [0, 2, 1, 3])] [2, 3]) 1 1,
    -- 76: t1new.bb += einsum(t2.bbbb, (0, 1, 2, 3), v.bbbb.ovvv, (1, 3, 4, 2), (0, 4)) * 2
    .add 34 (.ein [(17, [0, 1, 2, 3]), (21, [1, 3, 4, 2])] [0, 4]) 2 1,
    -- 77: t1new.bb += einsum(t2.abab, (0, 1, 2, 3), v.aabb.ovvv, (0, 2, 4, 3), (1, 4))
    .add 34 (.ein [(6, [0, 1, 2, 3]), (22, [0, 2, 4, 3])] [1, 4]) 1 1,
    -- 78: t1new.bb += einsum(t1.bb, (0, 1), f.bb.vv, (2, 1), (0, 2))
    .add 34 (.ein [(8, [0, 1]), (23, [2, 1])] [0, 2]) 1 1,
    -- 79: tmp2 = einsum(f.aa.oo, (0, 1), t2.aaaa, (2, 1, 3, 4), (0, 2, 3, 4))
    .set 36 (.ein [(0, [0, 1]), (3, [2, 1, 3, 4])] [0, 2, 3, 4]) 1 1,
    -- 81: t2new.aaaa = np.copy(np.transpose(tmp2, (1, 0, 3, 2))) * 2
    .set 37 (.tr 36 [1, 0, 3, 2]) 2 1,
    -- 82: tmp3 = einsum(v.aaaa.ooov, (0, 1, 2, 3), t1.aa, (1, 4), (0, 2, 4, 3))
    .set 38 (.ein [(4, [0, 1, 2, 3]), (1, [1, 4])] [0, 2, 4, 3]) 1 1,
    -- 83: t2new.aaaa += np.transpose(tmp3, (0, 1, 3, 2))
    .add 37 (.tr 38 [0, 1, 3, 2]) 1 1,
    -- 84: t2new.aaaa += np.transpose(tmp2, (0, 1, 3, 2)) * -2
    .add 37 (.tr 36 [0, 1, 3, 2]) (-2) 1,
    -- 85: del tmp2
    .del 36,
    -- 86: t2new.aaaa += einsum(t2.aaaa, (0, 1, 2, 3), v.aaaa.oooo, (4, 1, 5, 0), (4, 5, 2, 3)) * -2
    .add 37 (.ein [(3, [0, 1, 2, 3]), (24, [4, 1, 5, 0])] [4, 5, 2, 3]) (-2) 1,
    -- 87: tmp4 = einsum(f.aa.vv, (0, 1), t2.aaaa, (2, 3, 4, 1), (2, 3, 0, 4))
    .set 39 (.ein [(13, [0, 1]), (3, [2, 3, 4, 1])] [2, 3, 0, 4]) 1 1,
    -- 88: t2new.aaaa += np.transpose(tmp4, (1, 0, 2, 3)) * 2
    .add 37 (.tr 39 [1, 0, 2, 3]) 2 1,
    -- 89: t2new.aaaa += np.transpose(tmp4, (1, 0, 3, 2)) * -2
    .add 37 (.tr 39 [1, 0, 3, 2]) (-2) 1,
    -- 90: del tmp4
    .del 39,
    -- 91: t2new.aaaa += np.transpose(tmp3, (1, 0, 3, 2)) * -1
    .add 37 (.tr 38 [1, 0, 3, 2]) (-1) 1,
    -- 92: t2new.aaaa += np.transpose(v.aaaa.ovov, (0, 2, 1, 3))
    .add 37 (.tr 10 [0, 2, 1, 3]) 1 1,
    -- 93: tmp5 = einsum(v.aabb.ovov, (0, 1, 2, 3), t2.abab, (4, 2, 5, 3), (4, 0, 5, 1))
    .set 40 (.ein [(9, [0, 1, 2, 3]), (6, [4, 2, 5, 3])] [4, 0, 5, 1]) 1 1,
    -- 94: t2new.aaaa += np.transpose(tmp5, (1, 0, 3, 2))
    .add 37 (.tr 40 [1, 0, 3, 2]) 1 1,
    -- 95: tmp6 = einsum(t2.aaaa, (0, 1, 2, 3), tmp0, (1, 4, 3, 5), (0, 4, 2, 5)) * 2
    .set 41 (.ein [(3, [0, 1, 2, 3]), (33, [1, 4, 3, 5])] [0, 4, 2, 5]) 2 1,
    -- 96: t2new.aaaa += np.transpose(tmp6, (1, 0, 3, 2))
    .add 37 (.tr 41 [1, 0, 3, 2]) 1 1,
    -- 97: t2new.aaaa += np.transpose(tmp3, (1, 0, 2, 3))
    .add 37 (.tr 38 [1, 0, 2, 3]) 1 1,
    -- 98: t2new.aaaa += np.transpose(v.aaaa.ovov, (0, 2, 3, 1)) * -1
    .add 37 (.tr 10 [0, 2, 3, 1]) (-1) 1,
    -- 99: t2new.aaaa += np.transpose(tmp5, (1, 0, 2, 3)) * -1
    .add 37 (.tr 40 [1, 0, 2, 3]) (-1) 1,
    -- 100: t2new.aaaa += np.transpose(tmp6, (1, 0, 2, 3)) * -1
    .add 37 (.tr 41 [1, 0, 2, 3]) (-1) 1,
    -- 101: t2new.aaaa += tmp3 * -1
    .add 37 (.cp 38) (-1) 1,
    -- 102: del tmp3
    .del 38,
    -- 103: tmp7 = einsum(v.aaaa.ovvv, (0, 1, 2, 3), t1.aa, (4, 3), (4, 0, 1, 2))
    .set 42 (.ein [(12, [0, 1, 2, 3]), (1, [4, 3])] [4, 0, 1, 2]) 1 1,
    -- 104: t2new.aaaa += np.transpose(tmp7, (0, 1, 3, 2))
    .add 37 (.tr 42 [0, 1, 3, 2]) 1 1,
    -- 105: t2new.aaaa += tmp7 * -1
    .add 37 (.cp 42) (-1) 1,
    -- 106: t2new.aaaa += np.transpose(tmp7, (1, 0, 3, 2)) * -1
    .add 37 (.tr 42 [1, 0, 3, 2]) (-1) 1,
    -- 107: t2new.aaaa += np.transpose(tmp7, (1, 0, 2, 3))
    .add 37 (.tr 42 [1, 0, 2, 3]) 1 1,
    -- 108: del tmp7
    .del 42,
    -- 109: t2new.aaaa += np.transpose(tmp5, (0, 1, 3, 2)) * -1
    .add 37 (.tr 40 [0, 1, 3, 2]) (-1) 1,
    -- 110: t2new.aaaa += np.transpose(tmp6, (0, 1, 3, 2)) * -1
    .add 37 (.tr 41 [0, 1, 3, 2]) (-1) 1,
    -- 111: t2new.aaaa += tmp5
    .add 37 (.cp 40) 1 1,
    -- 112: del tmp5
    .del 40,
    -- 113: t2new.aaaa += tmp6
    .add 37 (.cp 41) 1 1,
    -- 114: del tmp6
    .del 41,
    -- 115: t2new.aaaa += einsum(t2.aaaa, (0, 1, 2, 3), v.aaaa.vvvv, (4, 3, 5, 2), (0, 1, 4, 5)) * -2
    .add 37 (.ein [(3, [0, 1, 2, 3]), (25, [4, 3, 5, 2])] [0, 1, 4, 5]) (-2) 1,
    -- 116: t2new.abab = einsum(f.bb.oo, (0, 1), t2.abab, (2, 1, 3, 4), (2, 0, 3, 4)) * -1
    .set 43 (.ein [(15, [0, 1]), (6, [2, 1, 3, 4])] [2, 0, 3, 4]) (-1) 1,
    -- 117: t2new.abab += einsum(t2.abab, (0, 1, 2, 3), f.aa.oo, (4, 0), (4, 1, 2, 3)) * -1
    .add 43 (.ein [(6, [0, 1, 2, 3]), (0, [4, 0])] [4, 1, 2, 3]) (-1) 1,
    -- 118: t2new.abab += einsum(v.aabb.oooo, (0, 1, 2, 3), t2.abab, (1, 3, 4, 5), (0, 2, 4, 5))
    .add 43 (.ein [(26, [0, 1, 2, 3]), (6, [1, 3, 4, 5])] [0, 2, 4, 5]) 1 1,
    -- 119: t2new.abab += einsum(f.aa.vv, (0, 1), t2.abab, (2, 3, 1, 4), (2, 3, 0, 4))
    .add 43 (.ein [(13, [0, 1]), (6, [2, 3, 1, 4])] [2, 3, 0, 4]) 1 1,
    -- 120: t2new.abab += einsum(t2.abab, (0, 1, 2, 3), f.bb.vv, (4, 3), (0, 1, 2, 4))
    .add 43 (.ein [(6, [0, 1, 2, 3]), (23, [4, 3])] [0, 1, 2, 4]) 1 1,
    -- 121: t2new.abab += einsum(v.aabb.ovoo, (0, 1, 2, 3), t1.bb, (3, 4), (0, 2, 1, 4)) * -1
    .add 43 (.ein [(16, [0, 1, 2, 3]), (8, [3, 4])] [0, 2, 1, 4]) (-1) 1,
    -- 122: t2new.abab += einsum(t2.bbbb, (0, 1, 2, 3), v.aabb.ovov, (4, 5, 1, 3), (4, 0, 5, 2)) * 2
    .add 43 (.ein [(17, [0, 1, 2, 3]), (9, [4, 5, 1, 3])] [4, 0, 5, 2]) 2 1,
    -- 123: t2new.abab += np.transpose(v.aabb.ovov, (0, 2, 1, 3))
    .add 43 (.tr 9 [0, 2, 1, 3]) 1 1,
    -- 124: t2new.abab += einsum(t2.abab, (0, 1, 2, 3), tmp0, (0, 4, 2, 5), (4, 1, 5, 3))
    .add 43 (.ein [(6, [0, 1, 2, 3]), (33, [0, 4, 2, 5])] [4, 1, 5, 3]) 1 1,
    -- 125: del tmp0
    .del 33,
    -- 126: t2new.abab += einsum(v.aabb.ooov, (0, 1, 2, 3), t1.aa, (1, 4), (0, 2, 4, 3)) * -1
    .add 43 (.ein [(5, [0, 1, 2, 3]), (1, [1, 4])] [0, 2, 4, 3]) (-1) 1,
    -- 127: t2new.abab += einsum(v.aabb.vvov, (0, 1, 2, 3), t1.aa, (4, 1), (4, 2, 0, 3))
    .add 43 (.ein [(14, [0, 1, 2, 3]), (1, [4, 1])] [4, 2, 0, 3]) 1 1,
    -- 128: t2new.abab += einsum(t1.bb, (0, 1), v.aabb.ovvv, (2, 3, 4, 1), (2, 0, 3, 4))
    .add 43 (.ein [(8, [0, 1]), (22, [2, 3, 4, 1])] [2, 0, 3, 4]) 1 1,
    -- 129: t2new.abab += einsum(v.aabb.vvoo, (0, 1, 2, 3), t2.abab, (4, 3, 1, 5), (4, 2, 0, 5)) * -1
    .add 43 (.ein [(27, [0, 1, 2, 3]), (6, [4, 3, 1, 5])] [4, 2, 0, 5]) (-1) 1,
    -- 130: t2new.abab += einsum(t2.aaaa, (0, 1, 2, 3), v.aabb.ovov, (1, 3, 4, 5), (0, 4, 2, 5)) * 2
    .add 43 (.ein [(3, [0, 1, 2, 3]), (9, [1, 3, 4, 5])] [0, 4, 2, 5]) 2 1,
    -- 131: t2new.abab += einsum(tmp1, (0, 1, 2, 3), t2.abab, (4, 0, 5, 2), (4, 1, 5, 3))
    .add 43 (.ein [(35, [0, 1, 2, 3]), (6, [4, 0, 5, 2])] [4, 1, 5, 3]) 1 1,
    -- 132: t2new.abab += einsum(t2.abab, (0, 1, 2, 3), v.aabb.oovv, (4, 0, 5, 3), (4, 1, 2, 5)) * -1
    .add 43 (.ein [(6, [0, 1, 2, 3]), (28, [4, 0, 5, 3])] [4, 1, 2, 5]) (-1) 1,
    -- 133: t2new.abab += einsum(t2.abab, (0, 1, 2, 3), v.aabb.vvvv, (4, 2, 5, 3), (0, 1, 4, 5))
    .add 43 (.ein [(6, [0, 1, 2, 3]), (29, [4, 2, 5, 3])] [0, 1, 4, 5]) 1 1,
    -- 134: tmp8 = einsum(t2.bbbb, (0, 1, 2, 3), f.bb.oo, (4, 1), (4, 0, 2, 3))
    .set 44 (.ein [(17, [0, 1, 2, 3]), (15, [4, 1])] [4, 0, 2, 3]) 1 1,
    -- 135: t2new.bbbb = np.copy(np.transpose(tmp8, (1, 0, 3, 2))) * 2
    .set 45 (.tr 44 [1, 0, 3, 2]) 2 1,
    -- 136: tmp9 = einsum(t1.bb, (0, 1), v.bbbb.ooov, (2, 0, 3, 4), (2, 3, 1, 4))
    .set 46 (.ein [(8, [0, 1]), (18, [2, 0, 3, 4])] [2, 3, 1, 4]) 1 1,
    -- 137: t2new.bbbb += np.transpose(tmp9, (0, 1, 3, 2))
    .add 45 (.tr 46 [0, 1, 3, 2]) 1 1,
    -- 138: t2new.bbbb += np.transpose(tmp8, (0, 1, 3, 2)) * -2
    .add 45 (.tr 44 [0, 1, 3, 2]) (-2) 1,
    -- 139: del tmp8
    .del 44,
    -- 140: t2new.bbbb += einsum(v.bbbb.oooo, (0, 1, 2, 3), t2.bbbb, (3, 1, 4, 5), (0, 2, 4, 5)) * -2
    .add 45 (.ein [(30, [0, 1, 2, 3]), (17, [3, 1, 4, 5])] [0, 2, 4, 5]) (-2) 1,
    -- 141: tmp10 = einsum(f.bb.vv, (0, 1), t2.bbbb, (2, 3, 4, 1), (2, 3, 0, 4))
    .set 47 (.ein [(23, [0, 1]), (17, [2, 3, 4, 1])] [2, 3, 0, 4]) 1 1,
    -- 142: t2new.bbbb += np.transpose(tmp10, (1, 0, 2, 3)) * 2
    .add 45 (.tr 47 [1, 0, 2, 3]) 2 1,
    -- 143: t2new.bbbb += np.transpose(tmp10, (1, 0, 3, 2)) * -2
    .add 45 (.tr 47 [1, 0, 3, 2]) (-2) 1,
    -- 144: del tmp10
    .del 47,
    -- 145: t2new.bbbb += np.transpose(tmp9, (1, 0, 3, 2)) * -1
    .add 45 (.tr 46 [1, 0, 3, 2]) (-1) 1,
    -- 146: tmp11 = einsum(v.aabb.ovov, (0, 1, 2, 3), t2.abab, (0, 4, 1, 5), (4, 2, 5, 3))
    .set 48 (.ein [(9, [0, 1, 2, 3]), (6, [0, 4, 1, 5])] [4, 2, 5, 3]) 1 1,
    -- 147: t2new.bbbb += np.transpose(tmp11, (1, 0, 3, 2))
    .add 45 (.tr 48 [1, 0, 3, 2]) 1 1,
    -- 148: t2new.bbbb += np.transpose(v.bbbb.ovov, (0, 2, 1, 3))
    .add 45 (.tr 19 [0, 2, 1, 3]) 1 1,
    -- 149: tmp12 = einsum(tmp1, (0, 1, 2, 3), t2.bbbb, (4, 0, 5, 2), (4, 1, 5, 3)) * 2
    .set 49 (.ein [(35, [0, 1, 2, 3]), (17, [4, 0, 5, 2])] [4, 1, 5, 3]) 2 1,
    -- 150: del tmp1
    .del 35,
    -- 151: t2new.bbbb += np.transpose(tmp12, (1, 0, 3, 2))
    .add 45 (.tr 49 [1, 0, 3, 2]) 1 1,
    -- 152: t2new.bbbb += np.transpose(tmp9, (1, 0, 2, 3))
    .add 45 (.tr 46 [1, 0, 2, 3]) 1 1,
    -- 153: t2new.bbbb += np.transpose(tmp11, (1, 0, 2, 3)) * -1
    .add 45 (.tr 48 [1, 0, 2, 3]) (-1) 1,
    -- 154: t2new.bbbb += np.transpose(v.bbbb.ovov, (0, 2, 3, 1)) * -1
    .add 45 (.tr 19 [0, 2, 3, 1]) (-1) 1,
    -- 155: t2new.bbbb += np.transpose(tmp12, (1, 0, 2, 3)) * -1
    .add 45 (.tr 49 [1, 0, 2, 3]) (-1) 1,
    -- 156: t2new.bbbb += tmp9 * -1
    .add 45 (.cp 46) (-1) 1,
    -- 157: del tmp9
    .del 46,
    -- 158: tmp13 = einsum(v.bbbb.ovvv, (0, 1, 2, 3), t1.bb, (4, 3), (4, 0, 1, 2))
    .set 50 (.ein [(21, [0, 1, 2, 3]), (8, [4, 3])] [4, 0, 1, 2]) 1 1,
    -- 159: t2new.bbbb += np.transpose(tmp13, (0, 1, 3, 2))
    .add 45 (.tr 50 [0, 1, 3, 2]) 1 1,
    -- 160: t2new.bbbb += tmp13 * -1
    .add 45 (.cp 50) (-1) 1,
    -- 161: t2new.bbbb += np.transpose(tmp13, (1, 0, 3, 2)) * -1
    .add 45 (.tr 50 [1, 0, 3, 2]) (-1) 1,
    -- 162: t2new.bbbb += np.transpose(tmp13, (1, 0, 2, 3))
    .add 45 (.tr 50 [1, 0, 2, 3]) 1 1,
    -- 163: del tmp13
    .del 50,
    -- 164: t2new.bbbb += np.transpose(tmp11, (0, 1, 3, 2)) * -1
    .add 45 (.tr 48 [0, 1, 3, 2]) (-1) 1,
    -- 165: t2new.bbbb += np.transpose(tmp12, (0, 1, 3, 2)) * -1
    .add 45 (.tr 49 [0, 1, 3, 2]) (-1) 1,
    -- 166: t2new.bbbb += tmp11
    .add 45 (.cp 48) 1 1,
    -- 167: del tmp11
    .del 48,
    -- 168: t2new.bbbb += tmp12
    .add 45 (.cp 49) 1 1,
    -- 169: del tmp12
    .del 49,
    -- 170: t2new.bbbb += einsum(t2.bbbb, (0, 1, 2, 3), v.bbbb.vvvv, (4, 3, 5, 2), (0, 1, 4, 5)) * -2
    .add 45 (.ein [(17, [0, 1, 2, 3]), (31, [4, 3, 5, 2])] [0, 1, 4, 5]) (-2) 1
  ]
  ret := [(chars! "t1new.aa", 32), (chars! "t1new.bb", 34), (chars! "t2new.aaaa", 37), (chars! "t2new.abab", 43), (chars! "t2new.bbbb", 45)]

end Ebcc.Gen.ULCCSD
