import Verif.Model.GenCode
/-!
Functions of `ebcc/codegen/RMP2.py`, written by `tools/gencode.py`.  Comments give the
number and the text of the line of each statement.
-/

set_option maxRecDepth 100000

namespace Ebcc.Gen.RMP2Eom

/-- codegen/RMP2.py:125-145 `hbar_matvec_ip_intermediates`. -/
def hbar_matvec_ip_intermediates : GenFun where
  args := [chars! "v.ovov", chars! "t2"]
  body := [
    -- 142: tmp4 = einsum(v.ovov, (0, 1, 2, 3), t2, (4, 2, 1, 3), (4, 0))
    .set 2 (.ein [(0, [0, 1, 2, 3]), (1, [4, 2, 1, 3])] [4, 0]) 1 1,
    -- 143: tmp2 = einsum(v.ovov, (0, 1, 2, 3), t2, (4, 2, 3, 1), (4, 0))
    .set 3 (.ein [(0, [0, 1, 2, 3]), (1, [4, 2, 3, 1])] [4, 0]) 1 1
  ]
  ret := [(chars! "tmp2", 3), (chars! "tmp4", 2)]

/-- codegen/RMP2.py:147-190 `hbar_matvec_ip`. -/
def hbar_matvec_ip : GenFun where
  args := [chars! "ints.tmp4", chars! "ints.tmp2", chars! "f.oo", chars! "v.ooov", chars! "v.ovoo", chars! "r2", chars! "f.vv", chars! "r1"]
  body := [
    -- 171: tmp1 = np.copy(ints.tmp4) * 2
    .set 8 (.cp 0) 2 1,
    -- 172: del ints.tmp4
    .del 0,
    -- 173: tmp1 += ints.tmp2 * -1
    .add 8 (.cp 1) (-1) 1,
    -- 174: del ints.tmp2
    .del 1,
    -- 175: tmp2 = np.copy(f.oo) * 2
    .set 9 (.cp 2) 2 1,
    -- 176: tmp2 += tmp1
    .add 9 (.cp 8) 1 1,
    -- 177: tmp2 += np.transpose(tmp1, (1, 0))
    .add 9 (.tr 8 [1, 0]) 1 1,
    -- 178: del tmp1
    .del 8,
    -- 179: tmp0 = np.copy(v.ooov)
    .set 10 (.cp 3) 1 1,
    -- 180: tmp0 += np.transpose(v.ovoo, (0, 2, 3, 1)) * -0.5
    .add 10 (.tr 4 [0, 2, 3, 1]) (-1) 2,
    -- 181: r2new = einsum(r2, (0, 1, 2), f.vv, (3, 2), (0, 1, 3))
    .set 11 (.ein [(5, [0, 1, 2]), (6, [3, 2])] [0, 1, 3]) 1 1,
    -- 182: r2new += einsum(r1, (0,), v.ovoo, (1, 2, 3, 0), (1, 3, 2))
    .add 11 (.ein [(7, [0]), (4, [1, 2, 3, 0])] [1, 3, 2]) 1 1,
    -- 183: r2new += einsum(r2, (0, 1, 2), f.oo, (3, 0), (3, 1, 2)) * -1
    .add 11 (.ein [(5, [0, 1, 2]), (2, [3, 0])] [3, 1, 2]) (-1) 1,
    -- 184: r2new += einsum(f.oo, (0, 1), r2, (2, 1, 3), (2, 0, 3)) * -1
    .add 11 (.ein [(2, [0, 1]), (5, [2, 1, 3])] [2, 0, 3]) (-1) 1,
    -- 185: r1new = einsum(r2, (0, 1, 2), tmp0, (1, 3, 0, 2), (3,)) * 2
    .set 12 (.ein [(5, [0, 1, 2]), (10, [1, 3, 0, 2])] [3]) 2 1,
    -- 186: del tmp0
    .del 10,
    -- 187: r1new += einsum(tmp2, (0, 1), r1, (0,), (1,)) * -0.5
    .add 12 (.ein [(9, [0, 1]), (7, [0])] [1]) (-1) 2,
    -- 188: del tmp2
    .del 9
  ]
  ret := [(chars! "r1new", 12), (chars! "r2new", 11)]

/-- codegen/RMP2.py:192-212 `hbar_matvec_ea_intermediates`. -/
def hbar_matvec_ea_intermediates : GenFun where
  args := [chars! "v.ovov", chars! "t2"]
  body := [
    -- 209: tmp4 = einsum(v.ovov, (0, 1, 2, 3), t2, (0, 2, 1, 4), (4, 3))
    .set 2 (.ein [(0, [0, 1, 2, 3]), (1, [0, 2, 1, 4])] [4, 3]) 1 1,
    -- 210: tmp2 = einsum(v.ovov, (0, 1, 2, 3), t2, (0, 2, 3, 4), (4, 1))
    .set 3 (.ein [(0, [0, 1, 2, 3]), (1, [0, 2, 3, 4])] [4, 1]) 1 1
  ]
  ret := [(chars! "tmp2", 3), (chars! "tmp4", 2)]

/-- codegen/RMP2.py:214-257 `hbar_matvec_ea`. -/
def hbar_matvec_ea : GenFun where
  args := [chars! "ints.tmp4", chars! "ints.tmp2", chars! "f.vv", chars! "v.ovvv", chars! "r2", chars! "r1", chars! "f.oo"]
  body := [
    -- 238: tmp1 = np.copy(ints.tmp4)
    .set 7 (.cp 0) 1 1,
    -- 239: del ints.tmp4
    .del 0,
    -- 240: tmp1 += ints.tmp2 * -0.5
    .add 7 (.cp 1) (-1) 2,
    -- 241: del ints.tmp2
    .del 1,
    -- 242: tmp2 = np.copy(f.vv)
    .set 8 (.cp 2) 1 1,
    -- 243: tmp2 += tmp1 * -1
    .add 8 (.cp 7) (-1) 1,
    -- 244: tmp2 += np.transpose(tmp1, (1, 0)) * -1
    .add 8 (.tr 7 [1, 0]) (-1) 1,
    -- 245: del tmp1
    .del 7,
    -- 246: tmp0 = np.copy(v.ovvv) * 2
    .set 9 (.cp 3) 2 1,
    -- 247: tmp0 += np.transpose(v.ovvv, (0, 2, 1, 3)) * -1
    .add 9 (.tr 3 [0, 2, 1, 3]) (-1) 1,
    -- 248: r2new = einsum(f.vv, (0, 1), r2, (1, 2, 3), (0, 2, 3))
    .set 10 (.ein [(2, [0, 1]), (4, [1, 2, 3])] [0, 2, 3]) 1 1,
    -- 249: r2new += einsum(f.vv, (0, 1), r2, (2, 1, 3), (2, 0, 3))
    .add 10 (.ein [(2, [0, 1]), (4, [2, 1, 3])] [2, 0, 3]) 1 1,
    -- 250: r2new += einsum(r1, (0,), v.ovvv, (1, 2, 3, 0), (2, 3, 1)) * -1
    .add 10 (.ein [(5, [0]), (3, [1, 2, 3, 0])] [2, 3, 1]) (-1) 1,
    -- 251: r2new += einsum(f.oo, (0, 1), r2, (2, 3, 1), (2, 3, 0)) * -1
    .add 10 (.ein [(6, [0, 1]), (4, [2, 3, 1])] [2, 3, 0]) (-1) 1,
    -- 252: r1new = einsum(r2, (0, 1, 2), tmp0, (2, 0, 1, 3), (3,)) * -1
    .set 11 (.ein [(4, [0, 1, 2]), (9, [2, 0, 1, 3])] [3]) (-1) 1,
    -- 253: del tmp0
    .del 9,
    -- 254: r1new += einsum(r1, (0,), tmp2, (0, 1), (1,))
    .add 11 (.ein [(5, [0]), (8, [0, 1])] [1]) 1 1,
    -- 255: del tmp2
    .del 8
  ]
  ret := [(chars! "r1new", 11), (chars! "r2new", 10)]

end Ebcc.Gen.RMP2Eom
