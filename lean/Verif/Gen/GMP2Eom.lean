import Verif.Model.GenCode
/-!
Functions of `ebcc/codegen/GMP2.py`, written by `tools/gencode.py`.  Comments give the
number and the text of the line of each statement.
-/

set_option maxRecDepth 100000

namespace Ebcc.Gen.GMP2Eom

/-- codegen/GMP2.py:119-137 `hbar_matvec_ip_intermediates`. -/
def hbar_matvec_ip_intermediates : GenFun where
  args := [chars! "t2", chars! "v.oovv"]
  body := [
    -- 135: tmp0 = einsum(t2, (0, 1, 2, 3), v.oovv, (4, 1, 2, 3), (0, 4))
    .set 2 (.ein [(0, [0, 1, 2, 3]), (1, [4, 1, 2, 3])] [0, 4]) 1 1
  ]
  ret := [(chars! "tmp0", 2)]

/-- codegen/GMP2.py:139-177 `hbar_matvec_ip`. -/
def hbar_matvec_ip : GenFun where
  args := [chars! "f.oo", chars! "r2", chars! "ints.tmp0", chars! "f.vv", chars! "v.ooov", chars! "r1", chars! "v.ovoo"]
  body := [
    -- 163: tmp1 = einsum(f.oo, (0, 1), r2, (2, 1, 3), (0, 2, 3))
    .set 7 (.ein [(0, [0, 1]), (1, [2, 1, 3])] [0, 2, 3]) 1 1,
    -- 164: tmp0 = np.copy(f.oo) * 4
    .set 8 (.cp 0) 4 1,
    -- 165: tmp0 += ints.tmp0
    .add 8 (.cp 2) 1 1,
    -- 166: tmp0 += np.transpose(ints.tmp0, (1, 0))
    .add 8 (.tr 2 [1, 0]) 1 1,
    -- 167: del ints.tmp0
    .del 2,
    -- 168: r2new = einsum(r2, (0, 1, 2), f.vv, (3, 2), (0, 1, 3))
    .set 9 (.ein [(1, [0, 1, 2]), (3, [3, 2])] [0, 1, 3]) 1 1,
    -- 169: r2new += einsum(v.ooov, (0, 1, 2, 3), r1, (2,), (0, 1, 3)) * -1
    .add 9 (.ein [(4, [0, 1, 2, 3]), (5, [2])] [0, 1, 3]) (-1) 1,
    -- 170: r2new += tmp1
    .add 9 (.cp 7) 1 1,
    -- 171: r2new += np.transpose(tmp1, (1, 0, 2)) * -1
    .add 9 (.tr 7 [1, 0, 2]) (-1) 1,
    -- 172: del tmp1
    .del 7,
    -- 173: r1new = einsum(v.ovoo, (0, 1, 2, 3), r2, (2, 3, 1), (0,)) * -0.5
    .set 10 (.ein [(6, [0, 1, 2, 3]), (1, [2, 3, 1])] [0]) (-1) 2,
    -- 174: r1new += einsum(tmp0, (0, 1), r1, (0,), (1,)) * -0.25
    .add 10 (.ein [(8, [0, 1]), (5, [0])] [1]) (-1) 4,
    -- 175: del tmp0
    .del 8
  ]
  ret := [(chars! "r1new", 10), (chars! "r2new", 9)]

/-- codegen/GMP2.py:179-197 `hbar_matvec_ea_intermediates`. -/
def hbar_matvec_ea_intermediates : GenFun where
  args := [chars! "v.oovv", chars! "t2"]
  body := [
    -- 195: tmp0 = einsum(v.oovv, (0, 1, 2, 3), t2, (0, 1, 4, 3), (4, 2))
    .set 2 (.ein [(0, [0, 1, 2, 3]), (1, [0, 1, 4, 3])] [4, 2]) 1 1
  ]
  ret := [(chars! "tmp0", 2)]

/-- codegen/GMP2.py:199-237 `hbar_matvec_ea`. -/
def hbar_matvec_ea : GenFun where
  args := [chars! "r2", chars! "f.vv", chars! "ints.tmp0", chars! "r1", chars! "v.ovvv", chars! "f.oo"]
  body := [
    -- 223: tmp1 = einsum(r2, (0, 1, 2), f.vv, (3, 1), (2, 3, 0))
    .set 6 (.ein [(0, [0, 1, 2]), (1, [3, 1])] [2, 3, 0]) 1 1,
    -- 224: tmp0 = np.copy(f.vv) * -1
    .set 7 (.cp 1) (-1) 1,
    -- 225: tmp0 += ints.tmp0 * 0.25
    .add 7 (.cp 2) 1 4,
    -- 226: tmp0 += np.transpose(ints.tmp0, (1, 0)) * 0.25
    .add 7 (.tr 2 [1, 0]) 1 4,
    -- 227: del ints.tmp0
    .del 2,
    -- 228: r2new = einsum(r1, (0,), v.ovvv, (1, 0, 2, 3), (2, 3, 1)) * -1
    .set 8 (.ein [(3, [0]), (4, [1, 0, 2, 3])] [2, 3, 1]) (-1) 1,
    -- 229: r2new += einsum(r2, (0, 1, 2), f.oo, (3, 2), (0, 1, 3)) * -1
    .add 8 (.ein [(0, [0, 1, 2]), (5, [3, 2])] [0, 1, 3]) (-1) 1,
    -- 230: r2new += np.transpose(tmp1, (1, 2, 0)) * -1
    .add 8 (.tr 6 [1, 2, 0]) (-1) 1,
    -- 231: r2new += np.transpose(tmp1, (2, 1, 0))
    .add 8 (.tr 6 [2, 1, 0]) 1 1,
    -- 232: del tmp1
    .del 6,
    -- 233: r1new = einsum(r2, (0, 1, 2), v.ovvv, (2, 3, 0, 1), (3,)) * -0.5
    .set 9 (.ein [(0, [0, 1, 2]), (4, [2, 3, 0, 1])] [3]) (-1) 2,
    -- 234: r1new += einsum(tmp0, (0, 1), r1, (0,), (1,)) * -1
    .add 9 (.ein [(7, [0, 1]), (3, [0])] [1]) (-1) 1,
    -- 235: del tmp0
    .del 7
  ]
  ret := [(chars! "r1new", 9), (chars! "r2new", 8)]

/-- codegen/GMP2.py:239-259 `hbar_matvec_ee_intermediates`. -/
def hbar_matvec_ee_intermediates : GenFun where
  args := [chars! "v.oovv", chars! "t2"]
  body := [
    -- 256: tmp1 = einsum(v.oovv, (0, 1, 2, 3), t2, (0, 1, 4, 3), (4, 2))
    .set 2 (.ein [(0, [0, 1, 2, 3]), (1, [0, 1, 4, 3])] [4, 2]) 1 1,
    -- 257: tmp0 = einsum(t2, (0, 1, 2, 3), v.oovv, (4, 1, 2, 3), (0, 4))
    .set 3 (.ein [(1, [0, 1, 2, 3]), (0, [4, 1, 2, 3])] [0, 4]) 1 1
  ]
  ret := [(chars! "tmp0", 3), (chars! "tmp1", 2)]

/-- codegen/GMP2.py:261-322 `hbar_matvec_ee`. -/
def hbar_matvec_ee : GenFun where
  args := [chars! "f.oo", chars! "r2", chars! "r1", chars! "v.ovvv", chars! "f.vv", chars! "v.ooov", chars! "ints.tmp0", chars! "ints.tmp1", chars! "v.oovv", chars! "v.ovoo", chars! "t2", chars! "v.ovov"]
  body := [
    -- 287: tmp6 = einsum(f.oo, (0, 1), r2, (2, 1, 3, 4), (0, 2, 3, 4))
    .set 12 (.ein [(0, [0, 1]), (1, [2, 1, 3, 4])] [0, 2, 3, 4]) 1 1,
    -- 288: tmp7 = einsum(r1, (0, 1), v.ovvv, (2, 1, 3, 4), (0, 2, 3, 4))
    .set 13 (.ein [(2, [0, 1]), (3, [2, 1, 3, 4])] [0, 2, 3, 4]) 1 1,
    -- 289: tmp4 = einsum(f.vv, (0, 1), r2, (2, 3, 4, 1), (2, 3, 0, 4))
    .set 14 (.ein [(4, [0, 1]), (1, [2, 3, 4, 1])] [2, 3, 0, 4]) 1 1,
    -- 290: tmp3 = einsum(r1, (0, 1), v.ooov, (2, 3, 0, 4), (2, 3, 1, 4))
    .set 15 (.ein [(2, [0, 1]), (5, [2, 3, 0, 4])] [2, 3, 1, 4]) 1 1,
    -- 291: tmp8 = np.copy(np.transpose(tmp6, (0, 1, 3, 2))) * -1
    .set 16 (.tr 12 [0, 1, 3, 2]) (-1) 1,
    -- 292: del tmp6
    .del 12,
    -- 293: tmp8 += np.transpose(tmp7, (0, 1, 3, 2))
    .add 16 (.tr 13 [0, 1, 3, 2]) 1 1,
    -- 294: del tmp7
    .del 13,
    -- 295: tmp5 = np.copy(np.transpose(tmp3, (1, 0, 2, 3))) * -1
    .set 17 (.tr 15 [1, 0, 2, 3]) (-1) 1,
    -- 296: del tmp3
    .del 15,
    -- 297: tmp5 += np.transpose(tmp4, (1, 0, 2, 3)) * -1
    .add 17 (.tr 14 [1, 0, 2, 3]) (-1) 1,
    -- 298: del tmp4
    .del 14,
    -- 299: tmp2 = np.copy(f.oo)
    .set 18 (.cp 0) 1 1,
    -- 300: tmp2 += np.transpose(ints.tmp0, (1, 0)) * 0.5
    .add 18 (.tr 6 [1, 0]) 1 2,
    -- 301: del ints.tmp0
    .del 6,
    -- 302: tmp1 = np.copy(f.vv)
    .set 19 (.cp 4) 1 1,
    -- 303: tmp1 += np.transpose(ints.tmp1, (1, 0)) * -0.5
    .add 19 (.tr 7 [1, 0]) (-1) 2,
    -- 304: del ints.tmp1
    .del 7,
    -- 305: tmp0 = einsum(v.oovv, (0, 1, 2, 3), r1, (1, 3), (0, 2))
    .set 20 (.ein [(8, [0, 1, 2, 3]), (2, [1, 3])] [0, 2]) 1 1,
    -- 306: r2new = np.copy(tmp5) * -1
    .set 21 (.cp 17) (-1) 1,
    -- 307: r2new += np.transpose(tmp5, (0, 1, 3, 2))
    .add 21 (.tr 17 [0, 1, 3, 2]) 1 1,
    -- 308: del tmp5
    .del 17,
    -- 309: r2new += tmp8
    .add 21 (.cp 16) 1 1,
    -- 310: r2new += np.transpose(tmp8, (1, 0, 2, 3)) * -1
    .add 21 (.tr 16 [1, 0, 2, 3]) (-1) 1,
    -- 311: del tmp8
    .del 16,
    -- 312: r1new = einsum(r2, (0, 1, 2, 3), v.ovvv, (1, 4, 2, 3), (0, 4)) * -0.5
    .set 22 (.ein [(1, [0, 1, 2, 3]), (3, [1, 4, 2, 3])] [0, 4]) (-1) 2,
    -- 313: r1new += einsum(r2, (0, 1, 2, 3), v.ovoo, (4, 3, 0, 1), (4, 2)) * -0.5
    .add 22 (.ein [(1, [0, 1, 2, 3]), (9, [4, 3, 0, 1])] [4, 2]) (-1) 2,
    -- 314: r1new += einsum(tmp0, (0, 1), t2, (2, 0, 3, 1), (2, 3))
    .add 22 (.ein [(20, [0, 1]), (10, [2, 0, 3, 1])] [2, 3]) 1 1,
    -- 315: del tmp0
    .del 20,
    -- 316: r1new += einsum(v.ovov, (0, 1, 2, 3), r1, (2, 1), (0, 3)) * -1
    .add 22 (.ein [(11, [0, 1, 2, 3]), (2, [2, 1])] [0, 3]) (-1) 1,
    -- 317: r1new += einsum(r1, (0, 1), tmp1, (1, 2), (0, 2))
    .add 22 (.ein [(2, [0, 1]), (19, [1, 2])] [0, 2]) 1 1,
    -- 318: del tmp1
    .del 19,
    -- 319: r1new += einsum(r1, (0, 1), tmp2, (0, 2), (2, 1)) * -1
    .add 22 (.ein [(2, [0, 1]), (18, [0, 2])] [2, 1]) (-1) 1,
    -- 320: del tmp2
    .del 18
  ]
  ret := [(chars! "r1new", 22), (chars! "r2new", 21)]

end Ebcc.Gen.GMP2Eom
