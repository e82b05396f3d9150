import Verif.Model.GenCode
/-!
Functions of `ebcc/codegen/UMP2.py`, written by `tools/gencode.py`.  Comments give the
number and the text of the line of each statement.
-/

set_option maxRecDepth 100000

namespace Ebcc.Gen.UMP2Eom

/-- codegen/UMP2.py:187-211 `hbar_matvec_ip_intermediates`. -/
def hbar_matvec_ip_intermediates : GenFun where
  args := [chars! "t2.abab", chars! "v.aabb.ovov", chars! "v.bbbb.ovov", chars! "t2.bbbb", chars! "t2.aaaa", chars! "v.aaaa.ovov"]
  body := [
    -- 206: tmp12 = einsum(t2.abab, (0, 1, 2, 3), v.aabb.ovov, (0, 2, 4, 3), (1, 4))
    .set 6 (.ein [(0, [0, 1, 2, 3]), (1, [0, 2, 4, 3])] [1, 4]) 1 1,
    -- 207: tmp10 = einsum(v.bbbb.ovov, (0, 1, 2, 3), t2.bbbb, (4, 2, 1, 3), (4, 0))
    .set 7 (.ein [(2, [0, 1, 2, 3]), (3, [4, 2, 1, 3])] [4, 0]) 1 1,
    -- 208: tmp4 = einsum(t2.abab, (0, 1, 2, 3), v.aabb.ovov, (4, 2, 1, 3), (0, 4))
    .set 8 (.ein [(0, [0, 1, 2, 3]), (1, [4, 2, 1, 3])] [0, 4]) 1 1,
    -- 209: tmp2 = einsum(t2.aaaa, (0, 1, 2, 3), v.aaaa.ovov, (4, 2, 1, 3), (0, 4))
    .set 9 (.ein [(4, [0, 1, 2, 3]), (5, [4, 2, 1, 3])] [0, 4]) 1 1
  ]
  ret := [(chars! "tmp10", 7), (chars! "tmp12", 6), (chars! "tmp2", 9), (chars! "tmp4", 8)]

/-- codegen/UMP2.py:213-290 `hbar_matvec_ip`. -/
def hbar_matvec_ip : GenFun where
  args := [chars! "ints.tmp10", chars! "ints.tmp12", chars! "ints.tmp2", chars! "ints.tmp4", chars! "r2.bbb", chars! "f.bb.oo", chars! "r1.b", chars! "v.bbbb.ooov", chars! "v.aaaa.ooov", chars! "r1.a", chars! "f.aa.oo", chars! "r2.aaa", chars! "f.bb.vv", chars! "r2.bab", chars! "v.aabb.ooov", chars! "r2.aba", chars! "f.aa.vv", chars! "v.aabb.ovoo"]
  body := [
    -- 239: tmp2 = np.copy(ints.tmp10) * 2
    .set 18 (.cp 0) 2 1,
    -- 240: del ints.tmp10
    .del 0,
    -- 241: tmp2 += ints.tmp12
    .add 18 (.cp 1) 1 1,
    -- 242: del ints.tmp12
    .del 1,
    -- 243: tmp0 = np.copy(ints.tmp2) * 2
    .set 19 (.cp 2) 2 1,
    -- 244: del ints.tmp2
    .del 2,
    -- 245: tmp0 += ints.tmp4
    .add 19 (.cp 3) 1 1,
    -- 246: del ints.tmp4
    .del 3,
    -- 247: tmp7 = einsum(r2.bbb, (0, 1, 2), f.bb.oo, (3, 1), (3, 0, 2))
    .set 20 (.ein [(4, [0, 1, 2]), (5, [3, 1])] [3, 0, 2]) 1 1,
    -- 248: tmp6 = einsum(r1.b, (0,), v.bbbb.ooov, (1, 0, 2, 3), (1, 2, 3))
    .set 21 (.ein [(6, [0]), (7, [1, 0, 2, 3])] [1, 2, 3]) 1 1,
    -- 249: tmp4 = einsum(v.aaaa.ooov, (0, 1, 2, 3), r1.a, (1,), (0, 2, 3))
    .set 22 (.ein [(8, [0, 1, 2, 3]), (9, [1])] [0, 2, 3]) 1 1,
    -- 250: tmp5 = einsum(f.aa.oo, (0, 1), r2.aaa, (2, 1, 3), (0, 2, 3))
    .set 23 (.ein [(10, [0, 1]), (11, [2, 1, 3])] [0, 2, 3]) 1 1,
    -- 251: tmp3 = np.copy(f.bb.oo) * 2
    .set 24 (.cp 5) 2 1,
    -- 252: tmp3 += tmp2
    .add 24 (.cp 18) 1 1,
    -- 253: tmp3 += np.transpose(tmp2, (1, 0))
    .add 24 (.tr 18 [1, 0]) 1 1,
    -- 254: del tmp2
    .del 18,
    -- 255: tmp1 = np.copy(f.aa.oo) * 2
    .set 25 (.cp 10) 2 1,
    -- 256: tmp1 += tmp0
    .add 25 (.cp 19) 1 1,
    -- 257: tmp1 += np.transpose(tmp0, (1, 0))
    .add 25 (.tr 19 [1, 0]) 1 1,
    -- 258: del tmp0
    .del 19,
    -- 259: r2new.bbb = einsum(r2.bbb, (0, 1, 2), f.bb.vv, (3, 2), (0, 1, 3)) * 2
    .set 26 (.ein [(4, [0, 1, 2]), (12, [3, 2])] [0, 1, 3]) 2 1,
    -- 260: r2new.bbb += tmp6 * -1
    .add 26 (.cp 21) (-1) 1,
    -- 261: r2new.bbb += np.transpose(tmp6, (1, 0, 2))
    .add 26 (.tr 21 [1, 0, 2]) 1 1,
    -- 262: del tmp6
    .del 21,
    -- 263: r2new.bbb += tmp7 * 2
    .add 26 (.cp 20) 2 1,
    -- 264: r2new.bbb += np.transpose(tmp7, (1, 0, 2)) * -2
    .add 26 (.tr 20 [1, 0, 2]) (-2) 1,
    -- 265: del tmp7
    .del 20,
    -- 266: r2new.bab = einsum(f.bb.oo, (0, 1), r2.bab, (1, 2, 3), (0, 2, 3)) * -1
    .set 27 (.ein [(5, [0, 1]), (13, [1, 2, 3])] [0, 2, 3]) (-1) 1,
    -- 267: r2new.bab += einsum(v.aabb.ooov, (0, 1, 2, 3), r1.a, (1,), (2, 0, 3))
    .add 27 (.ein [(14, [0, 1, 2, 3]), (9, [1])] [2, 0, 3]) 1 1,
    -- 268: r2new.bab += einsum(f.aa.oo, (0, 1), r2.bab, (2, 1, 3), (2, 0, 3)) * -1
    .add 27 (.ein [(10, [0, 1]), (13, [2, 1, 3])] [2, 0, 3]) (-1) 1,
    -- 269: r2new.bab += einsum(r2.bab, (0, 1, 2), f.bb.vv, (3, 2), (0, 1, 3))
    .add 27 (.ein [(13, [0, 1, 2]), (12, [3, 2])] [0, 1, 3]) 1 1,
    -- 270: r2new.aba = einsum(r2.aba, (0, 1, 2), f.aa.vv, (3, 2), (0, 1, 3))
    .set 28 (.ein [(15, [0, 1, 2]), (16, [3, 2])] [0, 1, 3]) 1 1,
    -- 271: r2new.aba += einsum(v.aabb.ovoo, (0, 1, 2, 3), r1.b, (3,), (0, 2, 1))
    .add 28 (.ein [(17, [0, 1, 2, 3]), (6, [3])] [0, 2, 1]) 1 1,
    -- 272: r2new.aba += einsum(f.bb.oo, (0, 1), r2.aba, (2, 1, 3), (2, 0, 3)) * -1
    .add 28 (.ein [(5, [0, 1]), (15, [2, 1, 3])] [2, 0, 3]) (-1) 1,
    -- 273: r2new.aba += einsum(f.aa.oo, (0, 1), r2.aba, (1, 2, 3), (0, 2, 3)) * -1
    .add 28 (.ein [(10, [0, 1]), (15, [1, 2, 3])] [0, 2, 3]) (-1) 1,
    -- 274: r2new.aaa = einsum(r2.aaa, (0, 1, 2), f.aa.vv, (3, 2), (0, 1, 3)) * 2
    .set 29 (.ein [(11, [0, 1, 2]), (16, [3, 2])] [0, 1, 3]) 2 1,
    -- 275: r2new.aaa += tmp4 * -1
    .add 29 (.cp 22) (-1) 1,
    -- 276: r2new.aaa += np.transpose(tmp4, (1, 0, 2))
    .add 29 (.tr 22 [1, 0, 2]) 1 1,
    -- 277: del tmp4
    .del 22,
    -- 278: r2new.aaa += tmp5 * 2
    .add 29 (.cp 23) 2 1,
    -- 279: r2new.aaa += np.transpose(tmp5, (1, 0, 2)) * -2
    .add 29 (.tr 23 [1, 0, 2]) (-2) 1,
    -- 280: del tmp5
    .del 23,
    -- 281: r1new.b = einsum(r2.bbb, (0, 1, 2), v.bbbb.ooov, (3, 1, 0, 2), (3,)) * 2
    .set 30 (.ein [(4, [0, 1, 2]), (7, [3, 1, 0, 2])] [3]) 2 1,
    -- 282: r1new.b += einsum(r2.aba, (0, 1, 2), v.aabb.ovoo, (0, 2, 3, 1), (3,))
    .add 30 (.ein [(15, [0, 1, 2]), (17, [0, 2, 3, 1])] [3]) 1 1,
    -- 283: r1new.b += einsum(tmp3, (0, 1), r1.b, (0,), (1,)) * -0.5
    .add 30 (.ein [(24, [0, 1]), (6, [0])] [1]) (-1) 2,
    -- 284: del tmp3
    .del 24,
    -- 285: r1new.a = einsum(r2.bab, (0, 1, 2), v.aabb.ooov, (3, 1, 0, 2), (3,))
    .set 31 (.ein [(13, [0, 1, 2]), (14, [3, 1, 0, 2])] [3]) 1 1,
    -- 286: r1new.a += einsum(r2.aaa, (0, 1, 2), v.aaaa.ooov, (3, 0, 1, 2), (3,)) * -2
    .add 31 (.ein [(11, [0, 1, 2]), (8, [3, 0, 1, 2])] [3]) (-2) 1,
    -- 287: r1new.a += einsum(r1.a, (0,), tmp1, (0, 1), (1,)) * -0.5
    .add 31 (.ein [(9, [0]), (25, [0, 1])] [1]) (-1) 2,
    -- 288: del tmp1
    .del 25
  ]
  ret := [(chars! "r1new.b", 30), (chars! "r1new.a", 31), (chars! "r2new.bbb", 26), (chars! "r2new.bab", 27), (chars! "r2new.aba", 28), (chars! "r2new.aaa", 29)]

/-- codegen/UMP2.py:292-316 `hbar_matvec_ea_intermediates`. -/
def hbar_matvec_ea_intermediates : GenFun where
  args := [chars! "v.aabb.ovov", chars! "t2.abab", chars! "v.bbbb.ovov", chars! "t2.bbbb", chars! "t2.aaaa", chars! "v.aaaa.ovov"]
  body := [
    -- 311: tmp12 = einsum(v.aabb.ovov, (0, 1, 2, 3), t2.abab, (0, 2, 1, 4), (4, 3))
    .set 6 (.ein [(0, [0, 1, 2, 3]), (1, [0, 2, 1, 4])] [4, 3]) 1 1,
    -- 312: tmp10 = einsum(v.bbbb.ovov, (0, 1, 2, 3), t2.bbbb, (0, 2, 4, 3), (4, 1))
    .set 7 (.ein [(2, [0, 1, 2, 3]), (3, [0, 2, 4, 3])] [4, 1]) 1 1,
    -- 313: tmp4 = einsum(v.aabb.ovov, (0, 1, 2, 3), t2.abab, (0, 2, 4, 3), (4, 1))
    .set 8 (.ein [(0, [0, 1, 2, 3]), (1, [0, 2, 4, 3])] [4, 1]) 1 1,
    -- 314: tmp2 = einsum(t2.aaaa, (0, 1, 2, 3), v.aaaa.ovov, (0, 3, 1, 4), (2, 4)) * -1
    .set 9 (.ein [(4, [0, 1, 2, 3]), (5, [0, 3, 1, 4])] [2, 4]) (-1) 1
  ]
  ret := [(chars! "tmp10", 7), (chars! "tmp12", 6), (chars! "tmp2", 9), (chars! "tmp4", 8)]

/-- codegen/UMP2.py:318-397 `hbar_matvec_ea`. -/
def hbar_matvec_ea : GenFun where
  args := [chars! "f.bb.vv", chars! "r2.bbb", chars! "r1.b", chars! "v.bbbb.ovvv", chars! "r2.aaa", chars! "f.aa.vv", chars! "r1.a", chars! "v.aaaa.ovvv", chars! "ints.tmp10", chars! "ints.tmp12", chars! "ints.tmp2", chars! "ints.tmp4", chars! "f.bb.oo", chars! "r2.bab", chars! "v.aabb.vvov", chars! "r2.aba", chars! "f.aa.oo", chars! "v.aabb.ovvv"]
  body := [
    -- 344: tmp7 = einsum(f.bb.vv, (0, 1), r2.bbb, (2, 1, 3), (3, 0, 2))
    .set 18 (.ein [(0, [0, 1]), (1, [2, 1, 3])] [3, 0, 2]) 1 1,
    -- 345: tmp8 = einsum(r1.b, (0,), v.bbbb.ovvv, (1, 2, 3, 0), (1, 2, 3))
    .set 19 (.ein [(2, [0]), (3, [1, 2, 3, 0])] [1, 2, 3]) 1 1,
    -- 346: tmp4 = einsum(r2.aaa, (0, 1, 2), f.aa.vv, (3, 1), (2, 3, 0))
    .set 20 (.ein [(4, [0, 1, 2]), (5, [3, 1])] [2, 3, 0]) 1 1,
    -- 347: tmp5 = einsum(r1.a, (0,), v.aaaa.ovvv, (1, 2, 3, 0), (1, 2, 3))
    .set 21 (.ein [(6, [0]), (7, [1, 2, 3, 0])] [1, 2, 3]) 1 1,
    -- 348: tmp2 = np.copy(ints.tmp10)
    .set 22 (.cp 8) 1 1,
    -- 349: del ints.tmp10
    .del 8,
    -- 350: tmp2 += ints.tmp12 * 0.5
    .add 22 (.cp 9) 1 2,
    -- 351: del ints.tmp12
    .del 9,
    -- 352: tmp0 = np.copy(ints.tmp2)
    .set 23 (.cp 10) 1 1,
    -- 353: del ints.tmp2
    .del 10,
    -- 354: tmp0 += ints.tmp4 * 0.5
    .add 23 (.cp 11) 1 2,
    -- 355: del ints.tmp4
    .del 11,
    -- 356: tmp9 = np.copy(tmp7) * 2
    .set 24 (.cp 18) 2 1,
    -- 357: del tmp7
    .del 18,
    -- 358: tmp9 += tmp8
    .add 24 (.cp 19) 1 1,
    -- 359: del tmp8
    .del 19,
    -- 360: tmp6 = np.copy(tmp4) * 2
    .set 25 (.cp 20) 2 1,
    -- 361: del tmp4
    .del 20,
    -- 362: tmp6 += tmp5
    .add 25 (.cp 21) 1 1,
    -- 363: del tmp5
    .del 21,
    -- 364: tmp3 = np.copy(f.bb.vv) * -1
    .set 26 (.cp 0) (-1) 1,
    -- 365: tmp3 += tmp2
    .add 26 (.cp 22) 1 1,
    -- 366: tmp3 += np.transpose(tmp2, (1, 0))
    .add 26 (.tr 22 [1, 0]) 1 1,
    -- 367: del tmp2
    .del 22,
    -- 368: tmp1 = np.copy(f.aa.vv) * -1
    .set 27 (.cp 5) (-1) 1,
    -- 369: tmp1 += tmp0
    .add 27 (.cp 23) 1 1,
    -- 370: tmp1 += np.transpose(tmp0, (1, 0))
    .add 27 (.tr 23 [1, 0]) 1 1,
    -- 371: del tmp0
    .del 23,
    -- 372: r2new.bbb = einsum(f.bb.oo, (0, 1), r2.bbb, (2, 3, 1), (2, 3, 0)) * -2
    .set 28 (.ein [(12, [0, 1]), (1, [2, 3, 1])] [2, 3, 0]) (-2) 1,
    -- 373: r2new.bbb += np.transpose(tmp9, (1, 2, 0)) * -1
    .add 28 (.tr 24 [1, 2, 0]) (-1) 1,
    -- 374: r2new.bbb += np.transpose(tmp9, (2, 1, 0))
    .add 28 (.tr 24 [2, 1, 0]) 1 1,
    -- 375: del tmp9
    .del 24,
    -- 376: r2new.bab = einsum(f.aa.vv, (0, 1), r2.bab, (2, 1, 3), (2, 0, 3))
    .set 29 (.ein [(5, [0, 1]), (13, [2, 1, 3])] [2, 0, 3]) 1 1,
    -- 377: r2new.bab += einsum(r1.a, (0,), v.aabb.vvov, (1, 0, 2, 3), (3, 1, 2)) * -1
    .add 29 (.ein [(6, [0]), (14, [1, 0, 2, 3])] [3, 1, 2]) (-1) 1,
    -- 378: r2new.bab += einsum(f.bb.oo, (0, 1), r2.bab, (2, 3, 1), (2, 3, 0)) * -1
    .add 29 (.ein [(12, [0, 1]), (13, [2, 3, 1])] [2, 3, 0]) (-1) 1,
    -- 379: r2new.bab += einsum(r2.bab, (0, 1, 2), f.bb.vv, (3, 0), (3, 1, 2))
    .add 29 (.ein [(13, [0, 1, 2]), (0, [3, 0])] [3, 1, 2]) 1 1,
    -- 380: r2new.aba = einsum(f.aa.vv, (0, 1), r2.aba, (1, 2, 3), (0, 2, 3))
    .set 30 (.ein [(5, [0, 1]), (15, [1, 2, 3])] [0, 2, 3]) 1 1,
    -- 381: r2new.aba += einsum(f.aa.oo, (0, 1), r2.aba, (2, 3, 1), (2, 3, 0)) * -1
    .add 30 (.ein [(16, [0, 1]), (15, [2, 3, 1])] [2, 3, 0]) (-1) 1,
    -- 382: r2new.aba += einsum(r2.aba, (0, 1, 2), f.bb.vv, (3, 1), (0, 3, 2))
    .add 30 (.ein [(15, [0, 1, 2]), (0, [3, 1])] [0, 3, 2]) 1 1,
    -- 383: r2new.aba += einsum(r1.b, (0,), v.aabb.ovvv, (1, 2, 3, 0), (2, 3, 1)) * -1
    .add 30 (.ein [(2, [0]), (17, [1, 2, 3, 0])] [2, 3, 1]) (-1) 1,
    -- 384: r2new.aaa = einsum(f.aa.oo, (0, 1), r2.aaa, (2, 3, 1), (2, 3, 0)) * -2
    .set 31 (.ein [(16, [0, 1]), (4, [2, 3, 1])] [2, 3, 0]) (-2) 1,
    -- 385: r2new.aaa += np.transpose(tmp6, (1, 2, 0)) * -1
    .add 31 (.tr 25 [1, 2, 0]) (-1) 1,
    -- 386: r2new.aaa += np.transpose(tmp6, (2, 1, 0))
    .add 31 (.tr 25 [2, 1, 0]) 1 1,
    -- 387: del tmp6
    .del 25,
    -- 388: r1new.b = einsum(r2.aba, (0, 1, 2), v.aabb.ovvv, (2, 0, 3, 1), (3,)) * -1
    .set 32 (.ein [(15, [0, 1, 2]), (17, [2, 0, 3, 1])] [3]) (-1) 1,
    -- 389: r1new.b += einsum(v.bbbb.ovvv, (0, 1, 2, 3), r2.bbb, (1, 3, 0), (2,)) * -2
    .add 32 (.ein [(3, [0, 1, 2, 3]), (1, [1, 3, 0])] [2]) (-2) 1,
    -- 390: r1new.b += einsum(r1.b, (0,), tmp3, (0, 1), (1,)) * -1
    .add 32 (.ein [(2, [0]), (26, [0, 1])] [1]) (-1) 1,
    -- 391: del tmp3
    .del 26,
    -- 392: r1new.a = einsum(v.aabb.vvov, (0, 1, 2, 3), r2.bab, (3, 1, 2), (0,)) * -1
    .set 33 (.ein [(14, [0, 1, 2, 3]), (13, [3, 1, 2])] [0]) (-1) 1,
    -- 393: r1new.a += einsum(v.aaaa.ovvv, (0, 1, 2, 3), r2.aaa, (1, 3, 0), (2,)) * -2
    .add 33 (.ein [(7, [0, 1, 2, 3]), (4, [1, 3, 0])] [2]) (-2) 1,
    -- 394: r1new.a += einsum(tmp1, (0, 1), r1.a, (0,), (1,)) * -1
    .add 33 (.ein [(27, [0, 1]), (6, [0])] [1]) (-1) 1,
    -- 395: del tmp1
    .del 27
  ]
  ret := [(chars! "r1new.b", 32), (chars! "r1new.a", 33), (chars! "r2new.bbb", 28), (chars! "r2new.bab", 29), (chars! "r2new.aba", 30), (chars! "r2new.aaa", 31)]

end Ebcc.Gen.UMP2Eom
