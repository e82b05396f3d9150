import Verif.Model.GenCode
/-!
Functions of `ebcc/codegen/GCCD.py`, written by `tools/gencode.py`.  Comments give the
number and the text of the line of each statement.
-/

set_option maxRecDepth 100000

namespace Ebcc.Gen.GCCDEom

/-- codegen/GCCD.py:285-323 `hbar_matvec_ip_intermediates`. -/
def hbar_matvec_ip_intermediates : GenFun where
  args := [chars! "t2", chars! "v.oovv", chars! "v.ovvv", chars! "v.ooov", chars! "v.ovoo", chars! "f.ov"]
  body := [
    -- 312: tmp13 = einsum(t2, (0, 1, 2, 3), v.oovv, (4, 1, 5, 3), (0, 4, 2, 5))
    .set 6 (.ein [(0, [0, 1, 2, 3]), (1, [4, 1, 5, 3])] [0, 4, 2, 5]) 1 1,
    -- 313: tmp12 = einsum(t2, (0, 1, 2, 3), v.oovv, (0, 1, 4, 3), (2, 4))
    .set 7 (.ein [(0, [0, 1, 2, 3]), (1, [0, 1, 4, 3])] [2, 4]) 1 1,
    -- 314: tmp11 = einsum(v.oovv, (0, 1, 2, 3), t2, (4, 5, 2, 3), (4, 5, 0, 1))
    .set 8 (.ein [(1, [0, 1, 2, 3]), (0, [4, 5, 2, 3])] [4, 5, 0, 1]) 1 1,
    -- 315: tmp9 = einsum(v.ovvv, (0, 1, 2, 3), t2, (4, 5, 2, 3), (4, 5, 0, 1))
    .set 9 (.ein [(2, [0, 1, 2, 3]), (0, [4, 5, 2, 3])] [4, 5, 0, 1]) 1 1,
    -- 316: tmp8 = einsum(t2, (0, 1, 2, 3), v.ovvv, (1, 4, 2, 3), (0, 4))
    .set 10 (.ein [(0, [0, 1, 2, 3]), (2, [1, 4, 2, 3])] [0, 4]) 1 1,
    -- 317: tmp6 = einsum(t2, (0, 1, 2, 3), v.ooov, (4, 1, 5, 3), (0, 4, 5, 2))
    .set 11 (.ein [(0, [0, 1, 2, 3]), (3, [4, 1, 5, 3])] [0, 4, 5, 2]) 1 1,
    -- 318: tmp5 = einsum(t2, (0, 1, 2, 3), v.ovoo, (4, 3, 0, 1), (4, 2))
    .set 12 (.ein [(0, [0, 1, 2, 3]), (4, [4, 3, 0, 1])] [4, 2]) 1 1,
    -- 319: tmp3 = einsum(f.ov, (0, 1), t2, (2, 3, 4, 1), (0, 2, 3, 4))
    .set 13 (.ein [(5, [0, 1]), (0, [2, 3, 4, 1])] [0, 2, 3, 4]) 1 1,
    -- 320: tmp2 = einsum(f.ov, (0, 1), t2, (2, 0, 3, 1), (2, 3))
    .set 14 (.ein [(5, [0, 1]), (0, [2, 0, 3, 1])] [2, 3]) 1 1,
    -- 321: tmp0 = einsum(v.oovv, (0, 1, 2, 3), t2, (4, 1, 2, 3), (4, 0))
    .set 15 (.ein [(1, [0, 1, 2, 3]), (0, [4, 1, 2, 3])] [4, 0]) 1 1
  ]
  ret := [(chars! "tmp0", 15), (chars! "tmp11", 8), (chars! "tmp12", 7), (chars! "tmp13", 6), (chars! "tmp2", 14), (chars! "tmp3", 13), (chars! "tmp5", 12), (chars! "tmp6", 11), (chars! "tmp8", 10), (chars! "tmp9", 9)]

/-- codegen/GCCD.py:325-412 `hbar_matvec_ip`. -/
def hbar_matvec_ip : GenFun where
  args := [chars! "r1", chars! "ints.tmp6", chars! "f.oo", chars! "r2", chars! "ints.tmp13", chars! "v.ovov", chars! "ints.tmp0", chars! "v.oovv", chars! "f.ov", chars! "ints.tmp2", chars! "ints.tmp5", chars! "ints.tmp8", chars! "f.vv", chars! "ints.tmp12", chars! "ints.tmp9", chars! "v.ovoo", chars! "ints.tmp3", chars! "ints.tmp11", chars! "v.oooo", chars! "t2"]
  body := [
    -- 351: tmp3 = einsum(r1, (0,), ints.tmp6, (1, 0, 2, 3), (1, 2, 3))
    .set 20 (.ein [(0, [0]), (1, [1, 0, 2, 3])] [1, 2, 3]) 1 1,
    -- 352: del ints.tmp6
    .del 1,
    -- 353: tmp2 = einsum(f.oo, (0, 1), r2, (2, 1, 3), (0, 2, 3))
    .set 21 (.ein [(2, [0, 1]), (3, [2, 1, 3])] [0, 2, 3]) 1 1,
    -- 354: tmp6 = einsum(ints.tmp13, (0, 1, 2, 3), r2, (4, 1, 3), (0, 4, 2))
    .set 22 (.ein [(4, [0, 1, 2, 3]), (3, [4, 1, 3])] [0, 4, 2]) 1 1,
    -- 355: del ints.tmp13
    .del 4,
    -- 356: tmp7 = einsum(v.ovov, (0, 1, 2, 3), r2, (4, 2, 1), (4, 0, 3))
    .set 23 (.ein [(5, [0, 1, 2, 3]), (3, [4, 2, 1])] [4, 0, 3]) 1 1,
    -- 357: tmp5 = einsum(ints.tmp0, (0, 1), r2, (2, 1, 3), (0, 2, 3))
    .set 24 (.ein [(6, [0, 1]), (3, [2, 1, 3])] [0, 2, 3]) 1 1,
    -- 358: tmp1 = einsum(r2, (0, 1, 2), v.oovv, (0, 1, 3, 2), (3,))
    .set 25 (.ein [(3, [0, 1, 2]), (7, [0, 1, 3, 2])] [3]) 1 1,
    -- 359: tmp4 = np.copy(tmp2)
    .set 26 (.cp 21) 1 1,
    -- 360: del tmp2
    .del 21,
    -- 361: tmp4 += tmp3
    .add 26 (.cp 20) 1 1,
    -- 362: del tmp3
    .del 20,
    -- 363: tmp12 = np.copy(f.ov)
    .set 27 (.cp 8) 1 1,
    -- 364: tmp12 += ints.tmp2
    .add 27 (.cp 9) 1 1,
    -- 365: del ints.tmp2
    .del 9,
    -- 366: tmp12 += ints.tmp5 * -0.5
    .add 27 (.cp 10) (-1) 2,
    -- 367: del ints.tmp5
    .del 10,
    -- 368: tmp12 += ints.tmp8 * -0.5
    .add 27 (.cp 11) (-1) 2,
    -- 369: del ints.tmp8
    .del 11,
    -- 370: tmp8 = np.copy(tmp5) * -0.5
    .set 28 (.cp 24) (-1) 2,
    -- 371: del tmp5
    .del 24,
    -- 372: tmp8 += tmp6
    .add 28 (.cp 22) 1 1,
    -- 373: del tmp6
    .del 22,
    -- 374: tmp8 += tmp7
    .add 28 (.cp 23) 1 1,
    -- 375: del tmp7
    .del 23,
    -- 376: tmp10 = np.copy(f.vv)
    .set 29 (.cp 12) 1 1,
    -- 377: tmp10 += np.transpose(ints.tmp12, (1, 0)) * -0.5
    .add 29 (.tr 13 [1, 0]) (-1) 2,
    -- 378: del ints.tmp12
    .del 13,
    -- 379: tmp11 = np.copy(np.transpose(ints.tmp9, (2, 0, 1, 3))) * 0.5
    .set 30 (.tr 14 [2, 0, 1, 3]) 1 2,
    -- 380: del ints.tmp9
    .del 14,
    -- 381: tmp11 += np.transpose(v.ovoo, (0, 2, 3, 1))
    .add 30 (.tr 15 [0, 2, 3, 1]) 1 1,
    -- 382: tmp11 += ints.tmp3 * -1
    .add 30 (.cp 16) (-1) 1,
    -- 383: del ints.tmp3
    .del 16,
    -- 384: tmp9 = np.copy(ints.tmp11) * 0.5
    .set 31 (.cp 17) 1 2,
    -- 385: del ints.tmp11
    .del 17,
    -- 386: tmp9 += v.oooo
    .add 31 (.cp 18) 1 1,
    -- 387: tmp0 = np.copy(f.oo) * 2
    .set 32 (.cp 2) 2 1,
    -- 388: tmp0 += np.transpose(ints.tmp0, (1, 0))
    .add 32 (.tr 6 [1, 0]) 1 1,
    -- 389: del ints.tmp0
    .del 6,
    -- 390: r2new = einsum(tmp1, (0,), t2, (1, 2, 3, 0), (1, 2, 3)) * 0.5
    .set 33 (.ein [(25, [0]), (19, [1, 2, 3, 0])] [1, 2, 3]) 1 2,
    -- 391: del tmp1
    .del 25,
    -- 392: r2new += tmp4
    .add 33 (.cp 26) 1 1,
    -- 393: r2new += np.transpose(tmp4, (1, 0, 2)) * -1
    .add 33 (.tr 26 [1, 0, 2]) (-1) 1,
    -- 394: del tmp4
    .del 26,
    -- 395: r2new += tmp8 * -1
    .add 33 (.cp 28) (-1) 1,
    -- 396: r2new += np.transpose(tmp8, (1, 0, 2))
    .add 33 (.tr 28 [1, 0, 2]) 1 1,
    -- 397: del tmp8
    .del 28,
    -- 398: r2new += einsum(tmp9, (0, 1, 2, 3), r2, (2, 3, 4), (0, 1, 4)) * 0.5
    .add 33 (.ein [(31, [0, 1, 2, 3]), (3, [2, 3, 4])] [0, 1, 4]) 1 2,
    -- 399: del tmp9
    .del 31,
    -- 400: r2new += einsum(r2, (0, 1, 2), tmp10, (2, 3), (0, 1, 3))
    .add 33 (.ein [(3, [0, 1, 2]), (29, [2, 3])] [0, 1, 3]) 1 1,
    -- 401: del tmp10
    .del 29,
    -- 402: r2new += einsum(r1, (0,), tmp11, (0, 1, 2, 3), (2, 1, 3))
    .add 33 (.ein [(0, [0]), (30, [0, 1, 2, 3])] [2, 1, 3]) 1 1,
    -- 403: del tmp11
    .del 30,
    -- 404: r2new += einsum(tmp12, (0, 1), r1, (2,), (2, 0, 1))
    .add 33 (.ein [(27, [0, 1]), (0, [2])] [2, 0, 1]) 1 1,
    -- 405: r2new += einsum(r1, (0,), tmp12, (1, 2), (1, 0, 2)) * -1
    .add 33 (.ein [(0, [0]), (27, [1, 2])] [1, 0, 2]) (-1) 1,
    -- 406: del tmp12
    .del 27,
    -- 407: r1new = einsum(r2, (0, 1, 2), v.ovoo, (3, 2, 0, 1), (3,)) * -0.5
    .set 34 (.ein [(3, [0, 1, 2]), (15, [3, 2, 0, 1])] [3]) (-1) 2,
    -- 408: r1new += einsum(r2, (0, 1, 2), f.ov, (1, 2), (0,))
    .add 34 (.ein [(3, [0, 1, 2]), (8, [1, 2])] [0]) 1 1,
    -- 409: r1new += einsum(tmp0, (0, 1), r1, (0,), (1,)) * -0.5
    .add 34 (.ein [(32, [0, 1]), (0, [0])] [1]) (-1) 2,
    -- 410: del tmp0
    .del 32
  ]
  ret := [(chars! "r1new", 34), (chars! "r2new", 33)]

/-- codegen/GCCD.py:742-780 `hbar_lmatvec_ip_intermediates`. -/
def hbar_lmatvec_ip_intermediates : GenFun where
  args := [chars! "t2", chars! "v.oovv", chars! "v.ovvv", chars! "v.ooov", chars! "v.ovoo", chars! "f.ov"]
  body := [
    -- 769: tmp12 = einsum(t2, (0, 1, 2, 3), v.oovv, (4, 1, 5, 3), (0, 4, 2, 5))
    .set 6 (.ein [(0, [0, 1, 2, 3]), (1, [4, 1, 5, 3])] [0, 4, 2, 5]) 1 1,
    -- 770: tmp11 = einsum(t2, (0, 1, 2, 3), v.oovv, (0, 1, 4, 3), (2, 4))
    .set 7 (.ein [(0, [0, 1, 2, 3]), (1, [0, 1, 4, 3])] [2, 4]) 1 1,
    -- 771: tmp10 = einsum(v.oovv, (0, 1, 2, 3), t2, (4, 5, 2, 3), (4, 5, 0, 1))
    .set 8 (.ein [(1, [0, 1, 2, 3]), (0, [4, 5, 2, 3])] [4, 5, 0, 1]) 1 1,
    -- 772: tmp6 = einsum(v.ovvv, (0, 1, 2, 3), t2, (4, 5, 2, 3), (4, 5, 0, 1))
    .set 9 (.ein [(2, [0, 1, 2, 3]), (0, [4, 5, 2, 3])] [4, 5, 0, 1]) 1 1,
    -- 773: tmp5 = einsum(t2, (0, 1, 2, 3), v.ovvv, (1, 4, 2, 3), (0, 4))
    .set 10 (.ein [(0, [0, 1, 2, 3]), (2, [1, 4, 2, 3])] [0, 4]) 1 1,
    -- 774: tmp4 = einsum(v.ooov, (0, 1, 2, 3), t2, (4, 1, 5, 3), (4, 0, 2, 5))
    .set 11 (.ein [(3, [0, 1, 2, 3]), (0, [4, 1, 5, 3])] [4, 0, 2, 5]) 1 1,
    -- 775: tmp3 = einsum(t2, (0, 1, 2, 3), v.ovoo, (4, 3, 0, 1), (4, 2))
    .set 12 (.ein [(0, [0, 1, 2, 3]), (4, [4, 3, 0, 1])] [4, 2]) 1 1,
    -- 776: tmp2 = einsum(v.oovv, (0, 1, 2, 3), t2, (4, 1, 2, 3), (4, 0))
    .set 13 (.ein [(1, [0, 1, 2, 3]), (0, [4, 1, 2, 3])] [4, 0]) 1 1,
    -- 777: tmp1 = einsum(f.ov, (0, 1), t2, (2, 3, 4, 1), (0, 2, 3, 4))
    .set 14 (.ein [(5, [0, 1]), (0, [2, 3, 4, 1])] [0, 2, 3, 4]) 1 1,
    -- 778: tmp0 = einsum(f.ov, (0, 1), t2, (2, 0, 3, 1), (2, 3))
    .set 15 (.ein [(5, [0, 1]), (0, [2, 0, 3, 1])] [2, 3]) 1 1
  ]
  ret := [(chars! "tmp0", 15), (chars! "tmp1", 14), (chars! "tmp10", 8), (chars! "tmp11", 7), (chars! "tmp12", 6), (chars! "tmp2", 13), (chars! "tmp3", 12), (chars! "tmp4", 11), (chars! "tmp5", 10), (chars! "tmp6", 9)]

/-- codegen/GCCD.py:782-864 `hbar_lmatvec_ip`. -/
def hbar_lmatvec_ip : GenFun where
  args := [chars! "ints.tmp2", chars! "r2", chars! "ints.tmp12", chars! "v.ovov", chars! "t2", chars! "f.oo", chars! "f.vv", chars! "ints.tmp11", chars! "ints.tmp10", chars! "v.oooo", chars! "r1", chars! "f.ov", chars! "ints.tmp0", chars! "ints.tmp3", chars! "ints.tmp5", chars! "ints.tmp1", chars! "ints.tmp4", chars! "ints.tmp6", chars! "v.ovoo", chars! "v.oovv", chars! "v.ooov"]
  body := [
    -- 808: tmp4 = einsum(ints.tmp2, (0, 1), r2, (2, 0, 3), (1, 2, 3))
    .set 21 (.ein [(0, [0, 1]), (1, [2, 0, 3])] [1, 2, 3]) 1 1,
    -- 809: tmp5 = einsum(ints.tmp12, (0, 1, 2, 3), r2, (4, 0, 2), (1, 4, 3))
    .set 22 (.ein [(2, [0, 1, 2, 3]), (1, [4, 0, 2])] [1, 4, 3]) 1 1,
    -- 810: del ints.tmp12
    .del 2,
    -- 811: tmp6 = einsum(v.ovov, (0, 1, 2, 3), r2, (4, 2, 1), (4, 0, 3))
    .set 23 (.ein [(3, [0, 1, 2, 3]), (1, [4, 2, 1])] [4, 0, 3]) 1 1,
    -- 812: tmp3 = einsum(r2, (0, 1, 2), t2, (0, 1, 3, 2), (3,))
    .set 24 (.ein [(1, [0, 1, 2]), (4, [0, 1, 3, 2])] [3]) 1 1,
    -- 813: tmp8 = einsum(f.oo, (0, 1), r2, (2, 1, 3), (0, 2, 3))
    .set 25 (.ein [(5, [0, 1]), (1, [2, 1, 3])] [0, 2, 3]) 1 1,
    -- 814: tmp10 = np.copy(f.vv)
    .set 26 (.cp 6) 1 1,
    -- 815: tmp10 += ints.tmp11 * -0.5
    .add 26 (.cp 7) (-1) 2,
    -- 816: del ints.tmp11
    .del 7,
    -- 817: tmp9 = np.copy(ints.tmp10) * 0.5
    .set 27 (.cp 8) 1 2,
    -- 818: del ints.tmp10
    .del 8,
    -- 819: tmp9 += v.oooo
    .add 27 (.cp 9) 1 1,
    -- 820: tmp7 = einsum(r1, (0,), f.ov, (1, 2), (1, 0, 2))
    .set 28 (.ein [(10, [0]), (11, [1, 2])] [1, 0, 2]) 1 1,
    -- 821: tmp7 += tmp4 * -0.5
    .add 28 (.cp 21) (-1) 2,
    -- 822: del tmp4
    .del 21,
    -- 823: tmp7 += tmp5
    .add 28 (.cp 22) 1 1,
    -- 824: del tmp5
    .del 22,
    -- 825: tmp7 += tmp6
    .add 28 (.cp 23) 1 1,
    -- 826: del tmp6
    .del 23,
    -- 827: tmp1 = np.copy(f.ov)
    .set 29 (.cp 11) 1 1,
    -- 828: tmp1 += ints.tmp0
    .add 29 (.cp 12) 1 1,
    -- 829: del ints.tmp0
    .del 12,
    -- 830: tmp1 += ints.tmp3 * -0.5
    .add 29 (.cp 13) (-1) 2,
    -- 831: del ints.tmp3
    .del 13,
    -- 832: tmp1 += ints.tmp5 * -0.5
    .add 29 (.cp 14) (-1) 2,
    -- 833: del ints.tmp5
    .del 14,
    -- 834: tmp2 = np.copy(f.oo) * 2
    .set 30 (.cp 5) 2 1,
    -- 835: tmp2 += ints.tmp2
    .add 30 (.cp 0) 1 1,
    -- 836: del ints.tmp2
    .del 0,
    -- 837: tmp0 = np.copy(ints.tmp1) * 0.5
    .set 31 (.cp 15) 1 2,
    -- 838: del ints.tmp1
    .del 15,
    -- 839: tmp0 += np.transpose(ints.tmp4, (1, 0, 2, 3))
    .add 31 (.tr 16 [1, 0, 2, 3]) 1 1,
    -- 840: del ints.tmp4
    .del 16,
    -- 841: tmp0 += np.transpose(ints.tmp6, (2, 0, 1, 3)) * -0.25
    .add 31 (.tr 17 [2, 0, 1, 3]) (-1) 4,
    -- 842: del ints.tmp6
    .del 17,
    -- 843: tmp0 += np.transpose(v.ovoo, (0, 2, 3, 1)) * -0.5
    .add 31 (.tr 18 [0, 2, 3, 1]) (-1) 2,
    -- 844: r2new = einsum(v.oovv, (0, 1, 2, 3), tmp3, (3,), (0, 1, 2)) * 0.5
    .set 32 (.ein [(19, [0, 1, 2, 3]), (24, [3])] [0, 1, 2]) 1 2,
    -- 845: del tmp3
    .del 24,
    -- 846: r2new += einsum(r1, (0,), v.ooov, (1, 2, 0, 3), (1, 2, 3)) * -1
    .add 32 (.ein [(10, [0]), (20, [1, 2, 0, 3])] [1, 2, 3]) (-1) 1,
    -- 847: r2new += tmp7 * -1
    .add 32 (.cp 28) (-1) 1,
    -- 848: r2new += np.transpose(tmp7, (1, 0, 2))
    .add 32 (.tr 28 [1, 0, 2]) 1 1,
    -- 849: del tmp7
    .del 28,
    -- 850: r2new += tmp8
    .add 32 (.cp 25) 1 1,
    -- 851: r2new += np.transpose(tmp8, (1, 0, 2)) * -1
    .add 32 (.tr 25 [1, 0, 2]) (-1) 1,
    -- 852: del tmp8
    .del 25,
    -- 853: r2new += einsum(tmp9, (0, 1, 2, 3), r2, (0, 1, 4), (2, 3, 4)) * 0.5
    .add 32 (.ein [(27, [0, 1, 2, 3]), (1, [0, 1, 4])] [2, 3, 4]) 1 2,
    -- 854: del tmp9
    .del 27,
    -- 855: r2new += einsum(r2, (0, 1, 2), tmp10, (2, 3), (0, 1, 3))
    .add 32 (.ein [(1, [0, 1, 2]), (26, [2, 3])] [0, 1, 3]) 1 1,
    -- 856: del tmp10
    .del 26,
    -- 857: r1new = einsum(tmp0, (0, 1, 2, 3), r2, (2, 1, 3), (0,)) * -1
    .set 33 (.ein [(31, [0, 1, 2, 3]), (1, [2, 1, 3])] [0]) (-1) 1,
    -- 858: del tmp0
    .del 31,
    -- 859: r1new += einsum(r2, (0, 1, 2), tmp1, (1, 2), (0,))
    .add 33 (.ein [(1, [0, 1, 2]), (29, [1, 2])] [0]) 1 1,
    -- 860: del tmp1
    .del 29,
    -- 861: r1new += einsum(r1, (0,), tmp2, (0, 1), (1,)) * -0.5
    .add 33 (.ein [(10, [0]), (30, [0, 1])] [1]) (-1) 2,
    -- 862: del tmp2
    .del 30
  ]
  ret := [(chars! "r1new", 33), (chars! "r2new", 32)]

/-- codegen/GCCD.py:414-448 `hbar_matvec_ea_intermediates`. -/
def hbar_matvec_ea_intermediates : GenFun where
  args := [chars! "t2", chars! "v.oovv", chars! "v.ovvv", chars! "v.ovoo", chars! "f.ov"]
  body := [
    -- 439: tmp12 = einsum(t2, (0, 1, 2, 3), v.oovv, (4, 1, 5, 3), (0, 4, 2, 5))
    .set 5 (.ein [(0, [0, 1, 2, 3]), (1, [4, 1, 5, 3])] [0, 4, 2, 5]) 1 1,
    -- 440: tmp10 = einsum(v.oovv, (0, 1, 2, 3), t2, (4, 1, 2, 3), (4, 0))
    .set 6 (.ein [(1, [0, 1, 2, 3]), (0, [4, 1, 2, 3])] [4, 0]) 1 1,
    -- 441: tmp8 = einsum(t2, (0, 1, 2, 3), v.ovvv, (1, 4, 5, 3), (0, 2, 4, 5))
    .set 7 (.ein [(0, [0, 1, 2, 3]), (2, [1, 4, 5, 3])] [0, 2, 4, 5]) 1 1,
    -- 442: tmp7 = einsum(t2, (0, 1, 2, 3), v.ovvv, (1, 4, 2, 3), (0, 4))
    .set 8 (.ein [(0, [0, 1, 2, 3]), (2, [1, 4, 2, 3])] [0, 4]) 1 1,
    -- 443: tmp6 = einsum(t2, (0, 1, 2, 3), v.ovoo, (4, 5, 0, 1), (4, 2, 3, 5))
    .set 9 (.ein [(0, [0, 1, 2, 3]), (3, [4, 5, 0, 1])] [4, 2, 3, 5]) 1 1,
    -- 444: tmp5 = einsum(t2, (0, 1, 2, 3), v.ovoo, (4, 3, 0, 1), (4, 2))
    .set 10 (.ein [(0, [0, 1, 2, 3]), (3, [4, 3, 0, 1])] [4, 2]) 1 1,
    -- 445: tmp2 = einsum(f.ov, (0, 1), t2, (2, 0, 3, 1), (2, 3))
    .set 11 (.ein [(4, [0, 1]), (0, [2, 0, 3, 1])] [2, 3]) 1 1,
    -- 446: tmp0 = einsum(t2, (0, 1, 2, 3), v.oovv, (0, 1, 4, 3), (2, 4))
    .set 12 (.ein [(0, [0, 1, 2, 3]), (1, [0, 1, 4, 3])] [2, 4]) 1 1
  ]
  ret := [(chars! "tmp0", 12), (chars! "tmp10", 6), (chars! "tmp12", 5), (chars! "tmp2", 11), (chars! "tmp5", 10), (chars! "tmp6", 9), (chars! "tmp7", 8), (chars! "tmp8", 7)]

/-- codegen/GCCD.py:450-533 `hbar_matvec_ea`. -/
def hbar_matvec_ea : GenFun where
  args := [chars! "f.vv", chars! "ints.tmp0", chars! "r2", chars! "v.ovov", chars! "ints.tmp12", chars! "v.oovv", chars! "f.oo", chars! "ints.tmp10", chars! "r1", chars! "ints.tmp8", chars! "f.ov", chars! "ints.tmp2", chars! "ints.tmp5", chars! "ints.tmp7", chars! "ints.tmp6", chars! "v.ovvv", chars! "t2", chars! "v.vvvv"]
  body := [
    -- 476: tmp5 = np.copy(f.vv) * 2
    .set 18 (.cp 0) 2 1,
    -- 477: tmp5 += np.transpose(ints.tmp0, (1, 0)) * -1
    .add 18 (.tr 1 [1, 0]) (-1) 1,
    -- 478: tmp6 = einsum(tmp5, (0, 1), r2, (2, 0, 3), (3, 2, 1)) * -0.5
    .set 19 (.ein [(18, [0, 1]), (2, [2, 0, 3])] [3, 2, 1]) (-1) 2,
    -- 479: del tmp5
    .del 18,
    -- 480: tmp4 = einsum(r2, (0, 1, 2), v.ovov, (3, 1, 2, 4), (3, 0, 4))
    .set 20 (.ein [(2, [0, 1, 2]), (3, [3, 1, 2, 4])] [3, 0, 4]) 1 1,
    -- 481: tmp3 = einsum(ints.tmp12, (0, 1, 2, 3), r2, (4, 3, 1), (0, 2, 4))
    .set 21 (.ein [(4, [0, 1, 2, 3]), (2, [4, 3, 1])] [0, 2, 4]) 1 1,
    -- 482: del ints.tmp12
    .del 4,
    -- 483: tmp1 = einsum(v.oovv, (0, 1, 2, 3), r2, (2, 3, 4), (4, 0, 1))
    .set 22 (.ein [(5, [0, 1, 2, 3]), (2, [2, 3, 4])] [4, 0, 1]) 1 1,
    -- 484: tmp10 = np.copy(f.oo)
    .set 23 (.cp 6) 1 1,
    -- 485: tmp10 += np.transpose(ints.tmp10, (1, 0)) * 0.5
    .add 23 (.tr 7 [1, 0]) 1 2,
    -- 486: del ints.tmp10
    .del 7,
    -- 487: tmp2 = einsum(r1, (0,), ints.tmp8, (1, 2, 3, 0), (1, 2, 3))
    .set 24 (.ein [(8, [0]), (9, [1, 2, 3, 0])] [1, 2, 3]) 1 1,
    -- 488: del ints.tmp8
    .del 9,
    -- 489: tmp11 = np.copy(f.ov)
    .set 25 (.cp 10) 1 1,
    -- 490: tmp11 += ints.tmp2
    .add 25 (.cp 11) 1 1,
    -- 491: del ints.tmp2
    .del 11,
    -- 492: tmp11 += ints.tmp5 * -0.5
    .add 25 (.cp 12) (-1) 2,
    -- 493: del ints.tmp5
    .del 12,
    -- 494: tmp11 += ints.tmp7 * -0.5
    .add 25 (.cp 13) (-1) 2,
    -- 495: del ints.tmp7
    .del 13,
    -- 496: tmp9 = einsum(r1, (0,), f.ov, (1, 0), (1,))
    .set 26 (.ein [(8, [0]), (10, [1, 0])] [1]) 1 1,
    -- 497: tmp9 += einsum(v.oovv, (0, 1, 2, 3), r2, (2, 3, 1), (0,)) * 0.5
    .add 26 (.ein [(5, [0, 1, 2, 3]), (2, [2, 3, 1])] [0]) 1 2,
    -- 498: tmp8 = np.copy(ints.tmp6) * 0.5
    .set 27 (.cp 14) 1 2,
    -- 499: del ints.tmp6
    .del 14,
    -- 500: tmp8 += np.transpose(v.ovvv, (0, 2, 3, 1))
    .add 27 (.tr 15 [0, 2, 3, 1]) 1 1,
    -- 501: tmp7 = np.copy(tmp3)
    .set 28 (.cp 21) 1 1,
    -- 502: del tmp3
    .del 21,
    -- 503: tmp7 += tmp4
    .add 28 (.cp 20) 1 1,
    -- 504: del tmp4
    .del 20,
    -- 505: tmp7 += np.transpose(tmp6, (0, 2, 1)) * -1
    .add 28 (.tr 19 [0, 2, 1]) (-1) 1,
    -- 506: del tmp6
    .del 19,
    -- 507: tmp0 = np.copy(f.vv)
    .set 29 (.cp 0) 1 1,
    -- 508: tmp0 += np.transpose(ints.tmp0, (1, 0)) * -0.5
    .add 29 (.tr 1 [1, 0]) (-1) 2,
    -- 509: del ints.tmp0
    .del 1,
    -- 510: r2new = einsum(tmp1, (0, 1, 2), t2, (2, 1, 3, 4), (3, 4, 0)) * -0.25
    .set 30 (.ein [(22, [0, 1, 2]), (16, [2, 1, 3, 4])] [3, 4, 0]) (-1) 4,
    -- 511: del tmp1
    .del 22,
    -- 512: r2new += einsum(r2, (0, 1, 2), v.vvvv, (3, 4, 0, 1), (3, 4, 2)) * 0.5
    .add 30 (.ein [(2, [0, 1, 2]), (17, [3, 4, 0, 1])] [3, 4, 2]) 1 2,
    -- 513: r2new += np.transpose(tmp2, (1, 2, 0))
    .add 30 (.tr 24 [1, 2, 0]) 1 1,
    -- 514: r2new += np.transpose(tmp2, (2, 1, 0)) * -1
    .add 30 (.tr 24 [2, 1, 0]) (-1) 1,
    -- 515: del tmp2
    .del 24,
    -- 516: r2new += np.transpose(tmp7, (1, 2, 0)) * -1
    .add 30 (.tr 28 [1, 2, 0]) (-1) 1,
    -- 517: r2new += np.transpose(tmp7, (2, 1, 0))
    .add 30 (.tr 28 [2, 1, 0]) 1 1,
    -- 518: del tmp7
    .del 28,
    -- 519: r2new += einsum(r1, (0,), tmp8, (1, 2, 3, 0), (3, 2, 1))
    .add 30 (.ein [(8, [0]), (27, [1, 2, 3, 0])] [3, 2, 1]) 1 1,
    -- 520: del tmp8
    .del 27,
    -- 521: r2new += einsum(tmp9, (0,), t2, (1, 0, 2, 3), (2, 3, 1))
    .add 30 (.ein [(26, [0]), (16, [1, 0, 2, 3])] [2, 3, 1]) 1 1,
    -- 522: del tmp9
    .del 26,
    -- 523: r2new += einsum(tmp10, (0, 1), r2, (2, 3, 0), (2, 3, 1)) * -1
    .add 30 (.ein [(23, [0, 1]), (2, [2, 3, 0])] [2, 3, 1]) (-1) 1,
    -- 524: del tmp10
    .del 23,
    -- 525: r2new += einsum(tmp11, (0, 1), r1, (2,), (2, 1, 0))
    .add 30 (.ein [(25, [0, 1]), (8, [2])] [2, 1, 0]) 1 1,
    -- 526: r2new += einsum(tmp11, (0, 1), r1, (2,), (1, 2, 0)) * -1
    .add 30 (.ein [(25, [0, 1]), (8, [2])] [1, 2, 0]) (-1) 1,
    -- 527: del tmp11
    .del 25,
    -- 528: r1new = einsum(v.ovvv, (0, 1, 2, 3), r2, (2, 3, 0), (1,)) * -0.5
    .set 31 (.ein [(15, [0, 1, 2, 3]), (2, [2, 3, 0])] [1]) (-1) 2,
    -- 529: r1new += einsum(f.ov, (0, 1), r2, (2, 1, 0), (2,))
    .add 31 (.ein [(10, [0, 1]), (2, [2, 1, 0])] [2]) 1 1,
    -- 530: r1new += einsum(tmp0, (0, 1), r1, (0,), (1,))
    .add 31 (.ein [(29, [0, 1]), (8, [0])] [1]) 1 1,
    -- 531: del tmp0
    .del 29
  ]
  ret := [(chars! "r1new", 31), (chars! "r2new", 30)]

/-- codegen/GCCD.py:866-900 `hbar_lmatvec_ea_intermediates`. -/
def hbar_lmatvec_ea_intermediates : GenFun where
  args := [chars! "t2", chars! "v.oovv", chars! "v.ovvv", chars! "v.ovoo", chars! "f.ov"]
  body := [
    -- 891: tmp11 = einsum(t2, (0, 1, 2, 3), v.oovv, (4, 1, 5, 3), (0, 4, 2, 5))
    .set 5 (.ein [(0, [0, 1, 2, 3]), (1, [4, 1, 5, 3])] [0, 4, 2, 5]) 1 1,
    -- 892: tmp9 = einsum(v.oovv, (0, 1, 2, 3), t2, (4, 1, 2, 3), (4, 0))
    .set 6 (.ein [(1, [0, 1, 2, 3]), (0, [4, 1, 2, 3])] [4, 0]) 1 1,
    -- 893: tmp6 = einsum(t2, (0, 1, 2, 3), v.ovvv, (1, 4, 5, 3), (0, 2, 4, 5))
    .set 7 (.ein [(0, [0, 1, 2, 3]), (2, [1, 4, 5, 3])] [0, 2, 4, 5]) 1 1,
    -- 894: tmp5 = einsum(t2, (0, 1, 2, 3), v.ovvv, (1, 4, 2, 3), (0, 4))
    .set 8 (.ein [(0, [0, 1, 2, 3]), (2, [1, 4, 2, 3])] [0, 4]) 1 1,
    -- 895: tmp4 = einsum(t2, (0, 1, 2, 3), v.ovoo, (4, 5, 0, 1), (4, 2, 3, 5))
    .set 9 (.ein [(0, [0, 1, 2, 3]), (3, [4, 5, 0, 1])] [4, 2, 3, 5]) 1 1,
    -- 896: tmp3 = einsum(t2, (0, 1, 2, 3), v.ovoo, (4, 3, 0, 1), (4, 2))
    .set 10 (.ein [(0, [0, 1, 2, 3]), (3, [4, 3, 0, 1])] [4, 2]) 1 1,
    -- 897: tmp2 = einsum(t2, (0, 1, 2, 3), v.oovv, (0, 1, 4, 3), (2, 4))
    .set 11 (.ein [(0, [0, 1, 2, 3]), (1, [0, 1, 4, 3])] [2, 4]) 1 1,
    -- 898: tmp0 = einsum(f.ov, (0, 1), t2, (2, 0, 3, 1), (2, 3))
    .set 12 (.ein [(4, [0, 1]), (0, [2, 0, 3, 1])] [2, 3]) 1 1
  ]
  ret := [(chars! "tmp0", 12), (chars! "tmp11", 5), (chars! "tmp2", 11), (chars! "tmp3", 10), (chars! "tmp4", 9), (chars! "tmp5", 8), (chars! "tmp6", 7), (chars! "tmp9", 6)]

/-- codegen/GCCD.py:902-981 `hbar_lmatvec_ea`. -/
def hbar_lmatvec_ea : GenFun where
  args := [chars! "f.vv", chars! "ints.tmp2", chars! "r2", chars! "ints.tmp11", chars! "v.ovov", chars! "t2", chars! "f.oo", chars! "ints.tmp9", chars! "r1", chars! "f.ov", chars! "ints.tmp6", chars! "ints.tmp4", chars! "v.ovvv", chars! "ints.tmp0", chars! "ints.tmp3", chars! "ints.tmp5", chars! "v.oovv", chars! "v.vvvv"]
  body := [
    -- 928: tmp7 = np.copy(f.vv) * 2
    .set 18 (.cp 0) 2 1,
    -- 929: tmp7 += ints.tmp2 * -1
    .add 18 (.cp 1) (-1) 1,
    -- 930: tmp8 = einsum(r2, (0, 1, 2), tmp7, (1, 3), (2, 0, 3)) * -0.5
    .set 19 (.ein [(2, [0, 1, 2]), (18, [1, 3])] [2, 0, 3]) (-1) 2,
    -- 931: del tmp7
    .del 18,
    -- 932: tmp5 = einsum(r2, (0, 1, 2), ints.tmp11, (2, 3, 1, 4), (3, 4, 0))
    .set 20 (.ein [(2, [0, 1, 2]), (3, [2, 3, 1, 4])] [3, 4, 0]) 1 1,
    -- 933: del ints.tmp11
    .del 3,
    -- 934: tmp6 = einsum(r2, (0, 1, 2), v.ovov, (3, 1, 2, 4), (3, 0, 4))
    .set 21 (.ein [(2, [0, 1, 2]), (4, [3, 1, 2, 4])] [3, 0, 4]) 1 1,
    -- 935: tmp4 = einsum(r2, (0, 1, 2), t2, (3, 4, 0, 1), (2, 3, 4))
    .set 22 (.ein [(2, [0, 1, 2]), (5, [3, 4, 0, 1])] [2, 3, 4]) 1 1,
    -- 936: tmp10 = np.copy(f.oo)
    .set 23 (.cp 6) 1 1,
    -- 937: tmp10 += ints.tmp9 * 0.5
    .add 23 (.cp 7) 1 2,
    -- 938: del ints.tmp9
    .del 7,
    -- 939: tmp0 = einsum(r2, (0, 1, 2), t2, (3, 2, 0, 1), (3,))
    .set 24 (.ein [(2, [0, 1, 2]), (5, [3, 2, 0, 1])] [3]) 1 1,
    -- 940: tmp9 = einsum(r1, (0,), f.ov, (1, 2), (1, 2, 0))
    .set 25 (.ein [(8, [0]), (9, [1, 2])] [1, 2, 0]) 1 1,
    -- 941: tmp9 += tmp5
    .add 25 (.cp 20) 1 1,
    -- 942: del tmp5
    .del 20,
    -- 943: tmp9 += tmp6
    .add 25 (.cp 21) 1 1,
    -- 944: del tmp6
    .del 21,
    -- 945: tmp9 += np.transpose(tmp8, (0, 2, 1)) * -1
    .add 25 (.tr 19 [0, 2, 1]) (-1) 1,
    -- 946: del tmp8
    .del 19,
    -- 947: tmp1 = np.copy(ints.tmp6)
    .set 26 (.cp 10) 1 1,
    -- 948: del ints.tmp6
    .del 10,
    -- 949: tmp1 += ints.tmp4 * -0.25
    .add 26 (.cp 11) (-1) 4,
    -- 950: del ints.tmp4
    .del 11,
    -- 951: tmp1 += np.transpose(v.ovvv, (0, 2, 3, 1)) * -0.5
    .add 26 (.tr 12 [0, 2, 3, 1]) (-1) 2,
    -- 952: tmp3 = np.copy(f.vv)
    .set 27 (.cp 0) 1 1,
    -- 953: tmp3 += ints.tmp2 * -0.5
    .add 27 (.cp 1) (-1) 2,
    -- 954: del ints.tmp2
    .del 1,
    -- 955: tmp2 = np.copy(f.ov)
    .set 28 (.cp 9) 1 1,
    -- 956: tmp2 += ints.tmp0
    .add 28 (.cp 13) 1 1,
    -- 957: del ints.tmp0
    .del 13,
    -- 958: tmp2 += ints.tmp3 * -0.5
    .add 28 (.cp 14) (-1) 2,
    -- 959: del ints.tmp3
    .del 14,
    -- 960: tmp2 += ints.tmp5 * -0.5
    .add 28 (.cp 15) (-1) 2,
    -- 961: del ints.tmp5
    .del 15,
    -- 962: r2new = einsum(v.oovv, (0, 1, 2, 3), tmp4, (4, 1, 0), (2, 3, 4)) * -0.25
    .set 29 (.ein [(16, [0, 1, 2, 3]), (22, [4, 1, 0])] [2, 3, 4]) (-1) 4,
    -- 963: del tmp4
    .del 22,
    -- 964: r2new += einsum(v.oovv, (0, 1, 2, 3), tmp0, (1,), (2, 3, 0)) * 0.5
    .add 29 (.ein [(16, [0, 1, 2, 3]), (24, [1])] [2, 3, 0]) 1 2,
    -- 965: r2new += einsum(r2, (0, 1, 2), v.vvvv, (3, 4, 0, 1), (3, 4, 2)) * 0.5
    .add 29 (.ein [(2, [0, 1, 2]), (17, [3, 4, 0, 1])] [3, 4, 2]) 1 2,
    -- 966: r2new += einsum(r1, (0,), v.ovvv, (1, 0, 2, 3), (2, 3, 1)) * -1
    .add 29 (.ein [(8, [0]), (12, [1, 0, 2, 3])] [2, 3, 1]) (-1) 1,
    -- 967: r2new += np.transpose(tmp9, (1, 2, 0)) * -1
    .add 29 (.tr 25 [1, 2, 0]) (-1) 1,
    -- 968: r2new += np.transpose(tmp9, (2, 1, 0))
    .add 29 (.tr 25 [2, 1, 0]) 1 1,
    -- 969: del tmp9
    .del 25,
    -- 970: r2new += einsum(tmp10, (0, 1), r2, (2, 3, 0), (2, 3, 1)) * -1
    .add 29 (.ein [(23, [0, 1]), (2, [2, 3, 0])] [2, 3, 1]) (-1) 1,
    -- 971: del tmp10
    .del 23,
    -- 972: r1new = einsum(tmp0, (0,), f.ov, (0, 1), (1,)) * -0.5
    .set 30 (.ein [(24, [0]), (9, [0, 1])] [1]) (-1) 2,
    -- 973: del tmp0
    .del 24,
    -- 974: r1new += einsum(tmp1, (0, 1, 2, 3), r2, (2, 1, 0), (3,)) * -1
    .add 30 (.ein [(26, [0, 1, 2, 3]), (2, [2, 1, 0])] [3]) (-1) 1,
    -- 975: del tmp1
    .del 26,
    -- 976: r1new += einsum(tmp2, (0, 1), r2, (2, 1, 0), (2,))
    .add 30 (.ein [(28, [0, 1]), (2, [2, 1, 0])] [2]) 1 1,
    -- 977: del tmp2
    .del 28,
    -- 978: r1new += einsum(r1, (0,), tmp3, (0, 1), (1,))
    .add 30 (.ein [(8, [0]), (27, [0, 1])] [1]) 1 1,
    -- 979: del tmp3
    .del 27
  ]
  ret := [(chars! "r1new", 30), (chars! "r2new", 29)]

/-- codegen/GCCD.py:535-577 `hbar_matvec_ee_intermediates`. -/
def hbar_matvec_ee_intermediates : GenFun where
  args := [chars! "t2", chars! "v.oovv", chars! "v.ovvv", chars! "v.ovoo", chars! "v.ooov", chars! "f.ov"]
  body := [
    -- 564: tmp30 = einsum(t2, (0, 1, 2, 3), v.oovv, (4, 1, 5, 3), (0, 4, 2, 5))
    .set 6 (.ein [(0, [0, 1, 2, 3]), (1, [4, 1, 5, 3])] [0, 4, 2, 5]) 1 1,
    -- 565: tmp28 = einsum(v.oovv, (0, 1, 2, 3), t2, (4, 5, 2, 3), (4, 5, 0, 1))
    .set 7 (.ein [(1, [0, 1, 2, 3]), (0, [4, 5, 2, 3])] [4, 5, 0, 1]) 1 1,
    -- 566: tmp23 = einsum(t2, (0, 1, 2, 3), v.ovvv, (1, 4, 5, 3), (0, 2, 4, 5))
    .set 8 (.ein [(0, [0, 1, 2, 3]), (2, [1, 4, 5, 3])] [0, 2, 4, 5]) 1 1,
    -- 567: tmp21 = einsum(v.ovvv, (0, 1, 2, 3), t2, (4, 5, 2, 3), (4, 5, 0, 1))
    .set 9 (.ein [(2, [0, 1, 2, 3]), (0, [4, 5, 2, 3])] [4, 5, 0, 1]) 1 1,
    -- 568: tmp20 = einsum(t2, (0, 1, 2, 3), v.ovvv, (1, 4, 2, 3), (0, 4))
    .set 10 (.ein [(0, [0, 1, 2, 3]), (2, [1, 4, 2, 3])] [0, 4]) 1 1,
    -- 569: tmp16 = einsum(t2, (0, 1, 2, 3), v.ovoo, (4, 5, 0, 1), (4, 2, 3, 5))
    .set 11 (.ein [(0, [0, 1, 2, 3]), (3, [4, 5, 0, 1])] [4, 2, 3, 5]) 1 1,
    -- 570: tmp14 = einsum(t2, (0, 1, 2, 3), v.ooov, (4, 1, 5, 3), (0, 4, 5, 2))
    .set 12 (.ein [(0, [0, 1, 2, 3]), (4, [4, 1, 5, 3])] [0, 4, 5, 2]) 1 1,
    -- 571: tmp13 = einsum(t2, (0, 1, 2, 3), v.ovoo, (4, 3, 0, 1), (4, 2))
    .set 13 (.ein [(0, [0, 1, 2, 3]), (3, [4, 3, 0, 1])] [4, 2]) 1 1,
    -- 572: tmp6 = einsum(f.ov, (0, 1), t2, (2, 3, 4, 1), (0, 2, 3, 4))
    .set 14 (.ein [(5, [0, 1]), (0, [2, 3, 4, 1])] [0, 2, 3, 4]) 1 1,
    -- 573: tmp5 = einsum(f.ov, (0, 1), t2, (2, 0, 3, 1), (2, 3))
    .set 15 (.ein [(5, [0, 1]), (0, [2, 0, 3, 1])] [2, 3]) 1 1,
    -- 574: tmp1 = einsum(t2, (0, 1, 2, 3), v.oovv, (0, 1, 4, 3), (2, 4))
    .set 16 (.ein [(0, [0, 1, 2, 3]), (1, [0, 1, 4, 3])] [2, 4]) 1 1,
    -- 575: tmp0 = einsum(v.oovv, (0, 1, 2, 3), t2, (4, 1, 2, 3), (4, 0))
    .set 17 (.ein [(1, [0, 1, 2, 3]), (0, [4, 1, 2, 3])] [4, 0]) 1 1
  ]
  ret := [(chars! "tmp0", 17), (chars! "tmp1", 16), (chars! "tmp13", 13), (chars! "tmp14", 12), (chars! "tmp16", 11), (chars! "tmp20", 10), (chars! "tmp21", 9), (chars! "tmp23", 8), (chars! "tmp28", 7), (chars! "tmp30", 6), (chars! "tmp5", 15), (chars! "tmp6", 14)]

/-- codegen/GCCD.py:579-740 `hbar_matvec_ee`. -/
def hbar_matvec_ee : GenFun where
  args := [chars! "r1", chars! "f.ov", chars! "v.oovv", chars! "r2", chars! "f.oo", chars! "ints.tmp0", chars! "v.ooov", chars! "t2", chars! "ints.tmp6", chars! "v.ovov", chars! "ints.tmp14", chars! "ints.tmp30", chars! "ints.tmp23", chars! "f.vv", chars! "ints.tmp16", chars! "v.ovvv", chars! "ints.tmp21", chars! "ints.tmp1", chars! "ints.tmp5", chars! "ints.tmp13", chars! "ints.tmp20", chars! "ints.tmp28", chars! "v.oooo", chars! "v.vvvv", chars! "v.ovoo"]
  body := [
    -- 605: tmp19 = einsum(r1, (0, 1), f.ov, (2, 1), (2, 0))
    .set 25 (.ein [(0, [0, 1]), (1, [2, 1])] [2, 0]) 1 1,
    -- 606: tmp20 = einsum(v.oovv, (0, 1, 2, 3), r2, (4, 1, 2, 3), (4, 0))
    .set 26 (.ein [(2, [0, 1, 2, 3]), (3, [4, 1, 2, 3])] [4, 0]) 1 1,
    -- 607: tmp10 = einsum(r2, (0, 1, 2, 3), v.oovv, (0, 1, 4, 3), (2, 4))
    .set 27 (.ein [(3, [0, 1, 2, 3]), (2, [0, 1, 4, 3])] [2, 4]) 1 1,
    -- 608: tmp17 = np.copy(f.oo) * 2
    .set 28 (.cp 4) 2 1,
    -- 609: tmp17 += np.transpose(ints.tmp0, (1, 0))
    .add 28 (.tr 5 [1, 0]) 1 1,
    -- 610: tmp21 = np.copy(np.transpose(tmp19, (1, 0)))
    .set 29 (.tr 25 [1, 0]) 1 1,
    -- 611: del tmp19
    .del 25,
    -- 612: tmp21 += tmp20 * 0.5
    .add 29 (.cp 26) 1 2,
    -- 613: del tmp20
    .del 26,
    -- 614: tmp30 = einsum(v.ooov, (0, 1, 2, 3), r1, (1, 3), (0, 2))
    .set 30 (.ein [(6, [0, 1, 2, 3]), (0, [1, 3])] [0, 2]) 1 1,
    -- 615: tmp11 = einsum(tmp10, (0, 1), t2, (2, 3, 4, 1), (2, 3, 0, 4)) * -1
    .set 31 (.ein [(27, [0, 1]), (7, [2, 3, 4, 1])] [2, 3, 0, 4]) (-1) 1,
    -- 616: del tmp10
    .del 27,
    -- 617: tmp9 = einsum(r1, (0, 1), ints.tmp6, (0, 2, 3, 4), (2, 3, 4, 1))
    .set 32 (.ein [(0, [0, 1]), (8, [0, 2, 3, 4])] [2, 3, 4, 1]) 1 1,
    -- 618: del ints.tmp6
    .del 8,
    -- 619: tmp6 = einsum(v.ovov, (0, 1, 2, 3), r2, (4, 2, 5, 1), (4, 0, 5, 3))
    .set 33 (.ein [(9, [0, 1, 2, 3]), (3, [4, 2, 5, 1])] [4, 0, 5, 3]) 1 1,
    -- 620: tmp4 = einsum(r1, (0, 1), ints.tmp14, (2, 0, 3, 4), (2, 3, 4, 1))
    .set 34 (.ein [(0, [0, 1]), (10, [2, 0, 3, 4])] [2, 3, 4, 1]) 1 1,
    -- 621: del ints.tmp14
    .del 10,
    -- 622: tmp7 = einsum(r2, (0, 1, 2, 3), ints.tmp30, (4, 1, 5, 3), (4, 0, 5, 2))
    .set 35 (.ein [(3, [0, 1, 2, 3]), (11, [4, 1, 5, 3])] [4, 0, 5, 2]) 1 1,
    -- 623: del ints.tmp30
    .del 11,
    -- 624: tmp5 = einsum(ints.tmp23, (0, 1, 2, 3), r1, (4, 3), (0, 4, 1, 2))
    .set 36 (.ein [(12, [0, 1, 2, 3]), (0, [4, 3])] [0, 4, 1, 2]) 1 1,
    -- 625: del ints.tmp23
    .del 12,
    -- 626: tmp14 = einsum(f.vv, (0, 1), r2, (2, 3, 4, 1), (2, 3, 0, 4))
    .set 37 (.ein [(13, [0, 1]), (3, [2, 3, 4, 1])] [2, 3, 0, 4]) 1 1,
    -- 627: tmp13 = einsum(v.ooov, (0, 1, 2, 3), r1, (2, 4), (0, 1, 4, 3))
    .set 38 (.ein [(6, [0, 1, 2, 3]), (0, [2, 4])] [0, 1, 4, 3]) 1 1,
    -- 628: tmp16 = einsum(ints.tmp16, (0, 1, 2, 3), r1, (4, 3), (0, 4, 1, 2))
    .set 39 (.ein [(14, [0, 1, 2, 3]), (0, [4, 3])] [0, 4, 1, 2]) 1 1,
    -- 629: del ints.tmp16
    .del 14,
    -- 630: tmp18 = einsum(tmp17, (0, 1), r2, (2, 0, 3, 4), (2, 1, 3, 4)) * -0.5
    .set 40 (.ein [(28, [0, 1]), (3, [2, 0, 3, 4])] [2, 1, 3, 4]) (-1) 2,
    -- 631: del tmp17
    .del 28,
    -- 632: tmp22 = einsum(tmp21, (0, 1), t2, (2, 1, 3, 4), (2, 0, 3, 4)) * -1
    .set 41 (.ein [(29, [0, 1]), (7, [2, 1, 3, 4])] [2, 0, 3, 4]) (-1) 1,
    -- 633: del tmp21
    .del 29,
    -- 634: tmp27 = einsum(v.ovvv, (0, 1, 2, 3), r1, (0, 3), (1, 2))
    .set 42 (.ein [(15, [0, 1, 2, 3]), (0, [0, 3])] [1, 2]) 1 1,
    -- 635: tmp29 = einsum(v.ovvv, (0, 1, 2, 3), r1, (4, 1), (4, 0, 2, 3))
    .set 43 (.ein [(15, [0, 1, 2, 3]), (0, [4, 1])] [4, 0, 2, 3]) 1 1,
    -- 636: tmp31 = einsum(tmp30, (0, 1), t2, (2, 0, 3, 4), (2, 1, 3, 4)) * -1
    .set 44 (.ein [(30, [0, 1]), (7, [2, 0, 3, 4])] [2, 1, 3, 4]) (-1) 1,
    -- 637: del tmp30
    .del 30,
    -- 638: tmp24 = einsum(r1, (0, 1), ints.tmp21, (2, 3, 0, 4), (2, 3, 4, 1))
    .set 45 (.ein [(0, [0, 1]), (16, [2, 3, 0, 4])] [2, 3, 4, 1]) 1 1,
    -- 639: del ints.tmp21
    .del 16,
    -- 640: tmp25 = einsum(r2, (0, 1, 2, 3), ints.tmp1, (4, 3), (0, 1, 4, 2))
    .set 46 (.ein [(3, [0, 1, 2, 3]), (17, [4, 3])] [0, 1, 4, 2]) 1 1,
    -- 641: tmp12 = np.copy(tmp9)
    .set 47 (.cp 32) 1 1,
    -- 642: del tmp9
    .del 32,
    -- 643: tmp12 += tmp11 * 0.5
    .add 47 (.cp 31) 1 2,
    -- 644: del tmp11
    .del 31,
    -- 645: tmp3 = einsum(v.oovv, (0, 1, 2, 3), r2, (4, 5, 2, 3), (4, 5, 0, 1))
    .set 48 (.ein [(2, [0, 1, 2, 3]), (3, [4, 5, 2, 3])] [4, 5, 0, 1]) 1 1,
    -- 646: tmp8 = np.copy(tmp4)
    .set 49 (.cp 34) 1 1,
    -- 647: del tmp4
    .del 34,
    -- 648: tmp8 += tmp5
    .add 49 (.cp 36) 1 1,
    -- 649: del tmp5
    .del 36,
    -- 650: tmp8 += tmp6
    .add 49 (.cp 33) 1 1,
    -- 651: del tmp6
    .del 33,
    -- 652: tmp8 += tmp7 * -1
    .add 49 (.cp 35) (-1) 1,
    -- 653: del tmp7
    .del 35,
    -- 654: tmp15 = np.copy(np.transpose(tmp13, (1, 0, 2, 3))) * -1
    .set 50 (.tr 38 [1, 0, 2, 3]) (-1) 1,
    -- 655: del tmp13
    .del 38,
    -- 656: tmp15 += np.transpose(tmp14, (1, 0, 2, 3)) * -1
    .add 50 (.tr 37 [1, 0, 2, 3]) (-1) 1,
    -- 657: del tmp14
    .del 37,
    -- 658: tmp23 = np.copy(np.transpose(tmp16, (0, 1, 3, 2))) * -0.5
    .set 51 (.tr 39 [0, 1, 3, 2]) (-1) 2,
    -- 659: del tmp16
    .del 39,
    -- 660: tmp23 += np.transpose(tmp18, (1, 0, 3, 2))
    .add 51 (.tr 40 [1, 0, 3, 2]) 1 1,
    -- 661: del tmp18
    .del 40,
    -- 662: tmp23 += np.transpose(tmp22, (1, 0, 3, 2))
    .add 51 (.tr 41 [1, 0, 3, 2]) 1 1,
    -- 663: del tmp22
    .del 41,
    -- 664: tmp34 = np.copy(f.ov)
    .set 52 (.cp 1) 1 1,
    -- 665: tmp34 += ints.tmp5
    .add 52 (.cp 18) 1 1,
    -- 666: tmp34 += ints.tmp13 * -0.5
    .add 52 (.cp 19) (-1) 2,
    -- 667: tmp34 += ints.tmp20 * -0.5
    .add 52 (.cp 20) (-1) 2,
    -- 668: tmp28 = einsum(t2, (0, 1, 2, 3), tmp27, (4, 3), (0, 1, 2, 4)) * -1
    .set 53 (.ein [(7, [0, 1, 2, 3]), (42, [4, 3])] [0, 1, 2, 4]) (-1) 1,
    -- 669: del tmp27
    .del 42,
    -- 670: tmp33 = np.copy(ints.tmp28)
    .set 54 (.cp 21) 1 1,
    -- 671: del ints.tmp28
    .del 21,
    -- 672: tmp33 += v.oooo * 2
    .add 54 (.cp 22) 2 1,
    -- 673: tmp32 = np.copy(np.transpose(tmp29, (0, 1, 3, 2))) * -1
    .set 55 (.tr 43 [0, 1, 3, 2]) (-1) 1,
    -- 674: del tmp29
    .del 43,
    -- 675: tmp32 += np.transpose(tmp31, (0, 1, 3, 2))
    .add 55 (.tr 44 [0, 1, 3, 2]) 1 1,
    -- 676: del tmp31
    .del 44,
    -- 677: tmp35 = np.copy(f.ov) * 2
    .set 56 (.cp 1) 2 1,
    -- 678: tmp35 += ints.tmp5 * 2
    .add 56 (.cp 18) 2 1,
    -- 679: del ints.tmp5
    .del 18,
    -- 680: tmp35 += ints.tmp13 * -1
    .add 56 (.cp 19) (-1) 1,
    -- 681: del ints.tmp13
    .del 19,
    -- 682: tmp35 += ints.tmp20 * -1
    .add 56 (.cp 20) (-1) 1,
    -- 683: del ints.tmp20
    .del 20,
    -- 684: tmp26 = np.copy(tmp24) * 0.5
    .set 57 (.cp 45) 1 2,
    -- 685: del tmp24
    .del 45,
    -- 686: tmp26 += np.transpose(tmp25, (1, 0, 2, 3)) * -0.5
    .add 57 (.tr 46 [1, 0, 2, 3]) (-1) 2,
    -- 687: del tmp25
    .del 46,
    -- 688: tmp1 = np.copy(f.vv)
    .set 58 (.cp 13) 1 1,
    -- 689: tmp1 += np.transpose(ints.tmp1, (1, 0)) * -0.5
    .add 58 (.tr 17 [1, 0]) (-1) 2,
    -- 690: del ints.tmp1
    .del 17,
    -- 691: tmp2 = np.copy(f.oo)
    .set 59 (.cp 4) 1 1,
    -- 692: tmp2 += np.transpose(ints.tmp0, (1, 0)) * 0.5
    .add 59 (.tr 5 [1, 0]) 1 2,
    -- 693: del ints.tmp0
    .del 5,
    -- 694: tmp0 = einsum(v.oovv, (0, 1, 2, 3), r1, (1, 3), (0, 2))
    .set 60 (.ein [(2, [0, 1, 2, 3]), (0, [1, 3])] [0, 2]) 1 1,
    -- 695: r2new = einsum(v.vvvv, (0, 1, 2, 3), r2, (4, 5, 2, 3), (4, 5, 0, 1)) * 0.5
    .set 61 (.ein [(23, [0, 1, 2, 3]), (3, [4, 5, 2, 3])] [4, 5, 0, 1]) 1 2,
    -- 696: r2new += einsum(tmp3, (0, 1, 2, 3), t2, (3, 2, 4, 5), (1, 0, 4, 5)) * 0.25
    .add 61 (.ein [(48, [0, 1, 2, 3]), (7, [3, 2, 4, 5])] [1, 0, 4, 5]) 1 4,
    -- 697: del tmp3
    .del 48,
    -- 698: r2new += tmp8 * -1
    .add 61 (.cp 49) (-1) 1,
    -- 699: r2new += np.transpose(tmp8, (0, 1, 3, 2))
    .add 61 (.tr 49 [0, 1, 3, 2]) 1 1,
    -- 700: r2new += np.transpose(tmp8, (1, 0, 2, 3))
    .add 61 (.tr 49 [1, 0, 2, 3]) 1 1,
    -- 701: r2new += np.transpose(tmp8, (1, 0, 3, 2)) * -1
    .add 61 (.tr 49 [1, 0, 3, 2]) (-1) 1,
    -- 702: del tmp8
    .del 49,
    -- 703: r2new += tmp12 * -1
    .add 61 (.cp 47) (-1) 1,
    -- 704: r2new += np.transpose(tmp12, (0, 1, 3, 2))
    .add 61 (.tr 47 [0, 1, 3, 2]) 1 1,
    -- 705: del tmp12
    .del 47,
    -- 706: r2new += tmp15 * -1
    .add 61 (.cp 50) (-1) 1,
    -- 707: r2new += np.transpose(tmp15, (0, 1, 3, 2))
    .add 61 (.tr 50 [0, 1, 3, 2]) 1 1,
    -- 708: del tmp15
    .del 50,
    -- 709: r2new += tmp23
    .add 61 (.cp 51) 1 1,
    -- 710: r2new += np.transpose(tmp23, (1, 0, 2, 3)) * -1
    .add 61 (.tr 51 [1, 0, 2, 3]) (-1) 1,
    -- 711: del tmp23
    .del 51,
    -- 712: r2new += np.transpose(tmp26, (1, 0, 2, 3)) * -1
    .add 61 (.tr 57 [1, 0, 2, 3]) (-1) 1,
    -- 713: r2new += np.transpose(tmp26, (1, 0, 3, 2))
    .add 61 (.tr 57 [1, 0, 3, 2]) 1 1,
    -- 714: del tmp26
    .del 57,
    -- 715: r2new += tmp28
    .add 61 (.cp 53) 1 1,
    -- 716: r2new += np.transpose(tmp28, (0, 1, 3, 2)) * -1
    .add 61 (.tr 53 [0, 1, 3, 2]) (-1) 1,
    -- 717: del tmp28
    .del 53,
    -- 718: r2new += tmp32 * -1
    .add 61 (.cp 55) (-1) 1,
    -- 719: r2new += np.transpose(tmp32, (1, 0, 2, 3))
    .add 61 (.tr 55 [1, 0, 2, 3]) 1 1,
    -- 720: del tmp32
    .del 55,
    -- 721: r2new += einsum(r2, (0, 1, 2, 3), tmp33, (4, 5, 0, 1), (4, 5, 2, 3)) * 0.25
    .add 61 (.ein [(3, [0, 1, 2, 3]), (54, [4, 5, 0, 1])] [4, 5, 2, 3]) 1 4,
    -- 722: del tmp33
    .del 54,
    -- 723: r2new += einsum(tmp34, (0, 1), r1, (2, 3), (0, 2, 1, 3))
    .add 61 (.ein [(52, [0, 1]), (0, [2, 3])] [0, 2, 1, 3]) 1 1,
    -- 724: r2new += einsum(r1, (0, 1), tmp34, (2, 3), (0, 2, 1, 3))
    .add 61 (.ein [(0, [0, 1]), (52, [2, 3])] [0, 2, 1, 3]) 1 1,
    -- 725: r2new += einsum(r1, (0, 1), tmp35, (2, 3), (0, 2, 3, 1)) * -0.5
    .add 61 (.ein [(0, [0, 1]), (56, [2, 3])] [0, 2, 3, 1]) (-1) 2,
    -- 726: del tmp35
    .del 56,
    -- 727: r2new += einsum(tmp34, (0, 1), r1, (2, 3), (0, 2, 3, 1)) * -1
    .add 61 (.ein [(52, [0, 1]), (0, [2, 3])] [0, 2, 3, 1]) (-1) 1,
    -- 728: del tmp34
    .del 52,
    -- 729: r1new = einsum(v.ovvv, (0, 1, 2, 3), r2, (4, 0, 2, 3), (4, 1)) * -0.5
    .set 62 (.ein [(15, [0, 1, 2, 3]), (3, [4, 0, 2, 3])] [4, 1]) (-1) 2,
    -- 730: r1new += einsum(t2, (0, 1, 2, 3), tmp0, (1, 3), (0, 2))
    .add 62 (.ein [(7, [0, 1, 2, 3]), (60, [1, 3])] [0, 2]) 1 1,
    -- 731: del tmp0
    .del 60,
    -- 732: r1new += einsum(r2, (0, 1, 2, 3), v.ovoo, (4, 3, 0, 1), (4, 2)) * -0.5
    .add 62 (.ein [(3, [0, 1, 2, 3]), (24, [4, 3, 0, 1])] [4, 2]) (-1) 2,
    -- 733: r1new += einsum(r2, (0, 1, 2, 3), f.ov, (1, 3), (0, 2))
    .add 62 (.ein [(3, [0, 1, 2, 3]), (1, [1, 3])] [0, 2]) 1 1,
    -- 734: r1new += einsum(v.ovov, (0, 1, 2, 3), r1, (2, 1), (0, 3)) * -1
    .add 62 (.ein [(9, [0, 1, 2, 3]), (0, [2, 1])] [0, 3]) (-1) 1,
    -- 735: r1new += einsum(r1, (0, 1), tmp1, (1, 2), (0, 2))
    .add 62 (.ein [(0, [0, 1]), (58, [1, 2])] [0, 2]) 1 1,
    -- 736: del tmp1
    .del 58,
    -- 737: r1new += einsum(tmp2, (0, 1), r1, (0, 2), (1, 2)) * -1
    .add 62 (.ein [(59, [0, 1]), (0, [0, 2])] [1, 2]) (-1) 1,
    -- 738: del tmp2
    .del 59
  ]
  ret := [(chars! "r1new", 62), (chars! "r2new", 61)]

/-- codegen/GCCD.py:983-1025 `hbar_lmatvec_ee_intermediates`. -/
def hbar_lmatvec_ee_intermediates : GenFun where
  args := [chars! "t2", chars! "v.oovv", chars! "v.ovvv", chars! "v.ovoo", chars! "v.ooov", chars! "f.ov"]
  body := [
    -- 1012: tmp21 = einsum(t2, (0, 1, 2, 3), v.oovv, (4, 1, 5, 3), (0, 4, 2, 5))
    .set 6 (.ein [(0, [0, 1, 2, 3]), (1, [4, 1, 5, 3])] [0, 4, 2, 5]) 1 1,
    -- 1013: tmp19 = einsum(v.oovv, (0, 1, 2, 3), t2, (4, 5, 2, 3), (4, 5, 0, 1))
    .set 7 (.ein [(1, [0, 1, 2, 3]), (0, [4, 5, 2, 3])] [4, 5, 0, 1]) 1 1,
    -- 1014: tmp11 = einsum(t2, (0, 1, 2, 3), v.ovvv, (1, 4, 5, 3), (0, 2, 4, 5))
    .set 8 (.ein [(0, [0, 1, 2, 3]), (2, [1, 4, 5, 3])] [0, 2, 4, 5]) 1 1,
    -- 1015: tmp10 = einsum(v.ovvv, (0, 1, 2, 3), t2, (4, 5, 2, 3), (4, 5, 0, 1))
    .set 9 (.ein [(2, [0, 1, 2, 3]), (0, [4, 5, 2, 3])] [4, 5, 0, 1]) 1 1,
    -- 1016: tmp9 = einsum(t2, (0, 1, 2, 3), v.ovvv, (1, 4, 2, 3), (0, 4))
    .set 10 (.ein [(0, [0, 1, 2, 3]), (2, [1, 4, 2, 3])] [0, 4]) 1 1,
    -- 1017: tmp8 = einsum(t2, (0, 1, 2, 3), v.ovoo, (4, 5, 0, 1), (4, 2, 3, 5))
    .set 11 (.ein [(0, [0, 1, 2, 3]), (3, [4, 5, 0, 1])] [4, 2, 3, 5]) 1 1,
    -- 1018: tmp7 = einsum(t2, (0, 1, 2, 3), v.ooov, (4, 1, 5, 3), (0, 4, 5, 2))
    .set 12 (.ein [(0, [0, 1, 2, 3]), (4, [4, 1, 5, 3])] [0, 4, 5, 2]) 1 1,
    -- 1019: tmp6 = einsum(t2, (0, 1, 2, 3), v.ovoo, (4, 3, 0, 1), (4, 2))
    .set 13 (.ein [(0, [0, 1, 2, 3]), (3, [4, 3, 0, 1])] [4, 2]) 1 1,
    -- 1020: tmp4 = einsum(t2, (0, 1, 2, 3), v.oovv, (0, 1, 4, 3), (2, 4))
    .set 14 (.ein [(0, [0, 1, 2, 3]), (1, [0, 1, 4, 3])] [2, 4]) 1 1,
    -- 1021: tmp3 = einsum(v.oovv, (0, 1, 2, 3), t2, (4, 1, 2, 3), (4, 0))
    .set 15 (.ein [(1, [0, 1, 2, 3]), (0, [4, 1, 2, 3])] [4, 0]) 1 1,
    -- 1022: tmp1 = einsum(f.ov, (0, 1), t2, (2, 3, 4, 1), (0, 2, 3, 4))
    .set 16 (.ein [(5, [0, 1]), (0, [2, 3, 4, 1])] [0, 2, 3, 4]) 1 1,
    -- 1023: tmp0 = einsum(f.ov, (0, 1), t2, (2, 0, 3, 1), (2, 3))
    .set 17 (.ein [(5, [0, 1]), (0, [2, 0, 3, 1])] [2, 3]) 1 1
  ]
  ret := [(chars! "tmp0", 17), (chars! "tmp1", 16), (chars! "tmp10", 9), (chars! "tmp11", 8), (chars! "tmp19", 7), (chars! "tmp21", 6), (chars! "tmp3", 15), (chars! "tmp4", 14), (chars! "tmp6", 13), (chars! "tmp7", 12), (chars! "tmp8", 11), (chars! "tmp9", 10)]

/-- codegen/GCCD.py:1027-1152 `hbar_lmatvec_ee`. -/
def hbar_lmatvec_ee : GenFun where
  args := [chars! "f.oo", chars! "ints.tmp3", chars! "t2", chars! "r2", chars! "f.vv", chars! "v.ooov", chars! "r1", chars! "v.ovov", chars! "ints.tmp21", chars! "v.oovv", chars! "v.ovvv", chars! "ints.tmp19", chars! "v.oooo", chars! "f.ov", chars! "ints.tmp4", chars! "ints.tmp1", chars! "ints.tmp7", chars! "ints.tmp10", chars! "ints.tmp8", chars! "ints.tmp11", chars! "ints.tmp0", chars! "ints.tmp6", chars! "ints.tmp9", chars! "v.vvvv"]
  body := [
    -- 1053: tmp7 = np.copy(f.oo) * 2
    .set 24 (.cp 0) 2 1,
    -- 1054: tmp7 += ints.tmp3
    .add 24 (.cp 1) 1 1,
    -- 1055: del ints.tmp3
    .del 1,
    -- 1056: tmp1 = einsum(t2, (0, 1, 2, 3), r2, (4, 1, 2, 3), (4, 0))
    .set 25 (.ein [(2, [0, 1, 2, 3]), (3, [4, 1, 2, 3])] [4, 0]) 1 1,
    -- 1057: tmp13 = einsum(f.vv, (0, 1), r2, (2, 3, 4, 1), (2, 3, 0, 4))
    .set 26 (.ein [(4, [0, 1]), (3, [2, 3, 4, 1])] [2, 3, 0, 4]) 1 1,
    -- 1058: tmp12 = einsum(v.ooov, (0, 1, 2, 3), r1, (2, 4), (0, 1, 4, 3))
    .set 27 (.ein [(5, [0, 1, 2, 3]), (6, [2, 4])] [0, 1, 4, 3]) 1 1,
    -- 1059: tmp10 = einsum(v.ovov, (0, 1, 2, 3), r2, (4, 2, 5, 1), (4, 0, 5, 3))
    .set 28 (.ein [(7, [0, 1, 2, 3]), (3, [4, 2, 5, 1])] [4, 0, 5, 3]) 1 1,
    -- 1060: tmp9 = einsum(ints.tmp21, (0, 1, 2, 3), r2, (4, 0, 5, 2), (1, 4, 3, 5))
    .set 29 (.ein [(8, [0, 1, 2, 3]), (3, [4, 0, 5, 2])] [1, 4, 3, 5]) 1 1,
    -- 1061: del ints.tmp21
    .del 8,
    -- 1062: tmp16 = einsum(tmp7, (0, 1), r2, (2, 0, 3, 4), (2, 1, 3, 4)) * -0.5
    .set 30 (.ein [(24, [0, 1]), (3, [2, 0, 3, 4])] [2, 1, 3, 4]) (-1) 2,
    -- 1063: tmp15 = einsum(v.oovv, (0, 1, 2, 3), tmp1, (4, 1), (4, 0, 2, 3)) * -1
    .set 31 (.ein [(9, [0, 1, 2, 3]), (25, [4, 1])] [4, 0, 2, 3]) (-1) 1,
    -- 1064: tmp2 = einsum(t2, (0, 1, 2, 3), r2, (0, 1, 4, 3), (4, 2))
    .set 32 (.ein [(2, [0, 1, 2, 3]), (3, [0, 1, 4, 3])] [4, 2]) 1 1,
    -- 1065: tmp14 = np.copy(np.transpose(tmp12, (1, 0, 2, 3))) * -1
    .set 33 (.tr 27 [1, 0, 2, 3]) (-1) 1,
    -- 1066: del tmp12
    .del 27,
    -- 1067: tmp14 += np.transpose(tmp13, (1, 0, 2, 3)) * -1
    .add 33 (.tr 26 [1, 0, 2, 3]) (-1) 1,
    -- 1068: del tmp13
    .del 26,
    -- 1069: tmp19 = einsum(v.ovvv, (0, 1, 2, 3), r1, (4, 1), (4, 0, 2, 3))
    .set 34 (.ein [(10, [0, 1, 2, 3]), (6, [4, 1])] [4, 0, 2, 3]) 1 1,
    -- 1070: tmp8 = einsum(t2, (0, 1, 2, 3), r2, (4, 5, 2, 3), (4, 5, 0, 1))
    .set 35 (.ein [(2, [0, 1, 2, 3]), (3, [4, 5, 2, 3])] [4, 5, 0, 1]) 1 1,
    -- 1071: tmp21 = np.copy(ints.tmp19)
    .set 36 (.cp 11) 1 1,
    -- 1072: del ints.tmp19
    .del 11,
    -- 1073: tmp21 += v.oooo * 2
    .add 36 (.cp 12) 2 1,
    -- 1074: tmp11 = einsum(r1, (0, 1), f.ov, (2, 3), (2, 0, 3, 1))
    .set 37 (.ein [(6, [0, 1]), (13, [2, 3])] [2, 0, 3, 1]) 1 1,
    -- 1075: tmp11 += tmp9
    .add 37 (.cp 29) 1 1,
    -- 1076: del tmp9
    .del 29,
    -- 1077: tmp11 += tmp10 * -1
    .add 37 (.cp 28) (-1) 1,
    -- 1078: del tmp10
    .del 28,
    -- 1079: tmp20 = einsum(ints.tmp4, (0, 1), r2, (2, 3, 4, 0), (2, 3, 1, 4))
    .set 38 (.ein [(14, [0, 1]), (3, [2, 3, 4, 0])] [2, 3, 1, 4]) 1 1,
    -- 1080: tmp17 = np.copy(np.transpose(tmp15, (0, 1, 3, 2))) * 0.5
    .set 39 (.tr 31 [0, 1, 3, 2]) 1 2,
    -- 1081: del tmp15
    .del 31,
    -- 1082: tmp17 += np.transpose(tmp16, (1, 0, 3, 2))
    .add 39 (.tr 30 [1, 0, 3, 2]) 1 1,
    -- 1083: del tmp16
    .del 30,
    -- 1084: tmp18 = einsum(v.oovv, (0, 1, 2, 3), tmp2, (4, 3), (0, 1, 4, 2)) * -1
    .set 40 (.ein [(9, [0, 1, 2, 3]), (32, [4, 3])] [0, 1, 4, 2]) (-1) 1,
    -- 1085: tmp4 = np.copy(np.transpose(ints.tmp1, (1, 2, 0, 3)))
    .set 41 (.tr 15 [1, 2, 0, 3]) 1 1,
    -- 1086: del ints.tmp1
    .del 15,
    -- 1087: tmp4 += np.transpose(ints.tmp7, (0, 2, 1, 3)) * 2
    .add 41 (.tr 16 [0, 2, 1, 3]) 2 1,
    -- 1088: del ints.tmp7
    .del 16,
    -- 1089: tmp4 += ints.tmp10 * -0.5
    .add 41 (.cp 17) (-1) 2,
    -- 1090: del ints.tmp10
    .del 17,
    -- 1091: tmp4 += v.ooov * -1
    .add 41 (.cp 5) (-1) 1,
    -- 1092: tmp3 = np.copy(ints.tmp8) * 0.25
    .set 42 (.cp 18) 1 4,
    -- 1093: del ints.tmp8
    .del 18,
    -- 1094: tmp3 += np.transpose(v.ovvv, (0, 2, 3, 1)) * 0.5
    .add 42 (.tr 10 [0, 2, 3, 1]) 1 2,
    -- 1095: tmp3 += ints.tmp11 * -1
    .add 42 (.cp 19) (-1) 1,
    -- 1096: del ints.tmp11
    .del 19,
    -- 1097: tmp5 = np.copy(f.ov)
    .set 43 (.cp 13) 1 1,
    -- 1098: tmp5 += ints.tmp0
    .add 43 (.cp 20) 1 1,
    -- 1099: del ints.tmp0
    .del 20,
    -- 1100: tmp5 += ints.tmp6 * -0.5
    .add 43 (.cp 21) (-1) 2,
    -- 1101: del ints.tmp6
    .del 21,
    -- 1102: tmp5 += ints.tmp9 * -0.5
    .add 43 (.cp 22) (-1) 2,
    -- 1103: del ints.tmp9
    .del 22,
    -- 1104: tmp6 = np.copy(f.vv)
    .set 44 (.cp 4) 1 1,
    -- 1105: tmp6 += ints.tmp4 * -0.5
    .add 44 (.cp 14) (-1) 2,
    -- 1106: del ints.tmp4
    .del 14,
    -- 1107: tmp0 = einsum(t2, (0, 1, 2, 3), r1, (1, 3), (0, 2))
    .set 45 (.ein [(2, [0, 1, 2, 3]), (6, [1, 3])] [0, 2]) 1 1,
    -- 1108: r2new = einsum(v.vvvv, (0, 1, 2, 3), r2, (4, 5, 2, 3), (4, 5, 0, 1)) * 0.5
    .set 46 (.ein [(23, [0, 1, 2, 3]), (3, [4, 5, 2, 3])] [4, 5, 0, 1]) 1 2,
    -- 1109: r2new += einsum(v.oovv, (0, 1, 2, 3), tmp8, (4, 5, 1, 0), (5, 4, 2, 3)) * 0.25
    .add 46 (.ein [(9, [0, 1, 2, 3]), (35, [4, 5, 1, 0])] [5, 4, 2, 3]) 1 4,
    -- 1110: del tmp8
    .del 35,
    -- 1111: r2new += tmp11
    .add 46 (.cp 37) 1 1,
    -- 1112: r2new += np.transpose(tmp11, (0, 1, 3, 2)) * -1
    .add 46 (.tr 37 [0, 1, 3, 2]) (-1) 1,
    -- 1113: r2new += np.transpose(tmp11, (1, 0, 2, 3)) * -1
    .add 46 (.tr 37 [1, 0, 2, 3]) (-1) 1,
    -- 1114: r2new += np.transpose(tmp11, (1, 0, 3, 2))
    .add 46 (.tr 37 [1, 0, 3, 2]) 1 1,
    -- 1115: del tmp11
    .del 37,
    -- 1116: r2new += tmp14 * -1
    .add 46 (.cp 33) (-1) 1,
    -- 1117: r2new += np.transpose(tmp14, (0, 1, 3, 2))
    .add 46 (.tr 33 [0, 1, 3, 2]) 1 1,
    -- 1118: del tmp14
    .del 33,
    -- 1119: r2new += tmp17
    .add 46 (.cp 39) 1 1,
    -- 1120: r2new += np.transpose(tmp17, (1, 0, 2, 3)) * -1
    .add 46 (.tr 39 [1, 0, 2, 3]) (-1) 1,
    -- 1121: del tmp17
    .del 39,
    -- 1122: r2new += tmp18 * -0.5
    .add 46 (.cp 40) (-1) 2,
    -- 1123: r2new += np.transpose(tmp18, (0, 1, 3, 2)) * 0.5
    .add 46 (.tr 40 [0, 1, 3, 2]) 1 2,
    -- 1124: del tmp18
    .del 40,
    -- 1125: r2new += np.transpose(tmp19, (0, 1, 3, 2))
    .add 46 (.tr 34 [0, 1, 3, 2]) 1 1,
    -- 1126: r2new += np.transpose(tmp19, (1, 0, 3, 2)) * -1
    .add 46 (.tr 34 [1, 0, 3, 2]) (-1) 1,
    -- 1127: del tmp19
    .del 34,
    -- 1128: r2new += np.transpose(tmp20, (1, 0, 2, 3)) * -0.5
    .add 46 (.tr 38 [1, 0, 2, 3]) (-1) 2,
    -- 1129: r2new += np.transpose(tmp20, (1, 0, 3, 2)) * 0.5
    .add 46 (.tr 38 [1, 0, 3, 2]) 1 2,
    -- 1130: del tmp20
    .del 38,
    -- 1131: r2new += einsum(r2, (0, 1, 2, 3), tmp21, (0, 1, 4, 5), (4, 5, 2, 3)) * 0.25
    .add 46 (.ein [(3, [0, 1, 2, 3]), (36, [0, 1, 4, 5])] [4, 5, 2, 3]) 1 4,
    -- 1132: del tmp21
    .del 36,
    -- 1133: r1new = einsum(v.oovv, (0, 1, 2, 3), tmp0, (1, 3), (0, 2))
    .set 47 (.ein [(9, [0, 1, 2, 3]), (45, [1, 3])] [0, 2]) 1 1,
    -- 1134: del tmp0
    .del 45,
    -- 1135: r1new += einsum(f.ov, (0, 1), tmp1, (2, 0), (2, 1)) * -0.5
    .add 47 (.ein [(13, [0, 1]), (25, [2, 0])] [2, 1]) (-1) 2,
    -- 1136: r1new += einsum(v.ovvv, (0, 1, 2, 3), tmp2, (1, 3), (0, 2)) * 0.5
    .add 47 (.ein [(10, [0, 1, 2, 3]), (32, [1, 3])] [0, 2]) 1 2,
    -- 1137: del tmp2
    .del 32,
    -- 1138: r1new += einsum(v.ooov, (0, 1, 2, 3), tmp1, (2, 1), (0, 3)) * 0.5
    .add 47 (.ein [(5, [0, 1, 2, 3]), (25, [2, 1])] [0, 3]) 1 2,
    -- 1139: del tmp1
    .del 25,
    -- 1140: r1new += einsum(v.ovov, (0, 1, 2, 3), r1, (2, 1), (0, 3)) * -1
    .add 47 (.ein [(7, [0, 1, 2, 3]), (6, [2, 1])] [0, 3]) (-1) 1,
    -- 1141: r1new += einsum(r2, (0, 1, 2, 3), tmp3, (1, 2, 3, 4), (0, 4)) * -1
    .add 47 (.ein [(3, [0, 1, 2, 3]), (42, [1, 2, 3, 4])] [0, 4]) (-1) 1,
    -- 1142: del tmp3
    .del 42,
    -- 1143: r1new += einsum(tmp4, (0, 1, 2, 3), r2, (1, 0, 4, 3), (2, 4)) * -0.5
    .add 47 (.ein [(41, [0, 1, 2, 3]), (3, [1, 0, 4, 3])] [2, 4]) (-1) 2,
    -- 1144: del tmp4
    .del 41,
    -- 1145: r1new += einsum(r2, (0, 1, 2, 3), tmp5, (1, 3), (0, 2))
    .add 47 (.ein [(3, [0, 1, 2, 3]), (43, [1, 3])] [0, 2]) 1 1,
    -- 1146: del tmp5
    .del 43,
    -- 1147: r1new += einsum(r1, (0, 1), tmp6, (1, 2), (0, 2))
    .add 47 (.ein [(6, [0, 1]), (44, [1, 2])] [0, 2]) 1 1,
    -- 1148: del tmp6
    .del 44,
    -- 1149: r1new += einsum(tmp7, (0, 1), r1, (0, 2), (1, 2)) * -0.5
    .add 47 (.ein [(24, [0, 1]), (6, [0, 2])] [1, 2]) (-1) 2,
    -- 1150: del tmp7
    .del 24
  ]
  ret := [(chars! "r1new", 47), (chars! "r2new", 46)]

end Ebcc.Gen.GCCDEom
