import Verif.Model.GenCode
/-!
Functions of `ebcc/codegen/GCC2.py`, written by `tools/gencode.py`.  Comments give the
number and the text of the line of each statement.
-/

set_option maxRecDepth 100000

namespace Ebcc.Gen.GCC2Eom

/-- codegen/GCC2.py:633-689 `hbar_matvec_ip_intermediates`. -/
def hbar_matvec_ip_intermediates : GenFun where
  args := [chars! "t1", chars! "f.ov", chars! "v.oovv", chars! "t2", chars! "v.ovvv", chars! "v.ooov", chars! "v.ovoo", chars! "f.vv", chars! "f.oo"]
  body := [
    -- 670: tmp0 = einsum(t1, (0, 1), f.ov, (2, 1), (2, 0))
    .set 9 (.ein [(0, [0, 1]), (1, [2, 1])] [2, 0]) 1 1,
    -- 671: tmp2 = einsum(t1, (0, 1), v.oovv, (2, 0, 3, 1), (2, 3))
    .set 10 (.ein [(0, [0, 1]), (2, [2, 0, 3, 1])] [2, 3]) 1 1,
    -- 672: tmp23 = einsum(v.oovv, (0, 1, 2, 3), t2, (4, 1, 5, 3), (4, 0, 5, 2))
    .set 11 (.ein [(2, [0, 1, 2, 3]), (3, [4, 1, 5, 3])] [4, 0, 5, 2]) 1 1,
    -- 673: tmp22 = einsum(v.oovv, (0, 1, 2, 3), t2, (0, 1, 4, 3), (4, 2))
    .set 12 (.ein [(2, [0, 1, 2, 3]), (3, [0, 1, 4, 3])] [4, 2]) 1 1,
    -- 674: tmp21 = einsum(v.oovv, (0, 1, 2, 3), t2, (4, 5, 2, 3), (4, 5, 0, 1))
    .set 13 (.ein [(2, [0, 1, 2, 3]), (3, [4, 5, 2, 3])] [4, 5, 0, 1]) 1 1,
    -- 675: tmp19 = einsum(v.ovvv, (0, 1, 2, 3), t2, (4, 5, 2, 3), (4, 5, 0, 1))
    .set 14 (.ein [(4, [0, 1, 2, 3]), (3, [4, 5, 2, 3])] [4, 5, 0, 1]) 1 1,
    -- 676: tmp18 = einsum(t2, (0, 1, 2, 3), v.ovvv, (1, 4, 2, 3), (0, 4))
    .set 15 (.ein [(3, [0, 1, 2, 3]), (4, [1, 4, 2, 3])] [0, 4]) 1 1,
    -- 677: tmp16 = einsum(v.ooov, (0, 1, 2, 3), t2, (4, 1, 5, 3), (4, 0, 2, 5))
    .set 16 (.ein [(5, [0, 1, 2, 3]), (3, [4, 1, 5, 3])] [4, 0, 2, 5]) 1 1,
    -- 678: tmp15 = einsum(v.ovoo, (0, 1, 2, 3), t2, (2, 3, 4, 1), (0, 4))
    .set 17 (.ein [(6, [0, 1, 2, 3]), (3, [2, 3, 4, 1])] [0, 4]) 1 1,
    -- 679: tmp13 = einsum(t1, (0, 1), tmp0, (0, 2), (2, 1))
    .set 18 (.ein [(0, [0, 1]), (9, [0, 2])] [2, 1]) 1 1,
    -- 680: tmp12 = einsum(t2, (0, 1, 2, 3), f.ov, (4, 3), (4, 0, 1, 2))
    .set 19 (.ein [(3, [0, 1, 2, 3]), (1, [4, 3])] [4, 0, 1, 2]) 1 1,
    -- 681: tmp11 = einsum(t2, (0, 1, 2, 3), f.ov, (1, 3), (0, 2))
    .set 20 (.ein [(3, [0, 1, 2, 3]), (1, [1, 3])] [0, 2]) 1 1,
    -- 682: tmp8 = einsum(f.vv, (0, 1), t1, (2, 1), (2, 0))
    .set 21 (.ein [(7, [0, 1]), (0, [2, 1])] [2, 0]) 1 1,
    -- 683: tmp7 = einsum(t1, (0, 1), f.oo, (2, 0), (2, 1))
    .set 22 (.ein [(0, [0, 1]), (8, [2, 0])] [2, 1]) 1 1,
    -- 684: tmp5 = einsum(tmp2, (0, 1), t1, (2, 1), (2, 0))
    .set 23 (.ein [(10, [0, 1]), (0, [2, 1])] [2, 0]) 1 1,
    -- 685: tmp4 = einsum(v.oovv, (0, 1, 2, 3), t2, (4, 1, 2, 3), (4, 0))
    .set 24 (.ein [(2, [0, 1, 2, 3]), (3, [4, 1, 2, 3])] [4, 0]) 1 1,
    -- 686: tmp3 = einsum(v.oovv, (0, 1, 2, 3), t1, (4, 3), (4, 0, 1, 2))
    .set 25 (.ein [(2, [0, 1, 2, 3]), (0, [4, 3])] [4, 0, 1, 2]) 1 1,
    -- 687: tmp1 = einsum(v.ooov, (0, 1, 2, 3), t1, (1, 3), (0, 2))
    .set 26 (.ein [(5, [0, 1, 2, 3]), (0, [1, 3])] [0, 2]) 1 1
  ]
  ret := [(chars! "tmp0", 9), (chars! "tmp1", 26), (chars! "tmp11", 20), (chars! "tmp12", 19), (chars! "tmp13", 18), (chars! "tmp15", 17), (chars! "tmp16", 16), (chars! "tmp18", 15), (chars! "tmp19", 14), (chars! "tmp2", 10), (chars! "tmp21", 13), (chars! "tmp22", 12), (chars! "tmp23", 11), (chars! "tmp3", 25), (chars! "tmp4", 24), (chars! "tmp5", 23), (chars! "tmp7", 22), (chars! "tmp8", 21)]

/-- codegen/GCC2.py:691-804 `hbar_matvec_ip`. -/
def hbar_matvec_ip : GenFun where
  args := [chars! "f.oo", chars! "ints.tmp0", chars! "r2", chars! "ints.tmp16", chars! "r1", chars! "ints.tmp4", chars! "v.ovov", chars! "ints.tmp23", chars! "v.oovv", chars! "ints.tmp22", chars! "f.vv", chars! "t1", chars! "f.ov", chars! "ints.tmp13", chars! "ints.tmp15", chars! "ints.tmp18", chars! "ints.tmp7", chars! "ints.tmp11", chars! "ints.tmp8", chars! "ints.tmp21", chars! "v.oooo", chars! "ints.tmp19", chars! "v.ovoo", chars! "ints.tmp12", chars! "ints.tmp1", chars! "ints.tmp5", chars! "ints.tmp3", chars! "ints.tmp2", chars! "t2"]
  body := [
    -- 719: tmp5 = np.copy(f.oo)
    .set 29 (.cp 0) 1 1,
    -- 720: tmp5 += ints.tmp0
    .add 29 (.cp 1) 1 1,
    -- 721: tmp6 = einsum(r2, (0, 1, 2), tmp5, (1, 3), (0, 3, 2)) * -1
    .set 30 (.ein [(2, [0, 1, 2]), (29, [1, 3])] [0, 3, 2]) (-1) 1,
    -- 722: del tmp5
    .del 29,
    -- 723: tmp4 = einsum(ints.tmp16, (0, 1, 2, 3), r1, (1,), (0, 2, 3))
    .set 31 (.ein [(3, [0, 1, 2, 3]), (4, [1])] [0, 2, 3]) 1 1,
    -- 724: del ints.tmp16
    .del 3,
    -- 725: tmp8 = einsum(ints.tmp4, (0, 1), r2, (2, 1, 3), (0, 2, 3))
    .set 32 (.ein [(5, [0, 1]), (2, [2, 1, 3])] [0, 2, 3]) 1 1,
    -- 726: tmp10 = einsum(v.ovov, (0, 1, 2, 3), r2, (4, 2, 1), (4, 0, 3))
    .set 33 (.ein [(6, [0, 1, 2, 3]), (2, [4, 2, 1])] [4, 0, 3]) 1 1,
    -- 727: tmp9 = einsum(ints.tmp23, (0, 1, 2, 3), r2, (4, 1, 3), (0, 4, 2))
    .set 34 (.ein [(7, [0, 1, 2, 3]), (2, [4, 1, 3])] [0, 4, 2]) 1 1,
    -- 728: del ints.tmp23
    .del 7,
    -- 729: tmp3 = einsum(r2, (0, 1, 2), v.oovv, (0, 1, 3, 2), (3,))
    .set 35 (.ein [(2, [0, 1, 2]), (8, [0, 1, 3, 2])] [3]) 1 1,
    -- 730: tmp7 = np.copy(tmp4)
    .set 36 (.cp 31) 1 1,
    -- 731: del tmp4
    .del 31,
    -- 732: tmp7 += np.transpose(tmp6, (1, 0, 2)) * -1
    .add 36 (.tr 30 [1, 0, 2]) (-1) 1,
    -- 733: del tmp6
    .del 30,
    -- 734: tmp13 = np.copy(np.transpose(ints.tmp22, (1, 0))) * 0.5
    .set 37 (.tr 9 [1, 0]) 1 2,
    -- 735: del ints.tmp22
    .del 9,
    -- 736: tmp13 += f.vv * -1
    .add 37 (.cp 10) (-1) 1,
    -- 737: tmp13 += einsum(t1, (0, 1), f.ov, (0, 2), (2, 1))
    .add 37 (.ein [(11, [0, 1]), (12, [0, 2])] [2, 1]) 1 1,
    -- 738: tmp11 = np.copy(tmp8) * -0.5
    .set 38 (.cp 32) (-1) 2,
    -- 739: del tmp8
    .del 32,
    -- 740: tmp11 += tmp9
    .add 38 (.cp 34) 1 1,
    -- 741: del tmp9
    .del 34,
    -- 742: tmp11 += tmp10
    .add 38 (.cp 33) 1 1,
    -- 743: del tmp10
    .del 33,
    -- 744: tmp15 = np.copy(ints.tmp13)
    .set 39 (.cp 13) 1 1,
    -- 745: del ints.tmp13
    .del 13,
    -- 746: tmp15 += ints.tmp15 * 0.5
    .add 39 (.cp 14) 1 2,
    -- 747: del ints.tmp15
    .del 14,
    -- 748: tmp15 += ints.tmp18 * 0.5
    .add 39 (.cp 15) 1 2,
    -- 749: del ints.tmp18
    .del 15,
    -- 750: tmp15 += ints.tmp7
    .add 39 (.cp 16) 1 1,
    -- 751: del ints.tmp7
    .del 16,
    -- 752: tmp15 += f.ov * -1
    .add 39 (.cp 12) (-1) 1,
    -- 753: tmp15 += ints.tmp11 * -1
    .add 39 (.cp 17) (-1) 1,
    -- 754: del ints.tmp11
    .del 17,
    -- 755: tmp15 += ints.tmp8 * -1
    .add 39 (.cp 18) (-1) 1,
    -- 756: del ints.tmp8
    .del 18,
    -- 757: tmp12 = np.copy(ints.tmp21) * -0.5
    .set 40 (.cp 19) (-1) 2,
    -- 758: del ints.tmp21
    .del 19,
    -- 759: tmp12 += v.oooo * -1
    .add 40 (.cp 20) (-1) 1,
    -- 760: tmp14 = np.copy(np.transpose(ints.tmp19, (2, 0, 1, 3))) * 0.5
    .set 41 (.tr 21 [2, 0, 1, 3]) 1 2,
    -- 761: del ints.tmp19
    .del 21,
    -- 762: tmp14 += np.transpose(v.ovoo, (0, 2, 3, 1))
    .add 41 (.tr 22 [0, 2, 3, 1]) 1 1,
    -- 763: tmp14 += ints.tmp12 * -1
    .add 41 (.cp 23) (-1) 1,
    -- 764: del ints.tmp12
    .del 23,
    -- 765: tmp2 = np.copy(f.oo) * 2
    .set 42 (.cp 0) 2 1,
    -- 766: tmp2 += ints.tmp0 * 2
    .add 42 (.cp 1) 2 1,
    -- 767: del ints.tmp0
    .del 1,
    -- 768: tmp2 += ints.tmp1 * 2
    .add 42 (.cp 24) 2 1,
    -- 769: del ints.tmp1
    .del 24,
    -- 770: tmp2 += np.transpose(ints.tmp4, (1, 0))
    .add 42 (.tr 5 [1, 0]) 1 1,
    -- 771: del ints.tmp4
    .del 5,
    -- 772: tmp2 += np.transpose(ints.tmp5, (1, 0)) * 2
    .add 42 (.tr 25 [1, 0]) 2 1,
    -- 773: del ints.tmp5
    .del 25,
    -- 774: tmp0 = np.copy(ints.tmp3)
    .set 43 (.cp 26) 1 1,
    -- 775: del ints.tmp3
    .del 26,
    -- 776: tmp0 += np.transpose(v.ovoo, (0, 2, 3, 1)) * -1
    .add 43 (.tr 22 [0, 2, 3, 1]) (-1) 1,
    -- 777: tmp1 = np.copy(f.ov)
    .set 44 (.cp 12) 1 1,
    -- 778: tmp1 += ints.tmp2
    .add 44 (.cp 27) 1 1,
    -- 779: del ints.tmp2
    .del 27,
    -- 780: r2new = einsum(t2, (0, 1, 2, 3), tmp3, (3,), (0, 1, 2)) * 0.5
    .set 45 (.ein [(28, [0, 1, 2, 3]), (35, [3])] [0, 1, 2]) 1 2,
    -- 781: del tmp3
    .del 35,
    -- 782: r2new += tmp7
    .add 45 (.cp 36) 1 1,
    -- 783: r2new += np.transpose(tmp7, (1, 0, 2)) * -1
    .add 45 (.tr 36 [1, 0, 2]) (-1) 1,
    -- 784: del tmp7
    .del 36,
    -- 785: r2new += tmp11 * -1
    .add 45 (.cp 38) (-1) 1,
    -- 786: r2new += np.transpose(tmp11, (1, 0, 2))
    .add 45 (.tr 38 [1, 0, 2]) 1 1,
    -- 787: del tmp11
    .del 38,
    -- 788: r2new += einsum(r2, (0, 1, 2), tmp12, (3, 4, 1, 0), (3, 4, 2)) * 0.5
    .add 45 (.ein [(2, [0, 1, 2]), (40, [3, 4, 1, 0])] [3, 4, 2]) 1 2,
    -- 789: del tmp12
    .del 40,
    -- 790: r2new += einsum(r2, (0, 1, 2), tmp13, (2, 3), (0, 1, 3)) * -1
    .add 45 (.ein [(2, [0, 1, 2]), (37, [2, 3])] [0, 1, 3]) (-1) 1,
    -- 791: del tmp13
    .del 37,
    -- 792: r2new += einsum(tmp14, (0, 1, 2, 3), r1, (0,), (2, 1, 3))
    .add 45 (.ein [(41, [0, 1, 2, 3]), (4, [0])] [2, 1, 3]) 1 1,
    -- 793: del tmp14
    .del 41,
    -- 794: r2new += einsum(tmp15, (0, 1), r1, (2,), (2, 0, 1)) * -1
    .add 45 (.ein [(39, [0, 1]), (4, [2])] [2, 0, 1]) (-1) 1,
    -- 795: r2new += einsum(tmp15, (0, 1), r1, (2,), (0, 2, 1))
    .add 45 (.ein [(39, [0, 1]), (4, [2])] [0, 2, 1]) 1 1,
    -- 796: del tmp15
    .del 39,
    -- 797: r1new = einsum(r2, (0, 1, 2), tmp0, (3, 0, 1, 2), (3,)) * 0.5
    .set 46 (.ein [(2, [0, 1, 2]), (43, [3, 0, 1, 2])] [3]) 1 2,
    -- 798: del tmp0
    .del 43,
    -- 799: r1new += einsum(r2, (0, 1, 2), tmp1, (1, 2), (0,))
    .add 46 (.ein [(2, [0, 1, 2]), (44, [1, 2])] [0]) 1 1,
    -- 800: del tmp1
    .del 44,
    -- 801: r1new += einsum(r1, (0,), tmp2, (0, 1), (1,)) * -0.5
    .add 46 (.ein [(4, [0]), (42, [0, 1])] [1]) (-1) 2,
    -- 802: del tmp2
    .del 42
  ]
  ret := [(chars! "r1new", 46), (chars! "r2new", 45)]

/-- codegen/GCC2.py:1231-1325 `hbar_lmatvec_ip_intermediates`. -/
def hbar_lmatvec_ip_intermediates : GenFun where
  args := [chars! "v.oovv", chars! "t1", chars! "v.ovvv", chars! "v.ooov", chars! "t2", chars! "f.ov", chars! "v.ovoo", chars! "v.ovov", chars! "v.oooo", chars! "f.vv", chars! "f.oo"]
  body := [
    -- 1281: tmp18 = einsum(v.oovv, (0, 1, 2, 3), t1, (4, 3), (4, 0, 1, 2))
    .set 11 (.ein [(0, [0, 1, 2, 3]), (1, [4, 3])] [4, 0, 1, 2]) 1 1,
    -- 1282: tmp15 = einsum(t1, (0, 1), v.oovv, (2, 0, 3, 1), (2, 3))
    .set 12 (.ein [(1, [0, 1]), (0, [2, 0, 3, 1])] [2, 3]) 1 1,
    -- 1283: tmp33 = einsum(tmp18, (0, 1, 2, 3), t1, (4, 3), (4, 0, 1, 2))
    .set 13 (.ein [(11, [0, 1, 2, 3]), (1, [4, 3])] [4, 0, 1, 2]) 1 1,
    -- 1284: tmp24 = einsum(tmp15, (0, 1), t1, (2, 1), (2, 0))
    .set 14 (.ein [(12, [0, 1]), (1, [2, 1])] [2, 0]) 1 1,
    -- 1285: tmp30 = einsum(v.ovvv, (0, 1, 2, 3), t1, (4, 3), (4, 0, 1, 2))
    .set 15 (.ein [(2, [0, 1, 2, 3]), (1, [4, 3])] [4, 0, 1, 2]) 1 1,
    -- 1286: tmp28 = einsum(v.ovvv, (0, 1, 2, 3), t1, (0, 3), (1, 2))
    .set 16 (.ein [(2, [0, 1, 2, 3]), (1, [0, 3])] [1, 2]) 1 1,
    -- 1287: tmp26 = einsum(v.ooov, (0, 1, 2, 3), t1, (4, 3), (4, 0, 1, 2))
    .set 17 (.ein [(3, [0, 1, 2, 3]), (1, [4, 3])] [4, 0, 1, 2]) 1 1,
    -- 1288: tmp6 = einsum(v.ooov, (0, 1, 2, 3), t1, (1, 3), (0, 2))
    .set 18 (.ein [(3, [0, 1, 2, 3]), (1, [1, 3])] [0, 2]) 1 1,
    -- 1289: tmp22 = einsum(v.oovv, (0, 1, 2, 3), t2, (4, 5, 2, 3), (4, 5, 0, 1))
    .set 19 (.ein [(0, [0, 1, 2, 3]), (4, [4, 5, 2, 3])] [4, 5, 0, 1]) 1 1,
    -- 1290: tmp10 = einsum(t2, (0, 1, 2, 3), v.oovv, (4, 1, 2, 3), (0, 4))
    .set 20 (.ein [(4, [0, 1, 2, 3]), (0, [4, 1, 2, 3])] [0, 4]) 1 1,
    -- 1291: tmp0 = einsum(t1, (0, 1), f.ov, (2, 1), (2, 0))
    .set 21 (.ein [(1, [0, 1]), (5, [2, 1])] [2, 0]) 1 1,
    -- 1292: tmp41 = einsum(v.oovv, (0, 1, 2, 3), t2, (4, 1, 5, 3), (4, 0, 5, 2))
    .set 22 (.ein [(0, [0, 1, 2, 3]), (4, [4, 1, 5, 3])] [4, 0, 5, 2]) 1 1,
    -- 1293: tmp40 = einsum(t2, (0, 1, 2, 3), v.oovv, (0, 1, 4, 3), (2, 4))
    .set 23 (.ein [(4, [0, 1, 2, 3]), (0, [0, 1, 4, 3])] [2, 4]) 1 1,
    -- 1294: tmp34 = einsum(tmp33, (0, 1, 2, 3), t1, (3, 4), (0, 1, 2, 4))
    .set 24 (.ein [(13, [0, 1, 2, 3]), (1, [3, 4])] [0, 1, 2, 4]) 1 1,
    -- 1295: del tmp33
    .del 13,
    -- 1296: tmp32 = einsum(tmp24, (0, 1), t1, (1, 2), (0, 2))
    .set 25 (.ein [(14, [0, 1]), (1, [1, 2])] [0, 2]) 1 1,
    -- 1297: tmp31 = einsum(tmp30, (0, 1, 2, 3), t1, (4, 3), (4, 0, 1, 2))
    .set 26 (.ein [(15, [0, 1, 2, 3]), (1, [4, 3])] [4, 0, 1, 2]) 1 1,
    -- 1298: del tmp30
    .del 15,
    -- 1299: tmp29 = einsum(tmp28, (0, 1), t1, (2, 1), (2, 0))
    .set 27 (.ein [(16, [0, 1]), (1, [2, 1])] [2, 0]) 1 1,
    -- 1300: del tmp28
    .del 16,
    -- 1301: tmp27 = einsum(tmp26, (0, 1, 2, 3), t1, (2, 4), (0, 1, 3, 4))
    .set 28 (.ein [(17, [0, 1, 2, 3]), (1, [2, 4])] [0, 1, 3, 4]) 1 1,
    -- 1302: del tmp26
    .del 17,
    -- 1303: tmp25 = einsum(t1, (0, 1), tmp6, (0, 2), (2, 1))
    .set 29 (.ein [(1, [0, 1]), (18, [0, 2])] [2, 1]) 1 1,
    -- 1304: tmp23 = einsum(tmp22, (0, 1, 2, 3), t1, (3, 4), (0, 1, 2, 4))
    .set 30 (.ein [(19, [0, 1, 2, 3]), (1, [3, 4])] [0, 1, 2, 4]) 1 1,
    -- 1305: tmp21 = einsum(tmp10, (0, 1), t1, (1, 2), (0, 2))
    .set 31 (.ein [(20, [0, 1]), (1, [1, 2])] [0, 2]) 1 1,
    -- 1306: tmp20 = einsum(tmp18, (0, 1, 2, 3), t2, (4, 2, 5, 3), (0, 4, 1, 5)) * -1
    .set 32 (.ein [(11, [0, 1, 2, 3]), (4, [4, 2, 5, 3])] [0, 4, 1, 5]) (-1) 1,
    -- 1307: tmp19 = einsum(tmp18, (0, 1, 2, 3), t2, (2, 1, 4, 3), (0, 4))
    .set 33 (.ein [(11, [0, 1, 2, 3]), (4, [2, 1, 4, 3])] [0, 4]) 1 1,
    -- 1308: del tmp18
    .del 11,
    -- 1309: tmp17 = einsum(t2, (0, 1, 2, 3), tmp15, (4, 3), (0, 1, 4, 2)) * -1
    .set 34 (.ein [(4, [0, 1, 2, 3]), (12, [4, 3])] [0, 1, 4, 2]) (-1) 1,
    -- 1310: tmp16 = einsum(tmp15, (0, 1), t2, (2, 0, 3, 1), (2, 3))
    .set 35 (.ein [(12, [0, 1]), (4, [2, 0, 3, 1])] [2, 3]) 1 1,
    -- 1311: del tmp15
    .del 12,
    -- 1312: tmp14 = einsum(v.ovvv, (0, 1, 2, 3), t2, (4, 5, 2, 3), (4, 5, 0, 1))
    .set 36 (.ein [(2, [0, 1, 2, 3]), (4, [4, 5, 2, 3])] [4, 5, 0, 1]) 1 1,
    -- 1313: tmp13 = einsum(v.ovvv, (0, 1, 2, 3), t2, (4, 0, 2, 3), (4, 1))
    .set 37 (.ein [(2, [0, 1, 2, 3]), (4, [4, 0, 2, 3])] [4, 1]) 1 1,
    -- 1314: tmp12 = einsum(v.ooov, (0, 1, 2, 3), t2, (4, 1, 5, 3), (4, 0, 2, 5))
    .set 38 (.ein [(3, [0, 1, 2, 3]), (4, [4, 1, 5, 3])] [4, 0, 2, 5]) 1 1,
    -- 1315: tmp11 = einsum(v.ovoo, (0, 1, 2, 3), t2, (2, 3, 4, 1), (0, 4))
    .set 39 (.ein [(6, [0, 1, 2, 3]), (4, [2, 3, 4, 1])] [0, 4]) 1 1,
    -- 1316: tmp9 = einsum(v.ovov, (0, 1, 2, 3), t1, (4, 3), (4, 0, 2, 1))
    .set 40 (.ein [(7, [0, 1, 2, 3]), (1, [4, 3])] [4, 0, 2, 1]) 1 1,
    -- 1317: tmp8 = einsum(t1, (0, 1), v.ovov, (2, 1, 0, 3), (2, 3))
    .set 41 (.ein [(1, [0, 1]), (7, [2, 1, 0, 3])] [2, 3]) 1 1,
    -- 1318: tmp7 = einsum(v.oooo, (0, 1, 2, 3), t1, (3, 4), (0, 1, 2, 4))
    .set 42 (.ein [(8, [0, 1, 2, 3]), (1, [3, 4])] [0, 1, 2, 4]) 1 1,
    -- 1319: tmp5 = einsum(t1, (0, 1), tmp0, (0, 2), (2, 1))
    .set 43 (.ein [(1, [0, 1]), (21, [0, 2])] [2, 1]) 1 1,
    -- 1320: tmp4 = einsum(t2, (0, 1, 2, 3), f.ov, (4, 3), (4, 0, 1, 2))
    .set 44 (.ein [(4, [0, 1, 2, 3]), (5, [4, 3])] [4, 0, 1, 2]) 1 1,
    -- 1321: tmp3 = einsum(t2, (0, 1, 2, 3), f.ov, (1, 3), (0, 2))
    .set 45 (.ein [(4, [0, 1, 2, 3]), (5, [1, 3])] [0, 2]) 1 1,
    -- 1322: tmp2 = einsum(f.vv, (0, 1), t1, (2, 1), (2, 0))
    .set 46 (.ein [(9, [0, 1]), (1, [2, 1])] [2, 0]) 1 1,
    -- 1323: tmp1 = einsum(t1, (0, 1), f.oo, (2, 0), (2, 1))
    .set 47 (.ein [(1, [0, 1]), (10, [2, 0])] [2, 1]) 1 1
  ]
  ret := [(chars! "tmp0", 21), (chars! "tmp1", 47), (chars! "tmp10", 20), (chars! "tmp11", 39), (chars! "tmp12", 38), (chars! "tmp13", 37), (chars! "tmp14", 36), (chars! "tmp16", 35), (chars! "tmp17", 34), (chars! "tmp19", 33), (chars! "tmp2", 46), (chars! "tmp20", 32), (chars! "tmp21", 31), (chars! "tmp22", 19), (chars! "tmp23", 30), (chars! "tmp24", 14), (chars! "tmp25", 29), (chars! "tmp27", 28), (chars! "tmp29", 27), (chars! "tmp3", 45), (chars! "tmp31", 26), (chars! "tmp32", 25), (chars! "tmp34", 24), (chars! "tmp4", 44), (chars! "tmp40", 23), (chars! "tmp41", 22), (chars! "tmp5", 43), (chars! "tmp6", 18), (chars! "tmp7", 42), (chars! "tmp8", 41), (chars! "tmp9", 40)]

/-- codegen/GCC2.py:1327-1457 `hbar_lmatvec_ip`. -/
def hbar_lmatvec_ip : GenFun where
  args := [chars! "ints.tmp41", chars! "r2", chars! "ints.tmp10", chars! "v.ovov", chars! "f.oo", chars! "ints.tmp0", chars! "t2", chars! "r1", chars! "f.ov", chars! "ints.tmp40", chars! "f.vv", chars! "t1", chars! "ints.tmp22", chars! "v.oooo", chars! "ints.tmp24", chars! "ints.tmp6", chars! "ints.tmp12", chars! "ints.tmp23", chars! "ints.tmp34", chars! "ints.tmp4", chars! "ints.tmp7", chars! "ints.tmp9", chars! "ints.tmp14", chars! "ints.tmp17", chars! "ints.tmp20", chars! "ints.tmp27", chars! "ints.tmp31", chars! "v.ooov", chars! "ints.tmp11", chars! "ints.tmp13", chars! "ints.tmp19", chars! "ints.tmp1", chars! "ints.tmp21", chars! "ints.tmp25", chars! "ints.tmp29", chars! "ints.tmp32", chars! "ints.tmp5", chars! "ints.tmp8", chars! "ints.tmp16", chars! "ints.tmp2", chars! "ints.tmp3", chars! "v.oovv"]
  body := [
    -- 1355: tmp5 = einsum(ints.tmp41, (0, 1, 2, 3), r2, (4, 0, 2), (1, 4, 3))
    .set 42 (.ein [(0, [0, 1, 2, 3]), (1, [4, 0, 2])] [1, 4, 3]) 1 1,
    -- 1356: del ints.tmp41
    .del 0,
    -- 1357: tmp4 = einsum(r2, (0, 1, 2), ints.tmp10, (1, 3), (3, 0, 2))
    .set 43 (.ein [(1, [0, 1, 2]), (2, [1, 3])] [3, 0, 2]) 1 1,
    -- 1358: tmp6 = einsum(v.ovov, (0, 1, 2, 3), r2, (4, 2, 1), (4, 0, 3))
    .set 44 (.ein [(3, [0, 1, 2, 3]), (1, [4, 2, 1])] [4, 0, 3]) 1 1,
    -- 1359: tmp8 = np.copy(f.oo)
    .set 45 (.cp 4) 1 1,
    -- 1360: tmp8 += np.transpose(ints.tmp0, (1, 0))
    .add 45 (.tr 5 [1, 0]) 1 1,
    -- 1361: tmp3 = einsum(r2, (0, 1, 2), t2, (0, 1, 3, 2), (3,))
    .set 46 (.ein [(1, [0, 1, 2]), (6, [0, 1, 3, 2])] [3]) 1 1,
    -- 1362: tmp7 = einsum(r1, (0,), f.ov, (1, 2), (1, 0, 2))
    .set 47 (.ein [(7, [0]), (8, [1, 2])] [1, 0, 2]) 1 1,
    -- 1363: tmp7 += tmp4 * -0.5
    .add 47 (.cp 43) (-1) 2,
    -- 1364: del tmp4
    .del 43,
    -- 1365: tmp7 += tmp5
    .add 47 (.cp 42) 1 1,
    -- 1366: del tmp5
    .del 42,
    -- 1367: tmp7 += tmp6
    .add 47 (.cp 44) 1 1,
    -- 1368: del tmp6
    .del 44,
    -- 1369: tmp9 = einsum(r2, (0, 1, 2), tmp8, (1, 3), (3, 0, 2)) * -1
    .set 48 (.ein [(1, [0, 1, 2]), (45, [1, 3])] [3, 0, 2]) (-1) 1,
    -- 1370: del tmp8
    .del 45,
    -- 1371: tmp11 = np.copy(ints.tmp40) * 0.5
    .set 49 (.cp 9) 1 2,
    -- 1372: del ints.tmp40
    .del 9,
    -- 1373: tmp11 += f.vv * -1
    .add 49 (.cp 10) (-1) 1,
    -- 1374: tmp11 += einsum(f.ov, (0, 1), t1, (0, 2), (2, 1))
    .add 49 (.ein [(8, [0, 1]), (11, [0, 2])] [2, 1]) 1 1,
    -- 1375: tmp10 = np.copy(ints.tmp22) * -0.5
    .set 50 (.cp 12) (-1) 2,
    -- 1376: del ints.tmp22
    .del 12,
    -- 1377: tmp10 += v.oooo * -1
    .add 50 (.cp 13) (-1) 1,
    -- 1378: tmp2 = np.copy(f.oo) * 2
    .set 51 (.cp 4) 2 1,
    -- 1379: tmp2 += np.transpose(ints.tmp0, (1, 0)) * 2
    .add 51 (.tr 5 [1, 0]) 2 1,
    -- 1380: del ints.tmp0
    .del 5,
    -- 1381: tmp2 += ints.tmp10
    .add 51 (.cp 2) 1 1,
    -- 1382: del ints.tmp10
    .del 2,
    -- 1383: tmp2 += ints.tmp24 * 2
    .add 51 (.cp 14) 2 1,
    -- 1384: del ints.tmp24
    .del 14,
    -- 1385: tmp2 += np.transpose(ints.tmp6, (1, 0)) * 2
    .add 51 (.tr 15 [1, 0]) 2 1,
    -- 1386: del ints.tmp6
    .del 15,
    -- 1387: tmp0 = np.copy(ints.tmp12)
    .set 52 (.cp 16) 1 1,
    -- 1388: del ints.tmp12
    .del 16,
    -- 1389: tmp0 += np.transpose(ints.tmp23, (0, 2, 1, 3)) * 0.25
    .add 52 (.tr 17 [0, 2, 1, 3]) 1 4,
    -- 1390: del ints.tmp23
    .del 17,
    -- 1391: tmp0 += np.transpose(ints.tmp34, (0, 2, 1, 3)) * 0.5
    .add 52 (.tr 18 [0, 2, 1, 3]) 1 2,
    -- 1392: del ints.tmp34
    .del 18,
    -- 1393: tmp0 += np.transpose(ints.tmp4, (1, 0, 2, 3)) * 0.5
    .add 52 (.tr 19 [1, 0, 2, 3]) 1 2,
    -- 1394: del ints.tmp4
    .del 19,
    -- 1395: tmp0 += np.transpose(ints.tmp7, (0, 2, 1, 3)) * 0.5
    .add 52 (.tr 20 [0, 2, 1, 3]) 1 2,
    -- 1396: del ints.tmp7
    .del 20,
    -- 1397: tmp0 += ints.tmp9
    .add 52 (.cp 21) 1 1,
    -- 1398: del ints.tmp9
    .del 21,
    -- 1399: tmp0 += np.transpose(ints.tmp14, (0, 2, 1, 3)) * -0.25
    .add 52 (.tr 22 [0, 2, 1, 3]) (-1) 4,
    -- 1400: del ints.tmp14
    .del 22,
    -- 1401: tmp0 += np.transpose(ints.tmp17, (0, 2, 1, 3)) * -0.5
    .add 52 (.tr 23 [0, 2, 1, 3]) (-1) 2,
    -- 1402: del ints.tmp17
    .del 23,
    -- 1403: tmp0 += np.transpose(ints.tmp20, (0, 2, 1, 3)) * -1
    .add 52 (.tr 24 [0, 2, 1, 3]) (-1) 1,
    -- 1404: del ints.tmp20
    .del 24,
    -- 1405: tmp0 += ints.tmp27 * -1
    .add 52 (.cp 25) (-1) 1,
    -- 1406: del ints.tmp27
    .del 25,
    -- 1407: tmp0 += np.transpose(ints.tmp31, (0, 2, 1, 3)) * -0.5
    .add 52 (.tr 26 [0, 2, 1, 3]) (-1) 2,
    -- 1408: del ints.tmp31
    .del 26,
    -- 1409: tmp0 += np.transpose(v.ooov, (0, 2, 1, 3)) * -0.5
    .add 52 (.tr 27 [0, 2, 1, 3]) (-1) 2,
    -- 1410: tmp1 = np.copy(ints.tmp11)
    .set 53 (.cp 28) 1 1,
    -- 1411: del ints.tmp11
    .del 28,
    -- 1412: tmp1 += ints.tmp13
    .add 53 (.cp 29) 1 1,
    -- 1413: del ints.tmp13
    .del 29,
    -- 1414: tmp1 += ints.tmp19
    .add 53 (.cp 30) 1 1,
    -- 1415: del ints.tmp19
    .del 30,
    -- 1416: tmp1 += ints.tmp1 * 2
    .add 53 (.cp 31) 2 1,
    -- 1417: del ints.tmp1
    .del 31,
    -- 1418: tmp1 += ints.tmp21
    .add 53 (.cp 32) 1 1,
    -- 1419: del ints.tmp21
    .del 32,
    -- 1420: tmp1 += ints.tmp25 * 2
    .add 53 (.cp 33) 2 1,
    -- 1421: del ints.tmp25
    .del 33,
    -- 1422: tmp1 += ints.tmp29 * 2
    .add 53 (.cp 34) 2 1,
    -- 1423: del ints.tmp29
    .del 34,
    -- 1424: tmp1 += ints.tmp32 * 2
    .add 53 (.cp 35) 2 1,
    -- 1425: del ints.tmp32
    .del 35,
    -- 1426: tmp1 += ints.tmp5 * 2
    .add 53 (.cp 36) 2 1,
    -- 1427: del ints.tmp5
    .del 36,
    -- 1428: tmp1 += ints.tmp8 * 2
    .add 53 (.cp 37) 2 1,
    -- 1429: del ints.tmp8
    .del 37,
    -- 1430: tmp1 += f.ov * -2
    .add 53 (.cp 8) (-2) 1,
    -- 1431: tmp1 += ints.tmp16 * -2
    .add 53 (.cp 38) (-2) 1,
    -- 1432: del ints.tmp16
    .del 38,
    -- 1433: tmp1 += ints.tmp2 * -2
    .add 53 (.cp 39) (-2) 1,
    -- 1434: del ints.tmp2
    .del 39,
    -- 1435: tmp1 += ints.tmp3 * -2
    .add 53 (.cp 40) (-2) 1,
    -- 1436: del ints.tmp3
    .del 40,
    -- 1437: r2new = einsum(v.oovv, (0, 1, 2, 3), tmp3, (3,), (0, 1, 2)) * 0.5
    .set 54 (.ein [(41, [0, 1, 2, 3]), (46, [3])] [0, 1, 2]) 1 2,
    -- 1438: del tmp3
    .del 46,
    -- 1439: r2new += einsum(v.ooov, (0, 1, 2, 3), r1, (2,), (0, 1, 3)) * -1
    .add 54 (.ein [(27, [0, 1, 2, 3]), (7, [2])] [0, 1, 3]) (-1) 1,
    -- 1440: r2new += tmp7 * -1
    .add 54 (.cp 47) (-1) 1,
    -- 1441: r2new += np.transpose(tmp7, (1, 0, 2))
    .add 54 (.tr 47 [1, 0, 2]) 1 1,
    -- 1442: del tmp7
    .del 47,
    -- 1443: r2new += tmp9 * -1
    .add 54 (.cp 48) (-1) 1,
    -- 1444: r2new += np.transpose(tmp9, (1, 0, 2))
    .add 54 (.tr 48 [1, 0, 2]) 1 1,
    -- 1445: del tmp9
    .del 48,
    -- 1446: r2new += einsum(r2, (0, 1, 2), tmp10, (1, 0, 3, 4), (3, 4, 2)) * 0.5
    .add 54 (.ein [(1, [0, 1, 2]), (50, [1, 0, 3, 4])] [3, 4, 2]) 1 2,
    -- 1447: del tmp10
    .del 50,
    -- 1448: r2new += einsum(r2, (0, 1, 2), tmp11, (2, 3), (0, 1, 3)) * -1
    .add 54 (.ein [(1, [0, 1, 2]), (49, [2, 3])] [0, 1, 3]) (-1) 1,
    -- 1449: del tmp11
    .del 49,
    -- 1450: r1new = einsum(r2, (0, 1, 2), tmp0, (0, 3, 1, 2), (3,))
    .set 55 (.ein [(1, [0, 1, 2]), (52, [0, 3, 1, 2])] [3]) 1 1,
    -- 1451: del tmp0
    .del 52,
    -- 1452: r1new += einsum(r2, (0, 1, 2), tmp1, (1, 2), (0,)) * -0.5
    .add 55 (.ein [(1, [0, 1, 2]), (53, [1, 2])] [0]) (-1) 2,
    -- 1453: del tmp1
    .del 53,
    -- 1454: r1new += einsum(r1, (0,), tmp2, (0, 1), (1,)) * -0.5
    .add 55 (.ein [(7, [0]), (51, [0, 1])] [1]) (-1) 2,
    -- 1455: del tmp2
    .del 51
  ]
  ret := [(chars! "r1new", 55), (chars! "r2new", 54)]

/-- codegen/GCC2.py:806-854 `hbar_matvec_ea_intermediates`. -/
def hbar_matvec_ea_intermediates : GenFun where
  args := [chars! "t1", chars! "f.ov", chars! "v.oovv", chars! "t2", chars! "v.ovvv", chars! "v.ovoo", chars! "f.vv", chars! "f.oo"]
  body := [
    -- 839: tmp9 = einsum(t1, (0, 1), f.ov, (2, 1), (2, 0))
    .set 8 (.ein [(0, [0, 1]), (1, [2, 1])] [2, 0]) 1 1,
    -- 840: tmp22 = einsum(v.oovv, (0, 1, 2, 3), t2, (4, 1, 5, 3), (4, 0, 5, 2))
    .set 9 (.ein [(2, [0, 1, 2, 3]), (3, [4, 1, 5, 3])] [4, 0, 5, 2]) 1 1,
    -- 841: tmp20 = einsum(v.oovv, (0, 1, 2, 3), t2, (4, 1, 2, 3), (4, 0))
    .set 10 (.ein [(2, [0, 1, 2, 3]), (3, [4, 1, 2, 3])] [4, 0]) 1 1,
    -- 842: tmp18 = einsum(t2, (0, 1, 2, 3), v.ovvv, (1, 4, 5, 3), (0, 2, 4, 5))
    .set 11 (.ein [(3, [0, 1, 2, 3]), (4, [1, 4, 5, 3])] [0, 2, 4, 5]) 1 1,
    -- 843: tmp17 = einsum(t2, (0, 1, 2, 3), v.ovvv, (1, 4, 2, 3), (0, 4))
    .set 12 (.ein [(3, [0, 1, 2, 3]), (4, [1, 4, 2, 3])] [0, 4]) 1 1,
    -- 844: tmp16 = einsum(v.ovoo, (0, 1, 2, 3), t2, (2, 3, 4, 5), (0, 4, 5, 1))
    .set 13 (.ein [(5, [0, 1, 2, 3]), (3, [2, 3, 4, 5])] [0, 4, 5, 1]) 1 1,
    -- 845: tmp15 = einsum(v.ovoo, (0, 1, 2, 3), t2, (2, 3, 4, 1), (0, 4))
    .set 14 (.ein [(5, [0, 1, 2, 3]), (3, [2, 3, 4, 1])] [0, 4]) 1 1,
    -- 846: tmp13 = einsum(tmp9, (0, 1), t1, (0, 2), (1, 2))
    .set 15 (.ein [(8, [0, 1]), (0, [0, 2])] [1, 2]) 1 1,
    -- 847: tmp12 = einsum(t2, (0, 1, 2, 3), f.ov, (1, 3), (0, 2))
    .set 16 (.ein [(3, [0, 1, 2, 3]), (1, [1, 3])] [0, 2]) 1 1,
    -- 848: tmp8 = einsum(f.vv, (0, 1), t1, (2, 1), (2, 0))
    .set 17 (.ein [(6, [0, 1]), (0, [2, 1])] [2, 0]) 1 1,
    -- 849: tmp7 = einsum(t1, (0, 1), f.oo, (2, 0), (2, 1))
    .set 18 (.ein [(0, [0, 1]), (7, [2, 0])] [2, 1]) 1 1,
    -- 850: tmp4 = einsum(v.oovv, (0, 1, 2, 3), t2, (0, 1, 4, 3), (4, 2))
    .set 19 (.ein [(2, [0, 1, 2, 3]), (3, [0, 1, 4, 3])] [4, 2]) 1 1,
    -- 851: tmp2 = einsum(t1, (0, 1), v.oovv, (2, 0, 3, 1), (2, 3))
    .set 20 (.ein [(0, [0, 1]), (2, [2, 0, 3, 1])] [2, 3]) 1 1,
    -- 852: tmp1 = einsum(v.ovvv, (0, 1, 2, 3), t1, (0, 3), (1, 2))
    .set 21 (.ein [(4, [0, 1, 2, 3]), (0, [0, 3])] [1, 2]) 1 1
  ]
  ret := [(chars! "tmp1", 21), (chars! "tmp12", 16), (chars! "tmp13", 15), (chars! "tmp15", 14), (chars! "tmp16", 13), (chars! "tmp17", 12), (chars! "tmp18", 11), (chars! "tmp2", 20), (chars! "tmp20", 10), (chars! "tmp22", 9), (chars! "tmp4", 19), (chars! "tmp7", 18), (chars! "tmp8", 17), (chars! "tmp9", 8)]

/-- codegen/GCC2.py:856-966 `hbar_matvec_ea`. -/
def hbar_matvec_ea : GenFun where
  args := [chars! "r2", chars! "f.ov", chars! "f.vv", chars! "ints.tmp4", chars! "ints.tmp22", chars! "t1", chars! "v.ovov", chars! "v.oovv", chars! "ints.tmp2", chars! "ints.tmp16", chars! "v.ovvv", chars! "r1", chars! "ints.tmp18", chars! "ints.tmp13", chars! "ints.tmp15", chars! "ints.tmp17", chars! "ints.tmp7", chars! "ints.tmp12", chars! "ints.tmp8", chars! "f.oo", chars! "ints.tmp20", chars! "ints.tmp9", chars! "ints.tmp1", chars! "v.vvvv", chars! "t2"]
  body := [
    -- 884: tmp7 = einsum(r2, (0, 1, 2), f.ov, (3, 1), (3, 2, 0))
    .set 25 (.ein [(0, [0, 1, 2]), (1, [3, 1])] [3, 2, 0]) 1 1,
    -- 885: tmp9 = np.copy(f.vv) * 2
    .set 26 (.cp 2) 2 1,
    -- 886: tmp9 += np.transpose(ints.tmp4, (1, 0)) * -1
    .add 26 (.tr 3 [1, 0]) (-1) 1,
    -- 887: tmp5 = einsum(r2, (0, 1, 2), ints.tmp22, (3, 2, 4, 1), (3, 4, 0))
    .set 27 (.ein [(0, [0, 1, 2]), (4, [3, 2, 4, 1])] [3, 4, 0]) 1 1,
    -- 888: del ints.tmp22
    .del 4,
    -- 889: tmp8 = einsum(t1, (0, 1), tmp7, (0, 2, 3), (2, 3, 1))
    .set 28 (.ein [(5, [0, 1]), (25, [0, 2, 3])] [2, 3, 1]) 1 1,
    -- 890: del tmp7
    .del 25,
    -- 891: tmp6 = einsum(v.ovov, (0, 1, 2, 3), r2, (4, 1, 2), (0, 4, 3))
    .set 29 (.ein [(6, [0, 1, 2, 3]), (0, [4, 1, 2])] [0, 4, 3]) 1 1,
    -- 892: tmp10 = einsum(tmp9, (0, 1), r2, (2, 0, 3), (3, 2, 1)) * -0.5
    .set 30 (.ein [(26, [0, 1]), (0, [2, 0, 3])] [3, 2, 1]) (-1) 2,
    -- 893: del tmp9
    .del 26,
    -- 894: tmp2 = einsum(r2, (0, 1, 2), v.oovv, (3, 2, 0, 1), (3,))
    .set 31 (.ein [(0, [0, 1, 2]), (7, [3, 2, 0, 1])] [3]) 1 1,
    -- 895: tmp0 = np.copy(f.ov)
    .set 32 (.cp 1) 1 1,
    -- 896: tmp0 += ints.tmp2
    .add 32 (.cp 8) 1 1,
    -- 897: del ints.tmp2
    .del 8,
    -- 898: tmp13 = np.copy(ints.tmp16) * 0.5
    .set 33 (.cp 9) 1 2,
    -- 899: del ints.tmp16
    .del 9,
    -- 900: tmp13 += np.transpose(v.ovvv, (0, 2, 3, 1))
    .add 33 (.tr 10 [0, 2, 3, 1]) 1 1,
    -- 901: tmp4 = einsum(r2, (0, 1, 2), v.oovv, (3, 4, 0, 1), (2, 3, 4))
    .set 34 (.ein [(0, [0, 1, 2]), (7, [3, 4, 0, 1])] [2, 3, 4]) 1 1,
    -- 902: tmp11 = np.copy(tmp5)
    .set 35 (.cp 27) 1 1,
    -- 903: del tmp5
    .del 27,
    -- 904: tmp11 += tmp6
    .add 35 (.cp 29) 1 1,
    -- 905: del tmp6
    .del 29,
    -- 906: tmp11 += tmp8
    .add 35 (.cp 28) 1 1,
    -- 907: del tmp8
    .del 28,
    -- 908: tmp11 += np.transpose(tmp10, (0, 2, 1)) * -1
    .add 35 (.tr 30 [0, 2, 1]) (-1) 1,
    -- 909: del tmp10
    .del 30,
    -- 910: tmp15 = einsum(r1, (0,), f.ov, (1, 0), (1,)) * 2
    .set 36 (.ein [(11, [0]), (1, [1, 0])] [1]) 2 1,
    -- 911: tmp15 += tmp2
    .add 36 (.cp 31) 1 1,
    -- 912: tmp12 = einsum(r1, (0,), ints.tmp18, (1, 2, 3, 0), (1, 2, 3))
    .set 37 (.ein [(11, [0]), (12, [1, 2, 3, 0])] [1, 2, 3]) 1 1,
    -- 913: del ints.tmp18
    .del 12,
    -- 914: tmp16 = np.copy(ints.tmp13)
    .set 38 (.cp 13) 1 1,
    -- 915: del ints.tmp13
    .del 13,
    -- 916: tmp16 += ints.tmp15 * 0.5
    .add 38 (.cp 14) 1 2,
    -- 917: del ints.tmp15
    .del 14,
    -- 918: tmp16 += ints.tmp17 * 0.5
    .add 38 (.cp 15) 1 2,
    -- 919: del ints.tmp17
    .del 15,
    -- 920: tmp16 += ints.tmp7
    .add 38 (.cp 16) 1 1,
    -- 921: del ints.tmp7
    .del 16,
    -- 922: tmp16 += f.ov * -1
    .add 38 (.cp 1) (-1) 1,
    -- 923: tmp16 += ints.tmp12 * -1
    .add 38 (.cp 17) (-1) 1,
    -- 924: del ints.tmp12
    .del 17,
    -- 925: tmp16 += ints.tmp8 * -1
    .add 38 (.cp 18) (-1) 1,
    -- 926: del ints.tmp8
    .del 18,
    -- 927: tmp14 = np.copy(f.oo)
    .set 39 (.cp 19) 1 1,
    -- 928: tmp14 += np.transpose(ints.tmp20, (1, 0)) * 0.5
    .add 39 (.tr 20 [1, 0]) 1 2,
    -- 929: del ints.tmp20
    .del 20,
    -- 930: tmp14 += ints.tmp9
    .add 39 (.cp 21) 1 1,
    -- 931: del ints.tmp9
    .del 21,
    -- 932: tmp3 = np.copy(tmp2) * 0.5
    .set 40 (.cp 31) 1 2,
    -- 933: del tmp2
    .del 31,
    -- 934: tmp3 += einsum(tmp0, (0, 1), r1, (1,), (0,))
    .add 40 (.ein [(32, [0, 1]), (11, [1])] [0]) 1 1,
    -- 935: tmp1 = np.copy(np.transpose(ints.tmp1, (1, 0)))
    .set 41 (.tr 22 [1, 0]) 1 1,
    -- 936: del ints.tmp1
    .del 22,
    -- 937: tmp1 += np.transpose(ints.tmp4, (1, 0)) * 0.5
    .add 41 (.tr 3 [1, 0]) 1 2,
    -- 938: del ints.tmp4
    .del 3,
    -- 939: tmp1 += f.vv * -1
    .add 41 (.cp 2) (-1) 1,
    -- 940: r2new = einsum(v.vvvv, (0, 1, 2, 3), r2, (2, 3, 4), (0, 1, 4)) * 0.5
    .set 42 (.ein [(23, [0, 1, 2, 3]), (0, [2, 3, 4])] [0, 1, 4]) 1 2,
    -- 941: r2new += einsum(t2, (0, 1, 2, 3), tmp4, (4, 1, 0), (2, 3, 4)) * -0.25
    .add 42 (.ein [(24, [0, 1, 2, 3]), (34, [4, 1, 0])] [2, 3, 4]) (-1) 4,
    -- 942: del tmp4
    .del 34,
    -- 943: r2new += np.transpose(tmp11, (1, 2, 0)) * -1
    .add 42 (.tr 35 [1, 2, 0]) (-1) 1,
    -- 944: r2new += np.transpose(tmp11, (2, 1, 0))
    .add 42 (.tr 35 [2, 1, 0]) 1 1,
    -- 945: del tmp11
    .del 35,
    -- 946: r2new += np.transpose(tmp12, (1, 2, 0))
    .add 42 (.tr 37 [1, 2, 0]) 1 1,
    -- 947: r2new += np.transpose(tmp12, (2, 1, 0)) * -1
    .add 42 (.tr 37 [2, 1, 0]) (-1) 1,
    -- 948: del tmp12
    .del 37,
    -- 949: r2new += einsum(r1, (0,), tmp13, (1, 2, 3, 0), (3, 2, 1))
    .add 42 (.ein [(11, [0]), (33, [1, 2, 3, 0])] [3, 2, 1]) 1 1,
    -- 950: del tmp13
    .del 33,
    -- 951: r2new += einsum(r2, (0, 1, 2), tmp14, (2, 3), (0, 1, 3)) * -1
    .add 42 (.ein [(0, [0, 1, 2]), (39, [2, 3])] [0, 1, 3]) (-1) 1,
    -- 952: del tmp14
    .del 39,
    -- 953: r2new += einsum(tmp15, (0,), t2, (1, 0, 2, 3), (2, 3, 1)) * 0.5
    .add 42 (.ein [(36, [0]), (24, [1, 0, 2, 3])] [2, 3, 1]) 1 2,
    -- 954: del tmp15
    .del 36,
    -- 955: r2new += einsum(tmp16, (0, 1), r1, (2,), (2, 1, 0)) * -1
    .add 42 (.ein [(38, [0, 1]), (11, [2])] [2, 1, 0]) (-1) 1,
    -- 956: r2new += einsum(r1, (0,), tmp16, (1, 2), (2, 0, 1))
    .add 42 (.ein [(11, [0]), (38, [1, 2])] [2, 0, 1]) 1 1,
    -- 957: del tmp16
    .del 38,
    -- 958: r1new = einsum(v.ovvv, (0, 1, 2, 3), r2, (2, 3, 0), (1,)) * -0.5
    .set 43 (.ein [(10, [0, 1, 2, 3]), (0, [2, 3, 0])] [1]) (-1) 2,
    -- 959: r1new += einsum(r2, (0, 1, 2), tmp0, (2, 1), (0,))
    .add 43 (.ein [(0, [0, 1, 2]), (32, [2, 1])] [0]) 1 1,
    -- 960: del tmp0
    .del 32,
    -- 961: r1new += einsum(r1, (0,), tmp1, (0, 1), (1,)) * -1
    .add 43 (.ein [(11, [0]), (41, [0, 1])] [1]) (-1) 1,
    -- 962: del tmp1
    .del 41,
    -- 963: r1new += einsum(tmp3, (0,), t1, (0, 1), (1,)) * -1
    .add 43 (.ein [(40, [0]), (5, [0, 1])] [1]) (-1) 1,
    -- 964: del tmp3
    .del 40
  ]
  ret := [(chars! "r1new", 43), (chars! "r2new", 42)]

/-- codegen/GCC2.py:1459-1533 `hbar_lmatvec_ea_intermediates`. -/
def hbar_lmatvec_ea_intermediates : GenFun where
  args := [chars! "t1", chars! "v.oovv", chars! "v.ovvv", chars! "v.ooov", chars! "t2", chars! "f.ov", chars! "v.ovoo", chars! "v.vvvv", chars! "v.ovov", chars! "f.vv", chars! "f.oo"]
  body := [
    -- 1503: tmp16 = einsum(t1, (0, 1), v.oovv, (2, 0, 3, 1), (2, 3))
    .set 11 (.ein [(0, [0, 1]), (1, [2, 0, 3, 1])] [2, 3]) 1 1,
    -- 1504: tmp29 = einsum(tmp16, (0, 1), t1, (2, 1), (2, 0))
    .set 12 (.ein [(11, [0, 1]), (0, [2, 1])] [2, 0]) 1 1,
    -- 1505: tmp7 = einsum(v.ovvv, (0, 1, 2, 3), t1, (0, 3), (1, 2))
    .set 13 (.ein [(2, [0, 1, 2, 3]), (0, [0, 3])] [1, 2]) 1 1,
    -- 1506: tmp24 = einsum(v.ooov, (0, 1, 2, 3), t1, (1, 3), (0, 2))
    .set 14 (.ein [(3, [0, 1, 2, 3]), (0, [1, 3])] [0, 2]) 1 1,
    -- 1507: tmp21 = einsum(v.oovv, (0, 1, 2, 3), t2, (4, 1, 2, 3), (4, 0))
    .set 15 (.ein [(1, [0, 1, 2, 3]), (4, [4, 1, 2, 3])] [4, 0]) 1 1,
    -- 1508: tmp18 = einsum(v.oovv, (0, 1, 2, 3), t1, (4, 3), (4, 0, 1, 2))
    .set 16 (.ein [(1, [0, 1, 2, 3]), (0, [4, 3])] [4, 0, 1, 2]) 1 1,
    -- 1509: tmp5 = einsum(t1, (0, 1), f.ov, (2, 1), (2, 0))
    .set 17 (.ein [(0, [0, 1]), (5, [2, 1])] [2, 0]) 1 1,
    -- 1510: tmp30 = einsum(t1, (0, 1), tmp29, (2, 0), (2, 1))
    .set 18 (.ein [(0, [0, 1]), (12, [2, 0])] [2, 1]) 1 1,
    -- 1511: del tmp29
    .del 12,
    -- 1512: tmp28 = einsum(v.ovvv, (0, 1, 2, 3), t1, (4, 3), (4, 0, 1, 2))
    .set 19 (.ein [(2, [0, 1, 2, 3]), (0, [4, 3])] [4, 0, 1, 2]) 1 1,
    -- 1513: tmp27 = einsum(tmp7, (0, 1), t1, (2, 1), (2, 0))
    .set 20 (.ein [(13, [0, 1]), (0, [2, 1])] [2, 0]) 1 1,
    -- 1514: tmp25 = einsum(t1, (0, 1), tmp24, (0, 2), (2, 1))
    .set 21 (.ein [(0, [0, 1]), (14, [0, 2])] [2, 1]) 1 1,
    -- 1515: del tmp24
    .del 14,
    -- 1516: tmp23 = einsum(v.oovv, (0, 1, 2, 3), t2, (4, 1, 5, 3), (4, 0, 5, 2))
    .set 22 (.ein [(1, [0, 1, 2, 3]), (4, [4, 1, 5, 3])] [4, 0, 5, 2]) 1 1,
    -- 1517: tmp22 = einsum(t1, (0, 1), tmp21, (2, 0), (2, 1))
    .set 23 (.ein [(0, [0, 1]), (15, [2, 0])] [2, 1]) 1 1,
    -- 1518: tmp20 = einsum(tmp18, (0, 1, 2, 3), t2, (2, 1, 4, 5), (0, 4, 5, 3)) * -1
    .set 24 (.ein [(16, [0, 1, 2, 3]), (4, [2, 1, 4, 5])] [0, 4, 5, 3]) (-1) 1,
    -- 1519: tmp19 = einsum(tmp18, (0, 1, 2, 3), t2, (2, 1, 4, 3), (0, 4))
    .set 25 (.ein [(16, [0, 1, 2, 3]), (4, [2, 1, 4, 3])] [0, 4]) 1 1,
    -- 1520: tmp17 = einsum(tmp16, (0, 1), t2, (2, 0, 3, 1), (2, 3))
    .set 26 (.ein [(11, [0, 1]), (4, [2, 0, 3, 1])] [2, 3]) 1 1,
    -- 1521: tmp15 = einsum(v.ovvv, (0, 1, 2, 3), t2, (4, 0, 5, 3), (4, 5, 1, 2))
    .set 27 (.ein [(2, [0, 1, 2, 3]), (4, [4, 0, 5, 3])] [4, 5, 1, 2]) 1 1,
    -- 1522: tmp14 = einsum(v.ovvv, (0, 1, 2, 3), t2, (4, 0, 2, 3), (4, 1))
    .set 28 (.ein [(2, [0, 1, 2, 3]), (4, [4, 0, 2, 3])] [4, 1]) 1 1,
    -- 1523: tmp13 = einsum(v.ovoo, (0, 1, 2, 3), t2, (2, 3, 4, 5), (0, 4, 5, 1))
    .set 29 (.ein [(6, [0, 1, 2, 3]), (4, [2, 3, 4, 5])] [0, 4, 5, 1]) 1 1,
    -- 1524: tmp12 = einsum(v.ovoo, (0, 1, 2, 3), t2, (2, 3, 4, 1), (0, 4))
    .set 30 (.ein [(6, [0, 1, 2, 3]), (4, [2, 3, 4, 1])] [0, 4]) 1 1,
    -- 1525: tmp11 = einsum(t2, (0, 1, 2, 3), v.oovv, (0, 1, 4, 3), (2, 4))
    .set 31 (.ein [(4, [0, 1, 2, 3]), (1, [0, 1, 4, 3])] [2, 4]) 1 1,
    -- 1526: tmp10 = einsum(t1, (0, 1), v.vvvv, (2, 3, 4, 1), (0, 2, 3, 4))
    .set 32 (.ein [(0, [0, 1]), (7, [2, 3, 4, 1])] [0, 2, 3, 4]) 1 1,
    -- 1527: tmp8 = einsum(t1, (0, 1), v.ovov, (2, 1, 0, 3), (2, 3))
    .set 33 (.ein [(0, [0, 1]), (8, [2, 1, 0, 3])] [2, 3]) 1 1,
    -- 1528: tmp6 = einsum(t1, (0, 1), tmp5, (0, 2), (2, 1))
    .set 34 (.ein [(0, [0, 1]), (17, [0, 2])] [2, 1]) 1 1,
    -- 1529: tmp3 = einsum(t2, (0, 1, 2, 3), f.ov, (1, 3), (0, 2))
    .set 35 (.ein [(4, [0, 1, 2, 3]), (5, [1, 3])] [0, 2]) 1 1,
    -- 1530: tmp2 = einsum(f.vv, (0, 1), t1, (2, 1), (2, 0))
    .set 36 (.ein [(9, [0, 1]), (0, [2, 1])] [2, 0]) 1 1,
    -- 1531: tmp1 = einsum(t1, (0, 1), f.oo, (2, 0), (2, 1))
    .set 37 (.ein [(0, [0, 1]), (10, [2, 0])] [2, 1]) 1 1
  ]
  ret := [(chars! "tmp1", 37), (chars! "tmp10", 32), (chars! "tmp11", 31), (chars! "tmp12", 30), (chars! "tmp13", 29), (chars! "tmp14", 28), (chars! "tmp15", 27), (chars! "tmp16", 11), (chars! "tmp17", 26), (chars! "tmp18", 16), (chars! "tmp19", 25), (chars! "tmp2", 36), (chars! "tmp20", 24), (chars! "tmp21", 15), (chars! "tmp22", 23), (chars! "tmp23", 22), (chars! "tmp25", 21), (chars! "tmp27", 20), (chars! "tmp28", 19), (chars! "tmp3", 35), (chars! "tmp30", 18), (chars! "tmp5", 17), (chars! "tmp6", 34), (chars! "tmp7", 13), (chars! "tmp8", 33)]

/-- codegen/GCC2.py:1535-1666 `hbar_lmatvec_ea`. -/
def hbar_lmatvec_ea : GenFun where
  args := [chars! "t1", chars! "f.ov", chars! "ints.tmp11", chars! "f.vv", chars! "ints.tmp23", chars! "r2", chars! "v.ovov", chars! "t2", chars! "f.oo", chars! "ints.tmp21", chars! "ints.tmp5", chars! "r1", chars! "ints.tmp12", chars! "ints.tmp14", chars! "ints.tmp19", chars! "ints.tmp1", chars! "ints.tmp22", chars! "ints.tmp25", chars! "ints.tmp27", chars! "ints.tmp30", chars! "ints.tmp6", chars! "ints.tmp8", chars! "ints.tmp17", chars! "ints.tmp2", chars! "ints.tmp3", chars! "ints.tmp28", chars! "ints.tmp16", chars! "ints.tmp18", chars! "v.ovoo", chars! "ints.tmp10", chars! "ints.tmp15", chars! "ints.tmp20", chars! "ints.tmp13", chars! "v.ovvv", chars! "ints.tmp7", chars! "v.vvvv", chars! "v.oovv"]
  body := [
    -- 1563: tmp13 = einsum(t1, (0, 1), f.ov, (0, 2), (2, 1))
    .set 37 (.ein [(0, [0, 1]), (1, [0, 2])] [2, 1]) 1 1,
    -- 1564: tmp14 = np.copy(ints.tmp11)
    .set 38 (.cp 2) 1 1,
    -- 1565: tmp14 += f.vv * -2
    .add 38 (.cp 3) (-2) 1,
    -- 1566: tmp14 += np.transpose(tmp13, (1, 0)) * 2
    .add 38 (.tr 37 [1, 0]) 2 1,
    -- 1567: del tmp13
    .del 37,
    -- 1568: tmp11 = einsum(ints.tmp23, (0, 1, 2, 3), r2, (4, 2, 0), (1, 3, 4))
    .set 39 (.ein [(4, [0, 1, 2, 3]), (5, [4, 2, 0])] [1, 3, 4]) 1 1,
    -- 1569: tmp15 = einsum(tmp14, (0, 1), r2, (2, 0, 3), (3, 1, 2)) * -0.5
    .set 40 (.ein [(38, [0, 1]), (5, [2, 0, 3])] [3, 1, 2]) (-1) 2,
    -- 1570: del tmp14
    .del 38,
    -- 1571: tmp12 = einsum(v.ovov, (0, 1, 2, 3), r2, (4, 1, 2), (0, 4, 3))
    .set 41 (.ein [(6, [0, 1, 2, 3]), (5, [4, 1, 2])] [0, 4, 3]) 1 1,
    -- 1572: tmp7 = einsum(r2, (0, 1, 2), t2, (3, 2, 0, 1), (3,))
    .set 42 (.ein [(5, [0, 1, 2]), (7, [3, 2, 0, 1])] [3]) 1 1,
    -- 1573: tmp1 = einsum(t1, (0, 1), r2, (2, 1, 3), (3, 0, 2))
    .set 43 (.ein [(0, [0, 1]), (5, [2, 1, 3])] [3, 0, 2]) 1 1,
    -- 1574: tmp17 = np.copy(f.oo)
    .set 44 (.cp 8) 1 1,
    -- 1575: tmp17 += ints.tmp21 * 0.5
    .add 44 (.cp 9) 1 2,
    -- 1576: del ints.tmp21
    .del 9,
    -- 1577: tmp17 += np.transpose(ints.tmp5, (1, 0))
    .add 44 (.tr 10 [1, 0]) 1 1,
    -- 1578: del ints.tmp5
    .del 10,
    -- 1579: tmp16 = einsum(r1, (0,), f.ov, (1, 2), (1, 2, 0))
    .set 45 (.ein [(11, [0]), (1, [1, 2])] [1, 2, 0]) 1 1,
    -- 1580: tmp16 += tmp11
    .add 45 (.cp 39) 1 1,
    -- 1581: del tmp11
    .del 39,
    -- 1582: tmp16 += tmp12
    .add 45 (.cp 41) 1 1,
    -- 1583: del tmp12
    .del 41,
    -- 1584: tmp16 += tmp15
    .add 45 (.cp 40) 1 1,
    -- 1585: del tmp15
    .del 40,
    -- 1586: tmp10 = einsum(r2, (0, 1, 2), t2, (3, 4, 0, 1), (2, 3, 4))
    .set 46 (.ein [(5, [0, 1, 2]), (7, [3, 4, 0, 1])] [2, 3, 4]) 1 1,
    -- 1587: tmp5 = np.copy(ints.tmp12) * 0.5
    .set 47 (.cp 12) 1 2,
    -- 1588: del ints.tmp12
    .del 12,
    -- 1589: tmp5 += ints.tmp14 * 0.5
    .add 47 (.cp 13) 1 2,
    -- 1590: del ints.tmp14
    .del 13,
    -- 1591: tmp5 += ints.tmp19 * 0.5
    .add 47 (.cp 14) 1 2,
    -- 1592: del ints.tmp19
    .del 14,
    -- 1593: tmp5 += ints.tmp1
    .add 47 (.cp 15) 1 1,
    -- 1594: del ints.tmp1
    .del 15,
    -- 1595: tmp5 += ints.tmp22 * 0.5
    .add 47 (.cp 16) 1 2,
    -- 1596: del ints.tmp22
    .del 16,
    -- 1597: tmp5 += ints.tmp25
    .add 47 (.cp 17) 1 1,
    -- 1598: del ints.tmp25
    .del 17,
    -- 1599: tmp5 += ints.tmp27
    .add 47 (.cp 18) 1 1,
    -- 1600: del ints.tmp27
    .del 18,
    -- 1601: tmp5 += ints.tmp30
    .add 47 (.cp 19) 1 1,
    -- 1602: del ints.tmp30
    .del 19,
    -- 1603: tmp5 += ints.tmp6
    .add 47 (.cp 20) 1 1,
    -- 1604: del ints.tmp6
    .del 20,
    -- 1605: tmp5 += ints.tmp8
    .add 47 (.cp 21) 1 1,
    -- 1606: del ints.tmp8
    .del 21,
    -- 1607: tmp5 += f.ov * -1
    .add 47 (.cp 1) (-1) 1,
    -- 1608: tmp5 += ints.tmp17 * -1
    .add 47 (.cp 22) (-1) 1,
    -- 1609: del ints.tmp17
    .del 22,
    -- 1610: tmp5 += ints.tmp2 * -1
    .add 47 (.cp 23) (-1) 1,
    -- 1611: del ints.tmp2
    .del 23,
    -- 1612: tmp5 += ints.tmp3 * -1
    .add 47 (.cp 24) (-1) 1,
    -- 1613: del ints.tmp3
    .del 24,
    -- 1614: tmp8 = einsum(r1, (0,), t1, (1, 0), (1,)) * 2
    .set 48 (.ein [(11, [0]), (0, [1, 0])] [1]) 2 1,
    -- 1615: tmp8 += tmp7
    .add 48 (.cp 42) 1 1,
    -- 1616: tmp3 = einsum(tmp1, (0, 1, 2), t1, (3, 2), (0, 1, 3)) * -1
    .set 49 (.ein [(43, [0, 1, 2]), (0, [3, 2])] [0, 1, 3]) (-1) 1,
    -- 1617: tmp2 = np.copy(ints.tmp23)
    .set 50 (.cp 4) 1 1,
    -- 1618: del ints.tmp23
    .del 4,
    -- 1619: tmp2 += ints.tmp28
    .add 50 (.cp 25) 1 1,
    -- 1620: del ints.tmp28
    .del 25,
    -- 1621: tmp2 += np.transpose(v.ovov, (0, 2, 3, 1)) * -1
    .add 50 (.tr 6 [0, 2, 3, 1]) (-1) 1,
    -- 1622: tmp9 = np.copy(f.ov)
    .set 51 (.cp 1) 1 1,
    -- 1623: tmp9 += ints.tmp16
    .add 51 (.cp 26) 1 1,
    -- 1624: del ints.tmp16
    .del 26,
    -- 1625: tmp4 = np.copy(ints.tmp18)
    .set 52 (.cp 27) 1 1,
    -- 1626: del ints.tmp18
    .del 27,
    -- 1627: tmp4 += np.transpose(v.ovoo, (0, 2, 3, 1)) * -1
    .add 52 (.tr 28 [0, 2, 3, 1]) (-1) 1,
    -- 1628: tmp0 = np.copy(ints.tmp10) * 0.5
    .set 53 (.cp 29) 1 2,
    -- 1629: del ints.tmp10
    .del 29,
    -- 1630: tmp0 += ints.tmp15
    .add 53 (.cp 30) 1 1,
    -- 1631: del ints.tmp15
    .del 30,
    -- 1632: tmp0 += ints.tmp20 * 0.25
    .add 53 (.cp 31) 1 4,
    -- 1633: del ints.tmp20
    .del 31,
    -- 1634: tmp0 += ints.tmp13 * -0.25
    .add 53 (.cp 32) (-1) 4,
    -- 1635: del ints.tmp13
    .del 32,
    -- 1636: tmp0 += np.transpose(v.ovvv, (0, 2, 3, 1)) * -0.5
    .add 53 (.tr 33 [0, 2, 3, 1]) (-1) 2,
    -- 1637: tmp6 = np.copy(ints.tmp11) * 0.5
    .set 54 (.cp 2) 1 2,
    -- 1638: del ints.tmp11
    .del 2,
    -- 1639: tmp6 += ints.tmp7
    .add 54 (.cp 34) 1 1,
    -- 1640: del ints.tmp7
    .del 34,
    -- 1641: tmp6 += f.vv * -1
    .add 54 (.cp 3) (-1) 1,
    -- 1642: r2new = einsum(v.vvvv, (0, 1, 2, 3), r2, (2, 3, 4), (0, 1, 4)) * 0.5
    .set 55 (.ein [(35, [0, 1, 2, 3]), (5, [2, 3, 4])] [0, 1, 4]) 1 2,
    -- 1643: r2new += einsum(v.ovvv, (0, 1, 2, 3), r1, (1,), (2, 3, 0)) * -1
    .add 55 (.ein [(33, [0, 1, 2, 3]), (11, [1])] [2, 3, 0]) (-1) 1,
    -- 1644: r2new += einsum(v.oovv, (0, 1, 2, 3), tmp10, (4, 1, 0), (2, 3, 4)) * -0.25
    .add 55 (.ein [(36, [0, 1, 2, 3]), (46, [4, 1, 0])] [2, 3, 4]) (-1) 4,
    -- 1645: del tmp10
    .del 46,
    -- 1646: r2new += einsum(tmp7, (0,), v.oovv, (1, 0, 2, 3), (2, 3, 1)) * 0.5
    .add 55 (.ein [(42, [0]), (36, [1, 0, 2, 3])] [2, 3, 1]) 1 2,
    -- 1647: del tmp7
    .del 42,
    -- 1648: r2new += np.transpose(tmp16, (1, 2, 0)) * -1
    .add 55 (.tr 45 [1, 2, 0]) (-1) 1,
    -- 1649: r2new += np.transpose(tmp16, (2, 1, 0))
    .add 55 (.tr 45 [2, 1, 0]) 1 1,
    -- 1650: del tmp16
    .del 45,
    -- 1651: r2new += einsum(r2, (0, 1, 2), tmp17, (2, 3), (0, 1, 3)) * -1
    .add 55 (.ein [(5, [0, 1, 2]), (44, [2, 3])] [0, 1, 3]) (-1) 1,
    -- 1652: del tmp17
    .del 44,
    -- 1653: r1new = einsum(r2, (0, 1, 2), tmp0, (2, 0, 1, 3), (3,))
    .set 56 (.ein [(5, [0, 1, 2]), (53, [2, 0, 1, 3])] [3]) 1 1,
    -- 1654: del tmp0
    .del 53,
    -- 1655: r1new += einsum(tmp1, (0, 1, 2), tmp2, (0, 1, 2, 3), (3,))
    .add 56 (.ein [(43, [0, 1, 2]), (50, [0, 1, 2, 3])] [3]) 1 1,
    -- 1656: del tmp1, tmp2
    .del 43,
    .del 50,
    -- 1657: r1new += einsum(tmp3, (0, 1, 2), tmp4, (0, 2, 1, 3), (3,)) * -0.5
    .add 56 (.ein [(49, [0, 1, 2]), (52, [0, 2, 1, 3])] [3]) (-1) 2,
    -- 1658: del tmp3, tmp4
    .del 49,
    .del 52,
    -- 1659: r1new += einsum(tmp5, (0, 1), r2, (2, 1, 0), (2,)) * -1
    .add 56 (.ein [(47, [0, 1]), (5, [2, 1, 0])] [2]) (-1) 1,
    -- 1660: del tmp5
    .del 47,
    -- 1661: r1new += einsum(r1, (0,), tmp6, (0, 1), (1,)) * -1
    .add 56 (.ein [(11, [0]), (54, [0, 1])] [1]) (-1) 1,
    -- 1662: del tmp6
    .del 54,
    -- 1663: r1new += einsum(tmp9, (0, 1), tmp8, (0,), (1,)) * -0.5
    .add 56 (.ein [(51, [0, 1]), (48, [0])] [1]) (-1) 2,
    -- 1664: del tmp9, tmp8
    .del 51,
    .del 48
  ]
  ret := [(chars! "r1new", 56), (chars! "r2new", 55)]

/-- codegen/GCC2.py:968-1032 `hbar_matvec_ee_intermediates`. -/
def hbar_matvec_ee_intermediates : GenFun where
  args := [chars! "t1", chars! "f.ov", chars! "v.oovv", chars! "t2", chars! "v.ovvv", chars! "v.ovoo", chars! "v.ooov", chars! "f.vv", chars! "f.oo"]
  body := [
    -- 1009: tmp0 = einsum(t1, (0, 1), f.ov, (2, 1), (2, 0))
    .set 9 (.ein [(0, [0, 1]), (1, [2, 1])] [2, 0]) 1 1,
    -- 1010: tmp6 = einsum(t1, (0, 1), v.oovv, (2, 0, 3, 1), (2, 3))
    .set 10 (.ein [(0, [0, 1]), (2, [2, 0, 3, 1])] [2, 3]) 1 1,
    -- 1011: tmp46 = einsum(v.oovv, (0, 1, 2, 3), t2, (4, 1, 5, 3), (4, 0, 5, 2))
    .set 11 (.ein [(2, [0, 1, 2, 3]), (3, [4, 1, 5, 3])] [4, 0, 5, 2]) 1 1,
    -- 1012: tmp44 = einsum(v.oovv, (0, 1, 2, 3), t2, (4, 5, 2, 3), (4, 5, 0, 1))
    .set 12 (.ein [(2, [0, 1, 2, 3]), (3, [4, 5, 2, 3])] [4, 5, 0, 1]) 1 1,
    -- 1013: tmp39 = einsum(t2, (0, 1, 2, 3), v.ovvv, (1, 4, 5, 3), (0, 2, 4, 5))
    .set 13 (.ein [(3, [0, 1, 2, 3]), (4, [1, 4, 5, 3])] [0, 2, 4, 5]) 1 1,
    -- 1014: tmp37 = einsum(v.ovvv, (0, 1, 2, 3), t2, (4, 5, 2, 3), (4, 5, 0, 1))
    .set 14 (.ein [(4, [0, 1, 2, 3]), (3, [4, 5, 2, 3])] [4, 5, 0, 1]) 1 1,
    -- 1015: tmp36 = einsum(t2, (0, 1, 2, 3), v.ovvv, (1, 4, 2, 3), (0, 4))
    .set 15 (.ein [(3, [0, 1, 2, 3]), (4, [1, 4, 2, 3])] [0, 4]) 1 1,
    -- 1016: tmp33 = einsum(v.ovoo, (0, 1, 2, 3), t2, (2, 3, 4, 5), (0, 4, 5, 1))
    .set 16 (.ein [(5, [0, 1, 2, 3]), (3, [2, 3, 4, 5])] [0, 4, 5, 1]) 1 1,
    -- 1017: tmp31 = einsum(v.ooov, (0, 1, 2, 3), t2, (4, 1, 5, 3), (4, 0, 2, 5))
    .set 17 (.ein [(6, [0, 1, 2, 3]), (3, [4, 1, 5, 3])] [4, 0, 2, 5]) 1 1,
    -- 1018: tmp30 = einsum(v.ovoo, (0, 1, 2, 3), t2, (2, 3, 4, 1), (0, 4))
    .set 18 (.ein [(5, [0, 1, 2, 3]), (3, [2, 3, 4, 1])] [0, 4]) 1 1,
    -- 1019: tmp26 = einsum(t1, (0, 1), tmp0, (0, 2), (2, 1))
    .set 19 (.ein [(0, [0, 1]), (9, [0, 2])] [2, 1]) 1 1,
    -- 1020: tmp23 = einsum(t2, (0, 1, 2, 3), f.ov, (4, 3), (4, 0, 1, 2))
    .set 20 (.ein [(3, [0, 1, 2, 3]), (1, [4, 3])] [4, 0, 1, 2]) 1 1,
    -- 1021: tmp22 = einsum(t2, (0, 1, 2, 3), f.ov, (1, 3), (0, 2))
    .set 21 (.ein [(3, [0, 1, 2, 3]), (1, [1, 3])] [0, 2]) 1 1,
    -- 1022: tmp18 = einsum(f.vv, (0, 1), t1, (2, 1), (2, 0))
    .set 22 (.ein [(7, [0, 1]), (0, [2, 1])] [2, 0]) 1 1,
    -- 1023: tmp17 = einsum(t1, (0, 1), f.oo, (2, 0), (2, 1))
    .set 23 (.ein [(0, [0, 1]), (8, [2, 0])] [2, 1]) 1 1,
    -- 1024: tmp12 = einsum(tmp6, (0, 1), t1, (2, 1), (2, 0))
    .set 24 (.ein [(10, [0, 1]), (0, [2, 1])] [2, 0]) 1 1,
    -- 1025: tmp10 = einsum(v.oovv, (0, 1, 2, 3), t2, (0, 1, 4, 3), (4, 2))
    .set 25 (.ein [(2, [0, 1, 2, 3]), (3, [0, 1, 4, 3])] [4, 2]) 1 1,
    -- 1026: tmp9 = einsum(v.oovv, (0, 1, 2, 3), t2, (4, 1, 2, 3), (4, 0))
    .set 26 (.ein [(2, [0, 1, 2, 3]), (3, [4, 1, 2, 3])] [4, 0]) 1 1,
    -- 1027: tmp7 = einsum(v.oovv, (0, 1, 2, 3), t1, (4, 3), (4, 0, 1, 2))
    .set 27 (.ein [(2, [0, 1, 2, 3]), (0, [4, 3])] [4, 0, 1, 2]) 1 1,
    -- 1028: tmp5 = einsum(v.ovvv, (0, 1, 2, 3), t1, (4, 3), (4, 0, 1, 2))
    .set 28 (.ein [(4, [0, 1, 2, 3]), (0, [4, 3])] [4, 0, 1, 2]) 1 1,
    -- 1029: tmp4 = einsum(v.ovvv, (0, 1, 2, 3), t1, (0, 3), (1, 2))
    .set 29 (.ein [(4, [0, 1, 2, 3]), (0, [0, 3])] [1, 2]) 1 1,
    -- 1030: tmp2 = einsum(v.ooov, (0, 1, 2, 3), t1, (1, 3), (0, 2))
    .set 30 (.ein [(6, [0, 1, 2, 3]), (0, [1, 3])] [0, 2]) 1 1
  ]
  ret := [(chars! "tmp0", 9), (chars! "tmp10", 25), (chars! "tmp12", 24), (chars! "tmp17", 23), (chars! "tmp18", 22), (chars! "tmp2", 30), (chars! "tmp22", 21), (chars! "tmp23", 20), (chars! "tmp26", 19), (chars! "tmp30", 18), (chars! "tmp31", 17), (chars! "tmp33", 16), (chars! "tmp36", 15), (chars! "tmp37", 14), (chars! "tmp39", 13), (chars! "tmp4", 29), (chars! "tmp44", 12), (chars! "tmp46", 11), (chars! "tmp5", 28), (chars! "tmp6", 10), (chars! "tmp7", 27), (chars! "tmp9", 26)]

/-- codegen/GCC2.py:1034-1229 `hbar_matvec_ee`. -/
def hbar_matvec_ee : GenFun where
  args := [chars! "v.oovv", chars! "r2", chars! "r1", chars! "f.ov", chars! "v.ooov", chars! "f.oo", chars! "ints.tmp0", chars! "ints.tmp9", chars! "v.ovvv", chars! "t2", chars! "ints.tmp23", chars! "t1", chars! "ints.tmp33", chars! "ints.tmp10", chars! "ints.tmp37", chars! "ints.tmp46", chars! "ints.tmp31", chars! "v.ovov", chars! "ints.tmp39", chars! "f.vv", chars! "ints.tmp6", chars! "ints.tmp7", chars! "v.ovoo", chars! "ints.tmp44", chars! "v.oooo", chars! "ints.tmp17", chars! "ints.tmp26", chars! "ints.tmp30", chars! "ints.tmp36", chars! "ints.tmp18", chars! "ints.tmp22", chars! "ints.tmp5", chars! "ints.tmp12", chars! "ints.tmp2", chars! "ints.tmp4", chars! "v.vvvv"]
  body := [
    -- 1062: tmp5 = einsum(v.oovv, (0, 1, 2, 3), r2, (4, 1, 2, 3), (4, 0))
    .set 36 (.ein [(0, [0, 1, 2, 3]), (1, [4, 1, 2, 3])] [4, 0]) 1 1,
    -- 1063: tmp25 = einsum(r1, (0, 1), f.ov, (2, 1), (2, 0))
    .set 37 (.ein [(2, [0, 1]), (3, [2, 1])] [2, 0]) 1 1,
    -- 1064: tmp30 = einsum(r1, (0, 1), v.ooov, (2, 0, 3, 1), (2, 3))
    .set 38 (.ein [(2, [0, 1]), (4, [2, 0, 3, 1])] [2, 3]) 1 1,
    -- 1065: tmp17 = einsum(f.ov, (0, 1), r2, (2, 3, 4, 1), (0, 2, 3, 4))
    .set 39 (.ein [(3, [0, 1]), (1, [2, 3, 4, 1])] [0, 2, 3, 4]) 1 1,
    -- 1066: tmp19 = einsum(r2, (0, 1, 2, 3), v.oovv, (0, 1, 4, 3), (2, 4))
    .set 40 (.ein [(1, [0, 1, 2, 3]), (0, [0, 1, 4, 3])] [2, 4]) 1 1,
    -- 1067: tmp26 = np.copy(np.transpose(tmp25, (1, 0)))
    .set 41 (.tr 37 [1, 0]) 1 1,
    -- 1068: del tmp25
    .del 37,
    -- 1069: tmp26 += tmp5 * 0.5
    .add 41 (.cp 36) 1 2,
    -- 1070: tmp23 = np.copy(f.oo)
    .set 42 (.cp 5) 1 1,
    -- 1071: tmp23 += ints.tmp0
    .add 42 (.cp 6) 1 1,
    -- 1072: tmp23 += np.transpose(ints.tmp9, (1, 0)) * 0.5
    .add 42 (.tr 7 [1, 0]) 1 2,
    -- 1073: tmp29 = einsum(v.ovvv, (0, 1, 2, 3), r1, (4, 1), (4, 0, 2, 3))
    .set 43 (.ein [(8, [0, 1, 2, 3]), (2, [4, 1])] [4, 0, 2, 3]) 1 1,
    -- 1074: tmp31 = einsum(t2, (0, 1, 2, 3), tmp30, (1, 4), (0, 4, 2, 3)) * -1
    .set 44 (.ein [(9, [0, 1, 2, 3]), (38, [1, 4])] [0, 4, 2, 3]) (-1) 1,
    -- 1075: del tmp30
    .del 38,
    -- 1076: tmp16 = einsum(ints.tmp23, (0, 1, 2, 3), r1, (0, 4), (1, 2, 3, 4))
    .set 45 (.ein [(10, [0, 1, 2, 3]), (2, [0, 4])] [1, 2, 3, 4]) 1 1,
    -- 1077: del ints.tmp23
    .del 10,
    -- 1078: tmp18 = einsum(t1, (0, 1), tmp17, (0, 2, 3, 4), (2, 3, 4, 1))
    .set 46 (.ein [(11, [0, 1]), (39, [0, 2, 3, 4])] [2, 3, 4, 1]) 1 1,
    -- 1079: del tmp17
    .del 39,
    -- 1080: tmp20 = einsum(tmp19, (0, 1), t2, (2, 3, 4, 1), (2, 3, 0, 4)) * -1
    .set 47 (.ein [(40, [0, 1]), (9, [2, 3, 4, 1])] [2, 3, 0, 4]) (-1) 1,
    -- 1081: del tmp19
    .del 40,
    -- 1082: tmp27 = einsum(t2, (0, 1, 2, 3), tmp26, (4, 1), (4, 0, 2, 3)) * -1
    .set 48 (.ein [(9, [0, 1, 2, 3]), (41, [4, 1])] [4, 0, 2, 3]) (-1) 1,
    -- 1083: del tmp26
    .del 41,
    -- 1084: tmp24 = einsum(tmp23, (0, 1), r2, (2, 0, 3, 4), (1, 2, 3, 4)) * -1
    .set 49 (.ein [(42, [0, 1]), (1, [2, 0, 3, 4])] [1, 2, 3, 4]) (-1) 1,
    -- 1085: del tmp23
    .del 42,
    -- 1086: tmp22 = einsum(ints.tmp33, (0, 1, 2, 3), r1, (4, 3), (0, 4, 1, 2))
    .set 50 (.ein [(12, [0, 1, 2, 3]), (2, [4, 3])] [0, 4, 1, 2]) 1 1,
    -- 1087: del ints.tmp33
    .del 12,
    -- 1088: tmp37 = einsum(r2, (0, 1, 2, 3), ints.tmp10, (4, 3), (0, 1, 4, 2))
    .set 51 (.ein [(1, [0, 1, 2, 3]), (13, [4, 3])] [0, 1, 4, 2]) 1 1,
    -- 1089: tmp36 = einsum(ints.tmp37, (0, 1, 2, 3), r1, (2, 4), (0, 1, 3, 4))
    .set 52 (.ein [(14, [0, 1, 2, 3]), (2, [2, 4])] [0, 1, 3, 4]) 1 1,
    -- 1090: del ints.tmp37
    .del 14,
    -- 1091: tmp14 = einsum(r2, (0, 1, 2, 3), ints.tmp46, (4, 1, 5, 3), (4, 0, 5, 2))
    .set 53 (.ein [(1, [0, 1, 2, 3]), (15, [4, 1, 5, 3])] [4, 0, 5, 2]) 1 1,
    -- 1092: del ints.tmp46
    .del 15,
    -- 1093: tmp11 = einsum(ints.tmp31, (0, 1, 2, 3), r1, (1, 4), (0, 2, 3, 4))
    .set 54 (.ein [(16, [0, 1, 2, 3]), (2, [1, 4])] [0, 2, 3, 4]) 1 1,
    -- 1094: del ints.tmp31
    .del 16,
    -- 1095: tmp13 = einsum(v.ovov, (0, 1, 2, 3), r2, (4, 2, 5, 1), (4, 0, 5, 3))
    .set 55 (.ein [(17, [0, 1, 2, 3]), (1, [4, 2, 5, 1])] [4, 0, 5, 3]) 1 1,
    -- 1096: tmp12 = einsum(ints.tmp39, (0, 1, 2, 3), r1, (4, 3), (0, 4, 1, 2))
    .set 56 (.ein [(18, [0, 1, 2, 3]), (2, [4, 3])] [0, 4, 1, 2]) 1 1,
    -- 1097: del ints.tmp39
    .del 18,
    -- 1098: tmp34 = einsum(r2, (0, 1, 2, 3), f.vv, (4, 3), (0, 1, 4, 2))
    .set 57 (.ein [(1, [0, 1, 2, 3]), (19, [4, 3])] [0, 1, 4, 2]) 1 1,
    -- 1099: tmp33 = einsum(r1, (0, 1), v.ooov, (2, 3, 0, 4), (2, 3, 1, 4))
    .set 58 (.ein [(2, [0, 1]), (4, [2, 3, 0, 4])] [2, 3, 1, 4]) 1 1,
    -- 1100: tmp9 = einsum(v.ovvv, (0, 1, 2, 3), r1, (0, 3), (1, 2))
    .set 59 (.ein [(8, [0, 1, 2, 3]), (2, [0, 3])] [1, 2]) 1 1,
    -- 1101: tmp2 = np.copy(f.ov)
    .set 60 (.cp 3) 1 1,
    -- 1102: tmp2 += ints.tmp6
    .add 60 (.cp 20) 1 1,
    -- 1103: del ints.tmp6
    .del 20,
    -- 1104: tmp1 = np.copy(ints.tmp7)
    .set 61 (.cp 21) 1 1,
    -- 1105: del ints.tmp7
    .del 21,
    -- 1106: tmp1 += np.transpose(v.ovoo, (0, 2, 3, 1)) * -1
    .add 61 (.tr 22 [0, 2, 3, 1]) (-1) 1,
    -- 1107: tmp32 = np.copy(np.transpose(tmp29, (0, 1, 3, 2))) * -1
    .set 62 (.tr 43 [0, 1, 3, 2]) (-1) 1,
    -- 1108: del tmp29
    .del 43,
    -- 1109: tmp32 += np.transpose(tmp31, (0, 1, 3, 2))
    .add 62 (.tr 44 [0, 1, 3, 2]) 1 1,
    -- 1110: del tmp31
    .del 44,
    -- 1111: tmp8 = einsum(v.oovv, (0, 1, 2, 3), r2, (4, 5, 2, 3), (4, 5, 0, 1))
    .set 63 (.ein [(0, [0, 1, 2, 3]), (1, [4, 5, 2, 3])] [4, 5, 0, 1]) 1 1,
    -- 1112: tmp21 = np.copy(tmp16)
    .set 64 (.cp 45) 1 1,
    -- 1113: del tmp16
    .del 45,
    -- 1114: tmp21 += tmp18
    .add 64 (.cp 46) 1 1,
    -- 1115: del tmp18
    .del 46,
    -- 1116: tmp21 += tmp20 * 0.5
    .add 64 (.cp 47) 1 2,
    -- 1117: del tmp20
    .del 47,
    -- 1118: tmp28 = np.copy(np.transpose(tmp22, (0, 1, 3, 2))) * -0.5
    .set 65 (.tr 50 [0, 1, 3, 2]) (-1) 2,
    -- 1119: del tmp22
    .del 50,
    -- 1120: tmp28 += np.transpose(tmp24, (0, 1, 3, 2))
    .add 65 (.tr 49 [0, 1, 3, 2]) 1 1,
    -- 1121: del tmp24
    .del 49,
    -- 1122: tmp28 += np.transpose(tmp27, (0, 1, 3, 2))
    .add 65 (.tr 48 [0, 1, 3, 2]) 1 1,
    -- 1123: del tmp27
    .del 48,
    -- 1124: tmp38 = np.copy(tmp36) * 0.5
    .set 66 (.cp 52) 1 2,
    -- 1125: del tmp36
    .del 52,
    -- 1126: tmp38 += np.transpose(tmp37, (1, 0, 2, 3)) * -0.5
    .add 66 (.tr 51 [1, 0, 2, 3]) (-1) 2,
    -- 1127: del tmp37
    .del 51,
    -- 1128: tmp15 = np.copy(tmp11)
    .set 67 (.cp 54) 1 1,
    -- 1129: del tmp11
    .del 54,
    -- 1130: tmp15 += tmp12
    .add 67 (.cp 56) 1 1,
    -- 1131: del tmp12
    .del 56,
    -- 1132: tmp15 += tmp13
    .add 67 (.cp 55) 1 1,
    -- 1133: del tmp13
    .del 55,
    -- 1134: tmp15 += tmp14 * -1
    .add 67 (.cp 53) (-1) 1,
    -- 1135: del tmp14
    .del 53,
    -- 1136: tmp39 = np.copy(ints.tmp44) * -0.5
    .set 68 (.cp 23) (-1) 2,
    -- 1137: del ints.tmp44
    .del 23,
    -- 1138: tmp39 += v.oooo * -1
    .add 68 (.cp 24) (-1) 1,
    -- 1139: tmp40 = np.copy(ints.tmp17)
    .set 69 (.cp 25) 1 1,
    -- 1140: del ints.tmp17
    .del 25,
    -- 1141: tmp40 += ints.tmp26
    .add 69 (.cp 26) 1 1,
    -- 1142: del ints.tmp26
    .del 26,
    -- 1143: tmp40 += ints.tmp30 * 0.5
    .add 69 (.cp 27) 1 2,
    -- 1144: del ints.tmp30
    .del 27,
    -- 1145: tmp40 += ints.tmp36 * 0.5
    .add 69 (.cp 28) 1 2,
    -- 1146: del ints.tmp36
    .del 28,
    -- 1147: tmp40 += f.ov * -1
    .add 69 (.cp 3) (-1) 1,
    -- 1148: tmp40 += ints.tmp18 * -1
    .add 69 (.cp 29) (-1) 1,
    -- 1149: del ints.tmp18
    .del 29,
    -- 1150: tmp40 += ints.tmp22 * -1
    .add 69 (.cp 30) (-1) 1,
    -- 1151: del ints.tmp22
    .del 30,
    -- 1152: tmp35 = np.copy(np.transpose(tmp33, (1, 0, 2, 3))) * -1
    .set 70 (.tr 58 [1, 0, 2, 3]) (-1) 1,
    -- 1153: del tmp33
    .del 58,
    -- 1154: tmp35 += np.transpose(tmp34, (1, 0, 2, 3)) * -1
    .add 70 (.tr 57 [1, 0, 2, 3]) (-1) 1,
    -- 1155: del tmp34
    .del 57,
    -- 1156: tmp10 = einsum(t2, (0, 1, 2, 3), tmp9, (4, 3), (0, 1, 2, 4)) * -1
    .set 71 (.ein [(9, [0, 1, 2, 3]), (59, [4, 3])] [0, 1, 2, 4]) (-1) 1,
    -- 1157: del tmp9
    .del 59,
    -- 1158: tmp3 = np.copy(ints.tmp5)
    .set 72 (.cp 31) 1 1,
    -- 1159: del ints.tmp5
    .del 31,
    -- 1160: tmp3 += np.transpose(v.ovov, (0, 2, 3, 1)) * -1
    .add 72 (.tr 17 [0, 2, 3, 1]) (-1) 1,
    -- 1161: tmp7 = np.copy(f.oo)
    .set 73 (.cp 5) 1 1,
    -- 1162: tmp7 += ints.tmp0
    .add 73 (.cp 6) 1 1,
    -- 1163: del ints.tmp0
    .del 6,
    -- 1164: tmp7 += np.transpose(ints.tmp12, (1, 0))
    .add 73 (.tr 32 [1, 0]) 1 1,
    -- 1165: del ints.tmp12
    .del 32,
    -- 1166: tmp7 += ints.tmp2
    .add 73 (.cp 33) 1 1,
    -- 1167: del ints.tmp2
    .del 33,
    -- 1168: tmp7 += np.transpose(ints.tmp9, (1, 0)) * 0.5
    .add 73 (.tr 7 [1, 0]) 1 2,
    -- 1169: del ints.tmp9
    .del 7,
    -- 1170: tmp4 = np.copy(np.transpose(ints.tmp10, (1, 0))) * 0.5
    .set 74 (.tr 13 [1, 0]) 1 2,
    -- 1171: del ints.tmp10
    .del 13,
    -- 1172: tmp4 += np.transpose(ints.tmp4, (1, 0))
    .add 74 (.tr 34 [1, 0]) 1 1,
    -- 1173: del ints.tmp4
    .del 34,
    -- 1174: tmp4 += f.vv * -1
    .add 74 (.cp 19) (-1) 1,
    -- 1175: tmp0 = einsum(v.oovv, (0, 1, 2, 3), r1, (1, 3), (0, 2))
    .set 75 (.ein [(0, [0, 1, 2, 3]), (2, [1, 3])] [0, 2]) 1 1,
    -- 1176: tmp6 = np.copy(np.transpose(tmp5, (1, 0))) * 0.5
    .set 76 (.tr 36 [1, 0]) 1 2,
    -- 1177: del tmp5
    .del 36,
    -- 1178: tmp6 += einsum(tmp1, (0, 1, 2, 3), r1, (1, 3), (2, 0))
    .add 76 (.ein [(61, [0, 1, 2, 3]), (2, [1, 3])] [2, 0]) 1 1,
    -- 1179: tmp6 += einsum(tmp2, (0, 1), r1, (2, 1), (0, 2))
    .add 76 (.ein [(60, [0, 1]), (2, [2, 1])] [0, 2]) 1 1,
    -- 1180: r2new = einsum(v.vvvv, (0, 1, 2, 3), r2, (4, 5, 2, 3), (4, 5, 0, 1)) * 0.5
    .set 77 (.ein [(35, [0, 1, 2, 3]), (1, [4, 5, 2, 3])] [4, 5, 0, 1]) 1 2,
    -- 1181: r2new += einsum(t2, (0, 1, 2, 3), tmp8, (4, 5, 1, 0), (5, 4, 2, 3)) * 0.25
    .add 77 (.ein [(9, [0, 1, 2, 3]), (63, [4, 5, 1, 0])] [5, 4, 2, 3]) 1 4,
    -- 1182: del tmp8
    .del 63,
    -- 1183: r2new += tmp10
    .add 77 (.cp 71) 1 1,
    -- 1184: r2new += np.transpose(tmp10, (0, 1, 3, 2)) * -1
    .add 77 (.tr 71 [0, 1, 3, 2]) (-1) 1,
    -- 1185: del tmp10
    .del 71,
    -- 1186: r2new += tmp15 * -1
    .add 77 (.cp 67) (-1) 1,
    -- 1187: r2new += np.transpose(tmp15, (0, 1, 3, 2))
    .add 77 (.tr 67 [0, 1, 3, 2]) 1 1,
    -- 1188: r2new += np.transpose(tmp15, (1, 0, 2, 3))
    .add 77 (.tr 67 [1, 0, 2, 3]) 1 1,
    -- 1189: r2new += np.transpose(tmp15, (1, 0, 3, 2)) * -1
    .add 77 (.tr 67 [1, 0, 3, 2]) (-1) 1,
    -- 1190: del tmp15
    .del 67,
    -- 1191: r2new += tmp21 * -1
    .add 77 (.cp 64) (-1) 1,
    -- 1192: r2new += np.transpose(tmp21, (0, 1, 3, 2))
    .add 77 (.tr 64 [0, 1, 3, 2]) 1 1,
    -- 1193: del tmp21
    .del 64,
    -- 1194: r2new += tmp28
    .add 77 (.cp 65) 1 1,
    -- 1195: r2new += np.transpose(tmp28, (1, 0, 2, 3)) * -1
    .add 77 (.tr 65 [1, 0, 2, 3]) (-1) 1,
    -- 1196: del tmp28
    .del 65,
    -- 1197: r2new += tmp32 * -1
    .add 77 (.cp 62) (-1) 1,
    -- 1198: r2new += np.transpose(tmp32, (1, 0, 2, 3))
    .add 77 (.tr 62 [1, 0, 2, 3]) 1 1,
    -- 1199: del tmp32
    .del 62,
    -- 1200: r2new += tmp35 * -1
    .add 77 (.cp 70) (-1) 1,
    -- 1201: r2new += np.transpose(tmp35, (0, 1, 3, 2))
    .add 77 (.tr 70 [0, 1, 3, 2]) 1 1,
    -- 1202: del tmp35
    .del 70,
    -- 1203: r2new += np.transpose(tmp38, (1, 0, 2, 3)) * -1
    .add 77 (.tr 66 [1, 0, 2, 3]) (-1) 1,
    -- 1204: r2new += np.transpose(tmp38, (1, 0, 3, 2))
    .add 77 (.tr 66 [1, 0, 3, 2]) 1 1,
    -- 1205: del tmp38
    .del 66,
    -- 1206: r2new += einsum(r2, (0, 1, 2, 3), tmp39, (4, 5, 0, 1), (4, 5, 2, 3)) * -0.5
    .add 77 (.ein [(1, [0, 1, 2, 3]), (68, [4, 5, 0, 1])] [4, 5, 2, 3]) (-1) 2,
    -- 1207: del tmp39
    .del 68,
    -- 1208: r2new += einsum(tmp40, (0, 1), r1, (2, 3), (0, 2, 1, 3)) * -1
    .add 77 (.ein [(69, [0, 1]), (2, [2, 3])] [0, 2, 1, 3]) (-1) 1,
    -- 1209: r2new += einsum(tmp40, (0, 1), r1, (2, 3), (2, 0, 3, 1)) * -1
    .add 77 (.ein [(69, [0, 1]), (2, [2, 3])] [2, 0, 3, 1]) (-1) 1,
    -- 1210: r2new += einsum(r1, (0, 1), tmp40, (2, 3), (0, 2, 3, 1))
    .add 77 (.ein [(2, [0, 1]), (69, [2, 3])] [0, 2, 3, 1]) 1 1,
    -- 1211: r2new += einsum(tmp40, (0, 1), r1, (2, 3), (0, 2, 3, 1))
    .add 77 (.ein [(69, [0, 1]), (2, [2, 3])] [0, 2, 3, 1]) 1 1,
    -- 1212: del tmp40
    .del 69,
    -- 1213: r1new = einsum(tmp0, (0, 1), t2, (2, 0, 3, 1), (2, 3))
    .set 78 (.ein [(75, [0, 1]), (9, [2, 0, 3, 1])] [2, 3]) 1 1,
    -- 1214: del tmp0
    .del 75,
    -- 1215: r1new += einsum(v.ovvv, (0, 1, 2, 3), r2, (4, 0, 2, 3), (4, 1)) * -0.5
    .add 78 (.ein [(8, [0, 1, 2, 3]), (1, [4, 0, 2, 3])] [4, 1]) (-1) 2,
    -- 1216: r1new += einsum(tmp1, (0, 1, 2, 3), r2, (1, 2, 4, 3), (0, 4)) * 0.5
    .add 78 (.ein [(61, [0, 1, 2, 3]), (1, [1, 2, 4, 3])] [0, 4]) 1 2,
    -- 1217: del tmp1
    .del 61,
    -- 1218: r1new += einsum(r2, (0, 1, 2, 3), tmp2, (1, 3), (0, 2))
    .add 78 (.ein [(1, [0, 1, 2, 3]), (60, [1, 3])] [0, 2]) 1 1,
    -- 1219: del tmp2
    .del 60,
    -- 1220: r1new += einsum(tmp3, (0, 1, 2, 3), r1, (1, 3), (0, 2))
    .add 78 (.ein [(72, [0, 1, 2, 3]), (2, [1, 3])] [0, 2]) 1 1,
    -- 1221: del tmp3
    .del 72,
    -- 1222: r1new += einsum(r1, (0, 1), tmp4, (1, 2), (0, 2)) * -1
    .add 78 (.ein [(2, [0, 1]), (74, [1, 2])] [0, 2]) (-1) 1,
    -- 1223: del tmp4
    .del 74,
    -- 1224: r1new += einsum(t1, (0, 1), tmp6, (0, 2), (2, 1)) * -1
    .add 78 (.ein [(11, [0, 1]), (76, [0, 2])] [2, 1]) (-1) 1,
    -- 1225: del tmp6
    .del 76,
    -- 1226: r1new += einsum(tmp7, (0, 1), r1, (0, 2), (1, 2)) * -1
    .add 78 (.ein [(73, [0, 1]), (2, [0, 2])] [1, 2]) (-1) 1,
    -- 1227: del tmp7
    .del 73
  ]
  ret := [(chars! "r1new", 78), (chars! "r2new", 77)]

/-- codegen/GCC2.py:1668-1770 `hbar_lmatvec_ee_intermediates`. -/
def hbar_lmatvec_ee_intermediates : GenFun where
  args := [chars! "v.oovv", chars! "t1", chars! "v.ovvv", chars! "v.ooov", chars! "t2", chars! "f.ov", chars! "v.ovoo", chars! "v.vvvv", chars! "v.ovov", chars! "v.oooo", chars! "f.vv", chars! "f.oo"]
  body := [
    -- 1726: tmp29 = einsum(v.oovv, (0, 1, 2, 3), t1, (4, 3), (4, 0, 1, 2))
    .set 12 (.ein [(0, [0, 1, 2, 3]), (1, [4, 3])] [4, 0, 1, 2]) 1 1,
    -- 1727: tmp26 = einsum(t1, (0, 1), v.oovv, (2, 0, 3, 1), (2, 3))
    .set 13 (.ein [(1, [0, 1]), (0, [2, 0, 3, 1])] [2, 3]) 1 1,
    -- 1728: tmp46 = einsum(tmp29, (0, 1, 2, 3), t1, (4, 3), (4, 0, 1, 2))
    .set 14 (.ein [(12, [0, 1, 2, 3]), (1, [4, 3])] [4, 0, 1, 2]) 1 1,
    -- 1729: tmp38 = einsum(tmp26, (0, 1), t1, (2, 1), (2, 0))
    .set 15 (.ein [(13, [0, 1]), (1, [2, 1])] [2, 0]) 1 1,
    -- 1730: tmp10 = einsum(v.ovvv, (0, 1, 2, 3), t1, (4, 3), (4, 0, 1, 2))
    .set 16 (.ein [(2, [0, 1, 2, 3]), (1, [4, 3])] [4, 0, 1, 2]) 1 1,
    -- 1731: tmp9 = einsum(v.ovvv, (0, 1, 2, 3), t1, (0, 3), (1, 2))
    .set 17 (.ein [(2, [0, 1, 2, 3]), (1, [0, 3])] [1, 2]) 1 1,
    -- 1732: tmp40 = einsum(v.ooov, (0, 1, 2, 3), t1, (4, 3), (4, 0, 1, 2))
    .set 18 (.ein [(3, [0, 1, 2, 3]), (1, [4, 3])] [4, 0, 1, 2]) 1 1,
    -- 1733: tmp8 = einsum(v.ooov, (0, 1, 2, 3), t1, (1, 3), (0, 2))
    .set 19 (.ein [(3, [0, 1, 2, 3]), (1, [1, 3])] [0, 2]) 1 1,
    -- 1734: tmp34 = einsum(v.oovv, (0, 1, 2, 3), t2, (4, 5, 2, 3), (4, 5, 0, 1))
    .set 20 (.ein [(0, [0, 1, 2, 3]), (4, [4, 5, 2, 3])] [4, 5, 0, 1]) 1 1,
    -- 1735: tmp16 = einsum(t2, (0, 1, 2, 3), v.oovv, (4, 1, 2, 3), (0, 4))
    .set 21 (.ein [(4, [0, 1, 2, 3]), (0, [4, 1, 2, 3])] [0, 4]) 1 1,
    -- 1736: tmp0 = einsum(t1, (0, 1), f.ov, (2, 1), (2, 0))
    .set 22 (.ein [(1, [0, 1]), (5, [2, 1])] [2, 0]) 1 1,
    -- 1737: tmp47 = einsum(tmp46, (0, 1, 2, 3), t1, (3, 4), (0, 1, 2, 4))
    .set 23 (.ein [(14, [0, 1, 2, 3]), (1, [3, 4])] [0, 1, 2, 4]) 1 1,
    -- 1738: del tmp46
    .del 14,
    -- 1739: tmp45 = einsum(tmp38, (0, 1), t1, (1, 2), (0, 2))
    .set 24 (.ein [(15, [0, 1]), (1, [1, 2])] [0, 2]) 1 1,
    -- 1740: tmp44 = einsum(tmp10, (0, 1, 2, 3), t1, (4, 3), (4, 0, 1, 2))
    .set 25 (.ein [(16, [0, 1, 2, 3]), (1, [4, 3])] [4, 0, 1, 2]) 1 1,
    -- 1741: tmp43 = einsum(tmp9, (0, 1), t1, (2, 1), (2, 0))
    .set 26 (.ein [(17, [0, 1]), (1, [2, 1])] [2, 0]) 1 1,
    -- 1742: tmp41 = einsum(tmp40, (0, 1, 2, 3), t1, (2, 4), (0, 1, 3, 4))
    .set 27 (.ein [(18, [0, 1, 2, 3]), (1, [2, 4])] [0, 1, 3, 4]) 1 1,
    -- 1743: del tmp40
    .del 18,
    -- 1744: tmp39 = einsum(t1, (0, 1), tmp8, (0, 2), (2, 1))
    .set 28 (.ein [(1, [0, 1]), (19, [0, 2])] [2, 1]) 1 1,
    -- 1745: tmp36 = einsum(v.oovv, (0, 1, 2, 3), t2, (4, 1, 5, 3), (4, 0, 5, 2))
    .set 29 (.ein [(0, [0, 1, 2, 3]), (4, [4, 1, 5, 3])] [4, 0, 5, 2]) 1 1,
    -- 1746: tmp35 = einsum(tmp34, (0, 1, 2, 3), t1, (3, 4), (0, 1, 2, 4))
    .set 30 (.ein [(20, [0, 1, 2, 3]), (1, [3, 4])] [0, 1, 2, 4]) 1 1,
    -- 1747: tmp33 = einsum(t1, (0, 1), tmp16, (2, 0), (2, 1))
    .set 31 (.ein [(1, [0, 1]), (21, [2, 0])] [2, 1]) 1 1,
    -- 1748: tmp32 = einsum(tmp29, (0, 1, 2, 3), t2, (2, 1, 4, 5), (0, 4, 5, 3)) * -1
    .set 32 (.ein [(12, [0, 1, 2, 3]), (4, [2, 1, 4, 5])] [0, 4, 5, 3]) (-1) 1,
    -- 1749: tmp31 = einsum(tmp29, (0, 1, 2, 3), t2, (4, 2, 5, 3), (0, 4, 1, 5)) * -1
    .set 33 (.ein [(12, [0, 1, 2, 3]), (4, [4, 2, 5, 3])] [0, 4, 1, 5]) (-1) 1,
    -- 1750: tmp30 = einsum(tmp29, (0, 1, 2, 3), t2, (2, 1, 4, 3), (0, 4))
    .set 34 (.ein [(12, [0, 1, 2, 3]), (4, [2, 1, 4, 3])] [0, 4]) 1 1,
    -- 1751: tmp28 = einsum(t2, (0, 1, 2, 3), tmp26, (4, 3), (0, 1, 4, 2)) * -1
    .set 35 (.ein [(4, [0, 1, 2, 3]), (13, [4, 3])] [0, 1, 4, 2]) (-1) 1,
    -- 1752: tmp27 = einsum(tmp26, (0, 1), t2, (2, 0, 3, 1), (2, 3))
    .set 36 (.ein [(13, [0, 1]), (4, [2, 0, 3, 1])] [2, 3]) 1 1,
    -- 1753: tmp24 = einsum(t2, (0, 1, 2, 3), v.ovvv, (1, 4, 5, 3), (0, 2, 4, 5))
    .set 37 (.ein [(4, [0, 1, 2, 3]), (2, [1, 4, 5, 3])] [0, 2, 4, 5]) 1 1,
    -- 1754: tmp23 = einsum(v.ovvv, (0, 1, 2, 3), t2, (4, 5, 2, 3), (4, 5, 0, 1))
    .set 38 (.ein [(2, [0, 1, 2, 3]), (4, [4, 5, 2, 3])] [4, 5, 0, 1]) 1 1,
    -- 1755: tmp22 = einsum(v.ovvv, (0, 1, 2, 3), t2, (4, 0, 2, 3), (4, 1))
    .set 39 (.ein [(2, [0, 1, 2, 3]), (4, [4, 0, 2, 3])] [4, 1]) 1 1,
    -- 1756: tmp21 = einsum(v.ovoo, (0, 1, 2, 3), t2, (2, 3, 4, 5), (0, 4, 5, 1))
    .set 40 (.ein [(6, [0, 1, 2, 3]), (4, [2, 3, 4, 5])] [0, 4, 5, 1]) 1 1,
    -- 1757: tmp20 = einsum(v.ooov, (0, 1, 2, 3), t2, (4, 1, 5, 3), (4, 0, 2, 5))
    .set 41 (.ein [(3, [0, 1, 2, 3]), (4, [4, 1, 5, 3])] [4, 0, 2, 5]) 1 1,
    -- 1758: tmp19 = einsum(v.ovoo, (0, 1, 2, 3), t2, (2, 3, 4, 1), (0, 4))
    .set 42 (.ein [(6, [0, 1, 2, 3]), (4, [2, 3, 4, 1])] [0, 4]) 1 1,
    -- 1759: tmp17 = einsum(t2, (0, 1, 2, 3), v.oovv, (0, 1, 4, 3), (2, 4))
    .set 43 (.ein [(4, [0, 1, 2, 3]), (0, [0, 1, 4, 3])] [2, 4]) 1 1,
    -- 1760: tmp15 = einsum(t1, (0, 1), v.vvvv, (2, 3, 4, 1), (0, 2, 3, 4))
    .set 44 (.ein [(1, [0, 1]), (7, [2, 3, 4, 1])] [0, 2, 3, 4]) 1 1,
    -- 1761: tmp13 = einsum(v.ovov, (0, 1, 2, 3), t1, (4, 3), (4, 0, 2, 1))
    .set 45 (.ein [(8, [0, 1, 2, 3]), (1, [4, 3])] [4, 0, 2, 1]) 1 1,
    -- 1762: tmp12 = einsum(t1, (0, 1), v.ovov, (2, 1, 0, 3), (2, 3))
    .set 46 (.ein [(1, [0, 1]), (8, [2, 1, 0, 3])] [2, 3]) 1 1,
    -- 1763: tmp11 = einsum(v.oooo, (0, 1, 2, 3), t1, (3, 4), (0, 1, 2, 4))
    .set 47 (.ein [(9, [0, 1, 2, 3]), (1, [3, 4])] [0, 1, 2, 4]) 1 1,
    -- 1764: tmp7 = einsum(t1, (0, 1), tmp0, (0, 2), (2, 1))
    .set 48 (.ein [(1, [0, 1]), (22, [0, 2])] [2, 1]) 1 1,
    -- 1765: tmp5 = einsum(t2, (0, 1, 2, 3), f.ov, (4, 3), (4, 0, 1, 2))
    .set 49 (.ein [(4, [0, 1, 2, 3]), (5, [4, 3])] [4, 0, 1, 2]) 1 1,
    -- 1766: tmp4 = einsum(t2, (0, 1, 2, 3), f.ov, (1, 3), (0, 2))
    .set 50 (.ein [(4, [0, 1, 2, 3]), (5, [1, 3])] [0, 2]) 1 1,
    -- 1767: tmp3 = einsum(f.vv, (0, 1), t1, (2, 1), (2, 0))
    .set 51 (.ein [(10, [0, 1]), (1, [2, 1])] [2, 0]) 1 1,
    -- 1768: tmp2 = einsum(t1, (0, 1), f.oo, (2, 0), (2, 1))
    .set 52 (.ein [(1, [0, 1]), (11, [2, 0])] [2, 1]) 1 1
  ]
  ret := [(chars! "tmp0", 22), (chars! "tmp10", 16), (chars! "tmp11", 47), (chars! "tmp12", 46), (chars! "tmp13", 45), (chars! "tmp15", 44), (chars! "tmp16", 21), (chars! "tmp17", 43), (chars! "tmp19", 42), (chars! "tmp2", 52), (chars! "tmp20", 41), (chars! "tmp21", 40), (chars! "tmp22", 39), (chars! "tmp23", 38), (chars! "tmp24", 37), (chars! "tmp26", 13), (chars! "tmp27", 36), (chars! "tmp28", 35), (chars! "tmp29", 12), (chars! "tmp3", 51), (chars! "tmp30", 34), (chars! "tmp31", 33), (chars! "tmp32", 32), (chars! "tmp33", 31), (chars! "tmp34", 20), (chars! "tmp35", 30), (chars! "tmp36", 29), (chars! "tmp38", 15), (chars! "tmp39", 28), (chars! "tmp4", 50), (chars! "tmp41", 27), (chars! "tmp43", 26), (chars! "tmp44", 25), (chars! "tmp45", 24), (chars! "tmp47", 23), (chars! "tmp5", 49), (chars! "tmp7", 48), (chars! "tmp8", 19), (chars! "tmp9", 17)]

/-- codegen/GCC2.py:1772-1985 `hbar_lmatvec_ee`. -/
def hbar_lmatvec_ee : GenFun where
  args := [chars! "t2", chars! "r2", chars! "f.oo", chars! "ints.tmp0", chars! "ints.tmp16", chars! "t1", chars! "v.oovv", chars! "ints.tmp36", chars! "v.ovov", chars! "f.ov", chars! "r1", chars! "v.ooov", chars! "f.vv", chars! "v.ovvv", chars! "ints.tmp17", chars! "ints.tmp34", chars! "v.oooo", chars! "ints.tmp15", chars! "ints.tmp24", chars! "ints.tmp32", chars! "ints.tmp21", chars! "ints.tmp12", chars! "ints.tmp19", chars! "ints.tmp22", chars! "ints.tmp2", chars! "ints.tmp30", chars! "ints.tmp33", chars! "ints.tmp39", chars! "ints.tmp43", chars! "ints.tmp45", chars! "ints.tmp7", chars! "ints.tmp27", chars! "ints.tmp3", chars! "ints.tmp4", chars! "ints.tmp10", chars! "ints.tmp9", chars! "ints.tmp11", chars! "ints.tmp13", chars! "ints.tmp20", chars! "ints.tmp35", chars! "ints.tmp47", chars! "ints.tmp5", chars! "ints.tmp23", chars! "ints.tmp28", chars! "ints.tmp31", chars! "ints.tmp41", chars! "ints.tmp44", chars! "ints.tmp26", chars! "ints.tmp38", chars! "ints.tmp8", chars! "ints.tmp29", chars! "v.ovoo", chars! "v.vvvv"]
  body := [
    -- 1800: tmp2 = einsum(t2, (0, 1, 2, 3), r2, (4, 1, 2, 3), (4, 0))
    .set 53 (.ein [(0, [0, 1, 2, 3]), (1, [4, 1, 2, 3])] [4, 0]) 1 1,
    -- 1801: tmp30 = np.copy(f.oo)
    .set 54 (.cp 2) 1 1,
    -- 1802: tmp30 += np.transpose(ints.tmp0, (1, 0))
    .add 54 (.tr 3 [1, 0]) 1 1,
    -- 1803: tmp30 += ints.tmp16 * 0.5
    .add 54 (.cp 4) 1 2,
    -- 1804: tmp1 = einsum(r2, (0, 1, 2, 3), t2, (0, 1, 4, 3), (2, 4))
    .set 55 (.ein [(1, [0, 1, 2, 3]), (0, [0, 1, 4, 3])] [2, 4]) 1 1,
    -- 1805: tmp6 = einsum(r2, (0, 1, 2, 3), t1, (4, 3), (0, 1, 4, 2))
    .set 56 (.ein [(1, [0, 1, 2, 3]), (5, [4, 3])] [0, 1, 4, 2]) 1 1,
    -- 1806: tmp29 = einsum(tmp2, (0, 1), v.oovv, (2, 1, 3, 4), (0, 2, 3, 4)) * -1
    .set 57 (.ein [(53, [0, 1]), (6, [2, 1, 3, 4])] [0, 2, 3, 4]) (-1) 1,
    -- 1807: tmp31 = einsum(tmp30, (0, 1), r2, (2, 0, 3, 4), (1, 2, 3, 4)) * -1
    .set 58 (.ein [(54, [0, 1]), (1, [2, 0, 3, 4])] [1, 2, 3, 4]) (-1) 1,
    -- 1808: del tmp30
    .del 54,
    -- 1809: tmp18 = einsum(r2, (0, 1, 2, 3), ints.tmp36, (1, 4, 3, 5), (4, 0, 5, 2))
    .set 59 (.ein [(1, [0, 1, 2, 3]), (7, [1, 4, 3, 5])] [4, 0, 5, 2]) 1 1,
    -- 1810: tmp19 = einsum(r2, (0, 1, 2, 3), v.ovov, (4, 3, 1, 5), (0, 4, 2, 5))
    .set 60 (.ein [(1, [0, 1, 2, 3]), (8, [4, 3, 1, 5])] [0, 4, 2, 5]) 1 1,
    -- 1811: tmp22 = einsum(tmp1, (0, 1), v.oovv, (2, 3, 4, 1), (2, 3, 0, 4)) * -1
    .set 61 (.ein [(55, [0, 1]), (6, [2, 3, 4, 1])] [2, 3, 0, 4]) (-1) 1,
    -- 1812: tmp21 = einsum(tmp6, (0, 1, 2, 3), f.ov, (2, 4), (0, 1, 4, 3))
    .set 62 (.ein [(56, [0, 1, 2, 3]), (9, [2, 4])] [0, 1, 4, 3]) 1 1,
    -- 1813: tmp25 = einsum(r1, (0, 1), v.ooov, (2, 3, 0, 4), (2, 3, 1, 4))
    .set 63 (.ein [(10, [0, 1]), (11, [2, 3, 0, 4])] [2, 3, 1, 4]) 1 1,
    -- 1814: tmp26 = einsum(r2, (0, 1, 2, 3), f.vv, (4, 3), (0, 1, 4, 2))
    .set 64 (.ein [(1, [0, 1, 2, 3]), (12, [4, 3])] [0, 1, 4, 2]) 1 1,
    -- 1815: tmp0 = einsum(t1, (0, 1), r1, (2, 1), (2, 0))
    .set 65 (.ein [(5, [0, 1]), (10, [2, 1])] [2, 0]) 1 1,
    -- 1816: tmp32 = np.copy(np.transpose(tmp29, (0, 1, 3, 2))) * 0.5
    .set 66 (.tr 57 [0, 1, 3, 2]) 1 2,
    -- 1817: del tmp29
    .del 57,
    -- 1818: tmp32 += np.transpose(tmp31, (0, 1, 3, 2))
    .add 66 (.tr 58 [0, 1, 3, 2]) 1 1,
    -- 1819: del tmp31
    .del 58,
    -- 1820: tmp24 = einsum(v.ovvv, (0, 1, 2, 3), r1, (4, 1), (4, 0, 2, 3))
    .set 67 (.ein [(13, [0, 1, 2, 3]), (10, [4, 1])] [4, 0, 2, 3]) 1 1,
    -- 1821: tmp28 = einsum(ints.tmp17, (0, 1), r2, (2, 3, 4, 0), (2, 3, 1, 4))
    .set 68 (.ein [(14, [0, 1]), (1, [2, 3, 4, 0])] [2, 3, 1, 4]) 1 1,
    -- 1822: tmp20 = einsum(r1, (0, 1), f.ov, (2, 3), (2, 0, 3, 1))
    .set 69 (.ein [(10, [0, 1]), (9, [2, 3])] [2, 0, 3, 1]) 1 1,
    -- 1823: tmp20 += tmp18
    .add 69 (.cp 59) 1 1,
    -- 1824: del tmp18
    .del 59,
    -- 1825: tmp20 += tmp19 * -1
    .add 69 (.cp 60) (-1) 1,
    -- 1826: del tmp19
    .del 60,
    -- 1827: tmp23 = np.copy(tmp21)
    .set 70 (.cp 62) 1 1,
    -- 1828: del tmp21
    .del 62,
    -- 1829: tmp23 += tmp22 * -0.5
    .add 70 (.cp 61) (-1) 2,
    -- 1830: del tmp22
    .del 61,
    -- 1831: tmp17 = einsum(t2, (0, 1, 2, 3), r2, (4, 5, 2, 3), (4, 5, 0, 1))
    .set 71 (.ein [(0, [0, 1, 2, 3]), (1, [4, 5, 2, 3])] [4, 5, 0, 1]) 1 1,
    -- 1832: tmp33 = np.copy(ints.tmp34) * -0.5
    .set 72 (.cp 15) (-1) 2,
    -- 1833: del ints.tmp34
    .del 15,
    -- 1834: tmp33 += v.oooo * -1
    .add 72 (.cp 16) (-1) 1,
    -- 1835: tmp27 = np.copy(np.transpose(tmp25, (1, 0, 2, 3))) * -1
    .set 73 (.tr 63 [1, 0, 2, 3]) (-1) 1,
    -- 1836: del tmp25
    .del 63,
    -- 1837: tmp27 += np.transpose(tmp26, (1, 0, 2, 3)) * -1
    .add 73 (.tr 64 [1, 0, 2, 3]) (-1) 1,
    -- 1838: del tmp26
    .del 64,
    -- 1839: tmp3 = np.copy(ints.tmp15) * 0.5
    .set 74 (.cp 17) 1 2,
    -- 1840: del ints.tmp15
    .del 17,
    -- 1841: tmp3 += ints.tmp24
    .add 74 (.cp 18) 1 1,
    -- 1842: del ints.tmp24
    .del 18,
    -- 1843: tmp3 += ints.tmp32 * 0.25
    .add 74 (.cp 19) 1 4,
    -- 1844: del ints.tmp32
    .del 19,
    -- 1845: tmp3 += ints.tmp21 * -0.25
    .add 74 (.cp 20) (-1) 4,
    -- 1846: del ints.tmp21
    .del 20,
    -- 1847: tmp3 += np.transpose(v.ovvv, (0, 2, 3, 1)) * -0.5
    .add 74 (.tr 13 [0, 2, 3, 1]) (-1) 2,
    -- 1848: tmp9 = np.copy(ints.tmp12)
    .set 75 (.cp 21) 1 1,
    -- 1849: del ints.tmp12
    .del 21,
    -- 1850: tmp9 += ints.tmp19 * 0.5
    .add 75 (.cp 22) 1 2,
    -- 1851: del ints.tmp19
    .del 22,
    -- 1852: tmp9 += ints.tmp22 * 0.5
    .add 75 (.cp 23) 1 2,
    -- 1853: del ints.tmp22
    .del 23,
    -- 1854: tmp9 += ints.tmp2
    .add 75 (.cp 24) 1 1,
    -- 1855: del ints.tmp2
    .del 24,
    -- 1856: tmp9 += ints.tmp30 * 0.5
    .add 75 (.cp 25) 1 2,
    -- 1857: del ints.tmp30
    .del 25,
    -- 1858: tmp9 += ints.tmp33 * 0.5
    .add 75 (.cp 26) 1 2,
    -- 1859: del ints.tmp33
    .del 26,
    -- 1860: tmp9 += ints.tmp39
    .add 75 (.cp 27) 1 1,
    -- 1861: del ints.tmp39
    .del 27,
    -- 1862: tmp9 += ints.tmp43
    .add 75 (.cp 28) 1 1,
    -- 1863: del ints.tmp43
    .del 28,
    -- 1864: tmp9 += ints.tmp45
    .add 75 (.cp 29) 1 1,
    -- 1865: del ints.tmp45
    .del 29,
    -- 1866: tmp9 += ints.tmp7
    .add 75 (.cp 30) 1 1,
    -- 1867: del ints.tmp7
    .del 30,
    -- 1868: tmp9 += f.ov * -1
    .add 75 (.cp 9) (-1) 1,
    -- 1869: tmp9 += ints.tmp27 * -1
    .add 75 (.cp 31) (-1) 1,
    -- 1870: del ints.tmp27
    .del 31,
    -- 1871: tmp9 += ints.tmp3 * -1
    .add 75 (.cp 32) (-1) 1,
    -- 1872: del ints.tmp3
    .del 32,
    -- 1873: tmp9 += ints.tmp4 * -1
    .add 75 (.cp 33) (-1) 1,
    -- 1874: del ints.tmp4
    .del 33,
    -- 1875: tmp11 = np.copy(ints.tmp10)
    .set 76 (.cp 34) 1 1,
    -- 1876: tmp11 += np.transpose(v.ovov, (0, 2, 3, 1)) * -1
    .add 76 (.tr 8 [0, 2, 3, 1]) (-1) 1,
    -- 1877: tmp12 = np.copy(tmp0) * 2
    .set 77 (.cp 65) 2 1,
    -- 1878: tmp12 += tmp2
    .add 77 (.cp 53) 1 1,
    -- 1879: tmp13 = np.copy(ints.tmp17) * 0.5
    .set 78 (.cp 14) 1 2,
    -- 1880: del ints.tmp17
    .del 14,
    -- 1881: tmp13 += ints.tmp9
    .add 78 (.cp 35) 1 1,
    -- 1882: del ints.tmp9
    .del 35,
    -- 1883: tmp13 += f.vv * -1
    .add 78 (.cp 12) (-1) 1,
    -- 1884: tmp4 = np.copy(ints.tmp11) * 0.5
    .set 79 (.cp 36) 1 2,
    -- 1885: del ints.tmp11
    .del 36,
    -- 1886: tmp4 += np.transpose(ints.tmp13, (0, 2, 1, 3))
    .add 79 (.tr 37 [0, 2, 1, 3]) 1 1,
    -- 1887: del ints.tmp13
    .del 37,
    -- 1888: tmp4 += np.transpose(ints.tmp20, (0, 2, 1, 3))
    .add 79 (.tr 38 [0, 2, 1, 3]) 1 1,
    -- 1889: del ints.tmp20
    .del 38,
    -- 1890: tmp4 += ints.tmp35 * 0.25
    .add 79 (.cp 39) 1 4,
    -- 1891: del ints.tmp35
    .del 39,
    -- 1892: tmp4 += ints.tmp47 * 0.5
    .add 79 (.cp 40) 1 2,
    -- 1893: del ints.tmp47
    .del 40,
    -- 1894: tmp4 += np.transpose(ints.tmp5, (1, 2, 0, 3)) * 0.5
    .add 79 (.tr 41 [1, 2, 0, 3]) 1 2,
    -- 1895: del ints.tmp5
    .del 41,
    -- 1896: tmp4 += ints.tmp23 * -0.25
    .add 79 (.cp 42) (-1) 4,
    -- 1897: del ints.tmp23
    .del 42,
    -- 1898: tmp4 += ints.tmp28 * -0.5
    .add 79 (.cp 43) (-1) 2,
    -- 1899: del ints.tmp28
    .del 43,
    -- 1900: tmp4 += ints.tmp31 * -1
    .add 79 (.cp 44) (-1) 1,
    -- 1901: del ints.tmp31
    .del 44,
    -- 1902: tmp4 += np.transpose(ints.tmp41, (0, 2, 1, 3)) * -1
    .add 79 (.tr 45 [0, 2, 1, 3]) (-1) 1,
    -- 1903: del ints.tmp41
    .del 45,
    -- 1904: tmp4 += ints.tmp44 * -0.5
    .add 79 (.cp 46) (-1) 2,
    -- 1905: del ints.tmp44
    .del 46,
    -- 1906: tmp4 += v.ooov * -0.5
    .add 79 (.cp 11) (-1) 2,
    -- 1907: tmp16 = np.copy(f.ov)
    .set 80 (.cp 9) 1 1,
    -- 1908: tmp16 += ints.tmp26
    .add 80 (.cp 47) 1 1,
    -- 1909: del ints.tmp26
    .del 47,
    -- 1910: tmp14 = np.copy(f.oo)
    .set 81 (.cp 2) 1 1,
    -- 1911: tmp14 += np.transpose(ints.tmp0, (1, 0))
    .add 81 (.tr 3 [1, 0]) 1 1,
    -- 1912: del ints.tmp0
    .del 3,
    -- 1913: tmp14 += ints.tmp16 * 0.5
    .add 81 (.cp 4) 1 2,
    -- 1914: del ints.tmp16
    .del 4,
    -- 1915: tmp14 += ints.tmp38
    .add 81 (.cp 48) 1 1,
    -- 1916: del ints.tmp38
    .del 48,
    -- 1917: tmp14 += np.transpose(ints.tmp8, (1, 0))
    .add 81 (.tr 49 [1, 0]) 1 1,
    -- 1918: del ints.tmp8
    .del 49,
    -- 1919: tmp5 = np.copy(ints.tmp10)
    .set 82 (.cp 34) 1 1,
    -- 1920: del ints.tmp10
    .del 34,
    -- 1921: tmp5 += ints.tmp36
    .add 82 (.cp 7) 1 1,
    -- 1922: del ints.tmp36
    .del 7,
    -- 1923: tmp5 += np.transpose(v.ovov, (0, 2, 3, 1)) * -1
    .add 82 (.tr 8 [0, 2, 3, 1]) (-1) 1,
    -- 1924: tmp7 = einsum(tmp6, (0, 1, 2, 3), t1, (4, 3), (0, 1, 4, 2))
    .set 83 (.ein [(56, [0, 1, 2, 3]), (5, [4, 3])] [0, 1, 4, 2]) 1 1,
    -- 1925: tmp15 = np.copy(tmp0)
    .set 84 (.cp 65) 1 1,
    -- 1926: tmp15 += tmp2 * 0.5
    .add 84 (.cp 53) 1 2,
    -- 1927: tmp10 = einsum(t2, (0, 1, 2, 3), r1, (1, 3), (0, 2))
    .set 85 (.ein [(0, [0, 1, 2, 3]), (10, [1, 3])] [0, 2]) 1 1,
    -- 1928: tmp10 += einsum(tmp6, (0, 1, 2, 3), t2, (1, 0, 4, 3), (2, 4)) * -0.5
    .add 85 (.ein [(56, [0, 1, 2, 3]), (0, [1, 0, 4, 3])] [2, 4]) (-1) 2,
    -- 1929: tmp8 = np.copy(ints.tmp29)
    .set 86 (.cp 50) 1 1,
    -- 1930: tmp8 += np.transpose(v.ovoo, (0, 2, 3, 1)) * -1
    .add 86 (.tr 51 [0, 2, 3, 1]) (-1) 1,
    -- 1931: r2new = einsum(v.vvvv, (0, 1, 2, 3), r2, (4, 5, 2, 3), (4, 5, 0, 1)) * 0.5
    .set 87 (.ein [(52, [0, 1, 2, 3]), (1, [4, 5, 2, 3])] [4, 5, 0, 1]) 1 2,
    -- 1932: r2new += einsum(v.oovv, (0, 1, 2, 3), tmp17, (4, 5, 1, 0), (5, 4, 2, 3)) * 0.25
    .add 87 (.ein [(6, [0, 1, 2, 3]), (71, [4, 5, 1, 0])] [5, 4, 2, 3]) 1 4,
    -- 1933: del tmp17
    .del 71,
    -- 1934: r2new += tmp20
    .add 87 (.cp 69) 1 1,
    -- 1935: r2new += np.transpose(tmp20, (0, 1, 3, 2)) * -1
    .add 87 (.tr 69 [0, 1, 3, 2]) (-1) 1,
    -- 1936: r2new += np.transpose(tmp20, (1, 0, 2, 3)) * -1
    .add 87 (.tr 69 [1, 0, 2, 3]) (-1) 1,
    -- 1937: r2new += np.transpose(tmp20, (1, 0, 3, 2))
    .add 87 (.tr 69 [1, 0, 3, 2]) 1 1,
    -- 1938: del tmp20
    .del 69,
    -- 1939: r2new += tmp23
    .add 87 (.cp 70) 1 1,
    -- 1940: r2new += np.transpose(tmp23, (0, 1, 3, 2)) * -1
    .add 87 (.tr 70 [0, 1, 3, 2]) (-1) 1,
    -- 1941: del tmp23
    .del 70,
    -- 1942: r2new += np.transpose(tmp24, (0, 1, 3, 2))
    .add 87 (.tr 67 [0, 1, 3, 2]) 1 1,
    -- 1943: r2new += np.transpose(tmp24, (1, 0, 3, 2)) * -1
    .add 87 (.tr 67 [1, 0, 3, 2]) (-1) 1,
    -- 1944: del tmp24
    .del 67,
    -- 1945: r2new += tmp27 * -1
    .add 87 (.cp 73) (-1) 1,
    -- 1946: r2new += np.transpose(tmp27, (0, 1, 3, 2))
    .add 87 (.tr 73 [0, 1, 3, 2]) 1 1,
    -- 1947: del tmp27
    .del 73,
    -- 1948: r2new += np.transpose(tmp28, (1, 0, 2, 3)) * -0.5
    .add 87 (.tr 68 [1, 0, 2, 3]) (-1) 2,
    -- 1949: r2new += np.transpose(tmp28, (1, 0, 3, 2)) * 0.5
    .add 87 (.tr 68 [1, 0, 3, 2]) 1 2,
    -- 1950: del tmp28
    .del 68,
    -- 1951: r2new += tmp32
    .add 87 (.cp 66) 1 1,
    -- 1952: r2new += np.transpose(tmp32, (1, 0, 2, 3)) * -1
    .add 87 (.tr 66 [1, 0, 2, 3]) (-1) 1,
    -- 1953: del tmp32
    .del 66,
    -- 1954: r2new += einsum(r2, (0, 1, 2, 3), tmp33, (0, 1, 4, 5), (4, 5, 2, 3)) * -0.5
    .add 87 (.ein [(1, [0, 1, 2, 3]), (72, [0, 1, 4, 5])] [4, 5, 2, 3]) (-1) 2,
    -- 1955: del tmp33
    .del 72,
    -- 1956: r1new = einsum(tmp0, (0, 1), ints.tmp29, (0, 2, 1, 3), (2, 3)) * -1
    .set 88 (.ein [(65, [0, 1]), (50, [0, 2, 1, 3])] [2, 3]) (-1) 1,
    -- 1957: del tmp0
    .del 65,
    -- 1958: r1new += einsum(tmp1, (0, 1), v.ovvv, (2, 0, 3, 1), (2, 3)) * 0.5
    .add 88 (.ein [(55, [0, 1]), (13, [2, 0, 3, 1])] [2, 3]) 1 2,
    -- 1959: del tmp1
    .del 55,
    -- 1960: r1new += einsum(tmp2, (0, 1), ints.tmp29, (0, 2, 1, 3), (2, 3)) * -0.5
    .add 88 (.ein [(53, [0, 1]), (50, [0, 2, 1, 3])] [2, 3]) (-1) 2,
    -- 1961: del tmp2, ints.tmp29
    .del 53,
    .del 50,
    -- 1962: r1new += einsum(tmp3, (0, 1, 2, 3), r2, (4, 0, 1, 2), (4, 3))
    .add 88 (.ein [(74, [0, 1, 2, 3]), (1, [4, 0, 1, 2])] [4, 3]) 1 1,
    -- 1963: del tmp3
    .del 74,
    -- 1964: r1new += einsum(tmp4, (0, 1, 2, 3), r2, (0, 1, 4, 3), (2, 4))
    .add 88 (.ein [(79, [0, 1, 2, 3]), (1, [0, 1, 4, 3])] [2, 4]) 1 1,
    -- 1965: del tmp4
    .del 79,
    -- 1966: r1new += einsum(tmp6, (0, 1, 2, 3), tmp5, (0, 2, 3, 4), (1, 4)) * -1
    .add 88 (.ein [(56, [0, 1, 2, 3]), (82, [0, 2, 3, 4])] [1, 4]) (-1) 1,
    -- 1967: del tmp6, tmp5
    .del 56,
    .del 82,
    -- 1968: r1new += einsum(tmp8, (0, 1, 2, 3), tmp7, (4, 0, 2, 1), (4, 3)) * -0.5
    .add 88 (.ein [(86, [0, 1, 2, 3]), (83, [4, 0, 2, 1])] [4, 3]) (-1) 2,
    -- 1969: del tmp8, tmp7
    .del 86,
    .del 83,
    -- 1970: r1new += einsum(r2, (0, 1, 2, 3), tmp9, (1, 3), (0, 2)) * -1
    .add 88 (.ein [(1, [0, 1, 2, 3]), (75, [1, 3])] [0, 2]) (-1) 1,
    -- 1971: del tmp9
    .del 75,
    -- 1972: r1new += einsum(tmp10, (0, 1), v.oovv, (2, 0, 3, 1), (2, 3))
    .add 88 (.ein [(85, [0, 1]), (6, [2, 0, 3, 1])] [2, 3]) 1 1,
    -- 1973: del tmp10
    .del 85,
    -- 1974: r1new += einsum(tmp11, (0, 1, 2, 3), r1, (0, 2), (1, 3))
    .add 88 (.ein [(76, [0, 1, 2, 3]), (10, [0, 2])] [1, 3]) 1 1,
    -- 1975: del tmp11
    .del 76,
    -- 1976: r1new += einsum(v.ooov, (0, 1, 2, 3), tmp12, (2, 1), (0, 3)) * 0.5
    .add 88 (.ein [(11, [0, 1, 2, 3]), (77, [2, 1])] [0, 3]) 1 2,
    -- 1977: del tmp12
    .del 77,
    -- 1978: r1new += einsum(r1, (0, 1), tmp13, (1, 2), (0, 2)) * -1
    .add 88 (.ein [(10, [0, 1]), (78, [1, 2])] [0, 2]) (-1) 1,
    -- 1979: del tmp13
    .del 78,
    -- 1980: r1new += einsum(tmp14, (0, 1), r1, (0, 2), (1, 2)) * -1
    .add 88 (.ein [(81, [0, 1]), (10, [0, 2])] [1, 2]) (-1) 1,
    -- 1981: del tmp14
    .del 81,
    -- 1982: r1new += einsum(tmp15, (0, 1), tmp16, (1, 2), (0, 2)) * -1
    .add 88 (.ein [(84, [0, 1]), (80, [1, 2])] [0, 2]) (-1) 1,
    -- 1983: del tmp15, tmp16
    .del 84,
    .del 80
  ]
  ret := [(chars! "r1new", 88), (chars! "r2new", 87)]

end Ebcc.Gen.GCC2Eom
