import Verif.Model.GenCode
/-!
Functions of `ebcc/codegen/GCCSD.py`, written by `tools/gencode.py`.  Comments give the
number and the text of the line of each statement.
-/

set_option maxRecDepth 100000

namespace Ebcc.Gen.GCCSDEom

/-- codegen/GCCSD.py:733-827 `hbar_matvec_ip_intermediates`. -/
def hbar_matvec_ip_intermediates : GenFun where
  args := [chars! "v.oovv", chars! "t1", chars! "v.ovvv", chars! "v.ooov", chars! "t2", chars! "f.ov", chars! "v.ovoo", chars! "v.ovov", chars! "v.oooo", chars! "f.vv", chars! "f.oo"]
  body := [
    -- 789: tmp3 = einsum(v.oovv, (0, 1, 2, 3), t1, (4, 3), (4, 0, 1, 2))
    .set 11 (.ein [(0, [0, 1, 2, 3]), (1, [4, 3])] [4, 0, 1, 2]) 1 1,
    -- 790: tmp2 = einsum(t1, (0, 1), v.oovv, (2, 0, 3, 1), (2, 3))
    .set 12 (.ein [(1, [0, 1]), (0, [2, 0, 3, 1])] [2, 3]) 1 1,
    -- 791: tmp52 = einsum(tmp3, (0, 1, 2, 3), t1, (4, 3), (0, 4, 2, 1))
    .set 13 (.ein [(11, [0, 1, 2, 3]), (1, [4, 3])] [0, 4, 2, 1]) 1 1,
    -- 792: tmp5 = einsum(tmp2, (0, 1), t1, (2, 1), (2, 0))
    .set 14 (.ein [(12, [0, 1]), (1, [2, 1])] [2, 0]) 1 1,
    -- 793: tmp25 = einsum(v.ovvv, (0, 1, 2, 3), t1, (4, 3), (4, 0, 1, 2))
    .set 15 (.ein [(2, [0, 1, 2, 3]), (1, [4, 3])] [4, 0, 1, 2]) 1 1,
    -- 794: tmp24 = einsum(v.ovvv, (0, 1, 2, 3), t1, (0, 3), (1, 2))
    .set 16 (.ein [(2, [0, 1, 2, 3]), (1, [0, 3])] [1, 2]) 1 1,
    -- 795: tmp20 = einsum(v.ooov, (0, 1, 2, 3), t1, (4, 3), (4, 0, 1, 2))
    .set 17 (.ein [(3, [0, 1, 2, 3]), (1, [4, 3])] [4, 0, 1, 2]) 1 1,
    -- 796: tmp1 = einsum(v.ooov, (0, 1, 2, 3), t1, (1, 3), (0, 2))
    .set 18 (.ein [(3, [0, 1, 2, 3]), (1, [1, 3])] [0, 2]) 1 1,
    -- 797: tmp33 = einsum(v.oovv, (0, 1, 2, 3), t2, (4, 5, 2, 3), (4, 5, 0, 1))
    .set 19 (.ein [(0, [0, 1, 2, 3]), (4, [4, 5, 2, 3])] [4, 5, 0, 1]) 1 1,
    -- 798: tmp4 = einsum(t2, (0, 1, 2, 3), v.oovv, (4, 1, 2, 3), (0, 4))
    .set 20 (.ein [(4, [0, 1, 2, 3]), (0, [4, 1, 2, 3])] [0, 4]) 1 1,
    -- 799: tmp0 = einsum(f.ov, (0, 1), t1, (2, 1), (0, 2))
    .set 21 (.ein [(5, [0, 1]), (1, [2, 1])] [0, 2]) 1 1,
    -- 800: tmp56 = einsum(t1, (0, 1), tmp52, (2, 3, 4, 0), (2, 3, 4, 1))
    .set 22 (.ein [(1, [0, 1]), (13, [2, 3, 4, 0])] [2, 3, 4, 1]) 1 1,
    -- 801: tmp55 = einsum(t1, (0, 1), tmp5, (2, 0), (2, 1))
    .set 23 (.ein [(1, [0, 1]), (14, [2, 0])] [2, 1]) 1 1,
    -- 802: tmp49 = einsum(tmp25, (0, 1, 2, 3), t1, (4, 3), (0, 4, 1, 2)) * -1
    .set 24 (.ein [(15, [0, 1, 2, 3]), (1, [4, 3])] [0, 4, 1, 2]) (-1) 1,
    -- 803: tmp48 = einsum(tmp24, (0, 1), t1, (2, 1), (2, 0))
    .set 25 (.ein [(16, [0, 1]), (1, [2, 1])] [2, 0]) 1 1,
    -- 804: tmp46 = einsum(t1, (0, 1), tmp20, (2, 0, 3, 4), (2, 3, 4, 1)) * -1
    .set 26 (.ein [(1, [0, 1]), (17, [2, 0, 3, 4])] [2, 3, 4, 1]) (-1) 1,
    -- 805: tmp45 = einsum(tmp1, (0, 1), t1, (0, 2), (1, 2))
    .set 27 (.ein [(18, [0, 1]), (1, [0, 2])] [1, 2]) 1 1,
    -- 806: tmp44 = einsum(t1, (0, 1), tmp33, (2, 3, 0, 4), (2, 3, 4, 1)) * -1
    .set 28 (.ein [(1, [0, 1]), (19, [2, 3, 0, 4])] [2, 3, 4, 1]) (-1) 1,
    -- 807: tmp43 = einsum(tmp4, (0, 1), t1, (1, 2), (0, 2))
    .set 29 (.ein [(20, [0, 1]), (1, [1, 2])] [0, 2]) 1 1,
    -- 808: tmp41 = einsum(tmp3, (0, 1, 2, 3), t2, (4, 1, 5, 3), (0, 4, 2, 5))
    .set 30 (.ein [(11, [0, 1, 2, 3]), (4, [4, 1, 5, 3])] [0, 4, 2, 5]) 1 1,
    -- 809: tmp40 = einsum(t2, (0, 1, 2, 3), tmp3, (4, 1, 0, 3), (4, 2))
    .set 31 (.ein [(4, [0, 1, 2, 3]), (11, [4, 1, 0, 3])] [4, 2]) 1 1,
    -- 810: tmp39 = einsum(tmp2, (0, 1), t2, (2, 3, 4, 1), (2, 3, 0, 4)) * -1
    .set 32 (.ein [(12, [0, 1]), (4, [2, 3, 4, 1])] [2, 3, 0, 4]) (-1) 1,
    -- 811: tmp38 = einsum(tmp2, (0, 1), t2, (2, 0, 3, 1), (2, 3))
    .set 33 (.ein [(12, [0, 1]), (4, [2, 0, 3, 1])] [2, 3]) 1 1,
    -- 812: tmp35 = einsum(v.oovv, (0, 1, 2, 3), t2, (4, 1, 5, 3), (4, 0, 5, 2))
    .set 34 (.ein [(0, [0, 1, 2, 3]), (4, [4, 1, 5, 3])] [4, 0, 5, 2]) 1 1,
    -- 813: tmp34 = einsum(t2, (0, 1, 2, 3), v.oovv, (0, 1, 4, 3), (2, 4))
    .set 35 (.ein [(4, [0, 1, 2, 3]), (0, [0, 1, 4, 3])] [2, 4]) 1 1,
    -- 814: tmp31 = einsum(v.ovvv, (0, 1, 2, 3), t2, (4, 5, 2, 3), (4, 5, 0, 1))
    .set 36 (.ein [(2, [0, 1, 2, 3]), (4, [4, 5, 2, 3])] [4, 5, 0, 1]) 1 1,
    -- 815: tmp30 = einsum(t2, (0, 1, 2, 3), v.ovvv, (1, 4, 2, 3), (0, 4))
    .set 37 (.ein [(4, [0, 1, 2, 3]), (2, [1, 4, 2, 3])] [0, 4]) 1 1,
    -- 816: tmp28 = einsum(t2, (0, 1, 2, 3), v.ooov, (4, 1, 5, 3), (0, 4, 5, 2))
    .set 38 (.ein [(4, [0, 1, 2, 3]), (3, [4, 1, 5, 3])] [0, 4, 5, 2]) 1 1,
    -- 817: tmp27 = einsum(t2, (0, 1, 2, 3), v.ovoo, (4, 3, 0, 1), (4, 2))
    .set 39 (.ein [(4, [0, 1, 2, 3]), (6, [4, 3, 0, 1])] [4, 2]) 1 1,
    -- 818: tmp17 = einsum(v.ovov, (0, 1, 2, 3), t1, (4, 3), (4, 0, 2, 1))
    .set 40 (.ein [(7, [0, 1, 2, 3]), (1, [4, 3])] [4, 0, 2, 1]) 1 1,
    -- 819: tmp16 = einsum(t1, (0, 1), v.ovov, (2, 1, 0, 3), (2, 3))
    .set 41 (.ein [(1, [0, 1]), (7, [2, 1, 0, 3])] [2, 3]) 1 1,
    -- 820: tmp15 = einsum(t1, (0, 1), v.oooo, (2, 3, 4, 0), (2, 3, 4, 1))
    .set 42 (.ein [(1, [0, 1]), (8, [2, 3, 4, 0])] [2, 3, 4, 1]) 1 1,
    -- 821: tmp13 = einsum(tmp0, (0, 1), t1, (0, 2), (1, 2))
    .set 43 (.ein [(21, [0, 1]), (1, [0, 2])] [1, 2]) 1 1,
    -- 822: tmp12 = einsum(t2, (0, 1, 2, 3), f.ov, (4, 3), (4, 0, 1, 2))
    .set 44 (.ein [(4, [0, 1, 2, 3]), (5, [4, 3])] [4, 0, 1, 2]) 1 1,
    -- 823: tmp11 = einsum(f.ov, (0, 1), t2, (2, 0, 3, 1), (2, 3))
    .set 45 (.ein [(5, [0, 1]), (4, [2, 0, 3, 1])] [2, 3]) 1 1,
    -- 824: tmp8 = einsum(t1, (0, 1), f.vv, (2, 1), (0, 2))
    .set 46 (.ein [(1, [0, 1]), (9, [2, 1])] [0, 2]) 1 1,
    -- 825: tmp7 = einsum(t1, (0, 1), f.oo, (2, 0), (2, 1))
    .set 47 (.ein [(1, [0, 1]), (10, [2, 0])] [2, 1]) 1 1
  ]
  ret := [(chars! "tmp0", 21), (chars! "tmp1", 18), (chars! "tmp11", 45), (chars! "tmp12", 44), (chars! "tmp13", 43), (chars! "tmp15", 42), (chars! "tmp16", 41), (chars! "tmp17", 40), (chars! "tmp2", 12), (chars! "tmp20", 17), (chars! "tmp24", 16), (chars! "tmp25", 15), (chars! "tmp27", 39), (chars! "tmp28", 38), (chars! "tmp3", 11), (chars! "tmp30", 37), (chars! "tmp31", 36), (chars! "tmp33", 19), (chars! "tmp34", 35), (chars! "tmp35", 34), (chars! "tmp38", 33), (chars! "tmp39", 32), (chars! "tmp4", 20), (chars! "tmp40", 31), (chars! "tmp41", 30), (chars! "tmp43", 29), (chars! "tmp44", 28), (chars! "tmp45", 27), (chars! "tmp46", 26), (chars! "tmp48", 25), (chars! "tmp49", 24), (chars! "tmp5", 14), (chars! "tmp52", 13), (chars! "tmp55", 23), (chars! "tmp56", 22), (chars! "tmp7", 47), (chars! "tmp8", 46)]

/-- codegen/GCCSD.py:829-968 `hbar_matvec_ip`. -/
def hbar_matvec_ip : GenFun where
  args := [chars! "ints.tmp3", chars! "r2", chars! "v.ooov", chars! "ints.tmp17", chars! "ints.tmp28", chars! "f.oo", chars! "ints.tmp0", chars! "ints.tmp1", chars! "ints.tmp5", chars! "ints.tmp41", chars! "ints.tmp46", chars! "ints.tmp25", chars! "ints.tmp35", chars! "r1", chars! "t1", chars! "ints.tmp20", chars! "v.ovov", chars! "ints.tmp4", chars! "f.ov", chars! "ints.tmp2", chars! "v.oovv", chars! "ints.tmp13", chars! "ints.tmp16", chars! "ints.tmp27", chars! "ints.tmp30", chars! "ints.tmp40", chars! "ints.tmp43", chars! "ints.tmp45", chars! "ints.tmp48", chars! "ints.tmp55", chars! "ints.tmp7", chars! "ints.tmp11", chars! "ints.tmp38", chars! "ints.tmp8", chars! "ints.tmp12", chars! "ints.tmp15", chars! "ints.tmp44", chars! "ints.tmp49", chars! "ints.tmp31", chars! "ints.tmp39", chars! "ints.tmp56", chars! "v.ovoo", chars! "ints.tmp33", chars! "ints.tmp52", chars! "v.oooo", chars! "ints.tmp24", chars! "ints.tmp34", chars! "f.vv", chars! "t2"]
  body := [
    -- 857: tmp9 = einsum(ints.tmp3, (0, 1, 2, 3), r2, (4, 1, 3), (0, 2, 4))
    .set 49 (.ein [(0, [0, 1, 2, 3]), (1, [4, 1, 3])] [0, 2, 4]) 1 1,
    -- 858: tmp10 = einsum(r2, (0, 1, 2), v.ooov, (3, 1, 4, 2), (0, 3, 4))
    .set 50 (.ein [(1, [0, 1, 2]), (2, [3, 1, 4, 2])] [0, 3, 4]) 1 1,
    -- 859: tmp18 = np.copy(ints.tmp17)
    .set 51 (.cp 3) 1 1,
    -- 860: tmp18 += ints.tmp28
    .add 51 (.cp 4) 1 1,
    -- 861: tmp16 = np.copy(f.oo)
    .set 52 (.cp 5) 1 1,
    -- 862: tmp16 += ints.tmp0
    .add 52 (.cp 6) 1 1,
    -- 863: tmp16 += ints.tmp1
    .add 52 (.cp 7) 1 1,
    -- 864: tmp16 += np.transpose(ints.tmp5, (1, 0))
    .add 52 (.tr 8 [1, 0]) 1 1,
    -- 865: tmp11 = np.copy(tmp9)
    .set 53 (.cp 49) 1 1,
    -- 866: del tmp9
    .del 49,
    -- 867: tmp11 += tmp10 * -1
    .add 53 (.cp 50) (-1) 1,
    -- 868: del tmp10
    .del 50,
    -- 869: tmp13 = np.copy(ints.tmp41)
    .set 54 (.cp 9) 1 1,
    -- 870: tmp13 += np.transpose(ints.tmp46, (0, 2, 1, 3))
    .add 54 (.tr 10 [0, 2, 1, 3]) 1 1,
    -- 871: tmp7 = np.copy(ints.tmp25)
    .set 55 (.cp 11) 1 1,
    -- 872: tmp7 += ints.tmp35
    .add 55 (.cp 12) 1 1,
    -- 873: tmp19 = einsum(r1, (0,), tmp18, (1, 0, 2, 3), (1, 2, 3))
    .set 56 (.ein [(13, [0]), (51, [1, 0, 2, 3])] [1, 2, 3]) 1 1,
    -- 874: del tmp18
    .del 51,
    -- 875: tmp17 = einsum(r2, (0, 1, 2), tmp16, (1, 3), (3, 0, 2)) * -1
    .set 57 (.ein [(1, [0, 1, 2]), (52, [1, 3])] [3, 0, 2]) (-1) 1,
    -- 876: del tmp16
    .del 52,
    -- 877: tmp12 = einsum(tmp11, (0, 1, 2), t1, (1, 3), (0, 2, 3))
    .set 58 (.ein [(53, [0, 1, 2]), (14, [1, 3])] [0, 2, 3]) 1 1,
    -- 878: del tmp11
    .del 53,
    -- 879: tmp14 = einsum(tmp13, (0, 1, 2, 3), r1, (2,), (0, 1, 3))
    .set 59 (.ein [(54, [0, 1, 2, 3]), (13, [2])] [0, 1, 3]) 1 1,
    -- 880: del tmp13
    .del 54,
    -- 881: tmp5 = einsum(ints.tmp20, (0, 1, 2, 3), r2, (2, 1, 4), (0, 3, 4)) * -1
    .set 60 (.ein [(15, [0, 1, 2, 3]), (1, [2, 1, 4])] [0, 3, 4]) (-1) 1,
    -- 882: tmp8 = einsum(tmp7, (0, 1, 2, 3), r2, (4, 1, 3), (0, 4, 2)) * -1
    .set 61 (.ein [(55, [0, 1, 2, 3]), (1, [4, 1, 3])] [0, 4, 2]) (-1) 1,
    -- 883: del tmp7
    .del 55,
    -- 884: tmp6 = einsum(v.ovov, (0, 1, 2, 3), r2, (4, 2, 1), (4, 0, 3))
    .set 62 (.ein [(16, [0, 1, 2, 3]), (1, [4, 2, 1])] [4, 0, 3]) 1 1,
    -- 885: tmp4 = einsum(ints.tmp4, (0, 1), r2, (2, 1, 3), (0, 2, 3))
    .set 63 (.ein [(17, [0, 1]), (1, [2, 1, 3])] [0, 2, 3]) 1 1,
    -- 886: tmp22 = np.copy(f.ov)
    .set 64 (.cp 18) 1 1,
    -- 887: tmp22 += ints.tmp2
    .add 64 (.cp 19) 1 1,
    -- 888: tmp20 = np.copy(tmp17) * -1
    .set 65 (.cp 57) (-1) 1,
    -- 889: del tmp17
    .del 57,
    -- 890: tmp20 += tmp19
    .add 65 (.cp 56) 1 1,
    -- 891: del tmp19
    .del 56,
    -- 892: tmp15 = np.copy(tmp4) * -0.5
    .set 66 (.cp 63) (-1) 2,
    -- 893: del tmp4
    .del 63,
    -- 894: tmp15 += tmp5 * 0.5
    .add 66 (.cp 60) 1 2,
    -- 895: del tmp5
    .del 60,
    -- 896: tmp15 += tmp6
    .add 66 (.cp 62) 1 1,
    -- 897: del tmp6
    .del 62,
    -- 898: tmp15 += tmp8 * -1
    .add 66 (.cp 61) (-1) 1,
    -- 899: del tmp8
    .del 61,
    -- 900: tmp15 += tmp12 * -1
    .add 66 (.cp 58) (-1) 1,
    -- 901: del tmp12
    .del 58,
    -- 902: tmp15 += tmp14
    .add 66 (.cp 59) 1 1,
    -- 903: del tmp14
    .del 59,
    -- 904: tmp3 = einsum(r2, (0, 1, 2), v.oovv, (0, 1, 3, 2), (3,))
    .set 67 (.ein [(1, [0, 1, 2]), (20, [0, 1, 3, 2])] [3]) 1 1,
    -- 905: tmp25 = np.copy(ints.tmp13)
    .set 68 (.cp 21) 1 1,
    -- 906: tmp25 += ints.tmp16
    .add 68 (.cp 22) 1 1,
    -- 907: tmp25 += ints.tmp27 * 0.5
    .add 68 (.cp 23) 1 2,
    -- 908: tmp25 += ints.tmp30 * 0.5
    .add 68 (.cp 24) 1 2,
    -- 909: tmp25 += ints.tmp40 * 0.5
    .add 68 (.cp 25) 1 2,
    -- 910: tmp25 += ints.tmp43 * 0.5
    .add 68 (.cp 26) 1 2,
    -- 911: tmp25 += ints.tmp45
    .add 68 (.cp 27) 1 1,
    -- 912: tmp25 += ints.tmp48
    .add 68 (.cp 28) 1 1,
    -- 913: tmp25 += ints.tmp55
    .add 68 (.cp 29) 1 1,
    -- 914: tmp25 += ints.tmp7
    .add 68 (.cp 30) 1 1,
    -- 915: tmp25 += f.ov * -1
    .add 68 (.cp 18) (-1) 1,
    -- 916: tmp25 += ints.tmp11 * -1
    .add 68 (.cp 31) (-1) 1,
    -- 917: tmp25 += ints.tmp38 * -1
    .add 68 (.cp 32) (-1) 1,
    -- 918: tmp25 += ints.tmp8 * -1
    .add 68 (.cp 33) (-1) 1,
    -- 919: tmp24 = np.copy(ints.tmp12)
    .set 69 (.cp 34) 1 1,
    -- 920: tmp24 += np.transpose(ints.tmp15, (2, 0, 1, 3))
    .add 69 (.tr 35 [2, 0, 1, 3]) 1 1,
    -- 921: tmp24 += np.transpose(ints.tmp44, (2, 0, 1, 3)) * 0.5
    .add 69 (.tr 36 [2, 0, 1, 3]) 1 2,
    -- 922: tmp24 += np.transpose(ints.tmp49, (2, 1, 0, 3))
    .add 69 (.tr 37 [2, 1, 0, 3]) 1 1,
    -- 923: tmp24 += np.transpose(ints.tmp31, (2, 0, 1, 3)) * -0.5
    .add 69 (.tr 38 [2, 0, 1, 3]) (-1) 2,
    -- 924: tmp24 += np.transpose(ints.tmp39, (2, 0, 1, 3)) * -1
    .add 69 (.tr 39 [2, 0, 1, 3]) (-1) 1,
    -- 925: tmp24 += np.transpose(ints.tmp56, (2, 1, 0, 3)) * -1
    .add 69 (.tr 40 [2, 1, 0, 3]) (-1) 1,
    -- 926: tmp24 += np.transpose(v.ovoo, (0, 2, 3, 1)) * -1
    .add 69 (.tr 41 [0, 2, 3, 1]) (-1) 1,
    -- 927: tmp21 = np.copy(ints.tmp33) * 0.5
    .set 70 (.cp 42) 1 2,
    -- 928: tmp21 += ints.tmp52
    .add 70 (.cp 43) 1 1,
    -- 929: tmp21 += v.oooo
    .add 70 (.cp 44) 1 1,
    -- 930: tmp23 = np.copy(np.transpose(ints.tmp24, (1, 0)))
    .set 71 (.tr 45 [1, 0]) 1 1,
    -- 931: tmp23 += np.transpose(ints.tmp34, (1, 0)) * 0.5
    .add 71 (.tr 46 [1, 0]) 1 2,
    -- 932: tmp23 += f.vv * -1
    .add 71 (.cp 47) (-1) 1,
    -- 933: tmp23 += einsum(tmp22, (0, 1), t1, (0, 2), (1, 2))
    .add 71 (.ein [(64, [0, 1]), (14, [0, 2])] [1, 2]) 1 1,
    -- 934: del tmp22
    .del 64,
    -- 935: tmp1 = np.copy(f.ov)
    .set 72 (.cp 18) 1 1,
    -- 936: tmp1 += ints.tmp2
    .add 72 (.cp 19) 1 1,
    -- 937: tmp0 = np.copy(ints.tmp3)
    .set 73 (.cp 0) 1 1,
    -- 938: tmp0 += np.transpose(v.ovoo, (0, 2, 3, 1)) * -1
    .add 73 (.tr 41 [0, 2, 3, 1]) (-1) 1,
    -- 939: tmp2 = np.copy(f.oo) * 2
    .set 74 (.cp 5) 2 1,
    -- 940: tmp2 += ints.tmp0 * 2
    .add 74 (.cp 6) 2 1,
    -- 941: tmp2 += ints.tmp1 * 2
    .add 74 (.cp 7) 2 1,
    -- 942: tmp2 += np.transpose(ints.tmp4, (1, 0))
    .add 74 (.tr 17 [1, 0]) 1 1,
    -- 943: tmp2 += np.transpose(ints.tmp5, (1, 0)) * 2
    .add 74 (.tr 8 [1, 0]) 2 1,
    -- 944: r2new = einsum(tmp3, (0,), t2, (1, 2, 3, 0), (1, 2, 3)) * 0.5
    .set 75 (.ein [(67, [0]), (48, [1, 2, 3, 0])] [1, 2, 3]) 1 2,
    -- 945: del tmp3
    .del 67,
    -- 946: r2new += tmp15 * -1
    .add 75 (.cp 66) (-1) 1,
    -- 947: r2new += np.transpose(tmp15, (1, 0, 2))
    .add 75 (.tr 66 [1, 0, 2]) 1 1,
    -- 948: del tmp15
    .del 66,
    -- 949: r2new += tmp20
    .add 75 (.cp 65) 1 1,
    -- 950: r2new += np.transpose(tmp20, (1, 0, 2)) * -1
    .add 75 (.tr 65 [1, 0, 2]) (-1) 1,
    -- 951: del tmp20
    .del 65,
    -- 952: r2new += einsum(tmp21, (0, 1, 2, 3), r2, (2, 3, 4), (0, 1, 4)) * 0.5
    .add 75 (.ein [(70, [0, 1, 2, 3]), (1, [2, 3, 4])] [0, 1, 4]) 1 2,
    -- 953: del tmp21
    .del 70,
    -- 954: r2new += einsum(r2, (0, 1, 2), tmp23, (2, 3), (0, 1, 3)) * -1
    .add 75 (.ein [(1, [0, 1, 2]), (71, [2, 3])] [0, 1, 3]) (-1) 1,
    -- 955: del tmp23
    .del 71,
    -- 956: r2new += einsum(tmp24, (0, 1, 2, 3), r1, (0,), (2, 1, 3)) * -1
    .add 75 (.ein [(69, [0, 1, 2, 3]), (13, [0])] [2, 1, 3]) (-1) 1,
    -- 957: del tmp24
    .del 69,
    -- 958: r2new += einsum(tmp25, (0, 1), r1, (2,), (2, 0, 1)) * -1
    .add 75 (.ein [(68, [0, 1]), (13, [2])] [2, 0, 1]) (-1) 1,
    -- 959: r2new += einsum(tmp25, (0, 1), r1, (2,), (0, 2, 1))
    .add 75 (.ein [(68, [0, 1]), (13, [2])] [0, 2, 1]) 1 1,
    -- 960: del tmp25
    .del 68,
    -- 961: r1new = einsum(r2, (0, 1, 2), tmp0, (3, 0, 1, 2), (3,)) * 0.5
    .set 76 (.ein [(1, [0, 1, 2]), (73, [3, 0, 1, 2])] [3]) 1 2,
    -- 962: del tmp0
    .del 73,
    -- 963: r1new += einsum(r2, (0, 1, 2), tmp1, (1, 2), (0,))
    .add 76 (.ein [(1, [0, 1, 2]), (72, [1, 2])] [0]) 1 1,
    -- 964: del tmp1
    .del 72,
    -- 965: r1new += einsum(tmp2, (0, 1), r1, (0,), (1,)) * -0.5
    .add 76 (.ein [(74, [0, 1]), (13, [0])] [1]) (-1) 2,
    -- 966: del tmp2
    .del 74
  ]
  ret := [(chars! "r1new", 76), (chars! "r2new", 75)]

/-- codegen/GCCSD.py:1571-1665 `hbar_lmatvec_ip_intermediates`. -/
def hbar_lmatvec_ip_intermediates : GenFun where
  args := [chars! "v.oovv", chars! "t1", chars! "v.ovvv", chars! "v.ooov", chars! "t2", chars! "f.ov", chars! "v.ovoo", chars! "v.ovov", chars! "v.oooo", chars! "f.vv", chars! "f.oo"]
  body := [
    -- 1627: tmp18 = einsum(v.oovv, (0, 1, 2, 3), t1, (4, 3), (4, 0, 1, 2))
    .set 11 (.ein [(0, [0, 1, 2, 3]), (1, [4, 3])] [4, 0, 1, 2]) 1 1,
    -- 1628: tmp15 = einsum(t1, (0, 1), v.oovv, (2, 0, 3, 1), (2, 3))
    .set 12 (.ein [(1, [0, 1]), (0, [2, 0, 3, 1])] [2, 3]) 1 1,
    -- 1629: tmp33 = einsum(tmp18, (0, 1, 2, 3), t1, (4, 3), (4, 0, 1, 2))
    .set 13 (.ein [(11, [0, 1, 2, 3]), (1, [4, 3])] [4, 0, 1, 2]) 1 1,
    -- 1630: tmp24 = einsum(tmp15, (0, 1), t1, (2, 1), (2, 0))
    .set 14 (.ein [(12, [0, 1]), (1, [2, 1])] [2, 0]) 1 1,
    -- 1631: tmp30 = einsum(v.ovvv, (0, 1, 2, 3), t1, (4, 3), (4, 0, 1, 2))
    .set 15 (.ein [(2, [0, 1, 2, 3]), (1, [4, 3])] [4, 0, 1, 2]) 1 1,
    -- 1632: tmp28 = einsum(v.ovvv, (0, 1, 2, 3), t1, (0, 3), (1, 2))
    .set 16 (.ein [(2, [0, 1, 2, 3]), (1, [0, 3])] [1, 2]) 1 1,
    -- 1633: tmp26 = einsum(v.ooov, (0, 1, 2, 3), t1, (4, 3), (4, 0, 1, 2))
    .set 17 (.ein [(3, [0, 1, 2, 3]), (1, [4, 3])] [4, 0, 1, 2]) 1 1,
    -- 1634: tmp6 = einsum(t1, (0, 1), v.ooov, (2, 0, 3, 1), (2, 3))
    .set 18 (.ein [(1, [0, 1]), (3, [2, 0, 3, 1])] [2, 3]) 1 1,
    -- 1635: tmp22 = einsum(v.oovv, (0, 1, 2, 3), t2, (4, 5, 2, 3), (4, 5, 0, 1))
    .set 19 (.ein [(0, [0, 1, 2, 3]), (4, [4, 5, 2, 3])] [4, 5, 0, 1]) 1 1,
    -- 1636: tmp10 = einsum(v.oovv, (0, 1, 2, 3), t2, (4, 1, 2, 3), (4, 0))
    .set 20 (.ein [(0, [0, 1, 2, 3]), (4, [4, 1, 2, 3])] [4, 0]) 1 1,
    -- 1637: tmp0 = einsum(f.ov, (0, 1), t1, (2, 1), (0, 2))
    .set 21 (.ein [(5, [0, 1]), (1, [2, 1])] [0, 2]) 1 1,
    -- 1638: tmp44 = einsum(v.oovv, (0, 1, 2, 3), t2, (4, 1, 5, 3), (4, 0, 5, 2))
    .set 22 (.ein [(0, [0, 1, 2, 3]), (4, [4, 1, 5, 3])] [4, 0, 5, 2]) 1 1,
    -- 1639: tmp43 = einsum(v.oovv, (0, 1, 2, 3), t2, (0, 1, 4, 3), (4, 2))
    .set 23 (.ein [(0, [0, 1, 2, 3]), (4, [0, 1, 4, 3])] [4, 2]) 1 1,
    -- 1640: tmp34 = einsum(t1, (0, 1), tmp33, (2, 3, 4, 0), (2, 3, 4, 1))
    .set 24 (.ein [(1, [0, 1]), (13, [2, 3, 4, 0])] [2, 3, 4, 1]) 1 1,
    -- 1641: tmp32 = einsum(tmp24, (0, 1), t1, (1, 2), (0, 2))
    .set 25 (.ein [(14, [0, 1]), (1, [1, 2])] [0, 2]) 1 1,
    -- 1642: tmp31 = einsum(tmp30, (0, 1, 2, 3), t1, (4, 3), (4, 0, 1, 2))
    .set 26 (.ein [(15, [0, 1, 2, 3]), (1, [4, 3])] [4, 0, 1, 2]) 1 1,
    -- 1643: tmp29 = einsum(tmp28, (0, 1), t1, (2, 1), (2, 0))
    .set 27 (.ein [(16, [0, 1]), (1, [2, 1])] [2, 0]) 1 1,
    -- 1644: tmp27 = einsum(t1, (0, 1), tmp26, (2, 3, 0, 4), (2, 3, 4, 1))
    .set 28 (.ein [(1, [0, 1]), (17, [2, 3, 0, 4])] [2, 3, 4, 1]) 1 1,
    -- 1645: tmp25 = einsum(tmp6, (0, 1), t1, (0, 2), (1, 2))
    .set 29 (.ein [(18, [0, 1]), (1, [0, 2])] [1, 2]) 1 1,
    -- 1646: tmp23 = einsum(t1, (0, 1), tmp22, (2, 3, 4, 0), (2, 3, 4, 1))
    .set 30 (.ein [(1, [0, 1]), (19, [2, 3, 4, 0])] [2, 3, 4, 1]) 1 1,
    -- 1647: tmp21 = einsum(t1, (0, 1), tmp10, (2, 0), (2, 1))
    .set 31 (.ein [(1, [0, 1]), (20, [2, 0])] [2, 1]) 1 1,
    -- 1648: tmp20 = einsum(tmp18, (0, 1, 2, 3), t2, (4, 2, 5, 3), (0, 4, 1, 5)) * -1
    .set 32 (.ein [(11, [0, 1, 2, 3]), (4, [4, 2, 5, 3])] [0, 4, 1, 5]) (-1) 1,
    -- 1649: tmp19 = einsum(t2, (0, 1, 2, 3), tmp18, (4, 1, 0, 3), (4, 2))
    .set 33 (.ein [(4, [0, 1, 2, 3]), (11, [4, 1, 0, 3])] [4, 2]) 1 1,
    -- 1650: tmp17 = einsum(tmp15, (0, 1), t2, (2, 3, 4, 1), (2, 3, 0, 4)) * -1
    .set 34 (.ein [(12, [0, 1]), (4, [2, 3, 4, 1])] [2, 3, 0, 4]) (-1) 1,
    -- 1651: tmp16 = einsum(tmp15, (0, 1), t2, (2, 0, 3, 1), (2, 3))
    .set 35 (.ein [(12, [0, 1]), (4, [2, 0, 3, 1])] [2, 3]) 1 1,
    -- 1652: tmp14 = einsum(v.ovvv, (0, 1, 2, 3), t2, (4, 5, 2, 3), (4, 5, 0, 1))
    .set 36 (.ein [(2, [0, 1, 2, 3]), (4, [4, 5, 2, 3])] [4, 5, 0, 1]) 1 1,
    -- 1653: tmp13 = einsum(v.ovvv, (0, 1, 2, 3), t2, (4, 0, 2, 3), (4, 1))
    .set 37 (.ein [(2, [0, 1, 2, 3]), (4, [4, 0, 2, 3])] [4, 1]) 1 1,
    -- 1654: tmp12 = einsum(t2, (0, 1, 2, 3), v.ooov, (4, 1, 5, 3), (0, 4, 5, 2))
    .set 38 (.ein [(4, [0, 1, 2, 3]), (3, [4, 1, 5, 3])] [0, 4, 5, 2]) 1 1,
    -- 1655: tmp11 = einsum(t2, (0, 1, 2, 3), v.ovoo, (4, 3, 0, 1), (4, 2))
    .set 39 (.ein [(4, [0, 1, 2, 3]), (6, [4, 3, 0, 1])] [4, 2]) 1 1,
    -- 1656: tmp9 = einsum(v.ovov, (0, 1, 2, 3), t1, (4, 3), (4, 0, 2, 1))
    .set 40 (.ein [(7, [0, 1, 2, 3]), (1, [4, 3])] [4, 0, 2, 1]) 1 1,
    -- 1657: tmp8 = einsum(t1, (0, 1), v.ovov, (2, 1, 0, 3), (2, 3))
    .set 41 (.ein [(1, [0, 1]), (7, [2, 1, 0, 3])] [2, 3]) 1 1,
    -- 1658: tmp7 = einsum(t1, (0, 1), v.oooo, (2, 3, 4, 0), (2, 3, 4, 1))
    .set 42 (.ein [(1, [0, 1]), (8, [2, 3, 4, 0])] [2, 3, 4, 1]) 1 1,
    -- 1659: tmp5 = einsum(tmp0, (0, 1), t1, (0, 2), (1, 2))
    .set 43 (.ein [(21, [0, 1]), (1, [0, 2])] [1, 2]) 1 1,
    -- 1660: tmp4 = einsum(t2, (0, 1, 2, 3), f.ov, (4, 3), (4, 0, 1, 2))
    .set 44 (.ein [(4, [0, 1, 2, 3]), (5, [4, 3])] [4, 0, 1, 2]) 1 1,
    -- 1661: tmp3 = einsum(f.ov, (0, 1), t2, (2, 0, 3, 1), (2, 3))
    .set 45 (.ein [(5, [0, 1]), (4, [2, 0, 3, 1])] [2, 3]) 1 1,
    -- 1662: tmp2 = einsum(t1, (0, 1), f.vv, (2, 1), (0, 2))
    .set 46 (.ein [(1, [0, 1]), (9, [2, 1])] [0, 2]) 1 1,
    -- 1663: tmp1 = einsum(t1, (0, 1), f.oo, (2, 0), (2, 1))
    .set 47 (.ein [(1, [0, 1]), (10, [2, 0])] [2, 1]) 1 1
  ]
  ret := [(chars! "tmp0", 21), (chars! "tmp1", 47), (chars! "tmp10", 20), (chars! "tmp11", 39), (chars! "tmp12", 38), (chars! "tmp13", 37), (chars! "tmp14", 36), (chars! "tmp15", 12), (chars! "tmp16", 35), (chars! "tmp17", 34), (chars! "tmp18", 11), (chars! "tmp19", 33), (chars! "tmp2", 46), (chars! "tmp20", 32), (chars! "tmp21", 31), (chars! "tmp22", 19), (chars! "tmp23", 30), (chars! "tmp24", 14), (chars! "tmp25", 29), (chars! "tmp26", 17), (chars! "tmp27", 28), (chars! "tmp28", 16), (chars! "tmp29", 27), (chars! "tmp3", 45), (chars! "tmp30", 15), (chars! "tmp31", 26), (chars! "tmp32", 25), (chars! "tmp33", 13), (chars! "tmp34", 24), (chars! "tmp4", 44), (chars! "tmp43", 23), (chars! "tmp44", 22), (chars! "tmp5", 43), (chars! "tmp6", 18), (chars! "tmp7", 42), (chars! "tmp8", 41), (chars! "tmp9", 40)]

/-- codegen/GCCSD.py:1667-1788 `hbar_lmatvec_ip`. -/
def hbar_lmatvec_ip : GenFun where
  args := [chars! "ints.tmp30", chars! "ints.tmp44", chars! "r2", chars! "t1", chars! "v.ovov", chars! "v.ooov", chars! "ints.tmp18", chars! "ints.tmp10", chars! "f.ov", chars! "ints.tmp15", chars! "f.oo", chars! "ints.tmp0", chars! "ints.tmp24", chars! "ints.tmp6", chars! "r1", chars! "v.ovoo", chars! "ints.tmp22", chars! "ints.tmp33", chars! "v.oooo", chars! "ints.tmp26", chars! "t2", chars! "ints.tmp28", chars! "ints.tmp43", chars! "f.vv", chars! "ints.tmp11", chars! "ints.tmp13", chars! "ints.tmp19", chars! "ints.tmp1", chars! "ints.tmp21", chars! "ints.tmp25", chars! "ints.tmp29", chars! "ints.tmp32", chars! "ints.tmp5", chars! "ints.tmp8", chars! "ints.tmp16", chars! "ints.tmp2", chars! "ints.tmp3", chars! "ints.tmp12", chars! "ints.tmp23", chars! "ints.tmp34", chars! "ints.tmp4", chars! "ints.tmp7", chars! "ints.tmp9", chars! "ints.tmp14", chars! "ints.tmp17", chars! "ints.tmp20", chars! "ints.tmp27", chars! "ints.tmp31", chars! "v.oovv"]
  body := [
    -- 1695: tmp9 = np.copy(ints.tmp30)
    .set 49 (.cp 0) 1 1,
    -- 1696: tmp9 += ints.tmp44
    .add 49 (.cp 1) 1 1,
    -- 1697: tmp6 = einsum(r2, (0, 1, 2), t1, (3, 2), (0, 1, 3))
    .set 50 (.ein [(2, [0, 1, 2]), (3, [3, 2])] [0, 1, 3]) 1 1,
    -- 1698: tmp10 = einsum(tmp9, (0, 1, 2, 3), r2, (4, 0, 2), (1, 4, 3)) * -1
    .set 51 (.ein [(49, [0, 1, 2, 3]), (2, [4, 0, 2])] [1, 4, 3]) (-1) 1,
    -- 1699: del tmp9
    .del 49,
    -- 1700: tmp5 = einsum(v.ovov, (0, 1, 2, 3), r2, (4, 2, 1), (4, 0, 3))
    .set 52 (.ein [(4, [0, 1, 2, 3]), (2, [4, 2, 1])] [4, 0, 3]) 1 1,
    -- 1701: tmp8 = einsum(tmp6, (0, 1, 2), v.ooov, (3, 2, 1, 4), (0, 3, 4))
    .set 53 (.ein [(50, [0, 1, 2]), (5, [3, 2, 1, 4])] [0, 3, 4]) 1 1,
    -- 1702: tmp7 = einsum(ints.tmp18, (0, 1, 2, 3), tmp6, (4, 0, 2), (1, 4, 3))
    .set 54 (.ein [(6, [0, 1, 2, 3]), (50, [4, 0, 2])] [1, 4, 3]) 1 1,
    -- 1703: del tmp6
    .del 50,
    -- 1704: tmp4 = einsum(r2, (0, 1, 2), ints.tmp10, (1, 3), (3, 0, 2))
    .set 55 (.ein [(2, [0, 1, 2]), (7, [1, 3])] [3, 0, 2]) 1 1,
    -- 1705: tmp11 = np.copy(f.ov)
    .set 56 (.cp 8) 1 1,
    -- 1706: tmp11 += ints.tmp15
    .add 56 (.cp 9) 1 1,
    -- 1707: tmp13 = np.copy(f.oo)
    .set 57 (.cp 10) 1 1,
    -- 1708: tmp13 += np.transpose(ints.tmp0, (1, 0))
    .add 57 (.tr 11 [1, 0]) 1 1,
    -- 1709: tmp13 += ints.tmp24
    .add 57 (.cp 12) 1 1,
    -- 1710: tmp13 += np.transpose(ints.tmp6, (1, 0))
    .add 57 (.tr 13 [1, 0]) 1 1,
    -- 1711: tmp12 = np.copy(tmp4) * -0.5
    .set 58 (.cp 55) (-1) 2,
    -- 1712: del tmp4
    .del 55,
    -- 1713: tmp12 += tmp5
    .add 58 (.cp 52) 1 1,
    -- 1714: del tmp5
    .del 52,
    -- 1715: tmp12 += tmp7 * -1
    .add 58 (.cp 54) (-1) 1,
    -- 1716: del tmp7
    .del 54,
    -- 1717: tmp12 += tmp8 * -1
    .add 58 (.cp 53) (-1) 1,
    -- 1718: del tmp8
    .del 53,
    -- 1719: tmp12 += tmp10 * -1
    .add 58 (.cp 51) (-1) 1,
    -- 1720: del tmp10
    .del 51,
    -- 1721: tmp12 += einsum(tmp11, (0, 1), r1, (2,), (0, 2, 1))
    .add 58 (.ein [(56, [0, 1]), (14, [2])] [0, 2, 1]) 1 1,
    -- 1722: tmp14 = einsum(r2, (0, 1, 2), tmp13, (1, 3), (3, 0, 2)) * -1
    .set 59 (.ein [(2, [0, 1, 2]), (57, [1, 3])] [3, 0, 2]) (-1) 1,
    -- 1723: del tmp13
    .del 57,
    -- 1724: tmp17 = np.copy(ints.tmp18)
    .set 60 (.cp 6) 1 1,
    -- 1725: tmp17 += np.transpose(v.ovoo, (0, 2, 3, 1)) * -1
    .add 60 (.tr 15 [0, 2, 3, 1]) (-1) 1,
    -- 1726: tmp15 = np.copy(ints.tmp22)
    .set 61 (.cp 16) 1 1,
    -- 1727: tmp15 += ints.tmp33 * 2
    .add 61 (.cp 17) 2 1,
    -- 1728: tmp15 += v.oooo * 2
    .add 61 (.cp 18) 2 1,
    -- 1729: tmp15 += np.transpose(ints.tmp26, (0, 3, 1, 2)) * -4
    .add 61 (.tr 19 [0, 3, 1, 2]) (-4) 1,
    -- 1730: tmp3 = einsum(r2, (0, 1, 2), t2, (0, 1, 3, 2), (3,))
    .set 62 (.ein [(2, [0, 1, 2]), (20, [0, 1, 3, 2])] [3]) 1 1,
    -- 1731: tmp16 = np.copy(ints.tmp28)
    .set 63 (.cp 21) 1 1,
    -- 1732: tmp16 += ints.tmp43 * 0.5
    .add 63 (.cp 22) 1 2,
    -- 1733: tmp16 += f.vv * -1
    .add 63 (.cp 23) (-1) 1,
    -- 1734: tmp16 += einsum(tmp11, (0, 1), t1, (0, 2), (2, 1))
    .add 63 (.ein [(56, [0, 1]), (3, [0, 2])] [2, 1]) 1 1,
    -- 1735: del tmp11
    .del 56,
    -- 1736: tmp1 = np.copy(ints.tmp11)
    .set 64 (.cp 24) 1 1,
    -- 1737: tmp1 += ints.tmp13
    .add 64 (.cp 25) 1 1,
    -- 1738: tmp1 += ints.tmp19
    .add 64 (.cp 26) 1 1,
    -- 1739: tmp1 += ints.tmp1 * 2
    .add 64 (.cp 27) 2 1,
    -- 1740: tmp1 += ints.tmp21
    .add 64 (.cp 28) 1 1,
    -- 1741: tmp1 += ints.tmp25 * 2
    .add 64 (.cp 29) 2 1,
    -- 1742: tmp1 += ints.tmp29 * 2
    .add 64 (.cp 30) 2 1,
    -- 1743: tmp1 += ints.tmp32 * 2
    .add 64 (.cp 31) 2 1,
    -- 1744: tmp1 += ints.tmp5 * 2
    .add 64 (.cp 32) 2 1,
    -- 1745: tmp1 += ints.tmp8 * 2
    .add 64 (.cp 33) 2 1,
    -- 1746: tmp1 += f.ov * -2
    .add 64 (.cp 8) (-2) 1,
    -- 1747: tmp1 += ints.tmp16 * -2
    .add 64 (.cp 34) (-2) 1,
    -- 1748: tmp1 += ints.tmp2 * -2
    .add 64 (.cp 35) (-2) 1,
    -- 1749: tmp1 += ints.tmp3 * -2
    .add 64 (.cp 36) (-2) 1,
    -- 1750: tmp0 = np.copy(ints.tmp12)
    .set 65 (.cp 37) 1 1,
    -- 1751: tmp0 += np.transpose(ints.tmp23, (0, 2, 1, 3)) * 0.25
    .add 65 (.tr 38 [0, 2, 1, 3]) 1 4,
    -- 1752: tmp0 += np.transpose(ints.tmp34, (0, 2, 1, 3)) * 0.5
    .add 65 (.tr 39 [0, 2, 1, 3]) 1 2,
    -- 1753: tmp0 += np.transpose(ints.tmp4, (1, 0, 2, 3)) * 0.5
    .add 65 (.tr 40 [1, 0, 2, 3]) 1 2,
    -- 1754: tmp0 += np.transpose(ints.tmp7, (0, 2, 1, 3)) * 0.5
    .add 65 (.tr 41 [0, 2, 1, 3]) 1 2,
    -- 1755: tmp0 += ints.tmp9
    .add 65 (.cp 42) 1 1,
    -- 1756: tmp0 += np.transpose(ints.tmp14, (0, 2, 1, 3)) * -0.25
    .add 65 (.tr 43 [0, 2, 1, 3]) (-1) 4,
    -- 1757: tmp0 += np.transpose(ints.tmp17, (0, 2, 1, 3)) * -0.5
    .add 65 (.tr 44 [0, 2, 1, 3]) (-1) 2,
    -- 1758: tmp0 += np.transpose(ints.tmp20, (0, 2, 1, 3)) * -1
    .add 65 (.tr 45 [0, 2, 1, 3]) (-1) 1,
    -- 1759: tmp0 += ints.tmp27 * -1
    .add 65 (.cp 46) (-1) 1,
    -- 1760: tmp0 += np.transpose(ints.tmp31, (0, 2, 1, 3)) * -0.5
    .add 65 (.tr 47 [0, 2, 1, 3]) (-1) 2,
    -- 1761: tmp0 += np.transpose(v.ooov, (0, 2, 1, 3)) * -0.5
    .add 65 (.tr 5 [0, 2, 1, 3]) (-1) 2,
    -- 1762: tmp2 = np.copy(f.oo) * 2
    .set 66 (.cp 10) 2 1,
    -- 1763: tmp2 += np.transpose(ints.tmp0, (1, 0)) * 2
    .add 66 (.tr 11 [1, 0]) 2 1,
    -- 1764: tmp2 += ints.tmp10
    .add 66 (.cp 7) 1 1,
    -- 1765: tmp2 += ints.tmp24 * 2
    .add 66 (.cp 12) 2 1,
    -- 1766: tmp2 += np.transpose(ints.tmp6, (1, 0)) * 2
    .add 66 (.tr 13 [1, 0]) 2 1,
    -- 1767: r2new = einsum(tmp3, (0,), v.oovv, (1, 2, 3, 0), (1, 2, 3)) * 0.5
    .set 67 (.ein [(62, [0]), (48, [1, 2, 3, 0])] [1, 2, 3]) 1 2,
    -- 1768: del tmp3
    .del 62,
    -- 1769: r2new += tmp12 * -1
    .add 67 (.cp 58) (-1) 1,
    -- 1770: r2new += np.transpose(tmp12, (1, 0, 2))
    .add 67 (.tr 58 [1, 0, 2]) 1 1,
    -- 1771: del tmp12
    .del 58,
    -- 1772: r2new += tmp14 * -1
    .add 67 (.cp 59) (-1) 1,
    -- 1773: r2new += np.transpose(tmp14, (1, 0, 2))
    .add 67 (.tr 59 [1, 0, 2]) 1 1,
    -- 1774: del tmp14
    .del 59,
    -- 1775: r2new += einsum(tmp15, (0, 1, 2, 3), r2, (0, 1, 4), (2, 3, 4)) * 0.25
    .add 67 (.ein [(61, [0, 1, 2, 3]), (2, [0, 1, 4])] [2, 3, 4]) 1 4,
    -- 1776: del tmp15
    .del 61,
    -- 1777: r2new += einsum(r2, (0, 1, 2), tmp16, (2, 3), (0, 1, 3)) * -1
    .add 67 (.ein [(2, [0, 1, 2]), (63, [2, 3])] [0, 1, 3]) (-1) 1,
    -- 1778: del tmp16
    .del 63,
    -- 1779: r2new += einsum(r1, (0,), tmp17, (0, 1, 2, 3), (2, 1, 3)) * -1
    .add 67 (.ein [(14, [0]), (60, [0, 1, 2, 3])] [2, 1, 3]) (-1) 1,
    -- 1780: del tmp17
    .del 60,
    -- 1781: r1new = einsum(r2, (0, 1, 2), tmp0, (0, 3, 1, 2), (3,))
    .set 68 (.ein [(2, [0, 1, 2]), (65, [0, 3, 1, 2])] [3]) 1 1,
    -- 1782: del tmp0
    .del 65,
    -- 1783: r1new += einsum(r2, (0, 1, 2), tmp1, (1, 2), (0,)) * -0.5
    .add 68 (.ein [(2, [0, 1, 2]), (64, [1, 2])] [0]) (-1) 2,
    -- 1784: del tmp1
    .del 64,
    -- 1785: r1new += einsum(tmp2, (0, 1), r1, (0,), (1,)) * -0.5
    .add 68 (.ein [(66, [0, 1]), (14, [0])] [1]) (-1) 2,
    -- 1786: del tmp2
    .del 66
  ]
  ret := [(chars! "r1new", 68), (chars! "r2new", 67)]

/-- codegen/GCCSD.py:970-1044 `hbar_matvec_ea_intermediates`. -/
def hbar_matvec_ea_intermediates : GenFun where
  args := [chars! "t1", chars! "v.oovv", chars! "v.ovvv", chars! "v.ooov", chars! "t2", chars! "f.ov", chars! "v.ovoo", chars! "v.vvvv", chars! "v.ovov", chars! "f.vv", chars! "f.oo"]
  body := [
    -- 1016: tmp2 = einsum(t1, (0, 1), v.oovv, (2, 0, 3, 1), (2, 3))
    .set 11 (.ein [(0, [0, 1]), (1, [2, 0, 3, 1])] [2, 3]) 1 1,
    -- 1017: tmp50 = einsum(tmp2, (0, 1), t1, (2, 1), (2, 0))
    .set 12 (.ein [(11, [0, 1]), (0, [2, 1])] [2, 0]) 1 1,
    -- 1018: tmp1 = einsum(v.ovvv, (0, 1, 2, 3), t1, (0, 3), (1, 2))
    .set 13 (.ein [(2, [0, 1, 2, 3]), (0, [0, 3])] [1, 2]) 1 1,
    -- 1019: tmp19 = einsum(v.ooov, (0, 1, 2, 3), t1, (1, 3), (0, 2))
    .set 14 (.ein [(3, [0, 1, 2, 3]), (0, [1, 3])] [0, 2]) 1 1,
    -- 1020: tmp32 = einsum(t2, (0, 1, 2, 3), v.oovv, (4, 1, 2, 3), (0, 4))
    .set 15 (.ein [(4, [0, 1, 2, 3]), (1, [4, 1, 2, 3])] [0, 4]) 1 1,
    -- 1021: tmp38 = einsum(v.oovv, (0, 1, 2, 3), t1, (4, 3), (4, 0, 1, 2))
    .set 16 (.ein [(1, [0, 1, 2, 3]), (0, [4, 3])] [4, 0, 1, 2]) 1 1,
    -- 1022: tmp9 = einsum(f.ov, (0, 1), t1, (2, 1), (0, 2))
    .set 17 (.ein [(5, [0, 1]), (0, [2, 1])] [0, 2]) 1 1,
    -- 1023: tmp56 = einsum(tmp50, (0, 1), t1, (1, 2), (0, 2))
    .set 18 (.ein [(12, [0, 1]), (0, [1, 2])] [0, 2]) 1 1,
    -- 1024: tmp47 = einsum(tmp1, (0, 1), t1, (2, 1), (2, 0))
    .set 19 (.ein [(13, [0, 1]), (0, [2, 1])] [2, 0]) 1 1,
    -- 1025: tmp44 = einsum(tmp19, (0, 1), t1, (0, 2), (1, 2))
    .set 20 (.ein [(14, [0, 1]), (0, [0, 2])] [1, 2]) 1 1,
    -- 1026: tmp41 = einsum(t1, (0, 1), tmp32, (2, 0), (2, 1))
    .set 21 (.ein [(0, [0, 1]), (15, [2, 0])] [2, 1]) 1 1,
    -- 1027: tmp40 = einsum(t2, (0, 1, 2, 3), tmp38, (4, 1, 0, 5), (4, 2, 3, 5)) * -1
    .set 22 (.ein [(4, [0, 1, 2, 3]), (16, [4, 1, 0, 5])] [4, 2, 3, 5]) (-1) 1,
    -- 1028: tmp39 = einsum(tmp38, (0, 1, 2, 3), t2, (2, 1, 4, 3), (0, 4))
    .set 23 (.ein [(16, [0, 1, 2, 3]), (4, [2, 1, 4, 3])] [0, 4]) 1 1,
    -- 1029: tmp37 = einsum(tmp2, (0, 1), t2, (2, 0, 3, 1), (2, 3))
    .set 24 (.ein [(11, [0, 1]), (4, [2, 0, 3, 1])] [2, 3]) 1 1,
    -- 1030: tmp34 = einsum(v.oovv, (0, 1, 2, 3), t2, (4, 1, 5, 3), (4, 0, 5, 2))
    .set 25 (.ein [(1, [0, 1, 2, 3]), (4, [4, 1, 5, 3])] [4, 0, 5, 2]) 1 1,
    -- 1031: tmp30 = einsum(t2, (0, 1, 2, 3), v.ovvv, (1, 4, 5, 3), (0, 2, 4, 5))
    .set 26 (.ein [(4, [0, 1, 2, 3]), (2, [1, 4, 5, 3])] [0, 2, 4, 5]) 1 1,
    -- 1032: tmp29 = einsum(t2, (0, 1, 2, 3), v.ovvv, (1, 4, 2, 3), (0, 4))
    .set 27 (.ein [(4, [0, 1, 2, 3]), (2, [1, 4, 2, 3])] [0, 4]) 1 1,
    -- 1033: tmp28 = einsum(t2, (0, 1, 2, 3), v.ovoo, (4, 5, 0, 1), (4, 2, 3, 5))
    .set 28 (.ein [(4, [0, 1, 2, 3]), (6, [4, 5, 0, 1])] [4, 2, 3, 5]) 1 1,
    -- 1034: tmp27 = einsum(t2, (0, 1, 2, 3), v.ovoo, (4, 3, 0, 1), (4, 2))
    .set 29 (.ein [(4, [0, 1, 2, 3]), (6, [4, 3, 0, 1])] [4, 2]) 1 1,
    -- 1035: tmp23 = einsum(v.ovvv, (0, 1, 2, 3), t1, (4, 3), (4, 0, 1, 2))
    .set 30 (.ein [(2, [0, 1, 2, 3]), (0, [4, 3])] [4, 0, 1, 2]) 1 1,
    -- 1036: tmp18 = einsum(t1, (0, 1), v.vvvv, (2, 3, 4, 1), (0, 2, 3, 4))
    .set 31 (.ein [(0, [0, 1]), (7, [2, 3, 4, 1])] [0, 2, 3, 4]) 1 1,
    -- 1037: tmp15 = einsum(t1, (0, 1), v.ovov, (2, 1, 0, 3), (2, 3))
    .set 32 (.ein [(0, [0, 1]), (8, [2, 1, 0, 3])] [2, 3]) 1 1,
    -- 1038: tmp13 = einsum(t1, (0, 1), tmp9, (0, 2), (2, 1))
    .set 33 (.ein [(0, [0, 1]), (17, [0, 2])] [2, 1]) 1 1,
    -- 1039: tmp12 = einsum(f.ov, (0, 1), t2, (2, 0, 3, 1), (2, 3))
    .set 34 (.ein [(5, [0, 1]), (4, [2, 0, 3, 1])] [2, 3]) 1 1,
    -- 1040: tmp8 = einsum(t1, (0, 1), f.vv, (2, 1), (0, 2))
    .set 35 (.ein [(0, [0, 1]), (9, [2, 1])] [0, 2]) 1 1,
    -- 1041: tmp7 = einsum(t1, (0, 1), f.oo, (2, 0), (2, 1))
    .set 36 (.ein [(0, [0, 1]), (10, [2, 0])] [2, 1]) 1 1,
    -- 1042: tmp4 = einsum(t2, (0, 1, 2, 3), v.oovv, (0, 1, 4, 3), (2, 4))
    .set 37 (.ein [(4, [0, 1, 2, 3]), (1, [0, 1, 4, 3])] [2, 4]) 1 1
  ]
  ret := [(chars! "tmp1", 13), (chars! "tmp12", 34), (chars! "tmp13", 33), (chars! "tmp15", 32), (chars! "tmp18", 31), (chars! "tmp19", 14), (chars! "tmp2", 11), (chars! "tmp23", 30), (chars! "tmp27", 29), (chars! "tmp28", 28), (chars! "tmp29", 27), (chars! "tmp30", 26), (chars! "tmp32", 15), (chars! "tmp34", 25), (chars! "tmp37", 24), (chars! "tmp38", 16), (chars! "tmp39", 23), (chars! "tmp4", 37), (chars! "tmp40", 22), (chars! "tmp41", 21), (chars! "tmp44", 20), (chars! "tmp47", 19), (chars! "tmp50", 12), (chars! "tmp56", 18), (chars! "tmp7", 36), (chars! "tmp8", 35), (chars! "tmp9", 17)]

/-- codegen/GCCSD.py:1046-1182 `hbar_matvec_ea`. -/
def hbar_matvec_ea : GenFun where
  args := [chars! "ints.tmp38", chars! "v.ovoo", chars! "f.ov", chars! "ints.tmp2", chars! "r2", chars! "v.oovv", chars! "f.vv", chars! "ints.tmp4", chars! "ints.tmp23", chars! "ints.tmp34", chars! "r1", chars! "t1", chars! "v.ovvv", chars! "ints.tmp1", chars! "ints.tmp30", chars! "v.ovov", chars! "ints.tmp13", chars! "ints.tmp15", chars! "ints.tmp27", chars! "ints.tmp29", chars! "ints.tmp39", chars! "ints.tmp41", chars! "ints.tmp44", chars! "ints.tmp47", chars! "ints.tmp56", chars! "ints.tmp7", chars! "ints.tmp12", chars! "ints.tmp37", chars! "ints.tmp8", chars! "f.oo", chars! "ints.tmp19", chars! "ints.tmp32", chars! "ints.tmp50", chars! "ints.tmp9", chars! "ints.tmp18", chars! "ints.tmp40", chars! "ints.tmp28", chars! "t2", chars! "v.vvvv"]
  body := [
    -- 1074: tmp13 = np.copy(ints.tmp38)
    .set 39 (.cp 0) 1 1,
    -- 1075: tmp13 += np.transpose(v.ovoo, (0, 2, 3, 1)) * -1
    .add 39 (.tr 1 [0, 2, 3, 1]) (-1) 1,
    -- 1076: tmp0 = np.copy(f.ov)
    .set 40 (.cp 2) 1 1,
    -- 1077: tmp0 += ints.tmp2
    .add 40 (.cp 3) 1 1,
    -- 1078: tmp14 = einsum(r2, (0, 1, 2), tmp13, (3, 2, 4, 1), (3, 4, 0)) * -1
    .set 41 (.ein [(4, [0, 1, 2]), (39, [3, 2, 4, 1])] [3, 4, 0]) (-1) 1,
    -- 1079: tmp15 = einsum(r2, (0, 1, 2), tmp0, (3, 1), (2, 3, 0)) * -1
    .set 42 (.ein [(4, [0, 1, 2]), (40, [3, 1])] [2, 3, 0]) (-1) 1,
    -- 1080: tmp5 = einsum(r2, (0, 1, 2), v.oovv, (3, 4, 0, 1), (2, 3, 4))
    .set 43 (.ein [(4, [0, 1, 2]), (5, [3, 4, 0, 1])] [2, 3, 4]) 1 1,
    -- 1081: tmp11 = np.copy(f.vv) * 2
    .set 44 (.cp 6) 2 1,
    -- 1082: tmp11 += np.transpose(ints.tmp4, (1, 0)) * -1
    .add 44 (.tr 7 [1, 0]) (-1) 1,
    -- 1083: tmp9 = np.copy(ints.tmp23)
    .set 45 (.cp 8) 1 1,
    -- 1084: tmp9 += ints.tmp34
    .add 45 (.cp 9) 1 1,
    -- 1085: tmp8 = np.copy(np.transpose(r2, (2, 0, 1)))
    .set 46 (.tr 4 [2, 0, 1]) 1 1,
    -- 1086: tmp8 += einsum(r1, (0,), t1, (1, 2), (1, 0, 2))
    .add 46 (.ein [(10, [0]), (11, [1, 2])] [1, 0, 2]) 1 1,
    -- 1087: tmp16 = np.copy(np.transpose(tmp14, (1, 0, 2))) * -1
    .set 47 (.tr 41 [1, 0, 2]) (-1) 1,
    -- 1088: del tmp14
    .del 41,
    -- 1089: tmp16 += np.transpose(tmp15, (1, 0, 2)) * -1
    .add 47 (.tr 42 [1, 0, 2]) (-1) 1,
    -- 1090: del tmp15
    .del 42,
    -- 1091: tmp6 = einsum(v.ovvv, (0, 1, 2, 3), r2, (2, 3, 4), (4, 0, 1))
    .set 48 (.ein [(12, [0, 1, 2, 3]), (4, [2, 3, 4])] [4, 0, 1]) 1 1,
    -- 1092: tmp20 = einsum(ints.tmp1, (0, 1), r2, (2, 1, 3), (3, 0, 2))
    .set 49 (.ein [(13, [0, 1]), (4, [2, 1, 3])] [3, 0, 2]) 1 1,
    -- 1093: tmp21 = einsum(r1, (0,), ints.tmp30, (1, 2, 3, 0), (1, 2, 3))
    .set 50 (.ein [(10, [0]), (14, [1, 2, 3, 0])] [1, 2, 3]) 1 1,
    -- 1094: tmp25 = np.copy(np.transpose(tmp5, (0, 2, 1))) * -0.5
    .set 51 (.tr 43 [0, 2, 1]) (-1) 2,
    -- 1095: tmp25 += einsum(tmp13, (0, 1, 2, 3), r1, (3,), (0, 1, 2))
    .add 51 (.ein [(39, [0, 1, 2, 3]), (10, [3])] [0, 1, 2]) 1 1,
    -- 1096: del tmp13
    .del 39,
    -- 1097: tmp3 = einsum(r1, (0,), tmp0, (1, 0), (1,))
    .set 52 (.ein [(10, [0]), (40, [1, 0])] [1]) 1 1,
    -- 1098: tmp2 = einsum(r2, (0, 1, 2), v.oovv, (3, 2, 0, 1), (3,))
    .set 53 (.ein [(4, [0, 1, 2]), (5, [3, 2, 0, 1])] [3]) 1 1,
    -- 1099: tmp12 = einsum(tmp11, (0, 1), r2, (2, 0, 3), (3, 1, 2)) * -0.5
    .set 54 (.ein [(44, [0, 1]), (4, [2, 0, 3])] [3, 1, 2]) (-1) 2,
    -- 1100: del tmp11
    .del 44,
    -- 1101: tmp10 = einsum(tmp8, (0, 1, 2), tmp9, (3, 0, 4, 1), (3, 4, 2))
    .set 55 (.ein [(46, [0, 1, 2]), (45, [3, 0, 4, 1])] [3, 4, 2]) 1 1,
    -- 1102: del tmp9
    .del 45,
    -- 1103: tmp18 = einsum(tmp8, (0, 1, 2), v.ovov, (3, 1, 0, 4), (3, 4, 2))
    .set 56 (.ein [(46, [0, 1, 2]), (15, [3, 1, 0, 4])] [3, 4, 2]) 1 1,
    -- 1104: del tmp8
    .del 46,
    -- 1105: tmp17 = einsum(tmp16, (0, 1, 2), t1, (0, 3), (1, 2, 3))
    .set 57 (.ein [(47, [0, 1, 2]), (11, [0, 3])] [1, 2, 3]) 1 1,
    -- 1106: del tmp16
    .del 47,
    -- 1107: tmp7 = einsum(tmp6, (0, 1, 2), t1, (1, 3), (0, 3, 2))
    .set 58 (.ein [(48, [0, 1, 2]), (11, [1, 3])] [0, 3, 2]) 1 1,
    -- 1108: del tmp6
    .del 48,
    -- 1109: tmp22 = np.copy(tmp20)
    .set 59 (.cp 49) 1 1,
    -- 1110: del tmp20
    .del 49,
    -- 1111: tmp22 += tmp21
    .add 59 (.cp 50) 1 1,
    -- 1112: del tmp21
    .del 50,
    -- 1113: tmp27 = np.copy(ints.tmp13)
    .set 60 (.cp 16) 1 1,
    -- 1114: tmp27 += ints.tmp15
    .add 60 (.cp 17) 1 1,
    -- 1115: tmp27 += ints.tmp27 * 0.5
    .add 60 (.cp 18) 1 2,
    -- 1116: tmp27 += ints.tmp29 * 0.5
    .add 60 (.cp 19) 1 2,
    -- 1117: tmp27 += ints.tmp39 * 0.5
    .add 60 (.cp 20) 1 2,
    -- 1118: tmp27 += ints.tmp41 * 0.5
    .add 60 (.cp 21) 1 2,
    -- 1119: tmp27 += ints.tmp44
    .add 60 (.cp 22) 1 1,
    -- 1120: tmp27 += ints.tmp47
    .add 60 (.cp 23) 1 1,
    -- 1121: tmp27 += ints.tmp56
    .add 60 (.cp 24) 1 1,
    -- 1122: tmp27 += ints.tmp7
    .add 60 (.cp 25) 1 1,
    -- 1123: tmp27 += f.ov * -1
    .add 60 (.cp 2) (-1) 1,
    -- 1124: tmp27 += ints.tmp12 * -1
    .add 60 (.cp 26) (-1) 1,
    -- 1125: tmp27 += ints.tmp37 * -1
    .add 60 (.cp 27) (-1) 1,
    -- 1126: tmp27 += ints.tmp8 * -1
    .add 60 (.cp 28) (-1) 1,
    -- 1127: tmp24 = np.copy(f.oo)
    .set 61 (.cp 29) 1 1,
    -- 1128: tmp24 += ints.tmp19
    .add 61 (.cp 30) 1 1,
    -- 1129: tmp24 += np.transpose(ints.tmp32, (1, 0)) * 0.5
    .add 61 (.tr 31 [1, 0]) 1 2,
    -- 1130: tmp24 += np.transpose(ints.tmp50, (1, 0))
    .add 61 (.tr 32 [1, 0]) 1 1,
    -- 1131: tmp24 += ints.tmp9
    .add 61 (.cp 33) 1 1,
    -- 1132: tmp26 = einsum(tmp25, (0, 1, 2), t1, (1, 3), (0, 2, 3)) * 2
    .set 62 (.ein [(51, [0, 1, 2]), (11, [1, 3])] [0, 2, 3]) 2 1,
    -- 1133: del tmp25
    .del 51,
    -- 1134: tmp23 = np.copy(ints.tmp18)
    .set 63 (.cp 34) 1 1,
    -- 1135: tmp23 += ints.tmp40 * 0.5
    .add 63 (.cp 35) 1 2,
    -- 1136: tmp23 += ints.tmp28 * -0.5
    .add 63 (.cp 36) (-1) 2,
    -- 1137: tmp23 += np.transpose(v.ovvv, (0, 2, 3, 1)) * -1
    .add 63 (.tr 12 [0, 2, 3, 1]) (-1) 1,
    -- 1138: tmp4 = np.copy(tmp2) * 0.5
    .set 64 (.cp 53) 1 2,
    -- 1139: del tmp2
    .del 53,
    -- 1140: tmp4 += tmp3
    .add 64 (.cp 52) 1 1,
    -- 1141: del tmp3
    .del 52,
    -- 1142: tmp19 = np.copy(tmp7) * 0.5
    .set 65 (.cp 58) 1 2,
    -- 1143: del tmp7
    .del 58,
    -- 1144: tmp19 += tmp10 * -1
    .add 65 (.cp 55) (-1) 1,
    -- 1145: del tmp10
    .del 55,
    -- 1146: tmp19 += tmp12 * -1
    .add 65 (.cp 54) (-1) 1,
    -- 1147: del tmp12
    .del 54,
    -- 1148: tmp19 += tmp17
    .add 65 (.cp 57) 1 1,
    -- 1149: del tmp17
    .del 57,
    -- 1150: tmp19 += np.transpose(tmp18, (0, 2, 1)) * -1
    .add 65 (.tr 56 [0, 2, 1]) (-1) 1,
    -- 1151: del tmp18
    .del 56,
    -- 1152: tmp1 = np.copy(np.transpose(ints.tmp1, (1, 0)))
    .set 66 (.tr 13 [1, 0]) 1 1,
    -- 1153: tmp1 += np.transpose(ints.tmp4, (1, 0)) * 0.5
    .add 66 (.tr 7 [1, 0]) 1 2,
    -- 1154: tmp1 += f.vv * -1
    .add 66 (.cp 6) (-1) 1,
    -- 1155: r2new = einsum(tmp5, (0, 1, 2), t2, (2, 1, 3, 4), (3, 4, 0)) * -0.25
    .set 67 (.ein [(43, [0, 1, 2]), (37, [2, 1, 3, 4])] [3, 4, 0]) (-1) 4,
    -- 1156: del tmp5
    .del 43,
    -- 1157: r2new += einsum(r2, (0, 1, 2), v.vvvv, (3, 4, 0, 1), (3, 4, 2)) * 0.5
    .add 67 (.ein [(4, [0, 1, 2]), (38, [3, 4, 0, 1])] [3, 4, 2]) 1 2,
    -- 1158: r2new += np.transpose(tmp19, (1, 2, 0)) * -1
    .add 67 (.tr 65 [1, 2, 0]) (-1) 1,
    -- 1159: r2new += np.transpose(tmp19, (2, 1, 0))
    .add 67 (.tr 65 [2, 1, 0]) 1 1,
    -- 1160: del tmp19
    .del 65,
    -- 1161: r2new += np.transpose(tmp22, (1, 2, 0))
    .add 67 (.tr 59 [1, 2, 0]) 1 1,
    -- 1162: r2new += np.transpose(tmp22, (2, 1, 0)) * -1
    .add 67 (.tr 59 [2, 1, 0]) (-1) 1,
    -- 1163: del tmp22
    .del 59,
    -- 1164: r2new += einsum(r1, (0,), tmp23, (1, 2, 3, 0), (3, 2, 1)) * -1
    .add 67 (.ein [(10, [0]), (63, [1, 2, 3, 0])] [3, 2, 1]) (-1) 1,
    -- 1165: del tmp23
    .del 63,
    -- 1166: r2new += einsum(tmp24, (0, 1), r2, (2, 3, 0), (2, 3, 1)) * -1
    .add 67 (.ein [(61, [0, 1]), (4, [2, 3, 0])] [2, 3, 1]) (-1) 1,
    -- 1167: del tmp24
    .del 61,
    -- 1168: r2new += einsum(tmp4, (0,), t2, (1, 0, 2, 3), (2, 3, 1))
    .add 67 (.ein [(64, [0]), (37, [1, 0, 2, 3])] [2, 3, 1]) 1 1,
    -- 1169: r2new += einsum(t1, (0, 1), tmp26, (2, 0, 3), (1, 3, 2)) * -0.5
    .add 67 (.ein [(11, [0, 1]), (62, [2, 0, 3])] [1, 3, 2]) (-1) 2,
    -- 1170: del tmp26
    .del 62,
    -- 1171: r2new += einsum(r1, (0,), tmp27, (1, 2), (0, 2, 1)) * -1
    .add 67 (.ein [(10, [0]), (60, [1, 2])] [0, 2, 1]) (-1) 1,
    -- 1172: r2new += einsum(tmp27, (0, 1), r1, (2,), (1, 2, 0))
    .add 67 (.ein [(60, [0, 1]), (10, [2])] [1, 2, 0]) 1 1,
    -- 1173: del tmp27
    .del 60,
    -- 1174: r1new = einsum(v.ovvv, (0, 1, 2, 3), r2, (2, 3, 0), (1,)) * -0.5
    .set 68 (.ein [(12, [0, 1, 2, 3]), (4, [2, 3, 0])] [1]) (-1) 2,
    -- 1175: r1new += einsum(r2, (0, 1, 2), tmp0, (2, 1), (0,))
    .add 68 (.ein [(4, [0, 1, 2]), (40, [2, 1])] [0]) 1 1,
    -- 1176: del tmp0
    .del 40,
    -- 1177: r1new += einsum(tmp1, (0, 1), r1, (0,), (1,)) * -1
    .add 68 (.ein [(66, [0, 1]), (10, [0])] [1]) (-1) 1,
    -- 1178: del tmp1
    .del 66,
    -- 1179: r1new += einsum(tmp4, (0,), t1, (0, 1), (1,)) * -1
    .add 68 (.ein [(64, [0]), (11, [0, 1])] [1]) (-1) 1,
    -- 1180: del tmp4
    .del 64
  ]
  ret := [(chars! "r1new", 68), (chars! "r2new", 67)]

/-- codegen/GCCSD.py:1790-1864 `hbar_lmatvec_ea_intermediates`. -/
def hbar_lmatvec_ea_intermediates : GenFun where
  args := [chars! "t1", chars! "v.oovv", chars! "v.ovvv", chars! "v.ooov", chars! "t2", chars! "f.ov", chars! "v.ovoo", chars! "v.vvvv", chars! "v.ovov", chars! "f.vv", chars! "f.oo"]
  body := [
    -- 1836: tmp16 = einsum(t1, (0, 1), v.oovv, (2, 0, 3, 1), (2, 3))
    .set 11 (.ein [(0, [0, 1]), (1, [2, 0, 3, 1])] [2, 3]) 1 1,
    -- 1837: tmp29 = einsum(tmp16, (0, 1), t1, (2, 1), (2, 0))
    .set 12 (.ein [(11, [0, 1]), (0, [2, 1])] [2, 0]) 1 1,
    -- 1838: tmp7 = einsum(v.ovvv, (0, 1, 2, 3), t1, (0, 3), (1, 2))
    .set 13 (.ein [(2, [0, 1, 2, 3]), (0, [0, 3])] [1, 2]) 1 1,
    -- 1839: tmp24 = einsum(v.ooov, (0, 1, 2, 3), t1, (1, 3), (0, 2))
    .set 14 (.ein [(3, [0, 1, 2, 3]), (0, [1, 3])] [0, 2]) 1 1,
    -- 1840: tmp21 = einsum(v.oovv, (0, 1, 2, 3), t2, (4, 1, 2, 3), (4, 0))
    .set 15 (.ein [(1, [0, 1, 2, 3]), (4, [4, 1, 2, 3])] [4, 0]) 1 1,
    -- 1841: tmp18 = einsum(v.oovv, (0, 1, 2, 3), t1, (4, 3), (4, 0, 1, 2))
    .set 16 (.ein [(1, [0, 1, 2, 3]), (0, [4, 3])] [4, 0, 1, 2]) 1 1,
    -- 1842: tmp5 = einsum(f.ov, (0, 1), t1, (2, 1), (0, 2))
    .set 17 (.ein [(5, [0, 1]), (0, [2, 1])] [0, 2]) 1 1,
    -- 1843: tmp30 = einsum(t1, (0, 1), tmp29, (2, 0), (2, 1))
    .set 18 (.ein [(0, [0, 1]), (12, [2, 0])] [2, 1]) 1 1,
    -- 1844: tmp28 = einsum(v.ovvv, (0, 1, 2, 3), t1, (4, 3), (4, 0, 1, 2))
    .set 19 (.ein [(2, [0, 1, 2, 3]), (0, [4, 3])] [4, 0, 1, 2]) 1 1,
    -- 1845: tmp27 = einsum(tmp7, (0, 1), t1, (2, 1), (2, 0))
    .set 20 (.ein [(13, [0, 1]), (0, [2, 1])] [2, 0]) 1 1,
    -- 1846: tmp25 = einsum(tmp24, (0, 1), t1, (0, 2), (1, 2))
    .set 21 (.ein [(14, [0, 1]), (0, [0, 2])] [1, 2]) 1 1,
    -- 1847: tmp23 = einsum(v.oovv, (0, 1, 2, 3), t2, (4, 1, 5, 3), (4, 0, 5, 2))
    .set 22 (.ein [(1, [0, 1, 2, 3]), (4, [4, 1, 5, 3])] [4, 0, 5, 2]) 1 1,
    -- 1848: tmp22 = einsum(tmp21, (0, 1), t1, (1, 2), (0, 2))
    .set 23 (.ein [(15, [0, 1]), (0, [1, 2])] [0, 2]) 1 1,
    -- 1849: tmp20 = einsum(t2, (0, 1, 2, 3), tmp18, (4, 1, 0, 5), (4, 2, 3, 5)) * -1
    .set 24 (.ein [(4, [0, 1, 2, 3]), (16, [4, 1, 0, 5])] [4, 2, 3, 5]) (-1) 1,
    -- 1850: tmp19 = einsum(t2, (0, 1, 2, 3), tmp18, (4, 1, 0, 3), (4, 2))
    .set 25 (.ein [(4, [0, 1, 2, 3]), (16, [4, 1, 0, 3])] [4, 2]) 1 1,
    -- 1851: tmp17 = einsum(tmp16, (0, 1), t2, (2, 0, 3, 1), (2, 3))
    .set 26 (.ein [(11, [0, 1]), (4, [2, 0, 3, 1])] [2, 3]) 1 1,
    -- 1852: tmp15 = einsum(t2, (0, 1, 2, 3), v.ovvv, (1, 4, 5, 3), (0, 2, 4, 5))
    .set 27 (.ein [(4, [0, 1, 2, 3]), (2, [1, 4, 5, 3])] [0, 2, 4, 5]) 1 1,
    -- 1853: tmp14 = einsum(v.ovvv, (0, 1, 2, 3), t2, (4, 0, 2, 3), (4, 1))
    .set 28 (.ein [(2, [0, 1, 2, 3]), (4, [4, 0, 2, 3])] [4, 1]) 1 1,
    -- 1854: tmp13 = einsum(t2, (0, 1, 2, 3), v.ovoo, (4, 5, 0, 1), (4, 2, 3, 5))
    .set 29 (.ein [(4, [0, 1, 2, 3]), (6, [4, 5, 0, 1])] [4, 2, 3, 5]) 1 1,
    -- 1855: tmp12 = einsum(t2, (0, 1, 2, 3), v.ovoo, (4, 3, 0, 1), (4, 2))
    .set 30 (.ein [(4, [0, 1, 2, 3]), (6, [4, 3, 0, 1])] [4, 2]) 1 1,
    -- 1856: tmp11 = einsum(v.oovv, (0, 1, 2, 3), t2, (0, 1, 4, 3), (4, 2))
    .set 31 (.ein [(1, [0, 1, 2, 3]), (4, [0, 1, 4, 3])] [4, 2]) 1 1,
    -- 1857: tmp10 = einsum(v.vvvv, (0, 1, 2, 3), t1, (4, 3), (4, 0, 1, 2))
    .set 32 (.ein [(7, [0, 1, 2, 3]), (0, [4, 3])] [4, 0, 1, 2]) 1 1,
    -- 1858: tmp8 = einsum(t1, (0, 1), v.ovov, (2, 1, 0, 3), (2, 3))
    .set 33 (.ein [(0, [0, 1]), (8, [2, 1, 0, 3])] [2, 3]) 1 1,
    -- 1859: tmp6 = einsum(t1, (0, 1), tmp5, (0, 2), (2, 1))
    .set 34 (.ein [(0, [0, 1]), (17, [0, 2])] [2, 1]) 1 1,
    -- 1860: tmp3 = einsum(f.ov, (0, 1), t2, (2, 0, 3, 1), (2, 3))
    .set 35 (.ein [(5, [0, 1]), (4, [2, 0, 3, 1])] [2, 3]) 1 1,
    -- 1861: tmp2 = einsum(t1, (0, 1), f.vv, (2, 1), (0, 2))
    .set 36 (.ein [(0, [0, 1]), (9, [2, 1])] [0, 2]) 1 1,
    -- 1862: tmp1 = einsum(f.oo, (0, 1), t1, (1, 2), (0, 2))
    .set 37 (.ein [(10, [0, 1]), (0, [1, 2])] [0, 2]) 1 1
  ]
  ret := [(chars! "tmp1", 37), (chars! "tmp10", 32), (chars! "tmp11", 31), (chars! "tmp12", 30), (chars! "tmp13", 29), (chars! "tmp14", 28), (chars! "tmp15", 27), (chars! "tmp16", 11), (chars! "tmp17", 26), (chars! "tmp18", 16), (chars! "tmp19", 25), (chars! "tmp2", 36), (chars! "tmp20", 24), (chars! "tmp21", 15), (chars! "tmp22", 23), (chars! "tmp23", 22), (chars! "tmp24", 14), (chars! "tmp25", 21), (chars! "tmp27", 20), (chars! "tmp28", 19), (chars! "tmp29", 12), (chars! "tmp3", 35), (chars! "tmp30", 18), (chars! "tmp5", 17), (chars! "tmp6", 34), (chars! "tmp7", 13), (chars! "tmp8", 33)]

/-- codegen/GCCSD.py:1866-1995 `hbar_lmatvec_ea`. -/
def hbar_lmatvec_ea : GenFun where
  args := [chars! "f.ov", chars! "ints.tmp16", chars! "v.ooov", chars! "t1", chars! "ints.tmp18", chars! "v.ovov", chars! "ints.tmp11", chars! "f.vv", chars! "ints.tmp23", chars! "ints.tmp28", chars! "r1", chars! "t2", chars! "r2", chars! "f.oo", chars! "ints.tmp21", chars! "ints.tmp24", chars! "ints.tmp29", chars! "ints.tmp5", chars! "ints.tmp7", chars! "ints.tmp12", chars! "ints.tmp14", chars! "ints.tmp19", chars! "ints.tmp1", chars! "ints.tmp22", chars! "ints.tmp25", chars! "ints.tmp27", chars! "ints.tmp30", chars! "ints.tmp6", chars! "ints.tmp8", chars! "ints.tmp17", chars! "ints.tmp2", chars! "ints.tmp3", chars! "v.ovoo", chars! "ints.tmp10", chars! "ints.tmp15", chars! "ints.tmp20", chars! "ints.tmp13", chars! "v.ovvv", chars! "v.vvvv", chars! "v.oovv"]
  body := [
    -- 1894: tmp10 = np.copy(f.ov)
    .set 40 (.cp 0) 1 1,
    -- 1895: tmp10 += ints.tmp16
    .add 40 (.cp 1) 1 1,
    -- 1896: tmp17 = einsum(v.ooov, (0, 1, 2, 3), t1, (1, 4), (0, 2, 4, 3))
    .set 41 (.ein [(2, [0, 1, 2, 3]), (3, [1, 4])] [0, 2, 4, 3]) 1 1,
    -- 1897: tmp14 = einsum(tmp10, (0, 1), t1, (0, 2), (1, 2)) * 2
    .set 42 (.ein [(40, [0, 1]), (3, [0, 2])] [1, 2]) 2 1,
    -- 1898: tmp11 = einsum(ints.tmp18, (0, 1, 2, 3), t1, (2, 4), (0, 1, 3, 4))
    .set 43 (.ein [(4, [0, 1, 2, 3]), (3, [2, 4])] [0, 1, 3, 4]) 1 1,
    -- 1899: tmp18 = np.copy(np.transpose(v.ovov, (0, 2, 1, 3)))
    .set 44 (.tr 5 [0, 2, 1, 3]) 1 1,
    -- 1900: tmp18 += np.transpose(tmp17, (1, 0, 3, 2)) * -1
    .add 44 (.tr 41 [1, 0, 3, 2]) (-1) 1,
    -- 1901: del tmp17
    .del 41,
    -- 1902: tmp15 = np.copy(ints.tmp11)
    .set 45 (.cp 6) 1 1,
    -- 1903: tmp15 += f.vv * -2
    .add 45 (.cp 7) (-2) 1,
    -- 1904: tmp15 += np.transpose(tmp14, (1, 0))
    .add 45 (.tr 42 [1, 0]) 1 1,
    -- 1905: del tmp14
    .del 42,
    -- 1906: tmp12 = np.copy(ints.tmp23)
    .set 46 (.cp 8) 1 1,
    -- 1907: tmp12 += ints.tmp28
    .add 46 (.cp 9) 1 1,
    -- 1908: tmp12 += np.transpose(tmp11, (0, 1, 3, 2)) * -1
    .add 46 (.tr 43 [0, 1, 3, 2]) (-1) 1,
    -- 1909: del tmp11
    .del 43,
    -- 1910: tmp7 = einsum(r1, (0,), t1, (1, 0), (1,))
    .set 47 (.ein [(10, [0]), (3, [1, 0])] [1]) 1 1,
    -- 1911: tmp8 = einsum(t2, (0, 1, 2, 3), r2, (2, 3, 1), (0,))
    .set 48 (.ein [(11, [0, 1, 2, 3]), (12, [2, 3, 1])] [0]) 1 1,
    -- 1912: tmp19 = einsum(r2, (0, 1, 2), tmp18, (2, 3, 4, 1), (3, 4, 0)) * -1
    .set 49 (.ein [(12, [0, 1, 2]), (44, [2, 3, 4, 1])] [3, 4, 0]) (-1) 1,
    -- 1913: del tmp18
    .del 44,
    -- 1914: tmp16 = einsum(tmp15, (0, 1), r2, (2, 0, 3), (3, 1, 2)) * -0.5
    .set 50 (.ein [(45, [0, 1]), (12, [2, 0, 3])] [3, 1, 2]) (-1) 2,
    -- 1915: del tmp15
    .del 45,
    -- 1916: tmp13 = einsum(r2, (0, 1, 2), tmp12, (2, 3, 1, 4), (3, 4, 0)) * -1
    .set 51 (.ein [(12, [0, 1, 2]), (46, [2, 3, 1, 4])] [3, 4, 0]) (-1) 1,
    -- 1917: del tmp12
    .del 46,
    -- 1918: tmp22 = np.copy(t2)
    .set 52 (.cp 11) 1 1,
    -- 1919: tmp22 += einsum(t1, (0, 1), t1, (2, 3), (2, 0, 3, 1)) * 2
    .add 52 (.ein [(3, [0, 1]), (3, [2, 3])] [2, 0, 3, 1]) 2 1,
    -- 1920: tmp1 = einsum(t1, (0, 1), r2, (2, 1, 3), (3, 0, 2))
    .set 53 (.ein [(3, [0, 1]), (12, [2, 1, 3])] [3, 0, 2]) 1 1,
    -- 1921: tmp9 = np.copy(tmp7)
    .set 54 (.cp 47) 1 1,
    -- 1922: del tmp7
    .del 47,
    -- 1923: tmp9 += tmp8 * 0.5
    .add 54 (.cp 48) 1 2,
    -- 1924: del tmp8
    .del 48,
    -- 1925: tmp20 = np.copy(tmp13) * -1
    .set 55 (.cp 51) (-1) 1,
    -- 1926: del tmp13
    .del 51,
    -- 1927: tmp20 += tmp16
    .add 55 (.cp 50) 1 1,
    -- 1928: del tmp16
    .del 50,
    -- 1929: tmp20 += np.transpose(tmp19, (0, 2, 1)) * -1
    .add 55 (.tr 49 [0, 2, 1]) (-1) 1,
    -- 1930: del tmp19
    .del 49,
    -- 1931: tmp20 += einsum(tmp10, (0, 1), r1, (2,), (0, 1, 2))
    .add 55 (.ein [(40, [0, 1]), (10, [2])] [0, 1, 2]) 1 1,
    -- 1932: tmp24 = np.copy(f.oo)
    .set 56 (.cp 13) 1 1,
    -- 1933: tmp24 += ints.tmp21 * 0.5
    .add 56 (.cp 14) 1 2,
    -- 1934: tmp24 += np.transpose(ints.tmp24, (1, 0))
    .add 56 (.tr 15 [1, 0]) 1 1,
    -- 1935: tmp24 += ints.tmp29
    .add 56 (.cp 16) 1 1,
    -- 1936: tmp24 += np.transpose(ints.tmp5, (1, 0))
    .add 56 (.tr 17 [1, 0]) 1 1,
    -- 1937: tmp21 = einsum(ints.tmp7, (0, 1), r2, (2, 0, 3), (3, 1, 2))
    .set 57 (.ein [(18, [0, 1]), (12, [2, 0, 3])] [3, 1, 2]) 1 1,
    -- 1938: tmp23 = einsum(tmp22, (0, 1, 2, 3), r2, (2, 3, 4), (4, 1, 0)) * -1
    .set 58 (.ein [(52, [0, 1, 2, 3]), (12, [2, 3, 4])] [4, 1, 0]) (-1) 1,
    -- 1939: del tmp22
    .del 52,
    -- 1940: tmp5 = np.copy(ints.tmp12) * 0.5
    .set 59 (.cp 19) 1 2,
    -- 1941: tmp5 += ints.tmp14 * 0.5
    .add 59 (.cp 20) 1 2,
    -- 1942: tmp5 += ints.tmp19 * 0.5
    .add 59 (.cp 21) 1 2,
    -- 1943: tmp5 += ints.tmp1
    .add 59 (.cp 22) 1 1,
    -- 1944: tmp5 += ints.tmp22 * 0.5
    .add 59 (.cp 23) 1 2,
    -- 1945: tmp5 += ints.tmp25
    .add 59 (.cp 24) 1 1,
    -- 1946: tmp5 += ints.tmp27
    .add 59 (.cp 25) 1 1,
    -- 1947: tmp5 += ints.tmp30
    .add 59 (.cp 26) 1 1,
    -- 1948: tmp5 += ints.tmp6
    .add 59 (.cp 27) 1 1,
    -- 1949: tmp5 += ints.tmp8
    .add 59 (.cp 28) 1 1,
    -- 1950: tmp5 += f.ov * -1
    .add 59 (.cp 0) (-1) 1,
    -- 1951: tmp5 += ints.tmp17 * -1
    .add 59 (.cp 29) (-1) 1,
    -- 1952: tmp5 += ints.tmp2 * -1
    .add 59 (.cp 30) (-1) 1,
    -- 1953: tmp5 += ints.tmp3 * -1
    .add 59 (.cp 31) (-1) 1,
    -- 1954: tmp3 = einsum(t1, (0, 1), tmp1, (2, 3, 1), (2, 3, 0)) * -1
    .set 60 (.ein [(3, [0, 1]), (53, [2, 3, 1])] [2, 3, 0]) (-1) 1,
    -- 1955: tmp6 = np.copy(ints.tmp11) * 0.5
    .set 61 (.cp 6) 1 2,
    -- 1956: tmp6 += ints.tmp7
    .add 61 (.cp 18) 1 1,
    -- 1957: tmp6 += f.vv * -1
    .add 61 (.cp 7) (-1) 1,
    -- 1958: tmp4 = np.copy(ints.tmp18)
    .set 62 (.cp 4) 1 1,
    -- 1959: tmp4 += np.transpose(v.ovoo, (0, 2, 3, 1)) * -1
    .add 62 (.tr 32 [0, 2, 3, 1]) (-1) 1,
    -- 1960: tmp0 = np.copy(ints.tmp10) * 0.5
    .set 63 (.cp 33) 1 2,
    -- 1961: tmp0 += ints.tmp15
    .add 63 (.cp 34) 1 1,
    -- 1962: tmp0 += ints.tmp20 * 0.25
    .add 63 (.cp 35) 1 4,
    -- 1963: tmp0 += ints.tmp13 * -0.25
    .add 63 (.cp 36) (-1) 4,
    -- 1964: tmp0 += np.transpose(v.ovvv, (0, 2, 3, 1)) * -0.5
    .add 63 (.tr 37 [0, 2, 3, 1]) (-1) 2,
    -- 1965: tmp2 = np.copy(ints.tmp23)
    .set 64 (.cp 8) 1 1,
    -- 1966: tmp2 += ints.tmp28
    .add 64 (.cp 9) 1 1,
    -- 1967: tmp2 += np.transpose(v.ovov, (0, 2, 3, 1)) * -1
    .add 64 (.tr 5 [0, 2, 3, 1]) (-1) 1,
    -- 1968: r2new = einsum(v.ovvv, (0, 1, 2, 3), tmp1, (4, 0, 1), (2, 3, 4))
    .set 65 (.ein [(37, [0, 1, 2, 3]), (53, [4, 0, 1])] [2, 3, 4]) 1 1,
    -- 1969: r2new += einsum(r2, (0, 1, 2), v.vvvv, (3, 4, 0, 1), (3, 4, 2)) * 0.5
    .add 65 (.ein [(12, [0, 1, 2]), (38, [3, 4, 0, 1])] [3, 4, 2]) 1 2,
    -- 1970: r2new += einsum(r1, (0,), v.ovvv, (1, 0, 2, 3), (2, 3, 1)) * -1
    .add 65 (.ein [(10, [0]), (37, [1, 0, 2, 3])] [2, 3, 1]) (-1) 1,
    -- 1971: r2new += np.transpose(tmp20, (1, 2, 0)) * -1
    .add 65 (.tr 55 [1, 2, 0]) (-1) 1,
    -- 1972: r2new += np.transpose(tmp20, (2, 1, 0))
    .add 65 (.tr 55 [2, 1, 0]) 1 1,
    -- 1973: del tmp20
    .del 55,
    -- 1974: r2new += np.transpose(tmp21, (1, 2, 0))
    .add 65 (.tr 57 [1, 2, 0]) 1 1,
    -- 1975: r2new += np.transpose(tmp21, (2, 1, 0)) * -1
    .add 65 (.tr 57 [2, 1, 0]) (-1) 1,
    -- 1976: del tmp21
    .del 57,
    -- 1977: r2new += einsum(v.oovv, (0, 1, 2, 3), tmp23, (4, 0, 1), (2, 3, 4)) * 0.25
    .add 65 (.ein [(39, [0, 1, 2, 3]), (58, [4, 0, 1])] [2, 3, 4]) 1 4,
    -- 1978: del tmp23
    .del 58,
    -- 1979: r2new += einsum(tmp24, (0, 1), r2, (2, 3, 0), (2, 3, 1)) * -1
    .add 65 (.ein [(56, [0, 1]), (12, [2, 3, 0])] [2, 3, 1]) (-1) 1,
    -- 1980: del tmp24
    .del 56,
    -- 1981: r2new += einsum(v.oovv, (0, 1, 2, 3), tmp9, (1,), (2, 3, 0))
    .add 65 (.ein [(39, [0, 1, 2, 3]), (54, [1])] [2, 3, 0]) 1 1,
    -- 1982: r1new = einsum(tmp0, (0, 1, 2, 3), r2, (1, 2, 0), (3,))
    .set 66 (.ein [(63, [0, 1, 2, 3]), (12, [1, 2, 0])] [3]) 1 1,
    -- 1983: del tmp0
    .del 63,
    -- 1984: r1new += einsum(tmp1, (0, 1, 2), tmp2, (0, 1, 2, 3), (3,))
    .add 66 (.ein [(53, [0, 1, 2]), (64, [0, 1, 2, 3])] [3]) 1 1,
    -- 1985: del tmp1, tmp2
    .del 53,
    .del 64,
    -- 1986: r1new += einsum(tmp3, (0, 1, 2), tmp4, (0, 2, 1, 3), (3,)) * -0.5
    .add 66 (.ein [(60, [0, 1, 2]), (62, [0, 2, 1, 3])] [3]) (-1) 2,
    -- 1987: del tmp3, tmp4
    .del 60,
    .del 62,
    -- 1988: r1new += einsum(r2, (0, 1, 2), tmp5, (2, 1), (0,)) * -1
    .add 66 (.ein [(12, [0, 1, 2]), (59, [2, 1])] [0]) (-1) 1,
    -- 1989: del tmp5
    .del 59,
    -- 1990: r1new += einsum(tmp6, (0, 1), r1, (0,), (1,)) * -1
    .add 66 (.ein [(61, [0, 1]), (10, [0])] [1]) (-1) 1,
    -- 1991: del tmp6
    .del 61,
    -- 1992: r1new += einsum(tmp9, (0,), tmp10, (0, 1), (1,)) * -1
    .add 66 (.ein [(54, [0]), (40, [0, 1])] [1]) (-1) 1,
    -- 1993: del tmp10, tmp9
    .del 40,
    .del 54
  ]
  ret := [(chars! "r1new", 66), (chars! "r2new", 65)]

/-- codegen/GCCSD.py:1184-1286 `hbar_matvec_ee_intermediates`. -/
def hbar_matvec_ee_intermediates : GenFun where
  args := [chars! "v.oovv", chars! "t1", chars! "v.ovvv", chars! "v.ooov", chars! "t2", chars! "f.ov", chars! "v.ovoo", chars! "v.vvvv", chars! "v.ovov", chars! "v.oooo", chars! "f.vv", chars! "f.oo"]
  body := [
    -- 1244: tmp7 = einsum(v.oovv, (0, 1, 2, 3), t1, (4, 3), (4, 0, 1, 2))
    .set 12 (.ein [(0, [0, 1, 2, 3]), (1, [4, 3])] [4, 0, 1, 2]) 1 1,
    -- 1245: tmp6 = einsum(t1, (0, 1), v.oovv, (2, 0, 3, 1), (2, 3))
    .set 13 (.ein [(1, [0, 1]), (0, [2, 0, 3, 1])] [2, 3]) 1 1,
    -- 1246: tmp101 = einsum(tmp7, (0, 1, 2, 3), t1, (4, 3), (0, 4, 2, 1))
    .set 14 (.ein [(12, [0, 1, 2, 3]), (1, [4, 3])] [0, 4, 2, 1]) 1 1,
    -- 1247: tmp12 = einsum(tmp6, (0, 1), t1, (2, 1), (2, 0))
    .set 15 (.ein [(13, [0, 1]), (1, [2, 1])] [2, 0]) 1 1,
    -- 1248: tmp5 = einsum(v.ovvv, (0, 1, 2, 3), t1, (4, 3), (4, 0, 1, 2))
    .set 16 (.ein [(2, [0, 1, 2, 3]), (1, [4, 3])] [4, 0, 1, 2]) 1 1,
    -- 1249: tmp4 = einsum(v.ovvv, (0, 1, 2, 3), t1, (0, 3), (1, 2))
    .set 17 (.ein [(2, [0, 1, 2, 3]), (1, [0, 3])] [1, 2]) 1 1,
    -- 1250: tmp40 = einsum(v.ooov, (0, 1, 2, 3), t1, (4, 3), (4, 0, 1, 2))
    .set 18 (.ein [(3, [0, 1, 2, 3]), (1, [4, 3])] [4, 0, 1, 2]) 1 1,
    -- 1251: tmp2 = einsum(v.ooov, (0, 1, 2, 3), t1, (1, 3), (0, 2))
    .set 19 (.ein [(3, [0, 1, 2, 3]), (1, [1, 3])] [0, 2]) 1 1,
    -- 1252: tmp62 = einsum(v.oovv, (0, 1, 2, 3), t2, (4, 5, 2, 3), (4, 5, 0, 1))
    .set 20 (.ein [(0, [0, 1, 2, 3]), (4, [4, 5, 2, 3])] [4, 5, 0, 1]) 1 1,
    -- 1253: tmp9 = einsum(t2, (0, 1, 2, 3), v.oovv, (4, 1, 2, 3), (0, 4))
    .set 21 (.ein [(4, [0, 1, 2, 3]), (0, [4, 1, 2, 3])] [0, 4]) 1 1,
    -- 1254: tmp0 = einsum(f.ov, (0, 1), t1, (2, 1), (0, 2))
    .set 22 (.ein [(5, [0, 1]), (1, [2, 1])] [0, 2]) 1 1,
    -- 1255: tmp106 = einsum(t1, (0, 1), tmp101, (2, 3, 0, 4), (2, 3, 4, 1)) * -1
    .set 23 (.ein [(1, [0, 1]), (14, [2, 3, 0, 4])] [2, 3, 4, 1]) (-1) 1,
    -- 1256: tmp105 = einsum(tmp12, (0, 1), t1, (1, 2), (0, 2))
    .set 24 (.ein [(15, [0, 1]), (1, [1, 2])] [0, 2]) 1 1,
    -- 1257: tmp94 = einsum(tmp5, (0, 1, 2, 3), t1, (4, 3), (0, 4, 1, 2)) * -1
    .set 25 (.ein [(16, [0, 1, 2, 3]), (1, [4, 3])] [0, 4, 1, 2]) (-1) 1,
    -- 1258: tmp93 = einsum(tmp4, (0, 1), t1, (2, 1), (2, 0))
    .set 26 (.ein [(17, [0, 1]), (1, [2, 1])] [2, 0]) 1 1,
    -- 1259: tmp88 = einsum(t1, (0, 1), tmp40, (2, 3, 0, 4), (2, 3, 4, 1))
    .set 27 (.ein [(1, [0, 1]), (18, [2, 3, 0, 4])] [2, 3, 4, 1]) 1 1,
    -- 1260: tmp87 = einsum(tmp2, (0, 1), t1, (0, 2), (1, 2))
    .set 28 (.ein [(19, [0, 1]), (1, [0, 2])] [1, 2]) 1 1,
    -- 1261: tmp81 = einsum(t1, (0, 1), tmp62, (2, 3, 4, 0), (2, 3, 4, 1))
    .set 29 (.ein [(1, [0, 1]), (20, [2, 3, 4, 0])] [2, 3, 4, 1]) 1 1,
    -- 1262: tmp80 = einsum(tmp9, (0, 1), t1, (1, 2), (0, 2))
    .set 30 (.ein [(21, [0, 1]), (1, [1, 2])] [0, 2]) 1 1,
    -- 1263: tmp77 = einsum(t2, (0, 1, 2, 3), tmp7, (4, 1, 0, 5), (4, 2, 3, 5)) * -1
    .set 31 (.ein [(4, [0, 1, 2, 3]), (12, [4, 1, 0, 5])] [4, 2, 3, 5]) (-1) 1,
    -- 1264: tmp75 = einsum(tmp7, (0, 1, 2, 3), t2, (4, 1, 5, 3), (0, 4, 2, 5))
    .set 32 (.ein [(12, [0, 1, 2, 3]), (4, [4, 1, 5, 3])] [0, 4, 2, 5]) 1 1,
    -- 1265: tmp74 = einsum(t2, (0, 1, 2, 3), tmp7, (4, 1, 0, 3), (4, 2))
    .set 33 (.ein [(4, [0, 1, 2, 3]), (12, [4, 1, 0, 3])] [4, 2]) 1 1,
    -- 1266: tmp71 = einsum(t2, (0, 1, 2, 3), tmp6, (4, 3), (0, 1, 4, 2)) * -1
    .set 34 (.ein [(4, [0, 1, 2, 3]), (13, [4, 3])] [0, 1, 4, 2]) (-1) 1,
    -- 1267: tmp70 = einsum(tmp6, (0, 1), t2, (2, 0, 3, 1), (2, 3))
    .set 35 (.ein [(13, [0, 1]), (4, [2, 0, 3, 1])] [2, 3]) 1 1,
    -- 1268: tmp64 = einsum(v.oovv, (0, 1, 2, 3), t2, (4, 1, 5, 3), (4, 0, 5, 2))
    .set 36 (.ein [(0, [0, 1, 2, 3]), (4, [4, 1, 5, 3])] [4, 0, 5, 2]) 1 1,
    -- 1269: tmp57 = einsum(t2, (0, 1, 2, 3), v.ovvv, (1, 4, 5, 3), (0, 2, 4, 5))
    .set 37 (.ein [(4, [0, 1, 2, 3]), (2, [1, 4, 5, 3])] [0, 2, 4, 5]) 1 1,
    -- 1270: tmp55 = einsum(v.ovvv, (0, 1, 2, 3), t2, (4, 5, 2, 3), (4, 5, 0, 1))
    .set 38 (.ein [(2, [0, 1, 2, 3]), (4, [4, 5, 2, 3])] [4, 5, 0, 1]) 1 1,
    -- 1271: tmp54 = einsum(t2, (0, 1, 2, 3), v.ovvv, (1, 4, 2, 3), (0, 4))
    .set 39 (.ein [(4, [0, 1, 2, 3]), (2, [1, 4, 2, 3])] [0, 4]) 1 1,
    -- 1272: tmp51 = einsum(t2, (0, 1, 2, 3), v.ovoo, (4, 5, 0, 1), (4, 2, 3, 5))
    .set 40 (.ein [(4, [0, 1, 2, 3]), (6, [4, 5, 0, 1])] [4, 2, 3, 5]) 1 1,
    -- 1273: tmp49 = einsum(t2, (0, 1, 2, 3), v.ooov, (4, 1, 5, 3), (0, 4, 5, 2))
    .set 41 (.ein [(4, [0, 1, 2, 3]), (3, [4, 1, 5, 3])] [0, 4, 5, 2]) 1 1,
    -- 1274: tmp48 = einsum(t2, (0, 1, 2, 3), v.ovoo, (4, 3, 0, 1), (4, 2))
    .set 42 (.ein [(4, [0, 1, 2, 3]), (6, [4, 3, 0, 1])] [4, 2]) 1 1,
    -- 1275: tmp37 = einsum(v.vvvv, (0, 1, 2, 3), t1, (4, 3), (4, 0, 1, 2))
    .set 43 (.ein [(7, [0, 1, 2, 3]), (1, [4, 3])] [4, 0, 1, 2]) 1 1,
    -- 1276: tmp33 = einsum(v.ovov, (0, 1, 2, 3), t1, (4, 3), (4, 0, 2, 1))
    .set 44 (.ein [(8, [0, 1, 2, 3]), (1, [4, 3])] [4, 0, 2, 1]) 1 1,
    -- 1277: tmp32 = einsum(t1, (0, 1), v.ovov, (2, 1, 0, 3), (2, 3))
    .set 45 (.ein [(1, [0, 1]), (8, [2, 1, 0, 3])] [2, 3]) 1 1,
    -- 1278: tmp30 = einsum(t1, (0, 1), v.oooo, (2, 3, 4, 0), (2, 3, 4, 1))
    .set 46 (.ein [(1, [0, 1]), (9, [2, 3, 4, 0])] [2, 3, 4, 1]) 1 1,
    -- 1279: tmp26 = einsum(tmp0, (0, 1), t1, (0, 2), (1, 2))
    .set 47 (.ein [(22, [0, 1]), (1, [0, 2])] [1, 2]) 1 1,
    -- 1280: tmp23 = einsum(t2, (0, 1, 2, 3), f.ov, (4, 3), (4, 0, 1, 2))
    .set 48 (.ein [(4, [0, 1, 2, 3]), (5, [4, 3])] [4, 0, 1, 2]) 1 1,
    -- 1281: tmp22 = einsum(f.ov, (0, 1), t2, (2, 0, 3, 1), (2, 3))
    .set 49 (.ein [(5, [0, 1]), (4, [2, 0, 3, 1])] [2, 3]) 1 1,
    -- 1282: tmp18 = einsum(t1, (0, 1), f.vv, (2, 1), (0, 2))
    .set 50 (.ein [(1, [0, 1]), (10, [2, 1])] [0, 2]) 1 1,
    -- 1283: tmp17 = einsum(t1, (0, 1), f.oo, (2, 0), (2, 1))
    .set 51 (.ein [(1, [0, 1]), (11, [2, 0])] [2, 1]) 1 1,
    -- 1284: tmp10 = einsum(t2, (0, 1, 2, 3), v.oovv, (0, 1, 4, 3), (2, 4))
    .set 52 (.ein [(4, [0, 1, 2, 3]), (0, [0, 1, 4, 3])] [2, 4]) 1 1
  ]
  ret := [(chars! "tmp0", 22), (chars! "tmp10", 52), (chars! "tmp101", 14), (chars! "tmp105", 24), (chars! "tmp106", 23), (chars! "tmp12", 15), (chars! "tmp17", 51), (chars! "tmp18", 50), (chars! "tmp2", 19), (chars! "tmp22", 49), (chars! "tmp23", 48), (chars! "tmp26", 47), (chars! "tmp30", 46), (chars! "tmp32", 45), (chars! "tmp33", 44), (chars! "tmp37", 43), (chars! "tmp4", 17), (chars! "tmp40", 18), (chars! "tmp48", 42), (chars! "tmp49", 41), (chars! "tmp5", 16), (chars! "tmp51", 40), (chars! "tmp54", 39), (chars! "tmp55", 38), (chars! "tmp57", 37), (chars! "tmp6", 13), (chars! "tmp62", 20), (chars! "tmp64", 36), (chars! "tmp7", 12), (chars! "tmp70", 35), (chars! "tmp71", 34), (chars! "tmp74", 33), (chars! "tmp75", 32), (chars! "tmp77", 31), (chars! "tmp80", 30), (chars! "tmp81", 29), (chars! "tmp87", 28), (chars! "tmp88", 27), (chars! "tmp9", 21), (chars! "tmp93", 26), (chars! "tmp94", 25)]

/-- codegen/GCCSD.py:1288-1569 `hbar_matvec_ee`. -/
def hbar_matvec_ee : GenFun where
  args := [chars! "r1", chars! "v.oovv", chars! "f.ov", chars! "ints.tmp6", chars! "ints.tmp5", chars! "ints.tmp64", chars! "t2", chars! "v.ovvv", chars! "r2", chars! "v.ooov", chars! "ints.tmp7", chars! "ints.tmp106", chars! "ints.tmp23", chars! "t1", chars! "f.oo", chars! "ints.tmp0", chars! "ints.tmp12", chars! "ints.tmp2", chars! "ints.tmp9", chars! "ints.tmp51", chars! "ints.tmp77", chars! "ints.tmp55", chars! "ints.tmp71", chars! "ints.tmp81", chars! "ints.tmp10", chars! "ints.tmp4", chars! "v.ovov", chars! "ints.tmp33", chars! "ints.tmp49", chars! "ints.tmp94", chars! "ints.tmp37", chars! "ints.tmp75", chars! "ints.tmp88", chars! "f.vv", chars! "ints.tmp30", chars! "ints.tmp57", chars! "v.ovoo", chars! "ints.tmp105", chars! "ints.tmp17", chars! "ints.tmp26", chars! "ints.tmp32", chars! "ints.tmp48", chars! "ints.tmp54", chars! "ints.tmp74", chars! "ints.tmp80", chars! "ints.tmp87", chars! "ints.tmp93", chars! "ints.tmp18", chars! "ints.tmp22", chars! "ints.tmp70", chars! "ints.tmp101", chars! "ints.tmp62", chars! "v.oooo", chars! "ints.tmp40", chars! "v.vvvv"]
  body := [
    -- 1316: tmp0 = einsum(r1, (0, 1), v.oovv, (2, 0, 3, 1), (2, 3))
    .set 55 (.ein [(0, [0, 1]), (1, [2, 0, 3, 1])] [2, 3]) 1 1,
    -- 1317: tmp2 = np.copy(f.ov)
    .set 56 (.cp 2) 1 1,
    -- 1318: tmp2 += ints.tmp6
    .add 56 (.cp 3) 1 1,
    -- 1319: tmp40 = np.copy(ints.tmp5)
    .set 57 (.cp 4) 1 1,
    -- 1320: tmp40 += ints.tmp64
    .add 57 (.cp 5) 1 1,
    -- 1321: tmp20 = einsum(tmp0, (0, 1), t2, (2, 3, 4, 1), (2, 3, 0, 4)) * -1
    .set 58 (.ein [(55, [0, 1]), (6, [2, 3, 4, 1])] [2, 3, 0, 4]) (-1) 1,
    -- 1322: tmp19 = einsum(v.ovvv, (0, 1, 2, 3), r2, (4, 5, 2, 3), (4, 5, 0, 1))
    .set 59 (.ein [(7, [0, 1, 2, 3]), (8, [4, 5, 2, 3])] [4, 5, 0, 1]) 1 1,
    -- 1323: tmp26 = einsum(r1, (0, 1), v.ooov, (2, 3, 4, 1), (0, 2, 3, 4))
    .set 60 (.ein [(0, [0, 1]), (9, [2, 3, 4, 1])] [0, 2, 3, 4]) 1 1,
    -- 1324: tmp7 = einsum(tmp2, (0, 1), r1, (2, 1), (0, 2))
    .set 61 (.ein [(56, [0, 1]), (0, [2, 1])] [0, 2]) 1 1,
    -- 1325: tmp32 = einsum(r1, (0, 1), ints.tmp7, (2, 0, 3, 1), (2, 3))
    .set 62 (.ein [(0, [0, 1]), (10, [2, 0, 3, 1])] [2, 3]) 1 1,
    -- 1326: tmp6 = einsum(r2, (0, 1, 2, 3), v.oovv, (4, 1, 2, 3), (0, 4))
    .set 63 (.ein [(8, [0, 1, 2, 3]), (1, [4, 1, 2, 3])] [0, 4]) 1 1,
    -- 1327: tmp42 = einsum(v.ooov, (0, 1, 2, 3), r2, (4, 1, 5, 3), (4, 0, 2, 5))
    .set 64 (.ein [(9, [0, 1, 2, 3]), (8, [4, 1, 5, 3])] [4, 0, 2, 5]) 1 1,
    -- 1328: tmp44 = einsum(tmp40, (0, 1, 2, 3), r1, (4, 3), (0, 1, 4, 2))
    .set 65 (.ein [(57, [0, 1, 2, 3]), (0, [4, 3])] [0, 1, 4, 2]) 1 1,
    -- 1329: tmp43 = einsum(ints.tmp7, (0, 1, 2, 3), r2, (4, 1, 5, 3), (0, 2, 4, 5))
    .set 66 (.ein [(10, [0, 1, 2, 3]), (8, [4, 1, 5, 3])] [0, 2, 4, 5]) 1 1,
    -- 1330: tmp10 = einsum(v.ovvv, (0, 1, 2, 3), r1, (0, 3), (1, 2))
    .set 67 (.ein [(7, [0, 1, 2, 3]), (0, [0, 3])] [1, 2]) 1 1,
    -- 1331: tmp50 = einsum(r1, (0, 1), ints.tmp7, (2, 3, 4, 1), (2, 3, 4, 0))
    .set 68 (.ein [(0, [0, 1]), (10, [2, 3, 4, 1])] [2, 3, 4, 0]) 1 1,
    -- 1332: tmp17 = einsum(tmp2, (0, 1), r2, (2, 3, 4, 1), (0, 2, 3, 4)) * -1
    .set 69 (.ein [(56, [0, 1]), (8, [2, 3, 4, 1])] [0, 2, 3, 4]) (-1) 1,
    -- 1333: tmp13 = einsum(v.oovv, (0, 1, 2, 3), r2, (0, 1, 4, 3), (4, 2))
    .set 70 (.ein [(1, [0, 1, 2, 3]), (8, [0, 1, 4, 3])] [4, 2]) 1 1,
    -- 1334: tmp15 = np.copy(ints.tmp106)
    .set 71 (.cp 11) 1 1,
    -- 1335: tmp15 += np.transpose(ints.tmp23, (1, 2, 0, 3))
    .add 71 (.tr 12 [1, 2, 0, 3]) 1 1,
    -- 1336: tmp21 = np.copy(np.transpose(tmp19, (1, 0, 2, 3)))
    .set 72 (.tr 59 [1, 0, 2, 3]) 1 1,
    -- 1337: del tmp19
    .del 59,
    -- 1338: tmp21 += tmp20 * -2
    .add 72 (.cp 58) (-2) 1,
    -- 1339: del tmp20
    .del 58,
    -- 1340: tmp27 = einsum(t1, (0, 1), tmp26, (2, 3, 0, 4), (2, 3, 4, 1))
    .set 73 (.ein [(13, [0, 1]), (60, [2, 3, 0, 4])] [2, 3, 4, 1]) 1 1,
    -- 1341: del tmp26
    .del 60,
    -- 1342: tmp5 = np.copy(f.oo)
    .set 74 (.cp 14) 1 1,
    -- 1343: tmp5 += ints.tmp0
    .add 74 (.cp 15) 1 1,
    -- 1344: tmp5 += np.transpose(ints.tmp12, (1, 0))
    .add 74 (.tr 16 [1, 0]) 1 1,
    -- 1345: tmp5 += ints.tmp2
    .add 74 (.cp 17) 1 1,
    -- 1346: tmp5 += np.transpose(ints.tmp9, (1, 0)) * 0.5
    .add 74 (.tr 18 [1, 0]) 1 2,
    -- 1347: tmp29 = np.copy(ints.tmp51)
    .set 75 (.cp 19) 1 1,
    -- 1348: tmp29 += ints.tmp77 * -1
    .add 75 (.cp 20) (-1) 1,
    -- 1349: tmp24 = einsum(v.ooov, (0, 1, 2, 3), r1, (1, 3), (0, 2))
    .set 76 (.ein [(9, [0, 1, 2, 3]), (0, [1, 3])] [0, 2]) 1 1,
    -- 1350: tmp33 = np.copy(tmp32)
    .set 77 (.cp 62) 1 1,
    -- 1351: del tmp32
    .del 62,
    -- 1352: tmp33 += tmp6 * 0.5
    .add 77 (.cp 63) 1 2,
    -- 1353: tmp33 += np.transpose(tmp7, (1, 0))
    .add 77 (.tr 61 [1, 0]) 1 1,
    -- 1354: tmp55 = np.copy(ints.tmp55)
    .set 78 (.cp 21) 1 1,
    -- 1355: tmp55 += ints.tmp71 * 2
    .add 78 (.cp 22) 2 1,
    -- 1356: tmp55 += ints.tmp81 * -1
    .add 78 (.cp 23) (-1) 1,
    -- 1357: tmp53 = np.copy(ints.tmp10) * 0.5
    .set 79 (.cp 24) 1 2,
    -- 1358: tmp53 += ints.tmp4
    .add 79 (.cp 25) 1 1,
    -- 1359: tmp38 = einsum(r1, (0, 1), v.ovov, (2, 3, 4, 1), (0, 2, 4, 3))
    .set 80 (.ein [(0, [0, 1]), (26, [2, 3, 4, 1])] [0, 2, 4, 3]) 1 1,
    -- 1360: tmp47 = np.copy(ints.tmp33)
    .set 81 (.cp 27) 1 1,
    -- 1361: tmp47 += ints.tmp49
    .add 81 (.cp 28) 1 1,
    -- 1362: tmp45 = np.copy(tmp42)
    .set 82 (.cp 64) 1 1,
    -- 1363: del tmp42
    .del 64,
    -- 1364: tmp45 += tmp43 * -1
    .add 82 (.cp 66) (-1) 1,
    -- 1365: del tmp43
    .del 66,
    -- 1366: tmp45 += tmp44
    .add 82 (.cp 65) 1 1,
    -- 1367: del tmp44
    .del 65,
    -- 1368: tmp9 = einsum(r1, (0, 1), ints.tmp94, (2, 3, 0, 4), (2, 3, 4, 1))
    .set 83 (.ein [(0, [0, 1]), (29, [2, 3, 0, 4])] [2, 3, 4, 1]) 1 1,
    -- 1369: tmp11 = einsum(tmp10, (0, 1), t2, (2, 3, 4, 1), (2, 3, 4, 0)) * -1
    .set 84 (.ein [(67, [0, 1]), (6, [2, 3, 4, 1])] [2, 3, 4, 0]) (-1) 1,
    -- 1370: del tmp10
    .del 67,
    -- 1371: tmp64 = einsum(r1, (0, 1), ints.tmp37, (2, 3, 4, 1), (2, 0, 3, 4))
    .set 85 (.ein [(0, [0, 1]), (30, [2, 3, 4, 1])] [2, 0, 3, 4]) 1 1,
    -- 1372: tmp65 = einsum(r1, (0, 1), v.ovvv, (2, 1, 3, 4), (0, 2, 3, 4))
    .set 86 (.ein [(0, [0, 1]), (7, [2, 1, 3, 4])] [0, 2, 3, 4]) 1 1,
    -- 1373: tmp58 = np.copy(ints.tmp75)
    .set 87 (.cp 31) 1 1,
    -- 1374: tmp58 += np.transpose(ints.tmp88, (0, 2, 1, 3))
    .add 87 (.tr 32 [0, 2, 1, 3]) 1 1,
    -- 1375: tmp51 = einsum(t1, (0, 1), tmp50, (2, 3, 0, 4), (2, 3, 4, 1))
    .set 88 (.ein [(13, [0, 1]), (68, [2, 3, 0, 4])] [2, 3, 4, 1]) 1 1,
    -- 1376: del tmp50
    .del 68,
    -- 1377: tmp18 = einsum(tmp17, (0, 1, 2, 3), t1, (0, 4), (2, 1, 4, 3))
    .set 89 (.ein [(69, [0, 1, 2, 3]), (13, [0, 4])] [2, 1, 4, 3]) 1 1,
    -- 1378: del tmp17
    .del 69,
    -- 1379: tmp14 = einsum(tmp13, (0, 1), t2, (2, 3, 4, 1), (2, 3, 0, 4)) * -1
    .set 90 (.ein [(70, [0, 1]), (6, [2, 3, 4, 1])] [2, 3, 0, 4]) (-1) 1,
    -- 1380: del tmp13
    .del 70,
    -- 1381: tmp16 = einsum(r1, (0, 1), tmp15, (2, 3, 0, 4), (2, 3, 4, 1))
    .set 91 (.ein [(0, [0, 1]), (71, [2, 3, 0, 4])] [2, 3, 4, 1]) 1 1,
    -- 1382: del tmp15
    .del 71,
    -- 1383: tmp22 = einsum(tmp21, (0, 1, 2, 3), t1, (2, 4), (0, 1, 4, 3)) * 0.5
    .set 92 (.ein [(72, [0, 1, 2, 3]), (13, [2, 4])] [0, 1, 4, 3]) 1 2,
    -- 1384: del tmp21
    .del 72,
    -- 1385: tmp28 = einsum(t1, (0, 1), tmp27, (2, 0, 3, 4), (2, 3, 4, 1)) * -1
    .set 93 (.ein [(13, [0, 1]), (73, [2, 0, 3, 4])] [2, 3, 4, 1]) (-1) 1,
    -- 1386: del tmp27
    .del 73,
    -- 1387: tmp31 = einsum(r2, (0, 1, 2, 3), tmp5, (1, 4), (4, 0, 2, 3)) * -1
    .set 94 (.ein [(8, [0, 1, 2, 3]), (74, [1, 4])] [4, 0, 2, 3]) (-1) 1,
    -- 1388: tmp30 = einsum(r1, (0, 1), tmp29, (2, 3, 4, 1), (2, 0, 3, 4)) * 0.5
    .set 95 (.ein [(0, [0, 1]), (75, [2, 3, 4, 1])] [2, 0, 3, 4]) 1 2,
    -- 1389: del tmp29
    .del 75,
    -- 1390: tmp25 = einsum(tmp24, (0, 1), t2, (2, 0, 3, 4), (2, 1, 3, 4)) * -1
    .set 96 (.ein [(76, [0, 1]), (6, [2, 0, 3, 4])] [2, 1, 3, 4]) (-1) 1,
    -- 1391: del tmp24
    .del 76,
    -- 1392: tmp34 = einsum(t2, (0, 1, 2, 3), tmp33, (4, 1), (0, 4, 2, 3)) * -1
    .set 97 (.ein [(6, [0, 1, 2, 3]), (77, [4, 1])] [0, 4, 2, 3]) (-1) 1,
    -- 1393: del tmp33
    .del 77,
    -- 1394: tmp62 = einsum(f.vv, (0, 1), r2, (2, 3, 4, 1), (2, 3, 0, 4))
    .set 98 (.ein [(33, [0, 1]), (8, [2, 3, 4, 1])] [2, 3, 0, 4]) 1 1,
    -- 1395: tmp60 = einsum(ints.tmp30, (0, 1, 2, 3), r1, (2, 4), (0, 1, 3, 4))
    .set 99 (.ein [(34, [0, 1, 2, 3]), (0, [2, 4])] [0, 1, 3, 4]) 1 1,
    -- 1396: tmp61 = einsum(v.ooov, (0, 1, 2, 3), r1, (2, 4), (0, 1, 4, 3))
    .set 100 (.ein [(9, [0, 1, 2, 3]), (0, [2, 4])] [0, 1, 4, 3]) 1 1,
    -- 1397: tmp56 = einsum(tmp55, (0, 1, 2, 3), r1, (2, 4), (0, 1, 3, 4)) * 0.5
    .set 101 (.ein [(78, [0, 1, 2, 3]), (0, [2, 4])] [0, 1, 3, 4]) 1 2,
    -- 1398: del tmp55
    .del 78,
    -- 1399: tmp54 = einsum(tmp53, (0, 1), r2, (2, 3, 4, 1), (2, 3, 0, 4)) * -1
    .set 102 (.ein [(79, [0, 1]), (8, [2, 3, 4, 1])] [2, 3, 0, 4]) (-1) 1,
    -- 1400: del tmp53
    .del 79,
    -- 1401: tmp36 = einsum(r1, (0, 1), ints.tmp57, (2, 3, 4, 1), (2, 0, 3, 4))
    .set 103 (.ein [(0, [0, 1]), (35, [2, 3, 4, 1])] [2, 0, 3, 4]) 1 1,
    -- 1402: tmp39 = einsum(tmp38, (0, 1, 2, 3), t1, (1, 4), (0, 2, 4, 3))
    .set 104 (.ein [(80, [0, 1, 2, 3]), (13, [1, 4])] [0, 2, 4, 3]) 1 1,
    -- 1403: del tmp38
    .del 80,
    -- 1404: tmp48 = einsum(tmp47, (0, 1, 2, 3), r1, (1, 4), (0, 2, 3, 4))
    .set 105 (.ein [(81, [0, 1, 2, 3]), (0, [1, 4])] [0, 2, 3, 4]) 1 1,
    -- 1405: del tmp47
    .del 81,
    -- 1406: tmp41 = einsum(r2, (0, 1, 2, 3), tmp40, (4, 1, 5, 3), (4, 0, 5, 2))
    .set 106 (.ein [(8, [0, 1, 2, 3]), (57, [4, 1, 5, 3])] [4, 0, 5, 2]) 1 1,
    -- 1407: del tmp40
    .del 57,
    -- 1408: tmp37 = einsum(v.ovov, (0, 1, 2, 3), r2, (4, 2, 5, 1), (4, 0, 5, 3))
    .set 107 (.ein [(26, [0, 1, 2, 3]), (8, [4, 2, 5, 1])] [4, 0, 5, 3]) 1 1,
    -- 1409: tmp46 = einsum(t1, (0, 1), tmp45, (2, 0, 3, 4), (2, 3, 1, 4))
    .set 108 (.ein [(13, [0, 1]), (82, [2, 0, 3, 4])] [2, 3, 1, 4]) 1 1,
    -- 1410: del tmp45
    .del 82,
    -- 1411: tmp1 = np.copy(ints.tmp7)
    .set 109 (.cp 10) 1 1,
    -- 1412: tmp1 += np.transpose(v.ovoo, (0, 2, 3, 1)) * -1
    .add 109 (.tr 36 [0, 2, 3, 1]) (-1) 1,
    -- 1413: tmp12 = np.copy(tmp9)
    .set 110 (.cp 83) 1 1,
    -- 1414: del tmp9
    .del 83,
    -- 1415: tmp12 += tmp11
    .add 110 (.cp 84) 1 1,
    -- 1416: del tmp11
    .del 84,
    -- 1417: tmp70 = np.copy(ints.tmp105)
    .set 111 (.cp 37) 1 1,
    -- 1418: tmp70 += ints.tmp17
    .add 111 (.cp 38) 1 1,
    -- 1419: tmp70 += ints.tmp26
    .add 111 (.cp 39) 1 1,
    -- 1420: tmp70 += ints.tmp32
    .add 111 (.cp 40) 1 1,
    -- 1421: tmp70 += ints.tmp48 * 0.5
    .add 111 (.cp 41) 1 2,
    -- 1422: tmp70 += ints.tmp54 * 0.5
    .add 111 (.cp 42) 1 2,
    -- 1423: tmp70 += ints.tmp74 * 0.5
    .add 111 (.cp 43) 1 2,
    -- 1424: tmp70 += ints.tmp80 * 0.5
    .add 111 (.cp 44) 1 2,
    -- 1425: tmp70 += ints.tmp87
    .add 111 (.cp 45) 1 1,
    -- 1426: tmp70 += ints.tmp93
    .add 111 (.cp 46) 1 1,
    -- 1427: tmp70 += f.ov * -1
    .add 111 (.cp 2) (-1) 1,
    -- 1428: tmp70 += ints.tmp18 * -1
    .add 111 (.cp 47) (-1) 1,
    -- 1429: tmp70 += ints.tmp22 * -1
    .add 111 (.cp 48) (-1) 1,
    -- 1430: tmp70 += ints.tmp70 * -1
    .add 111 (.cp 49) (-1) 1,
    -- 1431: tmp69 = np.copy(t2)
    .set 112 (.cp 6) 1 1,
    -- 1432: tmp69 += einsum(t1, (0, 1), t1, (2, 3), (2, 0, 3, 1)) * 2
    .add 112 (.ein [(13, [0, 1]), (13, [2, 3])] [2, 0, 3, 1]) 2 1,
    -- 1433: tmp67 = np.copy(ints.tmp101)
    .set 113 (.cp 50) 1 1,
    -- 1434: tmp67 += ints.tmp62 * 0.5
    .add 113 (.cp 51) 1 2,
    -- 1435: tmp67 += v.oooo
    .add 113 (.cp 52) 1 1,
    -- 1436: tmp67 += np.transpose(ints.tmp40, (0, 3, 1, 2)) * -1
    .add 113 (.tr 53 [0, 3, 1, 2]) (-1) 1,
    -- 1437: tmp67 += np.transpose(ints.tmp40, (3, 0, 1, 2))
    .add 113 (.tr 53 [3, 0, 1, 2]) 1 1,
    -- 1438: tmp66 = np.copy(tmp64)
    .set 114 (.cp 85) 1 1,
    -- 1439: del tmp64
    .del 85,
    -- 1440: tmp66 += np.transpose(tmp65, (0, 1, 3, 2)) * -1
    .add 114 (.tr 86 [0, 1, 3, 2]) (-1) 1,
    -- 1441: del tmp65
    .del 86,
    -- 1442: tmp59 = einsum(tmp58, (0, 1, 2, 3), r1, (2, 4), (0, 1, 3, 4))
    .set 115 (.ein [(87, [0, 1, 2, 3]), (0, [2, 4])] [0, 1, 3, 4]) 1 1,
    -- 1443: del tmp58
    .del 87,
    -- 1444: tmp71 = np.copy(ints.tmp105) * 2
    .set 116 (.cp 37) 2 1,
    -- 1445: tmp71 += ints.tmp17 * 2
    .add 116 (.cp 38) 2 1,
    -- 1446: tmp71 += ints.tmp26 * 2
    .add 116 (.cp 39) 2 1,
    -- 1447: tmp71 += ints.tmp32 * 2
    .add 116 (.cp 40) 2 1,
    -- 1448: tmp71 += ints.tmp48
    .add 116 (.cp 41) 1 1,
    -- 1449: tmp71 += ints.tmp54
    .add 116 (.cp 42) 1 1,
    -- 1450: tmp71 += ints.tmp74
    .add 116 (.cp 43) 1 1,
    -- 1451: tmp71 += ints.tmp80
    .add 116 (.cp 44) 1 1,
    -- 1452: tmp71 += ints.tmp87 * 2
    .add 116 (.cp 45) 2 1,
    -- 1453: tmp71 += ints.tmp93 * 2
    .add 116 (.cp 46) 2 1,
    -- 1454: tmp71 += f.ov * -2
    .add 116 (.cp 2) (-2) 1,
    -- 1455: tmp71 += ints.tmp18 * -2
    .add 116 (.cp 47) (-2) 1,
    -- 1456: tmp71 += ints.tmp22 * -2
    .add 116 (.cp 48) (-2) 1,
    -- 1457: tmp71 += ints.tmp70 * -2
    .add 116 (.cp 49) (-2) 1,
    -- 1458: tmp52 = einsum(tmp51, (0, 1, 2, 3), t1, (1, 4), (0, 2, 4, 3))
    .set 117 (.ein [(88, [0, 1, 2, 3]), (13, [1, 4])] [0, 2, 4, 3]) 1 1,
    -- 1459: del tmp51
    .del 88,
    -- 1460: tmp23 = np.copy(tmp14) * 0.5
    .set 118 (.cp 90) 1 2,
    -- 1461: del tmp14
    .del 90,
    -- 1462: tmp23 += tmp16
    .add 118 (.cp 91) 1 1,
    -- 1463: del tmp16
    .del 91,
    -- 1464: tmp23 += np.transpose(tmp18, (1, 0, 3, 2)) * -1
    .add 118 (.tr 89 [1, 0, 3, 2]) (-1) 1,
    -- 1465: del tmp18
    .del 89,
    -- 1466: tmp23 += np.transpose(tmp22, (1, 0, 2, 3))
    .add 118 (.tr 92 [1, 0, 2, 3]) 1 1,
    -- 1467: del tmp22
    .del 92,
    -- 1468: tmp35 = np.copy(np.transpose(tmp25, (0, 1, 3, 2))) * -1
    .set 119 (.tr 96 [0, 1, 3, 2]) (-1) 1,
    -- 1469: del tmp25
    .del 96,
    -- 1470: tmp35 += np.transpose(tmp28, (0, 1, 3, 2))
    .add 119 (.tr 93 [0, 1, 3, 2]) 1 1,
    -- 1471: del tmp28
    .del 93,
    -- 1472: tmp35 += np.transpose(tmp30, (0, 1, 3, 2)) * -1
    .add 119 (.tr 95 [0, 1, 3, 2]) (-1) 1,
    -- 1473: del tmp30
    .del 95,
    -- 1474: tmp35 += np.transpose(tmp31, (0, 1, 3, 2))
    .add 119 (.tr 94 [0, 1, 3, 2]) 1 1,
    -- 1475: del tmp31
    .del 94,
    -- 1476: tmp35 += np.transpose(tmp34, (1, 0, 3, 2))
    .add 119 (.tr 97 [1, 0, 3, 2]) 1 1,
    -- 1477: del tmp34
    .del 97,
    -- 1478: tmp68 = einsum(v.oovv, (0, 1, 2, 3), r2, (4, 5, 2, 3), (4, 5, 0, 1))
    .set 120 (.ein [(1, [0, 1, 2, 3]), (8, [4, 5, 2, 3])] [4, 5, 0, 1]) 1 1,
    -- 1479: tmp63 = np.copy(tmp60) * -1
    .set 121 (.cp 99) (-1) 1,
    -- 1480: del tmp60
    .del 99,
    -- 1481: tmp63 += np.transpose(tmp61, (1, 0, 2, 3))
    .add 121 (.tr 100 [1, 0, 2, 3]) 1 1,
    -- 1482: del tmp61
    .del 100,
    -- 1483: tmp63 += np.transpose(tmp62, (1, 0, 2, 3))
    .add 121 (.tr 98 [1, 0, 2, 3]) 1 1,
    -- 1484: del tmp62
    .del 98,
    -- 1485: tmp57 = np.copy(np.transpose(tmp54, (1, 0, 2, 3))) * -1
    .set 122 (.tr 102 [1, 0, 2, 3]) (-1) 1,
    -- 1486: del tmp54
    .del 102,
    -- 1487: tmp57 += tmp56 * -1
    .add 122 (.cp 101) (-1) 1,
    -- 1488: del tmp56
    .del 101,
    -- 1489: tmp49 = np.copy(tmp36)
    .set 123 (.cp 103) 1 1,
    -- 1490: del tmp36
    .del 103,
    -- 1491: tmp49 += tmp37
    .add 123 (.cp 107) 1 1,
    -- 1492: del tmp37
    .del 107,
    -- 1493: tmp49 += tmp39 * -1
    .add 123 (.cp 104) (-1) 1,
    -- 1494: del tmp39
    .del 104,
    -- 1495: tmp49 += tmp41 * -1
    .add 123 (.cp 106) (-1) 1,
    -- 1496: del tmp41
    .del 106,
    -- 1497: tmp49 += np.transpose(tmp46, (0, 1, 3, 2))
    .add 123 (.tr 108 [0, 1, 3, 2]) 1 1,
    -- 1498: del tmp46
    .del 108,
    -- 1499: tmp49 += tmp48
    .add 123 (.cp 105) 1 1,
    -- 1500: del tmp48
    .del 105,
    -- 1501: tmp3 = np.copy(ints.tmp5)
    .set 124 (.cp 4) 1 1,
    -- 1502: tmp3 += np.transpose(v.ovov, (0, 2, 3, 1)) * -1
    .add 124 (.tr 26 [0, 2, 3, 1]) (-1) 1,
    -- 1503: tmp8 = np.copy(np.transpose(tmp6, (1, 0))) * 0.5
    .set 125 (.tr 63 [1, 0]) 1 2,
    -- 1504: del tmp6
    .del 63,
    -- 1505: tmp8 += einsum(tmp1, (0, 1, 2, 3), r1, (1, 3), (2, 0))
    .add 125 (.ein [(109, [0, 1, 2, 3]), (0, [1, 3])] [2, 0]) 1 1,
    -- 1506: tmp8 += tmp7
    .add 125 (.cp 61) 1 1,
    -- 1507: del tmp7
    .del 61,
    -- 1508: tmp4 = np.copy(np.transpose(ints.tmp10, (1, 0))) * 0.5
    .set 126 (.tr 24 [1, 0]) 1 2,
    -- 1509: tmp4 += np.transpose(ints.tmp4, (1, 0))
    .add 126 (.tr 25 [1, 0]) 1 1,
    -- 1510: tmp4 += f.vv * -1
    .add 126 (.cp 33) (-1) 1,
    -- 1511: r2new = einsum(v.vvvv, (0, 1, 2, 3), r2, (4, 5, 2, 3), (4, 5, 0, 1)) * 0.5
    .set 127 (.ein [(54, [0, 1, 2, 3]), (8, [4, 5, 2, 3])] [4, 5, 0, 1]) 1 2,
    -- 1512: r2new += tmp12
    .add 127 (.cp 110) 1 1,
    -- 1513: r2new += np.transpose(tmp12, (0, 1, 3, 2)) * -1
    .add 127 (.tr 110 [0, 1, 3, 2]) (-1) 1,
    -- 1514: del tmp12
    .del 110,
    -- 1515: r2new += tmp23 * -1
    .add 127 (.cp 118) (-1) 1,
    -- 1516: r2new += np.transpose(tmp23, (0, 1, 3, 2))
    .add 127 (.tr 118 [0, 1, 3, 2]) 1 1,
    -- 1517: del tmp23
    .del 118,
    -- 1518: r2new += tmp35
    .add 127 (.cp 119) 1 1,
    -- 1519: r2new += np.transpose(tmp35, (1, 0, 2, 3)) * -1
    .add 127 (.tr 119 [1, 0, 2, 3]) (-1) 1,
    -- 1520: del tmp35
    .del 119,
    -- 1521: r2new += tmp49 * -1
    .add 127 (.cp 123) (-1) 1,
    -- 1522: r2new += np.transpose(tmp49, (0, 1, 3, 2))
    .add 127 (.tr 123 [0, 1, 3, 2]) 1 1,
    -- 1523: r2new += np.transpose(tmp49, (1, 0, 2, 3))
    .add 127 (.tr 123 [1, 0, 2, 3]) 1 1,
    -- 1524: r2new += np.transpose(tmp49, (1, 0, 3, 2)) * -1
    .add 127 (.tr 123 [1, 0, 3, 2]) (-1) 1,
    -- 1525: del tmp49
    .del 123,
    -- 1526: r2new += tmp52 * -1
    .add 127 (.cp 117) (-1) 1,
    -- 1527: r2new += np.transpose(tmp52, (1, 0, 2, 3))
    .add 127 (.tr 117 [1, 0, 2, 3]) 1 1,
    -- 1528: del tmp52
    .del 117,
    -- 1529: r2new += np.transpose(tmp57, (1, 0, 2, 3))
    .add 127 (.tr 122 [1, 0, 2, 3]) 1 1,
    -- 1530: r2new += np.transpose(tmp57, (1, 0, 3, 2)) * -1
    .add 127 (.tr 122 [1, 0, 3, 2]) (-1) 1,
    -- 1531: del tmp57
    .del 122,
    -- 1532: r2new += tmp59
    .add 127 (.cp 115) 1 1,
    -- 1533: r2new += np.transpose(tmp59, (0, 1, 3, 2)) * -1
    .add 127 (.tr 115 [0, 1, 3, 2]) (-1) 1,
    -- 1534: r2new += np.transpose(tmp59, (1, 0, 2, 3)) * -1
    .add 127 (.tr 115 [1, 0, 2, 3]) (-1) 1,
    -- 1535: r2new += np.transpose(tmp59, (1, 0, 3, 2))
    .add 127 (.tr 115 [1, 0, 3, 2]) 1 1,
    -- 1536: del tmp59
    .del 115,
    -- 1537: r2new += np.transpose(tmp63, (1, 0, 2, 3)) * -1
    .add 127 (.tr 121 [1, 0, 2, 3]) (-1) 1,
    -- 1538: r2new += np.transpose(tmp63, (1, 0, 3, 2))
    .add 127 (.tr 121 [1, 0, 3, 2]) 1 1,
    -- 1539: del tmp63
    .del 121,
    -- 1540: r2new += np.transpose(tmp66, (0, 1, 3, 2))
    .add 127 (.tr 114 [0, 1, 3, 2]) 1 1,
    -- 1541: r2new += np.transpose(tmp66, (1, 0, 3, 2)) * -1
    .add 127 (.tr 114 [1, 0, 3, 2]) (-1) 1,
    -- 1542: del tmp66
    .del 114,
    -- 1543: r2new += einsum(r2, (0, 1, 2, 3), tmp67, (4, 5, 0, 1), (4, 5, 2, 3)) * 0.5
    .add 127 (.ein [(8, [0, 1, 2, 3]), (113, [4, 5, 0, 1])] [4, 5, 2, 3]) 1 2,
    -- 1544: del tmp67
    .del 113,
    -- 1545: r2new += einsum(tmp69, (0, 1, 2, 3), tmp68, (4, 5, 0, 1), (5, 4, 3, 2)) * 0.25
    .add 127 (.ein [(112, [0, 1, 2, 3]), (120, [4, 5, 0, 1])] [5, 4, 3, 2]) 1 4,
    -- 1546: del tmp69, tmp68
    .del 112,
    .del 120,
    -- 1547: r2new += einsum(r1, (0, 1), tmp70, (2, 3), (2, 0, 3, 1)) * -1
    .add 127 (.ein [(0, [0, 1]), (111, [2, 3])] [2, 0, 3, 1]) (-1) 1,
    -- 1548: r2new += einsum(r1, (0, 1), tmp70, (2, 3), (0, 2, 1, 3)) * -1
    .add 127 (.ein [(0, [0, 1]), (111, [2, 3])] [0, 2, 1, 3]) (-1) 1,
    -- 1549: r2new += einsum(r1, (0, 1), tmp71, (2, 3), (0, 2, 3, 1)) * 0.5
    .add 127 (.ein [(0, [0, 1]), (116, [2, 3])] [0, 2, 3, 1]) 1 2,
    -- 1550: del tmp71
    .del 116,
    -- 1551: r2new += einsum(tmp70, (0, 1), r1, (2, 3), (0, 2, 3, 1))
    .add 127 (.ein [(111, [0, 1]), (0, [2, 3])] [0, 2, 3, 1]) 1 1,
    -- 1552: del tmp70
    .del 111,
    -- 1553: r1new = einsum(v.ovvv, (0, 1, 2, 3), r2, (4, 0, 2, 3), (4, 1)) * -0.5
    .set 128 (.ein [(7, [0, 1, 2, 3]), (8, [4, 0, 2, 3])] [4, 1]) (-1) 2,
    -- 1554: r1new += einsum(tmp0, (0, 1), t2, (2, 0, 3, 1), (2, 3))
    .add 128 (.ein [(55, [0, 1]), (6, [2, 0, 3, 1])] [2, 3]) 1 1,
    -- 1555: del tmp0
    .del 55,
    -- 1556: r1new += einsum(tmp1, (0, 1, 2, 3), r2, (1, 2, 4, 3), (0, 4)) * 0.5
    .add 128 (.ein [(109, [0, 1, 2, 3]), (8, [1, 2, 4, 3])] [0, 4]) 1 2,
    -- 1557: del tmp1
    .del 109,
    -- 1558: r1new += einsum(tmp2, (0, 1), r2, (2, 0, 3, 1), (2, 3))
    .add 128 (.ein [(56, [0, 1]), (8, [2, 0, 3, 1])] [2, 3]) 1 1,
    -- 1559: del tmp2
    .del 56,
    -- 1560: r1new += einsum(r1, (0, 1), tmp3, (2, 0, 3, 1), (2, 3))
    .add 128 (.ein [(0, [0, 1]), (124, [2, 0, 3, 1])] [2, 3]) 1 1,
    -- 1561: del tmp3
    .del 124,
    -- 1562: r1new += einsum(tmp4, (0, 1), r1, (2, 0), (2, 1)) * -1
    .add 128 (.ein [(126, [0, 1]), (0, [2, 0])] [2, 1]) (-1) 1,
    -- 1563: del tmp4
    .del 126,
    -- 1564: r1new += einsum(r1, (0, 1), tmp5, (0, 2), (2, 1)) * -1
    .add 128 (.ein [(0, [0, 1]), (74, [0, 2])] [2, 1]) (-1) 1,
    -- 1565: del tmp5
    .del 74,
    -- 1566: r1new += einsum(tmp8, (0, 1), t1, (0, 2), (1, 2)) * -1
    .add 128 (.ein [(125, [0, 1]), (13, [0, 2])] [1, 2]) (-1) 1,
    -- 1567: del tmp8
    .del 125
  ]
  ret := [(chars! "r1new", 128), (chars! "r2new", 127)]

/-- codegen/GCCSD.py:1997-2099 `hbar_lmatvec_ee_intermediates`. -/
def hbar_lmatvec_ee_intermediates : GenFun where
  args := [chars! "v.oovv", chars! "t1", chars! "v.ovvv", chars! "v.ooov", chars! "t2", chars! "f.ov", chars! "v.ovoo", chars! "v.vvvv", chars! "v.ovov", chars! "v.oooo", chars! "f.vv", chars! "f.oo"]
  body := [
    -- 2057: tmp29 = einsum(v.oovv, (0, 1, 2, 3), t1, (4, 3), (4, 0, 1, 2))
    .set 12 (.ein [(0, [0, 1, 2, 3]), (1, [4, 3])] [4, 0, 1, 2]) 1 1,
    -- 2058: tmp26 = einsum(t1, (0, 1), v.oovv, (2, 0, 3, 1), (2, 3))
    .set 13 (.ein [(1, [0, 1]), (0, [2, 0, 3, 1])] [2, 3]) 1 1,
    -- 2059: tmp46 = einsum(tmp29, (0, 1, 2, 3), t1, (4, 3), (4, 0, 1, 2))
    .set 14 (.ein [(12, [0, 1, 2, 3]), (1, [4, 3])] [4, 0, 1, 2]) 1 1,
    -- 2060: tmp38 = einsum(tmp26, (0, 1), t1, (2, 1), (2, 0))
    .set 15 (.ein [(13, [0, 1]), (1, [2, 1])] [2, 0]) 1 1,
    -- 2061: tmp10 = einsum(v.ovvv, (0, 1, 2, 3), t1, (4, 3), (4, 0, 1, 2))
    .set 16 (.ein [(2, [0, 1, 2, 3]), (1, [4, 3])] [4, 0, 1, 2]) 1 1,
    -- 2062: tmp9 = einsum(v.ovvv, (0, 1, 2, 3), t1, (0, 3), (1, 2))
    .set 17 (.ein [(2, [0, 1, 2, 3]), (1, [0, 3])] [1, 2]) 1 1,
    -- 2063: tmp40 = einsum(v.ooov, (0, 1, 2, 3), t1, (4, 3), (4, 0, 1, 2))
    .set 18 (.ein [(3, [0, 1, 2, 3]), (1, [4, 3])] [4, 0, 1, 2]) 1 1,
    -- 2064: tmp8 = einsum(t1, (0, 1), v.ooov, (2, 0, 3, 1), (2, 3))
    .set 19 (.ein [(1, [0, 1]), (3, [2, 0, 3, 1])] [2, 3]) 1 1,
    -- 2065: tmp34 = einsum(v.oovv, (0, 1, 2, 3), t2, (4, 5, 2, 3), (4, 5, 0, 1))
    .set 20 (.ein [(0, [0, 1, 2, 3]), (4, [4, 5, 2, 3])] [4, 5, 0, 1]) 1 1,
    -- 2066: tmp16 = einsum(v.oovv, (0, 1, 2, 3), t2, (4, 1, 2, 3), (4, 0))
    .set 21 (.ein [(0, [0, 1, 2, 3]), (4, [4, 1, 2, 3])] [4, 0]) 1 1,
    -- 2067: tmp0 = einsum(f.ov, (0, 1), t1, (2, 1), (0, 2))
    .set 22 (.ein [(5, [0, 1]), (1, [2, 1])] [0, 2]) 1 1,
    -- 2068: tmp47 = einsum(t1, (0, 1), tmp46, (2, 3, 4, 0), (2, 3, 4, 1))
    .set 23 (.ein [(1, [0, 1]), (14, [2, 3, 4, 0])] [2, 3, 4, 1]) 1 1,
    -- 2069: tmp45 = einsum(tmp38, (0, 1), t1, (1, 2), (0, 2))
    .set 24 (.ein [(15, [0, 1]), (1, [1, 2])] [0, 2]) 1 1,
    -- 2070: tmp44 = einsum(tmp10, (0, 1, 2, 3), t1, (4, 3), (4, 0, 1, 2))
    .set 25 (.ein [(16, [0, 1, 2, 3]), (1, [4, 3])] [4, 0, 1, 2]) 1 1,
    -- 2071: tmp43 = einsum(tmp9, (0, 1), t1, (2, 1), (2, 0))
    .set 26 (.ein [(17, [0, 1]), (1, [2, 1])] [2, 0]) 1 1,
    -- 2072: tmp41 = einsum(t1, (0, 1), tmp40, (2, 3, 0, 4), (2, 3, 4, 1))
    .set 27 (.ein [(1, [0, 1]), (18, [2, 3, 0, 4])] [2, 3, 4, 1]) 1 1,
    -- 2073: tmp39 = einsum(tmp8, (0, 1), t1, (0, 2), (1, 2))
    .set 28 (.ein [(19, [0, 1]), (1, [0, 2])] [1, 2]) 1 1,
    -- 2074: tmp36 = einsum(v.oovv, (0, 1, 2, 3), t2, (4, 1, 5, 3), (4, 0, 5, 2))
    .set 29 (.ein [(0, [0, 1, 2, 3]), (4, [4, 1, 5, 3])] [4, 0, 5, 2]) 1 1,
    -- 2075: tmp35 = einsum(t1, (0, 1), tmp34, (2, 3, 4, 0), (2, 3, 4, 1))
    .set 30 (.ein [(1, [0, 1]), (20, [2, 3, 4, 0])] [2, 3, 4, 1]) 1 1,
    -- 2076: tmp33 = einsum(t1, (0, 1), tmp16, (2, 0), (2, 1))
    .set 31 (.ein [(1, [0, 1]), (21, [2, 0])] [2, 1]) 1 1,
    -- 2077: tmp32 = einsum(tmp29, (0, 1, 2, 3), t2, (2, 1, 4, 5), (0, 4, 5, 3)) * -1
    .set 32 (.ein [(12, [0, 1, 2, 3]), (4, [2, 1, 4, 5])] [0, 4, 5, 3]) (-1) 1,
    -- 2078: tmp31 = einsum(t2, (0, 1, 2, 3), tmp29, (4, 5, 1, 3), (4, 0, 5, 2)) * -1
    .set 33 (.ein [(4, [0, 1, 2, 3]), (12, [4, 5, 1, 3])] [4, 0, 5, 2]) (-1) 1,
    -- 2079: tmp30 = einsum(tmp29, (0, 1, 2, 3), t2, (2, 1, 4, 3), (0, 4))
    .set 34 (.ein [(12, [0, 1, 2, 3]), (4, [2, 1, 4, 3])] [0, 4]) 1 1,
    -- 2080: tmp28 = einsum(tmp26, (0, 1), t2, (2, 3, 4, 1), (2, 3, 0, 4)) * -1
    .set 35 (.ein [(13, [0, 1]), (4, [2, 3, 4, 1])] [2, 3, 0, 4]) (-1) 1,
    -- 2081: tmp27 = einsum(tmp26, (0, 1), t2, (2, 0, 3, 1), (2, 3))
    .set 36 (.ein [(13, [0, 1]), (4, [2, 0, 3, 1])] [2, 3]) 1 1,
    -- 2082: tmp24 = einsum(t2, (0, 1, 2, 3), v.ovvv, (1, 4, 5, 3), (0, 2, 4, 5))
    .set 37 (.ein [(4, [0, 1, 2, 3]), (2, [1, 4, 5, 3])] [0, 2, 4, 5]) 1 1,
    -- 2083: tmp23 = einsum(v.ovvv, (0, 1, 2, 3), t2, (4, 5, 2, 3), (4, 5, 0, 1))
    .set 38 (.ein [(2, [0, 1, 2, 3]), (4, [4, 5, 2, 3])] [4, 5, 0, 1]) 1 1,
    -- 2084: tmp22 = einsum(v.ovvv, (0, 1, 2, 3), t2, (4, 0, 2, 3), (4, 1))
    .set 39 (.ein [(2, [0, 1, 2, 3]), (4, [4, 0, 2, 3])] [4, 1]) 1 1,
    -- 2085: tmp21 = einsum(t2, (0, 1, 2, 3), v.ovoo, (4, 5, 0, 1), (4, 2, 3, 5))
    .set 40 (.ein [(4, [0, 1, 2, 3]), (6, [4, 5, 0, 1])] [4, 2, 3, 5]) 1 1,
    -- 2086: tmp20 = einsum(t2, (0, 1, 2, 3), v.ooov, (4, 1, 5, 3), (0, 4, 5, 2))
    .set 41 (.ein [(4, [0, 1, 2, 3]), (3, [4, 1, 5, 3])] [0, 4, 5, 2]) 1 1,
    -- 2087: tmp19 = einsum(t2, (0, 1, 2, 3), v.ovoo, (4, 3, 0, 1), (4, 2))
    .set 42 (.ein [(4, [0, 1, 2, 3]), (6, [4, 3, 0, 1])] [4, 2]) 1 1,
    -- 2088: tmp17 = einsum(v.oovv, (0, 1, 2, 3), t2, (0, 1, 4, 3), (4, 2))
    .set 43 (.ein [(0, [0, 1, 2, 3]), (4, [0, 1, 4, 3])] [4, 2]) 1 1,
    -- 2089: tmp15 = einsum(v.vvvv, (0, 1, 2, 3), t1, (4, 3), (4, 0, 1, 2))
    .set 44 (.ein [(7, [0, 1, 2, 3]), (1, [4, 3])] [4, 0, 1, 2]) 1 1,
    -- 2090: tmp13 = einsum(v.ovov, (0, 1, 2, 3), t1, (4, 3), (4, 0, 2, 1))
    .set 45 (.ein [(8, [0, 1, 2, 3]), (1, [4, 3])] [4, 0, 2, 1]) 1 1,
    -- 2091: tmp12 = einsum(t1, (0, 1), v.ovov, (2, 1, 0, 3), (2, 3))
    .set 46 (.ein [(1, [0, 1]), (8, [2, 1, 0, 3])] [2, 3]) 1 1,
    -- 2092: tmp11 = einsum(t1, (0, 1), v.oooo, (2, 3, 4, 0), (2, 3, 4, 1))
    .set 47 (.ein [(1, [0, 1]), (9, [2, 3, 4, 0])] [2, 3, 4, 1]) 1 1,
    -- 2093: tmp7 = einsum(tmp0, (0, 1), t1, (0, 2), (1, 2))
    .set 48 (.ein [(22, [0, 1]), (1, [0, 2])] [1, 2]) 1 1,
    -- 2094: tmp5 = einsum(t2, (0, 1, 2, 3), f.ov, (4, 3), (4, 0, 1, 2))
    .set 49 (.ein [(4, [0, 1, 2, 3]), (5, [4, 3])] [4, 0, 1, 2]) 1 1,
    -- 2095: tmp4 = einsum(f.ov, (0, 1), t2, (2, 0, 3, 1), (2, 3))
    .set 50 (.ein [(5, [0, 1]), (4, [2, 0, 3, 1])] [2, 3]) 1 1,
    -- 2096: tmp3 = einsum(t1, (0, 1), f.vv, (2, 1), (0, 2))
    .set 51 (.ein [(1, [0, 1]), (10, [2, 1])] [0, 2]) 1 1,
    -- 2097: tmp2 = einsum(t1, (0, 1), f.oo, (2, 0), (2, 1))
    .set 52 (.ein [(1, [0, 1]), (11, [2, 0])] [2, 1]) 1 1
  ]
  ret := [(chars! "tmp0", 22), (chars! "tmp10", 16), (chars! "tmp11", 47), (chars! "tmp12", 46), (chars! "tmp13", 45), (chars! "tmp15", 44), (chars! "tmp16", 21), (chars! "tmp17", 43), (chars! "tmp19", 42), (chars! "tmp2", 52), (chars! "tmp20", 41), (chars! "tmp21", 40), (chars! "tmp22", 39), (chars! "tmp23", 38), (chars! "tmp24", 37), (chars! "tmp26", 13), (chars! "tmp27", 36), (chars! "tmp28", 35), (chars! "tmp29", 12), (chars! "tmp3", 51), (chars! "tmp30", 34), (chars! "tmp31", 33), (chars! "tmp32", 32), (chars! "tmp33", 31), (chars! "tmp34", 20), (chars! "tmp35", 30), (chars! "tmp36", 29), (chars! "tmp38", 15), (chars! "tmp39", 28), (chars! "tmp4", 50), (chars! "tmp40", 18), (chars! "tmp41", 27), (chars! "tmp43", 26), (chars! "tmp44", 25), (chars! "tmp45", 24), (chars! "tmp46", 14), (chars! "tmp47", 23), (chars! "tmp5", 49), (chars! "tmp7", 48), (chars! "tmp8", 19), (chars! "tmp9", 17)]

/-- codegen/GCCSD.py:2101-2288 `hbar_lmatvec_ee`. -/
def hbar_lmatvec_ee : GenFun where
  args := [chars! "r1", chars! "t1", chars! "t2", chars! "r2", chars! "f.oo", chars! "ints.tmp0", chars! "ints.tmp16", chars! "ints.tmp38", chars! "ints.tmp8", chars! "f.ov", chars! "ints.tmp26", chars! "ints.tmp10", chars! "ints.tmp36", chars! "f.vv", chars! "v.ooov", chars! "ints.tmp29", chars! "v.oovv", chars! "v.ovov", chars! "ints.tmp17", chars! "ints.tmp9", chars! "ints.tmp34", chars! "ints.tmp46", chars! "v.oooo", chars! "ints.tmp40", chars! "v.ovvv", chars! "ints.tmp15", chars! "ints.tmp24", chars! "ints.tmp32", chars! "ints.tmp21", chars! "ints.tmp12", chars! "ints.tmp19", chars! "ints.tmp22", chars! "ints.tmp2", chars! "ints.tmp30", chars! "ints.tmp33", chars! "ints.tmp39", chars! "ints.tmp43", chars! "ints.tmp45", chars! "ints.tmp7", chars! "ints.tmp27", chars! "ints.tmp3", chars! "ints.tmp4", chars! "v.ovoo", chars! "ints.tmp11", chars! "ints.tmp13", chars! "ints.tmp20", chars! "ints.tmp35", chars! "ints.tmp47", chars! "ints.tmp5", chars! "ints.tmp23", chars! "ints.tmp28", chars! "ints.tmp31", chars! "ints.tmp41", chars! "ints.tmp44", chars! "v.vvvv"]
  body := [
    -- 2129: tmp1 = einsum(r1, (0, 1), t1, (2, 1), (0, 2))
    .set 55 (.ein [(0, [0, 1]), (1, [2, 1])] [0, 2]) 1 1,
    -- 2130: tmp0 = einsum(t2, (0, 1, 2, 3), r2, (4, 1, 2, 3), (4, 0))
    .set 56 (.ein [(2, [0, 1, 2, 3]), (3, [4, 1, 2, 3])] [4, 0]) 1 1,
    -- 2131: tmp6 = einsum(t1, (0, 1), r2, (2, 3, 4, 1), (2, 3, 0, 4))
    .set 57 (.ein [(1, [0, 1]), (3, [2, 3, 4, 1])] [2, 3, 0, 4]) 1 1,
    -- 2132: tmp12 = np.copy(tmp1) * 2
    .set 58 (.cp 55) 2 1,
    -- 2133: tmp12 += tmp0
    .add 58 (.cp 56) 1 1,
    -- 2134: tmp14 = np.copy(f.oo)
    .set 59 (.cp 4) 1 1,
    -- 2135: tmp14 += np.transpose(ints.tmp0, (1, 0))
    .add 59 (.tr 5 [1, 0]) 1 1,
    -- 2136: tmp14 += ints.tmp16 * 0.5
    .add 59 (.cp 6) 1 2,
    -- 2137: tmp14 += ints.tmp38
    .add 59 (.cp 7) 1 1,
    -- 2138: tmp14 += np.transpose(ints.tmp8, (1, 0))
    .add 59 (.tr 8 [1, 0]) 1 1,
    -- 2139: tmp15 = np.copy(f.ov)
    .set 60 (.cp 9) 1 1,
    -- 2140: tmp15 += ints.tmp26
    .add 60 (.cp 10) 1 1,
    -- 2141: tmp2 = einsum(r2, (0, 1, 2, 3), t2, (0, 1, 4, 3), (2, 4))
    .set 61 (.ein [(3, [0, 1, 2, 3]), (2, [0, 1, 4, 3])] [2, 4]) 1 1,
    -- 2142: tmp19 = np.copy(ints.tmp10)
    .set 62 (.cp 11) 1 1,
    -- 2143: tmp19 += ints.tmp36
    .add 62 (.cp 12) 1 1,
    -- 2144: tmp7 = einsum(tmp6, (0, 1, 2, 3), t1, (4, 3), (0, 1, 4, 2))
    .set 63 (.ein [(57, [0, 1, 2, 3]), (1, [4, 3])] [0, 1, 4, 2]) 1 1,
    -- 2145: tmp30 = einsum(f.vv, (0, 1), r2, (2, 3, 4, 1), (2, 3, 0, 4))
    .set 64 (.ein [(13, [0, 1]), (3, [2, 3, 4, 1])] [2, 3, 0, 4]) 1 1,
    -- 2146: tmp29 = einsum(v.ooov, (0, 1, 2, 3), r1, (2, 4), (0, 1, 4, 3))
    .set 65 (.ein [(14, [0, 1, 2, 3]), (0, [2, 4])] [0, 1, 4, 3]) 1 1,
    -- 2147: tmp28 = einsum(ints.tmp29, (0, 1, 2, 3), r1, (0, 4), (1, 2, 3, 4))
    .set 66 (.ein [(15, [0, 1, 2, 3]), (0, [0, 4])] [1, 2, 3, 4]) 1 1,
    -- 2148: tmp26 = einsum(v.oovv, (0, 1, 2, 3), tmp12, (4, 1), (4, 0, 2, 3)) * -0.5
    .set 67 (.ein [(16, [0, 1, 2, 3]), (58, [4, 1])] [4, 0, 2, 3]) (-1) 2,
    -- 2149: tmp25 = einsum(tmp14, (0, 1), r2, (2, 0, 3, 4), (1, 2, 3, 4)) * -1
    .set 68 (.ein [(59, [0, 1]), (3, [2, 0, 3, 4])] [1, 2, 3, 4]) (-1) 1,
    -- 2150: tmp23 = einsum(tmp6, (0, 1, 2, 3), tmp15, (2, 4), (0, 1, 4, 3))
    .set 69 (.ein [(57, [0, 1, 2, 3]), (60, [2, 4])] [0, 1, 4, 3]) 1 1,
    -- 2151: tmp22 = einsum(v.oovv, (0, 1, 2, 3), tmp2, (4, 3), (0, 1, 4, 2)) * -1
    .set 70 (.ein [(16, [0, 1, 2, 3]), (61, [4, 3])] [0, 1, 4, 2]) (-1) 1,
    -- 2152: tmp20 = einsum(r2, (0, 1, 2, 3), tmp19, (1, 4, 3, 5), (4, 0, 5, 2))
    .set 71 (.ein [(3, [0, 1, 2, 3]), (62, [1, 4, 3, 5])] [4, 0, 5, 2]) 1 1,
    -- 2153: del tmp19
    .del 62,
    -- 2154: tmp18 = einsum(ints.tmp29, (0, 1, 2, 3), tmp6, (4, 0, 2, 5), (1, 4, 3, 5))
    .set 72 (.ein [(15, [0, 1, 2, 3]), (57, [4, 0, 2, 5])] [1, 4, 3, 5]) 1 1,
    -- 2155: tmp17 = einsum(tmp6, (0, 1, 2, 3), v.ooov, (4, 2, 1, 5), (0, 4, 3, 5))
    .set 73 (.ein [(57, [0, 1, 2, 3]), (14, [4, 2, 1, 5])] [0, 4, 3, 5]) 1 1,
    -- 2156: tmp16 = einsum(r2, (0, 1, 2, 3), v.ovov, (4, 3, 1, 5), (0, 4, 2, 5))
    .set 74 (.ein [(3, [0, 1, 2, 3]), (17, [4, 3, 1, 5])] [0, 4, 2, 5]) 1 1,
    -- 2157: tmp33 = np.copy(ints.tmp17) * 0.5
    .set 75 (.cp 18) 1 2,
    -- 2158: tmp33 += ints.tmp9
    .add 75 (.cp 19) 1 1,
    -- 2159: tmp36 = einsum(t2, (0, 1, 2, 3), r2, (4, 5, 2, 3), (4, 5, 0, 1)) * -0.5
    .set 76 (.ein [(2, [0, 1, 2, 3]), (3, [4, 5, 2, 3])] [4, 5, 0, 1]) (-1) 2,
    -- 2160: tmp36 += np.transpose(tmp7, (0, 1, 3, 2))
    .add 76 (.tr 63 [0, 1, 3, 2]) 1 1,
    -- 2161: tmp31 = np.copy(tmp28) * -1
    .set 77 (.cp 66) (-1) 1,
    -- 2162: del tmp28
    .del 66,
    -- 2163: tmp31 += np.transpose(tmp29, (1, 0, 2, 3))
    .add 77 (.tr 65 [1, 0, 2, 3]) 1 1,
    -- 2164: del tmp29
    .del 65,
    -- 2165: tmp31 += np.transpose(tmp30, (1, 0, 2, 3))
    .add 77 (.tr 64 [1, 0, 2, 3]) 1 1,
    -- 2166: del tmp30
    .del 64,
    -- 2167: tmp27 = np.copy(np.transpose(tmp25, (0, 1, 3, 2)))
    .set 78 (.tr 68 [0, 1, 3, 2]) 1 1,
    -- 2168: del tmp25
    .del 68,
    -- 2169: tmp27 += np.transpose(tmp26, (0, 1, 3, 2))
    .add 78 (.tr 67 [0, 1, 3, 2]) 1 1,
    -- 2170: del tmp26
    .del 67,
    -- 2171: tmp24 = np.copy(tmp22) * -0.5
    .set 79 (.cp 70) (-1) 2,
    -- 2172: del tmp22
    .del 70,
    -- 2173: tmp24 += np.transpose(tmp23, (1, 0, 2, 3)) * -1
    .add 79 (.tr 69 [1, 0, 2, 3]) (-1) 1,
    -- 2174: del tmp23
    .del 69,
    -- 2175: tmp21 = np.copy(tmp16) * -1
    .set 80 (.cp 74) (-1) 1,
    -- 2176: del tmp16
    .del 74,
    -- 2177: tmp21 += tmp17
    .add 80 (.cp 73) 1 1,
    -- 2178: del tmp17
    .del 73,
    -- 2179: tmp21 += tmp18 * -1
    .add 80 (.cp 72) (-1) 1,
    -- 2180: del tmp18
    .del 72,
    -- 2181: tmp21 += tmp20
    .add 80 (.cp 71) 1 1,
    -- 2182: del tmp20
    .del 71,
    -- 2183: tmp21 += einsum(tmp15, (0, 1), r1, (2, 3), (0, 2, 1, 3))
    .add 80 (.ein [(60, [0, 1]), (0, [2, 3])] [0, 2, 1, 3]) 1 1,
    -- 2184: tmp35 = np.copy(ints.tmp34) * 0.25
    .set 81 (.cp 20) 1 4,
    -- 2185: tmp35 += ints.tmp46 * 0.5
    .add 81 (.cp 21) 1 2,
    -- 2186: tmp35 += v.oooo * 0.5
    .add 81 (.cp 22) 1 2,
    -- 2187: tmp35 += np.transpose(ints.tmp40, (0, 3, 1, 2)) * -1
    .add 81 (.tr 23 [0, 3, 1, 2]) (-1) 1,
    -- 2188: tmp34 = einsum(tmp33, (0, 1), r2, (2, 3, 4, 0), (2, 3, 1, 4)) * -1
    .set 82 (.ein [(75, [0, 1]), (3, [2, 3, 4, 0])] [2, 3, 1, 4]) (-1) 1,
    -- 2189: del tmp33
    .del 75,
    -- 2190: tmp32 = einsum(r1, (0, 1), v.ovvv, (2, 1, 3, 4), (0, 2, 3, 4))
    .set 83 (.ein [(0, [0, 1]), (24, [2, 1, 3, 4])] [0, 2, 3, 4]) 1 1,
    -- 2191: tmp3 = np.copy(ints.tmp15) * 0.5
    .set 84 (.cp 25) 1 2,
    -- 2192: tmp3 += ints.tmp24
    .add 84 (.cp 26) 1 1,
    -- 2193: tmp3 += ints.tmp32 * 0.25
    .add 84 (.cp 27) 1 4,
    -- 2194: tmp3 += ints.tmp21 * -0.25
    .add 84 (.cp 28) (-1) 4,
    -- 2195: tmp3 += np.transpose(v.ovvv, (0, 2, 3, 1)) * -0.5
    .add 84 (.tr 24 [0, 2, 3, 1]) (-1) 2,
    -- 2196: tmp13 = np.copy(ints.tmp17) * 0.5
    .set 85 (.cp 18) 1 2,
    -- 2197: tmp13 += ints.tmp9
    .add 85 (.cp 19) 1 1,
    -- 2198: tmp13 += f.vv * -1
    .add 85 (.cp 13) (-1) 1,
    -- 2199: tmp10 = einsum(r1, (0, 1), t2, (2, 0, 3, 1), (2, 3))
    .set 86 (.ein [(0, [0, 1]), (2, [2, 0, 3, 1])] [2, 3]) 1 1,
    -- 2200: tmp10 += einsum(t2, (0, 1, 2, 3), tmp6, (1, 0, 4, 3), (4, 2)) * -0.5
    .add 86 (.ein [(2, [0, 1, 2, 3]), (57, [1, 0, 4, 3])] [4, 2]) (-1) 2,
    -- 2201: tmp5 = np.copy(ints.tmp10)
    .set 87 (.cp 11) 1 1,
    -- 2202: tmp5 += ints.tmp36
    .add 87 (.cp 12) 1 1,
    -- 2203: tmp5 += np.transpose(v.ovov, (0, 2, 3, 1)) * -1
    .add 87 (.tr 17 [0, 2, 3, 1]) (-1) 1,
    -- 2204: tmp9 = np.copy(ints.tmp12)
    .set 88 (.cp 29) 1 1,
    -- 2205: tmp9 += ints.tmp19 * 0.5
    .add 88 (.cp 30) 1 2,
    -- 2206: tmp9 += ints.tmp22 * 0.5
    .add 88 (.cp 31) 1 2,
    -- 2207: tmp9 += ints.tmp2
    .add 88 (.cp 32) 1 1,
    -- 2208: tmp9 += ints.tmp30 * 0.5
    .add 88 (.cp 33) 1 2,
    -- 2209: tmp9 += ints.tmp33 * 0.5
    .add 88 (.cp 34) 1 2,
    -- 2210: tmp9 += ints.tmp39
    .add 88 (.cp 35) 1 1,
    -- 2211: tmp9 += ints.tmp43
    .add 88 (.cp 36) 1 1,
    -- 2212: tmp9 += ints.tmp45
    .add 88 (.cp 37) 1 1,
    -- 2213: tmp9 += ints.tmp7
    .add 88 (.cp 38) 1 1,
    -- 2214: tmp9 += f.ov * -1
    .add 88 (.cp 9) (-1) 1,
    -- 2215: tmp9 += ints.tmp27 * -1
    .add 88 (.cp 39) (-1) 1,
    -- 2216: tmp9 += ints.tmp3 * -1
    .add 88 (.cp 40) (-1) 1,
    -- 2217: tmp9 += ints.tmp4 * -1
    .add 88 (.cp 41) (-1) 1,
    -- 2218: tmp8 = np.copy(ints.tmp29)
    .set 89 (.cp 15) 1 1,
    -- 2219: tmp8 += np.transpose(v.ovoo, (0, 2, 3, 1)) * -1
    .add 89 (.tr 42 [0, 2, 3, 1]) (-1) 1,
    -- 2220: tmp4 = np.copy(ints.tmp11) * 0.5
    .set 90 (.cp 43) 1 2,
    -- 2221: tmp4 += np.transpose(ints.tmp13, (0, 2, 1, 3))
    .add 90 (.tr 44 [0, 2, 1, 3]) 1 1,
    -- 2222: tmp4 += np.transpose(ints.tmp20, (0, 2, 1, 3))
    .add 90 (.tr 45 [0, 2, 1, 3]) 1 1,
    -- 2223: tmp4 += ints.tmp35 * 0.25
    .add 90 (.cp 46) 1 4,
    -- 2224: tmp4 += ints.tmp47 * 0.5
    .add 90 (.cp 47) 1 2,
    -- 2225: tmp4 += np.transpose(ints.tmp5, (1, 2, 0, 3)) * 0.5
    .add 90 (.tr 48 [1, 2, 0, 3]) 1 2,
    -- 2226: tmp4 += ints.tmp23 * -0.25
    .add 90 (.cp 49) (-1) 4,
    -- 2227: tmp4 += ints.tmp28 * -0.5
    .add 90 (.cp 50) (-1) 2,
    -- 2228: tmp4 += ints.tmp31 * -1
    .add 90 (.cp 51) (-1) 1,
    -- 2229: tmp4 += np.transpose(ints.tmp41, (0, 2, 1, 3)) * -1
    .add 90 (.tr 52 [0, 2, 1, 3]) (-1) 1,
    -- 2230: tmp4 += ints.tmp44 * -0.5
    .add 90 (.cp 53) (-1) 2,
    -- 2231: tmp4 += v.ooov * -0.5
    .add 90 (.cp 14) (-1) 2,
    -- 2232: tmp11 = np.copy(ints.tmp10)
    .set 91 (.cp 11) 1 1,
    -- 2233: tmp11 += np.transpose(v.ovov, (0, 2, 3, 1)) * -1
    .add 91 (.tr 17 [0, 2, 3, 1]) (-1) 1,
    -- 2234: r2new = einsum(v.ovvv, (0, 1, 2, 3), tmp6, (4, 5, 0, 1), (5, 4, 2, 3)) * -1
    .set 92 (.ein [(24, [0, 1, 2, 3]), (57, [4, 5, 0, 1])] [5, 4, 2, 3]) (-1) 1,
    -- 2235: r2new += einsum(v.vvvv, (0, 1, 2, 3), r2, (4, 5, 2, 3), (4, 5, 0, 1)) * 0.5
    .add 92 (.ein [(54, [0, 1, 2, 3]), (3, [4, 5, 2, 3])] [4, 5, 0, 1]) 1 2,
    -- 2236: r2new += tmp21
    .add 92 (.cp 80) 1 1,
    -- 2237: r2new += np.transpose(tmp21, (0, 1, 3, 2)) * -1
    .add 92 (.tr 80 [0, 1, 3, 2]) (-1) 1,
    -- 2238: r2new += np.transpose(tmp21, (1, 0, 2, 3)) * -1
    .add 92 (.tr 80 [1, 0, 2, 3]) (-1) 1,
    -- 2239: r2new += np.transpose(tmp21, (1, 0, 3, 2))
    .add 92 (.tr 80 [1, 0, 3, 2]) 1 1,
    -- 2240: del tmp21
    .del 80,
    -- 2241: r2new += tmp24
    .add 92 (.cp 79) 1 1,
    -- 2242: r2new += np.transpose(tmp24, (0, 1, 3, 2)) * -1
    .add 92 (.tr 79 [0, 1, 3, 2]) (-1) 1,
    -- 2243: del tmp24
    .del 79,
    -- 2244: r2new += tmp27
    .add 92 (.cp 78) 1 1,
    -- 2245: r2new += np.transpose(tmp27, (1, 0, 2, 3)) * -1
    .add 92 (.tr 78 [1, 0, 2, 3]) (-1) 1,
    -- 2246: del tmp27
    .del 78,
    -- 2247: r2new += np.transpose(tmp31, (1, 0, 2, 3)) * -1
    .add 92 (.tr 77 [1, 0, 2, 3]) (-1) 1,
    -- 2248: r2new += np.transpose(tmp31, (1, 0, 3, 2))
    .add 92 (.tr 77 [1, 0, 3, 2]) 1 1,
    -- 2249: del tmp31
    .del 77,
    -- 2250: r2new += np.transpose(tmp32, (0, 1, 3, 2))
    .add 92 (.tr 83 [0, 1, 3, 2]) 1 1,
    -- 2251: r2new += np.transpose(tmp32, (1, 0, 3, 2)) * -1
    .add 92 (.tr 83 [1, 0, 3, 2]) (-1) 1,
    -- 2252: del tmp32
    .del 83,
    -- 2253: r2new += np.transpose(tmp34, (1, 0, 2, 3))
    .add 92 (.tr 82 [1, 0, 2, 3]) 1 1,
    -- 2254: r2new += np.transpose(tmp34, (1, 0, 3, 2)) * -1
    .add 92 (.tr 82 [1, 0, 3, 2]) (-1) 1,
    -- 2255: del tmp34
    .del 82,
    -- 2256: r2new += einsum(tmp35, (0, 1, 2, 3), r2, (0, 1, 4, 5), (2, 3, 4, 5))
    .add 92 (.ein [(81, [0, 1, 2, 3]), (3, [0, 1, 4, 5])] [2, 3, 4, 5]) 1 1,
    -- 2257: del tmp35
    .del 81,
    -- 2258: r2new += einsum(v.oovv, (0, 1, 2, 3), tmp36, (4, 5, 0, 1), (5, 4, 2, 3)) * 0.5
    .add 92 (.ein [(16, [0, 1, 2, 3]), (76, [4, 5, 0, 1])] [5, 4, 2, 3]) 1 2,
    -- 2259: del tmp36
    .del 76,
    -- 2260: r1new = einsum(ints.tmp29, (0, 1, 2, 3), tmp0, (0, 2), (1, 3)) * -0.5
    .set 93 (.ein [(15, [0, 1, 2, 3]), (56, [0, 2])] [1, 3]) (-1) 2,
    -- 2261: del tmp0
    .del 56,
    -- 2262: r1new += einsum(tmp1, (0, 1), ints.tmp29, (0, 2, 1, 3), (2, 3)) * -1
    .add 93 (.ein [(55, [0, 1]), (15, [0, 2, 1, 3])] [2, 3]) (-1) 1,
    -- 2263: del tmp1
    .del 55,
    -- 2264: r1new += einsum(v.ovvv, (0, 1, 2, 3), tmp2, (1, 3), (0, 2)) * 0.5
    .add 93 (.ein [(24, [0, 1, 2, 3]), (61, [1, 3])] [0, 2]) 1 2,
    -- 2265: del tmp2
    .del 61,
    -- 2266: r1new += einsum(r2, (0, 1, 2, 3), tmp3, (1, 2, 3, 4), (0, 4))
    .add 93 (.ein [(3, [0, 1, 2, 3]), (84, [1, 2, 3, 4])] [0, 4]) 1 1,
    -- 2267: del tmp3
    .del 84,
    -- 2268: r1new += einsum(tmp4, (0, 1, 2, 3), r2, (0, 1, 4, 3), (2, 4))
    .add 93 (.ein [(90, [0, 1, 2, 3]), (3, [0, 1, 4, 3])] [2, 4]) 1 1,
    -- 2269: del tmp4
    .del 90,
    -- 2270: r1new += einsum(tmp5, (0, 1, 2, 3), tmp6, (0, 4, 1, 2), (4, 3)) * -1
    .add 93 (.ein [(87, [0, 1, 2, 3]), (57, [0, 4, 1, 2])] [4, 3]) (-1) 1,
    -- 2271: del tmp6, tmp5
    .del 57,
    .del 87,
    -- 2272: r1new += einsum(tmp7, (0, 1, 2, 3), tmp8, (1, 3, 2, 4), (0, 4)) * -0.5
    .add 93 (.ein [(63, [0, 1, 2, 3]), (89, [1, 3, 2, 4])] [0, 4]) (-1) 2,
    -- 2273: del tmp7, tmp8
    .del 63,
    .del 89,
    -- 2274: r1new += einsum(r2, (0, 1, 2, 3), tmp9, (1, 3), (0, 2)) * -1
    .add 93 (.ein [(3, [0, 1, 2, 3]), (88, [1, 3])] [0, 2]) (-1) 1,
    -- 2275: del tmp9
    .del 88,
    -- 2276: r1new += einsum(tmp10, (0, 1), v.oovv, (2, 0, 3, 1), (2, 3))
    .add 93 (.ein [(86, [0, 1]), (16, [2, 0, 3, 1])] [2, 3]) 1 1,
    -- 2277: del tmp10
    .del 86,
    -- 2278: r1new += einsum(tmp11, (0, 1, 2, 3), r1, (0, 2), (1, 3))
    .add 93 (.ein [(91, [0, 1, 2, 3]), (0, [0, 2])] [1, 3]) 1 1,
    -- 2279: del tmp11
    .del 91,
    -- 2280: r1new += einsum(tmp12, (0, 1), v.ooov, (2, 1, 0, 3), (2, 3)) * 0.5
    .add 93 (.ein [(58, [0, 1]), (14, [2, 1, 0, 3])] [2, 3]) 1 2,
    -- 2281: r1new += einsum(r1, (0, 1), tmp13, (1, 2), (0, 2)) * -1
    .add 93 (.ein [(0, [0, 1]), (85, [1, 2])] [0, 2]) (-1) 1,
    -- 2282: del tmp13
    .del 85,
    -- 2283: r1new += einsum(tmp14, (0, 1), r1, (0, 2), (1, 2)) * -1
    .add 93 (.ein [(59, [0, 1]), (0, [0, 2])] [1, 2]) (-1) 1,
    -- 2284: del tmp14
    .del 59,
    -- 2285: r1new += einsum(tmp15, (0, 1), tmp12, (2, 0), (2, 1)) * -0.5
    .add 93 (.ein [(60, [0, 1]), (58, [2, 0])] [2, 1]) (-1) 2,
    -- 2286: del tmp12, tmp15
    .del 58,
    .del 60
  ]
  ret := [(chars! "r1new", 93), (chars! "r2new", 92)]

end Ebcc.Gen.GCCSDEom
