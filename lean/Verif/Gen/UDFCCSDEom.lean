import Verif.Model.GenCode
/-!
Functions of `ebcc/codegen/UDFCCSD.py`, written by `tools/gencode.py`.  Comments give the
number and the text of the line of each statement.
-/

set_option maxRecDepth 100000

namespace Ebcc.Gen.UDFCCSDEom

/-- codegen/UDFCCSD.py:2519-2979 `hbar_matvec_ip_intermediates`. -/
def hbar_matvec_ip_intermediates : GenFun where
  args := [chars! "v.baa.xov", chars! "t1.aa", chars! "v.bbb.xov", chars! "t1.bb", chars! "t2.abab", chars! "t2.bbbb", chars! "t2.aaaa", chars! "v.bbb.xoo", chars! "v.bbb.xvv", chars! "v.baa.xoo", chars! "f.bb.ov", chars! "v.baa.xvv", chars! "f.aa.ov", chars! "f.bb.vv", chars! "f.bb.oo", chars! "f.aa.oo", chars! "f.aa.vv"]
  body := [
    -- 2752: tmp8 = einsum(v.baa.xov, (0, 1, 2), t1.aa, (1, 2), (0,))
    .set 17 (.ein [(0, [0, 1, 2]), (1, [1, 2])] [0]) 1 1,
    -- 2753: tmp10 = einsum(v.bbb.xov, (0, 1, 2), t1.bb, (1, 2), (0,))
    .set 18 (.ein [(2, [0, 1, 2]), (3, [1, 2])] [0]) 1 1,
    -- 2754: tmp16 = einsum(v.bbb.xov, (0, 1, 2), t1.bb, (3, 2), (0, 3, 1))
    .set 19 (.ein [(2, [0, 1, 2]), (3, [3, 2])] [0, 3, 1]) 1 1,
    -- 2755: tmp6 = einsum(v.baa.xov, (0, 1, 2), t1.aa, (3, 2), (0, 3, 1))
    .set 20 (.ein [(0, [0, 1, 2]), (1, [3, 2])] [0, 3, 1]) 1 1,
    -- 2756: tmp131 = einsum(v.bbb.xov, (0, 1, 2), v.bbb.xov, (0, 3, 4), (1, 3, 2, 4))
    .set 21 (.ein [(2, [0, 1, 2]), (2, [0, 3, 4])] [1, 3, 2, 4]) 1 1,
    -- 2757: tmp21 = einsum(tmp8, (0,), v.bbb.xov, (0, 1, 2), (1, 2))
    .set 22 (.ein [(17, [0]), (2, [0, 1, 2])] [1, 2]) 1 1,
    -- 2758: tmp18 = einsum(v.bbb.xov, (0, 1, 2), tmp10, (0,), (1, 2))
    .set 23 (.ein [(2, [0, 1, 2]), (18, [0])] [1, 2]) 1 1,
    -- 2759: tmp17 = einsum(tmp16, (0, 1, 2), v.bbb.xov, (0, 1, 3), (2, 3))
    .set 24 (.ein [(19, [0, 1, 2]), (2, [0, 1, 3])] [2, 3]) 1 1,
    -- 2760: tmp54 = einsum(t2.abab, (0, 1, 2, 3), v.baa.xov, (4, 0, 2), (4, 1, 3))
    .set 25 (.ein [(4, [0, 1, 2, 3]), (0, [4, 0, 2])] [4, 1, 3]) 1 1,
    -- 2761: tmp51 = einsum(v.bbb.xov, (0, 1, 2), t2.bbbb, (3, 1, 4, 2), (0, 3, 4))
    .set 26 (.ein [(2, [0, 1, 2]), (5, [3, 1, 4, 2])] [0, 3, 4]) 1 1,
    -- 2762: tmp156 = einsum(v.bbb.xov, (0, 1, 2), v.baa.xov, (0, 3, 4), (3, 1, 4, 2))
    .set 27 (.ein [(2, [0, 1, 2]), (0, [0, 3, 4])] [3, 1, 4, 2]) 1 1,
    -- 2763: tmp19 = einsum(tmp10, (0,), v.baa.xov, (0, 1, 2), (1, 2))
    .set 28 (.ein [(18, [0]), (0, [0, 1, 2])] [1, 2]) 1 1,
    -- 2764: tmp14 = einsum(tmp8, (0,), v.baa.xov, (0, 1, 2), (1, 2))
    .set 29 (.ein [(17, [0]), (0, [0, 1, 2])] [1, 2]) 1 1,
    -- 2765: tmp12 = einsum(v.baa.xov, (0, 1, 2), tmp6, (0, 1, 3), (3, 2))
    .set 30 (.ein [(0, [0, 1, 2]), (20, [0, 1, 3])] [3, 2]) 1 1,
    -- 2766: tmp29 = einsum(t2.abab, (0, 1, 2, 3), v.bbb.xov, (4, 1, 3), (4, 0, 2))
    .set 31 (.ein [(4, [0, 1, 2, 3]), (2, [4, 1, 3])] [4, 0, 2]) 1 1,
    -- 2767: tmp26 = einsum(v.baa.xov, (0, 1, 2), t2.aaaa, (3, 1, 4, 2), (0, 3, 4))
    .set 32 (.ein [(0, [0, 1, 2]), (6, [3, 1, 4, 2])] [0, 3, 4]) 1 1,
    -- 2768: tmp92 = einsum(v.baa.xov, (0, 1, 2), v.baa.xov, (0, 3, 4), (3, 1, 4, 2))
    .set 33 (.ein [(0, [0, 1, 2]), (0, [0, 3, 4])] [3, 1, 4, 2]) 1 1,
    -- 2769: tmp449 = einsum(tmp16, (0, 1, 2), v.bbb.xoo, (0, 3, 4), (1, 3, 4, 2))
    .set 34 (.ein [(19, [0, 1, 2]), (7, [0, 3, 4])] [1, 3, 4, 2]) 1 1,
    -- 2770: tmp47 = einsum(v.bbb.xov, (0, 1, 2), tmp16, (0, 3, 4), (3, 1, 4, 2))
    .set 35 (.ein [(2, [0, 1, 2]), (19, [0, 3, 4])] [3, 1, 4, 2]) 1 1,
    -- 2771: tmp276 = einsum(v.bbb.xvv, (0, 1, 2), t1.bb, (3, 2), (0, 3, 1))
    .set 36 (.ein [(8, [0, 1, 2]), (3, [3, 2])] [0, 3, 1]) 1 1,
    -- 2772: tmp37 = einsum(v.bbb.xoo, (0, 1, 2), v.bbb.xov, (0, 3, 4), (1, 2, 3, 4))
    .set 37 (.ein [(7, [0, 1, 2]), (2, [0, 3, 4])] [1, 2, 3, 4]) 1 1,
    -- 2773: tmp401 = einsum(v.bbb.xoo, (0, 1, 2), v.bbb.xoo, (0, 3, 4), (1, 3, 4, 2))
    .set 38 (.ein [(7, [0, 1, 2]), (7, [0, 3, 4])] [1, 3, 4, 2]) 1 1,
    -- 2774: tmp394 = einsum(t2.bbbb, (0, 1, 2, 3), tmp131, (4, 5, 3, 2), (0, 1, 5, 4))
    .set 39 (.ein [(5, [0, 1, 2, 3]), (21, [4, 5, 3, 2])] [0, 1, 5, 4]) 1 1,
    -- 2775: tmp391 = einsum(v.bbb.xov, (0, 1, 2), v.bbb.xvv, (0, 3, 4), (1, 3, 4, 2))
    .set 40 (.ein [(2, [0, 1, 2]), (8, [0, 3, 4])] [1, 3, 4, 2]) 1 1,
    -- 2776: tmp387 = einsum(tmp16, (0, 1, 2), tmp16, (0, 3, 4), (3, 1, 4, 2))
    .set 41 (.ein [(19, [0, 1, 2]), (19, [0, 3, 4])] [3, 1, 4, 2]) 1 1,
    -- 2777: tmp59 = einsum(tmp21, (0, 1), t1.bb, (2, 1), (2, 0))
    .set 42 (.ein [(22, [0, 1]), (3, [2, 1])] [2, 0]) 1 1,
    -- 2778: tmp58 = einsum(tmp18, (0, 1), t1.bb, (2, 1), (2, 0))
    .set 43 (.ein [(23, [0, 1]), (3, [2, 1])] [2, 0]) 1 1,
    -- 2779: tmp57 = einsum(tmp17, (0, 1), t1.bb, (2, 1), (2, 0))
    .set 44 (.ein [(24, [0, 1]), (3, [2, 1])] [2, 0]) 1 1,
    -- 2780: tmp252 = einsum(v.baa.xoo, (0, 1, 2), tmp16, (0, 3, 4), (1, 2, 3, 4))
    .set 45 (.ein [(9, [0, 1, 2]), (19, [0, 3, 4])] [1, 2, 3, 4]) 1 1,
    -- 2781: tmp55 = einsum(v.bbb.xov, (0, 1, 2), tmp54, (0, 3, 2), (3, 1))
    .set 46 (.ein [(2, [0, 1, 2]), (25, [0, 3, 2])] [3, 1]) 1 1,
    -- 2782: tmp52 = einsum(v.bbb.xov, (0, 1, 2), tmp51, (0, 3, 2), (3, 1))
    .set 47 (.ein [(2, [0, 1, 2]), (26, [0, 3, 2])] [3, 1]) 1 1,
    -- 2783: tmp49 = einsum(tmp16, (0, 1, 2), v.baa.xov, (0, 3, 4), (3, 1, 2, 4))
    .set 48 (.ein [(19, [0, 1, 2]), (0, [0, 3, 4])] [3, 1, 2, 4]) 1 1,
    -- 2784: tmp36 = einsum(f.bb.ov, (0, 1), t1.bb, (2, 1), (0, 2))
    .set 49 (.ein [(10, [0, 1]), (3, [2, 1])] [0, 2]) 1 1,
    -- 2785: tmp264 = einsum(v.bbb.xoo, (0, 1, 2), tmp6, (0, 3, 4), (3, 4, 1, 2))
    .set 50 (.ein [(7, [0, 1, 2]), (20, [0, 3, 4])] [3, 4, 1, 2]) 1 1,
    -- 2786: tmp22 = einsum(tmp6, (0, 1, 2), v.baa.xov, (0, 3, 4), (1, 3, 2, 4))
    .set 51 (.ein [(20, [0, 1, 2]), (0, [0, 3, 4])] [1, 3, 2, 4]) 1 1,
    -- 2787: tmp249 = einsum(tmp6, (0, 1, 2), tmp16, (0, 3, 4), (1, 2, 3, 4))
    .set 52 (.ein [(20, [0, 1, 2]), (19, [0, 3, 4])] [1, 2, 3, 4]) 1 1,
    -- 2788: tmp278 = einsum(tmp8, (0,), v.bbb.xvv, (0, 1, 2), (1, 2))
    .set 53 (.ein [(17, [0]), (8, [0, 1, 2])] [1, 2]) 1 1,
    -- 2789: tmp275 = einsum(tmp10, (0,), v.bbb.xvv, (0, 1, 2), (1, 2))
    .set 54 (.ein [(18, [0]), (8, [0, 1, 2])] [1, 2]) 1 1,
    -- 2790: tmp43 = einsum(tmp8, (0,), v.bbb.xoo, (0, 1, 2), (1, 2))
    .set 55 (.ein [(17, [0]), (7, [0, 1, 2])] [1, 2]) 1 1,
    -- 2791: tmp42 = einsum(v.bbb.xoo, (0, 1, 2), tmp10, (0,), (1, 2))
    .set 56 (.ein [(7, [0, 1, 2]), (18, [0])] [1, 2]) 1 1,
    -- 2792: tmp41 = einsum(tmp16, (0, 1, 2), v.bbb.xoo, (0, 3, 1), (3, 2))
    .set 57 (.ein [(19, [0, 1, 2]), (7, [0, 3, 1])] [3, 2]) 1 1,
    -- 2793: tmp39 = einsum(v.bbb.xoo, (0, 1, 2), v.baa.xov, (0, 3, 4), (3, 1, 2, 4))
    .set 58 (.ein [(7, [0, 1, 2]), (0, [0, 3, 4])] [3, 1, 2, 4]) 1 1,
    -- 2794: tmp2 = einsum(v.baa.xoo, (0, 1, 2), v.baa.xov, (0, 3, 4), (1, 2, 3, 4))
    .set 59 (.ein [(9, [0, 1, 2]), (0, [0, 3, 4])] [1, 2, 3, 4]) 1 1,
    -- 2795: tmp214 = einsum(v.bbb.xoo, (0, 1, 2), v.baa.xoo, (0, 3, 4), (3, 4, 1, 2))
    .set 60 (.ein [(7, [0, 1, 2]), (9, [0, 3, 4])] [3, 4, 1, 2]) 1 1,
    -- 2796: tmp210 = einsum(t2.abab, (0, 1, 2, 3), tmp156, (4, 5, 2, 3), (0, 4, 1, 5))
    .set 61 (.ein [(4, [0, 1, 2, 3]), (27, [4, 5, 2, 3])] [0, 4, 1, 5]) 1 1,
    -- 2797: tmp280 = einsum(v.bbb.xvv, (0, 1, 2), v.baa.xov, (0, 3, 4), (3, 4, 1, 2))
    .set 62 (.ein [(8, [0, 1, 2]), (0, [0, 3, 4])] [3, 4, 1, 2]) 1 1,
    -- 2798: tmp24 = einsum(v.bbb.xov, (0, 1, 2), tmp6, (0, 3, 4), (3, 4, 1, 2))
    .set 63 (.ein [(2, [0, 1, 2]), (20, [0, 3, 4])] [3, 4, 1, 2]) 1 1,
    -- 2799: tmp69 = einsum(v.baa.xvv, (0, 1, 2), t1.aa, (3, 2), (0, 3, 1))
    .set 64 (.ein [(11, [0, 1, 2]), (1, [3, 2])] [0, 3, 1]) 1 1,
    -- 2800: tmp4 = einsum(v.bbb.xov, (0, 1, 2), v.baa.xoo, (0, 3, 4), (3, 4, 1, 2))
    .set 65 (.ein [(2, [0, 1, 2]), (9, [0, 3, 4])] [3, 4, 1, 2]) 1 1,
    -- 2801: tmp207 = einsum(v.baa.xvv, (0, 1, 2), v.bbb.xov, (0, 3, 4), (3, 1, 2, 4))
    .set 66 (.ein [(11, [0, 1, 2]), (2, [0, 3, 4])] [3, 1, 2, 4]) 1 1,
    -- 2802: tmp34 = einsum(tmp19, (0, 1), t1.aa, (2, 1), (2, 0))
    .set 67 (.ein [(28, [0, 1]), (1, [2, 1])] [2, 0]) 1 1,
    -- 2803: tmp33 = einsum(tmp14, (0, 1), t1.aa, (2, 1), (2, 0))
    .set 68 (.ein [(29, [0, 1]), (1, [2, 1])] [2, 0]) 1 1,
    -- 2804: tmp32 = einsum(tmp12, (0, 1), t1.aa, (2, 1), (2, 0))
    .set 69 (.ein [(30, [0, 1]), (1, [2, 1])] [2, 0]) 1 1,
    -- 2805: tmp173 = einsum(v.baa.xoo, (0, 1, 2), tmp6, (0, 3, 4), (3, 1, 2, 4))
    .set 70 (.ein [(9, [0, 1, 2]), (20, [0, 3, 4])] [3, 1, 2, 4]) 1 1,
    -- 2806: tmp30 = einsum(tmp29, (0, 1, 2), v.baa.xov, (0, 3, 2), (1, 3))
    .set 71 (.ein [(31, [0, 1, 2]), (0, [0, 3, 2])] [1, 3]) 1 1,
    -- 2807: tmp27 = einsum(tmp26, (0, 1, 2), v.baa.xov, (0, 3, 2), (1, 3))
    .set 72 (.ein [(32, [0, 1, 2]), (0, [0, 3, 2])] [1, 3]) 1 1,
    -- 2808: tmp1 = einsum(t1.aa, (0, 1), f.aa.ov, (2, 1), (2, 0))
    .set 73 (.ein [(1, [0, 1]), (12, [2, 1])] [2, 0]) 1 1,
    -- 2809: tmp11 = einsum(tmp10, (0,), v.baa.xoo, (0, 1, 2), (1, 2))
    .set 74 (.ein [(18, [0]), (9, [0, 1, 2])] [1, 2]) 1 1,
    -- 2810: tmp9 = einsum(tmp8, (0,), v.baa.xoo, (0, 1, 2), (1, 2))
    .set 75 (.ein [(17, [0]), (9, [0, 1, 2])] [1, 2]) 1 1,
    -- 2811: tmp7 = einsum(v.baa.xoo, (0, 1, 2), tmp6, (0, 2, 3), (1, 3))
    .set 76 (.ein [(9, [0, 1, 2]), (20, [0, 2, 3])] [1, 3]) 1 1,
    -- 2812: tmp103 = einsum(v.baa.xoo, (0, 1, 2), v.baa.xoo, (0, 3, 4), (3, 1, 2, 4))
    .set 77 (.ein [(9, [0, 1, 2]), (9, [0, 3, 4])] [3, 1, 2, 4]) 1 1,
    -- 2813: tmp93 = einsum(t2.aaaa, (0, 1, 2, 3), tmp92, (4, 5, 3, 2), (0, 1, 5, 4))
    .set 78 (.ein [(6, [0, 1, 2, 3]), (33, [4, 5, 3, 2])] [0, 1, 5, 4]) 1 1,
    -- 2814: tmp89 = einsum(v.baa.xvv, (0, 1, 2), v.baa.xov, (0, 3, 4), (3, 1, 2, 4))
    .set 79 (.ein [(11, [0, 1, 2]), (0, [0, 3, 4])] [3, 1, 2, 4]) 1 1,
    -- 2815: tmp85 = einsum(tmp6, (0, 1, 2), tmp6, (0, 3, 4), (1, 3, 2, 4))
    .set 80 (.ein [(20, [0, 1, 2]), (20, [0, 3, 4])] [1, 3, 2, 4]) 1 1,
    -- 2816: tmp72 = einsum(v.baa.xvv, (0, 1, 2), tmp10, (0,), (1, 2))
    .set 81 (.ein [(11, [0, 1, 2]), (18, [0])] [1, 2]) 1 1,
    -- 2817: del tmp10
    .del 18,
    -- 2818: tmp67 = einsum(v.baa.xvv, (0, 1, 2), tmp8, (0,), (1, 2))
    .set 82 (.ein [(11, [0, 1, 2]), (17, [0])] [1, 2]) 1 1,
    -- 2819: del tmp8
    .del 17,
    -- 2820: tmp461 = einsum(tmp449, (0, 1, 2, 3), t1.bb, (3, 4), (0, 1, 2, 4))
    .set 83 (.ein [(34, [0, 1, 2, 3]), (3, [3, 4])] [0, 1, 2, 4]) 1 1,
    -- 2821: tmp459 = einsum(tmp449, (0, 1, 2, 3), t1.bb, (2, 4), (0, 1, 3, 4))
    .set 84 (.ein [(34, [0, 1, 2, 3]), (3, [2, 4])] [0, 1, 3, 4]) 1 1,
    -- 2822: tmp457 = einsum(tmp16, (0, 1, 2), tmp54, (0, 3, 4), (1, 3, 2, 4))
    .set 85 (.ein [(19, [0, 1, 2]), (25, [0, 3, 4])] [1, 3, 2, 4]) 1 1,
    -- 2823: tmp455 = einsum(tmp47, (0, 1, 2, 3), t2.bbbb, (4, 2, 5, 3), (0, 4, 1, 5))
    .set 86 (.ein [(35, [0, 1, 2, 3]), (5, [4, 2, 5, 3])] [0, 4, 1, 5]) 1 1,
    -- 2824: tmp453 = einsum(tmp16, (0, 1, 2), tmp51, (0, 3, 4), (1, 3, 2, 4))
    .set 87 (.ein [(19, [0, 1, 2]), (26, [0, 3, 4])] [1, 3, 2, 4]) 1 1,
    -- 2825: tmp447 = einsum(v.bbb.xoo, (0, 1, 2), tmp276, (0, 3, 4), (3, 1, 2, 4))
    .set 88 (.ein [(7, [0, 1, 2]), (36, [0, 3, 4])] [3, 1, 2, 4]) 1 1,
    -- 2826: tmp442 = einsum(tmp21, (0, 1), t2.bbbb, (2, 3, 4, 1), (2, 3, 0, 4))
    .set 89 (.ein [(22, [0, 1]), (5, [2, 3, 4, 1])] [2, 3, 0, 4]) 1 1,
    -- 2827: tmp440 = einsum(tmp18, (0, 1), t2.bbbb, (2, 3, 4, 1), (2, 3, 0, 4))
    .set 90 (.ein [(23, [0, 1]), (5, [2, 3, 4, 1])] [2, 3, 0, 4]) 1 1,
    -- 2828: tmp438 = einsum(t2.bbbb, (0, 1, 2, 3), tmp17, (4, 3), (0, 1, 4, 2))
    .set 91 (.ein [(5, [0, 1, 2, 3]), (24, [4, 3])] [0, 1, 4, 2]) 1 1,
    -- 2829: tmp434 = einsum(f.bb.ov, (0, 1), t2.bbbb, (2, 3, 4, 1), (0, 2, 3, 4))
    .set 92 (.ein [(10, [0, 1]), (5, [2, 3, 4, 1])] [0, 2, 3, 4]) 1 1,
    -- 2830: tmp418 = einsum(tmp54, (0, 1, 2), v.bbb.xoo, (0, 3, 4), (1, 3, 4, 2))
    .set 93 (.ein [(25, [0, 1, 2]), (7, [0, 3, 4])] [1, 3, 4, 2]) 1 1,
    -- 2831: tmp416 = einsum(tmp51, (0, 1, 2), v.bbb.xoo, (0, 3, 4), (1, 3, 4, 2))
    .set 94 (.ein [(26, [0, 1, 2]), (7, [0, 3, 4])] [1, 3, 4, 2]) 1 1,
    -- 2832: tmp414 = einsum(t2.bbbb, (0, 1, 2, 3), tmp37, (4, 1, 5, 3), (0, 4, 5, 2))
    .set 95 (.ein [(5, [0, 1, 2, 3]), (37, [4, 1, 5, 3])] [0, 4, 5, 2]) 1 1,
    -- 2833: tmp403 = einsum(tmp401, (0, 1, 2, 3), t1.bb, (3, 4), (1, 2, 0, 4))
    .set 96 (.ein [(38, [0, 1, 2, 3]), (3, [3, 4])] [1, 2, 0, 4]) 1 1,
    -- 2834: tmp396 = einsum(tmp394, (0, 1, 2, 3), t1.bb, (3, 4), (0, 1, 2, 4))
    .set 97 (.ein [(39, [0, 1, 2, 3]), (3, [3, 4])] [0, 1, 2, 4]) 1 1,
    -- 2835: tmp392 = einsum(tmp391, (0, 1, 2, 3), t2.bbbb, (4, 5, 2, 3), (4, 5, 0, 1)) * -1
    .set 98 (.ein [(40, [0, 1, 2, 3]), (5, [4, 5, 2, 3])] [4, 5, 0, 1]) (-1) 1,
    -- 2836: del tmp391
    .del 40,
    -- 2837: tmp389 = einsum(tmp387, (0, 1, 2, 3), t1.bb, (2, 4), (1, 0, 3, 4))
    .set 99 (.ein [(41, [0, 1, 2, 3]), (3, [2, 4])] [1, 0, 3, 4]) 1 1,
    -- 2838: tmp385 = einsum(tmp16, (0, 1, 2), tmp276, (0, 3, 4), (1, 3, 2, 4))
    .set 100 (.ein [(19, [0, 1, 2]), (36, [0, 3, 4])] [1, 3, 2, 4]) 1 1,
    -- 2839: tmp374 = einsum(tmp59, (0, 1), t1.bb, (1, 2), (0, 2))
    .set 101 (.ein [(42, [0, 1]), (3, [1, 2])] [0, 2]) 1 1,
    -- 2840: tmp373 = einsum(tmp58, (0, 1), t1.bb, (1, 2), (0, 2))
    .set 102 (.ein [(43, [0, 1]), (3, [1, 2])] [0, 2]) 1 1,
    -- 2841: tmp372 = einsum(tmp57, (0, 1), t1.bb, (1, 2), (0, 2))
    .set 103 (.ein [(44, [0, 1]), (3, [1, 2])] [0, 2]) 1 1,
    -- 2842: tmp367 = einsum(tmp252, (0, 1, 2, 3), t1.bb, (3, 4), (0, 1, 2, 4))
    .set 104 (.ein [(45, [0, 1, 2, 3]), (3, [3, 4])] [0, 1, 2, 4]) 1 1,
    -- 2843: tmp366 = einsum(tmp55, (0, 1), t1.bb, (1, 2), (0, 2))
    .set 105 (.ein [(46, [0, 1]), (3, [1, 2])] [0, 2]) 1 1,
    -- 2844: tmp365 = einsum(tmp52, (0, 1), t1.bb, (1, 2), (0, 2))
    .set 106 (.ein [(47, [0, 1]), (3, [1, 2])] [0, 2]) 1 1,
    -- 2845: tmp364 = einsum(t2.abab, (0, 1, 2, 3), tmp49, (4, 5, 1, 2), (0, 4, 5, 3))
    .set 107 (.ein [(4, [0, 1, 2, 3]), (48, [4, 5, 1, 2])] [0, 4, 5, 3]) 1 1,
    -- 2846: tmp363 = einsum(t2.abab, (0, 1, 2, 3), tmp49, (0, 4, 1, 2), (4, 3))
    .set 108 (.ein [(4, [0, 1, 2, 3]), (48, [0, 4, 1, 2])] [4, 3]) 1 1,
    -- 2847: tmp362 = einsum(tmp47, (0, 1, 2, 3), t2.bbbb, (2, 1, 4, 3), (0, 4))
    .set 109 (.ein [(35, [0, 1, 2, 3]), (5, [2, 1, 4, 3])] [0, 4]) 1 1,
    -- 2848: tmp358 = einsum(v.baa.xoo, (0, 1, 2), tmp276, (0, 3, 4), (1, 2, 3, 4))
    .set 110 (.ein [(9, [0, 1, 2]), (36, [0, 3, 4])] [1, 2, 3, 4]) 1 1,
    -- 2849: tmp357 = einsum(v.baa.xoo, (0, 1, 2), v.bbb.xvv, (0, 3, 4), (1, 2, 3, 4))
    .set 111 (.ein [(9, [0, 1, 2]), (8, [0, 3, 4])] [1, 2, 3, 4]) 1 1,
    -- 2850: tmp356 = einsum(tmp36, (0, 1), t1.bb, (0, 2), (1, 2))
    .set 112 (.ein [(49, [0, 1]), (3, [0, 2])] [1, 2]) 1 1,
    -- 2851: tmp354 = einsum(tmp264, (0, 1, 2, 3), t1.bb, (3, 4), (0, 1, 2, 4))
    .set 113 (.ein [(50, [0, 1, 2, 3]), (3, [3, 4])] [0, 1, 2, 4]) 1 1,
    -- 2852: tmp352 = einsum(tmp6, (0, 1, 2), tmp51, (0, 3, 4), (1, 2, 3, 4))
    .set 114 (.ein [(20, [0, 1, 2]), (26, [0, 3, 4])] [1, 2, 3, 4]) 1 1,
    -- 2853: tmp351 = einsum(t2.abab, (0, 1, 2, 3), tmp22, (4, 5, 0, 2), (4, 5, 1, 3))
    .set 115 (.ein [(4, [0, 1, 2, 3]), (51, [4, 5, 0, 2])] [4, 5, 1, 3]) 1 1,
    -- 2854: tmp350 = einsum(tmp6, (0, 1, 2), tmp54, (0, 3, 4), (1, 2, 3, 4))
    .set 116 (.ein [(20, [0, 1, 2]), (25, [0, 3, 4])] [1, 2, 3, 4]) 1 1,
    -- 2855: tmp346 = einsum(v.bbb.xoo, (0, 1, 2), tmp276, (0, 2, 3), (1, 3))
    .set 117 (.ein [(7, [0, 1, 2]), (36, [0, 2, 3])] [1, 3]) 1 1,
    -- 2856: tmp345 = einsum(v.bbb.xoo, (0, 1, 2), v.bbb.xvv, (0, 3, 4), (1, 2, 3, 4))
    .set 118 (.ein [(7, [0, 1, 2]), (8, [0, 3, 4])] [1, 2, 3, 4]) 1 1,
    -- 2857: tmp344 = einsum(tmp249, (0, 1, 2, 3), t1.bb, (3, 4), (0, 1, 2, 4))
    .set 119 (.ein [(52, [0, 1, 2, 3]), (3, [3, 4])] [0, 1, 2, 4]) 1 1,
    -- 2858: tmp342 = einsum(tmp6, (0, 1, 2), tmp276, (0, 3, 4), (1, 2, 3, 4))
    .set 120 (.ein [(20, [0, 1, 2]), (36, [0, 3, 4])] [1, 2, 3, 4]) 1 1,
    -- 2859: tmp341 = einsum(tmp278, (0, 1), t1.bb, (2, 1), (2, 0))
    .set 121 (.ein [(53, [0, 1]), (3, [2, 1])] [2, 0]) 1 1,
    -- 2860: tmp340 = einsum(tmp276, (0, 1, 2), tmp16, (0, 3, 1), (3, 2))
    .set 122 (.ein [(36, [0, 1, 2]), (19, [0, 3, 1])] [3, 2]) 1 1,
    -- 2861: tmp339 = einsum(tmp275, (0, 1), t1.bb, (2, 1), (2, 0))
    .set 123 (.ein [(54, [0, 1]), (3, [2, 1])] [2, 0]) 1 1,
    -- 2862: tmp338 = einsum(tmp54, (0, 1, 2), v.bbb.xvv, (0, 3, 2), (1, 3))
    .set 124 (.ein [(25, [0, 1, 2]), (8, [0, 3, 2])] [1, 3]) 1 1,
    -- 2863: tmp337 = einsum(tmp51, (0, 1, 2), v.bbb.xvv, (0, 3, 2), (1, 3)) * -1
    .set 125 (.ein [(26, [0, 1, 2]), (8, [0, 3, 2])] [1, 3]) (-1) 1,
    -- 2864: tmp335 = einsum(tmp16, (0, 1, 2), v.bbb.xvv, (0, 3, 4), (1, 2, 3, 4))
    .set 126 (.ein [(19, [0, 1, 2]), (8, [0, 3, 4])] [1, 2, 3, 4]) 1 1,
    -- 2865: tmp334 = einsum(f.bb.vv, (0, 1), t1.bb, (2, 1), (2, 0))
    .set 127 (.ein [(13, [0, 1]), (3, [2, 1])] [2, 0]) 1 1,
    -- 2866: tmp330 = einsum(t1.bb, (0, 1), tmp43, (2, 0), (2, 1))
    .set 128 (.ein [(3, [0, 1]), (55, [2, 0])] [2, 1]) 1 1,
    -- 2867: tmp329 = einsum(tmp42, (0, 1), t1.bb, (1, 2), (0, 2))
    .set 129 (.ein [(56, [0, 1]), (3, [1, 2])] [0, 2]) 1 1,
    -- 2868: tmp328 = einsum(tmp41, (0, 1), t1.bb, (1, 2), (0, 2))
    .set 130 (.ein [(57, [0, 1]), (3, [1, 2])] [0, 2]) 1 1,
    -- 2869: tmp327 = einsum(tmp19, (0, 1), t2.abab, (2, 3, 1, 4), (2, 0, 3, 4))
    .set 131 (.ein [(28, [0, 1]), (4, [2, 3, 1, 4])] [2, 0, 3, 4]) 1 1,
    -- 2870: tmp326 = einsum(tmp14, (0, 1), t2.abab, (2, 3, 1, 4), (2, 0, 3, 4))
    .set 132 (.ein [(29, [0, 1]), (4, [2, 3, 1, 4])] [2, 0, 3, 4]) 1 1,
    -- 2871: tmp325 = einsum(t2.abab, (0, 1, 2, 3), tmp12, (4, 2), (0, 4, 1, 3))
    .set 133 (.ein [(4, [0, 1, 2, 3]), (30, [4, 2])] [0, 4, 1, 3]) 1 1,
    -- 2872: tmp322 = einsum(t2.abab, (0, 1, 2, 3), tmp156, (4, 1, 2, 5), (0, 4, 3, 5))
    .set 134 (.ein [(4, [0, 1, 2, 3]), (27, [4, 1, 2, 5])] [0, 4, 3, 5]) 1 1,
    -- 2873: tmp320 = einsum(v.bbb.xov, (0, 1, 2), tmp54, (0, 1, 3), (3, 2))
    .set 135 (.ein [(2, [0, 1, 2]), (25, [0, 1, 3])] [3, 2]) 1 1,
    -- 2874: tmp318 = einsum(v.bbb.xov, (0, 1, 2), tmp51, (0, 1, 3), (3, 2))
    .set 136 (.ein [(2, [0, 1, 2]), (26, [0, 1, 3])] [3, 2]) 1 1,
    -- 2875: tmp317 = einsum(t2.abab, (0, 1, 2, 3), tmp39, (4, 5, 1, 2), (0, 4, 5, 3))
    .set 137 (.ein [(4, [0, 1, 2, 3]), (58, [4, 5, 1, 2])] [0, 4, 5, 3]) 1 1,
    -- 2876: tmp316 = einsum(t2.abab, (0, 1, 2, 3), tmp39, (0, 4, 1, 2), (4, 3))
    .set 138 (.ein [(4, [0, 1, 2, 3]), (58, [0, 4, 1, 2])] [4, 3]) 1 1,
    -- 2877: tmp315 = einsum(t2.bbbb, (0, 1, 2, 3), tmp37, (4, 0, 1, 3), (4, 2))
    .set 139 (.ein [(5, [0, 1, 2, 3]), (37, [4, 0, 1, 3])] [4, 2]) 1 1,
    -- 2878: tmp310 = einsum(t2.abab, (0, 1, 2, 3), f.aa.ov, (4, 2), (4, 0, 1, 3))
    .set 140 (.ein [(4, [0, 1, 2, 3]), (12, [4, 2])] [4, 0, 1, 3]) 1 1,
    -- 2879: tmp308 = einsum(t1.bb, (0, 1), f.bb.oo, (2, 0), (2, 1))
    .set 141 (.ein [(3, [0, 1]), (14, [2, 0])] [2, 1]) 1 1,
    -- 2880: tmp307 = einsum(t2.bbbb, (0, 1, 2, 3), tmp21, (1, 3), (0, 2))
    .set 142 (.ein [(5, [0, 1, 2, 3]), (22, [1, 3])] [0, 2]) 1 1,
    -- 2881: tmp306 = einsum(tmp19, (0, 1), t2.abab, (0, 2, 1, 3), (2, 3))
    .set 143 (.ein [(28, [0, 1]), (4, [0, 2, 1, 3])] [2, 3]) 1 1,
    -- 2882: tmp305 = einsum(t2.bbbb, (0, 1, 2, 3), tmp18, (1, 3), (0, 2))
    .set 144 (.ein [(5, [0, 1, 2, 3]), (23, [1, 3])] [0, 2]) 1 1,
    -- 2883: tmp304 = einsum(t2.bbbb, (0, 1, 2, 3), tmp17, (1, 3), (0, 2))
    .set 145 (.ein [(5, [0, 1, 2, 3]), (24, [1, 3])] [0, 2]) 1 1,
    -- 2884: tmp303 = einsum(t2.abab, (0, 1, 2, 3), tmp14, (0, 2), (1, 3))
    .set 146 (.ein [(4, [0, 1, 2, 3]), (29, [0, 2])] [1, 3]) 1 1,
    -- 2885: tmp302 = einsum(t2.abab, (0, 1, 2, 3), tmp12, (0, 2), (1, 3))
    .set 147 (.ein [(4, [0, 1, 2, 3]), (30, [0, 2])] [1, 3]) 1 1,
    -- 2886: tmp298 = einsum(t2.bbbb, (0, 1, 2, 3), tmp131, (1, 4, 5, 3), (0, 4, 2, 5))
    .set 148 (.ein [(5, [0, 1, 2, 3]), (21, [1, 4, 5, 3])] [0, 4, 2, 5]) 1 1,
    -- 2887: tmp295 = einsum(t2.abab, (0, 1, 2, 3), tmp92, (0, 4, 5, 2), (4, 1, 5, 3))
    .set 149 (.ein [(4, [0, 1, 2, 3]), (33, [0, 4, 5, 2])] [4, 1, 5, 3]) 1 1,
    -- 2888: tmp293 = einsum(v.baa.xoo, (0, 1, 2), tmp51, (0, 3, 4), (1, 2, 3, 4))
    .set 150 (.ein [(9, [0, 1, 2]), (26, [0, 3, 4])] [1, 2, 3, 4]) 1 1,
    -- 2889: tmp292 = einsum(v.baa.xoo, (0, 1, 2), tmp54, (0, 3, 4), (1, 2, 3, 4))
    .set 151 (.ein [(9, [0, 1, 2]), (25, [0, 3, 4])] [1, 2, 3, 4]) 1 1,
    -- 2890: tmp291 = einsum(t2.abab, (0, 1, 2, 3), tmp2, (4, 0, 5, 2), (4, 5, 1, 3))
    .set 152 (.ein [(4, [0, 1, 2, 3]), (59, [4, 0, 5, 2])] [4, 5, 1, 3]) 1 1,
    -- 2891: tmp289 = einsum(t1.bb, (0, 1), tmp214, (2, 3, 4, 0), (3, 2, 4, 1))
    .set 153 (.ein [(3, [0, 1]), (60, [2, 3, 4, 0])] [3, 2, 4, 1]) 1 1,
    -- 2892: tmp287 = einsum(t2.bbbb, (0, 1, 2, 3), f.bb.ov, (1, 3), (0, 2))
    .set 154 (.ein [(5, [0, 1, 2, 3]), (10, [1, 3])] [0, 2]) 1 1,
    -- 2893: tmp286 = einsum(t2.abab, (0, 1, 2, 3), f.aa.ov, (0, 2), (1, 3))
    .set 155 (.ein [(4, [0, 1, 2, 3]), (12, [0, 2])] [1, 3]) 1 1,
    -- 2894: tmp284 = einsum(tmp210, (0, 1, 2, 3), t1.bb, (3, 4), (0, 1, 2, 4))
    .set 156 (.ein [(61, [0, 1, 2, 3]), (3, [3, 4])] [0, 1, 2, 4]) 1 1,
    -- 2895: tmp281 = einsum(tmp280, (0, 1, 2, 3), t2.abab, (4, 5, 1, 3), (4, 0, 5, 2))
    .set 157 (.ein [(62, [0, 1, 2, 3]), (4, [4, 5, 1, 3])] [4, 0, 5, 2]) 1 1,
    -- 2896: del tmp280
    .del 62,
    -- 2897: tmp279 = einsum(tmp6, (0, 1, 2), v.bbb.xvv, (0, 3, 4), (1, 2, 3, 4))
    .set 158 (.ein [(20, [0, 1, 2]), (8, [0, 3, 4])] [1, 2, 3, 4]) 1 1,
    -- 2898: tmp277 = einsum(tmp276, (0, 1, 2), v.bbb.xov, (0, 1, 3), (3, 2))
    .set 159 (.ein [(36, [0, 1, 2]), (2, [0, 1, 3])] [3, 2]) 1 1,
    -- 2899: tmp269 = einsum(t1.aa, (0, 1), tmp264, (2, 0, 3, 4), (2, 3, 4, 1))
    .set 160 (.ein [(1, [0, 1]), (50, [2, 0, 3, 4])] [2, 3, 4, 1]) 1 1,
    -- 2900: tmp268 = einsum(tmp24, (0, 1, 2, 3), t2.abab, (1, 4, 5, 3), (0, 4, 2, 5))
    .set 161 (.ein [(63, [0, 1, 2, 3]), (4, [1, 4, 5, 3])] [0, 4, 2, 5]) 1 1,
    -- 2901: tmp263 = einsum(v.bbb.xoo, (0, 1, 2), tmp69, (0, 3, 4), (3, 1, 2, 4))
    .set 162 (.ein [(7, [0, 1, 2]), (64, [0, 3, 4])] [3, 1, 2, 4]) 1 1,
    -- 2902: tmp262 = einsum(v.baa.xvv, (0, 1, 2), v.bbb.xoo, (0, 3, 4), (3, 4, 1, 2))
    .set 163 (.ein [(11, [0, 1, 2]), (7, [0, 3, 4])] [3, 4, 1, 2]) 1 1,
    -- 2903: tmp260 = einsum(t1.aa, (0, 1), tmp252, (2, 0, 3, 4), (2, 3, 4, 1))
    .set 164 (.ein [(1, [0, 1]), (45, [2, 0, 3, 4])] [2, 3, 4, 1]) 1 1,
    -- 2904: tmp258 = einsum(tmp26, (0, 1, 2), tmp16, (0, 3, 4), (1, 3, 4, 2))
    .set 165 (.ein [(32, [0, 1, 2]), (19, [0, 3, 4])] [1, 3, 4, 2]) 1 1,
    -- 2905: tmp257 = einsum(t2.abab, (0, 1, 2, 3), tmp47, (4, 5, 1, 3), (0, 4, 5, 2))
    .set 166 (.ein [(4, [0, 1, 2, 3]), (35, [4, 5, 1, 3])] [0, 4, 5, 2]) 1 1,
    -- 2906: tmp256 = einsum(tmp29, (0, 1, 2), tmp16, (0, 3, 4), (1, 3, 4, 2))
    .set 167 (.ein [(31, [0, 1, 2]), (19, [0, 3, 4])] [1, 3, 4, 2]) 1 1,
    -- 2907: tmp251 = einsum(t1.aa, (0, 1), tmp249, (2, 0, 3, 4), (2, 3, 4, 1))
    .set 168 (.ein [(1, [0, 1]), (52, [2, 0, 3, 4])] [2, 3, 4, 1]) 1 1,
    -- 2908: tmp248 = einsum(tmp69, (0, 1, 2), tmp16, (0, 3, 4), (1, 3, 4, 2))
    .set 169 (.ein [(64, [0, 1, 2]), (19, [0, 3, 4])] [1, 3, 4, 2]) 1 1,
    -- 2909: tmp243 = einsum(t2.abab, (0, 1, 2, 3), tmp21, (4, 3), (0, 1, 4, 2))
    .set 170 (.ein [(4, [0, 1, 2, 3]), (22, [4, 3])] [0, 1, 4, 2]) 1 1,
    -- 2910: tmp242 = einsum(t2.abab, (0, 1, 2, 3), tmp18, (4, 3), (0, 1, 4, 2))
    .set 171 (.ein [(4, [0, 1, 2, 3]), (23, [4, 3])] [0, 1, 4, 2]) 1 1,
    -- 2911: tmp241 = einsum(t2.abab, (0, 1, 2, 3), tmp17, (4, 3), (0, 1, 4, 2))
    .set 172 (.ein [(4, [0, 1, 2, 3]), (24, [4, 3])] [0, 1, 4, 2]) 1 1,
    -- 2912: tmp236 = einsum(tmp156, (0, 1, 2, 3), t2.abab, (0, 4, 5, 3), (4, 1, 5, 2))
    .set 173 (.ein [(27, [0, 1, 2, 3]), (4, [0, 4, 5, 3])] [4, 1, 5, 2]) 1 1,
    -- 2913: tmp233 = einsum(t2.abab, (0, 1, 2, 3), tmp4, (4, 0, 5, 3), (4, 1, 5, 2))
    .set 174 (.ein [(4, [0, 1, 2, 3]), (65, [4, 0, 5, 3])] [4, 1, 5, 2]) 1 1,
    -- 2914: tmp228 = einsum(t2.abab, (0, 1, 2, 3), f.bb.ov, (4, 3), (0, 4, 1, 2))
    .set 175 (.ein [(4, [0, 1, 2, 3]), (10, [4, 3])] [0, 4, 1, 2]) 1 1,
    -- 2915: tmp220 = einsum(v.bbb.xoo, (0, 1, 2), tmp26, (0, 3, 4), (3, 1, 2, 4))
    .set 176 (.ein [(7, [0, 1, 2]), (32, [0, 3, 4])] [3, 1, 2, 4]) 1 1,
    -- 2916: tmp219 = einsum(v.bbb.xoo, (0, 1, 2), tmp29, (0, 3, 4), (3, 1, 2, 4))
    .set 177 (.ein [(7, [0, 1, 2]), (31, [0, 3, 4])] [3, 1, 2, 4]) 1 1,
    -- 2917: tmp218 = einsum(t2.abab, (0, 1, 2, 3), tmp37, (4, 1, 5, 3), (0, 4, 5, 2))
    .set 178 (.ein [(4, [0, 1, 2, 3]), (37, [4, 1, 5, 3])] [0, 4, 5, 2]) 1 1,
    -- 2918: tmp216 = einsum(t1.aa, (0, 1), tmp214, (2, 0, 3, 4), (2, 4, 3, 1))
    .set 179 (.ein [(1, [0, 1]), (60, [2, 0, 3, 4])] [2, 4, 3, 1]) 1 1,
    -- 2919: tmp212 = einsum(t1.aa, (0, 1), tmp210, (2, 0, 3, 4), (2, 3, 4, 1))
    .set 180 (.ein [(1, [0, 1]), (61, [2, 0, 3, 4])] [2, 3, 4, 1]) 1 1,
    -- 2920: tmp208 = einsum(t2.abab, (0, 1, 2, 3), tmp207, (4, 5, 2, 3), (0, 1, 4, 5))
    .set 181 (.ein [(4, [0, 1, 2, 3]), (66, [4, 5, 2, 3])] [0, 1, 4, 5]) 1 1,
    -- 2921: del tmp207
    .del 66,
    -- 2922: tmp206 = einsum(v.baa.xvv, (0, 1, 2), tmp16, (0, 3, 4), (3, 4, 1, 2))
    .set 182 (.ein [(11, [0, 1, 2]), (19, [0, 3, 4])] [3, 4, 1, 2]) 1 1,
    -- 2923: tmp202 = einsum(t1.aa, (0, 1), tmp34, (2, 0), (2, 1))
    .set 183 (.ein [(1, [0, 1]), (67, [2, 0])] [2, 1]) 1 1,
    -- 2924: tmp201 = einsum(tmp33, (0, 1), t1.aa, (1, 2), (0, 2))
    .set 184 (.ein [(68, [0, 1]), (1, [1, 2])] [0, 2]) 1 1,
    -- 2925: tmp200 = einsum(tmp32, (0, 1), t1.aa, (1, 2), (0, 2))
    .set 185 (.ein [(69, [0, 1]), (1, [1, 2])] [0, 2]) 1 1,
    -- 2926: tmp189 = einsum(tmp173, (0, 1, 2, 3), t1.aa, (3, 4), (0, 1, 2, 4))
    .set 186 (.ein [(70, [0, 1, 2, 3]), (1, [3, 4])] [0, 1, 2, 4]) 1 1,
    -- 2927: tmp187 = einsum(tmp173, (0, 1, 2, 3), t1.aa, (2, 4), (0, 1, 3, 4))
    .set 187 (.ein [(70, [0, 1, 2, 3]), (1, [2, 4])] [0, 1, 3, 4]) 1 1,
    -- 2928: tmp186 = einsum(tmp30, (0, 1), t1.aa, (1, 2), (0, 2))
    .set 188 (.ein [(71, [0, 1]), (1, [1, 2])] [0, 2]) 1 1,
    -- 2929: tmp185 = einsum(t1.aa, (0, 1), tmp27, (2, 0), (2, 1))
    .set 189 (.ein [(1, [0, 1]), (72, [2, 0])] [2, 1]) 1 1,
    -- 2930: tmp183 = einsum(tmp6, (0, 1, 2), tmp29, (0, 3, 4), (1, 3, 2, 4))
    .set 190 (.ein [(20, [0, 1, 2]), (31, [0, 3, 4])] [1, 3, 2, 4]) 1 1,
    -- 2931: tmp181 = einsum(tmp22, (0, 1, 2, 3), t2.aaaa, (4, 2, 5, 3), (0, 4, 1, 5))
    .set 191 (.ein [(51, [0, 1, 2, 3]), (6, [4, 2, 5, 3])] [0, 4, 1, 5]) 1 1,
    -- 2932: tmp179 = einsum(tmp6, (0, 1, 2), tmp26, (0, 3, 4), (1, 3, 2, 4))
    .set 192 (.ein [(20, [0, 1, 2]), (32, [0, 3, 4])] [1, 3, 2, 4]) 1 1,
    -- 2933: tmp178 = einsum(t2.abab, (0, 1, 2, 3), tmp24, (4, 0, 1, 3), (4, 2))
    .set 193 (.ein [(4, [0, 1, 2, 3]), (63, [4, 0, 1, 3])] [4, 2]) 1 1,
    -- 2934: tmp177 = einsum(t2.aaaa, (0, 1, 2, 3), tmp22, (4, 1, 0, 3), (4, 2))
    .set 194 (.ein [(6, [0, 1, 2, 3]), (51, [4, 1, 0, 3])] [4, 2]) 1 1,
    -- 2935: tmp171 = einsum(v.baa.xoo, (0, 1, 2), tmp69, (0, 3, 4), (3, 1, 2, 4))
    .set 195 (.ein [(9, [0, 1, 2]), (64, [0, 3, 4])] [3, 1, 2, 4]) 1 1,
    -- 2936: tmp170 = einsum(tmp69, (0, 1, 2), v.baa.xoo, (0, 3, 1), (3, 2))
    .set 196 (.ein [(64, [0, 1, 2]), (9, [0, 3, 1])] [3, 2]) 1 1,
    -- 2937: tmp168 = einsum(v.baa.xvv, (0, 1, 2), v.baa.xoo, (0, 3, 4), (3, 4, 1, 2))
    .set 197 (.ein [(11, [0, 1, 2]), (9, [0, 3, 4])] [3, 4, 1, 2]) 1 1,
    -- 2938: tmp166 = einsum(t1.aa, (0, 1), tmp1, (0, 2), (2, 1))
    .set 198 (.ein [(1, [0, 1]), (73, [0, 2])] [2, 1]) 1 1,
    -- 2939: tmp163 = einsum(t2.aaaa, (0, 1, 2, 3), tmp19, (4, 3), (0, 1, 4, 2))
    .set 199 (.ein [(6, [0, 1, 2, 3]), (28, [4, 3])] [0, 1, 4, 2]) 1 1,
    -- 2940: tmp161 = einsum(t2.aaaa, (0, 1, 2, 3), tmp14, (4, 3), (0, 1, 4, 2))
    .set 200 (.ein [(6, [0, 1, 2, 3]), (29, [4, 3])] [0, 1, 4, 2]) 1 1,
    -- 2941: tmp159 = einsum(t2.aaaa, (0, 1, 2, 3), tmp12, (4, 3), (0, 1, 4, 2))
    .set 201 (.ein [(6, [0, 1, 2, 3]), (30, [4, 3])] [0, 1, 4, 2]) 1 1,
    -- 2942: tmp152 = einsum(t2.aaaa, (0, 1, 2, 3), f.aa.ov, (4, 3), (4, 0, 1, 2))
    .set 202 (.ein [(6, [0, 1, 2, 3]), (12, [4, 3])] [4, 0, 1, 2]) 1 1,
    -- 2943: tmp145 = einsum(tmp11, (0, 1), t1.aa, (1, 2), (0, 2))
    .set 203 (.ein [(74, [0, 1]), (1, [1, 2])] [0, 2]) 1 1,
    -- 2944: tmp144 = einsum(t1.aa, (0, 1), tmp9, (2, 0), (2, 1))
    .set 204 (.ein [(1, [0, 1]), (75, [2, 0])] [2, 1]) 1 1,
    -- 2945: tmp143 = einsum(t1.aa, (0, 1), tmp7, (2, 0), (2, 1))
    .set 205 (.ein [(1, [0, 1]), (76, [2, 0])] [2, 1]) 1 1,
    -- 2946: tmp142 = einsum(t2.abab, (0, 1, 2, 3), tmp21, (1, 3), (0, 2))
    .set 206 (.ein [(4, [0, 1, 2, 3]), (22, [1, 3])] [0, 2]) 1 1,
    -- 2947: tmp141 = einsum(t2.aaaa, (0, 1, 2, 3), tmp19, (1, 3), (0, 2))
    .set 207 (.ein [(6, [0, 1, 2, 3]), (28, [1, 3])] [0, 2]) 1 1,
    -- 2948: tmp140 = einsum(tmp18, (0, 1), t2.abab, (2, 0, 3, 1), (2, 3))
    .set 208 (.ein [(23, [0, 1]), (4, [2, 0, 3, 1])] [2, 3]) 1 1,
    -- 2949: tmp139 = einsum(t2.abab, (0, 1, 2, 3), tmp17, (1, 3), (0, 2))
    .set 209 (.ein [(4, [0, 1, 2, 3]), (24, [1, 3])] [0, 2]) 1 1,
    -- 2950: tmp138 = einsum(t2.aaaa, (0, 1, 2, 3), tmp14, (1, 3), (0, 2))
    .set 210 (.ein [(6, [0, 1, 2, 3]), (29, [1, 3])] [0, 2]) 1 1,
    -- 2951: tmp137 = einsum(tmp12, (0, 1), t2.aaaa, (2, 0, 3, 1), (2, 3))
    .set 211 (.ein [(30, [0, 1]), (6, [2, 0, 3, 1])] [2, 3]) 1 1,
    -- 2952: tmp132 = einsum(t2.abab, (0, 1, 2, 3), tmp131, (1, 4, 5, 3), (0, 4, 2, 5))
    .set 212 (.ein [(4, [0, 1, 2, 3]), (21, [1, 4, 5, 3])] [0, 4, 2, 5]) 1 1,
    -- 2953: tmp128 = einsum(t2.aaaa, (0, 1, 2, 3), tmp92, (1, 4, 5, 3), (0, 4, 2, 5))
    .set 213 (.ein [(6, [0, 1, 2, 3]), (33, [1, 4, 5, 3])] [0, 4, 2, 5]) 1 1,
    -- 2954: tmp126 = einsum(tmp29, (0, 1, 2), v.baa.xov, (0, 1, 3), (2, 3))
    .set 214 (.ein [(31, [0, 1, 2]), (0, [0, 1, 3])] [2, 3]) 1 1,
    -- 2955: tmp124 = einsum(tmp26, (0, 1, 2), v.baa.xov, (0, 1, 3), (2, 3))
    .set 215 (.ein [(32, [0, 1, 2]), (0, [0, 1, 3])] [2, 3]) 1 1,
    -- 2956: tmp122 = einsum(tmp29, (0, 1, 2), v.baa.xoo, (0, 3, 4), (1, 3, 4, 2))
    .set 216 (.ein [(31, [0, 1, 2]), (9, [0, 3, 4])] [1, 3, 4, 2]) 1 1,
    -- 2957: tmp120 = einsum(tmp26, (0, 1, 2), v.baa.xoo, (0, 3, 4), (1, 3, 4, 2))
    .set 217 (.ein [(32, [0, 1, 2]), (9, [0, 3, 4])] [1, 3, 4, 2]) 1 1,
    -- 2958: tmp118 = einsum(t2.aaaa, (0, 1, 2, 3), tmp2, (4, 1, 5, 3), (0, 4, 5, 2))
    .set 218 (.ein [(6, [0, 1, 2, 3]), (59, [4, 1, 5, 3])] [0, 4, 5, 2]) 1 1,
    -- 2959: tmp117 = einsum(tmp4, (0, 1, 2, 3), t2.abab, (1, 2, 4, 3), (0, 4))
    .set 219 (.ein [(65, [0, 1, 2, 3]), (4, [1, 2, 4, 3])] [0, 4]) 1 1,
    -- 2960: tmp116 = einsum(t2.aaaa, (0, 1, 2, 3), tmp2, (4, 0, 1, 3), (4, 2))
    .set 220 (.ein [(6, [0, 1, 2, 3]), (59, [4, 0, 1, 3])] [4, 2]) 1 1,
    -- 2961: tmp105 = einsum(tmp103, (0, 1, 2, 3), t1.aa, (3, 4), (1, 2, 0, 4))
    .set 221 (.ein [(77, [0, 1, 2, 3]), (1, [3, 4])] [1, 2, 0, 4]) 1 1,
    -- 2962: tmp102 = einsum(t2.abab, (0, 1, 2, 3), f.bb.ov, (1, 3), (0, 2))
    .set 222 (.ein [(4, [0, 1, 2, 3]), (10, [1, 3])] [0, 2]) 1 1,
    -- 2963: tmp101 = einsum(f.aa.ov, (0, 1), t2.aaaa, (2, 0, 3, 1), (2, 3))
    .set 223 (.ein [(12, [0, 1]), (6, [2, 0, 3, 1])] [2, 3]) 1 1,
    -- 2964: tmp98 = einsum(f.aa.oo, (0, 1), t1.aa, (1, 2), (0, 2))
    .set 224 (.ein [(15, [0, 1]), (1, [1, 2])] [0, 2]) 1 1,
    -- 2965: tmp95 = einsum(tmp93, (0, 1, 2, 3), t1.aa, (3, 4), (0, 1, 2, 4))
    .set 225 (.ein [(78, [0, 1, 2, 3]), (1, [3, 4])] [0, 1, 2, 4]) 1 1,
    -- 2966: tmp90 = einsum(t2.aaaa, (0, 1, 2, 3), tmp89, (4, 5, 2, 3), (0, 1, 4, 5)) * -1
    .set 226 (.ein [(6, [0, 1, 2, 3]), (79, [4, 5, 2, 3])] [0, 1, 4, 5]) (-1) 1,
    -- 2967: del tmp89
    .del 79,
    -- 2968: tmp87 = einsum(tmp85, (0, 1, 2, 3), t1.aa, (2, 4), (1, 0, 3, 4))
    .set 227 (.ein [(80, [0, 1, 2, 3]), (1, [2, 4])] [1, 0, 3, 4]) 1 1,
    -- 2969: tmp83 = einsum(tmp6, (0, 1, 2), tmp69, (0, 3, 4), (1, 3, 2, 4))
    .set 228 (.ein [(20, [0, 1, 2]), (64, [0, 3, 4])] [1, 3, 2, 4]) 1 1,
    -- 2970: tmp82 = einsum(t1.aa, (0, 1), tmp72, (2, 1), (0, 2))
    .set 229 (.ein [(1, [0, 1]), (81, [2, 1])] [0, 2]) 1 1,
    -- 2971: tmp81 = einsum(tmp69, (0, 1, 2), tmp6, (0, 3, 1), (3, 2))
    .set 230 (.ein [(64, [0, 1, 2]), (20, [0, 3, 1])] [3, 2]) 1 1,
    -- 2972: tmp80 = einsum(t1.aa, (0, 1), tmp67, (2, 1), (0, 2))
    .set 231 (.ein [(1, [0, 1]), (82, [2, 1])] [0, 2]) 1 1,
    -- 2973: tmp79 = einsum(v.baa.xvv, (0, 1, 2), tmp29, (0, 3, 2), (3, 1))
    .set 232 (.ein [(11, [0, 1, 2]), (31, [0, 3, 2])] [3, 1]) 1 1,
    -- 2974: tmp78 = einsum(v.baa.xvv, (0, 1, 2), tmp26, (0, 3, 2), (3, 1)) * -1
    .set 233 (.ein [(11, [0, 1, 2]), (32, [0, 3, 2])] [3, 1]) (-1) 1,
    -- 2975: tmp74 = einsum(v.baa.xvv, (0, 1, 2), tmp6, (0, 3, 4), (3, 4, 1, 2))
    .set 234 (.ein [(11, [0, 1, 2]), (20, [0, 3, 4])] [3, 4, 1, 2]) 1 1,
    -- 2976: tmp70 = einsum(tmp69, (0, 1, 2), v.baa.xov, (0, 1, 3), (3, 2))
    .set 235 (.ein [(64, [0, 1, 2]), (0, [0, 1, 3])] [3, 2]) 1 1,
    -- 2977: tmp61 = einsum(t1.aa, (0, 1), f.aa.vv, (2, 1), (0, 2))
    .set 236 (.ein [(1, [0, 1]), (16, [2, 1])] [0, 2]) 1 1
  ]
  ret := [(chars! "tmp1", 73), (chars! "tmp101", 223), (chars! "tmp102", 222), (chars! "tmp103", 77), (chars! "tmp105", 221), (chars! "tmp11", 74), (chars! "tmp116", 220), (chars! "tmp117", 219), (chars! "tmp118", 218), (chars! "tmp12", 30), (chars! "tmp120", 217), (chars! "tmp122", 216), (chars! "tmp124", 215), (chars! "tmp126", 214), (chars! "tmp128", 213), (chars! "tmp131", 21), (chars! "tmp132", 212), (chars! "tmp137", 211), (chars! "tmp138", 210), (chars! "tmp139", 209), (chars! "tmp14", 29), (chars! "tmp140", 208), (chars! "tmp141", 207), (chars! "tmp142", 206), (chars! "tmp143", 205), (chars! "tmp144", 204), (chars! "tmp145", 203), (chars! "tmp152", 202), (chars! "tmp156", 27), (chars! "tmp159", 201), (chars! "tmp16", 19), (chars! "tmp161", 200), (chars! "tmp163", 199), (chars! "tmp166", 198), (chars! "tmp168", 197), (chars! "tmp17", 24), (chars! "tmp170", 196), (chars! "tmp171", 195), (chars! "tmp173", 70), (chars! "tmp177", 194), (chars! "tmp178", 193), (chars! "tmp179", 192), (chars! "tmp18", 23), (chars! "tmp181", 191), (chars! "tmp183", 190), (chars! "tmp185", 189), (chars! "tmp186", 188), (chars! "tmp187", 187), (chars! "tmp189", 186), (chars! "tmp19", 28), (chars! "tmp2", 59), (chars! "tmp200", 185), (chars! "tmp201", 184), (chars! "tmp202", 183), (chars! "tmp206", 182), (chars! "tmp208", 181), (chars! "tmp21", 22), (chars! "tmp210", 61), (chars! "tmp212", 180), (chars! "tmp214", 60), (chars! "tmp216", 179), (chars! "tmp218", 178), (chars! "tmp219", 177), (chars! "tmp22", 51), (chars! "tmp220", 176), (chars! "tmp228", 175), (chars! "tmp233", 174), (chars! "tmp236", 173), (chars! "tmp24", 63), (chars! "tmp241", 172), (chars! "tmp242", 171), (chars! "tmp243", 170), (chars! "tmp248", 169), (chars! "tmp249", 52), (chars! "tmp251", 168), (chars! "tmp252", 45), (chars! "tmp256", 167), (chars! "tmp257", 166), (chars! "tmp258", 165), (chars! "tmp26", 32), (chars! "tmp260", 164), (chars! "tmp262", 163), (chars! "tmp263", 162), (chars! "tmp264", 50), (chars! "tmp268", 161), (chars! "tmp269", 160), (chars! "tmp27", 72), (chars! "tmp275", 54), (chars! "tmp276", 36), (chars! "tmp277", 159), (chars! "tmp278", 53), (chars! "tmp279", 158), (chars! "tmp281", 157), (chars! "tmp284", 156), (chars! "tmp286", 155), (chars! "tmp287", 154), (chars! "tmp289", 153), (chars! "tmp29", 31), (chars! "tmp291", 152), (chars! "tmp292", 151), (chars! "tmp293", 150), (chars! "tmp295", 149), (chars! "tmp298", 148), (chars! "tmp30", 71), (chars! "tmp302", 147), (chars! "tmp303", 146), (chars! "tmp304", 145), (chars! "tmp305", 144), (chars! "tmp306", 143), (chars! "tmp307", 142), (chars! "tmp308", 141), (chars! "tmp310", 140), (chars! "tmp315", 139), (chars! "tmp316", 138), (chars! "tmp317", 137), (chars! "tmp318", 136), (chars! "tmp32", 69), (chars! "tmp320", 135), (chars! "tmp322", 134), (chars! "tmp325", 133), (chars! "tmp326", 132), (chars! "tmp327", 131), (chars! "tmp328", 130), (chars! "tmp329", 129), (chars! "tmp33", 68), (chars! "tmp330", 128), (chars! "tmp334", 127), (chars! "tmp335", 126), (chars! "tmp337", 125), (chars! "tmp338", 124), (chars! "tmp339", 123), (chars! "tmp34", 67), (chars! "tmp340", 122), (chars! "tmp341", 121), (chars! "tmp342", 120), (chars! "tmp344", 119), (chars! "tmp345", 118), (chars! "tmp346", 117), (chars! "tmp350", 116), (chars! "tmp351", 115), (chars! "tmp352", 114), (chars! "tmp354", 113), (chars! "tmp356", 112), (chars! "tmp357", 111), (chars! "tmp358", 110), (chars! "tmp36", 49), (chars! "tmp362", 109), (chars! "tmp363", 108), (chars! "tmp364", 107), (chars! "tmp365", 106), (chars! "tmp366", 105), (chars! "tmp367", 104), (chars! "tmp37", 37), (chars! "tmp372", 103), (chars! "tmp373", 102), (chars! "tmp374", 101), (chars! "tmp385", 100), (chars! "tmp387", 41), (chars! "tmp389", 99), (chars! "tmp39", 58), (chars! "tmp392", 98), (chars! "tmp394", 39), (chars! "tmp396", 97), (chars! "tmp4", 65), (chars! "tmp401", 38), (chars! "tmp403", 96), (chars! "tmp41", 57), (chars! "tmp414", 95), (chars! "tmp416", 94), (chars! "tmp418", 93), (chars! "tmp42", 56), (chars! "tmp43", 55), (chars! "tmp434", 92), (chars! "tmp438", 91), (chars! "tmp440", 90), (chars! "tmp442", 89), (chars! "tmp447", 88), (chars! "tmp449", 34), (chars! "tmp453", 87), (chars! "tmp455", 86), (chars! "tmp457", 85), (chars! "tmp459", 84), (chars! "tmp461", 83), (chars! "tmp47", 35), (chars! "tmp49", 48), (chars! "tmp51", 26), (chars! "tmp52", 47), (chars! "tmp54", 25), (chars! "tmp55", 46), (chars! "tmp57", 44), (chars! "tmp58", 43), (chars! "tmp59", 42), (chars! "tmp6", 20), (chars! "tmp61", 236), (chars! "tmp67", 82), (chars! "tmp69", 64), (chars! "tmp7", 76), (chars! "tmp70", 235), (chars! "tmp72", 81), (chars! "tmp74", 234), (chars! "tmp78", 233), (chars! "tmp79", 232), (chars! "tmp80", 231), (chars! "tmp81", 230), (chars! "tmp82", 229), (chars! "tmp83", 228), (chars! "tmp85", 80), (chars! "tmp87", 227), (chars! "tmp9", 75), (chars! "tmp90", 226), (chars! "tmp92", 33), (chars! "tmp93", 78), (chars! "tmp95", 225), (chars! "tmp98", 224)]

/-- codegen/UDFCCSD.py:2981-3740 `hbar_matvec_ip`. -/
def hbar_matvec_ip : GenFun where
  args := [chars! "r2.aba", chars! "v.baa.xov", chars! "r2.bbb", chars! "v.bbb.xov", chars! "r2.aaa", chars! "r2.bab", chars! "ints.tmp37", chars! "ints.tmp47", chars! "ints.tmp22", chars! "ints.tmp2", chars! "v.bbb.xoo", chars! "ints.tmp16", chars! "ints.tmp6", chars! "v.baa.xoo", chars! "ints.tmp389", chars! "ints.tmp403", chars! "ints.tmp418", chars! "ints.tmp447", chars! "ints.tmp459", chars! "ints.tmp416", chars! "ints.tmp455", chars! "ints.tmp276", chars! "ints.tmp54", chars! "ints.tmp51", chars! "ints.tmp335", chars! "ints.tmp345", chars! "ints.tmp298", chars! "f.bb.oo", chars! "ints.tmp36", chars! "ints.tmp42", chars! "ints.tmp43", chars! "ints.tmp58", chars! "ints.tmp59", chars! "ints.tmp52", chars! "ints.tmp55", chars! "ints.tmp41", chars! "ints.tmp57", chars! "ints.tmp385", chars! "ints.tmp414", chars! "ints.tmp453", chars! "ints.tmp457", chars! "ints.tmp461", chars! "f.bb.ov", chars! "ints.tmp18", chars! "ints.tmp21", chars! "ints.tmp17", chars! "f.aa.ov", chars! "ints.tmp14", chars! "ints.tmp19", chars! "ints.tmp12", chars! "f.aa.oo", chars! "ints.tmp11", chars! "ints.tmp1", chars! "ints.tmp33", chars! "ints.tmp34", chars! "ints.tmp9", chars! "ints.tmp105", chars! "ints.tmp122", chars! "ints.tmp171", chars! "ints.tmp187", chars! "ints.tmp87", chars! "ints.tmp120", chars! "ints.tmp181", chars! "ints.tmp168", chars! "ints.tmp74", chars! "ints.tmp128", chars! "ints.tmp118", chars! "ints.tmp179", chars! "ints.tmp183", chars! "ints.tmp189", chars! "ints.tmp83", chars! "ints.tmp27", chars! "ints.tmp30", chars! "ints.tmp32", chars! "ints.tmp7", chars! "ints.tmp26", chars! "ints.tmp29", chars! "ints.tmp69", chars! "r1.b", chars! "ints.tmp449", chars! "ints.tmp295", chars! "t1.bb", chars! "ints.tmp156", chars! "ints.tmp131", chars! "ints.tmp92", chars! "ints.tmp24", chars! "ints.tmp4", chars! "t1.aa", chars! "ints.tmp39", chars! "ints.tmp49", chars! "ints.tmp132", chars! "r1.a", chars! "ints.tmp173", chars! "ints.tmp302", chars! "ints.tmp304", chars! "ints.tmp308", chars! "ints.tmp315", chars! "ints.tmp316", chars! "ints.tmp329", chars! "ints.tmp330", chars! "ints.tmp337", chars! "ints.tmp340", chars! "ints.tmp346", chars! "ints.tmp356", chars! "ints.tmp362", chars! "ints.tmp363", chars! "ints.tmp365", chars! "ints.tmp366", chars! "ints.tmp373", chars! "ints.tmp374", chars! "ints.tmp286", chars! "ints.tmp287", chars! "ints.tmp303", chars! "ints.tmp305", chars! "ints.tmp306", chars! "ints.tmp307", chars! "ints.tmp328", chars! "ints.tmp334", chars! "ints.tmp338", chars! "ints.tmp339", chars! "ints.tmp341", chars! "ints.tmp372", chars! "ints.tmp277", chars! "ints.tmp318", chars! "ints.tmp320", chars! "f.bb.vv", chars! "ints.tmp275", chars! "ints.tmp278", chars! "ints.tmp396", chars! "ints.tmp434", chars! "ints.tmp440", chars! "ints.tmp442", chars! "ints.tmp392", chars! "ints.tmp438", chars! "ints.tmp387", chars! "ints.tmp394", chars! "ints.tmp401", chars! "ints.tmp210", chars! "ints.tmp214", chars! "ints.tmp249", chars! "ints.tmp252", chars! "ints.tmp264", chars! "ints.tmp281", chars! "ints.tmp292", chars! "ints.tmp293", chars! "ints.tmp310", chars! "ints.tmp326", chars! "ints.tmp327", chars! "ints.tmp342", chars! "ints.tmp350", chars! "ints.tmp352", chars! "ints.tmp358", chars! "ints.tmp284", chars! "ints.tmp289", chars! "ints.tmp291", chars! "ints.tmp317", chars! "ints.tmp325", chars! "ints.tmp344", chars! "ints.tmp351", chars! "ints.tmp354", chars! "ints.tmp364", chars! "ints.tmp367", chars! "ints.tmp279", chars! "ints.tmp357", chars! "ints.tmp322", chars! "ints.tmp116", chars! "ints.tmp117", chars! "ints.tmp137", chars! "ints.tmp139", chars! "ints.tmp144", chars! "ints.tmp145", chars! "ints.tmp166", chars! "ints.tmp170", chars! "ints.tmp177", chars! "ints.tmp178", chars! "ints.tmp185", chars! "ints.tmp186", chars! "ints.tmp201", chars! "ints.tmp202", chars! "ints.tmp78", chars! "ints.tmp81", chars! "ints.tmp98", chars! "ints.tmp101", chars! "ints.tmp102", chars! "ints.tmp138", chars! "ints.tmp140", chars! "ints.tmp141", chars! "ints.tmp142", chars! "ints.tmp143", chars! "ints.tmp200", chars! "ints.tmp61", chars! "ints.tmp79", chars! "ints.tmp80", chars! "ints.tmp82", chars! "ints.tmp208", chars! "ints.tmp219", chars! "ints.tmp220", chars! "ints.tmp228", chars! "ints.tmp242", chars! "ints.tmp243", chars! "ints.tmp248", chars! "ints.tmp256", chars! "ints.tmp258", chars! "ints.tmp263", chars! "ints.tmp212", chars! "ints.tmp216", chars! "ints.tmp218", chars! "ints.tmp233", chars! "ints.tmp241", chars! "ints.tmp251", chars! "ints.tmp257", chars! "ints.tmp260", chars! "ints.tmp268", chars! "ints.tmp269", chars! "ints.tmp124", chars! "ints.tmp126", chars! "ints.tmp70", chars! "f.aa.vv", chars! "ints.tmp67", chars! "ints.tmp72", chars! "ints.tmp206", chars! "ints.tmp262", chars! "ints.tmp236", chars! "ints.tmp85", chars! "ints.tmp93", chars! "ints.tmp103", chars! "ints.tmp152", chars! "ints.tmp161", chars! "ints.tmp163", chars! "ints.tmp95", chars! "ints.tmp159", chars! "ints.tmp90", chars! "t2.bbbb", chars! "t2.abab", chars! "t2.aaaa"]
  body := [
    -- 3011: tmp47 = einsum(r2.aba, (0, 1, 2), v.baa.xov, (3, 0, 2), (3, 1))
    .set 235 (.ein [(0, [0, 1, 2]), (1, [3, 0, 2])] [3, 1]) 1 1,
    -- 3012: tmp48 = einsum(r2.bbb, (0, 1, 2), v.bbb.xov, (3, 1, 2), (3, 0))
    .set 236 (.ein [(2, [0, 1, 2]), (3, [3, 1, 2])] [3, 0]) 1 1,
    -- 3013: tmp9 = einsum(v.baa.xov, (0, 1, 2), r2.aaa, (3, 1, 2), (0, 3))
    .set 237 (.ein [(1, [0, 1, 2]), (4, [3, 1, 2])] [0, 3]) 1 1,
    -- 3014: tmp10 = einsum(r2.bab, (0, 1, 2), v.bbb.xov, (3, 0, 2), (3, 1)) * -1
    .set 238 (.ein [(5, [0, 1, 2]), (3, [3, 0, 2])] [3, 1]) (-1) 1,
    -- 3015: tmp49 = np.copy(tmp47) * -0.5
    .set 239 (.cp 235) (-1) 2,
    -- 3016: tmp49 += tmp48
    .add 239 (.cp 236) 1 1,
    -- 3017: tmp66 = np.copy(ints.tmp37)
    .set 240 (.cp 6) 1 1,
    -- 3018: tmp66 += np.transpose(ints.tmp47, (0, 2, 1, 3))
    .add 240 (.tr 7 [0, 2, 1, 3]) 1 1,
    -- 3019: tmp53 = np.copy(tmp47) * -1
    .set 241 (.cp 235) (-1) 1,
    -- 3020: tmp53 += tmp48 * 2
    .add 241 (.cp 236) 2 1,
    -- 3021: tmp17 = np.copy(tmp9)
    .set 242 (.cp 237) 1 1,
    -- 3022: tmp17 += tmp10 * 0.5
    .add 242 (.cp 238) 1 2,
    -- 3023: tmp14 = np.copy(ints.tmp22)
    .set 243 (.cp 8) 1 1,
    -- 3024: tmp14 += np.transpose(ints.tmp2, (0, 2, 1, 3))
    .add 243 (.tr 9 [0, 2, 1, 3]) 1 1,
    -- 3025: tmp11 = np.copy(tmp9) * 2
    .set 244 (.cp 237) 2 1,
    -- 3026: tmp11 += tmp10
    .add 244 (.cp 238) 1 1,
    -- 3027: tmp78 = einsum(v.bbb.xoo, (0, 1, 2), tmp49, (0, 3), (3, 1, 2)) * 2
    .set 245 (.ein [(10, [0, 1, 2]), (239, [0, 3])] [3, 1, 2]) 2 1,
    -- 3028: tmp76 = einsum(tmp66, (0, 1, 2, 3), r2.bbb, (4, 1, 3), (4, 0, 2)) * -2
    .set 246 (.ein [(240, [0, 1, 2, 3]), (2, [4, 1, 3])] [4, 0, 2]) (-2) 1,
    -- 3029: tmp77 = einsum(ints.tmp16, (0, 1, 2), tmp53, (0, 3), (3, 1, 2))
    .set 247 (.ein [(11, [0, 1, 2]), (241, [0, 3])] [3, 1, 2]) 1 1,
    -- 3030: tmp18 = einsum(ints.tmp6, (0, 1, 2), tmp17, (0, 3), (1, 2, 3))
    .set 248 (.ein [(12, [0, 1, 2]), (242, [0, 3])] [1, 2, 3]) 1 1,
    -- 3031: del tmp17
    .del 242,
    -- 3032: tmp15 = einsum(tmp14, (0, 1, 2, 3), r2.aaa, (4, 2, 3), (4, 0, 1)) * -1
    .set 249 (.ein [(243, [0, 1, 2, 3]), (4, [4, 2, 3])] [4, 0, 1]) (-1) 1,
    -- 3033: tmp16 = einsum(tmp11, (0, 1), v.baa.xoo, (0, 2, 3), (2, 3, 1)) * 0.5
    .set 250 (.ein [(244, [0, 1]), (13, [0, 2, 3])] [2, 3, 1]) 1 2,
    -- 3034: tmp92 = np.copy(ints.tmp389)
    .set 251 (.cp 14) 1 1,
    -- 3035: del ints.tmp389
    .del 14,
    -- 3036: tmp92 += np.transpose(ints.tmp403, (1, 2, 0, 3))
    .add 251 (.tr 15 [1, 2, 0, 3]) 1 1,
    -- 3037: del ints.tmp403
    .del 15,
    -- 3038: tmp92 += np.transpose(ints.tmp418, (0, 2, 1, 3))
    .add 251 (.tr 16 [0, 2, 1, 3]) 1 1,
    -- 3039: del ints.tmp418
    .del 16,
    -- 3040: tmp92 += np.transpose(ints.tmp447, (0, 2, 1, 3))
    .add 251 (.tr 17 [0, 2, 1, 3]) 1 1,
    -- 3041: del ints.tmp447
    .del 17,
    -- 3042: tmp92 += ints.tmp459
    .add 251 (.cp 18) 1 1,
    -- 3043: del ints.tmp459
    .del 18,
    -- 3044: tmp92 += np.transpose(ints.tmp416, (0, 2, 1, 3)) * 2
    .add 251 (.tr 19 [0, 2, 1, 3]) 2 1,
    -- 3045: del ints.tmp416
    .del 19,
    -- 3046: tmp92 += ints.tmp455 * 2
    .add 251 (.cp 20) 2 1,
    -- 3047: del ints.tmp455
    .del 20,
    -- 3048: tmp88 = np.copy(ints.tmp276)
    .set 252 (.cp 21) 1 1,
    -- 3049: tmp88 += ints.tmp54
    .add 252 (.cp 22) 1 1,
    -- 3050: tmp88 += ints.tmp51 * 2
    .add 252 (.cp 23) 2 1,
    -- 3051: tmp59 = np.copy(ints.tmp335)
    .set 253 (.cp 24) 1 1,
    -- 3052: del ints.tmp335
    .del 24,
    -- 3053: tmp59 += ints.tmp345
    .add 253 (.cp 25) 1 1,
    -- 3054: del ints.tmp345
    .del 25,
    -- 3055: tmp59 += ints.tmp298 * 2
    .add 253 (.cp 26) 2 1,
    -- 3056: del ints.tmp298
    .del 26,
    -- 3057: tmp90 = np.copy(f.bb.oo)
    .set 254 (.cp 27) 1 1,
    -- 3058: tmp90 += ints.tmp36
    .add 254 (.cp 28) 1 1,
    -- 3059: tmp90 += np.transpose(ints.tmp42, (1, 0))
    .add 254 (.tr 29 [1, 0]) 1 1,
    -- 3060: tmp90 += np.transpose(ints.tmp43, (1, 0))
    .add 254 (.tr 30 [1, 0]) 1 1,
    -- 3061: tmp90 += np.transpose(ints.tmp58, (1, 0))
    .add 254 (.tr 31 [1, 0]) 1 1,
    -- 3062: tmp90 += np.transpose(ints.tmp59, (1, 0))
    .add 254 (.tr 32 [1, 0]) 1 1,
    -- 3063: tmp74 = np.copy(ints.tmp276)
    .set 255 (.cp 21) 1 1,
    -- 3064: tmp74 += ints.tmp51 * 2
    .add 255 (.cp 23) 2 1,
    -- 3065: tmp74 += ints.tmp54
    .add 255 (.cp 22) 1 1,
    -- 3066: tmp83 = np.copy(ints.tmp52) * 2
    .set 256 (.cp 33) 2 1,
    -- 3067: tmp83 += ints.tmp55
    .add 256 (.cp 34) 1 1,
    -- 3068: tmp83 += ints.tmp41 * -1
    .add 256 (.cp 35) (-1) 1,
    -- 3069: tmp83 += ints.tmp57 * -1
    .add 256 (.cp 36) (-1) 1,
    -- 3070: tmp81 = np.copy(ints.tmp37)
    .set 257 (.cp 6) 1 1,
    -- 3071: tmp81 += np.transpose(ints.tmp385, (0, 2, 1, 3))
    .add 257 (.tr 37 [0, 2, 1, 3]) 1 1,
    -- 3072: del ints.tmp385
    .del 37,
    -- 3073: tmp81 += np.transpose(ints.tmp414, (0, 2, 1, 3)) * 2
    .add 257 (.tr 38 [0, 2, 1, 3]) 2 1,
    -- 3074: del ints.tmp414
    .del 38,
    -- 3075: tmp81 += np.transpose(ints.tmp453, (0, 2, 1, 3)) * 2
    .add 257 (.tr 39 [0, 2, 1, 3]) 2 1,
    -- 3076: del ints.tmp453
    .del 39,
    -- 3077: tmp81 += np.transpose(ints.tmp457, (0, 2, 1, 3))
    .add 257 (.tr 40 [0, 2, 1, 3]) 1 1,
    -- 3078: del ints.tmp457
    .del 40,
    -- 3079: tmp81 += ints.tmp461
    .add 257 (.cp 41) 1 1,
    -- 3080: del ints.tmp461
    .del 41,
    -- 3081: tmp81 += np.transpose(ints.tmp47, (0, 2, 1, 3))
    .add 257 (.tr 7 [0, 2, 1, 3]) 1 1,
    -- 3082: tmp79 = np.copy(np.transpose(tmp76, (1, 2, 0))) * -1
    .set 258 (.tr 246 [1, 2, 0]) (-1) 1,
    -- 3083: del tmp76
    .del 246,
    -- 3084: tmp79 += np.transpose(tmp77, (1, 2, 0)) * -1
    .add 258 (.tr 247 [1, 2, 0]) (-1) 1,
    -- 3085: del tmp77
    .del 247,
    -- 3086: tmp79 += np.transpose(tmp78, (0, 2, 1))
    .add 258 (.tr 245 [0, 2, 1]) 1 1,
    -- 3087: del tmp78
    .del 245,
    -- 3088: tmp2 = np.copy(f.bb.ov)
    .set 259 (.cp 42) 1 1,
    -- 3089: tmp2 += ints.tmp18
    .add 259 (.cp 43) 1 1,
    -- 3090: tmp2 += ints.tmp21
    .add 259 (.cp 44) 1 1,
    -- 3091: tmp2 += ints.tmp17 * -1
    .add 259 (.cp 45) (-1) 1,
    -- 3092: del ints.tmp17
    .del 45,
    -- 3093: tmp3 = np.copy(f.aa.ov)
    .set 260 (.cp 46) 1 1,
    -- 3094: tmp3 += ints.tmp14
    .add 260 (.cp 47) 1 1,
    -- 3095: tmp3 += ints.tmp19
    .add 260 (.cp 48) 1 1,
    -- 3096: tmp3 += ints.tmp12 * -1
    .add 260 (.cp 49) (-1) 1,
    -- 3097: del ints.tmp12
    .del 49,
    -- 3098: tmp29 = np.copy(tmp9) * 2
    .set 261 (.cp 237) 2 1,
    -- 3099: del tmp9
    .del 237,
    -- 3100: tmp29 += tmp10
    .add 261 (.cp 238) 1 1,
    -- 3101: del tmp10
    .del 238,
    -- 3102: tmp31 = np.copy(f.aa.oo)
    .set 262 (.cp 50) 1 1,
    -- 3103: tmp31 += np.transpose(ints.tmp11, (1, 0))
    .add 262 (.tr 51 [1, 0]) 1 1,
    -- 3104: tmp31 += ints.tmp1
    .add 262 (.cp 52) 1 1,
    -- 3105: tmp31 += np.transpose(ints.tmp33, (1, 0))
    .add 262 (.tr 53 [1, 0]) 1 1,
    -- 3106: tmp31 += np.transpose(ints.tmp34, (1, 0))
    .add 262 (.tr 54 [1, 0]) 1 1,
    -- 3107: tmp31 += np.transpose(ints.tmp9, (1, 0))
    .add 262 (.tr 55 [1, 0]) 1 1,
    -- 3108: tmp33 = np.copy(ints.tmp105)
    .set 263 (.cp 56) 1 1,
    -- 3109: del ints.tmp105
    .del 56,
    -- 3110: tmp33 += np.transpose(ints.tmp122, (1, 0, 2, 3))
    .add 263 (.tr 57 [1, 0, 2, 3]) 1 1,
    -- 3111: del ints.tmp122
    .del 57,
    -- 3112: tmp33 += np.transpose(ints.tmp171, (1, 0, 2, 3))
    .add 263 (.tr 58 [1, 0, 2, 3]) 1 1,
    -- 3113: del ints.tmp171
    .del 58,
    -- 3114: tmp33 += np.transpose(ints.tmp187, (2, 0, 1, 3))
    .add 263 (.tr 59 [2, 0, 1, 3]) 1 1,
    -- 3115: del ints.tmp187
    .del 59,
    -- 3116: tmp33 += np.transpose(ints.tmp87, (2, 0, 1, 3))
    .add 263 (.tr 60 [2, 0, 1, 3]) 1 1,
    -- 3117: del ints.tmp87
    .del 60,
    -- 3118: tmp33 += np.transpose(ints.tmp120, (1, 0, 2, 3)) * 2
    .add 263 (.tr 61 [1, 0, 2, 3]) 2 1,
    -- 3119: del ints.tmp120
    .del 61,
    -- 3120: tmp33 += np.transpose(ints.tmp181, (2, 0, 1, 3)) * 2
    .add 263 (.tr 62 [2, 0, 1, 3]) 2 1,
    -- 3121: del ints.tmp181
    .del 62,
    -- 3122: tmp27 = np.copy(ints.tmp168)
    .set 264 (.cp 63) 1 1,
    -- 3123: tmp27 += ints.tmp74
    .add 264 (.cp 64) 1 1,
    -- 3124: tmp27 += ints.tmp128 * 2
    .add 264 (.cp 65) 2 1,
    -- 3125: tmp21 = np.copy(ints.tmp118)
    .set 265 (.cp 66) 1 1,
    -- 3126: del ints.tmp118
    .del 66,
    -- 3127: tmp21 += ints.tmp179
    .add 265 (.cp 67) 1 1,
    -- 3128: del ints.tmp179
    .del 67,
    -- 3129: tmp21 += ints.tmp183 * 0.5
    .add 265 (.cp 68) 1 2,
    -- 3130: del ints.tmp183
    .del 68,
    -- 3131: tmp21 += np.transpose(ints.tmp189, (0, 2, 1, 3)) * 0.5
    .add 265 (.tr 69 [0, 2, 1, 3]) 1 2,
    -- 3132: del ints.tmp189
    .del 69,
    -- 3133: tmp21 += ints.tmp22 * 0.5
    .add 265 (.cp 8) 1 2,
    -- 3134: tmp21 += np.transpose(ints.tmp2, (0, 2, 1, 3)) * 0.5
    .add 265 (.tr 9 [0, 2, 1, 3]) 1 2,
    -- 3135: tmp21 += ints.tmp83 * 0.5
    .add 265 (.cp 70) 1 2,
    -- 3136: del ints.tmp83
    .del 70,
    -- 3137: tmp19 = np.copy(np.transpose(tmp15, (1, 2, 0))) * -1
    .set 266 (.tr 249 [1, 2, 0]) (-1) 1,
    -- 3138: del tmp15
    .del 249,
    -- 3139: tmp19 += np.transpose(tmp16, (2, 1, 0))
    .add 266 (.tr 250 [2, 1, 0]) 1 1,
    -- 3140: del tmp16
    .del 250,
    -- 3141: tmp19 += tmp18 * -1
    .add 266 (.cp 248) (-1) 1,
    -- 3142: del tmp18
    .del 248,
    -- 3143: tmp23 = np.copy(ints.tmp27) * 2
    .set 267 (.cp 71) 2 1,
    -- 3144: tmp23 += ints.tmp30
    .add 267 (.cp 72) 1 1,
    -- 3145: tmp23 += ints.tmp32 * -1
    .add 267 (.cp 73) (-1) 1,
    -- 3146: tmp23 += ints.tmp7 * -1
    .add 267 (.cp 74) (-1) 1,
    -- 3147: tmp12 = np.copy(ints.tmp26)
    .set 268 (.cp 75) 1 1,
    -- 3148: tmp12 += ints.tmp29 * 0.5
    .add 268 (.cp 76) 1 2,
    -- 3149: tmp12 += ints.tmp69 * 0.5
    .add 268 (.cp 77) 1 2,
    -- 3150: tmp86 = einsum(v.bbb.xov, (0, 1, 2), tmp48, (0, 3), (3, 1, 2))
    .set 269 (.ein [(3, [0, 1, 2]), (236, [0, 3])] [3, 1, 2]) 1 1,
    -- 3151: tmp93 = einsum(r1.b, (0,), tmp92, (1, 2, 0, 3), (1, 2, 3))
    .set 270 (.ein [(78, [0]), (251, [1, 2, 0, 3])] [1, 2, 3]) 1 1,
    -- 3152: del tmp92
    .del 251,
    -- 3153: tmp89 = einsum(tmp88, (0, 1, 2), tmp47, (0, 3), (1, 3, 2))
    .set 271 (.ein [(252, [0, 1, 2]), (235, [0, 3])] [1, 3, 2]) 1 1,
    -- 3154: del tmp88
    .del 252,
    -- 3155: tmp87 = einsum(r2.bbb, (0, 1, 2), tmp59, (3, 1, 4, 2), (0, 3, 4)) * -1
    .set 272 (.ein [(2, [0, 1, 2]), (253, [3, 1, 4, 2])] [0, 3, 4]) (-1) 1,
    -- 3156: tmp91 = einsum(tmp90, (0, 1), r2.bbb, (2, 0, 3), (1, 2, 3)) * -1
    .set 273 (.ein [(254, [0, 1]), (2, [2, 0, 3])] [1, 2, 3]) (-1) 1,
    -- 3157: del tmp90
    .del 254,
    -- 3158: tmp73 = einsum(tmp47, (0, 1), v.bbb.xov, (0, 2, 3), (1, 2, 3))
    .set 274 (.ein [(235, [0, 1]), (3, [0, 2, 3])] [1, 2, 3]) 1 1,
    -- 3159: del tmp47
    .del 235,
    -- 3160: tmp72 = einsum(ints.tmp449, (0, 1, 2, 3), r2.bbb, (3, 1, 4), (0, 2, 4)) * -1
    .set 275 (.ein [(79, [0, 1, 2, 3]), (2, [3, 1, 4])] [0, 2, 4]) (-1) 1,
    -- 3161: del ints.tmp449
    .del 79,
    -- 3162: tmp75 = einsum(tmp74, (0, 1, 2), tmp48, (0, 3), (1, 3, 2)) * 2
    .set 276 (.ein [(255, [0, 1, 2]), (236, [0, 3])] [1, 3, 2]) 2 1,
    -- 3163: del tmp48, tmp74
    .del 236,
    .del 255,
    -- 3164: tmp71 = einsum(r2.aba, (0, 1, 2), ints.tmp295, (0, 3, 2, 4), (3, 1, 4))
    .set 277 (.ein [(0, [0, 1, 2]), (80, [0, 3, 2, 4])] [3, 1, 4]) 1 1,
    -- 3165: tmp84 = einsum(tmp83, (0, 1), r2.bbb, (2, 1, 3), (0, 2, 3)) * -2
    .set 278 (.ein [(256, [0, 1]), (2, [2, 1, 3])] [0, 2, 3]) (-2) 1,
    -- 3166: del tmp83
    .del 256,
    -- 3167: tmp82 = einsum(r1.b, (0,), tmp81, (1, 0, 2, 3), (1, 2, 3))
    .set 279 (.ein [(78, [0]), (257, [1, 0, 2, 3])] [1, 2, 3]) 1 1,
    -- 3168: del tmp81
    .del 257,
    -- 3169: tmp80 = einsum(t1.bb, (0, 1), tmp79, (2, 0, 3), (2, 3, 1))
    .set 280 (.ein [(81, [0, 1]), (258, [2, 0, 3])] [2, 3, 1]) 1 1,
    -- 3170: del tmp79
    .del 258,
    -- 3171: tmp63 = einsum(tmp2, (0, 1), t1.bb, (0, 2), (1, 2))
    .set 281 (.ein [(259, [0, 1]), (81, [0, 2])] [1, 2]) 1 1,
    -- 3172: tmp56 = einsum(r2.aba, (0, 1, 2), ints.tmp156, (0, 1, 2, 3), (3,))
    .set 282 (.ein [(0, [0, 1, 2]), (82, [0, 1, 2, 3])] [3]) 1 1,
    -- 3173: tmp57 = einsum(ints.tmp131, (0, 1, 2, 3), r2.bbb, (1, 0, 2), (3,)) * -1
    .set 283 (.ein [(83, [0, 1, 2, 3]), (2, [1, 0, 2])] [3]) (-1) 1,
    -- 3174: del ints.tmp131
    .del 83,
    -- 3175: tmp40 = einsum(r2.bab, (0, 1, 2), ints.tmp156, (1, 0, 3, 2), (3,)) * -1
    .set 284 (.ein [(5, [0, 1, 2]), (82, [1, 0, 3, 2])] [3]) (-1) 1,
    -- 3176: del ints.tmp156
    .del 82,
    -- 3177: tmp39 = einsum(ints.tmp92, (0, 1, 2, 3), r2.aaa, (1, 0, 2), (3,)) * -1
    .set 285 (.ein [(84, [0, 1, 2, 3]), (4, [1, 0, 2])] [3]) (-1) 1,
    -- 3178: del ints.tmp92
    .del 84,
    -- 3179: tmp0 = np.copy(ints.tmp24)
    .set 286 (.cp 85) 1 1,
    -- 3180: tmp0 += ints.tmp4
    .add 286 (.cp 86) 1 1,
    -- 3181: tmp67 = np.copy(ints.tmp16)
    .set 287 (.cp 11) 1 1,
    -- 3182: del ints.tmp16
    .del 11,
    -- 3183: tmp67 += v.bbb.xoo
    .add 287 (.cp 10) 1 1,
    -- 3184: tmp37 = einsum(t1.aa, (0, 1), tmp3, (0, 2), (2, 1))
    .set 288 (.ein [(87, [0, 1]), (260, [0, 2])] [2, 1]) 1 1,
    -- 3185: tmp54 = np.copy(ints.tmp6)
    .set 289 (.cp 12) 1 1,
    -- 3186: del ints.tmp6
    .del 12,
    -- 3187: tmp54 += v.baa.xoo
    .add 289 (.cp 13) 1 1,
    -- 3188: tmp52 = np.copy(ints.tmp39)
    .set 290 (.cp 88) 1 1,
    -- 3189: tmp52 += ints.tmp49
    .add 290 (.cp 89) 1 1,
    -- 3190: tmp26 = einsum(r2.bab, (0, 1, 2), ints.tmp132, (3, 0, 4, 2), (3, 1, 4)) * -1
    .set 291 (.ein [(5, [0, 1, 2]), (90, [3, 0, 4, 2])] [3, 1, 4]) (-1) 1,
    -- 3191: tmp30 = einsum(tmp29, (0, 1), v.baa.xov, (0, 2, 3), (2, 1, 3))
    .set 292 (.ein [(261, [0, 1]), (1, [0, 2, 3])] [2, 1, 3]) 1 1,
    -- 3192: del tmp29
    .del 261,
    -- 3193: tmp32 = einsum(tmp31, (0, 1), r2.aaa, (2, 0, 3), (2, 1, 3)) * -1
    .set 293 (.ein [(262, [0, 1]), (4, [2, 0, 3])] [2, 1, 3]) (-1) 1,
    -- 3194: del tmp31
    .del 262,
    -- 3195: tmp34 = einsum(tmp33, (0, 1, 2, 3), r1.a, (0,), (1, 2, 3))
    .set 294 (.ein [(263, [0, 1, 2, 3]), (91, [0])] [1, 2, 3]) 1 1,
    -- 3196: del tmp33
    .del 263,
    -- 3197: tmp28 = einsum(r2.aaa, (0, 1, 2), tmp27, (3, 1, 4, 2), (0, 3, 4)) * -1
    .set 295 (.ein [(4, [0, 1, 2]), (264, [3, 1, 4, 2])] [0, 3, 4]) (-1) 1,
    -- 3198: del tmp27
    .del 264,
    -- 3199: tmp8 = einsum(r2.aaa, (0, 1, 2), ints.tmp173, (3, 1, 4, 0), (3, 4, 2)) * -1
    .set 296 (.ein [(4, [0, 1, 2]), (92, [3, 1, 4, 0])] [3, 4, 2]) (-1) 1,
    -- 3200: del ints.tmp173
    .del 92,
    -- 3201: tmp22 = einsum(tmp21, (0, 1, 2, 3), r1.a, (2,), (0, 1, 3)) * 2
    .set 297 (.ein [(265, [0, 1, 2, 3]), (91, [2])] [0, 1, 3]) 2 1,
    -- 3202: del tmp21
    .del 265,
    -- 3203: tmp20 = einsum(tmp19, (0, 1, 2), t1.aa, (1, 3), (0, 2, 3)) * 2
    .set 298 (.ein [(266, [0, 1, 2]), (87, [1, 3])] [0, 2, 3]) 2 1,
    -- 3204: del tmp19
    .del 266,
    -- 3205: tmp24 = einsum(tmp23, (0, 1), r2.aaa, (2, 1, 3), (2, 0, 3)) * -2
    .set 299 (.ein [(267, [0, 1]), (4, [2, 1, 3])] [2, 0, 3]) (-2) 1,
    -- 3206: del tmp23
    .del 267,
    -- 3207: tmp13 = einsum(tmp12, (0, 1, 2), tmp11, (0, 3), (3, 1, 2)) * 2
    .set 300 (.ein [(268, [0, 1, 2]), (244, [0, 3])] [3, 1, 2]) 2 1,
    -- 3208: del tmp12
    .del 268,
    -- 3209: tmp94 = np.copy(tmp86) * 2
    .set 301 (.cp 269) 2 1,
    -- 3210: del tmp86
    .del 269,
    -- 3211: tmp94 += np.transpose(tmp87, (1, 0, 2)) * -2
    .add 301 (.tr 272 [1, 0, 2]) (-2) 1,
    -- 3212: del tmp87
    .del 272,
    -- 3213: tmp94 += tmp89
    .add 301 (.cp 271) 1 1,
    -- 3214: del tmp89
    .del 271,
    -- 3215: tmp94 += tmp91 * -2
    .add 301 (.cp 273) (-2) 1,
    -- 3216: del tmp91
    .del 273,
    -- 3217: tmp94 += tmp93
    .add 301 (.cp 270) 1 1,
    -- 3218: del tmp93
    .del 270,
    -- 3219: tmp70 = np.copy(ints.tmp302)
    .set 302 (.cp 93) 1 1,
    -- 3220: del ints.tmp302
    .del 93,
    -- 3221: tmp70 += ints.tmp304 * 2
    .add 302 (.cp 94) 2 1,
    -- 3222: del ints.tmp304
    .del 94,
    -- 3223: tmp70 += ints.tmp308
    .add 302 (.cp 95) 1 1,
    -- 3224: del ints.tmp308
    .del 95,
    -- 3225: tmp70 += ints.tmp315 * 2
    .add 302 (.cp 96) 2 1,
    -- 3226: del ints.tmp315
    .del 96,
    -- 3227: tmp70 += ints.tmp316
    .add 302 (.cp 97) 1 1,
    -- 3228: del ints.tmp316
    .del 97,
    -- 3229: tmp70 += ints.tmp329
    .add 302 (.cp 98) 1 1,
    -- 3230: del ints.tmp329
    .del 98,
    -- 3231: tmp70 += ints.tmp330
    .add 302 (.cp 99) 1 1,
    -- 3232: del ints.tmp330
    .del 99,
    -- 3233: tmp70 += ints.tmp337 * 2
    .add 302 (.cp 100) 2 1,
    -- 3234: del ints.tmp337
    .del 100,
    -- 3235: tmp70 += ints.tmp340
    .add 302 (.cp 101) 1 1,
    -- 3236: del ints.tmp340
    .del 101,
    -- 3237: tmp70 += ints.tmp346
    .add 302 (.cp 102) 1 1,
    -- 3238: del ints.tmp346
    .del 102,
    -- 3239: tmp70 += ints.tmp356
    .add 302 (.cp 103) 1 1,
    -- 3240: del ints.tmp356
    .del 103,
    -- 3241: tmp70 += ints.tmp362 * 2
    .add 302 (.cp 104) 2 1,
    -- 3242: del ints.tmp362
    .del 104,
    -- 3243: tmp70 += ints.tmp363
    .add 302 (.cp 105) 1 1,
    -- 3244: del ints.tmp363
    .del 105,
    -- 3245: tmp70 += ints.tmp365 * 2
    .add 302 (.cp 106) 2 1,
    -- 3246: del ints.tmp365
    .del 106,
    -- 3247: tmp70 += ints.tmp366
    .add 302 (.cp 107) 1 1,
    -- 3248: del ints.tmp366
    .del 107,
    -- 3249: tmp70 += ints.tmp373
    .add 302 (.cp 108) 1 1,
    -- 3250: del ints.tmp373
    .del 108,
    -- 3251: tmp70 += ints.tmp374
    .add 302 (.cp 109) 1 1,
    -- 3252: del ints.tmp374
    .del 109,
    -- 3253: tmp70 += f.bb.ov * -1
    .add 302 (.cp 42) (-1) 1,
    -- 3254: tmp70 += ints.tmp18 * -1
    .add 302 (.cp 43) (-1) 1,
    -- 3255: del ints.tmp18
    .del 43,
    -- 3256: tmp70 += ints.tmp21 * -1
    .add 302 (.cp 44) (-1) 1,
    -- 3257: del ints.tmp21
    .del 44,
    -- 3258: tmp70 += ints.tmp286 * -1
    .add 302 (.cp 110) (-1) 1,
    -- 3259: del ints.tmp286
    .del 110,
    -- 3260: tmp70 += ints.tmp287 * -2
    .add 302 (.cp 111) (-2) 1,
    -- 3261: del ints.tmp287
    .del 111,
    -- 3262: tmp70 += ints.tmp303 * -1
    .add 302 (.cp 112) (-1) 1,
    -- 3263: del ints.tmp303
    .del 112,
    -- 3264: tmp70 += ints.tmp305 * -2
    .add 302 (.cp 113) (-2) 1,
    -- 3265: del ints.tmp305
    .del 113,
    -- 3266: tmp70 += ints.tmp306 * -1
    .add 302 (.cp 114) (-1) 1,
    -- 3267: del ints.tmp306
    .del 114,
    -- 3268: tmp70 += ints.tmp307 * -2
    .add 302 (.cp 115) (-2) 1,
    -- 3269: del ints.tmp307
    .del 115,
    -- 3270: tmp70 += ints.tmp328 * -1
    .add 302 (.cp 116) (-1) 1,
    -- 3271: del ints.tmp328
    .del 116,
    -- 3272: tmp70 += ints.tmp334 * -1
    .add 302 (.cp 117) (-1) 1,
    -- 3273: del ints.tmp334
    .del 117,
    -- 3274: tmp70 += ints.tmp338 * -1
    .add 302 (.cp 118) (-1) 1,
    -- 3275: del ints.tmp338
    .del 118,
    -- 3276: tmp70 += ints.tmp339 * -1
    .add 302 (.cp 119) (-1) 1,
    -- 3277: del ints.tmp339
    .del 119,
    -- 3278: tmp70 += ints.tmp341 * -1
    .add 302 (.cp 120) (-1) 1,
    -- 3279: del ints.tmp341
    .del 120,
    -- 3280: tmp70 += ints.tmp372 * -1
    .add 302 (.cp 121) (-1) 1,
    -- 3281: del ints.tmp372
    .del 121,
    -- 3282: tmp85 = np.copy(tmp71)
    .set 303 (.cp 277) 1 1,
    -- 3283: del tmp71
    .del 277,
    -- 3284: tmp85 += tmp72 * 2
    .add 303 (.cp 275) 2 1,
    -- 3285: del tmp72
    .del 275,
    -- 3286: tmp85 += tmp73
    .add 303 (.cp 274) 1 1,
    -- 3287: del tmp73
    .del 274,
    -- 3288: tmp85 += tmp75
    .add 303 (.cp 276) 1 1,
    -- 3289: del tmp75
    .del 276,
    -- 3290: tmp85 += tmp80
    .add 303 (.cp 280) 1 1,
    -- 3291: del tmp80
    .del 280,
    -- 3292: tmp85 += tmp82
    .add 303 (.cp 279) 1 1,
    -- 3293: del tmp82
    .del 279,
    -- 3294: tmp85 += tmp84
    .add 303 (.cp 278) 1 1,
    -- 3295: del tmp84
    .del 278,
    -- 3296: tmp64 = np.copy(ints.tmp277)
    .set 304 (.cp 122) 1 1,
    -- 3297: del ints.tmp277
    .del 122,
    -- 3298: tmp64 += np.transpose(ints.tmp318, (1, 0)) * 2
    .add 304 (.tr 123 [1, 0]) 2 1,
    -- 3299: del ints.tmp318
    .del 123,
    -- 3300: tmp64 += np.transpose(ints.tmp320, (1, 0))
    .add 304 (.tr 124 [1, 0]) 1 1,
    -- 3301: del ints.tmp320
    .del 124,
    -- 3302: tmp64 += f.bb.vv * -1
    .add 304 (.cp 125) (-1) 1,
    -- 3303: tmp64 += np.transpose(ints.tmp275, (1, 0)) * -1
    .add 304 (.tr 126 [1, 0]) (-1) 1,
    -- 3304: del ints.tmp275
    .del 126,
    -- 3305: tmp64 += np.transpose(ints.tmp278, (1, 0)) * -1
    .add 304 (.tr 127 [1, 0]) (-1) 1,
    -- 3306: del ints.tmp278
    .del 127,
    -- 3307: tmp64 += tmp63
    .add 304 (.cp 281) 1 1,
    -- 3308: del tmp63
    .del 281,
    -- 3309: tmp97 = np.copy(ints.tmp396)
    .set 305 (.cp 128) 1 1,
    -- 3310: del ints.tmp396
    .del 128,
    -- 3311: tmp97 += np.transpose(ints.tmp434, (1, 2, 0, 3))
    .add 305 (.tr 129 [1, 2, 0, 3]) 1 1,
    -- 3312: del ints.tmp434
    .del 129,
    -- 3313: tmp97 += ints.tmp440
    .add 305 (.cp 130) 1 1,
    -- 3314: del ints.tmp440
    .del 130,
    -- 3315: tmp97 += ints.tmp442
    .add 305 (.cp 131) 1 1,
    -- 3316: del ints.tmp442
    .del 131,
    -- 3317: tmp97 += ints.tmp392 * -1
    .add 305 (.cp 132) (-1) 1,
    -- 3318: del ints.tmp392
    .del 132,
    -- 3319: tmp97 += ints.tmp438 * -1
    .add 305 (.cp 133) (-1) 1,
    -- 3320: del ints.tmp438
    .del 133,
    -- 3321: tmp95 = np.copy(ints.tmp387)
    .set 306 (.cp 134) 1 1,
    -- 3322: del ints.tmp387
    .del 134,
    -- 3323: tmp95 += ints.tmp394
    .add 306 (.cp 135) 1 1,
    -- 3324: del ints.tmp394
    .del 135,
    -- 3325: tmp95 += np.transpose(ints.tmp401, (0, 2, 1, 3)) * -1
    .add 306 (.tr 136 [0, 2, 1, 3]) (-1) 1,
    -- 3326: del ints.tmp401
    .del 136,
    -- 3327: tmp96 = np.copy(tmp56) * 0.5
    .set 307 (.cp 282) 1 2,
    -- 3328: tmp96 += tmp57
    .add 307 (.cp 283) 1 1,
    -- 3329: tmp69 = np.copy(tmp39) * 2
    .set 308 (.cp 285) 2 1,
    -- 3330: tmp69 += tmp40 * -1
    .add 308 (.cp 284) (-1) 1,
    -- 3331: tmp62 = np.copy(ints.tmp276)
    .set 309 (.cp 21) 1 1,
    -- 3332: del ints.tmp276
    .del 21,
    -- 3333: tmp62 += ints.tmp51 * 2
    .add 309 (.cp 23) 2 1,
    -- 3334: del ints.tmp51
    .del 23,
    -- 3335: tmp62 += ints.tmp54
    .add 309 (.cp 22) 1 1,
    -- 3336: del ints.tmp54
    .del 22,
    -- 3337: tmp62 += v.bbb.xov
    .add 309 (.cp 3) 1 1,
    -- 3338: tmp4 = np.copy(f.aa.oo)
    .set 310 (.cp 50) 1 1,
    -- 3339: tmp4 += np.transpose(ints.tmp11, (1, 0))
    .add 310 (.tr 51 [1, 0]) 1 1,
    -- 3340: del ints.tmp11
    .del 51,
    -- 3341: tmp4 += ints.tmp1
    .add 310 (.cp 52) 1 1,
    -- 3342: del ints.tmp1
    .del 52,
    -- 3343: tmp4 += np.transpose(ints.tmp27, (1, 0)) * 2
    .add 310 (.tr 71 [1, 0]) 2 1,
    -- 3344: del ints.tmp27
    .del 71,
    -- 3345: tmp4 += np.transpose(ints.tmp30, (1, 0))
    .add 310 (.tr 72 [1, 0]) 1 1,
    -- 3346: del ints.tmp30
    .del 72,
    -- 3347: tmp4 += np.transpose(ints.tmp33, (1, 0))
    .add 310 (.tr 53 [1, 0]) 1 1,
    -- 3348: del ints.tmp33
    .del 53,
    -- 3349: tmp4 += np.transpose(ints.tmp34, (1, 0))
    .add 310 (.tr 54 [1, 0]) 1 1,
    -- 3350: del ints.tmp34
    .del 54,
    -- 3351: tmp4 += np.transpose(ints.tmp9, (1, 0))
    .add 310 (.tr 55 [1, 0]) 1 1,
    -- 3352: del ints.tmp9
    .del 55,
    -- 3353: tmp4 += np.transpose(ints.tmp32, (1, 0)) * -1
    .add 310 (.tr 73 [1, 0]) (-1) 1,
    -- 3354: del ints.tmp32
    .del 73,
    -- 3355: tmp4 += np.transpose(ints.tmp7, (1, 0)) * -1
    .add 310 (.tr 74 [1, 0]) (-1) 1,
    -- 3356: del ints.tmp7
    .del 74,
    -- 3357: tmp68 = einsum(tmp0, (0, 1, 2, 3), r2.bab, (4, 1, 3), (0, 2, 4)) * 0.5
    .set 311 (.ein [(286, [0, 1, 2, 3]), (5, [4, 1, 3])] [0, 2, 4]) 1 2,
    -- 3358: tmp68 += einsum(r2.bab, (0, 1, 2), tmp66, (3, 0, 4, 2), (1, 4, 3)) * 0.5
    .add 311 (.ein [(5, [0, 1, 2]), (240, [3, 0, 4, 2])] [1, 4, 3]) 1 2,
    -- 3359: del tmp66
    .del 240,
    -- 3360: tmp68 += einsum(tmp67, (0, 1, 2), tmp11, (0, 3), (3, 2, 1)) * 0.5
    .add 311 (.ein [(287, [0, 1, 2]), (244, [0, 3])] [3, 2, 1]) 1 2,
    -- 3361: del tmp67
    .del 287,
    -- 3362: tmp61 = np.copy(ints.tmp210)
    .set 312 (.cp 137) 1 1,
    -- 3363: tmp61 += ints.tmp214
    .add 312 (.cp 138) 1 1,
    -- 3364: tmp61 += ints.tmp249
    .add 312 (.cp 139) 1 1,
    -- 3365: tmp61 += np.transpose(ints.tmp252, (1, 0, 2, 3))
    .add 312 (.tr 140 [1, 0, 2, 3]) 1 1,
    -- 3366: tmp61 += np.transpose(ints.tmp264, (0, 1, 3, 2))
    .add 312 (.tr 141 [0, 1, 3, 2]) 1 1,
    -- 3367: tmp65 = np.copy(ints.tmp24)
    .set 313 (.cp 85) 1 1,
    -- 3368: del ints.tmp24
    .del 85,
    -- 3369: tmp65 += ints.tmp281
    .add 313 (.cp 142) 1 1,
    -- 3370: del ints.tmp281
    .del 142,
    -- 3371: tmp65 += np.transpose(ints.tmp292, (1, 0, 2, 3))
    .add 313 (.tr 143 [1, 0, 2, 3]) 1 1,
    -- 3372: del ints.tmp292
    .del 143,
    -- 3373: tmp65 += np.transpose(ints.tmp293, (1, 0, 2, 3)) * 2
    .add 313 (.tr 144 [1, 0, 2, 3]) 2 1,
    -- 3374: del ints.tmp293
    .del 144,
    -- 3375: tmp65 += np.transpose(ints.tmp310, (1, 0, 2, 3))
    .add 313 (.tr 145 [1, 0, 2, 3]) 1 1,
    -- 3376: del ints.tmp310
    .del 145,
    -- 3377: tmp65 += ints.tmp326
    .add 313 (.cp 146) 1 1,
    -- 3378: del ints.tmp326
    .del 146,
    -- 3379: tmp65 += ints.tmp327
    .add 313 (.cp 147) 1 1,
    -- 3380: del ints.tmp327
    .del 147,
    -- 3381: tmp65 += ints.tmp342
    .add 313 (.cp 148) 1 1,
    -- 3382: del ints.tmp342
    .del 148,
    -- 3383: tmp65 += ints.tmp350
    .add 313 (.cp 149) 1 1,
    -- 3384: del ints.tmp350
    .del 149,
    -- 3385: tmp65 += ints.tmp352 * 2
    .add 313 (.cp 150) 2 1,
    -- 3386: del ints.tmp352
    .del 150,
    -- 3387: tmp65 += np.transpose(ints.tmp358, (1, 0, 2, 3))
    .add 313 (.tr 151 [1, 0, 2, 3]) 1 1,
    -- 3388: del ints.tmp358
    .del 151,
    -- 3389: tmp65 += ints.tmp4
    .add 313 (.cp 86) 1 1,
    -- 3390: del ints.tmp4
    .del 86,
    -- 3391: tmp65 += ints.tmp284 * -1
    .add 313 (.cp 152) (-1) 1,
    -- 3392: del ints.tmp284
    .del 152,
    -- 3393: tmp65 += np.transpose(ints.tmp289, (1, 0, 2, 3)) * -1
    .add 313 (.tr 153 [1, 0, 2, 3]) (-1) 1,
    -- 3394: del ints.tmp289
    .del 153,
    -- 3395: tmp65 += ints.tmp291 * -1
    .add 313 (.cp 154) (-1) 1,
    -- 3396: del ints.tmp291
    .del 154,
    -- 3397: tmp65 += ints.tmp317 * -1
    .add 313 (.cp 155) (-1) 1,
    -- 3398: del ints.tmp317
    .del 155,
    -- 3399: tmp65 += ints.tmp325 * -1
    .add 313 (.cp 156) (-1) 1,
    -- 3400: del ints.tmp325
    .del 156,
    -- 3401: tmp65 += ints.tmp344 * -1
    .add 313 (.cp 157) (-1) 1,
    -- 3402: del ints.tmp344
    .del 157,
    -- 3403: tmp65 += ints.tmp351 * -1
    .add 313 (.cp 158) (-1) 1,
    -- 3404: del ints.tmp351
    .del 158,
    -- 3405: tmp65 += ints.tmp354 * -1
    .add 313 (.cp 159) (-1) 1,
    -- 3406: del ints.tmp354
    .del 159,
    -- 3407: tmp65 += ints.tmp364 * -1
    .add 313 (.cp 160) (-1) 1,
    -- 3408: del ints.tmp364
    .del 160,
    -- 3409: tmp65 += np.transpose(ints.tmp367, (1, 0, 2, 3)) * -1
    .add 313 (.tr 161 [1, 0, 2, 3]) (-1) 1,
    -- 3410: del ints.tmp367
    .del 161,
    -- 3411: tmp60 = np.copy(ints.tmp279)
    .set 314 (.cp 162) 1 1,
    -- 3412: del ints.tmp279
    .del 162,
    -- 3413: tmp60 += ints.tmp357
    .add 314 (.cp 163) 1 1,
    -- 3414: del ints.tmp357
    .del 163,
    -- 3415: tmp60 += ints.tmp322 * -1
    .add 314 (.cp 164) (-1) 1,
    -- 3416: del ints.tmp322
    .del 164,
    -- 3417: tmp7 = np.copy(f.bb.oo)
    .set 315 (.cp 27) 1 1,
    -- 3418: tmp7 += ints.tmp36
    .add 315 (.cp 28) 1 1,
    -- 3419: del ints.tmp36
    .del 28,
    -- 3420: tmp7 += np.transpose(ints.tmp42, (1, 0))
    .add 315 (.tr 29 [1, 0]) 1 1,
    -- 3421: del ints.tmp42
    .del 29,
    -- 3422: tmp7 += np.transpose(ints.tmp43, (1, 0))
    .add 315 (.tr 30 [1, 0]) 1 1,
    -- 3423: del ints.tmp43
    .del 30,
    -- 3424: tmp7 += np.transpose(ints.tmp52, (1, 0)) * 2
    .add 315 (.tr 33 [1, 0]) 2 1,
    -- 3425: del ints.tmp52
    .del 33,
    -- 3426: tmp7 += np.transpose(ints.tmp55, (1, 0))
    .add 315 (.tr 34 [1, 0]) 1 1,
    -- 3427: del ints.tmp55
    .del 34,
    -- 3428: tmp7 += np.transpose(ints.tmp58, (1, 0))
    .add 315 (.tr 31 [1, 0]) 1 1,
    -- 3429: del ints.tmp58
    .del 31,
    -- 3430: tmp7 += np.transpose(ints.tmp59, (1, 0))
    .add 315 (.tr 32 [1, 0]) 1 1,
    -- 3431: del ints.tmp59
    .del 32,
    -- 3432: tmp7 += np.transpose(ints.tmp41, (1, 0)) * -1
    .add 315 (.tr 35 [1, 0]) (-1) 1,
    -- 3433: del ints.tmp41
    .del 35,
    -- 3434: tmp7 += np.transpose(ints.tmp57, (1, 0)) * -1
    .add 315 (.tr 36 [1, 0]) (-1) 1,
    -- 3435: del ints.tmp57
    .del 36,
    -- 3436: tmp43 = np.copy(ints.tmp116) * 2
    .set 316 (.cp 165) 2 1,
    -- 3437: del ints.tmp116
    .del 165,
    -- 3438: tmp43 += ints.tmp117
    .add 316 (.cp 166) 1 1,
    -- 3439: del ints.tmp117
    .del 166,
    -- 3440: tmp43 += ints.tmp137 * 2
    .add 316 (.cp 167) 2 1,
    -- 3441: del ints.tmp137
    .del 167,
    -- 3442: tmp43 += ints.tmp139
    .add 316 (.cp 168) 1 1,
    -- 3443: del ints.tmp139
    .del 168,
    -- 3444: tmp43 += ints.tmp144
    .add 316 (.cp 169) 1 1,
    -- 3445: del ints.tmp144
    .del 169,
    -- 3446: tmp43 += ints.tmp145
    .add 316 (.cp 170) 1 1,
    -- 3447: del ints.tmp145
    .del 170,
    -- 3448: tmp43 += ints.tmp166
    .add 316 (.cp 171) 1 1,
    -- 3449: del ints.tmp166
    .del 171,
    -- 3450: tmp43 += ints.tmp170
    .add 316 (.cp 172) 1 1,
    -- 3451: del ints.tmp170
    .del 172,
    -- 3452: tmp43 += ints.tmp177 * 2
    .add 316 (.cp 173) 2 1,
    -- 3453: del ints.tmp177
    .del 173,
    -- 3454: tmp43 += ints.tmp178
    .add 316 (.cp 174) 1 1,
    -- 3455: del ints.tmp178
    .del 174,
    -- 3456: tmp43 += ints.tmp185 * 2
    .add 316 (.cp 175) 2 1,
    -- 3457: del ints.tmp185
    .del 175,
    -- 3458: tmp43 += ints.tmp186
    .add 316 (.cp 176) 1 1,
    -- 3459: del ints.tmp186
    .del 176,
    -- 3460: tmp43 += ints.tmp201
    .add 316 (.cp 177) 1 1,
    -- 3461: del ints.tmp201
    .del 177,
    -- 3462: tmp43 += ints.tmp202
    .add 316 (.cp 178) 1 1,
    -- 3463: del ints.tmp202
    .del 178,
    -- 3464: tmp43 += ints.tmp78 * 2
    .add 316 (.cp 179) 2 1,
    -- 3465: del ints.tmp78
    .del 179,
    -- 3466: tmp43 += ints.tmp81
    .add 316 (.cp 180) 1 1,
    -- 3467: del ints.tmp81
    .del 180,
    -- 3468: tmp43 += ints.tmp98
    .add 316 (.cp 181) 1 1,
    -- 3469: del ints.tmp98
    .del 181,
    -- 3470: tmp43 += f.aa.ov * -1
    .add 316 (.cp 46) (-1) 1,
    -- 3471: tmp43 += ints.tmp101 * -2
    .add 316 (.cp 182) (-2) 1,
    -- 3472: del ints.tmp101
    .del 182,
    -- 3473: tmp43 += ints.tmp102 * -1
    .add 316 (.cp 183) (-1) 1,
    -- 3474: del ints.tmp102
    .del 183,
    -- 3475: tmp43 += ints.tmp138 * -2
    .add 316 (.cp 184) (-2) 1,
    -- 3476: del ints.tmp138
    .del 184,
    -- 3477: tmp43 += ints.tmp140 * -1
    .add 316 (.cp 185) (-1) 1,
    -- 3478: del ints.tmp140
    .del 185,
    -- 3479: tmp43 += ints.tmp141 * -2
    .add 316 (.cp 186) (-2) 1,
    -- 3480: del ints.tmp141
    .del 186,
    -- 3481: tmp43 += ints.tmp142 * -1
    .add 316 (.cp 187) (-1) 1,
    -- 3482: del ints.tmp142
    .del 187,
    -- 3483: tmp43 += ints.tmp143 * -1
    .add 316 (.cp 188) (-1) 1,
    -- 3484: del ints.tmp143
    .del 188,
    -- 3485: tmp43 += ints.tmp14 * -1
    .add 316 (.cp 47) (-1) 1,
    -- 3486: del ints.tmp14
    .del 47,
    -- 3487: tmp43 += ints.tmp19 * -1
    .add 316 (.cp 48) (-1) 1,
    -- 3488: del ints.tmp19
    .del 48,
    -- 3489: tmp43 += ints.tmp200 * -1
    .add 316 (.cp 189) (-1) 1,
    -- 3490: del ints.tmp200
    .del 189,
    -- 3491: tmp43 += ints.tmp61 * -1
    .add 316 (.cp 190) (-1) 1,
    -- 3492: del ints.tmp61
    .del 190,
    -- 3493: tmp43 += ints.tmp79 * -1
    .add 316 (.cp 191) (-1) 1,
    -- 3494: del ints.tmp79
    .del 191,
    -- 3495: tmp43 += ints.tmp80 * -1
    .add 316 (.cp 192) (-1) 1,
    -- 3496: del ints.tmp80
    .del 192,
    -- 3497: tmp43 += ints.tmp82 * -1
    .add 316 (.cp 193) (-1) 1,
    -- 3498: del ints.tmp82
    .del 193,
    -- 3499: tmp50 = np.copy(ints.tmp26) * 2
    .set 317 (.cp 75) 2 1,
    -- 3500: del ints.tmp26
    .del 75,
    -- 3501: tmp50 += ints.tmp29
    .add 317 (.cp 76) 1 1,
    -- 3502: del ints.tmp29
    .del 76,
    -- 3503: tmp50 += ints.tmp69
    .add 317 (.cp 77) 1 1,
    -- 3504: del ints.tmp69
    .del 77,
    -- 3505: tmp50 += v.baa.xov
    .add 317 (.cp 1) 1 1,
    -- 3506: tmp46 = np.copy(ints.tmp210)
    .set 318 (.cp 137) 1 1,
    -- 3507: del ints.tmp210
    .del 137,
    -- 3508: tmp46 += ints.tmp214
    .add 318 (.cp 138) 1 1,
    -- 3509: del ints.tmp214
    .del 138,
    -- 3510: tmp46 += ints.tmp249
    .add 318 (.cp 139) 1 1,
    -- 3511: del ints.tmp249
    .del 139,
    -- 3512: tmp46 += np.transpose(ints.tmp252, (1, 0, 2, 3))
    .add 318 (.tr 140 [1, 0, 2, 3]) 1 1,
    -- 3513: del ints.tmp252
    .del 140,
    -- 3514: tmp46 += np.transpose(ints.tmp264, (0, 1, 3, 2))
    .add 318 (.tr 141 [0, 1, 3, 2]) 1 1,
    -- 3515: del ints.tmp264
    .del 141,
    -- 3516: tmp51 = np.copy(ints.tmp208)
    .set 319 (.cp 194) 1 1,
    -- 3517: del ints.tmp208
    .del 194,
    -- 3518: tmp51 += np.transpose(ints.tmp219, (0, 2, 1, 3))
    .add 319 (.tr 195 [0, 2, 1, 3]) 1 1,
    -- 3519: del ints.tmp219
    .del 195,
    -- 3520: tmp51 += np.transpose(ints.tmp220, (0, 2, 1, 3)) * 2
    .add 319 (.tr 196 [0, 2, 1, 3]) 2 1,
    -- 3521: del ints.tmp220
    .del 196,
    -- 3522: tmp51 += np.transpose(ints.tmp228, (0, 2, 1, 3))
    .add 319 (.tr 197 [0, 2, 1, 3]) 1 1,
    -- 3523: del ints.tmp228
    .del 197,
    -- 3524: tmp51 += ints.tmp242
    .add 319 (.cp 198) 1 1,
    -- 3525: del ints.tmp242
    .del 198,
    -- 3526: tmp51 += ints.tmp243
    .add 319 (.cp 199) 1 1,
    -- 3527: del ints.tmp243
    .del 199,
    -- 3528: tmp51 += ints.tmp248
    .add 319 (.cp 200) 1 1,
    -- 3529: del ints.tmp248
    .del 200,
    -- 3530: tmp51 += ints.tmp256
    .add 319 (.cp 201) 1 1,
    -- 3531: del ints.tmp256
    .del 201,
    -- 3532: tmp51 += ints.tmp258 * 2
    .add 319 (.cp 202) 2 1,
    -- 3533: del ints.tmp258
    .del 202,
    -- 3534: tmp51 += np.transpose(ints.tmp263, (0, 2, 1, 3))
    .add 319 (.tr 203 [0, 2, 1, 3]) 1 1,
    -- 3535: del ints.tmp263
    .del 203,
    -- 3536: tmp51 += ints.tmp39
    .add 319 (.cp 88) 1 1,
    -- 3537: tmp51 += ints.tmp49
    .add 319 (.cp 89) 1 1,
    -- 3538: tmp51 += ints.tmp212 * -1
    .add 319 (.cp 204) (-1) 1,
    -- 3539: del ints.tmp212
    .del 204,
    -- 3540: tmp51 += np.transpose(ints.tmp216, (0, 2, 1, 3)) * -1
    .add 319 (.tr 205 [0, 2, 1, 3]) (-1) 1,
    -- 3541: del ints.tmp216
    .del 205,
    -- 3542: tmp51 += ints.tmp218 * -1
    .add 319 (.cp 206) (-1) 1,
    -- 3543: del ints.tmp218
    .del 206,
    -- 3544: tmp51 += ints.tmp233 * -1
    .add 319 (.cp 207) (-1) 1,
    -- 3545: del ints.tmp233
    .del 207,
    -- 3546: tmp51 += ints.tmp241 * -1
    .add 319 (.cp 208) (-1) 1,
    -- 3547: del ints.tmp241
    .del 208,
    -- 3548: tmp51 += ints.tmp251 * -1
    .add 319 (.cp 209) (-1) 1,
    -- 3549: del ints.tmp251
    .del 209,
    -- 3550: tmp51 += ints.tmp257 * -1
    .add 319 (.cp 210) (-1) 1,
    -- 3551: del ints.tmp257
    .del 210,
    -- 3552: tmp51 += ints.tmp260 * -1
    .add 319 (.cp 211) (-1) 1,
    -- 3553: del ints.tmp260
    .del 211,
    -- 3554: tmp51 += ints.tmp268 * -1
    .add 319 (.cp 212) (-1) 1,
    -- 3555: del ints.tmp268
    .del 212,
    -- 3556: tmp51 += np.transpose(ints.tmp269, (0, 2, 1, 3)) * -1
    .add 319 (.tr 213 [0, 2, 1, 3]) (-1) 1,
    -- 3557: del ints.tmp269
    .del 213,
    -- 3558: tmp38 = np.copy(np.transpose(ints.tmp124, (1, 0))) * 2
    .set 320 (.tr 214 [1, 0]) 2 1,
    -- 3559: del ints.tmp124
    .del 214,
    -- 3560: tmp38 += np.transpose(ints.tmp126, (1, 0))
    .add 320 (.tr 215 [1, 0]) 1 1,
    -- 3561: del ints.tmp126
    .del 215,
    -- 3562: tmp38 += ints.tmp70
    .add 320 (.cp 216) 1 1,
    -- 3563: del ints.tmp70
    .del 216,
    -- 3564: tmp38 += f.aa.vv * -1
    .add 320 (.cp 217) (-1) 1,
    -- 3565: tmp38 += np.transpose(ints.tmp67, (1, 0)) * -1
    .add 320 (.tr 218 [1, 0]) (-1) 1,
    -- 3566: del ints.tmp67
    .del 218,
    -- 3567: tmp38 += np.transpose(ints.tmp72, (1, 0)) * -1
    .add 320 (.tr 219 [1, 0]) (-1) 1,
    -- 3568: del ints.tmp72
    .del 219,
    -- 3569: tmp38 += tmp37
    .add 320 (.cp 288) 1 1,
    -- 3570: del tmp37
    .del 288,
    -- 3571: tmp45 = np.copy(ints.tmp206)
    .set 321 (.cp 220) 1 1,
    -- 3572: del ints.tmp206
    .del 220,
    -- 3573: tmp45 += ints.tmp262
    .add 321 (.cp 221) 1 1,
    -- 3574: del ints.tmp262
    .del 221,
    -- 3575: tmp45 += ints.tmp236 * -1
    .add 321 (.cp 222) (-1) 1,
    -- 3576: del ints.tmp236
    .del 222,
    -- 3577: tmp55 = einsum(tmp14, (0, 1, 2, 3), r2.aba, (2, 4, 3), (0, 1, 4))
    .set 322 (.ein [(243, [0, 1, 2, 3]), (0, [2, 4, 3])] [0, 1, 4]) 1 1,
    -- 3578: del tmp14
    .del 243,
    -- 3579: tmp55 += einsum(r2.aba, (0, 1, 2), tmp52, (3, 4, 1, 2), (0, 3, 4))
    .add 322 (.ein [(0, [0, 1, 2]), (290, [3, 4, 1, 2])] [0, 3, 4]) 1 1,
    -- 3580: del tmp52
    .del 290,
    -- 3581: tmp55 += einsum(tmp53, (0, 1), tmp54, (0, 2, 3), (2, 3, 1))
    .add 322 (.ein [(241, [0, 1]), (289, [0, 2, 3])] [2, 3, 1]) 1 1,
    -- 3582: del tmp53, tmp54
    .del 241,
    .del 289,
    -- 3583: tmp44 = np.copy(ints.tmp128) * 2
    .set 323 (.cp 65) 2 1,
    -- 3584: del ints.tmp128
    .del 65,
    -- 3585: tmp44 += ints.tmp168
    .add 323 (.cp 63) 1 1,
    -- 3586: del ints.tmp168
    .del 63,
    -- 3587: tmp44 += ints.tmp74
    .add 323 (.cp 64) 1 1,
    -- 3588: del ints.tmp74
    .del 64,
    -- 3589: tmp58 = np.copy(tmp56)
    .set 324 (.cp 282) 1 1,
    -- 3590: del tmp56
    .del 282,
    -- 3591: tmp58 += tmp57 * 2
    .add 324 (.cp 283) 2 1,
    -- 3592: del tmp57
    .del 283,
    -- 3593: tmp35 = np.copy(tmp26)
    .set 325 (.cp 291) 1 1,
    -- 3594: del tmp26
    .del 291,
    -- 3595: tmp35 += np.transpose(tmp28, (1, 0, 2)) * -2
    .add 325 (.tr 295 [1, 0, 2]) (-2) 1,
    -- 3596: del tmp28
    .del 295,
    -- 3597: tmp35 += np.transpose(tmp30, (1, 0, 2))
    .add 325 (.tr 292 [1, 0, 2]) 1 1,
    -- 3598: del tmp30
    .del 292,
    -- 3599: tmp35 += np.transpose(tmp32, (1, 0, 2)) * -2
    .add 325 (.tr 293 [1, 0, 2]) (-2) 1,
    -- 3600: del tmp32
    .del 293,
    -- 3601: tmp35 += tmp34
    .add 325 (.cp 294) 1 1,
    -- 3602: del tmp34
    .del 294,
    -- 3603: tmp36 = np.copy(np.transpose(ints.tmp85, (0, 2, 1, 3)))
    .set 326 (.tr 223 [0, 2, 1, 3]) 1 1,
    -- 3604: del ints.tmp85
    .del 223,
    -- 3605: tmp36 += np.transpose(ints.tmp93, (0, 2, 1, 3))
    .add 326 (.tr 224 [0, 2, 1, 3]) 1 1,
    -- 3606: del ints.tmp93
    .del 224,
    -- 3607: tmp36 += ints.tmp103 * -1
    .add 326 (.cp 225) (-1) 1,
    -- 3608: del ints.tmp103
    .del 225,
    -- 3609: tmp41 = np.copy(tmp39)
    .set 327 (.cp 285) 1 1,
    -- 3610: del tmp39
    .del 285,
    -- 3611: tmp41 += tmp40 * -0.5
    .add 327 (.cp 284) (-1) 2,
    -- 3612: del tmp40
    .del 284,
    -- 3613: tmp25 = np.copy(tmp8) * 2
    .set 328 (.cp 296) 2 1,
    -- 3614: del tmp8
    .del 296,
    -- 3615: tmp25 += np.transpose(tmp13, (1, 0, 2))
    .add 328 (.tr 300 [1, 0, 2]) 1 1,
    -- 3616: del tmp13
    .del 300,
    -- 3617: tmp25 += tmp20
    .add 328 (.cp 298) 1 1,
    -- 3618: del tmp20
    .del 298,
    -- 3619: tmp25 += tmp22
    .add 328 (.cp 297) 1 1,
    -- 3620: del tmp22
    .del 297,
    -- 3621: tmp25 += np.transpose(tmp24, (1, 0, 2))
    .add 328 (.tr 299 [1, 0, 2]) 1 1,
    -- 3622: del tmp24
    .del 299,
    -- 3623: tmp42 = np.copy(ints.tmp152)
    .set 329 (.cp 226) 1 1,
    -- 3624: del ints.tmp152
    .del 226,
    -- 3625: tmp42 += np.transpose(ints.tmp161, (2, 0, 1, 3))
    .add 329 (.tr 227 [2, 0, 1, 3]) 1 1,
    -- 3626: del ints.tmp161
    .del 227,
    -- 3627: tmp42 += np.transpose(ints.tmp163, (2, 0, 1, 3))
    .add 329 (.tr 228 [2, 0, 1, 3]) 1 1,
    -- 3628: del ints.tmp163
    .del 228,
    -- 3629: tmp42 += np.transpose(ints.tmp95, (2, 0, 1, 3))
    .add 329 (.tr 229 [2, 0, 1, 3]) 1 1,
    -- 3630: del ints.tmp95
    .del 229,
    -- 3631: tmp42 += np.transpose(ints.tmp159, (2, 0, 1, 3)) * -1
    .add 329 (.tr 230 [2, 0, 1, 3]) (-1) 1,
    -- 3632: del ints.tmp159
    .del 230,
    -- 3633: tmp42 += np.transpose(ints.tmp90, (2, 0, 1, 3)) * -1
    .add 329 (.tr 231 [2, 0, 1, 3]) (-1) 1,
    -- 3634: del ints.tmp90
    .del 231,
    -- 3635: tmp5 = np.copy(ints.tmp39)
    .set 330 (.cp 88) 1 1,
    -- 3636: del ints.tmp39
    .del 88,
    -- 3637: tmp5 += ints.tmp49
    .add 330 (.cp 89) 1 1,
    -- 3638: del ints.tmp49
    .del 89,
    -- 3639: tmp6 = np.copy(ints.tmp37)
    .set 331 (.cp 6) 1 1,
    -- 3640: del ints.tmp37
    .del 6,
    -- 3641: tmp6 += ints.tmp47 * -1
    .add 331 (.cp 7) (-1) 1,
    -- 3642: del ints.tmp47
    .del 7,
    -- 3643: tmp1 = np.copy(ints.tmp22)
    .set 332 (.cp 8) 1 1,
    -- 3644: del ints.tmp22
    .del 8,
    -- 3645: tmp1 += ints.tmp2 * -1
    .add 332 (.cp 9) (-1) 1,
    -- 3646: del ints.tmp2
    .del 9,
    -- 3647: r2new.bbb = np.copy(tmp85) * -1
    .set 333 (.cp 303) (-1) 1,
    -- 3648: r2new.bbb += np.transpose(tmp85, (1, 0, 2))
    .add 333 (.tr 303 [1, 0, 2]) 1 1,
    -- 3649: del tmp85
    .del 303,
    -- 3650: r2new.bbb += tmp94
    .add 333 (.cp 301) 1 1,
    -- 3651: r2new.bbb += np.transpose(tmp94, (1, 0, 2)) * -1
    .add 333 (.tr 301 [1, 0, 2]) (-1) 1,
    -- 3652: del tmp94
    .del 301,
    -- 3653: r2new.bbb += einsum(tmp95, (0, 1, 2, 3), r2.bbb, (2, 3, 4), (0, 1, 4)) * 2
    .add 333 (.ein [(306, [0, 1, 2, 3]), (2, [2, 3, 4])] [0, 1, 4]) 2 1,
    -- 3654: del tmp95
    .del 306,
    -- 3655: r2new.bbb += einsum(tmp64, (0, 1), r2.bbb, (2, 3, 0), (2, 3, 1)) * -2
    .add 333 (.ein [(304, [0, 1]), (2, [2, 3, 0])] [2, 3, 1]) (-2) 1,
    -- 3656: r2new.bbb += einsum(tmp96, (0,), t2.bbbb, (1, 2, 3, 0), (1, 2, 3)) * -4
    .add 333 (.ein [(307, [0]), (232, [1, 2, 3, 0])] [1, 2, 3]) (-4) 1,
    -- 3657: del tmp96
    .del 307,
    -- 3658: r2new.bbb += einsum(r1.b, (0,), tmp97, (1, 2, 0, 3), (2, 1, 3)) * -2
    .add 333 (.ein [(78, [0]), (305, [1, 2, 0, 3])] [2, 1, 3]) (-2) 1,
    -- 3659: del tmp97
    .del 305,
    -- 3660: r2new.bbb += einsum(tmp70, (0, 1), r1.b, (2,), (2, 0, 1)) * -1
    .add 333 (.ein [(302, [0, 1]), (78, [2])] [2, 0, 1]) (-1) 1,
    -- 3661: r2new.bbb += einsum(r1.b, (0,), tmp70, (1, 2), (1, 0, 2))
    .add 333 (.ein [(78, [0]), (302, [1, 2])] [1, 0, 2]) 1 1,
    -- 3662: r2new.bab = einsum(r2.aaa, (0, 1, 2), ints.tmp295, (1, 3, 2, 4), (3, 0, 4)) * 2
    .set 334 (.ein [(4, [0, 1, 2]), (80, [1, 3, 2, 4])] [3, 0, 4]) 2 1,
    -- 3663: del ints.tmp295
    .del 80,
    -- 3664: r2new.bab += einsum(r2.bab, (0, 1, 2), tmp59, (3, 0, 4, 2), (3, 1, 4)) * -1
    .add 334 (.ein [(5, [0, 1, 2]), (253, [3, 0, 4, 2])] [3, 1, 4]) (-1) 1,
    -- 3665: del tmp59
    .del 253,
    -- 3666: r2new.bab += einsum(r2.bab, (0, 1, 2), tmp60, (3, 1, 4, 2), (0, 3, 4)) * -1
    .add 334 (.ein [(5, [0, 1, 2]), (314, [3, 1, 4, 2])] [0, 3, 4]) (-1) 1,
    -- 3667: del tmp60
    .del 314,
    -- 3668: r2new.bab += einsum(r2.bab, (0, 1, 2), tmp61, (3, 1, 4, 0), (4, 3, 2))
    .add 334 (.ein [(5, [0, 1, 2]), (312, [3, 1, 4, 0])] [4, 3, 2]) 1 1,
    -- 3669: del tmp61
    .del 312,
    -- 3670: r2new.bab += einsum(tmp62, (0, 1, 2), tmp11, (0, 3), (1, 3, 2)) * -1
    .add 334 (.ein [(309, [0, 1, 2]), (244, [0, 3])] [1, 3, 2]) (-1) 1,
    -- 3671: del tmp11, tmp62
    .del 244,
    .del 309,
    -- 3672: r2new.bab += einsum(r2.bab, (0, 1, 2), tmp64, (2, 3), (0, 1, 3)) * -1
    .add 334 (.ein [(5, [0, 1, 2]), (304, [2, 3])] [0, 1, 3]) (-1) 1,
    -- 3673: del tmp64
    .del 304,
    -- 3674: r2new.bab += einsum(tmp65, (0, 1, 2, 3), r1.a, (1,), (2, 0, 3))
    .add 334 (.ein [(313, [0, 1, 2, 3]), (91, [1])] [2, 0, 3]) 1 1,
    -- 3675: del tmp65
    .del 313,
    -- 3676: r2new.bab += einsum(r2.bab, (0, 1, 2), tmp4, (1, 3), (0, 3, 2)) * -1
    .add 334 (.ein [(5, [0, 1, 2]), (310, [1, 3])] [0, 3, 2]) (-1) 1,
    -- 3677: r2new.bab += einsum(r2.bab, (0, 1, 2), tmp7, (0, 3), (3, 1, 2)) * -1
    .add 334 (.ein [(5, [0, 1, 2]), (315, [0, 3])] [3, 1, 2]) (-1) 1,
    -- 3678: r2new.bab += einsum(tmp68, (0, 1, 2), t1.bb, (1, 3), (2, 0, 3)) * 2
    .add 334 (.ein [(311, [0, 1, 2]), (81, [1, 3])] [2, 0, 3]) 2 1,
    -- 3679: del tmp68
    .del 311,
    -- 3680: r2new.bab += einsum(t2.abab, (0, 1, 2, 3), tmp69, (2,), (1, 0, 3)) * -1
    .add 334 (.ein [(233, [0, 1, 2, 3]), (308, [2])] [1, 0, 3]) (-1) 1,
    -- 3681: del tmp69
    .del 308,
    -- 3682: r2new.bab += einsum(r1.a, (0,), tmp70, (1, 2), (1, 0, 2))
    .add 334 (.ein [(91, [0]), (302, [1, 2])] [1, 0, 2]) 1 1,
    -- 3683: del tmp70
    .del 302,
    -- 3684: r2new.aba = einsum(r2.bbb, (0, 1, 2), ints.tmp132, (3, 1, 4, 2), (3, 0, 4)) * 2
    .set 335 (.ein [(2, [0, 1, 2]), (90, [3, 1, 4, 2])] [3, 0, 4]) 2 1,
    -- 3685: del ints.tmp132
    .del 90,
    -- 3686: r2new.aba += einsum(r2.aba, (0, 1, 2), tmp44, (3, 0, 4, 2), (3, 1, 4)) * -1
    .add 335 (.ein [(0, [0, 1, 2]), (323, [3, 0, 4, 2])] [3, 1, 4]) (-1) 1,
    -- 3687: del tmp44
    .del 323,
    -- 3688: r2new.aba += einsum(r2.aba, (0, 1, 2), tmp45, (3, 1, 4, 2), (0, 3, 4)) * -1
    .add 335 (.ein [(0, [0, 1, 2]), (321, [3, 1, 4, 2])] [0, 3, 4]) (-1) 1,
    -- 3689: del tmp45
    .del 321,
    -- 3690: r2new.aba += einsum(tmp46, (0, 1, 2, 3), r2.aba, (1, 3, 4), (0, 2, 4))
    .add 335 (.ein [(318, [0, 1, 2, 3]), (0, [1, 3, 4])] [0, 2, 4]) 1 1,
    -- 3691: del tmp46
    .del 318,
    -- 3692: r2new.aba += einsum(tmp50, (0, 1, 2), tmp49, (0, 3), (1, 3, 2)) * -2
    .add 335 (.ein [(317, [0, 1, 2]), (239, [0, 3])] [1, 3, 2]) (-2) 1,
    -- 3693: del tmp49, tmp50
    .del 239,
    .del 317,
    -- 3694: r2new.aba += einsum(r2.aba, (0, 1, 2), tmp38, (2, 3), (0, 1, 3)) * -1
    .add 335 (.ein [(0, [0, 1, 2]), (320, [2, 3])] [0, 1, 3]) (-1) 1,
    -- 3695: r2new.aba += einsum(tmp51, (0, 1, 2, 3), r1.b, (2,), (0, 1, 3))
    .add 335 (.ein [(319, [0, 1, 2, 3]), (78, [2])] [0, 1, 3]) 1 1,
    -- 3696: del tmp51
    .del 319,
    -- 3697: r2new.aba += einsum(tmp4, (0, 1), r2.aba, (0, 2, 3), (1, 2, 3)) * -1
    .add 335 (.ein [(310, [0, 1]), (0, [0, 2, 3])] [1, 2, 3]) (-1) 1,
    -- 3698: r2new.aba += einsum(r2.aba, (0, 1, 2), tmp7, (1, 3), (0, 3, 2)) * -1
    .add 335 (.ein [(0, [0, 1, 2]), (315, [1, 3])] [0, 3, 2]) (-1) 1,
    -- 3699: r2new.aba += einsum(t1.aa, (0, 1), tmp55, (2, 0, 3), (2, 3, 1))
    .add 335 (.ein [(87, [0, 1]), (322, [2, 0, 3])] [2, 3, 1]) 1 1,
    -- 3700: del tmp55
    .del 322,
    -- 3701: r2new.aba += einsum(tmp58, (0,), t2.abab, (1, 2, 3, 0), (1, 2, 3)) * -1
    .add 335 (.ein [(324, [0]), (233, [1, 2, 3, 0])] [1, 2, 3]) (-1) 1,
    -- 3702: del tmp58
    .del 324,
    -- 3703: r2new.aba += einsum(tmp43, (0, 1), r1.b, (2,), (0, 2, 1))
    .add 335 (.ein [(316, [0, 1]), (78, [2])] [0, 2, 1]) 1 1,
    -- 3704: r2new.aaa = np.copy(tmp25) * -1
    .set 336 (.cp 328) (-1) 1,
    -- 3705: r2new.aaa += np.transpose(tmp25, (1, 0, 2))
    .add 336 (.tr 328 [1, 0, 2]) 1 1,
    -- 3706: del tmp25
    .del 328,
    -- 3707: r2new.aaa += tmp35
    .add 336 (.cp 325) 1 1,
    -- 3708: r2new.aaa += np.transpose(tmp35, (1, 0, 2)) * -1
    .add 336 (.tr 325 [1, 0, 2]) (-1) 1,
    -- 3709: del tmp35
    .del 325,
    -- 3710: r2new.aaa += einsum(tmp36, (0, 1, 2, 3), r2.aaa, (1, 3, 4), (0, 2, 4)) * 2
    .add 336 (.ein [(326, [0, 1, 2, 3]), (4, [1, 3, 4])] [0, 2, 4]) 2 1,
    -- 3711: del tmp36
    .del 326,
    -- 3712: r2new.aaa += einsum(tmp38, (0, 1), r2.aaa, (2, 3, 0), (2, 3, 1)) * -2
    .add 336 (.ein [(320, [0, 1]), (4, [2, 3, 0])] [2, 3, 1]) (-2) 1,
    -- 3713: del tmp38
    .del 320,
    -- 3714: r2new.aaa += einsum(t2.aaaa, (0, 1, 2, 3), tmp41, (3,), (0, 1, 2)) * -4
    .add 336 (.ein [(234, [0, 1, 2, 3]), (327, [3])] [0, 1, 2]) (-4) 1,
    -- 3715: del tmp41
    .del 327,
    -- 3716: r2new.aaa += einsum(tmp42, (0, 1, 2, 3), r1.a, (0,), (2, 1, 3)) * -2
    .add 336 (.ein [(329, [0, 1, 2, 3]), (91, [0])] [2, 1, 3]) (-2) 1,
    -- 3717: del tmp42
    .del 329,
    -- 3718: r2new.aaa += einsum(tmp43, (0, 1), r1.a, (2,), (2, 0, 1)) * -1
    .add 336 (.ein [(316, [0, 1]), (91, [2])] [2, 0, 1]) (-1) 1,
    -- 3719: r2new.aaa += einsum(r1.a, (0,), tmp43, (1, 2), (1, 0, 2))
    .add 336 (.ein [(91, [0]), (316, [1, 2])] [1, 0, 2]) 1 1,
    -- 3720: del tmp43
    .del 316,
    -- 3721: r1new.b = einsum(r2.aba, (0, 1, 2), tmp5, (0, 3, 1, 2), (3,))
    .set 337 (.ein [(0, [0, 1, 2]), (330, [0, 3, 1, 2])] [3]) 1 1,
    -- 3722: del tmp5
    .del 330,
    -- 3723: r1new.b += einsum(r2.bbb, (0, 1, 2), tmp6, (3, 0, 1, 2), (3,)) * -2
    .add 337 (.ein [(2, [0, 1, 2]), (331, [3, 0, 1, 2])] [3]) (-2) 1,
    -- 3724: del tmp6
    .del 331,
    -- 3725: r1new.b += einsum(tmp2, (0, 1), r2.bbb, (2, 0, 1), (2,)) * 2
    .add 337 (.ein [(259, [0, 1]), (2, [2, 0, 1])] [2]) 2 1,
    -- 3726: r1new.b += einsum(r2.aba, (0, 1, 2), tmp3, (0, 2), (1,)) * -1
    .add 337 (.ein [(0, [0, 1, 2]), (260, [0, 2])] [1]) (-1) 1,
    -- 3727: r1new.b += einsum(r1.b, (0,), tmp7, (0, 1), (1,)) * -1
    .add 337 (.ein [(78, [0]), (315, [0, 1])] [1]) (-1) 1,
    -- 3728: del tmp7
    .del 315,
    -- 3729: r1new.a = einsum(r2.bab, (0, 1, 2), tmp0, (3, 1, 0, 2), (3,))
    .set 338 (.ein [(5, [0, 1, 2]), (286, [3, 1, 0, 2])] [3]) 1 1,
    -- 3730: del tmp0
    .del 286,
    -- 3731: r1new.a += einsum(tmp1, (0, 1, 2, 3), r2.aaa, (2, 1, 3), (0,)) * -2
    .add 338 (.ein [(332, [0, 1, 2, 3]), (4, [2, 1, 3])] [0]) (-2) 1,
    -- 3732: del tmp1
    .del 332,
    -- 3733: r1new.a += einsum(r2.bab, (0, 1, 2), tmp2, (0, 2), (1,)) * -1
    .add 338 (.ein [(5, [0, 1, 2]), (259, [0, 2])] [1]) (-1) 1,
    -- 3734: del tmp2
    .del 259,
    -- 3735: r1new.a += einsum(r2.aaa, (0, 1, 2), tmp3, (1, 2), (0,)) * 2
    .add 338 (.ein [(4, [0, 1, 2]), (260, [1, 2])] [0]) 2 1,
    -- 3736: del tmp3
    .del 260,
    -- 3737: r1new.a += einsum(r1.a, (0,), tmp4, (0, 1), (1,)) * -1
    .add 338 (.ein [(91, [0]), (310, [0, 1])] [1]) (-1) 1,
    -- 3738: del tmp4
    .del 310
  ]
  ret := [(chars! "r1new.b", 337), (chars! "r1new.a", 338), (chars! "r2new.bbb", 333), (chars! "r2new.bab", 334), (chars! "r2new.aba", 335), (chars! "r2new.aaa", 336)]

/-- codegen/UDFCCSD.py:4881-5341 `hbar_lmatvec_ip_intermediates`. -/
def hbar_lmatvec_ip_intermediates : GenFun where
  args := [chars! "v.baa.xov", chars! "t1.aa", chars! "v.bbb.xov", chars! "t1.bb", chars! "t2.abab", chars! "t2.bbbb", chars! "t2.aaaa", chars! "v.bbb.xvv", chars! "v.baa.xvv", chars! "v.bbb.xoo", chars! "v.baa.xoo", chars! "f.bb.ov", chars! "f.aa.ov", chars! "f.bb.vv", chars! "f.aa.vv", chars! "f.bb.oo", chars! "f.aa.oo"]
  body := [
    -- 5114: tmp29 = einsum(v.baa.xov, (0, 1, 2), t1.aa, (1, 2), (0,))
    .set 17 (.ein [(0, [0, 1, 2]), (1, [1, 2])] [0]) 1 1,
    -- 5115: tmp31 = einsum(v.bbb.xov, (0, 1, 2), t1.bb, (1, 2), (0,))
    .set 18 (.ein [(2, [0, 1, 2]), (3, [1, 2])] [0]) 1 1,
    -- 5116: tmp106 = einsum(v.bbb.xov, (0, 1, 2), t1.bb, (3, 2), (0, 3, 1))
    .set 19 (.ein [(2, [0, 1, 2]), (3, [3, 2])] [0, 3, 1]) 1 1,
    -- 5117: tmp27 = einsum(v.baa.xov, (0, 1, 2), t1.aa, (3, 2), (0, 3, 1))
    .set 20 (.ein [(0, [0, 1, 2]), (1, [3, 2])] [0, 3, 1]) 1 1,
    -- 5118: tmp170 = einsum(v.bbb.xov, (0, 1, 2), v.baa.xov, (0, 3, 4), (3, 1, 4, 2))
    .set 21 (.ein [(2, [0, 1, 2]), (0, [0, 3, 4])] [3, 1, 4, 2]) 1 1,
    -- 5119: tmp325 = einsum(v.bbb.xov, (0, 1, 2), v.bbb.xov, (0, 3, 4), (1, 3, 2, 4))
    .set 22 (.ein [(2, [0, 1, 2]), (2, [0, 3, 4])] [1, 3, 2, 4]) 1 1,
    -- 5120: tmp47 = einsum(tmp29, (0,), v.bbb.xov, (0, 1, 2), (1, 2))
    .set 23 (.ein [(17, [0]), (2, [0, 1, 2])] [1, 2]) 1 1,
    -- 5121: tmp48 = einsum(tmp31, (0,), v.baa.xov, (0, 1, 2), (1, 2))
    .set 24 (.ein [(18, [0]), (0, [0, 1, 2])] [1, 2]) 1 1,
    -- 5122: tmp44 = einsum(v.bbb.xov, (0, 1, 2), tmp31, (0,), (1, 2))
    .set 25 (.ein [(2, [0, 1, 2]), (18, [0])] [1, 2]) 1 1,
    -- 5123: tmp107 = einsum(v.bbb.xov, (0, 1, 2), tmp106, (0, 1, 3), (3, 2))
    .set 26 (.ein [(2, [0, 1, 2]), (19, [0, 1, 3])] [3, 2]) 1 1,
    -- 5124: tmp39 = einsum(tmp29, (0,), v.baa.xov, (0, 1, 2), (1, 2))
    .set 27 (.ein [(17, [0]), (0, [0, 1, 2])] [1, 2]) 1 1,
    -- 5125: tmp99 = einsum(tmp27, (0, 1, 2), v.baa.xov, (0, 1, 3), (2, 3))
    .set 28 (.ein [(20, [0, 1, 2]), (0, [0, 1, 3])] [2, 3]) 1 1,
    -- 5126: tmp166 = einsum(v.baa.xov, (0, 1, 2), v.baa.xov, (0, 3, 4), (3, 1, 4, 2))
    .set 29 (.ein [(0, [0, 1, 2]), (0, [0, 3, 4])] [3, 1, 4, 2]) 1 1,
    -- 5127: tmp59 = einsum(t2.abab, (0, 1, 2, 3), v.bbb.xov, (4, 1, 3), (4, 0, 2))
    .set 30 (.ein [(4, [0, 1, 2, 3]), (2, [4, 1, 3])] [4, 0, 2]) 1 1,
    -- 5128: tmp77 = einsum(t2.abab, (0, 1, 2, 3), v.baa.xov, (4, 0, 2), (4, 1, 3))
    .set 31 (.ein [(4, [0, 1, 2, 3]), (0, [4, 0, 2])] [4, 1, 3]) 1 1,
    -- 5129: tmp82 = einsum(v.bbb.xov, (0, 1, 2), t2.bbbb, (3, 1, 4, 2), (0, 3, 4))
    .set 32 (.ein [(2, [0, 1, 2]), (5, [3, 1, 4, 2])] [0, 3, 4]) 1 1,
    -- 5130: tmp56 = einsum(v.baa.xov, (0, 1, 2), t2.aaaa, (3, 1, 4, 2), (0, 3, 4))
    .set 33 (.ein [(0, [0, 1, 2]), (6, [3, 1, 4, 2])] [0, 3, 4]) 1 1,
    -- 5131: tmp45 = einsum(v.bbb.xvv, (0, 1, 2), t1.bb, (3, 2), (0, 3, 1))
    .set 34 (.ein [(7, [0, 1, 2]), (3, [3, 2])] [0, 3, 1]) 1 1,
    -- 5132: tmp41 = einsum(v.baa.xvv, (0, 1, 2), t1.aa, (3, 2), (0, 3, 1))
    .set 35 (.ein [(8, [0, 1, 2]), (1, [3, 2])] [0, 3, 1]) 1 1,
    -- 5133: tmp230 = einsum(tmp27, (0, 1, 2), tmp106, (0, 3, 4), (1, 2, 3, 4))
    .set 36 (.ein [(20, [0, 1, 2]), (19, [0, 3, 4])] [1, 2, 3, 4]) 1 1,
    -- 5134: tmp351 = einsum(tmp106, (0, 1, 2), tmp106, (0, 3, 4), (3, 1, 4, 2))
    .set 37 (.ein [(19, [0, 1, 2]), (19, [0, 3, 4])] [3, 1, 4, 2]) 1 1,
    -- 5135: tmp194 = einsum(tmp27, (0, 1, 2), v.bbb.xoo, (0, 3, 4), (1, 2, 3, 4))
    .set 38 (.ein [(20, [0, 1, 2]), (9, [0, 3, 4])] [1, 2, 3, 4]) 1 1,
    -- 5136: tmp196 = einsum(v.baa.xoo, (0, 1, 2), tmp106, (0, 3, 4), (1, 2, 3, 4))
    .set 39 (.ein [(10, [0, 1, 2]), (19, [0, 3, 4])] [1, 2, 3, 4]) 1 1,
    -- 5137: tmp334 = einsum(v.bbb.xoo, (0, 1, 2), tmp106, (0, 3, 4), (3, 1, 2, 4))
    .set 40 (.ein [(9, [0, 1, 2]), (19, [0, 3, 4])] [3, 1, 2, 4]) 1 1,
    -- 5138: tmp171 = einsum(tmp170, (0, 1, 2, 3), t2.abab, (4, 5, 2, 3), (4, 0, 5, 1))
    .set 41 (.ein [(21, [0, 1, 2, 3]), (4, [4, 5, 2, 3])] [4, 0, 5, 1]) 1 1,
    -- 5139: tmp326 = einsum(t2.bbbb, (0, 1, 2, 3), tmp325, (4, 5, 2, 3), (0, 1, 5, 4)) * -1
    .set 42 (.ein [(5, [0, 1, 2, 3]), (22, [4, 5, 2, 3])] [0, 1, 5, 4]) (-1) 1,
    -- 5140: tmp54 = einsum(tmp27, (0, 1, 2), v.bbb.xov, (0, 3, 4), (1, 2, 3, 4))
    .set 43 (.ein [(20, [0, 1, 2]), (2, [0, 3, 4])] [1, 2, 3, 4]) 1 1,
    -- 5141: tmp137 = einsum(v.bbb.xov, (0, 1, 2), tmp106, (0, 3, 4), (3, 1, 4, 2))
    .set 44 (.ein [(2, [0, 1, 2]), (19, [0, 3, 4])] [3, 1, 4, 2]) 1 1,
    -- 5142: tmp282 = einsum(v.baa.xvv, (0, 1, 2), v.bbb.xov, (0, 3, 4), (3, 1, 2, 4))
    .set 45 (.ein [(8, [0, 1, 2]), (2, [0, 3, 4])] [3, 1, 2, 4]) 1 1,
    -- 5143: tmp279 = einsum(v.bbb.xov, (0, 1, 2), v.bbb.xvv, (0, 3, 4), (1, 3, 4, 2))
    .set 46 (.ein [(2, [0, 1, 2]), (7, [0, 3, 4])] [1, 3, 4, 2]) 1 1,
    -- 5144: tmp25 = einsum(v.bbb.xov, (0, 1, 2), v.baa.xoo, (0, 3, 4), (3, 4, 1, 2))
    .set 47 (.ein [(2, [0, 1, 2]), (10, [0, 3, 4])] [3, 4, 1, 2]) 1 1,
    -- 5145: tmp64 = einsum(v.bbb.xoo, (0, 1, 2), v.bbb.xov, (0, 3, 4), (1, 2, 3, 4))
    .set 48 (.ein [(9, [0, 1, 2]), (2, [0, 3, 4])] [1, 2, 3, 4]) 1 1,
    -- 5146: tmp36 = einsum(v.bbb.xoo, (0, 1, 2), v.baa.xoo, (0, 3, 4), (3, 4, 1, 2))
    .set 49 (.ein [(9, [0, 1, 2]), (10, [0, 3, 4])] [3, 4, 1, 2]) 1 1,
    -- 5147: tmp246 = einsum(v.bbb.xoo, (0, 1, 2), v.bbb.xoo, (0, 3, 4), (1, 3, 4, 2))
    .set 50 (.ein [(9, [0, 1, 2]), (9, [0, 3, 4])] [1, 3, 4, 2]) 1 1,
    -- 5148: tmp227 = einsum(tmp27, (0, 1, 2), tmp27, (0, 3, 4), (3, 1, 4, 2))
    .set 51 (.ein [(20, [0, 1, 2]), (20, [0, 3, 4])] [3, 1, 4, 2]) 1 1,
    -- 5149: tmp225 = einsum(tmp47, (0, 1), t1.bb, (2, 1), (2, 0))
    .set 52 (.ein [(23, [0, 1]), (3, [2, 1])] [2, 0]) 1 1,
    -- 5150: tmp176 = einsum(tmp48, (0, 1), t1.aa, (2, 1), (2, 0))
    .set 53 (.ein [(24, [0, 1]), (1, [2, 1])] [2, 0]) 1 1,
    -- 5151: tmp221 = einsum(t1.bb, (0, 1), tmp44, (2, 1), (0, 2))
    .set 54 (.ein [(3, [0, 1]), (25, [2, 1])] [0, 2]) 1 1,
    -- 5152: tmp219 = einsum(tmp107, (0, 1), t1.bb, (2, 1), (2, 0))
    .set 55 (.ein [(26, [0, 1]), (3, [2, 1])] [2, 0]) 1 1,
    -- 5153: tmp175 = einsum(tmp39, (0, 1), t1.aa, (2, 1), (2, 0))
    .set 56 (.ein [(27, [0, 1]), (1, [2, 1])] [2, 0]) 1 1,
    -- 5154: tmp174 = einsum(tmp99, (0, 1), t1.aa, (2, 1), (2, 0))
    .set 57 (.ein [(28, [0, 1]), (1, [2, 1])] [2, 0]) 1 1,
    -- 5155: tmp208 = einsum(v.baa.xvv, (0, 1, 2), tmp31, (0,), (1, 2))
    .set 58 (.ein [(8, [0, 1, 2]), (18, [0])] [1, 2]) 1 1,
    -- 5156: tmp206 = einsum(tmp29, (0,), v.bbb.xvv, (0, 1, 2), (1, 2))
    .set 59 (.ein [(17, [0]), (7, [0, 1, 2])] [1, 2]) 1 1,
    -- 5157: tmp203 = einsum(tmp31, (0,), v.bbb.xvv, (0, 1, 2), (1, 2))
    .set 60 (.ein [(18, [0]), (7, [0, 1, 2])] [1, 2]) 1 1,
    -- 5158: tmp198 = einsum(tmp29, (0,), v.baa.xvv, (0, 1, 2), (1, 2))
    .set 61 (.ein [(17, [0]), (8, [0, 1, 2])] [1, 2]) 1 1,
    -- 5159: tmp189 = einsum(tmp27, (0, 1, 2), v.baa.xoo, (0, 3, 4), (1, 3, 4, 2))
    .set 62 (.ein [(20, [0, 1, 2]), (10, [0, 3, 4])] [1, 3, 4, 2]) 1 1,
    -- 5160: tmp187 = einsum(tmp29, (0,), v.bbb.xoo, (0, 1, 2), (1, 2))
    .set 63 (.ein [(17, [0]), (9, [0, 1, 2])] [1, 2]) 1 1,
    -- 5161: tmp32 = einsum(v.baa.xoo, (0, 1, 2), tmp31, (0,), (1, 2))
    .set 64 (.ein [(10, [0, 1, 2]), (18, [0])] [1, 2]) 1 1,
    -- 5162: tmp183 = einsum(v.bbb.xoo, (0, 1, 2), tmp31, (0,), (1, 2))
    .set 65 (.ein [(9, [0, 1, 2]), (18, [0])] [1, 2]) 1 1,
    -- 5163: del tmp31
    .del 18,
    -- 5164: tmp181 = einsum(tmp106, (0, 1, 2), v.bbb.xoo, (0, 3, 1), (3, 2))
    .set 66 (.ein [(19, [0, 1, 2]), (9, [0, 3, 1])] [3, 2]) 1 1,
    -- 5165: tmp30 = einsum(tmp29, (0,), v.baa.xoo, (0, 1, 2), (1, 2))
    .set 67 (.ein [(17, [0]), (10, [0, 1, 2])] [1, 2]) 1 1,
    -- 5166: del tmp29
    .del 17,
    -- 5167: tmp28 = einsum(v.baa.xoo, (0, 1, 2), tmp27, (0, 2, 3), (1, 3))
    .set 68 (.ein [(10, [0, 1, 2]), (20, [0, 2, 3])] [1, 3]) 1 1,
    -- 5168: tmp167 = einsum(t2.aaaa, (0, 1, 2, 3), tmp166, (4, 5, 2, 3), (0, 1, 5, 4)) * -1
    .set 69 (.ein [(6, [0, 1, 2, 3]), (29, [4, 5, 2, 3])] [0, 1, 5, 4]) (-1) 1,
    -- 5169: tmp60 = einsum(tmp59, (0, 1, 2), v.baa.xov, (0, 3, 2), (1, 3))
    .set 70 (.ein [(30, [0, 1, 2]), (0, [0, 3, 2])] [1, 3]) 1 1,
    -- 5170: tmp161 = einsum(v.bbb.xov, (0, 1, 2), tmp77, (0, 3, 2), (3, 1))
    .set 71 (.ein [(2, [0, 1, 2]), (31, [0, 3, 2])] [3, 1]) 1 1,
    -- 5171: tmp158 = einsum(v.bbb.xov, (0, 1, 2), tmp82, (0, 3, 2), (3, 1))
    .set 72 (.ein [(2, [0, 1, 2]), (32, [0, 3, 2])] [3, 1]) 1 1,
    -- 5172: tmp57 = einsum(v.baa.xov, (0, 1, 2), tmp56, (0, 3, 2), (3, 1))
    .set 73 (.ein [(0, [0, 1, 2]), (33, [0, 3, 2])] [3, 1]) 1 1,
    -- 5173: tmp142 = einsum(tmp106, (0, 1, 2), v.baa.xov, (0, 3, 4), (3, 1, 2, 4))
    .set 74 (.ein [(19, [0, 1, 2]), (0, [0, 3, 4])] [3, 1, 2, 4]) 1 1,
    -- 5174: tmp50 = einsum(v.baa.xov, (0, 1, 2), tmp27, (0, 3, 4), (3, 1, 4, 2))
    .set 75 (.ein [(0, [0, 1, 2]), (20, [0, 3, 4])] [3, 1, 4, 2]) 1 1,
    -- 5175: tmp96 = einsum(v.bbb.xvv, (0, 1, 2), v.baa.xov, (0, 3, 4), (3, 4, 1, 2))
    .set 76 (.ein [(7, [0, 1, 2]), (0, [0, 3, 4])] [3, 4, 1, 2]) 1 1,
    -- 5176: tmp93 = einsum(v.baa.xvv, (0, 1, 2), v.baa.xov, (0, 3, 4), (3, 1, 2, 4))
    .set 77 (.ein [(8, [0, 1, 2]), (0, [0, 3, 4])] [3, 1, 2, 4]) 1 1,
    -- 5177: tmp67 = einsum(v.bbb.xoo, (0, 1, 2), v.baa.xov, (0, 3, 4), (3, 1, 2, 4))
    .set 78 (.ein [(9, [0, 1, 2]), (0, [0, 3, 4])] [3, 1, 2, 4]) 1 1,
    -- 5178: tmp23 = einsum(v.baa.xoo, (0, 1, 2), v.baa.xov, (0, 3, 4), (1, 2, 3, 4))
    .set 79 (.ein [(10, [0, 1, 2]), (0, [0, 3, 4])] [1, 2, 3, 4]) 1 1,
    -- 5179: tmp33 = einsum(v.baa.xoo, (0, 1, 2), v.baa.xoo, (0, 3, 4), (3, 1, 2, 4))
    .set 80 (.ein [(10, [0, 1, 2]), (10, [0, 3, 4])] [3, 1, 2, 4]) 1 1,
    -- 5180: tmp21 = einsum(f.bb.ov, (0, 1), t1.bb, (2, 1), (0, 2))
    .set 81 (.ein [(11, [0, 1]), (3, [2, 1])] [0, 2]) 1 1,
    -- 5181: tmp1 = einsum(t1.aa, (0, 1), f.aa.ov, (2, 1), (2, 0))
    .set 82 (.ein [(1, [0, 1]), (12, [2, 1])] [2, 0]) 1 1,
    -- 5182: tmp493 = einsum(t2.abab, (0, 1, 2, 3), tmp170, (4, 1, 2, 5), (0, 4, 3, 5))
    .set 83 (.ein [(4, [0, 1, 2, 3]), (21, [4, 1, 2, 5])] [0, 4, 3, 5]) 1 1,
    -- 5183: tmp492 = einsum(tmp27, (0, 1, 2), v.bbb.xvv, (0, 3, 4), (1, 2, 3, 4))
    .set 84 (.ein [(20, [0, 1, 2]), (7, [0, 3, 4])] [1, 2, 3, 4]) 1 1,
    -- 5184: tmp491 = einsum(v.baa.xoo, (0, 1, 2), v.bbb.xvv, (0, 3, 4), (1, 2, 3, 4))
    .set 85 (.ein [(10, [0, 1, 2]), (7, [0, 3, 4])] [1, 2, 3, 4]) 1 1,
    -- 5185: tmp489 = einsum(v.bbb.xov, (0, 1, 2), tmp77, (0, 1, 3), (3, 2))
    .set 86 (.ein [(2, [0, 1, 2]), (31, [0, 1, 3])] [3, 2]) 1 1,
    -- 5186: tmp487 = einsum(v.bbb.xov, (0, 1, 2), tmp82, (0, 1, 3), (3, 2))
    .set 87 (.ein [(2, [0, 1, 2]), (32, [0, 1, 3])] [3, 2]) 1 1,
    -- 5187: tmp486 = einsum(v.bbb.xov, (0, 1, 2), tmp45, (0, 1, 3), (2, 3))
    .set 88 (.ein [(2, [0, 1, 2]), (34, [0, 1, 3])] [2, 3]) 1 1,
    -- 5188: tmp471 = einsum(t2.bbbb, (0, 1, 2, 3), tmp325, (1, 4, 5, 3), (0, 4, 2, 5))
    .set 89 (.ein [(5, [0, 1, 2, 3]), (22, [1, 4, 5, 3])] [0, 4, 2, 5]) 1 1,
    -- 5189: tmp469 = einsum(t2.abab, (0, 1, 2, 3), tmp325, (1, 4, 5, 3), (0, 4, 2, 5))
    .set 90 (.ein [(4, [0, 1, 2, 3]), (22, [1, 4, 5, 3])] [0, 4, 2, 5]) 1 1,
    -- 5190: tmp467 = einsum(v.bbb.xvv, (0, 1, 2), tmp106, (0, 3, 4), (3, 4, 1, 2))
    .set 91 (.ein [(7, [0, 1, 2]), (19, [0, 3, 4])] [3, 4, 1, 2]) 1 1,
    -- 5191: tmp464 = einsum(v.bbb.xoo, (0, 1, 2), v.bbb.xvv, (0, 3, 4), (1, 2, 3, 4))
    .set 92 (.ein [(9, [0, 1, 2]), (7, [0, 3, 4])] [1, 2, 3, 4]) 1 1,
    -- 5192: tmp463 = einsum(t2.abab, (0, 1, 2, 3), tmp170, (0, 4, 5, 3), (1, 4, 2, 5))
    .set 93 (.ein [(4, [0, 1, 2, 3]), (21, [0, 4, 5, 3])] [1, 4, 2, 5]) 1 1,
    -- 5193: tmp462 = einsum(v.baa.xvv, (0, 1, 2), tmp106, (0, 3, 4), (3, 4, 1, 2))
    .set 94 (.ein [(8, [0, 1, 2]), (19, [0, 3, 4])] [3, 4, 1, 2]) 1 1,
    -- 5194: tmp461 = einsum(v.baa.xvv, (0, 1, 2), v.bbb.xoo, (0, 3, 4), (3, 4, 1, 2))
    .set 95 (.ein [(8, [0, 1, 2]), (9, [0, 3, 4])] [3, 4, 1, 2]) 1 1,
    -- 5195: tmp420 = einsum(tmp59, (0, 1, 2), v.baa.xov, (0, 1, 3), (2, 3))
    .set 96 (.ein [(30, [0, 1, 2]), (0, [0, 1, 3])] [2, 3]) 1 1,
    -- 5196: tmp418 = einsum(v.baa.xov, (0, 1, 2), tmp56, (0, 1, 3), (3, 2))
    .set 97 (.ein [(0, [0, 1, 2]), (33, [0, 1, 3])] [3, 2]) 1 1,
    -- 5197: tmp415 = einsum(tmp41, (0, 1, 2), v.baa.xov, (0, 1, 3), (3, 2))
    .set 98 (.ein [(35, [0, 1, 2]), (0, [0, 1, 3])] [3, 2]) 1 1,
    -- 5198: tmp377 = einsum(tmp166, (0, 1, 2, 3), t2.abab, (0, 4, 3, 5), (1, 4, 2, 5))
    .set 99 (.ein [(29, [0, 1, 2, 3]), (4, [0, 4, 3, 5])] [1, 4, 2, 5]) 1 1,
    -- 5199: tmp375 = einsum(t2.aaaa, (0, 1, 2, 3), tmp166, (1, 4, 5, 3), (0, 4, 2, 5))
    .set 100 (.ein [(6, [0, 1, 2, 3]), (29, [1, 4, 5, 3])] [0, 4, 2, 5]) 1 1,
    -- 5200: tmp369 = einsum(tmp27, (0, 1, 2), v.baa.xvv, (0, 3, 4), (1, 2, 3, 4))
    .set 101 (.ein [(20, [0, 1, 2]), (8, [0, 3, 4])] [1, 2, 3, 4]) 1 1,
    -- 5201: tmp358 = einsum(v.baa.xvv, (0, 1, 2), v.baa.xoo, (0, 3, 4), (3, 4, 1, 2))
    .set 102 (.ein [(8, [0, 1, 2]), (10, [0, 3, 4])] [3, 4, 1, 2]) 1 1,
    -- 5202: tmp354 = einsum(tmp230, (0, 1, 2, 3), t1.aa, (1, 4), (0, 2, 3, 4))
    .set 103 (.ein [(36, [0, 1, 2, 3]), (1, [1, 4])] [0, 2, 3, 4]) 1 1,
    -- 5203: tmp352 = einsum(tmp351, (0, 1, 2, 3), t1.bb, (3, 4), (0, 1, 2, 4))
    .set 104 (.ein [(37, [0, 1, 2, 3]), (3, [3, 4])] [0, 1, 2, 4]) 1 1,
    -- 5204: tmp346 = einsum(tmp106, (0, 1, 2), tmp41, (0, 3, 4), (3, 1, 2, 4))
    .set 105 (.ein [(19, [0, 1, 2]), (35, [0, 3, 4])] [3, 1, 2, 4]) 1 1,
    -- 5205: tmp344 = einsum(tmp45, (0, 1, 2), tmp106, (0, 3, 4), (3, 1, 4, 2))
    .set 106 (.ein [(34, [0, 1, 2]), (19, [0, 3, 4])] [3, 1, 4, 2]) 1 1,
    -- 5206: tmp340 = einsum(t1.aa, (0, 1), tmp194, (2, 0, 3, 4), (2, 3, 4, 1))
    .set 107 (.ein [(1, [0, 1]), (38, [2, 0, 3, 4])] [2, 3, 4, 1]) 1 1,
    -- 5207: tmp339 = einsum(t1.aa, (0, 1), tmp196, (0, 2, 3, 4), (2, 3, 4, 1))
    .set 108 (.ein [(1, [0, 1]), (39, [0, 2, 3, 4])] [2, 3, 4, 1]) 1 1,
    -- 5208: tmp337 = einsum(tmp334, (0, 1, 2, 3), t1.bb, (3, 4), (0, 1, 2, 4))
    .set 109 (.ein [(40, [0, 1, 2, 3]), (3, [3, 4])] [0, 1, 2, 4]) 1 1,
    -- 5209: tmp335 = einsum(tmp334, (0, 1, 2, 3), t1.bb, (2, 4), (0, 1, 3, 4))
    .set 110 (.ein [(40, [0, 1, 2, 3]), (3, [2, 4])] [0, 1, 3, 4]) 1 1,
    -- 5210: tmp329 = einsum(t1.aa, (0, 1), tmp171, (2, 0, 3, 4), (2, 3, 4, 1))
    .set 111 (.ein [(1, [0, 1]), (41, [2, 0, 3, 4])] [2, 3, 4, 1]) 1 1,
    -- 5211: tmp327 = einsum(tmp326, (0, 1, 2, 3), t1.bb, (2, 4), (0, 1, 3, 4)) * -1
    .set 112 (.ein [(42, [0, 1, 2, 3]), (3, [2, 4])] [0, 1, 3, 4]) (-1) 1,
    -- 5212: tmp320 = einsum(t2.abab, (0, 1, 2, 3), tmp54, (4, 0, 5, 3), (4, 1, 5, 2))
    .set 113 (.ein [(4, [0, 1, 2, 3]), (43, [4, 0, 5, 3])] [4, 1, 5, 2]) 1 1,
    -- 5213: tmp318 = einsum(tmp106, (0, 1, 2), tmp77, (0, 3, 4), (1, 3, 2, 4))
    .set 114 (.ein [(19, [0, 1, 2]), (31, [0, 3, 4])] [1, 3, 2, 4]) 1 1,
    -- 5214: tmp316 = einsum(tmp106, (0, 1, 2), tmp56, (0, 3, 4), (3, 1, 2, 4))
    .set 115 (.ein [(19, [0, 1, 2]), (33, [0, 3, 4])] [3, 1, 2, 4]) 1 1,
    -- 5215: tmp314 = einsum(tmp137, (0, 1, 2, 3), t2.bbbb, (4, 2, 5, 3), (0, 4, 1, 5))
    .set 116 (.ein [(44, [0, 1, 2, 3]), (5, [4, 2, 5, 3])] [0, 4, 1, 5]) 1 1,
    -- 5216: tmp313 = einsum(t2.abab, (0, 1, 2, 3), tmp137, (4, 5, 1, 3), (0, 4, 5, 2))
    .set 117 (.ein [(4, [0, 1, 2, 3]), (44, [4, 5, 1, 3])] [0, 4, 5, 2]) 1 1,
    -- 5217: tmp311 = einsum(tmp106, (0, 1, 2), tmp82, (0, 3, 4), (1, 3, 2, 4))
    .set 118 (.ein [(19, [0, 1, 2]), (32, [0, 3, 4])] [1, 3, 2, 4]) 1 1,
    -- 5218: tmp310 = einsum(tmp59, (0, 1, 2), tmp106, (0, 3, 4), (1, 3, 4, 2))
    .set 119 (.ein [(30, [0, 1, 2]), (19, [0, 3, 4])] [1, 3, 4, 2]) 1 1,
    -- 5219: tmp304 = einsum(t2.bbbb, (0, 1, 2, 3), tmp47, (4, 3), (0, 1, 4, 2))
    .set 120 (.ein [(5, [0, 1, 2, 3]), (23, [4, 3])] [0, 1, 4, 2]) 1 1,
    -- 5220: tmp302 = einsum(t2.abab, (0, 1, 2, 3), tmp47, (4, 3), (0, 1, 4, 2))
    .set 121 (.ein [(4, [0, 1, 2, 3]), (23, [4, 3])] [0, 1, 4, 2]) 1 1,
    -- 5221: tmp300 = einsum(t2.bbbb, (0, 1, 2, 3), tmp44, (4, 3), (0, 1, 4, 2))
    .set 122 (.ein [(5, [0, 1, 2, 3]), (25, [4, 3])] [0, 1, 4, 2]) 1 1,
    -- 5222: tmp298 = einsum(t2.abab, (0, 1, 2, 3), tmp44, (4, 3), (0, 1, 4, 2))
    .set 123 (.ein [(4, [0, 1, 2, 3]), (25, [4, 3])] [0, 1, 4, 2]) 1 1,
    -- 5223: tmp296 = einsum(tmp107, (0, 1), t2.bbbb, (2, 3, 4, 1), (2, 3, 0, 4))
    .set 124 (.ein [(26, [0, 1]), (5, [2, 3, 4, 1])] [2, 3, 0, 4]) 1 1,
    -- 5224: tmp294 = einsum(t2.abab, (0, 1, 2, 3), tmp107, (4, 3), (0, 1, 4, 2))
    .set 125 (.ein [(4, [0, 1, 2, 3]), (26, [4, 3])] [0, 1, 4, 2]) 1 1,
    -- 5225: tmp283 = einsum(t2.abab, (0, 1, 2, 3), tmp282, (4, 5, 2, 3), (0, 1, 4, 5))
    .set 126 (.ein [(4, [0, 1, 2, 3]), (45, [4, 5, 2, 3])] [0, 1, 4, 5]) 1 1,
    -- 5226: del tmp282
    .del 45,
    -- 5227: tmp280 = einsum(tmp279, (0, 1, 2, 3), t2.bbbb, (4, 5, 1, 3), (4, 5, 0, 2)) * -1
    .set 127 (.ein [(46, [0, 1, 2, 3]), (5, [4, 5, 1, 3])] [4, 5, 0, 2]) (-1) 1,
    -- 5228: del tmp279
    .del 46,
    -- 5229: tmp273 = einsum(tmp77, (0, 1, 2), v.bbb.xoo, (0, 3, 4), (1, 3, 4, 2))
    .set 128 (.ein [(31, [0, 1, 2]), (9, [0, 3, 4])] [1, 3, 4, 2]) 1 1,
    -- 5230: tmp271 = einsum(v.bbb.xoo, (0, 1, 2), tmp56, (0, 3, 4), (3, 1, 2, 4))
    .set 129 (.ein [(9, [0, 1, 2]), (33, [0, 3, 4])] [3, 1, 2, 4]) 1 1,
    -- 5231: tmp270 = einsum(t2.abab, (0, 1, 2, 3), tmp25, (4, 0, 5, 3), (4, 1, 5, 2))
    .set 130 (.ein [(4, [0, 1, 2, 3]), (47, [4, 0, 5, 3])] [4, 1, 5, 2]) 1 1,
    -- 5232: tmp268 = einsum(v.bbb.xoo, (0, 1, 2), tmp82, (0, 3, 4), (3, 1, 2, 4))
    .set 131 (.ein [(9, [0, 1, 2]), (32, [0, 3, 4])] [3, 1, 2, 4]) 1 1,
    -- 5233: tmp267 = einsum(v.bbb.xoo, (0, 1, 2), tmp59, (0, 3, 4), (3, 1, 2, 4))
    .set 132 (.ein [(9, [0, 1, 2]), (30, [0, 3, 4])] [3, 1, 2, 4]) 1 1,
    -- 5234: tmp265 = einsum(t2.bbbb, (0, 1, 2, 3), tmp64, (4, 1, 5, 3), (0, 4, 5, 2))
    .set 133 (.ein [(5, [0, 1, 2, 3]), (48, [4, 1, 5, 3])] [0, 4, 5, 2]) 1 1,
    -- 5235: tmp264 = einsum(t2.abab, (0, 1, 2, 3), tmp64, (4, 1, 5, 3), (0, 4, 5, 2))
    .set 134 (.ein [(4, [0, 1, 2, 3]), (48, [4, 1, 5, 3])] [0, 4, 5, 2]) 1 1,
    -- 5236: tmp257 = einsum(v.bbb.xoo, (0, 1, 2), tmp41, (0, 3, 4), (3, 1, 2, 4))
    .set 135 (.ein [(9, [0, 1, 2]), (35, [0, 3, 4])] [3, 1, 2, 4]) 1 1,
    -- 5237: tmp255 = einsum(v.bbb.xoo, (0, 1, 2), tmp45, (0, 3, 4), (3, 1, 2, 4))
    .set 136 (.ein [(9, [0, 1, 2]), (34, [0, 3, 4])] [3, 1, 2, 4]) 1 1,
    -- 5238: tmp249 = einsum(t1.aa, (0, 1), tmp36, (2, 0, 3, 4), (2, 3, 4, 1))
    .set 137 (.ein [(1, [0, 1]), (49, [2, 0, 3, 4])] [2, 3, 4, 1]) 1 1,
    -- 5239: tmp247 = einsum(tmp246, (0, 1, 2, 3), t1.bb, (1, 4), (3, 0, 2, 4))
    .set 138 (.ein [(50, [0, 1, 2, 3]), (3, [1, 4])] [3, 0, 2, 4]) 1 1,
    -- 5240: tmp241 = einsum(f.bb.ov, (0, 1), t2.bbbb, (2, 3, 4, 1), (0, 2, 3, 4))
    .set 139 (.ein [(11, [0, 1]), (5, [2, 3, 4, 1])] [0, 2, 3, 4]) 1 1,
    -- 5241: tmp239 = einsum(t2.abab, (0, 1, 2, 3), f.bb.ov, (4, 3), (0, 4, 1, 2))
    .set 140 (.ein [(4, [0, 1, 2, 3]), (11, [4, 3])] [0, 4, 1, 2]) 1 1,
    -- 5242: tmp231 = einsum(tmp230, (0, 1, 2, 3), t1.bb, (3, 4), (0, 1, 2, 4))
    .set 141 (.ein [(36, [0, 1, 2, 3]), (3, [3, 4])] [0, 1, 2, 4]) 1 1,
    -- 5243: tmp228 = einsum(tmp227, (0, 1, 2, 3), t1.aa, (3, 4), (0, 1, 2, 4))
    .set 142 (.ein [(51, [0, 1, 2, 3]), (1, [3, 4])] [0, 1, 2, 4]) 1 1,
    -- 5244: tmp226 = einsum(t1.bb, (0, 1), tmp225, (2, 0), (2, 1))
    .set 143 (.ein [(3, [0, 1]), (52, [2, 0])] [2, 1]) 1 1,
    -- 5245: tmp223 = einsum(t1.aa, (0, 1), tmp176, (2, 0), (2, 1))
    .set 144 (.ein [(1, [0, 1]), (53, [2, 0])] [2, 1]) 1 1,
    -- 5246: tmp222 = einsum(tmp221, (0, 1), t1.bb, (1, 2), (0, 2))
    .set 145 (.ein [(54, [0, 1]), (3, [1, 2])] [0, 2]) 1 1,
    -- 5247: tmp220 = einsum(tmp219, (0, 1), t1.bb, (1, 2), (0, 2))
    .set 146 (.ein [(55, [0, 1]), (3, [1, 2])] [0, 2]) 1 1,
    -- 5248: tmp217 = einsum(t1.aa, (0, 1), tmp175, (2, 0), (2, 1))
    .set 147 (.ein [(1, [0, 1]), (56, [2, 0])] [2, 1]) 1 1,
    -- 5249: tmp215 = einsum(t1.aa, (0, 1), tmp174, (2, 0), (2, 1))
    .set 148 (.ein [(1, [0, 1]), (57, [2, 0])] [2, 1]) 1 1,
    -- 5250: tmp213 = einsum(tmp27, (0, 1, 2), tmp45, (0, 3, 4), (1, 2, 3, 4))
    .set 149 (.ein [(20, [0, 1, 2]), (34, [0, 3, 4])] [1, 2, 3, 4]) 1 1,
    -- 5251: tmp211 = einsum(tmp27, (0, 1, 2), tmp41, (0, 3, 4), (1, 3, 2, 4))
    .set 150 (.ein [(20, [0, 1, 2]), (35, [0, 3, 4])] [1, 3, 2, 4]) 1 1,
    -- 5252: tmp209 = einsum(t1.aa, (0, 1), tmp208, (2, 1), (0, 2))
    .set 151 (.ein [(1, [0, 1]), (58, [2, 1])] [0, 2]) 1 1,
    -- 5253: tmp207 = einsum(tmp206, (0, 1), t1.bb, (2, 1), (2, 0))
    .set 152 (.ein [(59, [0, 1]), (3, [2, 1])] [2, 0]) 1 1,
    -- 5254: tmp205 = einsum(tmp45, (0, 1, 2), tmp106, (0, 3, 1), (3, 2))
    .set 153 (.ein [(34, [0, 1, 2]), (19, [0, 3, 1])] [3, 2]) 1 1,
    -- 5255: tmp204 = einsum(tmp203, (0, 1), t1.bb, (2, 1), (2, 0))
    .set 154 (.ein [(60, [0, 1]), (3, [2, 1])] [2, 0]) 1 1,
    -- 5256: tmp201 = einsum(tmp27, (0, 1, 2), tmp41, (0, 2, 3), (1, 3))
    .set 155 (.ein [(20, [0, 1, 2]), (35, [0, 2, 3])] [1, 3]) 1 1,
    -- 5257: tmp199 = einsum(tmp198, (0, 1), t1.aa, (2, 1), (2, 0))
    .set 156 (.ein [(61, [0, 1]), (1, [2, 1])] [2, 0]) 1 1,
    -- 5258: tmp197 = einsum(tmp196, (0, 1, 2, 3), t1.bb, (3, 4), (0, 1, 2, 4))
    .set 157 (.ein [(39, [0, 1, 2, 3]), (3, [3, 4])] [0, 1, 2, 4]) 1 1,
    -- 5259: tmp195 = einsum(t1.bb, (0, 1), tmp194, (2, 3, 4, 0), (2, 3, 4, 1))
    .set 158 (.ein [(3, [0, 1]), (38, [2, 3, 4, 0])] [2, 3, 4, 1]) 1 1,
    -- 5260: tmp192 = einsum(tmp189, (0, 1, 2, 3), t1.aa, (3, 4), (0, 1, 2, 4))
    .set 159 (.ein [(62, [0, 1, 2, 3]), (1, [3, 4])] [0, 1, 2, 4]) 1 1,
    -- 5261: tmp190 = einsum(tmp189, (0, 1, 2, 3), t1.aa, (2, 4), (0, 1, 3, 4))
    .set 160 (.ein [(62, [0, 1, 2, 3]), (1, [2, 4])] [0, 1, 3, 4]) 1 1,
    -- 5262: tmp188 = einsum(tmp187, (0, 1), t1.bb, (1, 2), (0, 2))
    .set 161 (.ein [(63, [0, 1]), (3, [1, 2])] [0, 2]) 1 1,
    -- 5263: tmp185 = einsum(tmp32, (0, 1), t1.aa, (1, 2), (0, 2))
    .set 162 (.ein [(64, [0, 1]), (1, [1, 2])] [0, 2]) 1 1,
    -- 5264: tmp184 = einsum(tmp183, (0, 1), t1.bb, (1, 2), (0, 2))
    .set 163 (.ein [(65, [0, 1]), (3, [1, 2])] [0, 2]) 1 1,
    -- 5265: tmp182 = einsum(tmp181, (0, 1), t1.bb, (1, 2), (0, 2))
    .set 164 (.ein [(66, [0, 1]), (3, [1, 2])] [0, 2]) 1 1,
    -- 5266: tmp179 = einsum(tmp30, (0, 1), t1.aa, (1, 2), (0, 2))
    .set 165 (.ein [(67, [0, 1]), (1, [1, 2])] [0, 2]) 1 1,
    -- 5267: tmp177 = einsum(tmp28, (0, 1), t1.aa, (1, 2), (0, 2))
    .set 166 (.ein [(68, [0, 1]), (1, [1, 2])] [0, 2]) 1 1,
    -- 5268: tmp172 = einsum(tmp171, (0, 1, 2, 3), t1.bb, (3, 4), (0, 1, 2, 4))
    .set 167 (.ein [(41, [0, 1, 2, 3]), (3, [3, 4])] [0, 1, 2, 4]) 1 1,
    -- 5269: tmp168 = einsum(tmp167, (0, 1, 2, 3), t1.aa, (2, 4), (0, 1, 3, 4)) * -1
    .set 168 (.ein [(69, [0, 1, 2, 3]), (1, [2, 4])] [0, 1, 3, 4]) (-1) 1,
    -- 5270: tmp164 = einsum(tmp60, (0, 1), t1.aa, (1, 2), (0, 2))
    .set 169 (.ein [(70, [0, 1]), (1, [1, 2])] [0, 2]) 1 1,
    -- 5271: tmp162 = einsum(tmp161, (0, 1), t1.bb, (1, 2), (0, 2))
    .set 170 (.ein [(71, [0, 1]), (3, [1, 2])] [0, 2]) 1 1,
    -- 5272: tmp159 = einsum(tmp158, (0, 1), t1.bb, (1, 2), (0, 2))
    .set 171 (.ein [(72, [0, 1]), (3, [1, 2])] [0, 2]) 1 1,
    -- 5273: tmp156 = einsum(t1.aa, (0, 1), tmp57, (2, 0), (2, 1))
    .set 172 (.ein [(1, [0, 1]), (73, [2, 0])] [2, 1]) 1 1,
    -- 5274: tmp155 = einsum(t2.abab, (0, 1, 2, 3), tmp142, (4, 5, 1, 2), (0, 4, 5, 3))
    .set 173 (.ein [(4, [0, 1, 2, 3]), (74, [4, 5, 1, 2])] [0, 4, 5, 3]) 1 1,
    -- 5275: tmp153 = einsum(tmp27, (0, 1, 2), tmp82, (0, 3, 4), (1, 2, 3, 4))
    .set 174 (.ein [(20, [0, 1, 2]), (32, [0, 3, 4])] [1, 2, 3, 4]) 1 1,
    -- 5276: tmp151 = einsum(tmp59, (0, 1, 2), tmp27, (0, 3, 4), (3, 1, 4, 2))
    .set 175 (.ein [(30, [0, 1, 2]), (20, [0, 3, 4])] [3, 1, 4, 2]) 1 1,
    -- 5277: tmp150 = einsum(t2.abab, (0, 1, 2, 3), tmp50, (4, 5, 0, 2), (4, 5, 1, 3))
    .set 176 (.ein [(4, [0, 1, 2, 3]), (75, [4, 5, 0, 2])] [4, 5, 1, 3]) 1 1,
    -- 5278: tmp148 = einsum(tmp50, (0, 1, 2, 3), t2.aaaa, (4, 2, 5, 3), (0, 4, 1, 5))
    .set 177 (.ein [(75, [0, 1, 2, 3]), (6, [4, 2, 5, 3])] [0, 4, 1, 5]) 1 1,
    -- 5279: tmp147 = einsum(tmp27, (0, 1, 2), tmp77, (0, 3, 4), (1, 2, 3, 4))
    .set 178 (.ein [(20, [0, 1, 2]), (31, [0, 3, 4])] [1, 2, 3, 4]) 1 1,
    -- 5280: tmp145 = einsum(tmp56, (0, 1, 2), tmp27, (0, 3, 4), (3, 1, 4, 2))
    .set 179 (.ein [(33, [0, 1, 2]), (20, [0, 3, 4])] [3, 1, 4, 2]) 1 1,
    -- 5281: tmp143 = einsum(t2.abab, (0, 1, 2, 3), tmp142, (0, 4, 1, 2), (4, 3))
    .set 180 (.ein [(4, [0, 1, 2, 3]), (74, [0, 4, 1, 2])] [4, 3]) 1 1,
    -- 5282: tmp140 = einsum(t2.abab, (0, 1, 2, 3), tmp54, (4, 0, 1, 3), (4, 2))
    .set 181 (.ein [(4, [0, 1, 2, 3]), (43, [4, 0, 1, 3])] [4, 2]) 1 1,
    -- 5283: tmp138 = einsum(t2.bbbb, (0, 1, 2, 3), tmp137, (4, 1, 0, 3), (4, 2))
    .set 182 (.ein [(5, [0, 1, 2, 3]), (44, [4, 1, 0, 3])] [4, 2]) 1 1,
    -- 5284: tmp135 = einsum(t2.aaaa, (0, 1, 2, 3), tmp50, (4, 1, 0, 3), (4, 2))
    .set 183 (.ein [(6, [0, 1, 2, 3]), (75, [4, 1, 0, 3])] [4, 2]) 1 1,
    -- 5285: tmp133 = einsum(t2.abab, (0, 1, 2, 3), tmp48, (4, 2), (0, 4, 1, 3))
    .set 184 (.ein [(4, [0, 1, 2, 3]), (24, [4, 2])] [0, 4, 1, 3]) 1 1,
    -- 5286: tmp131 = einsum(t2.aaaa, (0, 1, 2, 3), tmp48, (4, 3), (0, 1, 4, 2))
    .set 185 (.ein [(6, [0, 1, 2, 3]), (24, [4, 3])] [0, 1, 4, 2]) 1 1,
    -- 5287: tmp129 = einsum(t2.abab, (0, 1, 2, 3), tmp39, (4, 2), (0, 4, 1, 3))
    .set 186 (.ein [(4, [0, 1, 2, 3]), (27, [4, 2])] [0, 4, 1, 3]) 1 1,
    -- 5288: tmp127 = einsum(t2.aaaa, (0, 1, 2, 3), tmp39, (4, 3), (0, 1, 4, 2))
    .set 187 (.ein [(6, [0, 1, 2, 3]), (27, [4, 3])] [0, 1, 4, 2]) 1 1,
    -- 5289: tmp125 = einsum(t2.abab, (0, 1, 2, 3), tmp99, (4, 2), (0, 4, 1, 3))
    .set 188 (.ein [(4, [0, 1, 2, 3]), (28, [4, 2])] [0, 4, 1, 3]) 1 1,
    -- 5290: tmp123 = einsum(t2.aaaa, (0, 1, 2, 3), tmp99, (4, 3), (0, 1, 4, 2))
    .set 189 (.ein [(6, [0, 1, 2, 3]), (28, [4, 3])] [0, 1, 4, 2]) 1 1,
    -- 5291: tmp121 = einsum(tmp47, (0, 1), t2.bbbb, (2, 0, 3, 1), (2, 3))
    .set 190 (.ein [(23, [0, 1]), (5, [2, 0, 3, 1])] [2, 3]) 1 1,
    -- 5292: tmp119 = einsum(t2.abab, (0, 1, 2, 3), tmp47, (1, 3), (0, 2))
    .set 191 (.ein [(4, [0, 1, 2, 3]), (23, [1, 3])] [0, 2]) 1 1,
    -- 5293: tmp118 = einsum(tmp48, (0, 1), t2.abab, (0, 2, 1, 3), (2, 3))
    .set 192 (.ein [(24, [0, 1]), (4, [0, 2, 1, 3])] [2, 3]) 1 1,
    -- 5294: tmp116 = einsum(tmp48, (0, 1), t2.aaaa, (2, 0, 3, 1), (2, 3))
    .set 193 (.ein [(24, [0, 1]), (6, [2, 0, 3, 1])] [2, 3]) 1 1,
    -- 5295: tmp114 = einsum(tmp44, (0, 1), t2.bbbb, (2, 0, 3, 1), (2, 3))
    .set 194 (.ein [(25, [0, 1]), (5, [2, 0, 3, 1])] [2, 3]) 1 1,
    -- 5296: tmp112 = einsum(tmp44, (0, 1), t2.abab, (2, 0, 3, 1), (2, 3))
    .set 195 (.ein [(25, [0, 1]), (4, [2, 0, 3, 1])] [2, 3]) 1 1,
    -- 5297: tmp110 = einsum(tmp107, (0, 1), t2.bbbb, (2, 0, 3, 1), (2, 3))
    .set 196 (.ein [(26, [0, 1]), (5, [2, 0, 3, 1])] [2, 3]) 1 1,
    -- 5298: tmp108 = einsum(tmp107, (0, 1), t2.abab, (2, 0, 3, 1), (2, 3))
    .set 197 (.ein [(26, [0, 1]), (4, [2, 0, 3, 1])] [2, 3]) 1 1,
    -- 5299: tmp105 = einsum(t2.abab, (0, 1, 2, 3), tmp39, (0, 2), (1, 3))
    .set 198 (.ein [(4, [0, 1, 2, 3]), (27, [0, 2])] [1, 3]) 1 1,
    -- 5300: tmp103 = einsum(tmp39, (0, 1), t2.aaaa, (2, 0, 3, 1), (2, 3))
    .set 199 (.ein [(27, [0, 1]), (6, [2, 0, 3, 1])] [2, 3]) 1 1,
    -- 5301: tmp102 = einsum(t2.abab, (0, 1, 2, 3), tmp99, (0, 2), (1, 3))
    .set 200 (.ein [(4, [0, 1, 2, 3]), (28, [0, 2])] [1, 3]) 1 1,
    -- 5302: tmp100 = einsum(tmp99, (0, 1), t2.aaaa, (2, 0, 3, 1), (2, 3))
    .set 201 (.ein [(28, [0, 1]), (6, [2, 0, 3, 1])] [2, 3]) 1 1,
    -- 5303: tmp97 = einsum(tmp96, (0, 1, 2, 3), t2.abab, (4, 5, 1, 2), (4, 0, 5, 3))
    .set 202 (.ein [(76, [0, 1, 2, 3]), (4, [4, 5, 1, 2])] [4, 0, 5, 3]) 1 1,
    -- 5304: del tmp96
    .del 76,
    -- 5305: tmp94 = einsum(t2.aaaa, (0, 1, 2, 3), tmp93, (4, 5, 2, 3), (0, 1, 4, 5)) * -1
    .set 203 (.ein [(6, [0, 1, 2, 3]), (77, [4, 5, 2, 3])] [0, 1, 4, 5]) (-1) 1,
    -- 5306: del tmp93
    .del 77,
    -- 5307: tmp91 = einsum(v.baa.xvv, (0, 1, 2), tmp59, (0, 3, 2), (3, 1))
    .set 204 (.ein [(8, [0, 1, 2]), (30, [0, 3, 2])] [3, 1]) 1 1,
    -- 5308: tmp89 = einsum(v.bbb.xvv, (0, 1, 2), tmp77, (0, 3, 2), (3, 1))
    .set 205 (.ein [(7, [0, 1, 2]), (31, [0, 3, 2])] [3, 1]) 1 1,
    -- 5309: tmp87 = einsum(v.bbb.xvv, (0, 1, 2), tmp82, (0, 3, 2), (3, 1)) * -1
    .set 206 (.ein [(7, [0, 1, 2]), (32, [0, 3, 2])] [3, 1]) (-1) 1,
    -- 5310: tmp85 = einsum(v.baa.xvv, (0, 1, 2), tmp56, (0, 3, 2), (3, 1)) * -1
    .set 207 (.ein [(8, [0, 1, 2]), (33, [0, 3, 2])] [3, 1]) (-1) 1,
    -- 5311: tmp83 = einsum(v.baa.xoo, (0, 1, 2), tmp82, (0, 3, 4), (1, 2, 3, 4))
    .set 208 (.ein [(10, [0, 1, 2]), (32, [0, 3, 4])] [1, 2, 3, 4]) 1 1,
    -- 5312: tmp80 = einsum(tmp59, (0, 1, 2), v.baa.xoo, (0, 3, 4), (1, 3, 4, 2))
    .set 209 (.ein [(30, [0, 1, 2]), (10, [0, 3, 4])] [1, 3, 4, 2]) 1 1,
    -- 5313: tmp79 = einsum(t2.abab, (0, 1, 2, 3), tmp67, (4, 1, 5, 2), (0, 4, 5, 3))
    .set 210 (.ein [(4, [0, 1, 2, 3]), (78, [4, 1, 5, 2])] [0, 4, 5, 3]) 1 1,
    -- 5314: tmp78 = einsum(v.baa.xoo, (0, 1, 2), tmp77, (0, 3, 4), (1, 2, 3, 4))
    .set 211 (.ein [(10, [0, 1, 2]), (31, [0, 3, 4])] [1, 2, 3, 4]) 1 1,
    -- 5315: tmp75 = einsum(v.baa.xoo, (0, 1, 2), tmp56, (0, 3, 4), (3, 1, 2, 4))
    .set 212 (.ein [(10, [0, 1, 2]), (33, [0, 3, 4])] [3, 1, 2, 4]) 1 1,
    -- 5316: tmp74 = einsum(t2.abab, (0, 1, 2, 3), tmp23, (0, 4, 5, 2), (4, 5, 1, 3))
    .set 213 (.ein [(4, [0, 1, 2, 3]), (79, [0, 4, 5, 2])] [4, 5, 1, 3]) 1 1,
    -- 5317: tmp72 = einsum(t2.aaaa, (0, 1, 2, 3), tmp23, (4, 1, 5, 3), (0, 4, 5, 2))
    .set 214 (.ein [(6, [0, 1, 2, 3]), (79, [4, 1, 5, 3])] [0, 4, 5, 2]) 1 1,
    -- 5318: tmp70 = einsum(tmp25, (0, 1, 2, 3), t2.abab, (0, 2, 4, 3), (1, 4))
    .set 215 (.ein [(47, [0, 1, 2, 3]), (4, [0, 2, 4, 3])] [1, 4]) 1 1,
    -- 5319: tmp68 = einsum(tmp67, (0, 1, 2, 3), t2.abab, (0, 1, 3, 4), (2, 4))
    .set 216 (.ein [(78, [0, 1, 2, 3]), (4, [0, 1, 3, 4])] [2, 4]) 1 1,
    -- 5320: tmp65 = einsum(tmp64, (0, 1, 2, 3), t2.bbbb, (0, 2, 4, 3), (1, 4))
    .set 217 (.ein [(48, [0, 1, 2, 3]), (5, [0, 2, 4, 3])] [1, 4]) 1 1,
    -- 5321: tmp62 = einsum(t2.aaaa, (0, 1, 2, 3), tmp23, (0, 4, 1, 3), (4, 2))
    .set 218 (.ein [(6, [0, 1, 2, 3]), (79, [0, 4, 1, 3])] [4, 2]) 1 1,
    -- 5322: tmp55 = einsum(v.baa.xoo, (0, 1, 2), tmp45, (0, 3, 4), (1, 2, 3, 4))
    .set 219 (.ein [(10, [0, 1, 2]), (34, [0, 3, 4])] [1, 2, 3, 4]) 1 1,
    -- 5323: tmp52 = einsum(v.baa.xoo, (0, 1, 2), tmp41, (0, 3, 4), (3, 1, 2, 4))
    .set 220 (.ein [(10, [0, 1, 2]), (35, [0, 3, 4])] [3, 1, 2, 4]) 1 1,
    -- 5324: tmp46 = einsum(tmp45, (0, 1, 2), v.bbb.xoo, (0, 3, 1), (3, 2))
    .set 221 (.ein [(34, [0, 1, 2]), (9, [0, 3, 1])] [3, 2]) 1 1,
    -- 5325: tmp42 = einsum(v.baa.xoo, (0, 1, 2), tmp41, (0, 2, 3), (1, 3))
    .set 222 (.ein [(10, [0, 1, 2]), (35, [0, 2, 3])] [1, 3]) 1 1,
    -- 5326: tmp37 = einsum(tmp36, (0, 1, 2, 3), t1.bb, (3, 4), (1, 0, 2, 4))
    .set 223 (.ein [(49, [0, 1, 2, 3]), (3, [3, 4])] [1, 0, 2, 4]) 1 1,
    -- 5327: tmp34 = einsum(tmp33, (0, 1, 2, 3), t1.aa, (1, 4), (3, 0, 2, 4))
    .set 224 (.ein [(80, [0, 1, 2, 3]), (1, [1, 4])] [3, 0, 2, 4]) 1 1,
    -- 5328: tmp22 = einsum(tmp21, (0, 1), t1.bb, (0, 2), (1, 2))
    .set 225 (.ein [(81, [0, 1]), (3, [0, 2])] [1, 2]) 1 1,
    -- 5329: tmp19 = einsum(t1.aa, (0, 1), tmp1, (0, 2), (2, 1))
    .set 226 (.ein [(1, [0, 1]), (82, [0, 2])] [2, 1]) 1 1,
    -- 5330: tmp17 = einsum(t2.abab, (0, 1, 2, 3), f.aa.ov, (4, 2), (4, 0, 1, 3))
    .set 227 (.ein [(4, [0, 1, 2, 3]), (12, [4, 2])] [4, 0, 1, 3]) 1 1,
    -- 5331: tmp15 = einsum(t2.aaaa, (0, 1, 2, 3), f.aa.ov, (4, 3), (4, 0, 1, 2))
    .set 228 (.ein [(6, [0, 1, 2, 3]), (12, [4, 3])] [4, 0, 1, 2]) 1 1,
    -- 5332: tmp13 = einsum(t2.bbbb, (0, 1, 2, 3), f.bb.ov, (1, 3), (0, 2))
    .set 229 (.ein [(5, [0, 1, 2, 3]), (11, [1, 3])] [0, 2]) 1 1,
    -- 5333: tmp11 = einsum(t2.abab, (0, 1, 2, 3), f.bb.ov, (1, 3), (0, 2))
    .set 230 (.ein [(4, [0, 1, 2, 3]), (11, [1, 3])] [0, 2]) 1 1,
    -- 5334: tmp10 = einsum(t2.abab, (0, 1, 2, 3), f.aa.ov, (0, 2), (1, 3))
    .set 231 (.ein [(4, [0, 1, 2, 3]), (12, [0, 2])] [1, 3]) 1 1,
    -- 5335: tmp8 = einsum(f.aa.ov, (0, 1), t2.aaaa, (2, 0, 3, 1), (2, 3))
    .set 232 (.ein [(12, [0, 1]), (6, [2, 0, 3, 1])] [2, 3]) 1 1,
    -- 5336: tmp7 = einsum(f.bb.vv, (0, 1), t1.bb, (2, 1), (2, 0))
    .set 233 (.ein [(13, [0, 1]), (3, [2, 1])] [2, 0]) 1 1,
    -- 5337: tmp5 = einsum(t1.aa, (0, 1), f.aa.vv, (2, 1), (0, 2))
    .set 234 (.ein [(1, [0, 1]), (14, [2, 1])] [0, 2]) 1 1,
    -- 5338: tmp4 = einsum(t1.bb, (0, 1), f.bb.oo, (2, 0), (2, 1))
    .set 235 (.ein [(3, [0, 1]), (15, [2, 0])] [2, 1]) 1 1,
    -- 5339: tmp2 = einsum(t1.aa, (0, 1), f.aa.oo, (2, 0), (2, 1))
    .set 236 (.ein [(1, [0, 1]), (16, [2, 0])] [2, 1]) 1 1
  ]
  ret := [(chars! "tmp1", 82), (chars! "tmp10", 231), (chars! "tmp100", 201), (chars! "tmp102", 200), (chars! "tmp103", 199), (chars! "tmp105", 198), (chars! "tmp106", 19), (chars! "tmp107", 26), (chars! "tmp108", 197), (chars! "tmp11", 230), (chars! "tmp110", 196), (chars! "tmp112", 195), (chars! "tmp114", 194), (chars! "tmp116", 193), (chars! "tmp118", 192), (chars! "tmp119", 191), (chars! "tmp121", 190), (chars! "tmp123", 189), (chars! "tmp125", 188), (chars! "tmp127", 187), (chars! "tmp129", 186), (chars! "tmp13", 229), (chars! "tmp131", 185), (chars! "tmp133", 184), (chars! "tmp135", 183), (chars! "tmp137", 44), (chars! "tmp138", 182), (chars! "tmp140", 181), (chars! "tmp142", 74), (chars! "tmp143", 180), (chars! "tmp145", 179), (chars! "tmp147", 178), (chars! "tmp148", 177), (chars! "tmp15", 228), (chars! "tmp150", 176), (chars! "tmp151", 175), (chars! "tmp153", 174), (chars! "tmp155", 173), (chars! "tmp156", 172), (chars! "tmp158", 72), (chars! "tmp159", 171), (chars! "tmp161", 71), (chars! "tmp162", 170), (chars! "tmp164", 169), (chars! "tmp166", 29), (chars! "tmp167", 69), (chars! "tmp168", 168), (chars! "tmp17", 227), (chars! "tmp170", 21), (chars! "tmp171", 41), (chars! "tmp172", 167), (chars! "tmp174", 57), (chars! "tmp175", 56), (chars! "tmp176", 53), (chars! "tmp177", 166), (chars! "tmp179", 165), (chars! "tmp181", 66), (chars! "tmp182", 164), (chars! "tmp183", 65), (chars! "tmp184", 163), (chars! "tmp185", 162), (chars! "tmp187", 63), (chars! "tmp188", 161), (chars! "tmp189", 62), (chars! "tmp19", 226), (chars! "tmp190", 160), (chars! "tmp192", 159), (chars! "tmp194", 38), (chars! "tmp195", 158), (chars! "tmp196", 39), (chars! "tmp197", 157), (chars! "tmp198", 61), (chars! "tmp199", 156), (chars! "tmp2", 236), (chars! "tmp201", 155), (chars! "tmp203", 60), (chars! "tmp204", 154), (chars! "tmp205", 153), (chars! "tmp206", 59), (chars! "tmp207", 152), (chars! "tmp208", 58), (chars! "tmp209", 151), (chars! "tmp21", 81), (chars! "tmp211", 150), (chars! "tmp213", 149), (chars! "tmp215", 148), (chars! "tmp217", 147), (chars! "tmp219", 55), (chars! "tmp22", 225), (chars! "tmp220", 146), (chars! "tmp221", 54), (chars! "tmp222", 145), (chars! "tmp223", 144), (chars! "tmp225", 52), (chars! "tmp226", 143), (chars! "tmp227", 51), (chars! "tmp228", 142), (chars! "tmp23", 79), (chars! "tmp230", 36), (chars! "tmp231", 141), (chars! "tmp239", 140), (chars! "tmp241", 139), (chars! "tmp246", 50), (chars! "tmp247", 138), (chars! "tmp249", 137), (chars! "tmp25", 47), (chars! "tmp255", 136), (chars! "tmp257", 135), (chars! "tmp264", 134), (chars! "tmp265", 133), (chars! "tmp267", 132), (chars! "tmp268", 131), (chars! "tmp27", 20), (chars! "tmp270", 130), (chars! "tmp271", 129), (chars! "tmp273", 128), (chars! "tmp28", 68), (chars! "tmp280", 127), (chars! "tmp283", 126), (chars! "tmp294", 125), (chars! "tmp296", 124), (chars! "tmp298", 123), (chars! "tmp30", 67), (chars! "tmp300", 122), (chars! "tmp302", 121), (chars! "tmp304", 120), (chars! "tmp310", 119), (chars! "tmp311", 118), (chars! "tmp313", 117), (chars! "tmp314", 116), (chars! "tmp316", 115), (chars! "tmp318", 114), (chars! "tmp32", 64), (chars! "tmp320", 113), (chars! "tmp325", 22), (chars! "tmp326", 42), (chars! "tmp327", 112), (chars! "tmp329", 111), (chars! "tmp33", 80), (chars! "tmp334", 40), (chars! "tmp335", 110), (chars! "tmp337", 109), (chars! "tmp339", 108), (chars! "tmp34", 224), (chars! "tmp340", 107), (chars! "tmp344", 106), (chars! "tmp346", 105), (chars! "tmp351", 37), (chars! "tmp352", 104), (chars! "tmp354", 103), (chars! "tmp358", 102), (chars! "tmp36", 49), (chars! "tmp369", 101), (chars! "tmp37", 223), (chars! "tmp375", 100), (chars! "tmp377", 99), (chars! "tmp39", 27), (chars! "tmp4", 235), (chars! "tmp41", 35), (chars! "tmp415", 98), (chars! "tmp418", 97), (chars! "tmp42", 222), (chars! "tmp420", 96), (chars! "tmp44", 25), (chars! "tmp45", 34), (chars! "tmp46", 221), (chars! "tmp461", 95), (chars! "tmp462", 94), (chars! "tmp463", 93), (chars! "tmp464", 92), (chars! "tmp467", 91), (chars! "tmp469", 90), (chars! "tmp47", 23), (chars! "tmp471", 89), (chars! "tmp48", 24), (chars! "tmp486", 88), (chars! "tmp487", 87), (chars! "tmp489", 86), (chars! "tmp491", 85), (chars! "tmp492", 84), (chars! "tmp493", 83), (chars! "tmp5", 234), (chars! "tmp50", 75), (chars! "tmp52", 220), (chars! "tmp54", 43), (chars! "tmp55", 219), (chars! "tmp56", 33), (chars! "tmp57", 73), (chars! "tmp59", 30), (chars! "tmp60", 70), (chars! "tmp62", 218), (chars! "tmp64", 48), (chars! "tmp65", 217), (chars! "tmp67", 78), (chars! "tmp68", 216), (chars! "tmp7", 233), (chars! "tmp70", 215), (chars! "tmp72", 214), (chars! "tmp74", 213), (chars! "tmp75", 212), (chars! "tmp77", 31), (chars! "tmp78", 211), (chars! "tmp79", 210), (chars! "tmp8", 232), (chars! "tmp80", 209), (chars! "tmp82", 32), (chars! "tmp83", 208), (chars! "tmp85", 207), (chars! "tmp87", 206), (chars! "tmp89", 205), (chars! "tmp91", 204), (chars! "tmp94", 203), (chars! "tmp97", 202), (chars! "tmp99", 28)]

/-- codegen/UDFCCSD.py:5343-6106 `hbar_lmatvec_ip`. -/
def hbar_lmatvec_ip : GenFun where
  args := [chars! "ints.tmp41", chars! "ints.tmp56", chars! "ints.tmp59", chars! "v.baa.xov", chars! "t1.aa", chars! "r2.aba", chars! "ints.tmp27", chars! "v.baa.xoo", chars! "ints.tmp106", chars! "v.bbb.xoo", chars! "r2.bbb", chars! "t1.bb", chars! "ints.tmp45", chars! "ints.tmp77", chars! "v.bbb.xov", chars! "ints.tmp82", chars! "r2.aaa", chars! "r2.bab", chars! "t2.abab", chars! "t2.bbbb", chars! "f.bb.ov", chars! "ints.tmp44", chars! "ints.tmp47", chars! "ints.tmp107", chars! "f.bb.oo", chars! "ints.tmp183", chars! "ints.tmp187", chars! "ints.tmp21", chars! "ints.tmp221", chars! "ints.tmp225", chars! "ints.tmp464", chars! "ints.tmp467", chars! "ints.tmp471", chars! "ints.tmp137", chars! "ints.tmp64", chars! "ints.tmp158", chars! "ints.tmp161", chars! "ints.tmp181", chars! "ints.tmp219", chars! "f.aa.ov", chars! "ints.tmp39", chars! "ints.tmp48", chars! "ints.tmp99", chars! "f.aa.oo", chars! "ints.tmp175", chars! "ints.tmp176", chars! "ints.tmp1", chars! "ints.tmp30", chars! "ints.tmp32", chars! "ints.tmp358", chars! "ints.tmp369", chars! "ints.tmp375", chars! "t2.aaaa", chars! "ints.tmp23", chars! "ints.tmp50", chars! "ints.tmp57", chars! "ints.tmp60", chars! "ints.tmp174", chars! "ints.tmp28", chars! "r1.b", chars! "ints.tmp334", chars! "ints.tmp469", chars! "ints.tmp325", chars! "r1.a", chars! "ints.tmp377", chars! "ints.tmp166", chars! "ints.tmp189", chars! "ints.tmp486", chars! "ints.tmp487", chars! "ints.tmp489", chars! "f.bb.vv", chars! "ints.tmp203", chars! "ints.tmp206", chars! "ints.tmp326", chars! "ints.tmp351", chars! "ints.tmp246", chars! "ints.tmp25", chars! "ints.tmp54", chars! "ints.tmp171", chars! "ints.tmp194", chars! "ints.tmp196", chars! "ints.tmp230", chars! "ints.tmp36", chars! "ints.tmp491", chars! "ints.tmp492", chars! "ints.tmp493", chars! "ints.tmp415", chars! "ints.tmp418", chars! "ints.tmp420", chars! "f.aa.vv", chars! "ints.tmp198", chars! "ints.tmp208", chars! "ints.tmp142", chars! "ints.tmp67", chars! "ints.tmp461", chars! "ints.tmp462", chars! "ints.tmp463", chars! "ints.tmp167", chars! "ints.tmp227", chars! "ints.tmp33", chars! "ints.tmp239", chars! "ints.tmp257", chars! "ints.tmp267", chars! "ints.tmp271", chars! "ints.tmp283", chars! "ints.tmp298", chars! "ints.tmp302", chars! "ints.tmp310", chars! "ints.tmp316", chars! "ints.tmp346", chars! "ints.tmp249", chars! "ints.tmp264", chars! "ints.tmp270", chars! "ints.tmp294", chars! "ints.tmp313", chars! "ints.tmp320", chars! "ints.tmp329", chars! "ints.tmp339", chars! "ints.tmp340", chars! "ints.tmp354", chars! "ints.tmp102", chars! "ints.tmp110", chars! "ints.tmp138", chars! "ints.tmp143", chars! "ints.tmp159", chars! "ints.tmp162", chars! "ints.tmp184", chars! "ints.tmp188", chars! "ints.tmp205", chars! "ints.tmp222", chars! "ints.tmp226", chars! "ints.tmp22", chars! "ints.tmp46", chars! "ints.tmp4", chars! "ints.tmp65", chars! "ints.tmp68", chars! "ints.tmp87", chars! "ints.tmp105", chars! "ints.tmp10", chars! "ints.tmp114", chars! "ints.tmp118", chars! "ints.tmp121", chars! "ints.tmp13", chars! "ints.tmp182", chars! "ints.tmp204", chars! "ints.tmp207", chars! "ints.tmp220", chars! "ints.tmp7", chars! "ints.tmp89", chars! "ints.tmp241", chars! "ints.tmp247", chars! "ints.tmp255", chars! "ints.tmp268", chars! "ints.tmp273", chars! "ints.tmp300", chars! "ints.tmp304", chars! "ints.tmp314", chars! "ints.tmp327", chars! "ints.tmp335", chars! "ints.tmp352", chars! "ints.tmp265", chars! "ints.tmp280", chars! "ints.tmp296", chars! "ints.tmp311", chars! "ints.tmp318", chars! "ints.tmp337", chars! "ints.tmp344", chars! "ints.tmp100", chars! "ints.tmp108", chars! "ints.tmp135", chars! "ints.tmp140", chars! "ints.tmp156", chars! "ints.tmp164", chars! "ints.tmp179", chars! "ints.tmp185", chars! "ints.tmp19", chars! "ints.tmp201", chars! "ints.tmp217", chars! "ints.tmp223", chars! "ints.tmp2", chars! "ints.tmp42", chars! "ints.tmp62", chars! "ints.tmp70", chars! "ints.tmp85", chars! "ints.tmp103", chars! "ints.tmp112", chars! "ints.tmp116", chars! "ints.tmp119", chars! "ints.tmp11", chars! "ints.tmp177", chars! "ints.tmp199", chars! "ints.tmp209", chars! "ints.tmp215", chars! "ints.tmp5", chars! "ints.tmp8", chars! "ints.tmp91", chars! "ints.tmp129", chars! "ints.tmp133", chars! "ints.tmp147", chars! "ints.tmp153", chars! "ints.tmp17", chars! "ints.tmp213", chars! "ints.tmp55", chars! "ints.tmp78", chars! "ints.tmp83", chars! "ints.tmp97", chars! "ints.tmp125", chars! "ints.tmp150", chars! "ints.tmp155", chars! "ints.tmp172", chars! "ints.tmp195", chars! "ints.tmp197", chars! "ints.tmp231", chars! "ints.tmp37", chars! "ints.tmp74", chars! "ints.tmp79", chars! "ints.tmp127", chars! "ints.tmp131", chars! "ints.tmp148", chars! "ints.tmp15", chars! "ints.tmp168", chars! "ints.tmp190", chars! "ints.tmp228", chars! "ints.tmp34", chars! "ints.tmp52", chars! "ints.tmp75", chars! "ints.tmp80", chars! "ints.tmp123", chars! "ints.tmp145", chars! "ints.tmp151", chars! "ints.tmp192", chars! "ints.tmp211", chars! "ints.tmp72", chars! "ints.tmp94", chars! "ints.tmp170"]
  body := [
    -- 5373: tmp50 = np.copy(ints.tmp41)
    .set 235 (.cp 0) 1 1,
    -- 5374: tmp50 += ints.tmp56 * 2
    .add 235 (.cp 1) 2 1,
    -- 5375: tmp50 += ints.tmp59
    .add 235 (.cp 2) 1 1,
    -- 5376: tmp50 += v.baa.xov
    .add 235 (.cp 3) 1 1,
    -- 5377: tmp47 = einsum(t1.aa, (0, 1), r2.aba, (2, 3, 1), (2, 0, 3))
    .set 236 (.ein [(4, [0, 1]), (5, [2, 3, 1])] [2, 0, 3]) 1 1,
    -- 5378: tmp30 = np.copy(ints.tmp27)
    .set 237 (.cp 6) 1 1,
    -- 5379: del ints.tmp27
    .del 6,
    -- 5380: tmp30 += v.baa.xoo
    .add 237 (.cp 7) 1 1,
    -- 5381: tmp33 = np.copy(ints.tmp106)
    .set 238 (.cp 8) 1 1,
    -- 5382: del ints.tmp106
    .del 8,
    -- 5383: tmp33 += v.bbb.xoo
    .add 238 (.cp 9) 1 1,
    -- 5384: tmp52 = einsum(r2.bbb, (0, 1, 2), t1.bb, (3, 2), (0, 1, 3))
    .set 239 (.ein [(10, [0, 1, 2]), (11, [3, 2])] [0, 1, 3]) 1 1,
    -- 5385: tmp16 = np.copy(ints.tmp45)
    .set 240 (.cp 12) 1 1,
    -- 5386: tmp16 += ints.tmp77
    .add 240 (.cp 13) 1 1,
    -- 5387: tmp16 += v.bbb.xov
    .add 240 (.cp 14) 1 1,
    -- 5388: tmp16 += ints.tmp82 * 2
    .add 240 (.cp 15) 2 1,
    -- 5389: tmp14 = np.copy(ints.tmp41)
    .set 241 (.cp 0) 1 1,
    -- 5390: del ints.tmp41
    .del 0,
    -- 5391: tmp14 += ints.tmp59
    .add 241 (.cp 2) 1 1,
    -- 5392: del ints.tmp59
    .del 2,
    -- 5393: tmp14 += v.baa.xov
    .add 241 (.cp 3) 1 1,
    -- 5394: tmp14 += ints.tmp56 * 2
    .add 241 (.cp 1) 2 1,
    -- 5395: del ints.tmp56
    .del 1,
    -- 5396: tmp27 = einsum(t1.aa, (0, 1), r2.aaa, (2, 3, 1), (2, 3, 0))
    .set 242 (.ein [(4, [0, 1]), (16, [2, 3, 1])] [2, 3, 0]) 1 1,
    -- 5397: tmp32 = einsum(r2.bab, (0, 1, 2), t1.bb, (3, 2), (1, 0, 3)) * -1
    .set 243 (.ein [(17, [0, 1, 2]), (11, [3, 2])] [1, 0, 3]) (-1) 1,
    -- 5398: tmp74 = einsum(tmp50, (0, 1, 2), r2.aba, (1, 3, 2), (0, 3)) * 0.5
    .set 244 (.ein [(235, [0, 1, 2]), (5, [1, 3, 2])] [0, 3]) 1 2,
    -- 5399: tmp75 = einsum(tmp30, (0, 1, 2), tmp47, (1, 2, 3), (0, 3)) * 0.5
    .set 245 (.ein [(237, [0, 1, 2]), (236, [1, 2, 3])] [0, 3]) 1 2,
    -- 5400: tmp76 = einsum(tmp52, (0, 1, 2), tmp33, (3, 0, 2), (3, 1))
    .set 246 (.ein [(239, [0, 1, 2]), (238, [3, 0, 2])] [3, 1]) 1 1,
    -- 5401: tmp55 = einsum(t2.abab, (0, 1, 2, 3), r2.aba, (0, 1, 2), (3,))
    .set 247 (.ein [(18, [0, 1, 2, 3]), (5, [0, 1, 2])] [3]) 1 1,
    -- 5402: tmp56 = einsum(t2.bbbb, (0, 1, 2, 3), r2.bbb, (0, 1, 3), (2,))
    .set 248 (.ein [(19, [0, 1, 2, 3]), (10, [0, 1, 3])] [2]) 1 1,
    -- 5403: tmp17 = einsum(r2.bab, (0, 1, 2), tmp16, (3, 0, 2), (3, 1)) * -1
    .set 249 (.ein [(17, [0, 1, 2]), (240, [3, 0, 2])] [3, 1]) (-1) 1,
    -- 5404: tmp15 = einsum(r2.aaa, (0, 1, 2), tmp14, (3, 1, 2), (3, 0)) * -1
    .set 250 (.ein [(16, [0, 1, 2]), (241, [3, 1, 2])] [3, 0]) (-1) 1,
    -- 5405: del tmp14
    .del 241,
    -- 5406: tmp31 = einsum(tmp30, (0, 1, 2), tmp27, (1, 3, 2), (0, 3))
    .set 251 (.ein [(237, [0, 1, 2]), (242, [1, 3, 2])] [0, 3]) 1 1,
    -- 5407: tmp34 = einsum(tmp32, (0, 1, 2), tmp33, (3, 1, 2), (3, 0)) * 0.5
    .set 252 (.ein [(243, [0, 1, 2]), (238, [3, 1, 2])] [3, 0]) 1 2,
    -- 5408: tmp64 = np.copy(f.bb.ov)
    .set 253 (.cp 20) 1 1,
    -- 5409: tmp64 += ints.tmp44
    .add 253 (.cp 21) 1 1,
    -- 5410: tmp64 += ints.tmp47
    .add 253 (.cp 22) 1 1,
    -- 5411: tmp64 += ints.tmp107 * -1
    .add 253 (.cp 23) (-1) 1,
    -- 5412: del ints.tmp107
    .del 23,
    -- 5413: tmp88 = np.copy(f.bb.oo)
    .set 254 (.cp 24) 1 1,
    -- 5414: tmp88 += ints.tmp183
    .add 254 (.cp 25) 1 1,
    -- 5415: tmp88 += ints.tmp187
    .add 254 (.cp 26) 1 1,
    -- 5416: tmp88 += np.transpose(ints.tmp21, (1, 0))
    .add 254 (.tr 27 [1, 0]) 1 1,
    -- 5417: tmp88 += ints.tmp221
    .add 254 (.cp 28) 1 1,
    -- 5418: tmp88 += ints.tmp225
    .add 254 (.cp 29) 1 1,
    -- 5419: tmp58 = np.copy(ints.tmp464)
    .set 255 (.cp 30) 1 1,
    -- 5420: del ints.tmp464
    .del 30,
    -- 5421: tmp58 += ints.tmp467
    .add 255 (.cp 31) 1 1,
    -- 5422: del ints.tmp467
    .del 31,
    -- 5423: tmp58 += ints.tmp471 * 2
    .add 255 (.cp 32) 2 1,
    -- 5424: del ints.tmp471
    .del 32,
    -- 5425: tmp86 = einsum(tmp16, (0, 1, 2), r2.bbb, (3, 1, 2), (0, 3)) * -1
    .set 256 (.ein [(240, [0, 1, 2]), (10, [3, 1, 2])] [0, 3]) (-1) 1,
    -- 5426: del tmp16
    .del 240,
    -- 5427: tmp62 = np.copy(ints.tmp137)
    .set 257 (.cp 33) 1 1,
    -- 5428: tmp62 += np.transpose(ints.tmp64, (0, 2, 1, 3))
    .add 257 (.tr 34 [0, 2, 1, 3]) 1 1,
    -- 5429: tmp77 = np.copy(tmp74)
    .set 258 (.cp 244) 1 1,
    -- 5430: del tmp74
    .del 244,
    -- 5431: tmp77 += tmp75 * -1
    .add 258 (.cp 245) (-1) 1,
    -- 5432: del tmp75
    .del 245,
    -- 5433: tmp77 += tmp76 * -1
    .add 258 (.cp 246) (-1) 1,
    -- 5434: del tmp76
    .del 246,
    -- 5435: tmp81 = np.copy(ints.tmp158) * 2
    .set 259 (.cp 35) 2 1,
    -- 5436: tmp81 += ints.tmp161
    .add 259 (.cp 36) 1 1,
    -- 5437: tmp81 += ints.tmp181 * -1
    .add 259 (.cp 37) (-1) 1,
    -- 5438: tmp81 += ints.tmp219 * -1
    .add 259 (.cp 38) (-1) 1,
    -- 5439: tmp79 = np.copy(tmp55) * -0.5
    .set 260 (.cp 247) (-1) 2,
    -- 5440: tmp79 += tmp56
    .add 260 (.cp 248) 1 1,
    -- 5441: tmp41 = np.copy(f.aa.ov)
    .set 261 (.cp 39) 1 1,
    -- 5442: tmp41 += ints.tmp39
    .add 261 (.cp 40) 1 1,
    -- 5443: tmp41 += ints.tmp48
    .add 261 (.cp 41) 1 1,
    -- 5444: tmp41 += ints.tmp99 * -1
    .add 261 (.cp 42) (-1) 1,
    -- 5445: del ints.tmp99
    .del 42,
    -- 5446: tmp18 = np.copy(tmp15) * -2
    .set 262 (.cp 250) (-2) 1,
    -- 5447: del tmp15
    .del 250,
    -- 5448: tmp18 += tmp17
    .add 262 (.cp 249) 1 1,
    -- 5449: del tmp17
    .del 249,
    -- 5450: tmp20 = np.copy(f.aa.oo)
    .set 263 (.cp 43) 1 1,
    -- 5451: tmp20 += ints.tmp175
    .add 263 (.cp 44) 1 1,
    -- 5452: tmp20 += ints.tmp176
    .add 263 (.cp 45) 1 1,
    -- 5453: tmp20 += np.transpose(ints.tmp1, (1, 0))
    .add 263 (.tr 46 [1, 0]) 1 1,
    -- 5454: tmp20 += ints.tmp30
    .add 263 (.cp 47) 1 1,
    -- 5455: tmp20 += ints.tmp32
    .add 263 (.cp 48) 1 1,
    -- 5456: tmp10 = einsum(t2.abab, (0, 1, 2, 3), r2.bab, (1, 0, 3), (2,)) * -1
    .set 264 (.ein [(18, [0, 1, 2, 3]), (17, [1, 0, 3])] [2]) (-1) 1,
    -- 5457: tmp12 = np.copy(ints.tmp358)
    .set 265 (.cp 49) 1 1,
    -- 5458: tmp12 += ints.tmp369
    .add 265 (.cp 50) 1 1,
    -- 5459: tmp12 += ints.tmp375 * 2
    .add 265 (.cp 51) 2 1,
    -- 5460: tmp25 = einsum(t2.aaaa, (0, 1, 2, 3), r2.aaa, (0, 1, 3), (2,))
    .set 266 (.ein [(52, [0, 1, 2, 3]), (16, [0, 1, 3])] [2]) 1 1,
    -- 5461: tmp35 = np.copy(tmp31) * -1
    .set 267 (.cp 251) (-1) 1,
    -- 5462: del tmp31
    .del 251,
    -- 5463: tmp35 += tmp34
    .add 267 (.cp 252) 1 1,
    -- 5464: del tmp34
    .del 252,
    -- 5465: tmp28 = np.copy(ints.tmp23)
    .set 268 (.cp 53) 1 1,
    -- 5466: tmp28 += np.transpose(ints.tmp50, (0, 2, 1, 3))
    .add 268 (.tr 54 [0, 2, 1, 3]) 1 1,
    -- 5467: tmp37 = np.copy(ints.tmp57) * 2
    .set 269 (.cp 55) 2 1,
    -- 5468: tmp37 += ints.tmp60
    .add 269 (.cp 56) 1 1,
    -- 5469: tmp37 += ints.tmp174 * -1
    .add 269 (.cp 57) (-1) 1,
    -- 5470: tmp37 += ints.tmp28 * -1
    .add 269 (.cp 58) (-1) 1,
    -- 5471: tmp65 = einsum(tmp64, (0, 1), t1.bb, (0, 2), (2, 1))
    .set 270 (.ein [(253, [0, 1]), (11, [0, 2])] [2, 1]) 1 1,
    -- 5472: tmp84 = einsum(r1.b, (0,), ints.tmp137, (0, 1, 2, 3), (1, 2, 3))
    .set 271 (.ein [(59, [0]), (33, [0, 1, 2, 3])] [1, 2, 3]) 1 1,
    -- 5473: tmp89 = einsum(r2.bbb, (0, 1, 2), tmp88, (1, 3), (0, 3, 2)) * -1
    .set 272 (.ein [(10, [0, 1, 2]), (254, [1, 3])] [0, 3, 2]) (-1) 1,
    -- 5474: del tmp88
    .del 254,
    -- 5475: tmp85 = einsum(tmp58, (0, 1, 2, 3), r2.bbb, (4, 0, 2), (4, 1, 3)) * -1
    .set 273 (.ein [(255, [0, 1, 2, 3]), (10, [4, 0, 2])] [4, 1, 3]) (-1) 1,
    -- 5476: tmp87 = einsum(v.bbb.xov, (0, 1, 2), tmp86, (0, 3), (1, 3, 2)) * -1
    .set 274 (.ein [(14, [0, 1, 2]), (256, [0, 3])] [1, 3, 2]) (-1) 1,
    -- 5477: del tmp86
    .del 256,
    -- 5478: tmp73 = einsum(tmp52, (0, 1, 2), tmp62, (0, 2, 3, 4), (1, 3, 4)) * 2
    .set 275 (.ein [(239, [0, 1, 2]), (257, [0, 2, 3, 4])] [1, 3, 4]) 2 1,
    -- 5479: tmp70 = einsum(r1.b, (0,), ints.tmp64, (1, 0, 2, 3), (1, 2, 3))
    .set 276 (.ein [(59, [0]), (34, [1, 0, 2, 3])] [1, 2, 3]) 1 1,
    -- 5480: tmp78 = einsum(v.bbb.xov, (0, 1, 2), tmp77, (0, 3), (1, 3, 2)) * 2
    .set 277 (.ein [(14, [0, 1, 2]), (258, [0, 3])] [1, 3, 2]) 2 1,
    -- 5481: del tmp77
    .del 258,
    -- 5482: tmp72 = einsum(ints.tmp334, (0, 1, 2, 3), r2.bbb, (1, 0, 4), (2, 3, 4)) * -1
    .set 278 (.ein [(60, [0, 1, 2, 3]), (10, [1, 0, 4])] [2, 3, 4]) (-1) 1,
    -- 5483: del ints.tmp334
    .del 60,
    -- 5484: tmp71 = einsum(ints.tmp469, (0, 1, 2, 3), r2.aba, (0, 4, 2), (1, 4, 3))
    .set 279 (.ein [(61, [0, 1, 2, 3]), (5, [0, 4, 2])] [1, 4, 3]) 1 1,
    -- 5485: tmp82 = einsum(r2.bbb, (0, 1, 2), tmp81, (1, 3), (0, 3, 2)) * -2
    .set 280 (.ein [(10, [0, 1, 2]), (259, [1, 3])] [0, 3, 2]) (-2) 1,
    -- 5486: del tmp81
    .del 259,
    -- 5487: tmp80 = einsum(ints.tmp325, (0, 1, 2, 3), tmp79, (3,), (0, 1, 2)) * 2
    .set 281 (.ein [(62, [0, 1, 2, 3]), (260, [3])] [0, 1, 2]) 2 1,
    -- 5488: del ints.tmp325, tmp79
    .del 62,
    .del 260,
    -- 5489: tmp51 = np.copy(ints.tmp45)
    .set 282 (.cp 12) 1 1,
    -- 5490: del ints.tmp45
    .del 12,
    -- 5491: tmp51 += ints.tmp77
    .add 282 (.cp 13) 1 1,
    -- 5492: del ints.tmp77
    .del 13,
    -- 5493: tmp51 += ints.tmp82 * 2
    .add 282 (.cp 15) 2 1,
    -- 5494: del ints.tmp82
    .del 15,
    -- 5495: tmp51 += v.bbb.xov
    .add 282 (.cp 14) 1 1,
    -- 5496: tmp42 = einsum(tmp41, (0, 1), t1.aa, (0, 2), (2, 1))
    .set 283 (.ein [(261, [0, 1]), (4, [0, 2])] [2, 1]) 1 1,
    -- 5497: tmp8 = einsum(ints.tmp50, (0, 1, 2, 3), r1.a, (0,), (1, 2, 3))
    .set 284 (.ein [(54, [0, 1, 2, 3]), (63, [0])] [1, 2, 3]) 1 1,
    -- 5498: tmp19 = einsum(tmp18, (0, 1), v.baa.xov, (0, 2, 3), (2, 1, 3))
    .set 285 (.ein [(262, [0, 1]), (3, [0, 2, 3])] [2, 1, 3]) 1 1,
    -- 5499: del tmp18
    .del 262,
    -- 5500: tmp21 = einsum(tmp20, (0, 1), r2.aaa, (2, 0, 3), (2, 1, 3)) * -1
    .set 286 (.ein [(263, [0, 1]), (16, [2, 0, 3])] [2, 1, 3]) (-1) 1,
    -- 5501: del tmp20
    .del 263,
    -- 5502: tmp9 = einsum(r2.bab, (0, 1, 2), ints.tmp377, (3, 0, 4, 2), (3, 1, 4)) * -1
    .set 287 (.ein [(17, [0, 1, 2]), (64, [3, 0, 4, 2])] [3, 1, 4]) (-1) 1,
    -- 5503: tmp11 = einsum(tmp10, (0,), ints.tmp166, (1, 2, 3, 0), (1, 2, 3))
    .set 288 (.ein [(264, [0]), (65, [1, 2, 3, 0])] [1, 2, 3]) 1 1,
    -- 5504: tmp13 = einsum(tmp12, (0, 1, 2, 3), r2.aaa, (4, 0, 2), (4, 1, 3)) * -1
    .set 289 (.ein [(265, [0, 1, 2, 3]), (16, [4, 0, 2])] [4, 1, 3]) (-1) 1,
    -- 5505: del tmp12
    .del 265,
    -- 5506: tmp26 = einsum(tmp25, (0,), ints.tmp166, (1, 2, 3, 0), (1, 2, 3))
    .set 290 (.ein [(266, [0]), (65, [1, 2, 3, 0])] [1, 2, 3]) 1 1,
    -- 5507: del ints.tmp166
    .del 65,
    -- 5508: tmp36 = einsum(tmp35, (0, 1), v.baa.xov, (0, 2, 3), (2, 1, 3)) * 2
    .set 291 (.ein [(267, [0, 1]), (3, [0, 2, 3])] [2, 1, 3]) 2 1,
    -- 5509: del tmp35
    .del 267,
    -- 5510: tmp29 = einsum(tmp28, (0, 1, 2, 3), tmp27, (0, 4, 2), (4, 1, 3)) * 2
    .set 292 (.ein [(268, [0, 1, 2, 3]), (242, [0, 4, 2])] [4, 1, 3]) 2 1,
    -- 5511: del tmp28
    .del 268,
    -- 5512: tmp38 = einsum(tmp37, (0, 1), r2.aaa, (2, 0, 3), (2, 1, 3)) * -2
    .set 293 (.ein [(269, [0, 1]), (16, [2, 0, 3])] [2, 1, 3]) (-2) 1,
    -- 5513: del tmp37
    .del 269,
    -- 5514: tmp23 = einsum(ints.tmp23, (0, 1, 2, 3), r1.a, (1,), (0, 2, 3))
    .set 294 (.ein [(53, [0, 1, 2, 3]), (63, [1])] [0, 2, 3]) 1 1,
    -- 5515: tmp24 = einsum(r2.aaa, (0, 1, 2), ints.tmp189, (1, 0, 3, 4), (3, 4, 2)) * -1
    .set 295 (.ein [(16, [0, 1, 2]), (66, [1, 0, 3, 4])] [3, 4, 2]) (-1) 1,
    -- 5516: del ints.tmp189
    .del 66,
    -- 5517: tmp66 = np.copy(np.transpose(ints.tmp486, (1, 0)))
    .set 296 (.tr 67 [1, 0]) 1 1,
    -- 5518: del ints.tmp486
    .del 67,
    -- 5519: tmp66 += ints.tmp487 * 2
    .add 296 (.cp 68) 2 1,
    -- 5520: del ints.tmp487
    .del 68,
    -- 5521: tmp66 += ints.tmp489
    .add 296 (.cp 69) 1 1,
    -- 5522: del ints.tmp489
    .del 69,
    -- 5523: tmp66 += f.bb.vv * -1
    .add 296 (.cp 70) (-1) 1,
    -- 5524: tmp66 += ints.tmp203 * -1
    .add 296 (.cp 71) (-1) 1,
    -- 5525: del ints.tmp203
    .del 71,
    -- 5526: tmp66 += ints.tmp206 * -1
    .add 296 (.cp 72) (-1) 1,
    -- 5527: del ints.tmp206
    .del 72,
    -- 5528: tmp66 += tmp65
    .add 296 (.cp 270) 1 1,
    -- 5529: del tmp65
    .del 270,
    -- 5530: tmp90 = np.copy(tmp84)
    .set 297 (.cp 271) 1 1,
    -- 5531: del tmp84
    .del 271,
    -- 5532: tmp90 += np.transpose(tmp85, (1, 0, 2)) * -2
    .add 297 (.tr 273 [1, 0, 2]) (-2) 1,
    -- 5533: del tmp85
    .del 273,
    -- 5534: tmp90 += np.transpose(tmp87, (1, 0, 2)) * 2
    .add 297 (.tr 274 [1, 0, 2]) 2 1,
    -- 5535: del tmp87
    .del 274,
    -- 5536: tmp90 += np.transpose(tmp89, (1, 0, 2)) * -2
    .add 297 (.tr 272 [1, 0, 2]) (-2) 1,
    -- 5537: del tmp89
    .del 272,
    -- 5538: tmp83 = np.copy(tmp70)
    .set 298 (.cp 276) 1 1,
    -- 5539: del tmp70
    .del 276,
    -- 5540: tmp83 += tmp71
    .add 298 (.cp 279) 1 1,
    -- 5541: del tmp71
    .del 279,
    -- 5542: tmp83 += tmp72 * 2
    .add 298 (.cp 278) 2 1,
    -- 5543: del tmp72
    .del 278,
    -- 5544: tmp83 += np.transpose(tmp73, (1, 0, 2)) * -1
    .add 298 (.tr 275 [1, 0, 2]) (-1) 1,
    -- 5545: del tmp73
    .del 275,
    -- 5546: tmp83 += np.transpose(tmp78, (1, 0, 2))
    .add 298 (.tr 277 [1, 0, 2]) 1 1,
    -- 5547: del tmp78
    .del 277,
    -- 5548: tmp83 += tmp80 * -1
    .add 298 (.cp 281) (-1) 1,
    -- 5549: del tmp80
    .del 281,
    -- 5550: tmp83 += np.transpose(tmp82, (1, 0, 2))
    .add 298 (.tr 280 [1, 0, 2]) 1 1,
    -- 5551: del tmp82
    .del 280,
    -- 5552: tmp91 = np.copy(np.transpose(ints.tmp326, (2, 3, 0, 1)))
    .set 299 (.tr 73 [2, 3, 0, 1]) 1 1,
    -- 5553: del ints.tmp326
    .del 73,
    -- 5554: tmp91 += np.transpose(ints.tmp351, (2, 3, 0, 1))
    .add 299 (.tr 74 [2, 3, 0, 1]) 1 1,
    -- 5555: del ints.tmp351
    .del 74,
    -- 5556: tmp91 += ints.tmp246 * -1
    .add 299 (.cp 75) (-1) 1,
    -- 5557: del ints.tmp246
    .del 75,
    -- 5558: tmp4 = np.copy(f.aa.oo)
    .set 300 (.cp 43) 1 1,
    -- 5559: tmp4 += ints.tmp175
    .add 300 (.cp 44) 1 1,
    -- 5560: tmp4 += ints.tmp176
    .add 300 (.cp 45) 1 1,
    -- 5561: tmp4 += np.transpose(ints.tmp1, (1, 0))
    .add 300 (.tr 46 [1, 0]) 1 1,
    -- 5562: tmp4 += np.transpose(ints.tmp30, (1, 0))
    .add 300 (.tr 47 [1, 0]) 1 1,
    -- 5563: tmp4 += np.transpose(ints.tmp32, (1, 0))
    .add 300 (.tr 48 [1, 0]) 1 1,
    -- 5564: tmp4 += ints.tmp57 * 2
    .add 300 (.cp 55) 2 1,
    -- 5565: tmp4 += ints.tmp60
    .add 300 (.cp 56) 1 1,
    -- 5566: tmp4 += ints.tmp174 * -1
    .add 300 (.cp 57) (-1) 1,
    -- 5567: tmp4 += ints.tmp28 * -1
    .add 300 (.cp 58) (-1) 1,
    -- 5568: tmp69 = np.copy(ints.tmp25)
    .set 301 (.cp 76) 1 1,
    -- 5569: tmp69 += np.transpose(ints.tmp54, (1, 0, 2, 3))
    .add 301 (.tr 77 [1, 0, 2, 3]) 1 1,
    -- 5570: tmp68 = np.copy(tmp25) * 2
    .set 302 (.cp 266) 2 1,
    -- 5571: del tmp25
    .del 266,
    -- 5572: tmp68 += tmp10
    .add 302 (.cp 264) 1 1,
    -- 5573: del tmp10
    .del 264,
    -- 5574: tmp63 = einsum(r2.aaa, (0, 1, 2), tmp50, (3, 1, 2), (3, 0)) * 2
    .set 303 (.ein [(16, [0, 1, 2]), (235, [3, 1, 2])] [3, 0]) 2 1,
    -- 5575: tmp63 += einsum(r2.bab, (0, 1, 2), tmp51, (3, 0, 2), (3, 1)) * -1
    .add 303 (.ein [(17, [0, 1, 2]), (282, [3, 0, 2])] [3, 1]) (-1) 1,
    -- 5576: tmp63 += einsum(tmp30, (0, 1, 2), tmp27, (1, 3, 2), (0, 3)) * 2
    .add 303 (.ein [(237, [0, 1, 2]), (242, [1, 3, 2])] [0, 3]) 2 1,
    -- 5577: del tmp27
    .del 242,
    -- 5578: tmp63 += einsum(tmp32, (0, 1, 2), tmp33, (3, 1, 2), (3, 0)) * -1
    .add 303 (.ein [(243, [0, 1, 2]), (238, [3, 1, 2])] [3, 0]) (-1) 1,
    -- 5579: tmp60 = np.copy(ints.tmp171)
    .set 304 (.cp 78) 1 1,
    -- 5580: tmp60 += ints.tmp194
    .add 304 (.cp 79) 1 1,
    -- 5581: tmp60 += np.transpose(ints.tmp196, (1, 0, 2, 3))
    .add 304 (.tr 80 [1, 0, 2, 3]) 1 1,
    -- 5582: tmp60 += ints.tmp230
    .add 304 (.cp 81) 1 1,
    -- 5583: tmp60 += np.transpose(ints.tmp36, (1, 0, 2, 3))
    .add 304 (.tr 82 [1, 0, 2, 3]) 1 1,
    -- 5584: tmp67 = np.copy(f.bb.oo)
    .set 305 (.cp 24) 1 1,
    -- 5585: tmp67 += ints.tmp158 * 2
    .add 305 (.cp 35) 2 1,
    -- 5586: tmp67 += ints.tmp161
    .add 305 (.cp 36) 1 1,
    -- 5587: tmp67 += ints.tmp183
    .add 305 (.cp 25) 1 1,
    -- 5588: tmp67 += ints.tmp187
    .add 305 (.cp 26) 1 1,
    -- 5589: tmp67 += np.transpose(ints.tmp21, (1, 0))
    .add 305 (.tr 27 [1, 0]) 1 1,
    -- 5590: tmp67 += ints.tmp221
    .add 305 (.cp 28) 1 1,
    -- 5591: tmp67 += ints.tmp225
    .add 305 (.cp 29) 1 1,
    -- 5592: tmp67 += ints.tmp181 * -1
    .add 305 (.cp 37) (-1) 1,
    -- 5593: tmp67 += ints.tmp219 * -1
    .add 305 (.cp 38) (-1) 1,
    -- 5594: tmp61 = np.copy(ints.tmp25)
    .set 306 (.cp 76) 1 1,
    -- 5595: tmp61 += np.transpose(ints.tmp54, (1, 0, 2, 3))
    .add 306 (.tr 77 [1, 0, 2, 3]) 1 1,
    -- 5596: tmp59 = np.copy(ints.tmp491)
    .set 307 (.cp 83) 1 1,
    -- 5597: del ints.tmp491
    .del 83,
    -- 5598: tmp59 += np.transpose(ints.tmp492, (1, 0, 2, 3))
    .add 307 (.tr 84 [1, 0, 2, 3]) 1 1,
    -- 5599: del ints.tmp492
    .del 84,
    -- 5600: tmp59 += np.transpose(ints.tmp493, (1, 0, 2, 3)) * -1
    .add 307 (.tr 85 [1, 0, 2, 3]) (-1) 1,
    -- 5601: del ints.tmp493
    .del 85,
    -- 5602: tmp54 = np.copy(f.aa.oo)
    .set 308 (.cp 43) 1 1,
    -- 5603: tmp54 += ints.tmp175
    .add 308 (.cp 44) 1 1,
    -- 5604: del ints.tmp175
    .del 44,
    -- 5605: tmp54 += ints.tmp176
    .add 308 (.cp 45) 1 1,
    -- 5606: del ints.tmp176
    .del 45,
    -- 5607: tmp54 += np.transpose(ints.tmp1, (1, 0))
    .add 308 (.tr 46 [1, 0]) 1 1,
    -- 5608: del ints.tmp1
    .del 46,
    -- 5609: tmp54 += ints.tmp30
    .add 308 (.cp 47) 1 1,
    -- 5610: del ints.tmp30
    .del 47,
    -- 5611: tmp54 += ints.tmp32
    .add 308 (.cp 48) 1 1,
    -- 5612: del ints.tmp32
    .del 48,
    -- 5613: tmp54 += ints.tmp57 * 2
    .add 308 (.cp 55) 2 1,
    -- 5614: del ints.tmp57
    .del 55,
    -- 5615: tmp54 += ints.tmp60
    .add 308 (.cp 56) 1 1,
    -- 5616: del ints.tmp60
    .del 56,
    -- 5617: tmp54 += ints.tmp174 * -1
    .add 308 (.cp 57) (-1) 1,
    -- 5618: del ints.tmp174
    .del 57,
    -- 5619: tmp54 += ints.tmp28 * -1
    .add 308 (.cp 58) (-1) 1,
    -- 5620: del ints.tmp28
    .del 58,
    -- 5621: tmp48 = np.copy(ints.tmp23)
    .set 309 (.cp 53) 1 1,
    -- 5622: tmp48 += np.transpose(ints.tmp50, (0, 2, 1, 3))
    .add 309 (.tr 54 [0, 2, 1, 3]) 1 1,
    -- 5623: tmp43 = np.copy(np.transpose(ints.tmp415, (1, 0)))
    .set 310 (.tr 86 [1, 0]) 1 1,
    -- 5624: del ints.tmp415
    .del 86,
    -- 5625: tmp43 += ints.tmp418 * 2
    .add 310 (.cp 87) 2 1,
    -- 5626: del ints.tmp418
    .del 87,
    -- 5627: tmp43 += ints.tmp420
    .add 310 (.cp 88) 1 1,
    -- 5628: del ints.tmp420
    .del 88,
    -- 5629: tmp43 += f.aa.vv * -1
    .add 310 (.cp 89) (-1) 1,
    -- 5630: tmp43 += ints.tmp198 * -1
    .add 310 (.cp 90) (-1) 1,
    -- 5631: del ints.tmp198
    .del 90,
    -- 5632: tmp43 += ints.tmp208 * -1
    .add 310 (.cp 91) (-1) 1,
    -- 5633: del ints.tmp208
    .del 91,
    -- 5634: tmp43 += tmp42
    .add 310 (.cp 283) 1 1,
    -- 5635: del tmp42
    .del 283,
    -- 5636: tmp46 = np.copy(ints.tmp171)
    .set 311 (.cp 78) 1 1,
    -- 5637: del ints.tmp171
    .del 78,
    -- 5638: tmp46 += np.transpose(ints.tmp194, (0, 1, 3, 2))
    .add 311 (.tr 79 [0, 1, 3, 2]) 1 1,
    -- 5639: del ints.tmp194
    .del 79,
    -- 5640: tmp46 += np.transpose(ints.tmp196, (1, 0, 2, 3))
    .add 311 (.tr 80 [1, 0, 2, 3]) 1 1,
    -- 5641: del ints.tmp196
    .del 80,
    -- 5642: tmp46 += ints.tmp230
    .add 311 (.cp 81) 1 1,
    -- 5643: del ints.tmp230
    .del 81,
    -- 5644: tmp46 += np.transpose(ints.tmp36, (0, 1, 3, 2))
    .add 311 (.tr 82 [0, 1, 3, 2]) 1 1,
    -- 5645: del ints.tmp36
    .del 82,
    -- 5646: tmp49 = np.copy(ints.tmp142)
    .set 312 (.cp 92) 1 1,
    -- 5647: tmp49 += np.transpose(ints.tmp67, (0, 2, 1, 3))
    .add 312 (.tr 93 [0, 2, 1, 3]) 1 1,
    -- 5648: tmp7 = np.copy(f.bb.oo)
    .set 313 (.cp 24) 1 1,
    -- 5649: tmp7 += ints.tmp158 * 2
    .add 313 (.cp 35) 2 1,
    -- 5650: del ints.tmp158
    .del 35,
    -- 5651: tmp7 += ints.tmp161
    .add 313 (.cp 36) 1 1,
    -- 5652: del ints.tmp161
    .del 36,
    -- 5653: tmp7 += np.transpose(ints.tmp183, (1, 0))
    .add 313 (.tr 25 [1, 0]) 1 1,
    -- 5654: del ints.tmp183
    .del 25,
    -- 5655: tmp7 += np.transpose(ints.tmp187, (1, 0))
    .add 313 (.tr 26 [1, 0]) 1 1,
    -- 5656: del ints.tmp187
    .del 26,
    -- 5657: tmp7 += np.transpose(ints.tmp21, (1, 0))
    .add 313 (.tr 27 [1, 0]) 1 1,
    -- 5658: del ints.tmp21
    .del 27,
    -- 5659: tmp7 += ints.tmp221
    .add 313 (.cp 28) 1 1,
    -- 5660: del ints.tmp221
    .del 28,
    -- 5661: tmp7 += ints.tmp225
    .add 313 (.cp 29) 1 1,
    -- 5662: del ints.tmp225
    .del 29,
    -- 5663: tmp7 += ints.tmp181 * -1
    .add 313 (.cp 37) (-1) 1,
    -- 5664: del ints.tmp181
    .del 37,
    -- 5665: tmp7 += ints.tmp219 * -1
    .add 313 (.cp 38) (-1) 1,
    -- 5666: del ints.tmp219
    .del 38,
    -- 5667: tmp45 = np.copy(ints.tmp461)
    .set 314 (.cp 94) 1 1,
    -- 5668: del ints.tmp461
    .del 94,
    -- 5669: tmp45 += np.transpose(ints.tmp462, (1, 0, 2, 3))
    .add 314 (.tr 95 [1, 0, 2, 3]) 1 1,
    -- 5670: del ints.tmp462
    .del 95,
    -- 5671: tmp45 += np.transpose(ints.tmp463, (1, 0, 2, 3)) * -1
    .add 314 (.tr 96 [1, 0, 2, 3]) (-1) 1,
    -- 5672: del ints.tmp463
    .del 96,
    -- 5673: tmp57 = np.copy(tmp55) * -1
    .set 315 (.cp 247) (-1) 1,
    -- 5674: del tmp55
    .del 247,
    -- 5675: tmp57 += tmp56 * 2
    .add 315 (.cp 248) 2 1,
    -- 5676: del tmp56
    .del 248,
    -- 5677: tmp44 = np.copy(ints.tmp358)
    .set 316 (.cp 49) 1 1,
    -- 5678: del ints.tmp358
    .del 49,
    -- 5679: tmp44 += ints.tmp369
    .add 316 (.cp 50) 1 1,
    -- 5680: del ints.tmp369
    .del 50,
    -- 5681: tmp44 += ints.tmp375 * 2
    .add 316 (.cp 51) 2 1,
    -- 5682: del ints.tmp375
    .del 51,
    -- 5683: tmp53 = einsum(tmp50, (0, 1, 2), r2.aba, (1, 3, 2), (0, 3)) * -1
    .set 317 (.ein [(235, [0, 1, 2]), (5, [1, 3, 2])] [0, 3]) (-1) 1,
    -- 5684: del tmp50
    .del 235,
    -- 5685: tmp53 += einsum(tmp51, (0, 1, 2), r2.bbb, (3, 1, 2), (0, 3)) * 2
    .add 317 (.ein [(282, [0, 1, 2]), (10, [3, 1, 2])] [0, 3]) 2 1,
    -- 5686: del tmp51
    .del 282,
    -- 5687: tmp53 += einsum(tmp30, (0, 1, 2), tmp47, (1, 2, 3), (0, 3))
    .add 317 (.ein [(237, [0, 1, 2]), (236, [1, 2, 3])] [0, 3]) 1 1,
    -- 5688: del tmp30
    .del 237,
    -- 5689: tmp53 += einsum(tmp52, (0, 1, 2), tmp33, (3, 0, 2), (3, 1)) * 2
    .add 317 (.ein [(239, [0, 1, 2]), (238, [3, 0, 2])] [3, 1]) 2 1,
    -- 5690: del tmp52, tmp33
    .del 239,
    .del 238,
    -- 5691: tmp40 = np.copy(ints.tmp167)
    .set 318 (.cp 97) 1 1,
    -- 5692: del ints.tmp167
    .del 97,
    -- 5693: tmp40 += ints.tmp227
    .add 318 (.cp 98) 1 1,
    -- 5694: del ints.tmp227
    .del 98,
    -- 5695: tmp40 += np.transpose(ints.tmp33, (2, 3, 0, 1)) * -1
    .add 318 (.tr 99 [2, 3, 0, 1]) (-1) 1,
    -- 5696: del ints.tmp33
    .del 99,
    -- 5697: tmp22 = np.copy(tmp8)
    .set 319 (.cp 284) 1 1,
    -- 5698: del tmp8
    .del 284,
    -- 5699: tmp22 += tmp9
    .add 319 (.cp 287) 1 1,
    -- 5700: del tmp9
    .del 287,
    -- 5701: tmp22 += tmp11
    .add 319 (.cp 288) 1 1,
    -- 5702: del tmp11
    .del 288,
    -- 5703: tmp22 += np.transpose(tmp13, (1, 0, 2)) * -2
    .add 319 (.tr 289 [1, 0, 2]) (-2) 1,
    -- 5704: del tmp13
    .del 289,
    -- 5705: tmp22 += np.transpose(tmp19, (1, 0, 2))
    .add 319 (.tr 285 [1, 0, 2]) 1 1,
    -- 5706: del tmp19
    .del 285,
    -- 5707: tmp22 += np.transpose(tmp21, (1, 0, 2)) * -2
    .add 319 (.tr 286 [1, 0, 2]) (-2) 1,
    -- 5708: del tmp21
    .del 286,
    -- 5709: tmp39 = np.copy(tmp23)
    .set 320 (.cp 294) 1 1,
    -- 5710: del tmp23
    .del 294,
    -- 5711: tmp39 += tmp24 * 2
    .add 320 (.cp 295) 2 1,
    -- 5712: del tmp24
    .del 295,
    -- 5713: tmp39 += tmp26 * -2
    .add 320 (.cp 290) (-2) 1,
    -- 5714: del tmp26
    .del 290,
    -- 5715: tmp39 += np.transpose(tmp29, (1, 0, 2)) * -1
    .add 320 (.tr 292 [1, 0, 2]) (-1) 1,
    -- 5716: del tmp29
    .del 292,
    -- 5717: tmp39 += np.transpose(tmp36, (1, 0, 2))
    .add 320 (.tr 291 [1, 0, 2]) 1 1,
    -- 5718: del tmp36
    .del 291,
    -- 5719: tmp39 += np.transpose(tmp38, (1, 0, 2))
    .add 320 (.tr 293 [1, 0, 2]) 1 1,
    -- 5720: del tmp38
    .del 293,
    -- 5721: tmp5 = np.copy(ints.tmp142)
    .set 321 (.cp 92) 1 1,
    -- 5722: del ints.tmp142
    .del 92,
    -- 5723: tmp5 += np.transpose(ints.tmp239, (0, 2, 1, 3))
    .add 321 (.tr 100 [0, 2, 1, 3]) 1 1,
    -- 5724: del ints.tmp239
    .del 100,
    -- 5725: tmp5 += np.transpose(ints.tmp257, (0, 2, 1, 3))
    .add 321 (.tr 101 [0, 2, 1, 3]) 1 1,
    -- 5726: del ints.tmp257
    .del 101,
    -- 5727: tmp5 += ints.tmp267
    .add 321 (.cp 102) 1 1,
    -- 5728: del ints.tmp267
    .del 102,
    -- 5729: tmp5 += ints.tmp271 * 2
    .add 321 (.cp 103) 2 1,
    -- 5730: del ints.tmp271
    .del 103,
    -- 5731: tmp5 += ints.tmp283
    .add 321 (.cp 104) 1 1,
    -- 5732: del ints.tmp283
    .del 104,
    -- 5733: tmp5 += ints.tmp298
    .add 321 (.cp 105) 1 1,
    -- 5734: del ints.tmp298
    .del 105,
    -- 5735: tmp5 += ints.tmp302
    .add 321 (.cp 106) 1 1,
    -- 5736: del ints.tmp302
    .del 106,
    -- 5737: tmp5 += ints.tmp310
    .add 321 (.cp 107) 1 1,
    -- 5738: del ints.tmp310
    .del 107,
    -- 5739: tmp5 += ints.tmp316 * 2
    .add 321 (.cp 108) 2 1,
    -- 5740: del ints.tmp316
    .del 108,
    -- 5741: tmp5 += ints.tmp346
    .add 321 (.cp 109) 1 1,
    -- 5742: del ints.tmp346
    .del 109,
    -- 5743: tmp5 += np.transpose(ints.tmp67, (0, 2, 1, 3))
    .add 321 (.tr 93 [0, 2, 1, 3]) 1 1,
    -- 5744: del ints.tmp67
    .del 93,
    -- 5745: tmp5 += np.transpose(ints.tmp249, (0, 2, 1, 3)) * -1
    .add 321 (.tr 110 [0, 2, 1, 3]) (-1) 1,
    -- 5746: del ints.tmp249
    .del 110,
    -- 5747: tmp5 += ints.tmp264 * -1
    .add 321 (.cp 111) (-1) 1,
    -- 5748: del ints.tmp264
    .del 111,
    -- 5749: tmp5 += ints.tmp270 * -1
    .add 321 (.cp 112) (-1) 1,
    -- 5750: del ints.tmp270
    .del 112,
    -- 5751: tmp5 += ints.tmp294 * -1
    .add 321 (.cp 113) (-1) 1,
    -- 5752: del ints.tmp294
    .del 113,
    -- 5753: tmp5 += ints.tmp313 * -1
    .add 321 (.cp 114) (-1) 1,
    -- 5754: del ints.tmp313
    .del 114,
    -- 5755: tmp5 += ints.tmp320 * -1
    .add 321 (.cp 115) (-1) 1,
    -- 5756: del ints.tmp320
    .del 115,
    -- 5757: tmp5 += ints.tmp329 * -1
    .add 321 (.cp 116) (-1) 1,
    -- 5758: del ints.tmp329
    .del 116,
    -- 5759: tmp5 += ints.tmp339 * -1
    .add 321 (.cp 117) (-1) 1,
    -- 5760: del ints.tmp339
    .del 117,
    -- 5761: tmp5 += np.transpose(ints.tmp340, (0, 2, 1, 3)) * -1
    .add 321 (.tr 118 [0, 2, 1, 3]) (-1) 1,
    -- 5762: del ints.tmp340
    .del 118,
    -- 5763: tmp5 += ints.tmp354 * -1
    .add 321 (.cp 119) (-1) 1,
    -- 5764: del ints.tmp354
    .del 119,
    -- 5765: tmp2 = np.copy(ints.tmp102) * 0.5
    .set 322 (.cp 120) 1 2,
    -- 5766: del ints.tmp102
    .del 120,
    -- 5767: tmp2 += ints.tmp110
    .add 322 (.cp 121) 1 1,
    -- 5768: del ints.tmp110
    .del 121,
    -- 5769: tmp2 += ints.tmp138
    .add 322 (.cp 122) 1 1,
    -- 5770: del ints.tmp138
    .del 122,
    -- 5771: tmp2 += ints.tmp143 * 0.5
    .add 322 (.cp 123) 1 2,
    -- 5772: del ints.tmp143
    .del 123,
    -- 5773: tmp2 += ints.tmp159
    .add 322 (.cp 124) 1 1,
    -- 5774: del ints.tmp159
    .del 124,
    -- 5775: tmp2 += ints.tmp162 * 0.5
    .add 322 (.cp 125) 1 2,
    -- 5776: del ints.tmp162
    .del 125,
    -- 5777: tmp2 += ints.tmp184 * 0.5
    .add 322 (.cp 126) 1 2,
    -- 5778: del ints.tmp184
    .del 126,
    -- 5779: tmp2 += ints.tmp188 * 0.5
    .add 322 (.cp 127) 1 2,
    -- 5780: del ints.tmp188
    .del 127,
    -- 5781: tmp2 += ints.tmp205 * 0.5
    .add 322 (.cp 128) 1 2,
    -- 5782: del ints.tmp205
    .del 128,
    -- 5783: tmp2 += ints.tmp222 * 0.5
    .add 322 (.cp 129) 1 2,
    -- 5784: del ints.tmp222
    .del 129,
    -- 5785: tmp2 += ints.tmp226 * 0.5
    .add 322 (.cp 130) 1 2,
    -- 5786: del ints.tmp226
    .del 130,
    -- 5787: tmp2 += ints.tmp22 * 0.5
    .add 322 (.cp 131) 1 2,
    -- 5788: del ints.tmp22
    .del 131,
    -- 5789: tmp2 += ints.tmp46 * 0.5
    .add 322 (.cp 132) 1 2,
    -- 5790: del ints.tmp46
    .del 132,
    -- 5791: tmp2 += ints.tmp4 * 0.5
    .add 322 (.cp 133) 1 2,
    -- 5792: del ints.tmp4
    .del 133,
    -- 5793: tmp2 += ints.tmp65
    .add 322 (.cp 134) 1 1,
    -- 5794: del ints.tmp65
    .del 134,
    -- 5795: tmp2 += ints.tmp68 * 0.5
    .add 322 (.cp 135) 1 2,
    -- 5796: del ints.tmp68
    .del 135,
    -- 5797: tmp2 += ints.tmp87
    .add 322 (.cp 136) 1 1,
    -- 5798: del ints.tmp87
    .del 136,
    -- 5799: tmp2 += f.bb.ov * -0.5
    .add 322 (.cp 20) (-1) 2,
    -- 5800: tmp2 += ints.tmp105 * -0.5
    .add 322 (.cp 137) (-1) 2,
    -- 5801: del ints.tmp105
    .del 137,
    -- 5802: tmp2 += ints.tmp10 * -0.5
    .add 322 (.cp 138) (-1) 2,
    -- 5803: del ints.tmp10
    .del 138,
    -- 5804: tmp2 += ints.tmp114 * -1
    .add 322 (.cp 139) (-1) 1,
    -- 5805: del ints.tmp114
    .del 139,
    -- 5806: tmp2 += ints.tmp118 * -0.5
    .add 322 (.cp 140) (-1) 2,
    -- 5807: del ints.tmp118
    .del 140,
    -- 5808: tmp2 += ints.tmp121 * -1
    .add 322 (.cp 141) (-1) 1,
    -- 5809: del ints.tmp121
    .del 141,
    -- 5810: tmp2 += ints.tmp13 * -1
    .add 322 (.cp 142) (-1) 1,
    -- 5811: del ints.tmp13
    .del 142,
    -- 5812: tmp2 += ints.tmp182 * -0.5
    .add 322 (.cp 143) (-1) 2,
    -- 5813: del ints.tmp182
    .del 143,
    -- 5814: tmp2 += ints.tmp204 * -0.5
    .add 322 (.cp 144) (-1) 2,
    -- 5815: del ints.tmp204
    .del 144,
    -- 5816: tmp2 += ints.tmp207 * -0.5
    .add 322 (.cp 145) (-1) 2,
    -- 5817: del ints.tmp207
    .del 145,
    -- 5818: tmp2 += ints.tmp220 * -0.5
    .add 322 (.cp 146) (-1) 2,
    -- 5819: del ints.tmp220
    .del 146,
    -- 5820: tmp2 += ints.tmp44 * -0.5
    .add 322 (.cp 21) (-1) 2,
    -- 5821: del ints.tmp44
    .del 21,
    -- 5822: tmp2 += ints.tmp47 * -0.5
    .add 322 (.cp 22) (-1) 2,
    -- 5823: del ints.tmp47
    .del 22,
    -- 5824: tmp2 += ints.tmp7 * -0.5
    .add 322 (.cp 147) (-1) 2,
    -- 5825: del ints.tmp7
    .del 147,
    -- 5826: tmp2 += ints.tmp89 * -0.5
    .add 322 (.cp 148) (-1) 2,
    -- 5827: del ints.tmp89
    .del 148,
    -- 5828: tmp6 = np.copy(np.transpose(ints.tmp241, (1, 2, 0, 3)))
    .set 323 (.tr 149 [1, 2, 0, 3]) 1 1,
    -- 5829: del ints.tmp241
    .del 149,
    -- 5830: tmp6 += np.transpose(ints.tmp247, (0, 2, 1, 3))
    .add 323 (.tr 150 [0, 2, 1, 3]) 1 1,
    -- 5831: del ints.tmp247
    .del 150,
    -- 5832: tmp6 += np.transpose(ints.tmp255, (0, 2, 1, 3))
    .add 323 (.tr 151 [0, 2, 1, 3]) 1 1,
    -- 5833: del ints.tmp255
    .del 151,
    -- 5834: tmp6 += ints.tmp268 * 2
    .add 323 (.cp 152) 2 1,
    -- 5835: del ints.tmp268
    .del 152,
    -- 5836: tmp6 += ints.tmp273
    .add 323 (.cp 153) 1 1,
    -- 5837: del ints.tmp273
    .del 153,
    -- 5838: tmp6 += ints.tmp300
    .add 323 (.cp 154) 1 1,
    -- 5839: del ints.tmp300
    .del 154,
    -- 5840: tmp6 += ints.tmp304
    .add 323 (.cp 155) 1 1,
    -- 5841: del ints.tmp304
    .del 155,
    -- 5842: tmp6 += ints.tmp314 * 2
    .add 323 (.cp 156) 2 1,
    -- 5843: del ints.tmp314
    .del 156,
    -- 5844: tmp6 += ints.tmp327
    .add 323 (.cp 157) 1 1,
    -- 5845: del ints.tmp327
    .del 157,
    -- 5846: tmp6 += ints.tmp335
    .add 323 (.cp 158) 1 1,
    -- 5847: del ints.tmp335
    .del 158,
    -- 5848: tmp6 += ints.tmp352
    .add 323 (.cp 159) 1 1,
    -- 5849: del ints.tmp352
    .del 159,
    -- 5850: tmp6 += ints.tmp137 * -1
    .add 323 (.cp 33) (-1) 1,
    -- 5851: del ints.tmp137
    .del 33,
    -- 5852: tmp6 += ints.tmp265 * -2
    .add 323 (.cp 160) (-2) 1,
    -- 5853: del ints.tmp265
    .del 160,
    -- 5854: tmp6 += ints.tmp280 * -1
    .add 323 (.cp 161) (-1) 1,
    -- 5855: del ints.tmp280
    .del 161,
    -- 5856: tmp6 += ints.tmp296 * -1
    .add 323 (.cp 162) (-1) 1,
    -- 5857: del ints.tmp296
    .del 162,
    -- 5858: tmp6 += ints.tmp311 * -2
    .add 323 (.cp 163) (-2) 1,
    -- 5859: del ints.tmp311
    .del 163,
    -- 5860: tmp6 += ints.tmp318 * -1
    .add 323 (.cp 164) (-1) 1,
    -- 5861: del ints.tmp318
    .del 164,
    -- 5862: tmp6 += np.transpose(ints.tmp337, (0, 2, 1, 3)) * -1
    .add 323 (.tr 165 [0, 2, 1, 3]) (-1) 1,
    -- 5863: del ints.tmp337
    .del 165,
    -- 5864: tmp6 += ints.tmp344 * -1
    .add 323 (.cp 166) (-1) 1,
    -- 5865: del ints.tmp344
    .del 166,
    -- 5866: tmp6 += np.transpose(ints.tmp64, (1, 2, 0, 3)) * -1
    .add 323 (.tr 34 [1, 2, 0, 3]) (-1) 1,
    -- 5867: del ints.tmp64
    .del 34,
    -- 5868: tmp3 = np.copy(ints.tmp100)
    .set 324 (.cp 167) 1 1,
    -- 5869: del ints.tmp100
    .del 167,
    -- 5870: tmp3 += ints.tmp108 * 0.5
    .add 324 (.cp 168) 1 2,
    -- 5871: del ints.tmp108
    .del 168,
    -- 5872: tmp3 += ints.tmp135
    .add 324 (.cp 169) 1 1,
    -- 5873: del ints.tmp135
    .del 169,
    -- 5874: tmp3 += ints.tmp140 * 0.5
    .add 324 (.cp 170) 1 2,
    -- 5875: del ints.tmp140
    .del 170,
    -- 5876: tmp3 += ints.tmp156
    .add 324 (.cp 171) 1 1,
    -- 5877: del ints.tmp156
    .del 171,
    -- 5878: tmp3 += ints.tmp164 * 0.5
    .add 324 (.cp 172) 1 2,
    -- 5879: del ints.tmp164
    .del 172,
    -- 5880: tmp3 += ints.tmp179 * 0.5
    .add 324 (.cp 173) 1 2,
    -- 5881: del ints.tmp179
    .del 173,
    -- 5882: tmp3 += ints.tmp185 * 0.5
    .add 324 (.cp 174) 1 2,
    -- 5883: del ints.tmp185
    .del 174,
    -- 5884: tmp3 += ints.tmp19 * 0.5
    .add 324 (.cp 175) 1 2,
    -- 5885: del ints.tmp19
    .del 175,
    -- 5886: tmp3 += ints.tmp201 * 0.5
    .add 324 (.cp 176) 1 2,
    -- 5887: del ints.tmp201
    .del 176,
    -- 5888: tmp3 += ints.tmp217 * 0.5
    .add 324 (.cp 177) 1 2,
    -- 5889: del ints.tmp217
    .del 177,
    -- 5890: tmp3 += ints.tmp223 * 0.5
    .add 324 (.cp 178) 1 2,
    -- 5891: del ints.tmp223
    .del 178,
    -- 5892: tmp3 += ints.tmp2 * 0.5
    .add 324 (.cp 179) 1 2,
    -- 5893: del ints.tmp2
    .del 179,
    -- 5894: tmp3 += ints.tmp42 * 0.5
    .add 324 (.cp 180) 1 2,
    -- 5895: del ints.tmp42
    .del 180,
    -- 5896: tmp3 += ints.tmp62
    .add 324 (.cp 181) 1 1,
    -- 5897: del ints.tmp62
    .del 181,
    -- 5898: tmp3 += ints.tmp70 * 0.5
    .add 324 (.cp 182) 1 2,
    -- 5899: del ints.tmp70
    .del 182,
    -- 5900: tmp3 += ints.tmp85
    .add 324 (.cp 183) 1 1,
    -- 5901: del ints.tmp85
    .del 183,
    -- 5902: tmp3 += f.aa.ov * -0.5
    .add 324 (.cp 39) (-1) 2,
    -- 5903: tmp3 += ints.tmp103 * -1
    .add 324 (.cp 184) (-1) 1,
    -- 5904: del ints.tmp103
    .del 184,
    -- 5905: tmp3 += ints.tmp112 * -0.5
    .add 324 (.cp 185) (-1) 2,
    -- 5906: del ints.tmp112
    .del 185,
    -- 5907: tmp3 += ints.tmp116 * -1
    .add 324 (.cp 186) (-1) 1,
    -- 5908: del ints.tmp116
    .del 186,
    -- 5909: tmp3 += ints.tmp119 * -0.5
    .add 324 (.cp 187) (-1) 2,
    -- 5910: del ints.tmp119
    .del 187,
    -- 5911: tmp3 += ints.tmp11 * -0.5
    .add 324 (.cp 188) (-1) 2,
    -- 5912: del ints.tmp11
    .del 188,
    -- 5913: tmp3 += ints.tmp177 * -0.5
    .add 324 (.cp 189) (-1) 2,
    -- 5914: del ints.tmp177
    .del 189,
    -- 5915: tmp3 += ints.tmp199 * -0.5
    .add 324 (.cp 190) (-1) 2,
    -- 5916: del ints.tmp199
    .del 190,
    -- 5917: tmp3 += ints.tmp209 * -0.5
    .add 324 (.cp 191) (-1) 2,
    -- 5918: del ints.tmp209
    .del 191,
    -- 5919: tmp3 += ints.tmp215 * -0.5
    .add 324 (.cp 192) (-1) 2,
    -- 5920: del ints.tmp215
    .del 192,
    -- 5921: tmp3 += ints.tmp39 * -0.5
    .add 324 (.cp 40) (-1) 2,
    -- 5922: del ints.tmp39
    .del 40,
    -- 5923: tmp3 += ints.tmp48 * -0.5
    .add 324 (.cp 41) (-1) 2,
    -- 5924: del ints.tmp48
    .del 41,
    -- 5925: tmp3 += ints.tmp5 * -0.5
    .add 324 (.cp 193) (-1) 2,
    -- 5926: del ints.tmp5
    .del 193,
    -- 5927: tmp3 += ints.tmp8 * -1
    .add 324 (.cp 194) (-1) 1,
    -- 5928: del ints.tmp8
    .del 194,
    -- 5929: tmp3 += ints.tmp91 * -0.5
    .add 324 (.cp 195) (-1) 2,
    -- 5930: del ints.tmp91
    .del 195,
    -- 5931: tmp0 = np.copy(ints.tmp129)
    .set 325 (.cp 196) 1 1,
    -- 5932: del ints.tmp129
    .del 196,
    -- 5933: tmp0 += ints.tmp133
    .add 325 (.cp 197) 1 1,
    -- 5934: del ints.tmp133
    .del 197,
    -- 5935: tmp0 += ints.tmp147
    .add 325 (.cp 198) 1 1,
    -- 5936: del ints.tmp147
    .del 198,
    -- 5937: tmp0 += ints.tmp153 * 2
    .add 325 (.cp 199) 2 1,
    -- 5938: del ints.tmp153
    .del 199,
    -- 5939: tmp0 += np.transpose(ints.tmp17, (1, 0, 2, 3))
    .add 325 (.tr 200 [1, 0, 2, 3]) 1 1,
    -- 5940: del ints.tmp17
    .del 200,
    -- 5941: tmp0 += ints.tmp213
    .add 325 (.cp 201) 1 1,
    -- 5942: del ints.tmp213
    .del 201,
    -- 5943: tmp0 += np.transpose(ints.tmp25, (1, 0, 2, 3))
    .add 325 (.tr 76 [1, 0, 2, 3]) 1 1,
    -- 5944: del ints.tmp25
    .del 76,
    -- 5945: tmp0 += ints.tmp54
    .add 325 (.cp 77) 1 1,
    -- 5946: del ints.tmp54
    .del 77,
    -- 5947: tmp0 += np.transpose(ints.tmp55, (1, 0, 2, 3))
    .add 325 (.tr 202 [1, 0, 2, 3]) 1 1,
    -- 5948: del ints.tmp55
    .del 202,
    -- 5949: tmp0 += ints.tmp78
    .add 325 (.cp 203) 1 1,
    -- 5950: del ints.tmp78
    .del 203,
    -- 5951: tmp0 += ints.tmp83 * 2
    .add 325 (.cp 204) 2 1,
    -- 5952: del ints.tmp83
    .del 204,
    -- 5953: tmp0 += ints.tmp97
    .add 325 (.cp 205) 1 1,
    -- 5954: del ints.tmp97
    .del 205,
    -- 5955: tmp0 += ints.tmp125 * -1
    .add 325 (.cp 206) (-1) 1,
    -- 5956: del ints.tmp125
    .del 206,
    -- 5957: tmp0 += ints.tmp150 * -1
    .add 325 (.cp 207) (-1) 1,
    -- 5958: del ints.tmp150
    .del 207,
    -- 5959: tmp0 += ints.tmp155 * -1
    .add 325 (.cp 208) (-1) 1,
    -- 5960: del ints.tmp155
    .del 208,
    -- 5961: tmp0 += ints.tmp172 * -1
    .add 325 (.cp 209) (-1) 1,
    -- 5962: del ints.tmp172
    .del 209,
    -- 5963: tmp0 += ints.tmp195 * -1
    .add 325 (.cp 210) (-1) 1,
    -- 5964: del ints.tmp195
    .del 210,
    -- 5965: tmp0 += np.transpose(ints.tmp197, (1, 0, 2, 3)) * -1
    .add 325 (.tr 211 [1, 0, 2, 3]) (-1) 1,
    -- 5966: del ints.tmp197
    .del 211,
    -- 5967: tmp0 += ints.tmp231 * -1
    .add 325 (.cp 212) (-1) 1,
    -- 5968: del ints.tmp231
    .del 212,
    -- 5969: tmp0 += ints.tmp37 * -1
    .add 325 (.cp 213) (-1) 1,
    -- 5970: del ints.tmp37
    .del 213,
    -- 5971: tmp0 += ints.tmp74 * -1
    .add 325 (.cp 214) (-1) 1,
    -- 5972: del ints.tmp74
    .del 214,
    -- 5973: tmp0 += ints.tmp79 * -1
    .add 325 (.cp 215) (-1) 1,
    -- 5974: del ints.tmp79
    .del 215,
    -- 5975: tmp1 = np.copy(ints.tmp127)
    .set 326 (.cp 216) 1 1,
    -- 5976: del ints.tmp127
    .del 216,
    -- 5977: tmp1 += ints.tmp131
    .add 326 (.cp 217) 1 1,
    -- 5978: del ints.tmp131
    .del 217,
    -- 5979: tmp1 += ints.tmp148 * 2
    .add 326 (.cp 218) 2 1,
    -- 5980: del ints.tmp148
    .del 218,
    -- 5981: tmp1 += np.transpose(ints.tmp15, (1, 2, 0, 3))
    .add 326 (.tr 219 [1, 2, 0, 3]) 1 1,
    -- 5982: del ints.tmp15
    .del 219,
    -- 5983: tmp1 += ints.tmp168
    .add 326 (.cp 220) 1 1,
    -- 5984: del ints.tmp168
    .del 220,
    -- 5985: tmp1 += ints.tmp190
    .add 326 (.cp 221) 1 1,
    -- 5986: del ints.tmp190
    .del 221,
    -- 5987: tmp1 += ints.tmp228
    .add 326 (.cp 222) 1 1,
    -- 5988: del ints.tmp228
    .del 222,
    -- 5989: tmp1 += np.transpose(ints.tmp34, (0, 2, 1, 3))
    .add 326 (.tr 223 [0, 2, 1, 3]) 1 1,
    -- 5990: del ints.tmp34
    .del 223,
    -- 5991: tmp1 += np.transpose(ints.tmp52, (0, 2, 1, 3))
    .add 326 (.tr 224 [0, 2, 1, 3]) 1 1,
    -- 5992: del ints.tmp52
    .del 224,
    -- 5993: tmp1 += ints.tmp75 * 2
    .add 326 (.cp 225) 2 1,
    -- 5994: del ints.tmp75
    .del 225,
    -- 5995: tmp1 += ints.tmp80
    .add 326 (.cp 226) 1 1,
    -- 5996: del ints.tmp80
    .del 226,
    -- 5997: tmp1 += ints.tmp123 * -1
    .add 326 (.cp 227) (-1) 1,
    -- 5998: del ints.tmp123
    .del 227,
    -- 5999: tmp1 += ints.tmp145 * -2
    .add 326 (.cp 228) (-2) 1,
    -- 6000: del ints.tmp145
    .del 228,
    -- 6001: tmp1 += ints.tmp151 * -1
    .add 326 (.cp 229) (-1) 1,
    -- 6002: del ints.tmp151
    .del 229,
    -- 6003: tmp1 += np.transpose(ints.tmp192, (0, 2, 1, 3)) * -1
    .add 326 (.tr 230 [0, 2, 1, 3]) (-1) 1,
    -- 6004: del ints.tmp192
    .del 230,
    -- 6005: tmp1 += ints.tmp211 * -1
    .add 326 (.cp 231) (-1) 1,
    -- 6006: del ints.tmp211
    .del 231,
    -- 6007: tmp1 += np.transpose(ints.tmp23, (1, 2, 0, 3)) * -1
    .add 326 (.tr 53 [1, 2, 0, 3]) (-1) 1,
    -- 6008: del ints.tmp23
    .del 53,
    -- 6009: tmp1 += ints.tmp50 * -1
    .add 326 (.cp 54) (-1) 1,
    -- 6010: del ints.tmp50
    .del 54,
    -- 6011: tmp1 += ints.tmp72 * -2
    .add 326 (.cp 232) (-2) 1,
    -- 6012: del ints.tmp72
    .del 232,
    -- 6013: tmp1 += ints.tmp94 * -1
    .add 326 (.cp 233) (-1) 1,
    -- 6014: del ints.tmp94
    .del 233,
    -- 6015: r2new.bbb = np.copy(tmp83) * -1
    .set 327 (.cp 298) (-1) 1,
    -- 6016: r2new.bbb += np.transpose(tmp83, (1, 0, 2))
    .add 327 (.tr 298 [1, 0, 2]) 1 1,
    -- 6017: del tmp83
    .del 298,
    -- 6018: r2new.bbb += tmp90
    .add 327 (.cp 297) 1 1,
    -- 6019: r2new.bbb += np.transpose(tmp90, (1, 0, 2)) * -1
    .add 327 (.tr 297 [1, 0, 2]) (-1) 1,
    -- 6020: del tmp90
    .del 297,
    -- 6021: r2new.bbb += einsum(tmp91, (0, 1, 2, 3), r2.bbb, (2, 3, 4), (0, 1, 4)) * 2
    .add 327 (.ein [(299, [0, 1, 2, 3]), (10, [2, 3, 4])] [0, 1, 4]) 2 1,
    -- 6022: del tmp91
    .del 299,
    -- 6023: r2new.bbb += einsum(tmp66, (0, 1), r2.bbb, (2, 3, 0), (2, 3, 1)) * -2
    .add 327 (.ein [(296, [0, 1]), (10, [2, 3, 0])] [2, 3, 1]) (-2) 1,
    -- 6024: r2new.bbb += einsum(r1.b, (0,), tmp64, (1, 2), (0, 1, 2))
    .add 327 (.ein [(59, [0]), (253, [1, 2])] [0, 1, 2]) 1 1,
    -- 6025: r2new.bbb += einsum(tmp64, (0, 1), r1.b, (2,), (0, 2, 1)) * -1
    .add 327 (.ein [(253, [0, 1]), (59, [2])] [0, 2, 1]) (-1) 1,
    -- 6026: r2new.bab = einsum(ints.tmp469, (0, 1, 2, 3), r2.aaa, (4, 0, 2), (1, 4, 3)) * 2
    .set 328 (.ein [(61, [0, 1, 2, 3]), (16, [4, 0, 2])] [1, 4, 3]) 2 1,
    -- 6027: del ints.tmp469
    .del 61,
    -- 6028: r2new.bab += einsum(r2.bab, (0, 1, 2), tmp58, (0, 3, 2, 4), (3, 1, 4)) * -1
    .add 328 (.ein [(17, [0, 1, 2]), (255, [0, 3, 2, 4])] [3, 1, 4]) (-1) 1,
    -- 6029: del tmp58
    .del 255,
    -- 6030: r2new.bab += einsum(r2.bab, (0, 1, 2), tmp59, (3, 1, 2, 4), (0, 3, 4)) * -1
    .add 328 (.ein [(17, [0, 1, 2]), (307, [3, 1, 2, 4])] [0, 3, 4]) (-1) 1,
    -- 6031: del tmp59
    .del 307,
    -- 6032: r2new.bab += einsum(r2.bab, (0, 1, 2), tmp60, (1, 3, 0, 4), (4, 3, 2))
    .add 328 (.ein [(17, [0, 1, 2]), (304, [1, 3, 0, 4])] [4, 3, 2]) 1 1,
    -- 6033: del tmp60
    .del 304,
    -- 6034: r2new.bab += einsum(tmp32, (0, 1, 2), tmp61, (3, 0, 2, 4), (1, 3, 4)) * -1
    .add 328 (.ein [(243, [0, 1, 2]), (306, [3, 0, 2, 4])] [1, 3, 4]) (-1) 1,
    -- 6035: del tmp61
    .del 306,
    -- 6036: r2new.bab += einsum(tmp62, (0, 1, 2, 3), tmp32, (4, 0, 1), (2, 4, 3)) * -1
    .add 328 (.ein [(257, [0, 1, 2, 3]), (243, [4, 0, 1])] [2, 4, 3]) (-1) 1,
    -- 6037: del tmp32, tmp62
    .del 243,
    .del 257,
    -- 6038: r2new.bab += einsum(v.bbb.xov, (0, 1, 2), tmp63, (0, 3), (1, 3, 2)) * -1
    .add 328 (.ein [(14, [0, 1, 2]), (303, [0, 3])] [1, 3, 2]) (-1) 1,
    -- 6039: del tmp63
    .del 303,
    -- 6040: r2new.bab += einsum(r2.bab, (0, 1, 2), tmp66, (2, 3), (0, 1, 3)) * -1
    .add 328 (.ein [(17, [0, 1, 2]), (296, [2, 3])] [0, 1, 3]) (-1) 1,
    -- 6041: del tmp66
    .del 296,
    -- 6042: r2new.bab += einsum(r2.bab, (0, 1, 2), tmp4, (1, 3), (0, 3, 2)) * -1
    .add 328 (.ein [(17, [0, 1, 2]), (300, [1, 3])] [0, 3, 2]) (-1) 1,
    -- 6043: r2new.bab += einsum(r2.bab, (0, 1, 2), tmp67, (0, 3), (3, 1, 2)) * -1
    .add 328 (.ein [(17, [0, 1, 2]), (305, [0, 3])] [3, 1, 2]) (-1) 1,
    -- 6044: del tmp67
    .del 305,
    -- 6045: r2new.bab += einsum(tmp68, (0,), ints.tmp170, (1, 2, 0, 3), (2, 1, 3))
    .add 328 (.ein [(302, [0]), (234, [1, 2, 0, 3])] [2, 1, 3]) 1 1,
    -- 6046: del tmp68
    .del 302,
    -- 6047: r2new.bab += einsum(r1.a, (0,), tmp69, (1, 0, 2, 3), (2, 1, 3))
    .add 328 (.ein [(63, [0]), (301, [1, 0, 2, 3])] [2, 1, 3]) 1 1,
    -- 6048: del tmp69
    .del 301,
    -- 6049: r2new.bab += einsum(tmp64, (0, 1), r1.a, (2,), (0, 2, 1)) * -1
    .add 328 (.ein [(253, [0, 1]), (63, [2])] [0, 2, 1]) (-1) 1,
    -- 6050: del tmp64
    .del 253,
    -- 6051: r2new.aba = einsum(r2.bbb, (0, 1, 2), ints.tmp377, (3, 1, 4, 2), (3, 0, 4)) * 2
    .set 329 (.ein [(10, [0, 1, 2]), (64, [3, 1, 4, 2])] [3, 0, 4]) 2 1,
    -- 6052: del ints.tmp377
    .del 64,
    -- 6053: r2new.aba += einsum(r2.aba, (0, 1, 2), tmp44, (0, 3, 2, 4), (3, 1, 4)) * -1
    .add 329 (.ein [(5, [0, 1, 2]), (316, [0, 3, 2, 4])] [3, 1, 4]) (-1) 1,
    -- 6054: del tmp44
    .del 316,
    -- 6055: r2new.aba += einsum(r2.aba, (0, 1, 2), tmp45, (3, 1, 2, 4), (0, 3, 4)) * -1
    .add 329 (.ein [(5, [0, 1, 2]), (314, [3, 1, 2, 4])] [0, 3, 4]) (-1) 1,
    -- 6056: del tmp45
    .del 314,
    -- 6057: r2new.aba += einsum(r2.aba, (0, 1, 2), tmp46, (0, 3, 1, 4), (3, 4, 2))
    .add 329 (.ein [(5, [0, 1, 2]), (311, [0, 3, 1, 4])] [3, 4, 2]) 1 1,
    -- 6058: del tmp46
    .del 311,
    -- 6059: r2new.aba += einsum(tmp47, (0, 1, 2), tmp48, (0, 3, 1, 4), (3, 2, 4))
    .add 329 (.ein [(236, [0, 1, 2]), (309, [0, 3, 1, 4])] [3, 2, 4]) 1 1,
    -- 6060: del tmp48
    .del 309,
    -- 6061: r2new.aba += einsum(tmp47, (0, 1, 2), tmp49, (1, 2, 3, 4), (0, 3, 4))
    .add 329 (.ein [(236, [0, 1, 2]), (312, [1, 2, 3, 4])] [0, 3, 4]) 1 1,
    -- 6062: del tmp47
    .del 236,
    -- 6063: r2new.aba += einsum(tmp53, (0, 1), v.baa.xov, (0, 2, 3), (2, 1, 3)) * -1
    .add 329 (.ein [(317, [0, 1]), (3, [0, 2, 3])] [2, 1, 3]) (-1) 1,
    -- 6064: del tmp53
    .del 317,
    -- 6065: r2new.aba += einsum(r2.aba, (0, 1, 2), tmp43, (2, 3), (0, 1, 3)) * -1
    .add 329 (.ein [(5, [0, 1, 2]), (310, [2, 3])] [0, 1, 3]) (-1) 1,
    -- 6066: r2new.aba += einsum(r2.aba, (0, 1, 2), tmp54, (0, 3), (3, 1, 2)) * -1
    .add 329 (.ein [(5, [0, 1, 2]), (308, [0, 3])] [3, 1, 2]) (-1) 1,
    -- 6067: del tmp54
    .del 308,
    -- 6068: r2new.aba += einsum(r2.aba, (0, 1, 2), tmp7, (1, 3), (0, 3, 2)) * -1
    .add 329 (.ein [(5, [0, 1, 2]), (313, [1, 3])] [0, 3, 2]) (-1) 1,
    -- 6069: r2new.aba += einsum(ints.tmp170, (0, 1, 2, 3), tmp57, (3,), (0, 1, 2))
    .add 329 (.ein [(234, [0, 1, 2, 3]), (315, [3])] [0, 1, 2]) 1 1,
    -- 6070: del ints.tmp170, tmp57
    .del 234,
    .del 315,
    -- 6071: r2new.aba += einsum(r1.b, (0,), tmp49, (1, 0, 2, 3), (1, 2, 3))
    .add 329 (.ein [(59, [0]), (312, [1, 0, 2, 3])] [1, 2, 3]) 1 1,
    -- 6072: del tmp49
    .del 312,
    -- 6073: r2new.aba += einsum(r1.b, (0,), tmp41, (1, 2), (1, 0, 2)) * -1
    .add 329 (.ein [(59, [0]), (261, [1, 2])] [1, 0, 2]) (-1) 1,
    -- 6074: r2new.aaa = np.copy(tmp22)
    .set 330 (.cp 319) 1 1,
    -- 6075: r2new.aaa += np.transpose(tmp22, (1, 0, 2)) * -1
    .add 330 (.tr 319 [1, 0, 2]) (-1) 1,
    -- 6076: del tmp22
    .del 319,
    -- 6077: r2new.aaa += tmp39 * -1
    .add 330 (.cp 320) (-1) 1,
    -- 6078: r2new.aaa += np.transpose(tmp39, (1, 0, 2))
    .add 330 (.tr 320 [1, 0, 2]) 1 1,
    -- 6079: del tmp39
    .del 320,
    -- 6080: r2new.aaa += einsum(tmp40, (0, 1, 2, 3), r2.aaa, (0, 1, 4), (2, 3, 4)) * 2
    .add 330 (.ein [(318, [0, 1, 2, 3]), (16, [0, 1, 4])] [2, 3, 4]) 2 1,
    -- 6081: del tmp40
    .del 318,
    -- 6082: r2new.aaa += einsum(tmp43, (0, 1), r2.aaa, (2, 3, 0), (2, 3, 1)) * -2
    .add 330 (.ein [(310, [0, 1]), (16, [2, 3, 0])] [2, 3, 1]) (-2) 1,
    -- 6083: del tmp43
    .del 310,
    -- 6084: r2new.aaa += einsum(r1.a, (0,), tmp41, (1, 2), (0, 1, 2))
    .add 330 (.ein [(63, [0]), (261, [1, 2])] [0, 1, 2]) 1 1,
    -- 6085: r2new.aaa += einsum(r1.a, (0,), tmp41, (1, 2), (1, 0, 2)) * -1
    .add 330 (.ein [(63, [0]), (261, [1, 2])] [1, 0, 2]) (-1) 1,
    -- 6086: del tmp41
    .del 261,
    -- 6087: r1new.b = einsum(r2.aba, (0, 1, 2), tmp5, (0, 1, 3, 2), (3,))
    .set 331 (.ein [(5, [0, 1, 2]), (321, [0, 1, 3, 2])] [3]) 1 1,
    -- 6088: del tmp5
    .del 321,
    -- 6089: r1new.b += einsum(r2.bbb, (0, 1, 2), tmp6, (0, 1, 3, 2), (3,)) * 2
    .add 331 (.ein [(10, [0, 1, 2]), (323, [0, 1, 3, 2])] [3]) 2 1,
    -- 6090: del tmp6
    .del 323,
    -- 6091: r1new.b += einsum(tmp2, (0, 1), r2.bbb, (2, 0, 1), (2,)) * -4
    .add 331 (.ein [(322, [0, 1]), (10, [2, 0, 1])] [2]) (-4) 1,
    -- 6092: r1new.b += einsum(r2.aba, (0, 1, 2), tmp3, (0, 2), (1,)) * 2
    .add 331 (.ein [(5, [0, 1, 2]), (324, [0, 2])] [1]) 2 1,
    -- 6093: r1new.b += einsum(r1.b, (0,), tmp7, (0, 1), (1,)) * -1
    .add 331 (.ein [(59, [0]), (313, [0, 1])] [1]) (-1) 1,
    -- 6094: del tmp7
    .del 313,
    -- 6095: r1new.a = einsum(r2.bab, (0, 1, 2), tmp0, (1, 3, 0, 2), (3,))
    .set 332 (.ein [(17, [0, 1, 2]), (325, [1, 3, 0, 2])] [3]) 1 1,
    -- 6096: del tmp0
    .del 325,
    -- 6097: r1new.a += einsum(tmp1, (0, 1, 2, 3), r2.aaa, (1, 0, 3), (2,)) * -2
    .add 332 (.ein [(326, [0, 1, 2, 3]), (16, [1, 0, 3])] [2]) (-2) 1,
    -- 6098: del tmp1
    .del 326,
    -- 6099: r1new.a += einsum(r2.bab, (0, 1, 2), tmp2, (0, 2), (1,)) * 2
    .add 332 (.ein [(17, [0, 1, 2]), (322, [0, 2])] [1]) 2 1,
    -- 6100: del tmp2
    .del 322,
    -- 6101: r1new.a += einsum(r2.aaa, (0, 1, 2), tmp3, (1, 2), (0,)) * -4
    .add 332 (.ein [(16, [0, 1, 2]), (324, [1, 2])] [0]) (-4) 1,
    -- 6102: del tmp3
    .del 324,
    -- 6103: r1new.a += einsum(r1.a, (0,), tmp4, (0, 1), (1,)) * -1
    .add 332 (.ein [(63, [0]), (300, [0, 1])] [1]) (-1) 1,
    -- 6104: del tmp4
    .del 300
  ]
  ret := [(chars! "r1new.b", 331), (chars! "r1new.a", 332), (chars! "r2new.bbb", 327), (chars! "r2new.bab", 328), (chars! "r2new.aba", 329), (chars! "r2new.aaa", 330)]

/-- codegen/UDFCCSD.py:3742-4106 `hbar_matvec_ea_intermediates`. -/
def hbar_matvec_ea_intermediates : GenFun where
  args := [chars! "v.baa.xov", chars! "t1.aa", chars! "v.bbb.xov", chars! "t1.bb", chars! "t2.abab", chars! "t2.bbbb", chars! "t2.aaaa", chars! "v.bbb.xvv", chars! "v.bbb.xoo", chars! "v.baa.xvv", chars! "f.bb.ov", chars! "v.baa.xoo", chars! "f.aa.ov", chars! "f.bb.oo", chars! "f.bb.vv", chars! "f.aa.vv", chars! "f.aa.oo"]
  body := [
    -- 3931: tmp6 = einsum(v.baa.xov, (0, 1, 2), t1.aa, (1, 2), (0,))
    .set 17 (.ein [(0, [0, 1, 2]), (1, [1, 2])] [0]) 1 1,
    -- 3932: tmp10 = einsum(v.bbb.xov, (0, 1, 2), t1.bb, (1, 2), (0,))
    .set 18 (.ein [(2, [0, 1, 2]), (3, [1, 2])] [0]) 1 1,
    -- 3933: tmp17 = einsum(v.bbb.xov, (0, 1, 2), t1.bb, (3, 2), (0, 3, 1))
    .set 19 (.ein [(2, [0, 1, 2]), (3, [3, 2])] [0, 3, 1]) 1 1,
    -- 3934: tmp12 = einsum(v.baa.xov, (0, 1, 2), t1.aa, (3, 2), (0, 3, 1))
    .set 20 (.ein [(0, [0, 1, 2]), (1, [3, 2])] [0, 3, 1]) 1 1,
    -- 3935: tmp22 = einsum(v.bbb.xov, (0, 1, 2), tmp6, (0,), (1, 2))
    .set 21 (.ein [(2, [0, 1, 2]), (17, [0])] [1, 2]) 1 1,
    -- 3936: tmp19 = einsum(v.bbb.xov, (0, 1, 2), tmp10, (0,), (1, 2))
    .set 22 (.ein [(2, [0, 1, 2]), (18, [0])] [1, 2]) 1 1,
    -- 3937: tmp18 = einsum(v.bbb.xov, (0, 1, 2), tmp17, (0, 1, 3), (3, 2))
    .set 23 (.ein [(2, [0, 1, 2]), (19, [0, 1, 3])] [3, 2]) 1 1,
    -- 3938: tmp59 = einsum(t2.abab, (0, 1, 2, 3), v.baa.xov, (4, 0, 2), (4, 1, 3))
    .set 24 (.ein [(4, [0, 1, 2, 3]), (0, [4, 0, 2])] [4, 1, 3]) 1 1,
    -- 3939: tmp56 = einsum(v.bbb.xov, (0, 1, 2), t2.bbbb, (3, 1, 4, 2), (0, 3, 4))
    .set 25 (.ein [(2, [0, 1, 2]), (5, [3, 1, 4, 2])] [0, 3, 4]) 1 1,
    -- 3940: tmp20 = einsum(tmp10, (0,), v.baa.xov, (0, 1, 2), (1, 2))
    .set 26 (.ein [(18, [0]), (0, [0, 1, 2])] [1, 2]) 1 1,
    -- 3941: tmp15 = einsum(v.baa.xov, (0, 1, 2), tmp6, (0,), (1, 2))
    .set 27 (.ein [(0, [0, 1, 2]), (17, [0])] [1, 2]) 1 1,
    -- 3942: tmp13 = einsum(tmp12, (0, 1, 2), v.baa.xov, (0, 1, 3), (2, 3))
    .set 28 (.ein [(20, [0, 1, 2]), (0, [0, 1, 3])] [2, 3]) 1 1,
    -- 3943: tmp32 = einsum(t2.abab, (0, 1, 2, 3), v.bbb.xov, (4, 1, 3), (4, 0, 2))
    .set 29 (.ein [(4, [0, 1, 2, 3]), (2, [4, 1, 3])] [4, 0, 2]) 1 1,
    -- 3944: tmp29 = einsum(v.baa.xov, (0, 1, 2), t2.aaaa, (3, 1, 4, 2), (0, 3, 4))
    .set 30 (.ein [(0, [0, 1, 2]), (6, [3, 1, 4, 2])] [0, 3, 4]) 1 1,
    -- 3945: tmp45 = einsum(v.bbb.xvv, (0, 1, 2), t1.bb, (3, 2), (0, 3, 1))
    .set 31 (.ein [(7, [0, 1, 2]), (3, [3, 2])] [0, 3, 1]) 1 1,
    -- 3946: tmp343 = einsum(v.bbb.xov, (0, 1, 2), tmp17, (0, 3, 4), (3, 1, 4, 2))
    .set 32 (.ein [(2, [0, 1, 2]), (19, [0, 3, 4])] [3, 1, 4, 2]) 1 1,
    -- 3947: tmp360 = einsum(v.bbb.xoo, (0, 1, 2), v.bbb.xov, (0, 3, 4), (1, 2, 3, 4))
    .set 33 (.ein [(8, [0, 1, 2]), (2, [0, 3, 4])] [1, 2, 3, 4]) 1 1,
    -- 3948: tmp40 = einsum(v.bbb.xov, (0, 1, 2), v.bbb.xvv, (0, 3, 4), (1, 3, 4, 2))
    .set 34 (.ein [(2, [0, 1, 2]), (7, [0, 3, 4])] [1, 3, 4, 2]) 1 1,
    -- 3949: tmp51 = einsum(v.bbb.xov, (0, 1, 2), v.bbb.xov, (0, 3, 4), (1, 3, 2, 4))
    .set 35 (.ein [(2, [0, 1, 2]), (2, [0, 3, 4])] [1, 3, 2, 4]) 1 1,
    -- 3950: tmp23 = einsum(v.baa.xov, (0, 1, 2), v.baa.xov, (0, 3, 4), (3, 1, 4, 2))
    .set 36 (.ein [(0, [0, 1, 2]), (0, [0, 3, 4])] [3, 1, 4, 2]) 1 1,
    -- 3951: tmp2 = einsum(v.baa.xvv, (0, 1, 2), v.baa.xov, (0, 3, 4), (3, 1, 2, 4))
    .set 37 (.ein [(9, [0, 1, 2]), (0, [0, 3, 4])] [3, 1, 2, 4]) 1 1,
    -- 3952: tmp302 = einsum(v.bbb.xoo, (0, 1, 2), tmp6, (0,), (1, 2))
    .set 38 (.ein [(8, [0, 1, 2]), (17, [0])] [1, 2]) 1 1,
    -- 3953: tmp301 = einsum(v.bbb.xoo, (0, 1, 2), tmp10, (0,), (1, 2))
    .set 39 (.ein [(8, [0, 1, 2]), (18, [0])] [1, 2]) 1 1,
    -- 3954: tmp300 = einsum(tmp17, (0, 1, 2), v.bbb.xoo, (0, 3, 1), (3, 2))
    .set 40 (.ein [(19, [0, 1, 2]), (8, [0, 3, 1])] [3, 2]) 1 1,
    -- 3955: tmp303 = einsum(v.bbb.xoo, (0, 1, 2), v.baa.xov, (0, 3, 4), (3, 1, 2, 4))
    .set 41 (.ein [(8, [0, 1, 2]), (0, [0, 3, 4])] [3, 1, 2, 4]) 1 1,
    -- 3956: tmp337 = einsum(tmp22, (0, 1), t1.bb, (2, 1), (2, 0))
    .set 42 (.ein [(21, [0, 1]), (3, [2, 1])] [2, 0]) 1 1,
    -- 3957: tmp336 = einsum(tmp19, (0, 1), t1.bb, (2, 1), (2, 0))
    .set 43 (.ein [(22, [0, 1]), (3, [2, 1])] [2, 0]) 1 1,
    -- 3958: tmp335 = einsum(tmp18, (0, 1), t1.bb, (2, 1), (2, 0))
    .set 44 (.ein [(23, [0, 1]), (3, [2, 1])] [2, 0]) 1 1,
    -- 3959: tmp325 = einsum(v.bbb.xov, (0, 1, 2), tmp59, (0, 3, 2), (3, 1))
    .set 45 (.ein [(2, [0, 1, 2]), (24, [0, 3, 2])] [3, 1]) 1 1,
    -- 3960: tmp323 = einsum(v.bbb.xov, (0, 1, 2), tmp56, (0, 3, 2), (3, 1))
    .set 46 (.ein [(2, [0, 1, 2]), (25, [0, 3, 2])] [3, 1]) 1 1,
    -- 3961: tmp327 = einsum(tmp17, (0, 1, 2), v.baa.xov, (0, 3, 4), (3, 1, 2, 4))
    .set 47 (.ein [(19, [0, 1, 2]), (0, [0, 3, 4])] [3, 1, 2, 4]) 1 1,
    -- 3962: tmp316 = einsum(f.bb.ov, (0, 1), t1.bb, (2, 1), (0, 2))
    .set 48 (.ein [(10, [0, 1]), (3, [2, 1])] [0, 2]) 1 1,
    -- 3963: tmp47 = einsum(v.bbb.xvv, (0, 1, 2), tmp6, (0,), (1, 2))
    .set 49 (.ein [(7, [0, 1, 2]), (17, [0])] [1, 2]) 1 1,
    -- 3964: tmp44 = einsum(tmp10, (0,), v.bbb.xvv, (0, 1, 2), (1, 2))
    .set 50 (.ein [(18, [0]), (7, [0, 1, 2])] [1, 2]) 1 1,
    -- 3965: tmp26 = einsum(v.bbb.xov, (0, 1, 2), v.baa.xov, (0, 3, 4), (3, 1, 4, 2))
    .set 51 (.ein [(2, [0, 1, 2]), (0, [0, 3, 4])] [3, 1, 4, 2]) 1 1,
    -- 3966: tmp42 = einsum(v.bbb.xvv, (0, 1, 2), v.baa.xov, (0, 3, 4), (3, 4, 1, 2))
    .set 52 (.ein [(7, [0, 1, 2]), (0, [0, 3, 4])] [3, 4, 1, 2]) 1 1,
    -- 3967: tmp8 = einsum(v.baa.xvv, (0, 1, 2), t1.aa, (3, 2), (0, 3, 1))
    .set 53 (.ein [(9, [0, 1, 2]), (1, [3, 2])] [0, 3, 1]) 1 1,
    -- 3968: tmp179 = einsum(tmp12, (0, 1, 2), v.bbb.xov, (0, 3, 4), (1, 2, 3, 4))
    .set 54 (.ein [(20, [0, 1, 2]), (2, [0, 3, 4])] [1, 2, 3, 4]) 1 1,
    -- 3969: tmp136 = einsum(v.bbb.xov, (0, 1, 2), v.baa.xoo, (0, 3, 4), (3, 4, 1, 2))
    .set 55 (.ein [(2, [0, 1, 2]), (11, [0, 3, 4])] [3, 4, 1, 2]) 1 1,
    -- 3970: tmp4 = einsum(v.baa.xvv, (0, 1, 2), v.bbb.xov, (0, 3, 4), (3, 1, 2, 4))
    .set 56 (.ein [(9, [0, 1, 2]), (2, [0, 3, 4])] [3, 1, 2, 4]) 1 1,
    -- 3971: tmp197 = einsum(tmp20, (0, 1), t1.aa, (2, 1), (2, 0))
    .set 57 (.ein [(26, [0, 1]), (1, [2, 1])] [2, 0]) 1 1,
    -- 3972: tmp195 = einsum(tmp15, (0, 1), t1.aa, (2, 1), (2, 0))
    .set 58 (.ein [(27, [0, 1]), (1, [2, 1])] [2, 0]) 1 1,
    -- 3973: tmp193 = einsum(tmp13, (0, 1), t1.aa, (2, 1), (2, 0))
    .set 59 (.ein [(28, [0, 1]), (1, [2, 1])] [2, 0]) 1 1,
    -- 3974: tmp11 = einsum(v.baa.xvv, (0, 1, 2), tmp10, (0,), (1, 2))
    .set 60 (.ein [(9, [0, 1, 2]), (18, [0])] [1, 2]) 1 1,
    -- 3975: tmp7 = einsum(v.baa.xvv, (0, 1, 2), tmp6, (0,), (1, 2))
    .set 61 (.ein [(9, [0, 1, 2]), (17, [0])] [1, 2]) 1 1,
    -- 3976: tmp175 = einsum(tmp32, (0, 1, 2), v.baa.xov, (0, 3, 2), (1, 3))
    .set 62 (.ein [(29, [0, 1, 2]), (0, [0, 3, 2])] [1, 3]) 1 1,
    -- 3977: tmp173 = einsum(tmp29, (0, 1, 2), v.baa.xov, (0, 3, 2), (1, 3))
    .set 63 (.ein [(30, [0, 1, 2]), (0, [0, 3, 2])] [1, 3]) 1 1,
    -- 3978: tmp177 = einsum(v.baa.xov, (0, 1, 2), tmp12, (0, 3, 4), (3, 1, 4, 2))
    .set 64 (.ein [(0, [0, 1, 2]), (20, [0, 3, 4])] [3, 1, 4, 2]) 1 1,
    -- 3979: tmp157 = einsum(t1.aa, (0, 1), f.aa.ov, (2, 1), (2, 0))
    .set 65 (.ein [(1, [0, 1]), (12, [2, 1])] [2, 0]) 1 1,
    -- 3980: tmp126 = einsum(tmp10, (0,), v.baa.xoo, (0, 1, 2), (1, 2))
    .set 66 (.ein [(18, [0]), (11, [0, 1, 2])] [1, 2]) 1 1,
    -- 3981: del tmp10
    .del 18,
    -- 3982: tmp124 = einsum(v.baa.xoo, (0, 1, 2), tmp6, (0,), (1, 2))
    .set 67 (.ein [(11, [0, 1, 2]), (17, [0])] [1, 2]) 1 1,
    -- 3983: del tmp6
    .del 17,
    -- 3984: tmp122 = einsum(v.baa.xoo, (0, 1, 2), tmp12, (0, 2, 3), (1, 3))
    .set 68 (.ein [(11, [0, 1, 2]), (20, [0, 2, 3])] [1, 3]) 1 1,
    -- 3985: tmp130 = einsum(v.baa.xoo, (0, 1, 2), v.baa.xov, (0, 3, 4), (1, 2, 3, 4))
    .set 69 (.ein [(11, [0, 1, 2]), (0, [0, 3, 4])] [1, 2, 3, 4]) 1 1,
    -- 3986: tmp485 = einsum(v.bbb.xov, (0, 1, 2), tmp45, (0, 3, 4), (3, 1, 2, 4))
    .set 70 (.ein [(2, [0, 1, 2]), (31, [0, 3, 4])] [3, 1, 2, 4]) 1 1,
    -- 3987: tmp481 = einsum(t2.bbbb, (0, 1, 2, 3), tmp343, (4, 0, 1, 5), (4, 2, 3, 5))
    .set 71 (.ein [(5, [0, 1, 2, 3]), (32, [4, 0, 1, 5])] [4, 2, 3, 5]) 1 1,
    -- 3988: tmp471 = einsum(v.bbb.xvv, (0, 1, 2), tmp45, (0, 3, 4), (3, 1, 2, 4))
    .set 72 (.ein [(7, [0, 1, 2]), (31, [0, 3, 4])] [3, 1, 2, 4]) 1 1,
    -- 3989: tmp469 = einsum(v.bbb.xvv, (0, 1, 2), v.bbb.xvv, (0, 3, 4), (3, 1, 2, 4))
    .set 73 (.ein [(7, [0, 1, 2]), (7, [0, 3, 4])] [3, 1, 2, 4]) 1 1,
    -- 3990: tmp453 = einsum(tmp360, (0, 1, 2, 3), t2.bbbb, (1, 2, 4, 5), (0, 4, 5, 3))
    .set 74 (.ein [(33, [0, 1, 2, 3]), (5, [1, 2, 4, 5])] [0, 4, 5, 3]) 1 1,
    -- 3991: tmp430 = einsum(v.bbb.xov, (0, 1, 2), tmp59, (0, 3, 4), (3, 1, 4, 2))
    .set 75 (.ein [(2, [0, 1, 2]), (24, [0, 3, 4])] [3, 1, 4, 2]) 1 1,
    -- 3992: tmp425 = einsum(v.bbb.xov, (0, 1, 2), tmp56, (0, 3, 4), (3, 1, 4, 2))
    .set 76 (.ein [(2, [0, 1, 2]), (25, [0, 3, 4])] [3, 1, 4, 2]) 1 1,
    -- 3993: tmp415 = einsum(v.bbb.xvv, (0, 1, 2), tmp59, (0, 3, 4), (3, 4, 1, 2))
    .set 77 (.ein [(7, [0, 1, 2]), (24, [0, 3, 4])] [3, 4, 1, 2]) 1 1,
    -- 3994: tmp413 = einsum(t2.bbbb, (0, 1, 2, 3), tmp40, (1, 4, 3, 5), (0, 2, 5, 4))
    .set 78 (.ein [(5, [0, 1, 2, 3]), (34, [1, 4, 3, 5])] [0, 2, 5, 4]) 1 1,
    -- 3995: tmp411 = einsum(v.bbb.xvv, (0, 1, 2), tmp56, (0, 3, 4), (3, 4, 1, 2))
    .set 79 (.ein [(7, [0, 1, 2]), (25, [0, 3, 4])] [3, 4, 1, 2]) 1 1,
    -- 3996: tmp396 = einsum(tmp56, (0, 1, 2), v.baa.xov, (0, 3, 4), (3, 1, 4, 2))
    .set 80 (.ein [(25, [0, 1, 2]), (0, [0, 3, 4])] [3, 1, 4, 2]) 1 1,
    -- 3997: tmp393 = einsum(tmp59, (0, 1, 2), v.baa.xov, (0, 3, 4), (3, 1, 4, 2))
    .set 81 (.ein [(24, [0, 1, 2]), (0, [0, 3, 4])] [3, 1, 4, 2]) 1 1,
    -- 3998: tmp392 = einsum(tmp22, (0, 1), t2.bbbb, (2, 0, 3, 1), (2, 3))
    .set 82 (.ein [(21, [0, 1]), (5, [2, 0, 3, 1])] [2, 3]) 1 1,
    -- 3999: tmp391 = einsum(tmp20, (0, 1), t2.abab, (0, 2, 1, 3), (2, 3))
    .set 83 (.ein [(26, [0, 1]), (4, [0, 2, 1, 3])] [2, 3]) 1 1,
    -- 4000: tmp390 = einsum(tmp19, (0, 1), t2.bbbb, (2, 0, 3, 1), (2, 3))
    .set 84 (.ein [(22, [0, 1]), (5, [2, 0, 3, 1])] [2, 3]) 1 1,
    -- 4001: tmp389 = einsum(t2.bbbb, (0, 1, 2, 3), tmp18, (1, 3), (0, 2))
    .set 85 (.ein [(5, [0, 1, 2, 3]), (23, [1, 3])] [0, 2]) 1 1,
    -- 4002: tmp388 = einsum(t2.abab, (0, 1, 2, 3), tmp15, (0, 2), (1, 3))
    .set 86 (.ein [(4, [0, 1, 2, 3]), (27, [0, 2])] [1, 3]) 1 1,
    -- 4003: tmp387 = einsum(t2.abab, (0, 1, 2, 3), tmp13, (0, 2), (1, 3))
    .set 87 (.ein [(4, [0, 1, 2, 3]), (28, [0, 2])] [1, 3]) 1 1,
    -- 4004: tmp383 = einsum(t2.bbbb, (0, 1, 2, 3), tmp51, (1, 4, 5, 3), (0, 4, 2, 5))
    .set 88 (.ein [(5, [0, 1, 2, 3]), (35, [1, 4, 5, 3])] [0, 4, 2, 5]) 1 1,
    -- 4005: tmp380 = einsum(tmp23, (0, 1, 2, 3), t2.abab, (0, 4, 3, 5), (1, 4, 2, 5))
    .set 89 (.ein [(36, [0, 1, 2, 3]), (4, [0, 4, 3, 5])] [1, 4, 2, 5]) 1 1,
    -- 4006: tmp376 = einsum(v.baa.xvv, (0, 1, 2), tmp56, (0, 3, 4), (3, 1, 2, 4))
    .set 90 (.ein [(9, [0, 1, 2]), (25, [0, 3, 4])] [3, 1, 2, 4]) 1 1,
    -- 4007: tmp375 = einsum(t2.abab, (0, 1, 2, 3), tmp2, (0, 4, 2, 5), (1, 5, 4, 3))
    .set 91 (.ein [(4, [0, 1, 2, 3]), (37, [0, 4, 2, 5])] [1, 5, 4, 3]) 1 1,
    -- 4008: tmp374 = einsum(v.baa.xvv, (0, 1, 2), tmp59, (0, 3, 4), (3, 1, 2, 4))
    .set 92 (.ein [(9, [0, 1, 2]), (24, [0, 3, 4])] [3, 1, 2, 4]) 1 1,
    -- 4009: tmp371 = einsum(t2.bbbb, (0, 1, 2, 3), f.bb.ov, (1, 3), (0, 2))
    .set 93 (.ein [(5, [0, 1, 2, 3]), (10, [1, 3])] [0, 2]) 1 1,
    -- 4010: tmp370 = einsum(t2.abab, (0, 1, 2, 3), f.aa.ov, (0, 2), (1, 3))
    .set 94 (.ein [(4, [0, 1, 2, 3]), (12, [0, 2])] [1, 3]) 1 1,
    -- 4011: tmp368 = einsum(tmp302, (0, 1), t1.bb, (1, 2), (0, 2))
    .set 95 (.ein [(38, [0, 1]), (3, [1, 2])] [0, 2]) 1 1,
    -- 4012: tmp367 = einsum(tmp301, (0, 1), t1.bb, (1, 2), (0, 2))
    .set 96 (.ein [(39, [0, 1]), (3, [1, 2])] [0, 2]) 1 1,
    -- 4013: tmp366 = einsum(tmp300, (0, 1), t1.bb, (1, 2), (0, 2))
    .set 97 (.ein [(40, [0, 1]), (3, [1, 2])] [0, 2]) 1 1,
    -- 4014: tmp365 = einsum(t2.abab, (0, 1, 2, 3), tmp303, (0, 4, 1, 2), (4, 3))
    .set 98 (.ein [(4, [0, 1, 2, 3]), (41, [0, 4, 1, 2])] [4, 3]) 1 1,
    -- 4015: tmp364 = einsum(t2.bbbb, (0, 1, 2, 3), tmp360, (4, 0, 1, 3), (4, 2))
    .set 99 (.ein [(5, [0, 1, 2, 3]), (33, [4, 0, 1, 3])] [4, 2]) 1 1,
    -- 4016: tmp357 = einsum(v.baa.xvv, (0, 1, 2), v.bbb.xoo, (0, 3, 4), (3, 4, 1, 2))
    .set 100 (.ein [(9, [0, 1, 2]), (8, [0, 3, 4])] [3, 4, 1, 2]) 1 1,
    -- 4017: tmp356 = einsum(t1.bb, (0, 1), f.bb.oo, (2, 0), (2, 1))
    .set 101 (.ein [(3, [0, 1]), (13, [2, 0])] [2, 1]) 1 1,
    -- 4018: tmp355 = einsum(tmp337, (0, 1), t1.bb, (1, 2), (0, 2))
    .set 102 (.ein [(42, [0, 1]), (3, [1, 2])] [0, 2]) 1 1,
    -- 4019: tmp354 = einsum(tmp336, (0, 1), t1.bb, (1, 2), (0, 2))
    .set 103 (.ein [(43, [0, 1]), (3, [1, 2])] [0, 2]) 1 1,
    -- 4020: tmp353 = einsum(t1.bb, (0, 1), tmp335, (2, 0), (2, 1))
    .set 104 (.ein [(3, [0, 1]), (44, [2, 0])] [2, 1]) 1 1,
    -- 4021: tmp347 = einsum(t1.bb, (0, 1), tmp325, (2, 0), (2, 1))
    .set 105 (.ein [(3, [0, 1]), (45, [2, 0])] [2, 1]) 1 1,
    -- 4022: tmp346 = einsum(tmp323, (0, 1), t1.bb, (1, 2), (0, 2))
    .set 106 (.ein [(46, [0, 1]), (3, [1, 2])] [0, 2]) 1 1,
    -- 4023: tmp345 = einsum(t2.abab, (0, 1, 2, 3), tmp327, (0, 4, 1, 2), (4, 3))
    .set 107 (.ein [(4, [0, 1, 2, 3]), (47, [0, 4, 1, 2])] [4, 3]) 1 1,
    -- 4024: tmp344 = einsum(t2.bbbb, (0, 1, 2, 3), tmp343, (4, 1, 0, 3), (4, 2))
    .set 108 (.ein [(5, [0, 1, 2, 3]), (32, [4, 1, 0, 3])] [4, 2]) 1 1,
    -- 4025: tmp342 = einsum(v.baa.xvv, (0, 1, 2), tmp17, (0, 3, 4), (3, 4, 1, 2))
    .set 109 (.ein [(9, [0, 1, 2]), (19, [0, 3, 4])] [3, 4, 1, 2]) 1 1,
    -- 4026: tmp341 = einsum(tmp316, (0, 1), t1.bb, (0, 2), (1, 2))
    .set 110 (.ein [(48, [0, 1]), (3, [0, 2])] [1, 2]) 1 1,
    -- 4027: tmp333 = einsum(tmp45, (0, 1, 2), v.baa.xov, (0, 3, 4), (3, 1, 4, 2))
    .set 111 (.ein [(31, [0, 1, 2]), (0, [0, 3, 4])] [3, 1, 4, 2]) 1 1,
    -- 4028: tmp332 = einsum(tmp47, (0, 1), t1.bb, (2, 1), (2, 0))
    .set 112 (.ein [(49, [0, 1]), (3, [2, 1])] [2, 0]) 1 1,
    -- 4029: tmp331 = einsum(tmp45, (0, 1, 2), tmp17, (0, 3, 1), (3, 2))
    .set 113 (.ein [(31, [0, 1, 2]), (19, [0, 3, 1])] [3, 2]) 1 1,
    -- 4030: tmp330 = einsum(tmp44, (0, 1), t1.bb, (2, 1), (2, 0))
    .set 114 (.ein [(50, [0, 1]), (3, [2, 1])] [2, 0]) 1 1,
    -- 4031: tmp328 = einsum(t2.abab, (0, 1, 2, 3), tmp327, (0, 4, 1, 5), (4, 2, 5, 3))
    .set 115 (.ein [(4, [0, 1, 2, 3]), (47, [0, 4, 1, 5])] [4, 2, 5, 3]) 1 1,
    -- 4032: tmp322 = einsum(v.bbb.xvv, (0, 1, 2), tmp59, (0, 3, 2), (3, 1))
    .set 116 (.ein [(7, [0, 1, 2]), (24, [0, 3, 2])] [3, 1]) 1 1,
    -- 4033: tmp321 = einsum(tmp56, (0, 1, 2), v.bbb.xvv, (0, 3, 2), (1, 3)) * -1
    .set 117 (.ein [(25, [0, 1, 2]), (7, [0, 3, 2])] [1, 3]) (-1) 1,
    -- 4034: tmp319 = einsum(v.bbb.xvv, (0, 1, 2), tmp17, (0, 3, 4), (3, 4, 1, 2))
    .set 118 (.ein [(7, [0, 1, 2]), (19, [0, 3, 4])] [3, 4, 1, 2]) 1 1,
    -- 4035: tmp318 = einsum(v.baa.xvv, (0, 1, 2), tmp45, (0, 3, 4), (3, 1, 2, 4))
    .set 119 (.ein [(9, [0, 1, 2]), (31, [0, 3, 4])] [3, 1, 2, 4]) 1 1,
    -- 4036: tmp315 = einsum(f.bb.vv, (0, 1), t1.bb, (2, 1), (2, 0))
    .set 120 (.ein [(14, [0, 1]), (3, [2, 1])] [2, 0]) 1 1,
    -- 4037: tmp305 = einsum(t2.abab, (0, 1, 2, 3), tmp303, (0, 4, 1, 5), (4, 2, 5, 3))
    .set 121 (.ein [(4, [0, 1, 2, 3]), (41, [0, 4, 1, 5])] [4, 2, 5, 3]) 1 1,
    -- 4038: tmp299 = einsum(tmp45, (0, 1, 2), v.bbb.xoo, (0, 3, 1), (3, 2))
    .set 122 (.ein [(31, [0, 1, 2]), (8, [0, 3, 1])] [3, 2]) 1 1,
    -- 4039: tmp298 = einsum(v.bbb.xoo, (0, 1, 2), v.bbb.xvv, (0, 3, 4), (1, 2, 3, 4))
    .set 123 (.ein [(8, [0, 1, 2]), (7, [0, 3, 4])] [1, 2, 3, 4]) 1 1,
    -- 4040: tmp293 = einsum(t2.abab, (0, 1, 2, 3), tmp26, (0, 4, 5, 3), (1, 4, 2, 5))
    .set 124 (.ein [(4, [0, 1, 2, 3]), (51, [0, 4, 5, 3])] [1, 4, 2, 5]) 1 1,
    -- 4041: tmp290 = einsum(t2.abab, (0, 1, 2, 3), tmp42, (0, 4, 5, 3), (1, 2, 4, 5))
    .set 125 (.ein [(4, [0, 1, 2, 3]), (52, [0, 4, 5, 3])] [1, 2, 4, 5]) 1 1,
    -- 4042: tmp279 = einsum(tmp29, (0, 1, 2), v.bbb.xov, (0, 3, 4), (1, 3, 2, 4))
    .set 126 (.ein [(30, [0, 1, 2]), (2, [0, 3, 4])] [1, 3, 2, 4]) 1 1,
    -- 4043: tmp276 = einsum(v.bbb.xov, (0, 1, 2), tmp32, (0, 3, 4), (3, 1, 4, 2))
    .set 127 (.ein [(2, [0, 1, 2]), (29, [0, 3, 4])] [3, 1, 4, 2]) 1 1,
    -- 4044: tmp267 = einsum(tmp29, (0, 1, 2), v.bbb.xvv, (0, 3, 4), (1, 2, 3, 4))
    .set 128 (.ein [(30, [0, 1, 2]), (7, [0, 3, 4])] [1, 2, 3, 4]) 1 1,
    -- 4045: tmp266 = einsum(tmp40, (0, 1, 2, 3), t2.abab, (4, 0, 5, 2), (4, 5, 3, 1))
    .set 129 (.ein [(34, [0, 1, 2, 3]), (4, [4, 0, 5, 2])] [4, 5, 3, 1]) 1 1,
    -- 4046: tmp265 = einsum(tmp32, (0, 1, 2), v.bbb.xvv, (0, 3, 4), (1, 2, 3, 4))
    .set 130 (.ein [(29, [0, 1, 2]), (7, [0, 3, 4])] [1, 2, 3, 4]) 1 1,
    -- 4047: tmp256 = einsum(v.baa.xoo, (0, 1, 2), v.bbb.xvv, (0, 3, 4), (1, 2, 3, 4))
    .set 131 (.ein [(11, [0, 1, 2]), (7, [0, 3, 4])] [1, 2, 3, 4]) 1 1,
    -- 4048: tmp250 = einsum(tmp12, (0, 1, 2), v.bbb.xvv, (0, 3, 4), (1, 2, 3, 4))
    .set 132 (.ein [(20, [0, 1, 2]), (7, [0, 3, 4])] [1, 2, 3, 4]) 1 1,
    -- 4049: tmp245 = einsum(v.bbb.xov, (0, 1, 2), tmp8, (0, 3, 4), (3, 1, 4, 2))
    .set 133 (.ein [(2, [0, 1, 2]), (53, [0, 3, 4])] [3, 1, 4, 2]) 1 1,
    -- 4050: tmp243 = einsum(t2.abab, (0, 1, 2, 3), tmp179, (4, 0, 1, 5), (4, 2, 3, 5))
    .set 134 (.ein [(4, [0, 1, 2, 3]), (54, [4, 0, 1, 5])] [4, 2, 3, 5]) 1 1,
    -- 4051: tmp239 = einsum(v.bbb.xvv, (0, 1, 2), tmp8, (0, 3, 4), (3, 4, 1, 2))
    .set 135 (.ein [(7, [0, 1, 2]), (53, [0, 3, 4])] [3, 4, 1, 2]) 1 1,
    -- 4052: tmp237 = einsum(v.baa.xvv, (0, 1, 2), v.bbb.xvv, (0, 3, 4), (1, 2, 3, 4))
    .set 136 (.ein [(9, [0, 1, 2]), (7, [0, 3, 4])] [1, 2, 3, 4]) 1 1,
    -- 4053: tmp227 = einsum(t2.abab, (0, 1, 2, 3), tmp136, (4, 0, 1, 5), (4, 2, 3, 5))
    .set 137 (.ein [(4, [0, 1, 2, 3]), (55, [4, 0, 1, 5])] [4, 2, 3, 5]) 1 1,
    -- 4054: tmp221 = einsum(t2.abab, (0, 1, 2, 3), tmp26, (4, 1, 2, 5), (0, 4, 3, 5))
    .set 138 (.ein [(4, [0, 1, 2, 3]), (51, [4, 1, 2, 5])] [0, 4, 3, 5]) 1 1,
    -- 4055: tmp218 = einsum(t2.abab, (0, 1, 2, 3), tmp4, (1, 4, 2, 5), (0, 4, 3, 5))
    .set 139 (.ein [(4, [0, 1, 2, 3]), (56, [1, 4, 2, 5])] [0, 4, 3, 5]) 1 1,
    -- 4056: tmp207 = einsum(t1.aa, (0, 1), tmp197, (2, 0), (2, 1))
    .set 140 (.ein [(1, [0, 1]), (57, [2, 0])] [2, 1]) 1 1,
    -- 4057: tmp206 = einsum(tmp195, (0, 1), t1.aa, (1, 2), (0, 2))
    .set 141 (.ein [(58, [0, 1]), (1, [1, 2])] [0, 2]) 1 1,
    -- 4058: tmp205 = einsum(t1.aa, (0, 1), tmp193, (2, 0), (2, 1))
    .set 142 (.ein [(1, [0, 1]), (59, [2, 0])] [2, 1]) 1 1,
    -- 4059: tmp190 = einsum(tmp8, (0, 1, 2), v.baa.xov, (0, 3, 4), (1, 3, 4, 2))
    .set 143 (.ein [(53, [0, 1, 2]), (0, [0, 3, 4])] [1, 3, 4, 2]) 1 1,
    -- 4060: tmp187 = einsum(tmp11, (0, 1), t1.aa, (2, 1), (2, 0))
    .set 144 (.ein [(60, [0, 1]), (1, [2, 1])] [2, 0]) 1 1,
    -- 4061: tmp186 = einsum(tmp12, (0, 1, 2), tmp8, (0, 2, 3), (1, 3))
    .set 145 (.ein [(20, [0, 1, 2]), (53, [0, 2, 3])] [1, 3]) 1 1,
    -- 4062: tmp185 = einsum(t1.aa, (0, 1), tmp7, (2, 1), (0, 2))
    .set 146 (.ein [(1, [0, 1]), (61, [2, 1])] [0, 2]) 1 1,
    -- 4063: tmp184 = einsum(t1.aa, (0, 1), tmp175, (2, 0), (2, 1))
    .set 147 (.ein [(1, [0, 1]), (62, [2, 0])] [2, 1]) 1 1,
    -- 4064: tmp183 = einsum(t1.aa, (0, 1), tmp173, (2, 0), (2, 1))
    .set 148 (.ein [(1, [0, 1]), (63, [2, 0])] [2, 1]) 1 1,
    -- 4065: tmp181 = einsum(t2.aaaa, (0, 1, 2, 3), tmp177, (4, 0, 1, 5), (4, 2, 3, 5))
    .set 149 (.ein [(6, [0, 1, 2, 3]), (64, [4, 0, 1, 5])] [4, 2, 3, 5]) 1 1,
    -- 4066: tmp180 = einsum(t2.abab, (0, 1, 2, 3), tmp179, (4, 0, 1, 3), (4, 2))
    .set 150 (.ein [(4, [0, 1, 2, 3]), (54, [4, 0, 1, 3])] [4, 2]) 1 1,
    -- 4067: tmp178 = einsum(t2.aaaa, (0, 1, 2, 3), tmp177, (4, 1, 0, 3), (4, 2))
    .set 151 (.ein [(6, [0, 1, 2, 3]), (64, [4, 1, 0, 3])] [4, 2]) 1 1,
    -- 4068: tmp172 = einsum(tmp32, (0, 1, 2), v.baa.xvv, (0, 3, 2), (1, 3))
    .set 152 (.ein [(29, [0, 1, 2]), (9, [0, 3, 2])] [1, 3]) 1 1,
    -- 4069: tmp171 = einsum(v.baa.xvv, (0, 1, 2), tmp29, (0, 3, 2), (3, 1)) * -1
    .set 153 (.ein [(9, [0, 1, 2]), (30, [0, 3, 2])] [3, 1]) (-1) 1,
    -- 4070: tmp167 = einsum(tmp12, (0, 1, 2), v.baa.xvv, (0, 3, 4), (1, 2, 3, 4))
    .set 154 (.ein [(20, [0, 1, 2]), (9, [0, 3, 4])] [1, 2, 3, 4]) 1 1,
    -- 4071: tmp162 = einsum(tmp8, (0, 1, 2), v.baa.xvv, (0, 3, 4), (1, 3, 4, 2))
    .set 155 (.ein [(53, [0, 1, 2]), (9, [0, 3, 4])] [1, 3, 4, 2]) 1 1,
    -- 4072: tmp160 = einsum(v.baa.xvv, (0, 1, 2), v.baa.xvv, (0, 3, 4), (3, 1, 2, 4))
    .set 156 (.ein [(9, [0, 1, 2]), (9, [0, 3, 4])] [3, 1, 2, 4]) 1 1,
    -- 4073: tmp159 = einsum(t1.aa, (0, 1), tmp157, (0, 2), (2, 1))
    .set 157 (.ein [(1, [0, 1]), (65, [0, 2])] [2, 1]) 1 1,
    -- 4074: tmp156 = einsum(t1.aa, (0, 1), f.aa.vv, (2, 1), (0, 2))
    .set 158 (.ein [(1, [0, 1]), (15, [2, 1])] [0, 2]) 1 1,
    -- 4075: tmp149 = einsum(t1.aa, (0, 1), tmp126, (2, 0), (2, 1))
    .set 159 (.ein [(1, [0, 1]), (66, [2, 0])] [2, 1]) 1 1,
    -- 4076: tmp148 = einsum(tmp124, (0, 1), t1.aa, (1, 2), (0, 2))
    .set 160 (.ein [(67, [0, 1]), (1, [1, 2])] [0, 2]) 1 1,
    -- 4077: tmp147 = einsum(tmp122, (0, 1), t1.aa, (1, 2), (0, 2))
    .set 161 (.ein [(68, [0, 1]), (1, [1, 2])] [0, 2]) 1 1,
    -- 4078: tmp138 = einsum(t2.aaaa, (0, 1, 2, 3), tmp130, (4, 0, 1, 5), (4, 2, 3, 5))
    .set 162 (.ein [(6, [0, 1, 2, 3]), (69, [4, 0, 1, 5])] [4, 2, 3, 5]) 1 1,
    -- 4079: tmp137 = einsum(t2.abab, (0, 1, 2, 3), tmp136, (4, 0, 1, 3), (4, 2))
    .set 163 (.ein [(4, [0, 1, 2, 3]), (55, [4, 0, 1, 3])] [4, 2]) 1 1,
    -- 4080: tmp135 = einsum(t2.aaaa, (0, 1, 2, 3), tmp130, (4, 0, 1, 3), (4, 2))
    .set 164 (.ein [(6, [0, 1, 2, 3]), (69, [4, 0, 1, 3])] [4, 2]) 1 1,
    -- 4081: tmp119 = einsum(tmp8, (0, 1, 2), v.baa.xoo, (0, 3, 1), (3, 2))
    .set 165 (.ein [(53, [0, 1, 2]), (11, [0, 3, 1])] [3, 2]) 1 1,
    -- 4082: tmp117 = einsum(v.baa.xvv, (0, 1, 2), v.baa.xoo, (0, 3, 4), (3, 4, 1, 2))
    .set 166 (.ein [(9, [0, 1, 2]), (11, [0, 3, 4])] [3, 4, 1, 2]) 1 1,
    -- 4083: tmp115 = einsum(f.aa.oo, (0, 1), t1.aa, (1, 2), (0, 2))
    .set 167 (.ein [(16, [0, 1]), (1, [1, 2])] [0, 2]) 1 1,
    -- 4084: tmp105 = einsum(v.baa.xov, (0, 1, 2), tmp32, (0, 3, 4), (3, 1, 4, 2))
    .set 168 (.ein [(0, [0, 1, 2]), (29, [0, 3, 4])] [3, 1, 4, 2]) 1 1,
    -- 4085: tmp100 = einsum(v.baa.xov, (0, 1, 2), tmp29, (0, 3, 4), (3, 1, 4, 2))
    .set 169 (.ein [(0, [0, 1, 2]), (30, [0, 3, 4])] [3, 1, 4, 2]) 1 1,
    -- 4086: tmp99 = einsum(t2.abab, (0, 1, 2, 3), tmp22, (1, 3), (0, 2))
    .set 170 (.ein [(4, [0, 1, 2, 3]), (21, [1, 3])] [0, 2]) 1 1,
    -- 4087: tmp98 = einsum(t2.aaaa, (0, 1, 2, 3), tmp20, (1, 3), (0, 2))
    .set 171 (.ein [(6, [0, 1, 2, 3]), (26, [1, 3])] [0, 2]) 1 1,
    -- 4088: tmp97 = einsum(tmp19, (0, 1), t2.abab, (2, 0, 3, 1), (2, 3))
    .set 172 (.ein [(22, [0, 1]), (4, [2, 0, 3, 1])] [2, 3]) 1 1,
    -- 4089: tmp96 = einsum(tmp18, (0, 1), t2.abab, (2, 0, 3, 1), (2, 3))
    .set 173 (.ein [(23, [0, 1]), (4, [2, 0, 3, 1])] [2, 3]) 1 1,
    -- 4090: tmp95 = einsum(t2.aaaa, (0, 1, 2, 3), tmp15, (1, 3), (0, 2))
    .set 174 (.ein [(6, [0, 1, 2, 3]), (27, [1, 3])] [0, 2]) 1 1,
    -- 4091: tmp94 = einsum(t2.aaaa, (0, 1, 2, 3), tmp13, (1, 3), (0, 2))
    .set 175 (.ein [(6, [0, 1, 2, 3]), (28, [1, 3])] [0, 2]) 1 1,
    -- 4092: tmp89 = einsum(t2.abab, (0, 1, 2, 3), tmp51, (1, 4, 5, 3), (0, 4, 2, 5))
    .set 176 (.ein [(4, [0, 1, 2, 3]), (35, [1, 4, 5, 3])] [0, 4, 2, 5]) 1 1,
    -- 4093: tmp86 = einsum(tmp23, (0, 1, 2, 3), t2.aaaa, (4, 0, 5, 3), (4, 1, 5, 2))
    .set 177 (.ein [(36, [0, 1, 2, 3]), (6, [4, 0, 5, 3])] [4, 1, 5, 2]) 1 1,
    -- 4094: tmp82 = einsum(v.baa.xvv, (0, 1, 2), tmp32, (0, 3, 4), (3, 4, 1, 2))
    .set 178 (.ein [(9, [0, 1, 2]), (29, [0, 3, 4])] [3, 4, 1, 2]) 1 1,
    -- 4095: tmp80 = einsum(t2.aaaa, (0, 1, 2, 3), tmp2, (1, 4, 3, 5), (0, 2, 5, 4))
    .set 179 (.ein [(6, [0, 1, 2, 3]), (37, [1, 4, 3, 5])] [0, 2, 5, 4]) 1 1,
    -- 4096: tmp78 = einsum(tmp29, (0, 1, 2), v.baa.xvv, (0, 3, 4), (1, 2, 3, 4))
    .set 180 (.ein [(30, [0, 1, 2]), (9, [0, 3, 4])] [1, 2, 3, 4]) 1 1,
    -- 4097: tmp68 = einsum(t2.abab, (0, 1, 2, 3), f.bb.ov, (1, 3), (0, 2))
    .set 181 (.ein [(4, [0, 1, 2, 3]), (10, [1, 3])] [0, 2]) 1 1,
    -- 4098: tmp67 = einsum(f.aa.ov, (0, 1), t2.aaaa, (2, 0, 3, 1), (2, 3))
    .set 182 (.ein [(12, [0, 1]), (6, [2, 0, 3, 1])] [2, 3]) 1 1,
    -- 4099: tmp60 = einsum(v.bbb.xov, (0, 1, 2), tmp59, (0, 1, 3), (3, 2))
    .set 183 (.ein [(2, [0, 1, 2]), (24, [0, 1, 3])] [3, 2]) 1 1,
    -- 4100: tmp57 = einsum(v.bbb.xov, (0, 1, 2), tmp56, (0, 1, 3), (3, 2))
    .set 184 (.ein [(2, [0, 1, 2]), (25, [0, 1, 3])] [3, 2]) 1 1,
    -- 4101: tmp46 = einsum(v.bbb.xov, (0, 1, 2), tmp45, (0, 1, 3), (2, 3))
    .set 185 (.ein [(2, [0, 1, 2]), (31, [0, 1, 3])] [2, 3]) 1 1,
    -- 4102: tmp33 = einsum(tmp32, (0, 1, 2), v.baa.xov, (0, 1, 3), (2, 3))
    .set 186 (.ein [(29, [0, 1, 2]), (0, [0, 1, 3])] [2, 3]) 1 1,
    -- 4103: tmp30 = einsum(tmp29, (0, 1, 2), v.baa.xov, (0, 1, 3), (2, 3))
    .set 187 (.ein [(30, [0, 1, 2]), (0, [0, 1, 3])] [2, 3]) 1 1,
    -- 4104: tmp9 = einsum(tmp8, (0, 1, 2), v.baa.xov, (0, 1, 3), (3, 2))
    .set 188 (.ein [(53, [0, 1, 2]), (0, [0, 1, 3])] [3, 2]) 1 1
  ]
  ret := [(chars! "tmp100", 169), (chars! "tmp105", 168), (chars! "tmp11", 60), (chars! "tmp115", 167), (chars! "tmp117", 166), (chars! "tmp119", 165), (chars! "tmp12", 20), (chars! "tmp122", 68), (chars! "tmp124", 67), (chars! "tmp126", 66), (chars! "tmp13", 28), (chars! "tmp130", 69), (chars! "tmp135", 164), (chars! "tmp136", 55), (chars! "tmp137", 163), (chars! "tmp138", 162), (chars! "tmp147", 161), (chars! "tmp148", 160), (chars! "tmp149", 159), (chars! "tmp15", 27), (chars! "tmp156", 158), (chars! "tmp157", 65), (chars! "tmp159", 157), (chars! "tmp160", 156), (chars! "tmp162", 155), (chars! "tmp167", 154), (chars! "tmp17", 19), (chars! "tmp171", 153), (chars! "tmp172", 152), (chars! "tmp173", 63), (chars! "tmp175", 62), (chars! "tmp177", 64), (chars! "tmp178", 151), (chars! "tmp179", 54), (chars! "tmp18", 23), (chars! "tmp180", 150), (chars! "tmp181", 149), (chars! "tmp183", 148), (chars! "tmp184", 147), (chars! "tmp185", 146), (chars! "tmp186", 145), (chars! "tmp187", 144), (chars! "tmp19", 22), (chars! "tmp190", 143), (chars! "tmp193", 59), (chars! "tmp195", 58), (chars! "tmp197", 57), (chars! "tmp2", 37), (chars! "tmp20", 26), (chars! "tmp205", 142), (chars! "tmp206", 141), (chars! "tmp207", 140), (chars! "tmp218", 139), (chars! "tmp22", 21), (chars! "tmp221", 138), (chars! "tmp227", 137), (chars! "tmp23", 36), (chars! "tmp237", 136), (chars! "tmp239", 135), (chars! "tmp243", 134), (chars! "tmp245", 133), (chars! "tmp250", 132), (chars! "tmp256", 131), (chars! "tmp26", 51), (chars! "tmp265", 130), (chars! "tmp266", 129), (chars! "tmp267", 128), (chars! "tmp276", 127), (chars! "tmp279", 126), (chars! "tmp29", 30), (chars! "tmp290", 125), (chars! "tmp293", 124), (chars! "tmp298", 123), (chars! "tmp299", 122), (chars! "tmp30", 187), (chars! "tmp300", 40), (chars! "tmp301", 39), (chars! "tmp302", 38), (chars! "tmp303", 41), (chars! "tmp305", 121), (chars! "tmp315", 120), (chars! "tmp316", 48), (chars! "tmp318", 119), (chars! "tmp319", 118), (chars! "tmp32", 29), (chars! "tmp321", 117), (chars! "tmp322", 116), (chars! "tmp323", 46), (chars! "tmp325", 45), (chars! "tmp327", 47), (chars! "tmp328", 115), (chars! "tmp33", 186), (chars! "tmp330", 114), (chars! "tmp331", 113), (chars! "tmp332", 112), (chars! "tmp333", 111), (chars! "tmp335", 44), (chars! "tmp336", 43), (chars! "tmp337", 42), (chars! "tmp341", 110), (chars! "tmp342", 109), (chars! "tmp343", 32), (chars! "tmp344", 108), (chars! "tmp345", 107), (chars! "tmp346", 106), (chars! "tmp347", 105), (chars! "tmp353", 104), (chars! "tmp354", 103), (chars! "tmp355", 102), (chars! "tmp356", 101), (chars! "tmp357", 100), (chars! "tmp360", 33), (chars! "tmp364", 99), (chars! "tmp365", 98), (chars! "tmp366", 97), (chars! "tmp367", 96), (chars! "tmp368", 95), (chars! "tmp370", 94), (chars! "tmp371", 93), (chars! "tmp374", 92), (chars! "tmp375", 91), (chars! "tmp376", 90), (chars! "tmp380", 89), (chars! "tmp383", 88), (chars! "tmp387", 87), (chars! "tmp388", 86), (chars! "tmp389", 85), (chars! "tmp390", 84), (chars! "tmp391", 83), (chars! "tmp392", 82), (chars! "tmp393", 81), (chars! "tmp396", 80), (chars! "tmp4", 56), (chars! "tmp40", 34), (chars! "tmp411", 79), (chars! "tmp413", 78), (chars! "tmp415", 77), (chars! "tmp42", 52), (chars! "tmp425", 76), (chars! "tmp430", 75), (chars! "tmp44", 50), (chars! "tmp45", 31), (chars! "tmp453", 74), (chars! "tmp46", 185), (chars! "tmp469", 73), (chars! "tmp47", 49), (chars! "tmp471", 72), (chars! "tmp481", 71), (chars! "tmp485", 70), (chars! "tmp51", 35), (chars! "tmp56", 25), (chars! "tmp57", 184), (chars! "tmp59", 24), (chars! "tmp60", 183), (chars! "tmp67", 182), (chars! "tmp68", 181), (chars! "tmp7", 61), (chars! "tmp78", 180), (chars! "tmp8", 53), (chars! "tmp80", 179), (chars! "tmp82", 178), (chars! "tmp86", 177), (chars! "tmp89", 176), (chars! "tmp9", 188), (chars! "tmp94", 175), (chars! "tmp95", 174), (chars! "tmp96", 173), (chars! "tmp97", 172), (chars! "tmp98", 171), (chars! "tmp99", 170)]

/-- codegen/UDFCCSD.py:4108-4879 `hbar_matvec_ea`. -/
def hbar_matvec_ea : GenFun where
  args := [chars! "v.bbb.xov", chars! "r2.bbb", chars! "r2.aba", chars! "v.baa.xov", chars! "r2.aaa", chars! "r2.bab", chars! "ints.tmp17", chars! "v.bbb.xoo", chars! "f.bb.ov", chars! "ints.tmp19", chars! "ints.tmp22", chars! "r1.b", chars! "ints.tmp360", chars! "ints.tmp298", chars! "ints.tmp319", chars! "ints.tmp383", chars! "ints.tmp430", chars! "ints.tmp485", chars! "ints.tmp51", chars! "ints.tmp425", chars! "ints.tmp343", chars! "r1.a", chars! "ints.tmp177", chars! "ints.tmp130", chars! "ints.tmp105", chars! "ints.tmp190", chars! "ints.tmp23", chars! "ints.tmp100", chars! "ints.tmp117", chars! "ints.tmp167", chars! "ints.tmp86", chars! "ints.tmp12", chars! "v.baa.xoo", chars! "f.aa.ov", chars! "ints.tmp15", chars! "ints.tmp20", chars! "ints.tmp40", chars! "t1.bb", chars! "ints.tmp18", chars! "t1.aa", chars! "ints.tmp13", chars! "ints.tmp2", chars! "ints.tmp45", chars! "ints.tmp56", chars! "ints.tmp59", chars! "ints.tmp411", chars! "ints.tmp415", chars! "f.bb.vv", chars! "ints.tmp44", chars! "ints.tmp47", chars! "ints.tmp57", chars! "ints.tmp60", chars! "ints.tmp471", chars! "ints.tmp413", chars! "ints.tmp26", chars! "ints.tmp136", chars! "ints.tmp179", chars! "ints.tmp162", chars! "ints.tmp80", chars! "ints.tmp78", chars! "ints.tmp82", chars! "ints.tmp29", chars! "ints.tmp32", chars! "ints.tmp8", chars! "f.aa.vv", chars! "ints.tmp11", chars! "ints.tmp7", chars! "ints.tmp30", chars! "ints.tmp33", chars! "ints.tmp380", chars! "ints.tmp46", chars! "ints.tmp333", chars! "ints.tmp393", chars! "ints.tmp396", chars! "ints.tmp303", chars! "ints.tmp327", chars! "ints.tmp245", chars! "ints.tmp276", chars! "ints.tmp279", chars! "ints.tmp89", chars! "ints.tmp9", chars! "ints.tmp299", chars! "ints.tmp321", chars! "ints.tmp331", chars! "ints.tmp341", chars! "ints.tmp344", chars! "ints.tmp345", chars! "ints.tmp346", chars! "ints.tmp347", chars! "ints.tmp354", chars! "ints.tmp355", chars! "ints.tmp356", chars! "ints.tmp364", chars! "ints.tmp365", chars! "ints.tmp367", chars! "ints.tmp368", chars! "ints.tmp387", chars! "ints.tmp389", chars! "ints.tmp315", chars! "ints.tmp322", chars! "ints.tmp330", chars! "ints.tmp332", chars! "ints.tmp353", chars! "ints.tmp366", chars! "ints.tmp370", chars! "ints.tmp371", chars! "ints.tmp388", chars! "ints.tmp390", chars! "ints.tmp391", chars! "ints.tmp392", chars! "f.bb.oo", chars! "ints.tmp301", chars! "ints.tmp302", chars! "ints.tmp316", chars! "ints.tmp323", chars! "ints.tmp325", chars! "ints.tmp336", chars! "ints.tmp337", chars! "ints.tmp300", chars! "ints.tmp335", chars! "ints.tmp453", chars! "ints.tmp481", chars! "ints.tmp305", chars! "ints.tmp318", chars! "ints.tmp328", chars! "ints.tmp374", chars! "ints.tmp376", chars! "ints.tmp4", chars! "ints.tmp290", chars! "ints.tmp375", chars! "ints.tmp42", chars! "ints.tmp342", chars! "ints.tmp357", chars! "ints.tmp293", chars! "ints.tmp227", chars! "ints.tmp239", chars! "ints.tmp243", chars! "ints.tmp265", chars! "ints.tmp267", chars! "ints.tmp218", chars! "ints.tmp266", chars! "f.aa.oo", chars! "ints.tmp124", chars! "ints.tmp126", chars! "ints.tmp157", chars! "ints.tmp173", chars! "ints.tmp175", chars! "ints.tmp195", chars! "ints.tmp197", chars! "ints.tmp122", chars! "ints.tmp193", chars! "ints.tmp250", chars! "ints.tmp256", chars! "ints.tmp221", chars! "ints.tmp115", chars! "ints.tmp119", chars! "ints.tmp135", chars! "ints.tmp137", chars! "ints.tmp148", chars! "ints.tmp149", chars! "ints.tmp159", chars! "ints.tmp171", chars! "ints.tmp178", chars! "ints.tmp180", chars! "ints.tmp183", chars! "ints.tmp184", chars! "ints.tmp186", chars! "ints.tmp206", chars! "ints.tmp207", chars! "ints.tmp94", chars! "ints.tmp96", chars! "ints.tmp147", chars! "ints.tmp156", chars! "ints.tmp172", chars! "ints.tmp185", chars! "ints.tmp187", chars! "ints.tmp205", chars! "ints.tmp67", chars! "ints.tmp68", chars! "ints.tmp95", chars! "ints.tmp97", chars! "ints.tmp98", chars! "ints.tmp99", chars! "ints.tmp138", chars! "ints.tmp181", chars! "ints.tmp469", chars! "t2.bbbb", chars! "ints.tmp237", chars! "t2.abab", chars! "ints.tmp160", chars! "t2.aaaa"]
  body := [
    -- 4138: tmp63 = einsum(v.bbb.xov, (0, 1, 2), r2.bbb, (3, 2, 1), (0, 3))
    .set 191 (.ein [(0, [0, 1, 2]), (1, [3, 2, 1])] [0, 3]) 1 1,
    -- 4139: tmp62 = einsum(r2.aba, (0, 1, 2), v.baa.xov, (3, 2, 0), (3, 1))
    .set 192 (.ein [(2, [0, 1, 2]), (3, [3, 2, 0])] [3, 1]) 1 1,
    -- 4140: tmp14 = einsum(r2.aaa, (0, 1, 2), v.baa.xov, (3, 2, 1), (3, 0))
    .set 193 (.ein [(4, [0, 1, 2]), (3, [3, 2, 1])] [3, 0]) 1 1,
    -- 4141: tmp15 = einsum(r2.bab, (0, 1, 2), v.bbb.xov, (3, 2, 0), (3, 1)) * -1
    .set 194 (.ein [(5, [0, 1, 2]), (0, [3, 2, 0])] [3, 1]) (-1) 1,
    -- 4142: tmp81 = np.copy(ints.tmp17)
    .set 195 (.cp 6) 1 1,
    -- 4143: del ints.tmp17
    .del 6,
    -- 4144: tmp81 += v.bbb.xoo
    .add 195 (.cp 7) 1 1,
    -- 4145: tmp64 = np.copy(tmp62) * -1
    .set 196 (.cp 192) (-1) 1,
    -- 4146: tmp64 += tmp63 * 2
    .add 196 (.cp 191) 2 1,
    -- 4147: tmp120 = np.copy(f.bb.ov)
    .set 197 (.cp 8) 1 1,
    -- 4148: tmp120 += ints.tmp19
    .add 197 (.cp 9) 1 1,
    -- 4149: tmp120 += ints.tmp22
    .add 197 (.cp 10) 1 1,
    -- 4150: tmp116 = einsum(r1.b, (0,), ints.tmp360, (1, 2, 3, 0), (1, 2, 3))
    .set 198 (.ein [(11, [0]), (12, [1, 2, 3, 0])] [1, 2, 3]) 1 1,
    -- 4151: tmp122 = np.copy(ints.tmp298)
    .set 199 (.cp 13) 1 1,
    -- 4152: tmp122 += ints.tmp319
    .add 199 (.cp 14) 1 1,
    -- 4153: tmp122 += ints.tmp383 * 2
    .add 199 (.cp 15) 2 1,
    -- 4154: tmp103 = np.copy(ints.tmp430)
    .set 200 (.cp 16) 1 1,
    -- 4155: del ints.tmp430
    .del 16,
    -- 4156: tmp103 += np.transpose(ints.tmp485, (0, 1, 3, 2))
    .add 200 (.tr 17 [0, 1, 3, 2]) 1 1,
    -- 4157: del ints.tmp485
    .del 17,
    -- 4158: tmp103 += ints.tmp51
    .add 200 (.cp 18) 1 1,
    -- 4159: tmp103 += ints.tmp425 * 2
    .add 200 (.cp 19) 2 1,
    -- 4160: del ints.tmp425
    .del 19,
    -- 4161: tmp101 = np.copy(ints.tmp343)
    .set 201 (.cp 20) 1 1,
    -- 4162: tmp101 += np.transpose(ints.tmp360, (0, 2, 1, 3))
    .add 201 (.tr 12 [0, 2, 1, 3]) 1 1,
    -- 4163: tmp99 = einsum(r1.b, (0,), ints.tmp343, (1, 2, 3, 0), (1, 2, 3))
    .set 202 (.ein [(11, [0]), (20, [1, 2, 3, 0])] [1, 2, 3]) 1 1,
    -- 4164: tmp42 = einsum(r1.a, (0,), ints.tmp177, (1, 2, 3, 0), (1, 2, 3))
    .set 203 (.ein [(21, [0]), (22, [1, 2, 3, 0])] [1, 2, 3]) 1 1,
    -- 4165: tmp44 = np.copy(ints.tmp130)
    .set 204 (.cp 23) 1 1,
    -- 4166: tmp44 += np.transpose(ints.tmp177, (0, 2, 1, 3))
    .add 204 (.tr 22 [0, 2, 1, 3]) 1 1,
    -- 4167: tmp46 = np.copy(ints.tmp105)
    .set 205 (.cp 24) 1 1,
    -- 4168: del ints.tmp105
    .del 24,
    -- 4169: tmp46 += np.transpose(ints.tmp190, (0, 1, 3, 2))
    .add 205 (.tr 25 [0, 1, 3, 2]) 1 1,
    -- 4170: del ints.tmp190
    .del 25,
    -- 4171: tmp46 += ints.tmp23
    .add 205 (.cp 26) 1 1,
    -- 4172: tmp46 += ints.tmp100 * 2
    .add 205 (.cp 27) 2 1,
    -- 4173: del ints.tmp100
    .del 27,
    -- 4174: tmp21 = einsum(ints.tmp130, (0, 1, 2, 3), r1.a, (3,), (0, 1, 2))
    .set 206 (.ein [(23, [0, 1, 2, 3]), (21, [3])] [0, 1, 2]) 1 1,
    -- 4175: tmp28 = np.copy(ints.tmp117)
    .set 207 (.cp 28) 1 1,
    -- 4176: tmp28 += ints.tmp167
    .add 207 (.cp 29) 1 1,
    -- 4177: tmp28 += ints.tmp86 * 2
    .add 207 (.cp 30) 2 1,
    -- 4178: tmp16 = np.copy(tmp14)
    .set 208 (.cp 193) 1 1,
    -- 4179: tmp16 += tmp15 * 0.5
    .add 208 (.cp 194) 1 2,
    -- 4180: tmp24 = np.copy(ints.tmp12)
    .set 209 (.cp 31) 1 1,
    -- 4181: del ints.tmp12
    .del 31,
    -- 4182: tmp24 += v.baa.xoo
    .add 209 (.cp 32) 1 1,
    -- 4183: tmp26 = np.copy(f.aa.ov)
    .set 210 (.cp 33) 1 1,
    -- 4184: tmp26 += ints.tmp15
    .add 210 (.cp 34) 1 1,
    -- 4185: tmp26 += ints.tmp20
    .add 210 (.cp 35) 1 1,
    -- 4186: tmp119 = einsum(tmp81, (0, 1, 2), tmp64, (0, 3), (1, 2, 3))
    .set 211 (.ein [(195, [0, 1, 2]), (196, [0, 3])] [1, 2, 3]) 1 1,
    -- 4187: tmp118 = einsum(ints.tmp40, (0, 1, 2, 3), r2.bbb, (2, 3, 4), (0, 4, 1))
    .set 212 (.ein [(36, [0, 1, 2, 3]), (1, [2, 3, 4])] [0, 4, 1]) 1 1,
    -- 4188: tmp121 = einsum(r2.bbb, (0, 1, 2), tmp120, (3, 1), (3, 2, 0)) * -2
    .set 213 (.ein [(1, [0, 1, 2]), (197, [3, 1])] [3, 2, 0]) (-2) 1,
    -- 4189: del tmp120
    .del 197,
    -- 4190: tmp117 = einsum(t1.bb, (0, 1), tmp116, (2, 0, 3), (2, 3, 1))
    .set 214 (.ein [(37, [0, 1]), (198, [2, 0, 3])] [2, 3, 1]) 1 1,
    -- 4191: del tmp116
    .del 198,
    -- 4192: tmp123 = einsum(r1.b, (0,), tmp122, (1, 2, 3, 0), (1, 2, 3))
    .set 215 (.ein [(11, [0]), (199, [1, 2, 3, 0])] [1, 2, 3]) 1 1,
    -- 4193: del tmp122
    .del 199,
    -- 4194: tmp98 = einsum(ints.tmp18, (0, 1), r2.bbb, (2, 1, 3), (0, 3, 2))
    .set 216 (.ein [(38, [0, 1]), (1, [2, 1, 3])] [0, 3, 2]) 1 1,
    -- 4195: tmp104 = einsum(tmp103, (0, 1, 2, 3), r1.b, (3,), (0, 1, 2))
    .set 217 (.ein [(200, [0, 1, 2, 3]), (11, [3])] [0, 1, 2]) 1 1,
    -- 4196: del tmp103
    .del 200,
    -- 4197: tmp102 = einsum(r2.bbb, (0, 1, 2), tmp101, (3, 4, 2, 1), (3, 4, 0)) * -1
    .set 218 (.ein [(1, [0, 1, 2]), (201, [3, 4, 2, 1])] [3, 4, 0]) (-1) 1,
    -- 4198: del tmp101
    .del 201,
    -- 4199: tmp100 = einsum(t1.bb, (0, 1), tmp99, (2, 0, 3), (2, 3, 1))
    .set 219 (.ein [(37, [0, 1]), (202, [2, 0, 3])] [2, 3, 1]) 1 1,
    -- 4200: del tmp99
    .del 202,
    -- 4201: tmp43 = einsum(t1.aa, (0, 1), tmp42, (2, 0, 3), (2, 3, 1))
    .set 220 (.ein [(39, [0, 1]), (203, [2, 0, 3])] [2, 3, 1]) 1 1,
    -- 4202: del tmp42
    .del 203,
    -- 4203: tmp45 = einsum(tmp44, (0, 1, 2, 3), r2.aaa, (4, 3, 1), (0, 2, 4)) * -1
    .set 221 (.ein [(204, [0, 1, 2, 3]), (4, [4, 3, 1])] [0, 2, 4]) (-1) 1,
    -- 4204: del tmp44
    .del 204,
    -- 4205: tmp41 = einsum(ints.tmp13, (0, 1), r2.aaa, (2, 1, 3), (0, 3, 2))
    .set 222 (.ein [(40, [0, 1]), (4, [2, 1, 3])] [0, 3, 2]) 1 1,
    -- 4206: tmp47 = einsum(r1.a, (0,), tmp46, (1, 2, 3, 0), (1, 2, 3))
    .set 223 (.ein [(21, [0]), (205, [1, 2, 3, 0])] [1, 2, 3]) 1 1,
    -- 4207: del tmp46
    .del 205,
    -- 4208: tmp22 = einsum(tmp21, (0, 1, 2), t1.aa, (1, 3), (0, 2, 3))
    .set 224 (.ein [(206, [0, 1, 2]), (39, [1, 3])] [0, 2, 3]) 1 1,
    -- 4209: del tmp21
    .del 206,
    -- 4210: tmp29 = einsum(r1.a, (0,), tmp28, (1, 2, 3, 0), (1, 2, 3))
    .set 225 (.ein [(21, [0]), (207, [1, 2, 3, 0])] [1, 2, 3]) 1 1,
    -- 4211: del tmp28
    .del 207,
    -- 4212: tmp25 = einsum(tmp24, (0, 1, 2), tmp16, (0, 3), (1, 2, 3)) * 2
    .set 226 (.ein [(209, [0, 1, 2]), (208, [0, 3])] [1, 2, 3]) 2 1,
    -- 4213: tmp23 = einsum(ints.tmp2, (0, 1, 2, 3), r2.aaa, (3, 2, 4), (0, 4, 1)) * -1
    .set 227 (.ein [(41, [0, 1, 2, 3]), (4, [3, 2, 4])] [0, 4, 1]) (-1) 1,
    -- 4214: tmp27 = einsum(r2.aaa, (0, 1, 2), tmp26, (3, 1), (2, 3, 0)) * -2
    .set 228 (.ein [(4, [0, 1, 2]), (210, [3, 1])] [2, 3, 0]) (-2) 1,
    -- 4215: del tmp26
    .del 210,
    -- 4216: tmp0 = np.copy(f.bb.ov)
    .set 229 (.cp 8) 1 1,
    -- 4217: tmp0 += ints.tmp19
    .add 229 (.cp 9) 1 1,
    -- 4218: tmp0 += ints.tmp22
    .add 229 (.cp 10) 1 1,
    -- 4219: tmp0 += ints.tmp18 * -1
    .add 229 (.cp 38) (-1) 1,
    -- 4220: del ints.tmp18
    .del 38,
    -- 4221: tmp112 = np.copy(ints.tmp45) * 0.5
    .set 230 (.cp 42) 1 2,
    -- 4222: tmp112 += ints.tmp56
    .add 230 (.cp 43) 1 1,
    -- 4223: tmp112 += ints.tmp59 * 0.5
    .add 230 (.cp 44) 1 2,
    -- 4224: tmp124 = np.copy(np.transpose(tmp117, (1, 0, 2)))
    .set 231 (.tr 214 [1, 0, 2]) 1 1,
    -- 4225: del tmp117
    .del 214,
    -- 4226: tmp124 += tmp118 * 2
    .add 231 (.cp 212) 2 1,
    -- 4227: del tmp118
    .del 212,
    -- 4228: tmp124 += np.transpose(tmp119, (1, 0, 2))
    .add 231 (.tr 211 [1, 0, 2]) 1 1,
    -- 4229: del tmp119
    .del 211,
    -- 4230: tmp124 += tmp121 * -1
    .add 231 (.cp 213) (-1) 1,
    -- 4231: del tmp121
    .del 213,
    -- 4232: tmp124 += np.transpose(tmp123, (1, 0, 2))
    .add 231 (.tr 215 [1, 0, 2]) 1 1,
    -- 4233: del tmp123
    .del 215,
    -- 4234: tmp126 = np.copy(ints.tmp411)
    .set 232 (.cp 45) 1 1,
    -- 4235: del ints.tmp411
    .del 45,
    -- 4236: tmp126 += ints.tmp415 * 0.5
    .add 232 (.cp 46) 1 2,
    -- 4237: del ints.tmp415
    .del 46,
    -- 4238: tmp114 = np.copy(f.bb.vv) * 0.5
    .set 233 (.cp 47) 1 2,
    -- 4239: tmp114 += np.transpose(ints.tmp44, (1, 0)) * 0.5
    .add 233 (.tr 48 [1, 0]) 1 2,
    -- 4240: tmp114 += np.transpose(ints.tmp47, (1, 0)) * 0.5
    .add 233 (.tr 49 [1, 0]) 1 2,
    -- 4241: tmp114 += np.transpose(ints.tmp57, (1, 0)) * -1
    .add 233 (.tr 50 [1, 0]) (-1) 1,
    -- 4242: tmp114 += np.transpose(ints.tmp60, (1, 0)) * -0.5
    .add 233 (.tr 51 [1, 0]) (-1) 2,
    -- 4243: tmp105 = np.copy(tmp98) * 2
    .set 234 (.cp 216) 2 1,
    -- 4244: del tmp98
    .del 216,
    -- 4245: tmp105 += np.transpose(tmp100, (1, 0, 2))
    .add 234 (.tr 219 [1, 0, 2]) 1 1,
    -- 4246: del tmp100
    .del 219,
    -- 4247: tmp105 += np.transpose(tmp102, (1, 0, 2)) * -2
    .add 234 (.tr 218 [1, 0, 2]) (-2) 1,
    -- 4248: del tmp102
    .del 218,
    -- 4249: tmp105 += np.transpose(tmp104, (1, 0, 2))
    .add 234 (.tr 217 [1, 0, 2]) 1 1,
    -- 4250: del tmp104
    .del 217,
    -- 4251: tmp107 = np.copy(ints.tmp40)
    .set 235 (.cp 36) 1 1,
    -- 4252: tmp107 += np.transpose(ints.tmp471, (0, 2, 1, 3))
    .add 235 (.tr 52 [0, 2, 1, 3]) 1 1,
    -- 4253: del ints.tmp471
    .del 52,
    -- 4254: tmp107 += ints.tmp413 * 2
    .add 235 (.cp 53) 2 1,
    -- 4255: del ints.tmp413
    .del 53,
    -- 4256: tmp96 = np.copy(ints.tmp45)
    .set 236 (.cp 42) 1 1,
    -- 4257: tmp96 += ints.tmp59
    .add 236 (.cp 44) 1 1,
    -- 4258: tmp96 += ints.tmp56 * 2
    .add 236 (.cp 43) 2 1,
    -- 4259: tmp94 = np.copy(ints.tmp298)
    .set 237 (.cp 13) 1 1,
    -- 4260: tmp94 += ints.tmp319
    .add 237 (.cp 14) 1 1,
    -- 4261: tmp94 += ints.tmp383 * 2
    .add 237 (.cp 15) 2 1,
    -- 4262: tmp1 = np.copy(f.aa.ov)
    .set 238 (.cp 33) 1 1,
    -- 4263: tmp1 += ints.tmp15
    .add 238 (.cp 34) 1 1,
    -- 4264: tmp1 += ints.tmp20
    .add 238 (.cp 35) 1 1,
    -- 4265: tmp1 += ints.tmp13 * -1
    .add 238 (.cp 40) (-1) 1,
    -- 4266: del ints.tmp13
    .del 40,
    -- 4267: tmp56 = einsum(r2.aba, (0, 1, 2), ints.tmp26, (3, 4, 0, 1), (3, 2, 4))
    .set 239 (.ein [(2, [0, 1, 2]), (54, [3, 4, 0, 1])] [3, 2, 4]) 1 1,
    -- 4268: tmp72 = np.copy(ints.tmp136)
    .set 240 (.cp 55) 1 1,
    -- 4269: tmp72 += np.transpose(ints.tmp179, (1, 0, 2, 3))
    .add 240 (.tr 56 [1, 0, 2, 3]) 1 1,
    -- 4270: tmp39 = np.copy(tmp14) * 2
    .set 241 (.cp 193) 2 1,
    -- 4271: del tmp14
    .del 193,
    -- 4272: tmp39 += tmp15
    .add 241 (.cp 194) 1 1,
    -- 4273: del tmp15
    .del 194,
    -- 4274: tmp50 = np.copy(ints.tmp162)
    .set 242 (.cp 57) 1 1,
    -- 4275: del ints.tmp162
    .del 57,
    -- 4276: tmp50 += np.transpose(ints.tmp2, (0, 2, 1, 3))
    .add 242 (.tr 41 [0, 2, 1, 3]) 1 1,
    -- 4277: tmp50 += np.transpose(ints.tmp80, (0, 2, 1, 3)) * 2
    .add 242 (.tr 58 [0, 2, 1, 3]) 2 1,
    -- 4278: del ints.tmp80
    .del 58,
    -- 4279: tmp37 = np.copy(ints.tmp117)
    .set 243 (.cp 28) 1 1,
    -- 4280: tmp37 += ints.tmp167
    .add 243 (.cp 29) 1 1,
    -- 4281: tmp37 += ints.tmp86 * 2
    .add 243 (.cp 30) 2 1,
    -- 4282: tmp48 = np.copy(np.transpose(tmp41, (1, 0, 2))) * 2
    .set 244 (.tr 222 [1, 0, 2]) 2 1,
    -- 4283: del tmp41
    .del 222,
    -- 4284: tmp48 += tmp43
    .add 244 (.cp 220) 1 1,
    -- 4285: del tmp43
    .del 220,
    -- 4286: tmp48 += tmp45 * -2
    .add 244 (.cp 221) (-2) 1,
    -- 4287: del tmp45
    .del 221,
    -- 4288: tmp48 += tmp47
    .add 244 (.cp 223) 1 1,
    -- 4289: del tmp47
    .del 223,
    -- 4290: tmp32 = np.copy(ints.tmp78)
    .set 245 (.cp 59) 1 1,
    -- 4291: del ints.tmp78
    .del 59,
    -- 4292: tmp32 += ints.tmp82 * 0.5
    .add 245 (.cp 60) 1 2,
    -- 4293: del ints.tmp82
    .del 60,
    -- 4294: tmp17 = np.copy(ints.tmp29) * 2
    .set 246 (.cp 61) 2 1,
    -- 4295: tmp17 += ints.tmp32
    .add 246 (.cp 62) 1 1,
    -- 4296: tmp17 += ints.tmp8
    .add 246 (.cp 63) 1 1,
    -- 4297: tmp30 = np.copy(np.transpose(tmp22, (1, 0, 2)))
    .set 247 (.tr 224 [1, 0, 2]) 1 1,
    -- 4298: del tmp22
    .del 224,
    -- 4299: tmp30 += tmp23 * 2
    .add 247 (.cp 227) 2 1,
    -- 4300: del tmp23
    .del 227,
    -- 4301: tmp30 += np.transpose(tmp25, (1, 0, 2))
    .add 247 (.tr 226 [1, 0, 2]) 1 1,
    -- 4302: del tmp25
    .del 226,
    -- 4303: tmp30 += np.transpose(tmp27, (1, 0, 2)) * -1
    .add 247 (.tr 228 [1, 0, 2]) (-1) 1,
    -- 4304: del tmp27
    .del 228,
    -- 4305: tmp30 += np.transpose(tmp29, (1, 0, 2))
    .add 247 (.tr 225 [1, 0, 2]) 1 1,
    -- 4306: del tmp29
    .del 225,
    -- 4307: tmp19 = np.copy(f.aa.vv) * 0.5
    .set 248 (.cp 64) 1 2,
    -- 4308: tmp19 += np.transpose(ints.tmp11, (1, 0)) * 0.5
    .add 248 (.tr 65 [1, 0]) 1 2,
    -- 4309: tmp19 += np.transpose(ints.tmp7, (1, 0)) * 0.5
    .add 248 (.tr 66 [1, 0]) 1 2,
    -- 4310: tmp19 += np.transpose(ints.tmp30, (1, 0)) * -1
    .add 248 (.tr 67 [1, 0]) (-1) 1,
    -- 4311: tmp19 += np.transpose(ints.tmp33, (1, 0)) * -0.5
    .add 248 (.tr 68 [1, 0]) (-1) 2,
    -- 4312: tmp9 = einsum(r2.bbb, (0, 1, 2), ints.tmp51, (2, 3, 1, 0), (3,)) * -1
    .set 249 (.ein [(1, [0, 1, 2]), (18, [2, 3, 1, 0])] [3]) (-1) 1,
    -- 4313: tmp8 = einsum(r2.aba, (0, 1, 2), ints.tmp26, (2, 3, 0, 1), (3,))
    .set 250 (.ein [(2, [0, 1, 2]), (54, [2, 3, 0, 1])] [3]) 1 1,
    -- 4314: tmp10 = einsum(r1.b, (0,), tmp0, (1, 0), (1,))
    .set 251 (.ein [(11, [0]), (229, [1, 0])] [1]) 1 1,
    -- 4315: tmp113 = einsum(tmp112, (0, 1, 2), tmp63, (0, 3), (1, 2, 3)) * 4
    .set 252 (.ein [(230, [0, 1, 2]), (191, [0, 3])] [1, 2, 3]) 4 1,
    -- 4316: del tmp112
    .del 230,
    -- 4317: tmp111 = einsum(tmp62, (0, 1), v.bbb.xov, (0, 2, 3), (2, 1, 3))
    .set 253 (.ein [(192, [0, 1]), (0, [0, 2, 3])] [2, 1, 3]) 1 1,
    -- 4318: tmp125 = einsum(t1.bb, (0, 1), tmp124, (0, 2, 3), (2, 3, 1))
    .set 254 (.ein [(37, [0, 1]), (231, [0, 2, 3])] [2, 3, 1]) 1 1,
    -- 4319: del tmp124
    .del 231,
    -- 4320: tmp110 = einsum(r2.aba, (0, 1, 2), ints.tmp380, (2, 3, 0, 4), (3, 4, 1))
    .set 255 (.ein [(2, [0, 1, 2]), (69, [2, 3, 0, 4])] [3, 4, 1]) 1 1,
    -- 4321: tmp127 = einsum(r1.b, (0,), tmp126, (1, 2, 0, 3), (1, 2, 3)) * 2
    .set 256 (.ein [(11, [0]), (232, [1, 2, 0, 3])] [1, 2, 3]) 2 1,
    -- 4322: del tmp126
    .del 232,
    -- 4323: tmp115 = einsum(tmp114, (0, 1), r2.bbb, (2, 0, 3), (3, 1, 2)) * -4
    .set 257 (.ein [(233, [0, 1]), (1, [2, 0, 3])] [3, 1, 2]) (-4) 1,
    -- 4324: del tmp114
    .del 233,
    -- 4325: tmp92 = einsum(ints.tmp46, (0, 1), r2.bbb, (2, 0, 3), (3, 1, 2))
    .set 258 (.ein [(70, [0, 1]), (1, [2, 0, 3])] [3, 1, 2]) 1 1,
    -- 4326: tmp106 = einsum(t1.bb, (0, 1), tmp105, (0, 2, 3), (2, 3, 1))
    .set 259 (.ein [(37, [0, 1]), (234, [0, 2, 3])] [2, 3, 1]) 1 1,
    -- 4327: del tmp105
    .del 234,
    -- 4328: tmp108 = einsum(r1.b, (0,), tmp107, (1, 2, 0, 3), (1, 2, 3))
    .set 260 (.ein [(11, [0]), (235, [1, 2, 0, 3])] [1, 2, 3]) 1 1,
    -- 4329: del tmp107
    .del 235,
    -- 4330: tmp93 = einsum(v.bbb.xov, (0, 1, 2), tmp63, (0, 3), (1, 3, 2))
    .set 261 (.ein [(0, [0, 1, 2]), (191, [0, 3])] [1, 3, 2]) 1 1,
    -- 4331: del tmp63
    .del 191,
    -- 4332: tmp97 = einsum(tmp62, (0, 1), tmp96, (0, 2, 3), (2, 3, 1))
    .set 262 (.ein [(192, [0, 1]), (236, [0, 2, 3])] [2, 3, 1]) 1 1,
    -- 4333: del tmp62, tmp96
    .del 192,
    .del 236,
    -- 4334: tmp95 = einsum(r2.bbb, (0, 1, 2), tmp94, (3, 2, 4, 1), (3, 4, 0)) * -1
    .set 263 (.ein [(1, [0, 1, 2]), (237, [3, 2, 4, 1])] [3, 4, 0]) (-1) 1,
    -- 4335: del tmp94
    .del 237,
    -- 4336: tmp90 = einsum(r2.bbb, (0, 1, 2), ints.tmp51, (3, 4, 0, 1), (3, 4, 2))
    .set 264 (.ein [(1, [0, 1, 2]), (18, [3, 4, 0, 1])] [3, 4, 2]) 1 1,
    -- 4337: del ints.tmp51
    .del 18,
    -- 4338: tmp4 = einsum(r2.bab, (0, 1, 2), ints.tmp26, (3, 2, 1, 0), (3,)) * -1
    .set 265 (.ein [(5, [0, 1, 2]), (54, [3, 2, 1, 0])] [3]) (-1) 1,
    -- 4339: tmp5 = einsum(tmp1, (0, 1), r1.a, (1,), (0,))
    .set 266 (.ein [(238, [0, 1]), (21, [1])] [0]) 1 1,
    -- 4340: tmp3 = einsum(r2.aaa, (0, 1, 2), ints.tmp23, (2, 3, 1, 0), (3,)) * -1
    .set 267 (.ein [(4, [0, 1, 2]), (26, [2, 3, 1, 0])] [3]) (-1) 1,
    -- 4341: tmp86 = np.copy(ints.tmp26)
    .set 268 (.cp 54) 1 1,
    -- 4342: tmp86 += ints.tmp333
    .add 268 (.cp 71) 1 1,
    -- 4343: del ints.tmp333
    .del 71,
    -- 4344: tmp86 += ints.tmp393
    .add 268 (.cp 72) 1 1,
    -- 4345: del ints.tmp393
    .del 72,
    -- 4346: tmp86 += ints.tmp396 * 2
    .add 268 (.cp 73) 2 1,
    -- 4347: del ints.tmp396
    .del 73,
    -- 4348: tmp86 += ints.tmp380 * -1
    .add 268 (.cp 69) (-1) 1,
    -- 4349: tmp85 = np.copy(ints.tmp303)
    .set 269 (.cp 74) 1 1,
    -- 4350: del ints.tmp303
    .del 74,
    -- 4351: tmp85 += ints.tmp327
    .add 269 (.cp 75) 1 1,
    -- 4352: del ints.tmp327
    .del 75,
    -- 4353: tmp75 = einsum(r2.bab, (0, 1, 2), ints.tmp26, (3, 4, 1, 0), (3, 4, 2)) * -1
    .set 270 (.ein [(5, [0, 1, 2]), (54, [3, 4, 1, 0])] [3, 4, 2]) (-1) 1,
    -- 4354: tmp77 = np.copy(np.transpose(r2.bab, (2, 1, 0))) * -1
    .set 271 (.tr 5 [2, 1, 0]) (-1) 1,
    -- 4355: tmp77 += einsum(r1.a, (0,), t1.bb, (1, 2), (1, 0, 2))
    .add 271 (.ein [(21, [0]), (37, [1, 2])] [1, 0, 2]) 1 1,
    -- 4356: tmp66 = einsum(tmp1, (0, 1), t1.aa, (0, 2), (2, 1))
    .set 272 (.ein [(238, [0, 1]), (39, [0, 2])] [2, 1]) 1 1,
    -- 4357: tmp79 = np.copy(ints.tmp343)
    .set 273 (.cp 20) 1 1,
    -- 4358: del ints.tmp343
    .del 20,
    -- 4359: tmp79 += np.transpose(ints.tmp360, (0, 2, 1, 3))
    .add 273 (.tr 12 [0, 2, 1, 3]) 1 1,
    -- 4360: del ints.tmp360
    .del 12,
    -- 4361: tmp70 = np.copy(ints.tmp136)
    .set 274 (.cp 55) 1 1,
    -- 4362: del ints.tmp136
    .del 55,
    -- 4363: tmp70 += ints.tmp179
    .add 274 (.cp 56) 1 1,
    -- 4364: del ints.tmp179
    .del 56,
    -- 4365: tmp71 = np.copy(ints.tmp245)
    .set 275 (.cp 76) 1 1,
    -- 4366: del ints.tmp245
    .del 76,
    -- 4367: tmp71 += ints.tmp26
    .add 275 (.cp 54) 1 1,
    -- 4368: del ints.tmp26
    .del 54,
    -- 4369: tmp71 += ints.tmp276
    .add 275 (.cp 77) 1 1,
    -- 4370: del ints.tmp276
    .del 77,
    -- 4371: tmp71 += ints.tmp279 * 2
    .add 275 (.cp 78) 2 1,
    -- 4372: del ints.tmp279
    .del 78,
    -- 4373: tmp71 += ints.tmp89 * -1
    .add 275 (.cp 79) (-1) 1,
    -- 4374: tmp73 = np.copy(tmp56) * -1
    .set 276 (.cp 239) (-1) 1,
    -- 4375: tmp73 += einsum(r1.b, (0,), tmp72, (1, 2, 3, 0), (1, 2, 3))
    .add 276 (.ein [(11, [0]), (240, [1, 2, 3, 0])] [1, 2, 3]) 1 1,
    -- 4376: del tmp72
    .del 240,
    -- 4377: tmp60 = np.copy(ints.tmp130)
    .set 277 (.cp 23) 1 1,
    -- 4378: del ints.tmp130
    .del 23,
    -- 4379: tmp60 += np.transpose(ints.tmp177, (0, 2, 1, 3))
    .add 277 (.tr 22 [0, 2, 1, 3]) 1 1,
    -- 4380: del ints.tmp177
    .del 22,
    -- 4381: tmp35 = einsum(ints.tmp9, (0, 1), r2.aaa, (2, 0, 3), (3, 1, 2))
    .set 278 (.ein [(80, [0, 1]), (4, [2, 0, 3])] [3, 1, 2]) 1 1,
    -- 4382: tmp40 = einsum(tmp39, (0, 1), v.baa.xov, (0, 2, 3), (2, 3, 1))
    .set 279 (.ein [(241, [0, 1]), (3, [0, 2, 3])] [2, 3, 1]) 1 1,
    -- 4383: del tmp39
    .del 241,
    -- 4384: tmp36 = einsum(ints.tmp89, (0, 1, 2, 3), r2.bab, (3, 4, 1), (0, 2, 4)) * -1
    .set 280 (.ein [(79, [0, 1, 2, 3]), (5, [3, 4, 1])] [0, 2, 4]) (-1) 1,
    -- 4385: tmp51 = einsum(tmp50, (0, 1, 2, 3), r1.a, (1,), (0, 2, 3))
    .set 281 (.ein [(242, [0, 1, 2, 3]), (21, [1])] [0, 2, 3]) 1 1,
    -- 4386: del tmp50
    .del 242,
    -- 4387: tmp38 = einsum(tmp37, (0, 1, 2, 3), r2.aaa, (4, 3, 1), (0, 4, 2)) * -1
    .set 282 (.ein [(243, [0, 1, 2, 3]), (4, [4, 3, 1])] [0, 4, 2]) (-1) 1,
    -- 4388: del tmp37
    .del 243,
    -- 4389: tmp49 = einsum(t1.aa, (0, 1), tmp48, (2, 0, 3), (2, 1, 3))
    .set 283 (.ein [(39, [0, 1]), (244, [2, 0, 3])] [2, 1, 3]) 1 1,
    -- 4390: del tmp48
    .del 244,
    -- 4391: tmp33 = einsum(tmp32, (0, 1, 2, 3), r1.a, (2,), (0, 1, 3)) * 2
    .set 284 (.ein [(245, [0, 1, 2, 3]), (21, [2])] [0, 1, 3]) 2 1,
    -- 4392: del tmp32
    .del 245,
    -- 4393: tmp18 = einsum(tmp16, (0, 1), tmp17, (0, 2, 3), (2, 3, 1)) * 2
    .set 285 (.ein [(208, [0, 1]), (246, [0, 2, 3])] [2, 3, 1]) 2 1,
    -- 4394: del tmp17
    .del 246,
    -- 4395: tmp31 = einsum(t1.aa, (0, 1), tmp30, (0, 2, 3), (2, 1, 3))
    .set 286 (.ein [(39, [0, 1]), (247, [0, 2, 3])] [2, 1, 3]) 1 1,
    -- 4396: del tmp30
    .del 247,
    -- 4397: tmp20 = einsum(tmp19, (0, 1), r2.aaa, (2, 0, 3), (3, 2, 1)) * -4
    .set 287 (.ein [(248, [0, 1]), (4, [2, 0, 3])] [3, 2, 1]) (-4) 1,
    -- 4398: del tmp19
    .del 248,
    -- 4399: tmp12 = einsum(ints.tmp23, (0, 1, 2, 3), r2.aaa, (3, 2, 4), (0, 1, 4)) * -1
    .set 288 (.ein [(26, [0, 1, 2, 3]), (4, [3, 2, 4])] [0, 1, 4]) (-1) 1,
    -- 4400: del ints.tmp23
    .del 26,
    -- 4401: tmp89 = np.copy(ints.tmp299)
    .set 289 (.cp 81) 1 1,
    -- 4402: del ints.tmp299
    .del 81,
    -- 4403: tmp89 += ints.tmp321 * 2
    .add 289 (.cp 82) 2 1,
    -- 4404: del ints.tmp321
    .del 82,
    -- 4405: tmp89 += ints.tmp331
    .add 289 (.cp 83) 1 1,
    -- 4406: del ints.tmp331
    .del 83,
    -- 4407: tmp89 += ints.tmp341
    .add 289 (.cp 84) 1 1,
    -- 4408: del ints.tmp341
    .del 84,
    -- 4409: tmp89 += ints.tmp344 * 2
    .add 289 (.cp 85) 2 1,
    -- 4410: del ints.tmp344
    .del 85,
    -- 4411: tmp89 += ints.tmp345
    .add 289 (.cp 86) 1 1,
    -- 4412: del ints.tmp345
    .del 86,
    -- 4413: tmp89 += ints.tmp346 * 2
    .add 289 (.cp 87) 2 1,
    -- 4414: del ints.tmp346
    .del 87,
    -- 4415: tmp89 += ints.tmp347
    .add 289 (.cp 88) 1 1,
    -- 4416: del ints.tmp347
    .del 88,
    -- 4417: tmp89 += ints.tmp354
    .add 289 (.cp 89) 1 1,
    -- 4418: del ints.tmp354
    .del 89,
    -- 4419: tmp89 += ints.tmp355
    .add 289 (.cp 90) 1 1,
    -- 4420: del ints.tmp355
    .del 90,
    -- 4421: tmp89 += ints.tmp356
    .add 289 (.cp 91) 1 1,
    -- 4422: del ints.tmp356
    .del 91,
    -- 4423: tmp89 += ints.tmp364 * 2
    .add 289 (.cp 92) 2 1,
    -- 4424: del ints.tmp364
    .del 92,
    -- 4425: tmp89 += ints.tmp365
    .add 289 (.cp 93) 1 1,
    -- 4426: del ints.tmp365
    .del 93,
    -- 4427: tmp89 += ints.tmp367
    .add 289 (.cp 94) 1 1,
    -- 4428: del ints.tmp367
    .del 94,
    -- 4429: tmp89 += ints.tmp368
    .add 289 (.cp 95) 1 1,
    -- 4430: del ints.tmp368
    .del 95,
    -- 4431: tmp89 += ints.tmp387
    .add 289 (.cp 96) 1 1,
    -- 4432: del ints.tmp387
    .del 96,
    -- 4433: tmp89 += ints.tmp389 * 2
    .add 289 (.cp 97) 2 1,
    -- 4434: del ints.tmp389
    .del 97,
    -- 4435: tmp89 += f.bb.ov * -1
    .add 289 (.cp 8) (-1) 1,
    -- 4436: tmp89 += ints.tmp19 * -1
    .add 289 (.cp 9) (-1) 1,
    -- 4437: del ints.tmp19
    .del 9,
    -- 4438: tmp89 += ints.tmp22 * -1
    .add 289 (.cp 10) (-1) 1,
    -- 4439: del ints.tmp22
    .del 10,
    -- 4440: tmp89 += ints.tmp315 * -1
    .add 289 (.cp 98) (-1) 1,
    -- 4441: del ints.tmp315
    .del 98,
    -- 4442: tmp89 += ints.tmp322 * -1
    .add 289 (.cp 99) (-1) 1,
    -- 4443: del ints.tmp322
    .del 99,
    -- 4444: tmp89 += ints.tmp330 * -1
    .add 289 (.cp 100) (-1) 1,
    -- 4445: del ints.tmp330
    .del 100,
    -- 4446: tmp89 += ints.tmp332 * -1
    .add 289 (.cp 101) (-1) 1,
    -- 4447: del ints.tmp332
    .del 101,
    -- 4448: tmp89 += ints.tmp353 * -1
    .add 289 (.cp 102) (-1) 1,
    -- 4449: del ints.tmp353
    .del 102,
    -- 4450: tmp89 += ints.tmp366 * -1
    .add 289 (.cp 103) (-1) 1,
    -- 4451: del ints.tmp366
    .del 103,
    -- 4452: tmp89 += ints.tmp370 * -1
    .add 289 (.cp 104) (-1) 1,
    -- 4453: del ints.tmp370
    .del 104,
    -- 4454: tmp89 += ints.tmp371 * -2
    .add 289 (.cp 105) (-2) 1,
    -- 4455: del ints.tmp371
    .del 105,
    -- 4456: tmp89 += ints.tmp388 * -1
    .add 289 (.cp 106) (-1) 1,
    -- 4457: del ints.tmp388
    .del 106,
    -- 4458: tmp89 += ints.tmp390 * -2
    .add 289 (.cp 107) (-2) 1,
    -- 4459: del ints.tmp390
    .del 107,
    -- 4460: tmp89 += ints.tmp391 * -1
    .add 289 (.cp 108) (-1) 1,
    -- 4461: del ints.tmp391
    .del 108,
    -- 4462: tmp89 += ints.tmp392 * -2
    .add 289 (.cp 109) (-2) 1,
    -- 4463: del ints.tmp392
    .del 109,
    -- 4464: tmp11 = np.copy(tmp8)
    .set 290 (.cp 250) 1 1,
    -- 4465: del tmp8
    .del 250,
    -- 4466: tmp11 += tmp9 * 2
    .add 290 (.cp 249) 2 1,
    -- 4467: del tmp9
    .del 249,
    -- 4468: tmp11 += tmp10 * -1
    .add 290 (.cp 251) (-1) 1,
    -- 4469: del tmp10
    .del 251,
    -- 4470: tmp128 = np.copy(tmp110)
    .set 291 (.cp 255) 1 1,
    -- 4471: del tmp110
    .del 255,
    -- 4472: tmp128 += tmp111
    .add 291 (.cp 253) 1 1,
    -- 4473: del tmp111
    .del 253,
    -- 4474: tmp128 += tmp113
    .add 291 (.cp 252) 1 1,
    -- 4475: del tmp113
    .del 252,
    -- 4476: tmp128 += tmp115 * -1
    .add 291 (.cp 257) (-1) 1,
    -- 4477: del tmp115
    .del 257,
    -- 4478: tmp128 += tmp125
    .add 291 (.cp 254) 1 1,
    -- 4479: del tmp125
    .del 254,
    -- 4480: tmp128 += tmp127
    .add 291 (.cp 256) 1 1,
    -- 4481: del tmp127
    .del 256,
    -- 4482: tmp88 = np.copy(f.bb.oo)
    .set 292 (.cp 110) 1 1,
    -- 4483: tmp88 += np.transpose(ints.tmp301, (1, 0))
    .add 292 (.tr 111 [1, 0]) 1 1,
    -- 4484: del ints.tmp301
    .del 111,
    -- 4485: tmp88 += np.transpose(ints.tmp302, (1, 0))
    .add 292 (.tr 112 [1, 0]) 1 1,
    -- 4486: del ints.tmp302
    .del 112,
    -- 4487: tmp88 += ints.tmp316
    .add 292 (.cp 113) 1 1,
    -- 4488: del ints.tmp316
    .del 113,
    -- 4489: tmp88 += np.transpose(ints.tmp323, (1, 0)) * 2
    .add 292 (.tr 114 [1, 0]) 2 1,
    -- 4490: del ints.tmp323
    .del 114,
    -- 4491: tmp88 += np.transpose(ints.tmp325, (1, 0))
    .add 292 (.tr 115 [1, 0]) 1 1,
    -- 4492: del ints.tmp325
    .del 115,
    -- 4493: tmp88 += np.transpose(ints.tmp336, (1, 0))
    .add 292 (.tr 116 [1, 0]) 1 1,
    -- 4494: del ints.tmp336
    .del 116,
    -- 4495: tmp88 += np.transpose(ints.tmp337, (1, 0))
    .add 292 (.tr 117 [1, 0]) 1 1,
    -- 4496: del ints.tmp337
    .del 117,
    -- 4497: tmp88 += np.transpose(ints.tmp300, (1, 0)) * -1
    .add 292 (.tr 118 [1, 0]) (-1) 1,
    -- 4498: del ints.tmp300
    .del 118,
    -- 4499: tmp88 += np.transpose(ints.tmp335, (1, 0)) * -1
    .add 292 (.tr 119 [1, 0]) (-1) 1,
    -- 4500: del ints.tmp335
    .del 119,
    -- 4501: tmp129 = np.copy(ints.tmp453)
    .set 293 (.cp 120) 1 1,
    -- 4502: del ints.tmp453
    .del 120,
    -- 4503: tmp129 += ints.tmp481 * -1
    .add 293 (.cp 121) (-1) 1,
    -- 4504: del ints.tmp481
    .del 121,
    -- 4505: tmp109 = np.copy(tmp92) * 2
    .set 294 (.cp 258) 2 1,
    -- 4506: del tmp92
    .del 258,
    -- 4507: tmp109 += tmp93 * 2
    .add 294 (.cp 261) 2 1,
    -- 4508: del tmp93
    .del 261,
    -- 4509: tmp109 += tmp95 * -2
    .add 294 (.cp 263) (-2) 1,
    -- 4510: del tmp95
    .del 263,
    -- 4511: tmp109 += tmp97
    .add 294 (.cp 262) 1 1,
    -- 4512: del tmp97
    .del 262,
    -- 4513: tmp109 += tmp106
    .add 294 (.cp 259) 1 1,
    -- 4514: del tmp106
    .del 259,
    -- 4515: tmp109 += tmp108
    .add 294 (.cp 260) 1 1,
    -- 4516: del tmp108
    .del 260,
    -- 4517: tmp91 = einsum(t1.bb, (0, 1), tmp90, (2, 0, 3), (2, 3, 1))
    .set 295 (.ein [(37, [0, 1]), (264, [2, 0, 3])] [2, 3, 1]) 1 1,
    -- 4518: tmp83 = np.copy(ints.tmp46) * 0.5
    .set 296 (.cp 70) 1 2,
    -- 4519: tmp83 += np.transpose(ints.tmp57, (1, 0))
    .add 296 (.tr 50 [1, 0]) 1 1,
    -- 4520: tmp83 += np.transpose(ints.tmp60, (1, 0)) * 0.5
    .add 296 (.tr 51 [1, 0]) 1 2,
    -- 4521: tmp83 += f.bb.vv * -0.5
    .add 296 (.cp 47) (-1) 2,
    -- 4522: tmp83 += np.transpose(ints.tmp44, (1, 0)) * -0.5
    .add 296 (.tr 48 [1, 0]) (-1) 2,
    -- 4523: tmp83 += np.transpose(ints.tmp47, (1, 0)) * -0.5
    .add 296 (.tr 49 [1, 0]) (-1) 2,
    -- 4524: tmp83 += einsum(tmp0, (0, 1), t1.bb, (0, 2), (1, 2)) * 0.5
    .add 296 (.ein [(229, [0, 1]), (37, [0, 2])] [1, 2]) 1 2,
    -- 4525: tmp6 = np.copy(tmp3) * -2
    .set 297 (.cp 267) (-2) 1,
    -- 4526: del tmp3
    .del 267,
    -- 4527: tmp6 += tmp4
    .add 297 (.cp 265) 1 1,
    -- 4528: del tmp4
    .del 265,
    -- 4529: tmp6 += tmp5
    .add 297 (.cp 266) 1 1,
    -- 4530: del tmp5
    .del 266,
    -- 4531: tmp84 = np.copy(ints.tmp305)
    .set 298 (.cp 122) 1 1,
    -- 4532: del ints.tmp305
    .del 122,
    -- 4533: tmp84 += np.transpose(ints.tmp318, (0, 2, 1, 3))
    .add 298 (.tr 123 [0, 2, 1, 3]) 1 1,
    -- 4534: del ints.tmp318
    .del 123,
    -- 4535: tmp84 += ints.tmp328
    .add 298 (.cp 124) 1 1,
    -- 4536: del ints.tmp328
    .del 124,
    -- 4537: tmp84 += np.transpose(ints.tmp374, (0, 2, 1, 3))
    .add 298 (.tr 125 [0, 2, 1, 3]) 1 1,
    -- 4538: del ints.tmp374
    .del 125,
    -- 4539: tmp84 += np.transpose(ints.tmp376, (0, 2, 1, 3)) * 2
    .add 298 (.tr 126 [0, 2, 1, 3]) 2 1,
    -- 4540: del ints.tmp376
    .del 126,
    -- 4541: tmp84 += ints.tmp4
    .add 298 (.cp 127) 1 1,
    -- 4542: tmp84 += ints.tmp290 * -1
    .add 298 (.cp 128) (-1) 1,
    -- 4543: del ints.tmp290
    .del 128,
    -- 4544: tmp84 += np.transpose(ints.tmp375, (0, 2, 1, 3)) * -1
    .add 298 (.tr 129 [0, 2, 1, 3]) (-1) 1,
    -- 4545: del ints.tmp375
    .del 129,
    -- 4546: tmp82 = np.copy(ints.tmp45)
    .set 299 (.cp 42) 1 1,
    -- 4547: del ints.tmp45
    .del 42,
    -- 4548: tmp82 += ints.tmp56 * 2
    .add 299 (.cp 43) 2 1,
    -- 4549: del ints.tmp56
    .del 43,
    -- 4550: tmp82 += ints.tmp59
    .add 299 (.cp 44) 1 1,
    -- 4551: del ints.tmp59
    .del 44,
    -- 4552: tmp82 += v.bbb.xov
    .add 299 (.cp 0) 1 1,
    -- 4553: tmp82 += einsum(tmp81, (0, 1, 2), t1.bb, (2, 3), (0, 1, 3)) * -1
    .add 299 (.ein [(195, [0, 1, 2]), (37, [2, 3])] [0, 1, 3]) (-1) 1,
    -- 4554: del tmp81
    .del 195,
    -- 4555: tmp76 = einsum(ints.tmp4, (0, 1, 2, 3), r2.bab, (3, 2, 4), (0, 4, 1)) * -1
    .set 300 (.ein [(127, [0, 1, 2, 3]), (5, [3, 2, 4])] [0, 4, 1]) (-1) 1,
    -- 4556: tmp87 = einsum(ints.tmp42, (0, 1, 2, 3), r2.bab, (3, 1, 4), (0, 4, 2))
    .set 301 (.ein [(130, [0, 1, 2, 3]), (5, [3, 1, 4])] [0, 4, 2]) 1 1,
    -- 4557: tmp87 += einsum(tmp75, (0, 1, 2), t1.bb, (1, 3), (0, 2, 3))
    .add 301 (.ein [(270, [0, 1, 2]), (37, [1, 3])] [0, 2, 3]) 1 1,
    -- 4558: tmp87 += einsum(tmp77, (0, 1, 2), tmp85, (3, 4, 0, 1), (3, 4, 2))
    .add 301 (.ein [(271, [0, 1, 2]), (269, [3, 4, 0, 1])] [3, 4, 2]) 1 1,
    -- 4559: del tmp85
    .del 269,
    -- 4560: tmp87 += einsum(r1.a, (0,), tmp86, (1, 2, 0, 3), (1, 2, 3)) * -1
    .add 301 (.ein [(21, [0]), (268, [1, 2, 0, 3])] [1, 2, 3]) (-1) 1,
    -- 4561: del tmp86
    .del 268,
    -- 4562: tmp78 = np.copy(ints.tmp342)
    .set 302 (.cp 131) 1 1,
    -- 4563: del ints.tmp342
    .del 131,
    -- 4564: tmp78 += ints.tmp357
    .add 302 (.cp 132) 1 1,
    -- 4565: del ints.tmp357
    .del 132,
    -- 4566: tmp78 += ints.tmp293 * -1
    .add 302 (.cp 133) (-1) 1,
    -- 4567: del ints.tmp293
    .del 133,
    -- 4568: tmp67 = np.copy(np.transpose(ints.tmp30, (1, 0))) * 2
    .set 303 (.tr 67 [1, 0]) 2 1,
    -- 4569: tmp67 += np.transpose(ints.tmp33, (1, 0))
    .add 303 (.tr 68 [1, 0]) 1 1,
    -- 4570: tmp67 += ints.tmp9
    .add 303 (.cp 80) 1 1,
    -- 4571: tmp67 += f.aa.vv * -1
    .add 303 (.cp 64) (-1) 1,
    -- 4572: tmp67 += np.transpose(ints.tmp11, (1, 0)) * -1
    .add 303 (.tr 65 [1, 0]) (-1) 1,
    -- 4573: tmp67 += np.transpose(ints.tmp7, (1, 0)) * -1
    .add 303 (.tr 66 [1, 0]) (-1) 1,
    -- 4574: tmp67 += np.transpose(tmp66, (1, 0))
    .add 303 (.tr 272 [1, 0]) 1 1,
    -- 4575: del tmp66
    .del 272,
    -- 4576: tmp80 = np.copy(ints.tmp298)
    .set 304 (.cp 13) 1 1,
    -- 4577: del ints.tmp298
    .del 13,
    -- 4578: tmp80 += ints.tmp319
    .add 304 (.cp 14) 1 1,
    -- 4579: del ints.tmp319
    .del 14,
    -- 4580: tmp80 += ints.tmp383 * 2
    .add 304 (.cp 15) 2 1,
    -- 4581: del ints.tmp383
    .del 15,
    -- 4582: tmp80 += einsum(t1.bb, (0, 1), tmp79, (2, 0, 3, 4), (2, 3, 1, 4)) * -1
    .add 304 (.ein [(37, [0, 1]), (273, [2, 0, 3, 4])] [2, 3, 1, 4]) (-1) 1,
    -- 4583: del tmp79
    .del 273,
    -- 4584: tmp65 = np.copy(ints.tmp29) * 2
    .set 305 (.cp 61) 2 1,
    -- 4585: del ints.tmp29
    .del 61,
    -- 4586: tmp65 += ints.tmp32
    .add 305 (.cp 62) 1 1,
    -- 4587: del ints.tmp32
    .del 62,
    -- 4588: tmp65 += ints.tmp8
    .add 305 (.cp 63) 1 1,
    -- 4589: del ints.tmp8
    .del 63,
    -- 4590: tmp65 += v.baa.xov
    .add 305 (.cp 3) 1 1,
    -- 4591: tmp65 += einsum(tmp24, (0, 1, 2), t1.aa, (2, 3), (0, 1, 3)) * -1
    .add 305 (.ein [(209, [0, 1, 2]), (39, [2, 3])] [0, 1, 3]) (-1) 1,
    -- 4592: del tmp24
    .del 209,
    -- 4593: tmp58 = np.copy(np.transpose(r2.aba, (2, 0, 1)))
    .set 306 (.tr 2 [2, 0, 1]) 1 1,
    -- 4594: tmp58 += einsum(r1.b, (0,), t1.aa, (1, 2), (1, 2, 0)) * -1
    .add 306 (.ein [(11, [0]), (39, [1, 2])] [1, 2, 0]) (-1) 1,
    -- 4595: tmp69 = np.copy(ints.tmp227)
    .set 307 (.cp 134) 1 1,
    -- 4596: del ints.tmp227
    .del 134,
    -- 4597: tmp69 += np.transpose(ints.tmp239, (0, 1, 3, 2))
    .add 307 (.tr 135 [0, 1, 3, 2]) 1 1,
    -- 4598: del ints.tmp239
    .del 135,
    -- 4599: tmp69 += ints.tmp243
    .add 307 (.cp 136) 1 1,
    -- 4600: del ints.tmp243
    .del 136,
    -- 4601: tmp69 += np.transpose(ints.tmp265, (0, 1, 3, 2))
    .add 307 (.tr 137 [0, 1, 3, 2]) 1 1,
    -- 4602: del ints.tmp265
    .del 137,
    -- 4603: tmp69 += np.transpose(ints.tmp267, (0, 1, 3, 2)) * 2
    .add 307 (.tr 138 [0, 1, 3, 2]) 2 1,
    -- 4604: del ints.tmp267
    .del 138,
    -- 4605: tmp69 += ints.tmp42
    .add 307 (.cp 130) 1 1,
    -- 4606: tmp69 += ints.tmp218 * -1
    .add 307 (.cp 139) (-1) 1,
    -- 4607: del ints.tmp218
    .del 139,
    -- 4608: tmp69 += np.transpose(ints.tmp266, (0, 1, 3, 2)) * -1
    .add 307 (.tr 140 [0, 1, 3, 2]) (-1) 1,
    -- 4609: del ints.tmp266
    .del 140,
    -- 4610: tmp68 = np.copy(ints.tmp46)
    .set 308 (.cp 70) 1 1,
    -- 4611: tmp68 += np.transpose(ints.tmp57, (1, 0)) * 2
    .add 308 (.tr 50 [1, 0]) 2 1,
    -- 4612: tmp68 += np.transpose(ints.tmp60, (1, 0))
    .add 308 (.tr 51 [1, 0]) 1 1,
    -- 4613: tmp68 += f.bb.vv * -1
    .add 308 (.cp 47) (-1) 1,
    -- 4614: tmp68 += np.transpose(ints.tmp44, (1, 0)) * -1
    .add 308 (.tr 48 [1, 0]) (-1) 1,
    -- 4615: tmp68 += np.transpose(ints.tmp47, (1, 0)) * -1
    .add 308 (.tr 49 [1, 0]) (-1) 1,
    -- 4616: tmp68 += einsum(tmp0, (0, 1), t1.bb, (0, 2), (1, 2))
    .add 308 (.ein [(229, [0, 1]), (37, [0, 2])] [1, 2]) 1 1,
    -- 4617: tmp53 = np.copy(f.aa.oo)
    .set 309 (.cp 141) 1 1,
    -- 4618: tmp53 += np.transpose(ints.tmp124, (1, 0))
    .add 309 (.tr 142 [1, 0]) 1 1,
    -- 4619: del ints.tmp124
    .del 142,
    -- 4620: tmp53 += np.transpose(ints.tmp126, (1, 0))
    .add 309 (.tr 143 [1, 0]) 1 1,
    -- 4621: del ints.tmp126
    .del 143,
    -- 4622: tmp53 += ints.tmp157
    .add 309 (.cp 144) 1 1,
    -- 4623: del ints.tmp157
    .del 144,
    -- 4624: tmp53 += np.transpose(ints.tmp173, (1, 0)) * 2
    .add 309 (.tr 145 [1, 0]) 2 1,
    -- 4625: del ints.tmp173
    .del 145,
    -- 4626: tmp53 += np.transpose(ints.tmp175, (1, 0))
    .add 309 (.tr 146 [1, 0]) 1 1,
    -- 4627: del ints.tmp175
    .del 146,
    -- 4628: tmp53 += np.transpose(ints.tmp195, (1, 0))
    .add 309 (.tr 147 [1, 0]) 1 1,
    -- 4629: del ints.tmp195
    .del 147,
    -- 4630: tmp53 += np.transpose(ints.tmp197, (1, 0))
    .add 309 (.tr 148 [1, 0]) 1 1,
    -- 4631: del ints.tmp197
    .del 148,
    -- 4632: tmp53 += np.transpose(ints.tmp122, (1, 0)) * -1
    .add 309 (.tr 149 [1, 0]) (-1) 1,
    -- 4633: del ints.tmp122
    .del 149,
    -- 4634: tmp53 += np.transpose(ints.tmp193, (1, 0)) * -1
    .add 309 (.tr 150 [1, 0]) (-1) 1,
    -- 4635: del ints.tmp193
    .del 150,
    -- 4636: tmp74 = einsum(r2.aba, (0, 1, 2), ints.tmp4, (3, 4, 0, 1), (2, 3, 4)) * -1
    .set 310 (.ein [(2, [0, 1, 2]), (127, [3, 4, 0, 1])] [2, 3, 4]) (-1) 1,
    -- 4637: tmp74 += einsum(tmp70, (0, 1, 2, 3), r2.aba, (4, 3, 1), (0, 2, 4))
    .add 310 (.ein [(274, [0, 1, 2, 3]), (2, [4, 3, 1])] [0, 2, 4]) 1 1,
    -- 4638: del tmp70
    .del 274,
    -- 4639: tmp74 += einsum(tmp71, (0, 1, 2, 3), r1.b, (3,), (0, 1, 2))
    .add 310 (.ein [(275, [0, 1, 2, 3]), (11, [3])] [0, 1, 2]) 1 1,
    -- 4640: del tmp71
    .del 275,
    -- 4641: tmp74 += einsum(t1.aa, (0, 1), tmp73, (0, 2, 3), (2, 3, 1)) * -1
    .add 310 (.ein [(39, [0, 1]), (276, [0, 2, 3])] [2, 3, 1]) (-1) 1,
    -- 4642: del tmp73
    .del 276,
    -- 4643: tmp61 = np.copy(ints.tmp117)
    .set 311 (.cp 28) 1 1,
    -- 4644: del ints.tmp117
    .del 28,
    -- 4645: tmp61 += ints.tmp167
    .add 311 (.cp 29) 1 1,
    -- 4646: del ints.tmp167
    .del 29,
    -- 4647: tmp61 += ints.tmp86 * 2
    .add 311 (.cp 30) 2 1,
    -- 4648: del ints.tmp86
    .del 30,
    -- 4649: tmp61 += einsum(tmp60, (0, 1, 2, 3), t1.aa, (2, 4), (0, 1, 4, 3)) * -1
    .add 311 (.ein [(277, [0, 1, 2, 3]), (39, [2, 4])] [0, 1, 4, 3]) (-1) 1,
    -- 4650: del tmp60
    .del 277,
    -- 4651: tmp59 = np.copy(ints.tmp250)
    .set 312 (.cp 151) 1 1,
    -- 4652: del ints.tmp250
    .del 151,
    -- 4653: tmp59 += ints.tmp256
    .add 312 (.cp 152) 1 1,
    -- 4654: del ints.tmp256
    .del 152,
    -- 4655: tmp59 += ints.tmp221 * -1
    .add 312 (.cp 153) (-1) 1,
    -- 4656: del ints.tmp221
    .del 153,
    -- 4657: tmp57 = einsum(ints.tmp42, (0, 1, 2, 3), r2.aba, (1, 3, 4), (0, 4, 2))
    .set 313 (.ein [(130, [0, 1, 2, 3]), (2, [1, 3, 4])] [0, 4, 2]) 1 1,
    -- 4658: tmp55 = np.copy(ints.tmp115)
    .set 314 (.cp 154) 1 1,
    -- 4659: del ints.tmp115
    .del 154,
    -- 4660: tmp55 += ints.tmp119
    .add 314 (.cp 155) 1 1,
    -- 4661: del ints.tmp119
    .del 155,
    -- 4662: tmp55 += ints.tmp135 * 2
    .add 314 (.cp 156) 2 1,
    -- 4663: del ints.tmp135
    .del 156,
    -- 4664: tmp55 += ints.tmp137
    .add 314 (.cp 157) 1 1,
    -- 4665: del ints.tmp137
    .del 157,
    -- 4666: tmp55 += ints.tmp148
    .add 314 (.cp 158) 1 1,
    -- 4667: del ints.tmp148
    .del 158,
    -- 4668: tmp55 += ints.tmp149
    .add 314 (.cp 159) 1 1,
    -- 4669: del ints.tmp149
    .del 159,
    -- 4670: tmp55 += ints.tmp159
    .add 314 (.cp 160) 1 1,
    -- 4671: del ints.tmp159
    .del 160,
    -- 4672: tmp55 += ints.tmp171 * 2
    .add 314 (.cp 161) 2 1,
    -- 4673: del ints.tmp171
    .del 161,
    -- 4674: tmp55 += ints.tmp178 * 2
    .add 314 (.cp 162) 2 1,
    -- 4675: del ints.tmp178
    .del 162,
    -- 4676: tmp55 += ints.tmp180
    .add 314 (.cp 163) 1 1,
    -- 4677: del ints.tmp180
    .del 163,
    -- 4678: tmp55 += ints.tmp183 * 2
    .add 314 (.cp 164) 2 1,
    -- 4679: del ints.tmp183
    .del 164,
    -- 4680: tmp55 += ints.tmp184
    .add 314 (.cp 165) 1 1,
    -- 4681: del ints.tmp184
    .del 165,
    -- 4682: tmp55 += ints.tmp186
    .add 314 (.cp 166) 1 1,
    -- 4683: del ints.tmp186
    .del 166,
    -- 4684: tmp55 += ints.tmp206
    .add 314 (.cp 167) 1 1,
    -- 4685: del ints.tmp206
    .del 167,
    -- 4686: tmp55 += ints.tmp207
    .add 314 (.cp 168) 1 1,
    -- 4687: del ints.tmp207
    .del 168,
    -- 4688: tmp55 += ints.tmp94 * 2
    .add 314 (.cp 169) 2 1,
    -- 4689: del ints.tmp94
    .del 169,
    -- 4690: tmp55 += ints.tmp96
    .add 314 (.cp 170) 1 1,
    -- 4691: del ints.tmp96
    .del 170,
    -- 4692: tmp55 += f.aa.ov * -1
    .add 314 (.cp 33) (-1) 1,
    -- 4693: tmp55 += ints.tmp147 * -1
    .add 314 (.cp 171) (-1) 1,
    -- 4694: del ints.tmp147
    .del 171,
    -- 4695: tmp55 += ints.tmp156 * -1
    .add 314 (.cp 172) (-1) 1,
    -- 4696: del ints.tmp156
    .del 172,
    -- 4697: tmp55 += ints.tmp15 * -1
    .add 314 (.cp 34) (-1) 1,
    -- 4698: del ints.tmp15
    .del 34,
    -- 4699: tmp55 += ints.tmp172 * -1
    .add 314 (.cp 173) (-1) 1,
    -- 4700: del ints.tmp172
    .del 173,
    -- 4701: tmp55 += ints.tmp185 * -1
    .add 314 (.cp 174) (-1) 1,
    -- 4702: del ints.tmp185
    .del 174,
    -- 4703: tmp55 += ints.tmp187 * -1
    .add 314 (.cp 175) (-1) 1,
    -- 4704: del ints.tmp187
    .del 175,
    -- 4705: tmp55 += ints.tmp205 * -1
    .add 314 (.cp 176) (-1) 1,
    -- 4706: del ints.tmp205
    .del 176,
    -- 4707: tmp55 += ints.tmp20 * -1
    .add 314 (.cp 35) (-1) 1,
    -- 4708: del ints.tmp20
    .del 35,
    -- 4709: tmp55 += ints.tmp67 * -2
    .add 314 (.cp 177) (-2) 1,
    -- 4710: del ints.tmp67
    .del 177,
    -- 4711: tmp55 += ints.tmp68 * -1
    .add 314 (.cp 178) (-1) 1,
    -- 4712: del ints.tmp68
    .del 178,
    -- 4713: tmp55 += ints.tmp95 * -2
    .add 314 (.cp 179) (-2) 1,
    -- 4714: del ints.tmp95
    .del 179,
    -- 4715: tmp55 += ints.tmp97 * -1
    .add 314 (.cp 180) (-1) 1,
    -- 4716: del ints.tmp97
    .del 180,
    -- 4717: tmp55 += ints.tmp98 * -2
    .add 314 (.cp 181) (-2) 1,
    -- 4718: del ints.tmp98
    .del 181,
    -- 4719: tmp55 += ints.tmp99 * -1
    .add 314 (.cp 182) (-1) 1,
    -- 4720: del ints.tmp99
    .del 182,
    -- 4721: tmp52 = np.copy(tmp35) * 2
    .set 315 (.cp 278) 2 1,
    -- 4722: del tmp35
    .del 278,
    -- 4723: tmp52 += tmp36
    .add 315 (.cp 280) 1 1,
    -- 4724: del tmp36
    .del 280,
    -- 4725: tmp52 += np.transpose(tmp38, (0, 2, 1)) * -2
    .add 315 (.tr 282 [0, 2, 1]) (-2) 1,
    -- 4726: del tmp38
    .del 282,
    -- 4727: tmp52 += np.transpose(tmp40, (0, 2, 1))
    .add 315 (.tr 279 [0, 2, 1]) 1 1,
    -- 4728: del tmp40
    .del 279,
    -- 4729: tmp52 += np.transpose(tmp49, (0, 2, 1))
    .add 315 (.tr 283 [0, 2, 1]) 1 1,
    -- 4730: del tmp49
    .del 283,
    -- 4731: tmp52 += tmp51
    .add 315 (.cp 281) 1 1,
    -- 4732: del tmp51
    .del 281,
    -- 4733: tmp54 = np.copy(ints.tmp138)
    .set 316 (.cp 183) 1 1,
    -- 4734: del ints.tmp138
    .del 183,
    -- 4735: tmp54 += ints.tmp181 * -1
    .add 316 (.cp 184) (-1) 1,
    -- 4736: del ints.tmp181
    .del 184,
    -- 4737: tmp34 = np.copy(tmp18)
    .set 317 (.cp 285) 1 1,
    -- 4738: del tmp18
    .del 285,
    -- 4739: tmp34 += np.transpose(tmp20, (0, 2, 1)) * -1
    .add 317 (.tr 287 [0, 2, 1]) (-1) 1,
    -- 4740: del tmp20
    .del 287,
    -- 4741: tmp34 += np.transpose(tmp31, (0, 2, 1))
    .add 317 (.tr 286 [0, 2, 1]) 1 1,
    -- 4742: del tmp31
    .del 286,
    -- 4743: tmp34 += tmp33
    .add 317 (.cp 284) 1 1,
    -- 4744: del tmp33
    .del 284,
    -- 4745: tmp13 = einsum(t1.aa, (0, 1), tmp12, (2, 0, 3), (2, 3, 1))
    .set 318 (.ein [(39, [0, 1]), (288, [2, 0, 3])] [2, 3, 1]) 1 1,
    -- 4746: tmp7 = np.copy(ints.tmp46)
    .set 319 (.cp 70) 1 1,
    -- 4747: del ints.tmp46
    .del 70,
    -- 4748: tmp7 += np.transpose(ints.tmp57, (1, 0)) * 2
    .add 319 (.tr 50 [1, 0]) 2 1,
    -- 4749: del ints.tmp57
    .del 50,
    -- 4750: tmp7 += np.transpose(ints.tmp60, (1, 0))
    .add 319 (.tr 51 [1, 0]) 1 1,
    -- 4751: del ints.tmp60
    .del 51,
    -- 4752: tmp7 += f.bb.vv * -1
    .add 319 (.cp 47) (-1) 1,
    -- 4753: tmp7 += np.transpose(ints.tmp44, (1, 0)) * -1
    .add 319 (.tr 48 [1, 0]) (-1) 1,
    -- 4754: del ints.tmp44
    .del 48,
    -- 4755: tmp7 += np.transpose(ints.tmp47, (1, 0)) * -1
    .add 319 (.tr 49 [1, 0]) (-1) 1,
    -- 4756: del ints.tmp47
    .del 49,
    -- 4757: tmp2 = np.copy(np.transpose(ints.tmp30, (1, 0))) * 2
    .set 320 (.tr 67 [1, 0]) 2 1,
    -- 4758: del ints.tmp30
    .del 67,
    -- 4759: tmp2 += np.transpose(ints.tmp33, (1, 0))
    .add 320 (.tr 68 [1, 0]) 1 1,
    -- 4760: del ints.tmp33
    .del 68,
    -- 4761: tmp2 += ints.tmp9
    .add 320 (.cp 80) 1 1,
    -- 4762: del ints.tmp9
    .del 80,
    -- 4763: tmp2 += f.aa.vv * -1
    .add 320 (.cp 64) (-1) 1,
    -- 4764: tmp2 += np.transpose(ints.tmp11, (1, 0)) * -1
    .add 320 (.tr 65 [1, 0]) (-1) 1,
    -- 4765: del ints.tmp11
    .del 65,
    -- 4766: tmp2 += np.transpose(ints.tmp7, (1, 0)) * -1
    .add 320 (.tr 66 [1, 0]) (-1) 1,
    -- 4767: del ints.tmp7
    .del 66,
    -- 4768: r2new.bbb = einsum(r2.bbb, (0, 1, 2), ints.tmp469, (3, 0, 4, 1), (3, 4, 2)) * -2
    .set 321 (.ein [(1, [0, 1, 2]), (185, [3, 0, 4, 1])] [3, 4, 2]) (-2) 1,
    -- 4769: del ints.tmp469
    .del 185,
    -- 4770: r2new.bbb += einsum(tmp90, (0, 1, 2), t2.bbbb, (1, 0, 3, 4), (3, 4, 2)) * -2
    .add 321 (.ein [(264, [0, 1, 2]), (186, [1, 0, 3, 4])] [3, 4, 2]) (-2) 1,
    -- 4771: del tmp90
    .del 264,
    -- 4772: r2new.bbb += einsum(t1.bb, (0, 1), tmp91, (0, 2, 3), (3, 1, 2)) * -2
    .add 321 (.ein [(37, [0, 1]), (295, [0, 2, 3])] [3, 1, 2]) (-2) 1,
    -- 4773: del tmp91
    .del 295,
    -- 4774: r2new.bbb += np.transpose(tmp109, (1, 2, 0))
    .add 321 (.tr 294 [1, 2, 0]) 1 1,
    -- 4775: r2new.bbb += np.transpose(tmp109, (2, 1, 0)) * -1
    .add 321 (.tr 294 [2, 1, 0]) (-1) 1,
    -- 4776: del tmp109
    .del 294,
    -- 4777: r2new.bbb += np.transpose(tmp128, (1, 2, 0)) * -1
    .add 321 (.tr 291 [1, 2, 0]) (-1) 1,
    -- 4778: r2new.bbb += np.transpose(tmp128, (2, 1, 0))
    .add 321 (.tr 291 [2, 1, 0]) 1 1,
    -- 4779: del tmp128
    .del 291,
    -- 4780: r2new.bbb += einsum(r2.bbb, (0, 1, 2), tmp88, (2, 3), (0, 1, 3)) * -2
    .add 321 (.ein [(1, [0, 1, 2]), (292, [2, 3])] [0, 1, 3]) (-2) 1,
    -- 4781: r2new.bbb += einsum(t2.bbbb, (0, 1, 2, 3), tmp11, (1,), (2, 3, 0)) * -2
    .add 321 (.ein [(186, [0, 1, 2, 3]), (290, [1])] [2, 3, 0]) (-2) 1,
    -- 4782: r2new.bbb += einsum(r1.b, (0,), tmp129, (1, 2, 3, 0), (3, 2, 1)) * 2
    .add 321 (.ein [(11, [0]), (293, [1, 2, 3, 0])] [3, 2, 1]) 2 1,
    -- 4783: del tmp129
    .del 293,
    -- 4784: r2new.bbb += einsum(r1.b, (0,), tmp89, (1, 2), (0, 2, 1)) * -1
    .add 321 (.ein [(11, [0]), (289, [1, 2])] [0, 2, 1]) (-1) 1,
    -- 4785: r2new.bbb += einsum(r1.b, (0,), tmp89, (1, 2), (2, 0, 1))
    .add 321 (.ein [(11, [0]), (289, [1, 2])] [2, 0, 1]) 1 1,
    -- 4786: r2new.bab = einsum(ints.tmp237, (0, 1, 2, 3), r2.bab, (3, 1, 4), (2, 0, 4))
    .set 322 (.ein [(187, [0, 1, 2, 3]), (5, [3, 1, 4])] [2, 0, 4]) 1 1,
    -- 4787: r2new.bab += einsum(t2.abab, (0, 1, 2, 3), tmp75, (0, 1, 4), (3, 2, 4)) * -1
    .add 322 (.ein [(188, [0, 1, 2, 3]), (270, [0, 1, 4])] [3, 2, 4]) (-1) 1,
    -- 4788: del tmp75
    .del 270,
    -- 4789: r2new.bab += einsum(tmp76, (0, 1, 2), t1.bb, (0, 3), (3, 2, 1))
    .add 322 (.ein [(300, [0, 1, 2]), (37, [0, 3])] [3, 2, 1]) 1 1,
    -- 4790: del tmp76
    .del 300,
    -- 4791: r2new.bab += einsum(r2.aaa, (0, 1, 2), ints.tmp380, (2, 3, 1, 4), (4, 0, 3)) * 2
    .add 322 (.ein [(4, [0, 1, 2]), (69, [2, 3, 1, 4])] [4, 0, 3]) 2 1,
    -- 4792: del ints.tmp380
    .del 69,
    -- 4793: r2new.bab += einsum(tmp78, (0, 1, 2, 3), tmp77, (1, 3, 4), (4, 2, 0))
    .add 322 (.ein [(302, [0, 1, 2, 3]), (271, [1, 3, 4])] [4, 2, 0]) 1 1,
    -- 4794: del tmp77, tmp78
    .del 271,
    .del 302,
    -- 4795: r2new.bab += einsum(r2.bab, (0, 1, 2), tmp80, (3, 2, 4, 0), (4, 1, 3)) * -1
    .add 322 (.ein [(5, [0, 1, 2]), (304, [3, 2, 4, 0])] [4, 1, 3]) (-1) 1,
    -- 4796: del tmp80
    .del 304,
    -- 4797: r2new.bab += einsum(tmp16, (0, 1), tmp82, (0, 2, 3), (3, 1, 2)) * -2
    .add 322 (.ein [(208, [0, 1]), (299, [0, 2, 3])] [3, 1, 2]) (-2) 1,
    -- 4798: del tmp16, tmp82
    .del 208,
    .del 299,
    -- 4799: r2new.bab += einsum(r2.bab, (0, 1, 2), tmp67, (1, 3), (0, 3, 2)) * -1
    .add 322 (.ein [(5, [0, 1, 2]), (303, [1, 3])] [0, 3, 2]) (-1) 1,
    -- 4800: r2new.bab += einsum(tmp83, (0, 1), r2.bab, (0, 2, 3), (1, 2, 3)) * -2
    .add 322 (.ein [(296, [0, 1]), (5, [0, 2, 3])] [1, 2, 3]) (-2) 1,
    -- 4801: del tmp83
    .del 296,
    -- 4802: r2new.bab += einsum(r1.a, (0,), tmp84, (1, 2, 0, 3), (3, 2, 1)) * -1
    .add 322 (.ein [(21, [0]), (298, [1, 2, 0, 3])] [3, 2, 1]) (-1) 1,
    -- 4803: del tmp84
    .del 298,
    -- 4804: r2new.bab += einsum(tmp87, (0, 1, 2), t1.aa, (0, 3), (2, 3, 1)) * -1
    .add 322 (.ein [(301, [0, 1, 2]), (39, [0, 3])] [2, 3, 1]) (-1) 1,
    -- 4805: del tmp87
    .del 301,
    -- 4806: r2new.bab += einsum(r2.bab, (0, 1, 2), tmp88, (2, 3), (0, 1, 3)) * -1
    .add 322 (.ein [(5, [0, 1, 2]), (292, [2, 3])] [0, 1, 3]) (-1) 1,
    -- 4807: del tmp88
    .del 292,
    -- 4808: r2new.bab += einsum(t2.abab, (0, 1, 2, 3), tmp6, (0,), (3, 2, 1))
    .add 322 (.ein [(188, [0, 1, 2, 3]), (297, [0])] [3, 2, 1]) 1 1,
    -- 4809: r2new.bab += einsum(r1.a, (0,), tmp89, (1, 2), (2, 0, 1))
    .add 322 (.ein [(21, [0]), (289, [1, 2])] [2, 0, 1]) 1 1,
    -- 4810: del tmp89
    .del 289,
    -- 4811: r2new.aba = einsum(ints.tmp237, (0, 1, 2, 3), r2.aba, (1, 3, 4), (0, 2, 4))
    .set 323 (.ein [(187, [0, 1, 2, 3]), (2, [1, 3, 4])] [0, 2, 4]) 1 1,
    -- 4812: del ints.tmp237
    .del 187,
    -- 4813: r2new.aba += einsum(t2.abab, (0, 1, 2, 3), tmp56, (0, 4, 1), (2, 3, 4))
    .add 323 (.ein [(188, [0, 1, 2, 3]), (239, [0, 4, 1])] [2, 3, 4]) 1 1,
    -- 4814: del tmp56
    .del 239,
    -- 4815: r2new.aba += einsum(tmp57, (0, 1, 2), t1.aa, (0, 3), (3, 2, 1)) * -1
    .add 323 (.ein [(313, [0, 1, 2]), (39, [0, 3])] [3, 2, 1]) (-1) 1,
    -- 4816: del tmp57
    .del 313,
    -- 4817: r2new.aba += einsum(ints.tmp89, (0, 1, 2, 3), r2.bbb, (4, 3, 1), (2, 4, 0)) * 2
    .add 323 (.ein [(79, [0, 1, 2, 3]), (1, [4, 3, 1])] [2, 4, 0]) 2 1,
    -- 4818: del ints.tmp89
    .del 79,
    -- 4819: r2new.aba += einsum(tmp58, (0, 1, 2), tmp59, (3, 0, 4, 2), (1, 4, 3)) * -1
    .add 323 (.ein [(306, [0, 1, 2]), (312, [3, 0, 4, 2])] [1, 4, 3]) (-1) 1,
    -- 4820: del tmp58, tmp59
    .del 306,
    .del 312,
    -- 4821: r2new.aba += einsum(tmp61, (0, 1, 2, 3), r2.aba, (3, 4, 1), (2, 4, 0)) * -1
    .add 323 (.ein [(311, [0, 1, 2, 3]), (2, [3, 4, 1])] [2, 4, 0]) (-1) 1,
    -- 4822: del tmp61
    .del 311,
    -- 4823: r2new.aba += einsum(tmp65, (0, 1, 2), tmp64, (0, 3), (2, 3, 1)) * -1
    .add 323 (.ein [(305, [0, 1, 2]), (196, [0, 3])] [2, 3, 1]) (-1) 1,
    -- 4824: del tmp64, tmp65
    .del 196,
    .del 305,
    -- 4825: r2new.aba += einsum(r2.aba, (0, 1, 2), tmp67, (0, 3), (3, 1, 2)) * -1
    .add 323 (.ein [(2, [0, 1, 2]), (303, [0, 3])] [3, 1, 2]) (-1) 1,
    -- 4826: del tmp67
    .del 303,
    -- 4827: r2new.aba += einsum(r2.aba, (0, 1, 2), tmp68, (1, 3), (0, 3, 2)) * -1
    .add 323 (.ein [(2, [0, 1, 2]), (308, [1, 3])] [0, 3, 2]) (-1) 1,
    -- 4828: del tmp68
    .del 308,
    -- 4829: r2new.aba += einsum(tmp69, (0, 1, 2, 3), r1.b, (3,), (1, 2, 0)) * -1
    .add 323 (.ein [(307, [0, 1, 2, 3]), (11, [3])] [1, 2, 0]) (-1) 1,
    -- 4830: del tmp69
    .del 307,
    -- 4831: r2new.aba += einsum(tmp74, (0, 1, 2), t1.bb, (1, 3), (2, 3, 0))
    .add 323 (.ein [(310, [0, 1, 2]), (37, [1, 3])] [2, 3, 0]) 1 1,
    -- 4832: del tmp74
    .del 310,
    -- 4833: r2new.aba += einsum(tmp53, (0, 1), r2.aba, (2, 3, 0), (2, 3, 1)) * -1
    .add 323 (.ein [(309, [0, 1]), (2, [2, 3, 0])] [2, 3, 1]) (-1) 1,
    -- 4834: r2new.aba += einsum(t2.abab, (0, 1, 2, 3), tmp11, (1,), (2, 3, 0)) * -1
    .add 323 (.ein [(188, [0, 1, 2, 3]), (290, [1])] [2, 3, 0]) (-1) 1,
    -- 4835: r2new.aba += einsum(tmp55, (0, 1), r1.b, (2,), (1, 2, 0))
    .add 323 (.ein [(314, [0, 1]), (11, [2])] [1, 2, 0]) 1 1,
    -- 4836: r2new.aaa = einsum(ints.tmp160, (0, 1, 2, 3), r2.aaa, (3, 1, 4), (0, 2, 4)) * 2
    .set 324 (.ein [(189, [0, 1, 2, 3]), (4, [3, 1, 4])] [0, 2, 4]) 2 1,
    -- 4837: del ints.tmp160
    .del 189,
    -- 4838: r2new.aaa += einsum(t2.aaaa, (0, 1, 2, 3), tmp12, (1, 0, 4), (2, 3, 4)) * -2
    .add 324 (.ein [(190, [0, 1, 2, 3]), (288, [1, 0, 4])] [2, 3, 4]) (-2) 1,
    -- 4839: del tmp12
    .del 288,
    -- 4840: r2new.aaa += einsum(tmp13, (0, 1, 2), t1.aa, (0, 3), (2, 3, 1)) * -2
    .add 324 (.ein [(318, [0, 1, 2]), (39, [0, 3])] [2, 3, 1]) (-2) 1,
    -- 4841: del tmp13
    .del 318,
    -- 4842: r2new.aaa += np.transpose(tmp34, (1, 2, 0)) * -1
    .add 324 (.tr 317 [1, 2, 0]) (-1) 1,
    -- 4843: r2new.aaa += np.transpose(tmp34, (2, 1, 0))
    .add 324 (.tr 317 [2, 1, 0]) 1 1,
    -- 4844: del tmp34
    .del 317,
    -- 4845: r2new.aaa += np.transpose(tmp52, (1, 2, 0))
    .add 324 (.tr 315 [1, 2, 0]) 1 1,
    -- 4846: r2new.aaa += np.transpose(tmp52, (2, 1, 0)) * -1
    .add 324 (.tr 315 [2, 1, 0]) (-1) 1,
    -- 4847: del tmp52
    .del 315,
    -- 4848: r2new.aaa += einsum(r2.aaa, (0, 1, 2), tmp53, (2, 3), (0, 1, 3)) * -2
    .add 324 (.ein [(4, [0, 1, 2]), (309, [2, 3])] [0, 1, 3]) (-2) 1,
    -- 4849: del tmp53
    .del 309,
    -- 4850: r2new.aaa += einsum(t2.aaaa, (0, 1, 2, 3), tmp6, (1,), (2, 3, 0)) * 2
    .add 324 (.ein [(190, [0, 1, 2, 3]), (297, [1])] [2, 3, 0]) 2 1,
    -- 4851: r2new.aaa += einsum(tmp54, (0, 1, 2, 3), r1.a, (3,), (2, 1, 0)) * 2
    .add 324 (.ein [(316, [0, 1, 2, 3]), (21, [3])] [2, 1, 0]) 2 1,
    -- 4852: del tmp54
    .del 316,
    -- 4853: r2new.aaa += einsum(r1.a, (0,), tmp55, (1, 2), (0, 2, 1)) * -1
    .add 324 (.ein [(21, [0]), (314, [1, 2])] [0, 2, 1]) (-1) 1,
    -- 4854: r2new.aaa += einsum(r1.a, (0,), tmp55, (1, 2), (2, 0, 1))
    .add 324 (.ein [(21, [0]), (314, [1, 2])] [2, 0, 1]) 1 1,
    -- 4855: del tmp55
    .del 314,
    -- 4856: r1new.b = einsum(ints.tmp42, (0, 1, 2, 3), r2.aba, (1, 3, 0), (2,)) * -1
    .set 325 (.ein [(130, [0, 1, 2, 3]), (2, [1, 3, 0])] [2]) (-1) 1,
    -- 4857: del ints.tmp42
    .del 130,
    -- 4858: r1new.b += einsum(r2.bbb, (0, 1, 2), ints.tmp40, (2, 3, 1, 0), (3,)) * -2
    .add 325 (.ein [(1, [0, 1, 2]), (36, [2, 3, 1, 0])] [3]) (-2) 1,
    -- 4859: del ints.tmp40
    .del 36,
    -- 4860: r1new.b += einsum(tmp1, (0, 1), r2.aba, (1, 2, 0), (2,)) * -1
    .add 325 (.ein [(238, [0, 1]), (2, [1, 2, 0])] [2]) (-1) 1,
    -- 4861: r1new.b += einsum(tmp0, (0, 1), r2.bbb, (2, 1, 0), (2,)) * 2
    .add 325 (.ein [(229, [0, 1]), (1, [2, 1, 0])] [2]) 2 1,
    -- 4862: r1new.b += einsum(r1.b, (0,), tmp7, (0, 1), (1,)) * -1
    .add 325 (.ein [(11, [0]), (319, [0, 1])] [1]) (-1) 1,
    -- 4863: del tmp7
    .del 319,
    -- 4864: r1new.b += einsum(t1.bb, (0, 1), tmp11, (0,), (1,))
    .add 325 (.ein [(37, [0, 1]), (290, [0])] [1]) 1 1,
    -- 4865: del tmp11
    .del 290,
    -- 4866: r1new.a = einsum(ints.tmp4, (0, 1, 2, 3), r2.bab, (3, 2, 0), (1,)) * -1
    .set 326 (.ein [(127, [0, 1, 2, 3]), (5, [3, 2, 0])] [1]) (-1) 1,
    -- 4867: del ints.tmp4
    .del 127,
    -- 4868: r1new.a += einsum(ints.tmp2, (0, 1, 2, 3), r2.aaa, (3, 2, 0), (1,)) * -2
    .add 326 (.ein [(41, [0, 1, 2, 3]), (4, [3, 2, 0])] [1]) (-2) 1,
    -- 4869: del ints.tmp2
    .del 41,
    -- 4870: r1new.a += einsum(r2.bab, (0, 1, 2), tmp0, (2, 0), (1,)) * -1
    .add 326 (.ein [(5, [0, 1, 2]), (229, [2, 0])] [1]) (-1) 1,
    -- 4871: del tmp0
    .del 229,
    -- 4872: r1new.a += einsum(r2.aaa, (0, 1, 2), tmp1, (2, 1), (0,)) * 2
    .add 326 (.ein [(4, [0, 1, 2]), (238, [2, 1])] [0]) 2 1,
    -- 4873: del tmp1
    .del 238,
    -- 4874: r1new.a += einsum(r1.a, (0,), tmp2, (0, 1), (1,)) * -1
    .add 326 (.ein [(21, [0]), (320, [0, 1])] [1]) (-1) 1,
    -- 4875: del tmp2
    .del 320,
    -- 4876: r1new.a += einsum(tmp6, (0,), t1.aa, (0, 1), (1,)) * -1
    .add 326 (.ein [(297, [0]), (39, [0, 1])] [1]) (-1) 1,
    -- 4877: del tmp6
    .del 297
  ]
  ret := [(chars! "r1new.b", 325), (chars! "r1new.a", 326), (chars! "r2new.bbb", 321), (chars! "r2new.bab", 322), (chars! "r2new.aba", 323), (chars! "r2new.aaa", 324)]

/-- codegen/UDFCCSD.py:6108-6472 `hbar_lmatvec_ea_intermediates`. -/
def hbar_lmatvec_ea_intermediates : GenFun where
  args := [chars! "v.baa.xov", chars! "t1.aa", chars! "v.bbb.xov", chars! "t1.bb", chars! "t2.abab", chars! "t2.bbbb", chars! "t2.aaaa", chars! "v.baa.xvv", chars! "v.bbb.xvv", chars! "v.baa.xoo", chars! "v.bbb.xoo", chars! "f.bb.ov", chars! "f.aa.ov", chars! "f.bb.vv", chars! "f.aa.vv", chars! "f.bb.oo", chars! "f.aa.oo"]
  body := [
    -- 6297: tmp28 = einsum(v.baa.xov, (0, 1, 2), t1.aa, (1, 2), (0,))
    .set 17 (.ein [(0, [0, 1, 2]), (1, [1, 2])] [0]) 1 1,
    -- 6298: tmp32 = einsum(v.bbb.xov, (0, 1, 2), t1.bb, (1, 2), (0,))
    .set 18 (.ein [(2, [0, 1, 2]), (3, [1, 2])] [0]) 1 1,
    -- 6299: tmp109 = einsum(v.bbb.xov, (0, 1, 2), t1.bb, (3, 2), (0, 3, 1))
    .set 19 (.ein [(2, [0, 1, 2]), (3, [3, 2])] [0, 3, 1]) 1 1,
    -- 6300: tmp101 = einsum(v.baa.xov, (0, 1, 2), t1.aa, (3, 2), (0, 3, 1))
    .set 20 (.ein [(0, [0, 1, 2]), (1, [3, 2])] [0, 3, 1]) 1 1,
    -- 6301: tmp41 = einsum(tmp28, (0,), v.bbb.xov, (0, 1, 2), (1, 2))
    .set 21 (.ein [(17, [0]), (2, [0, 1, 2])] [1, 2]) 1 1,
    -- 6302: tmp42 = einsum(tmp32, (0,), v.baa.xov, (0, 1, 2), (1, 2))
    .set 22 (.ein [(18, [0]), (0, [0, 1, 2])] [1, 2]) 1 1,
    -- 6303: tmp38 = einsum(tmp32, (0,), v.bbb.xov, (0, 1, 2), (1, 2))
    .set 23 (.ein [(18, [0]), (2, [0, 1, 2])] [1, 2]) 1 1,
    -- 6304: tmp110 = einsum(v.bbb.xov, (0, 1, 2), tmp109, (0, 1, 3), (3, 2))
    .set 24 (.ein [(2, [0, 1, 2]), (19, [0, 1, 3])] [3, 2]) 1 1,
    -- 6305: tmp34 = einsum(tmp28, (0,), v.baa.xov, (0, 1, 2), (1, 2))
    .set 25 (.ein [(17, [0]), (0, [0, 1, 2])] [1, 2]) 1 1,
    -- 6306: tmp102 = einsum(tmp101, (0, 1, 2), v.baa.xov, (0, 1, 3), (2, 3))
    .set 26 (.ein [(20, [0, 1, 2]), (0, [0, 1, 3])] [2, 3]) 1 1,
    -- 6307: tmp60 = einsum(t2.abab, (0, 1, 2, 3), v.bbb.xov, (4, 1, 3), (4, 0, 2))
    .set 27 (.ein [(4, [0, 1, 2, 3]), (2, [4, 1, 3])] [4, 0, 2]) 1 1,
    -- 6308: tmp84 = einsum(t2.abab, (0, 1, 2, 3), v.baa.xov, (4, 0, 2), (4, 1, 3))
    .set 28 (.ein [(4, [0, 1, 2, 3]), (0, [4, 0, 2])] [4, 1, 3]) 1 1,
    -- 6309: tmp81 = einsum(v.bbb.xov, (0, 1, 2), t2.bbbb, (3, 1, 4, 2), (0, 3, 4))
    .set 29 (.ein [(2, [0, 1, 2]), (5, [3, 1, 4, 2])] [0, 3, 4]) 1 1,
    -- 6310: tmp57 = einsum(v.baa.xov, (0, 1, 2), t2.aaaa, (3, 1, 4, 2), (0, 3, 4))
    .set 30 (.ein [(0, [0, 1, 2]), (6, [3, 1, 4, 2])] [0, 3, 4]) 1 1,
    -- 6311: tmp30 = einsum(t1.aa, (0, 1), v.baa.xvv, (2, 3, 1), (2, 0, 3))
    .set 31 (.ein [(1, [0, 1]), (7, [2, 3, 1])] [2, 0, 3]) 1 1,
    -- 6312: tmp39 = einsum(v.bbb.xvv, (0, 1, 2), t1.bb, (3, 2), (0, 3, 1))
    .set 32 (.ein [(8, [0, 1, 2]), (3, [3, 2])] [0, 3, 1]) 1 1,
    -- 6313: tmp49 = einsum(v.bbb.xov, (0, 1, 2), v.baa.xov, (0, 3, 4), (3, 1, 4, 2))
    .set 33 (.ein [(2, [0, 1, 2]), (0, [0, 3, 4])] [3, 1, 4, 2]) 1 1,
    -- 6314: tmp243 = einsum(v.bbb.xov, (0, 1, 2), v.bbb.xov, (0, 3, 4), (1, 3, 2, 4))
    .set 34 (.ein [(2, [0, 1, 2]), (2, [0, 3, 4])] [1, 3, 2, 4]) 1 1,
    -- 6315: tmp138 = einsum(tmp101, (0, 1, 2), v.bbb.xov, (0, 3, 4), (1, 2, 3, 4))
    .set 35 (.ein [(20, [0, 1, 2]), (2, [0, 3, 4])] [1, 2, 3, 4]) 1 1,
    -- 6316: tmp135 = einsum(tmp109, (0, 1, 2), v.bbb.xov, (0, 3, 4), (1, 3, 2, 4))
    .set 36 (.ein [(19, [0, 1, 2]), (2, [0, 3, 4])] [1, 3, 2, 4]) 1 1,
    -- 6317: tmp26 = einsum(v.baa.xvv, (0, 1, 2), v.bbb.xov, (0, 3, 4), (3, 1, 2, 4))
    .set 37 (.ein [(7, [0, 1, 2]), (2, [0, 3, 4])] [3, 1, 2, 4]) 1 1,
    -- 6318: tmp236 = einsum(v.bbb.xov, (0, 1, 2), v.bbb.xvv, (0, 3, 4), (1, 3, 4, 2))
    .set 38 (.ein [(2, [0, 1, 2]), (8, [0, 3, 4])] [1, 3, 4, 2]) 1 1,
    -- 6319: tmp72 = einsum(v.bbb.xov, (0, 1, 2), v.baa.xoo, (0, 3, 4), (3, 4, 1, 2))
    .set 39 (.ein [(2, [0, 1, 2]), (9, [0, 3, 4])] [3, 4, 1, 2]) 1 1,
    -- 6320: tmp66 = einsum(v.bbb.xoo, (0, 1, 2), v.bbb.xov, (0, 3, 4), (1, 2, 3, 4))
    .set 40 (.ein [(10, [0, 1, 2]), (2, [0, 3, 4])] [1, 2, 3, 4]) 1 1,
    -- 6321: tmp220 = einsum(tmp41, (0, 1), t1.bb, (2, 1), (2, 0))
    .set 41 (.ein [(21, [0, 1]), (3, [2, 1])] [2, 0]) 1 1,
    -- 6322: tmp217 = einsum(tmp42, (0, 1), t1.aa, (2, 1), (2, 0))
    .set 42 (.ein [(22, [0, 1]), (1, [2, 1])] [2, 0]) 1 1,
    -- 6323: tmp215 = einsum(tmp38, (0, 1), t1.bb, (2, 1), (2, 0))
    .set 43 (.ein [(23, [0, 1]), (3, [2, 1])] [2, 0]) 1 1,
    -- 6324: tmp213 = einsum(tmp110, (0, 1), t1.bb, (2, 1), (2, 0))
    .set 44 (.ein [(24, [0, 1]), (3, [2, 1])] [2, 0]) 1 1,
    -- 6325: tmp210 = einsum(tmp34, (0, 1), t1.aa, (2, 1), (2, 0))
    .set 45 (.ein [(25, [0, 1]), (1, [2, 1])] [2, 0]) 1 1,
    -- 6326: tmp207 = einsum(tmp102, (0, 1), t1.aa, (2, 1), (2, 0))
    .set 46 (.ein [(26, [0, 1]), (1, [2, 1])] [2, 0]) 1 1,
    -- 6327: tmp33 = einsum(tmp32, (0,), v.baa.xvv, (0, 1, 2), (1, 2))
    .set 47 (.ein [(18, [0]), (7, [0, 1, 2])] [1, 2]) 1 1,
    -- 6328: tmp197 = einsum(tmp28, (0,), v.bbb.xvv, (0, 1, 2), (1, 2))
    .set 48 (.ein [(17, [0]), (8, [0, 1, 2])] [1, 2]) 1 1,
    -- 6329: tmp194 = einsum(tmp32, (0,), v.bbb.xvv, (0, 1, 2), (1, 2))
    .set 49 (.ein [(18, [0]), (8, [0, 1, 2])] [1, 2]) 1 1,
    -- 6330: tmp29 = einsum(tmp28, (0,), v.baa.xvv, (0, 1, 2), (1, 2))
    .set 50 (.ein [(17, [0]), (7, [0, 1, 2])] [1, 2]) 1 1,
    -- 6331: tmp184 = einsum(tmp28, (0,), v.bbb.xoo, (0, 1, 2), (1, 2))
    .set 51 (.ein [(17, [0]), (10, [0, 1, 2])] [1, 2]) 1 1,
    -- 6332: tmp181 = einsum(tmp32, (0,), v.baa.xoo, (0, 1, 2), (1, 2))
    .set 52 (.ein [(18, [0]), (9, [0, 1, 2])] [1, 2]) 1 1,
    -- 6333: tmp179 = einsum(tmp32, (0,), v.bbb.xoo, (0, 1, 2), (1, 2))
    .set 53 (.ein [(18, [0]), (10, [0, 1, 2])] [1, 2]) 1 1,
    -- 6334: del tmp32
    .del 18,
    -- 6335: tmp177 = einsum(v.bbb.xoo, (0, 1, 2), tmp109, (0, 2, 3), (1, 3))
    .set 54 (.ein [(10, [0, 1, 2]), (19, [0, 2, 3])] [1, 3]) 1 1,
    -- 6336: tmp174 = einsum(tmp28, (0,), v.baa.xoo, (0, 1, 2), (1, 2))
    .set 55 (.ein [(17, [0]), (9, [0, 1, 2])] [1, 2]) 1 1,
    -- 6337: del tmp28
    .del 17,
    -- 6338: tmp171 = einsum(v.baa.xoo, (0, 1, 2), tmp101, (0, 2, 3), (1, 3))
    .set 56 (.ein [(9, [0, 1, 2]), (20, [0, 2, 3])] [1, 3]) 1 1,
    -- 6339: tmp44 = einsum(v.baa.xov, (0, 1, 2), v.baa.xov, (0, 3, 4), (3, 1, 4, 2))
    .set 57 (.ein [(0, [0, 1, 2]), (0, [0, 3, 4])] [3, 1, 4, 2]) 1 1,
    -- 6340: tmp157 = einsum(tmp60, (0, 1, 2), v.baa.xov, (0, 3, 2), (1, 3))
    .set 58 (.ein [(27, [0, 1, 2]), (0, [0, 3, 2])] [1, 3]) 1 1,
    -- 6341: tmp154 = einsum(v.bbb.xov, (0, 1, 2), tmp84, (0, 3, 2), (3, 1))
    .set 59 (.ein [(2, [0, 1, 2]), (28, [0, 3, 2])] [3, 1]) 1 1,
    -- 6342: tmp151 = einsum(tmp81, (0, 1, 2), v.bbb.xov, (0, 3, 2), (1, 3))
    .set 60 (.ein [(29, [0, 1, 2]), (2, [0, 3, 2])] [1, 3]) 1 1,
    -- 6343: tmp148 = einsum(v.baa.xov, (0, 1, 2), tmp57, (0, 3, 2), (3, 1))
    .set 61 (.ein [(0, [0, 1, 2]), (30, [0, 3, 2])] [3, 1]) 1 1,
    -- 6344: tmp141 = einsum(tmp109, (0, 1, 2), v.baa.xov, (0, 3, 4), (3, 1, 2, 4))
    .set 62 (.ein [(19, [0, 1, 2]), (0, [0, 3, 4])] [3, 1, 2, 4]) 1 1,
    -- 6345: tmp132 = einsum(v.baa.xov, (0, 1, 2), tmp101, (0, 3, 4), (3, 1, 4, 2))
    .set 63 (.ein [(0, [0, 1, 2]), (20, [0, 3, 4])] [3, 1, 4, 2]) 1 1,
    -- 6346: tmp99 = einsum(v.bbb.xvv, (0, 1, 2), v.baa.xov, (0, 3, 4), (3, 4, 1, 2))
    .set 64 (.ein [(8, [0, 1, 2]), (0, [0, 3, 4])] [3, 4, 1, 2]) 1 1,
    -- 6347: tmp24 = einsum(v.baa.xvv, (0, 1, 2), v.baa.xov, (0, 3, 4), (3, 1, 2, 4))
    .set 65 (.ein [(7, [0, 1, 2]), (0, [0, 3, 4])] [3, 1, 2, 4]) 1 1,
    -- 6348: tmp69 = einsum(v.bbb.xoo, (0, 1, 2), v.baa.xov, (0, 3, 4), (3, 1, 2, 4))
    .set 66 (.ein [(10, [0, 1, 2]), (0, [0, 3, 4])] [3, 1, 2, 4]) 1 1,
    -- 6349: tmp63 = einsum(v.baa.xoo, (0, 1, 2), v.baa.xov, (0, 3, 4), (1, 2, 3, 4))
    .set 67 (.ein [(9, [0, 1, 2]), (0, [0, 3, 4])] [1, 2, 3, 4]) 1 1,
    -- 6350: tmp22 = einsum(f.bb.ov, (0, 1), t1.bb, (2, 1), (0, 2))
    .set 68 (.ein [(11, [0, 1]), (3, [2, 1])] [0, 2]) 1 1,
    -- 6351: tmp19 = einsum(t1.aa, (0, 1), f.aa.ov, (2, 1), (2, 0))
    .set 69 (.ein [(1, [0, 1]), (12, [2, 1])] [2, 0]) 1 1,
    -- 6352: tmp490 = einsum(v.bbb.xvv, (0, 1, 2), v.bbb.xvv, (0, 3, 4), (3, 1, 2, 4))
    .set 70 (.ein [(8, [0, 1, 2]), (8, [0, 3, 4])] [3, 1, 2, 4]) 1 1,
    -- 6353: tmp426 = einsum(v.baa.xvv, (0, 1, 2), v.bbb.xvv, (0, 3, 4), (1, 2, 3, 4))
    .set 71 (.ein [(7, [0, 1, 2]), (8, [0, 3, 4])] [1, 2, 3, 4]) 1 1,
    -- 6354: tmp387 = einsum(v.baa.xvv, (0, 1, 2), v.baa.xvv, (0, 3, 4), (3, 1, 2, 4))
    .set 72 (.ein [(7, [0, 1, 2]), (7, [0, 3, 4])] [3, 1, 2, 4]) 1 1,
    -- 6355: tmp335 = einsum(v.bbb.xov, (0, 1, 2), tmp30, (0, 3, 4), (3, 1, 4, 2))
    .set 73 (.ein [(2, [0, 1, 2]), (31, [0, 3, 4])] [3, 1, 4, 2]) 1 1,
    -- 6356: tmp334 = einsum(tmp101, (0, 1, 2), v.bbb.xvv, (0, 3, 4), (1, 2, 3, 4))
    .set 74 (.ein [(20, [0, 1, 2]), (8, [0, 3, 4])] [1, 2, 3, 4]) 1 1,
    -- 6357: tmp332 = einsum(v.bbb.xov, (0, 1, 2), tmp39, (0, 3, 4), (3, 1, 2, 4))
    .set 75 (.ein [(2, [0, 1, 2]), (32, [0, 3, 4])] [3, 1, 2, 4]) 1 1,
    -- 6358: tmp330 = einsum(tmp109, (0, 1, 2), v.bbb.xvv, (0, 3, 4), (1, 2, 3, 4))
    .set 76 (.ein [(19, [0, 1, 2]), (8, [0, 3, 4])] [1, 2, 3, 4]) 1 1,
    -- 6359: tmp319 = einsum(t2.abab, (0, 1, 2, 3), tmp49, (4, 1, 2, 5), (0, 4, 3, 5))
    .set 77 (.ein [(4, [0, 1, 2, 3]), (33, [4, 1, 2, 5])] [0, 4, 3, 5]) 1 1,
    -- 6360: tmp317 = einsum(v.bbb.xov, (0, 1, 2), tmp84, (0, 3, 4), (3, 1, 4, 2))
    .set 78 (.ein [(2, [0, 1, 2]), (28, [0, 3, 4])] [3, 1, 4, 2]) 1 1,
    -- 6361: tmp315 = einsum(v.bbb.xov, (0, 1, 2), tmp57, (0, 3, 4), (3, 1, 4, 2))
    .set 79 (.ein [(2, [0, 1, 2]), (30, [0, 3, 4])] [3, 1, 4, 2]) 1 1,
    -- 6362: tmp313 = einsum(t2.bbbb, (0, 1, 2, 3), tmp243, (1, 4, 5, 3), (0, 4, 2, 5))
    .set 80 (.ein [(5, [0, 1, 2, 3]), (34, [1, 4, 5, 3])] [0, 4, 2, 5]) 1 1,
    -- 6363: tmp312 = einsum(t2.abab, (0, 1, 2, 3), tmp243, (1, 4, 5, 3), (0, 4, 2, 5))
    .set 81 (.ein [(4, [0, 1, 2, 3]), (34, [1, 4, 5, 3])] [0, 4, 2, 5]) 1 1,
    -- 6364: tmp310 = einsum(tmp81, (0, 1, 2), v.bbb.xov, (0, 3, 4), (1, 3, 2, 4))
    .set 82 (.ein [(29, [0, 1, 2]), (2, [0, 3, 4])] [1, 3, 2, 4]) 1 1,
    -- 6365: tmp309 = einsum(tmp60, (0, 1, 2), v.bbb.xov, (0, 3, 4), (1, 3, 2, 4))
    .set 83 (.ein [(27, [0, 1, 2]), (2, [0, 3, 4])] [1, 3, 2, 4]) 1 1,
    -- 6366: tmp303 = einsum(tmp138, (0, 1, 2, 3), t2.abab, (1, 2, 4, 5), (0, 4, 5, 3))
    .set 84 (.ein [(35, [0, 1, 2, 3]), (4, [1, 2, 4, 5])] [0, 4, 5, 3]) 1 1,
    -- 6367: tmp301 = einsum(t2.bbbb, (0, 1, 2, 3), tmp135, (4, 0, 1, 5), (4, 2, 3, 5))
    .set 85 (.ein [(5, [0, 1, 2, 3]), (36, [4, 0, 1, 5])] [4, 2, 3, 5]) 1 1,
    -- 6368: tmp281 = einsum(t2.abab, (0, 1, 2, 3), tmp26, (1, 4, 2, 5), (0, 4, 3, 5))
    .set 86 (.ein [(4, [0, 1, 2, 3]), (37, [1, 4, 2, 5])] [0, 4, 3, 5]) 1 1,
    -- 6369: tmp279 = einsum(v.bbb.xvv, (0, 1, 2), tmp84, (0, 3, 4), (3, 4, 1, 2))
    .set 87 (.ein [(8, [0, 1, 2]), (28, [0, 3, 4])] [3, 4, 1, 2]) 1 1,
    -- 6370: tmp277 = einsum(v.bbb.xvv, (0, 1, 2), tmp57, (0, 3, 4), (3, 4, 1, 2))
    .set 88 (.ein [(8, [0, 1, 2]), (30, [0, 3, 4])] [3, 4, 1, 2]) 1 1,
    -- 6371: tmp275 = einsum(tmp236, (0, 1, 2, 3), t2.bbbb, (4, 0, 5, 1), (4, 5, 3, 2))
    .set 89 (.ein [(38, [0, 1, 2, 3]), (5, [4, 0, 5, 1])] [4, 5, 3, 2]) 1 1,
    -- 6372: tmp274 = einsum(t2.abab, (0, 1, 2, 3), tmp236, (1, 4, 3, 5), (0, 2, 5, 4))
    .set 90 (.ein [(4, [0, 1, 2, 3]), (38, [1, 4, 3, 5])] [0, 2, 5, 4]) 1 1,
    -- 6373: tmp272 = einsum(tmp81, (0, 1, 2), v.bbb.xvv, (0, 3, 4), (1, 2, 3, 4))
    .set 91 (.ein [(29, [0, 1, 2]), (8, [0, 3, 4])] [1, 2, 3, 4]) 1 1,
    -- 6374: tmp271 = einsum(tmp60, (0, 1, 2), v.bbb.xvv, (0, 3, 4), (1, 2, 3, 4))
    .set 92 (.ein [(27, [0, 1, 2]), (8, [0, 3, 4])] [1, 2, 3, 4]) 1 1,
    -- 6375: tmp265 = einsum(t2.abab, (0, 1, 2, 3), tmp72, (4, 0, 1, 5), (4, 2, 3, 5))
    .set 93 (.ein [(4, [0, 1, 2, 3]), (39, [4, 0, 1, 5])] [4, 2, 3, 5]) 1 1,
    -- 6376: tmp263 = einsum(t2.bbbb, (0, 1, 2, 3), tmp66, (0, 4, 1, 5), (4, 2, 3, 5))
    .set 94 (.ein [(5, [0, 1, 2, 3]), (40, [0, 4, 1, 5])] [4, 2, 3, 5]) 1 1,
    -- 6377: tmp257 = einsum(v.bbb.xov, (0, 1, 2), tmp84, (0, 1, 3), (3, 2))
    .set 95 (.ein [(2, [0, 1, 2]), (28, [0, 1, 3])] [3, 2]) 1 1,
    -- 6378: tmp255 = einsum(tmp81, (0, 1, 2), v.bbb.xov, (0, 1, 3), (2, 3))
    .set 96 (.ein [(29, [0, 1, 2]), (2, [0, 1, 3])] [2, 3]) 1 1,
    -- 6379: tmp253 = einsum(tmp30, (0, 1, 2), v.bbb.xvv, (0, 3, 4), (1, 2, 3, 4))
    .set 97 (.ein [(31, [0, 1, 2]), (8, [0, 3, 4])] [1, 2, 3, 4]) 1 1,
    -- 6380: tmp251 = einsum(tmp39, (0, 1, 2), v.bbb.xvv, (0, 3, 4), (1, 3, 4, 2))
    .set 98 (.ein [(32, [0, 1, 2]), (8, [0, 3, 4])] [1, 3, 4, 2]) 1 1,
    -- 6381: tmp250 = einsum(v.baa.xoo, (0, 1, 2), v.bbb.xvv, (0, 3, 4), (1, 2, 3, 4))
    .set 99 (.ein [(9, [0, 1, 2]), (8, [0, 3, 4])] [1, 2, 3, 4]) 1 1,
    -- 6382: tmp246 = einsum(v.bbb.xoo, (0, 1, 2), v.bbb.xvv, (0, 3, 4), (1, 2, 3, 4))
    .set 100 (.ein [(10, [0, 1, 2]), (8, [0, 3, 4])] [1, 2, 3, 4]) 1 1,
    -- 6383: tmp239 = einsum(tmp39, (0, 1, 2), v.bbb.xov, (0, 1, 3), (3, 2))
    .set 101 (.ein [(32, [0, 1, 2]), (2, [0, 1, 3])] [3, 2]) 1 1,
    -- 6384: tmp221 = einsum(t1.bb, (0, 1), tmp220, (2, 0), (2, 1))
    .set 102 (.ein [(3, [0, 1]), (41, [2, 0])] [2, 1]) 1 1,
    -- 6385: tmp218 = einsum(t1.aa, (0, 1), tmp217, (2, 0), (2, 1))
    .set 103 (.ein [(1, [0, 1]), (42, [2, 0])] [2, 1]) 1 1,
    -- 6386: tmp216 = einsum(tmp215, (0, 1), t1.bb, (1, 2), (0, 2))
    .set 104 (.ein [(43, [0, 1]), (3, [1, 2])] [0, 2]) 1 1,
    -- 6387: tmp214 = einsum(tmp213, (0, 1), t1.bb, (1, 2), (0, 2))
    .set 105 (.ein [(44, [0, 1]), (3, [1, 2])] [0, 2]) 1 1,
    -- 6388: tmp211 = einsum(t1.aa, (0, 1), tmp210, (2, 0), (2, 1))
    .set 106 (.ein [(1, [0, 1]), (45, [2, 0])] [2, 1]) 1 1,
    -- 6389: tmp208 = einsum(t1.aa, (0, 1), tmp207, (2, 0), (2, 1))
    .set 107 (.ein [(1, [0, 1]), (46, [2, 0])] [2, 1]) 1 1,
    -- 6390: tmp206 = einsum(tmp39, (0, 1, 2), v.baa.xov, (0, 3, 4), (3, 1, 4, 2))
    .set 108 (.ein [(32, [0, 1, 2]), (0, [0, 3, 4])] [3, 1, 4, 2]) 1 1,
    -- 6391: tmp205 = einsum(v.baa.xvv, (0, 1, 2), tmp109, (0, 3, 4), (3, 4, 1, 2))
    .set 109 (.ein [(7, [0, 1, 2]), (19, [0, 3, 4])] [3, 4, 1, 2]) 1 1,
    -- 6392: tmp203 = einsum(tmp30, (0, 1, 2), v.baa.xov, (0, 3, 4), (1, 3, 4, 2))
    .set 110 (.ein [(31, [0, 1, 2]), (0, [0, 3, 4])] [1, 3, 4, 2]) 1 1,
    -- 6393: tmp201 = einsum(tmp101, (0, 1, 2), v.baa.xvv, (0, 3, 4), (1, 2, 3, 4))
    .set 111 (.ein [(20, [0, 1, 2]), (7, [0, 3, 4])] [1, 2, 3, 4]) 1 1,
    -- 6394: tmp199 = einsum(t1.aa, (0, 1), tmp33, (2, 1), (0, 2))
    .set 112 (.ein [(1, [0, 1]), (47, [2, 1])] [0, 2]) 1 1,
    -- 6395: tmp198 = einsum(tmp197, (0, 1), t1.bb, (2, 1), (2, 0))
    .set 113 (.ein [(48, [0, 1]), (3, [2, 1])] [2, 0]) 1 1,
    -- 6396: tmp196 = einsum(tmp39, (0, 1, 2), tmp109, (0, 3, 1), (3, 2))
    .set 114 (.ein [(32, [0, 1, 2]), (19, [0, 3, 1])] [3, 2]) 1 1,
    -- 6397: tmp195 = einsum(tmp194, (0, 1), t1.bb, (2, 1), (2, 0))
    .set 115 (.ein [(49, [0, 1]), (3, [2, 1])] [2, 0]) 1 1,
    -- 6398: tmp192 = einsum(tmp101, (0, 1, 2), tmp30, (0, 2, 3), (1, 3))
    .set 116 (.ein [(20, [0, 1, 2]), (31, [0, 2, 3])] [1, 3]) 1 1,
    -- 6399: tmp190 = einsum(t1.aa, (0, 1), tmp29, (2, 1), (0, 2))
    .set 117 (.ein [(1, [0, 1]), (50, [2, 1])] [0, 2]) 1 1,
    -- 6400: tmp185 = einsum(tmp184, (0, 1), t1.bb, (1, 2), (0, 2))
    .set 118 (.ein [(51, [0, 1]), (3, [1, 2])] [0, 2]) 1 1,
    -- 6401: tmp182 = einsum(t1.aa, (0, 1), tmp181, (2, 0), (2, 1))
    .set 119 (.ein [(1, [0, 1]), (52, [2, 0])] [2, 1]) 1 1,
    -- 6402: tmp180 = einsum(t1.bb, (0, 1), tmp179, (2, 0), (2, 1))
    .set 120 (.ein [(3, [0, 1]), (53, [2, 0])] [2, 1]) 1 1,
    -- 6403: tmp178 = einsum(tmp177, (0, 1), t1.bb, (1, 2), (0, 2))
    .set 121 (.ein [(54, [0, 1]), (3, [1, 2])] [0, 2]) 1 1,
    -- 6404: tmp175 = einsum(t1.aa, (0, 1), tmp174, (2, 0), (2, 1))
    .set 122 (.ein [(1, [0, 1]), (55, [2, 0])] [2, 1]) 1 1,
    -- 6405: tmp172 = einsum(t1.aa, (0, 1), tmp171, (2, 0), (2, 1))
    .set 123 (.ein [(1, [0, 1]), (56, [2, 0])] [2, 1]) 1 1,
    -- 6406: tmp170 = einsum(t2.abab, (0, 1, 2, 3), tmp49, (0, 4, 5, 3), (1, 4, 2, 5))
    .set 124 (.ein [(4, [0, 1, 2, 3]), (33, [0, 4, 5, 3])] [1, 4, 2, 5]) 1 1,
    -- 6407: tmp168 = einsum(tmp81, (0, 1, 2), v.baa.xov, (0, 3, 4), (3, 1, 4, 2))
    .set 125 (.ein [(29, [0, 1, 2]), (0, [0, 3, 4])] [3, 1, 4, 2]) 1 1,
    -- 6408: tmp166 = einsum(v.baa.xov, (0, 1, 2), tmp60, (0, 3, 4), (3, 1, 4, 2))
    .set 126 (.ein [(0, [0, 1, 2]), (27, [0, 3, 4])] [3, 1, 4, 2]) 1 1,
    -- 6409: tmp165 = einsum(tmp44, (0, 1, 2, 3), t2.abab, (0, 4, 3, 5), (1, 4, 2, 5))
    .set 127 (.ein [(57, [0, 1, 2, 3]), (4, [0, 4, 3, 5])] [1, 4, 2, 5]) 1 1,
    -- 6410: tmp163 = einsum(tmp44, (0, 1, 2, 3), t2.aaaa, (4, 0, 5, 3), (4, 1, 5, 2))
    .set 128 (.ein [(57, [0, 1, 2, 3]), (6, [4, 0, 5, 3])] [4, 1, 5, 2]) 1 1,
    -- 6411: tmp162 = einsum(tmp84, (0, 1, 2), v.baa.xov, (0, 3, 4), (3, 1, 4, 2))
    .set 129 (.ein [(28, [0, 1, 2]), (0, [0, 3, 4])] [3, 1, 4, 2]) 1 1,
    -- 6412: tmp160 = einsum(v.baa.xov, (0, 1, 2), tmp57, (0, 3, 4), (3, 1, 4, 2))
    .set 130 (.ein [(0, [0, 1, 2]), (30, [0, 3, 4])] [3, 1, 4, 2]) 1 1,
    -- 6413: tmp158 = einsum(t1.aa, (0, 1), tmp157, (2, 0), (2, 1))
    .set 131 (.ein [(1, [0, 1]), (58, [2, 0])] [2, 1]) 1 1,
    -- 6414: tmp155 = einsum(tmp154, (0, 1), t1.bb, (1, 2), (0, 2))
    .set 132 (.ein [(59, [0, 1]), (3, [1, 2])] [0, 2]) 1 1,
    -- 6415: tmp152 = einsum(tmp151, (0, 1), t1.bb, (1, 2), (0, 2))
    .set 133 (.ein [(60, [0, 1]), (3, [1, 2])] [0, 2]) 1 1,
    -- 6416: tmp149 = einsum(t1.aa, (0, 1), tmp148, (2, 0), (2, 1))
    .set 134 (.ein [(1, [0, 1]), (61, [2, 0])] [2, 1]) 1 1,
    -- 6417: tmp146 = einsum(t2.abab, (0, 1, 2, 3), tmp141, (0, 4, 1, 5), (4, 2, 5, 3))
    .set 135 (.ein [(4, [0, 1, 2, 3]), (62, [0, 4, 1, 5])] [4, 2, 5, 3]) 1 1,
    -- 6418: tmp144 = einsum(t2.aaaa, (0, 1, 2, 3), tmp132, (4, 0, 1, 5), (4, 2, 3, 5))
    .set 136 (.ein [(6, [0, 1, 2, 3]), (63, [4, 0, 1, 5])] [4, 2, 3, 5]) 1 1,
    -- 6419: tmp142 = einsum(t2.abab, (0, 1, 2, 3), tmp141, (0, 4, 1, 2), (4, 3))
    .set 137 (.ein [(4, [0, 1, 2, 3]), (62, [0, 4, 1, 2])] [4, 3]) 1 1,
    -- 6420: tmp139 = einsum(t2.abab, (0, 1, 2, 3), tmp138, (4, 0, 1, 3), (4, 2))
    .set 138 (.ein [(4, [0, 1, 2, 3]), (35, [4, 0, 1, 3])] [4, 2]) 1 1,
    -- 6421: tmp136 = einsum(tmp135, (0, 1, 2, 3), t2.bbbb, (2, 1, 4, 3), (0, 4))
    .set 139 (.ein [(36, [0, 1, 2, 3]), (5, [2, 1, 4, 3])] [0, 4]) 1 1,
    -- 6422: tmp133 = einsum(t2.aaaa, (0, 1, 2, 3), tmp132, (4, 1, 0, 3), (4, 2))
    .set 140 (.ein [(6, [0, 1, 2, 3]), (63, [4, 1, 0, 3])] [4, 2]) 1 1,
    -- 6423: tmp124 = einsum(tmp41, (0, 1), t2.bbbb, (2, 0, 3, 1), (2, 3))
    .set 141 (.ein [(21, [0, 1]), (5, [2, 0, 3, 1])] [2, 3]) 1 1,
    -- 6424: tmp122 = einsum(t2.abab, (0, 1, 2, 3), tmp41, (1, 3), (0, 2))
    .set 142 (.ein [(4, [0, 1, 2, 3]), (21, [1, 3])] [0, 2]) 1 1,
    -- 6425: tmp121 = einsum(t2.abab, (0, 1, 2, 3), tmp42, (0, 2), (1, 3))
    .set 143 (.ein [(4, [0, 1, 2, 3]), (22, [0, 2])] [1, 3]) 1 1,
    -- 6426: tmp119 = einsum(tmp42, (0, 1), t2.aaaa, (2, 0, 3, 1), (2, 3))
    .set 144 (.ein [(22, [0, 1]), (6, [2, 0, 3, 1])] [2, 3]) 1 1,
    -- 6427: tmp117 = einsum(tmp38, (0, 1), t2.bbbb, (2, 0, 3, 1), (2, 3))
    .set 145 (.ein [(23, [0, 1]), (5, [2, 0, 3, 1])] [2, 3]) 1 1,
    -- 6428: tmp115 = einsum(tmp38, (0, 1), t2.abab, (2, 0, 3, 1), (2, 3))
    .set 146 (.ein [(23, [0, 1]), (4, [2, 0, 3, 1])] [2, 3]) 1 1,
    -- 6429: tmp113 = einsum(tmp110, (0, 1), t2.bbbb, (2, 0, 3, 1), (2, 3))
    .set 147 (.ein [(24, [0, 1]), (5, [2, 0, 3, 1])] [2, 3]) 1 1,
    -- 6430: tmp111 = einsum(t2.abab, (0, 1, 2, 3), tmp110, (1, 3), (0, 2))
    .set 148 (.ein [(4, [0, 1, 2, 3]), (24, [1, 3])] [0, 2]) 1 1,
    -- 6431: tmp108 = einsum(t2.abab, (0, 1, 2, 3), tmp34, (0, 2), (1, 3))
    .set 149 (.ein [(4, [0, 1, 2, 3]), (25, [0, 2])] [1, 3]) 1 1,
    -- 6432: tmp106 = einsum(tmp34, (0, 1), t2.aaaa, (2, 0, 3, 1), (2, 3))
    .set 150 (.ein [(25, [0, 1]), (6, [2, 0, 3, 1])] [2, 3]) 1 1,
    -- 6433: tmp105 = einsum(t2.abab, (0, 1, 2, 3), tmp102, (0, 2), (1, 3))
    .set 151 (.ein [(4, [0, 1, 2, 3]), (26, [0, 2])] [1, 3]) 1 1,
    -- 6434: tmp103 = einsum(tmp102, (0, 1), t2.aaaa, (2, 0, 3, 1), (2, 3))
    .set 152 (.ein [(26, [0, 1]), (6, [2, 0, 3, 1])] [2, 3]) 1 1,
    -- 6435: tmp100 = einsum(t2.abab, (0, 1, 2, 3), tmp99, (0, 4, 3, 5), (1, 2, 4, 5))
    .set 153 (.ein [(4, [0, 1, 2, 3]), (64, [0, 4, 3, 5])] [1, 2, 4, 5]) 1 1,
    -- 6436: tmp97 = einsum(tmp81, (0, 1, 2), v.baa.xvv, (0, 3, 4), (1, 3, 4, 2))
    .set 154 (.ein [(29, [0, 1, 2]), (7, [0, 3, 4])] [1, 3, 4, 2]) 1 1,
    -- 6437: tmp95 = einsum(tmp60, (0, 1, 2), v.baa.xvv, (0, 3, 4), (1, 2, 3, 4))
    .set 155 (.ein [(27, [0, 1, 2]), (7, [0, 3, 4])] [1, 2, 3, 4]) 1 1,
    -- 6438: tmp94 = einsum(t2.abab, (0, 1, 2, 3), tmp24, (0, 4, 2, 5), (1, 5, 4, 3))
    .set 156 (.ein [(4, [0, 1, 2, 3]), (65, [0, 4, 2, 5])] [1, 5, 4, 3]) 1 1,
    -- 6439: tmp92 = einsum(t2.aaaa, (0, 1, 2, 3), tmp24, (1, 3, 4, 5), (0, 2, 5, 4))
    .set 157 (.ein [(6, [0, 1, 2, 3]), (65, [1, 3, 4, 5])] [0, 2, 5, 4]) 1 1,
    -- 6440: tmp91 = einsum(v.baa.xvv, (0, 1, 2), tmp84, (0, 3, 4), (3, 1, 2, 4))
    .set 158 (.ein [(7, [0, 1, 2]), (28, [0, 3, 4])] [3, 1, 2, 4]) 1 1,
    -- 6441: tmp89 = einsum(v.baa.xvv, (0, 1, 2), tmp57, (0, 3, 4), (3, 4, 1, 2))
    .set 159 (.ein [(7, [0, 1, 2]), (30, [0, 3, 4])] [3, 4, 1, 2]) 1 1,
    -- 6442: tmp87 = einsum(v.baa.xvv, (0, 1, 2), tmp60, (0, 3, 2), (3, 1))
    .set 160 (.ein [(7, [0, 1, 2]), (27, [0, 3, 2])] [3, 1]) 1 1,
    -- 6443: tmp85 = einsum(v.bbb.xvv, (0, 1, 2), tmp84, (0, 3, 2), (3, 1))
    .set 161 (.ein [(8, [0, 1, 2]), (28, [0, 3, 2])] [3, 1]) 1 1,
    -- 6444: tmp82 = einsum(tmp81, (0, 1, 2), v.bbb.xvv, (0, 3, 2), (1, 3)) * -1
    .set 162 (.ein [(29, [0, 1, 2]), (8, [0, 3, 2])] [1, 3]) (-1) 1,
    -- 6445: tmp79 = einsum(v.baa.xvv, (0, 1, 2), tmp57, (0, 3, 2), (3, 1)) * -1
    .set 163 (.ein [(7, [0, 1, 2]), (30, [0, 3, 2])] [3, 1]) (-1) 1,
    -- 6446: tmp77 = einsum(t2.abab, (0, 1, 2, 3), tmp69, (0, 1, 4, 5), (4, 2, 5, 3))
    .set 164 (.ein [(4, [0, 1, 2, 3]), (66, [0, 1, 4, 5])] [4, 2, 5, 3]) 1 1,
    -- 6447: tmp75 = einsum(t2.aaaa, (0, 1, 2, 3), tmp63, (4, 0, 1, 5), (4, 2, 3, 5))
    .set 165 (.ein [(6, [0, 1, 2, 3]), (67, [4, 0, 1, 5])] [4, 2, 3, 5]) 1 1,
    -- 6448: tmp73 = einsum(t2.abab, (0, 1, 2, 3), tmp72, (4, 0, 1, 3), (4, 2))
    .set 166 (.ein [(4, [0, 1, 2, 3]), (39, [4, 0, 1, 3])] [4, 2]) 1 1,
    -- 6449: tmp70 = einsum(t2.abab, (0, 1, 2, 3), tmp69, (0, 1, 4, 2), (4, 3))
    .set 167 (.ein [(4, [0, 1, 2, 3]), (66, [0, 1, 4, 2])] [4, 3]) 1 1,
    -- 6450: tmp67 = einsum(tmp66, (0, 1, 2, 3), t2.bbbb, (0, 2, 4, 3), (1, 4))
    .set 168 (.ein [(40, [0, 1, 2, 3]), (5, [0, 2, 4, 3])] [1, 4]) 1 1,
    -- 6451: tmp64 = einsum(tmp63, (0, 1, 2, 3), t2.aaaa, (1, 2, 4, 3), (0, 4))
    .set 169 (.ein [(67, [0, 1, 2, 3]), (6, [1, 2, 4, 3])] [0, 4]) 1 1,
    -- 6452: tmp61 = einsum(tmp60, (0, 1, 2), v.baa.xov, (0, 1, 3), (2, 3))
    .set 170 (.ein [(27, [0, 1, 2]), (0, [0, 1, 3])] [2, 3]) 1 1,
    -- 6453: tmp58 = einsum(v.baa.xov, (0, 1, 2), tmp57, (0, 1, 3), (3, 2))
    .set 171 (.ein [(0, [0, 1, 2]), (30, [0, 1, 3])] [3, 2]) 1 1,
    -- 6454: tmp55 = einsum(tmp39, (0, 1, 2), v.baa.xvv, (0, 3, 4), (1, 3, 4, 2))
    .set 172 (.ein [(32, [0, 1, 2]), (7, [0, 3, 4])] [1, 3, 4, 2]) 1 1,
    -- 6455: tmp53 = einsum(v.baa.xvv, (0, 1, 2), tmp30, (0, 3, 4), (3, 1, 2, 4))
    .set 173 (.ein [(7, [0, 1, 2]), (31, [0, 3, 4])] [3, 1, 2, 4]) 1 1,
    -- 6456: tmp52 = einsum(v.baa.xvv, (0, 1, 2), v.bbb.xoo, (0, 3, 4), (3, 4, 1, 2))
    .set 174 (.ein [(7, [0, 1, 2]), (10, [0, 3, 4])] [3, 4, 1, 2]) 1 1,
    -- 6457: tmp47 = einsum(v.baa.xvv, (0, 1, 2), v.baa.xoo, (0, 3, 4), (3, 4, 1, 2))
    .set 175 (.ein [(7, [0, 1, 2]), (9, [0, 3, 4])] [3, 4, 1, 2]) 1 1,
    -- 6458: tmp40 = einsum(tmp39, (0, 1, 2), v.bbb.xoo, (0, 3, 1), (3, 2))
    .set 176 (.ein [(32, [0, 1, 2]), (10, [0, 3, 1])] [3, 2]) 1 1,
    -- 6459: tmp36 = einsum(tmp30, (0, 1, 2), v.baa.xoo, (0, 3, 1), (3, 2))
    .set 177 (.ein [(31, [0, 1, 2]), (9, [0, 3, 1])] [3, 2]) 1 1,
    -- 6460: tmp31 = einsum(tmp30, (0, 1, 2), v.baa.xov, (0, 1, 3), (3, 2))
    .set 178 (.ein [(31, [0, 1, 2]), (0, [0, 1, 3])] [3, 2]) 1 1,
    -- 6461: tmp23 = einsum(tmp22, (0, 1), t1.bb, (0, 2), (1, 2))
    .set 179 (.ein [(68, [0, 1]), (3, [0, 2])] [1, 2]) 1 1,
    -- 6462: tmp20 = einsum(tmp19, (0, 1), t1.aa, (0, 2), (1, 2))
    .set 180 (.ein [(69, [0, 1]), (1, [0, 2])] [1, 2]) 1 1,
    -- 6463: tmp13 = einsum(t2.bbbb, (0, 1, 2, 3), f.bb.ov, (1, 3), (0, 2))
    .set 181 (.ein [(5, [0, 1, 2, 3]), (11, [1, 3])] [0, 2]) 1 1,
    -- 6464: tmp11 = einsum(t2.abab, (0, 1, 2, 3), f.bb.ov, (1, 3), (0, 2))
    .set 182 (.ein [(4, [0, 1, 2, 3]), (11, [1, 3])] [0, 2]) 1 1,
    -- 6465: tmp10 = einsum(t2.abab, (0, 1, 2, 3), f.aa.ov, (0, 2), (1, 3))
    .set 183 (.ein [(4, [0, 1, 2, 3]), (12, [0, 2])] [1, 3]) 1 1,
    -- 6466: tmp8 = einsum(f.aa.ov, (0, 1), t2.aaaa, (2, 0, 3, 1), (2, 3))
    .set 184 (.ein [(12, [0, 1]), (6, [2, 0, 3, 1])] [2, 3]) 1 1,
    -- 6467: tmp7 = einsum(f.bb.vv, (0, 1), t1.bb, (2, 1), (2, 0))
    .set 185 (.ein [(13, [0, 1]), (3, [2, 1])] [2, 0]) 1 1,
    -- 6468: tmp5 = einsum(t1.aa, (0, 1), f.aa.vv, (2, 1), (0, 2))
    .set 186 (.ein [(1, [0, 1]), (14, [2, 1])] [0, 2]) 1 1,
    -- 6469: tmp4 = einsum(t1.bb, (0, 1), f.bb.oo, (2, 0), (2, 1))
    .set 187 (.ein [(3, [0, 1]), (15, [2, 0])] [2, 1]) 1 1,
    -- 6470: tmp2 = einsum(f.aa.oo, (0, 1), t1.aa, (1, 2), (0, 2))
    .set 188 (.ein [(16, [0, 1]), (1, [1, 2])] [0, 2]) 1 1
  ]
  ret := [(chars! "tmp10", 183), (chars! "tmp100", 153), (chars! "tmp101", 20), (chars! "tmp102", 26), (chars! "tmp103", 152), (chars! "tmp105", 151), (chars! "tmp106", 150), (chars! "tmp108", 149), (chars! "tmp109", 19), (chars! "tmp11", 182), (chars! "tmp110", 24), (chars! "tmp111", 148), (chars! "tmp113", 147), (chars! "tmp115", 146), (chars! "tmp117", 145), (chars! "tmp119", 144), (chars! "tmp121", 143), (chars! "tmp122", 142), (chars! "tmp124", 141), (chars! "tmp13", 181), (chars! "tmp132", 63), (chars! "tmp133", 140), (chars! "tmp135", 36), (chars! "tmp136", 139), (chars! "tmp138", 35), (chars! "tmp139", 138), (chars! "tmp141", 62), (chars! "tmp142", 137), (chars! "tmp144", 136), (chars! "tmp146", 135), (chars! "tmp148", 61), (chars! "tmp149", 134), (chars! "tmp151", 60), (chars! "tmp152", 133), (chars! "tmp154", 59), (chars! "tmp155", 132), (chars! "tmp157", 58), (chars! "tmp158", 131), (chars! "tmp160", 130), (chars! "tmp162", 129), (chars! "tmp163", 128), (chars! "tmp165", 127), (chars! "tmp166", 126), (chars! "tmp168", 125), (chars! "tmp170", 124), (chars! "tmp171", 56), (chars! "tmp172", 123), (chars! "tmp174", 55), (chars! "tmp175", 122), (chars! "tmp177", 54), (chars! "tmp178", 121), (chars! "tmp179", 53), (chars! "tmp180", 120), (chars! "tmp181", 52), (chars! "tmp182", 119), (chars! "tmp184", 51), (chars! "tmp185", 118), (chars! "tmp19", 69), (chars! "tmp190", 117), (chars! "tmp192", 116), (chars! "tmp194", 49), (chars! "tmp195", 115), (chars! "tmp196", 114), (chars! "tmp197", 48), (chars! "tmp198", 113), (chars! "tmp199", 112), (chars! "tmp2", 188), (chars! "tmp20", 180), (chars! "tmp201", 111), (chars! "tmp203", 110), (chars! "tmp205", 109), (chars! "tmp206", 108), (chars! "tmp207", 46), (chars! "tmp208", 107), (chars! "tmp210", 45), (chars! "tmp211", 106), (chars! "tmp213", 44), (chars! "tmp214", 105), (chars! "tmp215", 43), (chars! "tmp216", 104), (chars! "tmp217", 42), (chars! "tmp218", 103), (chars! "tmp22", 68), (chars! "tmp220", 41), (chars! "tmp221", 102), (chars! "tmp23", 179), (chars! "tmp236", 38), (chars! "tmp239", 101), (chars! "tmp24", 65), (chars! "tmp243", 34), (chars! "tmp246", 100), (chars! "tmp250", 99), (chars! "tmp251", 98), (chars! "tmp253", 97), (chars! "tmp255", 96), (chars! "tmp257", 95), (chars! "tmp26", 37), (chars! "tmp263", 94), (chars! "tmp265", 93), (chars! "tmp271", 92), (chars! "tmp272", 91), (chars! "tmp274", 90), (chars! "tmp275", 89), (chars! "tmp277", 88), (chars! "tmp279", 87), (chars! "tmp281", 86), (chars! "tmp29", 50), (chars! "tmp30", 31), (chars! "tmp301", 85), (chars! "tmp303", 84), (chars! "tmp309", 83), (chars! "tmp31", 178), (chars! "tmp310", 82), (chars! "tmp312", 81), (chars! "tmp313", 80), (chars! "tmp315", 79), (chars! "tmp317", 78), (chars! "tmp319", 77), (chars! "tmp33", 47), (chars! "tmp330", 76), (chars! "tmp332", 75), (chars! "tmp334", 74), (chars! "tmp335", 73), (chars! "tmp34", 25), (chars! "tmp36", 177), (chars! "tmp38", 23), (chars! "tmp387", 72), (chars! "tmp39", 32), (chars! "tmp4", 187), (chars! "tmp40", 176), (chars! "tmp41", 21), (chars! "tmp42", 22), (chars! "tmp426", 71), (chars! "tmp44", 57), (chars! "tmp47", 175), (chars! "tmp49", 33), (chars! "tmp490", 70), (chars! "tmp5", 186), (chars! "tmp52", 174), (chars! "tmp53", 173), (chars! "tmp55", 172), (chars! "tmp57", 30), (chars! "tmp58", 171), (chars! "tmp60", 27), (chars! "tmp61", 170), (chars! "tmp63", 67), (chars! "tmp64", 169), (chars! "tmp66", 40), (chars! "tmp67", 168), (chars! "tmp69", 66), (chars! "tmp7", 185), (chars! "tmp70", 167), (chars! "tmp72", 39), (chars! "tmp73", 166), (chars! "tmp75", 165), (chars! "tmp77", 164), (chars! "tmp79", 163), (chars! "tmp8", 184), (chars! "tmp81", 29), (chars! "tmp82", 162), (chars! "tmp84", 28), (chars! "tmp85", 161), (chars! "tmp87", 160), (chars! "tmp89", 159), (chars! "tmp91", 158), (chars! "tmp92", 157), (chars! "tmp94", 156), (chars! "tmp95", 155), (chars! "tmp97", 154), (chars! "tmp99", 64)]

/-- codegen/UDFCCSD.py:6474-7259 `hbar_lmatvec_ea`. -/
def hbar_lmatvec_ea : GenFun where
  args := [chars! "ints.tmp101", chars! "v.baa.xoo", chars! "t1.aa", chars! "f.bb.ov", chars! "ints.tmp38", chars! "ints.tmp41", chars! "ints.tmp109", chars! "v.bbb.xoo", chars! "t1.bb", chars! "r2.bbb", chars! "ints.tmp30", chars! "ints.tmp57", chars! "ints.tmp60", chars! "v.baa.xov", chars! "ints.tmp39", chars! "ints.tmp84", chars! "v.bbb.xov", chars! "ints.tmp81", chars! "f.aa.ov", chars! "ints.tmp34", chars! "ints.tmp42", chars! "r2.aaa", chars! "r2.bab", chars! "t2.bbbb", chars! "r1.b", chars! "r2.aba", chars! "ints.tmp110", chars! "ints.tmp102", chars! "t2.abab", chars! "r1.a", chars! "t2.aaaa", chars! "ints.tmp246", chars! "ints.tmp330", chars! "ints.tmp313", chars! "ints.tmp239", chars! "ints.tmp135", chars! "ints.tmp66", chars! "f.bb.vv", chars! "ints.tmp194", chars! "ints.tmp197", chars! "ints.tmp255", chars! "ints.tmp257", chars! "ints.tmp201", chars! "ints.tmp47", chars! "ints.tmp163", chars! "ints.tmp31", chars! "f.aa.vv", chars! "ints.tmp29", chars! "ints.tmp33", chars! "ints.tmp58", chars! "ints.tmp61", chars! "ints.tmp132", chars! "ints.tmp63", chars! "ints.tmp236", chars! "ints.tmp243", chars! "ints.tmp312", chars! "ints.tmp141", chars! "ints.tmp69", chars! "ints.tmp138", chars! "ints.tmp72", chars! "ints.tmp165", chars! "ints.tmp24", chars! "ints.tmp44", chars! "f.bb.oo", chars! "ints.tmp151", chars! "ints.tmp154", chars! "ints.tmp179", chars! "ints.tmp184", chars! "ints.tmp215", chars! "ints.tmp220", chars! "ints.tmp22", chars! "ints.tmp177", chars! "ints.tmp213", chars! "ints.tmp170", chars! "ints.tmp205", chars! "ints.tmp52", chars! "f.aa.oo", chars! "ints.tmp148", chars! "ints.tmp157", chars! "ints.tmp174", chars! "ints.tmp181", chars! "ints.tmp19", chars! "ints.tmp210", chars! "ints.tmp217", chars! "ints.tmp171", chars! "ints.tmp207", chars! "ints.tmp319", chars! "ints.tmp250", chars! "ints.tmp334", chars! "ints.tmp310", chars! "ints.tmp317", chars! "ints.tmp332", chars! "ints.tmp253", chars! "ints.tmp265", chars! "ints.tmp271", chars! "ints.tmp277", chars! "ints.tmp303", chars! "ints.tmp99", chars! "ints.tmp274", chars! "ints.tmp281", chars! "ints.tmp105", chars! "ints.tmp113", chars! "ints.tmp136", chars! "ints.tmp142", chars! "ints.tmp152", chars! "ints.tmp155", chars! "ints.tmp180", chars! "ints.tmp185", chars! "ints.tmp196", chars! "ints.tmp216", chars! "ints.tmp221", chars! "ints.tmp23", chars! "ints.tmp40", chars! "ints.tmp4", chars! "ints.tmp67", chars! "ints.tmp70", chars! "ints.tmp82", chars! "ints.tmp108", chars! "ints.tmp10", chars! "ints.tmp117", chars! "ints.tmp121", chars! "ints.tmp124", chars! "ints.tmp13", chars! "ints.tmp178", chars! "ints.tmp195", chars! "ints.tmp198", chars! "ints.tmp214", chars! "ints.tmp7", chars! "ints.tmp85", chars! "ints.tmp251", chars! "ints.tmp275", chars! "ints.tmp301", chars! "ints.tmp263", chars! "ints.tmp272", chars! "ints.tmp279", chars! "ints.tmp309", chars! "ints.tmp315", chars! "ints.tmp335", chars! "ints.tmp49", chars! "ints.tmp103", chars! "ints.tmp111", chars! "ints.tmp133", chars! "ints.tmp139", chars! "ints.tmp149", chars! "ints.tmp158", chars! "ints.tmp175", chars! "ints.tmp182", chars! "ints.tmp192", chars! "ints.tmp20", chars! "ints.tmp211", chars! "ints.tmp218", chars! "ints.tmp2", chars! "ints.tmp36", chars! "ints.tmp64", chars! "ints.tmp73", chars! "ints.tmp79", chars! "ints.tmp106", chars! "ints.tmp115", chars! "ints.tmp119", chars! "ints.tmp11", chars! "ints.tmp122", chars! "ints.tmp172", chars! "ints.tmp190", chars! "ints.tmp199", chars! "ints.tmp208", chars! "ints.tmp5", chars! "ints.tmp87", chars! "ints.tmp8", chars! "ints.tmp160", chars! "ints.tmp166", chars! "ints.tmp203", chars! "ints.tmp146", chars! "ints.tmp26", chars! "ints.tmp55", chars! "ints.tmp77", chars! "ints.tmp91", chars! "ints.tmp97", chars! "ints.tmp100", chars! "ints.tmp94", chars! "ints.tmp144", chars! "ints.tmp53", chars! "ints.tmp92", chars! "ints.tmp75", chars! "ints.tmp89", chars! "ints.tmp95", chars! "ints.tmp162", chars! "ints.tmp168", chars! "ints.tmp206", chars! "ints.tmp490", chars! "ints.tmp426", chars! "ints.tmp387"]
  body := [
    -- 6504: tmp58 = np.copy(ints.tmp101)
    .set 191 (.cp 0) 1 1,
    -- 6505: del ints.tmp101
    .del 0,
    -- 6506: tmp58 += v.baa.xoo
    .add 191 (.cp 1) 1 1,
    -- 6507: tmp75 = einsum(t1.aa, (0, 1), tmp58, (2, 3, 0), (2, 3, 1))
    .set 192 (.ein [(2, [0, 1]), (191, [2, 3, 0])] [2, 3, 1]) 1 1,
    -- 6508: tmp101 = np.copy(f.bb.ov)
    .set 193 (.cp 3) 1 1,
    -- 6509: tmp101 += ints.tmp38
    .add 193 (.cp 4) 1 1,
    -- 6510: tmp101 += ints.tmp41
    .add 193 (.cp 5) 1 1,
    -- 6511: tmp60 = np.copy(ints.tmp109)
    .set 194 (.cp 6) 1 1,
    -- 6512: del ints.tmp109
    .del 6,
    -- 6513: tmp60 += v.bbb.xoo
    .add 194 (.cp 7) 1 1,
    -- 6514: tmp22 = einsum(t1.bb, (0, 1), r2.bbb, (2, 1, 3), (3, 0, 2))
    .set 195 (.ein [(8, [0, 1]), (9, [2, 1, 3])] [3, 0, 2]) 1 1,
    -- 6515: tmp76 = np.copy(ints.tmp30)
    .set 196 (.cp 10) 1 1,
    -- 6516: tmp76 += ints.tmp57 * 2
    .add 196 (.cp 11) 2 1,
    -- 6517: tmp76 += ints.tmp60
    .add 196 (.cp 12) 1 1,
    -- 6518: tmp76 += v.baa.xov
    .add 196 (.cp 13) 1 1,
    -- 6519: tmp76 += tmp75 * -1
    .add 196 (.cp 192) (-1) 1,
    -- 6520: del tmp75
    .del 192,
    -- 6521: tmp46 = np.copy(ints.tmp39)
    .set 197 (.cp 14) 1 1,
    -- 6522: tmp46 += ints.tmp84
    .add 197 (.cp 15) 1 1,
    -- 6523: tmp46 += v.bbb.xov
    .add 197 (.cp 16) 1 1,
    -- 6524: tmp46 += ints.tmp81 * 2
    .add 197 (.cp 17) 2 1,
    -- 6525: tmp44 = np.copy(ints.tmp30)
    .set 198 (.cp 10) 1 1,
    -- 6526: del ints.tmp30
    .del 10,
    -- 6527: tmp44 += ints.tmp60
    .add 198 (.cp 12) 1 1,
    -- 6528: del ints.tmp60
    .del 12,
    -- 6529: tmp44 += v.baa.xov
    .add 198 (.cp 13) 1 1,
    -- 6530: tmp44 += ints.tmp57 * 2
    .add 198 (.cp 11) 2 1,
    -- 6531: del ints.tmp57
    .del 11,
    -- 6532: tmp50 = np.copy(f.aa.ov)
    .set 199 (.cp 18) 1 1,
    -- 6533: tmp50 += ints.tmp34
    .add 199 (.cp 19) 1 1,
    -- 6534: tmp50 += ints.tmp42
    .add 199 (.cp 20) 1 1,
    -- 6535: tmp2 = einsum(r2.aaa, (0, 1, 2), t1.aa, (3, 1), (2, 3, 0))
    .set 200 (.ein [(21, [0, 1, 2]), (2, [3, 1])] [2, 3, 0]) 1 1,
    -- 6536: tmp6 = einsum(r2.bab, (0, 1, 2), t1.bb, (3, 0), (2, 3, 1)) * -1
    .set 201 (.ein [(22, [0, 1, 2]), (8, [3, 0])] [2, 3, 1]) (-1) 1,
    -- 6537: tmp102 = einsum(tmp101, (0, 1), t1.bb, (0, 2), (1, 2))
    .set 202 (.ein [(193, [0, 1]), (8, [0, 2])] [1, 2]) 1 1,
    -- 6538: del tmp101
    .del 193,
    -- 6539: tmp36 = einsum(r2.bbb, (0, 1, 2), t2.bbbb, (3, 2, 0, 1), (3,))
    .set 203 (.ein [(9, [0, 1, 2]), (23, [3, 2, 0, 1])] [3]) 1 1,
    -- 6540: tmp34 = einsum(r1.b, (0,), t1.bb, (1, 0), (1,))
    .set 204 (.ein [(24, [0]), (8, [1, 0])] [1]) 1 1,
    -- 6541: tmp110 = einsum(tmp60, (0, 1, 2), tmp22, (1, 2, 3), (0, 3))
    .set 205 (.ein [(194, [0, 1, 2]), (195, [1, 2, 3])] [0, 3]) 1 1,
    -- 6542: tmp109 = einsum(tmp76, (0, 1, 2), r2.aba, (2, 3, 1), (0, 3)) * 0.5
    .set 206 (.ein [(196, [0, 1, 2]), (25, [2, 3, 1])] [0, 3]) 1 2,
    -- 6543: tmp113 = einsum(ints.tmp110, (0, 1), t1.bb, (0, 2), (1, 2))
    .set 207 (.ein [(26, [0, 1]), (8, [0, 2])] [1, 2]) 1 1,
    -- 6544: tmp47 = einsum(r2.bab, (0, 1, 2), tmp46, (3, 2, 0), (3, 1)) * -1
    .set 208 (.ein [(22, [0, 1, 2]), (197, [3, 2, 0])] [3, 1]) (-1) 1,
    -- 6545: tmp45 = einsum(tmp44, (0, 1, 2), r2.aaa, (3, 2, 1), (0, 3)) * -1
    .set 209 (.ein [(198, [0, 1, 2]), (21, [3, 2, 1])] [0, 3]) (-1) 1,
    -- 6546: del tmp44
    .del 198,
    -- 6547: tmp51 = einsum(tmp50, (0, 1), t1.aa, (0, 2), (2, 1))
    .set 210 (.ein [(199, [0, 1]), (2, [0, 2])] [2, 1]) 1 1,
    -- 6548: del tmp50
    .del 199,
    -- 6549: tmp64 = einsum(ints.tmp102, (0, 1), t1.aa, (0, 2), (1, 2))
    .set 211 (.ein [(27, [0, 1]), (2, [0, 2])] [1, 2]) 1 1,
    -- 6550: tmp17 = einsum(t2.abab, (0, 1, 2, 3), r2.bab, (3, 2, 1), (0,)) * -1
    .set 212 (.ein [(28, [0, 1, 2, 3]), (22, [3, 2, 1])] [0]) (-1) 1,
    -- 6551: tmp15 = einsum(r1.a, (0,), t1.aa, (1, 0), (1,))
    .set 213 (.ein [(29, [0]), (2, [1, 0])] [1]) 1 1,
    -- 6552: tmp16 = einsum(t2.aaaa, (0, 1, 2, 3), r2.aaa, (2, 3, 1), (0,))
    .set 214 (.ein [(30, [0, 1, 2, 3]), (21, [2, 3, 1])] [0]) 1 1,
    -- 6553: tmp59 = einsum(tmp2, (0, 1, 2), tmp58, (3, 0, 1), (3, 2))
    .set 215 (.ein [(200, [0, 1, 2]), (191, [3, 0, 1])] [3, 2]) 1 1,
    -- 6554: del tmp58
    .del 191,
    -- 6555: tmp61 = einsum(tmp6, (0, 1, 2), tmp60, (3, 0, 1), (3, 2)) * 0.5
    .set 216 (.ein [(201, [0, 1, 2]), (194, [3, 0, 1])] [3, 2]) 1 2,
    -- 6556: tmp99 = einsum(r2.bbb, (0, 1, 2), tmp46, (3, 2, 1), (3, 0)) * -1
    .set 217 (.ein [(9, [0, 1, 2]), (197, [3, 2, 1])] [3, 0]) (-1) 1,
    -- 6557: del tmp46
    .del 197,
    -- 6558: tmp97 = np.copy(ints.tmp246)
    .set 218 (.cp 31) 1 1,
    -- 6559: tmp97 += ints.tmp330
    .add 218 (.cp 32) 1 1,
    -- 6560: tmp97 += ints.tmp313 * 2
    .add 218 (.cp 33) 2 1,
    -- 6561: tmp103 = np.copy(ints.tmp239)
    .set 219 (.cp 34) 1 1,
    -- 6562: tmp103 += tmp102
    .add 219 (.cp 202) 1 1,
    -- 6563: del tmp102
    .del 202,
    -- 6564: tmp35 = einsum(t2.abab, (0, 1, 2, 3), r2.aba, (2, 3, 0), (1,))
    .set 220 (.ein [(28, [0, 1, 2, 3]), (25, [2, 3, 0])] [1]) 1 1,
    -- 6565: tmp86 = np.copy(ints.tmp135)
    .set 221 (.cp 35) 1 1,
    -- 6566: tmp86 += np.transpose(ints.tmp66, (0, 2, 1, 3))
    .add 221 (.tr 36 [0, 2, 1, 3]) 1 1,
    -- 6567: tmp116 = np.copy(tmp34) * 0.5
    .set 222 (.cp 204) 1 2,
    -- 6568: tmp116 += tmp36
    .add 222 (.cp 203) 1 1,
    -- 6569: tmp111 = np.copy(tmp109)
    .set 223 (.cp 206) 1 1,
    -- 6570: del tmp109
    .del 206,
    -- 6571: tmp111 += tmp110
    .add 223 (.cp 205) 1 1,
    -- 6572: del tmp110
    .del 205,
    -- 6573: tmp114 = np.copy(f.bb.vv) * 0.5
    .set 224 (.cp 37) 1 2,
    -- 6574: tmp114 += ints.tmp194 * 0.5
    .add 224 (.cp 38) 1 2,
    -- 6575: tmp114 += ints.tmp197 * 0.5
    .add 224 (.cp 39) 1 2,
    -- 6576: tmp114 += ints.tmp255 * -1
    .add 224 (.cp 40) (-1) 1,
    -- 6577: tmp114 += ints.tmp257 * -0.5
    .add 224 (.cp 41) (-1) 2,
    -- 6578: tmp114 += np.transpose(tmp113, (1, 0)) * 0.5
    .add 224 (.tr 207 [1, 0]) 1 2,
    -- 6579: del tmp113
    .del 207,
    -- 6580: tmp19 = np.copy(f.aa.ov)
    .set 225 (.cp 18) 1 1,
    -- 6581: tmp19 += ints.tmp34
    .add 225 (.cp 19) 1 1,
    -- 6582: tmp19 += ints.tmp42
    .add 225 (.cp 20) 1 1,
    -- 6583: tmp19 += ints.tmp102 * -1
    .add 225 (.cp 27) (-1) 1,
    -- 6584: del ints.tmp102
    .del 27,
    -- 6585: tmp77 = einsum(tmp60, (0, 1, 2), t1.bb, (2, 3), (0, 1, 3))
    .set 226 (.ein [(194, [0, 1, 2]), (8, [2, 3])] [0, 1, 3]) 1 1,
    -- 6586: del tmp60
    .del 194,
    -- 6587: tmp42 = np.copy(ints.tmp201)
    .set 227 (.cp 42) 1 1,
    -- 6588: tmp42 += ints.tmp47
    .add 227 (.cp 43) 1 1,
    -- 6589: tmp42 += ints.tmp163 * 2
    .add 227 (.cp 44) 2 1,
    -- 6590: tmp48 = np.copy(tmp45) * -2
    .set 228 (.cp 209) (-2) 1,
    -- 6591: del tmp45
    .del 209,
    -- 6592: tmp48 += tmp47
    .add 228 (.cp 208) 1 1,
    -- 6593: del tmp47
    .del 208,
    -- 6594: tmp52 = np.copy(ints.tmp31)
    .set 229 (.cp 45) 1 1,
    -- 6595: tmp52 += np.transpose(tmp51, (1, 0))
    .add 229 (.tr 210 [1, 0]) 1 1,
    -- 6596: del tmp51
    .del 210,
    -- 6597: tmp65 = np.copy(f.aa.vv) * 0.5
    .set 230 (.cp 46) 1 2,
    -- 6598: tmp65 += ints.tmp29 * 0.5
    .add 230 (.cp 47) 1 2,
    -- 6599: tmp65 += ints.tmp33 * 0.5
    .add 230 (.cp 48) 1 2,
    -- 6600: tmp65 += ints.tmp58 * -1
    .add 230 (.cp 49) (-1) 1,
    -- 6601: tmp65 += ints.tmp61 * -0.5
    .add 230 (.cp 50) (-1) 2,
    -- 6602: tmp65 += np.transpose(tmp64, (1, 0)) * 0.5
    .add 230 (.tr 211 [1, 0]) 1 2,
    -- 6603: del tmp64
    .del 211,
    -- 6604: tmp67 = np.copy(tmp15) * 0.5
    .set 231 (.cp 213) 1 2,
    -- 6605: tmp67 += tmp16
    .add 231 (.cp 214) 1 1,
    -- 6606: tmp67 += tmp17 * 0.5
    .add 231 (.cp 212) 1 2,
    -- 6607: tmp56 = np.copy(ints.tmp132)
    .set 232 (.cp 51) 1 1,
    -- 6608: tmp56 += np.transpose(ints.tmp63, (0, 2, 1, 3))
    .add 232 (.tr 52 [0, 2, 1, 3]) 1 1,
    -- 6609: tmp62 = np.copy(tmp59)
    .set 233 (.cp 215) 1 1,
    -- 6610: del tmp59
    .del 215,
    -- 6611: tmp62 += tmp61
    .add 233 (.cp 216) 1 1,
    -- 6612: del tmp61
    .del 216,
    -- 6613: tmp100 = einsum(tmp99, (0, 1), v.bbb.xov, (0, 2, 3), (2, 1, 3)) * -1
    .set 234 (.ein [(217, [0, 1]), (16, [0, 2, 3])] [2, 1, 3]) (-1) 1,
    -- 6614: del tmp99
    .del 217,
    -- 6615: tmp98 = einsum(r2.bbb, (0, 1, 2), tmp97, (2, 3, 1, 4), (3, 4, 0)) * -1
    .set 235 (.ein [(9, [0, 1, 2]), (218, [2, 3, 1, 4])] [3, 4, 0]) (-1) 1,
    -- 6616: del tmp97
    .del 218,
    -- 6617: tmp95 = einsum(r1.b, (0,), ints.tmp236, (1, 2, 0, 3), (1, 2, 3))
    .set 236 (.ein [(24, [0]), (53, [1, 2, 0, 3])] [1, 2, 3]) 1 1,
    -- 6618: tmp104 = einsum(r2.bbb, (0, 1, 2), tmp103, (3, 1), (2, 3, 0)) * -1
    .set 237 (.ein [(9, [0, 1, 2]), (219, [3, 1])] [2, 3, 0]) (-1) 1,
    -- 6619: del tmp103
    .del 219,
    -- 6620: tmp96 = einsum(tmp35, (0,), ints.tmp243, (0, 1, 2, 3), (1, 2, 3))
    .set 238 (.ein [(220, [0]), (54, [0, 1, 2, 3])] [1, 2, 3]) 1 1,
    -- 6621: tmp106 = einsum(r2.aba, (0, 1, 2), ints.tmp312, (2, 3, 0, 4), (3, 4, 1))
    .set 239 (.ein [(25, [0, 1, 2]), (55, [2, 3, 0, 4])] [3, 4, 1]) 1 1,
    -- 6622: tmp108 = einsum(tmp22, (0, 1, 2), tmp86, (0, 1, 3, 4), (3, 4, 2)) * 2
    .set 240 (.ein [(195, [0, 1, 2]), (221, [0, 1, 3, 4])] [3, 4, 2]) 2 1,
    -- 6623: tmp107 = einsum(ints.tmp236, (0, 1, 2, 3), tmp22, (4, 0, 2), (4, 1, 3))
    .set 241 (.ein [(53, [0, 1, 2, 3]), (195, [4, 0, 2])] [4, 1, 3]) 1 1,
    -- 6624: tmp117 = einsum(tmp116, (0,), ints.tmp243, (0, 1, 2, 3), (1, 2, 3)) * 2
    .set 242 (.ein [(222, [0]), (54, [0, 1, 2, 3])] [1, 2, 3]) 2 1,
    -- 6625: del tmp116
    .del 222,
    -- 6626: tmp112 = einsum(v.bbb.xov, (0, 1, 2), tmp111, (0, 3), (1, 3, 2)) * 2
    .set 243 (.ein [(16, [0, 1, 2]), (223, [0, 3])] [1, 3, 2]) 2 1,
    -- 6627: del tmp111
    .del 223,
    -- 6628: tmp115 = einsum(tmp114, (0, 1), r2.bbb, (2, 0, 3), (3, 1, 2)) * -4
    .set 244 (.ein [(224, [0, 1]), (9, [2, 0, 3])] [3, 1, 2]) (-4) 1,
    -- 6629: del tmp114
    .del 224,
    -- 6630: tmp84 = np.copy(ints.tmp141)
    .set 245 (.cp 56) 1 1,
    -- 6631: tmp84 += ints.tmp69
    .add 245 (.cp 57) 1 1,
    -- 6632: tmp80 = einsum(tmp19, (0, 1), t1.aa, (0, 2), (2, 1))
    .set 246 (.ein [(225, [0, 1]), (2, [0, 2])] [2, 1]) 1 1,
    -- 6633: tmp88 = np.copy(t2.abab)
    .set 247 (.cp 28) 1 1,
    -- 6634: tmp88 += einsum(t1.bb, (0, 1), t1.aa, (2, 3), (2, 0, 3, 1))
    .add 247 (.ein [(8, [0, 1]), (2, [2, 3])] [2, 0, 3, 1]) 1 1,
    -- 6635: tmp78 = np.copy(ints.tmp39)
    .set 248 (.cp 14) 1 1,
    -- 6636: del ints.tmp39
    .del 14,
    -- 6637: tmp78 += ints.tmp81 * 2
    .add 248 (.cp 17) 2 1,
    -- 6638: del ints.tmp81
    .del 17,
    -- 6639: tmp78 += ints.tmp84
    .add 248 (.cp 15) 1 1,
    -- 6640: del ints.tmp84
    .del 15,
    -- 6641: tmp78 += v.bbb.xov
    .add 248 (.cp 16) 1 1,
    -- 6642: tmp78 += tmp77 * -1
    .add 248 (.cp 226) (-1) 1,
    -- 6643: del tmp77
    .del 226,
    -- 6644: tmp38 = np.copy(f.bb.ov)
    .set 249 (.cp 3) 1 1,
    -- 6645: tmp38 += ints.tmp38
    .add 249 (.cp 4) 1 1,
    -- 6646: tmp38 += ints.tmp41
    .add 249 (.cp 5) 1 1,
    -- 6647: tmp38 += ints.tmp110 * -1
    .add 249 (.cp 26) (-1) 1,
    -- 6648: del ints.tmp110
    .del 26,
    -- 6649: tmp30 = np.copy(ints.tmp138)
    .set 250 (.cp 58) 1 1,
    -- 6650: del ints.tmp138
    .del 58,
    -- 6651: tmp30 += ints.tmp72
    .add 250 (.cp 59) 1 1,
    -- 6652: del ints.tmp72
    .del 59,
    -- 6653: tmp73 = np.copy(t2.abab)
    .set 251 (.cp 28) 1 1,
    -- 6654: tmp73 += einsum(t1.bb, (0, 1), t1.aa, (2, 3), (2, 0, 3, 1))
    .add 251 (.ein [(8, [0, 1]), (2, [2, 3])] [2, 0, 3, 1]) 1 1,
    -- 6655: tmp43 = einsum(r2.aaa, (0, 1, 2), tmp42, (2, 3, 1, 4), (3, 0, 4)) * -1
    .set 252 (.ein [(21, [0, 1, 2]), (227, [2, 3, 1, 4])] [3, 0, 4]) (-1) 1,
    -- 6656: del tmp42
    .del 227,
    -- 6657: tmp41 = einsum(ints.tmp165, (0, 1, 2, 3), r2.bab, (3, 4, 1), (0, 2, 4)) * -1
    .set 253 (.ein [(60, [0, 1, 2, 3]), (22, [3, 4, 1])] [0, 2, 4]) (-1) 1,
    -- 6658: tmp40 = einsum(ints.tmp24, (0, 1, 2, 3), r1.a, (2,), (0, 1, 3))
    .set 254 (.ein [(61, [0, 1, 2, 3]), (29, [2])] [0, 1, 3]) 1 1,
    -- 6659: tmp49 = einsum(tmp48, (0, 1), v.baa.xov, (0, 2, 3), (2, 3, 1))
    .set 255 (.ein [(228, [0, 1]), (13, [0, 2, 3])] [2, 3, 1]) 1 1,
    -- 6660: del tmp48
    .del 228,
    -- 6661: tmp53 = einsum(tmp52, (0, 1), r2.aaa, (2, 1, 3), (3, 2, 0)) * -1
    .set 256 (.ein [(229, [0, 1]), (21, [2, 1, 3])] [3, 2, 0]) (-1) 1,
    -- 6662: del tmp52
    .del 229,
    -- 6663: tmp66 = einsum(r2.aaa, (0, 1, 2), tmp65, (1, 3), (2, 0, 3)) * -4
    .set 257 (.ein [(21, [0, 1, 2]), (230, [1, 3])] [2, 0, 3]) (-4) 1,
    -- 6664: del tmp65
    .del 230,
    -- 6665: tmp68 = einsum(ints.tmp44, (0, 1, 2, 3), tmp67, (0,), (1, 2, 3)) * 2
    .set 258 (.ein [(62, [0, 1, 2, 3]), (231, [0])] [1, 2, 3]) 2 1,
    -- 6666: tmp57 = einsum(tmp56, (0, 1, 2, 3), tmp2, (0, 1, 4), (2, 4, 3)) * 2
    .set 259 (.ein [(232, [0, 1, 2, 3]), (200, [0, 1, 4])] [2, 4, 3]) 2 1,
    -- 6667: tmp63 = einsum(v.baa.xov, (0, 1, 2), tmp62, (0, 3), (1, 2, 3)) * 2
    .set 260 (.ein [(13, [0, 1, 2]), (233, [0, 3])] [1, 2, 3]) 2 1,
    -- 6668: del tmp62
    .del 233,
    -- 6669: tmp55 = einsum(ints.tmp24, (0, 1, 2, 3), tmp2, (4, 0, 2), (4, 1, 3))
    .set 261 (.ein [(61, [0, 1, 2, 3]), (200, [4, 0, 2])] [4, 1, 3]) 1 1,
    -- 6670: tmp26 = einsum(t1.aa, (0, 1), r2.aba, (1, 2, 3), (3, 0, 2))
    .set 262 (.ein [(2, [0, 1]), (25, [1, 2, 3])] [3, 0, 2]) 1 1,
    -- 6671: tmp31 = einsum(t1.bb, (0, 1), tmp22, (2, 3, 1), (2, 3, 0)) * -1
    .set 263 (.ein [(8, [0, 1]), (195, [2, 3, 1])] [2, 3, 0]) (-1) 1,
    -- 6672: tmp105 = np.copy(tmp95)
    .set 264 (.cp 236) 1 1,
    -- 6673: del tmp95
    .del 236,
    -- 6674: tmp105 += tmp96
    .add 264 (.cp 238) 1 1,
    -- 6675: del tmp96
    .del 238,
    -- 6676: tmp105 += tmp98 * -2
    .add 264 (.cp 235) (-2) 1,
    -- 6677: del tmp98
    .del 235,
    -- 6678: tmp105 += tmp100 * 2
    .add 264 (.cp 234) 2 1,
    -- 6679: del tmp100
    .del 234,
    -- 6680: tmp105 += tmp104 * -2
    .add 264 (.cp 237) (-2) 1,
    -- 6681: del tmp104
    .del 237,
    -- 6682: tmp94 = einsum(r2.bbb, (0, 1, 2), t2.bbbb, (3, 4, 0, 1), (2, 3, 4))
    .set 265 (.ein [(9, [0, 1, 2]), (23, [3, 4, 0, 1])] [2, 3, 4]) 1 1,
    -- 6683: tmp93 = np.copy(f.bb.oo)
    .set 266 (.cp 63) 1 1,
    -- 6684: tmp93 += ints.tmp151 * 2
    .add 266 (.cp 64) 2 1,
    -- 6685: del ints.tmp151
    .del 64,
    -- 6686: tmp93 += ints.tmp154
    .add 266 (.cp 65) 1 1,
    -- 6687: del ints.tmp154
    .del 65,
    -- 6688: tmp93 += ints.tmp179
    .add 266 (.cp 66) 1 1,
    -- 6689: del ints.tmp179
    .del 66,
    -- 6690: tmp93 += ints.tmp184
    .add 266 (.cp 67) 1 1,
    -- 6691: del ints.tmp184
    .del 67,
    -- 6692: tmp93 += ints.tmp215
    .add 266 (.cp 68) 1 1,
    -- 6693: del ints.tmp215
    .del 68,
    -- 6694: tmp93 += ints.tmp220
    .add 266 (.cp 69) 1 1,
    -- 6695: del ints.tmp220
    .del 69,
    -- 6696: tmp93 += np.transpose(ints.tmp22, (1, 0))
    .add 266 (.tr 70 [1, 0]) 1 1,
    -- 6697: del ints.tmp22
    .del 70,
    -- 6698: tmp93 += ints.tmp177 * -1
    .add 266 (.cp 71) (-1) 1,
    -- 6699: del ints.tmp177
    .del 71,
    -- 6700: tmp93 += ints.tmp213 * -1
    .add 266 (.cp 72) (-1) 1,
    -- 6701: del ints.tmp213
    .del 72,
    -- 6702: tmp118 = np.copy(tmp106)
    .set 267 (.cp 239) 1 1,
    -- 6703: del tmp106
    .del 239,
    -- 6704: tmp118 += tmp107 * 2
    .add 267 (.cp 241) 2 1,
    -- 6705: del tmp107
    .del 241,
    -- 6706: tmp118 += tmp108
    .add 267 (.cp 240) 1 1,
    -- 6707: del tmp108
    .del 240,
    -- 6708: tmp118 += tmp112
    .add 267 (.cp 243) 1 1,
    -- 6709: del tmp112
    .del 243,
    -- 6710: tmp118 += tmp115 * -1
    .add 267 (.cp 244) (-1) 1,
    -- 6711: del tmp115
    .del 244,
    -- 6712: tmp118 += tmp117
    .add 267 (.cp 242) 1 1,
    -- 6713: del tmp117
    .del 242,
    -- 6714: tmp4 = einsum(r2.bab, (0, 1, 2), t1.aa, (3, 1), (3, 2, 0)) * -1
    .set 268 (.ein [(22, [0, 1, 2]), (2, [3, 1])] [3, 2, 0]) (-1) 1,
    -- 6715: tmp85 = np.copy(ints.tmp170)
    .set 269 (.cp 73) 1 1,
    -- 6716: tmp85 += np.transpose(ints.tmp205, (0, 1, 3, 2)) * -1
    .add 269 (.tr 74 [0, 1, 3, 2]) (-1) 1,
    -- 6717: tmp85 += np.transpose(ints.tmp52, (0, 1, 3, 2)) * -1
    .add 269 (.tr 75 [0, 1, 3, 2]) (-1) 1,
    -- 6718: tmp85 += einsum(tmp84, (0, 1, 2, 3), t1.aa, (0, 4), (1, 2, 4, 3))
    .add 269 (.ein [(245, [0, 1, 2, 3]), (2, [0, 4])] [1, 2, 4, 3]) 1 1,
    -- 6719: del tmp84
    .del 245,
    -- 6720: tmp91 = np.copy(np.transpose(ints.tmp31, (1, 0)))
    .set 270 (.tr 45 [1, 0]) 1 1,
    -- 6721: tmp91 += ints.tmp58 * 2
    .add 270 (.cp 49) 2 1,
    -- 6722: tmp91 += ints.tmp61
    .add 270 (.cp 50) 1 1,
    -- 6723: tmp91 += f.aa.vv * -1
    .add 270 (.cp 46) (-1) 1,
    -- 6724: tmp91 += np.transpose(ints.tmp29, (1, 0)) * -1
    .add 270 (.tr 47 [1, 0]) (-1) 1,
    -- 6725: tmp91 += np.transpose(ints.tmp33, (1, 0)) * -1
    .add 270 (.tr 48 [1, 0]) (-1) 1,
    -- 6726: tmp91 += tmp80
    .add 270 (.cp 246) 1 1,
    -- 6727: tmp89 = einsum(r2.bab, (0, 1, 2), tmp88, (3, 4, 1, 0), (3, 2, 4)) * -1
    .set 271 (.ein [(22, [0, 1, 2]), (247, [3, 4, 1, 0])] [3, 2, 4]) (-1) 1,
    -- 6728: del tmp88
    .del 247,
    -- 6729: tmp90 = einsum(r2.aaa, (0, 1, 2), tmp76, (3, 2, 1), (3, 0)) * 2
    .set 272 (.ein [(21, [0, 1, 2]), (196, [3, 2, 1])] [3, 0]) 2 1,
    -- 6730: tmp90 += einsum(r2.bab, (0, 1, 2), tmp78, (3, 2, 0), (3, 1)) * -1
    .add 272 (.ein [(22, [0, 1, 2]), (248, [3, 2, 0])] [3, 1]) (-1) 1,
    -- 6731: tmp87 = np.copy(ints.tmp246)
    .set 273 (.cp 31) 1 1,
    -- 6732: tmp87 += ints.tmp313 * 2
    .add 273 (.cp 33) 2 1,
    -- 6733: tmp87 += ints.tmp330
    .add 273 (.cp 32) 1 1,
    -- 6734: tmp87 += einsum(t1.bb, (0, 1), tmp86, (2, 0, 3, 4), (2, 3, 1, 4)) * -1
    .add 273 (.ein [(8, [0, 1]), (221, [2, 0, 3, 4])] [2, 3, 1, 4]) (-1) 1,
    -- 6735: del tmp86
    .del 221,
    -- 6736: tmp92 = np.copy(np.transpose(ints.tmp239, (1, 0))) * 0.5
    .set 274 (.tr 34 [1, 0]) 1 2,
    -- 6737: tmp92 += ints.tmp255
    .add 274 (.cp 40) 1 1,
    -- 6738: tmp92 += ints.tmp257 * 0.5
    .add 274 (.cp 41) 1 2,
    -- 6739: tmp92 += f.bb.vv * -0.5
    .add 274 (.cp 37) (-1) 2,
    -- 6740: tmp92 += ints.tmp194 * -0.5
    .add 274 (.cp 38) (-1) 2,
    -- 6741: tmp92 += ints.tmp197 * -0.5
    .add 274 (.cp 39) (-1) 2,
    -- 6742: tmp92 += einsum(tmp38, (0, 1), t1.bb, (0, 2), (2, 1)) * 0.5
    .add 274 (.ein [(249, [0, 1]), (8, [0, 2])] [2, 1]) 1 2,
    -- 6743: tmp83 = np.copy(tmp34) * 0.5
    .set 275 (.cp 204) 1 2,
    -- 6744: tmp83 += tmp35 * -0.5
    .add 275 (.cp 220) (-1) 2,
    -- 6745: tmp83 += tmp36
    .add 275 (.cp 203) 1 1,
    -- 6746: tmp82 = np.copy(np.transpose(ints.tmp239, (1, 0)))
    .set 276 (.tr 34 [1, 0]) 1 1,
    -- 6747: tmp82 += ints.tmp255 * 2
    .add 276 (.cp 40) 2 1,
    -- 6748: tmp82 += ints.tmp257
    .add 276 (.cp 41) 1 1,
    -- 6749: tmp82 += f.bb.vv * -1
    .add 276 (.cp 37) (-1) 1,
    -- 6750: tmp82 += np.transpose(ints.tmp194, (1, 0)) * -1
    .add 276 (.tr 38 [1, 0]) (-1) 1,
    -- 6751: tmp82 += np.transpose(ints.tmp197, (1, 0)) * -1
    .add 276 (.tr 39 [1, 0]) (-1) 1,
    -- 6752: tmp82 += einsum(tmp38, (0, 1), t1.bb, (0, 2), (2, 1))
    .add 276 (.ein [(249, [0, 1]), (8, [0, 2])] [2, 1]) 1 1,
    -- 6753: tmp70 = np.copy(f.aa.oo)
    .set 277 (.cp 76) 1 1,
    -- 6754: tmp70 += ints.tmp148 * 2
    .add 277 (.cp 77) 2 1,
    -- 6755: del ints.tmp148
    .del 77,
    -- 6756: tmp70 += ints.tmp157
    .add 277 (.cp 78) 1 1,
    -- 6757: del ints.tmp157
    .del 78,
    -- 6758: tmp70 += ints.tmp174
    .add 277 (.cp 79) 1 1,
    -- 6759: del ints.tmp174
    .del 79,
    -- 6760: tmp70 += ints.tmp181
    .add 277 (.cp 80) 1 1,
    -- 6761: del ints.tmp181
    .del 80,
    -- 6762: tmp70 += np.transpose(ints.tmp19, (1, 0))
    .add 277 (.tr 81 [1, 0]) 1 1,
    -- 6763: del ints.tmp19
    .del 81,
    -- 6764: tmp70 += ints.tmp210
    .add 277 (.cp 82) 1 1,
    -- 6765: del ints.tmp210
    .del 82,
    -- 6766: tmp70 += ints.tmp217
    .add 277 (.cp 83) 1 1,
    -- 6767: del ints.tmp217
    .del 83,
    -- 6768: tmp70 += ints.tmp171 * -1
    .add 277 (.cp 84) (-1) 1,
    -- 6769: del ints.tmp171
    .del 84,
    -- 6770: tmp70 += ints.tmp207 * -1
    .add 277 (.cp 85) (-1) 1,
    -- 6771: del ints.tmp207
    .del 85,
    -- 6772: tmp72 = np.copy(np.transpose(ints.tmp319, (0, 1, 3, 2)))
    .set 278 (.tr 86 [0, 1, 3, 2]) 1 1,
    -- 6773: tmp72 += ints.tmp250 * -1
    .add 278 (.cp 87) (-1) 1,
    -- 6774: tmp72 += ints.tmp334 * -1
    .add 278 (.cp 88) (-1) 1,
    -- 6775: tmp72 += einsum(tmp30, (0, 1, 2, 3), t1.bb, (2, 4), (0, 1, 3, 4))
    .add 278 (.ein [(250, [0, 1, 2, 3]), (8, [2, 4])] [0, 1, 3, 4]) 1 1,
    -- 6776: tmp79 = einsum(tmp76, (0, 1, 2), r2.aba, (2, 3, 1), (0, 3)) * -1
    .set 279 (.ein [(196, [0, 1, 2]), (25, [2, 3, 1])] [0, 3]) (-1) 1,
    -- 6777: del tmp76
    .del 196,
    -- 6778: tmp79 += einsum(r2.bbb, (0, 1, 2), tmp78, (3, 2, 1), (3, 0)) * 2
    .add 279 (.ein [(9, [0, 1, 2]), (248, [3, 2, 1])] [3, 0]) 2 1,
    -- 6779: del tmp78
    .del 248,
    -- 6780: tmp81 = np.copy(np.transpose(ints.tmp31, (1, 0)))
    .set 280 (.tr 45 [1, 0]) 1 1,
    -- 6781: tmp81 += ints.tmp58 * 2
    .add 280 (.cp 49) 2 1,
    -- 6782: tmp81 += ints.tmp61
    .add 280 (.cp 50) 1 1,
    -- 6783: tmp81 += f.aa.vv * -1
    .add 280 (.cp 46) (-1) 1,
    -- 6784: tmp81 += ints.tmp29 * -1
    .add 280 (.cp 47) (-1) 1,
    -- 6785: tmp81 += ints.tmp33 * -1
    .add 280 (.cp 48) (-1) 1,
    -- 6786: tmp81 += tmp80
    .add 280 (.cp 246) 1 1,
    -- 6787: del tmp80
    .del 246,
    -- 6788: tmp74 = einsum(tmp73, (0, 1, 2, 3), r2.aba, (2, 3, 4), (4, 0, 1))
    .set 281 (.ein [(251, [0, 1, 2, 3]), (25, [2, 3, 4])] [4, 0, 1]) 1 1,
    -- 6789: del tmp73
    .del 251,
    -- 6790: tmp71 = np.copy(ints.tmp163) * 2
    .set 282 (.cp 44) 2 1,
    -- 6791: tmp71 += ints.tmp201
    .add 282 (.cp 42) 1 1,
    -- 6792: tmp71 += ints.tmp47
    .add 282 (.cp 43) 1 1,
    -- 6793: tmp71 += einsum(tmp56, (0, 1, 2, 3), t1.aa, (1, 4), (0, 2, 4, 3)) * -1
    .add 282 (.ein [(232, [0, 1, 2, 3]), (2, [1, 4])] [0, 2, 4, 3]) (-1) 1,
    -- 6794: del tmp56
    .del 232,
    -- 6795: tmp24 = einsum(r2.aba, (0, 1, 2), t1.bb, (3, 1), (2, 3, 0))
    .set 283 (.ein [(25, [0, 1, 2]), (8, [3, 1])] [2, 3, 0]) 1 1,
    -- 6796: tmp54 = np.copy(tmp40)
    .set 284 (.cp 254) 1 1,
    -- 6797: del tmp40
    .del 254,
    -- 6798: tmp54 += tmp41
    .add 284 (.cp 253) 1 1,
    -- 6799: del tmp41
    .del 253,
    -- 6800: tmp54 += np.transpose(tmp43, (0, 2, 1)) * -2
    .add 284 (.tr 252 [0, 2, 1]) (-2) 1,
    -- 6801: del tmp43
    .del 252,
    -- 6802: tmp54 += np.transpose(tmp49, (0, 2, 1))
    .add 284 (.tr 255 [0, 2, 1]) 1 1,
    -- 6803: del tmp49
    .del 255,
    -- 6804: tmp54 += np.transpose(tmp53, (0, 2, 1)) * -2
    .add 284 (.tr 256 [0, 2, 1]) (-2) 1,
    -- 6805: del tmp53
    .del 256,
    -- 6806: tmp69 = np.copy(tmp55) * 2
    .set 285 (.cp 261) 2 1,
    -- 6807: del tmp55
    .del 261,
    -- 6808: tmp69 += np.transpose(tmp57, (0, 2, 1))
    .add 285 (.tr 259 [0, 2, 1]) 1 1,
    -- 6809: del tmp57
    .del 259,
    -- 6810: tmp69 += np.transpose(tmp63, (0, 2, 1))
    .add 285 (.tr 260 [0, 2, 1]) 1 1,
    -- 6811: del tmp63
    .del 260,
    -- 6812: tmp69 += np.transpose(tmp66, (0, 2, 1)) * -1
    .add 285 (.tr 257 [0, 2, 1]) (-1) 1,
    -- 6813: del tmp66
    .del 257,
    -- 6814: tmp69 += tmp68
    .add 285 (.cp 258) 1 1,
    -- 6815: del tmp68
    .del 258,
    -- 6816: tmp39 = einsum(t2.aaaa, (0, 1, 2, 3), r2.aaa, (2, 3, 4), (4, 0, 1))
    .set 286 (.ein [(30, [0, 1, 2, 3]), (21, [2, 3, 4])] [4, 0, 1]) 1 1,
    -- 6817: tmp12 = einsum(tmp2, (0, 1, 2), t1.aa, (3, 2), (0, 1, 3)) * -1
    .set 287 (.ein [(200, [0, 1, 2]), (2, [3, 2])] [0, 1, 3]) (-1) 1,
    -- 6818: tmp29 = einsum(tmp26, (0, 1, 2), t1.bb, (3, 2), (0, 1, 3))
    .set 288 (.ein [(262, [0, 1, 2]), (8, [3, 2])] [0, 1, 3]) 1 1,
    -- 6819: tmp23 = np.copy(ints.tmp243)
    .set 289 (.cp 54) 1 1,
    -- 6820: tmp23 += ints.tmp310 * 2
    .add 289 (.cp 89) 2 1,
    -- 6821: del ints.tmp310
    .del 89,
    -- 6822: tmp23 += ints.tmp317
    .add 289 (.cp 90) 1 1,
    -- 6823: del ints.tmp317
    .del 90,
    -- 6824: tmp23 += np.transpose(ints.tmp332, (0, 1, 3, 2))
    .add 289 (.tr 91 [0, 1, 3, 2]) 1 1,
    -- 6825: del ints.tmp332
    .del 91,
    -- 6826: tmp23 += np.transpose(ints.tmp246, (0, 1, 3, 2)) * -1
    .add 289 (.tr 31 [0, 1, 3, 2]) (-1) 1,
    -- 6827: del ints.tmp246
    .del 31,
    -- 6828: tmp23 += ints.tmp313 * -2
    .add 289 (.cp 33) (-2) 1,
    -- 6829: del ints.tmp313
    .del 33,
    -- 6830: tmp23 += np.transpose(ints.tmp330, (0, 1, 3, 2)) * -1
    .add 289 (.tr 32 [0, 1, 3, 2]) (-1) 1,
    -- 6831: del ints.tmp330
    .del 32,
    -- 6832: tmp20 = np.copy(ints.tmp253)
    .set 290 (.cp 92) 1 1,
    -- 6833: del ints.tmp253
    .del 92,
    -- 6834: tmp20 += np.transpose(ints.tmp265, (0, 1, 3, 2))
    .add 290 (.tr 93 [0, 1, 3, 2]) 1 1,
    -- 6835: del ints.tmp265
    .del 93,
    -- 6836: tmp20 += np.transpose(ints.tmp271, (0, 1, 3, 2))
    .add 290 (.tr 94 [0, 1, 3, 2]) 1 1,
    -- 6837: del ints.tmp271
    .del 94,
    -- 6838: tmp20 += np.transpose(ints.tmp277, (0, 1, 3, 2)) * 2
    .add 290 (.tr 95 [0, 1, 3, 2]) 2 1,
    -- 6839: del ints.tmp277
    .del 95,
    -- 6840: tmp20 += np.transpose(ints.tmp303, (0, 1, 3, 2))
    .add 290 (.tr 96 [0, 1, 3, 2]) 1 1,
    -- 6841: del ints.tmp303
    .del 96,
    -- 6842: tmp20 += ints.tmp99
    .add 290 (.cp 97) 1 1,
    -- 6843: tmp20 += ints.tmp274 * -1
    .add 290 (.cp 98) (-1) 1,
    -- 6844: del ints.tmp274
    .del 98,
    -- 6845: tmp20 += np.transpose(ints.tmp281, (0, 1, 3, 2)) * -1
    .add 290 (.tr 99 [0, 1, 3, 2]) (-1) 1,
    -- 6846: del ints.tmp281
    .del 99,
    -- 6847: tmp8 = np.copy(ints.tmp105)
    .set 291 (.cp 100) 1 1,
    -- 6848: del ints.tmp105
    .del 100,
    -- 6849: tmp8 += ints.tmp113 * 2
    .add 291 (.cp 101) 2 1,
    -- 6850: del ints.tmp113
    .del 101,
    -- 6851: tmp8 += ints.tmp136 * 2
    .add 291 (.cp 102) 2 1,
    -- 6852: del ints.tmp136
    .del 102,
    -- 6853: tmp8 += ints.tmp142
    .add 291 (.cp 103) 1 1,
    -- 6854: del ints.tmp142
    .del 103,
    -- 6855: tmp8 += ints.tmp152 * 2
    .add 291 (.cp 104) 2 1,
    -- 6856: del ints.tmp152
    .del 104,
    -- 6857: tmp8 += ints.tmp155
    .add 291 (.cp 105) 1 1,
    -- 6858: del ints.tmp155
    .del 105,
    -- 6859: tmp8 += ints.tmp180
    .add 291 (.cp 106) 1 1,
    -- 6860: del ints.tmp180
    .del 106,
    -- 6861: tmp8 += ints.tmp185
    .add 291 (.cp 107) 1 1,
    -- 6862: del ints.tmp185
    .del 107,
    -- 6863: tmp8 += ints.tmp196
    .add 291 (.cp 108) 1 1,
    -- 6864: del ints.tmp196
    .del 108,
    -- 6865: tmp8 += ints.tmp216
    .add 291 (.cp 109) 1 1,
    -- 6866: del ints.tmp216
    .del 109,
    -- 6867: tmp8 += ints.tmp221
    .add 291 (.cp 110) 1 1,
    -- 6868: del ints.tmp221
    .del 110,
    -- 6869: tmp8 += ints.tmp23
    .add 291 (.cp 111) 1 1,
    -- 6870: del ints.tmp23
    .del 111,
    -- 6871: tmp8 += ints.tmp40
    .add 291 (.cp 112) 1 1,
    -- 6872: del ints.tmp40
    .del 112,
    -- 6873: tmp8 += ints.tmp4
    .add 291 (.cp 113) 1 1,
    -- 6874: del ints.tmp4
    .del 113,
    -- 6875: tmp8 += ints.tmp67 * 2
    .add 291 (.cp 114) 2 1,
    -- 6876: del ints.tmp67
    .del 114,
    -- 6877: tmp8 += ints.tmp70
    .add 291 (.cp 115) 1 1,
    -- 6878: del ints.tmp70
    .del 115,
    -- 6879: tmp8 += ints.tmp82 * 2
    .add 291 (.cp 116) 2 1,
    -- 6880: del ints.tmp82
    .del 116,
    -- 6881: tmp8 += f.bb.ov * -1
    .add 291 (.cp 3) (-1) 1,
    -- 6882: tmp8 += ints.tmp108 * -1
    .add 291 (.cp 117) (-1) 1,
    -- 6883: del ints.tmp108
    .del 117,
    -- 6884: tmp8 += ints.tmp10 * -1
    .add 291 (.cp 118) (-1) 1,
    -- 6885: del ints.tmp10
    .del 118,
    -- 6886: tmp8 += ints.tmp117 * -2
    .add 291 (.cp 119) (-2) 1,
    -- 6887: del ints.tmp117
    .del 119,
    -- 6888: tmp8 += ints.tmp121 * -1
    .add 291 (.cp 120) (-1) 1,
    -- 6889: del ints.tmp121
    .del 120,
    -- 6890: tmp8 += ints.tmp124 * -2
    .add 291 (.cp 121) (-2) 1,
    -- 6891: del ints.tmp124
    .del 121,
    -- 6892: tmp8 += ints.tmp13 * -2
    .add 291 (.cp 122) (-2) 1,
    -- 6893: del ints.tmp13
    .del 122,
    -- 6894: tmp8 += ints.tmp178 * -1
    .add 291 (.cp 123) (-1) 1,
    -- 6895: del ints.tmp178
    .del 123,
    -- 6896: tmp8 += ints.tmp195 * -1
    .add 291 (.cp 124) (-1) 1,
    -- 6897: del ints.tmp195
    .del 124,
    -- 6898: tmp8 += ints.tmp198 * -1
    .add 291 (.cp 125) (-1) 1,
    -- 6899: del ints.tmp198
    .del 125,
    -- 6900: tmp8 += ints.tmp214 * -1
    .add 291 (.cp 126) (-1) 1,
    -- 6901: del ints.tmp214
    .del 126,
    -- 6902: tmp8 += ints.tmp38 * -1
    .add 291 (.cp 4) (-1) 1,
    -- 6903: del ints.tmp38
    .del 4,
    -- 6904: tmp8 += ints.tmp41 * -1
    .add 291 (.cp 5) (-1) 1,
    -- 6905: del ints.tmp41
    .del 5,
    -- 6906: tmp8 += ints.tmp7 * -1
    .add 291 (.cp 127) (-1) 1,
    -- 6907: del ints.tmp7
    .del 127,
    -- 6908: tmp8 += ints.tmp85 * -1
    .add 291 (.cp 128) (-1) 1,
    -- 6909: del ints.tmp85
    .del 128,
    -- 6910: tmp32 = np.copy(ints.tmp135)
    .set 292 (.cp 35) 1 1,
    -- 6911: del ints.tmp135
    .del 35,
    -- 6912: tmp32 += ints.tmp66 * -1
    .add 292 (.cp 36) (-1) 1,
    -- 6913: del ints.tmp66
    .del 36,
    -- 6914: tmp21 = np.copy(ints.tmp236) * 0.5
    .set 293 (.cp 53) 1 2,
    -- 6915: del ints.tmp236
    .del 53,
    -- 6916: tmp21 += ints.tmp251 * 0.5
    .add 293 (.cp 129) 1 2,
    -- 6917: del ints.tmp251
    .del 129,
    -- 6918: tmp21 += np.transpose(ints.tmp275, (0, 2, 1, 3))
    .add 293 (.tr 130 [0, 2, 1, 3]) 1 1,
    -- 6919: del ints.tmp275
    .del 130,
    -- 6920: tmp21 += np.transpose(ints.tmp301, (0, 3, 1, 2)) * 0.5
    .add 293 (.tr 131 [0, 3, 1, 2]) 1 2,
    -- 6921: del ints.tmp301
    .del 131,
    -- 6922: tmp21 += np.transpose(ints.tmp263, (0, 3, 1, 2)) * -0.5
    .add 293 (.tr 132 [0, 3, 1, 2]) (-1) 2,
    -- 6923: del ints.tmp263
    .del 132,
    -- 6924: tmp21 += np.transpose(ints.tmp272, (0, 3, 1, 2)) * -1
    .add 293 (.tr 133 [0, 3, 1, 2]) (-1) 1,
    -- 6925: del ints.tmp272
    .del 133,
    -- 6926: tmp21 += np.transpose(ints.tmp279, (0, 3, 1, 2)) * -0.5
    .add 293 (.tr 134 [0, 3, 1, 2]) (-1) 2,
    -- 6927: del ints.tmp279
    .del 134,
    -- 6928: tmp25 = np.copy(ints.tmp309)
    .set 294 (.cp 135) 1 1,
    -- 6929: del ints.tmp309
    .del 135,
    -- 6930: tmp25 += ints.tmp315 * 2
    .add 294 (.cp 136) 2 1,
    -- 6931: del ints.tmp315
    .del 136,
    -- 6932: tmp25 += ints.tmp335
    .add 294 (.cp 137) 1 1,
    -- 6933: del ints.tmp335
    .del 137,
    -- 6934: tmp25 += ints.tmp49
    .add 294 (.cp 138) 1 1,
    -- 6935: tmp25 += ints.tmp312 * -1
    .add 294 (.cp 55) (-1) 1,
    -- 6936: tmp27 = np.copy(ints.tmp250)
    .set 295 (.cp 87) 1 1,
    -- 6937: del ints.tmp250
    .del 87,
    -- 6938: tmp27 += ints.tmp334
    .add 295 (.cp 88) 1 1,
    -- 6939: del ints.tmp334
    .del 88,
    -- 6940: tmp27 += np.transpose(ints.tmp319, (0, 1, 3, 2)) * -1
    .add 295 (.tr 86 [0, 1, 3, 2]) (-1) 1,
    -- 6941: del ints.tmp319
    .del 86,
    -- 6942: tmp28 = np.copy(ints.tmp103)
    .set 296 (.cp 139) 1 1,
    -- 6943: tmp28 += ints.tmp111 * 0.5
    .add 296 (.cp 140) 1 2,
    -- 6944: tmp28 += ints.tmp133
    .add 296 (.cp 141) 1 1,
    -- 6945: tmp28 += ints.tmp139 * 0.5
    .add 296 (.cp 142) 1 2,
    -- 6946: tmp28 += ints.tmp149
    .add 296 (.cp 143) 1 1,
    -- 6947: tmp28 += ints.tmp158 * 0.5
    .add 296 (.cp 144) 1 2,
    -- 6948: tmp28 += ints.tmp175 * 0.5
    .add 296 (.cp 145) 1 2,
    -- 6949: tmp28 += ints.tmp182 * 0.5
    .add 296 (.cp 146) 1 2,
    -- 6950: tmp28 += ints.tmp192 * 0.5
    .add 296 (.cp 147) 1 2,
    -- 6951: tmp28 += ints.tmp20 * 0.5
    .add 296 (.cp 148) 1 2,
    -- 6952: tmp28 += ints.tmp211 * 0.5
    .add 296 (.cp 149) 1 2,
    -- 6953: tmp28 += ints.tmp218 * 0.5
    .add 296 (.cp 150) 1 2,
    -- 6954: tmp28 += ints.tmp2 * 0.5
    .add 296 (.cp 151) 1 2,
    -- 6955: tmp28 += ints.tmp36 * 0.5
    .add 296 (.cp 152) 1 2,
    -- 6956: tmp28 += ints.tmp64
    .add 296 (.cp 153) 1 1,
    -- 6957: tmp28 += ints.tmp73 * 0.5
    .add 296 (.cp 154) 1 2,
    -- 6958: tmp28 += ints.tmp79
    .add 296 (.cp 155) 1 1,
    -- 6959: tmp28 += f.aa.ov * -0.5
    .add 296 (.cp 18) (-1) 2,
    -- 6960: tmp28 += ints.tmp106 * -1
    .add 296 (.cp 156) (-1) 1,
    -- 6961: tmp28 += ints.tmp115 * -0.5
    .add 296 (.cp 157) (-1) 2,
    -- 6962: tmp28 += ints.tmp119 * -1
    .add 296 (.cp 158) (-1) 1,
    -- 6963: tmp28 += ints.tmp11 * -0.5
    .add 296 (.cp 159) (-1) 2,
    -- 6964: tmp28 += ints.tmp122 * -0.5
    .add 296 (.cp 160) (-1) 2,
    -- 6965: tmp28 += ints.tmp172 * -0.5
    .add 296 (.cp 161) (-1) 2,
    -- 6966: tmp28 += ints.tmp190 * -0.5
    .add 296 (.cp 162) (-1) 2,
    -- 6967: tmp28 += ints.tmp199 * -0.5
    .add 296 (.cp 163) (-1) 2,
    -- 6968: tmp28 += ints.tmp208 * -0.5
    .add 296 (.cp 164) (-1) 2,
    -- 6969: tmp28 += ints.tmp34 * -0.5
    .add 296 (.cp 19) (-1) 2,
    -- 6970: tmp28 += ints.tmp42 * -0.5
    .add 296 (.cp 20) (-1) 2,
    -- 6971: tmp28 += ints.tmp5 * -0.5
    .add 296 (.cp 165) (-1) 2,
    -- 6972: tmp28 += ints.tmp87 * -0.5
    .add 296 (.cp 166) (-1) 2,
    -- 6973: tmp28 += ints.tmp8 * -1
    .add 296 (.cp 167) (-1) 1,
    -- 6974: tmp33 = np.copy(np.transpose(ints.tmp239, (1, 0)))
    .set 297 (.tr 34 [1, 0]) 1 1,
    -- 6975: del ints.tmp239
    .del 34,
    -- 6976: tmp33 += ints.tmp255 * 2
    .add 297 (.cp 40) 2 1,
    -- 6977: del ints.tmp255
    .del 40,
    -- 6978: tmp33 += ints.tmp257
    .add 297 (.cp 41) 1 1,
    -- 6979: del ints.tmp257
    .del 41,
    -- 6980: tmp33 += f.bb.vv * -1
    .add 297 (.cp 37) (-1) 1,
    -- 6981: tmp33 += np.transpose(ints.tmp194, (1, 0)) * -1
    .add 297 (.tr 38 [1, 0]) (-1) 1,
    -- 6982: del ints.tmp194
    .del 38,
    -- 6983: tmp33 += np.transpose(ints.tmp197, (1, 0)) * -1
    .add 297 (.tr 39 [1, 0]) (-1) 1,
    -- 6984: del ints.tmp197
    .del 39,
    -- 6985: tmp37 = np.copy(tmp34)
    .set 298 (.cp 204) 1 1,
    -- 6986: del tmp34
    .del 204,
    -- 6987: tmp37 += tmp35 * -1
    .add 298 (.cp 220) (-1) 1,
    -- 6988: del tmp35
    .del 220,
    -- 6989: tmp37 += tmp36 * 2
    .add 298 (.cp 203) 2 1,
    -- 6990: del tmp36
    .del 203,
    -- 6991: tmp3 = np.copy(ints.tmp160) * 2
    .set 299 (.cp 168) 2 1,
    -- 6992: del ints.tmp160
    .del 168,
    -- 6993: tmp3 += ints.tmp166
    .add 299 (.cp 169) 1 1,
    -- 6994: del ints.tmp166
    .del 169,
    -- 6995: tmp3 += np.transpose(ints.tmp203, (0, 1, 3, 2))
    .add 299 (.tr 170 [0, 1, 3, 2]) 1 1,
    -- 6996: del ints.tmp203
    .del 170,
    -- 6997: tmp3 += ints.tmp44
    .add 299 (.cp 62) 1 1,
    -- 6998: tmp3 += ints.tmp163 * -2
    .add 299 (.cp 44) (-2) 1,
    -- 6999: del ints.tmp163
    .del 44,
    -- 7000: tmp3 += np.transpose(ints.tmp201, (0, 1, 3, 2)) * -1
    .add 299 (.tr 42 [0, 1, 3, 2]) (-1) 1,
    -- 7001: del ints.tmp201
    .del 42,
    -- 7002: tmp3 += np.transpose(ints.tmp47, (0, 1, 3, 2)) * -1
    .add 299 (.tr 43 [0, 1, 3, 2]) (-1) 1,
    -- 7003: del ints.tmp47
    .del 43,
    -- 7004: tmp14 = np.copy(np.transpose(ints.tmp31, (1, 0)))
    .set 300 (.tr 45 [1, 0]) 1 1,
    -- 7005: del ints.tmp31
    .del 45,
    -- 7006: tmp14 += ints.tmp58 * 2
    .add 300 (.cp 49) 2 1,
    -- 7007: del ints.tmp58
    .del 49,
    -- 7008: tmp14 += ints.tmp61
    .add 300 (.cp 50) 1 1,
    -- 7009: del ints.tmp61
    .del 50,
    -- 7010: tmp14 += f.aa.vv * -1
    .add 300 (.cp 46) (-1) 1,
    -- 7011: tmp14 += np.transpose(ints.tmp29, (1, 0)) * -1
    .add 300 (.tr 47 [1, 0]) (-1) 1,
    -- 7012: del ints.tmp29
    .del 47,
    -- 7013: tmp14 += np.transpose(ints.tmp33, (1, 0)) * -1
    .add 300 (.tr 48 [1, 0]) (-1) 1,
    -- 7014: del ints.tmp33
    .del 48,
    -- 7015: tmp13 = np.copy(ints.tmp132)
    .set 301 (.cp 51) 1 1,
    -- 7016: del ints.tmp132
    .del 51,
    -- 7017: tmp13 += ints.tmp63 * -1
    .add 301 (.cp 52) (-1) 1,
    -- 7018: del ints.tmp63
    .del 52,
    -- 7019: tmp10 = einsum(tmp6, (0, 1, 2), t1.aa, (3, 2), (3, 0, 1))
    .set 302 (.ein [(201, [0, 1, 2]), (2, [3, 2])] [3, 0, 1]) 1 1,
    -- 7020: tmp0 = np.copy(ints.tmp146)
    .set 303 (.cp 171) 1 1,
    -- 7021: del ints.tmp146
    .del 171,
    -- 7022: tmp0 += np.transpose(ints.tmp26, (0, 2, 1, 3))
    .add 303 (.tr 172 [0, 2, 1, 3]) 1 1,
    -- 7023: tmp0 += np.transpose(ints.tmp55, (0, 2, 1, 3))
    .add 303 (.tr 173 [0, 2, 1, 3]) 1 1,
    -- 7024: del ints.tmp55
    .del 173,
    -- 7025: tmp0 += ints.tmp77
    .add 303 (.cp 174) 1 1,
    -- 7026: del ints.tmp77
    .del 174,
    -- 7027: tmp0 += ints.tmp91
    .add 303 (.cp 175) 1 1,
    -- 7028: del ints.tmp91
    .del 175,
    -- 7029: tmp0 += ints.tmp97 * 2
    .add 303 (.cp 176) 2 1,
    -- 7030: del ints.tmp97
    .del 176,
    -- 7031: tmp0 += ints.tmp100 * -1
    .add 303 (.cp 177) (-1) 1,
    -- 7032: del ints.tmp100
    .del 177,
    -- 7033: tmp0 += np.transpose(ints.tmp94, (0, 2, 1, 3)) * -1
    .add 303 (.tr 178 [0, 2, 1, 3]) (-1) 1,
    -- 7034: del ints.tmp94
    .del 178,
    -- 7035: tmp7 = np.copy(np.transpose(ints.tmp205, (0, 1, 3, 2)))
    .set 304 (.tr 74 [0, 1, 3, 2]) 1 1,
    -- 7036: del ints.tmp205
    .del 74,
    -- 7037: tmp7 += np.transpose(ints.tmp52, (0, 1, 3, 2))
    .add 304 (.tr 75 [0, 1, 3, 2]) 1 1,
    -- 7038: del ints.tmp52
    .del 75,
    -- 7039: tmp7 += ints.tmp170 * -1
    .add 304 (.cp 73) (-1) 1,
    -- 7040: del ints.tmp170
    .del 73,
    -- 7041: tmp1 = np.copy(ints.tmp144) * 0.5
    .set 305 (.cp 179) 1 2,
    -- 7042: del ints.tmp144
    .del 179,
    -- 7043: tmp1 += np.transpose(ints.tmp24, (0, 2, 3, 1)) * 0.5
    .add 305 (.tr 61 [0, 2, 3, 1]) 1 2,
    -- 7044: del ints.tmp24
    .del 61,
    -- 7045: tmp1 += np.transpose(ints.tmp53, (0, 2, 3, 1)) * 0.5
    .add 305 (.tr 180 [0, 2, 3, 1]) 1 2,
    -- 7046: del ints.tmp53
    .del 180,
    -- 7047: tmp1 += np.transpose(ints.tmp92, (0, 1, 3, 2))
    .add 305 (.tr 181 [0, 1, 3, 2]) 1 1,
    -- 7048: del ints.tmp92
    .del 181,
    -- 7049: tmp1 += ints.tmp75 * -0.5
    .add 305 (.cp 182) (-1) 2,
    -- 7050: del ints.tmp75
    .del 182,
    -- 7051: tmp1 += ints.tmp89 * -1
    .add 305 (.cp 183) (-1) 1,
    -- 7052: del ints.tmp89
    .del 183,
    -- 7053: tmp1 += ints.tmp95 * -0.5
    .add 305 (.cp 184) (-1) 2,
    -- 7054: del ints.tmp95
    .del 184,
    -- 7055: tmp5 = np.copy(ints.tmp162)
    .set 306 (.cp 185) 1 1,
    -- 7056: del ints.tmp162
    .del 185,
    -- 7057: tmp5 += ints.tmp168 * 2
    .add 306 (.cp 186) 2 1,
    -- 7058: del ints.tmp168
    .del 186,
    -- 7059: tmp5 += ints.tmp206
    .add 306 (.cp 187) 1 1,
    -- 7060: del ints.tmp206
    .del 187,
    -- 7061: tmp5 += ints.tmp49
    .add 306 (.cp 138) 1 1,
    -- 7062: tmp5 += ints.tmp165 * -1
    .add 306 (.cp 60) (-1) 1,
    -- 7063: tmp11 = np.copy(ints.tmp141)
    .set 307 (.cp 56) 1 1,
    -- 7064: del ints.tmp141
    .del 56,
    -- 7065: tmp11 += ints.tmp69
    .add 307 (.cp 57) 1 1,
    -- 7066: del ints.tmp69
    .del 57,
    -- 7067: tmp9 = np.copy(ints.tmp103) * 2
    .set 308 (.cp 139) 2 1,
    -- 7068: del ints.tmp103
    .del 139,
    -- 7069: tmp9 += ints.tmp111
    .add 308 (.cp 140) 1 1,
    -- 7070: del ints.tmp111
    .del 140,
    -- 7071: tmp9 += ints.tmp133 * 2
    .add 308 (.cp 141) 2 1,
    -- 7072: del ints.tmp133
    .del 141,
    -- 7073: tmp9 += ints.tmp139
    .add 308 (.cp 142) 1 1,
    -- 7074: del ints.tmp139
    .del 142,
    -- 7075: tmp9 += ints.tmp149 * 2
    .add 308 (.cp 143) 2 1,
    -- 7076: del ints.tmp149
    .del 143,
    -- 7077: tmp9 += ints.tmp158
    .add 308 (.cp 144) 1 1,
    -- 7078: del ints.tmp158
    .del 144,
    -- 7079: tmp9 += ints.tmp175
    .add 308 (.cp 145) 1 1,
    -- 7080: del ints.tmp175
    .del 145,
    -- 7081: tmp9 += ints.tmp182
    .add 308 (.cp 146) 1 1,
    -- 7082: del ints.tmp182
    .del 146,
    -- 7083: tmp9 += ints.tmp192
    .add 308 (.cp 147) 1 1,
    -- 7084: del ints.tmp192
    .del 147,
    -- 7085: tmp9 += ints.tmp20
    .add 308 (.cp 148) 1 1,
    -- 7086: del ints.tmp20
    .del 148,
    -- 7087: tmp9 += ints.tmp211
    .add 308 (.cp 149) 1 1,
    -- 7088: del ints.tmp211
    .del 149,
    -- 7089: tmp9 += ints.tmp218
    .add 308 (.cp 150) 1 1,
    -- 7090: del ints.tmp218
    .del 150,
    -- 7091: tmp9 += ints.tmp2
    .add 308 (.cp 151) 1 1,
    -- 7092: del ints.tmp2
    .del 151,
    -- 7093: tmp9 += ints.tmp36
    .add 308 (.cp 152) 1 1,
    -- 7094: del ints.tmp36
    .del 152,
    -- 7095: tmp9 += ints.tmp64 * 2
    .add 308 (.cp 153) 2 1,
    -- 7096: del ints.tmp64
    .del 153,
    -- 7097: tmp9 += ints.tmp73
    .add 308 (.cp 154) 1 1,
    -- 7098: del ints.tmp73
    .del 154,
    -- 7099: tmp9 += ints.tmp79 * 2
    .add 308 (.cp 155) 2 1,
    -- 7100: del ints.tmp79
    .del 155,
    -- 7101: tmp9 += f.aa.ov * -1
    .add 308 (.cp 18) (-1) 1,
    -- 7102: tmp9 += ints.tmp106 * -2
    .add 308 (.cp 156) (-2) 1,
    -- 7103: del ints.tmp106
    .del 156,
    -- 7104: tmp9 += ints.tmp115 * -1
    .add 308 (.cp 157) (-1) 1,
    -- 7105: del ints.tmp115
    .del 157,
    -- 7106: tmp9 += ints.tmp119 * -2
    .add 308 (.cp 158) (-2) 1,
    -- 7107: del ints.tmp119
    .del 158,
    -- 7108: tmp9 += ints.tmp11 * -1
    .add 308 (.cp 159) (-1) 1,
    -- 7109: del ints.tmp11
    .del 159,
    -- 7110: tmp9 += ints.tmp122 * -1
    .add 308 (.cp 160) (-1) 1,
    -- 7111: del ints.tmp122
    .del 160,
    -- 7112: tmp9 += ints.tmp172 * -1
    .add 308 (.cp 161) (-1) 1,
    -- 7113: del ints.tmp172
    .del 161,
    -- 7114: tmp9 += ints.tmp190 * -1
    .add 308 (.cp 162) (-1) 1,
    -- 7115: del ints.tmp190
    .del 162,
    -- 7116: tmp9 += ints.tmp199 * -1
    .add 308 (.cp 163) (-1) 1,
    -- 7117: del ints.tmp199
    .del 163,
    -- 7118: tmp9 += ints.tmp208 * -1
    .add 308 (.cp 164) (-1) 1,
    -- 7119: del ints.tmp208
    .del 164,
    -- 7120: tmp9 += ints.tmp34 * -1
    .add 308 (.cp 19) (-1) 1,
    -- 7121: del ints.tmp34
    .del 19,
    -- 7122: tmp9 += ints.tmp42 * -1
    .add 308 (.cp 20) (-1) 1,
    -- 7123: del ints.tmp42
    .del 20,
    -- 7124: tmp9 += ints.tmp5 * -1
    .add 308 (.cp 165) (-1) 1,
    -- 7125: del ints.tmp5
    .del 165,
    -- 7126: tmp9 += ints.tmp87 * -1
    .add 308 (.cp 166) (-1) 1,
    -- 7127: del ints.tmp87
    .del 166,
    -- 7128: tmp9 += ints.tmp8 * -2
    .add 308 (.cp 167) (-2) 1,
    -- 7129: del ints.tmp8
    .del 167,
    -- 7130: tmp18 = np.copy(tmp15)
    .set 309 (.cp 213) 1 1,
    -- 7131: del tmp15
    .del 213,
    -- 7132: tmp18 += tmp16 * 2
    .add 309 (.cp 214) 2 1,
    -- 7133: del tmp16
    .del 214,
    -- 7134: tmp18 += tmp17
    .add 309 (.cp 212) 1 1,
    -- 7135: del tmp17
    .del 212,
    -- 7136: r2new.bbb = einsum(r2.bbb, (0, 1, 2), ints.tmp490, (3, 4, 0, 1), (4, 3, 2)) * 2
    .set 310 (.ein [(9, [0, 1, 2]), (188, [3, 4, 0, 1])] [4, 3, 2]) 2 1,
    -- 7137: del ints.tmp490
    .del 188,
    -- 7138: r2new.bbb += einsum(ints.tmp243, (0, 1, 2, 3), tmp94, (4, 0, 1), (3, 2, 4)) * -2
    .add 310 (.ein [(54, [0, 1, 2, 3]), (265, [4, 0, 1])] [3, 2, 4]) (-2) 1,
    -- 7139: del tmp94
    .del 265,
    -- 7140: r2new.bbb += einsum(tmp31, (0, 1, 2), ints.tmp243, (2, 1, 3, 4), (4, 3, 0)) * 2
    .add 310 (.ein [(263, [0, 1, 2]), (54, [2, 1, 3, 4])] [4, 3, 0]) 2 1,
    -- 7141: del ints.tmp243
    .del 54,
    -- 7142: r2new.bbb += np.transpose(tmp105, (1, 2, 0))
    .add 310 (.tr 264 [1, 2, 0]) 1 1,
    -- 7143: r2new.bbb += np.transpose(tmp105, (2, 1, 0)) * -1
    .add 310 (.tr 264 [2, 1, 0]) (-1) 1,
    -- 7144: del tmp105
    .del 264,
    -- 7145: r2new.bbb += np.transpose(tmp118, (1, 2, 0)) * -1
    .add 310 (.tr 267 [1, 2, 0]) (-1) 1,
    -- 7146: r2new.bbb += np.transpose(tmp118, (2, 1, 0))
    .add 310 (.tr 267 [2, 1, 0]) 1 1,
    -- 7147: del tmp118
    .del 267,
    -- 7148: r2new.bbb += einsum(tmp93, (0, 1), r2.bbb, (2, 3, 0), (2, 3, 1)) * -2
    .add 310 (.ein [(266, [0, 1]), (9, [2, 3, 0])] [2, 3, 1]) (-2) 1,
    -- 7149: r2new.bbb += einsum(tmp38, (0, 1), r1.b, (2,), (2, 1, 0))
    .add 310 (.ein [(249, [0, 1]), (24, [2])] [2, 1, 0]) 1 1,
    -- 7150: r2new.bbb += einsum(tmp38, (0, 1), r1.b, (2,), (1, 2, 0)) * -1
    .add 310 (.ein [(249, [0, 1]), (24, [2])] [1, 2, 0]) (-1) 1,
    -- 7151: r2new.bab = einsum(ints.tmp426, (0, 1, 2, 3), r2.bab, (2, 1, 4), (3, 0, 4))
    .set 311 (.ein [(189, [0, 1, 2, 3]), (22, [2, 1, 4])] [3, 0, 4]) 1 1,
    -- 7152: r2new.bab += einsum(ints.tmp99, (0, 1, 2, 3), tmp4, (0, 4, 2), (3, 1, 4))
    .add 311 (.ein [(97, [0, 1, 2, 3]), (268, [0, 4, 2])] [3, 1, 4]) 1 1,
    -- 7153: r2new.bab += einsum(ints.tmp26, (0, 1, 2, 3), tmp6, (4, 0, 2), (3, 1, 4))
    .add 311 (.ein [(172, [0, 1, 2, 3]), (201, [4, 0, 2])] [3, 1, 4]) 1 1,
    -- 7154: r2new.bab += einsum(ints.tmp26, (0, 1, 2, 3), r1.a, (2,), (3, 1, 0)) * -1
    .add 311 (.ein [(172, [0, 1, 2, 3]), (29, [2])] [3, 1, 0]) (-1) 1,
    -- 7155: r2new.bab += einsum(r2.aaa, (0, 1, 2), ints.tmp312, (2, 3, 1, 4), (4, 0, 3)) * 2
    .add 311 (.ein [(21, [0, 1, 2]), (55, [2, 3, 1, 4])] [4, 0, 3]) 2 1,
    -- 7156: del ints.tmp312
    .del 55,
    -- 7157: r2new.bab += einsum(r2.bab, (0, 1, 2), tmp85, (2, 3, 1, 4), (0, 4, 3))
    .add 311 (.ein [(22, [0, 1, 2]), (269, [2, 3, 1, 4])] [0, 4, 3]) 1 1,
    -- 7158: del tmp85
    .del 269,
    -- 7159: r2new.bab += einsum(r2.bab, (0, 1, 2), tmp87, (2, 3, 0, 4), (4, 1, 3)) * -1
    .add 311 (.ein [(22, [0, 1, 2]), (273, [2, 3, 0, 4])] [4, 1, 3]) (-1) 1,
    -- 7160: del tmp87
    .del 273,
    -- 7161: r2new.bab += einsum(tmp89, (0, 1, 2), ints.tmp49, (0, 2, 3, 4), (4, 3, 1)) * -1
    .add 311 (.ein [(271, [0, 1, 2]), (138, [0, 2, 3, 4])] [4, 3, 1]) (-1) 1,
    -- 7162: del tmp89
    .del 271,
    -- 7163: r2new.bab += einsum(v.bbb.xov, (0, 1, 2), tmp90, (0, 3), (2, 3, 1)) * -1
    .add 311 (.ein [(16, [0, 1, 2]), (272, [0, 3])] [2, 3, 1]) (-1) 1,
    -- 7164: del tmp90
    .del 272,
    -- 7165: r2new.bab += einsum(tmp91, (0, 1), r2.bab, (2, 0, 3), (2, 1, 3)) * -1
    .add 311 (.ein [(270, [0, 1]), (22, [2, 0, 3])] [2, 1, 3]) (-1) 1,
    -- 7166: del tmp91
    .del 270,
    -- 7167: r2new.bab += einsum(r2.bab, (0, 1, 2), tmp92, (0, 3), (3, 1, 2)) * -2
    .add 311 (.ein [(22, [0, 1, 2]), (274, [0, 3])] [3, 1, 2]) (-2) 1,
    -- 7168: del tmp92
    .del 274,
    -- 7169: r2new.bab += einsum(tmp93, (0, 1), r2.bab, (2, 3, 0), (2, 3, 1)) * -1
    .add 311 (.ein [(266, [0, 1]), (22, [2, 3, 0])] [2, 3, 1]) (-1) 1,
    -- 7170: del tmp93
    .del 266,
    -- 7171: r2new.bab += einsum(tmp67, (0,), ints.tmp49, (0, 1, 2, 3), (3, 2, 1)) * 2
    .add 311 (.ein [(231, [0]), (138, [0, 1, 2, 3])] [3, 2, 1]) 2 1,
    -- 7172: del tmp67
    .del 231,
    -- 7173: r2new.bab += einsum(tmp38, (0, 1), r1.a, (2,), (1, 2, 0)) * -1
    .add 311 (.ein [(249, [0, 1]), (29, [2])] [1, 2, 0]) (-1) 1,
    -- 7174: r2new.aba = einsum(ints.tmp426, (0, 1, 2, 3), r2.aba, (0, 3, 4), (1, 2, 4))
    .set 312 (.ein [(189, [0, 1, 2, 3]), (25, [0, 3, 4])] [1, 2, 4]) 1 1,
    -- 7175: del ints.tmp426
    .del 189,
    -- 7176: r2new.aba += einsum(ints.tmp26, (0, 1, 2, 3), tmp24, (4, 0, 1), (2, 3, 4)) * -1
    .add 312 (.ein [(172, [0, 1, 2, 3]), (283, [4, 0, 1])] [2, 3, 4]) (-1) 1,
    -- 7177: del ints.tmp26
    .del 172,
    -- 7178: r2new.aba += einsum(tmp26, (0, 1, 2), ints.tmp99, (1, 3, 4, 2), (3, 4, 0)) * -1
    .add 312 (.ein [(262, [0, 1, 2]), (97, [1, 3, 4, 2])] [3, 4, 0]) (-1) 1,
    -- 7179: r2new.aba += einsum(ints.tmp99, (0, 1, 2, 3), r1.b, (3,), (1, 2, 0)) * -1
    .add 312 (.ein [(97, [0, 1, 2, 3]), (24, [3])] [1, 2, 0]) (-1) 1,
    -- 7180: del ints.tmp99
    .del 97,
    -- 7181: r2new.aba += einsum(ints.tmp165, (0, 1, 2, 3), r2.bbb, (4, 3, 1), (2, 4, 0)) * 2
    .add 312 (.ein [(60, [0, 1, 2, 3]), (9, [4, 3, 1])] [2, 4, 0]) 2 1,
    -- 7182: del ints.tmp165
    .del 60,
    -- 7183: r2new.aba += einsum(tmp71, (0, 1, 2, 3), r2.aba, (2, 4, 0), (3, 4, 1)) * -1
    .add 312 (.ein [(282, [0, 1, 2, 3]), (25, [2, 4, 0])] [3, 4, 1]) (-1) 1,
    -- 7184: del tmp71
    .del 282,
    -- 7185: r2new.aba += einsum(tmp72, (0, 1, 2, 3), r2.aba, (4, 3, 0), (4, 2, 1))
    .add 312 (.ein [(278, [0, 1, 2, 3]), (25, [4, 3, 0])] [4, 2, 1]) 1 1,
    -- 7186: del tmp72
    .del 278,
    -- 7187: r2new.aba += einsum(tmp74, (0, 1, 2), ints.tmp49, (1, 2, 3, 4), (3, 4, 0))
    .add 312 (.ein [(281, [0, 1, 2]), (138, [1, 2, 3, 4])] [3, 4, 0]) 1 1,
    -- 7188: del tmp74
    .del 281,
    -- 7189: r2new.aba += einsum(tmp79, (0, 1), v.baa.xov, (0, 2, 3), (3, 1, 2)) * -1
    .add 312 (.ein [(279, [0, 1]), (13, [0, 2, 3])] [3, 1, 2]) (-1) 1,
    -- 7190: del tmp79
    .del 279,
    -- 7191: r2new.aba += einsum(r2.aba, (0, 1, 2), tmp81, (0, 3), (3, 1, 2)) * -1
    .add 312 (.ein [(25, [0, 1, 2]), (280, [0, 3])] [3, 1, 2]) (-1) 1,
    -- 7192: del tmp81
    .del 280,
    -- 7193: r2new.aba += einsum(tmp82, (0, 1), r2.aba, (2, 0, 3), (2, 1, 3)) * -1
    .add 312 (.ein [(276, [0, 1]), (25, [2, 0, 3])] [2, 1, 3]) (-1) 1,
    -- 7194: del tmp82
    .del 276,
    -- 7195: r2new.aba += einsum(tmp70, (0, 1), r2.aba, (2, 3, 0), (2, 3, 1)) * -1
    .add 312 (.ein [(277, [0, 1]), (25, [2, 3, 0])] [2, 3, 1]) (-1) 1,
    -- 7196: r2new.aba += einsum(tmp83, (0,), ints.tmp49, (1, 0, 2, 3), (2, 3, 1)) * 2
    .add 312 (.ein [(275, [0]), (138, [1, 0, 2, 3])] [2, 3, 1]) 2 1,
    -- 7197: del ints.tmp49, tmp83
    .del 138,
    .del 275,
    -- 7198: r2new.aba += einsum(tmp19, (0, 1), r1.b, (2,), (1, 2, 0)) * -1
    .add 312 (.ein [(225, [0, 1]), (24, [2])] [1, 2, 0]) (-1) 1,
    -- 7199: r2new.aaa = einsum(r2.aaa, (0, 1, 2), ints.tmp387, (3, 4, 1, 0), (4, 3, 2)) * -2
    .set 313 (.ein [(21, [0, 1, 2]), (190, [3, 4, 1, 0])] [4, 3, 2]) (-2) 1,
    -- 7200: del ints.tmp387
    .del 190,
    -- 7201: r2new.aaa += einsum(ints.tmp44, (0, 1, 2, 3), tmp39, (4, 0, 1), (3, 2, 4)) * -2
    .add 313 (.ein [(62, [0, 1, 2, 3]), (286, [4, 0, 1])] [3, 2, 4]) (-2) 1,
    -- 7202: del tmp39
    .del 286,
    -- 7203: r2new.aaa += einsum(ints.tmp44, (0, 1, 2, 3), tmp12, (4, 1, 0), (3, 2, 4)) * 2
    .add 313 (.ein [(62, [0, 1, 2, 3]), (287, [4, 1, 0])] [3, 2, 4]) 2 1,
    -- 7204: del ints.tmp44
    .del 62,
    -- 7205: r2new.aaa += np.transpose(tmp54, (1, 2, 0))
    .add 313 (.tr 284 [1, 2, 0]) 1 1,
    -- 7206: r2new.aaa += np.transpose(tmp54, (2, 1, 0)) * -1
    .add 313 (.tr 284 [2, 1, 0]) (-1) 1,
    -- 7207: del tmp54
    .del 284,
    -- 7208: r2new.aaa += np.transpose(tmp69, (1, 2, 0)) * -1
    .add 313 (.tr 285 [1, 2, 0]) (-1) 1,
    -- 7209: r2new.aaa += np.transpose(tmp69, (2, 1, 0))
    .add 313 (.tr 285 [2, 1, 0]) 1 1,
    -- 7210: del tmp69
    .del 285,
    -- 7211: r2new.aaa += einsum(tmp70, (0, 1), r2.aaa, (2, 3, 0), (2, 3, 1)) * -2
    .add 313 (.ein [(277, [0, 1]), (21, [2, 3, 0])] [2, 3, 1]) (-2) 1,
    -- 7212: del tmp70
    .del 277,
    -- 7213: r2new.aaa += einsum(r1.a, (0,), tmp19, (1, 2), (0, 2, 1))
    .add 313 (.ein [(29, [0]), (225, [1, 2])] [0, 2, 1]) 1 1,
    -- 7214: r2new.aaa += einsum(tmp19, (0, 1), r1.a, (2,), (1, 2, 0)) * -1
    .add 313 (.ein [(225, [0, 1]), (29, [2])] [1, 2, 0]) (-1) 1,
    -- 7215: r1new.b = einsum(r2.aba, (0, 1, 2), tmp20, (2, 0, 3, 1), (3,)) * -1
    .set 314 (.ein [(25, [0, 1, 2]), (290, [2, 0, 3, 1])] [3]) (-1) 1,
    -- 7216: del tmp20
    .del 290,
    -- 7217: r1new.b += einsum(tmp21, (0, 1, 2, 3), r2.bbb, (2, 3, 0), (1,)) * 4
    .add 314 (.ein [(293, [0, 1, 2, 3]), (9, [2, 3, 0])] [1]) 4 1,
    -- 7218: del tmp21
    .del 293,
    -- 7219: r1new.b += einsum(tmp23, (0, 1, 2, 3), tmp22, (0, 1, 2), (3,)) * 2
    .add 314 (.ein [(289, [0, 1, 2, 3]), (195, [0, 1, 2])] [3]) 2 1,
    -- 7220: del tmp22, tmp23
    .del 195,
    .del 289,
    -- 7221: r1new.b += einsum(tmp25, (0, 1, 2, 3), tmp24, (0, 1, 2), (3,))
    .add 314 (.ein [(294, [0, 1, 2, 3]), (283, [0, 1, 2])] [3]) 1 1,
    -- 7222: del tmp24, tmp25
    .del 283,
    .del 294,
    -- 7223: r1new.b += einsum(tmp26, (0, 1, 2), tmp27, (0, 1, 3, 2), (3,))
    .add 314 (.ein [(262, [0, 1, 2]), (295, [0, 1, 3, 2])] [3]) 1 1,
    -- 7224: del tmp26, tmp27
    .del 262,
    .del 295,
    -- 7225: r1new.b += einsum(tmp28, (0, 1), r2.aba, (1, 2, 0), (2,)) * 2
    .add 314 (.ein [(296, [0, 1]), (25, [1, 2, 0])] [2]) 2 1,
    -- 7226: del tmp28
    .del 296,
    -- 7227: r1new.b += einsum(tmp8, (0, 1), r2.bbb, (2, 1, 0), (2,)) * -2
    .add 314 (.ein [(291, [0, 1]), (9, [2, 1, 0])] [2]) (-2) 1,
    -- 7228: r1new.b += einsum(tmp30, (0, 1, 2, 3), tmp29, (0, 1, 2), (3,)) * -1
    .add 314 (.ein [(250, [0, 1, 2, 3]), (288, [0, 1, 2])] [3]) (-1) 1,
    -- 7229: del tmp30, tmp29
    .del 250,
    .del 288,
    -- 7230: r1new.b += einsum(tmp31, (0, 1, 2), tmp32, (0, 2, 1, 3), (3,)) * -2
    .add 314 (.ein [(263, [0, 1, 2]), (292, [0, 2, 1, 3])] [3]) (-2) 1,
    -- 7231: del tmp31, tmp32
    .del 263,
    .del 292,
    -- 7232: r1new.b += einsum(r1.b, (0,), tmp33, (0, 1), (1,)) * -1
    .add 314 (.ein [(24, [0]), (297, [0, 1])] [1]) (-1) 1,
    -- 7233: del tmp33
    .del 297,
    -- 7234: r1new.b += einsum(tmp38, (0, 1), tmp37, (0,), (1,)) * -1
    .add 314 (.ein [(249, [0, 1]), (298, [0])] [1]) (-1) 1,
    -- 7235: del tmp38, tmp37
    .del 249,
    .del 298,
    -- 7236: r1new.a = einsum(tmp0, (0, 1, 2, 3), r2.bab, (3, 1, 0), (2,)) * -1
    .set 315 (.ein [(303, [0, 1, 2, 3]), (22, [3, 1, 0])] [2]) (-1) 1,
    -- 7237: del tmp0
    .del 303,
    -- 7238: r1new.a += einsum(tmp1, (0, 1, 2, 3), r2.aaa, (1, 2, 0), (3,)) * 4
    .add 315 (.ein [(305, [0, 1, 2, 3]), (21, [1, 2, 0])] [3]) 4 1,
    -- 7239: del tmp1
    .del 305,
    -- 7240: r1new.a += einsum(tmp3, (0, 1, 2, 3), tmp2, (0, 1, 2), (3,)) * 2
    .add 315 (.ein [(299, [0, 1, 2, 3]), (200, [0, 1, 2])] [3]) 2 1,
    -- 7241: del tmp2, tmp3
    .del 200,
    .del 299,
    -- 7242: r1new.a += einsum(tmp5, (0, 1, 2, 3), tmp4, (0, 1, 3), (2,)) * -1
    .add 315 (.ein [(306, [0, 1, 2, 3]), (268, [0, 1, 3])] [2]) (-1) 1,
    -- 7243: del tmp4, tmp5
    .del 268,
    .del 306,
    -- 7244: r1new.a += einsum(tmp6, (0, 1, 2), tmp7, (0, 1, 2, 3), (3,)) * -1
    .add 315 (.ein [(201, [0, 1, 2]), (304, [0, 1, 2, 3])] [3]) (-1) 1,
    -- 7245: del tmp6, tmp7
    .del 201,
    .del 304,
    -- 7246: r1new.a += einsum(tmp8, (0, 1), r2.bab, (1, 2, 0), (2,))
    .add 315 (.ein [(291, [0, 1]), (22, [1, 2, 0])] [2]) 1 1,
    -- 7247: del tmp8
    .del 291,
    -- 7248: r1new.a += einsum(tmp9, (0, 1), r2.aaa, (2, 1, 0), (2,)) * -2
    .add 315 (.ein [(308, [0, 1]), (21, [2, 1, 0])] [2]) (-2) 1,
    -- 7249: del tmp9
    .del 308,
    -- 7250: r1new.a += einsum(tmp11, (0, 1, 2, 3), tmp10, (0, 1, 2), (3,))
    .add 315 (.ein [(307, [0, 1, 2, 3]), (302, [0, 1, 2])] [3]) 1 1,
    -- 7251: del tmp11, tmp10
    .del 307,
    .del 302,
    -- 7252: r1new.a += einsum(tmp13, (0, 1, 2, 3), tmp12, (0, 2, 1), (3,)) * -2
    .add 315 (.ein [(301, [0, 1, 2, 3]), (287, [0, 2, 1])] [3]) (-2) 1,
    -- 7253: del tmp12, tmp13
    .del 287,
    .del 301,
    -- 7254: r1new.a += einsum(r1.a, (0,), tmp14, (0, 1), (1,)) * -1
    .add 315 (.ein [(29, [0]), (300, [0, 1])] [1]) (-1) 1,
    -- 7255: del tmp14
    .del 300,
    -- 7256: r1new.a += einsum(tmp19, (0, 1), tmp18, (0,), (1,)) * -1
    .add 315 (.ein [(225, [0, 1]), (309, [0])] [1]) (-1) 1,
    -- 7257: del tmp19, tmp18
    .del 225,
    .del 309
  ]
  ret := [(chars! "r1new.b", 314), (chars! "r1new.a", 315), (chars! "r2new.bbb", 310), (chars! "r2new.bab", 311), (chars! "r2new.aba", 312), (chars! "r2new.aaa", 313)]

end Ebcc.Gen.UDFCCSDEom
