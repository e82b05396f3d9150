import Verif.Model.GenCode
/-!
Functions of `ebcc/codegen/UCCSD.py`, written by `tools/gencode.py`.  Comments give the
number and the text of the line of each statement.
-/

set_option maxRecDepth 100000

namespace Ebcc.Gen.UCCSDEom

/-- codegen/UCCSD.py:2667-3095 `hbar_matvec_ip_intermediates`. -/
def hbar_matvec_ip_intermediates : GenFun where
  args := [chars! "v.bbbb.ovov", chars! "t1.bb", chars! "v.aabb.ovov", chars! "t1.aa", chars! "v.aaaa.ovov", chars! "v.bbbb.ooov", chars! "t2.bbbb", chars! "v.bbbb.ovvv", chars! "v.aabb.ooov", chars! "t2.abab", chars! "f.bb.ov", chars! "v.aabb.ovoo", chars! "v.aabb.ovvv", chars! "v.aabb.vvov", chars! "v.aaaa.ooov", chars! "t2.aaaa", chars! "f.aa.ov", chars! "v.aaaa.ovvv", chars! "v.bbbb.oovv", chars! "v.bbbb.oooo", chars! "v.aabb.oovv", chars! "f.bb.vv", chars! "f.bb.oo", chars! "v.aabb.oooo", chars! "v.aabb.vvoo", chars! "v.aaaa.oovv", chars! "v.aaaa.oooo", chars! "f.aa.oo", chars! "f.aa.vv"]
  body := [
    -- 2890: tmp37 = einsum(v.bbbb.ovov, (0, 1, 2, 3), t1.bb, (4, 3), (4, 0, 2, 1))
    .set 29 (.ein [(0, [0, 1, 2, 3]), (1, [4, 3])] [4, 0, 2, 1]) 1 1,
    -- 2891: tmp15 = einsum(v.aabb.ovov, (0, 1, 2, 3), t1.aa, (0, 1), (2, 3))
    .set 30 (.ein [(2, [0, 1, 2, 3]), (3, [0, 1])] [2, 3]) 1 1,
    -- 2892: tmp12 = einsum(v.bbbb.ovov, (0, 1, 2, 3), t1.bb, (2, 3), (0, 1))
    .set 31 (.ein [(0, [0, 1, 2, 3]), (1, [2, 3])] [0, 1]) 1 1,
    -- 2893: tmp11 = einsum(v.bbbb.ovov, (0, 1, 2, 3), t1.bb, (2, 1), (0, 3))
    .set 32 (.ein [(0, [0, 1, 2, 3]), (1, [2, 1])] [0, 3]) 1 1,
    -- 2894: tmp39 = einsum(t1.bb, (0, 1), v.aabb.ovov, (2, 3, 4, 1), (2, 0, 4, 3))
    .set 33 (.ein [(1, [0, 1]), (2, [2, 3, 4, 1])] [2, 0, 4, 3]) 1 1,
    -- 2895: tmp13 = einsum(v.aabb.ovov, (0, 1, 2, 3), t1.bb, (2, 3), (0, 1))
    .set 34 (.ein [(2, [0, 1, 2, 3]), (1, [2, 3])] [0, 1]) 1 1,
    -- 2896: tmp9 = einsum(t1.aa, (0, 1), v.aaaa.ovov, (2, 3, 0, 1), (2, 3))
    .set 35 (.ein [(3, [0, 1]), (4, [2, 3, 0, 1])] [2, 3]) 1 1,
    -- 2897: tmp7 = einsum(t1.aa, (0, 1), v.aaaa.ovov, (2, 1, 0, 3), (2, 3))
    .set 36 (.ein [(3, [0, 1]), (4, [2, 1, 0, 3])] [2, 3]) 1 1,
    -- 2898: tmp16 = einsum(t1.aa, (0, 1), v.aaaa.ovov, (2, 3, 4, 1), (0, 2, 4, 3))
    .set 37 (.ein [(3, [0, 1]), (4, [2, 3, 4, 1])] [0, 2, 4, 3]) 1 1,
    -- 2899: tmp429 = einsum(v.bbbb.ooov, (0, 1, 2, 3), t1.bb, (4, 3), (4, 0, 1, 2))
    .set 38 (.ein [(5, [0, 1, 2, 3]), (1, [4, 3])] [4, 0, 1, 2]) 1 1,
    -- 2900: tmp375 = einsum(t2.bbbb, (0, 1, 2, 3), v.bbbb.ovov, (4, 3, 5, 2), (0, 1, 4, 5)) * -1
    .set 39 (.ein [(6, [0, 1, 2, 3]), (0, [4, 3, 5, 2])] [0, 1, 4, 5]) (-1) 1,
    -- 2901: tmp369 = einsum(t1.bb, (0, 1), tmp37, (2, 3, 4, 1), (2, 0, 4, 3))
    .set 40 (.ein [(1, [0, 1]), (29, [2, 3, 4, 1])] [2, 0, 4, 3]) 1 1,
    -- 2902: tmp318 = einsum(t1.bb, (0, 1), v.bbbb.ovvv, (2, 3, 4, 1), (0, 2, 3, 4))
    .set 41 (.ein [(1, [0, 1]), (7, [2, 3, 4, 1])] [0, 2, 3, 4]) 1 1,
    -- 2903: tmp47 = einsum(tmp15, (0, 1), t1.bb, (2, 1), (2, 0))
    .set 42 (.ein [(30, [0, 1]), (1, [2, 1])] [2, 0]) 1 1,
    -- 2904: tmp46 = einsum(tmp12, (0, 1), t1.bb, (2, 1), (2, 0))
    .set 43 (.ein [(31, [0, 1]), (1, [2, 1])] [2, 0]) 1 1,
    -- 2905: tmp45 = einsum(t1.bb, (0, 1), tmp11, (2, 1), (0, 2))
    .set 44 (.ein [(1, [0, 1]), (32, [2, 1])] [0, 2]) 1 1,
    -- 2906: tmp233 = einsum(v.aabb.ooov, (0, 1, 2, 3), t1.bb, (4, 3), (0, 1, 4, 2))
    .set 45 (.ein [(8, [0, 1, 2, 3]), (1, [4, 3])] [0, 1, 4, 2]) 1 1,
    -- 2907: tmp43 = einsum(v.aabb.ovov, (0, 1, 2, 3), t2.abab, (0, 4, 1, 3), (4, 2))
    .set 46 (.ein [(2, [0, 1, 2, 3]), (9, [0, 4, 1, 3])] [4, 2]) 1 1,
    -- 2908: tmp41 = einsum(t2.bbbb, (0, 1, 2, 3), v.bbbb.ovov, (4, 3, 1, 2), (0, 4)) * -1
    .set 47 (.ein [(6, [0, 1, 2, 3]), (0, [4, 3, 1, 2])] [0, 4]) (-1) 1,
    -- 2909: tmp28 = einsum(t1.bb, (0, 1), f.bb.ov, (2, 1), (2, 0))
    .set 48 (.ein [(1, [0, 1]), (10, [2, 1])] [2, 0]) 1 1,
    -- 2910: tmp244 = einsum(t1.aa, (0, 1), v.aabb.ovoo, (2, 1, 3, 4), (0, 2, 3, 4))
    .set 49 (.ein [(3, [0, 1]), (11, [2, 1, 3, 4])] [0, 2, 3, 4]) 1 1,
    -- 2911: tmp18 = einsum(t1.aa, (0, 1), v.aabb.ovov, (2, 1, 3, 4), (0, 2, 3, 4))
    .set 50 (.ein [(3, [0, 1]), (2, [2, 1, 3, 4])] [0, 2, 3, 4]) 1 1,
    -- 2912: tmp230 = einsum(tmp39, (0, 1, 2, 3), t1.aa, (4, 3), (4, 0, 1, 2))
    .set 51 (.ein [(33, [0, 1, 2, 3]), (3, [4, 3])] [4, 0, 1, 2]) 1 1,
    -- 2913: tmp319 = einsum(v.aabb.ovvv, (0, 1, 2, 3), t1.bb, (4, 3), (0, 4, 1, 2))
    .set 52 (.ein [(12, [0, 1, 2, 3]), (1, [4, 3])] [0, 4, 1, 2]) 1 1,
    -- 2914: tmp257 = einsum(v.aabb.ovvv, (0, 1, 2, 3), t1.aa, (0, 1), (2, 3))
    .set 53 (.ein [(12, [0, 1, 2, 3]), (3, [0, 1])] [2, 3]) 1 1,
    -- 2915: tmp256 = einsum(v.bbbb.ovvv, (0, 1, 2, 3), t1.bb, (0, 3), (1, 2))
    .set 54 (.ein [(7, [0, 1, 2, 3]), (1, [0, 3])] [1, 2]) 1 1,
    -- 2916: tmp255 = einsum(v.bbbb.ovvv, (0, 1, 2, 3), t1.bb, (0, 1), (2, 3))
    .set 55 (.ein [(7, [0, 1, 2, 3]), (1, [0, 1])] [2, 3]) 1 1,
    -- 2917: tmp33 = einsum(v.aabb.ovoo, (0, 1, 2, 3), t1.aa, (0, 1), (2, 3))
    .set 56 (.ein [(11, [0, 1, 2, 3]), (3, [0, 1])] [2, 3]) 1 1,
    -- 2918: tmp32 = einsum(t1.bb, (0, 1), v.bbbb.ooov, (2, 3, 0, 1), (2, 3))
    .set 57 (.ein [(1, [0, 1]), (5, [2, 3, 0, 1])] [2, 3]) 1 1,
    -- 2919: tmp31 = einsum(t1.bb, (0, 1), v.bbbb.ooov, (2, 0, 3, 1), (2, 3))
    .set 58 (.ein [(1, [0, 1]), (5, [2, 0, 3, 1])] [2, 3]) 1 1,
    -- 2920: tmp192 = einsum(v.aabb.ovov, (0, 1, 2, 3), t2.abab, (4, 5, 1, 3), (4, 0, 5, 2))
    .set 59 (.ein [(2, [0, 1, 2, 3]), (9, [4, 5, 1, 3])] [4, 0, 5, 2]) 1 1,
    -- 2921: tmp189 = einsum(v.aabb.vvov, (0, 1, 2, 3), t1.bb, (4, 3), (4, 2, 0, 1))
    .set 60 (.ein [(13, [0, 1, 2, 3]), (1, [4, 3])] [4, 2, 0, 1]) 1 1,
    -- 2922: tmp26 = einsum(t1.aa, (0, 1), tmp13, (2, 1), (0, 2))
    .set 61 (.ein [(3, [0, 1]), (34, [2, 1])] [0, 2]) 1 1,
    -- 2923: tmp25 = einsum(tmp9, (0, 1), t1.aa, (2, 1), (2, 0))
    .set 62 (.ein [(35, [0, 1]), (3, [2, 1])] [2, 0]) 1 1,
    -- 2924: tmp24 = einsum(tmp7, (0, 1), t1.aa, (2, 1), (2, 0))
    .set 63 (.ein [(36, [0, 1]), (3, [2, 1])] [2, 0]) 1 1,
    -- 2925: tmp158 = einsum(v.aaaa.ooov, (0, 1, 2, 3), t1.aa, (4, 3), (4, 0, 1, 2))
    .set 64 (.ein [(14, [0, 1, 2, 3]), (3, [4, 3])] [4, 0, 1, 2]) 1 1,
    -- 2926: tmp22 = einsum(v.aabb.ovov, (0, 1, 2, 3), t2.abab, (4, 2, 1, 3), (4, 0))
    .set 65 (.ein [(2, [0, 1, 2, 3]), (9, [4, 2, 1, 3])] [4, 0]) 1 1,
    -- 2927: tmp20 = einsum(v.aaaa.ovov, (0, 1, 2, 3), t2.aaaa, (4, 2, 1, 3), (4, 0))
    .set 66 (.ein [(4, [0, 1, 2, 3]), (15, [4, 2, 1, 3])] [4, 0]) 1 1,
    -- 2928: tmp1 = einsum(t1.aa, (0, 1), f.aa.ov, (2, 1), (2, 0))
    .set 67 (.ein [(3, [0, 1]), (16, [2, 1])] [2, 0]) 1 1,
    -- 2929: tmp6 = einsum(t1.bb, (0, 1), v.aabb.ooov, (2, 3, 0, 1), (2, 3))
    .set 68 (.ein [(1, [0, 1]), (8, [2, 3, 0, 1])] [2, 3]) 1 1,
    -- 2930: tmp5 = einsum(v.aaaa.ooov, (0, 1, 2, 3), t1.aa, (2, 3), (0, 1))
    .set 69 (.ein [(14, [0, 1, 2, 3]), (3, [2, 3])] [0, 1]) 1 1,
    -- 2931: tmp4 = einsum(t1.aa, (0, 1), v.aaaa.ooov, (2, 0, 3, 1), (2, 3))
    .set 70 (.ein [(3, [0, 1]), (14, [2, 0, 3, 1])] [2, 3]) 1 1,
    -- 2932: tmp78 = einsum(t2.aaaa, (0, 1, 2, 3), v.aaaa.ovov, (4, 2, 5, 3), (0, 1, 4, 5))
    .set 71 (.ein [(15, [0, 1, 2, 3]), (4, [4, 2, 5, 3])] [0, 1, 4, 5]) 1 1,
    -- 2933: tmp72 = einsum(t1.aa, (0, 1), tmp16, (2, 3, 4, 1), (2, 0, 4, 3))
    .set 72 (.ein [(3, [0, 1]), (37, [2, 3, 4, 1])] [2, 0, 4, 3]) 1 1,
    -- 2934: tmp61 = einsum(v.aaaa.ovvv, (0, 1, 2, 3), t1.aa, (4, 3), (4, 0, 1, 2))
    .set 73 (.ein [(17, [0, 1, 2, 3]), (3, [4, 3])] [4, 0, 1, 2]) 1 1,
    -- 2935: tmp57 = einsum(v.aabb.vvov, (0, 1, 2, 3), t1.bb, (2, 3), (0, 1))
    .set 74 (.ein [(13, [0, 1, 2, 3]), (1, [2, 3])] [0, 1]) 1 1,
    -- 2936: tmp55 = einsum(v.aaaa.ovvv, (0, 1, 2, 3), t1.aa, (0, 3), (1, 2))
    .set 75 (.ein [(17, [0, 1, 2, 3]), (3, [0, 3])] [1, 2]) 1 1,
    -- 2937: tmp53 = einsum(v.aaaa.ovvv, (0, 1, 2, 3), t1.aa, (0, 1), (2, 3))
    .set 76 (.ein [(17, [0, 1, 2, 3]), (3, [0, 1])] [2, 3]) 1 1,
    -- 2938: tmp441 = einsum(tmp429, (0, 1, 2, 3), t1.bb, (3, 4), (0, 2, 1, 4))
    .set 77 (.ein [(38, [0, 1, 2, 3]), (1, [3, 4])] [0, 2, 1, 4]) 1 1,
    -- 2939: tmp439 = einsum(t1.bb, (0, 1), tmp429, (2, 3, 0, 4), (2, 3, 4, 1))
    .set 78 (.ein [(1, [0, 1]), (38, [2, 3, 0, 4])] [2, 3, 4, 1]) 1 1,
    -- 2940: tmp437 = einsum(tmp39, (0, 1, 2, 3), t2.abab, (0, 4, 3, 5), (1, 4, 2, 5))
    .set 79 (.ein [(33, [0, 1, 2, 3]), (9, [0, 4, 3, 5])] [1, 4, 2, 5]) 1 1,
    -- 2941: tmp435 = einsum(tmp37, (0, 1, 2, 3), t2.bbbb, (4, 2, 5, 3), (0, 4, 1, 5))
    .set 80 (.ein [(29, [0, 1, 2, 3]), (6, [4, 2, 5, 3])] [0, 4, 1, 5]) 1 1,
    -- 2942: tmp433 = einsum(t2.bbbb, (0, 1, 2, 3), tmp37, (4, 1, 5, 3), (4, 0, 5, 2))
    .set 81 (.ein [(6, [0, 1, 2, 3]), (29, [4, 1, 5, 3])] [4, 0, 5, 2]) 1 1,
    -- 2943: tmp427 = einsum(t1.bb, (0, 1), v.bbbb.oovv, (2, 3, 4, 1), (0, 2, 3, 4))
    .set 82 (.ein [(1, [0, 1]), (18, [2, 3, 4, 1])] [0, 2, 3, 4]) 1 1,
    -- 2944: tmp422 = einsum(tmp15, (0, 1), t2.bbbb, (2, 3, 4, 1), (2, 3, 0, 4))
    .set 83 (.ein [(30, [0, 1]), (6, [2, 3, 4, 1])] [2, 3, 0, 4]) 1 1,
    -- 2945: tmp420 = einsum(tmp12, (0, 1), t2.bbbb, (2, 3, 4, 1), (2, 3, 0, 4))
    .set 84 (.ein [(31, [0, 1]), (6, [2, 3, 4, 1])] [2, 3, 0, 4]) 1 1,
    -- 2946: tmp418 = einsum(tmp11, (0, 1), t2.bbbb, (2, 3, 4, 1), (2, 3, 0, 4))
    .set 85 (.ein [(32, [0, 1]), (6, [2, 3, 4, 1])] [2, 3, 0, 4]) 1 1,
    -- 2947: tmp414 = einsum(f.bb.ov, (0, 1), t2.bbbb, (2, 3, 4, 1), (0, 2, 3, 4))
    .set 86 (.ein [(10, [0, 1]), (6, [2, 3, 4, 1])] [0, 2, 3, 4]) 1 1,
    -- 2948: tmp398 = einsum(v.aabb.ovoo, (0, 1, 2, 3), t2.abab, (0, 4, 1, 5), (4, 2, 3, 5))
    .set 87 (.ein [(11, [0, 1, 2, 3]), (9, [0, 4, 1, 5])] [4, 2, 3, 5]) 1 1,
    -- 2949: tmp396 = einsum(t2.bbbb, (0, 1, 2, 3), v.bbbb.ooov, (4, 5, 1, 3), (0, 4, 5, 2))
    .set 88 (.ein [(6, [0, 1, 2, 3]), (5, [4, 5, 1, 3])] [0, 4, 5, 2]) 1 1,
    -- 2950: tmp394 = einsum(t2.bbbb, (0, 1, 2, 3), v.bbbb.ooov, (4, 1, 5, 3), (0, 4, 5, 2))
    .set 89 (.ein [(6, [0, 1, 2, 3]), (5, [4, 1, 5, 3])] [0, 4, 5, 2]) 1 1,
    -- 2951: tmp383 = einsum(t1.bb, (0, 1), v.bbbb.oooo, (2, 3, 4, 0), (2, 3, 4, 1))
    .set 90 (.ein [(1, [0, 1]), (19, [2, 3, 4, 0])] [2, 3, 4, 1]) 1 1,
    -- 2952: tmp377 = einsum(t1.bb, (0, 1), tmp375, (2, 3, 0, 4), (2, 3, 4, 1)) * -1
    .set 91 (.ein [(1, [0, 1]), (39, [2, 3, 0, 4])] [2, 3, 4, 1]) (-1) 1,
    -- 2953: tmp373 = einsum(v.bbbb.ovvv, (0, 1, 2, 3), t2.bbbb, (4, 5, 3, 1), (4, 5, 0, 2)) * -1
    .set 92 (.ein [(7, [0, 1, 2, 3]), (6, [4, 5, 3, 1])] [4, 5, 0, 2]) (-1) 1,
    -- 2954: tmp371 = einsum(t1.bb, (0, 1), tmp369, (2, 3, 0, 4), (3, 2, 4, 1))
    .set 93 (.ein [(1, [0, 1]), (40, [2, 3, 0, 4])] [3, 2, 4, 1]) 1 1,
    -- 2955: tmp367 = einsum(t1.bb, (0, 1), tmp318, (2, 3, 1, 4), (0, 2, 3, 4))
    .set 94 (.ein [(1, [0, 1]), (41, [2, 3, 1, 4])] [0, 2, 3, 4]) 1 1,
    -- 2956: tmp356 = einsum(t1.bb, (0, 1), tmp47, (2, 0), (2, 1))
    .set 95 (.ein [(1, [0, 1]), (42, [2, 0])] [2, 1]) 1 1,
    -- 2957: tmp355 = einsum(t1.bb, (0, 1), tmp46, (2, 0), (2, 1))
    .set 96 (.ein [(1, [0, 1]), (43, [2, 0])] [2, 1]) 1 1,
    -- 2958: tmp354 = einsum(t1.bb, (0, 1), tmp45, (2, 0), (2, 1))
    .set 97 (.ein [(1, [0, 1]), (44, [2, 0])] [2, 1]) 1 1,
    -- 2959: tmp349 = einsum(t1.bb, (0, 1), tmp233, (2, 3, 4, 0), (3, 2, 4, 1))
    .set 98 (.ein [(1, [0, 1]), (45, [2, 3, 4, 0])] [3, 2, 4, 1]) 1 1,
    -- 2960: tmp348 = einsum(t1.bb, (0, 1), tmp43, (2, 0), (2, 1))
    .set 99 (.ein [(1, [0, 1]), (46, [2, 0])] [2, 1]) 1 1,
    -- 2961: tmp347 = einsum(t1.bb, (0, 1), tmp41, (2, 0), (2, 1))
    .set 100 (.ein [(1, [0, 1]), (47, [2, 0])] [2, 1]) 1 1,
    -- 2962: tmp346 = einsum(tmp39, (0, 1, 2, 3), t2.abab, (4, 2, 3, 5), (4, 0, 1, 5))
    .set 101 (.ein [(33, [0, 1, 2, 3]), (9, [4, 2, 3, 5])] [4, 0, 1, 5]) 1 1,
    -- 2963: tmp345 = einsum(tmp39, (0, 1, 2, 3), t2.abab, (0, 2, 3, 4), (1, 4))
    .set 102 (.ein [(33, [0, 1, 2, 3]), (9, [0, 2, 3, 4])] [1, 4]) 1 1,
    -- 2964: tmp344 = einsum(t2.bbbb, (0, 1, 2, 3), tmp37, (4, 1, 0, 3), (4, 2))
    .set 103 (.ein [(6, [0, 1, 2, 3]), (29, [4, 1, 0, 3])] [4, 2]) 1 1,
    -- 2965: tmp340 = einsum(v.aabb.oovv, (0, 1, 2, 3), t1.bb, (4, 3), (0, 1, 4, 2))
    .set 104 (.ein [(20, [0, 1, 2, 3]), (1, [4, 3])] [0, 1, 4, 2]) 1 1,
    -- 2966: tmp339 = einsum(t1.bb, (0, 1), tmp28, (0, 2), (2, 1))
    .set 105 (.ein [(1, [0, 1]), (48, [0, 2])] [2, 1]) 1 1,
    -- 2967: tmp337 = einsum(t1.bb, (0, 1), tmp244, (2, 3, 4, 0), (2, 3, 4, 1))
    .set 106 (.ein [(1, [0, 1]), (49, [2, 3, 4, 0])] [2, 3, 4, 1]) 1 1,
    -- 2968: tmp335 = einsum(tmp18, (0, 1, 2, 3), t2.bbbb, (4, 2, 5, 3), (0, 1, 4, 5))
    .set 107 (.ein [(50, [0, 1, 2, 3]), (6, [4, 2, 5, 3])] [0, 1, 4, 5]) 1 1,
    -- 2969: tmp334 = einsum(t2.abab, (0, 1, 2, 3), tmp16, (4, 5, 0, 2), (4, 5, 1, 3))
    .set 108 (.ein [(9, [0, 1, 2, 3]), (37, [4, 5, 0, 2])] [4, 5, 1, 3]) 1 1,
    -- 2970: tmp333 = einsum(t2.abab, (0, 1, 2, 3), tmp16, (4, 0, 5, 2), (4, 5, 1, 3))
    .set 109 (.ein [(9, [0, 1, 2, 3]), (37, [4, 0, 5, 2])] [4, 5, 1, 3]) 1 1,
    -- 2971: tmp329 = einsum(v.bbbb.oovv, (0, 1, 2, 3), t1.bb, (1, 3), (0, 2))
    .set 110 (.ein [(18, [0, 1, 2, 3]), (1, [1, 3])] [0, 2]) 1 1,
    -- 2972: tmp328 = einsum(t1.bb, (0, 1), tmp230, (2, 3, 4, 0), (2, 3, 4, 1))
    .set 111 (.ein [(1, [0, 1]), (51, [2, 3, 4, 0])] [2, 3, 4, 1]) 1 1,
    -- 2973: tmp326 = einsum(t1.aa, (0, 1), tmp319, (2, 3, 1, 4), (0, 2, 3, 4))
    .set 112 (.ein [(3, [0, 1]), (52, [2, 3, 1, 4])] [0, 2, 3, 4]) 1 1,
    -- 2974: tmp325 = einsum(tmp257, (0, 1), t1.bb, (2, 1), (2, 0))
    .set 113 (.ein [(53, [0, 1]), (1, [2, 1])] [2, 0]) 1 1,
    -- 2975: tmp324 = einsum(t1.bb, (0, 1), tmp256, (1, 2), (0, 2))
    .set 114 (.ein [(1, [0, 1]), (54, [1, 2])] [0, 2]) 1 1,
    -- 2976: tmp323 = einsum(tmp255, (0, 1), t1.bb, (2, 1), (2, 0))
    .set 115 (.ein [(55, [0, 1]), (1, [2, 1])] [2, 0]) 1 1,
    -- 2977: tmp322 = einsum(v.aabb.ovvv, (0, 1, 2, 3), t2.abab, (0, 4, 1, 3), (4, 2))
    .set 116 (.ein [(12, [0, 1, 2, 3]), (9, [0, 4, 1, 3])] [4, 2]) 1 1,
    -- 2978: tmp321 = einsum(v.bbbb.ovvv, (0, 1, 2, 3), t2.bbbb, (4, 0, 3, 1), (4, 2)) * -1
    .set 117 (.ein [(7, [0, 1, 2, 3]), (6, [4, 0, 3, 1])] [4, 2]) (-1) 1,
    -- 2979: tmp317 = einsum(t1.bb, (0, 1), v.bbbb.ovvv, (2, 1, 3, 4), (0, 2, 3, 4))
    .set 118 (.ein [(1, [0, 1]), (7, [2, 1, 3, 4])] [0, 2, 3, 4]) 1 1,
    -- 2980: tmp316 = einsum(t1.bb, (0, 1), f.bb.vv, (2, 1), (0, 2))
    .set 119 (.ein [(1, [0, 1]), (21, [2, 1])] [0, 2]) 1 1,
    -- 2981: tmp312 = einsum(t1.bb, (0, 1), tmp33, (2, 0), (2, 1))
    .set 120 (.ein [(1, [0, 1]), (56, [2, 0])] [2, 1]) 1 1,
    -- 2982: tmp311 = einsum(t1.bb, (0, 1), tmp32, (2, 0), (2, 1))
    .set 121 (.ein [(1, [0, 1]), (57, [2, 0])] [2, 1]) 1 1,
    -- 2983: tmp310 = einsum(t1.bb, (0, 1), tmp31, (2, 0), (2, 1))
    .set 122 (.ein [(1, [0, 1]), (58, [2, 0])] [2, 1]) 1 1,
    -- 2984: tmp309 = einsum(tmp13, (0, 1), t2.abab, (2, 3, 1, 4), (2, 0, 3, 4))
    .set 123 (.ein [(34, [0, 1]), (9, [2, 3, 1, 4])] [2, 0, 3, 4]) 1 1,
    -- 2985: tmp308 = einsum(tmp9, (0, 1), t2.abab, (2, 3, 1, 4), (2, 0, 3, 4))
    .set 124 (.ein [(35, [0, 1]), (9, [2, 3, 1, 4])] [2, 0, 3, 4]) 1 1,
    -- 2986: tmp307 = einsum(tmp7, (0, 1), t2.abab, (2, 3, 1, 4), (2, 0, 3, 4))
    .set 125 (.ein [(36, [0, 1]), (9, [2, 3, 1, 4])] [2, 0, 3, 4]) 1 1,
    -- 2987: tmp304 = einsum(v.aabb.ovov, (0, 1, 2, 3), t2.abab, (4, 2, 1, 5), (4, 0, 5, 3))
    .set 126 (.ein [(2, [0, 1, 2, 3]), (9, [4, 2, 1, 5])] [4, 0, 5, 3]) 1 1,
    -- 2988: tmp302 = einsum(v.aabb.ovov, (0, 1, 2, 3), t2.abab, (0, 2, 1, 4), (4, 3))
    .set 127 (.ein [(2, [0, 1, 2, 3]), (9, [0, 2, 1, 4])] [4, 3]) 1 1,
    -- 2989: tmp300 = einsum(v.bbbb.ovov, (0, 1, 2, 3), t2.bbbb, (0, 2, 4, 3), (4, 1))
    .set 128 (.ein [(0, [0, 1, 2, 3]), (6, [0, 2, 4, 3])] [4, 1]) 1 1,
    -- 2990: tmp299 = einsum(v.aabb.ovoo, (0, 1, 2, 3), t2.abab, (4, 3, 1, 5), (4, 0, 2, 5))
    .set 129 (.ein [(11, [0, 1, 2, 3]), (9, [4, 3, 1, 5])] [4, 0, 2, 5]) 1 1,
    -- 2991: tmp298 = einsum(v.aabb.ovoo, (0, 1, 2, 3), t2.abab, (0, 3, 1, 4), (2, 4))
    .set 130 (.ein [(11, [0, 1, 2, 3]), (9, [0, 3, 1, 4])] [2, 4]) 1 1,
    -- 2992: tmp297 = einsum(t2.bbbb, (0, 1, 2, 3), v.bbbb.ooov, (4, 0, 1, 3), (4, 2))
    .set 131 (.ein [(6, [0, 1, 2, 3]), (5, [4, 0, 1, 3])] [4, 2]) 1 1,
    -- 2993: tmp292 = einsum(t2.abab, (0, 1, 2, 3), f.aa.ov, (4, 2), (4, 0, 1, 3))
    .set 132 (.ein [(9, [0, 1, 2, 3]), (16, [4, 2])] [4, 0, 1, 3]) 1 1,
    -- 2994: tmp290 = einsum(t1.bb, (0, 1), f.bb.oo, (2, 0), (2, 1))
    .set 133 (.ein [(1, [0, 1]), (22, [2, 0])] [2, 1]) 1 1,
    -- 2995: tmp289 = einsum(tmp15, (0, 1), t2.bbbb, (2, 0, 3, 1), (2, 3))
    .set 134 (.ein [(30, [0, 1]), (6, [2, 0, 3, 1])] [2, 3]) 1 1,
    -- 2996: tmp288 = einsum(tmp13, (0, 1), t2.abab, (0, 2, 1, 3), (2, 3))
    .set 135 (.ein [(34, [0, 1]), (9, [0, 2, 1, 3])] [2, 3]) 1 1,
    -- 2997: tmp287 = einsum(tmp12, (0, 1), t2.bbbb, (2, 0, 3, 1), (2, 3))
    .set 136 (.ein [(31, [0, 1]), (6, [2, 0, 3, 1])] [2, 3]) 1 1,
    -- 2998: tmp286 = einsum(tmp11, (0, 1), t2.bbbb, (2, 0, 3, 1), (2, 3))
    .set 137 (.ein [(32, [0, 1]), (6, [2, 0, 3, 1])] [2, 3]) 1 1,
    -- 2999: tmp285 = einsum(tmp9, (0, 1), t2.abab, (0, 2, 1, 3), (2, 3))
    .set 138 (.ein [(35, [0, 1]), (9, [0, 2, 1, 3])] [2, 3]) 1 1,
    -- 3000: tmp284 = einsum(tmp7, (0, 1), t2.abab, (0, 2, 1, 3), (2, 3))
    .set 139 (.ein [(36, [0, 1]), (9, [0, 2, 1, 3])] [2, 3]) 1 1,
    -- 3001: tmp283 = einsum(v.aabb.ovov, (0, 1, 2, 3), t2.abab, (0, 4, 1, 5), (4, 2, 5, 3))
    .set 140 (.ein [(2, [0, 1, 2, 3]), (9, [0, 4, 1, 5])] [4, 2, 5, 3]) 1 1,
    -- 3002: tmp281 = einsum(v.aabb.ovov, (0, 1, 2, 3), t2.bbbb, (4, 2, 5, 3), (0, 4, 1, 5))
    .set 141 (.ein [(2, [0, 1, 2, 3]), (6, [4, 2, 5, 3])] [0, 4, 1, 5]) 1 1,
    -- 3003: tmp279 = einsum(t2.bbbb, (0, 1, 2, 3), v.bbbb.ovov, (4, 5, 1, 3), (0, 4, 2, 5))
    .set 142 (.ein [(6, [0, 1, 2, 3]), (0, [4, 5, 1, 3])] [0, 4, 2, 5]) 1 1,
    -- 3004: tmp277 = einsum(t2.bbbb, (0, 1, 2, 3), v.bbbb.ovov, (4, 3, 1, 5), (0, 4, 2, 5))
    .set 143 (.ein [(6, [0, 1, 2, 3]), (0, [4, 3, 1, 5])] [0, 4, 2, 5]) 1 1,
    -- 3005: tmp275 = einsum(v.aaaa.ovov, (0, 1, 2, 3), t2.abab, (2, 4, 3, 5), (0, 4, 1, 5))
    .set 144 (.ein [(4, [0, 1, 2, 3]), (9, [2, 4, 3, 5])] [0, 4, 1, 5]) 1 1,
    -- 3006: tmp273 = einsum(v.aaaa.ovov, (0, 1, 2, 3), t2.abab, (2, 4, 1, 5), (0, 4, 3, 5))
    .set 145 (.ein [(4, [0, 1, 2, 3]), (9, [2, 4, 1, 5])] [0, 4, 3, 5]) 1 1,
    -- 3007: tmp271 = einsum(v.aabb.ooov, (0, 1, 2, 3), t2.bbbb, (4, 2, 5, 3), (0, 1, 4, 5))
    .set 146 (.ein [(8, [0, 1, 2, 3]), (6, [4, 2, 5, 3])] [0, 1, 4, 5]) 1 1,
    -- 3008: tmp270 = einsum(v.aaaa.ooov, (0, 1, 2, 3), t2.abab, (2, 4, 3, 5), (0, 1, 4, 5))
    .set 147 (.ein [(14, [0, 1, 2, 3]), (9, [2, 4, 3, 5])] [0, 1, 4, 5]) 1 1,
    -- 3009: tmp269 = einsum(t2.abab, (0, 1, 2, 3), v.aaaa.ooov, (4, 0, 5, 2), (4, 5, 1, 3))
    .set 148 (.ein [(9, [0, 1, 2, 3]), (14, [4, 0, 5, 2])] [4, 5, 1, 3]) 1 1,
    -- 3010: tmp267 = einsum(t1.bb, (0, 1), v.aabb.oooo, (2, 3, 4, 0), (2, 3, 4, 1))
    .set 149 (.ein [(1, [0, 1]), (23, [2, 3, 4, 0])] [2, 3, 4, 1]) 1 1,
    -- 3011: tmp265 = einsum(f.bb.ov, (0, 1), t2.bbbb, (2, 0, 3, 1), (2, 3))
    .set 150 (.ein [(10, [0, 1]), (6, [2, 0, 3, 1])] [2, 3]) 1 1,
    -- 3012: tmp264 = einsum(f.aa.ov, (0, 1), t2.abab, (0, 2, 1, 3), (2, 3))
    .set 151 (.ein [(16, [0, 1]), (9, [0, 2, 1, 3])] [2, 3]) 1 1,
    -- 3013: tmp262 = einsum(t1.bb, (0, 1), tmp192, (2, 3, 4, 0), (2, 3, 4, 1))
    .set 152 (.ein [(1, [0, 1]), (59, [2, 3, 4, 0])] [2, 3, 4, 1]) 1 1,
    -- 3014: tmp259 = einsum(v.aabb.ovvv, (0, 1, 2, 3), t2.abab, (4, 5, 1, 3), (4, 0, 5, 2))
    .set 153 (.ein [(12, [0, 1, 2, 3]), (9, [4, 5, 1, 3])] [4, 0, 5, 2]) 1 1,
    -- 3015: tmp258 = einsum(t1.aa, (0, 1), v.aabb.ovvv, (2, 1, 3, 4), (0, 2, 3, 4))
    .set 154 (.ein [(3, [0, 1]), (12, [2, 1, 3, 4])] [0, 2, 3, 4]) 1 1,
    -- 3016: tmp249 = einsum(t1.aa, (0, 1), tmp244, (2, 0, 3, 4), (2, 4, 3, 1))
    .set 155 (.ein [(3, [0, 1]), (49, [2, 0, 3, 4])] [2, 4, 3, 1]) 1 1,
    -- 3017: tmp248 = einsum(t2.abab, (0, 1, 2, 3), tmp18, (4, 0, 5, 3), (4, 1, 5, 2))
    .set 156 (.ein [(9, [0, 1, 2, 3]), (50, [4, 0, 5, 3])] [4, 1, 5, 2]) 1 1,
    -- 3018: tmp243 = einsum(t1.aa, (0, 1), v.aabb.vvoo, (2, 1, 3, 4), (0, 3, 4, 2))
    .set 157 (.ein [(3, [0, 1]), (24, [2, 1, 3, 4])] [0, 3, 4, 2]) 1 1,
    -- 3019: tmp241 = einsum(t1.aa, (0, 1), tmp233, (2, 0, 3, 4), (2, 3, 4, 1))
    .set 158 (.ein [(3, [0, 1]), (45, [2, 0, 3, 4])] [2, 3, 4, 1]) 1 1,
    -- 3020: tmp239 = einsum(tmp39, (0, 1, 2, 3), t2.aaaa, (4, 0, 5, 3), (4, 1, 2, 5))
    .set 159 (.ein [(33, [0, 1, 2, 3]), (15, [4, 0, 5, 3])] [4, 1, 2, 5]) 1 1,
    -- 3021: tmp238 = einsum(tmp37, (0, 1, 2, 3), t2.abab, (4, 2, 5, 3), (4, 0, 1, 5))
    .set 160 (.ein [(29, [0, 1, 2, 3]), (9, [4, 2, 5, 3])] [4, 0, 1, 5]) 1 1,
    -- 3022: tmp237 = einsum(t2.abab, (0, 1, 2, 3), tmp37, (4, 1, 5, 3), (0, 4, 5, 2))
    .set 161 (.ein [(9, [0, 1, 2, 3]), (29, [4, 1, 5, 3])] [0, 4, 5, 2]) 1 1,
    -- 3023: tmp232 = einsum(t1.aa, (0, 1), tmp230, (2, 0, 3, 4), (2, 3, 4, 1))
    .set 162 (.ein [(3, [0, 1]), (51, [2, 0, 3, 4])] [2, 3, 4, 1]) 1 1,
    -- 3024: tmp229 = einsum(t1.aa, (0, 1), tmp189, (2, 3, 4, 1), (0, 2, 3, 4))
    .set 163 (.ein [(3, [0, 1]), (60, [2, 3, 4, 1])] [0, 2, 3, 4]) 1 1,
    -- 3025: tmp224 = einsum(tmp15, (0, 1), t2.abab, (2, 3, 4, 1), (2, 3, 0, 4))
    .set 164 (.ein [(30, [0, 1]), (9, [2, 3, 4, 1])] [2, 3, 0, 4]) 1 1,
    -- 3026: tmp223 = einsum(tmp12, (0, 1), t2.abab, (2, 3, 4, 1), (2, 3, 0, 4))
    .set 165 (.ein [(31, [0, 1]), (9, [2, 3, 4, 1])] [2, 3, 0, 4]) 1 1,
    -- 3027: tmp222 = einsum(tmp11, (0, 1), t2.abab, (2, 3, 4, 1), (2, 3, 0, 4))
    .set 166 (.ein [(32, [0, 1]), (9, [2, 3, 4, 1])] [2, 3, 0, 4]) 1 1,
    -- 3028: tmp217 = einsum(v.aabb.ovov, (0, 1, 2, 3), t2.abab, (0, 4, 5, 3), (4, 2, 5, 1))
    .set 167 (.ein [(2, [0, 1, 2, 3]), (9, [0, 4, 5, 3])] [4, 2, 5, 1]) 1 1,
    -- 3029: tmp214 = einsum(v.aabb.ooov, (0, 1, 2, 3), t2.abab, (1, 4, 5, 3), (0, 4, 2, 5))
    .set 168 (.ein [(8, [0, 1, 2, 3]), (9, [1, 4, 5, 3])] [0, 4, 2, 5]) 1 1,
    -- 3030: tmp209 = einsum(f.bb.ov, (0, 1), t2.abab, (2, 3, 4, 1), (2, 0, 3, 4))
    .set 169 (.ein [(10, [0, 1]), (9, [2, 3, 4, 1])] [2, 0, 3, 4]) 1 1,
    -- 3031: tmp201 = einsum(t2.aaaa, (0, 1, 2, 3), v.aabb.ovoo, (1, 3, 4, 5), (0, 4, 5, 2))
    .set 170 (.ein [(15, [0, 1, 2, 3]), (11, [1, 3, 4, 5])] [0, 4, 5, 2]) 1 1,
    -- 3032: tmp200 = einsum(t2.abab, (0, 1, 2, 3), v.bbbb.ooov, (4, 5, 1, 3), (0, 4, 5, 2))
    .set 171 (.ein [(9, [0, 1, 2, 3]), (5, [4, 5, 1, 3])] [0, 4, 5, 2]) 1 1,
    -- 3033: tmp199 = einsum(t2.abab, (0, 1, 2, 3), v.bbbb.ooov, (4, 1, 5, 3), (0, 4, 5, 2))
    .set 172 (.ein [(9, [0, 1, 2, 3]), (5, [4, 1, 5, 3])] [0, 4, 5, 2]) 1 1,
    -- 3034: tmp197 = einsum(t1.aa, (0, 1), v.aabb.oooo, (2, 0, 3, 4), (2, 3, 4, 1))
    .set 173 (.ein [(3, [0, 1]), (23, [2, 0, 3, 4])] [2, 3, 4, 1]) 1 1,
    -- 3035: tmp194 = einsum(t1.aa, (0, 1), tmp192, (2, 0, 3, 4), (2, 3, 4, 1))
    .set 174 (.ein [(3, [0, 1]), (59, [2, 0, 3, 4])] [2, 3, 4, 1]) 1 1,
    -- 3036: tmp190 = einsum(v.aabb.vvov, (0, 1, 2, 3), t2.abab, (4, 5, 1, 3), (4, 5, 2, 0))
    .set 175 (.ein [(13, [0, 1, 2, 3]), (9, [4, 5, 1, 3])] [4, 5, 2, 0]) 1 1,
    -- 3037: tmp187 = einsum(t1.aa, (0, 1), tmp26, (2, 0), (2, 1))
    .set 176 (.ein [(3, [0, 1]), (61, [2, 0])] [2, 1]) 1 1,
    -- 3038: tmp186 = einsum(tmp25, (0, 1), t1.aa, (1, 2), (0, 2))
    .set 177 (.ein [(62, [0, 1]), (3, [1, 2])] [0, 2]) 1 1,
    -- 3039: tmp185 = einsum(t1.aa, (0, 1), tmp24, (2, 0), (2, 1))
    .set 178 (.ein [(3, [0, 1]), (63, [2, 0])] [2, 1]) 1 1,
    -- 3040: tmp174 = einsum(t1.aa, (0, 1), tmp158, (2, 3, 4, 0), (2, 4, 3, 1))
    .set 179 (.ein [(3, [0, 1]), (64, [2, 3, 4, 0])] [2, 4, 3, 1]) 1 1,
    -- 3041: tmp172 = einsum(t1.aa, (0, 1), tmp158, (2, 3, 0, 4), (2, 3, 4, 1))
    .set 180 (.ein [(3, [0, 1]), (64, [2, 3, 0, 4])] [2, 3, 4, 1]) 1 1,
    -- 3042: tmp171 = einsum(t1.aa, (0, 1), tmp22, (2, 0), (2, 1))
    .set 181 (.ein [(3, [0, 1]), (65, [2, 0])] [2, 1]) 1 1,
    -- 3043: tmp170 = einsum(t1.aa, (0, 1), tmp20, (2, 0), (2, 1))
    .set 182 (.ein [(3, [0, 1]), (66, [2, 0])] [2, 1]) 1 1,
    -- 3044: tmp168 = einsum(tmp18, (0, 1, 2, 3), t2.abab, (4, 2, 5, 3), (0, 4, 1, 5))
    .set 183 (.ein [(50, [0, 1, 2, 3]), (9, [4, 2, 5, 3])] [0, 4, 1, 5]) 1 1,
    -- 3045: tmp166 = einsum(t2.aaaa, (0, 1, 2, 3), tmp16, (4, 5, 1, 3), (4, 0, 5, 2))
    .set 184 (.ein [(15, [0, 1, 2, 3]), (37, [4, 5, 1, 3])] [4, 0, 5, 2]) 1 1,
    -- 3046: tmp164 = einsum(t2.aaaa, (0, 1, 2, 3), tmp16, (4, 1, 5, 3), (4, 0, 5, 2))
    .set 185 (.ein [(15, [0, 1, 2, 3]), (37, [4, 1, 5, 3])] [4, 0, 5, 2]) 1 1,
    -- 3047: tmp163 = einsum(t2.abab, (0, 1, 2, 3), tmp18, (4, 0, 1, 3), (4, 2))
    .set 186 (.ein [(9, [0, 1, 2, 3]), (50, [4, 0, 1, 3])] [4, 2]) 1 1,
    -- 3048: tmp162 = einsum(t2.aaaa, (0, 1, 2, 3), tmp16, (4, 0, 1, 3), (4, 2)) * -1
    .set 187 (.ein [(15, [0, 1, 2, 3]), (37, [4, 0, 1, 3])] [4, 2]) (-1) 1,
    -- 3049: tmp156 = einsum(t1.aa, (0, 1), v.aaaa.oovv, (2, 3, 4, 1), (0, 2, 3, 4))
    .set 188 (.ein [(3, [0, 1]), (25, [2, 3, 4, 1])] [0, 2, 3, 4]) 1 1,
    -- 3050: tmp155 = einsum(t1.aa, (0, 1), v.aaaa.oovv, (2, 0, 3, 1), (2, 3))
    .set 189 (.ein [(3, [0, 1]), (25, [2, 0, 3, 1])] [2, 3]) 1 1,
    -- 3051: tmp152 = einsum(t1.aa, (0, 1), tmp1, (0, 2), (2, 1))
    .set 190 (.ein [(3, [0, 1]), (67, [0, 2])] [2, 1]) 1 1,
    -- 3052: tmp149 = einsum(tmp13, (0, 1), t2.aaaa, (2, 3, 4, 1), (2, 3, 0, 4))
    .set 191 (.ein [(34, [0, 1]), (15, [2, 3, 4, 1])] [2, 3, 0, 4]) 1 1,
    -- 3053: tmp147 = einsum(tmp9, (0, 1), t2.aaaa, (2, 3, 4, 1), (2, 3, 0, 4))
    .set 192 (.ein [(35, [0, 1]), (15, [2, 3, 4, 1])] [2, 3, 0, 4]) 1 1,
    -- 3054: tmp145 = einsum(tmp7, (0, 1), t2.aaaa, (2, 3, 4, 1), (2, 3, 0, 4))
    .set 193 (.ein [(36, [0, 1]), (15, [2, 3, 4, 1])] [2, 3, 0, 4]) 1 1,
    -- 3055: tmp139 = einsum(f.aa.ov, (0, 1), t2.aaaa, (2, 3, 4, 1), (0, 2, 3, 4))
    .set 194 (.ein [(16, [0, 1]), (15, [2, 3, 4, 1])] [0, 2, 3, 4]) 1 1,
    -- 3056: tmp132 = einsum(t1.aa, (0, 1), tmp6, (2, 0), (2, 1))
    .set 195 (.ein [(3, [0, 1]), (68, [2, 0])] [2, 1]) 1 1,
    -- 3057: tmp131 = einsum(t1.aa, (0, 1), tmp5, (2, 0), (2, 1))
    .set 196 (.ein [(3, [0, 1]), (69, [2, 0])] [2, 1]) 1 1,
    -- 3058: tmp130 = einsum(t1.aa, (0, 1), tmp4, (2, 0), (2, 1))
    .set 197 (.ein [(3, [0, 1]), (70, [2, 0])] [2, 1]) 1 1,
    -- 3059: tmp129 = einsum(tmp15, (0, 1), t2.abab, (2, 0, 3, 1), (2, 3))
    .set 198 (.ein [(30, [0, 1]), (9, [2, 0, 3, 1])] [2, 3]) 1 1,
    -- 3060: tmp128 = einsum(tmp13, (0, 1), t2.aaaa, (2, 0, 3, 1), (2, 3))
    .set 199 (.ein [(34, [0, 1]), (15, [2, 0, 3, 1])] [2, 3]) 1 1,
    -- 3061: tmp127 = einsum(tmp12, (0, 1), t2.abab, (2, 0, 3, 1), (2, 3))
    .set 200 (.ein [(31, [0, 1]), (9, [2, 0, 3, 1])] [2, 3]) 1 1,
    -- 3062: tmp126 = einsum(tmp11, (0, 1), t2.abab, (2, 0, 3, 1), (2, 3))
    .set 201 (.ein [(32, [0, 1]), (9, [2, 0, 3, 1])] [2, 3]) 1 1,
    -- 3063: tmp125 = einsum(t2.aaaa, (0, 1, 2, 3), tmp9, (1, 3), (0, 2))
    .set 202 (.ein [(15, [0, 1, 2, 3]), (35, [1, 3])] [0, 2]) 1 1,
    -- 3064: tmp124 = einsum(tmp7, (0, 1), t2.aaaa, (2, 0, 3, 1), (2, 3))
    .set 203 (.ein [(36, [0, 1]), (15, [2, 0, 3, 1])] [2, 3]) 1 1,
    -- 3065: tmp122 = einsum(t2.aaaa, (0, 1, 2, 3), v.aabb.ovov, (1, 3, 4, 5), (0, 4, 2, 5))
    .set 204 (.ein [(15, [0, 1, 2, 3]), (2, [1, 3, 4, 5])] [0, 4, 2, 5]) 1 1,
    -- 3066: tmp120 = einsum(v.aabb.ovov, (0, 1, 2, 3), t2.abab, (4, 2, 5, 3), (4, 0, 5, 1))
    .set 205 (.ein [(2, [0, 1, 2, 3]), (9, [4, 2, 5, 3])] [4, 0, 5, 1]) 1 1,
    -- 3067: tmp118 = einsum(v.bbbb.ovov, (0, 1, 2, 3), t2.abab, (4, 2, 5, 3), (4, 0, 5, 1))
    .set 206 (.ein [(0, [0, 1, 2, 3]), (9, [4, 2, 5, 3])] [4, 0, 5, 1]) 1 1,
    -- 3068: tmp116 = einsum(v.bbbb.ovov, (0, 1, 2, 3), t2.abab, (4, 2, 5, 1), (4, 0, 5, 3))
    .set 207 (.ein [(0, [0, 1, 2, 3]), (9, [4, 2, 5, 1])] [4, 0, 5, 3]) 1 1,
    -- 3069: tmp114 = einsum(v.aaaa.ovov, (0, 1, 2, 3), t2.aaaa, (4, 2, 5, 3), (4, 0, 5, 1))
    .set 208 (.ein [(4, [0, 1, 2, 3]), (15, [4, 2, 5, 3])] [4, 0, 5, 1]) 1 1,
    -- 3070: tmp112 = einsum(v.aaaa.ovov, (0, 1, 2, 3), t2.aaaa, (4, 2, 5, 1), (4, 0, 5, 3))
    .set 209 (.ein [(4, [0, 1, 2, 3]), (15, [4, 2, 5, 1])] [4, 0, 5, 3]) 1 1,
    -- 3071: tmp110 = einsum(v.aabb.ovov, (0, 1, 2, 3), t2.abab, (0, 2, 4, 3), (4, 1))
    .set 210 (.ein [(2, [0, 1, 2, 3]), (9, [0, 2, 4, 3])] [4, 1]) 1 1,
    -- 3072: tmp108 = einsum(t2.aaaa, (0, 1, 2, 3), v.aaaa.ovov, (0, 3, 1, 4), (2, 4)) * -1
    .set 211 (.ein [(15, [0, 1, 2, 3]), (4, [0, 3, 1, 4])] [2, 4]) (-1) 1,
    -- 3073: tmp106 = einsum(v.aabb.ooov, (0, 1, 2, 3), t2.abab, (4, 2, 5, 3), (4, 0, 1, 5))
    .set 212 (.ein [(8, [0, 1, 2, 3]), (9, [4, 2, 5, 3])] [4, 0, 1, 5]) 1 1,
    -- 3074: tmp104 = einsum(v.aaaa.ooov, (0, 1, 2, 3), t2.aaaa, (4, 2, 5, 3), (4, 0, 1, 5))
    .set 213 (.ein [(14, [0, 1, 2, 3]), (15, [4, 2, 5, 3])] [4, 0, 1, 5]) 1 1,
    -- 3075: tmp102 = einsum(v.aaaa.ooov, (0, 1, 2, 3), t2.aaaa, (4, 1, 5, 3), (4, 0, 2, 5))
    .set 214 (.ein [(14, [0, 1, 2, 3]), (15, [4, 1, 5, 3])] [4, 0, 2, 5]) 1 1,
    -- 3076: tmp101 = einsum(t2.abab, (0, 1, 2, 3), v.aabb.ooov, (4, 0, 1, 3), (4, 2))
    .set 215 (.ein [(9, [0, 1, 2, 3]), (8, [4, 0, 1, 3])] [4, 2]) 1 1,
    -- 3077: tmp100 = einsum(t2.aaaa, (0, 1, 2, 3), v.aaaa.ooov, (4, 1, 0, 3), (4, 2)) * -1
    .set 216 (.ein [(15, [0, 1, 2, 3]), (14, [4, 1, 0, 3])] [4, 2]) (-1) 1,
    -- 3078: tmp89 = einsum(t1.aa, (0, 1), v.aaaa.oooo, (2, 3, 4, 0), (2, 3, 4, 1))
    .set 217 (.ein [(3, [0, 1]), (26, [2, 3, 4, 0])] [2, 3, 4, 1]) 1 1,
    -- 3079: tmp87 = einsum(f.bb.ov, (0, 1), t2.abab, (2, 0, 3, 1), (2, 3))
    .set 218 (.ein [(10, [0, 1]), (9, [2, 0, 3, 1])] [2, 3]) 1 1,
    -- 3080: tmp86 = einsum(f.aa.ov, (0, 1), t2.aaaa, (2, 0, 3, 1), (2, 3))
    .set 219 (.ein [(16, [0, 1]), (15, [2, 0, 3, 1])] [2, 3]) 1 1,
    -- 3081: tmp83 = einsum(t1.aa, (0, 1), f.aa.oo, (2, 0), (2, 1))
    .set 220 (.ein [(3, [0, 1]), (27, [2, 0])] [2, 1]) 1 1,
    -- 3082: tmp80 = einsum(t1.aa, (0, 1), tmp78, (2, 3, 0, 4), (2, 3, 4, 1)) * -1
    .set 221 (.ein [(3, [0, 1]), (71, [2, 3, 0, 4])] [2, 3, 4, 1]) (-1) 1,
    -- 3083: tmp76 = einsum(v.aaaa.ovvv, (0, 1, 2, 3), t2.aaaa, (4, 5, 1, 3), (4, 5, 0, 2))
    .set 222 (.ein [(17, [0, 1, 2, 3]), (15, [4, 5, 1, 3])] [4, 5, 0, 2]) 1 1,
    -- 3084: tmp74 = einsum(tmp72, (0, 1, 2, 3), t1.aa, (2, 4), (1, 0, 3, 4))
    .set 223 (.ein [(72, [0, 1, 2, 3]), (3, [2, 4])] [1, 0, 3, 4]) 1 1,
    -- 3085: tmp70 = einsum(t1.aa, (0, 1), tmp61, (2, 3, 1, 4), (0, 2, 3, 4))
    .set 224 (.ein [(3, [0, 1]), (73, [2, 3, 1, 4])] [0, 2, 3, 4]) 1 1,
    -- 3086: tmp69 = einsum(t1.aa, (0, 1), tmp57, (2, 1), (0, 2))
    .set 225 (.ein [(3, [0, 1]), (74, [2, 1])] [0, 2]) 1 1,
    -- 3087: tmp68 = einsum(tmp55, (0, 1), t1.aa, (2, 0), (2, 1))
    .set 226 (.ein [(75, [0, 1]), (3, [2, 0])] [2, 1]) 1 1,
    -- 3088: tmp67 = einsum(t1.aa, (0, 1), tmp53, (2, 1), (0, 2))
    .set 227 (.ein [(3, [0, 1]), (76, [2, 1])] [0, 2]) 1 1,
    -- 3089: tmp66 = einsum(t2.abab, (0, 1, 2, 3), v.aabb.vvov, (4, 2, 1, 3), (0, 4))
    .set 228 (.ein [(9, [0, 1, 2, 3]), (13, [4, 2, 1, 3])] [0, 4]) 1 1,
    -- 3090: tmp65 = einsum(v.aaaa.ovvv, (0, 1, 2, 3), t2.aaaa, (4, 0, 1, 3), (4, 2))
    .set 229 (.ein [(17, [0, 1, 2, 3]), (15, [4, 0, 1, 3])] [4, 2]) 1 1,
    -- 3091: tmp63 = einsum(t1.aa, (0, 1), v.aabb.vvov, (2, 1, 3, 4), (0, 3, 2, 4))
    .set 230 (.ein [(3, [0, 1]), (13, [2, 1, 3, 4])] [0, 3, 2, 4]) 1 1,
    -- 3092: tmp59 = einsum(v.aaaa.ovvv, (0, 1, 2, 3), t1.aa, (4, 1), (4, 0, 2, 3))
    .set 231 (.ein [(17, [0, 1, 2, 3]), (3, [4, 1])] [4, 0, 2, 3]) 1 1,
    -- 3093: tmp49 = einsum(t1.aa, (0, 1), f.aa.vv, (2, 1), (0, 2))
    .set 232 (.ein [(3, [0, 1]), (28, [2, 1])] [0, 2]) 1 1
  ]
  ret := [(chars! "tmp1", 67), (chars! "tmp100", 216), (chars! "tmp101", 215), (chars! "tmp102", 214), (chars! "tmp104", 213), (chars! "tmp106", 212), (chars! "tmp108", 211), (chars! "tmp11", 32), (chars! "tmp110", 210), (chars! "tmp112", 209), (chars! "tmp114", 208), (chars! "tmp116", 207), (chars! "tmp118", 206), (chars! "tmp12", 31), (chars! "tmp120", 205), (chars! "tmp122", 204), (chars! "tmp124", 203), (chars! "tmp125", 202), (chars! "tmp126", 201), (chars! "tmp127", 200), (chars! "tmp128", 199), (chars! "tmp129", 198), (chars! "tmp13", 34), (chars! "tmp130", 197), (chars! "tmp131", 196), (chars! "tmp132", 195), (chars! "tmp139", 194), (chars! "tmp145", 193), (chars! "tmp147", 192), (chars! "tmp149", 191), (chars! "tmp15", 30), (chars! "tmp152", 190), (chars! "tmp155", 189), (chars! "tmp156", 188), (chars! "tmp158", 64), (chars! "tmp16", 37), (chars! "tmp162", 187), (chars! "tmp163", 186), (chars! "tmp164", 185), (chars! "tmp166", 184), (chars! "tmp168", 183), (chars! "tmp170", 182), (chars! "tmp171", 181), (chars! "tmp172", 180), (chars! "tmp174", 179), (chars! "tmp18", 50), (chars! "tmp185", 178), (chars! "tmp186", 177), (chars! "tmp187", 176), (chars! "tmp189", 60), (chars! "tmp190", 175), (chars! "tmp192", 59), (chars! "tmp194", 174), (chars! "tmp197", 173), (chars! "tmp199", 172), (chars! "tmp20", 66), (chars! "tmp200", 171), (chars! "tmp201", 170), (chars! "tmp209", 169), (chars! "tmp214", 168), (chars! "tmp217", 167), (chars! "tmp22", 65), (chars! "tmp222", 166), (chars! "tmp223", 165), (chars! "tmp224", 164), (chars! "tmp229", 163), (chars! "tmp230", 51), (chars! "tmp232", 162), (chars! "tmp233", 45), (chars! "tmp237", 161), (chars! "tmp238", 160), (chars! "tmp239", 159), (chars! "tmp24", 63), (chars! "tmp241", 158), (chars! "tmp243", 157), (chars! "tmp244", 49), (chars! "tmp248", 156), (chars! "tmp249", 155), (chars! "tmp25", 62), (chars! "tmp255", 55), (chars! "tmp256", 54), (chars! "tmp257", 53), (chars! "tmp258", 154), (chars! "tmp259", 153), (chars! "tmp26", 61), (chars! "tmp262", 152), (chars! "tmp264", 151), (chars! "tmp265", 150), (chars! "tmp267", 149), (chars! "tmp269", 148), (chars! "tmp270", 147), (chars! "tmp271", 146), (chars! "tmp273", 145), (chars! "tmp275", 144), (chars! "tmp277", 143), (chars! "tmp279", 142), (chars! "tmp28", 48), (chars! "tmp281", 141), (chars! "tmp283", 140), (chars! "tmp284", 139), (chars! "tmp285", 138), (chars! "tmp286", 137), (chars! "tmp287", 136), (chars! "tmp288", 135), (chars! "tmp289", 134), (chars! "tmp290", 133), (chars! "tmp292", 132), (chars! "tmp297", 131), (chars! "tmp298", 130), (chars! "tmp299", 129), (chars! "tmp300", 128), (chars! "tmp302", 127), (chars! "tmp304", 126), (chars! "tmp307", 125), (chars! "tmp308", 124), (chars! "tmp309", 123), (chars! "tmp31", 58), (chars! "tmp310", 122), (chars! "tmp311", 121), (chars! "tmp312", 120), (chars! "tmp316", 119), (chars! "tmp317", 118), (chars! "tmp318", 41), (chars! "tmp319", 52), (chars! "tmp32", 57), (chars! "tmp321", 117), (chars! "tmp322", 116), (chars! "tmp323", 115), (chars! "tmp324", 114), (chars! "tmp325", 113), (chars! "tmp326", 112), (chars! "tmp328", 111), (chars! "tmp329", 110), (chars! "tmp33", 56), (chars! "tmp333", 109), (chars! "tmp334", 108), (chars! "tmp335", 107), (chars! "tmp337", 106), (chars! "tmp339", 105), (chars! "tmp340", 104), (chars! "tmp344", 103), (chars! "tmp345", 102), (chars! "tmp346", 101), (chars! "tmp347", 100), (chars! "tmp348", 99), (chars! "tmp349", 98), (chars! "tmp354", 97), (chars! "tmp355", 96), (chars! "tmp356", 95), (chars! "tmp367", 94), (chars! "tmp369", 40), (chars! "tmp37", 29), (chars! "tmp371", 93), (chars! "tmp373", 92), (chars! "tmp375", 39), (chars! "tmp377", 91), (chars! "tmp383", 90), (chars! "tmp39", 33), (chars! "tmp394", 89), (chars! "tmp396", 88), (chars! "tmp398", 87), (chars! "tmp4", 70), (chars! "tmp41", 47), (chars! "tmp414", 86), (chars! "tmp418", 85), (chars! "tmp420", 84), (chars! "tmp422", 83), (chars! "tmp427", 82), (chars! "tmp429", 38), (chars! "tmp43", 46), (chars! "tmp433", 81), (chars! "tmp435", 80), (chars! "tmp437", 79), (chars! "tmp439", 78), (chars! "tmp441", 77), (chars! "tmp45", 44), (chars! "tmp46", 43), (chars! "tmp47", 42), (chars! "tmp49", 232), (chars! "tmp5", 69), (chars! "tmp53", 76), (chars! "tmp55", 75), (chars! "tmp57", 74), (chars! "tmp59", 231), (chars! "tmp6", 68), (chars! "tmp61", 73), (chars! "tmp63", 230), (chars! "tmp65", 229), (chars! "tmp66", 228), (chars! "tmp67", 227), (chars! "tmp68", 226), (chars! "tmp69", 225), (chars! "tmp7", 36), (chars! "tmp70", 224), (chars! "tmp72", 72), (chars! "tmp74", 223), (chars! "tmp76", 222), (chars! "tmp78", 71), (chars! "tmp80", 221), (chars! "tmp83", 220), (chars! "tmp86", 219), (chars! "tmp87", 218), (chars! "tmp89", 217), (chars! "tmp9", 35)]

/-- codegen/UCCSD.py:3097-3662 `hbar_matvec_ip`. -/
def hbar_matvec_ip : GenFun where
  args := [chars! "ints.tmp37", chars! "v.bbbb.ooov", chars! "v.bbbb.ovoo", chars! "ints.tmp16", chars! "v.aaaa.ooov", chars! "r2.aba", chars! "ints.tmp39", chars! "v.aabb.ovoo", chars! "r2.bbb", chars! "r2.aaa", chars! "v.aabb.ooov", chars! "r2.bab", chars! "ints.tmp18", chars! "f.bb.ov", chars! "ints.tmp12", chars! "ints.tmp15", chars! "ints.tmp11", chars! "ints.tmp367", chars! "ints.tmp394", chars! "ints.tmp433", chars! "ints.tmp437", chars! "ints.tmp441", chars! "ints.tmp41", chars! "ints.tmp43", chars! "ints.tmp31", chars! "ints.tmp45", chars! "ints.tmp279", chars! "ints.tmp283", chars! "ints.tmp318", chars! "ints.tmp371", chars! "ints.tmp383", chars! "ints.tmp398", chars! "ints.tmp427", chars! "ints.tmp439", chars! "ints.tmp396", chars! "ints.tmp435", chars! "ints.tmp275", chars! "ints.tmp319", chars! "ints.tmp281", chars! "f.bb.oo", chars! "ints.tmp28", chars! "ints.tmp32", chars! "ints.tmp33", chars! "ints.tmp46", chars! "ints.tmp47", chars! "ints.tmp317", chars! "ints.tmp277", chars! "f.aa.ov", chars! "ints.tmp13", chars! "ints.tmp9", chars! "ints.tmp7", chars! "f.aa.oo", chars! "ints.tmp1", chars! "ints.tmp25", chars! "ints.tmp26", chars! "ints.tmp5", chars! "ints.tmp6", chars! "ints.tmp59", chars! "ints.tmp112", chars! "ints.tmp106", chars! "ints.tmp156", chars! "ints.tmp172", chars! "ints.tmp74", chars! "ints.tmp89", chars! "ints.tmp104", chars! "ints.tmp166", chars! "ints.tmp114", chars! "ints.tmp120", chars! "ints.tmp61", chars! "ints.tmp118", chars! "ints.tmp122", chars! "ints.tmp63", chars! "ints.tmp20", chars! "ints.tmp22", chars! "ints.tmp24", chars! "ints.tmp4", chars! "ints.tmp102", chars! "ints.tmp164", chars! "ints.tmp168", chars! "ints.tmp174", chars! "ints.tmp70", chars! "t1.bb", chars! "v.aabb.ovov", chars! "v.bbbb.oovv", chars! "r1.b", chars! "ints.tmp273", chars! "ints.tmp429", chars! "v.bbbb.ovov", chars! "v.aaaa.ovov", chars! "t1.aa", chars! "ints.tmp116", chars! "r1.a", chars! "ints.tmp158", chars! "v.aaaa.oovv", chars! "ints.tmp377", chars! "ints.tmp414", chars! "ints.tmp420", chars! "ints.tmp422", chars! "ints.tmp373", chars! "ints.tmp418", chars! "ints.tmp256", chars! "ints.tmp300", chars! "ints.tmp302", chars! "f.bb.vv", chars! "ints.tmp255", chars! "ints.tmp257", chars! "ints.tmp369", chars! "ints.tmp375", chars! "v.bbbb.oooo", chars! "ints.tmp284", chars! "ints.tmp286", chars! "ints.tmp290", chars! "ints.tmp297", chars! "ints.tmp298", chars! "ints.tmp311", chars! "ints.tmp312", chars! "ints.tmp321", chars! "ints.tmp324", chars! "ints.tmp329", chars! "ints.tmp339", chars! "ints.tmp344", chars! "ints.tmp345", chars! "ints.tmp347", chars! "ints.tmp348", chars! "ints.tmp355", chars! "ints.tmp356", chars! "ints.tmp264", chars! "ints.tmp265", chars! "ints.tmp285", chars! "ints.tmp287", chars! "ints.tmp288", chars! "ints.tmp289", chars! "ints.tmp310", chars! "ints.tmp316", chars! "ints.tmp322", chars! "ints.tmp323", chars! "ints.tmp325", chars! "ints.tmp354", chars! "ints.tmp258", chars! "v.aabb.oovv", chars! "ints.tmp304", chars! "ints.tmp259", chars! "ints.tmp270", chars! "ints.tmp271", chars! "ints.tmp292", chars! "ints.tmp308", chars! "ints.tmp309", chars! "ints.tmp326", chars! "ints.tmp333", chars! "ints.tmp335", chars! "ints.tmp340", chars! "ints.tmp262", chars! "ints.tmp267", chars! "ints.tmp269", chars! "ints.tmp299", chars! "ints.tmp307", chars! "ints.tmp328", chars! "ints.tmp334", chars! "ints.tmp337", chars! "ints.tmp346", chars! "ints.tmp349", chars! "ints.tmp192", chars! "ints.tmp230", chars! "ints.tmp233", chars! "ints.tmp244", chars! "v.aabb.oooo", chars! "ints.tmp108", chars! "ints.tmp110", chars! "ints.tmp55", chars! "f.aa.vv", chars! "ints.tmp53", chars! "ints.tmp57", chars! "ints.tmp100", chars! "ints.tmp101", chars! "ints.tmp124", chars! "ints.tmp126", chars! "ints.tmp131", chars! "ints.tmp132", chars! "ints.tmp152", chars! "ints.tmp155", chars! "ints.tmp162", chars! "ints.tmp163", chars! "ints.tmp170", chars! "ints.tmp171", chars! "ints.tmp186", chars! "ints.tmp187", chars! "ints.tmp65", chars! "ints.tmp68", chars! "ints.tmp83", chars! "ints.tmp125", chars! "ints.tmp127", chars! "ints.tmp128", chars! "ints.tmp129", chars! "ints.tmp130", chars! "ints.tmp185", chars! "ints.tmp49", chars! "ints.tmp66", chars! "ints.tmp67", chars! "ints.tmp69", chars! "ints.tmp86", chars! "ints.tmp87", chars! "ints.tmp190", chars! "ints.tmp200", chars! "ints.tmp201", chars! "ints.tmp209", chars! "ints.tmp223", chars! "ints.tmp224", chars! "ints.tmp229", chars! "ints.tmp237", chars! "ints.tmp239", chars! "ints.tmp243", chars! "ints.tmp194", chars! "ints.tmp197", chars! "ints.tmp199", chars! "ints.tmp214", chars! "ints.tmp222", chars! "ints.tmp232", chars! "ints.tmp238", chars! "ints.tmp241", chars! "ints.tmp248", chars! "ints.tmp249", chars! "ints.tmp189", chars! "v.aabb.vvoo", chars! "ints.tmp217", chars! "ints.tmp72", chars! "ints.tmp78", chars! "v.aaaa.oooo", chars! "ints.tmp139", chars! "ints.tmp147", chars! "ints.tmp149", chars! "ints.tmp80", chars! "ints.tmp145", chars! "ints.tmp76", chars! "t2.bbbb", chars! "t2.abab", chars! "t2.aaaa"]
  body := [
    -- 3127: tmp75 = np.copy(ints.tmp37)
    .set 236 (.cp 0) 1 1,
    -- 3128: tmp75 += np.transpose(ints.tmp37, (0, 2, 1, 3)) * -1
    .add 236 (.tr 0 [0, 2, 1, 3]) (-1) 1,
    -- 3129: tmp77 = np.copy(v.bbbb.ooov)
    .set 237 (.cp 1) 1 1,
    -- 3130: tmp77 += np.transpose(v.bbbb.ovoo, (0, 2, 3, 1)) * -1
    .add 237 (.tr 2 [0, 2, 3, 1]) (-1) 1,
    -- 3131: tmp16 = np.copy(ints.tmp16)
    .set 238 (.cp 3) 1 1,
    -- 3132: tmp16 += np.transpose(ints.tmp16, (0, 2, 1, 3)) * -1
    .add 238 (.tr 3 [0, 2, 1, 3]) (-1) 1,
    -- 3133: tmp18 = np.copy(v.aaaa.ooov) * -1
    .set 239 (.cp 4) (-1) 1,
    -- 3134: tmp18 += np.transpose(v.aaaa.ooov, (0, 2, 1, 3))
    .add 239 (.tr 4 [0, 2, 1, 3]) 1 1,
    -- 3135: tmp73 = einsum(r2.aba, (0, 1, 2), ints.tmp39, (0, 3, 4, 2), (3, 4, 1))
    .set 240 (.ein [(5, [0, 1, 2]), (6, [0, 3, 4, 2])] [3, 4, 1]) 1 1,
    -- 3136: tmp74 = einsum(v.aabb.ovoo, (0, 1, 2, 3), r2.aba, (0, 4, 1), (4, 2, 3))
    .set 241 (.ein [(7, [0, 1, 2, 3]), (5, [0, 4, 1])] [4, 2, 3]) 1 1,
    -- 3137: tmp76 = einsum(tmp75, (0, 1, 2, 3), r2.bbb, (4, 2, 3), (4, 0, 1)) * -1
    .set 242 (.ein [(236, [0, 1, 2, 3]), (8, [4, 2, 3])] [4, 0, 1]) (-1) 1,
    -- 3138: del tmp75
    .del 236,
    -- 3139: tmp78 = einsum(r2.bbb, (0, 1, 2), tmp77, (1, 3, 4, 2), (0, 3, 4)) * -1
    .set 243 (.ein [(8, [0, 1, 2]), (237, [1, 3, 4, 2])] [0, 3, 4]) (-1) 1,
    -- 3140: del tmp77
    .del 237,
    -- 3141: tmp17 = einsum(tmp16, (0, 1, 2, 3), r2.aaa, (4, 2, 3), (4, 0, 1)) * -1
    .set 244 (.ein [(238, [0, 1, 2, 3]), (9, [4, 2, 3])] [4, 0, 1]) (-1) 1,
    -- 3142: del tmp16
    .del 238,
    -- 3143: tmp14 = einsum(v.aabb.ooov, (0, 1, 2, 3), r2.bab, (2, 4, 3), (4, 0, 1)) * -1
    .set 245 (.ein [(10, [0, 1, 2, 3]), (11, [2, 4, 3])] [4, 0, 1]) (-1) 1,
    -- 3144: tmp15 = einsum(ints.tmp18, (0, 1, 2, 3), r2.bab, (2, 4, 3), (0, 1, 4)) * -1
    .set 246 (.ein [(12, [0, 1, 2, 3]), (11, [2, 4, 3])] [0, 1, 4]) (-1) 1,
    -- 3145: tmp19 = einsum(r2.aaa, (0, 1, 2), tmp18, (3, 4, 1, 2), (0, 3, 4)) * -1
    .set 247 (.ein [(9, [0, 1, 2]), (239, [3, 4, 1, 2])] [0, 3, 4]) (-1) 1,
    -- 3146: del tmp18
    .del 239,
    -- 3147: tmp2 = np.copy(f.bb.ov)
    .set 248 (.cp 13) 1 1,
    -- 3148: tmp2 += ints.tmp12
    .add 248 (.cp 14) 1 1,
    -- 3149: tmp2 += ints.tmp15
    .add 248 (.cp 15) 1 1,
    -- 3150: tmp2 += ints.tmp11 * -1
    .add 248 (.cp 16) (-1) 1,
    -- 3151: tmp81 = np.copy(ints.tmp367)
    .set 249 (.cp 17) 1 1,
    -- 3152: tmp81 += ints.tmp37
    .add 249 (.cp 0) 1 1,
    -- 3153: tmp81 += ints.tmp394 * 2
    .add 249 (.cp 18) 2 1,
    -- 3154: tmp81 += ints.tmp433 * 2
    .add 249 (.cp 19) 2 1,
    -- 3155: tmp81 += ints.tmp437
    .add 249 (.cp 20) 1 1,
    -- 3156: tmp81 += np.transpose(ints.tmp441, (0, 2, 1, 3))
    .add 249 (.tr 21 [0, 2, 1, 3]) 1 1,
    -- 3157: tmp81 += np.transpose(v.bbbb.ooov, (0, 2, 1, 3))
    .add 249 (.tr 1 [0, 2, 1, 3]) 1 1,
    -- 3158: tmp79 = np.copy(tmp73) * 0.5
    .set 250 (.cp 240) 1 2,
    -- 3159: del tmp73
    .del 240,
    -- 3160: tmp79 += np.transpose(tmp74, (0, 2, 1)) * -0.5
    .add 250 (.tr 241 [0, 2, 1]) (-1) 2,
    -- 3161: del tmp74
    .del 241,
    -- 3162: tmp79 += np.transpose(tmp76, (1, 2, 0)) * -1
    .add 250 (.tr 242 [1, 2, 0]) (-1) 1,
    -- 3163: del tmp76
    .del 242,
    -- 3164: tmp79 += np.transpose(tmp78, (0, 2, 1))
    .add 250 (.tr 243 [0, 2, 1]) 1 1,
    -- 3165: del tmp78
    .del 243,
    -- 3166: tmp83 = np.copy(ints.tmp41) * 2
    .set 251 (.cp 22) 2 1,
    -- 3167: tmp83 += ints.tmp43
    .add 251 (.cp 23) 1 1,
    -- 3168: tmp83 += ints.tmp31 * -1
    .add 251 (.cp 24) (-1) 1,
    -- 3169: tmp83 += ints.tmp45 * -1
    .add 251 (.cp 25) (-1) 1,
    -- 3170: tmp71 = np.copy(ints.tmp279)
    .set 252 (.cp 26) 1 1,
    -- 3171: tmp71 += ints.tmp283 * 0.5
    .add 252 (.cp 27) 1 2,
    -- 3172: tmp71 += np.transpose(ints.tmp318, (0, 1, 3, 2)) * 0.5
    .add 252 (.tr 28 [0, 1, 3, 2]) 1 2,
    -- 3173: tmp93 = np.copy(ints.tmp371)
    .set 253 (.cp 29) 1 1,
    -- 3174: tmp93 += np.transpose(ints.tmp383, (0, 2, 1, 3))
    .add 253 (.tr 30 [0, 2, 1, 3]) 1 1,
    -- 3175: tmp93 += ints.tmp398
    .add 253 (.cp 31) 1 1,
    -- 3176: tmp93 += ints.tmp427
    .add 253 (.cp 32) 1 1,
    -- 3177: tmp93 += ints.tmp439
    .add 253 (.cp 33) 1 1,
    -- 3178: tmp93 += ints.tmp396 * 2
    .add 253 (.cp 34) 2 1,
    -- 3179: tmp93 += ints.tmp435 * 2
    .add 253 (.cp 35) 2 1,
    -- 3180: tmp87 = np.copy(ints.tmp275)
    .set 254 (.cp 36) 1 1,
    -- 3181: tmp87 += ints.tmp319
    .add 254 (.cp 37) 1 1,
    -- 3182: tmp87 += ints.tmp281 * 2
    .add 254 (.cp 38) 2 1,
    -- 3183: tmp91 = np.copy(f.bb.oo)
    .set 255 (.cp 39) 1 1,
    -- 3184: tmp91 += ints.tmp28
    .add 255 (.cp 40) 1 1,
    -- 3185: tmp91 += np.transpose(ints.tmp32, (1, 0))
    .add 255 (.tr 41 [1, 0]) 1 1,
    -- 3186: tmp91 += np.transpose(ints.tmp33, (1, 0))
    .add 255 (.tr 42 [1, 0]) 1 1,
    -- 3187: tmp91 += np.transpose(ints.tmp46, (1, 0))
    .add 255 (.tr 43 [1, 0]) 1 1,
    -- 3188: tmp91 += np.transpose(ints.tmp47, (1, 0))
    .add 255 (.tr 44 [1, 0]) 1 1,
    -- 3189: tmp89 = np.copy(ints.tmp317)
    .set 256 (.cp 45) 1 1,
    -- 3190: tmp89 += ints.tmp277 * 2
    .add 256 (.cp 46) 2 1,
    -- 3191: tmp3 = np.copy(f.aa.ov)
    .set 257 (.cp 47) 1 1,
    -- 3192: tmp3 += ints.tmp13
    .add 257 (.cp 48) 1 1,
    -- 3193: tmp3 += ints.tmp9
    .add 257 (.cp 49) 1 1,
    -- 3194: tmp3 += ints.tmp7 * -1
    .add 257 (.cp 50) (-1) 1,
    -- 3195: tmp32 = np.copy(f.aa.oo)
    .set 258 (.cp 51) 1 1,
    -- 3196: tmp32 += ints.tmp1
    .add 258 (.cp 52) 1 1,
    -- 3197: tmp32 += np.transpose(ints.tmp25, (1, 0))
    .add 258 (.tr 53 [1, 0]) 1 1,
    -- 3198: tmp32 += np.transpose(ints.tmp26, (1, 0))
    .add 258 (.tr 54 [1, 0]) 1 1,
    -- 3199: tmp32 += np.transpose(ints.tmp5, (1, 0))
    .add 258 (.tr 55 [1, 0]) 1 1,
    -- 3200: tmp32 += np.transpose(ints.tmp6, (1, 0))
    .add 258 (.tr 56 [1, 0]) 1 1,
    -- 3201: tmp30 = np.copy(ints.tmp59)
    .set 259 (.cp 57) 1 1,
    -- 3202: tmp30 += ints.tmp112 * 2
    .add 259 (.cp 58) 2 1,
    -- 3203: tmp34 = np.copy(ints.tmp106)
    .set 260 (.cp 59) 1 1,
    -- 3204: tmp34 += ints.tmp156
    .add 260 (.cp 60) 1 1,
    -- 3205: tmp34 += ints.tmp172
    .add 260 (.cp 61) 1 1,
    -- 3206: tmp34 += ints.tmp74
    .add 260 (.cp 62) 1 1,
    -- 3207: tmp34 += np.transpose(ints.tmp89, (0, 2, 1, 3))
    .add 260 (.tr 63 [0, 2, 1, 3]) 1 1,
    -- 3208: tmp34 += ints.tmp104 * 2
    .add 260 (.cp 64) 2 1,
    -- 3209: tmp34 += ints.tmp166 * 2
    .add 260 (.cp 65) 2 1,
    -- 3210: tmp10 = np.copy(ints.tmp114)
    .set 261 (.cp 66) 1 1,
    -- 3211: tmp10 += ints.tmp120 * 0.5
    .add 261 (.cp 67) 1 2,
    -- 3212: tmp10 += np.transpose(ints.tmp61, (0, 1, 3, 2)) * 0.5
    .add 261 (.tr 68 [0, 1, 3, 2]) 1 2,
    -- 3213: tmp12 = np.copy(ints.tmp118)
    .set 262 (.cp 69) 1 1,
    -- 3214: tmp12 += ints.tmp122 * 2
    .add 262 (.cp 70) 2 1,
    -- 3215: tmp12 += ints.tmp63
    .add 262 (.cp 71) 1 1,
    -- 3216: tmp24 = np.copy(ints.tmp20) * 2
    .set 263 (.cp 72) 2 1,
    -- 3217: tmp24 += ints.tmp22
    .add 263 (.cp 73) 1 1,
    -- 3218: tmp24 += ints.tmp24 * -1
    .add 263 (.cp 74) (-1) 1,
    -- 3219: tmp24 += ints.tmp4 * -1
    .add 263 (.cp 75) (-1) 1,
    -- 3220: tmp20 = np.copy(np.transpose(tmp14, (0, 2, 1))) * 0.5
    .set 264 (.tr 245 [0, 2, 1]) 1 2,
    -- 3221: del tmp14
    .del 245,
    -- 3222: tmp20 += tmp15 * -0.5
    .add 264 (.cp 246) (-1) 2,
    -- 3223: del tmp15
    .del 246,
    -- 3224: tmp20 += np.transpose(tmp17, (1, 2, 0)) * -1
    .add 264 (.tr 244 [1, 2, 0]) (-1) 1,
    -- 3225: del tmp17
    .del 244,
    -- 3226: tmp20 += np.transpose(tmp19, (0, 2, 1))
    .add 264 (.tr 247 [0, 2, 1]) 1 1,
    -- 3227: del tmp19
    .del 247,
    -- 3228: tmp22 = np.copy(ints.tmp102)
    .set 265 (.cp 76) 1 1,
    -- 3229: tmp22 += ints.tmp164
    .add 265 (.cp 77) 1 1,
    -- 3230: tmp22 += ints.tmp168 * 0.5
    .add 265 (.cp 78) 1 2,
    -- 3231: tmp22 += ints.tmp16 * 0.5
    .add 265 (.cp 3) 1 2,
    -- 3232: tmp22 += np.transpose(ints.tmp174, (0, 2, 1, 3)) * 0.5
    .add 265 (.tr 79 [0, 2, 1, 3]) 1 2,
    -- 3233: tmp22 += ints.tmp70 * 0.5
    .add 265 (.cp 80) 1 2,
    -- 3234: tmp22 += np.transpose(v.aaaa.ooov, (0, 2, 1, 3)) * 0.5
    .add 265 (.tr 4 [0, 2, 1, 3]) 1 2,
    -- 3235: tmp60 = einsum(t1.bb, (0, 1), tmp2, (0, 2), (2, 1))
    .set 266 (.ein [(81, [0, 1]), (248, [0, 2])] [2, 1]) 1 1,
    -- 3236: tmp68 = einsum(r2.aba, (0, 1, 2), v.aabb.ovov, (0, 2, 3, 4), (1, 3, 4))
    .set 267 (.ein [(5, [0, 1, 2]), (82, [0, 2, 3, 4])] [1, 3, 4]) 1 1,
    -- 3237: tmp70 = einsum(r2.bbb, (0, 1, 2), v.bbbb.oovv, (3, 1, 4, 2), (0, 3, 4))
    .set 268 (.ein [(8, [0, 1, 2]), (83, [3, 1, 4, 2])] [0, 3, 4]) 1 1,
    -- 3238: tmp82 = einsum(r1.b, (0,), tmp81, (1, 2, 0, 3), (1, 2, 3))
    .set 269 (.ein [(84, [0]), (249, [1, 2, 0, 3])] [1, 2, 3]) 1 1,
    -- 3239: del tmp81
    .del 249,
    -- 3240: tmp80 = einsum(t1.bb, (0, 1), tmp79, (2, 0, 3), (2, 3, 1)) * 2
    .set 270 (.ein [(81, [0, 1]), (250, [2, 0, 3])] [2, 3, 1]) 2 1,
    -- 3241: del tmp79
    .del 250,
    -- 3242: tmp84 = einsum(tmp83, (0, 1), r2.bbb, (2, 1, 3), (2, 0, 3)) * -2
    .set 271 (.ein [(251, [0, 1]), (8, [2, 1, 3])] [2, 0, 3]) (-2) 1,
    -- 3243: del tmp83
    .del 251,
    -- 3244: tmp67 = einsum(ints.tmp273, (0, 1, 2, 3), r2.aba, (0, 4, 2), (1, 4, 3))
    .set 272 (.ein [(85, [0, 1, 2, 3]), (5, [0, 4, 2])] [1, 4, 3]) 1 1,
    -- 3245: tmp72 = einsum(tmp71, (0, 1, 2, 3), r2.bbb, (4, 1, 3), (4, 0, 2)) * -4
    .set 273 (.ein [(252, [0, 1, 2, 3]), (8, [4, 1, 3])] [4, 0, 2]) (-4) 1,
    -- 3246: del tmp71
    .del 252,
    -- 3247: tmp69 = einsum(ints.tmp429, (0, 1, 2, 3), r2.bbb, (3, 2, 4), (0, 1, 4)) * -1
    .set 274 (.ein [(86, [0, 1, 2, 3]), (8, [3, 2, 4])] [0, 1, 4]) (-1) 1,
    -- 3248: tmp53 = einsum(v.aabb.ovov, (0, 1, 2, 3), r2.aba, (0, 2, 1), (3,))
    .set 275 (.ein [(82, [0, 1, 2, 3]), (5, [0, 2, 1])] [3]) 1 1,
    -- 3249: tmp54 = einsum(v.bbbb.ovov, (0, 1, 2, 3), r2.bbb, (0, 2, 1), (3,)) * -1
    .set 276 (.ein [(87, [0, 1, 2, 3]), (8, [0, 2, 1])] [3]) (-1) 1,
    -- 3250: tmp94 = einsum(tmp93, (0, 1, 2, 3), r1.b, (2,), (0, 1, 3))
    .set 277 (.ein [(253, [0, 1, 2, 3]), (84, [2])] [0, 1, 3]) 1 1,
    -- 3251: del tmp93
    .del 253,
    -- 3252: tmp88 = einsum(r2.aba, (0, 1, 2), tmp87, (0, 3, 2, 4), (1, 3, 4))
    .set 278 (.ein [(5, [0, 1, 2]), (254, [0, 3, 2, 4])] [1, 3, 4]) 1 1,
    -- 3253: del tmp87
    .del 254,
    -- 3254: tmp92 = einsum(tmp91, (0, 1), r2.bbb, (2, 0, 3), (2, 1, 3)) * -1
    .set 279 (.ein [(255, [0, 1]), (8, [2, 0, 3])] [2, 1, 3]) (-1) 1,
    -- 3255: del tmp91
    .del 255,
    -- 3256: tmp86 = einsum(v.bbbb.ovov, (0, 1, 2, 3), r2.bbb, (4, 2, 3), (4, 0, 1))
    .set 280 (.ein [(87, [0, 1, 2, 3]), (8, [4, 2, 3])] [4, 0, 1]) 1 1,
    -- 3257: tmp90 = einsum(r2.bbb, (0, 1, 2), tmp89, (3, 1, 4, 2), (0, 3, 4)) * -1
    .set 281 (.ein [(8, [0, 1, 2]), (256, [3, 1, 4, 2])] [0, 3, 4]) (-1) 1,
    -- 3258: del tmp89
    .del 256,
    -- 3259: tmp51 = np.copy(ints.tmp39)
    .set 282 (.cp 6) 1 1,
    -- 3260: tmp51 += np.transpose(v.aabb.ovoo, (0, 2, 3, 1))
    .add 282 (.tr 7 [0, 2, 3, 1]) 1 1,
    -- 3261: tmp1 = np.copy(ints.tmp18)
    .set 283 (.cp 12) 1 1,
    -- 3262: tmp1 += v.aabb.ooov
    .add 283 (.cp 10) 1 1,
    -- 3263: tmp63 = np.copy(ints.tmp37)
    .set 284 (.cp 0) 1 1,
    -- 3264: tmp63 += np.transpose(ints.tmp37, (0, 2, 1, 3)) * -1
    .add 284 (.tr 0 [0, 2, 1, 3]) (-1) 1,
    -- 3265: tmp63 += v.bbbb.ooov * -1
    .add 284 (.cp 1) (-1) 1,
    -- 3266: tmp63 += np.transpose(v.bbbb.ooov, (0, 2, 1, 3))
    .add 284 (.tr 1 [0, 2, 1, 3]) 1 1,
    -- 3267: tmp41 = einsum(v.aabb.ovov, (0, 1, 2, 3), r2.bab, (2, 0, 3), (1,)) * -1
    .set 285 (.ein [(82, [0, 1, 2, 3]), (11, [2, 0, 3])] [1]) (-1) 1,
    -- 3268: tmp40 = einsum(r2.aaa, (0, 1, 2), v.aaaa.ovov, (0, 2, 1, 3), (3,)) * -1
    .set 286 (.ein [(9, [0, 1, 2]), (88, [0, 2, 1, 3])] [3]) (-1) 1,
    -- 3269: tmp38 = einsum(tmp3, (0, 1), t1.aa, (0, 2), (1, 2))
    .set 287 (.ein [(257, [0, 1]), (89, [0, 2])] [1, 2]) 1 1,
    -- 3270: tmp50 = np.copy(ints.tmp16)
    .set 288 (.cp 3) 1 1,
    -- 3271: tmp50 += np.transpose(ints.tmp16, (0, 2, 1, 3)) * -1
    .add 288 (.tr 3 [0, 2, 1, 3]) (-1) 1,
    -- 3272: tmp50 += v.aaaa.ooov * -1
    .add 288 (.cp 4) (-1) 1,
    -- 3273: tmp50 += np.transpose(v.aaaa.ooov, (0, 2, 1, 3))
    .add 288 (.tr 4 [0, 2, 1, 3]) 1 1,
    -- 3274: tmp33 = einsum(tmp32, (0, 1), r2.aaa, (2, 0, 3), (2, 1, 3)) * -1
    .set 289 (.ein [(258, [0, 1]), (9, [2, 0, 3])] [2, 1, 3]) (-1) 1,
    -- 3275: del tmp32
    .del 258,
    -- 3276: tmp29 = einsum(r2.bab, (0, 1, 2), v.aabb.ovov, (3, 4, 0, 2), (1, 3, 4)) * -1
    .set 290 (.ein [(11, [0, 1, 2]), (82, [3, 4, 0, 2])] [1, 3, 4]) (-1) 1,
    -- 3277: tmp28 = einsum(ints.tmp116, (0, 1, 2, 3), r2.bab, (1, 4, 3), (0, 4, 2)) * -1
    .set 291 (.ein [(90, [0, 1, 2, 3]), (11, [1, 4, 3])] [0, 4, 2]) (-1) 1,
    -- 3278: tmp31 = einsum(r2.aaa, (0, 1, 2), tmp30, (3, 1, 4, 2), (0, 3, 4)) * -1
    .set 292 (.ein [(9, [0, 1, 2]), (259, [3, 1, 4, 2])] [0, 3, 4]) (-1) 1,
    -- 3279: del tmp30
    .del 259,
    -- 3280: tmp35 = einsum(tmp34, (0, 1, 2, 3), r1.a, (2,), (0, 1, 3))
    .set 293 (.ein [(260, [0, 1, 2, 3]), (91, [2])] [0, 1, 3]) 1 1,
    -- 3281: del tmp34
    .del 260,
    -- 3282: tmp27 = einsum(v.aaaa.ovov, (0, 1, 2, 3), r2.aaa, (4, 2, 3), (4, 0, 1))
    .set 294 (.ein [(88, [0, 1, 2, 3]), (9, [4, 2, 3])] [4, 0, 1]) 1 1,
    -- 3283: tmp11 = einsum(r2.aaa, (0, 1, 2), tmp10, (3, 1, 4, 2), (0, 3, 4)) * -4
    .set 295 (.ein [(9, [0, 1, 2]), (261, [3, 1, 4, 2])] [0, 3, 4]) (-4) 1,
    -- 3284: del tmp10
    .del 261,
    -- 3285: tmp13 = einsum(tmp12, (0, 1, 2, 3), r2.bab, (1, 4, 3), (4, 0, 2)) * -1
    .set 296 (.ein [(262, [0, 1, 2, 3]), (11, [1, 4, 3])] [4, 0, 2]) (-1) 1,
    -- 3286: del tmp12
    .del 262,
    -- 3287: tmp25 = einsum(tmp24, (0, 1), r2.aaa, (2, 1, 3), (2, 0, 3)) * -2
    .set 297 (.ein [(263, [0, 1]), (9, [2, 1, 3])] [2, 0, 3]) (-2) 1,
    -- 3288: del tmp24
    .del 263,
    -- 3289: tmp21 = einsum(tmp20, (0, 1, 2), t1.aa, (1, 3), (0, 2, 3)) * 2
    .set 298 (.ein [(264, [0, 1, 2]), (89, [1, 3])] [0, 2, 3]) 2 1,
    -- 3290: del tmp20
    .del 264,
    -- 3291: tmp8 = einsum(ints.tmp158, (0, 1, 2, 3), r2.aaa, (2, 3, 4), (0, 1, 4))
    .set 299 (.ein [(92, [0, 1, 2, 3]), (9, [2, 3, 4])] [0, 1, 4]) 1 1,
    -- 3292: tmp23 = einsum(r1.a, (0,), tmp22, (1, 2, 0, 3), (1, 2, 3)) * 2
    .set 300 (.ein [(91, [0]), (265, [1, 2, 0, 3])] [1, 2, 3]) 2 1,
    -- 3293: del tmp22
    .del 265,
    -- 3294: tmp9 = einsum(r2.aaa, (0, 1, 2), v.aaaa.oovv, (3, 1, 4, 2), (0, 3, 4))
    .set 301 (.ein [(9, [0, 1, 2]), (93, [3, 1, 4, 2])] [0, 3, 4]) 1 1,
    -- 3295: tmp97 = np.copy(ints.tmp377)
    .set 302 (.cp 94) 1 1,
    -- 3296: tmp97 += np.transpose(ints.tmp414, (1, 2, 0, 3))
    .add 302 (.tr 95 [1, 2, 0, 3]) 1 1,
    -- 3297: tmp97 += ints.tmp420
    .add 302 (.cp 96) 1 1,
    -- 3298: tmp97 += ints.tmp422
    .add 302 (.cp 97) 1 1,
    -- 3299: tmp97 += ints.tmp373 * -1
    .add 302 (.cp 98) (-1) 1,
    -- 3300: tmp97 += ints.tmp418 * -1
    .add 302 (.cp 99) (-1) 1,
    -- 3301: tmp61 = np.copy(ints.tmp256)
    .set 303 (.cp 100) 1 1,
    -- 3302: tmp61 += np.transpose(ints.tmp300, (1, 0)) * 2
    .add 303 (.tr 101 [1, 0]) 2 1,
    -- 3303: tmp61 += np.transpose(ints.tmp302, (1, 0))
    .add 303 (.tr 102 [1, 0]) 1 1,
    -- 3304: tmp61 += f.bb.vv * -1
    .add 303 (.cp 103) (-1) 1,
    -- 3305: tmp61 += np.transpose(ints.tmp255, (1, 0)) * -1
    .add 303 (.tr 104 [1, 0]) (-1) 1,
    -- 3306: tmp61 += np.transpose(ints.tmp257, (1, 0)) * -1
    .add 303 (.tr 105 [1, 0]) (-1) 1,
    -- 3307: tmp61 += tmp60
    .add 303 (.cp 266) 1 1,
    -- 3308: del tmp60
    .del 266,
    -- 3309: tmp85 = np.copy(tmp67)
    .set 304 (.cp 272) 1 1,
    -- 3310: del tmp67
    .del 272,
    -- 3311: tmp85 += tmp68
    .add 304 (.cp 267) 1 1,
    -- 3312: del tmp68
    .del 267,
    -- 3313: tmp85 += tmp69 * 2
    .add 304 (.cp 274) 2 1,
    -- 3314: del tmp69
    .del 274,
    -- 3315: tmp85 += tmp70 * 2
    .add 304 (.cp 268) 2 1,
    -- 3316: del tmp70
    .del 268,
    -- 3317: tmp85 += np.transpose(tmp72, (1, 0, 2)) * -1
    .add 304 (.tr 273 [1, 0, 2]) (-1) 1,
    -- 3318: del tmp72
    .del 273,
    -- 3319: tmp85 += tmp80
    .add 304 (.cp 270) 1 1,
    -- 3320: del tmp80
    .del 270,
    -- 3321: tmp85 += tmp82
    .add 304 (.cp 269) 1 1,
    -- 3322: del tmp82
    .del 269,
    -- 3323: tmp85 += np.transpose(tmp84, (1, 0, 2))
    .add 304 (.tr 271 [1, 0, 2]) 1 1,
    -- 3324: del tmp84
    .del 271,
    -- 3325: tmp55 = np.copy(tmp53) * -0.5
    .set 305 (.cp 275) (-1) 2,
    -- 3326: del tmp53
    .del 275,
    -- 3327: tmp55 += tmp54
    .add 305 (.cp 276) 1 1,
    -- 3328: del tmp54
    .del 276,
    -- 3329: tmp96 = np.copy(ints.tmp369)
    .set 306 (.cp 106) 1 1,
    -- 3330: tmp96 += ints.tmp375
    .add 306 (.cp 107) 1 1,
    -- 3331: tmp96 += np.transpose(v.bbbb.oooo, (0, 2, 3, 1)) * -1
    .add 306 (.tr 108 [0, 2, 3, 1]) (-1) 1,
    -- 3332: tmp66 = np.copy(ints.tmp284)
    .set 307 (.cp 109) 1 1,
    -- 3333: tmp66 += ints.tmp286 * 2
    .add 307 (.cp 110) 2 1,
    -- 3334: tmp66 += ints.tmp290
    .add 307 (.cp 111) 1 1,
    -- 3335: tmp66 += ints.tmp297 * 2
    .add 307 (.cp 112) 2 1,
    -- 3336: tmp66 += ints.tmp298
    .add 307 (.cp 113) 1 1,
    -- 3337: tmp66 += ints.tmp311
    .add 307 (.cp 114) 1 1,
    -- 3338: tmp66 += ints.tmp312
    .add 307 (.cp 115) 1 1,
    -- 3339: tmp66 += ints.tmp321 * 2
    .add 307 (.cp 116) 2 1,
    -- 3340: tmp66 += ints.tmp324
    .add 307 (.cp 117) 1 1,
    -- 3341: tmp66 += ints.tmp329
    .add 307 (.cp 118) 1 1,
    -- 3342: tmp66 += ints.tmp339
    .add 307 (.cp 119) 1 1,
    -- 3343: tmp66 += ints.tmp344 * 2
    .add 307 (.cp 120) 2 1,
    -- 3344: tmp66 += ints.tmp345
    .add 307 (.cp 121) 1 1,
    -- 3345: tmp66 += ints.tmp347 * 2
    .add 307 (.cp 122) 2 1,
    -- 3346: tmp66 += ints.tmp348
    .add 307 (.cp 123) 1 1,
    -- 3347: tmp66 += ints.tmp355
    .add 307 (.cp 124) 1 1,
    -- 3348: tmp66 += ints.tmp356
    .add 307 (.cp 125) 1 1,
    -- 3349: tmp66 += f.bb.ov * -1
    .add 307 (.cp 13) (-1) 1,
    -- 3350: tmp66 += ints.tmp12 * -1
    .add 307 (.cp 14) (-1) 1,
    -- 3351: tmp66 += ints.tmp15 * -1
    .add 307 (.cp 15) (-1) 1,
    -- 3352: tmp66 += ints.tmp264 * -1
    .add 307 (.cp 126) (-1) 1,
    -- 3353: tmp66 += ints.tmp265 * -2
    .add 307 (.cp 127) (-2) 1,
    -- 3354: tmp66 += ints.tmp285 * -1
    .add 307 (.cp 128) (-1) 1,
    -- 3355: tmp66 += ints.tmp287 * -2
    .add 307 (.cp 129) (-2) 1,
    -- 3356: tmp66 += ints.tmp288 * -1
    .add 307 (.cp 130) (-1) 1,
    -- 3357: tmp66 += ints.tmp289 * -2
    .add 307 (.cp 131) (-2) 1,
    -- 3358: tmp66 += ints.tmp310 * -1
    .add 307 (.cp 132) (-1) 1,
    -- 3359: tmp66 += ints.tmp316 * -1
    .add 307 (.cp 133) (-1) 1,
    -- 3360: tmp66 += ints.tmp322 * -1
    .add 307 (.cp 134) (-1) 1,
    -- 3361: tmp66 += ints.tmp323 * -1
    .add 307 (.cp 135) (-1) 1,
    -- 3362: tmp66 += ints.tmp325 * -1
    .add 307 (.cp 136) (-1) 1,
    -- 3363: tmp66 += ints.tmp354 * -1
    .add 307 (.cp 137) (-1) 1,
    -- 3364: tmp95 = np.copy(tmp86) * 2
    .set 308 (.cp 280) 2 1,
    -- 3365: del tmp86
    .del 280,
    -- 3366: tmp95 += np.transpose(tmp88, (1, 0, 2))
    .add 308 (.tr 278 [1, 0, 2]) 1 1,
    -- 3367: del tmp88
    .del 278,
    -- 3368: tmp95 += np.transpose(tmp90, (1, 0, 2)) * -2
    .add 308 (.tr 281 [1, 0, 2]) (-2) 1,
    -- 3369: del tmp90
    .del 281,
    -- 3370: tmp95 += np.transpose(tmp92, (1, 0, 2)) * -2
    .add 308 (.tr 279 [1, 0, 2]) (-2) 1,
    -- 3371: del tmp92
    .del 279,
    -- 3372: tmp95 += tmp94
    .add 308 (.cp 277) 1 1,
    -- 3373: del tmp94
    .del 277,
    -- 3374: tmp58 = np.copy(ints.tmp258)
    .set 309 (.cp 138) 1 1,
    -- 3375: tmp58 += v.aabb.oovv
    .add 309 (.cp 139) 1 1,
    -- 3376: tmp58 += ints.tmp304 * -1
    .add 309 (.cp 140) (-1) 1,
    -- 3377: tmp4 = np.copy(f.aa.oo)
    .set 310 (.cp 51) 1 1,
    -- 3378: tmp4 += ints.tmp1
    .add 310 (.cp 52) 1 1,
    -- 3379: tmp4 += np.transpose(ints.tmp20, (1, 0)) * 2
    .add 310 (.tr 72 [1, 0]) 2 1,
    -- 3380: tmp4 += np.transpose(ints.tmp22, (1, 0))
    .add 310 (.tr 73 [1, 0]) 1 1,
    -- 3381: tmp4 += np.transpose(ints.tmp25, (1, 0))
    .add 310 (.tr 53 [1, 0]) 1 1,
    -- 3382: tmp4 += np.transpose(ints.tmp26, (1, 0))
    .add 310 (.tr 54 [1, 0]) 1 1,
    -- 3383: tmp4 += np.transpose(ints.tmp5, (1, 0))
    .add 310 (.tr 55 [1, 0]) 1 1,
    -- 3384: tmp4 += np.transpose(ints.tmp6, (1, 0))
    .add 310 (.tr 56 [1, 0]) 1 1,
    -- 3385: tmp4 += np.transpose(ints.tmp24, (1, 0)) * -1
    .add 310 (.tr 74 [1, 0]) (-1) 1,
    -- 3386: tmp4 += np.transpose(ints.tmp4, (1, 0)) * -1
    .add 310 (.tr 75 [1, 0]) (-1) 1,
    -- 3387: tmp62 = np.copy(ints.tmp18)
    .set 311 (.cp 12) 1 1,
    -- 3388: tmp62 += ints.tmp259
    .add 311 (.cp 141) 1 1,
    -- 3389: tmp62 += ints.tmp270
    .add 311 (.cp 142) 1 1,
    -- 3390: tmp62 += ints.tmp271 * 2
    .add 311 (.cp 143) 2 1,
    -- 3391: tmp62 += np.transpose(ints.tmp292, (1, 0, 2, 3))
    .add 311 (.tr 144 [1, 0, 2, 3]) 1 1,
    -- 3392: tmp62 += ints.tmp308
    .add 311 (.cp 145) 1 1,
    -- 3393: tmp62 += ints.tmp309
    .add 311 (.cp 146) 1 1,
    -- 3394: tmp62 += ints.tmp326
    .add 311 (.cp 147) 1 1,
    -- 3395: tmp62 += ints.tmp333
    .add 311 (.cp 148) 1 1,
    -- 3396: tmp62 += ints.tmp335 * 2
    .add 311 (.cp 149) 2 1,
    -- 3397: tmp62 += ints.tmp340
    .add 311 (.cp 150) 1 1,
    -- 3398: tmp62 += v.aabb.ooov
    .add 311 (.cp 10) 1 1,
    -- 3399: tmp62 += ints.tmp262 * -1
    .add 311 (.cp 151) (-1) 1,
    -- 3400: tmp62 += ints.tmp267 * -1
    .add 311 (.cp 152) (-1) 1,
    -- 3401: tmp62 += ints.tmp269 * -1
    .add 311 (.cp 153) (-1) 1,
    -- 3402: tmp62 += ints.tmp299 * -1
    .add 311 (.cp 154) (-1) 1,
    -- 3403: tmp62 += ints.tmp307 * -1
    .add 311 (.cp 155) (-1) 1,
    -- 3404: tmp62 += ints.tmp328 * -1
    .add 311 (.cp 156) (-1) 1,
    -- 3405: tmp62 += ints.tmp334 * -1
    .add 311 (.cp 157) (-1) 1,
    -- 3406: tmp62 += ints.tmp337 * -1
    .add 311 (.cp 158) (-1) 1,
    -- 3407: tmp62 += ints.tmp346 * -1
    .add 311 (.cp 159) (-1) 1,
    -- 3408: tmp62 += np.transpose(ints.tmp349, (1, 0, 2, 3)) * -1
    .add 311 (.tr 160 [1, 0, 2, 3]) (-1) 1,
    -- 3409: tmp64 = einsum(r2.bab, (0, 1, 2), tmp63, (3, 4, 0, 2), (1, 3, 4))
    .set 312 (.ein [(11, [0, 1, 2]), (284, [3, 4, 0, 2])] [1, 3, 4]) 1 1,
    -- 3410: del tmp63
    .del 284,
    -- 3411: tmp64 += einsum(tmp51, (0, 1, 2, 3), r2.aaa, (4, 0, 3), (4, 1, 2)) * 2
    .add 312 (.ein [(282, [0, 1, 2, 3]), (9, [4, 0, 3])] [4, 1, 2]) 2 1,
    -- 3412: tmp64 += einsum(r2.bab, (0, 1, 2), tmp1, (3, 1, 4, 2), (3, 0, 4))
    .add 312 (.ein [(11, [0, 1, 2]), (283, [3, 1, 4, 2])] [3, 0, 4]) 1 1,
    -- 3413: tmp59 = np.copy(ints.tmp192)
    .set 313 (.cp 161) 1 1,
    -- 3414: tmp59 += ints.tmp230
    .add 313 (.cp 162) 1 1,
    -- 3415: tmp59 += ints.tmp233
    .add 313 (.cp 163) 1 1,
    -- 3416: tmp59 += ints.tmp244
    .add 313 (.cp 164) 1 1,
    -- 3417: tmp59 += v.aabb.oooo
    .add 313 (.cp 165) 1 1,
    -- 3418: tmp57 = np.copy(ints.tmp275)
    .set 314 (.cp 36) 1 1,
    -- 3419: tmp57 += ints.tmp281 * 2
    .add 314 (.cp 38) 2 1,
    -- 3420: tmp57 += ints.tmp319
    .add 314 (.cp 37) 1 1,
    -- 3421: tmp57 += np.transpose(v.aabb.ovov, (0, 2, 1, 3))
    .add 314 (.tr 82 [0, 2, 1, 3]) 1 1,
    -- 3422: tmp57 += ints.tmp273 * -1
    .add 314 (.cp 85) (-1) 1,
    -- 3423: tmp56 = np.copy(ints.tmp279) * 2
    .set 315 (.cp 26) 2 1,
    -- 3424: tmp56 += ints.tmp283
    .add 315 (.cp 27) 1 1,
    -- 3425: tmp56 += np.transpose(ints.tmp318, (0, 1, 3, 2))
    .add 315 (.tr 28 [0, 1, 3, 2]) 1 1,
    -- 3426: tmp56 += np.transpose(v.bbbb.ovov, (0, 2, 1, 3))
    .add 315 (.tr 87 [0, 2, 1, 3]) 1 1,
    -- 3427: tmp56 += ints.tmp277 * -2
    .add 315 (.cp 46) (-2) 1,
    -- 3428: tmp56 += ints.tmp317 * -1
    .add 315 (.cp 45) (-1) 1,
    -- 3429: tmp56 += v.bbbb.oovv * -1
    .add 315 (.cp 83) (-1) 1,
    -- 3430: tmp65 = np.copy(tmp40)
    .set 316 (.cp 286) 1 1,
    -- 3431: tmp65 += tmp41 * 0.5
    .add 316 (.cp 285) 1 2,
    -- 3432: tmp7 = np.copy(f.bb.oo)
    .set 317 (.cp 39) 1 1,
    -- 3433: tmp7 += ints.tmp28
    .add 317 (.cp 40) 1 1,
    -- 3434: tmp7 += np.transpose(ints.tmp32, (1, 0))
    .add 317 (.tr 41 [1, 0]) 1 1,
    -- 3435: tmp7 += np.transpose(ints.tmp33, (1, 0))
    .add 317 (.tr 42 [1, 0]) 1 1,
    -- 3436: tmp7 += np.transpose(ints.tmp41, (1, 0)) * 2
    .add 317 (.tr 22 [1, 0]) 2 1,
    -- 3437: tmp7 += np.transpose(ints.tmp43, (1, 0))
    .add 317 (.tr 23 [1, 0]) 1 1,
    -- 3438: tmp7 += np.transpose(ints.tmp46, (1, 0))
    .add 317 (.tr 43 [1, 0]) 1 1,
    -- 3439: tmp7 += np.transpose(ints.tmp47, (1, 0))
    .add 317 (.tr 44 [1, 0]) 1 1,
    -- 3440: tmp7 += np.transpose(ints.tmp31, (1, 0)) * -1
    .add 317 (.tr 24 [1, 0]) (-1) 1,
    -- 3441: tmp7 += np.transpose(ints.tmp45, (1, 0)) * -1
    .add 317 (.tr 25 [1, 0]) (-1) 1,
    -- 3442: tmp46 = np.copy(ints.tmp118)
    .set 318 (.cp 69) 1 1,
    -- 3443: tmp46 += ints.tmp122 * 2
    .add 318 (.cp 70) 2 1,
    -- 3444: tmp46 += ints.tmp63
    .add 318 (.cp 71) 1 1,
    -- 3445: tmp46 += np.transpose(v.aabb.ovov, (0, 2, 1, 3))
    .add 318 (.tr 82 [0, 2, 1, 3]) 1 1,
    -- 3446: tmp46 += ints.tmp116 * -1
    .add 318 (.cp 90) (-1) 1,
    -- 3447: tmp39 = np.copy(np.transpose(ints.tmp108, (1, 0))) * 2
    .set 319 (.tr 166 [1, 0]) 2 1,
    -- 3448: tmp39 += np.transpose(ints.tmp110, (1, 0))
    .add 319 (.tr 167 [1, 0]) 1 1,
    -- 3449: tmp39 += ints.tmp55
    .add 319 (.cp 168) 1 1,
    -- 3450: tmp39 += f.aa.vv * -1
    .add 319 (.cp 169) (-1) 1,
    -- 3451: tmp39 += np.transpose(ints.tmp53, (1, 0)) * -1
    .add 319 (.tr 170 [1, 0]) (-1) 1,
    -- 3452: tmp39 += np.transpose(ints.tmp57, (1, 0)) * -1
    .add 319 (.tr 171 [1, 0]) (-1) 1,
    -- 3453: tmp39 += tmp38
    .add 319 (.cp 287) 1 1,
    -- 3454: del tmp38
    .del 287,
    -- 3455: tmp45 = np.copy(ints.tmp114) * 2
    .set 320 (.cp 66) 2 1,
    -- 3456: tmp45 += ints.tmp120
    .add 320 (.cp 67) 1 1,
    -- 3457: tmp45 += np.transpose(ints.tmp61, (0, 1, 3, 2))
    .add 320 (.tr 68 [0, 1, 3, 2]) 1 1,
    -- 3458: tmp45 += np.transpose(v.aaaa.ovov, (0, 2, 1, 3))
    .add 320 (.tr 88 [0, 2, 1, 3]) 1 1,
    -- 3459: tmp45 += ints.tmp112 * -2
    .add 320 (.cp 58) (-2) 1,
    -- 3460: tmp45 += ints.tmp59 * -1
    .add 320 (.cp 57) (-1) 1,
    -- 3461: tmp45 += v.aaaa.oovv * -1
    .add 320 (.cp 93) (-1) 1,
    -- 3462: tmp44 = np.copy(ints.tmp100) * 2
    .set 321 (.cp 172) 2 1,
    -- 3463: tmp44 += ints.tmp101
    .add 321 (.cp 173) 1 1,
    -- 3464: tmp44 += ints.tmp124 * 2
    .add 321 (.cp 174) 2 1,
    -- 3465: tmp44 += ints.tmp126
    .add 321 (.cp 175) 1 1,
    -- 3466: tmp44 += ints.tmp131
    .add 321 (.cp 176) 1 1,
    -- 3467: tmp44 += ints.tmp132
    .add 321 (.cp 177) 1 1,
    -- 3468: tmp44 += ints.tmp152
    .add 321 (.cp 178) 1 1,
    -- 3469: tmp44 += ints.tmp155
    .add 321 (.cp 179) 1 1,
    -- 3470: tmp44 += ints.tmp162 * 2
    .add 321 (.cp 180) 2 1,
    -- 3471: tmp44 += ints.tmp163
    .add 321 (.cp 181) 1 1,
    -- 3472: tmp44 += ints.tmp170 * 2
    .add 321 (.cp 182) 2 1,
    -- 3473: tmp44 += ints.tmp171
    .add 321 (.cp 183) 1 1,
    -- 3474: tmp44 += ints.tmp186
    .add 321 (.cp 184) 1 1,
    -- 3475: tmp44 += ints.tmp187
    .add 321 (.cp 185) 1 1,
    -- 3476: tmp44 += ints.tmp65 * 2
    .add 321 (.cp 186) 2 1,
    -- 3477: tmp44 += ints.tmp68
    .add 321 (.cp 187) 1 1,
    -- 3478: tmp44 += ints.tmp83
    .add 321 (.cp 188) 1 1,
    -- 3479: tmp44 += f.aa.ov * -1
    .add 321 (.cp 47) (-1) 1,
    -- 3480: tmp44 += ints.tmp125 * -2
    .add 321 (.cp 189) (-2) 1,
    -- 3481: tmp44 += ints.tmp127 * -1
    .add 321 (.cp 190) (-1) 1,
    -- 3482: tmp44 += ints.tmp128 * -2
    .add 321 (.cp 191) (-2) 1,
    -- 3483: tmp44 += ints.tmp129 * -1
    .add 321 (.cp 192) (-1) 1,
    -- 3484: tmp44 += ints.tmp130 * -1
    .add 321 (.cp 193) (-1) 1,
    -- 3485: tmp44 += ints.tmp13 * -1
    .add 321 (.cp 48) (-1) 1,
    -- 3486: tmp44 += ints.tmp185 * -1
    .add 321 (.cp 194) (-1) 1,
    -- 3487: tmp44 += ints.tmp49 * -1
    .add 321 (.cp 195) (-1) 1,
    -- 3488: tmp44 += ints.tmp66 * -1
    .add 321 (.cp 196) (-1) 1,
    -- 3489: tmp44 += ints.tmp67 * -1
    .add 321 (.cp 197) (-1) 1,
    -- 3490: tmp44 += ints.tmp69 * -1
    .add 321 (.cp 198) (-1) 1,
    -- 3491: tmp44 += ints.tmp86 * -2
    .add 321 (.cp 199) (-2) 1,
    -- 3492: tmp44 += ints.tmp87 * -1
    .add 321 (.cp 200) (-1) 1,
    -- 3493: tmp44 += ints.tmp9 * -1
    .add 321 (.cp 49) (-1) 1,
    -- 3494: tmp52 = einsum(tmp50, (0, 1, 2, 3), r2.aba, (1, 4, 3), (0, 2, 4)) * -1
    .set 322 (.ein [(288, [0, 1, 2, 3]), (5, [1, 4, 3])] [0, 2, 4]) (-1) 1,
    -- 3495: del tmp50
    .del 288,
    -- 3496: tmp52 += einsum(tmp51, (0, 1, 2, 3), r2.aba, (4, 2, 3), (4, 0, 1))
    .add 322 (.ein [(282, [0, 1, 2, 3]), (5, [4, 2, 3])] [4, 0, 1]) 1 1,
    -- 3497: del tmp51
    .del 282,
    -- 3498: tmp52 += einsum(r2.bbb, (0, 1, 2), tmp1, (3, 4, 1, 2), (3, 4, 0)) * 2
    .add 322 (.ein [(8, [0, 1, 2]), (283, [3, 4, 1, 2])] [3, 4, 0]) 2 1,
    -- 3499: tmp49 = np.copy(ints.tmp190)
    .set 323 (.cp 201) 1 1,
    -- 3500: tmp49 += ints.tmp200
    .add 323 (.cp 202) 1 1,
    -- 3501: tmp49 += ints.tmp201 * 2
    .add 323 (.cp 203) 2 1,
    -- 3502: tmp49 += np.transpose(ints.tmp209, (0, 2, 1, 3))
    .add 323 (.tr 204 [0, 2, 1, 3]) 1 1,
    -- 3503: tmp49 += ints.tmp223
    .add 323 (.cp 205) 1 1,
    -- 3504: tmp49 += ints.tmp224
    .add 323 (.cp 206) 1 1,
    -- 3505: tmp49 += ints.tmp229
    .add 323 (.cp 207) 1 1,
    -- 3506: tmp49 += ints.tmp237
    .add 323 (.cp 208) 1 1,
    -- 3507: tmp49 += ints.tmp239 * 2
    .add 323 (.cp 209) 2 1,
    -- 3508: tmp49 += ints.tmp243
    .add 323 (.cp 210) 1 1,
    -- 3509: tmp49 += ints.tmp39
    .add 323 (.cp 6) 1 1,
    -- 3510: tmp49 += np.transpose(v.aabb.ovoo, (0, 2, 3, 1))
    .add 323 (.tr 7 [0, 2, 3, 1]) 1 1,
    -- 3511: tmp49 += ints.tmp194 * -1
    .add 323 (.cp 211) (-1) 1,
    -- 3512: tmp49 += ints.tmp197 * -1
    .add 323 (.cp 212) (-1) 1,
    -- 3513: tmp49 += ints.tmp199 * -1
    .add 323 (.cp 213) (-1) 1,
    -- 3514: tmp49 += ints.tmp214 * -1
    .add 323 (.cp 214) (-1) 1,
    -- 3515: tmp49 += ints.tmp222 * -1
    .add 323 (.cp 215) (-1) 1,
    -- 3516: tmp49 += ints.tmp232 * -1
    .add 323 (.cp 216) (-1) 1,
    -- 3517: tmp49 += ints.tmp238 * -1
    .add 323 (.cp 217) (-1) 1,
    -- 3518: tmp49 += ints.tmp241 * -1
    .add 323 (.cp 218) (-1) 1,
    -- 3519: tmp49 += ints.tmp248 * -1
    .add 323 (.cp 219) (-1) 1,
    -- 3520: tmp49 += np.transpose(ints.tmp249, (0, 2, 1, 3)) * -1
    .add 323 (.tr 220 [0, 2, 1, 3]) (-1) 1,
    -- 3521: tmp47 = np.copy(ints.tmp189)
    .set 324 (.cp 221) 1 1,
    -- 3522: tmp47 += np.transpose(v.aabb.vvoo, (2, 3, 0, 1))
    .add 324 (.tr 222 [2, 3, 0, 1]) 1 1,
    -- 3523: tmp47 += ints.tmp217 * -1
    .add 324 (.cp 223) (-1) 1,
    -- 3524: tmp48 = np.copy(ints.tmp192)
    .set 325 (.cp 161) 1 1,
    -- 3525: tmp48 += ints.tmp230
    .add 325 (.cp 162) 1 1,
    -- 3526: tmp48 += ints.tmp233
    .add 325 (.cp 163) 1 1,
    -- 3527: tmp48 += ints.tmp244
    .add 325 (.cp 164) 1 1,
    -- 3528: tmp48 += v.aabb.oooo
    .add 325 (.cp 165) 1 1,
    -- 3529: tmp37 = np.copy(ints.tmp72)
    .set 326 (.cp 224) 1 1,
    -- 3530: tmp37 += ints.tmp78
    .add 326 (.cp 225) 1 1,
    -- 3531: tmp37 += np.transpose(v.aaaa.oooo, (0, 2, 3, 1)) * -1
    .add 326 (.tr 226 [0, 2, 3, 1]) (-1) 1,
    -- 3532: tmp43 = np.copy(ints.tmp139)
    .set 327 (.cp 227) 1 1,
    -- 3533: tmp43 += np.transpose(ints.tmp147, (2, 0, 1, 3))
    .add 327 (.tr 228 [2, 0, 1, 3]) 1 1,
    -- 3534: tmp43 += np.transpose(ints.tmp149, (2, 0, 1, 3))
    .add 327 (.tr 229 [2, 0, 1, 3]) 1 1,
    -- 3535: tmp43 += np.transpose(ints.tmp80, (2, 0, 1, 3))
    .add 327 (.tr 230 [2, 0, 1, 3]) 1 1,
    -- 3536: tmp43 += np.transpose(ints.tmp145, (2, 0, 1, 3)) * -1
    .add 327 (.tr 231 [2, 0, 1, 3]) (-1) 1,
    -- 3537: tmp43 += np.transpose(ints.tmp76, (2, 0, 1, 3)) * -1
    .add 327 (.tr 232 [2, 0, 1, 3]) (-1) 1,
    -- 3538: tmp36 = np.copy(tmp27) * 2
    .set 328 (.cp 294) 2 1,
    -- 3539: del tmp27
    .del 294,
    -- 3540: tmp36 += tmp28
    .add 328 (.cp 291) 1 1,
    -- 3541: del tmp28
    .del 291,
    -- 3542: tmp36 += tmp29
    .add 328 (.cp 290) 1 1,
    -- 3543: del tmp29
    .del 290,
    -- 3544: tmp36 += np.transpose(tmp31, (1, 0, 2)) * -2
    .add 328 (.tr 292 [1, 0, 2]) (-2) 1,
    -- 3545: del tmp31
    .del 292,
    -- 3546: tmp36 += np.transpose(tmp33, (1, 0, 2)) * -2
    .add 328 (.tr 289 [1, 0, 2]) (-2) 1,
    -- 3547: del tmp33
    .del 289,
    -- 3548: tmp36 += tmp35
    .add 328 (.cp 293) 1 1,
    -- 3549: del tmp35
    .del 293,
    -- 3550: tmp42 = np.copy(tmp40) * 2
    .set 329 (.cp 286) 2 1,
    -- 3551: del tmp40
    .del 286,
    -- 3552: tmp42 += tmp41
    .add 329 (.cp 285) 1 1,
    -- 3553: del tmp41
    .del 285,
    -- 3554: tmp26 = np.copy(tmp8) * 2
    .set 330 (.cp 299) 2 1,
    -- 3555: del tmp8
    .del 299,
    -- 3556: tmp26 += tmp9 * 2
    .add 330 (.cp 301) 2 1,
    -- 3557: del tmp9
    .del 301,
    -- 3558: tmp26 += np.transpose(tmp11, (1, 0, 2)) * -1
    .add 330 (.tr 295 [1, 0, 2]) (-1) 1,
    -- 3559: del tmp11
    .del 295,
    -- 3560: tmp26 += np.transpose(tmp13, (1, 0, 2))
    .add 330 (.tr 296 [1, 0, 2]) 1 1,
    -- 3561: del tmp13
    .del 296,
    -- 3562: tmp26 += tmp21
    .add 330 (.cp 298) 1 1,
    -- 3563: del tmp21
    .del 298,
    -- 3564: tmp26 += tmp23
    .add 330 (.cp 300) 1 1,
    -- 3565: del tmp23
    .del 300,
    -- 3566: tmp26 += np.transpose(tmp25, (1, 0, 2))
    .add 330 (.tr 297 [1, 0, 2]) 1 1,
    -- 3567: del tmp25
    .del 297,
    -- 3568: tmp6 = np.copy(ints.tmp37)
    .set 331 (.cp 0) 1 1,
    -- 3569: tmp6 += v.bbbb.ooov * -1
    .add 331 (.cp 1) (-1) 1,
    -- 3570: tmp5 = np.copy(ints.tmp39)
    .set 332 (.cp 6) 1 1,
    -- 3571: tmp5 += np.transpose(v.aabb.ovoo, (0, 2, 3, 1))
    .add 332 (.tr 7 [0, 2, 3, 1]) 1 1,
    -- 3572: tmp0 = np.copy(ints.tmp16)
    .set 333 (.cp 3) 1 1,
    -- 3573: tmp0 += v.aaaa.ooov * -1
    .add 333 (.cp 4) (-1) 1,
    -- 3574: r2new.bbb = np.copy(tmp85) * -1
    .set 334 (.cp 304) (-1) 1,
    -- 3575: r2new.bbb += np.transpose(tmp85, (1, 0, 2))
    .add 334 (.tr 304 [1, 0, 2]) 1 1,
    -- 3576: del tmp85
    .del 304,
    -- 3577: r2new.bbb += tmp95
    .add 334 (.cp 308) 1 1,
    -- 3578: r2new.bbb += np.transpose(tmp95, (1, 0, 2)) * -1
    .add 334 (.tr 308 [1, 0, 2]) (-1) 1,
    -- 3579: del tmp95
    .del 308,
    -- 3580: r2new.bbb += einsum(r2.bbb, (0, 1, 2), tmp96, (3, 4, 0, 1), (3, 4, 2)) * 2
    .add 334 (.ein [(8, [0, 1, 2]), (306, [3, 4, 0, 1])] [3, 4, 2]) 2 1,
    -- 3581: del tmp96
    .del 306,
    -- 3582: r2new.bbb += einsum(tmp61, (0, 1), r2.bbb, (2, 3, 0), (2, 3, 1)) * -2
    .add 334 (.ein [(303, [0, 1]), (8, [2, 3, 0])] [2, 3, 1]) (-2) 1,
    -- 3583: r2new.bbb += einsum(tmp55, (0,), t2.bbbb, (1, 2, 3, 0), (1, 2, 3)) * 4
    .add 334 (.ein [(305, [0]), (233, [1, 2, 3, 0])] [1, 2, 3]) 4 1,
    -- 3584: r2new.bbb += einsum(r1.b, (0,), tmp97, (1, 2, 0, 3), (2, 1, 3)) * -2
    .add 334 (.ein [(84, [0]), (302, [1, 2, 0, 3])] [2, 1, 3]) (-2) 1,
    -- 3585: del tmp97
    .del 302,
    -- 3586: r2new.bbb += einsum(tmp66, (0, 1), r1.b, (2,), (2, 0, 1)) * -1
    .add 334 (.ein [(307, [0, 1]), (84, [2])] [2, 0, 1]) (-1) 1,
    -- 3587: r2new.bbb += einsum(r1.b, (0,), tmp66, (1, 2), (1, 0, 2))
    .add 334 (.ein [(84, [0]), (307, [1, 2])] [1, 0, 2]) 1 1,
    -- 3588: r2new.bab = einsum(tmp56, (0, 1, 2, 3), r2.bab, (1, 4, 3), (0, 4, 2))
    .set 335 (.ein [(315, [0, 1, 2, 3]), (11, [1, 4, 3])] [0, 4, 2]) 1 1,
    -- 3589: del tmp56
    .del 315,
    -- 3590: r2new.bab += einsum(r2.aaa, (0, 1, 2), tmp57, (1, 3, 2, 4), (3, 0, 4)) * -2
    .add 335 (.ein [(9, [0, 1, 2]), (314, [1, 3, 2, 4])] [3, 0, 4]) (-2) 1,
    -- 3591: del tmp57
    .del 314,
    -- 3592: r2new.bab += einsum(r2.bab, (0, 1, 2), tmp58, (3, 1, 4, 2), (0, 3, 4)) * -1
    .add 335 (.ein [(11, [0, 1, 2]), (309, [3, 1, 4, 2])] [0, 3, 4]) (-1) 1,
    -- 3593: del tmp58
    .del 309,
    -- 3594: r2new.bab += einsum(tmp59, (0, 1, 2, 3), r2.bab, (3, 1, 4), (2, 0, 4))
    .add 335 (.ein [(313, [0, 1, 2, 3]), (11, [3, 1, 4])] [2, 0, 4]) 1 1,
    -- 3595: del tmp59
    .del 313,
    -- 3596: r2new.bab += einsum(r2.bab, (0, 1, 2), tmp61, (2, 3), (0, 1, 3)) * -1
    .add 335 (.ein [(11, [0, 1, 2]), (303, [2, 3])] [0, 1, 3]) (-1) 1,
    -- 3597: del tmp61
    .del 303,
    -- 3598: r2new.bab += einsum(r1.a, (0,), tmp62, (1, 0, 2, 3), (2, 1, 3))
    .add 335 (.ein [(91, [0]), (311, [1, 0, 2, 3])] [2, 1, 3]) 1 1,
    -- 3599: del tmp62
    .del 311,
    -- 3600: r2new.bab += einsum(tmp7, (0, 1), r2.bab, (0, 2, 3), (1, 2, 3)) * -1
    .add 335 (.ein [(317, [0, 1]), (11, [0, 2, 3])] [1, 2, 3]) (-1) 1,
    -- 3601: r2new.bab += einsum(tmp4, (0, 1), r2.bab, (2, 0, 3), (2, 1, 3)) * -1
    .add 335 (.ein [(310, [0, 1]), (11, [2, 0, 3])] [2, 1, 3]) (-1) 1,
    -- 3602: r2new.bab += einsum(t1.bb, (0, 1), tmp64, (2, 3, 0), (3, 2, 1))
    .add 335 (.ein [(81, [0, 1]), (312, [2, 3, 0])] [3, 2, 1]) 1 1,
    -- 3603: del tmp64
    .del 312,
    -- 3604: r2new.bab += einsum(tmp65, (0,), t2.abab, (1, 2, 0, 3), (2, 1, 3)) * 2
    .add 335 (.ein [(316, [0]), (234, [1, 2, 0, 3])] [2, 1, 3]) 2 1,
    -- 3605: del tmp65
    .del 316,
    -- 3606: r2new.bab += einsum(tmp66, (0, 1), r1.a, (2,), (0, 2, 1))
    .add 335 (.ein [(307, [0, 1]), (91, [2])] [0, 2, 1]) 1 1,
    -- 3607: del tmp66
    .del 307,
    -- 3608: r2new.aba = einsum(tmp45, (0, 1, 2, 3), r2.aba, (1, 4, 3), (0, 4, 2))
    .set 336 (.ein [(320, [0, 1, 2, 3]), (5, [1, 4, 3])] [0, 4, 2]) 1 1,
    -- 3609: del tmp45
    .del 320,
    -- 3610: r2new.aba += einsum(tmp46, (0, 1, 2, 3), r2.bbb, (4, 1, 3), (0, 4, 2)) * -2
    .add 336 (.ein [(318, [0, 1, 2, 3]), (8, [4, 1, 3])] [0, 4, 2]) (-2) 1,
    -- 3611: del tmp46
    .del 318,
    -- 3612: r2new.aba += einsum(r2.aba, (0, 1, 2), tmp47, (3, 1, 4, 2), (0, 3, 4)) * -1
    .add 336 (.ein [(5, [0, 1, 2]), (324, [3, 1, 4, 2])] [0, 3, 4]) (-1) 1,
    -- 3613: del tmp47
    .del 324,
    -- 3614: r2new.aba += einsum(tmp48, (0, 1, 2, 3), r2.aba, (1, 3, 4), (0, 2, 4))
    .add 336 (.ein [(325, [0, 1, 2, 3]), (5, [1, 3, 4])] [0, 2, 4]) 1 1,
    -- 3615: del tmp48
    .del 325,
    -- 3616: r2new.aba += einsum(r2.aba, (0, 1, 2), tmp39, (2, 3), (0, 1, 3)) * -1
    .add 336 (.ein [(5, [0, 1, 2]), (319, [2, 3])] [0, 1, 3]) (-1) 1,
    -- 3617: r2new.aba += einsum(r1.b, (0,), tmp49, (1, 2, 0, 3), (1, 2, 3))
    .add 336 (.ein [(84, [0]), (323, [1, 2, 0, 3])] [1, 2, 3]) 1 1,
    -- 3618: del tmp49
    .del 323,
    -- 3619: r2new.aba += einsum(tmp7, (0, 1), r2.aba, (2, 0, 3), (2, 1, 3)) * -1
    .add 336 (.ein [(317, [0, 1]), (5, [2, 0, 3])] [2, 1, 3]) (-1) 1,
    -- 3620: r2new.aba += einsum(tmp4, (0, 1), r2.aba, (0, 2, 3), (1, 2, 3)) * -1
    .add 336 (.ein [(310, [0, 1]), (5, [0, 2, 3])] [1, 2, 3]) (-1) 1,
    -- 3621: r2new.aba += einsum(tmp52, (0, 1, 2), t1.aa, (1, 3), (0, 2, 3))
    .add 336 (.ein [(322, [0, 1, 2]), (89, [1, 3])] [0, 2, 3]) 1 1,
    -- 3622: del tmp52
    .del 322,
    -- 3623: r2new.aba += einsum(tmp55, (0,), t2.abab, (1, 2, 3, 0), (1, 2, 3)) * 2
    .add 336 (.ein [(305, [0]), (234, [1, 2, 3, 0])] [1, 2, 3]) 2 1,
    -- 3624: del tmp55
    .del 305,
    -- 3625: r2new.aba += einsum(tmp44, (0, 1), r1.b, (2,), (0, 2, 1))
    .add 336 (.ein [(321, [0, 1]), (84, [2])] [0, 2, 1]) 1 1,
    -- 3626: r2new.aaa = np.copy(tmp26) * -1
    .set 337 (.cp 330) (-1) 1,
    -- 3627: r2new.aaa += np.transpose(tmp26, (1, 0, 2))
    .add 337 (.tr 330 [1, 0, 2]) 1 1,
    -- 3628: del tmp26
    .del 330,
    -- 3629: r2new.aaa += tmp36
    .add 337 (.cp 328) 1 1,
    -- 3630: r2new.aaa += np.transpose(tmp36, (1, 0, 2)) * -1
    .add 337 (.tr 328 [1, 0, 2]) (-1) 1,
    -- 3631: del tmp36
    .del 328,
    -- 3632: r2new.aaa += einsum(tmp37, (0, 1, 2, 3), r2.aaa, (3, 2, 4), (0, 1, 4)) * -2
    .add 337 (.ein [(326, [0, 1, 2, 3]), (9, [3, 2, 4])] [0, 1, 4]) (-2) 1,
    -- 3633: del tmp37
    .del 326,
    -- 3634: r2new.aaa += einsum(r2.aaa, (0, 1, 2), tmp39, (2, 3), (0, 1, 3)) * -2
    .add 337 (.ein [(9, [0, 1, 2]), (319, [2, 3])] [0, 1, 3]) (-2) 1,
    -- 3635: del tmp39
    .del 319,
    -- 3636: r2new.aaa += einsum(tmp42, (0,), t2.aaaa, (1, 2, 3, 0), (1, 2, 3)) * 2
    .add 337 (.ein [(329, [0]), (235, [1, 2, 3, 0])] [1, 2, 3]) 2 1,
    -- 3637: del tmp42
    .del 329,
    -- 3638: r2new.aaa += einsum(r1.a, (0,), tmp43, (0, 1, 2, 3), (2, 1, 3)) * -2
    .add 337 (.ein [(91, [0]), (327, [0, 1, 2, 3])] [2, 1, 3]) (-2) 1,
    -- 3639: del tmp43
    .del 327,
    -- 3640: r2new.aaa += einsum(tmp44, (0, 1), r1.a, (2,), (2, 0, 1)) * -1
    .add 337 (.ein [(321, [0, 1]), (91, [2])] [2, 0, 1]) (-1) 1,
    -- 3641: r2new.aaa += einsum(r1.a, (0,), tmp44, (1, 2), (1, 0, 2))
    .add 337 (.ein [(91, [0]), (321, [1, 2])] [1, 0, 2]) 1 1,
    -- 3642: del tmp44
    .del 321,
    -- 3643: r1new.b = einsum(tmp5, (0, 1, 2, 3), r2.aba, (0, 2, 3), (1,))
    .set 338 (.ein [(332, [0, 1, 2, 3]), (5, [0, 2, 3])] [1]) 1 1,
    -- 3644: del tmp5
    .del 332,
    -- 3645: r1new.b += einsum(r2.bbb, (0, 1, 2), tmp6, (3, 1, 0, 2), (3,)) * -2
    .add 338 (.ein [(8, [0, 1, 2]), (331, [3, 1, 0, 2])] [3]) (-2) 1,
    -- 3646: del tmp6
    .del 331,
    -- 3647: r1new.b += einsum(tmp3, (0, 1), r2.aba, (0, 2, 1), (2,)) * -1
    .add 338 (.ein [(257, [0, 1]), (5, [0, 2, 1])] [2]) (-1) 1,
    -- 3648: r1new.b += einsum(tmp2, (0, 1), r2.bbb, (2, 0, 1), (2,)) * 2
    .add 338 (.ein [(248, [0, 1]), (8, [2, 0, 1])] [2]) 2 1,
    -- 3649: r1new.b += einsum(r1.b, (0,), tmp7, (0, 1), (1,)) * -1
    .add 338 (.ein [(84, [0]), (317, [0, 1])] [1]) (-1) 1,
    -- 3650: del tmp7
    .del 317,
    -- 3651: r1new.a = einsum(tmp0, (0, 1, 2, 3), r2.aaa, (2, 1, 3), (0,)) * -2
    .set 339 (.ein [(333, [0, 1, 2, 3]), (9, [2, 1, 3])] [0]) (-2) 1,
    -- 3652: del tmp0
    .del 333,
    -- 3653: r1new.a += einsum(r2.bab, (0, 1, 2), tmp1, (3, 1, 0, 2), (3,))
    .add 339 (.ein [(11, [0, 1, 2]), (283, [3, 1, 0, 2])] [3]) 1 1,
    -- 3654: del tmp1
    .del 283,
    -- 3655: r1new.a += einsum(r2.bab, (0, 1, 2), tmp2, (0, 2), (1,)) * -1
    .add 339 (.ein [(11, [0, 1, 2]), (248, [0, 2])] [1]) (-1) 1,
    -- 3656: del tmp2
    .del 248,
    -- 3657: r1new.a += einsum(tmp3, (0, 1), r2.aaa, (2, 0, 1), (2,)) * 2
    .add 339 (.ein [(257, [0, 1]), (9, [2, 0, 1])] [2]) 2 1,
    -- 3658: del tmp3
    .del 257,
    -- 3659: r1new.a += einsum(r1.a, (0,), tmp4, (0, 1), (1,)) * -1
    .add 339 (.ein [(91, [0]), (310, [0, 1])] [1]) (-1) 1,
    -- 3660: del tmp4
    .del 310
  ]
  ret := [(chars! "r1new.b", 338), (chars! "r1new.a", 339), (chars! "r2new.bbb", 334), (chars! "r2new.bab", 335), (chars! "r2new.aba", 336), (chars! "r2new.aaa", 337)]

/-- codegen/UCCSD.py:4602-5030 `hbar_lmatvec_ip_intermediates`. -/
def hbar_lmatvec_ip_intermediates : GenFun where
  args := [chars! "t1.aa", chars! "v.aabb.ovov", chars! "v.bbbb.ovov", chars! "t1.bb", chars! "v.aaaa.ovov", chars! "v.aabb.vvov", chars! "v.bbbb.ovvv", chars! "v.aabb.ovoo", chars! "v.aabb.ooov", chars! "v.bbbb.ooov", chars! "t2.abab", chars! "t2.bbbb", chars! "v.aabb.ovvv", chars! "v.aaaa.ovvv", chars! "v.aaaa.ooov", chars! "t2.aaaa", chars! "f.bb.ov", chars! "f.aa.ov", chars! "v.aabb.vvoo", chars! "v.bbbb.oovv", chars! "v.aabb.oooo", chars! "v.bbbb.oooo", chars! "v.aabb.oovv", chars! "v.aaaa.oovv", chars! "v.aaaa.oooo", chars! "f.bb.vv", chars! "f.aa.vv", chars! "f.bb.oo", chars! "f.aa.oo"]
  body := [
    -- 4825: tmp45 = einsum(t1.aa, (0, 1), v.aabb.ovov, (2, 1, 3, 4), (0, 2, 3, 4))
    .set 29 (.ein [(0, [0, 1]), (1, [2, 1, 3, 4])] [0, 2, 3, 4]) 1 1,
    -- 4826: tmp119 = einsum(v.bbbb.ovov, (0, 1, 2, 3), t1.bb, (4, 3), (4, 0, 2, 1))
    .set 30 (.ein [(2, [0, 1, 2, 3]), (3, [4, 3])] [4, 0, 2, 1]) 1 1,
    -- 4827: tmp41 = einsum(t1.aa, (0, 1), v.aaaa.ovov, (2, 3, 4, 1), (0, 2, 4, 3))
    .set 31 (.ein [(0, [0, 1]), (4, [2, 3, 4, 1])] [0, 2, 4, 3]) 1 1,
    -- 4828: tmp38 = einsum(v.aabb.ovov, (0, 1, 2, 3), t1.aa, (0, 1), (2, 3))
    .set 32 (.ein [(1, [0, 1, 2, 3]), (0, [0, 1])] [2, 3]) 1 1,
    -- 4829: tmp39 = einsum(v.aabb.ovov, (0, 1, 2, 3), t1.bb, (2, 3), (0, 1))
    .set 33 (.ein [(1, [0, 1, 2, 3]), (3, [2, 3])] [0, 1]) 1 1,
    -- 4830: tmp36 = einsum(v.bbbb.ovov, (0, 1, 2, 3), t1.bb, (2, 3), (0, 1))
    .set 34 (.ein [(2, [0, 1, 2, 3]), (3, [2, 3])] [0, 1]) 1 1,
    -- 4831: tmp89 = einsum(v.bbbb.ovov, (0, 1, 2, 3), t1.bb, (2, 1), (0, 3))
    .set 35 (.ein [(2, [0, 1, 2, 3]), (3, [2, 1])] [0, 3]) 1 1,
    -- 4832: tmp32 = einsum(t1.aa, (0, 1), v.aaaa.ovov, (2, 3, 0, 1), (2, 3))
    .set 36 (.ein [(0, [0, 1]), (4, [2, 3, 0, 1])] [2, 3]) 1 1,
    -- 4833: tmp82 = einsum(t1.aa, (0, 1), v.aaaa.ovov, (2, 1, 0, 3), (2, 3))
    .set 37 (.ein [(0, [0, 1]), (4, [2, 1, 0, 3])] [2, 3]) 1 1,
    -- 4834: tmp214 = einsum(tmp45, (0, 1, 2, 3), t1.bb, (4, 3), (0, 1, 4, 2))
    .set 38 (.ein [(29, [0, 1, 2, 3]), (3, [4, 3])] [0, 1, 4, 2]) 1 1,
    -- 4835: tmp333 = einsum(t1.bb, (0, 1), tmp119, (2, 3, 4, 1), (0, 2, 3, 4))
    .set 39 (.ein [(3, [0, 1]), (30, [2, 3, 4, 1])] [0, 2, 3, 4]) 1 1,
    -- 4836: tmp327 = einsum(v.aabb.vvov, (0, 1, 2, 3), t1.bb, (4, 3), (4, 2, 0, 1))
    .set 40 (.ein [(5, [0, 1, 2, 3]), (3, [4, 3])] [4, 2, 0, 1]) 1 1,
    -- 4837: tmp324 = einsum(t1.bb, (0, 1), v.bbbb.ovvv, (2, 3, 4, 1), (0, 2, 3, 4))
    .set 41 (.ein [(3, [0, 1]), (6, [2, 3, 4, 1])] [0, 2, 3, 4]) 1 1,
    -- 4838: tmp174 = einsum(t1.aa, (0, 1), v.aabb.ovoo, (2, 1, 3, 4), (0, 2, 3, 4))
    .set 42 (.ein [(0, [0, 1]), (7, [2, 1, 3, 4])] [0, 2, 3, 4]) 1 1,
    -- 4839: tmp176 = einsum(v.aabb.ooov, (0, 1, 2, 3), t1.bb, (4, 3), (0, 1, 4, 2))
    .set 43 (.ein [(8, [0, 1, 2, 3]), (3, [4, 3])] [0, 1, 4, 2]) 1 1,
    -- 4840: tmp314 = einsum(v.bbbb.ooov, (0, 1, 2, 3), t1.bb, (4, 3), (4, 0, 1, 2))
    .set 44 (.ein [(9, [0, 1, 2, 3]), (3, [4, 3])] [4, 0, 1, 2]) 1 1,
    -- 4841: tmp151 = einsum(v.aabb.ovov, (0, 1, 2, 3), t2.abab, (4, 5, 1, 3), (4, 0, 5, 2))
    .set 45 (.ein [(1, [0, 1, 2, 3]), (10, [4, 5, 1, 3])] [4, 0, 5, 2]) 1 1,
    -- 4842: tmp306 = einsum(t2.bbbb, (0, 1, 2, 3), v.bbbb.ovov, (4, 3, 5, 2), (0, 1, 4, 5)) * -1
    .set 46 (.ein [(11, [0, 1, 2, 3]), (2, [4, 3, 5, 2])] [0, 1, 4, 5]) (-1) 1,
    -- 4843: tmp124 = einsum(t1.bb, (0, 1), v.aabb.ovov, (2, 3, 4, 1), (2, 0, 4, 3))
    .set 47 (.ein [(3, [0, 1]), (1, [2, 3, 4, 1])] [2, 0, 4, 3]) 1 1,
    -- 4844: tmp211 = einsum(tmp41, (0, 1, 2, 3), t1.aa, (4, 3), (4, 0, 1, 2))
    .set 48 (.ein [(31, [0, 1, 2, 3]), (0, [4, 3])] [4, 0, 1, 2]) 1 1,
    -- 4845: tmp209 = einsum(tmp38, (0, 1), t1.bb, (2, 1), (2, 0))
    .set 49 (.ein [(32, [0, 1]), (3, [2, 1])] [2, 0]) 1 1,
    -- 4846: tmp156 = einsum(tmp39, (0, 1), t1.aa, (2, 1), (2, 0))
    .set 50 (.ein [(33, [0, 1]), (0, [2, 1])] [2, 0]) 1 1,
    -- 4847: tmp205 = einsum(t1.bb, (0, 1), tmp36, (2, 1), (0, 2))
    .set 51 (.ein [(3, [0, 1]), (34, [2, 1])] [0, 2]) 1 1,
    -- 4848: tmp203 = einsum(tmp89, (0, 1), t1.bb, (2, 1), (2, 0))
    .set 52 (.ein [(35, [0, 1]), (3, [2, 1])] [2, 0]) 1 1,
    -- 4849: tmp155 = einsum(t1.aa, (0, 1), tmp32, (2, 1), (0, 2))
    .set 53 (.ein [(0, [0, 1]), (36, [2, 1])] [0, 2]) 1 1,
    -- 4850: tmp154 = einsum(tmp82, (0, 1), t1.aa, (2, 1), (2, 0))
    .set 54 (.ein [(37, [0, 1]), (0, [2, 1])] [2, 0]) 1 1,
    -- 4851: tmp196 = einsum(t1.aa, (0, 1), v.aabb.ovvv, (2, 1, 3, 4), (0, 2, 3, 4))
    .set 55 (.ein [(0, [0, 1]), (12, [2, 1, 3, 4])] [0, 2, 3, 4]) 1 1,
    -- 4852: tmp193 = einsum(v.aaaa.ovvv, (0, 1, 2, 3), t1.aa, (4, 3), (4, 0, 1, 2))
    .set 56 (.ein [(13, [0, 1, 2, 3]), (0, [4, 3])] [4, 0, 1, 2]) 1 1,
    -- 4853: tmp190 = einsum(v.aabb.vvov, (0, 1, 2, 3), t1.bb, (2, 3), (0, 1))
    .set 57 (.ein [(5, [0, 1, 2, 3]), (3, [2, 3])] [0, 1]) 1 1,
    -- 4854: tmp188 = einsum(v.aabb.ovvv, (0, 1, 2, 3), t1.aa, (0, 1), (2, 3))
    .set 58 (.ein [(12, [0, 1, 2, 3]), (0, [0, 1])] [2, 3]) 1 1,
    -- 4855: tmp186 = einsum(t1.bb, (0, 1), v.bbbb.ovvv, (0, 2, 3, 1), (2, 3))
    .set 59 (.ein [(3, [0, 1]), (6, [0, 2, 3, 1])] [2, 3]) 1 1,
    -- 4856: tmp184 = einsum(v.bbbb.ovvv, (0, 1, 2, 3), t1.bb, (0, 1), (2, 3))
    .set 60 (.ein [(6, [0, 1, 2, 3]), (3, [0, 1])] [2, 3]) 1 1,
    -- 4857: tmp181 = einsum(v.aaaa.ovvv, (0, 1, 2, 3), t1.aa, (0, 3), (1, 2))
    .set 61 (.ein [(13, [0, 1, 2, 3]), (0, [0, 3])] [1, 2]) 1 1,
    -- 4858: tmp178 = einsum(v.aaaa.ovvv, (0, 1, 2, 3), t1.aa, (0, 1), (2, 3))
    .set 62 (.ein [(13, [0, 1, 2, 3]), (0, [0, 1])] [2, 3]) 1 1,
    -- 4859: tmp169 = einsum(v.aaaa.ooov, (0, 1, 2, 3), t1.aa, (4, 3), (4, 0, 1, 2))
    .set 63 (.ein [(14, [0, 1, 2, 3]), (0, [4, 3])] [4, 0, 1, 2]) 1 1,
    -- 4860: tmp167 = einsum(v.aabb.ovoo, (0, 1, 2, 3), t1.aa, (0, 1), (2, 3))
    .set 64 (.ein [(7, [0, 1, 2, 3]), (0, [0, 1])] [2, 3]) 1 1,
    -- 4861: tmp27 = einsum(t1.bb, (0, 1), v.aabb.ooov, (2, 3, 0, 1), (2, 3))
    .set 65 (.ein [(3, [0, 1]), (8, [2, 3, 0, 1])] [2, 3]) 1 1,
    -- 4862: tmp163 = einsum(t1.bb, (0, 1), v.bbbb.ooov, (2, 3, 0, 1), (2, 3))
    .set 66 (.ein [(3, [0, 1]), (9, [2, 3, 0, 1])] [2, 3]) 1 1,
    -- 4863: tmp161 = einsum(t1.bb, (0, 1), v.bbbb.ooov, (2, 0, 3, 1), (2, 3))
    .set 67 (.ein [(3, [0, 1]), (9, [2, 0, 3, 1])] [2, 3]) 1 1,
    -- 4864: tmp26 = einsum(v.aaaa.ooov, (0, 1, 2, 3), t1.aa, (2, 3), (0, 1))
    .set 68 (.ein [(14, [0, 1, 2, 3]), (0, [2, 3])] [0, 1]) 1 1,
    -- 4865: tmp25 = einsum(v.aaaa.ooov, (0, 1, 2, 3), t1.aa, (1, 3), (0, 2))
    .set 69 (.ein [(14, [0, 1, 2, 3]), (0, [1, 3])] [0, 2]) 1 1,
    -- 4866: tmp148 = einsum(t2.aaaa, (0, 1, 2, 3), v.aaaa.ovov, (4, 2, 5, 3), (0, 1, 4, 5))
    .set 70 (.ein [(15, [0, 1, 2, 3]), (4, [4, 2, 5, 3])] [0, 1, 4, 5]) 1 1,
    -- 4867: tmp49 = einsum(v.aabb.ovov, (0, 1, 2, 3), t2.abab, (4, 2, 1, 3), (4, 0))
    .set 71 (.ein [(1, [0, 1, 2, 3]), (10, [4, 2, 1, 3])] [4, 0]) 1 1,
    -- 4868: tmp143 = einsum(v.aabb.ovov, (0, 1, 2, 3), t2.abab, (0, 4, 1, 3), (4, 2))
    .set 72 (.ein [(1, [0, 1, 2, 3]), (10, [0, 4, 1, 3])] [4, 2]) 1 1,
    -- 4869: tmp140 = einsum(t2.bbbb, (0, 1, 2, 3), v.bbbb.ovov, (4, 3, 1, 2), (0, 4)) * -1
    .set 73 (.ein [(11, [0, 1, 2, 3]), (2, [4, 3, 1, 2])] [0, 4]) (-1) 1,
    -- 4870: tmp47 = einsum(v.aaaa.ovov, (0, 1, 2, 3), t2.aaaa, (4, 2, 1, 3), (4, 0))
    .set 74 (.ein [(4, [0, 1, 2, 3]), (15, [4, 2, 1, 3])] [4, 0]) 1 1,
    -- 4871: tmp21 = einsum(t1.bb, (0, 1), f.bb.ov, (2, 1), (2, 0))
    .set 75 (.ein [(3, [0, 1]), (16, [2, 1])] [2, 0]) 1 1,
    -- 4872: tmp1 = einsum(t1.aa, (0, 1), f.aa.ov, (2, 1), (2, 0))
    .set 76 (.ein [(0, [0, 1]), (17, [2, 1])] [2, 0]) 1 1,
    -- 4873: tmp453 = einsum(v.aabb.ovov, (0, 1, 2, 3), t2.abab, (4, 2, 1, 5), (4, 0, 5, 3))
    .set 77 (.ein [(1, [0, 1, 2, 3]), (10, [4, 2, 1, 5])] [4, 0, 5, 3]) 1 1,
    -- 4874: tmp451 = einsum(v.aabb.ovov, (0, 1, 2, 3), t2.abab, (0, 2, 1, 4), (4, 3))
    .set 78 (.ein [(1, [0, 1, 2, 3]), (10, [0, 2, 1, 4])] [4, 3]) 1 1,
    -- 4875: tmp449 = einsum(t2.bbbb, (0, 1, 2, 3), v.bbbb.ovov, (0, 4, 1, 3), (2, 4))
    .set 79 (.ein [(11, [0, 1, 2, 3]), (2, [0, 4, 1, 3])] [2, 4]) 1 1,
    -- 4876: tmp438 = einsum(v.aabb.ovov, (0, 1, 2, 3), t2.abab, (0, 4, 1, 5), (4, 2, 5, 3))
    .set 80 (.ein [(1, [0, 1, 2, 3]), (10, [0, 4, 1, 5])] [4, 2, 5, 3]) 1 1,
    -- 4877: tmp436 = einsum(t2.aaaa, (0, 1, 2, 3), v.aabb.ovov, (1, 3, 4, 5), (0, 4, 2, 5))
    .set 81 (.ein [(15, [0, 1, 2, 3]), (1, [1, 3, 4, 5])] [0, 4, 2, 5]) 1 1,
    -- 4878: tmp434 = einsum(t2.bbbb, (0, 1, 2, 3), v.bbbb.ovov, (4, 5, 1, 3), (0, 4, 2, 5))
    .set 82 (.ein [(11, [0, 1, 2, 3]), (2, [4, 5, 1, 3])] [0, 4, 2, 5]) 1 1,
    -- 4879: tmp432 = einsum(v.bbbb.ovov, (0, 1, 2, 3), t2.abab, (4, 2, 5, 3), (4, 0, 5, 1))
    .set 83 (.ein [(2, [0, 1, 2, 3]), (10, [4, 2, 5, 3])] [4, 0, 5, 1]) 1 1,
    -- 4880: tmp430 = einsum(t2.bbbb, (0, 1, 2, 3), v.bbbb.ovov, (4, 3, 1, 5), (0, 4, 2, 5))
    .set 84 (.ein [(11, [0, 1, 2, 3]), (2, [4, 3, 1, 5])] [0, 4, 2, 5]) 1 1,
    -- 4881: tmp428 = einsum(v.bbbb.ovov, (0, 1, 2, 3), t2.abab, (4, 2, 5, 1), (4, 0, 5, 3))
    .set 85 (.ein [(2, [0, 1, 2, 3]), (10, [4, 2, 5, 1])] [4, 0, 5, 3]) 1 1,
    -- 4882: tmp426 = einsum(t1.aa, (0, 1), v.aabb.vvov, (2, 1, 3, 4), (0, 3, 2, 4))
    .set 86 (.ein [(0, [0, 1]), (5, [2, 1, 3, 4])] [0, 3, 2, 4]) 1 1,
    -- 4883: tmp425 = einsum(t1.bb, (0, 1), v.bbbb.ovvv, (2, 1, 3, 4), (0, 2, 3, 4))
    .set 87 (.ein [(3, [0, 1]), (6, [2, 1, 3, 4])] [0, 2, 3, 4]) 1 1,
    -- 4884: tmp422 = einsum(v.aabb.ovov, (0, 1, 2, 3), t2.abab, (0, 4, 5, 3), (4, 2, 5, 1))
    .set 88 (.ein [(1, [0, 1, 2, 3]), (10, [0, 4, 5, 3])] [4, 2, 5, 1]) 1 1,
    -- 4885: tmp393 = einsum(v.aabb.ovov, (0, 1, 2, 3), t2.abab, (0, 2, 4, 3), (4, 1))
    .set 89 (.ein [(1, [0, 1, 2, 3]), (10, [0, 2, 4, 3])] [4, 1]) 1 1,
    -- 4886: tmp391 = einsum(t2.aaaa, (0, 1, 2, 3), v.aaaa.ovov, (0, 3, 1, 4), (2, 4)) * -1
    .set 90 (.ein [(15, [0, 1, 2, 3]), (4, [0, 3, 1, 4])] [2, 4]) (-1) 1,
    -- 4887: tmp361 = einsum(t2.bbbb, (0, 1, 2, 3), v.aabb.ovov, (4, 5, 1, 3), (4, 0, 5, 2))
    .set 91 (.ein [(11, [0, 1, 2, 3]), (1, [4, 5, 1, 3])] [4, 0, 5, 2]) 1 1,
    -- 4888: tmp359 = einsum(v.aabb.ovov, (0, 1, 2, 3), t2.abab, (4, 2, 5, 3), (4, 0, 5, 1))
    .set 92 (.ein [(1, [0, 1, 2, 3]), (10, [4, 2, 5, 3])] [4, 0, 5, 1]) 1 1,
    -- 4889: tmp357 = einsum(v.aaaa.ovov, (0, 1, 2, 3), t2.abab, (2, 4, 3, 5), (0, 4, 1, 5))
    .set 93 (.ein [(4, [0, 1, 2, 3]), (10, [2, 4, 3, 5])] [0, 4, 1, 5]) 1 1,
    -- 4890: tmp355 = einsum(v.aaaa.ovov, (0, 1, 2, 3), t2.aaaa, (4, 2, 5, 3), (4, 0, 5, 1))
    .set 94 (.ein [(4, [0, 1, 2, 3]), (15, [4, 2, 5, 3])] [4, 0, 5, 1]) 1 1,
    -- 4891: tmp353 = einsum(v.aaaa.ovov, (0, 1, 2, 3), t2.abab, (2, 4, 1, 5), (0, 4, 3, 5))
    .set 95 (.ein [(4, [0, 1, 2, 3]), (10, [2, 4, 1, 5])] [0, 4, 3, 5]) 1 1,
    -- 4892: tmp351 = einsum(v.aaaa.ovov, (0, 1, 2, 3), t2.aaaa, (4, 2, 5, 1), (4, 0, 5, 3))
    .set 96 (.ein [(4, [0, 1, 2, 3]), (15, [4, 2, 5, 1])] [4, 0, 5, 3]) 1 1,
    -- 4893: tmp349 = einsum(v.aabb.ovvv, (0, 1, 2, 3), t1.bb, (4, 3), (0, 4, 1, 2))
    .set 97 (.ein [(12, [0, 1, 2, 3]), (3, [4, 3])] [0, 4, 1, 2]) 1 1,
    -- 4894: tmp346 = einsum(v.aaaa.ovvv, (0, 1, 2, 3), t1.aa, (4, 1), (4, 0, 2, 3))
    .set 98 (.ein [(13, [0, 1, 2, 3]), (0, [4, 1])] [4, 0, 2, 3]) 1 1,
    -- 4895: tmp336 = einsum(tmp214, (0, 1, 2, 3), t1.aa, (1, 4), (0, 2, 3, 4))
    .set 99 (.ein [(38, [0, 1, 2, 3]), (0, [1, 4])] [0, 2, 3, 4]) 1 1,
    -- 4896: tmp334 = einsum(tmp333, (0, 1, 2, 3), t1.bb, (3, 4), (0, 1, 2, 4))
    .set 100 (.ein [(39, [0, 1, 2, 3]), (3, [3, 4])] [0, 1, 2, 4]) 1 1,
    -- 4897: tmp328 = einsum(t1.aa, (0, 1), tmp327, (2, 3, 4, 1), (0, 2, 3, 4))
    .set 101 (.ein [(0, [0, 1]), (40, [2, 3, 4, 1])] [0, 2, 3, 4]) 1 1,
    -- 4898: tmp325 = einsum(tmp324, (0, 1, 2, 3), t1.bb, (4, 2), (4, 0, 1, 3))
    .set 102 (.ein [(41, [0, 1, 2, 3]), (3, [4, 2])] [4, 0, 1, 3]) 1 1,
    -- 4899: tmp320 = einsum(t1.aa, (0, 1), tmp174, (2, 0, 3, 4), (2, 3, 4, 1))
    .set 103 (.ein [(0, [0, 1]), (42, [2, 0, 3, 4])] [2, 3, 4, 1]) 1 1,
    -- 4900: tmp319 = einsum(t1.aa, (0, 1), tmp176, (2, 0, 3, 4), (2, 3, 4, 1))
    .set 104 (.ein [(0, [0, 1]), (43, [2, 0, 3, 4])] [2, 3, 4, 1]) 1 1,
    -- 4901: tmp317 = einsum(tmp314, (0, 1, 2, 3), t1.bb, (3, 4), (0, 1, 2, 4))
    .set 105 (.ein [(44, [0, 1, 2, 3]), (3, [3, 4])] [0, 1, 2, 4]) 1 1,
    -- 4902: tmp315 = einsum(t1.bb, (0, 1), tmp314, (2, 3, 0, 4), (2, 3, 4, 1))
    .set 106 (.ein [(3, [0, 1]), (44, [2, 3, 0, 4])] [2, 3, 4, 1]) 1 1,
    -- 4903: tmp309 = einsum(t1.aa, (0, 1), tmp151, (2, 0, 3, 4), (2, 3, 4, 1))
    .set 107 (.ein [(0, [0, 1]), (45, [2, 0, 3, 4])] [2, 3, 4, 1]) 1 1,
    -- 4904: tmp307 = einsum(t1.bb, (0, 1), tmp306, (2, 3, 4, 0), (2, 3, 4, 1))
    .set 108 (.ein [(3, [0, 1]), (46, [2, 3, 4, 0])] [2, 3, 4, 1]) 1 1,
    -- 4905: tmp301 = einsum(t2.abab, (0, 1, 2, 3), tmp45, (4, 0, 5, 3), (4, 1, 5, 2))
    .set 109 (.ein [(10, [0, 1, 2, 3]), (29, [4, 0, 5, 3])] [4, 1, 5, 2]) 1 1,
    -- 4906: tmp299 = einsum(tmp124, (0, 1, 2, 3), t2.abab, (0, 4, 3, 5), (1, 4, 2, 5))
    .set 110 (.ein [(47, [0, 1, 2, 3]), (10, [0, 4, 3, 5])] [1, 4, 2, 5]) 1 1,
    -- 4907: tmp297 = einsum(tmp124, (0, 1, 2, 3), t2.aaaa, (4, 0, 5, 3), (4, 1, 2, 5))
    .set 111 (.ein [(47, [0, 1, 2, 3]), (15, [4, 0, 5, 3])] [4, 1, 2, 5]) 1 1,
    -- 4908: tmp295 = einsum(tmp119, (0, 1, 2, 3), t2.bbbb, (4, 2, 5, 3), (0, 4, 1, 5))
    .set 112 (.ein [(30, [0, 1, 2, 3]), (11, [4, 2, 5, 3])] [0, 4, 1, 5]) 1 1,
    -- 4909: tmp294 = einsum(tmp119, (0, 1, 2, 3), t2.abab, (4, 2, 5, 3), (4, 0, 1, 5))
    .set 113 (.ein [(30, [0, 1, 2, 3]), (10, [4, 2, 5, 3])] [4, 0, 1, 5]) 1 1,
    -- 4910: tmp292 = einsum(t2.bbbb, (0, 1, 2, 3), tmp119, (4, 1, 5, 3), (4, 0, 5, 2))
    .set 114 (.ein [(11, [0, 1, 2, 3]), (30, [4, 1, 5, 3])] [4, 0, 5, 2]) 1 1,
    -- 4911: tmp291 = einsum(t2.abab, (0, 1, 2, 3), tmp119, (4, 1, 5, 3), (0, 4, 5, 2))
    .set 115 (.ein [(10, [0, 1, 2, 3]), (30, [4, 1, 5, 3])] [0, 4, 5, 2]) 1 1,
    -- 4912: tmp285 = einsum(tmp38, (0, 1), t2.bbbb, (2, 3, 4, 1), (2, 3, 0, 4))
    .set 116 (.ein [(32, [0, 1]), (11, [2, 3, 4, 1])] [2, 3, 0, 4]) 1 1,
    -- 4913: tmp283 = einsum(tmp38, (0, 1), t2.abab, (2, 3, 4, 1), (2, 3, 0, 4))
    .set 117 (.ein [(32, [0, 1]), (10, [2, 3, 4, 1])] [2, 3, 0, 4]) 1 1,
    -- 4914: tmp281 = einsum(tmp36, (0, 1), t2.bbbb, (2, 3, 4, 1), (2, 3, 0, 4))
    .set 118 (.ein [(34, [0, 1]), (11, [2, 3, 4, 1])] [2, 3, 0, 4]) 1 1,
    -- 4915: tmp279 = einsum(t2.abab, (0, 1, 2, 3), tmp36, (4, 3), (0, 1, 4, 2))
    .set 119 (.ein [(10, [0, 1, 2, 3]), (34, [4, 3])] [0, 1, 4, 2]) 1 1,
    -- 4916: tmp277 = einsum(tmp89, (0, 1), t2.bbbb, (2, 3, 4, 1), (2, 3, 0, 4))
    .set 120 (.ein [(35, [0, 1]), (11, [2, 3, 4, 1])] [2, 3, 0, 4]) 1 1,
    -- 4917: tmp275 = einsum(tmp89, (0, 1), t2.abab, (2, 3, 4, 1), (2, 3, 0, 4))
    .set 121 (.ein [(35, [0, 1]), (10, [2, 3, 4, 1])] [2, 3, 0, 4]) 1 1,
    -- 4918: tmp264 = einsum(t2.abab, (0, 1, 2, 3), v.aabb.vvov, (4, 2, 5, 3), (0, 1, 5, 4))
    .set 122 (.ein [(10, [0, 1, 2, 3]), (5, [4, 2, 5, 3])] [0, 1, 5, 4]) 1 1,
    -- 4919: tmp262 = einsum(v.bbbb.ovvv, (0, 1, 2, 3), t2.bbbb, (4, 5, 3, 1), (4, 5, 0, 2)) * -1
    .set 123 (.ein [(6, [0, 1, 2, 3]), (11, [4, 5, 3, 1])] [4, 5, 0, 2]) (-1) 1,
    -- 4920: tmp256 = einsum(v.aabb.ovoo, (0, 1, 2, 3), t2.abab, (0, 4, 1, 5), (4, 2, 3, 5))
    .set 124 (.ein [(7, [0, 1, 2, 3]), (10, [0, 4, 1, 5])] [4, 2, 3, 5]) 1 1,
    -- 4921: tmp254 = einsum(t2.aaaa, (0, 1, 2, 3), v.aabb.ovoo, (1, 3, 4, 5), (0, 4, 5, 2))
    .set 125 (.ein [(15, [0, 1, 2, 3]), (7, [1, 3, 4, 5])] [0, 4, 5, 2]) 1 1,
    -- 4922: tmp253 = einsum(t2.abab, (0, 1, 2, 3), v.aabb.ooov, (4, 0, 5, 3), (4, 1, 5, 2))
    .set 126 (.ein [(10, [0, 1, 2, 3]), (8, [4, 0, 5, 3])] [4, 1, 5, 2]) 1 1,
    -- 4923: tmp251 = einsum(v.bbbb.ooov, (0, 1, 2, 3), t2.bbbb, (4, 2, 5, 3), (4, 0, 1, 5))
    .set 127 (.ein [(9, [0, 1, 2, 3]), (11, [4, 2, 5, 3])] [4, 0, 1, 5]) 1 1,
    -- 4924: tmp250 = einsum(t2.abab, (0, 1, 2, 3), v.bbbb.ooov, (4, 5, 1, 3), (0, 4, 5, 2))
    .set 128 (.ein [(10, [0, 1, 2, 3]), (9, [4, 5, 1, 3])] [0, 4, 5, 2]) 1 1,
    -- 4925: tmp248 = einsum(t2.bbbb, (0, 1, 2, 3), v.bbbb.ooov, (4, 1, 5, 3), (0, 4, 5, 2))
    .set 129 (.ein [(11, [0, 1, 2, 3]), (9, [4, 1, 5, 3])] [0, 4, 5, 2]) 1 1,
    -- 4926: tmp247 = einsum(t2.abab, (0, 1, 2, 3), v.bbbb.ooov, (4, 1, 5, 3), (0, 4, 5, 2))
    .set 130 (.ein [(10, [0, 1, 2, 3]), (9, [4, 1, 5, 3])] [0, 4, 5, 2]) 1 1,
    -- 4927: tmp240 = einsum(t1.aa, (0, 1), v.aabb.vvoo, (2, 1, 3, 4), (0, 3, 4, 2))
    .set 131 (.ein [(0, [0, 1]), (18, [2, 1, 3, 4])] [0, 3, 4, 2]) 1 1,
    -- 4928: tmp238 = einsum(t1.bb, (0, 1), v.bbbb.oovv, (2, 3, 4, 1), (0, 2, 3, 4))
    .set 132 (.ein [(3, [0, 1]), (19, [2, 3, 4, 1])] [0, 2, 3, 4]) 1 1,
    -- 4929: tmp232 = einsum(t1.aa, (0, 1), v.aabb.oooo, (2, 0, 3, 4), (2, 3, 4, 1))
    .set 133 (.ein [(0, [0, 1]), (20, [2, 0, 3, 4])] [2, 3, 4, 1]) 1 1,
    -- 4930: tmp230 = einsum(t1.bb, (0, 1), v.bbbb.oooo, (2, 3, 4, 0), (2, 3, 4, 1))
    .set 134 (.ein [(3, [0, 1]), (21, [2, 3, 4, 0])] [2, 3, 4, 1]) 1 1,
    -- 4931: tmp225 = einsum(f.bb.ov, (0, 1), t2.bbbb, (2, 3, 4, 1), (0, 2, 3, 4))
    .set 135 (.ein [(16, [0, 1]), (11, [2, 3, 4, 1])] [0, 2, 3, 4]) 1 1,
    -- 4932: tmp223 = einsum(f.bb.ov, (0, 1), t2.abab, (2, 3, 4, 1), (2, 0, 3, 4))
    .set 136 (.ein [(16, [0, 1]), (10, [2, 3, 4, 1])] [2, 0, 3, 4]) 1 1,
    -- 4933: tmp215 = einsum(t1.bb, (0, 1), tmp214, (2, 3, 4, 0), (2, 3, 4, 1))
    .set 137 (.ein [(3, [0, 1]), (38, [2, 3, 4, 0])] [2, 3, 4, 1]) 1 1,
    -- 4934: tmp212 = einsum(t1.aa, (0, 1), tmp211, (2, 3, 4, 0), (2, 3, 4, 1))
    .set 138 (.ein [(0, [0, 1]), (48, [2, 3, 4, 0])] [2, 3, 4, 1]) 1 1,
    -- 4935: tmp210 = einsum(t1.bb, (0, 1), tmp209, (2, 0), (2, 1))
    .set 139 (.ein [(3, [0, 1]), (49, [2, 0])] [2, 1]) 1 1,
    -- 4936: tmp207 = einsum(t1.aa, (0, 1), tmp156, (2, 0), (2, 1))
    .set 140 (.ein [(0, [0, 1]), (50, [2, 0])] [2, 1]) 1 1,
    -- 4937: tmp206 = einsum(t1.bb, (0, 1), tmp205, (2, 0), (2, 1))
    .set 141 (.ein [(3, [0, 1]), (51, [2, 0])] [2, 1]) 1 1,
    -- 4938: tmp204 = einsum(t1.bb, (0, 1), tmp203, (2, 0), (2, 1))
    .set 142 (.ein [(3, [0, 1]), (52, [2, 0])] [2, 1]) 1 1,
    -- 4939: tmp201 = einsum(t1.aa, (0, 1), tmp155, (2, 0), (2, 1))
    .set 143 (.ein [(0, [0, 1]), (53, [2, 0])] [2, 1]) 1 1,
    -- 4940: tmp199 = einsum(t1.aa, (0, 1), tmp154, (2, 0), (2, 1))
    .set 144 (.ein [(0, [0, 1]), (54, [2, 0])] [2, 1]) 1 1,
    -- 4941: tmp197 = einsum(tmp196, (0, 1, 2, 3), t1.bb, (4, 3), (0, 1, 4, 2))
    .set 145 (.ein [(55, [0, 1, 2, 3]), (3, [4, 3])] [0, 1, 4, 2]) 1 1,
    -- 4942: tmp194 = einsum(t1.aa, (0, 1), tmp193, (2, 3, 1, 4), (0, 2, 3, 4))
    .set 146 (.ein [(0, [0, 1]), (56, [2, 3, 1, 4])] [0, 2, 3, 4]) 1 1,
    -- 4943: tmp191 = einsum(t1.aa, (0, 1), tmp190, (2, 1), (0, 2))
    .set 147 (.ein [(0, [0, 1]), (57, [2, 1])] [0, 2]) 1 1,
    -- 4944: tmp189 = einsum(tmp188, (0, 1), t1.bb, (2, 1), (2, 0))
    .set 148 (.ein [(58, [0, 1]), (3, [2, 1])] [2, 0]) 1 1,
    -- 4945: tmp187 = einsum(tmp186, (0, 1), t1.bb, (2, 0), (2, 1))
    .set 149 (.ein [(59, [0, 1]), (3, [2, 0])] [2, 1]) 1 1,
    -- 4946: tmp185 = einsum(tmp184, (0, 1), t1.bb, (2, 1), (2, 0))
    .set 150 (.ein [(60, [0, 1]), (3, [2, 1])] [2, 0]) 1 1,
    -- 4947: tmp182 = einsum(tmp181, (0, 1), t1.aa, (2, 0), (2, 1))
    .set 151 (.ein [(61, [0, 1]), (0, [2, 0])] [2, 1]) 1 1,
    -- 4948: tmp179 = einsum(t1.aa, (0, 1), tmp178, (2, 1), (0, 2))
    .set 152 (.ein [(0, [0, 1]), (62, [2, 1])] [0, 2]) 1 1,
    -- 4949: tmp177 = einsum(t1.bb, (0, 1), tmp176, (2, 3, 4, 0), (2, 3, 4, 1))
    .set 153 (.ein [(3, [0, 1]), (43, [2, 3, 4, 0])] [2, 3, 4, 1]) 1 1,
    -- 4950: tmp175 = einsum(t1.bb, (0, 1), tmp174, (2, 3, 4, 0), (2, 3, 4, 1))
    .set 154 (.ein [(3, [0, 1]), (42, [2, 3, 4, 0])] [2, 3, 4, 1]) 1 1,
    -- 4951: tmp172 = einsum(t1.aa, (0, 1), tmp169, (2, 3, 4, 0), (2, 3, 4, 1))
    .set 155 (.ein [(0, [0, 1]), (63, [2, 3, 4, 0])] [2, 3, 4, 1]) 1 1,
    -- 4952: tmp170 = einsum(tmp169, (0, 1, 2, 3), t1.aa, (2, 4), (0, 1, 3, 4))
    .set 156 (.ein [(63, [0, 1, 2, 3]), (0, [2, 4])] [0, 1, 3, 4]) 1 1,
    -- 4953: tmp168 = einsum(t1.bb, (0, 1), tmp167, (2, 0), (2, 1))
    .set 157 (.ein [(3, [0, 1]), (64, [2, 0])] [2, 1]) 1 1,
    -- 4954: tmp165 = einsum(t1.aa, (0, 1), tmp27, (2, 0), (2, 1))
    .set 158 (.ein [(0, [0, 1]), (65, [2, 0])] [2, 1]) 1 1,
    -- 4955: tmp164 = einsum(t1.bb, (0, 1), tmp163, (2, 0), (2, 1))
    .set 159 (.ein [(3, [0, 1]), (66, [2, 0])] [2, 1]) 1 1,
    -- 4956: tmp162 = einsum(t1.bb, (0, 1), tmp161, (2, 0), (2, 1))
    .set 160 (.ein [(3, [0, 1]), (67, [2, 0])] [2, 1]) 1 1,
    -- 4957: tmp159 = einsum(t1.aa, (0, 1), tmp26, (2, 0), (2, 1))
    .set 161 (.ein [(0, [0, 1]), (68, [2, 0])] [2, 1]) 1 1,
    -- 4958: tmp157 = einsum(tmp25, (0, 1), t1.aa, (1, 2), (0, 2))
    .set 162 (.ein [(69, [0, 1]), (0, [1, 2])] [0, 2]) 1 1,
    -- 4959: tmp152 = einsum(t1.bb, (0, 1), tmp151, (2, 3, 4, 0), (2, 3, 4, 1))
    .set 163 (.ein [(3, [0, 1]), (45, [2, 3, 4, 0])] [2, 3, 4, 1]) 1 1,
    -- 4960: tmp149 = einsum(t1.aa, (0, 1), tmp148, (2, 3, 4, 0), (2, 3, 4, 1))
    .set 164 (.ein [(0, [0, 1]), (70, [2, 3, 4, 0])] [2, 3, 4, 1]) 1 1,
    -- 4961: tmp146 = einsum(t1.aa, (0, 1), tmp49, (2, 0), (2, 1))
    .set 165 (.ein [(0, [0, 1]), (71, [2, 0])] [2, 1]) 1 1,
    -- 4962: tmp144 = einsum(t1.bb, (0, 1), tmp143, (2, 0), (2, 1))
    .set 166 (.ein [(3, [0, 1]), (72, [2, 0])] [2, 1]) 1 1,
    -- 4963: tmp141 = einsum(t1.bb, (0, 1), tmp140, (2, 0), (2, 1))
    .set 167 (.ein [(3, [0, 1]), (73, [2, 0])] [2, 1]) 1 1,
    -- 4964: tmp138 = einsum(t1.aa, (0, 1), tmp47, (2, 0), (2, 1))
    .set 168 (.ein [(0, [0, 1]), (74, [2, 0])] [2, 1]) 1 1,
    -- 4965: tmp137 = einsum(tmp124, (0, 1, 2, 3), t2.abab, (4, 2, 3, 5), (4, 0, 1, 5))
    .set 169 (.ein [(47, [0, 1, 2, 3]), (10, [4, 2, 3, 5])] [4, 0, 1, 5]) 1 1,
    -- 4966: tmp135 = einsum(tmp45, (0, 1, 2, 3), t2.bbbb, (4, 2, 5, 3), (0, 1, 4, 5))
    .set 170 (.ein [(29, [0, 1, 2, 3]), (11, [4, 2, 5, 3])] [0, 1, 4, 5]) 1 1,
    -- 4967: tmp133 = einsum(tmp45, (0, 1, 2, 3), t2.abab, (4, 2, 5, 3), (0, 4, 1, 5))
    .set 171 (.ein [(29, [0, 1, 2, 3]), (10, [4, 2, 5, 3])] [0, 4, 1, 5]) 1 1,
    -- 4968: tmp132 = einsum(tmp41, (0, 1, 2, 3), t2.abab, (2, 4, 3, 5), (0, 1, 4, 5))
    .set 172 (.ein [(31, [0, 1, 2, 3]), (10, [2, 4, 3, 5])] [0, 1, 4, 5]) 1 1,
    -- 4969: tmp130 = einsum(t2.aaaa, (0, 1, 2, 3), tmp41, (4, 5, 1, 3), (4, 0, 5, 2))
    .set 173 (.ein [(15, [0, 1, 2, 3]), (31, [4, 5, 1, 3])] [4, 0, 5, 2]) 1 1,
    -- 4970: tmp129 = einsum(t2.abab, (0, 1, 2, 3), tmp41, (4, 0, 5, 2), (4, 5, 1, 3))
    .set 174 (.ein [(10, [0, 1, 2, 3]), (31, [4, 0, 5, 2])] [4, 5, 1, 3]) 1 1,
    -- 4971: tmp127 = einsum(t2.aaaa, (0, 1, 2, 3), tmp41, (4, 1, 5, 3), (4, 0, 5, 2))
    .set 175 (.ein [(15, [0, 1, 2, 3]), (31, [4, 1, 5, 3])] [4, 0, 5, 2]) 1 1,
    -- 4972: tmp125 = einsum(tmp124, (0, 1, 2, 3), t2.abab, (0, 2, 3, 4), (1, 4))
    .set 176 (.ein [(47, [0, 1, 2, 3]), (10, [0, 2, 3, 4])] [1, 4]) 1 1,
    -- 4973: tmp122 = einsum(t2.abab, (0, 1, 2, 3), tmp45, (4, 0, 1, 3), (4, 2))
    .set 177 (.ein [(10, [0, 1, 2, 3]), (29, [4, 0, 1, 3])] [4, 2]) 1 1,
    -- 4974: tmp120 = einsum(tmp119, (0, 1, 2, 3), t2.bbbb, (2, 1, 4, 3), (0, 4))
    .set 178 (.ein [(30, [0, 1, 2, 3]), (11, [2, 1, 4, 3])] [0, 4]) 1 1,
    -- 4975: tmp117 = einsum(tmp41, (0, 1, 2, 3), t2.aaaa, (1, 2, 4, 3), (0, 4)) * -1
    .set 179 (.ein [(31, [0, 1, 2, 3]), (15, [1, 2, 4, 3])] [0, 4]) (-1) 1,
    -- 4976: tmp115 = einsum(tmp39, (0, 1), t2.abab, (2, 3, 1, 4), (2, 0, 3, 4))
    .set 180 (.ein [(33, [0, 1]), (10, [2, 3, 1, 4])] [2, 0, 3, 4]) 1 1,
    -- 4977: tmp113 = einsum(tmp39, (0, 1), t2.aaaa, (2, 3, 4, 1), (2, 3, 0, 4))
    .set 181 (.ein [(33, [0, 1]), (15, [2, 3, 4, 1])] [2, 3, 0, 4]) 1 1,
    -- 4978: tmp111 = einsum(tmp32, (0, 1), t2.abab, (2, 3, 1, 4), (2, 0, 3, 4))
    .set 182 (.ein [(36, [0, 1]), (10, [2, 3, 1, 4])] [2, 0, 3, 4]) 1 1,
    -- 4979: tmp109 = einsum(tmp32, (0, 1), t2.aaaa, (2, 3, 4, 1), (2, 3, 0, 4))
    .set 183 (.ein [(36, [0, 1]), (15, [2, 3, 4, 1])] [2, 3, 0, 4]) 1 1,
    -- 4980: tmp107 = einsum(tmp82, (0, 1), t2.abab, (2, 3, 1, 4), (2, 0, 3, 4))
    .set 184 (.ein [(37, [0, 1]), (10, [2, 3, 1, 4])] [2, 0, 3, 4]) 1 1,
    -- 4981: tmp105 = einsum(tmp82, (0, 1), t2.aaaa, (2, 3, 4, 1), (2, 3, 0, 4))
    .set 185 (.ein [(37, [0, 1]), (15, [2, 3, 4, 1])] [2, 3, 0, 4]) 1 1,
    -- 4982: tmp103 = einsum(tmp38, (0, 1), t2.bbbb, (2, 0, 3, 1), (2, 3))
    .set 186 (.ein [(32, [0, 1]), (11, [2, 0, 3, 1])] [2, 3]) 1 1,
    -- 4983: tmp101 = einsum(tmp38, (0, 1), t2.abab, (2, 0, 3, 1), (2, 3))
    .set 187 (.ein [(32, [0, 1]), (10, [2, 0, 3, 1])] [2, 3]) 1 1,
    -- 4984: tmp100 = einsum(t2.abab, (0, 1, 2, 3), tmp39, (0, 2), (1, 3))
    .set 188 (.ein [(10, [0, 1, 2, 3]), (33, [0, 2])] [1, 3]) 1 1,
    -- 4985: tmp98 = einsum(t2.aaaa, (0, 1, 2, 3), tmp39, (1, 3), (0, 2))
    .set 189 (.ein [(15, [0, 1, 2, 3]), (33, [1, 3])] [0, 2]) 1 1,
    -- 4986: tmp96 = einsum(tmp36, (0, 1), t2.bbbb, (2, 0, 3, 1), (2, 3))
    .set 190 (.ein [(34, [0, 1]), (11, [2, 0, 3, 1])] [2, 3]) 1 1,
    -- 4987: tmp94 = einsum(tmp36, (0, 1), t2.abab, (2, 0, 3, 1), (2, 3))
    .set 191 (.ein [(34, [0, 1]), (10, [2, 0, 3, 1])] [2, 3]) 1 1,
    -- 4988: tmp92 = einsum(tmp89, (0, 1), t2.bbbb, (2, 0, 3, 1), (2, 3))
    .set 192 (.ein [(35, [0, 1]), (11, [2, 0, 3, 1])] [2, 3]) 1 1,
    -- 4989: tmp90 = einsum(t2.abab, (0, 1, 2, 3), tmp89, (1, 3), (0, 2))
    .set 193 (.ein [(10, [0, 1, 2, 3]), (35, [1, 3])] [0, 2]) 1 1,
    -- 4990: tmp88 = einsum(tmp32, (0, 1), t2.abab, (0, 2, 1, 3), (2, 3))
    .set 194 (.ein [(36, [0, 1]), (10, [0, 2, 1, 3])] [2, 3]) 1 1,
    -- 4991: tmp86 = einsum(tmp32, (0, 1), t2.aaaa, (2, 0, 3, 1), (2, 3))
    .set 195 (.ein [(36, [0, 1]), (15, [2, 0, 3, 1])] [2, 3]) 1 1,
    -- 4992: tmp85 = einsum(tmp82, (0, 1), t2.abab, (0, 2, 1, 3), (2, 3))
    .set 196 (.ein [(37, [0, 1]), (10, [0, 2, 1, 3])] [2, 3]) 1 1,
    -- 4993: tmp83 = einsum(t2.aaaa, (0, 1, 2, 3), tmp82, (1, 3), (0, 2))
    .set 197 (.ein [(15, [0, 1, 2, 3]), (37, [1, 3])] [0, 2]) 1 1,
    -- 4994: tmp80 = einsum(v.aabb.ovvv, (0, 1, 2, 3), t2.abab, (4, 5, 1, 3), (4, 0, 5, 2))
    .set 198 (.ein [(12, [0, 1, 2, 3]), (10, [4, 5, 1, 3])] [4, 0, 5, 2]) 1 1,
    -- 4995: tmp78 = einsum(v.aaaa.ovvv, (0, 1, 2, 3), t2.aaaa, (4, 5, 1, 3), (4, 5, 0, 2))
    .set 199 (.ein [(13, [0, 1, 2, 3]), (15, [4, 5, 1, 3])] [4, 5, 0, 2]) 1 1,
    -- 4996: tmp76 = einsum(t2.abab, (0, 1, 2, 3), v.aabb.vvov, (4, 2, 1, 3), (0, 4))
    .set 200 (.ein [(10, [0, 1, 2, 3]), (5, [4, 2, 1, 3])] [0, 4]) 1 1,
    -- 4997: tmp74 = einsum(v.aabb.ovvv, (0, 1, 2, 3), t2.abab, (0, 4, 1, 3), (4, 2))
    .set 201 (.ein [(12, [0, 1, 2, 3]), (10, [0, 4, 1, 3])] [4, 2]) 1 1,
    -- 4998: tmp72 = einsum(v.bbbb.ovvv, (0, 1, 2, 3), t2.bbbb, (4, 0, 3, 1), (4, 2)) * -1
    .set 202 (.ein [(6, [0, 1, 2, 3]), (11, [4, 0, 3, 1])] [4, 2]) (-1) 1,
    -- 4999: tmp70 = einsum(v.aaaa.ovvv, (0, 1, 2, 3), t2.aaaa, (4, 0, 1, 3), (4, 2))
    .set 203 (.ein [(13, [0, 1, 2, 3]), (15, [4, 0, 1, 3])] [4, 2]) 1 1,
    -- 5000: tmp68 = einsum(v.aabb.ooov, (0, 1, 2, 3), t2.bbbb, (4, 2, 5, 3), (0, 1, 4, 5))
    .set 204 (.ein [(8, [0, 1, 2, 3]), (11, [4, 2, 5, 3])] [0, 1, 4, 5]) 1 1,
    -- 5001: tmp66 = einsum(v.aabb.ooov, (0, 1, 2, 3), t2.abab, (4, 2, 5, 3), (4, 0, 1, 5))
    .set 205 (.ein [(8, [0, 1, 2, 3]), (10, [4, 2, 5, 3])] [4, 0, 1, 5]) 1 1,
    -- 5002: tmp65 = einsum(v.aabb.ovoo, (0, 1, 2, 3), t2.abab, (4, 3, 1, 5), (4, 0, 2, 5))
    .set 206 (.ein [(7, [0, 1, 2, 3]), (10, [4, 3, 1, 5])] [4, 0, 2, 5]) 1 1,
    -- 5003: tmp64 = einsum(v.aaaa.ooov, (0, 1, 2, 3), t2.abab, (2, 4, 3, 5), (0, 1, 4, 5))
    .set 207 (.ein [(14, [0, 1, 2, 3]), (10, [2, 4, 3, 5])] [0, 1, 4, 5]) 1 1,
    -- 5004: tmp62 = einsum(t2.aaaa, (0, 1, 2, 3), v.aaaa.ooov, (4, 5, 1, 3), (0, 4, 5, 2))
    .set 208 (.ein [(15, [0, 1, 2, 3]), (14, [4, 5, 1, 3])] [0, 4, 5, 2]) 1 1,
    -- 5005: tmp61 = einsum(v.aaaa.ooov, (0, 1, 2, 3), t2.abab, (1, 4, 3, 5), (0, 2, 4, 5))
    .set 209 (.ein [(14, [0, 1, 2, 3]), (10, [1, 4, 3, 5])] [0, 2, 4, 5]) 1 1,
    -- 5006: tmp59 = einsum(t2.aaaa, (0, 1, 2, 3), v.aaaa.ooov, (4, 1, 5, 3), (0, 4, 5, 2))
    .set 210 (.ein [(15, [0, 1, 2, 3]), (14, [4, 1, 5, 3])] [0, 4, 5, 2]) 1 1,
    -- 5007: tmp57 = einsum(v.aabb.ooov, (0, 1, 2, 3), t2.abab, (1, 2, 4, 3), (0, 4))
    .set 211 (.ein [(8, [0, 1, 2, 3]), (10, [1, 2, 4, 3])] [0, 4]) 1 1,
    -- 5008: tmp55 = einsum(v.aabb.ovoo, (0, 1, 2, 3), t2.abab, (0, 3, 1, 4), (2, 4))
    .set 212 (.ein [(7, [0, 1, 2, 3]), (10, [0, 3, 1, 4])] [2, 4]) 1 1,
    -- 5009: tmp53 = einsum(v.bbbb.ooov, (0, 1, 2, 3), t2.bbbb, (1, 2, 4, 3), (0, 4))
    .set 213 (.ein [(9, [0, 1, 2, 3]), (11, [1, 2, 4, 3])] [0, 4]) 1 1,
    -- 5010: tmp51 = einsum(v.aaaa.ooov, (0, 1, 2, 3), t2.aaaa, (2, 1, 4, 3), (0, 4)) * -1
    .set 214 (.ein [(14, [0, 1, 2, 3]), (15, [2, 1, 4, 3])] [0, 4]) (-1) 1,
    -- 5011: tmp46 = einsum(v.aabb.oovv, (0, 1, 2, 3), t1.bb, (4, 3), (0, 1, 4, 2))
    .set 215 (.ein [(22, [0, 1, 2, 3]), (3, [4, 3])] [0, 1, 4, 2]) 1 1,
    -- 5012: tmp43 = einsum(t1.aa, (0, 1), v.aaaa.oovv, (2, 3, 4, 1), (0, 2, 3, 4))
    .set 216 (.ein [(0, [0, 1]), (23, [2, 3, 4, 1])] [0, 2, 3, 4]) 1 1,
    -- 5013: tmp37 = einsum(v.bbbb.oovv, (0, 1, 2, 3), t1.bb, (1, 3), (0, 2))
    .set 217 (.ein [(19, [0, 1, 2, 3]), (3, [1, 3])] [0, 2]) 1 1,
    -- 5014: tmp34 = einsum(t1.aa, (0, 1), v.aaaa.oovv, (2, 0, 3, 1), (2, 3))
    .set 218 (.ein [(0, [0, 1]), (23, [2, 0, 3, 1])] [2, 3]) 1 1,
    -- 5015: tmp30 = einsum(t1.bb, (0, 1), v.aabb.oooo, (2, 3, 4, 0), (2, 3, 4, 1))
    .set 219 (.ein [(3, [0, 1]), (20, [2, 3, 4, 0])] [2, 3, 4, 1]) 1 1,
    -- 5016: tmp28 = einsum(t1.aa, (0, 1), v.aaaa.oooo, (2, 3, 4, 0), (2, 3, 4, 1))
    .set 220 (.ein [(0, [0, 1]), (24, [2, 3, 4, 0])] [2, 3, 4, 1]) 1 1,
    -- 5017: tmp22 = einsum(t1.bb, (0, 1), tmp21, (0, 2), (2, 1))
    .set 221 (.ein [(3, [0, 1]), (75, [0, 2])] [2, 1]) 1 1,
    -- 5018: tmp19 = einsum(t1.aa, (0, 1), tmp1, (0, 2), (2, 1))
    .set 222 (.ein [(0, [0, 1]), (76, [0, 2])] [2, 1]) 1 1,
    -- 5019: tmp17 = einsum(t2.abab, (0, 1, 2, 3), f.aa.ov, (4, 2), (4, 0, 1, 3))
    .set 223 (.ein [(10, [0, 1, 2, 3]), (17, [4, 2])] [4, 0, 1, 3]) 1 1,
    -- 5020: tmp15 = einsum(f.aa.ov, (0, 1), t2.aaaa, (2, 3, 4, 1), (0, 2, 3, 4))
    .set 224 (.ein [(17, [0, 1]), (15, [2, 3, 4, 1])] [0, 2, 3, 4]) 1 1,
    -- 5021: tmp13 = einsum(f.bb.ov, (0, 1), t2.bbbb, (2, 0, 3, 1), (2, 3))
    .set 225 (.ein [(16, [0, 1]), (11, [2, 0, 3, 1])] [2, 3]) 1 1,
    -- 5022: tmp11 = einsum(f.bb.ov, (0, 1), t2.abab, (2, 0, 3, 1), (2, 3))
    .set 226 (.ein [(16, [0, 1]), (10, [2, 0, 3, 1])] [2, 3]) 1 1,
    -- 5023: tmp10 = einsum(f.aa.ov, (0, 1), t2.abab, (0, 2, 1, 3), (2, 3))
    .set 227 (.ein [(17, [0, 1]), (10, [0, 2, 1, 3])] [2, 3]) 1 1,
    -- 5024: tmp8 = einsum(f.aa.ov, (0, 1), t2.aaaa, (2, 0, 3, 1), (2, 3))
    .set 228 (.ein [(17, [0, 1]), (15, [2, 0, 3, 1])] [2, 3]) 1 1,
    -- 5025: tmp7 = einsum(f.bb.vv, (0, 1), t1.bb, (2, 1), (2, 0))
    .set 229 (.ein [(25, [0, 1]), (3, [2, 1])] [2, 0]) 1 1,
    -- 5026: tmp5 = einsum(t1.aa, (0, 1), f.aa.vv, (2, 1), (0, 2))
    .set 230 (.ein [(0, [0, 1]), (26, [2, 1])] [0, 2]) 1 1,
    -- 5027: tmp4 = einsum(t1.bb, (0, 1), f.bb.oo, (2, 0), (2, 1))
    .set 231 (.ein [(3, [0, 1]), (27, [2, 0])] [2, 1]) 1 1,
    -- 5028: tmp2 = einsum(f.aa.oo, (0, 1), t1.aa, (1, 2), (0, 2))
    .set 232 (.ein [(28, [0, 1]), (0, [1, 2])] [0, 2]) 1 1
  ]
  ret := [(chars! "tmp1", 76), (chars! "tmp10", 227), (chars! "tmp100", 188), (chars! "tmp101", 187), (chars! "tmp103", 186), (chars! "tmp105", 185), (chars! "tmp107", 184), (chars! "tmp109", 183), (chars! "tmp11", 226), (chars! "tmp111", 182), (chars! "tmp113", 181), (chars! "tmp115", 180), (chars! "tmp117", 179), (chars! "tmp119", 30), (chars! "tmp120", 178), (chars! "tmp122", 177), (chars! "tmp124", 47), (chars! "tmp125", 176), (chars! "tmp127", 175), (chars! "tmp129", 174), (chars! "tmp13", 225), (chars! "tmp130", 173), (chars! "tmp132", 172), (chars! "tmp133", 171), (chars! "tmp135", 170), (chars! "tmp137", 169), (chars! "tmp138", 168), (chars! "tmp140", 73), (chars! "tmp141", 167), (chars! "tmp143", 72), (chars! "tmp144", 166), (chars! "tmp146", 165), (chars! "tmp148", 70), (chars! "tmp149", 164), (chars! "tmp15", 224), (chars! "tmp151", 45), (chars! "tmp152", 163), (chars! "tmp154", 54), (chars! "tmp155", 53), (chars! "tmp156", 50), (chars! "tmp157", 162), (chars! "tmp159", 161), (chars! "tmp161", 67), (chars! "tmp162", 160), (chars! "tmp163", 66), (chars! "tmp164", 159), (chars! "tmp165", 158), (chars! "tmp167", 64), (chars! "tmp168", 157), (chars! "tmp169", 63), (chars! "tmp17", 223), (chars! "tmp170", 156), (chars! "tmp172", 155), (chars! "tmp174", 42), (chars! "tmp175", 154), (chars! "tmp176", 43), (chars! "tmp177", 153), (chars! "tmp178", 62), (chars! "tmp179", 152), (chars! "tmp181", 61), (chars! "tmp182", 151), (chars! "tmp184", 60), (chars! "tmp185", 150), (chars! "tmp186", 59), (chars! "tmp187", 149), (chars! "tmp188", 58), (chars! "tmp189", 148), (chars! "tmp19", 222), (chars! "tmp190", 57), (chars! "tmp191", 147), (chars! "tmp193", 56), (chars! "tmp194", 146), (chars! "tmp196", 55), (chars! "tmp197", 145), (chars! "tmp199", 144), (chars! "tmp2", 232), (chars! "tmp201", 143), (chars! "tmp203", 52), (chars! "tmp204", 142), (chars! "tmp205", 51), (chars! "tmp206", 141), (chars! "tmp207", 140), (chars! "tmp209", 49), (chars! "tmp21", 75), (chars! "tmp210", 139), (chars! "tmp211", 48), (chars! "tmp212", 138), (chars! "tmp214", 38), (chars! "tmp215", 137), (chars! "tmp22", 221), (chars! "tmp223", 136), (chars! "tmp225", 135), (chars! "tmp230", 134), (chars! "tmp232", 133), (chars! "tmp238", 132), (chars! "tmp240", 131), (chars! "tmp247", 130), (chars! "tmp248", 129), (chars! "tmp25", 69), (chars! "tmp250", 128), (chars! "tmp251", 127), (chars! "tmp253", 126), (chars! "tmp254", 125), (chars! "tmp256", 124), (chars! "tmp26", 68), (chars! "tmp262", 123), (chars! "tmp264", 122), (chars! "tmp27", 65), (chars! "tmp275", 121), (chars! "tmp277", 120), (chars! "tmp279", 119), (chars! "tmp28", 220), (chars! "tmp281", 118), (chars! "tmp283", 117), (chars! "tmp285", 116), (chars! "tmp291", 115), (chars! "tmp292", 114), (chars! "tmp294", 113), (chars! "tmp295", 112), (chars! "tmp297", 111), (chars! "tmp299", 110), (chars! "tmp30", 219), (chars! "tmp301", 109), (chars! "tmp306", 46), (chars! "tmp307", 108), (chars! "tmp309", 107), (chars! "tmp314", 44), (chars! "tmp315", 106), (chars! "tmp317", 105), (chars! "tmp319", 104), (chars! "tmp32", 36), (chars! "tmp320", 103), (chars! "tmp324", 41), (chars! "tmp325", 102), (chars! "tmp327", 40), (chars! "tmp328", 101), (chars! "tmp333", 39), (chars! "tmp334", 100), (chars! "tmp336", 99), (chars! "tmp34", 218), (chars! "tmp346", 98), (chars! "tmp349", 97), (chars! "tmp351", 96), (chars! "tmp353", 95), (chars! "tmp355", 94), (chars! "tmp357", 93), (chars! "tmp359", 92), (chars! "tmp36", 34), (chars! "tmp361", 91), (chars! "tmp37", 217), (chars! "tmp38", 32), (chars! "tmp39", 33), (chars! "tmp391", 90), (chars! "tmp393", 89), (chars! "tmp4", 231), (chars! "tmp41", 31), (chars! "tmp422", 88), (chars! "tmp425", 87), (chars! "tmp426", 86), (chars! "tmp428", 85), (chars! "tmp43", 216), (chars! "tmp430", 84), (chars! "tmp432", 83), (chars! "tmp434", 82), (chars! "tmp436", 81), (chars! "tmp438", 80), (chars! "tmp449", 79), (chars! "tmp45", 29), (chars! "tmp451", 78), (chars! "tmp453", 77), (chars! "tmp46", 215), (chars! "tmp47", 74), (chars! "tmp49", 71), (chars! "tmp5", 230), (chars! "tmp51", 214), (chars! "tmp53", 213), (chars! "tmp55", 212), (chars! "tmp57", 211), (chars! "tmp59", 210), (chars! "tmp61", 209), (chars! "tmp62", 208), (chars! "tmp64", 207), (chars! "tmp65", 206), (chars! "tmp66", 205), (chars! "tmp68", 204), (chars! "tmp7", 229), (chars! "tmp70", 203), (chars! "tmp72", 202), (chars! "tmp74", 201), (chars! "tmp76", 200), (chars! "tmp78", 199), (chars! "tmp8", 228), (chars! "tmp80", 198), (chars! "tmp82", 37), (chars! "tmp83", 197), (chars! "tmp85", 196), (chars! "tmp86", 195), (chars! "tmp88", 194), (chars! "tmp89", 35), (chars! "tmp90", 193), (chars! "tmp92", 192), (chars! "tmp94", 191), (chars! "tmp96", 190), (chars! "tmp98", 189)]

/-- codegen/UCCSD.py:5032-5606 `hbar_lmatvec_ip`. -/
def hbar_lmatvec_ip : GenFun where
  args := [chars! "t2.bbbb", chars! "r2.bbb", chars! "r2.aba", chars! "t2.abab", chars! "f.bb.oo", chars! "ints.tmp163", chars! "ints.tmp167", chars! "ints.tmp205", chars! "ints.tmp209", chars! "ints.tmp21", chars! "ints.tmp425", chars! "ints.tmp430", chars! "ints.tmp426", chars! "ints.tmp432", chars! "ints.tmp436", chars! "f.bb.ov", chars! "ints.tmp36", chars! "ints.tmp38", chars! "ints.tmp89", chars! "ints.tmp119", chars! "t1.bb", chars! "v.bbbb.ooov", chars! "t1.aa", chars! "ints.tmp140", chars! "ints.tmp143", chars! "ints.tmp161", chars! "ints.tmp203", chars! "ints.tmp324", chars! "ints.tmp434", chars! "ints.tmp438", chars! "f.aa.ov", chars! "ints.tmp32", chars! "ints.tmp39", chars! "ints.tmp82", chars! "ints.tmp47", chars! "ints.tmp49", chars! "ints.tmp154", chars! "ints.tmp25", chars! "r2.bab", chars! "ints.tmp193", chars! "ints.tmp355", chars! "ints.tmp359", chars! "v.aaaa.ooov", chars! "r2.aaa", chars! "ints.tmp349", chars! "ints.tmp357", chars! "ints.tmp361", chars! "t2.aaaa", chars! "ints.tmp41", chars! "ints.tmp346", chars! "ints.tmp351", chars! "f.aa.oo", chars! "ints.tmp155", chars! "ints.tmp156", chars! "ints.tmp1", chars! "ints.tmp26", chars! "ints.tmp27", chars! "r1.b", chars! "v.bbbb.ovov", chars! "ints.tmp428", chars! "ints.tmp314", chars! "v.aabb.ooov", chars! "v.bbbb.oovv", chars! "ints.tmp45", chars! "v.aabb.ovov", chars! "ints.tmp169", chars! "v.aaaa.oovv", chars! "ints.tmp124", chars! "v.aabb.ovoo", chars! "r1.a", chars! "v.aaaa.ovov", chars! "ints.tmp353", chars! "ints.tmp306", chars! "ints.tmp333", chars! "v.bbbb.oooo", chars! "ints.tmp186", chars! "ints.tmp449", chars! "ints.tmp451", chars! "f.bb.vv", chars! "ints.tmp184", chars! "ints.tmp188", chars! "ints.tmp151", chars! "ints.tmp174", chars! "ints.tmp176", chars! "ints.tmp214", chars! "v.aabb.oooo", chars! "ints.tmp196", chars! "v.aabb.oovv", chars! "ints.tmp453", chars! "ints.tmp181", chars! "ints.tmp391", chars! "ints.tmp393", chars! "f.aa.vv", chars! "ints.tmp178", chars! "ints.tmp190", chars! "ints.tmp327", chars! "v.aabb.vvoo", chars! "ints.tmp422", chars! "ints.tmp148", chars! "ints.tmp211", chars! "v.aaaa.oooo", chars! "ints.tmp120", chars! "ints.tmp125", chars! "ints.tmp141", chars! "ints.tmp144", chars! "ints.tmp164", chars! "ints.tmp168", chars! "ints.tmp187", chars! "ints.tmp206", chars! "ints.tmp210", chars! "ints.tmp22", chars! "ints.tmp37", chars! "ints.tmp4", chars! "ints.tmp53", chars! "ints.tmp55", chars! "ints.tmp72", chars! "ints.tmp85", chars! "ints.tmp92", chars! "ints.tmp100", chars! "ints.tmp103", chars! "ints.tmp10", chars! "ints.tmp13", chars! "ints.tmp162", chars! "ints.tmp185", chars! "ints.tmp189", chars! "ints.tmp204", chars! "ints.tmp74", chars! "ints.tmp7", chars! "ints.tmp88", chars! "ints.tmp96", chars! "ints.tmp117", chars! "ints.tmp122", chars! "ints.tmp138", chars! "ints.tmp146", chars! "ints.tmp159", chars! "ints.tmp165", chars! "ints.tmp182", chars! "ints.tmp19", chars! "ints.tmp201", chars! "ints.tmp207", chars! "ints.tmp2", chars! "ints.tmp34", chars! "ints.tmp51", chars! "ints.tmp57", chars! "ints.tmp70", chars! "ints.tmp83", chars! "ints.tmp90", chars! "ints.tmp101", chars! "ints.tmp11", chars! "ints.tmp157", chars! "ints.tmp179", chars! "ints.tmp191", chars! "ints.tmp199", chars! "ints.tmp5", chars! "ints.tmp76", chars! "ints.tmp86", chars! "ints.tmp8", chars! "ints.tmp94", chars! "ints.tmp98", chars! "ints.tmp225", chars! "ints.tmp230", chars! "ints.tmp238", chars! "ints.tmp251", chars! "ints.tmp256", chars! "ints.tmp281", chars! "ints.tmp285", chars! "ints.tmp295", chars! "ints.tmp307", chars! "ints.tmp315", chars! "ints.tmp334", chars! "ints.tmp248", chars! "ints.tmp262", chars! "ints.tmp277", chars! "ints.tmp292", chars! "ints.tmp299", chars! "ints.tmp317", chars! "ints.tmp325", chars! "ints.tmp223", chars! "ints.tmp240", chars! "ints.tmp250", chars! "ints.tmp254", chars! "ints.tmp264", chars! "ints.tmp279", chars! "ints.tmp283", chars! "ints.tmp291", chars! "ints.tmp297", chars! "ints.tmp328", chars! "ints.tmp232", chars! "ints.tmp247", chars! "ints.tmp253", chars! "ints.tmp275", chars! "ints.tmp294", chars! "ints.tmp301", chars! "ints.tmp309", chars! "ints.tmp319", chars! "ints.tmp320", chars! "ints.tmp336", chars! "ints.tmp111", chars! "ints.tmp115", chars! "ints.tmp129", chars! "ints.tmp135", chars! "ints.tmp17", chars! "ints.tmp197", chars! "ints.tmp46", chars! "ints.tmp64", chars! "ints.tmp68", chars! "ints.tmp80", chars! "ints.tmp107", chars! "ints.tmp132", chars! "ints.tmp137", chars! "ints.tmp152", chars! "ints.tmp175", chars! "ints.tmp177", chars! "ints.tmp215", chars! "ints.tmp30", chars! "ints.tmp61", chars! "ints.tmp65", chars! "ints.tmp109", chars! "ints.tmp113", chars! "ints.tmp130", chars! "ints.tmp149", chars! "ints.tmp15", chars! "ints.tmp170", chars! "ints.tmp212", chars! "ints.tmp28", chars! "ints.tmp43", chars! "ints.tmp62", chars! "ints.tmp66", chars! "ints.tmp105", chars! "ints.tmp127", chars! "ints.tmp133", chars! "ints.tmp172", chars! "ints.tmp194", chars! "ints.tmp59", chars! "ints.tmp78"]
  body := [
    -- 5062: tmp53 = einsum(t2.bbbb, (0, 1, 2, 3), r2.bbb, (0, 1, 3), (2,))
    .set 235 (.ein [(0, [0, 1, 2, 3]), (1, [0, 1, 3])] [2]) 1 1,
    -- 5063: tmp52 = einsum(r2.aba, (0, 1, 2), t2.abab, (0, 1, 2, 3), (3,))
    .set 236 (.ein [(2, [0, 1, 2]), (3, [0, 1, 2, 3])] [3]) 1 1,
    -- 5064: tmp90 = np.copy(f.bb.oo)
    .set 237 (.cp 4) 1 1,
    -- 5065: tmp90 += ints.tmp163
    .add 237 (.cp 5) 1 1,
    -- 5066: tmp90 += ints.tmp167
    .add 237 (.cp 6) 1 1,
    -- 5067: tmp90 += ints.tmp205
    .add 237 (.cp 7) 1 1,
    -- 5068: tmp90 += ints.tmp209
    .add 237 (.cp 8) 1 1,
    -- 5069: tmp90 += np.transpose(ints.tmp21, (1, 0))
    .add 237 (.tr 9 [1, 0]) 1 1,
    -- 5070: tmp88 = np.copy(ints.tmp425)
    .set 238 (.cp 10) 1 1,
    -- 5071: tmp88 += np.transpose(ints.tmp430, (0, 1, 3, 2)) * 2
    .add 238 (.tr 11 [0, 1, 3, 2]) 2 1,
    -- 5072: tmp86 = np.copy(ints.tmp426)
    .set 239 (.cp 12) 1 1,
    -- 5073: tmp86 += ints.tmp432
    .add 239 (.cp 13) 1 1,
    -- 5074: tmp86 += ints.tmp436 * 2
    .add 239 (.cp 14) 2 1,
    -- 5075: tmp62 = np.copy(f.bb.ov)
    .set 240 (.cp 15) 1 1,
    -- 5076: tmp62 += ints.tmp36
    .add 240 (.cp 16) 1 1,
    -- 5077: tmp62 += ints.tmp38
    .add 240 (.cp 17) 1 1,
    -- 5078: tmp62 += ints.tmp89 * -1
    .add 240 (.cp 18) (-1) 1,
    -- 5079: tmp76 = np.copy(ints.tmp119)
    .set 241 (.cp 19) 1 1,
    -- 5080: tmp76 += np.transpose(ints.tmp119, (0, 2, 1, 3)) * -1
    .add 241 (.tr 19 [0, 2, 1, 3]) (-1) 1,
    -- 5081: tmp49 = einsum(t1.bb, (0, 1), r2.bbb, (2, 3, 1), (2, 3, 0))
    .set 242 (.ein [(20, [0, 1]), (1, [2, 3, 1])] [2, 3, 0]) 1 1,
    -- 5082: tmp78 = np.copy(v.bbbb.ooov)
    .set 243 (.cp 21) 1 1,
    -- 5083: tmp78 += np.transpose(v.bbbb.ooov, (0, 2, 1, 3)) * -1
    .add 243 (.tr 21 [0, 2, 1, 3]) (-1) 1,
    -- 5084: tmp47 = einsum(t1.aa, (0, 1), r2.aba, (2, 3, 1), (2, 0, 3))
    .set 244 (.ein [(22, [0, 1]), (2, [2, 3, 1])] [2, 0, 3]) 1 1,
    -- 5085: tmp81 = np.copy(ints.tmp140) * 2
    .set 245 (.cp 23) 2 1,
    -- 5086: tmp81 += ints.tmp143
    .add 245 (.cp 24) 1 1,
    -- 5087: tmp81 += ints.tmp161 * -1
    .add 245 (.cp 25) (-1) 1,
    -- 5088: tmp81 += ints.tmp203 * -1
    .add 245 (.cp 26) (-1) 1,
    -- 5089: tmp54 = np.copy(tmp52) * -0.5
    .set 246 (.cp 236) (-1) 2,
    -- 5090: del tmp52
    .del 236,
    -- 5091: tmp54 += tmp53
    .add 246 (.cp 235) 1 1,
    -- 5092: del tmp53
    .del 235,
    -- 5093: tmp74 = np.copy(ints.tmp324)
    .set 247 (.cp 27) 1 1,
    -- 5094: tmp74 += np.transpose(ints.tmp434, (0, 1, 3, 2)) * 2
    .add 247 (.tr 28 [0, 1, 3, 2]) 2 1,
    -- 5095: tmp74 += np.transpose(ints.tmp438, (0, 1, 3, 2))
    .add 247 (.tr 29 [0, 1, 3, 2]) 1 1,
    -- 5096: tmp40 = np.copy(f.aa.ov)
    .set 248 (.cp 30) 1 1,
    -- 5097: tmp40 += ints.tmp32
    .add 248 (.cp 31) 1 1,
    -- 5098: tmp40 += ints.tmp39
    .add 248 (.cp 32) 1 1,
    -- 5099: tmp40 += ints.tmp82 * -1
    .add 248 (.cp 33) (-1) 1,
    -- 5100: tmp36 = np.copy(ints.tmp47) * 2
    .set 249 (.cp 34) 2 1,
    -- 5101: tmp36 += ints.tmp49
    .add 249 (.cp 35) 1 1,
    -- 5102: tmp36 += ints.tmp154 * -1
    .add 249 (.cp 36) (-1) 1,
    -- 5103: tmp36 += ints.tmp25 * -1
    .add 249 (.cp 37) (-1) 1,
    -- 5104: tmp22 = einsum(t1.bb, (0, 1), r2.bab, (2, 3, 1), (3, 2, 0)) * -1
    .set 250 (.ein [(20, [0, 1]), (38, [2, 3, 1])] [3, 2, 0]) (-1) 1,
    -- 5105: tmp27 = np.copy(ints.tmp193)
    .set 251 (.cp 39) 1 1,
    -- 5106: tmp27 += np.transpose(ints.tmp355, (0, 1, 3, 2)) * 2
    .add 251 (.tr 40 [0, 1, 3, 2]) 2 1,
    -- 5107: tmp27 += np.transpose(ints.tmp359, (0, 1, 3, 2))
    .add 251 (.tr 41 [0, 1, 3, 2]) 1 1,
    -- 5108: tmp34 = np.copy(v.aaaa.ooov)
    .set 252 (.cp 42) 1 1,
    -- 5109: tmp34 += np.transpose(v.aaaa.ooov, (0, 2, 1, 3)) * -1
    .add 252 (.tr 42 [0, 2, 1, 3]) (-1) 1,
    -- 5110: tmp31 = einsum(r2.aaa, (0, 1, 2), t1.aa, (3, 2), (0, 1, 3))
    .set 253 (.ein [(43, [0, 1, 2]), (22, [3, 2])] [0, 1, 3]) 1 1,
    -- 5111: tmp29 = np.copy(ints.tmp349)
    .set 254 (.cp 44) 1 1,
    -- 5112: tmp29 += ints.tmp357
    .add 254 (.cp 45) 1 1,
    -- 5113: tmp29 += ints.tmp361 * 2
    .add 254 (.cp 46) 2 1,
    -- 5114: tmp25 = einsum(r2.aaa, (0, 1, 2), t2.aaaa, (0, 1, 3, 2), (3,))
    .set 255 (.ein [(43, [0, 1, 2]), (47, [0, 1, 3, 2])] [3]) 1 1,
    -- 5115: tmp32 = np.copy(ints.tmp41) * -1
    .set 256 (.cp 48) (-1) 1,
    -- 5116: tmp32 += np.transpose(ints.tmp41, (0, 2, 1, 3))
    .add 256 (.tr 48 [0, 2, 1, 3]) 1 1,
    -- 5117: tmp12 = einsum(r2.bab, (0, 1, 2), t2.abab, (1, 0, 3, 2), (3,)) * -1
    .set 257 (.ein [(38, [0, 1, 2]), (3, [1, 0, 3, 2])] [3]) (-1) 1,
    -- 5118: tmp14 = np.copy(ints.tmp346)
    .set 258 (.cp 49) 1 1,
    -- 5119: tmp14 += np.transpose(ints.tmp351, (0, 1, 3, 2)) * 2
    .add 258 (.tr 50 [0, 1, 3, 2]) 2 1,
    -- 5120: tmp16 = np.copy(f.aa.oo)
    .set 259 (.cp 51) 1 1,
    -- 5121: tmp16 += ints.tmp155
    .add 259 (.cp 52) 1 1,
    -- 5122: tmp16 += ints.tmp156
    .add 259 (.cp 53) 1 1,
    -- 5123: tmp16 += np.transpose(ints.tmp1, (1, 0))
    .add 259 (.tr 54 [1, 0]) 1 1,
    -- 5124: tmp16 += ints.tmp26
    .add 259 (.cp 55) 1 1,
    -- 5125: tmp16 += ints.tmp27
    .add 259 (.cp 56) 1 1,
    -- 5126: tmp84 = einsum(ints.tmp119, (0, 1, 2, 3), r1.b, (0,), (1, 2, 3))
    .set 260 (.ein [(19, [0, 1, 2, 3]), (57, [0])] [1, 2, 3]) 1 1,
    -- 5127: tmp91 = einsum(tmp90, (0, 1), r2.bbb, (2, 0, 3), (2, 1, 3)) * -1
    .set 261 (.ein [(237, [0, 1]), (1, [2, 0, 3])] [2, 1, 3]) (-1) 1,
    -- 5128: del tmp90
    .del 237,
    -- 5129: tmp85 = einsum(v.bbbb.ovov, (0, 1, 2, 3), r2.bbb, (4, 2, 3), (4, 0, 1))
    .set 262 (.ein [(58, [0, 1, 2, 3]), (1, [4, 2, 3])] [4, 0, 1]) 1 1,
    -- 5130: tmp89 = einsum(tmp88, (0, 1, 2, 3), r2.bbb, (4, 0, 3), (4, 1, 2)) * -1
    .set 263 (.ein [(238, [0, 1, 2, 3]), (1, [4, 0, 3])] [4, 1, 2]) (-1) 1,
    -- 5131: del tmp88
    .del 238,
    -- 5132: tmp87 = einsum(tmp86, (0, 1, 2, 3), r2.aba, (0, 4, 2), (4, 1, 3))
    .set 264 (.ein [(239, [0, 1, 2, 3]), (2, [0, 4, 2])] [4, 1, 3]) 1 1,
    -- 5133: del tmp86
    .del 239,
    -- 5134: tmp63 = einsum(t1.bb, (0, 1), tmp62, (0, 2), (1, 2))
    .set 265 (.ein [(20, [0, 1]), (240, [0, 2])] [1, 2]) 1 1,
    -- 5135: tmp68 = einsum(ints.tmp428, (0, 1, 2, 3), r2.aba, (0, 4, 2), (1, 4, 3))
    .set 266 (.ein [(59, [0, 1, 2, 3]), (2, [0, 4, 2])] [1, 4, 3]) 1 1,
    -- 5136: tmp77 = einsum(tmp49, (0, 1, 2), tmp76, (0, 3, 2, 4), (1, 3, 4)) * 2
    .set 267 (.ein [(242, [0, 1, 2]), (241, [0, 3, 2, 4])] [1, 3, 4]) 2 1,
    -- 5137: del tmp76
    .del 241,
    -- 5138: tmp70 = einsum(ints.tmp314, (0, 1, 2, 3), r2.bbb, (1, 0, 4), (2, 3, 4)) * -1
    .set 268 (.ein [(60, [0, 1, 2, 3]), (1, [1, 0, 4])] [2, 3, 4]) (-1) 1,
    -- 5139: tmp79 = einsum(tmp78, (0, 1, 2, 3), tmp49, (0, 4, 2), (4, 1, 3)) * 2
    .set 269 (.ein [(243, [0, 1, 2, 3]), (242, [0, 4, 2])] [4, 1, 3]) 2 1,
    -- 5140: del tmp78
    .del 243,
    -- 5141: tmp73 = einsum(tmp47, (0, 1, 2), v.aabb.ooov, (1, 0, 3, 4), (2, 3, 4))
    .set 270 (.ein [(244, [0, 1, 2]), (61, [1, 0, 3, 4])] [2, 3, 4]) 1 1,
    -- 5142: tmp82 = einsum(r2.bbb, (0, 1, 2), tmp81, (1, 3), (0, 3, 2)) * -2
    .set 271 (.ein [(1, [0, 1, 2]), (245, [1, 3])] [0, 3, 2]) (-2) 1,
    -- 5143: del tmp81
    .del 245,
    -- 5144: tmp80 = einsum(tmp54, (0,), v.bbbb.ovov, (1, 0, 2, 3), (1, 2, 3)) * 2
    .set 272 (.ein [(246, [0]), (58, [1, 0, 2, 3])] [1, 2, 3]) 2 1,
    -- 5145: tmp67 = einsum(r1.b, (0,), v.bbbb.ooov, (1, 0, 2, 3), (1, 2, 3))
    .set 273 (.ein [(57, [0]), (21, [1, 0, 2, 3])] [1, 2, 3]) 1 1,
    -- 5146: tmp71 = einsum(r2.bbb, (0, 1, 2), v.bbbb.oovv, (3, 1, 4, 2), (0, 3, 4))
    .set 274 (.ein [(1, [0, 1, 2]), (62, [3, 1, 4, 2])] [0, 3, 4]) 1 1,
    -- 5147: tmp72 = einsum(tmp47, (0, 1, 2), ints.tmp45, (0, 1, 3, 4), (3, 2, 4))
    .set 275 (.ein [(244, [0, 1, 2]), (63, [0, 1, 3, 4])] [3, 2, 4]) 1 1,
    -- 5148: tmp75 = einsum(tmp74, (0, 1, 2, 3), r2.bbb, (4, 0, 3), (4, 1, 2)) * -2
    .set 276 (.ein [(247, [0, 1, 2, 3]), (1, [4, 0, 3])] [4, 1, 2]) (-2) 1,
    -- 5149: del tmp74
    .del 247,
    -- 5150: tmp69 = einsum(r2.aba, (0, 1, 2), v.aabb.ovov, (0, 2, 3, 4), (1, 3, 4))
    .set 277 (.ein [(2, [0, 1, 2]), (64, [0, 2, 3, 4])] [1, 3, 4]) 1 1,
    -- 5151: tmp41 = einsum(t1.aa, (0, 1), tmp40, (0, 2), (1, 2))
    .set 278 (.ein [(22, [0, 1]), (248, [0, 2])] [1, 2]) 1 1,
    -- 5152: tmp37 = einsum(tmp36, (0, 1), r2.aaa, (2, 0, 3), (2, 1, 3)) * -2
    .set 279 (.ein [(249, [0, 1]), (43, [2, 0, 3])] [2, 1, 3]) (-2) 1,
    -- 5153: del tmp36
    .del 249,
    -- 5154: tmp20 = einsum(ints.tmp169, (0, 1, 2, 3), r2.aaa, (0, 1, 4), (2, 3, 4))
    .set 280 (.ein [(65, [0, 1, 2, 3]), (43, [0, 1, 4])] [2, 3, 4]) 1 1,
    -- 5155: tmp21 = einsum(r2.aaa, (0, 1, 2), v.aaaa.oovv, (3, 1, 4, 2), (0, 3, 4))
    .set 281 (.ein [(43, [0, 1, 2]), (66, [3, 1, 4, 2])] [0, 3, 4]) 1 1,
    -- 5156: tmp24 = einsum(tmp22, (0, 1, 2), ints.tmp124, (3, 1, 2, 4), (3, 0, 4))
    .set 282 (.ein [(250, [0, 1, 2]), (67, [3, 1, 2, 4])] [3, 0, 4]) 1 1,
    -- 5157: tmp23 = einsum(v.aabb.ovoo, (0, 1, 2, 3), tmp22, (4, 3, 2), (4, 0, 1))
    .set 283 (.ein [(68, [0, 1, 2, 3]), (250, [4, 3, 2])] [4, 0, 1]) 1 1,
    -- 5158: tmp28 = einsum(tmp27, (0, 1, 2, 3), r2.aaa, (4, 0, 3), (4, 1, 2)) * -2
    .set 284 (.ein [(251, [0, 1, 2, 3]), (43, [4, 0, 3])] [4, 1, 2]) (-2) 1,
    -- 5159: del tmp27
    .del 251,
    -- 5160: tmp35 = einsum(tmp31, (0, 1, 2), tmp34, (0, 3, 2, 4), (1, 3, 4)) * 2
    .set 285 (.ein [(253, [0, 1, 2]), (252, [0, 3, 2, 4])] [1, 3, 4]) 2 1,
    -- 5161: del tmp34
    .del 252,
    -- 5162: tmp30 = einsum(tmp29, (0, 1, 2, 3), r2.bab, (1, 4, 3), (4, 0, 2)) * -1
    .set 286 (.ein [(254, [0, 1, 2, 3]), (38, [1, 4, 3])] [4, 0, 2]) (-1) 1,
    -- 5163: del tmp29
    .del 254,
    -- 5164: tmp19 = einsum(r1.a, (0,), v.aaaa.ooov, (1, 0, 2, 3), (1, 2, 3))
    .set 287 (.ein [(69, [0]), (42, [1, 0, 2, 3])] [1, 2, 3]) 1 1,
    -- 5165: tmp26 = einsum(tmp25, (0,), v.aaaa.ovov, (1, 2, 3, 0), (1, 3, 2)) * -1
    .set 288 (.ein [(255, [0]), (70, [1, 2, 3, 0])] [1, 3, 2]) (-1) 1,
    -- 5166: tmp33 = einsum(tmp32, (0, 1, 2, 3), tmp31, (0, 4, 1), (4, 2, 3)) * 2
    .set 289 (.ein [(256, [0, 1, 2, 3]), (253, [0, 4, 1])] [4, 2, 3]) 2 1,
    -- 5167: del tmp32
    .del 256,
    -- 5168: tmp11 = einsum(r2.bab, (0, 1, 2), v.aabb.ovov, (3, 4, 0, 2), (1, 3, 4)) * -1
    .set 290 (.ein [(38, [0, 1, 2]), (64, [3, 4, 0, 2])] [1, 3, 4]) (-1) 1,
    -- 5169: tmp13 = einsum(tmp12, (0,), v.aaaa.ovov, (1, 2, 3, 0), (1, 3, 2))
    .set 291 (.ein [(257, [0]), (70, [1, 2, 3, 0])] [1, 3, 2]) 1 1,
    -- 5170: tmp8 = einsum(r1.a, (0,), ints.tmp41, (0, 1, 2, 3), (1, 2, 3))
    .set 292 (.ein [(69, [0]), (48, [0, 1, 2, 3])] [1, 2, 3]) 1 1,
    -- 5171: tmp15 = einsum(r2.aaa, (0, 1, 2), tmp14, (1, 3, 4, 2), (0, 3, 4)) * -1
    .set 293 (.ein [(43, [0, 1, 2]), (258, [1, 3, 4, 2])] [0, 3, 4]) (-1) 1,
    -- 5172: del tmp14
    .del 258,
    -- 5173: tmp10 = einsum(r2.bab, (0, 1, 2), ints.tmp353, (3, 0, 4, 2), (3, 1, 4)) * -1
    .set 294 (.ein [(38, [0, 1, 2]), (71, [3, 0, 4, 2])] [3, 1, 4]) (-1) 1,
    -- 5174: tmp17 = einsum(r2.aaa, (0, 1, 2), tmp16, (1, 3), (0, 3, 2)) * -1
    .set 295 (.ein [(43, [0, 1, 2]), (259, [1, 3])] [0, 3, 2]) (-1) 1,
    -- 5175: del tmp16
    .del 259,
    -- 5176: tmp9 = einsum(v.aaaa.ovov, (0, 1, 2, 3), r2.aaa, (4, 2, 3), (4, 0, 1))
    .set 296 (.ein [(70, [0, 1, 2, 3]), (43, [4, 2, 3])] [4, 0, 1]) 1 1,
    -- 5177: tmp93 = np.copy(ints.tmp306)
    .set 297 (.cp 72) 1 1,
    -- 5178: tmp93 += ints.tmp333
    .add 297 (.cp 73) 1 1,
    -- 5179: tmp93 += np.transpose(v.bbbb.oooo, (0, 2, 3, 1)) * -1
    .add 297 (.tr 74 [0, 2, 3, 1]) (-1) 1,
    -- 5180: tmp92 = np.copy(tmp84)
    .set 298 (.cp 260) 1 1,
    -- 5181: del tmp84
    .del 260,
    -- 5182: tmp92 += tmp85 * 2
    .add 298 (.cp 262) 2 1,
    -- 5183: del tmp85
    .del 262,
    -- 5184: tmp92 += np.transpose(tmp87, (1, 0, 2))
    .add 298 (.tr 264 [1, 0, 2]) 1 1,
    -- 5185: del tmp87
    .del 264,
    -- 5186: tmp92 += np.transpose(tmp89, (1, 0, 2)) * -2
    .add 298 (.tr 263 [1, 0, 2]) (-2) 1,
    -- 5187: del tmp89
    .del 263,
    -- 5188: tmp92 += np.transpose(tmp91, (1, 0, 2)) * -2
    .add 298 (.tr 261 [1, 0, 2]) (-2) 1,
    -- 5189: del tmp91
    .del 261,
    -- 5190: tmp64 = np.copy(np.transpose(ints.tmp186, (1, 0)))
    .set 299 (.tr 75 [1, 0]) 1 1,
    -- 5191: tmp64 += ints.tmp449 * 2
    .add 299 (.cp 76) 2 1,
    -- 5192: tmp64 += ints.tmp451
    .add 299 (.cp 77) 1 1,
    -- 5193: tmp64 += f.bb.vv * -1
    .add 299 (.cp 78) (-1) 1,
    -- 5194: tmp64 += ints.tmp184 * -1
    .add 299 (.cp 79) (-1) 1,
    -- 5195: tmp64 += ints.tmp188 * -1
    .add 299 (.cp 80) (-1) 1,
    -- 5196: tmp64 += tmp63
    .add 299 (.cp 265) 1 1,
    -- 5197: del tmp63
    .del 265,
    -- 5198: tmp83 = np.copy(tmp67)
    .set 300 (.cp 273) 1 1,
    -- 5199: del tmp67
    .del 273,
    -- 5200: tmp83 += tmp68
    .add 300 (.cp 266) 1 1,
    -- 5201: del tmp68
    .del 266,
    -- 5202: tmp83 += tmp69
    .add 300 (.cp 277) 1 1,
    -- 5203: del tmp69
    .del 277,
    -- 5204: tmp83 += tmp70 * 2
    .add 300 (.cp 268) 2 1,
    -- 5205: del tmp70
    .del 268,
    -- 5206: tmp83 += tmp71 * 2
    .add 300 (.cp 274) 2 1,
    -- 5207: del tmp71
    .del 274,
    -- 5208: tmp83 += tmp72
    .add 300 (.cp 275) 1 1,
    -- 5209: del tmp72
    .del 275,
    -- 5210: tmp83 += tmp73 * -1
    .add 300 (.cp 270) (-1) 1,
    -- 5211: del tmp73
    .del 270,
    -- 5212: tmp83 += np.transpose(tmp75, (1, 0, 2)) * -1
    .add 300 (.tr 276 [1, 0, 2]) (-1) 1,
    -- 5213: del tmp75
    .del 276,
    -- 5214: tmp83 += np.transpose(tmp77, (1, 0, 2))
    .add 300 (.tr 267 [1, 0, 2]) 1 1,
    -- 5215: del tmp77
    .del 267,
    -- 5216: tmp83 += tmp79
    .add 300 (.cp 269) 1 1,
    -- 5217: del tmp79
    .del 269,
    -- 5218: tmp83 += np.transpose(tmp80, (1, 0, 2)) * -1
    .add 300 (.tr 272 [1, 0, 2]) (-1) 1,
    -- 5219: del tmp80
    .del 272,
    -- 5220: tmp83 += np.transpose(tmp82, (1, 0, 2))
    .add 300 (.tr 271 [1, 0, 2]) 1 1,
    -- 5221: del tmp82
    .del 271,
    -- 5222: tmp58 = np.copy(ints.tmp151)
    .set 301 (.cp 81) 1 1,
    -- 5223: tmp58 += ints.tmp174
    .add 301 (.cp 82) 1 1,
    -- 5224: tmp58 += np.transpose(ints.tmp176, (1, 0, 2, 3))
    .add 301 (.tr 83 [1, 0, 2, 3]) 1 1,
    -- 5225: tmp58 += ints.tmp214
    .add 301 (.cp 84) 1 1,
    -- 5226: tmp58 += v.aabb.oooo
    .add 301 (.cp 85) 1 1,
    -- 5227: tmp4 = np.copy(f.aa.oo)
    .set 302 (.cp 51) 1 1,
    -- 5228: tmp4 += ints.tmp155
    .add 302 (.cp 52) 1 1,
    -- 5229: tmp4 += ints.tmp156
    .add 302 (.cp 53) 1 1,
    -- 5230: tmp4 += np.transpose(ints.tmp1, (1, 0))
    .add 302 (.tr 54 [1, 0]) 1 1,
    -- 5231: tmp4 += np.transpose(ints.tmp26, (1, 0))
    .add 302 (.tr 55 [1, 0]) 1 1,
    -- 5232: tmp4 += np.transpose(ints.tmp27, (1, 0))
    .add 302 (.tr 56 [1, 0]) 1 1,
    -- 5233: tmp4 += ints.tmp47 * 2
    .add 302 (.cp 34) 2 1,
    -- 5234: tmp4 += ints.tmp49
    .add 302 (.cp 35) 1 1,
    -- 5235: tmp4 += ints.tmp154 * -1
    .add 302 (.cp 36) (-1) 1,
    -- 5236: tmp4 += ints.tmp25 * -1
    .add 302 (.cp 37) (-1) 1,
    -- 5237: tmp61 = np.copy(ints.tmp45)
    .set 303 (.cp 63) 1 1,
    -- 5238: tmp61 += v.aabb.ooov
    .add 303 (.cp 61) 1 1,
    -- 5239: tmp55 = np.copy(ints.tmp324)
    .set 304 (.cp 27) 1 1,
    -- 5240: tmp55 += np.transpose(ints.tmp434, (0, 1, 3, 2)) * 2
    .add 304 (.tr 28 [0, 1, 3, 2]) 2 1,
    -- 5241: tmp55 += np.transpose(ints.tmp438, (0, 1, 3, 2))
    .add 304 (.tr 29 [0, 1, 3, 2]) 1 1,
    -- 5242: tmp55 += np.transpose(v.bbbb.ovov, (0, 2, 3, 1))
    .add 304 (.tr 58 [0, 2, 3, 1]) 1 1,
    -- 5243: tmp55 += ints.tmp425 * -1
    .add 304 (.cp 10) (-1) 1,
    -- 5244: tmp55 += np.transpose(ints.tmp430, (0, 1, 3, 2)) * -2
    .add 304 (.tr 11 [0, 1, 3, 2]) (-2) 1,
    -- 5245: tmp55 += v.bbbb.oovv * -1
    .add 304 (.cp 62) (-1) 1,
    -- 5246: tmp66 = np.copy(tmp25)
    .set 305 (.cp 255) 1 1,
    -- 5247: del tmp25
    .del 255,
    -- 5248: tmp66 += tmp12 * 0.5
    .add 305 (.cp 257) 1 2,
    -- 5249: del tmp12
    .del 257,
    -- 5250: tmp59 = np.copy(ints.tmp119)
    .set 306 (.cp 19) 1 1,
    -- 5251: tmp59 += np.transpose(ints.tmp119, (0, 2, 1, 3)) * -1
    .add 306 (.tr 19 [0, 2, 1, 3]) (-1) 1,
    -- 5252: tmp59 += v.bbbb.ooov * -1
    .add 306 (.cp 21) (-1) 1,
    -- 5253: tmp59 += np.transpose(v.bbbb.ooov, (0, 2, 1, 3))
    .add 306 (.tr 21 [0, 2, 1, 3]) 1 1,
    -- 5254: tmp57 = np.copy(ints.tmp196)
    .set 307 (.cp 86) 1 1,
    -- 5255: tmp57 += v.aabb.oovv
    .add 307 (.cp 87) 1 1,
    -- 5256: tmp57 += ints.tmp453 * -1
    .add 307 (.cp 88) (-1) 1,
    -- 5257: tmp60 = np.copy(ints.tmp45)
    .set 308 (.cp 63) 1 1,
    -- 5258: tmp60 += v.aabb.ooov
    .add 308 (.cp 61) 1 1,
    -- 5259: tmp56 = np.copy(ints.tmp426)
    .set 309 (.cp 12) 1 1,
    -- 5260: tmp56 += ints.tmp432
    .add 309 (.cp 13) 1 1,
    -- 5261: tmp56 += ints.tmp436 * 2
    .add 309 (.cp 14) 2 1,
    -- 5262: tmp56 += np.transpose(v.aabb.ovov, (0, 2, 1, 3))
    .add 309 (.tr 64 [0, 2, 1, 3]) 1 1,
    -- 5263: tmp56 += ints.tmp428 * -1
    .add 309 (.cp 59) (-1) 1,
    -- 5264: tmp65 = np.copy(f.bb.oo)
    .set 310 (.cp 4) 1 1,
    -- 5265: tmp65 += ints.tmp140 * 2
    .add 310 (.cp 23) 2 1,
    -- 5266: tmp65 += ints.tmp143
    .add 310 (.cp 24) 1 1,
    -- 5267: tmp65 += ints.tmp163
    .add 310 (.cp 5) 1 1,
    -- 5268: tmp65 += ints.tmp167
    .add 310 (.cp 6) 1 1,
    -- 5269: tmp65 += ints.tmp205
    .add 310 (.cp 7) 1 1,
    -- 5270: tmp65 += ints.tmp209
    .add 310 (.cp 8) 1 1,
    -- 5271: tmp65 += np.transpose(ints.tmp21, (1, 0))
    .add 310 (.tr 9 [1, 0]) 1 1,
    -- 5272: tmp65 += ints.tmp161 * -1
    .add 310 (.cp 25) (-1) 1,
    -- 5273: tmp65 += ints.tmp203 * -1
    .add 310 (.cp 26) (-1) 1,
    -- 5274: tmp51 = np.copy(f.aa.oo)
    .set 311 (.cp 51) 1 1,
    -- 5275: tmp51 += ints.tmp155
    .add 311 (.cp 52) 1 1,
    -- 5276: tmp51 += ints.tmp156
    .add 311 (.cp 53) 1 1,
    -- 5277: tmp51 += np.transpose(ints.tmp1, (1, 0))
    .add 311 (.tr 54 [1, 0]) 1 1,
    -- 5278: tmp51 += ints.tmp26
    .add 311 (.cp 55) 1 1,
    -- 5279: tmp51 += ints.tmp27
    .add 311 (.cp 56) 1 1,
    -- 5280: tmp51 += ints.tmp47 * 2
    .add 311 (.cp 34) 2 1,
    -- 5281: tmp51 += ints.tmp49
    .add 311 (.cp 35) 1 1,
    -- 5282: tmp51 += ints.tmp154 * -1
    .add 311 (.cp 36) (-1) 1,
    -- 5283: tmp51 += ints.tmp25 * -1
    .add 311 (.cp 37) (-1) 1,
    -- 5284: tmp46 = np.copy(ints.tmp151)
    .set 312 (.cp 81) 1 1,
    -- 5285: tmp46 += np.transpose(ints.tmp174, (0, 1, 3, 2))
    .add 312 (.tr 82 [0, 1, 3, 2]) 1 1,
    -- 5286: tmp46 += ints.tmp176
    .add 312 (.cp 83) 1 1,
    -- 5287: tmp46 += ints.tmp214
    .add 312 (.cp 84) 1 1,
    -- 5288: tmp46 += v.aabb.oooo
    .add 312 (.cp 85) 1 1,
    -- 5289: tmp42 = np.copy(np.transpose(ints.tmp181, (1, 0)))
    .set 313 (.tr 89 [1, 0]) 1 1,
    -- 5290: tmp42 += ints.tmp391 * 2
    .add 313 (.cp 90) 2 1,
    -- 5291: tmp42 += ints.tmp393
    .add 313 (.cp 91) 1 1,
    -- 5292: tmp42 += f.aa.vv * -1
    .add 313 (.cp 92) (-1) 1,
    -- 5293: tmp42 += ints.tmp178 * -1
    .add 313 (.cp 93) (-1) 1,
    -- 5294: tmp42 += ints.tmp190 * -1
    .add 313 (.cp 94) (-1) 1,
    -- 5295: tmp42 += tmp41
    .add 313 (.cp 278) 1 1,
    -- 5296: del tmp41
    .del 278,
    -- 5297: tmp43 = np.copy(ints.tmp193)
    .set 314 (.cp 39) 1 1,
    -- 5298: tmp43 += np.transpose(ints.tmp355, (0, 1, 3, 2)) * 2
    .add 314 (.tr 40 [0, 1, 3, 2]) 2 1,
    -- 5299: tmp43 += np.transpose(ints.tmp359, (0, 1, 3, 2))
    .add 314 (.tr 41 [0, 1, 3, 2]) 1 1,
    -- 5300: tmp43 += np.transpose(v.aaaa.ovov, (0, 2, 3, 1))
    .add 314 (.tr 70 [0, 2, 3, 1]) 1 1,
    -- 5301: tmp43 += ints.tmp346 * -1
    .add 314 (.cp 49) (-1) 1,
    -- 5302: tmp43 += np.transpose(ints.tmp351, (0, 1, 3, 2)) * -2
    .add 314 (.tr 50 [0, 1, 3, 2]) (-2) 1,
    -- 5303: tmp43 += v.aaaa.oovv * -1
    .add 314 (.cp 66) (-1) 1,
    -- 5304: tmp45 = np.copy(ints.tmp327)
    .set 315 (.cp 95) 1 1,
    -- 5305: tmp45 += np.transpose(v.aabb.vvoo, (2, 3, 0, 1))
    .add 315 (.tr 96 [2, 3, 0, 1]) 1 1,
    -- 5306: tmp45 += ints.tmp422 * -1
    .add 315 (.cp 97) (-1) 1,
    -- 5307: tmp50 = np.copy(ints.tmp124)
    .set 316 (.cp 67) 1 1,
    -- 5308: tmp50 += np.transpose(v.aabb.ovoo, (0, 2, 3, 1))
    .add 316 (.tr 68 [0, 2, 3, 1]) 1 1,
    -- 5309: tmp44 = np.copy(ints.tmp349)
    .set 317 (.cp 44) 1 1,
    -- 5310: tmp44 += ints.tmp357
    .add 317 (.cp 45) 1 1,
    -- 5311: tmp44 += ints.tmp361 * 2
    .add 317 (.cp 46) 2 1,
    -- 5312: tmp44 += np.transpose(v.aabb.ovov, (0, 2, 1, 3))
    .add 317 (.tr 64 [0, 2, 1, 3]) 1 1,
    -- 5313: tmp44 += ints.tmp353 * -1
    .add 317 (.cp 71) (-1) 1,
    -- 5314: tmp48 = np.copy(ints.tmp41) * -1
    .set 318 (.cp 48) (-1) 1,
    -- 5315: tmp48 += np.transpose(ints.tmp41, (0, 2, 1, 3))
    .add 318 (.tr 48 [0, 2, 1, 3]) 1 1,
    -- 5316: tmp48 += v.aaaa.ooov
    .add 318 (.cp 42) 1 1,
    -- 5317: tmp48 += np.transpose(v.aaaa.ooov, (0, 2, 1, 3)) * -1
    .add 318 (.tr 42 [0, 2, 1, 3]) (-1) 1,
    -- 5318: tmp7 = np.copy(f.bb.oo)
    .set 319 (.cp 4) 1 1,
    -- 5319: tmp7 += ints.tmp140 * 2
    .add 319 (.cp 23) 2 1,
    -- 5320: tmp7 += ints.tmp143
    .add 319 (.cp 24) 1 1,
    -- 5321: tmp7 += np.transpose(ints.tmp163, (1, 0))
    .add 319 (.tr 5 [1, 0]) 1 1,
    -- 5322: tmp7 += np.transpose(ints.tmp167, (1, 0))
    .add 319 (.tr 6 [1, 0]) 1 1,
    -- 5323: tmp7 += ints.tmp205
    .add 319 (.cp 7) 1 1,
    -- 5324: tmp7 += ints.tmp209
    .add 319 (.cp 8) 1 1,
    -- 5325: tmp7 += np.transpose(ints.tmp21, (1, 0))
    .add 319 (.tr 9 [1, 0]) 1 1,
    -- 5326: tmp7 += ints.tmp161 * -1
    .add 319 (.cp 25) (-1) 1,
    -- 5327: tmp7 += ints.tmp203 * -1
    .add 319 (.cp 26) (-1) 1,
    -- 5328: tmp39 = np.copy(ints.tmp148)
    .set 320 (.cp 98) 1 1,
    -- 5329: tmp39 += ints.tmp211
    .add 320 (.cp 99) 1 1,
    -- 5330: tmp39 += np.transpose(v.aaaa.oooo, (0, 2, 3, 1)) * -1
    .add 320 (.tr 100 [0, 2, 3, 1]) (-1) 1,
    -- 5331: tmp38 = np.copy(tmp19)
    .set 321 (.cp 287) 1 1,
    -- 5332: del tmp19
    .del 287,
    -- 5333: tmp38 += tmp20 * 2
    .add 321 (.cp 280) 2 1,
    -- 5334: del tmp20
    .del 280,
    -- 5335: tmp38 += tmp21 * 2
    .add 321 (.cp 281) 2 1,
    -- 5336: del tmp21
    .del 281,
    -- 5337: tmp38 += tmp23
    .add 321 (.cp 283) 1 1,
    -- 5338: del tmp23
    .del 283,
    -- 5339: tmp38 += tmp24 * -1
    .add 321 (.cp 282) (-1) 1,
    -- 5340: del tmp24
    .del 282,
    -- 5341: tmp38 += tmp26 * 2
    .add 321 (.cp 288) 2 1,
    -- 5342: del tmp26
    .del 288,
    -- 5343: tmp38 += np.transpose(tmp28, (1, 0, 2)) * -1
    .add 321 (.tr 284 [1, 0, 2]) (-1) 1,
    -- 5344: del tmp28
    .del 284,
    -- 5345: tmp38 += np.transpose(tmp30, (1, 0, 2))
    .add 321 (.tr 286 [1, 0, 2]) 1 1,
    -- 5346: del tmp30
    .del 286,
    -- 5347: tmp38 += np.transpose(tmp33, (1, 0, 2))
    .add 321 (.tr 289 [1, 0, 2]) 1 1,
    -- 5348: del tmp33
    .del 289,
    -- 5349: tmp38 += tmp35
    .add 321 (.cp 285) 1 1,
    -- 5350: del tmp35
    .del 285,
    -- 5351: tmp38 += np.transpose(tmp37, (1, 0, 2))
    .add 321 (.tr 279 [1, 0, 2]) 1 1,
    -- 5352: del tmp37
    .del 279,
    -- 5353: tmp18 = np.copy(tmp8)
    .set 322 (.cp 292) 1 1,
    -- 5354: del tmp8
    .del 292,
    -- 5355: tmp18 += tmp9 * 2
    .add 322 (.cp 296) 2 1,
    -- 5356: del tmp9
    .del 296,
    -- 5357: tmp18 += tmp10
    .add 322 (.cp 294) 1 1,
    -- 5358: del tmp10
    .del 294,
    -- 5359: tmp18 += tmp11
    .add 322 (.cp 290) 1 1,
    -- 5360: del tmp11
    .del 290,
    -- 5361: tmp18 += tmp13
    .add 322 (.cp 291) 1 1,
    -- 5362: del tmp13
    .del 291,
    -- 5363: tmp18 += np.transpose(tmp15, (1, 0, 2)) * -2
    .add 322 (.tr 293 [1, 0, 2]) (-2) 1,
    -- 5364: del tmp15
    .del 293,
    -- 5365: tmp18 += np.transpose(tmp17, (1, 0, 2)) * -2
    .add 322 (.tr 295 [1, 0, 2]) (-2) 1,
    -- 5366: del tmp17
    .del 295,
    -- 5367: tmp2 = np.copy(ints.tmp120)
    .set 323 (.cp 101) 1 1,
    -- 5368: tmp2 += ints.tmp125 * 0.5
    .add 323 (.cp 102) 1 2,
    -- 5369: tmp2 += ints.tmp141
    .add 323 (.cp 103) 1 1,
    -- 5370: tmp2 += ints.tmp144 * 0.5
    .add 323 (.cp 104) 1 2,
    -- 5371: tmp2 += ints.tmp164 * 0.5
    .add 323 (.cp 105) 1 2,
    -- 5372: tmp2 += ints.tmp168 * 0.5
    .add 323 (.cp 106) 1 2,
    -- 5373: tmp2 += ints.tmp187 * 0.5
    .add 323 (.cp 107) 1 2,
    -- 5374: tmp2 += ints.tmp206 * 0.5
    .add 323 (.cp 108) 1 2,
    -- 5375: tmp2 += ints.tmp210 * 0.5
    .add 323 (.cp 109) 1 2,
    -- 5376: tmp2 += ints.tmp22 * 0.5
    .add 323 (.cp 110) 1 2,
    -- 5377: tmp2 += ints.tmp37 * 0.5
    .add 323 (.cp 111) 1 2,
    -- 5378: tmp2 += ints.tmp4 * 0.5
    .add 323 (.cp 112) 1 2,
    -- 5379: tmp2 += ints.tmp53
    .add 323 (.cp 113) 1 1,
    -- 5380: tmp2 += ints.tmp55 * 0.5
    .add 323 (.cp 114) 1 2,
    -- 5381: tmp2 += ints.tmp72
    .add 323 (.cp 115) 1 1,
    -- 5382: tmp2 += ints.tmp85 * 0.5
    .add 323 (.cp 116) 1 2,
    -- 5383: tmp2 += ints.tmp92
    .add 323 (.cp 117) 1 1,
    -- 5384: tmp2 += f.bb.ov * -0.5
    .add 323 (.cp 15) (-1) 2,
    -- 5385: tmp2 += ints.tmp100 * -0.5
    .add 323 (.cp 118) (-1) 2,
    -- 5386: tmp2 += ints.tmp103 * -1
    .add 323 (.cp 119) (-1) 1,
    -- 5387: tmp2 += ints.tmp10 * -0.5
    .add 323 (.cp 120) (-1) 2,
    -- 5388: tmp2 += ints.tmp13 * -1
    .add 323 (.cp 121) (-1) 1,
    -- 5389: tmp2 += ints.tmp162 * -0.5
    .add 323 (.cp 122) (-1) 2,
    -- 5390: tmp2 += ints.tmp185 * -0.5
    .add 323 (.cp 123) (-1) 2,
    -- 5391: tmp2 += ints.tmp189 * -0.5
    .add 323 (.cp 124) (-1) 2,
    -- 5392: tmp2 += ints.tmp204 * -0.5
    .add 323 (.cp 125) (-1) 2,
    -- 5393: tmp2 += ints.tmp36 * -0.5
    .add 323 (.cp 16) (-1) 2,
    -- 5394: tmp2 += ints.tmp38 * -0.5
    .add 323 (.cp 17) (-1) 2,
    -- 5395: tmp2 += ints.tmp74 * -0.5
    .add 323 (.cp 126) (-1) 2,
    -- 5396: tmp2 += ints.tmp7 * -0.5
    .add 323 (.cp 127) (-1) 2,
    -- 5397: tmp2 += ints.tmp88 * -0.5
    .add 323 (.cp 128) (-1) 2,
    -- 5398: tmp2 += ints.tmp96 * -1
    .add 323 (.cp 129) (-1) 1,
    -- 5399: tmp3 = np.copy(ints.tmp117)
    .set 324 (.cp 130) 1 1,
    -- 5400: tmp3 += ints.tmp122 * 0.5
    .add 324 (.cp 131) 1 2,
    -- 5401: tmp3 += ints.tmp138
    .add 324 (.cp 132) 1 1,
    -- 5402: tmp3 += ints.tmp146 * 0.5
    .add 324 (.cp 133) 1 2,
    -- 5403: tmp3 += ints.tmp159 * 0.5
    .add 324 (.cp 134) 1 2,
    -- 5404: tmp3 += ints.tmp165 * 0.5
    .add 324 (.cp 135) 1 2,
    -- 5405: tmp3 += ints.tmp182 * 0.5
    .add 324 (.cp 136) 1 2,
    -- 5406: tmp3 += ints.tmp19 * 0.5
    .add 324 (.cp 137) 1 2,
    -- 5407: tmp3 += ints.tmp201 * 0.5
    .add 324 (.cp 138) 1 2,
    -- 5408: tmp3 += ints.tmp207 * 0.5
    .add 324 (.cp 139) 1 2,
    -- 5409: tmp3 += ints.tmp2 * 0.5
    .add 324 (.cp 140) 1 2,
    -- 5410: tmp3 += ints.tmp34 * 0.5
    .add 324 (.cp 141) 1 2,
    -- 5411: tmp3 += ints.tmp51
    .add 324 (.cp 142) 1 1,
    -- 5412: tmp3 += ints.tmp57 * 0.5
    .add 324 (.cp 143) 1 2,
    -- 5413: tmp3 += ints.tmp70
    .add 324 (.cp 144) 1 1,
    -- 5414: tmp3 += ints.tmp83
    .add 324 (.cp 145) 1 1,
    -- 5415: tmp3 += ints.tmp90 * 0.5
    .add 324 (.cp 146) 1 2,
    -- 5416: tmp3 += f.aa.ov * -0.5
    .add 324 (.cp 30) (-1) 2,
    -- 5417: tmp3 += ints.tmp101 * -0.5
    .add 324 (.cp 147) (-1) 2,
    -- 5418: tmp3 += ints.tmp11 * -0.5
    .add 324 (.cp 148) (-1) 2,
    -- 5419: tmp3 += ints.tmp157 * -0.5
    .add 324 (.cp 149) (-1) 2,
    -- 5420: tmp3 += ints.tmp179 * -0.5
    .add 324 (.cp 150) (-1) 2,
    -- 5421: tmp3 += ints.tmp191 * -0.5
    .add 324 (.cp 151) (-1) 2,
    -- 5422: tmp3 += ints.tmp199 * -0.5
    .add 324 (.cp 152) (-1) 2,
    -- 5423: tmp3 += ints.tmp32 * -0.5
    .add 324 (.cp 31) (-1) 2,
    -- 5424: tmp3 += ints.tmp39 * -0.5
    .add 324 (.cp 32) (-1) 2,
    -- 5425: tmp3 += ints.tmp5 * -0.5
    .add 324 (.cp 153) (-1) 2,
    -- 5426: tmp3 += ints.tmp76 * -0.5
    .add 324 (.cp 154) (-1) 2,
    -- 5427: tmp3 += ints.tmp86 * -1
    .add 324 (.cp 155) (-1) 1,
    -- 5428: tmp3 += ints.tmp8 * -1
    .add 324 (.cp 156) (-1) 1,
    -- 5429: tmp3 += ints.tmp94 * -0.5
    .add 324 (.cp 157) (-1) 2,
    -- 5430: tmp3 += ints.tmp98 * -1
    .add 324 (.cp 158) (-1) 1,
    -- 5431: tmp6 = np.copy(np.transpose(ints.tmp225, (1, 2, 0, 3)))
    .set 325 (.tr 159 [1, 2, 0, 3]) 1 1,
    -- 5432: tmp6 += np.transpose(ints.tmp230, (1, 2, 0, 3))
    .add 325 (.tr 160 [1, 2, 0, 3]) 1 1,
    -- 5433: tmp6 += np.transpose(ints.tmp238, (0, 2, 1, 3))
    .add 325 (.tr 161 [0, 2, 1, 3]) 1 1,
    -- 5434: tmp6 += np.transpose(ints.tmp251, (0, 2, 1, 3)) * 2
    .add 325 (.tr 162 [0, 2, 1, 3]) 2 1,
    -- 5435: tmp6 += np.transpose(ints.tmp256, (0, 2, 1, 3))
    .add 325 (.tr 163 [0, 2, 1, 3]) 1 1,
    -- 5436: tmp6 += ints.tmp281
    .add 325 (.cp 164) 1 1,
    -- 5437: tmp6 += ints.tmp285
    .add 325 (.cp 165) 1 1,
    -- 5438: tmp6 += ints.tmp295 * 2
    .add 325 (.cp 166) 2 1,
    -- 5439: tmp6 += ints.tmp307
    .add 325 (.cp 167) 1 1,
    -- 5440: tmp6 += ints.tmp315
    .add 325 (.cp 168) 1 1,
    -- 5441: tmp6 += ints.tmp334
    .add 325 (.cp 169) 1 1,
    -- 5442: tmp6 += ints.tmp119 * -1
    .add 325 (.cp 19) (-1) 1,
    -- 5443: tmp6 += ints.tmp248 * -2
    .add 325 (.cp 170) (-2) 1,
    -- 5444: tmp6 += ints.tmp262 * -1
    .add 325 (.cp 171) (-1) 1,
    -- 5445: tmp6 += ints.tmp277 * -1
    .add 325 (.cp 172) (-1) 1,
    -- 5446: tmp6 += ints.tmp292 * -2
    .add 325 (.cp 173) (-2) 1,
    -- 5447: tmp6 += ints.tmp299 * -1
    .add 325 (.cp 174) (-1) 1,
    -- 5448: tmp6 += np.transpose(ints.tmp317, (0, 2, 1, 3)) * -1
    .add 325 (.tr 175 [0, 2, 1, 3]) (-1) 1,
    -- 5449: tmp6 += ints.tmp325 * -1
    .add 325 (.cp 176) (-1) 1,
    -- 5450: tmp6 += np.transpose(v.bbbb.ooov, (0, 2, 1, 3)) * -1
    .add 325 (.tr 21 [0, 2, 1, 3]) (-1) 1,
    -- 5451: tmp5 = np.copy(ints.tmp124)
    .set 326 (.cp 67) 1 1,
    -- 5452: tmp5 += np.transpose(ints.tmp223, (0, 2, 1, 3))
    .add 326 (.tr 177 [0, 2, 1, 3]) 1 1,
    -- 5453: tmp5 += np.transpose(ints.tmp240, (0, 2, 1, 3))
    .add 326 (.tr 178 [0, 2, 1, 3]) 1 1,
    -- 5454: tmp5 += np.transpose(ints.tmp250, (0, 2, 1, 3))
    .add 326 (.tr 179 [0, 2, 1, 3]) 1 1,
    -- 5455: tmp5 += np.transpose(ints.tmp254, (0, 2, 1, 3)) * 2
    .add 326 (.tr 180 [0, 2, 1, 3]) 2 1,
    -- 5456: tmp5 += ints.tmp264
    .add 326 (.cp 181) 1 1,
    -- 5457: tmp5 += ints.tmp279
    .add 326 (.cp 182) 1 1,
    -- 5458: tmp5 += ints.tmp283
    .add 326 (.cp 183) 1 1,
    -- 5459: tmp5 += ints.tmp291
    .add 326 (.cp 184) 1 1,
    -- 5460: tmp5 += ints.tmp297 * 2
    .add 326 (.cp 185) 2 1,
    -- 5461: tmp5 += ints.tmp328
    .add 326 (.cp 186) 1 1,
    -- 5462: tmp5 += np.transpose(v.aabb.ovoo, (0, 2, 3, 1))
    .add 326 (.tr 68 [0, 2, 3, 1]) 1 1,
    -- 5463: tmp5 += np.transpose(ints.tmp232, (0, 2, 1, 3)) * -1
    .add 326 (.tr 187 [0, 2, 1, 3]) (-1) 1,
    -- 5464: tmp5 += ints.tmp247 * -1
    .add 326 (.cp 188) (-1) 1,
    -- 5465: tmp5 += ints.tmp253 * -1
    .add 326 (.cp 189) (-1) 1,
    -- 5466: tmp5 += ints.tmp275 * -1
    .add 326 (.cp 190) (-1) 1,
    -- 5467: tmp5 += ints.tmp294 * -1
    .add 326 (.cp 191) (-1) 1,
    -- 5468: tmp5 += ints.tmp301 * -1
    .add 326 (.cp 192) (-1) 1,
    -- 5469: tmp5 += ints.tmp309 * -1
    .add 326 (.cp 193) (-1) 1,
    -- 5470: tmp5 += ints.tmp319 * -1
    .add 326 (.cp 194) (-1) 1,
    -- 5471: tmp5 += np.transpose(ints.tmp320, (0, 2, 1, 3)) * -1
    .add 326 (.tr 195 [0, 2, 1, 3]) (-1) 1,
    -- 5472: tmp5 += ints.tmp336 * -1
    .add 326 (.cp 196) (-1) 1,
    -- 5473: tmp0 = np.copy(ints.tmp111)
    .set 327 (.cp 197) 1 1,
    -- 5474: tmp0 += ints.tmp115
    .add 327 (.cp 198) 1 1,
    -- 5475: tmp0 += ints.tmp129
    .add 327 (.cp 199) 1 1,
    -- 5476: tmp0 += ints.tmp135 * 2
    .add 327 (.cp 200) 2 1,
    -- 5477: tmp0 += np.transpose(ints.tmp17, (1, 0, 2, 3))
    .add 327 (.tr 201 [1, 0, 2, 3]) 1 1,
    -- 5478: tmp0 += ints.tmp197
    .add 327 (.cp 202) 1 1,
    -- 5479: tmp0 += ints.tmp45
    .add 327 (.cp 63) 1 1,
    -- 5480: tmp0 += np.transpose(ints.tmp46, (1, 0, 2, 3))
    .add 327 (.tr 203 [1, 0, 2, 3]) 1 1,
    -- 5481: tmp0 += np.transpose(ints.tmp64, (1, 0, 2, 3))
    .add 327 (.tr 204 [1, 0, 2, 3]) 1 1,
    -- 5482: tmp0 += np.transpose(ints.tmp68, (1, 0, 2, 3)) * 2
    .add 327 (.tr 205 [1, 0, 2, 3]) 2 1,
    -- 5483: tmp0 += ints.tmp80
    .add 327 (.cp 206) 1 1,
    -- 5484: tmp0 += v.aabb.ooov
    .add 327 (.cp 61) 1 1,
    -- 5485: tmp0 += ints.tmp107 * -1
    .add 327 (.cp 207) (-1) 1,
    -- 5486: tmp0 += ints.tmp132 * -1
    .add 327 (.cp 208) (-1) 1,
    -- 5487: tmp0 += ints.tmp137 * -1
    .add 327 (.cp 209) (-1) 1,
    -- 5488: tmp0 += ints.tmp152 * -1
    .add 327 (.cp 210) (-1) 1,
    -- 5489: tmp0 += ints.tmp175 * -1
    .add 327 (.cp 211) (-1) 1,
    -- 5490: tmp0 += np.transpose(ints.tmp177, (1, 0, 2, 3)) * -1
    .add 327 (.tr 212 [1, 0, 2, 3]) (-1) 1,
    -- 5491: tmp0 += ints.tmp215 * -1
    .add 327 (.cp 213) (-1) 1,
    -- 5492: tmp0 += np.transpose(ints.tmp30, (1, 0, 2, 3)) * -1
    .add 327 (.tr 214 [1, 0, 2, 3]) (-1) 1,
    -- 5493: tmp0 += ints.tmp61 * -1
    .add 327 (.cp 215) (-1) 1,
    -- 5494: tmp0 += ints.tmp65 * -1
    .add 327 (.cp 216) (-1) 1,
    -- 5495: tmp1 = np.copy(ints.tmp109)
    .set 328 (.cp 217) 1 1,
    -- 5496: tmp1 += ints.tmp113
    .add 328 (.cp 218) 1 1,
    -- 5497: tmp1 += ints.tmp130 * 2
    .add 328 (.cp 219) 2 1,
    -- 5498: tmp1 += ints.tmp149
    .add 328 (.cp 220) 1 1,
    -- 5499: tmp1 += np.transpose(ints.tmp15, (1, 2, 0, 3))
    .add 328 (.tr 221 [1, 2, 0, 3]) 1 1,
    -- 5500: tmp1 += ints.tmp170
    .add 328 (.cp 222) 1 1,
    -- 5501: tmp1 += ints.tmp212
    .add 328 (.cp 223) 1 1,
    -- 5502: tmp1 += np.transpose(ints.tmp28, (1, 2, 0, 3))
    .add 328 (.tr 224 [1, 2, 0, 3]) 1 1,
    -- 5503: tmp1 += np.transpose(ints.tmp43, (0, 2, 1, 3))
    .add 328 (.tr 225 [0, 2, 1, 3]) 1 1,
    -- 5504: tmp1 += np.transpose(ints.tmp62, (0, 2, 1, 3)) * 2
    .add 328 (.tr 226 [0, 2, 1, 3]) 2 1,
    -- 5505: tmp1 += np.transpose(ints.tmp66, (0, 2, 1, 3))
    .add 328 (.tr 227 [0, 2, 1, 3]) 1 1,
    -- 5506: tmp1 += ints.tmp105 * -1
    .add 328 (.cp 228) (-1) 1,
    -- 5507: tmp1 += ints.tmp127 * -2
    .add 328 (.cp 229) (-2) 1,
    -- 5508: tmp1 += ints.tmp133 * -1
    .add 328 (.cp 230) (-1) 1,
    -- 5509: tmp1 += np.transpose(ints.tmp172, (0, 2, 1, 3)) * -1
    .add 328 (.tr 231 [0, 2, 1, 3]) (-1) 1,
    -- 5510: tmp1 += ints.tmp194 * -1
    .add 328 (.cp 232) (-1) 1,
    -- 5511: tmp1 += ints.tmp41 * -1
    .add 328 (.cp 48) (-1) 1,
    -- 5512: tmp1 += ints.tmp59 * -2
    .add 328 (.cp 233) (-2) 1,
    -- 5513: tmp1 += ints.tmp78 * -1
    .add 328 (.cp 234) (-1) 1,
    -- 5514: tmp1 += np.transpose(v.aaaa.ooov, (0, 2, 1, 3)) * -1
    .add 328 (.tr 42 [0, 2, 1, 3]) (-1) 1,
    -- 5515: r2new.bbb = np.copy(tmp83) * -1
    .set 329 (.cp 300) (-1) 1,
    -- 5516: r2new.bbb += np.transpose(tmp83, (1, 0, 2))
    .add 329 (.tr 300 [1, 0, 2]) 1 1,
    -- 5517: del tmp83
    .del 300,
    -- 5518: r2new.bbb += tmp92
    .add 329 (.cp 298) 1 1,
    -- 5519: r2new.bbb += np.transpose(tmp92, (1, 0, 2)) * -1
    .add 329 (.tr 298 [1, 0, 2]) (-1) 1,
    -- 5520: del tmp92
    .del 298,
    -- 5521: r2new.bbb += einsum(r2.bbb, (0, 1, 2), tmp93, (0, 1, 3, 4), (3, 4, 2)) * 2
    .add 329 (.ein [(1, [0, 1, 2]), (297, [0, 1, 3, 4])] [3, 4, 2]) 2 1,
    -- 5522: del tmp93
    .del 297,
    -- 5523: r2new.bbb += einsum(tmp64, (0, 1), r2.bbb, (2, 3, 0), (2, 3, 1)) * -2
    .add 329 (.ein [(299, [0, 1]), (1, [2, 3, 0])] [2, 3, 1]) (-2) 1,
    -- 5524: r2new.bbb += einsum(tmp62, (0, 1), r1.b, (2,), (2, 0, 1))
    .add 329 (.ein [(240, [0, 1]), (57, [2])] [2, 0, 1]) 1 1,
    -- 5525: r2new.bbb += einsum(r1.b, (0,), tmp62, (1, 2), (1, 0, 2)) * -1
    .add 329 (.ein [(57, [0]), (240, [1, 2])] [1, 0, 2]) (-1) 1,
    -- 5526: r2new.bab = einsum(r2.bab, (0, 1, 2), tmp55, (0, 3, 4, 2), (3, 1, 4))
    .set 330 (.ein [(38, [0, 1, 2]), (304, [0, 3, 4, 2])] [3, 1, 4]) 1 1,
    -- 5527: del tmp55
    .del 304,
    -- 5528: r2new.bab += einsum(r2.aaa, (0, 1, 2), tmp56, (1, 3, 2, 4), (3, 0, 4)) * -2
    .add 330 (.ein [(43, [0, 1, 2]), (309, [1, 3, 2, 4])] [3, 0, 4]) (-2) 1,
    -- 5529: del tmp56
    .del 309,
    -- 5530: r2new.bab += einsum(tmp57, (0, 1, 2, 3), r2.bab, (4, 0, 2), (4, 1, 3)) * -1
    .add 330 (.ein [(307, [0, 1, 2, 3]), (38, [4, 0, 2])] [4, 1, 3]) (-1) 1,
    -- 5531: del tmp57
    .del 307,
    -- 5532: r2new.bab += einsum(tmp58, (0, 1, 2, 3), r2.bab, (2, 0, 4), (3, 1, 4))
    .add 330 (.ein [(301, [0, 1, 2, 3]), (38, [2, 0, 4])] [3, 1, 4]) 1 1,
    -- 5533: del tmp58
    .del 301,
    -- 5534: r2new.bab += einsum(tmp22, (0, 1, 2), tmp59, (1, 3, 2, 4), (3, 0, 4))
    .add 330 (.ein [(250, [0, 1, 2]), (306, [1, 3, 2, 4])] [3, 0, 4]) 1 1,
    -- 5535: del tmp59
    .del 306,
    -- 5536: r2new.bab += einsum(tmp60, (0, 1, 2, 3), tmp22, (0, 4, 2), (4, 1, 3)) * -1
    .add 330 (.ein [(308, [0, 1, 2, 3]), (250, [0, 4, 2])] [4, 1, 3]) (-1) 1,
    -- 5537: del tmp22, tmp60
    .del 250,
    .del 308,
    -- 5538: r2new.bab += einsum(tmp31, (0, 1, 2), tmp61, (0, 2, 3, 4), (3, 1, 4)) * -2
    .add 330 (.ein [(253, [0, 1, 2]), (303, [0, 2, 3, 4])] [3, 1, 4]) (-2) 1,
    -- 5539: del tmp31
    .del 253,
    -- 5540: r2new.bab += einsum(tmp64, (0, 1), r2.bab, (2, 3, 0), (2, 3, 1)) * -1
    .add 330 (.ein [(299, [0, 1]), (38, [2, 3, 0])] [2, 3, 1]) (-1) 1,
    -- 5541: del tmp64
    .del 299,
    -- 5542: r2new.bab += einsum(tmp65, (0, 1), r2.bab, (0, 2, 3), (1, 2, 3)) * -1
    .add 330 (.ein [(310, [0, 1]), (38, [0, 2, 3])] [1, 2, 3]) (-1) 1,
    -- 5543: del tmp65
    .del 310,
    -- 5544: r2new.bab += einsum(tmp4, (0, 1), r2.bab, (2, 0, 3), (2, 1, 3)) * -1
    .add 330 (.ein [(302, [0, 1]), (38, [2, 0, 3])] [2, 1, 3]) (-1) 1,
    -- 5545: r2new.bab += einsum(v.aabb.ovov, (0, 1, 2, 3), tmp66, (1,), (2, 0, 3)) * 2
    .add 330 (.ein [(64, [0, 1, 2, 3]), (305, [1])] [2, 0, 3]) 2 1,
    -- 5546: del tmp66
    .del 305,
    -- 5547: r2new.bab += einsum(r1.a, (0,), tmp61, (0, 1, 2, 3), (2, 1, 3))
    .add 330 (.ein [(69, [0]), (303, [0, 1, 2, 3])] [2, 1, 3]) 1 1,
    -- 5548: del tmp61
    .del 303,
    -- 5549: r2new.bab += einsum(r1.a, (0,), tmp62, (1, 2), (1, 0, 2)) * -1
    .add 330 (.ein [(69, [0]), (240, [1, 2])] [1, 0, 2]) (-1) 1,
    -- 5550: del tmp62
    .del 240,
    -- 5551: r2new.aba = einsum(tmp43, (0, 1, 2, 3), r2.aba, (0, 4, 3), (1, 4, 2))
    .set 331 (.ein [(314, [0, 1, 2, 3]), (2, [0, 4, 3])] [1, 4, 2]) 1 1,
    -- 5552: del tmp43
    .del 314,
    -- 5553: r2new.aba += einsum(tmp44, (0, 1, 2, 3), r2.bbb, (4, 1, 3), (0, 4, 2)) * -2
    .add 331 (.ein [(317, [0, 1, 2, 3]), (1, [4, 1, 3])] [0, 4, 2]) (-2) 1,
    -- 5554: del tmp44
    .del 317,
    -- 5555: r2new.aba += einsum(tmp45, (0, 1, 2, 3), r2.aba, (4, 0, 2), (4, 1, 3)) * -1
    .add 331 (.ein [(315, [0, 1, 2, 3]), (2, [4, 0, 2])] [4, 1, 3]) (-1) 1,
    -- 5556: del tmp45
    .del 315,
    -- 5557: r2new.aba += einsum(tmp46, (0, 1, 2, 3), r2.aba, (0, 2, 4), (1, 3, 4))
    .add 331 (.ein [(312, [0, 1, 2, 3]), (2, [0, 2, 4])] [1, 3, 4]) 1 1,
    -- 5558: del tmp46
    .del 312,
    -- 5559: r2new.aba += einsum(tmp47, (0, 1, 2), tmp48, (0, 1, 3, 4), (3, 2, 4)) * -1
    .add 331 (.ein [(244, [0, 1, 2]), (318, [0, 1, 3, 4])] [3, 2, 4]) (-1) 1,
    -- 5560: del tmp48
    .del 318,
    -- 5561: r2new.aba += einsum(tmp50, (0, 1, 2, 3), tmp49, (1, 4, 2), (0, 4, 3)) * -2
    .add 331 (.ein [(316, [0, 1, 2, 3]), (242, [1, 4, 2])] [0, 4, 3]) (-2) 1,
    -- 5562: del tmp49
    .del 242,
    -- 5563: r2new.aba += einsum(tmp50, (0, 1, 2, 3), tmp47, (4, 0, 1), (4, 2, 3))
    .add 331 (.ein [(316, [0, 1, 2, 3]), (244, [4, 0, 1])] [4, 2, 3]) 1 1,
    -- 5564: del tmp47
    .del 244,
    -- 5565: r2new.aba += einsum(r2.aba, (0, 1, 2), tmp42, (2, 3), (0, 1, 3)) * -1
    .add 331 (.ein [(2, [0, 1, 2]), (313, [2, 3])] [0, 1, 3]) (-1) 1,
    -- 5566: r2new.aba += einsum(tmp7, (0, 1), r2.aba, (2, 0, 3), (2, 1, 3)) * -1
    .add 331 (.ein [(319, [0, 1]), (2, [2, 0, 3])] [2, 1, 3]) (-1) 1,
    -- 5567: r2new.aba += einsum(tmp51, (0, 1), r2.aba, (0, 2, 3), (1, 2, 3)) * -1
    .add 331 (.ein [(311, [0, 1]), (2, [0, 2, 3])] [1, 2, 3]) (-1) 1,
    -- 5568: del tmp51
    .del 311,
    -- 5569: r2new.aba += einsum(tmp54, (0,), v.aabb.ovov, (1, 2, 3, 0), (1, 3, 2)) * 2
    .add 331 (.ein [(246, [0]), (64, [1, 2, 3, 0])] [1, 3, 2]) 2 1,
    -- 5570: del tmp54
    .del 246,
    -- 5571: r2new.aba += einsum(r1.b, (0,), tmp50, (1, 0, 2, 3), (1, 2, 3))
    .add 331 (.ein [(57, [0]), (316, [1, 0, 2, 3])] [1, 2, 3]) 1 1,
    -- 5572: del tmp50
    .del 316,
    -- 5573: r2new.aba += einsum(tmp40, (0, 1), r1.b, (2,), (0, 2, 1)) * -1
    .add 331 (.ein [(248, [0, 1]), (57, [2])] [0, 2, 1]) (-1) 1,
    -- 5574: r2new.aaa = np.copy(tmp18)
    .set 332 (.cp 322) 1 1,
    -- 5575: r2new.aaa += np.transpose(tmp18, (1, 0, 2)) * -1
    .add 332 (.tr 322 [1, 0, 2]) (-1) 1,
    -- 5576: del tmp18
    .del 322,
    -- 5577: r2new.aaa += tmp38 * -1
    .add 332 (.cp 321) (-1) 1,
    -- 5578: r2new.aaa += np.transpose(tmp38, (1, 0, 2))
    .add 332 (.tr 321 [1, 0, 2]) 1 1,
    -- 5579: del tmp38
    .del 321,
    -- 5580: r2new.aaa += einsum(tmp39, (0, 1, 2, 3), r2.aaa, (1, 0, 4), (2, 3, 4)) * -2
    .add 332 (.ein [(320, [0, 1, 2, 3]), (43, [1, 0, 4])] [2, 3, 4]) (-2) 1,
    -- 5581: del tmp39
    .del 320,
    -- 5582: r2new.aaa += einsum(r2.aaa, (0, 1, 2), tmp42, (2, 3), (0, 1, 3)) * -2
    .add 332 (.ein [(43, [0, 1, 2]), (313, [2, 3])] [0, 1, 3]) (-2) 1,
    -- 5583: del tmp42
    .del 313,
    -- 5584: r2new.aaa += einsum(r1.a, (0,), tmp40, (1, 2), (0, 1, 2))
    .add 332 (.ein [(69, [0]), (248, [1, 2])] [0, 1, 2]) 1 1,
    -- 5585: r2new.aaa += einsum(r1.a, (0,), tmp40, (1, 2), (1, 0, 2)) * -1
    .add 332 (.ein [(69, [0]), (248, [1, 2])] [1, 0, 2]) (-1) 1,
    -- 5586: del tmp40
    .del 248,
    -- 5587: r1new.b = einsum(tmp5, (0, 1, 2, 3), r2.aba, (0, 1, 3), (2,))
    .set 333 (.ein [(326, [0, 1, 2, 3]), (2, [0, 1, 3])] [2]) 1 1,
    -- 5588: del tmp5
    .del 326,
    -- 5589: r1new.b += einsum(r2.bbb, (0, 1, 2), tmp6, (1, 0, 3, 2), (3,)) * -2
    .add 333 (.ein [(1, [0, 1, 2]), (325, [1, 0, 3, 2])] [3]) (-2) 1,
    -- 5590: del tmp6
    .del 325,
    -- 5591: r1new.b += einsum(tmp3, (0, 1), r2.aba, (0, 2, 1), (2,)) * 2
    .add 333 (.ein [(324, [0, 1]), (2, [0, 2, 1])] [2]) 2 1,
    -- 5592: r1new.b += einsum(tmp2, (0, 1), r2.bbb, (2, 0, 1), (2,)) * -4
    .add 333 (.ein [(323, [0, 1]), (1, [2, 0, 1])] [2]) (-4) 1,
    -- 5593: r1new.b += einsum(r1.b, (0,), tmp7, (0, 1), (1,)) * -1
    .add 333 (.ein [(57, [0]), (319, [0, 1])] [1]) (-1) 1,
    -- 5594: del tmp7
    .del 319,
    -- 5595: r1new.a = einsum(r2.bab, (0, 1, 2), tmp0, (1, 3, 0, 2), (3,))
    .set 334 (.ein [(38, [0, 1, 2]), (327, [1, 3, 0, 2])] [3]) 1 1,
    -- 5596: del tmp0
    .del 327,
    -- 5597: r1new.a += einsum(tmp1, (0, 1, 2, 3), r2.aaa, (1, 0, 3), (2,)) * -2
    .add 334 (.ein [(328, [0, 1, 2, 3]), (43, [1, 0, 3])] [2]) (-2) 1,
    -- 5598: del tmp1
    .del 328,
    -- 5599: r1new.a += einsum(r2.bab, (0, 1, 2), tmp2, (0, 2), (1,)) * 2
    .add 334 (.ein [(38, [0, 1, 2]), (323, [0, 2])] [1]) 2 1,
    -- 5600: del tmp2
    .del 323,
    -- 5601: r1new.a += einsum(tmp3, (0, 1), r2.aaa, (2, 0, 1), (2,)) * -4
    .add 334 (.ein [(324, [0, 1]), (43, [2, 0, 1])] [2]) (-4) 1,
    -- 5602: del tmp3
    .del 324,
    -- 5603: r1new.a += einsum(r1.a, (0,), tmp4, (0, 1), (1,)) * -1
    .add 334 (.ein [(69, [0]), (302, [0, 1])] [1]) (-1) 1,
    -- 5604: del tmp4
    .del 302
  ]
  ret := [(chars! "r1new.b", 333), (chars! "r1new.a", 334), (chars! "r2new.bbb", 329), (chars! "r2new.bab", 330), (chars! "r2new.aba", 331), (chars! "r2new.aaa", 332)]

/-- codegen/UCCSD.py:3664-3972 `hbar_matvec_ea_intermediates`. -/
def hbar_matvec_ea_intermediates : GenFun where
  args := [chars! "v.aabb.ovov", chars! "t1.aa", chars! "v.bbbb.ovov", chars! "t1.bb", chars! "v.aaaa.ovov", chars! "v.aabb.ovoo", chars! "v.bbbb.ooov", chars! "t2.abab", chars! "t2.bbbb", chars! "f.bb.ov", chars! "v.aabb.ovvv", chars! "v.bbbb.ovvv", chars! "v.aabb.vvov", chars! "v.aaaa.ovvv", chars! "t2.aaaa", chars! "f.aa.ov", chars! "v.aabb.ooov", chars! "v.aaaa.ooov", chars! "v.bbbb.vvvv", chars! "f.bb.oo", chars! "v.aabb.vvvv", chars! "f.bb.vv", chars! "v.bbbb.oovv", chars! "v.aaaa.vvvv", chars! "f.aa.vv", chars! "v.aaaa.oovv", chars! "f.aa.oo"]
  body := [
    -- 3827: tmp15 = einsum(v.aabb.ovov, (0, 1, 2, 3), t1.aa, (0, 1), (2, 3))
    .set 27 (.ein [(0, [0, 1, 2, 3]), (1, [0, 1])] [2, 3]) 1 1,
    -- 3828: tmp12 = einsum(v.bbbb.ovov, (0, 1, 2, 3), t1.bb, (2, 3), (0, 1))
    .set 28 (.ein [(2, [0, 1, 2, 3]), (3, [2, 3])] [0, 1]) 1 1,
    -- 3829: tmp11 = einsum(v.bbbb.ovov, (0, 1, 2, 3), t1.bb, (2, 1), (0, 3))
    .set 29 (.ein [(2, [0, 1, 2, 3]), (3, [2, 1])] [0, 3]) 1 1,
    -- 3830: tmp13 = einsum(v.aabb.ovov, (0, 1, 2, 3), t1.bb, (2, 3), (0, 1))
    .set 30 (.ein [(0, [0, 1, 2, 3]), (3, [2, 3])] [0, 1]) 1 1,
    -- 3831: tmp9 = einsum(t1.aa, (0, 1), v.aaaa.ovov, (2, 3, 0, 1), (2, 3))
    .set 31 (.ein [(1, [0, 1]), (4, [2, 3, 0, 1])] [2, 3]) 1 1,
    -- 3832: tmp7 = einsum(t1.aa, (0, 1), v.aaaa.ovov, (2, 1, 0, 3), (2, 3))
    .set 32 (.ein [(1, [0, 1]), (4, [2, 1, 0, 3])] [2, 3]) 1 1,
    -- 3833: tmp315 = einsum(v.bbbb.ovov, (0, 1, 2, 3), t1.bb, (4, 3), (4, 0, 2, 1))
    .set 33 (.ein [(2, [0, 1, 2, 3]), (3, [4, 3])] [4, 0, 2, 1]) 1 1,
    -- 3834: tmp274 = einsum(v.aabb.ovoo, (0, 1, 2, 3), t1.aa, (0, 1), (2, 3))
    .set 34 (.ein [(5, [0, 1, 2, 3]), (1, [0, 1])] [2, 3]) 1 1,
    -- 3835: tmp273 = einsum(t1.bb, (0, 1), v.bbbb.ooov, (2, 3, 0, 1), (2, 3))
    .set 35 (.ein [(3, [0, 1]), (6, [2, 3, 0, 1])] [2, 3]) 1 1,
    -- 3836: tmp272 = einsum(t1.bb, (0, 1), v.bbbb.ooov, (2, 0, 3, 1), (2, 3))
    .set 36 (.ein [(3, [0, 1]), (6, [2, 0, 3, 1])] [2, 3]) 1 1,
    -- 3837: tmp309 = einsum(tmp15, (0, 1), t1.bb, (2, 1), (2, 0))
    .set 37 (.ein [(27, [0, 1]), (3, [2, 1])] [2, 0]) 1 1,
    -- 3838: tmp308 = einsum(tmp12, (0, 1), t1.bb, (2, 1), (2, 0))
    .set 38 (.ein [(28, [0, 1]), (3, [2, 1])] [2, 0]) 1 1,
    -- 3839: tmp307 = einsum(t1.bb, (0, 1), tmp11, (2, 1), (0, 2))
    .set 39 (.ein [(3, [0, 1]), (29, [2, 1])] [0, 2]) 1 1,
    -- 3840: tmp298 = einsum(v.aabb.ovov, (0, 1, 2, 3), t2.abab, (0, 4, 1, 3), (4, 2))
    .set 40 (.ein [(0, [0, 1, 2, 3]), (7, [0, 4, 1, 3])] [4, 2]) 1 1,
    -- 3841: tmp296 = einsum(t2.bbbb, (0, 1, 2, 3), v.bbbb.ovov, (4, 3, 1, 2), (0, 4)) * -1
    .set 41 (.ein [(8, [0, 1, 2, 3]), (2, [4, 3, 1, 2])] [0, 4]) (-1) 1,
    -- 3842: tmp300 = einsum(t1.bb, (0, 1), v.aabb.ovov, (2, 3, 4, 1), (2, 0, 4, 3))
    .set 42 (.ein [(3, [0, 1]), (0, [2, 3, 4, 1])] [2, 0, 4, 3]) 1 1,
    -- 3843: tmp287 = einsum(t1.bb, (0, 1), f.bb.ov, (2, 1), (2, 0))
    .set 43 (.ein [(3, [0, 1]), (9, [2, 1])] [2, 0]) 1 1,
    -- 3844: tmp33 = einsum(v.aabb.ovvv, (0, 1, 2, 3), t1.aa, (0, 1), (2, 3))
    .set 44 (.ein [(10, [0, 1, 2, 3]), (1, [0, 1])] [2, 3]) 1 1,
    -- 3845: tmp32 = einsum(v.bbbb.ovvv, (0, 1, 2, 3), t1.bb, (0, 3), (1, 2))
    .set 45 (.ein [(11, [0, 1, 2, 3]), (3, [0, 3])] [1, 2]) 1 1,
    -- 3846: tmp31 = einsum(v.bbbb.ovvv, (0, 1, 2, 3), t1.bb, (0, 1), (2, 3))
    .set 46 (.ein [(11, [0, 1, 2, 3]), (3, [0, 1])] [2, 3]) 1 1,
    -- 3847: tmp160 = einsum(t1.aa, (0, 1), v.aabb.ovov, (2, 1, 3, 4), (0, 2, 3, 4))
    .set 47 (.ein [(1, [0, 1]), (0, [2, 1, 3, 4])] [0, 2, 3, 4]) 1 1,
    -- 3848: tmp177 = einsum(t1.aa, (0, 1), tmp13, (2, 1), (0, 2))
    .set 48 (.ein [(1, [0, 1]), (30, [2, 1])] [0, 2]) 1 1,
    -- 3849: tmp175 = einsum(tmp9, (0, 1), t1.aa, (2, 1), (2, 0))
    .set 49 (.ein [(31, [0, 1]), (1, [2, 1])] [2, 0]) 1 1,
    -- 3850: tmp173 = einsum(tmp7, (0, 1), t1.aa, (2, 1), (2, 0))
    .set 50 (.ein [(32, [0, 1]), (1, [2, 1])] [2, 0]) 1 1,
    -- 3851: tmp6 = einsum(v.aabb.vvov, (0, 1, 2, 3), t1.bb, (2, 3), (0, 1))
    .set 51 (.ein [(12, [0, 1, 2, 3]), (3, [2, 3])] [0, 1]) 1 1,
    -- 3852: tmp5 = einsum(v.aaaa.ovvv, (0, 1, 2, 3), t1.aa, (0, 3), (1, 2))
    .set 52 (.ein [(13, [0, 1, 2, 3]), (1, [0, 3])] [1, 2]) 1 1,
    -- 3853: tmp4 = einsum(v.aaaa.ovvv, (0, 1, 2, 3), t1.aa, (0, 1), (2, 3))
    .set 53 (.ein [(13, [0, 1, 2, 3]), (1, [0, 1])] [2, 3]) 1 1,
    -- 3854: tmp156 = einsum(v.aabb.ovov, (0, 1, 2, 3), t2.abab, (4, 2, 1, 3), (4, 0))
    .set 54 (.ein [(0, [0, 1, 2, 3]), (7, [4, 2, 1, 3])] [4, 0]) 1 1,
    -- 3855: tmp154 = einsum(v.aaaa.ovov, (0, 1, 2, 3), t2.aaaa, (4, 2, 3, 1), (4, 0)) * -1
    .set 55 (.ein [(4, [0, 1, 2, 3]), (14, [4, 2, 3, 1])] [4, 0]) (-1) 1,
    -- 3856: tmp158 = einsum(v.aaaa.ovov, (0, 1, 2, 3), t1.aa, (4, 3), (4, 0, 2, 1))
    .set 56 (.ein [(4, [0, 1, 2, 3]), (1, [4, 3])] [4, 0, 2, 1]) 1 1,
    -- 3857: tmp137 = einsum(t1.aa, (0, 1), f.aa.ov, (2, 1), (2, 0))
    .set 57 (.ein [(1, [0, 1]), (15, [2, 1])] [2, 0]) 1 1,
    -- 3858: tmp108 = einsum(t1.bb, (0, 1), v.aabb.ooov, (2, 3, 0, 1), (2, 3))
    .set 58 (.ein [(3, [0, 1]), (16, [2, 3, 0, 1])] [2, 3]) 1 1,
    -- 3859: tmp106 = einsum(v.aaaa.ooov, (0, 1, 2, 3), t1.aa, (2, 3), (0, 1))
    .set 59 (.ein [(17, [0, 1, 2, 3]), (1, [2, 3])] [0, 1]) 1 1,
    -- 3860: tmp104 = einsum(t1.aa, (0, 1), v.aaaa.ooov, (2, 0, 3, 1), (2, 3))
    .set 60 (.ein [(1, [0, 1]), (17, [2, 0, 3, 1])] [2, 3]) 1 1,
    -- 3861: tmp450 = einsum(t2.bbbb, (0, 1, 2, 3), tmp315, (4, 0, 1, 5), (4, 2, 3, 5))
    .set 61 (.ein [(8, [0, 1, 2, 3]), (33, [4, 0, 1, 5])] [4, 2, 3, 5]) 1 1,
    -- 3862: tmp440 = einsum(v.bbbb.vvvv, (0, 1, 2, 3), t1.bb, (4, 3), (4, 0, 1, 2))
    .set 62 (.ein [(18, [0, 1, 2, 3]), (3, [4, 3])] [4, 0, 1, 2]) 1 1,
    -- 3863: tmp423 = einsum(t2.bbbb, (0, 1, 2, 3), v.bbbb.ooov, (4, 0, 1, 5), (4, 2, 3, 5))
    .set 63 (.ein [(8, [0, 1, 2, 3]), (6, [4, 0, 1, 5])] [4, 2, 3, 5]) 1 1,
    -- 3864: tmp387 = einsum(v.aabb.ovvv, (0, 1, 2, 3), t2.abab, (0, 4, 1, 5), (4, 5, 2, 3))
    .set 64 (.ein [(10, [0, 1, 2, 3]), (7, [0, 4, 1, 5])] [4, 5, 2, 3]) 1 1,
    -- 3865: tmp385 = einsum(t2.bbbb, (0, 1, 2, 3), v.bbbb.ovvv, (1, 4, 5, 3), (0, 2, 4, 5))
    .set 65 (.ein [(8, [0, 1, 2, 3]), (11, [1, 4, 5, 3])] [0, 2, 4, 5]) 1 1,
    -- 3866: tmp383 = einsum(t2.bbbb, (0, 1, 2, 3), v.bbbb.ovvv, (1, 3, 4, 5), (0, 2, 4, 5))
    .set 66 (.ein [(8, [0, 1, 2, 3]), (11, [1, 3, 4, 5])] [0, 2, 4, 5]) 1 1,
    -- 3867: tmp366 = einsum(tmp15, (0, 1), t2.bbbb, (2, 0, 3, 1), (2, 3))
    .set 67 (.ein [(27, [0, 1]), (8, [2, 0, 3, 1])] [2, 3]) 1 1,
    -- 3868: tmp365 = einsum(tmp13, (0, 1), t2.abab, (0, 2, 1, 3), (2, 3))
    .set 68 (.ein [(30, [0, 1]), (7, [0, 2, 1, 3])] [2, 3]) 1 1,
    -- 3869: tmp364 = einsum(tmp12, (0, 1), t2.bbbb, (2, 0, 3, 1), (2, 3))
    .set 69 (.ein [(28, [0, 1]), (8, [2, 0, 3, 1])] [2, 3]) 1 1,
    -- 3870: tmp363 = einsum(tmp11, (0, 1), t2.bbbb, (2, 0, 3, 1), (2, 3))
    .set 70 (.ein [(29, [0, 1]), (8, [2, 0, 3, 1])] [2, 3]) 1 1,
    -- 3871: tmp362 = einsum(tmp9, (0, 1), t2.abab, (0, 2, 1, 3), (2, 3))
    .set 71 (.ein [(31, [0, 1]), (7, [0, 2, 1, 3])] [2, 3]) 1 1,
    -- 3872: tmp361 = einsum(tmp7, (0, 1), t2.abab, (0, 2, 1, 3), (2, 3))
    .set 72 (.ein [(32, [0, 1]), (7, [0, 2, 1, 3])] [2, 3]) 1 1,
    -- 3873: tmp360 = einsum(v.aabb.ovov, (0, 1, 2, 3), t2.abab, (0, 4, 1, 5), (4, 2, 5, 3))
    .set 73 (.ein [(0, [0, 1, 2, 3]), (7, [0, 4, 1, 5])] [4, 2, 5, 3]) 1 1,
    -- 3874: tmp358 = einsum(v.aabb.ovov, (0, 1, 2, 3), t2.bbbb, (4, 2, 5, 3), (0, 4, 1, 5))
    .set 74 (.ein [(0, [0, 1, 2, 3]), (8, [4, 2, 5, 3])] [0, 4, 1, 5]) 1 1,
    -- 3875: tmp356 = einsum(t2.bbbb, (0, 1, 2, 3), v.bbbb.ovov, (4, 5, 1, 3), (0, 4, 2, 5))
    .set 75 (.ein [(8, [0, 1, 2, 3]), (2, [4, 5, 1, 3])] [0, 4, 2, 5]) 1 1,
    -- 3876: tmp354 = einsum(t2.bbbb, (0, 1, 2, 3), v.bbbb.ovov, (4, 3, 1, 5), (0, 4, 2, 5))
    .set 76 (.ein [(8, [0, 1, 2, 3]), (2, [4, 3, 1, 5])] [0, 4, 2, 5]) 1 1,
    -- 3877: tmp352 = einsum(v.aaaa.ovov, (0, 1, 2, 3), t2.abab, (2, 4, 3, 5), (0, 4, 1, 5))
    .set 77 (.ein [(4, [0, 1, 2, 3]), (7, [2, 4, 3, 5])] [0, 4, 1, 5]) 1 1,
    -- 3878: tmp350 = einsum(v.aaaa.ovov, (0, 1, 2, 3), t2.abab, (2, 4, 1, 5), (0, 4, 3, 5))
    .set 78 (.ein [(4, [0, 1, 2, 3]), (7, [2, 4, 1, 5])] [0, 4, 3, 5]) 1 1,
    -- 3879: tmp346 = einsum(v.aabb.vvov, (0, 1, 2, 3), t2.bbbb, (4, 2, 5, 3), (4, 0, 1, 5))
    .set 79 (.ein [(12, [0, 1, 2, 3]), (8, [4, 2, 5, 3])] [4, 0, 1, 5]) 1 1,
    -- 3880: tmp345 = einsum(t2.abab, (0, 1, 2, 3), v.aaaa.ovvv, (0, 4, 5, 2), (1, 4, 5, 3))
    .set 80 (.ein [(7, [0, 1, 2, 3]), (13, [0, 4, 5, 2])] [1, 4, 5, 3]) 1 1,
    -- 3881: tmp344 = einsum(t2.abab, (0, 1, 2, 3), v.aaaa.ovvv, (0, 2, 4, 5), (1, 4, 5, 3))
    .set 81 (.ein [(7, [0, 1, 2, 3]), (13, [0, 2, 4, 5])] [1, 4, 5, 3]) 1 1,
    -- 3882: tmp341 = einsum(f.bb.ov, (0, 1), t2.bbbb, (2, 0, 3, 1), (2, 3))
    .set 82 (.ein [(9, [0, 1]), (8, [2, 0, 3, 1])] [2, 3]) 1 1,
    -- 3883: tmp340 = einsum(f.aa.ov, (0, 1), t2.abab, (0, 2, 1, 3), (2, 3))
    .set 83 (.ein [(15, [0, 1]), (7, [0, 2, 1, 3])] [2, 3]) 1 1,
    -- 3884: tmp338 = einsum(t1.bb, (0, 1), tmp274, (2, 0), (2, 1))
    .set 84 (.ein [(3, [0, 1]), (34, [2, 0])] [2, 1]) 1 1,
    -- 3885: tmp337 = einsum(t1.bb, (0, 1), tmp273, (2, 0), (2, 1))
    .set 85 (.ein [(3, [0, 1]), (35, [2, 0])] [2, 1]) 1 1,
    -- 3886: tmp336 = einsum(t1.bb, (0, 1), tmp272, (2, 0), (2, 1))
    .set 86 (.ein [(3, [0, 1]), (36, [2, 0])] [2, 1]) 1 1,
    -- 3887: tmp335 = einsum(v.aabb.ovoo, (0, 1, 2, 3), t2.abab, (0, 3, 1, 4), (2, 4))
    .set 87 (.ein [(5, [0, 1, 2, 3]), (7, [0, 3, 1, 4])] [2, 4]) 1 1,
    -- 3888: tmp334 = einsum(t2.bbbb, (0, 1, 2, 3), v.bbbb.ooov, (4, 0, 1, 3), (4, 2))
    .set 88 (.ein [(8, [0, 1, 2, 3]), (6, [4, 0, 1, 3])] [4, 2]) 1 1,
    -- 3889: tmp328 = einsum(t1.bb, (0, 1), f.bb.oo, (2, 0), (2, 1))
    .set 89 (.ein [(3, [0, 1]), (19, [2, 0])] [2, 1]) 1 1,
    -- 3890: tmp327 = einsum(t1.bb, (0, 1), tmp309, (2, 0), (2, 1))
    .set 90 (.ein [(3, [0, 1]), (37, [2, 0])] [2, 1]) 1 1,
    -- 3891: tmp326 = einsum(t1.bb, (0, 1), tmp308, (2, 0), (2, 1))
    .set 91 (.ein [(3, [0, 1]), (38, [2, 0])] [2, 1]) 1 1,
    -- 3892: tmp325 = einsum(t1.bb, (0, 1), tmp307, (2, 0), (2, 1))
    .set 92 (.ein [(3, [0, 1]), (39, [2, 0])] [2, 1]) 1 1,
    -- 3893: tmp319 = einsum(t1.bb, (0, 1), tmp298, (2, 0), (2, 1))
    .set 93 (.ein [(3, [0, 1]), (40, [2, 0])] [2, 1]) 1 1,
    -- 3894: tmp318 = einsum(t1.bb, (0, 1), tmp296, (2, 0), (2, 1))
    .set 94 (.ein [(3, [0, 1]), (41, [2, 0])] [2, 1]) 1 1,
    -- 3895: tmp317 = einsum(tmp300, (0, 1, 2, 3), t2.abab, (0, 2, 3, 4), (1, 4))
    .set 95 (.ein [(42, [0, 1, 2, 3]), (7, [0, 2, 3, 4])] [1, 4]) 1 1,
    -- 3896: tmp316 = einsum(t2.bbbb, (0, 1, 2, 3), tmp315, (4, 1, 0, 3), (4, 2))
    .set 96 (.ein [(8, [0, 1, 2, 3]), (33, [4, 1, 0, 3])] [4, 2]) 1 1,
    -- 3897: tmp314 = einsum(v.aabb.vvov, (0, 1, 2, 3), t1.bb, (4, 3), (4, 2, 0, 1))
    .set 97 (.ein [(12, [0, 1, 2, 3]), (3, [4, 3])] [4, 2, 0, 1]) 1 1,
    -- 3898: tmp313 = einsum(t1.bb, (0, 1), tmp287, (0, 2), (2, 1))
    .set 98 (.ein [(3, [0, 1]), (43, [0, 2])] [2, 1]) 1 1,
    -- 3899: tmp305 = einsum(tmp33, (0, 1), t1.bb, (2, 1), (2, 0))
    .set 99 (.ein [(44, [0, 1]), (3, [2, 1])] [2, 0]) 1 1,
    -- 3900: tmp304 = einsum(t1.bb, (0, 1), tmp32, (1, 2), (0, 2))
    .set 100 (.ein [(3, [0, 1]), (45, [1, 2])] [0, 2]) 1 1,
    -- 3901: tmp303 = einsum(t1.bb, (0, 1), tmp31, (2, 1), (0, 2))
    .set 101 (.ein [(3, [0, 1]), (46, [2, 1])] [0, 2]) 1 1,
    -- 3902: tmp301 = einsum(tmp300, (0, 1, 2, 3), t2.abab, (0, 2, 4, 5), (1, 4, 3, 5))
    .set 102 (.ein [(42, [0, 1, 2, 3]), (7, [0, 2, 4, 5])] [1, 4, 3, 5]) 1 1,
    -- 3903: tmp295 = einsum(v.aabb.ovvv, (0, 1, 2, 3), t2.abab, (0, 4, 1, 3), (4, 2))
    .set 103 (.ein [(10, [0, 1, 2, 3]), (7, [0, 4, 1, 3])] [4, 2]) 1 1,
    -- 3904: tmp294 = einsum(v.bbbb.ovvv, (0, 1, 2, 3), t2.bbbb, (4, 0, 3, 1), (4, 2)) * -1
    .set 104 (.ein [(11, [0, 1, 2, 3]), (8, [4, 0, 3, 1])] [4, 2]) (-1) 1,
    -- 3905: tmp292 = einsum(v.aabb.ovvv, (0, 1, 2, 3), t1.bb, (4, 3), (0, 4, 1, 2))
    .set 105 (.ein [(10, [0, 1, 2, 3]), (3, [4, 3])] [0, 4, 1, 2]) 1 1,
    -- 3906: tmp291 = einsum(t1.bb, (0, 1), v.bbbb.ovvv, (2, 3, 4, 1), (0, 2, 3, 4))
    .set 106 (.ein [(3, [0, 1]), (11, [2, 3, 4, 1])] [0, 2, 3, 4]) 1 1,
    -- 3907: tmp290 = einsum(t1.bb, (0, 1), v.bbbb.ovvv, (2, 1, 3, 4), (0, 2, 3, 4))
    .set 107 (.ein [(3, [0, 1]), (11, [2, 1, 3, 4])] [0, 2, 3, 4]) 1 1,
    -- 3908: tmp289 = einsum(t1.bb, (0, 1), v.aabb.vvvv, (2, 3, 4, 1), (0, 2, 3, 4))
    .set 108 (.ein [(3, [0, 1]), (20, [2, 3, 4, 1])] [0, 2, 3, 4]) 1 1,
    -- 3909: tmp286 = einsum(t1.bb, (0, 1), f.bb.vv, (2, 1), (0, 2))
    .set 109 (.ein [(3, [0, 1]), (21, [2, 1])] [0, 2]) 1 1,
    -- 3910: tmp276 = einsum(v.aabb.ovoo, (0, 1, 2, 3), t2.abab, (0, 3, 4, 5), (2, 4, 1, 5))
    .set 110 (.ein [(5, [0, 1, 2, 3]), (7, [0, 3, 4, 5])] [2, 4, 1, 5]) 1 1,
    -- 3911: tmp271 = einsum(v.bbbb.oovv, (0, 1, 2, 3), t1.bb, (1, 3), (0, 2))
    .set 111 (.ein [(22, [0, 1, 2, 3]), (3, [1, 3])] [0, 2]) 1 1,
    -- 3912: tmp266 = einsum(v.aabb.ovov, (0, 1, 2, 3), t2.abab, (0, 4, 5, 3), (4, 2, 5, 1))
    .set 112 (.ein [(0, [0, 1, 2, 3]), (7, [0, 4, 5, 3])] [4, 2, 5, 1]) 1 1,
    -- 3913: tmp263 = einsum(v.aabb.ovvv, (0, 1, 2, 3), t2.abab, (0, 4, 5, 3), (4, 5, 1, 2))
    .set 113 (.ein [(10, [0, 1, 2, 3]), (7, [0, 4, 5, 3])] [4, 5, 1, 2]) 1 1,
    -- 3914: tmp242 = einsum(v.aabb.ovvv, (0, 1, 2, 3), t2.aaaa, (4, 0, 5, 1), (4, 5, 2, 3))
    .set 114 (.ein [(10, [0, 1, 2, 3]), (14, [4, 0, 5, 1])] [4, 5, 2, 3]) 1 1,
    -- 3915: tmp241 = einsum(t2.abab, (0, 1, 2, 3), v.bbbb.ovvv, (1, 4, 5, 3), (0, 2, 4, 5))
    .set 115 (.ein [(7, [0, 1, 2, 3]), (11, [1, 4, 5, 3])] [0, 2, 4, 5]) 1 1,
    -- 3916: tmp240 = einsum(t2.abab, (0, 1, 2, 3), v.bbbb.ovvv, (1, 3, 4, 5), (0, 2, 4, 5))
    .set 116 (.ein [(7, [0, 1, 2, 3]), (11, [1, 3, 4, 5])] [0, 2, 4, 5]) 1 1,
    -- 3917: tmp226 = einsum(t1.aa, (0, 1), v.aabb.ovvv, (2, 1, 3, 4), (0, 2, 3, 4))
    .set 117 (.ein [(1, [0, 1]), (10, [2, 1, 3, 4])] [0, 2, 3, 4]) 1 1,
    -- 3918: tmp220 = einsum(t2.abab, (0, 1, 2, 3), tmp160, (4, 0, 1, 5), (4, 2, 3, 5))
    .set 118 (.ein [(7, [0, 1, 2, 3]), (47, [4, 0, 1, 5])] [4, 2, 3, 5]) 1 1,
    -- 3919: tmp216 = einsum(t1.aa, (0, 1), v.aabb.vvvv, (2, 1, 3, 4), (0, 2, 3, 4))
    .set 119 (.ein [(1, [0, 1]), (20, [2, 1, 3, 4])] [0, 2, 3, 4]) 1 1,
    -- 3920: tmp205 = einsum(t2.abab, (0, 1, 2, 3), v.aabb.ooov, (4, 0, 1, 5), (4, 2, 3, 5))
    .set 120 (.ein [(7, [0, 1, 2, 3]), (16, [4, 0, 1, 5])] [4, 2, 3, 5]) 1 1,
    -- 3921: tmp199 = einsum(v.aabb.ovov, (0, 1, 2, 3), t2.abab, (4, 2, 1, 5), (4, 0, 5, 3))
    .set 121 (.ein [(0, [0, 1, 2, 3]), (7, [4, 2, 1, 5])] [4, 0, 5, 3]) 1 1,
    -- 3922: tmp196 = einsum(v.aabb.vvov, (0, 1, 2, 3), t2.abab, (4, 2, 1, 5), (4, 0, 5, 3))
    .set 122 (.ein [(12, [0, 1, 2, 3]), (7, [4, 2, 1, 5])] [4, 0, 5, 3]) 1 1,
    -- 3923: tmp187 = einsum(t1.aa, (0, 1), tmp177, (2, 0), (2, 1))
    .set 123 (.ein [(1, [0, 1]), (48, [2, 0])] [2, 1]) 1 1,
    -- 3924: tmp186 = einsum(t1.aa, (0, 1), tmp175, (2, 0), (2, 1))
    .set 124 (.ein [(1, [0, 1]), (49, [2, 0])] [2, 1]) 1 1,
    -- 3925: tmp185 = einsum(tmp173, (0, 1), t1.aa, (1, 2), (0, 2))
    .set 125 (.ein [(50, [0, 1]), (1, [1, 2])] [0, 2]) 1 1,
    -- 3926: tmp168 = einsum(tmp6, (0, 1), t1.aa, (2, 1), (2, 0))
    .set 126 (.ein [(51, [0, 1]), (1, [2, 1])] [2, 0]) 1 1,
    -- 3927: tmp167 = einsum(t1.aa, (0, 1), tmp5, (1, 2), (0, 2))
    .set 127 (.ein [(1, [0, 1]), (52, [1, 2])] [0, 2]) 1 1,
    -- 3928: tmp166 = einsum(t1.aa, (0, 1), tmp4, (2, 1), (0, 2))
    .set 128 (.ein [(1, [0, 1]), (53, [2, 1])] [0, 2]) 1 1,
    -- 3929: tmp165 = einsum(t1.aa, (0, 1), tmp156, (2, 0), (2, 1))
    .set 129 (.ein [(1, [0, 1]), (54, [2, 0])] [2, 1]) 1 1,
    -- 3930: tmp164 = einsum(t1.aa, (0, 1), tmp154, (2, 0), (2, 1))
    .set 130 (.ein [(1, [0, 1]), (55, [2, 0])] [2, 1]) 1 1,
    -- 3931: tmp162 = einsum(t2.aaaa, (0, 1, 2, 3), tmp158, (4, 0, 1, 5), (4, 2, 3, 5))
    .set 131 (.ein [(14, [0, 1, 2, 3]), (56, [4, 0, 1, 5])] [4, 2, 3, 5]) 1 1,
    -- 3932: tmp161 = einsum(t2.abab, (0, 1, 2, 3), tmp160, (4, 0, 1, 3), (4, 2))
    .set 132 (.ein [(7, [0, 1, 2, 3]), (47, [4, 0, 1, 3])] [4, 2]) 1 1,
    -- 3933: tmp159 = einsum(tmp158, (0, 1, 2, 3), t2.aaaa, (2, 1, 4, 3), (0, 4))
    .set 133 (.ein [(56, [0, 1, 2, 3]), (14, [2, 1, 4, 3])] [0, 4]) 1 1,
    -- 3934: tmp153 = einsum(t2.abab, (0, 1, 2, 3), v.aabb.vvov, (4, 2, 1, 3), (0, 4))
    .set 134 (.ein [(7, [0, 1, 2, 3]), (12, [4, 2, 1, 3])] [0, 4]) 1 1,
    -- 3935: tmp152 = einsum(v.aaaa.ovvv, (0, 1, 2, 3), t2.aaaa, (4, 0, 3, 1), (4, 2)) * -1
    .set 135 (.ein [(13, [0, 1, 2, 3]), (14, [4, 0, 3, 1])] [4, 2]) (-1) 1,
    -- 3936: tmp150 = einsum(t1.aa, (0, 1), v.aabb.vvov, (2, 1, 3, 4), (0, 3, 2, 4))
    .set 136 (.ein [(1, [0, 1]), (12, [2, 1, 3, 4])] [0, 3, 2, 4]) 1 1,
    -- 3937: tmp148 = einsum(v.aaaa.ovvv, (0, 1, 2, 3), t1.aa, (4, 3), (4, 0, 1, 2))
    .set 137 (.ein [(13, [0, 1, 2, 3]), (1, [4, 3])] [4, 0, 1, 2]) 1 1,
    -- 3938: tmp146 = einsum(v.aaaa.ovvv, (0, 1, 2, 3), t1.aa, (4, 1), (4, 0, 2, 3))
    .set 138 (.ein [(13, [0, 1, 2, 3]), (1, [4, 1])] [4, 0, 2, 3]) 1 1,
    -- 3939: tmp141 = einsum(t1.aa, (0, 1), v.aaaa.vvvv, (2, 3, 4, 1), (0, 2, 3, 4))
    .set 139 (.ein [(1, [0, 1]), (23, [2, 3, 4, 1])] [0, 2, 3, 4]) 1 1,
    -- 3940: tmp139 = einsum(t1.aa, (0, 1), tmp137, (0, 2), (2, 1))
    .set 140 (.ein [(1, [0, 1]), (57, [0, 2])] [2, 1]) 1 1,
    -- 3941: tmp136 = einsum(t1.aa, (0, 1), f.aa.vv, (2, 1), (0, 2))
    .set 141 (.ein [(1, [0, 1]), (24, [2, 1])] [0, 2]) 1 1,
    -- 3942: tmp129 = einsum(tmp108, (0, 1), t1.aa, (1, 2), (0, 2))
    .set 142 (.ein [(58, [0, 1]), (1, [1, 2])] [0, 2]) 1 1,
    -- 3943: tmp128 = einsum(t1.aa, (0, 1), tmp106, (2, 0), (2, 1))
    .set 143 (.ein [(1, [0, 1]), (59, [2, 0])] [2, 1]) 1 1,
    -- 3944: tmp127 = einsum(t1.aa, (0, 1), tmp104, (2, 0), (2, 1))
    .set 144 (.ein [(1, [0, 1]), (60, [2, 0])] [2, 1]) 1 1,
    -- 3945: tmp118 = einsum(t2.aaaa, (0, 1, 2, 3), v.aaaa.ooov, (4, 0, 1, 5), (4, 2, 3, 5))
    .set 145 (.ein [(14, [0, 1, 2, 3]), (17, [4, 0, 1, 5])] [4, 2, 3, 5]) 1 1,
    -- 3946: tmp117 = einsum(t2.abab, (0, 1, 2, 3), v.aabb.ooov, (4, 0, 1, 3), (4, 2))
    .set 146 (.ein [(7, [0, 1, 2, 3]), (16, [4, 0, 1, 3])] [4, 2]) 1 1,
    -- 3947: tmp116 = einsum(t2.aaaa, (0, 1, 2, 3), v.aaaa.ooov, (4, 0, 1, 3), (4, 2))
    .set 147 (.ein [(14, [0, 1, 2, 3]), (17, [4, 0, 1, 3])] [4, 2]) 1 1,
    -- 3948: tmp101 = einsum(t1.aa, (0, 1), v.aaaa.oovv, (2, 0, 3, 1), (2, 3))
    .set 148 (.ein [(1, [0, 1]), (25, [2, 0, 3, 1])] [2, 3]) 1 1,
    -- 3949: tmp98 = einsum(t1.aa, (0, 1), f.aa.oo, (2, 0), (2, 1))
    .set 149 (.ein [(1, [0, 1]), (26, [2, 0])] [2, 1]) 1 1,
    -- 3950: tmp84 = einsum(tmp15, (0, 1), t2.abab, (2, 0, 3, 1), (2, 3))
    .set 150 (.ein [(27, [0, 1]), (7, [2, 0, 3, 1])] [2, 3]) 1 1,
    -- 3951: tmp83 = einsum(tmp13, (0, 1), t2.aaaa, (2, 0, 3, 1), (2, 3))
    .set 151 (.ein [(30, [0, 1]), (14, [2, 0, 3, 1])] [2, 3]) 1 1,
    -- 3952: tmp82 = einsum(tmp12, (0, 1), t2.abab, (2, 0, 3, 1), (2, 3))
    .set 152 (.ein [(28, [0, 1]), (7, [2, 0, 3, 1])] [2, 3]) 1 1,
    -- 3953: tmp81 = einsum(tmp11, (0, 1), t2.abab, (2, 0, 3, 1), (2, 3))
    .set 153 (.ein [(29, [0, 1]), (7, [2, 0, 3, 1])] [2, 3]) 1 1,
    -- 3954: tmp80 = einsum(t2.aaaa, (0, 1, 2, 3), tmp9, (1, 3), (0, 2))
    .set 154 (.ein [(14, [0, 1, 2, 3]), (31, [1, 3])] [0, 2]) 1 1,
    -- 3955: tmp79 = einsum(tmp7, (0, 1), t2.aaaa, (2, 0, 3, 1), (2, 3))
    .set 155 (.ein [(32, [0, 1]), (14, [2, 0, 3, 1])] [2, 3]) 1 1,
    -- 3956: tmp77 = einsum(t2.aaaa, (0, 1, 2, 3), v.aabb.ovov, (1, 3, 4, 5), (0, 4, 2, 5))
    .set 156 (.ein [(14, [0, 1, 2, 3]), (0, [1, 3, 4, 5])] [0, 4, 2, 5]) 1 1,
    -- 3957: tmp75 = einsum(v.aabb.ovov, (0, 1, 2, 3), t2.abab, (4, 2, 5, 3), (4, 0, 5, 1))
    .set 157 (.ein [(0, [0, 1, 2, 3]), (7, [4, 2, 5, 3])] [4, 0, 5, 1]) 1 1,
    -- 3958: tmp73 = einsum(v.bbbb.ovov, (0, 1, 2, 3), t2.abab, (4, 2, 5, 3), (4, 0, 5, 1))
    .set 158 (.ein [(2, [0, 1, 2, 3]), (7, [4, 2, 5, 3])] [4, 0, 5, 1]) 1 1,
    -- 3959: tmp71 = einsum(v.bbbb.ovov, (0, 1, 2, 3), t2.abab, (4, 2, 5, 1), (4, 0, 5, 3))
    .set 159 (.ein [(2, [0, 1, 2, 3]), (7, [4, 2, 5, 1])] [4, 0, 5, 3]) 1 1,
    -- 3960: tmp69 = einsum(v.aaaa.ovov, (0, 1, 2, 3), t2.aaaa, (4, 2, 5, 3), (4, 0, 5, 1))
    .set 160 (.ein [(4, [0, 1, 2, 3]), (14, [4, 2, 5, 3])] [4, 0, 5, 1]) 1 1,
    -- 3961: tmp67 = einsum(v.aaaa.ovov, (0, 1, 2, 3), t2.aaaa, (4, 2, 5, 1), (4, 0, 5, 3))
    .set 161 (.ein [(4, [0, 1, 2, 3]), (14, [4, 2, 5, 1])] [4, 0, 5, 3]) 1 1,
    -- 3962: tmp63 = einsum(v.aabb.vvov, (0, 1, 2, 3), t2.abab, (4, 2, 5, 3), (4, 5, 0, 1))
    .set 162 (.ein [(12, [0, 1, 2, 3]), (7, [4, 2, 5, 3])] [4, 5, 0, 1]) 1 1,
    -- 3963: tmp61 = einsum(v.aaaa.ovvv, (0, 1, 2, 3), t2.aaaa, (4, 0, 5, 3), (4, 5, 1, 2))
    .set 163 (.ein [(13, [0, 1, 2, 3]), (14, [4, 0, 5, 3])] [4, 5, 1, 2]) 1 1,
    -- 3964: tmp59 = einsum(v.aaaa.ovvv, (0, 1, 2, 3), t2.aaaa, (4, 0, 5, 1), (4, 5, 2, 3))
    .set 164 (.ein [(13, [0, 1, 2, 3]), (14, [4, 0, 5, 1])] [4, 5, 2, 3]) 1 1,
    -- 3965: tmp51 = einsum(f.bb.ov, (0, 1), t2.abab, (2, 0, 3, 1), (2, 3))
    .set 165 (.ein [(9, [0, 1]), (7, [2, 0, 3, 1])] [2, 3]) 1 1,
    -- 3966: tmp50 = einsum(f.aa.ov, (0, 1), t2.aaaa, (2, 0, 3, 1), (2, 3))
    .set 166 (.ein [(15, [0, 1]), (14, [2, 0, 3, 1])] [2, 3]) 1 1,
    -- 3967: tmp43 = einsum(v.aabb.ovov, (0, 1, 2, 3), t2.abab, (0, 2, 1, 4), (4, 3))
    .set 167 (.ein [(0, [0, 1, 2, 3]), (7, [0, 2, 1, 4])] [4, 3]) 1 1,
    -- 3968: tmp41 = einsum(v.bbbb.ovov, (0, 1, 2, 3), t2.bbbb, (0, 2, 4, 1), (4, 3)) * -1
    .set 168 (.ein [(2, [0, 1, 2, 3]), (8, [0, 2, 4, 1])] [4, 3]) (-1) 1,
    -- 3969: tmp22 = einsum(v.aabb.ovov, (0, 1, 2, 3), t2.abab, (0, 2, 4, 3), (4, 1))
    .set 169 (.ein [(0, [0, 1, 2, 3]), (7, [0, 2, 4, 3])] [4, 1]) 1 1,
    -- 3970: tmp20 = einsum(t2.aaaa, (0, 1, 2, 3), v.aaaa.ovov, (0, 3, 1, 4), (2, 4)) * -1
    .set 170 (.ein [(14, [0, 1, 2, 3]), (4, [0, 3, 1, 4])] [2, 4]) (-1) 1
  ]
  ret := [(chars! "tmp101", 148), (chars! "tmp104", 60), (chars! "tmp106", 59), (chars! "tmp108", 58), (chars! "tmp11", 29), (chars! "tmp116", 147), (chars! "tmp117", 146), (chars! "tmp118", 145), (chars! "tmp12", 28), (chars! "tmp127", 144), (chars! "tmp128", 143), (chars! "tmp129", 142), (chars! "tmp13", 30), (chars! "tmp136", 141), (chars! "tmp137", 57), (chars! "tmp139", 140), (chars! "tmp141", 139), (chars! "tmp146", 138), (chars! "tmp148", 137), (chars! "tmp15", 27), (chars! "tmp150", 136), (chars! "tmp152", 135), (chars! "tmp153", 134), (chars! "tmp154", 55), (chars! "tmp156", 54), (chars! "tmp158", 56), (chars! "tmp159", 133), (chars! "tmp160", 47), (chars! "tmp161", 132), (chars! "tmp162", 131), (chars! "tmp164", 130), (chars! "tmp165", 129), (chars! "tmp166", 128), (chars! "tmp167", 127), (chars! "tmp168", 126), (chars! "tmp173", 50), (chars! "tmp175", 49), (chars! "tmp177", 48), (chars! "tmp185", 125), (chars! "tmp186", 124), (chars! "tmp187", 123), (chars! "tmp196", 122), (chars! "tmp199", 121), (chars! "tmp20", 170), (chars! "tmp205", 120), (chars! "tmp216", 119), (chars! "tmp22", 169), (chars! "tmp220", 118), (chars! "tmp226", 117), (chars! "tmp240", 116), (chars! "tmp241", 115), (chars! "tmp242", 114), (chars! "tmp263", 113), (chars! "tmp266", 112), (chars! "tmp271", 111), (chars! "tmp272", 36), (chars! "tmp273", 35), (chars! "tmp274", 34), (chars! "tmp276", 110), (chars! "tmp286", 109), (chars! "tmp287", 43), (chars! "tmp289", 108), (chars! "tmp290", 107), (chars! "tmp291", 106), (chars! "tmp292", 105), (chars! "tmp294", 104), (chars! "tmp295", 103), (chars! "tmp296", 41), (chars! "tmp298", 40), (chars! "tmp300", 42), (chars! "tmp301", 102), (chars! "tmp303", 101), (chars! "tmp304", 100), (chars! "tmp305", 99), (chars! "tmp307", 39), (chars! "tmp308", 38), (chars! "tmp309", 37), (chars! "tmp31", 46), (chars! "tmp313", 98), (chars! "tmp314", 97), (chars! "tmp315", 33), (chars! "tmp316", 96), (chars! "tmp317", 95), (chars! "tmp318", 94), (chars! "tmp319", 93), (chars! "tmp32", 45), (chars! "tmp325", 92), (chars! "tmp326", 91), (chars! "tmp327", 90), (chars! "tmp328", 89), (chars! "tmp33", 44), (chars! "tmp334", 88), (chars! "tmp335", 87), (chars! "tmp336", 86), (chars! "tmp337", 85), (chars! "tmp338", 84), (chars! "tmp340", 83), (chars! "tmp341", 82), (chars! "tmp344", 81), (chars! "tmp345", 80), (chars! "tmp346", 79), (chars! "tmp350", 78), (chars! "tmp352", 77), (chars! "tmp354", 76), (chars! "tmp356", 75), (chars! "tmp358", 74), (chars! "tmp360", 73), (chars! "tmp361", 72), (chars! "tmp362", 71), (chars! "tmp363", 70), (chars! "tmp364", 69), (chars! "tmp365", 68), (chars! "tmp366", 67), (chars! "tmp383", 66), (chars! "tmp385", 65), (chars! "tmp387", 64), (chars! "tmp4", 53), (chars! "tmp41", 168), (chars! "tmp423", 63), (chars! "tmp43", 167), (chars! "tmp440", 62), (chars! "tmp450", 61), (chars! "tmp5", 52), (chars! "tmp50", 166), (chars! "tmp51", 165), (chars! "tmp59", 164), (chars! "tmp6", 51), (chars! "tmp61", 163), (chars! "tmp63", 162), (chars! "tmp67", 161), (chars! "tmp69", 160), (chars! "tmp7", 32), (chars! "tmp71", 159), (chars! "tmp73", 158), (chars! "tmp75", 157), (chars! "tmp77", 156), (chars! "tmp79", 155), (chars! "tmp80", 154), (chars! "tmp81", 153), (chars! "tmp82", 152), (chars! "tmp83", 151), (chars! "tmp84", 150), (chars! "tmp9", 31), (chars! "tmp98", 149)]

/-- codegen/UCCSD.py:3974-4600 `hbar_matvec_ea`. -/
def hbar_matvec_ea : GenFun where
  args := [chars! "ints.tmp291", chars! "ints.tmp360", chars! "ints.tmp356", chars! "ints.tmp315", chars! "v.bbbb.ooov", chars! "r1.b", chars! "f.bb.ov", chars! "ints.tmp12", chars! "ints.tmp15", chars! "ints.tmp290", chars! "ints.tmp354", chars! "ints.tmp300", chars! "v.aabb.ovoo", chars! "ints.tmp148", chars! "ints.tmp75", chars! "ints.tmp69", chars! "ints.tmp158", chars! "v.aaaa.ooov", chars! "r1.a", chars! "f.aa.ov", chars! "ints.tmp13", chars! "ints.tmp9", chars! "ints.tmp160", chars! "v.aabb.ooov", chars! "ints.tmp146", chars! "ints.tmp67", chars! "r2.bbb", chars! "ints.tmp11", chars! "t1.bb", chars! "v.bbbb.ovov", chars! "v.bbbb.ovvv", chars! "r2.aba", chars! "r2.aaa", chars! "ints.tmp7", chars! "t1.aa", chars! "r2.bab", chars! "v.aaaa.ovov", chars! "v.aaaa.ovvv", chars! "v.bbbb.oovv", chars! "ints.tmp440", chars! "ints.tmp385", chars! "ints.tmp292", chars! "ints.tmp352", chars! "ints.tmp358", chars! "f.bb.vv", chars! "ints.tmp31", chars! "ints.tmp33", chars! "ints.tmp41", chars! "ints.tmp43", chars! "ints.tmp383", chars! "ints.tmp387", chars! "v.aaaa.oovv", chars! "ints.tmp141", chars! "ints.tmp61", chars! "f.aa.vv", chars! "ints.tmp4", chars! "ints.tmp6", chars! "ints.tmp20", chars! "ints.tmp22", chars! "ints.tmp150", chars! "ints.tmp73", chars! "ints.tmp77", chars! "ints.tmp59", chars! "ints.tmp63", chars! "v.aabb.ovov", chars! "ints.tmp32", chars! "ints.tmp350", chars! "ints.tmp71", chars! "ints.tmp5", chars! "ints.tmp423", chars! "ints.tmp450", chars! "ints.tmp271", chars! "ints.tmp294", chars! "ints.tmp304", chars! "ints.tmp313", chars! "ints.tmp316", chars! "ints.tmp317", chars! "ints.tmp318", chars! "ints.tmp319", chars! "ints.tmp326", chars! "ints.tmp327", chars! "ints.tmp328", chars! "ints.tmp334", chars! "ints.tmp335", chars! "ints.tmp337", chars! "ints.tmp338", chars! "ints.tmp361", chars! "ints.tmp363", chars! "ints.tmp286", chars! "ints.tmp295", chars! "ints.tmp303", chars! "ints.tmp305", chars! "ints.tmp325", chars! "ints.tmp336", chars! "ints.tmp340", chars! "ints.tmp341", chars! "ints.tmp362", chars! "ints.tmp364", chars! "ints.tmp365", chars! "ints.tmp366", chars! "t2.bbbb", chars! "f.bb.oo", chars! "ints.tmp273", chars! "ints.tmp274", chars! "ints.tmp287", chars! "ints.tmp296", chars! "ints.tmp298", chars! "ints.tmp308", chars! "ints.tmp309", chars! "ints.tmp272", chars! "ints.tmp307", chars! "ints.tmp276", chars! "ints.tmp289", chars! "ints.tmp301", chars! "ints.tmp344", chars! "ints.tmp346", chars! "v.aabb.vvov", chars! "ints.tmp263", chars! "ints.tmp345", chars! "ints.tmp314", chars! "v.aabb.vvoo", chars! "ints.tmp266", chars! "v.aabb.ovvv", chars! "ints.tmp205", chars! "ints.tmp216", chars! "ints.tmp220", chars! "ints.tmp240", chars! "ints.tmp242", chars! "ints.tmp196", chars! "ints.tmp241", chars! "ints.tmp101", chars! "ints.tmp116", chars! "ints.tmp117", chars! "ints.tmp128", chars! "ints.tmp129", chars! "ints.tmp139", chars! "ints.tmp152", chars! "ints.tmp159", chars! "ints.tmp161", chars! "ints.tmp164", chars! "ints.tmp165", chars! "ints.tmp167", chars! "ints.tmp186", chars! "ints.tmp187", chars! "ints.tmp79", chars! "ints.tmp81", chars! "ints.tmp98", chars! "ints.tmp127", chars! "ints.tmp136", chars! "ints.tmp153", chars! "ints.tmp166", chars! "ints.tmp168", chars! "ints.tmp185", chars! "ints.tmp50", chars! "ints.tmp51", chars! "ints.tmp80", chars! "ints.tmp82", chars! "ints.tmp83", chars! "ints.tmp84", chars! "ints.tmp226", chars! "v.aabb.oovv", chars! "ints.tmp199", chars! "f.aa.oo", chars! "ints.tmp106", chars! "ints.tmp108", chars! "ints.tmp137", chars! "ints.tmp154", chars! "ints.tmp156", chars! "ints.tmp175", chars! "ints.tmp177", chars! "ints.tmp104", chars! "ints.tmp173", chars! "t2.aaaa", chars! "ints.tmp118", chars! "ints.tmp162", chars! "v.bbbb.vvvv", chars! "v.aabb.vvvv", chars! "t2.abab", chars! "v.aaaa.vvvv"]
  body := [
    -- 4004: tmp130 = np.copy(ints.tmp291)
    .set 179 (.cp 0) 1 1,
    -- 4005: tmp130 += np.transpose(ints.tmp360, (0, 1, 3, 2))
    .add 179 (.tr 1 [0, 1, 3, 2]) 1 1,
    -- 4006: tmp130 += np.transpose(ints.tmp356, (0, 1, 3, 2)) * 2
    .add 179 (.tr 2 [0, 1, 3, 2]) 2 1,
    -- 4007: tmp128 = np.copy(ints.tmp315)
    .set 180 (.cp 3) 1 1,
    -- 4008: tmp128 += np.transpose(v.bbbb.ooov, (0, 2, 1, 3))
    .add 180 (.tr 4 [0, 2, 1, 3]) 1 1,
    -- 4009: tmp126 = einsum(r1.b, (0,), ints.tmp315, (1, 2, 3, 0), (1, 2, 3))
    .set 181 (.ein [(5, [0]), (3, [1, 2, 3, 0])] [1, 2, 3]) 1 1,
    -- 4010: tmp104 = np.copy(f.bb.ov)
    .set 182 (.cp 6) 1 1,
    -- 4011: tmp104 += ints.tmp12
    .add 182 (.cp 7) 1 1,
    -- 4012: tmp104 += ints.tmp15
    .add 182 (.cp 8) 1 1,
    -- 4013: tmp106 = np.copy(ints.tmp290)
    .set 183 (.cp 9) 1 1,
    -- 4014: tmp106 += ints.tmp354 * 2
    .add 183 (.cp 10) 2 1,
    -- 4015: tmp88 = np.copy(ints.tmp300)
    .set 184 (.cp 11) 1 1,
    -- 4016: tmp88 += np.transpose(v.aabb.ovoo, (0, 2, 3, 1))
    .add 184 (.tr 12 [0, 2, 3, 1]) 1 1,
    -- 4017: tmp99 = einsum(r1.b, (0,), v.bbbb.ooov, (1, 2, 3, 0), (1, 2, 3))
    .set 185 (.ein [(5, [0]), (4, [1, 2, 3, 0])] [1, 2, 3]) 1 1,
    -- 4018: tmp102 = np.copy(ints.tmp315)
    .set 186 (.cp 3) 1 1,
    -- 4019: tmp102 += np.transpose(v.bbbb.ooov, (0, 2, 1, 3))
    .add 186 (.tr 4 [0, 2, 1, 3]) 1 1,
    -- 4020: tmp25 = np.copy(ints.tmp148)
    .set 187 (.cp 13) 1 1,
    -- 4021: tmp25 += np.transpose(ints.tmp75, (0, 1, 3, 2))
    .add 187 (.tr 14 [0, 1, 3, 2]) 1 1,
    -- 4022: tmp25 += np.transpose(ints.tmp69, (0, 1, 3, 2)) * 2
    .add 187 (.tr 15 [0, 1, 3, 2]) 2 1,
    -- 4023: tmp23 = np.copy(ints.tmp158)
    .set 188 (.cp 16) 1 1,
    -- 4024: tmp23 += np.transpose(v.aaaa.ooov, (0, 2, 1, 3))
    .add 188 (.tr 17 [0, 2, 1, 3]) 1 1,
    -- 4025: tmp21 = einsum(r1.a, (0,), ints.tmp158, (1, 2, 3, 0), (1, 2, 3))
    .set 189 (.ein [(18, [0]), (16, [1, 2, 3, 0])] [1, 2, 3]) 1 1,
    -- 4026: tmp45 = np.copy(f.aa.ov)
    .set 190 (.cp 19) 1 1,
    -- 4027: tmp45 += ints.tmp13
    .add 190 (.cp 20) 1 1,
    -- 4028: tmp45 += ints.tmp9
    .add 190 (.cp 21) 1 1,
    -- 4029: tmp41 = np.copy(ints.tmp158)
    .set 191 (.cp 16) 1 1,
    -- 4030: tmp41 += np.transpose(v.aaaa.ooov, (0, 2, 1, 3))
    .add 191 (.tr 17 [0, 2, 1, 3]) 1 1,
    -- 4031: tmp43 = np.copy(ints.tmp160)
    .set 192 (.cp 22) 1 1,
    -- 4032: tmp43 += v.aabb.ooov
    .add 192 (.cp 23) 1 1,
    -- 4033: tmp39 = einsum(v.aaaa.ooov, (0, 1, 2, 3), r1.a, (3,), (0, 1, 2))
    .set 193 (.ein [(17, [0, 1, 2, 3]), (18, [3])] [0, 1, 2]) 1 1,
    -- 4034: tmp47 = np.copy(ints.tmp146)
    .set 194 (.cp 24) 1 1,
    -- 4035: tmp47 += ints.tmp67 * 2
    .add 194 (.cp 25) 2 1,
    -- 4036: tmp125 = einsum(r2.bbb, (0, 1, 2), ints.tmp11, (3, 1), (3, 2, 0))
    .set 195 (.ein [(26, [0, 1, 2]), (27, [3, 1])] [3, 2, 0]) 1 1,
    -- 4037: tmp131 = einsum(r1.b, (0,), tmp130, (1, 2, 0, 3), (1, 2, 3))
    .set 196 (.ein [(5, [0]), (179, [1, 2, 0, 3])] [1, 2, 3]) 1 1,
    -- 4038: del tmp130
    .del 179,
    -- 4039: tmp129 = einsum(r2.bbb, (0, 1, 2), tmp128, (3, 4, 2, 1), (3, 4, 0)) * -1
    .set 197 (.ein [(26, [0, 1, 2]), (180, [3, 4, 2, 1])] [3, 4, 0]) (-1) 1,
    -- 4040: del tmp128
    .del 180,
    -- 4041: tmp127 = einsum(t1.bb, (0, 1), tmp126, (2, 0, 3), (2, 3, 1))
    .set 198 (.ein [(28, [0, 1]), (181, [2, 0, 3])] [2, 3, 1]) 1 1,
    -- 4042: del tmp126
    .del 181,
    -- 4043: tmp112 = einsum(r1.b, (0,), v.bbbb.ovov, (1, 2, 3, 0), (1, 3, 2))
    .set 199 (.ein [(5, [0]), (29, [1, 2, 3, 0])] [1, 3, 2]) 1 1,
    -- 4044: tmp113 = einsum(r2.bbb, (0, 1, 2), v.bbbb.ovvv, (3, 0, 4, 1), (2, 3, 4))
    .set 200 (.ein [(26, [0, 1, 2]), (30, [3, 0, 4, 1])] [2, 3, 4]) 1 1,
    -- 4045: tmp105 = einsum(tmp104, (0, 1), r2.bbb, (2, 1, 3), (0, 3, 2)) * -2
    .set 201 (.ein [(182, [0, 1]), (26, [2, 1, 3])] [0, 3, 2]) (-2) 1,
    -- 4046: del tmp104
    .del 182,
    -- 4047: tmp107 = einsum(r1.b, (0,), tmp106, (1, 2, 3, 0), (1, 2, 3))
    .set 202 (.ein [(5, [0]), (183, [1, 2, 3, 0])] [1, 2, 3]) 1 1,
    -- 4048: del tmp106
    .del 183,
    -- 4049: tmp101 = einsum(tmp88, (0, 1, 2, 3), r2.aba, (3, 4, 0), (1, 2, 4))
    .set 203 (.ein [(184, [0, 1, 2, 3]), (31, [3, 4, 0])] [1, 2, 4]) 1 1,
    -- 4050: tmp100 = einsum(t1.bb, (0, 1), tmp99, (2, 0, 3), (2, 3, 1))
    .set 204 (.ein [(28, [0, 1]), (185, [2, 0, 3])] [2, 3, 1]) 1 1,
    -- 4051: del tmp99
    .del 185,
    -- 4052: tmp103 = einsum(r2.bbb, (0, 1, 2), tmp102, (3, 2, 4, 1), (3, 4, 0)) * -2
    .set 205 (.ein [(26, [0, 1, 2]), (186, [3, 2, 4, 1])] [3, 4, 0]) (-2) 1,
    -- 4053: del tmp102
    .del 186,
    -- 4054: tmp26 = einsum(r1.a, (0,), tmp25, (1, 2, 0, 3), (1, 2, 3))
    .set 206 (.ein [(18, [0]), (187, [1, 2, 0, 3])] [1, 2, 3]) 1 1,
    -- 4055: del tmp25
    .del 187,
    -- 4056: tmp24 = einsum(tmp23, (0, 1, 2, 3), r2.aaa, (4, 3, 2), (0, 1, 4)) * -1
    .set 207 (.ein [(188, [0, 1, 2, 3]), (32, [4, 3, 2])] [0, 1, 4]) (-1) 1,
    -- 4057: del tmp23
    .del 188,
    -- 4058: tmp20 = einsum(r2.aaa, (0, 1, 2), ints.tmp7, (3, 1), (3, 2, 0))
    .set 208 (.ein [(32, [0, 1, 2]), (33, [3, 1])] [3, 2, 0]) 1 1,
    -- 4059: tmp22 = einsum(tmp21, (0, 1, 2), t1.aa, (1, 3), (0, 2, 3))
    .set 209 (.ein [(189, [0, 1, 2]), (34, [1, 3])] [0, 2, 3]) 1 1,
    -- 4060: del tmp21
    .del 189,
    -- 4061: tmp46 = einsum(r2.aaa, (0, 1, 2), tmp45, (3, 1), (2, 3, 0)) * -1
    .set 210 (.ein [(32, [0, 1, 2]), (190, [3, 1])] [2, 3, 0]) (-1) 1,
    -- 4062: del tmp45
    .del 190,
    -- 4063: tmp42 = einsum(r2.aaa, (0, 1, 2), tmp41, (3, 2, 4, 1), (3, 4, 0)) * -1
    .set 211 (.ein [(32, [0, 1, 2]), (191, [3, 2, 4, 1])] [3, 4, 0]) (-1) 1,
    -- 4064: del tmp41
    .del 191,
    -- 4065: tmp44 = einsum(tmp43, (0, 1, 2, 3), r2.bab, (3, 4, 2), (0, 1, 4)) * -0.5
    .set 212 (.ein [(192, [0, 1, 2, 3]), (35, [3, 4, 2])] [0, 1, 4]) (-1) 2,
    -- 4066: tmp40 = einsum(tmp39, (0, 1, 2), t1.aa, (1, 3), (0, 2, 3))
    .set 213 (.ein [(193, [0, 1, 2]), (34, [1, 3])] [0, 2, 3]) 1 1,
    -- 4067: del tmp39
    .del 193,
    -- 4068: tmp48 = einsum(r1.a, (0,), tmp47, (1, 2, 3, 0), (1, 2, 3)) * 0.5
    .set 214 (.ein [(18, [0]), (194, [1, 2, 3, 0])] [1, 2, 3]) 1 2,
    -- 4069: del tmp47
    .del 194,
    -- 4070: tmp53 = einsum(r1.a, (0,), v.aaaa.ovov, (1, 2, 3, 0), (1, 3, 2))
    .set 215 (.ein [(18, [0]), (36, [1, 2, 3, 0])] [1, 3, 2]) 1 1,
    -- 4071: tmp54 = einsum(v.aaaa.ovvv, (0, 1, 2, 3), r2.aaa, (3, 1, 4), (4, 0, 2)) * -1
    .set 216 (.ein [(37, [0, 1, 2, 3]), (32, [3, 1, 4])] [4, 0, 2]) (-1) 1,
    -- 4072: tmp0 = np.copy(f.bb.ov)
    .set 217 (.cp 6) 1 1,
    -- 4073: tmp0 += ints.tmp12
    .add 217 (.cp 7) 1 1,
    -- 4074: tmp0 += ints.tmp15
    .add 217 (.cp 8) 1 1,
    -- 4075: tmp0 += ints.tmp11 * -1
    .add 217 (.cp 27) (-1) 1,
    -- 4076: tmp119 = einsum(v.bbbb.oovv, (0, 1, 2, 3), r1.b, (3,), (0, 1, 2))
    .set 218 (.ein [(38, [0, 1, 2, 3]), (5, [3])] [0, 1, 2]) 1 1,
    -- 4077: tmp134 = np.copy(ints.tmp440)
    .set 219 (.cp 39) 1 1,
    -- 4078: tmp134 += ints.tmp385 * 2
    .add 219 (.cp 40) 2 1,
    -- 4079: tmp123 = np.copy(ints.tmp290)
    .set 220 (.cp 9) 1 1,
    -- 4080: tmp123 += ints.tmp354 * 2
    .add 220 (.cp 10) 2 1,
    -- 4081: tmp121 = np.copy(ints.tmp292)
    .set 221 (.cp 41) 1 1,
    -- 4082: tmp121 += ints.tmp352
    .add 221 (.cp 42) 1 1,
    -- 4083: tmp121 += ints.tmp358 * 2
    .add 221 (.cp 43) 2 1,
    -- 4084: tmp132 = np.copy(tmp125) * 2
    .set 222 (.cp 195) 2 1,
    -- 4085: del tmp125
    .del 195,
    -- 4086: tmp132 += np.transpose(tmp127, (1, 0, 2))
    .add 222 (.tr 198 [1, 0, 2]) 1 1,
    -- 4087: del tmp127
    .del 198,
    -- 4088: tmp132 += np.transpose(tmp129, (1, 0, 2)) * -2
    .add 222 (.tr 197 [1, 0, 2]) (-2) 1,
    -- 4089: del tmp129
    .del 197,
    -- 4090: tmp132 += np.transpose(tmp131, (1, 0, 2))
    .add 222 (.tr 196 [1, 0, 2]) 1 1,
    -- 4091: del tmp131
    .del 196,
    -- 4092: tmp97 = np.copy(f.bb.vv) * 0.5
    .set 223 (.cp 44) 1 2,
    -- 4093: tmp97 += np.transpose(ints.tmp31, (1, 0)) * 0.5
    .add 223 (.tr 45 [1, 0]) 1 2,
    -- 4094: tmp97 += np.transpose(ints.tmp33, (1, 0)) * 0.5
    .add 223 (.tr 46 [1, 0]) 1 2,
    -- 4095: tmp97 += np.transpose(ints.tmp41, (1, 0)) * -1
    .add 223 (.tr 47 [1, 0]) (-1) 1,
    -- 4096: tmp97 += np.transpose(ints.tmp43, (1, 0)) * -0.5
    .add 223 (.tr 48 [1, 0]) (-1) 2,
    -- 4097: tmp114 = np.copy(tmp112)
    .set 224 (.cp 199) 1 1,
    -- 4098: del tmp112
    .del 199,
    -- 4099: tmp114 += tmp113 * 2
    .add 224 (.cp 200) 2 1,
    -- 4100: del tmp113
    .del 200,
    -- 4101: tmp110 = np.copy(ints.tmp383)
    .set 225 (.cp 49) 1 1,
    -- 4102: tmp110 += ints.tmp387 * 0.5
    .add 225 (.cp 50) 1 2,
    -- 4103: tmp110 += v.bbbb.ovvv * 0.5
    .add 225 (.cp 30) 1 2,
    -- 4104: tmp95 = np.copy(ints.tmp291)
    .set 226 (.cp 0) 1 1,
    -- 4105: tmp95 += np.transpose(ints.tmp356, (0, 1, 3, 2)) * 2
    .add 226 (.tr 2 [0, 1, 3, 2]) 2 1,
    -- 4106: tmp95 += np.transpose(ints.tmp360, (0, 1, 3, 2))
    .add 226 (.tr 1 [0, 1, 3, 2]) 1 1,
    -- 4107: tmp108 = np.copy(np.transpose(tmp100, (1, 0, 2)))
    .set 227 (.tr 204 [1, 0, 2]) 1 1,
    -- 4108: del tmp100
    .del 204,
    -- 4109: tmp108 += np.transpose(tmp101, (1, 0, 2)) * -1
    .add 227 (.tr 203 [1, 0, 2]) (-1) 1,
    -- 4110: del tmp101
    .del 203,
    -- 4111: tmp108 += np.transpose(tmp103, (1, 0, 2)) * -1
    .add 227 (.tr 205 [1, 0, 2]) (-1) 1,
    -- 4112: del tmp103
    .del 205,
    -- 4113: tmp108 += tmp105 * -1
    .add 227 (.cp 201) (-1) 1,
    -- 4114: del tmp105
    .del 201,
    -- 4115: tmp108 += np.transpose(tmp107, (1, 0, 2))
    .add 227 (.tr 202 [1, 0, 2]) 1 1,
    -- 4116: del tmp107
    .del 202,
    -- 4117: tmp1 = np.copy(f.aa.ov)
    .set 228 (.cp 19) 1 1,
    -- 4118: tmp1 += ints.tmp13
    .add 228 (.cp 20) 1 1,
    -- 4119: tmp1 += ints.tmp9
    .add 228 (.cp 21) 1 1,
    -- 4120: tmp1 += ints.tmp7 * -1
    .add 228 (.cp 33) (-1) 1,
    -- 4121: tmp14 = einsum(r1.a, (0,), v.aaaa.oovv, (1, 2, 3, 0), (1, 2, 3))
    .set 229 (.ein [(18, [0]), (51, [1, 2, 3, 0])] [1, 2, 3]) 1 1,
    -- 4122: tmp27 = np.copy(np.transpose(tmp20, (1, 0, 2))) * 2
    .set 230 (.tr 208 [1, 0, 2]) 2 1,
    -- 4123: del tmp20
    .del 208,
    -- 4124: tmp27 += tmp22
    .add 230 (.cp 209) 1 1,
    -- 4125: del tmp22
    .del 209,
    -- 4126: tmp27 += tmp24 * -2
    .add 230 (.cp 207) (-2) 1,
    -- 4127: del tmp24
    .del 207,
    -- 4128: tmp27 += tmp26
    .add 230 (.cp 206) 1 1,
    -- 4129: del tmp26
    .del 206,
    -- 4130: tmp29 = np.copy(ints.tmp141)
    .set 231 (.cp 52) 1 1,
    -- 4131: tmp29 += ints.tmp61 * 2
    .add 231 (.cp 53) 2 1,
    -- 4132: tmp18 = np.copy(ints.tmp146)
    .set 232 (.cp 24) 1 1,
    -- 4133: tmp18 += ints.tmp67 * 2
    .add 232 (.cp 25) 2 1,
    -- 4134: tmp37 = np.copy(f.aa.vv) * 0.5
    .set 233 (.cp 54) 1 2,
    -- 4135: tmp37 += np.transpose(ints.tmp4, (1, 0)) * 0.5
    .add 233 (.tr 55 [1, 0]) 1 2,
    -- 4136: tmp37 += np.transpose(ints.tmp6, (1, 0)) * 0.5
    .add 233 (.tr 56 [1, 0]) 1 2,
    -- 4137: tmp37 += np.transpose(ints.tmp20, (1, 0)) * -1
    .add 233 (.tr 57 [1, 0]) (-1) 1,
    -- 4138: tmp37 += np.transpose(ints.tmp22, (1, 0)) * -0.5
    .add 233 (.tr 58 [1, 0]) (-1) 2,
    -- 4139: tmp35 = np.copy(ints.tmp150)
    .set 234 (.cp 59) 1 1,
    -- 4140: tmp35 += ints.tmp73
    .add 234 (.cp 60) 1 1,
    -- 4141: tmp35 += ints.tmp77 * 2
    .add 234 (.cp 61) 2 1,
    -- 4142: tmp49 = np.copy(np.transpose(tmp40, (1, 0, 2))) * 0.5
    .set 235 (.tr 213 [1, 0, 2]) 1 2,
    -- 4143: del tmp40
    .del 213,
    -- 4144: tmp49 += np.transpose(tmp42, (1, 0, 2)) * -1
    .add 235 (.tr 211 [1, 0, 2]) (-1) 1,
    -- 4145: del tmp42
    .del 211,
    -- 4146: tmp49 += np.transpose(tmp44, (1, 0, 2))
    .add 235 (.tr 212 [1, 0, 2]) 1 1,
    -- 4147: del tmp44
    .del 212,
    -- 4148: tmp49 += np.transpose(tmp46, (1, 0, 2)) * -1
    .add 235 (.tr 210 [1, 0, 2]) (-1) 1,
    -- 4149: del tmp46
    .del 210,
    -- 4150: tmp49 += np.transpose(tmp48, (1, 0, 2))
    .add 235 (.tr 214 [1, 0, 2]) 1 1,
    -- 4151: del tmp48
    .del 214,
    -- 4152: tmp33 = np.copy(ints.tmp148)
    .set 236 (.cp 13) 1 1,
    -- 4153: tmp33 += np.transpose(ints.tmp69, (0, 1, 3, 2)) * 2
    .add 236 (.tr 15 [0, 1, 3, 2]) 2 1,
    -- 4154: tmp33 += np.transpose(ints.tmp75, (0, 1, 3, 2))
    .add 236 (.tr 14 [0, 1, 3, 2]) 1 1,
    -- 4155: tmp51 = np.copy(ints.tmp59)
    .set 237 (.cp 62) 1 1,
    -- 4156: tmp51 += ints.tmp63 * 0.5
    .add 237 (.cp 63) 1 2,
    -- 4157: tmp51 += v.aaaa.ovvv * 0.5
    .add 237 (.cp 37) 1 2,
    -- 4158: tmp55 = np.copy(tmp53)
    .set 238 (.cp 215) 1 1,
    -- 4159: del tmp53
    .del 215,
    -- 4160: tmp55 += tmp54 * 2
    .add 238 (.cp 216) 2 1,
    -- 4161: del tmp54
    .del 216,
    -- 4162: tmp10 = einsum(r1.b, (0,), tmp0, (1, 0), (1,))
    .set 239 (.ein [(5, [0]), (217, [1, 0])] [1]) 1 1,
    -- 4163: tmp8 = einsum(v.aabb.ovov, (0, 1, 2, 3), r2.aba, (1, 3, 0), (2,))
    .set 240 (.ein [(64, [0, 1, 2, 3]), (31, [1, 3, 0])] [2]) 1 1,
    -- 4164: tmp9 = einsum(v.bbbb.ovov, (0, 1, 2, 3), r2.bbb, (1, 3, 2), (0,))
    .set 241 (.ein [(29, [0, 1, 2, 3]), (26, [1, 3, 2])] [0]) 1 1,
    -- 4165: tmp120 = einsum(t1.bb, (0, 1), tmp119, (2, 0, 3), (2, 1, 3))
    .set 242 (.ein [(28, [0, 1]), (218, [2, 0, 3])] [2, 1, 3]) 1 1,
    -- 4166: del tmp119
    .del 218,
    -- 4167: tmp135 = einsum(r1.b, (0,), tmp134, (1, 2, 0, 3), (1, 2, 3))
    .set 243 (.ein [(5, [0]), (219, [1, 2, 0, 3])] [1, 2, 3]) 1 1,
    -- 4168: del tmp134
    .del 219,
    -- 4169: tmp117 = einsum(r2.bbb, (0, 1, 2), ints.tmp32, (1, 3), (2, 3, 0))
    .set 244 (.ein [(26, [0, 1, 2]), (65, [1, 3])] [2, 3, 0]) 1 1,
    -- 4170: tmp124 = einsum(tmp123, (0, 1, 2, 3), r2.bbb, (4, 3, 1), (0, 2, 4)) * -1
    .set 245 (.ein [(220, [0, 1, 2, 3]), (26, [4, 3, 1])] [0, 2, 4]) (-1) 1,
    -- 4171: del tmp123
    .del 220,
    -- 4172: tmp122 = einsum(tmp121, (0, 1, 2, 3), r2.aba, (2, 4, 0), (1, 3, 4))
    .set 246 (.ein [(221, [0, 1, 2, 3]), (31, [2, 4, 0])] [1, 3, 4]) 1 1,
    -- 4173: del tmp121
    .del 221,
    -- 4174: tmp133 = einsum(tmp132, (0, 1, 2), t1.bb, (0, 3), (1, 2, 3))
    .set 247 (.ein [(222, [0, 1, 2]), (28, [0, 3])] [1, 2, 3]) 1 1,
    -- 4175: del tmp132
    .del 222,
    -- 4176: tmp118 = einsum(r2.bbb, (0, 1, 2), v.bbbb.ovov, (3, 4, 2, 1), (3, 0, 4))
    .set 248 (.ein [(26, [0, 1, 2]), (29, [3, 4, 2, 1])] [3, 0, 4]) 1 1,
    -- 4177: tmp93 = einsum(v.aabb.ovov, (0, 1, 2, 3), r2.aba, (1, 4, 0), (2, 4, 3))
    .set 249 (.ein [(64, [0, 1, 2, 3]), (31, [1, 4, 0])] [2, 4, 3]) 1 1,
    -- 4178: tmp98 = einsum(r2.bbb, (0, 1, 2), tmp97, (1, 3), (2, 3, 0)) * -4
    .set 250 (.ein [(26, [0, 1, 2]), (223, [1, 3])] [2, 3, 0]) (-4) 1,
    -- 4179: del tmp97
    .del 223,
    -- 4180: tmp94 = einsum(v.bbbb.oovv, (0, 1, 2, 3), r2.bbb, (4, 3, 1), (0, 4, 2))
    .set 251 (.ein [(38, [0, 1, 2, 3]), (26, [4, 3, 1])] [0, 4, 2]) 1 1,
    -- 4181: tmp115 = einsum(tmp114, (0, 1, 2), t1.bb, (1, 3), (0, 2, 3))
    .set 252 (.ein [(224, [0, 1, 2]), (28, [1, 3])] [0, 2, 3]) 1 1,
    -- 4182: del tmp114
    .del 224,
    -- 4183: tmp111 = einsum(r1.b, (0,), tmp110, (1, 2, 3, 0), (1, 2, 3)) * 2
    .set 253 (.ein [(5, [0]), (225, [1, 2, 3, 0])] [1, 2, 3]) 2 1,
    -- 4184: del tmp110
    .del 225,
    -- 4185: tmp92 = einsum(ints.tmp350, (0, 1, 2, 3), r2.aba, (2, 4, 0), (1, 3, 4))
    .set 254 (.ein [(66, [0, 1, 2, 3]), (31, [2, 4, 0])] [1, 3, 4]) 1 1,
    -- 4186: tmp96 = einsum(tmp95, (0, 1, 2, 3), r2.bbb, (4, 2, 1), (0, 3, 4)) * -2
    .set 255 (.ein [(226, [0, 1, 2, 3]), (26, [4, 2, 1])] [0, 3, 4]) (-2) 1,
    -- 4187: del tmp95
    .del 226,
    -- 4188: tmp109 = einsum(tmp108, (0, 1, 2), t1.bb, (0, 3), (1, 2, 3))
    .set 256 (.ein [(227, [0, 1, 2]), (28, [0, 3])] [1, 2, 3]) 1 1,
    -- 4189: del tmp108
    .del 227,
    -- 4190: tmp77 = einsum(r2.bab, (0, 1, 2), v.aabb.ovov, (3, 1, 4, 0), (3, 2, 4)) * -1
    .set 257 (.ein [(35, [0, 1, 2]), (64, [3, 1, 4, 0])] [3, 2, 4]) (-1) 1,
    -- 4191: tmp87 = np.copy(np.transpose(r2.aaa, (2, 0, 1)))
    .set 258 (.tr 32 [2, 0, 1]) 1 1,
    -- 4192: tmp87 += einsum(t1.aa, (0, 1), r1.a, (2,), (0, 2, 1)) * 0.5
    .add 258 (.ein [(34, [0, 1]), (18, [2])] [0, 2, 1]) 1 2,
    -- 4193: tmp71 = einsum(tmp1, (0, 1), t1.aa, (0, 2), (2, 1))
    .set 259 (.ein [(228, [0, 1]), (34, [0, 2])] [2, 1]) 1 1,
    -- 4194: tmp78 = np.copy(ints.tmp315) * -1
    .set 260 (.cp 3) (-1) 1,
    -- 4195: tmp78 += np.transpose(ints.tmp315, (0, 2, 1, 3))
    .add 260 (.tr 3 [0, 2, 1, 3]) 1 1,
    -- 4196: tmp78 += v.bbbb.ooov
    .add 260 (.cp 4) 1 1,
    -- 4197: tmp78 += np.transpose(v.bbbb.ooov, (0, 2, 1, 3)) * -1
    .add 260 (.tr 4 [0, 2, 1, 3]) (-1) 1,
    -- 4198: tmp4 = einsum(v.aabb.ovov, (0, 1, 2, 3), r2.bab, (3, 1, 2), (0,)) * -1
    .set 261 (.ein [(64, [0, 1, 2, 3]), (35, [3, 1, 2])] [0]) (-1) 1,
    -- 4199: tmp3 = einsum(v.aaaa.ovov, (0, 1, 2, 3), r2.aaa, (1, 3, 2), (0,))
    .set 262 (.ein [(36, [0, 1, 2, 3]), (32, [1, 3, 2])] [0]) 1 1,
    -- 4200: tmp5 = einsum(tmp1, (0, 1), r1.a, (1,), (0,))
    .set 263 (.ein [(228, [0, 1]), (18, [1])] [0]) 1 1,
    -- 4201: tmp63 = einsum(v.aabb.ovov, (0, 1, 2, 3), r2.aba, (1, 3, 4), (4, 0, 2))
    .set 264 (.ein [(64, [0, 1, 2, 3]), (31, [1, 3, 4])] [4, 0, 2]) 1 1,
    -- 4202: tmp74 = np.copy(np.transpose(r2.bbb, (2, 0, 1)))
    .set 265 (.tr 26 [2, 0, 1]) 1 1,
    -- 4203: tmp74 += einsum(r1.b, (0,), t1.bb, (1, 2), (1, 0, 2)) * 0.5
    .add 265 (.ein [(5, [0]), (28, [1, 2])] [1, 0, 2]) 1 2,
    -- 4204: tmp64 = np.copy(ints.tmp158)
    .set 266 (.cp 16) 1 1,
    -- 4205: tmp64 += np.transpose(ints.tmp158, (0, 2, 1, 3)) * -1
    .add 266 (.tr 16 [0, 2, 1, 3]) (-1) 1,
    -- 4206: tmp64 += v.aaaa.ooov * -1
    .add 266 (.cp 17) (-1) 1,
    -- 4207: tmp64 += np.transpose(v.aaaa.ooov, (0, 2, 1, 3))
    .add 266 (.tr 17 [0, 2, 1, 3]) 1 1,
    -- 4208: tmp13 = einsum(v.aaaa.ovov, (0, 1, 2, 3), r2.aaa, (4, 3, 2), (0, 4, 1))
    .set 267 (.ein [(36, [0, 1, 2, 3]), (32, [4, 3, 2])] [0, 4, 1]) 1 1,
    -- 4209: tmp15 = einsum(t1.aa, (0, 1), tmp14, (2, 0, 3), (2, 1, 3))
    .set 268 (.ein [(34, [0, 1]), (229, [2, 0, 3])] [2, 1, 3]) 1 1,
    -- 4210: del tmp14
    .del 229,
    -- 4211: tmp28 = einsum(t1.aa, (0, 1), tmp27, (2, 0, 3), (2, 1, 3))
    .set 269 (.ein [(34, [0, 1]), (230, [2, 0, 3])] [2, 1, 3]) 1 1,
    -- 4212: del tmp27
    .del 230,
    -- 4213: tmp30 = einsum(tmp29, (0, 1, 2, 3), r1.a, (2,), (0, 1, 3))
    .set 270 (.ein [(231, [0, 1, 2, 3]), (18, [2])] [0, 1, 3]) 1 1,
    -- 4214: del tmp29
    .del 231,
    -- 4215: tmp19 = einsum(tmp18, (0, 1, 2, 3), r2.aaa, (4, 3, 1), (0, 4, 2)) * -1
    .set 271 (.ein [(232, [0, 1, 2, 3]), (32, [4, 3, 1])] [0, 4, 2]) (-1) 1,
    -- 4216: del tmp18
    .del 232,
    -- 4217: tmp17 = einsum(v.aabb.ovov, (0, 1, 2, 3), r2.bab, (3, 4, 2), (0, 4, 1)) * -1
    .set 272 (.ein [(64, [0, 1, 2, 3]), (35, [3, 4, 2])] [0, 4, 1]) (-1) 1,
    -- 4218: tmp16 = einsum(ints.tmp71, (0, 1, 2, 3), r2.bab, (3, 4, 1), (0, 2, 4)) * -1
    .set 273 (.ein [(67, [0, 1, 2, 3]), (35, [3, 4, 1])] [0, 2, 4]) (-1) 1,
    -- 4219: tmp12 = einsum(ints.tmp5, (0, 1), r2.aaa, (2, 0, 3), (3, 1, 2))
    .set 274 (.ein [(68, [0, 1]), (32, [2, 0, 3])] [3, 1, 2]) 1 1,
    -- 4220: tmp32 = einsum(v.aaaa.oovv, (0, 1, 2, 3), r2.aaa, (4, 3, 1), (0, 4, 2))
    .set 275 (.ein [(51, [0, 1, 2, 3]), (32, [4, 3, 1])] [0, 4, 2]) 1 1,
    -- 4221: tmp38 = einsum(tmp37, (0, 1), r2.aaa, (2, 0, 3), (3, 2, 1)) * -4
    .set 276 (.ein [(233, [0, 1]), (32, [2, 0, 3])] [3, 2, 1]) (-4) 1,
    -- 4222: del tmp37
    .del 233,
    -- 4223: tmp36 = einsum(r2.bab, (0, 1, 2), tmp35, (3, 2, 4, 0), (3, 1, 4)) * -1
    .set 277 (.ein [(35, [0, 1, 2]), (234, [3, 2, 4, 0])] [3, 1, 4]) (-1) 1,
    -- 4224: del tmp35
    .del 234,
    -- 4225: tmp50 = einsum(t1.aa, (0, 1), tmp49, (0, 2, 3), (2, 1, 3)) * 2
    .set 278 (.ein [(34, [0, 1]), (235, [0, 2, 3])] [2, 1, 3]) 2 1,
    -- 4226: del tmp49
    .del 235,
    -- 4227: tmp34 = einsum(tmp33, (0, 1, 2, 3), r2.aaa, (4, 2, 1), (0, 4, 3)) * -2
    .set 279 (.ein [(236, [0, 1, 2, 3]), (32, [4, 2, 1])] [0, 4, 3]) (-2) 1,
    -- 4228: del tmp33
    .del 236,
    -- 4229: tmp52 = einsum(tmp51, (0, 1, 2, 3), r1.a, (3,), (0, 1, 2)) * 2
    .set 280 (.ein [(237, [0, 1, 2, 3]), (18, [3])] [0, 1, 2]) 2 1,
    -- 4230: del tmp51
    .del 237,
    -- 4231: tmp56 = einsum(tmp55, (0, 1, 2), t1.aa, (1, 3), (0, 3, 2))
    .set 281 (.ein [(238, [0, 1, 2]), (34, [1, 3])] [0, 3, 2]) 1 1,
    -- 4232: del tmp55
    .del 238,
    -- 4233: tmp137 = np.copy(ints.tmp423)
    .set 282 (.cp 69) 1 1,
    -- 4234: tmp137 += ints.tmp450 * -1
    .add 282 (.cp 70) (-1) 1,
    -- 4235: tmp11 = np.copy(tmp8) * -1
    .set 283 (.cp 240) (-1) 1,
    -- 4236: del tmp8
    .del 240,
    -- 4237: tmp11 += tmp9 * 2
    .add 283 (.cp 241) 2 1,
    -- 4238: del tmp9
    .del 241,
    -- 4239: tmp11 += tmp10
    .add 283 (.cp 239) 1 1,
    -- 4240: del tmp10
    .del 239,
    -- 4241: tmp136 = np.copy(tmp117) * 2
    .set 284 (.cp 244) 2 1,
    -- 4242: del tmp117
    .del 244,
    -- 4243: tmp136 += tmp118 * 2
    .add 284 (.cp 248) 2 1,
    -- 4244: del tmp118
    .del 248,
    -- 4245: tmp136 += tmp120
    .add 284 (.cp 242) 1 1,
    -- 4246: del tmp120
    .del 242,
    -- 4247: tmp136 += tmp122
    .add 284 (.cp 246) 1 1,
    -- 4248: del tmp122
    .del 246,
    -- 4249: tmp136 += tmp124 * -2
    .add 284 (.cp 245) (-2) 1,
    -- 4250: del tmp124
    .del 245,
    -- 4251: tmp136 += tmp133
    .add 284 (.cp 247) 1 1,
    -- 4252: del tmp133
    .del 247,
    -- 4253: tmp136 += tmp135
    .add 284 (.cp 243) 1 1,
    -- 4254: del tmp135
    .del 243,
    -- 4255: tmp91 = np.copy(ints.tmp271)
    .set 285 (.cp 71) 1 1,
    -- 4256: tmp91 += ints.tmp294 * 2
    .add 285 (.cp 72) 2 1,
    -- 4257: tmp91 += ints.tmp304
    .add 285 (.cp 73) 1 1,
    -- 4258: tmp91 += ints.tmp313
    .add 285 (.cp 74) 1 1,
    -- 4259: tmp91 += ints.tmp316 * 2
    .add 285 (.cp 75) 2 1,
    -- 4260: tmp91 += ints.tmp317
    .add 285 (.cp 76) 1 1,
    -- 4261: tmp91 += ints.tmp318 * 2
    .add 285 (.cp 77) 2 1,
    -- 4262: tmp91 += ints.tmp319
    .add 285 (.cp 78) 1 1,
    -- 4263: tmp91 += ints.tmp326
    .add 285 (.cp 79) 1 1,
    -- 4264: tmp91 += ints.tmp327
    .add 285 (.cp 80) 1 1,
    -- 4265: tmp91 += ints.tmp328
    .add 285 (.cp 81) 1 1,
    -- 4266: tmp91 += ints.tmp334 * 2
    .add 285 (.cp 82) 2 1,
    -- 4267: tmp91 += ints.tmp335
    .add 285 (.cp 83) 1 1,
    -- 4268: tmp91 += ints.tmp337
    .add 285 (.cp 84) 1 1,
    -- 4269: tmp91 += ints.tmp338
    .add 285 (.cp 85) 1 1,
    -- 4270: tmp91 += ints.tmp361
    .add 285 (.cp 86) 1 1,
    -- 4271: tmp91 += ints.tmp363 * 2
    .add 285 (.cp 87) 2 1,
    -- 4272: tmp91 += f.bb.ov * -1
    .add 285 (.cp 6) (-1) 1,
    -- 4273: tmp91 += ints.tmp12 * -1
    .add 285 (.cp 7) (-1) 1,
    -- 4274: tmp91 += ints.tmp15 * -1
    .add 285 (.cp 8) (-1) 1,
    -- 4275: tmp91 += ints.tmp286 * -1
    .add 285 (.cp 88) (-1) 1,
    -- 4276: tmp91 += ints.tmp295 * -1
    .add 285 (.cp 89) (-1) 1,
    -- 4277: tmp91 += ints.tmp303 * -1
    .add 285 (.cp 90) (-1) 1,
    -- 4278: tmp91 += ints.tmp305 * -1
    .add 285 (.cp 91) (-1) 1,
    -- 4279: tmp91 += ints.tmp325 * -1
    .add 285 (.cp 92) (-1) 1,
    -- 4280: tmp91 += ints.tmp336 * -1
    .add 285 (.cp 93) (-1) 1,
    -- 4281: tmp91 += ints.tmp340 * -1
    .add 285 (.cp 94) (-1) 1,
    -- 4282: tmp91 += ints.tmp341 * -2
    .add 285 (.cp 95) (-2) 1,
    -- 4283: tmp91 += ints.tmp362 * -1
    .add 285 (.cp 96) (-1) 1,
    -- 4284: tmp91 += ints.tmp364 * -2
    .add 285 (.cp 97) (-2) 1,
    -- 4285: tmp91 += ints.tmp365 * -1
    .add 285 (.cp 98) (-1) 1,
    -- 4286: tmp91 += ints.tmp366 * -2
    .add 285 (.cp 99) (-2) 1,
    -- 4287: tmp138 = einsum(r2.bbb, (0, 1, 2), v.bbbb.ovov, (3, 1, 4, 0), (2, 3, 4)) * -1
    .set 286 (.ein [(26, [0, 1, 2]), (29, [3, 1, 4, 0])] [2, 3, 4]) (-1) 1,
    -- 4288: tmp139 = np.copy(t2.bbbb)
    .set 287 (.cp 100) 1 1,
    -- 4289: tmp139 += einsum(t1.bb, (0, 1), t1.bb, (2, 3), (0, 2, 1, 3))
    .add 287 (.ein [(28, [0, 1]), (28, [2, 3])] [0, 2, 1, 3]) 1 1,
    -- 4290: tmp116 = np.copy(tmp92)
    .set 288 (.cp 254) 1 1,
    -- 4291: del tmp92
    .del 254,
    -- 4292: tmp116 += tmp93
    .add 288 (.cp 249) 1 1,
    -- 4293: del tmp93
    .del 249,
    -- 4294: tmp116 += tmp94 * 2
    .add 288 (.cp 251) 2 1,
    -- 4295: del tmp94
    .del 251,
    -- 4296: tmp116 += tmp96 * -1
    .add 288 (.cp 255) (-1) 1,
    -- 4297: del tmp96
    .del 255,
    -- 4298: tmp116 += tmp98 * -1
    .add 288 (.cp 250) (-1) 1,
    -- 4299: del tmp98
    .del 250,
    -- 4300: tmp116 += tmp109
    .add 288 (.cp 256) 1 1,
    -- 4301: del tmp109
    .del 256,
    -- 4302: tmp116 += tmp111
    .add 288 (.cp 253) 1 1,
    -- 4303: del tmp111
    .del 253,
    -- 4304: tmp116 += np.transpose(tmp115, (0, 2, 1))
    .add 288 (.tr 252 [0, 2, 1]) 1 1,
    -- 4305: del tmp115
    .del 252,
    -- 4306: tmp86 = np.copy(f.bb.oo)
    .set 289 (.cp 101) 1 1,
    -- 4307: tmp86 += np.transpose(ints.tmp273, (1, 0))
    .add 289 (.tr 102 [1, 0]) 1 1,
    -- 4308: tmp86 += np.transpose(ints.tmp274, (1, 0))
    .add 289 (.tr 103 [1, 0]) 1 1,
    -- 4309: tmp86 += ints.tmp287
    .add 289 (.cp 104) 1 1,
    -- 4310: tmp86 += np.transpose(ints.tmp296, (1, 0)) * 2
    .add 289 (.tr 105 [1, 0]) 2 1,
    -- 4311: tmp86 += np.transpose(ints.tmp298, (1, 0))
    .add 289 (.tr 106 [1, 0]) 1 1,
    -- 4312: tmp86 += np.transpose(ints.tmp308, (1, 0))
    .add 289 (.tr 107 [1, 0]) 1 1,
    -- 4313: tmp86 += np.transpose(ints.tmp309, (1, 0))
    .add 289 (.tr 108 [1, 0]) 1 1,
    -- 4314: tmp86 += np.transpose(ints.tmp272, (1, 0)) * -1
    .add 289 (.tr 109 [1, 0]) (-1) 1,
    -- 4315: tmp86 += np.transpose(ints.tmp307, (1, 0)) * -1
    .add 289 (.tr 110 [1, 0]) (-1) 1,
    -- 4316: tmp82 = np.copy(np.transpose(r2.bab, (2, 1, 0))) * -1
    .set 290 (.tr 35 [2, 1, 0]) (-1) 1,
    -- 4317: tmp82 += einsum(r1.a, (0,), t1.bb, (1, 2), (1, 0, 2))
    .add 290 (.ein [(18, [0]), (28, [1, 2])] [1, 0, 2]) 1 1,
    -- 4318: tmp80 = np.copy(np.transpose(r2.aaa, (2, 0, 1))) * 2
    .set 291 (.tr 32 [2, 0, 1]) 2 1,
    -- 4319: tmp80 += einsum(t1.aa, (0, 1), r1.a, (2,), (0, 2, 1))
    .add 291 (.ein [(34, [0, 1]), (18, [2])] [0, 2, 1]) 1 1,
    -- 4320: tmp85 = np.copy(ints.tmp276)
    .set 292 (.cp 111) 1 1,
    -- 4321: tmp85 += ints.tmp289
    .add 292 (.cp 112) 1 1,
    -- 4322: tmp85 += ints.tmp301
    .add 292 (.cp 113) 1 1,
    -- 4323: tmp85 += ints.tmp344
    .add 292 (.cp 114) 1 1,
    -- 4324: tmp85 += ints.tmp346 * 2
    .add 292 (.cp 115) 2 1,
    -- 4325: tmp85 += np.transpose(v.aabb.vvov, (2, 0, 1, 3))
    .add 292 (.tr 116 [2, 0, 1, 3]) 1 1,
    -- 4326: tmp85 += ints.tmp263 * -1
    .add 292 (.cp 117) (-1) 1,
    -- 4327: tmp85 += np.transpose(ints.tmp345, (0, 2, 1, 3)) * -1
    .add 292 (.tr 118 [0, 2, 1, 3]) (-1) 1,
    -- 4328: tmp81 = np.copy(ints.tmp292)
    .set 293 (.cp 41) 1 1,
    -- 4329: tmp81 += ints.tmp352
    .add 293 (.cp 42) 1 1,
    -- 4330: tmp81 += ints.tmp358 * 2
    .add 293 (.cp 43) 2 1,
    -- 4331: tmp81 += np.transpose(v.aabb.ovov, (0, 2, 1, 3))
    .add 293 (.tr 64 [0, 2, 1, 3]) 1 1,
    -- 4332: tmp81 += ints.tmp350 * -1
    .add 293 (.cp 66) (-1) 1,
    -- 4333: tmp89 = einsum(v.aabb.vvov, (0, 1, 2, 3), r2.bab, (3, 1, 4), (4, 2, 0)) * -1
    .set 294 (.ein [(116, [0, 1, 2, 3]), (35, [3, 1, 4])] [4, 2, 0]) (-1) 1,
    -- 4334: tmp89 += einsum(tmp77, (0, 1, 2), t1.aa, (0, 3), (1, 2, 3)) * -1
    .add 294 (.ein [(257, [0, 1, 2]), (34, [0, 3])] [1, 2, 3]) (-1) 1,
    -- 4335: tmp89 += einsum(tmp88, (0, 1, 2, 3), tmp87, (0, 3, 4), (1, 2, 4)) * -2
    .add 294 (.ein [(184, [0, 1, 2, 3]), (258, [0, 3, 4])] [1, 2, 4]) (-2) 1,
    -- 4336: del tmp87
    .del 258,
    -- 4337: tmp83 = np.copy(ints.tmp314)
    .set 295 (.cp 119) 1 1,
    -- 4338: tmp83 += np.transpose(v.aabb.vvoo, (2, 3, 0, 1))
    .add 295 (.tr 120 [2, 3, 0, 1]) 1 1,
    -- 4339: tmp83 += ints.tmp266 * -1
    .add 295 (.cp 121) (-1) 1,
    -- 4340: tmp90 = einsum(v.aabb.ovvv, (0, 1, 2, 3), r2.bab, (3, 1, 4), (0, 4, 2))
    .set 296 (.ein [(122, [0, 1, 2, 3]), (35, [3, 1, 4])] [0, 4, 2]) 1 1,
    -- 4341: tmp90 += einsum(r2.bab, (0, 1, 2), tmp88, (3, 4, 2, 1), (3, 4, 0)) * -1
    .add 296 (.ein [(35, [0, 1, 2]), (184, [3, 4, 2, 1])] [3, 4, 0]) (-1) 1,
    -- 4342: del tmp88
    .del 184,
    -- 4343: tmp84 = np.copy(ints.tmp32) * 0.5
    .set 297 (.cp 65) 1 2,
    -- 4344: tmp84 += np.transpose(ints.tmp41, (1, 0))
    .add 297 (.tr 47 [1, 0]) 1 1,
    -- 4345: tmp84 += np.transpose(ints.tmp43, (1, 0)) * 0.5
    .add 297 (.tr 48 [1, 0]) 1 2,
    -- 4346: tmp84 += f.bb.vv * -0.5
    .add 297 (.cp 44) (-1) 2,
    -- 4347: tmp84 += np.transpose(ints.tmp31, (1, 0)) * -0.5
    .add 297 (.tr 45 [1, 0]) (-1) 2,
    -- 4348: tmp84 += np.transpose(ints.tmp33, (1, 0)) * -0.5
    .add 297 (.tr 46 [1, 0]) (-1) 2,
    -- 4349: tmp84 += einsum(tmp0, (0, 1), t1.bb, (0, 2), (1, 2)) * 0.5
    .add 297 (.ein [(217, [0, 1]), (28, [0, 2])] [1, 2]) 1 2,
    -- 4350: tmp72 = np.copy(np.transpose(ints.tmp20, (1, 0))) * 2
    .set 298 (.tr 57 [1, 0]) 2 1,
    -- 4351: tmp72 += np.transpose(ints.tmp22, (1, 0))
    .add 298 (.tr 58 [1, 0]) 1 1,
    -- 4352: tmp72 += ints.tmp5
    .add 298 (.cp 68) 1 1,
    -- 4353: tmp72 += f.aa.vv * -1
    .add 298 (.cp 54) (-1) 1,
    -- 4354: tmp72 += np.transpose(ints.tmp4, (1, 0)) * -1
    .add 298 (.tr 55 [1, 0]) (-1) 1,
    -- 4355: tmp72 += np.transpose(ints.tmp6, (1, 0)) * -1
    .add 298 (.tr 56 [1, 0]) (-1) 1,
    -- 4356: tmp72 += np.transpose(tmp71, (1, 0))
    .add 298 (.tr 259 [1, 0]) 1 1,
    -- 4357: del tmp71
    .del 259,
    -- 4358: tmp79 = np.copy(np.transpose(ints.tmp291, (0, 1, 3, 2)))
    .set 299 (.tr 0 [0, 1, 3, 2]) 1 1,
    -- 4359: tmp79 += ints.tmp356 * 2
    .add 299 (.cp 2) 2 1,
    -- 4360: tmp79 += ints.tmp360
    .add 299 (.cp 1) 1 1,
    -- 4361: tmp79 += np.transpose(v.bbbb.ovov, (0, 2, 1, 3))
    .add 299 (.tr 29 [0, 2, 1, 3]) 1 1,
    -- 4362: tmp79 += ints.tmp290 * -1
    .add 299 (.cp 9) (-1) 1,
    -- 4363: tmp79 += ints.tmp354 * -2
    .add 299 (.cp 10) (-2) 1,
    -- 4364: tmp79 += v.bbbb.oovv * -1
    .add 299 (.cp 38) (-1) 1,
    -- 4365: tmp79 += einsum(t1.bb, (0, 1), tmp78, (2, 0, 3, 4), (2, 3, 1, 4)) * -1
    .add 299 (.ein [(28, [0, 1]), (260, [2, 0, 3, 4])] [2, 3, 1, 4]) (-1) 1,
    -- 4366: del tmp78
    .del 260,
    -- 4367: tmp6 = np.copy(tmp3) * 2
    .set 300 (.cp 262) 2 1,
    -- 4368: del tmp3
    .del 262,
    -- 4369: tmp6 += tmp4
    .add 300 (.cp 261) 1 1,
    -- 4370: del tmp4
    .del 261,
    -- 4371: tmp6 += tmp5
    .add 300 (.cp 263) 1 1,
    -- 4372: del tmp5
    .del 263,
    -- 4373: tmp73 = np.copy(ints.tmp205)
    .set 301 (.cp 123) 1 1,
    -- 4374: tmp73 += ints.tmp216
    .add 301 (.cp 124) 1 1,
    -- 4375: tmp73 += ints.tmp220
    .add 301 (.cp 125) 1 1,
    -- 4376: tmp73 += ints.tmp240
    .add 301 (.cp 126) 1 1,
    -- 4377: tmp73 += ints.tmp242 * 2
    .add 301 (.cp 127) 2 1,
    -- 4378: tmp73 += v.aabb.ovvv
    .add 301 (.cp 122) 1 1,
    -- 4379: tmp73 += ints.tmp196 * -1
    .add 301 (.cp 128) (-1) 1,
    -- 4380: tmp73 += np.transpose(ints.tmp241, (0, 1, 3, 2)) * -1
    .add 301 (.tr 129 [0, 1, 3, 2]) (-1) 1,
    -- 4381: tmp62 = np.copy(ints.tmp101)
    .set 302 (.cp 130) 1 1,
    -- 4382: tmp62 += ints.tmp116 * 2
    .add 302 (.cp 131) 2 1,
    -- 4383: tmp62 += ints.tmp117
    .add 302 (.cp 132) 1 1,
    -- 4384: tmp62 += ints.tmp128
    .add 302 (.cp 133) 1 1,
    -- 4385: tmp62 += ints.tmp129
    .add 302 (.cp 134) 1 1,
    -- 4386: tmp62 += ints.tmp139
    .add 302 (.cp 135) 1 1,
    -- 4387: tmp62 += ints.tmp152 * 2
    .add 302 (.cp 136) 2 1,
    -- 4388: tmp62 += ints.tmp159 * 2
    .add 302 (.cp 137) 2 1,
    -- 4389: tmp62 += ints.tmp161
    .add 302 (.cp 138) 1 1,
    -- 4390: tmp62 += ints.tmp164 * 2
    .add 302 (.cp 139) 2 1,
    -- 4391: tmp62 += ints.tmp165
    .add 302 (.cp 140) 1 1,
    -- 4392: tmp62 += ints.tmp167
    .add 302 (.cp 141) 1 1,
    -- 4393: tmp62 += ints.tmp186
    .add 302 (.cp 142) 1 1,
    -- 4394: tmp62 += ints.tmp187
    .add 302 (.cp 143) 1 1,
    -- 4395: tmp62 += ints.tmp79 * 2
    .add 302 (.cp 144) 2 1,
    -- 4396: tmp62 += ints.tmp81
    .add 302 (.cp 145) 1 1,
    -- 4397: tmp62 += ints.tmp98
    .add 302 (.cp 146) 1 1,
    -- 4398: tmp62 += f.aa.ov * -1
    .add 302 (.cp 19) (-1) 1,
    -- 4399: tmp62 += ints.tmp127 * -1
    .add 302 (.cp 147) (-1) 1,
    -- 4400: tmp62 += ints.tmp136 * -1
    .add 302 (.cp 148) (-1) 1,
    -- 4401: tmp62 += ints.tmp13 * -1
    .add 302 (.cp 20) (-1) 1,
    -- 4402: tmp62 += ints.tmp153 * -1
    .add 302 (.cp 149) (-1) 1,
    -- 4403: tmp62 += ints.tmp166 * -1
    .add 302 (.cp 150) (-1) 1,
    -- 4404: tmp62 += ints.tmp168 * -1
    .add 302 (.cp 151) (-1) 1,
    -- 4405: tmp62 += ints.tmp185 * -1
    .add 302 (.cp 152) (-1) 1,
    -- 4406: tmp62 += ints.tmp50 * -2
    .add 302 (.cp 153) (-2) 1,
    -- 4407: tmp62 += ints.tmp51 * -1
    .add 302 (.cp 154) (-1) 1,
    -- 4408: tmp62 += ints.tmp80 * -2
    .add 302 (.cp 155) (-2) 1,
    -- 4409: tmp62 += ints.tmp82 * -1
    .add 302 (.cp 156) (-1) 1,
    -- 4410: tmp62 += ints.tmp83 * -2
    .add 302 (.cp 157) (-2) 1,
    -- 4411: tmp62 += ints.tmp84 * -1
    .add 302 (.cp 158) (-1) 1,
    -- 4412: tmp62 += ints.tmp9 * -1
    .add 302 (.cp 21) (-1) 1,
    -- 4413: tmp66 = np.copy(np.transpose(r2.bbb, (2, 0, 1))) * 2
    .set 303 (.tr 26 [2, 0, 1]) 2 1,
    -- 4414: tmp66 += einsum(r1.b, (0,), t1.bb, (1, 2), (1, 0, 2))
    .add 303 (.ein [(5, [0]), (28, [1, 2])] [1, 0, 2]) 1 1,
    -- 4415: tmp69 = np.copy(ints.tmp226)
    .set 304 (.cp 159) 1 1,
    -- 4416: tmp69 += v.aabb.oovv
    .add 304 (.cp 160) 1 1,
    -- 4417: tmp69 += ints.tmp199 * -1
    .add 304 (.cp 161) (-1) 1,
    -- 4418: tmp58 = np.copy(f.aa.oo)
    .set 305 (.cp 162) 1 1,
    -- 4419: tmp58 += np.transpose(ints.tmp106, (1, 0))
    .add 305 (.tr 163 [1, 0]) 1 1,
    -- 4420: tmp58 += np.transpose(ints.tmp108, (1, 0))
    .add 305 (.tr 164 [1, 0]) 1 1,
    -- 4421: tmp58 += ints.tmp137
    .add 305 (.cp 165) 1 1,
    -- 4422: tmp58 += np.transpose(ints.tmp154, (1, 0)) * 2
    .add 305 (.tr 166 [1, 0]) 2 1,
    -- 4423: tmp58 += np.transpose(ints.tmp156, (1, 0))
    .add 305 (.tr 167 [1, 0]) 1 1,
    -- 4424: tmp58 += np.transpose(ints.tmp175, (1, 0))
    .add 305 (.tr 168 [1, 0]) 1 1,
    -- 4425: tmp58 += np.transpose(ints.tmp177, (1, 0))
    .add 305 (.tr 169 [1, 0]) 1 1,
    -- 4426: tmp58 += np.transpose(ints.tmp104, (1, 0)) * -1
    .add 305 (.tr 170 [1, 0]) (-1) 1,
    -- 4427: tmp58 += np.transpose(ints.tmp173, (1, 0)) * -1
    .add 305 (.tr 171 [1, 0]) (-1) 1,
    -- 4428: tmp70 = np.copy(ints.tmp32)
    .set 306 (.cp 65) 1 1,
    -- 4429: tmp70 += np.transpose(ints.tmp41, (1, 0)) * 2
    .add 306 (.tr 47 [1, 0]) 2 1,
    -- 4430: tmp70 += np.transpose(ints.tmp43, (1, 0))
    .add 306 (.tr 48 [1, 0]) 1 1,
    -- 4431: tmp70 += f.bb.vv * -1
    .add 306 (.cp 44) (-1) 1,
    -- 4432: tmp70 += np.transpose(ints.tmp31, (1, 0)) * -1
    .add 306 (.tr 45 [1, 0]) (-1) 1,
    -- 4433: tmp70 += np.transpose(ints.tmp33, (1, 0)) * -1
    .add 306 (.tr 46 [1, 0]) (-1) 1,
    -- 4434: tmp70 += einsum(tmp0, (0, 1), t1.bb, (0, 2), (1, 2))
    .add 306 (.ein [(217, [0, 1]), (28, [0, 2])] [1, 2]) 1 1,
    -- 4435: tmp76 = einsum(r2.aba, (0, 1, 2), v.aabb.vvov, (3, 0, 4, 1), (2, 4, 3)) * -1
    .set 307 (.ein [(31, [0, 1, 2]), (116, [3, 0, 4, 1])] [2, 4, 3]) (-1) 1,
    -- 4436: tmp76 += einsum(tmp43, (0, 1, 2, 3), r2.aba, (4, 3, 1), (0, 2, 4))
    .add 307 (.ein [(192, [0, 1, 2, 3]), (31, [4, 3, 1])] [0, 2, 4]) 1 1,
    -- 4437: tmp75 = einsum(r2.aba, (0, 1, 2), v.aabb.ovvv, (3, 0, 4, 1), (2, 3, 4)) * -0.5
    .set 308 (.ein [(31, [0, 1, 2]), (122, [3, 0, 4, 1])] [2, 3, 4]) (-1) 2,
    -- 4438: tmp75 += einsum(tmp63, (0, 1, 2), t1.bb, (2, 3), (0, 1, 3)) * 0.5
    .add 308 (.ein [(264, [0, 1, 2]), (28, [2, 3])] [0, 1, 3]) 1 2,
    -- 4439: tmp75 += einsum(tmp43, (0, 1, 2, 3), tmp74, (2, 3, 4), (0, 1, 4)) * -1
    .add 308 (.ein [(192, [0, 1, 2, 3]), (265, [2, 3, 4])] [0, 1, 4]) (-1) 1,
    -- 4440: del tmp43, tmp74
    .del 192,
    .del 265,
    -- 4441: tmp65 = np.copy(np.transpose(ints.tmp148, (0, 1, 3, 2)))
    .set 309 (.tr 13 [0, 1, 3, 2]) 1 1,
    -- 4442: tmp65 += ints.tmp69 * 2
    .add 309 (.cp 15) 2 1,
    -- 4443: tmp65 += ints.tmp75
    .add 309 (.cp 14) 1 1,
    -- 4444: tmp65 += np.transpose(v.aaaa.ovov, (0, 2, 1, 3))
    .add 309 (.tr 36 [0, 2, 1, 3]) 1 1,
    -- 4445: tmp65 += ints.tmp146 * -1
    .add 309 (.cp 24) (-1) 1,
    -- 4446: tmp65 += ints.tmp67 * -2
    .add 309 (.cp 25) (-2) 1,
    -- 4447: tmp65 += v.aaaa.oovv * -1
    .add 309 (.cp 51) (-1) 1,
    -- 4448: tmp65 += einsum(tmp64, (0, 1, 2, 3), t1.aa, (2, 4), (0, 1, 4, 3)) * -1
    .add 309 (.ein [(266, [0, 1, 2, 3]), (34, [2, 4])] [0, 1, 4, 3]) (-1) 1,
    -- 4449: del tmp64
    .del 266,
    -- 4450: tmp68 = np.copy(np.transpose(r2.aba, (2, 0, 1)))
    .set 310 (.tr 31 [2, 0, 1]) 1 1,
    -- 4451: tmp68 += einsum(r1.b, (0,), t1.aa, (1, 2), (1, 2, 0)) * -1
    .add 310 (.ein [(5, [0]), (34, [1, 2])] [1, 2, 0]) (-1) 1,
    -- 4452: tmp67 = np.copy(ints.tmp150)
    .set 311 (.cp 59) 1 1,
    -- 4453: tmp67 += ints.tmp73
    .add 311 (.cp 60) 1 1,
    -- 4454: tmp67 += ints.tmp77 * 2
    .add 311 (.cp 61) 2 1,
    -- 4455: tmp67 += np.transpose(v.aabb.ovov, (0, 2, 1, 3))
    .add 311 (.tr 64 [0, 2, 1, 3]) 1 1,
    -- 4456: tmp67 += ints.tmp71 * -1
    .add 311 (.cp 67) (-1) 1,
    -- 4457: tmp61 = np.copy(t2.aaaa)
    .set 312 (.cp 172) 1 1,
    -- 4458: tmp61 += einsum(t1.aa, (0, 1), t1.aa, (2, 3), (2, 0, 3, 1))
    .add 312 (.ein [(34, [0, 1]), (34, [2, 3])] [2, 0, 3, 1]) 1 1,
    -- 4459: tmp31 = np.copy(tmp12) * 2
    .set 313 (.cp 274) 2 1,
    -- 4460: del tmp12
    .del 274,
    -- 4461: tmp31 += tmp13 * 2
    .add 313 (.cp 267) 2 1,
    -- 4462: del tmp13
    .del 267,
    -- 4463: tmp31 += tmp15
    .add 313 (.cp 268) 1 1,
    -- 4464: del tmp15
    .del 268,
    -- 4465: tmp31 += tmp16
    .add 313 (.cp 273) 1 1,
    -- 4466: del tmp16
    .del 273,
    -- 4467: tmp31 += tmp17
    .add 313 (.cp 272) 1 1,
    -- 4468: del tmp17
    .del 272,
    -- 4469: tmp31 += np.transpose(tmp19, (0, 2, 1)) * -2
    .add 313 (.tr 271 [0, 2, 1]) (-2) 1,
    -- 4470: del tmp19
    .del 271,
    -- 4471: tmp31 += np.transpose(tmp28, (0, 2, 1))
    .add 313 (.tr 269 [0, 2, 1]) 1 1,
    -- 4472: del tmp28
    .del 269,
    -- 4473: tmp31 += tmp30
    .add 313 (.cp 270) 1 1,
    -- 4474: del tmp30
    .del 270,
    -- 4475: tmp59 = np.copy(ints.tmp118)
    .set 314 (.cp 173) 1 1,
    -- 4476: tmp59 += ints.tmp162 * -1
    .add 314 (.cp 174) (-1) 1,
    -- 4477: tmp57 = np.copy(tmp32) * 2
    .set 315 (.cp 275) 2 1,
    -- 4478: del tmp32
    .del 275,
    -- 4479: tmp57 += np.transpose(tmp34, (0, 2, 1)) * -1
    .add 315 (.tr 279 [0, 2, 1]) (-1) 1,
    -- 4480: del tmp34
    .del 279,
    -- 4481: tmp57 += np.transpose(tmp36, (0, 2, 1))
    .add 315 (.tr 277 [0, 2, 1]) 1 1,
    -- 4482: del tmp36
    .del 277,
    -- 4483: tmp57 += np.transpose(tmp38, (0, 2, 1)) * -1
    .add 315 (.tr 276 [0, 2, 1]) (-1) 1,
    -- 4484: del tmp38
    .del 276,
    -- 4485: tmp57 += np.transpose(tmp50, (0, 2, 1))
    .add 315 (.tr 278 [0, 2, 1]) 1 1,
    -- 4486: del tmp50
    .del 278,
    -- 4487: tmp57 += tmp52
    .add 315 (.cp 280) 1 1,
    -- 4488: del tmp52
    .del 280,
    -- 4489: tmp57 += tmp56
    .add 315 (.cp 281) 1 1,
    -- 4490: del tmp56
    .del 281,
    -- 4491: tmp60 = einsum(v.aaaa.ovov, (0, 1, 2, 3), r2.aaa, (1, 3, 4), (4, 0, 2))
    .set 316 (.ein [(36, [0, 1, 2, 3]), (32, [1, 3, 4])] [4, 0, 2]) 1 1,
    -- 4492: tmp7 = np.copy(ints.tmp32)
    .set 317 (.cp 65) 1 1,
    -- 4493: tmp7 += np.transpose(ints.tmp41, (1, 0)) * 2
    .add 317 (.tr 47 [1, 0]) 2 1,
    -- 4494: tmp7 += np.transpose(ints.tmp43, (1, 0))
    .add 317 (.tr 48 [1, 0]) 1 1,
    -- 4495: tmp7 += f.bb.vv * -1
    .add 317 (.cp 44) (-1) 1,
    -- 4496: tmp7 += np.transpose(ints.tmp31, (1, 0)) * -1
    .add 317 (.tr 45 [1, 0]) (-1) 1,
    -- 4497: tmp7 += np.transpose(ints.tmp33, (1, 0)) * -1
    .add 317 (.tr 46 [1, 0]) (-1) 1,
    -- 4498: tmp2 = np.copy(np.transpose(ints.tmp20, (1, 0))) * 2
    .set 318 (.tr 57 [1, 0]) 2 1,
    -- 4499: tmp2 += np.transpose(ints.tmp22, (1, 0))
    .add 318 (.tr 58 [1, 0]) 1 1,
    -- 4500: tmp2 += ints.tmp5
    .add 318 (.cp 68) 1 1,
    -- 4501: tmp2 += f.aa.vv * -1
    .add 318 (.cp 54) (-1) 1,
    -- 4502: tmp2 += np.transpose(ints.tmp4, (1, 0)) * -1
    .add 318 (.tr 55 [1, 0]) (-1) 1,
    -- 4503: tmp2 += np.transpose(ints.tmp6, (1, 0)) * -1
    .add 318 (.tr 56 [1, 0]) (-1) 1,
    -- 4504: r2new.bbb = einsum(v.bbbb.vvvv, (0, 1, 2, 3), r2.bbb, (3, 1, 4), (0, 2, 4)) * -2
    .set 319 (.ein [(175, [0, 1, 2, 3]), (26, [3, 1, 4])] [0, 2, 4]) (-2) 1,
    -- 4505: r2new.bbb += np.transpose(tmp116, (1, 2, 0)) * -1
    .add 319 (.tr 288 [1, 2, 0]) (-1) 1,
    -- 4506: r2new.bbb += np.transpose(tmp116, (2, 1, 0))
    .add 319 (.tr 288 [2, 1, 0]) 1 1,
    -- 4507: del tmp116
    .del 288,
    -- 4508: r2new.bbb += np.transpose(tmp136, (1, 2, 0))
    .add 319 (.tr 284 [1, 2, 0]) 1 1,
    -- 4509: r2new.bbb += np.transpose(tmp136, (2, 1, 0)) * -1
    .add 319 (.tr 284 [2, 1, 0]) (-1) 1,
    -- 4510: del tmp136
    .del 284,
    -- 4511: r2new.bbb += einsum(r2.bbb, (0, 1, 2), tmp86, (2, 3), (0, 1, 3)) * -2
    .add 319 (.ein [(26, [0, 1, 2]), (289, [2, 3])] [0, 1, 3]) (-2) 1,
    -- 4512: r2new.bbb += einsum(t2.bbbb, (0, 1, 2, 3), tmp11, (1,), (2, 3, 0)) * 2
    .add 319 (.ein [(100, [0, 1, 2, 3]), (283, [1])] [2, 3, 0]) 2 1,
    -- 4513: r2new.bbb += einsum(tmp137, (0, 1, 2, 3), r1.b, (3,), (2, 1, 0)) * 2
    .add 319 (.ein [(282, [0, 1, 2, 3]), (5, [3])] [2, 1, 0]) 2 1,
    -- 4514: del tmp137
    .del 282,
    -- 4515: r2new.bbb += einsum(tmp139, (0, 1, 2, 3), tmp138, (4, 0, 1), (3, 2, 4)) * -2
    .add 319 (.ein [(287, [0, 1, 2, 3]), (286, [4, 0, 1])] [3, 2, 4]) (-2) 1,
    -- 4516: del tmp139, tmp138
    .del 287,
    .del 286,
    -- 4517: r2new.bbb += einsum(r1.b, (0,), tmp91, (1, 2), (0, 2, 1)) * -1
    .add 319 (.ein [(5, [0]), (285, [1, 2])] [0, 2, 1]) (-1) 1,
    -- 4518: r2new.bbb += einsum(r1.b, (0,), tmp91, (1, 2), (2, 0, 1))
    .add 319 (.ein [(5, [0]), (285, [1, 2])] [2, 0, 1]) 1 1,
    -- 4519: r2new.bab = einsum(r2.bab, (0, 1, 2), v.aabb.vvvv, (3, 1, 4, 0), (4, 3, 2))
    .set 320 (.ein [(35, [0, 1, 2]), (176, [3, 1, 4, 0])] [4, 3, 2]) 1 1,
    -- 4520: r2new.bab += einsum(tmp77, (0, 1, 2), t2.abab, (0, 2, 3, 4), (4, 3, 1)) * -1
    .add 320 (.ein [(257, [0, 1, 2]), (177, [0, 2, 3, 4])] [4, 3, 1]) (-1) 1,
    -- 4521: del tmp77
    .del 257,
    -- 4522: r2new.bab += einsum(tmp79, (0, 1, 2, 3), r2.bab, (3, 4, 1), (2, 4, 0))
    .add 320 (.ein [(299, [0, 1, 2, 3]), (35, [3, 4, 1])] [2, 4, 0]) 1 1,
    -- 4523: del tmp79
    .del 299,
    -- 4524: r2new.bab += einsum(tmp80, (0, 1, 2), tmp81, (0, 3, 1, 4), (4, 2, 3))
    .add 320 (.ein [(291, [0, 1, 2]), (293, [0, 3, 1, 4])] [4, 2, 3]) 1 1,
    -- 4525: del tmp80, tmp81
    .del 291,
    .del 293,
    -- 4526: r2new.bab += einsum(tmp83, (0, 1, 2, 3), tmp82, (1, 3, 4), (4, 2, 0))
    .add 320 (.ein [(295, [0, 1, 2, 3]), (290, [1, 3, 4])] [4, 2, 0]) 1 1,
    -- 4527: del tmp83, tmp82
    .del 295,
    .del 290,
    -- 4528: r2new.bab += einsum(tmp72, (0, 1), r2.bab, (2, 0, 3), (2, 1, 3)) * -1
    .add 320 (.ein [(298, [0, 1]), (35, [2, 0, 3])] [2, 1, 3]) (-1) 1,
    -- 4529: r2new.bab += einsum(r2.bab, (0, 1, 2), tmp84, (0, 3), (3, 1, 2)) * -2
    .add 320 (.ein [(35, [0, 1, 2]), (297, [0, 3])] [3, 1, 2]) (-2) 1,
    -- 4530: del tmp84
    .del 297,
    -- 4531: r2new.bab += einsum(r1.a, (0,), tmp85, (1, 2, 0, 3), (3, 2, 1)) * -1
    .add 320 (.ein [(18, [0]), (292, [1, 2, 0, 3])] [3, 2, 1]) (-1) 1,
    -- 4532: del tmp85
    .del 292,
    -- 4533: r2new.bab += einsum(r2.bab, (0, 1, 2), tmp86, (2, 3), (0, 1, 3)) * -1
    .add 320 (.ein [(35, [0, 1, 2]), (289, [2, 3])] [0, 1, 3]) (-1) 1,
    -- 4534: del tmp86
    .del 289,
    -- 4535: r2new.bab += einsum(tmp6, (0,), t2.abab, (0, 1, 2, 3), (3, 2, 1))
    .add 320 (.ein [(300, [0]), (177, [0, 1, 2, 3])] [3, 2, 1]) 1 1,
    -- 4536: r2new.bab += einsum(t1.bb, (0, 1), tmp89, (2, 0, 3), (1, 3, 2))
    .add 320 (.ein [(28, [0, 1]), (294, [2, 0, 3])] [1, 3, 2]) 1 1,
    -- 4537: del tmp89
    .del 294,
    -- 4538: r2new.bab += einsum(t1.aa, (0, 1), tmp90, (0, 2, 3), (3, 1, 2)) * -1
    .add 320 (.ein [(34, [0, 1]), (296, [0, 2, 3])] [3, 1, 2]) (-1) 1,
    -- 4539: del tmp90
    .del 296,
    -- 4540: r2new.bab += einsum(r1.a, (0,), tmp91, (1, 2), (2, 0, 1))
    .add 320 (.ein [(18, [0]), (285, [1, 2])] [2, 0, 1]) 1 1,
    -- 4541: del tmp91
    .del 285,
    -- 4542: r2new.aba = einsum(r2.aba, (0, 1, 2), v.aabb.vvvv, (3, 0, 4, 1), (3, 4, 2))
    .set 321 (.ein [(31, [0, 1, 2]), (176, [3, 0, 4, 1])] [3, 4, 2]) 1 1,
    -- 4543: r2new.aba += einsum(tmp63, (0, 1, 2), t2.abab, (1, 2, 3, 4), (3, 4, 0))
    .add 321 (.ein [(264, [0, 1, 2]), (177, [1, 2, 3, 4])] [3, 4, 0]) 1 1,
    -- 4544: del tmp63
    .del 264,
    -- 4545: r2new.aba += einsum(tmp65, (0, 1, 2, 3), r2.aba, (3, 4, 1), (2, 4, 0))
    .add 321 (.ein [(309, [0, 1, 2, 3]), (31, [3, 4, 1])] [2, 4, 0]) 1 1,
    -- 4546: del tmp65
    .del 309,
    -- 4547: r2new.aba += einsum(tmp66, (0, 1, 2), tmp67, (3, 0, 4, 1), (4, 2, 3))
    .add 321 (.ein [(303, [0, 1, 2]), (311, [3, 0, 4, 1])] [4, 2, 3]) 1 1,
    -- 4548: del tmp66, tmp67
    .del 303,
    .del 311,
    -- 4549: r2new.aba += einsum(tmp68, (0, 1, 2), tmp69, (3, 0, 4, 2), (1, 4, 3)) * -1
    .add 321 (.ein [(310, [0, 1, 2]), (304, [3, 0, 4, 2])] [1, 4, 3]) (-1) 1,
    -- 4550: del tmp68, tmp69
    .del 310,
    .del 304,
    -- 4551: r2new.aba += einsum(r2.aba, (0, 1, 2), tmp70, (1, 3), (0, 3, 2)) * -1
    .add 321 (.ein [(31, [0, 1, 2]), (306, [1, 3])] [0, 3, 2]) (-1) 1,
    -- 4552: del tmp70
    .del 306,
    -- 4553: r2new.aba += einsum(tmp72, (0, 1), r2.aba, (0, 2, 3), (1, 2, 3)) * -1
    .add 321 (.ein [(298, [0, 1]), (31, [0, 2, 3])] [1, 2, 3]) (-1) 1,
    -- 4554: del tmp72
    .del 298,
    -- 4555: r2new.aba += einsum(r1.b, (0,), tmp73, (1, 2, 3, 0), (2, 3, 1)) * -1
    .add 321 (.ein [(5, [0]), (301, [1, 2, 3, 0])] [2, 3, 1]) (-1) 1,
    -- 4556: del tmp73
    .del 301,
    -- 4557: r2new.aba += einsum(r2.aba, (0, 1, 2), tmp58, (2, 3), (0, 1, 3)) * -1
    .add 321 (.ein [(31, [0, 1, 2]), (305, [2, 3])] [0, 1, 3]) (-1) 1,
    -- 4558: r2new.aba += einsum(tmp11, (0,), t2.abab, (1, 0, 2, 3), (2, 3, 1))
    .add 321 (.ein [(283, [0]), (177, [1, 0, 2, 3])] [2, 3, 1]) 1 1,
    -- 4559: r2new.aba += einsum(t1.aa, (0, 1), tmp75, (2, 0, 3), (1, 3, 2)) * 2
    .add 321 (.ein [(34, [0, 1]), (308, [2, 0, 3])] [1, 3, 2]) 2 1,
    -- 4560: del tmp75
    .del 308,
    -- 4561: r2new.aba += einsum(t1.bb, (0, 1), tmp76, (2, 0, 3), (3, 1, 2))
    .add 321 (.ein [(28, [0, 1]), (307, [2, 0, 3])] [3, 1, 2]) 1 1,
    -- 4562: del tmp76
    .del 307,
    -- 4563: r2new.aba += einsum(tmp62, (0, 1), r1.b, (2,), (1, 2, 0))
    .add 321 (.ein [(302, [0, 1]), (5, [2])] [1, 2, 0]) 1 1,
    -- 4564: r2new.aaa = einsum(r2.aaa, (0, 1, 2), v.aaaa.vvvv, (3, 1, 4, 0), (3, 4, 2)) * -2
    .set 322 (.ein [(32, [0, 1, 2]), (178, [3, 1, 4, 0])] [3, 4, 2]) (-2) 1,
    -- 4565: r2new.aaa += np.transpose(tmp31, (1, 2, 0))
    .add 322 (.tr 313 [1, 2, 0]) 1 1,
    -- 4566: r2new.aaa += np.transpose(tmp31, (2, 1, 0)) * -1
    .add 322 (.tr 313 [2, 1, 0]) (-1) 1,
    -- 4567: del tmp31
    .del 313,
    -- 4568: r2new.aaa += np.transpose(tmp57, (1, 2, 0)) * -1
    .add 322 (.tr 315 [1, 2, 0]) (-1) 1,
    -- 4569: r2new.aaa += np.transpose(tmp57, (2, 1, 0))
    .add 322 (.tr 315 [2, 1, 0]) 1 1,
    -- 4570: del tmp57
    .del 315,
    -- 4571: r2new.aaa += einsum(tmp58, (0, 1), r2.aaa, (2, 3, 0), (2, 3, 1)) * -2
    .add 322 (.ein [(305, [0, 1]), (32, [2, 3, 0])] [2, 3, 1]) (-2) 1,
    -- 4572: del tmp58
    .del 305,
    -- 4573: r2new.aaa += einsum(t2.aaaa, (0, 1, 2, 3), tmp6, (1,), (2, 3, 0)) * 2
    .add 322 (.ein [(172, [0, 1, 2, 3]), (300, [1])] [2, 3, 0]) 2 1,
    -- 4574: r2new.aaa += einsum(tmp59, (0, 1, 2, 3), r1.a, (3,), (2, 1, 0)) * 2
    .add 322 (.ein [(314, [0, 1, 2, 3]), (18, [3])] [2, 1, 0]) 2 1,
    -- 4575: del tmp59
    .del 314,
    -- 4576: r2new.aaa += einsum(tmp61, (0, 1, 2, 3), tmp60, (4, 0, 1), (3, 2, 4)) * -2
    .add 322 (.ein [(312, [0, 1, 2, 3]), (316, [4, 0, 1])] [3, 2, 4]) (-2) 1,
    -- 4577: del tmp61, tmp60
    .del 312,
    .del 316,
    -- 4578: r2new.aaa += einsum(r1.a, (0,), tmp62, (1, 2), (0, 2, 1)) * -1
    .add 322 (.ein [(18, [0]), (302, [1, 2])] [0, 2, 1]) (-1) 1,
    -- 4579: r2new.aaa += einsum(r1.a, (0,), tmp62, (1, 2), (2, 0, 1))
    .add 322 (.ein [(18, [0]), (302, [1, 2])] [2, 0, 1]) 1 1,
    -- 4580: del tmp62
    .del 302,
    -- 4581: r1new.b = einsum(r2.bbb, (0, 1, 2), v.bbbb.ovvv, (2, 1, 3, 0), (3,)) * 2
    .set 323 (.ein [(26, [0, 1, 2]), (30, [2, 1, 3, 0])] [3]) 2 1,
    -- 4582: r1new.b += einsum(v.aabb.ovvv, (0, 1, 2, 3), r2.aba, (1, 3, 0), (2,)) * -1
    .add 323 (.ein [(122, [0, 1, 2, 3]), (31, [1, 3, 0])] [2]) (-1) 1,
    -- 4583: r1new.b += einsum(tmp1, (0, 1), r2.aba, (1, 2, 0), (2,)) * -1
    .add 323 (.ein [(228, [0, 1]), (31, [1, 2, 0])] [2]) (-1) 1,
    -- 4584: r1new.b += einsum(r2.bbb, (0, 1, 2), tmp0, (2, 1), (0,)) * 2
    .add 323 (.ein [(26, [0, 1, 2]), (217, [2, 1])] [0]) 2 1,
    -- 4585: r1new.b += einsum(r1.b, (0,), tmp7, (0, 1), (1,)) * -1
    .add 323 (.ein [(5, [0]), (317, [0, 1])] [1]) (-1) 1,
    -- 4586: del tmp7
    .del 317,
    -- 4587: r1new.b += einsum(t1.bb, (0, 1), tmp11, (0,), (1,)) * -1
    .add 323 (.ein [(28, [0, 1]), (283, [0])] [1]) (-1) 1,
    -- 4588: del tmp11
    .del 283,
    -- 4589: r1new.a = einsum(v.aaaa.ovvv, (0, 1, 2, 3), r2.aaa, (3, 1, 0), (2,)) * 2
    .set 324 (.ein [(37, [0, 1, 2, 3]), (32, [3, 1, 0])] [2]) 2 1,
    -- 4590: r1new.a += einsum(v.aabb.vvov, (0, 1, 2, 3), r2.bab, (3, 1, 2), (0,)) * -1
    .add 324 (.ein [(116, [0, 1, 2, 3]), (35, [3, 1, 2])] [0]) (-1) 1,
    -- 4591: r1new.a += einsum(tmp0, (0, 1), r2.bab, (1, 2, 0), (2,)) * -1
    .add 324 (.ein [(217, [0, 1]), (35, [1, 2, 0])] [2]) (-1) 1,
    -- 4592: del tmp0
    .del 217,
    -- 4593: r1new.a += einsum(tmp1, (0, 1), r2.aaa, (2, 1, 0), (2,)) * 2
    .add 324 (.ein [(228, [0, 1]), (32, [2, 1, 0])] [2]) 2 1,
    -- 4594: del tmp1
    .del 228,
    -- 4595: r1new.a += einsum(r1.a, (0,), tmp2, (0, 1), (1,)) * -1
    .add 324 (.ein [(18, [0]), (318, [0, 1])] [1]) (-1) 1,
    -- 4596: del tmp2
    .del 318,
    -- 4597: r1new.a += einsum(t1.aa, (0, 1), tmp6, (0,), (1,)) * -1
    .add 324 (.ein [(34, [0, 1]), (300, [0])] [1]) (-1) 1,
    -- 4598: del tmp6
    .del 300
  ]
  ret := [(chars! "r1new.b", 323), (chars! "r1new.a", 324), (chars! "r2new.bbb", 319), (chars! "r2new.bab", 320), (chars! "r2new.aba", 321), (chars! "r2new.aaa", 322)]

/-- codegen/UCCSD.py:5608-5916 `hbar_lmatvec_ea_intermediates`. -/
def hbar_lmatvec_ea_intermediates : GenFun where
  args := [chars! "v.aabb.ovov", chars! "t1.aa", chars! "t1.bb", chars! "v.bbbb.ovov", chars! "v.aaaa.ovov", chars! "v.aabb.vvov", chars! "v.aabb.ovvv", chars! "v.bbbb.ovvv", chars! "v.aaaa.ovvv", chars! "v.aabb.ovoo", chars! "v.aabb.ooov", chars! "v.bbbb.ooov", chars! "v.aaaa.ooov", chars! "t2.abab", chars! "t2.bbbb", chars! "t2.aaaa", chars! "f.bb.ov", chars! "f.aa.ov", chars! "v.aabb.vvvv", chars! "v.bbbb.vvvv", chars! "v.aaaa.vvvv", chars! "v.bbbb.oovv", chars! "v.aaaa.oovv", chars! "f.bb.vv", chars! "f.aa.vv", chars! "f.bb.oo", chars! "f.aa.oo"]
  body := [
    -- 5771: tmp35 = einsum(v.aabb.ovov, (0, 1, 2, 3), t1.aa, (0, 1), (2, 3))
    .set 27 (.ein [(0, [0, 1, 2, 3]), (1, [0, 1])] [2, 3]) 1 1,
    -- 5772: tmp36 = einsum(v.aabb.ovov, (0, 1, 2, 3), t1.bb, (2, 3), (0, 1))
    .set 28 (.ein [(0, [0, 1, 2, 3]), (2, [2, 3])] [0, 1]) 1 1,
    -- 5773: tmp33 = einsum(v.bbbb.ovov, (0, 1, 2, 3), t1.bb, (2, 3), (0, 1))
    .set 29 (.ein [(3, [0, 1, 2, 3]), (2, [2, 3])] [0, 1]) 1 1,
    -- 5774: tmp89 = einsum(v.bbbb.ovov, (0, 1, 2, 3), t1.bb, (2, 1), (0, 3))
    .set 30 (.ein [(3, [0, 1, 2, 3]), (2, [2, 1])] [0, 3]) 1 1,
    -- 5775: tmp29 = einsum(t1.aa, (0, 1), v.aaaa.ovov, (2, 3, 0, 1), (2, 3))
    .set 31 (.ein [(1, [0, 1]), (4, [2, 3, 0, 1])] [2, 3]) 1 1,
    -- 5776: tmp82 = einsum(t1.aa, (0, 1), v.aaaa.ovov, (2, 1, 0, 3), (2, 3))
    .set 32 (.ein [(1, [0, 1]), (4, [2, 1, 0, 3])] [2, 3]) 1 1,
    -- 5777: tmp117 = einsum(t1.aa, (0, 1), v.aabb.ovov, (2, 1, 3, 4), (0, 2, 3, 4))
    .set 33 (.ein [(1, [0, 1]), (0, [2, 1, 3, 4])] [0, 2, 3, 4]) 1 1,
    -- 5778: tmp114 = einsum(v.bbbb.ovov, (0, 1, 2, 3), t1.bb, (4, 3), (4, 0, 2, 1))
    .set 34 (.ein [(3, [0, 1, 2, 3]), (2, [4, 3])] [4, 0, 2, 1]) 1 1,
    -- 5779: tmp200 = einsum(t1.bb, (0, 1), tmp35, (2, 1), (0, 2))
    .set 35 (.ein [(2, [0, 1]), (27, [2, 1])] [0, 2]) 1 1,
    -- 5780: tmp197 = einsum(t1.aa, (0, 1), tmp36, (2, 1), (0, 2))
    .set 36 (.ein [(1, [0, 1]), (28, [2, 1])] [0, 2]) 1 1,
    -- 5781: tmp195 = einsum(t1.bb, (0, 1), tmp33, (2, 1), (0, 2))
    .set 37 (.ein [(2, [0, 1]), (29, [2, 1])] [0, 2]) 1 1,
    -- 5782: tmp193 = einsum(tmp89, (0, 1), t1.bb, (2, 1), (2, 0))
    .set 38 (.ein [(30, [0, 1]), (2, [2, 1])] [2, 0]) 1 1,
    -- 5783: tmp190 = einsum(t1.aa, (0, 1), tmp29, (2, 1), (0, 2))
    .set 39 (.ein [(1, [0, 1]), (31, [2, 1])] [0, 2]) 1 1,
    -- 5784: tmp187 = einsum(tmp82, (0, 1), t1.aa, (2, 1), (2, 0))
    .set 40 (.ein [(32, [0, 1]), (1, [2, 1])] [2, 0]) 1 1,
    -- 5785: tmp28 = einsum(v.aabb.vvov, (0, 1, 2, 3), t1.bb, (2, 3), (0, 1))
    .set 41 (.ein [(5, [0, 1, 2, 3]), (2, [2, 3])] [0, 1]) 1 1,
    -- 5786: tmp177 = einsum(v.aabb.ovvv, (0, 1, 2, 3), t1.aa, (0, 1), (2, 3))
    .set 42 (.ein [(6, [0, 1, 2, 3]), (1, [0, 1])] [2, 3]) 1 1,
    -- 5787: tmp175 = einsum(t1.bb, (0, 1), v.bbbb.ovvv, (0, 2, 3, 1), (2, 3))
    .set 43 (.ein [(2, [0, 1]), (7, [0, 2, 3, 1])] [2, 3]) 1 1,
    -- 5788: tmp173 = einsum(v.bbbb.ovvv, (0, 1, 2, 3), t1.bb, (0, 1), (2, 3))
    .set 44 (.ein [(7, [0, 1, 2, 3]), (2, [0, 1])] [2, 3]) 1 1,
    -- 5789: tmp27 = einsum(v.aaaa.ovvv, (0, 1, 2, 3), t1.aa, (0, 3), (1, 2))
    .set 45 (.ein [(8, [0, 1, 2, 3]), (1, [0, 3])] [1, 2]) 1 1,
    -- 5790: tmp26 = einsum(v.aaaa.ovvv, (0, 1, 2, 3), t1.aa, (0, 1), (2, 3))
    .set 46 (.ein [(8, [0, 1, 2, 3]), (1, [0, 1])] [2, 3]) 1 1,
    -- 5791: tmp163 = einsum(v.aabb.ovoo, (0, 1, 2, 3), t1.aa, (0, 1), (2, 3))
    .set 47 (.ein [(9, [0, 1, 2, 3]), (1, [0, 1])] [2, 3]) 1 1,
    -- 5792: tmp160 = einsum(t1.bb, (0, 1), v.aabb.ooov, (2, 3, 0, 1), (2, 3))
    .set 48 (.ein [(2, [0, 1]), (10, [2, 3, 0, 1])] [2, 3]) 1 1,
    -- 5793: tmp158 = einsum(t1.bb, (0, 1), v.bbbb.ooov, (2, 3, 0, 1), (2, 3))
    .set 49 (.ein [(2, [0, 1]), (11, [2, 3, 0, 1])] [2, 3]) 1 1,
    -- 5794: tmp156 = einsum(t1.bb, (0, 1), v.bbbb.ooov, (2, 0, 3, 1), (2, 3))
    .set 50 (.ein [(2, [0, 1]), (11, [2, 0, 3, 1])] [2, 3]) 1 1,
    -- 5795: tmp153 = einsum(v.aaaa.ooov, (0, 1, 2, 3), t1.aa, (2, 3), (0, 1))
    .set 51 (.ein [(12, [0, 1, 2, 3]), (1, [2, 3])] [0, 1]) 1 1,
    -- 5796: tmp150 = einsum(v.aaaa.ooov, (0, 1, 2, 3), t1.aa, (1, 3), (0, 2))
    .set 52 (.ein [(12, [0, 1, 2, 3]), (1, [1, 3])] [0, 2]) 1 1,
    -- 5797: tmp136 = einsum(v.aabb.ovov, (0, 1, 2, 3), t2.abab, (4, 2, 1, 3), (4, 0))
    .set 53 (.ein [(0, [0, 1, 2, 3]), (13, [4, 2, 1, 3])] [4, 0]) 1 1,
    -- 5798: tmp133 = einsum(v.aabb.ovov, (0, 1, 2, 3), t2.abab, (0, 4, 1, 3), (4, 2))
    .set 54 (.ein [(0, [0, 1, 2, 3]), (13, [0, 4, 1, 3])] [4, 2]) 1 1,
    -- 5799: tmp130 = einsum(t2.bbbb, (0, 1, 2, 3), v.bbbb.ovov, (4, 3, 1, 2), (0, 4)) * -1
    .set 55 (.ein [(14, [0, 1, 2, 3]), (3, [4, 3, 1, 2])] [0, 4]) (-1) 1,
    -- 5800: tmp127 = einsum(t2.aaaa, (0, 1, 2, 3), v.aaaa.ovov, (4, 3, 1, 2), (0, 4)) * -1
    .set 56 (.ein [(15, [0, 1, 2, 3]), (4, [4, 3, 1, 2])] [0, 4]) (-1) 1,
    -- 5801: tmp120 = einsum(t1.bb, (0, 1), v.aabb.ovov, (2, 3, 4, 1), (2, 0, 4, 3))
    .set 57 (.ein [(2, [0, 1]), (0, [2, 3, 4, 1])] [2, 0, 4, 3]) 1 1,
    -- 5802: tmp111 = einsum(v.aaaa.ovov, (0, 1, 2, 3), t1.aa, (4, 3), (4, 0, 2, 1))
    .set 58 (.ein [(4, [0, 1, 2, 3]), (1, [4, 3])] [4, 0, 2, 1]) 1 1,
    -- 5803: tmp22 = einsum(t1.bb, (0, 1), f.bb.ov, (2, 1), (2, 0))
    .set 59 (.ein [(2, [0, 1]), (16, [2, 1])] [2, 0]) 1 1,
    -- 5804: tmp19 = einsum(t1.aa, (0, 1), f.aa.ov, (2, 1), (2, 0))
    .set 60 (.ein [(1, [0, 1]), (17, [2, 1])] [2, 0]) 1 1,
    -- 5805: tmp310 = einsum(t1.aa, (0, 1), v.aabb.vvov, (2, 1, 3, 4), (0, 3, 2, 4))
    .set 61 (.ein [(1, [0, 1]), (5, [2, 1, 3, 4])] [0, 3, 2, 4]) 1 1,
    -- 5806: tmp309 = einsum(t1.aa, (0, 1), v.aabb.ovvv, (2, 1, 3, 4), (0, 2, 3, 4))
    .set 62 (.ein [(1, [0, 1]), (6, [2, 1, 3, 4])] [0, 2, 3, 4]) 1 1,
    -- 5807: tmp307 = einsum(t1.bb, (0, 1), v.bbbb.ovvv, (2, 3, 4, 1), (0, 2, 3, 4))
    .set 63 (.ein [(2, [0, 1]), (7, [2, 3, 4, 1])] [0, 2, 3, 4]) 1 1,
    -- 5808: tmp305 = einsum(t1.bb, (0, 1), v.bbbb.ovvv, (2, 1, 3, 4), (0, 2, 3, 4))
    .set 64 (.ein [(2, [0, 1]), (7, [2, 1, 3, 4])] [0, 2, 3, 4]) 1 1,
    -- 5809: tmp294 = einsum(v.aabb.ovov, (0, 1, 2, 3), t2.abab, (4, 2, 1, 5), (4, 0, 5, 3))
    .set 65 (.ein [(0, [0, 1, 2, 3]), (13, [4, 2, 1, 5])] [4, 0, 5, 3]) 1 1,
    -- 5810: tmp292 = einsum(v.aabb.ovov, (0, 1, 2, 3), t2.abab, (0, 4, 1, 5), (4, 2, 5, 3))
    .set 66 (.ein [(0, [0, 1, 2, 3]), (13, [0, 4, 1, 5])] [4, 2, 5, 3]) 1 1,
    -- 5811: tmp290 = einsum(t2.aaaa, (0, 1, 2, 3), v.aabb.ovov, (1, 3, 4, 5), (0, 4, 2, 5))
    .set 67 (.ein [(15, [0, 1, 2, 3]), (0, [1, 3, 4, 5])] [0, 4, 2, 5]) 1 1,
    -- 5812: tmp288 = einsum(t2.bbbb, (0, 1, 2, 3), v.bbbb.ovov, (4, 3, 1, 5), (0, 4, 2, 5))
    .set 68 (.ein [(14, [0, 1, 2, 3]), (3, [4, 3, 1, 5])] [0, 4, 2, 5]) 1 1,
    -- 5813: tmp287 = einsum(v.bbbb.ovov, (0, 1, 2, 3), t2.abab, (4, 2, 5, 1), (4, 0, 5, 3))
    .set 69 (.ein [(3, [0, 1, 2, 3]), (13, [4, 2, 5, 1])] [4, 0, 5, 3]) 1 1,
    -- 5814: tmp285 = einsum(t2.bbbb, (0, 1, 2, 3), v.bbbb.ovov, (4, 5, 1, 3), (0, 4, 2, 5))
    .set 70 (.ein [(14, [0, 1, 2, 3]), (3, [4, 5, 1, 3])] [0, 4, 2, 5]) 1 1,
    -- 5815: tmp284 = einsum(v.bbbb.ovov, (0, 1, 2, 3), t2.abab, (4, 2, 5, 3), (4, 0, 5, 1))
    .set 71 (.ein [(3, [0, 1, 2, 3]), (13, [4, 2, 5, 3])] [4, 0, 5, 1]) 1 1,
    -- 5816: tmp278 = einsum(tmp117, (0, 1, 2, 3), t2.abab, (1, 2, 4, 5), (0, 4, 5, 3))
    .set 72 (.ein [(33, [0, 1, 2, 3]), (13, [1, 2, 4, 5])] [0, 4, 5, 3]) 1 1,
    -- 5817: tmp276 = einsum(t2.bbbb, (0, 1, 2, 3), tmp114, (4, 0, 1, 5), (4, 2, 3, 5))
    .set 73 (.ein [(14, [0, 1, 2, 3]), (34, [4, 0, 1, 5])] [4, 2, 3, 5]) 1 1,
    -- 5818: tmp256 = einsum(t2.abab, (0, 1, 2, 3), v.aabb.vvov, (4, 2, 1, 5), (0, 4, 3, 5))
    .set 74 (.ein [(13, [0, 1, 2, 3]), (5, [4, 2, 1, 5])] [0, 4, 3, 5]) 1 1,
    -- 5819: tmp254 = einsum(v.aabb.ovvv, (0, 1, 2, 3), t2.abab, (0, 4, 1, 5), (4, 5, 2, 3))
    .set 75 (.ein [(6, [0, 1, 2, 3]), (13, [0, 4, 1, 5])] [4, 5, 2, 3]) 1 1,
    -- 5820: tmp252 = einsum(v.aabb.ovvv, (0, 1, 2, 3), t2.aaaa, (4, 0, 5, 1), (4, 5, 2, 3))
    .set 76 (.ein [(6, [0, 1, 2, 3]), (15, [4, 0, 5, 1])] [4, 5, 2, 3]) 1 1,
    -- 5821: tmp250 = einsum(t2.bbbb, (0, 1, 2, 3), v.bbbb.ovvv, (1, 4, 5, 3), (0, 2, 4, 5))
    .set 77 (.ein [(14, [0, 1, 2, 3]), (7, [1, 4, 5, 3])] [0, 2, 4, 5]) 1 1,
    -- 5822: tmp249 = einsum(t2.abab, (0, 1, 2, 3), v.bbbb.ovvv, (1, 4, 5, 3), (0, 2, 4, 5))
    .set 78 (.ein [(13, [0, 1, 2, 3]), (7, [1, 4, 5, 3])] [0, 2, 4, 5]) 1 1,
    -- 5823: tmp247 = einsum(t2.bbbb, (0, 1, 2, 3), v.bbbb.ovvv, (1, 3, 4, 5), (0, 2, 4, 5))
    .set 79 (.ein [(14, [0, 1, 2, 3]), (7, [1, 3, 4, 5])] [0, 2, 4, 5]) 1 1,
    -- 5824: tmp246 = einsum(t2.abab, (0, 1, 2, 3), v.bbbb.ovvv, (1, 3, 4, 5), (0, 2, 4, 5))
    .set 80 (.ein [(13, [0, 1, 2, 3]), (7, [1, 3, 4, 5])] [0, 2, 4, 5]) 1 1,
    -- 5825: tmp240 = einsum(v.aabb.ooov, (0, 1, 2, 3), t2.abab, (1, 2, 4, 5), (0, 4, 5, 3))
    .set 81 (.ein [(10, [0, 1, 2, 3]), (13, [1, 2, 4, 5])] [0, 4, 5, 3]) 1 1,
    -- 5826: tmp238 = einsum(t2.bbbb, (0, 1, 2, 3), v.bbbb.ooov, (4, 0, 1, 5), (4, 2, 3, 5))
    .set 82 (.ein [(14, [0, 1, 2, 3]), (11, [4, 0, 1, 5])] [4, 2, 3, 5]) 1 1,
    -- 5827: tmp232 = einsum(v.aabb.ovov, (0, 1, 2, 3), t2.abab, (0, 2, 1, 4), (4, 3))
    .set 83 (.ein [(0, [0, 1, 2, 3]), (13, [0, 2, 1, 4])] [4, 3]) 1 1,
    -- 5828: tmp230 = einsum(t2.bbbb, (0, 1, 2, 3), v.bbbb.ovov, (0, 4, 1, 3), (2, 4))
    .set 84 (.ein [(14, [0, 1, 2, 3]), (3, [0, 4, 1, 3])] [2, 4]) 1 1,
    -- 5829: tmp228 = einsum(t1.aa, (0, 1), v.aabb.vvvv, (2, 1, 3, 4), (0, 2, 3, 4))
    .set 85 (.ein [(1, [0, 1]), (18, [2, 1, 3, 4])] [0, 2, 3, 4]) 1 1,
    -- 5830: tmp226 = einsum(v.bbbb.vvvv, (0, 1, 2, 3), t1.bb, (4, 3), (4, 0, 1, 2))
    .set 86 (.ein [(19, [0, 1, 2, 3]), (2, [4, 3])] [4, 0, 1, 2]) 1 1,
    -- 5831: tmp201 = einsum(t1.bb, (0, 1), tmp200, (2, 0), (2, 1))
    .set 87 (.ein [(2, [0, 1]), (35, [2, 0])] [2, 1]) 1 1,
    -- 5832: tmp198 = einsum(t1.aa, (0, 1), tmp197, (2, 0), (2, 1))
    .set 88 (.ein [(1, [0, 1]), (36, [2, 0])] [2, 1]) 1 1,
    -- 5833: tmp196 = einsum(t1.bb, (0, 1), tmp195, (2, 0), (2, 1))
    .set 89 (.ein [(2, [0, 1]), (37, [2, 0])] [2, 1]) 1 1,
    -- 5834: tmp194 = einsum(t1.bb, (0, 1), tmp193, (2, 0), (2, 1))
    .set 90 (.ein [(2, [0, 1]), (38, [2, 0])] [2, 1]) 1 1,
    -- 5835: tmp191 = einsum(tmp190, (0, 1), t1.aa, (1, 2), (0, 2))
    .set 91 (.ein [(39, [0, 1]), (1, [1, 2])] [0, 2]) 1 1,
    -- 5836: tmp188 = einsum(t1.aa, (0, 1), tmp187, (2, 0), (2, 1))
    .set 92 (.ein [(1, [0, 1]), (40, [2, 0])] [2, 1]) 1 1,
    -- 5837: tmp186 = einsum(v.aabb.ovvv, (0, 1, 2, 3), t1.bb, (4, 3), (0, 4, 1, 2))
    .set 93 (.ein [(6, [0, 1, 2, 3]), (2, [4, 3])] [0, 4, 1, 2]) 1 1,
    -- 5838: tmp185 = einsum(v.aabb.vvov, (0, 1, 2, 3), t1.bb, (4, 3), (4, 2, 0, 1))
    .set 94 (.ein [(5, [0, 1, 2, 3]), (2, [4, 3])] [4, 2, 0, 1]) 1 1,
    -- 5839: tmp183 = einsum(v.aaaa.ovvv, (0, 1, 2, 3), t1.aa, (4, 3), (4, 0, 1, 2))
    .set 95 (.ein [(8, [0, 1, 2, 3]), (1, [4, 3])] [4, 0, 1, 2]) 1 1,
    -- 5840: tmp181 = einsum(v.aaaa.ovvv, (0, 1, 2, 3), t1.aa, (4, 1), (4, 0, 2, 3))
    .set 96 (.ein [(8, [0, 1, 2, 3]), (1, [4, 1])] [4, 0, 2, 3]) 1 1,
    -- 5841: tmp179 = einsum(t1.aa, (0, 1), tmp28, (2, 1), (0, 2))
    .set 97 (.ein [(1, [0, 1]), (41, [2, 1])] [0, 2]) 1 1,
    -- 5842: tmp178 = einsum(tmp177, (0, 1), t1.bb, (2, 1), (2, 0))
    .set 98 (.ein [(42, [0, 1]), (2, [2, 1])] [2, 0]) 1 1,
    -- 5843: tmp176 = einsum(t1.bb, (0, 1), tmp175, (1, 2), (0, 2))
    .set 99 (.ein [(2, [0, 1]), (43, [1, 2])] [0, 2]) 1 1,
    -- 5844: tmp174 = einsum(tmp173, (0, 1), t1.bb, (2, 1), (2, 0))
    .set 100 (.ein [(44, [0, 1]), (2, [2, 1])] [2, 0]) 1 1,
    -- 5845: tmp171 = einsum(t1.aa, (0, 1), tmp27, (1, 2), (0, 2))
    .set 101 (.ein [(1, [0, 1]), (45, [1, 2])] [0, 2]) 1 1,
    -- 5846: tmp169 = einsum(t1.aa, (0, 1), tmp26, (2, 1), (0, 2))
    .set 102 (.ein [(1, [0, 1]), (46, [2, 1])] [0, 2]) 1 1,
    -- 5847: tmp164 = einsum(t1.bb, (0, 1), tmp163, (2, 0), (2, 1))
    .set 103 (.ein [(2, [0, 1]), (47, [2, 0])] [2, 1]) 1 1,
    -- 5848: tmp161 = einsum(tmp160, (0, 1), t1.aa, (1, 2), (0, 2))
    .set 104 (.ein [(48, [0, 1]), (1, [1, 2])] [0, 2]) 1 1,
    -- 5849: tmp159 = einsum(t1.bb, (0, 1), tmp158, (2, 0), (2, 1))
    .set 105 (.ein [(2, [0, 1]), (49, [2, 0])] [2, 1]) 1 1,
    -- 5850: tmp157 = einsum(t1.bb, (0, 1), tmp156, (2, 0), (2, 1))
    .set 106 (.ein [(2, [0, 1]), (50, [2, 0])] [2, 1]) 1 1,
    -- 5851: tmp154 = einsum(tmp153, (0, 1), t1.aa, (1, 2), (0, 2))
    .set 107 (.ein [(51, [0, 1]), (1, [1, 2])] [0, 2]) 1 1,
    -- 5852: tmp151 = einsum(tmp150, (0, 1), t1.aa, (1, 2), (0, 2))
    .set 108 (.ein [(52, [0, 1]), (1, [1, 2])] [0, 2]) 1 1,
    -- 5853: tmp149 = einsum(v.aabb.ovov, (0, 1, 2, 3), t2.abab, (0, 4, 5, 3), (4, 2, 5, 1))
    .set 109 (.ein [(0, [0, 1, 2, 3]), (13, [0, 4, 5, 3])] [4, 2, 5, 1]) 1 1,
    -- 5854: tmp147 = einsum(t2.bbbb, (0, 1, 2, 3), v.aabb.ovov, (4, 5, 1, 3), (4, 0, 5, 2))
    .set 110 (.ein [(14, [0, 1, 2, 3]), (0, [4, 5, 1, 3])] [4, 0, 5, 2]) 1 1,
    -- 5855: tmp145 = einsum(v.aabb.ovov, (0, 1, 2, 3), t2.abab, (4, 2, 5, 3), (4, 0, 5, 1))
    .set 111 (.ein [(0, [0, 1, 2, 3]), (13, [4, 2, 5, 3])] [4, 0, 5, 1]) 1 1,
    -- 5856: tmp144 = einsum(v.aaaa.ovov, (0, 1, 2, 3), t2.abab, (2, 4, 1, 5), (0, 4, 3, 5))
    .set 112 (.ein [(4, [0, 1, 2, 3]), (13, [2, 4, 1, 5])] [0, 4, 3, 5]) 1 1,
    -- 5857: tmp142 = einsum(v.aaaa.ovov, (0, 1, 2, 3), t2.aaaa, (4, 2, 5, 1), (4, 0, 5, 3))
    .set 113 (.ein [(4, [0, 1, 2, 3]), (15, [4, 2, 5, 1])] [4, 0, 5, 3]) 1 1,
    -- 5858: tmp141 = einsum(v.aaaa.ovov, (0, 1, 2, 3), t2.abab, (2, 4, 3, 5), (0, 4, 1, 5))
    .set 114 (.ein [(4, [0, 1, 2, 3]), (13, [2, 4, 3, 5])] [0, 4, 1, 5]) 1 1,
    -- 5859: tmp139 = einsum(v.aaaa.ovov, (0, 1, 2, 3), t2.aaaa, (4, 2, 5, 3), (4, 0, 5, 1))
    .set 115 (.ein [(4, [0, 1, 2, 3]), (15, [4, 2, 5, 3])] [4, 0, 5, 1]) 1 1,
    -- 5860: tmp137 = einsum(t1.aa, (0, 1), tmp136, (2, 0), (2, 1))
    .set 116 (.ein [(1, [0, 1]), (53, [2, 0])] [2, 1]) 1 1,
    -- 5861: tmp134 = einsum(t1.bb, (0, 1), tmp133, (2, 0), (2, 1))
    .set 117 (.ein [(2, [0, 1]), (54, [2, 0])] [2, 1]) 1 1,
    -- 5862: tmp131 = einsum(t1.bb, (0, 1), tmp130, (2, 0), (2, 1))
    .set 118 (.ein [(2, [0, 1]), (55, [2, 0])] [2, 1]) 1 1,
    -- 5863: tmp128 = einsum(tmp127, (0, 1), t1.aa, (1, 2), (0, 2))
    .set 119 (.ein [(56, [0, 1]), (1, [1, 2])] [0, 2]) 1 1,
    -- 5864: tmp125 = einsum(tmp120, (0, 1, 2, 3), t2.abab, (0, 2, 4, 5), (1, 4, 3, 5))
    .set 120 (.ein [(57, [0, 1, 2, 3]), (13, [0, 2, 4, 5])] [1, 4, 3, 5]) 1 1,
    -- 5865: tmp123 = einsum(t2.aaaa, (0, 1, 2, 3), tmp111, (4, 0, 1, 5), (4, 2, 3, 5))
    .set 121 (.ein [(15, [0, 1, 2, 3]), (58, [4, 0, 1, 5])] [4, 2, 3, 5]) 1 1,
    -- 5866: tmp121 = einsum(tmp120, (0, 1, 2, 3), t2.abab, (0, 2, 3, 4), (1, 4))
    .set 122 (.ein [(57, [0, 1, 2, 3]), (13, [0, 2, 3, 4])] [1, 4]) 1 1,
    -- 5867: tmp118 = einsum(tmp117, (0, 1, 2, 3), t2.abab, (1, 2, 4, 3), (0, 4))
    .set 123 (.ein [(33, [0, 1, 2, 3]), (13, [1, 2, 4, 3])] [0, 4]) 1 1,
    -- 5868: tmp115 = einsum(tmp114, (0, 1, 2, 3), t2.bbbb, (2, 1, 4, 3), (0, 4))
    .set 124 (.ein [(34, [0, 1, 2, 3]), (14, [2, 1, 4, 3])] [0, 4]) 1 1,
    -- 5869: tmp112 = einsum(t2.aaaa, (0, 1, 2, 3), tmp111, (4, 1, 0, 3), (4, 2))
    .set 125 (.ein [(15, [0, 1, 2, 3]), (58, [4, 1, 0, 3])] [4, 2]) 1 1,
    -- 5870: tmp103 = einsum(t2.bbbb, (0, 1, 2, 3), tmp35, (1, 3), (0, 2))
    .set 126 (.ein [(14, [0, 1, 2, 3]), (27, [1, 3])] [0, 2]) 1 1,
    -- 5871: tmp101 = einsum(t2.abab, (0, 1, 2, 3), tmp35, (1, 3), (0, 2))
    .set 127 (.ein [(13, [0, 1, 2, 3]), (27, [1, 3])] [0, 2]) 1 1,
    -- 5872: tmp100 = einsum(tmp36, (0, 1), t2.abab, (0, 2, 1, 3), (2, 3))
    .set 128 (.ein [(28, [0, 1]), (13, [0, 2, 1, 3])] [2, 3]) 1 1,
    -- 5873: tmp98 = einsum(tmp36, (0, 1), t2.aaaa, (2, 0, 3, 1), (2, 3))
    .set 129 (.ein [(28, [0, 1]), (15, [2, 0, 3, 1])] [2, 3]) 1 1,
    -- 5874: tmp96 = einsum(t2.bbbb, (0, 1, 2, 3), tmp33, (1, 3), (0, 2))
    .set 130 (.ein [(14, [0, 1, 2, 3]), (29, [1, 3])] [0, 2]) 1 1,
    -- 5875: tmp94 = einsum(tmp33, (0, 1), t2.abab, (2, 0, 3, 1), (2, 3))
    .set 131 (.ein [(29, [0, 1]), (13, [2, 0, 3, 1])] [2, 3]) 1 1,
    -- 5876: tmp92 = einsum(tmp89, (0, 1), t2.bbbb, (2, 0, 3, 1), (2, 3))
    .set 132 (.ein [(30, [0, 1]), (14, [2, 0, 3, 1])] [2, 3]) 1 1,
    -- 5877: tmp90 = einsum(t2.abab, (0, 1, 2, 3), tmp89, (1, 3), (0, 2))
    .set 133 (.ein [(13, [0, 1, 2, 3]), (30, [1, 3])] [0, 2]) 1 1,
    -- 5878: tmp88 = einsum(tmp29, (0, 1), t2.abab, (0, 2, 1, 3), (2, 3))
    .set 134 (.ein [(31, [0, 1]), (13, [0, 2, 1, 3])] [2, 3]) 1 1,
    -- 5879: tmp86 = einsum(tmp29, (0, 1), t2.aaaa, (2, 0, 3, 1), (2, 3))
    .set 135 (.ein [(31, [0, 1]), (15, [2, 0, 3, 1])] [2, 3]) 1 1,
    -- 5880: tmp85 = einsum(tmp82, (0, 1), t2.abab, (0, 2, 1, 3), (2, 3))
    .set 136 (.ein [(32, [0, 1]), (13, [0, 2, 1, 3])] [2, 3]) 1 1,
    -- 5881: tmp83 = einsum(t2.aaaa, (0, 1, 2, 3), tmp82, (1, 3), (0, 2))
    .set 137 (.ein [(15, [0, 1, 2, 3]), (32, [1, 3])] [0, 2]) 1 1,
    -- 5882: tmp81 = einsum(t2.abab, (0, 1, 2, 3), v.aabb.ovvv, (0, 4, 5, 3), (1, 2, 4, 5))
    .set 138 (.ein [(13, [0, 1, 2, 3]), (6, [0, 4, 5, 3])] [1, 2, 4, 5]) 1 1,
    -- 5883: tmp79 = einsum(t2.bbbb, (0, 1, 2, 3), v.aabb.vvov, (4, 5, 1, 3), (0, 4, 5, 2))
    .set 139 (.ein [(14, [0, 1, 2, 3]), (5, [4, 5, 1, 3])] [0, 4, 5, 2]) 1 1,
    -- 5884: tmp77 = einsum(v.aabb.vvov, (0, 1, 2, 3), t2.abab, (4, 2, 5, 3), (4, 5, 0, 1))
    .set 140 (.ein [(5, [0, 1, 2, 3]), (13, [4, 2, 5, 3])] [4, 5, 0, 1]) 1 1,
    -- 5885: tmp76 = einsum(t2.abab, (0, 1, 2, 3), v.aaaa.ovvv, (0, 4, 5, 2), (1, 4, 5, 3))
    .set 141 (.ein [(13, [0, 1, 2, 3]), (8, [0, 4, 5, 2])] [1, 4, 5, 3]) 1 1,
    -- 5886: tmp74 = einsum(v.aaaa.ovvv, (0, 1, 2, 3), t2.aaaa, (4, 0, 5, 3), (4, 5, 1, 2))
    .set 142 (.ein [(8, [0, 1, 2, 3]), (15, [4, 0, 5, 3])] [4, 5, 1, 2]) 1 1,
    -- 5887: tmp73 = einsum(t2.abab, (0, 1, 2, 3), v.aaaa.ovvv, (0, 2, 4, 5), (1, 4, 5, 3))
    .set 143 (.ein [(13, [0, 1, 2, 3]), (8, [0, 2, 4, 5])] [1, 4, 5, 3]) 1 1,
    -- 5888: tmp71 = einsum(v.aaaa.ovvv, (0, 1, 2, 3), t2.aaaa, (4, 0, 5, 1), (4, 5, 2, 3))
    .set 144 (.ein [(8, [0, 1, 2, 3]), (15, [4, 0, 5, 1])] [4, 5, 2, 3]) 1 1,
    -- 5889: tmp69 = einsum(t2.abab, (0, 1, 2, 3), v.aabb.vvov, (4, 2, 1, 3), (0, 4))
    .set 145 (.ein [(13, [0, 1, 2, 3]), (5, [4, 2, 1, 3])] [0, 4]) 1 1,
    -- 5890: tmp67 = einsum(v.aabb.ovvv, (0, 1, 2, 3), t2.abab, (0, 4, 1, 3), (4, 2))
    .set 146 (.ein [(6, [0, 1, 2, 3]), (13, [0, 4, 1, 3])] [4, 2]) 1 1,
    -- 5891: tmp65 = einsum(v.bbbb.ovvv, (0, 1, 2, 3), t2.bbbb, (4, 0, 3, 1), (4, 2)) * -1
    .set 147 (.ein [(7, [0, 1, 2, 3]), (14, [4, 0, 3, 1])] [4, 2]) (-1) 1,
    -- 5892: tmp63 = einsum(v.aaaa.ovvv, (0, 1, 2, 3), t2.aaaa, (4, 0, 3, 1), (4, 2)) * -1
    .set 148 (.ein [(8, [0, 1, 2, 3]), (15, [4, 0, 3, 1])] [4, 2]) (-1) 1,
    -- 5893: tmp61 = einsum(v.aabb.ovoo, (0, 1, 2, 3), t2.abab, (0, 3, 4, 5), (2, 4, 1, 5))
    .set 149 (.ein [(9, [0, 1, 2, 3]), (13, [0, 3, 4, 5])] [2, 4, 1, 5]) 1 1,
    -- 5894: tmp59 = einsum(v.aaaa.ooov, (0, 1, 2, 3), t2.aaaa, (1, 2, 4, 5), (0, 4, 5, 3))
    .set 150 (.ein [(12, [0, 1, 2, 3]), (15, [1, 2, 4, 5])] [0, 4, 5, 3]) 1 1,
    -- 5895: tmp57 = einsum(v.aabb.ooov, (0, 1, 2, 3), t2.abab, (1, 2, 4, 3), (0, 4))
    .set 151 (.ein [(10, [0, 1, 2, 3]), (13, [1, 2, 4, 3])] [0, 4]) 1 1,
    -- 5896: tmp55 = einsum(v.aabb.ovoo, (0, 1, 2, 3), t2.abab, (0, 3, 1, 4), (2, 4))
    .set 152 (.ein [(9, [0, 1, 2, 3]), (13, [0, 3, 1, 4])] [2, 4]) 1 1,
    -- 5897: tmp53 = einsum(v.bbbb.ooov, (0, 1, 2, 3), t2.bbbb, (1, 2, 4, 3), (0, 4))
    .set 153 (.ein [(11, [0, 1, 2, 3]), (14, [1, 2, 4, 3])] [0, 4]) 1 1,
    -- 5898: tmp51 = einsum(v.aaaa.ooov, (0, 1, 2, 3), t2.aaaa, (1, 2, 4, 3), (0, 4))
    .set 154 (.ein [(12, [0, 1, 2, 3]), (15, [1, 2, 4, 3])] [0, 4]) 1 1,
    -- 5899: tmp49 = einsum(v.aabb.ovov, (0, 1, 2, 3), t2.abab, (0, 2, 4, 3), (4, 1))
    .set 155 (.ein [(0, [0, 1, 2, 3]), (13, [0, 2, 4, 3])] [4, 1]) 1 1,
    -- 5900: tmp47 = einsum(t2.aaaa, (0, 1, 2, 3), v.aaaa.ovov, (0, 3, 1, 4), (2, 4)) * -1
    .set 156 (.ein [(15, [0, 1, 2, 3]), (4, [0, 3, 1, 4])] [2, 4]) (-1) 1,
    -- 5901: tmp45 = einsum(t1.bb, (0, 1), v.aabb.vvvv, (2, 3, 4, 1), (0, 2, 3, 4))
    .set 157 (.ein [(2, [0, 1]), (18, [2, 3, 4, 1])] [0, 2, 3, 4]) 1 1,
    -- 5902: tmp43 = einsum(t1.aa, (0, 1), v.aaaa.vvvv, (2, 3, 4, 1), (0, 2, 3, 4))
    .set 158 (.ein [(1, [0, 1]), (20, [2, 3, 4, 1])] [0, 2, 3, 4]) 1 1,
    -- 5903: tmp34 = einsum(v.bbbb.oovv, (0, 1, 2, 3), t1.bb, (1, 3), (0, 2))
    .set 159 (.ein [(21, [0, 1, 2, 3]), (2, [1, 3])] [0, 2]) 1 1,
    -- 5904: tmp31 = einsum(t1.aa, (0, 1), v.aaaa.oovv, (2, 0, 3, 1), (2, 3))
    .set 160 (.ein [(1, [0, 1]), (22, [2, 0, 3, 1])] [2, 3]) 1 1,
    -- 5905: tmp23 = einsum(t1.bb, (0, 1), tmp22, (0, 2), (2, 1))
    .set 161 (.ein [(2, [0, 1]), (59, [0, 2])] [2, 1]) 1 1,
    -- 5906: tmp20 = einsum(t1.aa, (0, 1), tmp19, (0, 2), (2, 1))
    .set 162 (.ein [(1, [0, 1]), (60, [0, 2])] [2, 1]) 1 1,
    -- 5907: tmp13 = einsum(f.bb.ov, (0, 1), t2.bbbb, (2, 0, 3, 1), (2, 3))
    .set 163 (.ein [(16, [0, 1]), (14, [2, 0, 3, 1])] [2, 3]) 1 1,
    -- 5908: tmp11 = einsum(f.bb.ov, (0, 1), t2.abab, (2, 0, 3, 1), (2, 3))
    .set 164 (.ein [(16, [0, 1]), (13, [2, 0, 3, 1])] [2, 3]) 1 1,
    -- 5909: tmp10 = einsum(f.aa.ov, (0, 1), t2.abab, (0, 2, 1, 3), (2, 3))
    .set 165 (.ein [(17, [0, 1]), (13, [0, 2, 1, 3])] [2, 3]) 1 1,
    -- 5910: tmp8 = einsum(f.aa.ov, (0, 1), t2.aaaa, (2, 0, 3, 1), (2, 3))
    .set 166 (.ein [(17, [0, 1]), (15, [2, 0, 3, 1])] [2, 3]) 1 1,
    -- 5911: tmp7 = einsum(f.bb.vv, (0, 1), t1.bb, (2, 1), (2, 0))
    .set 167 (.ein [(23, [0, 1]), (2, [2, 1])] [2, 0]) 1 1,
    -- 5912: tmp5 = einsum(t1.aa, (0, 1), f.aa.vv, (2, 1), (0, 2))
    .set 168 (.ein [(1, [0, 1]), (24, [2, 1])] [0, 2]) 1 1,
    -- 5913: tmp4 = einsum(t1.bb, (0, 1), f.bb.oo, (2, 0), (2, 1))
    .set 169 (.ein [(2, [0, 1]), (25, [2, 0])] [2, 1]) 1 1,
    -- 5914: tmp2 = einsum(f.aa.oo, (0, 1), t1.aa, (1, 2), (0, 2))
    .set 170 (.ein [(26, [0, 1]), (1, [1, 2])] [0, 2]) 1 1
  ]
  ret := [(chars! "tmp10", 165), (chars! "tmp100", 128), (chars! "tmp101", 127), (chars! "tmp103", 126), (chars! "tmp11", 164), (chars! "tmp111", 58), (chars! "tmp112", 125), (chars! "tmp114", 34), (chars! "tmp115", 124), (chars! "tmp117", 33), (chars! "tmp118", 123), (chars! "tmp120", 57), (chars! "tmp121", 122), (chars! "tmp123", 121), (chars! "tmp125", 120), (chars! "tmp127", 56), (chars! "tmp128", 119), (chars! "tmp13", 163), (chars! "tmp130", 55), (chars! "tmp131", 118), (chars! "tmp133", 54), (chars! "tmp134", 117), (chars! "tmp136", 53), (chars! "tmp137", 116), (chars! "tmp139", 115), (chars! "tmp141", 114), (chars! "tmp142", 113), (chars! "tmp144", 112), (chars! "tmp145", 111), (chars! "tmp147", 110), (chars! "tmp149", 109), (chars! "tmp150", 52), (chars! "tmp151", 108), (chars! "tmp153", 51), (chars! "tmp154", 107), (chars! "tmp156", 50), (chars! "tmp157", 106), (chars! "tmp158", 49), (chars! "tmp159", 105), (chars! "tmp160", 48), (chars! "tmp161", 104), (chars! "tmp163", 47), (chars! "tmp164", 103), (chars! "tmp169", 102), (chars! "tmp171", 101), (chars! "tmp173", 44), (chars! "tmp174", 100), (chars! "tmp175", 43), (chars! "tmp176", 99), (chars! "tmp177", 42), (chars! "tmp178", 98), (chars! "tmp179", 97), (chars! "tmp181", 96), (chars! "tmp183", 95), (chars! "tmp185", 94), (chars! "tmp186", 93), (chars! "tmp187", 40), (chars! "tmp188", 92), (chars! "tmp19", 60), (chars! "tmp190", 39), (chars! "tmp191", 91), (chars! "tmp193", 38), (chars! "tmp194", 90), (chars! "tmp195", 37), (chars! "tmp196", 89), (chars! "tmp197", 36), (chars! "tmp198", 88), (chars! "tmp2", 170), (chars! "tmp20", 162), (chars! "tmp200", 35), (chars! "tmp201", 87), (chars! "tmp22", 59), (chars! "tmp226", 86), (chars! "tmp228", 85), (chars! "tmp23", 161), (chars! "tmp230", 84), (chars! "tmp232", 83), (chars! "tmp238", 82), (chars! "tmp240", 81), (chars! "tmp246", 80), (chars! "tmp247", 79), (chars! "tmp249", 78), (chars! "tmp250", 77), (chars! "tmp252", 76), (chars! "tmp254", 75), (chars! "tmp256", 74), (chars! "tmp26", 46), (chars! "tmp27", 45), (chars! "tmp276", 73), (chars! "tmp278", 72), (chars! "tmp28", 41), (chars! "tmp284", 71), (chars! "tmp285", 70), (chars! "tmp287", 69), (chars! "tmp288", 68), (chars! "tmp29", 31), (chars! "tmp290", 67), (chars! "tmp292", 66), (chars! "tmp294", 65), (chars! "tmp305", 64), (chars! "tmp307", 63), (chars! "tmp309", 62), (chars! "tmp31", 160), (chars! "tmp310", 61), (chars! "tmp33", 29), (chars! "tmp34", 159), (chars! "tmp35", 27), (chars! "tmp36", 28), (chars! "tmp4", 169), (chars! "tmp43", 158), (chars! "tmp45", 157), (chars! "tmp47", 156), (chars! "tmp49", 155), (chars! "tmp5", 168), (chars! "tmp51", 154), (chars! "tmp53", 153), (chars! "tmp55", 152), (chars! "tmp57", 151), (chars! "tmp59", 150), (chars! "tmp61", 149), (chars! "tmp63", 148), (chars! "tmp65", 147), (chars! "tmp67", 146), (chars! "tmp69", 145), (chars! "tmp7", 167), (chars! "tmp71", 144), (chars! "tmp73", 143), (chars! "tmp74", 142), (chars! "tmp76", 141), (chars! "tmp77", 140), (chars! "tmp79", 139), (chars! "tmp8", 166), (chars! "tmp81", 138), (chars! "tmp82", 32), (chars! "tmp83", 137), (chars! "tmp85", 136), (chars! "tmp86", 135), (chars! "tmp88", 134), (chars! "tmp89", 30), (chars! "tmp90", 133), (chars! "tmp92", 132), (chars! "tmp94", 131), (chars! "tmp96", 130), (chars! "tmp98", 129)]

/-- codegen/UCCSD.py:5918-6565 `hbar_lmatvec_ea`. -/
def hbar_lmatvec_ea : GenFun where
  args := [chars! "ints.tmp114", chars! "f.bb.ov", chars! "ints.tmp33", chars! "ints.tmp35", chars! "f.aa.ov", chars! "ints.tmp29", chars! "ints.tmp36", chars! "ints.tmp111", chars! "t1.aa", chars! "ints.tmp117", chars! "t2.bbbb", chars! "r2.bbb", chars! "t2.abab", chars! "r2.aba", chars! "v.aabb.ooov", chars! "t1.bb", chars! "ints.tmp89", chars! "r2.bab", chars! "r1.a", chars! "ints.tmp120", chars! "ints.tmp82", chars! "ints.tmp287", chars! "v.aabb.ovov", chars! "ints.tmp285", chars! "ints.tmp292", chars! "ints.tmp307", chars! "f.bb.vv", chars! "ints.tmp173", chars! "ints.tmp177", chars! "ints.tmp230", chars! "ints.tmp232", chars! "v.bbbb.ooov", chars! "ints.tmp175", chars! "ints.tmp305", chars! "ints.tmp288", chars! "ints.tmp284", chars! "ints.tmp310", chars! "ints.tmp290", chars! "r1.b", chars! "ints.tmp181", chars! "ints.tmp142", chars! "ints.tmp27", chars! "r2.aaa", chars! "t2.aaaa", chars! "ints.tmp141", chars! "ints.tmp147", chars! "ints.tmp186", chars! "f.aa.vv", chars! "ints.tmp26", chars! "ints.tmp28", chars! "ints.tmp47", chars! "ints.tmp49", chars! "v.aaaa.ooov", chars! "ints.tmp139", chars! "ints.tmp145", chars! "ints.tmp183", chars! "v.bbbb.ovvv", chars! "v.bbbb.ovov", chars! "v.bbbb.oovv", chars! "v.aabb.ovoo", chars! "ints.tmp144", chars! "v.aaaa.ovov", chars! "v.aaaa.ovvv", chars! "v.aaaa.oovv", chars! "f.bb.oo", chars! "ints.tmp130", chars! "ints.tmp133", chars! "ints.tmp158", chars! "ints.tmp163", chars! "ints.tmp195", chars! "ints.tmp200", chars! "ints.tmp22", chars! "ints.tmp156", chars! "ints.tmp193", chars! "ints.tmp149", chars! "ints.tmp185", chars! "v.aabb.vvoo", chars! "ints.tmp294", chars! "ints.tmp309", chars! "v.aabb.oovv", chars! "f.aa.oo", chars! "ints.tmp127", chars! "ints.tmp136", chars! "ints.tmp153", chars! "ints.tmp160", chars! "ints.tmp190", chars! "ints.tmp197", chars! "ints.tmp19", chars! "ints.tmp150", chars! "ints.tmp187", chars! "ints.tmp112", chars! "ints.tmp118", chars! "ints.tmp128", chars! "ints.tmp137", chars! "ints.tmp154", chars! "ints.tmp161", chars! "ints.tmp171", chars! "ints.tmp191", chars! "ints.tmp198", chars! "ints.tmp20", chars! "ints.tmp2", chars! "ints.tmp31", chars! "ints.tmp51", chars! "ints.tmp57", chars! "ints.tmp63", chars! "ints.tmp83", chars! "ints.tmp90", chars! "ints.tmp101", chars! "ints.tmp11", chars! "ints.tmp151", chars! "ints.tmp169", chars! "ints.tmp179", chars! "ints.tmp188", chars! "ints.tmp5", chars! "ints.tmp69", chars! "ints.tmp86", chars! "ints.tmp8", chars! "ints.tmp94", chars! "ints.tmp98", chars! "ints.tmp115", chars! "ints.tmp121", chars! "ints.tmp131", chars! "ints.tmp134", chars! "ints.tmp159", chars! "ints.tmp164", chars! "ints.tmp176", chars! "ints.tmp196", chars! "ints.tmp201", chars! "ints.tmp23", chars! "ints.tmp34", chars! "ints.tmp4", chars! "ints.tmp53", chars! "ints.tmp55", chars! "ints.tmp65", chars! "ints.tmp85", chars! "ints.tmp92", chars! "ints.tmp100", chars! "ints.tmp103", chars! "ints.tmp10", chars! "ints.tmp13", chars! "ints.tmp157", chars! "ints.tmp174", chars! "ints.tmp178", chars! "ints.tmp194", chars! "ints.tmp67", chars! "ints.tmp7", chars! "ints.tmp88", chars! "ints.tmp96", chars! "ints.tmp238", chars! "ints.tmp247", chars! "ints.tmp254", chars! "ints.tmp226", chars! "ints.tmp250", chars! "ints.tmp276", chars! "ints.tmp228", chars! "ints.tmp240", chars! "ints.tmp246", chars! "ints.tmp252", chars! "ints.tmp278", chars! "v.aabb.ovvv", chars! "ints.tmp249", chars! "ints.tmp256", chars! "ints.tmp125", chars! "ints.tmp45", chars! "ints.tmp61", chars! "ints.tmp73", chars! "ints.tmp79", chars! "v.aabb.vvov", chars! "ints.tmp76", chars! "ints.tmp81", chars! "ints.tmp59", chars! "ints.tmp71", chars! "ints.tmp77", chars! "ints.tmp123", chars! "ints.tmp43", chars! "ints.tmp74", chars! "v.bbbb.vvvv", chars! "v.aabb.vvvv", chars! "v.aaaa.vvvv"]
  body := [
    -- 5948: tmp94 = np.copy(ints.tmp114) * -1
    .set 179 (.cp 0) (-1) 1,
    -- 5949: tmp94 += np.transpose(ints.tmp114, (0, 2, 1, 3))
    .add 179 (.tr 0 [0, 2, 1, 3]) 1 1,
    -- 5950: tmp118 = np.copy(f.bb.ov)
    .set 180 (.cp 1) 1 1,
    -- 5951: tmp118 += ints.tmp33
    .add 180 (.cp 2) 1 1,
    -- 5952: tmp118 += ints.tmp35
    .add 180 (.cp 3) 1 1,
    -- 5953: tmp62 = np.copy(f.aa.ov)
    .set 181 (.cp 4) 1 1,
    -- 5954: tmp62 += ints.tmp29
    .add 181 (.cp 5) 1 1,
    -- 5955: tmp62 += ints.tmp36
    .add 181 (.cp 6) 1 1,
    -- 5956: tmp44 = np.copy(ints.tmp111)
    .set 182 (.cp 7) 1 1,
    -- 5957: tmp44 += np.transpose(ints.tmp111, (0, 2, 1, 3)) * -1
    .add 182 (.tr 7 [0, 2, 1, 3]) (-1) 1,
    -- 5958: tmp105 = einsum(t1.aa, (0, 1), ints.tmp117, (2, 0, 3, 4), (2, 3, 1, 4))
    .set 183 (.ein [(8, [0, 1]), (9, [2, 0, 3, 4])] [2, 3, 1, 4]) 1 1,
    -- 5959: tmp36 = einsum(t2.bbbb, (0, 1, 2, 3), r2.bbb, (2, 3, 1), (0,))
    .set 184 (.ein [(10, [0, 1, 2, 3]), (11, [2, 3, 1])] [0]) 1 1,
    -- 5960: tmp35 = einsum(t2.abab, (0, 1, 2, 3), r2.aba, (2, 3, 0), (1,))
    .set 185 (.ein [(12, [0, 1, 2, 3]), (13, [2, 3, 0])] [1]) 1 1,
    -- 5961: tmp108 = einsum(t1.aa, (0, 1), v.aabb.ooov, (2, 0, 3, 4), (2, 3, 1, 4))
    .set 186 (.ein [(8, [0, 1]), (14, [2, 0, 3, 4])] [2, 3, 1, 4]) 1 1,
    -- 5962: tmp95 = einsum(t1.bb, (0, 1), tmp94, (2, 0, 3, 4), (2, 3, 1, 4))
    .set 187 (.ein [(15, [0, 1]), (179, [2, 0, 3, 4])] [2, 3, 1, 4]) 1 1,
    -- 5963: del tmp94
    .del 179,
    -- 5964: tmp100 = einsum(ints.tmp89, (0, 1), t1.bb, (0, 2), (1, 2))
    .set 188 (.ein [(16, [0, 1]), (15, [0, 2])] [1, 2]) 1 1,
    -- 5965: tmp119 = einsum(tmp118, (0, 1), t1.bb, (0, 2), (2, 1))
    .set 189 (.ein [(180, [0, 1]), (15, [0, 2])] [2, 1]) 1 1,
    -- 5966: del tmp118
    .del 180,
    -- 5967: tmp17 = einsum(r2.bab, (0, 1, 2), t2.abab, (3, 2, 1, 0), (3,)) * -1
    .set 190 (.ein [(17, [0, 1, 2]), (12, [3, 2, 1, 0])] [3]) (-1) 1,
    -- 5968: tmp15 = einsum(t1.aa, (0, 1), r1.a, (1,), (0,))
    .set 191 (.ein [(8, [0, 1]), (18, [1])] [0]) 1 1,
    -- 5969: tmp63 = einsum(t1.aa, (0, 1), tmp62, (0, 2), (1, 2))
    .set 192 (.ein [(8, [0, 1]), (181, [0, 2])] [1, 2]) 1 1,
    -- 5970: del tmp62
    .del 181,
    -- 5971: tmp48 = einsum(t1.bb, (0, 1), ints.tmp120, (2, 3, 0, 4), (2, 3, 4, 1))
    .set 193 (.ein [(15, [0, 1]), (19, [2, 3, 0, 4])] [2, 3, 4, 1]) 1 1,
    -- 5972: tmp53 = einsum(ints.tmp82, (0, 1), t1.aa, (0, 2), (1, 2))
    .set 194 (.ein [(20, [0, 1]), (8, [0, 2])] [1, 2]) 1 1,
    -- 5973: tmp45 = einsum(t1.aa, (0, 1), tmp44, (2, 3, 0, 4), (2, 3, 1, 4))
    .set 195 (.ein [(8, [0, 1]), (182, [2, 3, 0, 4])] [2, 3, 1, 4]) 1 1,
    -- 5974: del tmp44
    .del 182,
    -- 5975: tmp22 = einsum(r2.bbb, (0, 1, 2), t1.bb, (3, 1), (2, 3, 0))
    .set 196 (.ein [(11, [0, 1, 2]), (15, [3, 1])] [2, 3, 0]) 1 1,
    -- 5976: tmp106 = np.copy(ints.tmp287)
    .set 197 (.cp 21) 1 1,
    -- 5977: tmp106 += tmp105
    .add 197 (.cp 183) 1 1,
    -- 5978: del tmp105
    .del 183,
    -- 5979: tmp103 = np.copy(tmp35) * -0.5
    .set 198 (.cp 185) (-1) 2,
    -- 5980: tmp103 += tmp36
    .add 198 (.cp 184) 1 1,
    -- 5981: tmp109 = np.copy(np.transpose(v.aabb.ovov, (0, 2, 1, 3)))
    .set 199 (.tr 22 [0, 2, 1, 3]) 1 1,
    -- 5982: tmp109 += tmp108 * -1
    .add 199 (.cp 186) (-1) 1,
    -- 5983: del tmp108
    .del 186,
    -- 5984: tmp96 = np.copy(ints.tmp285) * 2
    .set 200 (.cp 23) 2 1,
    -- 5985: tmp96 += ints.tmp292
    .add 200 (.cp 24) 1 1,
    -- 5986: tmp96 += np.transpose(ints.tmp307, (0, 1, 3, 2))
    .add 200 (.tr 25 [0, 1, 3, 2]) 1 1,
    -- 5987: tmp96 += tmp95 * -1
    .add 200 (.cp 187) (-1) 1,
    -- 5988: del tmp95
    .del 187,
    -- 5989: tmp101 = np.copy(f.bb.vv) * 0.5
    .set 201 (.cp 26) 1 2,
    -- 5990: tmp101 += ints.tmp173 * 0.5
    .add 201 (.cp 27) 1 2,
    -- 5991: tmp101 += ints.tmp177 * 0.5
    .add 201 (.cp 28) 1 2,
    -- 5992: tmp101 += ints.tmp230 * -1
    .add 201 (.cp 29) (-1) 1,
    -- 5993: tmp101 += ints.tmp232 * -0.5
    .add 201 (.cp 30) (-1) 2,
    -- 5994: tmp101 += np.transpose(tmp100, (1, 0)) * 0.5
    .add 201 (.tr 188 [1, 0]) 1 2,
    -- 5995: del tmp100
    .del 188,
    -- 5996: tmp98 = np.copy(v.bbbb.ooov)
    .set 202 (.cp 31) 1 1,
    -- 5997: tmp98 += np.transpose(v.bbbb.ooov, (0, 2, 1, 3)) * -1
    .add 202 (.tr 31 [0, 2, 1, 3]) (-1) 1,
    -- 5998: tmp120 = np.copy(ints.tmp175)
    .set 203 (.cp 32) 1 1,
    -- 5999: tmp120 += np.transpose(tmp119, (1, 0))
    .add 203 (.tr 189 [1, 0]) 1 1,
    -- 6000: del tmp119
    .del 189,
    -- 6001: tmp116 = np.copy(np.transpose(ints.tmp305, (0, 1, 3, 2)))
    .set 204 (.tr 33 [0, 1, 3, 2]) 1 1,
    -- 6002: tmp116 += ints.tmp288 * 2
    .add 204 (.cp 34) 2 1,
    -- 6003: tmp114 = np.copy(ints.tmp284)
    .set 205 (.cp 35) 1 1,
    -- 6004: tmp114 += ints.tmp310
    .add 205 (.cp 36) 1 1,
    -- 6005: tmp114 += ints.tmp290 * 2
    .add 205 (.cp 37) 2 1,
    -- 6006: tmp34 = einsum(r1.b, (0,), t1.bb, (1, 0), (1,))
    .set 206 (.ein [(38, [0]), (15, [1, 0])] [1]) 1 1,
    -- 6007: tmp19 = np.copy(f.aa.ov)
    .set 207 (.cp 4) 1 1,
    -- 6008: tmp19 += ints.tmp29
    .add 207 (.cp 5) 1 1,
    -- 6009: tmp19 += ints.tmp36
    .add 207 (.cp 6) 1 1,
    -- 6010: tmp19 += ints.tmp82 * -1
    .add 207 (.cp 20) (-1) 1,
    -- 6011: tmp66 = np.copy(tmp15)
    .set 208 (.cp 191) 1 1,
    -- 6012: tmp66 += tmp17
    .add 208 (.cp 190) 1 1,
    -- 6013: tmp60 = np.copy(np.transpose(ints.tmp181, (0, 1, 3, 2)))
    .set 209 (.tr 39 [0, 1, 3, 2]) 1 1,
    -- 6014: tmp60 += ints.tmp142 * 2
    .add 209 (.cp 40) 2 1,
    -- 6015: tmp64 = np.copy(ints.tmp27)
    .set 210 (.cp 41) 1 1,
    -- 6016: tmp64 += np.transpose(tmp63, (1, 0))
    .add 210 (.tr 192 [1, 0]) 1 1,
    -- 6017: del tmp63
    .del 192,
    -- 6018: tmp2 = einsum(t1.aa, (0, 1), r2.aaa, (2, 1, 3), (3, 0, 2))
    .set 211 (.ein [(8, [0, 1]), (42, [2, 1, 3])] [3, 0, 2]) 1 1,
    -- 6019: tmp16 = einsum(t2.aaaa, (0, 1, 2, 3), r2.aaa, (2, 3, 1), (0,))
    .set 212 (.ein [(43, [0, 1, 2, 3]), (42, [2, 3, 1])] [0]) 1 1,
    -- 6020: tmp6 = einsum(t1.bb, (0, 1), r2.bab, (1, 2, 3), (3, 0, 2)) * -1
    .set 213 (.ein [(15, [0, 1]), (17, [1, 2, 3])] [3, 0, 2]) (-1) 1,
    -- 6021: tmp49 = np.copy(ints.tmp141) * 0.5
    .set 214 (.cp 44) 1 2,
    -- 6022: tmp49 += ints.tmp147
    .add 214 (.cp 45) 1 1,
    -- 6023: tmp49 += ints.tmp186 * 0.5
    .add 214 (.cp 46) 1 2,
    -- 6024: tmp49 += tmp48 * -0.5
    .add 214 (.cp 193) (-1) 2,
    -- 6025: del tmp48
    .del 193,
    -- 6026: tmp54 = np.copy(f.aa.vv) * 0.5
    .set 215 (.cp 47) 1 2,
    -- 6027: tmp54 += ints.tmp26 * 0.5
    .add 215 (.cp 48) 1 2,
    -- 6028: tmp54 += ints.tmp28 * 0.5
    .add 215 (.cp 49) 1 2,
    -- 6029: tmp54 += ints.tmp47 * -1
    .add 215 (.cp 50) (-1) 1,
    -- 6030: tmp54 += ints.tmp49 * -0.5
    .add 215 (.cp 51) (-1) 2,
    -- 6031: tmp54 += np.transpose(tmp53, (1, 0)) * 0.5
    .add 215 (.tr 194 [1, 0]) 1 2,
    -- 6032: del tmp53
    .del 194,
    -- 6033: tmp51 = np.copy(v.aaaa.ooov) * -1
    .set 216 (.cp 52) (-1) 1,
    -- 6034: tmp51 += np.transpose(v.aaaa.ooov, (0, 2, 1, 3))
    .add 216 (.tr 52 [0, 2, 1, 3]) 1 1,
    -- 6035: tmp46 = np.copy(ints.tmp139) * 2
    .set 217 (.cp 53) 2 1,
    -- 6036: tmp46 += ints.tmp145
    .add 217 (.cp 54) 1 1,
    -- 6037: tmp46 += np.transpose(ints.tmp183, (0, 1, 3, 2))
    .add 217 (.tr 55 [0, 1, 3, 2]) 1 1,
    -- 6038: tmp46 += tmp45 * -1
    .add 217 (.cp 195) (-1) 1,
    -- 6039: del tmp45
    .del 195,
    -- 6040: tmp93 = einsum(tmp22, (0, 1, 2), v.bbbb.ovvv, (1, 3, 4, 2), (0, 3, 4)) * -1
    .set 218 (.ein [(196, [0, 1, 2]), (56, [1, 3, 4, 2])] [0, 3, 4]) (-1) 1,
    -- 6041: tmp107 = einsum(tmp106, (0, 1, 2, 3), r2.aba, (2, 4, 0), (1, 4, 3))
    .set 219 (.ein [(197, [0, 1, 2, 3]), (13, [2, 4, 0])] [1, 4, 3]) 1 1,
    -- 6042: del tmp106
    .del 197,
    -- 6043: tmp104 = einsum(tmp103, (0,), v.bbbb.ovov, (1, 2, 0, 3), (1, 3, 2)) * 2
    .set 220 (.ein [(198, [0]), (57, [1, 2, 0, 3])] [1, 3, 2]) 2 1,
    -- 6044: del tmp103
    .del 198,
    -- 6045: tmp110 = einsum(tmp109, (0, 1, 2, 3), r2.aba, (2, 4, 0), (1, 4, 3))
    .set 221 (.ein [(199, [0, 1, 2, 3]), (13, [2, 4, 0])] [1, 4, 3]) 1 1,
    -- 6046: del tmp109
    .del 199,
    -- 6047: tmp92 = einsum(r2.bbb, (0, 1, 2), v.bbbb.oovv, (3, 2, 4, 1), (3, 0, 4))
    .set 222 (.ein [(11, [0, 1, 2]), (58, [3, 2, 4, 1])] [3, 0, 4]) 1 1,
    -- 6048: tmp91 = einsum(v.bbbb.ovvv, (0, 1, 2, 3), r1.b, (3,), (0, 1, 2))
    .set 223 (.ein [(56, [0, 1, 2, 3]), (38, [3])] [0, 1, 2]) 1 1,
    -- 6049: tmp97 = einsum(r2.bbb, (0, 1, 2), tmp96, (2, 3, 1, 4), (3, 0, 4)) * -2
    .set 224 (.ein [(11, [0, 1, 2]), (200, [2, 3, 1, 4])] [3, 0, 4]) (-2) 1,
    -- 6050: del tmp96
    .del 200,
    -- 6051: tmp102 = einsum(r2.bbb, (0, 1, 2), tmp101, (1, 3), (2, 0, 3)) * -4
    .set 225 (.ein [(11, [0, 1, 2]), (201, [1, 3])] [2, 0, 3]) (-4) 1,
    -- 6052: del tmp101
    .del 201,
    -- 6053: tmp99 = einsum(tmp22, (0, 1, 2), tmp98, (0, 3, 1, 4), (3, 2, 4)) * 2
    .set 226 (.ein [(196, [0, 1, 2]), (202, [0, 3, 1, 4])] [3, 2, 4]) 2 1,
    -- 6054: del tmp98
    .del 202,
    -- 6055: tmp123 = np.copy(t2.bbbb)
    .set 227 (.cp 10) 1 1,
    -- 6056: tmp123 += einsum(t1.bb, (0, 1), t1.bb, (2, 3), (0, 2, 1, 3))
    .add 227 (.ein [(15, [0, 1]), (15, [2, 3])] [0, 2, 1, 3]) 1 1,
    -- 6057: tmp121 = einsum(tmp120, (0, 1), r2.bbb, (2, 1, 3), (3, 2, 0)) * -1
    .set 228 (.ein [(203, [0, 1]), (11, [2, 1, 3])] [3, 2, 0]) (-1) 1,
    -- 6058: del tmp120
    .del 203,
    -- 6059: tmp117 = einsum(r2.bbb, (0, 1, 2), tmp116, (2, 3, 1, 4), (3, 0, 4)) * -1
    .set 229 (.ein [(11, [0, 1, 2]), (204, [2, 3, 1, 4])] [3, 0, 4]) (-1) 1,
    -- 6060: del tmp116
    .del 204,
    -- 6061: tmp115 = einsum(tmp114, (0, 1, 2, 3), r2.aba, (2, 4, 0), (1, 4, 3))
    .set 230 (.ein [(205, [0, 1, 2, 3]), (13, [2, 4, 0])] [1, 4, 3]) 1 1,
    -- 6062: del tmp114
    .del 205,
    -- 6063: tmp112 = einsum(r2.bbb, (0, 1, 2), v.bbbb.ovov, (3, 4, 2, 1), (3, 0, 4))
    .set 231 (.ein [(11, [0, 1, 2]), (57, [3, 4, 2, 1])] [3, 0, 4]) 1 1,
    -- 6064: tmp113 = einsum(tmp34, (0,), v.bbbb.ovov, (1, 2, 0, 3), (1, 2, 3))
    .set 232 (.ein [(206, [0]), (57, [1, 2, 0, 3])] [1, 2, 3]) 1 1,
    -- 6065: tmp80 = einsum(tmp19, (0, 1), t1.aa, (0, 2), (2, 1))
    .set 233 (.ein [(207, [0, 1]), (8, [0, 2])] [2, 1]) 1 1,
    -- 6066: tmp30 = np.copy(ints.tmp117)
    .set 234 (.cp 9) 1 1,
    -- 6067: tmp30 += v.aabb.ooov
    .add 234 (.cp 14) 1 1,
    -- 6068: tmp74 = np.copy(ints.tmp120)
    .set 235 (.cp 19) 1 1,
    -- 6069: tmp74 += np.transpose(v.aabb.ovoo, (0, 2, 3, 1))
    .add 235 (.tr 59 [0, 2, 3, 1]) 1 1,
    -- 6070: tmp38 = np.copy(f.bb.ov)
    .set 236 (.cp 1) 1 1,
    -- 6071: tmp38 += ints.tmp33
    .add 236 (.cp 2) 1 1,
    -- 6072: tmp38 += ints.tmp35
    .add 236 (.cp 3) 1 1,
    -- 6073: tmp38 += ints.tmp89 * -1
    .add 236 (.cp 16) (-1) 1,
    -- 6074: tmp82 = np.copy(ints.tmp114) * -1
    .set 237 (.cp 0) (-1) 1,
    -- 6075: tmp82 += np.transpose(ints.tmp114, (0, 2, 1, 3))
    .add 237 (.tr 0 [0, 2, 1, 3]) 1 1,
    -- 6076: tmp82 += v.bbbb.ooov
    .add 237 (.cp 31) 1 1,
    -- 6077: tmp82 += np.transpose(v.bbbb.ooov, (0, 2, 1, 3)) * -1
    .add 237 (.tr 31 [0, 2, 1, 3]) (-1) 1,
    -- 6078: tmp86 = np.copy(t2.abab)
    .set 238 (.cp 12) 1 1,
    -- 6079: tmp86 += einsum(t1.aa, (0, 1), t1.bb, (2, 3), (0, 2, 1, 3))
    .add 238 (.ein [(8, [0, 1]), (15, [2, 3])] [0, 2, 1, 3]) 1 1,
    -- 6080: tmp72 = np.copy(ints.tmp111)
    .set 239 (.cp 7) 1 1,
    -- 6081: tmp72 += np.transpose(ints.tmp111, (0, 2, 1, 3)) * -1
    .add 239 (.tr 7 [0, 2, 1, 3]) (-1) 1,
    -- 6082: tmp72 += v.aaaa.ooov * -1
    .add 239 (.cp 52) (-1) 1,
    -- 6083: tmp72 += np.transpose(v.aaaa.ooov, (0, 2, 1, 3))
    .add 239 (.tr 52 [0, 2, 1, 3]) 1 1,
    -- 6084: tmp77 = np.copy(t2.abab)
    .set 240 (.cp 12) 1 1,
    -- 6085: tmp77 += einsum(t1.aa, (0, 1), t1.bb, (2, 3), (0, 2, 1, 3))
    .add 240 (.ein [(8, [0, 1]), (15, [2, 3])] [0, 2, 1, 3]) 1 1,
    -- 6086: tmp58 = einsum(r2.bab, (0, 1, 2), ints.tmp144, (3, 2, 4, 0), (3, 4, 1)) * -1
    .set 241 (.ein [(17, [0, 1, 2]), (60, [3, 2, 4, 0])] [3, 4, 1]) (-1) 1,
    -- 6087: tmp67 = einsum(tmp66, (0,), v.aaaa.ovov, (1, 2, 0, 3), (1, 3, 2))
    .set 242 (.ein [(208, [0]), (61, [1, 2, 0, 3])] [1, 3, 2]) 1 1,
    -- 6088: del tmp66
    .del 208,
    -- 6089: tmp61 = einsum(tmp60, (0, 1, 2, 3), r2.aaa, (4, 2, 0), (1, 4, 3)) * -1
    .set 243 (.ein [(209, [0, 1, 2, 3]), (42, [4, 2, 0])] [1, 4, 3]) (-1) 1,
    -- 6090: del tmp60
    .del 209,
    -- 6091: tmp59 = einsum(v.aabb.ovov, (0, 1, 2, 3), r2.bab, (3, 4, 2), (0, 4, 1)) * -1
    .set 244 (.ein [(22, [0, 1, 2, 3]), (17, [3, 4, 2])] [0, 4, 1]) (-1) 1,
    -- 6092: tmp57 = einsum(r2.aaa, (0, 1, 2), v.aaaa.ovov, (3, 4, 2, 1), (3, 0, 4))
    .set 245 (.ein [(42, [0, 1, 2]), (61, [3, 4, 2, 1])] [3, 0, 4]) 1 1,
    -- 6093: tmp65 = einsum(r2.aaa, (0, 1, 2), tmp64, (3, 1), (2, 0, 3)) * -1
    .set 246 (.ein [(42, [0, 1, 2]), (210, [3, 1])] [2, 0, 3]) (-1) 1,
    -- 6094: del tmp64
    .del 210,
    -- 6095: tmp69 = np.copy(t2.aaaa)
    .set 247 (.cp 43) 1 1,
    -- 6096: tmp69 += einsum(t1.aa, (0, 1), t1.aa, (2, 3), (2, 0, 3, 1))
    .add 247 (.ein [(8, [0, 1]), (8, [2, 3])] [2, 0, 3, 1]) 1 1,
    -- 6097: tmp41 = einsum(v.aaaa.ovvv, (0, 1, 2, 3), tmp2, (4, 0, 3), (4, 1, 2)) * -1
    .set 248 (.ein [(62, [0, 1, 2, 3]), (211, [4, 0, 3])] [4, 1, 2]) (-1) 1,
    -- 6098: tmp39 = einsum(v.aaaa.ovvv, (0, 1, 2, 3), r1.a, (3,), (0, 1, 2))
    .set 249 (.ein [(62, [0, 1, 2, 3]), (18, [3])] [0, 1, 2]) 1 1,
    -- 6099: tmp43 = einsum(tmp16, (0,), v.aaaa.ovov, (1, 2, 0, 3), (1, 2, 3)) * -1
    .set 250 (.ein [(212, [0]), (61, [1, 2, 0, 3])] [1, 2, 3]) (-1) 1,
    -- 6100: tmp42 = einsum(tmp6, (0, 1, 2), v.aabb.ovoo, (3, 4, 1, 0), (3, 2, 4))
    .set 251 (.ein [(213, [0, 1, 2]), (59, [3, 4, 1, 0])] [3, 2, 4]) 1 1,
    -- 6101: tmp50 = einsum(r2.bab, (0, 1, 2), tmp49, (3, 2, 4, 0), (3, 1, 4)) * -2
    .set 252 (.ein [(17, [0, 1, 2]), (214, [3, 2, 4, 0])] [3, 1, 4]) (-2) 1,
    -- 6102: del tmp49
    .del 214,
    -- 6103: tmp40 = einsum(v.aaaa.oovv, (0, 1, 2, 3), r2.aaa, (4, 3, 1), (0, 4, 2))
    .set 253 (.ein [(63, [0, 1, 2, 3]), (42, [4, 3, 1])] [0, 4, 2]) 1 1,
    -- 6104: tmp55 = einsum(r2.aaa, (0, 1, 2), tmp54, (1, 3), (2, 0, 3)) * -4
    .set 254 (.ein [(42, [0, 1, 2]), (215, [1, 3])] [2, 0, 3]) (-4) 1,
    -- 6105: del tmp54
    .del 215,
    -- 6106: tmp52 = einsum(tmp2, (0, 1, 2), tmp51, (0, 1, 3, 4), (3, 2, 4)) * 2
    .set 255 (.ein [(211, [0, 1, 2]), (216, [0, 1, 3, 4])] [3, 2, 4]) 2 1,
    -- 6107: del tmp51
    .del 216,
    -- 6108: tmp47 = einsum(tmp46, (0, 1, 2, 3), r2.aaa, (4, 2, 0), (1, 4, 3)) * -2
    .set 256 (.ein [(217, [0, 1, 2, 3]), (42, [4, 2, 0])] [1, 4, 3]) (-2) 1,
    -- 6109: del tmp46
    .del 217,
    -- 6110: tmp26 = einsum(t1.aa, (0, 1), r2.aba, (1, 2, 3), (3, 0, 2))
    .set 257 (.ein [(8, [0, 1]), (13, [1, 2, 3])] [3, 0, 2]) 1 1,
    -- 6111: tmp111 = np.copy(tmp91)
    .set 258 (.cp 223) 1 1,
    -- 6112: del tmp91
    .del 223,
    -- 6113: tmp111 += tmp92 * 2
    .add 258 (.cp 222) 2 1,
    -- 6114: del tmp92
    .del 222,
    -- 6115: tmp111 += tmp93 * 2
    .add 258 (.cp 218) 2 1,
    -- 6116: del tmp93
    .del 218,
    -- 6117: tmp111 += np.transpose(tmp97, (0, 2, 1)) * -1
    .add 258 (.tr 224 [0, 2, 1]) (-1) 1,
    -- 6118: del tmp97
    .del 224,
    -- 6119: tmp111 += tmp99 * -1
    .add 258 (.cp 226) (-1) 1,
    -- 6120: del tmp99
    .del 226,
    -- 6121: tmp111 += np.transpose(tmp102, (0, 2, 1)) * -1
    .add 258 (.tr 225 [0, 2, 1]) (-1) 1,
    -- 6122: del tmp102
    .del 225,
    -- 6123: tmp111 += np.transpose(tmp104, (0, 2, 1)) * -1
    .add 258 (.tr 220 [0, 2, 1]) (-1) 1,
    -- 6124: del tmp104
    .del 220,
    -- 6125: tmp111 += np.transpose(tmp107, (0, 2, 1))
    .add 258 (.tr 219 [0, 2, 1]) 1 1,
    -- 6126: del tmp107
    .del 219,
    -- 6127: tmp111 += tmp110
    .add 258 (.cp 221) 1 1,
    -- 6128: del tmp110
    .del 221,
    -- 6129: tmp124 = einsum(tmp123, (0, 1, 2, 3), r2.bbb, (2, 3, 4), (4, 1, 0)) * -1
    .set 259 (.ein [(227, [0, 1, 2, 3]), (11, [2, 3, 4])] [4, 1, 0]) (-1) 1,
    -- 6130: del tmp123
    .del 227,
    -- 6131: tmp122 = np.copy(tmp112) * 2
    .set 260 (.cp 231) 2 1,
    -- 6132: del tmp112
    .del 231,
    -- 6133: tmp122 += tmp113
    .add 260 (.cp 232) 1 1,
    -- 6134: del tmp113
    .del 232,
    -- 6135: tmp122 += np.transpose(tmp115, (0, 2, 1))
    .add 260 (.tr 230 [0, 2, 1]) 1 1,
    -- 6136: del tmp115
    .del 230,
    -- 6137: tmp122 += np.transpose(tmp117, (0, 2, 1)) * -2
    .add 260 (.tr 229 [0, 2, 1]) (-2) 1,
    -- 6138: del tmp117
    .del 229,
    -- 6139: tmp122 += np.transpose(tmp121, (0, 2, 1)) * -2
    .add 260 (.tr 228 [0, 2, 1]) (-2) 1,
    -- 6140: del tmp121
    .del 228,
    -- 6141: tmp90 = np.copy(f.bb.oo)
    .set 261 (.cp 64) 1 1,
    -- 6142: tmp90 += ints.tmp130 * 2
    .add 261 (.cp 65) 2 1,
    -- 6143: tmp90 += ints.tmp133
    .add 261 (.cp 66) 1 1,
    -- 6144: tmp90 += ints.tmp158
    .add 261 (.cp 67) 1 1,
    -- 6145: tmp90 += ints.tmp163
    .add 261 (.cp 68) 1 1,
    -- 6146: tmp90 += ints.tmp195
    .add 261 (.cp 69) 1 1,
    -- 6147: tmp90 += ints.tmp200
    .add 261 (.cp 70) 1 1,
    -- 6148: tmp90 += np.transpose(ints.tmp22, (1, 0))
    .add 261 (.tr 71 [1, 0]) 1 1,
    -- 6149: tmp90 += ints.tmp156 * -1
    .add 261 (.cp 72) (-1) 1,
    -- 6150: tmp90 += ints.tmp193 * -1
    .add 261 (.cp 73) (-1) 1,
    -- 6151: tmp88 = np.copy(np.transpose(ints.tmp27, (1, 0)))
    .set 262 (.tr 41 [1, 0]) 1 1,
    -- 6152: tmp88 += ints.tmp47 * 2
    .add 262 (.cp 50) 2 1,
    -- 6153: tmp88 += ints.tmp49
    .add 262 (.cp 51) 1 1,
    -- 6154: tmp88 += f.aa.vv * -1
    .add 262 (.cp 47) (-1) 1,
    -- 6155: tmp88 += np.transpose(ints.tmp26, (1, 0)) * -1
    .add 262 (.tr 48 [1, 0]) (-1) 1,
    -- 6156: tmp88 += np.transpose(ints.tmp28, (1, 0)) * -1
    .add 262 (.tr 49 [1, 0]) (-1) 1,
    -- 6157: tmp88 += tmp80
    .add 262 (.cp 233) 1 1,
    -- 6158: tmp4 = einsum(r2.bab, (0, 1, 2), t1.aa, (3, 1), (3, 2, 0)) * -1
    .set 263 (.ein [(17, [0, 1, 2]), (8, [3, 1])] [3, 2, 0]) (-1) 1,
    -- 6159: tmp18 = np.copy(tmp15) * 0.5
    .set 264 (.cp 191) 1 2,
    -- 6160: del tmp15
    .del 191,
    -- 6161: tmp18 += tmp16
    .add 264 (.cp 212) 1 1,
    -- 6162: del tmp16
    .del 212,
    -- 6163: tmp18 += tmp17 * 0.5
    .add 264 (.cp 190) 1 2,
    -- 6164: del tmp17
    .del 190,
    -- 6165: tmp84 = np.copy(ints.tmp284)
    .set 265 (.cp 35) 1 1,
    -- 6166: tmp84 += ints.tmp290 * 2
    .add 265 (.cp 37) 2 1,
    -- 6167: tmp84 += ints.tmp310
    .add 265 (.cp 36) 1 1,
    -- 6168: tmp84 += np.transpose(v.aabb.ovov, (0, 2, 1, 3))
    .add 265 (.tr 22 [0, 2, 1, 3]) 1 1,
    -- 6169: tmp84 += ints.tmp287 * -1
    .add 265 (.cp 21) (-1) 1,
    -- 6170: tmp84 += einsum(t1.aa, (0, 1), tmp30, (2, 0, 3, 4), (2, 3, 1, 4)) * -1
    .add 265 (.ein [(8, [0, 1]), (234, [2, 0, 3, 4])] [2, 3, 1, 4]) (-1) 1,
    -- 6171: tmp85 = np.copy(ints.tmp149)
    .set 266 (.cp 74) 1 1,
    -- 6172: tmp85 += np.transpose(ints.tmp185, (0, 1, 3, 2)) * -1
    .add 266 (.tr 75 [0, 1, 3, 2]) (-1) 1,
    -- 6173: tmp85 += np.transpose(v.aabb.vvoo, (2, 3, 0, 1)) * -1
    .add 266 (.tr 76 [2, 3, 0, 1]) (-1) 1,
    -- 6174: tmp85 += einsum(tmp74, (0, 1, 2, 3), t1.aa, (0, 4), (1, 2, 4, 3))
    .add 266 (.ein [(235, [0, 1, 2, 3]), (8, [0, 4])] [1, 2, 4, 3]) 1 1,
    -- 6175: tmp89 = np.copy(np.transpose(ints.tmp175, (1, 0))) * 0.5
    .set 267 (.tr 32 [1, 0]) 1 2,
    -- 6176: tmp89 += ints.tmp230
    .add 267 (.cp 29) 1 1,
    -- 6177: tmp89 += ints.tmp232 * 0.5
    .add 267 (.cp 30) 1 2,
    -- 6178: tmp89 += f.bb.vv * -0.5
    .add 267 (.cp 26) (-1) 2,
    -- 6179: tmp89 += ints.tmp173 * -0.5
    .add 267 (.cp 27) (-1) 2,
    -- 6180: tmp89 += ints.tmp177 * -0.5
    .add 267 (.cp 28) (-1) 2,
    -- 6181: tmp89 += einsum(t1.bb, (0, 1), tmp38, (0, 2), (1, 2)) * 0.5
    .add 267 (.ein [(15, [0, 1]), (236, [0, 2])] [1, 2]) 1 2,
    -- 6182: tmp83 = np.copy(ints.tmp285) * 2
    .set 268 (.cp 23) 2 1,
    -- 6183: tmp83 += ints.tmp292
    .add 268 (.cp 24) 1 1,
    -- 6184: tmp83 += np.transpose(ints.tmp307, (0, 1, 3, 2))
    .add 268 (.tr 25 [0, 1, 3, 2]) 1 1,
    -- 6185: tmp83 += np.transpose(v.bbbb.ovov, (0, 2, 1, 3))
    .add 268 (.tr 57 [0, 2, 1, 3]) 1 1,
    -- 6186: tmp83 += ints.tmp288 * -2
    .add 268 (.cp 34) (-2) 1,
    -- 6187: tmp83 += np.transpose(ints.tmp305, (0, 1, 3, 2)) * -1
    .add 268 (.tr 33 [0, 1, 3, 2]) (-1) 1,
    -- 6188: tmp83 += v.bbbb.oovv * -1
    .add 268 (.cp 58) (-1) 1,
    -- 6189: tmp83 += einsum(t1.bb, (0, 1), tmp82, (2, 0, 3, 4), (2, 3, 1, 4)) * -1
    .add 268 (.ein [(15, [0, 1]), (237, [2, 0, 3, 4])] [2, 3, 1, 4]) (-1) 1,
    -- 6190: del tmp82
    .del 237,
    -- 6191: tmp87 = einsum(tmp86, (0, 1, 2, 3), r2.bab, (3, 2, 4), (0, 4, 1)) * -1
    .set 269 (.ein [(238, [0, 1, 2, 3]), (17, [3, 2, 4])] [0, 4, 1]) (-1) 1,
    -- 6192: del tmp86
    .del 238,
    -- 6193: tmp37 = np.copy(tmp34)
    .set 270 (.cp 206) 1 1,
    -- 6194: del tmp34
    .del 206,
    -- 6195: tmp37 += tmp35 * -1
    .add 270 (.cp 185) (-1) 1,
    -- 6196: del tmp35
    .del 185,
    -- 6197: tmp37 += tmp36 * 2
    .add 270 (.cp 184) 2 1,
    -- 6198: del tmp36
    .del 184,
    -- 6199: tmp76 = np.copy(ints.tmp294)
    .set 271 (.cp 77) 1 1,
    -- 6200: tmp76 += np.transpose(ints.tmp309, (0, 1, 3, 2)) * -1
    .add 271 (.tr 78 [0, 1, 3, 2]) (-1) 1,
    -- 6201: tmp76 += v.aabb.oovv * -1
    .add 271 (.cp 79) (-1) 1,
    -- 6202: tmp76 += einsum(t1.bb, (0, 1), tmp30, (2, 3, 0, 4), (2, 3, 1, 4))
    .add 271 (.ein [(15, [0, 1]), (234, [2, 3, 0, 4])] [2, 3, 1, 4]) 1 1,
    -- 6203: tmp73 = np.copy(ints.tmp139) * 2
    .set 272 (.cp 53) 2 1,
    -- 6204: tmp73 += ints.tmp145
    .add 272 (.cp 54) 1 1,
    -- 6205: tmp73 += np.transpose(ints.tmp183, (0, 1, 3, 2))
    .add 272 (.tr 55 [0, 1, 3, 2]) 1 1,
    -- 6206: tmp73 += np.transpose(v.aaaa.ovov, (0, 2, 1, 3))
    .add 272 (.tr 61 [0, 2, 1, 3]) 1 1,
    -- 6207: tmp73 += ints.tmp142 * -2
    .add 272 (.cp 40) (-2) 1,
    -- 6208: tmp73 += np.transpose(ints.tmp181, (0, 1, 3, 2)) * -1
    .add 272 (.tr 39 [0, 1, 3, 2]) (-1) 1,
    -- 6209: tmp73 += v.aaaa.oovv * -1
    .add 272 (.cp 63) (-1) 1,
    -- 6210: tmp73 += einsum(tmp72, (0, 1, 2, 3), t1.aa, (2, 4), (0, 1, 4, 3)) * -1
    .add 272 (.ein [(239, [0, 1, 2, 3]), (8, [2, 4])] [0, 1, 4, 3]) (-1) 1,
    -- 6211: del tmp72
    .del 239,
    -- 6212: tmp24 = einsum(t1.bb, (0, 1), r2.aba, (2, 1, 3), (3, 0, 2))
    .set 273 (.ein [(15, [0, 1]), (13, [2, 1, 3])] [3, 0, 2]) 1 1,
    -- 6213: tmp79 = np.copy(np.transpose(ints.tmp175, (1, 0)))
    .set 274 (.tr 32 [1, 0]) 1 1,
    -- 6214: tmp79 += ints.tmp230 * 2
    .add 274 (.cp 29) 2 1,
    -- 6215: tmp79 += ints.tmp232
    .add 274 (.cp 30) 1 1,
    -- 6216: tmp79 += f.bb.vv * -1
    .add 274 (.cp 26) (-1) 1,
    -- 6217: tmp79 += np.transpose(ints.tmp173, (1, 0)) * -1
    .add 274 (.tr 27 [1, 0]) (-1) 1,
    -- 6218: tmp79 += np.transpose(ints.tmp177, (1, 0)) * -1
    .add 274 (.tr 28 [1, 0]) (-1) 1,
    -- 6219: tmp79 += einsum(t1.bb, (0, 1), tmp38, (0, 2), (1, 2))
    .add 274 (.ein [(15, [0, 1]), (236, [0, 2])] [1, 2]) 1 1,
    -- 6220: tmp81 = np.copy(np.transpose(ints.tmp27, (1, 0)))
    .set 275 (.tr 41 [1, 0]) 1 1,
    -- 6221: tmp81 += ints.tmp47 * 2
    .add 275 (.cp 50) 2 1,
    -- 6222: tmp81 += ints.tmp49
    .add 275 (.cp 51) 1 1,
    -- 6223: tmp81 += f.aa.vv * -1
    .add 275 (.cp 47) (-1) 1,
    -- 6224: tmp81 += ints.tmp26 * -1
    .add 275 (.cp 48) (-1) 1,
    -- 6225: tmp81 += ints.tmp28 * -1
    .add 275 (.cp 49) (-1) 1,
    -- 6226: tmp81 += tmp80
    .add 275 (.cp 233) 1 1,
    -- 6227: del tmp80
    .del 233,
    -- 6228: tmp78 = einsum(tmp77, (0, 1, 2, 3), r2.aba, (2, 3, 4), (4, 0, 1))
    .set 276 (.ein [(240, [0, 1, 2, 3]), (13, [2, 3, 4])] [4, 0, 1]) 1 1,
    -- 6229: del tmp77
    .del 240,
    -- 6230: tmp71 = np.copy(f.aa.oo)
    .set 277 (.cp 80) 1 1,
    -- 6231: tmp71 += ints.tmp127 * 2
    .add 277 (.cp 81) 2 1,
    -- 6232: tmp71 += ints.tmp136
    .add 277 (.cp 82) 1 1,
    -- 6233: tmp71 += ints.tmp153
    .add 277 (.cp 83) 1 1,
    -- 6234: tmp71 += ints.tmp160
    .add 277 (.cp 84) 1 1,
    -- 6235: tmp71 += ints.tmp190
    .add 277 (.cp 85) 1 1,
    -- 6236: tmp71 += ints.tmp197
    .add 277 (.cp 86) 1 1,
    -- 6237: tmp71 += np.transpose(ints.tmp19, (1, 0))
    .add 277 (.tr 87 [1, 0]) 1 1,
    -- 6238: tmp71 += ints.tmp150 * -1
    .add 277 (.cp 88) (-1) 1,
    -- 6239: tmp71 += ints.tmp187 * -1
    .add 277 (.cp 89) (-1) 1,
    -- 6240: tmp75 = np.copy(ints.tmp141)
    .set 278 (.cp 44) 1 1,
    -- 6241: tmp75 += ints.tmp147 * 2
    .add 278 (.cp 45) 2 1,
    -- 6242: tmp75 += ints.tmp186
    .add 278 (.cp 46) 1 1,
    -- 6243: tmp75 += np.transpose(v.aabb.ovov, (0, 2, 1, 3))
    .add 278 (.tr 22 [0, 2, 1, 3]) 1 1,
    -- 6244: tmp75 += ints.tmp144 * -1
    .add 278 (.cp 60) (-1) 1,
    -- 6245: tmp75 += einsum(t1.bb, (0, 1), tmp74, (2, 3, 0, 4), (2, 3, 4, 1)) * -1
    .add 278 (.ein [(15, [0, 1]), (235, [2, 3, 0, 4])] [2, 3, 4, 1]) (-1) 1,
    -- 6246: del tmp74
    .del 235,
    -- 6247: tmp68 = np.copy(tmp57) * 2
    .set 279 (.cp 245) 2 1,
    -- 6248: del tmp57
    .del 245,
    -- 6249: tmp68 += tmp58
    .add 279 (.cp 241) 1 1,
    -- 6250: del tmp58
    .del 241,
    -- 6251: tmp68 += tmp59
    .add 279 (.cp 244) 1 1,
    -- 6252: del tmp59
    .del 244,
    -- 6253: tmp68 += np.transpose(tmp61, (0, 2, 1)) * -2
    .add 279 (.tr 243 [0, 2, 1]) (-2) 1,
    -- 6254: del tmp61
    .del 243,
    -- 6255: tmp68 += np.transpose(tmp65, (0, 2, 1)) * -2
    .add 279 (.tr 246 [0, 2, 1]) (-2) 1,
    -- 6256: del tmp65
    .del 246,
    -- 6257: tmp68 += np.transpose(tmp67, (0, 2, 1))
    .add 279 (.tr 242 [0, 2, 1]) 1 1,
    -- 6258: del tmp67
    .del 242,
    -- 6259: tmp70 = einsum(tmp69, (0, 1, 2, 3), r2.aaa, (2, 3, 4), (4, 1, 0)) * -1
    .set 280 (.ein [(247, [0, 1, 2, 3]), (42, [2, 3, 4])] [4, 1, 0]) (-1) 1,
    -- 6260: del tmp69
    .del 247,
    -- 6261: tmp56 = np.copy(tmp39)
    .set 281 (.cp 249) 1 1,
    -- 6262: del tmp39
    .del 249,
    -- 6263: tmp56 += tmp40 * 2
    .add 281 (.cp 253) 2 1,
    -- 6264: del tmp40
    .del 253,
    -- 6265: tmp56 += tmp41 * 2
    .add 281 (.cp 248) 2 1,
    -- 6266: del tmp41
    .del 248,
    -- 6267: tmp56 += tmp42
    .add 281 (.cp 251) 1 1,
    -- 6268: del tmp42
    .del 251,
    -- 6269: tmp56 += tmp43 * 2
    .add 281 (.cp 250) 2 1,
    -- 6270: del tmp43
    .del 250,
    -- 6271: tmp56 += np.transpose(tmp47, (0, 2, 1)) * -1
    .add 281 (.tr 256 [0, 2, 1]) (-1) 1,
    -- 6272: del tmp47
    .del 256,
    -- 6273: tmp56 += np.transpose(tmp50, (0, 2, 1))
    .add 281 (.tr 252 [0, 2, 1]) 1 1,
    -- 6274: del tmp50
    .del 252,
    -- 6275: tmp56 += tmp52 * -1
    .add 281 (.cp 255) (-1) 1,
    -- 6276: del tmp52
    .del 255,
    -- 6277: tmp56 += np.transpose(tmp55, (0, 2, 1)) * -1
    .add 281 (.tr 254 [0, 2, 1]) (-1) 1,
    -- 6278: del tmp55
    .del 254,
    -- 6279: tmp33 = np.copy(np.transpose(ints.tmp175, (1, 0)))
    .set 282 (.tr 32 [1, 0]) 1 1,
    -- 6280: tmp33 += ints.tmp230 * 2
    .add 282 (.cp 29) 2 1,
    -- 6281: tmp33 += ints.tmp232
    .add 282 (.cp 30) 1 1,
    -- 6282: tmp33 += f.bb.vv * -1
    .add 282 (.cp 26) (-1) 1,
    -- 6283: tmp33 += np.transpose(ints.tmp173, (1, 0)) * -1
    .add 282 (.tr 27 [1, 0]) (-1) 1,
    -- 6284: tmp33 += np.transpose(ints.tmp177, (1, 0)) * -1
    .add 282 (.tr 28 [1, 0]) (-1) 1,
    -- 6285: tmp31 = einsum(t1.bb, (0, 1), tmp22, (2, 3, 1), (2, 3, 0)) * -1
    .set 283 (.ein [(15, [0, 1]), (196, [2, 3, 1])] [2, 3, 0]) (-1) 1,
    -- 6286: tmp29 = einsum(tmp26, (0, 1, 2), t1.bb, (3, 2), (0, 1, 3))
    .set 284 (.ein [(257, [0, 1, 2]), (15, [3, 2])] [0, 1, 3]) 1 1,
    -- 6287: tmp28 = np.copy(ints.tmp112)
    .set 285 (.cp 90) 1 1,
    -- 6288: tmp28 += ints.tmp118 * 0.5
    .add 285 (.cp 91) 1 2,
    -- 6289: tmp28 += ints.tmp128
    .add 285 (.cp 92) 1 1,
    -- 6290: tmp28 += ints.tmp137 * 0.5
    .add 285 (.cp 93) 1 2,
    -- 6291: tmp28 += ints.tmp154 * 0.5
    .add 285 (.cp 94) 1 2,
    -- 6292: tmp28 += ints.tmp161 * 0.5
    .add 285 (.cp 95) 1 2,
    -- 6293: tmp28 += ints.tmp171 * 0.5
    .add 285 (.cp 96) 1 2,
    -- 6294: tmp28 += ints.tmp191 * 0.5
    .add 285 (.cp 97) 1 2,
    -- 6295: tmp28 += ints.tmp198 * 0.5
    .add 285 (.cp 98) 1 2,
    -- 6296: tmp28 += ints.tmp20 * 0.5
    .add 285 (.cp 99) 1 2,
    -- 6297: tmp28 += ints.tmp2 * 0.5
    .add 285 (.cp 100) 1 2,
    -- 6298: tmp28 += ints.tmp31 * 0.5
    .add 285 (.cp 101) 1 2,
    -- 6299: tmp28 += ints.tmp51
    .add 285 (.cp 102) 1 1,
    -- 6300: tmp28 += ints.tmp57 * 0.5
    .add 285 (.cp 103) 1 2,
    -- 6301: tmp28 += ints.tmp63
    .add 285 (.cp 104) 1 1,
    -- 6302: tmp28 += ints.tmp83
    .add 285 (.cp 105) 1 1,
    -- 6303: tmp28 += ints.tmp90 * 0.5
    .add 285 (.cp 106) 1 2,
    -- 6304: tmp28 += f.aa.ov * -0.5
    .add 285 (.cp 4) (-1) 2,
    -- 6305: tmp28 += ints.tmp101 * -0.5
    .add 285 (.cp 107) (-1) 2,
    -- 6306: tmp28 += ints.tmp11 * -0.5
    .add 285 (.cp 108) (-1) 2,
    -- 6307: tmp28 += ints.tmp151 * -0.5
    .add 285 (.cp 109) (-1) 2,
    -- 6308: tmp28 += ints.tmp169 * -0.5
    .add 285 (.cp 110) (-1) 2,
    -- 6309: tmp28 += ints.tmp179 * -0.5
    .add 285 (.cp 111) (-1) 2,
    -- 6310: tmp28 += ints.tmp188 * -0.5
    .add 285 (.cp 112) (-1) 2,
    -- 6311: tmp28 += ints.tmp29 * -0.5
    .add 285 (.cp 5) (-1) 2,
    -- 6312: tmp28 += ints.tmp36 * -0.5
    .add 285 (.cp 6) (-1) 2,
    -- 6313: tmp28 += ints.tmp5 * -0.5
    .add 285 (.cp 113) (-1) 2,
    -- 6314: tmp28 += ints.tmp69 * -0.5
    .add 285 (.cp 114) (-1) 2,
    -- 6315: tmp28 += ints.tmp86 * -1
    .add 285 (.cp 115) (-1) 1,
    -- 6316: tmp28 += ints.tmp8 * -1
    .add 285 (.cp 116) (-1) 1,
    -- 6317: tmp28 += ints.tmp94 * -0.5
    .add 285 (.cp 117) (-1) 2,
    -- 6318: tmp28 += ints.tmp98 * -1
    .add 285 (.cp 118) (-1) 1,
    -- 6319: tmp9 = np.copy(ints.tmp115) * 2
    .set 286 (.cp 119) 2 1,
    -- 6320: tmp9 += ints.tmp121
    .add 286 (.cp 120) 1 1,
    -- 6321: tmp9 += ints.tmp131 * 2
    .add 286 (.cp 121) 2 1,
    -- 6322: tmp9 += ints.tmp134
    .add 286 (.cp 122) 1 1,
    -- 6323: tmp9 += ints.tmp159
    .add 286 (.cp 123) 1 1,
    -- 6324: tmp9 += ints.tmp164
    .add 286 (.cp 124) 1 1,
    -- 6325: tmp9 += ints.tmp176
    .add 286 (.cp 125) 1 1,
    -- 6326: tmp9 += ints.tmp196
    .add 286 (.cp 126) 1 1,
    -- 6327: tmp9 += ints.tmp201
    .add 286 (.cp 127) 1 1,
    -- 6328: tmp9 += ints.tmp23
    .add 286 (.cp 128) 1 1,
    -- 6329: tmp9 += ints.tmp34
    .add 286 (.cp 129) 1 1,
    -- 6330: tmp9 += ints.tmp4
    .add 286 (.cp 130) 1 1,
    -- 6331: tmp9 += ints.tmp53 * 2
    .add 286 (.cp 131) 2 1,
    -- 6332: tmp9 += ints.tmp55
    .add 286 (.cp 132) 1 1,
    -- 6333: tmp9 += ints.tmp65 * 2
    .add 286 (.cp 133) 2 1,
    -- 6334: tmp9 += ints.tmp85
    .add 286 (.cp 134) 1 1,
    -- 6335: tmp9 += ints.tmp92 * 2
    .add 286 (.cp 135) 2 1,
    -- 6336: tmp9 += f.bb.ov * -1
    .add 286 (.cp 1) (-1) 1,
    -- 6337: tmp9 += ints.tmp100 * -1
    .add 286 (.cp 136) (-1) 1,
    -- 6338: tmp9 += ints.tmp103 * -2
    .add 286 (.cp 137) (-2) 1,
    -- 6339: tmp9 += ints.tmp10 * -1
    .add 286 (.cp 138) (-1) 1,
    -- 6340: tmp9 += ints.tmp13 * -2
    .add 286 (.cp 139) (-2) 1,
    -- 6341: tmp9 += ints.tmp157 * -1
    .add 286 (.cp 140) (-1) 1,
    -- 6342: tmp9 += ints.tmp174 * -1
    .add 286 (.cp 141) (-1) 1,
    -- 6343: tmp9 += ints.tmp178 * -1
    .add 286 (.cp 142) (-1) 1,
    -- 6344: tmp9 += ints.tmp194 * -1
    .add 286 (.cp 143) (-1) 1,
    -- 6345: tmp9 += ints.tmp33 * -1
    .add 286 (.cp 2) (-1) 1,
    -- 6346: tmp9 += ints.tmp35 * -1
    .add 286 (.cp 3) (-1) 1,
    -- 6347: tmp9 += ints.tmp67 * -1
    .add 286 (.cp 144) (-1) 1,
    -- 6348: tmp9 += ints.tmp7 * -1
    .add 286 (.cp 145) (-1) 1,
    -- 6349: tmp9 += ints.tmp88 * -1
    .add 286 (.cp 146) (-1) 1,
    -- 6350: tmp9 += ints.tmp96 * -2
    .add 286 (.cp 147) (-2) 1,
    -- 6351: tmp25 = np.copy(ints.tmp284)
    .set 287 (.cp 35) 1 1,
    -- 6352: tmp25 += ints.tmp290 * 2
    .add 287 (.cp 37) 2 1,
    -- 6353: tmp25 += ints.tmp310
    .add 287 (.cp 36) 1 1,
    -- 6354: tmp25 += np.transpose(v.aabb.ovov, (0, 2, 1, 3))
    .add 287 (.tr 22 [0, 2, 1, 3]) 1 1,
    -- 6355: tmp25 += ints.tmp287 * -1
    .add 287 (.cp 21) (-1) 1,
    -- 6356: tmp23 = np.copy(ints.tmp285) * 2
    .set 288 (.cp 23) 2 1,
    -- 6357: tmp23 += ints.tmp292
    .add 288 (.cp 24) 1 1,
    -- 6358: tmp23 += np.transpose(ints.tmp307, (0, 1, 3, 2))
    .add 288 (.tr 25 [0, 1, 3, 2]) 1 1,
    -- 6359: tmp23 += np.transpose(v.bbbb.ovov, (0, 2, 1, 3))
    .add 288 (.tr 57 [0, 2, 1, 3]) 1 1,
    -- 6360: tmp23 += ints.tmp288 * -2
    .add 288 (.cp 34) (-2) 1,
    -- 6361: tmp23 += np.transpose(ints.tmp305, (0, 1, 3, 2)) * -1
    .add 288 (.tr 33 [0, 1, 3, 2]) (-1) 1,
    -- 6362: tmp23 += v.bbbb.oovv * -1
    .add 288 (.cp 58) (-1) 1,
    -- 6363: tmp27 = np.copy(np.transpose(ints.tmp309, (0, 1, 3, 2)))
    .set 289 (.tr 78 [0, 1, 3, 2]) 1 1,
    -- 6364: tmp27 += v.aabb.oovv
    .add 289 (.cp 79) 1 1,
    -- 6365: tmp27 += ints.tmp294 * -1
    .add 289 (.cp 77) (-1) 1,
    -- 6366: tmp32 = np.copy(ints.tmp114)
    .set 290 (.cp 0) 1 1,
    -- 6367: tmp32 += v.bbbb.ooov * -1
    .add 290 (.cp 31) (-1) 1,
    -- 6368: tmp21 = np.copy(np.transpose(ints.tmp238, (0, 3, 1, 2))) * 0.5
    .set 291 (.tr 148 [0, 3, 1, 2]) 1 2,
    -- 6369: tmp21 += np.transpose(ints.tmp247, (0, 2, 1, 3))
    .add 291 (.tr 149 [0, 2, 1, 3]) 1 1,
    -- 6370: tmp21 += np.transpose(ints.tmp254, (0, 2, 1, 3)) * 0.5
    .add 291 (.tr 150 [0, 2, 1, 3]) 1 2,
    -- 6371: tmp21 += np.transpose(v.bbbb.ovvv, (0, 2, 1, 3)) * 0.5
    .add 291 (.tr 56 [0, 2, 1, 3]) 1 2,
    -- 6372: tmp21 += ints.tmp226 * -0.5
    .add 291 (.cp 151) (-1) 2,
    -- 6373: tmp21 += np.transpose(ints.tmp250, (0, 2, 1, 3)) * -1
    .add 291 (.tr 152 [0, 2, 1, 3]) (-1) 1,
    -- 6374: tmp21 += np.transpose(ints.tmp276, (0, 3, 1, 2)) * -0.5
    .add 291 (.tr 153 [0, 3, 1, 2]) (-1) 2,
    -- 6375: tmp20 = np.copy(ints.tmp228)
    .set 292 (.cp 154) 1 1,
    -- 6376: tmp20 += np.transpose(ints.tmp240, (0, 1, 3, 2))
    .add 292 (.tr 155 [0, 1, 3, 2]) 1 1,
    -- 6377: tmp20 += ints.tmp246
    .add 292 (.cp 156) 1 1,
    -- 6378: tmp20 += ints.tmp252 * 2
    .add 292 (.cp 157) 2 1,
    -- 6379: tmp20 += np.transpose(ints.tmp278, (0, 1, 3, 2))
    .add 292 (.tr 158 [0, 1, 3, 2]) 1 1,
    -- 6380: tmp20 += v.aabb.ovvv
    .add 292 (.cp 159) 1 1,
    -- 6381: tmp20 += ints.tmp249 * -1
    .add 292 (.cp 160) (-1) 1,
    -- 6382: tmp20 += np.transpose(ints.tmp256, (0, 1, 3, 2)) * -1
    .add 292 (.tr 161 [0, 1, 3, 2]) (-1) 1,
    -- 6383: tmp3 = np.copy(ints.tmp139) * 2
    .set 293 (.cp 53) 2 1,
    -- 6384: tmp3 += ints.tmp145
    .add 293 (.cp 54) 1 1,
    -- 6385: tmp3 += np.transpose(ints.tmp183, (0, 1, 3, 2))
    .add 293 (.tr 55 [0, 1, 3, 2]) 1 1,
    -- 6386: tmp3 += np.transpose(v.aaaa.ovov, (0, 2, 1, 3))
    .add 293 (.tr 61 [0, 2, 1, 3]) 1 1,
    -- 6387: tmp3 += ints.tmp142 * -2
    .add 293 (.cp 40) (-2) 1,
    -- 6388: tmp3 += np.transpose(ints.tmp181, (0, 1, 3, 2)) * -1
    .add 293 (.tr 39 [0, 1, 3, 2]) (-1) 1,
    -- 6389: tmp3 += v.aaaa.oovv * -1
    .add 293 (.cp 63) (-1) 1,
    -- 6390: tmp7 = np.copy(np.transpose(ints.tmp185, (0, 1, 3, 2)))
    .set 294 (.tr 75 [0, 1, 3, 2]) 1 1,
    -- 6391: tmp7 += np.transpose(v.aabb.vvoo, (2, 3, 0, 1))
    .add 294 (.tr 76 [2, 3, 0, 1]) 1 1,
    -- 6392: tmp7 += ints.tmp149 * -1
    .add 294 (.cp 74) (-1) 1,
    -- 6393: tmp0 = np.copy(ints.tmp125)
    .set 295 (.cp 162) 1 1,
    -- 6394: tmp0 += np.transpose(ints.tmp45, (0, 2, 1, 3))
    .add 295 (.tr 163 [0, 2, 1, 3]) 1 1,
    -- 6395: tmp0 += ints.tmp61
    .add 295 (.cp 164) 1 1,
    -- 6396: tmp0 += np.transpose(ints.tmp73, (0, 2, 1, 3))
    .add 295 (.tr 165 [0, 2, 1, 3]) 1 1,
    -- 6397: tmp0 += np.transpose(ints.tmp79, (0, 2, 1, 3)) * 2
    .add 295 (.tr 166 [0, 2, 1, 3]) 2 1,
    -- 6398: tmp0 += np.transpose(v.aabb.vvov, (2, 0, 1, 3))
    .add 295 (.tr 167 [2, 0, 1, 3]) 1 1,
    -- 6399: tmp0 += np.transpose(ints.tmp76, (0, 2, 1, 3)) * -1
    .add 295 (.tr 168 [0, 2, 1, 3]) (-1) 1,
    -- 6400: tmp0 += ints.tmp81 * -1
    .add 295 (.cp 169) (-1) 1,
    -- 6401: tmp12 = einsum(tmp2, (0, 1, 2), t1.aa, (3, 2), (0, 1, 3)) * -1
    .set 296 (.ein [(211, [0, 1, 2]), (8, [3, 2])] [0, 1, 3]) (-1) 1,
    -- 6402: tmp5 = np.copy(ints.tmp141)
    .set 297 (.cp 44) 1 1,
    -- 6403: tmp5 += ints.tmp147 * 2
    .add 297 (.cp 45) 2 1,
    -- 6404: tmp5 += ints.tmp186
    .add 297 (.cp 46) 1 1,
    -- 6405: tmp5 += np.transpose(v.aabb.ovov, (0, 2, 1, 3))
    .add 297 (.tr 22 [0, 2, 1, 3]) 1 1,
    -- 6406: tmp5 += ints.tmp144 * -1
    .add 297 (.cp 60) (-1) 1,
    -- 6407: tmp13 = np.copy(ints.tmp111)
    .set 298 (.cp 7) 1 1,
    -- 6408: tmp13 += v.aaaa.ooov * -1
    .add 298 (.cp 52) (-1) 1,
    -- 6409: tmp8 = np.copy(ints.tmp112) * 2
    .set 299 (.cp 90) 2 1,
    -- 6410: tmp8 += ints.tmp118
    .add 299 (.cp 91) 1 1,
    -- 6411: tmp8 += ints.tmp128 * 2
    .add 299 (.cp 92) 2 1,
    -- 6412: tmp8 += ints.tmp137
    .add 299 (.cp 93) 1 1,
    -- 6413: tmp8 += ints.tmp154
    .add 299 (.cp 94) 1 1,
    -- 6414: tmp8 += ints.tmp161
    .add 299 (.cp 95) 1 1,
    -- 6415: tmp8 += ints.tmp171
    .add 299 (.cp 96) 1 1,
    -- 6416: tmp8 += ints.tmp191
    .add 299 (.cp 97) 1 1,
    -- 6417: tmp8 += ints.tmp198
    .add 299 (.cp 98) 1 1,
    -- 6418: tmp8 += ints.tmp20
    .add 299 (.cp 99) 1 1,
    -- 6419: tmp8 += ints.tmp2
    .add 299 (.cp 100) 1 1,
    -- 6420: tmp8 += ints.tmp31
    .add 299 (.cp 101) 1 1,
    -- 6421: tmp8 += ints.tmp51 * 2
    .add 299 (.cp 102) 2 1,
    -- 6422: tmp8 += ints.tmp57
    .add 299 (.cp 103) 1 1,
    -- 6423: tmp8 += ints.tmp63 * 2
    .add 299 (.cp 104) 2 1,
    -- 6424: tmp8 += ints.tmp83 * 2
    .add 299 (.cp 105) 2 1,
    -- 6425: tmp8 += ints.tmp90
    .add 299 (.cp 106) 1 1,
    -- 6426: tmp8 += f.aa.ov * -1
    .add 299 (.cp 4) (-1) 1,
    -- 6427: tmp8 += ints.tmp101 * -1
    .add 299 (.cp 107) (-1) 1,
    -- 6428: tmp8 += ints.tmp11 * -1
    .add 299 (.cp 108) (-1) 1,
    -- 6429: tmp8 += ints.tmp151 * -1
    .add 299 (.cp 109) (-1) 1,
    -- 6430: tmp8 += ints.tmp169 * -1
    .add 299 (.cp 110) (-1) 1,
    -- 6431: tmp8 += ints.tmp179 * -1
    .add 299 (.cp 111) (-1) 1,
    -- 6432: tmp8 += ints.tmp188 * -1
    .add 299 (.cp 112) (-1) 1,
    -- 6433: tmp8 += ints.tmp29 * -1
    .add 299 (.cp 5) (-1) 1,
    -- 6434: tmp8 += ints.tmp36 * -1
    .add 299 (.cp 6) (-1) 1,
    -- 6435: tmp8 += ints.tmp5 * -1
    .add 299 (.cp 113) (-1) 1,
    -- 6436: tmp8 += ints.tmp69 * -1
    .add 299 (.cp 114) (-1) 1,
    -- 6437: tmp8 += ints.tmp86 * -2
    .add 299 (.cp 115) (-2) 1,
    -- 6438: tmp8 += ints.tmp8 * -2
    .add 299 (.cp 116) (-2) 1,
    -- 6439: tmp8 += ints.tmp94 * -1
    .add 299 (.cp 117) (-1) 1,
    -- 6440: tmp8 += ints.tmp98 * -2
    .add 299 (.cp 118) (-2) 1,
    -- 6441: tmp11 = np.copy(ints.tmp120)
    .set 300 (.cp 19) 1 1,
    -- 6442: tmp11 += np.transpose(v.aabb.ovoo, (0, 2, 3, 1))
    .add 300 (.tr 59 [0, 2, 3, 1]) 1 1,
    -- 6443: tmp1 = np.copy(ints.tmp59) * 0.5
    .set 301 (.cp 170) 1 2,
    -- 6444: tmp1 += np.transpose(ints.tmp71, (0, 1, 3, 2))
    .add 301 (.tr 171 [0, 1, 3, 2]) 1 1,
    -- 6445: tmp1 += np.transpose(ints.tmp77, (0, 1, 3, 2)) * 0.5
    .add 301 (.tr 172 [0, 1, 3, 2]) 1 2,
    -- 6446: tmp1 += v.aaaa.ovvv * 0.5
    .add 301 (.cp 62) 1 2,
    -- 6447: tmp1 += ints.tmp123 * -0.5
    .add 301 (.cp 173) (-1) 2,
    -- 6448: tmp1 += np.transpose(ints.tmp43, (0, 2, 3, 1)) * -0.5
    .add 301 (.tr 174 [0, 2, 3, 1]) (-1) 2,
    -- 6449: tmp1 += np.transpose(ints.tmp74, (0, 1, 3, 2)) * -1
    .add 301 (.tr 175 [0, 1, 3, 2]) (-1) 1,
    -- 6450: tmp10 = einsum(tmp6, (0, 1, 2), t1.aa, (3, 2), (3, 0, 1))
    .set 302 (.ein [(213, [0, 1, 2]), (8, [3, 2])] [3, 0, 1]) 1 1,
    -- 6451: tmp14 = np.copy(np.transpose(ints.tmp27, (1, 0)))
    .set 303 (.tr 41 [1, 0]) 1 1,
    -- 6452: tmp14 += ints.tmp47 * 2
    .add 303 (.cp 50) 2 1,
    -- 6453: tmp14 += ints.tmp49
    .add 303 (.cp 51) 1 1,
    -- 6454: tmp14 += f.aa.vv * -1
    .add 303 (.cp 47) (-1) 1,
    -- 6455: tmp14 += np.transpose(ints.tmp26, (1, 0)) * -1
    .add 303 (.tr 48 [1, 0]) (-1) 1,
    -- 6456: tmp14 += np.transpose(ints.tmp28, (1, 0)) * -1
    .add 303 (.tr 49 [1, 0]) (-1) 1,
    -- 6457: r2new.bbb = einsum(v.bbbb.vvvv, (0, 1, 2, 3), r2.bbb, (3, 1, 4), (0, 2, 4)) * -2
    .set 304 (.ein [(176, [0, 1, 2, 3]), (11, [3, 1, 4])] [0, 2, 4]) (-2) 1,
    -- 6458: r2new.bbb += np.transpose(tmp111, (1, 2, 0)) * -1
    .add 304 (.tr 258 [1, 2, 0]) (-1) 1,
    -- 6459: r2new.bbb += np.transpose(tmp111, (2, 1, 0))
    .add 304 (.tr 258 [2, 1, 0]) 1 1,
    -- 6460: del tmp111
    .del 258,
    -- 6461: r2new.bbb += np.transpose(tmp122, (1, 2, 0))
    .add 304 (.tr 260 [1, 2, 0]) 1 1,
    -- 6462: r2new.bbb += np.transpose(tmp122, (2, 1, 0)) * -1
    .add 304 (.tr 260 [2, 1, 0]) (-1) 1,
    -- 6463: del tmp122
    .del 260,
    -- 6464: r2new.bbb += einsum(v.bbbb.ovov, (0, 1, 2, 3), tmp124, (4, 0, 2), (3, 1, 4)) * -2
    .add 304 (.ein [(57, [0, 1, 2, 3]), (259, [4, 0, 2])] [3, 1, 4]) (-2) 1,
    -- 6465: del tmp124
    .del 259,
    -- 6466: r2new.bbb += einsum(r2.bbb, (0, 1, 2), tmp90, (2, 3), (0, 1, 3)) * -2
    .add 304 (.ein [(11, [0, 1, 2]), (261, [2, 3])] [0, 1, 3]) (-2) 1,
    -- 6467: r2new.bbb += einsum(r1.b, (0,), tmp38, (1, 2), (0, 2, 1))
    .add 304 (.ein [(38, [0]), (236, [1, 2])] [0, 2, 1]) 1 1,
    -- 6468: r2new.bbb += einsum(r1.b, (0,), tmp38, (1, 2), (2, 0, 1)) * -1
    .add 304 (.ein [(38, [0]), (236, [1, 2])] [2, 0, 1]) (-1) 1,
    -- 6469: r2new.bab = einsum(r2.bab, (0, 1, 2), v.aabb.vvvv, (3, 1, 4, 0), (4, 3, 2))
    .set 305 (.ein [(17, [0, 1, 2]), (177, [3, 1, 4, 0])] [4, 3, 2]) 1 1,
    -- 6470: r2new.bab += einsum(tmp6, (0, 1, 2), v.aabb.vvov, (3, 2, 1, 4), (4, 3, 0))
    .add 305 (.ein [(213, [0, 1, 2]), (167, [3, 2, 1, 4])] [4, 3, 0]) 1 1,
    -- 6471: r2new.bab += einsum(v.aabb.ovvv, (0, 1, 2, 3), tmp4, (0, 4, 3), (2, 1, 4))
    .add 305 (.ein [(159, [0, 1, 2, 3]), (263, [0, 4, 3])] [2, 1, 4]) 1 1,
    -- 6472: r2new.bab += einsum(r1.a, (0,), v.aabb.vvov, (1, 0, 2, 3), (3, 1, 2)) * -1
    .add 305 (.ein [(18, [0]), (167, [1, 0, 2, 3])] [3, 1, 2]) (-1) 1,
    -- 6473: r2new.bab += einsum(r2.bab, (0, 1, 2), tmp83, (2, 3, 0, 4), (4, 1, 3))
    .add 305 (.ein [(17, [0, 1, 2]), (268, [2, 3, 0, 4])] [4, 1, 3]) 1 1,
    -- 6474: del tmp83
    .del 268,
    -- 6475: r2new.bab += einsum(r2.aaa, (0, 1, 2), tmp84, (2, 3, 1, 4), (4, 0, 3)) * -2
    .add 305 (.ein [(42, [0, 1, 2]), (265, [2, 3, 1, 4])] [4, 0, 3]) (-2) 1,
    -- 6476: del tmp84
    .del 265,
    -- 6477: r2new.bab += einsum(tmp85, (0, 1, 2, 3), r2.bab, (4, 2, 0), (4, 3, 1))
    .add 305 (.ein [(266, [0, 1, 2, 3]), (17, [4, 2, 0])] [4, 3, 1]) 1 1,
    -- 6478: del tmp85
    .del 266,
    -- 6479: r2new.bab += einsum(tmp87, (0, 1, 2), v.aabb.ovov, (0, 3, 2, 4), (4, 3, 1)) * -1
    .add 305 (.ein [(269, [0, 1, 2]), (22, [0, 3, 2, 4])] [4, 3, 1]) (-1) 1,
    -- 6480: del tmp87
    .del 269,
    -- 6481: r2new.bab += einsum(r2.bab, (0, 1, 2), tmp88, (1, 3), (0, 3, 2)) * -1
    .add 305 (.ein [(17, [0, 1, 2]), (262, [1, 3])] [0, 3, 2]) (-1) 1,
    -- 6482: del tmp88
    .del 262,
    -- 6483: r2new.bab += einsum(tmp89, (0, 1), r2.bab, (0, 2, 3), (1, 2, 3)) * -2
    .add 305 (.ein [(267, [0, 1]), (17, [0, 2, 3])] [1, 2, 3]) (-2) 1,
    -- 6484: del tmp89
    .del 267,
    -- 6485: r2new.bab += einsum(r2.bab, (0, 1, 2), tmp90, (2, 3), (0, 1, 3)) * -1
    .add 305 (.ein [(17, [0, 1, 2]), (261, [2, 3])] [0, 1, 3]) (-1) 1,
    -- 6486: del tmp90
    .del 261,
    -- 6487: r2new.bab += einsum(v.aabb.ovov, (0, 1, 2, 3), tmp18, (0,), (3, 1, 2)) * 2
    .add 305 (.ein [(22, [0, 1, 2, 3]), (264, [0])] [3, 1, 2]) 2 1,
    -- 6488: r2new.bab += einsum(r1.a, (0,), tmp38, (1, 2), (2, 0, 1)) * -1
    .add 305 (.ein [(18, [0]), (236, [1, 2])] [2, 0, 1]) (-1) 1,
    -- 6489: r2new.aba = einsum(r2.aba, (0, 1, 2), v.aabb.vvvv, (3, 0, 4, 1), (3, 4, 2))
    .set 306 (.ein [(13, [0, 1, 2]), (177, [3, 0, 4, 1])] [3, 4, 2]) 1 1,
    -- 6490: r2new.aba += einsum(tmp24, (0, 1, 2), v.aabb.vvov, (3, 2, 1, 4), (3, 4, 0)) * -1
    .add 306 (.ein [(273, [0, 1, 2]), (167, [3, 2, 1, 4])] [3, 4, 0]) (-1) 1,
    -- 6491: r2new.aba += einsum(r1.b, (0,), v.aabb.ovvv, (1, 2, 3, 0), (2, 3, 1)) * -1
    .add 306 (.ein [(38, [0]), (159, [1, 2, 3, 0])] [2, 3, 1]) (-1) 1,
    -- 6492: r2new.aba += einsum(tmp26, (0, 1, 2), v.aabb.ovvv, (1, 3, 4, 2), (3, 4, 0)) * -1
    .add 306 (.ein [(257, [0, 1, 2]), (159, [1, 3, 4, 2])] [3, 4, 0]) (-1) 1,
    -- 6493: r2new.aba += einsum(tmp73, (0, 1, 2, 3), r2.aba, (2, 4, 0), (3, 4, 1))
    .add 306 (.ein [(272, [0, 1, 2, 3]), (13, [2, 4, 0])] [3, 4, 1]) 1 1,
    -- 6494: del tmp73
    .del 272,
    -- 6495: r2new.aba += einsum(r2.bbb, (0, 1, 2), tmp75, (3, 2, 4, 1), (4, 0, 3)) * -2
    .add 306 (.ein [(11, [0, 1, 2]), (278, [3, 2, 4, 1])] [4, 0, 3]) (-2) 1,
    -- 6496: del tmp75
    .del 278,
    -- 6497: r2new.aba += einsum(r2.aba, (0, 1, 2), tmp76, (2, 3, 1, 4), (0, 4, 3))
    .add 306 (.ein [(13, [0, 1, 2]), (271, [2, 3, 1, 4])] [0, 4, 3]) 1 1,
    -- 6498: del tmp76
    .del 271,
    -- 6499: r2new.aba += einsum(tmp78, (0, 1, 2), v.aabb.ovov, (1, 3, 2, 4), (3, 4, 0))
    .add 306 (.ein [(276, [0, 1, 2]), (22, [1, 3, 2, 4])] [3, 4, 0]) 1 1,
    -- 6500: del tmp78
    .del 276,
    -- 6501: r2new.aba += einsum(r2.aba, (0, 1, 2), tmp79, (1, 3), (0, 3, 2)) * -1
    .add 306 (.ein [(13, [0, 1, 2]), (274, [1, 3])] [0, 3, 2]) (-1) 1,
    -- 6502: del tmp79
    .del 274,
    -- 6503: r2new.aba += einsum(tmp81, (0, 1), r2.aba, (0, 2, 3), (1, 2, 3)) * -1
    .add 306 (.ein [(275, [0, 1]), (13, [0, 2, 3])] [1, 2, 3]) (-1) 1,
    -- 6504: del tmp81
    .del 275,
    -- 6505: r2new.aba += einsum(r2.aba, (0, 1, 2), tmp71, (2, 3), (0, 1, 3)) * -1
    .add 306 (.ein [(13, [0, 1, 2]), (277, [2, 3])] [0, 1, 3]) (-1) 1,
    -- 6506: r2new.aba += einsum(v.aabb.ovov, (0, 1, 2, 3), tmp37, (2,), (1, 3, 0))
    .add 306 (.ein [(22, [0, 1, 2, 3]), (270, [2])] [1, 3, 0]) 1 1,
    -- 6507: r2new.aba += einsum(tmp19, (0, 1), r1.b, (2,), (1, 2, 0)) * -1
    .add 306 (.ein [(207, [0, 1]), (38, [2])] [1, 2, 0]) (-1) 1,
    -- 6508: r2new.aaa = einsum(r2.aaa, (0, 1, 2), v.aaaa.vvvv, (3, 1, 4, 0), (3, 4, 2)) * -2
    .set 307 (.ein [(42, [0, 1, 2]), (178, [3, 1, 4, 0])] [3, 4, 2]) (-2) 1,
    -- 6509: r2new.aaa += np.transpose(tmp56, (1, 2, 0)) * -1
    .add 307 (.tr 281 [1, 2, 0]) (-1) 1,
    -- 6510: r2new.aaa += np.transpose(tmp56, (2, 1, 0))
    .add 307 (.tr 281 [2, 1, 0]) 1 1,
    -- 6511: del tmp56
    .del 281,
    -- 6512: r2new.aaa += np.transpose(tmp68, (1, 2, 0))
    .add 307 (.tr 279 [1, 2, 0]) 1 1,
    -- 6513: r2new.aaa += np.transpose(tmp68, (2, 1, 0)) * -1
    .add 307 (.tr 279 [2, 1, 0]) (-1) 1,
    -- 6514: del tmp68
    .del 279,
    -- 6515: r2new.aaa += einsum(v.aaaa.ovov, (0, 1, 2, 3), tmp70, (4, 0, 2), (3, 1, 4)) * -2
    .add 307 (.ein [(61, [0, 1, 2, 3]), (280, [4, 0, 2])] [3, 1, 4]) (-2) 1,
    -- 6516: del tmp70
    .del 280,
    -- 6517: r2new.aaa += einsum(r2.aaa, (0, 1, 2), tmp71, (2, 3), (0, 1, 3)) * -2
    .add 307 (.ein [(42, [0, 1, 2]), (277, [2, 3])] [0, 1, 3]) (-2) 1,
    -- 6518: del tmp71
    .del 277,
    -- 6519: r2new.aaa += einsum(tmp19, (0, 1), r1.a, (2,), (2, 1, 0))
    .add 307 (.ein [(207, [0, 1]), (18, [2])] [2, 1, 0]) 1 1,
    -- 6520: r2new.aaa += einsum(r1.a, (0,), tmp19, (1, 2), (2, 0, 1)) * -1
    .add 307 (.ein [(18, [0]), (207, [1, 2])] [2, 0, 1]) (-1) 1,
    -- 6521: r1new.b = einsum(r2.aba, (0, 1, 2), tmp20, (2, 0, 3, 1), (3,)) * -1
    .set 308 (.ein [(13, [0, 1, 2]), (292, [2, 0, 3, 1])] [3]) (-1) 1,
    -- 6522: del tmp20
    .del 292,
    -- 6523: r1new.b += einsum(r2.bbb, (0, 1, 2), tmp21, (2, 3, 0, 1), (3,)) * -4
    .add 308 (.ein [(11, [0, 1, 2]), (291, [2, 3, 0, 1])] [3]) (-4) 1,
    -- 6524: del tmp21
    .del 291,
    -- 6525: r1new.b += einsum(tmp23, (0, 1, 2, 3), tmp22, (0, 1, 2), (3,)) * 2
    .add 308 (.ein [(288, [0, 1, 2, 3]), (196, [0, 1, 2])] [3]) 2 1,
    -- 6526: del tmp22, tmp23
    .del 196,
    .del 288,
    -- 6527: r1new.b += einsum(tmp25, (0, 1, 2, 3), tmp24, (0, 1, 2), (3,))
    .add 308 (.ein [(287, [0, 1, 2, 3]), (273, [0, 1, 2])] [3]) 1 1,
    -- 6528: del tmp24, tmp25
    .del 273,
    .del 287,
    -- 6529: r1new.b += einsum(tmp27, (0, 1, 2, 3), tmp26, (0, 1, 2), (3,))
    .add 308 (.ein [(289, [0, 1, 2, 3]), (257, [0, 1, 2])] [3]) 1 1,
    -- 6530: del tmp26, tmp27
    .del 257,
    .del 289,
    -- 6531: r1new.b += einsum(tmp9, (0, 1), r2.bbb, (2, 1, 0), (2,)) * -2
    .add 308 (.ein [(286, [0, 1]), (11, [2, 1, 0])] [2]) (-2) 1,
    -- 6532: r1new.b += einsum(tmp28, (0, 1), r2.aba, (1, 2, 0), (2,)) * 2
    .add 308 (.ein [(285, [0, 1]), (13, [1, 2, 0])] [2]) 2 1,
    -- 6533: del tmp28
    .del 285,
    -- 6534: r1new.b += einsum(tmp29, (0, 1, 2), tmp30, (0, 1, 2, 3), (3,)) * -1
    .add 308 (.ein [(284, [0, 1, 2]), (234, [0, 1, 2, 3])] [3]) (-1) 1,
    -- 6535: del tmp30, tmp29
    .del 234,
    .del 284,
    -- 6536: r1new.b += einsum(tmp32, (0, 1, 2, 3), tmp31, (0, 2, 1), (3,)) * -2
    .add 308 (.ein [(290, [0, 1, 2, 3]), (283, [0, 2, 1])] [3]) (-2) 1,
    -- 6537: del tmp32, tmp31
    .del 290,
    .del 283,
    -- 6538: r1new.b += einsum(r1.b, (0,), tmp33, (0, 1), (1,)) * -1
    .add 308 (.ein [(38, [0]), (282, [0, 1])] [1]) (-1) 1,
    -- 6539: del tmp33
    .del 282,
    -- 6540: r1new.b += einsum(tmp38, (0, 1), tmp37, (0,), (1,)) * -1
    .add 308 (.ein [(236, [0, 1]), (270, [0])] [1]) (-1) 1,
    -- 6541: del tmp38, tmp37
    .del 236,
    .del 270,
    -- 6542: r1new.a = einsum(tmp0, (0, 1, 2, 3), r2.bab, (3, 1, 0), (2,)) * -1
    .set 309 (.ein [(295, [0, 1, 2, 3]), (17, [3, 1, 0])] [2]) (-1) 1,
    -- 6543: del tmp0
    .del 295,
    -- 6544: r1new.a += einsum(tmp1, (0, 1, 2, 3), r2.aaa, (1, 2, 0), (3,)) * -4
    .add 309 (.ein [(301, [0, 1, 2, 3]), (42, [1, 2, 0])] [3]) (-4) 1,
    -- 6545: del tmp1
    .del 301,
    -- 6546: r1new.a += einsum(tmp3, (0, 1, 2, 3), tmp2, (0, 1, 2), (3,)) * 2
    .add 309 (.ein [(293, [0, 1, 2, 3]), (211, [0, 1, 2])] [3]) 2 1,
    -- 6547: del tmp2, tmp3
    .del 211,
    .del 293,
    -- 6548: r1new.a += einsum(tmp5, (0, 1, 2, 3), tmp4, (0, 1, 3), (2,)) * -1
    .add 309 (.ein [(297, [0, 1, 2, 3]), (263, [0, 1, 3])] [2]) (-1) 1,
    -- 6549: del tmp4, tmp5
    .del 263,
    .del 297,
    -- 6550: r1new.a += einsum(tmp6, (0, 1, 2), tmp7, (0, 1, 2, 3), (3,)) * -1
    .add 309 (.ein [(213, [0, 1, 2]), (294, [0, 1, 2, 3])] [3]) (-1) 1,
    -- 6551: del tmp6, tmp7
    .del 213,
    .del 294,
    -- 6552: r1new.a += einsum(r2.aaa, (0, 1, 2), tmp8, (2, 1), (0,)) * -2
    .add 309 (.ein [(42, [0, 1, 2]), (299, [2, 1])] [0]) (-2) 1,
    -- 6553: del tmp8
    .del 299,
    -- 6554: r1new.a += einsum(tmp9, (0, 1), r2.bab, (1, 2, 0), (2,))
    .add 309 (.ein [(286, [0, 1]), (17, [1, 2, 0])] [2]) 1 1,
    -- 6555: del tmp9
    .del 286,
    -- 6556: r1new.a += einsum(tmp11, (0, 1, 2, 3), tmp10, (0, 1, 2), (3,))
    .add 309 (.ein [(300, [0, 1, 2, 3]), (302, [0, 1, 2])] [3]) 1 1,
    -- 6557: del tmp11, tmp10
    .del 300,
    .del 302,
    -- 6558: r1new.a += einsum(tmp13, (0, 1, 2, 3), tmp12, (0, 2, 1), (3,)) * -2
    .add 309 (.ein [(298, [0, 1, 2, 3]), (296, [0, 2, 1])] [3]) (-2) 1,
    -- 6559: del tmp13, tmp12
    .del 298,
    .del 296,
    -- 6560: r1new.a += einsum(r1.a, (0,), tmp14, (0, 1), (1,)) * -1
    .add 309 (.ein [(18, [0]), (303, [0, 1])] [1]) (-1) 1,
    -- 6561: del tmp14
    .del 303,
    -- 6562: r1new.a += einsum(tmp19, (0, 1), tmp18, (0,), (1,)) * -2
    .add 309 (.ein [(207, [0, 1]), (264, [0])] [1]) (-2) 1,
    -- 6563: del tmp19, tmp18
    .del 207,
    .del 264
  ]
  ret := [(chars! "r1new.b", 308), (chars! "r1new.a", 309), (chars! "r2new.bbb", 304), (chars! "r2new.bab", 305), (chars! "r2new.aba", 306), (chars! "r2new.aaa", 307)]

end Ebcc.Gen.UCCSDEom
