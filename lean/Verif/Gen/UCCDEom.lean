import Verif.Model.GenCode
/-!
Functions of `ebcc/codegen/UCCD.py`, written by `tools/gencode.py`.  Comments give the
number and the text of the line of each statement.
-/

set_option maxRecDepth 100000

namespace Ebcc.Gen.UCCDEom

/-- codegen/UCCD.py:884-1020 `hbar_matvec_ip_intermediates`. -/
def hbar_matvec_ip_intermediates : GenFun where
  args := [chars! "t2.bbbb", chars! "f.bb.ov", chars! "t2.abab", chars! "v.aabb.ovoo", chars! "v.bbbb.ooov", chars! "v.bbbb.ovov", chars! "v.bbbb.ovvv", chars! "v.aabb.ovvv", chars! "v.aabb.ovov", chars! "f.aa.ov", chars! "v.aaaa.ovov", chars! "v.aabb.ooov", chars! "v.aaaa.ooov", chars! "t2.aaaa", chars! "v.aabb.vvov", chars! "v.aaaa.ovvv"]
  body := [
    -- 960: tmp151 = einsum(t2.bbbb, (0, 1, 2, 3), f.bb.ov, (4, 3), (4, 0, 1, 2))
    .set 16 (.ein [(0, [0, 1, 2, 3]), (1, [4, 3])] [4, 0, 1, 2]) 1 1,
    -- 961: tmp141 = einsum(t2.abab, (0, 1, 2, 3), v.aabb.ovoo, (0, 2, 4, 5), (1, 4, 5, 3))
    .set 17 (.ein [(2, [0, 1, 2, 3]), (3, [0, 2, 4, 5])] [1, 4, 5, 3]) 1 1,
    -- 962: tmp139 = einsum(t2.bbbb, (0, 1, 2, 3), v.bbbb.ooov, (4, 5, 1, 3), (0, 4, 5, 2))
    .set 18 (.ein [(0, [0, 1, 2, 3]), (4, [4, 5, 1, 3])] [0, 4, 5, 2]) 1 1,
    -- 963: tmp137 = einsum(t2.bbbb, (0, 1, 2, 3), v.bbbb.ooov, (4, 1, 5, 3), (0, 4, 5, 2))
    .set 19 (.ein [(0, [0, 1, 2, 3]), (4, [4, 1, 5, 3])] [0, 4, 5, 2]) 1 1,
    -- 964: tmp133 = einsum(t2.bbbb, (0, 1, 2, 3), v.bbbb.ovov, (4, 2, 5, 3), (0, 1, 4, 5))
    .set 20 (.ein [(0, [0, 1, 2, 3]), (5, [4, 2, 5, 3])] [0, 1, 4, 5]) 1 1,
    -- 965: tmp131 = einsum(t2.bbbb, (0, 1, 2, 3), v.bbbb.ovvv, (4, 3, 5, 2), (0, 1, 4, 5)) * -1
    .set 21 (.ein [(0, [0, 1, 2, 3]), (6, [4, 3, 5, 2])] [0, 1, 4, 5]) (-1) 1,
    -- 966: tmp127 = einsum(t2.abab, (0, 1, 2, 3), v.aabb.ovvv, (0, 2, 4, 3), (1, 4))
    .set 22 (.ein [(2, [0, 1, 2, 3]), (7, [0, 2, 4, 3])] [1, 4]) 1 1,
    -- 967: tmp126 = einsum(t2.bbbb, (0, 1, 2, 3), v.bbbb.ovvv, (1, 3, 4, 2), (0, 4)) * -1
    .set 23 (.ein [(0, [0, 1, 2, 3]), (6, [1, 3, 4, 2])] [0, 4]) (-1) 1,
    -- 968: tmp119 = einsum(t2.abab, (0, 1, 2, 3), v.aabb.ovov, (4, 2, 1, 5), (0, 4, 3, 5))
    .set 24 (.ein [(2, [0, 1, 2, 3]), (8, [4, 2, 1, 5])] [0, 4, 3, 5]) 1 1,
    -- 969: tmp117 = einsum(v.aabb.ovov, (0, 1, 2, 3), t2.abab, (0, 2, 1, 4), (4, 3))
    .set 25 (.ein [(8, [0, 1, 2, 3]), (2, [0, 2, 1, 4])] [4, 3]) 1 1,
    -- 970: tmp115 = einsum(v.bbbb.ovov, (0, 1, 2, 3), t2.bbbb, (0, 2, 4, 1), (4, 3)) * -1
    .set 26 (.ein [(5, [0, 1, 2, 3]), (0, [0, 2, 4, 1])] [4, 3]) (-1) 1,
    -- 971: tmp114 = einsum(v.aabb.ovoo, (0, 1, 2, 3), t2.abab, (4, 3, 1, 5), (4, 0, 2, 5))
    .set 27 (.ein [(3, [0, 1, 2, 3]), (2, [4, 3, 1, 5])] [4, 0, 2, 5]) 1 1,
    -- 972: tmp113 = einsum(v.aabb.ovoo, (0, 1, 2, 3), t2.abab, (0, 3, 1, 4), (2, 4))
    .set 28 (.ein [(3, [0, 1, 2, 3]), (2, [0, 3, 1, 4])] [2, 4]) 1 1,
    -- 973: tmp112 = einsum(t2.bbbb, (0, 1, 2, 3), v.bbbb.ooov, (4, 1, 0, 3), (4, 2)) * -1
    .set 29 (.ein [(0, [0, 1, 2, 3]), (4, [4, 1, 0, 3])] [4, 2]) (-1) 1,
    -- 974: tmp111 = einsum(f.aa.ov, (0, 1), t2.abab, (2, 3, 1, 4), (0, 2, 3, 4))
    .set 30 (.ein [(9, [0, 1]), (2, [2, 3, 1, 4])] [0, 2, 3, 4]) 1 1,
    -- 975: tmp110 = einsum(t2.abab, (0, 1, 2, 3), v.aabb.ovov, (0, 2, 4, 5), (1, 4, 3, 5))
    .set 31 (.ein [(2, [0, 1, 2, 3]), (8, [0, 2, 4, 5])] [1, 4, 3, 5]) 1 1,
    -- 976: tmp108 = einsum(v.aabb.ovov, (0, 1, 2, 3), t2.bbbb, (4, 2, 5, 3), (0, 4, 1, 5))
    .set 32 (.ein [(8, [0, 1, 2, 3]), (0, [4, 2, 5, 3])] [0, 4, 1, 5]) 1 1,
    -- 977: tmp106 = einsum(t2.bbbb, (0, 1, 2, 3), v.bbbb.ovov, (4, 5, 1, 3), (0, 4, 2, 5))
    .set 33 (.ein [(0, [0, 1, 2, 3]), (5, [4, 5, 1, 3])] [0, 4, 2, 5]) 1 1,
    -- 978: tmp104 = einsum(t2.bbbb, (0, 1, 2, 3), v.bbbb.ovov, (4, 3, 1, 5), (0, 4, 2, 5))
    .set 34 (.ein [(0, [0, 1, 2, 3]), (5, [4, 3, 1, 5])] [0, 4, 2, 5]) 1 1,
    -- 979: tmp102 = einsum(v.aaaa.ovov, (0, 1, 2, 3), t2.abab, (2, 4, 3, 5), (0, 4, 1, 5))
    .set 35 (.ein [(10, [0, 1, 2, 3]), (2, [2, 4, 3, 5])] [0, 4, 1, 5]) 1 1,
    -- 980: tmp100 = einsum(v.aaaa.ovov, (0, 1, 2, 3), t2.abab, (2, 4, 1, 5), (0, 4, 3, 5))
    .set 36 (.ein [(10, [0, 1, 2, 3]), (2, [2, 4, 1, 5])] [0, 4, 3, 5]) 1 1,
    -- 981: tmp98 = einsum(t2.bbbb, (0, 1, 2, 3), v.aabb.ooov, (4, 5, 1, 3), (4, 5, 0, 2))
    .set 37 (.ein [(0, [0, 1, 2, 3]), (11, [4, 5, 1, 3])] [4, 5, 0, 2]) 1 1,
    -- 982: tmp97 = einsum(v.aaaa.ooov, (0, 1, 2, 3), t2.abab, (2, 4, 3, 5), (0, 1, 4, 5))
    .set 38 (.ein [(12, [0, 1, 2, 3]), (2, [2, 4, 3, 5])] [0, 1, 4, 5]) 1 1,
    -- 983: tmp96 = einsum(v.aaaa.ooov, (0, 1, 2, 3), t2.abab, (1, 4, 3, 5), (0, 2, 4, 5))
    .set 39 (.ein [(12, [0, 1, 2, 3]), (2, [1, 4, 3, 5])] [0, 2, 4, 5]) 1 1,
    -- 984: tmp94 = einsum(f.bb.ov, (0, 1), t2.bbbb, (2, 0, 3, 1), (2, 3))
    .set 40 (.ein [(1, [0, 1]), (0, [2, 0, 3, 1])] [2, 3]) 1 1,
    -- 985: tmp93 = einsum(t2.abab, (0, 1, 2, 3), f.aa.ov, (0, 2), (1, 3))
    .set 41 (.ein [(2, [0, 1, 2, 3]), (9, [0, 2])] [1, 3]) 1 1,
    -- 986: tmp90 = einsum(t2.abab, (0, 1, 2, 3), v.aabb.ovvv, (4, 2, 5, 3), (0, 4, 1, 5))
    .set 42 (.ein [(2, [0, 1, 2, 3]), (7, [4, 2, 5, 3])] [0, 4, 1, 5]) 1 1,
    -- 987: tmp80 = einsum(t2.abab, (0, 1, 2, 3), v.aabb.ovov, (0, 4, 5, 3), (1, 5, 2, 4))
    .set 43 (.ein [(2, [0, 1, 2, 3]), (8, [0, 4, 5, 3])] [1, 5, 2, 4]) 1 1,
    -- 988: tmp77 = einsum(v.aabb.ooov, (0, 1, 2, 3), t2.abab, (1, 4, 5, 3), (0, 4, 2, 5))
    .set 44 (.ein [(11, [0, 1, 2, 3]), (2, [1, 4, 5, 3])] [0, 4, 2, 5]) 1 1,
    -- 989: tmp76 = einsum(t2.abab, (0, 1, 2, 3), f.bb.ov, (4, 3), (0, 4, 1, 2))
    .set 45 (.ein [(2, [0, 1, 2, 3]), (1, [4, 3])] [0, 4, 1, 2]) 1 1,
    -- 990: tmp69 = einsum(v.aabb.ovoo, (0, 1, 2, 3), t2.aaaa, (4, 0, 5, 1), (4, 2, 3, 5))
    .set 46 (.ein [(3, [0, 1, 2, 3]), (13, [4, 0, 5, 1])] [4, 2, 3, 5]) 1 1,
    -- 991: tmp68 = einsum(v.bbbb.ooov, (0, 1, 2, 3), t2.abab, (4, 2, 5, 3), (4, 0, 1, 5))
    .set 47 (.ein [(4, [0, 1, 2, 3]), (2, [4, 2, 5, 3])] [4, 0, 1, 5]) 1 1,
    -- 992: tmp67 = einsum(t2.abab, (0, 1, 2, 3), v.bbbb.ooov, (4, 1, 5, 3), (0, 4, 5, 2))
    .set 48 (.ein [(2, [0, 1, 2, 3]), (4, [4, 1, 5, 3])] [0, 4, 5, 2]) 1 1,
    -- 993: tmp64 = einsum(t2.abab, (0, 1, 2, 3), v.aabb.ovov, (4, 2, 5, 3), (0, 4, 1, 5))
    .set 49 (.ein [(2, [0, 1, 2, 3]), (8, [4, 2, 5, 3])] [0, 4, 1, 5]) 1 1,
    -- 994: tmp62 = einsum(v.aabb.vvov, (0, 1, 2, 3), t2.abab, (4, 5, 1, 3), (4, 5, 2, 0))
    .set 50 (.ein [(14, [0, 1, 2, 3]), (2, [4, 5, 1, 3])] [4, 5, 2, 0]) 1 1,
    -- 995: tmp51 = einsum(t2.aaaa, (0, 1, 2, 3), f.aa.ov, (4, 3), (4, 0, 1, 2))
    .set 51 (.ein [(13, [0, 1, 2, 3]), (9, [4, 3])] [4, 0, 1, 2]) 1 1,
    -- 996: tmp49 = einsum(v.aabb.ovov, (0, 1, 2, 3), t2.aaaa, (4, 0, 5, 1), (4, 2, 5, 3))
    .set 52 (.ein [(8, [0, 1, 2, 3]), (13, [4, 0, 5, 1])] [4, 2, 5, 3]) 1 1,
    -- 997: tmp47 = einsum(t2.abab, (0, 1, 2, 3), v.aabb.ovov, (4, 5, 1, 3), (0, 4, 2, 5))
    .set 53 (.ein [(2, [0, 1, 2, 3]), (8, [4, 5, 1, 3])] [0, 4, 2, 5]) 1 1,
    -- 998: tmp45 = einsum(v.bbbb.ovov, (0, 1, 2, 3), t2.abab, (4, 2, 5, 3), (4, 0, 5, 1))
    .set 54 (.ein [(5, [0, 1, 2, 3]), (2, [4, 2, 5, 3])] [4, 0, 5, 1]) 1 1,
    -- 999: tmp43 = einsum(v.bbbb.ovov, (0, 1, 2, 3), t2.abab, (4, 2, 5, 1), (4, 0, 5, 3))
    .set 55 (.ein [(5, [0, 1, 2, 3]), (2, [4, 2, 5, 1])] [4, 0, 5, 3]) 1 1,
    -- 1000: tmp41 = einsum(t2.aaaa, (0, 1, 2, 3), v.aaaa.ovov, (4, 5, 1, 3), (0, 4, 2, 5))
    .set 56 (.ein [(13, [0, 1, 2, 3]), (10, [4, 5, 1, 3])] [0, 4, 2, 5]) 1 1,
    -- 1001: tmp39 = einsum(t2.aaaa, (0, 1, 2, 3), v.aaaa.ovov, (4, 3, 1, 5), (0, 4, 2, 5))
    .set 57 (.ein [(13, [0, 1, 2, 3]), (10, [4, 3, 1, 5])] [0, 4, 2, 5]) 1 1,
    -- 1002: tmp37 = einsum(t2.abab, (0, 1, 2, 3), v.aabb.ovov, (0, 4, 1, 3), (2, 4))
    .set 58 (.ein [(2, [0, 1, 2, 3]), (8, [0, 4, 1, 3])] [2, 4]) 1 1,
    -- 1003: tmp35 = einsum(v.aaaa.ovov, (0, 1, 2, 3), t2.aaaa, (0, 2, 4, 3), (4, 1))
    .set 59 (.ein [(10, [0, 1, 2, 3]), (13, [0, 2, 4, 3])] [4, 1]) 1 1,
    -- 1004: tmp33 = einsum(v.aabb.ooov, (0, 1, 2, 3), t2.abab, (4, 2, 5, 3), (4, 0, 1, 5))
    .set 60 (.ein [(11, [0, 1, 2, 3]), (2, [4, 2, 5, 3])] [4, 0, 1, 5]) 1 1,
    -- 1005: tmp31 = einsum(t2.aaaa, (0, 1, 2, 3), v.aaaa.ooov, (4, 5, 1, 3), (0, 4, 5, 2))
    .set 61 (.ein [(13, [0, 1, 2, 3]), (12, [4, 5, 1, 3])] [0, 4, 5, 2]) 1 1,
    -- 1006: tmp29 = einsum(v.aaaa.ooov, (0, 1, 2, 3), t2.aaaa, (4, 1, 5, 3), (4, 0, 2, 5))
    .set 62 (.ein [(12, [0, 1, 2, 3]), (13, [4, 1, 5, 3])] [4, 0, 2, 5]) 1 1,
    -- 1007: tmp28 = einsum(v.aabb.ooov, (0, 1, 2, 3), t2.abab, (1, 2, 4, 3), (0, 4))
    .set 63 (.ein [(11, [0, 1, 2, 3]), (2, [1, 2, 4, 3])] [0, 4]) 1 1,
    -- 1008: tmp27 = einsum(v.aaaa.ooov, (0, 1, 2, 3), t2.aaaa, (1, 2, 4, 3), (0, 4))
    .set 64 (.ein [(12, [0, 1, 2, 3]), (13, [1, 2, 4, 3])] [0, 4]) 1 1,
    -- 1009: tmp25 = einsum(t2.abab, (0, 1, 2, 3), f.bb.ov, (1, 3), (0, 2))
    .set 65 (.ein [(2, [0, 1, 2, 3]), (1, [1, 3])] [0, 2]) 1 1,
    -- 1010: tmp24 = einsum(f.aa.ov, (0, 1), t2.aaaa, (2, 0, 3, 1), (2, 3))
    .set 66 (.ein [(9, [0, 1]), (13, [2, 0, 3, 1])] [2, 3]) 1 1,
    -- 1011: tmp21 = einsum(t2.aaaa, (0, 1, 2, 3), v.aaaa.ovov, (4, 2, 5, 3), (0, 1, 4, 5))
    .set 67 (.ein [(13, [0, 1, 2, 3]), (10, [4, 2, 5, 3])] [0, 1, 4, 5]) 1 1,
    -- 1012: tmp19 = einsum(v.aaaa.ovvv, (0, 1, 2, 3), t2.aaaa, (4, 5, 3, 1), (4, 5, 0, 2)) * -1
    .set 68 (.ein [(15, [0, 1, 2, 3]), (13, [4, 5, 3, 1])] [4, 5, 0, 2]) (-1) 1,
    -- 1013: tmp18 = einsum(v.aabb.vvov, (0, 1, 2, 3), t2.abab, (4, 2, 1, 3), (4, 0))
    .set 69 (.ein [(14, [0, 1, 2, 3]), (2, [4, 2, 1, 3])] [4, 0]) 1 1,
    -- 1014: tmp17 = einsum(v.aaaa.ovvv, (0, 1, 2, 3), t2.aaaa, (4, 0, 3, 1), (4, 2)) * -1
    .set 70 (.ein [(15, [0, 1, 2, 3]), (13, [4, 0, 3, 1])] [4, 2]) (-1) 1,
    -- 1015: tmp12 = einsum(t2.abab, (0, 1, 2, 3), v.aabb.ovov, (0, 2, 4, 3), (1, 4))
    .set 71 (.ein [(2, [0, 1, 2, 3]), (8, [0, 2, 4, 3])] [1, 4]) 1 1,
    -- 1016: tmp10 = einsum(t2.bbbb, (0, 1, 2, 3), v.bbbb.ovov, (4, 3, 1, 2), (0, 4)) * -1
    .set 72 (.ein [(0, [0, 1, 2, 3]), (5, [4, 3, 1, 2])] [0, 4]) (-1) 1,
    -- 1017: tmp5 = einsum(t2.abab, (0, 1, 2, 3), v.aabb.ovov, (4, 2, 1, 3), (0, 4))
    .set 73 (.ein [(2, [0, 1, 2, 3]), (8, [4, 2, 1, 3])] [0, 4]) 1 1,
    -- 1018: tmp3 = einsum(v.aaaa.ovov, (0, 1, 2, 3), t2.aaaa, (4, 2, 1, 3), (4, 0))
    .set 74 (.ein [(10, [0, 1, 2, 3]), (13, [4, 2, 1, 3])] [4, 0]) 1 1
  ]
  ret := [(chars! "tmp10", 72), (chars! "tmp100", 36), (chars! "tmp102", 35), (chars! "tmp104", 34), (chars! "tmp106", 33), (chars! "tmp108", 32), (chars! "tmp110", 31), (chars! "tmp111", 30), (chars! "tmp112", 29), (chars! "tmp113", 28), (chars! "tmp114", 27), (chars! "tmp115", 26), (chars! "tmp117", 25), (chars! "tmp119", 24), (chars! "tmp12", 71), (chars! "tmp126", 23), (chars! "tmp127", 22), (chars! "tmp131", 21), (chars! "tmp133", 20), (chars! "tmp137", 19), (chars! "tmp139", 18), (chars! "tmp141", 17), (chars! "tmp151", 16), (chars! "tmp17", 70), (chars! "tmp18", 69), (chars! "tmp19", 68), (chars! "tmp21", 67), (chars! "tmp24", 66), (chars! "tmp25", 65), (chars! "tmp27", 64), (chars! "tmp28", 63), (chars! "tmp29", 62), (chars! "tmp3", 74), (chars! "tmp31", 61), (chars! "tmp33", 60), (chars! "tmp35", 59), (chars! "tmp37", 58), (chars! "tmp39", 57), (chars! "tmp41", 56), (chars! "tmp43", 55), (chars! "tmp45", 54), (chars! "tmp47", 53), (chars! "tmp49", 52), (chars! "tmp5", 73), (chars! "tmp51", 51), (chars! "tmp62", 50), (chars! "tmp64", 49), (chars! "tmp67", 48), (chars! "tmp68", 47), (chars! "tmp69", 46), (chars! "tmp76", 45), (chars! "tmp77", 44), (chars! "tmp80", 43), (chars! "tmp90", 42), (chars! "tmp93", 41), (chars! "tmp94", 40), (chars! "tmp96", 39), (chars! "tmp97", 38), (chars! "tmp98", 37)]

/-- codegen/UCCD.py:1022-1371 `hbar_matvec_ip`. -/
def hbar_matvec_ip : GenFun where
  args := [chars! "ints.tmp137", chars! "v.bbbb.ooov", chars! "ints.tmp10", chars! "ints.tmp12", chars! "ints.tmp106", chars! "ints.tmp110", chars! "ints.tmp141", chars! "ints.tmp139", chars! "ints.tmp102", chars! "ints.tmp108", chars! "ints.tmp33", chars! "ints.tmp31", chars! "ints.tmp29", chars! "v.aaaa.ooov", chars! "ints.tmp41", chars! "ints.tmp47", chars! "ints.tmp3", chars! "ints.tmp5", chars! "ints.tmp45", chars! "ints.tmp49", chars! "r2.aba", chars! "v.aabb.ovov", chars! "r1.b", chars! "r2.bbb", chars! "v.bbbb.oovv", chars! "ints.tmp100", chars! "v.bbbb.ovov", chars! "f.bb.oo", chars! "ints.tmp104", chars! "r2.bab", chars! "v.aaaa.ovov", chars! "r2.aaa", chars! "ints.tmp43", chars! "f.aa.oo", chars! "ints.tmp39", chars! "r1.a", chars! "v.aaaa.oovv", chars! "ints.tmp131", chars! "ints.tmp151", chars! "ints.tmp133", chars! "v.bbbb.oooo", chars! "f.bb.ov", chars! "ints.tmp127", chars! "ints.tmp93", chars! "ints.tmp94", chars! "ints.tmp112", chars! "ints.tmp113", chars! "ints.tmp126", chars! "ints.tmp115", chars! "ints.tmp117", chars! "f.bb.vv", chars! "ints.tmp111", chars! "ints.tmp90", chars! "ints.tmp97", chars! "ints.tmp98", chars! "v.aabb.ooov", chars! "ints.tmp114", chars! "ints.tmp96", chars! "ints.tmp119", chars! "v.aabb.oovv", chars! "ints.tmp64", chars! "v.aabb.oooo", chars! "ints.tmp62", chars! "ints.tmp68", chars! "ints.tmp69", chars! "ints.tmp76", chars! "v.aabb.ovoo", chars! "ints.tmp67", chars! "ints.tmp77", chars! "ints.tmp35", chars! "ints.tmp37", chars! "f.aa.vv", chars! "f.aa.ov", chars! "ints.tmp18", chars! "ints.tmp24", chars! "ints.tmp25", chars! "ints.tmp17", chars! "ints.tmp27", chars! "ints.tmp28", chars! "ints.tmp80", chars! "v.aabb.vvoo", chars! "ints.tmp21", chars! "v.aaaa.oooo", chars! "ints.tmp19", chars! "ints.tmp51", chars! "t2.bbbb", chars! "t2.abab", chars! "t2.aaaa"]
  body := [
    -- 1050: tmp50 = np.copy(ints.tmp137)
    .set 88 (.cp 0) 1 1,
    -- 1051: del ints.tmp137
    .del 0,
    -- 1052: tmp50 += np.transpose(v.bbbb.ooov, (0, 2, 1, 3)) * 0.5
    .add 88 (.tr 1 [0, 2, 1, 3]) 1 2,
    -- 1053: tmp48 = np.copy(ints.tmp10) * 2
    .set 89 (.cp 2) 2 1,
    -- 1054: tmp48 += ints.tmp12
    .add 89 (.cp 3) 1 1,
    -- 1055: tmp46 = np.copy(ints.tmp106)
    .set 90 (.cp 4) 1 1,
    -- 1056: tmp46 += ints.tmp110 * 0.5
    .add 90 (.cp 5) 1 2,
    -- 1057: tmp58 = np.copy(ints.tmp141)
    .set 91 (.cp 6) 1 1,
    -- 1058: del ints.tmp141
    .del 6,
    -- 1059: tmp58 += ints.tmp139 * 2
    .add 91 (.cp 7) 2 1,
    -- 1060: del ints.tmp139
    .del 7,
    -- 1061: tmp56 = np.copy(ints.tmp102)
    .set 92 (.cp 8) 1 1,
    -- 1062: tmp56 += ints.tmp108 * 2
    .add 92 (.cp 9) 2 1,
    -- 1063: tmp7 = np.copy(ints.tmp33)
    .set 93 (.cp 10) 1 1,
    -- 1064: del ints.tmp33
    .del 10,
    -- 1065: tmp7 += ints.tmp31 * 2
    .add 93 (.cp 11) 2 1,
    -- 1066: del ints.tmp31
    .del 11,
    -- 1067: tmp17 = np.copy(ints.tmp29)
    .set 94 (.cp 12) 1 1,
    -- 1068: del ints.tmp29
    .del 12,
    -- 1069: tmp17 += np.transpose(v.aaaa.ooov, (0, 2, 1, 3)) * 0.5
    .add 94 (.tr 13 [0, 2, 1, 3]) 1 2,
    -- 1070: tmp11 = np.copy(ints.tmp41)
    .set 95 (.cp 14) 1 1,
    -- 1071: tmp11 += ints.tmp47 * 0.5
    .add 95 (.cp 15) 1 2,
    -- 1072: tmp15 = np.copy(ints.tmp3) * 2
    .set 96 (.cp 16) 2 1,
    -- 1073: tmp15 += ints.tmp5
    .add 96 (.cp 17) 1 1,
    -- 1074: tmp13 = np.copy(ints.tmp45)
    .set 97 (.cp 18) 1 1,
    -- 1075: tmp13 += ints.tmp49 * 2
    .add 97 (.cp 19) 2 1,
    -- 1076: tmp44 = einsum(r2.aba, (0, 1, 2), v.aabb.ovov, (0, 2, 3, 4), (1, 3, 4))
    .set 98 (.ein [(20, [0, 1, 2]), (21, [0, 2, 3, 4])] [1, 3, 4]) 1 1,
    -- 1077: tmp51 = einsum(r1.b, (0,), tmp50, (1, 2, 0, 3), (1, 2, 3)) * 2
    .set 99 (.ein [(22, [0]), (88, [1, 2, 0, 3])] [1, 2, 3]) 2 1,
    -- 1078: del tmp50
    .del 88,
    -- 1079: tmp45 = einsum(r2.bbb, (0, 1, 2), v.bbbb.oovv, (3, 1, 4, 2), (0, 3, 4))
    .set 100 (.ein [(23, [0, 1, 2]), (24, [3, 1, 4, 2])] [0, 3, 4]) 1 1,
    -- 1080: tmp49 = einsum(tmp48, (0, 1), r2.bbb, (2, 1, 3), (2, 0, 3)) * -2
    .set 101 (.ein [(89, [0, 1]), (23, [2, 1, 3])] [2, 0, 3]) (-2) 1,
    -- 1081: del tmp48
    .del 89,
    -- 1082: tmp43 = einsum(r2.aba, (0, 1, 2), ints.tmp100, (0, 3, 2, 4), (3, 1, 4))
    .set 102 (.ein [(20, [0, 1, 2]), (25, [0, 3, 2, 4])] [3, 1, 4]) 1 1,
    -- 1083: tmp47 = einsum(r2.bbb, (0, 1, 2), tmp46, (3, 1, 4, 2), (0, 3, 4)) * -4
    .set 103 (.ein [(23, [0, 1, 2]), (90, [3, 1, 4, 2])] [0, 3, 4]) (-4) 1,
    -- 1084: del tmp46
    .del 90,
    -- 1085: tmp31 = einsum(r2.aba, (0, 1, 2), v.aabb.ovov, (0, 2, 1, 3), (3,))
    .set 104 (.ein [(20, [0, 1, 2]), (21, [0, 2, 1, 3])] [3]) 1 1,
    -- 1086: tmp32 = einsum(r2.bbb, (0, 1, 2), v.bbbb.ovov, (0, 3, 1, 2), (3,))
    .set 105 (.ein [(23, [0, 1, 2]), (26, [0, 3, 1, 2])] [3]) 1 1,
    -- 1087: tmp55 = einsum(r2.bbb, (0, 1, 2), v.bbbb.ovov, (3, 4, 1, 2), (0, 3, 4))
    .set 106 (.ein [(23, [0, 1, 2]), (26, [3, 4, 1, 2])] [0, 3, 4]) 1 1,
    -- 1088: tmp59 = einsum(r1.b, (0,), tmp58, (1, 2, 0, 3), (1, 2, 3))
    .set 107 (.ein [(22, [0]), (91, [1, 2, 0, 3])] [1, 2, 3]) 1 1,
    -- 1089: del tmp58
    .del 91,
    -- 1090: tmp53 = einsum(r2.bbb, (0, 1, 2), f.bb.oo, (3, 1), (3, 0, 2))
    .set 108 (.ein [(23, [0, 1, 2]), (27, [3, 1])] [3, 0, 2]) 1 1,
    -- 1091: tmp57 = einsum(r2.aba, (0, 1, 2), tmp56, (0, 3, 2, 4), (1, 3, 4))
    .set 109 (.ein [(20, [0, 1, 2]), (92, [0, 3, 2, 4])] [1, 3, 4]) 1 1,
    -- 1092: del tmp56
    .del 92,
    -- 1093: tmp54 = einsum(ints.tmp104, (0, 1, 2, 3), r2.bbb, (4, 1, 3), (0, 4, 2))
    .set 110 (.ein [(28, [0, 1, 2, 3]), (23, [4, 1, 3])] [0, 4, 2]) 1 1,
    -- 1094: tmp23 = einsum(v.aabb.ovov, (0, 1, 2, 3), r2.bab, (2, 0, 3), (1,)) * -1
    .set 111 (.ein [(21, [0, 1, 2, 3]), (29, [2, 0, 3])] [1]) (-1) 1,
    -- 1095: tmp22 = einsum(v.aaaa.ovov, (0, 1, 2, 3), r2.aaa, (0, 2, 1), (3,)) * -1
    .set 112 (.ein [(30, [0, 1, 2, 3]), (31, [0, 2, 1])] [3]) (-1) 1,
    -- 1096: tmp5 = einsum(r2.bab, (0, 1, 2), ints.tmp43, (3, 0, 4, 2), (3, 1, 4)) * -1
    .set 113 (.ein [(29, [0, 1, 2]), (32, [3, 0, 4, 2])] [3, 1, 4]) (-1) 1,
    -- 1097: tmp6 = einsum(v.aabb.ovov, (0, 1, 2, 3), r2.bab, (2, 4, 3), (4, 0, 1)) * -1
    .set 114 (.ein [(21, [0, 1, 2, 3]), (29, [2, 4, 3])] [4, 0, 1]) (-1) 1,
    -- 1098: tmp4 = einsum(v.aaaa.ovov, (0, 1, 2, 3), r2.aaa, (4, 2, 3), (4, 0, 1))
    .set 115 (.ein [(30, [0, 1, 2, 3]), (31, [4, 2, 3])] [4, 0, 1]) 1 1,
    -- 1099: tmp2 = einsum(f.aa.oo, (0, 1), r2.aaa, (2, 1, 3), (0, 2, 3))
    .set 116 (.ein [(33, [0, 1]), (31, [2, 1, 3])] [0, 2, 3]) 1 1,
    -- 1100: tmp3 = einsum(r2.aaa, (0, 1, 2), ints.tmp39, (3, 1, 4, 2), (3, 0, 4))
    .set 117 (.ein [(31, [0, 1, 2]), (34, [3, 1, 4, 2])] [3, 0, 4]) 1 1,
    -- 1101: tmp8 = einsum(r1.a, (0,), tmp7, (1, 2, 0, 3), (1, 2, 3))
    .set 118 (.ein [(35, [0]), (93, [1, 2, 0, 3])] [1, 2, 3]) 1 1,
    -- 1102: del tmp7
    .del 93,
    -- 1103: tmp18 = einsum(r1.a, (0,), tmp17, (1, 2, 0, 3), (1, 2, 3)) * 2
    .set 119 (.ein [(35, [0]), (94, [1, 2, 0, 3])] [1, 2, 3]) 2 1,
    -- 1104: del tmp17
    .del 94,
    -- 1105: tmp10 = einsum(v.aaaa.oovv, (0, 1, 2, 3), r2.aaa, (4, 1, 3), (4, 0, 2))
    .set 120 (.ein [(36, [0, 1, 2, 3]), (31, [4, 1, 3])] [4, 0, 2]) 1 1,
    -- 1106: tmp12 = einsum(r2.aaa, (0, 1, 2), tmp11, (3, 1, 4, 2), (0, 3, 4)) * -4
    .set 121 (.ein [(31, [0, 1, 2]), (95, [3, 1, 4, 2])] [0, 3, 4]) (-4) 1,
    -- 1107: del tmp11
    .del 95,
    -- 1108: tmp16 = einsum(tmp15, (0, 1), r2.aaa, (2, 1, 3), (2, 0, 3)) * -2
    .set 122 (.ein [(96, [0, 1]), (31, [2, 1, 3])] [2, 0, 3]) (-2) 1,
    -- 1109: del tmp15
    .del 96,
    -- 1110: tmp14 = einsum(tmp13, (0, 1, 2, 3), r2.bab, (1, 4, 3), (4, 0, 2)) * -1
    .set 123 (.ein [(97, [0, 1, 2, 3]), (29, [1, 4, 3])] [4, 0, 2]) (-1) 1,
    -- 1111: del tmp13
    .del 97,
    -- 1112: tmp52 = np.copy(tmp43)
    .set 124 (.cp 102) 1 1,
    -- 1113: del tmp43
    .del 102,
    -- 1114: tmp52 += tmp44
    .add 124 (.cp 98) 1 1,
    -- 1115: del tmp44
    .del 98,
    -- 1116: tmp52 += tmp45 * 2
    .add 124 (.cp 100) 2 1,
    -- 1117: del tmp45
    .del 100,
    -- 1118: tmp52 += np.transpose(tmp47, (1, 0, 2)) * -1
    .add 124 (.tr 103 [1, 0, 2]) (-1) 1,
    -- 1119: del tmp47
    .del 103,
    -- 1120: tmp52 += np.transpose(tmp49, (1, 0, 2))
    .add 124 (.tr 101 [1, 0, 2]) 1 1,
    -- 1121: del tmp49
    .del 101,
    -- 1122: tmp52 += tmp51
    .add 124 (.cp 99) 1 1,
    -- 1123: del tmp51
    .del 99,
    -- 1124: tmp33 = np.copy(tmp31) * -0.5
    .set 125 (.cp 104) (-1) 2,
    -- 1125: del tmp31
    .del 104,
    -- 1126: tmp33 += tmp32
    .add 125 (.cp 105) 1 1,
    -- 1127: del tmp32
    .del 105,
    -- 1128: tmp62 = np.copy(ints.tmp131)
    .set 126 (.cp 37) 1 1,
    -- 1129: del ints.tmp131
    .del 37,
    -- 1130: tmp62 += np.transpose(ints.tmp151, (1, 2, 0, 3)) * -1
    .add 126 (.tr 38 [1, 2, 0, 3]) (-1) 1,
    -- 1131: del ints.tmp151
    .del 38,
    -- 1132: tmp61 = np.copy(ints.tmp133)
    .set 127 (.cp 39) 1 1,
    -- 1133: del ints.tmp133
    .del 39,
    -- 1134: tmp61 += np.transpose(v.bbbb.oooo, (0, 2, 1, 3))
    .add 127 (.tr 40 [0, 2, 1, 3]) 1 1,
    -- 1135: tmp42 = np.copy(f.bb.ov)
    .set 128 (.cp 41) 1 1,
    -- 1136: tmp42 += ints.tmp127
    .add 128 (.cp 42) 1 1,
    -- 1137: del ints.tmp127
    .del 42,
    -- 1138: tmp42 += ints.tmp93
    .add 128 (.cp 43) 1 1,
    -- 1139: del ints.tmp93
    .del 43,
    -- 1140: tmp42 += ints.tmp94 * 2
    .add 128 (.cp 44) 2 1,
    -- 1141: del ints.tmp94
    .del 44,
    -- 1142: tmp42 += ints.tmp112 * -2
    .add 128 (.cp 45) (-2) 1,
    -- 1143: del ints.tmp112
    .del 45,
    -- 1144: tmp42 += ints.tmp113 * -1
    .add 128 (.cp 46) (-1) 1,
    -- 1145: del ints.tmp113
    .del 46,
    -- 1146: tmp42 += ints.tmp126 * -2
    .add 128 (.cp 47) (-2) 1,
    -- 1147: del ints.tmp126
    .del 47,
    -- 1148: tmp60 = np.copy(tmp53) * 2
    .set 129 (.cp 108) 2 1,
    -- 1149: del tmp53
    .del 108,
    -- 1150: tmp60 += tmp54 * 4
    .add 129 (.cp 110) 4 1,
    -- 1151: del tmp54
    .del 110,
    -- 1152: tmp60 += tmp55 * 2
    .add 129 (.cp 106) 2 1,
    -- 1153: del tmp55
    .del 106,
    -- 1154: tmp60 += np.transpose(tmp57, (1, 0, 2))
    .add 129 (.tr 109 [1, 0, 2]) 1 1,
    -- 1155: del tmp57
    .del 109,
    -- 1156: tmp60 += tmp59
    .add 129 (.cp 107) 1 1,
    -- 1157: del tmp59
    .del 107,
    -- 1158: tmp39 = np.copy(np.transpose(ints.tmp115, (1, 0))) * 2
    .set 130 (.tr 48 [1, 0]) 2 1,
    -- 1159: del ints.tmp115
    .del 48,
    -- 1160: tmp39 += np.transpose(ints.tmp117, (1, 0))
    .add 130 (.tr 49 [1, 0]) 1 1,
    -- 1161: del ints.tmp117
    .del 49,
    -- 1162: tmp39 += f.bb.vv * -1
    .add 130 (.cp 50) (-1) 1,
    -- 1163: tmp40 = np.copy(tmp22) * 2
    .set 131 (.cp 112) 2 1,
    -- 1164: tmp40 += tmp23
    .add 131 (.cp 111) 1 1,
    -- 1165: tmp41 = np.copy(ints.tmp111)
    .set 132 (.cp 51) 1 1,
    -- 1166: del ints.tmp111
    .del 51,
    -- 1167: tmp41 += np.transpose(ints.tmp90, (1, 0, 2, 3))
    .add 132 (.tr 52 [1, 0, 2, 3]) 1 1,
    -- 1168: del ints.tmp90
    .del 52,
    -- 1169: tmp41 += np.transpose(ints.tmp97, (1, 0, 2, 3))
    .add 132 (.tr 53 [1, 0, 2, 3]) 1 1,
    -- 1170: del ints.tmp97
    .del 53,
    -- 1171: tmp41 += np.transpose(ints.tmp98, (1, 0, 2, 3)) * 2
    .add 132 (.tr 54 [1, 0, 2, 3]) 2 1,
    -- 1172: del ints.tmp98
    .del 54,
    -- 1173: tmp41 += v.aabb.ooov
    .add 132 (.cp 55) 1 1,
    -- 1174: tmp41 += np.transpose(ints.tmp114, (1, 0, 2, 3)) * -1
    .add 132 (.tr 56 [1, 0, 2, 3]) (-1) 1,
    -- 1175: del ints.tmp114
    .del 56,
    -- 1176: tmp41 += np.transpose(ints.tmp96, (1, 0, 2, 3)) * -1
    .add 132 (.tr 57 [1, 0, 2, 3]) (-1) 1,
    -- 1177: del ints.tmp96
    .del 57,
    -- 1178: tmp36 = np.copy(ints.tmp102)
    .set 133 (.cp 8) 1 1,
    -- 1179: del ints.tmp102
    .del 8,
    -- 1180: tmp36 += ints.tmp108 * 2
    .add 133 (.cp 9) 2 1,
    -- 1181: del ints.tmp108
    .del 9,
    -- 1182: tmp36 += np.transpose(v.aabb.ovov, (0, 2, 1, 3))
    .add 133 (.tr 21 [0, 2, 1, 3]) 1 1,
    -- 1183: tmp36 += ints.tmp100 * -1
    .add 133 (.cp 25) (-1) 1,
    -- 1184: del ints.tmp100
    .del 25,
    -- 1185: tmp37 = np.copy(ints.tmp119)
    .set 134 (.cp 58) 1 1,
    -- 1186: del ints.tmp119
    .del 58,
    -- 1187: tmp37 += v.aabb.oovv * -1
    .add 134 (.cp 59) (-1) 1,
    -- 1188: tmp1 = np.copy(f.bb.oo)
    .set 135 (.cp 27) 1 1,
    -- 1189: tmp1 += np.transpose(ints.tmp10, (1, 0)) * 2
    .add 135 (.tr 2 [1, 0]) 2 1,
    -- 1190: del ints.tmp10
    .del 2,
    -- 1191: tmp1 += np.transpose(ints.tmp12, (1, 0))
    .add 135 (.tr 3 [1, 0]) 1 1,
    -- 1192: del ints.tmp12
    .del 3,
    -- 1193: tmp38 = np.copy(ints.tmp64)
    .set 136 (.cp 60) 1 1,
    -- 1194: tmp38 += v.aabb.oooo
    .add 136 (.cp 61) 1 1,
    -- 1195: tmp0 = np.copy(f.aa.oo)
    .set 137 (.cp 33) 1 1,
    -- 1196: tmp0 += np.transpose(ints.tmp3, (1, 0)) * 2
    .add 137 (.tr 16 [1, 0]) 2 1,
    -- 1197: del ints.tmp3
    .del 16,
    -- 1198: tmp0 += np.transpose(ints.tmp5, (1, 0))
    .add 137 (.tr 17 [1, 0]) 1 1,
    -- 1199: del ints.tmp5
    .del 17,
    -- 1200: tmp35 = np.copy(ints.tmp106) * 2
    .set 138 (.cp 4) 2 1,
    -- 1201: del ints.tmp106
    .del 4,
    -- 1202: tmp35 += ints.tmp110
    .add 138 (.cp 5) 1 1,
    -- 1203: del ints.tmp110
    .del 5,
    -- 1204: tmp35 += np.transpose(v.bbbb.ovov, (0, 2, 1, 3))
    .add 138 (.tr 26 [0, 2, 1, 3]) 1 1,
    -- 1205: tmp35 += ints.tmp104 * -2
    .add 138 (.cp 28) (-2) 1,
    -- 1206: del ints.tmp104
    .del 28,
    -- 1207: tmp35 += v.bbbb.oovv * -1
    .add 138 (.cp 24) (-1) 1,
    -- 1208: tmp34 = np.copy(ints.tmp62)
    .set 139 (.cp 62) 1 1,
    -- 1209: del ints.tmp62
    .del 62,
    -- 1210: tmp34 += ints.tmp68
    .add 139 (.cp 63) 1 1,
    -- 1211: del ints.tmp68
    .del 63,
    -- 1212: tmp34 += ints.tmp69 * 2
    .add 139 (.cp 64) 2 1,
    -- 1213: del ints.tmp69
    .del 64,
    -- 1214: tmp34 += np.transpose(ints.tmp76, (0, 2, 1, 3))
    .add 139 (.tr 65 [0, 2, 1, 3]) 1 1,
    -- 1215: del ints.tmp76
    .del 65,
    -- 1216: tmp34 += np.transpose(v.aabb.ovoo, (0, 2, 3, 1))
    .add 139 (.tr 66 [0, 2, 3, 1]) 1 1,
    -- 1217: tmp34 += ints.tmp67 * -1
    .add 139 (.cp 67) (-1) 1,
    -- 1218: del ints.tmp67
    .del 67,
    -- 1219: tmp34 += ints.tmp77 * -1
    .add 139 (.cp 68) (-1) 1,
    -- 1220: del ints.tmp77
    .del 68,
    -- 1221: tmp21 = np.copy(np.transpose(ints.tmp35, (1, 0))) * 2
    .set 140 (.tr 69 [1, 0]) 2 1,
    -- 1222: del ints.tmp35
    .del 69,
    -- 1223: tmp21 += np.transpose(ints.tmp37, (1, 0))
    .add 140 (.tr 70 [1, 0]) 1 1,
    -- 1224: del ints.tmp37
    .del 70,
    -- 1225: tmp21 += f.aa.vv * -1
    .add 140 (.cp 71) (-1) 1,
    -- 1226: tmp28 = np.copy(ints.tmp45)
    .set 141 (.cp 18) 1 1,
    -- 1227: del ints.tmp45
    .del 18,
    -- 1228: tmp28 += ints.tmp49 * 2
    .add 141 (.cp 19) 2 1,
    -- 1229: del ints.tmp49
    .del 19,
    -- 1230: tmp28 += np.transpose(v.aabb.ovov, (0, 2, 1, 3))
    .add 141 (.tr 21 [0, 2, 1, 3]) 1 1,
    -- 1231: tmp28 += ints.tmp43 * -1
    .add 141 (.cp 32) (-1) 1,
    -- 1232: del ints.tmp43
    .del 32,
    -- 1233: tmp27 = np.copy(ints.tmp41) * 2
    .set 142 (.cp 14) 2 1,
    -- 1234: del ints.tmp41
    .del 14,
    -- 1235: tmp27 += ints.tmp47
    .add 142 (.cp 15) 1 1,
    -- 1236: del ints.tmp47
    .del 15,
    -- 1237: tmp27 += np.transpose(v.aaaa.ovov, (0, 2, 1, 3))
    .add 142 (.tr 30 [0, 2, 1, 3]) 1 1,
    -- 1238: tmp27 += ints.tmp39 * -2
    .add 142 (.cp 34) (-2) 1,
    -- 1239: del ints.tmp39
    .del 34,
    -- 1240: tmp27 += v.aaaa.oovv * -1
    .add 142 (.cp 36) (-1) 1,
    -- 1241: tmp26 = np.copy(f.aa.ov)
    .set 143 (.cp 72) 1 1,
    -- 1242: tmp26 += ints.tmp18
    .add 143 (.cp 73) 1 1,
    -- 1243: del ints.tmp18
    .del 73,
    -- 1244: tmp26 += ints.tmp24 * 2
    .add 143 (.cp 74) 2 1,
    -- 1245: del ints.tmp24
    .del 74,
    -- 1246: tmp26 += ints.tmp25
    .add 143 (.cp 75) 1 1,
    -- 1247: del ints.tmp25
    .del 75,
    -- 1248: tmp26 += ints.tmp17 * -2
    .add 143 (.cp 76) (-2) 1,
    -- 1249: del ints.tmp17
    .del 76,
    -- 1250: tmp26 += ints.tmp27 * -2
    .add 143 (.cp 77) (-2) 1,
    -- 1251: del ints.tmp27
    .del 77,
    -- 1252: tmp26 += ints.tmp28 * -1
    .add 143 (.cp 78) (-1) 1,
    -- 1253: del ints.tmp28
    .del 78,
    -- 1254: tmp30 = np.copy(ints.tmp64)
    .set 144 (.cp 60) 1 1,
    -- 1255: del ints.tmp64
    .del 60,
    -- 1256: tmp30 += v.aabb.oooo
    .add 144 (.cp 61) 1 1,
    -- 1257: tmp29 = np.copy(ints.tmp80)
    .set 145 (.cp 79) 1 1,
    -- 1258: del ints.tmp80
    .del 79,
    -- 1259: tmp29 += np.transpose(v.aabb.vvoo, (2, 3, 0, 1)) * -1
    .add 145 (.tr 80 [2, 3, 0, 1]) (-1) 1,
    -- 1260: tmp20 = np.copy(ints.tmp21)
    .set 146 (.cp 81) 1 1,
    -- 1261: del ints.tmp21
    .del 81,
    -- 1262: tmp20 += np.transpose(v.aaaa.oooo, (0, 2, 3, 1)) * -1
    .add 146 (.tr 82 [0, 2, 3, 1]) (-1) 1,
    -- 1263: tmp9 = np.copy(tmp2) * 2
    .set 147 (.cp 116) 2 1,
    -- 1264: del tmp2
    .del 116,
    -- 1265: tmp9 += tmp3 * 4
    .add 147 (.cp 117) 4 1,
    -- 1266: del tmp3
    .del 117,
    -- 1267: tmp9 += tmp4 * 2
    .add 147 (.cp 115) 2 1,
    -- 1268: del tmp4
    .del 115,
    -- 1269: tmp9 += tmp5
    .add 147 (.cp 113) 1 1,
    -- 1270: del tmp5
    .del 113,
    -- 1271: tmp9 += tmp6
    .add 147 (.cp 114) 1 1,
    -- 1272: del tmp6
    .del 114,
    -- 1273: tmp9 += tmp8
    .add 147 (.cp 118) 1 1,
    -- 1274: del tmp8
    .del 118,
    -- 1275: tmp25 = np.copy(ints.tmp19)
    .set 148 (.cp 83) 1 1,
    -- 1276: del ints.tmp19
    .del 83,
    -- 1277: tmp25 += np.transpose(ints.tmp51, (1, 2, 0, 3)) * -1
    .add 148 (.tr 84 [1, 2, 0, 3]) (-1) 1,
    -- 1278: del ints.tmp51
    .del 84,
    -- 1279: tmp24 = np.copy(tmp22)
    .set 149 (.cp 112) 1 1,
    -- 1280: del tmp22
    .del 112,
    -- 1281: tmp24 += tmp23 * 0.5
    .add 149 (.cp 111) 1 2,
    -- 1282: del tmp23
    .del 111,
    -- 1283: tmp19 = np.copy(tmp10) * 2
    .set 150 (.cp 120) 2 1,
    -- 1284: del tmp10
    .del 120,
    -- 1285: tmp19 += np.transpose(tmp12, (1, 0, 2)) * -1
    .add 150 (.tr 121 [1, 0, 2]) (-1) 1,
    -- 1286: del tmp12
    .del 121,
    -- 1287: tmp19 += np.transpose(tmp14, (1, 0, 2))
    .add 150 (.tr 123 [1, 0, 2]) 1 1,
    -- 1288: del tmp14
    .del 123,
    -- 1289: tmp19 += np.transpose(tmp16, (1, 0, 2))
    .add 150 (.tr 122 [1, 0, 2]) 1 1,
    -- 1290: del tmp16
    .del 122,
    -- 1291: tmp19 += tmp18
    .add 150 (.cp 119) 1 1,
    -- 1292: del tmp18
    .del 119,
    -- 1293: r2new.bbb = np.copy(tmp52) * -1
    .set 151 (.cp 124) (-1) 1,
    -- 1294: r2new.bbb += np.transpose(tmp52, (1, 0, 2))
    .add 151 (.tr 124 [1, 0, 2]) 1 1,
    -- 1295: del tmp52
    .del 124,
    -- 1296: r2new.bbb += tmp60
    .add 151 (.cp 129) 1 1,
    -- 1297: r2new.bbb += np.transpose(tmp60, (1, 0, 2)) * -1
    .add 151 (.tr 129 [1, 0, 2]) (-1) 1,
    -- 1298: del tmp60
    .del 129,
    -- 1299: r2new.bbb += einsum(tmp61, (0, 1, 2, 3), r2.bbb, (3, 2, 4), (0, 1, 4)) * -2
    .add 151 (.ein [(127, [0, 1, 2, 3]), (23, [3, 2, 4])] [0, 1, 4]) (-2) 1,
    -- 1300: del tmp61
    .del 127,
    -- 1301: r2new.bbb += einsum(r2.bbb, (0, 1, 2), tmp39, (2, 3), (0, 1, 3)) * -2
    .add 151 (.ein [(23, [0, 1, 2]), (130, [2, 3])] [0, 1, 3]) (-2) 1,
    -- 1302: r2new.bbb += einsum(tmp33, (0,), t2.bbbb, (1, 2, 3, 0), (1, 2, 3)) * 4
    .add 151 (.ein [(125, [0]), (85, [1, 2, 3, 0])] [1, 2, 3]) 4 1,
    -- 1303: r2new.bbb += einsum(r1.b, (0,), tmp62, (1, 2, 0, 3), (2, 1, 3)) * 2
    .add 151 (.ein [(22, [0]), (126, [1, 2, 0, 3])] [2, 1, 3]) 2 1,
    -- 1304: del tmp62
    .del 126,
    -- 1305: r2new.bbb += einsum(tmp42, (0, 1), r1.b, (2,), (2, 0, 1))
    .add 151 (.ein [(128, [0, 1]), (22, [2])] [2, 0, 1]) 1 1,
    -- 1306: r2new.bbb += einsum(tmp42, (0, 1), r1.b, (2,), (0, 2, 1)) * -1
    .add 151 (.ein [(128, [0, 1]), (22, [2])] [0, 2, 1]) (-1) 1,
    -- 1307: r2new.bab = einsum(r2.bab, (0, 1, 2), tmp35, (3, 0, 4, 2), (3, 1, 4))
    .set 152 (.ein [(29, [0, 1, 2]), (138, [3, 0, 4, 2])] [3, 1, 4]) 1 1,
    -- 1308: del tmp35
    .del 138,
    -- 1309: r2new.bab += einsum(tmp36, (0, 1, 2, 3), r2.aaa, (4, 0, 2), (1, 4, 3)) * -2
    .add 152 (.ein [(133, [0, 1, 2, 3]), (31, [4, 0, 2])] [1, 4, 3]) (-2) 1,
    -- 1310: del tmp36
    .del 133,
    -- 1311: r2new.bab += einsum(tmp37, (0, 1, 2, 3), r2.bab, (4, 1, 3), (4, 0, 2))
    .add 152 (.ein [(134, [0, 1, 2, 3]), (29, [4, 1, 3])] [4, 0, 2]) 1 1,
    -- 1312: del tmp37
    .del 134,
    -- 1313: r2new.bab += einsum(r2.bab, (0, 1, 2), tmp38, (3, 1, 4, 0), (4, 3, 2))
    .add 152 (.ein [(29, [0, 1, 2]), (136, [3, 1, 4, 0])] [4, 3, 2]) 1 1,
    -- 1314: del tmp38
    .del 136,
    -- 1315: r2new.bab += einsum(r2.bab, (0, 1, 2), tmp39, (2, 3), (0, 1, 3)) * -1
    .add 152 (.ein [(29, [0, 1, 2]), (130, [2, 3])] [0, 1, 3]) (-1) 1,
    -- 1316: del tmp39
    .del 130,
    -- 1317: r2new.bab += einsum(tmp40, (0,), t2.abab, (1, 2, 0, 3), (2, 1, 3))
    .add 152 (.ein [(131, [0]), (86, [1, 2, 0, 3])] [2, 1, 3]) 1 1,
    -- 1318: del tmp40
    .del 131,
    -- 1319: r2new.bab += einsum(r1.a, (0,), tmp41, (0, 1, 2, 3), (2, 1, 3))
    .add 152 (.ein [(35, [0]), (132, [0, 1, 2, 3])] [2, 1, 3]) 1 1,
    -- 1320: del tmp41
    .del 132,
    -- 1321: r2new.bab += einsum(tmp1, (0, 1), r2.bab, (0, 2, 3), (1, 2, 3)) * -1
    .add 152 (.ein [(135, [0, 1]), (29, [0, 2, 3])] [1, 2, 3]) (-1) 1,
    -- 1322: r2new.bab += einsum(tmp0, (0, 1), r2.bab, (2, 0, 3), (2, 1, 3)) * -1
    .add 152 (.ein [(137, [0, 1]), (29, [2, 0, 3])] [2, 1, 3]) (-1) 1,
    -- 1323: r2new.bab += einsum(tmp42, (0, 1), r1.a, (2,), (0, 2, 1)) * -1
    .add 152 (.ein [(128, [0, 1]), (35, [2])] [0, 2, 1]) (-1) 1,
    -- 1324: del tmp42
    .del 128,
    -- 1325: r2new.aba = einsum(tmp27, (0, 1, 2, 3), r2.aba, (1, 4, 3), (0, 4, 2))
    .set 153 (.ein [(142, [0, 1, 2, 3]), (20, [1, 4, 3])] [0, 4, 2]) 1 1,
    -- 1326: del tmp27
    .del 142,
    -- 1327: r2new.aba += einsum(tmp28, (0, 1, 2, 3), r2.bbb, (4, 1, 3), (0, 4, 2)) * -2
    .add 153 (.ein [(141, [0, 1, 2, 3]), (23, [4, 1, 3])] [0, 4, 2]) (-2) 1,
    -- 1328: del tmp28
    .del 141,
    -- 1329: r2new.aba += einsum(tmp29, (0, 1, 2, 3), r2.aba, (4, 1, 3), (4, 0, 2))
    .add 153 (.ein [(145, [0, 1, 2, 3]), (20, [4, 1, 3])] [4, 0, 2]) 1 1,
    -- 1330: del tmp29
    .del 145,
    -- 1331: r2new.aba += einsum(r2.aba, (0, 1, 2), tmp30, (3, 0, 4, 1), (3, 4, 2))
    .add 153 (.ein [(20, [0, 1, 2]), (144, [3, 0, 4, 1])] [3, 4, 2]) 1 1,
    -- 1332: del tmp30
    .del 144,
    -- 1333: r2new.aba += einsum(r2.aba, (0, 1, 2), tmp21, (2, 3), (0, 1, 3)) * -1
    .add 153 (.ein [(20, [0, 1, 2]), (140, [2, 3])] [0, 1, 3]) (-1) 1,
    -- 1334: r2new.aba += einsum(tmp33, (0,), t2.abab, (1, 2, 3, 0), (1, 2, 3)) * 2
    .add 153 (.ein [(125, [0]), (86, [1, 2, 3, 0])] [1, 2, 3]) 2 1,
    -- 1335: del tmp33
    .del 125,
    -- 1336: r2new.aba += einsum(r1.b, (0,), tmp34, (1, 2, 0, 3), (1, 2, 3))
    .add 153 (.ein [(22, [0]), (139, [1, 2, 0, 3])] [1, 2, 3]) 1 1,
    -- 1337: del tmp34
    .del 139,
    -- 1338: r2new.aba += einsum(r2.aba, (0, 1, 2), tmp1, (1, 3), (0, 3, 2)) * -1
    .add 153 (.ein [(20, [0, 1, 2]), (135, [1, 3])] [0, 3, 2]) (-1) 1,
    -- 1339: r2new.aba += einsum(tmp0, (0, 1), r2.aba, (0, 2, 3), (1, 2, 3)) * -1
    .add 153 (.ein [(137, [0, 1]), (20, [0, 2, 3])] [1, 2, 3]) (-1) 1,
    -- 1340: r2new.aba += einsum(tmp26, (0, 1), r1.b, (2,), (0, 2, 1)) * -1
    .add 153 (.ein [(143, [0, 1]), (22, [2])] [0, 2, 1]) (-1) 1,
    -- 1341: r2new.aaa = np.copy(tmp9)
    .set 154 (.cp 147) 1 1,
    -- 1342: r2new.aaa += np.transpose(tmp9, (1, 0, 2)) * -1
    .add 154 (.tr 147 [1, 0, 2]) (-1) 1,
    -- 1343: del tmp9
    .del 147,
    -- 1344: r2new.aaa += tmp19 * -1
    .add 154 (.cp 150) (-1) 1,
    -- 1345: r2new.aaa += np.transpose(tmp19, (1, 0, 2))
    .add 154 (.tr 150 [1, 0, 2]) 1 1,
    -- 1346: del tmp19
    .del 150,
    -- 1347: r2new.aaa += einsum(r2.aaa, (0, 1, 2), tmp20, (3, 4, 1, 0), (3, 4, 2)) * -2
    .add 154 (.ein [(31, [0, 1, 2]), (146, [3, 4, 1, 0])] [3, 4, 2]) (-2) 1,
    -- 1348: del tmp20
    .del 146,
    -- 1349: r2new.aaa += einsum(tmp21, (0, 1), r2.aaa, (2, 3, 0), (2, 3, 1)) * -2
    .add 154 (.ein [(140, [0, 1]), (31, [2, 3, 0])] [2, 3, 1]) (-2) 1,
    -- 1350: del tmp21
    .del 140,
    -- 1351: r2new.aaa += einsum(tmp24, (0,), t2.aaaa, (1, 2, 3, 0), (1, 2, 3)) * 4
    .add 154 (.ein [(149, [0]), (87, [1, 2, 3, 0])] [1, 2, 3]) 4 1,
    -- 1352: del tmp24
    .del 149,
    -- 1353: r2new.aaa += einsum(r1.a, (0,), tmp25, (1, 2, 0, 3), (2, 1, 3)) * 2
    .add 154 (.ein [(35, [0]), (148, [1, 2, 0, 3])] [2, 1, 3]) 2 1,
    -- 1354: del tmp25
    .del 148,
    -- 1355: r2new.aaa += einsum(tmp26, (0, 1), r1.a, (2,), (2, 0, 1))
    .add 154 (.ein [(143, [0, 1]), (35, [2])] [2, 0, 1]) 1 1,
    -- 1356: r2new.aaa += einsum(tmp26, (0, 1), r1.a, (2,), (0, 2, 1)) * -1
    .add 154 (.ein [(143, [0, 1]), (35, [2])] [0, 2, 1]) (-1) 1,
    -- 1357: del tmp26
    .del 143,
    -- 1358: r1new.b = einsum(r2.aba, (0, 1, 2), f.aa.ov, (0, 2), (1,)) * -1
    .set 155 (.ein [(20, [0, 1, 2]), (72, [0, 2])] [1]) (-1) 1,
    -- 1359: r1new.b += einsum(r2.aba, (0, 1, 2), v.aabb.ovoo, (0, 2, 3, 1), (3,))
    .add 155 (.ein [(20, [0, 1, 2]), (66, [0, 2, 3, 1])] [3]) 1 1,
    -- 1360: r1new.b += einsum(r2.bbb, (0, 1, 2), f.bb.ov, (1, 2), (0,)) * 2
    .add 155 (.ein [(23, [0, 1, 2]), (41, [1, 2])] [0]) 2 1,
    -- 1361: r1new.b += einsum(v.bbbb.ooov, (0, 1, 2, 3), r2.bbb, (2, 1, 3), (0,)) * 2
    .add 155 (.ein [(1, [0, 1, 2, 3]), (23, [2, 1, 3])] [0]) 2 1,
    -- 1362: r1new.b += einsum(r1.b, (0,), tmp1, (0, 1), (1,)) * -1
    .add 155 (.ein [(22, [0]), (135, [0, 1])] [1]) (-1) 1,
    -- 1363: del tmp1
    .del 135,
    -- 1364: r1new.a = einsum(v.aabb.ooov, (0, 1, 2, 3), r2.bab, (2, 1, 3), (0,))
    .set 156 (.ein [(55, [0, 1, 2, 3]), (29, [2, 1, 3])] [0]) 1 1,
    -- 1365: r1new.a += einsum(f.bb.ov, (0, 1), r2.bab, (0, 2, 1), (2,)) * -1
    .add 156 (.ein [(41, [0, 1]), (29, [0, 2, 1])] [2]) (-1) 1,
    -- 1366: r1new.a += einsum(r2.aaa, (0, 1, 2), v.aaaa.ooov, (3, 1, 0, 2), (3,)) * 2
    .add 156 (.ein [(31, [0, 1, 2]), (13, [3, 1, 0, 2])] [3]) 2 1,
    -- 1367: r1new.a += einsum(f.aa.ov, (0, 1), r2.aaa, (2, 0, 1), (2,)) * 2
    .add 156 (.ein [(72, [0, 1]), (31, [2, 0, 1])] [2]) 2 1,
    -- 1368: r1new.a += einsum(tmp0, (0, 1), r1.a, (0,), (1,)) * -1
    .add 156 (.ein [(137, [0, 1]), (35, [0])] [1]) (-1) 1,
    -- 1369: del tmp0
    .del 137
  ]
  ret := [(chars! "r1new.b", 155), (chars! "r1new.a", 156), (chars! "r2new.bbb", 151), (chars! "r2new.bab", 152), (chars! "r2new.aba", 153), (chars! "r2new.aaa", 154)]

/-- codegen/UCCD.py:1836-1972 `hbar_lmatvec_ip_intermediates`. -/
def hbar_lmatvec_ip_intermediates : GenFun where
  args := [chars! "t2.bbbb", chars! "v.bbbb.ovov", chars! "t2.abab", chars! "v.aabb.ovov", chars! "t2.aaaa", chars! "v.aaaa.ovov", chars! "v.aabb.vvov", chars! "v.bbbb.ovvv", chars! "v.aabb.ovoo", chars! "v.aabb.ooov", chars! "v.bbbb.ooov", chars! "f.bb.ov", chars! "v.aabb.ovvv", chars! "v.aaaa.ovvv", chars! "v.aaaa.ooov", chars! "f.aa.ov"]
  body := [
    -- 1912: tmp178 = einsum(t2.bbbb, (0, 1, 2, 3), v.bbbb.ovov, (4, 2, 5, 3), (0, 1, 4, 5))
    .set 16 (.ein [(0, [0, 1, 2, 3]), (1, [4, 2, 5, 3])] [0, 1, 4, 5]) 1 1,
    -- 1913: tmp161 = einsum(t2.abab, (0, 1, 2, 3), v.aabb.ovov, (4, 2, 1, 5), (0, 4, 3, 5))
    .set 17 (.ein [(2, [0, 1, 2, 3]), (3, [4, 2, 1, 5])] [0, 4, 3, 5]) 1 1,
    -- 1914: tmp159 = einsum(v.aabb.ovov, (0, 1, 2, 3), t2.abab, (0, 2, 1, 4), (4, 3))
    .set 18 (.ein [(3, [0, 1, 2, 3]), (2, [0, 2, 1, 4])] [4, 3]) 1 1,
    -- 1915: tmp157 = einsum(v.bbbb.ovov, (0, 1, 2, 3), t2.bbbb, (0, 2, 4, 1), (4, 3)) * -1
    .set 19 (.ein [(1, [0, 1, 2, 3]), (0, [0, 2, 4, 1])] [4, 3]) (-1) 1,
    -- 1916: tmp148 = einsum(t2.abab, (0, 1, 2, 3), v.aabb.ovov, (0, 2, 4, 5), (1, 4, 3, 5))
    .set 20 (.ein [(2, [0, 1, 2, 3]), (3, [0, 2, 4, 5])] [1, 4, 3, 5]) 1 1,
    -- 1917: tmp146 = einsum(t2.aaaa, (0, 1, 2, 3), v.aabb.ovov, (1, 3, 4, 5), (0, 4, 2, 5))
    .set 21 (.ein [(4, [0, 1, 2, 3]), (3, [1, 3, 4, 5])] [0, 4, 2, 5]) 1 1,
    -- 1918: tmp144 = einsum(t2.bbbb, (0, 1, 2, 3), v.bbbb.ovov, (4, 5, 1, 3), (0, 4, 2, 5))
    .set 22 (.ein [(0, [0, 1, 2, 3]), (1, [4, 5, 1, 3])] [0, 4, 2, 5]) 1 1,
    -- 1919: tmp142 = einsum(v.bbbb.ovov, (0, 1, 2, 3), t2.abab, (4, 2, 5, 3), (4, 0, 5, 1))
    .set 23 (.ein [(1, [0, 1, 2, 3]), (2, [4, 2, 5, 3])] [4, 0, 5, 1]) 1 1,
    -- 1920: tmp140 = einsum(t2.bbbb, (0, 1, 2, 3), v.bbbb.ovov, (4, 3, 1, 5), (0, 4, 2, 5))
    .set 24 (.ein [(0, [0, 1, 2, 3]), (1, [4, 3, 1, 5])] [0, 4, 2, 5]) 1 1,
    -- 1921: tmp138 = einsum(v.bbbb.ovov, (0, 1, 2, 3), t2.abab, (4, 2, 5, 1), (4, 0, 5, 3))
    .set 25 (.ein [(1, [0, 1, 2, 3]), (2, [4, 2, 5, 1])] [4, 0, 5, 3]) 1 1,
    -- 1922: tmp136 = einsum(t2.abab, (0, 1, 2, 3), v.aabb.ovov, (0, 4, 5, 3), (1, 5, 2, 4))
    .set 26 (.ein [(2, [0, 1, 2, 3]), (3, [0, 4, 5, 3])] [1, 5, 2, 4]) 1 1,
    -- 1923: tmp132 = einsum(t2.abab, (0, 1, 2, 3), v.aabb.ovov, (4, 2, 5, 3), (0, 4, 1, 5))
    .set 27 (.ein [(2, [0, 1, 2, 3]), (3, [4, 2, 5, 3])] [0, 4, 1, 5]) 1 1,
    -- 1924: tmp115 = einsum(t2.abab, (0, 1, 2, 3), v.aabb.ovov, (0, 4, 1, 3), (2, 4))
    .set 28 (.ein [(2, [0, 1, 2, 3]), (3, [0, 4, 1, 3])] [2, 4]) 1 1,
    -- 1925: tmp113 = einsum(v.aaaa.ovov, (0, 1, 2, 3), t2.aaaa, (0, 2, 4, 3), (4, 1))
    .set 29 (.ein [(5, [0, 1, 2, 3]), (4, [0, 2, 4, 3])] [4, 1]) 1 1,
    -- 1926: tmp110 = einsum(v.aaaa.ovov, (0, 1, 2, 3), t2.aaaa, (4, 5, 3, 1), (4, 5, 0, 2)) * -1
    .set 30 (.ein [(5, [0, 1, 2, 3]), (4, [4, 5, 3, 1])] [4, 5, 0, 2]) (-1) 1,
    -- 1927: tmp99 = einsum(v.aabb.ovov, (0, 1, 2, 3), t2.bbbb, (4, 2, 5, 3), (0, 4, 1, 5))
    .set 31 (.ein [(3, [0, 1, 2, 3]), (0, [4, 2, 5, 3])] [0, 4, 1, 5]) 1 1,
    -- 1928: tmp97 = einsum(t2.abab, (0, 1, 2, 3), v.aabb.ovov, (4, 5, 1, 3), (0, 4, 2, 5))
    .set 32 (.ein [(2, [0, 1, 2, 3]), (3, [4, 5, 1, 3])] [0, 4, 2, 5]) 1 1,
    -- 1929: tmp95 = einsum(t2.abab, (0, 1, 2, 3), v.aaaa.ovov, (4, 5, 0, 2), (4, 1, 5, 3))
    .set 33 (.ein [(2, [0, 1, 2, 3]), (5, [4, 5, 0, 2])] [4, 1, 5, 3]) 1 1,
    -- 1930: tmp93 = einsum(v.aaaa.ovov, (0, 1, 2, 3), t2.aaaa, (4, 2, 5, 3), (4, 0, 5, 1))
    .set 34 (.ein [(5, [0, 1, 2, 3]), (4, [4, 2, 5, 3])] [4, 0, 5, 1]) 1 1,
    -- 1931: tmp91 = einsum(t2.abab, (0, 1, 2, 3), v.aaaa.ovov, (4, 2, 0, 5), (4, 1, 5, 3))
    .set 35 (.ein [(2, [0, 1, 2, 3]), (5, [4, 2, 0, 5])] [4, 1, 5, 3]) 1 1,
    -- 1932: tmp89 = einsum(v.aaaa.ovov, (0, 1, 2, 3), t2.aaaa, (4, 2, 5, 1), (4, 0, 5, 3))
    .set 36 (.ein [(5, [0, 1, 2, 3]), (4, [4, 2, 5, 1])] [4, 0, 5, 3]) 1 1,
    -- 1933: tmp84 = einsum(v.aabb.vvov, (0, 1, 2, 3), t2.abab, (4, 5, 1, 3), (4, 5, 2, 0))
    .set 37 (.ein [(6, [0, 1, 2, 3]), (2, [4, 5, 1, 3])] [4, 5, 2, 0]) 1 1,
    -- 1934: tmp82 = einsum(t2.bbbb, (0, 1, 2, 3), v.bbbb.ovvv, (4, 3, 5, 2), (0, 1, 4, 5)) * -1
    .set 38 (.ein [(0, [0, 1, 2, 3]), (7, [4, 3, 5, 2])] [0, 1, 4, 5]) (-1) 1,
    -- 1935: tmp76 = einsum(t2.abab, (0, 1, 2, 3), v.aabb.ovoo, (0, 2, 4, 5), (1, 4, 5, 3))
    .set 39 (.ein [(2, [0, 1, 2, 3]), (8, [0, 2, 4, 5])] [1, 4, 5, 3]) 1 1,
    -- 1936: tmp74 = einsum(v.aabb.ovoo, (0, 1, 2, 3), t2.aaaa, (4, 0, 5, 1), (4, 2, 3, 5))
    .set 40 (.ein [(8, [0, 1, 2, 3]), (4, [4, 0, 5, 1])] [4, 2, 3, 5]) 1 1,
    -- 1937: tmp73 = einsum(v.aabb.ooov, (0, 1, 2, 3), t2.abab, (1, 4, 5, 3), (0, 4, 2, 5))
    .set 41 (.ein [(9, [0, 1, 2, 3]), (2, [1, 4, 5, 3])] [0, 4, 2, 5]) 1 1,
    -- 1938: tmp71 = einsum(t2.bbbb, (0, 1, 2, 3), v.bbbb.ooov, (4, 5, 1, 3), (0, 4, 5, 2))
    .set 42 (.ein [(0, [0, 1, 2, 3]), (10, [4, 5, 1, 3])] [0, 4, 5, 2]) 1 1,
    -- 1939: tmp70 = einsum(v.bbbb.ooov, (0, 1, 2, 3), t2.abab, (4, 2, 5, 3), (4, 0, 1, 5))
    .set 43 (.ein [(10, [0, 1, 2, 3]), (2, [4, 2, 5, 3])] [4, 0, 1, 5]) 1 1,
    -- 1940: tmp68 = einsum(v.bbbb.ooov, (0, 1, 2, 3), t2.bbbb, (4, 1, 5, 3), (4, 0, 2, 5))
    .set 44 (.ein [(10, [0, 1, 2, 3]), (0, [4, 1, 5, 3])] [4, 0, 2, 5]) 1 1,
    -- 1941: tmp67 = einsum(t2.abab, (0, 1, 2, 3), v.bbbb.ooov, (4, 1, 5, 3), (0, 4, 5, 2))
    .set 45 (.ein [(2, [0, 1, 2, 3]), (10, [4, 1, 5, 3])] [0, 4, 5, 2]) 1 1,
    -- 1942: tmp61 = einsum(t2.abab, (0, 1, 2, 3), v.aabb.ovov, (0, 2, 4, 3), (1, 4))
    .set 46 (.ein [(2, [0, 1, 2, 3]), (3, [0, 2, 4, 3])] [1, 4]) 1 1,
    -- 1943: tmp59 = einsum(t2.bbbb, (0, 1, 2, 3), v.bbbb.ovov, (4, 3, 1, 2), (0, 4)) * -1
    .set 47 (.ein [(0, [0, 1, 2, 3]), (1, [4, 3, 1, 2])] [0, 4]) (-1) 1,
    -- 1944: tmp55 = einsum(t2.bbbb, (0, 1, 2, 3), f.bb.ov, (4, 3), (4, 0, 1, 2))
    .set 48 (.ein [(0, [0, 1, 2, 3]), (11, [4, 3])] [4, 0, 1, 2]) 1 1,
    -- 1945: tmp53 = einsum(t2.abab, (0, 1, 2, 3), f.bb.ov, (4, 3), (0, 4, 1, 2))
    .set 49 (.ein [(2, [0, 1, 2, 3]), (11, [4, 3])] [0, 4, 1, 2]) 1 1,
    -- 1946: tmp47 = einsum(v.aabb.ovvv, (0, 1, 2, 3), t2.abab, (4, 5, 1, 3), (4, 0, 5, 2))
    .set 50 (.ein [(12, [0, 1, 2, 3]), (2, [4, 5, 1, 3])] [4, 0, 5, 2]) 1 1,
    -- 1947: tmp45 = einsum(v.aaaa.ovvv, (0, 1, 2, 3), t2.aaaa, (4, 5, 3, 1), (4, 5, 0, 2)) * -1
    .set 51 (.ein [(13, [0, 1, 2, 3]), (4, [4, 5, 3, 1])] [4, 5, 0, 2]) (-1) 1,
    -- 1948: tmp43 = einsum(v.aabb.vvov, (0, 1, 2, 3), t2.abab, (4, 2, 1, 3), (4, 0))
    .set 52 (.ein [(6, [0, 1, 2, 3]), (2, [4, 2, 1, 3])] [4, 0]) 1 1,
    -- 1949: tmp41 = einsum(v.aabb.ovvv, (0, 1, 2, 3), t2.abab, (0, 4, 1, 3), (4, 2))
    .set 53 (.ein [(12, [0, 1, 2, 3]), (2, [0, 4, 1, 3])] [4, 2]) 1 1,
    -- 1950: tmp39 = einsum(t2.bbbb, (0, 1, 2, 3), v.bbbb.ovvv, (1, 3, 4, 2), (0, 4)) * -1
    .set 54 (.ein [(0, [0, 1, 2, 3]), (7, [1, 3, 4, 2])] [0, 4]) (-1) 1,
    -- 1951: tmp37 = einsum(v.aaaa.ovvv, (0, 1, 2, 3), t2.aaaa, (4, 0, 3, 1), (4, 2)) * -1
    .set 55 (.ein [(13, [0, 1, 2, 3]), (4, [4, 0, 3, 1])] [4, 2]) (-1) 1,
    -- 1952: tmp35 = einsum(v.aabb.ooov, (0, 1, 2, 3), t2.bbbb, (4, 2, 5, 3), (0, 1, 4, 5))
    .set 56 (.ein [(9, [0, 1, 2, 3]), (0, [4, 2, 5, 3])] [0, 1, 4, 5]) 1 1,
    -- 1953: tmp33 = einsum(v.aabb.ooov, (0, 1, 2, 3), t2.abab, (4, 2, 5, 3), (4, 0, 1, 5))
    .set 57 (.ein [(9, [0, 1, 2, 3]), (2, [4, 2, 5, 3])] [4, 0, 1, 5]) 1 1,
    -- 1954: tmp32 = einsum(v.aabb.ovoo, (0, 1, 2, 3), t2.abab, (4, 3, 1, 5), (4, 0, 2, 5))
    .set 58 (.ein [(8, [0, 1, 2, 3]), (2, [4, 3, 1, 5])] [4, 0, 2, 5]) 1 1,
    -- 1955: tmp31 = einsum(v.aaaa.ooov, (0, 1, 2, 3), t2.abab, (2, 4, 3, 5), (0, 1, 4, 5))
    .set 59 (.ein [(14, [0, 1, 2, 3]), (2, [2, 4, 3, 5])] [0, 1, 4, 5]) 1 1,
    -- 1956: tmp29 = einsum(t2.aaaa, (0, 1, 2, 3), v.aaaa.ooov, (4, 5, 1, 3), (0, 4, 5, 2))
    .set 60 (.ein [(4, [0, 1, 2, 3]), (14, [4, 5, 1, 3])] [0, 4, 5, 2]) 1 1,
    -- 1957: tmp28 = einsum(v.aaaa.ooov, (0, 1, 2, 3), t2.abab, (1, 4, 3, 5), (0, 2, 4, 5))
    .set 61 (.ein [(14, [0, 1, 2, 3]), (2, [1, 4, 3, 5])] [0, 2, 4, 5]) 1 1,
    -- 1958: tmp26 = einsum(t2.aaaa, (0, 1, 2, 3), v.aaaa.ooov, (4, 1, 5, 3), (0, 4, 5, 2))
    .set 62 (.ein [(4, [0, 1, 2, 3]), (14, [4, 1, 5, 3])] [0, 4, 5, 2]) 1 1,
    -- 1959: tmp24 = einsum(v.aabb.ooov, (0, 1, 2, 3), t2.abab, (1, 2, 4, 3), (0, 4))
    .set 63 (.ein [(9, [0, 1, 2, 3]), (2, [1, 2, 4, 3])] [0, 4]) 1 1,
    -- 1960: tmp22 = einsum(t2.abab, (0, 1, 2, 3), v.aabb.ovoo, (0, 2, 4, 1), (4, 3))
    .set 64 (.ein [(2, [0, 1, 2, 3]), (8, [0, 2, 4, 1])] [4, 3]) 1 1,
    -- 1961: tmp20 = einsum(t2.bbbb, (0, 1, 2, 3), v.bbbb.ooov, (4, 1, 0, 3), (4, 2)) * -1
    .set 65 (.ein [(0, [0, 1, 2, 3]), (10, [4, 1, 0, 3])] [4, 2]) (-1) 1,
    -- 1962: tmp18 = einsum(t2.aaaa, (0, 1, 2, 3), v.aaaa.ooov, (4, 0, 1, 3), (4, 2))
    .set 66 (.ein [(4, [0, 1, 2, 3]), (14, [4, 0, 1, 3])] [4, 2]) 1 1,
    -- 1963: tmp16 = einsum(t2.abab, (0, 1, 2, 3), v.aabb.ovov, (4, 2, 1, 3), (0, 4))
    .set 67 (.ein [(2, [0, 1, 2, 3]), (3, [4, 2, 1, 3])] [0, 4]) 1 1,
    -- 1964: tmp14 = einsum(t2.aaaa, (0, 1, 2, 3), v.aaaa.ovov, (4, 2, 1, 3), (0, 4))
    .set 68 (.ein [(4, [0, 1, 2, 3]), (5, [4, 2, 1, 3])] [0, 4]) 1 1,
    -- 1965: tmp10 = einsum(f.aa.ov, (0, 1), t2.abab, (2, 3, 1, 4), (0, 2, 3, 4))
    .set 69 (.ein [(15, [0, 1]), (2, [2, 3, 1, 4])] [0, 2, 3, 4]) 1 1,
    -- 1966: tmp8 = einsum(t2.aaaa, (0, 1, 2, 3), f.aa.ov, (4, 3), (4, 0, 1, 2))
    .set 70 (.ein [(4, [0, 1, 2, 3]), (15, [4, 3])] [4, 0, 1, 2]) 1 1,
    -- 1967: tmp6 = einsum(f.bb.ov, (0, 1), t2.bbbb, (2, 0, 3, 1), (2, 3))
    .set 71 (.ein [(11, [0, 1]), (0, [2, 0, 3, 1])] [2, 3]) 1 1,
    -- 1968: tmp4 = einsum(t2.abab, (0, 1, 2, 3), f.bb.ov, (1, 3), (0, 2))
    .set 72 (.ein [(2, [0, 1, 2, 3]), (11, [1, 3])] [0, 2]) 1 1,
    -- 1969: tmp3 = einsum(t2.abab, (0, 1, 2, 3), f.aa.ov, (0, 2), (1, 3))
    .set 73 (.ein [(2, [0, 1, 2, 3]), (15, [0, 2])] [1, 3]) 1 1,
    -- 1970: tmp1 = einsum(f.aa.ov, (0, 1), t2.aaaa, (2, 0, 3, 1), (2, 3))
    .set 74 (.ein [(15, [0, 1]), (4, [2, 0, 3, 1])] [2, 3]) 1 1
  ]
  ret := [(chars! "tmp1", 74), (chars! "tmp10", 69), (chars! "tmp110", 30), (chars! "tmp113", 29), (chars! "tmp115", 28), (chars! "tmp132", 27), (chars! "tmp136", 26), (chars! "tmp138", 25), (chars! "tmp14", 68), (chars! "tmp140", 24), (chars! "tmp142", 23), (chars! "tmp144", 22), (chars! "tmp146", 21), (chars! "tmp148", 20), (chars! "tmp157", 19), (chars! "tmp159", 18), (chars! "tmp16", 67), (chars! "tmp161", 17), (chars! "tmp178", 16), (chars! "tmp18", 66), (chars! "tmp20", 65), (chars! "tmp22", 64), (chars! "tmp24", 63), (chars! "tmp26", 62), (chars! "tmp28", 61), (chars! "tmp29", 60), (chars! "tmp3", 73), (chars! "tmp31", 59), (chars! "tmp32", 58), (chars! "tmp33", 57), (chars! "tmp35", 56), (chars! "tmp37", 55), (chars! "tmp39", 54), (chars! "tmp4", 72), (chars! "tmp41", 53), (chars! "tmp43", 52), (chars! "tmp45", 51), (chars! "tmp47", 50), (chars! "tmp53", 49), (chars! "tmp55", 48), (chars! "tmp59", 47), (chars! "tmp6", 71), (chars! "tmp61", 46), (chars! "tmp67", 45), (chars! "tmp68", 44), (chars! "tmp70", 43), (chars! "tmp71", 42), (chars! "tmp73", 41), (chars! "tmp74", 40), (chars! "tmp76", 39), (chars! "tmp8", 70), (chars! "tmp82", 38), (chars! "tmp84", 37), (chars! "tmp89", 36), (chars! "tmp91", 35), (chars! "tmp93", 34), (chars! "tmp95", 33), (chars! "tmp97", 32), (chars! "tmp99", 31)]

/-- codegen/UCCD.py:1974-2329 `hbar_lmatvec_ip`. -/
def hbar_lmatvec_ip : GenFun where
  args := [chars! "r2.aba", chars! "t2.abab", chars! "r2.bbb", chars! "t2.bbbb", chars! "ints.tmp142", chars! "ints.tmp146", chars! "ints.tmp59", chars! "ints.tmp61", chars! "ints.tmp144", chars! "ints.tmp148", chars! "r2.bab", chars! "r2.aaa", chars! "t2.aaaa", chars! "ints.tmp93", chars! "ints.tmp97", chars! "ints.tmp95", chars! "ints.tmp99", chars! "ints.tmp14", chars! "ints.tmp16", chars! "ints.tmp140", chars! "f.bb.oo", chars! "v.bbbb.ovov", chars! "r1.b", chars! "v.bbbb.ooov", chars! "ints.tmp138", chars! "v.aabb.ovov", chars! "v.bbbb.oovv", chars! "f.aa.oo", chars! "ints.tmp89", chars! "v.aaaa.ovov", chars! "ints.tmp91", chars! "v.aaaa.ooov", chars! "r1.a", chars! "v.aaaa.oovv", chars! "f.bb.ov", chars! "ints.tmp157", chars! "ints.tmp159", chars! "f.bb.vv", chars! "ints.tmp178", chars! "v.bbbb.oooo", chars! "ints.tmp161", chars! "v.aabb.oovv", chars! "ints.tmp132", chars! "v.aabb.oooo", chars! "ints.tmp136", chars! "v.aabb.vvoo", chars! "ints.tmp113", chars! "ints.tmp115", chars! "f.aa.vv", chars! "f.aa.ov", chars! "ints.tmp110", chars! "v.aaaa.oooo", chars! "ints.tmp53", chars! "ints.tmp70", chars! "ints.tmp74", chars! "ints.tmp84", chars! "v.aabb.ovoo", chars! "ints.tmp67", chars! "ints.tmp73", chars! "ints.tmp55", chars! "ints.tmp71", chars! "ints.tmp76", chars! "ints.tmp68", chars! "ints.tmp82", chars! "ints.tmp1", chars! "ints.tmp43", chars! "ints.tmp4", chars! "ints.tmp18", chars! "ints.tmp24", chars! "ints.tmp37", chars! "ints.tmp3", chars! "ints.tmp41", chars! "ints.tmp6", chars! "ints.tmp20", chars! "ints.tmp22", chars! "ints.tmp39", chars! "ints.tmp26", chars! "ints.tmp45", chars! "ints.tmp29", chars! "ints.tmp33", chars! "ints.tmp8", chars! "ints.tmp10", chars! "ints.tmp31", chars! "ints.tmp35", chars! "ints.tmp47", chars! "v.aabb.ooov", chars! "ints.tmp28", chars! "ints.tmp32"]
  body := [
    -- 2002: tmp35 = einsum(r2.aba, (0, 1, 2), t2.abab, (0, 1, 2, 3), (3,))
    .set 88 (.ein [(0, [0, 1, 2]), (1, [0, 1, 2, 3])] [3]) 1 1,
    -- 2003: tmp36 = einsum(r2.bbb, (0, 1, 2), t2.bbbb, (0, 1, 3, 2), (3,))
    .set 89 (.ein [(2, [0, 1, 2]), (3, [0, 1, 3, 2])] [3]) 1 1,
    -- 2004: tmp57 = np.copy(ints.tmp142)
    .set 90 (.cp 4) 1 1,
    -- 2005: tmp57 += ints.tmp146 * 2
    .add 90 (.cp 5) 2 1,
    -- 2006: tmp51 = np.copy(ints.tmp59) * 2
    .set 91 (.cp 6) 2 1,
    -- 2007: tmp51 += ints.tmp61
    .add 91 (.cp 7) 1 1,
    -- 2008: tmp48 = np.copy(ints.tmp144)
    .set 92 (.cp 8) 1 1,
    -- 2009: tmp48 += ints.tmp148 * 0.5
    .add 92 (.cp 9) 1 2,
    -- 2010: tmp37 = np.copy(tmp35) * -0.5
    .set 93 (.cp 88) (-1) 2,
    -- 2011: del tmp35
    .del 88,
    -- 2012: tmp37 += tmp36
    .add 93 (.cp 89) 1 1,
    -- 2013: del tmp36
    .del 89,
    -- 2014: tmp26 = einsum(t2.abab, (0, 1, 2, 3), r2.bab, (1, 0, 3), (2,)) * -1
    .set 94 (.ein [(1, [0, 1, 2, 3]), (10, [1, 0, 3])] [2]) (-1) 1,
    -- 2015: tmp12 = einsum(r2.aaa, (0, 1, 2), t2.aaaa, (0, 1, 3, 2), (3,))
    .set 95 (.ein [(11, [0, 1, 2]), (12, [0, 1, 3, 2])] [3]) 1 1,
    -- 2016: tmp14 = np.copy(ints.tmp93)
    .set 96 (.cp 13) 1 1,
    -- 2017: tmp14 += ints.tmp97 * 0.5
    .add 96 (.cp 14) 1 2,
    -- 2018: tmp16 = np.copy(ints.tmp95)
    .set 97 (.cp 15) 1 1,
    -- 2019: tmp16 += ints.tmp99 * 2
    .add 97 (.cp 16) 2 1,
    -- 2020: tmp18 = np.copy(ints.tmp14) * 2
    .set 98 (.cp 17) 2 1,
    -- 2021: tmp18 += ints.tmp16
    .add 98 (.cp 18) 1 1,
    -- 2022: tmp55 = einsum(ints.tmp140, (0, 1, 2, 3), r2.bbb, (4, 0, 2), (1, 4, 3))
    .set 99 (.ein [(19, [0, 1, 2, 3]), (2, [4, 0, 2])] [1, 4, 3]) 1 1,
    -- 2023: tmp54 = einsum(r2.bbb, (0, 1, 2), f.bb.oo, (3, 1), (3, 0, 2))
    .set 100 (.ein [(2, [0, 1, 2]), (20, [3, 1])] [3, 0, 2]) 1 1,
    -- 2024: tmp56 = einsum(r2.bbb, (0, 1, 2), v.bbbb.ovov, (3, 4, 1, 2), (0, 3, 4))
    .set 101 (.ein [(2, [0, 1, 2]), (21, [3, 4, 1, 2])] [0, 3, 4]) 1 1,
    -- 2025: tmp58 = einsum(r2.aba, (0, 1, 2), tmp57, (0, 3, 2, 4), (1, 3, 4))
    .set 102 (.ein [(0, [0, 1, 2]), (90, [0, 3, 2, 4])] [1, 3, 4]) 1 1,
    -- 2026: del tmp57
    .del 90,
    -- 2027: tmp44 = einsum(r1.b, (0,), v.bbbb.ooov, (1, 0, 2, 3), (1, 2, 3))
    .set 103 (.ein [(22, [0]), (23, [1, 0, 2, 3])] [1, 2, 3]) 1 1,
    -- 2028: tmp52 = einsum(tmp51, (0, 1), r2.bbb, (2, 0, 3), (2, 1, 3)) * -2
    .set 104 (.ein [(91, [0, 1]), (2, [2, 0, 3])] [2, 1, 3]) (-2) 1,
    -- 2029: del tmp51
    .del 91,
    -- 2030: tmp45 = einsum(r2.aba, (0, 1, 2), ints.tmp138, (0, 3, 2, 4), (3, 1, 4))
    .set 105 (.ein [(0, [0, 1, 2]), (24, [0, 3, 2, 4])] [3, 1, 4]) 1 1,
    -- 2031: tmp49 = einsum(r2.bbb, (0, 1, 2), tmp48, (1, 3, 2, 4), (0, 3, 4)) * -4
    .set 106 (.ein [(2, [0, 1, 2]), (92, [1, 3, 2, 4])] [0, 3, 4]) (-4) 1,
    -- 2032: del tmp48
    .del 92,
    -- 2033: tmp46 = einsum(r2.aba, (0, 1, 2), v.aabb.ovov, (0, 2, 3, 4), (1, 3, 4))
    .set 107 (.ein [(0, [0, 1, 2]), (25, [0, 2, 3, 4])] [1, 3, 4]) 1 1,
    -- 2034: tmp47 = einsum(r2.bbb, (0, 1, 2), v.bbbb.oovv, (3, 1, 4, 2), (0, 3, 4))
    .set 108 (.ein [(2, [0, 1, 2]), (26, [3, 1, 4, 2])] [0, 3, 4]) 1 1,
    -- 2035: tmp50 = einsum(tmp37, (0,), v.bbbb.ovov, (1, 0, 2, 3), (1, 2, 3)) * 2
    .set 109 (.ein [(93, [0]), (21, [1, 0, 2, 3])] [1, 2, 3]) 2 1,
    -- 2036: tmp21 = einsum(f.aa.oo, (0, 1), r2.aaa, (2, 1, 3), (0, 2, 3))
    .set 110 (.ein [(27, [0, 1]), (11, [2, 1, 3])] [0, 2, 3]) 1 1,
    -- 2037: tmp22 = einsum(r2.aaa, (0, 1, 2), ints.tmp89, (1, 3, 2, 4), (3, 0, 4))
    .set 111 (.ein [(11, [0, 1, 2]), (28, [1, 3, 2, 4])] [3, 0, 4]) 1 1,
    -- 2038: tmp27 = einsum(tmp26, (0,), v.aaaa.ovov, (1, 2, 3, 0), (1, 3, 2))
    .set 112 (.ein [(94, [0]), (29, [1, 2, 3, 0])] [1, 3, 2]) 1 1,
    -- 2039: tmp25 = einsum(v.aabb.ovov, (0, 1, 2, 3), r2.bab, (2, 4, 3), (4, 0, 1)) * -1
    .set 113 (.ein [(25, [0, 1, 2, 3]), (10, [2, 4, 3])] [4, 0, 1]) (-1) 1,
    -- 2040: tmp24 = einsum(ints.tmp91, (0, 1, 2, 3), r2.bab, (1, 4, 3), (0, 4, 2)) * -1
    .set 114 (.ein [(30, [0, 1, 2, 3]), (10, [1, 4, 3])] [0, 4, 2]) (-1) 1,
    -- 2041: tmp23 = einsum(v.aaaa.ovov, (0, 1, 2, 3), r2.aaa, (4, 2, 3), (4, 0, 1))
    .set 115 (.ein [(29, [0, 1, 2, 3]), (11, [4, 2, 3])] [4, 0, 1]) 1 1,
    -- 2042: tmp13 = einsum(v.aaaa.ovov, (0, 1, 2, 3), tmp12, (3,), (0, 2, 1)) * -1
    .set 116 (.ein [(29, [0, 1, 2, 3]), (95, [3])] [0, 2, 1]) (-1) 1,
    -- 2043: tmp10 = einsum(v.aaaa.ooov, (0, 1, 2, 3), r1.a, (1,), (0, 2, 3))
    .set 117 (.ein [(31, [0, 1, 2, 3]), (32, [1])] [0, 2, 3]) 1 1,
    -- 2044: tmp15 = einsum(r2.aaa, (0, 1, 2), tmp14, (1, 3, 2, 4), (0, 3, 4)) * -4
    .set 118 (.ein [(11, [0, 1, 2]), (96, [1, 3, 2, 4])] [0, 3, 4]) (-4) 1,
    -- 2045: del tmp14
    .del 96,
    -- 2046: tmp17 = einsum(tmp16, (0, 1, 2, 3), r2.bab, (1, 4, 3), (4, 0, 2)) * -1
    .set 119 (.ein [(97, [0, 1, 2, 3]), (10, [1, 4, 3])] [4, 0, 2]) (-1) 1,
    -- 2047: del tmp16
    .del 97,
    -- 2048: tmp11 = einsum(v.aaaa.oovv, (0, 1, 2, 3), r2.aaa, (4, 1, 3), (4, 0, 2))
    .set 120 (.ein [(33, [0, 1, 2, 3]), (11, [4, 1, 3])] [4, 0, 2]) 1 1,
    -- 2049: tmp19 = einsum(tmp18, (0, 1), r2.aaa, (2, 0, 3), (2, 1, 3)) * -2
    .set 121 (.ein [(98, [0, 1]), (11, [2, 0, 3])] [2, 1, 3]) (-2) 1,
    -- 2050: del tmp18
    .del 98,
    -- 2051: tmp59 = np.copy(tmp54) * 2
    .set 122 (.cp 100) 2 1,
    -- 2052: del tmp54
    .del 100,
    -- 2053: tmp59 += tmp55 * 4
    .add 122 (.cp 99) 4 1,
    -- 2054: del tmp55
    .del 99,
    -- 2055: tmp59 += tmp56 * 2
    .add 122 (.cp 101) 2 1,
    -- 2056: del tmp56
    .del 101,
    -- 2057: tmp59 += np.transpose(tmp58, (1, 0, 2))
    .add 122 (.tr 102 [1, 0, 2]) 1 1,
    -- 2058: del tmp58
    .del 102,
    -- 2059: tmp53 = einsum(r1.b, (0,), f.bb.ov, (1, 2), (1, 0, 2))
    .set 123 (.ein [(22, [0]), (34, [1, 2])] [1, 0, 2]) 1 1,
    -- 2060: tmp53 += tmp44
    .add 123 (.cp 103) 1 1,
    -- 2061: del tmp44
    .del 103,
    -- 2062: tmp53 += tmp45
    .add 123 (.cp 105) 1 1,
    -- 2063: del tmp45
    .del 105,
    -- 2064: tmp53 += tmp46
    .add 123 (.cp 107) 1 1,
    -- 2065: del tmp46
    .del 107,
    -- 2066: tmp53 += tmp47 * 2
    .add 123 (.cp 108) 2 1,
    -- 2067: del tmp47
    .del 108,
    -- 2068: tmp53 += np.transpose(tmp49, (1, 0, 2)) * -1
    .add 123 (.tr 106 [1, 0, 2]) (-1) 1,
    -- 2069: del tmp49
    .del 106,
    -- 2070: tmp53 += np.transpose(tmp50, (1, 0, 2)) * -1
    .add 123 (.tr 109 [1, 0, 2]) (-1) 1,
    -- 2071: del tmp50
    .del 109,
    -- 2072: tmp53 += np.transpose(tmp52, (1, 0, 2))
    .add 123 (.tr 104 [1, 0, 2]) 1 1,
    -- 2073: del tmp52
    .del 104,
    -- 2074: tmp42 = np.copy(ints.tmp157) * 2
    .set 124 (.cp 35) 2 1,
    -- 2075: del ints.tmp157
    .del 35,
    -- 2076: tmp42 += ints.tmp159
    .add 124 (.cp 36) 1 1,
    -- 2077: del ints.tmp159
    .del 36,
    -- 2078: tmp42 += f.bb.vv * -1
    .add 124 (.cp 37) (-1) 1,
    -- 2079: tmp60 = np.copy(ints.tmp178)
    .set 125 (.cp 38) 1 1,
    -- 2080: del ints.tmp178
    .del 38,
    -- 2081: tmp60 += np.transpose(v.bbbb.oooo, (0, 2, 1, 3))
    .add 125 (.tr 39 [0, 2, 1, 3]) 1 1,
    -- 2082: tmp40 = np.copy(ints.tmp161)
    .set 126 (.cp 40) 1 1,
    -- 2083: del ints.tmp161
    .del 40,
    -- 2084: tmp40 += v.aabb.oovv * -1
    .add 126 (.cp 41) (-1) 1,
    -- 2085: tmp41 = np.copy(ints.tmp132)
    .set 127 (.cp 42) 1 1,
    -- 2086: tmp41 += v.aabb.oooo
    .add 127 (.cp 43) 1 1,
    -- 2087: tmp4 = np.copy(f.aa.oo)
    .set 128 (.cp 27) 1 1,
    -- 2088: tmp4 += ints.tmp14 * 2
    .add 128 (.cp 17) 2 1,
    -- 2089: del ints.tmp14
    .del 17,
    -- 2090: tmp4 += ints.tmp16
    .add 128 (.cp 18) 1 1,
    -- 2091: del ints.tmp16
    .del 18,
    -- 2092: tmp38 = np.copy(ints.tmp144) * 2
    .set 129 (.cp 8) 2 1,
    -- 2093: del ints.tmp144
    .del 8,
    -- 2094: tmp38 += ints.tmp148
    .add 129 (.cp 9) 1 1,
    -- 2095: del ints.tmp148
    .del 9,
    -- 2096: tmp38 += np.transpose(v.bbbb.ovov, (0, 2, 1, 3))
    .add 129 (.tr 21 [0, 2, 1, 3]) 1 1,
    -- 2097: tmp38 += ints.tmp140 * -2
    .add 129 (.cp 19) (-2) 1,
    -- 2098: del ints.tmp140
    .del 19,
    -- 2099: tmp38 += v.bbbb.oovv * -1
    .add 129 (.cp 26) (-1) 1,
    -- 2100: tmp43 = np.copy(tmp12) * 2
    .set 130 (.cp 95) 2 1,
    -- 2101: del tmp12
    .del 95,
    -- 2102: tmp43 += tmp26
    .add 130 (.cp 94) 1 1,
    -- 2103: del tmp26
    .del 94,
    -- 2104: tmp9 = np.copy(f.bb.oo)
    .set 131 (.cp 20) 1 1,
    -- 2105: tmp9 += ints.tmp59 * 2
    .add 131 (.cp 6) 2 1,
    -- 2106: del ints.tmp59
    .del 6,
    -- 2107: tmp9 += ints.tmp61
    .add 131 (.cp 7) 1 1,
    -- 2108: del ints.tmp61
    .del 7,
    -- 2109: tmp39 = np.copy(ints.tmp142)
    .set 132 (.cp 4) 1 1,
    -- 2110: del ints.tmp142
    .del 4,
    -- 2111: tmp39 += ints.tmp146 * 2
    .add 132 (.cp 5) 2 1,
    -- 2112: del ints.tmp146
    .del 5,
    -- 2113: tmp39 += np.transpose(v.aabb.ovov, (0, 2, 1, 3))
    .add 132 (.tr 25 [0, 2, 1, 3]) 1 1,
    -- 2114: tmp39 += ints.tmp138 * -1
    .add 132 (.cp 24) (-1) 1,
    -- 2115: del ints.tmp138
    .del 24,
    -- 2116: tmp32 = np.copy(ints.tmp95)
    .set 133 (.cp 15) 1 1,
    -- 2117: del ints.tmp95
    .del 15,
    -- 2118: tmp32 += ints.tmp99 * 2
    .add 133 (.cp 16) 2 1,
    -- 2119: del ints.tmp99
    .del 16,
    -- 2120: tmp32 += np.transpose(v.aabb.ovov, (0, 2, 1, 3))
    .add 133 (.tr 25 [0, 2, 1, 3]) 1 1,
    -- 2121: tmp32 += ints.tmp91 * -1
    .add 133 (.cp 30) (-1) 1,
    -- 2122: del ints.tmp91
    .del 30,
    -- 2123: tmp34 = np.copy(ints.tmp132)
    .set 134 (.cp 42) 1 1,
    -- 2124: del ints.tmp132
    .del 42,
    -- 2125: tmp34 += v.aabb.oooo
    .add 134 (.cp 43) 1 1,
    -- 2126: tmp31 = np.copy(ints.tmp93) * 2
    .set 135 (.cp 13) 2 1,
    -- 2127: del ints.tmp93
    .del 13,
    -- 2128: tmp31 += ints.tmp97
    .add 135 (.cp 14) 1 1,
    -- 2129: del ints.tmp97
    .del 14,
    -- 2130: tmp31 += np.transpose(v.aaaa.ovov, (0, 2, 1, 3))
    .add 135 (.tr 29 [0, 2, 1, 3]) 1 1,
    -- 2131: tmp31 += ints.tmp89 * -2
    .add 135 (.cp 28) (-2) 1,
    -- 2132: del ints.tmp89
    .del 28,
    -- 2133: tmp31 += v.aaaa.oovv * -1
    .add 135 (.cp 33) (-1) 1,
    -- 2134: tmp33 = np.copy(ints.tmp136)
    .set 136 (.cp 44) 1 1,
    -- 2135: del ints.tmp136
    .del 44,
    -- 2136: tmp33 += np.transpose(v.aabb.vvoo, (2, 3, 0, 1)) * -1
    .add 136 (.tr 45 [2, 3, 0, 1]) (-1) 1,
    -- 2137: tmp30 = np.copy(ints.tmp113) * 2
    .set 137 (.cp 46) 2 1,
    -- 2138: del ints.tmp113
    .del 46,
    -- 2139: tmp30 += ints.tmp115
    .add 137 (.cp 47) 1 1,
    -- 2140: del ints.tmp115
    .del 47,
    -- 2141: tmp30 += f.aa.vv * -1
    .add 137 (.cp 48) (-1) 1,
    -- 2142: tmp28 = np.copy(tmp21) * 2
    .set 138 (.cp 110) 2 1,
    -- 2143: del tmp21
    .del 110,
    -- 2144: tmp28 += tmp22 * 4
    .add 138 (.cp 111) 4 1,
    -- 2145: del tmp22
    .del 111,
    -- 2146: tmp28 += tmp23 * 2
    .add 138 (.cp 115) 2 1,
    -- 2147: del tmp23
    .del 115,
    -- 2148: tmp28 += tmp24
    .add 138 (.cp 114) 1 1,
    -- 2149: del tmp24
    .del 114,
    -- 2150: tmp28 += tmp25
    .add 138 (.cp 113) 1 1,
    -- 2151: del tmp25
    .del 113,
    -- 2152: tmp28 += tmp27
    .add 138 (.cp 112) 1 1,
    -- 2153: del tmp27
    .del 112,
    -- 2154: tmp20 = einsum(f.aa.ov, (0, 1), r1.a, (2,), (0, 2, 1))
    .set 139 (.ein [(49, [0, 1]), (32, [2])] [0, 2, 1]) 1 1,
    -- 2155: tmp20 += tmp10
    .add 139 (.cp 117) 1 1,
    -- 2156: del tmp10
    .del 117,
    -- 2157: tmp20 += tmp11 * 2
    .add 139 (.cp 120) 2 1,
    -- 2158: del tmp11
    .del 120,
    -- 2159: tmp20 += tmp13 * 2
    .add 139 (.cp 116) 2 1,
    -- 2160: del tmp13
    .del 116,
    -- 2161: tmp20 += np.transpose(tmp15, (1, 0, 2)) * -1
    .add 139 (.tr 118 [1, 0, 2]) (-1) 1,
    -- 2162: del tmp15
    .del 118,
    -- 2163: tmp20 += np.transpose(tmp17, (1, 0, 2))
    .add 139 (.tr 119 [1, 0, 2]) 1 1,
    -- 2164: del tmp17
    .del 119,
    -- 2165: tmp20 += np.transpose(tmp19, (1, 0, 2))
    .add 139 (.tr 121 [1, 0, 2]) 1 1,
    -- 2166: del tmp19
    .del 121,
    -- 2167: tmp29 = np.copy(ints.tmp110)
    .set 140 (.cp 50) 1 1,
    -- 2168: del ints.tmp110
    .del 50,
    -- 2169: tmp29 += np.transpose(v.aaaa.oooo, (0, 2, 3, 1)) * -1
    .add 140 (.tr 51 [0, 2, 3, 1]) (-1) 1,
    -- 2170: tmp5 = np.copy(ints.tmp53)
    .set 141 (.cp 52) 1 1,
    -- 2171: del ints.tmp53
    .del 52,
    -- 2172: tmp5 += ints.tmp70
    .add 141 (.cp 53) 1 1,
    -- 2173: del ints.tmp70
    .del 53,
    -- 2174: tmp5 += ints.tmp74 * 2
    .add 141 (.cp 54) 2 1,
    -- 2175: del ints.tmp74
    .del 54,
    -- 2176: tmp5 += np.transpose(ints.tmp84, (0, 2, 1, 3))
    .add 141 (.tr 55 [0, 2, 1, 3]) 1 1,
    -- 2177: del ints.tmp84
    .del 55,
    -- 2178: tmp5 += np.transpose(v.aabb.ovoo, (0, 2, 3, 1))
    .add 141 (.tr 56 [0, 2, 3, 1]) 1 1,
    -- 2179: tmp5 += np.transpose(ints.tmp67, (0, 2, 1, 3)) * -1
    .add 141 (.tr 57 [0, 2, 1, 3]) (-1) 1,
    -- 2180: del ints.tmp67
    .del 57,
    -- 2181: tmp5 += np.transpose(ints.tmp73, (0, 2, 1, 3)) * -1
    .add 141 (.tr 58 [0, 2, 1, 3]) (-1) 1,
    -- 2182: del ints.tmp73
    .del 58,
    -- 2183: tmp6 = np.copy(ints.tmp55)
    .set 142 (.cp 59) 1 1,
    -- 2184: del ints.tmp55
    .del 59,
    -- 2185: tmp6 += np.transpose(ints.tmp71, (1, 0, 2, 3)) * 2
    .add 142 (.tr 60 [1, 0, 2, 3]) 2 1,
    -- 2186: del ints.tmp71
    .del 60,
    -- 2187: tmp6 += np.transpose(ints.tmp76, (1, 0, 2, 3))
    .add 142 (.tr 61 [1, 0, 2, 3]) 1 1,
    -- 2188: del ints.tmp76
    .del 61,
    -- 2189: tmp6 += np.transpose(ints.tmp68, (2, 0, 1, 3)) * -2
    .add 142 (.tr 62 [2, 0, 1, 3]) (-2) 1,
    -- 2190: del ints.tmp68
    .del 62,
    -- 2191: tmp6 += np.transpose(ints.tmp82, (2, 0, 1, 3)) * -1
    .add 142 (.tr 63 [2, 0, 1, 3]) (-1) 1,
    -- 2192: del ints.tmp82
    .del 63,
    -- 2193: tmp6 += v.bbbb.ooov * -1
    .add 142 (.cp 23) (-1) 1,
    -- 2194: tmp7 = np.copy(f.aa.ov) * 0.5
    .set 143 (.cp 49) 1 2,
    -- 2195: tmp7 += ints.tmp1
    .add 143 (.cp 64) 1 1,
    -- 2196: tmp7 += ints.tmp43 * 0.5
    .add 143 (.cp 65) 1 2,
    -- 2197: tmp7 += ints.tmp4 * 0.5
    .add 143 (.cp 66) 1 2,
    -- 2198: tmp7 += ints.tmp18 * -1
    .add 143 (.cp 67) (-1) 1,
    -- 2199: tmp7 += ints.tmp24 * -0.5
    .add 143 (.cp 68) (-1) 2,
    -- 2200: tmp7 += ints.tmp37 * -1
    .add 143 (.cp 69) (-1) 1,
    -- 2201: tmp8 = np.copy(f.bb.ov)
    .set 144 (.cp 34) 1 1,
    -- 2202: tmp8 += ints.tmp3
    .add 144 (.cp 70) 1 1,
    -- 2203: tmp8 += ints.tmp41
    .add 144 (.cp 71) 1 1,
    -- 2204: tmp8 += ints.tmp6 * 2
    .add 144 (.cp 72) 2 1,
    -- 2205: tmp8 += ints.tmp20 * -2
    .add 144 (.cp 73) (-2) 1,
    -- 2206: tmp8 += ints.tmp22 * -1
    .add 144 (.cp 74) (-1) 1,
    -- 2207: tmp8 += ints.tmp39 * -2
    .add 144 (.cp 75) (-2) 1,
    -- 2208: tmp3 = np.copy(f.aa.ov)
    .set 145 (.cp 49) 1 1,
    -- 2209: tmp3 += ints.tmp1 * 2
    .add 145 (.cp 64) 2 1,
    -- 2210: del ints.tmp1
    .del 64,
    -- 2211: tmp3 += ints.tmp43
    .add 145 (.cp 65) 1 1,
    -- 2212: del ints.tmp43
    .del 65,
    -- 2213: tmp3 += ints.tmp4
    .add 145 (.cp 66) 1 1,
    -- 2214: del ints.tmp4
    .del 66,
    -- 2215: tmp3 += ints.tmp18 * -2
    .add 145 (.cp 67) (-2) 1,
    -- 2216: del ints.tmp18
    .del 67,
    -- 2217: tmp3 += ints.tmp24 * -1
    .add 145 (.cp 68) (-1) 1,
    -- 2218: del ints.tmp24
    .del 68,
    -- 2219: tmp3 += ints.tmp37 * -2
    .add 145 (.cp 69) (-2) 1,
    -- 2220: del ints.tmp37
    .del 69,
    -- 2221: tmp2 = np.copy(f.bb.ov) * 0.5
    .set 146 (.cp 34) 1 2,
    -- 2222: tmp2 += ints.tmp3 * 0.5
    .add 146 (.cp 70) 1 2,
    -- 2223: del ints.tmp3
    .del 70,
    -- 2224: tmp2 += ints.tmp41 * 0.5
    .add 146 (.cp 71) 1 2,
    -- 2225: del ints.tmp41
    .del 71,
    -- 2226: tmp2 += ints.tmp6
    .add 146 (.cp 72) 1 1,
    -- 2227: del ints.tmp6
    .del 72,
    -- 2228: tmp2 += ints.tmp20 * -1
    .add 146 (.cp 73) (-1) 1,
    -- 2229: del ints.tmp20
    .del 73,
    -- 2230: tmp2 += ints.tmp22 * -0.5
    .add 146 (.cp 74) (-1) 2,
    -- 2231: del ints.tmp22
    .del 74,
    -- 2232: tmp2 += ints.tmp39 * -1
    .add 146 (.cp 75) (-1) 1,
    -- 2233: del ints.tmp39
    .del 75,
    -- 2234: tmp1 = np.copy(ints.tmp26) * 2
    .set 147 (.cp 76) 2 1,
    -- 2235: del ints.tmp26
    .del 76,
    -- 2236: tmp1 += ints.tmp45
    .add 147 (.cp 77) 1 1,
    -- 2237: del ints.tmp45
    .del 77,
    -- 2238: tmp1 += np.transpose(v.aaaa.ooov, (0, 2, 1, 3))
    .add 147 (.tr 31 [0, 2, 1, 3]) 1 1,
    -- 2239: tmp1 += np.transpose(ints.tmp29, (0, 2, 1, 3)) * -2
    .add 147 (.tr 78 [0, 2, 1, 3]) (-2) 1,
    -- 2240: del ints.tmp29
    .del 78,
    -- 2241: tmp1 += np.transpose(ints.tmp33, (0, 2, 1, 3)) * -1
    .add 147 (.tr 79 [0, 2, 1, 3]) (-1) 1,
    -- 2242: del ints.tmp33
    .del 79,
    -- 2243: tmp1 += np.transpose(ints.tmp8, (1, 2, 0, 3)) * -1
    .add 147 (.tr 80 [1, 2, 0, 3]) (-1) 1,
    -- 2244: del ints.tmp8
    .del 80,
    -- 2245: tmp0 = np.copy(ints.tmp10)
    .set 148 (.cp 81) 1 1,
    -- 2246: del ints.tmp10
    .del 81,
    -- 2247: tmp0 += ints.tmp31
    .add 148 (.cp 82) 1 1,
    -- 2248: del ints.tmp31
    .del 82,
    -- 2249: tmp0 += ints.tmp35 * 2
    .add 148 (.cp 83) 2 1,
    -- 2250: del ints.tmp35
    .del 83,
    -- 2251: tmp0 += np.transpose(ints.tmp47, (1, 0, 2, 3))
    .add 148 (.tr 84 [1, 0, 2, 3]) 1 1,
    -- 2252: del ints.tmp47
    .del 84,
    -- 2253: tmp0 += v.aabb.ooov
    .add 148 (.cp 85) 1 1,
    -- 2254: tmp0 += np.transpose(ints.tmp28, (1, 0, 2, 3)) * -1
    .add 148 (.tr 86 [1, 0, 2, 3]) (-1) 1,
    -- 2255: del ints.tmp28
    .del 86,
    -- 2256: tmp0 += np.transpose(ints.tmp32, (1, 0, 2, 3)) * -1
    .add 148 (.tr 87 [1, 0, 2, 3]) (-1) 1,
    -- 2257: del ints.tmp32
    .del 87,
    -- 2258: r2new.bbb = np.copy(tmp53) * -1
    .set 149 (.cp 123) (-1) 1,
    -- 2259: r2new.bbb += np.transpose(tmp53, (1, 0, 2))
    .add 149 (.tr 123 [1, 0, 2]) 1 1,
    -- 2260: del tmp53
    .del 123,
    -- 2261: r2new.bbb += tmp59
    .add 149 (.cp 122) 1 1,
    -- 2262: r2new.bbb += np.transpose(tmp59, (1, 0, 2)) * -1
    .add 149 (.tr 122 [1, 0, 2]) (-1) 1,
    -- 2263: del tmp59
    .del 122,
    -- 2264: r2new.bbb += einsum(tmp60, (0, 1, 2, 3), r2.bbb, (1, 0, 4), (2, 3, 4)) * -2
    .add 149 (.ein [(125, [0, 1, 2, 3]), (2, [1, 0, 4])] [2, 3, 4]) (-2) 1,
    -- 2265: del tmp60
    .del 125,
    -- 2266: r2new.bbb += einsum(r2.bbb, (0, 1, 2), tmp42, (2, 3), (0, 1, 3)) * -2
    .add 149 (.ein [(2, [0, 1, 2]), (124, [2, 3])] [0, 1, 3]) (-2) 1,
    -- 2267: r2new.bab = einsum(r1.a, (0,), f.bb.ov, (1, 2), (1, 0, 2)) * -1
    .set 150 (.ein [(32, [0]), (34, [1, 2])] [1, 0, 2]) (-1) 1,
    -- 2268: r2new.bab += einsum(v.aabb.ooov, (0, 1, 2, 3), r1.a, (1,), (2, 0, 3))
    .add 150 (.ein [(85, [0, 1, 2, 3]), (32, [1])] [2, 0, 3]) 1 1,
    -- 2269: r2new.bab += einsum(tmp38, (0, 1, 2, 3), r2.bab, (0, 4, 2), (1, 4, 3))
    .add 150 (.ein [(129, [0, 1, 2, 3]), (10, [0, 4, 2])] [1, 4, 3]) 1 1,
    -- 2270: del tmp38
    .del 129,
    -- 2271: r2new.bab += einsum(r2.aaa, (0, 1, 2), tmp39, (1, 3, 2, 4), (3, 0, 4)) * -2
    .add 150 (.ein [(11, [0, 1, 2]), (132, [1, 3, 2, 4])] [3, 0, 4]) (-2) 1,
    -- 2272: del tmp39
    .del 132,
    -- 2273: r2new.bab += einsum(tmp40, (0, 1, 2, 3), r2.bab, (4, 0, 2), (4, 1, 3))
    .add 150 (.ein [(126, [0, 1, 2, 3]), (10, [4, 0, 2])] [4, 1, 3]) 1 1,
    -- 2274: del tmp40
    .del 126,
    -- 2275: r2new.bab += einsum(r2.bab, (0, 1, 2), tmp41, (1, 3, 0, 4), (4, 3, 2))
    .add 150 (.ein [(10, [0, 1, 2]), (127, [1, 3, 0, 4])] [4, 3, 2]) 1 1,
    -- 2276: del tmp41
    .del 127,
    -- 2277: r2new.bab += einsum(tmp42, (0, 1), r2.bab, (2, 3, 0), (2, 3, 1)) * -1
    .add 150 (.ein [(124, [0, 1]), (10, [2, 3, 0])] [2, 3, 1]) (-1) 1,
    -- 2278: del tmp42
    .del 124,
    -- 2279: r2new.bab += einsum(tmp43, (0,), v.aabb.ovov, (1, 0, 2, 3), (2, 1, 3))
    .add 150 (.ein [(130, [0]), (25, [1, 0, 2, 3])] [2, 1, 3]) 1 1,
    -- 2280: del tmp43
    .del 130,
    -- 2281: r2new.bab += einsum(tmp9, (0, 1), r2.bab, (0, 2, 3), (1, 2, 3)) * -1
    .add 150 (.ein [(131, [0, 1]), (10, [0, 2, 3])] [1, 2, 3]) (-1) 1,
    -- 2282: r2new.bab += einsum(r2.bab, (0, 1, 2), tmp4, (1, 3), (0, 3, 2)) * -1
    .add 150 (.ein [(10, [0, 1, 2]), (128, [1, 3])] [0, 3, 2]) (-1) 1,
    -- 2283: r2new.aba = einsum(r1.b, (0,), v.aabb.ovoo, (1, 2, 3, 0), (1, 3, 2))
    .set 151 (.ein [(22, [0]), (56, [1, 2, 3, 0])] [1, 3, 2]) 1 1,
    -- 2284: r2new.aba += einsum(f.aa.ov, (0, 1), r1.b, (2,), (0, 2, 1)) * -1
    .add 151 (.ein [(49, [0, 1]), (22, [2])] [0, 2, 1]) (-1) 1,
    -- 2285: r2new.aba += einsum(tmp31, (0, 1, 2, 3), r2.aba, (0, 4, 2), (1, 4, 3))
    .add 151 (.ein [(135, [0, 1, 2, 3]), (0, [0, 4, 2])] [1, 4, 3]) 1 1,
    -- 2286: del tmp31
    .del 135,
    -- 2287: r2new.aba += einsum(tmp32, (0, 1, 2, 3), r2.bbb, (4, 1, 3), (0, 4, 2)) * -2
    .add 151 (.ein [(133, [0, 1, 2, 3]), (2, [4, 1, 3])] [0, 4, 2]) (-2) 1,
    -- 2288: del tmp32
    .del 133,
    -- 2289: r2new.aba += einsum(tmp33, (0, 1, 2, 3), r2.aba, (4, 0, 2), (4, 1, 3))
    .add 151 (.ein [(136, [0, 1, 2, 3]), (0, [4, 0, 2])] [4, 1, 3]) 1 1,
    -- 2290: del tmp33
    .del 136,
    -- 2291: r2new.aba += einsum(r2.aba, (0, 1, 2), tmp34, (0, 3, 1, 4), (3, 4, 2))
    .add 151 (.ein [(0, [0, 1, 2]), (134, [0, 3, 1, 4])] [3, 4, 2]) 1 1,
    -- 2292: del tmp34
    .del 134,
    -- 2293: r2new.aba += einsum(r2.aba, (0, 1, 2), tmp30, (2, 3), (0, 1, 3)) * -1
    .add 151 (.ein [(0, [0, 1, 2]), (137, [2, 3])] [0, 1, 3]) (-1) 1,
    -- 2294: r2new.aba += einsum(tmp37, (0,), v.aabb.ovov, (1, 2, 3, 0), (1, 3, 2)) * 2
    .add 151 (.ein [(93, [0]), (25, [1, 2, 3, 0])] [1, 3, 2]) 2 1,
    -- 2295: del tmp37
    .del 93,
    -- 2296: r2new.aba += einsum(r2.aba, (0, 1, 2), tmp9, (1, 3), (0, 3, 2)) * -1
    .add 151 (.ein [(0, [0, 1, 2]), (131, [1, 3])] [0, 3, 2]) (-1) 1,
    -- 2297: r2new.aba += einsum(r2.aba, (0, 1, 2), tmp4, (0, 3), (3, 1, 2)) * -1
    .add 151 (.ein [(0, [0, 1, 2]), (128, [0, 3])] [3, 1, 2]) (-1) 1,
    -- 2298: r2new.aaa = np.copy(tmp20) * -1
    .set 152 (.cp 139) (-1) 1,
    -- 2299: r2new.aaa += np.transpose(tmp20, (1, 0, 2))
    .add 152 (.tr 139 [1, 0, 2]) 1 1,
    -- 2300: del tmp20
    .del 139,
    -- 2301: r2new.aaa += tmp28
    .add 152 (.cp 138) 1 1,
    -- 2302: r2new.aaa += np.transpose(tmp28, (1, 0, 2)) * -1
    .add 152 (.tr 138 [1, 0, 2]) (-1) 1,
    -- 2303: del tmp28
    .del 138,
    -- 2304: r2new.aaa += einsum(r2.aaa, (0, 1, 2), tmp29, (1, 0, 3, 4), (3, 4, 2)) * -2
    .add 152 (.ein [(11, [0, 1, 2]), (140, [1, 0, 3, 4])] [3, 4, 2]) (-2) 1,
    -- 2305: del tmp29
    .del 140,
    -- 2306: r2new.aaa += einsum(r2.aaa, (0, 1, 2), tmp30, (2, 3), (0, 1, 3)) * -2
    .add 152 (.ein [(11, [0, 1, 2]), (137, [2, 3])] [0, 1, 3]) (-2) 1,
    -- 2307: del tmp30
    .del 137,
    -- 2308: r1new.b = einsum(r2.aba, (0, 1, 2), tmp5, (0, 3, 1, 2), (3,))
    .set 153 (.ein [(0, [0, 1, 2]), (141, [0, 3, 1, 2])] [3]) 1 1,
    -- 2309: del tmp5
    .del 141,
    -- 2310: r1new.b += einsum(r2.bbb, (0, 1, 2), tmp6, (3, 0, 1, 2), (3,)) * 2
    .add 153 (.ein [(2, [0, 1, 2]), (142, [3, 0, 1, 2])] [3]) 2 1,
    -- 2311: del tmp6
    .del 142,
    -- 2312: r1new.b += einsum(tmp7, (0, 1), r2.aba, (0, 2, 1), (2,)) * -2
    .add 153 (.ein [(143, [0, 1]), (0, [0, 2, 1])] [2]) (-2) 1,
    -- 2313: del tmp7
    .del 143,
    -- 2314: r1new.b += einsum(tmp8, (0, 1), r2.bbb, (2, 0, 1), (2,)) * 2
    .add 153 (.ein [(144, [0, 1]), (2, [2, 0, 1])] [2]) 2 1,
    -- 2315: del tmp8
    .del 144,
    -- 2316: r1new.b += einsum(r1.b, (0,), tmp9, (0, 1), (1,)) * -1
    .add 153 (.ein [(22, [0]), (131, [0, 1])] [1]) (-1) 1,
    -- 2317: del tmp9
    .del 131,
    -- 2318: r1new.a = einsum(tmp0, (0, 1, 2, 3), r2.bab, (2, 1, 3), (0,))
    .set 154 (.ein [(148, [0, 1, 2, 3]), (10, [2, 1, 3])] [0]) 1 1,
    -- 2319: del tmp0
    .del 148,
    -- 2320: r1new.a += einsum(tmp1, (0, 1, 2, 3), r2.aaa, (0, 1, 3), (2,)) * -2
    .add 154 (.ein [(147, [0, 1, 2, 3]), (11, [0, 1, 3])] [2]) (-2) 1,
    -- 2321: del tmp1
    .del 147,
    -- 2322: r1new.a += einsum(tmp2, (0, 1), r2.bab, (0, 2, 1), (2,)) * -2
    .add 154 (.ein [(146, [0, 1]), (10, [0, 2, 1])] [2]) (-2) 1,
    -- 2323: del tmp2
    .del 146,
    -- 2324: r1new.a += einsum(tmp3, (0, 1), r2.aaa, (2, 0, 1), (2,)) * 2
    .add 154 (.ein [(145, [0, 1]), (11, [2, 0, 1])] [2]) 2 1,
    -- 2325: del tmp3
    .del 145,
    -- 2326: r1new.a += einsum(r1.a, (0,), tmp4, (0, 1), (1,)) * -1
    .add 154 (.ein [(32, [0]), (128, [0, 1])] [1]) (-1) 1,
    -- 2327: del tmp4
    .del 128
  ]
  ret := [(chars! "r1new.b", 153), (chars! "r1new.a", 154), (chars! "r2new.bbb", 149), (chars! "r2new.bab", 150), (chars! "r2new.aba", 151), (chars! "r2new.aaa", 152)]

/-- codegen/UCCD.py:1373-1495 `hbar_matvec_ea_intermediates`. -/
def hbar_matvec_ea_intermediates : GenFun where
  args := [chars! "t2.bbbb", chars! "v.bbbb.ooov", chars! "v.aabb.ovvv", chars! "t2.abab", chars! "v.bbbb.ovvv", chars! "v.aabb.ovoo", chars! "v.aabb.ovov", chars! "v.bbbb.ovov", chars! "v.aaaa.ovov", chars! "v.aabb.vvov", chars! "v.aaaa.ovvv", chars! "f.bb.ov", chars! "f.aa.ov", chars! "t2.aaaa", chars! "v.aabb.ooov", chars! "v.aaaa.ooov"]
  body := [
    -- 1442: tmp148 = einsum(t2.bbbb, (0, 1, 2, 3), v.bbbb.ooov, (4, 1, 0, 5), (4, 2, 3, 5)) * -1
    .set 16 (.ein [(0, [0, 1, 2, 3]), (1, [4, 1, 0, 5])] [4, 2, 3, 5]) (-1) 1,
    -- 1443: tmp135 = einsum(v.aabb.ovvv, (0, 1, 2, 3), t2.abab, (0, 4, 1, 5), (4, 5, 2, 3))
    .set 17 (.ein [(2, [0, 1, 2, 3]), (3, [0, 4, 1, 5])] [4, 5, 2, 3]) 1 1,
    -- 1444: tmp133 = einsum(t2.bbbb, (0, 1, 2, 3), v.bbbb.ovvv, (1, 4, 5, 3), (0, 2, 4, 5))
    .set 18 (.ein [(0, [0, 1, 2, 3]), (4, [1, 4, 5, 3])] [0, 2, 4, 5]) 1 1,
    -- 1445: tmp131 = einsum(t2.bbbb, (0, 1, 2, 3), v.bbbb.ovvv, (1, 3, 4, 5), (0, 2, 4, 5))
    .set 19 (.ein [(0, [0, 1, 2, 3]), (4, [1, 3, 4, 5])] [0, 2, 4, 5]) 1 1,
    -- 1446: tmp127 = einsum(v.aabb.ovoo, (0, 1, 2, 3), t2.abab, (0, 3, 1, 4), (2, 4))
    .set 20 (.ein [(5, [0, 1, 2, 3]), (3, [0, 3, 1, 4])] [2, 4]) 1 1,
    -- 1447: tmp126 = einsum(t2.bbbb, (0, 1, 2, 3), v.bbbb.ooov, (4, 1, 0, 3), (4, 2)) * -1
    .set 21 (.ein [(0, [0, 1, 2, 3]), (1, [4, 1, 0, 3])] [4, 2]) (-1) 1,
    -- 1448: tmp125 = einsum(t2.abab, (0, 1, 2, 3), v.aabb.ovov, (0, 2, 4, 5), (1, 4, 3, 5))
    .set 22 (.ein [(3, [0, 1, 2, 3]), (6, [0, 2, 4, 5])] [1, 4, 3, 5]) 1 1,
    -- 1449: tmp123 = einsum(v.aabb.ovov, (0, 1, 2, 3), t2.bbbb, (4, 2, 5, 3), (0, 4, 1, 5))
    .set 23 (.ein [(6, [0, 1, 2, 3]), (0, [4, 2, 5, 3])] [0, 4, 1, 5]) 1 1,
    -- 1450: tmp121 = einsum(t2.bbbb, (0, 1, 2, 3), v.bbbb.ovov, (4, 5, 1, 3), (0, 4, 2, 5))
    .set 24 (.ein [(0, [0, 1, 2, 3]), (7, [4, 5, 1, 3])] [0, 4, 2, 5]) 1 1,
    -- 1451: tmp119 = einsum(t2.bbbb, (0, 1, 2, 3), v.bbbb.ovov, (4, 3, 1, 5), (0, 4, 2, 5))
    .set 25 (.ein [(0, [0, 1, 2, 3]), (7, [4, 3, 1, 5])] [0, 4, 2, 5]) 1 1,
    -- 1452: tmp117 = einsum(v.aaaa.ovov, (0, 1, 2, 3), t2.abab, (2, 4, 3, 5), (0, 4, 1, 5))
    .set 26 (.ein [(8, [0, 1, 2, 3]), (3, [2, 4, 3, 5])] [0, 4, 1, 5]) 1 1,
    -- 1453: tmp115 = einsum(v.aaaa.ovov, (0, 1, 2, 3), t2.abab, (2, 4, 1, 5), (0, 4, 3, 5))
    .set 27 (.ein [(8, [0, 1, 2, 3]), (3, [2, 4, 1, 5])] [0, 4, 3, 5]) 1 1,
    -- 1454: tmp111 = einsum(v.aabb.vvov, (0, 1, 2, 3), t2.bbbb, (4, 2, 5, 3), (4, 0, 1, 5))
    .set 28 (.ein [(9, [0, 1, 2, 3]), (0, [4, 2, 5, 3])] [4, 0, 1, 5]) 1 1,
    -- 1455: tmp110 = einsum(v.aaaa.ovvv, (0, 1, 2, 3), t2.abab, (0, 4, 3, 5), (4, 1, 2, 5))
    .set 29 (.ein [(10, [0, 1, 2, 3]), (3, [0, 4, 3, 5])] [4, 1, 2, 5]) 1 1,
    -- 1456: tmp109 = einsum(v.aaaa.ovvv, (0, 1, 2, 3), t2.abab, (0, 4, 1, 5), (4, 2, 3, 5))
    .set 30 (.ein [(10, [0, 1, 2, 3]), (3, [0, 4, 1, 5])] [4, 2, 3, 5]) 1 1,
    -- 1457: tmp108 = einsum(f.bb.ov, (0, 1), t2.bbbb, (2, 0, 3, 1), (2, 3))
    .set 31 (.ein [(11, [0, 1]), (0, [2, 0, 3, 1])] [2, 3]) 1 1,
    -- 1458: tmp107 = einsum(t2.abab, (0, 1, 2, 3), f.aa.ov, (0, 2), (1, 3))
    .set 32 (.ein [(3, [0, 1, 2, 3]), (12, [0, 2])] [1, 3]) 1 1,
    -- 1459: tmp105 = einsum(t2.abab, (0, 1, 2, 3), v.aabb.ovov, (0, 2, 4, 3), (1, 4))
    .set 33 (.ein [(3, [0, 1, 2, 3]), (6, [0, 2, 4, 3])] [1, 4]) 1 1,
    -- 1460: tmp103 = einsum(t2.bbbb, (0, 1, 2, 3), v.bbbb.ovov, (4, 3, 1, 2), (0, 4)) * -1
    .set 34 (.ein [(0, [0, 1, 2, 3]), (7, [4, 3, 1, 2])] [0, 4]) (-1) 1,
    -- 1461: tmp102 = einsum(t2.abab, (0, 1, 2, 3), v.aabb.ovvv, (0, 2, 4, 3), (1, 4))
    .set 35 (.ein [(3, [0, 1, 2, 3]), (2, [0, 2, 4, 3])] [1, 4]) 1 1,
    -- 1462: tmp101 = einsum(t2.bbbb, (0, 1, 2, 3), v.bbbb.ovvv, (1, 3, 4, 2), (0, 4)) * -1
    .set 36 (.ein [(0, [0, 1, 2, 3]), (4, [1, 3, 4, 2])] [0, 4]) (-1) 1,
    -- 1463: tmp94 = einsum(v.aabb.ovoo, (0, 1, 2, 3), t2.abab, (0, 3, 4, 5), (2, 4, 1, 5))
    .set 37 (.ein [(5, [0, 1, 2, 3]), (3, [0, 3, 4, 5])] [2, 4, 1, 5]) 1 1,
    -- 1464: tmp93 = einsum(t2.abab, (0, 1, 2, 3), v.aabb.ovov, (0, 4, 5, 3), (1, 5, 2, 4))
    .set 38 (.ein [(3, [0, 1, 2, 3]), (6, [0, 4, 5, 3])] [1, 5, 2, 4]) 1 1,
    -- 1465: tmp90 = einsum(t2.abab, (0, 1, 2, 3), v.aabb.ovvv, (0, 4, 5, 3), (1, 2, 4, 5))
    .set 39 (.ein [(3, [0, 1, 2, 3]), (2, [0, 4, 5, 3])] [1, 2, 4, 5]) 1 1,
    -- 1466: tmp80 = einsum(v.aabb.ovvv, (0, 1, 2, 3), t2.aaaa, (4, 0, 5, 1), (4, 5, 2, 3))
    .set 40 (.ein [(2, [0, 1, 2, 3]), (13, [4, 0, 5, 1])] [4, 5, 2, 3]) 1 1,
    -- 1467: tmp79 = einsum(v.bbbb.ovvv, (0, 1, 2, 3), t2.abab, (4, 0, 5, 3), (4, 5, 1, 2))
    .set 41 (.ein [(4, [0, 1, 2, 3]), (3, [4, 0, 5, 3])] [4, 5, 1, 2]) 1 1,
    -- 1468: tmp78 = einsum(v.bbbb.ovvv, (0, 1, 2, 3), t2.abab, (4, 0, 5, 1), (4, 5, 2, 3))
    .set 42 (.ein [(4, [0, 1, 2, 3]), (3, [4, 0, 5, 1])] [4, 5, 2, 3]) 1 1,
    -- 1469: tmp67 = einsum(v.aabb.ooov, (0, 1, 2, 3), t2.abab, (1, 2, 4, 5), (0, 4, 5, 3))
    .set 43 (.ein [(14, [0, 1, 2, 3]), (3, [1, 2, 4, 5])] [0, 4, 5, 3]) 1 1,
    -- 1470: tmp65 = einsum(t2.abab, (0, 1, 2, 3), v.aabb.ovov, (4, 2, 1, 5), (0, 4, 3, 5))
    .set 44 (.ein [(3, [0, 1, 2, 3]), (6, [4, 2, 1, 5])] [0, 4, 3, 5]) 1 1,
    -- 1471: tmp62 = einsum(v.aabb.vvov, (0, 1, 2, 3), t2.abab, (4, 2, 1, 5), (4, 0, 5, 3))
    .set 45 (.ein [(9, [0, 1, 2, 3]), (3, [4, 2, 1, 5])] [4, 0, 5, 3]) 1 1,
    -- 1472: tmp59 = einsum(t2.abab, (0, 1, 2, 3), v.aabb.ovov, (4, 2, 1, 3), (0, 4))
    .set 46 (.ein [(3, [0, 1, 2, 3]), (6, [4, 2, 1, 3])] [0, 4]) 1 1,
    -- 1473: tmp57 = einsum(v.aaaa.ovov, (0, 1, 2, 3), t2.aaaa, (4, 2, 1, 3), (4, 0))
    .set 47 (.ein [(8, [0, 1, 2, 3]), (13, [4, 2, 1, 3])] [4, 0]) 1 1,
    -- 1474: tmp56 = einsum(v.aabb.vvov, (0, 1, 2, 3), t2.abab, (4, 2, 1, 3), (4, 0))
    .set 48 (.ein [(9, [0, 1, 2, 3]), (3, [4, 2, 1, 3])] [4, 0]) 1 1,
    -- 1475: tmp55 = einsum(v.aaaa.ovvv, (0, 1, 2, 3), t2.aaaa, (4, 0, 1, 3), (4, 2))
    .set 49 (.ein [(10, [0, 1, 2, 3]), (13, [4, 0, 1, 3])] [4, 2]) 1 1,
    -- 1476: tmp45 = einsum(t2.aaaa, (0, 1, 2, 3), v.aaaa.ooov, (4, 0, 1, 5), (4, 2, 3, 5))
    .set 50 (.ein [(13, [0, 1, 2, 3]), (15, [4, 0, 1, 5])] [4, 2, 3, 5]) 1 1,
    -- 1477: tmp44 = einsum(v.aabb.ooov, (0, 1, 2, 3), t2.abab, (1, 2, 4, 3), (0, 4))
    .set 51 (.ein [(14, [0, 1, 2, 3]), (3, [1, 2, 4, 3])] [0, 4]) 1 1,
    -- 1478: tmp43 = einsum(v.aaaa.ooov, (0, 1, 2, 3), t2.aaaa, (1, 2, 4, 3), (0, 4))
    .set 52 (.ein [(15, [0, 1, 2, 3]), (13, [1, 2, 4, 3])] [0, 4]) 1 1,
    -- 1479: tmp37 = einsum(v.aabb.ovov, (0, 1, 2, 3), t2.aaaa, (4, 0, 5, 1), (4, 2, 5, 3))
    .set 53 (.ein [(6, [0, 1, 2, 3]), (13, [4, 0, 5, 1])] [4, 2, 5, 3]) 1 1,
    -- 1480: tmp35 = einsum(t2.abab, (0, 1, 2, 3), v.aabb.ovov, (4, 5, 1, 3), (0, 4, 2, 5))
    .set 54 (.ein [(3, [0, 1, 2, 3]), (6, [4, 5, 1, 3])] [0, 4, 2, 5]) 1 1,
    -- 1481: tmp33 = einsum(v.bbbb.ovov, (0, 1, 2, 3), t2.abab, (4, 2, 5, 3), (4, 0, 5, 1))
    .set 55 (.ein [(7, [0, 1, 2, 3]), (3, [4, 2, 5, 3])] [4, 0, 5, 1]) 1 1,
    -- 1482: tmp31 = einsum(v.bbbb.ovov, (0, 1, 2, 3), t2.abab, (4, 2, 5, 1), (4, 0, 5, 3))
    .set 56 (.ein [(7, [0, 1, 2, 3]), (3, [4, 2, 5, 1])] [4, 0, 5, 3]) 1 1,
    -- 1483: tmp29 = einsum(t2.aaaa, (0, 1, 2, 3), v.aaaa.ovov, (4, 5, 1, 3), (0, 4, 2, 5))
    .set 57 (.ein [(13, [0, 1, 2, 3]), (8, [4, 5, 1, 3])] [0, 4, 2, 5]) 1 1,
    -- 1484: tmp27 = einsum(t2.aaaa, (0, 1, 2, 3), v.aaaa.ovov, (4, 3, 1, 5), (0, 4, 2, 5))
    .set 58 (.ein [(13, [0, 1, 2, 3]), (8, [4, 3, 1, 5])] [0, 4, 2, 5]) 1 1,
    -- 1485: tmp23 = einsum(v.aabb.vvov, (0, 1, 2, 3), t2.abab, (4, 2, 5, 3), (4, 5, 0, 1))
    .set 59 (.ein [(9, [0, 1, 2, 3]), (3, [4, 2, 5, 3])] [4, 5, 0, 1]) 1 1,
    -- 1486: tmp21 = einsum(v.aaaa.ovvv, (0, 1, 2, 3), t2.aaaa, (4, 0, 5, 3), (4, 5, 1, 2))
    .set 60 (.ein [(10, [0, 1, 2, 3]), (13, [4, 0, 5, 3])] [4, 5, 1, 2]) 1 1,
    -- 1487: tmp19 = einsum(v.aaaa.ovvv, (0, 1, 2, 3), t2.aaaa, (4, 0, 5, 1), (4, 5, 2, 3))
    .set 61 (.ein [(10, [0, 1, 2, 3]), (13, [4, 0, 5, 1])] [4, 5, 2, 3]) 1 1,
    -- 1488: tmp15 = einsum(t2.abab, (0, 1, 2, 3), f.bb.ov, (1, 3), (0, 2))
    .set 62 (.ein [(3, [0, 1, 2, 3]), (11, [1, 3])] [0, 2]) 1 1,
    -- 1489: tmp14 = einsum(f.aa.ov, (0, 1), t2.aaaa, (2, 0, 3, 1), (2, 3))
    .set 63 (.ein [(12, [0, 1]), (13, [2, 0, 3, 1])] [2, 3]) 1 1,
    -- 1490: tmp12 = einsum(v.aabb.ovov, (0, 1, 2, 3), t2.abab, (0, 2, 1, 4), (4, 3))
    .set 64 (.ein [(6, [0, 1, 2, 3]), (3, [0, 2, 1, 4])] [4, 3]) 1 1,
    -- 1491: tmp10 = einsum(t2.bbbb, (0, 1, 2, 3), v.bbbb.ovov, (0, 4, 1, 3), (2, 4))
    .set 65 (.ein [(0, [0, 1, 2, 3]), (7, [0, 4, 1, 3])] [2, 4]) 1 1,
    -- 1492: tmp5 = einsum(t2.abab, (0, 1, 2, 3), v.aabb.ovov, (0, 4, 1, 3), (2, 4))
    .set 66 (.ein [(3, [0, 1, 2, 3]), (6, [0, 4, 1, 3])] [2, 4]) 1 1,
    -- 1493: tmp3 = einsum(v.aaaa.ovov, (0, 1, 2, 3), t2.aaaa, (0, 2, 4, 1), (4, 3)) * -1
    .set 67 (.ein [(8, [0, 1, 2, 3]), (13, [0, 2, 4, 1])] [4, 3]) (-1) 1
  ]
  ret := [(chars! "tmp10", 65), (chars! "tmp101", 36), (chars! "tmp102", 35), (chars! "tmp103", 34), (chars! "tmp105", 33), (chars! "tmp107", 32), (chars! "tmp108", 31), (chars! "tmp109", 30), (chars! "tmp110", 29), (chars! "tmp111", 28), (chars! "tmp115", 27), (chars! "tmp117", 26), (chars! "tmp119", 25), (chars! "tmp12", 64), (chars! "tmp121", 24), (chars! "tmp123", 23), (chars! "tmp125", 22), (chars! "tmp126", 21), (chars! "tmp127", 20), (chars! "tmp131", 19), (chars! "tmp133", 18), (chars! "tmp135", 17), (chars! "tmp14", 63), (chars! "tmp148", 16), (chars! "tmp15", 62), (chars! "tmp19", 61), (chars! "tmp21", 60), (chars! "tmp23", 59), (chars! "tmp27", 58), (chars! "tmp29", 57), (chars! "tmp3", 67), (chars! "tmp31", 56), (chars! "tmp33", 55), (chars! "tmp35", 54), (chars! "tmp37", 53), (chars! "tmp43", 52), (chars! "tmp44", 51), (chars! "tmp45", 50), (chars! "tmp5", 66), (chars! "tmp55", 49), (chars! "tmp56", 48), (chars! "tmp57", 47), (chars! "tmp59", 46), (chars! "tmp62", 45), (chars! "tmp65", 44), (chars! "tmp67", 43), (chars! "tmp78", 42), (chars! "tmp79", 41), (chars! "tmp80", 40), (chars! "tmp90", 39), (chars! "tmp93", 38), (chars! "tmp94", 37)]

/-- codegen/UCCD.py:1497-1834 `hbar_matvec_ea`. -/
def hbar_matvec_ea : GenFun where
  args := [chars! "ints.tmp131", chars! "ints.tmp135", chars! "v.bbbb.ovvv", chars! "ints.tmp10", chars! "ints.tmp12", chars! "f.bb.vv", chars! "ints.tmp121", chars! "ints.tmp125", chars! "ints.tmp117", chars! "ints.tmp123", chars! "ints.tmp29", chars! "ints.tmp35", chars! "ints.tmp19", chars! "ints.tmp23", chars! "v.aaaa.ovvv", chars! "ints.tmp33", chars! "ints.tmp37", chars! "ints.tmp3", chars! "ints.tmp5", chars! "f.aa.vv", chars! "r2.aba", chars! "v.aabb.ovov", chars! "v.bbbb.ovov", chars! "r2.bbb", chars! "r1.b", chars! "f.bb.ov", chars! "ints.tmp115", chars! "v.bbbb.oovv", chars! "ints.tmp119", chars! "ints.tmp133", chars! "f.aa.ov", chars! "r1.a", chars! "r2.bab", chars! "v.aaaa.ovov", chars! "r2.aaa", chars! "v.aaaa.oovv", chars! "ints.tmp21", chars! "ints.tmp31", chars! "ints.tmp27", chars! "f.bb.oo", chars! "ints.tmp103", chars! "ints.tmp105", chars! "ints.tmp102", chars! "ints.tmp107", chars! "ints.tmp108", chars! "ints.tmp101", chars! "ints.tmp126", chars! "ints.tmp127", chars! "ints.tmp93", chars! "v.aabb.vvoo", chars! "ints.tmp109", chars! "ints.tmp111", chars! "ints.tmp94", chars! "v.aabb.vvov", chars! "ints.tmp110", chars! "ints.tmp90", chars! "ints.tmp14", chars! "ints.tmp15", chars! "ints.tmp56", chars! "ints.tmp43", chars! "ints.tmp44", chars! "ints.tmp55", chars! "ints.tmp65", chars! "v.aabb.oovv", chars! "ints.tmp67", chars! "ints.tmp78", chars! "ints.tmp80", chars! "v.aabb.ovvv", chars! "ints.tmp62", chars! "ints.tmp79", chars! "f.aa.oo", chars! "ints.tmp57", chars! "ints.tmp59", chars! "v.bbbb.vvvv", chars! "t2.bbbb", chars! "ints.tmp148", chars! "v.aabb.vvvv", chars! "t2.abab", chars! "ints.tmp45", chars! "v.aaaa.vvvv", chars! "t2.aaaa"]
  body := [
    -- 1525: tmp50 = np.copy(ints.tmp131)
    .set 81 (.cp 0) 1 1,
    -- 1526: del ints.tmp131
    .del 0,
    -- 1527: tmp50 += ints.tmp135 * 0.5
    .add 81 (.cp 1) 1 2,
    -- 1528: del ints.tmp135
    .del 1,
    -- 1529: tmp50 += v.bbbb.ovvv * 0.5
    .add 81 (.cp 2) 1 2,
    -- 1530: tmp39 = np.copy(np.transpose(ints.tmp10, (1, 0)))
    .set 82 (.tr 3 [1, 0]) 1 1,
    -- 1531: tmp39 += np.transpose(ints.tmp12, (1, 0)) * 0.5
    .add 82 (.tr 4 [1, 0]) 1 2,
    -- 1532: tmp39 += f.bb.vv * -0.5
    .add 82 (.cp 5) (-1) 2,
    -- 1533: tmp47 = np.copy(ints.tmp121) * 2
    .set 83 (.cp 6) 2 1,
    -- 1534: tmp47 += ints.tmp125
    .add 83 (.cp 7) 1 1,
    -- 1535: tmp56 = np.copy(ints.tmp117)
    .set 84 (.cp 8) 1 1,
    -- 1536: tmp56 += ints.tmp123 * 2
    .add 84 (.cp 9) 2 1,
    -- 1537: tmp4 = np.copy(ints.tmp29) * 2
    .set 85 (.cp 10) 2 1,
    -- 1538: tmp4 += ints.tmp35
    .add 85 (.cp 11) 1 1,
    -- 1539: tmp10 = np.copy(ints.tmp19)
    .set 86 (.cp 12) 1 1,
    -- 1540: del ints.tmp19
    .del 12,
    -- 1541: tmp10 += ints.tmp23 * 0.5
    .add 86 (.cp 13) 1 2,
    -- 1542: del ints.tmp23
    .del 13,
    -- 1543: tmp10 += v.aaaa.ovvv * 0.5
    .add 86 (.cp 14) 1 2,
    -- 1544: tmp6 = np.copy(ints.tmp33) * 0.5
    .set 87 (.cp 15) 1 2,
    -- 1545: tmp6 += ints.tmp37
    .add 87 (.cp 16) 1 1,
    -- 1546: tmp8 = np.copy(np.transpose(ints.tmp3, (1, 0)))
    .set 88 (.tr 17 [1, 0]) 1 1,
    -- 1547: tmp8 += np.transpose(ints.tmp5, (1, 0)) * 0.5
    .add 88 (.tr 18 [1, 0]) 1 2,
    -- 1548: tmp8 += f.aa.vv * -0.5
    .add 88 (.cp 19) (-1) 2,
    -- 1549: tmp31 = einsum(r2.aba, (0, 1, 2), v.aabb.ovov, (2, 0, 3, 1), (3,))
    .set 89 (.ein [(20, [0, 1, 2]), (21, [2, 0, 3, 1])] [3]) 1 1,
    -- 1550: tmp32 = einsum(v.bbbb.ovov, (0, 1, 2, 3), r2.bbb, (3, 1, 2), (0,)) * -1
    .set 90 (.ein [(22, [0, 1, 2, 3]), (23, [3, 1, 2])] [0]) (-1) 1,
    -- 1551: tmp30 = einsum(r1.b, (0,), f.bb.ov, (1, 0), (1,))
    .set 91 (.ein [(24, [0]), (25, [1, 0])] [1]) 1 1,
    -- 1552: tmp44 = einsum(r2.aba, (0, 1, 2), ints.tmp115, (2, 3, 0, 4), (3, 4, 1))
    .set 92 (.ein [(20, [0, 1, 2]), (26, [2, 3, 0, 4])] [3, 4, 1]) 1 1,
    -- 1553: tmp51 = einsum(r1.b, (0,), tmp50, (1, 2, 3, 0), (1, 2, 3)) * 2
    .set 93 (.ein [(24, [0]), (81, [1, 2, 3, 0])] [1, 2, 3]) 2 1,
    -- 1554: del tmp50
    .del 81,
    -- 1555: tmp45 = einsum(v.aabb.ovov, (0, 1, 2, 3), r2.aba, (1, 4, 0), (2, 4, 3))
    .set 94 (.ein [(21, [0, 1, 2, 3]), (20, [1, 4, 0])] [2, 4, 3]) 1 1,
    -- 1556: tmp46 = einsum(r2.bbb, (0, 1, 2), v.bbbb.oovv, (3, 2, 4, 1), (3, 0, 4))
    .set 95 (.ein [(23, [0, 1, 2]), (27, [3, 2, 4, 1])] [3, 0, 4]) 1 1,
    -- 1557: tmp49 = einsum(tmp39, (0, 1), r2.bbb, (2, 0, 3), (3, 2, 1)) * -4
    .set 96 (.ein [(82, [0, 1]), (23, [2, 0, 3])] [3, 2, 1]) (-4) 1,
    -- 1558: tmp48 = einsum(r2.bbb, (0, 1, 2), tmp47, (3, 2, 4, 1), (3, 0, 4)) * -2
    .set 97 (.ein [(23, [0, 1, 2]), (83, [3, 2, 4, 1])] [3, 0, 4]) (-2) 1,
    -- 1559: del tmp47
    .del 83,
    -- 1560: tmp55 = einsum(r2.bbb, (0, 1, 2), v.bbbb.ovov, (3, 4, 2, 1), (3, 0, 4))
    .set 98 (.ein [(23, [0, 1, 2]), (22, [3, 4, 2, 1])] [3, 0, 4]) 1 1,
    -- 1561: tmp54 = einsum(ints.tmp119, (0, 1, 2, 3), r2.bbb, (4, 3, 1), (0, 2, 4))
    .set 99 (.ein [(28, [0, 1, 2, 3]), (23, [4, 3, 1])] [0, 2, 4]) 1 1,
    -- 1562: tmp53 = einsum(r1.b, (0,), ints.tmp133, (1, 2, 0, 3), (1, 2, 3))
    .set 100 (.ein [(24, [0]), (29, [1, 2, 0, 3])] [1, 2, 3]) 1 1,
    -- 1563: del ints.tmp133
    .del 29,
    -- 1564: tmp57 = einsum(tmp56, (0, 1, 2, 3), r2.aba, (2, 4, 0), (1, 4, 3))
    .set 101 (.ein [(84, [0, 1, 2, 3]), (20, [2, 4, 0])] [1, 4, 3]) 1 1,
    -- 1565: del tmp56
    .del 84,
    -- 1566: tmp19 = einsum(f.aa.ov, (0, 1), r1.a, (1,), (0,))
    .set 102 (.ein [(30, [0, 1]), (31, [1])] [0]) 1 1,
    -- 1567: tmp21 = einsum(r2.bab, (0, 1, 2), v.aabb.ovov, (3, 1, 2, 0), (3,)) * -1
    .set 103 (.ein [(32, [0, 1, 2]), (21, [3, 1, 2, 0])] [3]) (-1) 1,
    -- 1568: tmp20 = einsum(v.aaaa.ovov, (0, 1, 2, 3), r2.aaa, (1, 3, 2), (0,))
    .set 104 (.ein [(33, [0, 1, 2, 3]), (34, [1, 3, 2])] [0]) 1 1,
    -- 1569: tmp5 = einsum(tmp4, (0, 1, 2, 3), r2.aaa, (4, 3, 1), (0, 4, 2)) * -2
    .set 105 (.ein [(85, [0, 1, 2, 3]), (34, [4, 3, 1])] [0, 4, 2]) (-2) 1,
    -- 1570: del tmp4
    .del 85,
    -- 1571: tmp3 = einsum(r2.aaa, (0, 1, 2), v.aaaa.oovv, (3, 2, 4, 1), (3, 0, 4))
    .set 106 (.ein [(34, [0, 1, 2]), (35, [3, 2, 4, 1])] [3, 0, 4]) 1 1,
    -- 1572: tmp11 = einsum(tmp10, (0, 1, 2, 3), r1.a, (3,), (0, 1, 2)) * 2
    .set 107 (.ein [(86, [0, 1, 2, 3]), (31, [3])] [0, 1, 2]) 2 1,
    -- 1573: del tmp10
    .del 86,
    -- 1574: tmp7 = einsum(r2.bab, (0, 1, 2), tmp6, (3, 2, 4, 0), (3, 1, 4)) * -2
    .set 108 (.ein [(32, [0, 1, 2]), (87, [3, 2, 4, 0])] [3, 1, 4]) (-2) 1,
    -- 1575: del tmp6
    .del 87,
    -- 1576: tmp9 = einsum(tmp8, (0, 1), r2.aaa, (2, 0, 3), (3, 2, 1)) * -4
    .set 109 (.ein [(88, [0, 1]), (34, [2, 0, 3])] [3, 2, 1]) (-4) 1,
    -- 1577: del tmp8
    .del 88,
    -- 1578: tmp13 = einsum(ints.tmp21, (0, 1, 2, 3), r1.a, (2,), (0, 1, 3))
    .set 110 (.ein [(36, [0, 1, 2, 3]), (31, [2])] [0, 1, 3]) 1 1,
    -- 1579: del ints.tmp21
    .del 36,
    -- 1580: tmp15 = einsum(r2.aaa, (0, 1, 2), v.aaaa.ovov, (3, 4, 2, 1), (3, 0, 4))
    .set 111 (.ein [(34, [0, 1, 2]), (33, [3, 4, 2, 1])] [3, 0, 4]) 1 1,
    -- 1581: tmp17 = einsum(r2.bab, (0, 1, 2), v.aabb.ovov, (3, 4, 2, 0), (3, 1, 4)) * -1
    .set 112 (.ein [(32, [0, 1, 2]), (21, [3, 4, 2, 0])] [3, 1, 4]) (-1) 1,
    -- 1582: tmp16 = einsum(ints.tmp31, (0, 1, 2, 3), r2.bab, (3, 4, 1), (0, 2, 4)) * -1
    .set 113 (.ein [(37, [0, 1, 2, 3]), (32, [3, 4, 1])] [0, 2, 4]) (-1) 1,
    -- 1583: tmp14 = einsum(r2.aaa, (0, 1, 2), ints.tmp27, (3, 2, 4, 1), (3, 4, 0))
    .set 114 (.ein [(34, [0, 1, 2]), (38, [3, 2, 4, 1])] [3, 4, 0]) 1 1,
    -- 1584: tmp41 = np.copy(f.bb.oo)
    .set 115 (.cp 39) 1 1,
    -- 1585: tmp41 += np.transpose(ints.tmp103, (1, 0)) * 2
    .add 115 (.tr 40 [1, 0]) 2 1,
    -- 1586: del ints.tmp103
    .del 40,
    -- 1587: tmp41 += np.transpose(ints.tmp105, (1, 0))
    .add 115 (.tr 41 [1, 0]) 1 1,
    -- 1588: del ints.tmp105
    .del 41,
    -- 1589: tmp59 = np.copy(tmp30) * 0.5
    .set 116 (.cp 91) 1 2,
    -- 1590: tmp59 += tmp31 * -0.5
    .add 116 (.cp 89) (-1) 2,
    -- 1591: tmp59 += tmp32
    .add 116 (.cp 90) 1 1,
    -- 1592: tmp52 = np.copy(tmp44)
    .set 117 (.cp 92) 1 1,
    -- 1593: del tmp44
    .del 92,
    -- 1594: tmp52 += tmp45
    .add 117 (.cp 94) 1 1,
    -- 1595: del tmp45
    .del 94,
    -- 1596: tmp52 += tmp46 * 2
    .add 117 (.cp 95) 2 1,
    -- 1597: del tmp46
    .del 95,
    -- 1598: tmp52 += np.transpose(tmp48, (0, 2, 1)) * -1
    .add 117 (.tr 97 [0, 2, 1]) (-1) 1,
    -- 1599: del tmp48
    .del 97,
    -- 1600: tmp52 += np.transpose(tmp49, (0, 2, 1))
    .add 117 (.tr 96 [0, 2, 1]) 1 1,
    -- 1601: del tmp49
    .del 96,
    -- 1602: tmp52 += tmp51
    .add 117 (.cp 93) 1 1,
    -- 1603: del tmp51
    .del 93,
    -- 1604: tmp58 = np.copy(tmp53) * 2
    .set 118 (.cp 100) 2 1,
    -- 1605: del tmp53
    .del 100,
    -- 1606: tmp58 += tmp54 * 4
    .add 118 (.cp 99) 4 1,
    -- 1607: del tmp54
    .del 99,
    -- 1608: tmp58 += tmp55 * 2
    .add 118 (.cp 98) 2 1,
    -- 1609: del tmp55
    .del 98,
    -- 1610: tmp58 += np.transpose(tmp57, (0, 2, 1))
    .add 118 (.tr 101 [0, 2, 1]) 1 1,
    -- 1611: del tmp57
    .del 101,
    -- 1612: tmp43 = einsum(r2.bbb, (0, 1, 2), v.bbbb.ovov, (3, 0, 4, 1), (2, 3, 4))
    .set 119 (.ein [(23, [0, 1, 2]), (22, [3, 0, 4, 1])] [2, 3, 4]) 1 1,
    -- 1613: tmp42 = np.copy(f.bb.ov)
    .set 120 (.cp 25) 1 1,
    -- 1614: tmp42 += ints.tmp102
    .add 120 (.cp 42) 1 1,
    -- 1615: del ints.tmp102
    .del 42,
    -- 1616: tmp42 += ints.tmp107
    .add 120 (.cp 43) 1 1,
    -- 1617: del ints.tmp107
    .del 43,
    -- 1618: tmp42 += ints.tmp108 * 2
    .add 120 (.cp 44) 2 1,
    -- 1619: del ints.tmp108
    .del 44,
    -- 1620: tmp42 += ints.tmp101 * -2
    .add 120 (.cp 45) (-2) 1,
    -- 1621: del ints.tmp101
    .del 45,
    -- 1622: tmp42 += ints.tmp126 * -2
    .add 120 (.cp 46) (-2) 1,
    -- 1623: del ints.tmp126
    .del 46,
    -- 1624: tmp42 += ints.tmp127 * -1
    .add 120 (.cp 47) (-1) 1,
    -- 1625: del ints.tmp127
    .del 47,
    -- 1626: tmp34 = einsum(r2.bab, (0, 1, 2), v.aabb.ovov, (3, 1, 4, 0), (3, 2, 4)) * -1
    .set 121 (.ein [(32, [0, 1, 2]), (21, [3, 1, 4, 0])] [3, 2, 4]) (-1) 1,
    -- 1627: tmp36 = np.copy(ints.tmp117)
    .set 122 (.cp 8) 1 1,
    -- 1628: del ints.tmp117
    .del 8,
    -- 1629: tmp36 += ints.tmp123 * 2
    .add 122 (.cp 9) 2 1,
    -- 1630: del ints.tmp123
    .del 9,
    -- 1631: tmp36 += np.transpose(v.aabb.ovov, (0, 2, 1, 3))
    .add 122 (.tr 21 [0, 2, 1, 3]) 1 1,
    -- 1632: tmp36 += ints.tmp115 * -1
    .add 122 (.cp 26) (-1) 1,
    -- 1633: del ints.tmp115
    .del 26,
    -- 1634: tmp40 = np.copy(tmp19)
    .set 123 (.cp 102) 1 1,
    -- 1635: tmp40 += tmp20 * 2
    .add 123 (.cp 104) 2 1,
    -- 1636: tmp40 += tmp21
    .add 123 (.cp 103) 1 1,
    -- 1637: tmp37 = np.copy(ints.tmp93)
    .set 124 (.cp 48) 1 1,
    -- 1638: del ints.tmp93
    .del 48,
    -- 1639: tmp37 += np.transpose(v.aabb.vvoo, (2, 3, 0, 1)) * -1
    .add 124 (.tr 49 [2, 3, 0, 1]) (-1) 1,
    -- 1640: tmp38 = np.copy(ints.tmp109)
    .set 125 (.cp 50) 1 1,
    -- 1641: del ints.tmp109
    .del 50,
    -- 1642: tmp38 += ints.tmp111 * 2
    .add 125 (.cp 51) 2 1,
    -- 1643: del ints.tmp111
    .del 51,
    -- 1644: tmp38 += ints.tmp94
    .add 125 (.cp 52) 1 1,
    -- 1645: del ints.tmp94
    .del 52,
    -- 1646: tmp38 += np.transpose(v.aabb.vvov, (2, 0, 1, 3))
    .add 125 (.tr 53 [2, 0, 1, 3]) 1 1,
    -- 1647: tmp38 += np.transpose(ints.tmp110, (0, 2, 1, 3)) * -1
    .add 125 (.tr 54 [0, 2, 1, 3]) (-1) 1,
    -- 1648: del ints.tmp110
    .del 54,
    -- 1649: tmp38 += ints.tmp90 * -1
    .add 125 (.cp 55) (-1) 1,
    -- 1650: del ints.tmp90
    .del 55,
    -- 1651: tmp0 = np.copy(np.transpose(ints.tmp3, (1, 0))) * 2
    .set 126 (.tr 17 [1, 0]) 2 1,
    -- 1652: del ints.tmp3
    .del 17,
    -- 1653: tmp0 += np.transpose(ints.tmp5, (1, 0))
    .add 126 (.tr 18 [1, 0]) 1 1,
    -- 1654: del ints.tmp5
    .del 18,
    -- 1655: tmp0 += f.aa.vv * -1
    .add 126 (.cp 19) (-1) 1,
    -- 1656: tmp35 = np.copy(ints.tmp121) * 2
    .set 127 (.cp 6) 2 1,
    -- 1657: del ints.tmp121
    .del 6,
    -- 1658: tmp35 += ints.tmp125
    .add 127 (.cp 7) 1 1,
    -- 1659: del ints.tmp125
    .del 7,
    -- 1660: tmp35 += np.transpose(v.bbbb.ovov, (0, 2, 1, 3))
    .add 127 (.tr 22 [0, 2, 1, 3]) 1 1,
    -- 1661: tmp35 += ints.tmp119 * -2
    .add 127 (.cp 28) (-2) 1,
    -- 1662: del ints.tmp119
    .del 28,
    -- 1663: tmp35 += v.bbbb.oovv * -1
    .add 127 (.cp 27) (-1) 1,
    -- 1664: tmp24 = np.copy(f.aa.ov)
    .set 128 (.cp 30) 1 1,
    -- 1665: tmp24 += ints.tmp14 * 2
    .add 128 (.cp 56) 2 1,
    -- 1666: del ints.tmp14
    .del 56,
    -- 1667: tmp24 += ints.tmp15
    .add 128 (.cp 57) 1 1,
    -- 1668: del ints.tmp15
    .del 57,
    -- 1669: tmp24 += ints.tmp56
    .add 128 (.cp 58) 1 1,
    -- 1670: del ints.tmp56
    .del 58,
    -- 1671: tmp24 += ints.tmp43 * -2
    .add 128 (.cp 59) (-2) 1,
    -- 1672: del ints.tmp43
    .del 59,
    -- 1673: tmp24 += ints.tmp44 * -1
    .add 128 (.cp 60) (-1) 1,
    -- 1674: del ints.tmp44
    .del 60,
    -- 1675: tmp24 += ints.tmp55 * -2
    .add 128 (.cp 61) (-2) 1,
    -- 1676: del ints.tmp55
    .del 61,
    -- 1677: tmp28 = np.copy(ints.tmp65)
    .set 129 (.cp 62) 1 1,
    -- 1678: del ints.tmp65
    .del 62,
    -- 1679: tmp28 += v.aabb.oovv * -1
    .add 129 (.cp 63) (-1) 1,
    -- 1680: tmp27 = np.copy(ints.tmp33)
    .set 130 (.cp 15) 1 1,
    -- 1681: del ints.tmp33
    .del 15,
    -- 1682: tmp27 += ints.tmp37 * 2
    .add 130 (.cp 16) 2 1,
    -- 1683: del ints.tmp37
    .del 16,
    -- 1684: tmp27 += np.transpose(v.aabb.ovov, (0, 2, 1, 3))
    .add 130 (.tr 21 [0, 2, 1, 3]) 1 1,
    -- 1685: tmp27 += ints.tmp31 * -1
    .add 130 (.cp 37) (-1) 1,
    -- 1686: del ints.tmp31
    .del 37,
    -- 1687: tmp33 = np.copy(tmp30)
    .set 131 (.cp 91) 1 1,
    -- 1688: del tmp30
    .del 91,
    -- 1689: tmp33 += tmp31 * -1
    .add 131 (.cp 89) (-1) 1,
    -- 1690: del tmp31
    .del 89,
    -- 1691: tmp33 += tmp32 * 2
    .add 131 (.cp 90) 2 1,
    -- 1692: del tmp32
    .del 90,
    -- 1693: tmp26 = np.copy(ints.tmp29) * 2
    .set 132 (.cp 10) 2 1,
    -- 1694: del ints.tmp29
    .del 10,
    -- 1695: tmp26 += ints.tmp35
    .add 132 (.cp 11) 1 1,
    -- 1696: del ints.tmp35
    .del 11,
    -- 1697: tmp26 += np.transpose(v.aaaa.ovov, (0, 2, 1, 3))
    .add 132 (.tr 33 [0, 2, 1, 3]) 1 1,
    -- 1698: tmp26 += ints.tmp27 * -2
    .add 132 (.cp 38) (-2) 1,
    -- 1699: del ints.tmp27
    .del 38,
    -- 1700: tmp26 += v.aaaa.oovv * -1
    .add 132 (.cp 35) (-1) 1,
    -- 1701: tmp1 = np.copy(np.transpose(ints.tmp10, (1, 0))) * 2
    .set 133 (.tr 3 [1, 0]) 2 1,
    -- 1702: del ints.tmp10
    .del 3,
    -- 1703: tmp1 += np.transpose(ints.tmp12, (1, 0))
    .add 133 (.tr 4 [1, 0]) 1 1,
    -- 1704: del ints.tmp12
    .del 4,
    -- 1705: tmp1 += f.bb.vv * -1
    .add 133 (.cp 5) (-1) 1,
    -- 1706: tmp25 = einsum(r2.aba, (0, 1, 2), v.aabb.ovov, (3, 0, 4, 1), (2, 3, 4))
    .set 134 (.ein [(20, [0, 1, 2]), (21, [3, 0, 4, 1])] [2, 3, 4]) 1 1,
    -- 1707: tmp29 = np.copy(ints.tmp67)
    .set 135 (.cp 64) 1 1,
    -- 1708: del ints.tmp67
    .del 64,
    -- 1709: tmp29 += ints.tmp78
    .add 135 (.cp 65) 1 1,
    -- 1710: del ints.tmp78
    .del 65,
    -- 1711: tmp29 += ints.tmp80 * 2
    .add 135 (.cp 66) 2 1,
    -- 1712: del ints.tmp80
    .del 66,
    -- 1713: tmp29 += v.aabb.ovvv
    .add 135 (.cp 67) 1 1,
    -- 1714: tmp29 += ints.tmp62 * -1
    .add 135 (.cp 68) (-1) 1,
    -- 1715: del ints.tmp62
    .del 68,
    -- 1716: tmp29 += np.transpose(ints.tmp79, (0, 1, 3, 2)) * -1
    .add 135 (.tr 69 [0, 1, 3, 2]) (-1) 1,
    -- 1717: del ints.tmp79
    .del 69,
    -- 1718: tmp23 = np.copy(f.aa.oo)
    .set 136 (.cp 70) 1 1,
    -- 1719: tmp23 += np.transpose(ints.tmp57, (1, 0)) * 2
    .add 136 (.tr 71 [1, 0]) 2 1,
    -- 1720: del ints.tmp57
    .del 71,
    -- 1721: tmp23 += np.transpose(ints.tmp59, (1, 0))
    .add 136 (.tr 72 [1, 0]) 1 1,
    -- 1722: del ints.tmp59
    .del 72,
    -- 1723: tmp22 = np.copy(tmp19) * 0.5
    .set 137 (.cp 102) 1 2,
    -- 1724: del tmp19
    .del 102,
    -- 1725: tmp22 += tmp20
    .add 137 (.cp 104) 1 1,
    -- 1726: del tmp20
    .del 104,
    -- 1727: tmp22 += tmp21 * 0.5
    .add 137 (.cp 103) 1 2,
    -- 1728: del tmp21
    .del 103,
    -- 1729: tmp2 = einsum(v.aaaa.ovov, (0, 1, 2, 3), r2.aaa, (1, 3, 4), (4, 0, 2))
    .set 138 (.ein [(33, [0, 1, 2, 3]), (34, [1, 3, 4])] [4, 0, 2]) 1 1,
    -- 1730: tmp12 = np.copy(tmp3) * 2
    .set 139 (.cp 106) 2 1,
    -- 1731: del tmp3
    .del 106,
    -- 1732: tmp12 += np.transpose(tmp5, (0, 2, 1)) * -1
    .add 139 (.tr 105 [0, 2, 1]) (-1) 1,
    -- 1733: del tmp5
    .del 105,
    -- 1734: tmp12 += np.transpose(tmp7, (0, 2, 1))
    .add 139 (.tr 108 [0, 2, 1]) 1 1,
    -- 1735: del tmp7
    .del 108,
    -- 1736: tmp12 += np.transpose(tmp9, (0, 2, 1))
    .add 139 (.tr 109 [0, 2, 1]) 1 1,
    -- 1737: del tmp9
    .del 109,
    -- 1738: tmp12 += tmp11
    .add 139 (.cp 107) 1 1,
    -- 1739: del tmp11
    .del 107,
    -- 1740: tmp18 = np.copy(tmp13) * 2
    .set 140 (.cp 110) 2 1,
    -- 1741: del tmp13
    .del 110,
    -- 1742: tmp18 += tmp14 * 4
    .add 140 (.cp 114) 4 1,
    -- 1743: del tmp14
    .del 114,
    -- 1744: tmp18 += tmp15 * 2
    .add 140 (.cp 111) 2 1,
    -- 1745: del tmp15
    .del 111,
    -- 1746: tmp18 += tmp16
    .add 140 (.cp 113) 1 1,
    -- 1747: del tmp16
    .del 113,
    -- 1748: tmp18 += tmp17
    .add 140 (.cp 112) 1 1,
    -- 1749: del tmp17
    .del 112,
    -- 1750: r2new.bbb = einsum(r2.bbb, (0, 1, 2), v.bbbb.vvvv, (3, 1, 4, 0), (3, 4, 2)) * -2
    .set 141 (.ein [(23, [0, 1, 2]), (73, [3, 1, 4, 0])] [3, 4, 2]) (-2) 1,
    -- 1751: r2new.bbb += einsum(tmp43, (0, 1, 2), t2.bbbb, (2, 1, 3, 4), (3, 4, 0)) * -2
    .add 141 (.ein [(119, [0, 1, 2]), (74, [2, 1, 3, 4])] [3, 4, 0]) (-2) 1,
    -- 1752: del tmp43
    .del 119,
    -- 1753: r2new.bbb += einsum(r1.b, (0,), ints.tmp148, (1, 2, 3, 0), (3, 2, 1)) * 2
    .add 141 (.ein [(24, [0]), (75, [1, 2, 3, 0])] [3, 2, 1]) 2 1,
    -- 1754: del ints.tmp148
    .del 75,
    -- 1755: r2new.bbb += np.transpose(tmp52, (1, 2, 0)) * -1
    .add 141 (.tr 117 [1, 2, 0]) (-1) 1,
    -- 1756: r2new.bbb += np.transpose(tmp52, (2, 1, 0))
    .add 141 (.tr 117 [2, 1, 0]) 1 1,
    -- 1757: del tmp52
    .del 117,
    -- 1758: r2new.bbb += np.transpose(tmp58, (1, 2, 0))
    .add 141 (.tr 118 [1, 2, 0]) 1 1,
    -- 1759: r2new.bbb += np.transpose(tmp58, (2, 1, 0)) * -1
    .add 141 (.tr 118 [2, 1, 0]) (-1) 1,
    -- 1760: del tmp58
    .del 118,
    -- 1761: r2new.bbb += einsum(tmp59, (0,), t2.bbbb, (1, 0, 2, 3), (2, 3, 1)) * 4
    .add 141 (.ein [(116, [0]), (74, [1, 0, 2, 3])] [2, 3, 1]) 4 1,
    -- 1762: del tmp59
    .del 116,
    -- 1763: r2new.bbb += einsum(r2.bbb, (0, 1, 2), tmp41, (2, 3), (0, 1, 3)) * -2
    .add 141 (.ein [(23, [0, 1, 2]), (115, [2, 3])] [0, 1, 3]) (-2) 1,
    -- 1764: r2new.bbb += einsum(tmp42, (0, 1), r1.b, (2,), (2, 1, 0))
    .add 141 (.ein [(120, [0, 1]), (24, [2])] [2, 1, 0]) 1 1,
    -- 1765: r2new.bbb += einsum(r1.b, (0,), tmp42, (1, 2), (2, 0, 1)) * -1
    .add 141 (.ein [(24, [0]), (120, [1, 2])] [2, 0, 1]) (-1) 1,
    -- 1766: r2new.bab = einsum(r2.bab, (0, 1, 2), v.aabb.vvvv, (3, 1, 4, 0), (4, 3, 2))
    .set 142 (.ein [(32, [0, 1, 2]), (76, [3, 1, 4, 0])] [4, 3, 2]) 1 1,
    -- 1767: r2new.bab += einsum(t2.abab, (0, 1, 2, 3), tmp34, (0, 4, 1), (3, 2, 4)) * -1
    .add 142 (.ein [(77, [0, 1, 2, 3]), (121, [0, 4, 1])] [3, 2, 4]) (-1) 1,
    -- 1768: del tmp34
    .del 121,
    -- 1769: r2new.bab += einsum(tmp35, (0, 1, 2, 3), r2.bab, (3, 4, 1), (2, 4, 0))
    .add 142 (.ein [(127, [0, 1, 2, 3]), (32, [3, 4, 1])] [2, 4, 0]) 1 1,
    -- 1770: del tmp35
    .del 127,
    -- 1771: r2new.bab += einsum(r2.aaa, (0, 1, 2), tmp36, (2, 3, 1, 4), (4, 0, 3)) * -2
    .add 142 (.ein [(34, [0, 1, 2]), (122, [2, 3, 1, 4])] [4, 0, 3]) (-2) 1,
    -- 1772: del tmp36
    .del 122,
    -- 1773: r2new.bab += einsum(r2.bab, (0, 1, 2), tmp37, (3, 2, 4, 1), (0, 4, 3))
    .add 142 (.ein [(32, [0, 1, 2]), (124, [3, 2, 4, 1])] [0, 4, 3]) 1 1,
    -- 1774: del tmp37
    .del 124,
    -- 1775: r2new.bab += einsum(tmp38, (0, 1, 2, 3), r1.a, (2,), (3, 1, 0)) * -1
    .add 142 (.ein [(125, [0, 1, 2, 3]), (31, [2])] [3, 1, 0]) (-1) 1,
    -- 1776: del tmp38
    .del 125,
    -- 1777: r2new.bab += einsum(r2.bab, (0, 1, 2), tmp0, (1, 3), (0, 3, 2)) * -1
    .add 142 (.ein [(32, [0, 1, 2]), (126, [1, 3])] [0, 3, 2]) (-1) 1,
    -- 1778: r2new.bab += einsum(r2.bab, (0, 1, 2), tmp39, (0, 3), (3, 1, 2)) * -2
    .add 142 (.ein [(32, [0, 1, 2]), (82, [0, 3])] [3, 1, 2]) (-2) 1,
    -- 1779: del tmp39
    .del 82,
    -- 1780: r2new.bab += einsum(t2.abab, (0, 1, 2, 3), tmp40, (0,), (3, 2, 1))
    .add 142 (.ein [(77, [0, 1, 2, 3]), (123, [0])] [3, 2, 1]) 1 1,
    -- 1781: del tmp40
    .del 123,
    -- 1782: r2new.bab += einsum(r2.bab, (0, 1, 2), tmp41, (2, 3), (0, 1, 3)) * -1
    .add 142 (.ein [(32, [0, 1, 2]), (115, [2, 3])] [0, 1, 3]) (-1) 1,
    -- 1783: del tmp41
    .del 115,
    -- 1784: r2new.bab += einsum(tmp42, (0, 1), r1.a, (2,), (1, 2, 0)) * -1
    .add 142 (.ein [(120, [0, 1]), (31, [2])] [1, 2, 0]) (-1) 1,
    -- 1785: del tmp42
    .del 120,
    -- 1786: r2new.aba = einsum(r2.aba, (0, 1, 2), v.aabb.vvvv, (3, 0, 4, 1), (3, 4, 2))
    .set 143 (.ein [(20, [0, 1, 2]), (76, [3, 0, 4, 1])] [3, 4, 2]) 1 1,
    -- 1787: r2new.aba += einsum(tmp25, (0, 1, 2), t2.abab, (1, 2, 3, 4), (3, 4, 0))
    .add 143 (.ein [(134, [0, 1, 2]), (77, [1, 2, 3, 4])] [3, 4, 0]) 1 1,
    -- 1788: del tmp25
    .del 134,
    -- 1789: r2new.aba += einsum(r2.aba, (0, 1, 2), tmp26, (3, 2, 4, 0), (4, 1, 3))
    .add 143 (.ein [(20, [0, 1, 2]), (132, [3, 2, 4, 0])] [4, 1, 3]) 1 1,
    -- 1790: del tmp26
    .del 132,
    -- 1791: r2new.aba += einsum(r2.bbb, (0, 1, 2), tmp27, (3, 2, 4, 1), (4, 0, 3)) * -2
    .add 143 (.ein [(23, [0, 1, 2]), (130, [3, 2, 4, 1])] [4, 0, 3]) (-2) 1,
    -- 1792: del tmp27
    .del 130,
    -- 1793: r2new.aba += einsum(r2.aba, (0, 1, 2), tmp28, (3, 2, 4, 1), (0, 4, 3))
    .add 143 (.ein [(20, [0, 1, 2]), (129, [3, 2, 4, 1])] [0, 4, 3]) 1 1,
    -- 1794: del tmp28
    .del 129,
    -- 1795: r2new.aba += einsum(r1.b, (0,), tmp29, (1, 2, 3, 0), (2, 3, 1)) * -1
    .add 143 (.ein [(24, [0]), (135, [1, 2, 3, 0])] [2, 3, 1]) (-1) 1,
    -- 1796: del tmp29
    .del 135,
    -- 1797: r2new.aba += einsum(r2.aba, (0, 1, 2), tmp1, (1, 3), (0, 3, 2)) * -1
    .add 143 (.ein [(20, [0, 1, 2]), (133, [1, 3])] [0, 3, 2]) (-1) 1,
    -- 1798: r2new.aba += einsum(r2.aba, (0, 1, 2), tmp0, (0, 3), (3, 1, 2)) * -1
    .add 143 (.ein [(20, [0, 1, 2]), (126, [0, 3])] [3, 1, 2]) (-1) 1,
    -- 1799: r2new.aba += einsum(tmp33, (0,), t2.abab, (1, 0, 2, 3), (2, 3, 1))
    .add 143 (.ein [(131, [0]), (77, [1, 0, 2, 3])] [2, 3, 1]) 1 1,
    -- 1800: del tmp33
    .del 131,
    -- 1801: r2new.aba += einsum(r2.aba, (0, 1, 2), tmp23, (2, 3), (0, 1, 3)) * -1
    .add 143 (.ein [(20, [0, 1, 2]), (136, [2, 3])] [0, 1, 3]) (-1) 1,
    -- 1802: r2new.aba += einsum(tmp24, (0, 1), r1.b, (2,), (1, 2, 0)) * -1
    .add 143 (.ein [(128, [0, 1]), (24, [2])] [1, 2, 0]) (-1) 1,
    -- 1803: r2new.aaa = einsum(ints.tmp45, (0, 1, 2, 3), r1.a, (3,), (2, 1, 0)) * 2
    .set 144 (.ein [(78, [0, 1, 2, 3]), (31, [3])] [2, 1, 0]) 2 1,
    -- 1804: del ints.tmp45
    .del 78,
    -- 1805: r2new.aaa += einsum(r2.aaa, (0, 1, 2), v.aaaa.vvvv, (3, 1, 4, 0), (3, 4, 2)) * -2
    .add 144 (.ein [(34, [0, 1, 2]), (79, [3, 1, 4, 0])] [3, 4, 2]) (-2) 1,
    -- 1806: r2new.aaa += einsum(tmp2, (0, 1, 2), t2.aaaa, (2, 1, 3, 4), (3, 4, 0)) * -2
    .add 144 (.ein [(138, [0, 1, 2]), (80, [2, 1, 3, 4])] [3, 4, 0]) (-2) 1,
    -- 1807: del tmp2
    .del 138,
    -- 1808: r2new.aaa += np.transpose(tmp12, (1, 2, 0)) * -1
    .add 144 (.tr 139 [1, 2, 0]) (-1) 1,
    -- 1809: r2new.aaa += np.transpose(tmp12, (2, 1, 0))
    .add 144 (.tr 139 [2, 1, 0]) 1 1,
    -- 1810: del tmp12
    .del 139,
    -- 1811: r2new.aaa += np.transpose(tmp18, (1, 2, 0))
    .add 144 (.tr 140 [1, 2, 0]) 1 1,
    -- 1812: r2new.aaa += np.transpose(tmp18, (2, 1, 0)) * -1
    .add 144 (.tr 140 [2, 1, 0]) (-1) 1,
    -- 1813: del tmp18
    .del 140,
    -- 1814: r2new.aaa += einsum(t2.aaaa, (0, 1, 2, 3), tmp22, (1,), (2, 3, 0)) * 4
    .add 144 (.ein [(80, [0, 1, 2, 3]), (137, [1])] [2, 3, 0]) 4 1,
    -- 1815: del tmp22
    .del 137,
    -- 1816: r2new.aaa += einsum(r2.aaa, (0, 1, 2), tmp23, (2, 3), (0, 1, 3)) * -2
    .add 144 (.ein [(34, [0, 1, 2]), (136, [2, 3])] [0, 1, 3]) (-2) 1,
    -- 1817: del tmp23
    .del 136,
    -- 1818: r2new.aaa += einsum(tmp24, (0, 1), r1.a, (2,), (2, 1, 0))
    .add 144 (.ein [(128, [0, 1]), (31, [2])] [2, 1, 0]) 1 1,
    -- 1819: r2new.aaa += einsum(tmp24, (0, 1), r1.a, (2,), (1, 2, 0)) * -1
    .add 144 (.ein [(128, [0, 1]), (31, [2])] [1, 2, 0]) (-1) 1,
    -- 1820: del tmp24
    .del 128,
    -- 1821: r1new.b = einsum(f.aa.ov, (0, 1), r2.aba, (1, 2, 0), (2,)) * -1
    .set 145 (.ein [(30, [0, 1]), (20, [1, 2, 0])] [2]) (-1) 1,
    -- 1822: r1new.b += einsum(f.bb.ov, (0, 1), r2.bbb, (2, 1, 0), (2,)) * 2
    .add 145 (.ein [(25, [0, 1]), (23, [2, 1, 0])] [2]) 2 1,
    -- 1823: r1new.b += einsum(r2.aba, (0, 1, 2), v.aabb.ovvv, (2, 0, 3, 1), (3,)) * -1
    .add 145 (.ein [(20, [0, 1, 2]), (67, [2, 0, 3, 1])] [3]) (-1) 1,
    -- 1824: r1new.b += einsum(r2.bbb, (0, 1, 2), v.bbbb.ovvv, (2, 0, 3, 1), (3,)) * -2
    .add 145 (.ein [(23, [0, 1, 2]), (2, [2, 0, 3, 1])] [3]) (-2) 1,
    -- 1825: r1new.b += einsum(r1.b, (0,), tmp1, (0, 1), (1,)) * -1
    .add 145 (.ein [(24, [0]), (133, [0, 1])] [1]) (-1) 1,
    -- 1826: del tmp1
    .del 133,
    -- 1827: r1new.a = einsum(r2.aaa, (0, 1, 2), v.aaaa.ovvv, (2, 1, 3, 0), (3,)) * 2
    .set 146 (.ein [(34, [0, 1, 2]), (14, [2, 1, 3, 0])] [3]) 2 1,
    -- 1828: r1new.a += einsum(r2.bab, (0, 1, 2), f.bb.ov, (2, 0), (1,)) * -1
    .add 146 (.ein [(32, [0, 1, 2]), (25, [2, 0])] [1]) (-1) 1,
    -- 1829: r1new.a += einsum(f.aa.ov, (0, 1), r2.aaa, (2, 1, 0), (2,)) * 2
    .add 146 (.ein [(30, [0, 1]), (34, [2, 1, 0])] [2]) 2 1,
    -- 1830: r1new.a += einsum(r2.bab, (0, 1, 2), v.aabb.vvov, (3, 1, 2, 0), (3,)) * -1
    .add 146 (.ein [(32, [0, 1, 2]), (53, [3, 1, 2, 0])] [3]) (-1) 1,
    -- 1831: r1new.a += einsum(r1.a, (0,), tmp0, (0, 1), (1,)) * -1
    .add 146 (.ein [(31, [0]), (126, [0, 1])] [1]) (-1) 1,
    -- 1832: del tmp0
    .del 126
  ]
  ret := [(chars! "r1new.b", 145), (chars! "r1new.a", 146), (chars! "r2new.bbb", 141), (chars! "r2new.bab", 142), (chars! "r2new.aba", 143), (chars! "r2new.aaa", 144)]

/-- codegen/UCCD.py:2331-2453 `hbar_lmatvec_ea_intermediates`. -/
def hbar_lmatvec_ea_intermediates : GenFun where
  args := [chars! "t2.abab", chars! "v.aabb.ovov", chars! "t2.aaaa", chars! "t2.bbbb", chars! "v.bbbb.ovov", chars! "v.aaaa.ovov", chars! "v.aabb.vvov", chars! "v.aabb.ovvv", chars! "v.bbbb.ovvv", chars! "v.aabb.ooov", chars! "v.bbbb.ooov", chars! "v.aaaa.ovvv", chars! "v.aabb.ovoo", chars! "v.aaaa.ooov", chars! "f.bb.ov", chars! "f.aa.ov"]
  body := [
    -- 2400: tmp158 = einsum(t2.abab, (0, 1, 2, 3), v.aabb.ovov, (0, 4, 5, 3), (1, 5, 2, 4))
    .set 16 (.ein [(0, [0, 1, 2, 3]), (1, [0, 4, 5, 3])] [1, 5, 2, 4]) 1 1,
    -- 2401: tmp148 = einsum(t2.abab, (0, 1, 2, 3), v.aabb.ovov, (0, 2, 4, 5), (1, 4, 3, 5))
    .set 17 (.ein [(0, [0, 1, 2, 3]), (1, [0, 2, 4, 5])] [1, 4, 3, 5]) 1 1,
    -- 2402: tmp146 = einsum(t2.aaaa, (0, 1, 2, 3), v.aabb.ovov, (1, 3, 4, 5), (0, 4, 2, 5))
    .set 18 (.ein [(2, [0, 1, 2, 3]), (1, [1, 3, 4, 5])] [0, 4, 2, 5]) 1 1,
    -- 2403: tmp144 = einsum(t2.bbbb, (0, 1, 2, 3), v.bbbb.ovov, (4, 5, 1, 3), (0, 4, 2, 5))
    .set 19 (.ein [(3, [0, 1, 2, 3]), (4, [4, 5, 1, 3])] [0, 4, 2, 5]) 1 1,
    -- 2404: tmp142 = einsum(v.bbbb.ovov, (0, 1, 2, 3), t2.abab, (4, 2, 5, 3), (4, 0, 5, 1))
    .set 20 (.ein [(4, [0, 1, 2, 3]), (0, [4, 2, 5, 3])] [4, 0, 5, 1]) 1 1,
    -- 2405: tmp140 = einsum(t2.bbbb, (0, 1, 2, 3), v.bbbb.ovov, (4, 3, 1, 5), (0, 4, 2, 5))
    .set 21 (.ein [(3, [0, 1, 2, 3]), (4, [4, 3, 1, 5])] [0, 4, 2, 5]) 1 1,
    -- 2406: tmp138 = einsum(v.bbbb.ovov, (0, 1, 2, 3), t2.abab, (4, 2, 5, 1), (4, 0, 5, 3))
    .set 22 (.ein [(4, [0, 1, 2, 3]), (0, [4, 2, 5, 1])] [4, 0, 5, 3]) 1 1,
    -- 2407: tmp136 = einsum(t2.abab, (0, 1, 2, 3), v.aabb.ovov, (0, 2, 4, 3), (1, 4))
    .set 23 (.ein [(0, [0, 1, 2, 3]), (1, [0, 2, 4, 3])] [1, 4]) 1 1,
    -- 2408: tmp134 = einsum(t2.bbbb, (0, 1, 2, 3), v.bbbb.ovov, (4, 3, 1, 2), (0, 4)) * -1
    .set 24 (.ein [(3, [0, 1, 2, 3]), (4, [4, 3, 1, 2])] [0, 4]) (-1) 1,
    -- 2409: tmp132 = einsum(t2.abab, (0, 1, 2, 3), v.aabb.ovov, (4, 2, 1, 5), (0, 4, 3, 5))
    .set 25 (.ein [(0, [0, 1, 2, 3]), (1, [4, 2, 1, 5])] [0, 4, 3, 5]) 1 1,
    -- 2410: tmp105 = einsum(v.aabb.ovov, (0, 1, 2, 3), t2.bbbb, (4, 2, 5, 3), (0, 4, 1, 5))
    .set 26 (.ein [(1, [0, 1, 2, 3]), (3, [4, 2, 5, 3])] [0, 4, 1, 5]) 1 1,
    -- 2411: tmp103 = einsum(t2.abab, (0, 1, 2, 3), v.aabb.ovov, (4, 5, 1, 3), (0, 4, 2, 5))
    .set 27 (.ein [(0, [0, 1, 2, 3]), (1, [4, 5, 1, 3])] [0, 4, 2, 5]) 1 1,
    -- 2412: tmp101 = einsum(t2.abab, (0, 1, 2, 3), v.aaaa.ovov, (4, 5, 0, 2), (4, 1, 5, 3))
    .set 28 (.ein [(0, [0, 1, 2, 3]), (5, [4, 5, 0, 2])] [4, 1, 5, 3]) 1 1,
    -- 2413: tmp99 = einsum(v.aaaa.ovov, (0, 1, 2, 3), t2.aaaa, (4, 2, 5, 3), (4, 0, 5, 1))
    .set 29 (.ein [(5, [0, 1, 2, 3]), (2, [4, 2, 5, 3])] [4, 0, 5, 1]) 1 1,
    -- 2414: tmp97 = einsum(t2.abab, (0, 1, 2, 3), v.aaaa.ovov, (4, 2, 0, 5), (4, 1, 5, 3))
    .set 30 (.ein [(0, [0, 1, 2, 3]), (5, [4, 2, 0, 5])] [4, 1, 5, 3]) 1 1,
    -- 2415: tmp95 = einsum(v.aaaa.ovov, (0, 1, 2, 3), t2.aaaa, (4, 2, 5, 1), (4, 0, 5, 3))
    .set 31 (.ein [(5, [0, 1, 2, 3]), (2, [4, 2, 5, 1])] [4, 0, 5, 3]) 1 1,
    -- 2416: tmp93 = einsum(t2.abab, (0, 1, 2, 3), v.aabb.ovov, (4, 2, 1, 3), (0, 4))
    .set 32 (.ein [(0, [0, 1, 2, 3]), (1, [4, 2, 1, 3])] [0, 4]) 1 1,
    -- 2417: tmp91 = einsum(t2.aaaa, (0, 1, 2, 3), v.aaaa.ovov, (4, 2, 1, 3), (0, 4))
    .set 33 (.ein [(2, [0, 1, 2, 3]), (5, [4, 2, 1, 3])] [0, 4]) 1 1,
    -- 2418: tmp85 = einsum(v.aabb.vvov, (0, 1, 2, 3), t2.abab, (4, 2, 1, 5), (4, 0, 5, 3))
    .set 34 (.ein [(6, [0, 1, 2, 3]), (0, [4, 2, 1, 5])] [4, 0, 5, 3]) 1 1,
    -- 2419: tmp83 = einsum(v.aabb.ovvv, (0, 1, 2, 3), t2.abab, (0, 4, 1, 5), (4, 5, 2, 3))
    .set 35 (.ein [(7, [0, 1, 2, 3]), (0, [0, 4, 1, 5])] [4, 5, 2, 3]) 1 1,
    -- 2420: tmp81 = einsum(v.aabb.ovvv, (0, 1, 2, 3), t2.aaaa, (4, 0, 5, 1), (4, 5, 2, 3))
    .set 36 (.ein [(7, [0, 1, 2, 3]), (2, [4, 0, 5, 1])] [4, 5, 2, 3]) 1 1,
    -- 2421: tmp79 = einsum(t2.bbbb, (0, 1, 2, 3), v.bbbb.ovvv, (1, 4, 5, 3), (0, 2, 4, 5))
    .set 37 (.ein [(3, [0, 1, 2, 3]), (8, [1, 4, 5, 3])] [0, 2, 4, 5]) 1 1,
    -- 2422: tmp78 = einsum(v.bbbb.ovvv, (0, 1, 2, 3), t2.abab, (4, 0, 5, 3), (4, 5, 1, 2))
    .set 38 (.ein [(8, [0, 1, 2, 3]), (0, [4, 0, 5, 3])] [4, 5, 1, 2]) 1 1,
    -- 2423: tmp76 = einsum(t2.bbbb, (0, 1, 2, 3), v.bbbb.ovvv, (1, 3, 4, 5), (0, 2, 4, 5))
    .set 39 (.ein [(3, [0, 1, 2, 3]), (8, [1, 3, 4, 5])] [0, 2, 4, 5]) 1 1,
    -- 2424: tmp75 = einsum(v.bbbb.ovvv, (0, 1, 2, 3), t2.abab, (4, 0, 5, 1), (4, 5, 2, 3))
    .set 40 (.ein [(8, [0, 1, 2, 3]), (0, [4, 0, 5, 1])] [4, 5, 2, 3]) 1 1,
    -- 2425: tmp69 = einsum(v.aabb.ooov, (0, 1, 2, 3), t2.abab, (1, 2, 4, 5), (0, 4, 5, 3))
    .set 41 (.ein [(9, [0, 1, 2, 3]), (0, [1, 2, 4, 5])] [0, 4, 5, 3]) 1 1,
    -- 2426: tmp67 = einsum(t2.bbbb, (0, 1, 2, 3), v.bbbb.ooov, (4, 1, 0, 5), (4, 2, 3, 5)) * -1
    .set 42 (.ein [(3, [0, 1, 2, 3]), (10, [4, 1, 0, 5])] [4, 2, 3, 5]) (-1) 1,
    -- 2427: tmp61 = einsum(v.aabb.ovov, (0, 1, 2, 3), t2.abab, (0, 2, 1, 4), (4, 3))
    .set 43 (.ein [(1, [0, 1, 2, 3]), (0, [0, 2, 1, 4])] [4, 3]) 1 1,
    -- 2428: tmp59 = einsum(t2.bbbb, (0, 1, 2, 3), v.bbbb.ovov, (0, 4, 1, 3), (2, 4))
    .set 44 (.ein [(3, [0, 1, 2, 3]), (4, [0, 4, 1, 3])] [2, 4]) 1 1,
    -- 2429: tmp48 = einsum(v.aabb.ovvv, (0, 1, 2, 3), t2.abab, (0, 4, 5, 3), (4, 5, 1, 2))
    .set 45 (.ein [(7, [0, 1, 2, 3]), (0, [0, 4, 5, 3])] [4, 5, 1, 2]) 1 1,
    -- 2430: tmp46 = einsum(v.aabb.vvov, (0, 1, 2, 3), t2.bbbb, (4, 2, 5, 3), (4, 0, 1, 5))
    .set 46 (.ein [(6, [0, 1, 2, 3]), (3, [4, 2, 5, 3])] [4, 0, 1, 5]) 1 1,
    -- 2431: tmp44 = einsum(v.aabb.vvov, (0, 1, 2, 3), t2.abab, (4, 2, 5, 3), (4, 5, 0, 1))
    .set 47 (.ein [(6, [0, 1, 2, 3]), (0, [4, 2, 5, 3])] [4, 5, 0, 1]) 1 1,
    -- 2432: tmp43 = einsum(v.aaaa.ovvv, (0, 1, 2, 3), t2.abab, (0, 4, 3, 5), (4, 1, 2, 5))
    .set 48 (.ein [(11, [0, 1, 2, 3]), (0, [0, 4, 3, 5])] [4, 1, 2, 5]) 1 1,
    -- 2433: tmp41 = einsum(v.aaaa.ovvv, (0, 1, 2, 3), t2.aaaa, (4, 0, 5, 3), (4, 5, 1, 2))
    .set 49 (.ein [(11, [0, 1, 2, 3]), (2, [4, 0, 5, 3])] [4, 5, 1, 2]) 1 1,
    -- 2434: tmp40 = einsum(v.aaaa.ovvv, (0, 1, 2, 3), t2.abab, (0, 4, 1, 5), (4, 2, 3, 5))
    .set 50 (.ein [(11, [0, 1, 2, 3]), (0, [0, 4, 1, 5])] [4, 2, 3, 5]) 1 1,
    -- 2435: tmp38 = einsum(v.aaaa.ovvv, (0, 1, 2, 3), t2.aaaa, (4, 0, 5, 1), (4, 5, 2, 3))
    .set 51 (.ein [(11, [0, 1, 2, 3]), (2, [4, 0, 5, 1])] [4, 5, 2, 3]) 1 1,
    -- 2436: tmp36 = einsum(v.aabb.vvov, (0, 1, 2, 3), t2.abab, (4, 2, 1, 3), (4, 0))
    .set 52 (.ein [(6, [0, 1, 2, 3]), (0, [4, 2, 1, 3])] [4, 0]) 1 1,
    -- 2437: tmp34 = einsum(v.aabb.ovvv, (0, 1, 2, 3), t2.abab, (0, 4, 1, 3), (4, 2))
    .set 53 (.ein [(7, [0, 1, 2, 3]), (0, [0, 4, 1, 3])] [4, 2]) 1 1,
    -- 2438: tmp32 = einsum(t2.bbbb, (0, 1, 2, 3), v.bbbb.ovvv, (1, 3, 4, 2), (0, 4)) * -1
    .set 54 (.ein [(3, [0, 1, 2, 3]), (8, [1, 3, 4, 2])] [0, 4]) (-1) 1,
    -- 2439: tmp30 = einsum(v.aaaa.ovvv, (0, 1, 2, 3), t2.aaaa, (4, 0, 1, 3), (4, 2))
    .set 55 (.ein [(11, [0, 1, 2, 3]), (2, [4, 0, 1, 3])] [4, 2]) 1 1,
    -- 2440: tmp28 = einsum(v.aabb.ovoo, (0, 1, 2, 3), t2.abab, (0, 3, 4, 5), (2, 4, 1, 5))
    .set 56 (.ein [(12, [0, 1, 2, 3]), (0, [0, 3, 4, 5])] [2, 4, 1, 5]) 1 1,
    -- 2441: tmp26 = einsum(v.aaaa.ooov, (0, 1, 2, 3), t2.aaaa, (1, 2, 4, 5), (0, 4, 5, 3))
    .set 57 (.ein [(13, [0, 1, 2, 3]), (2, [1, 2, 4, 5])] [0, 4, 5, 3]) 1 1,
    -- 2442: tmp24 = einsum(v.aabb.ooov, (0, 1, 2, 3), t2.abab, (1, 2, 4, 3), (0, 4))
    .set 58 (.ein [(9, [0, 1, 2, 3]), (0, [1, 2, 4, 3])] [0, 4]) 1 1,
    -- 2443: tmp22 = einsum(t2.abab, (0, 1, 2, 3), v.aabb.ovoo, (0, 2, 4, 1), (4, 3))
    .set 59 (.ein [(0, [0, 1, 2, 3]), (12, [0, 2, 4, 1])] [4, 3]) 1 1,
    -- 2444: tmp20 = einsum(t2.bbbb, (0, 1, 2, 3), v.bbbb.ooov, (4, 1, 0, 3), (4, 2)) * -1
    .set 60 (.ein [(3, [0, 1, 2, 3]), (10, [4, 1, 0, 3])] [4, 2]) (-1) 1,
    -- 2445: tmp18 = einsum(t2.aaaa, (0, 1, 2, 3), v.aaaa.ooov, (4, 0, 1, 3), (4, 2))
    .set 61 (.ein [(2, [0, 1, 2, 3]), (13, [4, 0, 1, 3])] [4, 2]) 1 1,
    -- 2446: tmp16 = einsum(t2.abab, (0, 1, 2, 3), v.aabb.ovov, (0, 4, 1, 3), (2, 4))
    .set 62 (.ein [(0, [0, 1, 2, 3]), (1, [0, 4, 1, 3])] [2, 4]) 1 1,
    -- 2447: tmp14 = einsum(v.aaaa.ovov, (0, 1, 2, 3), t2.aaaa, (0, 2, 4, 1), (4, 3)) * -1
    .set 63 (.ein [(5, [0, 1, 2, 3]), (2, [0, 2, 4, 1])] [4, 3]) (-1) 1,
    -- 2448: tmp6 = einsum(f.bb.ov, (0, 1), t2.bbbb, (2, 0, 3, 1), (2, 3))
    .set 64 (.ein [(14, [0, 1]), (3, [2, 0, 3, 1])] [2, 3]) 1 1,
    -- 2449: tmp4 = einsum(t2.abab, (0, 1, 2, 3), f.bb.ov, (1, 3), (0, 2))
    .set 65 (.ein [(0, [0, 1, 2, 3]), (14, [1, 3])] [0, 2]) 1 1,
    -- 2450: tmp3 = einsum(t2.abab, (0, 1, 2, 3), f.aa.ov, (0, 2), (1, 3))
    .set 66 (.ein [(0, [0, 1, 2, 3]), (15, [0, 2])] [1, 3]) 1 1,
    -- 2451: tmp1 = einsum(f.aa.ov, (0, 1), t2.aaaa, (2, 0, 3, 1), (2, 3))
    .set 67 (.ein [(15, [0, 1]), (2, [2, 0, 3, 1])] [2, 3]) 1 1
  ]
  ret := [(chars! "tmp1", 67), (chars! "tmp101", 28), (chars! "tmp103", 27), (chars! "tmp105", 26), (chars! "tmp132", 25), (chars! "tmp134", 24), (chars! "tmp136", 23), (chars! "tmp138", 22), (chars! "tmp14", 63), (chars! "tmp140", 21), (chars! "tmp142", 20), (chars! "tmp144", 19), (chars! "tmp146", 18), (chars! "tmp148", 17), (chars! "tmp158", 16), (chars! "tmp16", 62), (chars! "tmp18", 61), (chars! "tmp20", 60), (chars! "tmp22", 59), (chars! "tmp24", 58), (chars! "tmp26", 57), (chars! "tmp28", 56), (chars! "tmp3", 66), (chars! "tmp30", 55), (chars! "tmp32", 54), (chars! "tmp34", 53), (chars! "tmp36", 52), (chars! "tmp38", 51), (chars! "tmp4", 65), (chars! "tmp40", 50), (chars! "tmp41", 49), (chars! "tmp43", 48), (chars! "tmp44", 47), (chars! "tmp46", 46), (chars! "tmp48", 45), (chars! "tmp59", 44), (chars! "tmp6", 64), (chars! "tmp61", 43), (chars! "tmp67", 42), (chars! "tmp69", 41), (chars! "tmp75", 40), (chars! "tmp76", 39), (chars! "tmp78", 38), (chars! "tmp79", 37), (chars! "tmp81", 36), (chars! "tmp83", 35), (chars! "tmp85", 34), (chars! "tmp91", 33), (chars! "tmp93", 32), (chars! "tmp95", 31), (chars! "tmp97", 30), (chars! "tmp99", 29)]

/-- codegen/UCCD.py:2455-2787 `hbar_lmatvec_ea`. -/
def hbar_lmatvec_ea : GenFun where
  args := [chars! "t2.bbbb", chars! "r2.bbb", chars! "t2.abab", chars! "r2.aba", chars! "ints.tmp144", chars! "ints.tmp148", chars! "ints.tmp59", chars! "ints.tmp61", chars! "f.bb.vv", chars! "ints.tmp142", chars! "ints.tmp146", chars! "ints.tmp101", chars! "ints.tmp105", chars! "t2.aaaa", chars! "r2.aaa", chars! "ints.tmp103", chars! "ints.tmp99", chars! "ints.tmp14", chars! "ints.tmp16", chars! "f.aa.vv", chars! "r2.bab", chars! "r1.b", chars! "v.bbbb.ovvv", chars! "v.bbbb.ovov", chars! "ints.tmp138", chars! "v.aabb.ovov", chars! "v.bbbb.oovv", chars! "ints.tmp140", chars! "v.aaaa.ovvv", chars! "r1.a", chars! "v.aaaa.ovov", chars! "v.aaaa.oovv", chars! "ints.tmp97", chars! "ints.tmp95", chars! "f.bb.oo", chars! "ints.tmp134", chars! "ints.tmp136", chars! "f.bb.ov", chars! "ints.tmp158", chars! "v.aabb.vvoo", chars! "f.aa.oo", chars! "ints.tmp91", chars! "ints.tmp93", chars! "ints.tmp132", chars! "v.aabb.oovv", chars! "f.aa.ov", chars! "ints.tmp1", chars! "ints.tmp36", chars! "ints.tmp4", chars! "ints.tmp18", chars! "ints.tmp24", chars! "ints.tmp30", chars! "ints.tmp34", chars! "ints.tmp3", chars! "ints.tmp6", chars! "ints.tmp20", chars! "ints.tmp22", chars! "ints.tmp32", chars! "ints.tmp67", chars! "ints.tmp76", chars! "ints.tmp83", chars! "ints.tmp79", chars! "ints.tmp69", chars! "ints.tmp75", chars! "ints.tmp81", chars! "v.aabb.ovvv", chars! "ints.tmp78", chars! "ints.tmp85", chars! "ints.tmp26", chars! "ints.tmp38", chars! "ints.tmp44", chars! "ints.tmp41", chars! "ints.tmp28", chars! "ints.tmp40", chars! "ints.tmp46", chars! "v.aabb.vvov", chars! "ints.tmp43", chars! "ints.tmp48", chars! "v.bbbb.vvvv", chars! "v.aabb.vvvv", chars! "v.aaaa.vvvv"]
  body := [
    -- 2483: tmp12 = einsum(t2.bbbb, (0, 1, 2, 3), r2.bbb, (2, 3, 1), (0,))
    .set 81 (.ein [(0, [0, 1, 2, 3]), (1, [2, 3, 1])] [0]) 1 1,
    -- 2484: tmp11 = einsum(t2.abab, (0, 1, 2, 3), r2.aba, (2, 3, 0), (1,))
    .set 82 (.ein [(2, [0, 1, 2, 3]), (3, [2, 3, 0])] [1]) 1 1,
    -- 2485: tmp51 = np.copy(tmp11) * -0.5
    .set 83 (.cp 82) (-1) 2,
    -- 2486: tmp51 += tmp12
    .add 83 (.cp 81) 1 1,
    -- 2487: tmp48 = np.copy(ints.tmp144) * 2
    .set 84 (.cp 4) 2 1,
    -- 2488: tmp48 += ints.tmp148
    .add 84 (.cp 5) 1 1,
    -- 2489: tmp40 = np.copy(ints.tmp59)
    .set 85 (.cp 6) 1 1,
    -- 2490: tmp40 += ints.tmp61 * 0.5
    .add 85 (.cp 7) 1 2,
    -- 2491: tmp40 += f.bb.vv * -0.5
    .add 85 (.cp 8) (-1) 2,
    -- 2492: tmp56 = np.copy(ints.tmp142)
    .set 86 (.cp 9) 1 1,
    -- 2493: tmp56 += ints.tmp146 * 2
    .add 86 (.cp 10) 2 1,
    -- 2494: tmp20 = np.copy(ints.tmp101) * 0.5
    .set 87 (.cp 11) 1 2,
    -- 2495: tmp20 += ints.tmp105
    .add 87 (.cp 12) 1 1,
    -- 2496: tmp5 = einsum(t2.aaaa, (0, 1, 2, 3), r2.aaa, (2, 3, 1), (0,))
    .set 88 (.ein [(13, [0, 1, 2, 3]), (14, [2, 3, 1])] [0]) 1 1,
    -- 2497: tmp18 = np.copy(ints.tmp103) * 0.5
    .set 89 (.cp 15) 1 2,
    -- 2498: tmp18 += ints.tmp99
    .add 89 (.cp 16) 1 1,
    -- 2499: tmp22 = np.copy(ints.tmp14)
    .set 90 (.cp 17) 1 1,
    -- 2500: tmp22 += ints.tmp16 * 0.5
    .add 90 (.cp 18) 1 2,
    -- 2501: tmp22 += f.aa.vv * -0.5
    .add 90 (.cp 19) (-1) 2,
    -- 2502: tmp6 = einsum(t2.abab, (0, 1, 2, 3), r2.bab, (3, 2, 1), (0,)) * -1
    .set 91 (.ein [(2, [0, 1, 2, 3]), (20, [3, 2, 1])] [0]) (-1) 1,
    -- 2503: tmp44 = einsum(r1.b, (0,), v.bbbb.ovvv, (1, 2, 3, 0), (1, 2, 3))
    .set 92 (.ein [(21, [0]), (22, [1, 2, 3, 0])] [1, 2, 3]) 1 1,
    -- 2504: tmp52 = einsum(v.bbbb.ovov, (0, 1, 2, 3), tmp51, (2,), (0, 3, 1)) * 2
    .set 93 (.ein [(23, [0, 1, 2, 3]), (83, [2])] [0, 3, 1]) 2 1,
    -- 2505: del tmp51
    .del 83,
    -- 2506: tmp45 = einsum(r2.aba, (0, 1, 2), ints.tmp138, (2, 3, 0, 4), (3, 4, 1))
    .set 94 (.ein [(3, [0, 1, 2]), (24, [2, 3, 0, 4])] [3, 4, 1]) 1 1,
    -- 2507: tmp49 = einsum(r2.bbb, (0, 1, 2), tmp48, (2, 3, 1, 4), (3, 0, 4)) * -2
    .set 95 (.ein [(1, [0, 1, 2]), (84, [2, 3, 1, 4])] [3, 0, 4]) (-2) 1,
    -- 2508: del tmp48
    .del 84,
    -- 2509: tmp46 = einsum(v.aabb.ovov, (0, 1, 2, 3), r2.aba, (1, 4, 0), (2, 4, 3))
    .set 96 (.ein [(25, [0, 1, 2, 3]), (3, [1, 4, 0])] [2, 4, 3]) 1 1,
    -- 2510: tmp47 = einsum(r2.bbb, (0, 1, 2), v.bbbb.oovv, (3, 2, 4, 1), (3, 0, 4))
    .set 97 (.ein [(1, [0, 1, 2]), (26, [3, 2, 4, 1])] [3, 0, 4]) 1 1,
    -- 2511: tmp50 = einsum(tmp40, (0, 1), r2.bbb, (2, 0, 3), (3, 2, 1)) * -4
    .set 98 (.ein [(85, [0, 1]), (1, [2, 0, 3])] [3, 2, 1]) (-4) 1,
    -- 2512: tmp55 = einsum(r2.bbb, (0, 1, 2), v.bbbb.ovov, (3, 4, 2, 1), (3, 0, 4))
    .set 99 (.ein [(1, [0, 1, 2]), (23, [3, 4, 2, 1])] [3, 0, 4]) 1 1,
    -- 2513: tmp54 = einsum(ints.tmp140, (0, 1, 2, 3), r2.bbb, (4, 2, 0), (1, 3, 4))
    .set 100 (.ein [(27, [0, 1, 2, 3]), (1, [4, 2, 0])] [1, 3, 4]) 1 1,
    -- 2514: tmp57 = einsum(tmp56, (0, 1, 2, 3), r2.aba, (2, 4, 0), (1, 4, 3))
    .set 101 (.ein [(86, [0, 1, 2, 3]), (3, [2, 4, 0])] [1, 4, 3]) 1 1,
    -- 2515: del tmp56
    .del 86,
    -- 2516: tmp21 = einsum(r2.bab, (0, 1, 2), tmp20, (3, 2, 4, 0), (3, 1, 4)) * -2
    .set 102 (.ein [(20, [0, 1, 2]), (87, [3, 2, 4, 0])] [3, 1, 4]) (-2) 1,
    -- 2517: del tmp20
    .del 87,
    -- 2518: tmp15 = einsum(v.aaaa.ovvv, (0, 1, 2, 3), r1.a, (3,), (0, 1, 2))
    .set 103 (.ein [(28, [0, 1, 2, 3]), (29, [3])] [0, 1, 2]) 1 1,
    -- 2519: tmp17 = einsum(v.aaaa.ovov, (0, 1, 2, 3), tmp5, (2,), (0, 1, 3)) * -1
    .set 104 (.ein [(30, [0, 1, 2, 3]), (88, [2])] [0, 1, 3]) (-1) 1,
    -- 2520: tmp16 = einsum(r2.aaa, (0, 1, 2), v.aaaa.oovv, (3, 2, 4, 1), (3, 0, 4))
    .set 105 (.ein [(14, [0, 1, 2]), (31, [3, 2, 4, 1])] [3, 0, 4]) 1 1,
    -- 2521: tmp19 = einsum(tmp18, (0, 1, 2, 3), r2.aaa, (4, 2, 0), (1, 4, 3)) * -4
    .set 106 (.ein [(89, [0, 1, 2, 3]), (14, [4, 2, 0])] [1, 4, 3]) (-4) 1,
    -- 2522: del tmp18
    .del 89,
    -- 2523: tmp23 = einsum(tmp22, (0, 1), r2.aaa, (2, 0, 3), (3, 2, 1)) * -4
    .set 107 (.ein [(90, [0, 1]), (14, [2, 0, 3])] [3, 2, 1]) (-4) 1,
    -- 2524: del tmp22
    .del 90,
    -- 2525: tmp28 = einsum(r2.bab, (0, 1, 2), v.aabb.ovov, (3, 4, 2, 0), (3, 1, 4)) * -1
    .set 108 (.ein [(20, [0, 1, 2]), (25, [3, 4, 2, 0])] [3, 1, 4]) (-1) 1,
    -- 2526: tmp27 = einsum(r2.bab, (0, 1, 2), ints.tmp97, (3, 2, 4, 0), (3, 4, 1)) * -1
    .set 109 (.ein [(20, [0, 1, 2]), (32, [3, 2, 4, 0])] [3, 4, 1]) (-1) 1,
    -- 2527: tmp26 = einsum(r2.aaa, (0, 1, 2), v.aaaa.ovov, (3, 4, 2, 1), (3, 0, 4))
    .set 110 (.ein [(14, [0, 1, 2]), (30, [3, 4, 2, 1])] [3, 0, 4]) 1 1,
    -- 2528: tmp25 = einsum(r2.aaa, (0, 1, 2), ints.tmp95, (2, 3, 1, 4), (3, 4, 0))
    .set 111 (.ein [(14, [0, 1, 2]), (33, [2, 3, 1, 4])] [3, 4, 0]) 1 1,
    -- 2529: tmp29 = einsum(v.aaaa.ovov, (0, 1, 2, 3), tmp6, (2,), (0, 1, 3))
    .set 112 (.ein [(30, [0, 1, 2, 3]), (91, [2])] [0, 1, 3]) 1 1,
    -- 2530: tmp41 = np.copy(f.bb.oo)
    .set 113 (.cp 34) 1 1,
    -- 2531: tmp41 += ints.tmp134 * 2
    .add 113 (.cp 35) 2 1,
    -- 2532: del ints.tmp134
    .del 35,
    -- 2533: tmp41 += ints.tmp136
    .add 113 (.cp 36) 1 1,
    -- 2534: del ints.tmp136
    .del 36,
    -- 2535: tmp53 = einsum(r1.b, (0,), f.bb.ov, (1, 2), (1, 2, 0))
    .set 114 (.ein [(21, [0]), (37, [1, 2])] [1, 2, 0]) 1 1,
    -- 2536: tmp53 += tmp44
    .add 114 (.cp 92) 1 1,
    -- 2537: del tmp44
    .del 92,
    -- 2538: tmp53 += tmp45
    .add 114 (.cp 94) 1 1,
    -- 2539: del tmp45
    .del 94,
    -- 2540: tmp53 += tmp46
    .add 114 (.cp 96) 1 1,
    -- 2541: del tmp46
    .del 96,
    -- 2542: tmp53 += tmp47 * 2
    .add 114 (.cp 97) 2 1,
    -- 2543: del tmp47
    .del 97,
    -- 2544: tmp53 += np.transpose(tmp49, (0, 2, 1)) * -1
    .add 114 (.tr 95 [0, 2, 1]) (-1) 1,
    -- 2545: del tmp49
    .del 95,
    -- 2546: tmp53 += np.transpose(tmp50, (0, 2, 1))
    .add 114 (.tr 98 [0, 2, 1]) 1 1,
    -- 2547: del tmp50
    .del 98,
    -- 2548: tmp53 += np.transpose(tmp52, (0, 2, 1)) * -1
    .add 114 (.tr 93 [0, 2, 1]) (-1) 1,
    -- 2549: del tmp52
    .del 93,
    -- 2550: tmp58 = np.copy(tmp54) * 4
    .set 115 (.cp 100) 4 1,
    -- 2551: del tmp54
    .del 100,
    -- 2552: tmp58 += tmp55 * 2
    .add 115 (.cp 99) 2 1,
    -- 2553: del tmp55
    .del 99,
    -- 2554: tmp58 += np.transpose(tmp57, (0, 2, 1))
    .add 115 (.tr 101 [0, 2, 1]) 1 1,
    -- 2555: del tmp57
    .del 101,
    -- 2556: tmp43 = einsum(r2.bbb, (0, 1, 2), t2.bbbb, (3, 4, 0, 1), (2, 3, 4))
    .set 116 (.ein [(1, [0, 1, 2]), (0, [3, 4, 0, 1])] [2, 3, 4]) 1 1,
    -- 2557: tmp36 = einsum(r2.bab, (0, 1, 2), t2.abab, (3, 4, 1, 0), (3, 2, 4)) * -1
    .set 117 (.ein [(20, [0, 1, 2]), (2, [3, 4, 1, 0])] [3, 2, 4]) (-1) 1,
    -- 2558: tmp4 = np.copy(ints.tmp14) * 2
    .set 118 (.cp 17) 2 1,
    -- 2559: del ints.tmp14
    .del 17,
    -- 2560: tmp4 += ints.tmp16
    .add 118 (.cp 18) 1 1,
    -- 2561: del ints.tmp16
    .del 18,
    -- 2562: tmp4 += f.aa.vv * -1
    .add 118 (.cp 19) (-1) 1,
    -- 2563: tmp37 = np.copy(ints.tmp144) * 2
    .set 119 (.cp 4) 2 1,
    -- 2564: del ints.tmp144
    .del 4,
    -- 2565: tmp37 += ints.tmp148
    .add 119 (.cp 5) 1 1,
    -- 2566: del ints.tmp148
    .del 5,
    -- 2567: tmp37 += np.transpose(v.bbbb.ovov, (0, 2, 1, 3))
    .add 119 (.tr 23 [0, 2, 1, 3]) 1 1,
    -- 2568: tmp37 += ints.tmp140 * -2
    .add 119 (.cp 27) (-2) 1,
    -- 2569: del ints.tmp140
    .del 27,
    -- 2570: tmp37 += v.bbbb.oovv * -1
    .add 119 (.cp 26) (-1) 1,
    -- 2571: tmp38 = np.copy(ints.tmp142)
    .set 120 (.cp 9) 1 1,
    -- 2572: del ints.tmp142
    .del 9,
    -- 2573: tmp38 += ints.tmp146 * 2
    .add 120 (.cp 10) 2 1,
    -- 2574: del ints.tmp146
    .del 10,
    -- 2575: tmp38 += np.transpose(v.aabb.ovov, (0, 2, 1, 3))
    .add 120 (.tr 25 [0, 2, 1, 3]) 1 1,
    -- 2576: tmp38 += ints.tmp138 * -1
    .add 120 (.cp 24) (-1) 1,
    -- 2577: del ints.tmp138
    .del 24,
    -- 2578: tmp42 = np.copy(tmp5) * 2
    .set 121 (.cp 88) 2 1,
    -- 2579: tmp42 += tmp6
    .add 121 (.cp 91) 1 1,
    -- 2580: tmp39 = np.copy(ints.tmp158)
    .set 122 (.cp 38) 1 1,
    -- 2581: del ints.tmp158
    .del 38,
    -- 2582: tmp39 += np.transpose(v.aabb.vvoo, (2, 3, 0, 1)) * -1
    .add 122 (.tr 39 [2, 3, 0, 1]) (-1) 1,
    -- 2583: tmp32 = einsum(r2.aba, (0, 1, 2), t2.abab, (3, 4, 0, 1), (2, 3, 4))
    .set 123 (.ein [(3, [0, 1, 2]), (2, [3, 4, 0, 1])] [2, 3, 4]) 1 1,
    -- 2584: tmp34 = np.copy(ints.tmp101)
    .set 124 (.cp 11) 1 1,
    -- 2585: del ints.tmp101
    .del 11,
    -- 2586: tmp34 += ints.tmp105 * 2
    .add 124 (.cp 12) 2 1,
    -- 2587: del ints.tmp105
    .del 12,
    -- 2588: tmp34 += np.transpose(v.aabb.ovov, (0, 2, 1, 3))
    .add 124 (.tr 25 [0, 2, 1, 3]) 1 1,
    -- 2589: tmp34 += ints.tmp97 * -1
    .add 124 (.cp 32) (-1) 1,
    -- 2590: del ints.tmp97
    .del 32,
    -- 2591: tmp31 = np.copy(f.aa.oo)
    .set 125 (.cp 40) 1 1,
    -- 2592: tmp31 += ints.tmp91 * 2
    .add 125 (.cp 41) 2 1,
    -- 2593: del ints.tmp91
    .del 41,
    -- 2594: tmp31 += ints.tmp93
    .add 125 (.cp 42) 1 1,
    -- 2595: del ints.tmp93
    .del 42,
    -- 2596: tmp13 = np.copy(tmp11) * -1
    .set 126 (.cp 82) (-1) 1,
    -- 2597: del tmp11
    .del 82,
    -- 2598: tmp13 += tmp12 * 2
    .add 126 (.cp 81) 2 1,
    -- 2599: del tmp12
    .del 81,
    -- 2600: tmp33 = np.copy(ints.tmp103)
    .set 127 (.cp 15) 1 1,
    -- 2601: del ints.tmp103
    .del 15,
    -- 2602: tmp33 += ints.tmp99 * 2
    .add 127 (.cp 16) 2 1,
    -- 2603: del ints.tmp99
    .del 16,
    -- 2604: tmp33 += np.transpose(v.aaaa.ovov, (0, 2, 1, 3))
    .add 127 (.tr 30 [0, 2, 1, 3]) 1 1,
    -- 2605: tmp33 += ints.tmp95 * -2
    .add 127 (.cp 33) (-2) 1,
    -- 2606: del ints.tmp95
    .del 33,
    -- 2607: tmp33 += v.aaaa.oovv * -1
    .add 127 (.cp 31) (-1) 1,
    -- 2608: tmp35 = np.copy(ints.tmp132)
    .set 128 (.cp 43) 1 1,
    -- 2609: del ints.tmp132
    .del 43,
    -- 2610: tmp35 += v.aabb.oovv * -1
    .add 128 (.cp 44) (-1) 1,
    -- 2611: tmp10 = np.copy(ints.tmp59) * 2
    .set 129 (.cp 6) 2 1,
    -- 2612: del ints.tmp59
    .del 6,
    -- 2613: tmp10 += ints.tmp61
    .add 129 (.cp 7) 1 1,
    -- 2614: del ints.tmp61
    .del 7,
    -- 2615: tmp10 += f.bb.vv * -1
    .add 129 (.cp 8) (-1) 1,
    -- 2616: tmp24 = einsum(f.aa.ov, (0, 1), r1.a, (2,), (0, 1, 2))
    .set 130 (.ein [(45, [0, 1]), (29, [2])] [0, 1, 2]) 1 1,
    -- 2617: tmp24 += tmp15
    .add 130 (.cp 103) 1 1,
    -- 2618: del tmp15
    .del 103,
    -- 2619: tmp24 += tmp16 * 2
    .add 130 (.cp 105) 2 1,
    -- 2620: del tmp16
    .del 105,
    -- 2621: tmp24 += tmp17 * 2
    .add 130 (.cp 104) 2 1,
    -- 2622: del tmp17
    .del 104,
    -- 2623: tmp24 += np.transpose(tmp19, (0, 2, 1)) * -1
    .add 130 (.tr 106 [0, 2, 1]) (-1) 1,
    -- 2624: del tmp19
    .del 106,
    -- 2625: tmp24 += np.transpose(tmp21, (0, 2, 1))
    .add 130 (.tr 102 [0, 2, 1]) 1 1,
    -- 2626: del tmp21
    .del 102,
    -- 2627: tmp24 += np.transpose(tmp23, (0, 2, 1))
    .add 130 (.tr 107 [0, 2, 1]) 1 1,
    -- 2628: del tmp23
    .del 107,
    -- 2629: tmp30 = np.copy(tmp25) * 4
    .set 131 (.cp 111) 4 1,
    -- 2630: del tmp25
    .del 111,
    -- 2631: tmp30 += tmp26 * 2
    .add 131 (.cp 110) 2 1,
    -- 2632: del tmp26
    .del 110,
    -- 2633: tmp30 += tmp27
    .add 131 (.cp 109) 1 1,
    -- 2634: del tmp27
    .del 109,
    -- 2635: tmp30 += tmp28
    .add 131 (.cp 108) 1 1,
    -- 2636: del tmp28
    .del 108,
    -- 2637: tmp30 += tmp29
    .add 131 (.cp 112) 1 1,
    -- 2638: del tmp29
    .del 112,
    -- 2639: tmp14 = einsum(t2.aaaa, (0, 1, 2, 3), r2.aaa, (2, 3, 4), (4, 0, 1))
    .set 132 (.ein [(13, [0, 1, 2, 3]), (14, [2, 3, 4])] [4, 0, 1]) 1 1,
    -- 2640: tmp3 = np.copy(f.aa.ov) * 0.5
    .set 133 (.cp 45) 1 2,
    -- 2641: tmp3 += ints.tmp1
    .add 133 (.cp 46) 1 1,
    -- 2642: del ints.tmp1
    .del 46,
    -- 2643: tmp3 += ints.tmp36 * 0.5
    .add 133 (.cp 47) 1 2,
    -- 2644: del ints.tmp36
    .del 47,
    -- 2645: tmp3 += ints.tmp4 * 0.5
    .add 133 (.cp 48) 1 2,
    -- 2646: del ints.tmp4
    .del 48,
    -- 2647: tmp3 += ints.tmp18 * -1
    .add 133 (.cp 49) (-1) 1,
    -- 2648: del ints.tmp18
    .del 49,
    -- 2649: tmp3 += ints.tmp24 * -0.5
    .add 133 (.cp 50) (-1) 2,
    -- 2650: del ints.tmp24
    .del 50,
    -- 2651: tmp3 += ints.tmp30 * -1
    .add 133 (.cp 51) (-1) 1,
    -- 2652: del ints.tmp30
    .del 51,
    -- 2653: tmp2 = np.copy(f.bb.ov) * 0.5
    .set 134 (.cp 37) 1 2,
    -- 2654: tmp2 += ints.tmp34 * 0.5
    .add 134 (.cp 52) 1 2,
    -- 2655: del ints.tmp34
    .del 52,
    -- 2656: tmp2 += ints.tmp3 * 0.5
    .add 134 (.cp 53) 1 2,
    -- 2657: del ints.tmp3
    .del 53,
    -- 2658: tmp2 += ints.tmp6
    .add 134 (.cp 54) 1 1,
    -- 2659: del ints.tmp6
    .del 54,
    -- 2660: tmp2 += ints.tmp20 * -1
    .add 134 (.cp 55) (-1) 1,
    -- 2661: del ints.tmp20
    .del 55,
    -- 2662: tmp2 += ints.tmp22 * -0.5
    .add 134 (.cp 56) (-1) 2,
    -- 2663: del ints.tmp22
    .del 56,
    -- 2664: tmp2 += ints.tmp32 * -1
    .add 134 (.cp 57) (-1) 1,
    -- 2665: del ints.tmp32
    .del 57,
    -- 2666: tmp9 = np.copy(ints.tmp67) * 0.5
    .set 135 (.cp 58) 1 2,
    -- 2667: del ints.tmp67
    .del 58,
    -- 2668: tmp9 += np.transpose(ints.tmp76, (0, 1, 3, 2))
    .add 135 (.tr 59 [0, 1, 3, 2]) 1 1,
    -- 2669: del ints.tmp76
    .del 59,
    -- 2670: tmp9 += np.transpose(ints.tmp83, (0, 1, 3, 2)) * 0.5
    .add 135 (.tr 60 [0, 1, 3, 2]) 1 2,
    -- 2671: del ints.tmp83
    .del 60,
    -- 2672: tmp9 += v.bbbb.ovvv * 0.5
    .add 135 (.cp 22) 1 2,
    -- 2673: tmp9 += np.transpose(ints.tmp79, (0, 1, 3, 2)) * -1
    .add 135 (.tr 61 [0, 1, 3, 2]) (-1) 1,
    -- 2674: del ints.tmp79
    .del 61,
    -- 2675: tmp8 = np.copy(ints.tmp69)
    .set 136 (.cp 62) 1 1,
    -- 2676: del ints.tmp69
    .del 62,
    -- 2677: tmp8 += np.transpose(ints.tmp75, (0, 1, 3, 2))
    .add 136 (.tr 63 [0, 1, 3, 2]) 1 1,
    -- 2678: del ints.tmp75
    .del 63,
    -- 2679: tmp8 += np.transpose(ints.tmp81, (0, 1, 3, 2)) * 2
    .add 136 (.tr 64 [0, 1, 3, 2]) 2 1,
    -- 2680: del ints.tmp81
    .del 64,
    -- 2681: tmp8 += v.aabb.ovvv
    .add 136 (.cp 65) 1 1,
    -- 2682: tmp8 += np.transpose(ints.tmp78, (0, 1, 3, 2)) * -1
    .add 136 (.tr 66 [0, 1, 3, 2]) (-1) 1,
    -- 2683: del ints.tmp78
    .del 66,
    -- 2684: tmp8 += ints.tmp85 * -1
    .add 136 (.cp 67) (-1) 1,
    -- 2685: del ints.tmp85
    .del 67,
    -- 2686: tmp1 = np.copy(ints.tmp26) * 0.5
    .set 137 (.cp 68) 1 2,
    -- 2687: del ints.tmp26
    .del 68,
    -- 2688: tmp1 += np.transpose(ints.tmp38, (0, 1, 3, 2))
    .add 137 (.tr 69 [0, 1, 3, 2]) 1 1,
    -- 2689: del ints.tmp38
    .del 69,
    -- 2690: tmp1 += np.transpose(ints.tmp44, (0, 1, 3, 2)) * 0.5
    .add 137 (.tr 70 [0, 1, 3, 2]) 1 2,
    -- 2691: del ints.tmp44
    .del 70,
    -- 2692: tmp1 += v.aaaa.ovvv * 0.5
    .add 137 (.cp 28) 1 2,
    -- 2693: tmp1 += np.transpose(ints.tmp41, (0, 1, 3, 2)) * -1
    .add 137 (.tr 71 [0, 1, 3, 2]) (-1) 1,
    -- 2694: del ints.tmp41
    .del 71,
    -- 2695: tmp0 = np.copy(ints.tmp28)
    .set 138 (.cp 72) 1 1,
    -- 2696: del ints.tmp28
    .del 72,
    -- 2697: tmp0 += np.transpose(ints.tmp40, (0, 2, 1, 3))
    .add 138 (.tr 73 [0, 2, 1, 3]) 1 1,
    -- 2698: del ints.tmp40
    .del 73,
    -- 2699: tmp0 += np.transpose(ints.tmp46, (0, 2, 1, 3)) * 2
    .add 138 (.tr 74 [0, 2, 1, 3]) 2 1,
    -- 2700: del ints.tmp46
    .del 74,
    -- 2701: tmp0 += np.transpose(v.aabb.vvov, (2, 0, 1, 3))
    .add 138 (.tr 75 [2, 0, 1, 3]) 1 1,
    -- 2702: tmp0 += np.transpose(ints.tmp43, (0, 2, 1, 3)) * -1
    .add 138 (.tr 76 [0, 2, 1, 3]) (-1) 1,
    -- 2703: del ints.tmp43
    .del 76,
    -- 2704: tmp0 += ints.tmp48 * -1
    .add 138 (.cp 77) (-1) 1,
    -- 2705: del ints.tmp48
    .del 77,
    -- 2706: tmp7 = np.copy(tmp5)
    .set 139 (.cp 88) 1 1,
    -- 2707: del tmp5
    .del 88,
    -- 2708: tmp7 += tmp6 * 0.5
    .add 139 (.cp 91) 1 2,
    -- 2709: del tmp6
    .del 91,
    -- 2710: r2new.bbb = einsum(r2.bbb, (0, 1, 2), v.bbbb.vvvv, (3, 1, 4, 0), (3, 4, 2)) * -2
    .set 140 (.ein [(1, [0, 1, 2]), (78, [3, 1, 4, 0])] [3, 4, 2]) (-2) 1,
    -- 2711: r2new.bbb += einsum(tmp43, (0, 1, 2), v.bbbb.ovov, (2, 3, 1, 4), (3, 4, 0)) * -2
    .add 140 (.ein [(116, [0, 1, 2]), (23, [2, 3, 1, 4])] [3, 4, 0]) (-2) 1,
    -- 2712: del tmp43
    .del 116,
    -- 2713: r2new.bbb += np.transpose(tmp53, (1, 2, 0)) * -1
    .add 140 (.tr 114 [1, 2, 0]) (-1) 1,
    -- 2714: r2new.bbb += np.transpose(tmp53, (2, 1, 0))
    .add 140 (.tr 114 [2, 1, 0]) 1 1,
    -- 2715: del tmp53
    .del 114,
    -- 2716: r2new.bbb += np.transpose(tmp58, (1, 2, 0))
    .add 140 (.tr 115 [1, 2, 0]) 1 1,
    -- 2717: r2new.bbb += np.transpose(tmp58, (2, 1, 0)) * -1
    .add 140 (.tr 115 [2, 1, 0]) (-1) 1,
    -- 2718: del tmp58
    .del 115,
    -- 2719: r2new.bbb += einsum(r2.bbb, (0, 1, 2), tmp41, (2, 3), (0, 1, 3)) * -2
    .add 140 (.ein [(1, [0, 1, 2]), (113, [2, 3])] [0, 1, 3]) (-2) 1,
    -- 2720: r2new.bab = einsum(f.bb.ov, (0, 1), r1.a, (2,), (1, 2, 0)) * -1
    .set 141 (.ein [(37, [0, 1]), (29, [2])] [1, 2, 0]) (-1) 1,
    -- 2721: r2new.bab += einsum(r1.a, (0,), v.aabb.vvov, (1, 0, 2, 3), (3, 1, 2)) * -1
    .add 141 (.ein [(29, [0]), (75, [1, 0, 2, 3])] [3, 1, 2]) (-1) 1,
    -- 2722: r2new.bab += einsum(r2.bab, (0, 1, 2), v.aabb.vvvv, (3, 1, 4, 0), (4, 3, 2))
    .add 141 (.ein [(20, [0, 1, 2]), (79, [3, 1, 4, 0])] [4, 3, 2]) 1 1,
    -- 2723: r2new.bab += einsum(v.aabb.ovov, (0, 1, 2, 3), tmp36, (0, 4, 2), (3, 1, 4)) * -1
    .add 141 (.ein [(25, [0, 1, 2, 3]), (117, [0, 4, 2])] [3, 1, 4]) (-1) 1,
    -- 2724: del tmp36
    .del 117,
    -- 2725: r2new.bab += einsum(tmp37, (0, 1, 2, 3), r2.bab, (2, 4, 0), (3, 4, 1))
    .add 141 (.ein [(119, [0, 1, 2, 3]), (20, [2, 4, 0])] [3, 4, 1]) 1 1,
    -- 2726: del tmp37
    .del 119,
    -- 2727: r2new.bab += einsum(tmp38, (0, 1, 2, 3), r2.aaa, (4, 2, 0), (3, 4, 1)) * -2
    .add 141 (.ein [(120, [0, 1, 2, 3]), (14, [4, 2, 0])] [3, 4, 1]) (-2) 1,
    -- 2728: del tmp38
    .del 120,
    -- 2729: r2new.bab += einsum(r2.bab, (0, 1, 2), tmp39, (2, 3, 1, 4), (0, 4, 3))
    .add 141 (.ein [(20, [0, 1, 2]), (122, [2, 3, 1, 4])] [0, 4, 3]) 1 1,
    -- 2730: del tmp39
    .del 122,
    -- 2731: r2new.bab += einsum(r2.bab, (0, 1, 2), tmp4, (1, 3), (0, 3, 2)) * -1
    .add 141 (.ein [(20, [0, 1, 2]), (118, [1, 3])] [0, 3, 2]) (-1) 1,
    -- 2732: r2new.bab += einsum(r2.bab, (0, 1, 2), tmp40, (0, 3), (3, 1, 2)) * -2
    .add 141 (.ein [(20, [0, 1, 2]), (85, [0, 3])] [3, 1, 2]) (-2) 1,
    -- 2733: del tmp40
    .del 85,
    -- 2734: r2new.bab += einsum(r2.bab, (0, 1, 2), tmp41, (2, 3), (0, 1, 3)) * -1
    .add 141 (.ein [(20, [0, 1, 2]), (113, [2, 3])] [0, 1, 3]) (-1) 1,
    -- 2735: del tmp41
    .del 113,
    -- 2736: r2new.bab += einsum(tmp42, (0,), v.aabb.ovov, (0, 1, 2, 3), (3, 1, 2))
    .add 141 (.ein [(121, [0]), (25, [0, 1, 2, 3])] [3, 1, 2]) 1 1,
    -- 2737: del tmp42
    .del 121,
    -- 2738: r2new.aba = einsum(f.aa.ov, (0, 1), r1.b, (2,), (1, 2, 0)) * -1
    .set 142 (.ein [(45, [0, 1]), (21, [2])] [1, 2, 0]) (-1) 1,
    -- 2739: r2new.aba += einsum(r1.b, (0,), v.aabb.ovvv, (1, 2, 3, 0), (2, 3, 1)) * -1
    .add 142 (.ein [(21, [0]), (65, [1, 2, 3, 0])] [2, 3, 1]) (-1) 1,
    -- 2740: r2new.aba += einsum(r2.aba, (0, 1, 2), v.aabb.vvvv, (3, 0, 4, 1), (3, 4, 2))
    .add 142 (.ein [(3, [0, 1, 2]), (79, [3, 0, 4, 1])] [3, 4, 2]) 1 1,
    -- 2741: r2new.aba += einsum(tmp32, (0, 1, 2), v.aabb.ovov, (1, 3, 2, 4), (3, 4, 0))
    .add 142 (.ein [(123, [0, 1, 2]), (25, [1, 3, 2, 4])] [3, 4, 0]) 1 1,
    -- 2742: del tmp32
    .del 123,
    -- 2743: r2new.aba += einsum(tmp33, (0, 1, 2, 3), r2.aba, (2, 4, 0), (3, 4, 1))
    .add 142 (.ein [(127, [0, 1, 2, 3]), (3, [2, 4, 0])] [3, 4, 1]) 1 1,
    -- 2744: del tmp33
    .del 127,
    -- 2745: r2new.aba += einsum(r2.bbb, (0, 1, 2), tmp34, (3, 2, 4, 1), (4, 0, 3)) * -2
    .add 142 (.ein [(1, [0, 1, 2]), (124, [3, 2, 4, 1])] [4, 0, 3]) (-2) 1,
    -- 2746: del tmp34
    .del 124,
    -- 2747: r2new.aba += einsum(r2.aba, (0, 1, 2), tmp35, (2, 3, 1, 4), (0, 4, 3))
    .add 142 (.ein [(3, [0, 1, 2]), (128, [2, 3, 1, 4])] [0, 4, 3]) 1 1,
    -- 2748: del tmp35
    .del 128,
    -- 2749: r2new.aba += einsum(r2.aba, (0, 1, 2), tmp10, (1, 3), (0, 3, 2)) * -1
    .add 142 (.ein [(3, [0, 1, 2]), (129, [1, 3])] [0, 3, 2]) (-1) 1,
    -- 2750: r2new.aba += einsum(r2.aba, (0, 1, 2), tmp4, (0, 3), (3, 1, 2)) * -1
    .add 142 (.ein [(3, [0, 1, 2]), (118, [0, 3])] [3, 1, 2]) (-1) 1,
    -- 2751: r2new.aba += einsum(r2.aba, (0, 1, 2), tmp31, (2, 3), (0, 1, 3)) * -1
    .add 142 (.ein [(3, [0, 1, 2]), (125, [2, 3])] [0, 1, 3]) (-1) 1,
    -- 2752: r2new.aba += einsum(tmp13, (0,), v.aabb.ovov, (1, 2, 0, 3), (2, 3, 1))
    .add 142 (.ein [(126, [0]), (25, [1, 2, 0, 3])] [2, 3, 1]) 1 1,
    -- 2753: r2new.aaa = einsum(r2.aaa, (0, 1, 2), v.aaaa.vvvv, (3, 1, 4, 0), (3, 4, 2)) * -2
    .set 143 (.ein [(14, [0, 1, 2]), (80, [3, 1, 4, 0])] [3, 4, 2]) (-2) 1,
    -- 2754: r2new.aaa += einsum(tmp14, (0, 1, 2), v.aaaa.ovov, (2, 3, 1, 4), (3, 4, 0)) * -2
    .add 143 (.ein [(132, [0, 1, 2]), (30, [2, 3, 1, 4])] [3, 4, 0]) (-2) 1,
    -- 2755: del tmp14
    .del 132,
    -- 2756: r2new.aaa += np.transpose(tmp24, (1, 2, 0)) * -1
    .add 143 (.tr 130 [1, 2, 0]) (-1) 1,
    -- 2757: r2new.aaa += np.transpose(tmp24, (2, 1, 0))
    .add 143 (.tr 130 [2, 1, 0]) 1 1,
    -- 2758: del tmp24
    .del 130,
    -- 2759: r2new.aaa += np.transpose(tmp30, (1, 2, 0))
    .add 143 (.tr 131 [1, 2, 0]) 1 1,
    -- 2760: r2new.aaa += np.transpose(tmp30, (2, 1, 0)) * -1
    .add 143 (.tr 131 [2, 1, 0]) (-1) 1,
    -- 2761: del tmp30
    .del 131,
    -- 2762: r2new.aaa += einsum(tmp31, (0, 1), r2.aaa, (2, 3, 0), (2, 3, 1)) * -2
    .add 143 (.ein [(125, [0, 1]), (14, [2, 3, 0])] [2, 3, 1]) (-2) 1,
    -- 2763: del tmp31
    .del 125,
    -- 2764: r1new.b = einsum(r2.aba, (0, 1, 2), tmp8, (2, 0, 1, 3), (3,)) * -1
    .set 144 (.ein [(3, [0, 1, 2]), (136, [2, 0, 1, 3])] [3]) (-1) 1,
    -- 2765: del tmp8
    .del 136,
    -- 2766: r1new.b += einsum(r2.bbb, (0, 1, 2), tmp9, (2, 1, 0, 3), (3,)) * 4
    .add 144 (.ein [(1, [0, 1, 2]), (135, [2, 1, 0, 3])] [3]) 4 1,
    -- 2767: del tmp9
    .del 135,
    -- 2768: r1new.b += einsum(tmp3, (0, 1), r2.aba, (1, 2, 0), (2,)) * -2
    .add 144 (.ein [(133, [0, 1]), (3, [1, 2, 0])] [2]) (-2) 1,
    -- 2769: r1new.b += einsum(r2.bbb, (0, 1, 2), tmp2, (2, 1), (0,)) * 4
    .add 144 (.ein [(1, [0, 1, 2]), (134, [2, 1])] [0]) 4 1,
    -- 2770: r1new.b += einsum(r1.b, (0,), tmp10, (0, 1), (1,)) * -1
    .add 144 (.ein [(21, [0]), (129, [0, 1])] [1]) (-1) 1,
    -- 2771: del tmp10
    .del 129,
    -- 2772: r1new.b += einsum(tmp13, (0,), f.bb.ov, (0, 1), (1,)) * -1
    .add 144 (.ein [(126, [0]), (37, [0, 1])] [1]) (-1) 1,
    -- 2773: del tmp13
    .del 126,
    -- 2774: r1new.a = einsum(tmp0, (0, 1, 2, 3), r2.bab, (3, 1, 0), (2,)) * -1
    .set 145 (.ein [(138, [0, 1, 2, 3]), (20, [3, 1, 0])] [2]) (-1) 1,
    -- 2775: del tmp0
    .del 138,
    -- 2776: r1new.a += einsum(tmp1, (0, 1, 2, 3), r2.aaa, (1, 2, 0), (3,)) * -4
    .add 145 (.ein [(137, [0, 1, 2, 3]), (14, [1, 2, 0])] [3]) (-4) 1,
    -- 2777: del tmp1
    .del 137,
    -- 2778: r1new.a += einsum(r2.bab, (0, 1, 2), tmp2, (2, 0), (1,)) * -2
    .add 145 (.ein [(20, [0, 1, 2]), (134, [2, 0])] [1]) (-2) 1,
    -- 2779: del tmp2
    .del 134,
    -- 2780: r1new.a += einsum(tmp3, (0, 1), r2.aaa, (2, 1, 0), (2,)) * 4
    .add 145 (.ein [(133, [0, 1]), (14, [2, 1, 0])] [2]) 4 1,
    -- 2781: del tmp3
    .del 133,
    -- 2782: r1new.a += einsum(tmp4, (0, 1), r1.a, (0,), (1,)) * -1
    .add 145 (.ein [(118, [0, 1]), (29, [0])] [1]) (-1) 1,
    -- 2783: del tmp4
    .del 118,
    -- 2784: r1new.a += einsum(tmp7, (0,), f.aa.ov, (0, 1), (1,)) * -2
    .add 145 (.ein [(139, [0]), (45, [0, 1])] [1]) (-2) 1,
    -- 2785: del tmp7
    .del 139
  ]
  ret := [(chars! "r1new.b", 144), (chars! "r1new.a", 145), (chars! "r2new.bbb", 140), (chars! "r2new.bab", 141), (chars! "r2new.aba", 142), (chars! "r2new.aaa", 143)]

end Ebcc.Gen.UCCDEom
