import Verif.Model.GenCode
/-!
Functions of `ebcc/codegen/UDFCCD.py`, written by `tools/gencode.py`.  Comments give the
number and the text of the line of each statement.
-/

set_option maxRecDepth 100000

namespace Ebcc.Gen.UDFCCDEom

/-- codegen/UDFCCD.py:935-1099 `hbar_matvec_ip_intermediates`. -/
def hbar_matvec_ip_intermediates : GenFun where
  args := [chars! "t2.abab", chars! "v.baa.xov", chars! "v.bbb.xov", chars! "t2.bbbb", chars! "v.bbb.xoo", chars! "v.bbb.xvv", chars! "v.baa.xoo", chars! "t2.aaaa", chars! "v.baa.xvv", chars! "f.bb.ov", chars! "f.aa.ov"]
  body := [
    -- 1021: tmp19 = einsum(t2.abab, (0, 1, 2, 3), v.baa.xov, (4, 0, 2), (4, 1, 3))
    .set 11 (.ein [(0, [0, 1, 2, 3]), (1, [4, 0, 2])] [4, 1, 3]) 1 1,
    -- 1022: tmp16 = einsum(v.bbb.xov, (0, 1, 2), t2.bbbb, (3, 1, 4, 2), (0, 3, 4))
    .set 12 (.ein [(2, [0, 1, 2]), (3, [3, 1, 4, 2])] [0, 3, 4]) 1 1,
    -- 1023: tmp12 = einsum(v.bbb.xov, (0, 1, 2), v.bbb.xoo, (0, 3, 4), (3, 4, 1, 2))
    .set 13 (.ein [(2, [0, 1, 2]), (4, [0, 3, 4])] [3, 4, 1, 2]) 1 1,
    -- 1024: tmp55 = einsum(v.bbb.xov, (0, 1, 2), v.bbb.xov, (0, 3, 4), (3, 1, 4, 2))
    .set 14 (.ein [(2, [0, 1, 2]), (2, [0, 3, 4])] [3, 1, 4, 2]) 1 1,
    -- 1025: tmp147 = einsum(v.bbb.xov, (0, 1, 2), v.bbb.xvv, (0, 3, 4), (1, 3, 4, 2))
    .set 15 (.ein [(2, [0, 1, 2]), (5, [0, 3, 4])] [1, 3, 4, 2]) 1 1,
    -- 1026: tmp65 = einsum(v.bbb.xov, (0, 1, 2), v.baa.xov, (0, 3, 4), (3, 1, 4, 2))
    .set 16 (.ein [(2, [0, 1, 2]), (1, [0, 3, 4])] [3, 1, 4, 2]) 1 1,
    -- 1027: tmp14 = einsum(v.baa.xov, (0, 1, 2), v.bbb.xoo, (0, 3, 4), (1, 3, 4, 2))
    .set 17 (.ein [(1, [0, 1, 2]), (4, [0, 3, 4])] [1, 3, 4, 2]) 1 1,
    -- 1028: tmp32 = einsum(v.baa.xov, (0, 1, 2), v.baa.xov, (0, 3, 4), (3, 1, 4, 2))
    .set 18 (.ein [(1, [0, 1, 2]), (1, [0, 3, 4])] [3, 1, 4, 2]) 1 1,
    -- 1029: tmp1 = einsum(v.baa.xov, (0, 1, 2), v.baa.xoo, (0, 3, 4), (3, 4, 1, 2))
    .set 19 (.ein [(1, [0, 1, 2]), (6, [0, 3, 4])] [3, 4, 1, 2]) 1 1,
    -- 1030: tmp107 = einsum(v.baa.xov, (0, 1, 2), v.bbb.xvv, (0, 3, 4), (1, 2, 3, 4))
    .set 20 (.ein [(1, [0, 1, 2]), (5, [0, 3, 4])] [1, 2, 3, 4]) 1 1,
    -- 1031: tmp3 = einsum(v.bbb.xov, (0, 1, 2), v.baa.xoo, (0, 3, 4), (3, 4, 1, 2))
    .set 21 (.ein [(2, [0, 1, 2]), (6, [0, 3, 4])] [3, 4, 1, 2]) 1 1,
    -- 1032: tmp5 = einsum(v.baa.xov, (0, 1, 2), t2.aaaa, (3, 1, 4, 2), (0, 3, 4))
    .set 22 (.ein [(1, [0, 1, 2]), (7, [3, 1, 4, 2])] [0, 3, 4]) 1 1,
    -- 1033: tmp8 = einsum(t2.abab, (0, 1, 2, 3), v.bbb.xov, (4, 1, 3), (4, 0, 2))
    .set 23 (.ein [(0, [0, 1, 2, 3]), (2, [4, 1, 3])] [4, 0, 2]) 1 1,
    -- 1034: tmp76 = einsum(v.bbb.xov, (0, 1, 2), v.baa.xvv, (0, 3, 4), (1, 3, 4, 2))
    .set 24 (.ein [(2, [0, 1, 2]), (8, [0, 3, 4])] [1, 3, 4, 2]) 1 1,
    -- 1035: tmp29 = einsum(v.baa.xvv, (0, 1, 2), v.baa.xov, (0, 3, 4), (3, 1, 2, 4))
    .set 25 (.ein [(8, [0, 1, 2]), (1, [0, 3, 4])] [3, 1, 2, 4]) 1 1,
    -- 1036: tmp169 = einsum(f.bb.ov, (0, 1), t2.bbbb, (2, 3, 4, 1), (0, 2, 3, 4))
    .set 26 (.ein [(9, [0, 1]), (3, [2, 3, 4, 1])] [0, 2, 3, 4]) 1 1,
    -- 1037: tmp159 = einsum(tmp19, (0, 1, 2), v.bbb.xoo, (0, 3, 4), (1, 3, 4, 2))
    .set 27 (.ein [(11, [0, 1, 2]), (4, [0, 3, 4])] [1, 3, 4, 2]) 1 1,
    -- 1038: tmp157 = einsum(v.bbb.xoo, (0, 1, 2), tmp16, (0, 3, 4), (3, 1, 2, 4))
    .set 28 (.ein [(4, [0, 1, 2]), (12, [0, 3, 4])] [3, 1, 2, 4]) 1 1,
    -- 1039: tmp155 = einsum(t2.bbbb, (0, 1, 2, 3), tmp12, (4, 1, 5, 3), (0, 4, 5, 2))
    .set 29 (.ein [(3, [0, 1, 2, 3]), (13, [4, 1, 5, 3])] [0, 4, 5, 2]) 1 1,
    -- 1040: tmp153 = einsum(v.bbb.xoo, (0, 1, 2), v.bbb.xoo, (0, 3, 4), (1, 3, 4, 2))
    .set 30 (.ein [(4, [0, 1, 2]), (4, [0, 3, 4])] [1, 3, 4, 2]) 1 1,
    -- 1041: tmp150 = einsum(tmp55, (0, 1, 2, 3), t2.bbbb, (4, 5, 3, 2), (4, 5, 1, 0))
    .set 31 (.ein [(14, [0, 1, 2, 3]), (3, [4, 5, 3, 2])] [4, 5, 1, 0]) 1 1,
    -- 1042: tmp148 = einsum(t2.bbbb, (0, 1, 2, 3), tmp147, (4, 5, 2, 3), (0, 1, 4, 5)) * -1
    .set 32 (.ein [(3, [0, 1, 2, 3]), (15, [4, 5, 2, 3])] [0, 1, 4, 5]) (-1) 1,
    -- 1043: del tmp147
    .del 15,
    -- 1044: tmp143 = einsum(v.bbb.xvv, (0, 1, 2), tmp19, (0, 3, 2), (3, 1))
    .set 33 (.ein [(5, [0, 1, 2]), (11, [0, 3, 2])] [3, 1]) 1 1,
    -- 1045: tmp142 = einsum(tmp16, (0, 1, 2), v.bbb.xvv, (0, 3, 2), (1, 3)) * -1
    .set 34 (.ein [(12, [0, 1, 2]), (5, [0, 3, 2])] [1, 3]) (-1) 1,
    -- 1046: tmp139 = einsum(v.bbb.xoo, (0, 1, 2), v.bbb.xvv, (0, 3, 4), (1, 2, 3, 4))
    .set 35 (.ein [(4, [0, 1, 2]), (5, [0, 3, 4])] [1, 2, 3, 4]) 1 1,
    -- 1047: tmp136 = einsum(v.baa.xoo, (0, 1, 2), v.bbb.xvv, (0, 3, 4), (1, 2, 3, 4))
    .set 36 (.ein [(6, [0, 1, 2]), (5, [0, 3, 4])] [1, 2, 3, 4]) 1 1,
    -- 1048: tmp133 = einsum(tmp65, (0, 1, 2, 3), t2.abab, (4, 1, 2, 5), (4, 0, 5, 3))
    .set 37 (.ein [(16, [0, 1, 2, 3]), (0, [4, 1, 2, 5])] [4, 0, 5, 3]) 1 1,
    -- 1049: tmp131 = einsum(tmp19, (0, 1, 2), v.bbb.xov, (0, 1, 3), (2, 3))
    .set 38 (.ein [(11, [0, 1, 2]), (2, [0, 1, 3])] [2, 3]) 1 1,
    -- 1050: tmp129 = einsum(v.bbb.xov, (0, 1, 2), tmp16, (0, 1, 3), (3, 2))
    .set 39 (.ein [(2, [0, 1, 2]), (12, [0, 1, 3])] [3, 2]) 1 1,
    -- 1051: tmp128 = einsum(tmp14, (0, 1, 2, 3), t2.abab, (4, 2, 3, 5), (4, 0, 1, 5))
    .set 40 (.ein [(17, [0, 1, 2, 3]), (0, [4, 2, 3, 5])] [4, 0, 1, 5]) 1 1,
    -- 1052: tmp127 = einsum(tmp14, (0, 1, 2, 3), t2.abab, (0, 2, 3, 4), (1, 4))
    .set 41 (.ein [(17, [0, 1, 2, 3]), (0, [0, 2, 3, 4])] [1, 4]) 1 1,
    -- 1053: tmp126 = einsum(t2.bbbb, (0, 1, 2, 3), tmp12, (4, 0, 1, 3), (4, 2))
    .set 42 (.ein [(3, [0, 1, 2, 3]), (13, [4, 0, 1, 3])] [4, 2]) 1 1,
    -- 1054: tmp125 = einsum(f.aa.ov, (0, 1), t2.abab, (2, 3, 1, 4), (0, 2, 3, 4))
    .set 43 (.ein [(10, [0, 1]), (0, [2, 3, 1, 4])] [0, 2, 3, 4]) 1 1,
    -- 1055: tmp121 = einsum(t2.bbbb, (0, 1, 2, 3), tmp55, (1, 4, 5, 3), (0, 4, 2, 5))
    .set 44 (.ein [(3, [0, 1, 2, 3]), (14, [1, 4, 5, 3])] [0, 4, 2, 5]) 1 1,
    -- 1056: tmp118 = einsum(t2.abab, (0, 1, 2, 3), tmp32, (0, 4, 5, 2), (4, 1, 5, 3))
    .set 45 (.ein [(0, [0, 1, 2, 3]), (18, [0, 4, 5, 2])] [4, 1, 5, 3]) 1 1,
    -- 1057: tmp116 = einsum(v.baa.xoo, (0, 1, 2), tmp16, (0, 3, 4), (1, 2, 3, 4))
    .set 46 (.ein [(6, [0, 1, 2]), (12, [0, 3, 4])] [1, 2, 3, 4]) 1 1,
    -- 1058: tmp115 = einsum(v.baa.xoo, (0, 1, 2), tmp19, (0, 3, 4), (1, 2, 3, 4))
    .set 47 (.ein [(6, [0, 1, 2]), (11, [0, 3, 4])] [1, 2, 3, 4]) 1 1,
    -- 1059: tmp114 = einsum(t2.abab, (0, 1, 2, 3), tmp1, (4, 0, 5, 2), (4, 5, 1, 3))
    .set 48 (.ein [(0, [0, 1, 2, 3]), (19, [4, 0, 5, 2])] [4, 5, 1, 3]) 1 1,
    -- 1060: tmp112 = einsum(t2.bbbb, (0, 1, 2, 3), f.bb.ov, (1, 3), (0, 2))
    .set 49 (.ein [(3, [0, 1, 2, 3]), (9, [1, 3])] [0, 2]) 1 1,
    -- 1061: tmp111 = einsum(t2.abab, (0, 1, 2, 3), f.aa.ov, (0, 2), (1, 3))
    .set 50 (.ein [(0, [0, 1, 2, 3]), (10, [0, 2])] [1, 3]) 1 1,
    -- 1062: tmp108 = einsum(t2.abab, (0, 1, 2, 3), tmp107, (4, 2, 5, 3), (0, 4, 1, 5))
    .set 51 (.ein [(0, [0, 1, 2, 3]), (20, [4, 2, 5, 3])] [0, 4, 1, 5]) 1 1,
    -- 1063: del tmp107
    .del 20,
    -- 1064: tmp101 = einsum(v.baa.xvv, (0, 1, 2), v.bbb.xoo, (0, 3, 4), (3, 4, 1, 2))
    .set 52 (.ein [(8, [0, 1, 2]), (4, [0, 3, 4])] [3, 4, 1, 2]) 1 1,
    -- 1065: tmp96 = einsum(t2.abab, (0, 1, 2, 3), tmp65, (0, 4, 5, 3), (1, 4, 2, 5))
    .set 53 (.ein [(0, [0, 1, 2, 3]), (16, [0, 4, 5, 3])] [1, 4, 2, 5]) 1 1,
    -- 1066: tmp93 = einsum(tmp3, (0, 1, 2, 3), t2.abab, (1, 4, 5, 3), (0, 4, 2, 5))
    .set 54 (.ein [(21, [0, 1, 2, 3]), (0, [1, 4, 5, 3])] [0, 4, 2, 5]) 1 1,
    -- 1067: tmp92 = einsum(t2.abab, (0, 1, 2, 3), f.bb.ov, (4, 3), (0, 4, 1, 2))
    .set 55 (.ein [(0, [0, 1, 2, 3]), (9, [4, 3])] [0, 4, 1, 2]) 1 1,
    -- 1068: tmp85 = einsum(v.bbb.xoo, (0, 1, 2), tmp5, (0, 3, 4), (3, 1, 2, 4))
    .set 56 (.ein [(4, [0, 1, 2]), (22, [0, 3, 4])] [3, 1, 2, 4]) 1 1,
    -- 1069: tmp84 = einsum(v.bbb.xoo, (0, 1, 2), tmp8, (0, 3, 4), (3, 1, 2, 4))
    .set 57 (.ein [(4, [0, 1, 2]), (23, [0, 3, 4])] [3, 1, 2, 4]) 1 1,
    -- 1070: tmp83 = einsum(tmp12, (0, 1, 2, 3), t2.abab, (4, 1, 5, 3), (4, 0, 2, 5))
    .set 58 (.ein [(13, [0, 1, 2, 3]), (0, [4, 1, 5, 3])] [4, 0, 2, 5]) 1 1,
    -- 1071: tmp81 = einsum(v.baa.xoo, (0, 1, 2), v.bbb.xoo, (0, 3, 4), (1, 2, 3, 4))
    .set 59 (.ein [(6, [0, 1, 2]), (4, [0, 3, 4])] [1, 2, 3, 4]) 1 1,
    -- 1072: tmp79 = einsum(t2.abab, (0, 1, 2, 3), tmp65, (4, 5, 2, 3), (0, 4, 1, 5))
    .set 60 (.ein [(0, [0, 1, 2, 3]), (16, [4, 5, 2, 3])] [0, 4, 1, 5]) 1 1,
    -- 1073: tmp77 = einsum(tmp76, (0, 1, 2, 3), t2.abab, (4, 5, 2, 3), (4, 5, 0, 1))
    .set 61 (.ein [(24, [0, 1, 2, 3]), (0, [4, 5, 2, 3])] [4, 5, 0, 1]) 1 1,
    -- 1074: del tmp76
    .del 24,
    -- 1075: tmp69 = einsum(v.baa.xvv, (0, 1, 2), v.baa.xoo, (0, 3, 4), (3, 4, 1, 2))
    .set 62 (.ein [(8, [0, 1, 2]), (6, [0, 3, 4])] [3, 4, 1, 2]) 1 1,
    -- 1076: tmp61 = einsum(t2.aaaa, (0, 1, 2, 3), f.aa.ov, (4, 3), (4, 0, 1, 2))
    .set 63 (.ein [(7, [0, 1, 2, 3]), (10, [4, 3])] [4, 0, 1, 2]) 1 1,
    -- 1077: tmp56 = einsum(t2.abab, (0, 1, 2, 3), tmp55, (1, 4, 5, 3), (0, 4, 2, 5))
    .set 64 (.ein [(0, [0, 1, 2, 3]), (14, [1, 4, 5, 3])] [0, 4, 2, 5]) 1 1,
    -- 1078: tmp52 = einsum(t2.aaaa, (0, 1, 2, 3), tmp32, (1, 4, 5, 3), (0, 4, 2, 5))
    .set 65 (.ein [(7, [0, 1, 2, 3]), (18, [1, 4, 5, 3])] [0, 4, 2, 5]) 1 1,
    -- 1079: tmp50 = einsum(tmp8, (0, 1, 2), v.baa.xov, (0, 1, 3), (2, 3))
    .set 66 (.ein [(23, [0, 1, 2]), (1, [0, 1, 3])] [2, 3]) 1 1,
    -- 1080: tmp48 = einsum(tmp5, (0, 1, 2), v.baa.xov, (0, 1, 3), (2, 3))
    .set 67 (.ein [(22, [0, 1, 2]), (1, [0, 1, 3])] [2, 3]) 1 1,
    -- 1081: tmp46 = einsum(v.baa.xoo, (0, 1, 2), tmp8, (0, 3, 4), (3, 1, 2, 4))
    .set 68 (.ein [(6, [0, 1, 2]), (23, [0, 3, 4])] [3, 1, 2, 4]) 1 1,
    -- 1082: tmp44 = einsum(v.baa.xoo, (0, 1, 2), tmp5, (0, 3, 4), (3, 1, 2, 4))
    .set 69 (.ein [(6, [0, 1, 2]), (22, [0, 3, 4])] [3, 1, 2, 4]) 1 1,
    -- 1083: tmp42 = einsum(t2.aaaa, (0, 1, 2, 3), tmp1, (4, 1, 5, 3), (0, 4, 5, 2))
    .set 70 (.ein [(7, [0, 1, 2, 3]), (19, [4, 1, 5, 3])] [0, 4, 5, 2]) 1 1,
    -- 1084: tmp41 = einsum(tmp3, (0, 1, 2, 3), t2.abab, (1, 2, 4, 3), (0, 4))
    .set 71 (.ein [(21, [0, 1, 2, 3]), (0, [1, 2, 4, 3])] [0, 4]) 1 1,
    -- 1085: tmp40 = einsum(t2.aaaa, (0, 1, 2, 3), tmp1, (4, 0, 1, 3), (4, 2))
    .set 72 (.ein [(7, [0, 1, 2, 3]), (19, [4, 0, 1, 3])] [4, 2]) 1 1,
    -- 1086: tmp38 = einsum(v.baa.xoo, (0, 1, 2), v.baa.xoo, (0, 3, 4), (3, 1, 2, 4))
    .set 73 (.ein [(6, [0, 1, 2]), (6, [0, 3, 4])] [3, 1, 2, 4]) 1 1,
    -- 1087: tmp37 = einsum(t2.abab, (0, 1, 2, 3), f.bb.ov, (1, 3), (0, 2))
    .set 74 (.ein [(0, [0, 1, 2, 3]), (9, [1, 3])] [0, 2]) 1 1,
    -- 1088: tmp36 = einsum(f.aa.ov, (0, 1), t2.aaaa, (2, 0, 3, 1), (2, 3))
    .set 75 (.ein [(10, [0, 1]), (7, [2, 0, 3, 1])] [2, 3]) 1 1,
    -- 1089: tmp33 = einsum(tmp32, (0, 1, 2, 3), t2.aaaa, (4, 5, 3, 2), (4, 5, 1, 0))
    .set 76 (.ein [(18, [0, 1, 2, 3]), (7, [4, 5, 3, 2])] [4, 5, 1, 0]) 1 1,
    -- 1090: tmp30 = einsum(tmp29, (0, 1, 2, 3), t2.aaaa, (4, 5, 2, 3), (4, 5, 0, 1)) * -1
    .set 77 (.ein [(25, [0, 1, 2, 3]), (7, [4, 5, 2, 3])] [4, 5, 0, 1]) (-1) 1,
    -- 1091: del tmp29
    .del 25,
    -- 1092: tmp28 = einsum(v.baa.xvv, (0, 1, 2), tmp8, (0, 3, 2), (3, 1))
    .set 78 (.ein [(8, [0, 1, 2]), (23, [0, 3, 2])] [3, 1]) 1 1,
    -- 1093: tmp27 = einsum(v.baa.xvv, (0, 1, 2), tmp5, (0, 3, 2), (3, 1)) * -1
    .set 79 (.ein [(8, [0, 1, 2]), (22, [0, 3, 2])] [3, 1]) (-1) 1,
    -- 1094: tmp20 = einsum(v.bbb.xov, (0, 1, 2), tmp19, (0, 3, 2), (3, 1))
    .set 80 (.ein [(2, [0, 1, 2]), (11, [0, 3, 2])] [3, 1]) 1 1,
    -- 1095: tmp17 = einsum(v.bbb.xov, (0, 1, 2), tmp16, (0, 3, 2), (3, 1))
    .set 81 (.ein [(2, [0, 1, 2]), (12, [0, 3, 2])] [3, 1]) 1 1,
    -- 1096: tmp9 = einsum(tmp8, (0, 1, 2), v.baa.xov, (0, 3, 2), (1, 3))
    .set 82 (.ein [(23, [0, 1, 2]), (1, [0, 3, 2])] [1, 3]) 1 1,
    -- 1097: tmp6 = einsum(tmp5, (0, 1, 2), v.baa.xov, (0, 3, 2), (1, 3))
    .set 83 (.ein [(22, [0, 1, 2]), (1, [0, 3, 2])] [1, 3]) 1 1
  ]
  ret := [(chars! "tmp1", 19), (chars! "tmp101", 52), (chars! "tmp108", 51), (chars! "tmp111", 50), (chars! "tmp112", 49), (chars! "tmp114", 48), (chars! "tmp115", 47), (chars! "tmp116", 46), (chars! "tmp118", 45), (chars! "tmp12", 13), (chars! "tmp121", 44), (chars! "tmp125", 43), (chars! "tmp126", 42), (chars! "tmp127", 41), (chars! "tmp128", 40), (chars! "tmp129", 39), (chars! "tmp131", 38), (chars! "tmp133", 37), (chars! "tmp136", 36), (chars! "tmp139", 35), (chars! "tmp14", 17), (chars! "tmp142", 34), (chars! "tmp143", 33), (chars! "tmp148", 32), (chars! "tmp150", 31), (chars! "tmp153", 30), (chars! "tmp155", 29), (chars! "tmp157", 28), (chars! "tmp159", 27), (chars! "tmp16", 12), (chars! "tmp169", 26), (chars! "tmp17", 81), (chars! "tmp19", 11), (chars! "tmp20", 80), (chars! "tmp27", 79), (chars! "tmp28", 78), (chars! "tmp3", 21), (chars! "tmp30", 77), (chars! "tmp32", 18), (chars! "tmp33", 76), (chars! "tmp36", 75), (chars! "tmp37", 74), (chars! "tmp38", 73), (chars! "tmp40", 72), (chars! "tmp41", 71), (chars! "tmp42", 70), (chars! "tmp44", 69), (chars! "tmp46", 68), (chars! "tmp48", 67), (chars! "tmp5", 22), (chars! "tmp50", 66), (chars! "tmp52", 65), (chars! "tmp55", 14), (chars! "tmp56", 64), (chars! "tmp6", 83), (chars! "tmp61", 63), (chars! "tmp65", 16), (chars! "tmp69", 62), (chars! "tmp77", 61), (chars! "tmp79", 60), (chars! "tmp8", 23), (chars! "tmp81", 59), (chars! "tmp83", 58), (chars! "tmp84", 57), (chars! "tmp85", 56), (chars! "tmp9", 82), (chars! "tmp92", 55), (chars! "tmp93", 54), (chars! "tmp96", 53)]

/-- codegen/UDFCCD.py:1101-1456 `hbar_matvec_ip`. -/
def hbar_matvec_ip : GenFun where
  args := [chars! "v.bbb.xov", chars! "r2.bab", chars! "r2.aaa", chars! "v.baa.xov", chars! "ints.tmp159", chars! "ints.tmp157", chars! "ints.tmp139", chars! "ints.tmp121", chars! "r2.aba", chars! "ints.tmp19", chars! "ints.tmp16", chars! "r2.bbb", chars! "ints.tmp17", chars! "ints.tmp20", chars! "ints.tmp12", chars! "ints.tmp155", chars! "ints.tmp69", chars! "ints.tmp52", chars! "ints.tmp46", chars! "ints.tmp44", chars! "ints.tmp5", chars! "ints.tmp8", chars! "ints.tmp6", chars! "ints.tmp9", chars! "ints.tmp1", chars! "ints.tmp42", chars! "r1.b", chars! "f.bb.oo", chars! "ints.tmp118", chars! "ints.tmp55", chars! "ints.tmp65", chars! "ints.tmp32", chars! "ints.tmp56", chars! "r1.a", chars! "f.aa.oo", chars! "f.bb.ov", chars! "ints.tmp111", chars! "ints.tmp112", chars! "ints.tmp143", chars! "ints.tmp126", chars! "ints.tmp127", chars! "ints.tmp142", chars! "ints.tmp129", chars! "ints.tmp131", chars! "f.bb.vv", chars! "ints.tmp148", chars! "ints.tmp169", chars! "ints.tmp150", chars! "ints.tmp153", chars! "ints.tmp133", chars! "ints.tmp136", chars! "ints.tmp79", chars! "ints.tmp81", chars! "ints.tmp108", chars! "ints.tmp115", chars! "ints.tmp116", chars! "ints.tmp125", chars! "ints.tmp3", chars! "ints.tmp114", chars! "ints.tmp128", chars! "f.aa.ov", chars! "ints.tmp28", chars! "ints.tmp36", chars! "ints.tmp37", chars! "ints.tmp27", chars! "ints.tmp40", chars! "ints.tmp41", chars! "ints.tmp101", chars! "ints.tmp96", chars! "ints.tmp14", chars! "ints.tmp77", chars! "ints.tmp84", chars! "ints.tmp85", chars! "ints.tmp92", chars! "ints.tmp83", chars! "ints.tmp93", chars! "ints.tmp48", chars! "ints.tmp50", chars! "f.aa.vv", chars! "ints.tmp33", chars! "ints.tmp38", chars! "ints.tmp30", chars! "ints.tmp61", chars! "t2.bbbb", chars! "t2.abab", chars! "t2.aaaa"]
  body := [
    -- 1129: tmp3 = einsum(v.bbb.xov, (0, 1, 2), r2.bab, (1, 3, 2), (0, 3)) * -1
    .set 86 (.ein [(0, [0, 1, 2]), (1, [1, 3, 2])] [0, 3]) (-1) 1,
    -- 1130: tmp2 = einsum(r2.aaa, (0, 1, 2), v.baa.xov, (3, 1, 2), (3, 0))
    .set 87 (.ein [(2, [0, 1, 2]), (3, [3, 1, 2])] [3, 0]) 1 1,
    -- 1131: tmp52 = np.copy(ints.tmp159)
    .set 88 (.cp 4) 1 1,
    -- 1132: del ints.tmp159
    .del 4,
    -- 1133: tmp52 += ints.tmp157 * 2
    .add 88 (.cp 5) 2 1,
    -- 1134: del ints.tmp157
    .del 5,
    -- 1135: tmp39 = np.copy(ints.tmp139)
    .set 89 (.cp 6) 1 1,
    -- 1136: del ints.tmp139
    .del 6,
    -- 1137: tmp39 += ints.tmp121 * 2
    .add 89 (.cp 7) 2 1,
    -- 1138: del ints.tmp121
    .del 7,
    -- 1139: tmp31 = einsum(r2.aba, (0, 1, 2), v.baa.xov, (3, 0, 2), (3, 1))
    .set 90 (.ein [(8, [0, 1, 2]), (3, [3, 0, 2])] [3, 1]) 1 1,
    -- 1140: tmp50 = np.copy(ints.tmp19)
    .set 91 (.cp 9) 1 1,
    -- 1141: tmp50 += ints.tmp16 * 2
    .add 91 (.cp 10) 2 1,
    -- 1142: tmp32 = einsum(v.bbb.xov, (0, 1, 2), r2.bbb, (3, 1, 2), (0, 3))
    .set 92 (.ein [(0, [0, 1, 2]), (11, [3, 1, 2])] [0, 3]) 1 1,
    -- 1143: tmp59 = np.copy(ints.tmp17) * 2
    .set 93 (.cp 12) 2 1,
    -- 1144: tmp59 += ints.tmp20
    .add 93 (.cp 13) 1 1,
    -- 1145: tmp57 = np.copy(ints.tmp16)
    .set 94 (.cp 10) 1 1,
    -- 1146: tmp57 += ints.tmp19 * 0.5
    .add 94 (.cp 9) 1 2,
    -- 1147: tmp61 = np.copy(ints.tmp12)
    .set 95 (.cp 14) 1 1,
    -- 1148: tmp61 += np.transpose(ints.tmp155, (0, 2, 1, 3)) * 2
    .add 95 (.tr 15 [0, 2, 1, 3]) 2 1,
    -- 1149: del ints.tmp155
    .del 15,
    -- 1150: tmp14 = np.copy(ints.tmp69)
    .set 96 (.cp 16) 1 1,
    -- 1151: tmp14 += ints.tmp52 * 2
    .add 96 (.cp 17) 2 1,
    -- 1152: tmp18 = np.copy(ints.tmp46)
    .set 97 (.cp 18) 1 1,
    -- 1153: del ints.tmp46
    .del 18,
    -- 1154: tmp18 += ints.tmp44 * 2
    .add 97 (.cp 19) 2 1,
    -- 1155: del ints.tmp44
    .del 19,
    -- 1156: tmp16 = np.copy(tmp2) * 2
    .set 98 (.cp 87) 2 1,
    -- 1157: tmp16 += tmp3
    .add 98 (.cp 86) 1 1,
    -- 1158: tmp4 = np.copy(tmp2) * 2
    .set 99 (.cp 87) 2 1,
    -- 1159: tmp4 += tmp3
    .add 99 (.cp 86) 1 1,
    -- 1160: tmp5 = np.copy(ints.tmp5)
    .set 100 (.cp 20) 1 1,
    -- 1161: tmp5 += ints.tmp8 * 0.5
    .add 100 (.cp 21) 1 2,
    -- 1162: tmp7 = np.copy(ints.tmp6) * 2
    .set 101 (.cp 22) 2 1,
    -- 1163: tmp7 += ints.tmp9
    .add 101 (.cp 23) 1 1,
    -- 1164: tmp9 = np.copy(ints.tmp1)
    .set 102 (.cp 24) 1 1,
    -- 1165: tmp9 += np.transpose(ints.tmp42, (0, 2, 1, 3)) * 2
    .add 102 (.tr 25 [0, 2, 1, 3]) 2 1,
    -- 1166: del ints.tmp42
    .del 25,
    -- 1167: tmp53 = einsum(r1.b, (0,), tmp52, (1, 0, 2, 3), (1, 2, 3))
    .set 103 (.ein [(26, [0]), (88, [1, 0, 2, 3])] [1, 2, 3]) 1 1,
    -- 1168: del tmp52
    .del 88,
    -- 1169: tmp49 = einsum(tmp39, (0, 1, 2, 3), r2.bbb, (4, 1, 3), (4, 0, 2)) * -1
    .set 104 (.ein [(89, [0, 1, 2, 3]), (11, [4, 1, 3])] [4, 0, 2]) (-1) 1,
    -- 1170: tmp51 = einsum(tmp31, (0, 1), tmp50, (0, 2, 3), (1, 2, 3))
    .set 105 (.ein [(90, [0, 1]), (91, [0, 2, 3])] [1, 2, 3]) 1 1,
    -- 1171: del tmp50
    .del 91,
    -- 1172: tmp47 = einsum(r2.bbb, (0, 1, 2), f.bb.oo, (3, 1), (3, 0, 2))
    .set 106 (.ein [(11, [0, 1, 2]), (27, [3, 1])] [3, 0, 2]) 1 1,
    -- 1173: tmp48 = einsum(tmp32, (0, 1), v.bbb.xov, (0, 2, 3), (1, 2, 3))
    .set 107 (.ein [(92, [0, 1]), (0, [0, 2, 3])] [1, 2, 3]) 1 1,
    -- 1174: tmp60 = einsum(r2.bbb, (0, 1, 2), tmp59, (3, 1), (0, 3, 2)) * -2
    .set 108 (.ein [(11, [0, 1, 2]), (93, [3, 1])] [0, 3, 2]) (-2) 1,
    -- 1175: del tmp59
    .del 93,
    -- 1176: tmp58 = einsum(tmp32, (0, 1), tmp57, (0, 2, 3), (1, 2, 3)) * 4
    .set 109 (.ein [(92, [0, 1]), (94, [0, 2, 3])] [1, 2, 3]) 4 1,
    -- 1177: del tmp57
    .del 94,
    -- 1178: tmp55 = einsum(r2.aba, (0, 1, 2), ints.tmp118, (0, 3, 2, 4), (3, 1, 4))
    .set 110 (.ein [(8, [0, 1, 2]), (28, [0, 3, 2, 4])] [3, 1, 4]) 1 1,
    -- 1179: tmp62 = einsum(r1.b, (0,), tmp61, (1, 0, 2, 3), (1, 2, 3))
    .set 111 (.ein [(26, [0]), (95, [1, 0, 2, 3])] [1, 2, 3]) 1 1,
    -- 1180: del tmp61
    .del 95,
    -- 1181: tmp56 = einsum(v.bbb.xov, (0, 1, 2), tmp31, (0, 3), (3, 1, 2))
    .set 112 (.ein [(0, [0, 1, 2]), (90, [0, 3])] [3, 1, 2]) 1 1,
    -- 1182: tmp36 = einsum(ints.tmp55, (0, 1, 2, 3), r2.bbb, (1, 0, 2), (3,)) * -1
    .set 113 (.ein [(29, [0, 1, 2, 3]), (11, [1, 0, 2])] [3]) (-1) 1,
    -- 1183: del ints.tmp55
    .del 29,
    -- 1184: tmp35 = einsum(r2.aba, (0, 1, 2), ints.tmp65, (0, 1, 2, 3), (3,))
    .set 114 (.ein [(8, [0, 1, 2]), (30, [0, 1, 2, 3])] [3]) 1 1,
    -- 1185: tmp23 = einsum(ints.tmp32, (0, 1, 2, 3), r2.aaa, (0, 1, 2), (3,))
    .set 115 (.ein [(31, [0, 1, 2, 3]), (2, [0, 1, 2])] [3]) 1 1,
    -- 1186: del ints.tmp32
    .del 31,
    -- 1187: tmp24 = einsum(ints.tmp65, (0, 1, 2, 3), r2.bab, (1, 0, 3), (2,)) * -1
    .set 116 (.ein [(30, [0, 1, 2, 3]), (1, [1, 0, 3])] [2]) (-1) 1,
    -- 1188: del ints.tmp65
    .del 30,
    -- 1189: tmp13 = einsum(ints.tmp56, (0, 1, 2, 3), r2.bab, (1, 4, 3), (0, 4, 2)) * -1
    .set 117 (.ein [(32, [0, 1, 2, 3]), (1, [1, 4, 3])] [0, 4, 2]) (-1) 1,
    -- 1190: tmp15 = einsum(tmp14, (0, 1, 2, 3), r2.aaa, (4, 1, 3), (4, 0, 2)) * -1
    .set 118 (.ein [(96, [0, 1, 2, 3]), (2, [4, 1, 3])] [4, 0, 2]) (-1) 1,
    -- 1191: del tmp14
    .del 96,
    -- 1192: tmp19 = einsum(r1.a, (0,), tmp18, (1, 0, 2, 3), (1, 2, 3))
    .set 119 (.ein [(33, [0]), (97, [1, 0, 2, 3])] [1, 2, 3]) 1 1,
    -- 1193: del tmp18
    .del 97,
    -- 1194: tmp17 = einsum(tmp16, (0, 1), v.baa.xov, (0, 2, 3), (2, 1, 3))
    .set 120 (.ein [(98, [0, 1]), (3, [0, 2, 3])] [2, 1, 3]) 1 1,
    -- 1195: del tmp16
    .del 98,
    -- 1196: tmp12 = einsum(f.aa.oo, (0, 1), r2.aaa, (2, 1, 3), (0, 2, 3))
    .set 121 (.ein [(34, [0, 1]), (2, [2, 1, 3])] [0, 2, 3]) 1 1,
    -- 1197: tmp6 = einsum(tmp4, (0, 1), tmp5, (0, 2, 3), (1, 2, 3)) * 2
    .set 122 (.ein [(99, [0, 1]), (100, [0, 2, 3])] [1, 2, 3]) 2 1,
    -- 1198: del tmp4, tmp5
    .del 99,
    .del 100,
    -- 1199: tmp8 = einsum(r2.aaa, (0, 1, 2), tmp7, (3, 1), (0, 3, 2)) * -2
    .set 123 (.ein [(2, [0, 1, 2]), (101, [3, 1])] [0, 3, 2]) (-2) 1,
    -- 1200: del tmp7
    .del 101,
    -- 1201: tmp10 = einsum(r1.a, (0,), tmp9, (1, 0, 2, 3), (1, 2, 3))
    .set 124 (.ein [(33, [0]), (102, [1, 0, 2, 3])] [1, 2, 3]) 1 1,
    -- 1202: del tmp9
    .del 102,
    -- 1203: tmp54 = np.copy(tmp47) * 2
    .set 125 (.cp 106) 2 1,
    -- 1204: del tmp47
    .del 106,
    -- 1205: tmp54 += tmp48 * 2
    .add 125 (.cp 107) 2 1,
    -- 1206: del tmp48
    .del 107,
    -- 1207: tmp54 += np.transpose(tmp49, (1, 0, 2)) * -2
    .add 125 (.tr 104 [1, 0, 2]) (-2) 1,
    -- 1208: del tmp49
    .del 104,
    -- 1209: tmp54 += np.transpose(tmp51, (1, 0, 2))
    .add 125 (.tr 105 [1, 0, 2]) 1 1,
    -- 1210: del tmp51
    .del 105,
    -- 1211: tmp54 += tmp53
    .add 125 (.cp 103) 1 1,
    -- 1212: del tmp53
    .del 103,
    -- 1213: tmp63 = np.copy(tmp55)
    .set 126 (.cp 110) 1 1,
    -- 1214: del tmp55
    .del 110,
    -- 1215: tmp63 += tmp56
    .add 126 (.cp 112) 1 1,
    -- 1216: del tmp56
    .del 112,
    -- 1217: tmp63 += np.transpose(tmp58, (1, 0, 2))
    .add 126 (.tr 109 [1, 0, 2]) 1 1,
    -- 1218: del tmp58
    .del 109,
    -- 1219: tmp63 += np.transpose(tmp60, (1, 0, 2))
    .add 126 (.tr 108 [1, 0, 2]) 1 1,
    -- 1220: del tmp60
    .del 108,
    -- 1221: tmp63 += tmp62
    .add 126 (.cp 111) 1 1,
    -- 1222: del tmp62
    .del 111,
    -- 1223: tmp46 = np.copy(f.bb.ov)
    .set 127 (.cp 35) 1 1,
    -- 1224: tmp46 += ints.tmp111
    .add 127 (.cp 36) 1 1,
    -- 1225: del ints.tmp111
    .del 36,
    -- 1226: tmp46 += ints.tmp112 * 2
    .add 127 (.cp 37) 2 1,
    -- 1227: del ints.tmp112
    .del 37,
    -- 1228: tmp46 += ints.tmp143
    .add 127 (.cp 38) 1 1,
    -- 1229: del ints.tmp143
    .del 38,
    -- 1230: tmp46 += ints.tmp126 * -2
    .add 127 (.cp 39) (-2) 1,
    -- 1231: del ints.tmp126
    .del 39,
    -- 1232: tmp46 += ints.tmp127 * -1
    .add 127 (.cp 40) (-1) 1,
    -- 1233: del ints.tmp127
    .del 40,
    -- 1234: tmp46 += ints.tmp142 * -2
    .add 127 (.cp 41) (-2) 1,
    -- 1235: del ints.tmp142
    .del 41,
    -- 1236: tmp44 = np.copy(np.transpose(ints.tmp129, (1, 0))) * 2
    .set 128 (.tr 42 [1, 0]) 2 1,
    -- 1237: del ints.tmp129
    .del 42,
    -- 1238: tmp44 += np.transpose(ints.tmp131, (1, 0))
    .add 128 (.tr 43 [1, 0]) 1 1,
    -- 1239: del ints.tmp131
    .del 43,
    -- 1240: tmp44 += f.bb.vv * -1
    .add 128 (.cp 44) (-1) 1,
    -- 1241: tmp65 = np.copy(ints.tmp148)
    .set 129 (.cp 45) 1 1,
    -- 1242: del ints.tmp148
    .del 45,
    -- 1243: tmp65 += np.transpose(ints.tmp169, (1, 2, 0, 3)) * -1
    .add 129 (.tr 46 [1, 2, 0, 3]) (-1) 1,
    -- 1244: del ints.tmp169
    .del 46,
    -- 1245: tmp37 = np.copy(tmp35) * 0.5
    .set 130 (.cp 114) 1 2,
    -- 1246: del tmp35
    .del 114,
    -- 1247: tmp37 += tmp36
    .add 130 (.cp 113) 1 1,
    -- 1248: del tmp36
    .del 113,
    -- 1249: tmp64 = np.copy(ints.tmp150)
    .set 131 (.cp 47) 1 1,
    -- 1250: del ints.tmp150
    .del 47,
    -- 1251: tmp64 += np.transpose(ints.tmp153, (0, 2, 1, 3)) * -1
    .add 131 (.tr 48 [0, 2, 1, 3]) (-1) 1,
    -- 1252: del ints.tmp153
    .del 48,
    -- 1253: tmp25 = np.copy(tmp23) * 2
    .set 132 (.cp 115) 2 1,
    -- 1254: del tmp23
    .del 115,
    -- 1255: tmp25 += tmp24 * -1
    .add 132 (.cp 116) (-1) 1,
    -- 1256: del tmp24
    .del 116,
    -- 1257: tmp42 = np.copy(tmp2)
    .set 133 (.cp 87) 1 1,
    -- 1258: del tmp2
    .del 87,
    -- 1259: tmp42 += tmp3 * 0.5
    .add 133 (.cp 86) 1 2,
    -- 1260: del tmp3
    .del 86,
    -- 1261: tmp40 = np.copy(ints.tmp133)
    .set 134 (.cp 49) 1 1,
    -- 1262: del ints.tmp133
    .del 49,
    -- 1263: tmp40 += ints.tmp136 * -1
    .add 134 (.cp 50) (-1) 1,
    -- 1264: del ints.tmp136
    .del 50,
    -- 1265: tmp1 = np.copy(f.bb.oo)
    .set 135 (.cp 27) 1 1,
    -- 1266: tmp1 += np.transpose(ints.tmp17, (1, 0)) * 2
    .add 135 (.tr 12 [1, 0]) 2 1,
    -- 1267: del ints.tmp17
    .del 12,
    -- 1268: tmp1 += np.transpose(ints.tmp20, (1, 0))
    .add 135 (.tr 13 [1, 0]) 1 1,
    -- 1269: del ints.tmp20
    .del 13,
    -- 1270: tmp41 = np.copy(ints.tmp79)
    .set 136 (.cp 51) 1 1,
    -- 1271: tmp41 += ints.tmp81
    .add 136 (.cp 52) 1 1,
    -- 1272: tmp43 = np.copy(ints.tmp16) * 2
    .set 137 (.cp 10) 2 1,
    -- 1273: del ints.tmp16
    .del 10,
    -- 1274: tmp43 += ints.tmp19
    .add 137 (.cp 9) 1 1,
    -- 1275: del ints.tmp19
    .del 9,
    -- 1276: tmp43 += v.bbb.xov
    .add 137 (.cp 0) 1 1,
    -- 1277: tmp0 = np.copy(f.aa.oo)
    .set 138 (.cp 34) 1 1,
    -- 1278: tmp0 += np.transpose(ints.tmp6, (1, 0)) * 2
    .add 138 (.tr 22 [1, 0]) 2 1,
    -- 1279: del ints.tmp6
    .del 22,
    -- 1280: tmp0 += np.transpose(ints.tmp9, (1, 0))
    .add 138 (.tr 23 [1, 0]) 1 1,
    -- 1281: del ints.tmp9
    .del 23,
    -- 1282: tmp45 = np.copy(ints.tmp108)
    .set 139 (.cp 53) 1 1,
    -- 1283: del ints.tmp108
    .del 53,
    -- 1284: tmp45 += np.transpose(ints.tmp115, (1, 0, 2, 3))
    .add 139 (.tr 54 [1, 0, 2, 3]) 1 1,
    -- 1285: del ints.tmp115
    .del 54,
    -- 1286: tmp45 += np.transpose(ints.tmp116, (1, 0, 2, 3)) * 2
    .add 139 (.tr 55 [1, 0, 2, 3]) 2 1,
    -- 1287: del ints.tmp116
    .del 55,
    -- 1288: tmp45 += np.transpose(ints.tmp125, (1, 0, 2, 3))
    .add 139 (.tr 56 [1, 0, 2, 3]) 1 1,
    -- 1289: del ints.tmp125
    .del 56,
    -- 1290: tmp45 += ints.tmp3
    .add 139 (.cp 57) 1 1,
    -- 1291: tmp45 += ints.tmp114 * -1
    .add 139 (.cp 58) (-1) 1,
    -- 1292: del ints.tmp114
    .del 58,
    -- 1293: tmp45 += ints.tmp128 * -1
    .add 139 (.cp 59) (-1) 1,
    -- 1294: del ints.tmp128
    .del 59,
    -- 1295: tmp27 = np.copy(f.aa.ov)
    .set 140 (.cp 60) 1 1,
    -- 1296: tmp27 += ints.tmp28
    .add 140 (.cp 61) 1 1,
    -- 1297: del ints.tmp28
    .del 61,
    -- 1298: tmp27 += ints.tmp36 * 2
    .add 140 (.cp 62) 2 1,
    -- 1299: del ints.tmp36
    .del 62,
    -- 1300: tmp27 += ints.tmp37
    .add 140 (.cp 63) 1 1,
    -- 1301: del ints.tmp37
    .del 63,
    -- 1302: tmp27 += ints.tmp27 * -2
    .add 140 (.cp 64) (-2) 1,
    -- 1303: del ints.tmp27
    .del 64,
    -- 1304: tmp27 += ints.tmp40 * -2
    .add 140 (.cp 65) (-2) 1,
    -- 1305: del ints.tmp40
    .del 65,
    -- 1306: tmp27 += ints.tmp41 * -1
    .add 140 (.cp 66) (-1) 1,
    -- 1307: del ints.tmp41
    .del 66,
    -- 1308: tmp28 = np.copy(ints.tmp52) * 2
    .set 141 (.cp 17) 2 1,
    -- 1309: del ints.tmp52
    .del 17,
    -- 1310: tmp28 += ints.tmp69
    .add 141 (.cp 16) 1 1,
    -- 1311: del ints.tmp69
    .del 16,
    -- 1312: tmp30 = np.copy(ints.tmp79)
    .set 142 (.cp 51) 1 1,
    -- 1313: del ints.tmp79
    .del 51,
    -- 1314: tmp30 += ints.tmp81
    .add 142 (.cp 52) 1 1,
    -- 1315: del ints.tmp81
    .del 52,
    -- 1316: tmp34 = np.copy(ints.tmp5) * 2
    .set 143 (.cp 20) 2 1,
    -- 1317: del ints.tmp5
    .del 20,
    -- 1318: tmp34 += ints.tmp8
    .add 143 (.cp 21) 1 1,
    -- 1319: del ints.tmp8
    .del 21,
    -- 1320: tmp34 += v.baa.xov
    .add 143 (.cp 3) 1 1,
    -- 1321: tmp29 = np.copy(ints.tmp101)
    .set 144 (.cp 67) 1 1,
    -- 1322: del ints.tmp101
    .del 67,
    -- 1323: tmp29 += ints.tmp96 * -1
    .add 144 (.cp 68) (-1) 1,
    -- 1324: del ints.tmp96
    .del 68,
    -- 1325: tmp38 = np.copy(ints.tmp14)
    .set 145 (.cp 69) 1 1,
    -- 1326: tmp38 += ints.tmp77
    .add 145 (.cp 70) 1 1,
    -- 1327: del ints.tmp77
    .del 70,
    -- 1328: tmp38 += np.transpose(ints.tmp84, (0, 2, 1, 3))
    .add 145 (.tr 71 [0, 2, 1, 3]) 1 1,
    -- 1329: del ints.tmp84
    .del 71,
    -- 1330: tmp38 += np.transpose(ints.tmp85, (0, 2, 1, 3)) * 2
    .add 145 (.tr 72 [0, 2, 1, 3]) 2 1,
    -- 1331: del ints.tmp85
    .del 72,
    -- 1332: tmp38 += np.transpose(ints.tmp92, (0, 2, 1, 3))
    .add 145 (.tr 73 [0, 2, 1, 3]) 1 1,
    -- 1333: del ints.tmp92
    .del 73,
    -- 1334: tmp38 += ints.tmp83 * -1
    .add 145 (.cp 74) (-1) 1,
    -- 1335: del ints.tmp83
    .del 74,
    -- 1336: tmp38 += ints.tmp93 * -1
    .add 145 (.cp 75) (-1) 1,
    -- 1337: del ints.tmp93
    .del 75,
    -- 1338: tmp22 = np.copy(np.transpose(ints.tmp48, (1, 0))) * 2
    .set 146 (.tr 76 [1, 0]) 2 1,
    -- 1339: del ints.tmp48
    .del 76,
    -- 1340: tmp22 += np.transpose(ints.tmp50, (1, 0))
    .add 146 (.tr 77 [1, 0]) 1 1,
    -- 1341: del ints.tmp50
    .del 77,
    -- 1342: tmp22 += f.aa.vv * -1
    .add 146 (.cp 78) (-1) 1,
    -- 1343: tmp33 = np.copy(tmp31) * -0.5
    .set 147 (.cp 90) (-1) 2,
    -- 1344: del tmp31
    .del 90,
    -- 1345: tmp33 += tmp32
    .add 147 (.cp 92) 1 1,
    -- 1346: del tmp32
    .del 92,
    -- 1347: tmp21 = np.copy(ints.tmp33)
    .set 148 (.cp 79) 1 1,
    -- 1348: del ints.tmp33
    .del 79,
    -- 1349: tmp21 += np.transpose(ints.tmp38, (0, 2, 1, 3)) * -1
    .add 148 (.tr 80 [0, 2, 1, 3]) (-1) 1,
    -- 1350: del ints.tmp38
    .del 80,
    -- 1351: tmp26 = np.copy(ints.tmp30)
    .set 149 (.cp 81) 1 1,
    -- 1352: del ints.tmp30
    .del 81,
    -- 1353: tmp26 += np.transpose(ints.tmp61, (1, 2, 0, 3)) * -1
    .add 149 (.tr 82 [1, 2, 0, 3]) (-1) 1,
    -- 1354: del ints.tmp61
    .del 82,
    -- 1355: tmp20 = np.copy(tmp12) * 2
    .set 150 (.cp 121) 2 1,
    -- 1356: del tmp12
    .del 121,
    -- 1357: tmp20 += tmp13
    .add 150 (.cp 117) 1 1,
    -- 1358: del tmp13
    .del 117,
    -- 1359: tmp20 += np.transpose(tmp15, (1, 0, 2)) * -2
    .add 150 (.tr 118 [1, 0, 2]) (-2) 1,
    -- 1360: del tmp15
    .del 118,
    -- 1361: tmp20 += np.transpose(tmp17, (1, 0, 2))
    .add 150 (.tr 120 [1, 0, 2]) 1 1,
    -- 1362: del tmp17
    .del 120,
    -- 1363: tmp20 += tmp19
    .add 150 (.cp 119) 1 1,
    -- 1364: del tmp19
    .del 119,
    -- 1365: tmp11 = np.copy(np.transpose(tmp6, (1, 0, 2)))
    .set 151 (.tr 122 [1, 0, 2]) 1 1,
    -- 1366: del tmp6
    .del 122,
    -- 1367: tmp11 += np.transpose(tmp8, (1, 0, 2))
    .add 151 (.tr 123 [1, 0, 2]) 1 1,
    -- 1368: del tmp8
    .del 123,
    -- 1369: tmp11 += tmp10
    .add 151 (.cp 124) 1 1,
    -- 1370: del tmp10
    .del 124,
    -- 1371: r2new.bbb = np.copy(tmp54)
    .set 152 (.cp 125) 1 1,
    -- 1372: r2new.bbb += np.transpose(tmp54, (1, 0, 2)) * -1
    .add 152 (.tr 125 [1, 0, 2]) (-1) 1,
    -- 1373: del tmp54
    .del 125,
    -- 1374: r2new.bbb += tmp63 * -1
    .add 152 (.cp 126) (-1) 1,
    -- 1375: r2new.bbb += np.transpose(tmp63, (1, 0, 2))
    .add 152 (.tr 126 [1, 0, 2]) 1 1,
    -- 1376: del tmp63
    .del 126,
    -- 1377: r2new.bbb += einsum(tmp64, (0, 1, 2, 3), r2.bbb, (3, 2, 4), (0, 1, 4)) * -2
    .add 152 (.ein [(131, [0, 1, 2, 3]), (11, [3, 2, 4])] [0, 1, 4]) (-2) 1,
    -- 1378: del tmp64
    .del 131,
    -- 1379: r2new.bbb += einsum(tmp44, (0, 1), r2.bbb, (2, 3, 0), (2, 3, 1)) * -2
    .add 152 (.ein [(128, [0, 1]), (11, [2, 3, 0])] [2, 3, 1]) (-2) 1,
    -- 1380: r2new.bbb += einsum(t2.bbbb, (0, 1, 2, 3), tmp37, (3,), (0, 1, 2)) * -4
    .add 152 (.ein [(83, [0, 1, 2, 3]), (130, [3])] [0, 1, 2]) (-4) 1,
    -- 1381: r2new.bbb += einsum(r1.b, (0,), tmp65, (1, 2, 0, 3), (2, 1, 3)) * 2
    .add 152 (.ein [(26, [0]), (129, [1, 2, 0, 3])] [2, 1, 3]) 2 1,
    -- 1382: del tmp65
    .del 129,
    -- 1383: r2new.bbb += einsum(r1.b, (0,), tmp46, (1, 2), (0, 1, 2))
    .add 152 (.ein [(26, [0]), (127, [1, 2])] [0, 1, 2]) 1 1,
    -- 1384: r2new.bbb += einsum(tmp46, (0, 1), r1.b, (2,), (0, 2, 1)) * -1
    .add 152 (.ein [(127, [0, 1]), (26, [2])] [0, 2, 1]) (-1) 1,
    -- 1385: r2new.bab = einsum(r2.aaa, (0, 1, 2), ints.tmp118, (1, 3, 2, 4), (3, 0, 4)) * 2
    .set 153 (.ein [(2, [0, 1, 2]), (28, [1, 3, 2, 4])] [3, 0, 4]) 2 1,
    -- 1386: del ints.tmp118
    .del 28,
    -- 1387: r2new.bab += einsum(tmp39, (0, 1, 2, 3), r2.bab, (1, 4, 3), (0, 4, 2)) * -1
    .add 153 (.ein [(89, [0, 1, 2, 3]), (1, [1, 4, 3])] [0, 4, 2]) (-1) 1,
    -- 1388: del tmp39
    .del 89,
    -- 1389: r2new.bab += einsum(r2.bab, (0, 1, 2), tmp40, (3, 1, 4, 2), (0, 3, 4))
    .add 153 (.ein [(1, [0, 1, 2]), (134, [3, 1, 4, 2])] [0, 3, 4]) 1 1,
    -- 1390: del tmp40
    .del 134,
    -- 1391: r2new.bab += einsum(tmp41, (0, 1, 2, 3), r2.bab, (3, 1, 4), (2, 0, 4))
    .add 153 (.ein [(136, [0, 1, 2, 3]), (1, [3, 1, 4])] [2, 0, 4]) 1 1,
    -- 1392: del tmp41
    .del 136,
    -- 1393: r2new.bab += einsum(tmp43, (0, 1, 2), tmp42, (0, 3), (1, 3, 2)) * -2
    .add 153 (.ein [(137, [0, 1, 2]), (133, [0, 3])] [1, 3, 2]) (-2) 1,
    -- 1394: del tmp43, tmp42
    .del 137,
    .del 133,
    -- 1395: r2new.bab += einsum(r2.bab, (0, 1, 2), tmp44, (2, 3), (0, 1, 3)) * -1
    .add 153 (.ein [(1, [0, 1, 2]), (128, [2, 3])] [0, 1, 3]) (-1) 1,
    -- 1396: del tmp44
    .del 128,
    -- 1397: r2new.bab += einsum(tmp25, (0,), t2.abab, (1, 2, 0, 3), (2, 1, 3)) * -1
    .add 153 (.ein [(132, [0]), (84, [1, 2, 0, 3])] [2, 1, 3]) (-1) 1,
    -- 1398: r2new.bab += einsum(r1.a, (0,), tmp45, (1, 0, 2, 3), (2, 1, 3))
    .add 153 (.ein [(33, [0]), (139, [1, 0, 2, 3])] [2, 1, 3]) 1 1,
    -- 1399: del tmp45
    .del 139,
    -- 1400: r2new.bab += einsum(r2.bab, (0, 1, 2), tmp0, (1, 3), (0, 3, 2)) * -1
    .add 153 (.ein [(1, [0, 1, 2]), (138, [1, 3])] [0, 3, 2]) (-1) 1,
    -- 1401: r2new.bab += einsum(tmp1, (0, 1), r2.bab, (0, 2, 3), (1, 2, 3)) * -1
    .add 153 (.ein [(135, [0, 1]), (1, [0, 2, 3])] [1, 2, 3]) (-1) 1,
    -- 1402: r2new.bab += einsum(tmp46, (0, 1), r1.a, (2,), (0, 2, 1)) * -1
    .add 153 (.ein [(127, [0, 1]), (33, [2])] [0, 2, 1]) (-1) 1,
    -- 1403: del tmp46
    .del 127,
    -- 1404: r2new.aba = einsum(r2.bbb, (0, 1, 2), ints.tmp56, (3, 1, 4, 2), (3, 0, 4)) * 2
    .set 154 (.ein [(11, [0, 1, 2]), (32, [3, 1, 4, 2])] [3, 0, 4]) 2 1,
    -- 1405: del ints.tmp56
    .del 32,
    -- 1406: r2new.aba += einsum(r2.aba, (0, 1, 2), tmp28, (3, 0, 4, 2), (3, 1, 4)) * -1
    .add 154 (.ein [(8, [0, 1, 2]), (141, [3, 0, 4, 2])] [3, 1, 4]) (-1) 1,
    -- 1407: del tmp28
    .del 141,
    -- 1408: r2new.aba += einsum(r2.aba, (0, 1, 2), tmp29, (3, 1, 4, 2), (0, 3, 4)) * -1
    .add 154 (.ein [(8, [0, 1, 2]), (144, [3, 1, 4, 2])] [0, 3, 4]) (-1) 1,
    -- 1409: del tmp29
    .del 144,
    -- 1410: r2new.aba += einsum(tmp30, (0, 1, 2, 3), r2.aba, (1, 3, 4), (0, 2, 4))
    .add 154 (.ein [(142, [0, 1, 2, 3]), (8, [1, 3, 4])] [0, 2, 4]) 1 1,
    -- 1411: del tmp30
    .del 142,
    -- 1412: r2new.aba += einsum(tmp33, (0, 1), tmp34, (0, 2, 3), (2, 1, 3)) * -2
    .add 154 (.ein [(147, [0, 1]), (143, [0, 2, 3])] [2, 1, 3]) (-2) 1,
    -- 1413: del tmp33, tmp34
    .del 147,
    .del 143,
    -- 1414: r2new.aba += einsum(tmp22, (0, 1), r2.aba, (2, 3, 0), (2, 3, 1)) * -1
    .add 154 (.ein [(146, [0, 1]), (8, [2, 3, 0])] [2, 3, 1]) (-1) 1,
    -- 1415: r2new.aba += einsum(t2.abab, (0, 1, 2, 3), tmp37, (3,), (0, 1, 2)) * -2
    .add 154 (.ein [(84, [0, 1, 2, 3]), (130, [3])] [0, 1, 2]) (-2) 1,
    -- 1416: del tmp37
    .del 130,
    -- 1417: r2new.aba += einsum(r1.b, (0,), tmp38, (1, 2, 0, 3), (1, 2, 3))
    .add 154 (.ein [(26, [0]), (145, [1, 2, 0, 3])] [1, 2, 3]) 1 1,
    -- 1418: del tmp38
    .del 145,
    -- 1419: r2new.aba += einsum(r2.aba, (0, 1, 2), tmp0, (0, 3), (3, 1, 2)) * -1
    .add 154 (.ein [(8, [0, 1, 2]), (138, [0, 3])] [3, 1, 2]) (-1) 1,
    -- 1420: r2new.aba += einsum(r2.aba, (0, 1, 2), tmp1, (1, 3), (0, 3, 2)) * -1
    .add 154 (.ein [(8, [0, 1, 2]), (135, [1, 3])] [0, 3, 2]) (-1) 1,
    -- 1421: r2new.aba += einsum(tmp27, (0, 1), r1.b, (2,), (0, 2, 1)) * -1
    .add 154 (.ein [(140, [0, 1]), (26, [2])] [0, 2, 1]) (-1) 1,
    -- 1422: r2new.aaa = np.copy(tmp11) * -1
    .set 155 (.cp 151) (-1) 1,
    -- 1423: r2new.aaa += np.transpose(tmp11, (1, 0, 2))
    .add 155 (.tr 151 [1, 0, 2]) 1 1,
    -- 1424: del tmp11
    .del 151,
    -- 1425: r2new.aaa += tmp20
    .add 155 (.cp 150) 1 1,
    -- 1426: r2new.aaa += np.transpose(tmp20, (1, 0, 2)) * -1
    .add 155 (.tr 150 [1, 0, 2]) (-1) 1,
    -- 1427: del tmp20
    .del 150,
    -- 1428: r2new.aaa += einsum(r2.aaa, (0, 1, 2), tmp21, (3, 4, 1, 0), (3, 4, 2)) * -2
    .add 155 (.ein [(2, [0, 1, 2]), (148, [3, 4, 1, 0])] [3, 4, 2]) (-2) 1,
    -- 1429: del tmp21
    .del 148,
    -- 1430: r2new.aaa += einsum(tmp22, (0, 1), r2.aaa, (2, 3, 0), (2, 3, 1)) * -2
    .add 155 (.ein [(146, [0, 1]), (2, [2, 3, 0])] [2, 3, 1]) (-2) 1,
    -- 1431: del tmp22
    .del 146,
    -- 1432: r2new.aaa += einsum(t2.aaaa, (0, 1, 2, 3), tmp25, (3,), (0, 1, 2)) * -2
    .add 155 (.ein [(85, [0, 1, 2, 3]), (132, [3])] [0, 1, 2]) (-2) 1,
    -- 1433: del tmp25
    .del 132,
    -- 1434: r2new.aaa += einsum(r1.a, (0,), tmp26, (1, 2, 0, 3), (2, 1, 3)) * 2
    .add 155 (.ein [(33, [0]), (149, [1, 2, 0, 3])] [2, 1, 3]) 2 1,
    -- 1435: del tmp26
    .del 149,
    -- 1436: r2new.aaa += einsum(tmp27, (0, 1), r1.a, (2,), (2, 0, 1))
    .add 155 (.ein [(140, [0, 1]), (33, [2])] [2, 0, 1]) 1 1,
    -- 1437: r2new.aaa += einsum(tmp27, (0, 1), r1.a, (2,), (0, 2, 1)) * -1
    .add 155 (.ein [(140, [0, 1]), (33, [2])] [0, 2, 1]) (-1) 1,
    -- 1438: del tmp27
    .del 140,
    -- 1439: r1new.b = einsum(r2.aba, (0, 1, 2), f.aa.ov, (0, 2), (1,)) * -1
    .set 156 (.ein [(8, [0, 1, 2]), (60, [0, 2])] [1]) (-1) 1,
    -- 1440: r1new.b += einsum(f.bb.ov, (0, 1), r2.bbb, (2, 0, 1), (2,)) * 2
    .add 156 (.ein [(35, [0, 1]), (11, [2, 0, 1])] [2]) 2 1,
    -- 1441: r1new.b += einsum(r2.bbb, (0, 1, 2), ints.tmp12, (3, 1, 0, 2), (3,)) * 2
    .add 156 (.ein [(11, [0, 1, 2]), (14, [3, 1, 0, 2])] [3]) 2 1,
    -- 1442: del ints.tmp12
    .del 14,
    -- 1443: r1new.b += einsum(r2.aba, (0, 1, 2), ints.tmp14, (0, 3, 1, 2), (3,))
    .add 156 (.ein [(8, [0, 1, 2]), (69, [0, 3, 1, 2])] [3]) 1 1,
    -- 1444: del ints.tmp14
    .del 69,
    -- 1445: r1new.b += einsum(r1.b, (0,), tmp1, (0, 1), (1,)) * -1
    .add 156 (.ein [(26, [0]), (135, [0, 1])] [1]) (-1) 1,
    -- 1446: del tmp1
    .del 135,
    -- 1447: r1new.a = einsum(r2.aaa, (0, 1, 2), f.aa.ov, (1, 2), (0,)) * 2
    .set 157 (.ein [(2, [0, 1, 2]), (60, [1, 2])] [0]) 2 1,
    -- 1448: r1new.a += einsum(r2.aaa, (0, 1, 2), ints.tmp1, (3, 1, 0, 2), (3,)) * 2
    .add 157 (.ein [(2, [0, 1, 2]), (24, [3, 1, 0, 2])] [3]) 2 1,
    -- 1449: del ints.tmp1
    .del 24,
    -- 1450: r1new.a += einsum(f.bb.ov, (0, 1), r2.bab, (0, 2, 1), (2,)) * -1
    .add 157 (.ein [(35, [0, 1]), (1, [0, 2, 1])] [2]) (-1) 1,
    -- 1451: r1new.a += einsum(ints.tmp3, (0, 1, 2, 3), r2.bab, (2, 1, 3), (0,))
    .add 157 (.ein [(57, [0, 1, 2, 3]), (1, [2, 1, 3])] [0]) 1 1,
    -- 1452: del ints.tmp3
    .del 57,
    -- 1453: r1new.a += einsum(r1.a, (0,), tmp0, (0, 1), (1,)) * -1
    .add 157 (.ein [(33, [0]), (138, [0, 1])] [1]) (-1) 1,
    -- 1454: del tmp0
    .del 138
  ]
  ret := [(chars! "r1new.b", 156), (chars! "r1new.a", 157), (chars! "r2new.bbb", 152), (chars! "r2new.bab", 153), (chars! "r2new.aba", 154), (chars! "r2new.aaa", 155)]

/-- codegen/UDFCCD.py:1952-2116 `hbar_lmatvec_ip_intermediates`. -/
def hbar_lmatvec_ip_intermediates : GenFun where
  args := [chars! "v.bbb.xov", chars! "v.baa.xov", chars! "t2.abab", chars! "t2.bbbb", chars! "t2.aaaa", chars! "v.baa.xvv", chars! "v.bbb.xvv", chars! "v.baa.xoo", chars! "v.bbb.xoo", chars! "f.bb.ov", chars! "f.aa.ov"]
  body := [
    -- 2038: tmp165 = einsum(v.bbb.xov, (0, 1, 2), v.bbb.xov, (0, 3, 4), (3, 1, 4, 2))
    .set 11 (.ein [(0, [0, 1, 2]), (0, [0, 3, 4])] [3, 1, 4, 2]) 1 1,
    -- 2039: tmp146 = einsum(v.bbb.xov, (0, 1, 2), v.baa.xov, (0, 3, 4), (3, 1, 4, 2))
    .set 12 (.ein [(0, [0, 1, 2]), (1, [0, 3, 4])] [3, 1, 4, 2]) 1 1,
    -- 2040: tmp37 = einsum(t2.abab, (0, 1, 2, 3), v.baa.xov, (4, 0, 2), (4, 1, 3))
    .set 13 (.ein [(2, [0, 1, 2, 3]), (1, [4, 0, 2])] [4, 1, 3]) 1 1,
    -- 2041: tmp42 = einsum(t2.bbbb, (0, 1, 2, 3), v.bbb.xov, (4, 1, 3), (4, 0, 2))
    .set 14 (.ein [(3, [0, 1, 2, 3]), (0, [4, 1, 3])] [4, 0, 2]) 1 1,
    -- 2042: tmp19 = einsum(t2.abab, (0, 1, 2, 3), v.bbb.xov, (4, 1, 3), (4, 0, 2))
    .set 15 (.ein [(2, [0, 1, 2, 3]), (0, [4, 1, 3])] [4, 0, 2]) 1 1,
    -- 2043: tmp16 = einsum(v.baa.xov, (0, 1, 2), t2.aaaa, (3, 1, 4, 2), (0, 3, 4))
    .set 16 (.ein [(1, [0, 1, 2]), (4, [3, 1, 4, 2])] [0, 3, 4]) 1 1,
    -- 2044: tmp104 = einsum(v.baa.xov, (0, 1, 2), v.baa.xov, (0, 3, 4), (3, 1, 4, 2))
    .set 17 (.ein [(1, [0, 1, 2]), (1, [0, 3, 4])] [3, 1, 4, 2]) 1 1,
    -- 2045: tmp95 = einsum(v.bbb.xov, (0, 1, 2), v.baa.xvv, (0, 3, 4), (1, 3, 4, 2))
    .set 18 (.ein [(0, [0, 1, 2]), (5, [0, 3, 4])] [1, 3, 4, 2]) 1 1,
    -- 2046: tmp92 = einsum(v.bbb.xov, (0, 1, 2), v.bbb.xvv, (0, 3, 4), (1, 3, 4, 2))
    .set 19 (.ein [(0, [0, 1, 2]), (6, [0, 3, 4])] [1, 3, 4, 2]) 1 1,
    -- 2047: tmp14 = einsum(v.bbb.xov, (0, 1, 2), v.baa.xoo, (0, 3, 4), (3, 4, 1, 2))
    .set 20 (.ein [(0, [0, 1, 2]), (7, [0, 3, 4])] [3, 4, 1, 2]) 1 1,
    -- 2048: tmp24 = einsum(v.bbb.xov, (0, 1, 2), v.bbb.xoo, (0, 3, 4), (3, 4, 1, 2))
    .set 21 (.ein [(0, [0, 1, 2]), (8, [0, 3, 4])] [3, 4, 1, 2]) 1 1,
    -- 2049: tmp56 = einsum(v.baa.xov, (0, 1, 2), v.bbb.xvv, (0, 3, 4), (1, 2, 3, 4))
    .set 22 (.ein [(1, [0, 1, 2]), (6, [0, 3, 4])] [1, 2, 3, 4]) 1 1,
    -- 2050: tmp53 = einsum(v.baa.xvv, (0, 1, 2), v.baa.xov, (0, 3, 4), (3, 1, 2, 4))
    .set 23 (.ein [(5, [0, 1, 2]), (1, [0, 3, 4])] [3, 1, 2, 4]) 1 1,
    -- 2051: tmp27 = einsum(v.baa.xov, (0, 1, 2), v.bbb.xoo, (0, 3, 4), (1, 3, 4, 2))
    .set 24 (.ein [(1, [0, 1, 2]), (8, [0, 3, 4])] [1, 3, 4, 2]) 1 1,
    -- 2052: tmp12 = einsum(v.baa.xov, (0, 1, 2), v.baa.xoo, (0, 3, 4), (3, 4, 1, 2))
    .set 25 (.ein [(1, [0, 1, 2]), (7, [0, 3, 4])] [3, 4, 1, 2]) 1 1,
    -- 2053: tmp204 = einsum(t2.bbbb, (0, 1, 2, 3), tmp165, (4, 5, 3, 2), (0, 1, 4, 5)) * -1
    .set 26 (.ein [(3, [0, 1, 2, 3]), (11, [4, 5, 3, 2])] [0, 1, 4, 5]) (-1) 1,
    -- 2054: tmp202 = einsum(v.bbb.xoo, (0, 1, 2), v.bbb.xoo, (0, 3, 4), (1, 3, 4, 2))
    .set 27 (.ein [(8, [0, 1, 2]), (8, [0, 3, 4])] [1, 3, 4, 2]) 1 1,
    -- 2055: tmp186 = einsum(t2.abab, (0, 1, 2, 3), tmp146, (4, 1, 2, 5), (0, 4, 3, 5))
    .set 28 (.ein [(2, [0, 1, 2, 3]), (12, [4, 1, 2, 5])] [0, 4, 3, 5]) 1 1,
    -- 2056: tmp185 = einsum(v.baa.xoo, (0, 1, 2), v.bbb.xvv, (0, 3, 4), (1, 2, 3, 4))
    .set 29 (.ein [(7, [0, 1, 2]), (6, [0, 3, 4])] [1, 2, 3, 4]) 1 1,
    -- 2057: tmp183 = einsum(tmp37, (0, 1, 2), v.bbb.xov, (0, 1, 3), (2, 3))
    .set 30 (.ein [(13, [0, 1, 2]), (0, [0, 1, 3])] [2, 3]) 1 1,
    -- 2058: tmp181 = einsum(v.bbb.xov, (0, 1, 2), tmp42, (0, 1, 3), (3, 2))
    .set 31 (.ein [(0, [0, 1, 2]), (14, [0, 1, 3])] [3, 2]) 1 1,
    -- 2059: tmp168 = einsum(tmp165, (0, 1, 2, 3), t2.bbbb, (4, 1, 5, 2), (4, 0, 5, 3))
    .set 32 (.ein [(11, [0, 1, 2, 3]), (3, [4, 1, 5, 2])] [4, 0, 5, 3]) 1 1,
    -- 2060: tmp166 = einsum(t2.abab, (0, 1, 2, 3), tmp165, (4, 1, 3, 5), (0, 4, 2, 5))
    .set 33 (.ein [(2, [0, 1, 2, 3]), (11, [4, 1, 3, 5])] [0, 4, 2, 5]) 1 1,
    -- 2061: tmp163 = einsum(v.bbb.xoo, (0, 1, 2), v.bbb.xvv, (0, 3, 4), (1, 2, 3, 4))
    .set 34 (.ein [(8, [0, 1, 2]), (6, [0, 3, 4])] [1, 2, 3, 4]) 1 1,
    -- 2062: tmp162 = einsum(t2.abab, (0, 1, 2, 3), tmp146, (0, 4, 5, 3), (1, 4, 2, 5))
    .set 35 (.ein [(2, [0, 1, 2, 3]), (12, [0, 4, 5, 3])] [1, 4, 2, 5]) 1 1,
    -- 2063: tmp161 = einsum(v.baa.xvv, (0, 1, 2), v.bbb.xoo, (0, 3, 4), (3, 4, 1, 2))
    .set 36 (.ein [(5, [0, 1, 2]), (8, [0, 3, 4])] [3, 4, 1, 2]) 1 1,
    -- 2064: tmp157 = einsum(t2.abab, (0, 1, 2, 3), tmp146, (4, 5, 2, 3), (0, 4, 1, 5))
    .set 37 (.ein [(2, [0, 1, 2, 3]), (12, [4, 5, 2, 3])] [0, 4, 1, 5]) 1 1,
    -- 2065: tmp153 = einsum(v.baa.xoo, (0, 1, 2), v.bbb.xoo, (0, 3, 4), (1, 2, 3, 4))
    .set 38 (.ein [(7, [0, 1, 2]), (8, [0, 3, 4])] [1, 2, 3, 4]) 1 1,
    -- 2066: tmp132 = einsum(tmp19, (0, 1, 2), v.baa.xov, (0, 1, 3), (2, 3))
    .set 39 (.ein [(15, [0, 1, 2]), (1, [0, 1, 3])] [2, 3]) 1 1,
    -- 2067: tmp130 = einsum(tmp16, (0, 1, 2), v.baa.xov, (0, 1, 3), (2, 3))
    .set 40 (.ein [(16, [0, 1, 2]), (1, [0, 1, 3])] [2, 3]) 1 1,
    -- 2068: tmp127 = einsum(t2.aaaa, (0, 1, 2, 3), tmp104, (4, 5, 3, 2), (0, 1, 4, 5)) * -1
    .set 41 (.ein [(4, [0, 1, 2, 3]), (17, [4, 5, 3, 2])] [0, 1, 4, 5]) (-1) 1,
    -- 2069: tmp125 = einsum(v.baa.xoo, (0, 1, 2), v.baa.xoo, (0, 3, 4), (3, 1, 2, 4))
    .set 42 (.ein [(7, [0, 1, 2]), (7, [0, 3, 4])] [3, 1, 2, 4]) 1 1,
    -- 2070: tmp107 = einsum(t2.abab, (0, 1, 2, 3), tmp104, (4, 0, 2, 5), (4, 1, 5, 3))
    .set 43 (.ein [(2, [0, 1, 2, 3]), (17, [4, 0, 2, 5])] [4, 1, 5, 3]) 1 1,
    -- 2071: tmp105 = einsum(t2.aaaa, (0, 1, 2, 3), tmp104, (4, 1, 3, 5), (0, 4, 2, 5))
    .set 44 (.ein [(4, [0, 1, 2, 3]), (17, [4, 1, 3, 5])] [0, 4, 2, 5]) 1 1,
    -- 2072: tmp100 = einsum(v.baa.xvv, (0, 1, 2), v.baa.xoo, (0, 3, 4), (3, 4, 1, 2))
    .set 45 (.ein [(5, [0, 1, 2]), (7, [0, 3, 4])] [3, 4, 1, 2]) 1 1,
    -- 2073: tmp96 = einsum(t2.abab, (0, 1, 2, 3), tmp95, (4, 2, 5, 3), (0, 1, 4, 5))
    .set 46 (.ein [(2, [0, 1, 2, 3]), (18, [4, 2, 5, 3])] [0, 1, 4, 5]) 1 1,
    -- 2074: del tmp95
    .del 18,
    -- 2075: tmp93 = einsum(t2.bbbb, (0, 1, 2, 3), tmp92, (4, 2, 5, 3), (0, 1, 4, 5)) * -1
    .set 47 (.ein [(3, [0, 1, 2, 3]), (19, [4, 2, 5, 3])] [0, 1, 4, 5]) (-1) 1,
    -- 2076: del tmp92
    .del 19,
    -- 2077: tmp86 = einsum(tmp37, (0, 1, 2), v.bbb.xoo, (0, 3, 4), (1, 3, 4, 2))
    .set 48 (.ein [(13, [0, 1, 2]), (8, [0, 3, 4])] [1, 3, 4, 2]) 1 1,
    -- 2078: tmp84 = einsum(tmp16, (0, 1, 2), v.bbb.xoo, (0, 3, 4), (1, 3, 4, 2))
    .set 49 (.ein [(16, [0, 1, 2]), (8, [0, 3, 4])] [1, 3, 4, 2]) 1 1,
    -- 2079: tmp83 = einsum(tmp14, (0, 1, 2, 3), t2.abab, (0, 4, 5, 3), (1, 4, 2, 5))
    .set 50 (.ein [(20, [0, 1, 2, 3]), (2, [0, 4, 5, 3])] [1, 4, 2, 5]) 1 1,
    -- 2080: tmp81 = einsum(v.bbb.xoo, (0, 1, 2), tmp42, (0, 3, 4), (3, 1, 2, 4))
    .set 51 (.ein [(8, [0, 1, 2]), (14, [0, 3, 4])] [3, 1, 2, 4]) 1 1,
    -- 2081: tmp80 = einsum(tmp19, (0, 1, 2), v.bbb.xoo, (0, 3, 4), (1, 3, 4, 2))
    .set 52 (.ein [(15, [0, 1, 2]), (8, [0, 3, 4])] [1, 3, 4, 2]) 1 1,
    -- 2082: tmp78 = einsum(t2.bbbb, (0, 1, 2, 3), tmp24, (1, 4, 5, 3), (0, 4, 5, 2))
    .set 53 (.ein [(3, [0, 1, 2, 3]), (21, [1, 4, 5, 3])] [0, 4, 5, 2]) 1 1,
    -- 2083: tmp77 = einsum(tmp24, (0, 1, 2, 3), t2.abab, (4, 0, 5, 3), (4, 1, 2, 5))
    .set 54 (.ein [(21, [0, 1, 2, 3]), (2, [4, 0, 5, 3])] [4, 1, 2, 5]) 1 1,
    -- 2084: tmp71 = einsum(v.bbb.xov, (0, 1, 2), tmp37, (0, 3, 2), (3, 1))
    .set 55 (.ein [(0, [0, 1, 2]), (13, [0, 3, 2])] [3, 1]) 1 1,
    -- 2085: tmp69 = einsum(v.bbb.xov, (0, 1, 2), tmp42, (0, 3, 2), (3, 1))
    .set 56 (.ein [(0, [0, 1, 2]), (14, [0, 3, 2])] [3, 1]) 1 1,
    -- 2086: tmp65 = einsum(f.bb.ov, (0, 1), t2.bbbb, (2, 3, 4, 1), (0, 2, 3, 4))
    .set 57 (.ein [(9, [0, 1]), (3, [2, 3, 4, 1])] [0, 2, 3, 4]) 1 1,
    -- 2087: tmp63 = einsum(t2.abab, (0, 1, 2, 3), f.bb.ov, (4, 3), (0, 4, 1, 2))
    .set 58 (.ein [(2, [0, 1, 2, 3]), (9, [4, 3])] [0, 4, 1, 2]) 1 1,
    -- 2088: tmp57 = einsum(tmp56, (0, 1, 2, 3), t2.abab, (4, 5, 1, 2), (4, 0, 5, 3))
    .set 59 (.ein [(22, [0, 1, 2, 3]), (2, [4, 5, 1, 2])] [4, 0, 5, 3]) 1 1,
    -- 2089: del tmp56
    .del 22,
    -- 2090: tmp54 = einsum(tmp53, (0, 1, 2, 3), t2.aaaa, (4, 5, 1, 3), (4, 5, 0, 2)) * -1
    .set 60 (.ein [(23, [0, 1, 2, 3]), (4, [4, 5, 1, 3])] [4, 5, 0, 2]) (-1) 1,
    -- 2091: del tmp53
    .del 23,
    -- 2092: tmp51 = einsum(tmp19, (0, 1, 2), v.baa.xvv, (0, 3, 2), (1, 3))
    .set 61 (.ein [(15, [0, 1, 2]), (5, [0, 3, 2])] [1, 3]) 1 1,
    -- 2093: tmp49 = einsum(v.bbb.xvv, (0, 1, 2), tmp37, (0, 3, 2), (3, 1))
    .set 62 (.ein [(6, [0, 1, 2]), (13, [0, 3, 2])] [3, 1]) 1 1,
    -- 2094: tmp47 = einsum(tmp42, (0, 1, 2), v.bbb.xvv, (0, 3, 2), (1, 3)) * -1
    .set 63 (.ein [(14, [0, 1, 2]), (6, [0, 3, 2])] [1, 3]) (-1) 1,
    -- 2095: tmp45 = einsum(tmp16, (0, 1, 2), v.baa.xvv, (0, 3, 2), (1, 3)) * -1
    .set 64 (.ein [(16, [0, 1, 2]), (5, [0, 3, 2])] [1, 3]) (-1) 1,
    -- 2096: tmp43 = einsum(v.baa.xoo, (0, 1, 2), tmp42, (0, 3, 4), (1, 2, 3, 4))
    .set 65 (.ein [(7, [0, 1, 2]), (14, [0, 3, 4])] [1, 2, 3, 4]) 1 1,
    -- 2097: tmp40 = einsum(v.baa.xoo, (0, 1, 2), tmp19, (0, 3, 4), (3, 1, 2, 4))
    .set 66 (.ein [(7, [0, 1, 2]), (15, [0, 3, 4])] [3, 1, 2, 4]) 1 1,
    -- 2098: tmp39 = einsum(tmp27, (0, 1, 2, 3), t2.abab, (4, 1, 3, 5), (4, 0, 2, 5))
    .set 67 (.ein [(24, [0, 1, 2, 3]), (2, [4, 1, 3, 5])] [4, 0, 2, 5]) 1 1,
    -- 2099: tmp38 = einsum(v.baa.xoo, (0, 1, 2), tmp37, (0, 3, 4), (1, 2, 3, 4))
    .set 68 (.ein [(7, [0, 1, 2]), (13, [0, 3, 4])] [1, 2, 3, 4]) 1 1,
    -- 2100: tmp35 = einsum(v.baa.xoo, (0, 1, 2), tmp16, (0, 3, 4), (3, 1, 2, 4))
    .set 69 (.ein [(7, [0, 1, 2]), (16, [0, 3, 4])] [3, 1, 2, 4]) 1 1,
    -- 2101: tmp34 = einsum(t2.abab, (0, 1, 2, 3), tmp12, (4, 0, 5, 2), (4, 5, 1, 3))
    .set 70 (.ein [(2, [0, 1, 2, 3]), (25, [4, 0, 5, 2])] [4, 5, 1, 3]) 1 1,
    -- 2102: tmp32 = einsum(t2.aaaa, (0, 1, 2, 3), tmp12, (1, 4, 5, 3), (0, 4, 5, 2))
    .set 71 (.ein [(4, [0, 1, 2, 3]), (25, [1, 4, 5, 3])] [0, 4, 5, 2]) 1 1,
    -- 2103: tmp30 = einsum(tmp14, (0, 1, 2, 3), t2.abab, (1, 2, 4, 3), (0, 4))
    .set 72 (.ein [(20, [0, 1, 2, 3]), (2, [1, 2, 4, 3])] [0, 4]) 1 1,
    -- 2104: tmp28 = einsum(tmp27, (0, 1, 2, 3), t2.abab, (0, 1, 3, 4), (2, 4))
    .set 73 (.ein [(24, [0, 1, 2, 3]), (2, [0, 1, 3, 4])] [2, 4]) 1 1,
    -- 2105: tmp25 = einsum(t2.bbbb, (0, 1, 2, 3), tmp24, (0, 4, 1, 3), (4, 2))
    .set 74 (.ein [(3, [0, 1, 2, 3]), (21, [0, 4, 1, 3])] [4, 2]) 1 1,
    -- 2106: tmp22 = einsum(tmp12, (0, 1, 2, 3), t2.aaaa, (1, 2, 4, 3), (0, 4))
    .set 75 (.ein [(25, [0, 1, 2, 3]), (4, [1, 2, 4, 3])] [0, 4]) 1 1,
    -- 2107: tmp20 = einsum(tmp19, (0, 1, 2), v.baa.xov, (0, 3, 2), (1, 3))
    .set 76 (.ein [(15, [0, 1, 2]), (1, [0, 3, 2])] [1, 3]) 1 1,
    -- 2108: tmp17 = einsum(tmp16, (0, 1, 2), v.baa.xov, (0, 3, 2), (1, 3))
    .set 77 (.ein [(16, [0, 1, 2]), (1, [0, 3, 2])] [1, 3]) 1 1,
    -- 2109: tmp10 = einsum(f.aa.ov, (0, 1), t2.abab, (2, 3, 1, 4), (0, 2, 3, 4))
    .set 78 (.ein [(10, [0, 1]), (2, [2, 3, 1, 4])] [0, 2, 3, 4]) 1 1,
    -- 2110: tmp8 = einsum(t2.aaaa, (0, 1, 2, 3), f.aa.ov, (4, 3), (4, 0, 1, 2))
    .set 79 (.ein [(4, [0, 1, 2, 3]), (10, [4, 3])] [4, 0, 1, 2]) 1 1,
    -- 2111: tmp6 = einsum(t2.bbbb, (0, 1, 2, 3), f.bb.ov, (1, 3), (0, 2))
    .set 80 (.ein [(3, [0, 1, 2, 3]), (9, [1, 3])] [0, 2]) 1 1,
    -- 2112: tmp4 = einsum(t2.abab, (0, 1, 2, 3), f.bb.ov, (1, 3), (0, 2))
    .set 81 (.ein [(2, [0, 1, 2, 3]), (9, [1, 3])] [0, 2]) 1 1,
    -- 2113: tmp3 = einsum(t2.abab, (0, 1, 2, 3), f.aa.ov, (0, 2), (1, 3))
    .set 82 (.ein [(2, [0, 1, 2, 3]), (10, [0, 2])] [1, 3]) 1 1,
    -- 2114: tmp1 = einsum(f.aa.ov, (0, 1), t2.aaaa, (2, 0, 3, 1), (2, 3))
    .set 83 (.ein [(10, [0, 1]), (4, [2, 0, 3, 1])] [2, 3]) 1 1
  ]
  ret := [(chars! "tmp1", 83), (chars! "tmp10", 78), (chars! "tmp100", 45), (chars! "tmp104", 17), (chars! "tmp105", 44), (chars! "tmp107", 43), (chars! "tmp12", 25), (chars! "tmp125", 42), (chars! "tmp127", 41), (chars! "tmp130", 40), (chars! "tmp132", 39), (chars! "tmp14", 20), (chars! "tmp146", 12), (chars! "tmp153", 38), (chars! "tmp157", 37), (chars! "tmp16", 16), (chars! "tmp161", 36), (chars! "tmp162", 35), (chars! "tmp163", 34), (chars! "tmp165", 11), (chars! "tmp166", 33), (chars! "tmp168", 32), (chars! "tmp17", 77), (chars! "tmp181", 31), (chars! "tmp183", 30), (chars! "tmp185", 29), (chars! "tmp186", 28), (chars! "tmp19", 15), (chars! "tmp20", 76), (chars! "tmp202", 27), (chars! "tmp204", 26), (chars! "tmp22", 75), (chars! "tmp24", 21), (chars! "tmp25", 74), (chars! "tmp27", 24), (chars! "tmp28", 73), (chars! "tmp3", 82), (chars! "tmp30", 72), (chars! "tmp32", 71), (chars! "tmp34", 70), (chars! "tmp35", 69), (chars! "tmp37", 13), (chars! "tmp38", 68), (chars! "tmp39", 67), (chars! "tmp4", 81), (chars! "tmp40", 66), (chars! "tmp42", 14), (chars! "tmp43", 65), (chars! "tmp45", 64), (chars! "tmp47", 63), (chars! "tmp49", 62), (chars! "tmp51", 61), (chars! "tmp54", 60), (chars! "tmp57", 59), (chars! "tmp6", 80), (chars! "tmp63", 58), (chars! "tmp65", 57), (chars! "tmp69", 56), (chars! "tmp71", 55), (chars! "tmp77", 54), (chars! "tmp78", 53), (chars! "tmp8", 79), (chars! "tmp80", 52), (chars! "tmp81", 51), (chars! "tmp83", 50), (chars! "tmp84", 49), (chars! "tmp86", 48), (chars! "tmp93", 47), (chars! "tmp96", 46)]

/-- codegen/UDFCCD.py:2118-2471 `hbar_lmatvec_ip`. -/
def hbar_lmatvec_ip : GenFun where
  args := [chars! "ints.tmp37", chars! "v.bbb.xov", chars! "ints.tmp42", chars! "ints.tmp19", chars! "v.baa.xov", chars! "ints.tmp16", chars! "t2.bbbb", chars! "r2.bbb", chars! "r2.aba", chars! "t2.abab", chars! "r2.bab", chars! "r2.aaa", chars! "ints.tmp69", chars! "ints.tmp71", chars! "ints.tmp163", chars! "ints.tmp168", chars! "t2.aaaa", chars! "ints.tmp17", chars! "ints.tmp20", chars! "ints.tmp100", chars! "ints.tmp105", chars! "ints.tmp166", chars! "r1.b", chars! "ints.tmp24", chars! "ints.tmp165", chars! "f.bb.oo", chars! "ints.tmp104", chars! "r1.a", chars! "ints.tmp12", chars! "f.aa.oo", chars! "ints.tmp107", chars! "f.bb.ov", chars! "ints.tmp181", chars! "ints.tmp183", chars! "f.bb.vv", chars! "ints.tmp202", chars! "ints.tmp204", chars! "ints.tmp153", chars! "ints.tmp157", chars! "ints.tmp185", chars! "ints.tmp186", chars! "ints.tmp130", chars! "ints.tmp132", chars! "f.aa.vv", chars! "ints.tmp161", chars! "ints.tmp162", chars! "f.aa.ov", chars! "ints.tmp125", chars! "ints.tmp127", chars! "ints.tmp78", chars! "ints.tmp93", chars! "ints.tmp65", chars! "ints.tmp81", chars! "ints.tmp86", chars! "ints.tmp1", chars! "ints.tmp4", chars! "ints.tmp51", chars! "ints.tmp22", chars! "ints.tmp30", chars! "ints.tmp45", chars! "ints.tmp3", chars! "ints.tmp49", chars! "ints.tmp6", chars! "ints.tmp25", chars! "ints.tmp28", chars! "ints.tmp47", chars! "ints.tmp27", chars! "ints.tmp63", chars! "ints.tmp80", chars! "ints.tmp84", chars! "ints.tmp96", chars! "ints.tmp77", chars! "ints.tmp83", chars! "ints.tmp32", chars! "ints.tmp54", chars! "ints.tmp35", chars! "ints.tmp40", chars! "ints.tmp8", chars! "ints.tmp10", chars! "ints.tmp14", chars! "ints.tmp38", chars! "ints.tmp43", chars! "ints.tmp57", chars! "ints.tmp34", chars! "ints.tmp39", chars! "ints.tmp146"]
  body := [
    -- 2146: tmp18 = np.copy(ints.tmp37)
    .set 86 (.cp 0) 1 1,
    -- 2147: tmp18 += v.bbb.xov
    .add 86 (.cp 1) 1 1,
    -- 2148: tmp18 += ints.tmp42 * 2
    .add 86 (.cp 2) 2 1,
    -- 2149: tmp16 = np.copy(ints.tmp19)
    .set 87 (.cp 3) 1 1,
    -- 2150: tmp16 += v.baa.xov
    .add 87 (.cp 4) 1 1,
    -- 2151: tmp16 += ints.tmp16 * 2
    .add 87 (.cp 5) 2 1,
    -- 2152: tmp34 = np.copy(ints.tmp16) * 2
    .set 88 (.cp 5) 2 1,
    -- 2153: del ints.tmp16
    .del 5,
    -- 2154: tmp34 += ints.tmp19
    .add 88 (.cp 3) 1 1,
    -- 2155: del ints.tmp19
    .del 3,
    -- 2156: tmp34 += v.baa.xov
    .add 88 (.cp 4) 1 1,
    -- 2157: tmp38 = einsum(t2.bbbb, (0, 1, 2, 3), r2.bbb, (0, 1, 3), (2,))
    .set 89 (.ein [(6, [0, 1, 2, 3]), (7, [0, 1, 3])] [2]) 1 1,
    -- 2158: tmp37 = einsum(r2.aba, (0, 1, 2), t2.abab, (0, 1, 2, 3), (3,))
    .set 90 (.ein [(8, [0, 1, 2]), (9, [0, 1, 2, 3])] [3]) 1 1,
    -- 2159: tmp19 = einsum(tmp18, (0, 1, 2), r2.bab, (1, 3, 2), (0, 3)) * -1
    .set 91 (.ein [(86, [0, 1, 2]), (10, [1, 3, 2])] [0, 3]) (-1) 1,
    -- 2160: tmp17 = einsum(tmp16, (0, 1, 2), r2.aaa, (3, 1, 2), (0, 3)) * -1
    .set 92 (.ein [(87, [0, 1, 2]), (11, [3, 1, 2])] [0, 3]) (-1) 1,
    -- 2161: del tmp16
    .del 87,
    -- 2162: tmp48 = einsum(r2.aba, (0, 1, 2), tmp34, (3, 0, 2), (3, 1))
    .set 93 (.ein [(8, [0, 1, 2]), (88, [3, 0, 2])] [3, 1]) 1 1,
    -- 2163: tmp51 = np.copy(ints.tmp69) * 2
    .set 94 (.cp 12) 2 1,
    -- 2164: tmp51 += ints.tmp71
    .add 94 (.cp 13) 1 1,
    -- 2165: tmp39 = np.copy(tmp37) * -0.5
    .set 95 (.cp 90) (-1) 2,
    -- 2166: del tmp37
    .del 90,
    -- 2167: tmp39 += tmp38
    .add 95 (.cp 89) 1 1,
    -- 2168: del tmp38
    .del 89,
    -- 2169: tmp56 = einsum(tmp18, (0, 1, 2), r2.bbb, (3, 1, 2), (0, 3)) * -1
    .set 96 (.ein [(86, [0, 1, 2]), (7, [3, 1, 2])] [0, 3]) (-1) 1,
    -- 2170: del tmp18
    .del 86,
    -- 2171: tmp40 = np.copy(ints.tmp163)
    .set 97 (.cp 14) 1 1,
    -- 2172: del ints.tmp163
    .del 14,
    -- 2173: tmp40 += np.transpose(ints.tmp168, (1, 0, 3, 2)) * 2
    .add 97 (.tr 15 [1, 0, 3, 2]) 2 1,
    -- 2174: del ints.tmp168
    .del 15,
    -- 2175: tmp24 = einsum(t2.aaaa, (0, 1, 2, 3), r2.aaa, (0, 1, 3), (2,))
    .set 98 (.ein [(16, [0, 1, 2, 3]), (11, [0, 1, 3])] [2]) 1 1,
    -- 2176: tmp26 = np.copy(ints.tmp17) * 2
    .set 99 (.cp 17) 2 1,
    -- 2177: tmp26 += ints.tmp20
    .add 99 (.cp 18) 1 1,
    -- 2178: tmp12 = einsum(t2.abab, (0, 1, 2, 3), r2.bab, (1, 0, 3), (2,)) * -1
    .set 100 (.ein [(9, [0, 1, 2, 3]), (10, [1, 0, 3])] [2]) (-1) 1,
    -- 2179: tmp20 = np.copy(tmp17) * -2
    .set 101 (.cp 92) (-2) 1,
    -- 2180: del tmp17
    .del 92,
    -- 2181: tmp20 += tmp19
    .add 101 (.cp 91) 1 1,
    -- 2182: del tmp19
    .del 91,
    -- 2183: tmp14 = np.copy(ints.tmp100)
    .set 102 (.cp 19) 1 1,
    -- 2184: tmp14 += np.transpose(ints.tmp105, (1, 0, 3, 2)) * 2
    .add 102 (.tr 20 [1, 0, 3, 2]) 2 1,
    -- 2185: tmp49 = einsum(tmp48, (0, 1), v.bbb.xov, (0, 2, 3), (2, 1, 3))
    .set 103 (.ein [(93, [0, 1]), (1, [0, 2, 3])] [2, 1, 3]) 1 1,
    -- 2186: del tmp48
    .del 93,
    -- 2187: tmp52 = einsum(tmp51, (0, 1), r2.bbb, (2, 0, 3), (2, 1, 3)) * -2
    .set 104 (.ein [(94, [0, 1]), (7, [2, 0, 3])] [2, 1, 3]) (-2) 1,
    -- 2188: del tmp51
    .del 94,
    -- 2189: tmp47 = einsum(r2.aba, (0, 1, 2), ints.tmp166, (0, 3, 2, 4), (3, 1, 4))
    .set 105 (.ein [(8, [0, 1, 2]), (21, [0, 3, 2, 4])] [3, 1, 4]) 1 1,
    -- 2190: tmp46 = einsum(r1.b, (0,), ints.tmp24, (1, 0, 2, 3), (1, 2, 3))
    .set 106 (.ein [(22, [0]), (23, [1, 0, 2, 3])] [1, 2, 3]) 1 1,
    -- 2191: tmp50 = einsum(tmp39, (0,), ints.tmp165, (1, 2, 3, 0), (1, 2, 3)) * 2
    .set 107 (.ein [(95, [0]), (24, [1, 2, 3, 0])] [1, 2, 3]) 2 1,
    -- 2192: del ints.tmp165
    .del 24,
    -- 2193: tmp57 = einsum(tmp56, (0, 1), v.bbb.xov, (0, 2, 3), (2, 1, 3)) * -1
    .set 108 (.ein [(96, [0, 1]), (1, [0, 2, 3])] [2, 1, 3]) (-1) 1,
    -- 2194: del tmp56
    .del 96,
    -- 2195: tmp54 = einsum(r2.bbb, (0, 1, 2), f.bb.oo, (3, 1), (3, 0, 2))
    .set 109 (.ein [(7, [0, 1, 2]), (25, [3, 1])] [3, 0, 2]) 1 1,
    -- 2196: tmp55 = einsum(tmp40, (0, 1, 2, 3), r2.bbb, (4, 1, 3), (4, 0, 2)) * -1
    .set 110 (.ein [(97, [0, 1, 2, 3]), (7, [4, 1, 3])] [4, 0, 2]) (-1) 1,
    -- 2197: tmp35 = np.copy(ints.tmp37) * 0.5
    .set 111 (.cp 0) 1 2,
    -- 2198: del ints.tmp37
    .del 0,
    -- 2199: tmp35 += ints.tmp42
    .add 111 (.cp 2) 1 1,
    -- 2200: del ints.tmp42
    .del 2,
    -- 2201: tmp35 += v.bbb.xov * 0.5
    .add 111 (.cp 1) 1 2,
    -- 2202: tmp25 = einsum(tmp24, (0,), ints.tmp104, (1, 2, 3, 0), (1, 2, 3))
    .set 112 (.ein [(98, [0]), (26, [1, 2, 3, 0])] [1, 2, 3]) 1 1,
    -- 2203: tmp27 = einsum(r2.aaa, (0, 1, 2), tmp26, (1, 3), (0, 3, 2)) * -2
    .set 113 (.ein [(11, [0, 1, 2]), (99, [1, 3])] [0, 3, 2]) (-2) 1,
    -- 2204: del tmp26
    .del 99,
    -- 2205: tmp23 = einsum(r1.a, (0,), ints.tmp12, (1, 0, 2, 3), (1, 2, 3))
    .set 114 (.ein [(27, [0]), (28, [1, 0, 2, 3])] [1, 2, 3]) 1 1,
    -- 2206: tmp13 = einsum(tmp12, (0,), ints.tmp104, (1, 2, 3, 0), (1, 2, 3))
    .set 115 (.ein [(100, [0]), (26, [1, 2, 3, 0])] [1, 2, 3]) 1 1,
    -- 2207: del ints.tmp104
    .del 26,
    -- 2208: tmp21 = einsum(tmp20, (0, 1), v.baa.xov, (0, 2, 3), (2, 1, 3))
    .set 116 (.ein [(101, [0, 1]), (4, [0, 2, 3])] [2, 1, 3]) 1 1,
    -- 2209: del tmp20
    .del 101,
    -- 2210: tmp10 = einsum(f.aa.oo, (0, 1), r2.aaa, (2, 1, 3), (0, 2, 3))
    .set 117 (.ein [(29, [0, 1]), (11, [2, 1, 3])] [0, 2, 3]) 1 1,
    -- 2211: tmp15 = einsum(tmp14, (0, 1, 2, 3), r2.aaa, (4, 1, 3), (4, 0, 2)) * -1
    .set 118 (.ein [(102, [0, 1, 2, 3]), (11, [4, 1, 3])] [4, 0, 2]) (-1) 1,
    -- 2212: del tmp14
    .del 102,
    -- 2213: tmp11 = einsum(ints.tmp107, (0, 1, 2, 3), r2.bab, (1, 4, 3), (0, 4, 2)) * -1
    .set 119 (.ein [(30, [0, 1, 2, 3]), (10, [1, 4, 3])] [0, 4, 2]) (-1) 1,
    -- 2214: tmp53 = einsum(r1.b, (0,), f.bb.ov, (1, 2), (1, 0, 2))
    .set 120 (.ein [(22, [0]), (31, [1, 2])] [1, 0, 2]) 1 1,
    -- 2215: tmp53 += tmp46
    .add 120 (.cp 106) 1 1,
    -- 2216: del tmp46
    .del 106,
    -- 2217: tmp53 += tmp47
    .add 120 (.cp 105) 1 1,
    -- 2218: del tmp47
    .del 105,
    -- 2219: tmp53 += np.transpose(tmp49, (1, 0, 2))
    .add 120 (.tr 103 [1, 0, 2]) 1 1,
    -- 2220: del tmp49
    .del 103,
    -- 2221: tmp53 += tmp50 * -1
    .add 120 (.cp 107) (-1) 1,
    -- 2222: del tmp50
    .del 107,
    -- 2223: tmp53 += np.transpose(tmp52, (1, 0, 2))
    .add 120 (.tr 104 [1, 0, 2]) 1 1,
    -- 2224: del tmp52
    .del 104,
    -- 2225: tmp58 = np.copy(tmp54)
    .set 121 (.cp 109) 1 1,
    -- 2226: del tmp54
    .del 109,
    -- 2227: tmp58 += np.transpose(tmp55, (1, 0, 2)) * -1
    .add 121 (.tr 110 [1, 0, 2]) (-1) 1,
    -- 2228: del tmp55
    .del 110,
    -- 2229: tmp58 += np.transpose(tmp57, (1, 0, 2))
    .add 121 (.tr 108 [1, 0, 2]) 1 1,
    -- 2230: del tmp57
    .del 108,
    -- 2231: tmp44 = np.copy(ints.tmp181) * 2
    .set 122 (.cp 32) 2 1,
    -- 2232: del ints.tmp181
    .del 32,
    -- 2233: tmp44 += ints.tmp183
    .add 122 (.cp 33) 1 1,
    -- 2234: del ints.tmp183
    .del 33,
    -- 2235: tmp44 += f.bb.vv * -1
    .add 122 (.cp 34) (-1) 1,
    -- 2236: tmp59 = np.copy(ints.tmp202)
    .set 123 (.cp 35) 1 1,
    -- 2237: del ints.tmp202
    .del 35,
    -- 2238: tmp59 += np.transpose(ints.tmp204, (2, 0, 3, 1)) * -1
    .add 123 (.tr 36 [2, 0, 3, 1]) (-1) 1,
    -- 2239: del ints.tmp204
    .del 36,
    -- 2240: tmp42 = np.copy(ints.tmp153)
    .set 124 (.cp 37) 1 1,
    -- 2241: tmp42 += np.transpose(ints.tmp157, (1, 0, 3, 2))
    .add 124 (.tr 38 [1, 0, 3, 2]) 1 1,
    -- 2242: tmp9 = np.copy(f.bb.oo)
    .set 125 (.cp 25) 1 1,
    -- 2243: tmp9 += ints.tmp69 * 2
    .add 125 (.cp 12) 2 1,
    -- 2244: del ints.tmp69
    .del 12,
    -- 2245: tmp9 += ints.tmp71
    .add 125 (.cp 13) 1 1,
    -- 2246: del ints.tmp71
    .del 13,
    -- 2247: tmp41 = np.copy(ints.tmp185)
    .set 126 (.cp 39) 1 1,
    -- 2248: del ints.tmp185
    .del 39,
    -- 2249: tmp41 += np.transpose(ints.tmp186, (1, 0, 3, 2)) * -1
    .add 126 (.tr 40 [1, 0, 3, 2]) (-1) 1,
    -- 2250: del ints.tmp186
    .del 40,
    -- 2251: tmp43 = einsum(tmp34, (0, 1, 2), r2.aaa, (3, 1, 2), (0, 3))
    .set 127 (.ein [(88, [0, 1, 2]), (11, [3, 1, 2])] [0, 3]) 1 1,
    -- 2252: tmp43 += einsum(tmp35, (0, 1, 2), r2.bab, (1, 3, 2), (0, 3)) * -1
    .add 127 (.ein [(111, [0, 1, 2]), (10, [1, 3, 2])] [0, 3]) (-1) 1,
    -- 2253: tmp4 = np.copy(f.aa.oo)
    .set 128 (.cp 29) 1 1,
    -- 2254: tmp4 += ints.tmp17 * 2
    .add 128 (.cp 17) 2 1,
    -- 2255: del ints.tmp17
    .del 17,
    -- 2256: tmp4 += ints.tmp20
    .add 128 (.cp 18) 1 1,
    -- 2257: del ints.tmp20
    .del 18,
    -- 2258: tmp45 = np.copy(tmp24) * 2
    .set 129 (.cp 98) 2 1,
    -- 2259: del tmp24
    .del 98,
    -- 2260: tmp45 += tmp12
    .add 129 (.cp 100) 1 1,
    -- 2261: del tmp12
    .del 100,
    -- 2262: tmp30 = np.copy(ints.tmp130) * 2
    .set 130 (.cp 41) 2 1,
    -- 2263: del ints.tmp130
    .del 41,
    -- 2264: tmp30 += ints.tmp132
    .add 130 (.cp 42) 1 1,
    -- 2265: del ints.tmp132
    .del 42,
    -- 2266: tmp30 += f.aa.vv * -1
    .add 130 (.cp 43) (-1) 1,
    -- 2267: tmp36 = einsum(r2.aba, (0, 1, 2), tmp34, (3, 0, 2), (3, 1)) * -0.5
    .set 131 (.ein [(8, [0, 1, 2]), (88, [3, 0, 2])] [3, 1]) (-1) 2,
    -- 2268: del tmp34
    .del 88,
    -- 2269: tmp36 += einsum(tmp35, (0, 1, 2), r2.bbb, (3, 1, 2), (0, 3)) * 2
    .add 131 (.ein [(111, [0, 1, 2]), (7, [3, 1, 2])] [0, 3]) 2 1,
    -- 2270: del tmp35
    .del 111,
    -- 2271: tmp31 = np.copy(ints.tmp100)
    .set 132 (.cp 19) 1 1,
    -- 2272: del ints.tmp100
    .del 19,
    -- 2273: tmp31 += np.transpose(ints.tmp105, (1, 0, 3, 2)) * 2
    .add 132 (.tr 20 [1, 0, 3, 2]) 2 1,
    -- 2274: del ints.tmp105
    .del 20,
    -- 2275: tmp32 = np.copy(ints.tmp161)
    .set 133 (.cp 44) 1 1,
    -- 2276: del ints.tmp161
    .del 44,
    -- 2277: tmp32 += np.transpose(ints.tmp162, (1, 0, 3, 2)) * -1
    .add 133 (.tr 45 [1, 0, 3, 2]) (-1) 1,
    -- 2278: del ints.tmp162
    .del 45,
    -- 2279: tmp33 = np.copy(ints.tmp153)
    .set 134 (.cp 37) 1 1,
    -- 2280: del ints.tmp153
    .del 37,
    -- 2281: tmp33 += np.transpose(ints.tmp157, (1, 0, 3, 2))
    .add 134 (.tr 38 [1, 0, 3, 2]) 1 1,
    -- 2282: del ints.tmp157
    .del 38,
    -- 2283: tmp28 = einsum(r1.a, (0,), f.aa.ov, (1, 2), (1, 0, 2)) * -1
    .set 135 (.ein [(27, [0]), (46, [1, 2])] [1, 0, 2]) (-1) 1,
    -- 2284: tmp28 += tmp23 * -1
    .add 135 (.cp 114) (-1) 1,
    -- 2285: del tmp23
    .del 114,
    -- 2286: tmp28 += tmp25 * 2
    .add 135 (.cp 112) 2 1,
    -- 2287: del tmp25
    .del 112,
    -- 2288: tmp28 += np.transpose(tmp27, (1, 0, 2)) * -1
    .add 135 (.tr 113 [1, 0, 2]) (-1) 1,
    -- 2289: del tmp27
    .del 113,
    -- 2290: tmp22 = np.copy(tmp10) * 2
    .set 136 (.cp 117) 2 1,
    -- 2291: del tmp10
    .del 117,
    -- 2292: tmp22 += tmp11
    .add 136 (.cp 119) 1 1,
    -- 2293: del tmp11
    .del 119,
    -- 2294: tmp22 += tmp13
    .add 136 (.cp 115) 1 1,
    -- 2295: del tmp13
    .del 115,
    -- 2296: tmp22 += np.transpose(tmp15, (1, 0, 2)) * -2
    .add 136 (.tr 118 [1, 0, 2]) (-2) 1,
    -- 2297: del tmp15
    .del 118,
    -- 2298: tmp22 += np.transpose(tmp21, (1, 0, 2))
    .add 136 (.tr 116 [1, 0, 2]) 1 1,
    -- 2299: del tmp21
    .del 116,
    -- 2300: tmp29 = np.copy(ints.tmp125)
    .set 137 (.cp 47) 1 1,
    -- 2301: del ints.tmp125
    .del 47,
    -- 2302: tmp29 += np.transpose(ints.tmp127, (2, 0, 3, 1)) * -1
    .add 137 (.tr 48 [2, 0, 3, 1]) (-1) 1,
    -- 2303: del ints.tmp127
    .del 48,
    -- 2304: tmp6 = np.copy(ints.tmp24)
    .set 138 (.cp 23) 1 1,
    -- 2305: del ints.tmp24
    .del 23,
    -- 2306: tmp6 += np.transpose(ints.tmp78, (2, 0, 1, 3)) * 2
    .add 138 (.tr 49 [2, 0, 1, 3]) 2 1,
    -- 2307: del ints.tmp78
    .del 49,
    -- 2308: tmp6 += np.transpose(ints.tmp93, (2, 0, 1, 3))
    .add 138 (.tr 50 [2, 0, 1, 3]) 1 1,
    -- 2309: del ints.tmp93
    .del 50,
    -- 2310: tmp6 += ints.tmp65 * -1
    .add 138 (.cp 51) (-1) 1,
    -- 2311: del ints.tmp65
    .del 51,
    -- 2312: tmp6 += np.transpose(ints.tmp81, (2, 0, 1, 3)) * -2
    .add 138 (.tr 52 [2, 0, 1, 3]) (-2) 1,
    -- 2313: del ints.tmp81
    .del 52,
    -- 2314: tmp6 += np.transpose(ints.tmp86, (2, 0, 1, 3)) * -1
    .add 138 (.tr 53 [2, 0, 1, 3]) (-1) 1,
    -- 2315: del ints.tmp86
    .del 53,
    -- 2316: tmp7 = np.copy(f.aa.ov) * 0.5
    .set 139 (.cp 46) 1 2,
    -- 2317: tmp7 += ints.tmp1
    .add 139 (.cp 54) 1 1,
    -- 2318: tmp7 += ints.tmp4 * 0.5
    .add 139 (.cp 55) 1 2,
    -- 2319: tmp7 += ints.tmp51 * 0.5
    .add 139 (.cp 56) 1 2,
    -- 2320: tmp7 += ints.tmp22 * -1
    .add 139 (.cp 57) (-1) 1,
    -- 2321: tmp7 += ints.tmp30 * -0.5
    .add 139 (.cp 58) (-1) 2,
    -- 2322: tmp7 += ints.tmp45 * -1
    .add 139 (.cp 59) (-1) 1,
    -- 2323: tmp8 = np.copy(f.bb.ov)
    .set 140 (.cp 31) 1 1,
    -- 2324: tmp8 += ints.tmp3
    .add 140 (.cp 60) 1 1,
    -- 2325: tmp8 += ints.tmp49
    .add 140 (.cp 61) 1 1,
    -- 2326: tmp8 += ints.tmp6 * 2
    .add 140 (.cp 62) 2 1,
    -- 2327: tmp8 += ints.tmp25 * -2
    .add 140 (.cp 63) (-2) 1,
    -- 2328: tmp8 += ints.tmp28 * -1
    .add 140 (.cp 64) (-1) 1,
    -- 2329: tmp8 += ints.tmp47 * -2
    .add 140 (.cp 65) (-2) 1,
    -- 2330: tmp5 = np.copy(ints.tmp27)
    .set 141 (.cp 66) 1 1,
    -- 2331: tmp5 += ints.tmp63
    .add 141 (.cp 67) 1 1,
    -- 2332: del ints.tmp63
    .del 67,
    -- 2333: tmp5 += np.transpose(ints.tmp80, (0, 2, 1, 3))
    .add 141 (.tr 68 [0, 2, 1, 3]) 1 1,
    -- 2334: del ints.tmp80
    .del 68,
    -- 2335: tmp5 += np.transpose(ints.tmp84, (0, 2, 1, 3)) * 2
    .add 141 (.tr 69 [0, 2, 1, 3]) 2 1,
    -- 2336: del ints.tmp84
    .del 69,
    -- 2337: tmp5 += np.transpose(ints.tmp96, (0, 2, 1, 3))
    .add 141 (.tr 70 [0, 2, 1, 3]) 1 1,
    -- 2338: del ints.tmp96
    .del 70,
    -- 2339: tmp5 += np.transpose(ints.tmp77, (0, 2, 1, 3)) * -1
    .add 141 (.tr 71 [0, 2, 1, 3]) (-1) 1,
    -- 2340: del ints.tmp77
    .del 71,
    -- 2341: tmp5 += np.transpose(ints.tmp83, (0, 2, 1, 3)) * -1
    .add 141 (.tr 72 [0, 2, 1, 3]) (-1) 1,
    -- 2342: del ints.tmp83
    .del 72,
    -- 2343: tmp1 = np.copy(ints.tmp12)
    .set 142 (.cp 28) 1 1,
    -- 2344: del ints.tmp12
    .del 28,
    -- 2345: tmp1 += np.transpose(ints.tmp32, (2, 0, 1, 3)) * 2
    .add 142 (.tr 73 [2, 0, 1, 3]) 2 1,
    -- 2346: del ints.tmp32
    .del 73,
    -- 2347: tmp1 += np.transpose(ints.tmp54, (2, 0, 1, 3))
    .add 142 (.tr 74 [2, 0, 1, 3]) 1 1,
    -- 2348: del ints.tmp54
    .del 74,
    -- 2349: tmp1 += np.transpose(ints.tmp35, (2, 0, 1, 3)) * -2
    .add 142 (.tr 75 [2, 0, 1, 3]) (-2) 1,
    -- 2350: del ints.tmp35
    .del 75,
    -- 2351: tmp1 += np.transpose(ints.tmp40, (2, 0, 1, 3)) * -1
    .add 142 (.tr 76 [2, 0, 1, 3]) (-1) 1,
    -- 2352: del ints.tmp40
    .del 76,
    -- 2353: tmp1 += ints.tmp8 * -1
    .add 142 (.cp 77) (-1) 1,
    -- 2354: del ints.tmp8
    .del 77,
    -- 2355: tmp2 = np.copy(f.aa.ov)
    .set 143 (.cp 46) 1 1,
    -- 2356: tmp2 += ints.tmp1 * 2
    .add 143 (.cp 54) 2 1,
    -- 2357: del ints.tmp1
    .del 54,
    -- 2358: tmp2 += ints.tmp4
    .add 143 (.cp 55) 1 1,
    -- 2359: del ints.tmp4
    .del 55,
    -- 2360: tmp2 += ints.tmp51
    .add 143 (.cp 56) 1 1,
    -- 2361: del ints.tmp51
    .del 56,
    -- 2362: tmp2 += ints.tmp22 * -2
    .add 143 (.cp 57) (-2) 1,
    -- 2363: del ints.tmp22
    .del 57,
    -- 2364: tmp2 += ints.tmp30 * -1
    .add 143 (.cp 58) (-1) 1,
    -- 2365: del ints.tmp30
    .del 58,
    -- 2366: tmp2 += ints.tmp45 * -2
    .add 143 (.cp 59) (-2) 1,
    -- 2367: del ints.tmp45
    .del 59,
    -- 2368: tmp0 = np.copy(ints.tmp10)
    .set 144 (.cp 78) 1 1,
    -- 2369: del ints.tmp10
    .del 78,
    -- 2370: tmp0 += ints.tmp14
    .add 144 (.cp 79) 1 1,
    -- 2371: tmp0 += np.transpose(ints.tmp38, (1, 0, 2, 3))
    .add 144 (.tr 80 [1, 0, 2, 3]) 1 1,
    -- 2372: del ints.tmp38
    .del 80,
    -- 2373: tmp0 += np.transpose(ints.tmp43, (1, 0, 2, 3)) * 2
    .add 144 (.tr 81 [1, 0, 2, 3]) 2 1,
    -- 2374: del ints.tmp43
    .del 81,
    -- 2375: tmp0 += np.transpose(ints.tmp57, (1, 0, 2, 3))
    .add 144 (.tr 82 [1, 0, 2, 3]) 1 1,
    -- 2376: del ints.tmp57
    .del 82,
    -- 2377: tmp0 += np.transpose(ints.tmp34, (1, 0, 2, 3)) * -1
    .add 144 (.tr 83 [1, 0, 2, 3]) (-1) 1,
    -- 2378: del ints.tmp34
    .del 83,
    -- 2379: tmp0 += np.transpose(ints.tmp39, (1, 0, 2, 3)) * -1
    .add 144 (.tr 84 [1, 0, 2, 3]) (-1) 1,
    -- 2380: del ints.tmp39
    .del 84,
    -- 2381: tmp3 = np.copy(f.bb.ov) * 0.5
    .set 145 (.cp 31) 1 2,
    -- 2382: tmp3 += ints.tmp3 * 0.5
    .add 145 (.cp 60) 1 2,
    -- 2383: del ints.tmp3
    .del 60,
    -- 2384: tmp3 += ints.tmp49 * 0.5
    .add 145 (.cp 61) 1 2,
    -- 2385: del ints.tmp49
    .del 61,
    -- 2386: tmp3 += ints.tmp6
    .add 145 (.cp 62) 1 1,
    -- 2387: del ints.tmp6
    .del 62,
    -- 2388: tmp3 += ints.tmp25 * -1
    .add 145 (.cp 63) (-1) 1,
    -- 2389: del ints.tmp25
    .del 63,
    -- 2390: tmp3 += ints.tmp28 * -0.5
    .add 145 (.cp 64) (-1) 2,
    -- 2391: del ints.tmp28
    .del 64,
    -- 2392: tmp3 += ints.tmp47 * -1
    .add 145 (.cp 65) (-1) 1,
    -- 2393: del ints.tmp47
    .del 65,
    -- 2394: r2new.bbb = np.copy(tmp53) * -1
    .set 146 (.cp 120) (-1) 1,
    -- 2395: r2new.bbb += np.transpose(tmp53, (1, 0, 2))
    .add 146 (.tr 120 [1, 0, 2]) 1 1,
    -- 2396: del tmp53
    .del 120,
    -- 2397: r2new.bbb += tmp58 * 2
    .add 146 (.cp 121) 2 1,
    -- 2398: r2new.bbb += np.transpose(tmp58, (1, 0, 2)) * -2
    .add 146 (.tr 121 [1, 0, 2]) (-2) 1,
    -- 2399: del tmp58
    .del 121,
    -- 2400: r2new.bbb += einsum(tmp59, (0, 1, 2, 3), r2.bbb, (3, 1, 4), (0, 2, 4)) * 2
    .add 146 (.ein [(123, [0, 1, 2, 3]), (7, [3, 1, 4])] [0, 2, 4]) 2 1,
    -- 2401: del tmp59
    .del 123,
    -- 2402: r2new.bbb += einsum(tmp44, (0, 1), r2.bbb, (2, 3, 0), (2, 3, 1)) * -2
    .add 146 (.ein [(122, [0, 1]), (7, [2, 3, 0])] [2, 3, 1]) (-2) 1,
    -- 2403: r2new.bab = einsum(r2.aaa, (0, 1, 2), ints.tmp166, (1, 3, 2, 4), (3, 0, 4)) * 2
    .set 147 (.ein [(11, [0, 1, 2]), (21, [1, 3, 2, 4])] [3, 0, 4]) 2 1,
    -- 2404: del ints.tmp166
    .del 21,
    -- 2405: r2new.bab += einsum(ints.tmp14, (0, 1, 2, 3), r1.a, (1,), (2, 0, 3))
    .add 147 (.ein [(79, [0, 1, 2, 3]), (27, [1])] [2, 0, 3]) 1 1,
    -- 2406: del ints.tmp14
    .del 79,
    -- 2407: r2new.bab += einsum(r1.a, (0,), f.bb.ov, (1, 2), (1, 0, 2)) * -1
    .add 147 (.ein [(27, [0]), (31, [1, 2])] [1, 0, 2]) (-1) 1,
    -- 2408: r2new.bab += einsum(tmp40, (0, 1, 2, 3), r2.bab, (1, 4, 3), (0, 4, 2)) * -1
    .add 147 (.ein [(97, [0, 1, 2, 3]), (10, [1, 4, 3])] [0, 4, 2]) (-1) 1,
    -- 2409: del tmp40
    .del 97,
    -- 2410: r2new.bab += einsum(tmp41, (0, 1, 2, 3), r2.bab, (4, 1, 3), (4, 0, 2)) * -1
    .add 147 (.ein [(126, [0, 1, 2, 3]), (10, [4, 1, 3])] [4, 0, 2]) (-1) 1,
    -- 2411: del tmp41
    .del 126,
    -- 2412: r2new.bab += einsum(tmp42, (0, 1, 2, 3), r2.bab, (3, 1, 4), (2, 0, 4))
    .add 147 (.ein [(124, [0, 1, 2, 3]), (10, [3, 1, 4])] [2, 0, 4]) 1 1,
    -- 2413: del tmp42
    .del 124,
    -- 2414: r2new.bab += einsum(v.bbb.xov, (0, 1, 2), tmp43, (0, 3), (1, 3, 2)) * -2
    .add 147 (.ein [(1, [0, 1, 2]), (127, [0, 3])] [1, 3, 2]) (-2) 1,
    -- 2415: del tmp43
    .del 127,
    -- 2416: r2new.bab += einsum(r2.bab, (0, 1, 2), tmp44, (2, 3), (0, 1, 3)) * -1
    .add 147 (.ein [(10, [0, 1, 2]), (122, [2, 3])] [0, 1, 3]) (-1) 1,
    -- 2417: del tmp44
    .del 122,
    -- 2418: r2new.bab += einsum(ints.tmp146, (0, 1, 2, 3), tmp45, (2,), (1, 0, 3))
    .add 147 (.ein [(85, [0, 1, 2, 3]), (129, [2])] [1, 0, 3]) 1 1,
    -- 2419: del tmp45
    .del 129,
    -- 2420: r2new.bab += einsum(tmp4, (0, 1), r2.bab, (2, 0, 3), (2, 1, 3)) * -1
    .add 147 (.ein [(128, [0, 1]), (10, [2, 0, 3])] [2, 1, 3]) (-1) 1,
    -- 2421: r2new.bab += einsum(tmp9, (0, 1), r2.bab, (0, 2, 3), (1, 2, 3)) * -1
    .add 147 (.ein [(125, [0, 1]), (10, [0, 2, 3])] [1, 2, 3]) (-1) 1,
    -- 2422: r2new.aba = einsum(f.aa.ov, (0, 1), r1.b, (2,), (0, 2, 1)) * -1
    .set 148 (.ein [(46, [0, 1]), (22, [2])] [0, 2, 1]) (-1) 1,
    -- 2423: r2new.aba += einsum(ints.tmp107, (0, 1, 2, 3), r2.bbb, (4, 1, 3), (0, 4, 2)) * 2
    .add 148 (.ein [(30, [0, 1, 2, 3]), (7, [4, 1, 3])] [0, 4, 2]) 2 1,
    -- 2424: del ints.tmp107
    .del 30,
    -- 2425: r2new.aba += einsum(ints.tmp27, (0, 1, 2, 3), r1.b, (2,), (0, 1, 3))
    .add 148 (.ein [(66, [0, 1, 2, 3]), (22, [2])] [0, 1, 3]) 1 1,
    -- 2426: del ints.tmp27
    .del 66,
    -- 2427: r2new.aba += einsum(r2.aba, (0, 1, 2), tmp31, (3, 0, 4, 2), (3, 1, 4)) * -1
    .add 148 (.ein [(8, [0, 1, 2]), (132, [3, 0, 4, 2])] [3, 1, 4]) (-1) 1,
    -- 2428: del tmp31
    .del 132,
    -- 2429: r2new.aba += einsum(r2.aba, (0, 1, 2), tmp32, (3, 1, 4, 2), (0, 3, 4)) * -1
    .add 148 (.ein [(8, [0, 1, 2]), (133, [3, 1, 4, 2])] [0, 3, 4]) (-1) 1,
    -- 2430: del tmp32
    .del 133,
    -- 2431: r2new.aba += einsum(r2.aba, (0, 1, 2), tmp33, (3, 0, 4, 1), (3, 4, 2))
    .add 148 (.ein [(8, [0, 1, 2]), (134, [3, 0, 4, 1])] [3, 4, 2]) 1 1,
    -- 2432: del tmp33
    .del 134,
    -- 2433: r2new.aba += einsum(tmp36, (0, 1), v.baa.xov, (0, 2, 3), (2, 1, 3)) * -2
    .add 148 (.ein [(131, [0, 1]), (4, [0, 2, 3])] [2, 1, 3]) (-2) 1,
    -- 2434: del tmp36
    .del 131,
    -- 2435: r2new.aba += einsum(r2.aba, (0, 1, 2), tmp30, (2, 3), (0, 1, 3)) * -1
    .add 148 (.ein [(8, [0, 1, 2]), (130, [2, 3])] [0, 1, 3]) (-1) 1,
    -- 2436: r2new.aba += einsum(ints.tmp146, (0, 1, 2, 3), tmp39, (3,), (0, 1, 2)) * 2
    .add 148 (.ein [(85, [0, 1, 2, 3]), (95, [3])] [0, 1, 2]) 2 1,
    -- 2437: del tmp39, ints.tmp146
    .del 95,
    .del 85,
    -- 2438: r2new.aba += einsum(tmp4, (0, 1), r2.aba, (0, 2, 3), (1, 2, 3)) * -1
    .add 148 (.ein [(128, [0, 1]), (8, [0, 2, 3])] [1, 2, 3]) (-1) 1,
    -- 2439: r2new.aba += einsum(tmp9, (0, 1), r2.aba, (2, 0, 3), (2, 1, 3)) * -1
    .add 148 (.ein [(125, [0, 1]), (8, [2, 0, 3])] [2, 1, 3]) (-1) 1,
    -- 2440: r2new.aaa = np.copy(tmp22)
    .set 149 (.cp 136) 1 1,
    -- 2441: r2new.aaa += np.transpose(tmp22, (1, 0, 2)) * -1
    .add 149 (.tr 136 [1, 0, 2]) (-1) 1,
    -- 2442: del tmp22
    .del 136,
    -- 2443: r2new.aaa += tmp28
    .add 149 (.cp 135) 1 1,
    -- 2444: r2new.aaa += np.transpose(tmp28, (1, 0, 2)) * -1
    .add 149 (.tr 135 [1, 0, 2]) (-1) 1,
    -- 2445: del tmp28
    .del 135,
    -- 2446: r2new.aaa += einsum(r2.aaa, (0, 1, 2), tmp29, (3, 1, 4, 0), (3, 4, 2)) * 2
    .add 149 (.ein [(11, [0, 1, 2]), (137, [3, 1, 4, 0])] [3, 4, 2]) 2 1,
    -- 2447: del tmp29
    .del 137,
    -- 2448: r2new.aaa += einsum(tmp30, (0, 1), r2.aaa, (2, 3, 0), (2, 3, 1)) * -2
    .add 149 (.ein [(130, [0, 1]), (11, [2, 3, 0])] [2, 3, 1]) (-2) 1,
    -- 2449: del tmp30
    .del 130,
    -- 2450: r1new.b = einsum(r2.aba, (0, 1, 2), tmp5, (0, 3, 1, 2), (3,))
    .set 150 (.ein [(8, [0, 1, 2]), (141, [0, 3, 1, 2])] [3]) 1 1,
    -- 2451: del tmp5
    .del 141,
    -- 2452: r1new.b += einsum(tmp6, (0, 1, 2, 3), r2.bbb, (1, 2, 3), (0,)) * -2
    .add 150 (.ein [(138, [0, 1, 2, 3]), (7, [1, 2, 3])] [0]) (-2) 1,
    -- 2453: del tmp6
    .del 138,
    -- 2454: r1new.b += einsum(tmp7, (0, 1), r2.aba, (0, 2, 1), (2,)) * -2
    .add 150 (.ein [(139, [0, 1]), (8, [0, 2, 1])] [2]) (-2) 1,
    -- 2455: del tmp7
    .del 139,
    -- 2456: r1new.b += einsum(tmp8, (0, 1), r2.bbb, (2, 0, 1), (2,)) * 2
    .add 150 (.ein [(140, [0, 1]), (7, [2, 0, 1])] [2]) 2 1,
    -- 2457: del tmp8
    .del 140,
    -- 2458: r1new.b += einsum(tmp9, (0, 1), r1.b, (0,), (1,)) * -1
    .add 150 (.ein [(125, [0, 1]), (22, [0])] [1]) (-1) 1,
    -- 2459: del tmp9
    .del 125,
    -- 2460: r1new.a = einsum(tmp0, (0, 1, 2, 3), r2.bab, (2, 1, 3), (0,))
    .set 151 (.ein [(144, [0, 1, 2, 3]), (10, [2, 1, 3])] [0]) 1 1,
    -- 2461: del tmp0
    .del 144,
    -- 2462: r1new.a += einsum(tmp1, (0, 1, 2, 3), r2.aaa, (1, 2, 3), (0,)) * -2
    .add 151 (.ein [(142, [0, 1, 2, 3]), (11, [1, 2, 3])] [0]) (-2) 1,
    -- 2463: del tmp1
    .del 142,
    -- 2464: r1new.a += einsum(tmp2, (0, 1), r2.aaa, (2, 0, 1), (2,)) * 2
    .add 151 (.ein [(143, [0, 1]), (11, [2, 0, 1])] [2]) 2 1,
    -- 2465: del tmp2
    .del 143,
    -- 2466: r1new.a += einsum(tmp3, (0, 1), r2.bab, (0, 2, 1), (2,)) * -2
    .add 151 (.ein [(145, [0, 1]), (10, [0, 2, 1])] [2]) (-2) 1,
    -- 2467: del tmp3
    .del 145,
    -- 2468: r1new.a += einsum(r1.a, (0,), tmp4, (0, 1), (1,)) * -1
    .add 151 (.ein [(27, [0]), (128, [0, 1])] [1]) (-1) 1,
    -- 2469: del tmp4
    .del 128
  ]
  ret := [(chars! "r1new.b", 150), (chars! "r1new.a", 151), (chars! "r2new.bbb", 146), (chars! "r2new.bab", 147), (chars! "r2new.aba", 148), (chars! "r2new.aaa", 149)]

/-- codegen/UDFCCD.py:1458-1608 `hbar_matvec_ea_intermediates`. -/
def hbar_matvec_ea_intermediates : GenFun where
  args := [chars! "v.bbb.xov", chars! "v.bbb.xoo", chars! "t2.abab", chars! "v.baa.xov", chars! "v.bbb.xvv", chars! "t2.bbbb", chars! "v.baa.xvv", chars! "t2.aaaa", chars! "v.baa.xoo", chars! "f.bb.ov", chars! "f.aa.ov"]
  body := [
    -- 1537: tmp142 = einsum(v.bbb.xov, (0, 1, 2), v.bbb.xoo, (0, 3, 4), (3, 4, 1, 2))
    .set 11 (.ein [(0, [0, 1, 2]), (1, [0, 3, 4])] [3, 4, 1, 2]) 1 1,
    -- 1538: tmp19 = einsum(t2.abab, (0, 1, 2, 3), v.baa.xov, (4, 0, 2), (4, 1, 3))
    .set 12 (.ein [(2, [0, 1, 2, 3]), (3, [4, 0, 2])] [4, 1, 3]) 1 1,
    -- 1539: tmp12 = einsum(v.bbb.xov, (0, 1, 2), v.bbb.xvv, (0, 3, 4), (1, 3, 4, 2))
    .set 13 (.ein [(0, [0, 1, 2]), (4, [0, 3, 4])] [1, 3, 4, 2]) 1 1,
    -- 1540: tmp16 = einsum(v.bbb.xov, (0, 1, 2), t2.bbbb, (3, 1, 4, 2), (0, 3, 4))
    .set 14 (.ein [(0, [0, 1, 2]), (5, [3, 1, 4, 2])] [0, 3, 4]) 1 1,
    -- 1541: tmp112 = einsum(v.baa.xov, (0, 1, 2), v.bbb.xoo, (0, 3, 4), (1, 3, 4, 2))
    .set 15 (.ein [(3, [0, 1, 2]), (1, [0, 3, 4])] [1, 3, 4, 2]) 1 1,
    -- 1542: tmp41 = einsum(v.bbb.xov, (0, 1, 2), v.bbb.xov, (0, 3, 4), (3, 1, 4, 2))
    .set 16 (.ein [(0, [0, 1, 2]), (0, [0, 3, 4])] [3, 1, 4, 2]) 1 1,
    -- 1543: tmp37 = einsum(v.baa.xov, (0, 1, 2), v.baa.xov, (0, 3, 4), (3, 1, 4, 2))
    .set 17 (.ein [(3, [0, 1, 2]), (3, [0, 3, 4])] [3, 1, 4, 2]) 1 1,
    -- 1544: tmp1 = einsum(v.baa.xvv, (0, 1, 2), v.baa.xov, (0, 3, 4), (3, 1, 2, 4))
    .set 18 (.ein [(6, [0, 1, 2]), (3, [0, 3, 4])] [3, 1, 2, 4]) 1 1,
    -- 1545: tmp62 = einsum(v.bbb.xov, (0, 1, 2), v.baa.xov, (0, 3, 4), (3, 1, 4, 2))
    .set 19 (.ein [(0, [0, 1, 2]), (3, [0, 3, 4])] [3, 1, 4, 2]) 1 1,
    -- 1546: tmp14 = einsum(v.baa.xov, (0, 1, 2), v.bbb.xvv, (0, 3, 4), (1, 2, 3, 4))
    .set 20 (.ein [(3, [0, 1, 2]), (4, [0, 3, 4])] [1, 2, 3, 4]) 1 1,
    -- 1547: tmp5 = einsum(v.baa.xov, (0, 1, 2), t2.aaaa, (3, 1, 4, 2), (0, 3, 4))
    .set 21 (.ein [(3, [0, 1, 2]), (7, [3, 1, 4, 2])] [0, 3, 4]) 1 1,
    -- 1548: tmp8 = einsum(t2.abab, (0, 1, 2, 3), v.bbb.xov, (4, 1, 3), (4, 0, 2))
    .set 22 (.ein [(2, [0, 1, 2, 3]), (0, [4, 1, 3])] [4, 0, 2]) 1 1,
    -- 1549: tmp54 = einsum(v.bbb.xov, (0, 1, 2), v.baa.xoo, (0, 3, 4), (3, 4, 1, 2))
    .set 23 (.ein [(0, [0, 1, 2]), (8, [0, 3, 4])] [3, 4, 1, 2]) 1 1,
    -- 1550: tmp3 = einsum(v.bbb.xov, (0, 1, 2), v.baa.xvv, (0, 3, 4), (1, 3, 4, 2))
    .set 24 (.ein [(0, [0, 1, 2]), (6, [0, 3, 4])] [1, 3, 4, 2]) 1 1,
    -- 1551: tmp52 = einsum(v.baa.xov, (0, 1, 2), v.baa.xoo, (0, 3, 4), (3, 4, 1, 2))
    .set 25 (.ein [(3, [0, 1, 2]), (8, [0, 3, 4])] [3, 4, 1, 2]) 1 1,
    -- 1552: tmp172 = einsum(v.bbb.xvv, (0, 1, 2), v.bbb.xvv, (0, 3, 4), (3, 1, 2, 4))
    .set 26 (.ein [(4, [0, 1, 2]), (4, [0, 3, 4])] [3, 1, 2, 4]) 1 1,
    -- 1553: tmp165 = einsum(t2.bbbb, (0, 1, 2, 3), tmp142, (4, 0, 1, 5), (4, 2, 3, 5))
    .set 27 (.ein [(5, [0, 1, 2, 3]), (11, [4, 0, 1, 5])] [4, 2, 3, 5]) 1 1,
    -- 1554: tmp152 = einsum(tmp19, (0, 1, 2), v.bbb.xvv, (0, 3, 4), (1, 2, 3, 4))
    .set 28 (.ein [(12, [0, 1, 2]), (4, [0, 3, 4])] [1, 2, 3, 4]) 1 1,
    -- 1555: tmp150 = einsum(tmp12, (0, 1, 2, 3), t2.bbbb, (4, 0, 5, 2), (4, 5, 3, 1))
    .set 29 (.ein [(13, [0, 1, 2, 3]), (5, [4, 0, 5, 2])] [4, 5, 3, 1]) 1 1,
    -- 1556: tmp148 = einsum(tmp16, (0, 1, 2), v.bbb.xvv, (0, 3, 4), (1, 2, 3, 4))
    .set 30 (.ein [(14, [0, 1, 2]), (4, [0, 3, 4])] [1, 2, 3, 4]) 1 1,
    -- 1557: tmp144 = einsum(tmp112, (0, 1, 2, 3), t2.abab, (0, 2, 3, 4), (1, 4))
    .set 31 (.ein [(15, [0, 1, 2, 3]), (2, [0, 2, 3, 4])] [1, 4]) 1 1,
    -- 1558: tmp143 = einsum(t2.bbbb, (0, 1, 2, 3), tmp142, (4, 0, 1, 3), (4, 2))
    .set 32 (.ein [(5, [0, 1, 2, 3]), (11, [4, 0, 1, 3])] [4, 2]) 1 1,
    -- 1559: del tmp142
    .del 11,
    -- 1560: tmp141 = einsum(v.baa.xvv, (0, 1, 2), v.bbb.xoo, (0, 3, 4), (3, 4, 1, 2))
    .set 33 (.ein [(6, [0, 1, 2]), (1, [0, 3, 4])] [3, 4, 1, 2]) 1 1,
    -- 1561: tmp137 = einsum(t2.bbbb, (0, 1, 2, 3), tmp41, (1, 4, 5, 3), (0, 4, 2, 5))
    .set 34 (.ein [(5, [0, 1, 2, 3]), (16, [1, 4, 5, 3])] [0, 4, 2, 5]) 1 1,
    -- 1562: tmp134 = einsum(t2.abab, (0, 1, 2, 3), tmp37, (0, 4, 5, 2), (4, 1, 5, 3))
    .set 35 (.ein [(2, [0, 1, 2, 3]), (17, [0, 4, 5, 2])] [4, 1, 5, 3]) 1 1,
    -- 1563: tmp130 = einsum(tmp16, (0, 1, 2), v.baa.xvv, (0, 3, 4), (1, 3, 4, 2))
    .set 36 (.ein [(14, [0, 1, 2]), (6, [0, 3, 4])] [1, 3, 4, 2]) 1 1,
    -- 1564: tmp129 = einsum(tmp1, (0, 1, 2, 3), t2.abab, (0, 4, 2, 5), (4, 3, 1, 5))
    .set 37 (.ein [(18, [0, 1, 2, 3]), (2, [0, 4, 2, 5])] [4, 3, 1, 5]) 1 1,
    -- 1565: tmp128 = einsum(tmp19, (0, 1, 2), v.baa.xvv, (0, 3, 4), (1, 3, 4, 2))
    .set 38 (.ein [(12, [0, 1, 2]), (6, [0, 3, 4])] [1, 3, 4, 2]) 1 1,
    -- 1566: tmp127 = einsum(t2.bbbb, (0, 1, 2, 3), f.bb.ov, (1, 3), (0, 2))
    .set 39 (.ein [(5, [0, 1, 2, 3]), (9, [1, 3])] [0, 2]) 1 1,
    -- 1567: tmp126 = einsum(t2.abab, (0, 1, 2, 3), f.aa.ov, (0, 2), (1, 3))
    .set 40 (.ein [(2, [0, 1, 2, 3]), (10, [0, 2])] [1, 3]) 1 1,
    -- 1568: tmp124 = einsum(v.bbb.xov, (0, 1, 2), tmp19, (0, 3, 2), (3, 1))
    .set 41 (.ein [(0, [0, 1, 2]), (12, [0, 3, 2])] [3, 1]) 1 1,
    -- 1569: tmp122 = einsum(v.bbb.xov, (0, 1, 2), tmp16, (0, 3, 2), (3, 1))
    .set 42 (.ein [(0, [0, 1, 2]), (14, [0, 3, 2])] [3, 1]) 1 1,
    -- 1570: tmp121 = einsum(v.bbb.xvv, (0, 1, 2), tmp19, (0, 3, 2), (3, 1))
    .set 43 (.ein [(4, [0, 1, 2]), (12, [0, 3, 2])] [3, 1]) 1 1,
    -- 1571: tmp120 = einsum(tmp16, (0, 1, 2), v.bbb.xvv, (0, 3, 2), (1, 3)) * -1
    .set 44 (.ein [(14, [0, 1, 2]), (4, [0, 3, 2])] [1, 3]) (-1) 1,
    -- 1572: tmp113 = einsum(t2.abab, (0, 1, 2, 3), tmp112, (0, 4, 1, 5), (4, 2, 5, 3))
    .set 45 (.ein [(2, [0, 1, 2, 3]), (15, [0, 4, 1, 5])] [4, 2, 5, 3]) 1 1,
    -- 1573: del tmp112
    .del 15,
    -- 1574: tmp111 = einsum(v.bbb.xoo, (0, 1, 2), v.bbb.xvv, (0, 3, 4), (1, 2, 3, 4))
    .set 46 (.ein [(1, [0, 1, 2]), (4, [0, 3, 4])] [1, 2, 3, 4]) 1 1,
    -- 1575: tmp110 = einsum(t2.abab, (0, 1, 2, 3), tmp62, (0, 4, 5, 3), (1, 4, 2, 5))
    .set 47 (.ein [(2, [0, 1, 2, 3]), (19, [0, 4, 5, 3])] [1, 4, 2, 5]) 1 1,
    -- 1576: tmp107 = einsum(tmp14, (0, 1, 2, 3), t2.abab, (0, 4, 5, 3), (4, 5, 1, 2))
    .set 48 (.ein [(20, [0, 1, 2, 3]), (2, [0, 4, 5, 3])] [4, 5, 1, 2]) 1 1,
    -- 1577: tmp105 = einsum(v.baa.xoo, (0, 1, 2), v.bbb.xvv, (0, 3, 4), (1, 2, 3, 4))
    .set 49 (.ein [(8, [0, 1, 2]), (4, [0, 3, 4])] [1, 2, 3, 4]) 1 1,
    -- 1578: tmp96 = einsum(tmp5, (0, 1, 2), v.bbb.xvv, (0, 3, 4), (1, 2, 3, 4))
    .set 50 (.ein [(21, [0, 1, 2]), (4, [0, 3, 4])] [1, 2, 3, 4]) 1 1,
    -- 1579: tmp95 = einsum(tmp12, (0, 1, 2, 3), t2.abab, (4, 0, 5, 2), (4, 5, 3, 1))
    .set 51 (.ein [(13, [0, 1, 2, 3]), (2, [4, 0, 5, 2])] [4, 5, 3, 1]) 1 1,
    -- 1580: tmp94 = einsum(tmp8, (0, 1, 2), v.bbb.xvv, (0, 3, 4), (1, 2, 3, 4))
    .set 52 (.ein [(22, [0, 1, 2]), (4, [0, 3, 4])] [1, 2, 3, 4]) 1 1,
    -- 1581: tmp90 = einsum(v.baa.xvv, (0, 1, 2), v.bbb.xvv, (0, 3, 4), (1, 2, 3, 4))
    .set 53 (.ein [(6, [0, 1, 2]), (4, [0, 3, 4])] [1, 2, 3, 4]) 1 1,
    -- 1582: tmp82 = einsum(tmp54, (0, 1, 2, 3), t2.abab, (1, 2, 4, 5), (0, 4, 5, 3))
    .set 54 (.ein [(23, [0, 1, 2, 3]), (2, [1, 2, 4, 5])] [0, 4, 5, 3]) 1 1,
    -- 1583: tmp80 = einsum(t2.abab, (0, 1, 2, 3), tmp62, (4, 1, 2, 5), (0, 4, 3, 5))
    .set 55 (.ein [(2, [0, 1, 2, 3]), (19, [4, 1, 2, 5])] [0, 4, 3, 5]) 1 1,
    -- 1584: tmp77 = einsum(tmp3, (0, 1, 2, 3), t2.abab, (4, 0, 2, 5), (4, 1, 5, 3))
    .set 56 (.ein [(24, [0, 1, 2, 3]), (2, [4, 0, 2, 5])] [4, 1, 5, 3]) 1 1,
    -- 1585: tmp72 = einsum(tmp8, (0, 1, 2), v.baa.xov, (0, 3, 2), (1, 3))
    .set 57 (.ein [(22, [0, 1, 2]), (3, [0, 3, 2])] [1, 3]) 1 1,
    -- 1586: tmp70 = einsum(tmp5, (0, 1, 2), v.baa.xov, (0, 3, 2), (1, 3))
    .set 58 (.ein [(21, [0, 1, 2]), (3, [0, 3, 2])] [1, 3]) 1 1,
    -- 1587: tmp69 = einsum(v.baa.xvv, (0, 1, 2), tmp8, (0, 3, 2), (3, 1))
    .set 59 (.ein [(6, [0, 1, 2]), (22, [0, 3, 2])] [3, 1]) 1 1,
    -- 1588: tmp68 = einsum(v.baa.xvv, (0, 1, 2), tmp5, (0, 3, 2), (3, 1)) * -1
    .set 60 (.ein [(6, [0, 1, 2]), (21, [0, 3, 2])] [3, 1]) (-1) 1,
    -- 1589: tmp66 = einsum(v.baa.xvv, (0, 1, 2), v.baa.xvv, (0, 3, 4), (1, 3, 4, 2))
    .set 61 (.ein [(6, [0, 1, 2]), (6, [0, 3, 4])] [1, 3, 4, 2]) 1 1,
    -- 1590: tmp56 = einsum(t2.aaaa, (0, 1, 2, 3), tmp52, (4, 0, 1, 5), (4, 2, 3, 5))
    .set 62 (.ein [(7, [0, 1, 2, 3]), (25, [4, 0, 1, 5])] [4, 2, 3, 5]) 1 1,
    -- 1591: tmp55 = einsum(tmp54, (0, 1, 2, 3), t2.abab, (1, 2, 4, 3), (0, 4))
    .set 63 (.ein [(23, [0, 1, 2, 3]), (2, [1, 2, 4, 3])] [0, 4]) 1 1,
    -- 1592: del tmp54
    .del 23,
    -- 1593: tmp53 = einsum(t2.aaaa, (0, 1, 2, 3), tmp52, (4, 0, 1, 3), (4, 2))
    .set 64 (.ein [(7, [0, 1, 2, 3]), (25, [4, 0, 1, 3])] [4, 2]) 1 1,
    -- 1594: del tmp52
    .del 25,
    -- 1595: tmp50 = einsum(v.baa.xvv, (0, 1, 2), v.baa.xoo, (0, 3, 4), (3, 4, 1, 2))
    .set 65 (.ein [(6, [0, 1, 2]), (8, [0, 3, 4])] [3, 4, 1, 2]) 1 1,
    -- 1596: tmp42 = einsum(t2.abab, (0, 1, 2, 3), tmp41, (1, 4, 5, 3), (0, 4, 2, 5))
    .set 66 (.ein [(2, [0, 1, 2, 3]), (16, [1, 4, 5, 3])] [0, 4, 2, 5]) 1 1,
    -- 1597: tmp38 = einsum(t2.aaaa, (0, 1, 2, 3), tmp37, (1, 4, 5, 3), (0, 4, 2, 5))
    .set 67 (.ein [(7, [0, 1, 2, 3]), (17, [1, 4, 5, 3])] [0, 4, 2, 5]) 1 1,
    -- 1598: tmp33 = einsum(v.baa.xvv, (0, 1, 2), tmp8, (0, 3, 4), (3, 4, 1, 2))
    .set 68 (.ein [(6, [0, 1, 2]), (22, [0, 3, 4])] [3, 4, 1, 2]) 1 1,
    -- 1599: tmp31 = einsum(tmp1, (0, 1, 2, 3), t2.aaaa, (4, 0, 5, 2), (4, 5, 3, 1))
    .set 69 (.ein [(18, [0, 1, 2, 3]), (7, [4, 0, 5, 2])] [4, 5, 3, 1]) 1 1,
    -- 1600: tmp29 = einsum(v.baa.xvv, (0, 1, 2), tmp5, (0, 3, 4), (3, 4, 1, 2))
    .set 70 (.ein [(6, [0, 1, 2]), (21, [0, 3, 4])] [3, 4, 1, 2]) 1 1,
    -- 1601: tmp23 = einsum(t2.abab, (0, 1, 2, 3), f.bb.ov, (1, 3), (0, 2))
    .set 71 (.ein [(2, [0, 1, 2, 3]), (9, [1, 3])] [0, 2]) 1 1,
    -- 1602: tmp22 = einsum(f.aa.ov, (0, 1), t2.aaaa, (2, 0, 3, 1), (2, 3))
    .set 72 (.ein [(10, [0, 1]), (7, [2, 0, 3, 1])] [2, 3]) 1 1,
    -- 1603: tmp20 = einsum(tmp19, (0, 1, 2), v.bbb.xov, (0, 1, 3), (2, 3))
    .set 73 (.ein [(12, [0, 1, 2]), (0, [0, 1, 3])] [2, 3]) 1 1,
    -- 1604: tmp17 = einsum(v.bbb.xov, (0, 1, 2), tmp16, (0, 1, 3), (3, 2))
    .set 74 (.ein [(0, [0, 1, 2]), (14, [0, 1, 3])] [3, 2]) 1 1,
    -- 1605: tmp9 = einsum(tmp8, (0, 1, 2), v.baa.xov, (0, 1, 3), (2, 3))
    .set 75 (.ein [(22, [0, 1, 2]), (3, [0, 1, 3])] [2, 3]) 1 1,
    -- 1606: tmp6 = einsum(tmp5, (0, 1, 2), v.baa.xov, (0, 1, 3), (2, 3))
    .set 76 (.ein [(21, [0, 1, 2]), (3, [0, 1, 3])] [2, 3]) 1 1
  ]
  ret := [(chars! "tmp1", 18), (chars! "tmp105", 49), (chars! "tmp107", 48), (chars! "tmp110", 47), (chars! "tmp111", 46), (chars! "tmp113", 45), (chars! "tmp12", 13), (chars! "tmp120", 44), (chars! "tmp121", 43), (chars! "tmp122", 42), (chars! "tmp124", 41), (chars! "tmp126", 40), (chars! "tmp127", 39), (chars! "tmp128", 38), (chars! "tmp129", 37), (chars! "tmp130", 36), (chars! "tmp134", 35), (chars! "tmp137", 34), (chars! "tmp14", 20), (chars! "tmp141", 33), (chars! "tmp143", 32), (chars! "tmp144", 31), (chars! "tmp148", 30), (chars! "tmp150", 29), (chars! "tmp152", 28), (chars! "tmp16", 14), (chars! "tmp165", 27), (chars! "tmp17", 74), (chars! "tmp172", 26), (chars! "tmp19", 12), (chars! "tmp20", 73), (chars! "tmp22", 72), (chars! "tmp23", 71), (chars! "tmp29", 70), (chars! "tmp3", 24), (chars! "tmp31", 69), (chars! "tmp33", 68), (chars! "tmp37", 17), (chars! "tmp38", 67), (chars! "tmp41", 16), (chars! "tmp42", 66), (chars! "tmp5", 21), (chars! "tmp50", 65), (chars! "tmp53", 64), (chars! "tmp55", 63), (chars! "tmp56", 62), (chars! "tmp6", 76), (chars! "tmp62", 19), (chars! "tmp66", 61), (chars! "tmp68", 60), (chars! "tmp69", 59), (chars! "tmp70", 58), (chars! "tmp72", 57), (chars! "tmp77", 56), (chars! "tmp8", 22), (chars! "tmp80", 55), (chars! "tmp82", 54), (chars! "tmp9", 75), (chars! "tmp90", 53), (chars! "tmp94", 52), (chars! "tmp95", 51), (chars! "tmp96", 50)]

/-- codegen/UDFCCD.py:1610-1950 `hbar_matvec_ea`. -/
def hbar_matvec_ea : GenFun where
  args := [chars! "v.bbb.xov", chars! "r2.bab", chars! "r2.aaa", chars! "v.baa.xov", chars! "ints.tmp111", chars! "ints.tmp137", chars! "ints.tmp12", chars! "ints.tmp150", chars! "r2.bbb", chars! "ints.tmp19", chars! "ints.tmp16", chars! "r2.aba", chars! "ints.tmp148", chars! "ints.tmp152", chars! "ints.tmp17", chars! "ints.tmp20", chars! "f.bb.vv", chars! "ints.tmp50", chars! "ints.tmp38", chars! "ints.tmp1", chars! "ints.tmp31", chars! "ints.tmp6", chars! "ints.tmp9", chars! "f.aa.vv", chars! "ints.tmp5", chars! "ints.tmp8", chars! "ints.tmp29", chars! "ints.tmp33", chars! "r1.b", chars! "ints.tmp41", chars! "ints.tmp62", chars! "f.bb.ov", chars! "ints.tmp134", chars! "ints.tmp37", chars! "f.aa.ov", chars! "r1.a", chars! "ints.tmp42", chars! "ints.tmp121", chars! "ints.tmp126", chars! "ints.tmp127", chars! "ints.tmp120", chars! "ints.tmp143", chars! "ints.tmp144", chars! "f.bb.oo", chars! "ints.tmp122", chars! "ints.tmp124", chars! "ints.tmp113", chars! "ints.tmp128", chars! "ints.tmp130", chars! "ints.tmp3", chars! "ints.tmp107", chars! "ints.tmp129", chars! "ints.tmp110", chars! "ints.tmp141", chars! "ints.tmp22", chars! "ints.tmp23", chars! "ints.tmp69", chars! "ints.tmp53", chars! "ints.tmp55", chars! "ints.tmp68", chars! "f.aa.oo", chars! "ints.tmp70", chars! "ints.tmp72", chars! "ints.tmp14", chars! "ints.tmp82", chars! "ints.tmp94", chars! "ints.tmp96", chars! "ints.tmp77", chars! "ints.tmp95", chars! "ints.tmp105", chars! "ints.tmp80", chars! "ints.tmp165", chars! "ints.tmp172", chars! "t2.bbbb", chars! "t2.abab", chars! "ints.tmp90", chars! "t2.aaaa", chars! "ints.tmp66", chars! "ints.tmp56"]
  body := [
    -- 1638: tmp4 = einsum(v.bbb.xov, (0, 1, 2), r2.bab, (2, 3, 1), (0, 3)) * -1
    .set 79 (.ein [(0, [0, 1, 2]), (1, [2, 3, 1])] [0, 3]) (-1) 1,
    -- 1639: tmp3 = einsum(r2.aaa, (0, 1, 2), v.baa.xov, (3, 2, 1), (3, 0))
    .set 80 (.ein [(2, [0, 1, 2]), (3, [3, 2, 1])] [3, 0]) 1 1,
    -- 1640: tmp40 = np.copy(ints.tmp111)
    .set 81 (.cp 4) 1 1,
    -- 1641: del ints.tmp111
    .del 4,
    -- 1642: tmp40 += ints.tmp137 * 2
    .add 81 (.cp 5) 2 1,
    -- 1643: del ints.tmp137
    .del 5,
    -- 1644: tmp52 = np.copy(ints.tmp12)
    .set 82 (.cp 6) 1 1,
    -- 1645: tmp52 += ints.tmp150 * 2
    .add 82 (.cp 7) 2 1,
    -- 1646: del ints.tmp150
    .del 7,
    -- 1647: tmp31 = einsum(r2.bbb, (0, 1, 2), v.bbb.xov, (3, 2, 1), (3, 0))
    .set 83 (.ein [(8, [0, 1, 2]), (0, [3, 2, 1])] [3, 0]) 1 1,
    -- 1648: tmp50 = np.copy(ints.tmp19)
    .set 84 (.cp 9) 1 1,
    -- 1649: tmp50 += ints.tmp16 * 2
    .add 84 (.cp 10) 2 1,
    -- 1650: tmp30 = einsum(v.baa.xov, (0, 1, 2), r2.aba, (2, 3, 1), (0, 3))
    .set 85 (.ein [(3, [0, 1, 2]), (11, [2, 3, 1])] [0, 3]) 1 1,
    -- 1651: tmp57 = np.copy(ints.tmp16) * 2
    .set 86 (.cp 10) 2 1,
    -- 1652: tmp57 += ints.tmp19
    .add 86 (.cp 9) 1 1,
    -- 1653: tmp60 = np.copy(ints.tmp148)
    .set 87 (.cp 12) 1 1,
    -- 1654: del ints.tmp148
    .del 12,
    -- 1655: tmp60 += ints.tmp152 * 0.5
    .add 87 (.cp 13) 1 2,
    -- 1656: del ints.tmp152
    .del 13,
    -- 1657: tmp44 = np.copy(np.transpose(ints.tmp17, (1, 0)))
    .set 88 (.tr 14 [1, 0]) 1 1,
    -- 1658: tmp44 += np.transpose(ints.tmp20, (1, 0)) * 0.5
    .add 88 (.tr 15 [1, 0]) 1 2,
    -- 1659: tmp44 += f.bb.vv * -0.5
    .add 88 (.cp 16) (-1) 2,
    -- 1660: tmp14 = np.copy(ints.tmp50)
    .set 89 (.cp 17) 1 1,
    -- 1661: tmp14 += ints.tmp38 * 2
    .add 89 (.cp 18) 2 1,
    -- 1662: tmp16 = np.copy(tmp3) * 2
    .set 90 (.cp 80) 2 1,
    -- 1663: tmp16 += tmp4
    .add 90 (.cp 79) 1 1,
    -- 1664: tmp18 = np.copy(ints.tmp1)
    .set 91 (.cp 19) 1 1,
    -- 1665: tmp18 += ints.tmp31 * 2
    .add 91 (.cp 20) 2 1,
    -- 1666: del ints.tmp31
    .del 20,
    -- 1667: tmp8 = np.copy(np.transpose(ints.tmp6, (1, 0)))
    .set 92 (.tr 21 [1, 0]) 1 1,
    -- 1668: tmp8 += np.transpose(ints.tmp9, (1, 0)) * 0.5
    .add 92 (.tr 22 [1, 0]) 1 2,
    -- 1669: tmp8 += f.aa.vv * -0.5
    .add 92 (.cp 23) (-1) 2,
    -- 1670: tmp6 = np.copy(ints.tmp5) * 2
    .set 93 (.cp 24) 2 1,
    -- 1671: tmp6 += ints.tmp8
    .add 93 (.cp 25) 1 1,
    -- 1672: tmp5 = np.copy(tmp3)
    .set 94 (.cp 80) 1 1,
    -- 1673: del tmp3
    .del 80,
    -- 1674: tmp5 += tmp4 * 0.5
    .add 94 (.cp 79) 1 2,
    -- 1675: del tmp4
    .del 79,
    -- 1676: tmp10 = np.copy(ints.tmp29)
    .set 95 (.cp 26) 1 1,
    -- 1677: del ints.tmp29
    .del 26,
    -- 1678: tmp10 += ints.tmp33 * 0.5
    .add 95 (.cp 27) 1 2,
    -- 1679: del ints.tmp33
    .del 27,
    -- 1680: tmp49 = einsum(r2.bbb, (0, 1, 2), tmp40, (3, 2, 4, 1), (3, 0, 4)) * -1
    .set 96 (.ein [(8, [0, 1, 2]), (81, [3, 2, 4, 1])] [3, 0, 4]) (-1) 1,
    -- 1681: tmp53 = einsum(tmp52, (0, 1, 2, 3), r1.b, (2,), (0, 1, 3))
    .set 97 (.ein [(82, [0, 1, 2, 3]), (28, [2])] [0, 1, 3]) 1 1,
    -- 1682: del tmp52
    .del 82,
    -- 1683: tmp48 = einsum(tmp31, (0, 1), v.bbb.xov, (0, 2, 3), (2, 1, 3))
    .set 98 (.ein [(83, [0, 1]), (0, [0, 2, 3])] [2, 1, 3]) 1 1,
    -- 1684: tmp51 = einsum(tmp50, (0, 1, 2), tmp30, (0, 3), (1, 3, 2))
    .set 99 (.ein [(84, [0, 1, 2]), (85, [0, 3])] [1, 3, 2]) 1 1,
    -- 1685: del tmp50
    .del 84,
    -- 1686: tmp37 = einsum(r2.bbb, (0, 1, 2), ints.tmp41, (2, 3, 1, 0), (3,)) * -1
    .set 100 (.ein [(8, [0, 1, 2]), (29, [2, 3, 1, 0])] [3]) (-1) 1,
    -- 1687: tmp36 = einsum(ints.tmp62, (0, 1, 2, 3), r2.aba, (2, 3, 0), (1,))
    .set 101 (.ein [(30, [0, 1, 2, 3]), (11, [2, 3, 0])] [1]) 1 1,
    -- 1688: tmp35 = einsum(f.bb.ov, (0, 1), r1.b, (1,), (0,))
    .set 102 (.ein [(31, [0, 1]), (28, [1])] [0]) 1 1,
    -- 1689: tmp58 = einsum(tmp31, (0, 1), tmp57, (0, 2, 3), (2, 1, 3)) * 2
    .set 103 (.ein [(83, [0, 1]), (86, [0, 2, 3])] [2, 1, 3]) 2 1,
    -- 1690: del tmp57
    .del 86,
    -- 1691: tmp55 = einsum(r2.aba, (0, 1, 2), ints.tmp134, (2, 3, 0, 4), (3, 4, 1))
    .set 104 (.ein [(11, [0, 1, 2]), (32, [2, 3, 0, 4])] [3, 4, 1]) 1 1,
    -- 1692: tmp61 = einsum(tmp60, (0, 1, 2, 3), r1.b, (2,), (0, 1, 3)) * 2
    .set 105 (.ein [(87, [0, 1, 2, 3]), (28, [2])] [0, 1, 3]) 2 1,
    -- 1693: del tmp60
    .del 87,
    -- 1694: tmp56 = einsum(tmp30, (0, 1), v.bbb.xov, (0, 2, 3), (2, 1, 3))
    .set 106 (.ein [(85, [0, 1]), (0, [0, 2, 3])] [2, 1, 3]) 1 1,
    -- 1695: tmp59 = einsum(r2.bbb, (0, 1, 2), tmp44, (1, 3), (2, 0, 3)) * -4
    .set 107 (.ein [(8, [0, 1, 2]), (88, [1, 3])] [2, 0, 3]) (-4) 1,
    -- 1696: tmp22 = einsum(r2.aaa, (0, 1, 2), ints.tmp37, (2, 3, 1, 0), (3,)) * -1
    .set 108 (.ein [(2, [0, 1, 2]), (33, [2, 3, 1, 0])] [3]) (-1) 1,
    -- 1697: tmp23 = einsum(ints.tmp62, (0, 1, 2, 3), r2.bab, (3, 2, 1), (0,)) * -1
    .set 109 (.ein [(30, [0, 1, 2, 3]), (1, [3, 2, 1])] [0]) (-1) 1,
    -- 1698: tmp21 = einsum(f.aa.ov, (0, 1), r1.a, (1,), (0,))
    .set 110 (.ein [(34, [0, 1]), (35, [1])] [0]) 1 1,
    -- 1699: tmp15 = einsum(r2.aaa, (0, 1, 2), tmp14, (3, 2, 4, 1), (3, 0, 4)) * -1
    .set 111 (.ein [(2, [0, 1, 2]), (89, [3, 2, 4, 1])] [3, 0, 4]) (-1) 1,
    -- 1700: del tmp14
    .del 89,
    -- 1701: tmp17 = einsum(tmp16, (0, 1), v.baa.xov, (0, 2, 3), (2, 3, 1))
    .set 112 (.ein [(90, [0, 1]), (3, [0, 2, 3])] [2, 3, 1]) 1 1,
    -- 1702: del tmp16
    .del 90,
    -- 1703: tmp13 = einsum(r2.bab, (0, 1, 2), ints.tmp42, (3, 2, 4, 0), (3, 4, 1)) * -1
    .set 113 (.ein [(1, [0, 1, 2]), (36, [3, 2, 4, 0])] [3, 4, 1]) (-1) 1,
    -- 1704: tmp19 = einsum(r1.a, (0,), tmp18, (1, 2, 0, 3), (1, 2, 3))
    .set 114 (.ein [(35, [0]), (91, [1, 2, 0, 3])] [1, 2, 3]) 1 1,
    -- 1705: del tmp18
    .del 91,
    -- 1706: tmp9 = einsum(tmp8, (0, 1), r2.aaa, (2, 0, 3), (3, 2, 1)) * -4
    .set 115 (.ein [(92, [0, 1]), (2, [2, 0, 3])] [3, 2, 1]) (-4) 1,
    -- 1707: del tmp8
    .del 92,
    -- 1708: tmp7 = einsum(tmp6, (0, 1, 2), tmp5, (0, 3), (1, 2, 3)) * 2
    .set 116 (.ein [(93, [0, 1, 2]), (94, [0, 3])] [1, 2, 3]) 2 1,
    -- 1709: del tmp6
    .del 93,
    -- 1710: tmp11 = einsum(r1.a, (0,), tmp10, (1, 2, 0, 3), (1, 2, 3)) * 2
    .set 117 (.ein [(35, [0]), (95, [1, 2, 0, 3])] [1, 2, 3]) 2 1,
    -- 1711: del tmp10
    .del 95,
    -- 1712: tmp54 = np.copy(tmp48) * 2
    .set 118 (.cp 98) 2 1,
    -- 1713: del tmp48
    .del 98,
    -- 1714: tmp54 += np.transpose(tmp49, (0, 2, 1)) * -2
    .add 118 (.tr 96 [0, 2, 1]) (-2) 1,
    -- 1715: del tmp49
    .del 96,
    -- 1716: tmp54 += np.transpose(tmp51, (0, 2, 1))
    .add 118 (.tr 99 [0, 2, 1]) 1 1,
    -- 1717: del tmp51
    .del 99,
    -- 1718: tmp54 += tmp53
    .add 118 (.cp 97) 1 1,
    -- 1719: del tmp53
    .del 97,
    -- 1720: tmp47 = einsum(r2.bbb, (0, 1, 2), ints.tmp41, (3, 4, 0, 1), (3, 4, 2))
    .set 119 (.ein [(8, [0, 1, 2]), (29, [3, 4, 0, 1])] [3, 4, 2]) 1 1,
    -- 1721: del ints.tmp41
    .del 29,
    -- 1722: tmp38 = np.copy(tmp35) * -1
    .set 120 (.cp 102) (-1) 1,
    -- 1723: del tmp35
    .del 102,
    -- 1724: tmp38 += tmp36
    .add 120 (.cp 101) 1 1,
    -- 1725: del tmp36
    .del 101,
    -- 1726: tmp38 += tmp37 * 2
    .add 120 (.cp 100) 2 1,
    -- 1727: del tmp37
    .del 100,
    -- 1728: tmp46 = np.copy(f.bb.ov)
    .set 121 (.cp 31) 1 1,
    -- 1729: tmp46 += ints.tmp121
    .add 121 (.cp 37) 1 1,
    -- 1730: del ints.tmp121
    .del 37,
    -- 1731: tmp46 += ints.tmp126
    .add 121 (.cp 38) 1 1,
    -- 1732: del ints.tmp126
    .del 38,
    -- 1733: tmp46 += ints.tmp127 * 2
    .add 121 (.cp 39) 2 1,
    -- 1734: del ints.tmp127
    .del 39,
    -- 1735: tmp46 += ints.tmp120 * -2
    .add 121 (.cp 40) (-2) 1,
    -- 1736: del ints.tmp120
    .del 40,
    -- 1737: tmp46 += ints.tmp143 * -2
    .add 121 (.cp 41) (-2) 1,
    -- 1738: del ints.tmp143
    .del 41,
    -- 1739: tmp46 += ints.tmp144 * -1
    .add 121 (.cp 42) (-1) 1,
    -- 1740: del ints.tmp144
    .del 42,
    -- 1741: tmp62 = np.copy(tmp55)
    .set 122 (.cp 104) 1 1,
    -- 1742: del tmp55
    .del 104,
    -- 1743: tmp62 += tmp56
    .add 122 (.cp 106) 1 1,
    -- 1744: del tmp56
    .del 106,
    -- 1745: tmp62 += np.transpose(tmp58, (0, 2, 1))
    .add 122 (.tr 103 [0, 2, 1]) 1 1,
    -- 1746: del tmp58
    .del 103,
    -- 1747: tmp62 += np.transpose(tmp59, (0, 2, 1))
    .add 122 (.tr 107 [0, 2, 1]) 1 1,
    -- 1748: del tmp59
    .del 107,
    -- 1749: tmp62 += tmp61
    .add 122 (.cp 105) 1 1,
    -- 1750: del tmp61
    .del 105,
    -- 1751: tmp45 = np.copy(f.bb.oo)
    .set 123 (.cp 43) 1 1,
    -- 1752: tmp45 += np.transpose(ints.tmp122, (1, 0)) * 2
    .add 123 (.tr 44 [1, 0]) 2 1,
    -- 1753: del ints.tmp122
    .del 44,
    -- 1754: tmp45 += np.transpose(ints.tmp124, (1, 0))
    .add 123 (.tr 45 [1, 0]) 1 1,
    -- 1755: del ints.tmp124
    .del 45,
    -- 1756: tmp24 = np.copy(tmp21)
    .set 124 (.cp 110) 1 1,
    -- 1757: del tmp21
    .del 110,
    -- 1758: tmp24 += tmp22 * -2
    .add 124 (.cp 108) (-2) 1,
    -- 1759: del tmp22
    .del 108,
    -- 1760: tmp24 += tmp23
    .add 124 (.cp 109) 1 1,
    -- 1761: del tmp23
    .del 109,
    -- 1762: tmp42 = np.copy(ints.tmp16) * 2
    .set 125 (.cp 10) 2 1,
    -- 1763: del ints.tmp16
    .del 10,
    -- 1764: tmp42 += ints.tmp19
    .add 125 (.cp 9) 1 1,
    -- 1765: del ints.tmp19
    .del 9,
    -- 1766: tmp42 += v.bbb.xov
    .add 125 (.cp 0) 1 1,
    -- 1767: tmp43 = np.copy(ints.tmp113)
    .set 126 (.cp 46) 1 1,
    -- 1768: del ints.tmp113
    .del 46,
    -- 1769: tmp43 += np.transpose(ints.tmp128, (0, 2, 1, 3))
    .add 126 (.tr 47 [0, 2, 1, 3]) 1 1,
    -- 1770: del ints.tmp128
    .del 47,
    -- 1771: tmp43 += np.transpose(ints.tmp130, (0, 2, 1, 3)) * 2
    .add 126 (.tr 48 [0, 2, 1, 3]) 2 1,
    -- 1772: del ints.tmp130
    .del 48,
    -- 1773: tmp43 += ints.tmp3
    .add 126 (.cp 49) 1 1,
    -- 1774: tmp43 += ints.tmp107 * -1
    .add 126 (.cp 50) (-1) 1,
    -- 1775: del ints.tmp107
    .del 50,
    -- 1776: tmp43 += np.transpose(ints.tmp129, (0, 2, 1, 3)) * -1
    .add 126 (.tr 51 [0, 2, 1, 3]) (-1) 1,
    -- 1777: del ints.tmp129
    .del 51,
    -- 1778: tmp41 = np.copy(ints.tmp110)
    .set 127 (.cp 52) 1 1,
    -- 1779: del ints.tmp110
    .del 52,
    -- 1780: tmp41 += ints.tmp141 * -1
    .add 127 (.cp 53) (-1) 1,
    -- 1781: del ints.tmp141
    .del 53,
    -- 1782: tmp0 = np.copy(np.transpose(ints.tmp6, (1, 0))) * 2
    .set 128 (.tr 21 [1, 0]) 2 1,
    -- 1783: del ints.tmp6
    .del 21,
    -- 1784: tmp0 += np.transpose(ints.tmp9, (1, 0))
    .add 128 (.tr 22 [1, 0]) 1 1,
    -- 1785: del ints.tmp9
    .del 22,
    -- 1786: tmp0 += f.aa.vv * -1
    .add 128 (.cp 23) (-1) 1,
    -- 1787: tmp39 = einsum(r2.bab, (0, 1, 2), ints.tmp62, (3, 4, 1, 0), (3, 4, 2)) * -1
    .set 129 (.ein [(1, [0, 1, 2]), (30, [3, 4, 1, 0])] [3, 4, 2]) (-1) 1,
    -- 1788: tmp27 = einsum(ints.tmp62, (0, 1, 2, 3), r2.aba, (2, 3, 4), (0, 4, 1))
    .set 130 (.ein [(30, [0, 1, 2, 3]), (11, [2, 3, 4])] [0, 4, 1]) 1 1,
    -- 1789: del ints.tmp62
    .del 30,
    -- 1790: tmp33 = np.copy(ints.tmp5) * 2
    .set 131 (.cp 24) 2 1,
    -- 1791: del ints.tmp5
    .del 24,
    -- 1792: tmp33 += ints.tmp8
    .add 131 (.cp 25) 1 1,
    -- 1793: del ints.tmp8
    .del 25,
    -- 1794: tmp33 += v.baa.xov
    .add 131 (.cp 3) 1 1,
    -- 1795: tmp1 = np.copy(np.transpose(ints.tmp17, (1, 0))) * 2
    .set 132 (.tr 14 [1, 0]) 2 1,
    -- 1796: del ints.tmp17
    .del 14,
    -- 1797: tmp1 += np.transpose(ints.tmp20, (1, 0))
    .add 132 (.tr 15 [1, 0]) 1 1,
    -- 1798: del ints.tmp20
    .del 15,
    -- 1799: tmp1 += f.bb.vv * -1
    .add 132 (.cp 16) (-1) 1,
    -- 1800: tmp26 = np.copy(f.aa.ov)
    .set 133 (.cp 34) 1 1,
    -- 1801: tmp26 += ints.tmp22 * 2
    .add 133 (.cp 54) 2 1,
    -- 1802: del ints.tmp22
    .del 54,
    -- 1803: tmp26 += ints.tmp23
    .add 133 (.cp 55) 1 1,
    -- 1804: del ints.tmp23
    .del 55,
    -- 1805: tmp26 += ints.tmp69
    .add 133 (.cp 56) 1 1,
    -- 1806: del ints.tmp69
    .del 56,
    -- 1807: tmp26 += ints.tmp53 * -2
    .add 133 (.cp 57) (-2) 1,
    -- 1808: del ints.tmp53
    .del 57,
    -- 1809: tmp26 += ints.tmp55 * -1
    .add 133 (.cp 58) (-1) 1,
    -- 1810: del ints.tmp55
    .del 58,
    -- 1811: tmp26 += ints.tmp68 * -2
    .add 133 (.cp 59) (-2) 1,
    -- 1812: del ints.tmp68
    .del 59,
    -- 1813: tmp25 = np.copy(f.aa.oo)
    .set 134 (.cp 60) 1 1,
    -- 1814: tmp25 += np.transpose(ints.tmp70, (1, 0)) * 2
    .add 134 (.tr 61 [1, 0]) 2 1,
    -- 1815: del ints.tmp70
    .del 61,
    -- 1816: tmp25 += np.transpose(ints.tmp72, (1, 0))
    .add 134 (.tr 62 [1, 0]) 1 1,
    -- 1817: del ints.tmp72
    .del 62,
    -- 1818: tmp34 = np.copy(ints.tmp14)
    .set 135 (.cp 63) 1 1,
    -- 1819: tmp34 += ints.tmp82
    .add 135 (.cp 64) 1 1,
    -- 1820: del ints.tmp82
    .del 64,
    -- 1821: tmp34 += np.transpose(ints.tmp94, (0, 1, 3, 2))
    .add 135 (.tr 65 [0, 1, 3, 2]) 1 1,
    -- 1822: del ints.tmp94
    .del 65,
    -- 1823: tmp34 += np.transpose(ints.tmp96, (0, 1, 3, 2)) * 2
    .add 135 (.tr 66 [0, 1, 3, 2]) 2 1,
    -- 1824: del ints.tmp96
    .del 66,
    -- 1825: tmp34 += ints.tmp77 * -1
    .add 135 (.cp 67) (-1) 1,
    -- 1826: del ints.tmp77
    .del 67,
    -- 1827: tmp34 += np.transpose(ints.tmp95, (0, 1, 3, 2)) * -1
    .add 135 (.tr 68 [0, 1, 3, 2]) (-1) 1,
    -- 1828: del ints.tmp95
    .del 68,
    -- 1829: tmp29 = np.copy(ints.tmp105)
    .set 136 (.cp 69) 1 1,
    -- 1830: del ints.tmp105
    .del 69,
    -- 1831: tmp29 += ints.tmp80 * -1
    .add 136 (.cp 70) (-1) 1,
    -- 1832: del ints.tmp80
    .del 70,
    -- 1833: tmp28 = np.copy(ints.tmp38) * 2
    .set 137 (.cp 18) 2 1,
    -- 1834: del ints.tmp38
    .del 18,
    -- 1835: tmp28 += ints.tmp50
    .add 137 (.cp 17) 1 1,
    -- 1836: del ints.tmp50
    .del 17,
    -- 1837: tmp32 = np.copy(tmp30) * -0.5
    .set 138 (.cp 85) (-1) 2,
    -- 1838: del tmp30
    .del 85,
    -- 1839: tmp32 += tmp31
    .add 138 (.cp 83) 1 1,
    -- 1840: del tmp31
    .del 83,
    -- 1841: tmp2 = einsum(r2.aaa, (0, 1, 2), ints.tmp37, (3, 4, 1, 0), (3, 4, 2)) * -1
    .set 139 (.ein [(2, [0, 1, 2]), (33, [3, 4, 1, 0])] [3, 4, 2]) (-1) 1,
    -- 1842: del ints.tmp37
    .del 33,
    -- 1843: tmp20 = np.copy(tmp13)
    .set 140 (.cp 113) 1 1,
    -- 1844: del tmp13
    .del 113,
    -- 1845: tmp20 += np.transpose(tmp15, (0, 2, 1)) * -2
    .add 140 (.tr 111 [0, 2, 1]) (-2) 1,
    -- 1846: del tmp15
    .del 111,
    -- 1847: tmp20 += np.transpose(tmp17, (0, 2, 1))
    .add 140 (.tr 112 [0, 2, 1]) 1 1,
    -- 1848: del tmp17
    .del 112,
    -- 1849: tmp20 += tmp19
    .add 140 (.cp 114) 1 1,
    -- 1850: del tmp19
    .del 114,
    -- 1851: tmp12 = np.copy(tmp7)
    .set 141 (.cp 116) 1 1,
    -- 1852: del tmp7
    .del 116,
    -- 1853: tmp12 += np.transpose(tmp9, (0, 2, 1))
    .add 141 (.tr 115 [0, 2, 1]) 1 1,
    -- 1854: del tmp9
    .del 115,
    -- 1855: tmp12 += tmp11
    .add 141 (.cp 117) 1 1,
    -- 1856: del tmp11
    .del 117,
    -- 1857: r2new.bbb = einsum(ints.tmp165, (0, 1, 2, 3), r1.b, (3,), (2, 1, 0)) * 2
    .set 142 (.ein [(71, [0, 1, 2, 3]), (28, [3])] [2, 1, 0]) 2 1,
    -- 1858: del ints.tmp165
    .del 71,
    -- 1859: r2new.bbb += einsum(r2.bbb, (0, 1, 2), ints.tmp172, (3, 0, 4, 1), (3, 4, 2)) * -2
    .add 142 (.ein [(8, [0, 1, 2]), (72, [3, 0, 4, 1])] [3, 4, 2]) (-2) 1,
    -- 1860: del ints.tmp172
    .del 72,
    -- 1861: r2new.bbb += einsum(t2.bbbb, (0, 1, 2, 3), tmp47, (1, 0, 4), (2, 3, 4)) * -2
    .add 142 (.ein [(73, [0, 1, 2, 3]), (119, [1, 0, 4])] [2, 3, 4]) (-2) 1,
    -- 1862: del tmp47
    .del 119,
    -- 1863: r2new.bbb += np.transpose(tmp54, (1, 2, 0))
    .add 142 (.tr 118 [1, 2, 0]) 1 1,
    -- 1864: r2new.bbb += np.transpose(tmp54, (2, 1, 0)) * -1
    .add 142 (.tr 118 [2, 1, 0]) (-1) 1,
    -- 1865: del tmp54
    .del 118,
    -- 1866: r2new.bbb += np.transpose(tmp62, (1, 2, 0)) * -1
    .add 142 (.tr 122 [1, 2, 0]) (-1) 1,
    -- 1867: r2new.bbb += np.transpose(tmp62, (2, 1, 0))
    .add 142 (.tr 122 [2, 1, 0]) 1 1,
    -- 1868: del tmp62
    .del 122,
    -- 1869: r2new.bbb += einsum(tmp38, (0,), t2.bbbb, (1, 0, 2, 3), (2, 3, 1)) * -2
    .add 142 (.ein [(120, [0]), (73, [1, 0, 2, 3])] [2, 3, 1]) (-2) 1,
    -- 1870: r2new.bbb += einsum(r2.bbb, (0, 1, 2), tmp45, (2, 3), (0, 1, 3)) * -2
    .add 142 (.ein [(8, [0, 1, 2]), (123, [2, 3])] [0, 1, 3]) (-2) 1,
    -- 1871: r2new.bbb += einsum(tmp46, (0, 1), r1.b, (2,), (2, 1, 0))
    .add 142 (.ein [(121, [0, 1]), (28, [2])] [2, 1, 0]) 1 1,
    -- 1872: r2new.bbb += einsum(tmp46, (0, 1), r1.b, (2,), (1, 2, 0)) * -1
    .add 142 (.ein [(121, [0, 1]), (28, [2])] [1, 2, 0]) (-1) 1,
    -- 1873: r2new.bab = einsum(ints.tmp134, (0, 1, 2, 3), r2.aaa, (4, 2, 0), (3, 4, 1)) * 2
    .set 143 (.ein [(32, [0, 1, 2, 3]), (2, [4, 2, 0])] [3, 4, 1]) 2 1,
    -- 1874: del ints.tmp134
    .del 32,
    -- 1875: r2new.bab += einsum(t2.abab, (0, 1, 2, 3), tmp39, (0, 1, 4), (3, 2, 4)) * -1
    .add 143 (.ein [(74, [0, 1, 2, 3]), (129, [0, 1, 4])] [3, 2, 4]) (-1) 1,
    -- 1876: del tmp39
    .del 129,
    -- 1877: r2new.bab += einsum(r2.bab, (0, 1, 2), ints.tmp90, (3, 1, 4, 0), (4, 3, 2))
    .add 143 (.ein [(1, [0, 1, 2]), (75, [3, 1, 4, 0])] [4, 3, 2]) 1 1,
    -- 1878: r2new.bab += einsum(r2.bab, (0, 1, 2), tmp40, (3, 2, 4, 0), (4, 1, 3)) * -1
    .add 143 (.ein [(1, [0, 1, 2]), (81, [3, 2, 4, 0])] [4, 1, 3]) (-1) 1,
    -- 1879: del tmp40
    .del 81,
    -- 1880: r2new.bab += einsum(tmp41, (0, 1, 2, 3), r2.bab, (4, 3, 1), (4, 2, 0))
    .add 143 (.ein [(127, [0, 1, 2, 3]), (1, [4, 3, 1])] [4, 2, 0]) 1 1,
    -- 1881: del tmp41
    .del 127,
    -- 1882: r2new.bab += einsum(tmp42, (0, 1, 2), tmp5, (0, 3), (2, 3, 1)) * -2
    .add 143 (.ein [(125, [0, 1, 2]), (94, [0, 3])] [2, 3, 1]) (-2) 1,
    -- 1883: del tmp5, tmp42
    .del 94,
    .del 125,
    -- 1884: r2new.bab += einsum(r1.a, (0,), tmp43, (1, 2, 0, 3), (3, 2, 1)) * -1
    .add 143 (.ein [(35, [0]), (126, [1, 2, 0, 3])] [3, 2, 1]) (-1) 1,
    -- 1885: del tmp43
    .del 126,
    -- 1886: r2new.bab += einsum(tmp44, (0, 1), r2.bab, (0, 2, 3), (1, 2, 3)) * -2
    .add 143 (.ein [(88, [0, 1]), (1, [0, 2, 3])] [1, 2, 3]) (-2) 1,
    -- 1887: del tmp44
    .del 88,
    -- 1888: r2new.bab += einsum(r2.bab, (0, 1, 2), tmp0, (1, 3), (0, 3, 2)) * -1
    .add 143 (.ein [(1, [0, 1, 2]), (128, [1, 3])] [0, 3, 2]) (-1) 1,
    -- 1889: r2new.bab += einsum(tmp24, (0,), t2.abab, (0, 1, 2, 3), (3, 2, 1))
    .add 143 (.ein [(124, [0]), (74, [0, 1, 2, 3])] [3, 2, 1]) 1 1,
    -- 1890: r2new.bab += einsum(r2.bab, (0, 1, 2), tmp45, (2, 3), (0, 1, 3)) * -1
    .add 143 (.ein [(1, [0, 1, 2]), (123, [2, 3])] [0, 1, 3]) (-1) 1,
    -- 1891: del tmp45
    .del 123,
    -- 1892: r2new.bab += einsum(tmp46, (0, 1), r1.a, (2,), (1, 2, 0)) * -1
    .add 143 (.ein [(121, [0, 1]), (35, [2])] [1, 2, 0]) (-1) 1,
    -- 1893: del tmp46
    .del 121,
    -- 1894: r2new.aba = einsum(ints.tmp42, (0, 1, 2, 3), r2.bbb, (4, 3, 1), (2, 4, 0)) * 2
    .set 144 (.ein [(36, [0, 1, 2, 3]), (8, [4, 3, 1])] [2, 4, 0]) 2 1,
    -- 1895: del ints.tmp42
    .del 36,
    -- 1896: r2new.aba += einsum(tmp27, (0, 1, 2), t2.abab, (0, 2, 3, 4), (3, 4, 1))
    .add 144 (.ein [(130, [0, 1, 2]), (74, [0, 2, 3, 4])] [3, 4, 1]) 1 1,
    -- 1897: del tmp27
    .del 130,
    -- 1898: r2new.aba += einsum(ints.tmp90, (0, 1, 2, 3), r2.aba, (1, 3, 4), (0, 2, 4))
    .add 144 (.ein [(75, [0, 1, 2, 3]), (11, [1, 3, 4])] [0, 2, 4]) 1 1,
    -- 1899: del ints.tmp90
    .del 75,
    -- 1900: r2new.aba += einsum(r2.aba, (0, 1, 2), tmp28, (3, 2, 4, 0), (4, 1, 3)) * -1
    .add 144 (.ein [(11, [0, 1, 2]), (137, [3, 2, 4, 0])] [4, 1, 3]) (-1) 1,
    -- 1901: del tmp28
    .del 137,
    -- 1902: r2new.aba += einsum(r2.aba, (0, 1, 2), tmp29, (3, 2, 4, 1), (0, 4, 3)) * -1
    .add 144 (.ein [(11, [0, 1, 2]), (136, [3, 2, 4, 1])] [0, 4, 3]) (-1) 1,
    -- 1903: del tmp29
    .del 136,
    -- 1904: r2new.aba += einsum(tmp33, (0, 1, 2), tmp32, (0, 3), (2, 3, 1)) * -2
    .add 144 (.ein [(131, [0, 1, 2]), (138, [0, 3])] [2, 3, 1]) (-2) 1,
    -- 1905: del tmp33, tmp32
    .del 131,
    .del 138,
    -- 1906: r2new.aba += einsum(r1.b, (0,), tmp34, (1, 2, 3, 0), (2, 3, 1)) * -1
    .add 144 (.ein [(28, [0]), (135, [1, 2, 3, 0])] [2, 3, 1]) (-1) 1,
    -- 1907: del tmp34
    .del 135,
    -- 1908: r2new.aba += einsum(r2.aba, (0, 1, 2), tmp0, (0, 3), (3, 1, 2)) * -1
    .add 144 (.ein [(11, [0, 1, 2]), (128, [0, 3])] [3, 1, 2]) (-1) 1,
    -- 1909: r2new.aba += einsum(r2.aba, (0, 1, 2), tmp1, (1, 3), (0, 3, 2)) * -1
    .add 144 (.ein [(11, [0, 1, 2]), (132, [1, 3])] [0, 3, 2]) (-1) 1,
    -- 1910: r2new.aba += einsum(tmp38, (0,), t2.abab, (1, 0, 2, 3), (2, 3, 1)) * -1
    .add 144 (.ein [(120, [0]), (74, [1, 0, 2, 3])] [2, 3, 1]) (-1) 1,
    -- 1911: del tmp38
    .del 120,
    -- 1912: r2new.aba += einsum(r2.aba, (0, 1, 2), tmp25, (2, 3), (0, 1, 3)) * -1
    .add 144 (.ein [(11, [0, 1, 2]), (134, [2, 3])] [0, 1, 3]) (-1) 1,
    -- 1913: r2new.aba += einsum(tmp26, (0, 1), r1.b, (2,), (1, 2, 0)) * -1
    .add 144 (.ein [(133, [0, 1]), (28, [2])] [1, 2, 0]) (-1) 1,
    -- 1914: r2new.aaa = einsum(t2.aaaa, (0, 1, 2, 3), tmp2, (0, 1, 4), (2, 3, 4)) * 2
    .set 145 (.ein [(76, [0, 1, 2, 3]), (139, [0, 1, 4])] [2, 3, 4]) 2 1,
    -- 1915: del tmp2
    .del 139,
    -- 1916: r2new.aaa += einsum(r2.aaa, (0, 1, 2), ints.tmp66, (3, 1, 4, 0), (3, 4, 2)) * 2
    .add 145 (.ein [(2, [0, 1, 2]), (77, [3, 1, 4, 0])] [3, 4, 2]) 2 1,
    -- 1917: del ints.tmp66
    .del 77,
    -- 1918: r2new.aaa += einsum(r1.a, (0,), ints.tmp56, (1, 2, 3, 0), (3, 2, 1)) * 2
    .add 145 (.ein [(35, [0]), (78, [1, 2, 3, 0])] [3, 2, 1]) 2 1,
    -- 1919: del ints.tmp56
    .del 78,
    -- 1920: r2new.aaa += np.transpose(tmp12, (1, 2, 0)) * -1
    .add 145 (.tr 141 [1, 2, 0]) (-1) 1,
    -- 1921: r2new.aaa += np.transpose(tmp12, (2, 1, 0))
    .add 145 (.tr 141 [2, 1, 0]) 1 1,
    -- 1922: del tmp12
    .del 141,
    -- 1923: r2new.aaa += np.transpose(tmp20, (1, 2, 0))
    .add 145 (.tr 140 [1, 2, 0]) 1 1,
    -- 1924: r2new.aaa += np.transpose(tmp20, (2, 1, 0)) * -1
    .add 145 (.tr 140 [2, 1, 0]) (-1) 1,
    -- 1925: del tmp20
    .del 140,
    -- 1926: r2new.aaa += einsum(t2.aaaa, (0, 1, 2, 3), tmp24, (1,), (2, 3, 0)) * 2
    .add 145 (.ein [(76, [0, 1, 2, 3]), (124, [1])] [2, 3, 0]) 2 1,
    -- 1927: del tmp24
    .del 124,
    -- 1928: r2new.aaa += einsum(r2.aaa, (0, 1, 2), tmp25, (2, 3), (0, 1, 3)) * -2
    .add 145 (.ein [(2, [0, 1, 2]), (134, [2, 3])] [0, 1, 3]) (-2) 1,
    -- 1929: del tmp25
    .del 134,
    -- 1930: r2new.aaa += einsum(r1.a, (0,), tmp26, (1, 2), (0, 2, 1))
    .add 145 (.ein [(35, [0]), (133, [1, 2])] [0, 2, 1]) 1 1,
    -- 1931: r2new.aaa += einsum(r1.a, (0,), tmp26, (1, 2), (2, 0, 1)) * -1
    .add 145 (.ein [(35, [0]), (133, [1, 2])] [2, 0, 1]) (-1) 1,
    -- 1932: del tmp26
    .del 133,
    -- 1933: r1new.b = einsum(f.bb.ov, (0, 1), r2.bbb, (2, 1, 0), (2,)) * 2
    .set 146 (.ein [(31, [0, 1]), (8, [2, 1, 0])] [2]) 2 1,
    -- 1934: r1new.b += einsum(f.aa.ov, (0, 1), r2.aba, (1, 2, 0), (2,)) * -1
    .add 146 (.ein [(34, [0, 1]), (11, [1, 2, 0])] [2]) (-1) 1,
    -- 1935: r1new.b += einsum(ints.tmp12, (0, 1, 2, 3), r2.bbb, (3, 2, 0), (1,)) * -2
    .add 146 (.ein [(6, [0, 1, 2, 3]), (8, [3, 2, 0])] [1]) (-2) 1,
    -- 1936: del ints.tmp12
    .del 6,
    -- 1937: r1new.b += einsum(ints.tmp14, (0, 1, 2, 3), r2.aba, (1, 3, 0), (2,)) * -1
    .add 146 (.ein [(63, [0, 1, 2, 3]), (11, [1, 3, 0])] [2]) (-1) 1,
    -- 1938: del ints.tmp14
    .del 63,
    -- 1939: r1new.b += einsum(r1.b, (0,), tmp1, (0, 1), (1,)) * -1
    .add 146 (.ein [(28, [0]), (132, [0, 1])] [1]) (-1) 1,
    -- 1940: del tmp1
    .del 132,
    -- 1941: r1new.a = einsum(r2.aaa, (0, 1, 2), f.aa.ov, (2, 1), (0,)) * 2
    .set 147 (.ein [(2, [0, 1, 2]), (34, [2, 1])] [0]) 2 1,
    -- 1942: r1new.a += einsum(r2.bab, (0, 1, 2), f.bb.ov, (2, 0), (1,)) * -1
    .add 147 (.ein [(1, [0, 1, 2]), (31, [2, 0])] [1]) (-1) 1,
    -- 1943: r1new.a += einsum(ints.tmp1, (0, 1, 2, 3), r2.aaa, (3, 2, 0), (1,)) * -2
    .add 147 (.ein [(19, [0, 1, 2, 3]), (2, [3, 2, 0])] [1]) (-2) 1,
    -- 1944: del ints.tmp1
    .del 19,
    -- 1945: r1new.a += einsum(r2.bab, (0, 1, 2), ints.tmp3, (2, 3, 1, 0), (3,)) * -1
    .add 147 (.ein [(1, [0, 1, 2]), (49, [2, 3, 1, 0])] [3]) (-1) 1,
    -- 1946: del ints.tmp3
    .del 49,
    -- 1947: r1new.a += einsum(r1.a, (0,), tmp0, (0, 1), (1,)) * -1
    .add 147 (.ein [(35, [0]), (128, [0, 1])] [1]) (-1) 1,
    -- 1948: del tmp0
    .del 128
  ]
  ret := [(chars! "r1new.b", 146), (chars! "r1new.a", 147), (chars! "r2new.bbb", 142), (chars! "r2new.bab", 143), (chars! "r2new.aba", 144), (chars! "r2new.aaa", 145)]

/-- codegen/UDFCCD.py:2473-2623 `hbar_lmatvec_ea_intermediates`. -/
def hbar_lmatvec_ea_intermediates : GenFun where
  args := [chars! "v.bbb.xov", chars! "v.baa.xov", chars! "t2.abab", chars! "t2.bbbb", chars! "t2.aaaa", chars! "v.baa.xvv", chars! "v.bbb.xvv", chars! "v.baa.xoo", chars! "v.bbb.xoo", chars! "f.bb.ov", chars! "f.aa.ov"]
  body := [
    -- 2552: tmp146 = einsum(v.bbb.xov, (0, 1, 2), v.baa.xov, (0, 3, 4), (3, 1, 4, 2))
    .set 11 (.ein [(0, [0, 1, 2]), (1, [0, 3, 4])] [3, 1, 4, 2]) 1 1,
    -- 2553: tmp165 = einsum(v.bbb.xov, (0, 1, 2), v.bbb.xov, (0, 3, 4), (3, 1, 4, 2))
    .set 12 (.ein [(0, [0, 1, 2]), (0, [0, 3, 4])] [3, 1, 4, 2]) 1 1,
    -- 2554: tmp43 = einsum(t2.abab, (0, 1, 2, 3), v.baa.xov, (4, 0, 2), (4, 1, 3))
    .set 13 (.ein [(2, [0, 1, 2, 3]), (1, [4, 0, 2])] [4, 1, 3]) 1 1,
    -- 2555: tmp40 = einsum(t2.bbbb, (0, 1, 2, 3), v.bbb.xov, (4, 1, 3), (4, 0, 2))
    .set 14 (.ein [(3, [0, 1, 2, 3]), (0, [4, 1, 3])] [4, 0, 2]) 1 1,
    -- 2556: tmp110 = einsum(v.baa.xov, (0, 1, 2), v.baa.xov, (0, 3, 4), (3, 1, 4, 2))
    .set 15 (.ein [(1, [0, 1, 2]), (1, [0, 3, 4])] [3, 1, 4, 2]) 1 1,
    -- 2557: tmp19 = einsum(t2.abab, (0, 1, 2, 3), v.bbb.xov, (4, 1, 3), (4, 0, 2))
    .set 16 (.ein [(2, [0, 1, 2, 3]), (0, [4, 1, 3])] [4, 0, 2]) 1 1,
    -- 2558: tmp16 = einsum(v.baa.xov, (0, 1, 2), t2.aaaa, (3, 1, 4, 2), (0, 3, 4))
    .set 17 (.ein [(1, [0, 1, 2]), (4, [3, 1, 4, 2])] [0, 3, 4]) 1 1,
    -- 2559: tmp14 = einsum(v.bbb.xov, (0, 1, 2), v.baa.xvv, (0, 3, 4), (1, 3, 4, 2))
    .set 18 (.ein [(0, [0, 1, 2]), (5, [0, 3, 4])] [1, 3, 4, 2]) 1 1,
    -- 2560: tmp68 = einsum(v.bbb.xov, (0, 1, 2), v.bbb.xvv, (0, 3, 4), (1, 3, 4, 2))
    .set 19 (.ein [(0, [0, 1, 2]), (6, [0, 3, 4])] [1, 3, 4, 2]) 1 1,
    -- 2561: tmp31 = einsum(v.bbb.xov, (0, 1, 2), v.baa.xoo, (0, 3, 4), (3, 4, 1, 2))
    .set 20 (.ein [(0, [0, 1, 2]), (7, [0, 3, 4])] [3, 4, 1, 2]) 1 1,
    -- 2562: tmp25 = einsum(v.bbb.xov, (0, 1, 2), v.bbb.xoo, (0, 3, 4), (3, 4, 1, 2))
    .set 21 (.ein [(0, [0, 1, 2]), (8, [0, 3, 4])] [3, 4, 1, 2]) 1 1,
    -- 2563: tmp58 = einsum(v.baa.xov, (0, 1, 2), v.bbb.xvv, (0, 3, 4), (1, 2, 3, 4))
    .set 22 (.ein [(1, [0, 1, 2]), (6, [0, 3, 4])] [1, 2, 3, 4]) 1 1,
    -- 2564: tmp12 = einsum(v.baa.xvv, (0, 1, 2), v.baa.xov, (0, 3, 4), (3, 1, 2, 4))
    .set 23 (.ein [(5, [0, 1, 2]), (1, [0, 3, 4])] [3, 1, 2, 4]) 1 1,
    -- 2565: tmp28 = einsum(v.baa.xov, (0, 1, 2), v.bbb.xoo, (0, 3, 4), (1, 3, 4, 2))
    .set 24 (.ein [(1, [0, 1, 2]), (8, [0, 3, 4])] [1, 3, 4, 2]) 1 1,
    -- 2566: tmp22 = einsum(v.baa.xov, (0, 1, 2), v.baa.xoo, (0, 3, 4), (3, 4, 1, 2))
    .set 25 (.ein [(1, [0, 1, 2]), (7, [0, 3, 4])] [3, 4, 1, 2]) 1 1,
    -- 2567: tmp200 = einsum(v.bbb.xvv, (0, 1, 2), v.bbb.xvv, (0, 3, 4), (3, 1, 2, 4))
    .set 26 (.ein [(6, [0, 1, 2]), (6, [0, 3, 4])] [3, 1, 2, 4]) 1 1,
    -- 2568: tmp183 = einsum(t2.abab, (0, 1, 2, 3), tmp146, (0, 4, 5, 3), (1, 4, 2, 5))
    .set 27 (.ein [(2, [0, 1, 2, 3]), (11, [0, 4, 5, 3])] [1, 4, 2, 5]) 1 1,
    -- 2569: tmp182 = einsum(v.baa.xvv, (0, 1, 2), v.bbb.xoo, (0, 3, 4), (3, 4, 1, 2))
    .set 28 (.ein [(5, [0, 1, 2]), (8, [0, 3, 4])] [3, 4, 1, 2]) 1 1,
    -- 2570: tmp168 = einsum(tmp165, (0, 1, 2, 3), t2.bbbb, (4, 1, 5, 2), (4, 0, 5, 3))
    .set 29 (.ein [(12, [0, 1, 2, 3]), (3, [4, 1, 5, 2])] [4, 0, 5, 3]) 1 1,
    -- 2571: tmp166 = einsum(t2.abab, (0, 1, 2, 3), tmp165, (4, 1, 3, 5), (0, 4, 2, 5))
    .set 30 (.ein [(2, [0, 1, 2, 3]), (12, [4, 1, 3, 5])] [0, 4, 2, 5]) 1 1,
    -- 2572: tmp163 = einsum(v.bbb.xov, (0, 1, 2), tmp43, (0, 3, 2), (3, 1))
    .set 31 (.ein [(0, [0, 1, 2]), (13, [0, 3, 2])] [3, 1]) 1 1,
    -- 2573: tmp161 = einsum(v.bbb.xov, (0, 1, 2), tmp40, (0, 3, 2), (3, 1))
    .set 32 (.ein [(0, [0, 1, 2]), (14, [0, 3, 2])] [3, 1]) 1 1,
    -- 2574: tmp159 = einsum(v.bbb.xoo, (0, 1, 2), v.bbb.xvv, (0, 3, 4), (1, 2, 3, 4))
    .set 33 (.ein [(8, [0, 1, 2]), (6, [0, 3, 4])] [1, 2, 3, 4]) 1 1,
    -- 2575: tmp158 = einsum(t2.abab, (0, 1, 2, 3), tmp146, (4, 1, 2, 5), (0, 4, 3, 5))
    .set 34 (.ein [(2, [0, 1, 2, 3]), (11, [4, 1, 2, 5])] [0, 4, 3, 5]) 1 1,
    -- 2576: tmp157 = einsum(v.baa.xoo, (0, 1, 2), v.bbb.xvv, (0, 3, 4), (1, 2, 3, 4))
    .set 35 (.ein [(7, [0, 1, 2]), (6, [0, 3, 4])] [1, 2, 3, 4]) 1 1,
    -- 2577: tmp149 = einsum(v.baa.xvv, (0, 1, 2), v.bbb.xvv, (0, 3, 4), (1, 2, 3, 4))
    .set 36 (.ein [(5, [0, 1, 2]), (6, [0, 3, 4])] [1, 2, 3, 4]) 1 1,
    -- 2578: tmp126 = einsum(v.baa.xvv, (0, 1, 2), v.baa.xvv, (0, 3, 4), (1, 3, 4, 2))
    .set 37 (.ein [(5, [0, 1, 2]), (5, [0, 3, 4])] [1, 3, 4, 2]) 1 1,
    -- 2579: tmp113 = einsum(t2.abab, (0, 1, 2, 3), tmp110, (4, 0, 2, 5), (4, 1, 5, 3))
    .set 38 (.ein [(2, [0, 1, 2, 3]), (15, [4, 0, 2, 5])] [4, 1, 5, 3]) 1 1,
    -- 2580: tmp111 = einsum(tmp110, (0, 1, 2, 3), t2.aaaa, (4, 1, 5, 2), (4, 0, 5, 3))
    .set 39 (.ein [(15, [0, 1, 2, 3]), (4, [4, 1, 5, 2])] [4, 0, 5, 3]) 1 1,
    -- 2581: tmp108 = einsum(tmp19, (0, 1, 2), v.baa.xov, (0, 3, 2), (1, 3))
    .set 40 (.ein [(16, [0, 1, 2]), (1, [0, 3, 2])] [1, 3]) 1 1,
    -- 2582: tmp106 = einsum(tmp16, (0, 1, 2), v.baa.xov, (0, 3, 2), (1, 3))
    .set 41 (.ein [(17, [0, 1, 2]), (1, [0, 3, 2])] [1, 3]) 1 1,
    -- 2583: tmp102 = einsum(v.baa.xvv, (0, 1, 2), v.baa.xoo, (0, 3, 4), (3, 4, 1, 2))
    .set 42 (.ein [(5, [0, 1, 2]), (7, [0, 3, 4])] [3, 4, 1, 2]) 1 1,
    -- 2584: tmp97 = einsum(tmp14, (0, 1, 2, 3), t2.abab, (4, 0, 1, 5), (4, 2, 5, 3))
    .set 43 (.ein [(18, [0, 1, 2, 3]), (2, [4, 0, 1, 5])] [4, 2, 5, 3]) 1 1,
    -- 2585: tmp95 = einsum(tmp43, (0, 1, 2), v.bbb.xvv, (0, 3, 4), (1, 2, 3, 4))
    .set 44 (.ein [(13, [0, 1, 2]), (6, [0, 3, 4])] [1, 2, 3, 4]) 1 1,
    -- 2586: tmp93 = einsum(tmp16, (0, 1, 2), v.bbb.xvv, (0, 3, 4), (1, 2, 3, 4))
    .set 45 (.ein [(17, [0, 1, 2]), (6, [0, 3, 4])] [1, 2, 3, 4]) 1 1,
    -- 2587: tmp91 = einsum(tmp68, (0, 1, 2, 3), t2.bbbb, (4, 0, 5, 2), (4, 5, 3, 1))
    .set 46 (.ein [(19, [0, 1, 2, 3]), (3, [4, 0, 5, 2])] [4, 5, 3, 1]) 1 1,
    -- 2588: tmp90 = einsum(tmp68, (0, 1, 2, 3), t2.abab, (4, 0, 5, 1), (4, 5, 3, 2))
    .set 47 (.ein [(19, [0, 1, 2, 3]), (2, [4, 0, 5, 1])] [4, 5, 3, 2]) 1 1,
    -- 2589: tmp88 = einsum(tmp40, (0, 1, 2), v.bbb.xvv, (0, 3, 4), (1, 2, 3, 4))
    .set 48 (.ein [(14, [0, 1, 2]), (6, [0, 3, 4])] [1, 2, 3, 4]) 1 1,
    -- 2590: tmp87 = einsum(tmp19, (0, 1, 2), v.bbb.xvv, (0, 3, 4), (1, 2, 3, 4))
    .set 49 (.ein [(16, [0, 1, 2]), (6, [0, 3, 4])] [1, 2, 3, 4]) 1 1,
    -- 2591: tmp81 = einsum(tmp31, (0, 1, 2, 3), t2.abab, (0, 2, 4, 5), (1, 4, 5, 3))
    .set 50 (.ein [(20, [0, 1, 2, 3]), (2, [0, 2, 4, 5])] [1, 4, 5, 3]) 1 1,
    -- 2592: tmp79 = einsum(t2.bbbb, (0, 1, 2, 3), tmp25, (0, 4, 1, 5), (4, 2, 3, 5))
    .set 51 (.ein [(3, [0, 1, 2, 3]), (21, [0, 4, 1, 5])] [4, 2, 3, 5]) 1 1,
    -- 2593: tmp73 = einsum(v.bbb.xov, (0, 1, 2), tmp43, (0, 1, 3), (3, 2))
    .set 52 (.ein [(0, [0, 1, 2]), (13, [0, 1, 3])] [3, 2]) 1 1,
    -- 2594: tmp71 = einsum(v.bbb.xov, (0, 1, 2), tmp40, (0, 1, 3), (3, 2))
    .set 53 (.ein [(0, [0, 1, 2]), (14, [0, 1, 3])] [3, 2]) 1 1,
    -- 2595: tmp59 = einsum(tmp58, (0, 1, 2, 3), t2.abab, (0, 4, 5, 2), (4, 5, 1, 3))
    .set 54 (.ein [(22, [0, 1, 2, 3]), (2, [0, 4, 5, 2])] [4, 5, 1, 3]) 1 1,
    -- 2596: tmp56 = einsum(tmp40, (0, 1, 2), v.baa.xvv, (0, 3, 4), (1, 3, 4, 2))
    .set 55 (.ein [(14, [0, 1, 2]), (5, [0, 3, 4])] [1, 3, 4, 2]) 1 1,
    -- 2597: tmp54 = einsum(tmp19, (0, 1, 2), v.baa.xvv, (0, 3, 4), (1, 2, 3, 4))
    .set 56 (.ein [(16, [0, 1, 2]), (5, [0, 3, 4])] [1, 2, 3, 4]) 1 1,
    -- 2598: tmp53 = einsum(tmp12, (0, 1, 2, 3), t2.abab, (0, 4, 2, 5), (4, 3, 1, 5))
    .set 57 (.ein [(23, [0, 1, 2, 3]), (2, [0, 4, 2, 5])] [4, 3, 1, 5]) 1 1,
    -- 2599: tmp51 = einsum(tmp12, (0, 1, 2, 3), t2.aaaa, (4, 0, 5, 1), (4, 5, 3, 2))
    .set 58 (.ein [(23, [0, 1, 2, 3]), (4, [4, 0, 5, 1])] [4, 5, 3, 2]) 1 1,
    -- 2600: tmp50 = einsum(tmp43, (0, 1, 2), v.baa.xvv, (0, 3, 4), (1, 3, 4, 2))
    .set 59 (.ein [(13, [0, 1, 2]), (5, [0, 3, 4])] [1, 3, 4, 2]) 1 1,
    -- 2601: tmp48 = einsum(v.baa.xvv, (0, 1, 2), tmp16, (0, 3, 4), (3, 4, 1, 2))
    .set 60 (.ein [(5, [0, 1, 2]), (17, [0, 3, 4])] [3, 4, 1, 2]) 1 1,
    -- 2602: tmp46 = einsum(tmp19, (0, 1, 2), v.baa.xvv, (0, 3, 2), (1, 3))
    .set 61 (.ein [(16, [0, 1, 2]), (5, [0, 3, 2])] [1, 3]) 1 1,
    -- 2603: tmp44 = einsum(v.bbb.xvv, (0, 1, 2), tmp43, (0, 3, 2), (3, 1))
    .set 62 (.ein [(6, [0, 1, 2]), (13, [0, 3, 2])] [3, 1]) 1 1,
    -- 2604: tmp41 = einsum(v.bbb.xvv, (0, 1, 2), tmp40, (0, 3, 2), (3, 1)) * -1
    .set 63 (.ein [(6, [0, 1, 2]), (14, [0, 3, 2])] [3, 1]) (-1) 1,
    -- 2605: tmp38 = einsum(tmp16, (0, 1, 2), v.baa.xvv, (0, 3, 2), (1, 3)) * -1
    .set 64 (.ein [(17, [0, 1, 2]), (5, [0, 3, 2])] [1, 3]) (-1) 1,
    -- 2606: tmp36 = einsum(tmp28, (0, 1, 2, 3), t2.abab, (0, 1, 4, 5), (2, 4, 3, 5))
    .set 65 (.ein [(24, [0, 1, 2, 3]), (2, [0, 1, 4, 5])] [2, 4, 3, 5]) 1 1,
    -- 2607: tmp34 = einsum(t2.aaaa, (0, 1, 2, 3), tmp22, (0, 4, 1, 5), (4, 2, 3, 5))
    .set 66 (.ein [(4, [0, 1, 2, 3]), (25, [0, 4, 1, 5])] [4, 2, 3, 5]) 1 1,
    -- 2608: tmp32 = einsum(tmp31, (0, 1, 2, 3), t2.abab, (0, 2, 4, 3), (1, 4))
    .set 67 (.ein [(20, [0, 1, 2, 3]), (2, [0, 2, 4, 3])] [1, 4]) 1 1,
    -- 2609: del tmp31
    .del 20,
    -- 2610: tmp29 = einsum(tmp28, (0, 1, 2, 3), t2.abab, (0, 1, 3, 4), (2, 4))
    .set 68 (.ein [(24, [0, 1, 2, 3]), (2, [0, 1, 3, 4])] [2, 4]) 1 1,
    -- 2611: del tmp28
    .del 24,
    -- 2612: tmp26 = einsum(t2.bbbb, (0, 1, 2, 3), tmp25, (0, 4, 1, 3), (4, 2))
    .set 69 (.ein [(3, [0, 1, 2, 3]), (21, [0, 4, 1, 3])] [4, 2]) 1 1,
    -- 2613: del tmp25
    .del 21,
    -- 2614: tmp23 = einsum(tmp22, (0, 1, 2, 3), t2.aaaa, (0, 2, 4, 3), (1, 4))
    .set 70 (.ein [(25, [0, 1, 2, 3]), (4, [0, 2, 4, 3])] [1, 4]) 1 1,
    -- 2615: del tmp22
    .del 25,
    -- 2616: tmp20 = einsum(tmp19, (0, 1, 2), v.baa.xov, (0, 1, 3), (2, 3))
    .set 71 (.ein [(16, [0, 1, 2]), (1, [0, 1, 3])] [2, 3]) 1 1,
    -- 2617: tmp17 = einsum(tmp16, (0, 1, 2), v.baa.xov, (0, 1, 3), (2, 3))
    .set 72 (.ein [(17, [0, 1, 2]), (1, [0, 1, 3])] [2, 3]) 1 1,
    -- 2618: tmp6 = einsum(t2.bbbb, (0, 1, 2, 3), f.bb.ov, (1, 3), (0, 2))
    .set 73 (.ein [(3, [0, 1, 2, 3]), (9, [1, 3])] [0, 2]) 1 1,
    -- 2619: tmp4 = einsum(t2.abab, (0, 1, 2, 3), f.bb.ov, (1, 3), (0, 2))
    .set 74 (.ein [(2, [0, 1, 2, 3]), (9, [1, 3])] [0, 2]) 1 1,
    -- 2620: tmp3 = einsum(t2.abab, (0, 1, 2, 3), f.aa.ov, (0, 2), (1, 3))
    .set 75 (.ein [(2, [0, 1, 2, 3]), (10, [0, 2])] [1, 3]) 1 1,
    -- 2621: tmp1 = einsum(f.aa.ov, (0, 1), t2.aaaa, (2, 0, 3, 1), (2, 3))
    .set 76 (.ein [(10, [0, 1]), (4, [2, 0, 3, 1])] [2, 3]) 1 1
  ]
  ret := [(chars! "tmp1", 76), (chars! "tmp102", 42), (chars! "tmp106", 41), (chars! "tmp108", 40), (chars! "tmp110", 15), (chars! "tmp111", 39), (chars! "tmp113", 38), (chars! "tmp12", 23), (chars! "tmp126", 37), (chars! "tmp14", 18), (chars! "tmp146", 11), (chars! "tmp149", 36), (chars! "tmp157", 35), (chars! "tmp158", 34), (chars! "tmp159", 33), (chars! "tmp16", 17), (chars! "tmp161", 32), (chars! "tmp163", 31), (chars! "tmp165", 12), (chars! "tmp166", 30), (chars! "tmp168", 29), (chars! "tmp17", 72), (chars! "tmp182", 28), (chars! "tmp183", 27), (chars! "tmp19", 16), (chars! "tmp20", 71), (chars! "tmp200", 26), (chars! "tmp23", 70), (chars! "tmp26", 69), (chars! "tmp29", 68), (chars! "tmp3", 75), (chars! "tmp32", 67), (chars! "tmp34", 66), (chars! "tmp36", 65), (chars! "tmp38", 64), (chars! "tmp4", 74), (chars! "tmp40", 14), (chars! "tmp41", 63), (chars! "tmp43", 13), (chars! "tmp44", 62), (chars! "tmp46", 61), (chars! "tmp48", 60), (chars! "tmp50", 59), (chars! "tmp51", 58), (chars! "tmp53", 57), (chars! "tmp54", 56), (chars! "tmp56", 55), (chars! "tmp58", 22), (chars! "tmp59", 54), (chars! "tmp6", 73), (chars! "tmp68", 19), (chars! "tmp71", 53), (chars! "tmp73", 52), (chars! "tmp79", 51), (chars! "tmp81", 50), (chars! "tmp87", 49), (chars! "tmp88", 48), (chars! "tmp90", 47), (chars! "tmp91", 46), (chars! "tmp93", 45), (chars! "tmp95", 44), (chars! "tmp97", 43)]

/-- codegen/UDFCCD.py:2625-2946 `hbar_lmatvec_ea`. -/
def hbar_lmatvec_ea : GenFun where
  args := [chars! "ints.tmp43", chars! "v.bbb.xov", chars! "ints.tmp40", chars! "ints.tmp19", chars! "v.baa.xov", chars! "ints.tmp16", chars! "r2.bbb", chars! "t2.bbbb", chars! "t2.abab", chars! "r2.aba", chars! "r2.bab", chars! "r2.aaa", chars! "ints.tmp159", chars! "ints.tmp168", chars! "ints.tmp71", chars! "ints.tmp73", chars! "f.bb.vv", chars! "ints.tmp102", chars! "ints.tmp111", chars! "ints.tmp17", chars! "ints.tmp20", chars! "f.aa.vv", chars! "t2.aaaa", chars! "ints.tmp68", chars! "r1.b", chars! "ints.tmp165", chars! "ints.tmp166", chars! "ints.tmp113", chars! "r1.a", chars! "ints.tmp12", chars! "ints.tmp110", chars! "f.bb.oo", chars! "ints.tmp161", chars! "ints.tmp163", chars! "f.bb.ov", chars! "ints.tmp182", chars! "ints.tmp183", chars! "f.aa.oo", chars! "ints.tmp106", chars! "ints.tmp108", chars! "ints.tmp157", chars! "ints.tmp158", chars! "f.aa.ov", chars! "ints.tmp79", chars! "ints.tmp88", chars! "ints.tmp95", chars! "ints.tmp91", chars! "ints.tmp1", chars! "ints.tmp46", chars! "ints.tmp4", chars! "ints.tmp23", chars! "ints.tmp32", chars! "ints.tmp38", chars! "ints.tmp58", chars! "ints.tmp81", chars! "ints.tmp87", chars! "ints.tmp93", chars! "ints.tmp90", chars! "ints.tmp97", chars! "ints.tmp3", chars! "ints.tmp44", chars! "ints.tmp6", chars! "ints.tmp26", chars! "ints.tmp29", chars! "ints.tmp41", chars! "ints.tmp34", chars! "ints.tmp48", chars! "ints.tmp54", chars! "ints.tmp51", chars! "ints.tmp14", chars! "ints.tmp36", chars! "ints.tmp50", chars! "ints.tmp56", chars! "ints.tmp53", chars! "ints.tmp59", chars! "ints.tmp200", chars! "ints.tmp146", chars! "ints.tmp149", chars! "ints.tmp126"]
  body := [
    -- 2653: tmp22 = np.copy(ints.tmp43)
    .set 79 (.cp 0) 1 1,
    -- 2654: tmp22 += v.bbb.xov
    .add 79 (.cp 1) 1 1,
    -- 2655: tmp22 += ints.tmp40 * 2
    .add 79 (.cp 2) 2 1,
    -- 2656: tmp20 = np.copy(ints.tmp19)
    .set 80 (.cp 3) 1 1,
    -- 2657: tmp20 += v.baa.xov
    .add 80 (.cp 4) 1 1,
    -- 2658: tmp20 += ints.tmp16 * 2
    .add 80 (.cp 5) 2 1,
    -- 2659: tmp12 = einsum(r2.bbb, (0, 1, 2), t2.bbbb, (3, 2, 0, 1), (3,))
    .set 81 (.ein [(6, [0, 1, 2]), (7, [3, 2, 0, 1])] [3]) 1 1,
    -- 2660: tmp11 = einsum(t2.abab, (0, 1, 2, 3), r2.aba, (2, 3, 0), (1,))
    .set 82 (.ein [(8, [0, 1, 2, 3]), (9, [2, 3, 0])] [1]) 1 1,
    -- 2661: tmp34 = np.copy(ints.tmp16) * 2
    .set 83 (.cp 5) 2 1,
    -- 2662: del ints.tmp16
    .del 5,
    -- 2663: tmp34 += ints.tmp19
    .add 83 (.cp 3) 1 1,
    -- 2664: del ints.tmp19
    .del 3,
    -- 2665: tmp34 += v.baa.xov
    .add 83 (.cp 4) 1 1,
    -- 2666: tmp23 = einsum(tmp22, (0, 1, 2), r2.bab, (2, 3, 1), (0, 3)) * -1
    .set 84 (.ein [(79, [0, 1, 2]), (10, [2, 3, 1])] [0, 3]) (-1) 1,
    -- 2667: tmp21 = einsum(tmp20, (0, 1, 2), r2.aaa, (3, 2, 1), (0, 3)) * -1
    .set 85 (.ein [(80, [0, 1, 2]), (11, [3, 2, 1])] [0, 3]) (-1) 1,
    -- 2668: del tmp20
    .del 80,
    -- 2669: tmp39 = np.copy(ints.tmp159)
    .set 86 (.cp 12) 1 1,
    -- 2670: del ints.tmp159
    .del 12,
    -- 2671: tmp39 += np.transpose(ints.tmp168, (1, 0, 3, 2)) * 2
    .add 86 (.tr 13 [1, 0, 3, 2]) 2 1,
    -- 2672: del ints.tmp168
    .del 13,
    -- 2673: tmp53 = einsum(r2.bbb, (0, 1, 2), tmp22, (3, 2, 1), (3, 0)) * -1
    .set 87 (.ein [(6, [0, 1, 2]), (79, [3, 2, 1])] [3, 0]) (-1) 1,
    -- 2674: del tmp22
    .del 79,
    -- 2675: tmp37 = np.copy(tmp11) * -0.5
    .set 88 (.cp 82) (-1) 2,
    -- 2676: tmp37 += tmp12
    .add 88 (.cp 81) 1 1,
    -- 2677: tmp46 = einsum(tmp34, (0, 1, 2), r2.aba, (2, 3, 1), (0, 3))
    .set 89 (.ein [(83, [0, 1, 2]), (9, [2, 3, 1])] [0, 3]) 1 1,
    -- 2678: tmp42 = np.copy(ints.tmp71)
    .set 90 (.cp 14) 1 1,
    -- 2679: tmp42 += ints.tmp73 * 0.5
    .add 90 (.cp 15) 1 2,
    -- 2680: tmp42 += f.bb.vv * -0.5
    .add 90 (.cp 16) (-1) 2,
    -- 2681: tmp24 = np.copy(tmp21) * -2
    .set 91 (.cp 85) (-2) 1,
    -- 2682: del tmp21
    .del 85,
    -- 2683: tmp24 += tmp23
    .add 91 (.cp 84) 1 1,
    -- 2684: del tmp23
    .del 84,
    -- 2685: tmp18 = np.copy(ints.tmp102)
    .set 92 (.cp 17) 1 1,
    -- 2686: tmp18 += np.transpose(ints.tmp111, (1, 0, 3, 2)) * 2
    .add 92 (.tr 18 [1, 0, 3, 2]) 2 1,
    -- 2687: tmp6 = einsum(t2.abab, (0, 1, 2, 3), r2.bab, (3, 2, 1), (0,)) * -1
    .set 93 (.ein [(8, [0, 1, 2, 3]), (10, [3, 2, 1])] [0]) (-1) 1,
    -- 2688: tmp4 = np.copy(ints.tmp17) * 2
    .set 94 (.cp 19) 2 1,
    -- 2689: del ints.tmp17
    .del 19,
    -- 2690: tmp4 += ints.tmp20
    .add 94 (.cp 20) 1 1,
    -- 2691: del ints.tmp20
    .del 20,
    -- 2692: tmp4 += f.aa.vv * -1
    .add 94 (.cp 21) (-1) 1,
    -- 2693: tmp5 = einsum(t2.aaaa, (0, 1, 2, 3), r2.aaa, (2, 3, 1), (0,))
    .set 95 (.ein [(22, [0, 1, 2, 3]), (11, [2, 3, 1])] [0]) 1 1,
    -- 2694: tmp52 = einsum(r2.bbb, (0, 1, 2), tmp39, (3, 2, 4, 1), (3, 0, 4)) * -1
    .set 96 (.ein [(6, [0, 1, 2]), (86, [3, 2, 4, 1])] [3, 0, 4]) (-1) 1,
    -- 2695: tmp51 = einsum(ints.tmp68, (0, 1, 2, 3), r1.b, (2,), (0, 1, 3))
    .set 97 (.ein [(23, [0, 1, 2, 3]), (24, [2])] [0, 1, 3]) 1 1,
    -- 2696: tmp54 = einsum(tmp53, (0, 1), v.bbb.xov, (0, 2, 3), (2, 3, 1)) * -1
    .set 98 (.ein [(87, [0, 1]), (1, [0, 2, 3])] [2, 3, 1]) (-1) 1,
    -- 2697: del tmp53
    .del 87,
    -- 2698: tmp49 = einsum(tmp37, (0,), ints.tmp165, (1, 0, 2, 3), (1, 2, 3)) * 2
    .set 99 (.ein [(88, [0]), (25, [1, 0, 2, 3])] [1, 2, 3]) 2 1,
    -- 2699: tmp47 = einsum(tmp46, (0, 1), v.bbb.xov, (0, 2, 3), (2, 3, 1))
    .set 100 (.ein [(89, [0, 1]), (1, [0, 2, 3])] [2, 3, 1]) 1 1,
    -- 2700: del tmp46
    .del 89,
    -- 2701: tmp48 = einsum(tmp42, (0, 1), r2.bbb, (2, 0, 3), (3, 2, 1)) * -4
    .set 101 (.ein [(90, [0, 1]), (6, [2, 0, 3])] [3, 2, 1]) (-4) 1,
    -- 2702: tmp45 = einsum(ints.tmp166, (0, 1, 2, 3), r2.aba, (2, 4, 0), (1, 3, 4))
    .set 102 (.ein [(26, [0, 1, 2, 3]), (9, [2, 4, 0])] [1, 3, 4]) 1 1,
    -- 2703: tmp35 = np.copy(ints.tmp40) * 2
    .set 103 (.cp 2) 2 1,
    -- 2704: del ints.tmp40
    .del 2,
    -- 2705: tmp35 += ints.tmp43
    .add 103 (.cp 0) 1 1,
    -- 2706: del ints.tmp43
    .del 0,
    -- 2707: tmp35 += v.bbb.xov
    .add 103 (.cp 1) 1 1,
    -- 2708: tmp25 = einsum(tmp24, (0, 1), v.baa.xov, (0, 2, 3), (2, 3, 1))
    .set 104 (.ein [(91, [0, 1]), (4, [0, 2, 3])] [2, 3, 1]) 1 1,
    -- 2709: del tmp24
    .del 91,
    -- 2710: tmp16 = einsum(ints.tmp113, (0, 1, 2, 3), r2.bab, (3, 4, 1), (0, 2, 4)) * -1
    .set 105 (.ein [(27, [0, 1, 2, 3]), (10, [3, 4, 1])] [0, 2, 4]) (-1) 1,
    -- 2711: tmp19 = einsum(r2.aaa, (0, 1, 2), tmp18, (3, 2, 4, 1), (3, 0, 4)) * -1
    .set 106 (.ein [(11, [0, 1, 2]), (92, [3, 2, 4, 1])] [3, 0, 4]) (-1) 1,
    -- 2712: del tmp18
    .del 92,
    -- 2713: tmp15 = einsum(r1.a, (0,), ints.tmp12, (1, 2, 0, 3), (1, 2, 3))
    .set 107 (.ein [(28, [0]), (29, [1, 2, 0, 3])] [1, 2, 3]) 1 1,
    -- 2714: tmp17 = einsum(ints.tmp110, (0, 1, 2, 3), tmp6, (1,), (0, 2, 3))
    .set 108 (.ein [(30, [0, 1, 2, 3]), (93, [1])] [0, 2, 3]) 1 1,
    -- 2715: tmp28 = einsum(tmp4, (0, 1), r2.aaa, (2, 0, 3), (3, 2, 1)) * -2
    .set 109 (.ein [(94, [0, 1]), (11, [2, 0, 3])] [3, 2, 1]) (-2) 1,
    -- 2716: tmp27 = einsum(ints.tmp110, (0, 1, 2, 3), tmp5, (1,), (0, 2, 3))
    .set 110 (.ein [(30, [0, 1, 2, 3]), (95, [1])] [0, 2, 3]) 1 1,
    -- 2717: tmp43 = np.copy(f.bb.oo)
    .set 111 (.cp 31) 1 1,
    -- 2718: tmp43 += ints.tmp161 * 2
    .add 111 (.cp 32) 2 1,
    -- 2719: del ints.tmp161
    .del 32,
    -- 2720: tmp43 += ints.tmp163
    .add 111 (.cp 33) 1 1,
    -- 2721: del ints.tmp163
    .del 33,
    -- 2722: tmp55 = np.copy(tmp51)
    .set 112 (.cp 97) 1 1,
    -- 2723: del tmp51
    .del 97,
    -- 2724: tmp55 += np.transpose(tmp52, (0, 2, 1)) * -2
    .add 112 (.tr 96 [0, 2, 1]) (-2) 1,
    -- 2725: del tmp52
    .del 96,
    -- 2726: tmp55 += np.transpose(tmp54, (0, 2, 1)) * 2
    .add 112 (.tr 98 [0, 2, 1]) 2 1,
    -- 2727: del tmp54
    .del 98,
    -- 2728: tmp44 = einsum(r2.bbb, (0, 1, 2), t2.bbbb, (3, 4, 0, 1), (2, 3, 4))
    .set 113 (.ein [(6, [0, 1, 2]), (7, [3, 4, 0, 1])] [2, 3, 4]) 1 1,
    -- 2729: tmp50 = einsum(r1.b, (0,), f.bb.ov, (1, 2), (1, 2, 0))
    .set 114 (.ein [(24, [0]), (34, [1, 2])] [1, 2, 0]) 1 1,
    -- 2730: tmp50 += tmp45
    .add 114 (.cp 102) 1 1,
    -- 2731: del tmp45
    .del 102,
    -- 2732: tmp50 += np.transpose(tmp47, (0, 2, 1))
    .add 114 (.tr 100 [0, 2, 1]) 1 1,
    -- 2733: del tmp47
    .del 100,
    -- 2734: tmp50 += np.transpose(tmp48, (0, 2, 1))
    .add 114 (.tr 101 [0, 2, 1]) 1 1,
    -- 2735: del tmp48
    .del 101,
    -- 2736: tmp50 += tmp49 * -1
    .add 114 (.cp 99) (-1) 1,
    -- 2737: del tmp49
    .del 99,
    -- 2738: tmp40 = np.copy(ints.tmp182)
    .set 115 (.cp 35) 1 1,
    -- 2739: del ints.tmp182
    .del 35,
    -- 2740: tmp40 += np.transpose(ints.tmp183, (1, 0, 3, 2)) * -1
    .add 115 (.tr 36 [1, 0, 3, 2]) (-1) 1,
    -- 2741: del ints.tmp183
    .del 36,
    -- 2742: tmp41 = einsum(r2.aaa, (0, 1, 2), tmp34, (3, 2, 1), (3, 0))
    .set 116 (.ein [(11, [0, 1, 2]), (83, [3, 2, 1])] [3, 0]) 1 1,
    -- 2743: tmp41 += einsum(tmp35, (0, 1, 2), r2.bab, (2, 3, 1), (0, 3)) * -0.5
    .add 116 (.ein [(103, [0, 1, 2]), (10, [2, 3, 1])] [0, 3]) (-1) 2,
    -- 2744: tmp38 = einsum(t2.abab, (0, 1, 2, 3), r2.bab, (3, 2, 4), (0, 4, 1)) * -1
    .set 117 (.ein [(8, [0, 1, 2, 3]), (10, [3, 2, 4])] [0, 4, 1]) (-1) 1,
    -- 2745: tmp7 = np.copy(tmp5) * 2
    .set 118 (.cp 95) 2 1,
    -- 2746: del tmp5
    .del 95,
    -- 2747: tmp7 += tmp6
    .add 118 (.cp 93) 1 1,
    -- 2748: del tmp6
    .del 93,
    -- 2749: tmp30 = np.copy(f.aa.oo)
    .set 119 (.cp 37) 1 1,
    -- 2750: tmp30 += ints.tmp106 * 2
    .add 119 (.cp 38) 2 1,
    -- 2751: del ints.tmp106
    .del 38,
    -- 2752: tmp30 += ints.tmp108
    .add 119 (.cp 39) 1 1,
    -- 2753: del ints.tmp108
    .del 39,
    -- 2754: tmp10 = np.copy(ints.tmp71) * 2
    .set 120 (.cp 14) 2 1,
    -- 2755: del ints.tmp71
    .del 14,
    -- 2756: tmp10 += ints.tmp73
    .add 120 (.cp 15) 1 1,
    -- 2757: del ints.tmp73
    .del 15,
    -- 2758: tmp10 += f.bb.vv * -1
    .add 120 (.cp 16) (-1) 1,
    -- 2759: tmp36 = einsum(tmp34, (0, 1, 2), r2.aba, (2, 3, 1), (0, 3)) * -0.5
    .set 121 (.ein [(83, [0, 1, 2]), (9, [2, 3, 1])] [0, 3]) (-1) 2,
    -- 2760: del tmp34
    .del 83,
    -- 2761: tmp36 += einsum(r2.bbb, (0, 1, 2), tmp35, (3, 2, 1), (3, 0))
    .add 121 (.ein [(6, [0, 1, 2]), (103, [3, 2, 1])] [3, 0]) 1 1,
    -- 2762: del tmp35
    .del 103,
    -- 2763: tmp31 = einsum(t2.abab, (0, 1, 2, 3), r2.aba, (2, 3, 4), (4, 0, 1))
    .set 122 (.ein [(8, [0, 1, 2, 3]), (9, [2, 3, 4])] [4, 0, 1]) 1 1,
    -- 2764: tmp32 = np.copy(ints.tmp102)
    .set 123 (.cp 17) 1 1,
    -- 2765: del ints.tmp102
    .del 17,
    -- 2766: tmp32 += np.transpose(ints.tmp111, (1, 0, 3, 2)) * 2
    .add 123 (.tr 18 [1, 0, 3, 2]) 2 1,
    -- 2767: del ints.tmp111
    .del 18,
    -- 2768: tmp33 = np.copy(ints.tmp157)
    .set 124 (.cp 40) 1 1,
    -- 2769: del ints.tmp157
    .del 40,
    -- 2770: tmp33 += np.transpose(ints.tmp158, (1, 0, 3, 2)) * -1
    .add 124 (.tr 41 [1, 0, 3, 2]) (-1) 1,
    -- 2771: del ints.tmp158
    .del 41,
    -- 2772: tmp26 = np.copy(tmp15)
    .set 125 (.cp 107) 1 1,
    -- 2773: del tmp15
    .del 107,
    -- 2774: tmp26 += tmp16
    .add 125 (.cp 105) 1 1,
    -- 2775: del tmp16
    .del 105,
    -- 2776: tmp26 += tmp17
    .add 125 (.cp 108) 1 1,
    -- 2777: del tmp17
    .del 108,
    -- 2778: tmp26 += np.transpose(tmp19, (0, 2, 1)) * -2
    .add 125 (.tr 106 [0, 2, 1]) (-2) 1,
    -- 2779: del tmp19
    .del 106,
    -- 2780: tmp26 += np.transpose(tmp25, (0, 2, 1))
    .add 125 (.tr 104 [0, 2, 1]) 1 1,
    -- 2781: del tmp25
    .del 104,
    -- 2782: tmp29 = einsum(f.aa.ov, (0, 1), r1.a, (2,), (0, 1, 2)) * -1
    .set 126 (.ein [(42, [0, 1]), (28, [2])] [0, 1, 2]) (-1) 1,
    -- 2783: tmp29 += tmp27 * 2
    .add 126 (.cp 110) 2 1,
    -- 2784: del tmp27
    .del 110,
    -- 2785: tmp29 += np.transpose(tmp28, (0, 2, 1)) * -1
    .add 126 (.tr 109 [0, 2, 1]) (-1) 1,
    -- 2786: del tmp28
    .del 109,
    -- 2787: tmp14 = einsum(t2.aaaa, (0, 1, 2, 3), r2.aaa, (2, 3, 4), (4, 0, 1))
    .set 127 (.ein [(22, [0, 1, 2, 3]), (11, [2, 3, 4])] [4, 0, 1]) 1 1,
    -- 2788: tmp13 = np.copy(tmp11) * -1
    .set 128 (.cp 82) (-1) 1,
    -- 2789: del tmp11
    .del 82,
    -- 2790: tmp13 += tmp12 * 2
    .add 128 (.cp 81) 2 1,
    -- 2791: del tmp12
    .del 81,
    -- 2792: tmp9 = np.copy(np.transpose(ints.tmp79, (0, 3, 1, 2))) * 0.5
    .set 129 (.tr 43 [0, 3, 1, 2]) 1 2,
    -- 2793: del ints.tmp79
    .del 43,
    -- 2794: tmp9 += np.transpose(ints.tmp88, (0, 3, 1, 2))
    .add 129 (.tr 44 [0, 3, 1, 2]) 1 1,
    -- 2795: del ints.tmp88
    .del 44,
    -- 2796: tmp9 += np.transpose(ints.tmp95, (0, 3, 1, 2)) * 0.5
    .add 129 (.tr 45 [0, 3, 1, 2]) 1 2,
    -- 2797: del ints.tmp95
    .del 45,
    -- 2798: tmp9 += ints.tmp68 * -0.5
    .add 129 (.cp 23) (-1) 2,
    -- 2799: del ints.tmp68
    .del 23,
    -- 2800: tmp9 += np.transpose(ints.tmp91, (0, 2, 1, 3)) * -1
    .add 129 (.tr 46 [0, 2, 1, 3]) (-1) 1,
    -- 2801: del ints.tmp91
    .del 46,
    -- 2802: tmp2 = np.copy(f.aa.ov) * 0.5
    .set 130 (.cp 42) 1 2,
    -- 2803: tmp2 += ints.tmp1
    .add 130 (.cp 47) 1 1,
    -- 2804: del ints.tmp1
    .del 47,
    -- 2805: tmp2 += ints.tmp46 * 0.5
    .add 130 (.cp 48) 1 2,
    -- 2806: del ints.tmp46
    .del 48,
    -- 2807: tmp2 += ints.tmp4 * 0.5
    .add 130 (.cp 49) 1 2,
    -- 2808: del ints.tmp4
    .del 49,
    -- 2809: tmp2 += ints.tmp23 * -1
    .add 130 (.cp 50) (-1) 1,
    -- 2810: del ints.tmp23
    .del 50,
    -- 2811: tmp2 += ints.tmp32 * -0.5
    .add 130 (.cp 51) (-1) 2,
    -- 2812: del ints.tmp32
    .del 51,
    -- 2813: tmp2 += ints.tmp38 * -1
    .add 130 (.cp 52) (-1) 1,
    -- 2814: del ints.tmp38
    .del 52,
    -- 2815: tmp8 = np.copy(ints.tmp58)
    .set 131 (.cp 53) 1 1,
    -- 2816: tmp8 += np.transpose(ints.tmp81, (0, 1, 3, 2))
    .add 131 (.tr 54 [0, 1, 3, 2]) 1 1,
    -- 2817: del ints.tmp81
    .del 54,
    -- 2818: tmp8 += np.transpose(ints.tmp87, (0, 1, 3, 2))
    .add 131 (.tr 55 [0, 1, 3, 2]) 1 1,
    -- 2819: del ints.tmp87
    .del 55,
    -- 2820: tmp8 += np.transpose(ints.tmp93, (0, 1, 3, 2)) * 2
    .add 131 (.tr 56 [0, 1, 3, 2]) 2 1,
    -- 2821: del ints.tmp93
    .del 56,
    -- 2822: tmp8 += ints.tmp90 * -1
    .add 131 (.cp 57) (-1) 1,
    -- 2823: del ints.tmp90
    .del 57,
    -- 2824: tmp8 += np.transpose(ints.tmp97, (0, 1, 3, 2)) * -1
    .add 131 (.tr 58 [0, 1, 3, 2]) (-1) 1,
    -- 2825: del ints.tmp97
    .del 58,
    -- 2826: tmp3 = np.copy(f.bb.ov) * 0.5
    .set 132 (.cp 34) 1 2,
    -- 2827: tmp3 += ints.tmp3 * 0.5
    .add 132 (.cp 59) 1 2,
    -- 2828: del ints.tmp3
    .del 59,
    -- 2829: tmp3 += ints.tmp44 * 0.5
    .add 132 (.cp 60) 1 2,
    -- 2830: del ints.tmp44
    .del 60,
    -- 2831: tmp3 += ints.tmp6
    .add 132 (.cp 61) 1 1,
    -- 2832: del ints.tmp6
    .del 61,
    -- 2833: tmp3 += ints.tmp26 * -1
    .add 132 (.cp 62) (-1) 1,
    -- 2834: del ints.tmp26
    .del 62,
    -- 2835: tmp3 += ints.tmp29 * -0.5
    .add 132 (.cp 63) (-1) 2,
    -- 2836: del ints.tmp29
    .del 63,
    -- 2837: tmp3 += ints.tmp41 * -1
    .add 132 (.cp 64) (-1) 1,
    -- 2838: del ints.tmp41
    .del 64,
    -- 2839: tmp1 = np.copy(np.transpose(ints.tmp34, (0, 3, 1, 2))) * 0.5
    .set 133 (.tr 65 [0, 3, 1, 2]) 1 2,
    -- 2840: del ints.tmp34
    .del 65,
    -- 2841: tmp1 += np.transpose(ints.tmp48, (0, 3, 1, 2))
    .add 133 (.tr 66 [0, 3, 1, 2]) 1 1,
    -- 2842: del ints.tmp48
    .del 66,
    -- 2843: tmp1 += np.transpose(ints.tmp54, (0, 3, 1, 2)) * 0.5
    .add 133 (.tr 67 [0, 3, 1, 2]) 1 2,
    -- 2844: del ints.tmp54
    .del 67,
    -- 2845: tmp1 += ints.tmp12 * -0.5
    .add 133 (.cp 29) (-1) 2,
    -- 2846: del ints.tmp12
    .del 29,
    -- 2847: tmp1 += np.transpose(ints.tmp51, (0, 2, 1, 3)) * -1
    .add 133 (.tr 68 [0, 2, 1, 3]) (-1) 1,
    -- 2848: del ints.tmp51
    .del 68,
    -- 2849: tmp0 = np.copy(ints.tmp14)
    .set 134 (.cp 69) 1 1,
    -- 2850: tmp0 += np.transpose(ints.tmp36, (0, 2, 1, 3))
    .add 134 (.tr 70 [0, 2, 1, 3]) 1 1,
    -- 2851: del ints.tmp36
    .del 70,
    -- 2852: tmp0 += np.transpose(ints.tmp50, (0, 2, 1, 3))
    .add 134 (.tr 71 [0, 2, 1, 3]) 1 1,
    -- 2853: del ints.tmp50
    .del 71,
    -- 2854: tmp0 += np.transpose(ints.tmp56, (0, 2, 1, 3)) * 2
    .add 134 (.tr 72 [0, 2, 1, 3]) 2 1,
    -- 2855: del ints.tmp56
    .del 72,
    -- 2856: tmp0 += ints.tmp53 * -1
    .add 134 (.cp 73) (-1) 1,
    -- 2857: del ints.tmp53
    .del 73,
    -- 2858: tmp0 += np.transpose(ints.tmp59, (0, 2, 1, 3)) * -1
    .add 134 (.tr 74 [0, 2, 1, 3]) (-1) 1,
    -- 2859: del ints.tmp59
    .del 74,
    -- 2860: r2new.bbb = einsum(ints.tmp200, (0, 1, 2, 3), r2.bbb, (1, 3, 4), (0, 2, 4)) * -2
    .set 135 (.ein [(75, [0, 1, 2, 3]), (6, [1, 3, 4])] [0, 2, 4]) (-2) 1,
    -- 2861: del ints.tmp200
    .del 75,
    -- 2862: r2new.bbb += einsum(ints.tmp165, (0, 1, 2, 3), tmp44, (4, 0, 1), (3, 2, 4)) * -2
    .add 135 (.ein [(25, [0, 1, 2, 3]), (113, [4, 0, 1])] [3, 2, 4]) (-2) 1,
    -- 2863: del ints.tmp165, tmp44
    .del 25,
    .del 113,
    -- 2864: r2new.bbb += np.transpose(tmp50, (1, 2, 0)) * -1
    .add 135 (.tr 114 [1, 2, 0]) (-1) 1,
    -- 2865: r2new.bbb += np.transpose(tmp50, (2, 1, 0))
    .add 135 (.tr 114 [2, 1, 0]) 1 1,
    -- 2866: del tmp50
    .del 114,
    -- 2867: r2new.bbb += np.transpose(tmp55, (1, 2, 0))
    .add 135 (.tr 112 [1, 2, 0]) 1 1,
    -- 2868: r2new.bbb += np.transpose(tmp55, (2, 1, 0)) * -1
    .add 135 (.tr 112 [2, 1, 0]) (-1) 1,
    -- 2869: del tmp55
    .del 112,
    -- 2870: r2new.bbb += einsum(r2.bbb, (0, 1, 2), tmp43, (2, 3), (0, 1, 3)) * -2
    .add 135 (.ein [(6, [0, 1, 2]), (111, [2, 3])] [0, 1, 3]) (-2) 1,
    -- 2871: r2new.bab = einsum(r2.aaa, (0, 1, 2), ints.tmp166, (2, 3, 1, 4), (4, 0, 3)) * 2
    .set 136 (.ein [(11, [0, 1, 2]), (26, [2, 3, 1, 4])] [4, 0, 3]) 2 1,
    -- 2872: del ints.tmp166
    .del 26,
    -- 2873: r2new.bab += einsum(ints.tmp146, (0, 1, 2, 3), tmp38, (0, 4, 1), (3, 2, 4)) * -1
    .add 136 (.ein [(76, [0, 1, 2, 3]), (117, [0, 4, 1])] [3, 2, 4]) (-1) 1,
    -- 2874: del tmp38
    .del 117,
    -- 2875: r2new.bab += einsum(ints.tmp14, (0, 1, 2, 3), r1.a, (2,), (3, 1, 0)) * -1
    .add 136 (.ein [(69, [0, 1, 2, 3]), (28, [2])] [3, 1, 0]) (-1) 1,
    -- 2876: del ints.tmp14
    .del 69,
    -- 2877: r2new.bab += einsum(r1.a, (0,), f.bb.ov, (1, 2), (2, 0, 1)) * -1
    .add 136 (.ein [(28, [0]), (34, [1, 2])] [2, 0, 1]) (-1) 1,
    -- 2878: r2new.bab += einsum(r2.bab, (0, 1, 2), ints.tmp149, (3, 1, 4, 0), (4, 3, 2))
    .add 136 (.ein [(10, [0, 1, 2]), (77, [3, 1, 4, 0])] [4, 3, 2]) 1 1,
    -- 2879: r2new.bab += einsum(tmp39, (0, 1, 2, 3), r2.bab, (3, 4, 1), (2, 4, 0)) * -1
    .add 136 (.ein [(86, [0, 1, 2, 3]), (10, [3, 4, 1])] [2, 4, 0]) (-1) 1,
    -- 2880: del tmp39
    .del 86,
    -- 2881: r2new.bab += einsum(r2.bab, (0, 1, 2), tmp40, (3, 2, 4, 1), (0, 4, 3)) * -1
    .add 136 (.ein [(10, [0, 1, 2]), (115, [3, 2, 4, 1])] [0, 4, 3]) (-1) 1,
    -- 2882: del tmp40
    .del 115,
    -- 2883: r2new.bab += einsum(tmp41, (0, 1), v.bbb.xov, (0, 2, 3), (3, 1, 2)) * -2
    .add 136 (.ein [(116, [0, 1]), (1, [0, 2, 3])] [3, 1, 2]) (-2) 1,
    -- 2884: del tmp41
    .del 116,
    -- 2885: r2new.bab += einsum(tmp42, (0, 1), r2.bab, (0, 2, 3), (1, 2, 3)) * -2
    .add 136 (.ein [(90, [0, 1]), (10, [0, 2, 3])] [1, 2, 3]) (-2) 1,
    -- 2886: del tmp42
    .del 90,
    -- 2887: r2new.bab += einsum(tmp4, (0, 1), r2.bab, (2, 0, 3), (2, 1, 3)) * -1
    .add 136 (.ein [(94, [0, 1]), (10, [2, 0, 3])] [2, 1, 3]) (-1) 1,
    -- 2888: r2new.bab += einsum(r2.bab, (0, 1, 2), tmp43, (2, 3), (0, 1, 3)) * -1
    .add 136 (.ein [(10, [0, 1, 2]), (111, [2, 3])] [0, 1, 3]) (-1) 1,
    -- 2889: del tmp43
    .del 111,
    -- 2890: r2new.bab += einsum(tmp7, (0,), ints.tmp146, (0, 1, 2, 3), (3, 2, 1))
    .add 136 (.ein [(118, [0]), (76, [0, 1, 2, 3])] [3, 2, 1]) 1 1,
    -- 2891: r2new.aba = einsum(r1.b, (0,), ints.tmp58, (1, 2, 3, 0), (2, 3, 1)) * -1
    .set 137 (.ein [(24, [0]), (53, [1, 2, 3, 0])] [2, 3, 1]) (-1) 1,
    -- 2892: del ints.tmp58
    .del 53,
    -- 2893: r2new.aba += einsum(r2.bbb, (0, 1, 2), ints.tmp113, (3, 2, 4, 1), (4, 0, 3)) * 2
    .add 137 (.ein [(6, [0, 1, 2]), (27, [3, 2, 4, 1])] [4, 0, 3]) 2 1,
    -- 2894: del ints.tmp113
    .del 27,
    -- 2895: r2new.aba += einsum(f.aa.ov, (0, 1), r1.b, (2,), (1, 2, 0)) * -1
    .add 137 (.ein [(42, [0, 1]), (24, [2])] [1, 2, 0]) (-1) 1,
    -- 2896: r2new.aba += einsum(ints.tmp146, (0, 1, 2, 3), tmp31, (4, 0, 1), (2, 3, 4))
    .add 137 (.ein [(76, [0, 1, 2, 3]), (122, [4, 0, 1])] [2, 3, 4]) 1 1,
    -- 2897: del tmp31
    .del 122,
    -- 2898: r2new.aba += einsum(r2.aba, (0, 1, 2), ints.tmp149, (3, 0, 4, 1), (3, 4, 2))
    .add 137 (.ein [(9, [0, 1, 2]), (77, [3, 0, 4, 1])] [3, 4, 2]) 1 1,
    -- 2899: del ints.tmp149
    .del 77,
    -- 2900: r2new.aba += einsum(r2.aba, (0, 1, 2), tmp32, (3, 2, 4, 0), (4, 1, 3)) * -1
    .add 137 (.ein [(9, [0, 1, 2]), (123, [3, 2, 4, 0])] [4, 1, 3]) (-1) 1,
    -- 2901: del tmp32
    .del 123,
    -- 2902: r2new.aba += einsum(r2.aba, (0, 1, 2), tmp33, (3, 2, 4, 1), (0, 4, 3)) * -1
    .add 137 (.ein [(9, [0, 1, 2]), (124, [3, 2, 4, 1])] [0, 4, 3]) (-1) 1,
    -- 2903: del tmp33
    .del 124,
    -- 2904: r2new.aba += einsum(tmp36, (0, 1), v.baa.xov, (0, 2, 3), (3, 1, 2)) * -2
    .add 137 (.ein [(121, [0, 1]), (4, [0, 2, 3])] [3, 1, 2]) (-2) 1,
    -- 2905: del tmp36
    .del 121,
    -- 2906: r2new.aba += einsum(r2.aba, (0, 1, 2), tmp10, (1, 3), (0, 3, 2)) * -1
    .add 137 (.ein [(9, [0, 1, 2]), (120, [1, 3])] [0, 3, 2]) (-1) 1,
    -- 2907: r2new.aba += einsum(tmp4, (0, 1), r2.aba, (0, 2, 3), (1, 2, 3)) * -1
    .add 137 (.ein [(94, [0, 1]), (9, [0, 2, 3])] [1, 2, 3]) (-1) 1,
    -- 2908: r2new.aba += einsum(r2.aba, (0, 1, 2), tmp30, (2, 3), (0, 1, 3)) * -1
    .add 137 (.ein [(9, [0, 1, 2]), (119, [2, 3])] [0, 1, 3]) (-1) 1,
    -- 2909: r2new.aba += einsum(ints.tmp146, (0, 1, 2, 3), tmp37, (1,), (2, 3, 0)) * 2
    .add 137 (.ein [(76, [0, 1, 2, 3]), (88, [1])] [2, 3, 0]) 2 1,
    -- 2910: del tmp37, ints.tmp146
    .del 88,
    .del 76,
    -- 2911: r2new.aaa = einsum(tmp14, (0, 1, 2), ints.tmp110, (2, 1, 3, 4), (4, 3, 0)) * 2
    .set 138 (.ein [(127, [0, 1, 2]), (30, [2, 1, 3, 4])] [4, 3, 0]) 2 1,
    -- 2912: del ints.tmp110, tmp14
    .del 30,
    .del 127,
    -- 2913: r2new.aaa += einsum(r2.aaa, (0, 1, 2), ints.tmp126, (3, 1, 4, 0), (3, 4, 2)) * 2
    .add 138 (.ein [(11, [0, 1, 2]), (78, [3, 1, 4, 0])] [3, 4, 2]) 2 1,
    -- 2914: del ints.tmp126
    .del 78,
    -- 2915: r2new.aaa += np.transpose(tmp26, (1, 2, 0))
    .add 138 (.tr 125 [1, 2, 0]) 1 1,
    -- 2916: r2new.aaa += np.transpose(tmp26, (2, 1, 0)) * -1
    .add 138 (.tr 125 [2, 1, 0]) (-1) 1,
    -- 2917: del tmp26
    .del 125,
    -- 2918: r2new.aaa += np.transpose(tmp29, (1, 2, 0))
    .add 138 (.tr 126 [1, 2, 0]) 1 1,
    -- 2919: r2new.aaa += np.transpose(tmp29, (2, 1, 0)) * -1
    .add 138 (.tr 126 [2, 1, 0]) (-1) 1,
    -- 2920: del tmp29
    .del 126,
    -- 2921: r2new.aaa += einsum(r2.aaa, (0, 1, 2), tmp30, (2, 3), (0, 1, 3)) * -2
    .add 138 (.ein [(11, [0, 1, 2]), (119, [2, 3])] [0, 1, 3]) (-2) 1,
    -- 2922: del tmp30
    .del 119,
    -- 2923: r1new.b = einsum(r2.aba, (0, 1, 2), tmp8, (2, 0, 3, 1), (3,)) * -1
    .set 139 (.ein [(9, [0, 1, 2]), (131, [2, 0, 3, 1])] [3]) (-1) 1,
    -- 2924: del tmp8
    .del 131,
    -- 2925: r1new.b += einsum(tmp9, (0, 1, 2, 3), r2.bbb, (2, 3, 0), (1,)) * -4
    .add 139 (.ein [(129, [0, 1, 2, 3]), (6, [2, 3, 0])] [1]) (-4) 1,
    -- 2926: del tmp9
    .del 129,
    -- 2927: r1new.b += einsum(r2.bbb, (0, 1, 2), tmp3, (2, 1), (0,)) * 4
    .add 139 (.ein [(6, [0, 1, 2]), (132, [2, 1])] [0]) 4 1,
    -- 2928: r1new.b += einsum(r2.aba, (0, 1, 2), tmp2, (2, 0), (1,)) * -2
    .add 139 (.ein [(9, [0, 1, 2]), (130, [2, 0])] [1]) (-2) 1,
    -- 2929: r1new.b += einsum(r1.b, (0,), tmp10, (0, 1), (1,)) * -1
    .add 139 (.ein [(24, [0]), (120, [0, 1])] [1]) (-1) 1,
    -- 2930: del tmp10
    .del 120,
    -- 2931: r1new.b += einsum(tmp13, (0,), f.bb.ov, (0, 1), (1,)) * -1
    .add 139 (.ein [(128, [0]), (34, [0, 1])] [1]) (-1) 1,
    -- 2932: del tmp13
    .del 128,
    -- 2933: r1new.a = einsum(r2.bab, (0, 1, 2), tmp0, (2, 3, 1, 0), (3,)) * -1
    .set 140 (.ein [(10, [0, 1, 2]), (134, [2, 3, 1, 0])] [3]) (-1) 1,
    -- 2934: del tmp0
    .del 134,
    -- 2935: r1new.a += einsum(r2.aaa, (0, 1, 2), tmp1, (2, 3, 0, 1), (3,)) * -4
    .add 140 (.ein [(11, [0, 1, 2]), (133, [2, 3, 0, 1])] [3]) (-4) 1,
    -- 2936: del tmp1
    .del 133,
    -- 2937: r1new.a += einsum(tmp2, (0, 1), r2.aaa, (2, 1, 0), (2,)) * 4
    .add 140 (.ein [(130, [0, 1]), (11, [2, 1, 0])] [2]) 4 1,
    -- 2938: del tmp2
    .del 130,
    -- 2939: r1new.a += einsum(tmp3, (0, 1), r2.bab, (1, 2, 0), (2,)) * -2
    .add 140 (.ein [(132, [0, 1]), (10, [1, 2, 0])] [2]) (-2) 1,
    -- 2940: del tmp3
    .del 132,
    -- 2941: r1new.a += einsum(tmp4, (0, 1), r1.a, (0,), (1,)) * -1
    .add 140 (.ein [(94, [0, 1]), (28, [0])] [1]) (-1) 1,
    -- 2942: del tmp4
    .del 94,
    -- 2943: r1new.a += einsum(tmp7, (0,), f.aa.ov, (0, 1), (1,)) * -1
    .add 140 (.ein [(118, [0]), (42, [0, 1])] [1]) (-1) 1,
    -- 2944: del tmp7
    .del 118
  ]
  ret := [(chars! "r1new.b", 139), (chars! "r1new.a", 140), (chars! "r2new.bbb", 135), (chars! "r2new.bab", 136), (chars! "r2new.aba", 137), (chars! "r2new.aaa", 138)]

end Ebcc.Gen.UDFCCDEom
