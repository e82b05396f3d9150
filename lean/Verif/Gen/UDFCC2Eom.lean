import Verif.Model.GenCode
/-!
Functions of `ebcc/codegen/UDFCC2.py`, written by `tools/gencode.py`.  Comments give the
number and the text of the line of each statement.
-/

set_option maxRecDepth 100000

namespace Ebcc.Gen.UDFCC2Eom

/-- codegen/UDFCC2.py:2028-2262 `hbar_matvec_ip_intermediates`. -/
def hbar_matvec_ip_intermediates : GenFun where
  args := [chars! "v.baa.xov", chars! "t1.aa", chars! "t1.bb", chars! "v.bbb.xov", chars! "t2.abab", chars! "t2.bbbb", chars! "v.bbb.xoo", chars! "v.bbb.xvv", chars! "f.bb.ov", chars! "v.baa.xoo", chars! "t2.aaaa", chars! "v.baa.xvv", chars! "f.aa.ov", chars! "f.bb.vv", chars! "f.bb.oo", chars! "f.aa.oo", chars! "f.aa.vv"]
  body := [
    -- 2146: tmp8 = einsum(v.baa.xov, (0, 1, 2), t1.aa, (1, 2), (0,))
    .set 17 (.ein [(0, [0, 1, 2]), (1, [1, 2])] [0]) 1 1,
    -- 2147: tmp10 = einsum(t1.bb, (0, 1), v.bbb.xov, (2, 0, 1), (2,))
    .set 18 (.ein [(2, [0, 1]), (3, [2, 0, 1])] [2]) 1 1,
    -- 2148: tmp16 = einsum(t1.bb, (0, 1), v.bbb.xov, (2, 3, 1), (2, 0, 3))
    .set 19 (.ein [(2, [0, 1]), (3, [2, 3, 1])] [2, 0, 3]) 1 1,
    -- 2149: tmp6 = einsum(t1.aa, (0, 1), v.baa.xov, (2, 3, 1), (2, 0, 3))
    .set 20 (.ein [(1, [0, 1]), (0, [2, 3, 1])] [2, 0, 3]) 1 1,
    -- 2150: tmp54 = einsum(t2.abab, (0, 1, 2, 3), v.baa.xov, (4, 0, 2), (4, 1, 3))
    .set 21 (.ein [(4, [0, 1, 2, 3]), (0, [4, 0, 2])] [4, 1, 3]) 1 1,
    -- 2151: tmp51 = einsum(v.bbb.xov, (0, 1, 2), t2.bbbb, (3, 1, 4, 2), (0, 3, 4))
    .set 22 (.ein [(3, [0, 1, 2]), (5, [3, 1, 4, 2])] [0, 3, 4]) 1 1,
    -- 2152: tmp37 = einsum(v.bbb.xoo, (0, 1, 2), v.bbb.xov, (0, 3, 4), (1, 2, 3, 4))
    .set 23 (.ein [(6, [0, 1, 2]), (3, [0, 3, 4])] [1, 2, 3, 4]) 1 1,
    -- 2153: tmp97 = einsum(v.bbb.xov, (0, 1, 2), v.bbb.xov, (0, 3, 4), (3, 1, 4, 2))
    .set 24 (.ein [(3, [0, 1, 2]), (3, [0, 3, 4])] [3, 1, 4, 2]) 1 1,
    -- 2154: tmp196 = einsum(v.bbb.xov, (0, 1, 2), v.bbb.xvv, (0, 3, 4), (1, 3, 4, 2))
    .set 25 (.ein [(3, [0, 1, 2]), (7, [0, 3, 4])] [1, 3, 4, 2]) 1 1,
    -- 2155: tmp36 = einsum(t1.bb, (0, 1), f.bb.ov, (2, 1), (2, 0))
    .set 26 (.ein [(2, [0, 1]), (8, [2, 1])] [2, 0]) 1 1,
    -- 2156: tmp107 = einsum(v.baa.xov, (0, 1, 2), v.bbb.xov, (0, 3, 4), (1, 3, 2, 4))
    .set 27 (.ein [(0, [0, 1, 2]), (3, [0, 3, 4])] [1, 3, 2, 4]) 1 1,
    -- 2157: tmp39 = einsum(v.bbb.xoo, (0, 1, 2), v.baa.xov, (0, 3, 4), (3, 1, 2, 4))
    .set 28 (.ein [(6, [0, 1, 2]), (0, [0, 3, 4])] [3, 1, 2, 4]) 1 1,
    -- 2158: tmp71 = einsum(v.baa.xov, (0, 1, 2), v.baa.xov, (0, 3, 4), (3, 1, 4, 2))
    .set 29 (.ein [(0, [0, 1, 2]), (0, [0, 3, 4])] [3, 1, 4, 2]) 1 1,
    -- 2159: tmp2 = einsum(v.baa.xov, (0, 1, 2), v.baa.xoo, (0, 3, 4), (3, 4, 1, 2))
    .set 30 (.ein [(0, [0, 1, 2]), (9, [0, 3, 4])] [3, 4, 1, 2]) 1 1,
    -- 2160: tmp152 = einsum(v.baa.xov, (0, 1, 2), v.bbb.xvv, (0, 3, 4), (1, 2, 3, 4))
    .set 31 (.ein [(0, [0, 1, 2]), (7, [0, 3, 4])] [1, 2, 3, 4]) 1 1,
    -- 2161: tmp4 = einsum(v.bbb.xov, (0, 1, 2), v.baa.xoo, (0, 3, 4), (3, 4, 1, 2))
    .set 32 (.ein [(3, [0, 1, 2]), (9, [0, 3, 4])] [3, 4, 1, 2]) 1 1,
    -- 2162: tmp26 = einsum(v.baa.xov, (0, 1, 2), t2.aaaa, (3, 1, 4, 2), (0, 3, 4))
    .set 33 (.ein [(0, [0, 1, 2]), (10, [3, 1, 4, 2])] [0, 3, 4]) 1 1,
    -- 2163: tmp29 = einsum(t2.abab, (0, 1, 2, 3), v.bbb.xov, (4, 1, 3), (4, 0, 2))
    .set 34 (.ein [(4, [0, 1, 2, 3]), (3, [4, 1, 3])] [4, 0, 2]) 1 1,
    -- 2164: tmp120 = einsum(v.baa.xvv, (0, 1, 2), v.bbb.xov, (0, 3, 4), (3, 1, 2, 4))
    .set 35 (.ein [(11, [0, 1, 2]), (3, [0, 3, 4])] [3, 1, 2, 4]) 1 1,
    -- 2165: tmp1 = einsum(f.aa.ov, (0, 1), t1.aa, (2, 1), (0, 2))
    .set 36 (.ein [(12, [0, 1]), (1, [2, 1])] [0, 2]) 1 1,
    -- 2166: tmp68 = einsum(v.baa.xvv, (0, 1, 2), v.baa.xov, (0, 3, 4), (3, 1, 2, 4))
    .set 37 (.ein [(11, [0, 1, 2]), (0, [0, 3, 4])] [3, 1, 2, 4]) 1 1,
    -- 2167: tmp21 = einsum(v.bbb.xov, (0, 1, 2), tmp8, (0,), (1, 2))
    .set 38 (.ein [(3, [0, 1, 2]), (17, [0])] [1, 2]) 1 1,
    -- 2168: tmp18 = einsum(v.bbb.xov, (0, 1, 2), tmp10, (0,), (1, 2))
    .set 39 (.ein [(3, [0, 1, 2]), (18, [0])] [1, 2]) 1 1,
    -- 2169: tmp17 = einsum(tmp16, (0, 1, 2), v.bbb.xov, (0, 1, 3), (2, 3))
    .set 40 (.ein [(19, [0, 1, 2]), (3, [0, 1, 3])] [2, 3]) 1 1,
    -- 2170: tmp19 = einsum(v.baa.xov, (0, 1, 2), tmp10, (0,), (1, 2))
    .set 41 (.ein [(0, [0, 1, 2]), (18, [0])] [1, 2]) 1 1,
    -- 2171: tmp14 = einsum(v.baa.xov, (0, 1, 2), tmp8, (0,), (1, 2))
    .set 42 (.ein [(0, [0, 1, 2]), (17, [0])] [1, 2]) 1 1,
    -- 2172: tmp12 = einsum(v.baa.xov, (0, 1, 2), tmp6, (0, 1, 3), (3, 2))
    .set 43 (.ein [(0, [0, 1, 2]), (20, [0, 1, 3])] [3, 2]) 1 1,
    -- 2173: tmp220 = einsum(t2.bbbb, (0, 1, 2, 3), f.bb.ov, (4, 3), (4, 0, 1, 2))
    .set 44 (.ein [(5, [0, 1, 2, 3]), (8, [4, 3])] [4, 0, 1, 2]) 1 1,
    -- 2174: tmp210 = einsum(v.bbb.xoo, (0, 1, 2), tmp54, (0, 3, 4), (3, 1, 2, 4))
    .set 45 (.ein [(6, [0, 1, 2]), (21, [0, 3, 4])] [3, 1, 2, 4]) 1 1,
    -- 2175: tmp208 = einsum(v.bbb.xoo, (0, 1, 2), tmp51, (0, 3, 4), (3, 1, 2, 4))
    .set 46 (.ein [(6, [0, 1, 2]), (22, [0, 3, 4])] [3, 1, 2, 4]) 1 1,
    -- 2176: tmp206 = einsum(t2.bbbb, (0, 1, 2, 3), tmp37, (4, 1, 5, 3), (0, 4, 5, 2))
    .set 47 (.ein [(5, [0, 1, 2, 3]), (23, [4, 1, 5, 3])] [0, 4, 5, 2]) 1 1,
    -- 2177: tmp204 = einsum(v.bbb.xoo, (0, 1, 2), v.bbb.xoo, (0, 3, 4), (1, 3, 4, 2))
    .set 48 (.ein [(6, [0, 1, 2]), (6, [0, 3, 4])] [1, 3, 4, 2]) 1 1,
    -- 2178: tmp199 = einsum(t2.bbbb, (0, 1, 2, 3), tmp97, (4, 5, 3, 2), (0, 1, 5, 4))
    .set 49 (.ein [(5, [0, 1, 2, 3]), (24, [4, 5, 3, 2])] [0, 1, 5, 4]) 1 1,
    -- 2179: tmp197 = einsum(t2.bbbb, (0, 1, 2, 3), tmp196, (4, 5, 2, 3), (0, 1, 4, 5)) * -1
    .set 50 (.ein [(5, [0, 1, 2, 3]), (25, [4, 5, 2, 3])] [0, 1, 4, 5]) (-1) 1,
    -- 2180: del tmp196
    .del 25,
    -- 2181: tmp190 = einsum(v.bbb.xvv, (0, 1, 2), v.baa.xoo, (0, 3, 4), (3, 4, 1, 2))
    .set 51 (.ein [(7, [0, 1, 2]), (9, [0, 3, 4])] [3, 4, 1, 2]) 1 1,
    -- 2182: tmp189 = einsum(tmp36, (0, 1), t1.bb, (0, 2), (1, 2))
    .set 52 (.ein [(26, [0, 1]), (2, [0, 2])] [1, 2]) 1 1,
    -- 2183: tmp186 = einsum(v.bbb.xoo, (0, 1, 2), v.bbb.xvv, (0, 3, 4), (1, 2, 3, 4))
    .set 53 (.ein [(6, [0, 1, 2]), (7, [0, 3, 4])] [1, 2, 3, 4]) 1 1,
    -- 2184: tmp185 = einsum(tmp54, (0, 1, 2), v.bbb.xvv, (0, 3, 2), (1, 3))
    .set 54 (.ein [(21, [0, 1, 2]), (7, [0, 3, 2])] [1, 3]) 1 1,
    -- 2185: tmp184 = einsum(tmp51, (0, 1, 2), v.bbb.xvv, (0, 3, 2), (1, 3)) * -1
    .set 55 (.ein [(22, [0, 1, 2]), (7, [0, 3, 2])] [1, 3]) (-1) 1,
    -- 2186: tmp183 = einsum(f.bb.vv, (0, 1), t1.bb, (2, 1), (2, 0))
    .set 56 (.ein [(13, [0, 1]), (2, [2, 1])] [2, 0]) 1 1,
    -- 2187: tmp180 = einsum(t2.abab, (0, 1, 2, 3), tmp107, (4, 1, 2, 5), (0, 4, 3, 5))
    .set 57 (.ein [(4, [0, 1, 2, 3]), (27, [4, 1, 2, 5])] [0, 4, 3, 5]) 1 1,
    -- 2188: tmp178 = einsum(v.bbb.xov, (0, 1, 2), tmp54, (0, 1, 3), (3, 2))
    .set 58 (.ein [(3, [0, 1, 2]), (21, [0, 1, 3])] [3, 2]) 1 1,
    -- 2189: tmp176 = einsum(v.bbb.xov, (0, 1, 2), tmp51, (0, 1, 3), (3, 2))
    .set 59 (.ein [(3, [0, 1, 2]), (22, [0, 1, 3])] [3, 2]) 1 1,
    -- 2190: tmp175 = einsum(t2.abab, (0, 1, 2, 3), tmp39, (4, 5, 1, 2), (0, 4, 5, 3))
    .set 60 (.ein [(4, [0, 1, 2, 3]), (28, [4, 5, 1, 2])] [0, 4, 5, 3]) 1 1,
    -- 2191: tmp174 = einsum(t2.abab, (0, 1, 2, 3), tmp39, (0, 4, 1, 2), (4, 3))
    .set 61 (.ein [(4, [0, 1, 2, 3]), (28, [0, 4, 1, 2])] [4, 3]) 1 1,
    -- 2192: tmp173 = einsum(t2.bbbb, (0, 1, 2, 3), tmp37, (4, 0, 1, 3), (4, 2))
    .set 62 (.ein [(5, [0, 1, 2, 3]), (23, [4, 0, 1, 3])] [4, 2]) 1 1,
    -- 2193: tmp172 = einsum(f.aa.ov, (0, 1), t2.abab, (2, 3, 1, 4), (0, 2, 3, 4))
    .set 63 (.ein [(12, [0, 1]), (4, [2, 3, 1, 4])] [0, 2, 3, 4]) 1 1,
    -- 2194: tmp170 = einsum(t1.bb, (0, 1), f.bb.oo, (2, 0), (2, 1))
    .set 64 (.ein [(2, [0, 1]), (14, [2, 0])] [2, 1]) 1 1,
    -- 2195: tmp166 = einsum(t2.bbbb, (0, 1, 2, 3), tmp97, (1, 4, 5, 3), (0, 4, 2, 5))
    .set 65 (.ein [(5, [0, 1, 2, 3]), (24, [1, 4, 5, 3])] [0, 4, 2, 5]) 1 1,
    -- 2196: tmp163 = einsum(tmp71, (0, 1, 2, 3), t2.abab, (0, 4, 3, 5), (1, 4, 2, 5))
    .set 66 (.ein [(29, [0, 1, 2, 3]), (4, [0, 4, 3, 5])] [1, 4, 2, 5]) 1 1,
    -- 2197: tmp161 = einsum(v.baa.xoo, (0, 1, 2), tmp51, (0, 3, 4), (1, 2, 3, 4))
    .set 67 (.ein [(9, [0, 1, 2]), (22, [0, 3, 4])] [1, 2, 3, 4]) 1 1,
    -- 2198: tmp160 = einsum(v.baa.xoo, (0, 1, 2), tmp54, (0, 3, 4), (1, 2, 3, 4))
    .set 68 (.ein [(9, [0, 1, 2]), (21, [0, 3, 4])] [1, 2, 3, 4]) 1 1,
    -- 2199: tmp159 = einsum(t2.abab, (0, 1, 2, 3), tmp2, (4, 0, 5, 2), (4, 5, 1, 3))
    .set 69 (.ein [(4, [0, 1, 2, 3]), (30, [4, 0, 5, 2])] [4, 5, 1, 3]) 1 1,
    -- 2200: tmp157 = einsum(f.bb.ov, (0, 1), t2.bbbb, (2, 0, 3, 1), (2, 3))
    .set 70 (.ein [(8, [0, 1]), (5, [2, 0, 3, 1])] [2, 3]) 1 1,
    -- 2201: tmp156 = einsum(t2.abab, (0, 1, 2, 3), f.aa.ov, (0, 2), (1, 3))
    .set 71 (.ein [(4, [0, 1, 2, 3]), (12, [0, 2])] [1, 3]) 1 1,
    -- 2202: tmp153 = einsum(t2.abab, (0, 1, 2, 3), tmp152, (4, 2, 5, 3), (0, 4, 1, 5))
    .set 72 (.ein [(4, [0, 1, 2, 3]), (31, [4, 2, 5, 3])] [0, 4, 1, 5]) 1 1,
    -- 2203: del tmp152
    .del 31,
    -- 2204: tmp148 = einsum(v.bbb.xoo, (0, 1, 2), v.baa.xvv, (0, 3, 4), (1, 2, 3, 4))
    .set 73 (.ein [(6, [0, 1, 2]), (11, [0, 3, 4])] [1, 2, 3, 4]) 1 1,
    -- 2205: tmp141 = einsum(tmp107, (0, 1, 2, 3), t2.abab, (0, 4, 5, 3), (4, 1, 5, 2))
    .set 74 (.ein [(27, [0, 1, 2, 3]), (4, [0, 4, 5, 3])] [4, 1, 5, 2]) 1 1,
    -- 2206: tmp138 = einsum(tmp4, (0, 1, 2, 3), t2.abab, (1, 4, 5, 3), (0, 4, 2, 5))
    .set 75 (.ein [(32, [0, 1, 2, 3]), (4, [1, 4, 5, 3])] [0, 4, 2, 5]) 1 1,
    -- 2207: tmp137 = einsum(t2.abab, (0, 1, 2, 3), f.bb.ov, (4, 3), (0, 4, 1, 2))
    .set 76 (.ein [(4, [0, 1, 2, 3]), (8, [4, 3])] [0, 4, 1, 2]) 1 1,
    -- 2208: tmp129 = einsum(tmp26, (0, 1, 2), v.bbb.xoo, (0, 3, 4), (1, 3, 4, 2))
    .set 77 (.ein [(33, [0, 1, 2]), (6, [0, 3, 4])] [1, 3, 4, 2]) 1 1,
    -- 2209: tmp128 = einsum(tmp29, (0, 1, 2), v.bbb.xoo, (0, 3, 4), (1, 3, 4, 2))
    .set 78 (.ein [(34, [0, 1, 2]), (6, [0, 3, 4])] [1, 3, 4, 2]) 1 1,
    -- 2210: tmp127 = einsum(tmp37, (0, 1, 2, 3), t2.abab, (4, 1, 5, 3), (4, 0, 2, 5))
    .set 79 (.ein [(23, [0, 1, 2, 3]), (4, [4, 1, 5, 3])] [4, 0, 2, 5]) 1 1,
    -- 2211: tmp125 = einsum(v.bbb.xoo, (0, 1, 2), v.baa.xoo, (0, 3, 4), (3, 4, 1, 2))
    .set 80 (.ein [(6, [0, 1, 2]), (9, [0, 3, 4])] [3, 4, 1, 2]) 1 1,
    -- 2212: tmp123 = einsum(t2.abab, (0, 1, 2, 3), tmp107, (4, 5, 2, 3), (0, 4, 1, 5))
    .set 81 (.ein [(4, [0, 1, 2, 3]), (27, [4, 5, 2, 3])] [0, 4, 1, 5]) 1 1,
    -- 2213: tmp121 = einsum(t2.abab, (0, 1, 2, 3), tmp120, (4, 5, 2, 3), (0, 1, 4, 5))
    .set 82 (.ein [(4, [0, 1, 2, 3]), (35, [4, 5, 2, 3])] [0, 1, 4, 5]) 1 1,
    -- 2214: del tmp120
    .del 35,
    -- 2215: tmp113 = einsum(v.baa.xvv, (0, 1, 2), v.baa.xoo, (0, 3, 4), (3, 4, 1, 2))
    .set 83 (.ein [(11, [0, 1, 2]), (9, [0, 3, 4])] [3, 4, 1, 2]) 1 1,
    -- 2216: tmp111 = einsum(tmp1, (0, 1), t1.aa, (0, 2), (1, 2))
    .set 84 (.ein [(36, [0, 1]), (1, [0, 2])] [1, 2]) 1 1,
    -- 2217: tmp103 = einsum(t2.aaaa, (0, 1, 2, 3), f.aa.ov, (4, 3), (4, 0, 1, 2))
    .set 85 (.ein [(10, [0, 1, 2, 3]), (12, [4, 3])] [4, 0, 1, 2]) 1 1,
    -- 2218: tmp98 = einsum(tmp97, (0, 1, 2, 3), t2.abab, (4, 0, 5, 3), (4, 1, 5, 2))
    .set 86 (.ein [(24, [0, 1, 2, 3]), (4, [4, 0, 5, 3])] [4, 1, 5, 2]) 1 1,
    -- 2219: tmp94 = einsum(t2.aaaa, (0, 1, 2, 3), tmp71, (1, 4, 5, 3), (0, 4, 2, 5))
    .set 87 (.ein [(10, [0, 1, 2, 3]), (29, [1, 4, 5, 3])] [0, 4, 2, 5]) 1 1,
    -- 2220: tmp92 = einsum(tmp29, (0, 1, 2), v.baa.xov, (0, 1, 3), (2, 3))
    .set 88 (.ein [(34, [0, 1, 2]), (0, [0, 1, 3])] [2, 3]) 1 1,
    -- 2221: tmp90 = einsum(tmp26, (0, 1, 2), v.baa.xov, (0, 1, 3), (2, 3))
    .set 89 (.ein [(33, [0, 1, 2]), (0, [0, 1, 3])] [2, 3]) 1 1,
    -- 2222: tmp88 = einsum(tmp29, (0, 1, 2), v.baa.xoo, (0, 3, 4), (1, 3, 4, 2))
    .set 90 (.ein [(34, [0, 1, 2]), (9, [0, 3, 4])] [1, 3, 4, 2]) 1 1,
    -- 2223: tmp86 = einsum(tmp26, (0, 1, 2), v.baa.xoo, (0, 3, 4), (1, 3, 4, 2))
    .set 91 (.ein [(33, [0, 1, 2]), (9, [0, 3, 4])] [1, 3, 4, 2]) 1 1,
    -- 2224: tmp84 = einsum(t2.aaaa, (0, 1, 2, 3), tmp2, (4, 1, 5, 3), (0, 4, 5, 2))
    .set 92 (.ein [(10, [0, 1, 2, 3]), (30, [4, 1, 5, 3])] [0, 4, 5, 2]) 1 1,
    -- 2225: tmp83 = einsum(tmp4, (0, 1, 2, 3), t2.abab, (1, 2, 4, 3), (0, 4))
    .set 93 (.ein [(32, [0, 1, 2, 3]), (4, [1, 2, 4, 3])] [0, 4]) 1 1,
    -- 2226: tmp82 = einsum(t2.aaaa, (0, 1, 2, 3), tmp2, (4, 0, 1, 3), (4, 2))
    .set 94 (.ein [(10, [0, 1, 2, 3]), (30, [4, 0, 1, 3])] [4, 2]) 1 1,
    -- 2227: tmp80 = einsum(v.baa.xoo, (0, 1, 2), v.baa.xoo, (0, 3, 4), (1, 3, 4, 2))
    .set 95 (.ein [(9, [0, 1, 2]), (9, [0, 3, 4])] [1, 3, 4, 2]) 1 1,
    -- 2228: tmp79 = einsum(t2.abab, (0, 1, 2, 3), f.bb.ov, (1, 3), (0, 2))
    .set 96 (.ein [(4, [0, 1, 2, 3]), (8, [1, 3])] [0, 2]) 1 1,
    -- 2229: tmp78 = einsum(f.aa.ov, (0, 1), t2.aaaa, (2, 0, 3, 1), (2, 3))
    .set 97 (.ein [(12, [0, 1]), (10, [2, 0, 3, 1])] [2, 3]) 1 1,
    -- 2230: tmp75 = einsum(f.aa.oo, (0, 1), t1.aa, (1, 2), (0, 2))
    .set 98 (.ein [(15, [0, 1]), (1, [1, 2])] [0, 2]) 1 1,
    -- 2231: tmp72 = einsum(t2.aaaa, (0, 1, 2, 3), tmp71, (4, 5, 3, 2), (0, 1, 5, 4))
    .set 99 (.ein [(10, [0, 1, 2, 3]), (29, [4, 5, 3, 2])] [0, 1, 5, 4]) 1 1,
    -- 2232: tmp69 = einsum(tmp68, (0, 1, 2, 3), t2.aaaa, (4, 5, 2, 3), (4, 5, 0, 1)) * -1
    .set 100 (.ein [(37, [0, 1, 2, 3]), (10, [4, 5, 2, 3])] [4, 5, 0, 1]) (-1) 1,
    -- 2233: del tmp68
    .del 37,
    -- 2234: tmp67 = einsum(tmp29, (0, 1, 2), v.baa.xvv, (0, 3, 2), (1, 3))
    .set 101 (.ein [(34, [0, 1, 2]), (11, [0, 3, 2])] [1, 3]) 1 1,
    -- 2235: tmp66 = einsum(tmp26, (0, 1, 2), v.baa.xvv, (0, 3, 2), (1, 3)) * -1
    .set 102 (.ein [(33, [0, 1, 2]), (11, [0, 3, 2])] [1, 3]) (-1) 1,
    -- 2236: tmp61 = einsum(f.aa.vv, (0, 1), t1.aa, (2, 1), (2, 0))
    .set 103 (.ein [(16, [0, 1]), (1, [2, 1])] [2, 0]) 1 1,
    -- 2237: tmp59 = einsum(t1.bb, (0, 1), tmp21, (2, 1), (0, 2))
    .set 104 (.ein [(2, [0, 1]), (38, [2, 1])] [0, 2]) 1 1,
    -- 2238: tmp58 = einsum(tmp18, (0, 1), t1.bb, (2, 1), (2, 0))
    .set 105 (.ein [(39, [0, 1]), (2, [2, 1])] [2, 0]) 1 1,
    -- 2239: tmp57 = einsum(t1.bb, (0, 1), tmp17, (2, 1), (0, 2))
    .set 106 (.ein [(2, [0, 1]), (40, [2, 1])] [0, 2]) 1 1,
    -- 2240: tmp55 = einsum(v.bbb.xov, (0, 1, 2), tmp54, (0, 3, 2), (3, 1))
    .set 107 (.ein [(3, [0, 1, 2]), (21, [0, 3, 2])] [3, 1]) 1 1,
    -- 2241: tmp52 = einsum(v.bbb.xov, (0, 1, 2), tmp51, (0, 3, 2), (3, 1))
    .set 108 (.ein [(3, [0, 1, 2]), (22, [0, 3, 2])] [3, 1]) 1 1,
    -- 2242: tmp49 = einsum(v.baa.xov, (0, 1, 2), tmp16, (0, 3, 4), (1, 3, 4, 2))
    .set 109 (.ein [(0, [0, 1, 2]), (19, [0, 3, 4])] [1, 3, 4, 2]) 1 1,
    -- 2243: tmp47 = einsum(v.bbb.xov, (0, 1, 2), tmp16, (0, 3, 4), (3, 1, 4, 2))
    .set 110 (.ein [(3, [0, 1, 2]), (19, [0, 3, 4])] [3, 1, 4, 2]) 1 1,
    -- 2244: tmp43 = einsum(v.bbb.xoo, (0, 1, 2), tmp8, (0,), (1, 2))
    .set 111 (.ein [(6, [0, 1, 2]), (17, [0])] [1, 2]) 1 1,
    -- 2245: tmp42 = einsum(v.bbb.xoo, (0, 1, 2), tmp10, (0,), (1, 2))
    .set 112 (.ein [(6, [0, 1, 2]), (18, [0])] [1, 2]) 1 1,
    -- 2246: tmp41 = einsum(tmp16, (0, 1, 2), v.bbb.xoo, (0, 3, 1), (3, 2))
    .set 113 (.ein [(19, [0, 1, 2]), (6, [0, 3, 1])] [3, 2]) 1 1,
    -- 2247: del tmp16
    .del 19,
    -- 2248: tmp34 = einsum(t1.aa, (0, 1), tmp19, (2, 1), (0, 2))
    .set 114 (.ein [(1, [0, 1]), (41, [2, 1])] [0, 2]) 1 1,
    -- 2249: tmp33 = einsum(tmp14, (0, 1), t1.aa, (2, 1), (2, 0))
    .set 115 (.ein [(42, [0, 1]), (1, [2, 1])] [2, 0]) 1 1,
    -- 2250: tmp32 = einsum(t1.aa, (0, 1), tmp12, (2, 1), (0, 2))
    .set 116 (.ein [(1, [0, 1]), (43, [2, 1])] [0, 2]) 1 1,
    -- 2251: tmp30 = einsum(tmp29, (0, 1, 2), v.baa.xov, (0, 3, 2), (1, 3))
    .set 117 (.ein [(34, [0, 1, 2]), (0, [0, 3, 2])] [1, 3]) 1 1,
    -- 2252: tmp27 = einsum(tmp26, (0, 1, 2), v.baa.xov, (0, 3, 2), (1, 3))
    .set 118 (.ein [(33, [0, 1, 2]), (0, [0, 3, 2])] [1, 3]) 1 1,
    -- 2253: tmp24 = einsum(tmp6, (0, 1, 2), v.bbb.xov, (0, 3, 4), (1, 2, 3, 4))
    .set 119 (.ein [(20, [0, 1, 2]), (3, [0, 3, 4])] [1, 2, 3, 4]) 1 1,
    -- 2254: tmp22 = einsum(tmp6, (0, 1, 2), v.baa.xov, (0, 3, 4), (1, 3, 2, 4))
    .set 120 (.ein [(20, [0, 1, 2]), (0, [0, 3, 4])] [1, 3, 2, 4]) 1 1,
    -- 2255: tmp11 = einsum(tmp10, (0,), v.baa.xoo, (0, 1, 2), (1, 2))
    .set 121 (.ein [(18, [0]), (9, [0, 1, 2])] [1, 2]) 1 1,
    -- 2256: del tmp10
    .del 18,
    -- 2257: tmp9 = einsum(tmp8, (0,), v.baa.xoo, (0, 1, 2), (1, 2))
    .set 122 (.ein [(17, [0]), (9, [0, 1, 2])] [1, 2]) 1 1,
    -- 2258: del tmp8
    .del 17,
    -- 2259: tmp7 = einsum(v.baa.xoo, (0, 1, 2), tmp6, (0, 2, 3), (1, 3))
    .set 123 (.ein [(9, [0, 1, 2]), (20, [0, 2, 3])] [1, 3]) 1 1,
    -- 2260: del tmp6
    .del 20
  ]
  ret := [(chars! "tmp1", 36), (chars! "tmp103", 85), (chars! "tmp107", 27), (chars! "tmp11", 121), (chars! "tmp111", 84), (chars! "tmp113", 83), (chars! "tmp12", 43), (chars! "tmp121", 82), (chars! "tmp123", 81), (chars! "tmp125", 80), (chars! "tmp127", 79), (chars! "tmp128", 78), (chars! "tmp129", 77), (chars! "tmp137", 76), (chars! "tmp138", 75), (chars! "tmp14", 42), (chars! "tmp141", 74), (chars! "tmp148", 73), (chars! "tmp153", 72), (chars! "tmp156", 71), (chars! "tmp157", 70), (chars! "tmp159", 69), (chars! "tmp160", 68), (chars! "tmp161", 67), (chars! "tmp163", 66), (chars! "tmp166", 65), (chars! "tmp17", 40), (chars! "tmp170", 64), (chars! "tmp172", 63), (chars! "tmp173", 62), (chars! "tmp174", 61), (chars! "tmp175", 60), (chars! "tmp176", 59), (chars! "tmp178", 58), (chars! "tmp18", 39), (chars! "tmp180", 57), (chars! "tmp183", 56), (chars! "tmp184", 55), (chars! "tmp185", 54), (chars! "tmp186", 53), (chars! "tmp189", 52), (chars! "tmp19", 41), (chars! "tmp190", 51), (chars! "tmp197", 50), (chars! "tmp199", 49), (chars! "tmp2", 30), (chars! "tmp204", 48), (chars! "tmp206", 47), (chars! "tmp208", 46), (chars! "tmp21", 38), (chars! "tmp210", 45), (chars! "tmp22", 120), (chars! "tmp220", 44), (chars! "tmp24", 119), (chars! "tmp26", 33), (chars! "tmp27", 118), (chars! "tmp29", 34), (chars! "tmp30", 117), (chars! "tmp32", 116), (chars! "tmp33", 115), (chars! "tmp34", 114), (chars! "tmp36", 26), (chars! "tmp37", 23), (chars! "tmp39", 28), (chars! "tmp4", 32), (chars! "tmp41", 113), (chars! "tmp42", 112), (chars! "tmp43", 111), (chars! "tmp47", 110), (chars! "tmp49", 109), (chars! "tmp51", 22), (chars! "tmp52", 108), (chars! "tmp54", 21), (chars! "tmp55", 107), (chars! "tmp57", 106), (chars! "tmp58", 105), (chars! "tmp59", 104), (chars! "tmp61", 103), (chars! "tmp66", 102), (chars! "tmp67", 101), (chars! "tmp69", 100), (chars! "tmp7", 123), (chars! "tmp71", 29), (chars! "tmp72", 99), (chars! "tmp75", 98), (chars! "tmp78", 97), (chars! "tmp79", 96), (chars! "tmp80", 95), (chars! "tmp82", 94), (chars! "tmp83", 93), (chars! "tmp84", 92), (chars! "tmp86", 91), (chars! "tmp88", 90), (chars! "tmp9", 122), (chars! "tmp90", 89), (chars! "tmp92", 88), (chars! "tmp94", 87), (chars! "tmp97", 24), (chars! "tmp98", 86)]

/-- codegen/UDFCC2.py:2264-2713 `hbar_matvec_ip`. -/
def hbar_matvec_ip : GenFun where
  args := [chars! "r2.aaa", chars! "v.baa.xov", chars! "v.bbb.xov", chars! "r2.bab", chars! "r2.aba", chars! "ints.tmp52", chars! "ints.tmp55", chars! "ints.tmp206", chars! "ints.tmp37", chars! "r2.bbb", chars! "ints.tmp51", chars! "ints.tmp54", chars! "ints.tmp186", chars! "ints.tmp166", chars! "ints.tmp210", chars! "ints.tmp208", chars! "f.bb.oo", chars! "ints.tmp36", chars! "ints.tmp88", chars! "ints.tmp86", chars! "ints.tmp113", chars! "ints.tmp94", chars! "f.aa.oo", chars! "ints.tmp1", chars! "ints.tmp2", chars! "ints.tmp84", chars! "ints.tmp27", chars! "ints.tmp30", chars! "ints.tmp26", chars! "ints.tmp29", chars! "ints.tmp163", chars! "r1.b", chars! "ints.tmp107", chars! "ints.tmp97", chars! "t1.bb", chars! "f.bb.ov", chars! "ints.tmp71", chars! "f.aa.ov", chars! "t1.aa", chars! "r1.a", chars! "ints.tmp98", chars! "ints.tmp199", chars! "ints.tmp204", chars! "ints.tmp176", chars! "ints.tmp178", chars! "f.bb.vv", chars! "ints.tmp170", chars! "ints.tmp173", chars! "ints.tmp174", chars! "ints.tmp184", chars! "ints.tmp189", chars! "ints.tmp156", chars! "ints.tmp157", chars! "ints.tmp183", chars! "ints.tmp185", chars! "ints.tmp197", chars! "ints.tmp220", chars! "ints.tmp153", chars! "ints.tmp160", chars! "ints.tmp161", chars! "ints.tmp172", chars! "ints.tmp4", chars! "ints.tmp159", chars! "ints.tmp175", chars! "ints.tmp123", chars! "ints.tmp125", chars! "ints.tmp180", chars! "ints.tmp190", chars! "ints.tmp111", chars! "ints.tmp66", chars! "ints.tmp75", chars! "ints.tmp82", chars! "ints.tmp83", chars! "ints.tmp61", chars! "ints.tmp67", chars! "ints.tmp78", chars! "ints.tmp79", chars! "ints.tmp90", chars! "ints.tmp92", chars! "f.aa.vv", chars! "ints.tmp121", chars! "ints.tmp128", chars! "ints.tmp129", chars! "ints.tmp137", chars! "ints.tmp39", chars! "ints.tmp127", chars! "ints.tmp138", chars! "ints.tmp141", chars! "ints.tmp148", chars! "ints.tmp72", chars! "ints.tmp80", chars! "ints.tmp103", chars! "ints.tmp69", chars! "ints.tmp14", chars! "ints.tmp19", chars! "ints.tmp12", chars! "ints.tmp42", chars! "ints.tmp43", chars! "ints.tmp58", chars! "ints.tmp59", chars! "ints.tmp41", chars! "ints.tmp57", chars! "ints.tmp47", chars! "ints.tmp18", chars! "ints.tmp21", chars! "ints.tmp17", chars! "ints.tmp49", chars! "ints.tmp11", chars! "ints.tmp33", chars! "ints.tmp34", chars! "ints.tmp9", chars! "ints.tmp32", chars! "ints.tmp7", chars! "ints.tmp24", chars! "ints.tmp22", chars! "t2.bbbb", chars! "t2.abab", chars! "t2.aaaa"]
  body := [
    -- 2294: tmp8 = einsum(r2.aaa, (0, 1, 2), v.baa.xov, (3, 1, 2), (3, 0))
    .set 118 (.ein [(0, [0, 1, 2]), (1, [3, 1, 2])] [3, 0]) 1 1,
    -- 2295: tmp9 = einsum(v.bbb.xov, (0, 1, 2), r2.bab, (1, 3, 2), (0, 3)) * -1
    .set 119 (.ein [(2, [0, 1, 2]), (3, [1, 3, 2])] [0, 3]) (-1) 1,
    -- 2296: tmp39 = einsum(v.baa.xov, (0, 1, 2), r2.aba, (1, 3, 2), (0, 3))
    .set 120 (.ein [(1, [0, 1, 2]), (4, [1, 3, 2])] [0, 3]) 1 1,
    -- 2297: tmp70 = np.copy(ints.tmp52) * 2
    .set 121 (.cp 5) 2 1,
    -- 2298: tmp70 += ints.tmp55
    .add 121 (.cp 6) 1 1,
    -- 2299: tmp72 = np.copy(ints.tmp206)
    .set 122 (.cp 7) 1 1,
    -- 2300: del ints.tmp206
    .del 7,
    -- 2301: tmp72 += np.transpose(ints.tmp37, (0, 2, 1, 3)) * 0.5
    .add 122 (.tr 8 [0, 2, 1, 3]) 1 2,
    -- 2302: tmp40 = einsum(v.bbb.xov, (0, 1, 2), r2.bbb, (3, 1, 2), (0, 3))
    .set 123 (.ein [(2, [0, 1, 2]), (9, [3, 1, 2])] [0, 3]) 1 1,
    -- 2303: tmp68 = np.copy(ints.tmp51)
    .set 124 (.cp 10) 1 1,
    -- 2304: tmp68 += ints.tmp54 * 0.5
    .add 124 (.cp 11) 1 2,
    -- 2305: tmp49 = np.copy(ints.tmp186)
    .set 125 (.cp 12) 1 1,
    -- 2306: del ints.tmp186
    .del 12,
    -- 2307: tmp49 += ints.tmp166 * 2
    .add 125 (.cp 13) 2 1,
    -- 2308: del ints.tmp166
    .del 13,
    -- 2309: tmp59 = np.copy(ints.tmp54)
    .set 126 (.cp 11) 1 1,
    -- 2310: tmp59 += ints.tmp51 * 2
    .add 126 (.cp 10) 2 1,
    -- 2311: tmp63 = np.copy(ints.tmp210)
    .set 127 (.cp 14) 1 1,
    -- 2312: del ints.tmp210
    .del 14,
    -- 2313: tmp63 += ints.tmp208 * 2
    .add 127 (.cp 15) 2 1,
    -- 2314: del ints.tmp208
    .del 15,
    -- 2315: tmp61 = np.copy(f.bb.oo)
    .set 128 (.cp 16) 1 1,
    -- 2316: tmp61 += ints.tmp36
    .add 128 (.cp 17) 1 1,
    -- 2317: tmp25 = np.copy(ints.tmp88)
    .set 129 (.cp 18) 1 1,
    -- 2318: del ints.tmp88
    .del 18,
    -- 2319: tmp25 += ints.tmp86 * 2
    .add 129 (.cp 19) 2 1,
    -- 2320: del ints.tmp86
    .del 19,
    -- 2321: tmp21 = np.copy(tmp8) * 2
    .set 130 (.cp 118) 2 1,
    -- 2322: tmp21 += tmp9
    .add 130 (.cp 119) 1 1,
    -- 2323: tmp19 = np.copy(ints.tmp113)
    .set 131 (.cp 20) 1 1,
    -- 2324: tmp19 += ints.tmp94 * 2
    .add 131 (.cp 21) 2 1,
    -- 2325: tmp23 = np.copy(f.aa.oo)
    .set 132 (.cp 22) 1 1,
    -- 2326: tmp23 += ints.tmp1
    .add 132 (.cp 23) 1 1,
    -- 2327: tmp15 = np.copy(ints.tmp2)
    .set 133 (.cp 24) 1 1,
    -- 2328: tmp15 += np.transpose(ints.tmp84, (0, 2, 1, 3)) * 2
    .add 133 (.tr 25 [0, 2, 1, 3]) 2 1,
    -- 2329: del ints.tmp84
    .del 25,
    -- 2330: tmp13 = np.copy(ints.tmp27) * 2
    .set 134 (.cp 26) 2 1,
    -- 2331: tmp13 += ints.tmp30
    .add 134 (.cp 27) 1 1,
    -- 2332: tmp11 = np.copy(ints.tmp26)
    .set 135 (.cp 28) 1 1,
    -- 2333: tmp11 += ints.tmp29 * 0.5
    .add 135 (.cp 29) 1 2,
    -- 2334: tmp10 = np.copy(tmp8) * 2
    .set 136 (.cp 118) 2 1,
    -- 2335: del tmp8
    .del 118,
    -- 2336: tmp10 += tmp9
    .add 136 (.cp 119) 1 1,
    -- 2337: del tmp9
    .del 119,
    -- 2338: tmp67 = einsum(tmp39, (0, 1), v.bbb.xov, (0, 2, 3), (1, 2, 3))
    .set 137 (.ein [(120, [0, 1]), (2, [0, 2, 3])] [1, 2, 3]) 1 1,
    -- 2339: tmp71 = einsum(r2.bbb, (0, 1, 2), tmp70, (3, 1), (0, 3, 2)) * -2
    .set 138 (.ein [(9, [0, 1, 2]), (121, [3, 1])] [0, 3, 2]) (-2) 1,
    -- 2340: del tmp70
    .del 121,
    -- 2341: tmp66 = einsum(r2.aba, (0, 1, 2), ints.tmp163, (0, 3, 2, 4), (3, 1, 4))
    .set 139 (.ein [(4, [0, 1, 2]), (30, [0, 3, 2, 4])] [3, 1, 4]) 1 1,
    -- 2342: tmp73 = einsum(tmp72, (0, 1, 2, 3), r1.b, (2,), (0, 1, 3)) * 2
    .set 140 (.ein [(122, [0, 1, 2, 3]), (31, [2])] [0, 1, 3]) 2 1,
    -- 2343: del tmp72
    .del 122,
    -- 2344: tmp69 = einsum(tmp68, (0, 1, 2), tmp40, (0, 3), (3, 1, 2)) * 4
    .set 141 (.ein [(124, [0, 1, 2]), (123, [0, 3])] [3, 1, 2]) 4 1,
    -- 2345: del tmp68
    .del 124,
    -- 2346: tmp43 = einsum(ints.tmp107, (0, 1, 2, 3), r2.aba, (0, 1, 2), (3,))
    .set 142 (.ein [(32, [0, 1, 2, 3]), (4, [0, 1, 2])] [3]) 1 1,
    -- 2347: tmp44 = einsum(ints.tmp97, (0, 1, 2, 3), r2.bbb, (1, 0, 2), (3,)) * -1
    .set 143 (.ein [(33, [0, 1, 2, 3]), (9, [1, 0, 2])] [3]) (-1) 1,
    -- 2348: del ints.tmp97
    .del 33,
    -- 2349: tmp53 = einsum(t1.bb, (0, 1), f.bb.ov, (0, 2), (2, 1))
    .set 144 (.ein [(34, [0, 1]), (35, [0, 2])] [2, 1]) 1 1,
    -- 2350: tmp58 = einsum(tmp49, (0, 1, 2, 3), r2.bbb, (4, 1, 3), (4, 0, 2)) * -1
    .set 145 (.ein [(125, [0, 1, 2, 3]), (9, [4, 1, 3])] [4, 0, 2]) (-1) 1,
    -- 2351: tmp60 = einsum(tmp39, (0, 1), tmp59, (0, 2, 3), (1, 2, 3))
    .set 146 (.ein [(120, [0, 1]), (126, [0, 2, 3])] [1, 2, 3]) 1 1,
    -- 2352: del tmp59
    .del 126,
    -- 2353: tmp64 = einsum(r1.b, (0,), tmp63, (1, 0, 2, 3), (1, 2, 3))
    .set 147 (.ein [(31, [0]), (127, [1, 0, 2, 3])] [1, 2, 3]) 1 1,
    -- 2354: del tmp63
    .del 127,
    -- 2355: tmp57 = einsum(tmp40, (0, 1), v.bbb.xov, (0, 2, 3), (1, 2, 3))
    .set 148 (.ein [(123, [0, 1]), (2, [0, 2, 3])] [1, 2, 3]) 1 1,
    -- 2356: tmp62 = einsum(tmp61, (0, 1), r2.bbb, (2, 0, 3), (2, 1, 3)) * -1
    .set 149 (.ein [(128, [0, 1]), (9, [2, 0, 3])] [2, 1, 3]) (-1) 1,
    -- 2357: del tmp61
    .del 128,
    -- 2358: tmp31 = einsum(ints.tmp71, (0, 1, 2, 3), r2.aaa, (1, 0, 2), (3,)) * -1
    .set 150 (.ein [(36, [0, 1, 2, 3]), (0, [1, 0, 2])] [3]) (-1) 1,
    -- 2359: del ints.tmp71
    .del 36,
    -- 2360: tmp32 = einsum(ints.tmp107, (0, 1, 2, 3), r2.bab, (1, 0, 3), (2,)) * -1
    .set 151 (.ein [(32, [0, 1, 2, 3]), (3, [1, 0, 3])] [2]) (-1) 1,
    -- 2361: del ints.tmp107
    .del 32,
    -- 2362: tmp29 = einsum(f.aa.ov, (0, 1), t1.aa, (0, 2), (1, 2))
    .set 152 (.ein [(37, [0, 1]), (38, [0, 2])] [1, 2]) 1 1,
    -- 2363: tmp26 = einsum(tmp25, (0, 1, 2, 3), r1.a, (1,), (0, 2, 3))
    .set 153 (.ein [(129, [0, 1, 2, 3]), (39, [1])] [0, 2, 3]) 1 1,
    -- 2364: del tmp25
    .del 129,
    -- 2365: tmp22 = einsum(v.baa.xov, (0, 1, 2), tmp21, (0, 3), (1, 3, 2))
    .set 154 (.ein [(1, [0, 1, 2]), (130, [0, 3])] [1, 3, 2]) 1 1,
    -- 2366: del tmp21
    .del 130,
    -- 2367: tmp18 = einsum(ints.tmp98, (0, 1, 2, 3), r2.bab, (1, 4, 3), (0, 4, 2)) * -1
    .set 155 (.ein [(40, [0, 1, 2, 3]), (3, [1, 4, 3])] [0, 4, 2]) (-1) 1,
    -- 2368: tmp20 = einsum(r2.aaa, (0, 1, 2), tmp19, (3, 1, 4, 2), (0, 3, 4)) * -1
    .set 156 (.ein [(0, [0, 1, 2]), (131, [3, 1, 4, 2])] [0, 3, 4]) (-1) 1,
    -- 2369: del tmp19
    .del 131,
    -- 2370: tmp24 = einsum(r2.aaa, (0, 1, 2), tmp23, (1, 3), (0, 3, 2)) * -1
    .set 157 (.ein [(0, [0, 1, 2]), (132, [1, 3])] [0, 3, 2]) (-1) 1,
    -- 2371: del tmp23
    .del 132,
    -- 2372: tmp16 = einsum(r1.a, (0,), tmp15, (1, 0, 2, 3), (1, 2, 3))
    .set 158 (.ein [(39, [0]), (133, [1, 0, 2, 3])] [1, 2, 3]) 1 1,
    -- 2373: del tmp15
    .del 133,
    -- 2374: tmp14 = einsum(r2.aaa, (0, 1, 2), tmp13, (3, 1), (0, 3, 2)) * -2
    .set 159 (.ein [(0, [0, 1, 2]), (134, [3, 1])] [0, 3, 2]) (-2) 1,
    -- 2375: del tmp13
    .del 134,
    -- 2376: tmp12 = einsum(tmp11, (0, 1, 2), tmp10, (0, 3), (3, 1, 2)) * 2
    .set 160 (.ein [(135, [0, 1, 2]), (136, [0, 3])] [3, 1, 2]) 2 1,
    -- 2377: del tmp11
    .del 135,
    -- 2378: tmp74 = np.copy(tmp66)
    .set 161 (.cp 139) 1 1,
    -- 2379: del tmp66
    .del 139,
    -- 2380: tmp74 += tmp67
    .add 161 (.cp 137) 1 1,
    -- 2381: del tmp67
    .del 137,
    -- 2382: tmp74 += np.transpose(tmp69, (1, 0, 2))
    .add 161 (.tr 141 [1, 0, 2]) 1 1,
    -- 2383: del tmp69
    .del 141,
    -- 2384: tmp74 += np.transpose(tmp71, (1, 0, 2))
    .add 161 (.tr 138 [1, 0, 2]) 1 1,
    -- 2385: del tmp71
    .del 138,
    -- 2386: tmp74 += tmp73
    .add 161 (.cp 140) 1 1,
    -- 2387: del tmp73
    .del 140,
    -- 2388: tmp75 = np.copy(ints.tmp199)
    .set 162 (.cp 41) 1 1,
    -- 2389: del ints.tmp199
    .del 41,
    -- 2390: tmp75 += np.transpose(ints.tmp204, (0, 2, 1, 3)) * -1
    .add 162 (.tr 42 [0, 2, 1, 3]) (-1) 1,
    -- 2391: del ints.tmp204
    .del 42,
    -- 2392: tmp45 = np.copy(tmp43) * 0.5
    .set 163 (.cp 142) 1 2,
    -- 2393: del tmp43
    .del 142,
    -- 2394: tmp45 += tmp44
    .add 163 (.cp 143) 1 1,
    -- 2395: del tmp44
    .del 143,
    -- 2396: tmp54 = np.copy(np.transpose(ints.tmp176, (1, 0))) * 2
    .set 164 (.tr 43 [1, 0]) 2 1,
    -- 2397: del ints.tmp176
    .del 43,
    -- 2398: tmp54 += np.transpose(ints.tmp178, (1, 0))
    .add 164 (.tr 44 [1, 0]) 1 1,
    -- 2399: del ints.tmp178
    .del 44,
    -- 2400: tmp54 += f.bb.vv * -1
    .add 164 (.cp 45) (-1) 1,
    -- 2401: tmp54 += tmp53
    .add 164 (.cp 144) 1 1,
    -- 2402: del tmp53
    .del 144,
    -- 2403: tmp65 = np.copy(tmp57) * 2
    .set 165 (.cp 148) 2 1,
    -- 2404: del tmp57
    .del 148,
    -- 2405: tmp65 += np.transpose(tmp58, (1, 0, 2)) * -2
    .add 165 (.tr 145 [1, 0, 2]) (-2) 1,
    -- 2406: del tmp58
    .del 145,
    -- 2407: tmp65 += np.transpose(tmp60, (1, 0, 2))
    .add 165 (.tr 146 [1, 0, 2]) 1 1,
    -- 2408: del tmp60
    .del 146,
    -- 2409: tmp65 += np.transpose(tmp62, (1, 0, 2)) * -2
    .add 165 (.tr 149 [1, 0, 2]) (-2) 1,
    -- 2410: del tmp62
    .del 149,
    -- 2411: tmp65 += tmp64
    .add 165 (.cp 147) 1 1,
    -- 2412: del tmp64
    .del 147,
    -- 2413: tmp56 = np.copy(ints.tmp170)
    .set 166 (.cp 46) 1 1,
    -- 2414: del ints.tmp170
    .del 46,
    -- 2415: tmp56 += ints.tmp173 * 2
    .add 166 (.cp 47) 2 1,
    -- 2416: del ints.tmp173
    .del 47,
    -- 2417: tmp56 += ints.tmp174
    .add 166 (.cp 48) 1 1,
    -- 2418: del ints.tmp174
    .del 48,
    -- 2419: tmp56 += ints.tmp184 * 2
    .add 166 (.cp 49) 2 1,
    -- 2420: del ints.tmp184
    .del 49,
    -- 2421: tmp56 += ints.tmp189
    .add 166 (.cp 50) 1 1,
    -- 2422: del ints.tmp189
    .del 50,
    -- 2423: tmp56 += f.bb.ov * -1
    .add 166 (.cp 35) (-1) 1,
    -- 2424: tmp56 += ints.tmp156 * -1
    .add 166 (.cp 51) (-1) 1,
    -- 2425: del ints.tmp156
    .del 51,
    -- 2426: tmp56 += ints.tmp157 * -2
    .add 166 (.cp 52) (-2) 1,
    -- 2427: del ints.tmp157
    .del 52,
    -- 2428: tmp56 += ints.tmp183 * -1
    .add 166 (.cp 53) (-1) 1,
    -- 2429: del ints.tmp183
    .del 53,
    -- 2430: tmp56 += ints.tmp185 * -1
    .add 166 (.cp 54) (-1) 1,
    -- 2431: del ints.tmp185
    .del 54,
    -- 2432: tmp76 = np.copy(ints.tmp197)
    .set 167 (.cp 55) 1 1,
    -- 2433: del ints.tmp197
    .del 55,
    -- 2434: tmp76 += np.transpose(ints.tmp220, (1, 2, 0, 3)) * -1
    .add 167 (.tr 56 [1, 2, 0, 3]) (-1) 1,
    -- 2435: del ints.tmp220
    .del 56,
    -- 2436: tmp55 = np.copy(ints.tmp153)
    .set 168 (.cp 57) 1 1,
    -- 2437: del ints.tmp153
    .del 57,
    -- 2438: tmp55 += np.transpose(ints.tmp160, (1, 0, 2, 3))
    .add 168 (.tr 58 [1, 0, 2, 3]) 1 1,
    -- 2439: del ints.tmp160
    .del 58,
    -- 2440: tmp55 += np.transpose(ints.tmp161, (1, 0, 2, 3)) * 2
    .add 168 (.tr 59 [1, 0, 2, 3]) 2 1,
    -- 2441: del ints.tmp161
    .del 59,
    -- 2442: tmp55 += np.transpose(ints.tmp172, (1, 0, 2, 3))
    .add 168 (.tr 60 [1, 0, 2, 3]) 1 1,
    -- 2443: del ints.tmp172
    .del 60,
    -- 2444: tmp55 += ints.tmp4
    .add 168 (.cp 61) 1 1,
    -- 2445: tmp55 += ints.tmp159 * -1
    .add 168 (.cp 62) (-1) 1,
    -- 2446: del ints.tmp159
    .del 62,
    -- 2447: tmp55 += ints.tmp175 * -1
    .add 168 (.cp 63) (-1) 1,
    -- 2448: del ints.tmp175
    .del 63,
    -- 2449: tmp51 = np.copy(ints.tmp123)
    .set 169 (.cp 64) 1 1,
    -- 2450: tmp51 += ints.tmp125
    .add 169 (.cp 65) 1 1,
    -- 2451: tmp33 = np.copy(tmp31)
    .set 170 (.cp 150) 1 1,
    -- 2452: del tmp31
    .del 150,
    -- 2453: tmp33 += tmp32 * -0.5
    .add 170 (.cp 151) (-1) 2,
    -- 2454: del tmp32
    .del 151,
    -- 2455: tmp50 = np.copy(ints.tmp180)
    .set 171 (.cp 66) 1 1,
    -- 2456: del ints.tmp180
    .del 66,
    -- 2457: tmp50 += ints.tmp190 * -1
    .add 171 (.cp 67) (-1) 1,
    -- 2458: del ints.tmp190
    .del 67,
    -- 2459: tmp52 = np.copy(ints.tmp51) * 2
    .set 172 (.cp 10) 2 1,
    -- 2460: del ints.tmp51
    .del 10,
    -- 2461: tmp52 += ints.tmp54
    .add 172 (.cp 11) 1 1,
    -- 2462: del ints.tmp54
    .del 11,
    -- 2463: tmp52 += v.bbb.xov
    .add 172 (.cp 2) 1 1,
    -- 2464: tmp47 = np.copy(f.bb.oo)
    .set 173 (.cp 16) 1 1,
    -- 2465: tmp47 += ints.tmp36
    .add 173 (.cp 17) 1 1,
    -- 2466: tmp47 += np.transpose(ints.tmp52, (1, 0)) * 2
    .add 173 (.tr 5 [1, 0]) 2 1,
    -- 2467: tmp47 += np.transpose(ints.tmp55, (1, 0))
    .add 173 (.tr 6 [1, 0]) 1 1,
    -- 2468: tmp48 = np.copy(f.aa.oo)
    .set 174 (.cp 22) 1 1,
    -- 2469: tmp48 += ints.tmp1
    .add 174 (.cp 23) 1 1,
    -- 2470: tmp48 += np.transpose(ints.tmp27, (1, 0)) * 2
    .add 174 (.tr 26 [1, 0]) 2 1,
    -- 2471: tmp48 += np.transpose(ints.tmp30, (1, 0))
    .add 174 (.tr 27 [1, 0]) 1 1,
    -- 2472: tmp38 = np.copy(ints.tmp123)
    .set 175 (.cp 64) 1 1,
    -- 2473: del ints.tmp123
    .del 64,
    -- 2474: tmp38 += ints.tmp125
    .add 175 (.cp 65) 1 1,
    -- 2475: del ints.tmp125
    .del 65,
    -- 2476: tmp36 = np.copy(ints.tmp113)
    .set 176 (.cp 20) 1 1,
    -- 2477: del ints.tmp113
    .del 20,
    -- 2478: tmp36 += ints.tmp94 * 2
    .add 176 (.cp 21) 2 1,
    -- 2479: del ints.tmp94
    .del 21,
    -- 2480: tmp35 = np.copy(ints.tmp111)
    .set 177 (.cp 68) 1 1,
    -- 2481: del ints.tmp111
    .del 68,
    -- 2482: tmp35 += ints.tmp66 * 2
    .add 177 (.cp 69) 2 1,
    -- 2483: del ints.tmp66
    .del 69,
    -- 2484: tmp35 += ints.tmp75
    .add 177 (.cp 70) 1 1,
    -- 2485: del ints.tmp75
    .del 70,
    -- 2486: tmp35 += ints.tmp82 * 2
    .add 177 (.cp 71) 2 1,
    -- 2487: del ints.tmp82
    .del 71,
    -- 2488: tmp35 += ints.tmp83
    .add 177 (.cp 72) 1 1,
    -- 2489: del ints.tmp83
    .del 72,
    -- 2490: tmp35 += f.aa.ov * -1
    .add 177 (.cp 37) (-1) 1,
    -- 2491: tmp35 += ints.tmp61 * -1
    .add 177 (.cp 73) (-1) 1,
    -- 2492: del ints.tmp61
    .del 73,
    -- 2493: tmp35 += ints.tmp67 * -1
    .add 177 (.cp 74) (-1) 1,
    -- 2494: del ints.tmp67
    .del 74,
    -- 2495: tmp35 += ints.tmp78 * -2
    .add 177 (.cp 75) (-2) 1,
    -- 2496: del ints.tmp78
    .del 75,
    -- 2497: tmp35 += ints.tmp79 * -1
    .add 177 (.cp 76) (-1) 1,
    -- 2498: del ints.tmp79
    .del 76,
    -- 2499: tmp30 = np.copy(np.transpose(ints.tmp90, (1, 0))) * 2
    .set 178 (.tr 77 [1, 0]) 2 1,
    -- 2500: del ints.tmp90
    .del 77,
    -- 2501: tmp30 += np.transpose(ints.tmp92, (1, 0))
    .add 178 (.tr 78 [1, 0]) 1 1,
    -- 2502: del ints.tmp92
    .del 78,
    -- 2503: tmp30 += f.aa.vv * -1
    .add 178 (.cp 79) (-1) 1,
    -- 2504: tmp30 += tmp29
    .add 178 (.cp 152) 1 1,
    -- 2505: del tmp29
    .del 152,
    -- 2506: tmp42 = np.copy(ints.tmp26) * 2
    .set 179 (.cp 28) 2 1,
    -- 2507: del ints.tmp26
    .del 28,
    -- 2508: tmp42 += ints.tmp29
    .add 179 (.cp 29) 1 1,
    -- 2509: del ints.tmp29
    .del 29,
    -- 2510: tmp42 += v.baa.xov
    .add 179 (.cp 1) 1 1,
    -- 2511: tmp46 = np.copy(ints.tmp121)
    .set 180 (.cp 80) 1 1,
    -- 2512: del ints.tmp121
    .del 80,
    -- 2513: tmp46 += np.transpose(ints.tmp128, (0, 2, 1, 3))
    .add 180 (.tr 81 [0, 2, 1, 3]) 1 1,
    -- 2514: del ints.tmp128
    .del 81,
    -- 2515: tmp46 += np.transpose(ints.tmp129, (0, 2, 1, 3)) * 2
    .add 180 (.tr 82 [0, 2, 1, 3]) 2 1,
    -- 2516: del ints.tmp129
    .del 82,
    -- 2517: tmp46 += np.transpose(ints.tmp137, (0, 2, 1, 3))
    .add 180 (.tr 83 [0, 2, 1, 3]) 1 1,
    -- 2518: del ints.tmp137
    .del 83,
    -- 2519: tmp46 += ints.tmp39
    .add 180 (.cp 84) 1 1,
    -- 2520: tmp46 += ints.tmp127 * -1
    .add 180 (.cp 85) (-1) 1,
    -- 2521: del ints.tmp127
    .del 85,
    -- 2522: tmp46 += ints.tmp138 * -1
    .add 180 (.cp 86) (-1) 1,
    -- 2523: del ints.tmp138
    .del 86,
    -- 2524: tmp37 = np.copy(ints.tmp141)
    .set 181 (.cp 87) 1 1,
    -- 2525: del ints.tmp141
    .del 87,
    -- 2526: tmp37 += ints.tmp148 * -1
    .add 181 (.cp 88) (-1) 1,
    -- 2527: del ints.tmp148
    .del 88,
    -- 2528: tmp41 = np.copy(tmp39) * -0.5
    .set 182 (.cp 120) (-1) 2,
    -- 2529: del tmp39
    .del 120,
    -- 2530: tmp41 += tmp40
    .add 182 (.cp 123) 1 1,
    -- 2531: del tmp40
    .del 123,
    -- 2532: tmp27 = np.copy(tmp18)
    .set 183 (.cp 155) 1 1,
    -- 2533: del tmp18
    .del 155,
    -- 2534: tmp27 += np.transpose(tmp20, (1, 0, 2)) * -2
    .add 183 (.tr 156 [1, 0, 2]) (-2) 1,
    -- 2535: del tmp20
    .del 156,
    -- 2536: tmp27 += np.transpose(tmp22, (1, 0, 2))
    .add 183 (.tr 154 [1, 0, 2]) 1 1,
    -- 2537: del tmp22
    .del 154,
    -- 2538: tmp27 += np.transpose(tmp24, (1, 0, 2)) * -2
    .add 183 (.tr 157 [1, 0, 2]) (-2) 1,
    -- 2539: del tmp24
    .del 157,
    -- 2540: tmp27 += tmp26
    .add 183 (.cp 153) 1 1,
    -- 2541: del tmp26
    .del 153,
    -- 2542: tmp17 = np.copy(np.transpose(tmp12, (1, 0, 2)))
    .set 184 (.tr 160 [1, 0, 2]) 1 1,
    -- 2543: del tmp12
    .del 160,
    -- 2544: tmp17 += np.transpose(tmp14, (1, 0, 2))
    .add 184 (.tr 159 [1, 0, 2]) 1 1,
    -- 2545: del tmp14
    .del 159,
    -- 2546: tmp17 += tmp16
    .add 184 (.cp 158) 1 1,
    -- 2547: del tmp16
    .del 158,
    -- 2548: tmp28 = np.copy(ints.tmp72)
    .set 185 (.cp 89) 1 1,
    -- 2549: del ints.tmp72
    .del 89,
    -- 2550: tmp28 += np.transpose(ints.tmp80, (0, 2, 1, 3)) * -1
    .add 185 (.tr 90 [0, 2, 1, 3]) (-1) 1,
    -- 2551: del ints.tmp80
    .del 90,
    -- 2552: tmp34 = np.copy(ints.tmp103)
    .set 186 (.cp 91) 1 1,
    -- 2553: del ints.tmp103
    .del 91,
    -- 2554: tmp34 += np.transpose(ints.tmp69, (2, 0, 1, 3)) * -1
    .add 186 (.tr 92 [2, 0, 1, 3]) (-1) 1,
    -- 2555: del ints.tmp69
    .del 92,
    -- 2556: tmp3 = np.copy(f.aa.ov)
    .set 187 (.cp 37) 1 1,
    -- 2557: tmp3 += ints.tmp14
    .add 187 (.cp 93) 1 1,
    -- 2558: del ints.tmp14
    .del 93,
    -- 2559: tmp3 += ints.tmp19
    .add 187 (.cp 94) 1 1,
    -- 2560: del ints.tmp19
    .del 94,
    -- 2561: tmp3 += ints.tmp12 * -1
    .add 187 (.cp 95) (-1) 1,
    -- 2562: del ints.tmp12
    .del 95,
    -- 2563: tmp7 = np.copy(f.bb.oo)
    .set 188 (.cp 16) 1 1,
    -- 2564: tmp7 += ints.tmp36
    .add 188 (.cp 17) 1 1,
    -- 2565: del ints.tmp36
    .del 17,
    -- 2566: tmp7 += np.transpose(ints.tmp42, (1, 0))
    .add 188 (.tr 96 [1, 0]) 1 1,
    -- 2567: del ints.tmp42
    .del 96,
    -- 2568: tmp7 += np.transpose(ints.tmp43, (1, 0))
    .add 188 (.tr 97 [1, 0]) 1 1,
    -- 2569: del ints.tmp43
    .del 97,
    -- 2570: tmp7 += np.transpose(ints.tmp52, (1, 0)) * 2
    .add 188 (.tr 5 [1, 0]) 2 1,
    -- 2571: del ints.tmp52
    .del 5,
    -- 2572: tmp7 += np.transpose(ints.tmp55, (1, 0))
    .add 188 (.tr 6 [1, 0]) 1 1,
    -- 2573: del ints.tmp55
    .del 6,
    -- 2574: tmp7 += np.transpose(ints.tmp58, (1, 0))
    .add 188 (.tr 98 [1, 0]) 1 1,
    -- 2575: del ints.tmp58
    .del 98,
    -- 2576: tmp7 += np.transpose(ints.tmp59, (1, 0))
    .add 188 (.tr 99 [1, 0]) 1 1,
    -- 2577: del ints.tmp59
    .del 99,
    -- 2578: tmp7 += np.transpose(ints.tmp41, (1, 0)) * -1
    .add 188 (.tr 100 [1, 0]) (-1) 1,
    -- 2579: del ints.tmp41
    .del 100,
    -- 2580: tmp7 += np.transpose(ints.tmp57, (1, 0)) * -1
    .add 188 (.tr 101 [1, 0]) (-1) 1,
    -- 2581: del ints.tmp57
    .del 101,
    -- 2582: tmp5 = np.copy(ints.tmp37)
    .set 189 (.cp 8) 1 1,
    -- 2583: del ints.tmp37
    .del 8,
    -- 2584: tmp5 += ints.tmp47 * -1
    .add 189 (.cp 102) (-1) 1,
    -- 2585: del ints.tmp47
    .del 102,
    -- 2586: tmp2 = np.copy(f.bb.ov)
    .set 190 (.cp 35) 1 1,
    -- 2587: tmp2 += ints.tmp18
    .add 190 (.cp 103) 1 1,
    -- 2588: del ints.tmp18
    .del 103,
    -- 2589: tmp2 += ints.tmp21
    .add 190 (.cp 104) 1 1,
    -- 2590: del ints.tmp21
    .del 104,
    -- 2591: tmp2 += ints.tmp17 * -1
    .add 190 (.cp 105) (-1) 1,
    -- 2592: del ints.tmp17
    .del 105,
    -- 2593: tmp6 = np.copy(ints.tmp39)
    .set 191 (.cp 84) 1 1,
    -- 2594: del ints.tmp39
    .del 84,
    -- 2595: tmp6 += ints.tmp49
    .add 191 (.cp 106) 1 1,
    -- 2596: del ints.tmp49
    .del 106,
    -- 2597: tmp4 = np.copy(f.aa.oo)
    .set 192 (.cp 22) 1 1,
    -- 2598: tmp4 += np.transpose(ints.tmp11, (1, 0))
    .add 192 (.tr 107 [1, 0]) 1 1,
    -- 2599: del ints.tmp11
    .del 107,
    -- 2600: tmp4 += ints.tmp1
    .add 192 (.cp 23) 1 1,
    -- 2601: del ints.tmp1
    .del 23,
    -- 2602: tmp4 += np.transpose(ints.tmp27, (1, 0)) * 2
    .add 192 (.tr 26 [1, 0]) 2 1,
    -- 2603: del ints.tmp27
    .del 26,
    -- 2604: tmp4 += np.transpose(ints.tmp30, (1, 0))
    .add 192 (.tr 27 [1, 0]) 1 1,
    -- 2605: del ints.tmp30
    .del 27,
    -- 2606: tmp4 += np.transpose(ints.tmp33, (1, 0))
    .add 192 (.tr 108 [1, 0]) 1 1,
    -- 2607: del ints.tmp33
    .del 108,
    -- 2608: tmp4 += np.transpose(ints.tmp34, (1, 0))
    .add 192 (.tr 109 [1, 0]) 1 1,
    -- 2609: del ints.tmp34
    .del 109,
    -- 2610: tmp4 += np.transpose(ints.tmp9, (1, 0))
    .add 192 (.tr 110 [1, 0]) 1 1,
    -- 2611: del ints.tmp9
    .del 110,
    -- 2612: tmp4 += np.transpose(ints.tmp32, (1, 0)) * -1
    .add 192 (.tr 111 [1, 0]) (-1) 1,
    -- 2613: del ints.tmp32
    .del 111,
    -- 2614: tmp4 += np.transpose(ints.tmp7, (1, 0)) * -1
    .add 192 (.tr 112 [1, 0]) (-1) 1,
    -- 2615: del ints.tmp7
    .del 112,
    -- 2616: tmp1 = np.copy(ints.tmp24)
    .set 193 (.cp 113) 1 1,
    -- 2617: del ints.tmp24
    .del 113,
    -- 2618: tmp1 += ints.tmp4
    .add 193 (.cp 61) 1 1,
    -- 2619: del ints.tmp4
    .del 61,
    -- 2620: tmp0 = np.copy(ints.tmp22)
    .set 194 (.cp 114) 1 1,
    -- 2621: del ints.tmp22
    .del 114,
    -- 2622: tmp0 += ints.tmp2 * -1
    .add 194 (.cp 24) (-1) 1,
    -- 2623: del ints.tmp2
    .del 24,
    -- 2624: r2new.bbb = np.copy(tmp65)
    .set 195 (.cp 165) 1 1,
    -- 2625: r2new.bbb += np.transpose(tmp65, (1, 0, 2)) * -1
    .add 195 (.tr 165 [1, 0, 2]) (-1) 1,
    -- 2626: del tmp65
    .del 165,
    -- 2627: r2new.bbb += tmp74 * -1
    .add 195 (.cp 161) (-1) 1,
    -- 2628: r2new.bbb += np.transpose(tmp74, (1, 0, 2))
    .add 195 (.tr 161 [1, 0, 2]) 1 1,
    -- 2629: del tmp74
    .del 161,
    -- 2630: r2new.bbb += einsum(r2.bbb, (0, 1, 2), tmp75, (3, 4, 1, 0), (3, 4, 2)) * -2
    .add 195 (.ein [(9, [0, 1, 2]), (162, [3, 4, 1, 0])] [3, 4, 2]) (-2) 1,
    -- 2631: del tmp75
    .del 162,
    -- 2632: r2new.bbb += einsum(r2.bbb, (0, 1, 2), tmp54, (2, 3), (0, 1, 3)) * -2
    .add 195 (.ein [(9, [0, 1, 2]), (164, [2, 3])] [0, 1, 3]) (-2) 1,
    -- 2633: r2new.bbb += einsum(tmp45, (0,), t2.bbbb, (1, 2, 3, 0), (1, 2, 3)) * -4
    .add 195 (.ein [(163, [0]), (115, [1, 2, 3, 0])] [1, 2, 3]) (-4) 1,
    -- 2634: r2new.bbb += einsum(tmp76, (0, 1, 2, 3), r1.b, (2,), (1, 0, 3)) * 2
    .add 195 (.ein [(167, [0, 1, 2, 3]), (31, [2])] [1, 0, 3]) 2 1,
    -- 2635: del tmp76
    .del 167,
    -- 2636: r2new.bbb += einsum(tmp56, (0, 1), r1.b, (2,), (2, 0, 1)) * -1
    .add 195 (.ein [(166, [0, 1]), (31, [2])] [2, 0, 1]) (-1) 1,
    -- 2637: r2new.bbb += einsum(tmp56, (0, 1), r1.b, (2,), (0, 2, 1))
    .add 195 (.ein [(166, [0, 1]), (31, [2])] [0, 2, 1]) 1 1,
    -- 2638: r2new.bab = einsum(r2.aaa, (0, 1, 2), ints.tmp163, (1, 3, 2, 4), (3, 0, 4)) * 2
    .set 196 (.ein [(0, [0, 1, 2]), (30, [1, 3, 2, 4])] [3, 0, 4]) 2 1,
    -- 2639: del ints.tmp163
    .del 30,
    -- 2640: r2new.bab += einsum(r2.bab, (0, 1, 2), tmp49, (3, 0, 4, 2), (3, 1, 4)) * -1
    .add 196 (.ein [(3, [0, 1, 2]), (125, [3, 0, 4, 2])] [3, 1, 4]) (-1) 1,
    -- 2641: del tmp49
    .del 125,
    -- 2642: r2new.bab += einsum(tmp50, (0, 1, 2, 3), r2.bab, (4, 1, 3), (4, 0, 2))
    .add 196 (.ein [(171, [0, 1, 2, 3]), (3, [4, 1, 3])] [4, 0, 2]) 1 1,
    -- 2643: del tmp50
    .del 171,
    -- 2644: r2new.bab += einsum(r2.bab, (0, 1, 2), tmp51, (3, 1, 4, 0), (4, 3, 2))
    .add 196 (.ein [(3, [0, 1, 2]), (169, [3, 1, 4, 0])] [4, 3, 2]) 1 1,
    -- 2645: del tmp51
    .del 169,
    -- 2646: r2new.bab += einsum(tmp52, (0, 1, 2), tmp10, (0, 3), (1, 3, 2)) * -1
    .add 196 (.ein [(172, [0, 1, 2]), (136, [0, 3])] [1, 3, 2]) (-1) 1,
    -- 2647: del tmp10, tmp52
    .del 136,
    .del 172,
    -- 2648: r2new.bab += einsum(r2.bab, (0, 1, 2), tmp54, (2, 3), (0, 1, 3)) * -1
    .add 196 (.ein [(3, [0, 1, 2]), (164, [2, 3])] [0, 1, 3]) (-1) 1,
    -- 2649: del tmp54
    .del 164,
    -- 2650: r2new.bab += einsum(t2.abab, (0, 1, 2, 3), tmp33, (2,), (1, 0, 3)) * -2
    .add 196 (.ein [(116, [0, 1, 2, 3]), (170, [2])] [1, 0, 3]) (-2) 1,
    -- 2651: r2new.bab += einsum(tmp55, (0, 1, 2, 3), r1.a, (1,), (2, 0, 3))
    .add 196 (.ein [(168, [0, 1, 2, 3]), (39, [1])] [2, 0, 3]) 1 1,
    -- 2652: del tmp55
    .del 168,
    -- 2653: r2new.bab += einsum(r2.bab, (0, 1, 2), tmp47, (0, 3), (3, 1, 2)) * -1
    .add 196 (.ein [(3, [0, 1, 2]), (173, [0, 3])] [3, 1, 2]) (-1) 1,
    -- 2654: r2new.bab += einsum(tmp48, (0, 1), r2.bab, (2, 0, 3), (2, 1, 3)) * -1
    .add 196 (.ein [(174, [0, 1]), (3, [2, 0, 3])] [2, 1, 3]) (-1) 1,
    -- 2655: r2new.bab += einsum(tmp56, (0, 1), r1.a, (2,), (0, 2, 1))
    .add 196 (.ein [(166, [0, 1]), (39, [2])] [0, 2, 1]) 1 1,
    -- 2656: del tmp56
    .del 166,
    -- 2657: r2new.aba = einsum(ints.tmp98, (0, 1, 2, 3), r2.bbb, (4, 1, 3), (0, 4, 2)) * 2
    .set 197 (.ein [(40, [0, 1, 2, 3]), (9, [4, 1, 3])] [0, 4, 2]) 2 1,
    -- 2658: del ints.tmp98
    .del 40,
    -- 2659: r2new.aba += einsum(tmp36, (0, 1, 2, 3), r2.aba, (1, 4, 3), (0, 4, 2)) * -1
    .add 197 (.ein [(176, [0, 1, 2, 3]), (4, [1, 4, 3])] [0, 4, 2]) (-1) 1,
    -- 2660: del tmp36
    .del 176,
    -- 2661: r2new.aba += einsum(r2.aba, (0, 1, 2), tmp37, (3, 1, 4, 2), (0, 3, 4))
    .add 197 (.ein [(4, [0, 1, 2]), (181, [3, 1, 4, 2])] [0, 3, 4]) 1 1,
    -- 2662: del tmp37
    .del 181,
    -- 2663: r2new.aba += einsum(tmp38, (0, 1, 2, 3), r2.aba, (1, 3, 4), (0, 2, 4))
    .add 197 (.ein [(175, [0, 1, 2, 3]), (4, [1, 3, 4])] [0, 2, 4]) 1 1,
    -- 2664: del tmp38
    .del 175,
    -- 2665: r2new.aba += einsum(tmp41, (0, 1), tmp42, (0, 2, 3), (2, 1, 3)) * -2
    .add 197 (.ein [(182, [0, 1]), (179, [0, 2, 3])] [2, 1, 3]) (-2) 1,
    -- 2666: del tmp41, tmp42
    .del 182,
    .del 179,
    -- 2667: r2new.aba += einsum(tmp30, (0, 1), r2.aba, (2, 3, 0), (2, 3, 1)) * -1
    .add 197 (.ein [(178, [0, 1]), (4, [2, 3, 0])] [2, 3, 1]) (-1) 1,
    -- 2668: r2new.aba += einsum(t2.abab, (0, 1, 2, 3), tmp45, (3,), (0, 1, 2)) * -2
    .add 197 (.ein [(116, [0, 1, 2, 3]), (163, [3])] [0, 1, 2]) (-2) 1,
    -- 2669: del tmp45
    .del 163,
    -- 2670: r2new.aba += einsum(tmp46, (0, 1, 2, 3), r1.b, (2,), (0, 1, 3))
    .add 197 (.ein [(180, [0, 1, 2, 3]), (31, [2])] [0, 1, 3]) 1 1,
    -- 2671: del tmp46
    .del 180,
    -- 2672: r2new.aba += einsum(r2.aba, (0, 1, 2), tmp47, (1, 3), (0, 3, 2)) * -1
    .add 197 (.ein [(4, [0, 1, 2]), (173, [1, 3])] [0, 3, 2]) (-1) 1,
    -- 2673: del tmp47
    .del 173,
    -- 2674: r2new.aba += einsum(tmp48, (0, 1), r2.aba, (0, 2, 3), (1, 2, 3)) * -1
    .add 197 (.ein [(174, [0, 1]), (4, [0, 2, 3])] [1, 2, 3]) (-1) 1,
    -- 2675: del tmp48
    .del 174,
    -- 2676: r2new.aba += einsum(r1.b, (0,), tmp35, (1, 2), (1, 0, 2))
    .add 197 (.ein [(31, [0]), (177, [1, 2])] [1, 0, 2]) 1 1,
    -- 2677: r2new.aaa = np.copy(tmp17) * -1
    .set 198 (.cp 184) (-1) 1,
    -- 2678: r2new.aaa += np.transpose(tmp17, (1, 0, 2))
    .add 198 (.tr 184 [1, 0, 2]) 1 1,
    -- 2679: del tmp17
    .del 184,
    -- 2680: r2new.aaa += tmp27
    .add 198 (.cp 183) 1 1,
    -- 2681: r2new.aaa += np.transpose(tmp27, (1, 0, 2)) * -1
    .add 198 (.tr 183 [1, 0, 2]) (-1) 1,
    -- 2682: del tmp27
    .del 183,
    -- 2683: r2new.aaa += einsum(tmp28, (0, 1, 2, 3), r2.aaa, (2, 3, 4), (0, 1, 4)) * 2
    .add 198 (.ein [(185, [0, 1, 2, 3]), (0, [2, 3, 4])] [0, 1, 4]) 2 1,
    -- 2684: del tmp28
    .del 185,
    -- 2685: r2new.aaa += einsum(tmp30, (0, 1), r2.aaa, (2, 3, 0), (2, 3, 1)) * -2
    .add 198 (.ein [(178, [0, 1]), (0, [2, 3, 0])] [2, 3, 1]) (-2) 1,
    -- 2686: del tmp30
    .del 178,
    -- 2687: r2new.aaa += einsum(t2.aaaa, (0, 1, 2, 3), tmp33, (3,), (0, 1, 2)) * -4
    .add 198 (.ein [(117, [0, 1, 2, 3]), (170, [3])] [0, 1, 2]) (-4) 1,
    -- 2688: del tmp33
    .del 170,
    -- 2689: r2new.aaa += einsum(tmp34, (0, 1, 2, 3), r1.a, (0,), (2, 1, 3)) * -2
    .add 198 (.ein [(186, [0, 1, 2, 3]), (39, [0])] [2, 1, 3]) (-2) 1,
    -- 2690: del tmp34
    .del 186,
    -- 2691: r2new.aaa += einsum(tmp35, (0, 1), r1.a, (2,), (2, 0, 1)) * -1
    .add 198 (.ein [(177, [0, 1]), (39, [2])] [2, 0, 1]) (-1) 1,
    -- 2692: r2new.aaa += einsum(tmp35, (0, 1), r1.a, (2,), (0, 2, 1))
    .add 198 (.ein [(177, [0, 1]), (39, [2])] [0, 2, 1]) 1 1,
    -- 2693: del tmp35
    .del 177,
    -- 2694: r1new.b = einsum(tmp5, (0, 1, 2, 3), r2.bbb, (1, 2, 3), (0,)) * -2
    .set 199 (.ein [(189, [0, 1, 2, 3]), (9, [1, 2, 3])] [0]) (-2) 1,
    -- 2695: del tmp5
    .del 189,
    -- 2696: r1new.b += einsum(r2.aba, (0, 1, 2), tmp6, (0, 3, 1, 2), (3,))
    .add 199 (.ein [(4, [0, 1, 2]), (191, [0, 3, 1, 2])] [3]) 1 1,
    -- 2697: del tmp6
    .del 191,
    -- 2698: r1new.b += einsum(tmp3, (0, 1), r2.aba, (0, 2, 1), (2,)) * -1
    .add 199 (.ein [(187, [0, 1]), (4, [0, 2, 1])] [2]) (-1) 1,
    -- 2699: r1new.b += einsum(r2.bbb, (0, 1, 2), tmp2, (1, 2), (0,)) * 2
    .add 199 (.ein [(9, [0, 1, 2]), (190, [1, 2])] [0]) 2 1,
    -- 2700: r1new.b += einsum(tmp7, (0, 1), r1.b, (0,), (1,)) * -1
    .add 199 (.ein [(188, [0, 1]), (31, [0])] [1]) (-1) 1,
    -- 2701: del tmp7
    .del 188,
    -- 2702: r1new.a = einsum(tmp0, (0, 1, 2, 3), r2.aaa, (1, 2, 3), (0,)) * 2
    .set 200 (.ein [(194, [0, 1, 2, 3]), (0, [1, 2, 3])] [0]) 2 1,
    -- 2703: del tmp0
    .del 194,
    -- 2704: r1new.a += einsum(tmp1, (0, 1, 2, 3), r2.bab, (2, 1, 3), (0,))
    .add 200 (.ein [(193, [0, 1, 2, 3]), (3, [2, 1, 3])] [0]) 1 1,
    -- 2705: del tmp1
    .del 193,
    -- 2706: r1new.a += einsum(tmp2, (0, 1), r2.bab, (0, 2, 1), (2,)) * -1
    .add 200 (.ein [(190, [0, 1]), (3, [0, 2, 1])] [2]) (-1) 1,
    -- 2707: del tmp2
    .del 190,
    -- 2708: r1new.a += einsum(tmp3, (0, 1), r2.aaa, (2, 0, 1), (2,)) * 2
    .add 200 (.ein [(187, [0, 1]), (0, [2, 0, 1])] [2]) 2 1,
    -- 2709: del tmp3
    .del 187,
    -- 2710: r1new.a += einsum(r1.a, (0,), tmp4, (0, 1), (1,)) * -1
    .add 200 (.ein [(39, [0]), (192, [0, 1])] [1]) (-1) 1,
    -- 2711: del tmp4
    .del 192
  ]
  ret := [(chars! "r1new.b", 199), (chars! "r1new.a", 200), (chars! "r2new.bbb", 195), (chars! "r2new.bab", 196), (chars! "r2new.aba", 197), (chars! "r2new.aaa", 198)]

/-- codegen/UDFCC2.py:3349-3797 `hbar_lmatvec_ip_intermediates`. -/
def hbar_lmatvec_ip_intermediates : GenFun where
  args := [chars! "v.baa.xov", chars! "t1.aa", chars! "t1.bb", chars! "v.bbb.xov", chars! "t2.abab", chars! "t2.bbbb", chars! "t2.aaaa", chars! "v.baa.xvv", chars! "v.bbb.xvv", chars! "v.bbb.xoo", chars! "v.baa.xoo", chars! "f.bb.ov", chars! "f.aa.ov", chars! "f.bb.vv", chars! "f.aa.vv", chars! "f.bb.oo", chars! "f.aa.oo"]
  body := [
    -- 3559: tmp29 = einsum(v.baa.xov, (0, 1, 2), t1.aa, (1, 2), (0,))
    .set 17 (.ein [(0, [0, 1, 2]), (1, [1, 2])] [0]) 1 1,
    -- 3560: tmp31 = einsum(t1.bb, (0, 1), v.bbb.xov, (2, 0, 1), (2,))
    .set 18 (.ein [(2, [0, 1]), (3, [2, 0, 1])] [2]) 1 1,
    -- 3561: tmp106 = einsum(t1.bb, (0, 1), v.bbb.xov, (2, 3, 1), (2, 0, 3))
    .set 19 (.ein [(2, [0, 1]), (3, [2, 3, 1])] [2, 0, 3]) 1 1,
    -- 3562: tmp27 = einsum(t1.aa, (0, 1), v.baa.xov, (2, 3, 1), (2, 0, 3))
    .set 20 (.ein [(1, [0, 1]), (0, [2, 3, 1])] [2, 0, 3]) 1 1,
    -- 3563: tmp170 = einsum(v.baa.xov, (0, 1, 2), v.bbb.xov, (0, 3, 4), (1, 3, 2, 4))
    .set 21 (.ein [(0, [0, 1, 2]), (3, [0, 3, 4])] [1, 3, 2, 4]) 1 1,
    -- 3564: tmp325 = einsum(v.bbb.xov, (0, 1, 2), v.bbb.xov, (0, 3, 4), (3, 1, 4, 2))
    .set 22 (.ein [(3, [0, 1, 2]), (3, [0, 3, 4])] [3, 1, 4, 2]) 1 1,
    -- 3565: tmp47 = einsum(v.bbb.xov, (0, 1, 2), tmp29, (0,), (1, 2))
    .set 23 (.ein [(3, [0, 1, 2]), (17, [0])] [1, 2]) 1 1,
    -- 3566: tmp48 = einsum(tmp31, (0,), v.baa.xov, (0, 1, 2), (1, 2))
    .set 24 (.ein [(18, [0]), (0, [0, 1, 2])] [1, 2]) 1 1,
    -- 3567: tmp44 = einsum(tmp31, (0,), v.bbb.xov, (0, 1, 2), (1, 2))
    .set 25 (.ein [(18, [0]), (3, [0, 1, 2])] [1, 2]) 1 1,
    -- 3568: tmp107 = einsum(tmp106, (0, 1, 2), v.bbb.xov, (0, 1, 3), (2, 3))
    .set 26 (.ein [(19, [0, 1, 2]), (3, [0, 1, 3])] [2, 3]) 1 1,
    -- 3569: tmp39 = einsum(v.baa.xov, (0, 1, 2), tmp29, (0,), (1, 2))
    .set 27 (.ein [(0, [0, 1, 2]), (17, [0])] [1, 2]) 1 1,
    -- 3570: tmp99 = einsum(v.baa.xov, (0, 1, 2), tmp27, (0, 1, 3), (3, 2))
    .set 28 (.ein [(0, [0, 1, 2]), (20, [0, 1, 3])] [3, 2]) 1 1,
    -- 3571: tmp166 = einsum(v.baa.xov, (0, 1, 2), v.baa.xov, (0, 3, 4), (3, 1, 4, 2))
    .set 29 (.ein [(0, [0, 1, 2]), (0, [0, 3, 4])] [3, 1, 4, 2]) 1 1,
    -- 3572: tmp59 = einsum(t2.abab, (0, 1, 2, 3), v.bbb.xov, (4, 1, 3), (4, 0, 2))
    .set 30 (.ein [(4, [0, 1, 2, 3]), (3, [4, 1, 3])] [4, 0, 2]) 1 1,
    -- 3573: tmp77 = einsum(t2.abab, (0, 1, 2, 3), v.baa.xov, (4, 0, 2), (4, 1, 3))
    .set 31 (.ein [(4, [0, 1, 2, 3]), (0, [4, 0, 2])] [4, 1, 3]) 1 1,
    -- 3574: tmp82 = einsum(v.bbb.xov, (0, 1, 2), t2.bbbb, (3, 1, 4, 2), (0, 3, 4))
    .set 32 (.ein [(3, [0, 1, 2]), (5, [3, 1, 4, 2])] [0, 3, 4]) 1 1,
    -- 3575: tmp56 = einsum(v.baa.xov, (0, 1, 2), t2.aaaa, (3, 1, 4, 2), (0, 3, 4))
    .set 33 (.ein [(0, [0, 1, 2]), (6, [3, 1, 4, 2])] [0, 3, 4]) 1 1,
    -- 3576: tmp230 = einsum(tmp106, (0, 1, 2), tmp27, (0, 3, 4), (3, 4, 1, 2))
    .set 34 (.ein [(19, [0, 1, 2]), (20, [0, 3, 4])] [3, 4, 1, 2]) 1 1,
    -- 3577: tmp351 = einsum(tmp106, (0, 1, 2), tmp106, (0, 3, 4), (1, 3, 2, 4))
    .set 35 (.ein [(19, [0, 1, 2]), (19, [0, 3, 4])] [1, 3, 2, 4]) 1 1,
    -- 3578: tmp41 = einsum(v.baa.xvv, (0, 1, 2), t1.aa, (3, 2), (0, 3, 1))
    .set 36 (.ein [(7, [0, 1, 2]), (1, [3, 2])] [0, 3, 1]) 1 1,
    -- 3579: tmp45 = einsum(t1.bb, (0, 1), v.bbb.xvv, (2, 3, 1), (2, 0, 3))
    .set 37 (.ein [(2, [0, 1]), (8, [2, 3, 1])] [2, 0, 3]) 1 1,
    -- 3580: tmp194 = einsum(v.bbb.xoo, (0, 1, 2), tmp27, (0, 3, 4), (3, 4, 1, 2))
    .set 38 (.ein [(9, [0, 1, 2]), (20, [0, 3, 4])] [3, 4, 1, 2]) 1 1,
    -- 3581: tmp196 = einsum(tmp106, (0, 1, 2), v.baa.xoo, (0, 3, 4), (3, 4, 1, 2))
    .set 39 (.ein [(19, [0, 1, 2]), (10, [0, 3, 4])] [3, 4, 1, 2]) 1 1,
    -- 3582: tmp334 = einsum(tmp106, (0, 1, 2), v.bbb.xoo, (0, 3, 4), (1, 3, 4, 2))
    .set 40 (.ein [(19, [0, 1, 2]), (9, [0, 3, 4])] [1, 3, 4, 2]) 1 1,
    -- 3583: tmp171 = einsum(t2.abab, (0, 1, 2, 3), tmp170, (4, 5, 2, 3), (0, 4, 1, 5))
    .set 41 (.ein [(4, [0, 1, 2, 3]), (21, [4, 5, 2, 3])] [0, 4, 1, 5]) 1 1,
    -- 3584: tmp326 = einsum(t2.bbbb, (0, 1, 2, 3), tmp325, (4, 5, 2, 3), (0, 1, 5, 4)) * -1
    .set 42 (.ein [(5, [0, 1, 2, 3]), (22, [4, 5, 2, 3])] [0, 1, 5, 4]) (-1) 1,
    -- 3585: tmp54 = einsum(tmp27, (0, 1, 2), v.bbb.xov, (0, 3, 4), (1, 2, 3, 4))
    .set 43 (.ein [(20, [0, 1, 2]), (3, [0, 3, 4])] [1, 2, 3, 4]) 1 1,
    -- 3586: tmp137 = einsum(v.bbb.xov, (0, 1, 2), tmp106, (0, 3, 4), (3, 1, 4, 2))
    .set 44 (.ein [(3, [0, 1, 2]), (19, [0, 3, 4])] [3, 1, 4, 2]) 1 1,
    -- 3587: tmp282 = einsum(v.baa.xvv, (0, 1, 2), v.bbb.xov, (0, 3, 4), (3, 1, 2, 4))
    .set 45 (.ein [(7, [0, 1, 2]), (3, [0, 3, 4])] [3, 1, 2, 4]) 1 1,
    -- 3588: tmp279 = einsum(v.bbb.xov, (0, 1, 2), v.bbb.xvv, (0, 3, 4), (1, 3, 4, 2))
    .set 46 (.ein [(3, [0, 1, 2]), (8, [0, 3, 4])] [1, 3, 4, 2]) 1 1,
    -- 3589: tmp25 = einsum(v.bbb.xov, (0, 1, 2), v.baa.xoo, (0, 3, 4), (3, 4, 1, 2))
    .set 47 (.ein [(3, [0, 1, 2]), (10, [0, 3, 4])] [3, 4, 1, 2]) 1 1,
    -- 3590: tmp64 = einsum(v.bbb.xoo, (0, 1, 2), v.bbb.xov, (0, 3, 4), (1, 2, 3, 4))
    .set 48 (.ein [(9, [0, 1, 2]), (3, [0, 3, 4])] [1, 2, 3, 4]) 1 1,
    -- 3591: tmp36 = einsum(v.bbb.xoo, (0, 1, 2), v.baa.xoo, (0, 3, 4), (3, 4, 1, 2))
    .set 49 (.ein [(9, [0, 1, 2]), (10, [0, 3, 4])] [3, 4, 1, 2]) 1 1,
    -- 3592: tmp246 = einsum(v.bbb.xoo, (0, 1, 2), v.bbb.xoo, (0, 3, 4), (1, 3, 4, 2))
    .set 50 (.ein [(9, [0, 1, 2]), (9, [0, 3, 4])] [1, 3, 4, 2]) 1 1,
    -- 3593: tmp227 = einsum(tmp27, (0, 1, 2), tmp27, (0, 3, 4), (1, 3, 2, 4))
    .set 51 (.ein [(20, [0, 1, 2]), (20, [0, 3, 4])] [1, 3, 2, 4]) 1 1,
    -- 3594: tmp225 = einsum(t1.bb, (0, 1), tmp47, (2, 1), (0, 2))
    .set 52 (.ein [(2, [0, 1]), (23, [2, 1])] [0, 2]) 1 1,
    -- 3595: tmp176 = einsum(t1.aa, (0, 1), tmp48, (2, 1), (0, 2))
    .set 53 (.ein [(1, [0, 1]), (24, [2, 1])] [0, 2]) 1 1,
    -- 3596: tmp221 = einsum(t1.bb, (0, 1), tmp44, (2, 1), (0, 2))
    .set 54 (.ein [(2, [0, 1]), (25, [2, 1])] [0, 2]) 1 1,
    -- 3597: tmp219 = einsum(tmp107, (0, 1), t1.bb, (2, 1), (2, 0))
    .set 55 (.ein [(26, [0, 1]), (2, [2, 1])] [2, 0]) 1 1,
    -- 3598: tmp175 = einsum(t1.aa, (0, 1), tmp39, (2, 1), (0, 2))
    .set 56 (.ein [(1, [0, 1]), (27, [2, 1])] [0, 2]) 1 1,
    -- 3599: tmp174 = einsum(t1.aa, (0, 1), tmp99, (2, 1), (0, 2))
    .set 57 (.ein [(1, [0, 1]), (28, [2, 1])] [0, 2]) 1 1,
    -- 3600: tmp208 = einsum(tmp31, (0,), v.baa.xvv, (0, 1, 2), (1, 2))
    .set 58 (.ein [(18, [0]), (7, [0, 1, 2])] [1, 2]) 1 1,
    -- 3601: tmp206 = einsum(tmp29, (0,), v.bbb.xvv, (0, 1, 2), (1, 2))
    .set 59 (.ein [(17, [0]), (8, [0, 1, 2])] [1, 2]) 1 1,
    -- 3602: tmp203 = einsum(tmp31, (0,), v.bbb.xvv, (0, 1, 2), (1, 2))
    .set 60 (.ein [(18, [0]), (8, [0, 1, 2])] [1, 2]) 1 1,
    -- 3603: tmp198 = einsum(v.baa.xvv, (0, 1, 2), tmp29, (0,), (1, 2))
    .set 61 (.ein [(7, [0, 1, 2]), (17, [0])] [1, 2]) 1 1,
    -- 3604: tmp189 = einsum(tmp27, (0, 1, 2), v.baa.xoo, (0, 3, 4), (1, 3, 4, 2))
    .set 62 (.ein [(20, [0, 1, 2]), (10, [0, 3, 4])] [1, 3, 4, 2]) 1 1,
    -- 3605: tmp187 = einsum(v.bbb.xoo, (0, 1, 2), tmp29, (0,), (1, 2))
    .set 63 (.ein [(9, [0, 1, 2]), (17, [0])] [1, 2]) 1 1,
    -- 3606: tmp32 = einsum(tmp31, (0,), v.baa.xoo, (0, 1, 2), (1, 2))
    .set 64 (.ein [(18, [0]), (10, [0, 1, 2])] [1, 2]) 1 1,
    -- 3607: tmp183 = einsum(tmp31, (0,), v.bbb.xoo, (0, 1, 2), (1, 2))
    .set 65 (.ein [(18, [0]), (9, [0, 1, 2])] [1, 2]) 1 1,
    -- 3608: del tmp31
    .del 18,
    -- 3609: tmp181 = einsum(tmp106, (0, 1, 2), v.bbb.xoo, (0, 3, 1), (3, 2))
    .set 66 (.ein [(19, [0, 1, 2]), (9, [0, 3, 1])] [3, 2]) 1 1,
    -- 3610: tmp30 = einsum(tmp29, (0,), v.baa.xoo, (0, 1, 2), (1, 2))
    .set 67 (.ein [(17, [0]), (10, [0, 1, 2])] [1, 2]) 1 1,
    -- 3611: del tmp29
    .del 17,
    -- 3612: tmp28 = einsum(tmp27, (0, 1, 2), v.baa.xoo, (0, 3, 1), (3, 2))
    .set 68 (.ein [(20, [0, 1, 2]), (10, [0, 3, 1])] [3, 2]) 1 1,
    -- 3613: tmp167 = einsum(t2.aaaa, (0, 1, 2, 3), tmp166, (4, 5, 2, 3), (0, 1, 5, 4)) * -1
    .set 69 (.ein [(6, [0, 1, 2, 3]), (29, [4, 5, 2, 3])] [0, 1, 5, 4]) (-1) 1,
    -- 3614: tmp60 = einsum(v.baa.xov, (0, 1, 2), tmp59, (0, 3, 2), (3, 1))
    .set 70 (.ein [(0, [0, 1, 2]), (30, [0, 3, 2])] [3, 1]) 1 1,
    -- 3615: tmp161 = einsum(v.bbb.xov, (0, 1, 2), tmp77, (0, 3, 2), (3, 1))
    .set 71 (.ein [(3, [0, 1, 2]), (31, [0, 3, 2])] [3, 1]) 1 1,
    -- 3616: tmp158 = einsum(tmp82, (0, 1, 2), v.bbb.xov, (0, 3, 2), (1, 3))
    .set 72 (.ein [(32, [0, 1, 2]), (3, [0, 3, 2])] [1, 3]) 1 1,
    -- 3617: tmp57 = einsum(tmp56, (0, 1, 2), v.baa.xov, (0, 3, 2), (1, 3))
    .set 73 (.ein [(33, [0, 1, 2]), (0, [0, 3, 2])] [1, 3]) 1 1,
    -- 3618: tmp142 = einsum(tmp106, (0, 1, 2), v.baa.xov, (0, 3, 4), (3, 1, 2, 4))
    .set 74 (.ein [(19, [0, 1, 2]), (0, [0, 3, 4])] [3, 1, 2, 4]) 1 1,
    -- 3619: tmp50 = einsum(tmp27, (0, 1, 2), v.baa.xov, (0, 3, 4), (1, 3, 2, 4))
    .set 75 (.ein [(20, [0, 1, 2]), (0, [0, 3, 4])] [1, 3, 2, 4]) 1 1,
    -- 3620: tmp96 = einsum(v.baa.xov, (0, 1, 2), v.bbb.xvv, (0, 3, 4), (1, 2, 3, 4))
    .set 76 (.ein [(0, [0, 1, 2]), (8, [0, 3, 4])] [1, 2, 3, 4]) 1 1,
    -- 3621: tmp93 = einsum(v.baa.xvv, (0, 1, 2), v.baa.xov, (0, 3, 4), (3, 1, 2, 4))
    .set 77 (.ein [(7, [0, 1, 2]), (0, [0, 3, 4])] [3, 1, 2, 4]) 1 1,
    -- 3622: tmp67 = einsum(v.bbb.xoo, (0, 1, 2), v.baa.xov, (0, 3, 4), (3, 1, 2, 4))
    .set 78 (.ein [(9, [0, 1, 2]), (0, [0, 3, 4])] [3, 1, 2, 4]) 1 1,
    -- 3623: tmp23 = einsum(v.baa.xov, (0, 1, 2), v.baa.xoo, (0, 3, 4), (3, 4, 1, 2))
    .set 79 (.ein [(0, [0, 1, 2]), (10, [0, 3, 4])] [3, 4, 1, 2]) 1 1,
    -- 3624: tmp33 = einsum(v.baa.xoo, (0, 1, 2), v.baa.xoo, (0, 3, 4), (1, 3, 4, 2))
    .set 80 (.ein [(10, [0, 1, 2]), (10, [0, 3, 4])] [1, 3, 4, 2]) 1 1,
    -- 3625: tmp21 = einsum(t1.bb, (0, 1), f.bb.ov, (2, 1), (2, 0))
    .set 81 (.ein [(2, [0, 1]), (11, [2, 1])] [2, 0]) 1 1,
    -- 3626: tmp1 = einsum(f.aa.ov, (0, 1), t1.aa, (2, 1), (0, 2))
    .set 82 (.ein [(12, [0, 1]), (1, [2, 1])] [0, 2]) 1 1,
    -- 3627: tmp442 = einsum(t2.abab, (0, 1, 2, 3), tmp170, (4, 1, 2, 5), (0, 4, 3, 5))
    .set 83 (.ein [(4, [0, 1, 2, 3]), (21, [4, 1, 2, 5])] [0, 4, 3, 5]) 1 1,
    -- 3628: tmp441 = einsum(v.bbb.xvv, (0, 1, 2), v.baa.xoo, (0, 3, 4), (3, 4, 1, 2))
    .set 84 (.ein [(8, [0, 1, 2]), (10, [0, 3, 4])] [3, 4, 1, 2]) 1 1,
    -- 3629: tmp439 = einsum(v.bbb.xov, (0, 1, 2), tmp77, (0, 1, 3), (3, 2))
    .set 85 (.ein [(3, [0, 1, 2]), (31, [0, 1, 3])] [3, 2]) 1 1,
    -- 3630: tmp437 = einsum(tmp82, (0, 1, 2), v.bbb.xov, (0, 1, 3), (2, 3))
    .set 86 (.ein [(32, [0, 1, 2]), (3, [0, 1, 3])] [2, 3]) 1 1,
    -- 3631: tmp423 = einsum(t2.bbbb, (0, 1, 2, 3), tmp325, (1, 4, 5, 3), (0, 4, 2, 5))
    .set 87 (.ein [(5, [0, 1, 2, 3]), (22, [1, 4, 5, 3])] [0, 4, 2, 5]) 1 1,
    -- 3632: tmp421 = einsum(t2.abab, (0, 1, 2, 3), tmp325, (1, 4, 5, 3), (0, 4, 2, 5))
    .set 88 (.ein [(4, [0, 1, 2, 3]), (22, [1, 4, 5, 3])] [0, 4, 2, 5]) 1 1,
    -- 3633: tmp419 = einsum(v.bbb.xoo, (0, 1, 2), v.bbb.xvv, (0, 3, 4), (1, 2, 3, 4))
    .set 89 (.ein [(9, [0, 1, 2]), (8, [0, 3, 4])] [1, 2, 3, 4]) 1 1,
    -- 3634: tmp418 = einsum(t2.abab, (0, 1, 2, 3), tmp170, (0, 4, 5, 3), (1, 4, 2, 5))
    .set 90 (.ein [(4, [0, 1, 2, 3]), (21, [0, 4, 5, 3])] [1, 4, 2, 5]) 1 1,
    -- 3635: tmp417 = einsum(v.bbb.xoo, (0, 1, 2), v.baa.xvv, (0, 3, 4), (1, 2, 3, 4))
    .set 91 (.ein [(9, [0, 1, 2]), (7, [0, 3, 4])] [1, 2, 3, 4]) 1 1,
    -- 3636: tmp390 = einsum(v.baa.xov, (0, 1, 2), tmp59, (0, 1, 3), (3, 2))
    .set 92 (.ein [(0, [0, 1, 2]), (30, [0, 1, 3])] [3, 2]) 1 1,
    -- 3637: tmp388 = einsum(tmp56, (0, 1, 2), v.baa.xov, (0, 1, 3), (2, 3))
    .set 93 (.ein [(33, [0, 1, 2]), (0, [0, 1, 3])] [2, 3]) 1 1,
    -- 3638: tmp364 = einsum(t2.abab, (0, 1, 2, 3), tmp166, (0, 4, 5, 2), (4, 1, 5, 3))
    .set 94 (.ein [(4, [0, 1, 2, 3]), (29, [0, 4, 5, 2])] [4, 1, 5, 3]) 1 1,
    -- 3639: tmp362 = einsum(tmp166, (0, 1, 2, 3), t2.aaaa, (4, 0, 5, 3), (4, 1, 5, 2))
    .set 95 (.ein [(29, [0, 1, 2, 3]), (6, [4, 0, 5, 3])] [4, 1, 5, 2]) 1 1,
    -- 3640: tmp358 = einsum(v.baa.xvv, (0, 1, 2), v.baa.xoo, (0, 3, 4), (3, 4, 1, 2))
    .set 96 (.ein [(7, [0, 1, 2]), (10, [0, 3, 4])] [3, 4, 1, 2]) 1 1,
    -- 3641: tmp354 = einsum(tmp230, (0, 1, 2, 3), t1.aa, (1, 4), (0, 2, 3, 4))
    .set 97 (.ein [(34, [0, 1, 2, 3]), (1, [1, 4])] [0, 2, 3, 4]) 1 1,
    -- 3642: tmp352 = einsum(tmp351, (0, 1, 2, 3), t1.bb, (3, 4), (0, 1, 2, 4))
    .set 98 (.ein [(35, [0, 1, 2, 3]), (2, [3, 4])] [0, 1, 2, 4]) 1 1,
    -- 3643: del tmp351
    .del 35,
    -- 3644: tmp346 = einsum(tmp41, (0, 1, 2), tmp106, (0, 3, 4), (1, 3, 4, 2))
    .set 99 (.ein [(36, [0, 1, 2]), (19, [0, 3, 4])] [1, 3, 4, 2]) 1 1,
    -- 3645: tmp344 = einsum(tmp106, (0, 1, 2), tmp45, (0, 3, 4), (1, 3, 2, 4))
    .set 100 (.ein [(19, [0, 1, 2]), (37, [0, 3, 4])] [1, 3, 2, 4]) 1 1,
    -- 3646: tmp340 = einsum(tmp194, (0, 1, 2, 3), t1.aa, (1, 4), (0, 2, 3, 4))
    .set 101 (.ein [(38, [0, 1, 2, 3]), (1, [1, 4])] [0, 2, 3, 4]) 1 1,
    -- 3647: tmp339 = einsum(tmp196, (0, 1, 2, 3), t1.aa, (0, 4), (1, 2, 3, 4))
    .set 102 (.ein [(39, [0, 1, 2, 3]), (1, [0, 4])] [1, 2, 3, 4]) 1 1,
    -- 3648: tmp337 = einsum(t1.bb, (0, 1), tmp334, (2, 3, 4, 0), (2, 3, 4, 1))
    .set 103 (.ein [(2, [0, 1]), (40, [2, 3, 4, 0])] [2, 3, 4, 1]) 1 1,
    -- 3649: tmp335 = einsum(tmp334, (0, 1, 2, 3), t1.bb, (2, 4), (0, 1, 3, 4))
    .set 104 (.ein [(40, [0, 1, 2, 3]), (2, [2, 4])] [0, 1, 3, 4]) 1 1,
    -- 3650: del tmp334
    .del 40,
    -- 3651: tmp329 = einsum(tmp171, (0, 1, 2, 3), t1.aa, (1, 4), (0, 2, 3, 4))
    .set 105 (.ein [(41, [0, 1, 2, 3]), (1, [1, 4])] [0, 2, 3, 4]) 1 1,
    -- 3652: tmp327 = einsum(tmp326, (0, 1, 2, 3), t1.bb, (2, 4), (0, 1, 3, 4)) * -1
    .set 106 (.ein [(42, [0, 1, 2, 3]), (2, [2, 4])] [0, 1, 3, 4]) (-1) 1,
    -- 3653: tmp320 = einsum(tmp54, (0, 1, 2, 3), t2.abab, (1, 4, 5, 3), (0, 4, 2, 5))
    .set 107 (.ein [(43, [0, 1, 2, 3]), (4, [1, 4, 5, 3])] [0, 4, 2, 5]) 1 1,
    -- 3654: tmp318 = einsum(tmp106, (0, 1, 2), tmp77, (0, 3, 4), (1, 3, 2, 4))
    .set 108 (.ein [(19, [0, 1, 2]), (31, [0, 3, 4])] [1, 3, 2, 4]) 1 1,
    -- 3655: tmp316 = einsum(tmp56, (0, 1, 2), tmp106, (0, 3, 4), (1, 3, 4, 2))
    .set 109 (.ein [(33, [0, 1, 2]), (19, [0, 3, 4])] [1, 3, 4, 2]) 1 1,
    -- 3656: tmp314 = einsum(t2.bbbb, (0, 1, 2, 3), tmp137, (4, 5, 1, 3), (4, 0, 5, 2))
    .set 110 (.ein [(5, [0, 1, 2, 3]), (44, [4, 5, 1, 3])] [4, 0, 5, 2]) 1 1,
    -- 3657: tmp313 = einsum(tmp137, (0, 1, 2, 3), t2.abab, (4, 2, 5, 3), (4, 0, 1, 5))
    .set 111 (.ein [(44, [0, 1, 2, 3]), (4, [4, 2, 5, 3])] [4, 0, 1, 5]) 1 1,
    -- 3658: tmp311 = einsum(tmp106, (0, 1, 2), tmp82, (0, 3, 4), (1, 3, 2, 4))
    .set 112 (.ein [(19, [0, 1, 2]), (32, [0, 3, 4])] [1, 3, 2, 4]) 1 1,
    -- 3659: tmp310 = einsum(tmp106, (0, 1, 2), tmp59, (0, 3, 4), (3, 1, 2, 4))
    .set 113 (.ein [(19, [0, 1, 2]), (30, [0, 3, 4])] [3, 1, 2, 4]) 1 1,
    -- 3660: tmp304 = einsum(t2.bbbb, (0, 1, 2, 3), tmp47, (4, 3), (0, 1, 4, 2))
    .set 114 (.ein [(5, [0, 1, 2, 3]), (23, [4, 3])] [0, 1, 4, 2]) 1 1,
    -- 3661: tmp302 = einsum(t2.abab, (0, 1, 2, 3), tmp47, (4, 3), (0, 1, 4, 2))
    .set 115 (.ein [(4, [0, 1, 2, 3]), (23, [4, 3])] [0, 1, 4, 2]) 1 1,
    -- 3662: tmp300 = einsum(tmp44, (0, 1), t2.bbbb, (2, 3, 4, 1), (2, 3, 0, 4))
    .set 116 (.ein [(25, [0, 1]), (5, [2, 3, 4, 1])] [2, 3, 0, 4]) 1 1,
    -- 3663: tmp298 = einsum(t2.abab, (0, 1, 2, 3), tmp44, (4, 3), (0, 1, 4, 2))
    .set 117 (.ein [(4, [0, 1, 2, 3]), (25, [4, 3])] [0, 1, 4, 2]) 1 1,
    -- 3664: tmp296 = einsum(tmp107, (0, 1), t2.bbbb, (2, 3, 4, 1), (2, 3, 0, 4))
    .set 118 (.ein [(26, [0, 1]), (5, [2, 3, 4, 1])] [2, 3, 0, 4]) 1 1,
    -- 3665: tmp294 = einsum(tmp107, (0, 1), t2.abab, (2, 3, 4, 1), (2, 3, 0, 4))
    .set 119 (.ein [(26, [0, 1]), (4, [2, 3, 4, 1])] [2, 3, 0, 4]) 1 1,
    -- 3666: tmp283 = einsum(t2.abab, (0, 1, 2, 3), tmp282, (4, 2, 5, 3), (0, 1, 4, 5))
    .set 120 (.ein [(4, [0, 1, 2, 3]), (45, [4, 2, 5, 3])] [0, 1, 4, 5]) 1 1,
    -- 3667: del tmp282
    .del 45,
    -- 3668: tmp280 = einsum(t2.bbbb, (0, 1, 2, 3), tmp279, (4, 5, 2, 3), (0, 1, 4, 5)) * -1
    .set 121 (.ein [(5, [0, 1, 2, 3]), (46, [4, 5, 2, 3])] [0, 1, 4, 5]) (-1) 1,
    -- 3669: del tmp279
    .del 46,
    -- 3670: tmp273 = einsum(v.bbb.xoo, (0, 1, 2), tmp77, (0, 3, 4), (3, 1, 2, 4))
    .set 122 (.ein [(9, [0, 1, 2]), (31, [0, 3, 4])] [3, 1, 2, 4]) 1 1,
    -- 3671: tmp271 = einsum(tmp56, (0, 1, 2), v.bbb.xoo, (0, 3, 4), (1, 3, 4, 2))
    .set 123 (.ein [(33, [0, 1, 2]), (9, [0, 3, 4])] [1, 3, 4, 2]) 1 1,
    -- 3672: tmp270 = einsum(tmp25, (0, 1, 2, 3), t2.abab, (1, 4, 5, 3), (0, 4, 2, 5))
    .set 124 (.ein [(47, [0, 1, 2, 3]), (4, [1, 4, 5, 3])] [0, 4, 2, 5]) 1 1,
    -- 3673: tmp268 = einsum(tmp82, (0, 1, 2), v.bbb.xoo, (0, 3, 4), (1, 3, 4, 2))
    .set 125 (.ein [(32, [0, 1, 2]), (9, [0, 3, 4])] [1, 3, 4, 2]) 1 1,
    -- 3674: tmp267 = einsum(tmp59, (0, 1, 2), v.bbb.xoo, (0, 3, 4), (1, 3, 4, 2))
    .set 126 (.ein [(30, [0, 1, 2]), (9, [0, 3, 4])] [1, 3, 4, 2]) 1 1,
    -- 3675: tmp265 = einsum(tmp64, (0, 1, 2, 3), t2.bbbb, (4, 0, 5, 3), (4, 1, 2, 5))
    .set 127 (.ein [(48, [0, 1, 2, 3]), (5, [4, 0, 5, 3])] [4, 1, 2, 5]) 1 1,
    -- 3676: tmp264 = einsum(t2.abab, (0, 1, 2, 3), tmp64, (4, 1, 5, 3), (0, 4, 5, 2))
    .set 128 (.ein [(4, [0, 1, 2, 3]), (48, [4, 1, 5, 3])] [0, 4, 5, 2]) 1 1,
    -- 3677: tmp257 = einsum(tmp41, (0, 1, 2), v.bbb.xoo, (0, 3, 4), (1, 3, 4, 2))
    .set 129 (.ein [(36, [0, 1, 2]), (9, [0, 3, 4])] [1, 3, 4, 2]) 1 1,
    -- 3678: tmp255 = einsum(tmp45, (0, 1, 2), v.bbb.xoo, (0, 3, 4), (1, 3, 4, 2))
    .set 130 (.ein [(37, [0, 1, 2]), (9, [0, 3, 4])] [1, 3, 4, 2]) 1 1,
    -- 3679: tmp249 = einsum(tmp36, (0, 1, 2, 3), t1.aa, (1, 4), (0, 2, 3, 4))
    .set 131 (.ein [(49, [0, 1, 2, 3]), (1, [1, 4])] [0, 2, 3, 4]) 1 1,
    -- 3680: tmp247 = einsum(tmp246, (0, 1, 2, 3), t1.bb, (1, 4), (3, 0, 2, 4))
    .set 132 (.ein [(50, [0, 1, 2, 3]), (2, [1, 4])] [3, 0, 2, 4]) 1 1,
    -- 3681: tmp241 = einsum(t2.bbbb, (0, 1, 2, 3), f.bb.ov, (4, 3), (4, 0, 1, 2))
    .set 133 (.ein [(5, [0, 1, 2, 3]), (11, [4, 3])] [4, 0, 1, 2]) 1 1,
    -- 3682: tmp239 = einsum(t2.abab, (0, 1, 2, 3), f.bb.ov, (4, 3), (0, 4, 1, 2))
    .set 134 (.ein [(4, [0, 1, 2, 3]), (11, [4, 3])] [0, 4, 1, 2]) 1 1,
    -- 3683: tmp231 = einsum(tmp230, (0, 1, 2, 3), t1.bb, (3, 4), (0, 1, 2, 4))
    .set 135 (.ein [(34, [0, 1, 2, 3]), (2, [3, 4])] [0, 1, 2, 4]) 1 1,
    -- 3684: del tmp230
    .del 34,
    -- 3685: tmp228 = einsum(t1.aa, (0, 1), tmp227, (2, 3, 4, 0), (2, 3, 4, 1))
    .set 136 (.ein [(1, [0, 1]), (51, [2, 3, 4, 0])] [2, 3, 4, 1]) 1 1,
    -- 3686: del tmp227
    .del 51,
    -- 3687: tmp226 = einsum(tmp225, (0, 1), t1.bb, (1, 2), (0, 2))
    .set 137 (.ein [(52, [0, 1]), (2, [1, 2])] [0, 2]) 1 1,
    -- 3688: tmp223 = einsum(tmp176, (0, 1), t1.aa, (1, 2), (0, 2))
    .set 138 (.ein [(53, [0, 1]), (1, [1, 2])] [0, 2]) 1 1,
    -- 3689: tmp222 = einsum(t1.bb, (0, 1), tmp221, (2, 0), (2, 1))
    .set 139 (.ein [(2, [0, 1]), (54, [2, 0])] [2, 1]) 1 1,
    -- 3690: tmp220 = einsum(tmp219, (0, 1), t1.bb, (1, 2), (0, 2))
    .set 140 (.ein [(55, [0, 1]), (2, [1, 2])] [0, 2]) 1 1,
    -- 3691: tmp217 = einsum(tmp175, (0, 1), t1.aa, (1, 2), (0, 2))
    .set 141 (.ein [(56, [0, 1]), (1, [1, 2])] [0, 2]) 1 1,
    -- 3692: tmp215 = einsum(tmp174, (0, 1), t1.aa, (1, 2), (0, 2))
    .set 142 (.ein [(57, [0, 1]), (1, [1, 2])] [0, 2]) 1 1,
    -- 3693: tmp213 = einsum(tmp45, (0, 1, 2), tmp27, (0, 3, 4), (3, 4, 1, 2))
    .set 143 (.ein [(37, [0, 1, 2]), (20, [0, 3, 4])] [3, 4, 1, 2]) 1 1,
    -- 3694: tmp211 = einsum(tmp27, (0, 1, 2), tmp41, (0, 3, 4), (1, 3, 2, 4))
    .set 144 (.ein [(20, [0, 1, 2]), (36, [0, 3, 4])] [1, 3, 2, 4]) 1 1,
    -- 3695: tmp209 = einsum(t1.aa, (0, 1), tmp208, (2, 1), (0, 2))
    .set 145 (.ein [(1, [0, 1]), (58, [2, 1])] [0, 2]) 1 1,
    -- 3696: del tmp208
    .del 58,
    -- 3697: tmp207 = einsum(tmp206, (0, 1), t1.bb, (2, 1), (2, 0))
    .set 146 (.ein [(59, [0, 1]), (2, [2, 1])] [2, 0]) 1 1,
    -- 3698: del tmp206
    .del 59,
    -- 3699: tmp205 = einsum(tmp106, (0, 1, 2), tmp45, (0, 2, 3), (1, 3))
    .set 147 (.ein [(19, [0, 1, 2]), (37, [0, 2, 3])] [1, 3]) 1 1,
    -- 3700: del tmp106
    .del 19,
    -- 3701: tmp204 = einsum(t1.bb, (0, 1), tmp203, (2, 1), (0, 2))
    .set 148 (.ein [(2, [0, 1]), (60, [2, 1])] [0, 2]) 1 1,
    -- 3702: del tmp203
    .del 60,
    -- 3703: tmp201 = einsum(tmp41, (0, 1, 2), tmp27, (0, 3, 1), (3, 2))
    .set 149 (.ein [(36, [0, 1, 2]), (20, [0, 3, 1])] [3, 2]) 1 1,
    -- 3704: tmp199 = einsum(tmp198, (0, 1), t1.aa, (2, 1), (2, 0))
    .set 150 (.ein [(61, [0, 1]), (1, [2, 1])] [2, 0]) 1 1,
    -- 3705: del tmp198
    .del 61,
    -- 3706: tmp197 = einsum(tmp196, (0, 1, 2, 3), t1.bb, (3, 4), (0, 1, 2, 4))
    .set 151 (.ein [(39, [0, 1, 2, 3]), (2, [3, 4])] [0, 1, 2, 4]) 1 1,
    -- 3707: del tmp196
    .del 39,
    -- 3708: tmp195 = einsum(tmp194, (0, 1, 2, 3), t1.bb, (3, 4), (0, 1, 2, 4))
    .set 152 (.ein [(38, [0, 1, 2, 3]), (2, [3, 4])] [0, 1, 2, 4]) 1 1,
    -- 3709: del tmp194
    .del 38,
    -- 3710: tmp192 = einsum(tmp189, (0, 1, 2, 3), t1.aa, (3, 4), (0, 1, 2, 4))
    .set 153 (.ein [(62, [0, 1, 2, 3]), (1, [3, 4])] [0, 1, 2, 4]) 1 1,
    -- 3711: tmp190 = einsum(tmp189, (0, 1, 2, 3), t1.aa, (2, 4), (0, 1, 3, 4))
    .set 154 (.ein [(62, [0, 1, 2, 3]), (1, [2, 4])] [0, 1, 3, 4]) 1 1,
    -- 3712: del tmp189
    .del 62,
    -- 3713: tmp188 = einsum(tmp187, (0, 1), t1.bb, (1, 2), (0, 2))
    .set 155 (.ein [(63, [0, 1]), (2, [1, 2])] [0, 2]) 1 1,
    -- 3714: tmp185 = einsum(tmp32, (0, 1), t1.aa, (1, 2), (0, 2))
    .set 156 (.ein [(64, [0, 1]), (1, [1, 2])] [0, 2]) 1 1,
    -- 3715: tmp184 = einsum(tmp183, (0, 1), t1.bb, (1, 2), (0, 2))
    .set 157 (.ein [(65, [0, 1]), (2, [1, 2])] [0, 2]) 1 1,
    -- 3716: tmp182 = einsum(tmp181, (0, 1), t1.bb, (1, 2), (0, 2))
    .set 158 (.ein [(66, [0, 1]), (2, [1, 2])] [0, 2]) 1 1,
    -- 3717: tmp179 = einsum(tmp30, (0, 1), t1.aa, (1, 2), (0, 2))
    .set 159 (.ein [(67, [0, 1]), (1, [1, 2])] [0, 2]) 1 1,
    -- 3718: tmp177 = einsum(tmp28, (0, 1), t1.aa, (1, 2), (0, 2))
    .set 160 (.ein [(68, [0, 1]), (1, [1, 2])] [0, 2]) 1 1,
    -- 3719: tmp172 = einsum(t1.bb, (0, 1), tmp171, (2, 3, 4, 0), (2, 3, 4, 1))
    .set 161 (.ein [(2, [0, 1]), (41, [2, 3, 4, 0])] [2, 3, 4, 1]) 1 1,
    -- 3720: tmp168 = einsum(t1.aa, (0, 1), tmp167, (2, 3, 0, 4), (2, 3, 4, 1)) * -1
    .set 162 (.ein [(1, [0, 1]), (69, [2, 3, 0, 4])] [2, 3, 4, 1]) (-1) 1,
    -- 3721: tmp164 = einsum(tmp60, (0, 1), t1.aa, (1, 2), (0, 2))
    .set 163 (.ein [(70, [0, 1]), (1, [1, 2])] [0, 2]) 1 1,
    -- 3722: tmp162 = einsum(t1.bb, (0, 1), tmp161, (2, 0), (2, 1))
    .set 164 (.ein [(2, [0, 1]), (71, [2, 0])] [2, 1]) 1 1,
    -- 3723: tmp159 = einsum(tmp158, (0, 1), t1.bb, (1, 2), (0, 2))
    .set 165 (.ein [(72, [0, 1]), (2, [1, 2])] [0, 2]) 1 1,
    -- 3724: tmp156 = einsum(tmp57, (0, 1), t1.aa, (1, 2), (0, 2))
    .set 166 (.ein [(73, [0, 1]), (1, [1, 2])] [0, 2]) 1 1,
    -- 3725: tmp155 = einsum(t2.abab, (0, 1, 2, 3), tmp142, (4, 5, 1, 2), (0, 4, 5, 3))
    .set 167 (.ein [(4, [0, 1, 2, 3]), (74, [4, 5, 1, 2])] [0, 4, 5, 3]) 1 1,
    -- 3726: tmp153 = einsum(tmp82, (0, 1, 2), tmp27, (0, 3, 4), (3, 4, 1, 2))
    .set 168 (.ein [(32, [0, 1, 2]), (20, [0, 3, 4])] [3, 4, 1, 2]) 1 1,
    -- 3727: tmp151 = einsum(tmp27, (0, 1, 2), tmp59, (0, 3, 4), (1, 3, 2, 4))
    .set 169 (.ein [(20, [0, 1, 2]), (30, [0, 3, 4])] [1, 3, 2, 4]) 1 1,
    -- 3728: tmp150 = einsum(t2.abab, (0, 1, 2, 3), tmp50, (4, 5, 0, 2), (4, 5, 1, 3))
    .set 170 (.ein [(4, [0, 1, 2, 3]), (75, [4, 5, 0, 2])] [4, 5, 1, 3]) 1 1,
    -- 3729: tmp148 = einsum(tmp50, (0, 1, 2, 3), t2.aaaa, (4, 2, 5, 3), (0, 4, 1, 5))
    .set 171 (.ein [(75, [0, 1, 2, 3]), (6, [4, 2, 5, 3])] [0, 4, 1, 5]) 1 1,
    -- 3730: tmp147 = einsum(tmp27, (0, 1, 2), tmp77, (0, 3, 4), (1, 2, 3, 4))
    .set 172 (.ein [(20, [0, 1, 2]), (31, [0, 3, 4])] [1, 2, 3, 4]) 1 1,
    -- 3731: tmp145 = einsum(tmp27, (0, 1, 2), tmp56, (0, 3, 4), (1, 3, 2, 4))
    .set 173 (.ein [(20, [0, 1, 2]), (33, [0, 3, 4])] [1, 3, 2, 4]) 1 1,
    -- 3732: del tmp27
    .del 20,
    -- 3733: tmp143 = einsum(t2.abab, (0, 1, 2, 3), tmp142, (0, 4, 1, 2), (4, 3))
    .set 174 (.ein [(4, [0, 1, 2, 3]), (74, [0, 4, 1, 2])] [4, 3]) 1 1,
    -- 3734: tmp140 = einsum(tmp54, (0, 1, 2, 3), t2.abab, (1, 2, 4, 3), (0, 4))
    .set 175 (.ein [(43, [0, 1, 2, 3]), (4, [1, 2, 4, 3])] [0, 4]) 1 1,
    -- 3735: tmp138 = einsum(t2.bbbb, (0, 1, 2, 3), tmp137, (4, 1, 0, 3), (4, 2))
    .set 176 (.ein [(5, [0, 1, 2, 3]), (44, [4, 1, 0, 3])] [4, 2]) 1 1,
    -- 3736: tmp135 = einsum(tmp50, (0, 1, 2, 3), t2.aaaa, (2, 1, 4, 3), (0, 4))
    .set 177 (.ein [(75, [0, 1, 2, 3]), (6, [2, 1, 4, 3])] [0, 4]) 1 1,
    -- 3737: tmp133 = einsum(t2.abab, (0, 1, 2, 3), tmp48, (4, 2), (0, 4, 1, 3))
    .set 178 (.ein [(4, [0, 1, 2, 3]), (24, [4, 2])] [0, 4, 1, 3]) 1 1,
    -- 3738: tmp131 = einsum(tmp48, (0, 1), t2.aaaa, (2, 3, 4, 1), (2, 3, 0, 4))
    .set 179 (.ein [(24, [0, 1]), (6, [2, 3, 4, 1])] [2, 3, 0, 4]) 1 1,
    -- 3739: tmp129 = einsum(t2.abab, (0, 1, 2, 3), tmp39, (4, 2), (0, 4, 1, 3))
    .set 180 (.ein [(4, [0, 1, 2, 3]), (27, [4, 2])] [0, 4, 1, 3]) 1 1,
    -- 3740: tmp127 = einsum(tmp39, (0, 1), t2.aaaa, (2, 3, 4, 1), (2, 3, 0, 4))
    .set 181 (.ein [(27, [0, 1]), (6, [2, 3, 4, 1])] [2, 3, 0, 4]) 1 1,
    -- 3741: tmp125 = einsum(t2.abab, (0, 1, 2, 3), tmp99, (4, 2), (0, 4, 1, 3))
    .set 182 (.ein [(4, [0, 1, 2, 3]), (28, [4, 2])] [0, 4, 1, 3]) 1 1,
    -- 3742: tmp123 = einsum(t2.aaaa, (0, 1, 2, 3), tmp99, (4, 3), (0, 1, 4, 2))
    .set 183 (.ein [(6, [0, 1, 2, 3]), (28, [4, 3])] [0, 1, 4, 2]) 1 1,
    -- 3743: tmp121 = einsum(t2.bbbb, (0, 1, 2, 3), tmp47, (1, 3), (0, 2))
    .set 184 (.ein [(5, [0, 1, 2, 3]), (23, [1, 3])] [0, 2]) 1 1,
    -- 3744: tmp119 = einsum(t2.abab, (0, 1, 2, 3), tmp47, (1, 3), (0, 2))
    .set 185 (.ein [(4, [0, 1, 2, 3]), (23, [1, 3])] [0, 2]) 1 1,
    -- 3745: tmp118 = einsum(t2.abab, (0, 1, 2, 3), tmp48, (0, 2), (1, 3))
    .set 186 (.ein [(4, [0, 1, 2, 3]), (24, [0, 2])] [1, 3]) 1 1,
    -- 3746: tmp116 = einsum(tmp48, (0, 1), t2.aaaa, (2, 0, 3, 1), (2, 3))
    .set 187 (.ein [(24, [0, 1]), (6, [2, 0, 3, 1])] [2, 3]) 1 1,
    -- 3747: tmp114 = einsum(t2.bbbb, (0, 1, 2, 3), tmp44, (1, 3), (0, 2))
    .set 188 (.ein [(5, [0, 1, 2, 3]), (25, [1, 3])] [0, 2]) 1 1,
    -- 3748: tmp112 = einsum(tmp44, (0, 1), t2.abab, (2, 0, 3, 1), (2, 3))
    .set 189 (.ein [(25, [0, 1]), (4, [2, 0, 3, 1])] [2, 3]) 1 1,
    -- 3749: tmp110 = einsum(t2.bbbb, (0, 1, 2, 3), tmp107, (1, 3), (0, 2))
    .set 190 (.ein [(5, [0, 1, 2, 3]), (26, [1, 3])] [0, 2]) 1 1,
    -- 3750: tmp108 = einsum(t2.abab, (0, 1, 2, 3), tmp107, (1, 3), (0, 2))
    .set 191 (.ein [(4, [0, 1, 2, 3]), (26, [1, 3])] [0, 2]) 1 1,
    -- 3751: del tmp107
    .del 26,
    -- 3752: tmp105 = einsum(t2.abab, (0, 1, 2, 3), tmp39, (0, 2), (1, 3))
    .set 192 (.ein [(4, [0, 1, 2, 3]), (27, [0, 2])] [1, 3]) 1 1,
    -- 3753: tmp103 = einsum(t2.aaaa, (0, 1, 2, 3), tmp39, (1, 3), (0, 2))
    .set 193 (.ein [(6, [0, 1, 2, 3]), (27, [1, 3])] [0, 2]) 1 1,
    -- 3754: tmp102 = einsum(t2.abab, (0, 1, 2, 3), tmp99, (0, 2), (1, 3))
    .set 194 (.ein [(4, [0, 1, 2, 3]), (28, [0, 2])] [1, 3]) 1 1,
    -- 3755: tmp100 = einsum(tmp99, (0, 1), t2.aaaa, (2, 0, 3, 1), (2, 3))
    .set 195 (.ein [(28, [0, 1]), (6, [2, 0, 3, 1])] [2, 3]) 1 1,
    -- 3756: del tmp99
    .del 28,
    -- 3757: tmp97 = einsum(t2.abab, (0, 1, 2, 3), tmp96, (4, 2, 5, 3), (0, 4, 1, 5))
    .set 196 (.ein [(4, [0, 1, 2, 3]), (76, [4, 2, 5, 3])] [0, 4, 1, 5]) 1 1,
    -- 3758: del tmp96
    .del 76,
    -- 3759: tmp94 = einsum(t2.aaaa, (0, 1, 2, 3), tmp93, (4, 2, 5, 3), (0, 1, 4, 5)) * -1
    .set 197 (.ein [(6, [0, 1, 2, 3]), (77, [4, 2, 5, 3])] [0, 1, 4, 5]) (-1) 1,
    -- 3760: del tmp93
    .del 77,
    -- 3761: tmp91 = einsum(tmp59, (0, 1, 2), v.baa.xvv, (0, 3, 2), (1, 3))
    .set 198 (.ein [(30, [0, 1, 2]), (7, [0, 3, 2])] [1, 3]) 1 1,
    -- 3762: tmp89 = einsum(tmp77, (0, 1, 2), v.bbb.xvv, (0, 3, 2), (1, 3))
    .set 199 (.ein [(31, [0, 1, 2]), (8, [0, 3, 2])] [1, 3]) 1 1,
    -- 3763: tmp87 = einsum(v.bbb.xvv, (0, 1, 2), tmp82, (0, 3, 2), (3, 1)) * -1
    .set 200 (.ein [(8, [0, 1, 2]), (32, [0, 3, 2])] [3, 1]) (-1) 1,
    -- 3764: tmp85 = einsum(v.baa.xvv, (0, 1, 2), tmp56, (0, 3, 2), (3, 1)) * -1
    .set 201 (.ein [(7, [0, 1, 2]), (33, [0, 3, 2])] [3, 1]) (-1) 1,
    -- 3765: tmp83 = einsum(tmp82, (0, 1, 2), v.baa.xoo, (0, 3, 4), (3, 4, 1, 2))
    .set 202 (.ein [(32, [0, 1, 2]), (10, [0, 3, 4])] [3, 4, 1, 2]) 1 1,
    -- 3766: tmp80 = einsum(v.baa.xoo, (0, 1, 2), tmp59, (0, 3, 4), (3, 1, 2, 4))
    .set 203 (.ein [(10, [0, 1, 2]), (30, [0, 3, 4])] [3, 1, 2, 4]) 1 1,
    -- 3767: tmp79 = einsum(t2.abab, (0, 1, 2, 3), tmp67, (4, 5, 1, 2), (0, 4, 5, 3))
    .set 204 (.ein [(4, [0, 1, 2, 3]), (78, [4, 5, 1, 2])] [0, 4, 5, 3]) 1 1,
    -- 3768: tmp78 = einsum(v.baa.xoo, (0, 1, 2), tmp77, (0, 3, 4), (1, 2, 3, 4))
    .set 205 (.ein [(10, [0, 1, 2]), (31, [0, 3, 4])] [1, 2, 3, 4]) 1 1,
    -- 3769: tmp75 = einsum(tmp56, (0, 1, 2), v.baa.xoo, (0, 3, 4), (1, 3, 4, 2))
    .set 206 (.ein [(33, [0, 1, 2]), (10, [0, 3, 4])] [1, 3, 4, 2]) 1 1,
    -- 3770: tmp74 = einsum(t2.abab, (0, 1, 2, 3), tmp23, (4, 0, 5, 2), (4, 5, 1, 3))
    .set 207 (.ein [(4, [0, 1, 2, 3]), (79, [4, 0, 5, 2])] [4, 5, 1, 3]) 1 1,
    -- 3771: tmp72 = einsum(t2.aaaa, (0, 1, 2, 3), tmp23, (1, 4, 5, 3), (0, 4, 5, 2))
    .set 208 (.ein [(6, [0, 1, 2, 3]), (79, [1, 4, 5, 3])] [0, 4, 5, 2]) 1 1,
    -- 3772: tmp70 = einsum(tmp25, (0, 1, 2, 3), t2.abab, (1, 2, 4, 3), (0, 4))
    .set 209 (.ein [(47, [0, 1, 2, 3]), (4, [1, 2, 4, 3])] [0, 4]) 1 1,
    -- 3773: tmp68 = einsum(t2.abab, (0, 1, 2, 3), tmp67, (0, 4, 1, 2), (4, 3))
    .set 210 (.ein [(4, [0, 1, 2, 3]), (78, [0, 4, 1, 2])] [4, 3]) 1 1,
    -- 3774: tmp65 = einsum(tmp64, (0, 1, 2, 3), t2.bbbb, (1, 2, 4, 3), (0, 4))
    .set 211 (.ein [(48, [0, 1, 2, 3]), (5, [1, 2, 4, 3])] [0, 4]) 1 1,
    -- 3775: tmp62 = einsum(tmp23, (0, 1, 2, 3), t2.aaaa, (1, 2, 4, 3), (0, 4))
    .set 212 (.ein [(79, [0, 1, 2, 3]), (6, [1, 2, 4, 3])] [0, 4]) 1 1,
    -- 3776: tmp55 = einsum(tmp45, (0, 1, 2), v.baa.xoo, (0, 3, 4), (3, 4, 1, 2))
    .set 213 (.ein [(37, [0, 1, 2]), (10, [0, 3, 4])] [3, 4, 1, 2]) 1 1,
    -- 3777: tmp52 = einsum(tmp41, (0, 1, 2), v.baa.xoo, (0, 3, 4), (1, 3, 4, 2))
    .set 214 (.ein [(36, [0, 1, 2]), (10, [0, 3, 4])] [1, 3, 4, 2]) 1 1,
    -- 3778: tmp46 = einsum(v.bbb.xoo, (0, 1, 2), tmp45, (0, 2, 3), (1, 3))
    .set 215 (.ein [(9, [0, 1, 2]), (37, [0, 2, 3])] [1, 3]) 1 1,
    -- 3779: del tmp45
    .del 37,
    -- 3780: tmp42 = einsum(tmp41, (0, 1, 2), v.baa.xoo, (0, 3, 1), (3, 2))
    .set 216 (.ein [(36, [0, 1, 2]), (10, [0, 3, 1])] [3, 2]) 1 1,
    -- 3781: del tmp41
    .del 36,
    -- 3782: tmp37 = einsum(tmp36, (0, 1, 2, 3), t1.bb, (3, 4), (1, 0, 2, 4))
    .set 217 (.ein [(49, [0, 1, 2, 3]), (2, [3, 4])] [1, 0, 2, 4]) 1 1,
    -- 3783: tmp34 = einsum(tmp33, (0, 1, 2, 3), t1.aa, (1, 4), (3, 0, 2, 4))
    .set 218 (.ein [(80, [0, 1, 2, 3]), (1, [1, 4])] [3, 0, 2, 4]) 1 1,
    -- 3784: tmp22 = einsum(tmp21, (0, 1), t1.bb, (0, 2), (1, 2))
    .set 219 (.ein [(81, [0, 1]), (2, [0, 2])] [1, 2]) 1 1,
    -- 3785: tmp19 = einsum(tmp1, (0, 1), t1.aa, (0, 2), (1, 2))
    .set 220 (.ein [(82, [0, 1]), (1, [0, 2])] [1, 2]) 1 1,
    -- 3786: tmp17 = einsum(f.aa.ov, (0, 1), t2.abab, (2, 3, 1, 4), (0, 2, 3, 4))
    .set 221 (.ein [(12, [0, 1]), (4, [2, 3, 1, 4])] [0, 2, 3, 4]) 1 1,
    -- 3787: tmp15 = einsum(t2.aaaa, (0, 1, 2, 3), f.aa.ov, (4, 3), (4, 0, 1, 2))
    .set 222 (.ein [(6, [0, 1, 2, 3]), (12, [4, 3])] [4, 0, 1, 2]) 1 1,
    -- 3788: tmp13 = einsum(f.bb.ov, (0, 1), t2.bbbb, (2, 0, 3, 1), (2, 3))
    .set 223 (.ein [(11, [0, 1]), (5, [2, 0, 3, 1])] [2, 3]) 1 1,
    -- 3789: tmp11 = einsum(t2.abab, (0, 1, 2, 3), f.bb.ov, (1, 3), (0, 2))
    .set 224 (.ein [(4, [0, 1, 2, 3]), (11, [1, 3])] [0, 2]) 1 1,
    -- 3790: tmp10 = einsum(t2.abab, (0, 1, 2, 3), f.aa.ov, (0, 2), (1, 3))
    .set 225 (.ein [(4, [0, 1, 2, 3]), (12, [0, 2])] [1, 3]) 1 1,
    -- 3791: tmp8 = einsum(f.aa.ov, (0, 1), t2.aaaa, (2, 0, 3, 1), (2, 3))
    .set 226 (.ein [(12, [0, 1]), (6, [2, 0, 3, 1])] [2, 3]) 1 1,
    -- 3792: tmp7 = einsum(f.bb.vv, (0, 1), t1.bb, (2, 1), (2, 0))
    .set 227 (.ein [(13, [0, 1]), (2, [2, 1])] [2, 0]) 1 1,
    -- 3793: tmp5 = einsum(t1.aa, (0, 1), f.aa.vv, (2, 1), (0, 2))
    .set 228 (.ein [(1, [0, 1]), (14, [2, 1])] [0, 2]) 1 1,
    -- 3794: tmp4 = einsum(t1.bb, (0, 1), f.bb.oo, (2, 0), (2, 1))
    .set 229 (.ein [(2, [0, 1]), (15, [2, 0])] [2, 1]) 1 1,
    -- 3795: tmp2 = einsum(f.aa.oo, (0, 1), t1.aa, (1, 2), (0, 2))
    .set 230 (.ein [(16, [0, 1]), (1, [1, 2])] [0, 2]) 1 1
  ]
  ret := [(chars! "tmp1", 82), (chars! "tmp10", 225), (chars! "tmp100", 195), (chars! "tmp102", 194), (chars! "tmp103", 193), (chars! "tmp105", 192), (chars! "tmp108", 191), (chars! "tmp11", 224), (chars! "tmp110", 190), (chars! "tmp112", 189), (chars! "tmp114", 188), (chars! "tmp116", 187), (chars! "tmp118", 186), (chars! "tmp119", 185), (chars! "tmp121", 184), (chars! "tmp123", 183), (chars! "tmp125", 182), (chars! "tmp127", 181), (chars! "tmp129", 180), (chars! "tmp13", 223), (chars! "tmp131", 179), (chars! "tmp133", 178), (chars! "tmp135", 177), (chars! "tmp137", 44), (chars! "tmp138", 176), (chars! "tmp140", 175), (chars! "tmp142", 74), (chars! "tmp143", 174), (chars! "tmp145", 173), (chars! "tmp147", 172), (chars! "tmp148", 171), (chars! "tmp15", 222), (chars! "tmp150", 170), (chars! "tmp151", 169), (chars! "tmp153", 168), (chars! "tmp155", 167), (chars! "tmp156", 166), (chars! "tmp158", 72), (chars! "tmp159", 165), (chars! "tmp161", 71), (chars! "tmp162", 164), (chars! "tmp164", 163), (chars! "tmp166", 29), (chars! "tmp167", 69), (chars! "tmp168", 162), (chars! "tmp17", 221), (chars! "tmp170", 21), (chars! "tmp171", 41), (chars! "tmp172", 161), (chars! "tmp174", 57), (chars! "tmp175", 56), (chars! "tmp176", 53), (chars! "tmp177", 160), (chars! "tmp179", 159), (chars! "tmp181", 66), (chars! "tmp182", 158), (chars! "tmp183", 65), (chars! "tmp184", 157), (chars! "tmp185", 156), (chars! "tmp187", 63), (chars! "tmp188", 155), (chars! "tmp19", 220), (chars! "tmp190", 154), (chars! "tmp192", 153), (chars! "tmp195", 152), (chars! "tmp197", 151), (chars! "tmp199", 150), (chars! "tmp2", 230), (chars! "tmp201", 149), (chars! "tmp204", 148), (chars! "tmp205", 147), (chars! "tmp207", 146), (chars! "tmp209", 145), (chars! "tmp21", 81), (chars! "tmp211", 144), (chars! "tmp213", 143), (chars! "tmp215", 142), (chars! "tmp217", 141), (chars! "tmp219", 55), (chars! "tmp22", 219), (chars! "tmp220", 140), (chars! "tmp221", 54), (chars! "tmp222", 139), (chars! "tmp223", 138), (chars! "tmp225", 52), (chars! "tmp226", 137), (chars! "tmp228", 136), (chars! "tmp23", 79), (chars! "tmp231", 135), (chars! "tmp239", 134), (chars! "tmp241", 133), (chars! "tmp246", 50), (chars! "tmp247", 132), (chars! "tmp249", 131), (chars! "tmp25", 47), (chars! "tmp255", 130), (chars! "tmp257", 129), (chars! "tmp264", 128), (chars! "tmp265", 127), (chars! "tmp267", 126), (chars! "tmp268", 125), (chars! "tmp270", 124), (chars! "tmp271", 123), (chars! "tmp273", 122), (chars! "tmp28", 68), (chars! "tmp280", 121), (chars! "tmp283", 120), (chars! "tmp294", 119), (chars! "tmp296", 118), (chars! "tmp298", 117), (chars! "tmp30", 67), (chars! "tmp300", 116), (chars! "tmp302", 115), (chars! "tmp304", 114), (chars! "tmp310", 113), (chars! "tmp311", 112), (chars! "tmp313", 111), (chars! "tmp314", 110), (chars! "tmp316", 109), (chars! "tmp318", 108), (chars! "tmp32", 64), (chars! "tmp320", 107), (chars! "tmp325", 22), (chars! "tmp326", 42), (chars! "tmp327", 106), (chars! "tmp329", 105), (chars! "tmp33", 80), (chars! "tmp335", 104), (chars! "tmp337", 103), (chars! "tmp339", 102), (chars! "tmp34", 218), (chars! "tmp340", 101), (chars! "tmp344", 100), (chars! "tmp346", 99), (chars! "tmp352", 98), (chars! "tmp354", 97), (chars! "tmp358", 96), (chars! "tmp36", 49), (chars! "tmp362", 95), (chars! "tmp364", 94), (chars! "tmp37", 217), (chars! "tmp388", 93), (chars! "tmp39", 27), (chars! "tmp390", 92), (chars! "tmp4", 229), (chars! "tmp417", 91), (chars! "tmp418", 90), (chars! "tmp419", 89), (chars! "tmp42", 216), (chars! "tmp421", 88), (chars! "tmp423", 87), (chars! "tmp437", 86), (chars! "tmp439", 85), (chars! "tmp44", 25), (chars! "tmp441", 84), (chars! "tmp442", 83), (chars! "tmp46", 215), (chars! "tmp47", 23), (chars! "tmp48", 24), (chars! "tmp5", 228), (chars! "tmp50", 75), (chars! "tmp52", 214), (chars! "tmp54", 43), (chars! "tmp55", 213), (chars! "tmp56", 33), (chars! "tmp57", 73), (chars! "tmp59", 30), (chars! "tmp60", 70), (chars! "tmp62", 212), (chars! "tmp64", 48), (chars! "tmp65", 211), (chars! "tmp67", 78), (chars! "tmp68", 210), (chars! "tmp7", 227), (chars! "tmp70", 209), (chars! "tmp72", 208), (chars! "tmp74", 207), (chars! "tmp75", 206), (chars! "tmp77", 31), (chars! "tmp78", 205), (chars! "tmp79", 204), (chars! "tmp8", 226), (chars! "tmp80", 203), (chars! "tmp82", 32), (chars! "tmp83", 202), (chars! "tmp85", 201), (chars! "tmp87", 200), (chars! "tmp89", 199), (chars! "tmp91", 198), (chars! "tmp94", 197), (chars! "tmp97", 196)]

/-- codegen/UDFCC2.py:3799-4404 `hbar_lmatvec_ip`. -/
def hbar_lmatvec_ip : GenFun where
  args := [chars! "ints.tmp77", chars! "v.bbb.xov", chars! "ints.tmp82", chars! "ints.tmp59", chars! "v.baa.xov", chars! "ints.tmp56", chars! "r2.bbb", chars! "t2.bbbb", chars! "t2.abab", chars! "r2.aba", chars! "r2.bab", chars! "r2.aaa", chars! "f.bb.oo", chars! "ints.tmp21", chars! "ints.tmp419", chars! "ints.tmp423", chars! "ints.tmp158", chars! "ints.tmp161", chars! "ints.tmp57", chars! "ints.tmp60", chars! "t2.aaaa", chars! "f.aa.oo", chars! "ints.tmp1", chars! "ints.tmp358", chars! "ints.tmp362", chars! "t1.bb", chars! "f.bb.ov", chars! "r1.b", chars! "ints.tmp64", chars! "ints.tmp325", chars! "ints.tmp421", chars! "f.aa.ov", chars! "t1.aa", chars! "ints.tmp23", chars! "r1.a", chars! "ints.tmp166", chars! "ints.tmp364", chars! "ints.tmp246", chars! "ints.tmp326", chars! "ints.tmp437", chars! "ints.tmp439", chars! "f.bb.vv", chars! "ints.tmp441", chars! "ints.tmp442", chars! "ints.tmp171", chars! "ints.tmp36", chars! "ints.tmp417", chars! "ints.tmp418", chars! "ints.tmp388", chars! "ints.tmp390", chars! "f.aa.vv", chars! "ints.tmp167", chars! "ints.tmp33", chars! "ints.tmp100", chars! "ints.tmp108", chars! "ints.tmp135", chars! "ints.tmp140", chars! "ints.tmp156", chars! "ints.tmp164", chars! "ints.tmp179", chars! "ints.tmp185", chars! "ints.tmp19", chars! "ints.tmp201", chars! "ints.tmp217", chars! "ints.tmp223", chars! "ints.tmp2", chars! "ints.tmp42", chars! "ints.tmp62", chars! "ints.tmp70", chars! "ints.tmp85", chars! "ints.tmp103", chars! "ints.tmp112", chars! "ints.tmp116", chars! "ints.tmp119", chars! "ints.tmp11", chars! "ints.tmp177", chars! "ints.tmp199", chars! "ints.tmp209", chars! "ints.tmp215", chars! "ints.tmp39", chars! "ints.tmp48", chars! "ints.tmp5", chars! "ints.tmp8", chars! "ints.tmp91", chars! "ints.tmp183", chars! "ints.tmp187", chars! "ints.tmp221", chars! "ints.tmp225", chars! "ints.tmp181", chars! "ints.tmp219", chars! "ints.tmp142", chars! "ints.tmp239", chars! "ints.tmp257", chars! "ints.tmp267", chars! "ints.tmp271", chars! "ints.tmp283", chars! "ints.tmp298", chars! "ints.tmp302", chars! "ints.tmp310", chars! "ints.tmp316", chars! "ints.tmp346", chars! "ints.tmp67", chars! "ints.tmp249", chars! "ints.tmp264", chars! "ints.tmp270", chars! "ints.tmp294", chars! "ints.tmp313", chars! "ints.tmp320", chars! "ints.tmp329", chars! "ints.tmp339", chars! "ints.tmp340", chars! "ints.tmp354", chars! "ints.tmp102", chars! "ints.tmp110", chars! "ints.tmp138", chars! "ints.tmp143", chars! "ints.tmp159", chars! "ints.tmp162", chars! "ints.tmp184", chars! "ints.tmp188", chars! "ints.tmp205", chars! "ints.tmp222", chars! "ints.tmp226", chars! "ints.tmp22", chars! "ints.tmp46", chars! "ints.tmp4", chars! "ints.tmp65", chars! "ints.tmp68", chars! "ints.tmp87", chars! "ints.tmp105", chars! "ints.tmp10", chars! "ints.tmp114", chars! "ints.tmp118", chars! "ints.tmp121", chars! "ints.tmp13", chars! "ints.tmp182", chars! "ints.tmp204", chars! "ints.tmp207", chars! "ints.tmp220", chars! "ints.tmp44", chars! "ints.tmp47", chars! "ints.tmp7", chars! "ints.tmp89", chars! "ints.tmp241", chars! "ints.tmp247", chars! "ints.tmp255", chars! "ints.tmp268", chars! "ints.tmp273", chars! "ints.tmp300", chars! "ints.tmp304", chars! "ints.tmp314", chars! "ints.tmp327", chars! "ints.tmp335", chars! "ints.tmp352", chars! "ints.tmp137", chars! "ints.tmp265", chars! "ints.tmp280", chars! "ints.tmp296", chars! "ints.tmp311", chars! "ints.tmp318", chars! "ints.tmp337", chars! "ints.tmp344", chars! "ints.tmp175", chars! "ints.tmp176", chars! "ints.tmp30", chars! "ints.tmp32", chars! "ints.tmp174", chars! "ints.tmp28", chars! "ints.tmp127", chars! "ints.tmp131", chars! "ints.tmp148", chars! "ints.tmp15", chars! "ints.tmp168", chars! "ints.tmp190", chars! "ints.tmp228", chars! "ints.tmp34", chars! "ints.tmp52", chars! "ints.tmp75", chars! "ints.tmp80", chars! "ints.tmp123", chars! "ints.tmp145", chars! "ints.tmp151", chars! "ints.tmp192", chars! "ints.tmp211", chars! "ints.tmp50", chars! "ints.tmp72", chars! "ints.tmp94", chars! "ints.tmp129", chars! "ints.tmp133", chars! "ints.tmp147", chars! "ints.tmp153", chars! "ints.tmp17", chars! "ints.tmp213", chars! "ints.tmp25", chars! "ints.tmp54", chars! "ints.tmp55", chars! "ints.tmp78", chars! "ints.tmp83", chars! "ints.tmp97", chars! "ints.tmp125", chars! "ints.tmp150", chars! "ints.tmp155", chars! "ints.tmp172", chars! "ints.tmp195", chars! "ints.tmp197", chars! "ints.tmp231", chars! "ints.tmp37", chars! "ints.tmp74", chars! "ints.tmp79", chars! "ints.tmp170"]
  body := [
    -- 3829: tmp15 = np.copy(ints.tmp77)
    .set 210 (.cp 0) 1 1,
    -- 3830: tmp15 += v.bbb.xov
    .add 210 (.cp 1) 1 1,
    -- 3831: tmp15 += ints.tmp82 * 2
    .add 210 (.cp 2) 2 1,
    -- 3832: tmp13 = np.copy(ints.tmp59)
    .set 211 (.cp 3) 1 1,
    -- 3833: tmp13 += v.baa.xov
    .add 211 (.cp 4) 1 1,
    -- 3834: tmp13 += ints.tmp56 * 2
    .add 211 (.cp 5) 2 1,
    -- 3835: tmp38 = einsum(r2.bbb, (0, 1, 2), t2.bbbb, (0, 1, 3, 2), (3,))
    .set 212 (.ein [(6, [0, 1, 2]), (7, [0, 1, 3, 2])] [3]) 1 1,
    -- 3836: tmp37 = einsum(t2.abab, (0, 1, 2, 3), r2.aba, (0, 1, 2), (3,))
    .set 213 (.ein [(8, [0, 1, 2, 3]), (9, [0, 1, 2])] [3]) 1 1,
    -- 3837: tmp34 = np.copy(ints.tmp56) * 2
    .set 214 (.cp 5) 2 1,
    -- 3838: del ints.tmp56
    .del 5,
    -- 3839: tmp34 += ints.tmp59
    .add 214 (.cp 3) 1 1,
    -- 3840: del ints.tmp59
    .del 3,
    -- 3841: tmp34 += v.baa.xov
    .add 214 (.cp 4) 1 1,
    -- 3842: tmp16 = einsum(tmp15, (0, 1, 2), r2.bab, (1, 3, 2), (0, 3)) * -1
    .set 215 (.ein [(210, [0, 1, 2]), (10, [1, 3, 2])] [0, 3]) (-1) 1,
    -- 3843: tmp14 = einsum(tmp13, (0, 1, 2), r2.aaa, (3, 1, 2), (0, 3)) * -1
    .set 216 (.ein [(211, [0, 1, 2]), (11, [3, 1, 2])] [0, 3]) (-1) 1,
    -- 3844: del tmp13
    .del 211,
    -- 3845: tmp58 = einsum(tmp15, (0, 1, 2), r2.bbb, (3, 1, 2), (0, 3)) * -1
    .set 217 (.ein [(210, [0, 1, 2]), (6, [3, 1, 2])] [0, 3]) (-1) 1,
    -- 3846: del tmp15
    .del 210,
    -- 3847: tmp60 = np.copy(f.bb.oo)
    .set 218 (.cp 12) 1 1,
    -- 3848: tmp60 += np.transpose(ints.tmp21, (1, 0))
    .add 218 (.tr 13 [1, 0]) 1 1,
    -- 3849: tmp42 = np.copy(ints.tmp419)
    .set 219 (.cp 14) 1 1,
    -- 3850: del ints.tmp419
    .del 14,
    -- 3851: tmp42 += ints.tmp423 * 2
    .add 219 (.cp 15) 2 1,
    -- 3852: del ints.tmp423
    .del 15,
    -- 3853: tmp54 = np.copy(ints.tmp158) * 2
    .set 220 (.cp 16) 2 1,
    -- 3854: tmp54 += ints.tmp161
    .add 220 (.cp 17) 1 1,
    -- 3855: tmp39 = np.copy(tmp37) * -0.5
    .set 221 (.cp 213) (-1) 2,
    -- 3856: del tmp37
    .del 213,
    -- 3857: tmp39 += tmp38
    .add 221 (.cp 212) 1 1,
    -- 3858: del tmp38
    .del 212,
    -- 3859: tmp51 = einsum(tmp34, (0, 1, 2), r2.aba, (1, 3, 2), (0, 3))
    .set 222 (.ein [(214, [0, 1, 2]), (9, [1, 3, 2])] [0, 3]) 1 1,
    -- 3860: tmp25 = np.copy(ints.tmp57) * 2
    .set 223 (.cp 18) 2 1,
    -- 3861: tmp25 += ints.tmp60
    .add 223 (.cp 19) 1 1,
    -- 3862: tmp23 = einsum(t2.aaaa, (0, 1, 2, 3), r2.aaa, (0, 1, 3), (2,))
    .set 224 (.ein [(20, [0, 1, 2, 3]), (11, [0, 1, 3])] [2]) 1 1,
    -- 3863: tmp17 = np.copy(tmp14) * -2
    .set 225 (.cp 216) (-2) 1,
    -- 3864: del tmp14
    .del 216,
    -- 3865: tmp17 += tmp16
    .add 225 (.cp 215) 1 1,
    -- 3866: del tmp16
    .del 215,
    -- 3867: tmp19 = np.copy(f.aa.oo)
    .set 226 (.cp 21) 1 1,
    -- 3868: tmp19 += np.transpose(ints.tmp1, (1, 0))
    .add 226 (.tr 22 [1, 0]) 1 1,
    -- 3869: tmp9 = einsum(t2.abab, (0, 1, 2, 3), r2.bab, (1, 0, 3), (2,)) * -1
    .set 227 (.ein [(8, [0, 1, 2, 3]), (10, [1, 0, 3])] [2]) (-1) 1,
    -- 3870: tmp11 = np.copy(ints.tmp358)
    .set 228 (.cp 23) 1 1,
    -- 3871: tmp11 += ints.tmp362 * 2
    .add 228 (.cp 24) 2 1,
    -- 3872: tmp59 = einsum(tmp58, (0, 1), v.bbb.xov, (0, 2, 3), (2, 1, 3)) * -1
    .set 229 (.ein [(217, [0, 1]), (1, [0, 2, 3])] [2, 1, 3]) (-1) 1,
    -- 3873: del tmp58
    .del 217,
    -- 3874: tmp61 = einsum(r2.bbb, (0, 1, 2), tmp60, (1, 3), (0, 3, 2)) * -1
    .set 230 (.ein [(6, [0, 1, 2]), (218, [1, 3])] [0, 3, 2]) (-1) 1,
    -- 3875: del tmp60
    .del 218,
    -- 3876: tmp57 = einsum(tmp42, (0, 1, 2, 3), r2.bbb, (4, 0, 2), (4, 1, 3)) * -1
    .set 231 (.ein [(219, [0, 1, 2, 3]), (6, [4, 0, 2])] [4, 1, 3]) (-1) 1,
    -- 3877: tmp46 = einsum(t1.bb, (0, 1), f.bb.ov, (0, 2), (2, 1))
    .set 232 (.ein [(25, [0, 1]), (26, [0, 2])] [2, 1]) 1 1,
    -- 3878: tmp49 = einsum(r1.b, (0,), ints.tmp64, (1, 0, 2, 3), (1, 2, 3))
    .set 233 (.ein [(27, [0]), (28, [1, 0, 2, 3])] [1, 2, 3]) 1 1,
    -- 3879: tmp55 = einsum(tmp54, (0, 1), r2.bbb, (2, 0, 3), (2, 1, 3)) * -2
    .set 234 (.ein [(220, [0, 1]), (6, [2, 0, 3])] [2, 1, 3]) (-2) 1,
    -- 3880: del tmp54
    .del 220,
    -- 3881: tmp53 = einsum(tmp39, (0,), ints.tmp325, (1, 2, 3, 0), (1, 2, 3)) * 2
    .set 235 (.ein [(221, [0]), (29, [1, 2, 3, 0])] [1, 2, 3]) 2 1,
    -- 3882: del ints.tmp325
    .del 29,
    -- 3883: tmp50 = einsum(ints.tmp421, (0, 1, 2, 3), r2.aba, (0, 4, 2), (1, 4, 3))
    .set 236 (.ein [(30, [0, 1, 2, 3]), (9, [0, 4, 2])] [1, 4, 3]) 1 1,
    -- 3884: tmp52 = einsum(tmp51, (0, 1), v.bbb.xov, (0, 2, 3), (2, 1, 3))
    .set 237 (.ein [(222, [0, 1]), (1, [0, 2, 3])] [2, 1, 3]) 1 1,
    -- 3885: del tmp51
    .del 222,
    -- 3886: tmp35 = np.copy(ints.tmp77) * 0.5
    .set 238 (.cp 0) 1 2,
    -- 3887: del ints.tmp77
    .del 0,
    -- 3888: tmp35 += ints.tmp82
    .add 238 (.cp 2) 1 1,
    -- 3889: del ints.tmp82
    .del 2,
    -- 3890: tmp35 += v.bbb.xov * 0.5
    .add 238 (.cp 1) 1 2,
    -- 3891: tmp29 = einsum(f.aa.ov, (0, 1), t1.aa, (0, 2), (1, 2))
    .set 239 (.ein [(31, [0, 1]), (32, [0, 2])] [1, 2]) 1 1,
    -- 3892: tmp26 = einsum(r2.aaa, (0, 1, 2), tmp25, (1, 3), (0, 3, 2)) * -2
    .set 240 (.ein [(11, [0, 1, 2]), (223, [1, 3])] [0, 3, 2]) (-2) 1,
    -- 3893: del tmp25
    .del 223,
    -- 3894: tmp22 = einsum(ints.tmp23, (0, 1, 2, 3), r1.a, (1,), (0, 2, 3))
    .set 241 (.ein [(33, [0, 1, 2, 3]), (34, [1])] [0, 2, 3]) 1 1,
    -- 3895: tmp24 = einsum(ints.tmp166, (0, 1, 2, 3), tmp23, (3,), (0, 1, 2))
    .set 242 (.ein [(35, [0, 1, 2, 3]), (224, [3])] [0, 1, 2]) 1 1,
    -- 3896: tmp18 = einsum(tmp17, (0, 1), v.baa.xov, (0, 2, 3), (2, 1, 3))
    .set 243 (.ein [(225, [0, 1]), (4, [0, 2, 3])] [2, 1, 3]) 1 1,
    -- 3897: del tmp17
    .del 225,
    -- 3898: tmp20 = einsum(r2.aaa, (0, 1, 2), tmp19, (1, 3), (0, 3, 2)) * -1
    .set 244 (.ein [(11, [0, 1, 2]), (226, [1, 3])] [0, 3, 2]) (-1) 1,
    -- 3899: del tmp19
    .del 226,
    -- 3900: tmp10 = einsum(tmp9, (0,), ints.tmp166, (1, 2, 3, 0), (1, 2, 3))
    .set 245 (.ein [(227, [0]), (35, [1, 2, 3, 0])] [1, 2, 3]) 1 1,
    -- 3901: del ints.tmp166
    .del 35,
    -- 3902: tmp8 = einsum(ints.tmp364, (0, 1, 2, 3), r2.bab, (1, 4, 3), (0, 4, 2)) * -1
    .set 246 (.ein [(36, [0, 1, 2, 3]), (10, [1, 4, 3])] [0, 4, 2]) (-1) 1,
    -- 3903: tmp12 = einsum(r2.aaa, (0, 1, 2), tmp11, (1, 3, 2, 4), (0, 3, 4)) * -1
    .set 247 (.ein [(11, [0, 1, 2]), (228, [1, 3, 2, 4])] [0, 3, 4]) (-1) 1,
    -- 3904: del tmp11
    .del 228,
    -- 3905: tmp63 = np.copy(ints.tmp246)
    .set 248 (.cp 37) 1 1,
    -- 3906: del ints.tmp246
    .del 37,
    -- 3907: tmp63 += np.transpose(ints.tmp326, (2, 3, 0, 1)) * -1
    .add 248 (.tr 38 [2, 3, 0, 1]) (-1) 1,
    -- 3908: del ints.tmp326
    .del 38,
    -- 3909: tmp62 = np.copy(np.transpose(tmp57, (1, 0, 2))) * -1
    .set 249 (.tr 231 [1, 0, 2]) (-1) 1,
    -- 3910: del tmp57
    .del 231,
    -- 3911: tmp62 += np.transpose(tmp59, (1, 0, 2))
    .add 249 (.tr 229 [1, 0, 2]) 1 1,
    -- 3912: del tmp59
    .del 229,
    -- 3913: tmp62 += np.transpose(tmp61, (1, 0, 2)) * -1
    .add 249 (.tr 230 [1, 0, 2]) (-1) 1,
    -- 3914: del tmp61
    .del 230,
    -- 3915: tmp47 = np.copy(ints.tmp437) * 2
    .set 250 (.cp 39) 2 1,
    -- 3916: del ints.tmp437
    .del 39,
    -- 3917: tmp47 += ints.tmp439
    .add 250 (.cp 40) 1 1,
    -- 3918: del ints.tmp439
    .del 40,
    -- 3919: tmp47 += f.bb.vv * -1
    .add 250 (.cp 41) (-1) 1,
    -- 3920: tmp47 += np.transpose(tmp46, (1, 0))
    .add 250 (.tr 232 [1, 0]) 1 1,
    -- 3921: del tmp46
    .del 232,
    -- 3922: tmp56 = einsum(f.bb.ov, (0, 1), r1.b, (2,), (0, 2, 1))
    .set 251 (.ein [(26, [0, 1]), (27, [2])] [0, 2, 1]) 1 1,
    -- 3923: tmp56 += tmp49
    .add 251 (.cp 233) 1 1,
    -- 3924: del tmp49
    .del 233,
    -- 3925: tmp56 += tmp50
    .add 251 (.cp 236) 1 1,
    -- 3926: del tmp50
    .del 236,
    -- 3927: tmp56 += np.transpose(tmp52, (1, 0, 2))
    .add 251 (.tr 237 [1, 0, 2]) 1 1,
    -- 3928: del tmp52
    .del 237,
    -- 3929: tmp56 += tmp53 * -1
    .add 251 (.cp 235) (-1) 1,
    -- 3930: del tmp53
    .del 235,
    -- 3931: tmp56 += np.transpose(tmp55, (1, 0, 2))
    .add 251 (.tr 234 [1, 0, 2]) 1 1,
    -- 3932: del tmp55
    .del 234,
    -- 3933: tmp45 = einsum(tmp34, (0, 1, 2), r2.aaa, (3, 1, 2), (0, 3)) * 2
    .set 252 (.ein [(214, [0, 1, 2]), (11, [3, 1, 2])] [0, 3]) 2 1,
    -- 3934: tmp45 += einsum(tmp35, (0, 1, 2), r2.bab, (1, 3, 2), (0, 3)) * -2
    .add 252 (.ein [(238, [0, 1, 2]), (10, [1, 3, 2])] [0, 3]) (-2) 1,
    -- 3935: tmp43 = np.copy(ints.tmp441)
    .set 253 (.cp 42) 1 1,
    -- 3936: del ints.tmp441
    .del 42,
    -- 3937: tmp43 += np.transpose(ints.tmp442, (1, 0, 2, 3)) * -1
    .add 253 (.tr 43 [1, 0, 2, 3]) (-1) 1,
    -- 3938: del ints.tmp442
    .del 43,
    -- 3939: tmp40 = np.copy(f.bb.oo)
    .set 254 (.cp 12) 1 1,
    -- 3940: tmp40 += ints.tmp158 * 2
    .add 254 (.cp 16) 2 1,
    -- 3941: tmp40 += ints.tmp161
    .add 254 (.cp 17) 1 1,
    -- 3942: tmp40 += np.transpose(ints.tmp21, (1, 0))
    .add 254 (.tr 13 [1, 0]) 1 1,
    -- 3943: tmp44 = np.copy(ints.tmp171)
    .set 255 (.cp 44) 1 1,
    -- 3944: tmp44 += np.transpose(ints.tmp36, (1, 0, 2, 3))
    .add 255 (.tr 45 [1, 0, 2, 3]) 1 1,
    -- 3945: tmp41 = np.copy(f.aa.oo)
    .set 256 (.cp 21) 1 1,
    -- 3946: tmp41 += np.transpose(ints.tmp1, (1, 0))
    .add 256 (.tr 22 [1, 0]) 1 1,
    -- 3947: tmp41 += ints.tmp57 * 2
    .add 256 (.cp 18) 2 1,
    -- 3948: tmp41 += ints.tmp60
    .add 256 (.cp 19) 1 1,
    -- 3949: tmp48 = np.copy(tmp23)
    .set 257 (.cp 224) 1 1,
    -- 3950: del tmp23
    .del 224,
    -- 3951: tmp48 += tmp9 * 0.5
    .add 257 (.cp 227) 1 2,
    -- 3952: del tmp9
    .del 227,
    -- 3953: tmp36 = einsum(tmp34, (0, 1, 2), r2.aba, (1, 3, 2), (0, 3)) * -0.5
    .set 258 (.ein [(214, [0, 1, 2]), (9, [1, 3, 2])] [0, 3]) (-1) 2,
    -- 3954: del tmp34
    .del 214,
    -- 3955: tmp36 += einsum(tmp35, (0, 1, 2), r2.bbb, (3, 1, 2), (0, 3)) * 2
    .add 258 (.ein [(238, [0, 1, 2]), (6, [3, 1, 2])] [0, 3]) 2 1,
    -- 3956: del tmp35
    .del 238,
    -- 3957: tmp32 = np.copy(ints.tmp417)
    .set 259 (.cp 46) 1 1,
    -- 3958: del ints.tmp417
    .del 46,
    -- 3959: tmp32 += np.transpose(ints.tmp418, (1, 0, 2, 3)) * -1
    .add 259 (.tr 47 [1, 0, 2, 3]) (-1) 1,
    -- 3960: del ints.tmp418
    .del 47,
    -- 3961: tmp30 = np.copy(ints.tmp388) * 2
    .set 260 (.cp 48) 2 1,
    -- 3962: del ints.tmp388
    .del 48,
    -- 3963: tmp30 += ints.tmp390
    .add 260 (.cp 49) 1 1,
    -- 3964: del ints.tmp390
    .del 49,
    -- 3965: tmp30 += f.aa.vv * -1
    .add 260 (.cp 50) (-1) 1,
    -- 3966: tmp30 += np.transpose(tmp29, (1, 0))
    .add 260 (.tr 239 [1, 0]) 1 1,
    -- 3967: del tmp29
    .del 239,
    -- 3968: tmp33 = np.copy(ints.tmp171)
    .set 261 (.cp 44) 1 1,
    -- 3969: del ints.tmp171
    .del 44,
    -- 3970: tmp33 += np.transpose(ints.tmp36, (0, 1, 3, 2))
    .add 261 (.tr 45 [0, 1, 3, 2]) 1 1,
    -- 3971: del ints.tmp36
    .del 45,
    -- 3972: tmp31 = np.copy(ints.tmp358)
    .set 262 (.cp 23) 1 1,
    -- 3973: del ints.tmp358
    .del 23,
    -- 3974: tmp31 += ints.tmp362 * 2
    .add 262 (.cp 24) 2 1,
    -- 3975: del ints.tmp362
    .del 24,
    -- 3976: tmp27 = einsum(f.aa.ov, (0, 1), r1.a, (2,), (0, 2, 1)) * -1
    .set 263 (.ein [(31, [0, 1]), (34, [2])] [0, 2, 1]) (-1) 1,
    -- 3977: tmp27 += tmp22 * -1
    .add 263 (.cp 241) (-1) 1,
    -- 3978: del tmp22
    .del 241,
    -- 3979: tmp27 += tmp24 * 2
    .add 263 (.cp 242) 2 1,
    -- 3980: del tmp24
    .del 242,
    -- 3981: tmp27 += np.transpose(tmp26, (1, 0, 2)) * -1
    .add 263 (.tr 240 [1, 0, 2]) (-1) 1,
    -- 3982: del tmp26
    .del 240,
    -- 3983: tmp21 = np.copy(tmp8)
    .set 264 (.cp 246) 1 1,
    -- 3984: del tmp8
    .del 246,
    -- 3985: tmp21 += tmp10
    .add 264 (.cp 245) 1 1,
    -- 3986: del tmp10
    .del 245,
    -- 3987: tmp21 += np.transpose(tmp12, (1, 0, 2)) * -2
    .add 264 (.tr 247 [1, 0, 2]) (-2) 1,
    -- 3988: del tmp12
    .del 247,
    -- 3989: tmp21 += np.transpose(tmp18, (1, 0, 2))
    .add 264 (.tr 243 [1, 0, 2]) 1 1,
    -- 3990: del tmp18
    .del 243,
    -- 3991: tmp21 += np.transpose(tmp20, (1, 0, 2)) * -2
    .add 264 (.tr 244 [1, 0, 2]) (-2) 1,
    -- 3992: del tmp20
    .del 244,
    -- 3993: tmp28 = np.copy(ints.tmp167)
    .set 265 (.cp 51) 1 1,
    -- 3994: del ints.tmp167
    .del 51,
    -- 3995: tmp28 += np.transpose(ints.tmp33, (2, 3, 0, 1)) * -1
    .add 265 (.tr 52 [2, 3, 0, 1]) (-1) 1,
    -- 3996: del ints.tmp33
    .del 52,
    -- 3997: tmp3 = np.copy(ints.tmp100)
    .set 266 (.cp 53) 1 1,
    -- 3998: del ints.tmp100
    .del 53,
    -- 3999: tmp3 += ints.tmp108 * 0.5
    .add 266 (.cp 54) 1 2,
    -- 4000: del ints.tmp108
    .del 54,
    -- 4001: tmp3 += ints.tmp135
    .add 266 (.cp 55) 1 1,
    -- 4002: del ints.tmp135
    .del 55,
    -- 4003: tmp3 += ints.tmp140 * 0.5
    .add 266 (.cp 56) 1 2,
    -- 4004: del ints.tmp140
    .del 56,
    -- 4005: tmp3 += ints.tmp156
    .add 266 (.cp 57) 1 1,
    -- 4006: del ints.tmp156
    .del 57,
    -- 4007: tmp3 += ints.tmp164 * 0.5
    .add 266 (.cp 58) 1 2,
    -- 4008: del ints.tmp164
    .del 58,
    -- 4009: tmp3 += ints.tmp179 * 0.5
    .add 266 (.cp 59) 1 2,
    -- 4010: del ints.tmp179
    .del 59,
    -- 4011: tmp3 += ints.tmp185 * 0.5
    .add 266 (.cp 60) 1 2,
    -- 4012: del ints.tmp185
    .del 60,
    -- 4013: tmp3 += ints.tmp19 * 0.5
    .add 266 (.cp 61) 1 2,
    -- 4014: del ints.tmp19
    .del 61,
    -- 4015: tmp3 += ints.tmp201 * 0.5
    .add 266 (.cp 62) 1 2,
    -- 4016: del ints.tmp201
    .del 62,
    -- 4017: tmp3 += ints.tmp217 * 0.5
    .add 266 (.cp 63) 1 2,
    -- 4018: del ints.tmp217
    .del 63,
    -- 4019: tmp3 += ints.tmp223 * 0.5
    .add 266 (.cp 64) 1 2,
    -- 4020: del ints.tmp223
    .del 64,
    -- 4021: tmp3 += ints.tmp2 * 0.5
    .add 266 (.cp 65) 1 2,
    -- 4022: del ints.tmp2
    .del 65,
    -- 4023: tmp3 += ints.tmp42 * 0.5
    .add 266 (.cp 66) 1 2,
    -- 4024: del ints.tmp42
    .del 66,
    -- 4025: tmp3 += ints.tmp62
    .add 266 (.cp 67) 1 1,
    -- 4026: del ints.tmp62
    .del 67,
    -- 4027: tmp3 += ints.tmp70 * 0.5
    .add 266 (.cp 68) 1 2,
    -- 4028: del ints.tmp70
    .del 68,
    -- 4029: tmp3 += ints.tmp85
    .add 266 (.cp 69) 1 1,
    -- 4030: del ints.tmp85
    .del 69,
    -- 4031: tmp3 += f.aa.ov * -0.5
    .add 266 (.cp 31) (-1) 2,
    -- 4032: tmp3 += ints.tmp103 * -1
    .add 266 (.cp 70) (-1) 1,
    -- 4033: del ints.tmp103
    .del 70,
    -- 4034: tmp3 += ints.tmp112 * -0.5
    .add 266 (.cp 71) (-1) 2,
    -- 4035: del ints.tmp112
    .del 71,
    -- 4036: tmp3 += ints.tmp116 * -1
    .add 266 (.cp 72) (-1) 1,
    -- 4037: del ints.tmp116
    .del 72,
    -- 4038: tmp3 += ints.tmp119 * -0.5
    .add 266 (.cp 73) (-1) 2,
    -- 4039: del ints.tmp119
    .del 73,
    -- 4040: tmp3 += ints.tmp11 * -0.5
    .add 266 (.cp 74) (-1) 2,
    -- 4041: del ints.tmp11
    .del 74,
    -- 4042: tmp3 += ints.tmp177 * -0.5
    .add 266 (.cp 75) (-1) 2,
    -- 4043: del ints.tmp177
    .del 75,
    -- 4044: tmp3 += ints.tmp199 * -0.5
    .add 266 (.cp 76) (-1) 2,
    -- 4045: del ints.tmp199
    .del 76,
    -- 4046: tmp3 += ints.tmp209 * -0.5
    .add 266 (.cp 77) (-1) 2,
    -- 4047: del ints.tmp209
    .del 77,
    -- 4048: tmp3 += ints.tmp215 * -0.5
    .add 266 (.cp 78) (-1) 2,
    -- 4049: del ints.tmp215
    .del 78,
    -- 4050: tmp3 += ints.tmp39 * -0.5
    .add 266 (.cp 79) (-1) 2,
    -- 4051: del ints.tmp39
    .del 79,
    -- 4052: tmp3 += ints.tmp48 * -0.5
    .add 266 (.cp 80) (-1) 2,
    -- 4053: del ints.tmp48
    .del 80,
    -- 4054: tmp3 += ints.tmp5 * -0.5
    .add 266 (.cp 81) (-1) 2,
    -- 4055: del ints.tmp5
    .del 81,
    -- 4056: tmp3 += ints.tmp8 * -1
    .add 266 (.cp 82) (-1) 1,
    -- 4057: del ints.tmp8
    .del 82,
    -- 4058: tmp3 += ints.tmp91 * -0.5
    .add 266 (.cp 83) (-1) 2,
    -- 4059: del ints.tmp91
    .del 83,
    -- 4060: tmp7 = np.copy(f.bb.oo)
    .set 267 (.cp 12) 1 1,
    -- 4061: tmp7 += ints.tmp158 * 2
    .add 267 (.cp 16) 2 1,
    -- 4062: del ints.tmp158
    .del 16,
    -- 4063: tmp7 += ints.tmp161
    .add 267 (.cp 17) 1 1,
    -- 4064: del ints.tmp161
    .del 17,
    -- 4065: tmp7 += np.transpose(ints.tmp183, (1, 0))
    .add 267 (.tr 84 [1, 0]) 1 1,
    -- 4066: del ints.tmp183
    .del 84,
    -- 4067: tmp7 += np.transpose(ints.tmp187, (1, 0))
    .add 267 (.tr 85 [1, 0]) 1 1,
    -- 4068: del ints.tmp187
    .del 85,
    -- 4069: tmp7 += np.transpose(ints.tmp21, (1, 0))
    .add 267 (.tr 13 [1, 0]) 1 1,
    -- 4070: del ints.tmp21
    .del 13,
    -- 4071: tmp7 += ints.tmp221
    .add 267 (.cp 86) 1 1,
    -- 4072: del ints.tmp221
    .del 86,
    -- 4073: tmp7 += ints.tmp225
    .add 267 (.cp 87) 1 1,
    -- 4074: del ints.tmp225
    .del 87,
    -- 4075: tmp7 += ints.tmp181 * -1
    .add 267 (.cp 88) (-1) 1,
    -- 4076: del ints.tmp181
    .del 88,
    -- 4077: tmp7 += ints.tmp219 * -1
    .add 267 (.cp 89) (-1) 1,
    -- 4078: del ints.tmp219
    .del 89,
    -- 4079: tmp5 = np.copy(ints.tmp142)
    .set 268 (.cp 90) 1 1,
    -- 4080: del ints.tmp142
    .del 90,
    -- 4081: tmp5 += np.transpose(ints.tmp239, (0, 2, 1, 3))
    .add 268 (.tr 91 [0, 2, 1, 3]) 1 1,
    -- 4082: del ints.tmp239
    .del 91,
    -- 4083: tmp5 += np.transpose(ints.tmp257, (0, 2, 1, 3))
    .add 268 (.tr 92 [0, 2, 1, 3]) 1 1,
    -- 4084: del ints.tmp257
    .del 92,
    -- 4085: tmp5 += ints.tmp267
    .add 268 (.cp 93) 1 1,
    -- 4086: del ints.tmp267
    .del 93,
    -- 4087: tmp5 += ints.tmp271 * 2
    .add 268 (.cp 94) 2 1,
    -- 4088: del ints.tmp271
    .del 94,
    -- 4089: tmp5 += ints.tmp283
    .add 268 (.cp 95) 1 1,
    -- 4090: del ints.tmp283
    .del 95,
    -- 4091: tmp5 += ints.tmp298
    .add 268 (.cp 96) 1 1,
    -- 4092: del ints.tmp298
    .del 96,
    -- 4093: tmp5 += ints.tmp302
    .add 268 (.cp 97) 1 1,
    -- 4094: del ints.tmp302
    .del 97,
    -- 4095: tmp5 += ints.tmp310
    .add 268 (.cp 98) 1 1,
    -- 4096: del ints.tmp310
    .del 98,
    -- 4097: tmp5 += ints.tmp316 * 2
    .add 268 (.cp 99) 2 1,
    -- 4098: del ints.tmp316
    .del 99,
    -- 4099: tmp5 += ints.tmp346
    .add 268 (.cp 100) 1 1,
    -- 4100: del ints.tmp346
    .del 100,
    -- 4101: tmp5 += np.transpose(ints.tmp67, (0, 2, 1, 3))
    .add 268 (.tr 101 [0, 2, 1, 3]) 1 1,
    -- 4102: tmp5 += np.transpose(ints.tmp249, (0, 2, 1, 3)) * -1
    .add 268 (.tr 102 [0, 2, 1, 3]) (-1) 1,
    -- 4103: del ints.tmp249
    .del 102,
    -- 4104: tmp5 += ints.tmp264 * -1
    .add 268 (.cp 103) (-1) 1,
    -- 4105: del ints.tmp264
    .del 103,
    -- 4106: tmp5 += ints.tmp270 * -1
    .add 268 (.cp 104) (-1) 1,
    -- 4107: del ints.tmp270
    .del 104,
    -- 4108: tmp5 += ints.tmp294 * -1
    .add 268 (.cp 105) (-1) 1,
    -- 4109: del ints.tmp294
    .del 105,
    -- 4110: tmp5 += ints.tmp313 * -1
    .add 268 (.cp 106) (-1) 1,
    -- 4111: del ints.tmp313
    .del 106,
    -- 4112: tmp5 += ints.tmp320 * -1
    .add 268 (.cp 107) (-1) 1,
    -- 4113: del ints.tmp320
    .del 107,
    -- 4114: tmp5 += ints.tmp329 * -1
    .add 268 (.cp 108) (-1) 1,
    -- 4115: del ints.tmp329
    .del 108,
    -- 4116: tmp5 += ints.tmp339 * -1
    .add 268 (.cp 109) (-1) 1,
    -- 4117: del ints.tmp339
    .del 109,
    -- 4118: tmp5 += np.transpose(ints.tmp340, (0, 2, 1, 3)) * -1
    .add 268 (.tr 110 [0, 2, 1, 3]) (-1) 1,
    -- 4119: del ints.tmp340
    .del 110,
    -- 4120: tmp5 += ints.tmp354 * -1
    .add 268 (.cp 111) (-1) 1,
    -- 4121: del ints.tmp354
    .del 111,
    -- 4122: tmp2 = np.copy(ints.tmp102) * 0.5
    .set 269 (.cp 112) 1 2,
    -- 4123: del ints.tmp102
    .del 112,
    -- 4124: tmp2 += ints.tmp110
    .add 269 (.cp 113) 1 1,
    -- 4125: del ints.tmp110
    .del 113,
    -- 4126: tmp2 += ints.tmp138
    .add 269 (.cp 114) 1 1,
    -- 4127: del ints.tmp138
    .del 114,
    -- 4128: tmp2 += ints.tmp143 * 0.5
    .add 269 (.cp 115) 1 2,
    -- 4129: del ints.tmp143
    .del 115,
    -- 4130: tmp2 += ints.tmp159
    .add 269 (.cp 116) 1 1,
    -- 4131: del ints.tmp159
    .del 116,
    -- 4132: tmp2 += ints.tmp162 * 0.5
    .add 269 (.cp 117) 1 2,
    -- 4133: del ints.tmp162
    .del 117,
    -- 4134: tmp2 += ints.tmp184 * 0.5
    .add 269 (.cp 118) 1 2,
    -- 4135: del ints.tmp184
    .del 118,
    -- 4136: tmp2 += ints.tmp188 * 0.5
    .add 269 (.cp 119) 1 2,
    -- 4137: del ints.tmp188
    .del 119,
    -- 4138: tmp2 += ints.tmp205 * 0.5
    .add 269 (.cp 120) 1 2,
    -- 4139: del ints.tmp205
    .del 120,
    -- 4140: tmp2 += ints.tmp222 * 0.5
    .add 269 (.cp 121) 1 2,
    -- 4141: del ints.tmp222
    .del 121,
    -- 4142: tmp2 += ints.tmp226 * 0.5
    .add 269 (.cp 122) 1 2,
    -- 4143: del ints.tmp226
    .del 122,
    -- 4144: tmp2 += ints.tmp22 * 0.5
    .add 269 (.cp 123) 1 2,
    -- 4145: del ints.tmp22
    .del 123,
    -- 4146: tmp2 += ints.tmp46 * 0.5
    .add 269 (.cp 124) 1 2,
    -- 4147: del ints.tmp46
    .del 124,
    -- 4148: tmp2 += ints.tmp4 * 0.5
    .add 269 (.cp 125) 1 2,
    -- 4149: del ints.tmp4
    .del 125,
    -- 4150: tmp2 += ints.tmp65
    .add 269 (.cp 126) 1 1,
    -- 4151: del ints.tmp65
    .del 126,
    -- 4152: tmp2 += ints.tmp68 * 0.5
    .add 269 (.cp 127) 1 2,
    -- 4153: del ints.tmp68
    .del 127,
    -- 4154: tmp2 += ints.tmp87
    .add 269 (.cp 128) 1 1,
    -- 4155: del ints.tmp87
    .del 128,
    -- 4156: tmp2 += f.bb.ov * -0.5
    .add 269 (.cp 26) (-1) 2,
    -- 4157: tmp2 += ints.tmp105 * -0.5
    .add 269 (.cp 129) (-1) 2,
    -- 4158: del ints.tmp105
    .del 129,
    -- 4159: tmp2 += ints.tmp10 * -0.5
    .add 269 (.cp 130) (-1) 2,
    -- 4160: del ints.tmp10
    .del 130,
    -- 4161: tmp2 += ints.tmp114 * -1
    .add 269 (.cp 131) (-1) 1,
    -- 4162: del ints.tmp114
    .del 131,
    -- 4163: tmp2 += ints.tmp118 * -0.5
    .add 269 (.cp 132) (-1) 2,
    -- 4164: del ints.tmp118
    .del 132,
    -- 4165: tmp2 += ints.tmp121 * -1
    .add 269 (.cp 133) (-1) 1,
    -- 4166: del ints.tmp121
    .del 133,
    -- 4167: tmp2 += ints.tmp13 * -1
    .add 269 (.cp 134) (-1) 1,
    -- 4168: del ints.tmp13
    .del 134,
    -- 4169: tmp2 += ints.tmp182 * -0.5
    .add 269 (.cp 135) (-1) 2,
    -- 4170: del ints.tmp182
    .del 135,
    -- 4171: tmp2 += ints.tmp204 * -0.5
    .add 269 (.cp 136) (-1) 2,
    -- 4172: del ints.tmp204
    .del 136,
    -- 4173: tmp2 += ints.tmp207 * -0.5
    .add 269 (.cp 137) (-1) 2,
    -- 4174: del ints.tmp207
    .del 137,
    -- 4175: tmp2 += ints.tmp220 * -0.5
    .add 269 (.cp 138) (-1) 2,
    -- 4176: del ints.tmp220
    .del 138,
    -- 4177: tmp2 += ints.tmp44 * -0.5
    .add 269 (.cp 139) (-1) 2,
    -- 4178: del ints.tmp44
    .del 139,
    -- 4179: tmp2 += ints.tmp47 * -0.5
    .add 269 (.cp 140) (-1) 2,
    -- 4180: del ints.tmp47
    .del 140,
    -- 4181: tmp2 += ints.tmp7 * -0.5
    .add 269 (.cp 141) (-1) 2,
    -- 4182: del ints.tmp7
    .del 141,
    -- 4183: tmp2 += ints.tmp89 * -0.5
    .add 269 (.cp 142) (-1) 2,
    -- 4184: del ints.tmp89
    .del 142,
    -- 4185: tmp6 = np.copy(np.transpose(ints.tmp241, (1, 2, 0, 3)))
    .set 270 (.tr 143 [1, 2, 0, 3]) 1 1,
    -- 4186: del ints.tmp241
    .del 143,
    -- 4187: tmp6 += np.transpose(ints.tmp247, (0, 2, 1, 3))
    .add 270 (.tr 144 [0, 2, 1, 3]) 1 1,
    -- 4188: del ints.tmp247
    .del 144,
    -- 4189: tmp6 += np.transpose(ints.tmp255, (0, 2, 1, 3))
    .add 270 (.tr 145 [0, 2, 1, 3]) 1 1,
    -- 4190: del ints.tmp255
    .del 145,
    -- 4191: tmp6 += ints.tmp268 * 2
    .add 270 (.cp 146) 2 1,
    -- 4192: del ints.tmp268
    .del 146,
    -- 4193: tmp6 += ints.tmp273
    .add 270 (.cp 147) 1 1,
    -- 4194: del ints.tmp273
    .del 147,
    -- 4195: tmp6 += ints.tmp300
    .add 270 (.cp 148) 1 1,
    -- 4196: del ints.tmp300
    .del 148,
    -- 4197: tmp6 += ints.tmp304
    .add 270 (.cp 149) 1 1,
    -- 4198: del ints.tmp304
    .del 149,
    -- 4199: tmp6 += ints.tmp314 * 2
    .add 270 (.cp 150) 2 1,
    -- 4200: del ints.tmp314
    .del 150,
    -- 4201: tmp6 += ints.tmp327
    .add 270 (.cp 151) 1 1,
    -- 4202: del ints.tmp327
    .del 151,
    -- 4203: tmp6 += ints.tmp335
    .add 270 (.cp 152) 1 1,
    -- 4204: del ints.tmp335
    .del 152,
    -- 4205: tmp6 += ints.tmp352
    .add 270 (.cp 153) 1 1,
    -- 4206: del ints.tmp352
    .del 153,
    -- 4207: tmp6 += ints.tmp137 * -1
    .add 270 (.cp 154) (-1) 1,
    -- 4208: del ints.tmp137
    .del 154,
    -- 4209: tmp6 += ints.tmp265 * -2
    .add 270 (.cp 155) (-2) 1,
    -- 4210: del ints.tmp265
    .del 155,
    -- 4211: tmp6 += ints.tmp280 * -1
    .add 270 (.cp 156) (-1) 1,
    -- 4212: del ints.tmp280
    .del 156,
    -- 4213: tmp6 += ints.tmp296 * -1
    .add 270 (.cp 157) (-1) 1,
    -- 4214: del ints.tmp296
    .del 157,
    -- 4215: tmp6 += ints.tmp311 * -2
    .add 270 (.cp 158) (-2) 1,
    -- 4216: del ints.tmp311
    .del 158,
    -- 4217: tmp6 += ints.tmp318 * -1
    .add 270 (.cp 159) (-1) 1,
    -- 4218: del ints.tmp318
    .del 159,
    -- 4219: tmp6 += np.transpose(ints.tmp337, (0, 2, 1, 3)) * -1
    .add 270 (.tr 160 [0, 2, 1, 3]) (-1) 1,
    -- 4220: del ints.tmp337
    .del 160,
    -- 4221: tmp6 += ints.tmp344 * -1
    .add 270 (.cp 161) (-1) 1,
    -- 4222: del ints.tmp344
    .del 161,
    -- 4223: tmp6 += np.transpose(ints.tmp64, (1, 2, 0, 3)) * -1
    .add 270 (.tr 28 [1, 2, 0, 3]) (-1) 1,
    -- 4224: del ints.tmp64
    .del 28,
    -- 4225: tmp4 = np.copy(f.aa.oo)
    .set 271 (.cp 21) 1 1,
    -- 4226: tmp4 += ints.tmp175
    .add 271 (.cp 162) 1 1,
    -- 4227: del ints.tmp175
    .del 162,
    -- 4228: tmp4 += ints.tmp176
    .add 271 (.cp 163) 1 1,
    -- 4229: del ints.tmp176
    .del 163,
    -- 4230: tmp4 += np.transpose(ints.tmp1, (1, 0))
    .add 271 (.tr 22 [1, 0]) 1 1,
    -- 4231: del ints.tmp1
    .del 22,
    -- 4232: tmp4 += np.transpose(ints.tmp30, (1, 0))
    .add 271 (.tr 164 [1, 0]) 1 1,
    -- 4233: del ints.tmp30
    .del 164,
    -- 4234: tmp4 += np.transpose(ints.tmp32, (1, 0))
    .add 271 (.tr 165 [1, 0]) 1 1,
    -- 4235: del ints.tmp32
    .del 165,
    -- 4236: tmp4 += ints.tmp57 * 2
    .add 271 (.cp 18) 2 1,
    -- 4237: del ints.tmp57
    .del 18,
    -- 4238: tmp4 += ints.tmp60
    .add 271 (.cp 19) 1 1,
    -- 4239: del ints.tmp60
    .del 19,
    -- 4240: tmp4 += ints.tmp174 * -1
    .add 271 (.cp 166) (-1) 1,
    -- 4241: del ints.tmp174
    .del 166,
    -- 4242: tmp4 += ints.tmp28 * -1
    .add 271 (.cp 167) (-1) 1,
    -- 4243: del ints.tmp28
    .del 167,
    -- 4244: tmp1 = np.copy(ints.tmp127)
    .set 272 (.cp 168) 1 1,
    -- 4245: del ints.tmp127
    .del 168,
    -- 4246: tmp1 += ints.tmp131
    .add 272 (.cp 169) 1 1,
    -- 4247: del ints.tmp131
    .del 169,
    -- 4248: tmp1 += ints.tmp148 * 2
    .add 272 (.cp 170) 2 1,
    -- 4249: del ints.tmp148
    .del 170,
    -- 4250: tmp1 += np.transpose(ints.tmp15, (1, 2, 0, 3))
    .add 272 (.tr 171 [1, 2, 0, 3]) 1 1,
    -- 4251: del ints.tmp15
    .del 171,
    -- 4252: tmp1 += ints.tmp168
    .add 272 (.cp 172) 1 1,
    -- 4253: del ints.tmp168
    .del 172,
    -- 4254: tmp1 += ints.tmp190
    .add 272 (.cp 173) 1 1,
    -- 4255: del ints.tmp190
    .del 173,
    -- 4256: tmp1 += ints.tmp228
    .add 272 (.cp 174) 1 1,
    -- 4257: del ints.tmp228
    .del 174,
    -- 4258: tmp1 += np.transpose(ints.tmp34, (0, 2, 1, 3))
    .add 272 (.tr 175 [0, 2, 1, 3]) 1 1,
    -- 4259: del ints.tmp34
    .del 175,
    -- 4260: tmp1 += np.transpose(ints.tmp52, (0, 2, 1, 3))
    .add 272 (.tr 176 [0, 2, 1, 3]) 1 1,
    -- 4261: del ints.tmp52
    .del 176,
    -- 4262: tmp1 += ints.tmp75 * 2
    .add 272 (.cp 177) 2 1,
    -- 4263: del ints.tmp75
    .del 177,
    -- 4264: tmp1 += ints.tmp80
    .add 272 (.cp 178) 1 1,
    -- 4265: del ints.tmp80
    .del 178,
    -- 4266: tmp1 += ints.tmp123 * -1
    .add 272 (.cp 179) (-1) 1,
    -- 4267: del ints.tmp123
    .del 179,
    -- 4268: tmp1 += ints.tmp145 * -2
    .add 272 (.cp 180) (-2) 1,
    -- 4269: del ints.tmp145
    .del 180,
    -- 4270: tmp1 += ints.tmp151 * -1
    .add 272 (.cp 181) (-1) 1,
    -- 4271: del ints.tmp151
    .del 181,
    -- 4272: tmp1 += np.transpose(ints.tmp192, (0, 2, 1, 3)) * -1
    .add 272 (.tr 182 [0, 2, 1, 3]) (-1) 1,
    -- 4273: del ints.tmp192
    .del 182,
    -- 4274: tmp1 += ints.tmp211 * -1
    .add 272 (.cp 183) (-1) 1,
    -- 4275: del ints.tmp211
    .del 183,
    -- 4276: tmp1 += np.transpose(ints.tmp23, (1, 2, 0, 3)) * -1
    .add 272 (.tr 33 [1, 2, 0, 3]) (-1) 1,
    -- 4277: del ints.tmp23
    .del 33,
    -- 4278: tmp1 += ints.tmp50 * -1
    .add 272 (.cp 184) (-1) 1,
    -- 4279: del ints.tmp50
    .del 184,
    -- 4280: tmp1 += ints.tmp72 * -2
    .add 272 (.cp 185) (-2) 1,
    -- 4281: del ints.tmp72
    .del 185,
    -- 4282: tmp1 += ints.tmp94 * -1
    .add 272 (.cp 186) (-1) 1,
    -- 4283: del ints.tmp94
    .del 186,
    -- 4284: tmp0 = np.copy(ints.tmp129)
    .set 273 (.cp 187) 1 1,
    -- 4285: del ints.tmp129
    .del 187,
    -- 4286: tmp0 += ints.tmp133
    .add 273 (.cp 188) 1 1,
    -- 4287: del ints.tmp133
    .del 188,
    -- 4288: tmp0 += ints.tmp147
    .add 273 (.cp 189) 1 1,
    -- 4289: del ints.tmp147
    .del 189,
    -- 4290: tmp0 += ints.tmp153 * 2
    .add 273 (.cp 190) 2 1,
    -- 4291: del ints.tmp153
    .del 190,
    -- 4292: tmp0 += np.transpose(ints.tmp17, (1, 0, 2, 3))
    .add 273 (.tr 191 [1, 0, 2, 3]) 1 1,
    -- 4293: del ints.tmp17
    .del 191,
    -- 4294: tmp0 += ints.tmp213
    .add 273 (.cp 192) 1 1,
    -- 4295: del ints.tmp213
    .del 192,
    -- 4296: tmp0 += np.transpose(ints.tmp25, (1, 0, 2, 3))
    .add 273 (.tr 193 [1, 0, 2, 3]) 1 1,
    -- 4297: tmp0 += ints.tmp54
    .add 273 (.cp 194) 1 1,
    -- 4298: del ints.tmp54
    .del 194,
    -- 4299: tmp0 += np.transpose(ints.tmp55, (1, 0, 2, 3))
    .add 273 (.tr 195 [1, 0, 2, 3]) 1 1,
    -- 4300: del ints.tmp55
    .del 195,
    -- 4301: tmp0 += ints.tmp78
    .add 273 (.cp 196) 1 1,
    -- 4302: del ints.tmp78
    .del 196,
    -- 4303: tmp0 += ints.tmp83 * 2
    .add 273 (.cp 197) 2 1,
    -- 4304: del ints.tmp83
    .del 197,
    -- 4305: tmp0 += ints.tmp97
    .add 273 (.cp 198) 1 1,
    -- 4306: del ints.tmp97
    .del 198,
    -- 4307: tmp0 += ints.tmp125 * -1
    .add 273 (.cp 199) (-1) 1,
    -- 4308: del ints.tmp125
    .del 199,
    -- 4309: tmp0 += ints.tmp150 * -1
    .add 273 (.cp 200) (-1) 1,
    -- 4310: del ints.tmp150
    .del 200,
    -- 4311: tmp0 += ints.tmp155 * -1
    .add 273 (.cp 201) (-1) 1,
    -- 4312: del ints.tmp155
    .del 201,
    -- 4313: tmp0 += ints.tmp172 * -1
    .add 273 (.cp 202) (-1) 1,
    -- 4314: del ints.tmp172
    .del 202,
    -- 4315: tmp0 += ints.tmp195 * -1
    .add 273 (.cp 203) (-1) 1,
    -- 4316: del ints.tmp195
    .del 203,
    -- 4317: tmp0 += np.transpose(ints.tmp197, (1, 0, 2, 3)) * -1
    .add 273 (.tr 204 [1, 0, 2, 3]) (-1) 1,
    -- 4318: del ints.tmp197
    .del 204,
    -- 4319: tmp0 += ints.tmp231 * -1
    .add 273 (.cp 205) (-1) 1,
    -- 4320: del ints.tmp231
    .del 205,
    -- 4321: tmp0 += ints.tmp37 * -1
    .add 273 (.cp 206) (-1) 1,
    -- 4322: del ints.tmp37
    .del 206,
    -- 4323: tmp0 += ints.tmp74 * -1
    .add 273 (.cp 207) (-1) 1,
    -- 4324: del ints.tmp74
    .del 207,
    -- 4325: tmp0 += ints.tmp79 * -1
    .add 273 (.cp 208) (-1) 1,
    -- 4326: del ints.tmp79
    .del 208,
    -- 4327: r2new.bbb = np.copy(tmp56) * -1
    .set 274 (.cp 251) (-1) 1,
    -- 4328: r2new.bbb += np.transpose(tmp56, (1, 0, 2))
    .add 274 (.tr 251 [1, 0, 2]) 1 1,
    -- 4329: del tmp56
    .del 251,
    -- 4330: r2new.bbb += tmp62 * 2
    .add 274 (.cp 249) 2 1,
    -- 4331: r2new.bbb += np.transpose(tmp62, (1, 0, 2)) * -2
    .add 274 (.tr 249 [1, 0, 2]) (-2) 1,
    -- 4332: del tmp62
    .del 249,
    -- 4333: r2new.bbb += einsum(r2.bbb, (0, 1, 2), tmp63, (3, 4, 1, 0), (3, 4, 2)) * 2
    .add 274 (.ein [(6, [0, 1, 2]), (248, [3, 4, 1, 0])] [3, 4, 2]) 2 1,
    -- 4334: del tmp63
    .del 248,
    -- 4335: r2new.bbb += einsum(r2.bbb, (0, 1, 2), tmp47, (2, 3), (0, 1, 3)) * -2
    .add 274 (.ein [(6, [0, 1, 2]), (250, [2, 3])] [0, 1, 3]) (-2) 1,
    -- 4336: r2new.bab = einsum(r1.a, (0,), f.bb.ov, (1, 2), (1, 0, 2)) * -1
    .set 275 (.ein [(34, [0]), (26, [1, 2])] [1, 0, 2]) (-1) 1,
    -- 4337: r2new.bab += einsum(ints.tmp25, (0, 1, 2, 3), r1.a, (1,), (2, 0, 3))
    .add 275 (.ein [(193, [0, 1, 2, 3]), (34, [1])] [2, 0, 3]) 1 1,
    -- 4338: del ints.tmp25
    .del 193,
    -- 4339: r2new.bab += einsum(r2.aaa, (0, 1, 2), ints.tmp421, (1, 3, 2, 4), (3, 0, 4)) * 2
    .add 275 (.ein [(11, [0, 1, 2]), (30, [1, 3, 2, 4])] [3, 0, 4]) 2 1,
    -- 4340: del ints.tmp421
    .del 30,
    -- 4341: r2new.bab += einsum(r2.bab, (0, 1, 2), tmp42, (0, 3, 2, 4), (3, 1, 4)) * -1
    .add 275 (.ein [(10, [0, 1, 2]), (219, [0, 3, 2, 4])] [3, 1, 4]) (-1) 1,
    -- 4342: del tmp42
    .del 219,
    -- 4343: r2new.bab += einsum(r2.bab, (0, 1, 2), tmp43, (3, 1, 2, 4), (0, 3, 4)) * -1
    .add 275 (.ein [(10, [0, 1, 2]), (253, [3, 1, 2, 4])] [0, 3, 4]) (-1) 1,
    -- 4344: del tmp43
    .del 253,
    -- 4345: r2new.bab += einsum(r2.bab, (0, 1, 2), tmp44, (1, 3, 0, 4), (4, 3, 2))
    .add 275 (.ein [(10, [0, 1, 2]), (255, [1, 3, 0, 4])] [4, 3, 2]) 1 1,
    -- 4346: del tmp44
    .del 255,
    -- 4347: r2new.bab += einsum(tmp45, (0, 1), v.bbb.xov, (0, 2, 3), (2, 1, 3)) * -1
    .add 275 (.ein [(252, [0, 1]), (1, [0, 2, 3])] [2, 1, 3]) (-1) 1,
    -- 4348: del tmp45
    .del 252,
    -- 4349: r2new.bab += einsum(r2.bab, (0, 1, 2), tmp47, (2, 3), (0, 1, 3)) * -1
    .add 275 (.ein [(10, [0, 1, 2]), (250, [2, 3])] [0, 1, 3]) (-1) 1,
    -- 4350: del tmp47
    .del 250,
    -- 4351: r2new.bab += einsum(tmp48, (0,), ints.tmp170, (1, 2, 0, 3), (2, 1, 3)) * 2
    .add 275 (.ein [(257, [0]), (209, [1, 2, 0, 3])] [2, 1, 3]) 2 1,
    -- 4352: del tmp48
    .del 257,
    -- 4353: r2new.bab += einsum(r2.bab, (0, 1, 2), tmp40, (0, 3), (3, 1, 2)) * -1
    .add 275 (.ein [(10, [0, 1, 2]), (254, [0, 3])] [3, 1, 2]) (-1) 1,
    -- 4354: r2new.bab += einsum(tmp41, (0, 1), r2.bab, (2, 0, 3), (2, 1, 3)) * -1
    .add 275 (.ein [(256, [0, 1]), (10, [2, 0, 3])] [2, 1, 3]) (-1) 1,
    -- 4355: r2new.aba = einsum(f.aa.ov, (0, 1), r1.b, (2,), (0, 2, 1)) * -1
    .set 276 (.ein [(31, [0, 1]), (27, [2])] [0, 2, 1]) (-1) 1,
    -- 4356: r2new.aba += einsum(ints.tmp67, (0, 1, 2, 3), r1.b, (2,), (0, 1, 3))
    .add 276 (.ein [(101, [0, 1, 2, 3]), (27, [2])] [0, 1, 3]) 1 1,
    -- 4357: del ints.tmp67
    .del 101,
    -- 4358: r2new.aba += einsum(r2.bbb, (0, 1, 2), ints.tmp364, (3, 1, 4, 2), (3, 0, 4)) * 2
    .add 276 (.ein [(6, [0, 1, 2]), (36, [3, 1, 4, 2])] [3, 0, 4]) 2 1,
    -- 4359: del ints.tmp364
    .del 36,
    -- 4360: r2new.aba += einsum(tmp31, (0, 1, 2, 3), r2.aba, (0, 4, 2), (1, 4, 3)) * -1
    .add 276 (.ein [(262, [0, 1, 2, 3]), (9, [0, 4, 2])] [1, 4, 3]) (-1) 1,
    -- 4361: del tmp31
    .del 262,
    -- 4362: r2new.aba += einsum(r2.aba, (0, 1, 2), tmp32, (3, 1, 2, 4), (0, 3, 4)) * -1
    .add 276 (.ein [(9, [0, 1, 2]), (259, [3, 1, 2, 4])] [0, 3, 4]) (-1) 1,
    -- 4363: del tmp32
    .del 259,
    -- 4364: r2new.aba += einsum(tmp33, (0, 1, 2, 3), r2.aba, (0, 2, 4), (1, 3, 4))
    .add 276 (.ein [(261, [0, 1, 2, 3]), (9, [0, 2, 4])] [1, 3, 4]) 1 1,
    -- 4365: del tmp33
    .del 261,
    -- 4366: r2new.aba += einsum(v.baa.xov, (0, 1, 2), tmp36, (0, 3), (1, 3, 2)) * -2
    .add 276 (.ein [(4, [0, 1, 2]), (258, [0, 3])] [1, 3, 2]) (-2) 1,
    -- 4367: del tmp36
    .del 258,
    -- 4368: r2new.aba += einsum(tmp30, (0, 1), r2.aba, (2, 3, 0), (2, 3, 1)) * -1
    .add 276 (.ein [(260, [0, 1]), (9, [2, 3, 0])] [2, 3, 1]) (-1) 1,
    -- 4369: r2new.aba += einsum(tmp39, (0,), ints.tmp170, (1, 2, 3, 0), (1, 2, 3)) * 2
    .add 276 (.ein [(221, [0]), (209, [1, 2, 3, 0])] [1, 2, 3]) 2 1,
    -- 4370: del tmp39, ints.tmp170
    .del 221,
    .del 209,
    -- 4371: r2new.aba += einsum(r2.aba, (0, 1, 2), tmp40, (1, 3), (0, 3, 2)) * -1
    .add 276 (.ein [(9, [0, 1, 2]), (254, [1, 3])] [0, 3, 2]) (-1) 1,
    -- 4372: del tmp40
    .del 254,
    -- 4373: r2new.aba += einsum(tmp41, (0, 1), r2.aba, (0, 2, 3), (1, 2, 3)) * -1
    .add 276 (.ein [(256, [0, 1]), (9, [0, 2, 3])] [1, 2, 3]) (-1) 1,
    -- 4374: del tmp41
    .del 256,
    -- 4375: r2new.aaa = np.copy(tmp21)
    .set 277 (.cp 264) 1 1,
    -- 4376: r2new.aaa += np.transpose(tmp21, (1, 0, 2)) * -1
    .add 277 (.tr 264 [1, 0, 2]) (-1) 1,
    -- 4377: del tmp21
    .del 264,
    -- 4378: r2new.aaa += tmp27
    .add 277 (.cp 263) 1 1,
    -- 4379: r2new.aaa += np.transpose(tmp27, (1, 0, 2)) * -1
    .add 277 (.tr 263 [1, 0, 2]) (-1) 1,
    -- 4380: del tmp27
    .del 263,
    -- 4381: r2new.aaa += einsum(r2.aaa, (0, 1, 2), tmp28, (0, 1, 3, 4), (3, 4, 2)) * 2
    .add 277 (.ein [(11, [0, 1, 2]), (265, [0, 1, 3, 4])] [3, 4, 2]) 2 1,
    -- 4382: del tmp28
    .del 265,
    -- 4383: r2new.aaa += einsum(tmp30, (0, 1), r2.aaa, (2, 3, 0), (2, 3, 1)) * -2
    .add 277 (.ein [(260, [0, 1]), (11, [2, 3, 0])] [2, 3, 1]) (-2) 1,
    -- 4384: del tmp30
    .del 260,
    -- 4385: r1new.b = einsum(r2.aba, (0, 1, 2), tmp5, (0, 1, 3, 2), (3,))
    .set 278 (.ein [(9, [0, 1, 2]), (268, [0, 1, 3, 2])] [3]) 1 1,
    -- 4386: del tmp5
    .del 268,
    -- 4387: r1new.b += einsum(tmp6, (0, 1, 2, 3), r2.bbb, (0, 1, 3), (2,)) * 2
    .add 278 (.ein [(270, [0, 1, 2, 3]), (6, [0, 1, 3])] [2]) 2 1,
    -- 4388: del tmp6
    .del 270,
    -- 4389: r1new.b += einsum(tmp3, (0, 1), r2.aba, (0, 2, 1), (2,)) * 2
    .add 278 (.ein [(266, [0, 1]), (9, [0, 2, 1])] [2]) 2 1,
    -- 4390: r1new.b += einsum(r2.bbb, (0, 1, 2), tmp2, (1, 2), (0,)) * -4
    .add 278 (.ein [(6, [0, 1, 2]), (269, [1, 2])] [0]) (-4) 1,
    -- 4391: r1new.b += einsum(tmp7, (0, 1), r1.b, (0,), (1,)) * -1
    .add 278 (.ein [(267, [0, 1]), (27, [0])] [1]) (-1) 1,
    -- 4392: del tmp7
    .del 267,
    -- 4393: r1new.a = einsum(r2.bab, (0, 1, 2), tmp0, (1, 3, 0, 2), (3,))
    .set 279 (.ein [(10, [0, 1, 2]), (273, [1, 3, 0, 2])] [3]) 1 1,
    -- 4394: del tmp0
    .del 273,
    -- 4395: r1new.a += einsum(tmp1, (0, 1, 2, 3), r2.aaa, (0, 1, 3), (2,)) * 2
    .add 279 (.ein [(272, [0, 1, 2, 3]), (11, [0, 1, 3])] [2]) 2 1,
    -- 4396: del tmp1
    .del 272,
    -- 4397: r1new.a += einsum(tmp2, (0, 1), r2.bab, (0, 2, 1), (2,)) * 2
    .add 279 (.ein [(269, [0, 1]), (10, [0, 2, 1])] [2]) 2 1,
    -- 4398: del tmp2
    .del 269,
    -- 4399: r1new.a += einsum(tmp3, (0, 1), r2.aaa, (2, 0, 1), (2,)) * -4
    .add 279 (.ein [(266, [0, 1]), (11, [2, 0, 1])] [2]) (-4) 1,
    -- 4400: del tmp3
    .del 266,
    -- 4401: r1new.a += einsum(r1.a, (0,), tmp4, (0, 1), (1,)) * -1
    .add 279 (.ein [(34, [0]), (271, [0, 1])] [1]) (-1) 1,
    -- 4402: del tmp4
    .del 271
  ]
  ret := [(chars! "r1new.b", 278), (chars! "r1new.a", 279), (chars! "r2new.bbb", 274), (chars! "r2new.bab", 275), (chars! "r2new.aba", 276), (chars! "r2new.aaa", 277)]

/-- codegen/UDFCC2.py:2715-2919 `hbar_matvec_ea_intermediates`. -/
def hbar_matvec_ea_intermediates : GenFun where
  args := [chars! "v.bbb.xoo", chars! "v.bbb.xov", chars! "t2.abab", chars! "v.baa.xov", chars! "v.bbb.xvv", chars! "t2.bbbb", chars! "v.baa.xvv", chars! "t1.bb", chars! "f.bb.ov", chars! "t2.aaaa", chars! "v.baa.xoo", chars! "f.aa.ov", chars! "t1.aa", chars! "f.bb.oo", chars! "f.bb.vv", chars! "f.aa.vv", chars! "f.aa.oo"]
  body := [
    -- 2816: tmp175 = einsum(v.bbb.xoo, (0, 1, 2), v.bbb.xov, (0, 3, 4), (1, 2, 3, 4))
    .set 17 (.ein [(0, [0, 1, 2]), (1, [0, 3, 4])] [1, 2, 3, 4]) 1 1,
    -- 2817: tmp59 = einsum(t2.abab, (0, 1, 2, 3), v.baa.xov, (4, 0, 2), (4, 1, 3))
    .set 18 (.ein [(2, [0, 1, 2, 3]), (3, [4, 0, 2])] [4, 1, 3]) 1 1,
    -- 2818: tmp40 = einsum(v.bbb.xov, (0, 1, 2), v.bbb.xvv, (0, 3, 4), (1, 3, 4, 2))
    .set 19 (.ein [(1, [0, 1, 2]), (4, [0, 3, 4])] [1, 3, 4, 2]) 1 1,
    -- 2819: tmp56 = einsum(v.bbb.xov, (0, 1, 2), t2.bbbb, (3, 1, 4, 2), (0, 3, 4))
    .set 20 (.ein [(1, [0, 1, 2]), (5, [3, 1, 4, 2])] [0, 3, 4]) 1 1,
    -- 2820: tmp51 = einsum(v.bbb.xov, (0, 1, 2), v.bbb.xov, (0, 3, 4), (3, 1, 4, 2))
    .set 21 (.ein [(1, [0, 1, 2]), (1, [0, 3, 4])] [3, 1, 4, 2]) 1 1,
    -- 2821: tmp23 = einsum(v.baa.xov, (0, 1, 2), v.baa.xov, (0, 3, 4), (3, 1, 4, 2))
    .set 22 (.ein [(3, [0, 1, 2]), (3, [0, 3, 4])] [3, 1, 4, 2]) 1 1,
    -- 2822: tmp2 = einsum(v.baa.xvv, (0, 1, 2), v.baa.xov, (0, 3, 4), (3, 1, 2, 4))
    .set 23 (.ein [(6, [0, 1, 2]), (3, [0, 3, 4])] [3, 1, 2, 4]) 1 1,
    -- 2823: tmp156 = einsum(v.bbb.xoo, (0, 1, 2), v.baa.xov, (0, 3, 4), (3, 1, 2, 4))
    .set 24 (.ein [(0, [0, 1, 2]), (3, [0, 3, 4])] [3, 1, 2, 4]) 1 1,
    -- 2824: tmp164 = einsum(t1.bb, (0, 1), f.bb.ov, (2, 1), (2, 0))
    .set 25 (.ein [(7, [0, 1]), (8, [2, 1])] [2, 0]) 1 1,
    -- 2825: tmp26 = einsum(v.baa.xov, (0, 1, 2), v.bbb.xov, (0, 3, 4), (1, 3, 2, 4))
    .set 26 (.ein [(3, [0, 1, 2]), (1, [0, 3, 4])] [1, 3, 2, 4]) 1 1,
    -- 2826: tmp42 = einsum(v.baa.xov, (0, 1, 2), v.bbb.xvv, (0, 3, 4), (1, 2, 3, 4))
    .set 27 (.ein [(3, [0, 1, 2]), (4, [0, 3, 4])] [1, 2, 3, 4]) 1 1,
    -- 2827: tmp29 = einsum(v.baa.xov, (0, 1, 2), t2.aaaa, (3, 1, 4, 2), (0, 3, 4))
    .set 28 (.ein [(3, [0, 1, 2]), (9, [3, 1, 4, 2])] [0, 3, 4]) 1 1,
    -- 2828: tmp32 = einsum(t2.abab, (0, 1, 2, 3), v.bbb.xov, (4, 1, 3), (4, 0, 2))
    .set 29 (.ein [(2, [0, 1, 2, 3]), (1, [4, 1, 3])] [4, 0, 2]) 1 1,
    -- 2829: tmp97 = einsum(v.bbb.xov, (0, 1, 2), v.baa.xoo, (0, 3, 4), (3, 4, 1, 2))
    .set 30 (.ein [(1, [0, 1, 2]), (10, [0, 3, 4])] [3, 4, 1, 2]) 1 1,
    -- 2830: tmp4 = einsum(v.baa.xvv, (0, 1, 2), v.bbb.xov, (0, 3, 4), (3, 1, 2, 4))
    .set 31 (.ein [(6, [0, 1, 2]), (1, [0, 3, 4])] [3, 1, 2, 4]) 1 1,
    -- 2831: tmp107 = einsum(f.aa.ov, (0, 1), t1.aa, (2, 1), (0, 2))
    .set 32 (.ein [(11, [0, 1]), (12, [2, 1])] [0, 2]) 1 1,
    -- 2832: tmp95 = einsum(v.baa.xov, (0, 1, 2), v.baa.xoo, (0, 3, 4), (3, 4, 1, 2))
    .set 33 (.ein [(3, [0, 1, 2]), (10, [0, 3, 4])] [3, 4, 1, 2]) 1 1,
    -- 2833: tmp6 = einsum(v.baa.xov, (0, 1, 2), t1.aa, (1, 2), (0,))
    .set 34 (.ein [(3, [0, 1, 2]), (12, [1, 2])] [0]) 1 1,
    -- 2834: tmp45 = einsum(t1.bb, (0, 1), v.bbb.xvv, (2, 3, 1), (2, 0, 3))
    .set 35 (.ein [(7, [0, 1]), (4, [2, 3, 1])] [2, 0, 3]) 1 1,
    -- 2835: tmp10 = einsum(t1.bb, (0, 1), v.bbb.xov, (2, 0, 1), (2,))
    .set 36 (.ein [(7, [0, 1]), (1, [2, 0, 1])] [2]) 1 1,
    -- 2836: tmp17 = einsum(t1.bb, (0, 1), v.bbb.xov, (2, 3, 1), (2, 0, 3))
    .set 37 (.ein [(7, [0, 1]), (1, [2, 3, 1])] [2, 0, 3]) 1 1,
    -- 2837: tmp12 = einsum(t1.aa, (0, 1), v.baa.xov, (2, 3, 1), (2, 0, 3))
    .set 38 (.ein [(12, [0, 1]), (3, [2, 3, 1])] [2, 0, 3]) 1 1,
    -- 2838: tmp8 = einsum(v.baa.xvv, (0, 1, 2), t1.aa, (3, 2), (0, 3, 1))
    .set 39 (.ein [(6, [0, 1, 2]), (12, [3, 2])] [0, 3, 1]) 1 1,
    -- 2839: tmp224 = einsum(v.bbb.xvv, (0, 1, 2), v.bbb.xvv, (0, 3, 4), (3, 1, 2, 4))
    .set 40 (.ein [(4, [0, 1, 2]), (4, [0, 3, 4])] [3, 1, 2, 4]) 1 1,
    -- 2840: tmp216 = einsum(t2.bbbb, (0, 1, 2, 3), tmp175, (4, 0, 1, 5), (4, 2, 3, 5))
    .set 41 (.ein [(5, [0, 1, 2, 3]), (17, [4, 0, 1, 5])] [4, 2, 3, 5]) 1 1,
    -- 2841: tmp203 = einsum(v.bbb.xvv, (0, 1, 2), tmp59, (0, 3, 4), (3, 4, 1, 2))
    .set 42 (.ein [(4, [0, 1, 2]), (18, [0, 3, 4])] [3, 4, 1, 2]) 1 1,
    -- 2842: tmp201 = einsum(tmp40, (0, 1, 2, 3), t2.bbbb, (4, 0, 5, 2), (4, 5, 3, 1))
    .set 43 (.ein [(19, [0, 1, 2, 3]), (5, [4, 0, 5, 2])] [4, 5, 3, 1]) 1 1,
    -- 2843: tmp199 = einsum(tmp56, (0, 1, 2), v.bbb.xvv, (0, 3, 4), (1, 2, 3, 4))
    .set 44 (.ein [(20, [0, 1, 2]), (4, [0, 3, 4])] [1, 2, 3, 4]) 1 1,
    -- 2844: tmp190 = einsum(t2.bbbb, (0, 1, 2, 3), tmp51, (1, 4, 5, 3), (0, 4, 2, 5))
    .set 45 (.ein [(5, [0, 1, 2, 3]), (21, [1, 4, 5, 3])] [0, 4, 2, 5]) 1 1,
    -- 2845: tmp187 = einsum(t2.abab, (0, 1, 2, 3), tmp23, (0, 4, 5, 2), (4, 1, 5, 3))
    .set 46 (.ein [(2, [0, 1, 2, 3]), (22, [0, 4, 5, 2])] [4, 1, 5, 3]) 1 1,
    -- 2846: tmp183 = einsum(tmp56, (0, 1, 2), v.baa.xvv, (0, 3, 4), (1, 3, 4, 2))
    .set 47 (.ein [(20, [0, 1, 2]), (6, [0, 3, 4])] [1, 3, 4, 2]) 1 1,
    -- 2847: tmp182 = einsum(t2.abab, (0, 1, 2, 3), tmp2, (0, 4, 2, 5), (1, 5, 4, 3))
    .set 48 (.ein [(2, [0, 1, 2, 3]), (23, [0, 4, 2, 5])] [1, 5, 4, 3]) 1 1,
    -- 2848: tmp181 = einsum(v.baa.xvv, (0, 1, 2), tmp59, (0, 3, 4), (3, 1, 2, 4))
    .set 49 (.ein [(6, [0, 1, 2]), (18, [0, 3, 4])] [3, 1, 2, 4]) 1 1,
    -- 2849: tmp180 = einsum(f.bb.ov, (0, 1), t2.bbbb, (2, 0, 3, 1), (2, 3))
    .set 50 (.ein [(8, [0, 1]), (5, [2, 0, 3, 1])] [2, 3]) 1 1,
    -- 2850: tmp179 = einsum(t2.abab, (0, 1, 2, 3), f.aa.ov, (0, 2), (1, 3))
    .set 51 (.ein [(2, [0, 1, 2, 3]), (11, [0, 2])] [1, 3]) 1 1,
    -- 2851: tmp177 = einsum(t2.abab, (0, 1, 2, 3), tmp156, (0, 4, 1, 2), (4, 3))
    .set 52 (.ein [(2, [0, 1, 2, 3]), (24, [0, 4, 1, 2])] [4, 3]) 1 1,
    -- 2852: tmp176 = einsum(t2.bbbb, (0, 1, 2, 3), tmp175, (4, 0, 1, 3), (4, 2))
    .set 53 (.ein [(5, [0, 1, 2, 3]), (17, [4, 0, 1, 3])] [4, 2]) 1 1,
    -- 2853: del tmp175
    .del 17,
    -- 2854: tmp174 = einsum(v.bbb.xoo, (0, 1, 2), v.baa.xvv, (0, 3, 4), (1, 2, 3, 4))
    .set 54 (.ein [(0, [0, 1, 2]), (6, [0, 3, 4])] [1, 2, 3, 4]) 1 1,
    -- 2855: tmp173 = einsum(t1.bb, (0, 1), f.bb.oo, (2, 0), (2, 1))
    .set 55 (.ein [(7, [0, 1]), (13, [2, 0])] [2, 1]) 1 1,
    -- 2856: tmp172 = einsum(t1.bb, (0, 1), tmp164, (0, 2), (2, 1))
    .set 56 (.ein [(7, [0, 1]), (25, [0, 2])] [2, 1]) 1 1,
    -- 2857: tmp170 = einsum(tmp59, (0, 1, 2), v.bbb.xov, (0, 3, 2), (1, 3))
    .set 57 (.ein [(18, [0, 1, 2]), (1, [0, 3, 2])] [1, 3]) 1 1,
    -- 2858: tmp168 = einsum(tmp56, (0, 1, 2), v.bbb.xov, (0, 3, 2), (1, 3))
    .set 58 (.ein [(20, [0, 1, 2]), (1, [0, 3, 2])] [1, 3]) 1 1,
    -- 2859: tmp167 = einsum(tmp59, (0, 1, 2), v.bbb.xvv, (0, 3, 2), (1, 3))
    .set 59 (.ein [(18, [0, 1, 2]), (4, [0, 3, 2])] [1, 3]) 1 1,
    -- 2860: tmp166 = einsum(tmp56, (0, 1, 2), v.bbb.xvv, (0, 3, 2), (1, 3)) * -1
    .set 60 (.ein [(20, [0, 1, 2]), (4, [0, 3, 2])] [1, 3]) (-1) 1,
    -- 2861: tmp163 = einsum(f.bb.vv, (0, 1), t1.bb, (2, 1), (2, 0))
    .set 61 (.ein [(14, [0, 1]), (7, [2, 1])] [2, 0]) 1 1,
    -- 2862: tmp157 = einsum(t2.abab, (0, 1, 2, 3), tmp156, (0, 4, 1, 5), (4, 2, 5, 3))
    .set 62 (.ein [(2, [0, 1, 2, 3]), (24, [0, 4, 1, 5])] [4, 2, 5, 3]) 1 1,
    -- 2863: del tmp156
    .del 24,
    -- 2864: tmp155 = einsum(v.bbb.xoo, (0, 1, 2), v.bbb.xvv, (0, 3, 4), (1, 2, 3, 4))
    .set 63 (.ein [(0, [0, 1, 2]), (4, [0, 3, 4])] [1, 2, 3, 4]) 1 1,
    -- 2865: tmp154 = einsum(t2.abab, (0, 1, 2, 3), tmp26, (0, 4, 5, 3), (1, 4, 2, 5))
    .set 64 (.ein [(2, [0, 1, 2, 3]), (26, [0, 4, 5, 3])] [1, 4, 2, 5]) 1 1,
    -- 2866: tmp151 = einsum(t2.abab, (0, 1, 2, 3), tmp42, (0, 4, 5, 3), (1, 2, 4, 5))
    .set 65 (.ein [(2, [0, 1, 2, 3]), (27, [0, 4, 5, 3])] [1, 2, 4, 5]) 1 1,
    -- 2867: tmp140 = einsum(v.bbb.xvv, (0, 1, 2), tmp29, (0, 3, 4), (3, 4, 1, 2))
    .set 66 (.ein [(4, [0, 1, 2]), (28, [0, 3, 4])] [3, 4, 1, 2]) 1 1,
    -- 2868: tmp139 = einsum(tmp40, (0, 1, 2, 3), t2.abab, (4, 0, 5, 2), (4, 5, 3, 1))
    .set 67 (.ein [(19, [0, 1, 2, 3]), (2, [4, 0, 5, 2])] [4, 5, 3, 1]) 1 1,
    -- 2869: tmp138 = einsum(v.bbb.xvv, (0, 1, 2), tmp32, (0, 3, 4), (3, 4, 1, 2))
    .set 68 (.ein [(4, [0, 1, 2]), (29, [0, 3, 4])] [3, 4, 1, 2]) 1 1,
    -- 2870: tmp136 = einsum(v.bbb.xvv, (0, 1, 2), v.baa.xoo, (0, 3, 4), (3, 4, 1, 2))
    .set 69 (.ein [(4, [0, 1, 2]), (10, [0, 3, 4])] [3, 4, 1, 2]) 1 1,
    -- 2871: tmp132 = einsum(v.baa.xvv, (0, 1, 2), v.bbb.xvv, (0, 3, 4), (1, 2, 3, 4))
    .set 70 (.ein [(6, [0, 1, 2]), (4, [0, 3, 4])] [1, 2, 3, 4]) 1 1,
    -- 2872: tmp126 = einsum(tmp97, (0, 1, 2, 3), t2.abab, (1, 2, 4, 5), (0, 4, 5, 3))
    .set 71 (.ein [(30, [0, 1, 2, 3]), (2, [1, 2, 4, 5])] [0, 4, 5, 3]) 1 1,
    -- 2873: tmp125 = einsum(t2.abab, (0, 1, 2, 3), tmp26, (4, 1, 2, 5), (0, 4, 3, 5))
    .set 72 (.ein [(2, [0, 1, 2, 3]), (26, [4, 1, 2, 5])] [0, 4, 3, 5]) 1 1,
    -- 2874: tmp122 = einsum(tmp4, (0, 1, 2, 3), t2.abab, (4, 0, 2, 5), (4, 1, 5, 3))
    .set 73 (.ein [(31, [0, 1, 2, 3]), (2, [4, 0, 2, 5])] [4, 1, 5, 3]) 1 1,
    -- 2875: tmp116 = einsum(tmp32, (0, 1, 2), v.baa.xov, (0, 3, 2), (1, 3))
    .set 74 (.ein [(29, [0, 1, 2]), (3, [0, 3, 2])] [1, 3]) 1 1,
    -- 2876: tmp114 = einsum(tmp29, (0, 1, 2), v.baa.xov, (0, 3, 2), (1, 3))
    .set 75 (.ein [(28, [0, 1, 2]), (3, [0, 3, 2])] [1, 3]) 1 1,
    -- 2877: tmp113 = einsum(v.baa.xvv, (0, 1, 2), tmp32, (0, 3, 2), (3, 1))
    .set 76 (.ein [(6, [0, 1, 2]), (29, [0, 3, 2])] [3, 1]) 1 1,
    -- 2878: tmp112 = einsum(tmp29, (0, 1, 2), v.baa.xvv, (0, 3, 2), (1, 3)) * -1
    .set 77 (.ein [(28, [0, 1, 2]), (6, [0, 3, 2])] [1, 3]) (-1) 1,
    -- 2879: tmp110 = einsum(v.baa.xvv, (0, 1, 2), v.baa.xvv, (0, 3, 4), (1, 3, 4, 2))
    .set 78 (.ein [(6, [0, 1, 2]), (6, [0, 3, 4])] [1, 3, 4, 2]) 1 1,
    -- 2880: tmp109 = einsum(tmp107, (0, 1), t1.aa, (0, 2), (1, 2))
    .set 79 (.ein [(32, [0, 1]), (12, [0, 2])] [1, 2]) 1 1,
    -- 2881: tmp106 = einsum(f.aa.vv, (0, 1), t1.aa, (2, 1), (2, 0))
    .set 80 (.ein [(15, [0, 1]), (12, [2, 1])] [2, 0]) 1 1,
    -- 2882: tmp99 = einsum(t2.aaaa, (0, 1, 2, 3), tmp95, (4, 0, 1, 5), (4, 2, 3, 5))
    .set 81 (.ein [(9, [0, 1, 2, 3]), (33, [4, 0, 1, 5])] [4, 2, 3, 5]) 1 1,
    -- 2883: tmp98 = einsum(tmp97, (0, 1, 2, 3), t2.abab, (1, 2, 4, 3), (0, 4))
    .set 82 (.ein [(30, [0, 1, 2, 3]), (2, [1, 2, 4, 3])] [0, 4]) 1 1,
    -- 2884: del tmp97
    .del 30,
    -- 2885: tmp96 = einsum(tmp95, (0, 1, 2, 3), t2.aaaa, (1, 2, 4, 3), (0, 4))
    .set 83 (.ein [(33, [0, 1, 2, 3]), (9, [1, 2, 4, 3])] [0, 4]) 1 1,
    -- 2886: del tmp95
    .del 33,
    -- 2887: tmp93 = einsum(v.baa.xvv, (0, 1, 2), v.baa.xoo, (0, 3, 4), (3, 4, 1, 2))
    .set 84 (.ein [(6, [0, 1, 2]), (10, [0, 3, 4])] [3, 4, 1, 2]) 1 1,
    -- 2888: tmp91 = einsum(f.aa.oo, (0, 1), t1.aa, (1, 2), (0, 2))
    .set 85 (.ein [(16, [0, 1]), (12, [1, 2])] [0, 2]) 1 1,
    -- 2889: tmp85 = einsum(t2.abab, (0, 1, 2, 3), tmp51, (1, 4, 5, 3), (0, 4, 2, 5))
    .set 86 (.ein [(2, [0, 1, 2, 3]), (21, [1, 4, 5, 3])] [0, 4, 2, 5]) 1 1,
    -- 2890: tmp82 = einsum(tmp23, (0, 1, 2, 3), t2.aaaa, (4, 0, 5, 3), (4, 1, 5, 2))
    .set 87 (.ein [(22, [0, 1, 2, 3]), (9, [4, 0, 5, 3])] [4, 1, 5, 2]) 1 1,
    -- 2891: tmp78 = einsum(tmp32, (0, 1, 2), v.baa.xvv, (0, 3, 4), (1, 2, 3, 4))
    .set 88 (.ein [(29, [0, 1, 2]), (6, [0, 3, 4])] [1, 2, 3, 4]) 1 1,
    -- 2892: tmp76 = einsum(t2.aaaa, (0, 1, 2, 3), tmp2, (1, 4, 3, 5), (0, 2, 5, 4))
    .set 89 (.ein [(9, [0, 1, 2, 3]), (23, [1, 4, 3, 5])] [0, 2, 5, 4]) 1 1,
    -- 2893: tmp74 = einsum(tmp29, (0, 1, 2), v.baa.xvv, (0, 3, 4), (1, 2, 3, 4))
    .set 90 (.ein [(28, [0, 1, 2]), (6, [0, 3, 4])] [1, 2, 3, 4]) 1 1,
    -- 2894: tmp68 = einsum(t2.abab, (0, 1, 2, 3), f.bb.ov, (1, 3), (0, 2))
    .set 91 (.ein [(2, [0, 1, 2, 3]), (8, [1, 3])] [0, 2]) 1 1,
    -- 2895: tmp67 = einsum(f.aa.ov, (0, 1), t2.aaaa, (2, 0, 3, 1), (2, 3))
    .set 92 (.ein [(11, [0, 1]), (9, [2, 0, 3, 1])] [2, 3]) 1 1,
    -- 2896: tmp60 = einsum(v.bbb.xov, (0, 1, 2), tmp59, (0, 1, 3), (3, 2))
    .set 93 (.ein [(1, [0, 1, 2]), (18, [0, 1, 3])] [3, 2]) 1 1,
    -- 2897: tmp57 = einsum(tmp56, (0, 1, 2), v.bbb.xov, (0, 1, 3), (2, 3))
    .set 94 (.ein [(20, [0, 1, 2]), (1, [0, 1, 3])] [2, 3]) 1 1,
    -- 2898: tmp47 = einsum(tmp6, (0,), v.bbb.xvv, (0, 1, 2), (1, 2))
    .set 95 (.ein [(34, [0]), (4, [0, 1, 2])] [1, 2]) 1 1,
    -- 2899: tmp46 = einsum(v.bbb.xov, (0, 1, 2), tmp45, (0, 1, 3), (2, 3))
    .set 96 (.ein [(1, [0, 1, 2]), (35, [0, 1, 3])] [2, 3]) 1 1,
    -- 2900: del tmp45
    .del 35,
    -- 2901: tmp44 = einsum(tmp10, (0,), v.bbb.xvv, (0, 1, 2), (1, 2))
    .set 97 (.ein [(36, [0]), (4, [0, 1, 2])] [1, 2]) 1 1,
    -- 2902: tmp33 = einsum(v.baa.xov, (0, 1, 2), tmp32, (0, 1, 3), (3, 2))
    .set 98 (.ein [(3, [0, 1, 2]), (29, [0, 1, 3])] [3, 2]) 1 1,
    -- 2903: tmp30 = einsum(tmp29, (0, 1, 2), v.baa.xov, (0, 1, 3), (2, 3))
    .set 99 (.ein [(28, [0, 1, 2]), (3, [0, 1, 3])] [2, 3]) 1 1,
    -- 2904: tmp22 = einsum(tmp6, (0,), v.bbb.xov, (0, 1, 2), (1, 2))
    .set 100 (.ein [(34, [0]), (1, [0, 1, 2])] [1, 2]) 1 1,
    -- 2905: tmp20 = einsum(v.baa.xov, (0, 1, 2), tmp10, (0,), (1, 2))
    .set 101 (.ein [(3, [0, 1, 2]), (36, [0])] [1, 2]) 1 1,
    -- 2906: tmp19 = einsum(v.bbb.xov, (0, 1, 2), tmp10, (0,), (1, 2))
    .set 102 (.ein [(1, [0, 1, 2]), (36, [0])] [1, 2]) 1 1,
    -- 2907: tmp18 = einsum(tmp17, (0, 1, 2), v.bbb.xov, (0, 1, 3), (2, 3))
    .set 103 (.ein [(37, [0, 1, 2]), (1, [0, 1, 3])] [2, 3]) 1 1,
    -- 2908: del tmp17
    .del 37,
    -- 2909: tmp15 = einsum(tmp6, (0,), v.baa.xov, (0, 1, 2), (1, 2))
    .set 104 (.ein [(34, [0]), (3, [0, 1, 2])] [1, 2]) 1 1,
    -- 2910: tmp13 = einsum(v.baa.xov, (0, 1, 2), tmp12, (0, 1, 3), (3, 2))
    .set 105 (.ein [(3, [0, 1, 2]), (38, [0, 1, 3])] [3, 2]) 1 1,
    -- 2911: del tmp12
    .del 38,
    -- 2912: tmp11 = einsum(v.baa.xvv, (0, 1, 2), tmp10, (0,), (1, 2))
    .set 106 (.ein [(6, [0, 1, 2]), (36, [0])] [1, 2]) 1 1,
    -- 2913: del tmp10
    .del 36,
    -- 2914: tmp9 = einsum(v.baa.xov, (0, 1, 2), tmp8, (0, 1, 3), (2, 3))
    .set 107 (.ein [(3, [0, 1, 2]), (39, [0, 1, 3])] [2, 3]) 1 1,
    -- 2915: del tmp8
    .del 39,
    -- 2916: tmp7 = einsum(tmp6, (0,), v.baa.xvv, (0, 1, 2), (1, 2))
    .set 108 (.ein [(34, [0]), (6, [0, 1, 2])] [1, 2]) 1 1,
    -- 2917: del tmp6
    .del 34
  ]
  ret := [(chars! "tmp106", 80), (chars! "tmp107", 32), (chars! "tmp109", 79), (chars! "tmp11", 106), (chars! "tmp110", 78), (chars! "tmp112", 77), (chars! "tmp113", 76), (chars! "tmp114", 75), (chars! "tmp116", 74), (chars! "tmp122", 73), (chars! "tmp125", 72), (chars! "tmp126", 71), (chars! "tmp13", 105), (chars! "tmp132", 70), (chars! "tmp136", 69), (chars! "tmp138", 68), (chars! "tmp139", 67), (chars! "tmp140", 66), (chars! "tmp15", 104), (chars! "tmp151", 65), (chars! "tmp154", 64), (chars! "tmp155", 63), (chars! "tmp157", 62), (chars! "tmp163", 61), (chars! "tmp164", 25), (chars! "tmp166", 60), (chars! "tmp167", 59), (chars! "tmp168", 58), (chars! "tmp170", 57), (chars! "tmp172", 56), (chars! "tmp173", 55), (chars! "tmp174", 54), (chars! "tmp176", 53), (chars! "tmp177", 52), (chars! "tmp179", 51), (chars! "tmp18", 103), (chars! "tmp180", 50), (chars! "tmp181", 49), (chars! "tmp182", 48), (chars! "tmp183", 47), (chars! "tmp187", 46), (chars! "tmp19", 102), (chars! "tmp190", 45), (chars! "tmp199", 44), (chars! "tmp2", 23), (chars! "tmp20", 101), (chars! "tmp201", 43), (chars! "tmp203", 42), (chars! "tmp216", 41), (chars! "tmp22", 100), (chars! "tmp224", 40), (chars! "tmp23", 22), (chars! "tmp26", 26), (chars! "tmp29", 28), (chars! "tmp30", 99), (chars! "tmp32", 29), (chars! "tmp33", 98), (chars! "tmp4", 31), (chars! "tmp40", 19), (chars! "tmp42", 27), (chars! "tmp44", 97), (chars! "tmp46", 96), (chars! "tmp47", 95), (chars! "tmp51", 21), (chars! "tmp56", 20), (chars! "tmp57", 94), (chars! "tmp59", 18), (chars! "tmp60", 93), (chars! "tmp67", 92), (chars! "tmp68", 91), (chars! "tmp7", 108), (chars! "tmp74", 90), (chars! "tmp76", 89), (chars! "tmp78", 88), (chars! "tmp82", 87), (chars! "tmp85", 86), (chars! "tmp9", 107), (chars! "tmp91", 85), (chars! "tmp93", 84), (chars! "tmp96", 83), (chars! "tmp98", 82), (chars! "tmp99", 81)]

/-- codegen/UDFCC2.py:2921-3347 `hbar_matvec_ea`. -/
def hbar_matvec_ea : GenFun where
  args := [chars! "r2.aaa", chars! "v.baa.xov", chars! "r2.bab", chars! "v.bbb.xov", chars! "ints.tmp155", chars! "ints.tmp190", chars! "r2.bbb", chars! "r2.aba", chars! "ints.tmp59", chars! "ints.tmp56", chars! "ints.tmp40", chars! "ints.tmp201", chars! "ints.tmp199", chars! "ints.tmp203", chars! "f.bb.ov", chars! "ints.tmp57", chars! "ints.tmp60", chars! "f.bb.vv", chars! "ints.tmp93", chars! "ints.tmp82", chars! "ints.tmp2", chars! "ints.tmp76", chars! "ints.tmp30", chars! "ints.tmp33", chars! "f.aa.vv", chars! "ints.tmp29", chars! "ints.tmp32", chars! "f.aa.ov", chars! "ints.tmp74", chars! "ints.tmp78", chars! "r1.b", chars! "ints.tmp187", chars! "t1.bb", chars! "ints.tmp51", chars! "ints.tmp26", chars! "ints.tmp23", chars! "r1.a", chars! "t1.aa", chars! "ints.tmp85", chars! "ints.tmp19", chars! "ints.tmp22", chars! "ints.tmp18", chars! "ints.tmp15", chars! "ints.tmp20", chars! "ints.tmp13", chars! "f.bb.oo", chars! "ints.tmp164", chars! "ints.tmp168", chars! "ints.tmp170", chars! "ints.tmp166", chars! "ints.tmp172", chars! "ints.tmp173", chars! "ints.tmp176", chars! "ints.tmp177", chars! "ints.tmp163", chars! "ints.tmp167", chars! "ints.tmp179", chars! "ints.tmp180", chars! "ints.tmp154", chars! "ints.tmp174", chars! "ints.tmp157", chars! "ints.tmp181", chars! "ints.tmp183", chars! "ints.tmp4", chars! "ints.tmp151", chars! "ints.tmp182", chars! "ints.tmp126", chars! "ints.tmp138", chars! "ints.tmp140", chars! "ints.tmp42", chars! "ints.tmp122", chars! "ints.tmp139", chars! "ints.tmp109", chars! "ints.tmp112", chars! "ints.tmp91", chars! "ints.tmp96", chars! "ints.tmp98", chars! "ints.tmp106", chars! "ints.tmp113", chars! "ints.tmp67", chars! "ints.tmp68", chars! "f.aa.oo", chars! "ints.tmp107", chars! "ints.tmp114", chars! "ints.tmp116", chars! "ints.tmp125", chars! "ints.tmp136", chars! "ints.tmp46", chars! "ints.tmp44", chars! "ints.tmp47", chars! "ints.tmp9", chars! "ints.tmp11", chars! "ints.tmp7", chars! "ints.tmp224", chars! "ints.tmp216", chars! "t2.bbbb", chars! "ints.tmp132", chars! "t2.abab", chars! "ints.tmp99", chars! "t2.aaaa", chars! "ints.tmp110"]
  body := [
    -- 2951: tmp13 = einsum(r2.aaa, (0, 1, 2), v.baa.xov, (3, 2, 1), (3, 0))
    .set 101 (.ein [(0, [0, 1, 2]), (1, [3, 2, 1])] [3, 0]) 1 1,
    -- 2952: tmp14 = einsum(r2.bab, (0, 1, 2), v.bbb.xov, (3, 2, 0), (3, 1)) * -1
    .set 102 (.ein [(2, [0, 1, 2]), (3, [3, 2, 0])] [3, 1]) (-1) 1,
    -- 2953: tmp50 = np.copy(ints.tmp155)
    .set 103 (.cp 4) 1 1,
    -- 2954: del ints.tmp155
    .del 4,
    -- 2955: tmp50 += ints.tmp190 * 2
    .add 103 (.cp 5) 2 1,
    -- 2956: del ints.tmp190
    .del 5,
    -- 2957: tmp39 = einsum(v.bbb.xov, (0, 1, 2), r2.bbb, (3, 2, 1), (0, 3))
    .set 104 (.ein [(3, [0, 1, 2]), (6, [3, 2, 1])] [0, 3]) 1 1,
    -- 2958: tmp38 = einsum(v.baa.xov, (0, 1, 2), r2.aba, (2, 3, 1), (0, 3))
    .set 105 (.ein [(1, [0, 1, 2]), (7, [2, 3, 1])] [0, 3]) 1 1,
    -- 2959: tmp71 = np.copy(ints.tmp59)
    .set 106 (.cp 8) 1 1,
    -- 2960: tmp71 += ints.tmp56 * 2
    .add 106 (.cp 9) 2 1,
    -- 2961: tmp73 = np.copy(ints.tmp40)
    .set 107 (.cp 10) 1 1,
    -- 2962: tmp73 += ints.tmp201 * 2
    .add 107 (.cp 11) 2 1,
    -- 2963: del ints.tmp201
    .del 11,
    -- 2964: tmp62 = np.copy(ints.tmp56) * 2
    .set 108 (.cp 9) 2 1,
    -- 2965: tmp62 += ints.tmp59
    .add 108 (.cp 8) 1 1,
    -- 2966: tmp66 = np.copy(ints.tmp199)
    .set 109 (.cp 12) 1 1,
    -- 2967: del ints.tmp199
    .del 12,
    -- 2968: tmp66 += ints.tmp203 * 0.5
    .add 109 (.cp 13) 1 2,
    -- 2969: del ints.tmp203
    .del 13,
    -- 2970: tmp59 = einsum(f.bb.ov, (0, 1), r2.bbb, (2, 1, 3), (0, 3, 2))
    .set 110 (.ein [(14, [0, 1]), (6, [2, 1, 3])] [0, 3, 2]) 1 1,
    -- 2971: tmp64 = np.copy(np.transpose(ints.tmp57, (1, 0)))
    .set 111 (.tr 15 [1, 0]) 1 1,
    -- 2972: tmp64 += np.transpose(ints.tmp60, (1, 0)) * 0.5
    .add 111 (.tr 16 [1, 0]) 1 2,
    -- 2973: tmp64 += f.bb.vv * -0.5
    .add 111 (.cp 17) (-1) 2,
    -- 2974: tmp24 = np.copy(ints.tmp93)
    .set 112 (.cp 18) 1 1,
    -- 2975: tmp24 += ints.tmp82 * 2
    .add 112 (.cp 19) 2 1,
    -- 2976: tmp28 = np.copy(ints.tmp2)
    .set 113 (.cp 20) 1 1,
    -- 2977: tmp28 += ints.tmp76 * 2
    .add 113 (.cp 21) 2 1,
    -- 2978: del ints.tmp76
    .del 21,
    -- 2979: tmp26 = np.copy(tmp13) * 2
    .set 114 (.cp 101) 2 1,
    -- 2980: tmp26 += tmp14
    .add 114 (.cp 102) 1 1,
    -- 2981: tmp18 = np.copy(np.transpose(ints.tmp30, (1, 0)))
    .set 115 (.tr 22 [1, 0]) 1 1,
    -- 2982: tmp18 += np.transpose(ints.tmp33, (1, 0)) * 0.5
    .add 115 (.tr 23 [1, 0]) 1 2,
    -- 2983: tmp18 += f.aa.vv * -0.5
    .add 115 (.cp 24) (-1) 2,
    -- 2984: tmp16 = np.copy(ints.tmp29) * 2
    .set 116 (.cp 25) 2 1,
    -- 2985: tmp16 += ints.tmp32
    .add 116 (.cp 26) 1 1,
    -- 2986: tmp15 = np.copy(tmp13)
    .set 117 (.cp 101) 1 1,
    -- 2987: tmp15 += tmp14 * 0.5
    .add 117 (.cp 102) 1 2,
    -- 2988: tmp11 = einsum(r2.aaa, (0, 1, 2), f.aa.ov, (3, 1), (3, 2, 0))
    .set 118 (.ein [(0, [0, 1, 2]), (27, [3, 1])] [3, 2, 0]) 1 1,
    -- 2989: tmp20 = np.copy(ints.tmp74)
    .set 119 (.cp 28) 1 1,
    -- 2990: del ints.tmp74
    .del 28,
    -- 2991: tmp20 += ints.tmp78 * 0.5
    .add 119 (.cp 29) 1 2,
    -- 2992: del ints.tmp78
    .del 29,
    -- 2993: tmp70 = einsum(r2.bbb, (0, 1, 2), tmp50, (3, 2, 4, 1), (3, 0, 4)) * -1
    .set 120 (.ein [(6, [0, 1, 2]), (103, [3, 2, 4, 1])] [3, 0, 4]) (-1) 1,
    -- 2994: tmp69 = einsum(v.bbb.xov, (0, 1, 2), tmp39, (0, 3), (1, 3, 2))
    .set 121 (.ein [(3, [0, 1, 2]), (104, [0, 3])] [1, 3, 2]) 1 1,
    -- 2995: tmp72 = einsum(tmp38, (0, 1), tmp71, (0, 2, 3), (2, 1, 3))
    .set 122 (.ein [(105, [0, 1]), (106, [0, 2, 3])] [2, 1, 3]) 1 1,
    -- 2996: del tmp71
    .del 106,
    -- 2997: tmp74 = einsum(r1.b, (0,), tmp73, (1, 2, 0, 3), (1, 2, 3))
    .set 123 (.ein [(30, [0]), (107, [1, 2, 0, 3])] [1, 2, 3]) 1 1,
    -- 2998: del tmp73
    .del 107,
    -- 2999: tmp63 = einsum(tmp62, (0, 1, 2), tmp39, (0, 3), (1, 3, 2)) * 2
    .set 124 (.ein [(108, [0, 1, 2]), (104, [0, 3])] [1, 3, 2]) 2 1,
    -- 3000: del tmp62
    .del 108,
    -- 3001: tmp58 = einsum(r2.aba, (0, 1, 2), ints.tmp187, (2, 3, 0, 4), (3, 4, 1))
    .set 125 (.ein [(7, [0, 1, 2]), (31, [2, 3, 0, 4])] [3, 4, 1]) 1 1,
    -- 3002: tmp61 = einsum(v.bbb.xov, (0, 1, 2), tmp38, (0, 3), (1, 3, 2))
    .set 126 (.ein [(3, [0, 1, 2]), (105, [0, 3])] [1, 3, 2]) 1 1,
    -- 3003: tmp67 = einsum(r1.b, (0,), tmp66, (1, 2, 0, 3), (1, 2, 3)) * 2
    .set 127 (.ein [(30, [0]), (109, [1, 2, 0, 3])] [1, 2, 3]) 2 1,
    -- 3004: del tmp66
    .del 109,
    -- 3005: tmp60 = einsum(t1.bb, (0, 1), tmp59, (0, 2, 3), (2, 3, 1))
    .set 128 (.ein [(32, [0, 1]), (110, [0, 2, 3])] [2, 3, 1]) 1 1,
    -- 3006: del tmp59
    .del 110,
    -- 3007: tmp65 = einsum(r2.bbb, (0, 1, 2), tmp64, (1, 3), (2, 0, 3)) * -4
    .set 129 (.ein [(6, [0, 1, 2]), (111, [1, 3])] [2, 0, 3]) (-4) 1,
    -- 3008: del tmp64
    .del 111,
    -- 3009: tmp8 = einsum(ints.tmp51, (0, 1, 2, 3), r2.bbb, (2, 3, 0), (1,))
    .set 130 (.ein [(33, [0, 1, 2, 3]), (6, [2, 3, 0])] [1]) 1 1,
    -- 3010: tmp7 = einsum(r2.aba, (0, 1, 2), ints.tmp26, (2, 3, 0, 1), (3,))
    .set 131 (.ein [(7, [0, 1, 2]), (34, [2, 3, 0, 1])] [3]) 1 1,
    -- 3011: tmp47 = einsum(r1.b, (0,), f.bb.ov, (1, 0), (1,))
    .set 132 (.ein [(30, [0]), (14, [1, 0])] [1]) 1 1,
    -- 3012: tmp3 = einsum(r2.aaa, (0, 1, 2), ints.tmp23, (2, 3, 1, 0), (3,)) * -1
    .set 133 (.ein [(0, [0, 1, 2]), (35, [2, 3, 1, 0])] [3]) (-1) 1,
    -- 3013: tmp4 = einsum(r2.bab, (0, 1, 2), ints.tmp26, (3, 2, 1, 0), (3,)) * -1
    .set 134 (.ein [(2, [0, 1, 2]), (34, [3, 2, 1, 0])] [3]) (-1) 1,
    -- 3014: tmp32 = einsum(f.aa.ov, (0, 1), r1.a, (1,), (0,))
    .set 135 (.ein [(27, [0, 1]), (36, [1])] [0]) 1 1,
    -- 3015: tmp45 = einsum(t1.bb, (0, 1), f.bb.ov, (0, 2), (2, 1))
    .set 136 (.ein [(32, [0, 1]), (14, [0, 2])] [2, 1]) 1 1,
    -- 3016: tmp43 = einsum(f.aa.ov, (0, 1), t1.aa, (0, 2), (1, 2))
    .set 137 (.ein [(27, [0, 1]), (37, [0, 2])] [1, 2]) 1 1,
    -- 3017: tmp25 = einsum(tmp24, (0, 1, 2, 3), r2.aaa, (4, 3, 1), (0, 4, 2)) * -1
    .set 138 (.ein [(112, [0, 1, 2, 3]), (0, [4, 3, 1])] [0, 4, 2]) (-1) 1,
    -- 3018: del tmp24
    .del 112,
    -- 3019: tmp23 = einsum(r2.bab, (0, 1, 2), ints.tmp85, (3, 2, 4, 0), (3, 4, 1)) * -1
    .set 139 (.ein [(2, [0, 1, 2]), (38, [3, 2, 4, 0])] [3, 4, 1]) (-1) 1,
    -- 3020: tmp29 = einsum(r1.a, (0,), tmp28, (1, 2, 0, 3), (1, 2, 3))
    .set 140 (.ein [(36, [0]), (113, [1, 2, 0, 3])] [1, 2, 3]) 1 1,
    -- 3021: del tmp28
    .del 113,
    -- 3022: tmp27 = einsum(tmp26, (0, 1), v.baa.xov, (0, 2, 3), (2, 3, 1))
    .set 141 (.ein [(114, [0, 1]), (1, [0, 2, 3])] [2, 3, 1]) 1 1,
    -- 3023: del tmp26
    .del 114,
    -- 3024: tmp19 = einsum(r2.aaa, (0, 1, 2), tmp18, (1, 3), (2, 0, 3)) * -4
    .set 142 (.ein [(0, [0, 1, 2]), (115, [1, 3])] [2, 0, 3]) (-4) 1,
    -- 3025: del tmp18
    .del 115,
    -- 3026: tmp17 = einsum(tmp16, (0, 1, 2), tmp15, (0, 3), (1, 2, 3)) * 2
    .set 143 (.ein [(116, [0, 1, 2]), (117, [0, 3])] [1, 2, 3]) 2 1,
    -- 3027: del tmp16, tmp15
    .del 116,
    .del 117,
    -- 3028: tmp12 = einsum(t1.aa, (0, 1), tmp11, (0, 2, 3), (2, 3, 1))
    .set 144 (.ein [(37, [0, 1]), (118, [0, 2, 3])] [2, 3, 1]) 1 1,
    -- 3029: del tmp11
    .del 118,
    -- 3030: tmp21 = einsum(r1.a, (0,), tmp20, (1, 2, 0, 3), (1, 2, 3)) * 2
    .set 145 (.ein [(36, [0]), (119, [1, 2, 0, 3])] [1, 2, 3]) 2 1,
    -- 3031: del tmp20
    .del 119,
    -- 3032: tmp0 = np.copy(f.bb.ov)
    .set 146 (.cp 14) 1 1,
    -- 3033: tmp0 += ints.tmp19
    .add 146 (.cp 39) 1 1,
    -- 3034: del ints.tmp19
    .del 39,
    -- 3035: tmp0 += ints.tmp22
    .add 146 (.cp 40) 1 1,
    -- 3036: del ints.tmp22
    .del 40,
    -- 3037: tmp0 += ints.tmp18 * -1
    .add 146 (.cp 41) (-1) 1,
    -- 3038: del ints.tmp18
    .del 41,
    -- 3039: tmp1 = np.copy(f.aa.ov)
    .set 147 (.cp 27) 1 1,
    -- 3040: tmp1 += ints.tmp15
    .add 147 (.cp 42) 1 1,
    -- 3041: del ints.tmp15
    .del 42,
    -- 3042: tmp1 += ints.tmp20
    .add 147 (.cp 43) 1 1,
    -- 3043: del ints.tmp20
    .del 43,
    -- 3044: tmp1 += ints.tmp13 * -1
    .add 147 (.cp 44) (-1) 1,
    -- 3045: del ints.tmp13
    .del 44,
    -- 3046: tmp55 = np.copy(f.bb.oo)
    .set 148 (.cp 45) 1 1,
    -- 3047: tmp55 += ints.tmp164
    .add 148 (.cp 46) 1 1,
    -- 3048: del ints.tmp164
    .del 46,
    -- 3049: tmp55 += np.transpose(ints.tmp168, (1, 0)) * 2
    .add 148 (.tr 47 [1, 0]) 2 1,
    -- 3050: del ints.tmp168
    .del 47,
    -- 3051: tmp55 += np.transpose(ints.tmp170, (1, 0))
    .add 148 (.tr 48 [1, 0]) 1 1,
    -- 3052: del ints.tmp170
    .del 48,
    -- 3053: tmp75 = np.copy(tmp69) * 2
    .set 149 (.cp 121) 2 1,
    -- 3054: del tmp69
    .del 121,
    -- 3055: tmp75 += np.transpose(tmp70, (0, 2, 1)) * -2
    .add 149 (.tr 120 [0, 2, 1]) (-2) 1,
    -- 3056: del tmp70
    .del 120,
    -- 3057: tmp75 += np.transpose(tmp72, (0, 2, 1))
    .add 149 (.tr 122 [0, 2, 1]) 1 1,
    -- 3058: del tmp72
    .del 122,
    -- 3059: tmp75 += tmp74
    .add 149 (.cp 123) 1 1,
    -- 3060: del tmp74
    .del 123,
    -- 3061: tmp68 = np.copy(tmp58)
    .set 150 (.cp 125) 1 1,
    -- 3062: del tmp58
    .del 125,
    -- 3063: tmp68 += tmp60 * 2
    .add 150 (.cp 128) 2 1,
    -- 3064: del tmp60
    .del 128,
    -- 3065: tmp68 += tmp61
    .add 150 (.cp 126) 1 1,
    -- 3066: del tmp61
    .del 126,
    -- 3067: tmp68 += np.transpose(tmp63, (0, 2, 1))
    .add 150 (.tr 124 [0, 2, 1]) 1 1,
    -- 3068: del tmp63
    .del 124,
    -- 3069: tmp68 += np.transpose(tmp65, (0, 2, 1))
    .add 150 (.tr 129 [0, 2, 1]) 1 1,
    -- 3070: del tmp65
    .del 129,
    -- 3071: tmp68 += tmp67
    .add 150 (.cp 127) 1 1,
    -- 3072: del tmp67
    .del 127,
    -- 3073: tmp57 = einsum(ints.tmp51, (0, 1, 2, 3), r2.bbb, (3, 2, 4), (0, 1, 4)) * -1
    .set 151 (.ein [(33, [0, 1, 2, 3]), (6, [3, 2, 4])] [0, 1, 4]) (-1) 1,
    -- 3074: del ints.tmp51
    .del 33,
    -- 3075: tmp56 = np.copy(ints.tmp166) * 2
    .set 152 (.cp 49) 2 1,
    -- 3076: del ints.tmp166
    .del 49,
    -- 3077: tmp56 += ints.tmp172
    .add 152 (.cp 50) 1 1,
    -- 3078: del ints.tmp172
    .del 50,
    -- 3079: tmp56 += ints.tmp173
    .add 152 (.cp 51) 1 1,
    -- 3080: del ints.tmp173
    .del 51,
    -- 3081: tmp56 += ints.tmp176 * 2
    .add 152 (.cp 52) 2 1,
    -- 3082: del ints.tmp176
    .del 52,
    -- 3083: tmp56 += ints.tmp177
    .add 152 (.cp 53) 1 1,
    -- 3084: del ints.tmp177
    .del 53,
    -- 3085: tmp56 += f.bb.ov * -1
    .add 152 (.cp 14) (-1) 1,
    -- 3086: tmp56 += ints.tmp163 * -1
    .add 152 (.cp 54) (-1) 1,
    -- 3087: del ints.tmp163
    .del 54,
    -- 3088: tmp56 += ints.tmp167 * -1
    .add 152 (.cp 55) (-1) 1,
    -- 3089: del ints.tmp167
    .del 55,
    -- 3090: tmp56 += ints.tmp179 * -1
    .add 152 (.cp 56) (-1) 1,
    -- 3091: del ints.tmp179
    .del 56,
    -- 3092: tmp56 += ints.tmp180 * -2
    .add 152 (.cp 57) (-2) 1,
    -- 3093: del ints.tmp180
    .del 57,
    -- 3094: tmp76 = np.copy(tmp47) * -1
    .set 153 (.cp 132) (-1) 1,
    -- 3095: tmp76 += tmp7
    .add 153 (.cp 131) 1 1,
    -- 3096: tmp76 += tmp8 * 2
    .add 153 (.cp 130) 2 1,
    -- 3097: tmp51 = np.copy(ints.tmp154)
    .set 154 (.cp 58) 1 1,
    -- 3098: del ints.tmp154
    .del 58,
    -- 3099: tmp51 += ints.tmp174 * -1
    .add 154 (.cp 59) (-1) 1,
    -- 3100: del ints.tmp174
    .del 59,
    -- 3101: tmp49 = einsum(ints.tmp26, (0, 1, 2, 3), r2.bab, (3, 2, 4), (0, 1, 4)) * -1
    .set 155 (.ein [(34, [0, 1, 2, 3]), (2, [3, 2, 4])] [0, 1, 4]) (-1) 1,
    -- 3102: tmp33 = np.copy(tmp32) * 0.5
    .set 156 (.cp 135) 1 2,
    -- 3103: del tmp32
    .del 135,
    -- 3104: tmp33 += tmp3 * -1
    .add 156 (.cp 133) (-1) 1,
    -- 3105: tmp33 += tmp4 * 0.5
    .add 156 (.cp 134) 1 2,
    -- 3106: tmp54 = np.copy(ints.tmp157)
    .set 157 (.cp 60) 1 1,
    -- 3107: del ints.tmp157
    .del 60,
    -- 3108: tmp54 += np.transpose(ints.tmp181, (0, 2, 1, 3))
    .add 157 (.tr 61 [0, 2, 1, 3]) 1 1,
    -- 3109: del ints.tmp181
    .del 61,
    -- 3110: tmp54 += np.transpose(ints.tmp183, (0, 2, 1, 3)) * 2
    .add 157 (.tr 62 [0, 2, 1, 3]) 2 1,
    -- 3111: del ints.tmp183
    .del 62,
    -- 3112: tmp54 += ints.tmp4
    .add 157 (.cp 63) 1 1,
    -- 3113: tmp54 += ints.tmp151 * -1
    .add 157 (.cp 64) (-1) 1,
    -- 3114: del ints.tmp151
    .del 64,
    -- 3115: tmp54 += np.transpose(ints.tmp182, (0, 2, 1, 3)) * -1
    .add 157 (.tr 65 [0, 2, 1, 3]) (-1) 1,
    -- 3116: del ints.tmp182
    .del 65,
    -- 3117: tmp53 = np.copy(ints.tmp56) * 2
    .set 158 (.cp 9) 2 1,
    -- 3118: del ints.tmp56
    .del 9,
    -- 3119: tmp53 += ints.tmp59
    .add 158 (.cp 8) 1 1,
    -- 3120: del ints.tmp59
    .del 8,
    -- 3121: tmp53 += v.bbb.xov
    .add 158 (.cp 3) 1 1,
    -- 3122: tmp46 = np.copy(np.transpose(ints.tmp57, (1, 0))) * 2
    .set 159 (.tr 15 [1, 0]) 2 1,
    -- 3123: tmp46 += np.transpose(ints.tmp60, (1, 0))
    .add 159 (.tr 16 [1, 0]) 1 1,
    -- 3124: tmp46 += f.bb.vv * -1
    .add 159 (.cp 17) (-1) 1,
    -- 3125: tmp46 += tmp45
    .add 159 (.cp 136) 1 1,
    -- 3126: del tmp45
    .del 136,
    -- 3127: tmp52 = np.copy(tmp13) * 2
    .set 160 (.cp 101) 2 1,
    -- 3128: del tmp13
    .del 101,
    -- 3129: tmp52 += tmp14
    .add 160 (.cp 102) 1 1,
    -- 3130: del tmp14
    .del 102,
    -- 3131: tmp44 = np.copy(np.transpose(ints.tmp30, (1, 0))) * 2
    .set 161 (.tr 22 [1, 0]) 2 1,
    -- 3132: tmp44 += np.transpose(ints.tmp33, (1, 0))
    .add 161 (.tr 23 [1, 0]) 1 1,
    -- 3133: tmp44 += f.aa.vv * -1
    .add 161 (.cp 24) (-1) 1,
    -- 3134: tmp44 += tmp43
    .add 161 (.cp 137) 1 1,
    -- 3135: del tmp43
    .del 137,
    -- 3136: tmp36 = np.copy(ints.tmp82) * 2
    .set 162 (.cp 19) 2 1,
    -- 3137: del ints.tmp82
    .del 19,
    -- 3138: tmp36 += ints.tmp93
    .add 162 (.cp 18) 1 1,
    -- 3139: del ints.tmp93
    .del 18,
    -- 3140: tmp35 = einsum(r2.aba, (0, 1, 2), ints.tmp26, (3, 4, 0, 1), (3, 2, 4))
    .set 163 (.ein [(7, [0, 1, 2]), (34, [3, 4, 0, 1])] [3, 2, 4]) 1 1,
    -- 3141: del ints.tmp26
    .del 34,
    -- 3142: tmp42 = np.copy(ints.tmp126)
    .set 164 (.cp 66) 1 1,
    -- 3143: del ints.tmp126
    .del 66,
    -- 3144: tmp42 += np.transpose(ints.tmp138, (0, 1, 3, 2))
    .add 164 (.tr 67 [0, 1, 3, 2]) 1 1,
    -- 3145: del ints.tmp138
    .del 67,
    -- 3146: tmp42 += np.transpose(ints.tmp140, (0, 1, 3, 2)) * 2
    .add 164 (.tr 68 [0, 1, 3, 2]) 2 1,
    -- 3147: del ints.tmp140
    .del 68,
    -- 3148: tmp42 += ints.tmp42
    .add 164 (.cp 69) 1 1,
    -- 3149: tmp42 += ints.tmp122 * -1
    .add 164 (.cp 70) (-1) 1,
    -- 3150: del ints.tmp122
    .del 70,
    -- 3151: tmp42 += np.transpose(ints.tmp139, (0, 1, 3, 2)) * -1
    .add 164 (.tr 71 [0, 1, 3, 2]) (-1) 1,
    -- 3152: del ints.tmp139
    .del 71,
    -- 3153: tmp40 = np.copy(tmp38) * -1
    .set 165 (.cp 105) (-1) 1,
    -- 3154: del tmp38
    .del 105,
    -- 3155: tmp40 += tmp39 * 2
    .add 165 (.cp 104) 2 1,
    -- 3156: del tmp39
    .del 104,
    -- 3157: tmp34 = np.copy(ints.tmp109)
    .set 166 (.cp 72) 1 1,
    -- 3158: del ints.tmp109
    .del 72,
    -- 3159: tmp34 += ints.tmp112 * 2
    .add 166 (.cp 73) 2 1,
    -- 3160: del ints.tmp112
    .del 73,
    -- 3161: tmp34 += ints.tmp91
    .add 166 (.cp 74) 1 1,
    -- 3162: del ints.tmp91
    .del 74,
    -- 3163: tmp34 += ints.tmp96 * 2
    .add 166 (.cp 75) 2 1,
    -- 3164: del ints.tmp96
    .del 75,
    -- 3165: tmp34 += ints.tmp98
    .add 166 (.cp 76) 1 1,
    -- 3166: del ints.tmp98
    .del 76,
    -- 3167: tmp34 += f.aa.ov * -1
    .add 166 (.cp 27) (-1) 1,
    -- 3168: tmp34 += ints.tmp106 * -1
    .add 166 (.cp 77) (-1) 1,
    -- 3169: del ints.tmp106
    .del 77,
    -- 3170: tmp34 += ints.tmp113 * -1
    .add 166 (.cp 78) (-1) 1,
    -- 3171: del ints.tmp113
    .del 78,
    -- 3172: tmp34 += ints.tmp67 * -2
    .add 166 (.cp 79) (-2) 1,
    -- 3173: del ints.tmp67
    .del 79,
    -- 3174: tmp34 += ints.tmp68 * -1
    .add 166 (.cp 80) (-1) 1,
    -- 3175: del ints.tmp68
    .del 80,
    -- 3176: tmp31 = np.copy(f.aa.oo)
    .set 167 (.cp 81) 1 1,
    -- 3177: tmp31 += ints.tmp107
    .add 167 (.cp 82) 1 1,
    -- 3178: del ints.tmp107
    .del 82,
    -- 3179: tmp31 += np.transpose(ints.tmp114, (1, 0)) * 2
    .add 167 (.tr 83 [1, 0]) 2 1,
    -- 3180: del ints.tmp114
    .del 83,
    -- 3181: tmp31 += np.transpose(ints.tmp116, (1, 0))
    .add 167 (.tr 84 [1, 0]) 1 1,
    -- 3182: del ints.tmp116
    .del 84,
    -- 3183: tmp37 = np.copy(ints.tmp125)
    .set 168 (.cp 85) 1 1,
    -- 3184: del ints.tmp125
    .del 85,
    -- 3185: tmp37 += ints.tmp136 * -1
    .add 168 (.cp 86) (-1) 1,
    -- 3186: del ints.tmp136
    .del 86,
    -- 3187: tmp41 = np.copy(ints.tmp32)
    .set 169 (.cp 26) 1 1,
    -- 3188: del ints.tmp32
    .del 26,
    -- 3189: tmp41 += v.baa.xov
    .add 169 (.cp 1) 1 1,
    -- 3190: tmp41 += ints.tmp29 * 2
    .add 169 (.cp 25) 2 1,
    -- 3191: del ints.tmp29
    .del 25,
    -- 3192: tmp48 = np.copy(tmp47) * -0.5
    .set 170 (.cp 132) (-1) 2,
    -- 3193: del tmp47
    .del 132,
    -- 3194: tmp48 += tmp7 * 0.5
    .add 170 (.cp 131) 1 2,
    -- 3195: tmp48 += tmp8
    .add 170 (.cp 130) 1 1,
    -- 3196: tmp30 = np.copy(tmp23)
    .set 171 (.cp 139) 1 1,
    -- 3197: del tmp23
    .del 139,
    -- 3198: tmp30 += np.transpose(tmp25, (0, 2, 1)) * -2
    .add 171 (.tr 138 [0, 2, 1]) (-2) 1,
    -- 3199: del tmp25
    .del 138,
    -- 3200: tmp30 += np.transpose(tmp27, (0, 2, 1))
    .add 171 (.tr 141 [0, 2, 1]) 1 1,
    -- 3201: del tmp27
    .del 141,
    -- 3202: tmp30 += tmp29
    .add 171 (.cp 140) 1 1,
    -- 3203: del tmp29
    .del 140,
    -- 3204: tmp22 = np.copy(tmp12) * 2
    .set 172 (.cp 144) 2 1,
    -- 3205: del tmp12
    .del 144,
    -- 3206: tmp22 += tmp17
    .add 172 (.cp 143) 1 1,
    -- 3207: del tmp17
    .del 143,
    -- 3208: tmp22 += np.transpose(tmp19, (0, 2, 1))
    .add 172 (.tr 142 [0, 2, 1]) 1 1,
    -- 3209: del tmp19
    .del 142,
    -- 3210: tmp22 += tmp21
    .add 172 (.cp 145) 1 1,
    -- 3211: del tmp21
    .del 145,
    -- 3212: tmp10 = einsum(ints.tmp23, (0, 1, 2, 3), r2.aaa, (2, 3, 4), (0, 1, 4))
    .set 173 (.ein [(35, [0, 1, 2, 3]), (0, [2, 3, 4])] [0, 1, 4]) 1 1,
    -- 3213: del ints.tmp23
    .del 35,
    -- 3214: tmp9 = np.copy(tmp7)
    .set 174 (.cp 131) 1 1,
    -- 3215: del tmp7
    .del 131,
    -- 3216: tmp9 += tmp8 * 2
    .add 174 (.cp 130) 2 1,
    -- 3217: del tmp8
    .del 130,
    -- 3218: tmp9 += einsum(r1.b, (0,), tmp0, (1, 0), (1,)) * -1
    .add 174 (.ein [(30, [0]), (146, [1, 0])] [1]) (-1) 1,
    -- 3219: tmp6 = np.copy(ints.tmp46)
    .set 175 (.cp 87) 1 1,
    -- 3220: del ints.tmp46
    .del 87,
    -- 3221: tmp6 += np.transpose(ints.tmp57, (1, 0)) * 2
    .add 175 (.tr 15 [1, 0]) 2 1,
    -- 3222: del ints.tmp57
    .del 15,
    -- 3223: tmp6 += np.transpose(ints.tmp60, (1, 0))
    .add 175 (.tr 16 [1, 0]) 1 1,
    -- 3224: del ints.tmp60
    .del 16,
    -- 3225: tmp6 += f.bb.vv * -1
    .add 175 (.cp 17) (-1) 1,
    -- 3226: tmp6 += np.transpose(ints.tmp44, (1, 0)) * -1
    .add 175 (.tr 88 [1, 0]) (-1) 1,
    -- 3227: del ints.tmp44
    .del 88,
    -- 3228: tmp6 += np.transpose(ints.tmp47, (1, 0)) * -1
    .add 175 (.tr 89 [1, 0]) (-1) 1,
    -- 3229: del ints.tmp47
    .del 89,
    -- 3230: tmp5 = np.copy(tmp3) * -2
    .set 176 (.cp 133) (-2) 1,
    -- 3231: del tmp3
    .del 133,
    -- 3232: tmp5 += tmp4
    .add 176 (.cp 134) 1 1,
    -- 3233: del tmp4
    .del 134,
    -- 3234: tmp5 += einsum(tmp1, (0, 1), r1.a, (1,), (0,))
    .add 176 (.ein [(147, [0, 1]), (36, [1])] [0]) 1 1,
    -- 3235: tmp2 = np.copy(np.transpose(ints.tmp30, (1, 0))) * 2
    .set 177 (.tr 22 [1, 0]) 2 1,
    -- 3236: del ints.tmp30
    .del 22,
    -- 3237: tmp2 += np.transpose(ints.tmp33, (1, 0))
    .add 177 (.tr 23 [1, 0]) 1 1,
    -- 3238: del ints.tmp33
    .del 23,
    -- 3239: tmp2 += ints.tmp9
    .add 177 (.cp 90) 1 1,
    -- 3240: del ints.tmp9
    .del 90,
    -- 3241: tmp2 += f.aa.vv * -1
    .add 177 (.cp 24) (-1) 1,
    -- 3242: tmp2 += np.transpose(ints.tmp11, (1, 0)) * -1
    .add 177 (.tr 91 [1, 0]) (-1) 1,
    -- 3243: del ints.tmp11
    .del 91,
    -- 3244: tmp2 += np.transpose(ints.tmp7, (1, 0)) * -1
    .add 177 (.tr 92 [1, 0]) (-1) 1,
    -- 3245: del ints.tmp7
    .del 92,
    -- 3246: r2new.bbb = einsum(ints.tmp224, (0, 1, 2, 3), r2.bbb, (3, 1, 4), (0, 2, 4)) * 2
    .set 178 (.ein [(93, [0, 1, 2, 3]), (6, [3, 1, 4])] [0, 2, 4]) 2 1,
    -- 3247: del ints.tmp224
    .del 93,
    -- 3248: r2new.bbb += einsum(r1.b, (0,), ints.tmp216, (1, 2, 3, 0), (3, 2, 1)) * 2
    .add 178 (.ein [(30, [0]), (94, [1, 2, 3, 0])] [3, 2, 1]) 2 1,
    -- 3249: del ints.tmp216
    .del 94,
    -- 3250: r2new.bbb += einsum(tmp57, (0, 1, 2), t2.bbbb, (0, 1, 3, 4), (3, 4, 2)) * 2
    .add 178 (.ein [(151, [0, 1, 2]), (95, [0, 1, 3, 4])] [3, 4, 2]) 2 1,
    -- 3251: del tmp57
    .del 151,
    -- 3252: r2new.bbb += np.transpose(tmp68, (1, 2, 0)) * -1
    .add 178 (.tr 150 [1, 2, 0]) (-1) 1,
    -- 3253: r2new.bbb += np.transpose(tmp68, (2, 1, 0))
    .add 178 (.tr 150 [2, 1, 0]) 1 1,
    -- 3254: del tmp68
    .del 150,
    -- 3255: r2new.bbb += np.transpose(tmp75, (1, 2, 0))
    .add 178 (.tr 149 [1, 2, 0]) 1 1,
    -- 3256: r2new.bbb += np.transpose(tmp75, (2, 1, 0)) * -1
    .add 178 (.tr 149 [2, 1, 0]) (-1) 1,
    -- 3257: del tmp75
    .del 149,
    -- 3258: r2new.bbb += einsum(tmp55, (0, 1), r2.bbb, (2, 3, 0), (2, 3, 1)) * -2
    .add 178 (.ein [(148, [0, 1]), (6, [2, 3, 0])] [2, 3, 1]) (-2) 1,
    -- 3259: r2new.bbb += einsum(t2.bbbb, (0, 1, 2, 3), tmp76, (1,), (2, 3, 0)) * -2
    .add 178 (.ein [(95, [0, 1, 2, 3]), (153, [1])] [2, 3, 0]) (-2) 1,
    -- 3260: del tmp76
    .del 153,
    -- 3261: r2new.bbb += einsum(r1.b, (0,), tmp56, (1, 2), (0, 2, 1)) * -1
    .add 178 (.ein [(30, [0]), (152, [1, 2])] [0, 2, 1]) (-1) 1,
    -- 3262: r2new.bbb += einsum(tmp56, (0, 1), r1.b, (2,), (1, 2, 0))
    .add 178 (.ein [(152, [0, 1]), (30, [2])] [1, 2, 0]) 1 1,
    -- 3263: r2new.bab = einsum(ints.tmp187, (0, 1, 2, 3), r2.aaa, (4, 2, 0), (3, 4, 1)) * 2
    .set 179 (.ein [(31, [0, 1, 2, 3]), (0, [4, 2, 0])] [3, 4, 1]) 2 1,
    -- 3264: del ints.tmp187
    .del 31,
    -- 3265: r2new.bab += einsum(r2.bab, (0, 1, 2), ints.tmp132, (3, 1, 4, 0), (4, 3, 2))
    .add 179 (.ein [(2, [0, 1, 2]), (96, [3, 1, 4, 0])] [4, 3, 2]) 1 1,
    -- 3266: r2new.bab += einsum(t2.abab, (0, 1, 2, 3), tmp49, (0, 1, 4), (3, 2, 4)) * -1
    .add 179 (.ein [(97, [0, 1, 2, 3]), (155, [0, 1, 4])] [3, 2, 4]) (-1) 1,
    -- 3267: del tmp49
    .del 155,
    -- 3268: r2new.bab += einsum(tmp50, (0, 1, 2, 3), r2.bab, (3, 4, 1), (2, 4, 0)) * -1
    .add 179 (.ein [(103, [0, 1, 2, 3]), (2, [3, 4, 1])] [2, 4, 0]) (-1) 1,
    -- 3269: del tmp50
    .del 103,
    -- 3270: r2new.bab += einsum(tmp51, (0, 1, 2, 3), r2.bab, (4, 3, 1), (4, 2, 0))
    .add 179 (.ein [(154, [0, 1, 2, 3]), (2, [4, 3, 1])] [4, 2, 0]) 1 1,
    -- 3271: del tmp51
    .del 154,
    -- 3272: r2new.bab += einsum(tmp52, (0, 1), tmp53, (0, 2, 3), (3, 1, 2)) * -1
    .add 179 (.ein [(160, [0, 1]), (158, [0, 2, 3])] [3, 1, 2]) (-1) 1,
    -- 3273: del tmp52, tmp53
    .del 160,
    .del 158,
    -- 3274: r2new.bab += einsum(r1.a, (0,), tmp54, (1, 2, 0, 3), (3, 2, 1)) * -1
    .add 179 (.ein [(36, [0]), (157, [1, 2, 0, 3])] [3, 2, 1]) (-1) 1,
    -- 3275: del tmp54
    .del 157,
    -- 3276: r2new.bab += einsum(tmp46, (0, 1), r2.bab, (0, 2, 3), (1, 2, 3)) * -1
    .add 179 (.ein [(159, [0, 1]), (2, [0, 2, 3])] [1, 2, 3]) (-1) 1,
    -- 3277: r2new.bab += einsum(r2.bab, (0, 1, 2), tmp44, (1, 3), (0, 3, 2)) * -1
    .add 179 (.ein [(2, [0, 1, 2]), (161, [1, 3])] [0, 3, 2]) (-1) 1,
    -- 3278: r2new.bab += einsum(tmp55, (0, 1), r2.bab, (2, 3, 0), (2, 3, 1)) * -1
    .add 179 (.ein [(148, [0, 1]), (2, [2, 3, 0])] [2, 3, 1]) (-1) 1,
    -- 3279: del tmp55
    .del 148,
    -- 3280: r2new.bab += einsum(t2.abab, (0, 1, 2, 3), tmp33, (0,), (3, 2, 1)) * 2
    .add 179 (.ein [(97, [0, 1, 2, 3]), (156, [0])] [3, 2, 1]) 2 1,
    -- 3281: r2new.bab += einsum(tmp56, (0, 1), r1.a, (2,), (1, 2, 0))
    .add 179 (.ein [(152, [0, 1]), (36, [2])] [1, 2, 0]) 1 1,
    -- 3282: del tmp56
    .del 152,
    -- 3283: r2new.aba = einsum(t2.abab, (0, 1, 2, 3), tmp35, (0, 4, 1), (2, 3, 4))
    .set 180 (.ein [(97, [0, 1, 2, 3]), (163, [0, 4, 1])] [2, 3, 4]) 1 1,
    -- 3284: del tmp35
    .del 163,
    -- 3285: r2new.aba += einsum(r2.aba, (0, 1, 2), ints.tmp132, (3, 0, 4, 1), (3, 4, 2))
    .add 180 (.ein [(7, [0, 1, 2]), (96, [3, 0, 4, 1])] [3, 4, 2]) 1 1,
    -- 3286: del ints.tmp132
    .del 96,
    -- 3287: r2new.aba += einsum(r2.bbb, (0, 1, 2), ints.tmp85, (3, 2, 4, 1), (4, 0, 3)) * 2
    .add 180 (.ein [(6, [0, 1, 2]), (38, [3, 2, 4, 1])] [4, 0, 3]) 2 1,
    -- 3288: del ints.tmp85
    .del 38,
    -- 3289: r2new.aba += einsum(tmp36, (0, 1, 2, 3), r2.aba, (3, 4, 1), (2, 4, 0)) * -1
    .add 180 (.ein [(162, [0, 1, 2, 3]), (7, [3, 4, 1])] [2, 4, 0]) (-1) 1,
    -- 3290: del tmp36
    .del 162,
    -- 3291: r2new.aba += einsum(r2.aba, (0, 1, 2), tmp37, (3, 2, 4, 1), (0, 4, 3))
    .add 180 (.ein [(7, [0, 1, 2]), (168, [3, 2, 4, 1])] [0, 4, 3]) 1 1,
    -- 3292: del tmp37
    .del 168,
    -- 3293: r2new.aba += einsum(tmp41, (0, 1, 2), tmp40, (0, 3), (2, 3, 1)) * -1
    .add 180 (.ein [(169, [0, 1, 2]), (165, [0, 3])] [2, 3, 1]) (-1) 1,
    -- 3294: del tmp41, tmp40
    .del 169,
    .del 165,
    -- 3295: r2new.aba += einsum(tmp42, (0, 1, 2, 3), r1.b, (3,), (1, 2, 0)) * -1
    .add 180 (.ein [(164, [0, 1, 2, 3]), (30, [3])] [1, 2, 0]) (-1) 1,
    -- 3296: del tmp42
    .del 164,
    -- 3297: r2new.aba += einsum(r2.aba, (0, 1, 2), tmp44, (0, 3), (3, 1, 2)) * -1
    .add 180 (.ein [(7, [0, 1, 2]), (161, [0, 3])] [3, 1, 2]) (-1) 1,
    -- 3298: del tmp44
    .del 161,
    -- 3299: r2new.aba += einsum(r2.aba, (0, 1, 2), tmp46, (1, 3), (0, 3, 2)) * -1
    .add 180 (.ein [(7, [0, 1, 2]), (159, [1, 3])] [0, 3, 2]) (-1) 1,
    -- 3300: del tmp46
    .del 159,
    -- 3301: r2new.aba += einsum(tmp31, (0, 1), r2.aba, (2, 3, 0), (2, 3, 1)) * -1
    .add 180 (.ein [(167, [0, 1]), (7, [2, 3, 0])] [2, 3, 1]) (-1) 1,
    -- 3302: r2new.aba += einsum(t2.abab, (0, 1, 2, 3), tmp48, (1,), (2, 3, 0)) * -2
    .add 180 (.ein [(97, [0, 1, 2, 3]), (170, [1])] [2, 3, 0]) (-2) 1,
    -- 3303: del tmp48
    .del 170,
    -- 3304: r2new.aba += einsum(r1.b, (0,), tmp34, (1, 2), (2, 0, 1))
    .add 180 (.ein [(30, [0]), (166, [1, 2])] [2, 0, 1]) 1 1,
    -- 3305: r2new.aaa = einsum(ints.tmp99, (0, 1, 2, 3), r1.a, (3,), (2, 1, 0)) * 2
    .set 181 (.ein [(98, [0, 1, 2, 3]), (36, [3])] [2, 1, 0]) 2 1,
    -- 3306: del ints.tmp99
    .del 98,
    -- 3307: r2new.aaa += einsum(tmp10, (0, 1, 2), t2.aaaa, (0, 1, 3, 4), (3, 4, 2)) * 2
    .add 181 (.ein [(173, [0, 1, 2]), (99, [0, 1, 3, 4])] [3, 4, 2]) 2 1,
    -- 3308: del tmp10
    .del 173,
    -- 3309: r2new.aaa += einsum(r2.aaa, (0, 1, 2), ints.tmp110, (3, 0, 4, 1), (3, 4, 2)) * -2
    .add 181 (.ein [(0, [0, 1, 2]), (100, [3, 0, 4, 1])] [3, 4, 2]) (-2) 1,
    -- 3310: del ints.tmp110
    .del 100,
    -- 3311: r2new.aaa += np.transpose(tmp22, (1, 2, 0)) * -1
    .add 181 (.tr 172 [1, 2, 0]) (-1) 1,
    -- 3312: r2new.aaa += np.transpose(tmp22, (2, 1, 0))
    .add 181 (.tr 172 [2, 1, 0]) 1 1,
    -- 3313: del tmp22
    .del 172,
    -- 3314: r2new.aaa += np.transpose(tmp30, (1, 2, 0))
    .add 181 (.tr 171 [1, 2, 0]) 1 1,
    -- 3315: r2new.aaa += np.transpose(tmp30, (2, 1, 0)) * -1
    .add 181 (.tr 171 [2, 1, 0]) (-1) 1,
    -- 3316: del tmp30
    .del 171,
    -- 3317: r2new.aaa += einsum(r2.aaa, (0, 1, 2), tmp31, (2, 3), (0, 1, 3)) * -2
    .add 181 (.ein [(0, [0, 1, 2]), (167, [2, 3])] [0, 1, 3]) (-2) 1,
    -- 3318: del tmp31
    .del 167,
    -- 3319: r2new.aaa += einsum(tmp33, (0,), t2.aaaa, (1, 0, 2, 3), (2, 3, 1)) * 4
    .add 181 (.ein [(156, [0]), (99, [1, 0, 2, 3])] [2, 3, 1]) 4 1,
    -- 3320: del tmp33
    .del 156,
    -- 3321: r2new.aaa += einsum(tmp34, (0, 1), r1.a, (2,), (2, 1, 0)) * -1
    .add 181 (.ein [(166, [0, 1]), (36, [2])] [2, 1, 0]) (-1) 1,
    -- 3322: r2new.aaa += einsum(r1.a, (0,), tmp34, (1, 2), (2, 0, 1))
    .add 181 (.ein [(36, [0]), (166, [1, 2])] [2, 0, 1]) 1 1,
    -- 3323: del tmp34
    .del 166,
    -- 3324: r1new.b = einsum(r2.bbb, (0, 1, 2), ints.tmp40, (2, 3, 0, 1), (3,)) * 2
    .set 182 (.ein [(6, [0, 1, 2]), (10, [2, 3, 0, 1])] [3]) 2 1,
    -- 3325: del ints.tmp40
    .del 10,
    -- 3326: r1new.b += einsum(r2.aba, (0, 1, 2), ints.tmp42, (2, 0, 3, 1), (3,)) * -1
    .add 182 (.ein [(7, [0, 1, 2]), (69, [2, 0, 3, 1])] [3]) (-1) 1,
    -- 3327: del ints.tmp42
    .del 69,
    -- 3328: r1new.b += einsum(r2.aba, (0, 1, 2), tmp1, (2, 0), (1,)) * -1
    .add 182 (.ein [(7, [0, 1, 2]), (147, [2, 0])] [1]) (-1) 1,
    -- 3329: r1new.b += einsum(r2.bbb, (0, 1, 2), tmp0, (2, 1), (0,)) * 2
    .add 182 (.ein [(6, [0, 1, 2]), (146, [2, 1])] [0]) 2 1,
    -- 3330: r1new.b += einsum(tmp6, (0, 1), r1.b, (0,), (1,)) * -1
    .add 182 (.ein [(175, [0, 1]), (30, [0])] [1]) (-1) 1,
    -- 3331: del tmp6
    .del 175,
    -- 3332: r1new.b += einsum(t1.bb, (0, 1), tmp9, (0,), (1,))
    .add 182 (.ein [(32, [0, 1]), (174, [0])] [1]) 1 1,
    -- 3333: del tmp9
    .del 174,
    -- 3334: r1new.a = einsum(r2.aaa, (0, 1, 2), ints.tmp2, (2, 3, 1, 0), (3,)) * -2
    .set 183 (.ein [(0, [0, 1, 2]), (20, [2, 3, 1, 0])] [3]) (-2) 1,
    -- 3335: del ints.tmp2
    .del 20,
    -- 3336: r1new.a += einsum(r2.bab, (0, 1, 2), ints.tmp4, (2, 3, 1, 0), (3,)) * -1
    .add 183 (.ein [(2, [0, 1, 2]), (63, [2, 3, 1, 0])] [3]) (-1) 1,
    -- 3337: del ints.tmp4
    .del 63,
    -- 3338: r1new.a += einsum(r2.bab, (0, 1, 2), tmp0, (2, 0), (1,)) * -1
    .add 183 (.ein [(2, [0, 1, 2]), (146, [2, 0])] [1]) (-1) 1,
    -- 3339: del tmp0
    .del 146,
    -- 3340: r1new.a += einsum(r2.aaa, (0, 1, 2), tmp1, (2, 1), (0,)) * 2
    .add 183 (.ein [(0, [0, 1, 2]), (147, [2, 1])] [0]) 2 1,
    -- 3341: del tmp1
    .del 147,
    -- 3342: r1new.a += einsum(tmp2, (0, 1), r1.a, (0,), (1,)) * -1
    .add 183 (.ein [(177, [0, 1]), (36, [0])] [1]) (-1) 1,
    -- 3343: del tmp2
    .del 177,
    -- 3344: r1new.a += einsum(t1.aa, (0, 1), tmp5, (0,), (1,)) * -1
    .add 183 (.ein [(37, [0, 1]), (176, [0])] [1]) (-1) 1,
    -- 3345: del tmp5
    .del 176
  ]
  ret := [(chars! "r1new.b", 182), (chars! "r1new.a", 183), (chars! "r2new.bbb", 178), (chars! "r2new.bab", 179), (chars! "r2new.aba", 180), (chars! "r2new.aaa", 181)]

/-- codegen/UDFCC2.py:4406-4770 `hbar_lmatvec_ea_intermediates`. -/
def hbar_lmatvec_ea_intermediates : GenFun where
  args := [chars! "v.baa.xov", chars! "t1.aa", chars! "t1.bb", chars! "v.bbb.xov", chars! "t2.abab", chars! "t2.bbbb", chars! "t2.aaaa", chars! "v.baa.xvv", chars! "v.bbb.xvv", chars! "v.baa.xoo", chars! "v.bbb.xoo", chars! "f.bb.ov", chars! "f.aa.ov", chars! "f.bb.vv", chars! "f.aa.vv", chars! "f.bb.oo", chars! "f.aa.oo"]
  body := [
    -- 4579: tmp28 = einsum(v.baa.xov, (0, 1, 2), t1.aa, (1, 2), (0,))
    .set 17 (.ein [(0, [0, 1, 2]), (1, [1, 2])] [0]) 1 1,
    -- 4580: tmp32 = einsum(t1.bb, (0, 1), v.bbb.xov, (2, 0, 1), (2,))
    .set 18 (.ein [(2, [0, 1]), (3, [2, 0, 1])] [2]) 1 1,
    -- 4581: tmp109 = einsum(t1.bb, (0, 1), v.bbb.xov, (2, 3, 1), (2, 0, 3))
    .set 19 (.ein [(2, [0, 1]), (3, [2, 3, 1])] [2, 0, 3]) 1 1,
    -- 4582: tmp101 = einsum(t1.aa, (0, 1), v.baa.xov, (2, 3, 1), (2, 0, 3))
    .set 20 (.ein [(1, [0, 1]), (0, [2, 3, 1])] [2, 0, 3]) 1 1,
    -- 4583: tmp41 = einsum(v.bbb.xov, (0, 1, 2), tmp28, (0,), (1, 2))
    .set 21 (.ein [(3, [0, 1, 2]), (17, [0])] [1, 2]) 1 1,
    -- 4584: tmp42 = einsum(v.baa.xov, (0, 1, 2), tmp32, (0,), (1, 2))
    .set 22 (.ein [(0, [0, 1, 2]), (18, [0])] [1, 2]) 1 1,
    -- 4585: tmp38 = einsum(v.bbb.xov, (0, 1, 2), tmp32, (0,), (1, 2))
    .set 23 (.ein [(3, [0, 1, 2]), (18, [0])] [1, 2]) 1 1,
    -- 4586: tmp110 = einsum(tmp109, (0, 1, 2), v.bbb.xov, (0, 1, 3), (2, 3))
    .set 24 (.ein [(19, [0, 1, 2]), (3, [0, 1, 3])] [2, 3]) 1 1,
    -- 4587: tmp34 = einsum(v.baa.xov, (0, 1, 2), tmp28, (0,), (1, 2))
    .set 25 (.ein [(0, [0, 1, 2]), (17, [0])] [1, 2]) 1 1,
    -- 4588: tmp102 = einsum(tmp101, (0, 1, 2), v.baa.xov, (0, 1, 3), (2, 3))
    .set 26 (.ein [(20, [0, 1, 2]), (0, [0, 1, 3])] [2, 3]) 1 1,
    -- 4589: tmp60 = einsum(t2.abab, (0, 1, 2, 3), v.bbb.xov, (4, 1, 3), (4, 0, 2))
    .set 27 (.ein [(4, [0, 1, 2, 3]), (3, [4, 1, 3])] [4, 0, 2]) 1 1,
    -- 4590: tmp84 = einsum(t2.abab, (0, 1, 2, 3), v.baa.xov, (4, 0, 2), (4, 1, 3))
    .set 28 (.ein [(4, [0, 1, 2, 3]), (0, [4, 0, 2])] [4, 1, 3]) 1 1,
    -- 4591: tmp81 = einsum(v.bbb.xov, (0, 1, 2), t2.bbbb, (3, 1, 4, 2), (0, 3, 4))
    .set 29 (.ein [(3, [0, 1, 2]), (5, [3, 1, 4, 2])] [0, 3, 4]) 1 1,
    -- 4592: tmp57 = einsum(v.baa.xov, (0, 1, 2), t2.aaaa, (3, 1, 4, 2), (0, 3, 4))
    .set 30 (.ein [(0, [0, 1, 2]), (6, [3, 1, 4, 2])] [0, 3, 4]) 1 1,
    -- 4593: tmp30 = einsum(v.baa.xvv, (0, 1, 2), t1.aa, (3, 2), (0, 3, 1))
    .set 31 (.ein [(7, [0, 1, 2]), (1, [3, 2])] [0, 3, 1]) 1 1,
    -- 4594: tmp39 = einsum(t1.bb, (0, 1), v.bbb.xvv, (2, 3, 1), (2, 0, 3))
    .set 32 (.ein [(2, [0, 1]), (8, [2, 3, 1])] [2, 0, 3]) 1 1,
    -- 4595: tmp49 = einsum(v.baa.xov, (0, 1, 2), v.bbb.xov, (0, 3, 4), (1, 3, 2, 4))
    .set 33 (.ein [(0, [0, 1, 2]), (3, [0, 3, 4])] [1, 3, 2, 4]) 1 1,
    -- 4596: tmp243 = einsum(v.bbb.xov, (0, 1, 2), v.bbb.xov, (0, 3, 4), (3, 1, 4, 2))
    .set 34 (.ein [(3, [0, 1, 2]), (3, [0, 3, 4])] [3, 1, 4, 2]) 1 1,
    -- 4597: tmp138 = einsum(tmp101, (0, 1, 2), v.bbb.xov, (0, 3, 4), (1, 2, 3, 4))
    .set 35 (.ein [(20, [0, 1, 2]), (3, [0, 3, 4])] [1, 2, 3, 4]) 1 1,
    -- 4598: tmp135 = einsum(tmp109, (0, 1, 2), v.bbb.xov, (0, 3, 4), (1, 3, 2, 4))
    .set 36 (.ein [(19, [0, 1, 2]), (3, [0, 3, 4])] [1, 3, 2, 4]) 1 1,
    -- 4599: tmp26 = einsum(v.baa.xvv, (0, 1, 2), v.bbb.xov, (0, 3, 4), (3, 1, 2, 4))
    .set 37 (.ein [(7, [0, 1, 2]), (3, [0, 3, 4])] [3, 1, 2, 4]) 1 1,
    -- 4600: tmp236 = einsum(v.bbb.xov, (0, 1, 2), v.bbb.xvv, (0, 3, 4), (1, 3, 4, 2))
    .set 38 (.ein [(3, [0, 1, 2]), (8, [0, 3, 4])] [1, 3, 4, 2]) 1 1,
    -- 4601: tmp72 = einsum(v.bbb.xov, (0, 1, 2), v.baa.xoo, (0, 3, 4), (3, 4, 1, 2))
    .set 39 (.ein [(3, [0, 1, 2]), (9, [0, 3, 4])] [3, 4, 1, 2]) 1 1,
    -- 4602: tmp66 = einsum(v.bbb.xoo, (0, 1, 2), v.bbb.xov, (0, 3, 4), (1, 2, 3, 4))
    .set 40 (.ein [(10, [0, 1, 2]), (3, [0, 3, 4])] [1, 2, 3, 4]) 1 1,
    -- 4603: tmp220 = einsum(t1.bb, (0, 1), tmp41, (2, 1), (0, 2))
    .set 41 (.ein [(2, [0, 1]), (21, [2, 1])] [0, 2]) 1 1,
    -- 4604: tmp217 = einsum(t1.aa, (0, 1), tmp42, (2, 1), (0, 2))
    .set 42 (.ein [(1, [0, 1]), (22, [2, 1])] [0, 2]) 1 1,
    -- 4605: tmp215 = einsum(t1.bb, (0, 1), tmp38, (2, 1), (0, 2))
    .set 43 (.ein [(2, [0, 1]), (23, [2, 1])] [0, 2]) 1 1,
    -- 4606: tmp213 = einsum(t1.bb, (0, 1), tmp110, (2, 1), (0, 2))
    .set 44 (.ein [(2, [0, 1]), (24, [2, 1])] [0, 2]) 1 1,
    -- 4607: tmp210 = einsum(t1.aa, (0, 1), tmp34, (2, 1), (0, 2))
    .set 45 (.ein [(1, [0, 1]), (25, [2, 1])] [0, 2]) 1 1,
    -- 4608: tmp207 = einsum(t1.aa, (0, 1), tmp102, (2, 1), (0, 2))
    .set 46 (.ein [(1, [0, 1]), (26, [2, 1])] [0, 2]) 1 1,
    -- 4609: tmp33 = einsum(v.baa.xvv, (0, 1, 2), tmp32, (0,), (1, 2))
    .set 47 (.ein [(7, [0, 1, 2]), (18, [0])] [1, 2]) 1 1,
    -- 4610: tmp197 = einsum(tmp28, (0,), v.bbb.xvv, (0, 1, 2), (1, 2))
    .set 48 (.ein [(17, [0]), (8, [0, 1, 2])] [1, 2]) 1 1,
    -- 4611: tmp194 = einsum(v.bbb.xvv, (0, 1, 2), tmp32, (0,), (1, 2))
    .set 49 (.ein [(8, [0, 1, 2]), (18, [0])] [1, 2]) 1 1,
    -- 4612: tmp29 = einsum(v.baa.xvv, (0, 1, 2), tmp28, (0,), (1, 2))
    .set 50 (.ein [(7, [0, 1, 2]), (17, [0])] [1, 2]) 1 1,
    -- 4613: tmp184 = einsum(v.bbb.xoo, (0, 1, 2), tmp28, (0,), (1, 2))
    .set 51 (.ein [(10, [0, 1, 2]), (17, [0])] [1, 2]) 1 1,
    -- 4614: tmp181 = einsum(tmp32, (0,), v.baa.xoo, (0, 1, 2), (1, 2))
    .set 52 (.ein [(18, [0]), (9, [0, 1, 2])] [1, 2]) 1 1,
    -- 4615: tmp179 = einsum(v.bbb.xoo, (0, 1, 2), tmp32, (0,), (1, 2))
    .set 53 (.ein [(10, [0, 1, 2]), (18, [0])] [1, 2]) 1 1,
    -- 4616: del tmp32
    .del 18,
    -- 4617: tmp177 = einsum(tmp109, (0, 1, 2), v.bbb.xoo, (0, 3, 1), (3, 2))
    .set 54 (.ein [(19, [0, 1, 2]), (10, [0, 3, 1])] [3, 2]) 1 1,
    -- 4618: tmp174 = einsum(tmp28, (0,), v.baa.xoo, (0, 1, 2), (1, 2))
    .set 55 (.ein [(17, [0]), (9, [0, 1, 2])] [1, 2]) 1 1,
    -- 4619: del tmp28
    .del 17,
    -- 4620: tmp171 = einsum(v.baa.xoo, (0, 1, 2), tmp101, (0, 2, 3), (1, 3))
    .set 56 (.ein [(9, [0, 1, 2]), (20, [0, 2, 3])] [1, 3]) 1 1,
    -- 4621: tmp44 = einsum(v.baa.xov, (0, 1, 2), v.baa.xov, (0, 3, 4), (3, 1, 4, 2))
    .set 57 (.ein [(0, [0, 1, 2]), (0, [0, 3, 4])] [3, 1, 4, 2]) 1 1,
    -- 4622: tmp157 = einsum(v.baa.xov, (0, 1, 2), tmp60, (0, 3, 2), (3, 1))
    .set 58 (.ein [(0, [0, 1, 2]), (27, [0, 3, 2])] [3, 1]) 1 1,
    -- 4623: tmp154 = einsum(tmp84, (0, 1, 2), v.bbb.xov, (0, 3, 2), (1, 3))
    .set 59 (.ein [(28, [0, 1, 2]), (3, [0, 3, 2])] [1, 3]) 1 1,
    -- 4624: tmp151 = einsum(tmp81, (0, 1, 2), v.bbb.xov, (0, 3, 2), (1, 3))
    .set 60 (.ein [(29, [0, 1, 2]), (3, [0, 3, 2])] [1, 3]) 1 1,
    -- 4625: tmp148 = einsum(tmp57, (0, 1, 2), v.baa.xov, (0, 3, 2), (1, 3))
    .set 61 (.ein [(30, [0, 1, 2]), (0, [0, 3, 2])] [1, 3]) 1 1,
    -- 4626: tmp141 = einsum(tmp109, (0, 1, 2), v.baa.xov, (0, 3, 4), (3, 1, 2, 4))
    .set 62 (.ein [(19, [0, 1, 2]), (0, [0, 3, 4])] [3, 1, 2, 4]) 1 1,
    -- 4627: tmp132 = einsum(v.baa.xov, (0, 1, 2), tmp101, (0, 3, 4), (3, 1, 4, 2))
    .set 63 (.ein [(0, [0, 1, 2]), (20, [0, 3, 4])] [3, 1, 4, 2]) 1 1,
    -- 4628: tmp99 = einsum(v.baa.xov, (0, 1, 2), v.bbb.xvv, (0, 3, 4), (1, 2, 3, 4))
    .set 64 (.ein [(0, [0, 1, 2]), (8, [0, 3, 4])] [1, 2, 3, 4]) 1 1,
    -- 4629: tmp24 = einsum(v.baa.xvv, (0, 1, 2), v.baa.xov, (0, 3, 4), (3, 1, 2, 4))
    .set 65 (.ein [(7, [0, 1, 2]), (0, [0, 3, 4])] [3, 1, 2, 4]) 1 1,
    -- 4630: tmp69 = einsum(v.bbb.xoo, (0, 1, 2), v.baa.xov, (0, 3, 4), (3, 1, 2, 4))
    .set 66 (.ein [(10, [0, 1, 2]), (0, [0, 3, 4])] [3, 1, 2, 4]) 1 1,
    -- 4631: tmp63 = einsum(v.baa.xov, (0, 1, 2), v.baa.xoo, (0, 3, 4), (3, 4, 1, 2))
    .set 67 (.ein [(0, [0, 1, 2]), (9, [0, 3, 4])] [3, 4, 1, 2]) 1 1,
    -- 4632: tmp22 = einsum(t1.bb, (0, 1), f.bb.ov, (2, 1), (2, 0))
    .set 68 (.ein [(2, [0, 1]), (11, [2, 1])] [2, 0]) 1 1,
    -- 4633: tmp19 = einsum(f.aa.ov, (0, 1), t1.aa, (2, 1), (0, 2))
    .set 69 (.ein [(12, [0, 1]), (1, [2, 1])] [0, 2]) 1 1,
    -- 4634: tmp430 = einsum(v.bbb.xvv, (0, 1, 2), v.bbb.xvv, (0, 3, 4), (3, 1, 2, 4))
    .set 70 (.ein [(8, [0, 1, 2]), (8, [0, 3, 4])] [3, 1, 2, 4]) 1 1,
    -- 4635: tmp387 = einsum(v.baa.xvv, (0, 1, 2), v.bbb.xvv, (0, 3, 4), (1, 2, 3, 4))
    .set 71 (.ein [(7, [0, 1, 2]), (8, [0, 3, 4])] [1, 2, 3, 4]) 1 1,
    -- 4636: tmp365 = einsum(v.baa.xvv, (0, 1, 2), v.baa.xvv, (0, 3, 4), (1, 3, 4, 2))
    .set 72 (.ein [(7, [0, 1, 2]), (7, [0, 3, 4])] [1, 3, 4, 2]) 1 1,
    -- 4637: tmp335 = einsum(tmp30, (0, 1, 2), v.bbb.xov, (0, 3, 4), (1, 3, 2, 4))
    .set 73 (.ein [(31, [0, 1, 2]), (3, [0, 3, 4])] [1, 3, 2, 4]) 1 1,
    -- 4638: tmp334 = einsum(tmp101, (0, 1, 2), v.bbb.xvv, (0, 3, 4), (1, 2, 3, 4))
    .set 74 (.ein [(20, [0, 1, 2]), (8, [0, 3, 4])] [1, 2, 3, 4]) 1 1,
    -- 4639: tmp332 = einsum(tmp39, (0, 1, 2), v.bbb.xov, (0, 3, 4), (1, 3, 4, 2))
    .set 75 (.ein [(32, [0, 1, 2]), (3, [0, 3, 4])] [1, 3, 4, 2]) 1 1,
    -- 4640: tmp330 = einsum(tmp109, (0, 1, 2), v.bbb.xvv, (0, 3, 4), (1, 2, 3, 4))
    .set 76 (.ein [(19, [0, 1, 2]), (8, [0, 3, 4])] [1, 2, 3, 4]) 1 1,
    -- 4641: tmp319 = einsum(t2.abab, (0, 1, 2, 3), tmp49, (4, 1, 2, 5), (0, 4, 3, 5))
    .set 77 (.ein [(4, [0, 1, 2, 3]), (33, [4, 1, 2, 5])] [0, 4, 3, 5]) 1 1,
    -- 4642: tmp317 = einsum(v.bbb.xov, (0, 1, 2), tmp84, (0, 3, 4), (3, 1, 4, 2))
    .set 78 (.ein [(3, [0, 1, 2]), (28, [0, 3, 4])] [3, 1, 4, 2]) 1 1,
    -- 4643: tmp315 = einsum(tmp57, (0, 1, 2), v.bbb.xov, (0, 3, 4), (1, 3, 2, 4))
    .set 79 (.ein [(30, [0, 1, 2]), (3, [0, 3, 4])] [1, 3, 2, 4]) 1 1,
    -- 4644: tmp313 = einsum(t2.bbbb, (0, 1, 2, 3), tmp243, (1, 4, 5, 3), (0, 4, 2, 5))
    .set 80 (.ein [(5, [0, 1, 2, 3]), (34, [1, 4, 5, 3])] [0, 4, 2, 5]) 1 1,
    -- 4645: tmp312 = einsum(t2.abab, (0, 1, 2, 3), tmp243, (1, 4, 5, 3), (0, 4, 2, 5))
    .set 81 (.ein [(4, [0, 1, 2, 3]), (34, [1, 4, 5, 3])] [0, 4, 2, 5]) 1 1,
    -- 4646: tmp310 = einsum(tmp81, (0, 1, 2), v.bbb.xov, (0, 3, 4), (1, 3, 2, 4))
    .set 82 (.ein [(29, [0, 1, 2]), (3, [0, 3, 4])] [1, 3, 2, 4]) 1 1,
    -- 4647: tmp309 = einsum(v.bbb.xov, (0, 1, 2), tmp60, (0, 3, 4), (3, 1, 4, 2))
    .set 83 (.ein [(3, [0, 1, 2]), (27, [0, 3, 4])] [3, 1, 4, 2]) 1 1,
    -- 4648: tmp303 = einsum(tmp138, (0, 1, 2, 3), t2.abab, (1, 2, 4, 5), (0, 4, 5, 3))
    .set 84 (.ein [(35, [0, 1, 2, 3]), (4, [1, 2, 4, 5])] [0, 4, 5, 3]) 1 1,
    -- 4649: tmp301 = einsum(t2.bbbb, (0, 1, 2, 3), tmp135, (4, 0, 1, 5), (4, 2, 3, 5))
    .set 85 (.ein [(5, [0, 1, 2, 3]), (36, [4, 0, 1, 5])] [4, 2, 3, 5]) 1 1,
    -- 4650: tmp281 = einsum(t2.abab, (0, 1, 2, 3), tmp26, (1, 2, 4, 5), (0, 4, 3, 5))
    .set 86 (.ein [(4, [0, 1, 2, 3]), (37, [1, 2, 4, 5])] [0, 4, 3, 5]) 1 1,
    -- 4651: tmp279 = einsum(tmp84, (0, 1, 2), v.bbb.xvv, (0, 3, 4), (1, 2, 3, 4))
    .set 87 (.ein [(28, [0, 1, 2]), (8, [0, 3, 4])] [1, 2, 3, 4]) 1 1,
    -- 4652: tmp277 = einsum(v.bbb.xvv, (0, 1, 2), tmp57, (0, 3, 4), (3, 4, 1, 2))
    .set 88 (.ein [(8, [0, 1, 2]), (30, [0, 3, 4])] [3, 4, 1, 2]) 1 1,
    -- 4653: tmp275 = einsum(tmp236, (0, 1, 2, 3), t2.bbbb, (4, 0, 5, 2), (4, 5, 3, 1))
    .set 89 (.ein [(38, [0, 1, 2, 3]), (5, [4, 0, 5, 2])] [4, 5, 3, 1]) 1 1,
    -- 4654: tmp274 = einsum(tmp236, (0, 1, 2, 3), t2.abab, (4, 0, 5, 1), (4, 5, 3, 2))
    .set 90 (.ein [(38, [0, 1, 2, 3]), (4, [4, 0, 5, 1])] [4, 5, 3, 2]) 1 1,
    -- 4655: tmp272 = einsum(tmp81, (0, 1, 2), v.bbb.xvv, (0, 3, 4), (1, 2, 3, 4))
    .set 91 (.ein [(29, [0, 1, 2]), (8, [0, 3, 4])] [1, 2, 3, 4]) 1 1,
    -- 4656: tmp271 = einsum(v.bbb.xvv, (0, 1, 2), tmp60, (0, 3, 4), (3, 4, 1, 2))
    .set 92 (.ein [(8, [0, 1, 2]), (27, [0, 3, 4])] [3, 4, 1, 2]) 1 1,
    -- 4657: tmp265 = einsum(tmp72, (0, 1, 2, 3), t2.abab, (1, 2, 4, 5), (0, 4, 5, 3))
    .set 93 (.ein [(39, [0, 1, 2, 3]), (4, [1, 2, 4, 5])] [0, 4, 5, 3]) 1 1,
    -- 4658: tmp263 = einsum(t2.bbbb, (0, 1, 2, 3), tmp66, (4, 0, 1, 5), (4, 2, 3, 5))
    .set 94 (.ein [(5, [0, 1, 2, 3]), (40, [4, 0, 1, 5])] [4, 2, 3, 5]) 1 1,
    -- 4659: tmp257 = einsum(v.bbb.xov, (0, 1, 2), tmp84, (0, 1, 3), (3, 2))
    .set 95 (.ein [(3, [0, 1, 2]), (28, [0, 1, 3])] [3, 2]) 1 1,
    -- 4660: tmp255 = einsum(tmp81, (0, 1, 2), v.bbb.xov, (0, 1, 3), (2, 3))
    .set 96 (.ein [(29, [0, 1, 2]), (3, [0, 1, 3])] [2, 3]) 1 1,
    -- 4661: tmp253 = einsum(tmp30, (0, 1, 2), v.bbb.xvv, (0, 3, 4), (1, 2, 3, 4))
    .set 97 (.ein [(31, [0, 1, 2]), (8, [0, 3, 4])] [1, 2, 3, 4]) 1 1,
    -- 4662: tmp251 = einsum(tmp39, (0, 1, 2), v.bbb.xvv, (0, 3, 4), (1, 3, 4, 2))
    .set 98 (.ein [(32, [0, 1, 2]), (8, [0, 3, 4])] [1, 3, 4, 2]) 1 1,
    -- 4663: tmp250 = einsum(v.bbb.xvv, (0, 1, 2), v.baa.xoo, (0, 3, 4), (3, 4, 1, 2))
    .set 99 (.ein [(8, [0, 1, 2]), (9, [0, 3, 4])] [3, 4, 1, 2]) 1 1,
    -- 4664: tmp246 = einsum(v.bbb.xoo, (0, 1, 2), v.bbb.xvv, (0, 3, 4), (1, 2, 3, 4))
    .set 100 (.ein [(10, [0, 1, 2]), (8, [0, 3, 4])] [1, 2, 3, 4]) 1 1,
    -- 4665: tmp239 = einsum(tmp39, (0, 1, 2), v.bbb.xov, (0, 1, 3), (3, 2))
    .set 101 (.ein [(32, [0, 1, 2]), (3, [0, 1, 3])] [3, 2]) 1 1,
    -- 4666: tmp221 = einsum(tmp220, (0, 1), t1.bb, (1, 2), (0, 2))
    .set 102 (.ein [(41, [0, 1]), (2, [1, 2])] [0, 2]) 1 1,
    -- 4667: del tmp220
    .del 41,
    -- 4668: tmp218 = einsum(tmp217, (0, 1), t1.aa, (1, 2), (0, 2))
    .set 103 (.ein [(42, [0, 1]), (1, [1, 2])] [0, 2]) 1 1,
    -- 4669: del tmp217
    .del 42,
    -- 4670: tmp216 = einsum(tmp215, (0, 1), t1.bb, (1, 2), (0, 2))
    .set 104 (.ein [(43, [0, 1]), (2, [1, 2])] [0, 2]) 1 1,
    -- 4671: del tmp215
    .del 43,
    -- 4672: tmp214 = einsum(tmp213, (0, 1), t1.bb, (1, 2), (0, 2))
    .set 105 (.ein [(44, [0, 1]), (2, [1, 2])] [0, 2]) 1 1,
    -- 4673: del tmp213
    .del 44,
    -- 4674: tmp211 = einsum(tmp210, (0, 1), t1.aa, (1, 2), (0, 2))
    .set 106 (.ein [(45, [0, 1]), (1, [1, 2])] [0, 2]) 1 1,
    -- 4675: del tmp210
    .del 45,
    -- 4676: tmp208 = einsum(tmp207, (0, 1), t1.aa, (1, 2), (0, 2))
    .set 107 (.ein [(46, [0, 1]), (1, [1, 2])] [0, 2]) 1 1,
    -- 4677: del tmp207
    .del 46,
    -- 4678: tmp206 = einsum(v.baa.xov, (0, 1, 2), tmp39, (0, 3, 4), (1, 3, 2, 4))
    .set 108 (.ein [(0, [0, 1, 2]), (32, [0, 3, 4])] [1, 3, 2, 4]) 1 1,
    -- 4679: tmp205 = einsum(tmp109, (0, 1, 2), v.baa.xvv, (0, 3, 4), (1, 2, 3, 4))
    .set 109 (.ein [(19, [0, 1, 2]), (7, [0, 3, 4])] [1, 2, 3, 4]) 1 1,
    -- 4680: tmp203 = einsum(tmp30, (0, 1, 2), v.baa.xov, (0, 3, 4), (1, 3, 4, 2))
    .set 110 (.ein [(31, [0, 1, 2]), (0, [0, 3, 4])] [1, 3, 4, 2]) 1 1,
    -- 4681: tmp201 = einsum(tmp101, (0, 1, 2), v.baa.xvv, (0, 3, 4), (1, 2, 3, 4))
    .set 111 (.ein [(20, [0, 1, 2]), (7, [0, 3, 4])] [1, 2, 3, 4]) 1 1,
    -- 4682: tmp199 = einsum(tmp33, (0, 1), t1.aa, (2, 1), (2, 0))
    .set 112 (.ein [(47, [0, 1]), (1, [2, 1])] [2, 0]) 1 1,
    -- 4683: tmp198 = einsum(tmp197, (0, 1), t1.bb, (2, 1), (2, 0))
    .set 113 (.ein [(48, [0, 1]), (2, [2, 1])] [2, 0]) 1 1,
    -- 4684: tmp196 = einsum(tmp109, (0, 1, 2), tmp39, (0, 2, 3), (1, 3))
    .set 114 (.ein [(19, [0, 1, 2]), (32, [0, 2, 3])] [1, 3]) 1 1,
    -- 4685: del tmp109
    .del 19,
    -- 4686: tmp195 = einsum(tmp194, (0, 1), t1.bb, (2, 1), (2, 0))
    .set 115 (.ein [(49, [0, 1]), (2, [2, 1])] [2, 0]) 1 1,
    -- 4687: tmp192 = einsum(tmp30, (0, 1, 2), tmp101, (0, 3, 1), (3, 2))
    .set 116 (.ein [(31, [0, 1, 2]), (20, [0, 3, 1])] [3, 2]) 1 1,
    -- 4688: del tmp101
    .del 20,
    -- 4689: tmp190 = einsum(t1.aa, (0, 1), tmp29, (2, 1), (0, 2))
    .set 117 (.ein [(1, [0, 1]), (50, [2, 1])] [0, 2]) 1 1,
    -- 4690: tmp185 = einsum(tmp184, (0, 1), t1.bb, (1, 2), (0, 2))
    .set 118 (.ein [(51, [0, 1]), (2, [1, 2])] [0, 2]) 1 1,
    -- 4691: del tmp184
    .del 51,
    -- 4692: tmp182 = einsum(tmp181, (0, 1), t1.aa, (1, 2), (0, 2))
    .set 119 (.ein [(52, [0, 1]), (1, [1, 2])] [0, 2]) 1 1,
    -- 4693: del tmp181
    .del 52,
    -- 4694: tmp180 = einsum(t1.bb, (0, 1), tmp179, (2, 0), (2, 1))
    .set 120 (.ein [(2, [0, 1]), (53, [2, 0])] [2, 1]) 1 1,
    -- 4695: del tmp179
    .del 53,
    -- 4696: tmp178 = einsum(tmp177, (0, 1), t1.bb, (1, 2), (0, 2))
    .set 121 (.ein [(54, [0, 1]), (2, [1, 2])] [0, 2]) 1 1,
    -- 4697: del tmp177
    .del 54,
    -- 4698: tmp175 = einsum(tmp174, (0, 1), t1.aa, (1, 2), (0, 2))
    .set 122 (.ein [(55, [0, 1]), (1, [1, 2])] [0, 2]) 1 1,
    -- 4699: del tmp174
    .del 55,
    -- 4700: tmp172 = einsum(tmp171, (0, 1), t1.aa, (1, 2), (0, 2))
    .set 123 (.ein [(56, [0, 1]), (1, [1, 2])] [0, 2]) 1 1,
    -- 4701: del tmp171
    .del 56,
    -- 4702: tmp170 = einsum(t2.abab, (0, 1, 2, 3), tmp49, (0, 4, 5, 3), (1, 4, 2, 5))
    .set 124 (.ein [(4, [0, 1, 2, 3]), (33, [0, 4, 5, 3])] [1, 4, 2, 5]) 1 1,
    -- 4703: tmp168 = einsum(tmp81, (0, 1, 2), v.baa.xov, (0, 3, 4), (3, 1, 4, 2))
    .set 125 (.ein [(29, [0, 1, 2]), (0, [0, 3, 4])] [3, 1, 4, 2]) 1 1,
    -- 4704: tmp166 = einsum(v.baa.xov, (0, 1, 2), tmp60, (0, 3, 4), (3, 1, 4, 2))
    .set 126 (.ein [(0, [0, 1, 2]), (27, [0, 3, 4])] [3, 1, 4, 2]) 1 1,
    -- 4705: tmp165 = einsum(tmp44, (0, 1, 2, 3), t2.abab, (0, 4, 3, 5), (1, 4, 2, 5))
    .set 127 (.ein [(57, [0, 1, 2, 3]), (4, [0, 4, 3, 5])] [1, 4, 2, 5]) 1 1,
    -- 4706: tmp163 = einsum(tmp44, (0, 1, 2, 3), t2.aaaa, (4, 0, 5, 3), (4, 1, 5, 2))
    .set 128 (.ein [(57, [0, 1, 2, 3]), (6, [4, 0, 5, 3])] [4, 1, 5, 2]) 1 1,
    -- 4707: tmp162 = einsum(tmp84, (0, 1, 2), v.baa.xov, (0, 3, 4), (3, 1, 4, 2))
    .set 129 (.ein [(28, [0, 1, 2]), (0, [0, 3, 4])] [3, 1, 4, 2]) 1 1,
    -- 4708: tmp160 = einsum(v.baa.xov, (0, 1, 2), tmp57, (0, 3, 4), (3, 1, 4, 2))
    .set 130 (.ein [(0, [0, 1, 2]), (30, [0, 3, 4])] [3, 1, 4, 2]) 1 1,
    -- 4709: tmp158 = einsum(tmp157, (0, 1), t1.aa, (1, 2), (0, 2))
    .set 131 (.ein [(58, [0, 1]), (1, [1, 2])] [0, 2]) 1 1,
    -- 4710: tmp155 = einsum(tmp154, (0, 1), t1.bb, (1, 2), (0, 2))
    .set 132 (.ein [(59, [0, 1]), (2, [1, 2])] [0, 2]) 1 1,
    -- 4711: tmp152 = einsum(t1.bb, (0, 1), tmp151, (2, 0), (2, 1))
    .set 133 (.ein [(2, [0, 1]), (60, [2, 0])] [2, 1]) 1 1,
    -- 4712: tmp149 = einsum(tmp148, (0, 1), t1.aa, (1, 2), (0, 2))
    .set 134 (.ein [(61, [0, 1]), (1, [1, 2])] [0, 2]) 1 1,
    -- 4713: tmp146 = einsum(t2.abab, (0, 1, 2, 3), tmp141, (0, 4, 1, 5), (4, 2, 5, 3))
    .set 135 (.ein [(4, [0, 1, 2, 3]), (62, [0, 4, 1, 5])] [4, 2, 5, 3]) 1 1,
    -- 4714: tmp144 = einsum(tmp132, (0, 1, 2, 3), t2.aaaa, (1, 2, 4, 5), (0, 4, 5, 3))
    .set 136 (.ein [(63, [0, 1, 2, 3]), (6, [1, 2, 4, 5])] [0, 4, 5, 3]) 1 1,
    -- 4715: tmp142 = einsum(t2.abab, (0, 1, 2, 3), tmp141, (0, 4, 1, 2), (4, 3))
    .set 137 (.ein [(4, [0, 1, 2, 3]), (62, [0, 4, 1, 2])] [4, 3]) 1 1,
    -- 4716: tmp139 = einsum(tmp138, (0, 1, 2, 3), t2.abab, (1, 2, 4, 3), (0, 4))
    .set 138 (.ein [(35, [0, 1, 2, 3]), (4, [1, 2, 4, 3])] [0, 4]) 1 1,
    -- 4717: tmp136 = einsum(t2.bbbb, (0, 1, 2, 3), tmp135, (4, 1, 0, 3), (4, 2))
    .set 139 (.ein [(5, [0, 1, 2, 3]), (36, [4, 1, 0, 3])] [4, 2]) 1 1,
    -- 4718: tmp133 = einsum(tmp132, (0, 1, 2, 3), t2.aaaa, (2, 1, 4, 3), (0, 4))
    .set 140 (.ein [(63, [0, 1, 2, 3]), (6, [2, 1, 4, 3])] [0, 4]) 1 1,
    -- 4719: tmp124 = einsum(t2.bbbb, (0, 1, 2, 3), tmp41, (1, 3), (0, 2))
    .set 141 (.ein [(5, [0, 1, 2, 3]), (21, [1, 3])] [0, 2]) 1 1,
    -- 4720: tmp122 = einsum(t2.abab, (0, 1, 2, 3), tmp41, (1, 3), (0, 2))
    .set 142 (.ein [(4, [0, 1, 2, 3]), (21, [1, 3])] [0, 2]) 1 1,
    -- 4721: tmp121 = einsum(t2.abab, (0, 1, 2, 3), tmp42, (0, 2), (1, 3))
    .set 143 (.ein [(4, [0, 1, 2, 3]), (22, [0, 2])] [1, 3]) 1 1,
    -- 4722: tmp119 = einsum(tmp42, (0, 1), t2.aaaa, (2, 0, 3, 1), (2, 3))
    .set 144 (.ein [(22, [0, 1]), (6, [2, 0, 3, 1])] [2, 3]) 1 1,
    -- 4723: tmp117 = einsum(t2.bbbb, (0, 1, 2, 3), tmp38, (1, 3), (0, 2))
    .set 145 (.ein [(5, [0, 1, 2, 3]), (23, [1, 3])] [0, 2]) 1 1,
    -- 4724: tmp115 = einsum(t2.abab, (0, 1, 2, 3), tmp38, (1, 3), (0, 2))
    .set 146 (.ein [(4, [0, 1, 2, 3]), (23, [1, 3])] [0, 2]) 1 1,
    -- 4725: tmp113 = einsum(tmp110, (0, 1), t2.bbbb, (2, 0, 3, 1), (2, 3))
    .set 147 (.ein [(24, [0, 1]), (5, [2, 0, 3, 1])] [2, 3]) 1 1,
    -- 4726: tmp111 = einsum(t2.abab, (0, 1, 2, 3), tmp110, (1, 3), (0, 2))
    .set 148 (.ein [(4, [0, 1, 2, 3]), (24, [1, 3])] [0, 2]) 1 1,
    -- 4727: tmp108 = einsum(t2.abab, (0, 1, 2, 3), tmp34, (0, 2), (1, 3))
    .set 149 (.ein [(4, [0, 1, 2, 3]), (25, [0, 2])] [1, 3]) 1 1,
    -- 4728: tmp106 = einsum(t2.aaaa, (0, 1, 2, 3), tmp34, (1, 3), (0, 2))
    .set 150 (.ein [(6, [0, 1, 2, 3]), (25, [1, 3])] [0, 2]) 1 1,
    -- 4729: tmp105 = einsum(t2.abab, (0, 1, 2, 3), tmp102, (0, 2), (1, 3))
    .set 151 (.ein [(4, [0, 1, 2, 3]), (26, [0, 2])] [1, 3]) 1 1,
    -- 4730: tmp103 = einsum(tmp102, (0, 1), t2.aaaa, (2, 0, 3, 1), (2, 3))
    .set 152 (.ein [(26, [0, 1]), (6, [2, 0, 3, 1])] [2, 3]) 1 1,
    -- 4731: tmp100 = einsum(tmp99, (0, 1, 2, 3), t2.abab, (0, 4, 5, 3), (4, 5, 1, 2))
    .set 153 (.ein [(64, [0, 1, 2, 3]), (4, [0, 4, 5, 3])] [4, 5, 1, 2]) 1 1,
    -- 4732: tmp97 = einsum(tmp81, (0, 1, 2), v.baa.xvv, (0, 3, 4), (1, 3, 4, 2))
    .set 154 (.ein [(29, [0, 1, 2]), (7, [0, 3, 4])] [1, 3, 4, 2]) 1 1,
    -- 4733: tmp95 = einsum(v.baa.xvv, (0, 1, 2), tmp60, (0, 3, 4), (3, 4, 1, 2))
    .set 155 (.ein [(7, [0, 1, 2]), (27, [0, 3, 4])] [3, 4, 1, 2]) 1 1,
    -- 4734: tmp94 = einsum(t2.abab, (0, 1, 2, 3), tmp24, (0, 2, 4, 5), (1, 5, 4, 3))
    .set 156 (.ein [(4, [0, 1, 2, 3]), (65, [0, 2, 4, 5])] [1, 5, 4, 3]) 1 1,
    -- 4735: tmp92 = einsum(t2.aaaa, (0, 1, 2, 3), tmp24, (1, 4, 3, 5), (0, 2, 5, 4))
    .set 157 (.ein [(6, [0, 1, 2, 3]), (65, [1, 4, 3, 5])] [0, 2, 5, 4]) 1 1,
    -- 4736: tmp91 = einsum(tmp84, (0, 1, 2), v.baa.xvv, (0, 3, 4), (1, 3, 4, 2))
    .set 158 (.ein [(28, [0, 1, 2]), (7, [0, 3, 4])] [1, 3, 4, 2]) 1 1,
    -- 4737: tmp89 = einsum(tmp57, (0, 1, 2), v.baa.xvv, (0, 3, 4), (1, 2, 3, 4))
    .set 159 (.ein [(30, [0, 1, 2]), (7, [0, 3, 4])] [1, 2, 3, 4]) 1 1,
    -- 4738: tmp87 = einsum(v.baa.xvv, (0, 1, 2), tmp60, (0, 3, 2), (3, 1))
    .set 160 (.ein [(7, [0, 1, 2]), (27, [0, 3, 2])] [3, 1]) 1 1,
    -- 4739: tmp85 = einsum(v.bbb.xvv, (0, 1, 2), tmp84, (0, 3, 2), (3, 1))
    .set 161 (.ein [(8, [0, 1, 2]), (28, [0, 3, 2])] [3, 1]) 1 1,
    -- 4740: tmp82 = einsum(tmp81, (0, 1, 2), v.bbb.xvv, (0, 3, 2), (1, 3)) * -1
    .set 162 (.ein [(29, [0, 1, 2]), (8, [0, 3, 2])] [1, 3]) (-1) 1,
    -- 4741: tmp79 = einsum(v.baa.xvv, (0, 1, 2), tmp57, (0, 3, 2), (3, 1)) * -1
    .set 163 (.ein [(7, [0, 1, 2]), (30, [0, 3, 2])] [3, 1]) (-1) 1,
    -- 4742: tmp77 = einsum(t2.abab, (0, 1, 2, 3), tmp69, (0, 4, 1, 5), (4, 2, 5, 3))
    .set 164 (.ein [(4, [0, 1, 2, 3]), (66, [0, 4, 1, 5])] [4, 2, 5, 3]) 1 1,
    -- 4743: tmp75 = einsum(tmp63, (0, 1, 2, 3), t2.aaaa, (1, 2, 4, 5), (0, 4, 5, 3))
    .set 165 (.ein [(67, [0, 1, 2, 3]), (6, [1, 2, 4, 5])] [0, 4, 5, 3]) 1 1,
    -- 4744: tmp73 = einsum(tmp72, (0, 1, 2, 3), t2.abab, (1, 2, 4, 3), (0, 4))
    .set 166 (.ein [(39, [0, 1, 2, 3]), (4, [1, 2, 4, 3])] [0, 4]) 1 1,
    -- 4745: tmp70 = einsum(t2.abab, (0, 1, 2, 3), tmp69, (0, 4, 1, 2), (4, 3))
    .set 167 (.ein [(4, [0, 1, 2, 3]), (66, [0, 4, 1, 2])] [4, 3]) 1 1,
    -- 4746: tmp67 = einsum(t2.bbbb, (0, 1, 2, 3), tmp66, (4, 0, 1, 3), (4, 2))
    .set 168 (.ein [(5, [0, 1, 2, 3]), (40, [4, 0, 1, 3])] [4, 2]) 1 1,
    -- 4747: tmp64 = einsum(tmp63, (0, 1, 2, 3), t2.aaaa, (1, 2, 4, 3), (0, 4))
    .set 169 (.ein [(67, [0, 1, 2, 3]), (6, [1, 2, 4, 3])] [0, 4]) 1 1,
    -- 4748: tmp61 = einsum(v.baa.xov, (0, 1, 2), tmp60, (0, 1, 3), (3, 2))
    .set 170 (.ein [(0, [0, 1, 2]), (27, [0, 1, 3])] [3, 2]) 1 1,
    -- 4749: tmp58 = einsum(tmp57, (0, 1, 2), v.baa.xov, (0, 1, 3), (2, 3))
    .set 171 (.ein [(30, [0, 1, 2]), (0, [0, 1, 3])] [2, 3]) 1 1,
    -- 4750: tmp55 = einsum(v.baa.xvv, (0, 1, 2), tmp39, (0, 3, 4), (3, 1, 2, 4))
    .set 172 (.ein [(7, [0, 1, 2]), (32, [0, 3, 4])] [3, 1, 2, 4]) 1 1,
    -- 4751: tmp53 = einsum(tmp30, (0, 1, 2), v.baa.xvv, (0, 3, 4), (1, 3, 4, 2))
    .set 173 (.ein [(31, [0, 1, 2]), (7, [0, 3, 4])] [1, 3, 4, 2]) 1 1,
    -- 4752: tmp52 = einsum(v.bbb.xoo, (0, 1, 2), v.baa.xvv, (0, 3, 4), (1, 2, 3, 4))
    .set 174 (.ein [(10, [0, 1, 2]), (7, [0, 3, 4])] [1, 2, 3, 4]) 1 1,
    -- 4753: tmp47 = einsum(v.baa.xvv, (0, 1, 2), v.baa.xoo, (0, 3, 4), (3, 4, 1, 2))
    .set 175 (.ein [(7, [0, 1, 2]), (9, [0, 3, 4])] [3, 4, 1, 2]) 1 1,
    -- 4754: tmp40 = einsum(v.bbb.xoo, (0, 1, 2), tmp39, (0, 2, 3), (1, 3))
    .set 176 (.ein [(10, [0, 1, 2]), (32, [0, 2, 3])] [1, 3]) 1 1,
    -- 4755: del tmp39
    .del 32,
    -- 4756: tmp36 = einsum(tmp30, (0, 1, 2), v.baa.xoo, (0, 3, 1), (3, 2))
    .set 177 (.ein [(31, [0, 1, 2]), (9, [0, 3, 1])] [3, 2]) 1 1,
    -- 4757: tmp31 = einsum(v.baa.xov, (0, 1, 2), tmp30, (0, 1, 3), (2, 3))
    .set 178 (.ein [(0, [0, 1, 2]), (31, [0, 1, 3])] [2, 3]) 1 1,
    -- 4758: del tmp30
    .del 31,
    -- 4759: tmp23 = einsum(tmp22, (0, 1), t1.bb, (0, 2), (1, 2))
    .set 179 (.ein [(68, [0, 1]), (2, [0, 2])] [1, 2]) 1 1,
    -- 4760: tmp20 = einsum(tmp19, (0, 1), t1.aa, (0, 2), (1, 2))
    .set 180 (.ein [(69, [0, 1]), (1, [0, 2])] [1, 2]) 1 1,
    -- 4761: tmp13 = einsum(f.bb.ov, (0, 1), t2.bbbb, (2, 0, 3, 1), (2, 3))
    .set 181 (.ein [(11, [0, 1]), (5, [2, 0, 3, 1])] [2, 3]) 1 1,
    -- 4762: tmp11 = einsum(t2.abab, (0, 1, 2, 3), f.bb.ov, (1, 3), (0, 2))
    .set 182 (.ein [(4, [0, 1, 2, 3]), (11, [1, 3])] [0, 2]) 1 1,
    -- 4763: tmp10 = einsum(t2.abab, (0, 1, 2, 3), f.aa.ov, (0, 2), (1, 3))
    .set 183 (.ein [(4, [0, 1, 2, 3]), (12, [0, 2])] [1, 3]) 1 1,
    -- 4764: tmp8 = einsum(f.aa.ov, (0, 1), t2.aaaa, (2, 0, 3, 1), (2, 3))
    .set 184 (.ein [(12, [0, 1]), (6, [2, 0, 3, 1])] [2, 3]) 1 1,
    -- 4765: tmp7 = einsum(f.bb.vv, (0, 1), t1.bb, (2, 1), (2, 0))
    .set 185 (.ein [(13, [0, 1]), (2, [2, 1])] [2, 0]) 1 1,
    -- 4766: tmp5 = einsum(f.aa.vv, (0, 1), t1.aa, (2, 1), (2, 0))
    .set 186 (.ein [(14, [0, 1]), (1, [2, 1])] [2, 0]) 1 1,
    -- 4767: tmp4 = einsum(t1.bb, (0, 1), f.bb.oo, (2, 0), (2, 1))
    .set 187 (.ein [(2, [0, 1]), (15, [2, 0])] [2, 1]) 1 1,
    -- 4768: tmp2 = einsum(f.aa.oo, (0, 1), t1.aa, (1, 2), (0, 2))
    .set 188 (.ein [(16, [0, 1]), (1, [1, 2])] [0, 2]) 1 1
  ]
  ret := [(chars! "tmp10", 183), (chars! "tmp100", 153), (chars! "tmp102", 26), (chars! "tmp103", 152), (chars! "tmp105", 151), (chars! "tmp106", 150), (chars! "tmp108", 149), (chars! "tmp11", 182), (chars! "tmp110", 24), (chars! "tmp111", 148), (chars! "tmp113", 147), (chars! "tmp115", 146), (chars! "tmp117", 145), (chars! "tmp119", 144), (chars! "tmp121", 143), (chars! "tmp122", 142), (chars! "tmp124", 141), (chars! "tmp13", 181), (chars! "tmp132", 63), (chars! "tmp133", 140), (chars! "tmp135", 36), (chars! "tmp136", 139), (chars! "tmp138", 35), (chars! "tmp139", 138), (chars! "tmp141", 62), (chars! "tmp142", 137), (chars! "tmp144", 136), (chars! "tmp146", 135), (chars! "tmp148", 61), (chars! "tmp149", 134), (chars! "tmp151", 60), (chars! "tmp152", 133), (chars! "tmp154", 59), (chars! "tmp155", 132), (chars! "tmp157", 58), (chars! "tmp158", 131), (chars! "tmp160", 130), (chars! "tmp162", 129), (chars! "tmp163", 128), (chars! "tmp165", 127), (chars! "tmp166", 126), (chars! "tmp168", 125), (chars! "tmp170", 124), (chars! "tmp172", 123), (chars! "tmp175", 122), (chars! "tmp178", 121), (chars! "tmp180", 120), (chars! "tmp182", 119), (chars! "tmp185", 118), (chars! "tmp19", 69), (chars! "tmp190", 117), (chars! "tmp192", 116), (chars! "tmp194", 49), (chars! "tmp195", 115), (chars! "tmp196", 114), (chars! "tmp197", 48), (chars! "tmp198", 113), (chars! "tmp199", 112), (chars! "tmp2", 188), (chars! "tmp20", 180), (chars! "tmp201", 111), (chars! "tmp203", 110), (chars! "tmp205", 109), (chars! "tmp206", 108), (chars! "tmp208", 107), (chars! "tmp211", 106), (chars! "tmp214", 105), (chars! "tmp216", 104), (chars! "tmp218", 103), (chars! "tmp22", 68), (chars! "tmp221", 102), (chars! "tmp23", 179), (chars! "tmp236", 38), (chars! "tmp239", 101), (chars! "tmp24", 65), (chars! "tmp243", 34), (chars! "tmp246", 100), (chars! "tmp250", 99), (chars! "tmp251", 98), (chars! "tmp253", 97), (chars! "tmp255", 96), (chars! "tmp257", 95), (chars! "tmp26", 37), (chars! "tmp263", 94), (chars! "tmp265", 93), (chars! "tmp271", 92), (chars! "tmp272", 91), (chars! "tmp274", 90), (chars! "tmp275", 89), (chars! "tmp277", 88), (chars! "tmp279", 87), (chars! "tmp281", 86), (chars! "tmp29", 50), (chars! "tmp301", 85), (chars! "tmp303", 84), (chars! "tmp309", 83), (chars! "tmp31", 178), (chars! "tmp310", 82), (chars! "tmp312", 81), (chars! "tmp313", 80), (chars! "tmp315", 79), (chars! "tmp317", 78), (chars! "tmp319", 77), (chars! "tmp33", 47), (chars! "tmp330", 76), (chars! "tmp332", 75), (chars! "tmp334", 74), (chars! "tmp335", 73), (chars! "tmp34", 25), (chars! "tmp36", 177), (chars! "tmp365", 72), (chars! "tmp38", 23), (chars! "tmp387", 71), (chars! "tmp4", 187), (chars! "tmp40", 176), (chars! "tmp41", 21), (chars! "tmp42", 22), (chars! "tmp430", 70), (chars! "tmp44", 57), (chars! "tmp47", 175), (chars! "tmp49", 33), (chars! "tmp5", 186), (chars! "tmp52", 174), (chars! "tmp53", 173), (chars! "tmp55", 172), (chars! "tmp57", 30), (chars! "tmp58", 171), (chars! "tmp60", 27), (chars! "tmp61", 170), (chars! "tmp63", 67), (chars! "tmp64", 169), (chars! "tmp66", 40), (chars! "tmp67", 168), (chars! "tmp69", 66), (chars! "tmp7", 185), (chars! "tmp70", 167), (chars! "tmp72", 39), (chars! "tmp73", 166), (chars! "tmp75", 165), (chars! "tmp77", 164), (chars! "tmp79", 163), (chars! "tmp8", 184), (chars! "tmp81", 29), (chars! "tmp82", 162), (chars! "tmp84", 28), (chars! "tmp85", 161), (chars! "tmp87", 160), (chars! "tmp89", 159), (chars! "tmp91", 158), (chars! "tmp92", 157), (chars! "tmp94", 156), (chars! "tmp95", 155), (chars! "tmp97", 154), (chars! "tmp99", 64)]

/-- codegen/UDFCC2.py:4772-5424 `hbar_lmatvec_ea`. -/
def hbar_lmatvec_ea : GenFun where
  args := [chars! "ints.tmp84", chars! "v.bbb.xov", chars! "ints.tmp81", chars! "ints.tmp60", chars! "v.baa.xov", chars! "ints.tmp57", chars! "t2.abab", chars! "r2.bab", chars! "r2.aaa", chars! "t2.aaaa", chars! "ints.tmp246", chars! "ints.tmp313", chars! "r2.aba", chars! "r2.bbb", chars! "t1.bb", chars! "ints.tmp255", chars! "ints.tmp257", chars! "f.bb.vv", chars! "t2.bbbb", chars! "ints.tmp58", chars! "ints.tmp61", chars! "f.aa.vv", chars! "ints.tmp47", chars! "ints.tmp163", chars! "t1.aa", chars! "ints.tmp243", chars! "f.bb.ov", chars! "r1.b", chars! "ints.tmp236", chars! "ints.tmp312", chars! "f.aa.ov", chars! "ints.tmp44", chars! "r1.a", chars! "ints.tmp24", chars! "ints.tmp165", chars! "f.bb.oo", chars! "ints.tmp151", chars! "ints.tmp154", chars! "ints.tmp22", chars! "ints.tmp170", chars! "ints.tmp52", chars! "ints.tmp250", chars! "ints.tmp319", chars! "f.aa.oo", chars! "ints.tmp148", chars! "ints.tmp157", chars! "ints.tmp19", chars! "ints.tmp135", chars! "ints.tmp66", chars! "ints.tmp103", chars! "ints.tmp111", chars! "ints.tmp133", chars! "ints.tmp139", chars! "ints.tmp149", chars! "ints.tmp158", chars! "ints.tmp175", chars! "ints.tmp182", chars! "ints.tmp192", chars! "ints.tmp20", chars! "ints.tmp211", chars! "ints.tmp218", chars! "ints.tmp2", chars! "ints.tmp36", chars! "ints.tmp64", chars! "ints.tmp73", chars! "ints.tmp79", chars! "ints.tmp106", chars! "ints.tmp115", chars! "ints.tmp119", chars! "ints.tmp11", chars! "ints.tmp122", chars! "ints.tmp172", chars! "ints.tmp190", chars! "ints.tmp199", chars! "ints.tmp208", chars! "ints.tmp34", chars! "ints.tmp42", chars! "ints.tmp5", chars! "ints.tmp87", chars! "ints.tmp8", chars! "ints.tmp310", chars! "ints.tmp317", chars! "ints.tmp332", chars! "ints.tmp330", chars! "ints.tmp253", chars! "ints.tmp265", chars! "ints.tmp271", chars! "ints.tmp277", chars! "ints.tmp303", chars! "ints.tmp99", chars! "ints.tmp274", chars! "ints.tmp281", chars! "ints.tmp251", chars! "ints.tmp275", chars! "ints.tmp301", chars! "ints.tmp263", chars! "ints.tmp272", chars! "ints.tmp279", chars! "ints.tmp38", chars! "ints.tmp41", chars! "ints.tmp110", chars! "ints.tmp309", chars! "ints.tmp315", chars! "ints.tmp335", chars! "ints.tmp49", chars! "ints.tmp334", chars! "ints.tmp138", chars! "ints.tmp72", chars! "ints.tmp239", chars! "ints.tmp194", chars! "ints.tmp197", chars! "ints.tmp105", chars! "ints.tmp113", chars! "ints.tmp136", chars! "ints.tmp142", chars! "ints.tmp152", chars! "ints.tmp155", chars! "ints.tmp180", chars! "ints.tmp185", chars! "ints.tmp196", chars! "ints.tmp216", chars! "ints.tmp221", chars! "ints.tmp23", chars! "ints.tmp40", chars! "ints.tmp4", chars! "ints.tmp67", chars! "ints.tmp70", chars! "ints.tmp82", chars! "ints.tmp108", chars! "ints.tmp10", chars! "ints.tmp117", chars! "ints.tmp121", chars! "ints.tmp124", chars! "ints.tmp13", chars! "ints.tmp178", chars! "ints.tmp195", chars! "ints.tmp198", chars! "ints.tmp214", chars! "ints.tmp7", chars! "ints.tmp85", chars! "ints.tmp146", chars! "ints.tmp26", chars! "ints.tmp55", chars! "ints.tmp77", chars! "ints.tmp91", chars! "ints.tmp97", chars! "ints.tmp100", chars! "ints.tmp94", chars! "ints.tmp31", chars! "ints.tmp29", chars! "ints.tmp33", chars! "ints.tmp132", chars! "ints.tmp63", chars! "ints.tmp205", chars! "ints.tmp162", chars! "ints.tmp168", chars! "ints.tmp206", chars! "ints.tmp102", chars! "ints.tmp160", chars! "ints.tmp166", chars! "ints.tmp203", chars! "ints.tmp201", chars! "ints.tmp141", chars! "ints.tmp69", chars! "ints.tmp144", chars! "ints.tmp53", chars! "ints.tmp92", chars! "ints.tmp75", chars! "ints.tmp89", chars! "ints.tmp95", chars! "ints.tmp430", chars! "ints.tmp387", chars! "ints.tmp365"]
  body := [
    -- 4802: tmp46 = np.copy(ints.tmp84)
    .set 173 (.cp 0) 1 1,
    -- 4803: tmp46 += v.bbb.xov
    .add 173 (.cp 1) 1 1,
    -- 4804: tmp46 += ints.tmp81 * 2
    .add 173 (.cp 2) 2 1,
    -- 4805: tmp44 = np.copy(ints.tmp60)
    .set 174 (.cp 3) 1 1,
    -- 4806: tmp44 += v.baa.xov
    .add 174 (.cp 4) 1 1,
    -- 4807: tmp44 += ints.tmp57 * 2
    .add 174 (.cp 5) 2 1,
    -- 4808: tmp60 = np.copy(ints.tmp57) * 2
    .set 175 (.cp 5) 2 1,
    -- 4809: del ints.tmp57
    .del 5,
    -- 4810: tmp60 += ints.tmp60
    .add 175 (.cp 3) 1 1,
    -- 4811: del ints.tmp60
    .del 3,
    -- 4812: tmp60 += v.baa.xov
    .add 175 (.cp 4) 1 1,
    -- 4813: tmp16 = einsum(t2.abab, (0, 1, 2, 3), r2.bab, (3, 2, 1), (0,)) * -1
    .set 176 (.ein [(6, [0, 1, 2, 3]), (7, [3, 2, 1])] [0]) (-1) 1,
    -- 4814: tmp15 = einsum(r2.aaa, (0, 1, 2), t2.aaaa, (3, 2, 0, 1), (3,))
    .set 177 (.ein [(8, [0, 1, 2]), (9, [3, 2, 0, 1])] [3]) 1 1,
    -- 4815: tmp47 = einsum(r2.bab, (0, 1, 2), tmp46, (3, 2, 0), (3, 1)) * -1
    .set 178 (.ein [(7, [0, 1, 2]), (173, [3, 2, 0])] [3, 1]) (-1) 1,
    -- 4816: tmp45 = einsum(r2.aaa, (0, 1, 2), tmp44, (3, 2, 1), (3, 0)) * -1
    .set 179 (.ein [(8, [0, 1, 2]), (174, [3, 2, 1])] [3, 0]) (-1) 1,
    -- 4817: del tmp44
    .del 174,
    -- 4818: tmp70 = np.copy(ints.tmp246)
    .set 180 (.cp 10) 1 1,
    -- 4819: tmp70 += ints.tmp313 * 2
    .add 180 (.cp 11) 2 1,
    -- 4820: tmp34 = einsum(t2.abab, (0, 1, 2, 3), r2.aba, (2, 3, 0), (1,))
    .set 181 (.ein [(6, [0, 1, 2, 3]), (12, [2, 3, 0])] [1]) 1 1,
    -- 4821: tmp85 = einsum(tmp46, (0, 1, 2), r2.bbb, (3, 2, 1), (0, 3)) * -1
    .set 182 (.ein [(173, [0, 1, 2]), (13, [3, 2, 1])] [0, 3]) (-1) 1,
    -- 4822: del tmp46
    .del 173,
    -- 4823: tmp21 = einsum(t1.bb, (0, 1), r2.bbb, (2, 1, 3), (3, 0, 2))
    .set 183 (.ein [(14, [0, 1]), (13, [2, 1, 3])] [3, 0, 2]) 1 1,
    -- 4824: tmp78 = np.copy(ints.tmp255)
    .set 184 (.cp 15) 1 1,
    -- 4825: tmp78 += ints.tmp257 * 0.5
    .add 184 (.cp 16) 1 2,
    -- 4826: tmp78 += f.bb.vv * -0.5
    .add 184 (.cp 17) (-1) 2,
    -- 4827: tmp61 = einsum(r2.aba, (0, 1, 2), tmp60, (3, 2, 0), (3, 1))
    .set 185 (.ein [(12, [0, 1, 2]), (175, [3, 2, 0])] [3, 1]) 1 1,
    -- 4828: tmp35 = einsum(t2.bbbb, (0, 1, 2, 3), r2.bbb, (2, 3, 1), (0,))
    .set 186 (.ein [(18, [0, 1, 2, 3]), (13, [2, 3, 1])] [0]) 1 1,
    -- 4829: tmp51 = np.copy(ints.tmp58)
    .set 187 (.cp 19) 1 1,
    -- 4830: tmp51 += ints.tmp61 * 0.5
    .add 187 (.cp 20) 1 2,
    -- 4831: tmp51 += f.aa.vv * -0.5
    .add 187 (.cp 21) (-1) 2,
    -- 4832: tmp53 = np.copy(tmp15) * 2
    .set 188 (.cp 177) 2 1,
    -- 4833: tmp53 += tmp16
    .add 188 (.cp 176) 1 1,
    -- 4834: tmp42 = np.copy(ints.tmp47)
    .set 189 (.cp 22) 1 1,
    -- 4835: tmp42 += ints.tmp163 * 2
    .add 189 (.cp 23) 2 1,
    -- 4836: tmp48 = np.copy(tmp45) * -2
    .set 190 (.cp 179) (-2) 1,
    -- 4837: del tmp45
    .del 179,
    -- 4838: tmp48 += tmp47
    .add 190 (.cp 178) 1 1,
    -- 4839: del tmp47
    .del 178,
    -- 4840: tmp2 = einsum(t1.aa, (0, 1), r2.aaa, (2, 1, 3), (3, 0, 2))
    .set 191 (.ein [(24, [0, 1]), (8, [2, 1, 3])] [3, 0, 2]) 1 1,
    -- 4841: tmp84 = einsum(tmp70, (0, 1, 2, 3), r2.bbb, (4, 2, 0), (1, 4, 3)) * -1
    .set 192 (.ein [(180, [0, 1, 2, 3]), (13, [4, 2, 0])] [1, 4, 3]) (-1) 1,
    -- 4842: tmp83 = einsum(tmp34, (0,), ints.tmp243, (0, 1, 2, 3), (1, 2, 3))
    .set 193 (.ein [(181, [0]), (25, [0, 1, 2, 3])] [1, 2, 3]) 1 1,
    -- 4843: tmp86 = einsum(tmp85, (0, 1), v.bbb.xov, (0, 2, 3), (2, 3, 1)) * -1
    .set 194 (.ein [(182, [0, 1]), (1, [0, 2, 3])] [2, 3, 1]) (-1) 1,
    -- 4844: del tmp85
    .del 182,
    -- 4845: tmp82 = einsum(f.bb.ov, (0, 1), tmp21, (2, 0, 3), (2, 1, 3))
    .set 195 (.ein [(26, [0, 1]), (183, [2, 0, 3])] [2, 1, 3]) 1 1,
    -- 4846: tmp81 = einsum(r1.b, (0,), ints.tmp236, (1, 2, 0, 3), (1, 2, 3))
    .set 196 (.ein [(27, [0]), (28, [1, 2, 0, 3])] [1, 2, 3]) 1 1,
    -- 4847: tmp79 = einsum(r2.bbb, (0, 1, 2), tmp78, (1, 3), (2, 0, 3)) * -4
    .set 197 (.ein [(13, [0, 1, 2]), (184, [1, 3])] [2, 0, 3]) (-4) 1,
    -- 4848: del tmp78
    .del 184,
    -- 4849: tmp77 = einsum(tmp61, (0, 1), v.bbb.xov, (0, 2, 3), (2, 3, 1))
    .set 198 (.ein [(185, [0, 1]), (1, [0, 2, 3])] [2, 3, 1]) 1 1,
    -- 4850: tmp75 = einsum(r2.aba, (0, 1, 2), ints.tmp312, (2, 3, 0, 4), (3, 4, 1))
    .set 199 (.ein [(12, [0, 1, 2]), (29, [2, 3, 0, 4])] [3, 4, 1]) 1 1,
    -- 4851: tmp76 = einsum(ints.tmp243, (0, 1, 2, 3), tmp35, (0,), (1, 2, 3))
    .set 200 (.ein [(25, [0, 1, 2, 3]), (186, [0])] [1, 2, 3]) 1 1,
    -- 4852: tmp66 = einsum(t1.bb, (0, 1), f.bb.ov, (0, 2), (2, 1))
    .set 201 (.ein [(14, [0, 1]), (26, [0, 2])] [2, 1]) 1 1,
    -- 4853: tmp62 = np.copy(ints.tmp81) * 2
    .set 202 (.cp 2) 2 1,
    -- 4854: del ints.tmp81
    .del 2,
    -- 4855: tmp62 += ints.tmp84
    .add 202 (.cp 0) 1 1,
    -- 4856: del ints.tmp84
    .del 0,
    -- 4857: tmp62 += v.bbb.xov
    .add 202 (.cp 1) 1 1,
    -- 4858: tmp64 = einsum(f.aa.ov, (0, 1), t1.aa, (0, 2), (1, 2))
    .set 203 (.ein [(30, [0, 1]), (24, [0, 2])] [1, 2]) 1 1,
    -- 4859: tmp52 = einsum(tmp51, (0, 1), r2.aaa, (2, 0, 3), (3, 2, 1)) * -4
    .set 204 (.ein [(187, [0, 1]), (8, [2, 0, 3])] [3, 2, 1]) (-4) 1,
    -- 4860: del tmp51
    .del 187,
    -- 4861: tmp54 = einsum(ints.tmp44, (0, 1, 2, 3), tmp53, (0,), (1, 2, 3))
    .set 205 (.ein [(31, [0, 1, 2, 3]), (188, [0])] [1, 2, 3]) 1 1,
    -- 4862: tmp43 = einsum(tmp42, (0, 1, 2, 3), r2.aaa, (4, 2, 0), (1, 4, 3)) * -1
    .set 206 (.ein [(189, [0, 1, 2, 3]), (8, [4, 2, 0])] [1, 4, 3]) (-1) 1,
    -- 4863: del tmp42
    .del 189,
    -- 4864: tmp49 = einsum(v.baa.xov, (0, 1, 2), tmp48, (0, 3), (1, 2, 3))
    .set 207 (.ein [(4, [0, 1, 2]), (190, [0, 3])] [1, 2, 3]) 1 1,
    -- 4865: del tmp48
    .del 190,
    -- 4866: tmp40 = einsum(f.aa.ov, (0, 1), tmp2, (2, 0, 3), (2, 1, 3))
    .set 208 (.ein [(30, [0, 1]), (191, [2, 0, 3])] [2, 1, 3]) 1 1,
    -- 4867: tmp39 = einsum(r1.a, (0,), ints.tmp24, (1, 2, 0, 3), (1, 2, 3))
    .set 209 (.ein [(32, [0]), (33, [1, 2, 0, 3])] [1, 2, 3]) 1 1,
    -- 4868: tmp41 = einsum(r2.bab, (0, 1, 2), ints.tmp165, (3, 2, 4, 0), (3, 4, 1)) * -1
    .set 210 (.ein [(7, [0, 1, 2]), (34, [3, 2, 4, 0])] [3, 4, 1]) (-1) 1,
    -- 4869: tmp25 = einsum(r2.aba, (0, 1, 2), t1.aa, (3, 0), (2, 3, 1))
    .set 211 (.ein [(12, [0, 1, 2]), (24, [3, 0])] [2, 3, 1]) 1 1,
    -- 4870: tmp6 = einsum(r2.bab, (0, 1, 2), t1.bb, (3, 0), (2, 3, 1)) * -1
    .set 212 (.ein [(7, [0, 1, 2]), (14, [3, 0])] [2, 3, 1]) (-1) 1,
    -- 4871: tmp74 = einsum(r2.bbb, (0, 1, 2), t2.bbbb, (3, 4, 0, 1), (2, 3, 4))
    .set 213 (.ein [(13, [0, 1, 2]), (18, [3, 4, 0, 1])] [2, 3, 4]) 1 1,
    -- 4872: tmp87 = np.copy(tmp81)
    .set 214 (.cp 196) 1 1,
    -- 4873: del tmp81
    .del 196,
    -- 4874: tmp87 += tmp82 * 2
    .add 214 (.cp 195) 2 1,
    -- 4875: del tmp82
    .del 195,
    -- 4876: tmp87 += tmp83
    .add 214 (.cp 193) 1 1,
    -- 4877: del tmp83
    .del 193,
    -- 4878: tmp87 += np.transpose(tmp84, (0, 2, 1)) * -2
    .add 214 (.tr 192 [0, 2, 1]) (-2) 1,
    -- 4879: del tmp84
    .del 192,
    -- 4880: tmp87 += np.transpose(tmp86, (0, 2, 1)) * 2
    .add 214 (.tr 194 [0, 2, 1]) 2 1,
    -- 4881: del tmp86
    .del 194,
    -- 4882: tmp80 = einsum(f.bb.ov, (0, 1), r1.b, (2,), (0, 1, 2))
    .set 215 (.ein [(26, [0, 1]), (27, [2])] [0, 1, 2]) 1 1,
    -- 4883: tmp80 += tmp75
    .add 215 (.cp 199) 1 1,
    -- 4884: del tmp75
    .del 199,
    -- 4885: tmp80 += tmp76 * 2
    .add 215 (.cp 200) 2 1,
    -- 4886: del tmp76
    .del 200,
    -- 4887: tmp80 += np.transpose(tmp77, (0, 2, 1))
    .add 215 (.tr 198 [0, 2, 1]) 1 1,
    -- 4888: del tmp77
    .del 198,
    -- 4889: tmp80 += np.transpose(tmp79, (0, 2, 1))
    .add 215 (.tr 197 [0, 2, 1]) 1 1,
    -- 4890: del tmp79
    .del 197,
    -- 4891: tmp73 = np.copy(f.bb.oo)
    .set 216 (.cp 35) 1 1,
    -- 4892: tmp73 += ints.tmp151 * 2
    .add 216 (.cp 36) 2 1,
    -- 4893: del ints.tmp151
    .del 36,
    -- 4894: tmp73 += ints.tmp154
    .add 216 (.cp 37) 1 1,
    -- 4895: del ints.tmp154
    .del 37,
    -- 4896: tmp73 += np.transpose(ints.tmp22, (1, 0))
    .add 216 (.tr 38 [1, 0]) 1 1,
    -- 4897: del ints.tmp22
    .del 38,
    -- 4898: tmp67 = np.copy(ints.tmp255) * 2
    .set 217 (.cp 15) 2 1,
    -- 4899: tmp67 += ints.tmp257
    .add 217 (.cp 16) 1 1,
    -- 4900: tmp67 += f.bb.vv * -1
    .add 217 (.cp 17) (-1) 1,
    -- 4901: tmp67 += np.transpose(tmp66, (1, 0))
    .add 217 (.tr 201 [1, 0]) 1 1,
    -- 4902: del tmp66
    .del 201,
    -- 4903: tmp72 = einsum(r2.aaa, (0, 1, 2), tmp60, (3, 2, 1), (3, 0)) * 2
    .set 218 (.ein [(8, [0, 1, 2]), (175, [3, 2, 1])] [3, 0]) 2 1,
    -- 4904: del tmp60
    .del 175,
    -- 4905: tmp72 += einsum(tmp62, (0, 1, 2), r2.bab, (2, 3, 1), (0, 3)) * -1
    .add 218 (.ein [(202, [0, 1, 2]), (7, [2, 3, 1])] [0, 3]) (-1) 1,
    -- 4906: tmp65 = np.copy(ints.tmp58) * 2
    .set 219 (.cp 19) 2 1,
    -- 4907: tmp65 += ints.tmp61
    .add 219 (.cp 20) 1 1,
    -- 4908: tmp65 += f.aa.vv * -1
    .add 219 (.cp 21) (-1) 1,
    -- 4909: tmp65 += np.transpose(tmp64, (1, 0))
    .add 219 (.tr 203 [1, 0]) 1 1,
    -- 4910: del tmp64
    .del 203,
    -- 4911: tmp71 = np.copy(ints.tmp170)
    .set 220 (.cp 39) 1 1,
    -- 4912: tmp71 += np.transpose(ints.tmp52, (0, 1, 3, 2)) * -1
    .add 220 (.tr 40 [0, 1, 3, 2]) (-1) 1,
    -- 4913: tmp69 = einsum(t2.abab, (0, 1, 2, 3), r2.bab, (3, 2, 4), (0, 4, 1)) * -1
    .set 221 (.ein [(6, [0, 1, 2, 3]), (7, [3, 2, 4])] [0, 4, 1]) (-1) 1,
    -- 4914: tmp63 = np.copy(tmp61) * -1
    .set 222 (.cp 185) (-1) 1,
    -- 4915: del tmp61
    .del 185,
    -- 4916: tmp63 += einsum(r2.bbb, (0, 1, 2), tmp62, (3, 2, 1), (3, 0)) * 2
    .add 222 (.ein [(13, [0, 1, 2]), (202, [3, 2, 1])] [3, 0]) 2 1,
    -- 4917: del tmp62
    .del 202,
    -- 4918: tmp58 = np.copy(ints.tmp163) * 2
    .set 223 (.cp 23) 2 1,
    -- 4919: tmp58 += ints.tmp47
    .add 223 (.cp 22) 1 1,
    -- 4920: tmp68 = np.copy(tmp34) * -0.5
    .set 224 (.cp 181) (-1) 2,
    -- 4921: tmp68 += tmp35
    .add 224 (.cp 186) 1 1,
    -- 4922: tmp59 = np.copy(ints.tmp250)
    .set 225 (.cp 41) 1 1,
    -- 4923: tmp59 += np.transpose(ints.tmp319, (0, 1, 3, 2)) * -1
    .add 225 (.tr 42 [0, 1, 3, 2]) (-1) 1,
    -- 4924: tmp57 = einsum(r2.aba, (0, 1, 2), t2.abab, (3, 4, 0, 1), (2, 3, 4))
    .set 226 (.ein [(12, [0, 1, 2]), (6, [3, 4, 0, 1])] [2, 3, 4]) 1 1,
    -- 4925: tmp56 = np.copy(f.aa.oo)
    .set 227 (.cp 43) 1 1,
    -- 4926: tmp56 += ints.tmp148 * 2
    .add 227 (.cp 44) 2 1,
    -- 4927: del ints.tmp148
    .del 44,
    -- 4928: tmp56 += ints.tmp157
    .add 227 (.cp 45) 1 1,
    -- 4929: del ints.tmp157
    .del 45,
    -- 4930: tmp56 += np.transpose(ints.tmp19, (1, 0))
    .add 227 (.tr 46 [1, 0]) 1 1,
    -- 4931: del ints.tmp19
    .del 46,
    -- 4932: tmp55 = einsum(f.aa.ov, (0, 1), r1.a, (2,), (0, 1, 2))
    .set 228 (.ein [(30, [0, 1]), (32, [2])] [0, 1, 2]) 1 1,
    -- 4933: tmp55 += np.transpose(tmp52, (0, 2, 1))
    .add 228 (.tr 204 [0, 2, 1]) 1 1,
    -- 4934: del tmp52
    .del 204,
    -- 4935: tmp55 += tmp54
    .add 228 (.cp 205) 1 1,
    -- 4936: del tmp54
    .del 205,
    -- 4937: tmp38 = einsum(r2.aaa, (0, 1, 2), t2.aaaa, (3, 4, 0, 1), (2, 3, 4))
    .set 229 (.ein [(8, [0, 1, 2]), (9, [3, 4, 0, 1])] [2, 3, 4]) 1 1,
    -- 4938: tmp50 = np.copy(tmp39)
    .set 230 (.cp 209) 1 1,
    -- 4939: del tmp39
    .del 209,
    -- 4940: tmp50 += tmp40 * 2
    .add 230 (.cp 208) 2 1,
    -- 4941: del tmp40
    .del 208,
    -- 4942: tmp50 += tmp41
    .add 230 (.cp 210) 1 1,
    -- 4943: del tmp41
    .del 210,
    -- 4944: tmp50 += np.transpose(tmp43, (0, 2, 1)) * -2
    .add 230 (.tr 206 [0, 2, 1]) (-2) 1,
    -- 4945: del tmp43
    .del 206,
    -- 4946: tmp50 += np.transpose(tmp49, (0, 2, 1))
    .add 230 (.tr 207 [0, 2, 1]) 1 1,
    -- 4947: del tmp49
    .del 207,
    -- 4948: tmp36 = einsum(r1.b, (0,), t1.bb, (1, 0), (1,))
    .set 231 (.ein [(27, [0]), (14, [1, 0])] [1]) 1 1,
    -- 4949: tmp36 += tmp34 * -1
    .add 231 (.cp 181) (-1) 1,
    -- 4950: del tmp34
    .del 181,
    -- 4951: tmp36 += tmp35 * 2
    .add 231 (.cp 186) 2 1,
    -- 4952: del tmp35
    .del 186,
    -- 4953: tmp30 = np.copy(ints.tmp135)
    .set 232 (.cp 47) 1 1,
    -- 4954: del ints.tmp135
    .del 47,
    -- 4955: tmp30 += ints.tmp66 * -1
    .add 232 (.cp 48) (-1) 1,
    -- 4956: del ints.tmp66
    .del 48,
    -- 4957: tmp27 = np.copy(ints.tmp103)
    .set 233 (.cp 49) 1 1,
    -- 4958: tmp27 += ints.tmp111 * 0.5
    .add 233 (.cp 50) 1 2,
    -- 4959: tmp27 += ints.tmp133
    .add 233 (.cp 51) 1 1,
    -- 4960: tmp27 += ints.tmp139 * 0.5
    .add 233 (.cp 52) 1 2,
    -- 4961: tmp27 += ints.tmp149
    .add 233 (.cp 53) 1 1,
    -- 4962: tmp27 += ints.tmp158 * 0.5
    .add 233 (.cp 54) 1 2,
    -- 4963: tmp27 += ints.tmp175 * 0.5
    .add 233 (.cp 55) 1 2,
    -- 4964: tmp27 += ints.tmp182 * 0.5
    .add 233 (.cp 56) 1 2,
    -- 4965: tmp27 += ints.tmp192 * 0.5
    .add 233 (.cp 57) 1 2,
    -- 4966: tmp27 += ints.tmp20 * 0.5
    .add 233 (.cp 58) 1 2,
    -- 4967: tmp27 += ints.tmp211 * 0.5
    .add 233 (.cp 59) 1 2,
    -- 4968: tmp27 += ints.tmp218 * 0.5
    .add 233 (.cp 60) 1 2,
    -- 4969: tmp27 += ints.tmp2 * 0.5
    .add 233 (.cp 61) 1 2,
    -- 4970: tmp27 += ints.tmp36 * 0.5
    .add 233 (.cp 62) 1 2,
    -- 4971: tmp27 += ints.tmp64
    .add 233 (.cp 63) 1 1,
    -- 4972: tmp27 += ints.tmp73 * 0.5
    .add 233 (.cp 64) 1 2,
    -- 4973: tmp27 += ints.tmp79
    .add 233 (.cp 65) 1 1,
    -- 4974: tmp27 += f.aa.ov * -0.5
    .add 233 (.cp 30) (-1) 2,
    -- 4975: tmp27 += ints.tmp106 * -1
    .add 233 (.cp 66) (-1) 1,
    -- 4976: tmp27 += ints.tmp115 * -0.5
    .add 233 (.cp 67) (-1) 2,
    -- 4977: tmp27 += ints.tmp119 * -1
    .add 233 (.cp 68) (-1) 1,
    -- 4978: tmp27 += ints.tmp11 * -0.5
    .add 233 (.cp 69) (-1) 2,
    -- 4979: tmp27 += ints.tmp122 * -0.5
    .add 233 (.cp 70) (-1) 2,
    -- 4980: tmp27 += ints.tmp172 * -0.5
    .add 233 (.cp 71) (-1) 2,
    -- 4981: tmp27 += ints.tmp190 * -0.5
    .add 233 (.cp 72) (-1) 2,
    -- 4982: tmp27 += ints.tmp199 * -0.5
    .add 233 (.cp 73) (-1) 2,
    -- 4983: tmp27 += ints.tmp208 * -0.5
    .add 233 (.cp 74) (-1) 2,
    -- 4984: tmp27 += ints.tmp34 * -0.5
    .add 233 (.cp 75) (-1) 2,
    -- 4985: tmp27 += ints.tmp42 * -0.5
    .add 233 (.cp 76) (-1) 2,
    -- 4986: tmp27 += ints.tmp5 * -0.5
    .add 233 (.cp 77) (-1) 2,
    -- 4987: tmp27 += ints.tmp87 * -0.5
    .add 233 (.cp 78) (-1) 2,
    -- 4988: tmp27 += ints.tmp8 * -1
    .add 233 (.cp 79) (-1) 1,
    -- 4989: tmp22 = np.copy(ints.tmp243)
    .set 234 (.cp 25) 1 1,
    -- 4990: tmp22 += ints.tmp310 * 2
    .add 234 (.cp 80) 2 1,
    -- 4991: del ints.tmp310
    .del 80,
    -- 4992: tmp22 += ints.tmp317
    .add 234 (.cp 81) 1 1,
    -- 4993: del ints.tmp317
    .del 81,
    -- 4994: tmp22 += np.transpose(ints.tmp332, (0, 1, 3, 2))
    .add 234 (.tr 82 [0, 1, 3, 2]) 1 1,
    -- 4995: del ints.tmp332
    .del 82,
    -- 4996: tmp22 += np.transpose(ints.tmp246, (0, 1, 3, 2)) * -1
    .add 234 (.tr 10 [0, 1, 3, 2]) (-1) 1,
    -- 4997: del ints.tmp246
    .del 10,
    -- 4998: tmp22 += ints.tmp313 * -2
    .add 234 (.cp 11) (-2) 1,
    -- 4999: del ints.tmp313
    .del 11,
    -- 5000: tmp22 += np.transpose(ints.tmp330, (0, 1, 3, 2)) * -1
    .add 234 (.tr 83 [0, 1, 3, 2]) (-1) 1,
    -- 5001: del ints.tmp330
    .del 83,
    -- 5002: tmp19 = np.copy(ints.tmp253)
    .set 235 (.cp 84) 1 1,
    -- 5003: del ints.tmp253
    .del 84,
    -- 5004: tmp19 += np.transpose(ints.tmp265, (0, 1, 3, 2))
    .add 235 (.tr 85 [0, 1, 3, 2]) 1 1,
    -- 5005: del ints.tmp265
    .del 85,
    -- 5006: tmp19 += np.transpose(ints.tmp271, (0, 1, 3, 2))
    .add 235 (.tr 86 [0, 1, 3, 2]) 1 1,
    -- 5007: del ints.tmp271
    .del 86,
    -- 5008: tmp19 += np.transpose(ints.tmp277, (0, 1, 3, 2)) * 2
    .add 235 (.tr 87 [0, 1, 3, 2]) 2 1,
    -- 5009: del ints.tmp277
    .del 87,
    -- 5010: tmp19 += np.transpose(ints.tmp303, (0, 1, 3, 2))
    .add 235 (.tr 88 [0, 1, 3, 2]) 1 1,
    -- 5011: del ints.tmp303
    .del 88,
    -- 5012: tmp19 += ints.tmp99
    .add 235 (.cp 89) 1 1,
    -- 5013: tmp19 += ints.tmp274 * -1
    .add 235 (.cp 90) (-1) 1,
    -- 5014: del ints.tmp274
    .del 90,
    -- 5015: tmp19 += np.transpose(ints.tmp281, (0, 1, 3, 2)) * -1
    .add 235 (.tr 91 [0, 1, 3, 2]) (-1) 1,
    -- 5016: del ints.tmp281
    .del 91,
    -- 5017: tmp20 = np.copy(ints.tmp236) * 0.5
    .set 236 (.cp 28) 1 2,
    -- 5018: del ints.tmp236
    .del 28,
    -- 5019: tmp20 += ints.tmp251 * 0.5
    .add 236 (.cp 92) 1 2,
    -- 5020: del ints.tmp251
    .del 92,
    -- 5021: tmp20 += np.transpose(ints.tmp275, (0, 2, 1, 3))
    .add 236 (.tr 93 [0, 2, 1, 3]) 1 1,
    -- 5022: del ints.tmp275
    .del 93,
    -- 5023: tmp20 += np.transpose(ints.tmp301, (0, 3, 1, 2)) * 0.5
    .add 236 (.tr 94 [0, 3, 1, 2]) 1 2,
    -- 5024: del ints.tmp301
    .del 94,
    -- 5025: tmp20 += np.transpose(ints.tmp263, (0, 3, 1, 2)) * -0.5
    .add 236 (.tr 95 [0, 3, 1, 2]) (-1) 2,
    -- 5026: del ints.tmp263
    .del 95,
    -- 5027: tmp20 += np.transpose(ints.tmp272, (0, 3, 1, 2)) * -1
    .add 236 (.tr 96 [0, 3, 1, 2]) (-1) 1,
    -- 5028: del ints.tmp272
    .del 96,
    -- 5029: tmp20 += np.transpose(ints.tmp279, (0, 3, 1, 2)) * -0.5
    .add 236 (.tr 97 [0, 3, 1, 2]) (-1) 2,
    -- 5030: del ints.tmp279
    .del 97,
    -- 5031: tmp37 = np.copy(f.bb.ov)
    .set 237 (.cp 26) 1 1,
    -- 5032: tmp37 += ints.tmp38
    .add 237 (.cp 98) 1 1,
    -- 5033: tmp37 += ints.tmp41
    .add 237 (.cp 99) 1 1,
    -- 5034: tmp37 += ints.tmp110 * -1
    .add 237 (.cp 100) (-1) 1,
    -- 5035: del ints.tmp110
    .del 100,
    -- 5036: tmp24 = np.copy(ints.tmp309)
    .set 238 (.cp 101) 1 1,
    -- 5037: del ints.tmp309
    .del 101,
    -- 5038: tmp24 += ints.tmp315 * 2
    .add 238 (.cp 102) 2 1,
    -- 5039: del ints.tmp315
    .del 102,
    -- 5040: tmp24 += ints.tmp335
    .add 238 (.cp 103) 1 1,
    -- 5041: del ints.tmp335
    .del 103,
    -- 5042: tmp24 += ints.tmp49
    .add 238 (.cp 104) 1 1,
    -- 5043: tmp24 += ints.tmp312 * -1
    .add 238 (.cp 29) (-1) 1,
    -- 5044: tmp26 = np.copy(ints.tmp250)
    .set 239 (.cp 41) 1 1,
    -- 5045: del ints.tmp250
    .del 41,
    -- 5046: tmp26 += ints.tmp334
    .add 239 (.cp 105) 1 1,
    -- 5047: del ints.tmp334
    .del 105,
    -- 5048: tmp26 += np.transpose(ints.tmp319, (0, 1, 3, 2)) * -1
    .add 239 (.tr 42 [0, 1, 3, 2]) (-1) 1,
    -- 5049: del ints.tmp319
    .del 42,
    -- 5050: tmp23 = einsum(t1.bb, (0, 1), r2.aba, (2, 1, 3), (3, 0, 2))
    .set 240 (.ein [(14, [0, 1]), (12, [2, 1, 3])] [3, 0, 2]) 1 1,
    -- 5051: tmp29 = einsum(tmp21, (0, 1, 2), t1.bb, (3, 2), (0, 1, 3)) * -1
    .set 241 (.ein [(183, [0, 1, 2]), (14, [3, 2])] [0, 1, 3]) (-1) 1,
    -- 5052: tmp32 = np.copy(ints.tmp138)
    .set 242 (.cp 106) 1 1,
    -- 5053: del ints.tmp138
    .del 106,
    -- 5054: tmp32 += ints.tmp72
    .add 242 (.cp 107) 1 1,
    -- 5055: del ints.tmp72
    .del 107,
    -- 5056: tmp33 = np.copy(np.transpose(ints.tmp239, (1, 0)))
    .set 243 (.tr 108 [1, 0]) 1 1,
    -- 5057: del ints.tmp239
    .del 108,
    -- 5058: tmp33 += ints.tmp255 * 2
    .add 243 (.cp 15) 2 1,
    -- 5059: del ints.tmp255
    .del 15,
    -- 5060: tmp33 += ints.tmp257
    .add 243 (.cp 16) 1 1,
    -- 5061: del ints.tmp257
    .del 16,
    -- 5062: tmp33 += f.bb.vv * -1
    .add 243 (.cp 17) (-1) 1,
    -- 5063: tmp33 += np.transpose(ints.tmp194, (1, 0)) * -1
    .add 243 (.tr 109 [1, 0]) (-1) 1,
    -- 5064: del ints.tmp194
    .del 109,
    -- 5065: tmp33 += np.transpose(ints.tmp197, (1, 0)) * -1
    .add 243 (.tr 110 [1, 0]) (-1) 1,
    -- 5066: del ints.tmp197
    .del 110,
    -- 5067: tmp28 = np.copy(ints.tmp105)
    .set 244 (.cp 111) 1 1,
    -- 5068: tmp28 += ints.tmp113 * 2
    .add 244 (.cp 112) 2 1,
    -- 5069: tmp28 += ints.tmp136 * 2
    .add 244 (.cp 113) 2 1,
    -- 5070: tmp28 += ints.tmp142
    .add 244 (.cp 114) 1 1,
    -- 5071: tmp28 += ints.tmp152 * 2
    .add 244 (.cp 115) 2 1,
    -- 5072: tmp28 += ints.tmp155
    .add 244 (.cp 116) 1 1,
    -- 5073: tmp28 += ints.tmp180
    .add 244 (.cp 117) 1 1,
    -- 5074: tmp28 += ints.tmp185
    .add 244 (.cp 118) 1 1,
    -- 5075: tmp28 += ints.tmp196
    .add 244 (.cp 119) 1 1,
    -- 5076: tmp28 += ints.tmp216
    .add 244 (.cp 120) 1 1,
    -- 5077: tmp28 += ints.tmp221
    .add 244 (.cp 121) 1 1,
    -- 5078: tmp28 += ints.tmp23
    .add 244 (.cp 122) 1 1,
    -- 5079: tmp28 += ints.tmp40
    .add 244 (.cp 123) 1 1,
    -- 5080: tmp28 += ints.tmp4
    .add 244 (.cp 124) 1 1,
    -- 5081: tmp28 += ints.tmp67 * 2
    .add 244 (.cp 125) 2 1,
    -- 5082: tmp28 += ints.tmp70
    .add 244 (.cp 126) 1 1,
    -- 5083: tmp28 += ints.tmp82 * 2
    .add 244 (.cp 127) 2 1,
    -- 5084: tmp28 += f.bb.ov * -1
    .add 244 (.cp 26) (-1) 1,
    -- 5085: tmp28 += ints.tmp108 * -1
    .add 244 (.cp 128) (-1) 1,
    -- 5086: tmp28 += ints.tmp10 * -1
    .add 244 (.cp 129) (-1) 1,
    -- 5087: tmp28 += ints.tmp117 * -2
    .add 244 (.cp 130) (-2) 1,
    -- 5088: tmp28 += ints.tmp121 * -1
    .add 244 (.cp 131) (-1) 1,
    -- 5089: tmp28 += ints.tmp124 * -2
    .add 244 (.cp 132) (-2) 1,
    -- 5090: tmp28 += ints.tmp13 * -2
    .add 244 (.cp 133) (-2) 1,
    -- 5091: tmp28 += ints.tmp178 * -1
    .add 244 (.cp 134) (-1) 1,
    -- 5092: tmp28 += ints.tmp195 * -1
    .add 244 (.cp 135) (-1) 1,
    -- 5093: tmp28 += ints.tmp198 * -1
    .add 244 (.cp 136) (-1) 1,
    -- 5094: tmp28 += ints.tmp214 * -1
    .add 244 (.cp 137) (-1) 1,
    -- 5095: tmp28 += ints.tmp38 * -1
    .add 244 (.cp 98) (-1) 1,
    -- 5096: tmp28 += ints.tmp41 * -1
    .add 244 (.cp 99) (-1) 1,
    -- 5097: tmp28 += ints.tmp7 * -1
    .add 244 (.cp 138) (-1) 1,
    -- 5098: tmp28 += ints.tmp85 * -1
    .add 244 (.cp 139) (-1) 1,
    -- 5099: tmp31 = einsum(t1.bb, (0, 1), tmp25, (2, 3, 1), (2, 3, 0))
    .set 245 (.ein [(14, [0, 1]), (211, [2, 3, 1])] [2, 3, 0]) 1 1,
    -- 5100: tmp0 = np.copy(ints.tmp146)
    .set 246 (.cp 140) 1 1,
    -- 5101: del ints.tmp146
    .del 140,
    -- 5102: tmp0 += np.transpose(ints.tmp26, (0, 2, 1, 3))
    .add 246 (.tr 141 [0, 2, 1, 3]) 1 1,
    -- 5103: tmp0 += np.transpose(ints.tmp55, (0, 2, 1, 3))
    .add 246 (.tr 142 [0, 2, 1, 3]) 1 1,
    -- 5104: del ints.tmp55
    .del 142,
    -- 5105: tmp0 += ints.tmp77
    .add 246 (.cp 143) 1 1,
    -- 5106: del ints.tmp77
    .del 143,
    -- 5107: tmp0 += ints.tmp91
    .add 246 (.cp 144) 1 1,
    -- 5108: del ints.tmp91
    .del 144,
    -- 5109: tmp0 += ints.tmp97 * 2
    .add 246 (.cp 145) 2 1,
    -- 5110: del ints.tmp97
    .del 145,
    -- 5111: tmp0 += ints.tmp100 * -1
    .add 246 (.cp 146) (-1) 1,
    -- 5112: del ints.tmp100
    .del 146,
    -- 5113: tmp0 += np.transpose(ints.tmp94, (0, 2, 1, 3)) * -1
    .add 246 (.tr 147 [0, 2, 1, 3]) (-1) 1,
    -- 5114: del ints.tmp94
    .del 147,
    -- 5115: tmp14 = np.copy(np.transpose(ints.tmp31, (1, 0)))
    .set 247 (.tr 148 [1, 0]) 1 1,
    -- 5116: del ints.tmp31
    .del 148,
    -- 5117: tmp14 += ints.tmp58 * 2
    .add 247 (.cp 19) 2 1,
    -- 5118: del ints.tmp58
    .del 19,
    -- 5119: tmp14 += ints.tmp61
    .add 247 (.cp 20) 1 1,
    -- 5120: del ints.tmp61
    .del 20,
    -- 5121: tmp14 += f.aa.vv * -1
    .add 247 (.cp 21) (-1) 1,
    -- 5122: tmp14 += np.transpose(ints.tmp29, (1, 0)) * -1
    .add 247 (.tr 149 [1, 0]) (-1) 1,
    -- 5123: del ints.tmp29
    .del 149,
    -- 5124: tmp14 += np.transpose(ints.tmp33, (1, 0)) * -1
    .add 247 (.tr 150 [1, 0]) (-1) 1,
    -- 5125: del ints.tmp33
    .del 150,
    -- 5126: tmp11 = np.copy(ints.tmp132)
    .set 248 (.cp 151) 1 1,
    -- 5127: del ints.tmp132
    .del 151,
    -- 5128: tmp11 += ints.tmp63 * -1
    .add 248 (.cp 152) (-1) 1,
    -- 5129: del ints.tmp63
    .del 152,
    -- 5130: tmp7 = np.copy(np.transpose(ints.tmp205, (0, 1, 3, 2)))
    .set 249 (.tr 153 [0, 1, 3, 2]) 1 1,
    -- 5131: del ints.tmp205
    .del 153,
    -- 5132: tmp7 += np.transpose(ints.tmp52, (0, 1, 3, 2))
    .add 249 (.tr 40 [0, 1, 3, 2]) 1 1,
    -- 5133: del ints.tmp52
    .del 40,
    -- 5134: tmp7 += ints.tmp170 * -1
    .add 249 (.cp 39) (-1) 1,
    -- 5135: del ints.tmp170
    .del 39,
    -- 5136: tmp5 = np.copy(ints.tmp162)
    .set 250 (.cp 154) 1 1,
    -- 5137: del ints.tmp162
    .del 154,
    -- 5138: tmp5 += ints.tmp168 * 2
    .add 250 (.cp 155) 2 1,
    -- 5139: del ints.tmp168
    .del 155,
    -- 5140: tmp5 += ints.tmp206
    .add 250 (.cp 156) 1 1,
    -- 5141: del ints.tmp206
    .del 156,
    -- 5142: tmp5 += ints.tmp49
    .add 250 (.cp 104) 1 1,
    -- 5143: tmp5 += ints.tmp165 * -1
    .add 250 (.cp 34) (-1) 1,
    -- 5144: tmp18 = np.copy(f.aa.ov)
    .set 251 (.cp 30) 1 1,
    -- 5145: tmp18 += ints.tmp34
    .add 251 (.cp 75) 1 1,
    -- 5146: tmp18 += ints.tmp42
    .add 251 (.cp 76) 1 1,
    -- 5147: tmp18 += ints.tmp102 * -1
    .add 251 (.cp 157) (-1) 1,
    -- 5148: del ints.tmp102
    .del 157,
    -- 5149: tmp17 = einsum(t1.aa, (0, 1), r1.a, (1,), (0,)) * 0.5
    .set 252 (.ein [(24, [0, 1]), (32, [1])] [0]) 1 2,
    -- 5150: tmp17 += tmp15
    .add 252 (.cp 177) 1 1,
    -- 5151: del tmp15
    .del 177,
    -- 5152: tmp17 += tmp16 * 0.5
    .add 252 (.cp 176) 1 2,
    -- 5153: del tmp16
    .del 176,
    -- 5154: tmp3 = np.copy(ints.tmp160) * 2
    .set 253 (.cp 158) 2 1,
    -- 5155: del ints.tmp160
    .del 158,
    -- 5156: tmp3 += ints.tmp166
    .add 253 (.cp 159) 1 1,
    -- 5157: del ints.tmp166
    .del 159,
    -- 5158: tmp3 += np.transpose(ints.tmp203, (0, 1, 3, 2))
    .add 253 (.tr 160 [0, 1, 3, 2]) 1 1,
    -- 5159: del ints.tmp203
    .del 160,
    -- 5160: tmp3 += ints.tmp44
    .add 253 (.cp 31) 1 1,
    -- 5161: tmp3 += ints.tmp163 * -2
    .add 253 (.cp 23) (-2) 1,
    -- 5162: del ints.tmp163
    .del 23,
    -- 5163: tmp3 += np.transpose(ints.tmp201, (0, 1, 3, 2)) * -1
    .add 253 (.tr 161 [0, 1, 3, 2]) (-1) 1,
    -- 5164: del ints.tmp201
    .del 161,
    -- 5165: tmp3 += np.transpose(ints.tmp47, (0, 1, 3, 2)) * -1
    .add 253 (.tr 22 [0, 1, 3, 2]) (-1) 1,
    -- 5166: del ints.tmp47
    .del 22,
    -- 5167: tmp9 = np.copy(ints.tmp105) * 0.5
    .set 254 (.cp 111) 1 2,
    -- 5168: del ints.tmp105
    .del 111,
    -- 5169: tmp9 += ints.tmp113
    .add 254 (.cp 112) 1 1,
    -- 5170: del ints.tmp113
    .del 112,
    -- 5171: tmp9 += ints.tmp136
    .add 254 (.cp 113) 1 1,
    -- 5172: del ints.tmp136
    .del 113,
    -- 5173: tmp9 += ints.tmp142 * 0.5
    .add 254 (.cp 114) 1 2,
    -- 5174: del ints.tmp142
    .del 114,
    -- 5175: tmp9 += ints.tmp152
    .add 254 (.cp 115) 1 1,
    -- 5176: del ints.tmp152
    .del 115,
    -- 5177: tmp9 += ints.tmp155 * 0.5
    .add 254 (.cp 116) 1 2,
    -- 5178: del ints.tmp155
    .del 116,
    -- 5179: tmp9 += ints.tmp180 * 0.5
    .add 254 (.cp 117) 1 2,
    -- 5180: del ints.tmp180
    .del 117,
    -- 5181: tmp9 += ints.tmp185 * 0.5
    .add 254 (.cp 118) 1 2,
    -- 5182: del ints.tmp185
    .del 118,
    -- 5183: tmp9 += ints.tmp196 * 0.5
    .add 254 (.cp 119) 1 2,
    -- 5184: del ints.tmp196
    .del 119,
    -- 5185: tmp9 += ints.tmp216 * 0.5
    .add 254 (.cp 120) 1 2,
    -- 5186: del ints.tmp216
    .del 120,
    -- 5187: tmp9 += ints.tmp221 * 0.5
    .add 254 (.cp 121) 1 2,
    -- 5188: del ints.tmp221
    .del 121,
    -- 5189: tmp9 += ints.tmp23 * 0.5
    .add 254 (.cp 122) 1 2,
    -- 5190: del ints.tmp23
    .del 122,
    -- 5191: tmp9 += ints.tmp40 * 0.5
    .add 254 (.cp 123) 1 2,
    -- 5192: del ints.tmp40
    .del 123,
    -- 5193: tmp9 += ints.tmp4 * 0.5
    .add 254 (.cp 124) 1 2,
    -- 5194: del ints.tmp4
    .del 124,
    -- 5195: tmp9 += ints.tmp67
    .add 254 (.cp 125) 1 1,
    -- 5196: del ints.tmp67
    .del 125,
    -- 5197: tmp9 += ints.tmp70 * 0.5
    .add 254 (.cp 126) 1 2,
    -- 5198: del ints.tmp70
    .del 126,
    -- 5199: tmp9 += ints.tmp82
    .add 254 (.cp 127) 1 1,
    -- 5200: del ints.tmp82
    .del 127,
    -- 5201: tmp9 += f.bb.ov * -0.5
    .add 254 (.cp 26) (-1) 2,
    -- 5202: tmp9 += ints.tmp108 * -0.5
    .add 254 (.cp 128) (-1) 2,
    -- 5203: del ints.tmp108
    .del 128,
    -- 5204: tmp9 += ints.tmp10 * -0.5
    .add 254 (.cp 129) (-1) 2,
    -- 5205: del ints.tmp10
    .del 129,
    -- 5206: tmp9 += ints.tmp117 * -1
    .add 254 (.cp 130) (-1) 1,
    -- 5207: del ints.tmp117
    .del 130,
    -- 5208: tmp9 += ints.tmp121 * -0.5
    .add 254 (.cp 131) (-1) 2,
    -- 5209: del ints.tmp121
    .del 131,
    -- 5210: tmp9 += ints.tmp124 * -1
    .add 254 (.cp 132) (-1) 1,
    -- 5211: del ints.tmp124
    .del 132,
    -- 5212: tmp9 += ints.tmp13 * -1
    .add 254 (.cp 133) (-1) 1,
    -- 5213: del ints.tmp13
    .del 133,
    -- 5214: tmp9 += ints.tmp178 * -0.5
    .add 254 (.cp 134) (-1) 2,
    -- 5215: del ints.tmp178
    .del 134,
    -- 5216: tmp9 += ints.tmp195 * -0.5
    .add 254 (.cp 135) (-1) 2,
    -- 5217: del ints.tmp195
    .del 135,
    -- 5218: tmp9 += ints.tmp198 * -0.5
    .add 254 (.cp 136) (-1) 2,
    -- 5219: del ints.tmp198
    .del 136,
    -- 5220: tmp9 += ints.tmp214 * -0.5
    .add 254 (.cp 137) (-1) 2,
    -- 5221: del ints.tmp214
    .del 137,
    -- 5222: tmp9 += ints.tmp38 * -0.5
    .add 254 (.cp 98) (-1) 2,
    -- 5223: del ints.tmp38
    .del 98,
    -- 5224: tmp9 += ints.tmp41 * -0.5
    .add 254 (.cp 99) (-1) 2,
    -- 5225: del ints.tmp41
    .del 99,
    -- 5226: tmp9 += ints.tmp7 * -0.5
    .add 254 (.cp 138) (-1) 2,
    -- 5227: del ints.tmp7
    .del 138,
    -- 5228: tmp9 += ints.tmp85 * -0.5
    .add 254 (.cp 139) (-1) 2,
    -- 5229: del ints.tmp85
    .del 139,
    -- 5230: tmp4 = einsum(r2.bab, (0, 1, 2), t1.aa, (3, 1), (3, 2, 0)) * -1
    .set 255 (.ein [(7, [0, 1, 2]), (24, [3, 1])] [3, 2, 0]) (-1) 1,
    -- 5231: tmp13 = np.copy(ints.tmp141)
    .set 256 (.cp 162) 1 1,
    -- 5232: del ints.tmp141
    .del 162,
    -- 5233: tmp13 += ints.tmp69
    .add 256 (.cp 163) 1 1,
    -- 5234: del ints.tmp69
    .del 163,
    -- 5235: tmp10 = einsum(tmp2, (0, 1, 2), t1.aa, (3, 2), (0, 1, 3)) * -1
    .set 257 (.ein [(191, [0, 1, 2]), (24, [3, 2])] [0, 1, 3]) (-1) 1,
    -- 5236: tmp8 = np.copy(ints.tmp103) * 2
    .set 258 (.cp 49) 2 1,
    -- 5237: del ints.tmp103
    .del 49,
    -- 5238: tmp8 += ints.tmp111
    .add 258 (.cp 50) 1 1,
    -- 5239: del ints.tmp111
    .del 50,
    -- 5240: tmp8 += ints.tmp133 * 2
    .add 258 (.cp 51) 2 1,
    -- 5241: del ints.tmp133
    .del 51,
    -- 5242: tmp8 += ints.tmp139
    .add 258 (.cp 52) 1 1,
    -- 5243: del ints.tmp139
    .del 52,
    -- 5244: tmp8 += ints.tmp149 * 2
    .add 258 (.cp 53) 2 1,
    -- 5245: del ints.tmp149
    .del 53,
    -- 5246: tmp8 += ints.tmp158
    .add 258 (.cp 54) 1 1,
    -- 5247: del ints.tmp158
    .del 54,
    -- 5248: tmp8 += ints.tmp175
    .add 258 (.cp 55) 1 1,
    -- 5249: del ints.tmp175
    .del 55,
    -- 5250: tmp8 += ints.tmp182
    .add 258 (.cp 56) 1 1,
    -- 5251: del ints.tmp182
    .del 56,
    -- 5252: tmp8 += ints.tmp192
    .add 258 (.cp 57) 1 1,
    -- 5253: del ints.tmp192
    .del 57,
    -- 5254: tmp8 += ints.tmp20
    .add 258 (.cp 58) 1 1,
    -- 5255: del ints.tmp20
    .del 58,
    -- 5256: tmp8 += ints.tmp211
    .add 258 (.cp 59) 1 1,
    -- 5257: del ints.tmp211
    .del 59,
    -- 5258: tmp8 += ints.tmp218
    .add 258 (.cp 60) 1 1,
    -- 5259: del ints.tmp218
    .del 60,
    -- 5260: tmp8 += ints.tmp2
    .add 258 (.cp 61) 1 1,
    -- 5261: del ints.tmp2
    .del 61,
    -- 5262: tmp8 += ints.tmp36
    .add 258 (.cp 62) 1 1,
    -- 5263: del ints.tmp36
    .del 62,
    -- 5264: tmp8 += ints.tmp64 * 2
    .add 258 (.cp 63) 2 1,
    -- 5265: del ints.tmp64
    .del 63,
    -- 5266: tmp8 += ints.tmp73
    .add 258 (.cp 64) 1 1,
    -- 5267: del ints.tmp73
    .del 64,
    -- 5268: tmp8 += ints.tmp79 * 2
    .add 258 (.cp 65) 2 1,
    -- 5269: del ints.tmp79
    .del 65,
    -- 5270: tmp8 += f.aa.ov * -1
    .add 258 (.cp 30) (-1) 1,
    -- 5271: tmp8 += ints.tmp106 * -2
    .add 258 (.cp 66) (-2) 1,
    -- 5272: del ints.tmp106
    .del 66,
    -- 5273: tmp8 += ints.tmp115 * -1
    .add 258 (.cp 67) (-1) 1,
    -- 5274: del ints.tmp115
    .del 67,
    -- 5275: tmp8 += ints.tmp119 * -2
    .add 258 (.cp 68) (-2) 1,
    -- 5276: del ints.tmp119
    .del 68,
    -- 5277: tmp8 += ints.tmp11 * -1
    .add 258 (.cp 69) (-1) 1,
    -- 5278: del ints.tmp11
    .del 69,
    -- 5279: tmp8 += ints.tmp122 * -1
    .add 258 (.cp 70) (-1) 1,
    -- 5280: del ints.tmp122
    .del 70,
    -- 5281: tmp8 += ints.tmp172 * -1
    .add 258 (.cp 71) (-1) 1,
    -- 5282: del ints.tmp172
    .del 71,
    -- 5283: tmp8 += ints.tmp190 * -1
    .add 258 (.cp 72) (-1) 1,
    -- 5284: del ints.tmp190
    .del 72,
    -- 5285: tmp8 += ints.tmp199 * -1
    .add 258 (.cp 73) (-1) 1,
    -- 5286: del ints.tmp199
    .del 73,
    -- 5287: tmp8 += ints.tmp208 * -1
    .add 258 (.cp 74) (-1) 1,
    -- 5288: del ints.tmp208
    .del 74,
    -- 5289: tmp8 += ints.tmp34 * -1
    .add 258 (.cp 75) (-1) 1,
    -- 5290: del ints.tmp34
    .del 75,
    -- 5291: tmp8 += ints.tmp42 * -1
    .add 258 (.cp 76) (-1) 1,
    -- 5292: del ints.tmp42
    .del 76,
    -- 5293: tmp8 += ints.tmp5 * -1
    .add 258 (.cp 77) (-1) 1,
    -- 5294: del ints.tmp5
    .del 77,
    -- 5295: tmp8 += ints.tmp87 * -1
    .add 258 (.cp 78) (-1) 1,
    -- 5296: del ints.tmp87
    .del 78,
    -- 5297: tmp8 += ints.tmp8 * -2
    .add 258 (.cp 79) (-2) 1,
    -- 5298: del ints.tmp8
    .del 79,
    -- 5299: tmp1 = np.copy(ints.tmp144) * 0.5
    .set 259 (.cp 164) 1 2,
    -- 5300: del ints.tmp144
    .del 164,
    -- 5301: tmp1 += np.transpose(ints.tmp24, (0, 2, 3, 1)) * 0.5
    .add 259 (.tr 33 [0, 2, 3, 1]) 1 2,
    -- 5302: del ints.tmp24
    .del 33,
    -- 5303: tmp1 += np.transpose(ints.tmp53, (0, 2, 3, 1)) * 0.5
    .add 259 (.tr 165 [0, 2, 3, 1]) 1 2,
    -- 5304: del ints.tmp53
    .del 165,
    -- 5305: tmp1 += np.transpose(ints.tmp92, (0, 1, 3, 2))
    .add 259 (.tr 166 [0, 1, 3, 2]) 1 1,
    -- 5306: del ints.tmp92
    .del 166,
    -- 5307: tmp1 += ints.tmp75 * -0.5
    .add 259 (.cp 167) (-1) 2,
    -- 5308: del ints.tmp75
    .del 167,
    -- 5309: tmp1 += ints.tmp89 * -1
    .add 259 (.cp 168) (-1) 1,
    -- 5310: del ints.tmp89
    .del 168,
    -- 5311: tmp1 += ints.tmp95 * -0.5
    .add 259 (.cp 169) (-1) 2,
    -- 5312: del ints.tmp95
    .del 169,
    -- 5313: tmp12 = einsum(t1.aa, (0, 1), tmp6, (2, 3, 1), (0, 2, 3))
    .set 260 (.ein [(24, [0, 1]), (212, [2, 3, 1])] [0, 2, 3]) 1 1,
    -- 5314: r2new.bbb = einsum(ints.tmp430, (0, 1, 2, 3), r2.bbb, (3, 2, 4), (1, 0, 4)) * -2
    .set 261 (.ein [(170, [0, 1, 2, 3]), (13, [3, 2, 4])] [1, 0, 4]) (-2) 1,
    -- 5315: del ints.tmp430
    .del 170,
    -- 5316: r2new.bbb += einsum(ints.tmp243, (0, 1, 2, 3), tmp74, (4, 1, 0), (3, 2, 4)) * 2
    .add 261 (.ein [(25, [0, 1, 2, 3]), (213, [4, 1, 0])] [3, 2, 4]) 2 1,
    -- 5317: del ints.tmp243, tmp74
    .del 25,
    .del 213,
    -- 5318: r2new.bbb += np.transpose(tmp80, (1, 2, 0)) * -1
    .add 261 (.tr 215 [1, 2, 0]) (-1) 1,
    -- 5319: r2new.bbb += np.transpose(tmp80, (2, 1, 0))
    .add 261 (.tr 215 [2, 1, 0]) 1 1,
    -- 5320: del tmp80
    .del 215,
    -- 5321: r2new.bbb += np.transpose(tmp87, (1, 2, 0))
    .add 261 (.tr 214 [1, 2, 0]) 1 1,
    -- 5322: r2new.bbb += np.transpose(tmp87, (2, 1, 0)) * -1
    .add 261 (.tr 214 [2, 1, 0]) (-1) 1,
    -- 5323: del tmp87
    .del 214,
    -- 5324: r2new.bbb += einsum(r2.bbb, (0, 1, 2), tmp73, (2, 3), (0, 1, 3)) * -2
    .add 261 (.ein [(13, [0, 1, 2]), (216, [2, 3])] [0, 1, 3]) (-2) 1,
    -- 5325: r2new.bab = einsum(r1.a, (0,), f.bb.ov, (1, 2), (2, 0, 1)) * -1
    .set 262 (.ein [(32, [0]), (26, [1, 2])] [2, 0, 1]) (-1) 1,
    -- 5326: r2new.bab += einsum(r1.a, (0,), ints.tmp26, (1, 2, 0, 3), (3, 2, 1)) * -1
    .add 262 (.ein [(32, [0]), (141, [1, 2, 0, 3])] [3, 2, 1]) (-1) 1,
    -- 5327: del ints.tmp26
    .del 141,
    -- 5328: r2new.bab += einsum(r2.aaa, (0, 1, 2), ints.tmp312, (2, 3, 1, 4), (4, 0, 3)) * 2
    .add 262 (.ein [(8, [0, 1, 2]), (29, [2, 3, 1, 4])] [4, 0, 3]) 2 1,
    -- 5329: del ints.tmp312
    .del 29,
    -- 5330: r2new.bab += einsum(r2.bab, (0, 1, 2), ints.tmp387, (3, 1, 0, 4), (4, 3, 2))
    .add 262 (.ein [(7, [0, 1, 2]), (171, [3, 1, 0, 4])] [4, 3, 2]) 1 1,
    -- 5331: r2new.bab += einsum(ints.tmp49, (0, 1, 2, 3), tmp69, (0, 4, 1), (3, 2, 4)) * -1
    .add 262 (.ein [(104, [0, 1, 2, 3]), (221, [0, 4, 1])] [3, 2, 4]) (-1) 1,
    -- 5332: del tmp69
    .del 221,
    -- 5333: r2new.bab += einsum(r2.bab, (0, 1, 2), tmp70, (2, 3, 0, 4), (4, 1, 3)) * -1
    .add 262 (.ein [(7, [0, 1, 2]), (180, [2, 3, 0, 4])] [4, 1, 3]) (-1) 1,
    -- 5334: del tmp70
    .del 180,
    -- 5335: r2new.bab += einsum(tmp71, (0, 1, 2, 3), r2.bab, (4, 2, 0), (4, 3, 1))
    .add 262 (.ein [(220, [0, 1, 2, 3]), (7, [4, 2, 0])] [4, 3, 1]) 1 1,
    -- 5336: del tmp71
    .del 220,
    -- 5337: r2new.bab += einsum(tmp72, (0, 1), v.bbb.xov, (0, 2, 3), (3, 1, 2)) * -1
    .add 262 (.ein [(218, [0, 1]), (1, [0, 2, 3])] [3, 1, 2]) (-1) 1,
    -- 5338: del tmp72
    .del 218,
    -- 5339: r2new.bab += einsum(r2.bab, (0, 1, 2), tmp67, (0, 3), (3, 1, 2)) * -1
    .add 262 (.ein [(7, [0, 1, 2]), (217, [0, 3])] [3, 1, 2]) (-1) 1,
    -- 5340: r2new.bab += einsum(r2.bab, (0, 1, 2), tmp65, (1, 3), (0, 3, 2)) * -1
    .add 262 (.ein [(7, [0, 1, 2]), (219, [1, 3])] [0, 3, 2]) (-1) 1,
    -- 5341: r2new.bab += einsum(r2.bab, (0, 1, 2), tmp73, (2, 3), (0, 1, 3)) * -1
    .add 262 (.ein [(7, [0, 1, 2]), (216, [2, 3])] [0, 1, 3]) (-1) 1,
    -- 5342: del tmp73
    .del 216,
    -- 5343: r2new.bab += einsum(tmp53, (0,), ints.tmp49, (0, 1, 2, 3), (3, 2, 1))
    .add 262 (.ein [(188, [0]), (104, [0, 1, 2, 3])] [3, 2, 1]) 1 1,
    -- 5344: del tmp53
    .del 188,
    -- 5345: r2new.aba = einsum(ints.tmp49, (0, 1, 2, 3), tmp57, (4, 0, 1), (2, 3, 4))
    .set 263 (.ein [(104, [0, 1, 2, 3]), (226, [4, 0, 1])] [2, 3, 4]) 1 1,
    -- 5346: del tmp57
    .del 226,
    -- 5347: r2new.aba += einsum(f.aa.ov, (0, 1), r1.b, (2,), (1, 2, 0)) * -1
    .add 263 (.ein [(30, [0, 1]), (27, [2])] [1, 2, 0]) (-1) 1,
    -- 5348: r2new.aba += einsum(r2.bbb, (0, 1, 2), ints.tmp165, (3, 2, 4, 1), (4, 0, 3)) * 2
    .add 263 (.ein [(13, [0, 1, 2]), (34, [3, 2, 4, 1])] [4, 0, 3]) 2 1,
    -- 5349: del ints.tmp165
    .del 34,
    -- 5350: r2new.aba += einsum(r2.aba, (0, 1, 2), ints.tmp387, (0, 3, 4, 1), (3, 4, 2))
    .add 263 (.ein [(12, [0, 1, 2]), (171, [0, 3, 4, 1])] [3, 4, 2]) 1 1,
    -- 5351: del ints.tmp387
    .del 171,
    -- 5352: r2new.aba += einsum(ints.tmp99, (0, 1, 2, 3), r1.b, (3,), (1, 2, 0)) * -1
    .add 263 (.ein [(89, [0, 1, 2, 3]), (27, [3])] [1, 2, 0]) (-1) 1,
    -- 5353: del ints.tmp99
    .del 89,
    -- 5354: r2new.aba += einsum(tmp58, (0, 1, 2, 3), r2.aba, (2, 4, 0), (3, 4, 1)) * -1
    .add 263 (.ein [(223, [0, 1, 2, 3]), (12, [2, 4, 0])] [3, 4, 1]) (-1) 1,
    -- 5355: del tmp58
    .del 223,
    -- 5356: r2new.aba += einsum(r2.aba, (0, 1, 2), tmp59, (2, 3, 4, 1), (0, 4, 3)) * -1
    .add 263 (.ein [(12, [0, 1, 2]), (225, [2, 3, 4, 1])] [0, 4, 3]) (-1) 1,
    -- 5357: del tmp59
    .del 225,
    -- 5358: r2new.aba += einsum(tmp63, (0, 1), v.baa.xov, (0, 2, 3), (3, 1, 2)) * -1
    .add 263 (.ein [(222, [0, 1]), (4, [0, 2, 3])] [3, 1, 2]) (-1) 1,
    -- 5359: del tmp63
    .del 222,
    -- 5360: r2new.aba += einsum(tmp65, (0, 1), r2.aba, (0, 2, 3), (1, 2, 3)) * -1
    .add 263 (.ein [(219, [0, 1]), (12, [0, 2, 3])] [1, 2, 3]) (-1) 1,
    -- 5361: del tmp65
    .del 219,
    -- 5362: r2new.aba += einsum(r2.aba, (0, 1, 2), tmp67, (1, 3), (0, 3, 2)) * -1
    .add 263 (.ein [(12, [0, 1, 2]), (217, [1, 3])] [0, 3, 2]) (-1) 1,
    -- 5363: del tmp67
    .del 217,
    -- 5364: r2new.aba += einsum(r2.aba, (0, 1, 2), tmp56, (2, 3), (0, 1, 3)) * -1
    .add 263 (.ein [(12, [0, 1, 2]), (227, [2, 3])] [0, 1, 3]) (-1) 1,
    -- 5365: r2new.aba += einsum(tmp68, (0,), ints.tmp49, (1, 0, 2, 3), (2, 3, 1)) * 2
    .add 263 (.ein [(224, [0]), (104, [1, 0, 2, 3])] [2, 3, 1]) 2 1,
    -- 5366: del ints.tmp49, tmp68
    .del 104,
    .del 224,
    -- 5367: r2new.aaa = einsum(tmp38, (0, 1, 2), ints.tmp44, (2, 1, 3, 4), (4, 3, 0)) * 2
    .set 264 (.ein [(229, [0, 1, 2]), (31, [2, 1, 3, 4])] [4, 3, 0]) 2 1,
    -- 5368: del ints.tmp44, tmp38
    .del 31,
    .del 229,
    -- 5369: r2new.aaa += einsum(ints.tmp365, (0, 1, 2, 3), r2.aaa, (2, 3, 4), (1, 0, 4)) * 2
    .add 264 (.ein [(172, [0, 1, 2, 3]), (8, [2, 3, 4])] [1, 0, 4]) 2 1,
    -- 5370: del ints.tmp365
    .del 172,
    -- 5371: r2new.aaa += np.transpose(tmp50, (1, 2, 0))
    .add 264 (.tr 230 [1, 2, 0]) 1 1,
    -- 5372: r2new.aaa += np.transpose(tmp50, (2, 1, 0)) * -1
    .add 264 (.tr 230 [2, 1, 0]) (-1) 1,
    -- 5373: del tmp50
    .del 230,
    -- 5374: r2new.aaa += np.transpose(tmp55, (1, 2, 0)) * -1
    .add 264 (.tr 228 [1, 2, 0]) (-1) 1,
    -- 5375: r2new.aaa += np.transpose(tmp55, (2, 1, 0))
    .add 264 (.tr 228 [2, 1, 0]) 1 1,
    -- 5376: del tmp55
    .del 228,
    -- 5377: r2new.aaa += einsum(r2.aaa, (0, 1, 2), tmp56, (2, 3), (0, 1, 3)) * -2
    .add 264 (.ein [(8, [0, 1, 2]), (227, [2, 3])] [0, 1, 3]) (-2) 1,
    -- 5378: del tmp56
    .del 227,
    -- 5379: r1new.b = einsum(r2.aba, (0, 1, 2), tmp19, (2, 0, 3, 1), (3,)) * -1
    .set 265 (.ein [(12, [0, 1, 2]), (235, [2, 0, 3, 1])] [3]) (-1) 1,
    -- 5380: del tmp19
    .del 235,
    -- 5381: r1new.b += einsum(r2.bbb, (0, 1, 2), tmp20, (2, 3, 1, 0), (3,)) * -4
    .add 265 (.ein [(13, [0, 1, 2]), (236, [2, 3, 1, 0])] [3]) (-4) 1,
    -- 5382: del tmp20
    .del 236,
    -- 5383: r1new.b += einsum(tmp22, (0, 1, 2, 3), tmp21, (0, 1, 2), (3,)) * 2
    .add 265 (.ein [(234, [0, 1, 2, 3]), (183, [0, 1, 2])] [3]) 2 1,
    -- 5384: del tmp21, tmp22
    .del 183,
    .del 234,
    -- 5385: r1new.b += einsum(tmp23, (0, 1, 2), tmp24, (0, 1, 2, 3), (3,))
    .add 265 (.ein [(240, [0, 1, 2]), (238, [0, 1, 2, 3])] [3]) 1 1,
    -- 5386: del tmp23, tmp24
    .del 240,
    .del 238,
    -- 5387: r1new.b += einsum(tmp26, (0, 1, 2, 3), tmp25, (0, 1, 3), (2,))
    .add 265 (.ein [(239, [0, 1, 2, 3]), (211, [0, 1, 3])] [2]) 1 1,
    -- 5388: del tmp25, tmp26
    .del 211,
    .del 239,
    -- 5389: r1new.b += einsum(r2.aba, (0, 1, 2), tmp27, (2, 0), (1,)) * 2
    .add 265 (.ein [(12, [0, 1, 2]), (233, [2, 0])] [1]) 2 1,
    -- 5390: del tmp27
    .del 233,
    -- 5391: r1new.b += einsum(r2.bbb, (0, 1, 2), tmp28, (2, 1), (0,)) * -2
    .add 265 (.ein [(13, [0, 1, 2]), (244, [2, 1])] [0]) (-2) 1,
    -- 5392: del tmp28
    .del 244,
    -- 5393: r1new.b += einsum(tmp29, (0, 1, 2), tmp30, (0, 2, 1, 3), (3,)) * -2
    .add 265 (.ein [(241, [0, 1, 2]), (232, [0, 2, 1, 3])] [3]) (-2) 1,
    -- 5394: del tmp29, tmp30
    .del 241,
    .del 232,
    -- 5395: r1new.b += einsum(tmp32, (0, 1, 2, 3), tmp31, (0, 1, 2), (3,)) * -1
    .add 265 (.ein [(242, [0, 1, 2, 3]), (245, [0, 1, 2])] [3]) (-1) 1,
    -- 5396: del tmp32, tmp31
    .del 242,
    .del 245,
    -- 5397: r1new.b += einsum(tmp33, (0, 1), r1.b, (0,), (1,)) * -1
    .add 265 (.ein [(243, [0, 1]), (27, [0])] [1]) (-1) 1,
    -- 5398: del tmp33
    .del 243,
    -- 5399: r1new.b += einsum(tmp36, (0,), tmp37, (0, 1), (1,)) * -1
    .add 265 (.ein [(231, [0]), (237, [0, 1])] [1]) (-1) 1,
    -- 5400: del tmp36, tmp37
    .del 231,
    .del 237,
    -- 5401: r1new.a = einsum(tmp0, (0, 1, 2, 3), r2.bab, (3, 1, 0), (2,)) * -1
    .set 266 (.ein [(246, [0, 1, 2, 3]), (7, [3, 1, 0])] [2]) (-1) 1,
    -- 5402: del tmp0
    .del 246,
    -- 5403: r1new.a += einsum(r2.aaa, (0, 1, 2), tmp1, (2, 0, 1, 3), (3,)) * 4
    .add 266 (.ein [(8, [0, 1, 2]), (259, [2, 0, 1, 3])] [3]) 4 1,
    -- 5404: del tmp1
    .del 259,
    -- 5405: r1new.a += einsum(tmp2, (0, 1, 2), tmp3, (0, 1, 2, 3), (3,)) * 2
    .add 266 (.ein [(191, [0, 1, 2]), (253, [0, 1, 2, 3])] [3]) 2 1,
    -- 5406: del tmp2, tmp3
    .del 191,
    .del 253,
    -- 5407: r1new.a += einsum(tmp5, (0, 1, 2, 3), tmp4, (0, 1, 3), (2,)) * -1
    .add 266 (.ein [(250, [0, 1, 2, 3]), (255, [0, 1, 3])] [2]) (-1) 1,
    -- 5408: del tmp5, tmp4
    .del 250,
    .del 255,
    -- 5409: r1new.a += einsum(tmp6, (0, 1, 2), tmp7, (0, 1, 2, 3), (3,)) * -1
    .add 266 (.ein [(212, [0, 1, 2]), (249, [0, 1, 2, 3])] [3]) (-1) 1,
    -- 5410: del tmp6, tmp7
    .del 212,
    .del 249,
    -- 5411: r1new.a += einsum(r2.aaa, (0, 1, 2), tmp8, (2, 1), (0,)) * -2
    .add 266 (.ein [(8, [0, 1, 2]), (258, [2, 1])] [0]) (-2) 1,
    -- 5412: del tmp8
    .del 258,
    -- 5413: r1new.a += einsum(r2.bab, (0, 1, 2), tmp9, (2, 0), (1,)) * 2
    .add 266 (.ein [(7, [0, 1, 2]), (254, [2, 0])] [1]) 2 1,
    -- 5414: del tmp9
    .del 254,
    -- 5415: r1new.a += einsum(tmp10, (0, 1, 2), tmp11, (0, 2, 1, 3), (3,)) * -2
    .add 266 (.ein [(257, [0, 1, 2]), (248, [0, 2, 1, 3])] [3]) (-2) 1,
    -- 5416: del tmp10, tmp11
    .del 257,
    .del 248,
    -- 5417: r1new.a += einsum(tmp12, (0, 1, 2), tmp13, (0, 1, 2, 3), (3,))
    .add 266 (.ein [(260, [0, 1, 2]), (256, [0, 1, 2, 3])] [3]) 1 1,
    -- 5418: del tmp12, tmp13
    .del 260,
    .del 256,
    -- 5419: r1new.a += einsum(r1.a, (0,), tmp14, (0, 1), (1,)) * -1
    .add 266 (.ein [(32, [0]), (247, [0, 1])] [1]) (-1) 1,
    -- 5420: del tmp14
    .del 247,
    -- 5421: r1new.a += einsum(tmp18, (0, 1), tmp17, (0,), (1,)) * -2
    .add 266 (.ein [(251, [0, 1]), (252, [0])] [1]) (-2) 1,
    -- 5422: del tmp18, tmp17
    .del 251,
    .del 252
  ]
  ret := [(chars! "r1new.b", 265), (chars! "r1new.a", 266), (chars! "r2new.bbb", 261), (chars! "r2new.bab", 262), (chars! "r2new.aba", 263), (chars! "r2new.aaa", 264)]

end Ebcc.Gen.UDFCC2Eom
