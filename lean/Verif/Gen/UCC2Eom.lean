import Verif.Model.GenCode
/-!
Functions of `ebcc/codegen/UCC2.py`, written by `tools/gencode.py`.  Comments give the
number and the text of the line of each statement.
-/

set_option maxRecDepth 100000

namespace Ebcc.Gen.UCC2Eom

/-- codegen/UCC2.py:2095-2293 `hbar_matvec_ip_intermediates`. -/
def hbar_matvec_ip_intermediates : GenFun where
  args := [chars! "t1.bb", chars! "f.bb.ov", chars! "t1.aa", chars! "f.aa.ov", chars! "v.aabb.ovov", chars! "v.bbbb.ovov", chars! "v.aaaa.ovov", chars! "t2.bbbb", chars! "t2.abab", chars! "v.aabb.ovoo", chars! "v.bbbb.ooov", chars! "v.bbbb.ovvv", chars! "v.aabb.ovvv", chars! "f.bb.vv", chars! "f.bb.oo", chars! "v.aabb.ooov", chars! "v.aaaa.ooov", chars! "t2.aaaa", chars! "v.aabb.vvov", chars! "f.aa.oo", chars! "v.aaaa.ovvv", chars! "f.aa.vv"]
  body := [
    -- 2203: tmp28 = einsum(t1.bb, (0, 1), f.bb.ov, (2, 1), (2, 0))
    .set 22 (.ein [(0, [0, 1]), (1, [2, 1])] [2, 0]) 1 1,
    -- 2204: tmp1 = einsum(t1.aa, (0, 1), f.aa.ov, (2, 1), (2, 0))
    .set 23 (.ein [(2, [0, 1]), (3, [2, 1])] [2, 0]) 1 1,
    -- 2205: tmp15 = einsum(t1.aa, (0, 1), v.aabb.ovov, (0, 1, 2, 3), (2, 3))
    .set 24 (.ein [(2, [0, 1]), (4, [0, 1, 2, 3])] [2, 3]) 1 1,
    -- 2206: tmp12 = einsum(t1.bb, (0, 1), v.bbbb.ovov, (2, 3, 0, 1), (2, 3))
    .set 25 (.ein [(0, [0, 1]), (5, [2, 3, 0, 1])] [2, 3]) 1 1,
    -- 2207: tmp11 = einsum(t1.bb, (0, 1), v.bbbb.ovov, (2, 1, 0, 3), (2, 3))
    .set 26 (.ein [(0, [0, 1]), (5, [2, 1, 0, 3])] [2, 3]) 1 1,
    -- 2208: tmp13 = einsum(v.aabb.ovov, (0, 1, 2, 3), t1.bb, (2, 3), (0, 1))
    .set 27 (.ein [(4, [0, 1, 2, 3]), (0, [2, 3])] [0, 1]) 1 1,
    -- 2209: tmp9 = einsum(v.aaaa.ovov, (0, 1, 2, 3), t1.aa, (2, 3), (0, 1))
    .set 28 (.ein [(6, [0, 1, 2, 3]), (2, [2, 3])] [0, 1]) 1 1,
    -- 2210: tmp7 = einsum(v.aaaa.ovov, (0, 1, 2, 3), t1.aa, (2, 1), (0, 3))
    .set 29 (.ein [(6, [0, 1, 2, 3]), (2, [2, 1])] [0, 3]) 1 1,
    -- 2211: tmp198 = einsum(f.bb.ov, (0, 1), t2.bbbb, (2, 3, 4, 1), (0, 2, 3, 4))
    .set 30 (.ein [(1, [0, 1]), (7, [2, 3, 4, 1])] [0, 2, 3, 4]) 1 1,
    -- 2212: tmp188 = einsum(t2.abab, (0, 1, 2, 3), v.aabb.ovoo, (0, 2, 4, 5), (1, 4, 5, 3))
    .set 31 (.ein [(8, [0, 1, 2, 3]), (9, [0, 2, 4, 5])] [1, 4, 5, 3]) 1 1,
    -- 2213: tmp186 = einsum(t2.bbbb, (0, 1, 2, 3), v.bbbb.ooov, (4, 5, 1, 3), (0, 4, 5, 2))
    .set 32 (.ein [(7, [0, 1, 2, 3]), (10, [4, 5, 1, 3])] [0, 4, 5, 2]) 1 1,
    -- 2214: tmp184 = einsum(t2.bbbb, (0, 1, 2, 3), v.bbbb.ooov, (4, 1, 5, 3), (0, 4, 5, 2))
    .set 33 (.ein [(7, [0, 1, 2, 3]), (10, [4, 1, 5, 3])] [0, 4, 5, 2]) 1 1,
    -- 2215: tmp178 = einsum(t2.bbbb, (0, 1, 2, 3), v.bbbb.ovov, (4, 3, 5, 2), (0, 1, 4, 5)) * -1
    .set 34 (.ein [(7, [0, 1, 2, 3]), (5, [4, 3, 5, 2])] [0, 1, 4, 5]) (-1) 1,
    -- 2216: tmp176 = einsum(v.bbbb.ovvv, (0, 1, 2, 3), t2.bbbb, (4, 5, 3, 1), (4, 5, 0, 2)) * -1
    .set 35 (.ein [(11, [0, 1, 2, 3]), (7, [4, 5, 3, 1])] [4, 5, 0, 2]) (-1) 1,
    -- 2217: tmp170 = einsum(tmp28, (0, 1), t1.bb, (0, 2), (1, 2))
    .set 36 (.ein [(22, [0, 1]), (0, [0, 2])] [1, 2]) 1 1,
    -- 2218: tmp167 = einsum(t2.abab, (0, 1, 2, 3), v.aabb.ovvv, (0, 2, 4, 3), (1, 4))
    .set 37 (.ein [(8, [0, 1, 2, 3]), (12, [0, 2, 4, 3])] [1, 4]) 1 1,
    -- 2219: tmp166 = einsum(v.bbbb.ovvv, (0, 1, 2, 3), t2.bbbb, (4, 0, 3, 1), (4, 2)) * -1
    .set 38 (.ein [(11, [0, 1, 2, 3]), (7, [4, 0, 3, 1])] [4, 2]) (-1) 1,
    -- 2220: tmp165 = einsum(f.bb.vv, (0, 1), t1.bb, (2, 1), (2, 0))
    .set 39 (.ein [(13, [0, 1]), (0, [2, 1])] [2, 0]) 1 1,
    -- 2221: tmp162 = einsum(t2.abab, (0, 1, 2, 3), v.aabb.ovov, (4, 2, 1, 5), (0, 4, 3, 5))
    .set 40 (.ein [(8, [0, 1, 2, 3]), (4, [4, 2, 1, 5])] [0, 4, 3, 5]) 1 1,
    -- 2222: tmp160 = einsum(t2.abab, (0, 1, 2, 3), v.aabb.ovov, (0, 2, 1, 4), (3, 4))
    .set 41 (.ein [(8, [0, 1, 2, 3]), (4, [0, 2, 1, 4])] [3, 4]) 1 1,
    -- 2223: tmp158 = einsum(v.bbbb.ovov, (0, 1, 2, 3), t2.bbbb, (0, 2, 4, 3), (4, 1))
    .set 42 (.ein [(5, [0, 1, 2, 3]), (7, [0, 2, 4, 3])] [4, 1]) 1 1,
    -- 2224: tmp157 = einsum(v.aabb.ovoo, (0, 1, 2, 3), t2.abab, (4, 3, 1, 5), (4, 0, 2, 5))
    .set 43 (.ein [(9, [0, 1, 2, 3]), (8, [4, 3, 1, 5])] [4, 0, 2, 5]) 1 1,
    -- 2225: tmp156 = einsum(v.aabb.ovoo, (0, 1, 2, 3), t2.abab, (0, 3, 1, 4), (2, 4))
    .set 44 (.ein [(9, [0, 1, 2, 3]), (8, [0, 3, 1, 4])] [2, 4]) 1 1,
    -- 2226: tmp155 = einsum(t2.bbbb, (0, 1, 2, 3), v.bbbb.ooov, (4, 0, 1, 3), (4, 2))
    .set 45 (.ein [(7, [0, 1, 2, 3]), (10, [4, 0, 1, 3])] [4, 2]) 1 1,
    -- 2227: tmp154 = einsum(t2.abab, (0, 1, 2, 3), f.aa.ov, (4, 2), (4, 0, 1, 3))
    .set 46 (.ein [(8, [0, 1, 2, 3]), (3, [4, 2])] [4, 0, 1, 3]) 1 1,
    -- 2228: tmp152 = einsum(t1.bb, (0, 1), f.bb.oo, (2, 0), (2, 1))
    .set 47 (.ein [(0, [0, 1]), (14, [2, 0])] [2, 1]) 1 1,
    -- 2229: tmp151 = einsum(t2.abab, (0, 1, 2, 3), v.aabb.ovov, (0, 2, 4, 5), (1, 4, 3, 5))
    .set 48 (.ein [(8, [0, 1, 2, 3]), (4, [0, 2, 4, 5])] [1, 4, 3, 5]) 1 1,
    -- 2230: tmp149 = einsum(t2.bbbb, (0, 1, 2, 3), v.aabb.ovov, (4, 5, 1, 3), (4, 0, 5, 2))
    .set 49 (.ein [(7, [0, 1, 2, 3]), (4, [4, 5, 1, 3])] [4, 0, 5, 2]) 1 1,
    -- 2231: tmp147 = einsum(t2.bbbb, (0, 1, 2, 3), v.bbbb.ovov, (4, 5, 1, 3), (0, 4, 2, 5))
    .set 50 (.ein [(7, [0, 1, 2, 3]), (5, [4, 5, 1, 3])] [0, 4, 2, 5]) 1 1,
    -- 2232: tmp145 = einsum(t2.bbbb, (0, 1, 2, 3), v.bbbb.ovov, (4, 3, 1, 5), (0, 4, 2, 5))
    .set 51 (.ein [(7, [0, 1, 2, 3]), (5, [4, 3, 1, 5])] [0, 4, 2, 5]) 1 1,
    -- 2233: tmp143 = einsum(v.aaaa.ovov, (0, 1, 2, 3), t2.abab, (2, 4, 3, 5), (0, 4, 1, 5))
    .set 52 (.ein [(6, [0, 1, 2, 3]), (8, [2, 4, 3, 5])] [0, 4, 1, 5]) 1 1,
    -- 2234: tmp141 = einsum(v.aaaa.ovov, (0, 1, 2, 3), t2.abab, (2, 4, 1, 5), (0, 4, 3, 5))
    .set 53 (.ein [(6, [0, 1, 2, 3]), (8, [2, 4, 1, 5])] [0, 4, 3, 5]) 1 1,
    -- 2235: tmp139 = einsum(t2.bbbb, (0, 1, 2, 3), v.aabb.ooov, (4, 5, 1, 3), (4, 5, 0, 2))
    .set 54 (.ein [(7, [0, 1, 2, 3]), (15, [4, 5, 1, 3])] [4, 5, 0, 2]) 1 1,
    -- 2236: tmp138 = einsum(t2.abab, (0, 1, 2, 3), v.aaaa.ooov, (4, 5, 0, 2), (4, 5, 1, 3))
    .set 55 (.ein [(8, [0, 1, 2, 3]), (16, [4, 5, 0, 2])] [4, 5, 1, 3]) 1 1,
    -- 2237: tmp137 = einsum(t2.abab, (0, 1, 2, 3), v.aaaa.ooov, (4, 0, 5, 2), (4, 5, 1, 3))
    .set 56 (.ein [(8, [0, 1, 2, 3]), (16, [4, 0, 5, 2])] [4, 5, 1, 3]) 1 1,
    -- 2238: tmp135 = einsum(t2.bbbb, (0, 1, 2, 3), f.bb.ov, (1, 3), (0, 2))
    .set 57 (.ein [(7, [0, 1, 2, 3]), (1, [1, 3])] [0, 2]) 1 1,
    -- 2239: tmp134 = einsum(t2.abab, (0, 1, 2, 3), f.aa.ov, (0, 2), (1, 3))
    .set 58 (.ein [(8, [0, 1, 2, 3]), (3, [0, 2])] [1, 3]) 1 1,
    -- 2240: tmp131 = einsum(t2.abab, (0, 1, 2, 3), v.aabb.ovvv, (4, 2, 5, 3), (0, 4, 1, 5))
    .set 59 (.ein [(8, [0, 1, 2, 3]), (12, [4, 2, 5, 3])] [0, 4, 1, 5]) 1 1,
    -- 2241: tmp121 = einsum(t2.abab, (0, 1, 2, 3), v.aabb.ovov, (0, 4, 5, 3), (1, 5, 2, 4))
    .set 60 (.ein [(8, [0, 1, 2, 3]), (4, [0, 4, 5, 3])] [1, 5, 2, 4]) 1 1,
    -- 2242: tmp118 = einsum(t2.abab, (0, 1, 2, 3), v.aabb.ooov, (4, 0, 5, 3), (4, 1, 5, 2))
    .set 61 (.ein [(8, [0, 1, 2, 3]), (15, [4, 0, 5, 3])] [4, 1, 5, 2]) 1 1,
    -- 2243: tmp117 = einsum(t2.abab, (0, 1, 2, 3), f.bb.ov, (4, 3), (0, 4, 1, 2))
    .set 62 (.ein [(8, [0, 1, 2, 3]), (1, [4, 3])] [0, 4, 1, 2]) 1 1,
    -- 2244: tmp109 = einsum(v.aabb.ovoo, (0, 1, 2, 3), t2.aaaa, (4, 0, 5, 1), (4, 2, 3, 5))
    .set 63 (.ein [(9, [0, 1, 2, 3]), (17, [4, 0, 5, 1])] [4, 2, 3, 5]) 1 1,
    -- 2245: tmp108 = einsum(t2.abab, (0, 1, 2, 3), v.bbbb.ooov, (4, 5, 1, 3), (0, 4, 5, 2))
    .set 64 (.ein [(8, [0, 1, 2, 3]), (10, [4, 5, 1, 3])] [0, 4, 5, 2]) 1 1,
    -- 2246: tmp107 = einsum(t2.abab, (0, 1, 2, 3), v.bbbb.ooov, (4, 1, 5, 3), (0, 4, 5, 2))
    .set 65 (.ein [(8, [0, 1, 2, 3]), (10, [4, 1, 5, 3])] [0, 4, 5, 2]) 1 1,
    -- 2247: tmp104 = einsum(t2.abab, (0, 1, 2, 3), v.aabb.ovov, (4, 2, 5, 3), (0, 4, 1, 5))
    .set 66 (.ein [(8, [0, 1, 2, 3]), (4, [4, 2, 5, 3])] [0, 4, 1, 5]) 1 1,
    -- 2248: tmp102 = einsum(t2.abab, (0, 1, 2, 3), v.aabb.vvov, (4, 2, 5, 3), (0, 1, 5, 4))
    .set 67 (.ein [(8, [0, 1, 2, 3]), (18, [4, 2, 5, 3])] [0, 1, 5, 4]) 1 1,
    -- 2249: tmp96 = einsum(t1.aa, (0, 1), tmp1, (0, 2), (2, 1))
    .set 68 (.ein [(2, [0, 1]), (23, [0, 2])] [2, 1]) 1 1,
    -- 2250: tmp89 = einsum(f.aa.ov, (0, 1), t2.aaaa, (2, 3, 4, 1), (0, 2, 3, 4))
    .set 69 (.ein [(3, [0, 1]), (17, [2, 3, 4, 1])] [0, 2, 3, 4]) 1 1,
    -- 2251: tmp87 = einsum(v.aabb.ovov, (0, 1, 2, 3), t2.aaaa, (4, 0, 5, 1), (4, 2, 5, 3))
    .set 70 (.ein [(4, [0, 1, 2, 3]), (17, [4, 0, 5, 1])] [4, 2, 5, 3]) 1 1,
    -- 2252: tmp85 = einsum(t2.abab, (0, 1, 2, 3), v.aabb.ovov, (4, 5, 1, 3), (0, 4, 2, 5))
    .set 71 (.ein [(8, [0, 1, 2, 3]), (4, [4, 5, 1, 3])] [0, 4, 2, 5]) 1 1,
    -- 2253: tmp83 = einsum(v.bbbb.ovov, (0, 1, 2, 3), t2.abab, (4, 2, 5, 3), (4, 0, 5, 1))
    .set 72 (.ein [(5, [0, 1, 2, 3]), (8, [4, 2, 5, 3])] [4, 0, 5, 1]) 1 1,
    -- 2254: tmp81 = einsum(v.bbbb.ovov, (0, 1, 2, 3), t2.abab, (4, 2, 5, 1), (4, 0, 5, 3))
    .set 73 (.ein [(5, [0, 1, 2, 3]), (8, [4, 2, 5, 1])] [4, 0, 5, 3]) 1 1,
    -- 2255: tmp79 = einsum(v.aaaa.ovov, (0, 1, 2, 3), t2.aaaa, (4, 2, 5, 3), (4, 0, 5, 1))
    .set 74 (.ein [(6, [0, 1, 2, 3]), (17, [4, 2, 5, 3])] [4, 0, 5, 1]) 1 1,
    -- 2256: tmp77 = einsum(v.aaaa.ovov, (0, 1, 2, 3), t2.aaaa, (4, 2, 5, 1), (4, 0, 5, 3))
    .set 75 (.ein [(6, [0, 1, 2, 3]), (17, [4, 2, 5, 1])] [4, 0, 5, 3]) 1 1,
    -- 2257: tmp75 = einsum(t2.abab, (0, 1, 2, 3), v.aabb.ovov, (0, 4, 1, 3), (2, 4))
    .set 76 (.ein [(8, [0, 1, 2, 3]), (4, [0, 4, 1, 3])] [2, 4]) 1 1,
    -- 2258: tmp73 = einsum(v.aaaa.ovov, (0, 1, 2, 3), t2.aaaa, (0, 2, 4, 3), (4, 1))
    .set 77 (.ein [(6, [0, 1, 2, 3]), (17, [0, 2, 4, 3])] [4, 1]) 1 1,
    -- 2259: tmp71 = einsum(t2.abab, (0, 1, 2, 3), v.aabb.ooov, (4, 5, 1, 3), (0, 4, 5, 2))
    .set 78 (.ein [(8, [0, 1, 2, 3]), (15, [4, 5, 1, 3])] [0, 4, 5, 2]) 1 1,
    -- 2260: tmp69 = einsum(v.aaaa.ooov, (0, 1, 2, 3), t2.aaaa, (4, 2, 5, 3), (4, 0, 1, 5))
    .set 79 (.ein [(16, [0, 1, 2, 3]), (17, [4, 2, 5, 3])] [4, 0, 1, 5]) 1 1,
    -- 2261: tmp67 = einsum(v.aaaa.ooov, (0, 1, 2, 3), t2.aaaa, (4, 1, 5, 3), (4, 0, 2, 5))
    .set 80 (.ein [(16, [0, 1, 2, 3]), (17, [4, 1, 5, 3])] [4, 0, 2, 5]) 1 1,
    -- 2262: tmp66 = einsum(t2.abab, (0, 1, 2, 3), v.aabb.ooov, (4, 0, 1, 3), (4, 2))
    .set 81 (.ein [(8, [0, 1, 2, 3]), (15, [4, 0, 1, 3])] [4, 2]) 1 1,
    -- 2263: tmp65 = einsum(v.aaaa.ooov, (0, 1, 2, 3), t2.aaaa, (1, 2, 4, 3), (0, 4))
    .set 82 (.ein [(16, [0, 1, 2, 3]), (17, [1, 2, 4, 3])] [0, 4]) 1 1,
    -- 2264: tmp63 = einsum(t2.abab, (0, 1, 2, 3), f.bb.ov, (1, 3), (0, 2))
    .set 83 (.ein [(8, [0, 1, 2, 3]), (1, [1, 3])] [0, 2]) 1 1,
    -- 2265: tmp62 = einsum(t2.aaaa, (0, 1, 2, 3), f.aa.ov, (1, 3), (0, 2))
    .set 84 (.ein [(17, [0, 1, 2, 3]), (3, [1, 3])] [0, 2]) 1 1,
    -- 2266: tmp59 = einsum(f.aa.oo, (0, 1), t1.aa, (1, 2), (0, 2))
    .set 85 (.ein [(19, [0, 1]), (2, [1, 2])] [0, 2]) 1 1,
    -- 2267: tmp56 = einsum(t2.aaaa, (0, 1, 2, 3), v.aaaa.ovov, (4, 2, 5, 3), (0, 1, 4, 5))
    .set 86 (.ein [(17, [0, 1, 2, 3]), (6, [4, 2, 5, 3])] [0, 1, 4, 5]) 1 1,
    -- 2268: tmp54 = einsum(v.aaaa.ovvv, (0, 1, 2, 3), t2.aaaa, (4, 5, 3, 1), (4, 5, 0, 2)) * -1
    .set 87 (.ein [(20, [0, 1, 2, 3]), (17, [4, 5, 3, 1])] [4, 5, 0, 2]) (-1) 1,
    -- 2269: tmp53 = einsum(t2.abab, (0, 1, 2, 3), v.aabb.vvov, (4, 2, 1, 3), (0, 4))
    .set 88 (.ein [(8, [0, 1, 2, 3]), (18, [4, 2, 1, 3])] [0, 4]) 1 1,
    -- 2270: tmp52 = einsum(v.aaaa.ovvv, (0, 1, 2, 3), t2.aaaa, (4, 0, 3, 1), (4, 2)) * -1
    .set 89 (.ein [(20, [0, 1, 2, 3]), (17, [4, 0, 3, 1])] [4, 2]) (-1) 1,
    -- 2271: tmp49 = einsum(f.aa.vv, (0, 1), t1.aa, (2, 1), (2, 0))
    .set 90 (.ein [(21, [0, 1]), (2, [2, 1])] [2, 0]) 1 1,
    -- 2272: tmp47 = einsum(tmp15, (0, 1), t1.bb, (2, 1), (2, 0))
    .set 91 (.ein [(24, [0, 1]), (0, [2, 1])] [2, 0]) 1 1,
    -- 2273: tmp46 = einsum(tmp12, (0, 1), t1.bb, (2, 1), (2, 0))
    .set 92 (.ein [(25, [0, 1]), (0, [2, 1])] [2, 0]) 1 1,
    -- 2274: tmp45 = einsum(tmp11, (0, 1), t1.bb, (2, 1), (2, 0))
    .set 93 (.ein [(26, [0, 1]), (0, [2, 1])] [2, 0]) 1 1,
    -- 2275: tmp43 = einsum(t2.abab, (0, 1, 2, 3), v.aabb.ovov, (0, 2, 4, 3), (1, 4))
    .set 94 (.ein [(8, [0, 1, 2, 3]), (4, [0, 2, 4, 3])] [1, 4]) 1 1,
    -- 2276: tmp41 = einsum(v.bbbb.ovov, (0, 1, 2, 3), t2.bbbb, (4, 2, 1, 3), (4, 0))
    .set 95 (.ein [(5, [0, 1, 2, 3]), (7, [4, 2, 1, 3])] [4, 0]) 1 1,
    -- 2277: tmp39 = einsum(v.aabb.ovov, (0, 1, 2, 3), t1.bb, (4, 3), (0, 4, 2, 1))
    .set 96 (.ein [(4, [0, 1, 2, 3]), (0, [4, 3])] [0, 4, 2, 1]) 1 1,
    -- 2278: tmp37 = einsum(v.bbbb.ovov, (0, 1, 2, 3), t1.bb, (4, 3), (4, 0, 2, 1))
    .set 97 (.ein [(5, [0, 1, 2, 3]), (0, [4, 3])] [4, 0, 2, 1]) 1 1,
    -- 2279: tmp33 = einsum(t1.aa, (0, 1), v.aabb.ovoo, (0, 1, 2, 3), (2, 3))
    .set 98 (.ein [(2, [0, 1]), (9, [0, 1, 2, 3])] [2, 3]) 1 1,
    -- 2280: tmp32 = einsum(v.bbbb.ooov, (0, 1, 2, 3), t1.bb, (2, 3), (0, 1))
    .set 99 (.ein [(10, [0, 1, 2, 3]), (0, [2, 3])] [0, 1]) 1 1,
    -- 2281: tmp31 = einsum(t1.bb, (0, 1), v.bbbb.ooov, (2, 0, 3, 1), (2, 3))
    .set 100 (.ein [(0, [0, 1]), (10, [2, 0, 3, 1])] [2, 3]) 1 1,
    -- 2282: tmp26 = einsum(t1.aa, (0, 1), tmp13, (2, 1), (0, 2))
    .set 101 (.ein [(2, [0, 1]), (27, [2, 1])] [0, 2]) 1 1,
    -- 2283: tmp25 = einsum(t1.aa, (0, 1), tmp9, (2, 1), (0, 2))
    .set 102 (.ein [(2, [0, 1]), (28, [2, 1])] [0, 2]) 1 1,
    -- 2284: tmp24 = einsum(t1.aa, (0, 1), tmp7, (2, 1), (0, 2))
    .set 103 (.ein [(2, [0, 1]), (29, [2, 1])] [0, 2]) 1 1,
    -- 2285: tmp22 = einsum(t2.abab, (0, 1, 2, 3), v.aabb.ovov, (4, 2, 1, 3), (0, 4))
    .set 104 (.ein [(8, [0, 1, 2, 3]), (4, [4, 2, 1, 3])] [0, 4]) 1 1,
    -- 2286: tmp20 = einsum(t2.aaaa, (0, 1, 2, 3), v.aaaa.ovov, (4, 2, 1, 3), (0, 4))
    .set 105 (.ein [(17, [0, 1, 2, 3]), (6, [4, 2, 1, 3])] [0, 4]) 1 1,
    -- 2287: tmp18 = einsum(t1.aa, (0, 1), v.aabb.ovov, (2, 1, 3, 4), (0, 2, 3, 4))
    .set 106 (.ein [(2, [0, 1]), (4, [2, 1, 3, 4])] [0, 2, 3, 4]) 1 1,
    -- 2288: tmp16 = einsum(t1.aa, (0, 1), v.aaaa.ovov, (2, 3, 4, 1), (0, 2, 4, 3))
    .set 107 (.ein [(2, [0, 1]), (6, [2, 3, 4, 1])] [0, 2, 4, 3]) 1 1,
    -- 2289: tmp6 = einsum(v.aabb.ooov, (0, 1, 2, 3), t1.bb, (2, 3), (0, 1))
    .set 108 (.ein [(15, [0, 1, 2, 3]), (0, [2, 3])] [0, 1]) 1 1,
    -- 2290: tmp5 = einsum(t1.aa, (0, 1), v.aaaa.ooov, (2, 3, 0, 1), (2, 3))
    .set 109 (.ein [(2, [0, 1]), (16, [2, 3, 0, 1])] [2, 3]) 1 1,
    -- 2291: tmp4 = einsum(v.aaaa.ooov, (0, 1, 2, 3), t1.aa, (1, 3), (0, 2))
    .set 110 (.ein [(16, [0, 1, 2, 3]), (2, [1, 3])] [0, 2]) 1 1
  ]
  ret := [(chars! "tmp1", 23), (chars! "tmp102", 67), (chars! "tmp104", 66), (chars! "tmp107", 65), (chars! "tmp108", 64), (chars! "tmp109", 63), (chars! "tmp11", 26), (chars! "tmp117", 62), (chars! "tmp118", 61), (chars! "tmp12", 25), (chars! "tmp121", 60), (chars! "tmp13", 27), (chars! "tmp131", 59), (chars! "tmp134", 58), (chars! "tmp135", 57), (chars! "tmp137", 56), (chars! "tmp138", 55), (chars! "tmp139", 54), (chars! "tmp141", 53), (chars! "tmp143", 52), (chars! "tmp145", 51), (chars! "tmp147", 50), (chars! "tmp149", 49), (chars! "tmp15", 24), (chars! "tmp151", 48), (chars! "tmp152", 47), (chars! "tmp154", 46), (chars! "tmp155", 45), (chars! "tmp156", 44), (chars! "tmp157", 43), (chars! "tmp158", 42), (chars! "tmp16", 107), (chars! "tmp160", 41), (chars! "tmp162", 40), (chars! "tmp165", 39), (chars! "tmp166", 38), (chars! "tmp167", 37), (chars! "tmp170", 36), (chars! "tmp176", 35), (chars! "tmp178", 34), (chars! "tmp18", 106), (chars! "tmp184", 33), (chars! "tmp186", 32), (chars! "tmp188", 31), (chars! "tmp198", 30), (chars! "tmp20", 105), (chars! "tmp22", 104), (chars! "tmp24", 103), (chars! "tmp25", 102), (chars! "tmp26", 101), (chars! "tmp28", 22), (chars! "tmp31", 100), (chars! "tmp32", 99), (chars! "tmp33", 98), (chars! "tmp37", 97), (chars! "tmp39", 96), (chars! "tmp4", 110), (chars! "tmp41", 95), (chars! "tmp43", 94), (chars! "tmp45", 93), (chars! "tmp46", 92), (chars! "tmp47", 91), (chars! "tmp49", 90), (chars! "tmp5", 109), (chars! "tmp52", 89), (chars! "tmp53", 88), (chars! "tmp54", 87), (chars! "tmp56", 86), (chars! "tmp59", 85), (chars! "tmp6", 108), (chars! "tmp62", 84), (chars! "tmp63", 83), (chars! "tmp65", 82), (chars! "tmp66", 81), (chars! "tmp67", 80), (chars! "tmp69", 79), (chars! "tmp7", 29), (chars! "tmp71", 78), (chars! "tmp73", 77), (chars! "tmp75", 76), (chars! "tmp77", 75), (chars! "tmp79", 74), (chars! "tmp81", 73), (chars! "tmp83", 72), (chars! "tmp85", 71), (chars! "tmp87", 70), (chars! "tmp89", 69), (chars! "tmp9", 28), (chars! "tmp96", 68)]

/-- codegen/UCC2.py:2295-2743 `hbar_matvec_ip`. -/
def hbar_matvec_ip : GenFun where
  args := [chars! "f.bb.oo", chars! "ints.tmp28", chars! "ints.tmp143", chars! "ints.tmp149", chars! "ints.tmp188", chars! "ints.tmp186", chars! "ints.tmp41", chars! "ints.tmp43", chars! "ints.tmp184", chars! "v.bbbb.ooov", chars! "ints.tmp147", chars! "ints.tmp151", chars! "ints.tmp67", chars! "v.aaaa.ooov", chars! "ints.tmp83", chars! "ints.tmp87", chars! "ints.tmp20", chars! "ints.tmp22", chars! "ints.tmp79", chars! "ints.tmp85", chars! "f.aa.oo", chars! "ints.tmp1", chars! "ints.tmp71", chars! "ints.tmp69", chars! "ints.tmp145", chars! "r2.bbb", chars! "v.bbbb.ovov", chars! "r2.aba", chars! "r1.b", chars! "t1.bb", chars! "f.bb.ov", chars! "v.aabb.ovov", chars! "ints.tmp141", chars! "v.bbbb.oovv", chars! "r2.bab", chars! "r2.aaa", chars! "v.aaaa.ovov", chars! "t1.aa", chars! "f.aa.ov", chars! "r1.a", chars! "v.aaaa.oovv", chars! "ints.tmp77", chars! "ints.tmp81", chars! "ints.tmp152", chars! "ints.tmp155", chars! "ints.tmp156", chars! "ints.tmp166", chars! "ints.tmp170", chars! "ints.tmp134", chars! "ints.tmp135", chars! "ints.tmp165", chars! "ints.tmp167", chars! "ints.tmp158", chars! "ints.tmp160", chars! "f.bb.vv", chars! "ints.tmp178", chars! "v.bbbb.oooo", chars! "ints.tmp176", chars! "ints.tmp198", chars! "ints.tmp131", chars! "ints.tmp138", chars! "ints.tmp139", chars! "ints.tmp154", chars! "v.aabb.ooov", chars! "ints.tmp137", chars! "ints.tmp157", chars! "ints.tmp162", chars! "v.aabb.oovv", chars! "ints.tmp104", chars! "v.aabb.oooo", chars! "ints.tmp102", chars! "ints.tmp108", chars! "ints.tmp109", chars! "ints.tmp117", chars! "v.aabb.ovoo", chars! "ints.tmp107", chars! "ints.tmp118", chars! "ints.tmp52", chars! "ints.tmp59", chars! "ints.tmp65", chars! "ints.tmp66", chars! "ints.tmp96", chars! "ints.tmp49", chars! "ints.tmp53", chars! "ints.tmp62", chars! "ints.tmp63", chars! "ints.tmp121", chars! "v.aabb.vvoo", chars! "ints.tmp73", chars! "ints.tmp75", chars! "f.aa.vv", chars! "ints.tmp56", chars! "v.aaaa.oooo", chars! "ints.tmp54", chars! "ints.tmp89", chars! "ints.tmp32", chars! "ints.tmp33", chars! "ints.tmp46", chars! "ints.tmp47", chars! "ints.tmp31", chars! "ints.tmp45", chars! "ints.tmp13", chars! "ints.tmp9", chars! "ints.tmp7", chars! "ints.tmp39", chars! "ints.tmp12", chars! "ints.tmp15", chars! "ints.tmp11", chars! "ints.tmp37", chars! "ints.tmp25", chars! "ints.tmp26", chars! "ints.tmp5", chars! "ints.tmp6", chars! "ints.tmp24", chars! "ints.tmp4", chars! "ints.tmp16", chars! "ints.tmp18", chars! "t2.bbbb", chars! "t2.abab", chars! "t2.aaaa"]
  body := [
    -- 2325: tmp58 = np.copy(f.bb.oo)
    .set 120 (.cp 0) 1 1,
    -- 2326: tmp58 += ints.tmp28
    .add 120 (.cp 1) 1 1,
    -- 2327: tmp56 = np.copy(ints.tmp143)
    .set 121 (.cp 2) 1 1,
    -- 2328: tmp56 += ints.tmp149 * 2
    .add 121 (.cp 3) 2 1,
    -- 2329: tmp60 = np.copy(ints.tmp188)
    .set 122 (.cp 4) 1 1,
    -- 2330: del ints.tmp188
    .del 4,
    -- 2331: tmp60 += ints.tmp186 * 2
    .add 122 (.cp 5) 2 1,
    -- 2332: del ints.tmp186
    .del 5,
    -- 2333: tmp68 = np.copy(ints.tmp41) * 2
    .set 123 (.cp 6) 2 1,
    -- 2334: tmp68 += ints.tmp43
    .add 123 (.cp 7) 1 1,
    -- 2335: tmp70 = np.copy(ints.tmp184)
    .set 124 (.cp 8) 1 1,
    -- 2336: del ints.tmp184
    .del 8,
    -- 2337: tmp70 += np.transpose(v.bbbb.ooov, (0, 2, 1, 3)) * 0.5
    .add 124 (.tr 9 [0, 2, 1, 3]) 1 2,
    -- 2338: tmp66 = np.copy(ints.tmp147)
    .set 125 (.cp 10) 1 1,
    -- 2339: tmp66 += ints.tmp151 * 0.5
    .add 125 (.cp 11) 1 2,
    -- 2340: tmp15 = np.copy(ints.tmp67)
    .set 126 (.cp 12) 1 1,
    -- 2341: del ints.tmp67
    .del 12,
    -- 2342: tmp15 += np.transpose(v.aaaa.ooov, (0, 2, 1, 3)) * 0.5
    .add 126 (.tr 13 [0, 2, 1, 3]) 1 2,
    -- 2343: tmp11 = np.copy(ints.tmp83)
    .set 127 (.cp 14) 1 1,
    -- 2344: tmp11 += ints.tmp87 * 2
    .add 127 (.cp 15) 2 1,
    -- 2345: tmp13 = np.copy(ints.tmp20) * 2
    .set 128 (.cp 16) 2 1,
    -- 2346: tmp13 += ints.tmp22
    .add 128 (.cp 17) 1 1,
    -- 2347: tmp9 = np.copy(ints.tmp79)
    .set 129 (.cp 18) 1 1,
    -- 2348: tmp9 += ints.tmp85 * 0.5
    .add 129 (.cp 19) 1 2,
    -- 2349: tmp22 = np.copy(f.aa.oo)
    .set 130 (.cp 20) 1 1,
    -- 2350: tmp22 += ints.tmp1
    .add 130 (.cp 21) 1 1,
    -- 2351: tmp24 = np.copy(ints.tmp71)
    .set 131 (.cp 22) 1 1,
    -- 2352: del ints.tmp71
    .del 22,
    -- 2353: tmp24 += ints.tmp69 * 2
    .add 131 (.cp 23) 2 1,
    -- 2354: del ints.tmp69
    .del 23,
    -- 2355: tmp54 = einsum(ints.tmp145, (0, 1, 2, 3), r2.bbb, (4, 1, 3), (0, 4, 2))
    .set 132 (.ein [(24, [0, 1, 2, 3]), (25, [4, 1, 3])] [0, 4, 2]) 1 1,
    -- 2356: tmp59 = einsum(tmp58, (0, 1), r2.bbb, (2, 0, 3), (2, 1, 3)) * -1
    .set 133 (.ein [(120, [0, 1]), (25, [2, 0, 3])] [2, 1, 3]) (-1) 1,
    -- 2357: del tmp58
    .del 120,
    -- 2358: tmp55 = einsum(r2.bbb, (0, 1, 2), v.bbbb.ovov, (3, 4, 1, 2), (0, 3, 4))
    .set 134 (.ein [(25, [0, 1, 2]), (26, [3, 4, 1, 2])] [0, 3, 4]) 1 1,
    -- 2359: tmp57 = einsum(r2.aba, (0, 1, 2), tmp56, (0, 3, 2, 4), (1, 3, 4))
    .set 135 (.ein [(27, [0, 1, 2]), (121, [0, 3, 2, 4])] [1, 3, 4]) 1 1,
    -- 2360: del tmp56
    .del 121,
    -- 2361: tmp61 = einsum(r1.b, (0,), tmp60, (1, 2, 0, 3), (1, 2, 3))
    .set 136 (.ein [(28, [0]), (122, [1, 2, 0, 3])] [1, 2, 3]) 1 1,
    -- 2362: del tmp60
    .del 122,
    -- 2363: tmp49 = einsum(t1.bb, (0, 1), f.bb.ov, (0, 2), (2, 1))
    .set 137 (.ein [(29, [0, 1]), (30, [0, 2])] [2, 1]) 1 1,
    -- 2364: tmp39 = einsum(r2.aba, (0, 1, 2), v.aabb.ovov, (0, 2, 1, 3), (3,))
    .set 138 (.ein [(27, [0, 1, 2]), (31, [0, 2, 1, 3])] [3]) 1 1,
    -- 2365: tmp40 = einsum(r2.bbb, (0, 1, 2), v.bbbb.ovov, (0, 2, 1, 3), (3,)) * -1
    .set 139 (.ein [(25, [0, 1, 2]), (26, [0, 2, 1, 3])] [3]) (-1) 1,
    -- 2366: tmp69 = einsum(tmp68, (0, 1), r2.bbb, (2, 1, 3), (2, 0, 3)) * -2
    .set 140 (.ein [(123, [0, 1]), (25, [2, 1, 3])] [2, 0, 3]) (-2) 1,
    -- 2367: del tmp68
    .del 123,
    -- 2368: tmp63 = einsum(r2.aba, (0, 1, 2), ints.tmp141, (0, 3, 2, 4), (3, 1, 4))
    .set 141 (.ein [(27, [0, 1, 2]), (32, [0, 3, 2, 4])] [3, 1, 4]) 1 1,
    -- 2369: tmp65 = einsum(r2.bbb, (0, 1, 2), v.bbbb.oovv, (3, 1, 4, 2), (0, 3, 4))
    .set 142 (.ein [(25, [0, 1, 2]), (33, [3, 1, 4, 2])] [0, 3, 4]) 1 1,
    -- 2370: tmp64 = einsum(r2.aba, (0, 1, 2), v.aabb.ovov, (0, 2, 3, 4), (1, 3, 4))
    .set 143 (.ein [(27, [0, 1, 2]), (31, [0, 2, 3, 4])] [1, 3, 4]) 1 1,
    -- 2371: tmp71 = einsum(tmp70, (0, 1, 2, 3), r1.b, (2,), (0, 1, 3)) * 2
    .set 144 (.ein [(124, [0, 1, 2, 3]), (28, [2])] [0, 1, 3]) 2 1,
    -- 2372: del tmp70
    .del 124,
    -- 2373: tmp67 = einsum(r2.bbb, (0, 1, 2), tmp66, (3, 1, 4, 2), (0, 3, 4)) * -4
    .set 145 (.ein [(25, [0, 1, 2]), (125, [3, 1, 4, 2])] [0, 3, 4]) (-4) 1,
    -- 2374: del tmp66
    .del 125,
    -- 2375: tmp31 = einsum(r2.bab, (0, 1, 2), v.aabb.ovov, (1, 3, 0, 2), (3,)) * -1
    .set 146 (.ein [(34, [0, 1, 2]), (31, [1, 3, 0, 2])] [3]) (-1) 1,
    -- 2376: tmp30 = einsum(r2.aaa, (0, 1, 2), v.aaaa.ovov, (0, 3, 1, 2), (3,))
    .set 147 (.ein [(35, [0, 1, 2]), (36, [0, 3, 1, 2])] [3]) 1 1,
    -- 2377: tmp28 = einsum(t1.aa, (0, 1), f.aa.ov, (0, 2), (2, 1))
    .set 148 (.ein [(37, [0, 1]), (38, [0, 2])] [2, 1]) 1 1,
    -- 2378: tmp16 = einsum(r1.a, (0,), tmp15, (1, 2, 0, 3), (1, 2, 3)) * 2
    .set 149 (.ein [(39, [0]), (126, [1, 2, 0, 3])] [1, 2, 3]) 2 1,
    -- 2379: del tmp15
    .del 126,
    -- 2380: tmp12 = einsum(tmp11, (0, 1, 2, 3), r2.bab, (1, 4, 3), (4, 0, 2)) * -1
    .set 150 (.ein [(127, [0, 1, 2, 3]), (34, [1, 4, 3])] [4, 0, 2]) (-1) 1,
    -- 2381: del tmp11
    .del 127,
    -- 2382: tmp8 = einsum(r2.aaa, (0, 1, 2), v.aaaa.oovv, (3, 1, 4, 2), (0, 3, 4))
    .set 151 (.ein [(35, [0, 1, 2]), (40, [3, 1, 4, 2])] [0, 3, 4]) 1 1,
    -- 2383: tmp14 = einsum(tmp13, (0, 1), r2.aaa, (2, 1, 3), (2, 0, 3)) * -2
    .set 152 (.ein [(128, [0, 1]), (35, [2, 1, 3])] [2, 0, 3]) (-2) 1,
    -- 2384: del tmp13
    .del 128,
    -- 2385: tmp10 = einsum(tmp9, (0, 1, 2, 3), r2.aaa, (4, 1, 3), (4, 0, 2)) * -4
    .set 153 (.ein [(129, [0, 1, 2, 3]), (35, [4, 1, 3])] [4, 0, 2]) (-4) 1,
    -- 2386: del tmp9
    .del 129,
    -- 2387: tmp21 = einsum(v.aabb.ovov, (0, 1, 2, 3), r2.bab, (2, 4, 3), (4, 0, 1)) * -1
    .set 154 (.ein [(31, [0, 1, 2, 3]), (34, [2, 4, 3])] [4, 0, 1]) (-1) 1,
    -- 2388: tmp23 = einsum(tmp22, (0, 1), r2.aaa, (2, 0, 3), (2, 1, 3)) * -1
    .set 155 (.ein [(130, [0, 1]), (35, [2, 0, 3])] [2, 1, 3]) (-1) 1,
    -- 2389: del tmp22
    .del 130,
    -- 2390: tmp25 = einsum(r1.a, (0,), tmp24, (1, 2, 0, 3), (1, 2, 3))
    .set 156 (.ein [(39, [0]), (131, [1, 2, 0, 3])] [1, 2, 3]) 1 1,
    -- 2391: del tmp24
    .del 131,
    -- 2392: tmp18 = einsum(ints.tmp77, (0, 1, 2, 3), r2.aaa, (4, 1, 3), (0, 4, 2))
    .set 157 (.ein [(41, [0, 1, 2, 3]), (35, [4, 1, 3])] [0, 4, 2]) 1 1,
    -- 2393: tmp20 = einsum(r2.bab, (0, 1, 2), ints.tmp81, (3, 0, 4, 2), (3, 1, 4)) * -1
    .set 158 (.ein [(34, [0, 1, 2]), (42, [3, 0, 4, 2])] [3, 1, 4]) (-1) 1,
    -- 2394: tmp19 = einsum(v.aaaa.ovov, (0, 1, 2, 3), r2.aaa, (4, 2, 3), (4, 0, 1))
    .set 159 (.ein [(36, [0, 1, 2, 3]), (35, [4, 2, 3])] [4, 0, 1]) 1 1,
    -- 2395: tmp53 = np.copy(ints.tmp152)
    .set 160 (.cp 43) 1 1,
    -- 2396: del ints.tmp152
    .del 43,
    -- 2397: tmp53 += ints.tmp155 * 2
    .add 160 (.cp 44) 2 1,
    -- 2398: del ints.tmp155
    .del 44,
    -- 2399: tmp53 += ints.tmp156
    .add 160 (.cp 45) 1 1,
    -- 2400: del ints.tmp156
    .del 45,
    -- 2401: tmp53 += ints.tmp166 * 2
    .add 160 (.cp 46) 2 1,
    -- 2402: del ints.tmp166
    .del 46,
    -- 2403: tmp53 += ints.tmp170
    .add 160 (.cp 47) 1 1,
    -- 2404: del ints.tmp170
    .del 47,
    -- 2405: tmp53 += f.bb.ov * -1
    .add 160 (.cp 30) (-1) 1,
    -- 2406: tmp53 += ints.tmp134 * -1
    .add 160 (.cp 48) (-1) 1,
    -- 2407: del ints.tmp134
    .del 48,
    -- 2408: tmp53 += ints.tmp135 * -2
    .add 160 (.cp 49) (-2) 1,
    -- 2409: del ints.tmp135
    .del 49,
    -- 2410: tmp53 += ints.tmp165 * -1
    .add 160 (.cp 50) (-1) 1,
    -- 2411: del ints.tmp165
    .del 50,
    -- 2412: tmp53 += ints.tmp167 * -1
    .add 160 (.cp 51) (-1) 1,
    -- 2413: del ints.tmp167
    .del 51,
    -- 2414: tmp62 = np.copy(tmp54) * 4
    .set 161 (.cp 132) 4 1,
    -- 2415: del tmp54
    .del 132,
    -- 2416: tmp62 += tmp55 * 2
    .add 161 (.cp 134) 2 1,
    -- 2417: del tmp55
    .del 134,
    -- 2418: tmp62 += np.transpose(tmp57, (1, 0, 2))
    .add 161 (.tr 135 [1, 0, 2]) 1 1,
    -- 2419: del tmp57
    .del 135,
    -- 2420: tmp62 += np.transpose(tmp59, (1, 0, 2)) * -2
    .add 161 (.tr 133 [1, 0, 2]) (-2) 1,
    -- 2421: del tmp59
    .del 133,
    -- 2422: tmp62 += tmp61
    .add 161 (.cp 136) 1 1,
    -- 2423: del tmp61
    .del 136,
    -- 2424: tmp50 = np.copy(np.transpose(ints.tmp158, (1, 0))) * 2
    .set 162 (.tr 52 [1, 0]) 2 1,
    -- 2425: del ints.tmp158
    .del 52,
    -- 2426: tmp50 += np.transpose(ints.tmp160, (1, 0))
    .add 162 (.tr 53 [1, 0]) 1 1,
    -- 2427: del ints.tmp160
    .del 53,
    -- 2428: tmp50 += f.bb.vv * -1
    .add 162 (.cp 54) (-1) 1,
    -- 2429: tmp50 += tmp49
    .add 162 (.cp 137) 1 1,
    -- 2430: del tmp49
    .del 137,
    -- 2431: tmp74 = np.copy(tmp39) * -0.5
    .set 163 (.cp 138) (-1) 2,
    -- 2432: tmp74 += tmp40
    .add 163 (.cp 139) 1 1,
    -- 2433: tmp73 = np.copy(ints.tmp178)
    .set 164 (.cp 55) 1 1,
    -- 2434: del ints.tmp178
    .del 55,
    -- 2435: tmp73 += np.transpose(v.bbbb.oooo, (0, 2, 3, 1)) * -1
    .add 164 (.tr 56 [0, 2, 3, 1]) (-1) 1,
    -- 2436: tmp75 = np.copy(ints.tmp176)
    .set 165 (.cp 57) 1 1,
    -- 2437: del ints.tmp176
    .del 57,
    -- 2438: tmp75 += np.transpose(ints.tmp198, (1, 2, 0, 3)) * -1
    .add 165 (.tr 58 [1, 2, 0, 3]) (-1) 1,
    -- 2439: del ints.tmp198
    .del 58,
    -- 2440: tmp72 = np.copy(tmp63)
    .set 166 (.cp 141) 1 1,
    -- 2441: del tmp63
    .del 141,
    -- 2442: tmp72 += tmp64
    .add 166 (.cp 143) 1 1,
    -- 2443: del tmp64
    .del 143,
    -- 2444: tmp72 += tmp65 * 2
    .add 166 (.cp 142) 2 1,
    -- 2445: del tmp65
    .del 142,
    -- 2446: tmp72 += np.transpose(tmp67, (1, 0, 2)) * -1
    .add 166 (.tr 145 [1, 0, 2]) (-1) 1,
    -- 2447: del tmp67
    .del 145,
    -- 2448: tmp72 += np.transpose(tmp69, (1, 0, 2))
    .add 166 (.tr 140 [1, 0, 2]) 1 1,
    -- 2449: del tmp69
    .del 140,
    -- 2450: tmp72 += tmp71
    .add 166 (.cp 144) 1 1,
    -- 2451: del tmp71
    .del 144,
    -- 2452: tmp51 = np.copy(tmp30)
    .set 167 (.cp 147) 1 1,
    -- 2453: tmp51 += tmp31 * 0.5
    .add 167 (.cp 146) 1 2,
    -- 2454: tmp46 = np.copy(ints.tmp143)
    .set 168 (.cp 2) 1 1,
    -- 2455: del ints.tmp143
    .del 2,
    -- 2456: tmp46 += ints.tmp149 * 2
    .add 168 (.cp 3) 2 1,
    -- 2457: del ints.tmp149
    .del 3,
    -- 2458: tmp46 += np.transpose(v.aabb.ovov, (0, 2, 1, 3))
    .add 168 (.tr 31 [0, 2, 1, 3]) 1 1,
    -- 2459: tmp46 += ints.tmp141 * -1
    .add 168 (.cp 32) (-1) 1,
    -- 2460: del ints.tmp141
    .del 32,
    -- 2461: tmp52 = np.copy(ints.tmp131)
    .set 169 (.cp 59) 1 1,
    -- 2462: del ints.tmp131
    .del 59,
    -- 2463: tmp52 += ints.tmp138
    .add 169 (.cp 60) 1 1,
    -- 2464: del ints.tmp138
    .del 60,
    -- 2465: tmp52 += ints.tmp139 * 2
    .add 169 (.cp 61) 2 1,
    -- 2466: del ints.tmp139
    .del 61,
    -- 2467: tmp52 += np.transpose(ints.tmp154, (1, 0, 2, 3))
    .add 169 (.tr 62 [1, 0, 2, 3]) 1 1,
    -- 2468: del ints.tmp154
    .del 62,
    -- 2469: tmp52 += v.aabb.ooov
    .add 169 (.cp 63) 1 1,
    -- 2470: tmp52 += ints.tmp137 * -1
    .add 169 (.cp 64) (-1) 1,
    -- 2471: del ints.tmp137
    .del 64,
    -- 2472: tmp52 += ints.tmp157 * -1
    .add 169 (.cp 65) (-1) 1,
    -- 2473: del ints.tmp157
    .del 65,
    -- 2474: tmp44 = np.copy(f.bb.oo)
    .set 170 (.cp 0) 1 1,
    -- 2475: tmp44 += ints.tmp28
    .add 170 (.cp 1) 1 1,
    -- 2476: tmp44 += np.transpose(ints.tmp41, (1, 0)) * 2
    .add 170 (.tr 6 [1, 0]) 2 1,
    -- 2477: tmp44 += np.transpose(ints.tmp43, (1, 0))
    .add 170 (.tr 7 [1, 0]) 1 1,
    -- 2478: tmp47 = np.copy(ints.tmp162)
    .set 171 (.cp 66) 1 1,
    -- 2479: del ints.tmp162
    .del 66,
    -- 2480: tmp47 += v.aabb.oovv * -1
    .add 171 (.cp 67) (-1) 1,
    -- 2481: tmp45 = np.copy(ints.tmp147) * 2
    .set 172 (.cp 10) 2 1,
    -- 2482: del ints.tmp147
    .del 10,
    -- 2483: tmp45 += ints.tmp151
    .add 172 (.cp 11) 1 1,
    -- 2484: del ints.tmp151
    .del 11,
    -- 2485: tmp45 += np.transpose(v.bbbb.ovov, (0, 2, 1, 3))
    .add 172 (.tr 26 [0, 2, 1, 3]) 1 1,
    -- 2486: tmp45 += ints.tmp145 * -2
    .add 172 (.cp 24) (-2) 1,
    -- 2487: del ints.tmp145
    .del 24,
    -- 2488: tmp45 += v.bbbb.oovv * -1
    .add 172 (.cp 33) (-1) 1,
    -- 2489: tmp48 = np.copy(ints.tmp104)
    .set 173 (.cp 68) 1 1,
    -- 2490: tmp48 += v.aabb.oooo
    .add 173 (.cp 69) 1 1,
    -- 2491: tmp43 = np.copy(f.aa.oo)
    .set 174 (.cp 20) 1 1,
    -- 2492: tmp43 += ints.tmp1
    .add 174 (.cp 21) 1 1,
    -- 2493: tmp43 += np.transpose(ints.tmp20, (1, 0)) * 2
    .add 174 (.tr 16 [1, 0]) 2 1,
    -- 2494: tmp43 += np.transpose(ints.tmp22, (1, 0))
    .add 174 (.tr 17 [1, 0]) 1 1,
    -- 2495: tmp36 = np.copy(ints.tmp83)
    .set 175 (.cp 14) 1 1,
    -- 2496: del ints.tmp83
    .del 14,
    -- 2497: tmp36 += ints.tmp87 * 2
    .add 175 (.cp 15) 2 1,
    -- 2498: del ints.tmp87
    .del 15,
    -- 2499: tmp36 += np.transpose(v.aabb.ovov, (0, 2, 1, 3))
    .add 175 (.tr 31 [0, 2, 1, 3]) 1 1,
    -- 2500: tmp36 += ints.tmp81 * -1
    .add 175 (.cp 42) (-1) 1,
    -- 2501: del ints.tmp81
    .del 42,
    -- 2502: tmp41 = np.copy(tmp39) * -1
    .set 176 (.cp 138) (-1) 1,
    -- 2503: del tmp39
    .del 138,
    -- 2504: tmp41 += tmp40 * 2
    .add 176 (.cp 139) 2 1,
    -- 2505: del tmp40
    .del 139,
    -- 2506: tmp42 = np.copy(ints.tmp102)
    .set 177 (.cp 70) 1 1,
    -- 2507: del ints.tmp102
    .del 70,
    -- 2508: tmp42 += ints.tmp108
    .add 177 (.cp 71) 1 1,
    -- 2509: del ints.tmp108
    .del 71,
    -- 2510: tmp42 += ints.tmp109 * 2
    .add 177 (.cp 72) 2 1,
    -- 2511: del ints.tmp109
    .del 72,
    -- 2512: tmp42 += np.transpose(ints.tmp117, (0, 2, 1, 3))
    .add 177 (.tr 73 [0, 2, 1, 3]) 1 1,
    -- 2513: del ints.tmp117
    .del 73,
    -- 2514: tmp42 += np.transpose(v.aabb.ovoo, (0, 2, 3, 1))
    .add 177 (.tr 74 [0, 2, 3, 1]) 1 1,
    -- 2515: tmp42 += ints.tmp107 * -1
    .add 177 (.cp 75) (-1) 1,
    -- 2516: del ints.tmp107
    .del 75,
    -- 2517: tmp42 += ints.tmp118 * -1
    .add 177 (.cp 76) (-1) 1,
    -- 2518: del ints.tmp118
    .del 76,
    -- 2519: tmp38 = np.copy(ints.tmp104)
    .set 178 (.cp 68) 1 1,
    -- 2520: del ints.tmp104
    .del 68,
    -- 2521: tmp38 += v.aabb.oooo
    .add 178 (.cp 69) 1 1,
    -- 2522: tmp35 = np.copy(ints.tmp79) * 2
    .set 179 (.cp 18) 2 1,
    -- 2523: del ints.tmp79
    .del 18,
    -- 2524: tmp35 += ints.tmp85
    .add 179 (.cp 19) 1 1,
    -- 2525: del ints.tmp85
    .del 19,
    -- 2526: tmp35 += np.transpose(v.aaaa.ovov, (0, 2, 1, 3))
    .add 179 (.tr 36 [0, 2, 1, 3]) 1 1,
    -- 2527: tmp35 += ints.tmp77 * -2
    .add 179 (.cp 41) (-2) 1,
    -- 2528: del ints.tmp77
    .del 41,
    -- 2529: tmp35 += v.aaaa.oovv * -1
    .add 179 (.cp 40) (-1) 1,
    -- 2530: tmp34 = np.copy(ints.tmp52) * 2
    .set 180 (.cp 77) 2 1,
    -- 2531: del ints.tmp52
    .del 77,
    -- 2532: tmp34 += ints.tmp59
    .add 180 (.cp 78) 1 1,
    -- 2533: del ints.tmp59
    .del 78,
    -- 2534: tmp34 += ints.tmp65 * 2
    .add 180 (.cp 79) 2 1,
    -- 2535: del ints.tmp65
    .del 79,
    -- 2536: tmp34 += ints.tmp66
    .add 180 (.cp 80) 1 1,
    -- 2537: del ints.tmp66
    .del 80,
    -- 2538: tmp34 += ints.tmp96
    .add 180 (.cp 81) 1 1,
    -- 2539: del ints.tmp96
    .del 81,
    -- 2540: tmp34 += f.aa.ov * -1
    .add 180 (.cp 38) (-1) 1,
    -- 2541: tmp34 += ints.tmp49 * -1
    .add 180 (.cp 82) (-1) 1,
    -- 2542: del ints.tmp49
    .del 82,
    -- 2543: tmp34 += ints.tmp53 * -1
    .add 180 (.cp 83) (-1) 1,
    -- 2544: del ints.tmp53
    .del 83,
    -- 2545: tmp34 += ints.tmp62 * -2
    .add 180 (.cp 84) (-2) 1,
    -- 2546: del ints.tmp62
    .del 84,
    -- 2547: tmp34 += ints.tmp63 * -1
    .add 180 (.cp 85) (-1) 1,
    -- 2548: del ints.tmp63
    .del 85,
    -- 2549: tmp37 = np.copy(ints.tmp121)
    .set 181 (.cp 86) 1 1,
    -- 2550: del ints.tmp121
    .del 86,
    -- 2551: tmp37 += np.transpose(v.aabb.vvoo, (2, 3, 0, 1)) * -1
    .add 181 (.tr 87 [2, 3, 0, 1]) (-1) 1,
    -- 2552: tmp29 = np.copy(np.transpose(ints.tmp73, (1, 0))) * 2
    .set 182 (.tr 88 [1, 0]) 2 1,
    -- 2553: del ints.tmp73
    .del 88,
    -- 2554: tmp29 += np.transpose(ints.tmp75, (1, 0))
    .add 182 (.tr 89 [1, 0]) 1 1,
    -- 2555: del ints.tmp75
    .del 89,
    -- 2556: tmp29 += f.aa.vv * -1
    .add 182 (.cp 90) (-1) 1,
    -- 2557: tmp29 += tmp28
    .add 182 (.cp 148) 1 1,
    -- 2558: del tmp28
    .del 148,
    -- 2559: tmp32 = np.copy(tmp30) * 2
    .set 183 (.cp 147) 2 1,
    -- 2560: del tmp30
    .del 147,
    -- 2561: tmp32 += tmp31
    .add 183 (.cp 146) 1 1,
    -- 2562: del tmp31
    .del 146,
    -- 2563: tmp27 = np.copy(ints.tmp56)
    .set 184 (.cp 91) 1 1,
    -- 2564: del ints.tmp56
    .del 91,
    -- 2565: tmp27 += np.transpose(v.aaaa.oooo, (0, 2, 3, 1)) * -1
    .add 184 (.tr 92 [0, 2, 3, 1]) (-1) 1,
    -- 2566: tmp17 = np.copy(tmp8) * 2
    .set 185 (.cp 151) 2 1,
    -- 2567: del tmp8
    .del 151,
    -- 2568: tmp17 += np.transpose(tmp10, (1, 0, 2)) * -1
    .add 185 (.tr 153 [1, 0, 2]) (-1) 1,
    -- 2569: del tmp10
    .del 153,
    -- 2570: tmp17 += np.transpose(tmp12, (1, 0, 2))
    .add 185 (.tr 150 [1, 0, 2]) 1 1,
    -- 2571: del tmp12
    .del 150,
    -- 2572: tmp17 += np.transpose(tmp14, (1, 0, 2))
    .add 185 (.tr 152 [1, 0, 2]) 1 1,
    -- 2573: del tmp14
    .del 152,
    -- 2574: tmp17 += tmp16
    .add 185 (.cp 149) 1 1,
    -- 2575: del tmp16
    .del 149,
    -- 2576: tmp33 = np.copy(ints.tmp54)
    .set 186 (.cp 93) 1 1,
    -- 2577: del ints.tmp54
    .del 93,
    -- 2578: tmp33 += np.transpose(ints.tmp89, (1, 2, 0, 3)) * -1
    .add 186 (.tr 94 [1, 2, 0, 3]) (-1) 1,
    -- 2579: del ints.tmp89
    .del 94,
    -- 2580: tmp26 = np.copy(tmp18) * 4
    .set 187 (.cp 157) 4 1,
    -- 2581: del tmp18
    .del 157,
    -- 2582: tmp26 += tmp19 * 2
    .add 187 (.cp 159) 2 1,
    -- 2583: del tmp19
    .del 159,
    -- 2584: tmp26 += tmp20
    .add 187 (.cp 158) 1 1,
    -- 2585: del tmp20
    .del 158,
    -- 2586: tmp26 += tmp21
    .add 187 (.cp 154) 1 1,
    -- 2587: del tmp21
    .del 154,
    -- 2588: tmp26 += np.transpose(tmp23, (1, 0, 2)) * -2
    .add 187 (.tr 155 [1, 0, 2]) (-2) 1,
    -- 2589: del tmp23
    .del 155,
    -- 2590: tmp26 += tmp25
    .add 187 (.cp 156) 1 1,
    -- 2591: del tmp25
    .del 156,
    -- 2592: tmp7 = np.copy(f.bb.oo)
    .set 188 (.cp 0) 1 1,
    -- 2593: tmp7 += ints.tmp28
    .add 188 (.cp 1) 1 1,
    -- 2594: del ints.tmp28
    .del 1,
    -- 2595: tmp7 += np.transpose(ints.tmp32, (1, 0))
    .add 188 (.tr 95 [1, 0]) 1 1,
    -- 2596: del ints.tmp32
    .del 95,
    -- 2597: tmp7 += np.transpose(ints.tmp33, (1, 0))
    .add 188 (.tr 96 [1, 0]) 1 1,
    -- 2598: del ints.tmp33
    .del 96,
    -- 2599: tmp7 += np.transpose(ints.tmp41, (1, 0)) * 2
    .add 188 (.tr 6 [1, 0]) 2 1,
    -- 2600: del ints.tmp41
    .del 6,
    -- 2601: tmp7 += np.transpose(ints.tmp43, (1, 0))
    .add 188 (.tr 7 [1, 0]) 1 1,
    -- 2602: del ints.tmp43
    .del 7,
    -- 2603: tmp7 += np.transpose(ints.tmp46, (1, 0))
    .add 188 (.tr 97 [1, 0]) 1 1,
    -- 2604: del ints.tmp46
    .del 97,
    -- 2605: tmp7 += np.transpose(ints.tmp47, (1, 0))
    .add 188 (.tr 98 [1, 0]) 1 1,
    -- 2606: del ints.tmp47
    .del 98,
    -- 2607: tmp7 += np.transpose(ints.tmp31, (1, 0)) * -1
    .add 188 (.tr 99 [1, 0]) (-1) 1,
    -- 2608: del ints.tmp31
    .del 99,
    -- 2609: tmp7 += np.transpose(ints.tmp45, (1, 0)) * -1
    .add 188 (.tr 100 [1, 0]) (-1) 1,
    -- 2610: del ints.tmp45
    .del 100,
    -- 2611: tmp3 = np.copy(f.aa.ov)
    .set 189 (.cp 38) 1 1,
    -- 2612: tmp3 += ints.tmp13
    .add 189 (.cp 101) 1 1,
    -- 2613: del ints.tmp13
    .del 101,
    -- 2614: tmp3 += ints.tmp9
    .add 189 (.cp 102) 1 1,
    -- 2615: del ints.tmp9
    .del 102,
    -- 2616: tmp3 += ints.tmp7 * -1
    .add 189 (.cp 103) (-1) 1,
    -- 2617: del ints.tmp7
    .del 103,
    -- 2618: tmp5 = np.copy(ints.tmp39)
    .set 190 (.cp 104) 1 1,
    -- 2619: del ints.tmp39
    .del 104,
    -- 2620: tmp5 += np.transpose(v.aabb.ovoo, (0, 2, 3, 1))
    .add 190 (.tr 74 [0, 2, 3, 1]) 1 1,
    -- 2621: tmp2 = np.copy(f.bb.ov)
    .set 191 (.cp 30) 1 1,
    -- 2622: tmp2 += ints.tmp12
    .add 191 (.cp 105) 1 1,
    -- 2623: del ints.tmp12
    .del 105,
    -- 2624: tmp2 += ints.tmp15
    .add 191 (.cp 106) 1 1,
    -- 2625: del ints.tmp15
    .del 106,
    -- 2626: tmp2 += ints.tmp11 * -1
    .add 191 (.cp 107) (-1) 1,
    -- 2627: del ints.tmp11
    .del 107,
    -- 2628: tmp6 = np.copy(ints.tmp37)
    .set 192 (.cp 108) 1 1,
    -- 2629: del ints.tmp37
    .del 108,
    -- 2630: tmp6 += v.bbbb.ooov * -1
    .add 192 (.cp 9) (-1) 1,
    -- 2631: tmp4 = np.copy(f.aa.oo)
    .set 193 (.cp 20) 1 1,
    -- 2632: tmp4 += ints.tmp1
    .add 193 (.cp 21) 1 1,
    -- 2633: del ints.tmp1
    .del 21,
    -- 2634: tmp4 += np.transpose(ints.tmp20, (1, 0)) * 2
    .add 193 (.tr 16 [1, 0]) 2 1,
    -- 2635: del ints.tmp20
    .del 16,
    -- 2636: tmp4 += np.transpose(ints.tmp22, (1, 0))
    .add 193 (.tr 17 [1, 0]) 1 1,
    -- 2637: del ints.tmp22
    .del 17,
    -- 2638: tmp4 += np.transpose(ints.tmp25, (1, 0))
    .add 193 (.tr 109 [1, 0]) 1 1,
    -- 2639: del ints.tmp25
    .del 109,
    -- 2640: tmp4 += np.transpose(ints.tmp26, (1, 0))
    .add 193 (.tr 110 [1, 0]) 1 1,
    -- 2641: del ints.tmp26
    .del 110,
    -- 2642: tmp4 += np.transpose(ints.tmp5, (1, 0))
    .add 193 (.tr 111 [1, 0]) 1 1,
    -- 2643: del ints.tmp5
    .del 111,
    -- 2644: tmp4 += np.transpose(ints.tmp6, (1, 0))
    .add 193 (.tr 112 [1, 0]) 1 1,
    -- 2645: del ints.tmp6
    .del 112,
    -- 2646: tmp4 += np.transpose(ints.tmp24, (1, 0)) * -1
    .add 193 (.tr 113 [1, 0]) (-1) 1,
    -- 2647: del ints.tmp24
    .del 113,
    -- 2648: tmp4 += np.transpose(ints.tmp4, (1, 0)) * -1
    .add 193 (.tr 114 [1, 0]) (-1) 1,
    -- 2649: del ints.tmp4
    .del 114,
    -- 2650: tmp0 = np.copy(ints.tmp16)
    .set 194 (.cp 115) 1 1,
    -- 2651: del ints.tmp16
    .del 115,
    -- 2652: tmp0 += v.aaaa.ooov * -1
    .add 194 (.cp 13) (-1) 1,
    -- 2653: tmp1 = np.copy(ints.tmp18)
    .set 195 (.cp 116) 1 1,
    -- 2654: del ints.tmp18
    .del 116,
    -- 2655: tmp1 += v.aabb.ooov
    .add 195 (.cp 63) 1 1,
    -- 2656: r2new.bbb = np.copy(tmp62)
    .set 196 (.cp 161) 1 1,
    -- 2657: r2new.bbb += np.transpose(tmp62, (1, 0, 2)) * -1
    .add 196 (.tr 161 [1, 0, 2]) (-1) 1,
    -- 2658: del tmp62
    .del 161,
    -- 2659: r2new.bbb += tmp72 * -1
    .add 196 (.cp 166) (-1) 1,
    -- 2660: r2new.bbb += np.transpose(tmp72, (1, 0, 2))
    .add 196 (.tr 166 [1, 0, 2]) 1 1,
    -- 2661: del tmp72
    .del 166,
    -- 2662: r2new.bbb += einsum(tmp73, (0, 1, 2, 3), r2.bbb, (2, 3, 4), (0, 1, 4)) * 2
    .add 196 (.ein [(164, [0, 1, 2, 3]), (25, [2, 3, 4])] [0, 1, 4]) 2 1,
    -- 2663: del tmp73
    .del 164,
    -- 2664: r2new.bbb += einsum(r2.bbb, (0, 1, 2), tmp50, (2, 3), (0, 1, 3)) * -2
    .add 196 (.ein [(25, [0, 1, 2]), (162, [2, 3])] [0, 1, 3]) (-2) 1,
    -- 2665: r2new.bbb += einsum(tmp74, (0,), t2.bbbb, (1, 2, 3, 0), (1, 2, 3)) * 4
    .add 196 (.ein [(163, [0]), (117, [1, 2, 3, 0])] [1, 2, 3]) 4 1,
    -- 2666: del tmp74
    .del 163,
    -- 2667: r2new.bbb += einsum(tmp75, (0, 1, 2, 3), r1.b, (2,), (1, 0, 3)) * 2
    .add 196 (.ein [(165, [0, 1, 2, 3]), (28, [2])] [1, 0, 3]) 2 1,
    -- 2668: del tmp75
    .del 165,
    -- 2669: r2new.bbb += einsum(r1.b, (0,), tmp53, (1, 2), (0, 1, 2)) * -1
    .add 196 (.ein [(28, [0]), (160, [1, 2])] [0, 1, 2]) (-1) 1,
    -- 2670: r2new.bbb += einsum(tmp53, (0, 1), r1.b, (2,), (0, 2, 1))
    .add 196 (.ein [(160, [0, 1]), (28, [2])] [0, 2, 1]) 1 1,
    -- 2671: r2new.bab = einsum(r2.bab, (0, 1, 2), tmp45, (3, 0, 4, 2), (3, 1, 4))
    .set 197 (.ein [(34, [0, 1, 2]), (172, [3, 0, 4, 2])] [3, 1, 4]) 1 1,
    -- 2672: del tmp45
    .del 172,
    -- 2673: r2new.bab += einsum(r2.aaa, (0, 1, 2), tmp46, (1, 3, 2, 4), (3, 0, 4)) * -2
    .add 197 (.ein [(35, [0, 1, 2]), (168, [1, 3, 2, 4])] [3, 0, 4]) (-2) 1,
    -- 2674: del tmp46
    .del 168,
    -- 2675: r2new.bab += einsum(r2.bab, (0, 1, 2), tmp47, (3, 1, 4, 2), (0, 3, 4))
    .add 197 (.ein [(34, [0, 1, 2]), (171, [3, 1, 4, 2])] [0, 3, 4]) 1 1,
    -- 2676: del tmp47
    .del 171,
    -- 2677: r2new.bab += einsum(tmp48, (0, 1, 2, 3), r2.bab, (3, 1, 4), (2, 0, 4))
    .add 197 (.ein [(173, [0, 1, 2, 3]), (34, [3, 1, 4])] [2, 0, 4]) 1 1,
    -- 2678: del tmp48
    .del 173,
    -- 2679: r2new.bab += einsum(r2.bab, (0, 1, 2), tmp50, (2, 3), (0, 1, 3)) * -1
    .add 197 (.ein [(34, [0, 1, 2]), (162, [2, 3])] [0, 1, 3]) (-1) 1,
    -- 2680: del tmp50
    .del 162,
    -- 2681: r2new.bab += einsum(t2.abab, (0, 1, 2, 3), tmp51, (2,), (1, 0, 3)) * 2
    .add 197 (.ein [(118, [0, 1, 2, 3]), (167, [2])] [1, 0, 3]) 2 1,
    -- 2682: del tmp51
    .del 167,
    -- 2683: r2new.bab += einsum(r1.a, (0,), tmp52, (1, 0, 2, 3), (2, 1, 3))
    .add 197 (.ein [(39, [0]), (169, [1, 0, 2, 3])] [2, 1, 3]) 1 1,
    -- 2684: del tmp52
    .del 169,
    -- 2685: r2new.bab += einsum(tmp43, (0, 1), r2.bab, (2, 0, 3), (2, 1, 3)) * -1
    .add 197 (.ein [(174, [0, 1]), (34, [2, 0, 3])] [2, 1, 3]) (-1) 1,
    -- 2686: r2new.bab += einsum(r2.bab, (0, 1, 2), tmp44, (0, 3), (3, 1, 2)) * -1
    .add 197 (.ein [(34, [0, 1, 2]), (170, [0, 3])] [3, 1, 2]) (-1) 1,
    -- 2687: r2new.bab += einsum(tmp53, (0, 1), r1.a, (2,), (0, 2, 1))
    .add 197 (.ein [(160, [0, 1]), (39, [2])] [0, 2, 1]) 1 1,
    -- 2688: del tmp53
    .del 160,
    -- 2689: r2new.aba = einsum(r2.aba, (0, 1, 2), tmp35, (3, 0, 4, 2), (3, 1, 4))
    .set 198 (.ein [(27, [0, 1, 2]), (179, [3, 0, 4, 2])] [3, 1, 4]) 1 1,
    -- 2690: del tmp35
    .del 179,
    -- 2691: r2new.aba += einsum(r2.bbb, (0, 1, 2), tmp36, (3, 1, 4, 2), (3, 0, 4)) * -2
    .add 198 (.ein [(25, [0, 1, 2]), (175, [3, 1, 4, 2])] [3, 0, 4]) (-2) 1,
    -- 2692: del tmp36
    .del 175,
    -- 2693: r2new.aba += einsum(r2.aba, (0, 1, 2), tmp37, (3, 1, 4, 2), (0, 3, 4))
    .add 198 (.ein [(27, [0, 1, 2]), (181, [3, 1, 4, 2])] [0, 3, 4]) 1 1,
    -- 2694: del tmp37
    .del 181,
    -- 2695: r2new.aba += einsum(r2.aba, (0, 1, 2), tmp38, (3, 0, 4, 1), (3, 4, 2))
    .add 198 (.ein [(27, [0, 1, 2]), (178, [3, 0, 4, 1])] [3, 4, 2]) 1 1,
    -- 2696: del tmp38
    .del 178,
    -- 2697: r2new.aba += einsum(tmp29, (0, 1), r2.aba, (2, 3, 0), (2, 3, 1)) * -1
    .add 198 (.ein [(182, [0, 1]), (27, [2, 3, 0])] [2, 3, 1]) (-1) 1,
    -- 2698: r2new.aba += einsum(t2.abab, (0, 1, 2, 3), tmp41, (3,), (0, 1, 2))
    .add 198 (.ein [(118, [0, 1, 2, 3]), (176, [3])] [0, 1, 2]) 1 1,
    -- 2699: del tmp41
    .del 176,
    -- 2700: r2new.aba += einsum(tmp42, (0, 1, 2, 3), r1.b, (2,), (0, 1, 3))
    .add 198 (.ein [(177, [0, 1, 2, 3]), (28, [2])] [0, 1, 3]) 1 1,
    -- 2701: del tmp42
    .del 177,
    -- 2702: r2new.aba += einsum(tmp43, (0, 1), r2.aba, (0, 2, 3), (1, 2, 3)) * -1
    .add 198 (.ein [(174, [0, 1]), (27, [0, 2, 3])] [1, 2, 3]) (-1) 1,
    -- 2703: del tmp43
    .del 174,
    -- 2704: r2new.aba += einsum(tmp44, (0, 1), r2.aba, (2, 0, 3), (2, 1, 3)) * -1
    .add 198 (.ein [(170, [0, 1]), (27, [2, 0, 3])] [2, 1, 3]) (-1) 1,
    -- 2705: del tmp44
    .del 170,
    -- 2706: r2new.aba += einsum(r1.b, (0,), tmp34, (1, 2), (1, 0, 2))
    .add 198 (.ein [(28, [0]), (180, [1, 2])] [1, 0, 2]) 1 1,
    -- 2707: r2new.aaa = np.copy(tmp17) * -1
    .set 199 (.cp 185) (-1) 1,
    -- 2708: r2new.aaa += np.transpose(tmp17, (1, 0, 2))
    .add 199 (.tr 185 [1, 0, 2]) 1 1,
    -- 2709: del tmp17
    .del 185,
    -- 2710: r2new.aaa += tmp26
    .add 199 (.cp 187) 1 1,
    -- 2711: r2new.aaa += np.transpose(tmp26, (1, 0, 2)) * -1
    .add 199 (.tr 187 [1, 0, 2]) (-1) 1,
    -- 2712: del tmp26
    .del 187,
    -- 2713: r2new.aaa += einsum(r2.aaa, (0, 1, 2), tmp27, (3, 4, 0, 1), (3, 4, 2)) * 2
    .add 199 (.ein [(35, [0, 1, 2]), (184, [3, 4, 0, 1])] [3, 4, 2]) 2 1,
    -- 2714: del tmp27
    .del 184,
    -- 2715: r2new.aaa += einsum(tmp29, (0, 1), r2.aaa, (2, 3, 0), (2, 3, 1)) * -2
    .add 199 (.ein [(182, [0, 1]), (35, [2, 3, 0])] [2, 3, 1]) (-2) 1,
    -- 2716: del tmp29
    .del 182,
    -- 2717: r2new.aaa += einsum(tmp32, (0,), t2.aaaa, (1, 2, 3, 0), (1, 2, 3)) * 2
    .add 199 (.ein [(183, [0]), (119, [1, 2, 3, 0])] [1, 2, 3]) 2 1,
    -- 2718: del tmp32
    .del 183,
    -- 2719: r2new.aaa += einsum(r1.a, (0,), tmp33, (1, 2, 0, 3), (2, 1, 3)) * 2
    .add 199 (.ein [(39, [0]), (186, [1, 2, 0, 3])] [2, 1, 3]) 2 1,
    -- 2720: del tmp33
    .del 186,
    -- 2721: r2new.aaa += einsum(tmp34, (0, 1), r1.a, (2,), (2, 0, 1)) * -1
    .add 199 (.ein [(180, [0, 1]), (39, [2])] [2, 0, 1]) (-1) 1,
    -- 2722: r2new.aaa += einsum(r1.a, (0,), tmp34, (1, 2), (1, 0, 2))
    .add 199 (.ein [(39, [0]), (180, [1, 2])] [1, 0, 2]) 1 1,
    -- 2723: del tmp34
    .del 180,
    -- 2724: r1new.b = einsum(r2.aba, (0, 1, 2), tmp5, (0, 3, 1, 2), (3,))
    .set 200 (.ein [(27, [0, 1, 2]), (190, [0, 3, 1, 2])] [3]) 1 1,
    -- 2725: del tmp5
    .del 190,
    -- 2726: r1new.b += einsum(tmp6, (0, 1, 2, 3), r2.bbb, (2, 1, 3), (0,)) * -2
    .add 200 (.ein [(192, [0, 1, 2, 3]), (25, [2, 1, 3])] [0]) (-2) 1,
    -- 2727: del tmp6
    .del 192,
    -- 2728: r1new.b += einsum(r2.aba, (0, 1, 2), tmp3, (0, 2), (1,)) * -1
    .add 200 (.ein [(27, [0, 1, 2]), (189, [0, 2])] [1]) (-1) 1,
    -- 2729: r1new.b += einsum(r2.bbb, (0, 1, 2), tmp2, (1, 2), (0,)) * 2
    .add 200 (.ein [(25, [0, 1, 2]), (191, [1, 2])] [0]) 2 1,
    -- 2730: r1new.b += einsum(r1.b, (0,), tmp7, (0, 1), (1,)) * -1
    .add 200 (.ein [(28, [0]), (188, [0, 1])] [1]) (-1) 1,
    -- 2731: del tmp7
    .del 188,
    -- 2732: r1new.a = einsum(tmp0, (0, 1, 2, 3), r2.aaa, (2, 1, 3), (0,)) * -2
    .set 201 (.ein [(194, [0, 1, 2, 3]), (35, [2, 1, 3])] [0]) (-2) 1,
    -- 2733: del tmp0
    .del 194,
    -- 2734: r1new.a += einsum(r2.bab, (0, 1, 2), tmp1, (3, 1, 0, 2), (3,))
    .add 201 (.ein [(34, [0, 1, 2]), (195, [3, 1, 0, 2])] [3]) 1 1,
    -- 2735: del tmp1
    .del 195,
    -- 2736: r1new.a += einsum(r2.bab, (0, 1, 2), tmp2, (0, 2), (1,)) * -1
    .add 201 (.ein [(34, [0, 1, 2]), (191, [0, 2])] [1]) (-1) 1,
    -- 2737: del tmp2
    .del 191,
    -- 2738: r1new.a += einsum(r2.aaa, (0, 1, 2), tmp3, (1, 2), (0,)) * 2
    .add 201 (.ein [(35, [0, 1, 2]), (189, [1, 2])] [0]) 2 1,
    -- 2739: del tmp3
    .del 189,
    -- 2740: r1new.a += einsum(r1.a, (0,), tmp4, (0, 1), (1,)) * -1
    .add 201 (.ein [(39, [0]), (193, [0, 1])] [1]) (-1) 1,
    -- 2741: del tmp4
    .del 193
  ]
  ret := [(chars! "r1new.b", 200), (chars! "r1new.a", 201), (chars! "r2new.bbb", 196), (chars! "r2new.bab", 197), (chars! "r2new.aba", 198), (chars! "r2new.aaa", 199)]

/-- codegen/UCC2.py:3322-3742 `hbar_lmatvec_ip_intermediates`. -/
def hbar_lmatvec_ip_intermediates : GenFun where
  args := [chars! "t1.aa", chars! "v.aabb.ovov", chars! "v.bbbb.ovov", chars! "t1.bb", chars! "v.aaaa.ovov", chars! "v.aabb.vvov", chars! "v.bbbb.ovvv", chars! "v.aabb.ovoo", chars! "v.aabb.ooov", chars! "v.bbbb.ooov", chars! "t2.abab", chars! "t2.bbbb", chars! "v.aabb.ovvv", chars! "v.aaaa.ovvv", chars! "v.aaaa.ooov", chars! "t2.aaaa", chars! "f.bb.ov", chars! "f.aa.ov", chars! "v.aabb.vvoo", chars! "v.bbbb.oovv", chars! "v.aabb.oooo", chars! "v.bbbb.oooo", chars! "v.aabb.oovv", chars! "v.aaaa.oovv", chars! "v.aaaa.oooo", chars! "f.bb.vv", chars! "f.aa.vv", chars! "f.bb.oo", chars! "f.aa.oo"]
  body := [
    -- 3522: tmp45 = einsum(t1.aa, (0, 1), v.aabb.ovov, (2, 1, 3, 4), (0, 2, 3, 4))
    .set 29 (.ein [(0, [0, 1]), (1, [2, 1, 3, 4])] [0, 2, 3, 4]) 1 1,
    -- 3523: tmp119 = einsum(v.bbbb.ovov, (0, 1, 2, 3), t1.bb, (4, 3), (4, 0, 2, 1))
    .set 30 (.ein [(2, [0, 1, 2, 3]), (3, [4, 3])] [4, 0, 2, 1]) 1 1,
    -- 3524: tmp41 = einsum(t1.aa, (0, 1), v.aaaa.ovov, (2, 3, 4, 1), (0, 2, 4, 3))
    .set 31 (.ein [(0, [0, 1]), (4, [2, 3, 4, 1])] [0, 2, 4, 3]) 1 1,
    -- 3525: tmp38 = einsum(t1.aa, (0, 1), v.aabb.ovov, (0, 1, 2, 3), (2, 3))
    .set 32 (.ein [(0, [0, 1]), (1, [0, 1, 2, 3])] [2, 3]) 1 1,
    -- 3526: tmp39 = einsum(v.aabb.ovov, (0, 1, 2, 3), t1.bb, (2, 3), (0, 1))
    .set 33 (.ein [(1, [0, 1, 2, 3]), (3, [2, 3])] [0, 1]) 1 1,
    -- 3527: tmp36 = einsum(t1.bb, (0, 1), v.bbbb.ovov, (2, 3, 0, 1), (2, 3))
    .set 34 (.ein [(3, [0, 1]), (2, [2, 3, 0, 1])] [2, 3]) 1 1,
    -- 3528: tmp89 = einsum(t1.bb, (0, 1), v.bbbb.ovov, (2, 1, 0, 3), (2, 3))
    .set 35 (.ein [(3, [0, 1]), (2, [2, 1, 0, 3])] [2, 3]) 1 1,
    -- 3529: tmp32 = einsum(v.aaaa.ovov, (0, 1, 2, 3), t1.aa, (2, 3), (0, 1))
    .set 36 (.ein [(4, [0, 1, 2, 3]), (0, [2, 3])] [0, 1]) 1 1,
    -- 3530: tmp82 = einsum(v.aaaa.ovov, (0, 1, 2, 3), t1.aa, (2, 1), (0, 3))
    .set 37 (.ein [(4, [0, 1, 2, 3]), (0, [2, 1])] [0, 3]) 1 1,
    -- 3531: tmp214 = einsum(tmp45, (0, 1, 2, 3), t1.bb, (4, 3), (0, 1, 4, 2))
    .set 38 (.ein [(29, [0, 1, 2, 3]), (3, [4, 3])] [0, 1, 4, 2]) 1 1,
    -- 3532: tmp333 = einsum(tmp119, (0, 1, 2, 3), t1.bb, (4, 3), (4, 0, 1, 2))
    .set 39 (.ein [(30, [0, 1, 2, 3]), (3, [4, 3])] [4, 0, 1, 2]) 1 1,
    -- 3533: tmp327 = einsum(v.aabb.vvov, (0, 1, 2, 3), t1.bb, (4, 3), (4, 2, 0, 1))
    .set 40 (.ein [(5, [0, 1, 2, 3]), (3, [4, 3])] [4, 2, 0, 1]) 1 1,
    -- 3534: tmp324 = einsum(v.bbbb.ovvv, (0, 1, 2, 3), t1.bb, (4, 3), (4, 0, 1, 2))
    .set 41 (.ein [(6, [0, 1, 2, 3]), (3, [4, 3])] [4, 0, 1, 2]) 1 1,
    -- 3535: tmp174 = einsum(t1.aa, (0, 1), v.aabb.ovoo, (2, 1, 3, 4), (0, 2, 3, 4))
    .set 42 (.ein [(0, [0, 1]), (7, [2, 1, 3, 4])] [0, 2, 3, 4]) 1 1,
    -- 3536: tmp176 = einsum(v.aabb.ooov, (0, 1, 2, 3), t1.bb, (4, 3), (0, 1, 4, 2))
    .set 43 (.ein [(8, [0, 1, 2, 3]), (3, [4, 3])] [0, 1, 4, 2]) 1 1,
    -- 3537: tmp314 = einsum(v.bbbb.ooov, (0, 1, 2, 3), t1.bb, (4, 3), (4, 0, 1, 2))
    .set 44 (.ein [(9, [0, 1, 2, 3]), (3, [4, 3])] [4, 0, 1, 2]) 1 1,
    -- 3538: tmp151 = einsum(t2.abab, (0, 1, 2, 3), v.aabb.ovov, (4, 2, 5, 3), (0, 4, 1, 5))
    .set 45 (.ein [(10, [0, 1, 2, 3]), (1, [4, 2, 5, 3])] [0, 4, 1, 5]) 1 1,
    -- 3539: tmp306 = einsum(t2.bbbb, (0, 1, 2, 3), v.bbbb.ovov, (4, 3, 5, 2), (0, 1, 4, 5)) * -1
    .set 46 (.ein [(11, [0, 1, 2, 3]), (2, [4, 3, 5, 2])] [0, 1, 4, 5]) (-1) 1,
    -- 3540: tmp124 = einsum(v.aabb.ovov, (0, 1, 2, 3), t1.bb, (4, 3), (0, 4, 2, 1))
    .set 47 (.ein [(1, [0, 1, 2, 3]), (3, [4, 3])] [0, 4, 2, 1]) 1 1,
    -- 3541: tmp211 = einsum(t1.aa, (0, 1), tmp41, (2, 3, 4, 1), (0, 2, 3, 4))
    .set 48 (.ein [(0, [0, 1]), (31, [2, 3, 4, 1])] [0, 2, 3, 4]) 1 1,
    -- 3542: tmp209 = einsum(tmp38, (0, 1), t1.bb, (2, 1), (2, 0))
    .set 49 (.ein [(32, [0, 1]), (3, [2, 1])] [2, 0]) 1 1,
    -- 3543: tmp156 = einsum(t1.aa, (0, 1), tmp39, (2, 1), (0, 2))
    .set 50 (.ein [(0, [0, 1]), (33, [2, 1])] [0, 2]) 1 1,
    -- 3544: tmp205 = einsum(tmp36, (0, 1), t1.bb, (2, 1), (2, 0))
    .set 51 (.ein [(34, [0, 1]), (3, [2, 1])] [2, 0]) 1 1,
    -- 3545: tmp203 = einsum(tmp89, (0, 1), t1.bb, (2, 1), (2, 0))
    .set 52 (.ein [(35, [0, 1]), (3, [2, 1])] [2, 0]) 1 1,
    -- 3546: tmp155 = einsum(t1.aa, (0, 1), tmp32, (2, 1), (0, 2))
    .set 53 (.ein [(0, [0, 1]), (36, [2, 1])] [0, 2]) 1 1,
    -- 3547: tmp154 = einsum(t1.aa, (0, 1), tmp82, (2, 1), (0, 2))
    .set 54 (.ein [(0, [0, 1]), (37, [2, 1])] [0, 2]) 1 1,
    -- 3548: tmp196 = einsum(t1.aa, (0, 1), v.aabb.ovvv, (2, 1, 3, 4), (0, 2, 3, 4))
    .set 55 (.ein [(0, [0, 1]), (12, [2, 1, 3, 4])] [0, 2, 3, 4]) 1 1,
    -- 3549: tmp193 = einsum(v.aaaa.ovvv, (0, 1, 2, 3), t1.aa, (4, 3), (4, 0, 1, 2))
    .set 56 (.ein [(13, [0, 1, 2, 3]), (0, [4, 3])] [4, 0, 1, 2]) 1 1,
    -- 3550: tmp190 = einsum(v.aabb.vvov, (0, 1, 2, 3), t1.bb, (2, 3), (0, 1))
    .set 57 (.ein [(5, [0, 1, 2, 3]), (3, [2, 3])] [0, 1]) 1 1,
    -- 3551: tmp188 = einsum(t1.aa, (0, 1), v.aabb.ovvv, (0, 1, 2, 3), (2, 3))
    .set 58 (.ein [(0, [0, 1]), (12, [0, 1, 2, 3])] [2, 3]) 1 1,
    -- 3552: tmp186 = einsum(v.bbbb.ovvv, (0, 1, 2, 3), t1.bb, (0, 3), (1, 2))
    .set 59 (.ein [(6, [0, 1, 2, 3]), (3, [0, 3])] [1, 2]) 1 1,
    -- 3553: tmp184 = einsum(v.bbbb.ovvv, (0, 1, 2, 3), t1.bb, (0, 1), (2, 3))
    .set 60 (.ein [(6, [0, 1, 2, 3]), (3, [0, 1])] [2, 3]) 1 1,
    -- 3554: tmp181 = einsum(v.aaaa.ovvv, (0, 1, 2, 3), t1.aa, (0, 3), (1, 2))
    .set 61 (.ein [(13, [0, 1, 2, 3]), (0, [0, 3])] [1, 2]) 1 1,
    -- 3555: tmp178 = einsum(v.aaaa.ovvv, (0, 1, 2, 3), t1.aa, (0, 1), (2, 3))
    .set 62 (.ein [(13, [0, 1, 2, 3]), (0, [0, 1])] [2, 3]) 1 1,
    -- 3556: tmp169 = einsum(t1.aa, (0, 1), v.aaaa.ooov, (2, 3, 4, 1), (0, 2, 3, 4))
    .set 63 (.ein [(0, [0, 1]), (14, [2, 3, 4, 1])] [0, 2, 3, 4]) 1 1,
    -- 3557: tmp167 = einsum(t1.aa, (0, 1), v.aabb.ovoo, (0, 1, 2, 3), (2, 3))
    .set 64 (.ein [(0, [0, 1]), (7, [0, 1, 2, 3])] [2, 3]) 1 1,
    -- 3558: tmp27 = einsum(v.aabb.ooov, (0, 1, 2, 3), t1.bb, (2, 3), (0, 1))
    .set 65 (.ein [(8, [0, 1, 2, 3]), (3, [2, 3])] [0, 1]) 1 1,
    -- 3559: tmp163 = einsum(v.bbbb.ooov, (0, 1, 2, 3), t1.bb, (2, 3), (0, 1))
    .set 66 (.ein [(9, [0, 1, 2, 3]), (3, [2, 3])] [0, 1]) 1 1,
    -- 3560: tmp161 = einsum(v.bbbb.ooov, (0, 1, 2, 3), t1.bb, (1, 3), (0, 2))
    .set 67 (.ein [(9, [0, 1, 2, 3]), (3, [1, 3])] [0, 2]) 1 1,
    -- 3561: tmp26 = einsum(t1.aa, (0, 1), v.aaaa.ooov, (2, 3, 0, 1), (2, 3))
    .set 68 (.ein [(0, [0, 1]), (14, [2, 3, 0, 1])] [2, 3]) 1 1,
    -- 3562: tmp25 = einsum(t1.aa, (0, 1), v.aaaa.ooov, (2, 0, 3, 1), (2, 3))
    .set 69 (.ein [(0, [0, 1]), (14, [2, 0, 3, 1])] [2, 3]) 1 1,
    -- 3563: tmp148 = einsum(t2.aaaa, (0, 1, 2, 3), v.aaaa.ovov, (4, 3, 5, 2), (0, 1, 4, 5)) * -1
    .set 70 (.ein [(15, [0, 1, 2, 3]), (4, [4, 3, 5, 2])] [0, 1, 4, 5]) (-1) 1,
    -- 3564: tmp49 = einsum(t2.abab, (0, 1, 2, 3), v.aabb.ovov, (4, 2, 1, 3), (0, 4))
    .set 71 (.ein [(10, [0, 1, 2, 3]), (1, [4, 2, 1, 3])] [0, 4]) 1 1,
    -- 3565: tmp143 = einsum(t2.abab, (0, 1, 2, 3), v.aabb.ovov, (0, 2, 4, 3), (1, 4))
    .set 72 (.ein [(10, [0, 1, 2, 3]), (1, [0, 2, 4, 3])] [1, 4]) 1 1,
    -- 3566: tmp140 = einsum(t2.bbbb, (0, 1, 2, 3), v.bbbb.ovov, (4, 3, 1, 2), (0, 4)) * -1
    .set 73 (.ein [(11, [0, 1, 2, 3]), (2, [4, 3, 1, 2])] [0, 4]) (-1) 1,
    -- 3567: tmp47 = einsum(v.aaaa.ovov, (0, 1, 2, 3), t2.aaaa, (4, 2, 1, 3), (4, 0))
    .set 74 (.ein [(4, [0, 1, 2, 3]), (15, [4, 2, 1, 3])] [4, 0]) 1 1,
    -- 3568: tmp21 = einsum(t1.bb, (0, 1), f.bb.ov, (2, 1), (2, 0))
    .set 75 (.ein [(3, [0, 1]), (16, [2, 1])] [2, 0]) 1 1,
    -- 3569: tmp1 = einsum(t1.aa, (0, 1), f.aa.ov, (2, 1), (2, 0))
    .set 76 (.ein [(0, [0, 1]), (17, [2, 1])] [2, 0]) 1 1,
    -- 3570: tmp416 = einsum(t2.abab, (0, 1, 2, 3), v.aabb.ovov, (4, 2, 1, 5), (0, 4, 3, 5))
    .set 77 (.ein [(10, [0, 1, 2, 3]), (1, [4, 2, 1, 5])] [0, 4, 3, 5]) 1 1,
    -- 3571: tmp414 = einsum(t2.abab, (0, 1, 2, 3), v.aabb.ovov, (0, 2, 1, 4), (3, 4))
    .set 78 (.ein [(10, [0, 1, 2, 3]), (1, [0, 2, 1, 4])] [3, 4]) 1 1,
    -- 3572: tmp412 = einsum(v.bbbb.ovov, (0, 1, 2, 3), t2.bbbb, (0, 2, 4, 3), (4, 1))
    .set 79 (.ein [(2, [0, 1, 2, 3]), (11, [0, 2, 4, 3])] [4, 1]) 1 1,
    -- 3573: tmp402 = einsum(t2.abab, (0, 1, 2, 3), v.aabb.ovov, (0, 2, 4, 5), (1, 4, 3, 5))
    .set 80 (.ein [(10, [0, 1, 2, 3]), (1, [0, 2, 4, 5])] [1, 4, 3, 5]) 1 1,
    -- 3574: tmp400 = einsum(v.aabb.ovov, (0, 1, 2, 3), t2.aaaa, (4, 0, 5, 1), (4, 2, 5, 3))
    .set 81 (.ein [(1, [0, 1, 2, 3]), (15, [4, 0, 5, 1])] [4, 2, 5, 3]) 1 1,
    -- 3575: tmp398 = einsum(v.bbbb.ovov, (0, 1, 2, 3), t2.bbbb, (4, 2, 5, 3), (4, 0, 5, 1))
    .set 82 (.ein [(2, [0, 1, 2, 3]), (11, [4, 2, 5, 3])] [4, 0, 5, 1]) 1 1,
    -- 3576: tmp396 = einsum(v.bbbb.ovov, (0, 1, 2, 3), t2.abab, (4, 2, 5, 3), (4, 0, 5, 1))
    .set 83 (.ein [(2, [0, 1, 2, 3]), (10, [4, 2, 5, 3])] [4, 0, 5, 1]) 1 1,
    -- 3577: tmp394 = einsum(v.bbbb.ovov, (0, 1, 2, 3), t2.bbbb, (4, 2, 5, 1), (4, 0, 5, 3))
    .set 84 (.ein [(2, [0, 1, 2, 3]), (11, [4, 2, 5, 1])] [4, 0, 5, 3]) 1 1,
    -- 3578: tmp392 = einsum(v.bbbb.ovov, (0, 1, 2, 3), t2.abab, (4, 2, 5, 1), (4, 0, 5, 3))
    .set 85 (.ein [(2, [0, 1, 2, 3]), (10, [4, 2, 5, 1])] [4, 0, 5, 3]) 1 1,
    -- 3579: tmp390 = einsum(t2.abab, (0, 1, 2, 3), v.aabb.ovov, (0, 4, 5, 3), (1, 5, 2, 4))
    .set 86 (.ein [(10, [0, 1, 2, 3]), (1, [0, 4, 5, 3])] [1, 5, 2, 4]) 1 1,
    -- 3580: tmp369 = einsum(t2.abab, (0, 1, 2, 3), v.aabb.ovov, (0, 4, 1, 3), (2, 4))
    .set 87 (.ein [(10, [0, 1, 2, 3]), (1, [0, 4, 1, 3])] [2, 4]) 1 1,
    -- 3581: tmp367 = einsum(v.aaaa.ovov, (0, 1, 2, 3), t2.aaaa, (0, 2, 4, 3), (4, 1))
    .set 88 (.ein [(4, [0, 1, 2, 3]), (15, [0, 2, 4, 3])] [4, 1]) 1 1,
    -- 3582: tmp351 = einsum(t2.bbbb, (0, 1, 2, 3), v.aabb.ovov, (4, 5, 1, 3), (4, 0, 5, 2))
    .set 89 (.ein [(11, [0, 1, 2, 3]), (1, [4, 5, 1, 3])] [4, 0, 5, 2]) 1 1,
    -- 3583: tmp349 = einsum(t2.abab, (0, 1, 2, 3), v.aabb.ovov, (4, 5, 1, 3), (0, 4, 2, 5))
    .set 90 (.ein [(10, [0, 1, 2, 3]), (1, [4, 5, 1, 3])] [0, 4, 2, 5]) 1 1,
    -- 3584: tmp347 = einsum(v.aaaa.ovov, (0, 1, 2, 3), t2.abab, (2, 4, 3, 5), (0, 4, 1, 5))
    .set 91 (.ein [(4, [0, 1, 2, 3]), (10, [2, 4, 3, 5])] [0, 4, 1, 5]) 1 1,
    -- 3585: tmp345 = einsum(t2.aaaa, (0, 1, 2, 3), v.aaaa.ovov, (4, 5, 1, 3), (0, 4, 2, 5))
    .set 92 (.ein [(15, [0, 1, 2, 3]), (4, [4, 5, 1, 3])] [0, 4, 2, 5]) 1 1,
    -- 3586: tmp343 = einsum(v.aaaa.ovov, (0, 1, 2, 3), t2.abab, (2, 4, 1, 5), (0, 4, 3, 5))
    .set 93 (.ein [(4, [0, 1, 2, 3]), (10, [2, 4, 1, 5])] [0, 4, 3, 5]) 1 1,
    -- 3587: tmp341 = einsum(t2.aaaa, (0, 1, 2, 3), v.aaaa.ovov, (4, 3, 1, 5), (0, 4, 2, 5))
    .set 94 (.ein [(15, [0, 1, 2, 3]), (4, [4, 3, 1, 5])] [0, 4, 2, 5]) 1 1,
    -- 3588: tmp336 = einsum(tmp214, (0, 1, 2, 3), t1.aa, (1, 4), (0, 2, 3, 4))
    .set 95 (.ein [(38, [0, 1, 2, 3]), (0, [1, 4])] [0, 2, 3, 4]) 1 1,
    -- 3589: tmp334 = einsum(tmp333, (0, 1, 2, 3), t1.bb, (3, 4), (0, 1, 2, 4))
    .set 96 (.ein [(39, [0, 1, 2, 3]), (3, [3, 4])] [0, 1, 2, 4]) 1 1,
    -- 3590: del tmp333
    .del 39,
    -- 3591: tmp328 = einsum(t1.aa, (0, 1), tmp327, (2, 3, 4, 1), (0, 2, 3, 4))
    .set 97 (.ein [(0, [0, 1]), (40, [2, 3, 4, 1])] [0, 2, 3, 4]) 1 1,
    -- 3592: del tmp327
    .del 40,
    -- 3593: tmp325 = einsum(tmp324, (0, 1, 2, 3), t1.bb, (4, 2), (4, 0, 1, 3))
    .set 98 (.ein [(41, [0, 1, 2, 3]), (3, [4, 2])] [4, 0, 1, 3]) 1 1,
    -- 3594: del tmp324
    .del 41,
    -- 3595: tmp320 = einsum(t1.aa, (0, 1), tmp174, (2, 0, 3, 4), (2, 3, 4, 1))
    .set 99 (.ein [(0, [0, 1]), (42, [2, 0, 3, 4])] [2, 3, 4, 1]) 1 1,
    -- 3596: tmp319 = einsum(t1.aa, (0, 1), tmp176, (2, 0, 3, 4), (2, 3, 4, 1))
    .set 100 (.ein [(0, [0, 1]), (43, [2, 0, 3, 4])] [2, 3, 4, 1]) 1 1,
    -- 3597: tmp317 = einsum(t1.bb, (0, 1), tmp314, (2, 3, 4, 0), (2, 3, 4, 1))
    .set 101 (.ein [(3, [0, 1]), (44, [2, 3, 4, 0])] [2, 3, 4, 1]) 1 1,
    -- 3598: tmp315 = einsum(tmp314, (0, 1, 2, 3), t1.bb, (2, 4), (0, 1, 3, 4))
    .set 102 (.ein [(44, [0, 1, 2, 3]), (3, [2, 4])] [0, 1, 3, 4]) 1 1,
    -- 3599: del tmp314
    .del 44,
    -- 3600: tmp309 = einsum(t1.aa, (0, 1), tmp151, (2, 0, 3, 4), (2, 3, 4, 1))
    .set 103 (.ein [(0, [0, 1]), (45, [2, 0, 3, 4])] [2, 3, 4, 1]) 1 1,
    -- 3601: tmp307 = einsum(tmp306, (0, 1, 2, 3), t1.bb, (3, 4), (0, 1, 2, 4))
    .set 104 (.ein [(46, [0, 1, 2, 3]), (3, [3, 4])] [0, 1, 2, 4]) 1 1,
    -- 3602: tmp301 = einsum(t2.abab, (0, 1, 2, 3), tmp45, (4, 0, 5, 3), (4, 1, 5, 2))
    .set 105 (.ein [(10, [0, 1, 2, 3]), (29, [4, 0, 5, 3])] [4, 1, 5, 2]) 1 1,
    -- 3603: tmp299 = einsum(tmp124, (0, 1, 2, 3), t2.abab, (0, 4, 3, 5), (1, 4, 2, 5))
    .set 106 (.ein [(47, [0, 1, 2, 3]), (10, [0, 4, 3, 5])] [1, 4, 2, 5]) 1 1,
    -- 3604: tmp297 = einsum(tmp124, (0, 1, 2, 3), t2.aaaa, (4, 0, 5, 3), (4, 1, 2, 5))
    .set 107 (.ein [(47, [0, 1, 2, 3]), (15, [4, 0, 5, 3])] [4, 1, 2, 5]) 1 1,
    -- 3605: tmp295 = einsum(t2.bbbb, (0, 1, 2, 3), tmp119, (4, 5, 1, 3), (4, 0, 5, 2))
    .set 108 (.ein [(11, [0, 1, 2, 3]), (30, [4, 5, 1, 3])] [4, 0, 5, 2]) 1 1,
    -- 3606: tmp294 = einsum(t2.abab, (0, 1, 2, 3), tmp119, (4, 5, 1, 3), (0, 4, 5, 2))
    .set 109 (.ein [(10, [0, 1, 2, 3]), (30, [4, 5, 1, 3])] [0, 4, 5, 2]) 1 1,
    -- 3607: tmp292 = einsum(tmp119, (0, 1, 2, 3), t2.bbbb, (4, 1, 5, 3), (0, 4, 2, 5))
    .set 110 (.ein [(30, [0, 1, 2, 3]), (11, [4, 1, 5, 3])] [0, 4, 2, 5]) 1 1,
    -- 3608: tmp291 = einsum(tmp119, (0, 1, 2, 3), t2.abab, (4, 1, 5, 3), (4, 0, 2, 5))
    .set 111 (.ein [(30, [0, 1, 2, 3]), (10, [4, 1, 5, 3])] [4, 0, 2, 5]) 1 1,
    -- 3609: tmp285 = einsum(tmp38, (0, 1), t2.bbbb, (2, 3, 4, 1), (2, 3, 0, 4))
    .set 112 (.ein [(32, [0, 1]), (11, [2, 3, 4, 1])] [2, 3, 0, 4]) 1 1,
    -- 3610: tmp283 = einsum(t2.abab, (0, 1, 2, 3), tmp38, (4, 3), (0, 1, 4, 2))
    .set 113 (.ein [(10, [0, 1, 2, 3]), (32, [4, 3])] [0, 1, 4, 2]) 1 1,
    -- 3611: tmp281 = einsum(t2.bbbb, (0, 1, 2, 3), tmp36, (4, 3), (0, 1, 4, 2))
    .set 114 (.ein [(11, [0, 1, 2, 3]), (34, [4, 3])] [0, 1, 4, 2]) 1 1,
    -- 3612: tmp279 = einsum(t2.abab, (0, 1, 2, 3), tmp36, (4, 3), (0, 1, 4, 2))
    .set 115 (.ein [(10, [0, 1, 2, 3]), (34, [4, 3])] [0, 1, 4, 2]) 1 1,
    -- 3613: tmp277 = einsum(t2.bbbb, (0, 1, 2, 3), tmp89, (4, 3), (0, 1, 4, 2))
    .set 116 (.ein [(11, [0, 1, 2, 3]), (35, [4, 3])] [0, 1, 4, 2]) 1 1,
    -- 3614: tmp275 = einsum(t2.abab, (0, 1, 2, 3), tmp89, (4, 3), (0, 1, 4, 2))
    .set 117 (.ein [(10, [0, 1, 2, 3]), (35, [4, 3])] [0, 1, 4, 2]) 1 1,
    -- 3615: tmp264 = einsum(t2.abab, (0, 1, 2, 3), v.aabb.vvov, (4, 2, 5, 3), (0, 1, 5, 4))
    .set 118 (.ein [(10, [0, 1, 2, 3]), (5, [4, 2, 5, 3])] [0, 1, 5, 4]) 1 1,
    -- 3616: tmp262 = einsum(t2.bbbb, (0, 1, 2, 3), v.bbbb.ovvv, (4, 3, 5, 2), (0, 1, 4, 5)) * -1
    .set 119 (.ein [(11, [0, 1, 2, 3]), (6, [4, 3, 5, 2])] [0, 1, 4, 5]) (-1) 1,
    -- 3617: tmp256 = einsum(t2.abab, (0, 1, 2, 3), v.aabb.ovoo, (0, 2, 4, 5), (1, 4, 5, 3))
    .set 120 (.ein [(10, [0, 1, 2, 3]), (7, [0, 2, 4, 5])] [1, 4, 5, 3]) 1 1,
    -- 3618: tmp254 = einsum(v.aabb.ovoo, (0, 1, 2, 3), t2.aaaa, (4, 0, 5, 1), (4, 2, 3, 5))
    .set 121 (.ein [(7, [0, 1, 2, 3]), (15, [4, 0, 5, 1])] [4, 2, 3, 5]) 1 1,
    -- 3619: tmp253 = einsum(t2.abab, (0, 1, 2, 3), v.aabb.ooov, (4, 0, 5, 3), (4, 1, 5, 2))
    .set 122 (.ein [(10, [0, 1, 2, 3]), (8, [4, 0, 5, 3])] [4, 1, 5, 2]) 1 1,
    -- 3620: tmp251 = einsum(t2.bbbb, (0, 1, 2, 3), v.bbbb.ooov, (4, 5, 1, 3), (0, 4, 5, 2))
    .set 123 (.ein [(11, [0, 1, 2, 3]), (9, [4, 5, 1, 3])] [0, 4, 5, 2]) 1 1,
    -- 3621: tmp250 = einsum(t2.abab, (0, 1, 2, 3), v.bbbb.ooov, (4, 5, 1, 3), (0, 4, 5, 2))
    .set 124 (.ein [(10, [0, 1, 2, 3]), (9, [4, 5, 1, 3])] [0, 4, 5, 2]) 1 1,
    -- 3622: tmp248 = einsum(t2.bbbb, (0, 1, 2, 3), v.bbbb.ooov, (4, 1, 5, 3), (0, 4, 5, 2))
    .set 125 (.ein [(11, [0, 1, 2, 3]), (9, [4, 1, 5, 3])] [0, 4, 5, 2]) 1 1,
    -- 3623: tmp247 = einsum(v.bbbb.ooov, (0, 1, 2, 3), t2.abab, (4, 1, 5, 3), (4, 0, 2, 5))
    .set 126 (.ein [(9, [0, 1, 2, 3]), (10, [4, 1, 5, 3])] [4, 0, 2, 5]) 1 1,
    -- 3624: tmp240 = einsum(t1.aa, (0, 1), v.aabb.vvoo, (2, 1, 3, 4), (0, 3, 4, 2))
    .set 127 (.ein [(0, [0, 1]), (18, [2, 1, 3, 4])] [0, 3, 4, 2]) 1 1,
    -- 3625: tmp238 = einsum(v.bbbb.oovv, (0, 1, 2, 3), t1.bb, (4, 3), (4, 0, 1, 2))
    .set 128 (.ein [(19, [0, 1, 2, 3]), (3, [4, 3])] [4, 0, 1, 2]) 1 1,
    -- 3626: tmp232 = einsum(t1.aa, (0, 1), v.aabb.oooo, (2, 0, 3, 4), (2, 3, 4, 1))
    .set 129 (.ein [(0, [0, 1]), (20, [2, 0, 3, 4])] [2, 3, 4, 1]) 1 1,
    -- 3627: tmp230 = einsum(t1.bb, (0, 1), v.bbbb.oooo, (2, 3, 4, 0), (2, 3, 4, 1))
    .set 130 (.ein [(3, [0, 1]), (21, [2, 3, 4, 0])] [2, 3, 4, 1]) 1 1,
    -- 3628: tmp225 = einsum(f.bb.ov, (0, 1), t2.bbbb, (2, 3, 4, 1), (0, 2, 3, 4))
    .set 131 (.ein [(16, [0, 1]), (11, [2, 3, 4, 1])] [0, 2, 3, 4]) 1 1,
    -- 3629: tmp223 = einsum(t2.abab, (0, 1, 2, 3), f.bb.ov, (4, 3), (0, 4, 1, 2))
    .set 132 (.ein [(10, [0, 1, 2, 3]), (16, [4, 3])] [0, 4, 1, 2]) 1 1,
    -- 3630: tmp215 = einsum(tmp214, (0, 1, 2, 3), t1.bb, (3, 4), (0, 1, 2, 4))
    .set 133 (.ein [(38, [0, 1, 2, 3]), (3, [3, 4])] [0, 1, 2, 4]) 1 1,
    -- 3631: del tmp214
    .del 38,
    -- 3632: tmp212 = einsum(tmp211, (0, 1, 2, 3), t1.aa, (3, 4), (0, 1, 2, 4))
    .set 134 (.ein [(48, [0, 1, 2, 3]), (0, [3, 4])] [0, 1, 2, 4]) 1 1,
    -- 3633: del tmp211
    .del 48,
    -- 3634: tmp210 = einsum(tmp209, (0, 1), t1.bb, (1, 2), (0, 2))
    .set 135 (.ein [(49, [0, 1]), (3, [1, 2])] [0, 2]) 1 1,
    -- 3635: tmp207 = einsum(tmp156, (0, 1), t1.aa, (1, 2), (0, 2))
    .set 136 (.ein [(50, [0, 1]), (0, [1, 2])] [0, 2]) 1 1,
    -- 3636: tmp206 = einsum(tmp205, (0, 1), t1.bb, (1, 2), (0, 2))
    .set 137 (.ein [(51, [0, 1]), (3, [1, 2])] [0, 2]) 1 1,
    -- 3637: tmp204 = einsum(tmp203, (0, 1), t1.bb, (1, 2), (0, 2))
    .set 138 (.ein [(52, [0, 1]), (3, [1, 2])] [0, 2]) 1 1,
    -- 3638: tmp201 = einsum(t1.aa, (0, 1), tmp155, (2, 0), (2, 1))
    .set 139 (.ein [(0, [0, 1]), (53, [2, 0])] [2, 1]) 1 1,
    -- 3639: tmp199 = einsum(t1.aa, (0, 1), tmp154, (2, 0), (2, 1))
    .set 140 (.ein [(0, [0, 1]), (54, [2, 0])] [2, 1]) 1 1,
    -- 3640: tmp197 = einsum(tmp196, (0, 1, 2, 3), t1.bb, (4, 3), (0, 1, 4, 2))
    .set 141 (.ein [(55, [0, 1, 2, 3]), (3, [4, 3])] [0, 1, 4, 2]) 1 1,
    -- 3641: del tmp196
    .del 55,
    -- 3642: tmp194 = einsum(t1.aa, (0, 1), tmp193, (2, 3, 1, 4), (0, 2, 3, 4))
    .set 142 (.ein [(0, [0, 1]), (56, [2, 3, 1, 4])] [0, 2, 3, 4]) 1 1,
    -- 3643: del tmp193
    .del 56,
    -- 3644: tmp191 = einsum(tmp190, (0, 1), t1.aa, (2, 1), (2, 0))
    .set 143 (.ein [(57, [0, 1]), (0, [2, 1])] [2, 0]) 1 1,
    -- 3645: del tmp190
    .del 57,
    -- 3646: tmp189 = einsum(tmp188, (0, 1), t1.bb, (2, 1), (2, 0))
    .set 144 (.ein [(58, [0, 1]), (3, [2, 1])] [2, 0]) 1 1,
    -- 3647: del tmp188
    .del 58,
    -- 3648: tmp187 = einsum(tmp186, (0, 1), t1.bb, (2, 0), (2, 1))
    .set 145 (.ein [(59, [0, 1]), (3, [2, 0])] [2, 1]) 1 1,
    -- 3649: del tmp186
    .del 59,
    -- 3650: tmp185 = einsum(tmp184, (0, 1), t1.bb, (2, 1), (2, 0))
    .set 146 (.ein [(60, [0, 1]), (3, [2, 1])] [2, 0]) 1 1,
    -- 3651: del tmp184
    .del 60,
    -- 3652: tmp182 = einsum(t1.aa, (0, 1), tmp181, (1, 2), (0, 2))
    .set 147 (.ein [(0, [0, 1]), (61, [1, 2])] [0, 2]) 1 1,
    -- 3653: del tmp181
    .del 61,
    -- 3654: tmp179 = einsum(t1.aa, (0, 1), tmp178, (2, 1), (0, 2))
    .set 148 (.ein [(0, [0, 1]), (62, [2, 1])] [0, 2]) 1 1,
    -- 3655: del tmp178
    .del 62,
    -- 3656: tmp177 = einsum(tmp176, (0, 1, 2, 3), t1.bb, (3, 4), (0, 1, 2, 4))
    .set 149 (.ein [(43, [0, 1, 2, 3]), (3, [3, 4])] [0, 1, 2, 4]) 1 1,
    -- 3657: del tmp176
    .del 43,
    -- 3658: tmp175 = einsum(tmp174, (0, 1, 2, 3), t1.bb, (3, 4), (0, 1, 2, 4))
    .set 150 (.ein [(42, [0, 1, 2, 3]), (3, [3, 4])] [0, 1, 2, 4]) 1 1,
    -- 3659: del tmp174
    .del 42,
    -- 3660: tmp172 = einsum(tmp169, (0, 1, 2, 3), t1.aa, (3, 4), (0, 1, 2, 4))
    .set 151 (.ein [(63, [0, 1, 2, 3]), (0, [3, 4])] [0, 1, 2, 4]) 1 1,
    -- 3661: tmp170 = einsum(tmp169, (0, 1, 2, 3), t1.aa, (2, 4), (0, 1, 3, 4))
    .set 152 (.ein [(63, [0, 1, 2, 3]), (0, [2, 4])] [0, 1, 3, 4]) 1 1,
    -- 3662: del tmp169
    .del 63,
    -- 3663: tmp168 = einsum(tmp167, (0, 1), t1.bb, (1, 2), (0, 2))
    .set 153 (.ein [(64, [0, 1]), (3, [1, 2])] [0, 2]) 1 1,
    -- 3664: tmp165 = einsum(t1.aa, (0, 1), tmp27, (2, 0), (2, 1))
    .set 154 (.ein [(0, [0, 1]), (65, [2, 0])] [2, 1]) 1 1,
    -- 3665: tmp164 = einsum(tmp163, (0, 1), t1.bb, (1, 2), (0, 2))
    .set 155 (.ein [(66, [0, 1]), (3, [1, 2])] [0, 2]) 1 1,
    -- 3666: tmp162 = einsum(tmp161, (0, 1), t1.bb, (1, 2), (0, 2))
    .set 156 (.ein [(67, [0, 1]), (3, [1, 2])] [0, 2]) 1 1,
    -- 3667: tmp159 = einsum(t1.aa, (0, 1), tmp26, (2, 0), (2, 1))
    .set 157 (.ein [(0, [0, 1]), (68, [2, 0])] [2, 1]) 1 1,
    -- 3668: tmp157 = einsum(t1.aa, (0, 1), tmp25, (2, 0), (2, 1))
    .set 158 (.ein [(0, [0, 1]), (69, [2, 0])] [2, 1]) 1 1,
    -- 3669: tmp152 = einsum(tmp151, (0, 1, 2, 3), t1.bb, (3, 4), (0, 1, 2, 4))
    .set 159 (.ein [(45, [0, 1, 2, 3]), (3, [3, 4])] [0, 1, 2, 4]) 1 1,
    -- 3670: tmp149 = einsum(tmp148, (0, 1, 2, 3), t1.aa, (3, 4), (0, 1, 2, 4))
    .set 160 (.ein [(70, [0, 1, 2, 3]), (0, [3, 4])] [0, 1, 2, 4]) 1 1,
    -- 3671: tmp146 = einsum(t1.aa, (0, 1), tmp49, (2, 0), (2, 1))
    .set 161 (.ein [(0, [0, 1]), (71, [2, 0])] [2, 1]) 1 1,
    -- 3672: tmp144 = einsum(tmp143, (0, 1), t1.bb, (1, 2), (0, 2))
    .set 162 (.ein [(72, [0, 1]), (3, [1, 2])] [0, 2]) 1 1,
    -- 3673: tmp141 = einsum(tmp140, (0, 1), t1.bb, (1, 2), (0, 2))
    .set 163 (.ein [(73, [0, 1]), (3, [1, 2])] [0, 2]) 1 1,
    -- 3674: tmp138 = einsum(tmp47, (0, 1), t1.aa, (1, 2), (0, 2))
    .set 164 (.ein [(74, [0, 1]), (0, [1, 2])] [0, 2]) 1 1,
    -- 3675: tmp137 = einsum(tmp124, (0, 1, 2, 3), t2.abab, (4, 2, 3, 5), (4, 0, 1, 5))
    .set 165 (.ein [(47, [0, 1, 2, 3]), (10, [4, 2, 3, 5])] [4, 0, 1, 5]) 1 1,
    -- 3676: tmp135 = einsum(t2.bbbb, (0, 1, 2, 3), tmp45, (4, 5, 1, 3), (4, 5, 0, 2))
    .set 166 (.ein [(11, [0, 1, 2, 3]), (29, [4, 5, 1, 3])] [4, 5, 0, 2]) 1 1,
    -- 3677: tmp133 = einsum(t2.abab, (0, 1, 2, 3), tmp45, (4, 5, 1, 3), (4, 0, 5, 2))
    .set 167 (.ein [(10, [0, 1, 2, 3]), (29, [4, 5, 1, 3])] [4, 0, 5, 2]) 1 1,
    -- 3678: tmp132 = einsum(t2.abab, (0, 1, 2, 3), tmp41, (4, 5, 0, 2), (4, 5, 1, 3))
    .set 168 (.ein [(10, [0, 1, 2, 3]), (31, [4, 5, 0, 2])] [4, 5, 1, 3]) 1 1,
    -- 3679: tmp130 = einsum(tmp41, (0, 1, 2, 3), t2.aaaa, (4, 2, 5, 3), (0, 4, 1, 5))
    .set 169 (.ein [(31, [0, 1, 2, 3]), (15, [4, 2, 5, 3])] [0, 4, 1, 5]) 1 1,
    -- 3680: tmp129 = einsum(t2.abab, (0, 1, 2, 3), tmp41, (4, 0, 5, 2), (4, 5, 1, 3))
    .set 170 (.ein [(10, [0, 1, 2, 3]), (31, [4, 0, 5, 2])] [4, 5, 1, 3]) 1 1,
    -- 3681: tmp127 = einsum(tmp41, (0, 1, 2, 3), t2.aaaa, (4, 1, 5, 3), (0, 4, 2, 5))
    .set 171 (.ein [(31, [0, 1, 2, 3]), (15, [4, 1, 5, 3])] [0, 4, 2, 5]) 1 1,
    -- 3682: tmp125 = einsum(tmp124, (0, 1, 2, 3), t2.abab, (0, 2, 3, 4), (1, 4))
    .set 172 (.ein [(47, [0, 1, 2, 3]), (10, [0, 2, 3, 4])] [1, 4]) 1 1,
    -- 3683: tmp122 = einsum(t2.abab, (0, 1, 2, 3), tmp45, (4, 0, 1, 3), (4, 2))
    .set 173 (.ein [(10, [0, 1, 2, 3]), (29, [4, 0, 1, 3])] [4, 2]) 1 1,
    -- 3684: tmp120 = einsum(t2.bbbb, (0, 1, 2, 3), tmp119, (4, 1, 0, 3), (4, 2))
    .set 174 (.ein [(11, [0, 1, 2, 3]), (30, [4, 1, 0, 3])] [4, 2]) 1 1,
    -- 3685: tmp117 = einsum(tmp41, (0, 1, 2, 3), t2.aaaa, (2, 1, 4, 3), (0, 4))
    .set 175 (.ein [(31, [0, 1, 2, 3]), (15, [2, 1, 4, 3])] [0, 4]) 1 1,
    -- 3686: tmp115 = einsum(t2.abab, (0, 1, 2, 3), tmp39, (4, 2), (0, 4, 1, 3))
    .set 176 (.ein [(10, [0, 1, 2, 3]), (33, [4, 2])] [0, 4, 1, 3]) 1 1,
    -- 3687: tmp113 = einsum(t2.aaaa, (0, 1, 2, 3), tmp39, (4, 3), (0, 1, 4, 2))
    .set 177 (.ein [(15, [0, 1, 2, 3]), (33, [4, 3])] [0, 1, 4, 2]) 1 1,
    -- 3688: tmp111 = einsum(t2.abab, (0, 1, 2, 3), tmp32, (4, 2), (0, 4, 1, 3))
    .set 178 (.ein [(10, [0, 1, 2, 3]), (36, [4, 2])] [0, 4, 1, 3]) 1 1,
    -- 3689: tmp109 = einsum(tmp32, (0, 1), t2.aaaa, (2, 3, 4, 1), (2, 3, 0, 4))
    .set 179 (.ein [(36, [0, 1]), (15, [2, 3, 4, 1])] [2, 3, 0, 4]) 1 1,
    -- 3690: tmp107 = einsum(tmp82, (0, 1), t2.abab, (2, 3, 1, 4), (2, 0, 3, 4))
    .set 180 (.ein [(37, [0, 1]), (10, [2, 3, 1, 4])] [2, 0, 3, 4]) 1 1,
    -- 3691: tmp105 = einsum(t2.aaaa, (0, 1, 2, 3), tmp82, (4, 3), (0, 1, 4, 2))
    .set 181 (.ein [(15, [0, 1, 2, 3]), (37, [4, 3])] [0, 1, 4, 2]) 1 1,
    -- 3692: tmp103 = einsum(tmp38, (0, 1), t2.bbbb, (2, 0, 3, 1), (2, 3))
    .set 182 (.ein [(32, [0, 1]), (11, [2, 0, 3, 1])] [2, 3]) 1 1,
    -- 3693: tmp101 = einsum(t2.abab, (0, 1, 2, 3), tmp38, (1, 3), (0, 2))
    .set 183 (.ein [(10, [0, 1, 2, 3]), (32, [1, 3])] [0, 2]) 1 1,
    -- 3694: tmp100 = einsum(t2.abab, (0, 1, 2, 3), tmp39, (0, 2), (1, 3))
    .set 184 (.ein [(10, [0, 1, 2, 3]), (33, [0, 2])] [1, 3]) 1 1,
    -- 3695: tmp98 = einsum(tmp39, (0, 1), t2.aaaa, (2, 0, 3, 1), (2, 3))
    .set 185 (.ein [(33, [0, 1]), (15, [2, 0, 3, 1])] [2, 3]) 1 1,
    -- 3696: tmp96 = einsum(tmp36, (0, 1), t2.bbbb, (2, 0, 3, 1), (2, 3))
    .set 186 (.ein [(34, [0, 1]), (11, [2, 0, 3, 1])] [2, 3]) 1 1,
    -- 3697: tmp94 = einsum(t2.abab, (0, 1, 2, 3), tmp36, (1, 3), (0, 2))
    .set 187 (.ein [(10, [0, 1, 2, 3]), (34, [1, 3])] [0, 2]) 1 1,
    -- 3698: tmp92 = einsum(tmp89, (0, 1), t2.bbbb, (2, 0, 3, 1), (2, 3))
    .set 188 (.ein [(35, [0, 1]), (11, [2, 0, 3, 1])] [2, 3]) 1 1,
    -- 3699: tmp90 = einsum(t2.abab, (0, 1, 2, 3), tmp89, (1, 3), (0, 2))
    .set 189 (.ein [(10, [0, 1, 2, 3]), (35, [1, 3])] [0, 2]) 1 1,
    -- 3700: del tmp89
    .del 35,
    -- 3701: tmp88 = einsum(t2.abab, (0, 1, 2, 3), tmp32, (0, 2), (1, 3))
    .set 190 (.ein [(10, [0, 1, 2, 3]), (36, [0, 2])] [1, 3]) 1 1,
    -- 3702: tmp86 = einsum(t2.aaaa, (0, 1, 2, 3), tmp32, (1, 3), (0, 2))
    .set 191 (.ein [(15, [0, 1, 2, 3]), (36, [1, 3])] [0, 2]) 1 1,
    -- 3703: tmp85 = einsum(t2.abab, (0, 1, 2, 3), tmp82, (0, 2), (1, 3))
    .set 192 (.ein [(10, [0, 1, 2, 3]), (37, [0, 2])] [1, 3]) 1 1,
    -- 3704: tmp83 = einsum(tmp82, (0, 1), t2.aaaa, (2, 0, 3, 1), (2, 3))
    .set 193 (.ein [(37, [0, 1]), (15, [2, 0, 3, 1])] [2, 3]) 1 1,
    -- 3705: del tmp82
    .del 37,
    -- 3706: tmp80 = einsum(t2.abab, (0, 1, 2, 3), v.aabb.ovvv, (4, 2, 5, 3), (0, 4, 1, 5))
    .set 194 (.ein [(10, [0, 1, 2, 3]), (12, [4, 2, 5, 3])] [0, 4, 1, 5]) 1 1,
    -- 3707: tmp78 = einsum(v.aaaa.ovvv, (0, 1, 2, 3), t2.aaaa, (4, 5, 3, 1), (4, 5, 0, 2)) * -1
    .set 195 (.ein [(13, [0, 1, 2, 3]), (15, [4, 5, 3, 1])] [4, 5, 0, 2]) (-1) 1,
    -- 3708: tmp76 = einsum(t2.abab, (0, 1, 2, 3), v.aabb.vvov, (4, 2, 1, 3), (0, 4))
    .set 196 (.ein [(10, [0, 1, 2, 3]), (5, [4, 2, 1, 3])] [0, 4]) 1 1,
    -- 3709: tmp74 = einsum(t2.abab, (0, 1, 2, 3), v.aabb.ovvv, (0, 2, 4, 3), (1, 4))
    .set 197 (.ein [(10, [0, 1, 2, 3]), (12, [0, 2, 4, 3])] [1, 4]) 1 1,
    -- 3710: tmp72 = einsum(v.bbbb.ovvv, (0, 1, 2, 3), t2.bbbb, (4, 0, 3, 1), (4, 2)) * -1
    .set 198 (.ein [(6, [0, 1, 2, 3]), (11, [4, 0, 3, 1])] [4, 2]) (-1) 1,
    -- 3711: tmp70 = einsum(t2.aaaa, (0, 1, 2, 3), v.aaaa.ovvv, (1, 3, 4, 2), (0, 4)) * -1
    .set 199 (.ein [(15, [0, 1, 2, 3]), (13, [1, 3, 4, 2])] [0, 4]) (-1) 1,
    -- 3712: tmp68 = einsum(v.aabb.ooov, (0, 1, 2, 3), t2.bbbb, (4, 2, 5, 3), (0, 1, 4, 5))
    .set 200 (.ein [(8, [0, 1, 2, 3]), (11, [4, 2, 5, 3])] [0, 1, 4, 5]) 1 1,
    -- 3713: tmp66 = einsum(t2.abab, (0, 1, 2, 3), v.aabb.ooov, (4, 5, 1, 3), (0, 4, 5, 2))
    .set 201 (.ein [(10, [0, 1, 2, 3]), (8, [4, 5, 1, 3])] [0, 4, 5, 2]) 1 1,
    -- 3714: tmp65 = einsum(v.aabb.ovoo, (0, 1, 2, 3), t2.abab, (4, 3, 1, 5), (4, 0, 2, 5))
    .set 202 (.ein [(7, [0, 1, 2, 3]), (10, [4, 3, 1, 5])] [4, 0, 2, 5]) 1 1,
    -- 3715: tmp64 = einsum(t2.abab, (0, 1, 2, 3), v.aaaa.ooov, (4, 5, 0, 2), (4, 5, 1, 3))
    .set 203 (.ein [(10, [0, 1, 2, 3]), (14, [4, 5, 0, 2])] [4, 5, 1, 3]) 1 1,
    -- 3716: tmp62 = einsum(v.aaaa.ooov, (0, 1, 2, 3), t2.aaaa, (4, 2, 5, 3), (4, 0, 1, 5))
    .set 204 (.ein [(14, [0, 1, 2, 3]), (15, [4, 2, 5, 3])] [4, 0, 1, 5]) 1 1,
    -- 3717: tmp61 = einsum(t2.abab, (0, 1, 2, 3), v.aaaa.ooov, (4, 0, 5, 2), (4, 5, 1, 3))
    .set 205 (.ein [(10, [0, 1, 2, 3]), (14, [4, 0, 5, 2])] [4, 5, 1, 3]) 1 1,
    -- 3718: tmp59 = einsum(v.aaaa.ooov, (0, 1, 2, 3), t2.aaaa, (4, 1, 5, 3), (4, 0, 2, 5))
    .set 206 (.ein [(14, [0, 1, 2, 3]), (15, [4, 1, 5, 3])] [4, 0, 2, 5]) 1 1,
    -- 3719: tmp57 = einsum(t2.abab, (0, 1, 2, 3), v.aabb.ooov, (4, 0, 1, 3), (4, 2))
    .set 207 (.ein [(10, [0, 1, 2, 3]), (8, [4, 0, 1, 3])] [4, 2]) 1 1,
    -- 3720: tmp55 = einsum(v.aabb.ovoo, (0, 1, 2, 3), t2.abab, (0, 3, 1, 4), (2, 4))
    .set 208 (.ein [(7, [0, 1, 2, 3]), (10, [0, 3, 1, 4])] [2, 4]) 1 1,
    -- 3721: tmp53 = einsum(t2.bbbb, (0, 1, 2, 3), v.bbbb.ooov, (4, 0, 1, 3), (4, 2))
    .set 209 (.ein [(11, [0, 1, 2, 3]), (9, [4, 0, 1, 3])] [4, 2]) 1 1,
    -- 3722: tmp51 = einsum(t2.aaaa, (0, 1, 2, 3), v.aaaa.ooov, (4, 0, 1, 3), (4, 2))
    .set 210 (.ein [(15, [0, 1, 2, 3]), (14, [4, 0, 1, 3])] [4, 2]) 1 1,
    -- 3723: tmp46 = einsum(v.aabb.oovv, (0, 1, 2, 3), t1.bb, (4, 3), (0, 1, 4, 2))
    .set 211 (.ein [(22, [0, 1, 2, 3]), (3, [4, 3])] [0, 1, 4, 2]) 1 1,
    -- 3724: tmp43 = einsum(t1.aa, (0, 1), v.aaaa.oovv, (2, 3, 4, 1), (0, 2, 3, 4))
    .set 212 (.ein [(0, [0, 1]), (23, [2, 3, 4, 1])] [0, 2, 3, 4]) 1 1,
    -- 3725: tmp37 = einsum(v.bbbb.oovv, (0, 1, 2, 3), t1.bb, (1, 3), (0, 2))
    .set 213 (.ein [(19, [0, 1, 2, 3]), (3, [1, 3])] [0, 2]) 1 1,
    -- 3726: tmp34 = einsum(v.aaaa.oovv, (0, 1, 2, 3), t1.aa, (1, 3), (0, 2))
    .set 214 (.ein [(23, [0, 1, 2, 3]), (0, [1, 3])] [0, 2]) 1 1,
    -- 3727: tmp30 = einsum(v.aabb.oooo, (0, 1, 2, 3), t1.bb, (3, 4), (0, 1, 2, 4))
    .set 215 (.ein [(20, [0, 1, 2, 3]), (3, [3, 4])] [0, 1, 2, 4]) 1 1,
    -- 3728: tmp28 = einsum(v.aaaa.oooo, (0, 1, 2, 3), t1.aa, (3, 4), (0, 1, 2, 4))
    .set 216 (.ein [(24, [0, 1, 2, 3]), (0, [3, 4])] [0, 1, 2, 4]) 1 1,
    -- 3729: tmp22 = einsum(tmp21, (0, 1), t1.bb, (0, 2), (1, 2))
    .set 217 (.ein [(75, [0, 1]), (3, [0, 2])] [1, 2]) 1 1,
    -- 3730: tmp19 = einsum(t1.aa, (0, 1), tmp1, (0, 2), (2, 1))
    .set 218 (.ein [(0, [0, 1]), (76, [0, 2])] [2, 1]) 1 1,
    -- 3731: tmp17 = einsum(t2.abab, (0, 1, 2, 3), f.aa.ov, (4, 2), (4, 0, 1, 3))
    .set 219 (.ein [(10, [0, 1, 2, 3]), (17, [4, 2])] [4, 0, 1, 3]) 1 1,
    -- 3732: tmp15 = einsum(f.aa.ov, (0, 1), t2.aaaa, (2, 3, 4, 1), (0, 2, 3, 4))
    .set 220 (.ein [(17, [0, 1]), (15, [2, 3, 4, 1])] [0, 2, 3, 4]) 1 1,
    -- 3733: tmp13 = einsum(t2.bbbb, (0, 1, 2, 3), f.bb.ov, (1, 3), (0, 2))
    .set 221 (.ein [(11, [0, 1, 2, 3]), (16, [1, 3])] [0, 2]) 1 1,
    -- 3734: tmp11 = einsum(t2.abab, (0, 1, 2, 3), f.bb.ov, (1, 3), (0, 2))
    .set 222 (.ein [(10, [0, 1, 2, 3]), (16, [1, 3])] [0, 2]) 1 1,
    -- 3735: tmp10 = einsum(t2.abab, (0, 1, 2, 3), f.aa.ov, (0, 2), (1, 3))
    .set 223 (.ein [(10, [0, 1, 2, 3]), (17, [0, 2])] [1, 3]) 1 1,
    -- 3736: tmp8 = einsum(t2.aaaa, (0, 1, 2, 3), f.aa.ov, (1, 3), (0, 2))
    .set 224 (.ein [(15, [0, 1, 2, 3]), (17, [1, 3])] [0, 2]) 1 1,
    -- 3737: tmp7 = einsum(f.bb.vv, (0, 1), t1.bb, (2, 1), (2, 0))
    .set 225 (.ein [(25, [0, 1]), (3, [2, 1])] [2, 0]) 1 1,
    -- 3738: tmp5 = einsum(t1.aa, (0, 1), f.aa.vv, (2, 1), (0, 2))
    .set 226 (.ein [(0, [0, 1]), (26, [2, 1])] [0, 2]) 1 1,
    -- 3739: tmp4 = einsum(t1.bb, (0, 1), f.bb.oo, (2, 0), (2, 1))
    .set 227 (.ein [(3, [0, 1]), (27, [2, 0])] [2, 1]) 1 1,
    -- 3740: tmp2 = einsum(f.aa.oo, (0, 1), t1.aa, (1, 2), (0, 2))
    .set 228 (.ein [(28, [0, 1]), (0, [1, 2])] [0, 2]) 1 1
  ]
  ret := [(chars! "tmp1", 76), (chars! "tmp10", 223), (chars! "tmp100", 184), (chars! "tmp101", 183), (chars! "tmp103", 182), (chars! "tmp105", 181), (chars! "tmp107", 180), (chars! "tmp109", 179), (chars! "tmp11", 222), (chars! "tmp111", 178), (chars! "tmp113", 177), (chars! "tmp115", 176), (chars! "tmp117", 175), (chars! "tmp119", 30), (chars! "tmp120", 174), (chars! "tmp122", 173), (chars! "tmp124", 47), (chars! "tmp125", 172), (chars! "tmp127", 171), (chars! "tmp129", 170), (chars! "tmp13", 221), (chars! "tmp130", 169), (chars! "tmp132", 168), (chars! "tmp133", 167), (chars! "tmp135", 166), (chars! "tmp137", 165), (chars! "tmp138", 164), (chars! "tmp140", 73), (chars! "tmp141", 163), (chars! "tmp143", 72), (chars! "tmp144", 162), (chars! "tmp146", 161), (chars! "tmp148", 70), (chars! "tmp149", 160), (chars! "tmp15", 220), (chars! "tmp151", 45), (chars! "tmp152", 159), (chars! "tmp154", 54), (chars! "tmp155", 53), (chars! "tmp156", 50), (chars! "tmp157", 158), (chars! "tmp159", 157), (chars! "tmp161", 67), (chars! "tmp162", 156), (chars! "tmp163", 66), (chars! "tmp164", 155), (chars! "tmp165", 154), (chars! "tmp167", 64), (chars! "tmp168", 153), (chars! "tmp17", 219), (chars! "tmp170", 152), (chars! "tmp172", 151), (chars! "tmp175", 150), (chars! "tmp177", 149), (chars! "tmp179", 148), (chars! "tmp182", 147), (chars! "tmp185", 146), (chars! "tmp187", 145), (chars! "tmp189", 144), (chars! "tmp19", 218), (chars! "tmp191", 143), (chars! "tmp194", 142), (chars! "tmp197", 141), (chars! "tmp199", 140), (chars! "tmp2", 228), (chars! "tmp201", 139), (chars! "tmp203", 52), (chars! "tmp204", 138), (chars! "tmp205", 51), (chars! "tmp206", 137), (chars! "tmp207", 136), (chars! "tmp209", 49), (chars! "tmp21", 75), (chars! "tmp210", 135), (chars! "tmp212", 134), (chars! "tmp215", 133), (chars! "tmp22", 217), (chars! "tmp223", 132), (chars! "tmp225", 131), (chars! "tmp230", 130), (chars! "tmp232", 129), (chars! "tmp238", 128), (chars! "tmp240", 127), (chars! "tmp247", 126), (chars! "tmp248", 125), (chars! "tmp25", 69), (chars! "tmp250", 124), (chars! "tmp251", 123), (chars! "tmp253", 122), (chars! "tmp254", 121), (chars! "tmp256", 120), (chars! "tmp26", 68), (chars! "tmp262", 119), (chars! "tmp264", 118), (chars! "tmp27", 65), (chars! "tmp275", 117), (chars! "tmp277", 116), (chars! "tmp279", 115), (chars! "tmp28", 216), (chars! "tmp281", 114), (chars! "tmp283", 113), (chars! "tmp285", 112), (chars! "tmp291", 111), (chars! "tmp292", 110), (chars! "tmp294", 109), (chars! "tmp295", 108), (chars! "tmp297", 107), (chars! "tmp299", 106), (chars! "tmp30", 215), (chars! "tmp301", 105), (chars! "tmp306", 46), (chars! "tmp307", 104), (chars! "tmp309", 103), (chars! "tmp315", 102), (chars! "tmp317", 101), (chars! "tmp319", 100), (chars! "tmp32", 36), (chars! "tmp320", 99), (chars! "tmp325", 98), (chars! "tmp328", 97), (chars! "tmp334", 96), (chars! "tmp336", 95), (chars! "tmp34", 214), (chars! "tmp341", 94), (chars! "tmp343", 93), (chars! "tmp345", 92), (chars! "tmp347", 91), (chars! "tmp349", 90), (chars! "tmp351", 89), (chars! "tmp36", 34), (chars! "tmp367", 88), (chars! "tmp369", 87), (chars! "tmp37", 213), (chars! "tmp38", 32), (chars! "tmp39", 33), (chars! "tmp390", 86), (chars! "tmp392", 85), (chars! "tmp394", 84), (chars! "tmp396", 83), (chars! "tmp398", 82), (chars! "tmp4", 227), (chars! "tmp400", 81), (chars! "tmp402", 80), (chars! "tmp41", 31), (chars! "tmp412", 79), (chars! "tmp414", 78), (chars! "tmp416", 77), (chars! "tmp43", 212), (chars! "tmp45", 29), (chars! "tmp46", 211), (chars! "tmp47", 74), (chars! "tmp49", 71), (chars! "tmp5", 226), (chars! "tmp51", 210), (chars! "tmp53", 209), (chars! "tmp55", 208), (chars! "tmp57", 207), (chars! "tmp59", 206), (chars! "tmp61", 205), (chars! "tmp62", 204), (chars! "tmp64", 203), (chars! "tmp65", 202), (chars! "tmp66", 201), (chars! "tmp68", 200), (chars! "tmp7", 225), (chars! "tmp70", 199), (chars! "tmp72", 198), (chars! "tmp74", 197), (chars! "tmp76", 196), (chars! "tmp78", 195), (chars! "tmp8", 224), (chars! "tmp80", 194), (chars! "tmp83", 193), (chars! "tmp85", 192), (chars! "tmp86", 191), (chars! "tmp88", 190), (chars! "tmp90", 189), (chars! "tmp92", 188), (chars! "tmp94", 187), (chars! "tmp96", 186), (chars! "tmp98", 185)]

/-- codegen/UCC2.py:3744-4354 `hbar_lmatvec_ip`. -/
def hbar_lmatvec_ip : GenFun where
  args := [chars! "r2.aba", chars! "t2.abab", chars! "r2.bbb", chars! "t2.bbbb", chars! "ints.tmp140", chars! "ints.tmp143", chars! "ints.tmp398", chars! "ints.tmp402", chars! "ints.tmp396", chars! "ints.tmp400", chars! "f.bb.oo", chars! "ints.tmp21", chars! "r2.bab", chars! "f.aa.oo", chars! "ints.tmp1", chars! "ints.tmp345", chars! "ints.tmp349", chars! "r2.aaa", chars! "t2.aaaa", chars! "ints.tmp347", chars! "ints.tmp351", chars! "ints.tmp47", chars! "ints.tmp49", chars! "v.bbbb.ovov", chars! "v.bbbb.oovv", chars! "v.aabb.ovov", chars! "v.bbbb.ooov", chars! "r1.b", chars! "ints.tmp392", chars! "t1.bb", chars! "f.bb.ov", chars! "ints.tmp394", chars! "t1.aa", chars! "f.aa.ov", chars! "ints.tmp343", chars! "v.aaaa.ovov", chars! "ints.tmp341", chars! "v.aaaa.oovv", chars! "r1.a", chars! "v.aaaa.ooov", chars! "ints.tmp306", chars! "v.bbbb.oooo", chars! "ints.tmp412", chars! "ints.tmp414", chars! "f.bb.vv", chars! "ints.tmp416", chars! "v.aabb.oovv", chars! "ints.tmp151", chars! "v.aabb.oooo", chars! "ints.tmp390", chars! "v.aabb.vvoo", chars! "ints.tmp367", chars! "ints.tmp369", chars! "f.aa.vv", chars! "ints.tmp148", chars! "v.aaaa.oooo", chars! "ints.tmp163", chars! "ints.tmp167", chars! "ints.tmp205", chars! "ints.tmp209", chars! "ints.tmp161", chars! "ints.tmp203", chars! "ints.tmp117", chars! "ints.tmp122", chars! "ints.tmp138", chars! "ints.tmp146", chars! "ints.tmp159", chars! "ints.tmp165", chars! "ints.tmp182", chars! "ints.tmp19", chars! "ints.tmp201", chars! "ints.tmp207", chars! "ints.tmp2", chars! "ints.tmp34", chars! "ints.tmp51", chars! "ints.tmp57", chars! "ints.tmp70", chars! "ints.tmp83", chars! "ints.tmp90", chars! "ints.tmp101", chars! "ints.tmp11", chars! "ints.tmp157", chars! "ints.tmp179", chars! "ints.tmp191", chars! "ints.tmp199", chars! "ints.tmp32", chars! "ints.tmp39", chars! "ints.tmp5", chars! "ints.tmp76", chars! "ints.tmp86", chars! "ints.tmp8", chars! "ints.tmp94", chars! "ints.tmp98", chars! "ints.tmp124", chars! "ints.tmp223", chars! "ints.tmp240", chars! "ints.tmp250", chars! "ints.tmp254", chars! "ints.tmp264", chars! "ints.tmp279", chars! "ints.tmp283", chars! "ints.tmp291", chars! "ints.tmp297", chars! "ints.tmp328", chars! "v.aabb.ovoo", chars! "ints.tmp232", chars! "ints.tmp247", chars! "ints.tmp253", chars! "ints.tmp275", chars! "ints.tmp294", chars! "ints.tmp301", chars! "ints.tmp309", chars! "ints.tmp319", chars! "ints.tmp320", chars! "ints.tmp336", chars! "ints.tmp120", chars! "ints.tmp125", chars! "ints.tmp141", chars! "ints.tmp144", chars! "ints.tmp164", chars! "ints.tmp168", chars! "ints.tmp187", chars! "ints.tmp206", chars! "ints.tmp210", chars! "ints.tmp22", chars! "ints.tmp37", chars! "ints.tmp4", chars! "ints.tmp53", chars! "ints.tmp55", chars! "ints.tmp72", chars! "ints.tmp85", chars! "ints.tmp92", chars! "ints.tmp100", chars! "ints.tmp103", chars! "ints.tmp10", chars! "ints.tmp13", chars! "ints.tmp162", chars! "ints.tmp185", chars! "ints.tmp189", chars! "ints.tmp204", chars! "ints.tmp36", chars! "ints.tmp38", chars! "ints.tmp74", chars! "ints.tmp7", chars! "ints.tmp88", chars! "ints.tmp96", chars! "ints.tmp225", chars! "ints.tmp230", chars! "ints.tmp238", chars! "ints.tmp251", chars! "ints.tmp256", chars! "ints.tmp281", chars! "ints.tmp285", chars! "ints.tmp295", chars! "ints.tmp307", chars! "ints.tmp315", chars! "ints.tmp334", chars! "ints.tmp119", chars! "ints.tmp248", chars! "ints.tmp262", chars! "ints.tmp277", chars! "ints.tmp292", chars! "ints.tmp299", chars! "ints.tmp317", chars! "ints.tmp325", chars! "ints.tmp155", chars! "ints.tmp156", chars! "ints.tmp26", chars! "ints.tmp27", chars! "ints.tmp154", chars! "ints.tmp25", chars! "ints.tmp111", chars! "ints.tmp115", chars! "ints.tmp129", chars! "ints.tmp135", chars! "ints.tmp17", chars! "ints.tmp197", chars! "ints.tmp45", chars! "ints.tmp46", chars! "ints.tmp64", chars! "ints.tmp68", chars! "ints.tmp80", chars! "v.aabb.ooov", chars! "ints.tmp107", chars! "ints.tmp132", chars! "ints.tmp137", chars! "ints.tmp152", chars! "ints.tmp175", chars! "ints.tmp177", chars! "ints.tmp215", chars! "ints.tmp30", chars! "ints.tmp61", chars! "ints.tmp65", chars! "ints.tmp109", chars! "ints.tmp113", chars! "ints.tmp130", chars! "ints.tmp149", chars! "ints.tmp15", chars! "ints.tmp170", chars! "ints.tmp212", chars! "ints.tmp28", chars! "ints.tmp43", chars! "ints.tmp62", chars! "ints.tmp66", chars! "ints.tmp105", chars! "ints.tmp127", chars! "ints.tmp133", chars! "ints.tmp172", chars! "ints.tmp194", chars! "ints.tmp41", chars! "ints.tmp59", chars! "ints.tmp78"]
  body := [
    -- 3774: tmp35 = einsum(r2.aba, (0, 1, 2), t2.abab, (0, 1, 2, 3), (3,))
    .set 212 (.ein [(0, [0, 1, 2]), (1, [0, 1, 2, 3])] [3]) 1 1,
    -- 3775: tmp36 = einsum(r2.bbb, (0, 1, 2), t2.bbbb, (0, 1, 3, 2), (3,))
    .set 213 (.ein [(2, [0, 1, 2]), (3, [0, 1, 3, 2])] [3]) 1 1,
    -- 3776: tmp53 = np.copy(tmp35) * -0.5
    .set 214 (.cp 212) (-1) 2,
    -- 3777: tmp53 += tmp36
    .add 214 (.cp 213) 1 1,
    -- 3778: tmp55 = np.copy(ints.tmp140) * 2
    .set 215 (.cp 4) 2 1,
    -- 3779: tmp55 += ints.tmp143
    .add 215 (.cp 5) 1 1,
    -- 3780: tmp51 = np.copy(ints.tmp398)
    .set 216 (.cp 6) 1 1,
    -- 3781: tmp51 += ints.tmp402 * 0.5
    .add 216 (.cp 7) 1 2,
    -- 3782: tmp60 = np.copy(ints.tmp396)
    .set 217 (.cp 8) 1 1,
    -- 3783: tmp60 += ints.tmp400 * 2
    .add 217 (.cp 9) 2 1,
    -- 3784: tmp62 = np.copy(f.bb.oo)
    .set 218 (.cp 10) 1 1,
    -- 3785: tmp62 += np.transpose(ints.tmp21, (1, 0))
    .add 218 (.tr 11 [1, 0]) 1 1,
    -- 3786: tmp23 = einsum(t2.abab, (0, 1, 2, 3), r2.bab, (1, 0, 3), (2,)) * -1
    .set 219 (.ein [(1, [0, 1, 2, 3]), (12, [1, 0, 3])] [2]) (-1) 1,
    -- 3787: tmp25 = np.copy(f.aa.oo)
    .set 220 (.cp 13) 1 1,
    -- 3788: tmp25 += np.transpose(ints.tmp1, (1, 0))
    .add 220 (.tr 14 [1, 0]) 1 1,
    -- 3789: tmp12 = np.copy(ints.tmp345)
    .set 221 (.cp 15) 1 1,
    -- 3790: tmp12 += ints.tmp349 * 0.5
    .add 221 (.cp 16) 1 2,
    -- 3791: tmp10 = einsum(r2.aaa, (0, 1, 2), t2.aaaa, (0, 1, 3, 2), (3,))
    .set 222 (.ein [(17, [0, 1, 2]), (18, [0, 1, 3, 2])] [3]) 1 1,
    -- 3792: tmp14 = np.copy(ints.tmp347)
    .set 223 (.cp 19) 1 1,
    -- 3793: tmp14 += ints.tmp351 * 2
    .add 223 (.cp 20) 2 1,
    -- 3794: tmp16 = np.copy(ints.tmp47) * 2
    .set 224 (.cp 21) 2 1,
    -- 3795: tmp16 += ints.tmp49
    .add 224 (.cp 22) 1 1,
    -- 3796: tmp54 = einsum(tmp53, (0,), v.bbbb.ovov, (1, 0, 2, 3), (1, 2, 3)) * 2
    .set 225 (.ein [(214, [0]), (23, [1, 0, 2, 3])] [1, 2, 3]) 2 1,
    -- 3797: del tmp53
    .del 214,
    -- 3798: tmp56 = einsum(r2.bbb, (0, 1, 2), tmp55, (1, 3), (0, 3, 2)) * -2
    .set 226 (.ein [(2, [0, 1, 2]), (215, [1, 3])] [0, 3, 2]) (-2) 1,
    -- 3799: del tmp55
    .del 215,
    -- 3800: tmp50 = einsum(r2.bbb, (0, 1, 2), v.bbbb.oovv, (3, 1, 4, 2), (0, 3, 4))
    .set 227 (.ein [(2, [0, 1, 2]), (24, [3, 1, 4, 2])] [0, 3, 4]) 1 1,
    -- 3801: tmp49 = einsum(r2.aba, (0, 1, 2), v.aabb.ovov, (0, 2, 3, 4), (1, 3, 4))
    .set 228 (.ein [(0, [0, 1, 2]), (25, [0, 2, 3, 4])] [1, 3, 4]) 1 1,
    -- 3802: tmp52 = einsum(r2.bbb, (0, 1, 2), tmp51, (1, 3, 2, 4), (0, 3, 4)) * -4
    .set 229 (.ein [(2, [0, 1, 2]), (216, [1, 3, 2, 4])] [0, 3, 4]) (-4) 1,
    -- 3803: del tmp51
    .del 216,
    -- 3804: tmp47 = einsum(v.bbbb.ooov, (0, 1, 2, 3), r1.b, (1,), (0, 2, 3))
    .set 230 (.ein [(26, [0, 1, 2, 3]), (27, [1])] [0, 2, 3]) 1 1,
    -- 3805: tmp48 = einsum(r2.aba, (0, 1, 2), ints.tmp392, (0, 3, 2, 4), (3, 1, 4))
    .set 231 (.ein [(0, [0, 1, 2]), (28, [0, 3, 2, 4])] [3, 1, 4]) 1 1,
    -- 3806: tmp44 = einsum(t1.bb, (0, 1), f.bb.ov, (0, 2), (2, 1))
    .set 232 (.ein [(29, [0, 1]), (30, [0, 2])] [2, 1]) 1 1,
    -- 3807: tmp58 = einsum(ints.tmp394, (0, 1, 2, 3), r2.bbb, (4, 0, 2), (1, 4, 3))
    .set 233 (.ein [(31, [0, 1, 2, 3]), (2, [4, 0, 2])] [1, 4, 3]) 1 1,
    -- 3808: tmp61 = einsum(r2.aba, (0, 1, 2), tmp60, (0, 3, 2, 4), (1, 3, 4))
    .set 234 (.ein [(0, [0, 1, 2]), (217, [0, 3, 2, 4])] [1, 3, 4]) 1 1,
    -- 3809: del tmp60
    .del 217,
    -- 3810: tmp63 = einsum(tmp62, (0, 1), r2.bbb, (2, 0, 3), (2, 1, 3)) * -1
    .set 235 (.ein [(218, [0, 1]), (2, [2, 0, 3])] [2, 1, 3]) (-1) 1,
    -- 3811: del tmp62
    .del 218,
    -- 3812: tmp59 = einsum(r2.bbb, (0, 1, 2), v.bbbb.ovov, (3, 4, 1, 2), (0, 3, 4))
    .set 236 (.ein [(2, [0, 1, 2]), (23, [3, 4, 1, 2])] [0, 3, 4]) 1 1,
    -- 3813: tmp29 = einsum(t1.aa, (0, 1), f.aa.ov, (0, 2), (2, 1))
    .set 237 (.ein [(32, [0, 1]), (33, [0, 2])] [2, 1]) 1 1,
    -- 3814: tmp21 = einsum(r2.bab, (0, 1, 2), ints.tmp343, (3, 0, 4, 2), (3, 1, 4)) * -1
    .set 238 (.ein [(12, [0, 1, 2]), (34, [3, 0, 4, 2])] [3, 1, 4]) (-1) 1,
    -- 3815: tmp22 = einsum(v.aabb.ovov, (0, 1, 2, 3), r2.bab, (2, 4, 3), (4, 0, 1)) * -1
    .set 239 (.ein [(25, [0, 1, 2, 3]), (12, [2, 4, 3])] [4, 0, 1]) (-1) 1,
    -- 3816: tmp24 = einsum(tmp23, (0,), v.aaaa.ovov, (1, 2, 3, 0), (1, 3, 2))
    .set 240 (.ein [(219, [0]), (35, [1, 2, 3, 0])] [1, 3, 2]) 1 1,
    -- 3817: tmp20 = einsum(v.aaaa.ovov, (0, 1, 2, 3), r2.aaa, (4, 2, 3), (4, 0, 1))
    .set 241 (.ein [(35, [0, 1, 2, 3]), (17, [4, 2, 3])] [4, 0, 1]) 1 1,
    -- 3818: tmp19 = einsum(r2.aaa, (0, 1, 2), ints.tmp341, (1, 3, 2, 4), (3, 0, 4))
    .set 242 (.ein [(17, [0, 1, 2]), (36, [1, 3, 2, 4])] [3, 0, 4]) 1 1,
    -- 3819: tmp26 = einsum(tmp25, (0, 1), r2.aaa, (2, 0, 3), (2, 1, 3)) * -1
    .set 243 (.ein [(220, [0, 1]), (17, [2, 0, 3])] [2, 1, 3]) (-1) 1,
    -- 3820: del tmp25
    .del 220,
    -- 3821: tmp13 = einsum(tmp12, (0, 1, 2, 3), r2.aaa, (4, 0, 2), (4, 1, 3)) * -4
    .set 244 (.ein [(221, [0, 1, 2, 3]), (17, [4, 0, 2])] [4, 1, 3]) (-4) 1,
    -- 3822: del tmp12
    .del 221,
    -- 3823: tmp11 = einsum(tmp10, (0,), v.aaaa.ovov, (1, 2, 3, 0), (1, 3, 2)) * -1
    .set 245 (.ein [(222, [0]), (35, [1, 2, 3, 0])] [1, 3, 2]) (-1) 1,
    -- 3824: tmp15 = einsum(r2.bab, (0, 1, 2), tmp14, (3, 0, 4, 2), (1, 3, 4)) * -1
    .set 246 (.ein [(12, [0, 1, 2]), (223, [3, 0, 4, 2])] [1, 3, 4]) (-1) 1,
    -- 3825: del tmp14
    .del 223,
    -- 3826: tmp17 = einsum(r2.aaa, (0, 1, 2), tmp16, (1, 3), (0, 3, 2)) * -2
    .set 247 (.ein [(17, [0, 1, 2]), (224, [1, 3])] [0, 3, 2]) (-2) 1,
    -- 3827: del tmp16
    .del 224,
    -- 3828: tmp9 = einsum(r2.aaa, (0, 1, 2), v.aaaa.oovv, (3, 1, 4, 2), (0, 3, 4))
    .set 248 (.ein [(17, [0, 1, 2]), (37, [3, 1, 4, 2])] [0, 3, 4]) 1 1,
    -- 3829: tmp8 = einsum(r1.a, (0,), v.aaaa.ooov, (1, 0, 2, 3), (1, 2, 3))
    .set 249 (.ein [(38, [0]), (39, [1, 0, 2, 3])] [1, 2, 3]) 1 1,
    -- 3830: tmp65 = np.copy(ints.tmp306)
    .set 250 (.cp 40) 1 1,
    -- 3831: del ints.tmp306
    .del 40,
    -- 3832: tmp65 += np.transpose(v.bbbb.oooo, (0, 2, 3, 1)) * -1
    .add 250 (.tr 41 [0, 2, 3, 1]) (-1) 1,
    -- 3833: tmp57 = einsum(r1.b, (0,), f.bb.ov, (1, 2), (1, 0, 2))
    .set 251 (.ein [(27, [0]), (30, [1, 2])] [1, 0, 2]) 1 1,
    -- 3834: tmp57 += tmp47
    .add 251 (.cp 230) 1 1,
    -- 3835: del tmp47
    .del 230,
    -- 3836: tmp57 += tmp48
    .add 251 (.cp 231) 1 1,
    -- 3837: del tmp48
    .del 231,
    -- 3838: tmp57 += tmp49
    .add 251 (.cp 228) 1 1,
    -- 3839: del tmp49
    .del 228,
    -- 3840: tmp57 += tmp50 * 2
    .add 251 (.cp 227) 2 1,
    -- 3841: del tmp50
    .del 227,
    -- 3842: tmp57 += np.transpose(tmp52, (1, 0, 2)) * -1
    .add 251 (.tr 229 [1, 0, 2]) (-1) 1,
    -- 3843: del tmp52
    .del 229,
    -- 3844: tmp57 += np.transpose(tmp54, (1, 0, 2)) * -1
    .add 251 (.tr 225 [1, 0, 2]) (-1) 1,
    -- 3845: del tmp54
    .del 225,
    -- 3846: tmp57 += np.transpose(tmp56, (1, 0, 2))
    .add 251 (.tr 226 [1, 0, 2]) 1 1,
    -- 3847: del tmp56
    .del 226,
    -- 3848: tmp45 = np.copy(ints.tmp412) * 2
    .set 252 (.cp 42) 2 1,
    -- 3849: del ints.tmp412
    .del 42,
    -- 3850: tmp45 += ints.tmp414
    .add 252 (.cp 43) 1 1,
    -- 3851: del ints.tmp414
    .del 43,
    -- 3852: tmp45 += f.bb.vv * -1
    .add 252 (.cp 44) (-1) 1,
    -- 3853: tmp45 += np.transpose(tmp44, (1, 0))
    .add 252 (.tr 232 [1, 0]) 1 1,
    -- 3854: del tmp44
    .del 232,
    -- 3855: tmp64 = np.copy(tmp58) * 4
    .set 253 (.cp 233) 4 1,
    -- 3856: del tmp58
    .del 233,
    -- 3857: tmp64 += tmp59 * 2
    .add 253 (.cp 236) 2 1,
    -- 3858: del tmp59
    .del 236,
    -- 3859: tmp64 += np.transpose(tmp61, (1, 0, 2))
    .add 253 (.tr 234 [1, 0, 2]) 1 1,
    -- 3860: del tmp61
    .del 234,
    -- 3861: tmp64 += np.transpose(tmp63, (1, 0, 2)) * -2
    .add 253 (.tr 235 [1, 0, 2]) (-2) 1,
    -- 3862: del tmp63
    .del 235,
    -- 3863: tmp39 = np.copy(f.bb.oo)
    .set 254 (.cp 10) 1 1,
    -- 3864: tmp39 += ints.tmp140 * 2
    .add 254 (.cp 4) 2 1,
    -- 3865: tmp39 += ints.tmp143
    .add 254 (.cp 5) 1 1,
    -- 3866: tmp39 += np.transpose(ints.tmp21, (1, 0))
    .add 254 (.tr 11 [1, 0]) 1 1,
    -- 3867: tmp41 = np.copy(ints.tmp396)
    .set 255 (.cp 8) 1 1,
    -- 3868: del ints.tmp396
    .del 8,
    -- 3869: tmp41 += ints.tmp400 * 2
    .add 255 (.cp 9) 2 1,
    -- 3870: del ints.tmp400
    .del 9,
    -- 3871: tmp41 += np.transpose(v.aabb.ovov, (0, 2, 1, 3))
    .add 255 (.tr 25 [0, 2, 1, 3]) 1 1,
    -- 3872: tmp41 += ints.tmp392 * -1
    .add 255 (.cp 28) (-1) 1,
    -- 3873: del ints.tmp392
    .del 28,
    -- 3874: tmp42 = np.copy(ints.tmp416)
    .set 256 (.cp 45) 1 1,
    -- 3875: del ints.tmp416
    .del 45,
    -- 3876: tmp42 += v.aabb.oovv * -1
    .add 256 (.cp 46) (-1) 1,
    -- 3877: tmp38 = np.copy(f.aa.oo)
    .set 257 (.cp 13) 1 1,
    -- 3878: tmp38 += np.transpose(ints.tmp1, (1, 0))
    .add 257 (.tr 14 [1, 0]) 1 1,
    -- 3879: tmp38 += ints.tmp47 * 2
    .add 257 (.cp 21) 2 1,
    -- 3880: tmp38 += ints.tmp49
    .add 257 (.cp 22) 1 1,
    -- 3881: tmp46 = np.copy(tmp10)
    .set 258 (.cp 222) 1 1,
    -- 3882: del tmp10
    .del 222,
    -- 3883: tmp46 += tmp23 * 0.5
    .add 258 (.cp 219) 1 2,
    -- 3884: del tmp23
    .del 219,
    -- 3885: tmp40 = np.copy(ints.tmp398) * 2
    .set 259 (.cp 6) 2 1,
    -- 3886: del ints.tmp398
    .del 6,
    -- 3887: tmp40 += ints.tmp402
    .add 259 (.cp 7) 1 1,
    -- 3888: del ints.tmp402
    .del 7,
    -- 3889: tmp40 += np.transpose(v.bbbb.ovov, (0, 2, 1, 3))
    .add 259 (.tr 23 [0, 2, 1, 3]) 1 1,
    -- 3890: tmp40 += ints.tmp394 * -2
    .add 259 (.cp 31) (-2) 1,
    -- 3891: del ints.tmp394
    .del 31,
    -- 3892: tmp40 += v.bbbb.oovv * -1
    .add 259 (.cp 24) (-1) 1,
    -- 3893: tmp43 = np.copy(ints.tmp151)
    .set 260 (.cp 47) 1 1,
    -- 3894: tmp43 += v.aabb.oooo
    .add 260 (.cp 48) 1 1,
    -- 3895: tmp32 = np.copy(ints.tmp347)
    .set 261 (.cp 19) 1 1,
    -- 3896: del ints.tmp347
    .del 19,
    -- 3897: tmp32 += ints.tmp351 * 2
    .add 261 (.cp 20) 2 1,
    -- 3898: del ints.tmp351
    .del 20,
    -- 3899: tmp32 += np.transpose(v.aabb.ovov, (0, 2, 1, 3))
    .add 261 (.tr 25 [0, 2, 1, 3]) 1 1,
    -- 3900: tmp32 += ints.tmp343 * -1
    .add 261 (.cp 34) (-1) 1,
    -- 3901: del ints.tmp343
    .del 34,
    -- 3902: tmp33 = np.copy(ints.tmp390)
    .set 262 (.cp 49) 1 1,
    -- 3903: del ints.tmp390
    .del 49,
    -- 3904: tmp33 += np.transpose(v.aabb.vvoo, (2, 3, 0, 1)) * -1
    .add 262 (.tr 50 [2, 3, 0, 1]) (-1) 1,
    -- 3905: tmp31 = np.copy(ints.tmp345) * 2
    .set 263 (.cp 15) 2 1,
    -- 3906: del ints.tmp345
    .del 15,
    -- 3907: tmp31 += ints.tmp349
    .add 263 (.cp 16) 1 1,
    -- 3908: del ints.tmp349
    .del 16,
    -- 3909: tmp31 += np.transpose(v.aaaa.ovov, (0, 2, 1, 3))
    .add 263 (.tr 35 [0, 2, 1, 3]) 1 1,
    -- 3910: tmp31 += ints.tmp341 * -2
    .add 263 (.cp 36) (-2) 1,
    -- 3911: del ints.tmp341
    .del 36,
    -- 3912: tmp31 += v.aaaa.oovv * -1
    .add 263 (.cp 37) (-1) 1,
    -- 3913: tmp30 = np.copy(ints.tmp367) * 2
    .set 264 (.cp 51) 2 1,
    -- 3914: del ints.tmp367
    .del 51,
    -- 3915: tmp30 += ints.tmp369
    .add 264 (.cp 52) 1 1,
    -- 3916: del ints.tmp369
    .del 52,
    -- 3917: tmp30 += f.aa.vv * -1
    .add 264 (.cp 53) (-1) 1,
    -- 3918: tmp30 += np.transpose(tmp29, (1, 0))
    .add 264 (.tr 237 [1, 0]) 1 1,
    -- 3919: del tmp29
    .del 237,
    -- 3920: tmp34 = np.copy(ints.tmp151)
    .set 265 (.cp 47) 1 1,
    -- 3921: del ints.tmp151
    .del 47,
    -- 3922: tmp34 += v.aabb.oooo
    .add 265 (.cp 48) 1 1,
    -- 3923: tmp37 = np.copy(tmp35) * -1
    .set 266 (.cp 212) (-1) 1,
    -- 3924: del tmp35
    .del 212,
    -- 3925: tmp37 += tmp36 * 2
    .add 266 (.cp 213) 2 1,
    -- 3926: del tmp36
    .del 213,
    -- 3927: tmp27 = np.copy(tmp19) * 4
    .set 267 (.cp 242) 4 1,
    -- 3928: del tmp19
    .del 242,
    -- 3929: tmp27 += tmp20 * 2
    .add 267 (.cp 241) 2 1,
    -- 3930: del tmp20
    .del 241,
    -- 3931: tmp27 += tmp21
    .add 267 (.cp 238) 1 1,
    -- 3932: del tmp21
    .del 238,
    -- 3933: tmp27 += tmp22
    .add 267 (.cp 239) 1 1,
    -- 3934: del tmp22
    .del 239,
    -- 3935: tmp27 += tmp24
    .add 267 (.cp 240) 1 1,
    -- 3936: del tmp24
    .del 240,
    -- 3937: tmp27 += np.transpose(tmp26, (1, 0, 2)) * -2
    .add 267 (.tr 243 [1, 0, 2]) (-2) 1,
    -- 3938: del tmp26
    .del 243,
    -- 3939: tmp18 = einsum(r1.a, (0,), f.aa.ov, (1, 2), (1, 0, 2))
    .set 268 (.ein [(38, [0]), (33, [1, 2])] [1, 0, 2]) 1 1,
    -- 3940: tmp18 += tmp8
    .add 268 (.cp 249) 1 1,
    -- 3941: del tmp8
    .del 249,
    -- 3942: tmp18 += tmp9 * 2
    .add 268 (.cp 248) 2 1,
    -- 3943: del tmp9
    .del 248,
    -- 3944: tmp18 += tmp11 * 2
    .add 268 (.cp 245) 2 1,
    -- 3945: del tmp11
    .del 245,
    -- 3946: tmp18 += np.transpose(tmp13, (1, 0, 2)) * -1
    .add 268 (.tr 244 [1, 0, 2]) (-1) 1,
    -- 3947: del tmp13
    .del 244,
    -- 3948: tmp18 += np.transpose(tmp15, (1, 0, 2))
    .add 268 (.tr 246 [1, 0, 2]) 1 1,
    -- 3949: del tmp15
    .del 246,
    -- 3950: tmp18 += np.transpose(tmp17, (1, 0, 2))
    .add 268 (.tr 247 [1, 0, 2]) 1 1,
    -- 3951: del tmp17
    .del 247,
    -- 3952: tmp28 = np.copy(ints.tmp148)
    .set 269 (.cp 54) 1 1,
    -- 3953: del ints.tmp148
    .del 54,
    -- 3954: tmp28 += np.transpose(v.aaaa.oooo, (0, 2, 3, 1)) * -1
    .add 269 (.tr 55 [0, 2, 3, 1]) (-1) 1,
    -- 3955: tmp7 = np.copy(f.bb.oo)
    .set 270 (.cp 10) 1 1,
    -- 3956: tmp7 += ints.tmp140 * 2
    .add 270 (.cp 4) 2 1,
    -- 3957: del ints.tmp140
    .del 4,
    -- 3958: tmp7 += ints.tmp143
    .add 270 (.cp 5) 1 1,
    -- 3959: del ints.tmp143
    .del 5,
    -- 3960: tmp7 += np.transpose(ints.tmp163, (1, 0))
    .add 270 (.tr 56 [1, 0]) 1 1,
    -- 3961: del ints.tmp163
    .del 56,
    -- 3962: tmp7 += np.transpose(ints.tmp167, (1, 0))
    .add 270 (.tr 57 [1, 0]) 1 1,
    -- 3963: del ints.tmp167
    .del 57,
    -- 3964: tmp7 += ints.tmp205
    .add 270 (.cp 58) 1 1,
    -- 3965: del ints.tmp205
    .del 58,
    -- 3966: tmp7 += ints.tmp209
    .add 270 (.cp 59) 1 1,
    -- 3967: del ints.tmp209
    .del 59,
    -- 3968: tmp7 += np.transpose(ints.tmp21, (1, 0))
    .add 270 (.tr 11 [1, 0]) 1 1,
    -- 3969: del ints.tmp21
    .del 11,
    -- 3970: tmp7 += ints.tmp161 * -1
    .add 270 (.cp 60) (-1) 1,
    -- 3971: del ints.tmp161
    .del 60,
    -- 3972: tmp7 += ints.tmp203 * -1
    .add 270 (.cp 61) (-1) 1,
    -- 3973: del ints.tmp203
    .del 61,
    -- 3974: tmp3 = np.copy(ints.tmp117)
    .set 271 (.cp 62) 1 1,
    -- 3975: del ints.tmp117
    .del 62,
    -- 3976: tmp3 += ints.tmp122 * 0.5
    .add 271 (.cp 63) 1 2,
    -- 3977: del ints.tmp122
    .del 63,
    -- 3978: tmp3 += ints.tmp138
    .add 271 (.cp 64) 1 1,
    -- 3979: del ints.tmp138
    .del 64,
    -- 3980: tmp3 += ints.tmp146 * 0.5
    .add 271 (.cp 65) 1 2,
    -- 3981: del ints.tmp146
    .del 65,
    -- 3982: tmp3 += ints.tmp159 * 0.5
    .add 271 (.cp 66) 1 2,
    -- 3983: del ints.tmp159
    .del 66,
    -- 3984: tmp3 += ints.tmp165 * 0.5
    .add 271 (.cp 67) 1 2,
    -- 3985: del ints.tmp165
    .del 67,
    -- 3986: tmp3 += ints.tmp182 * 0.5
    .add 271 (.cp 68) 1 2,
    -- 3987: del ints.tmp182
    .del 68,
    -- 3988: tmp3 += ints.tmp19 * 0.5
    .add 271 (.cp 69) 1 2,
    -- 3989: del ints.tmp19
    .del 69,
    -- 3990: tmp3 += ints.tmp201 * 0.5
    .add 271 (.cp 70) 1 2,
    -- 3991: del ints.tmp201
    .del 70,
    -- 3992: tmp3 += ints.tmp207 * 0.5
    .add 271 (.cp 71) 1 2,
    -- 3993: del ints.tmp207
    .del 71,
    -- 3994: tmp3 += ints.tmp2 * 0.5
    .add 271 (.cp 72) 1 2,
    -- 3995: del ints.tmp2
    .del 72,
    -- 3996: tmp3 += ints.tmp34 * 0.5
    .add 271 (.cp 73) 1 2,
    -- 3997: del ints.tmp34
    .del 73,
    -- 3998: tmp3 += ints.tmp51
    .add 271 (.cp 74) 1 1,
    -- 3999: del ints.tmp51
    .del 74,
    -- 4000: tmp3 += ints.tmp57 * 0.5
    .add 271 (.cp 75) 1 2,
    -- 4001: del ints.tmp57
    .del 75,
    -- 4002: tmp3 += ints.tmp70
    .add 271 (.cp 76) 1 1,
    -- 4003: del ints.tmp70
    .del 76,
    -- 4004: tmp3 += ints.tmp83
    .add 271 (.cp 77) 1 1,
    -- 4005: del ints.tmp83
    .del 77,
    -- 4006: tmp3 += ints.tmp90 * 0.5
    .add 271 (.cp 78) 1 2,
    -- 4007: del ints.tmp90
    .del 78,
    -- 4008: tmp3 += f.aa.ov * -0.5
    .add 271 (.cp 33) (-1) 2,
    -- 4009: tmp3 += ints.tmp101 * -0.5
    .add 271 (.cp 79) (-1) 2,
    -- 4010: del ints.tmp101
    .del 79,
    -- 4011: tmp3 += ints.tmp11 * -0.5
    .add 271 (.cp 80) (-1) 2,
    -- 4012: del ints.tmp11
    .del 80,
    -- 4013: tmp3 += ints.tmp157 * -0.5
    .add 271 (.cp 81) (-1) 2,
    -- 4014: del ints.tmp157
    .del 81,
    -- 4015: tmp3 += ints.tmp179 * -0.5
    .add 271 (.cp 82) (-1) 2,
    -- 4016: del ints.tmp179
    .del 82,
    -- 4017: tmp3 += ints.tmp191 * -0.5
    .add 271 (.cp 83) (-1) 2,
    -- 4018: del ints.tmp191
    .del 83,
    -- 4019: tmp3 += ints.tmp199 * -0.5
    .add 271 (.cp 84) (-1) 2,
    -- 4020: del ints.tmp199
    .del 84,
    -- 4021: tmp3 += ints.tmp32 * -0.5
    .add 271 (.cp 85) (-1) 2,
    -- 4022: del ints.tmp32
    .del 85,
    -- 4023: tmp3 += ints.tmp39 * -0.5
    .add 271 (.cp 86) (-1) 2,
    -- 4024: del ints.tmp39
    .del 86,
    -- 4025: tmp3 += ints.tmp5 * -0.5
    .add 271 (.cp 87) (-1) 2,
    -- 4026: del ints.tmp5
    .del 87,
    -- 4027: tmp3 += ints.tmp76 * -0.5
    .add 271 (.cp 88) (-1) 2,
    -- 4028: del ints.tmp76
    .del 88,
    -- 4029: tmp3 += ints.tmp86 * -1
    .add 271 (.cp 89) (-1) 1,
    -- 4030: del ints.tmp86
    .del 89,
    -- 4031: tmp3 += ints.tmp8 * -1
    .add 271 (.cp 90) (-1) 1,
    -- 4032: del ints.tmp8
    .del 90,
    -- 4033: tmp3 += ints.tmp94 * -0.5
    .add 271 (.cp 91) (-1) 2,
    -- 4034: del ints.tmp94
    .del 91,
    -- 4035: tmp3 += ints.tmp98 * -1
    .add 271 (.cp 92) (-1) 1,
    -- 4036: del ints.tmp98
    .del 92,
    -- 4037: tmp5 = np.copy(ints.tmp124)
    .set 272 (.cp 93) 1 1,
    -- 4038: del ints.tmp124
    .del 93,
    -- 4039: tmp5 += np.transpose(ints.tmp223, (0, 2, 1, 3))
    .add 272 (.tr 94 [0, 2, 1, 3]) 1 1,
    -- 4040: del ints.tmp223
    .del 94,
    -- 4041: tmp5 += np.transpose(ints.tmp240, (0, 2, 1, 3))
    .add 272 (.tr 95 [0, 2, 1, 3]) 1 1,
    -- 4042: del ints.tmp240
    .del 95,
    -- 4043: tmp5 += np.transpose(ints.tmp250, (0, 2, 1, 3))
    .add 272 (.tr 96 [0, 2, 1, 3]) 1 1,
    -- 4044: del ints.tmp250
    .del 96,
    -- 4045: tmp5 += np.transpose(ints.tmp254, (0, 2, 1, 3)) * 2
    .add 272 (.tr 97 [0, 2, 1, 3]) 2 1,
    -- 4046: del ints.tmp254
    .del 97,
    -- 4047: tmp5 += ints.tmp264
    .add 272 (.cp 98) 1 1,
    -- 4048: del ints.tmp264
    .del 98,
    -- 4049: tmp5 += ints.tmp279
    .add 272 (.cp 99) 1 1,
    -- 4050: del ints.tmp279
    .del 99,
    -- 4051: tmp5 += ints.tmp283
    .add 272 (.cp 100) 1 1,
    -- 4052: del ints.tmp283
    .del 100,
    -- 4053: tmp5 += ints.tmp291
    .add 272 (.cp 101) 1 1,
    -- 4054: del ints.tmp291
    .del 101,
    -- 4055: tmp5 += ints.tmp297 * 2
    .add 272 (.cp 102) 2 1,
    -- 4056: del ints.tmp297
    .del 102,
    -- 4057: tmp5 += ints.tmp328
    .add 272 (.cp 103) 1 1,
    -- 4058: del ints.tmp328
    .del 103,
    -- 4059: tmp5 += np.transpose(v.aabb.ovoo, (0, 2, 3, 1))
    .add 272 (.tr 104 [0, 2, 3, 1]) 1 1,
    -- 4060: tmp5 += np.transpose(ints.tmp232, (0, 2, 1, 3)) * -1
    .add 272 (.tr 105 [0, 2, 1, 3]) (-1) 1,
    -- 4061: del ints.tmp232
    .del 105,
    -- 4062: tmp5 += ints.tmp247 * -1
    .add 272 (.cp 106) (-1) 1,
    -- 4063: del ints.tmp247
    .del 106,
    -- 4064: tmp5 += ints.tmp253 * -1
    .add 272 (.cp 107) (-1) 1,
    -- 4065: del ints.tmp253
    .del 107,
    -- 4066: tmp5 += ints.tmp275 * -1
    .add 272 (.cp 108) (-1) 1,
    -- 4067: del ints.tmp275
    .del 108,
    -- 4068: tmp5 += ints.tmp294 * -1
    .add 272 (.cp 109) (-1) 1,
    -- 4069: del ints.tmp294
    .del 109,
    -- 4070: tmp5 += ints.tmp301 * -1
    .add 272 (.cp 110) (-1) 1,
    -- 4071: del ints.tmp301
    .del 110,
    -- 4072: tmp5 += ints.tmp309 * -1
    .add 272 (.cp 111) (-1) 1,
    -- 4073: del ints.tmp309
    .del 111,
    -- 4074: tmp5 += ints.tmp319 * -1
    .add 272 (.cp 112) (-1) 1,
    -- 4075: del ints.tmp319
    .del 112,
    -- 4076: tmp5 += np.transpose(ints.tmp320, (0, 2, 1, 3)) * -1
    .add 272 (.tr 113 [0, 2, 1, 3]) (-1) 1,
    -- 4077: del ints.tmp320
    .del 113,
    -- 4078: tmp5 += ints.tmp336 * -1
    .add 272 (.cp 114) (-1) 1,
    -- 4079: del ints.tmp336
    .del 114,
    -- 4080: tmp2 = np.copy(ints.tmp120)
    .set 273 (.cp 115) 1 1,
    -- 4081: del ints.tmp120
    .del 115,
    -- 4082: tmp2 += ints.tmp125 * 0.5
    .add 273 (.cp 116) 1 2,
    -- 4083: del ints.tmp125
    .del 116,
    -- 4084: tmp2 += ints.tmp141
    .add 273 (.cp 117) 1 1,
    -- 4085: del ints.tmp141
    .del 117,
    -- 4086: tmp2 += ints.tmp144 * 0.5
    .add 273 (.cp 118) 1 2,
    -- 4087: del ints.tmp144
    .del 118,
    -- 4088: tmp2 += ints.tmp164 * 0.5
    .add 273 (.cp 119) 1 2,
    -- 4089: del ints.tmp164
    .del 119,
    -- 4090: tmp2 += ints.tmp168 * 0.5
    .add 273 (.cp 120) 1 2,
    -- 4091: del ints.tmp168
    .del 120,
    -- 4092: tmp2 += ints.tmp187 * 0.5
    .add 273 (.cp 121) 1 2,
    -- 4093: del ints.tmp187
    .del 121,
    -- 4094: tmp2 += ints.tmp206 * 0.5
    .add 273 (.cp 122) 1 2,
    -- 4095: del ints.tmp206
    .del 122,
    -- 4096: tmp2 += ints.tmp210 * 0.5
    .add 273 (.cp 123) 1 2,
    -- 4097: del ints.tmp210
    .del 123,
    -- 4098: tmp2 += ints.tmp22 * 0.5
    .add 273 (.cp 124) 1 2,
    -- 4099: del ints.tmp22
    .del 124,
    -- 4100: tmp2 += ints.tmp37 * 0.5
    .add 273 (.cp 125) 1 2,
    -- 4101: del ints.tmp37
    .del 125,
    -- 4102: tmp2 += ints.tmp4 * 0.5
    .add 273 (.cp 126) 1 2,
    -- 4103: del ints.tmp4
    .del 126,
    -- 4104: tmp2 += ints.tmp53
    .add 273 (.cp 127) 1 1,
    -- 4105: del ints.tmp53
    .del 127,
    -- 4106: tmp2 += ints.tmp55 * 0.5
    .add 273 (.cp 128) 1 2,
    -- 4107: del ints.tmp55
    .del 128,
    -- 4108: tmp2 += ints.tmp72
    .add 273 (.cp 129) 1 1,
    -- 4109: del ints.tmp72
    .del 129,
    -- 4110: tmp2 += ints.tmp85 * 0.5
    .add 273 (.cp 130) 1 2,
    -- 4111: del ints.tmp85
    .del 130,
    -- 4112: tmp2 += ints.tmp92
    .add 273 (.cp 131) 1 1,
    -- 4113: del ints.tmp92
    .del 131,
    -- 4114: tmp2 += f.bb.ov * -0.5
    .add 273 (.cp 30) (-1) 2,
    -- 4115: tmp2 += ints.tmp100 * -0.5
    .add 273 (.cp 132) (-1) 2,
    -- 4116: del ints.tmp100
    .del 132,
    -- 4117: tmp2 += ints.tmp103 * -1
    .add 273 (.cp 133) (-1) 1,
    -- 4118: del ints.tmp103
    .del 133,
    -- 4119: tmp2 += ints.tmp10 * -0.5
    .add 273 (.cp 134) (-1) 2,
    -- 4120: del ints.tmp10
    .del 134,
    -- 4121: tmp2 += ints.tmp13 * -1
    .add 273 (.cp 135) (-1) 1,
    -- 4122: del ints.tmp13
    .del 135,
    -- 4123: tmp2 += ints.tmp162 * -0.5
    .add 273 (.cp 136) (-1) 2,
    -- 4124: del ints.tmp162
    .del 136,
    -- 4125: tmp2 += ints.tmp185 * -0.5
    .add 273 (.cp 137) (-1) 2,
    -- 4126: del ints.tmp185
    .del 137,
    -- 4127: tmp2 += ints.tmp189 * -0.5
    .add 273 (.cp 138) (-1) 2,
    -- 4128: del ints.tmp189
    .del 138,
    -- 4129: tmp2 += ints.tmp204 * -0.5
    .add 273 (.cp 139) (-1) 2,
    -- 4130: del ints.tmp204
    .del 139,
    -- 4131: tmp2 += ints.tmp36 * -0.5
    .add 273 (.cp 140) (-1) 2,
    -- 4132: del ints.tmp36
    .del 140,
    -- 4133: tmp2 += ints.tmp38 * -0.5
    .add 273 (.cp 141) (-1) 2,
    -- 4134: del ints.tmp38
    .del 141,
    -- 4135: tmp2 += ints.tmp74 * -0.5
    .add 273 (.cp 142) (-1) 2,
    -- 4136: del ints.tmp74
    .del 142,
    -- 4137: tmp2 += ints.tmp7 * -0.5
    .add 273 (.cp 143) (-1) 2,
    -- 4138: del ints.tmp7
    .del 143,
    -- 4139: tmp2 += ints.tmp88 * -0.5
    .add 273 (.cp 144) (-1) 2,
    -- 4140: del ints.tmp88
    .del 144,
    -- 4141: tmp2 += ints.tmp96 * -1
    .add 273 (.cp 145) (-1) 1,
    -- 4142: del ints.tmp96
    .del 145,
    -- 4143: tmp6 = np.copy(np.transpose(ints.tmp225, (1, 2, 0, 3)))
    .set 274 (.tr 146 [1, 2, 0, 3]) 1 1,
    -- 4144: del ints.tmp225
    .del 146,
    -- 4145: tmp6 += np.transpose(ints.tmp230, (1, 2, 0, 3))
    .add 274 (.tr 147 [1, 2, 0, 3]) 1 1,
    -- 4146: del ints.tmp230
    .del 147,
    -- 4147: tmp6 += np.transpose(ints.tmp238, (0, 2, 1, 3))
    .add 274 (.tr 148 [0, 2, 1, 3]) 1 1,
    -- 4148: del ints.tmp238
    .del 148,
    -- 4149: tmp6 += np.transpose(ints.tmp251, (0, 2, 1, 3)) * 2
    .add 274 (.tr 149 [0, 2, 1, 3]) 2 1,
    -- 4150: del ints.tmp251
    .del 149,
    -- 4151: tmp6 += np.transpose(ints.tmp256, (0, 2, 1, 3))
    .add 274 (.tr 150 [0, 2, 1, 3]) 1 1,
    -- 4152: del ints.tmp256
    .del 150,
    -- 4153: tmp6 += ints.tmp281
    .add 274 (.cp 151) 1 1,
    -- 4154: del ints.tmp281
    .del 151,
    -- 4155: tmp6 += ints.tmp285
    .add 274 (.cp 152) 1 1,
    -- 4156: del ints.tmp285
    .del 152,
    -- 4157: tmp6 += ints.tmp295 * 2
    .add 274 (.cp 153) 2 1,
    -- 4158: del ints.tmp295
    .del 153,
    -- 4159: tmp6 += ints.tmp307
    .add 274 (.cp 154) 1 1,
    -- 4160: del ints.tmp307
    .del 154,
    -- 4161: tmp6 += ints.tmp315
    .add 274 (.cp 155) 1 1,
    -- 4162: del ints.tmp315
    .del 155,
    -- 4163: tmp6 += ints.tmp334
    .add 274 (.cp 156) 1 1,
    -- 4164: del ints.tmp334
    .del 156,
    -- 4165: tmp6 += ints.tmp119 * -1
    .add 274 (.cp 157) (-1) 1,
    -- 4166: del ints.tmp119
    .del 157,
    -- 4167: tmp6 += ints.tmp248 * -2
    .add 274 (.cp 158) (-2) 1,
    -- 4168: del ints.tmp248
    .del 158,
    -- 4169: tmp6 += ints.tmp262 * -1
    .add 274 (.cp 159) (-1) 1,
    -- 4170: del ints.tmp262
    .del 159,
    -- 4171: tmp6 += ints.tmp277 * -1
    .add 274 (.cp 160) (-1) 1,
    -- 4172: del ints.tmp277
    .del 160,
    -- 4173: tmp6 += ints.tmp292 * -2
    .add 274 (.cp 161) (-2) 1,
    -- 4174: del ints.tmp292
    .del 161,
    -- 4175: tmp6 += ints.tmp299 * -1
    .add 274 (.cp 162) (-1) 1,
    -- 4176: del ints.tmp299
    .del 162,
    -- 4177: tmp6 += np.transpose(ints.tmp317, (0, 2, 1, 3)) * -1
    .add 274 (.tr 163 [0, 2, 1, 3]) (-1) 1,
    -- 4178: del ints.tmp317
    .del 163,
    -- 4179: tmp6 += ints.tmp325 * -1
    .add 274 (.cp 164) (-1) 1,
    -- 4180: del ints.tmp325
    .del 164,
    -- 4181: tmp6 += np.transpose(v.bbbb.ooov, (0, 2, 1, 3)) * -1
    .add 274 (.tr 26 [0, 2, 1, 3]) (-1) 1,
    -- 4182: tmp4 = np.copy(f.aa.oo)
    .set 275 (.cp 13) 1 1,
    -- 4183: tmp4 += ints.tmp155
    .add 275 (.cp 165) 1 1,
    -- 4184: del ints.tmp155
    .del 165,
    -- 4185: tmp4 += ints.tmp156
    .add 275 (.cp 166) 1 1,
    -- 4186: del ints.tmp156
    .del 166,
    -- 4187: tmp4 += np.transpose(ints.tmp1, (1, 0))
    .add 275 (.tr 14 [1, 0]) 1 1,
    -- 4188: del ints.tmp1
    .del 14,
    -- 4189: tmp4 += np.transpose(ints.tmp26, (1, 0))
    .add 275 (.tr 167 [1, 0]) 1 1,
    -- 4190: del ints.tmp26
    .del 167,
    -- 4191: tmp4 += np.transpose(ints.tmp27, (1, 0))
    .add 275 (.tr 168 [1, 0]) 1 1,
    -- 4192: del ints.tmp27
    .del 168,
    -- 4193: tmp4 += ints.tmp47 * 2
    .add 275 (.cp 21) 2 1,
    -- 4194: del ints.tmp47
    .del 21,
    -- 4195: tmp4 += ints.tmp49
    .add 275 (.cp 22) 1 1,
    -- 4196: del ints.tmp49
    .del 22,
    -- 4197: tmp4 += ints.tmp154 * -1
    .add 275 (.cp 169) (-1) 1,
    -- 4198: del ints.tmp154
    .del 169,
    -- 4199: tmp4 += ints.tmp25 * -1
    .add 275 (.cp 170) (-1) 1,
    -- 4200: del ints.tmp25
    .del 170,
    -- 4201: tmp0 = np.copy(ints.tmp111)
    .set 276 (.cp 171) 1 1,
    -- 4202: del ints.tmp111
    .del 171,
    -- 4203: tmp0 += ints.tmp115
    .add 276 (.cp 172) 1 1,
    -- 4204: del ints.tmp115
    .del 172,
    -- 4205: tmp0 += ints.tmp129
    .add 276 (.cp 173) 1 1,
    -- 4206: del ints.tmp129
    .del 173,
    -- 4207: tmp0 += ints.tmp135 * 2
    .add 276 (.cp 174) 2 1,
    -- 4208: del ints.tmp135
    .del 174,
    -- 4209: tmp0 += np.transpose(ints.tmp17, (1, 0, 2, 3))
    .add 276 (.tr 175 [1, 0, 2, 3]) 1 1,
    -- 4210: del ints.tmp17
    .del 175,
    -- 4211: tmp0 += ints.tmp197
    .add 276 (.cp 176) 1 1,
    -- 4212: del ints.tmp197
    .del 176,
    -- 4213: tmp0 += ints.tmp45
    .add 276 (.cp 177) 1 1,
    -- 4214: del ints.tmp45
    .del 177,
    -- 4215: tmp0 += np.transpose(ints.tmp46, (1, 0, 2, 3))
    .add 276 (.tr 178 [1, 0, 2, 3]) 1 1,
    -- 4216: del ints.tmp46
    .del 178,
    -- 4217: tmp0 += np.transpose(ints.tmp64, (1, 0, 2, 3))
    .add 276 (.tr 179 [1, 0, 2, 3]) 1 1,
    -- 4218: del ints.tmp64
    .del 179,
    -- 4219: tmp0 += np.transpose(ints.tmp68, (1, 0, 2, 3)) * 2
    .add 276 (.tr 180 [1, 0, 2, 3]) 2 1,
    -- 4220: del ints.tmp68
    .del 180,
    -- 4221: tmp0 += ints.tmp80
    .add 276 (.cp 181) 1 1,
    -- 4222: del ints.tmp80
    .del 181,
    -- 4223: tmp0 += v.aabb.ooov
    .add 276 (.cp 182) 1 1,
    -- 4224: tmp0 += ints.tmp107 * -1
    .add 276 (.cp 183) (-1) 1,
    -- 4225: del ints.tmp107
    .del 183,
    -- 4226: tmp0 += ints.tmp132 * -1
    .add 276 (.cp 184) (-1) 1,
    -- 4227: del ints.tmp132
    .del 184,
    -- 4228: tmp0 += ints.tmp137 * -1
    .add 276 (.cp 185) (-1) 1,
    -- 4229: del ints.tmp137
    .del 185,
    -- 4230: tmp0 += ints.tmp152 * -1
    .add 276 (.cp 186) (-1) 1,
    -- 4231: del ints.tmp152
    .del 186,
    -- 4232: tmp0 += ints.tmp175 * -1
    .add 276 (.cp 187) (-1) 1,
    -- 4233: del ints.tmp175
    .del 187,
    -- 4234: tmp0 += np.transpose(ints.tmp177, (1, 0, 2, 3)) * -1
    .add 276 (.tr 188 [1, 0, 2, 3]) (-1) 1,
    -- 4235: del ints.tmp177
    .del 188,
    -- 4236: tmp0 += ints.tmp215 * -1
    .add 276 (.cp 189) (-1) 1,
    -- 4237: del ints.tmp215
    .del 189,
    -- 4238: tmp0 += np.transpose(ints.tmp30, (1, 0, 2, 3)) * -1
    .add 276 (.tr 190 [1, 0, 2, 3]) (-1) 1,
    -- 4239: del ints.tmp30
    .del 190,
    -- 4240: tmp0 += ints.tmp61 * -1
    .add 276 (.cp 191) (-1) 1,
    -- 4241: del ints.tmp61
    .del 191,
    -- 4242: tmp0 += ints.tmp65 * -1
    .add 276 (.cp 192) (-1) 1,
    -- 4243: del ints.tmp65
    .del 192,
    -- 4244: tmp1 = np.copy(ints.tmp109)
    .set 277 (.cp 193) 1 1,
    -- 4245: del ints.tmp109
    .del 193,
    -- 4246: tmp1 += ints.tmp113
    .add 277 (.cp 194) 1 1,
    -- 4247: del ints.tmp113
    .del 194,
    -- 4248: tmp1 += ints.tmp130 * 2
    .add 277 (.cp 195) 2 1,
    -- 4249: del ints.tmp130
    .del 195,
    -- 4250: tmp1 += ints.tmp149
    .add 277 (.cp 196) 1 1,
    -- 4251: del ints.tmp149
    .del 196,
    -- 4252: tmp1 += np.transpose(ints.tmp15, (1, 2, 0, 3))
    .add 277 (.tr 197 [1, 2, 0, 3]) 1 1,
    -- 4253: del ints.tmp15
    .del 197,
    -- 4254: tmp1 += ints.tmp170
    .add 277 (.cp 198) 1 1,
    -- 4255: del ints.tmp170
    .del 198,
    -- 4256: tmp1 += ints.tmp212
    .add 277 (.cp 199) 1 1,
    -- 4257: del ints.tmp212
    .del 199,
    -- 4258: tmp1 += np.transpose(ints.tmp28, (1, 2, 0, 3))
    .add 277 (.tr 200 [1, 2, 0, 3]) 1 1,
    -- 4259: del ints.tmp28
    .del 200,
    -- 4260: tmp1 += np.transpose(ints.tmp43, (0, 2, 1, 3))
    .add 277 (.tr 201 [0, 2, 1, 3]) 1 1,
    -- 4261: del ints.tmp43
    .del 201,
    -- 4262: tmp1 += np.transpose(ints.tmp62, (0, 2, 1, 3)) * 2
    .add 277 (.tr 202 [0, 2, 1, 3]) 2 1,
    -- 4263: del ints.tmp62
    .del 202,
    -- 4264: tmp1 += np.transpose(ints.tmp66, (0, 2, 1, 3))
    .add 277 (.tr 203 [0, 2, 1, 3]) 1 1,
    -- 4265: del ints.tmp66
    .del 203,
    -- 4266: tmp1 += ints.tmp105 * -1
    .add 277 (.cp 204) (-1) 1,
    -- 4267: del ints.tmp105
    .del 204,
    -- 4268: tmp1 += ints.tmp127 * -2
    .add 277 (.cp 205) (-2) 1,
    -- 4269: del ints.tmp127
    .del 205,
    -- 4270: tmp1 += ints.tmp133 * -1
    .add 277 (.cp 206) (-1) 1,
    -- 4271: del ints.tmp133
    .del 206,
    -- 4272: tmp1 += np.transpose(ints.tmp172, (0, 2, 1, 3)) * -1
    .add 277 (.tr 207 [0, 2, 1, 3]) (-1) 1,
    -- 4273: del ints.tmp172
    .del 207,
    -- 4274: tmp1 += ints.tmp194 * -1
    .add 277 (.cp 208) (-1) 1,
    -- 4275: del ints.tmp194
    .del 208,
    -- 4276: tmp1 += ints.tmp41 * -1
    .add 277 (.cp 209) (-1) 1,
    -- 4277: del ints.tmp41
    .del 209,
    -- 4278: tmp1 += ints.tmp59 * -2
    .add 277 (.cp 210) (-2) 1,
    -- 4279: del ints.tmp59
    .del 210,
    -- 4280: tmp1 += ints.tmp78 * -1
    .add 277 (.cp 211) (-1) 1,
    -- 4281: del ints.tmp78
    .del 211,
    -- 4282: tmp1 += np.transpose(v.aaaa.ooov, (0, 2, 1, 3)) * -1
    .add 277 (.tr 39 [0, 2, 1, 3]) (-1) 1,
    -- 4283: r2new.bbb = np.copy(tmp57) * -1
    .set 278 (.cp 251) (-1) 1,
    -- 4284: r2new.bbb += np.transpose(tmp57, (1, 0, 2))
    .add 278 (.tr 251 [1, 0, 2]) 1 1,
    -- 4285: del tmp57
    .del 251,
    -- 4286: r2new.bbb += tmp64
    .add 278 (.cp 253) 1 1,
    -- 4287: r2new.bbb += np.transpose(tmp64, (1, 0, 2)) * -1
    .add 278 (.tr 253 [1, 0, 2]) (-1) 1,
    -- 4288: del tmp64
    .del 253,
    -- 4289: r2new.bbb += einsum(tmp65, (0, 1, 2, 3), r2.bbb, (0, 1, 4), (2, 3, 4)) * 2
    .add 278 (.ein [(250, [0, 1, 2, 3]), (2, [0, 1, 4])] [2, 3, 4]) 2 1,
    -- 4290: del tmp65
    .del 250,
    -- 4291: r2new.bbb += einsum(r2.bbb, (0, 1, 2), tmp45, (2, 3), (0, 1, 3)) * -2
    .add 278 (.ein [(2, [0, 1, 2]), (252, [2, 3])] [0, 1, 3]) (-2) 1,
    -- 4292: r2new.bab = einsum(f.bb.ov, (0, 1), r1.a, (2,), (0, 2, 1)) * -1
    .set 279 (.ein [(30, [0, 1]), (38, [2])] [0, 2, 1]) (-1) 1,
    -- 4293: r2new.bab += einsum(r1.a, (0,), v.aabb.ooov, (1, 0, 2, 3), (2, 1, 3))
    .add 279 (.ein [(38, [0]), (182, [1, 0, 2, 3])] [2, 1, 3]) 1 1,
    -- 4294: r2new.bab += einsum(r2.bab, (0, 1, 2), tmp40, (0, 3, 2, 4), (3, 1, 4))
    .add 279 (.ein [(12, [0, 1, 2]), (259, [0, 3, 2, 4])] [3, 1, 4]) 1 1,
    -- 4295: del tmp40
    .del 259,
    -- 4296: r2new.bab += einsum(r2.aaa, (0, 1, 2), tmp41, (1, 3, 2, 4), (3, 0, 4)) * -2
    .add 279 (.ein [(17, [0, 1, 2]), (255, [1, 3, 2, 4])] [3, 0, 4]) (-2) 1,
    -- 4297: del tmp41
    .del 255,
    -- 4298: r2new.bab += einsum(r2.bab, (0, 1, 2), tmp42, (1, 3, 2, 4), (0, 3, 4))
    .add 279 (.ein [(12, [0, 1, 2]), (256, [1, 3, 2, 4])] [0, 3, 4]) 1 1,
    -- 4299: del tmp42
    .del 256,
    -- 4300: r2new.bab += einsum(tmp43, (0, 1, 2, 3), r2.bab, (2, 0, 4), (3, 1, 4))
    .add 279 (.ein [(260, [0, 1, 2, 3]), (12, [2, 0, 4])] [3, 1, 4]) 1 1,
    -- 4301: del tmp43
    .del 260,
    -- 4302: r2new.bab += einsum(r2.bab, (0, 1, 2), tmp45, (2, 3), (0, 1, 3)) * -1
    .add 279 (.ein [(12, [0, 1, 2]), (252, [2, 3])] [0, 1, 3]) (-1) 1,
    -- 4303: del tmp45
    .del 252,
    -- 4304: r2new.bab += einsum(v.aabb.ovov, (0, 1, 2, 3), tmp46, (1,), (2, 0, 3)) * 2
    .add 279 (.ein [(25, [0, 1, 2, 3]), (258, [1])] [2, 0, 3]) 2 1,
    -- 4305: del tmp46
    .del 258,
    -- 4306: r2new.bab += einsum(r2.bab, (0, 1, 2), tmp38, (1, 3), (0, 3, 2)) * -1
    .add 279 (.ein [(12, [0, 1, 2]), (257, [1, 3])] [0, 3, 2]) (-1) 1,
    -- 4307: r2new.bab += einsum(tmp39, (0, 1), r2.bab, (0, 2, 3), (1, 2, 3)) * -1
    .add 279 (.ein [(254, [0, 1]), (12, [0, 2, 3])] [1, 2, 3]) (-1) 1,
    -- 4308: r2new.aba = einsum(r1.b, (0,), f.aa.ov, (1, 2), (1, 0, 2)) * -1
    .set 280 (.ein [(27, [0]), (33, [1, 2])] [1, 0, 2]) (-1) 1,
    -- 4309: r2new.aba += einsum(r1.b, (0,), v.aabb.ovoo, (1, 2, 3, 0), (1, 3, 2))
    .add 280 (.ein [(27, [0]), (104, [1, 2, 3, 0])] [1, 3, 2]) 1 1,
    -- 4310: r2new.aba += einsum(r2.aba, (0, 1, 2), tmp31, (0, 3, 2, 4), (3, 1, 4))
    .add 280 (.ein [(0, [0, 1, 2]), (263, [0, 3, 2, 4])] [3, 1, 4]) 1 1,
    -- 4311: del tmp31
    .del 263,
    -- 4312: r2new.aba += einsum(r2.bbb, (0, 1, 2), tmp32, (3, 1, 4, 2), (3, 0, 4)) * -2
    .add 280 (.ein [(2, [0, 1, 2]), (261, [3, 1, 4, 2])] [3, 0, 4]) (-2) 1,
    -- 4313: del tmp32
    .del 261,
    -- 4314: r2new.aba += einsum(r2.aba, (0, 1, 2), tmp33, (1, 3, 2, 4), (0, 3, 4))
    .add 280 (.ein [(0, [0, 1, 2]), (262, [1, 3, 2, 4])] [0, 3, 4]) 1 1,
    -- 4315: del tmp33
    .del 262,
    -- 4316: r2new.aba += einsum(tmp34, (0, 1, 2, 3), r2.aba, (0, 2, 4), (1, 3, 4))
    .add 280 (.ein [(265, [0, 1, 2, 3]), (0, [0, 2, 4])] [1, 3, 4]) 1 1,
    -- 4317: del tmp34
    .del 265,
    -- 4318: r2new.aba += einsum(tmp30, (0, 1), r2.aba, (2, 3, 0), (2, 3, 1)) * -1
    .add 280 (.ein [(264, [0, 1]), (0, [2, 3, 0])] [2, 3, 1]) (-1) 1,
    -- 4319: r2new.aba += einsum(tmp37, (0,), v.aabb.ovov, (1, 2, 3, 0), (1, 3, 2))
    .add 280 (.ein [(266, [0]), (25, [1, 2, 3, 0])] [1, 3, 2]) 1 1,
    -- 4320: del tmp37
    .del 266,
    -- 4321: r2new.aba += einsum(r2.aba, (0, 1, 2), tmp38, (0, 3), (3, 1, 2)) * -1
    .add 280 (.ein [(0, [0, 1, 2]), (257, [0, 3])] [3, 1, 2]) (-1) 1,
    -- 4322: del tmp38
    .del 257,
    -- 4323: r2new.aba += einsum(tmp39, (0, 1), r2.aba, (2, 0, 3), (2, 1, 3)) * -1
    .add 280 (.ein [(254, [0, 1]), (0, [2, 0, 3])] [2, 1, 3]) (-1) 1,
    -- 4324: del tmp39
    .del 254,
    -- 4325: r2new.aaa = np.copy(tmp18) * -1
    .set 281 (.cp 268) (-1) 1,
    -- 4326: r2new.aaa += np.transpose(tmp18, (1, 0, 2))
    .add 281 (.tr 268 [1, 0, 2]) 1 1,
    -- 4327: del tmp18
    .del 268,
    -- 4328: r2new.aaa += tmp27
    .add 281 (.cp 267) 1 1,
    -- 4329: r2new.aaa += np.transpose(tmp27, (1, 0, 2)) * -1
    .add 281 (.tr 267 [1, 0, 2]) (-1) 1,
    -- 4330: del tmp27
    .del 267,
    -- 4331: r2new.aaa += einsum(r2.aaa, (0, 1, 2), tmp28, (0, 1, 3, 4), (3, 4, 2)) * 2
    .add 281 (.ein [(17, [0, 1, 2]), (269, [0, 1, 3, 4])] [3, 4, 2]) 2 1,
    -- 4332: del tmp28
    .del 269,
    -- 4333: r2new.aaa += einsum(tmp30, (0, 1), r2.aaa, (2, 3, 0), (2, 3, 1)) * -2
    .add 281 (.ein [(264, [0, 1]), (17, [2, 3, 0])] [2, 3, 1]) (-2) 1,
    -- 4334: del tmp30
    .del 264,
    -- 4335: r1new.b = einsum(tmp5, (0, 1, 2, 3), r2.aba, (0, 1, 3), (2,))
    .set 282 (.ein [(272, [0, 1, 2, 3]), (0, [0, 1, 3])] [2]) 1 1,
    -- 4336: del tmp5
    .del 272,
    -- 4337: r1new.b += einsum(r2.bbb, (0, 1, 2), tmp6, (1, 0, 3, 2), (3,)) * -2
    .add 282 (.ein [(2, [0, 1, 2]), (274, [1, 0, 3, 2])] [3]) (-2) 1,
    -- 4338: del tmp6
    .del 274,
    -- 4339: r1new.b += einsum(r2.aba, (0, 1, 2), tmp3, (0, 2), (1,)) * 2
    .add 282 (.ein [(0, [0, 1, 2]), (271, [0, 2])] [1]) 2 1,
    -- 4340: r1new.b += einsum(r2.bbb, (0, 1, 2), tmp2, (1, 2), (0,)) * -4
    .add 282 (.ein [(2, [0, 1, 2]), (273, [1, 2])] [0]) (-4) 1,
    -- 4341: r1new.b += einsum(r1.b, (0,), tmp7, (0, 1), (1,)) * -1
    .add 282 (.ein [(27, [0]), (270, [0, 1])] [1]) (-1) 1,
    -- 4342: del tmp7
    .del 270,
    -- 4343: r1new.a = einsum(tmp0, (0, 1, 2, 3), r2.bab, (2, 0, 3), (1,))
    .set 283 (.ein [(276, [0, 1, 2, 3]), (12, [2, 0, 3])] [1]) 1 1,
    -- 4344: del tmp0
    .del 276,
    -- 4345: r1new.a += einsum(tmp1, (0, 1, 2, 3), r2.aaa, (1, 0, 3), (2,)) * -2
    .add 283 (.ein [(277, [0, 1, 2, 3]), (17, [1, 0, 3])] [2]) (-2) 1,
    -- 4346: del tmp1
    .del 277,
    -- 4347: r1new.a += einsum(r2.bab, (0, 1, 2), tmp2, (0, 2), (1,)) * 2
    .add 283 (.ein [(12, [0, 1, 2]), (273, [0, 2])] [1]) 2 1,
    -- 4348: del tmp2
    .del 273,
    -- 4349: r1new.a += einsum(r2.aaa, (0, 1, 2), tmp3, (1, 2), (0,)) * -4
    .add 283 (.ein [(17, [0, 1, 2]), (271, [1, 2])] [0]) (-4) 1,
    -- 4350: del tmp3
    .del 271,
    -- 4351: r1new.a += einsum(r1.a, (0,), tmp4, (0, 1), (1,)) * -1
    .add 283 (.ein [(38, [0]), (275, [0, 1])] [1]) (-1) 1,
    -- 4352: del tmp4
    .del 275
  ]
  ret := [(chars! "r1new.b", 282), (chars! "r1new.a", 283), (chars! "r2new.bbb", 278), (chars! "r2new.bab", 279), (chars! "r2new.aba", 280), (chars! "r2new.aaa", 281)]

/-- codegen/UCC2.py:2745-2909 `hbar_matvec_ea_intermediates`. -/
def hbar_matvec_ea_intermediates : GenFun where
  args := [chars! "t1.bb", chars! "f.bb.ov", chars! "t1.aa", chars! "f.aa.ov", chars! "t2.bbbb", chars! "v.bbbb.ooov", chars! "t2.abab", chars! "v.aabb.ovvv", chars! "v.bbbb.ovvv", chars! "v.aabb.ovov", chars! "v.bbbb.ovov", chars! "v.aaaa.ovov", chars! "v.aabb.vvov", chars! "v.aaaa.ovvv", chars! "v.aabb.ovoo", chars! "f.bb.oo", chars! "f.bb.vv", chars! "t2.aaaa", chars! "v.aabb.ooov", chars! "f.aa.vv", chars! "v.aaaa.ooov", chars! "f.aa.oo"]
  body := [
    -- 2836: tmp139 = einsum(t1.bb, (0, 1), f.bb.ov, (2, 1), (2, 0))
    .set 22 (.ein [(0, [0, 1]), (1, [2, 1])] [2, 0]) 1 1,
    -- 2837: tmp89 = einsum(t1.aa, (0, 1), f.aa.ov, (2, 1), (2, 0))
    .set 23 (.ein [(2, [0, 1]), (3, [2, 1])] [2, 0]) 1 1,
    -- 2838: tmp193 = einsum(t2.bbbb, (0, 1, 2, 3), v.bbbb.ooov, (4, 0, 1, 5), (4, 2, 3, 5))
    .set 24 (.ein [(4, [0, 1, 2, 3]), (5, [4, 0, 1, 5])] [4, 2, 3, 5]) 1 1,
    -- 2839: tmp180 = einsum(t2.abab, (0, 1, 2, 3), v.aabb.ovvv, (0, 2, 4, 5), (1, 3, 4, 5))
    .set 25 (.ein [(6, [0, 1, 2, 3]), (7, [0, 2, 4, 5])] [1, 3, 4, 5]) 1 1,
    -- 2840: tmp178 = einsum(t2.bbbb, (0, 1, 2, 3), v.bbbb.ovvv, (1, 4, 5, 3), (0, 2, 4, 5))
    .set 26 (.ein [(4, [0, 1, 2, 3]), (8, [1, 4, 5, 3])] [0, 2, 4, 5]) 1 1,
    -- 2841: tmp176 = einsum(t2.bbbb, (0, 1, 2, 3), v.bbbb.ovvv, (1, 3, 4, 5), (0, 2, 4, 5))
    .set 27 (.ein [(4, [0, 1, 2, 3]), (8, [1, 3, 4, 5])] [0, 2, 4, 5]) 1 1,
    -- 2842: tmp170 = einsum(t2.abab, (0, 1, 2, 3), v.aabb.ovov, (0, 2, 4, 5), (1, 4, 3, 5))
    .set 28 (.ein [(6, [0, 1, 2, 3]), (9, [0, 2, 4, 5])] [1, 4, 3, 5]) 1 1,
    -- 2843: tmp168 = einsum(t2.bbbb, (0, 1, 2, 3), v.aabb.ovov, (4, 5, 1, 3), (4, 0, 5, 2))
    .set 29 (.ein [(4, [0, 1, 2, 3]), (9, [4, 5, 1, 3])] [4, 0, 5, 2]) 1 1,
    -- 2844: tmp166 = einsum(t2.bbbb, (0, 1, 2, 3), v.bbbb.ovov, (4, 5, 1, 3), (0, 4, 2, 5))
    .set 30 (.ein [(4, [0, 1, 2, 3]), (10, [4, 5, 1, 3])] [0, 4, 2, 5]) 1 1,
    -- 2845: tmp164 = einsum(t2.bbbb, (0, 1, 2, 3), v.bbbb.ovov, (4, 3, 1, 5), (0, 4, 2, 5))
    .set 31 (.ein [(4, [0, 1, 2, 3]), (10, [4, 3, 1, 5])] [0, 4, 2, 5]) 1 1,
    -- 2846: tmp162 = einsum(v.aaaa.ovov, (0, 1, 2, 3), t2.abab, (2, 4, 3, 5), (0, 4, 1, 5))
    .set 32 (.ein [(11, [0, 1, 2, 3]), (6, [2, 4, 3, 5])] [0, 4, 1, 5]) 1 1,
    -- 2847: tmp160 = einsum(v.aaaa.ovov, (0, 1, 2, 3), t2.abab, (2, 4, 1, 5), (0, 4, 3, 5))
    .set 33 (.ein [(11, [0, 1, 2, 3]), (6, [2, 4, 1, 5])] [0, 4, 3, 5]) 1 1,
    -- 2848: tmp156 = einsum(t2.bbbb, (0, 1, 2, 3), v.aabb.vvov, (4, 5, 1, 3), (0, 4, 5, 2))
    .set 34 (.ein [(4, [0, 1, 2, 3]), (12, [4, 5, 1, 3])] [0, 4, 5, 2]) 1 1,
    -- 2849: tmp155 = einsum(t2.abab, (0, 1, 2, 3), v.aaaa.ovvv, (0, 4, 5, 2), (1, 4, 5, 3))
    .set 35 (.ein [(6, [0, 1, 2, 3]), (13, [0, 4, 5, 2])] [1, 4, 5, 3]) 1 1,
    -- 2850: tmp154 = einsum(t2.abab, (0, 1, 2, 3), v.aaaa.ovvv, (0, 2, 4, 5), (1, 4, 5, 3))
    .set 36 (.ein [(6, [0, 1, 2, 3]), (13, [0, 2, 4, 5])] [1, 4, 5, 3]) 1 1,
    -- 2851: tmp153 = einsum(t2.bbbb, (0, 1, 2, 3), f.bb.ov, (1, 3), (0, 2))
    .set 37 (.ein [(4, [0, 1, 2, 3]), (1, [1, 3])] [0, 2]) 1 1,
    -- 2852: tmp152 = einsum(t2.abab, (0, 1, 2, 3), f.aa.ov, (0, 2), (1, 3))
    .set 38 (.ein [(6, [0, 1, 2, 3]), (3, [0, 2])] [1, 3]) 1 1,
    -- 2853: tmp150 = einsum(v.aabb.ovoo, (0, 1, 2, 3), t2.abab, (0, 3, 1, 4), (2, 4))
    .set 39 (.ein [(14, [0, 1, 2, 3]), (6, [0, 3, 1, 4])] [2, 4]) 1 1,
    -- 2854: tmp149 = einsum(t2.bbbb, (0, 1, 2, 3), v.bbbb.ooov, (4, 0, 1, 3), (4, 2))
    .set 40 (.ein [(4, [0, 1, 2, 3]), (5, [4, 0, 1, 3])] [4, 2]) 1 1,
    -- 2855: tmp148 = einsum(t1.bb, (0, 1), f.bb.oo, (2, 0), (2, 1))
    .set 41 (.ein [(0, [0, 1]), (15, [2, 0])] [2, 1]) 1 1,
    -- 2856: tmp147 = einsum(tmp139, (0, 1), t1.bb, (0, 2), (1, 2))
    .set 42 (.ein [(22, [0, 1]), (0, [0, 2])] [1, 2]) 1 1,
    -- 2857: tmp145 = einsum(t2.abab, (0, 1, 2, 3), v.aabb.ovov, (0, 2, 4, 3), (1, 4))
    .set 43 (.ein [(6, [0, 1, 2, 3]), (9, [0, 2, 4, 3])] [1, 4]) 1 1,
    -- 2858: tmp143 = einsum(v.bbbb.ovov, (0, 1, 2, 3), t2.bbbb, (4, 2, 3, 1), (4, 0)) * -1
    .set 44 (.ein [(10, [0, 1, 2, 3]), (4, [4, 2, 3, 1])] [4, 0]) (-1) 1,
    -- 2859: tmp142 = einsum(t2.abab, (0, 1, 2, 3), v.aabb.ovvv, (0, 2, 4, 3), (1, 4))
    .set 45 (.ein [(6, [0, 1, 2, 3]), (7, [0, 2, 4, 3])] [1, 4]) 1 1,
    -- 2860: tmp141 = einsum(v.bbbb.ovvv, (0, 1, 2, 3), t2.bbbb, (4, 0, 3, 1), (4, 2)) * -1
    .set 46 (.ein [(8, [0, 1, 2, 3]), (4, [4, 0, 3, 1])] [4, 2]) (-1) 1,
    -- 2861: tmp138 = einsum(f.bb.vv, (0, 1), t1.bb, (2, 1), (2, 0))
    .set 47 (.ein [(16, [0, 1]), (0, [2, 1])] [2, 0]) 1 1,
    -- 2862: tmp132 = einsum(v.aabb.ovoo, (0, 1, 2, 3), t2.abab, (0, 3, 4, 5), (2, 4, 1, 5))
    .set 48 (.ein [(14, [0, 1, 2, 3]), (6, [0, 3, 4, 5])] [2, 4, 1, 5]) 1 1,
    -- 2863: tmp131 = einsum(t2.abab, (0, 1, 2, 3), v.aabb.ovov, (0, 4, 5, 3), (1, 5, 2, 4))
    .set 49 (.ein [(6, [0, 1, 2, 3]), (9, [0, 4, 5, 3])] [1, 5, 2, 4]) 1 1,
    -- 2864: tmp128 = einsum(t2.abab, (0, 1, 2, 3), v.aabb.ovvv, (0, 4, 5, 3), (1, 2, 4, 5))
    .set 50 (.ein [(6, [0, 1, 2, 3]), (7, [0, 4, 5, 3])] [1, 2, 4, 5]) 1 1,
    -- 2865: tmp117 = einsum(v.aabb.ovvv, (0, 1, 2, 3), t2.aaaa, (4, 0, 5, 1), (4, 5, 2, 3))
    .set 51 (.ein [(7, [0, 1, 2, 3]), (17, [4, 0, 5, 1])] [4, 5, 2, 3]) 1 1,
    -- 2866: tmp116 = einsum(t2.abab, (0, 1, 2, 3), v.bbbb.ovvv, (1, 4, 5, 3), (0, 2, 4, 5))
    .set 52 (.ein [(6, [0, 1, 2, 3]), (8, [1, 4, 5, 3])] [0, 2, 4, 5]) 1 1,
    -- 2867: tmp115 = einsum(v.bbbb.ovvv, (0, 1, 2, 3), t2.abab, (4, 0, 5, 1), (4, 5, 2, 3))
    .set 53 (.ein [(8, [0, 1, 2, 3]), (6, [4, 0, 5, 1])] [4, 5, 2, 3]) 1 1,
    -- 2868: tmp105 = einsum(t2.abab, (0, 1, 2, 3), v.aabb.ooov, (4, 0, 1, 5), (4, 2, 3, 5))
    .set 54 (.ein [(6, [0, 1, 2, 3]), (18, [4, 0, 1, 5])] [4, 2, 3, 5]) 1 1,
    -- 2869: tmp104 = einsum(t2.abab, (0, 1, 2, 3), v.aabb.ovov, (4, 2, 1, 5), (0, 4, 3, 5))
    .set 55 (.ein [(6, [0, 1, 2, 3]), (9, [4, 2, 1, 5])] [0, 4, 3, 5]) 1 1,
    -- 2870: tmp101 = einsum(t2.abab, (0, 1, 2, 3), v.aabb.vvov, (4, 2, 1, 5), (0, 4, 3, 5))
    .set 56 (.ein [(6, [0, 1, 2, 3]), (12, [4, 2, 1, 5])] [0, 4, 3, 5]) 1 1,
    -- 2871: tmp97 = einsum(t2.abab, (0, 1, 2, 3), v.aabb.ovov, (4, 2, 1, 3), (0, 4))
    .set 57 (.ein [(6, [0, 1, 2, 3]), (9, [4, 2, 1, 3])] [0, 4]) 1 1,
    -- 2872: tmp95 = einsum(t2.aaaa, (0, 1, 2, 3), v.aaaa.ovov, (4, 2, 1, 3), (0, 4))
    .set 58 (.ein [(17, [0, 1, 2, 3]), (11, [4, 2, 1, 3])] [0, 4]) 1 1,
    -- 2873: tmp94 = einsum(t2.abab, (0, 1, 2, 3), v.aabb.vvov, (4, 2, 1, 3), (0, 4))
    .set 59 (.ein [(6, [0, 1, 2, 3]), (12, [4, 2, 1, 3])] [0, 4]) 1 1,
    -- 2874: tmp93 = einsum(t2.aaaa, (0, 1, 2, 3), v.aaaa.ovvv, (1, 2, 4, 3), (0, 4))
    .set 60 (.ein [(17, [0, 1, 2, 3]), (13, [1, 2, 4, 3])] [0, 4]) 1 1,
    -- 2875: tmp91 = einsum(t1.aa, (0, 1), tmp89, (0, 2), (2, 1))
    .set 61 (.ein [(2, [0, 1]), (23, [0, 2])] [2, 1]) 1 1,
    -- 2876: tmp88 = einsum(f.aa.vv, (0, 1), t1.aa, (2, 1), (2, 0))
    .set 62 (.ein [(19, [0, 1]), (2, [2, 1])] [2, 0]) 1 1,
    -- 2877: tmp81 = einsum(v.aaaa.ooov, (0, 1, 2, 3), t2.aaaa, (1, 2, 4, 5), (0, 4, 5, 3))
    .set 63 (.ein [(20, [0, 1, 2, 3]), (17, [1, 2, 4, 5])] [0, 4, 5, 3]) 1 1,
    -- 2878: tmp80 = einsum(t2.abab, (0, 1, 2, 3), v.aabb.ooov, (4, 0, 1, 3), (4, 2))
    .set 64 (.ein [(6, [0, 1, 2, 3]), (18, [4, 0, 1, 3])] [4, 2]) 1 1,
    -- 2879: tmp79 = einsum(v.aaaa.ooov, (0, 1, 2, 3), t2.aaaa, (1, 2, 4, 3), (0, 4))
    .set 65 (.ein [(20, [0, 1, 2, 3]), (17, [1, 2, 4, 3])] [0, 4]) 1 1,
    -- 2880: tmp76 = einsum(f.aa.oo, (0, 1), t1.aa, (1, 2), (0, 2))
    .set 66 (.ein [(21, [0, 1]), (2, [1, 2])] [0, 2]) 1 1,
    -- 2881: tmp73 = einsum(v.aabb.ovov, (0, 1, 2, 3), t2.aaaa, (4, 0, 5, 1), (4, 2, 5, 3))
    .set 67 (.ein [(9, [0, 1, 2, 3]), (17, [4, 0, 5, 1])] [4, 2, 5, 3]) 1 1,
    -- 2882: tmp71 = einsum(t2.abab, (0, 1, 2, 3), v.aabb.ovov, (4, 5, 1, 3), (0, 4, 2, 5))
    .set 68 (.ein [(6, [0, 1, 2, 3]), (9, [4, 5, 1, 3])] [0, 4, 2, 5]) 1 1,
    -- 2883: tmp69 = einsum(v.bbbb.ovov, (0, 1, 2, 3), t2.abab, (4, 2, 5, 3), (4, 0, 5, 1))
    .set 69 (.ein [(10, [0, 1, 2, 3]), (6, [4, 2, 5, 3])] [4, 0, 5, 1]) 1 1,
    -- 2884: tmp67 = einsum(v.bbbb.ovov, (0, 1, 2, 3), t2.abab, (4, 2, 5, 1), (4, 0, 5, 3))
    .set 70 (.ein [(10, [0, 1, 2, 3]), (6, [4, 2, 5, 1])] [4, 0, 5, 3]) 1 1,
    -- 2885: tmp65 = einsum(v.aaaa.ovov, (0, 1, 2, 3), t2.aaaa, (4, 2, 5, 3), (4, 0, 5, 1))
    .set 71 (.ein [(11, [0, 1, 2, 3]), (17, [4, 2, 5, 3])] [4, 0, 5, 1]) 1 1,
    -- 2886: tmp63 = einsum(v.aaaa.ovov, (0, 1, 2, 3), t2.aaaa, (4, 2, 5, 1), (4, 0, 5, 3))
    .set 72 (.ein [(11, [0, 1, 2, 3]), (17, [4, 2, 5, 1])] [4, 0, 5, 3]) 1 1,
    -- 2887: tmp59 = einsum(t2.abab, (0, 1, 2, 3), v.aabb.vvov, (4, 5, 1, 3), (0, 2, 4, 5))
    .set 73 (.ein [(6, [0, 1, 2, 3]), (12, [4, 5, 1, 3])] [0, 2, 4, 5]) 1 1,
    -- 2888: tmp57 = einsum(v.aaaa.ovvv, (0, 1, 2, 3), t2.aaaa, (4, 0, 5, 3), (4, 5, 1, 2))
    .set 74 (.ein [(13, [0, 1, 2, 3]), (17, [4, 0, 5, 3])] [4, 5, 1, 2]) 1 1,
    -- 2889: tmp55 = einsum(t2.aaaa, (0, 1, 2, 3), v.aaaa.ovvv, (1, 3, 4, 5), (0, 2, 4, 5))
    .set 75 (.ein [(17, [0, 1, 2, 3]), (13, [1, 3, 4, 5])] [0, 2, 4, 5]) 1 1,
    -- 2890: tmp51 = einsum(t2.abab, (0, 1, 2, 3), f.bb.ov, (1, 3), (0, 2))
    .set 76 (.ein [(6, [0, 1, 2, 3]), (1, [1, 3])] [0, 2]) 1 1,
    -- 2891: tmp50 = einsum(t2.aaaa, (0, 1, 2, 3), f.aa.ov, (1, 3), (0, 2))
    .set 77 (.ein [(17, [0, 1, 2, 3]), (3, [1, 3])] [0, 2]) 1 1,
    -- 2892: tmp43 = einsum(t2.abab, (0, 1, 2, 3), v.aabb.ovov, (0, 2, 1, 4), (3, 4))
    .set 78 (.ein [(6, [0, 1, 2, 3]), (9, [0, 2, 1, 4])] [3, 4]) 1 1,
    -- 2893: tmp41 = einsum(v.bbbb.ovov, (0, 1, 2, 3), t2.bbbb, (0, 2, 4, 1), (4, 3)) * -1
    .set 79 (.ein [(10, [0, 1, 2, 3]), (4, [0, 2, 4, 1])] [4, 3]) (-1) 1,
    -- 2894: tmp33 = einsum(t1.aa, (0, 1), v.aabb.ovvv, (0, 1, 2, 3), (2, 3))
    .set 80 (.ein [(2, [0, 1]), (7, [0, 1, 2, 3])] [2, 3]) 1 1,
    -- 2895: tmp32 = einsum(t1.bb, (0, 1), v.bbbb.ovvv, (0, 2, 3, 1), (2, 3))
    .set 81 (.ein [(0, [0, 1]), (8, [0, 2, 3, 1])] [2, 3]) 1 1,
    -- 2896: tmp31 = einsum(v.bbbb.ovvv, (0, 1, 2, 3), t1.bb, (0, 1), (2, 3))
    .set 82 (.ein [(8, [0, 1, 2, 3]), (0, [0, 1])] [2, 3]) 1 1,
    -- 2897: tmp22 = einsum(t2.abab, (0, 1, 2, 3), v.aabb.ovov, (0, 4, 1, 3), (2, 4))
    .set 83 (.ein [(6, [0, 1, 2, 3]), (9, [0, 4, 1, 3])] [2, 4]) 1 1,
    -- 2898: tmp20 = einsum(t2.aaaa, (0, 1, 2, 3), v.aaaa.ovov, (0, 3, 1, 4), (2, 4)) * -1
    .set 84 (.ein [(17, [0, 1, 2, 3]), (11, [0, 3, 1, 4])] [2, 4]) (-1) 1,
    -- 2899: tmp15 = einsum(t1.aa, (0, 1), v.aabb.ovov, (0, 1, 2, 3), (2, 3))
    .set 85 (.ein [(2, [0, 1]), (9, [0, 1, 2, 3])] [2, 3]) 1 1,
    -- 2900: tmp13 = einsum(v.aabb.ovov, (0, 1, 2, 3), t1.bb, (2, 3), (0, 1))
    .set 86 (.ein [(9, [0, 1, 2, 3]), (0, [2, 3])] [0, 1]) 1 1,
    -- 2901: tmp12 = einsum(t1.bb, (0, 1), v.bbbb.ovov, (2, 3, 0, 1), (2, 3))
    .set 87 (.ein [(0, [0, 1]), (10, [2, 3, 0, 1])] [2, 3]) 1 1,
    -- 2902: tmp11 = einsum(t1.bb, (0, 1), v.bbbb.ovov, (2, 1, 0, 3), (2, 3))
    .set 88 (.ein [(0, [0, 1]), (10, [2, 1, 0, 3])] [2, 3]) 1 1,
    -- 2903: tmp9 = einsum(v.aaaa.ovov, (0, 1, 2, 3), t1.aa, (2, 3), (0, 1))
    .set 89 (.ein [(11, [0, 1, 2, 3]), (2, [2, 3])] [0, 1]) 1 1,
    -- 2904: tmp7 = einsum(v.aaaa.ovov, (0, 1, 2, 3), t1.aa, (2, 1), (0, 3))
    .set 90 (.ein [(11, [0, 1, 2, 3]), (2, [2, 1])] [0, 3]) 1 1,
    -- 2905: tmp6 = einsum(v.aabb.vvov, (0, 1, 2, 3), t1.bb, (2, 3), (0, 1))
    .set 91 (.ein [(12, [0, 1, 2, 3]), (0, [2, 3])] [0, 1]) 1 1,
    -- 2906: tmp5 = einsum(v.aaaa.ovvv, (0, 1, 2, 3), t1.aa, (0, 3), (1, 2))
    .set 92 (.ein [(13, [0, 1, 2, 3]), (2, [0, 3])] [1, 2]) 1 1,
    -- 2907: tmp4 = einsum(v.aaaa.ovvv, (0, 1, 2, 3), t1.aa, (0, 1), (2, 3))
    .set 93 (.ein [(13, [0, 1, 2, 3]), (2, [0, 1])] [2, 3]) 1 1
  ]
  ret := [(chars! "tmp101", 56), (chars! "tmp104", 55), (chars! "tmp105", 54), (chars! "tmp11", 88), (chars! "tmp115", 53), (chars! "tmp116", 52), (chars! "tmp117", 51), (chars! "tmp12", 87), (chars! "tmp128", 50), (chars! "tmp13", 86), (chars! "tmp131", 49), (chars! "tmp132", 48), (chars! "tmp138", 47), (chars! "tmp139", 22), (chars! "tmp141", 46), (chars! "tmp142", 45), (chars! "tmp143", 44), (chars! "tmp145", 43), (chars! "tmp147", 42), (chars! "tmp148", 41), (chars! "tmp149", 40), (chars! "tmp15", 85), (chars! "tmp150", 39), (chars! "tmp152", 38), (chars! "tmp153", 37), (chars! "tmp154", 36), (chars! "tmp155", 35), (chars! "tmp156", 34), (chars! "tmp160", 33), (chars! "tmp162", 32), (chars! "tmp164", 31), (chars! "tmp166", 30), (chars! "tmp168", 29), (chars! "tmp170", 28), (chars! "tmp176", 27), (chars! "tmp178", 26), (chars! "tmp180", 25), (chars! "tmp193", 24), (chars! "tmp20", 84), (chars! "tmp22", 83), (chars! "tmp31", 82), (chars! "tmp32", 81), (chars! "tmp33", 80), (chars! "tmp4", 93), (chars! "tmp41", 79), (chars! "tmp43", 78), (chars! "tmp5", 92), (chars! "tmp50", 77), (chars! "tmp51", 76), (chars! "tmp55", 75), (chars! "tmp57", 74), (chars! "tmp59", 73), (chars! "tmp6", 91), (chars! "tmp63", 72), (chars! "tmp65", 71), (chars! "tmp67", 70), (chars! "tmp69", 69), (chars! "tmp7", 90), (chars! "tmp71", 68), (chars! "tmp73", 67), (chars! "tmp76", 66), (chars! "tmp79", 65), (chars! "tmp80", 64), (chars! "tmp81", 63), (chars! "tmp88", 62), (chars! "tmp89", 23), (chars! "tmp9", 89), (chars! "tmp91", 61), (chars! "tmp93", 60), (chars! "tmp94", 59), (chars! "tmp95", 58), (chars! "tmp97", 57)]

/-- codegen/UCC2.py:2911-3320 `hbar_matvec_ea`. -/
def hbar_matvec_ea : GenFun where
  args := [chars! "ints.tmp162", chars! "ints.tmp168", chars! "ints.tmp166", chars! "ints.tmp170", chars! "ints.tmp176", chars! "ints.tmp180", chars! "v.bbbb.ovvv", chars! "f.bb.ov", chars! "r2.bbb", chars! "ints.tmp41", chars! "ints.tmp43", chars! "f.bb.vv", chars! "ints.tmp55", chars! "ints.tmp59", chars! "v.aaaa.ovvv", chars! "f.aa.ov", chars! "r2.aaa", chars! "ints.tmp65", chars! "ints.tmp71", chars! "ints.tmp69", chars! "ints.tmp73", chars! "ints.tmp20", chars! "ints.tmp22", chars! "f.aa.vv", chars! "v.bbbb.ovov", chars! "r1.b", chars! "ints.tmp178", chars! "ints.tmp164", chars! "r2.aba", chars! "v.aabb.ovov", chars! "v.bbbb.oovv", chars! "t1.bb", chars! "ints.tmp160", chars! "t1.aa", chars! "r1.a", chars! "v.aaaa.ovov", chars! "r2.bab", chars! "v.aaaa.oovv", chars! "ints.tmp57", chars! "ints.tmp63", chars! "ints.tmp67", chars! "ints.tmp12", chars! "ints.tmp15", chars! "ints.tmp11", chars! "ints.tmp13", chars! "ints.tmp9", chars! "ints.tmp7", chars! "ints.tmp141", chars! "ints.tmp147", chars! "ints.tmp148", chars! "ints.tmp149", chars! "ints.tmp150", chars! "ints.tmp138", chars! "ints.tmp142", chars! "ints.tmp152", chars! "ints.tmp153", chars! "f.bb.oo", chars! "ints.tmp139", chars! "ints.tmp143", chars! "ints.tmp145", chars! "ints.tmp131", chars! "v.aabb.vvoo", chars! "ints.tmp132", chars! "ints.tmp154", chars! "ints.tmp156", chars! "v.aabb.vvov", chars! "ints.tmp128", chars! "ints.tmp155", chars! "ints.tmp104", chars! "v.aabb.oovv", chars! "ints.tmp76", chars! "ints.tmp79", chars! "ints.tmp80", chars! "ints.tmp91", chars! "ints.tmp93", chars! "ints.tmp50", chars! "ints.tmp51", chars! "ints.tmp88", chars! "ints.tmp94", chars! "ints.tmp105", chars! "ints.tmp115", chars! "ints.tmp117", chars! "v.aabb.ovvv", chars! "ints.tmp101", chars! "ints.tmp116", chars! "f.aa.oo", chars! "ints.tmp89", chars! "ints.tmp95", chars! "ints.tmp97", chars! "ints.tmp32", chars! "ints.tmp31", chars! "ints.tmp33", chars! "ints.tmp5", chars! "ints.tmp4", chars! "ints.tmp6", chars! "ints.tmp193", chars! "v.bbbb.vvvv", chars! "t2.bbbb", chars! "v.aabb.vvvv", chars! "t2.abab", chars! "t2.aaaa", chars! "ints.tmp81", chars! "v.aaaa.vvvv"]
  body := [
    -- 2941: tmp67 = np.copy(ints.tmp162)
    .set 103 (.cp 0) 1 1,
    -- 2942: tmp67 += ints.tmp168 * 2
    .add 103 (.cp 1) 2 1,
    -- 2943: tmp57 = np.copy(ints.tmp166) * 2
    .set 104 (.cp 2) 2 1,
    -- 2944: tmp57 += ints.tmp170
    .add 104 (.cp 3) 1 1,
    -- 2945: tmp61 = np.copy(ints.tmp176)
    .set 105 (.cp 4) 1 1,
    -- 2946: del ints.tmp176
    .del 4,
    -- 2947: tmp61 += ints.tmp180 * 0.5
    .add 105 (.cp 5) 1 2,
    -- 2948: del ints.tmp180
    .del 5,
    -- 2949: tmp61 += v.bbbb.ovvv * 0.5
    .add 105 (.cp 6) 1 2,
    -- 2950: tmp55 = einsum(f.bb.ov, (0, 1), r2.bbb, (2, 1, 3), (0, 3, 2))
    .set 106 (.ein [(7, [0, 1]), (8, [2, 1, 3])] [0, 3, 2]) 1 1,
    -- 2951: tmp59 = np.copy(np.transpose(ints.tmp41, (1, 0)))
    .set 107 (.tr 9 [1, 0]) 1 1,
    -- 2952: tmp59 += np.transpose(ints.tmp43, (1, 0)) * 0.5
    .add 107 (.tr 10 [1, 0]) 1 2,
    -- 2953: tmp59 += f.bb.vv * -0.5
    .add 107 (.cp 11) (-1) 2,
    -- 2954: tmp20 = np.copy(ints.tmp55)
    .set 108 (.cp 12) 1 1,
    -- 2955: del ints.tmp55
    .del 12,
    -- 2956: tmp20 += ints.tmp59 * 0.5
    .add 108 (.cp 13) 1 2,
    -- 2957: del ints.tmp59
    .del 13,
    -- 2958: tmp20 += v.aaaa.ovvv * 0.5
    .add 108 (.cp 14) 1 2,
    -- 2959: tmp12 = einsum(f.aa.ov, (0, 1), r2.aaa, (2, 1, 3), (0, 3, 2))
    .set 109 (.ein [(15, [0, 1]), (16, [2, 1, 3])] [0, 3, 2]) 1 1,
    -- 2960: tmp14 = np.copy(ints.tmp65) * 2
    .set 110 (.cp 17) 2 1,
    -- 2961: tmp14 += ints.tmp71
    .add 110 (.cp 18) 1 1,
    -- 2962: tmp16 = np.copy(ints.tmp69) * 0.5
    .set 111 (.cp 19) 1 2,
    -- 2963: tmp16 += ints.tmp73
    .add 111 (.cp 20) 1 1,
    -- 2964: tmp18 = np.copy(np.transpose(ints.tmp20, (1, 0)))
    .set 112 (.tr 21 [1, 0]) 1 1,
    -- 2965: tmp18 += np.transpose(ints.tmp22, (1, 0)) * 0.5
    .add 112 (.tr 22 [1, 0]) 1 2,
    -- 2966: tmp18 += f.aa.vv * -0.5
    .add 112 (.cp 23) (-1) 2,
    -- 2967: tmp66 = einsum(r2.bbb, (0, 1, 2), v.bbbb.ovov, (3, 4, 2, 1), (3, 0, 4))
    .set 113 (.ein [(8, [0, 1, 2]), (24, [3, 4, 2, 1])] [3, 0, 4]) 1 1,
    -- 2968: tmp64 = einsum(r1.b, (0,), ints.tmp178, (1, 2, 0, 3), (1, 2, 3))
    .set 114 (.ein [(25, [0]), (26, [1, 2, 0, 3])] [1, 2, 3]) 1 1,
    -- 2969: del ints.tmp178
    .del 26,
    -- 2970: tmp65 = einsum(ints.tmp164, (0, 1, 2, 3), r2.bbb, (4, 3, 1), (0, 2, 4))
    .set 115 (.ein [(27, [0, 1, 2, 3]), (8, [4, 3, 1])] [0, 2, 4]) 1 1,
    -- 2971: tmp68 = einsum(tmp67, (0, 1, 2, 3), r2.aba, (2, 4, 0), (1, 4, 3))
    .set 116 (.ein [(103, [0, 1, 2, 3]), (28, [2, 4, 0])] [1, 4, 3]) 1 1,
    -- 2972: del tmp67
    .del 103,
    -- 2973: tmp53 = einsum(v.aabb.ovov, (0, 1, 2, 3), r2.aba, (1, 4, 0), (2, 4, 3))
    .set 117 (.ein [(29, [0, 1, 2, 3]), (28, [1, 4, 0])] [2, 4, 3]) 1 1,
    -- 2974: tmp54 = einsum(r2.bbb, (0, 1, 2), v.bbbb.oovv, (3, 2, 4, 1), (3, 0, 4))
    .set 118 (.ein [(8, [0, 1, 2]), (30, [3, 2, 4, 1])] [3, 0, 4]) 1 1,
    -- 2975: tmp58 = einsum(r2.bbb, (0, 1, 2), tmp57, (3, 2, 4, 1), (3, 0, 4)) * -2
    .set 119 (.ein [(8, [0, 1, 2]), (104, [3, 2, 4, 1])] [3, 0, 4]) (-2) 1,
    -- 2976: del tmp57
    .del 104,
    -- 2977: tmp62 = einsum(r1.b, (0,), tmp61, (1, 2, 3, 0), (1, 2, 3)) * 2
    .set 120 (.ein [(25, [0]), (105, [1, 2, 3, 0])] [1, 2, 3]) 2 1,
    -- 2978: del tmp61
    .del 105,
    -- 2979: tmp56 = einsum(tmp55, (0, 1, 2), t1.bb, (0, 3), (1, 2, 3))
    .set 121 (.ein [(106, [0, 1, 2]), (31, [0, 3])] [1, 2, 3]) 1 1,
    -- 2980: del tmp55
    .del 106,
    -- 2981: tmp52 = einsum(r2.aba, (0, 1, 2), ints.tmp160, (2, 3, 0, 4), (3, 4, 1))
    .set 122 (.ein [(28, [0, 1, 2]), (32, [2, 3, 0, 4])] [3, 4, 1]) 1 1,
    -- 2982: tmp60 = einsum(r2.bbb, (0, 1, 2), tmp59, (1, 3), (2, 0, 3)) * -4
    .set 123 (.ein [(8, [0, 1, 2]), (107, [1, 3])] [2, 0, 3]) (-4) 1,
    -- 2983: del tmp59
    .del 107,
    -- 2984: tmp7 = einsum(v.aabb.ovov, (0, 1, 2, 3), r2.aba, (1, 3, 0), (2,))
    .set 124 (.ein [(29, [0, 1, 2, 3]), (28, [1, 3, 0])] [2]) 1 1,
    -- 2985: tmp42 = einsum(r1.b, (0,), f.bb.ov, (1, 0), (1,))
    .set 125 (.ein [(25, [0]), (7, [1, 0])] [1]) 1 1,
    -- 2986: tmp8 = einsum(r2.bbb, (0, 1, 2), v.bbbb.ovov, (3, 0, 2, 1), (3,))
    .set 126 (.ein [(8, [0, 1, 2]), (24, [3, 0, 2, 1])] [3]) 1 1,
    -- 2987: tmp38 = einsum(t1.aa, (0, 1), f.aa.ov, (0, 2), (2, 1))
    .set 127 (.ein [(33, [0, 1]), (15, [0, 2])] [2, 1]) 1 1,
    -- 2988: tmp40 = einsum(t1.bb, (0, 1), f.bb.ov, (0, 2), (2, 1))
    .set 128 (.ein [(31, [0, 1]), (7, [0, 2])] [2, 1]) 1 1,
    -- 2989: tmp30 = einsum(r1.a, (0,), f.aa.ov, (1, 0), (1,))
    .set 129 (.ein [(34, [0]), (15, [1, 0])] [1]) 1 1,
    -- 2990: tmp3 = einsum(v.aaaa.ovov, (0, 1, 2, 3), r2.aaa, (1, 3, 2), (0,))
    .set 130 (.ein [(35, [0, 1, 2, 3]), (16, [1, 3, 2])] [0]) 1 1,
    -- 2991: tmp4 = einsum(v.aabb.ovov, (0, 1, 2, 3), r2.bab, (3, 1, 2), (0,)) * -1
    .set 131 (.ein [(29, [0, 1, 2, 3]), (36, [3, 1, 2])] [0]) (-1) 1,
    -- 2992: tmp21 = einsum(tmp20, (0, 1, 2, 3), r1.a, (3,), (0, 1, 2)) * 2
    .set 132 (.ein [(108, [0, 1, 2, 3]), (34, [3])] [0, 1, 2]) 2 1,
    -- 2993: del tmp20
    .del 108,
    -- 2994: tmp13 = einsum(tmp12, (0, 1, 2), t1.aa, (0, 3), (1, 2, 3))
    .set 133 (.ein [(109, [0, 1, 2]), (33, [0, 3])] [1, 2, 3]) 1 1,
    -- 2995: del tmp12
    .del 109,
    -- 2996: tmp11 = einsum(v.aaaa.oovv, (0, 1, 2, 3), r2.aaa, (4, 3, 1), (0, 4, 2))
    .set 134 (.ein [(37, [0, 1, 2, 3]), (16, [4, 3, 1])] [0, 4, 2]) 1 1,
    -- 2997: tmp15 = einsum(r2.aaa, (0, 1, 2), tmp14, (3, 2, 4, 1), (3, 0, 4)) * -2
    .set 135 (.ein [(16, [0, 1, 2]), (110, [3, 2, 4, 1])] [3, 0, 4]) (-2) 1,
    -- 2998: del tmp14
    .del 110,
    -- 2999: tmp17 = einsum(tmp16, (0, 1, 2, 3), r2.bab, (3, 4, 1), (0, 4, 2)) * -2
    .set 136 (.ein [(111, [0, 1, 2, 3]), (36, [3, 4, 1])] [0, 4, 2]) (-2) 1,
    -- 3000: del tmp16
    .del 111,
    -- 3001: tmp19 = einsum(r2.aaa, (0, 1, 2), tmp18, (1, 3), (2, 0, 3)) * -4
    .set 137 (.ein [(16, [0, 1, 2]), (112, [1, 3])] [2, 0, 3]) (-4) 1,
    -- 3002: del tmp18
    .del 112,
    -- 3003: tmp23 = einsum(ints.tmp57, (0, 1, 2, 3), r1.a, (2,), (0, 1, 3))
    .set 138 (.ein [(38, [0, 1, 2, 3]), (34, [2])] [0, 1, 3]) 1 1,
    -- 3004: del ints.tmp57
    .del 38,
    -- 3005: tmp25 = einsum(v.aaaa.ovov, (0, 1, 2, 3), r2.aaa, (4, 3, 2), (0, 4, 1))
    .set 139 (.ein [(35, [0, 1, 2, 3]), (16, [4, 3, 2])] [0, 4, 1]) 1 1,
    -- 3006: tmp27 = einsum(v.aabb.ovov, (0, 1, 2, 3), r2.bab, (3, 4, 2), (0, 4, 1)) * -1
    .set 140 (.ein [(29, [0, 1, 2, 3]), (36, [3, 4, 2])] [0, 4, 1]) (-1) 1,
    -- 3007: tmp24 = einsum(ints.tmp63, (0, 1, 2, 3), r2.aaa, (4, 3, 1), (0, 2, 4))
    .set 141 (.ein [(39, [0, 1, 2, 3]), (16, [4, 3, 1])] [0, 2, 4]) 1 1,
    -- 3008: tmp26 = einsum(r2.bab, (0, 1, 2), ints.tmp67, (3, 2, 4, 0), (3, 4, 1)) * -1
    .set 142 (.ein [(36, [0, 1, 2]), (40, [3, 2, 4, 0])] [3, 4, 1]) (-1) 1,
    -- 3009: tmp0 = np.copy(f.bb.ov)
    .set 143 (.cp 7) 1 1,
    -- 3010: tmp0 += ints.tmp12
    .add 143 (.cp 41) 1 1,
    -- 3011: del ints.tmp12
    .del 41,
    -- 3012: tmp0 += ints.tmp15
    .add 143 (.cp 42) 1 1,
    -- 3013: del ints.tmp15
    .del 42,
    -- 3014: tmp0 += ints.tmp11 * -1
    .add 143 (.cp 43) (-1) 1,
    -- 3015: del ints.tmp11
    .del 43,
    -- 3016: tmp1 = np.copy(f.aa.ov)
    .set 144 (.cp 15) 1 1,
    -- 3017: tmp1 += ints.tmp13
    .add 144 (.cp 44) 1 1,
    -- 3018: del ints.tmp13
    .del 44,
    -- 3019: tmp1 += ints.tmp9
    .add 144 (.cp 45) 1 1,
    -- 3020: del ints.tmp9
    .del 45,
    -- 3021: tmp1 += ints.tmp7 * -1
    .add 144 (.cp 46) (-1) 1,
    -- 3022: del ints.tmp7
    .del 46,
    -- 3023: tmp51 = einsum(v.bbbb.ovov, (0, 1, 2, 3), r2.bbb, (3, 1, 4), (4, 0, 2)) * -1
    .set 145 (.ein [(24, [0, 1, 2, 3]), (8, [3, 1, 4])] [4, 0, 2]) (-1) 1,
    -- 3024: tmp50 = np.copy(ints.tmp141) * 2
    .set 146 (.cp 47) 2 1,
    -- 3025: del ints.tmp141
    .del 47,
    -- 3026: tmp50 += ints.tmp147
    .add 146 (.cp 48) 1 1,
    -- 3027: del ints.tmp147
    .del 48,
    -- 3028: tmp50 += ints.tmp148
    .add 146 (.cp 49) 1 1,
    -- 3029: del ints.tmp148
    .del 49,
    -- 3030: tmp50 += ints.tmp149 * 2
    .add 146 (.cp 50) 2 1,
    -- 3031: del ints.tmp149
    .del 50,
    -- 3032: tmp50 += ints.tmp150
    .add 146 (.cp 51) 1 1,
    -- 3033: del ints.tmp150
    .del 51,
    -- 3034: tmp50 += f.bb.ov * -1
    .add 146 (.cp 7) (-1) 1,
    -- 3035: tmp50 += ints.tmp138 * -1
    .add 146 (.cp 52) (-1) 1,
    -- 3036: del ints.tmp138
    .del 52,
    -- 3037: tmp50 += ints.tmp142 * -1
    .add 146 (.cp 53) (-1) 1,
    -- 3038: del ints.tmp142
    .del 53,
    -- 3039: tmp50 += ints.tmp152 * -1
    .add 146 (.cp 54) (-1) 1,
    -- 3040: del ints.tmp152
    .del 54,
    -- 3041: tmp50 += ints.tmp153 * -2
    .add 146 (.cp 55) (-2) 1,
    -- 3042: del ints.tmp153
    .del 55,
    -- 3043: tmp69 = np.copy(tmp64) * 2
    .set 147 (.cp 114) 2 1,
    -- 3044: del tmp64
    .del 114,
    -- 3045: tmp69 += tmp65 * 4
    .add 147 (.cp 115) 4 1,
    -- 3046: del tmp65
    .del 115,
    -- 3047: tmp69 += tmp66 * 2
    .add 147 (.cp 113) 2 1,
    -- 3048: del tmp66
    .del 113,
    -- 3049: tmp69 += np.transpose(tmp68, (0, 2, 1))
    .add 147 (.tr 116 [0, 2, 1]) 1 1,
    -- 3050: del tmp68
    .del 116,
    -- 3051: tmp49 = np.copy(f.bb.oo)
    .set 148 (.cp 56) 1 1,
    -- 3052: tmp49 += ints.tmp139
    .add 148 (.cp 57) 1 1,
    -- 3053: del ints.tmp139
    .del 57,
    -- 3054: tmp49 += np.transpose(ints.tmp143, (1, 0)) * 2
    .add 148 (.tr 58 [1, 0]) 2 1,
    -- 3055: del ints.tmp143
    .del 58,
    -- 3056: tmp49 += np.transpose(ints.tmp145, (1, 0))
    .add 148 (.tr 59 [1, 0]) 1 1,
    -- 3057: del ints.tmp145
    .del 59,
    -- 3058: tmp63 = np.copy(tmp52)
    .set 149 (.cp 122) 1 1,
    -- 3059: del tmp52
    .del 122,
    -- 3060: tmp63 += tmp53
    .add 149 (.cp 117) 1 1,
    -- 3061: del tmp53
    .del 117,
    -- 3062: tmp63 += tmp54 * 2
    .add 149 (.cp 118) 2 1,
    -- 3063: del tmp54
    .del 118,
    -- 3064: tmp63 += tmp56 * 2
    .add 149 (.cp 121) 2 1,
    -- 3065: del tmp56
    .del 121,
    -- 3066: tmp63 += np.transpose(tmp58, (0, 2, 1)) * -1
    .add 149 (.tr 119 [0, 2, 1]) (-1) 1,
    -- 3067: del tmp58
    .del 119,
    -- 3068: tmp63 += np.transpose(tmp60, (0, 2, 1))
    .add 149 (.tr 123 [0, 2, 1]) 1 1,
    -- 3069: del tmp60
    .del 123,
    -- 3070: tmp63 += tmp62
    .add 149 (.cp 120) 1 1,
    -- 3071: del tmp62
    .del 120,
    -- 3072: tmp43 = np.copy(tmp42) * 0.5
    .set 150 (.cp 125) 1 2,
    -- 3073: del tmp42
    .del 125,
    -- 3074: tmp43 += tmp7 * -0.5
    .add 150 (.cp 124) (-1) 2,
    -- 3075: tmp43 += tmp8
    .add 150 (.cp 126) 1 1,
    -- 3076: tmp39 = np.copy(np.transpose(ints.tmp20, (1, 0))) * 2
    .set 151 (.tr 21 [1, 0]) 2 1,
    -- 3077: tmp39 += np.transpose(ints.tmp22, (1, 0))
    .add 151 (.tr 22 [1, 0]) 1 1,
    -- 3078: tmp39 += f.aa.vv * -1
    .add 151 (.cp 23) (-1) 1,
    -- 3079: tmp39 += tmp38
    .add 151 (.cp 127) 1 1,
    -- 3080: del tmp38
    .del 127,
    -- 3081: tmp46 = np.copy(ints.tmp162)
    .set 152 (.cp 0) 1 1,
    -- 3082: del ints.tmp162
    .del 0,
    -- 3083: tmp46 += ints.tmp168 * 2
    .add 152 (.cp 1) 2 1,
    -- 3084: del ints.tmp168
    .del 1,
    -- 3085: tmp46 += np.transpose(v.aabb.ovov, (0, 2, 1, 3))
    .add 152 (.tr 29 [0, 2, 1, 3]) 1 1,
    -- 3086: tmp46 += ints.tmp160 * -1
    .add 152 (.cp 32) (-1) 1,
    -- 3087: del ints.tmp160
    .del 32,
    -- 3088: tmp41 = np.copy(np.transpose(ints.tmp41, (1, 0))) * 2
    .set 153 (.tr 9 [1, 0]) 2 1,
    -- 3089: tmp41 += np.transpose(ints.tmp43, (1, 0))
    .add 153 (.tr 10 [1, 0]) 1 1,
    -- 3090: tmp41 += f.bb.vv * -1
    .add 153 (.cp 11) (-1) 1,
    -- 3091: tmp41 += tmp40
    .add 153 (.cp 128) 1 1,
    -- 3092: del tmp40
    .del 128,
    -- 3093: tmp31 = np.copy(tmp30)
    .set 154 (.cp 129) 1 1,
    -- 3094: del tmp30
    .del 129,
    -- 3095: tmp31 += tmp3 * 2
    .add 154 (.cp 130) 2 1,
    -- 3096: tmp31 += tmp4
    .add 154 (.cp 131) 1 1,
    -- 3097: tmp44 = einsum(v.aabb.ovov, (0, 1, 2, 3), r2.bab, (3, 1, 4), (0, 4, 2)) * -1
    .set 155 (.ein [(29, [0, 1, 2, 3]), (36, [3, 1, 4])] [0, 4, 2]) (-1) 1,
    -- 3098: tmp47 = np.copy(ints.tmp131)
    .set 156 (.cp 60) 1 1,
    -- 3099: del ints.tmp131
    .del 60,
    -- 3100: tmp47 += np.transpose(v.aabb.vvoo, (2, 3, 0, 1)) * -1
    .add 156 (.tr 61 [2, 3, 0, 1]) (-1) 1,
    -- 3101: tmp45 = np.copy(ints.tmp166) * 2
    .set 157 (.cp 2) 2 1,
    -- 3102: del ints.tmp166
    .del 2,
    -- 3103: tmp45 += ints.tmp170
    .add 157 (.cp 3) 1 1,
    -- 3104: del ints.tmp170
    .del 3,
    -- 3105: tmp45 += np.transpose(v.bbbb.ovov, (0, 2, 1, 3))
    .add 157 (.tr 24 [0, 2, 1, 3]) 1 1,
    -- 3106: tmp45 += ints.tmp164 * -2
    .add 157 (.cp 27) (-2) 1,
    -- 3107: del ints.tmp164
    .del 27,
    -- 3108: tmp45 += v.bbbb.oovv * -1
    .add 157 (.cp 30) (-1) 1,
    -- 3109: tmp48 = np.copy(ints.tmp132)
    .set 158 (.cp 62) 1 1,
    -- 3110: del ints.tmp132
    .del 62,
    -- 3111: tmp48 += ints.tmp154
    .add 158 (.cp 63) 1 1,
    -- 3112: del ints.tmp154
    .del 63,
    -- 3113: tmp48 += ints.tmp156 * 2
    .add 158 (.cp 64) 2 1,
    -- 3114: del ints.tmp156
    .del 64,
    -- 3115: tmp48 += np.transpose(v.aabb.vvov, (2, 0, 1, 3))
    .add 158 (.tr 65 [2, 0, 1, 3]) 1 1,
    -- 3116: tmp48 += ints.tmp128 * -1
    .add 158 (.cp 66) (-1) 1,
    -- 3117: del ints.tmp128
    .del 66,
    -- 3118: tmp48 += np.transpose(ints.tmp155, (0, 2, 1, 3)) * -1
    .add 158 (.tr 67 [0, 2, 1, 3]) (-1) 1,
    -- 3119: del ints.tmp155
    .del 67,
    -- 3120: tmp36 = np.copy(ints.tmp104)
    .set 159 (.cp 68) 1 1,
    -- 3121: del ints.tmp104
    .del 68,
    -- 3122: tmp36 += v.aabb.oovv * -1
    .add 159 (.cp 69) (-1) 1,
    -- 3123: tmp33 = einsum(v.aabb.ovov, (0, 1, 2, 3), r2.aba, (1, 3, 4), (4, 0, 2))
    .set 160 (.ein [(29, [0, 1, 2, 3]), (28, [1, 3, 4])] [4, 0, 2]) 1 1,
    -- 3124: tmp32 = np.copy(ints.tmp76)
    .set 161 (.cp 70) 1 1,
    -- 3125: del ints.tmp76
    .del 70,
    -- 3126: tmp32 += ints.tmp79 * 2
    .add 161 (.cp 71) 2 1,
    -- 3127: del ints.tmp79
    .del 71,
    -- 3128: tmp32 += ints.tmp80
    .add 161 (.cp 72) 1 1,
    -- 3129: del ints.tmp80
    .del 72,
    -- 3130: tmp32 += ints.tmp91
    .add 161 (.cp 73) 1 1,
    -- 3131: del ints.tmp91
    .del 73,
    -- 3132: tmp32 += ints.tmp93 * 2
    .add 161 (.cp 74) 2 1,
    -- 3133: del ints.tmp93
    .del 74,
    -- 3134: tmp32 += f.aa.ov * -1
    .add 161 (.cp 15) (-1) 1,
    -- 3135: tmp32 += ints.tmp50 * -2
    .add 161 (.cp 75) (-2) 1,
    -- 3136: del ints.tmp50
    .del 75,
    -- 3137: tmp32 += ints.tmp51 * -1
    .add 161 (.cp 76) (-1) 1,
    -- 3138: del ints.tmp51
    .del 76,
    -- 3139: tmp32 += ints.tmp88 * -1
    .add 161 (.cp 77) (-1) 1,
    -- 3140: del ints.tmp88
    .del 77,
    -- 3141: tmp32 += ints.tmp94 * -1
    .add 161 (.cp 78) (-1) 1,
    -- 3142: del ints.tmp94
    .del 78,
    -- 3143: tmp35 = np.copy(ints.tmp69)
    .set 162 (.cp 19) 1 1,
    -- 3144: del ints.tmp69
    .del 19,
    -- 3145: tmp35 += ints.tmp73 * 2
    .add 162 (.cp 20) 2 1,
    -- 3146: del ints.tmp73
    .del 20,
    -- 3147: tmp35 += np.transpose(v.aabb.ovov, (0, 2, 1, 3))
    .add 162 (.tr 29 [0, 2, 1, 3]) 1 1,
    -- 3148: tmp35 += ints.tmp67 * -1
    .add 162 (.cp 40) (-1) 1,
    -- 3149: del ints.tmp67
    .del 40,
    -- 3150: tmp34 = np.copy(ints.tmp65) * 2
    .set 163 (.cp 17) 2 1,
    -- 3151: del ints.tmp65
    .del 17,
    -- 3152: tmp34 += ints.tmp71
    .add 163 (.cp 18) 1 1,
    -- 3153: del ints.tmp71
    .del 18,
    -- 3154: tmp34 += np.transpose(v.aaaa.ovov, (0, 2, 1, 3))
    .add 163 (.tr 35 [0, 2, 1, 3]) 1 1,
    -- 3155: tmp34 += ints.tmp63 * -2
    .add 163 (.cp 39) (-2) 1,
    -- 3156: del ints.tmp63
    .del 39,
    -- 3157: tmp34 += v.aaaa.oovv * -1
    .add 163 (.cp 37) (-1) 1,
    -- 3158: tmp37 = np.copy(ints.tmp105)
    .set 164 (.cp 79) 1 1,
    -- 3159: del ints.tmp105
    .del 79,
    -- 3160: tmp37 += ints.tmp115
    .add 164 (.cp 80) 1 1,
    -- 3161: del ints.tmp115
    .del 80,
    -- 3162: tmp37 += ints.tmp117 * 2
    .add 164 (.cp 81) 2 1,
    -- 3163: del ints.tmp117
    .del 81,
    -- 3164: tmp37 += v.aabb.ovvv
    .add 164 (.cp 82) 1 1,
    -- 3165: tmp37 += ints.tmp101 * -1
    .add 164 (.cp 83) (-1) 1,
    -- 3166: del ints.tmp101
    .del 83,
    -- 3167: tmp37 += np.transpose(ints.tmp116, (0, 1, 3, 2)) * -1
    .add 164 (.tr 84 [0, 1, 3, 2]) (-1) 1,
    -- 3168: del ints.tmp116
    .del 84,
    -- 3169: tmp29 = np.copy(f.aa.oo)
    .set 165 (.cp 85) 1 1,
    -- 3170: tmp29 += ints.tmp89
    .add 165 (.cp 86) 1 1,
    -- 3171: del ints.tmp89
    .del 86,
    -- 3172: tmp29 += np.transpose(ints.tmp95, (1, 0)) * 2
    .add 165 (.tr 87 [1, 0]) 2 1,
    -- 3173: del ints.tmp95
    .del 87,
    -- 3174: tmp29 += np.transpose(ints.tmp97, (1, 0))
    .add 165 (.tr 88 [1, 0]) 1 1,
    -- 3175: del ints.tmp97
    .del 88,
    -- 3176: tmp22 = np.copy(tmp11) * 2
    .set 166 (.cp 134) 2 1,
    -- 3177: del tmp11
    .del 134,
    -- 3178: tmp22 += tmp13 * 2
    .add 166 (.cp 133) 2 1,
    -- 3179: del tmp13
    .del 133,
    -- 3180: tmp22 += np.transpose(tmp15, (0, 2, 1)) * -1
    .add 166 (.tr 135 [0, 2, 1]) (-1) 1,
    -- 3181: del tmp15
    .del 135,
    -- 3182: tmp22 += np.transpose(tmp17, (0, 2, 1))
    .add 166 (.tr 136 [0, 2, 1]) 1 1,
    -- 3183: del tmp17
    .del 136,
    -- 3184: tmp22 += np.transpose(tmp19, (0, 2, 1))
    .add 166 (.tr 137 [0, 2, 1]) 1 1,
    -- 3185: del tmp19
    .del 137,
    -- 3186: tmp22 += tmp21
    .add 166 (.cp 132) 1 1,
    -- 3187: del tmp21
    .del 132,
    -- 3188: tmp28 = np.copy(tmp23) * 2
    .set 167 (.cp 138) 2 1,
    -- 3189: del tmp23
    .del 138,
    -- 3190: tmp28 += tmp24 * 4
    .add 167 (.cp 141) 4 1,
    -- 3191: del tmp24
    .del 141,
    -- 3192: tmp28 += tmp25 * 2
    .add 167 (.cp 139) 2 1,
    -- 3193: del tmp25
    .del 139,
    -- 3194: tmp28 += tmp26
    .add 167 (.cp 142) 1 1,
    -- 3195: del tmp26
    .del 142,
    -- 3196: tmp28 += tmp27
    .add 167 (.cp 140) 1 1,
    -- 3197: del tmp27
    .del 140,
    -- 3198: tmp10 = einsum(v.aaaa.ovov, (0, 1, 2, 3), r2.aaa, (1, 3, 4), (4, 0, 2))
    .set 168 (.ein [(35, [0, 1, 2, 3]), (16, [1, 3, 4])] [4, 0, 2]) 1 1,
    -- 3199: tmp6 = np.copy(ints.tmp32)
    .set 169 (.cp 89) 1 1,
    -- 3200: del ints.tmp32
    .del 89,
    -- 3201: tmp6 += np.transpose(ints.tmp41, (1, 0)) * 2
    .add 169 (.tr 9 [1, 0]) 2 1,
    -- 3202: del ints.tmp41
    .del 9,
    -- 3203: tmp6 += np.transpose(ints.tmp43, (1, 0))
    .add 169 (.tr 10 [1, 0]) 1 1,
    -- 3204: del ints.tmp43
    .del 10,
    -- 3205: tmp6 += f.bb.vv * -1
    .add 169 (.cp 11) (-1) 1,
    -- 3206: tmp6 += np.transpose(ints.tmp31, (1, 0)) * -1
    .add 169 (.tr 90 [1, 0]) (-1) 1,
    -- 3207: del ints.tmp31
    .del 90,
    -- 3208: tmp6 += np.transpose(ints.tmp33, (1, 0)) * -1
    .add 169 (.tr 91 [1, 0]) (-1) 1,
    -- 3209: del ints.tmp33
    .del 91,
    -- 3210: tmp9 = np.copy(tmp7) * -1
    .set 170 (.cp 124) (-1) 1,
    -- 3211: del tmp7
    .del 124,
    -- 3212: tmp9 += tmp8 * 2
    .add 170 (.cp 126) 2 1,
    -- 3213: del tmp8
    .del 126,
    -- 3214: tmp9 += einsum(tmp0, (0, 1), r1.b, (1,), (0,))
    .add 170 (.ein [(143, [0, 1]), (25, [1])] [0]) 1 1,
    -- 3215: tmp5 = np.copy(tmp3) * 2
    .set 171 (.cp 130) 2 1,
    -- 3216: del tmp3
    .del 130,
    -- 3217: tmp5 += tmp4
    .add 171 (.cp 131) 1 1,
    -- 3218: del tmp4
    .del 131,
    -- 3219: tmp5 += einsum(tmp1, (0, 1), r1.a, (1,), (0,))
    .add 171 (.ein [(144, [0, 1]), (34, [1])] [0]) 1 1,
    -- 3220: tmp2 = np.copy(np.transpose(ints.tmp20, (1, 0))) * 2
    .set 172 (.tr 21 [1, 0]) 2 1,
    -- 3221: del ints.tmp20
    .del 21,
    -- 3222: tmp2 += np.transpose(ints.tmp22, (1, 0))
    .add 172 (.tr 22 [1, 0]) 1 1,
    -- 3223: del ints.tmp22
    .del 22,
    -- 3224: tmp2 += ints.tmp5
    .add 172 (.cp 92) 1 1,
    -- 3225: del ints.tmp5
    .del 92,
    -- 3226: tmp2 += f.aa.vv * -1
    .add 172 (.cp 23) (-1) 1,
    -- 3227: tmp2 += np.transpose(ints.tmp4, (1, 0)) * -1
    .add 172 (.tr 93 [1, 0]) (-1) 1,
    -- 3228: del ints.tmp4
    .del 93,
    -- 3229: tmp2 += np.transpose(ints.tmp6, (1, 0)) * -1
    .add 172 (.tr 94 [1, 0]) (-1) 1,
    -- 3230: del ints.tmp6
    .del 94,
    -- 3231: r2new.bbb = einsum(ints.tmp193, (0, 1, 2, 3), r1.b, (3,), (2, 1, 0)) * 2
    .set 173 (.ein [(95, [0, 1, 2, 3]), (25, [3])] [2, 1, 0]) 2 1,
    -- 3232: del ints.tmp193
    .del 95,
    -- 3233: r2new.bbb += einsum(r2.bbb, (0, 1, 2), v.bbbb.vvvv, (3, 0, 4, 1), (3, 4, 2)) * 2
    .add 173 (.ein [(8, [0, 1, 2]), (96, [3, 0, 4, 1])] [3, 4, 2]) 2 1,
    -- 3234: r2new.bbb += einsum(t2.bbbb, (0, 1, 2, 3), tmp51, (4, 1, 0), (2, 3, 4)) * -2
    .add 173 (.ein [(97, [0, 1, 2, 3]), (145, [4, 1, 0])] [2, 3, 4]) (-2) 1,
    -- 3235: del tmp51
    .del 145,
    -- 3236: r2new.bbb += np.transpose(tmp63, (1, 2, 0)) * -1
    .add 173 (.tr 149 [1, 2, 0]) (-1) 1,
    -- 3237: r2new.bbb += np.transpose(tmp63, (2, 1, 0))
    .add 173 (.tr 149 [2, 1, 0]) 1 1,
    -- 3238: del tmp63
    .del 149,
    -- 3239: r2new.bbb += np.transpose(tmp69, (1, 2, 0))
    .add 173 (.tr 147 [1, 2, 0]) 1 1,
    -- 3240: r2new.bbb += np.transpose(tmp69, (2, 1, 0)) * -1
    .add 173 (.tr 147 [2, 1, 0]) (-1) 1,
    -- 3241: del tmp69
    .del 147,
    -- 3242: r2new.bbb += einsum(r2.bbb, (0, 1, 2), tmp49, (2, 3), (0, 1, 3)) * -2
    .add 173 (.ein [(8, [0, 1, 2]), (148, [2, 3])] [0, 1, 3]) (-2) 1,
    -- 3243: r2new.bbb += einsum(t2.bbbb, (0, 1, 2, 3), tmp43, (1,), (2, 3, 0)) * 4
    .add 173 (.ein [(97, [0, 1, 2, 3]), (150, [1])] [2, 3, 0]) 4 1,
    -- 3244: r2new.bbb += einsum(r1.b, (0,), tmp50, (1, 2), (0, 2, 1)) * -1
    .add 173 (.ein [(25, [0]), (146, [1, 2])] [0, 2, 1]) (-1) 1,
    -- 3245: r2new.bbb += einsum(r1.b, (0,), tmp50, (1, 2), (2, 0, 1))
    .add 173 (.ein [(25, [0]), (146, [1, 2])] [2, 0, 1]) 1 1,
    -- 3246: r2new.bab = einsum(r2.bab, (0, 1, 2), v.aabb.vvvv, (3, 1, 4, 0), (4, 3, 2))
    .set 174 (.ein [(36, [0, 1, 2]), (98, [3, 1, 4, 0])] [4, 3, 2]) 1 1,
    -- 3247: r2new.bab += einsum(t2.abab, (0, 1, 2, 3), tmp44, (0, 4, 1), (3, 2, 4)) * -1
    .add 174 (.ein [(99, [0, 1, 2, 3]), (155, [0, 4, 1])] [3, 2, 4]) (-1) 1,
    -- 3248: del tmp44
    .del 155,
    -- 3249: r2new.bab += einsum(r2.bab, (0, 1, 2), tmp45, (3, 2, 4, 0), (4, 1, 3))
    .add 174 (.ein [(36, [0, 1, 2]), (157, [3, 2, 4, 0])] [4, 1, 3]) 1 1,
    -- 3250: del tmp45
    .del 157,
    -- 3251: r2new.bab += einsum(tmp46, (0, 1, 2, 3), r2.aaa, (4, 2, 0), (3, 4, 1)) * -2
    .add 174 (.ein [(152, [0, 1, 2, 3]), (16, [4, 2, 0])] [3, 4, 1]) (-2) 1,
    -- 3252: del tmp46
    .del 152,
    -- 3253: r2new.bab += einsum(tmp47, (0, 1, 2, 3), r2.bab, (4, 3, 1), (4, 2, 0))
    .add 174 (.ein [(156, [0, 1, 2, 3]), (36, [4, 3, 1])] [4, 2, 0]) 1 1,
    -- 3254: del tmp47
    .del 156,
    -- 3255: r2new.bab += einsum(r1.a, (0,), tmp48, (1, 2, 0, 3), (3, 2, 1)) * -1
    .add 174 (.ein [(34, [0]), (158, [1, 2, 0, 3])] [3, 2, 1]) (-1) 1,
    -- 3256: del tmp48
    .del 158,
    -- 3257: r2new.bab += einsum(tmp41, (0, 1), r2.bab, (0, 2, 3), (1, 2, 3)) * -1
    .add 174 (.ein [(153, [0, 1]), (36, [0, 2, 3])] [1, 2, 3]) (-1) 1,
    -- 3258: r2new.bab += einsum(r2.bab, (0, 1, 2), tmp39, (1, 3), (0, 3, 2)) * -1
    .add 174 (.ein [(36, [0, 1, 2]), (151, [1, 3])] [0, 3, 2]) (-1) 1,
    -- 3259: r2new.bab += einsum(tmp49, (0, 1), r2.bab, (2, 3, 0), (2, 3, 1)) * -1
    .add 174 (.ein [(148, [0, 1]), (36, [2, 3, 0])] [2, 3, 1]) (-1) 1,
    -- 3260: del tmp49
    .del 148,
    -- 3261: r2new.bab += einsum(t2.abab, (0, 1, 2, 3), tmp31, (0,), (3, 2, 1))
    .add 174 (.ein [(99, [0, 1, 2, 3]), (154, [0])] [3, 2, 1]) 1 1,
    -- 3262: r2new.bab += einsum(r1.a, (0,), tmp50, (1, 2), (2, 0, 1))
    .add 174 (.ein [(34, [0]), (146, [1, 2])] [2, 0, 1]) 1 1,
    -- 3263: del tmp50
    .del 146,
    -- 3264: r2new.aba = einsum(t2.abab, (0, 1, 2, 3), tmp33, (4, 0, 1), (2, 3, 4))
    .set 175 (.ein [(99, [0, 1, 2, 3]), (160, [4, 0, 1])] [2, 3, 4]) 1 1,
    -- 3265: del tmp33
    .del 160,
    -- 3266: r2new.aba += einsum(v.aabb.vvvv, (0, 1, 2, 3), r2.aba, (1, 3, 4), (0, 2, 4))
    .add 175 (.ein [(98, [0, 1, 2, 3]), (28, [1, 3, 4])] [0, 2, 4]) 1 1,
    -- 3267: r2new.aba += einsum(r2.aba, (0, 1, 2), tmp34, (3, 2, 4, 0), (4, 1, 3))
    .add 175 (.ein [(28, [0, 1, 2]), (163, [3, 2, 4, 0])] [4, 1, 3]) 1 1,
    -- 3268: del tmp34
    .del 163,
    -- 3269: r2new.aba += einsum(r2.bbb, (0, 1, 2), tmp35, (3, 2, 4, 1), (4, 0, 3)) * -2
    .add 175 (.ein [(8, [0, 1, 2]), (162, [3, 2, 4, 1])] [4, 0, 3]) (-2) 1,
    -- 3270: del tmp35
    .del 162,
    -- 3271: r2new.aba += einsum(tmp36, (0, 1, 2, 3), r2.aba, (4, 3, 1), (4, 2, 0))
    .add 175 (.ein [(159, [0, 1, 2, 3]), (28, [4, 3, 1])] [4, 2, 0]) 1 1,
    -- 3272: del tmp36
    .del 159,
    -- 3273: r2new.aba += einsum(r1.b, (0,), tmp37, (1, 2, 3, 0), (2, 3, 1)) * -1
    .add 175 (.ein [(25, [0]), (164, [1, 2, 3, 0])] [2, 3, 1]) (-1) 1,
    -- 3274: del tmp37
    .del 164,
    -- 3275: r2new.aba += einsum(tmp39, (0, 1), r2.aba, (0, 2, 3), (1, 2, 3)) * -1
    .add 175 (.ein [(151, [0, 1]), (28, [0, 2, 3])] [1, 2, 3]) (-1) 1,
    -- 3276: del tmp39
    .del 151,
    -- 3277: r2new.aba += einsum(tmp41, (0, 1), r2.aba, (2, 0, 3), (2, 1, 3)) * -1
    .add 175 (.ein [(153, [0, 1]), (28, [2, 0, 3])] [2, 1, 3]) (-1) 1,
    -- 3278: del tmp41
    .del 153,
    -- 3279: r2new.aba += einsum(tmp29, (0, 1), r2.aba, (2, 3, 0), (2, 3, 1)) * -1
    .add 175 (.ein [(165, [0, 1]), (28, [2, 3, 0])] [2, 3, 1]) (-1) 1,
    -- 3280: r2new.aba += einsum(t2.abab, (0, 1, 2, 3), tmp43, (1,), (2, 3, 0)) * 2
    .add 175 (.ein [(99, [0, 1, 2, 3]), (150, [1])] [2, 3, 0]) 2 1,
    -- 3281: del tmp43
    .del 150,
    -- 3282: r2new.aba += einsum(tmp32, (0, 1), r1.b, (2,), (1, 2, 0))
    .add 175 (.ein [(161, [0, 1]), (25, [2])] [1, 2, 0]) 1 1,
    -- 3283: r2new.aaa = einsum(tmp10, (0, 1, 2), t2.aaaa, (2, 1, 3, 4), (3, 4, 0)) * -2
    .set 176 (.ein [(168, [0, 1, 2]), (100, [2, 1, 3, 4])] [3, 4, 0]) (-2) 1,
    -- 3284: del tmp10
    .del 168,
    -- 3285: r2new.aaa += einsum(ints.tmp81, (0, 1, 2, 3), r1.a, (3,), (2, 1, 0)) * 2
    .add 176 (.ein [(101, [0, 1, 2, 3]), (34, [3])] [2, 1, 0]) 2 1,
    -- 3286: del ints.tmp81
    .del 101,
    -- 3287: r2new.aaa += einsum(r2.aaa, (0, 1, 2), v.aaaa.vvvv, (3, 1, 4, 0), (3, 4, 2)) * -2
    .add 176 (.ein [(16, [0, 1, 2]), (102, [3, 1, 4, 0])] [3, 4, 2]) (-2) 1,
    -- 3288: r2new.aaa += np.transpose(tmp22, (1, 2, 0)) * -1
    .add 176 (.tr 166 [1, 2, 0]) (-1) 1,
    -- 3289: r2new.aaa += np.transpose(tmp22, (2, 1, 0))
    .add 176 (.tr 166 [2, 1, 0]) 1 1,
    -- 3290: del tmp22
    .del 166,
    -- 3291: r2new.aaa += np.transpose(tmp28, (1, 2, 0))
    .add 176 (.tr 167 [1, 2, 0]) 1 1,
    -- 3292: r2new.aaa += np.transpose(tmp28, (2, 1, 0)) * -1
    .add 176 (.tr 167 [2, 1, 0]) (-1) 1,
    -- 3293: del tmp28
    .del 167,
    -- 3294: r2new.aaa += einsum(tmp29, (0, 1), r2.aaa, (2, 3, 0), (2, 3, 1)) * -2
    .add 176 (.ein [(165, [0, 1]), (16, [2, 3, 0])] [2, 3, 1]) (-2) 1,
    -- 3295: del tmp29
    .del 165,
    -- 3296: r2new.aaa += einsum(t2.aaaa, (0, 1, 2, 3), tmp31, (1,), (2, 3, 0)) * 2
    .add 176 (.ein [(100, [0, 1, 2, 3]), (154, [1])] [2, 3, 0]) 2 1,
    -- 3297: del tmp31
    .del 154,
    -- 3298: r2new.aaa += einsum(tmp32, (0, 1), r1.a, (2,), (2, 1, 0)) * -1
    .add 176 (.ein [(161, [0, 1]), (34, [2])] [2, 1, 0]) (-1) 1,
    -- 3299: r2new.aaa += einsum(tmp32, (0, 1), r1.a, (2,), (1, 2, 0))
    .add 176 (.ein [(161, [0, 1]), (34, [2])] [1, 2, 0]) 1 1,
    -- 3300: del tmp32
    .del 161,
    -- 3301: r1new.b = einsum(v.aabb.ovvv, (0, 1, 2, 3), r2.aba, (1, 3, 0), (2,)) * -1
    .set 177 (.ein [(82, [0, 1, 2, 3]), (28, [1, 3, 0])] [2]) (-1) 1,
    -- 3302: r1new.b += einsum(r2.bbb, (0, 1, 2), v.bbbb.ovvv, (2, 1, 3, 0), (3,)) * 2
    .add 177 (.ein [(8, [0, 1, 2]), (6, [2, 1, 3, 0])] [3]) 2 1,
    -- 3303: r1new.b += einsum(tmp1, (0, 1), r2.aba, (1, 2, 0), (2,)) * -1
    .add 177 (.ein [(144, [0, 1]), (28, [1, 2, 0])] [2]) (-1) 1,
    -- 3304: r1new.b += einsum(tmp0, (0, 1), r2.bbb, (2, 1, 0), (2,)) * 2
    .add 177 (.ein [(143, [0, 1]), (8, [2, 1, 0])] [2]) 2 1,
    -- 3305: r1new.b += einsum(tmp6, (0, 1), r1.b, (0,), (1,)) * -1
    .add 177 (.ein [(169, [0, 1]), (25, [0])] [1]) (-1) 1,
    -- 3306: del tmp6
    .del 169,
    -- 3307: r1new.b += einsum(tmp9, (0,), t1.bb, (0, 1), (1,)) * -1
    .add 177 (.ein [(170, [0]), (31, [0, 1])] [1]) (-1) 1,
    -- 3308: del tmp9
    .del 170,
    -- 3309: r1new.a = einsum(r2.bab, (0, 1, 2), v.aabb.vvov, (3, 1, 2, 0), (3,)) * -1
    .set 178 (.ein [(36, [0, 1, 2]), (65, [3, 1, 2, 0])] [3]) (-1) 1,
    -- 3310: r1new.a += einsum(v.aaaa.ovvv, (0, 1, 2, 3), r2.aaa, (3, 1, 0), (2,)) * 2
    .add 178 (.ein [(14, [0, 1, 2, 3]), (16, [3, 1, 0])] [2]) 2 1,
    -- 3311: r1new.a += einsum(tmp0, (0, 1), r2.bab, (1, 2, 0), (2,)) * -1
    .add 178 (.ein [(143, [0, 1]), (36, [1, 2, 0])] [2]) (-1) 1,
    -- 3312: del tmp0
    .del 143,
    -- 3313: r1new.a += einsum(tmp1, (0, 1), r2.aaa, (2, 1, 0), (2,)) * 2
    .add 178 (.ein [(144, [0, 1]), (16, [2, 1, 0])] [2]) 2 1,
    -- 3314: del tmp1
    .del 144,
    -- 3315: r1new.a += einsum(tmp2, (0, 1), r1.a, (0,), (1,)) * -1
    .add 178 (.ein [(172, [0, 1]), (34, [0])] [1]) (-1) 1,
    -- 3316: del tmp2
    .del 172,
    -- 3317: r1new.a += einsum(t1.aa, (0, 1), tmp5, (0,), (1,)) * -1
    .add 178 (.ein [(33, [0, 1]), (171, [0])] [1]) (-1) 1,
    -- 3318: del tmp5
    .del 171
  ]
  ret := [(chars! "r1new.b", 177), (chars! "r1new.a", 178), (chars! "r2new.bbb", 173), (chars! "r2new.bab", 174), (chars! "r2new.aba", 175), (chars! "r2new.aaa", 176)]

/-- codegen/UCC2.py:4356-4664 `hbar_lmatvec_ea_intermediates`. -/
def hbar_lmatvec_ea_intermediates : GenFun where
  args := [chars! "t1.aa", chars! "v.aabb.ovov", chars! "t1.bb", chars! "v.bbbb.ovov", chars! "v.aaaa.ovov", chars! "v.aabb.vvov", chars! "v.aabb.ovvv", chars! "v.bbbb.ovvv", chars! "v.aaaa.ovvv", chars! "v.aabb.ovoo", chars! "v.aabb.ooov", chars! "v.bbbb.ooov", chars! "v.aaaa.ooov", chars! "t2.abab", chars! "t2.bbbb", chars! "t2.aaaa", chars! "f.bb.ov", chars! "f.aa.ov", chars! "v.aabb.vvvv", chars! "v.bbbb.vvvv", chars! "v.aaaa.vvvv", chars! "v.bbbb.oovv", chars! "v.aaaa.oovv", chars! "f.bb.vv", chars! "f.aa.vv", chars! "f.bb.oo", chars! "f.aa.oo"]
  body := [
    -- 4507: tmp35 = einsum(t1.aa, (0, 1), v.aabb.ovov, (0, 1, 2, 3), (2, 3))
    .set 27 (.ein [(0, [0, 1]), (1, [0, 1, 2, 3])] [2, 3]) 1 1,
    -- 4508: tmp36 = einsum(v.aabb.ovov, (0, 1, 2, 3), t1.bb, (2, 3), (0, 1))
    .set 28 (.ein [(1, [0, 1, 2, 3]), (2, [2, 3])] [0, 1]) 1 1,
    -- 4509: tmp33 = einsum(t1.bb, (0, 1), v.bbbb.ovov, (2, 3, 0, 1), (2, 3))
    .set 29 (.ein [(2, [0, 1]), (3, [2, 3, 0, 1])] [2, 3]) 1 1,
    -- 4510: tmp89 = einsum(t1.bb, (0, 1), v.bbbb.ovov, (2, 1, 0, 3), (2, 3))
    .set 30 (.ein [(2, [0, 1]), (3, [2, 1, 0, 3])] [2, 3]) 1 1,
    -- 4511: tmp29 = einsum(v.aaaa.ovov, (0, 1, 2, 3), t1.aa, (2, 3), (0, 1))
    .set 31 (.ein [(4, [0, 1, 2, 3]), (0, [2, 3])] [0, 1]) 1 1,
    -- 4512: tmp82 = einsum(v.aaaa.ovov, (0, 1, 2, 3), t1.aa, (2, 1), (0, 3))
    .set 32 (.ein [(4, [0, 1, 2, 3]), (0, [2, 1])] [0, 3]) 1 1,
    -- 4513: tmp117 = einsum(t1.aa, (0, 1), v.aabb.ovov, (2, 1, 3, 4), (0, 2, 3, 4))
    .set 33 (.ein [(0, [0, 1]), (1, [2, 1, 3, 4])] [0, 2, 3, 4]) 1 1,
    -- 4514: tmp114 = einsum(v.bbbb.ovov, (0, 1, 2, 3), t1.bb, (4, 3), (4, 0, 2, 1))
    .set 34 (.ein [(3, [0, 1, 2, 3]), (2, [4, 3])] [4, 0, 2, 1]) 1 1,
    -- 4515: tmp200 = einsum(tmp35, (0, 1), t1.bb, (2, 1), (2, 0))
    .set 35 (.ein [(27, [0, 1]), (2, [2, 1])] [2, 0]) 1 1,
    -- 4516: tmp197 = einsum(t1.aa, (0, 1), tmp36, (2, 1), (0, 2))
    .set 36 (.ein [(0, [0, 1]), (28, [2, 1])] [0, 2]) 1 1,
    -- 4517: tmp195 = einsum(tmp33, (0, 1), t1.bb, (2, 1), (2, 0))
    .set 37 (.ein [(29, [0, 1]), (2, [2, 1])] [2, 0]) 1 1,
    -- 4518: tmp193 = einsum(tmp89, (0, 1), t1.bb, (2, 1), (2, 0))
    .set 38 (.ein [(30, [0, 1]), (2, [2, 1])] [2, 0]) 1 1,
    -- 4519: tmp190 = einsum(t1.aa, (0, 1), tmp29, (2, 1), (0, 2))
    .set 39 (.ein [(0, [0, 1]), (31, [2, 1])] [0, 2]) 1 1,
    -- 4520: tmp187 = einsum(t1.aa, (0, 1), tmp82, (2, 1), (0, 2))
    .set 40 (.ein [(0, [0, 1]), (32, [2, 1])] [0, 2]) 1 1,
    -- 4521: tmp28 = einsum(v.aabb.vvov, (0, 1, 2, 3), t1.bb, (2, 3), (0, 1))
    .set 41 (.ein [(5, [0, 1, 2, 3]), (2, [2, 3])] [0, 1]) 1 1,
    -- 4522: tmp177 = einsum(t1.aa, (0, 1), v.aabb.ovvv, (0, 1, 2, 3), (2, 3))
    .set 42 (.ein [(0, [0, 1]), (6, [0, 1, 2, 3])] [2, 3]) 1 1,
    -- 4523: tmp175 = einsum(v.bbbb.ovvv, (0, 1, 2, 3), t1.bb, (0, 3), (1, 2))
    .set 43 (.ein [(7, [0, 1, 2, 3]), (2, [0, 3])] [1, 2]) 1 1,
    -- 4524: tmp173 = einsum(v.bbbb.ovvv, (0, 1, 2, 3), t1.bb, (0, 1), (2, 3))
    .set 44 (.ein [(7, [0, 1, 2, 3]), (2, [0, 1])] [2, 3]) 1 1,
    -- 4525: tmp27 = einsum(v.aaaa.ovvv, (0, 1, 2, 3), t1.aa, (0, 3), (1, 2))
    .set 45 (.ein [(8, [0, 1, 2, 3]), (0, [0, 3])] [1, 2]) 1 1,
    -- 4526: tmp26 = einsum(v.aaaa.ovvv, (0, 1, 2, 3), t1.aa, (0, 1), (2, 3))
    .set 46 (.ein [(8, [0, 1, 2, 3]), (0, [0, 1])] [2, 3]) 1 1,
    -- 4527: tmp163 = einsum(t1.aa, (0, 1), v.aabb.ovoo, (0, 1, 2, 3), (2, 3))
    .set 47 (.ein [(0, [0, 1]), (9, [0, 1, 2, 3])] [2, 3]) 1 1,
    -- 4528: tmp160 = einsum(v.aabb.ooov, (0, 1, 2, 3), t1.bb, (2, 3), (0, 1))
    .set 48 (.ein [(10, [0, 1, 2, 3]), (2, [2, 3])] [0, 1]) 1 1,
    -- 4529: tmp158 = einsum(v.bbbb.ooov, (0, 1, 2, 3), t1.bb, (2, 3), (0, 1))
    .set 49 (.ein [(11, [0, 1, 2, 3]), (2, [2, 3])] [0, 1]) 1 1,
    -- 4530: tmp156 = einsum(v.bbbb.ooov, (0, 1, 2, 3), t1.bb, (1, 3), (0, 2))
    .set 50 (.ein [(11, [0, 1, 2, 3]), (2, [1, 3])] [0, 2]) 1 1,
    -- 4531: tmp153 = einsum(t1.aa, (0, 1), v.aaaa.ooov, (2, 3, 0, 1), (2, 3))
    .set 51 (.ein [(0, [0, 1]), (12, [2, 3, 0, 1])] [2, 3]) 1 1,
    -- 4532: tmp150 = einsum(t1.aa, (0, 1), v.aaaa.ooov, (2, 0, 3, 1), (2, 3))
    .set 52 (.ein [(0, [0, 1]), (12, [2, 0, 3, 1])] [2, 3]) 1 1,
    -- 4533: tmp136 = einsum(t2.abab, (0, 1, 2, 3), v.aabb.ovov, (4, 2, 1, 3), (0, 4))
    .set 53 (.ein [(13, [0, 1, 2, 3]), (1, [4, 2, 1, 3])] [0, 4]) 1 1,
    -- 4534: tmp133 = einsum(t2.abab, (0, 1, 2, 3), v.aabb.ovov, (0, 2, 4, 3), (1, 4))
    .set 54 (.ein [(13, [0, 1, 2, 3]), (1, [0, 2, 4, 3])] [1, 4]) 1 1,
    -- 4535: tmp130 = einsum(t2.bbbb, (0, 1, 2, 3), v.bbbb.ovov, (4, 3, 1, 2), (0, 4)) * -1
    .set 55 (.ein [(14, [0, 1, 2, 3]), (3, [4, 3, 1, 2])] [0, 4]) (-1) 1,
    -- 4536: tmp127 = einsum(v.aaaa.ovov, (0, 1, 2, 3), t2.aaaa, (4, 2, 1, 3), (4, 0))
    .set 56 (.ein [(4, [0, 1, 2, 3]), (15, [4, 2, 1, 3])] [4, 0]) 1 1,
    -- 4537: tmp120 = einsum(v.aabb.ovov, (0, 1, 2, 3), t1.bb, (4, 3), (0, 4, 2, 1))
    .set 57 (.ein [(1, [0, 1, 2, 3]), (2, [4, 3])] [0, 4, 2, 1]) 1 1,
    -- 4538: tmp111 = einsum(v.aaaa.ovov, (0, 1, 2, 3), t1.aa, (4, 3), (4, 0, 2, 1))
    .set 58 (.ein [(4, [0, 1, 2, 3]), (0, [4, 3])] [4, 0, 2, 1]) 1 1,
    -- 4539: tmp22 = einsum(t1.bb, (0, 1), f.bb.ov, (2, 1), (2, 0))
    .set 59 (.ein [(2, [0, 1]), (16, [2, 1])] [2, 0]) 1 1,
    -- 4540: tmp19 = einsum(t1.aa, (0, 1), f.aa.ov, (2, 1), (2, 0))
    .set 60 (.ein [(0, [0, 1]), (17, [2, 1])] [2, 0]) 1 1,
    -- 4541: tmp310 = einsum(t1.aa, (0, 1), v.aabb.vvov, (2, 1, 3, 4), (0, 3, 2, 4))
    .set 61 (.ein [(0, [0, 1]), (5, [2, 1, 3, 4])] [0, 3, 2, 4]) 1 1,
    -- 4542: tmp309 = einsum(t1.aa, (0, 1), v.aabb.ovvv, (2, 1, 3, 4), (0, 2, 3, 4))
    .set 62 (.ein [(0, [0, 1]), (6, [2, 1, 3, 4])] [0, 2, 3, 4]) 1 1,
    -- 4543: tmp307 = einsum(v.bbbb.ovvv, (0, 1, 2, 3), t1.bb, (4, 3), (4, 0, 1, 2))
    .set 63 (.ein [(7, [0, 1, 2, 3]), (2, [4, 3])] [4, 0, 1, 2]) 1 1,
    -- 4544: tmp305 = einsum(v.bbbb.ovvv, (0, 1, 2, 3), t1.bb, (4, 1), (4, 0, 2, 3))
    .set 64 (.ein [(7, [0, 1, 2, 3]), (2, [4, 1])] [4, 0, 2, 3]) 1 1,
    -- 4545: tmp294 = einsum(t2.abab, (0, 1, 2, 3), v.aabb.ovov, (4, 2, 1, 5), (0, 4, 3, 5))
    .set 65 (.ein [(13, [0, 1, 2, 3]), (1, [4, 2, 1, 5])] [0, 4, 3, 5]) 1 1,
    -- 4546: tmp292 = einsum(t2.abab, (0, 1, 2, 3), v.aabb.ovov, (0, 2, 4, 5), (1, 4, 3, 5))
    .set 66 (.ein [(13, [0, 1, 2, 3]), (1, [0, 2, 4, 5])] [1, 4, 3, 5]) 1 1,
    -- 4547: tmp290 = einsum(v.aabb.ovov, (0, 1, 2, 3), t2.aaaa, (4, 0, 5, 1), (4, 2, 5, 3))
    .set 67 (.ein [(1, [0, 1, 2, 3]), (15, [4, 0, 5, 1])] [4, 2, 5, 3]) 1 1,
    -- 4548: tmp288 = einsum(v.bbbb.ovov, (0, 1, 2, 3), t2.bbbb, (4, 2, 5, 1), (4, 0, 5, 3))
    .set 68 (.ein [(3, [0, 1, 2, 3]), (14, [4, 2, 5, 1])] [4, 0, 5, 3]) 1 1,
    -- 4549: tmp287 = einsum(v.bbbb.ovov, (0, 1, 2, 3), t2.abab, (4, 2, 5, 1), (4, 0, 5, 3))
    .set 69 (.ein [(3, [0, 1, 2, 3]), (13, [4, 2, 5, 1])] [4, 0, 5, 3]) 1 1,
    -- 4550: tmp285 = einsum(v.bbbb.ovov, (0, 1, 2, 3), t2.bbbb, (4, 2, 5, 3), (4, 0, 5, 1))
    .set 70 (.ein [(3, [0, 1, 2, 3]), (14, [4, 2, 5, 3])] [4, 0, 5, 1]) 1 1,
    -- 4551: tmp284 = einsum(v.bbbb.ovov, (0, 1, 2, 3), t2.abab, (4, 2, 5, 3), (4, 0, 5, 1))
    .set 71 (.ein [(3, [0, 1, 2, 3]), (13, [4, 2, 5, 3])] [4, 0, 5, 1]) 1 1,
    -- 4552: tmp278 = einsum(t2.abab, (0, 1, 2, 3), tmp117, (4, 0, 1, 5), (4, 2, 3, 5))
    .set 72 (.ein [(13, [0, 1, 2, 3]), (33, [4, 0, 1, 5])] [4, 2, 3, 5]) 1 1,
    -- 4553: tmp276 = einsum(t2.bbbb, (0, 1, 2, 3), tmp114, (4, 0, 1, 5), (4, 2, 3, 5))
    .set 73 (.ein [(14, [0, 1, 2, 3]), (34, [4, 0, 1, 5])] [4, 2, 3, 5]) 1 1,
    -- 4554: tmp256 = einsum(t2.abab, (0, 1, 2, 3), v.aabb.vvov, (4, 2, 1, 5), (0, 4, 3, 5))
    .set 74 (.ein [(13, [0, 1, 2, 3]), (5, [4, 2, 1, 5])] [0, 4, 3, 5]) 1 1,
    -- 4555: tmp254 = einsum(t2.abab, (0, 1, 2, 3), v.aabb.ovvv, (0, 2, 4, 5), (1, 3, 4, 5))
    .set 75 (.ein [(13, [0, 1, 2, 3]), (6, [0, 2, 4, 5])] [1, 3, 4, 5]) 1 1,
    -- 4556: tmp252 = einsum(v.aabb.ovvv, (0, 1, 2, 3), t2.aaaa, (4, 0, 5, 1), (4, 5, 2, 3))
    .set 76 (.ein [(6, [0, 1, 2, 3]), (15, [4, 0, 5, 1])] [4, 5, 2, 3]) 1 1,
    -- 4557: tmp250 = einsum(t2.bbbb, (0, 1, 2, 3), v.bbbb.ovvv, (1, 4, 5, 3), (0, 2, 4, 5))
    .set 77 (.ein [(14, [0, 1, 2, 3]), (7, [1, 4, 5, 3])] [0, 2, 4, 5]) 1 1,
    -- 4558: tmp249 = einsum(v.bbbb.ovvv, (0, 1, 2, 3), t2.abab, (4, 0, 5, 3), (4, 5, 1, 2))
    .set 78 (.ein [(7, [0, 1, 2, 3]), (13, [4, 0, 5, 3])] [4, 5, 1, 2]) 1 1,
    -- 4559: tmp247 = einsum(t2.bbbb, (0, 1, 2, 3), v.bbbb.ovvv, (1, 3, 4, 5), (0, 2, 4, 5))
    .set 79 (.ein [(14, [0, 1, 2, 3]), (7, [1, 3, 4, 5])] [0, 2, 4, 5]) 1 1,
    -- 4560: tmp246 = einsum(v.bbbb.ovvv, (0, 1, 2, 3), t2.abab, (4, 0, 5, 1), (4, 5, 2, 3))
    .set 80 (.ein [(7, [0, 1, 2, 3]), (13, [4, 0, 5, 1])] [4, 5, 2, 3]) 1 1,
    -- 4561: tmp240 = einsum(t2.abab, (0, 1, 2, 3), v.aabb.ooov, (4, 0, 1, 5), (4, 2, 3, 5))
    .set 81 (.ein [(13, [0, 1, 2, 3]), (10, [4, 0, 1, 5])] [4, 2, 3, 5]) 1 1,
    -- 4562: tmp238 = einsum(t2.bbbb, (0, 1, 2, 3), v.bbbb.ooov, (4, 0, 1, 5), (4, 2, 3, 5))
    .set 82 (.ein [(14, [0, 1, 2, 3]), (11, [4, 0, 1, 5])] [4, 2, 3, 5]) 1 1,
    -- 4563: tmp232 = einsum(t2.abab, (0, 1, 2, 3), v.aabb.ovov, (0, 2, 1, 4), (3, 4))
    .set 83 (.ein [(13, [0, 1, 2, 3]), (1, [0, 2, 1, 4])] [3, 4]) 1 1,
    -- 4564: tmp230 = einsum(v.bbbb.ovov, (0, 1, 2, 3), t2.bbbb, (0, 2, 4, 3), (4, 1))
    .set 84 (.ein [(3, [0, 1, 2, 3]), (14, [0, 2, 4, 3])] [4, 1]) 1 1,
    -- 4565: tmp228 = einsum(v.aabb.vvvv, (0, 1, 2, 3), t1.aa, (4, 1), (4, 0, 2, 3))
    .set 85 (.ein [(18, [0, 1, 2, 3]), (0, [4, 1])] [4, 0, 2, 3]) 1 1,
    -- 4566: tmp226 = einsum(t1.bb, (0, 1), v.bbbb.vvvv, (2, 3, 4, 1), (0, 2, 3, 4))
    .set 86 (.ein [(2, [0, 1]), (19, [2, 3, 4, 1])] [0, 2, 3, 4]) 1 1,
    -- 4567: tmp201 = einsum(tmp200, (0, 1), t1.bb, (1, 2), (0, 2))
    .set 87 (.ein [(35, [0, 1]), (2, [1, 2])] [0, 2]) 1 1,
    -- 4568: del tmp200
    .del 35,
    -- 4569: tmp198 = einsum(t1.aa, (0, 1), tmp197, (2, 0), (2, 1))
    .set 88 (.ein [(0, [0, 1]), (36, [2, 0])] [2, 1]) 1 1,
    -- 4570: del tmp197
    .del 36,
    -- 4571: tmp196 = einsum(tmp195, (0, 1), t1.bb, (1, 2), (0, 2))
    .set 89 (.ein [(37, [0, 1]), (2, [1, 2])] [0, 2]) 1 1,
    -- 4572: del tmp195
    .del 37,
    -- 4573: tmp194 = einsum(tmp193, (0, 1), t1.bb, (1, 2), (0, 2))
    .set 90 (.ein [(38, [0, 1]), (2, [1, 2])] [0, 2]) 1 1,
    -- 4574: del tmp193
    .del 38,
    -- 4575: tmp191 = einsum(t1.aa, (0, 1), tmp190, (2, 0), (2, 1))
    .set 91 (.ein [(0, [0, 1]), (39, [2, 0])] [2, 1]) 1 1,
    -- 4576: del tmp190
    .del 39,
    -- 4577: tmp188 = einsum(t1.aa, (0, 1), tmp187, (2, 0), (2, 1))
    .set 92 (.ein [(0, [0, 1]), (40, [2, 0])] [2, 1]) 1 1,
    -- 4578: del tmp187
    .del 40,
    -- 4579: tmp186 = einsum(v.aabb.ovvv, (0, 1, 2, 3), t1.bb, (4, 3), (0, 4, 1, 2))
    .set 93 (.ein [(6, [0, 1, 2, 3]), (2, [4, 3])] [0, 4, 1, 2]) 1 1,
    -- 4580: tmp185 = einsum(v.aabb.vvov, (0, 1, 2, 3), t1.bb, (4, 3), (4, 2, 0, 1))
    .set 94 (.ein [(5, [0, 1, 2, 3]), (2, [4, 3])] [4, 2, 0, 1]) 1 1,
    -- 4581: tmp183 = einsum(v.aaaa.ovvv, (0, 1, 2, 3), t1.aa, (4, 3), (4, 0, 1, 2))
    .set 95 (.ein [(8, [0, 1, 2, 3]), (0, [4, 3])] [4, 0, 1, 2]) 1 1,
    -- 4582: tmp181 = einsum(v.aaaa.ovvv, (0, 1, 2, 3), t1.aa, (4, 1), (4, 0, 2, 3))
    .set 96 (.ein [(8, [0, 1, 2, 3]), (0, [4, 1])] [4, 0, 2, 3]) 1 1,
    -- 4583: tmp179 = einsum(t1.aa, (0, 1), tmp28, (2, 1), (0, 2))
    .set 97 (.ein [(0, [0, 1]), (41, [2, 1])] [0, 2]) 1 1,
    -- 4584: tmp178 = einsum(tmp177, (0, 1), t1.bb, (2, 1), (2, 0))
    .set 98 (.ein [(42, [0, 1]), (2, [2, 1])] [2, 0]) 1 1,
    -- 4585: tmp176 = einsum(tmp175, (0, 1), t1.bb, (2, 0), (2, 1))
    .set 99 (.ein [(43, [0, 1]), (2, [2, 0])] [2, 1]) 1 1,
    -- 4586: tmp174 = einsum(tmp173, (0, 1), t1.bb, (2, 1), (2, 0))
    .set 100 (.ein [(44, [0, 1]), (2, [2, 1])] [2, 0]) 1 1,
    -- 4587: tmp171 = einsum(t1.aa, (0, 1), tmp27, (1, 2), (0, 2))
    .set 101 (.ein [(0, [0, 1]), (45, [1, 2])] [0, 2]) 1 1,
    -- 4588: tmp169 = einsum(tmp26, (0, 1), t1.aa, (2, 1), (2, 0))
    .set 102 (.ein [(46, [0, 1]), (0, [2, 1])] [2, 0]) 1 1,
    -- 4589: tmp164 = einsum(tmp163, (0, 1), t1.bb, (1, 2), (0, 2))
    .set 103 (.ein [(47, [0, 1]), (2, [1, 2])] [0, 2]) 1 1,
    -- 4590: del tmp163
    .del 47,
    -- 4591: tmp161 = einsum(t1.aa, (0, 1), tmp160, (2, 0), (2, 1))
    .set 104 (.ein [(0, [0, 1]), (48, [2, 0])] [2, 1]) 1 1,
    -- 4592: del tmp160
    .del 48,
    -- 4593: tmp159 = einsum(tmp158, (0, 1), t1.bb, (1, 2), (0, 2))
    .set 105 (.ein [(49, [0, 1]), (2, [1, 2])] [0, 2]) 1 1,
    -- 4594: del tmp158
    .del 49,
    -- 4595: tmp157 = einsum(tmp156, (0, 1), t1.bb, (1, 2), (0, 2))
    .set 106 (.ein [(50, [0, 1]), (2, [1, 2])] [0, 2]) 1 1,
    -- 4596: del tmp156
    .del 50,
    -- 4597: tmp154 = einsum(t1.aa, (0, 1), tmp153, (2, 0), (2, 1))
    .set 107 (.ein [(0, [0, 1]), (51, [2, 0])] [2, 1]) 1 1,
    -- 4598: del tmp153
    .del 51,
    -- 4599: tmp151 = einsum(t1.aa, (0, 1), tmp150, (2, 0), (2, 1))
    .set 108 (.ein [(0, [0, 1]), (52, [2, 0])] [2, 1]) 1 1,
    -- 4600: del tmp150
    .del 52,
    -- 4601: tmp149 = einsum(t2.abab, (0, 1, 2, 3), v.aabb.ovov, (0, 4, 5, 3), (1, 5, 2, 4))
    .set 109 (.ein [(13, [0, 1, 2, 3]), (1, [0, 4, 5, 3])] [1, 5, 2, 4]) 1 1,
    -- 4602: tmp147 = einsum(t2.bbbb, (0, 1, 2, 3), v.aabb.ovov, (4, 5, 1, 3), (4, 0, 5, 2))
    .set 110 (.ein [(14, [0, 1, 2, 3]), (1, [4, 5, 1, 3])] [4, 0, 5, 2]) 1 1,
    -- 4603: tmp145 = einsum(t2.abab, (0, 1, 2, 3), v.aabb.ovov, (4, 5, 1, 3), (0, 4, 2, 5))
    .set 111 (.ein [(13, [0, 1, 2, 3]), (1, [4, 5, 1, 3])] [0, 4, 2, 5]) 1 1,
    -- 4604: tmp144 = einsum(v.aaaa.ovov, (0, 1, 2, 3), t2.abab, (2, 4, 1, 5), (0, 4, 3, 5))
    .set 112 (.ein [(4, [0, 1, 2, 3]), (13, [2, 4, 1, 5])] [0, 4, 3, 5]) 1 1,
    -- 4605: tmp142 = einsum(t2.aaaa, (0, 1, 2, 3), v.aaaa.ovov, (4, 3, 1, 5), (0, 4, 2, 5))
    .set 113 (.ein [(15, [0, 1, 2, 3]), (4, [4, 3, 1, 5])] [0, 4, 2, 5]) 1 1,
    -- 4606: tmp141 = einsum(v.aaaa.ovov, (0, 1, 2, 3), t2.abab, (2, 4, 3, 5), (0, 4, 1, 5))
    .set 114 (.ein [(4, [0, 1, 2, 3]), (13, [2, 4, 3, 5])] [0, 4, 1, 5]) 1 1,
    -- 4607: tmp139 = einsum(t2.aaaa, (0, 1, 2, 3), v.aaaa.ovov, (4, 5, 1, 3), (0, 4, 2, 5))
    .set 115 (.ein [(15, [0, 1, 2, 3]), (4, [4, 5, 1, 3])] [0, 4, 2, 5]) 1 1,
    -- 4608: tmp137 = einsum(tmp136, (0, 1), t1.aa, (1, 2), (0, 2))
    .set 116 (.ein [(53, [0, 1]), (0, [1, 2])] [0, 2]) 1 1,
    -- 4609: tmp134 = einsum(tmp133, (0, 1), t1.bb, (1, 2), (0, 2))
    .set 117 (.ein [(54, [0, 1]), (2, [1, 2])] [0, 2]) 1 1,
    -- 4610: tmp131 = einsum(tmp130, (0, 1), t1.bb, (1, 2), (0, 2))
    .set 118 (.ein [(55, [0, 1]), (2, [1, 2])] [0, 2]) 1 1,
    -- 4611: tmp128 = einsum(t1.aa, (0, 1), tmp127, (2, 0), (2, 1))
    .set 119 (.ein [(0, [0, 1]), (56, [2, 0])] [2, 1]) 1 1,
    -- 4612: tmp125 = einsum(tmp120, (0, 1, 2, 3), t2.abab, (0, 2, 4, 5), (1, 4, 3, 5))
    .set 120 (.ein [(57, [0, 1, 2, 3]), (13, [0, 2, 4, 5])] [1, 4, 3, 5]) 1 1,
    -- 4613: tmp123 = einsum(tmp111, (0, 1, 2, 3), t2.aaaa, (1, 2, 4, 5), (0, 4, 5, 3))
    .set 121 (.ein [(58, [0, 1, 2, 3]), (15, [1, 2, 4, 5])] [0, 4, 5, 3]) 1 1,
    -- 4614: tmp121 = einsum(tmp120, (0, 1, 2, 3), t2.abab, (0, 2, 3, 4), (1, 4))
    .set 122 (.ein [(57, [0, 1, 2, 3]), (13, [0, 2, 3, 4])] [1, 4]) 1 1,
    -- 4615: tmp118 = einsum(t2.abab, (0, 1, 2, 3), tmp117, (4, 0, 1, 3), (4, 2))
    .set 123 (.ein [(13, [0, 1, 2, 3]), (33, [4, 0, 1, 3])] [4, 2]) 1 1,
    -- 4616: tmp115 = einsum(t2.bbbb, (0, 1, 2, 3), tmp114, (4, 1, 0, 3), (4, 2))
    .set 124 (.ein [(14, [0, 1, 2, 3]), (34, [4, 1, 0, 3])] [4, 2]) 1 1,
    -- 4617: tmp112 = einsum(tmp111, (0, 1, 2, 3), t2.aaaa, (2, 1, 4, 3), (0, 4))
    .set 125 (.ein [(58, [0, 1, 2, 3]), (15, [2, 1, 4, 3])] [0, 4]) 1 1,
    -- 4618: tmp103 = einsum(t2.bbbb, (0, 1, 2, 3), tmp35, (1, 3), (0, 2))
    .set 126 (.ein [(14, [0, 1, 2, 3]), (27, [1, 3])] [0, 2]) 1 1,
    -- 4619: tmp101 = einsum(t2.abab, (0, 1, 2, 3), tmp35, (1, 3), (0, 2))
    .set 127 (.ein [(13, [0, 1, 2, 3]), (27, [1, 3])] [0, 2]) 1 1,
    -- 4620: tmp100 = einsum(t2.abab, (0, 1, 2, 3), tmp36, (0, 2), (1, 3))
    .set 128 (.ein [(13, [0, 1, 2, 3]), (28, [0, 2])] [1, 3]) 1 1,
    -- 4621: tmp98 = einsum(tmp36, (0, 1), t2.aaaa, (2, 0, 3, 1), (2, 3))
    .set 129 (.ein [(28, [0, 1]), (15, [2, 0, 3, 1])] [2, 3]) 1 1,
    -- 4622: tmp96 = einsum(t2.bbbb, (0, 1, 2, 3), tmp33, (1, 3), (0, 2))
    .set 130 (.ein [(14, [0, 1, 2, 3]), (29, [1, 3])] [0, 2]) 1 1,
    -- 4623: tmp94 = einsum(t2.abab, (0, 1, 2, 3), tmp33, (1, 3), (0, 2))
    .set 131 (.ein [(13, [0, 1, 2, 3]), (29, [1, 3])] [0, 2]) 1 1,
    -- 4624: tmp92 = einsum(tmp89, (0, 1), t2.bbbb, (2, 0, 3, 1), (2, 3))
    .set 132 (.ein [(30, [0, 1]), (14, [2, 0, 3, 1])] [2, 3]) 1 1,
    -- 4625: tmp90 = einsum(t2.abab, (0, 1, 2, 3), tmp89, (1, 3), (0, 2))
    .set 133 (.ein [(13, [0, 1, 2, 3]), (30, [1, 3])] [0, 2]) 1 1,
    -- 4626: tmp88 = einsum(t2.abab, (0, 1, 2, 3), tmp29, (0, 2), (1, 3))
    .set 134 (.ein [(13, [0, 1, 2, 3]), (31, [0, 2])] [1, 3]) 1 1,
    -- 4627: tmp86 = einsum(tmp29, (0, 1), t2.aaaa, (2, 0, 3, 1), (2, 3))
    .set 135 (.ein [(31, [0, 1]), (15, [2, 0, 3, 1])] [2, 3]) 1 1,
    -- 4628: tmp85 = einsum(t2.abab, (0, 1, 2, 3), tmp82, (0, 2), (1, 3))
    .set 136 (.ein [(13, [0, 1, 2, 3]), (32, [0, 2])] [1, 3]) 1 1,
    -- 4629: tmp83 = einsum(tmp82, (0, 1), t2.aaaa, (2, 0, 3, 1), (2, 3))
    .set 137 (.ein [(32, [0, 1]), (15, [2, 0, 3, 1])] [2, 3]) 1 1,
    -- 4630: tmp81 = einsum(t2.abab, (0, 1, 2, 3), v.aabb.ovvv, (0, 4, 5, 3), (1, 2, 4, 5))
    .set 138 (.ein [(13, [0, 1, 2, 3]), (6, [0, 4, 5, 3])] [1, 2, 4, 5]) 1 1,
    -- 4631: tmp79 = einsum(v.aabb.vvov, (0, 1, 2, 3), t2.bbbb, (4, 2, 5, 3), (4, 0, 1, 5))
    .set 139 (.ein [(5, [0, 1, 2, 3]), (14, [4, 2, 5, 3])] [4, 0, 1, 5]) 1 1,
    -- 4632: tmp77 = einsum(t2.abab, (0, 1, 2, 3), v.aabb.vvov, (4, 5, 1, 3), (0, 2, 4, 5))
    .set 140 (.ein [(13, [0, 1, 2, 3]), (5, [4, 5, 1, 3])] [0, 2, 4, 5]) 1 1,
    -- 4633: tmp76 = einsum(v.aaaa.ovvv, (0, 1, 2, 3), t2.abab, (0, 4, 3, 5), (4, 1, 2, 5))
    .set 141 (.ein [(8, [0, 1, 2, 3]), (13, [0, 4, 3, 5])] [4, 1, 2, 5]) 1 1,
    -- 4634: tmp74 = einsum(v.aaaa.ovvv, (0, 1, 2, 3), t2.aaaa, (4, 0, 5, 3), (4, 5, 1, 2))
    .set 142 (.ein [(8, [0, 1, 2, 3]), (15, [4, 0, 5, 3])] [4, 5, 1, 2]) 1 1,
    -- 4635: tmp73 = einsum(t2.abab, (0, 1, 2, 3), v.aaaa.ovvv, (0, 2, 4, 5), (1, 4, 5, 3))
    .set 143 (.ein [(13, [0, 1, 2, 3]), (8, [0, 2, 4, 5])] [1, 4, 5, 3]) 1 1,
    -- 4636: tmp71 = einsum(v.aaaa.ovvv, (0, 1, 2, 3), t2.aaaa, (4, 0, 5, 1), (4, 5, 2, 3))
    .set 144 (.ein [(8, [0, 1, 2, 3]), (15, [4, 0, 5, 1])] [4, 5, 2, 3]) 1 1,
    -- 4637: tmp69 = einsum(t2.abab, (0, 1, 2, 3), v.aabb.vvov, (4, 2, 1, 3), (0, 4))
    .set 145 (.ein [(13, [0, 1, 2, 3]), (5, [4, 2, 1, 3])] [0, 4]) 1 1,
    -- 4638: tmp67 = einsum(t2.abab, (0, 1, 2, 3), v.aabb.ovvv, (0, 2, 4, 3), (1, 4))
    .set 146 (.ein [(13, [0, 1, 2, 3]), (6, [0, 2, 4, 3])] [1, 4]) 1 1,
    -- 4639: tmp65 = einsum(v.bbbb.ovvv, (0, 1, 2, 3), t2.bbbb, (4, 0, 3, 1), (4, 2)) * -1
    .set 147 (.ein [(7, [0, 1, 2, 3]), (14, [4, 0, 3, 1])] [4, 2]) (-1) 1,
    -- 4640: tmp63 = einsum(v.aaaa.ovvv, (0, 1, 2, 3), t2.aaaa, (4, 0, 1, 3), (4, 2))
    .set 148 (.ein [(8, [0, 1, 2, 3]), (15, [4, 0, 1, 3])] [4, 2]) 1 1,
    -- 4641: tmp61 = einsum(v.aabb.ovoo, (0, 1, 2, 3), t2.abab, (0, 3, 4, 5), (2, 4, 1, 5))
    .set 149 (.ein [(9, [0, 1, 2, 3]), (13, [0, 3, 4, 5])] [2, 4, 1, 5]) 1 1,
    -- 4642: tmp59 = einsum(v.aaaa.ooov, (0, 1, 2, 3), t2.aaaa, (1, 2, 4, 5), (0, 4, 5, 3))
    .set 150 (.ein [(12, [0, 1, 2, 3]), (15, [1, 2, 4, 5])] [0, 4, 5, 3]) 1 1,
    -- 4643: tmp57 = einsum(t2.abab, (0, 1, 2, 3), v.aabb.ooov, (4, 0, 1, 3), (4, 2))
    .set 151 (.ein [(13, [0, 1, 2, 3]), (10, [4, 0, 1, 3])] [4, 2]) 1 1,
    -- 4644: tmp55 = einsum(v.aabb.ovoo, (0, 1, 2, 3), t2.abab, (0, 3, 1, 4), (2, 4))
    .set 152 (.ein [(9, [0, 1, 2, 3]), (13, [0, 3, 1, 4])] [2, 4]) 1 1,
    -- 4645: tmp53 = einsum(t2.bbbb, (0, 1, 2, 3), v.bbbb.ooov, (4, 0, 1, 3), (4, 2))
    .set 153 (.ein [(14, [0, 1, 2, 3]), (11, [4, 0, 1, 3])] [4, 2]) 1 1,
    -- 4646: tmp51 = einsum(t2.aaaa, (0, 1, 2, 3), v.aaaa.ooov, (4, 0, 1, 3), (4, 2))
    .set 154 (.ein [(15, [0, 1, 2, 3]), (12, [4, 0, 1, 3])] [4, 2]) 1 1,
    -- 4647: tmp49 = einsum(t2.abab, (0, 1, 2, 3), v.aabb.ovov, (0, 4, 1, 3), (2, 4))
    .set 155 (.ein [(13, [0, 1, 2, 3]), (1, [0, 4, 1, 3])] [2, 4]) 1 1,
    -- 4648: tmp47 = einsum(v.aaaa.ovov, (0, 1, 2, 3), t2.aaaa, (0, 2, 4, 1), (4, 3)) * -1
    .set 156 (.ein [(4, [0, 1, 2, 3]), (15, [0, 2, 4, 1])] [4, 3]) (-1) 1,
    -- 4649: tmp45 = einsum(v.aabb.vvvv, (0, 1, 2, 3), t1.bb, (4, 3), (4, 0, 1, 2))
    .set 157 (.ein [(18, [0, 1, 2, 3]), (2, [4, 3])] [4, 0, 1, 2]) 1 1,
    -- 4650: tmp43 = einsum(v.aaaa.vvvv, (0, 1, 2, 3), t1.aa, (4, 3), (4, 0, 1, 2))
    .set 158 (.ein [(20, [0, 1, 2, 3]), (0, [4, 3])] [4, 0, 1, 2]) 1 1,
    -- 4651: tmp34 = einsum(v.bbbb.oovv, (0, 1, 2, 3), t1.bb, (1, 3), (0, 2))
    .set 159 (.ein [(21, [0, 1, 2, 3]), (2, [1, 3])] [0, 2]) 1 1,
    -- 4652: tmp31 = einsum(v.aaaa.oovv, (0, 1, 2, 3), t1.aa, (1, 3), (0, 2))
    .set 160 (.ein [(22, [0, 1, 2, 3]), (0, [1, 3])] [0, 2]) 1 1,
    -- 4653: tmp23 = einsum(tmp22, (0, 1), t1.bb, (0, 2), (1, 2))
    .set 161 (.ein [(59, [0, 1]), (2, [0, 2])] [1, 2]) 1 1,
    -- 4654: tmp20 = einsum(t1.aa, (0, 1), tmp19, (0, 2), (2, 1))
    .set 162 (.ein [(0, [0, 1]), (60, [0, 2])] [2, 1]) 1 1,
    -- 4655: tmp13 = einsum(t2.bbbb, (0, 1, 2, 3), f.bb.ov, (1, 3), (0, 2))
    .set 163 (.ein [(14, [0, 1, 2, 3]), (16, [1, 3])] [0, 2]) 1 1,
    -- 4656: tmp11 = einsum(t2.abab, (0, 1, 2, 3), f.bb.ov, (1, 3), (0, 2))
    .set 164 (.ein [(13, [0, 1, 2, 3]), (16, [1, 3])] [0, 2]) 1 1,
    -- 4657: tmp10 = einsum(t2.abab, (0, 1, 2, 3), f.aa.ov, (0, 2), (1, 3))
    .set 165 (.ein [(13, [0, 1, 2, 3]), (17, [0, 2])] [1, 3]) 1 1,
    -- 4658: tmp8 = einsum(t2.aaaa, (0, 1, 2, 3), f.aa.ov, (1, 3), (0, 2))
    .set 166 (.ein [(15, [0, 1, 2, 3]), (17, [1, 3])] [0, 2]) 1 1,
    -- 4659: tmp7 = einsum(f.bb.vv, (0, 1), t1.bb, (2, 1), (2, 0))
    .set 167 (.ein [(23, [0, 1]), (2, [2, 1])] [2, 0]) 1 1,
    -- 4660: tmp5 = einsum(f.aa.vv, (0, 1), t1.aa, (2, 1), (2, 0))
    .set 168 (.ein [(24, [0, 1]), (0, [2, 1])] [2, 0]) 1 1,
    -- 4661: tmp4 = einsum(t1.bb, (0, 1), f.bb.oo, (2, 0), (2, 1))
    .set 169 (.ein [(2, [0, 1]), (25, [2, 0])] [2, 1]) 1 1,
    -- 4662: tmp2 = einsum(f.aa.oo, (0, 1), t1.aa, (1, 2), (0, 2))
    .set 170 (.ein [(26, [0, 1]), (0, [1, 2])] [0, 2]) 1 1
  ]
  ret := [(chars! "tmp10", 165), (chars! "tmp100", 128), (chars! "tmp101", 127), (chars! "tmp103", 126), (chars! "tmp11", 164), (chars! "tmp111", 58), (chars! "tmp112", 125), (chars! "tmp114", 34), (chars! "tmp115", 124), (chars! "tmp117", 33), (chars! "tmp118", 123), (chars! "tmp120", 57), (chars! "tmp121", 122), (chars! "tmp123", 121), (chars! "tmp125", 120), (chars! "tmp127", 56), (chars! "tmp128", 119), (chars! "tmp13", 163), (chars! "tmp130", 55), (chars! "tmp131", 118), (chars! "tmp133", 54), (chars! "tmp134", 117), (chars! "tmp136", 53), (chars! "tmp137", 116), (chars! "tmp139", 115), (chars! "tmp141", 114), (chars! "tmp142", 113), (chars! "tmp144", 112), (chars! "tmp145", 111), (chars! "tmp147", 110), (chars! "tmp149", 109), (chars! "tmp151", 108), (chars! "tmp154", 107), (chars! "tmp157", 106), (chars! "tmp159", 105), (chars! "tmp161", 104), (chars! "tmp164", 103), (chars! "tmp169", 102), (chars! "tmp171", 101), (chars! "tmp173", 44), (chars! "tmp174", 100), (chars! "tmp175", 43), (chars! "tmp176", 99), (chars! "tmp177", 42), (chars! "tmp178", 98), (chars! "tmp179", 97), (chars! "tmp181", 96), (chars! "tmp183", 95), (chars! "tmp185", 94), (chars! "tmp186", 93), (chars! "tmp188", 92), (chars! "tmp19", 60), (chars! "tmp191", 91), (chars! "tmp194", 90), (chars! "tmp196", 89), (chars! "tmp198", 88), (chars! "tmp2", 170), (chars! "tmp20", 162), (chars! "tmp201", 87), (chars! "tmp22", 59), (chars! "tmp226", 86), (chars! "tmp228", 85), (chars! "tmp23", 161), (chars! "tmp230", 84), (chars! "tmp232", 83), (chars! "tmp238", 82), (chars! "tmp240", 81), (chars! "tmp246", 80), (chars! "tmp247", 79), (chars! "tmp249", 78), (chars! "tmp250", 77), (chars! "tmp252", 76), (chars! "tmp254", 75), (chars! "tmp256", 74), (chars! "tmp26", 46), (chars! "tmp27", 45), (chars! "tmp276", 73), (chars! "tmp278", 72), (chars! "tmp28", 41), (chars! "tmp284", 71), (chars! "tmp285", 70), (chars! "tmp287", 69), (chars! "tmp288", 68), (chars! "tmp29", 31), (chars! "tmp290", 67), (chars! "tmp292", 66), (chars! "tmp294", 65), (chars! "tmp305", 64), (chars! "tmp307", 63), (chars! "tmp309", 62), (chars! "tmp31", 160), (chars! "tmp310", 61), (chars! "tmp33", 29), (chars! "tmp34", 159), (chars! "tmp35", 27), (chars! "tmp36", 28), (chars! "tmp4", 169), (chars! "tmp43", 158), (chars! "tmp45", 157), (chars! "tmp47", 156), (chars! "tmp49", 155), (chars! "tmp5", 168), (chars! "tmp51", 154), (chars! "tmp53", 153), (chars! "tmp55", 152), (chars! "tmp57", 151), (chars! "tmp59", 150), (chars! "tmp61", 149), (chars! "tmp63", 148), (chars! "tmp65", 147), (chars! "tmp67", 146), (chars! "tmp69", 145), (chars! "tmp7", 167), (chars! "tmp71", 144), (chars! "tmp73", 143), (chars! "tmp74", 142), (chars! "tmp76", 141), (chars! "tmp77", 140), (chars! "tmp79", 139), (chars! "tmp8", 166), (chars! "tmp81", 138), (chars! "tmp82", 32), (chars! "tmp83", 137), (chars! "tmp85", 136), (chars! "tmp86", 135), (chars! "tmp88", 134), (chars! "tmp89", 30), (chars! "tmp90", 133), (chars! "tmp92", 132), (chars! "tmp94", 131), (chars! "tmp96", 130), (chars! "tmp98", 129)]

/-- codegen/UCC2.py:4666-5277 `hbar_lmatvec_ea`. -/
def hbar_lmatvec_ea : GenFun where
  args := [chars! "r2.bbb", chars! "t2.bbbb", chars! "t2.abab", chars! "r2.aba", chars! "t1.bb", chars! "ints.tmp284", chars! "ints.tmp290", chars! "ints.tmp230", chars! "ints.tmp232", chars! "f.bb.vv", chars! "ints.tmp285", chars! "ints.tmp292", chars! "r2.bab", chars! "r2.aaa", chars! "t1.aa", chars! "ints.tmp47", chars! "ints.tmp49", chars! "f.aa.vv", chars! "ints.tmp139", chars! "ints.tmp145", chars! "ints.tmp141", chars! "ints.tmp147", chars! "t2.aaaa", chars! "ints.tmp288", chars! "f.bb.ov", chars! "v.bbbb.ovov", chars! "v.aabb.ovov", chars! "ints.tmp287", chars! "v.bbbb.oovv", chars! "r1.b", chars! "v.bbbb.ovvv", chars! "f.aa.ov", chars! "ints.tmp144", chars! "v.aaaa.ovov", chars! "ints.tmp142", chars! "v.aaaa.oovv", chars! "v.aaaa.ovvv", chars! "r1.a", chars! "f.bb.oo", chars! "ints.tmp130", chars! "ints.tmp133", chars! "ints.tmp22", chars! "ints.tmp149", chars! "v.aabb.vvoo", chars! "ints.tmp294", chars! "v.aabb.oovv", chars! "f.aa.oo", chars! "ints.tmp127", chars! "ints.tmp136", chars! "ints.tmp19", chars! "ints.tmp307", chars! "ints.tmp305", chars! "ints.tmp33", chars! "ints.tmp35", chars! "ints.tmp89", chars! "ints.tmp310", chars! "ints.tmp175", chars! "ints.tmp173", chars! "ints.tmp177", chars! "ints.tmp112", chars! "ints.tmp118", chars! "ints.tmp128", chars! "ints.tmp137", chars! "ints.tmp154", chars! "ints.tmp161", chars! "ints.tmp171", chars! "ints.tmp191", chars! "ints.tmp198", chars! "ints.tmp20", chars! "ints.tmp2", chars! "ints.tmp31", chars! "ints.tmp51", chars! "ints.tmp57", chars! "ints.tmp63", chars! "ints.tmp83", chars! "ints.tmp90", chars! "ints.tmp101", chars! "ints.tmp11", chars! "ints.tmp151", chars! "ints.tmp169", chars! "ints.tmp179", chars! "ints.tmp188", chars! "ints.tmp29", chars! "ints.tmp36", chars! "ints.tmp5", chars! "ints.tmp69", chars! "ints.tmp86", chars! "ints.tmp8", chars! "ints.tmp94", chars! "ints.tmp98", chars! "ints.tmp228", chars! "ints.tmp240", chars! "ints.tmp246", chars! "ints.tmp252", chars! "ints.tmp278", chars! "v.aabb.ovvv", chars! "ints.tmp249", chars! "ints.tmp256", chars! "ints.tmp117", chars! "v.aabb.ooov", chars! "ints.tmp114", chars! "v.bbbb.ooov", chars! "ints.tmp115", chars! "ints.tmp121", chars! "ints.tmp131", chars! "ints.tmp134", chars! "ints.tmp159", chars! "ints.tmp164", chars! "ints.tmp176", chars! "ints.tmp196", chars! "ints.tmp201", chars! "ints.tmp23", chars! "ints.tmp34", chars! "ints.tmp4", chars! "ints.tmp53", chars! "ints.tmp55", chars! "ints.tmp65", chars! "ints.tmp85", chars! "ints.tmp92", chars! "ints.tmp100", chars! "ints.tmp103", chars! "ints.tmp10", chars! "ints.tmp13", chars! "ints.tmp157", chars! "ints.tmp174", chars! "ints.tmp178", chars! "ints.tmp194", chars! "ints.tmp67", chars! "ints.tmp7", chars! "ints.tmp88", chars! "ints.tmp96", chars! "ints.tmp238", chars! "ints.tmp247", chars! "ints.tmp254", chars! "ints.tmp226", chars! "ints.tmp250", chars! "ints.tmp276", chars! "ints.tmp309", chars! "ints.tmp27", chars! "ints.tmp26", chars! "ints.tmp28", chars! "ints.tmp111", chars! "v.aaaa.ooov", chars! "ints.tmp186", chars! "ints.tmp82", chars! "ints.tmp185", chars! "ints.tmp120", chars! "v.aabb.ovoo", chars! "ints.tmp183", chars! "ints.tmp181", chars! "ints.tmp125", chars! "ints.tmp45", chars! "ints.tmp61", chars! "ints.tmp73", chars! "ints.tmp79", chars! "v.aabb.vvov", chars! "ints.tmp76", chars! "ints.tmp81", chars! "ints.tmp59", chars! "ints.tmp71", chars! "ints.tmp77", chars! "ints.tmp123", chars! "ints.tmp43", chars! "ints.tmp74", chars! "v.bbbb.vvvv", chars! "v.aabb.vvvv", chars! "v.aaaa.vvvv"]
  body := [
    -- 4696: tmp34 = einsum(r2.bbb, (0, 1, 2), t2.bbbb, (3, 2, 0, 1), (3,))
    .set 167 (.ein [(0, [0, 1, 2]), (1, [3, 2, 0, 1])] [3]) 1 1,
    -- 4697: tmp33 = einsum(t2.abab, (0, 1, 2, 3), r2.aba, (2, 3, 0), (1,))
    .set 168 (.ein [(2, [0, 1, 2, 3]), (3, [2, 3, 0])] [1]) 1 1,
    -- 4698: tmp21 = einsum(r2.bbb, (0, 1, 2), t1.bb, (3, 1), (2, 3, 0))
    .set 169 (.ein [(0, [0, 1, 2]), (4, [3, 1])] [2, 3, 0]) 1 1,
    -- 4699: tmp85 = np.copy(ints.tmp284)
    .set 170 (.cp 5) 1 1,
    -- 4700: tmp85 += ints.tmp290 * 2
    .add 170 (.cp 6) 2 1,
    -- 4701: tmp64 = np.copy(tmp33) * -0.5
    .set 171 (.cp 168) (-1) 2,
    -- 4702: tmp64 += tmp34
    .add 171 (.cp 167) 1 1,
    -- 4703: tmp78 = np.copy(ints.tmp230)
    .set 172 (.cp 7) 1 1,
    -- 4704: tmp78 += ints.tmp232 * 0.5
    .add 172 (.cp 8) 1 2,
    -- 4705: tmp78 += f.bb.vv * -0.5
    .add 172 (.cp 9) (-1) 2,
    -- 4706: tmp76 = np.copy(ints.tmp285) * 2
    .set 173 (.cp 10) 2 1,
    -- 4707: tmp76 += ints.tmp292
    .add 173 (.cp 11) 1 1,
    -- 4708: tmp16 = einsum(t2.abab, (0, 1, 2, 3), r2.bab, (3, 2, 1), (0,)) * -1
    .set 174 (.ein [(2, [0, 1, 2, 3]), (12, [3, 2, 1])] [0]) (-1) 1,
    -- 4709: tmp2 = einsum(r2.aaa, (0, 1, 2), t1.aa, (3, 1), (2, 3, 0))
    .set 175 (.ein [(13, [0, 1, 2]), (14, [3, 1])] [2, 3, 0]) 1 1,
    -- 4710: tmp45 = np.copy(ints.tmp47)
    .set 176 (.cp 15) 1 1,
    -- 4711: tmp45 += ints.tmp49 * 0.5
    .add 176 (.cp 16) 1 2,
    -- 4712: tmp45 += f.aa.vv * -0.5
    .add 176 (.cp 17) (-1) 2,
    -- 4713: tmp41 = np.copy(ints.tmp139) * 2
    .set 177 (.cp 18) 2 1,
    -- 4714: tmp41 += ints.tmp145
    .add 177 (.cp 19) 1 1,
    -- 4715: tmp43 = np.copy(ints.tmp141) * 0.5
    .set 178 (.cp 20) 1 2,
    -- 4716: tmp43 += ints.tmp147
    .add 178 (.cp 21) 1 1,
    -- 4717: tmp15 = einsum(t2.aaaa, (0, 1, 2, 3), r2.aaa, (2, 3, 1), (0,))
    .set 179 (.ein [(22, [0, 1, 2, 3]), (13, [2, 3, 1])] [0]) 1 1,
    -- 4718: tmp82 = einsum(ints.tmp288, (0, 1, 2, 3), r2.bbb, (4, 2, 0), (1, 3, 4))
    .set 180 (.ein [(23, [0, 1, 2, 3]), (0, [4, 2, 0])] [1, 3, 4]) 1 1,
    -- 4719: tmp84 = einsum(f.bb.ov, (0, 1), tmp21, (2, 0, 3), (2, 1, 3))
    .set 181 (.ein [(24, [0, 1]), (169, [2, 0, 3])] [2, 1, 3]) 1 1,
    -- 4720: tmp83 = einsum(v.bbbb.ovov, (0, 1, 2, 3), r2.bbb, (4, 3, 2), (0, 4, 1))
    .set 182 (.ein [(25, [0, 1, 2, 3]), (0, [4, 3, 2])] [0, 4, 1]) 1 1,
    -- 4721: tmp86 = einsum(tmp85, (0, 1, 2, 3), r2.aba, (2, 4, 0), (1, 4, 3))
    .set 183 (.ein [(170, [0, 1, 2, 3]), (3, [2, 4, 0])] [1, 4, 3]) 1 1,
    -- 4722: del tmp85
    .del 170,
    -- 4723: tmp74 = einsum(v.aabb.ovov, (0, 1, 2, 3), r2.aba, (1, 4, 0), (2, 4, 3))
    .set 184 (.ein [(26, [0, 1, 2, 3]), (3, [1, 4, 0])] [2, 4, 3]) 1 1,
    -- 4724: tmp80 = einsum(v.bbbb.ovov, (0, 1, 2, 3), tmp64, (2,), (0, 3, 1)) * 2
    .set 185 (.ein [(25, [0, 1, 2, 3]), (171, [2])] [0, 3, 1]) 2 1,
    -- 4725: tmp73 = einsum(ints.tmp287, (0, 1, 2, 3), r2.aba, (2, 4, 0), (1, 3, 4))
    .set 186 (.ein [(27, [0, 1, 2, 3]), (3, [2, 4, 0])] [1, 3, 4]) 1 1,
    -- 4726: tmp79 = einsum(r2.bbb, (0, 1, 2), tmp78, (1, 3), (2, 0, 3)) * -4
    .set 187 (.ein [(0, [0, 1, 2]), (172, [1, 3])] [2, 0, 3]) (-4) 1,
    -- 4727: del tmp78
    .del 172,
    -- 4728: tmp75 = einsum(r2.bbb, (0, 1, 2), v.bbbb.oovv, (3, 2, 4, 1), (3, 0, 4))
    .set 188 (.ein [(0, [0, 1, 2]), (28, [3, 2, 4, 1])] [3, 0, 4]) 1 1,
    -- 4729: tmp77 = einsum(r2.bbb, (0, 1, 2), tmp76, (2, 3, 1, 4), (3, 0, 4)) * -2
    .set 189 (.ein [(0, [0, 1, 2]), (173, [2, 3, 1, 4])] [3, 0, 4]) (-2) 1,
    -- 4730: del tmp76
    .del 173,
    -- 4731: tmp72 = einsum(r1.b, (0,), v.bbbb.ovvv, (1, 2, 3, 0), (1, 2, 3))
    .set 190 (.ein [(29, [0]), (30, [1, 2, 3, 0])] [1, 2, 3]) 1 1,
    -- 4732: tmp62 = einsum(t1.bb, (0, 1), f.bb.ov, (0, 2), (2, 1))
    .set 191 (.ein [(4, [0, 1]), (24, [0, 2])] [2, 1]) 1 1,
    -- 4733: tmp60 = einsum(t1.aa, (0, 1), f.aa.ov, (0, 2), (2, 1))
    .set 192 (.ein [(14, [0, 1]), (31, [0, 2])] [2, 1]) 1 1,
    -- 4734: tmp51 = einsum(r2.bab, (0, 1, 2), ints.tmp144, (3, 2, 4, 0), (3, 4, 1)) * -1
    .set 193 (.ein [(12, [0, 1, 2]), (32, [3, 2, 4, 0])] [3, 4, 1]) (-1) 1,
    -- 4735: tmp53 = einsum(v.aaaa.ovov, (0, 1, 2, 3), tmp16, (2,), (0, 1, 3))
    .set 194 (.ein [(33, [0, 1, 2, 3]), (174, [2])] [0, 1, 3]) 1 1,
    -- 4736: tmp50 = einsum(tmp2, (0, 1, 2), f.aa.ov, (1, 3), (0, 3, 2))
    .set 195 (.ein [(175, [0, 1, 2]), (31, [1, 3])] [0, 3, 2]) 1 1,
    -- 4737: tmp49 = einsum(r2.aaa, (0, 1, 2), v.aaaa.ovov, (3, 4, 2, 1), (3, 0, 4))
    .set 196 (.ein [(13, [0, 1, 2]), (33, [3, 4, 2, 1])] [3, 0, 4]) 1 1,
    -- 4738: tmp52 = einsum(v.aabb.ovov, (0, 1, 2, 3), r2.bab, (3, 4, 2), (0, 4, 1)) * -1
    .set 197 (.ein [(26, [0, 1, 2, 3]), (12, [3, 4, 2])] [0, 4, 1]) (-1) 1,
    -- 4739: tmp48 = einsum(ints.tmp142, (0, 1, 2, 3), r2.aaa, (4, 2, 0), (1, 3, 4))
    .set 198 (.ein [(34, [0, 1, 2, 3]), (13, [4, 2, 0])] [1, 3, 4]) 1 1,
    -- 4740: tmp39 = einsum(v.aaaa.oovv, (0, 1, 2, 3), r2.aaa, (4, 3, 1), (0, 4, 2))
    .set 199 (.ein [(35, [0, 1, 2, 3]), (13, [4, 3, 1])] [0, 4, 2]) 1 1,
    -- 4741: tmp46 = einsum(tmp45, (0, 1), r2.aaa, (2, 0, 3), (3, 2, 1)) * -4
    .set 200 (.ein [(176, [0, 1]), (13, [2, 0, 3])] [3, 2, 1]) (-4) 1,
    -- 4742: del tmp45
    .del 176,
    -- 4743: tmp42 = einsum(r2.aaa, (0, 1, 2), tmp41, (2, 3, 1, 4), (3, 0, 4)) * -2
    .set 201 (.ein [(13, [0, 1, 2]), (177, [2, 3, 1, 4])] [3, 0, 4]) (-2) 1,
    -- 4744: del tmp41
    .del 177,
    -- 4745: tmp38 = einsum(v.aaaa.ovvv, (0, 1, 2, 3), r1.a, (3,), (0, 1, 2))
    .set 202 (.ein [(36, [0, 1, 2, 3]), (37, [3])] [0, 1, 2]) 1 1,
    -- 4746: tmp44 = einsum(tmp43, (0, 1, 2, 3), r2.bab, (3, 4, 1), (0, 4, 2)) * -2
    .set 203 (.ein [(178, [0, 1, 2, 3]), (12, [3, 4, 1])] [0, 4, 2]) (-2) 1,
    -- 4747: del tmp43
    .del 178,
    -- 4748: tmp40 = einsum(tmp15, (0,), v.aaaa.ovov, (1, 2, 0, 3), (1, 2, 3)) * -1
    .set 204 (.ein [(179, [0]), (33, [1, 2, 0, 3])] [1, 2, 3]) (-1) 1,
    -- 4749: tmp25 = einsum(t1.aa, (0, 1), r2.aba, (1, 2, 3), (3, 0, 2))
    .set 205 (.ein [(14, [0, 1]), (3, [1, 2, 3])] [3, 0, 2]) 1 1,
    -- 4750: tmp6 = einsum(r2.bab, (0, 1, 2), t1.bb, (3, 0), (2, 3, 1)) * -1
    .set 206 (.ein [(12, [0, 1, 2]), (4, [3, 0])] [2, 3, 1]) (-1) 1,
    -- 4751: tmp69 = np.copy(f.bb.oo)
    .set 207 (.cp 38) 1 1,
    -- 4752: tmp69 += ints.tmp130 * 2
    .add 207 (.cp 39) 2 1,
    -- 4753: del ints.tmp130
    .del 39,
    -- 4754: tmp69 += ints.tmp133
    .add 207 (.cp 40) 1 1,
    -- 4755: del ints.tmp133
    .del 40,
    -- 4756: tmp69 += np.transpose(ints.tmp22, (1, 0))
    .add 207 (.tr 41 [1, 0]) 1 1,
    -- 4757: del ints.tmp22
    .del 41,
    -- 4758: tmp87 = np.copy(tmp82) * 4
    .set 208 (.cp 180) 4 1,
    -- 4759: del tmp82
    .del 180,
    -- 4760: tmp87 += tmp83 * 2
    .add 208 (.cp 182) 2 1,
    -- 4761: del tmp83
    .del 182,
    -- 4762: tmp87 += tmp84 * 2
    .add 208 (.cp 181) 2 1,
    -- 4763: del tmp84
    .del 181,
    -- 4764: tmp87 += np.transpose(tmp86, (0, 2, 1))
    .add 208 (.tr 183 [0, 2, 1]) 1 1,
    -- 4765: del tmp86
    .del 183,
    -- 4766: tmp81 = einsum(r1.b, (0,), f.bb.ov, (1, 2), (1, 2, 0))
    .set 209 (.ein [(29, [0]), (24, [1, 2])] [1, 2, 0]) 1 1,
    -- 4767: tmp81 += tmp72
    .add 209 (.cp 190) 1 1,
    -- 4768: del tmp72
    .del 190,
    -- 4769: tmp81 += tmp73
    .add 209 (.cp 186) 1 1,
    -- 4770: del tmp73
    .del 186,
    -- 4771: tmp81 += tmp74
    .add 209 (.cp 184) 1 1,
    -- 4772: del tmp74
    .del 184,
    -- 4773: tmp81 += tmp75 * 2
    .add 209 (.cp 188) 2 1,
    -- 4774: del tmp75
    .del 188,
    -- 4775: tmp81 += np.transpose(tmp77, (0, 2, 1)) * -1
    .add 209 (.tr 189 [0, 2, 1]) (-1) 1,
    -- 4776: del tmp77
    .del 189,
    -- 4777: tmp81 += np.transpose(tmp79, (0, 2, 1))
    .add 209 (.tr 187 [0, 2, 1]) 1 1,
    -- 4778: del tmp79
    .del 187,
    -- 4779: tmp81 += np.transpose(tmp80, (0, 2, 1)) * -1
    .add 209 (.tr 185 [0, 2, 1]) (-1) 1,
    -- 4780: del tmp80
    .del 185,
    -- 4781: tmp71 = einsum(t2.bbbb, (0, 1, 2, 3), r2.bbb, (2, 3, 4), (4, 0, 1))
    .set 210 (.ein [(1, [0, 1, 2, 3]), (0, [2, 3, 4])] [4, 0, 1]) 1 1,
    -- 4782: tmp63 = np.copy(ints.tmp230) * 2
    .set 211 (.cp 7) 2 1,
    -- 4783: tmp63 += ints.tmp232
    .add 211 (.cp 8) 1 1,
    -- 4784: tmp63 += f.bb.vv * -1
    .add 211 (.cp 9) (-1) 1,
    -- 4785: tmp63 += np.transpose(tmp62, (1, 0))
    .add 211 (.tr 191 [1, 0]) 1 1,
    -- 4786: del tmp62
    .del 191,
    -- 4787: tmp66 = np.copy(ints.tmp285) * 2
    .set 212 (.cp 10) 2 1,
    -- 4788: tmp66 += ints.tmp292
    .add 212 (.cp 11) 1 1,
    -- 4789: tmp66 += np.transpose(v.bbbb.ovov, (0, 2, 1, 3))
    .add 212 (.tr 25 [0, 2, 1, 3]) 1 1,
    -- 4790: tmp66 += ints.tmp288 * -2
    .add 212 (.cp 23) (-2) 1,
    -- 4791: tmp66 += v.bbbb.oovv * -1
    .add 212 (.cp 28) (-1) 1,
    -- 4792: tmp65 = einsum(t2.abab, (0, 1, 2, 3), r2.bab, (3, 2, 4), (0, 4, 1)) * -1
    .set 213 (.ein [(2, [0, 1, 2, 3]), (12, [3, 2, 4])] [0, 4, 1]) (-1) 1,
    -- 4793: tmp61 = np.copy(ints.tmp47) * 2
    .set 214 (.cp 15) 2 1,
    -- 4794: tmp61 += ints.tmp49
    .add 214 (.cp 16) 1 1,
    -- 4795: tmp61 += f.aa.vv * -1
    .add 214 (.cp 17) (-1) 1,
    -- 4796: tmp61 += np.transpose(tmp60, (1, 0))
    .add 214 (.tr 192 [1, 0]) 1 1,
    -- 4797: del tmp60
    .del 192,
    -- 4798: tmp70 = np.copy(tmp15)
    .set 215 (.cp 179) 1 1,
    -- 4799: tmp70 += tmp16 * 0.5
    .add 215 (.cp 174) 1 2,
    -- 4800: tmp67 = np.copy(ints.tmp284)
    .set 216 (.cp 5) 1 1,
    -- 4801: tmp67 += ints.tmp290 * 2
    .add 216 (.cp 6) 2 1,
    -- 4802: tmp67 += np.transpose(v.aabb.ovov, (0, 2, 1, 3))
    .add 216 (.tr 26 [0, 2, 1, 3]) 1 1,
    -- 4803: tmp67 += ints.tmp287 * -1
    .add 216 (.cp 27) (-1) 1,
    -- 4804: tmp68 = np.copy(ints.tmp149)
    .set 217 (.cp 42) 1 1,
    -- 4805: tmp68 += np.transpose(v.aabb.vvoo, (2, 3, 0, 1)) * -1
    .add 217 (.tr 43 [2, 3, 0, 1]) (-1) 1,
    -- 4806: tmp56 = einsum(t2.abab, (0, 1, 2, 3), r2.aba, (2, 3, 4), (4, 0, 1))
    .set 218 (.ein [(2, [0, 1, 2, 3]), (3, [2, 3, 4])] [4, 0, 1]) 1 1,
    -- 4807: tmp59 = np.copy(ints.tmp294)
    .set 219 (.cp 44) 1 1,
    -- 4808: tmp59 += v.aabb.oovv * -1
    .add 219 (.cp 45) (-1) 1,
    -- 4809: tmp55 = np.copy(f.aa.oo)
    .set 220 (.cp 46) 1 1,
    -- 4810: tmp55 += ints.tmp127 * 2
    .add 220 (.cp 47) 2 1,
    -- 4811: del ints.tmp127
    .del 47,
    -- 4812: tmp55 += ints.tmp136
    .add 220 (.cp 48) 1 1,
    -- 4813: del ints.tmp136
    .del 48,
    -- 4814: tmp55 += np.transpose(ints.tmp19, (1, 0))
    .add 220 (.tr 49 [1, 0]) 1 1,
    -- 4815: del ints.tmp19
    .del 49,
    -- 4816: tmp58 = np.copy(ints.tmp141)
    .set 221 (.cp 20) 1 1,
    -- 4817: tmp58 += ints.tmp147 * 2
    .add 221 (.cp 21) 2 1,
    -- 4818: tmp58 += np.transpose(v.aabb.ovov, (0, 2, 1, 3))
    .add 221 (.tr 26 [0, 2, 1, 3]) 1 1,
    -- 4819: tmp58 += ints.tmp144 * -1
    .add 221 (.cp 32) (-1) 1,
    -- 4820: tmp57 = np.copy(ints.tmp139) * 2
    .set 222 (.cp 18) 2 1,
    -- 4821: tmp57 += ints.tmp145
    .add 222 (.cp 19) 1 1,
    -- 4822: tmp57 += np.transpose(v.aaaa.ovov, (0, 2, 1, 3))
    .add 222 (.tr 33 [0, 2, 1, 3]) 1 1,
    -- 4823: tmp57 += ints.tmp142 * -2
    .add 222 (.cp 34) (-2) 1,
    -- 4824: tmp57 += v.aaaa.oovv * -1
    .add 222 (.cp 35) (-1) 1,
    -- 4825: tmp54 = np.copy(tmp48) * 4
    .set 223 (.cp 198) 4 1,
    -- 4826: del tmp48
    .del 198,
    -- 4827: tmp54 += tmp49 * 2
    .add 223 (.cp 196) 2 1,
    -- 4828: del tmp49
    .del 196,
    -- 4829: tmp54 += tmp50 * 2
    .add 223 (.cp 195) 2 1,
    -- 4830: del tmp50
    .del 195,
    -- 4831: tmp54 += tmp51
    .add 223 (.cp 193) 1 1,
    -- 4832: del tmp51
    .del 193,
    -- 4833: tmp54 += tmp52
    .add 223 (.cp 197) 1 1,
    -- 4834: del tmp52
    .del 197,
    -- 4835: tmp54 += tmp53
    .add 223 (.cp 194) 1 1,
    -- 4836: del tmp53
    .del 194,
    -- 4837: tmp47 = einsum(f.aa.ov, (0, 1), r1.a, (2,), (0, 1, 2))
    .set 224 (.ein [(31, [0, 1]), (37, [2])] [0, 1, 2]) 1 1,
    -- 4838: tmp47 += tmp38
    .add 224 (.cp 202) 1 1,
    -- 4839: del tmp38
    .del 202,
    -- 4840: tmp47 += tmp39 * 2
    .add 224 (.cp 199) 2 1,
    -- 4841: del tmp39
    .del 199,
    -- 4842: tmp47 += tmp40 * 2
    .add 224 (.cp 204) 2 1,
    -- 4843: del tmp40
    .del 204,
    -- 4844: tmp47 += np.transpose(tmp42, (0, 2, 1)) * -1
    .add 224 (.tr 201 [0, 2, 1]) (-1) 1,
    -- 4845: del tmp42
    .del 201,
    -- 4846: tmp47 += np.transpose(tmp44, (0, 2, 1))
    .add 224 (.tr 203 [0, 2, 1]) 1 1,
    -- 4847: del tmp44
    .del 203,
    -- 4848: tmp47 += np.transpose(tmp46, (0, 2, 1))
    .add 224 (.tr 200 [0, 2, 1]) 1 1,
    -- 4849: del tmp46
    .del 200,
    -- 4850: tmp37 = einsum(t2.aaaa, (0, 1, 2, 3), r2.aaa, (2, 3, 4), (4, 0, 1))
    .set 225 (.ein [(22, [0, 1, 2, 3]), (13, [2, 3, 4])] [4, 0, 1]) 1 1,
    -- 4851: tmp22 = np.copy(ints.tmp285) * 2
    .set 226 (.cp 10) 2 1,
    -- 4852: del ints.tmp285
    .del 10,
    -- 4853: tmp22 += ints.tmp292
    .add 226 (.cp 11) 1 1,
    -- 4854: del ints.tmp292
    .del 11,
    -- 4855: tmp22 += np.transpose(ints.tmp307, (0, 1, 3, 2))
    .add 226 (.tr 50 [0, 1, 3, 2]) 1 1,
    -- 4856: del ints.tmp307
    .del 50,
    -- 4857: tmp22 += np.transpose(v.bbbb.ovov, (0, 2, 1, 3))
    .add 226 (.tr 25 [0, 2, 1, 3]) 1 1,
    -- 4858: tmp22 += ints.tmp288 * -2
    .add 226 (.cp 23) (-2) 1,
    -- 4859: del ints.tmp288
    .del 23,
    -- 4860: tmp22 += np.transpose(ints.tmp305, (0, 1, 3, 2)) * -1
    .add 226 (.tr 51 [0, 1, 3, 2]) (-1) 1,
    -- 4861: del ints.tmp305
    .del 51,
    -- 4862: tmp22 += v.bbbb.oovv * -1
    .add 226 (.cp 28) (-1) 1,
    -- 4863: tmp36 = np.copy(f.bb.ov)
    .set 227 (.cp 24) 1 1,
    -- 4864: tmp36 += ints.tmp33
    .add 227 (.cp 52) 1 1,
    -- 4865: tmp36 += ints.tmp35
    .add 227 (.cp 53) 1 1,
    -- 4866: tmp36 += ints.tmp89 * -1
    .add 227 (.cp 54) (-1) 1,
    -- 4867: del ints.tmp89
    .del 54,
    -- 4868: tmp24 = np.copy(ints.tmp284)
    .set 228 (.cp 5) 1 1,
    -- 4869: del ints.tmp284
    .del 5,
    -- 4870: tmp24 += ints.tmp290 * 2
    .add 228 (.cp 6) 2 1,
    -- 4871: del ints.tmp290
    .del 6,
    -- 4872: tmp24 += ints.tmp310
    .add 228 (.cp 55) 1 1,
    -- 4873: del ints.tmp310
    .del 55,
    -- 4874: tmp24 += np.transpose(v.aabb.ovov, (0, 2, 1, 3))
    .add 228 (.tr 26 [0, 2, 1, 3]) 1 1,
    -- 4875: tmp24 += ints.tmp287 * -1
    .add 228 (.cp 27) (-1) 1,
    -- 4876: del ints.tmp287
    .del 27,
    -- 4877: tmp23 = einsum(r2.aba, (0, 1, 2), t1.bb, (3, 1), (2, 3, 0))
    .set 229 (.ein [(3, [0, 1, 2]), (4, [3, 1])] [2, 3, 0]) 1 1,
    -- 4878: tmp32 = np.copy(np.transpose(ints.tmp175, (1, 0)))
    .set 230 (.tr 56 [1, 0]) 1 1,
    -- 4879: del ints.tmp175
    .del 56,
    -- 4880: tmp32 += ints.tmp230 * 2
    .add 230 (.cp 7) 2 1,
    -- 4881: del ints.tmp230
    .del 7,
    -- 4882: tmp32 += ints.tmp232
    .add 230 (.cp 8) 1 1,
    -- 4883: del ints.tmp232
    .del 8,
    -- 4884: tmp32 += f.bb.vv * -1
    .add 230 (.cp 9) (-1) 1,
    -- 4885: tmp32 += np.transpose(ints.tmp173, (1, 0)) * -1
    .add 230 (.tr 57 [1, 0]) (-1) 1,
    -- 4886: del ints.tmp173
    .del 57,
    -- 4887: tmp32 += np.transpose(ints.tmp177, (1, 0)) * -1
    .add 230 (.tr 58 [1, 0]) (-1) 1,
    -- 4888: del ints.tmp177
    .del 58,
    -- 4889: tmp35 = einsum(r1.b, (0,), t1.bb, (1, 0), (1,))
    .set 231 (.ein [(29, [0]), (4, [1, 0])] [1]) 1 1,
    -- 4890: tmp35 += tmp33 * -1
    .add 231 (.cp 168) (-1) 1,
    -- 4891: del tmp33
    .del 168,
    -- 4892: tmp35 += tmp34 * 2
    .add 231 (.cp 167) 2 1,
    -- 4893: del tmp34
    .del 167,
    -- 4894: tmp9 = np.copy(ints.tmp112)
    .set 232 (.cp 59) 1 1,
    -- 4895: del ints.tmp112
    .del 59,
    -- 4896: tmp9 += ints.tmp118 * 0.5
    .add 232 (.cp 60) 1 2,
    -- 4897: del ints.tmp118
    .del 60,
    -- 4898: tmp9 += ints.tmp128
    .add 232 (.cp 61) 1 1,
    -- 4899: del ints.tmp128
    .del 61,
    -- 4900: tmp9 += ints.tmp137 * 0.5
    .add 232 (.cp 62) 1 2,
    -- 4901: del ints.tmp137
    .del 62,
    -- 4902: tmp9 += ints.tmp154 * 0.5
    .add 232 (.cp 63) 1 2,
    -- 4903: del ints.tmp154
    .del 63,
    -- 4904: tmp9 += ints.tmp161 * 0.5
    .add 232 (.cp 64) 1 2,
    -- 4905: del ints.tmp161
    .del 64,
    -- 4906: tmp9 += ints.tmp171 * 0.5
    .add 232 (.cp 65) 1 2,
    -- 4907: del ints.tmp171
    .del 65,
    -- 4908: tmp9 += ints.tmp191 * 0.5
    .add 232 (.cp 66) 1 2,
    -- 4909: del ints.tmp191
    .del 66,
    -- 4910: tmp9 += ints.tmp198 * 0.5
    .add 232 (.cp 67) 1 2,
    -- 4911: del ints.tmp198
    .del 67,
    -- 4912: tmp9 += ints.tmp20 * 0.5
    .add 232 (.cp 68) 1 2,
    -- 4913: del ints.tmp20
    .del 68,
    -- 4914: tmp9 += ints.tmp2 * 0.5
    .add 232 (.cp 69) 1 2,
    -- 4915: del ints.tmp2
    .del 69,
    -- 4916: tmp9 += ints.tmp31 * 0.5
    .add 232 (.cp 70) 1 2,
    -- 4917: del ints.tmp31
    .del 70,
    -- 4918: tmp9 += ints.tmp51
    .add 232 (.cp 71) 1 1,
    -- 4919: del ints.tmp51
    .del 71,
    -- 4920: tmp9 += ints.tmp57 * 0.5
    .add 232 (.cp 72) 1 2,
    -- 4921: del ints.tmp57
    .del 72,
    -- 4922: tmp9 += ints.tmp63
    .add 232 (.cp 73) 1 1,
    -- 4923: del ints.tmp63
    .del 73,
    -- 4924: tmp9 += ints.tmp83
    .add 232 (.cp 74) 1 1,
    -- 4925: del ints.tmp83
    .del 74,
    -- 4926: tmp9 += ints.tmp90 * 0.5
    .add 232 (.cp 75) 1 2,
    -- 4927: del ints.tmp90
    .del 75,
    -- 4928: tmp9 += f.aa.ov * -0.5
    .add 232 (.cp 31) (-1) 2,
    -- 4929: tmp9 += ints.tmp101 * -0.5
    .add 232 (.cp 76) (-1) 2,
    -- 4930: del ints.tmp101
    .del 76,
    -- 4931: tmp9 += ints.tmp11 * -0.5
    .add 232 (.cp 77) (-1) 2,
    -- 4932: del ints.tmp11
    .del 77,
    -- 4933: tmp9 += ints.tmp151 * -0.5
    .add 232 (.cp 78) (-1) 2,
    -- 4934: del ints.tmp151
    .del 78,
    -- 4935: tmp9 += ints.tmp169 * -0.5
    .add 232 (.cp 79) (-1) 2,
    -- 4936: del ints.tmp169
    .del 79,
    -- 4937: tmp9 += ints.tmp179 * -0.5
    .add 232 (.cp 80) (-1) 2,
    -- 4938: del ints.tmp179
    .del 80,
    -- 4939: tmp9 += ints.tmp188 * -0.5
    .add 232 (.cp 81) (-1) 2,
    -- 4940: del ints.tmp188
    .del 81,
    -- 4941: tmp9 += ints.tmp29 * -0.5
    .add 232 (.cp 82) (-1) 2,
    -- 4942: tmp9 += ints.tmp36 * -0.5
    .add 232 (.cp 83) (-1) 2,
    -- 4943: tmp9 += ints.tmp5 * -0.5
    .add 232 (.cp 84) (-1) 2,
    -- 4944: del ints.tmp5
    .del 84,
    -- 4945: tmp9 += ints.tmp69 * -0.5
    .add 232 (.cp 85) (-1) 2,
    -- 4946: del ints.tmp69
    .del 85,
    -- 4947: tmp9 += ints.tmp86 * -1
    .add 232 (.cp 86) (-1) 1,
    -- 4948: del ints.tmp86
    .del 86,
    -- 4949: tmp9 += ints.tmp8 * -1
    .add 232 (.cp 87) (-1) 1,
    -- 4950: del ints.tmp8
    .del 87,
    -- 4951: tmp9 += ints.tmp94 * -0.5
    .add 232 (.cp 88) (-1) 2,
    -- 4952: del ints.tmp94
    .del 88,
    -- 4953: tmp9 += ints.tmp98 * -1
    .add 232 (.cp 89) (-1) 1,
    -- 4954: del ints.tmp98
    .del 89,
    -- 4955: tmp19 = np.copy(ints.tmp228)
    .set 233 (.cp 90) 1 1,
    -- 4956: del ints.tmp228
    .del 90,
    -- 4957: tmp19 += np.transpose(ints.tmp240, (0, 1, 3, 2))
    .add 233 (.tr 91 [0, 1, 3, 2]) 1 1,
    -- 4958: del ints.tmp240
    .del 91,
    -- 4959: tmp19 += ints.tmp246
    .add 233 (.cp 92) 1 1,
    -- 4960: del ints.tmp246
    .del 92,
    -- 4961: tmp19 += ints.tmp252 * 2
    .add 233 (.cp 93) 2 1,
    -- 4962: del ints.tmp252
    .del 93,
    -- 4963: tmp19 += np.transpose(ints.tmp278, (0, 1, 3, 2))
    .add 233 (.tr 94 [0, 1, 3, 2]) 1 1,
    -- 4964: del ints.tmp278
    .del 94,
    -- 4965: tmp19 += v.aabb.ovvv
    .add 233 (.cp 95) 1 1,
    -- 4966: tmp19 += ints.tmp249 * -1
    .add 233 (.cp 96) (-1) 1,
    -- 4967: del ints.tmp249
    .del 96,
    -- 4968: tmp19 += np.transpose(ints.tmp256, (0, 1, 3, 2)) * -1
    .add 233 (.tr 97 [0, 1, 3, 2]) (-1) 1,
    -- 4969: del ints.tmp256
    .del 97,
    -- 4970: tmp31 = np.copy(ints.tmp117)
    .set 234 (.cp 98) 1 1,
    -- 4971: del ints.tmp117
    .del 98,
    -- 4972: tmp31 += v.aabb.ooov
    .add 234 (.cp 99) 1 1,
    -- 4973: tmp30 = einsum(tmp25, (0, 1, 2), t1.bb, (3, 2), (0, 1, 3))
    .set 235 (.ein [(205, [0, 1, 2]), (4, [3, 2])] [0, 1, 3]) 1 1,
    -- 4974: tmp28 = einsum(t1.bb, (0, 1), tmp21, (2, 3, 1), (2, 3, 0)) * -1
    .set 236 (.ein [(4, [0, 1]), (169, [2, 3, 1])] [2, 3, 0]) (-1) 1,
    -- 4975: tmp29 = np.copy(ints.tmp114)
    .set 237 (.cp 100) 1 1,
    -- 4976: del ints.tmp114
    .del 100,
    -- 4977: tmp29 += v.bbbb.ooov * -1
    .add 237 (.cp 101) (-1) 1,
    -- 4978: tmp27 = np.copy(ints.tmp115) * 2
    .set 238 (.cp 102) 2 1,
    -- 4979: tmp27 += ints.tmp121
    .add 238 (.cp 103) 1 1,
    -- 4980: tmp27 += ints.tmp131 * 2
    .add 238 (.cp 104) 2 1,
    -- 4981: tmp27 += ints.tmp134
    .add 238 (.cp 105) 1 1,
    -- 4982: tmp27 += ints.tmp159
    .add 238 (.cp 106) 1 1,
    -- 4983: tmp27 += ints.tmp164
    .add 238 (.cp 107) 1 1,
    -- 4984: tmp27 += ints.tmp176
    .add 238 (.cp 108) 1 1,
    -- 4985: tmp27 += ints.tmp196
    .add 238 (.cp 109) 1 1,
    -- 4986: tmp27 += ints.tmp201
    .add 238 (.cp 110) 1 1,
    -- 4987: tmp27 += ints.tmp23
    .add 238 (.cp 111) 1 1,
    -- 4988: tmp27 += ints.tmp34
    .add 238 (.cp 112) 1 1,
    -- 4989: tmp27 += ints.tmp4
    .add 238 (.cp 113) 1 1,
    -- 4990: tmp27 += ints.tmp53 * 2
    .add 238 (.cp 114) 2 1,
    -- 4991: tmp27 += ints.tmp55
    .add 238 (.cp 115) 1 1,
    -- 4992: tmp27 += ints.tmp65 * 2
    .add 238 (.cp 116) 2 1,
    -- 4993: tmp27 += ints.tmp85
    .add 238 (.cp 117) 1 1,
    -- 4994: tmp27 += ints.tmp92 * 2
    .add 238 (.cp 118) 2 1,
    -- 4995: tmp27 += f.bb.ov * -1
    .add 238 (.cp 24) (-1) 1,
    -- 4996: tmp27 += ints.tmp100 * -1
    .add 238 (.cp 119) (-1) 1,
    -- 4997: tmp27 += ints.tmp103 * -2
    .add 238 (.cp 120) (-2) 1,
    -- 4998: tmp27 += ints.tmp10 * -1
    .add 238 (.cp 121) (-1) 1,
    -- 4999: tmp27 += ints.tmp13 * -2
    .add 238 (.cp 122) (-2) 1,
    -- 5000: tmp27 += ints.tmp157 * -1
    .add 238 (.cp 123) (-1) 1,
    -- 5001: tmp27 += ints.tmp174 * -1
    .add 238 (.cp 124) (-1) 1,
    -- 5002: tmp27 += ints.tmp178 * -1
    .add 238 (.cp 125) (-1) 1,
    -- 5003: tmp27 += ints.tmp194 * -1
    .add 238 (.cp 126) (-1) 1,
    -- 5004: tmp27 += ints.tmp33 * -1
    .add 238 (.cp 52) (-1) 1,
    -- 5005: tmp27 += ints.tmp35 * -1
    .add 238 (.cp 53) (-1) 1,
    -- 5006: tmp27 += ints.tmp67 * -1
    .add 238 (.cp 127) (-1) 1,
    -- 5007: tmp27 += ints.tmp7 * -1
    .add 238 (.cp 128) (-1) 1,
    -- 5008: tmp27 += ints.tmp88 * -1
    .add 238 (.cp 129) (-1) 1,
    -- 5009: tmp27 += ints.tmp96 * -2
    .add 238 (.cp 130) (-2) 1,
    -- 5010: tmp20 = np.copy(np.transpose(ints.tmp238, (0, 3, 1, 2))) * 0.5
    .set 239 (.tr 131 [0, 3, 1, 2]) 1 2,
    -- 5011: del ints.tmp238
    .del 131,
    -- 5012: tmp20 += np.transpose(ints.tmp247, (0, 2, 1, 3))
    .add 239 (.tr 132 [0, 2, 1, 3]) 1 1,
    -- 5013: del ints.tmp247
    .del 132,
    -- 5014: tmp20 += np.transpose(ints.tmp254, (0, 2, 1, 3)) * 0.5
    .add 239 (.tr 133 [0, 2, 1, 3]) 1 2,
    -- 5015: del ints.tmp254
    .del 133,
    -- 5016: tmp20 += np.transpose(v.bbbb.ovvv, (0, 2, 1, 3)) * 0.5
    .add 239 (.tr 30 [0, 2, 1, 3]) 1 2,
    -- 5017: tmp20 += ints.tmp226 * -0.5
    .add 239 (.cp 134) (-1) 2,
    -- 5018: del ints.tmp226
    .del 134,
    -- 5019: tmp20 += np.transpose(ints.tmp250, (0, 2, 1, 3)) * -1
    .add 239 (.tr 135 [0, 2, 1, 3]) (-1) 1,
    -- 5020: del ints.tmp250
    .del 135,
    -- 5021: tmp20 += np.transpose(ints.tmp276, (0, 3, 1, 2)) * -0.5
    .add 239 (.tr 136 [0, 3, 1, 2]) (-1) 2,
    -- 5022: del ints.tmp276
    .del 136,
    -- 5023: tmp26 = np.copy(np.transpose(ints.tmp309, (0, 1, 3, 2)))
    .set 240 (.tr 137 [0, 1, 3, 2]) 1 1,
    -- 5024: del ints.tmp309
    .del 137,
    -- 5025: tmp26 += v.aabb.oovv
    .add 240 (.cp 45) 1 1,
    -- 5026: tmp26 += ints.tmp294 * -1
    .add 240 (.cp 44) (-1) 1,
    -- 5027: del ints.tmp294
    .del 44,
    -- 5028: tmp17 = einsum(t1.aa, (0, 1), r1.a, (1,), (0,)) * 0.5
    .set 241 (.ein [(14, [0, 1]), (37, [1])] [0]) 1 2,
    -- 5029: tmp17 += tmp15
    .add 241 (.cp 179) 1 1,
    -- 5030: del tmp15
    .del 179,
    -- 5031: tmp17 += tmp16 * 0.5
    .add 241 (.cp 174) 1 2,
    -- 5032: del tmp16
    .del 174,
    -- 5033: tmp4 = einsum(t1.aa, (0, 1), r2.bab, (2, 1, 3), (0, 3, 2)) * -1
    .set 242 (.ein [(14, [0, 1]), (12, [2, 1, 3])] [0, 3, 2]) (-1) 1,
    -- 5034: tmp14 = np.copy(np.transpose(ints.tmp27, (1, 0)))
    .set 243 (.tr 138 [1, 0]) 1 1,
    -- 5035: del ints.tmp27
    .del 138,
    -- 5036: tmp14 += ints.tmp47 * 2
    .add 243 (.cp 15) 2 1,
    -- 5037: del ints.tmp47
    .del 15,
    -- 5038: tmp14 += ints.tmp49
    .add 243 (.cp 16) 1 1,
    -- 5039: del ints.tmp49
    .del 16,
    -- 5040: tmp14 += f.aa.vv * -1
    .add 243 (.cp 17) (-1) 1,
    -- 5041: tmp14 += np.transpose(ints.tmp26, (1, 0)) * -1
    .add 243 (.tr 139 [1, 0]) (-1) 1,
    -- 5042: del ints.tmp26
    .del 139,
    -- 5043: tmp14 += np.transpose(ints.tmp28, (1, 0)) * -1
    .add 243 (.tr 140 [1, 0]) (-1) 1,
    -- 5044: del ints.tmp28
    .del 140,
    -- 5045: tmp11 = np.copy(ints.tmp111)
    .set 244 (.cp 141) 1 1,
    -- 5046: del ints.tmp111
    .del 141,
    -- 5047: tmp11 += v.aaaa.ooov * -1
    .add 244 (.cp 142) (-1) 1,
    -- 5048: tmp5 = np.copy(ints.tmp141)
    .set 245 (.cp 20) 1 1,
    -- 5049: del ints.tmp141
    .del 20,
    -- 5050: tmp5 += ints.tmp147 * 2
    .add 245 (.cp 21) 2 1,
    -- 5051: del ints.tmp147
    .del 21,
    -- 5052: tmp5 += ints.tmp186
    .add 245 (.cp 143) 1 1,
    -- 5053: del ints.tmp186
    .del 143,
    -- 5054: tmp5 += np.transpose(v.aabb.ovov, (0, 2, 1, 3))
    .add 245 (.tr 26 [0, 2, 1, 3]) 1 1,
    -- 5055: tmp5 += ints.tmp144 * -1
    .add 245 (.cp 32) (-1) 1,
    -- 5056: del ints.tmp144
    .del 32,
    -- 5057: tmp18 = np.copy(f.aa.ov)
    .set 246 (.cp 31) 1 1,
    -- 5058: tmp18 += ints.tmp29
    .add 246 (.cp 82) 1 1,
    -- 5059: del ints.tmp29
    .del 82,
    -- 5060: tmp18 += ints.tmp36
    .add 246 (.cp 83) 1 1,
    -- 5061: del ints.tmp36
    .del 83,
    -- 5062: tmp18 += ints.tmp82 * -1
    .add 246 (.cp 144) (-1) 1,
    -- 5063: del ints.tmp82
    .del 144,
    -- 5064: tmp12 = einsum(t1.aa, (0, 1), tmp6, (2, 3, 1), (0, 2, 3))
    .set 247 (.ein [(14, [0, 1]), (206, [2, 3, 1])] [0, 2, 3]) 1 1,
    -- 5065: tmp10 = einsum(t1.aa, (0, 1), tmp2, (2, 3, 1), (2, 3, 0)) * -1
    .set 248 (.ein [(14, [0, 1]), (175, [2, 3, 1])] [2, 3, 0]) (-1) 1,
    -- 5066: tmp7 = np.copy(np.transpose(ints.tmp185, (0, 1, 3, 2)))
    .set 249 (.tr 145 [0, 1, 3, 2]) 1 1,
    -- 5067: del ints.tmp185
    .del 145,
    -- 5068: tmp7 += np.transpose(v.aabb.vvoo, (2, 3, 0, 1))
    .add 249 (.tr 43 [2, 3, 0, 1]) 1 1,
    -- 5069: tmp7 += ints.tmp149 * -1
    .add 249 (.cp 42) (-1) 1,
    -- 5070: del ints.tmp149
    .del 42,
    -- 5071: tmp13 = np.copy(ints.tmp120)
    .set 250 (.cp 146) 1 1,
    -- 5072: del ints.tmp120
    .del 146,
    -- 5073: tmp13 += np.transpose(v.aabb.ovoo, (0, 2, 3, 1))
    .add 250 (.tr 147 [0, 2, 3, 1]) 1 1,
    -- 5074: tmp3 = np.copy(ints.tmp139) * 2
    .set 251 (.cp 18) 2 1,
    -- 5075: del ints.tmp139
    .del 18,
    -- 5076: tmp3 += ints.tmp145
    .add 251 (.cp 19) 1 1,
    -- 5077: del ints.tmp145
    .del 19,
    -- 5078: tmp3 += np.transpose(ints.tmp183, (0, 1, 3, 2))
    .add 251 (.tr 148 [0, 1, 3, 2]) 1 1,
    -- 5079: del ints.tmp183
    .del 148,
    -- 5080: tmp3 += np.transpose(v.aaaa.ovov, (0, 2, 1, 3))
    .add 251 (.tr 33 [0, 2, 1, 3]) 1 1,
    -- 5081: tmp3 += ints.tmp142 * -2
    .add 251 (.cp 34) (-2) 1,
    -- 5082: del ints.tmp142
    .del 34,
    -- 5083: tmp3 += np.transpose(ints.tmp181, (0, 1, 3, 2)) * -1
    .add 251 (.tr 149 [0, 1, 3, 2]) (-1) 1,
    -- 5084: del ints.tmp181
    .del 149,
    -- 5085: tmp3 += v.aaaa.oovv * -1
    .add 251 (.cp 35) (-1) 1,
    -- 5086: tmp0 = np.copy(ints.tmp125)
    .set 252 (.cp 150) 1 1,
    -- 5087: del ints.tmp125
    .del 150,
    -- 5088: tmp0 += np.transpose(ints.tmp45, (0, 2, 1, 3))
    .add 252 (.tr 151 [0, 2, 1, 3]) 1 1,
    -- 5089: del ints.tmp45
    .del 151,
    -- 5090: tmp0 += ints.tmp61
    .add 252 (.cp 152) 1 1,
    -- 5091: del ints.tmp61
    .del 152,
    -- 5092: tmp0 += np.transpose(ints.tmp73, (0, 2, 1, 3))
    .add 252 (.tr 153 [0, 2, 1, 3]) 1 1,
    -- 5093: del ints.tmp73
    .del 153,
    -- 5094: tmp0 += np.transpose(ints.tmp79, (0, 2, 1, 3)) * 2
    .add 252 (.tr 154 [0, 2, 1, 3]) 2 1,
    -- 5095: del ints.tmp79
    .del 154,
    -- 5096: tmp0 += np.transpose(v.aabb.vvov, (2, 0, 1, 3))
    .add 252 (.tr 155 [2, 0, 1, 3]) 1 1,
    -- 5097: tmp0 += np.transpose(ints.tmp76, (0, 2, 1, 3)) * -1
    .add 252 (.tr 156 [0, 2, 1, 3]) (-1) 1,
    -- 5098: del ints.tmp76
    .del 156,
    -- 5099: tmp0 += ints.tmp81 * -1
    .add 252 (.cp 157) (-1) 1,
    -- 5100: del ints.tmp81
    .del 157,
    -- 5101: tmp8 = np.copy(ints.tmp115)
    .set 253 (.cp 102) 1 1,
    -- 5102: del ints.tmp115
    .del 102,
    -- 5103: tmp8 += ints.tmp121 * 0.5
    .add 253 (.cp 103) 1 2,
    -- 5104: del ints.tmp121
    .del 103,
    -- 5105: tmp8 += ints.tmp131
    .add 253 (.cp 104) 1 1,
    -- 5106: del ints.tmp131
    .del 104,
    -- 5107: tmp8 += ints.tmp134 * 0.5
    .add 253 (.cp 105) 1 2,
    -- 5108: del ints.tmp134
    .del 105,
    -- 5109: tmp8 += ints.tmp159 * 0.5
    .add 253 (.cp 106) 1 2,
    -- 5110: del ints.tmp159
    .del 106,
    -- 5111: tmp8 += ints.tmp164 * 0.5
    .add 253 (.cp 107) 1 2,
    -- 5112: del ints.tmp164
    .del 107,
    -- 5113: tmp8 += ints.tmp176 * 0.5
    .add 253 (.cp 108) 1 2,
    -- 5114: del ints.tmp176
    .del 108,
    -- 5115: tmp8 += ints.tmp196 * 0.5
    .add 253 (.cp 109) 1 2,
    -- 5116: del ints.tmp196
    .del 109,
    -- 5117: tmp8 += ints.tmp201 * 0.5
    .add 253 (.cp 110) 1 2,
    -- 5118: del ints.tmp201
    .del 110,
    -- 5119: tmp8 += ints.tmp23 * 0.5
    .add 253 (.cp 111) 1 2,
    -- 5120: del ints.tmp23
    .del 111,
    -- 5121: tmp8 += ints.tmp34 * 0.5
    .add 253 (.cp 112) 1 2,
    -- 5122: del ints.tmp34
    .del 112,
    -- 5123: tmp8 += ints.tmp4 * 0.5
    .add 253 (.cp 113) 1 2,
    -- 5124: del ints.tmp4
    .del 113,
    -- 5125: tmp8 += ints.tmp53
    .add 253 (.cp 114) 1 1,
    -- 5126: del ints.tmp53
    .del 114,
    -- 5127: tmp8 += ints.tmp55 * 0.5
    .add 253 (.cp 115) 1 2,
    -- 5128: del ints.tmp55
    .del 115,
    -- 5129: tmp8 += ints.tmp65
    .add 253 (.cp 116) 1 1,
    -- 5130: del ints.tmp65
    .del 116,
    -- 5131: tmp8 += ints.tmp85 * 0.5
    .add 253 (.cp 117) 1 2,
    -- 5132: del ints.tmp85
    .del 117,
    -- 5133: tmp8 += ints.tmp92
    .add 253 (.cp 118) 1 1,
    -- 5134: del ints.tmp92
    .del 118,
    -- 5135: tmp8 += f.bb.ov * -0.5
    .add 253 (.cp 24) (-1) 2,
    -- 5136: tmp8 += ints.tmp100 * -0.5
    .add 253 (.cp 119) (-1) 2,
    -- 5137: del ints.tmp100
    .del 119,
    -- 5138: tmp8 += ints.tmp103 * -1
    .add 253 (.cp 120) (-1) 1,
    -- 5139: del ints.tmp103
    .del 120,
    -- 5140: tmp8 += ints.tmp10 * -0.5
    .add 253 (.cp 121) (-1) 2,
    -- 5141: del ints.tmp10
    .del 121,
    -- 5142: tmp8 += ints.tmp13 * -1
    .add 253 (.cp 122) (-1) 1,
    -- 5143: del ints.tmp13
    .del 122,
    -- 5144: tmp8 += ints.tmp157 * -0.5
    .add 253 (.cp 123) (-1) 2,
    -- 5145: del ints.tmp157
    .del 123,
    -- 5146: tmp8 += ints.tmp174 * -0.5
    .add 253 (.cp 124) (-1) 2,
    -- 5147: del ints.tmp174
    .del 124,
    -- 5148: tmp8 += ints.tmp178 * -0.5
    .add 253 (.cp 125) (-1) 2,
    -- 5149: del ints.tmp178
    .del 125,
    -- 5150: tmp8 += ints.tmp194 * -0.5
    .add 253 (.cp 126) (-1) 2,
    -- 5151: del ints.tmp194
    .del 126,
    -- 5152: tmp8 += ints.tmp33 * -0.5
    .add 253 (.cp 52) (-1) 2,
    -- 5153: del ints.tmp33
    .del 52,
    -- 5154: tmp8 += ints.tmp35 * -0.5
    .add 253 (.cp 53) (-1) 2,
    -- 5155: del ints.tmp35
    .del 53,
    -- 5156: tmp8 += ints.tmp67 * -0.5
    .add 253 (.cp 127) (-1) 2,
    -- 5157: del ints.tmp67
    .del 127,
    -- 5158: tmp8 += ints.tmp7 * -0.5
    .add 253 (.cp 128) (-1) 2,
    -- 5159: del ints.tmp7
    .del 128,
    -- 5160: tmp8 += ints.tmp88 * -0.5
    .add 253 (.cp 129) (-1) 2,
    -- 5161: del ints.tmp88
    .del 129,
    -- 5162: tmp8 += ints.tmp96 * -1
    .add 253 (.cp 130) (-1) 1,
    -- 5163: del ints.tmp96
    .del 130,
    -- 5164: tmp1 = np.copy(ints.tmp59) * 0.5
    .set 254 (.cp 158) 1 2,
    -- 5165: del ints.tmp59
    .del 158,
    -- 5166: tmp1 += np.transpose(ints.tmp71, (0, 1, 3, 2))
    .add 254 (.tr 159 [0, 1, 3, 2]) 1 1,
    -- 5167: del ints.tmp71
    .del 159,
    -- 5168: tmp1 += np.transpose(ints.tmp77, (0, 1, 3, 2)) * 0.5
    .add 254 (.tr 160 [0, 1, 3, 2]) 1 2,
    -- 5169: del ints.tmp77
    .del 160,
    -- 5170: tmp1 += v.aaaa.ovvv * 0.5
    .add 254 (.cp 36) 1 2,
    -- 5171: tmp1 += ints.tmp123 * -0.5
    .add 254 (.cp 161) (-1) 2,
    -- 5172: del ints.tmp123
    .del 161,
    -- 5173: tmp1 += np.transpose(ints.tmp43, (0, 2, 3, 1)) * -0.5
    .add 254 (.tr 162 [0, 2, 3, 1]) (-1) 2,
    -- 5174: del ints.tmp43
    .del 162,
    -- 5175: tmp1 += np.transpose(ints.tmp74, (0, 1, 3, 2)) * -1
    .add 254 (.tr 163 [0, 1, 3, 2]) (-1) 1,
    -- 5176: del ints.tmp74
    .del 163,
    -- 5177: r2new.bbb = einsum(r2.bbb, (0, 1, 2), v.bbbb.vvvv, (3, 0, 4, 1), (3, 4, 2)) * 2
    .set 255 (.ein [(0, [0, 1, 2]), (164, [3, 0, 4, 1])] [3, 4, 2]) 2 1,
    -- 5178: r2new.bbb += einsum(tmp71, (0, 1, 2), v.bbbb.ovov, (2, 3, 1, 4), (3, 4, 0)) * -2
    .add 255 (.ein [(210, [0, 1, 2]), (25, [2, 3, 1, 4])] [3, 4, 0]) (-2) 1,
    -- 5179: del tmp71
    .del 210,
    -- 5180: r2new.bbb += np.transpose(tmp81, (1, 2, 0)) * -1
    .add 255 (.tr 209 [1, 2, 0]) (-1) 1,
    -- 5181: r2new.bbb += np.transpose(tmp81, (2, 1, 0))
    .add 255 (.tr 209 [2, 1, 0]) 1 1,
    -- 5182: del tmp81
    .del 209,
    -- 5183: r2new.bbb += np.transpose(tmp87, (1, 2, 0))
    .add 255 (.tr 208 [1, 2, 0]) 1 1,
    -- 5184: r2new.bbb += np.transpose(tmp87, (2, 1, 0)) * -1
    .add 255 (.tr 208 [2, 1, 0]) (-1) 1,
    -- 5185: del tmp87
    .del 208,
    -- 5186: r2new.bbb += einsum(r2.bbb, (0, 1, 2), tmp69, (2, 3), (0, 1, 3)) * -2
    .add 255 (.ein [(0, [0, 1, 2]), (207, [2, 3])] [0, 1, 3]) (-2) 1,
    -- 5187: r2new.bab = einsum(r1.a, (0,), v.aabb.vvov, (1, 0, 2, 3), (3, 1, 2)) * -1
    .set 256 (.ein [(37, [0]), (155, [1, 0, 2, 3])] [3, 1, 2]) (-1) 1,
    -- 5188: r2new.bab += einsum(r1.a, (0,), f.bb.ov, (1, 2), (2, 0, 1)) * -1
    .add 256 (.ein [(37, [0]), (24, [1, 2])] [2, 0, 1]) (-1) 1,
    -- 5189: r2new.bab += einsum(r2.bab, (0, 1, 2), v.aabb.vvvv, (3, 1, 4, 0), (4, 3, 2))
    .add 256 (.ein [(12, [0, 1, 2]), (165, [3, 1, 4, 0])] [4, 3, 2]) 1 1,
    -- 5190: r2new.bab += einsum(tmp65, (0, 1, 2), v.aabb.ovov, (0, 3, 2, 4), (4, 3, 1)) * -1
    .add 256 (.ein [(213, [0, 1, 2]), (26, [0, 3, 2, 4])] [4, 3, 1]) (-1) 1,
    -- 5191: del tmp65
    .del 213,
    -- 5192: r2new.bab += einsum(tmp66, (0, 1, 2, 3), r2.bab, (2, 4, 0), (3, 4, 1))
    .add 256 (.ein [(212, [0, 1, 2, 3]), (12, [2, 4, 0])] [3, 4, 1]) 1 1,
    -- 5193: del tmp66
    .del 212,
    -- 5194: r2new.bab += einsum(tmp67, (0, 1, 2, 3), r2.aaa, (4, 2, 0), (3, 4, 1)) * -2
    .add 256 (.ein [(216, [0, 1, 2, 3]), (13, [4, 2, 0])] [3, 4, 1]) (-2) 1,
    -- 5195: del tmp67
    .del 216,
    -- 5196: r2new.bab += einsum(tmp68, (0, 1, 2, 3), r2.bab, (4, 2, 0), (4, 3, 1))
    .add 256 (.ein [(217, [0, 1, 2, 3]), (12, [4, 2, 0])] [4, 3, 1]) 1 1,
    -- 5197: del tmp68
    .del 217,
    -- 5198: r2new.bab += einsum(tmp63, (0, 1), r2.bab, (0, 2, 3), (1, 2, 3)) * -1
    .add 256 (.ein [(211, [0, 1]), (12, [0, 2, 3])] [1, 2, 3]) (-1) 1,
    -- 5199: r2new.bab += einsum(tmp61, (0, 1), r2.bab, (2, 0, 3), (2, 1, 3)) * -1
    .add 256 (.ein [(214, [0, 1]), (12, [2, 0, 3])] [2, 1, 3]) (-1) 1,
    -- 5200: r2new.bab += einsum(r2.bab, (0, 1, 2), tmp69, (2, 3), (0, 1, 3)) * -1
    .add 256 (.ein [(12, [0, 1, 2]), (207, [2, 3])] [0, 1, 3]) (-1) 1,
    -- 5201: del tmp69
    .del 207,
    -- 5202: r2new.bab += einsum(tmp70, (0,), v.aabb.ovov, (0, 1, 2, 3), (3, 1, 2)) * 2
    .add 256 (.ein [(215, [0]), (26, [0, 1, 2, 3])] [3, 1, 2]) 2 1,
    -- 5203: del tmp70
    .del 215,
    -- 5204: r2new.aba = einsum(v.aabb.vvvv, (0, 1, 2, 3), r2.aba, (1, 3, 4), (0, 2, 4))
    .set 257 (.ein [(165, [0, 1, 2, 3]), (3, [1, 3, 4])] [0, 2, 4]) 1 1,
    -- 5205: r2new.aba += einsum(tmp56, (0, 1, 2), v.aabb.ovov, (1, 3, 2, 4), (3, 4, 0))
    .add 257 (.ein [(218, [0, 1, 2]), (26, [1, 3, 2, 4])] [3, 4, 0]) 1 1,
    -- 5206: del tmp56
    .del 218,
    -- 5207: r2new.aba += einsum(f.aa.ov, (0, 1), r1.b, (2,), (1, 2, 0)) * -1
    .add 257 (.ein [(31, [0, 1]), (29, [2])] [1, 2, 0]) (-1) 1,
    -- 5208: r2new.aba += einsum(v.aabb.ovvv, (0, 1, 2, 3), r1.b, (3,), (1, 2, 0)) * -1
    .add 257 (.ein [(95, [0, 1, 2, 3]), (29, [3])] [1, 2, 0]) (-1) 1,
    -- 5209: r2new.aba += einsum(r2.aba, (0, 1, 2), tmp57, (2, 3, 0, 4), (4, 1, 3))
    .add 257 (.ein [(3, [0, 1, 2]), (222, [2, 3, 0, 4])] [4, 1, 3]) 1 1,
    -- 5210: del tmp57
    .del 222,
    -- 5211: r2new.aba += einsum(r2.bbb, (0, 1, 2), tmp58, (3, 2, 4, 1), (4, 0, 3)) * -2
    .add 257 (.ein [(0, [0, 1, 2]), (221, [3, 2, 4, 1])] [4, 0, 3]) (-2) 1,
    -- 5212: del tmp58
    .del 221,
    -- 5213: r2new.aba += einsum(tmp59, (0, 1, 2, 3), r2.aba, (4, 2, 0), (4, 3, 1))
    .add 257 (.ein [(219, [0, 1, 2, 3]), (3, [4, 2, 0])] [4, 3, 1]) 1 1,
    -- 5214: del tmp59
    .del 219,
    -- 5215: r2new.aba += einsum(tmp61, (0, 1), r2.aba, (0, 2, 3), (1, 2, 3)) * -1
    .add 257 (.ein [(214, [0, 1]), (3, [0, 2, 3])] [1, 2, 3]) (-1) 1,
    -- 5216: del tmp61
    .del 214,
    -- 5217: r2new.aba += einsum(r2.aba, (0, 1, 2), tmp63, (1, 3), (0, 3, 2)) * -1
    .add 257 (.ein [(3, [0, 1, 2]), (211, [1, 3])] [0, 3, 2]) (-1) 1,
    -- 5218: del tmp63
    .del 211,
    -- 5219: r2new.aba += einsum(r2.aba, (0, 1, 2), tmp55, (2, 3), (0, 1, 3)) * -1
    .add 257 (.ein [(3, [0, 1, 2]), (220, [2, 3])] [0, 1, 3]) (-1) 1,
    -- 5220: r2new.aba += einsum(tmp64, (0,), v.aabb.ovov, (1, 2, 0, 3), (2, 3, 1)) * 2
    .add 257 (.ein [(171, [0]), (26, [1, 2, 0, 3])] [2, 3, 1]) 2 1,
    -- 5221: del tmp64
    .del 171,
    -- 5222: r2new.aaa = einsum(tmp37, (0, 1, 2), v.aaaa.ovov, (2, 3, 1, 4), (3, 4, 0)) * -2
    .set 258 (.ein [(225, [0, 1, 2]), (33, [2, 3, 1, 4])] [3, 4, 0]) (-2) 1,
    -- 5223: del tmp37
    .del 225,
    -- 5224: r2new.aaa += einsum(r2.aaa, (0, 1, 2), v.aaaa.vvvv, (3, 1, 4, 0), (3, 4, 2)) * -2
    .add 258 (.ein [(13, [0, 1, 2]), (166, [3, 1, 4, 0])] [3, 4, 2]) (-2) 1,
    -- 5225: r2new.aaa += np.transpose(tmp47, (1, 2, 0)) * -1
    .add 258 (.tr 224 [1, 2, 0]) (-1) 1,
    -- 5226: r2new.aaa += np.transpose(tmp47, (2, 1, 0))
    .add 258 (.tr 224 [2, 1, 0]) 1 1,
    -- 5227: del tmp47
    .del 224,
    -- 5228: r2new.aaa += np.transpose(tmp54, (1, 2, 0))
    .add 258 (.tr 223 [1, 2, 0]) 1 1,
    -- 5229: r2new.aaa += np.transpose(tmp54, (2, 1, 0)) * -1
    .add 258 (.tr 223 [2, 1, 0]) (-1) 1,
    -- 5230: del tmp54
    .del 223,
    -- 5231: r2new.aaa += einsum(r2.aaa, (0, 1, 2), tmp55, (2, 3), (0, 1, 3)) * -2
    .add 258 (.ein [(13, [0, 1, 2]), (220, [2, 3])] [0, 1, 3]) (-2) 1,
    -- 5232: del tmp55
    .del 220,
    -- 5233: r1new.b = einsum(r2.aba, (0, 1, 2), tmp19, (2, 0, 3, 1), (3,)) * -1
    .set 259 (.ein [(3, [0, 1, 2]), (233, [2, 0, 3, 1])] [3]) (-1) 1,
    -- 5234: del tmp19
    .del 233,
    -- 5235: r1new.b += einsum(r2.bbb, (0, 1, 2), tmp20, (2, 3, 0, 1), (3,)) * -4
    .add 259 (.ein [(0, [0, 1, 2]), (239, [2, 3, 0, 1])] [3]) (-4) 1,
    -- 5236: del tmp20
    .del 239,
    -- 5237: r1new.b += einsum(tmp22, (0, 1, 2, 3), tmp21, (0, 1, 2), (3,)) * 2
    .add 259 (.ein [(226, [0, 1, 2, 3]), (169, [0, 1, 2])] [3]) 2 1,
    -- 5238: del tmp21, tmp22
    .del 169,
    .del 226,
    -- 5239: r1new.b += einsum(tmp23, (0, 1, 2), tmp24, (0, 1, 2, 3), (3,))
    .add 259 (.ein [(229, [0, 1, 2]), (228, [0, 1, 2, 3])] [3]) 1 1,
    -- 5240: del tmp23, tmp24
    .del 229,
    .del 228,
    -- 5241: r1new.b += einsum(tmp26, (0, 1, 2, 3), tmp25, (0, 1, 2), (3,))
    .add 259 (.ein [(240, [0, 1, 2, 3]), (205, [0, 1, 2])] [3]) 1 1,
    -- 5242: del tmp25, tmp26
    .del 205,
    .del 240,
    -- 5243: r1new.b += einsum(tmp27, (0, 1), r2.bbb, (2, 1, 0), (2,)) * -2
    .add 259 (.ein [(238, [0, 1]), (0, [2, 1, 0])] [2]) (-2) 1,
    -- 5244: del tmp27
    .del 238,
    -- 5245: r1new.b += einsum(tmp9, (0, 1), r2.aba, (1, 2, 0), (2,)) * 2
    .add 259 (.ein [(232, [0, 1]), (3, [1, 2, 0])] [2]) 2 1,
    -- 5246: r1new.b += einsum(tmp28, (0, 1, 2), tmp29, (0, 2, 1, 3), (3,)) * -2
    .add 259 (.ein [(236, [0, 1, 2]), (237, [0, 2, 1, 3])] [3]) (-2) 1,
    -- 5247: del tmp28, tmp29
    .del 236,
    .del 237,
    -- 5248: r1new.b += einsum(tmp30, (0, 1, 2), tmp31, (0, 1, 2, 3), (3,)) * -1
    .add 259 (.ein [(235, [0, 1, 2]), (234, [0, 1, 2, 3])] [3]) (-1) 1,
    -- 5249: del tmp30, tmp31
    .del 235,
    .del 234,
    -- 5250: r1new.b += einsum(tmp32, (0, 1), r1.b, (0,), (1,)) * -1
    .add 259 (.ein [(230, [0, 1]), (29, [0])] [1]) (-1) 1,
    -- 5251: del tmp32
    .del 230,
    -- 5252: r1new.b += einsum(tmp35, (0,), tmp36, (0, 1), (1,)) * -1
    .add 259 (.ein [(231, [0]), (227, [0, 1])] [1]) (-1) 1,
    -- 5253: del tmp35, tmp36
    .del 231,
    .del 227,
    -- 5254: r1new.a = einsum(r2.bab, (0, 1, 2), tmp0, (2, 1, 3, 0), (3,)) * -1
    .set 260 (.ein [(12, [0, 1, 2]), (252, [2, 1, 3, 0])] [3]) (-1) 1,
    -- 5255: del tmp0
    .del 252,
    -- 5256: r1new.a += einsum(r2.aaa, (0, 1, 2), tmp1, (2, 0, 1, 3), (3,)) * -4
    .add 260 (.ein [(13, [0, 1, 2]), (254, [2, 0, 1, 3])] [3]) (-4) 1,
    -- 5257: del tmp1
    .del 254,
    -- 5258: r1new.a += einsum(tmp2, (0, 1, 2), tmp3, (0, 1, 2, 3), (3,)) * 2
    .add 260 (.ein [(175, [0, 1, 2]), (251, [0, 1, 2, 3])] [3]) 2 1,
    -- 5259: del tmp2, tmp3
    .del 175,
    .del 251,
    -- 5260: r1new.a += einsum(tmp5, (0, 1, 2, 3), tmp4, (0, 1, 3), (2,)) * -1
    .add 260 (.ein [(245, [0, 1, 2, 3]), (242, [0, 1, 3])] [2]) (-1) 1,
    -- 5261: del tmp5, tmp4
    .del 245,
    .del 242,
    -- 5262: r1new.a += einsum(tmp7, (0, 1, 2, 3), tmp6, (0, 1, 2), (3,)) * -1
    .add 260 (.ein [(249, [0, 1, 2, 3]), (206, [0, 1, 2])] [3]) (-1) 1,
    -- 5263: del tmp6, tmp7
    .del 206,
    .del 249,
    -- 5264: r1new.a += einsum(r2.bab, (0, 1, 2), tmp8, (2, 0), (1,)) * 2
    .add 260 (.ein [(12, [0, 1, 2]), (253, [2, 0])] [1]) 2 1,
    -- 5265: del tmp8
    .del 253,
    -- 5266: r1new.a += einsum(tmp9, (0, 1), r2.aaa, (2, 1, 0), (2,)) * -4
    .add 260 (.ein [(232, [0, 1]), (13, [2, 1, 0])] [2]) (-4) 1,
    -- 5267: del tmp9
    .del 232,
    -- 5268: r1new.a += einsum(tmp10, (0, 1, 2), tmp11, (0, 2, 1, 3), (3,)) * -2
    .add 260 (.ein [(248, [0, 1, 2]), (244, [0, 2, 1, 3])] [3]) (-2) 1,
    -- 5269: del tmp10, tmp11
    .del 248,
    .del 244,
    -- 5270: r1new.a += einsum(tmp13, (0, 1, 2, 3), tmp12, (0, 1, 2), (3,))
    .add 260 (.ein [(250, [0, 1, 2, 3]), (247, [0, 1, 2])] [3]) 1 1,
    -- 5271: del tmp13, tmp12
    .del 250,
    .del 247,
    -- 5272: r1new.a += einsum(r1.a, (0,), tmp14, (0, 1), (1,)) * -1
    .add 260 (.ein [(37, [0]), (243, [0, 1])] [1]) (-1) 1,
    -- 5273: del tmp14
    .del 243,
    -- 5274: r1new.a += einsum(tmp17, (0,), tmp18, (0, 1), (1,)) * -2
    .add 260 (.ein [(241, [0]), (246, [0, 1])] [1]) (-2) 1,
    -- 5275: del tmp17, tmp18
    .del 241,
    .del 246
  ]
  ret := [(chars! "r1new.b", 259), (chars! "r1new.a", 260), (chars! "r2new.bbb", 255), (chars! "r2new.bab", 256), (chars! "r2new.aba", 257), (chars! "r2new.aaa", 258)]

end Ebcc.Gen.UCC2Eom
