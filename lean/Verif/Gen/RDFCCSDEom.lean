import Verif.Model.GenCode
/-!
Functions of `ebcc/codegen/RDFCCSD.py`, written by `tools/gencode.py`.  Comments give the
number and the text of the line of each statement.
-/

set_option maxRecDepth 100000

namespace Ebcc.Gen.RDFCCSDEom

/-- codegen/RDFCCSD.py:1276-1442 `hbar_matvec_ip_intermediates`. -/
def hbar_matvec_ip_intermediates : GenFun where
  args := [chars! "t1", chars! "v.xov", chars! "t2", chars! "v.xoo", chars! "v.xvv", chars! "f.ov", chars! "f.vv", chars! "f.oo"]
  body := [
    -- 1366: tmp6 = einsum(t1, (0, 1), v.xov, (2, 0, 1), (2,))
    .set 8 (.ein [(0, [0, 1]), (1, [2, 0, 1])] [2]) 1 1,
    -- 1367: tmp4 = einsum(v.xov, (0, 1, 2), t1, (3, 2), (3, 1, 0))
    .set 9 (.ein [(1, [0, 1, 2]), (0, [3, 2])] [3, 1, 0]) 1 1,
    -- 1368: tmp11 = einsum(tmp6, (0,), v.xov, (0, 1, 2), (1, 2))
    .set 10 (.ein [(8, [0]), (1, [0, 1, 2])] [1, 2]) 1 1,
    -- 1369: tmp9 = einsum(v.xov, (0, 1, 2), tmp4, (1, 3, 0), (3, 2))
    .set 11 (.ein [(1, [0, 1, 2]), (9, [1, 3, 0])] [3, 2]) 1 1,
    -- 1370: tmp17 = einsum(t2, (0, 1, 2, 3), v.xov, (4, 1, 2), (0, 3, 4))
    .set 12 (.ein [(2, [0, 1, 2, 3]), (1, [4, 1, 2])] [0, 3, 4]) 1 1,
    -- 1371: tmp20 = einsum(t2, (0, 1, 2, 3), v.xov, (4, 1, 3), (0, 2, 4))
    .set 13 (.ein [(2, [0, 1, 2, 3]), (1, [4, 1, 3])] [0, 2, 4]) 1 1,
    -- 1372: tmp37 = einsum(v.xov, (0, 1, 2), v.xov, (0, 3, 4), (3, 1, 4, 2))
    .set 14 (.ein [(1, [0, 1, 2]), (1, [0, 3, 4])] [3, 1, 4, 2]) 1 1,
    -- 1373: tmp24 = einsum(tmp11, (0, 1), t1, (2, 1), (2, 0))
    .set 15 (.ein [(10, [0, 1]), (0, [2, 1])] [2, 0]) 1 1,
    -- 1374: tmp23 = einsum(tmp9, (0, 1), t1, (2, 1), (2, 0))
    .set 16 (.ein [(11, [0, 1]), (0, [2, 1])] [2, 0]) 1 1,
    -- 1375: tmp44 = einsum(v.xoo, (0, 1, 2), tmp4, (3, 4, 0), (3, 1, 2, 4))
    .set 17 (.ein [(3, [0, 1, 2]), (9, [3, 4, 0])] [3, 1, 2, 4]) 1 1,
    -- 1376: tmp18 = einsum(v.xov, (0, 1, 2), tmp17, (3, 2, 0), (3, 1))
    .set 18 (.ein [(1, [0, 1, 2]), (12, [3, 2, 0])] [3, 1]) 1 1,
    -- 1377: tmp21 = einsum(v.xov, (0, 1, 2), tmp20, (3, 2, 0), (3, 1))
    .set 19 (.ein [(1, [0, 1, 2]), (13, [3, 2, 0])] [3, 1]) 1 1,
    -- 1378: tmp14 = einsum(v.xov, (0, 1, 2), tmp4, (3, 4, 0), (3, 1, 4, 2))
    .set 20 (.ein [(1, [0, 1, 2]), (9, [3, 4, 0])] [3, 1, 4, 2]) 1 1,
    -- 1379: tmp31 = einsum(t1, (0, 1), v.xvv, (2, 3, 1), (0, 3, 2))
    .set 21 (.ein [(0, [0, 1]), (4, [2, 3, 1])] [0, 3, 2]) 1 1,
    -- 1380: tmp0 = einsum(t1, (0, 1), f.ov, (2, 1), (2, 0))
    .set 22 (.ein [(0, [0, 1]), (5, [2, 1])] [2, 0]) 1 1,
    -- 1381: tmp110 = einsum(tmp4, (0, 1, 2), tmp4, (3, 4, 2), (3, 0, 4, 1))
    .set 23 (.ein [(9, [0, 1, 2]), (9, [3, 4, 2])] [3, 0, 4, 1]) 1 1,
    -- 1382: tmp29 = einsum(v.xvv, (0, 1, 2), tmp6, (0,), (1, 2))
    .set 24 (.ein [(4, [0, 1, 2]), (8, [0])] [1, 2]) 1 1,
    -- 1383: tmp7 = einsum(tmp6, (0,), v.xoo, (0, 1, 2), (1, 2))
    .set 25 (.ein [(8, [0]), (3, [0, 1, 2])] [1, 2]) 1 1,
    -- 1384: del tmp6
    .del 8,
    -- 1385: tmp5 = einsum(v.xoo, (0, 1, 2), tmp4, (2, 3, 0), (1, 3))
    .set 26 (.ein [(3, [0, 1, 2]), (9, [2, 3, 0])] [1, 3]) 1 1,
    -- 1386: tmp1 = einsum(v.xov, (0, 1, 2), v.xoo, (0, 3, 4), (3, 4, 1, 2))
    .set 27 (.ein [(1, [0, 1, 2]), (3, [0, 3, 4])] [3, 4, 1, 2]) 1 1,
    -- 1387: tmp57 = einsum(v.xoo, (0, 1, 2), v.xoo, (0, 3, 4), (3, 1, 2, 4))
    .set 28 (.ein [(3, [0, 1, 2]), (3, [0, 3, 4])] [3, 1, 2, 4]) 1 1,
    -- 1388: tmp38 = einsum(t2, (0, 1, 2, 3), tmp37, (4, 5, 3, 2), (0, 1, 5, 4))
    .set 29 (.ein [(2, [0, 1, 2, 3]), (14, [4, 5, 3, 2])] [0, 1, 5, 4]) 1 1,
    -- 1389: tmp34 = einsum(v.xov, (0, 1, 2), v.xvv, (0, 3, 4), (1, 3, 4, 2))
    .set 30 (.ein [(1, [0, 1, 2]), (4, [0, 3, 4])] [1, 3, 4, 2]) 1 1,
    -- 1390: tmp130 = einsum(tmp24, (0, 1), t1, (1, 2), (0, 2))
    .set 31 (.ein [(15, [0, 1]), (0, [1, 2])] [0, 2]) 1 1,
    -- 1391: tmp129 = einsum(t1, (0, 1), tmp23, (2, 0), (2, 1))
    .set 32 (.ein [(0, [0, 1]), (16, [2, 0])] [2, 1]) 1 1,
    -- 1392: tmp123 = einsum(t1, (0, 1), tmp44, (2, 3, 4, 0), (2, 3, 4, 1))
    .set 33 (.ein [(0, [0, 1]), (17, [2, 3, 4, 0])] [2, 3, 4, 1]) 1 1,
    -- 1393: tmp122 = einsum(tmp18, (0, 1), t1, (1, 2), (0, 2))
    .set 34 (.ein [(18, [0, 1]), (0, [1, 2])] [0, 2]) 1 1,
    -- 1394: tmp121 = einsum(tmp21, (0, 1), t1, (1, 2), (0, 2))
    .set 35 (.ein [(19, [0, 1]), (0, [1, 2])] [0, 2]) 1 1,
    -- 1395: tmp120 = einsum(tmp14, (0, 1, 2, 3), t2, (4, 2, 3, 5), (0, 4, 1, 5))
    .set 36 (.ein [(20, [0, 1, 2, 3]), (2, [4, 2, 3, 5])] [0, 4, 1, 5]) 1 1,
    -- 1396: tmp119 = einsum(tmp14, (0, 1, 2, 3), t2, (2, 1, 3, 4), (0, 4))
    .set 37 (.ein [(20, [0, 1, 2, 3]), (2, [2, 1, 3, 4])] [0, 4]) 1 1,
    -- 1397: tmp118 = einsum(tmp14, (0, 1, 2, 3), t2, (2, 1, 4, 3), (0, 4))
    .set 38 (.ein [(20, [0, 1, 2, 3]), (2, [2, 1, 4, 3])] [0, 4]) 1 1,
    -- 1398: tmp114 = einsum(v.xoo, (0, 1, 2), tmp31, (3, 4, 0), (3, 1, 2, 4))
    .set 39 (.ein [(3, [0, 1, 2]), (21, [3, 4, 0])] [3, 1, 2, 4]) 1 1,
    -- 1399: tmp113 = einsum(tmp0, (0, 1), t1, (0, 2), (1, 2))
    .set 40 (.ein [(22, [0, 1]), (0, [0, 2])] [1, 2]) 1 1,
    -- 1400: tmp112 = einsum(tmp110, (0, 1, 2, 3), t1, (2, 4), (1, 0, 3, 4))
    .set 41 (.ein [(23, [0, 1, 2, 3]), (0, [2, 4])] [1, 0, 3, 4]) 1 1,
    -- 1401: tmp109 = einsum(tmp4, (0, 1, 2), tmp31, (3, 4, 2), (0, 3, 1, 4))
    .set 42 (.ein [(9, [0, 1, 2]), (21, [3, 4, 2])] [0, 3, 1, 4]) 1 1,
    -- 1402: tmp108 = einsum(tmp4, (0, 1, 2), tmp31, (1, 3, 2), (0, 3))
    .set 43 (.ein [(9, [0, 1, 2]), (21, [1, 3, 2])] [0, 3]) 1 1,
    -- 1403: tmp107 = einsum(t1, (0, 1), tmp29, (2, 1), (0, 2))
    .set 44 (.ein [(0, [0, 1]), (24, [2, 1])] [0, 2]) 1 1,
    -- 1404: tmp106 = einsum(v.xvv, (0, 1, 2), tmp17, (3, 2, 0), (3, 1))
    .set 45 (.ein [(4, [0, 1, 2]), (12, [3, 2, 0])] [3, 1]) 1 1,
    -- 1405: tmp105 = einsum(tmp20, (0, 1, 2), v.xvv, (2, 3, 1), (0, 3))
    .set 46 (.ein [(13, [0, 1, 2]), (4, [2, 3, 1])] [0, 3]) 1 1,
    -- 1406: tmp103 = einsum(t1, (0, 1), f.vv, (2, 1), (0, 2))
    .set 47 (.ein [(0, [0, 1]), (6, [2, 1])] [0, 2]) 1 1,
    -- 1407: tmp99 = einsum(tmp7, (0, 1), t1, (1, 2), (0, 2))
    .set 48 (.ein [(25, [0, 1]), (0, [1, 2])] [0, 2]) 1 1,
    -- 1408: tmp98 = einsum(tmp5, (0, 1), t1, (1, 2), (0, 2))
    .set 49 (.ein [(26, [0, 1]), (0, [1, 2])] [0, 2]) 1 1,
    -- 1409: tmp96 = einsum(t2, (0, 1, 2, 3), tmp11, (4, 3), (0, 1, 4, 2))
    .set 50 (.ein [(2, [0, 1, 2, 3]), (10, [4, 3])] [0, 1, 4, 2]) 1 1,
    -- 1410: tmp95 = einsum(tmp9, (0, 1), t2, (2, 3, 4, 1), (2, 3, 0, 4))
    .set 51 (.ein [(11, [0, 1]), (2, [2, 3, 4, 1])] [2, 3, 0, 4]) 1 1,
    -- 1411: tmp89 = einsum(tmp20, (0, 1, 2), v.xov, (2, 0, 3), (1, 3))
    .set 52 (.ein [(13, [0, 1, 2]), (1, [2, 0, 3])] [1, 3]) 1 1,
    -- 1412: tmp87 = einsum(tmp17, (0, 1, 2), v.xov, (2, 0, 3), (1, 3))
    .set 53 (.ein [(12, [0, 1, 2]), (1, [2, 0, 3])] [1, 3]) 1 1,
    -- 1413: tmp86 = einsum(tmp1, (0, 1, 2, 3), t2, (4, 1, 3, 5), (4, 0, 2, 5))
    .set 54 (.ein [(27, [0, 1, 2, 3]), (2, [4, 1, 3, 5])] [4, 0, 2, 5]) 1 1,
    -- 1414: tmp85 = einsum(t2, (0, 1, 2, 3), tmp1, (4, 0, 1, 3), (4, 2))
    .set 55 (.ein [(2, [0, 1, 2, 3]), (27, [4, 0, 1, 3])] [4, 2]) 1 1,
    -- 1415: tmp84 = einsum(t2, (0, 1, 2, 3), tmp1, (4, 0, 1, 2), (4, 3))
    .set 56 (.ein [(2, [0, 1, 2, 3]), (27, [4, 0, 1, 2])] [4, 3]) 1 1,
    -- 1416: tmp78 = einsum(f.ov, (0, 1), t2, (2, 3, 4, 1), (0, 2, 3, 4))
    .set 57 (.ein [(5, [0, 1]), (2, [2, 3, 4, 1])] [0, 2, 3, 4]) 1 1,
    -- 1417: tmp76 = einsum(f.oo, (0, 1), t1, (1, 2), (0, 2))
    .set 58 (.ein [(7, [0, 1]), (0, [1, 2])] [0, 2]) 1 1,
    -- 1418: tmp75 = einsum(t2, (0, 1, 2, 3), tmp11, (1, 3), (0, 2))
    .set 59 (.ein [(2, [0, 1, 2, 3]), (10, [1, 3])] [0, 2]) 1 1,
    -- 1419: tmp74 = einsum(t2, (0, 1, 2, 3), tmp11, (1, 2), (0, 3))
    .set 60 (.ein [(2, [0, 1, 2, 3]), (10, [1, 2])] [0, 3]) 1 1,
    -- 1420: tmp73 = einsum(t2, (0, 1, 2, 3), tmp9, (1, 3), (0, 2))
    .set 61 (.ein [(2, [0, 1, 2, 3]), (11, [1, 3])] [0, 2]) 1 1,
    -- 1421: tmp72 = einsum(t2, (0, 1, 2, 3), tmp9, (1, 2), (0, 3))
    .set 62 (.ein [(2, [0, 1, 2, 3]), (11, [1, 2])] [0, 3]) 1 1,
    -- 1422: tmp67 = einsum(t2, (0, 1, 2, 3), tmp37, (1, 4, 5, 3), (0, 4, 2, 5))
    .set 63 (.ein [(2, [0, 1, 2, 3]), (14, [1, 4, 5, 3])] [0, 4, 2, 5]) 1 1,
    -- 1423: tmp66 = einsum(tmp37, (0, 1, 2, 3), t2, (4, 0, 3, 5), (4, 1, 5, 2))
    .set 64 (.ein [(14, [0, 1, 2, 3]), (2, [4, 0, 3, 5])] [4, 1, 5, 2]) 1 1,
    -- 1424: tmp65 = einsum(v.xoo, (0, 1, 2), tmp17, (3, 4, 0), (3, 1, 2, 4))
    .set 65 (.ein [(3, [0, 1, 2]), (12, [3, 4, 0])] [3, 1, 2, 4]) 1 1,
    -- 1425: tmp63 = einsum(v.xoo, (0, 1, 2), tmp20, (3, 4, 0), (3, 1, 2, 4))
    .set 66 (.ein [(3, [0, 1, 2]), (13, [3, 4, 0])] [3, 1, 2, 4]) 1 1,
    -- 1426: tmp62 = einsum(t2, (0, 1, 2, 3), tmp1, (4, 1, 5, 3), (0, 4, 5, 2))
    .set 67 (.ein [(2, [0, 1, 2, 3]), (27, [4, 1, 5, 3])] [0, 4, 5, 2]) 1 1,
    -- 1427: tmp59 = einsum(t1, (0, 1), tmp57, (2, 3, 4, 0), (3, 4, 2, 1))
    .set 68 (.ein [(0, [0, 1]), (28, [2, 3, 4, 0])] [3, 4, 2, 1]) 1 1,
    -- 1428: tmp56 = einsum(f.ov, (0, 1), t2, (2, 0, 3, 1), (2, 3))
    .set 69 (.ein [(5, [0, 1]), (2, [2, 0, 3, 1])] [2, 3]) 1 1,
    -- 1429: tmp55 = einsum(f.ov, (0, 1), t2, (2, 0, 1, 3), (2, 3))
    .set 70 (.ein [(5, [0, 1]), (2, [2, 0, 1, 3])] [2, 3]) 1 1,
    -- 1430: tmp52 = einsum(t1, (0, 1), tmp44, (2, 3, 0, 4), (2, 3, 4, 1))
    .set 71 (.ein [(0, [0, 1]), (17, [2, 3, 0, 4])] [2, 3, 4, 1]) 1 1,
    -- 1431: tmp51 = einsum(tmp17, (0, 1, 2), tmp4, (3, 4, 2), (3, 0, 4, 1))
    .set 72 (.ein [(12, [0, 1, 2]), (9, [3, 4, 2])] [3, 0, 4, 1]) 1 1,
    -- 1432: tmp50 = einsum(tmp14, (0, 1, 2, 3), t2, (4, 2, 5, 3), (0, 4, 1, 5))
    .set 73 (.ein [(20, [0, 1, 2, 3]), (2, [4, 2, 5, 3])] [0, 4, 1, 5]) 1 1,
    -- 1433: tmp48 = einsum(tmp20, (0, 1, 2), tmp4, (3, 4, 2), (3, 0, 4, 1))
    .set 74 (.ein [(13, [0, 1, 2]), (9, [3, 4, 2])] [3, 0, 4, 1]) 1 1,
    -- 1434: tmp43 = einsum(v.xoo, (0, 1, 2), tmp31, (2, 3, 0), (1, 3))
    .set 75 (.ein [(3, [0, 1, 2]), (21, [2, 3, 0])] [1, 3]) 1 1,
    -- 1435: tmp42 = einsum(v.xvv, (0, 1, 2), v.xoo, (0, 3, 4), (3, 4, 1, 2))
    .set 76 (.ein [(4, [0, 1, 2]), (3, [0, 3, 4])] [3, 4, 1, 2]) 1 1,
    -- 1436: tmp40 = einsum(t1, (0, 1), tmp38, (2, 3, 4, 0), (2, 3, 4, 1))
    .set 77 (.ein [(0, [0, 1]), (29, [2, 3, 4, 0])] [2, 3, 4, 1]) 1 1,
    -- 1437: tmp35 = einsum(tmp34, (0, 1, 2, 3), t2, (4, 5, 3, 2), (4, 5, 0, 1))
    .set 78 (.ein [(30, [0, 1, 2, 3]), (2, [4, 5, 3, 2])] [4, 5, 0, 1]) 1 1,
    -- 1438: del tmp34
    .del 30,
    -- 1439: tmp33 = einsum(tmp4, (0, 1, 2), v.xvv, (2, 3, 4), (0, 1, 3, 4))
    .set 79 (.ein [(9, [0, 1, 2]), (4, [2, 3, 4])] [0, 1, 3, 4]) 1 1,
    -- 1440: tmp32 = einsum(tmp31, (0, 1, 2), v.xov, (2, 0, 3), (3, 1))
    .set 80 (.ein [(21, [0, 1, 2]), (1, [2, 0, 3])] [3, 1]) 1 1
  ]
  ret := [(chars! "tmp0", 22), (chars! "tmp1", 27), (chars! "tmp103", 47), (chars! "tmp105", 46), (chars! "tmp106", 45), (chars! "tmp107", 44), (chars! "tmp108", 43), (chars! "tmp109", 42), (chars! "tmp11", 10), (chars! "tmp110", 23), (chars! "tmp112", 41), (chars! "tmp113", 40), (chars! "tmp114", 39), (chars! "tmp118", 38), (chars! "tmp119", 37), (chars! "tmp120", 36), (chars! "tmp121", 35), (chars! "tmp122", 34), (chars! "tmp123", 33), (chars! "tmp129", 32), (chars! "tmp130", 31), (chars! "tmp14", 20), (chars! "tmp17", 12), (chars! "tmp18", 18), (chars! "tmp20", 13), (chars! "tmp21", 19), (chars! "tmp23", 16), (chars! "tmp24", 15), (chars! "tmp29", 24), (chars! "tmp31", 21), (chars! "tmp32", 80), (chars! "tmp33", 79), (chars! "tmp35", 78), (chars! "tmp37", 14), (chars! "tmp38", 29), (chars! "tmp4", 9), (chars! "tmp40", 77), (chars! "tmp42", 76), (chars! "tmp43", 75), (chars! "tmp44", 17), (chars! "tmp48", 74), (chars! "tmp5", 26), (chars! "tmp50", 73), (chars! "tmp51", 72), (chars! "tmp52", 71), (chars! "tmp55", 70), (chars! "tmp56", 69), (chars! "tmp57", 28), (chars! "tmp59", 68), (chars! "tmp62", 67), (chars! "tmp63", 66), (chars! "tmp65", 65), (chars! "tmp66", 64), (chars! "tmp67", 63), (chars! "tmp7", 25), (chars! "tmp72", 62), (chars! "tmp73", 61), (chars! "tmp74", 60), (chars! "tmp75", 59), (chars! "tmp76", 58), (chars! "tmp78", 57), (chars! "tmp84", 56), (chars! "tmp85", 55), (chars! "tmp86", 54), (chars! "tmp87", 53), (chars! "tmp89", 52), (chars! "tmp9", 11), (chars! "tmp95", 51), (chars! "tmp96", 50), (chars! "tmp98", 49), (chars! "tmp99", 48)]

/-- codegen/RDFCCSD.py:1444-1679 `hbar_matvec_ip`. -/
def hbar_matvec_ip : GenFun where
  args := [chars! "r2", chars! "f.ov", chars! "ints.tmp11", chars! "ints.tmp9", chars! "ints.tmp4", chars! "v.xoo", chars! "v.xov", chars! "ints.tmp14", chars! "ints.tmp1", chars! "ints.tmp110", chars! "ints.tmp44", chars! "ints.tmp112", chars! "ints.tmp120", chars! "ints.tmp123", chars! "ints.tmp40", chars! "ints.tmp50", chars! "ints.tmp51", chars! "ints.tmp52", chars! "ints.tmp59", chars! "ints.tmp62", chars! "ints.tmp65", chars! "ints.tmp86", chars! "ints.tmp95", chars! "ints.tmp109", chars! "ints.tmp114", chars! "ints.tmp35", chars! "ints.tmp48", chars! "ints.tmp63", chars! "ints.tmp78", chars! "ints.tmp96", chars! "ints.tmp20", chars! "ints.tmp31", chars! "ints.tmp17", chars! "ints.tmp33", chars! "ints.tmp42", chars! "ints.tmp66", chars! "ints.tmp106", chars! "ints.tmp108", chars! "ints.tmp113", chars! "ints.tmp118", chars! "ints.tmp121", chars! "ints.tmp130", chars! "ints.tmp43", chars! "ints.tmp55", chars! "ints.tmp73", chars! "ints.tmp74", chars! "ints.tmp76", chars! "ints.tmp85", chars! "ints.tmp99", chars! "ints.tmp103", chars! "ints.tmp105", chars! "ints.tmp107", chars! "ints.tmp119", chars! "ints.tmp122", chars! "ints.tmp129", chars! "ints.tmp56", chars! "ints.tmp72", chars! "ints.tmp75", chars! "ints.tmp84", chars! "ints.tmp98", chars! "ints.tmp37", chars! "ints.tmp38", chars! "ints.tmp57", chars! "ints.tmp67", chars! "f.oo", chars! "ints.tmp0", chars! "ints.tmp21", chars! "ints.tmp24", chars! "ints.tmp7", chars! "ints.tmp18", chars! "ints.tmp23", chars! "ints.tmp5", chars! "ints.tmp32", chars! "ints.tmp89", chars! "f.vv", chars! "ints.tmp29", chars! "ints.tmp87", chars! "t1", chars! "r1", chars! "t2"]
  body := [
    -- 1472: tmp3 = np.copy(r2) * 2
    .set 80 (.cp 0) 2 1,
    -- 1473: tmp3 += np.transpose(r2, (1, 0, 2)) * -1
    .add 80 (.tr 0 [1, 0, 2]) (-1) 1,
    -- 1474: tmp2 = np.copy(f.ov) * 0.5
    .set 81 (.cp 1) 1 2,
    -- 1475: tmp2 += ints.tmp11
    .add 81 (.cp 2) 1 1,
    -- 1476: tmp2 += ints.tmp9 * -0.5
    .add 81 (.cp 3) (-1) 2,
    -- 1477: del ints.tmp9
    .del 3,
    -- 1478: tmp15 = np.copy(ints.tmp4)
    .set 82 (.cp 4) 1 1,
    -- 1479: del ints.tmp4
    .del 4,
    -- 1480: tmp15 += np.transpose(v.xoo, (1, 2, 0))
    .add 82 (.tr 5 [1, 2, 0]) 1 1,
    -- 1481: tmp9 = einsum(v.xov, (0, 1, 2), tmp3, (1, 3, 2), (3, 0)) * 0.5
    .set 83 (.ein [(6, [0, 1, 2]), (80, [1, 3, 2])] [3, 0]) 1 2,
    -- 1482: tmp14 = np.copy(ints.tmp14)
    .set 84 (.cp 7) 1 1,
    -- 1483: tmp14 += np.transpose(ints.tmp1, (0, 2, 1, 3))
    .add 84 (.tr 8 [0, 2, 1, 3]) 1 1,
    -- 1484: tmp8 = np.copy(ints.tmp110)
    .set 85 (.cp 9) 1 1,
    -- 1485: del ints.tmp110
    .del 9,
    -- 1486: tmp8 += np.transpose(ints.tmp44, (2, 0, 1, 3))
    .add 85 (.tr 10 [2, 0, 1, 3]) 1 1,
    -- 1487: tmp12 = np.copy(ints.tmp112)
    .set 86 (.cp 11) 1 1,
    -- 1488: del ints.tmp112
    .del 11,
    -- 1489: tmp12 += np.transpose(ints.tmp120, (1, 0, 2, 3))
    .add 86 (.tr 12 [1, 0, 2, 3]) 1 1,
    -- 1490: del ints.tmp120
    .del 12,
    -- 1491: tmp12 += np.transpose(ints.tmp123, (2, 0, 1, 3))
    .add 86 (.tr 13 [2, 0, 1, 3]) 1 1,
    -- 1492: del ints.tmp123
    .del 13,
    -- 1493: tmp12 += ints.tmp40
    .add 86 (.cp 14) 1 1,
    -- 1494: del ints.tmp40
    .del 14,
    -- 1495: tmp12 += ints.tmp50
    .add 86 (.cp 15) 1 1,
    -- 1496: del ints.tmp50
    .del 15,
    -- 1497: tmp12 += ints.tmp51
    .add 86 (.cp 16) 1 1,
    -- 1498: del ints.tmp51
    .del 16,
    -- 1499: tmp12 += ints.tmp52
    .add 86 (.cp 17) 1 1,
    -- 1500: del ints.tmp52
    .del 17,
    -- 1501: tmp12 += np.transpose(ints.tmp59, (1, 2, 0, 3))
    .add 86 (.tr 18 [1, 2, 0, 3]) 1 1,
    -- 1502: del ints.tmp59
    .del 18,
    -- 1503: tmp12 += np.transpose(ints.tmp62, (1, 0, 2, 3))
    .add 86 (.tr 19 [1, 0, 2, 3]) 1 1,
    -- 1504: del ints.tmp62
    .del 19,
    -- 1505: tmp12 += np.transpose(ints.tmp65, (2, 0, 1, 3))
    .add 86 (.tr 20 [2, 0, 1, 3]) 1 1,
    -- 1506: del ints.tmp65
    .del 20,
    -- 1507: tmp12 += ints.tmp86
    .add 86 (.cp 21) 1 1,
    -- 1508: del ints.tmp86
    .del 21,
    -- 1509: tmp12 += np.transpose(ints.tmp95, (1, 0, 2, 3))
    .add 86 (.tr 22 [1, 0, 2, 3]) 1 1,
    -- 1510: del ints.tmp95
    .del 22,
    -- 1511: tmp12 += ints.tmp109 * -1
    .add 86 (.cp 23) (-1) 1,
    -- 1512: del ints.tmp109
    .del 23,
    -- 1513: tmp12 += np.transpose(ints.tmp114, (2, 0, 1, 3)) * -1
    .add 86 (.tr 24 [2, 0, 1, 3]) (-1) 1,
    -- 1514: del ints.tmp114
    .del 24,
    -- 1515: tmp12 += ints.tmp14 * -1
    .add 86 (.cp 7) (-1) 1,
    -- 1516: tmp12 += np.transpose(ints.tmp1, (0, 2, 1, 3)) * -1
    .add 86 (.tr 8 [0, 2, 1, 3]) (-1) 1,
    -- 1517: tmp12 += ints.tmp35 * -1
    .add 86 (.cp 25) (-1) 1,
    -- 1518: del ints.tmp35
    .del 25,
    -- 1519: tmp12 += ints.tmp48 * -2
    .add 86 (.cp 26) (-2) 1,
    -- 1520: del ints.tmp48
    .del 26,
    -- 1521: tmp12 += np.transpose(ints.tmp63, (2, 0, 1, 3)) * -2
    .add 86 (.tr 27 [2, 0, 1, 3]) (-2) 1,
    -- 1522: del ints.tmp63
    .del 27,
    -- 1523: tmp12 += np.transpose(ints.tmp78, (2, 1, 0, 3)) * -1
    .add 86 (.tr 28 [2, 1, 0, 3]) (-1) 1,
    -- 1524: del ints.tmp78
    .del 28,
    -- 1525: tmp12 += np.transpose(ints.tmp96, (1, 0, 2, 3)) * -2
    .add 86 (.tr 29 [1, 0, 2, 3]) (-2) 1,
    -- 1526: del ints.tmp96
    .del 29,
    -- 1527: tmp10 = np.copy(ints.tmp20) * 2
    .set 87 (.cp 30) 2 1,
    -- 1528: del ints.tmp20
    .del 30,
    -- 1529: tmp10 += ints.tmp31
    .add 87 (.cp 31) 1 1,
    -- 1530: del ints.tmp31
    .del 31,
    -- 1531: tmp10 += np.transpose(v.xov, (1, 2, 0))
    .add 87 (.tr 6 [1, 2, 0]) 1 1,
    -- 1532: tmp10 += ints.tmp17 * -1
    .add 87 (.cp 32) (-1) 1,
    -- 1533: del ints.tmp17
    .del 32,
    -- 1534: tmp6 = np.copy(ints.tmp33)
    .set 88 (.cp 33) 1 1,
    -- 1535: tmp6 += ints.tmp42
    .add 88 (.cp 34) 1 1,
    -- 1536: tmp6 += ints.tmp66 * -1
    .add 88 (.cp 35) (-1) 1,
    -- 1537: tmp18 = np.copy(ints.tmp106)
    .set 89 (.cp 36) 1 1,
    -- 1538: del ints.tmp106
    .del 36,
    -- 1539: tmp18 += ints.tmp108
    .add 89 (.cp 37) 1 1,
    -- 1540: del ints.tmp108
    .del 37,
    -- 1541: tmp18 += ints.tmp113
    .add 89 (.cp 38) 1 1,
    -- 1542: del ints.tmp113
    .del 38,
    -- 1543: tmp18 += ints.tmp118 * 2
    .add 89 (.cp 39) 2 1,
    -- 1544: del ints.tmp118
    .del 39,
    -- 1545: tmp18 += ints.tmp121 * 2
    .add 89 (.cp 40) 2 1,
    -- 1546: del ints.tmp121
    .del 40,
    -- 1547: tmp18 += ints.tmp130 * 2
    .add 89 (.cp 41) 2 1,
    -- 1548: del ints.tmp130
    .del 41,
    -- 1549: tmp18 += ints.tmp43
    .add 89 (.cp 42) 1 1,
    -- 1550: del ints.tmp43
    .del 42,
    -- 1551: tmp18 += ints.tmp55
    .add 89 (.cp 43) 1 1,
    -- 1552: del ints.tmp55
    .del 43,
    -- 1553: tmp18 += ints.tmp73 * 2
    .add 89 (.cp 44) 2 1,
    -- 1554: del ints.tmp73
    .del 44,
    -- 1555: tmp18 += ints.tmp74 * 2
    .add 89 (.cp 45) 2 1,
    -- 1556: del ints.tmp74
    .del 45,
    -- 1557: tmp18 += ints.tmp76
    .add 89 (.cp 46) 1 1,
    -- 1558: del ints.tmp76
    .del 46,
    -- 1559: tmp18 += ints.tmp85 * 2
    .add 89 (.cp 47) 2 1,
    -- 1560: del ints.tmp85
    .del 47,
    -- 1561: tmp18 += ints.tmp99 * 2
    .add 89 (.cp 48) 2 1,
    -- 1562: del ints.tmp99
    .del 48,
    -- 1563: tmp18 += f.ov * -1
    .add 89 (.cp 1) (-1) 1,
    -- 1564: tmp18 += ints.tmp103 * -1
    .add 89 (.cp 49) (-1) 1,
    -- 1565: del ints.tmp103
    .del 49,
    -- 1566: tmp18 += ints.tmp105 * -2
    .add 89 (.cp 50) (-2) 1,
    -- 1567: del ints.tmp105
    .del 50,
    -- 1568: tmp18 += ints.tmp107 * -2
    .add 89 (.cp 51) (-2) 1,
    -- 1569: del ints.tmp107
    .del 51,
    -- 1570: tmp18 += ints.tmp119 * -1
    .add 89 (.cp 52) (-1) 1,
    -- 1571: del ints.tmp119
    .del 52,
    -- 1572: tmp18 += ints.tmp11 * -2
    .add 89 (.cp 2) (-2) 1,
    -- 1573: del ints.tmp11
    .del 2,
    -- 1574: tmp18 += ints.tmp122 * -1
    .add 89 (.cp 53) (-1) 1,
    -- 1575: del ints.tmp122
    .del 53,
    -- 1576: tmp18 += ints.tmp129 * -1
    .add 89 (.cp 54) (-1) 1,
    -- 1577: del ints.tmp129
    .del 54,
    -- 1578: tmp18 += ints.tmp56 * -2
    .add 89 (.cp 55) (-2) 1,
    -- 1579: del ints.tmp56
    .del 55,
    -- 1580: tmp18 += ints.tmp72 * -1
    .add 89 (.cp 56) (-1) 1,
    -- 1581: del ints.tmp72
    .del 56,
    -- 1582: tmp18 += ints.tmp75 * -4
    .add 89 (.cp 57) (-4) 1,
    -- 1583: del ints.tmp75
    .del 57,
    -- 1584: tmp18 += ints.tmp84 * -1
    .add 89 (.cp 58) (-1) 1,
    -- 1585: del ints.tmp84
    .del 58,
    -- 1586: tmp18 += ints.tmp98 * -1
    .add 89 (.cp 59) (-1) 1,
    -- 1587: del ints.tmp98
    .del 59,
    -- 1588: tmp17 = einsum(tmp3, (0, 1, 2), ints.tmp37, (0, 1, 2, 3), (3,)) * 0.5
    .set 90 (.ein [(80, [0, 1, 2]), (60, [0, 1, 2, 3])] [3]) 1 2,
    -- 1589: del ints.tmp37
    .del 60,
    -- 1590: tmp7 = np.copy(ints.tmp38)
    .set 91 (.cp 61) 1 1,
    -- 1591: del ints.tmp38
    .del 61,
    -- 1592: tmp7 += np.transpose(ints.tmp44, (2, 0, 1, 3))
    .add 91 (.tr 10 [2, 0, 1, 3]) 1 1,
    -- 1593: del ints.tmp44
    .del 10,
    -- 1594: tmp7 += np.transpose(ints.tmp57, (2, 0, 1, 3))
    .add 91 (.tr 62 [2, 0, 1, 3]) 1 1,
    -- 1595: del ints.tmp57
    .del 62,
    -- 1596: tmp5 = np.copy(ints.tmp33) * 0.5
    .set 92 (.cp 33) 1 2,
    -- 1597: del ints.tmp33
    .del 33,
    -- 1598: tmp5 += ints.tmp42 * 0.5
    .add 92 (.cp 34) 1 2,
    -- 1599: del ints.tmp42
    .del 34,
    -- 1600: tmp5 += ints.tmp67
    .add 92 (.cp 63) 1 1,
    -- 1601: tmp5 += ints.tmp66 * -0.5
    .add 92 (.cp 35) (-1) 2,
    -- 1602: del ints.tmp66
    .del 35,
    -- 1603: tmp13 = np.copy(f.oo) * 0.5
    .set 93 (.cp 64) 1 2,
    -- 1604: tmp13 += ints.tmp0 * 0.5
    .add 93 (.cp 65) 1 2,
    -- 1605: tmp13 += np.transpose(ints.tmp21, (1, 0))
    .add 93 (.tr 66 [1, 0]) 1 1,
    -- 1606: tmp13 += np.transpose(ints.tmp24, (1, 0))
    .add 93 (.tr 67 [1, 0]) 1 1,
    -- 1607: tmp13 += np.transpose(ints.tmp7, (1, 0))
    .add 93 (.tr 68 [1, 0]) 1 1,
    -- 1608: tmp13 += np.transpose(ints.tmp18, (1, 0)) * -0.5
    .add 93 (.tr 69 [1, 0]) (-1) 2,
    -- 1609: tmp13 += np.transpose(ints.tmp23, (1, 0)) * -0.5
    .add 93 (.tr 70 [1, 0]) (-1) 2,
    -- 1610: tmp13 += np.transpose(ints.tmp5, (1, 0)) * -0.5
    .add 93 (.tr 71 [1, 0]) (-1) 2,
    -- 1611: tmp11 = np.copy(ints.tmp32)
    .set 94 (.cp 72) 1 1,
    -- 1612: del ints.tmp32
    .del 72,
    -- 1613: tmp11 += np.transpose(ints.tmp89, (1, 0)) * 2
    .add 94 (.tr 73 [1, 0]) 2 1,
    -- 1614: del ints.tmp89
    .del 73,
    -- 1615: tmp11 += f.vv * -1
    .add 94 (.cp 74) (-1) 1,
    -- 1616: tmp11 += np.transpose(ints.tmp29, (1, 0)) * -2
    .add 94 (.tr 75 [1, 0]) (-2) 1,
    -- 1617: del ints.tmp29
    .del 75,
    -- 1618: tmp11 += np.transpose(ints.tmp87, (1, 0)) * -1
    .add 94 (.tr 76 [1, 0]) (-1) 1,
    -- 1619: del ints.tmp87
    .del 76,
    -- 1620: tmp11 += einsum(t1, (0, 1), tmp2, (0, 2), (2, 1)) * 2
    .add 94 (.ein [(77, [0, 1]), (81, [0, 2])] [2, 1]) 2 1,
    -- 1621: tmp16 = einsum(r2, (0, 1, 2), tmp14, (3, 4, 1, 2), (3, 4, 0))
    .set 95 (.ein [(0, [0, 1, 2]), (84, [3, 4, 1, 2])] [3, 4, 0]) 1 1,
    -- 1622: tmp16 += einsum(tmp14, (0, 1, 2, 3), r2, (2, 4, 3), (4, 1, 0))
    .add 95 (.ein [(84, [0, 1, 2, 3]), (0, [2, 4, 3])] [4, 1, 0]) 1 1,
    -- 1623: del tmp14
    .del 84,
    -- 1624: tmp16 += einsum(tmp15, (0, 1, 2), tmp9, (3, 2), (3, 1, 0)) * -2
    .add 95 (.ein [(82, [0, 1, 2]), (83, [3, 2])] [3, 1, 0]) (-2) 1,
    -- 1625: del tmp15
    .del 82,
    -- 1626: tmp4 = np.copy(f.oo)
    .set 96 (.cp 64) 1 1,
    -- 1627: tmp4 += ints.tmp0
    .add 96 (.cp 65) 1 1,
    -- 1628: del ints.tmp0
    .del 65,
    -- 1629: tmp4 += np.transpose(ints.tmp21, (1, 0)) * 2
    .add 96 (.tr 66 [1, 0]) 2 1,
    -- 1630: del ints.tmp21
    .del 66,
    -- 1631: tmp4 += np.transpose(ints.tmp24, (1, 0)) * 2
    .add 96 (.tr 67 [1, 0]) 2 1,
    -- 1632: del ints.tmp24
    .del 67,
    -- 1633: tmp4 += np.transpose(ints.tmp7, (1, 0)) * 2
    .add 96 (.tr 68 [1, 0]) 2 1,
    -- 1634: del ints.tmp7
    .del 68,
    -- 1635: tmp4 += np.transpose(ints.tmp18, (1, 0)) * -1
    .add 96 (.tr 69 [1, 0]) (-1) 1,
    -- 1636: del ints.tmp18
    .del 69,
    -- 1637: tmp4 += np.transpose(ints.tmp23, (1, 0)) * -1
    .add 96 (.tr 70 [1, 0]) (-1) 1,
    -- 1638: del ints.tmp23
    .del 70,
    -- 1639: tmp4 += np.transpose(ints.tmp5, (1, 0)) * -1
    .add 96 (.tr 71 [1, 0]) (-1) 1,
    -- 1640: del ints.tmp5
    .del 71,
    -- 1641: tmp1 = np.copy(r2)
    .set 97 (.cp 0) 1 1,
    -- 1642: tmp1 += np.transpose(r2, (1, 0, 2)) * -0.5
    .add 97 (.tr 0 [1, 0, 2]) (-1) 2,
    -- 1643: tmp0 = np.copy(r2) * -1
    .set 98 (.cp 0) (-1) 1,
    -- 1644: tmp0 += np.transpose(r2, (1, 0, 2)) * 2
    .add 98 (.tr 0 [1, 0, 2]) 2 1,
    -- 1645: r2new = einsum(ints.tmp67, (0, 1, 2, 3), r2, (4, 1, 3), (0, 4, 2))
    .set 99 (.ein [(63, [0, 1, 2, 3]), (0, [4, 1, 3])] [0, 4, 2]) 1 1,
    -- 1646: del ints.tmp67
    .del 63,
    -- 1647: r2new += einsum(r2, (0, 1, 2), tmp5, (3, 0, 4, 2), (3, 1, 4)) * -2
    .add 99 (.ein [(0, [0, 1, 2]), (92, [3, 0, 4, 2])] [3, 1, 4]) (-2) 1,
    -- 1648: del tmp5
    .del 92,
    -- 1649: r2new += einsum(r2, (0, 1, 2), tmp6, (3, 1, 4, 2), (0, 3, 4)) * -1
    .add 99 (.ein [(0, [0, 1, 2]), (88, [3, 1, 4, 2])] [0, 3, 4]) (-1) 1,
    -- 1650: del tmp6
    .del 88,
    -- 1651: r2new += einsum(r2, (0, 1, 2), tmp7, (3, 4, 0, 1), (3, 4, 2))
    .add 99 (.ein [(0, [0, 1, 2]), (91, [3, 4, 0, 1])] [3, 4, 2]) 1 1,
    -- 1652: del tmp7
    .del 91,
    -- 1653: r2new += einsum(r2, (0, 1, 2), tmp8, (3, 4, 1, 0), (4, 3, 2))
    .add 99 (.ein [(0, [0, 1, 2]), (85, [3, 4, 1, 0])] [4, 3, 2]) 1 1,
    -- 1654: del tmp8
    .del 85,
    -- 1655: r2new += einsum(tmp9, (0, 1), tmp10, (2, 3, 1), (2, 0, 3)) * 2
    .add 99 (.ein [(83, [0, 1]), (87, [2, 3, 1])] [2, 0, 3]) 2 1,
    -- 1656: del tmp9, tmp10
    .del 83,
    .del 87,
    -- 1657: r2new += einsum(r2, (0, 1, 2), tmp11, (2, 3), (0, 1, 3)) * -1
    .add 99 (.ein [(0, [0, 1, 2]), (94, [2, 3])] [0, 1, 3]) (-1) 1,
    -- 1658: del tmp11
    .del 94,
    -- 1659: r2new += einsum(r1, (0,), tmp12, (1, 2, 0, 3), (2, 1, 3)) * -1
    .add 99 (.ein [(78, [0]), (86, [1, 2, 0, 3])] [2, 1, 3]) (-1) 1,
    -- 1660: del tmp12
    .del 86,
    -- 1661: r2new += einsum(tmp13, (0, 1), r2, (0, 2, 3), (1, 2, 3)) * -2
    .add 99 (.ein [(93, [0, 1]), (0, [0, 2, 3])] [1, 2, 3]) (-2) 1,
    -- 1662: r2new += einsum(r2, (0, 1, 2), tmp13, (1, 3), (0, 3, 2)) * -2
    .add 99 (.ein [(0, [0, 1, 2]), (93, [1, 3])] [0, 3, 2]) (-2) 1,
    -- 1663: del tmp13
    .del 93,
    -- 1664: r2new += einsum(t1, (0, 1), tmp16, (2, 0, 3), (3, 2, 1))
    .add 99 (.ein [(77, [0, 1]), (95, [2, 0, 3])] [3, 2, 1]) 1 1,
    -- 1665: del tmp16
    .del 95,
    -- 1666: r2new += einsum(t2, (0, 1, 2, 3), tmp17, (3,), (0, 1, 2)) * -2
    .add 99 (.ein [(79, [0, 1, 2, 3]), (90, [3])] [0, 1, 2]) (-2) 1,
    -- 1667: del tmp17
    .del 90,
    -- 1668: r2new += einsum(r1, (0,), tmp18, (1, 2), (1, 0, 2))
    .add 99 (.ein [(78, [0]), (89, [1, 2])] [1, 0, 2]) 1 1,
    -- 1669: del tmp18
    .del 89,
    -- 1670: r1new = einsum(ints.tmp14, (0, 1, 2, 3), tmp0, (2, 1, 3), (0,))
    .set 100 (.ein [(7, [0, 1, 2, 3]), (98, [2, 1, 3])] [0]) 1 1,
    -- 1671: del ints.tmp14, tmp0
    .del 7,
    .del 98,
    -- 1672: r1new += einsum(tmp1, (0, 1, 2), ints.tmp1, (3, 1, 0, 2), (3,)) * 2
    .add 100 (.ein [(97, [0, 1, 2]), (8, [3, 1, 0, 2])] [3]) 2 1,
    -- 1673: del ints.tmp1, tmp1
    .del 8,
    .del 97,
    -- 1674: r1new += einsum(tmp3, (0, 1, 2), tmp2, (0, 2), (1,)) * -2
    .add 100 (.ein [(80, [0, 1, 2]), (81, [0, 2])] [1]) (-2) 1,
    -- 1675: del tmp3, tmp2
    .del 80,
    .del 81,
    -- 1676: r1new += einsum(r1, (0,), tmp4, (0, 1), (1,)) * -1
    .add 100 (.ein [(78, [0]), (96, [0, 1])] [1]) (-1) 1,
    -- 1677: del tmp4
    .del 96
  ]
  ret := [(chars! "r1new", 100), (chars! "r2new", 99)]

/-- codegen/RDFCCSD.py:2052-2218 `hbar_lmatvec_ip_intermediates`. -/
def hbar_lmatvec_ip_intermediates : GenFun where
  args := [chars! "t1", chars! "v.xov", chars! "t2", chars! "v.xvv", chars! "v.xoo", chars! "f.ov", chars! "f.vv", chars! "f.oo"]
  body := [
    -- 2142: tmp15 = einsum(t1, (0, 1), v.xov, (2, 0, 1), (2,))
    .set 8 (.ein [(0, [0, 1]), (1, [2, 0, 1])] [2]) 1 1,
    -- 2143: tmp13 = einsum(v.xov, (0, 1, 2), t1, (3, 2), (3, 1, 0))
    .set 9 (.ein [(1, [0, 1, 2]), (0, [3, 2])] [3, 1, 0]) 1 1,
    -- 2144: tmp22 = einsum(tmp15, (0,), v.xov, (0, 1, 2), (1, 2))
    .set 10 (.ein [(8, [0]), (1, [0, 1, 2])] [1, 2]) 1 1,
    -- 2145: tmp62 = einsum(v.xov, (0, 1, 2), tmp13, (1, 3, 0), (3, 2))
    .set 11 (.ein [(1, [0, 1, 2]), (9, [1, 3, 0])] [3, 2]) 1 1,
    -- 2146: tmp101 = einsum(v.xov, (0, 1, 2), v.xov, (0, 3, 4), (3, 1, 4, 2))
    .set 12 (.ein [(1, [0, 1, 2]), (1, [0, 3, 4])] [3, 1, 4, 2]) 1 1,
    -- 2147: tmp32 = einsum(t2, (0, 1, 2, 3), v.xov, (4, 1, 2), (0, 3, 4))
    .set 13 (.ein [(2, [0, 1, 2, 3]), (1, [4, 1, 2])] [0, 3, 4]) 1 1,
    -- 2148: tmp35 = einsum(t2, (0, 1, 2, 3), v.xov, (4, 1, 3), (0, 2, 4))
    .set 14 (.ein [(2, [0, 1, 2, 3]), (1, [4, 1, 3])] [0, 2, 4]) 1 1,
    -- 2149: tmp25 = einsum(t1, (0, 1), v.xvv, (2, 3, 1), (0, 3, 2))
    .set 15 (.ein [(0, [0, 1]), (3, [2, 3, 1])] [0, 3, 2]) 1 1,
    -- 2150: tmp133 = einsum(tmp13, (0, 1, 2), tmp13, (3, 4, 2), (0, 3, 1, 4))
    .set 16 (.ein [(9, [0, 1, 2]), (9, [3, 4, 2])] [0, 3, 1, 4]) 1 1,
    -- 2151: tmp107 = einsum(tmp22, (0, 1), t1, (2, 1), (2, 0))
    .set 17 (.ein [(10, [0, 1]), (0, [2, 1])] [2, 0]) 1 1,
    -- 2152: tmp106 = einsum(t1, (0, 1), tmp62, (2, 1), (0, 2))
    .set 18 (.ein [(0, [0, 1]), (11, [2, 1])] [0, 2]) 1 1,
    -- 2153: tmp119 = einsum(v.xvv, (0, 1, 2), tmp15, (0,), (1, 2))
    .set 19 (.ein [(3, [0, 1, 2]), (8, [0])] [1, 2]) 1 1,
    -- 2154: tmp114 = einsum(v.xoo, (0, 1, 2), tmp13, (3, 4, 0), (3, 1, 2, 4))
    .set 20 (.ein [(4, [0, 1, 2]), (9, [3, 4, 0])] [3, 1, 2, 4]) 1 1,
    -- 2155: tmp16 = einsum(tmp15, (0,), v.xoo, (0, 1, 2), (1, 2))
    .set 21 (.ein [(8, [0]), (4, [0, 1, 2])] [1, 2]) 1 1,
    -- 2156: del tmp15
    .del 8,
    -- 2157: tmp14 = einsum(v.xoo, (0, 1, 2), tmp13, (2, 3, 0), (1, 3))
    .set 22 (.ein [(4, [0, 1, 2]), (9, [2, 3, 0])] [1, 3]) 1 1,
    -- 2158: tmp102 = einsum(t2, (0, 1, 2, 3), tmp101, (4, 5, 2, 3), (0, 1, 4, 5))
    .set 23 (.ein [(2, [0, 1, 2, 3]), (12, [4, 5, 2, 3])] [0, 1, 4, 5]) 1 1,
    -- 2159: tmp33 = einsum(tmp32, (0, 1, 2), v.xov, (2, 3, 1), (0, 3))
    .set 24 (.ein [(13, [0, 1, 2]), (1, [2, 3, 1])] [0, 3]) 1 1,
    -- 2160: tmp36 = einsum(v.xov, (0, 1, 2), tmp35, (3, 2, 0), (3, 1))
    .set 25 (.ein [(1, [0, 1, 2]), (14, [3, 2, 0])] [3, 1]) 1 1,
    -- 2161: tmp28 = einsum(v.xov, (0, 1, 2), tmp13, (3, 4, 0), (3, 1, 4, 2))
    .set 26 (.ein [(1, [0, 1, 2]), (9, [3, 4, 0])] [3, 1, 4, 2]) 1 1,
    -- 2162: tmp58 = einsum(v.xov, (0, 1, 2), v.xvv, (0, 3, 4), (1, 3, 4, 2))
    .set 27 (.ein [(1, [0, 1, 2]), (3, [0, 3, 4])] [1, 3, 4, 2]) 1 1,
    -- 2163: tmp10 = einsum(v.xov, (0, 1, 2), v.xoo, (0, 3, 4), (3, 4, 1, 2))
    .set 28 (.ein [(1, [0, 1, 2]), (4, [0, 3, 4])] [3, 4, 1, 2]) 1 1,
    -- 2164: tmp18 = einsum(v.xoo, (0, 1, 2), v.xoo, (0, 3, 4), (3, 1, 2, 4))
    .set 29 (.ein [(4, [0, 1, 2]), (4, [0, 3, 4])] [3, 1, 2, 4]) 1 1,
    -- 2165: tmp0 = einsum(t1, (0, 1), f.ov, (2, 1), (2, 0))
    .set 30 (.ein [(0, [0, 1]), (5, [2, 1])] [2, 0]) 1 1,
    -- 2166: tmp180 = einsum(v.xov, (0, 1, 2), tmp35, (1, 3, 0), (3, 2))
    .set 31 (.ein [(1, [0, 1, 2]), (14, [1, 3, 0])] [3, 2]) 1 1,
    -- 2167: tmp178 = einsum(tmp32, (0, 1, 2), v.xov, (2, 0, 3), (1, 3))
    .set 32 (.ein [(13, [0, 1, 2]), (1, [2, 0, 3])] [1, 3]) 1 1,
    -- 2168: tmp177 = einsum(tmp25, (0, 1, 2), v.xov, (2, 0, 3), (3, 1))
    .set 33 (.ein [(15, [0, 1, 2]), (1, [2, 0, 3])] [3, 1]) 1 1,
    -- 2169: tmp150 = einsum(tmp101, (0, 1, 2, 3), t2, (4, 0, 5, 3), (4, 1, 5, 2))
    .set 34 (.ein [(12, [0, 1, 2, 3]), (2, [4, 0, 5, 3])] [4, 1, 5, 2]) 1 1,
    -- 2170: tmp149 = einsum(tmp101, (0, 1, 2, 3), t2, (4, 0, 3, 5), (4, 1, 5, 2))
    .set 35 (.ein [(12, [0, 1, 2, 3]), (2, [4, 0, 3, 5])] [4, 1, 5, 2]) 1 1,
    -- 2171: tmp145 = einsum(tmp13, (0, 1, 2), v.xvv, (2, 3, 4), (0, 1, 3, 4))
    .set 36 (.ein [(9, [0, 1, 2]), (3, [2, 3, 4])] [0, 1, 3, 4]) 1 1,
    -- 2172: tmp139 = einsum(v.xvv, (0, 1, 2), v.xoo, (0, 3, 4), (3, 4, 1, 2))
    .set 37 (.ein [(3, [0, 1, 2]), (4, [0, 3, 4])] [3, 4, 1, 2]) 1 1,
    -- 2173: tmp134 = einsum(t1, (0, 1), tmp133, (2, 3, 4, 0), (2, 3, 4, 1))
    .set 38 (.ein [(0, [0, 1]), (16, [2, 3, 4, 0])] [2, 3, 4, 1]) 1 1,
    -- 2174: tmp130 = einsum(tmp107, (0, 1), t1, (1, 2), (0, 2))
    .set 39 (.ein [(17, [0, 1]), (0, [1, 2])] [0, 2]) 1 1,
    -- 2175: tmp128 = einsum(t1, (0, 1), tmp106, (2, 0), (2, 1))
    .set 40 (.ein [(0, [0, 1]), (18, [2, 0])] [2, 1]) 1 1,
    -- 2176: tmp125 = einsum(tmp25, (0, 1, 2), tmp13, (3, 4, 2), (3, 0, 4, 1))
    .set 41 (.ein [(15, [0, 1, 2]), (9, [3, 4, 2])] [3, 0, 4, 1]) 1 1,
    -- 2177: tmp123 = einsum(tmp25, (0, 1, 2), tmp13, (3, 0, 2), (3, 1))
    .set 42 (.ein [(15, [0, 1, 2]), (9, [3, 0, 2])] [3, 1]) 1 1,
    -- 2178: tmp120 = einsum(t1, (0, 1), tmp119, (2, 1), (0, 2))
    .set 43 (.ein [(0, [0, 1]), (19, [2, 1])] [0, 2]) 1 1,
    -- 2179: tmp117 = einsum(t1, (0, 1), tmp114, (2, 3, 4, 0), (2, 3, 4, 1))
    .set 44 (.ein [(0, [0, 1]), (20, [2, 3, 4, 0])] [2, 3, 4, 1]) 1 1,
    -- 2180: tmp115 = einsum(t1, (0, 1), tmp114, (2, 3, 0, 4), (2, 3, 4, 1))
    .set 45 (.ein [(0, [0, 1]), (20, [2, 3, 0, 4])] [2, 3, 4, 1]) 1 1,
    -- 2181: tmp111 = einsum(tmp16, (0, 1), t1, (1, 2), (0, 2))
    .set 46 (.ein [(21, [0, 1]), (0, [1, 2])] [0, 2]) 1 1,
    -- 2182: tmp109 = einsum(t1, (0, 1), tmp14, (2, 0), (2, 1))
    .set 47 (.ein [(0, [0, 1]), (22, [2, 0])] [2, 1]) 1 1,
    -- 2183: tmp103 = einsum(t1, (0, 1), tmp102, (2, 3, 4, 0), (2, 3, 4, 1))
    .set 48 (.ein [(0, [0, 1]), (23, [2, 3, 4, 0])] [2, 3, 4, 1]) 1 1,
    -- 2184: tmp98 = einsum(tmp33, (0, 1), t1, (1, 2), (0, 2))
    .set 49 (.ein [(24, [0, 1]), (0, [1, 2])] [0, 2]) 1 1,
    -- 2185: tmp95 = einsum(tmp36, (0, 1), t1, (1, 2), (0, 2))
    .set 50 (.ein [(25, [0, 1]), (0, [1, 2])] [0, 2]) 1 1,
    -- 2186: tmp93 = einsum(t2, (0, 1, 2, 3), tmp28, (4, 5, 1, 3), (4, 0, 5, 2))
    .set 51 (.ein [(2, [0, 1, 2, 3]), (26, [4, 5, 1, 3])] [4, 0, 5, 2]) 1 1,
    -- 2187: tmp91 = einsum(t2, (0, 1, 2, 3), tmp28, (4, 5, 1, 2), (4, 0, 5, 3))
    .set 52 (.ein [(2, [0, 1, 2, 3]), (26, [4, 5, 1, 2])] [4, 0, 5, 3]) 1 1,
    -- 2188: tmp88 = einsum(tmp35, (0, 1, 2), tmp13, (3, 4, 2), (3, 0, 4, 1))
    .set 53 (.ein [(14, [0, 1, 2]), (9, [3, 4, 2])] [3, 0, 4, 1]) 1 1,
    -- 2189: tmp86 = einsum(tmp32, (0, 1, 2), tmp13, (3, 4, 2), (3, 0, 4, 1))
    .set 54 (.ein [(13, [0, 1, 2]), (9, [3, 4, 2])] [3, 0, 4, 1]) 1 1,
    -- 2190: tmp83 = einsum(t2, (0, 1, 2, 3), tmp28, (4, 1, 0, 2), (4, 3))
    .set 55 (.ein [(2, [0, 1, 2, 3]), (26, [4, 1, 0, 2])] [4, 3]) 1 1,
    -- 2191: tmp80 = einsum(t2, (0, 1, 2, 3), tmp28, (4, 1, 0, 3), (4, 2))
    .set 56 (.ein [(2, [0, 1, 2, 3]), (26, [4, 1, 0, 3])] [4, 2]) 1 1,
    -- 2192: tmp77 = einsum(t2, (0, 1, 2, 3), tmp22, (4, 3), (0, 1, 4, 2))
    .set 57 (.ein [(2, [0, 1, 2, 3]), (10, [4, 3])] [0, 1, 4, 2]) 1 1,
    -- 2193: tmp74 = einsum(t2, (0, 1, 2, 3), tmp62, (4, 3), (0, 1, 4, 2))
    .set 58 (.ein [(2, [0, 1, 2, 3]), (11, [4, 3])] [0, 1, 4, 2]) 1 1,
    -- 2194: tmp71 = einsum(t2, (0, 1, 2, 3), tmp22, (1, 3), (0, 2))
    .set 59 (.ein [(2, [0, 1, 2, 3]), (10, [1, 3])] [0, 2]) 1 1,
    -- 2195: tmp68 = einsum(tmp22, (0, 1), t2, (2, 0, 1, 3), (2, 3))
    .set 60 (.ein [(10, [0, 1]), (2, [2, 0, 1, 3])] [2, 3]) 1 1,
    -- 2196: tmp65 = einsum(tmp62, (0, 1), t2, (2, 0, 3, 1), (2, 3))
    .set 61 (.ein [(11, [0, 1]), (2, [2, 0, 3, 1])] [2, 3]) 1 1,
    -- 2197: tmp63 = einsum(tmp62, (0, 1), t2, (2, 0, 1, 3), (2, 3))
    .set 62 (.ein [(11, [0, 1]), (2, [2, 0, 1, 3])] [2, 3]) 1 1,
    -- 2198: tmp59 = einsum(tmp58, (0, 1, 2, 3), t2, (4, 5, 3, 1), (4, 5, 0, 2))
    .set 63 (.ein [(27, [0, 1, 2, 3]), (2, [4, 5, 3, 1])] [4, 5, 0, 2]) 1 1,
    -- 2199: del tmp58
    .del 27,
    -- 2200: tmp55 = einsum(v.xvv, (0, 1, 2), tmp32, (3, 2, 0), (3, 1))
    .set 64 (.ein [(3, [0, 1, 2]), (13, [3, 2, 0])] [3, 1]) 1 1,
    -- 2201: tmp52 = einsum(v.xvv, (0, 1, 2), tmp35, (3, 2, 0), (3, 1))
    .set 65 (.ein [(3, [0, 1, 2]), (14, [3, 2, 0])] [3, 1]) 1 1,
    -- 2202: tmp50 = einsum(v.xoo, (0, 1, 2), tmp35, (3, 4, 0), (3, 1, 2, 4))
    .set 66 (.ein [(4, [0, 1, 2]), (14, [3, 4, 0])] [3, 1, 2, 4]) 1 1,
    -- 2203: tmp48 = einsum(tmp32, (0, 1, 2), v.xoo, (2, 3, 4), (0, 3, 4, 1))
    .set 67 (.ein [(13, [0, 1, 2]), (4, [2, 3, 4])] [0, 3, 4, 1]) 1 1,
    -- 2204: tmp46 = einsum(t2, (0, 1, 2, 3), tmp10, (4, 1, 5, 3), (0, 4, 5, 2))
    .set 68 (.ein [(2, [0, 1, 2, 3]), (28, [4, 1, 5, 3])] [0, 4, 5, 2]) 1 1,
    -- 2205: tmp44 = einsum(t2, (0, 1, 2, 3), tmp10, (4, 1, 5, 2), (0, 4, 5, 3))
    .set 69 (.ein [(2, [0, 1, 2, 3]), (28, [4, 1, 5, 2])] [0, 4, 5, 3]) 1 1,
    -- 2206: tmp41 = einsum(tmp10, (0, 1, 2, 3), t2, (1, 2, 4, 3), (0, 4))
    .set 70 (.ein [(28, [0, 1, 2, 3]), (2, [1, 2, 4, 3])] [0, 4]) 1 1,
    -- 2207: tmp38 = einsum(tmp10, (0, 1, 2, 3), t2, (1, 2, 3, 4), (0, 4))
    .set 71 (.ein [(28, [0, 1, 2, 3]), (2, [1, 2, 3, 4])] [0, 4]) 1 1,
    -- 2208: tmp30 = einsum(tmp25, (0, 1, 2), v.xoo, (2, 3, 4), (0, 3, 4, 1))
    .set 72 (.ein [(15, [0, 1, 2]), (4, [2, 3, 4])] [0, 3, 4, 1]) 1 1,
    -- 2209: tmp26 = einsum(tmp25, (0, 1, 2), v.xoo, (2, 3, 0), (3, 1))
    .set 73 (.ein [(15, [0, 1, 2]), (4, [2, 3, 0])] [3, 1]) 1 1,
    -- 2210: tmp19 = einsum(t1, (0, 1), tmp18, (2, 0, 3, 4), (4, 2, 3, 1))
    .set 74 (.ein [(0, [0, 1]), (29, [2, 0, 3, 4])] [4, 2, 3, 1]) 1 1,
    -- 2211: tmp9 = einsum(tmp0, (0, 1), t1, (0, 2), (1, 2))
    .set 75 (.ein [(30, [0, 1]), (0, [0, 2])] [1, 2]) 1 1,
    -- 2212: tmp6 = einsum(f.ov, (0, 1), t2, (2, 3, 4, 1), (0, 2, 3, 4))
    .set 76 (.ein [(5, [0, 1]), (2, [2, 3, 4, 1])] [0, 2, 3, 4]) 1 1,
    -- 2213: tmp4 = einsum(f.ov, (0, 1), t2, (2, 0, 3, 1), (2, 3))
    .set 77 (.ein [(5, [0, 1]), (2, [2, 0, 3, 1])] [2, 3]) 1 1,
    -- 2214: tmp3 = einsum(f.ov, (0, 1), t2, (2, 0, 1, 3), (2, 3))
    .set 78 (.ein [(5, [0, 1]), (2, [2, 0, 1, 3])] [2, 3]) 1 1,
    -- 2215: tmp2 = einsum(t1, (0, 1), f.vv, (2, 1), (0, 2))
    .set 79 (.ein [(0, [0, 1]), (6, [2, 1])] [0, 2]) 1 1,
    -- 2216: tmp1 = einsum(f.oo, (0, 1), t1, (1, 2), (0, 2))
    .set 80 (.ein [(7, [0, 1]), (0, [1, 2])] [0, 2]) 1 1
  ]
  ret := [(chars! "tmp0", 30), (chars! "tmp1", 80), (chars! "tmp10", 28), (chars! "tmp101", 12), (chars! "tmp102", 23), (chars! "tmp103", 48), (chars! "tmp106", 18), (chars! "tmp107", 17), (chars! "tmp109", 47), (chars! "tmp111", 46), (chars! "tmp114", 20), (chars! "tmp115", 45), (chars! "tmp117", 44), (chars! "tmp119", 19), (chars! "tmp120", 43), (chars! "tmp123", 42), (chars! "tmp125", 41), (chars! "tmp128", 40), (chars! "tmp13", 9), (chars! "tmp130", 39), (chars! "tmp133", 16), (chars! "tmp134", 38), (chars! "tmp139", 37), (chars! "tmp14", 22), (chars! "tmp145", 36), (chars! "tmp149", 35), (chars! "tmp150", 34), (chars! "tmp16", 21), (chars! "tmp177", 33), (chars! "tmp178", 32), (chars! "tmp18", 29), (chars! "tmp180", 31), (chars! "tmp19", 74), (chars! "tmp2", 79), (chars! "tmp22", 10), (chars! "tmp25", 15), (chars! "tmp26", 73), (chars! "tmp28", 26), (chars! "tmp3", 78), (chars! "tmp30", 72), (chars! "tmp32", 13), (chars! "tmp33", 24), (chars! "tmp35", 14), (chars! "tmp36", 25), (chars! "tmp38", 71), (chars! "tmp4", 77), (chars! "tmp41", 70), (chars! "tmp44", 69), (chars! "tmp46", 68), (chars! "tmp48", 67), (chars! "tmp50", 66), (chars! "tmp52", 65), (chars! "tmp55", 64), (chars! "tmp59", 63), (chars! "tmp6", 76), (chars! "tmp62", 11), (chars! "tmp63", 62), (chars! "tmp65", 61), (chars! "tmp68", 60), (chars! "tmp71", 59), (chars! "tmp74", 58), (chars! "tmp77", 57), (chars! "tmp80", 56), (chars! "tmp83", 55), (chars! "tmp86", 54), (chars! "tmp88", 53), (chars! "tmp9", 75), (chars! "tmp91", 52), (chars! "tmp93", 51), (chars! "tmp95", 50), (chars! "tmp98", 49)]

/-- codegen/RDFCCSD.py:2220-2461 `hbar_lmatvec_ip`. -/
def hbar_lmatvec_ip : GenFun where
  args := [chars! "r2", chars! "t1", chars! "ints.tmp25", chars! "ints.tmp35", chars! "v.xov", chars! "ints.tmp32", chars! "ints.tmp13", chars! "v.xoo", chars! "f.ov", chars! "ints.tmp22", chars! "ints.tmp62", chars! "t2", chars! "ints.tmp139", chars! "ints.tmp145", chars! "ints.tmp149", chars! "ints.tmp10", chars! "ints.tmp28", chars! "f.oo", chars! "ints.tmp0", chars! "ints.tmp107", chars! "ints.tmp16", chars! "ints.tmp36", chars! "ints.tmp106", chars! "ints.tmp14", chars! "ints.tmp33", chars! "ints.tmp177", chars! "ints.tmp180", chars! "f.vv", chars! "ints.tmp119", chars! "ints.tmp178", chars! "ints.tmp150", chars! "ints.tmp102", chars! "ints.tmp114", chars! "ints.tmp133", chars! "ints.tmp18", chars! "ints.tmp111", chars! "ints.tmp123", chars! "ints.tmp130", chars! "ints.tmp1", chars! "ints.tmp26", chars! "ints.tmp3", chars! "ints.tmp41", chars! "ints.tmp55", chars! "ints.tmp65", chars! "ints.tmp68", chars! "ints.tmp80", chars! "ints.tmp95", chars! "ints.tmp9", chars! "ints.tmp109", chars! "ints.tmp120", chars! "ints.tmp128", chars! "ints.tmp2", chars! "ints.tmp38", chars! "ints.tmp4", chars! "ints.tmp52", chars! "ints.tmp63", chars! "ints.tmp71", chars! "ints.tmp83", chars! "ints.tmp98", chars! "ints.tmp117", chars! "ints.tmp46", chars! "ints.tmp48", chars! "ints.tmp74", chars! "ints.tmp91", chars! "ints.tmp30", chars! "ints.tmp50", chars! "ints.tmp6", chars! "ints.tmp77", chars! "ints.tmp103", chars! "ints.tmp115", chars! "ints.tmp134", chars! "ints.tmp19", chars! "ints.tmp44", chars! "ints.tmp86", chars! "ints.tmp93", chars! "ints.tmp125", chars! "ints.tmp59", chars! "ints.tmp88", chars! "ints.tmp101", chars! "r1"]
  body := [
    -- 2248: tmp10 = einsum(r2, (0, 1, 2), t1, (3, 2), (0, 1, 3))
    .set 80 (.ein [(0, [0, 1, 2]), (1, [3, 2])] [0, 1, 3]) 1 1,
    -- 2249: tmp13 = np.copy(tmp10) * -1
    .set 81 (.cp 80) (-1) 1,
    -- 2250: tmp13 += np.transpose(tmp10, (1, 0, 2)) * 2
    .add 81 (.tr 80 [1, 0, 2]) 2 1,
    -- 2251: tmp0 = np.copy(r2)
    .set 82 (.cp 0) 1 1,
    -- 2252: tmp0 += np.transpose(r2, (1, 0, 2)) * -0.5
    .add 82 (.tr 0 [1, 0, 2]) (-1) 2,
    -- 2253: tmp12 = np.copy(ints.tmp25)
    .set 83 (.cp 2) 1 1,
    -- 2254: del ints.tmp25
    .del 2,
    -- 2255: tmp12 += ints.tmp35 * 2
    .add 83 (.cp 3) 2 1,
    -- 2256: del ints.tmp35
    .del 3,
    -- 2257: tmp12 += np.transpose(v.xov, (1, 2, 0))
    .add 83 (.tr 4 [1, 2, 0]) 1 1,
    -- 2258: tmp12 += ints.tmp32 * -1
    .add 83 (.cp 5) (-1) 1,
    -- 2259: del ints.tmp32
    .del 5,
    -- 2260: tmp14 = np.copy(ints.tmp13)
    .set 84 (.cp 6) 1 1,
    -- 2261: del ints.tmp13
    .del 6,
    -- 2262: tmp14 += np.transpose(v.xoo, (1, 2, 0))
    .add 84 (.tr 7 [1, 2, 0]) 1 1,
    -- 2263: tmp16 = np.copy(f.ov)
    .set 85 (.cp 8) 1 1,
    -- 2264: tmp16 += ints.tmp22 * 2
    .add 85 (.cp 9) 2 1,
    -- 2265: tmp16 += ints.tmp62 * -1
    .add 85 (.cp 10) (-1) 1,
    -- 2266: del ints.tmp62
    .del 10,
    -- 2267: tmp19 = np.copy(np.transpose(t2, (0, 1, 3, 2)))
    .set 86 (.tr 11 [0, 1, 3, 2]) 1 1,
    -- 2268: tmp19 += t2 * -0.5
    .add 86 (.cp 11) (-1) 2,
    -- 2269: tmp8 = np.copy(ints.tmp139)
    .set 87 (.cp 12) 1 1,
    -- 2270: tmp8 += ints.tmp145
    .add 87 (.cp 13) 1 1,
    -- 2271: tmp8 += ints.tmp149 * -1
    .add 87 (.cp 14) (-1) 1,
    -- 2272: tmp21 = np.copy(ints.tmp10)
    .set 88 (.cp 15) 1 1,
    -- 2273: tmp21 += np.transpose(ints.tmp28, (2, 0, 1, 3))
    .add 88 (.tr 16 [2, 0, 1, 3]) 1 1,
    -- 2274: tmp15 = einsum(tmp12, (0, 1, 2), tmp0, (0, 3, 1), (3, 2)) * -1
    .set 89 (.ein [(83, [0, 1, 2]), (82, [0, 3, 1])] [3, 2]) (-1) 1,
    -- 2275: del tmp12
    .del 83,
    -- 2276: tmp15 += einsum(tmp13, (0, 1, 2), tmp14, (1, 2, 3), (0, 3)) * 0.5
    .add 89 (.ein [(81, [0, 1, 2]), (84, [1, 2, 3])] [0, 3]) 1 2,
    -- 2277: del tmp13, tmp14
    .del 81,
    .del 84,
    -- 2278: tmp18 = np.copy(f.oo) * 0.5
    .set 90 (.cp 17) 1 2,
    -- 2279: tmp18 += np.transpose(ints.tmp0, (1, 0)) * 0.5
    .add 90 (.tr 18 [1, 0]) 1 2,
    -- 2280: tmp18 += ints.tmp107
    .add 90 (.cp 19) 1 1,
    -- 2281: tmp18 += ints.tmp16
    .add 90 (.cp 20) 1 1,
    -- 2282: tmp18 += ints.tmp36
    .add 90 (.cp 21) 1 1,
    -- 2283: tmp18 += ints.tmp106 * -0.5
    .add 90 (.cp 22) (-1) 2,
    -- 2284: tmp18 += ints.tmp14 * -0.5
    .add 90 (.cp 23) (-1) 2,
    -- 2285: tmp18 += ints.tmp33 * -0.5
    .add 90 (.cp 24) (-1) 2,
    -- 2286: tmp17 = np.copy(np.transpose(ints.tmp177, (1, 0)))
    .set 91 (.tr 25 [1, 0]) 1 1,
    -- 2287: del ints.tmp177
    .del 25,
    -- 2288: tmp17 += ints.tmp180 * 2
    .add 91 (.cp 26) 2 1,
    -- 2289: del ints.tmp180
    .del 26,
    -- 2290: tmp17 += f.vv * -1
    .add 91 (.cp 27) (-1) 1,
    -- 2291: tmp17 += ints.tmp119 * -2
    .add 91 (.cp 28) (-2) 1,
    -- 2292: del ints.tmp119
    .del 28,
    -- 2293: tmp17 += ints.tmp178 * -1
    .add 91 (.cp 29) (-1) 1,
    -- 2294: del ints.tmp178
    .del 29,
    -- 2295: tmp17 += einsum(tmp16, (0, 1), t1, (0, 2), (2, 1))
    .add 91 (.ein [(85, [0, 1]), (1, [0, 2])] [2, 1]) 1 1,
    -- 2296: tmp7 = np.copy(ints.tmp139) * 0.5
    .set 92 (.cp 12) 1 2,
    -- 2297: del ints.tmp139
    .del 12,
    -- 2298: tmp7 += ints.tmp145 * 0.5
    .add 92 (.cp 13) 1 2,
    -- 2299: del ints.tmp145
    .del 13,
    -- 2300: tmp7 += ints.tmp150
    .add 92 (.cp 30) 1 1,
    -- 2301: tmp7 += ints.tmp149 * -0.5
    .add 92 (.cp 14) (-1) 2,
    -- 2302: del ints.tmp149
    .del 14,
    -- 2303: tmp20 = einsum(r2, (0, 1, 2), tmp19, (0, 1, 3, 2), (3,))
    .set 93 (.ein [(0, [0, 1, 2]), (86, [0, 1, 3, 2])] [3]) 1 1,
    -- 2304: del tmp19
    .del 86,
    -- 2305: tmp9 = np.copy(ints.tmp102)
    .set 94 (.cp 31) 1 1,
    -- 2306: del ints.tmp102
    .del 31,
    -- 2307: tmp9 += np.transpose(ints.tmp114, (0, 1, 3, 2))
    .add 94 (.tr 32 [0, 1, 3, 2]) 1 1,
    -- 2308: tmp9 += ints.tmp133
    .add 94 (.cp 33) 1 1,
    -- 2309: del ints.tmp133
    .del 33,
    -- 2310: tmp9 += np.transpose(ints.tmp18, (2, 3, 1, 0))
    .add 94 (.tr 34 [2, 3, 1, 0]) 1 1,
    -- 2311: del ints.tmp18
    .del 34,
    -- 2312: tmp11 = np.copy(ints.tmp10)
    .set 95 (.cp 15) 1 1,
    -- 2313: tmp11 += np.transpose(ints.tmp28, (0, 2, 1, 3))
    .add 95 (.tr 16 [0, 2, 1, 3]) 1 1,
    -- 2314: tmp4 = np.copy(ints.tmp111) * 2
    .set 96 (.cp 35) 2 1,
    -- 2315: del ints.tmp111
    .del 35,
    -- 2316: tmp4 += ints.tmp123
    .add 96 (.cp 36) 1 1,
    -- 2317: del ints.tmp123
    .del 36,
    -- 2318: tmp4 += ints.tmp130 * 2
    .add 96 (.cp 37) 2 1,
    -- 2319: del ints.tmp130
    .del 37,
    -- 2320: tmp4 += ints.tmp1
    .add 96 (.cp 38) 1 1,
    -- 2321: del ints.tmp1
    .del 38,
    -- 2322: tmp4 += ints.tmp26
    .add 96 (.cp 39) 1 1,
    -- 2323: del ints.tmp26
    .del 39,
    -- 2324: tmp4 += ints.tmp3
    .add 96 (.cp 40) 1 1,
    -- 2325: del ints.tmp3
    .del 40,
    -- 2326: tmp4 += ints.tmp41 * 2
    .add 96 (.cp 41) 2 1,
    -- 2327: del ints.tmp41
    .del 41,
    -- 2328: tmp4 += ints.tmp55
    .add 96 (.cp 42) 1 1,
    -- 2329: del ints.tmp55
    .del 42,
    -- 2330: tmp4 += ints.tmp65 * 2
    .add 96 (.cp 43) 2 1,
    -- 2331: del ints.tmp65
    .del 43,
    -- 2332: tmp4 += ints.tmp68 * 2
    .add 96 (.cp 44) 2 1,
    -- 2333: del ints.tmp68
    .del 44,
    -- 2334: tmp4 += ints.tmp80 * 2
    .add 96 (.cp 45) 2 1,
    -- 2335: del ints.tmp80
    .del 45,
    -- 2336: tmp4 += ints.tmp95 * 2
    .add 96 (.cp 46) 2 1,
    -- 2337: del ints.tmp95
    .del 46,
    -- 2338: tmp4 += ints.tmp9
    .add 96 (.cp 47) 1 1,
    -- 2339: del ints.tmp9
    .del 47,
    -- 2340: tmp4 += f.ov * -1
    .add 96 (.cp 8) (-1) 1,
    -- 2341: tmp4 += ints.tmp109 * -1
    .add 96 (.cp 48) (-1) 1,
    -- 2342: del ints.tmp109
    .del 48,
    -- 2343: tmp4 += ints.tmp120 * -2
    .add 96 (.cp 49) (-2) 1,
    -- 2344: del ints.tmp120
    .del 49,
    -- 2345: tmp4 += ints.tmp128 * -1
    .add 96 (.cp 50) (-1) 1,
    -- 2346: del ints.tmp128
    .del 50,
    -- 2347: tmp4 += ints.tmp22 * -2
    .add 96 (.cp 9) (-2) 1,
    -- 2348: del ints.tmp22
    .del 9,
    -- 2349: tmp4 += ints.tmp2 * -1
    .add 96 (.cp 51) (-1) 1,
    -- 2350: del ints.tmp2
    .del 51,
    -- 2351: tmp4 += ints.tmp38 * -1
    .add 96 (.cp 52) (-1) 1,
    -- 2352: del ints.tmp38
    .del 52,
    -- 2353: tmp4 += ints.tmp4 * -2
    .add 96 (.cp 53) (-2) 1,
    -- 2354: del ints.tmp4
    .del 53,
    -- 2355: tmp4 += ints.tmp52 * -2
    .add 96 (.cp 54) (-2) 1,
    -- 2356: del ints.tmp52
    .del 54,
    -- 2357: tmp4 += ints.tmp63 * -1
    .add 96 (.cp 55) (-1) 1,
    -- 2358: del ints.tmp63
    .del 55,
    -- 2359: tmp4 += ints.tmp71 * -4
    .add 96 (.cp 56) (-4) 1,
    -- 2360: del ints.tmp71
    .del 56,
    -- 2361: tmp4 += ints.tmp83 * -1
    .add 96 (.cp 57) (-1) 1,
    -- 2362: del ints.tmp83
    .del 57,
    -- 2363: tmp4 += ints.tmp98 * -1
    .add 96 (.cp 58) (-1) 1,
    -- 2364: del ints.tmp98
    .del 58,
    -- 2365: tmp6 = np.copy(f.oo)
    .set 97 (.cp 17) 1 1,
    -- 2366: tmp6 += np.transpose(ints.tmp0, (1, 0))
    .add 97 (.tr 18 [1, 0]) 1 1,
    -- 2367: del ints.tmp0
    .del 18,
    -- 2368: tmp6 += ints.tmp107 * 2
    .add 97 (.cp 19) 2 1,
    -- 2369: del ints.tmp107
    .del 19,
    -- 2370: tmp6 += np.transpose(ints.tmp16, (1, 0)) * 2
    .add 97 (.tr 20 [1, 0]) 2 1,
    -- 2371: del ints.tmp16
    .del 20,
    -- 2372: tmp6 += ints.tmp36 * 2
    .add 97 (.cp 21) 2 1,
    -- 2373: del ints.tmp36
    .del 21,
    -- 2374: tmp6 += ints.tmp106 * -1
    .add 97 (.cp 22) (-1) 1,
    -- 2375: del ints.tmp106
    .del 22,
    -- 2376: tmp6 += ints.tmp14 * -1
    .add 97 (.cp 23) (-1) 1,
    -- 2377: del ints.tmp14
    .del 23,
    -- 2378: tmp6 += ints.tmp33 * -1
    .add 97 (.cp 24) (-1) 1,
    -- 2379: del ints.tmp33
    .del 24,
    -- 2380: tmp2 = np.copy(r2) * -1
    .set 98 (.cp 0) (-1) 1,
    -- 2381: tmp2 += np.transpose(r2, (1, 0, 2)) * 2
    .add 98 (.tr 0 [1, 0, 2]) 2 1,
    -- 2382: tmp3 = np.copy(ints.tmp117)
    .set 99 (.cp 59) 1 1,
    -- 2383: del ints.tmp117
    .del 59,
    -- 2384: tmp3 += np.transpose(ints.tmp46, (0, 2, 1, 3))
    .add 99 (.tr 60 [0, 2, 1, 3]) 1 1,
    -- 2385: del ints.tmp46
    .del 60,
    -- 2386: tmp3 += np.transpose(ints.tmp48, (0, 2, 1, 3))
    .add 99 (.tr 61 [0, 2, 1, 3]) 1 1,
    -- 2387: del ints.tmp48
    .del 61,
    -- 2388: tmp3 += np.transpose(ints.tmp74, (0, 2, 1, 3))
    .add 99 (.tr 62 [0, 2, 1, 3]) 1 1,
    -- 2389: del ints.tmp74
    .del 62,
    -- 2390: tmp3 += np.transpose(ints.tmp91, (0, 2, 1, 3))
    .add 99 (.tr 63 [0, 2, 1, 3]) 1 1,
    -- 2391: del ints.tmp91
    .del 63,
    -- 2392: tmp3 += ints.tmp30 * -1
    .add 99 (.cp 64) (-1) 1,
    -- 2393: del ints.tmp30
    .del 64,
    -- 2394: tmp3 += np.transpose(ints.tmp50, (0, 2, 1, 3)) * -2
    .add 99 (.tr 65 [0, 2, 1, 3]) (-2) 1,
    -- 2395: del ints.tmp50
    .del 65,
    -- 2396: tmp3 += np.transpose(ints.tmp6, (1, 0, 2, 3)) * -1
    .add 99 (.tr 66 [1, 0, 2, 3]) (-1) 1,
    -- 2397: del ints.tmp6
    .del 66,
    -- 2398: tmp3 += np.transpose(ints.tmp77, (0, 2, 1, 3)) * -2
    .add 99 (.tr 67 [0, 2, 1, 3]) (-2) 1,
    -- 2399: del ints.tmp77
    .del 67,
    -- 2400: tmp1 = np.copy(ints.tmp103)
    .set 100 (.cp 68) 1 1,
    -- 2401: del ints.tmp103
    .del 68,
    -- 2402: tmp1 += ints.tmp115
    .add 100 (.cp 69) 1 1,
    -- 2403: del ints.tmp115
    .del 69,
    -- 2404: tmp1 += ints.tmp134
    .add 100 (.cp 70) 1 1,
    -- 2405: del ints.tmp134
    .del 70,
    -- 2406: tmp1 += np.transpose(ints.tmp19, (0, 2, 1, 3))
    .add 100 (.tr 71 [0, 2, 1, 3]) 1 1,
    -- 2407: del ints.tmp19
    .del 71,
    -- 2408: tmp1 += ints.tmp44
    .add 100 (.cp 72) 1 1,
    -- 2409: del ints.tmp44
    .del 72,
    -- 2410: tmp1 += ints.tmp86
    .add 100 (.cp 73) 1 1,
    -- 2411: del ints.tmp86
    .del 73,
    -- 2412: tmp1 += ints.tmp93
    .add 100 (.cp 74) 1 1,
    -- 2413: del ints.tmp93
    .del 74,
    -- 2414: tmp1 += np.transpose(ints.tmp10, (1, 2, 0, 3)) * -1
    .add 100 (.tr 15 [1, 2, 0, 3]) (-1) 1,
    -- 2415: del ints.tmp10
    .del 15,
    -- 2416: tmp1 += ints.tmp125 * -1
    .add 100 (.cp 75) (-1) 1,
    -- 2417: del ints.tmp125
    .del 75,
    -- 2418: tmp1 += ints.tmp28 * -1
    .add 100 (.cp 16) (-1) 1,
    -- 2419: del ints.tmp28
    .del 16,
    -- 2420: tmp1 += ints.tmp59 * -1
    .add 100 (.cp 76) (-1) 1,
    -- 2421: del ints.tmp59
    .del 76,
    -- 2422: tmp1 += ints.tmp88 * -2
    .add 100 (.cp 77) (-2) 1,
    -- 2423: del ints.tmp88
    .del 77,
    -- 2424: tmp5 = np.copy(r2) * 2
    .set 101 (.cp 0) 2 1,
    -- 2425: tmp5 += np.transpose(r2, (1, 0, 2)) * -1
    .add 101 (.tr 0 [1, 0, 2]) (-1) 1,
    -- 2426: r2new = einsum(r2, (0, 1, 2), ints.tmp114, (1, 0, 3, 4), (3, 4, 2))
    .set 102 (.ein [(0, [0, 1, 2]), (32, [1, 0, 3, 4])] [3, 4, 2]) 1 1,
    -- 2427: del ints.tmp114
    .del 32,
    -- 2428: r2new += einsum(ints.tmp150, (0, 1, 2, 3), r2, (4, 0, 2), (1, 4, 3))
    .add 102 (.ein [(30, [0, 1, 2, 3]), (0, [4, 0, 2])] [1, 4, 3]) 1 1,
    -- 2429: del ints.tmp150
    .del 30,
    -- 2430: r2new += einsum(r2, (0, 1, 2), tmp7, (0, 3, 2, 4), (3, 1, 4)) * -2
    .add 102 (.ein [(0, [0, 1, 2]), (92, [0, 3, 2, 4])] [3, 1, 4]) (-2) 1,
    -- 2431: del tmp7
    .del 92,
    -- 2432: r2new += einsum(r2, (0, 1, 2), tmp8, (1, 3, 2, 4), (0, 3, 4)) * -1
    .add 102 (.ein [(0, [0, 1, 2]), (87, [1, 3, 2, 4])] [0, 3, 4]) (-1) 1,
    -- 2433: del tmp8
    .del 87,
    -- 2434: r2new += einsum(tmp9, (0, 1, 2, 3), r2, (0, 1, 4), (2, 3, 4))
    .add 102 (.ein [(94, [0, 1, 2, 3]), (0, [0, 1, 4])] [2, 3, 4]) 1 1,
    -- 2435: del tmp9
    .del 94,
    -- 2436: r2new += einsum(tmp11, (0, 1, 2, 3), tmp10, (0, 4, 2), (1, 4, 3))
    .add 102 (.ein [(95, [0, 1, 2, 3]), (80, [0, 4, 2])] [1, 4, 3]) 1 1,
    -- 2437: r2new += einsum(tmp10, (0, 1, 2), tmp11, (1, 3, 2, 4), (0, 3, 4))
    .add 102 (.ein [(80, [0, 1, 2]), (95, [1, 3, 2, 4])] [0, 3, 4]) 1 1,
    -- 2438: del tmp10, tmp11
    .del 80,
    .del 95,
    -- 2439: r2new += einsum(tmp15, (0, 1), v.xov, (1, 2, 3), (2, 0, 3)) * -2
    .add 102 (.ein [(89, [0, 1]), (4, [1, 2, 3])] [2, 0, 3]) (-2) 1,
    -- 2440: del tmp15
    .del 89,
    -- 2441: r2new += einsum(r2, (0, 1, 2), tmp17, (2, 3), (0, 1, 3)) * -1
    .add 102 (.ein [(0, [0, 1, 2]), (91, [2, 3])] [0, 1, 3]) (-1) 1,
    -- 2442: del tmp17
    .del 91,
    -- 2443: r2new += einsum(tmp18, (0, 1), r2, (0, 2, 3), (1, 2, 3)) * -2
    .add 102 (.ein [(90, [0, 1]), (0, [0, 2, 3])] [1, 2, 3]) (-2) 1,
    -- 2444: r2new += einsum(r2, (0, 1, 2), tmp18, (1, 3), (0, 3, 2)) * -2
    .add 102 (.ein [(0, [0, 1, 2]), (90, [1, 3])] [0, 3, 2]) (-2) 1,
    -- 2445: del tmp18
    .del 90,
    -- 2446: r2new += einsum(tmp20, (0,), ints.tmp101, (1, 2, 3, 0), (1, 2, 3)) * -2
    .add 102 (.ein [(93, [0]), (78, [1, 2, 3, 0])] [1, 2, 3]) (-2) 1,
    -- 2447: del tmp20, ints.tmp101
    .del 93,
    .del 78,
    -- 2448: r2new += einsum(r1, (0,), tmp21, (1, 0, 2, 3), (2, 1, 3))
    .add 102 (.ein [(79, [0]), (88, [1, 0, 2, 3])] [2, 1, 3]) 1 1,
    -- 2449: del tmp21
    .del 88,
    -- 2450: r2new += einsum(r1, (0,), tmp16, (1, 2), (1, 0, 2)) * -1
    .add 102 (.ein [(79, [0]), (85, [1, 2])] [1, 0, 2]) (-1) 1,
    -- 2451: del tmp16
    .del 85,
    -- 2452: r1new = einsum(tmp0, (0, 1, 2), tmp1, (1, 0, 3, 2), (3,)) * -2
    .set 103 (.ein [(82, [0, 1, 2]), (100, [1, 0, 3, 2])] [3]) (-2) 1,
    -- 2453: del tmp0, tmp1
    .del 82,
    .del 100,
    -- 2454: r1new += einsum(tmp2, (0, 1, 2), tmp3, (1, 3, 0, 2), (3,)) * -1
    .add 103 (.ein [(98, [0, 1, 2]), (99, [1, 3, 0, 2])] [3]) (-1) 1,
    -- 2455: del tmp2, tmp3
    .del 98,
    .del 99,
    -- 2456: r1new += einsum(tmp4, (0, 1), tmp5, (0, 2, 1), (2,))
    .add 103 (.ein [(96, [0, 1]), (101, [0, 2, 1])] [2]) 1 1,
    -- 2457: del tmp4, tmp5
    .del 96,
    .del 101,
    -- 2458: r1new += einsum(r1, (0,), tmp6, (0, 1), (1,)) * -1
    .add 103 (.ein [(79, [0]), (97, [0, 1])] [1]) (-1) 1,
    -- 2459: del tmp6
    .del 97
  ]
  ret := [(chars! "r1new", 103), (chars! "r2new", 102)]

/-- codegen/RDFCCSD.py:1681-1823 `hbar_matvec_ea_intermediates`. -/
def hbar_matvec_ea_intermediates : GenFun where
  args := [chars! "t1", chars! "v.xov", chars! "t2", chars! "v.xvv", chars! "v.xoo", chars! "f.ov", chars! "f.oo", chars! "f.vv"]
  body := [
    -- 1760: tmp4 = einsum(t1, (0, 1), v.xov, (2, 0, 1), (2,))
    .set 8 (.ein [(0, [0, 1]), (1, [2, 0, 1])] [2]) 1 1,
    -- 1761: tmp9 = einsum(v.xov, (0, 1, 2), t1, (3, 2), (3, 1, 0))
    .set 9 (.ein [(1, [0, 1, 2]), (0, [3, 2])] [3, 1, 0]) 1 1,
    -- 1762: tmp12 = einsum(tmp4, (0,), v.xov, (0, 1, 2), (1, 2))
    .set 10 (.ein [(8, [0]), (1, [0, 1, 2])] [1, 2]) 1 1,
    -- 1763: tmp10 = einsum(v.xov, (0, 1, 2), tmp9, (1, 3, 0), (3, 2))
    .set 11 (.ein [(1, [0, 1, 2]), (9, [1, 3, 0])] [3, 2]) 1 1,
    -- 1764: tmp20 = einsum(t2, (0, 1, 2, 3), v.xov, (4, 1, 2), (0, 3, 4))
    .set 12 (.ein [(2, [0, 1, 2, 3]), (1, [4, 1, 2])] [0, 3, 4]) 1 1,
    -- 1765: tmp23 = einsum(t2, (0, 1, 2, 3), v.xov, (4, 1, 3), (0, 2, 4))
    .set 13 (.ein [(2, [0, 1, 2, 3]), (1, [4, 1, 3])] [0, 2, 4]) 1 1,
    -- 1766: tmp15 = einsum(v.xov, (0, 1, 2), v.xov, (0, 3, 4), (3, 1, 4, 2))
    .set 14 (.ein [(1, [0, 1, 2]), (1, [0, 3, 4])] [3, 1, 4, 2]) 1 1,
    -- 1767: tmp1 = einsum(v.xov, (0, 1, 2), v.xvv, (0, 3, 4), (1, 3, 4, 2))
    .set 15 (.ein [(1, [0, 1, 2]), (3, [0, 3, 4])] [1, 3, 4, 2]) 1 1,
    -- 1768: tmp47 = einsum(tmp4, (0,), v.xoo, (0, 1, 2), (1, 2))
    .set 16 (.ein [(8, [0]), (4, [0, 1, 2])] [1, 2]) 1 1,
    -- 1769: tmp46 = einsum(v.xoo, (0, 1, 2), tmp9, (2, 3, 0), (1, 3))
    .set 17 (.ein [(4, [0, 1, 2]), (9, [2, 3, 0])] [1, 3]) 1 1,
    -- 1770: tmp49 = einsum(v.xov, (0, 1, 2), v.xoo, (0, 3, 4), (3, 4, 1, 2))
    .set 18 (.ein [(1, [0, 1, 2]), (4, [0, 3, 4])] [3, 4, 1, 2]) 1 1,
    -- 1771: tmp84 = einsum(tmp12, (0, 1), t1, (2, 1), (2, 0))
    .set 19 (.ein [(10, [0, 1]), (0, [2, 1])] [2, 0]) 1 1,
    -- 1772: tmp83 = einsum(tmp10, (0, 1), t1, (2, 1), (2, 0))
    .set 20 (.ein [(11, [0, 1]), (0, [2, 1])] [2, 0]) 1 1,
    -- 1773: tmp72 = einsum(v.xov, (0, 1, 2), tmp20, (3, 2, 0), (3, 1))
    .set 21 (.ein [(1, [0, 1, 2]), (12, [3, 2, 0])] [3, 1]) 1 1,
    -- 1774: tmp74 = einsum(v.xov, (0, 1, 2), tmp23, (3, 2, 0), (3, 1))
    .set 22 (.ein [(1, [0, 1, 2]), (13, [3, 2, 0])] [3, 1]) 1 1,
    -- 1775: tmp76 = einsum(v.xov, (0, 1, 2), tmp9, (3, 4, 0), (3, 1, 4, 2))
    .set 23 (.ein [(1, [0, 1, 2]), (9, [3, 4, 0])] [3, 1, 4, 2]) 1 1,
    -- 1776: tmp63 = einsum(t1, (0, 1), f.ov, (2, 1), (2, 0))
    .set 24 (.ein [(0, [0, 1]), (5, [2, 1])] [2, 0]) 1 1,
    -- 1777: tmp7 = einsum(t1, (0, 1), v.xvv, (2, 3, 1), (0, 3, 2))
    .set 25 (.ein [(0, [0, 1]), (3, [2, 3, 1])] [0, 3, 2]) 1 1,
    -- 1778: tmp5 = einsum(tmp4, (0,), v.xvv, (0, 1, 2), (1, 2))
    .set 26 (.ein [(8, [0]), (3, [0, 1, 2])] [1, 2]) 1 1,
    -- 1779: del tmp4
    .del 8,
    -- 1780: tmp136 = einsum(tmp20, (0, 1, 2), v.xov, (2, 3, 4), (0, 3, 1, 4))
    .set 27 (.ein [(12, [0, 1, 2]), (1, [2, 3, 4])] [0, 3, 1, 4]) 1 1,
    -- 1781: tmp132 = einsum(tmp23, (0, 1, 2), v.xov, (2, 3, 4), (0, 3, 1, 4))
    .set 28 (.ein [(13, [0, 1, 2]), (1, [2, 3, 4])] [0, 3, 1, 4]) 1 1,
    -- 1782: tmp131 = einsum(t2, (0, 1, 2, 3), tmp12, (1, 3), (0, 2))
    .set 29 (.ein [(2, [0, 1, 2, 3]), (10, [1, 3])] [0, 2]) 1 1,
    -- 1783: tmp130 = einsum(t2, (0, 1, 2, 3), tmp12, (1, 2), (0, 3))
    .set 30 (.ein [(2, [0, 1, 2, 3]), (10, [1, 2])] [0, 3]) 1 1,
    -- 1784: tmp129 = einsum(tmp10, (0, 1), t2, (2, 0, 3, 1), (2, 3))
    .set 31 (.ein [(11, [0, 1]), (2, [2, 0, 3, 1])] [2, 3]) 1 1,
    -- 1785: tmp128 = einsum(tmp10, (0, 1), t2, (2, 0, 1, 3), (2, 3))
    .set 32 (.ein [(11, [0, 1]), (2, [2, 0, 1, 3])] [2, 3]) 1 1,
    -- 1786: tmp123 = einsum(tmp15, (0, 1, 2, 3), t2, (4, 0, 5, 3), (4, 1, 5, 2))
    .set 33 (.ein [(14, [0, 1, 2, 3]), (2, [4, 0, 5, 3])] [4, 1, 5, 2]) 1 1,
    -- 1787: tmp120 = einsum(tmp20, (0, 1, 2), v.xvv, (2, 3, 4), (0, 1, 3, 4))
    .set 34 (.ein [(12, [0, 1, 2]), (3, [2, 3, 4])] [0, 1, 3, 4]) 1 1,
    -- 1788: tmp119 = einsum(t2, (0, 1, 2, 3), tmp1, (1, 4, 3, 5), (0, 2, 5, 4))
    .set 35 (.ein [(2, [0, 1, 2, 3]), (15, [1, 4, 3, 5])] [0, 2, 5, 4]) 1 1,
    -- 1789: tmp117 = einsum(tmp23, (0, 1, 2), v.xvv, (2, 3, 4), (0, 1, 3, 4))
    .set 36 (.ein [(13, [0, 1, 2]), (3, [2, 3, 4])] [0, 1, 3, 4]) 1 1,
    -- 1790: tmp114 = einsum(f.ov, (0, 1), t2, (2, 0, 3, 1), (2, 3))
    .set 37 (.ein [(5, [0, 1]), (2, [2, 0, 3, 1])] [2, 3]) 1 1,
    -- 1791: tmp113 = einsum(f.ov, (0, 1), t2, (2, 0, 1, 3), (2, 3))
    .set 38 (.ein [(5, [0, 1]), (2, [2, 0, 1, 3])] [2, 3]) 1 1,
    -- 1792: tmp111 = einsum(tmp47, (0, 1), t1, (1, 2), (0, 2))
    .set 39 (.ein [(16, [0, 1]), (0, [1, 2])] [0, 2]) 1 1,
    -- 1793: tmp110 = einsum(tmp46, (0, 1), t1, (1, 2), (0, 2))
    .set 40 (.ein [(17, [0, 1]), (0, [1, 2])] [0, 2]) 1 1,
    -- 1794: tmp109 = einsum(t2, (0, 1, 2, 3), tmp49, (4, 0, 1, 3), (4, 2))
    .set 41 (.ein [(2, [0, 1, 2, 3]), (18, [4, 0, 1, 3])] [4, 2]) 1 1,
    -- 1795: tmp108 = einsum(t2, (0, 1, 2, 3), tmp49, (4, 0, 1, 2), (4, 3))
    .set 42 (.ein [(2, [0, 1, 2, 3]), (18, [4, 0, 1, 2])] [4, 3]) 1 1,
    -- 1796: tmp102 = einsum(f.oo, (0, 1), t1, (1, 2), (0, 2))
    .set 43 (.ein [(6, [0, 1]), (0, [1, 2])] [0, 2]) 1 1,
    -- 1797: tmp101 = einsum(tmp84, (0, 1), t1, (1, 2), (0, 2))
    .set 44 (.ein [(19, [0, 1]), (0, [1, 2])] [0, 2]) 1 1,
    -- 1798: tmp100 = einsum(tmp83, (0, 1), t1, (1, 2), (0, 2))
    .set 45 (.ein [(20, [0, 1]), (0, [1, 2])] [0, 2]) 1 1,
    -- 1799: tmp94 = einsum(tmp72, (0, 1), t1, (1, 2), (0, 2))
    .set 46 (.ein [(21, [0, 1]), (0, [1, 2])] [0, 2]) 1 1,
    -- 1800: tmp93 = einsum(tmp74, (0, 1), t1, (1, 2), (0, 2))
    .set 47 (.ein [(22, [0, 1]), (0, [1, 2])] [0, 2]) 1 1,
    -- 1801: tmp92 = einsum(tmp76, (0, 1, 2, 3), t2, (2, 1, 3, 4), (0, 4))
    .set 48 (.ein [(23, [0, 1, 2, 3]), (2, [2, 1, 3, 4])] [0, 4]) 1 1,
    -- 1802: tmp91 = einsum(tmp76, (0, 1, 2, 3), t2, (2, 1, 4, 3), (0, 4))
    .set 49 (.ein [(23, [0, 1, 2, 3]), (2, [2, 1, 4, 3])] [0, 4]) 1 1,
    -- 1803: tmp89 = einsum(tmp63, (0, 1), t1, (0, 2), (1, 2))
    .set 50 (.ein [(24, [0, 1]), (0, [0, 2])] [1, 2]) 1 1,
    -- 1804: tmp81 = einsum(v.xov, (0, 1, 2), tmp7, (3, 4, 0), (3, 1, 2, 4))
    .set 51 (.ein [(1, [0, 1, 2]), (25, [3, 4, 0])] [3, 1, 2, 4]) 1 1,
    -- 1805: tmp80 = einsum(tmp7, (0, 1, 2), tmp9, (3, 0, 2), (3, 1))
    .set 52 (.ein [(25, [0, 1, 2]), (9, [3, 0, 2])] [3, 1]) 1 1,
    -- 1806: tmp79 = einsum(t1, (0, 1), tmp5, (2, 1), (0, 2))
    .set 53 (.ein [(0, [0, 1]), (26, [2, 1])] [0, 2]) 1 1,
    -- 1807: tmp77 = einsum(tmp76, (0, 1, 2, 3), t2, (1, 2, 4, 5), (0, 4, 5, 3))
    .set 54 (.ein [(23, [0, 1, 2, 3]), (2, [1, 2, 4, 5])] [0, 4, 5, 3]) 1 1,
    -- 1808: tmp71 = einsum(tmp20, (0, 1, 2), v.xvv, (2, 3, 1), (0, 3))
    .set 55 (.ein [(12, [0, 1, 2]), (3, [2, 3, 1])] [0, 3]) 1 1,
    -- 1809: tmp70 = einsum(tmp23, (0, 1, 2), v.xvv, (2, 3, 1), (0, 3))
    .set 56 (.ein [(13, [0, 1, 2]), (3, [2, 3, 1])] [0, 3]) 1 1,
    -- 1810: tmp68 = einsum(v.xvv, (0, 1, 2), tmp9, (3, 4, 0), (3, 4, 1, 2))
    .set 57 (.ein [(3, [0, 1, 2]), (9, [3, 4, 0])] [3, 4, 1, 2]) 1 1,
    -- 1811: tmp66 = einsum(tmp7, (0, 1, 2), v.xvv, (2, 3, 4), (0, 3, 4, 1))
    .set 58 (.ein [(25, [0, 1, 2]), (3, [2, 3, 4])] [0, 3, 4, 1]) 1 1,
    -- 1812: tmp64 = einsum(v.xvv, (0, 1, 2), v.xvv, (0, 3, 4), (1, 3, 4, 2))
    .set 59 (.ein [(3, [0, 1, 2]), (3, [0, 3, 4])] [1, 3, 4, 2]) 1 1,
    -- 1813: tmp62 = einsum(t1, (0, 1), f.vv, (2, 1), (0, 2))
    .set 60 (.ein [(0, [0, 1]), (7, [2, 1])] [0, 2]) 1 1,
    -- 1814: tmp51 = einsum(tmp49, (0, 1, 2, 3), t2, (1, 2, 4, 5), (0, 4, 5, 3))
    .set 61 (.ein [(18, [0, 1, 2, 3]), (2, [1, 2, 4, 5])] [0, 4, 5, 3]) 1 1,
    -- 1815: tmp45 = einsum(tmp7, (0, 1, 2), v.xoo, (2, 3, 0), (3, 1))
    .set 62 (.ein [(25, [0, 1, 2]), (4, [2, 3, 0])] [3, 1]) 1 1,
    -- 1816: tmp44 = einsum(v.xvv, (0, 1, 2), v.xoo, (0, 3, 4), (3, 4, 1, 2))
    .set 63 (.ein [(3, [0, 1, 2]), (4, [0, 3, 4])] [3, 4, 1, 2]) 1 1,
    -- 1817: tmp39 = einsum(tmp15, (0, 1, 2, 3), t2, (4, 0, 3, 5), (4, 1, 5, 2))
    .set 64 (.ein [(14, [0, 1, 2, 3]), (2, [4, 0, 3, 5])] [4, 1, 5, 2]) 1 1,
    -- 1818: tmp36 = einsum(tmp1, (0, 1, 2, 3), t2, (4, 0, 2, 5), (4, 5, 3, 1))
    .set 65 (.ein [(15, [0, 1, 2, 3]), (2, [4, 0, 2, 5])] [4, 5, 3, 1]) 1 1,
    -- 1819: tmp24 = einsum(tmp23, (0, 1, 2), v.xov, (2, 0, 3), (1, 3))
    .set 66 (.ein [(13, [0, 1, 2]), (1, [2, 0, 3])] [1, 3]) 1 1,
    -- 1820: tmp21 = einsum(tmp20, (0, 1, 2), v.xov, (2, 0, 3), (1, 3))
    .set 67 (.ein [(12, [0, 1, 2]), (1, [2, 0, 3])] [1, 3]) 1 1,
    -- 1821: tmp8 = einsum(tmp7, (0, 1, 2), v.xov, (2, 0, 3), (3, 1))
    .set 68 (.ein [(25, [0, 1, 2]), (1, [2, 0, 3])] [3, 1]) 1 1
  ]
  ret := [(chars! "tmp1", 15), (chars! "tmp10", 11), (chars! "tmp100", 45), (chars! "tmp101", 44), (chars! "tmp102", 43), (chars! "tmp108", 42), (chars! "tmp109", 41), (chars! "tmp110", 40), (chars! "tmp111", 39), (chars! "tmp113", 38), (chars! "tmp114", 37), (chars! "tmp117", 36), (chars! "tmp119", 35), (chars! "tmp12", 10), (chars! "tmp120", 34), (chars! "tmp123", 33), (chars! "tmp128", 32), (chars! "tmp129", 31), (chars! "tmp130", 30), (chars! "tmp131", 29), (chars! "tmp132", 28), (chars! "tmp136", 27), (chars! "tmp15", 14), (chars! "tmp20", 12), (chars! "tmp21", 67), (chars! "tmp23", 13), (chars! "tmp24", 66), (chars! "tmp36", 65), (chars! "tmp39", 64), (chars! "tmp44", 63), (chars! "tmp45", 62), (chars! "tmp46", 17), (chars! "tmp47", 16), (chars! "tmp49", 18), (chars! "tmp5", 26), (chars! "tmp51", 61), (chars! "tmp62", 60), (chars! "tmp63", 24), (chars! "tmp64", 59), (chars! "tmp66", 58), (chars! "tmp68", 57), (chars! "tmp7", 25), (chars! "tmp70", 56), (chars! "tmp71", 55), (chars! "tmp72", 21), (chars! "tmp74", 22), (chars! "tmp76", 23), (chars! "tmp77", 54), (chars! "tmp79", 53), (chars! "tmp8", 68), (chars! "tmp80", 52), (chars! "tmp81", 51), (chars! "tmp83", 20), (chars! "tmp84", 19), (chars! "tmp89", 50), (chars! "tmp9", 9), (chars! "tmp91", 49), (chars! "tmp92", 48), (chars! "tmp93", 47), (chars! "tmp94", 46)]

/-- codegen/RDFCCSD.py:1825-2050 `hbar_matvec_ea`. -/
def hbar_matvec_ea : GenFun where
  args := [chars! "f.ov", chars! "ints.tmp12", chars! "ints.tmp10", chars! "ints.tmp49", chars! "ints.tmp76", chars! "r2", chars! "ints.tmp15", chars! "ints.tmp132", chars! "ints.tmp81", chars! "ints.tmp123", chars! "ints.tmp136", chars! "t1", chars! "r1", chars! "ints.tmp9", chars! "v.xoo", chars! "ints.tmp117", chars! "ints.tmp1", chars! "ints.tmp51", chars! "ints.tmp66", chars! "ints.tmp77", chars! "ints.tmp119", chars! "ints.tmp120", chars! "ints.tmp36", chars! "f.oo", chars! "ints.tmp47", chars! "ints.tmp63", chars! "ints.tmp74", chars! "ints.tmp84", chars! "ints.tmp46", chars! "ints.tmp72", chars! "ints.tmp83", chars! "ints.tmp44", chars! "ints.tmp68", chars! "ints.tmp39", chars! "ints.tmp101", chars! "ints.tmp102", chars! "ints.tmp109", chars! "ints.tmp111", chars! "ints.tmp113", chars! "ints.tmp129", chars! "ints.tmp130", chars! "ints.tmp45", chars! "ints.tmp71", chars! "ints.tmp80", chars! "ints.tmp89", chars! "ints.tmp91", chars! "ints.tmp93", chars! "ints.tmp100", chars! "ints.tmp108", chars! "ints.tmp110", chars! "ints.tmp114", chars! "ints.tmp128", chars! "ints.tmp131", chars! "ints.tmp62", chars! "ints.tmp70", chars! "ints.tmp79", chars! "ints.tmp92", chars! "ints.tmp94", chars! "ints.tmp23", chars! "ints.tmp7", chars! "v.xov", chars! "ints.tmp20", chars! "ints.tmp24", chars! "ints.tmp8", chars! "f.vv", chars! "ints.tmp21", chars! "ints.tmp5", chars! "ints.tmp64", chars! "t2"]
  body := [
    -- 1853: tmp14 = np.copy(f.ov) * 0.5
    .set 69 (.cp 0) 1 2,
    -- 1854: tmp14 += ints.tmp12
    .add 69 (.cp 1) 1 1,
    -- 1855: tmp14 += ints.tmp10 * -0.5
    .add 69 (.cp 2) (-1) 2,
    -- 1856: tmp7 = np.copy(ints.tmp49)
    .set 70 (.cp 3) 1 1,
    -- 1857: del ints.tmp49
    .del 3,
    -- 1858: tmp7 += np.transpose(ints.tmp76, (0, 2, 1, 3))
    .add 70 (.tr 4 [0, 2, 1, 3]) 1 1,
    -- 1859: del ints.tmp76
    .del 4,
    -- 1860: tmp0 = np.copy(np.transpose(r2, (2, 0, 1)))
    .set 71 (.tr 5 [2, 0, 1]) 1 1,
    -- 1861: tmp0 += np.transpose(r2, (2, 1, 0)) * -0.5
    .add 71 (.tr 5 [2, 1, 0]) (-1) 2,
    -- 1862: tmp1 = np.copy(f.ov)
    .set 72 (.cp 0) 1 1,
    -- 1863: tmp1 += ints.tmp12 * 2
    .add 72 (.cp 1) 2 1,
    -- 1864: tmp1 += ints.tmp10 * -1
    .add 72 (.cp 2) (-1) 1,
    -- 1865: del ints.tmp10
    .del 2,
    -- 1866: tmp6 = einsum(ints.tmp15, (0, 1, 2, 3), r2, (3, 2, 4), (0, 1, 4))
    .set 73 (.ein [(6, [0, 1, 2, 3]), (5, [3, 2, 4])] [0, 1, 4]) 1 1,
    -- 1867: tmp18 = np.copy(ints.tmp132)
    .set 74 (.cp 7) 1 1,
    -- 1868: del ints.tmp132
    .del 7,
    -- 1869: tmp18 += ints.tmp15 * 0.5
    .add 74 (.cp 6) 1 2,
    -- 1870: tmp18 += np.transpose(ints.tmp81, (0, 1, 3, 2)) * 0.5
    .add 74 (.tr 8 [0, 1, 3, 2]) 1 2,
    -- 1871: del ints.tmp81
    .del 8,
    -- 1872: tmp18 += ints.tmp123 * -0.5
    .add 74 (.cp 9) (-1) 2,
    -- 1873: tmp18 += ints.tmp136 * -0.5
    .add 74 (.cp 10) (-1) 2,
    -- 1874: del ints.tmp136
    .del 10,
    -- 1875: tmp9 = np.copy(np.transpose(r2, (2, 0, 1)))
    .set 75 (.tr 5 [2, 0, 1]) 1 1,
    -- 1876: tmp9 += einsum(t1, (0, 1), r1, (2,), (0, 1, 2)) * -1
    .add 75 (.ein [(11, [0, 1]), (12, [2])] [0, 1, 2]) (-1) 1,
    -- 1877: tmp12 = np.copy(ints.tmp9)
    .set 76 (.cp 13) 1 1,
    -- 1878: del ints.tmp9
    .del 13,
    -- 1879: tmp12 += np.transpose(v.xoo, (1, 2, 0))
    .add 76 (.tr 14 [1, 2, 0]) 1 1,
    -- 1880: tmp2 = np.copy(np.transpose(r2, (2, 0, 1))) * -1
    .set 77 (.tr 5 [2, 0, 1]) (-1) 1,
    -- 1881: tmp2 += np.transpose(r2, (2, 1, 0)) * 2
    .add 77 (.tr 5 [2, 1, 0]) 2 1,
    -- 1882: tmp15 = einsum(t1, (0, 1), tmp14, (0, 2), (1, 2)) * 2
    .set 78 (.ein [(11, [0, 1]), (69, [0, 2])] [1, 2]) 2 1,
    -- 1883: del tmp14
    .del 69,
    -- 1884: tmp17 = np.copy(ints.tmp117) * 2
    .set 79 (.cp 15) 2 1,
    -- 1885: del ints.tmp117
    .del 15,
    -- 1886: tmp17 += np.transpose(ints.tmp1, (0, 3, 2, 1))
    .add 79 (.tr 16 [0, 3, 2, 1]) 1 1,
    -- 1887: tmp17 += np.transpose(ints.tmp51, (0, 1, 3, 2))
    .add 79 (.tr 17 [0, 1, 3, 2]) 1 1,
    -- 1888: del ints.tmp51
    .del 17,
    -- 1889: tmp17 += np.transpose(ints.tmp66, (0, 3, 1, 2))
    .add 79 (.tr 18 [0, 3, 1, 2]) 1 1,
    -- 1890: del ints.tmp66
    .del 18,
    -- 1891: tmp17 += np.transpose(ints.tmp77, (0, 2, 3, 1))
    .add 79 (.tr 19 [0, 2, 3, 1]) 1 1,
    -- 1892: del ints.tmp77
    .del 19,
    -- 1893: tmp17 += ints.tmp119 * -1
    .add 79 (.cp 20) (-1) 1,
    -- 1894: del ints.tmp119
    .del 20,
    -- 1895: tmp17 += ints.tmp120 * -1
    .add 79 (.cp 21) (-1) 1,
    -- 1896: del ints.tmp120
    .del 21,
    -- 1897: tmp17 += np.transpose(ints.tmp36, (0, 3, 2, 1)) * -1
    .add 79 (.tr 22 [0, 3, 2, 1]) (-1) 1,
    -- 1898: del ints.tmp36
    .del 22,
    -- 1899: tmp5 = einsum(ints.tmp1, (0, 1, 2, 3), r2, (3, 2, 4), (0, 4, 1))
    .set 80 (.ein [(16, [0, 1, 2, 3]), (5, [3, 2, 4])] [0, 4, 1]) 1 1,
    -- 1900: tmp20 = np.copy(f.oo)
    .set 81 (.cp 23) 1 1,
    -- 1901: tmp20 += np.transpose(ints.tmp47, (1, 0)) * 2
    .add 81 (.tr 24 [1, 0]) 2 1,
    -- 1902: del ints.tmp47
    .del 24,
    -- 1903: tmp20 += ints.tmp63
    .add 81 (.cp 25) 1 1,
    -- 1904: del ints.tmp63
    .del 25,
    -- 1905: tmp20 += np.transpose(ints.tmp74, (1, 0)) * 2
    .add 81 (.tr 26 [1, 0]) 2 1,
    -- 1906: del ints.tmp74
    .del 26,
    -- 1907: tmp20 += np.transpose(ints.tmp84, (1, 0)) * 2
    .add 81 (.tr 27 [1, 0]) 2 1,
    -- 1908: del ints.tmp84
    .del 27,
    -- 1909: tmp20 += np.transpose(ints.tmp46, (1, 0)) * -1
    .add 81 (.tr 28 [1, 0]) (-1) 1,
    -- 1910: del ints.tmp46
    .del 28,
    -- 1911: tmp20 += np.transpose(ints.tmp72, (1, 0)) * -1
    .add 81 (.tr 29 [1, 0]) (-1) 1,
    -- 1912: del ints.tmp72
    .del 29,
    -- 1913: tmp20 += np.transpose(ints.tmp83, (1, 0)) * -1
    .add 81 (.tr 30 [1, 0]) (-1) 1,
    -- 1914: del ints.tmp83
    .del 30,
    -- 1915: tmp8 = np.copy(ints.tmp123)
    .set 82 (.cp 9) 1 1,
    -- 1916: tmp8 += ints.tmp44 * 0.5
    .add 82 (.cp 31) 1 2,
    -- 1917: tmp8 += ints.tmp68 * 0.5
    .add 82 (.cp 32) 1 2,
    -- 1918: tmp8 += ints.tmp39 * -0.5
    .add 82 (.cp 33) (-1) 2,
    -- 1919: tmp8 += einsum(tmp7, (0, 1, 2, 3), t1, (2, 4), (0, 1, 4, 3)) * -0.5
    .add 82 (.ein [(70, [0, 1, 2, 3]), (11, [2, 4])] [0, 1, 4, 3]) (-1) 2,
    -- 1920: tmp21 = einsum(tmp0, (0, 1, 2), ints.tmp15, (0, 3, 1, 2), (3,)) * -2
    .set 83 (.ein [(71, [0, 1, 2]), (6, [0, 3, 1, 2])] [3]) (-2) 1,
    -- 1921: tmp21 += einsum(r1, (0,), tmp1, (1, 0), (1,))
    .add 83 (.ein [(12, [0]), (72, [1, 0])] [1]) 1 1,
    -- 1922: tmp10 = np.copy(ints.tmp44)
    .set 84 (.cp 31) 1 1,
    -- 1923: del ints.tmp44
    .del 31,
    -- 1924: tmp10 += ints.tmp68
    .add 84 (.cp 32) 1 1,
    -- 1925: del ints.tmp68
    .del 32,
    -- 1926: tmp10 += ints.tmp39 * -1
    .add 84 (.cp 33) (-1) 1,
    -- 1927: del ints.tmp39
    .del 33,
    -- 1928: tmp19 = einsum(ints.tmp1, (0, 1, 2, 3), r2, (2, 3, 4), (4, 0, 1)) * -1
    .set 85 (.ein [(16, [0, 1, 2, 3]), (5, [2, 3, 4])] [4, 0, 1]) (-1) 1,
    -- 1929: tmp19 += einsum(t1, (0, 1), tmp6, (2, 0, 3), (3, 2, 1))
    .add 85 (.ein [(11, [0, 1]), (73, [2, 0, 3])] [3, 2, 1]) 1 1,
    -- 1930: tmp19 += einsum(tmp9, (0, 1, 2), tmp7, (3, 0, 4, 2), (3, 4, 1))
    .add 85 (.ein [(75, [0, 1, 2]), (70, [3, 0, 4, 2])] [3, 4, 1]) 1 1,
    -- 1931: del tmp7
    .del 70,
    -- 1932: tmp19 += einsum(tmp18, (0, 1, 2, 3), r1, (3,), (0, 1, 2)) * 2
    .add 85 (.ein [(74, [0, 1, 2, 3]), (12, [3])] [0, 1, 2]) 2 1,
    -- 1933: del tmp18
    .del 74,
    -- 1934: tmp22 = np.copy(ints.tmp101) * 2
    .set 86 (.cp 34) 2 1,
    -- 1935: del ints.tmp101
    .del 34,
    -- 1936: tmp22 += ints.tmp102
    .add 86 (.cp 35) 1 1,
    -- 1937: del ints.tmp102
    .del 35,
    -- 1938: tmp22 += ints.tmp109 * 2
    .add 86 (.cp 36) 2 1,
    -- 1939: del ints.tmp109
    .del 36,
    -- 1940: tmp22 += ints.tmp111 * 2
    .add 86 (.cp 37) 2 1,
    -- 1941: del ints.tmp111
    .del 37,
    -- 1942: tmp22 += ints.tmp113
    .add 86 (.cp 38) 1 1,
    -- 1943: del ints.tmp113
    .del 38,
    -- 1944: tmp22 += ints.tmp129 * 2
    .add 86 (.cp 39) 2 1,
    -- 1945: del ints.tmp129
    .del 39,
    -- 1946: tmp22 += ints.tmp130 * 2
    .add 86 (.cp 40) 2 1,
    -- 1947: del ints.tmp130
    .del 40,
    -- 1948: tmp22 += ints.tmp45
    .add 86 (.cp 41) 1 1,
    -- 1949: del ints.tmp45
    .del 41,
    -- 1950: tmp22 += ints.tmp71
    .add 86 (.cp 42) 1 1,
    -- 1951: del ints.tmp71
    .del 42,
    -- 1952: tmp22 += ints.tmp80
    .add 86 (.cp 43) 1 1,
    -- 1953: del ints.tmp80
    .del 43,
    -- 1954: tmp22 += ints.tmp89
    .add 86 (.cp 44) 1 1,
    -- 1955: del ints.tmp89
    .del 44,
    -- 1956: tmp22 += ints.tmp91 * 2
    .add 86 (.cp 45) 2 1,
    -- 1957: del ints.tmp91
    .del 45,
    -- 1958: tmp22 += ints.tmp93 * 2
    .add 86 (.cp 46) 2 1,
    -- 1959: del ints.tmp93
    .del 46,
    -- 1960: tmp22 += f.ov * -1
    .add 86 (.cp 0) (-1) 1,
    -- 1961: tmp22 += ints.tmp100 * -1
    .add 86 (.cp 47) (-1) 1,
    -- 1962: del ints.tmp100
    .del 47,
    -- 1963: tmp22 += ints.tmp108 * -1
    .add 86 (.cp 48) (-1) 1,
    -- 1964: del ints.tmp108
    .del 48,
    -- 1965: tmp22 += ints.tmp110 * -1
    .add 86 (.cp 49) (-1) 1,
    -- 1966: del ints.tmp110
    .del 49,
    -- 1967: tmp22 += ints.tmp114 * -2
    .add 86 (.cp 50) (-2) 1,
    -- 1968: del ints.tmp114
    .del 50,
    -- 1969: tmp22 += ints.tmp128 * -1
    .add 86 (.cp 51) (-1) 1,
    -- 1970: del ints.tmp128
    .del 51,
    -- 1971: tmp22 += ints.tmp12 * -2
    .add 86 (.cp 1) (-2) 1,
    -- 1972: del ints.tmp12
    .del 1,
    -- 1973: tmp22 += ints.tmp131 * -4
    .add 86 (.cp 52) (-4) 1,
    -- 1974: del ints.tmp131
    .del 52,
    -- 1975: tmp22 += ints.tmp62 * -1
    .add 86 (.cp 53) (-1) 1,
    -- 1976: del ints.tmp62
    .del 53,
    -- 1977: tmp22 += ints.tmp70 * -2
    .add 86 (.cp 54) (-2) 1,
    -- 1978: del ints.tmp70
    .del 54,
    -- 1979: tmp22 += ints.tmp79 * -2
    .add 86 (.cp 55) (-2) 1,
    -- 1980: del ints.tmp79
    .del 55,
    -- 1981: tmp22 += ints.tmp92 * -1
    .add 86 (.cp 56) (-1) 1,
    -- 1982: del ints.tmp92
    .del 56,
    -- 1983: tmp22 += ints.tmp94 * -1
    .add 86 (.cp 57) (-1) 1,
    -- 1984: del ints.tmp94
    .del 57,
    -- 1985: tmp13 = np.copy(ints.tmp23) * 2
    .set 87 (.cp 58) 2 1,
    -- 1986: del ints.tmp23
    .del 58,
    -- 1987: tmp13 += ints.tmp7
    .add 87 (.cp 59) 1 1,
    -- 1988: del ints.tmp7
    .del 59,
    -- 1989: tmp13 += np.transpose(v.xov, (1, 2, 0))
    .add 87 (.tr 60 [1, 2, 0]) 1 1,
    -- 1990: tmp13 += ints.tmp20 * -1
    .add 87 (.cp 61) (-1) 1,
    -- 1991: del ints.tmp20
    .del 61,
    -- 1992: tmp13 += einsum(tmp12, (0, 1, 2), t1, (1, 3), (0, 3, 2)) * -1
    .add 87 (.ein [(76, [0, 1, 2]), (11, [1, 3])] [0, 3, 2]) (-1) 1,
    -- 1993: del tmp12
    .del 76,
    -- 1994: tmp11 = einsum(tmp2, (0, 1, 2), v.xov, (3, 0, 2), (1, 3)) * 0.5
    .set 88 (.ein [(77, [0, 1, 2]), (60, [3, 0, 2])] [1, 3]) 1 2,
    -- 1995: tmp16 = np.copy(np.transpose(ints.tmp24, (1, 0))) * 2
    .set 89 (.tr 62 [1, 0]) 2 1,
    -- 1996: tmp16 += ints.tmp8
    .add 89 (.cp 63) 1 1,
    -- 1997: tmp16 += f.vv * -1
    .add 89 (.cp 64) (-1) 1,
    -- 1998: tmp16 += np.transpose(ints.tmp21, (1, 0)) * -1
    .add 89 (.tr 65 [1, 0]) (-1) 1,
    -- 1999: tmp16 += np.transpose(ints.tmp5, (1, 0)) * -2
    .add 89 (.tr 66 [1, 0]) (-2) 1,
    -- 2000: tmp16 += np.transpose(tmp15, (1, 0))
    .add 89 (.tr 78 [1, 0]) 1 1,
    -- 2001: del tmp15
    .del 78,
    -- 2002: tmp4 = einsum(tmp0, (0, 1, 2), ints.tmp15, (0, 3, 1, 2), (3,)) * -1
    .set 90 (.ein [(71, [0, 1, 2]), (6, [0, 3, 1, 2])] [3]) (-1) 1,
    -- 2003: del ints.tmp15
    .del 6,
    -- 2004: tmp4 += einsum(r1, (0,), tmp1, (1, 0), (1,)) * 0.5
    .add 90 (.ein [(12, [0]), (72, [1, 0])] [1]) 1 2,
    -- 2005: tmp3 = np.copy(f.vv)
    .set 91 (.cp 64) 1 1,
    -- 2006: tmp3 += np.transpose(ints.tmp21, (1, 0))
    .add 91 (.tr 65 [1, 0]) 1 1,
    -- 2007: del ints.tmp21
    .del 65,
    -- 2008: tmp3 += np.transpose(ints.tmp5, (1, 0)) * 2
    .add 91 (.tr 66 [1, 0]) 2 1,
    -- 2009: del ints.tmp5
    .del 66,
    -- 2010: tmp3 += np.transpose(ints.tmp24, (1, 0)) * -2
    .add 91 (.tr 62 [1, 0]) (-2) 1,
    -- 2011: del ints.tmp24
    .del 62,
    -- 2012: tmp3 += ints.tmp8 * -1
    .add 91 (.cp 63) (-1) 1,
    -- 2013: del ints.tmp8
    .del 63,
    -- 2014: r2new = einsum(r2, (0, 1, 2), ints.tmp123, (3, 2, 4, 1), (4, 0, 3))
    .set 92 (.ein [(5, [0, 1, 2]), (9, [3, 2, 4, 1])] [4, 0, 3]) 1 1,
    -- 2015: del ints.tmp123
    .del 9,
    -- 2016: r2new += einsum(t1, (0, 1), tmp5, (0, 2, 3), (1, 3, 2)) * -1
    .add 92 (.ein [(11, [0, 1]), (80, [0, 2, 3])] [1, 3, 2]) (-1) 1,
    -- 2017: del tmp5
    .del 80,
    -- 2018: r2new += einsum(ints.tmp64, (0, 1, 2, 3), r2, (1, 3, 4), (2, 0, 4))
    .add 92 (.ein [(67, [0, 1, 2, 3]), (5, [1, 3, 4])] [2, 0, 4]) 1 1,
    -- 2019: del ints.tmp64
    .del 67,
    -- 2020: r2new += einsum(tmp6, (0, 1, 2), t2, (1, 0, 3, 4), (3, 4, 2))
    .add 92 (.ein [(73, [0, 1, 2]), (68, [1, 0, 3, 4])] [3, 4, 2]) 1 1,
    -- 2021: del tmp6
    .del 73,
    -- 2022: r2new += einsum(tmp8, (0, 1, 2, 3), r2, (3, 4, 1), (2, 4, 0)) * -2
    .add 92 (.ein [(82, [0, 1, 2, 3]), (5, [3, 4, 1])] [2, 4, 0]) (-2) 1,
    -- 2023: del tmp8
    .del 82,
    -- 2024: r2new += einsum(tmp10, (0, 1, 2, 3), tmp9, (1, 4, 3), (4, 2, 0)) * -1
    .add 92 (.ein [(84, [0, 1, 2, 3]), (75, [1, 4, 3])] [4, 2, 0]) (-1) 1,
    -- 2025: del tmp9, tmp10
    .del 75,
    .del 84,
    -- 2026: r2new += einsum(tmp11, (0, 1), tmp13, (2, 3, 1), (3, 0, 2)) * 2
    .add 92 (.ein [(88, [0, 1]), (87, [2, 3, 1])] [3, 0, 2]) 2 1,
    -- 2027: del tmp11, tmp13
    .del 88,
    .del 87,
    -- 2028: r2new += einsum(r2, (0, 1, 2), tmp16, (0, 3), (3, 1, 2)) * -1
    .add 92 (.ein [(5, [0, 1, 2]), (89, [0, 3])] [3, 1, 2]) (-1) 1,
    -- 2029: r2new += einsum(tmp16, (0, 1), r2, (2, 0, 3), (2, 1, 3)) * -1
    .add 92 (.ein [(89, [0, 1]), (5, [2, 0, 3])] [2, 1, 3]) (-1) 1,
    -- 2030: del tmp16
    .del 89,
    -- 2031: r2new += einsum(r1, (0,), tmp17, (1, 2, 0, 3), (2, 3, 1)) * -1
    .add 92 (.ein [(12, [0]), (79, [1, 2, 0, 3])] [2, 3, 1]) (-1) 1,
    -- 2032: del tmp17
    .del 79,
    -- 2033: r2new += einsum(tmp19, (0, 1, 2), t1, (1, 3), (2, 3, 0))
    .add 92 (.ein [(85, [0, 1, 2]), (11, [1, 3])] [2, 3, 0]) 1 1,
    -- 2034: del tmp19
    .del 85,
    -- 2035: r2new += einsum(r2, (0, 1, 2), tmp20, (2, 3), (0, 1, 3)) * -1
    .add 92 (.ein [(5, [0, 1, 2]), (81, [2, 3])] [0, 1, 3]) (-1) 1,
    -- 2036: del tmp20
    .del 81,
    -- 2037: r2new += einsum(t2, (0, 1, 2, 3), tmp21, (1,), (2, 3, 0))
    .add 92 (.ein [(68, [0, 1, 2, 3]), (83, [1])] [2, 3, 0]) 1 1,
    -- 2038: del tmp21
    .del 83,
    -- 2039: r2new += einsum(tmp22, (0, 1), r1, (2,), (1, 2, 0))
    .add 92 (.ein [(86, [0, 1]), (12, [2])] [1, 2, 0]) 1 1,
    -- 2040: del tmp22
    .del 86,
    -- 2041: r1new = einsum(tmp0, (0, 1, 2), ints.tmp1, (0, 3, 2, 1), (3,)) * -2
    .set 93 (.ein [(71, [0, 1, 2]), (16, [0, 3, 2, 1])] [3]) (-2) 1,
    -- 2042: del ints.tmp1, tmp0
    .del 16,
    .del 71,
    -- 2043: r1new += einsum(tmp1, (0, 1), tmp2, (0, 2, 1), (2,)) * -1
    .add 93 (.ein [(72, [0, 1]), (77, [0, 2, 1])] [2]) (-1) 1,
    -- 2044: del tmp1, tmp2
    .del 72,
    .del 77,
    -- 2045: r1new += einsum(tmp3, (0, 1), r1, (0,), (1,))
    .add 93 (.ein [(91, [0, 1]), (12, [0])] [1]) 1 1,
    -- 2046: del tmp3
    .del 91,
    -- 2047: r1new += einsum(tmp4, (0,), t1, (0, 1), (1,)) * -2
    .add 93 (.ein [(90, [0]), (11, [0, 1])] [1]) (-2) 1,
    -- 2048: del tmp4
    .del 90
  ]
  ret := [(chars! "r1new", 93), (chars! "r2new", 92)]

/-- codegen/RDFCCSD.py:2463-2605 `hbar_lmatvec_ea_intermediates`. -/
def hbar_lmatvec_ea_intermediates : GenFun where
  args := [chars! "t1", chars! "v.xov", chars! "t2", chars! "v.xvv", chars! "v.xoo", chars! "f.ov", chars! "f.vv", chars! "f.oo"]
  body := [
    -- 2542: tmp15 = einsum(t1, (0, 1), v.xov, (2, 0, 1), (2,))
    .set 8 (.ein [(0, [0, 1]), (1, [2, 0, 1])] [2]) 1 1,
    -- 2543: tmp65 = einsum(v.xov, (0, 1, 2), t1, (3, 2), (3, 1, 0))
    .set 9 (.ein [(1, [0, 1, 2]), (0, [3, 2])] [3, 1, 0]) 1 1,
    -- 2544: tmp20 = einsum(tmp15, (0,), v.xov, (0, 1, 2), (1, 2))
    .set 10 (.ein [(8, [0]), (1, [0, 1, 2])] [1, 2]) 1 1,
    -- 2545: tmp66 = einsum(tmp65, (0, 1, 2), v.xov, (2, 0, 3), (1, 3))
    .set 11 (.ein [(9, [0, 1, 2]), (1, [2, 0, 3])] [1, 3]) 1 1,
    -- 2546: tmp34 = einsum(t2, (0, 1, 2, 3), v.xov, (4, 1, 2), (0, 3, 4))
    .set 12 (.ein [(2, [0, 1, 2, 3]), (1, [4, 1, 2])] [0, 3, 4]) 1 1,
    -- 2547: tmp37 = einsum(t2, (0, 1, 2, 3), v.xov, (4, 1, 3), (0, 2, 4))
    .set 13 (.ein [(2, [0, 1, 2, 3]), (1, [4, 1, 3])] [0, 2, 4]) 1 1,
    -- 2548: tmp132 = einsum(t1, (0, 1), tmp20, (2, 1), (0, 2))
    .set 14 (.ein [(0, [0, 1]), (10, [2, 1])] [0, 2]) 1 1,
    -- 2549: tmp129 = einsum(t1, (0, 1), tmp66, (2, 1), (0, 2))
    .set 15 (.ein [(0, [0, 1]), (11, [2, 1])] [0, 2]) 1 1,
    -- 2550: tmp18 = einsum(t1, (0, 1), v.xvv, (2, 3, 1), (0, 3, 2))
    .set 16 (.ein [(0, [0, 1]), (3, [2, 3, 1])] [0, 3, 2]) 1 1,
    -- 2551: tmp16 = einsum(v.xvv, (0, 1, 2), tmp15, (0,), (1, 2))
    .set 17 (.ein [(3, [0, 1, 2]), (8, [0])] [1, 2]) 1 1,
    -- 2552: tmp113 = einsum(tmp15, (0,), v.xoo, (0, 1, 2), (1, 2))
    .set 18 (.ein [(8, [0]), (4, [0, 1, 2])] [1, 2]) 1 1,
    -- 2553: del tmp15
    .del 8,
    -- 2554: tmp110 = einsum(v.xoo, (0, 1, 2), tmp65, (2, 3, 0), (1, 3))
    .set 19 (.ein [(4, [0, 1, 2]), (9, [2, 3, 0])] [1, 3]) 1 1,
    -- 2555: tmp25 = einsum(v.xov, (0, 1, 2), v.xov, (0, 3, 4), (3, 1, 4, 2))
    .set 20 (.ein [(1, [0, 1, 2]), (1, [0, 3, 4])] [3, 1, 4, 2]) 1 1,
    -- 2556: tmp96 = einsum(v.xov, (0, 1, 2), tmp34, (3, 2, 0), (3, 1))
    .set 21 (.ein [(1, [0, 1, 2]), (12, [3, 2, 0])] [3, 1]) 1 1,
    -- 2557: tmp92 = einsum(v.xov, (0, 1, 2), tmp37, (3, 2, 0), (3, 1))
    .set 22 (.ein [(1, [0, 1, 2]), (13, [3, 2, 0])] [3, 1]) 1 1,
    -- 2558: tmp82 = einsum(tmp65, (0, 1, 2), v.xov, (2, 3, 4), (0, 3, 1, 4))
    .set 23 (.ein [(9, [0, 1, 2]), (1, [2, 3, 4])] [0, 3, 1, 4]) 1 1,
    -- 2559: tmp12 = einsum(v.xov, (0, 1, 2), v.xvv, (0, 3, 4), (1, 3, 4, 2))
    .set 24 (.ein [(1, [0, 1, 2]), (3, [0, 3, 4])] [1, 3, 4, 2]) 1 1,
    -- 2560: tmp40 = einsum(v.xov, (0, 1, 2), v.xoo, (0, 3, 4), (3, 4, 1, 2))
    .set 25 (.ein [(1, [0, 1, 2]), (4, [0, 3, 4])] [3, 4, 1, 2]) 1 1,
    -- 2561: tmp10 = einsum(t1, (0, 1), f.ov, (2, 1), (2, 0))
    .set 26 (.ein [(0, [0, 1]), (5, [2, 1])] [2, 0]) 1 1,
    -- 2562: tmp163 = einsum(v.xvv, (0, 1, 2), v.xvv, (0, 3, 4), (1, 3, 4, 2))
    .set 27 (.ein [(3, [0, 1, 2]), (3, [0, 3, 4])] [1, 3, 4, 2]) 1 1,
    -- 2563: tmp133 = einsum(tmp132, (0, 1), t1, (1, 2), (0, 2))
    .set 28 (.ein [(14, [0, 1]), (0, [1, 2])] [0, 2]) 1 1,
    -- 2564: tmp130 = einsum(tmp129, (0, 1), t1, (1, 2), (0, 2))
    .set 29 (.ein [(15, [0, 1]), (0, [1, 2])] [0, 2]) 1 1,
    -- 2565: tmp127 = einsum(v.xov, (0, 1, 2), tmp18, (3, 4, 0), (3, 1, 2, 4))
    .set 30 (.ein [(1, [0, 1, 2]), (16, [3, 4, 0])] [3, 1, 2, 4]) 1 1,
    -- 2566: tmp125 = einsum(v.xvv, (0, 1, 2), tmp65, (3, 4, 0), (3, 4, 1, 2))
    .set 31 (.ein [(3, [0, 1, 2]), (9, [3, 4, 0])] [3, 4, 1, 2]) 1 1,
    -- 2567: tmp123 = einsum(tmp18, (0, 1, 2), tmp65, (3, 0, 2), (3, 1))
    .set 32 (.ein [(16, [0, 1, 2]), (9, [3, 0, 2])] [3, 1]) 1 1,
    -- 2568: tmp120 = einsum(t1, (0, 1), tmp16, (2, 1), (0, 2))
    .set 33 (.ein [(0, [0, 1]), (17, [2, 1])] [0, 2]) 1 1,
    -- 2569: tmp114 = einsum(t1, (0, 1), tmp113, (2, 0), (2, 1))
    .set 34 (.ein [(0, [0, 1]), (18, [2, 0])] [2, 1]) 1 1,
    -- 2570: tmp111 = einsum(tmp110, (0, 1), t1, (1, 2), (0, 2))
    .set 35 (.ein [(19, [0, 1]), (0, [1, 2])] [0, 2]) 1 1,
    -- 2571: tmp107 = einsum(t2, (0, 1, 2, 3), tmp25, (1, 4, 5, 3), (0, 4, 2, 5))
    .set 36 (.ein [(2, [0, 1, 2, 3]), (20, [1, 4, 5, 3])] [0, 4, 2, 5]) 1 1,
    -- 2572: tmp105 = einsum(tmp25, (0, 1, 2, 3), t2, (4, 0, 3, 5), (4, 1, 5, 2))
    .set 37 (.ein [(20, [0, 1, 2, 3]), (2, [4, 0, 3, 5])] [4, 1, 5, 2]) 1 1,
    -- 2573: tmp102 = einsum(tmp37, (0, 1, 2), v.xov, (2, 3, 4), (0, 3, 1, 4))
    .set 38 (.ein [(13, [0, 1, 2]), (1, [2, 3, 4])] [0, 3, 1, 4]) 1 1,
    -- 2574: tmp100 = einsum(tmp34, (0, 1, 2), v.xov, (2, 3, 4), (0, 3, 1, 4))
    .set 39 (.ein [(12, [0, 1, 2]), (1, [2, 3, 4])] [0, 3, 1, 4]) 1 1,
    -- 2575: tmp97 = einsum(tmp96, (0, 1), t1, (1, 2), (0, 2))
    .set 40 (.ein [(21, [0, 1]), (0, [1, 2])] [0, 2]) 1 1,
    -- 2576: tmp93 = einsum(tmp92, (0, 1), t1, (1, 2), (0, 2))
    .set 41 (.ein [(22, [0, 1]), (0, [1, 2])] [0, 2]) 1 1,
    -- 2577: tmp89 = einsum(tmp82, (0, 1, 2, 3), t2, (1, 2, 4, 5), (0, 4, 5, 3))
    .set 42 (.ein [(23, [0, 1, 2, 3]), (2, [1, 2, 4, 5])] [0, 4, 5, 3]) 1 1,
    -- 2578: tmp86 = einsum(t2, (0, 1, 2, 3), tmp82, (4, 1, 0, 2), (4, 3))
    .set 43 (.ein [(2, [0, 1, 2, 3]), (23, [4, 1, 0, 2])] [4, 3]) 1 1,
    -- 2579: tmp83 = einsum(t2, (0, 1, 2, 3), tmp82, (4, 1, 0, 3), (4, 2))
    .set 44 (.ein [(2, [0, 1, 2, 3]), (23, [4, 1, 0, 3])] [4, 2]) 1 1,
    -- 2580: tmp75 = einsum(t2, (0, 1, 2, 3), tmp20, (1, 3), (0, 2))
    .set 45 (.ein [(2, [0, 1, 2, 3]), (10, [1, 3])] [0, 2]) 1 1,
    -- 2581: tmp72 = einsum(tmp20, (0, 1), t2, (2, 0, 1, 3), (2, 3))
    .set 46 (.ein [(10, [0, 1]), (2, [2, 0, 1, 3])] [2, 3]) 1 1,
    -- 2582: tmp69 = einsum(t2, (0, 1, 2, 3), tmp66, (1, 3), (0, 2))
    .set 47 (.ein [(2, [0, 1, 2, 3]), (11, [1, 3])] [0, 2]) 1 1,
    -- 2583: tmp67 = einsum(tmp66, (0, 1), t2, (2, 0, 1, 3), (2, 3))
    .set 48 (.ein [(11, [0, 1]), (2, [2, 0, 1, 3])] [2, 3]) 1 1,
    -- 2584: tmp63 = einsum(t2, (0, 1, 2, 3), tmp12, (1, 3, 4, 5), (0, 2, 5, 4))
    .set 49 (.ein [(2, [0, 1, 2, 3]), (24, [1, 3, 4, 5])] [0, 2, 5, 4]) 1 1,
    -- 2585: tmp61 = einsum(tmp12, (0, 1, 2, 3), t2, (4, 0, 1, 5), (4, 5, 3, 2))
    .set 50 (.ein [(24, [0, 1, 2, 3]), (2, [4, 0, 1, 5])] [4, 5, 3, 2]) 1 1,
    -- 2586: tmp58 = einsum(v.xvv, (0, 1, 2), tmp37, (3, 4, 0), (3, 4, 1, 2))
    .set 51 (.ein [(3, [0, 1, 2]), (13, [3, 4, 0])] [3, 4, 1, 2]) 1 1,
    -- 2587: tmp56 = einsum(tmp34, (0, 1, 2), v.xvv, (2, 3, 4), (0, 1, 3, 4))
    .set 52 (.ein [(12, [0, 1, 2]), (3, [2, 3, 4])] [0, 1, 3, 4]) 1 1,
    -- 2588: tmp53 = einsum(v.xvv, (0, 1, 2), tmp34, (3, 2, 0), (3, 1))
    .set 53 (.ein [(3, [0, 1, 2]), (12, [3, 2, 0])] [3, 1]) 1 1,
    -- 2589: tmp50 = einsum(tmp37, (0, 1, 2), v.xvv, (2, 3, 1), (0, 3))
    .set 54 (.ein [(13, [0, 1, 2]), (3, [2, 3, 1])] [0, 3]) 1 1,
    -- 2590: tmp47 = einsum(t2, (0, 1, 2, 3), tmp40, (0, 4, 1, 5), (4, 2, 3, 5))
    .set 55 (.ein [(2, [0, 1, 2, 3]), (25, [0, 4, 1, 5])] [4, 2, 3, 5]) 1 1,
    -- 2591: tmp44 = einsum(tmp40, (0, 1, 2, 3), t2, (0, 2, 4, 3), (1, 4))
    .set 56 (.ein [(25, [0, 1, 2, 3]), (2, [0, 2, 4, 3])] [1, 4]) 1 1,
    -- 2592: tmp41 = einsum(tmp40, (0, 1, 2, 3), t2, (0, 2, 3, 4), (1, 4))
    .set 57 (.ein [(25, [0, 1, 2, 3]), (2, [0, 2, 3, 4])] [1, 4]) 1 1,
    -- 2593: tmp38 = einsum(v.xov, (0, 1, 2), tmp37, (1, 3, 0), (3, 2))
    .set 58 (.ein [(1, [0, 1, 2]), (13, [1, 3, 0])] [3, 2]) 1 1,
    -- 2594: tmp35 = einsum(tmp34, (0, 1, 2), v.xov, (2, 0, 3), (1, 3))
    .set 59 (.ein [(12, [0, 1, 2]), (1, [2, 0, 3])] [1, 3]) 1 1,
    -- 2595: tmp31 = einsum(tmp18, (0, 1, 2), v.xvv, (2, 3, 4), (0, 3, 4, 1))
    .set 60 (.ein [(16, [0, 1, 2]), (3, [2, 3, 4])] [0, 3, 4, 1]) 1 1,
    -- 2596: tmp29 = einsum(v.xvv, (0, 1, 2), v.xoo, (0, 3, 4), (3, 4, 1, 2))
    .set 61 (.ein [(3, [0, 1, 2]), (4, [0, 3, 4])] [3, 4, 1, 2]) 1 1,
    -- 2597: tmp23 = einsum(tmp18, (0, 1, 2), v.xoo, (2, 3, 0), (3, 1))
    .set 62 (.ein [(16, [0, 1, 2]), (4, [2, 3, 0])] [3, 1]) 1 1,
    -- 2598: tmp19 = einsum(tmp18, (0, 1, 2), v.xov, (2, 0, 3), (3, 1))
    .set 63 (.ein [(16, [0, 1, 2]), (1, [2, 0, 3])] [3, 1]) 1 1,
    -- 2599: tmp11 = einsum(tmp10, (0, 1), t1, (0, 2), (1, 2))
    .set 64 (.ein [(26, [0, 1]), (0, [0, 2])] [1, 2]) 1 1,
    -- 2600: tmp4 = einsum(f.ov, (0, 1), t2, (2, 0, 3, 1), (2, 3))
    .set 65 (.ein [(5, [0, 1]), (2, [2, 0, 3, 1])] [2, 3]) 1 1,
    -- 2601: tmp3 = einsum(f.ov, (0, 1), t2, (2, 0, 1, 3), (2, 3))
    .set 66 (.ein [(5, [0, 1]), (2, [2, 0, 1, 3])] [2, 3]) 1 1,
    -- 2602: tmp2 = einsum(t1, (0, 1), f.vv, (2, 1), (0, 2))
    .set 67 (.ein [(0, [0, 1]), (6, [2, 1])] [0, 2]) 1 1,
    -- 2603: tmp1 = einsum(f.oo, (0, 1), t1, (1, 2), (0, 2))
    .set 68 (.ein [(7, [0, 1]), (0, [1, 2])] [0, 2]) 1 1
  ]
  ret := [(chars! "tmp1", 68), (chars! "tmp10", 26), (chars! "tmp100", 39), (chars! "tmp102", 38), (chars! "tmp105", 37), (chars! "tmp107", 36), (chars! "tmp11", 64), (chars! "tmp110", 19), (chars! "tmp111", 35), (chars! "tmp113", 18), (chars! "tmp114", 34), (chars! "tmp12", 24), (chars! "tmp120", 33), (chars! "tmp123", 32), (chars! "tmp125", 31), (chars! "tmp127", 30), (chars! "tmp129", 15), (chars! "tmp130", 29), (chars! "tmp132", 14), (chars! "tmp133", 28), (chars! "tmp16", 17), (chars! "tmp163", 27), (chars! "tmp18", 16), (chars! "tmp19", 63), (chars! "tmp2", 67), (chars! "tmp20", 10), (chars! "tmp23", 62), (chars! "tmp25", 20), (chars! "tmp29", 61), (chars! "tmp3", 66), (chars! "tmp31", 60), (chars! "tmp34", 12), (chars! "tmp35", 59), (chars! "tmp37", 13), (chars! "tmp38", 58), (chars! "tmp4", 65), (chars! "tmp40", 25), (chars! "tmp41", 57), (chars! "tmp44", 56), (chars! "tmp47", 55), (chars! "tmp50", 54), (chars! "tmp53", 53), (chars! "tmp56", 52), (chars! "tmp58", 51), (chars! "tmp61", 50), (chars! "tmp63", 49), (chars! "tmp65", 9), (chars! "tmp66", 11), (chars! "tmp67", 48), (chars! "tmp69", 47), (chars! "tmp72", 46), (chars! "tmp75", 45), (chars! "tmp82", 23), (chars! "tmp83", 44), (chars! "tmp86", 43), (chars! "tmp89", 42), (chars! "tmp92", 22), (chars! "tmp93", 41), (chars! "tmp96", 21), (chars! "tmp97", 40)]

/-- codegen/RDFCCSD.py:2607-2850 `hbar_lmatvec_ea`. -/
def hbar_lmatvec_ea : GenFun where
  args := [chars! "ints.tmp65", chars! "v.xoo", chars! "t2", chars! "f.ov", chars! "ints.tmp20", chars! "ints.tmp66", chars! "r2", chars! "t1", chars! "ints.tmp18", chars! "ints.tmp37", chars! "v.xov", chars! "ints.tmp34", chars! "ints.tmp40", chars! "ints.tmp82", chars! "r1", chars! "f.oo", chars! "ints.tmp10", chars! "ints.tmp113", chars! "ints.tmp132", chars! "ints.tmp92", chars! "ints.tmp110", chars! "ints.tmp129", chars! "ints.tmp96", chars! "ints.tmp105", chars! "ints.tmp125", chars! "ints.tmp29", chars! "ints.tmp19", chars! "ints.tmp38", chars! "f.vv", chars! "ints.tmp16", chars! "ints.tmp35", chars! "ints.tmp107", chars! "ints.tmp102", chars! "ints.tmp127", chars! "ints.tmp25", chars! "ints.tmp100", chars! "ints.tmp47", chars! "ints.tmp58", chars! "ints.tmp56", chars! "ints.tmp63", chars! "ints.tmp12", chars! "ints.tmp31", chars! "ints.tmp89", chars! "ints.tmp61", chars! "ints.tmp114", chars! "ints.tmp11", chars! "ints.tmp123", chars! "ints.tmp133", chars! "ints.tmp1", chars! "ints.tmp23", chars! "ints.tmp3", chars! "ints.tmp44", chars! "ints.tmp53", chars! "ints.tmp69", chars! "ints.tmp72", chars! "ints.tmp83", chars! "ints.tmp93", chars! "ints.tmp111", chars! "ints.tmp120", chars! "ints.tmp130", chars! "ints.tmp2", chars! "ints.tmp41", chars! "ints.tmp4", chars! "ints.tmp50", chars! "ints.tmp67", chars! "ints.tmp75", chars! "ints.tmp86", chars! "ints.tmp97", chars! "ints.tmp163"]
  body := [
    -- 2635: tmp25 = np.copy(ints.tmp65)
    .set 69 (.cp 0) 1 1,
    -- 2636: del ints.tmp65
    .del 0,
    -- 2637: tmp25 += np.transpose(v.xoo, (1, 2, 0))
    .add 69 (.tr 1 [1, 2, 0]) 1 1,
    -- 2638: tmp16 = np.copy(np.transpose(t2, (0, 1, 3, 2))) * -1
    .set 70 (.tr 2 [0, 1, 3, 2]) (-1) 1,
    -- 2639: tmp16 += t2 * 2
    .add 70 (.cp 2) 2 1,
    -- 2640: tmp19 = np.copy(f.ov)
    .set 71 (.cp 3) 1 1,
    -- 2641: tmp19 += ints.tmp20 * 2
    .add 71 (.cp 4) 2 1,
    -- 2642: tmp19 += ints.tmp66 * -1
    .add 71 (.cp 5) (-1) 1,
    -- 2643: del ints.tmp66
    .del 5,
    -- 2644: tmp10 = einsum(r2, (0, 1, 2), t1, (3, 1), (2, 3, 0))
    .set 72 (.ein [(6, [0, 1, 2]), (7, [3, 1])] [2, 3, 0]) 1 1,
    -- 2645: tmp4 = np.copy(np.transpose(r2, (2, 0, 1))) * -0.5
    .set 73 (.tr 6 [2, 0, 1]) (-1) 2,
    -- 2646: tmp4 += np.transpose(r2, (2, 1, 0))
    .add 73 (.tr 6 [2, 1, 0]) 1 1,
    -- 2647: tmp26 = np.copy(ints.tmp18)
    .set 74 (.cp 8) 1 1,
    -- 2648: del ints.tmp18
    .del 8,
    -- 2649: tmp26 += ints.tmp37 * 2
    .add 74 (.cp 9) 2 1,
    -- 2650: del ints.tmp37
    .del 9,
    -- 2651: tmp26 += np.transpose(v.xov, (1, 2, 0))
    .add 74 (.tr 10 [1, 2, 0]) 1 1,
    -- 2652: tmp26 += ints.tmp34 * -1
    .add 74 (.cp 11) (-1) 1,
    -- 2653: del ints.tmp34
    .del 11,
    -- 2654: tmp26 += einsum(tmp25, (0, 1, 2), t1, (1, 3), (0, 3, 2)) * -1
    .add 74 (.ein [(69, [0, 1, 2]), (7, [1, 3])] [0, 3, 2]) (-1) 1,
    -- 2655: del tmp25
    .del 69,
    -- 2656: tmp22 = np.copy(ints.tmp40)
    .set 75 (.cp 12) 1 1,
    -- 2657: tmp22 += np.transpose(ints.tmp82, (0, 2, 1, 3))
    .add 75 (.tr 13 [0, 2, 1, 3]) 1 1,
    -- 2658: tmp17 = einsum(r2, (0, 1, 2), tmp16, (2, 3, 0, 1), (3,))
    .set 76 (.ein [(6, [0, 1, 2]), (70, [2, 3, 0, 1])] [3]) 1 1,
    -- 2659: del tmp16
    .del 70,
    -- 2660: tmp15 = einsum(r1, (0,), t1, (1, 0), (1,))
    .set 77 (.ein [(14, [0]), (7, [1, 0])] [1]) 1 1,
    -- 2661: tmp28 = einsum(tmp19, (0, 1), t1, (0, 2), (2, 1))
    .set 78 (.ein [(71, [0, 1]), (7, [0, 2])] [2, 1]) 1 1,
    -- 2662: tmp11 = einsum(tmp10, (0, 1, 2), t1, (3, 2), (0, 3, 1))
    .set 79 (.ein [(72, [0, 1, 2]), (7, [3, 2])] [0, 3, 1]) 1 1,
    -- 2663: tmp0 = np.copy(np.transpose(r2, (2, 0, 1)))
    .set 80 (.tr 6 [2, 0, 1]) 1 1,
    -- 2664: tmp0 += np.transpose(r2, (2, 1, 0)) * -0.5
    .add 80 (.tr 6 [2, 1, 0]) (-1) 2,
    -- 2665: tmp21 = einsum(t2, (0, 1, 2, 3), r2, (2, 3, 4), (4, 0, 1))
    .set 81 (.ein [(2, [0, 1, 2, 3]), (6, [2, 3, 4])] [4, 0, 1]) 1 1,
    -- 2666: tmp30 = np.copy(f.oo)
    .set 82 (.cp 15) 1 1,
    -- 2667: tmp30 += np.transpose(ints.tmp10, (1, 0))
    .add 82 (.tr 16 [1, 0]) 1 1,
    -- 2668: del ints.tmp10
    .del 16,
    -- 2669: tmp30 += ints.tmp113 * 2
    .add 82 (.cp 17) 2 1,
    -- 2670: del ints.tmp113
    .del 17,
    -- 2671: tmp30 += ints.tmp132 * 2
    .add 82 (.cp 18) 2 1,
    -- 2672: del ints.tmp132
    .del 18,
    -- 2673: tmp30 += ints.tmp92 * 2
    .add 82 (.cp 19) 2 1,
    -- 2674: del ints.tmp92
    .del 19,
    -- 2675: tmp30 += ints.tmp110 * -1
    .add 82 (.cp 20) (-1) 1,
    -- 2676: del ints.tmp110
    .del 20,
    -- 2677: tmp30 += ints.tmp129 * -1
    .add 82 (.cp 21) (-1) 1,
    -- 2678: del ints.tmp129
    .del 21,
    -- 2679: tmp30 += ints.tmp96 * -1
    .add 82 (.cp 22) (-1) 1,
    -- 2680: del ints.tmp96
    .del 22,
    -- 2681: tmp27 = einsum(tmp4, (0, 1, 2), tmp26, (0, 2, 3), (1, 3)) * -1
    .set 83 (.ein [(73, [0, 1, 2]), (74, [0, 2, 3])] [1, 3]) (-1) 1,
    -- 2682: del tmp26
    .del 74,
    -- 2683: tmp24 = np.copy(ints.tmp105)
    .set 84 (.cp 23) 1 1,
    -- 2684: tmp24 += ints.tmp125 * -1
    .add 84 (.cp 24) (-1) 1,
    -- 2685: tmp24 += ints.tmp29 * -1
    .add 84 (.cp 25) (-1) 1,
    -- 2686: tmp24 += einsum(t1, (0, 1), tmp22, (2, 3, 0, 4), (2, 3, 1, 4))
    .add 84 (.ein [(7, [0, 1]), (75, [2, 3, 0, 4])] [2, 3, 1, 4]) 1 1,
    -- 2687: tmp18 = np.copy(tmp15)
    .set 85 (.cp 77) 1 1,
    -- 2688: del tmp15
    .del 77,
    -- 2689: tmp18 += tmp17 * -1
    .add 85 (.cp 76) (-1) 1,
    -- 2690: del tmp17
    .del 76,
    -- 2691: tmp29 = np.copy(np.transpose(ints.tmp19, (1, 0)))
    .set 86 (.tr 26 [1, 0]) 1 1,
    -- 2692: tmp29 += ints.tmp38 * 2
    .add 86 (.cp 27) 2 1,
    -- 2693: tmp29 += f.vv * -1
    .add 86 (.cp 28) (-1) 1,
    -- 2694: tmp29 += ints.tmp16 * -2
    .add 86 (.cp 29) (-2) 1,
    -- 2695: tmp29 += ints.tmp35 * -1
    .add 86 (.cp 30) (-1) 1,
    -- 2696: tmp29 += tmp28
    .add 86 (.cp 78) 1 1,
    -- 2697: del tmp28
    .del 78,
    -- 2698: tmp23 = np.copy(ints.tmp107)
    .set 87 (.cp 31) 1 1,
    -- 2699: tmp23 += ints.tmp125 * 0.5
    .add 87 (.cp 24) 1 2,
    -- 2700: tmp23 += ints.tmp29 * 0.5
    .add 87 (.cp 25) 1 2,
    -- 2701: tmp23 += ints.tmp105 * -0.5
    .add 87 (.cp 23) (-1) 2,
    -- 2702: tmp23 += einsum(t1, (0, 1), tmp22, (2, 3, 0, 4), (2, 3, 1, 4)) * -0.5
    .add 87 (.ein [(7, [0, 1]), (75, [2, 3, 0, 4])] [2, 3, 1, 4]) (-1) 2,
    -- 2703: del tmp22
    .del 75,
    -- 2704: tmp20 = einsum(t1, (0, 1), r2, (1, 2, 3), (3, 0, 2))
    .set 88 (.ein [(7, [0, 1]), (6, [1, 2, 3])] [3, 0, 2]) 1 1,
    -- 2705: tmp8 = np.copy(ints.tmp102) * 2
    .set 89 (.cp 32) 2 1,
    -- 2706: del ints.tmp102
    .del 32,
    -- 2707: tmp8 += np.transpose(ints.tmp127, (0, 1, 3, 2))
    .add 89 (.tr 33 [0, 1, 3, 2]) 1 1,
    -- 2708: del ints.tmp127
    .del 33,
    -- 2709: tmp8 += ints.tmp25
    .add 89 (.cp 34) 1 1,
    -- 2710: tmp8 += ints.tmp100 * -1
    .add 89 (.cp 35) (-1) 1,
    -- 2711: del ints.tmp100
    .del 35,
    -- 2712: tmp8 += ints.tmp107 * -1
    .add 89 (.cp 31) (-1) 1,
    -- 2713: tmp12 = np.copy(tmp11)
    .set 90 (.cp 79) 1 1,
    -- 2714: tmp12 += np.transpose(tmp11, (0, 2, 1)) * -0.5
    .add 90 (.tr 79 [0, 2, 1]) (-1) 2,
    -- 2715: tmp6 = np.copy(np.transpose(ints.tmp125, (0, 1, 3, 2)))
    .set 91 (.tr 24 [0, 1, 3, 2]) 1 1,
    -- 2716: del ints.tmp125
    .del 24,
    -- 2717: tmp6 += np.transpose(ints.tmp29, (0, 1, 3, 2))
    .add 91 (.tr 25 [0, 1, 3, 2]) 1 1,
    -- 2718: del ints.tmp29
    .del 25,
    -- 2719: tmp6 += ints.tmp105 * -1
    .add 91 (.cp 23) (-1) 1,
    -- 2720: del ints.tmp105
    .del 23,
    -- 2721: tmp2 = np.copy(np.transpose(r2, (2, 0, 1))) * -1
    .set 92 (.tr 6 [2, 0, 1]) (-1) 1,
    -- 2722: tmp2 += np.transpose(r2, (2, 1, 0)) * 2
    .add 92 (.tr 6 [2, 1, 0]) 2 1,
    -- 2723: tmp3 = np.copy(ints.tmp47)
    .set 93 (.cp 36) 1 1,
    -- 2724: del ints.tmp47
    .del 36,
    -- 2725: tmp3 += ints.tmp58 * 2
    .add 93 (.cp 37) 2 1,
    -- 2726: del ints.tmp58
    .del 37,
    -- 2727: tmp3 += ints.tmp56 * -1
    .add 93 (.cp 38) (-1) 1,
    -- 2728: del ints.tmp56
    .del 38,
    -- 2729: tmp3 += np.transpose(ints.tmp63, (0, 1, 3, 2)) * -1
    .add 93 (.tr 39 [0, 1, 3, 2]) (-1) 1,
    -- 2730: del ints.tmp63
    .del 39,
    -- 2731: tmp1 = np.copy(ints.tmp12)
    .set 94 (.cp 40) 1 1,
    -- 2732: tmp1 += ints.tmp31
    .add 94 (.cp 41) 1 1,
    -- 2733: del ints.tmp31
    .del 41,
    -- 2734: tmp1 += np.transpose(ints.tmp89, (0, 3, 1, 2))
    .add 94 (.tr 42 [0, 3, 1, 2]) 1 1,
    -- 2735: del ints.tmp89
    .del 42,
    -- 2736: tmp1 += np.transpose(ints.tmp61, (0, 2, 1, 3)) * -1
    .add 94 (.tr 43 [0, 2, 1, 3]) (-1) 1,
    -- 2737: del ints.tmp61
    .del 43,
    -- 2738: tmp14 = np.copy(f.vv)
    .set 95 (.cp 28) 1 1,
    -- 2739: tmp14 += np.transpose(ints.tmp16, (1, 0)) * 2
    .add 95 (.tr 29 [1, 0]) 2 1,
    -- 2740: del ints.tmp16
    .del 29,
    -- 2741: tmp14 += ints.tmp35
    .add 95 (.cp 30) 1 1,
    -- 2742: del ints.tmp35
    .del 30,
    -- 2743: tmp14 += np.transpose(ints.tmp19, (1, 0)) * -1
    .add 95 (.tr 26 [1, 0]) (-1) 1,
    -- 2744: del ints.tmp19
    .del 26,
    -- 2745: tmp14 += ints.tmp38 * -2
    .add 95 (.cp 27) (-2) 1,
    -- 2746: del ints.tmp38
    .del 27,
    -- 2747: tmp7 = einsum(tmp0, (0, 1, 2), t1, (3, 2), (0, 3, 1)) * 2
    .set 96 (.ein [(80, [0, 1, 2]), (7, [3, 2])] [0, 3, 1]) 2 1,
    -- 2748: tmp5 = einsum(tmp4, (0, 1, 2), t1, (3, 2), (0, 3, 1))
    .set 97 (.ein [(73, [0, 1, 2]), (7, [3, 2])] [0, 3, 1]) 1 1,
    -- 2749: del tmp4
    .del 73,
    -- 2750: tmp9 = np.copy(ints.tmp114) * 2
    .set 98 (.cp 44) 2 1,
    -- 2751: del ints.tmp114
    .del 44,
    -- 2752: tmp9 += ints.tmp11
    .add 98 (.cp 45) 1 1,
    -- 2753: del ints.tmp11
    .del 45,
    -- 2754: tmp9 += ints.tmp123
    .add 98 (.cp 46) 1 1,
    -- 2755: del ints.tmp123
    .del 46,
    -- 2756: tmp9 += ints.tmp133 * 2
    .add 98 (.cp 47) 2 1,
    -- 2757: del ints.tmp133
    .del 47,
    -- 2758: tmp9 += ints.tmp1
    .add 98 (.cp 48) 1 1,
    -- 2759: del ints.tmp1
    .del 48,
    -- 2760: tmp9 += ints.tmp23
    .add 98 (.cp 49) 1 1,
    -- 2761: del ints.tmp23
    .del 49,
    -- 2762: tmp9 += ints.tmp3
    .add 98 (.cp 50) 1 1,
    -- 2763: del ints.tmp3
    .del 50,
    -- 2764: tmp9 += ints.tmp44 * 2
    .add 98 (.cp 51) 2 1,
    -- 2765: del ints.tmp44
    .del 51,
    -- 2766: tmp9 += ints.tmp53
    .add 98 (.cp 52) 1 1,
    -- 2767: del ints.tmp53
    .del 52,
    -- 2768: tmp9 += ints.tmp69 * 2
    .add 98 (.cp 53) 2 1,
    -- 2769: del ints.tmp69
    .del 53,
    -- 2770: tmp9 += ints.tmp72 * 2
    .add 98 (.cp 54) 2 1,
    -- 2771: del ints.tmp72
    .del 54,
    -- 2772: tmp9 += ints.tmp83 * 2
    .add 98 (.cp 55) 2 1,
    -- 2773: del ints.tmp83
    .del 55,
    -- 2774: tmp9 += ints.tmp93 * 2
    .add 98 (.cp 56) 2 1,
    -- 2775: del ints.tmp93
    .del 56,
    -- 2776: tmp9 += f.ov * -1
    .add 98 (.cp 3) (-1) 1,
    -- 2777: tmp9 += ints.tmp111 * -1
    .add 98 (.cp 57) (-1) 1,
    -- 2778: del ints.tmp111
    .del 57,
    -- 2779: tmp9 += ints.tmp120 * -2
    .add 98 (.cp 58) (-2) 1,
    -- 2780: del ints.tmp120
    .del 58,
    -- 2781: tmp9 += ints.tmp130 * -1
    .add 98 (.cp 59) (-1) 1,
    -- 2782: del ints.tmp130
    .del 59,
    -- 2783: tmp9 += ints.tmp20 * -2
    .add 98 (.cp 4) (-2) 1,
    -- 2784: del ints.tmp20
    .del 4,
    -- 2785: tmp9 += ints.tmp2 * -1
    .add 98 (.cp 60) (-1) 1,
    -- 2786: del ints.tmp2
    .del 60,
    -- 2787: tmp9 += ints.tmp41 * -1
    .add 98 (.cp 61) (-1) 1,
    -- 2788: del ints.tmp41
    .del 61,
    -- 2789: tmp9 += ints.tmp4 * -2
    .add 98 (.cp 62) (-2) 1,
    -- 2790: del ints.tmp4
    .del 62,
    -- 2791: tmp9 += ints.tmp50 * -2
    .add 98 (.cp 63) (-2) 1,
    -- 2792: del ints.tmp50
    .del 63,
    -- 2793: tmp9 += ints.tmp67 * -1
    .add 98 (.cp 64) (-1) 1,
    -- 2794: del ints.tmp67
    .del 64,
    -- 2795: tmp9 += ints.tmp75 * -4
    .add 98 (.cp 65) (-4) 1,
    -- 2796: del ints.tmp75
    .del 65,
    -- 2797: tmp9 += ints.tmp86 * -1
    .add 98 (.cp 66) (-1) 1,
    -- 2798: del ints.tmp86
    .del 66,
    -- 2799: tmp9 += ints.tmp97 * -1
    .add 98 (.cp 67) (-1) 1,
    -- 2800: del ints.tmp97
    .del 67,
    -- 2801: tmp13 = np.copy(tmp11) * -1
    .set 99 (.cp 79) (-1) 1,
    -- 2802: tmp13 += np.transpose(tmp11, (0, 2, 1)) * 2
    .add 99 (.tr 79 [0, 2, 1]) 2 1,
    -- 2803: r2new = einsum(ints.tmp107, (0, 1, 2, 3), r2, (4, 2, 0), (3, 4, 1))
    .set 100 (.ein [(31, [0, 1, 2, 3]), (6, [4, 2, 0])] [3, 4, 1]) 1 1,
    -- 2804: del ints.tmp107
    .del 31,
    -- 2805: r2new += einsum(tmp10, (0, 1, 2), ints.tmp12, (1, 3, 2, 4), (3, 4, 0)) * -1
    .add 100 (.ein [(72, [0, 1, 2]), (40, [1, 3, 2, 4])] [3, 4, 0]) (-1) 1,
    -- 2806: del tmp10
    .del 72,
    -- 2807: r2new += einsum(tmp20, (0, 1, 2), ints.tmp12, (1, 3, 2, 4), (4, 3, 0)) * -1
    .add 100 (.ein [(88, [0, 1, 2]), (40, [1, 3, 2, 4])] [4, 3, 0]) (-1) 1,
    -- 2808: del tmp20
    .del 88,
    -- 2809: r2new += einsum(ints.tmp12, (0, 1, 2, 3), r1, (2,), (3, 1, 0)) * -1
    .add 100 (.ein [(40, [0, 1, 2, 3]), (14, [2])] [3, 1, 0]) (-1) 1,
    -- 2810: del ints.tmp12
    .del 40,
    -- 2811: r2new += einsum(ints.tmp163, (0, 1, 2, 3), r2, (2, 3, 4), (1, 0, 4))
    .add 100 (.ein [(68, [0, 1, 2, 3]), (6, [2, 3, 4])] [1, 0, 4]) 1 1,
    -- 2812: del ints.tmp163
    .del 68,
    -- 2813: r2new += einsum(ints.tmp25, (0, 1, 2, 3), tmp21, (4, 1, 0), (3, 2, 4))
    .add 100 (.ein [(34, [0, 1, 2, 3]), (81, [4, 1, 0])] [3, 2, 4]) 1 1,
    -- 2814: del tmp21
    .del 81,
    -- 2815: r2new += einsum(tmp11, (0, 1, 2), ints.tmp25, (2, 1, 3, 4), (4, 3, 0))
    .add 100 (.ein [(79, [0, 1, 2]), (34, [2, 1, 3, 4])] [4, 3, 0]) 1 1,
    -- 2816: del tmp11
    .del 79,
    -- 2817: r2new += einsum(r2, (0, 1, 2), tmp23, (2, 3, 0, 4), (4, 1, 3)) * -2
    .add 100 (.ein [(6, [0, 1, 2]), (87, [2, 3, 0, 4])] [4, 1, 3]) (-2) 1,
    -- 2818: del tmp23
    .del 87,
    -- 2819: r2new += einsum(tmp24, (0, 1, 2, 3), r2, (4, 2, 0), (4, 3, 1))
    .add 100 (.ein [(84, [0, 1, 2, 3]), (6, [4, 2, 0])] [4, 3, 1]) 1 1,
    -- 2820: del tmp24
    .del 84,
    -- 2821: r2new += einsum(v.xov, (0, 1, 2), tmp27, (3, 0), (2, 3, 1)) * -2
    .add 100 (.ein [(10, [0, 1, 2]), (83, [3, 0])] [2, 3, 1]) (-2) 1,
    -- 2822: del tmp27
    .del 83,
    -- 2823: r2new += einsum(tmp29, (0, 1), r2, (0, 2, 3), (1, 2, 3)) * -1
    .add 100 (.ein [(86, [0, 1]), (6, [0, 2, 3])] [1, 2, 3]) (-1) 1,
    -- 2824: r2new += einsum(tmp29, (0, 1), r2, (2, 0, 3), (2, 1, 3)) * -1
    .add 100 (.ein [(86, [0, 1]), (6, [2, 0, 3])] [2, 1, 3]) (-1) 1,
    -- 2825: del tmp29
    .del 86,
    -- 2826: r2new += einsum(r2, (0, 1, 2), tmp30, (2, 3), (0, 1, 3)) * -1
    .add 100 (.ein [(6, [0, 1, 2]), (82, [2, 3])] [0, 1, 3]) (-1) 1,
    -- 2827: del tmp30
    .del 82,
    -- 2828: r2new += einsum(tmp18, (0,), ints.tmp25, (0, 1, 2, 3), (3, 2, 1))
    .add 100 (.ein [(85, [0]), (34, [0, 1, 2, 3])] [3, 2, 1]) 1 1,
    -- 2829: del ints.tmp25
    .del 34,
    -- 2830: r2new += einsum(tmp19, (0, 1), r1, (2,), (1, 2, 0)) * -1
    .add 100 (.ein [(71, [0, 1]), (14, [2])] [1, 2, 0]) (-1) 1,
    -- 2831: r1new = einsum(tmp1, (0, 1, 2, 3), tmp0, (0, 3, 2), (1,)) * -2
    .set 101 (.ein [(94, [0, 1, 2, 3]), (80, [0, 3, 2])] [1]) (-2) 1,
    -- 2832: del tmp0, tmp1
    .del 80,
    .del 94,
    -- 2833: r1new += einsum(tmp3, (0, 1, 2, 3), tmp2, (0, 2, 1), (3,)) * -1
    .add 101 (.ein [(93, [0, 1, 2, 3]), (92, [0, 2, 1])] [3]) (-1) 1,
    -- 2834: del tmp3
    .del 93,
    -- 2835: r1new += einsum(tmp5, (0, 1, 2), tmp6, (0, 1, 2, 3), (3,)) * 2
    .add 101 (.ein [(97, [0, 1, 2]), (91, [0, 1, 2, 3])] [3]) 2 1,
    -- 2836: del tmp5, tmp6
    .del 97,
    .del 91,
    -- 2837: r1new += einsum(tmp7, (0, 1, 2), tmp8, (0, 1, 2, 3), (3,))
    .add 101 (.ein [(96, [0, 1, 2]), (89, [0, 1, 2, 3])] [3]) 1 1,
    -- 2838: del tmp7, tmp8
    .del 96,
    .del 89,
    -- 2839: r1new += einsum(tmp2, (0, 1, 2), tmp9, (0, 2), (1,))
    .add 101 (.ein [(92, [0, 1, 2]), (98, [0, 2])] [1]) 1 1,
    -- 2840: del tmp2, tmp9
    .del 92,
    .del 98,
    -- 2841: r1new += einsum(tmp12, (0, 1, 2), ints.tmp82, (0, 2, 1, 3), (3,)) * -2
    .add 101 (.ein [(90, [0, 1, 2]), (13, [0, 2, 1, 3])] [3]) (-2) 1,
    -- 2842: del ints.tmp82, tmp12
    .del 13,
    .del 90,
    -- 2843: r1new += einsum(tmp13, (0, 1, 2), ints.tmp40, (0, 2, 1, 3), (3,)) * -1
    .add 101 (.ein [(99, [0, 1, 2]), (12, [0, 2, 1, 3])] [3]) (-1) 1,
    -- 2844: del ints.tmp40, tmp13
    .del 12,
    .del 99,
    -- 2845: r1new += einsum(tmp14, (0, 1), r1, (0,), (1,))
    .add 101 (.ein [(95, [0, 1]), (14, [0])] [1]) 1 1,
    -- 2846: del tmp14
    .del 95,
    -- 2847: r1new += einsum(tmp18, (0,), tmp19, (0, 1), (1,)) * -1
    .add 101 (.ein [(85, [0]), (71, [0, 1])] [1]) (-1) 1,
    -- 2848: del tmp19, tmp18
    .del 71,
    .del 85
  ]
  ret := [(chars! "r1new", 101), (chars! "r2new", 100)]

end Ebcc.Gen.RDFCCSDEom
