import Verif.Model.GenCode
/-!
Functions of `ebcc/codegen/RCCSD.py`, written by `tools/gencode.py`.  Comments give the
number and the text of the line of each statement.
-/

set_option maxRecDepth 100000

namespace Ebcc.Gen.RCCSDEom

/-- codegen/RCCSD.py:1246-1398 `hbar_matvec_ip_intermediates`. -/
def hbar_matvec_ip_intermediates : GenFun where
  args := [chars! "t1", chars! "v.ovov", chars! "v.ooov", chars! "t2", chars! "f.ov", chars! "v.ovvv", chars! "v.oovv", chars! "f.vv", chars! "f.oo", chars! "v.oooo"]
  body := [
    -- 1331: tmp6 = einsum(t1, (0, 1), v.ovov, (2, 3, 0, 1), (2, 3))
    .set 10 (.ein [(0, [0, 1]), (1, [2, 3, 0, 1])] [2, 3]) 1 1,
    -- 1332: tmp5 = einsum(t1, (0, 1), v.ovov, (2, 1, 0, 3), (2, 3))
    .set 11 (.ein [(0, [0, 1]), (1, [2, 1, 0, 3])] [2, 3]) 1 1,
    -- 1333: tmp9 = einsum(t1, (0, 1), v.ovov, (2, 3, 4, 1), (0, 2, 4, 3))
    .set 12 (.ein [(0, [0, 1]), (1, [2, 3, 4, 1])] [0, 2, 4, 3]) 1 1,
    -- 1334: tmp17 = einsum(t1, (0, 1), tmp6, (2, 1), (0, 2))
    .set 13 (.ein [(0, [0, 1]), (10, [2, 1])] [0, 2]) 1 1,
    -- 1335: tmp16 = einsum(tmp5, (0, 1), t1, (2, 1), (2, 0))
    .set 14 (.ein [(11, [0, 1]), (0, [2, 1])] [2, 0]) 1 1,
    -- 1336: tmp30 = einsum(t1, (0, 1), v.ooov, (2, 3, 4, 1), (0, 2, 3, 4))
    .set 15 (.ein [(0, [0, 1]), (2, [2, 3, 4, 1])] [0, 2, 3, 4]) 1 1,
    -- 1337: tmp12 = einsum(v.ovov, (0, 1, 2, 3), t2, (4, 2, 3, 1), (4, 0))
    .set 16 (.ein [(1, [0, 1, 2, 3]), (3, [4, 2, 3, 1])] [4, 0]) 1 1,
    -- 1338: tmp14 = einsum(v.ovov, (0, 1, 2, 3), t2, (4, 2, 1, 3), (4, 0))
    .set 17 (.ein [(1, [0, 1, 2, 3]), (3, [4, 2, 1, 3])] [4, 0]) 1 1,
    -- 1339: tmp0 = einsum(t1, (0, 1), f.ov, (2, 1), (2, 0))
    .set 18 (.ein [(0, [0, 1]), (4, [2, 1])] [2, 0]) 1 1,
    -- 1340: tmp90 = einsum(t1, (0, 1), tmp9, (2, 3, 4, 1), (2, 0, 4, 3))
    .set 19 (.ein [(0, [0, 1]), (12, [2, 3, 4, 1])] [2, 0, 4, 3]) 1 1,
    -- 1341: tmp83 = einsum(t1, (0, 1), v.ovvv, (2, 3, 4, 1), (0, 2, 3, 4))
    .set 20 (.ein [(0, [0, 1]), (5, [2, 3, 4, 1])] [0, 2, 3, 4]) 1 1,
    -- 1342: tmp21 = einsum(v.ovvv, (0, 1, 2, 3), t1, (0, 3), (1, 2))
    .set 21 (.ein [(5, [0, 1, 2, 3]), (0, [0, 3])] [1, 2]) 1 1,
    -- 1343: tmp19 = einsum(t1, (0, 1), v.ovvv, (0, 1, 2, 3), (2, 3))
    .set 22 (.ein [(0, [0, 1]), (5, [0, 1, 2, 3])] [2, 3]) 1 1,
    -- 1344: tmp4 = einsum(t1, (0, 1), v.ooov, (2, 3, 0, 1), (2, 3))
    .set 23 (.ein [(0, [0, 1]), (2, [2, 3, 0, 1])] [2, 3]) 1 1,
    -- 1345: tmp3 = einsum(v.ooov, (0, 1, 2, 3), t1, (1, 3), (0, 2))
    .set 24 (.ein [(2, [0, 1, 2, 3]), (0, [1, 3])] [0, 2]) 1 1,
    -- 1346: tmp25 = einsum(v.ovov, (0, 1, 2, 3), t2, (4, 5, 1, 3), (4, 5, 0, 2))
    .set 25 (.ein [(1, [0, 1, 2, 3]), (3, [4, 5, 1, 3])] [4, 5, 0, 2]) 1 1,
    -- 1347: tmp109 = einsum(t1, (0, 1), tmp17, (2, 0), (2, 1))
    .set 26 (.ein [(0, [0, 1]), (13, [2, 0])] [2, 1]) 1 1,
    -- 1348: tmp108 = einsum(t1, (0, 1), tmp16, (2, 0), (2, 1))
    .set 27 (.ein [(0, [0, 1]), (14, [2, 0])] [2, 1]) 1 1,
    -- 1349: tmp103 = einsum(tmp30, (0, 1, 2, 3), t1, (3, 4), (0, 2, 1, 4))
    .set 28 (.ein [(15, [0, 1, 2, 3]), (0, [3, 4])] [0, 2, 1, 4]) 1 1,
    -- 1350: tmp102 = einsum(t1, (0, 1), tmp12, (2, 0), (2, 1))
    .set 29 (.ein [(0, [0, 1]), (16, [2, 0])] [2, 1]) 1 1,
    -- 1351: tmp101 = einsum(t1, (0, 1), tmp14, (2, 0), (2, 1))
    .set 30 (.ein [(0, [0, 1]), (17, [2, 0])] [2, 1]) 1 1,
    -- 1352: tmp100 = einsum(t2, (0, 1, 2, 3), tmp9, (4, 5, 1, 2), (4, 0, 5, 3))
    .set 31 (.ein [(3, [0, 1, 2, 3]), (12, [4, 5, 1, 2])] [4, 0, 5, 3]) 1 1,
    -- 1353: tmp99 = einsum(t2, (0, 1, 2, 3), tmp9, (4, 1, 0, 2), (4, 3))
    .set 32 (.ein [(3, [0, 1, 2, 3]), (12, [4, 1, 0, 2])] [4, 3]) 1 1,
    -- 1354: tmp98 = einsum(t2, (0, 1, 2, 3), tmp9, (4, 0, 1, 2), (4, 3))
    .set 33 (.ein [(3, [0, 1, 2, 3]), (12, [4, 0, 1, 2])] [4, 3]) 1 1,
    -- 1355: tmp94 = einsum(t1, (0, 1), v.oovv, (2, 3, 4, 1), (0, 2, 3, 4))
    .set 34 (.ein [(0, [0, 1]), (6, [2, 3, 4, 1])] [0, 2, 3, 4]) 1 1,
    -- 1356: tmp93 = einsum(t1, (0, 1), tmp0, (0, 2), (2, 1))
    .set 35 (.ein [(0, [0, 1]), (18, [0, 2])] [2, 1]) 1 1,
    -- 1357: tmp92 = einsum(tmp90, (0, 1, 2, 3), t1, (2, 4), (1, 0, 3, 4))
    .set 36 (.ein [(19, [0, 1, 2, 3]), (0, [2, 4])] [1, 0, 3, 4]) 1 1,
    -- 1358: tmp89 = einsum(t1, (0, 1), tmp83, (2, 3, 1, 4), (0, 2, 3, 4))
    .set 37 (.ein [(0, [0, 1]), (20, [2, 3, 1, 4])] [0, 2, 3, 4]) 1 1,
    -- 1359: tmp88 = einsum(t1, (0, 1), tmp21, (1, 2), (0, 2))
    .set 38 (.ein [(0, [0, 1]), (21, [1, 2])] [0, 2]) 1 1,
    -- 1360: tmp87 = einsum(t1, (0, 1), tmp19, (2, 1), (0, 2))
    .set 39 (.ein [(0, [0, 1]), (22, [2, 1])] [0, 2]) 1 1,
    -- 1361: tmp86 = einsum(t2, (0, 1, 2, 3), v.ovvv, (1, 2, 4, 3), (0, 4))
    .set 40 (.ein [(3, [0, 1, 2, 3]), (5, [1, 2, 4, 3])] [0, 4]) 1 1,
    -- 1362: tmp85 = einsum(t2, (0, 1, 2, 3), v.ovvv, (1, 3, 4, 2), (0, 4))
    .set 41 (.ein [(3, [0, 1, 2, 3]), (5, [1, 3, 4, 2])] [0, 4]) 1 1,
    -- 1363: tmp82 = einsum(t1, (0, 1), f.vv, (2, 1), (0, 2))
    .set 42 (.ein [(0, [0, 1]), (7, [2, 1])] [0, 2]) 1 1,
    -- 1364: tmp78 = einsum(t1, (0, 1), tmp4, (2, 0), (2, 1))
    .set 43 (.ein [(0, [0, 1]), (23, [2, 0])] [2, 1]) 1 1,
    -- 1365: tmp77 = einsum(t1, (0, 1), tmp3, (2, 0), (2, 1))
    .set 44 (.ein [(0, [0, 1]), (24, [2, 0])] [2, 1]) 1 1,
    -- 1366: tmp76 = einsum(tmp6, (0, 1), t2, (2, 3, 4, 1), (2, 3, 0, 4))
    .set 45 (.ein [(10, [0, 1]), (3, [2, 3, 4, 1])] [2, 3, 0, 4]) 1 1,
    -- 1367: tmp75 = einsum(tmp5, (0, 1), t2, (2, 3, 4, 1), (2, 3, 0, 4))
    .set 46 (.ein [(11, [0, 1]), (3, [2, 3, 4, 1])] [2, 3, 0, 4]) 1 1,
    -- 1368: tmp69 = einsum(t2, (0, 1, 2, 3), v.ovov, (0, 2, 1, 4), (3, 4))
    .set 47 (.ein [(3, [0, 1, 2, 3]), (1, [0, 2, 1, 4])] [3, 4]) 1 1,
    -- 1369: tmp67 = einsum(t2, (0, 1, 2, 3), v.ovov, (0, 4, 1, 2), (3, 4))
    .set 48 (.ein [(3, [0, 1, 2, 3]), (1, [0, 4, 1, 2])] [3, 4]) 1 1,
    -- 1370: tmp66 = einsum(v.ooov, (0, 1, 2, 3), t2, (4, 1, 3, 5), (4, 0, 2, 5))
    .set 49 (.ein [(2, [0, 1, 2, 3]), (3, [4, 1, 3, 5])] [4, 0, 2, 5]) 1 1,
    -- 1371: tmp65 = einsum(t2, (0, 1, 2, 3), v.ooov, (4, 1, 0, 2), (4, 3))
    .set 50 (.ein [(3, [0, 1, 2, 3]), (2, [4, 1, 0, 2])] [4, 3]) 1 1,
    -- 1372: tmp64 = einsum(t2, (0, 1, 2, 3), v.ooov, (4, 0, 1, 2), (4, 3))
    .set 51 (.ein [(3, [0, 1, 2, 3]), (2, [4, 0, 1, 2])] [4, 3]) 1 1,
    -- 1373: tmp60 = einsum(f.ov, (0, 1), t2, (2, 3, 4, 1), (0, 2, 3, 4))
    .set 52 (.ein [(4, [0, 1]), (3, [2, 3, 4, 1])] [0, 2, 3, 4]) 1 1,
    -- 1374: tmp58 = einsum(t1, (0, 1), f.oo, (2, 0), (2, 1))
    .set 53 (.ein [(0, [0, 1]), (8, [2, 0])] [2, 1]) 1 1,
    -- 1375: tmp57 = einsum(tmp6, (0, 1), t2, (2, 0, 3, 1), (2, 3))
    .set 54 (.ein [(10, [0, 1]), (3, [2, 0, 3, 1])] [2, 3]) 1 1,
    -- 1376: tmp56 = einsum(tmp6, (0, 1), t2, (2, 0, 1, 3), (2, 3))
    .set 55 (.ein [(10, [0, 1]), (3, [2, 0, 1, 3])] [2, 3]) 1 1,
    -- 1377: tmp55 = einsum(tmp5, (0, 1), t2, (2, 0, 3, 1), (2, 3))
    .set 56 (.ein [(11, [0, 1]), (3, [2, 0, 3, 1])] [2, 3]) 1 1,
    -- 1378: tmp54 = einsum(tmp5, (0, 1), t2, (2, 0, 1, 3), (2, 3))
    .set 57 (.ein [(11, [0, 1]), (3, [2, 0, 1, 3])] [2, 3]) 1 1,
    -- 1379: tmp52 = einsum(v.ovov, (0, 1, 2, 3), t2, (4, 2, 5, 3), (4, 0, 5, 1))
    .set 58 (.ein [(1, [0, 1, 2, 3]), (3, [4, 2, 5, 3])] [4, 0, 5, 1]) 1 1,
    -- 1380: tmp51 = einsum(t2, (0, 1, 2, 3), v.ovov, (4, 5, 1, 2), (0, 4, 3, 5))
    .set 59 (.ein [(3, [0, 1, 2, 3]), (1, [4, 5, 1, 2])] [0, 4, 3, 5]) 1 1,
    -- 1381: tmp50 = einsum(t2, (0, 1, 2, 3), v.ovov, (4, 3, 1, 5), (0, 4, 2, 5))
    .set 60 (.ein [(3, [0, 1, 2, 3]), (1, [4, 3, 1, 5])] [0, 4, 2, 5]) 1 1,
    -- 1382: tmp49 = einsum(t2, (0, 1, 2, 3), v.ovov, (4, 2, 1, 5), (0, 4, 3, 5))
    .set 61 (.ein [(3, [0, 1, 2, 3]), (1, [4, 2, 1, 5])] [0, 4, 3, 5]) 1 1,
    -- 1383: tmp48 = einsum(t2, (0, 1, 2, 3), v.ooov, (4, 5, 1, 2), (0, 4, 5, 3))
    .set 62 (.ein [(3, [0, 1, 2, 3]), (2, [4, 5, 1, 2])] [0, 4, 5, 3]) 1 1,
    -- 1384: tmp46 = einsum(t2, (0, 1, 2, 3), v.ooov, (4, 5, 1, 3), (0, 4, 5, 2))
    .set 63 (.ein [(3, [0, 1, 2, 3]), (2, [4, 5, 1, 3])] [0, 4, 5, 2]) 1 1,
    -- 1385: tmp45 = einsum(t2, (0, 1, 2, 3), v.ooov, (4, 1, 5, 3), (0, 4, 5, 2))
    .set 64 (.ein [(3, [0, 1, 2, 3]), (2, [4, 1, 5, 3])] [0, 4, 5, 2]) 1 1,
    -- 1386: tmp42 = einsum(v.oooo, (0, 1, 2, 3), t1, (3, 4), (0, 1, 2, 4))
    .set 65 (.ein [(9, [0, 1, 2, 3]), (0, [3, 4])] [0, 1, 2, 4]) 1 1,
    -- 1387: tmp40 = einsum(f.ov, (0, 1), t2, (2, 0, 3, 1), (2, 3))
    .set 66 (.ein [(4, [0, 1]), (3, [2, 0, 3, 1])] [2, 3]) 1 1,
    -- 1388: tmp39 = einsum(f.ov, (0, 1), t2, (2, 0, 1, 3), (2, 3))
    .set 67 (.ein [(4, [0, 1]), (3, [2, 0, 1, 3])] [2, 3]) 1 1,
    -- 1389: tmp37 = einsum(tmp30, (0, 1, 2, 3), t1, (2, 4), (0, 1, 3, 4))
    .set 68 (.ein [(15, [0, 1, 2, 3]), (0, [2, 4])] [0, 1, 3, 4]) 1 1,
    -- 1390: tmp36 = einsum(t2, (0, 1, 2, 3), tmp9, (4, 1, 5, 2), (4, 0, 5, 3))
    .set 69 (.ein [(3, [0, 1, 2, 3]), (12, [4, 1, 5, 2])] [4, 0, 5, 3]) 1 1,
    -- 1391: tmp35 = einsum(tmp9, (0, 1, 2, 3), t2, (4, 2, 5, 3), (0, 4, 1, 5))
    .set 70 (.ein [(12, [0, 1, 2, 3]), (3, [4, 2, 5, 3])] [0, 4, 1, 5]) 1 1,
    -- 1392: tmp34 = einsum(t2, (0, 1, 2, 3), tmp9, (4, 1, 5, 3), (4, 0, 5, 2))
    .set 71 (.ein [(3, [0, 1, 2, 3]), (12, [4, 1, 5, 3])] [4, 0, 5, 2]) 1 1,
    -- 1393: tmp29 = einsum(t1, (0, 1), v.oovv, (2, 0, 3, 1), (2, 3))
    .set 72 (.ein [(0, [0, 1]), (6, [2, 0, 3, 1])] [2, 3]) 1 1,
    -- 1394: tmp27 = einsum(tmp25, (0, 1, 2, 3), t1, (3, 4), (0, 1, 2, 4))
    .set 73 (.ein [(25, [0, 1, 2, 3]), (0, [3, 4])] [0, 1, 2, 4]) 1 1,
    -- 1395: tmp23 = einsum(t2, (0, 1, 2, 3), v.ovvv, (4, 2, 5, 3), (0, 1, 4, 5))
    .set 74 (.ein [(3, [0, 1, 2, 3]), (5, [4, 2, 5, 3])] [0, 1, 4, 5]) 1 1,
    -- 1396: tmp22 = einsum(t1, (0, 1), v.ovvv, (2, 1, 3, 4), (0, 2, 3, 4))
    .set 75 (.ein [(0, [0, 1]), (5, [2, 1, 3, 4])] [0, 2, 3, 4]) 1 1
  ]
  ret := [(chars! "tmp0", 18), (chars! "tmp100", 31), (chars! "tmp101", 30), (chars! "tmp102", 29), (chars! "tmp103", 28), (chars! "tmp108", 27), (chars! "tmp109", 26), (chars! "tmp12", 16), (chars! "tmp14", 17), (chars! "tmp16", 14), (chars! "tmp17", 13), (chars! "tmp19", 22), (chars! "tmp21", 21), (chars! "tmp22", 75), (chars! "tmp23", 74), (chars! "tmp25", 25), (chars! "tmp27", 73), (chars! "tmp29", 72), (chars! "tmp3", 24), (chars! "tmp30", 15), (chars! "tmp34", 71), (chars! "tmp35", 70), (chars! "tmp36", 69), (chars! "tmp37", 68), (chars! "tmp39", 67), (chars! "tmp4", 23), (chars! "tmp40", 66), (chars! "tmp42", 65), (chars! "tmp45", 64), (chars! "tmp46", 63), (chars! "tmp48", 62), (chars! "tmp49", 61), (chars! "tmp5", 11), (chars! "tmp50", 60), (chars! "tmp51", 59), (chars! "tmp52", 58), (chars! "tmp54", 57), (chars! "tmp55", 56), (chars! "tmp56", 55), (chars! "tmp57", 54), (chars! "tmp58", 53), (chars! "tmp6", 10), (chars! "tmp60", 52), (chars! "tmp64", 51), (chars! "tmp65", 50), (chars! "tmp66", 49), (chars! "tmp67", 48), (chars! "tmp69", 47), (chars! "tmp75", 46), (chars! "tmp76", 45), (chars! "tmp77", 44), (chars! "tmp78", 43), (chars! "tmp82", 42), (chars! "tmp83", 20), (chars! "tmp85", 41), (chars! "tmp86", 40), (chars! "tmp87", 39), (chars! "tmp88", 38), (chars! "tmp89", 37), (chars! "tmp9", 12), (chars! "tmp90", 19), (chars! "tmp92", 36), (chars! "tmp93", 35), (chars! "tmp94", 34), (chars! "tmp98", 33), (chars! "tmp99", 32)]

/-- codegen/RCCSD.py:1400-1560 `hbar_matvec_ip`. -/
def hbar_matvec_ip : GenFun where
  args := [chars! "f.ov", chars! "ints.tmp6", chars! "ints.tmp5", chars! "ints.tmp9", chars! "v.ooov", chars! "r2", chars! "v.ovov", chars! "ints.tmp101", chars! "ints.tmp109", chars! "ints.tmp29", chars! "ints.tmp39", chars! "ints.tmp55", chars! "ints.tmp56", chars! "ints.tmp58", chars! "ints.tmp65", chars! "ints.tmp78", chars! "ints.tmp86", chars! "ints.tmp88", chars! "ints.tmp93", chars! "ints.tmp98", chars! "ints.tmp102", chars! "ints.tmp108", chars! "ints.tmp40", chars! "ints.tmp54", chars! "ints.tmp57", chars! "ints.tmp64", chars! "ints.tmp77", chars! "ints.tmp82", chars! "ints.tmp85", chars! "ints.tmp87", chars! "ints.tmp99", chars! "f.oo", chars! "ints.tmp0", chars! "ints.tmp14", chars! "ints.tmp17", chars! "ints.tmp4", chars! "ints.tmp12", chars! "ints.tmp16", chars! "ints.tmp3", chars! "ints.tmp21", chars! "ints.tmp69", chars! "f.vv", chars! "ints.tmp19", chars! "ints.tmp67", chars! "t1", chars! "ints.tmp22", chars! "v.oovv", chars! "ints.tmp49", chars! "ints.tmp100", chars! "ints.tmp103", chars! "ints.tmp27", chars! "ints.tmp35", chars! "ints.tmp36", chars! "ints.tmp37", chars! "ints.tmp42", chars! "ints.tmp45", chars! "ints.tmp48", chars! "ints.tmp66", chars! "ints.tmp75", chars! "ints.tmp92", chars! "ints.tmp23", chars! "ints.tmp34", chars! "ints.tmp46", chars! "ints.tmp60", chars! "ints.tmp76", chars! "ints.tmp89", chars! "ints.tmp94", chars! "v.ovoo", chars! "ints.tmp30", chars! "ints.tmp90", chars! "ints.tmp52", chars! "ints.tmp83", chars! "ints.tmp50", chars! "ints.tmp51", chars! "ints.tmp25", chars! "v.oooo", chars! "r1", chars! "t2"]
  body := [
    -- 1428: tmp1 = np.copy(f.ov) * 0.5
    .set 78 (.cp 0) 1 2,
    -- 1429: tmp1 += ints.tmp6
    .add 78 (.cp 1) 1 1,
    -- 1430: tmp1 += ints.tmp5 * -0.5
    .add 78 (.cp 2) (-1) 2,
    -- 1431: tmp12 = np.copy(ints.tmp9)
    .set 79 (.cp 3) 1 1,
    -- 1432: tmp12 += np.transpose(v.ooov, (0, 2, 1, 3))
    .add 79 (.tr 4 [0, 2, 1, 3]) 1 1,
    -- 1433: tmp2 = np.copy(r2) * 2
    .set 80 (.cp 5) 2 1,
    -- 1434: tmp2 += np.transpose(r2, (1, 0, 2)) * -1
    .add 80 (.tr 5 [1, 0, 2]) (-1) 1,
    -- 1435: tmp14 = np.copy(np.transpose(v.ovov, (0, 2, 3, 1)))
    .set 81 (.tr 6 [0, 2, 3, 1]) 1 1,
    -- 1436: tmp14 += np.transpose(v.ovov, (0, 2, 1, 3)) * -0.5
    .add 81 (.tr 6 [0, 2, 1, 3]) (-1) 2,
    -- 1437: tmp16 = np.copy(ints.tmp101) * 2
    .set 82 (.cp 7) 2 1,
    -- 1438: tmp16 += ints.tmp109 * 2
    .add 82 (.cp 8) 2 1,
    -- 1439: tmp16 += ints.tmp29
    .add 82 (.cp 9) 1 1,
    -- 1440: tmp16 += ints.tmp39
    .add 82 (.cp 10) 1 1,
    -- 1441: tmp16 += ints.tmp55 * 2
    .add 82 (.cp 11) 2 1,
    -- 1442: tmp16 += ints.tmp56 * 2
    .add 82 (.cp 12) 2 1,
    -- 1443: tmp16 += ints.tmp58
    .add 82 (.cp 13) 1 1,
    -- 1444: tmp16 += ints.tmp65 * 2
    .add 82 (.cp 14) 2 1,
    -- 1445: tmp16 += ints.tmp78 * 2
    .add 82 (.cp 15) 2 1,
    -- 1446: tmp16 += ints.tmp86
    .add 82 (.cp 16) 1 1,
    -- 1447: tmp16 += ints.tmp88
    .add 82 (.cp 17) 1 1,
    -- 1448: tmp16 += ints.tmp93
    .add 82 (.cp 18) 1 1,
    -- 1449: tmp16 += ints.tmp98 * 2
    .add 82 (.cp 19) 2 1,
    -- 1450: tmp16 += f.ov * -1
    .add 82 (.cp 0) (-1) 1,
    -- 1451: tmp16 += ints.tmp102 * -1
    .add 82 (.cp 20) (-1) 1,
    -- 1452: tmp16 += ints.tmp108 * -1
    .add 82 (.cp 21) (-1) 1,
    -- 1453: tmp16 += ints.tmp40 * -2
    .add 82 (.cp 22) (-2) 1,
    -- 1454: tmp16 += ints.tmp54 * -1
    .add 82 (.cp 23) (-1) 1,
    -- 1455: tmp16 += ints.tmp57 * -4
    .add 82 (.cp 24) (-4) 1,
    -- 1456: tmp16 += ints.tmp64 * -1
    .add 82 (.cp 25) (-1) 1,
    -- 1457: tmp16 += ints.tmp6 * -2
    .add 82 (.cp 1) (-2) 1,
    -- 1458: tmp16 += ints.tmp77 * -1
    .add 82 (.cp 26) (-1) 1,
    -- 1459: tmp16 += ints.tmp82 * -1
    .add 82 (.cp 27) (-1) 1,
    -- 1460: tmp16 += ints.tmp85 * -2
    .add 82 (.cp 28) (-2) 1,
    -- 1461: tmp16 += ints.tmp87 * -2
    .add 82 (.cp 29) (-2) 1,
    -- 1462: tmp16 += ints.tmp99 * -1
    .add 82 (.cp 30) (-1) 1,
    -- 1463: tmp11 = np.copy(f.oo) * 0.5
    .set 83 (.cp 31) 1 2,
    -- 1464: tmp11 += ints.tmp0 * 0.5
    .add 83 (.cp 32) 1 2,
    -- 1465: tmp11 += np.transpose(ints.tmp14, (1, 0))
    .add 83 (.tr 33 [1, 0]) 1 1,
    -- 1466: tmp11 += np.transpose(ints.tmp17, (1, 0))
    .add 83 (.tr 34 [1, 0]) 1 1,
    -- 1467: tmp11 += np.transpose(ints.tmp4, (1, 0))
    .add 83 (.tr 35 [1, 0]) 1 1,
    -- 1468: tmp11 += np.transpose(ints.tmp12, (1, 0)) * -0.5
    .add 83 (.tr 36 [1, 0]) (-1) 2,
    -- 1469: tmp11 += np.transpose(ints.tmp16, (1, 0)) * -0.5
    .add 83 (.tr 37 [1, 0]) (-1) 2,
    -- 1470: tmp11 += np.transpose(ints.tmp3, (1, 0)) * -0.5
    .add 83 (.tr 38 [1, 0]) (-1) 2,
    -- 1471: tmp9 = np.copy(ints.tmp21)
    .set 84 (.cp 39) 1 1,
    -- 1472: tmp9 += np.transpose(ints.tmp69, (1, 0)) * 2
    .add 84 (.tr 40 [1, 0]) 2 1,
    -- 1473: tmp9 += f.vv * -1
    .add 84 (.cp 41) (-1) 1,
    -- 1474: tmp9 += np.transpose(ints.tmp19, (1, 0)) * -2
    .add 84 (.tr 42 [1, 0]) (-2) 1,
    -- 1475: tmp9 += np.transpose(ints.tmp67, (1, 0)) * -1
    .add 84 (.tr 43 [1, 0]) (-1) 1,
    -- 1476: tmp9 += einsum(t1, (0, 1), tmp1, (0, 2), (2, 1)) * 2
    .add 84 (.ein [(44, [0, 1]), (78, [0, 2])] [2, 1]) 2 1,
    -- 1477: tmp6 = np.copy(ints.tmp22)
    .set 85 (.cp 45) 1 1,
    -- 1478: tmp6 += v.oovv
    .add 85 (.cp 46) 1 1,
    -- 1479: tmp6 += ints.tmp49 * -1
    .add 85 (.cp 47) (-1) 1,
    -- 1480: tmp10 = np.copy(ints.tmp100)
    .set 86 (.cp 48) 1 1,
    -- 1481: tmp10 += np.transpose(ints.tmp103, (0, 2, 1, 3))
    .add 86 (.tr 49 [0, 2, 1, 3]) 1 1,
    -- 1482: tmp10 += np.transpose(ints.tmp27, (1, 0, 2, 3))
    .add 86 (.tr 50 [1, 0, 2, 3]) 1 1,
    -- 1483: tmp10 += np.transpose(ints.tmp35, (1, 0, 2, 3))
    .add 86 (.tr 51 [1, 0, 2, 3]) 1 1,
    -- 1484: tmp10 += np.transpose(ints.tmp36, (1, 0, 2, 3))
    .add 86 (.tr 52 [1, 0, 2, 3]) 1 1,
    -- 1485: tmp10 += np.transpose(ints.tmp37, (1, 0, 2, 3))
    .add 86 (.tr 53 [1, 0, 2, 3]) 1 1,
    -- 1486: tmp10 += np.transpose(ints.tmp42, (2, 0, 1, 3))
    .add 86 (.tr 54 [2, 0, 1, 3]) 1 1,
    -- 1487: tmp10 += ints.tmp45
    .add 86 (.cp 55) 1 1,
    -- 1488: tmp10 += ints.tmp48
    .add 86 (.cp 56) 1 1,
    -- 1489: tmp10 += np.transpose(ints.tmp66, (1, 0, 2, 3))
    .add 86 (.tr 57 [1, 0, 2, 3]) 1 1,
    -- 1490: tmp10 += ints.tmp75
    .add 86 (.cp 58) 1 1,
    -- 1491: tmp10 += np.transpose(ints.tmp92, (1, 0, 2, 3))
    .add 86 (.tr 59 [1, 0, 2, 3]) 1 1,
    -- 1492: tmp10 += np.transpose(ints.tmp23, (1, 0, 2, 3)) * -1
    .add 86 (.tr 60 [1, 0, 2, 3]) (-1) 1,
    -- 1493: tmp10 += np.transpose(ints.tmp34, (1, 0, 2, 3)) * -2
    .add 86 (.tr 61 [1, 0, 2, 3]) (-2) 1,
    -- 1494: tmp10 += ints.tmp46 * -2
    .add 86 (.cp 62) (-2) 1,
    -- 1495: tmp10 += np.transpose(ints.tmp60, (1, 2, 0, 3)) * -1
    .add 86 (.tr 63 [1, 2, 0, 3]) (-1) 1,
    -- 1496: tmp10 += ints.tmp76 * -2
    .add 86 (.cp 64) (-2) 1,
    -- 1497: tmp10 += np.transpose(ints.tmp89, (1, 0, 2, 3)) * -1
    .add 86 (.tr 65 [1, 0, 2, 3]) (-1) 1,
    -- 1498: tmp10 += ints.tmp94 * -1
    .add 86 (.cp 66) (-1) 1,
    -- 1499: tmp10 += np.transpose(ints.tmp9, (1, 0, 2, 3)) * -1
    .add 86 (.tr 3 [1, 0, 2, 3]) (-1) 1,
    -- 1500: tmp10 += np.transpose(v.ovoo, (0, 2, 3, 1)) * -1
    .add 86 (.tr 67 [0, 2, 3, 1]) (-1) 1,
    -- 1501: tmp4 = np.copy(r2)
    .set 87 (.cp 5) 1 1,
    -- 1502: tmp4 += np.transpose(r2, (1, 0, 2)) * -0.5
    .add 87 (.tr 5 [1, 0, 2]) (-1) 2,
    -- 1503: tmp8 = np.copy(ints.tmp30)
    .set 88 (.cp 68) 1 1,
    -- 1504: tmp8 += np.transpose(ints.tmp90, (1, 0, 2, 3))
    .add 88 (.tr 69 [1, 0, 2, 3]) 1 1,
    -- 1505: tmp5 = np.copy(ints.tmp52) * 2
    .set 89 (.cp 70) 2 1,
    -- 1506: tmp5 += np.transpose(ints.tmp83, (0, 1, 3, 2))
    .add 89 (.tr 71 [0, 1, 3, 2]) 1 1,
    -- 1507: tmp5 += np.transpose(v.ovov, (0, 2, 1, 3))
    .add 89 (.tr 6 [0, 2, 1, 3]) 1 1,
    -- 1508: tmp5 += ints.tmp50 * -1
    .add 89 (.cp 72) (-1) 1,
    -- 1509: tmp5 += ints.tmp51 * -1
    .add 89 (.cp 73) (-1) 1,
    -- 1510: tmp7 = np.copy(ints.tmp25)
    .set 90 (.cp 74) 1 1,
    -- 1511: tmp7 += np.transpose(ints.tmp30, (1, 0, 2, 3))
    .add 90 (.tr 68 [1, 0, 2, 3]) 1 1,
    -- 1512: tmp7 += np.transpose(v.oooo, (0, 2, 1, 3))
    .add 90 (.tr 75 [0, 2, 1, 3]) 1 1,
    -- 1513: tmp13 = einsum(tmp12, (0, 1, 2, 3), tmp2, (1, 4, 3), (4, 2, 0)) * -1
    .set 91 (.ein [(79, [0, 1, 2, 3]), (80, [1, 4, 3])] [4, 2, 0]) (-1) 1,
    -- 1514: tmp13 += einsum(r2, (0, 1, 2), tmp12, (3, 4, 1, 2), (3, 4, 0))
    .add 91 (.ein [(5, [0, 1, 2]), (79, [3, 4, 1, 2])] [3, 4, 0]) 1 1,
    -- 1515: tmp13 += einsum(r2, (0, 1, 2), tmp12, (3, 4, 0, 2), (1, 4, 3))
    .add 91 (.ein [(5, [0, 1, 2]), (79, [3, 4, 0, 2])] [1, 4, 3]) 1 1,
    -- 1516: del tmp12
    .del 79,
    -- 1517: tmp15 = einsum(tmp14, (0, 1, 2, 3), r2, (1, 0, 2), (3,))
    .set 92 (.ein [(81, [0, 1, 2, 3]), (5, [1, 0, 2])] [3]) 1 1,
    -- 1518: del tmp14
    .del 81,
    -- 1519: tmp3 = np.copy(f.oo)
    .set 93 (.cp 31) 1 1,
    -- 1520: tmp3 += ints.tmp0
    .add 93 (.cp 32) 1 1,
    -- 1521: tmp3 += np.transpose(ints.tmp14, (1, 0)) * 2
    .add 93 (.tr 33 [1, 0]) 2 1,
    -- 1522: tmp3 += np.transpose(ints.tmp17, (1, 0)) * 2
    .add 93 (.tr 34 [1, 0]) 2 1,
    -- 1523: tmp3 += np.transpose(ints.tmp4, (1, 0)) * 2
    .add 93 (.tr 35 [1, 0]) 2 1,
    -- 1524: tmp3 += np.transpose(ints.tmp12, (1, 0)) * -1
    .add 93 (.tr 36 [1, 0]) (-1) 1,
    -- 1525: tmp3 += np.transpose(ints.tmp16, (1, 0)) * -1
    .add 93 (.tr 37 [1, 0]) (-1) 1,
    -- 1526: tmp3 += np.transpose(ints.tmp3, (1, 0)) * -1
    .add 93 (.tr 38 [1, 0]) (-1) 1,
    -- 1527: tmp0 = np.copy(ints.tmp9)
    .set 94 (.cp 3) 1 1,
    -- 1528: tmp0 += v.ooov * -0.5
    .add 94 (.cp 4) (-1) 2,
    -- 1529: tmp0 += np.transpose(v.ooov, (0, 2, 1, 3))
    .add 94 (.tr 4 [0, 2, 1, 3]) 1 1,
    -- 1530: r2new = einsum(tmp4, (0, 1, 2), tmp5, (3, 0, 4, 2), (3, 1, 4)) * 2
    .set 95 (.ein [(87, [0, 1, 2]), (89, [3, 0, 4, 2])] [3, 1, 4]) 2 1,
    -- 1531: del tmp4, tmp5
    .del 87,
    .del 89,
    -- 1532: r2new += einsum(r2, (0, 1, 2), tmp6, (3, 1, 4, 2), (0, 3, 4)) * -1
    .add 95 (.ein [(5, [0, 1, 2]), (85, [3, 1, 4, 2])] [0, 3, 4]) (-1) 1,
    -- 1533: r2new += einsum(tmp6, (0, 1, 2, 3), r2, (1, 4, 3), (0, 4, 2)) * -1
    .add 95 (.ein [(85, [0, 1, 2, 3]), (5, [1, 4, 3])] [0, 4, 2]) (-1) 1,
    -- 1534: del tmp6
    .del 85,
    -- 1535: r2new += einsum(r2, (0, 1, 2), tmp7, (3, 4, 0, 1), (3, 4, 2))
    .add 95 (.ein [(5, [0, 1, 2]), (90, [3, 4, 0, 1])] [3, 4, 2]) 1 1,
    -- 1536: del tmp7
    .del 90,
    -- 1537: r2new += einsum(r2, (0, 1, 2), tmp8, (3, 4, 1, 0), (3, 4, 2))
    .add 95 (.ein [(5, [0, 1, 2]), (88, [3, 4, 1, 0])] [3, 4, 2]) 1 1,
    -- 1538: del tmp8
    .del 88,
    -- 1539: r2new += einsum(tmp9, (0, 1), r2, (2, 3, 0), (2, 3, 1)) * -1
    .add 95 (.ein [(84, [0, 1]), (5, [2, 3, 0])] [2, 3, 1]) (-1) 1,
    -- 1540: del tmp9
    .del 84,
    -- 1541: r2new += einsum(r1, (0,), tmp10, (1, 2, 0, 3), (1, 2, 3)) * -1
    .add 95 (.ein [(76, [0]), (86, [1, 2, 0, 3])] [1, 2, 3]) (-1) 1,
    -- 1542: del tmp10
    .del 86,
    -- 1543: r2new += einsum(r2, (0, 1, 2), tmp11, (0, 3), (3, 1, 2)) * -2
    .add 95 (.ein [(5, [0, 1, 2]), (83, [0, 3])] [3, 1, 2]) (-2) 1,
    -- 1544: r2new += einsum(r2, (0, 1, 2), tmp11, (1, 3), (0, 3, 2)) * -2
    .add 95 (.ein [(5, [0, 1, 2]), (83, [1, 3])] [0, 3, 2]) (-2) 1,
    -- 1545: del tmp11
    .del 83,
    -- 1546: r2new += einsum(t1, (0, 1), tmp13, (2, 0, 3), (3, 2, 1))
    .add 95 (.ein [(44, [0, 1]), (91, [2, 0, 3])] [3, 2, 1]) 1 1,
    -- 1547: del tmp13
    .del 91,
    -- 1548: r2new += einsum(tmp15, (0,), t2, (1, 2, 3, 0), (1, 2, 3)) * -2
    .add 95 (.ein [(92, [0]), (77, [1, 2, 3, 0])] [1, 2, 3]) (-2) 1,
    -- 1549: del tmp15
    .del 92,
    -- 1550: r2new += einsum(r1, (0,), tmp16, (1, 2), (1, 0, 2))
    .add 95 (.ein [(76, [0]), (82, [1, 2])] [1, 0, 2]) 1 1,
    -- 1551: del tmp16
    .del 82,
    -- 1552: r1new = einsum(r2, (0, 1, 2), ints.tmp9, (3, 1, 0, 2), (3,)) * -1
    .set 96 (.ein [(5, [0, 1, 2]), (3, [3, 1, 0, 2])] [3]) (-1) 1,
    -- 1553: r1new += einsum(tmp0, (0, 1, 2, 3), r2, (1, 2, 3), (0,)) * 2
    .add 96 (.ein [(94, [0, 1, 2, 3]), (5, [1, 2, 3])] [0]) 2 1,
    -- 1554: del tmp0
    .del 94,
    -- 1555: r1new += einsum(tmp1, (0, 1), tmp2, (0, 2, 1), (2,)) * -2
    .add 96 (.ein [(78, [0, 1]), (80, [0, 2, 1])] [2]) (-2) 1,
    -- 1556: del tmp1, tmp2
    .del 78,
    .del 80,
    -- 1557: r1new += einsum(r1, (0,), tmp3, (0, 1), (1,)) * -1
    .add 96 (.ein [(76, [0]), (93, [0, 1])] [1]) (-1) 1,
    -- 1558: del tmp3
    .del 93
  ]
  ret := [(chars! "r1new", 96), (chars! "r2new", 95)]

/-- codegen/RCCSD.py:1854-2006 `hbar_lmatvec_ip_intermediates`. -/
def hbar_lmatvec_ip_intermediates : GenFun where
  args := [chars! "t1", chars! "v.ovov", chars! "v.ovvv", chars! "v.ooov", chars! "t2", chars! "f.ov", chars! "v.oovv", chars! "v.oooo", chars! "f.vv", chars! "f.oo"]
  body := [
    -- 1939: tmp20 = einsum(t1, (0, 1), v.ovov, (2, 3, 4, 1), (0, 2, 4, 3))
    .set 10 (.ein [(0, [0, 1]), (1, [2, 3, 4, 1])] [0, 2, 4, 3]) 1 1,
    -- 1940: tmp17 = einsum(t1, (0, 1), v.ovov, (2, 3, 0, 1), (2, 3))
    .set 11 (.ein [(0, [0, 1]), (1, [2, 3, 0, 1])] [2, 3]) 1 1,
    -- 1941: tmp47 = einsum(t1, (0, 1), v.ovov, (2, 1, 0, 3), (2, 3))
    .set 12 (.ein [(0, [0, 1]), (1, [2, 1, 0, 3])] [2, 3]) 1 1,
    -- 1942: tmp107 = einsum(t1, (0, 1), tmp20, (2, 3, 4, 1), (0, 2, 3, 4))
    .set 13 (.ein [(0, [0, 1]), (10, [2, 3, 4, 1])] [0, 2, 3, 4]) 1 1,
    -- 1943: tmp86 = einsum(t1, (0, 1), tmp17, (2, 1), (0, 2))
    .set 14 (.ein [(0, [0, 1]), (11, [2, 1])] [0, 2]) 1 1,
    -- 1944: tmp85 = einsum(tmp47, (0, 1), t1, (2, 1), (2, 0))
    .set 15 (.ein [(12, [0, 1]), (0, [2, 1])] [2, 0]) 1 1,
    -- 1945: tmp99 = einsum(t1, (0, 1), v.ovvv, (2, 3, 4, 1), (0, 2, 3, 4))
    .set 16 (.ein [(0, [0, 1]), (2, [2, 3, 4, 1])] [0, 2, 3, 4]) 1 1,
    -- 1946: tmp97 = einsum(t1, (0, 1), v.ovvv, (0, 2, 3, 1), (2, 3))
    .set 17 (.ein [(0, [0, 1]), (2, [0, 2, 3, 1])] [2, 3]) 1 1,
    -- 1947: tmp93 = einsum(t1, (0, 1), v.ovvv, (0, 1, 2, 3), (2, 3))
    .set 18 (.ein [(0, [0, 1]), (2, [0, 1, 2, 3])] [2, 3]) 1 1,
    -- 1948: tmp90 = einsum(t1, (0, 1), v.ooov, (2, 3, 4, 1), (0, 2, 3, 4))
    .set 19 (.ein [(0, [0, 1]), (3, [2, 3, 4, 1])] [0, 2, 3, 4]) 1 1,
    -- 1949: tmp13 = einsum(t1, (0, 1), v.ooov, (2, 3, 0, 1), (2, 3))
    .set 20 (.ein [(0, [0, 1]), (3, [2, 3, 0, 1])] [2, 3]) 1 1,
    -- 1950: tmp12 = einsum(t1, (0, 1), v.ooov, (2, 0, 3, 1), (2, 3))
    .set 21 (.ein [(0, [0, 1]), (3, [2, 0, 3, 1])] [2, 3]) 1 1,
    -- 1951: tmp81 = einsum(v.ovov, (0, 1, 2, 3), t2, (4, 5, 1, 3), (4, 5, 0, 2))
    .set 22 (.ein [(1, [0, 1, 2, 3]), (4, [4, 5, 1, 3])] [4, 5, 0, 2]) 1 1,
    -- 1952: tmp22 = einsum(v.ovov, (0, 1, 2, 3), t2, (4, 2, 3, 1), (4, 0))
    .set 23 (.ein [(1, [0, 1, 2, 3]), (4, [4, 2, 3, 1])] [4, 0]) 1 1,
    -- 1953: tmp24 = einsum(t2, (0, 1, 2, 3), v.ovov, (4, 2, 1, 3), (0, 4))
    .set 24 (.ein [(4, [0, 1, 2, 3]), (1, [4, 2, 1, 3])] [0, 4]) 1 1,
    -- 1954: tmp0 = einsum(t1, (0, 1), f.ov, (2, 1), (2, 0))
    .set 25 (.ein [(0, [0, 1]), (5, [2, 1])] [2, 0]) 1 1,
    -- 1955: tmp136 = einsum(t2, (0, 1, 2, 3), v.ovov, (0, 2, 1, 4), (3, 4))
    .set 26 (.ein [(4, [0, 1, 2, 3]), (1, [0, 2, 1, 4])] [3, 4]) 1 1,
    -- 1956: tmp134 = einsum(t2, (0, 1, 2, 3), v.ovov, (0, 4, 1, 2), (3, 4))
    .set 27 (.ein [(4, [0, 1, 2, 3]), (1, [0, 4, 1, 2])] [3, 4]) 1 1,
    -- 1957: tmp117 = einsum(v.ovov, (0, 1, 2, 3), t2, (4, 2, 5, 3), (4, 0, 5, 1))
    .set 28 (.ein [(1, [0, 1, 2, 3]), (4, [4, 2, 5, 3])] [4, 0, 5, 1]) 1 1,
    -- 1958: tmp116 = einsum(v.ovov, (0, 1, 2, 3), t2, (4, 2, 3, 5), (4, 0, 5, 1))
    .set 29 (.ein [(1, [0, 1, 2, 3]), (4, [4, 2, 3, 5])] [4, 0, 5, 1]) 1 1,
    -- 1959: tmp114 = einsum(t2, (0, 1, 2, 3), v.ovov, (4, 3, 1, 5), (0, 4, 2, 5))
    .set 30 (.ein [(4, [0, 1, 2, 3]), (1, [4, 3, 1, 5])] [0, 4, 2, 5]) 1 1,
    -- 1960: tmp113 = einsum(t2, (0, 1, 2, 3), v.ovov, (4, 2, 1, 5), (0, 4, 3, 5))
    .set 31 (.ein [(4, [0, 1, 2, 3]), (1, [4, 2, 1, 5])] [0, 4, 3, 5]) 1 1,
    -- 1961: tmp112 = einsum(t1, (0, 1), v.ovvv, (2, 1, 3, 4), (0, 2, 3, 4))
    .set 32 (.ein [(0, [0, 1]), (2, [2, 1, 3, 4])] [0, 2, 3, 4]) 1 1,
    -- 1962: tmp108 = einsum(tmp107, (0, 1, 2, 3), t1, (3, 4), (0, 1, 2, 4))
    .set 33 (.ein [(13, [0, 1, 2, 3]), (0, [3, 4])] [0, 1, 2, 4]) 1 1,
    -- 1963: tmp104 = einsum(t1, (0, 1), tmp86, (2, 0), (2, 1))
    .set 34 (.ein [(0, [0, 1]), (14, [2, 0])] [2, 1]) 1 1,
    -- 1964: tmp103 = einsum(t1, (0, 1), tmp85, (2, 0), (2, 1))
    .set 35 (.ein [(0, [0, 1]), (15, [2, 0])] [2, 1]) 1 1,
    -- 1965: tmp100 = einsum(t1, (0, 1), tmp99, (2, 3, 1, 4), (0, 2, 3, 4))
    .set 36 (.ein [(0, [0, 1]), (16, [2, 3, 1, 4])] [0, 2, 3, 4]) 1 1,
    -- 1966: tmp98 = einsum(tmp97, (0, 1), t1, (2, 0), (2, 1))
    .set 37 (.ein [(17, [0, 1]), (0, [2, 0])] [2, 1]) 1 1,
    -- 1967: tmp94 = einsum(t1, (0, 1), tmp93, (2, 1), (0, 2))
    .set 38 (.ein [(0, [0, 1]), (18, [2, 1])] [0, 2]) 1 1,
    -- 1968: tmp92 = einsum(tmp90, (0, 1, 2, 3), t1, (3, 4), (0, 1, 2, 4))
    .set 39 (.ein [(19, [0, 1, 2, 3]), (0, [3, 4])] [0, 1, 2, 4]) 1 1,
    -- 1969: tmp91 = einsum(tmp90, (0, 1, 2, 3), t1, (2, 4), (0, 1, 3, 4))
    .set 40 (.ein [(19, [0, 1, 2, 3]), (0, [2, 4])] [0, 1, 3, 4]) 1 1,
    -- 1970: tmp88 = einsum(t1, (0, 1), tmp13, (2, 0), (2, 1))
    .set 41 (.ein [(0, [0, 1]), (20, [2, 0])] [2, 1]) 1 1,
    -- 1971: tmp87 = einsum(t1, (0, 1), tmp12, (2, 0), (2, 1))
    .set 42 (.ein [(0, [0, 1]), (21, [2, 0])] [2, 1]) 1 1,
    -- 1972: tmp82 = einsum(tmp81, (0, 1, 2, 3), t1, (2, 4), (1, 0, 3, 4))
    .set 43 (.ein [(22, [0, 1, 2, 3]), (0, [2, 4])] [1, 0, 3, 4]) 1 1,
    -- 1973: tmp78 = einsum(t1, (0, 1), tmp22, (2, 0), (2, 1))
    .set 44 (.ein [(0, [0, 1]), (23, [2, 0])] [2, 1]) 1 1,
    -- 1974: tmp75 = einsum(t1, (0, 1), tmp24, (2, 0), (2, 1))
    .set 45 (.ein [(0, [0, 1]), (24, [2, 0])] [2, 1]) 1 1,
    -- 1975: tmp73 = einsum(t2, (0, 1, 2, 3), tmp20, (4, 5, 1, 3), (4, 0, 5, 2))
    .set 46 (.ein [(4, [0, 1, 2, 3]), (10, [4, 5, 1, 3])] [4, 0, 5, 2]) 1 1,
    -- 1976: tmp72 = einsum(t2, (0, 1, 2, 3), tmp20, (4, 5, 1, 2), (4, 0, 5, 3))
    .set 47 (.ein [(4, [0, 1, 2, 3]), (10, [4, 5, 1, 2])] [4, 0, 5, 3]) 1 1,
    -- 1977: tmp70 = einsum(t2, (0, 1, 2, 3), tmp20, (4, 1, 5, 3), (4, 0, 5, 2))
    .set 48 (.ein [(4, [0, 1, 2, 3]), (10, [4, 1, 5, 3])] [4, 0, 5, 2]) 1 1,
    -- 1978: tmp69 = einsum(t2, (0, 1, 2, 3), tmp20, (4, 1, 5, 2), (4, 0, 5, 3))
    .set 49 (.ein [(4, [0, 1, 2, 3]), (10, [4, 1, 5, 2])] [4, 0, 5, 3]) 1 1,
    -- 1979: tmp66 = einsum(t2, (0, 1, 2, 3), tmp20, (4, 1, 0, 2), (4, 3))
    .set 50 (.ein [(4, [0, 1, 2, 3]), (10, [4, 1, 0, 2])] [4, 3]) 1 1,
    -- 1980: tmp63 = einsum(t2, (0, 1, 2, 3), tmp20, (4, 0, 1, 2), (4, 3))
    .set 51 (.ein [(4, [0, 1, 2, 3]), (10, [4, 0, 1, 2])] [4, 3]) 1 1,
    -- 1981: tmp60 = einsum(tmp17, (0, 1), t2, (2, 3, 4, 1), (2, 3, 0, 4))
    .set 52 (.ein [(11, [0, 1]), (4, [2, 3, 4, 1])] [2, 3, 0, 4]) 1 1,
    -- 1982: tmp57 = einsum(tmp47, (0, 1), t2, (2, 3, 4, 1), (2, 3, 0, 4))
    .set 53 (.ein [(12, [0, 1]), (4, [2, 3, 4, 1])] [2, 3, 0, 4]) 1 1,
    -- 1983: tmp54 = einsum(tmp17, (0, 1), t2, (2, 0, 3, 1), (2, 3))
    .set 54 (.ein [(11, [0, 1]), (4, [2, 0, 3, 1])] [2, 3]) 1 1,
    -- 1984: tmp51 = einsum(tmp17, (0, 1), t2, (2, 0, 1, 3), (2, 3))
    .set 55 (.ein [(11, [0, 1]), (4, [2, 0, 1, 3])] [2, 3]) 1 1,
    -- 1985: tmp49 = einsum(tmp47, (0, 1), t2, (2, 0, 3, 1), (2, 3))
    .set 56 (.ein [(12, [0, 1]), (4, [2, 0, 3, 1])] [2, 3]) 1 1,
    -- 1986: tmp48 = einsum(tmp47, (0, 1), t2, (2, 0, 1, 3), (2, 3))
    .set 57 (.ein [(12, [0, 1]), (4, [2, 0, 1, 3])] [2, 3]) 1 1,
    -- 1987: tmp44 = einsum(v.ovvv, (0, 1, 2, 3), t2, (4, 5, 1, 3), (4, 5, 0, 2))
    .set 58 (.ein [(2, [0, 1, 2, 3]), (4, [4, 5, 1, 3])] [4, 5, 0, 2]) 1 1,
    -- 1988: tmp41 = einsum(t2, (0, 1, 2, 3), v.ovvv, (1, 2, 4, 3), (0, 4))
    .set 59 (.ein [(4, [0, 1, 2, 3]), (2, [1, 2, 4, 3])] [0, 4]) 1 1,
    -- 1989: tmp38 = einsum(t2, (0, 1, 2, 3), v.ovvv, (1, 3, 4, 2), (0, 4))
    .set 60 (.ein [(4, [0, 1, 2, 3]), (2, [1, 3, 4, 2])] [0, 4]) 1 1,
    -- 1990: tmp36 = einsum(t2, (0, 1, 2, 3), v.ooov, (4, 5, 1, 3), (0, 4, 5, 2))
    .set 61 (.ein [(4, [0, 1, 2, 3]), (3, [4, 5, 1, 3])] [0, 4, 5, 2]) 1 1,
    -- 1991: tmp35 = einsum(v.ooov, (0, 1, 2, 3), t2, (4, 2, 3, 5), (4, 0, 1, 5))
    .set 62 (.ein [(3, [0, 1, 2, 3]), (4, [4, 2, 3, 5])] [4, 0, 1, 5]) 1 1,
    -- 1992: tmp33 = einsum(v.ooov, (0, 1, 2, 3), t2, (4, 1, 5, 3), (4, 0, 2, 5))
    .set 63 (.ein [(3, [0, 1, 2, 3]), (4, [4, 1, 5, 3])] [4, 0, 2, 5]) 1 1,
    -- 1993: tmp32 = einsum(v.ooov, (0, 1, 2, 3), t2, (4, 1, 3, 5), (4, 0, 2, 5))
    .set 64 (.ein [(3, [0, 1, 2, 3]), (4, [4, 1, 3, 5])] [4, 0, 2, 5]) 1 1,
    -- 1994: tmp29 = einsum(t2, (0, 1, 2, 3), v.ooov, (4, 1, 0, 2), (4, 3))
    .set 65 (.ein [(4, [0, 1, 2, 3]), (3, [4, 1, 0, 2])] [4, 3]) 1 1,
    -- 1995: tmp26 = einsum(v.ooov, (0, 1, 2, 3), t2, (2, 1, 4, 3), (0, 4))
    .set 66 (.ein [(3, [0, 1, 2, 3]), (4, [2, 1, 4, 3])] [0, 4]) 1 1,
    -- 1996: tmp21 = einsum(t1, (0, 1), v.oovv, (2, 3, 4, 1), (0, 2, 3, 4))
    .set 67 (.ein [(0, [0, 1]), (6, [2, 3, 4, 1])] [0, 2, 3, 4]) 1 1,
    -- 1997: tmp19 = einsum(t1, (0, 1), v.oovv, (2, 0, 3, 1), (2, 3))
    .set 68 (.ein [(0, [0, 1]), (6, [2, 0, 3, 1])] [2, 3]) 1 1,
    -- 1998: tmp14 = einsum(v.oooo, (0, 1, 2, 3), t1, (3, 4), (0, 1, 2, 4))
    .set 69 (.ein [(7, [0, 1, 2, 3]), (0, [3, 4])] [0, 1, 2, 4]) 1 1,
    -- 1999: tmp9 = einsum(t1, (0, 1), tmp0, (0, 2), (2, 1))
    .set 70 (.ein [(0, [0, 1]), (25, [0, 2])] [2, 1]) 1 1,
    -- 2000: tmp6 = einsum(f.ov, (0, 1), t2, (2, 3, 4, 1), (0, 2, 3, 4))
    .set 71 (.ein [(5, [0, 1]), (4, [2, 3, 4, 1])] [0, 2, 3, 4]) 1 1,
    -- 2001: tmp4 = einsum(f.ov, (0, 1), t2, (2, 0, 3, 1), (2, 3))
    .set 72 (.ein [(5, [0, 1]), (4, [2, 0, 3, 1])] [2, 3]) 1 1,
    -- 2002: tmp3 = einsum(f.ov, (0, 1), t2, (2, 0, 1, 3), (2, 3))
    .set 73 (.ein [(5, [0, 1]), (4, [2, 0, 1, 3])] [2, 3]) 1 1,
    -- 2003: tmp2 = einsum(t1, (0, 1), f.vv, (2, 1), (0, 2))
    .set 74 (.ein [(0, [0, 1]), (8, [2, 1])] [0, 2]) 1 1,
    -- 2004: tmp1 = einsum(t1, (0, 1), f.oo, (2, 0), (2, 1))
    .set 75 (.ein [(0, [0, 1]), (9, [2, 0])] [2, 1]) 1 1
  ]
  ret := [(chars! "tmp0", 25), (chars! "tmp1", 75), (chars! "tmp100", 36), (chars! "tmp103", 35), (chars! "tmp104", 34), (chars! "tmp107", 13), (chars! "tmp108", 33), (chars! "tmp112", 32), (chars! "tmp113", 31), (chars! "tmp114", 30), (chars! "tmp116", 29), (chars! "tmp117", 28), (chars! "tmp12", 21), (chars! "tmp13", 20), (chars! "tmp134", 27), (chars! "tmp136", 26), (chars! "tmp14", 69), (chars! "tmp17", 11), (chars! "tmp19", 68), (chars! "tmp2", 74), (chars! "tmp20", 10), (chars! "tmp21", 67), (chars! "tmp22", 23), (chars! "tmp24", 24), (chars! "tmp26", 66), (chars! "tmp29", 65), (chars! "tmp3", 73), (chars! "tmp32", 64), (chars! "tmp33", 63), (chars! "tmp35", 62), (chars! "tmp36", 61), (chars! "tmp38", 60), (chars! "tmp4", 72), (chars! "tmp41", 59), (chars! "tmp44", 58), (chars! "tmp47", 12), (chars! "tmp48", 57), (chars! "tmp49", 56), (chars! "tmp51", 55), (chars! "tmp54", 54), (chars! "tmp57", 53), (chars! "tmp6", 71), (chars! "tmp60", 52), (chars! "tmp63", 51), (chars! "tmp66", 50), (chars! "tmp69", 49), (chars! "tmp70", 48), (chars! "tmp72", 47), (chars! "tmp73", 46), (chars! "tmp75", 45), (chars! "tmp78", 44), (chars! "tmp81", 22), (chars! "tmp82", 43), (chars! "tmp85", 15), (chars! "tmp86", 14), (chars! "tmp87", 42), (chars! "tmp88", 41), (chars! "tmp9", 70), (chars! "tmp90", 19), (chars! "tmp91", 40), (chars! "tmp92", 39), (chars! "tmp93", 18), (chars! "tmp94", 38), (chars! "tmp97", 17), (chars! "tmp98", 37), (chars! "tmp99", 16)]

/-- codegen/RCCSD.py:2008-2175 `hbar_lmatvec_ip`. -/
def hbar_lmatvec_ip : GenFun where
  args := [chars! "t1", chars! "r2", chars! "f.ov", chars! "ints.tmp17", chars! "ints.tmp47", chars! "t2", chars! "ints.tmp20", chars! "v.ooov", chars! "ints.tmp112", chars! "v.oovv", chars! "ints.tmp113", chars! "ints.tmp81", chars! "ints.tmp90", chars! "f.oo", chars! "ints.tmp0", chars! "ints.tmp13", chars! "ints.tmp24", chars! "ints.tmp86", chars! "ints.tmp12", chars! "ints.tmp22", chars! "ints.tmp85", chars! "ints.tmp136", chars! "ints.tmp97", chars! "f.vv", chars! "ints.tmp134", chars! "ints.tmp93", chars! "ints.tmp117", chars! "ints.tmp99", chars! "v.ovov", chars! "ints.tmp114", chars! "ints.tmp116", chars! "ints.tmp107", chars! "v.oooo", chars! "ints.tmp108", chars! "ints.tmp14", chars! "ints.tmp32", chars! "ints.tmp69", chars! "ints.tmp73", chars! "ints.tmp82", chars! "ints.tmp91", chars! "ints.tmp100", chars! "ints.tmp44", chars! "ints.tmp70", chars! "v.ovoo", chars! "ints.tmp33", chars! "ints.tmp35", chars! "ints.tmp57", chars! "ints.tmp72", chars! "ints.tmp92", chars! "ints.tmp21", chars! "ints.tmp36", chars! "ints.tmp60", chars! "ints.tmp6", chars! "ints.tmp104", chars! "ints.tmp19", chars! "ints.tmp1", chars! "ints.tmp29", chars! "ints.tmp3", chars! "ints.tmp41", chars! "ints.tmp49", chars! "ints.tmp51", chars! "ints.tmp63", chars! "ints.tmp75", chars! "ints.tmp88", chars! "ints.tmp98", chars! "ints.tmp9", chars! "ints.tmp103", chars! "ints.tmp26", chars! "ints.tmp2", chars! "ints.tmp38", chars! "ints.tmp48", chars! "ints.tmp4", chars! "ints.tmp54", chars! "ints.tmp66", chars! "ints.tmp78", chars! "ints.tmp87", chars! "ints.tmp94", chars! "r1"]
  body := [
    -- 2036: tmp10 = einsum(t1, (0, 1), r2, (2, 3, 1), (2, 3, 0))
    .set 78 (.ein [(0, [0, 1]), (1, [2, 3, 1])] [2, 3, 0]) 1 1,
    -- 2037: tmp16 = np.copy(f.ov)
    .set 79 (.cp 2) 1 1,
    -- 2038: tmp16 += ints.tmp17 * 2
    .add 79 (.cp 3) 2 1,
    -- 2039: tmp16 += ints.tmp47 * -1
    .add 79 (.cp 4) (-1) 1,
    -- 2040: tmp19 = np.copy(np.transpose(t2, (0, 1, 3, 2)))
    .set 80 (.tr 5 [0, 1, 3, 2]) 1 1,
    -- 2041: tmp19 += t2 * -0.5
    .add 80 (.cp 5) (-1) 2,
    -- 2042: tmp12 = np.copy(ints.tmp20)
    .set 81 (.cp 6) 1 1,
    -- 2043: tmp12 += np.transpose(v.ooov, (0, 2, 1, 3))
    .add 81 (.tr 7 [0, 2, 1, 3]) 1 1,
    -- 2044: tmp11 = np.copy(tmp10)
    .set 82 (.cp 78) 1 1,
    -- 2045: tmp11 += np.transpose(tmp10, (1, 0, 2)) * -0.5
    .add 82 (.tr 78 [1, 0, 2]) (-1) 2,
    -- 2046: tmp9 = np.copy(ints.tmp112)
    .set 83 (.cp 8) 1 1,
    -- 2047: tmp9 += v.oovv
    .add 83 (.cp 9) 1 1,
    -- 2048: tmp9 += np.transpose(ints.tmp113, (0, 1, 3, 2)) * -1
    .add 83 (.tr 10 [0, 1, 3, 2]) (-1) 1,
    -- 2049: tmp14 = np.copy(ints.tmp81)
    .set 84 (.cp 11) 1 1,
    -- 2050: tmp14 += np.transpose(ints.tmp90, (0, 1, 3, 2))
    .add 84 (.tr 12 [0, 1, 3, 2]) 1 1,
    -- 2051: tmp18 = np.copy(f.oo) * 0.5
    .set 85 (.cp 13) 1 2,
    -- 2052: tmp18 += np.transpose(ints.tmp0, (1, 0)) * 0.5
    .add 85 (.tr 14 [1, 0]) 1 2,
    -- 2053: tmp18 += ints.tmp13
    .add 85 (.cp 15) 1 1,
    -- 2054: tmp18 += ints.tmp24
    .add 85 (.cp 16) 1 1,
    -- 2055: tmp18 += ints.tmp86
    .add 85 (.cp 17) 1 1,
    -- 2056: tmp18 += ints.tmp12 * -0.5
    .add 85 (.cp 18) (-1) 2,
    -- 2057: tmp18 += ints.tmp22 * -0.5
    .add 85 (.cp 19) (-1) 2,
    -- 2058: tmp18 += ints.tmp85 * -0.5
    .add 85 (.cp 20) (-1) 2,
    -- 2059: tmp17 = np.copy(ints.tmp136) * 2
    .set 86 (.cp 21) 2 1,
    -- 2060: tmp17 += np.transpose(ints.tmp97, (1, 0))
    .add 86 (.tr 22 [1, 0]) 1 1,
    -- 2061: tmp17 += f.vv * -1
    .add 86 (.cp 23) (-1) 1,
    -- 2062: tmp17 += ints.tmp134 * -1
    .add 86 (.cp 24) (-1) 1,
    -- 2063: tmp17 += ints.tmp93 * -2
    .add 86 (.cp 25) (-2) 1,
    -- 2064: tmp17 += einsum(t1, (0, 1), tmp16, (0, 2), (1, 2))
    .add 86 (.ein [(0, [0, 1]), (79, [0, 2])] [1, 2]) 1 1,
    -- 2065: tmp20 = einsum(tmp19, (0, 1, 2, 3), r2, (1, 0, 2), (3,))
    .set 87 (.ein [(80, [0, 1, 2, 3]), (1, [1, 0, 2])] [3]) 1 1,
    -- 2066: del tmp19
    .del 80,
    -- 2067: tmp8 = np.copy(ints.tmp117) * 2
    .set 88 (.cp 26) 2 1,
    -- 2068: tmp8 += np.transpose(ints.tmp99, (0, 1, 3, 2))
    .add 88 (.tr 27 [0, 1, 3, 2]) 1 1,
    -- 2069: tmp8 += np.transpose(v.ovov, (0, 2, 1, 3))
    .add 88 (.tr 28 [0, 2, 1, 3]) 1 1,
    -- 2070: tmp8 += ints.tmp114 * -1
    .add 88 (.cp 29) (-1) 1,
    -- 2071: tmp8 += ints.tmp116 * -1
    .add 88 (.cp 30) (-1) 1,
    -- 2072: tmp7 = np.copy(r2)
    .set 89 (.cp 1) 1 1,
    -- 2073: tmp7 += np.transpose(r2, (1, 0, 2)) * -0.5
    .add 89 (.tr 1 [1, 0, 2]) (-1) 2,
    -- 2074: tmp13 = np.copy(ints.tmp107)
    .set 90 (.cp 31) 1 1,
    -- 2075: tmp13 += np.transpose(ints.tmp90, (0, 1, 3, 2))
    .add 90 (.tr 12 [0, 1, 3, 2]) 1 1,
    -- 2076: tmp13 += np.transpose(v.oooo, (0, 2, 1, 3))
    .add 90 (.tr 32 [0, 2, 1, 3]) 1 1,
    -- 2077: tmp15 = np.copy(ints.tmp20)
    .set 91 (.cp 6) 1 1,
    -- 2078: tmp15 += np.transpose(v.ooov, (0, 2, 1, 3))
    .add 91 (.tr 7 [0, 2, 1, 3]) 1 1,
    -- 2079: tmp6 = np.copy(f.oo)
    .set 92 (.cp 13) 1 1,
    -- 2080: tmp6 += np.transpose(ints.tmp0, (1, 0))
    .add 92 (.tr 14 [1, 0]) 1 1,
    -- 2081: tmp6 += np.transpose(ints.tmp13, (1, 0)) * 2
    .add 92 (.tr 15 [1, 0]) 2 1,
    -- 2082: tmp6 += ints.tmp24 * 2
    .add 92 (.cp 16) 2 1,
    -- 2083: tmp6 += ints.tmp86 * 2
    .add 92 (.cp 17) 2 1,
    -- 2084: tmp6 += ints.tmp12 * -1
    .add 92 (.cp 18) (-1) 1,
    -- 2085: tmp6 += ints.tmp22 * -1
    .add 92 (.cp 19) (-1) 1,
    -- 2086: tmp6 += ints.tmp85 * -1
    .add 92 (.cp 20) (-1) 1,
    -- 2087: tmp1 = np.copy(ints.tmp108)
    .set 93 (.cp 33) 1 1,
    -- 2088: tmp1 += np.transpose(ints.tmp14, (1, 2, 0, 3))
    .add 93 (.tr 34 [1, 2, 0, 3]) 1 1,
    -- 2089: tmp1 += ints.tmp32
    .add 93 (.cp 35) 1 1,
    -- 2090: tmp1 += ints.tmp69
    .add 93 (.cp 36) 1 1,
    -- 2091: tmp1 += ints.tmp73
    .add 93 (.cp 37) 1 1,
    -- 2092: tmp1 += ints.tmp82
    .add 93 (.cp 38) 1 1,
    -- 2093: tmp1 += ints.tmp91
    .add 93 (.cp 39) 1 1,
    -- 2094: tmp1 += ints.tmp100 * -1
    .add 93 (.cp 40) (-1) 1,
    -- 2095: tmp1 += ints.tmp20 * -1
    .add 93 (.cp 6) (-1) 1,
    -- 2096: tmp1 += ints.tmp44 * -1
    .add 93 (.cp 41) (-1) 1,
    -- 2097: tmp1 += ints.tmp70 * -2
    .add 93 (.cp 42) (-2) 1,
    -- 2098: tmp4 = np.copy(v.ooov) * -0.5
    .set 94 (.cp 7) (-1) 2,
    -- 2099: tmp4 += np.transpose(v.ovoo, (0, 2, 3, 1))
    .add 94 (.tr 43 [0, 2, 3, 1]) 1 1,
    -- 2100: tmp3 = np.copy(np.transpose(ints.tmp33, (0, 2, 1, 3)))
    .set 95 (.tr 44 [0, 2, 1, 3]) 1 1,
    -- 2101: tmp3 += ints.tmp35
    .add 95 (.cp 45) 1 1,
    -- 2102: tmp3 += np.transpose(ints.tmp57, (0, 2, 1, 3))
    .add 95 (.tr 46 [0, 2, 1, 3]) 1 1,
    -- 2103: tmp3 += np.transpose(ints.tmp72, (0, 2, 1, 3))
    .add 95 (.tr 47 [0, 2, 1, 3]) 1 1,
    -- 2104: tmp3 += ints.tmp92
    .add 95 (.cp 48) 1 1,
    -- 2105: tmp3 += ints.tmp21 * -1
    .add 95 (.cp 49) (-1) 1,
    -- 2106: tmp3 += ints.tmp36 * -2
    .add 95 (.cp 50) (-2) 1,
    -- 2107: tmp3 += np.transpose(ints.tmp60, (0, 2, 1, 3)) * -2
    .add 95 (.tr 51 [0, 2, 1, 3]) (-2) 1,
    -- 2108: tmp3 += np.transpose(ints.tmp6, (1, 0, 2, 3)) * -1
    .add 95 (.tr 52 [1, 0, 2, 3]) (-1) 1,
    -- 2109: tmp0 = np.copy(r2) * -0.5
    .set 96 (.cp 1) (-1) 2,
    -- 2110: tmp0 += np.transpose(r2, (1, 0, 2))
    .add 96 (.tr 1 [1, 0, 2]) 1 1,
    -- 2111: tmp5 = np.copy(ints.tmp104) * 2
    .set 97 (.cp 53) 2 1,
    -- 2112: tmp5 += ints.tmp19
    .add 97 (.cp 54) 1 1,
    -- 2113: tmp5 += ints.tmp1
    .add 97 (.cp 55) 1 1,
    -- 2114: tmp5 += ints.tmp29 * 2
    .add 97 (.cp 56) 2 1,
    -- 2115: tmp5 += ints.tmp3
    .add 97 (.cp 57) 1 1,
    -- 2116: tmp5 += ints.tmp41
    .add 97 (.cp 58) 1 1,
    -- 2117: tmp5 += ints.tmp49 * 2
    .add 97 (.cp 59) 2 1,
    -- 2118: tmp5 += ints.tmp51 * 2
    .add 97 (.cp 60) 2 1,
    -- 2119: tmp5 += ints.tmp63 * 2
    .add 97 (.cp 61) 2 1,
    -- 2120: tmp5 += ints.tmp75 * 2
    .add 97 (.cp 62) 2 1,
    -- 2121: tmp5 += ints.tmp88 * 2
    .add 97 (.cp 63) 2 1,
    -- 2122: tmp5 += ints.tmp98
    .add 97 (.cp 64) 1 1,
    -- 2123: tmp5 += ints.tmp9
    .add 97 (.cp 65) 1 1,
    -- 2124: tmp5 += f.ov * -1
    .add 97 (.cp 2) (-1) 1,
    -- 2125: tmp5 += ints.tmp103 * -1
    .add 97 (.cp 66) (-1) 1,
    -- 2126: tmp5 += ints.tmp17 * -2
    .add 97 (.cp 3) (-2) 1,
    -- 2127: tmp5 += ints.tmp26 * -1
    .add 97 (.cp 67) (-1) 1,
    -- 2128: tmp5 += ints.tmp2 * -1
    .add 97 (.cp 68) (-1) 1,
    -- 2129: tmp5 += ints.tmp38 * -2
    .add 97 (.cp 69) (-2) 1,
    -- 2130: tmp5 += ints.tmp48 * -1
    .add 97 (.cp 70) (-1) 1,
    -- 2131: tmp5 += ints.tmp4 * -2
    .add 97 (.cp 71) (-2) 1,
    -- 2132: tmp5 += ints.tmp54 * -4
    .add 97 (.cp 72) (-4) 1,
    -- 2133: tmp5 += ints.tmp66 * -1
    .add 97 (.cp 73) (-1) 1,
    -- 2134: tmp5 += ints.tmp78 * -1
    .add 97 (.cp 74) (-1) 1,
    -- 2135: tmp5 += ints.tmp87 * -1
    .add 97 (.cp 75) (-1) 1,
    -- 2136: tmp5 += ints.tmp94 * -2
    .add 97 (.cp 76) (-2) 1,
    -- 2137: tmp2 = np.copy(r2) * 2
    .set 98 (.cp 1) 2 1,
    -- 2138: tmp2 += np.transpose(r2, (1, 0, 2)) * -1
    .add 98 (.tr 1 [1, 0, 2]) (-1) 1,
    -- 2139: r2new = einsum(tmp8, (0, 1, 2, 3), tmp7, (0, 4, 2), (1, 4, 3)) * 2
    .set 99 (.ein [(88, [0, 1, 2, 3]), (89, [0, 4, 2])] [1, 4, 3]) 2 1,
    -- 2140: del tmp8, tmp7
    .del 88,
    .del 89,
    -- 2141: r2new += einsum(r2, (0, 1, 2), tmp9, (1, 3, 4, 2), (0, 3, 4)) * -1
    .add 99 (.ein [(1, [0, 1, 2]), (83, [1, 3, 4, 2])] [0, 3, 4]) (-1) 1,
    -- 2142: r2new += einsum(tmp9, (0, 1, 2, 3), r2, (0, 4, 3), (1, 4, 2)) * -1
    .add 99 (.ein [(83, [0, 1, 2, 3]), (1, [0, 4, 3])] [1, 4, 2]) (-1) 1,
    -- 2143: del tmp9
    .del 83,
    -- 2144: r2new += einsum(tmp12, (0, 1, 2, 3), tmp11, (0, 4, 2), (1, 4, 3)) * -2
    .add 99 (.ein [(81, [0, 1, 2, 3]), (82, [0, 4, 2])] [1, 4, 3]) (-2) 1,
    -- 2145: del tmp12, tmp11
    .del 81,
    .del 82,
    -- 2146: r2new += einsum(r2, (0, 1, 2), tmp13, (0, 1, 3, 4), (3, 4, 2))
    .add 99 (.ein [(1, [0, 1, 2]), (90, [0, 1, 3, 4])] [3, 4, 2]) 1 1,
    -- 2147: del tmp13
    .del 90,
    -- 2148: r2new += einsum(tmp14, (0, 1, 2, 3), r2, (1, 0, 4), (3, 2, 4))
    .add 99 (.ein [(84, [0, 1, 2, 3]), (1, [1, 0, 4])] [3, 2, 4]) 1 1,
    -- 2149: del tmp14
    .del 84,
    -- 2150: r2new += einsum(tmp15, (0, 1, 2, 3), tmp10, (4, 0, 1), (4, 2, 3))
    .add 99 (.ein [(91, [0, 1, 2, 3]), (78, [4, 0, 1])] [4, 2, 3]) 1 1,
    -- 2151: r2new += einsum(tmp15, (0, 1, 2, 3), tmp10, (0, 4, 1), (2, 4, 3))
    .add 99 (.ein [(91, [0, 1, 2, 3]), (78, [0, 4, 1])] [2, 4, 3]) 1 1,
    -- 2152: del tmp10
    .del 78,
    -- 2153: r2new += einsum(tmp17, (0, 1), r2, (2, 3, 0), (2, 3, 1)) * -1
    .add 99 (.ein [(86, [0, 1]), (1, [2, 3, 0])] [2, 3, 1]) (-1) 1,
    -- 2154: del tmp17
    .del 86,
    -- 2155: r2new += einsum(r2, (0, 1, 2), tmp18, (0, 3), (3, 1, 2)) * -2
    .add 99 (.ein [(1, [0, 1, 2]), (85, [0, 3])] [3, 1, 2]) (-2) 1,
    -- 2156: r2new += einsum(r2, (0, 1, 2), tmp18, (1, 3), (0, 3, 2)) * -2
    .add 99 (.ein [(1, [0, 1, 2]), (85, [1, 3])] [0, 3, 2]) (-2) 1,
    -- 2157: del tmp18
    .del 85,
    -- 2158: r2new += einsum(tmp20, (0,), v.ovov, (1, 2, 3, 0), (1, 3, 2)) * -2
    .add 99 (.ein [(87, [0]), (28, [1, 2, 3, 0])] [1, 3, 2]) (-2) 1,
    -- 2159: del tmp20
    .del 87,
    -- 2160: r2new += einsum(tmp15, (0, 1, 2, 3), r1, (0,), (1, 2, 3))
    .add 99 (.ein [(91, [0, 1, 2, 3]), (77, [0])] [1, 2, 3]) 1 1,
    -- 2161: del tmp15
    .del 91,
    -- 2162: r2new += einsum(r1, (0,), tmp16, (1, 2), (1, 0, 2)) * -1
    .add 99 (.ein [(77, [0]), (79, [1, 2])] [1, 0, 2]) (-1) 1,
    -- 2163: del tmp16
    .del 79,
    -- 2164: r1new = einsum(tmp0, (0, 1, 2), tmp1, (0, 1, 3, 2), (3,)) * -2
    .set 100 (.ein [(96, [0, 1, 2]), (93, [0, 1, 3, 2])] [3]) (-2) 1,
    -- 2165: del tmp0, tmp1
    .del 96,
    .del 93,
    -- 2166: r1new += einsum(tmp2, (0, 1, 2), tmp3, (0, 3, 1, 2), (3,)) * -1
    .add 100 (.ein [(98, [0, 1, 2]), (95, [0, 3, 1, 2])] [3]) (-1) 1,
    -- 2167: del tmp3
    .del 95,
    -- 2168: r1new += einsum(tmp4, (0, 1, 2, 3), r2, (0, 2, 3), (1,)) * 2
    .add 100 (.ein [(94, [0, 1, 2, 3]), (1, [0, 2, 3])] [1]) 2 1,
    -- 2169: del tmp4
    .del 94,
    -- 2170: r1new += einsum(tmp5, (0, 1), tmp2, (0, 2, 1), (2,))
    .add 100 (.ein [(97, [0, 1]), (98, [0, 2, 1])] [2]) 1 1,
    -- 2171: del tmp2, tmp5
    .del 98,
    .del 97,
    -- 2172: r1new += einsum(r1, (0,), tmp6, (0, 1), (1,)) * -1
    .add 100 (.ein [(77, [0]), (92, [0, 1])] [1]) (-1) 1,
    -- 2173: del tmp6
    .del 92
  ]
  ret := [(chars! "r1new", 100), (chars! "r2new", 99)]

/-- codegen/RCCSD.py:1562-1684 `hbar_matvec_ea_intermediates`. -/
def hbar_matvec_ea_intermediates : GenFun where
  args := [chars! "t1", chars! "v.ovov", chars! "v.ooov", chars! "t2", chars! "f.ov", chars! "v.ovvv", chars! "f.oo", chars! "v.vvvv", chars! "f.vv", chars! "v.oovv"]
  body := [
    -- 1632: tmp7 = einsum(t1, (0, 1), v.ovov, (2, 3, 0, 1), (2, 3))
    .set 10 (.ein [(0, [0, 1]), (1, [2, 3, 0, 1])] [2, 3]) 1 1,
    -- 1633: tmp6 = einsum(t1, (0, 1), v.ovov, (2, 1, 0, 3), (2, 3))
    .set 11 (.ein [(0, [0, 1]), (1, [2, 1, 0, 3])] [2, 3]) 1 1,
    -- 1634: tmp34 = einsum(t1, (0, 1), v.ooov, (2, 3, 0, 1), (2, 3))
    .set 12 (.ein [(0, [0, 1]), (2, [2, 3, 0, 1])] [2, 3]) 1 1,
    -- 1635: tmp33 = einsum(v.ooov, (0, 1, 2, 3), t1, (1, 3), (0, 2))
    .set 13 (.ein [(2, [0, 1, 2, 3]), (0, [1, 3])] [0, 2]) 1 1,
    -- 1636: tmp67 = einsum(t1, (0, 1), tmp7, (2, 1), (0, 2))
    .set 14 (.ein [(0, [0, 1]), (10, [2, 1])] [0, 2]) 1 1,
    -- 1637: tmp66 = einsum(t1, (0, 1), tmp6, (2, 1), (0, 2))
    .set 15 (.ein [(0, [0, 1]), (11, [2, 1])] [0, 2]) 1 1,
    -- 1638: tmp56 = einsum(t2, (0, 1, 2, 3), v.ovov, (4, 3, 1, 2), (0, 4))
    .set 16 (.ein [(3, [0, 1, 2, 3]), (1, [4, 3, 1, 2])] [0, 4]) 1 1,
    -- 1639: tmp58 = einsum(t2, (0, 1, 2, 3), v.ovov, (4, 2, 1, 3), (0, 4))
    .set 17 (.ein [(3, [0, 1, 2, 3]), (1, [4, 2, 1, 3])] [0, 4]) 1 1,
    -- 1640: tmp60 = einsum(t1, (0, 1), v.ovov, (2, 3, 4, 1), (0, 2, 4, 3))
    .set 18 (.ein [(0, [0, 1]), (1, [2, 3, 4, 1])] [0, 2, 4, 3]) 1 1,
    -- 1641: tmp47 = einsum(t1, (0, 1), f.ov, (2, 1), (2, 0))
    .set 19 (.ein [(0, [0, 1]), (4, [2, 1])] [2, 0]) 1 1,
    -- 1642: tmp5 = einsum(v.ovvv, (0, 1, 2, 3), t1, (0, 3), (1, 2))
    .set 20 (.ein [(5, [0, 1, 2, 3]), (0, [0, 3])] [1, 2]) 1 1,
    -- 1643: tmp3 = einsum(t1, (0, 1), v.ovvv, (0, 1, 2, 3), (2, 3))
    .set 21 (.ein [(0, [0, 1]), (5, [0, 1, 2, 3])] [2, 3]) 1 1,
    -- 1644: tmp109 = einsum(tmp7, (0, 1), t2, (2, 0, 3, 1), (2, 3))
    .set 22 (.ein [(10, [0, 1]), (3, [2, 0, 3, 1])] [2, 3]) 1 1,
    -- 1645: tmp108 = einsum(tmp7, (0, 1), t2, (2, 0, 1, 3), (2, 3))
    .set 23 (.ein [(10, [0, 1]), (3, [2, 0, 1, 3])] [2, 3]) 1 1,
    -- 1646: tmp107 = einsum(tmp6, (0, 1), t2, (2, 0, 3, 1), (2, 3))
    .set 24 (.ein [(11, [0, 1]), (3, [2, 0, 3, 1])] [2, 3]) 1 1,
    -- 1647: tmp106 = einsum(tmp6, (0, 1), t2, (2, 0, 1, 3), (2, 3))
    .set 25 (.ein [(11, [0, 1]), (3, [2, 0, 1, 3])] [2, 3]) 1 1,
    -- 1648: tmp104 = einsum(v.ovov, (0, 1, 2, 3), t2, (4, 2, 5, 3), (4, 0, 5, 1))
    .set 26 (.ein [(1, [0, 1, 2, 3]), (3, [4, 2, 5, 3])] [4, 0, 5, 1]) 1 1,
    -- 1649: tmp103 = einsum(t2, (0, 1, 2, 3), v.ovov, (4, 5, 1, 2), (0, 4, 3, 5))
    .set 27 (.ein [(3, [0, 1, 2, 3]), (1, [4, 5, 1, 2])] [0, 4, 3, 5]) 1 1,
    -- 1650: tmp102 = einsum(t2, (0, 1, 2, 3), v.ovov, (4, 3, 1, 5), (0, 4, 2, 5))
    .set 28 (.ein [(3, [0, 1, 2, 3]), (1, [4, 3, 1, 5])] [0, 4, 2, 5]) 1 1,
    -- 1651: tmp99 = einsum(t2, (0, 1, 2, 3), v.ovvv, (1, 2, 4, 5), (0, 3, 4, 5))
    .set 29 (.ein [(3, [0, 1, 2, 3]), (5, [1, 2, 4, 5])] [0, 3, 4, 5]) 1 1,
    -- 1652: tmp98 = einsum(t2, (0, 1, 2, 3), v.ovvv, (1, 4, 5, 3), (0, 2, 4, 5))
    .set 30 (.ein [(3, [0, 1, 2, 3]), (5, [1, 4, 5, 3])] [0, 2, 4, 5]) 1 1,
    -- 1653: tmp97 = einsum(t2, (0, 1, 2, 3), v.ovvv, (1, 3, 4, 5), (0, 2, 4, 5))
    .set 31 (.ein [(3, [0, 1, 2, 3]), (5, [1, 3, 4, 5])] [0, 2, 4, 5]) 1 1,
    -- 1654: tmp94 = einsum(f.ov, (0, 1), t2, (2, 0, 3, 1), (2, 3))
    .set 32 (.ein [(4, [0, 1]), (3, [2, 0, 3, 1])] [2, 3]) 1 1,
    -- 1655: tmp93 = einsum(f.ov, (0, 1), t2, (2, 0, 1, 3), (2, 3))
    .set 33 (.ein [(4, [0, 1]), (3, [2, 0, 1, 3])] [2, 3]) 1 1,
    -- 1656: tmp91 = einsum(t1, (0, 1), tmp34, (2, 0), (2, 1))
    .set 34 (.ein [(0, [0, 1]), (12, [2, 0])] [2, 1]) 1 1,
    -- 1657: tmp90 = einsum(t1, (0, 1), tmp33, (2, 0), (2, 1))
    .set 35 (.ein [(0, [0, 1]), (13, [2, 0])] [2, 1]) 1 1,
    -- 1658: tmp89 = einsum(t2, (0, 1, 2, 3), v.ooov, (4, 0, 1, 3), (4, 2))
    .set 36 (.ein [(3, [0, 1, 2, 3]), (2, [4, 0, 1, 3])] [4, 2]) 1 1,
    -- 1659: tmp88 = einsum(v.ooov, (0, 1, 2, 3), t2, (2, 1, 4, 3), (0, 4))
    .set 37 (.ein [(2, [0, 1, 2, 3]), (3, [2, 1, 4, 3])] [0, 4]) 1 1,
    -- 1660: tmp83 = einsum(t1, (0, 1), f.oo, (2, 0), (2, 1))
    .set 38 (.ein [(0, [0, 1]), (6, [2, 0])] [2, 1]) 1 1,
    -- 1661: tmp82 = einsum(t1, (0, 1), tmp67, (2, 0), (2, 1))
    .set 39 (.ein [(0, [0, 1]), (14, [2, 0])] [2, 1]) 1 1,
    -- 1662: tmp81 = einsum(t1, (0, 1), tmp66, (2, 0), (2, 1))
    .set 40 (.ein [(0, [0, 1]), (15, [2, 0])] [2, 1]) 1 1,
    -- 1663: tmp76 = einsum(t1, (0, 1), tmp56, (2, 0), (2, 1))
    .set 41 (.ein [(0, [0, 1]), (16, [2, 0])] [2, 1]) 1 1,
    -- 1664: tmp75 = einsum(t1, (0, 1), tmp58, (2, 0), (2, 1))
    .set 42 (.ein [(0, [0, 1]), (17, [2, 0])] [2, 1]) 1 1,
    -- 1665: tmp74 = einsum(tmp60, (0, 1, 2, 3), t2, (1, 2, 4, 3), (0, 4))
    .set 43 (.ein [(18, [0, 1, 2, 3]), (3, [1, 2, 4, 3])] [0, 4]) 1 1,
    -- 1666: tmp73 = einsum(t2, (0, 1, 2, 3), tmp60, (4, 1, 0, 3), (4, 2))
    .set 44 (.ein [(3, [0, 1, 2, 3]), (18, [4, 1, 0, 3])] [4, 2]) 1 1,
    -- 1667: tmp72 = einsum(t1, (0, 1), tmp47, (0, 2), (2, 1))
    .set 45 (.ein [(0, [0, 1]), (19, [0, 2])] [2, 1]) 1 1,
    -- 1668: tmp64 = einsum(t1, (0, 1), tmp5, (1, 2), (0, 2))
    .set 46 (.ein [(0, [0, 1]), (20, [1, 2])] [0, 2]) 1 1,
    -- 1669: tmp63 = einsum(tmp3, (0, 1), t1, (2, 1), (2, 0))
    .set 47 (.ein [(21, [0, 1]), (0, [2, 1])] [2, 0]) 1 1,
    -- 1670: tmp61 = einsum(tmp60, (0, 1, 2, 3), t2, (1, 2, 4, 5), (0, 4, 5, 3))
    .set 48 (.ein [(18, [0, 1, 2, 3]), (3, [1, 2, 4, 5])] [0, 4, 5, 3]) 1 1,
    -- 1671: tmp55 = einsum(t2, (0, 1, 2, 3), v.ovvv, (1, 2, 4, 3), (0, 4))
    .set 49 (.ein [(3, [0, 1, 2, 3]), (5, [1, 2, 4, 3])] [0, 4]) 1 1,
    -- 1672: tmp54 = einsum(t2, (0, 1, 2, 3), v.ovvv, (1, 3, 4, 2), (0, 4))
    .set 50 (.ein [(3, [0, 1, 2, 3]), (5, [1, 3, 4, 2])] [0, 4]) 1 1,
    -- 1673: tmp52 = einsum(t1, (0, 1), v.ovvv, (2, 3, 4, 1), (0, 2, 3, 4))
    .set 51 (.ein [(0, [0, 1]), (5, [2, 3, 4, 1])] [0, 2, 3, 4]) 1 1,
    -- 1674: tmp51 = einsum(t1, (0, 1), v.ovvv, (2, 1, 3, 4), (0, 2, 3, 4))
    .set 52 (.ein [(0, [0, 1]), (5, [2, 1, 3, 4])] [0, 2, 3, 4]) 1 1,
    -- 1675: tmp49 = einsum(v.vvvv, (0, 1, 2, 3), t1, (4, 3), (4, 0, 1, 2))
    .set 53 (.ein [(7, [0, 1, 2, 3]), (0, [4, 3])] [4, 0, 1, 2]) 1 1,
    -- 1676: tmp46 = einsum(t1, (0, 1), f.vv, (2, 1), (0, 2))
    .set 54 (.ein [(0, [0, 1]), (8, [2, 1])] [0, 2]) 1 1,
    -- 1677: tmp36 = einsum(v.ooov, (0, 1, 2, 3), t2, (1, 2, 4, 5), (0, 4, 5, 3))
    .set 55 (.ein [(2, [0, 1, 2, 3]), (3, [1, 2, 4, 5])] [0, 4, 5, 3]) 1 1,
    -- 1678: tmp32 = einsum(t1, (0, 1), v.oovv, (2, 0, 3, 1), (2, 3))
    .set 56 (.ein [(0, [0, 1]), (9, [2, 0, 3, 1])] [2, 3]) 1 1,
    -- 1679: tmp28 = einsum(t2, (0, 1, 2, 3), v.ovov, (4, 2, 1, 5), (0, 4, 3, 5))
    .set 57 (.ein [(3, [0, 1, 2, 3]), (1, [4, 2, 1, 5])] [0, 4, 3, 5]) 1 1,
    -- 1680: tmp25 = einsum(t2, (0, 1, 2, 3), v.ovvv, (1, 4, 5, 2), (0, 3, 4, 5))
    .set 58 (.ein [(3, [0, 1, 2, 3]), (5, [1, 4, 5, 2])] [0, 3, 4, 5]) 1 1,
    -- 1681: tmp16 = einsum(t2, (0, 1, 2, 3), v.ovov, (0, 2, 1, 4), (3, 4))
    .set 59 (.ein [(3, [0, 1, 2, 3]), (1, [0, 2, 1, 4])] [3, 4]) 1 1,
    -- 1682: tmp14 = einsum(t2, (0, 1, 2, 3), v.ovov, (0, 4, 1, 2), (3, 4))
    .set 60 (.ein [(3, [0, 1, 2, 3]), (1, [0, 4, 1, 2])] [3, 4]) 1 1
  ]
  ret := [(chars! "tmp102", 28), (chars! "tmp103", 27), (chars! "tmp104", 26), (chars! "tmp106", 25), (chars! "tmp107", 24), (chars! "tmp108", 23), (chars! "tmp109", 22), (chars! "tmp14", 60), (chars! "tmp16", 59), (chars! "tmp25", 58), (chars! "tmp28", 57), (chars! "tmp3", 21), (chars! "tmp32", 56), (chars! "tmp33", 13), (chars! "tmp34", 12), (chars! "tmp36", 55), (chars! "tmp46", 54), (chars! "tmp47", 19), (chars! "tmp49", 53), (chars! "tmp5", 20), (chars! "tmp51", 52), (chars! "tmp52", 51), (chars! "tmp54", 50), (chars! "tmp55", 49), (chars! "tmp56", 16), (chars! "tmp58", 17), (chars! "tmp6", 11), (chars! "tmp60", 18), (chars! "tmp61", 48), (chars! "tmp63", 47), (chars! "tmp64", 46), (chars! "tmp66", 15), (chars! "tmp67", 14), (chars! "tmp7", 10), (chars! "tmp72", 45), (chars! "tmp73", 44), (chars! "tmp74", 43), (chars! "tmp75", 42), (chars! "tmp76", 41), (chars! "tmp81", 40), (chars! "tmp82", 39), (chars! "tmp83", 38), (chars! "tmp88", 37), (chars! "tmp89", 36), (chars! "tmp90", 35), (chars! "tmp91", 34), (chars! "tmp93", 33), (chars! "tmp94", 32), (chars! "tmp97", 31), (chars! "tmp98", 30), (chars! "tmp99", 29)]

/-- codegen/RCCSD.py:1686-1852 `hbar_matvec_ea`. -/
def hbar_matvec_ea : GenFun where
  args := [chars! "f.ov", chars! "ints.tmp7", chars! "ints.tmp6", chars! "v.ovov", chars! "r2", chars! "t1", chars! "r1", chars! "ints.tmp60", chars! "v.ooov", chars! "ints.tmp104", chars! "ints.tmp52", chars! "ints.tmp102", chars! "ints.tmp103", chars! "v.ovvv", chars! "ints.tmp36", chars! "ints.tmp49", chars! "ints.tmp61", chars! "ints.tmp97", chars! "ints.tmp25", chars! "ints.tmp98", chars! "ints.tmp99", chars! "ints.tmp16", chars! "ints.tmp5", chars! "f.vv", chars! "ints.tmp14", chars! "ints.tmp3", chars! "ints.tmp107", chars! "ints.tmp108", chars! "ints.tmp32", chars! "ints.tmp55", chars! "ints.tmp64", chars! "ints.tmp72", chars! "ints.tmp73", chars! "ints.tmp75", chars! "ints.tmp82", chars! "ints.tmp83", chars! "ints.tmp89", chars! "ints.tmp91", chars! "ints.tmp93", chars! "ints.tmp106", chars! "ints.tmp109", chars! "ints.tmp46", chars! "ints.tmp54", chars! "ints.tmp63", chars! "ints.tmp74", chars! "ints.tmp76", chars! "ints.tmp81", chars! "ints.tmp88", chars! "ints.tmp90", chars! "ints.tmp94", chars! "f.oo", chars! "ints.tmp34", chars! "ints.tmp47", chars! "ints.tmp58", chars! "ints.tmp67", chars! "ints.tmp33", chars! "ints.tmp56", chars! "ints.tmp66", chars! "ints.tmp51", chars! "v.oovv", chars! "ints.tmp28", chars! "v.vvvv", chars! "t2"]
  body := [
    -- 1714: tmp1 = np.copy(f.ov) * 0.5
    .set 63 (.cp 0) 1 2,
    -- 1715: tmp1 += ints.tmp7
    .add 63 (.cp 1) 1 1,
    -- 1716: tmp1 += ints.tmp6 * -0.5
    .add 63 (.cp 2) (-1) 2,
    -- 1717: tmp4 = np.copy(np.transpose(v.ovov, (0, 2, 3, 1))) * 2
    .set 64 (.tr 3 [0, 2, 3, 1]) 2 1,
    -- 1718: tmp4 += np.transpose(v.ovov, (0, 2, 1, 3)) * -1
    .add 64 (.tr 3 [0, 2, 1, 3]) (-1) 1,
    -- 1719: tmp6 = np.copy(f.ov)
    .set 65 (.cp 0) 1 1,
    -- 1720: tmp6 += ints.tmp7 * 2
    .add 65 (.cp 1) 2 1,
    -- 1721: tmp6 += ints.tmp6 * -1
    .add 65 (.cp 2) (-1) 1,
    -- 1722: tmp12 = np.copy(np.transpose(r2, (2, 0, 1)))
    .set 66 (.tr 4 [2, 0, 1]) 1 1,
    -- 1723: tmp12 += einsum(t1, (0, 1), r1, (2,), (0, 1, 2)) * -1
    .add 66 (.ein [(5, [0, 1]), (6, [2])] [0, 1, 2]) (-1) 1,
    -- 1724: tmp9 = einsum(r2, (0, 1, 2), v.ovov, (3, 0, 4, 1), (2, 3, 4))
    .set 67 (.ein [(4, [0, 1, 2]), (3, [3, 0, 4, 1])] [2, 3, 4]) 1 1,
    -- 1725: tmp20 = np.copy(ints.tmp60)
    .set 68 (.cp 7) 1 1,
    -- 1726: tmp20 += np.transpose(v.ooov, (0, 2, 1, 3))
    .add 68 (.tr 8 [0, 2, 1, 3]) 1 1,
    -- 1727: tmp16 = einsum(t1, (0, 1), tmp1, (0, 2), (1, 2)) * 2
    .set 69 (.ein [(5, [0, 1]), (63, [0, 2])] [1, 2]) 2 1,
    -- 1728: tmp5 = einsum(r2, (0, 1, 2), tmp4, (2, 3, 1, 0), (3,))
    .set 70 (.ein [(4, [0, 1, 2]), (64, [2, 3, 1, 0])] [3]) 1 1,
    -- 1729: del tmp4
    .del 64,
    -- 1730: tmp7 = einsum(tmp6, (0, 1), r1, (1,), (0,))
    .set 71 (.ein [(65, [0, 1]), (6, [1])] [0]) 1 1,
    -- 1731: del tmp6
    .del 65,
    -- 1732: tmp14 = np.copy(ints.tmp60) * -0.5
    .set 72 (.cp 7) (-1) 2,
    -- 1733: tmp14 += np.transpose(ints.tmp60, (0, 2, 1, 3))
    .add 72 (.tr 7 [0, 2, 1, 3]) 1 1,
    -- 1734: tmp14 += v.ooov
    .add 72 (.cp 8) 1 1,
    -- 1735: tmp14 += np.transpose(v.ooov, (0, 2, 1, 3)) * -0.5
    .add 72 (.tr 8 [0, 2, 1, 3]) (-1) 2,
    -- 1736: tmp11 = np.copy(ints.tmp104) * 2
    .set 73 (.cp 9) 2 1,
    -- 1737: tmp11 += np.transpose(ints.tmp52, (0, 1, 3, 2))
    .add 73 (.tr 10 [0, 1, 3, 2]) 1 1,
    -- 1738: tmp11 += np.transpose(v.ovov, (0, 2, 1, 3))
    .add 73 (.tr 3 [0, 2, 1, 3]) 1 1,
    -- 1739: tmp11 += ints.tmp102 * -1
    .add 73 (.cp 11) (-1) 1,
    -- 1740: tmp11 += ints.tmp103 * -1
    .add 73 (.cp 12) (-1) 1,
    -- 1741: tmp21 = einsum(v.ovvv, (0, 1, 2, 3), r2, (1, 3, 4), (4, 0, 2)) * -1
    .set 74 (.ein [(13, [0, 1, 2, 3]), (4, [1, 3, 4])] [4, 0, 2]) (-1) 1,
    -- 1742: tmp21 += einsum(t1, (0, 1), tmp9, (2, 3, 0), (2, 3, 1))
    .add 74 (.ein [(5, [0, 1]), (67, [2, 3, 0])] [2, 3, 1]) 1 1,
    -- 1743: tmp21 += einsum(tmp20, (0, 1, 2, 3), tmp12, (1, 4, 3), (0, 2, 4))
    .add 74 (.ein [(68, [0, 1, 2, 3]), (66, [1, 4, 3])] [0, 2, 4]) 1 1,
    -- 1744: tmp10 = einsum(t1, (0, 1), r1, (2,), (0, 2, 1)) * 0.5
    .set 75 (.ein [(5, [0, 1]), (6, [2])] [0, 2, 1]) 1 2,
    -- 1745: tmp10 += np.transpose(r2, (2, 0, 1))
    .add 75 (.tr 4 [2, 0, 1]) 1 1,
    -- 1746: tmp10 += np.transpose(r2, (2, 1, 0)) * -0.5
    .add 75 (.tr 4 [2, 1, 0]) (-1) 2,
    -- 1747: tmp18 = np.copy(np.transpose(ints.tmp36, (0, 2, 3, 1)))
    .set 76 (.tr 14 [0, 2, 3, 1]) 1 1,
    -- 1748: tmp18 += ints.tmp49
    .add 76 (.cp 15) 1 1,
    -- 1749: tmp18 += np.transpose(ints.tmp61, (0, 1, 3, 2))
    .add 76 (.tr 16 [0, 1, 3, 2]) 1 1,
    -- 1750: tmp18 += np.transpose(ints.tmp97, (0, 2, 3, 1)) * 2
    .add 76 (.tr 17 [0, 2, 3, 1]) 2 1,
    -- 1751: tmp18 += np.transpose(v.ovvv, (0, 2, 3, 1))
    .add 76 (.tr 13 [0, 2, 3, 1]) 1 1,
    -- 1752: tmp18 += ints.tmp25 * -1
    .add 76 (.cp 18) (-1) 1,
    -- 1753: tmp18 += np.transpose(ints.tmp98, (0, 3, 2, 1)) * -1
    .add 76 (.tr 19 [0, 3, 2, 1]) (-1) 1,
    -- 1754: tmp18 += np.transpose(ints.tmp99, (0, 2, 3, 1)) * -1
    .add 76 (.tr 20 [0, 2, 3, 1]) (-1) 1,
    -- 1755: tmp17 = np.copy(np.transpose(ints.tmp16, (1, 0))) * 2
    .set 77 (.tr 21 [1, 0]) 2 1,
    -- 1756: tmp17 += ints.tmp5
    .add 77 (.cp 22) 1 1,
    -- 1757: tmp17 += f.vv * -1
    .add 77 (.cp 23) (-1) 1,
    -- 1758: tmp17 += np.transpose(ints.tmp14, (1, 0)) * -1
    .add 77 (.tr 24 [1, 0]) (-1) 1,
    -- 1759: tmp17 += np.transpose(ints.tmp3, (1, 0)) * -2
    .add 77 (.tr 25 [1, 0]) (-2) 1,
    -- 1760: tmp17 += np.transpose(tmp16, (1, 0))
    .add 77 (.tr 69 [1, 0]) 1 1,
    -- 1761: del tmp16
    .del 69,
    -- 1762: tmp8 = np.copy(tmp5) * -1
    .set 78 (.cp 70) (-1) 1,
    -- 1763: del tmp5
    .del 70,
    -- 1764: tmp8 += tmp7
    .add 78 (.cp 71) 1 1,
    -- 1765: del tmp7
    .del 71,
    -- 1766: tmp23 = np.copy(ints.tmp107) * 2
    .set 79 (.cp 26) 2 1,
    -- 1767: tmp23 += ints.tmp108 * 2
    .add 79 (.cp 27) 2 1,
    -- 1768: tmp23 += ints.tmp32
    .add 79 (.cp 28) 1 1,
    -- 1769: tmp23 += ints.tmp55
    .add 79 (.cp 29) 1 1,
    -- 1770: tmp23 += ints.tmp64
    .add 79 (.cp 30) 1 1,
    -- 1771: tmp23 += ints.tmp72
    .add 79 (.cp 31) 1 1,
    -- 1772: tmp23 += ints.tmp73 * 2
    .add 79 (.cp 32) 2 1,
    -- 1773: tmp23 += ints.tmp75 * 2
    .add 79 (.cp 33) 2 1,
    -- 1774: tmp23 += ints.tmp82 * 2
    .add 79 (.cp 34) 2 1,
    -- 1775: tmp23 += ints.tmp83
    .add 79 (.cp 35) 1 1,
    -- 1776: tmp23 += ints.tmp89 * 2
    .add 79 (.cp 36) 2 1,
    -- 1777: tmp23 += ints.tmp91 * 2
    .add 79 (.cp 37) 2 1,
    -- 1778: tmp23 += ints.tmp93
    .add 79 (.cp 38) 1 1,
    -- 1779: tmp23 += f.ov * -1
    .add 79 (.cp 0) (-1) 1,
    -- 1780: tmp23 += ints.tmp106 * -1
    .add 79 (.cp 39) (-1) 1,
    -- 1781: tmp23 += ints.tmp109 * -4
    .add 79 (.cp 40) (-4) 1,
    -- 1782: tmp23 += ints.tmp46 * -1
    .add 79 (.cp 41) (-1) 1,
    -- 1783: tmp23 += ints.tmp54 * -2
    .add 79 (.cp 42) (-2) 1,
    -- 1784: tmp23 += ints.tmp63 * -2
    .add 79 (.cp 43) (-2) 1,
    -- 1785: tmp23 += ints.tmp74 * -1
    .add 79 (.cp 44) (-1) 1,
    -- 1786: tmp23 += ints.tmp76 * -1
    .add 79 (.cp 45) (-1) 1,
    -- 1787: tmp23 += ints.tmp7 * -2
    .add 79 (.cp 1) (-2) 1,
    -- 1788: tmp23 += ints.tmp81 * -1
    .add 79 (.cp 46) (-1) 1,
    -- 1789: tmp23 += ints.tmp88 * -1
    .add 79 (.cp 47) (-1) 1,
    -- 1790: tmp23 += ints.tmp90 * -1
    .add 79 (.cp 48) (-1) 1,
    -- 1791: tmp23 += ints.tmp94 * -2
    .add 79 (.cp 49) (-2) 1,
    -- 1792: tmp19 = np.copy(f.oo)
    .set 80 (.cp 50) 1 1,
    -- 1793: tmp19 += np.transpose(ints.tmp34, (1, 0)) * 2
    .add 80 (.tr 51 [1, 0]) 2 1,
    -- 1794: tmp19 += ints.tmp47
    .add 80 (.cp 52) 1 1,
    -- 1795: tmp19 += np.transpose(ints.tmp58, (1, 0)) * 2
    .add 80 (.tr 53 [1, 0]) 2 1,
    -- 1796: tmp19 += np.transpose(ints.tmp67, (1, 0)) * 2
    .add 80 (.tr 54 [1, 0]) 2 1,
    -- 1797: tmp19 += np.transpose(ints.tmp33, (1, 0)) * -1
    .add 80 (.tr 55 [1, 0]) (-1) 1,
    -- 1798: tmp19 += np.transpose(ints.tmp56, (1, 0)) * -1
    .add 80 (.tr 56 [1, 0]) (-1) 1,
    -- 1799: tmp19 += np.transpose(ints.tmp66, (1, 0)) * -1
    .add 80 (.tr 57 [1, 0]) (-1) 1,
    -- 1800: tmp13 = np.copy(ints.tmp51)
    .set 81 (.cp 58) 1 1,
    -- 1801: tmp13 += v.oovv
    .add 81 (.cp 59) 1 1,
    -- 1802: tmp13 += ints.tmp28 * -1
    .add 81 (.cp 60) (-1) 1,
    -- 1803: tmp22 = einsum(v.ovvv, (0, 1, 2, 3), r2, (3, 1, 4), (4, 0, 2)) * -1
    .set 82 (.ein [(13, [0, 1, 2, 3]), (4, [3, 1, 4])] [4, 0, 2]) (-1) 1,
    -- 1804: tmp22 += einsum(r2, (0, 1, 2), tmp20, (3, 4, 2, 1), (3, 4, 0))
    .add 82 (.ein [(4, [0, 1, 2]), (68, [3, 4, 2, 1])] [3, 4, 0]) 1 1,
    -- 1805: del tmp20
    .del 68,
    -- 1806: tmp15 = np.copy(ints.tmp51)
    .set 83 (.cp 58) 1 1,
    -- 1807: tmp15 += v.oovv
    .add 83 (.cp 59) 1 1,
    -- 1808: tmp15 += ints.tmp28 * -1
    .add 83 (.cp 60) (-1) 1,
    -- 1809: tmp15 += einsum(t1, (0, 1), tmp14, (2, 0, 3, 4), (2, 3, 1, 4)) * 2
    .add 83 (.ein [(5, [0, 1]), (72, [2, 0, 3, 4])] [2, 3, 1, 4]) 2 1,
    -- 1810: del tmp14
    .del 72,
    -- 1811: tmp3 = np.copy(f.vv)
    .set 84 (.cp 23) 1 1,
    -- 1812: tmp3 += np.transpose(ints.tmp14, (1, 0))
    .add 84 (.tr 24 [1, 0]) 1 1,
    -- 1813: tmp3 += np.transpose(ints.tmp3, (1, 0)) * 2
    .add 84 (.tr 25 [1, 0]) 2 1,
    -- 1814: tmp3 += np.transpose(ints.tmp16, (1, 0)) * -2
    .add 84 (.tr 21 [1, 0]) (-2) 1,
    -- 1815: tmp3 += ints.tmp5 * -1
    .add 84 (.cp 22) (-1) 1,
    -- 1816: tmp0 = np.copy(v.ovvv) * 2
    .set 85 (.cp 13) 2 1,
    -- 1817: tmp0 += np.transpose(v.ovvv, (0, 2, 1, 3)) * -1
    .add 85 (.tr 13 [0, 2, 1, 3]) (-1) 1,
    -- 1818: tmp2 = np.copy(np.transpose(r2, (2, 0, 1))) * -1
    .set 86 (.tr 4 [2, 0, 1]) (-1) 1,
    -- 1819: tmp2 += np.transpose(r2, (2, 1, 0)) * 2
    .add 86 (.tr 4 [2, 1, 0]) 2 1,
    -- 1820: r2new = einsum(r2, (0, 1, 2), v.vvvv, (3, 0, 4, 1), (3, 4, 2))
    .set 87 (.ein [(4, [0, 1, 2]), (61, [3, 0, 4, 1])] [3, 4, 2]) 1 1,
    -- 1821: r2new += einsum(t2, (0, 1, 2, 3), tmp9, (4, 0, 1), (2, 3, 4))
    .add 87 (.ein [(62, [0, 1, 2, 3]), (67, [4, 0, 1])] [2, 3, 4]) 1 1,
    -- 1822: del tmp9
    .del 67,
    -- 1823: r2new += einsum(tmp11, (0, 1, 2, 3), tmp10, (1, 3, 4), (2, 4, 0)) * 2
    .add 87 (.ein [(73, [0, 1, 2, 3]), (75, [1, 3, 4])] [2, 4, 0]) 2 1,
    -- 1824: del tmp11, tmp10
    .del 73,
    .del 75,
    -- 1825: r2new += einsum(tmp12, (0, 1, 2), tmp13, (3, 0, 4, 2), (1, 4, 3)) * -1
    .add 87 (.ein [(66, [0, 1, 2]), (81, [3, 0, 4, 2])] [1, 4, 3]) (-1) 1,
    -- 1826: del tmp12, tmp13
    .del 66,
    .del 81,
    -- 1827: r2new += einsum(tmp15, (0, 1, 2, 3), r2, (3, 4, 1), (2, 4, 0)) * -1
    .add 87 (.ein [(83, [0, 1, 2, 3]), (4, [3, 4, 1])] [2, 4, 0]) (-1) 1,
    -- 1828: del tmp15
    .del 83,
    -- 1829: r2new += einsum(tmp17, (0, 1), r2, (0, 2, 3), (1, 2, 3)) * -1
    .add 87 (.ein [(77, [0, 1]), (4, [0, 2, 3])] [1, 2, 3]) (-1) 1,
    -- 1830: r2new += einsum(tmp17, (0, 1), r2, (2, 0, 3), (2, 1, 3)) * -1
    .add 87 (.ein [(77, [0, 1]), (4, [2, 0, 3])] [2, 1, 3]) (-1) 1,
    -- 1831: del tmp17
    .del 77,
    -- 1832: r2new += einsum(tmp18, (0, 1, 2, 3), r1, (2,), (3, 1, 0)) * -1
    .add 87 (.ein [(76, [0, 1, 2, 3]), (6, [2])] [3, 1, 0]) (-1) 1,
    -- 1833: del tmp18
    .del 76,
    -- 1834: r2new += einsum(tmp19, (0, 1), r2, (2, 3, 0), (2, 3, 1)) * -1
    .add 87 (.ein [(80, [0, 1]), (4, [2, 3, 0])] [2, 3, 1]) (-1) 1,
    -- 1835: del tmp19
    .del 80,
    -- 1836: r2new += einsum(t1, (0, 1), tmp21, (2, 0, 3), (1, 3, 2))
    .add 87 (.ein [(5, [0, 1]), (74, [2, 0, 3])] [1, 3, 2]) 1 1,
    -- 1837: del tmp21
    .del 74,
    -- 1838: r2new += einsum(tmp8, (0,), t2, (1, 0, 2, 3), (2, 3, 1))
    .add 87 (.ein [(78, [0]), (62, [1, 0, 2, 3])] [2, 3, 1]) 1 1,
    -- 1839: r2new += einsum(t1, (0, 1), tmp22, (2, 0, 3), (3, 1, 2))
    .add 87 (.ein [(5, [0, 1]), (82, [2, 0, 3])] [3, 1, 2]) 1 1,
    -- 1840: del tmp22
    .del 82,
    -- 1841: r2new += einsum(tmp23, (0, 1), r1, (2,), (1, 2, 0))
    .add 87 (.ein [(79, [0, 1]), (6, [2])] [1, 2, 0]) 1 1,
    -- 1842: del tmp23
    .del 79,
    -- 1843: r1new = einsum(r2, (0, 1, 2), tmp0, (2, 0, 1, 3), (3,)) * -1
    .set 88 (.ein [(4, [0, 1, 2]), (85, [2, 0, 1, 3])] [3]) (-1) 1,
    -- 1844: del tmp0
    .del 85,
    -- 1845: r1new += einsum(tmp2, (0, 1, 2), tmp1, (0, 2), (1,)) * -2
    .add 88 (.ein [(86, [0, 1, 2]), (63, [0, 2])] [1]) (-2) 1,
    -- 1846: del tmp1, tmp2
    .del 63,
    .del 86,
    -- 1847: r1new += einsum(tmp3, (0, 1), r1, (0,), (1,))
    .add 88 (.ein [(84, [0, 1]), (6, [0])] [1]) 1 1,
    -- 1848: del tmp3
    .del 84,
    -- 1849: r1new += einsum(t1, (0, 1), tmp8, (0,), (1,)) * -1
    .add 88 (.ein [(5, [0, 1]), (78, [0])] [1]) (-1) 1,
    -- 1850: del tmp8
    .del 78
  ]
  ret := [(chars! "r1new", 88), (chars! "r2new", 87)]

/-- codegen/RCCSD.py:2177-2299 `hbar_lmatvec_ea_intermediates`. -/
def hbar_lmatvec_ea_intermediates : GenFun where
  args := [chars! "t1", chars! "v.ovov", chars! "v.ovvv", chars! "v.ooov", chars! "t2", chars! "f.ov", chars! "v.vvvv", chars! "v.oovv", chars! "f.vv", chars! "f.oo"]
  body := [
    -- 2247: tmp17 = einsum(t1, (0, 1), v.ovov, (2, 3, 0, 1), (2, 3))
    .set 10 (.ein [(0, [0, 1]), (1, [2, 3, 0, 1])] [2, 3]) 1 1,
    -- 2248: tmp55 = einsum(t1, (0, 1), v.ovov, (2, 1, 0, 3), (2, 3))
    .set 11 (.ein [(0, [0, 1]), (1, [2, 1, 0, 3])] [2, 3]) 1 1,
    -- 2249: tmp112 = einsum(t1, (0, 1), tmp17, (2, 1), (0, 2))
    .set 12 (.ein [(0, [0, 1]), (10, [2, 1])] [0, 2]) 1 1,
    -- 2250: tmp110 = einsum(tmp55, (0, 1), t1, (2, 1), (2, 0))
    .set 13 (.ein [(11, [0, 1]), (0, [2, 1])] [2, 0]) 1 1,
    -- 2251: tmp16 = einsum(t1, (0, 1), v.ovvv, (0, 2, 3, 1), (2, 3))
    .set 14 (.ein [(0, [0, 1]), (2, [0, 2, 3, 1])] [2, 3]) 1 1,
    -- 2252: tmp14 = einsum(t1, (0, 1), v.ovvv, (0, 1, 2, 3), (2, 3))
    .set 15 (.ein [(0, [0, 1]), (2, [0, 1, 2, 3])] [2, 3]) 1 1,
    -- 2253: tmp97 = einsum(t1, (0, 1), v.ooov, (2, 3, 0, 1), (2, 3))
    .set 16 (.ein [(0, [0, 1]), (3, [2, 3, 0, 1])] [2, 3]) 1 1,
    -- 2254: tmp95 = einsum(t1, (0, 1), v.ooov, (2, 0, 3, 1), (2, 3))
    .set 17 (.ein [(0, [0, 1]), (3, [2, 0, 3, 1])] [2, 3]) 1 1,
    -- 2255: tmp83 = einsum(v.ovov, (0, 1, 2, 3), t2, (4, 2, 3, 1), (4, 0))
    .set 18 (.ein [(1, [0, 1, 2, 3]), (4, [4, 2, 3, 1])] [4, 0]) 1 1,
    -- 2256: tmp79 = einsum(v.ovov, (0, 1, 2, 3), t2, (4, 2, 1, 3), (4, 0))
    .set 19 (.ein [(1, [0, 1, 2, 3]), (4, [4, 2, 1, 3])] [4, 0]) 1 1,
    -- 2257: tmp69 = einsum(t1, (0, 1), v.ovov, (2, 3, 4, 1), (0, 2, 4, 3))
    .set 20 (.ein [(0, [0, 1]), (1, [2, 3, 4, 1])] [0, 2, 4, 3]) 1 1,
    -- 2258: tmp10 = einsum(t1, (0, 1), f.ov, (2, 1), (2, 0))
    .set 21 (.ein [(0, [0, 1]), (5, [2, 1])] [2, 0]) 1 1,
    -- 2259: tmp113 = einsum(t1, (0, 1), tmp112, (2, 0), (2, 1))
    .set 22 (.ein [(0, [0, 1]), (12, [2, 0])] [2, 1]) 1 1,
    -- 2260: tmp111 = einsum(t1, (0, 1), tmp110, (2, 0), (2, 1))
    .set 23 (.ein [(0, [0, 1]), (13, [2, 0])] [2, 1]) 1 1,
    -- 2261: tmp109 = einsum(t1, (0, 1), v.ovvv, (2, 3, 4, 1), (0, 2, 3, 4))
    .set 24 (.ein [(0, [0, 1]), (2, [2, 3, 4, 1])] [0, 2, 3, 4]) 1 1,
    -- 2262: tmp107 = einsum(t1, (0, 1), v.ovvv, (2, 1, 3, 4), (0, 2, 3, 4))
    .set 25 (.ein [(0, [0, 1]), (2, [2, 1, 3, 4])] [0, 2, 3, 4]) 1 1,
    -- 2263: tmp106 = einsum(t1, (0, 1), tmp16, (1, 2), (0, 2))
    .set 26 (.ein [(0, [0, 1]), (14, [1, 2])] [0, 2]) 1 1,
    -- 2264: tmp103 = einsum(t1, (0, 1), tmp14, (2, 1), (0, 2))
    .set 27 (.ein [(0, [0, 1]), (15, [2, 1])] [0, 2]) 1 1,
    -- 2265: tmp98 = einsum(t1, (0, 1), tmp97, (2, 0), (2, 1))
    .set 28 (.ein [(0, [0, 1]), (16, [2, 0])] [2, 1]) 1 1,
    -- 2266: tmp96 = einsum(t1, (0, 1), tmp95, (2, 0), (2, 1))
    .set 29 (.ein [(0, [0, 1]), (17, [2, 0])] [2, 1]) 1 1,
    -- 2267: tmp92 = einsum(t2, (0, 1, 2, 3), v.ovov, (4, 3, 1, 5), (0, 4, 2, 5))
    .set 30 (.ein [(4, [0, 1, 2, 3]), (1, [4, 3, 1, 5])] [0, 4, 2, 5]) 1 1,
    -- 2268: tmp90 = einsum(t2, (0, 1, 2, 3), v.ovov, (4, 2, 1, 5), (0, 4, 3, 5))
    .set 31 (.ein [(4, [0, 1, 2, 3]), (1, [4, 2, 1, 5])] [0, 4, 3, 5]) 1 1,
    -- 2269: tmp88 = einsum(v.ovov, (0, 1, 2, 3), t2, (4, 2, 5, 3), (4, 0, 5, 1))
    .set 32 (.ein [(1, [0, 1, 2, 3]), (4, [4, 2, 5, 3])] [4, 0, 5, 1]) 1 1,
    -- 2270: tmp87 = einsum(v.ovov, (0, 1, 2, 3), t2, (4, 2, 3, 5), (4, 0, 5, 1))
    .set 33 (.ein [(1, [0, 1, 2, 3]), (4, [4, 2, 3, 5])] [4, 0, 5, 1]) 1 1,
    -- 2271: tmp84 = einsum(t1, (0, 1), tmp83, (2, 0), (2, 1))
    .set 34 (.ein [(0, [0, 1]), (18, [2, 0])] [2, 1]) 1 1,
    -- 2272: tmp80 = einsum(t1, (0, 1), tmp79, (2, 0), (2, 1))
    .set 35 (.ein [(0, [0, 1]), (19, [2, 0])] [2, 1]) 1 1,
    -- 2273: tmp76 = einsum(tmp69, (0, 1, 2, 3), t2, (1, 2, 4, 5), (0, 4, 5, 3))
    .set 36 (.ein [(20, [0, 1, 2, 3]), (4, [1, 2, 4, 5])] [0, 4, 5, 3]) 1 1,
    -- 2274: tmp73 = einsum(t2, (0, 1, 2, 3), tmp69, (4, 0, 1, 3), (4, 2))
    .set 37 (.ein [(4, [0, 1, 2, 3]), (20, [4, 0, 1, 3])] [4, 2]) 1 1,
    -- 2275: tmp70 = einsum(t2, (0, 1, 2, 3), tmp69, (4, 1, 0, 3), (4, 2))
    .set 38 (.ein [(4, [0, 1, 2, 3]), (20, [4, 1, 0, 3])] [4, 2]) 1 1,
    -- 2276: tmp62 = einsum(tmp17, (0, 1), t2, (2, 0, 3, 1), (2, 3))
    .set 39 (.ein [(10, [0, 1]), (4, [2, 0, 3, 1])] [2, 3]) 1 1,
    -- 2277: tmp59 = einsum(tmp17, (0, 1), t2, (2, 0, 1, 3), (2, 3))
    .set 40 (.ein [(10, [0, 1]), (4, [2, 0, 1, 3])] [2, 3]) 1 1,
    -- 2278: tmp57 = einsum(tmp55, (0, 1), t2, (2, 0, 3, 1), (2, 3))
    .set 41 (.ein [(11, [0, 1]), (4, [2, 0, 3, 1])] [2, 3]) 1 1,
    -- 2279: tmp56 = einsum(tmp55, (0, 1), t2, (2, 0, 1, 3), (2, 3))
    .set 42 (.ein [(11, [0, 1]), (4, [2, 0, 1, 3])] [2, 3]) 1 1,
    -- 2280: tmp53 = einsum(v.ovvv, (0, 1, 2, 3), t2, (4, 0, 5, 3), (4, 5, 1, 2))
    .set 43 (.ein [(2, [0, 1, 2, 3]), (4, [4, 0, 5, 3])] [4, 5, 1, 2]) 1 1,
    -- 2281: tmp51 = einsum(v.ovvv, (0, 1, 2, 3), t2, (4, 0, 3, 5), (4, 5, 1, 2))
    .set 44 (.ein [(2, [0, 1, 2, 3]), (4, [4, 0, 3, 5])] [4, 5, 1, 2]) 1 1,
    -- 2282: tmp48 = einsum(t2, (0, 1, 2, 3), v.ovvv, (1, 3, 4, 5), (0, 2, 4, 5))
    .set 45 (.ein [(4, [0, 1, 2, 3]), (2, [1, 3, 4, 5])] [0, 2, 4, 5]) 1 1,
    -- 2283: tmp46 = einsum(t2, (0, 1, 2, 3), v.ovvv, (1, 2, 4, 5), (0, 3, 4, 5))
    .set 46 (.ein [(4, [0, 1, 2, 3]), (2, [1, 2, 4, 5])] [0, 3, 4, 5]) 1 1,
    -- 2284: tmp43 = einsum(t2, (0, 1, 2, 3), v.ovvv, (1, 2, 4, 3), (0, 4))
    .set 47 (.ein [(4, [0, 1, 2, 3]), (2, [1, 2, 4, 3])] [0, 4]) 1 1,
    -- 2285: tmp40 = einsum(t2, (0, 1, 2, 3), v.ovvv, (1, 3, 4, 2), (0, 4))
    .set 48 (.ein [(4, [0, 1, 2, 3]), (2, [1, 3, 4, 2])] [0, 4]) 1 1,
    -- 2286: tmp37 = einsum(t2, (0, 1, 2, 3), v.ooov, (4, 0, 1, 5), (4, 2, 3, 5))
    .set 49 (.ein [(4, [0, 1, 2, 3]), (3, [4, 0, 1, 5])] [4, 2, 3, 5]) 1 1,
    -- 2287: tmp34 = einsum(t2, (0, 1, 2, 3), v.ooov, (4, 0, 1, 3), (4, 2))
    .set 50 (.ein [(4, [0, 1, 2, 3]), (3, [4, 0, 1, 3])] [4, 2]) 1 1,
    -- 2288: tmp31 = einsum(t2, (0, 1, 2, 3), v.ooov, (4, 0, 1, 2), (4, 3))
    .set 51 (.ein [(4, [0, 1, 2, 3]), (3, [4, 0, 1, 2])] [4, 3]) 1 1,
    -- 2289: tmp29 = einsum(t2, (0, 1, 2, 3), v.ovov, (0, 2, 1, 4), (3, 4))
    .set 52 (.ein [(4, [0, 1, 2, 3]), (1, [0, 2, 1, 4])] [3, 4]) 1 1,
    -- 2290: tmp27 = einsum(v.ovov, (0, 1, 2, 3), t2, (0, 2, 4, 1), (4, 3))
    .set 53 (.ein [(1, [0, 1, 2, 3]), (4, [0, 2, 4, 1])] [4, 3]) 1 1,
    -- 2291: tmp24 = einsum(v.vvvv, (0, 1, 2, 3), t1, (4, 3), (4, 0, 1, 2))
    .set 54 (.ein [(6, [0, 1, 2, 3]), (0, [4, 3])] [4, 0, 1, 2]) 1 1,
    -- 2292: tmp19 = einsum(t1, (0, 1), v.oovv, (2, 0, 3, 1), (2, 3))
    .set 55 (.ein [(0, [0, 1]), (7, [2, 0, 3, 1])] [2, 3]) 1 1,
    -- 2293: tmp11 = einsum(t1, (0, 1), tmp10, (0, 2), (2, 1))
    .set 56 (.ein [(0, [0, 1]), (21, [0, 2])] [2, 1]) 1 1,
    -- 2294: tmp4 = einsum(f.ov, (0, 1), t2, (2, 0, 3, 1), (2, 3))
    .set 57 (.ein [(5, [0, 1]), (4, [2, 0, 3, 1])] [2, 3]) 1 1,
    -- 2295: tmp3 = einsum(f.ov, (0, 1), t2, (2, 0, 1, 3), (2, 3))
    .set 58 (.ein [(5, [0, 1]), (4, [2, 0, 1, 3])] [2, 3]) 1 1,
    -- 2296: tmp2 = einsum(t1, (0, 1), f.vv, (2, 1), (0, 2))
    .set 59 (.ein [(0, [0, 1]), (8, [2, 1])] [0, 2]) 1 1,
    -- 2297: tmp1 = einsum(t1, (0, 1), f.oo, (2, 0), (2, 1))
    .set 60 (.ein [(0, [0, 1]), (9, [2, 0])] [2, 1]) 1 1
  ]
  ret := [(chars! "tmp1", 60), (chars! "tmp10", 21), (chars! "tmp103", 27), (chars! "tmp106", 26), (chars! "tmp107", 25), (chars! "tmp109", 24), (chars! "tmp11", 56), (chars! "tmp110", 13), (chars! "tmp111", 23), (chars! "tmp112", 12), (chars! "tmp113", 22), (chars! "tmp14", 15), (chars! "tmp16", 14), (chars! "tmp17", 10), (chars! "tmp19", 55), (chars! "tmp2", 59), (chars! "tmp24", 54), (chars! "tmp27", 53), (chars! "tmp29", 52), (chars! "tmp3", 58), (chars! "tmp31", 51), (chars! "tmp34", 50), (chars! "tmp37", 49), (chars! "tmp4", 57), (chars! "tmp40", 48), (chars! "tmp43", 47), (chars! "tmp46", 46), (chars! "tmp48", 45), (chars! "tmp51", 44), (chars! "tmp53", 43), (chars! "tmp55", 11), (chars! "tmp56", 42), (chars! "tmp57", 41), (chars! "tmp59", 40), (chars! "tmp62", 39), (chars! "tmp69", 20), (chars! "tmp70", 38), (chars! "tmp73", 37), (chars! "tmp76", 36), (chars! "tmp79", 19), (chars! "tmp80", 35), (chars! "tmp83", 18), (chars! "tmp84", 34), (chars! "tmp87", 33), (chars! "tmp88", 32), (chars! "tmp90", 31), (chars! "tmp92", 30), (chars! "tmp95", 17), (chars! "tmp96", 29), (chars! "tmp97", 16), (chars! "tmp98", 28)]

/-- codegen/RCCSD.py:2301-2485 `hbar_lmatvec_ea`. -/
def hbar_lmatvec_ea : GenFun where
  args := [chars! "t2", chars! "f.ov", chars! "ints.tmp17", chars! "ints.tmp55", chars! "ints.tmp69", chars! "v.ooov", chars! "t1", chars! "r2", chars! "r1", chars! "ints.tmp87", chars! "ints.tmp92", chars! "ints.tmp109", chars! "ints.tmp88", chars! "v.ovov", chars! "f.oo", chars! "ints.tmp10", chars! "ints.tmp112", chars! "ints.tmp79", chars! "ints.tmp97", chars! "ints.tmp110", chars! "ints.tmp83", chars! "ints.tmp95", chars! "ints.tmp16", chars! "ints.tmp29", chars! "f.vv", chars! "ints.tmp14", chars! "ints.tmp27", chars! "ints.tmp90", chars! "ints.tmp107", chars! "v.oovv", chars! "ints.tmp24", chars! "ints.tmp46", chars! "ints.tmp53", chars! "ints.tmp76", chars! "ints.tmp37", chars! "ints.tmp48", chars! "ints.tmp51", chars! "v.ovvv", chars! "ints.tmp106", chars! "ints.tmp113", chars! "ints.tmp11", chars! "ints.tmp19", chars! "ints.tmp1", chars! "ints.tmp34", chars! "ints.tmp3", chars! "ints.tmp43", chars! "ints.tmp57", chars! "ints.tmp59", chars! "ints.tmp70", chars! "ints.tmp80", chars! "ints.tmp98", chars! "ints.tmp103", chars! "ints.tmp111", chars! "ints.tmp2", chars! "ints.tmp31", chars! "ints.tmp40", chars! "ints.tmp4", chars! "ints.tmp56", chars! "ints.tmp62", chars! "ints.tmp73", chars! "ints.tmp84", chars! "ints.tmp96", chars! "v.vvvv"]
  body := [
    -- 2329: tmp16 = np.copy(np.transpose(t2, (0, 1, 3, 2))) * 2
    .set 63 (.tr 0 [0, 1, 3, 2]) 2 1,
    -- 2330: tmp16 += t2 * -1
    .add 63 (.cp 0) (-1) 1,
    -- 2331: tmp19 = np.copy(f.ov)
    .set 64 (.cp 1) 1 1,
    -- 2332: tmp19 += ints.tmp17 * 2
    .add 64 (.cp 2) 2 1,
    -- 2333: tmp19 += ints.tmp55 * -1
    .add 64 (.cp 3) (-1) 1,
    -- 2334: tmp21 = np.copy(ints.tmp69)
    .set 65 (.cp 4) 1 1,
    -- 2335: tmp21 += np.transpose(v.ooov, (0, 2, 1, 3))
    .add 65 (.tr 5 [0, 2, 1, 3]) 1 1,
    -- 2336: tmp10 = einsum(t1, (0, 1), r2, (2, 1, 3), (3, 0, 2))
    .set 66 (.ein [(6, [0, 1]), (7, [2, 1, 3])] [3, 0, 2]) 1 1,
    -- 2337: tmp17 = einsum(r2, (0, 1, 2), tmp16, (2, 3, 1, 0), (3,))
    .set 67 (.ein [(7, [0, 1, 2]), (63, [2, 3, 1, 0])] [3]) 1 1,
    -- 2338: del tmp16
    .del 63,
    -- 2339: tmp15 = einsum(t1, (0, 1), r1, (1,), (0,))
    .set 68 (.ein [(6, [0, 1]), (8, [1])] [0]) 1 1,
    -- 2340: tmp26 = einsum(t1, (0, 1), tmp19, (0, 2), (1, 2))
    .set 69 (.ein [(6, [0, 1]), (64, [0, 2])] [1, 2]) 1 1,
    -- 2341: tmp23 = einsum(t1, (0, 1), tmp21, (2, 0, 3, 4), (2, 3, 1, 4))
    .set 70 (.ein [(6, [0, 1]), (65, [2, 0, 3, 4])] [2, 3, 1, 4]) 1 1,
    -- 2342: tmp11 = einsum(t1, (0, 1), tmp10, (2, 3, 1), (2, 0, 3))
    .set 71 (.ein [(6, [0, 1]), (66, [2, 3, 1])] [2, 0, 3]) 1 1,
    -- 2343: tmp5 = np.copy(np.transpose(r2, (2, 0, 1)))
    .set 72 (.tr 7 [2, 0, 1]) 1 1,
    -- 2344: tmp5 += np.transpose(r2, (2, 1, 0)) * -0.5
    .add 72 (.tr 7 [2, 1, 0]) (-1) 2,
    -- 2345: tmp2 = np.copy(np.transpose(r2, (2, 0, 1))) * -0.5
    .set 73 (.tr 7 [2, 0, 1]) (-1) 2,
    -- 2346: tmp2 += np.transpose(r2, (2, 1, 0))
    .add 73 (.tr 7 [2, 1, 0]) 1 1,
    -- 2347: tmp22 = np.copy(np.transpose(ints.tmp87, (0, 1, 3, 2)))
    .set 74 (.tr 9 [0, 1, 3, 2]) 1 1,
    -- 2348: tmp22 += np.transpose(ints.tmp92, (0, 1, 3, 2))
    .add 74 (.tr 10 [0, 1, 3, 2]) 1 1,
    -- 2349: tmp22 += ints.tmp109 * -1
    .add 74 (.cp 11) (-1) 1,
    -- 2350: tmp22 += np.transpose(ints.tmp88, (0, 1, 3, 2)) * -2
    .add 74 (.tr 12 [0, 1, 3, 2]) (-2) 1,
    -- 2351: tmp22 += np.transpose(v.ovov, (0, 2, 3, 1)) * -1
    .add 74 (.tr 13 [0, 2, 3, 1]) (-1) 1,
    -- 2352: tmp22 += einsum(t1, (0, 1), tmp21, (2, 3, 0, 4), (2, 3, 4, 1))
    .add 74 (.ein [(6, [0, 1]), (65, [2, 3, 0, 4])] [2, 3, 4, 1]) 1 1,
    -- 2353: del tmp21
    .del 65,
    -- 2354: tmp28 = np.copy(f.oo)
    .set 75 (.cp 14) 1 1,
    -- 2355: tmp28 += np.transpose(ints.tmp10, (1, 0))
    .add 75 (.tr 15 [1, 0]) 1 1,
    -- 2356: tmp28 += ints.tmp112 * 2
    .add 75 (.cp 16) 2 1,
    -- 2357: tmp28 += ints.tmp79 * 2
    .add 75 (.cp 17) 2 1,
    -- 2358: tmp28 += ints.tmp97 * 2
    .add 75 (.cp 18) 2 1,
    -- 2359: tmp28 += ints.tmp110 * -1
    .add 75 (.cp 19) (-1) 1,
    -- 2360: tmp28 += ints.tmp83 * -1
    .add 75 (.cp 20) (-1) 1,
    -- 2361: tmp28 += ints.tmp95 * -1
    .add 75 (.cp 21) (-1) 1,
    -- 2362: tmp18 = np.copy(tmp15)
    .set 76 (.cp 68) 1 1,
    -- 2363: del tmp15
    .del 68,
    -- 2364: tmp18 += tmp17 * -1
    .add 76 (.cp 67) (-1) 1,
    -- 2365: del tmp17
    .del 67,
    -- 2366: tmp27 = np.copy(np.transpose(ints.tmp16, (1, 0)))
    .set 77 (.tr 22 [1, 0]) 1 1,
    -- 2367: tmp27 += ints.tmp29 * 2
    .add 77 (.cp 23) 2 1,
    -- 2368: tmp27 += f.vv * -1
    .add 77 (.cp 24) (-1) 1,
    -- 2369: tmp27 += ints.tmp14 * -2
    .add 77 (.cp 25) (-2) 1,
    -- 2370: tmp27 += ints.tmp27 * -1
    .add 77 (.cp 26) (-1) 1,
    -- 2371: tmp27 += tmp26
    .add 77 (.cp 69) 1 1,
    -- 2372: del tmp26
    .del 69,
    -- 2373: tmp20 = einsum(t1, (0, 1), r2, (1, 2, 3), (3, 0, 2))
    .set 78 (.ein [(6, [0, 1]), (7, [1, 2, 3])] [3, 0, 2]) 1 1,
    -- 2374: tmp24 = np.copy(np.transpose(ints.tmp90, (0, 1, 3, 2)))
    .set 79 (.tr 27 [0, 1, 3, 2]) 1 1,
    -- 2375: tmp24 += ints.tmp107 * -1
    .add 79 (.cp 28) (-1) 1,
    -- 2376: tmp24 += v.oovv * -1
    .add 79 (.cp 29) (-1) 1,
    -- 2377: tmp24 += np.transpose(tmp23, (0, 1, 3, 2))
    .add 79 (.tr 70 [0, 1, 3, 2]) 1 1,
    -- 2378: del tmp23
    .del 70,
    -- 2379: tmp25 = einsum(t2, (0, 1, 2, 3), r2, (2, 3, 4), (4, 0, 1))
    .set 80 (.ein [(0, [0, 1, 2, 3]), (7, [2, 3, 4])] [4, 0, 1]) 1 1,
    -- 2380: tmp25 += tmp11
    .add 80 (.cp 71) 1 1,
    -- 2381: tmp12 = np.copy(tmp11) * -0.5
    .set 81 (.cp 71) (-1) 2,
    -- 2382: tmp12 += np.transpose(tmp11, (0, 2, 1))
    .add 81 (.tr 71 [0, 2, 1]) 1 1,
    -- 2383: tmp9 = np.copy(np.transpose(r2, (2, 0, 1))) * -1
    .set 82 (.tr 7 [2, 0, 1]) (-1) 1,
    -- 2384: tmp9 += np.transpose(r2, (2, 1, 0)) * 2
    .add 82 (.tr 7 [2, 1, 0]) 2 1,
    -- 2385: tmp6 = einsum(t1, (0, 1), tmp5, (2, 3, 1), (2, 0, 3)) * 2
    .set 83 (.ein [(6, [0, 1]), (72, [2, 3, 1])] [2, 0, 3]) 2 1,
    -- 2386: tmp14 = np.copy(f.vv)
    .set 84 (.cp 24) 1 1,
    -- 2387: tmp14 += np.transpose(ints.tmp14, (1, 0)) * 2
    .add 84 (.tr 25 [1, 0]) 2 1,
    -- 2388: tmp14 += ints.tmp27
    .add 84 (.cp 26) 1 1,
    -- 2389: tmp14 += np.transpose(ints.tmp16, (1, 0)) * -1
    .add 84 (.tr 22 [1, 0]) (-1) 1,
    -- 2390: tmp14 += ints.tmp29 * -2
    .add 84 (.cp 23) (-2) 1,
    -- 2391: tmp1 = np.copy(ints.tmp24)
    .set 85 (.cp 30) 1 1,
    -- 2392: tmp1 += np.transpose(ints.tmp46, (0, 2, 1, 3)) * 0.5
    .add 85 (.tr 31 [0, 2, 1, 3]) 1 2,
    -- 2393: tmp1 += np.transpose(ints.tmp53, (0, 2, 1, 3)) * 0.5
    .add 85 (.tr 32 [0, 2, 1, 3]) 1 2,
    -- 2394: tmp1 += np.transpose(ints.tmp76, (0, 3, 1, 2))
    .add 85 (.tr 33 [0, 3, 1, 2]) 1 1,
    -- 2395: tmp1 += np.transpose(ints.tmp37, (0, 3, 1, 2)) * -0.5
    .add 85 (.tr 34 [0, 3, 1, 2]) (-1) 2,
    -- 2396: tmp1 += np.transpose(ints.tmp48, (0, 2, 1, 3)) * -1
    .add 85 (.tr 35 [0, 2, 1, 3]) (-1) 1,
    -- 2397: tmp1 += np.transpose(ints.tmp51, (0, 2, 1, 3)) * -1
    .add 85 (.tr 36 [0, 2, 1, 3]) (-1) 1,
    -- 2398: tmp4 = np.copy(ints.tmp107)
    .set 86 (.cp 28) 1 1,
    -- 2399: tmp4 += v.oovv
    .add 86 (.cp 29) 1 1,
    -- 2400: tmp4 += np.transpose(ints.tmp90, (0, 1, 3, 2)) * -1
    .add 86 (.tr 27 [0, 1, 3, 2]) (-1) 1,
    -- 2401: tmp3 = einsum(t1, (0, 1), tmp2, (2, 3, 1), (2, 0, 3))
    .set 87 (.ein [(6, [0, 1]), (73, [2, 3, 1])] [2, 0, 3]) 1 1,
    -- 2402: del tmp2
    .del 73,
    -- 2403: tmp0 = np.copy(ints.tmp24)
    .set 88 (.cp 30) 1 1,
    -- 2404: tmp0 += np.transpose(ints.tmp46, (0, 2, 1, 3)) * 2
    .add 88 (.tr 31 [0, 2, 1, 3]) 2 1,
    -- 2405: tmp0 += np.transpose(ints.tmp53, (0, 2, 1, 3)) * 2
    .add 88 (.tr 32 [0, 2, 1, 3]) 2 1,
    -- 2406: tmp0 += np.transpose(ints.tmp76, (0, 3, 1, 2))
    .add 88 (.tr 33 [0, 3, 1, 2]) 1 1,
    -- 2407: tmp0 += np.transpose(ints.tmp37, (0, 3, 1, 2)) * -2
    .add 88 (.tr 34 [0, 3, 1, 2]) (-2) 1,
    -- 2408: tmp0 += np.transpose(ints.tmp48, (0, 2, 1, 3)) * -4
    .add 88 (.tr 35 [0, 2, 1, 3]) (-4) 1,
    -- 2409: tmp0 += np.transpose(ints.tmp51, (0, 2, 1, 3)) * -1
    .add 88 (.tr 36 [0, 2, 1, 3]) (-1) 1,
    -- 2410: tmp0 += np.transpose(v.ovvv, (0, 2, 1, 3)) * -2
    .add 88 (.tr 37 [0, 2, 1, 3]) (-2) 1,
    -- 2411: tmp0 += np.transpose(v.ovvv, (0, 2, 3, 1))
    .add 88 (.tr 37 [0, 2, 3, 1]) 1 1,
    -- 2412: tmp8 = np.copy(ints.tmp106) * 0.5
    .set 89 (.cp 38) 1 2,
    -- 2413: tmp8 += ints.tmp113
    .add 89 (.cp 39) 1 1,
    -- 2414: tmp8 += ints.tmp11 * 0.5
    .add 89 (.cp 40) 1 2,
    -- 2415: tmp8 += ints.tmp19 * 0.5
    .add 89 (.cp 41) 1 2,
    -- 2416: tmp8 += ints.tmp1 * 0.5
    .add 89 (.cp 42) 1 2,
    -- 2417: tmp8 += ints.tmp34
    .add 89 (.cp 43) 1 1,
    -- 2418: tmp8 += ints.tmp3 * 0.5
    .add 89 (.cp 44) 1 2,
    -- 2419: tmp8 += ints.tmp43 * 0.5
    .add 89 (.cp 45) 1 2,
    -- 2420: tmp8 += ints.tmp57
    .add 89 (.cp 46) 1 1,
    -- 2421: tmp8 += ints.tmp59
    .add 89 (.cp 47) 1 1,
    -- 2422: tmp8 += ints.tmp70
    .add 89 (.cp 48) 1 1,
    -- 2423: tmp8 += ints.tmp80
    .add 89 (.cp 49) 1 1,
    -- 2424: tmp8 += ints.tmp98
    .add 89 (.cp 50) 1 1,
    -- 2425: tmp8 += f.ov * -0.5
    .add 89 (.cp 1) (-1) 2,
    -- 2426: tmp8 += ints.tmp103 * -1
    .add 89 (.cp 51) (-1) 1,
    -- 2427: tmp8 += ints.tmp111 * -0.5
    .add 89 (.cp 52) (-1) 2,
    -- 2428: tmp8 += ints.tmp17 * -1
    .add 89 (.cp 2) (-1) 1,
    -- 2429: tmp8 += ints.tmp2 * -0.5
    .add 89 (.cp 53) (-1) 2,
    -- 2430: tmp8 += ints.tmp31 * -0.5
    .add 89 (.cp 54) (-1) 2,
    -- 2431: tmp8 += ints.tmp40 * -1
    .add 89 (.cp 55) (-1) 1,
    -- 2432: tmp8 += ints.tmp4 * -1
    .add 89 (.cp 56) (-1) 1,
    -- 2433: tmp8 += ints.tmp56 * -0.5
    .add 89 (.cp 57) (-1) 2,
    -- 2434: tmp8 += ints.tmp62 * -2
    .add 89 (.cp 58) (-2) 1,
    -- 2435: tmp8 += ints.tmp73 * -0.5
    .add 89 (.cp 59) (-1) 2,
    -- 2436: tmp8 += ints.tmp84 * -0.5
    .add 89 (.cp 60) (-1) 2,
    -- 2437: tmp8 += ints.tmp96 * -0.5
    .add 89 (.cp 61) (-1) 2,
    -- 2438: tmp7 = np.copy(ints.tmp109)
    .set 90 (.cp 11) 1 1,
    -- 2439: tmp7 += np.transpose(ints.tmp88, (0, 1, 3, 2)) * 2
    .add 90 (.tr 12 [0, 1, 3, 2]) 2 1,
    -- 2440: tmp7 += np.transpose(v.ovov, (0, 2, 3, 1))
    .add 90 (.tr 13 [0, 2, 3, 1]) 1 1,
    -- 2441: tmp7 += np.transpose(ints.tmp87, (0, 1, 3, 2)) * -1
    .add 90 (.tr 9 [0, 1, 3, 2]) (-1) 1,
    -- 2442: tmp7 += np.transpose(ints.tmp92, (0, 1, 3, 2)) * -1
    .add 90 (.tr 10 [0, 1, 3, 2]) (-1) 1,
    -- 2443: tmp13 = np.copy(tmp11) * 2
    .set 91 (.cp 71) 2 1,
    -- 2444: tmp13 += np.transpose(tmp11, (0, 2, 1)) * -1
    .add 91 (.tr 71 [0, 2, 1]) (-1) 1,
    -- 2445: del tmp11
    .del 71,
    -- 2446: r2new = einsum(v.ovvv, (0, 1, 2, 3), r1, (3,), (1, 2, 0)) * -1
    .set 92 (.ein [(37, [0, 1, 2, 3]), (8, [3])] [1, 2, 0]) (-1) 1,
    -- 2447: r2new += einsum(r2, (0, 1, 2), v.vvvv, (3, 0, 4, 1), (3, 4, 2))
    .add 92 (.ein [(7, [0, 1, 2]), (62, [3, 0, 4, 1])] [3, 4, 2]) 1 1,
    -- 2448: r2new += einsum(tmp20, (0, 1, 2), v.ovvv, (1, 3, 4, 2), (3, 4, 0)) * -1
    .add 92 (.ein [(78, [0, 1, 2]), (37, [1, 3, 4, 2])] [3, 4, 0]) (-1) 1,
    -- 2449: del tmp20
    .del 78,
    -- 2450: r2new += einsum(v.ovvv, (0, 1, 2, 3), tmp10, (4, 0, 3), (2, 1, 4)) * -1
    .add 92 (.ein [(37, [0, 1, 2, 3]), (66, [4, 0, 3])] [2, 1, 4]) (-1) 1,
    -- 2451: del tmp10
    .del 66,
    -- 2452: r2new += einsum(tmp22, (0, 1, 2, 3), tmp5, (0, 3, 4), (2, 4, 1)) * -2
    .add 92 (.ein [(74, [0, 1, 2, 3]), (72, [0, 3, 4])] [2, 4, 1]) (-2) 1,
    -- 2453: del tmp5, tmp22
    .del 72,
    .del 74,
    -- 2454: r2new += einsum(r2, (0, 1, 2), tmp24, (2, 3, 4, 1), (0, 4, 3))
    .add 92 (.ein [(7, [0, 1, 2]), (79, [2, 3, 4, 1])] [0, 4, 3]) 1 1,
    -- 2455: r2new += einsum(tmp24, (0, 1, 2, 3), r2, (3, 4, 0), (2, 4, 1))
    .add 92 (.ein [(79, [0, 1, 2, 3]), (7, [3, 4, 0])] [2, 4, 1]) 1 1,
    -- 2456: del tmp24
    .del 79,
    -- 2457: r2new += einsum(tmp25, (0, 1, 2), v.ovov, (2, 3, 1, 4), (4, 3, 0))
    .add 92 (.ein [(80, [0, 1, 2]), (13, [2, 3, 1, 4])] [4, 3, 0]) 1 1,
    -- 2458: del tmp25
    .del 80,
    -- 2459: r2new += einsum(tmp27, (0, 1), r2, (0, 2, 3), (1, 2, 3)) * -1
    .add 92 (.ein [(77, [0, 1]), (7, [0, 2, 3])] [1, 2, 3]) (-1) 1,
    -- 2460: r2new += einsum(tmp27, (0, 1), r2, (2, 0, 3), (2, 1, 3)) * -1
    .add 92 (.ein [(77, [0, 1]), (7, [2, 0, 3])] [2, 1, 3]) (-1) 1,
    -- 2461: del tmp27
    .del 77,
    -- 2462: r2new += einsum(r2, (0, 1, 2), tmp28, (2, 3), (0, 1, 3)) * -1
    .add 92 (.ein [(7, [0, 1, 2]), (75, [2, 3])] [0, 1, 3]) (-1) 1,
    -- 2463: del tmp28
    .del 75,
    -- 2464: r2new += einsum(tmp18, (0,), v.ovov, (1, 2, 0, 3), (2, 3, 1))
    .add 92 (.ein [(76, [0]), (13, [1, 2, 0, 3])] [2, 3, 1]) 1 1,
    -- 2465: r2new += einsum(r1, (0,), tmp19, (1, 2), (2, 0, 1)) * -1
    .add 92 (.ein [(8, [0]), (64, [1, 2])] [2, 0, 1]) (-1) 1,
    -- 2466: r1new = einsum(r2, (0, 1, 2), tmp0, (2, 3, 0, 1), (3,))
    .set 93 (.ein [(7, [0, 1, 2]), (88, [2, 3, 0, 1])] [3]) 1 1,
    -- 2467: del tmp0
    .del 88,
    -- 2468: r1new += einsum(r2, (0, 1, 2), tmp1, (2, 3, 1, 0), (3,)) * -2
    .add 93 (.ein [(7, [0, 1, 2]), (85, [2, 3, 1, 0])] [3]) (-2) 1,
    -- 2469: del tmp1
    .del 85,
    -- 2470: r1new += einsum(tmp4, (0, 1, 2, 3), tmp3, (0, 1, 3), (2,)) * 2
    .add 93 (.ein [(86, [0, 1, 2, 3]), (87, [0, 1, 3])] [2]) 2 1,
    -- 2471: del tmp4, tmp3
    .del 86,
    .del 87,
    -- 2472: r1new += einsum(tmp7, (0, 1, 2, 3), tmp6, (0, 1, 3), (2,))
    .add 93 (.ein [(90, [0, 1, 2, 3]), (83, [0, 1, 3])] [2]) 1 1,
    -- 2473: del tmp7, tmp6
    .del 90,
    .del 83,
    -- 2474: r1new += einsum(tmp9, (0, 1, 2), tmp8, (0, 2), (1,)) * 2
    .add 93 (.ein [(82, [0, 1, 2]), (89, [0, 2])] [1]) 2 1,
    -- 2475: del tmp9, tmp8
    .del 82,
    .del 89,
    -- 2476: r1new += einsum(ints.tmp69, (0, 1, 2, 3), tmp12, (0, 1, 2), (3,)) * -2
    .add 93 (.ein [(4, [0, 1, 2, 3]), (81, [0, 1, 2])] [3]) (-2) 1,
    -- 2477: del tmp12
    .del 81,
    -- 2478: r1new += einsum(tmp13, (0, 1, 2), v.ooov, (0, 1, 2, 3), (3,)) * -1
    .add 93 (.ein [(91, [0, 1, 2]), (5, [0, 1, 2, 3])] [3]) (-1) 1,
    -- 2479: del tmp13
    .del 91,
    -- 2480: r1new += einsum(r1, (0,), tmp14, (0, 1), (1,))
    .add 93 (.ein [(8, [0]), (84, [0, 1])] [1]) 1 1,
    -- 2481: del tmp14
    .del 84,
    -- 2482: r1new += einsum(tmp18, (0,), tmp19, (0, 1), (1,)) * -1
    .add 93 (.ein [(76, [0]), (64, [0, 1])] [1]) (-1) 1,
    -- 2483: del tmp19, tmp18
    .del 64,
    .del 76
  ]
  ret := [(chars! "r1new", 93), (chars! "r2new", 92)]

end Ebcc.Gen.RCCSDEom
