import Verif.Model.GenCode
/-!
Functions of `ebcc/codegen/RDFCC2.py`, written by `tools/gencode.py`.  Comments give the
number and the text of the line of each statement.
-/

set_option maxRecDepth 100000

namespace Ebcc.Gen.RDFCC2Eom

/-- codegen/RDFCC2.py:1102-1200 `hbar_matvec_ip_intermediates`. -/
def hbar_matvec_ip_intermediates : GenFun where
  args := [chars! "v.xov", chars! "t1", chars! "f.ov", chars! "t2", chars! "v.xoo", chars! "v.xvv", chars! "f.vv", chars! "f.oo"]
  body := [
    -- 1157: tmp6 = einsum(v.xov, (0, 1, 2), t1, (1, 2), (0,))
    .set 8 (.ein [(0, [0, 1, 2]), (1, [1, 2])] [0]) 1 1,
    -- 1158: tmp4 = einsum(t1, (0, 1), v.xov, (2, 3, 1), (0, 3, 2))
    .set 9 (.ein [(1, [0, 1]), (0, [2, 3, 1])] [0, 3, 2]) 1 1,
    -- 1159: tmp0 = einsum(f.ov, (0, 1), t1, (2, 1), (0, 2))
    .set 10 (.ein [(2, [0, 1]), (1, [2, 1])] [0, 2]) 1 1,
    -- 1160: tmp17 = einsum(v.xov, (0, 1, 2), t2, (3, 1, 2, 4), (3, 4, 0))
    .set 11 (.ein [(0, [0, 1, 2]), (3, [3, 1, 2, 4])] [3, 4, 0]) 1 1,
    -- 1161: tmp20 = einsum(v.xov, (0, 1, 2), t2, (3, 1, 4, 2), (3, 4, 0))
    .set 12 (.ein [(0, [0, 1, 2]), (3, [3, 1, 4, 2])] [3, 4, 0]) 1 1,
    -- 1162: tmp1 = einsum(v.xov, (0, 1, 2), v.xoo, (0, 3, 4), (3, 4, 1, 2))
    .set 13 (.ein [(0, [0, 1, 2]), (4, [0, 3, 4])] [3, 4, 1, 2]) 1 1,
    -- 1163: tmp32 = einsum(v.xov, (0, 1, 2), v.xov, (0, 3, 4), (1, 3, 2, 4))
    .set 14 (.ein [(0, [0, 1, 2]), (0, [0, 3, 4])] [1, 3, 2, 4]) 1 1,
    -- 1164: tmp29 = einsum(v.xvv, (0, 1, 2), v.xov, (0, 3, 4), (3, 1, 2, 4))
    .set 15 (.ein [(5, [0, 1, 2]), (0, [0, 3, 4])] [3, 1, 2, 4]) 1 1,
    -- 1165: tmp11 = einsum(tmp6, (0,), v.xov, (0, 1, 2), (1, 2))
    .set 16 (.ein [(8, [0]), (0, [0, 1, 2])] [1, 2]) 1 1,
    -- 1166: tmp9 = einsum(tmp4, (0, 1, 2), v.xov, (2, 0, 3), (1, 3))
    .set 17 (.ein [(9, [0, 1, 2]), (0, [2, 0, 3])] [1, 3]) 1 1,
    -- 1167: tmp69 = einsum(tmp0, (0, 1), t1, (0, 2), (1, 2))
    .set 18 (.ein [(10, [0, 1]), (1, [0, 2])] [1, 2]) 1 1,
    -- 1168: tmp68 = einsum(v.xvv, (0, 1, 2), tmp17, (3, 2, 0), (3, 1))
    .set 19 (.ein [(5, [0, 1, 2]), (11, [3, 2, 0])] [3, 1]) 1 1,
    -- 1169: tmp67 = einsum(tmp20, (0, 1, 2), v.xvv, (2, 3, 1), (0, 3))
    .set 20 (.ein [(12, [0, 1, 2]), (5, [2, 3, 1])] [0, 3]) 1 1,
    -- 1170: tmp66 = einsum(f.vv, (0, 1), t1, (2, 1), (2, 0))
    .set 21 (.ein [(6, [0, 1]), (1, [2, 1])] [2, 0]) 1 1,
    -- 1171: tmp60 = einsum(v.xov, (0, 1, 2), tmp20, (1, 3, 0), (3, 2))
    .set 22 (.ein [(0, [0, 1, 2]), (12, [1, 3, 0])] [3, 2]) 1 1,
    -- 1172: tmp58 = einsum(v.xov, (0, 1, 2), tmp17, (1, 3, 0), (3, 2))
    .set 23 (.ein [(0, [0, 1, 2]), (11, [1, 3, 0])] [3, 2]) 1 1,
    -- 1173: tmp57 = einsum(tmp1, (0, 1, 2, 3), t2, (4, 1, 3, 5), (4, 0, 2, 5))
    .set 24 (.ein [(13, [0, 1, 2, 3]), (3, [4, 1, 3, 5])] [4, 0, 2, 5]) 1 1,
    -- 1174: tmp56 = einsum(tmp1, (0, 1, 2, 3), t2, (1, 2, 4, 3), (0, 4))
    .set 25 (.ein [(13, [0, 1, 2, 3]), (3, [1, 2, 4, 3])] [0, 4]) 1 1,
    -- 1175: tmp55 = einsum(t2, (0, 1, 2, 3), tmp1, (4, 0, 1, 2), (4, 3))
    .set 26 (.ein [(3, [0, 1, 2, 3]), (13, [4, 0, 1, 2])] [4, 3]) 1 1,
    -- 1176: tmp54 = einsum(t2, (0, 1, 2, 3), f.ov, (4, 3), (4, 0, 1, 2))
    .set 27 (.ein [(3, [0, 1, 2, 3]), (2, [4, 3])] [4, 0, 1, 2]) 1 1,
    -- 1177: tmp52 = einsum(f.oo, (0, 1), t1, (1, 2), (0, 2))
    .set 28 (.ein [(7, [0, 1]), (1, [1, 2])] [0, 2]) 1 1,
    -- 1178: tmp47 = einsum(tmp32, (0, 1, 2, 3), t2, (4, 0, 5, 3), (4, 1, 5, 2))
    .set 29 (.ein [(14, [0, 1, 2, 3]), (3, [4, 0, 5, 3])] [4, 1, 5, 2]) 1 1,
    -- 1179: tmp46 = einsum(t2, (0, 1, 2, 3), tmp32, (1, 4, 5, 2), (0, 4, 3, 5))
    .set 30 (.ein [(3, [0, 1, 2, 3]), (14, [1, 4, 5, 2])] [0, 4, 3, 5]) 1 1,
    -- 1180: tmp45 = einsum(tmp17, (0, 1, 2), v.xoo, (2, 3, 4), (0, 3, 4, 1))
    .set 31 (.ein [(11, [0, 1, 2]), (4, [2, 3, 4])] [0, 3, 4, 1]) 1 1,
    -- 1181: tmp43 = einsum(v.xoo, (0, 1, 2), tmp20, (3, 4, 0), (3, 1, 2, 4))
    .set 32 (.ein [(4, [0, 1, 2]), (12, [3, 4, 0])] [3, 1, 2, 4]) 1 1,
    -- 1182: tmp42 = einsum(tmp1, (0, 1, 2, 3), t2, (4, 1, 5, 3), (4, 0, 2, 5))
    .set 33 (.ein [(13, [0, 1, 2, 3]), (3, [4, 1, 5, 3])] [4, 0, 2, 5]) 1 1,
    -- 1183: tmp40 = einsum(v.xoo, (0, 1, 2), v.xoo, (0, 3, 4), (1, 3, 4, 2))
    .set 34 (.ein [(4, [0, 1, 2]), (4, [0, 3, 4])] [1, 3, 4, 2]) 1 1,
    -- 1184: tmp39 = einsum(f.ov, (0, 1), t2, (2, 0, 3, 1), (2, 3))
    .set 35 (.ein [(2, [0, 1]), (3, [2, 0, 3, 1])] [2, 3]) 1 1,
    -- 1185: tmp38 = einsum(f.ov, (0, 1), t2, (2, 0, 1, 3), (2, 3))
    .set 36 (.ein [(2, [0, 1]), (3, [2, 0, 1, 3])] [2, 3]) 1 1,
    -- 1186: tmp35 = einsum(v.xvv, (0, 1, 2), v.xoo, (0, 3, 4), (3, 4, 1, 2))
    .set 37 (.ein [(5, [0, 1, 2]), (4, [0, 3, 4])] [3, 4, 1, 2]) 1 1,
    -- 1187: tmp33 = einsum(tmp32, (0, 1, 2, 3), t2, (4, 5, 2, 3), (4, 5, 0, 1))
    .set 38 (.ein [(14, [0, 1, 2, 3]), (3, [4, 5, 2, 3])] [4, 5, 0, 1]) 1 1,
    -- 1188: tmp30 = einsum(tmp29, (0, 1, 2, 3), t2, (4, 5, 3, 2), (4, 5, 0, 1))
    .set 39 (.ein [(15, [0, 1, 2, 3]), (3, [4, 5, 3, 2])] [4, 5, 0, 1]) 1 1,
    -- 1189: del tmp29
    .del 15,
    -- 1190: tmp24 = einsum(t1, (0, 1), tmp11, (2, 1), (0, 2))
    .set 40 (.ein [(1, [0, 1]), (16, [2, 1])] [0, 2]) 1 1,
    -- 1191: tmp23 = einsum(t1, (0, 1), tmp9, (2, 1), (0, 2))
    .set 41 (.ein [(1, [0, 1]), (17, [2, 1])] [0, 2]) 1 1,
    -- 1192: tmp21 = einsum(v.xov, (0, 1, 2), tmp20, (3, 2, 0), (3, 1))
    .set 42 (.ein [(0, [0, 1, 2]), (12, [3, 2, 0])] [3, 1]) 1 1,
    -- 1193: tmp18 = einsum(tmp17, (0, 1, 2), v.xov, (2, 3, 1), (0, 3))
    .set 43 (.ein [(11, [0, 1, 2]), (0, [2, 3, 1])] [0, 3]) 1 1,
    -- 1194: tmp14 = einsum(v.xov, (0, 1, 2), tmp4, (3, 4, 0), (3, 1, 4, 2))
    .set 44 (.ein [(0, [0, 1, 2]), (9, [3, 4, 0])] [3, 1, 4, 2]) 1 1,
    -- 1195: tmp7 = einsum(tmp6, (0,), v.xoo, (0, 1, 2), (1, 2))
    .set 45 (.ein [(8, [0]), (4, [0, 1, 2])] [1, 2]) 1 1,
    -- 1196: del tmp6
    .del 8,
    -- 1197: tmp5 = einsum(tmp4, (0, 1, 2), v.xoo, (2, 3, 0), (3, 1))
    .set 46 (.ein [(9, [0, 1, 2]), (4, [2, 3, 0])] [3, 1]) 1 1,
    -- 1198: del tmp4
    .del 9
  ]
  ret := [(chars! "tmp0", 10), (chars! "tmp1", 13), (chars! "tmp11", 16), (chars! "tmp14", 44), (chars! "tmp17", 11), (chars! "tmp18", 43), (chars! "tmp20", 12), (chars! "tmp21", 42), (chars! "tmp23", 41), (chars! "tmp24", 40), (chars! "tmp30", 39), (chars! "tmp32", 14), (chars! "tmp33", 38), (chars! "tmp35", 37), (chars! "tmp38", 36), (chars! "tmp39", 35), (chars! "tmp40", 34), (chars! "tmp42", 33), (chars! "tmp43", 32), (chars! "tmp45", 31), (chars! "tmp46", 30), (chars! "tmp47", 29), (chars! "tmp5", 46), (chars! "tmp52", 28), (chars! "tmp54", 27), (chars! "tmp55", 26), (chars! "tmp56", 25), (chars! "tmp57", 24), (chars! "tmp58", 23), (chars! "tmp60", 22), (chars! "tmp66", 21), (chars! "tmp67", 20), (chars! "tmp68", 19), (chars! "tmp69", 18), (chars! "tmp7", 45), (chars! "tmp9", 17)]

/-- codegen/RDFCC2.py:1202-1345 `hbar_matvec_ip`. -/
def hbar_matvec_ip : GenFun where
  args := [chars! "r2", chars! "ints.tmp60", chars! "f.vv", chars! "ints.tmp58", chars! "f.ov", chars! "t1", chars! "ints.tmp39", chars! "ints.tmp55", chars! "ints.tmp66", chars! "ints.tmp67", chars! "ints.tmp38", chars! "ints.tmp52", chars! "ints.tmp56", chars! "ints.tmp68", chars! "ints.tmp69", chars! "ints.tmp35", chars! "ints.tmp46", chars! "ints.tmp20", chars! "v.xov", chars! "ints.tmp17", chars! "ints.tmp1", chars! "ints.tmp30", chars! "ints.tmp43", chars! "ints.tmp54", chars! "ints.tmp42", chars! "ints.tmp45", chars! "ints.tmp57", chars! "ints.tmp47", chars! "f.oo", chars! "ints.tmp0", chars! "ints.tmp21", chars! "ints.tmp18", chars! "ints.tmp32", chars! "ints.tmp24", chars! "ints.tmp7", chars! "ints.tmp23", chars! "ints.tmp5", chars! "ints.tmp11", chars! "ints.tmp9", chars! "ints.tmp40", chars! "ints.tmp33", chars! "t2", chars! "r1", chars! "ints.tmp14"]
  body := [
    -- 1230: tmp3 = np.copy(r2) * 2
    .set 44 (.cp 0) 2 1,
    -- 1231: tmp3 += np.transpose(r2, (1, 0, 2)) * -1
    .add 44 (.tr 0 [1, 0, 2]) (-1) 1,
    -- 1232: tmp9 = np.copy(np.transpose(ints.tmp60, (1, 0))) * 2
    .set 45 (.tr 1 [1, 0]) 2 1,
    -- 1233: del ints.tmp60
    .del 1,
    -- 1234: tmp9 += f.vv * -1
    .add 45 (.cp 2) (-1) 1,
    -- 1235: tmp9 += np.transpose(ints.tmp58, (1, 0)) * -1
    .add 45 (.tr 3 [1, 0]) (-1) 1,
    -- 1236: del ints.tmp58
    .del 3,
    -- 1237: tmp9 += einsum(f.ov, (0, 1), t1, (0, 2), (1, 2))
    .add 45 (.ein [(4, [0, 1]), (5, [0, 2])] [1, 2]) 1 1,
    -- 1238: tmp13 = np.copy(f.ov)
    .set 46 (.cp 4) 1 1,
    -- 1239: tmp13 += ints.tmp39 * 2
    .add 46 (.cp 6) 2 1,
    -- 1240: del ints.tmp39
    .del 6,
    -- 1241: tmp13 += ints.tmp55
    .add 46 (.cp 7) 1 1,
    -- 1242: del ints.tmp55
    .del 7,
    -- 1243: tmp13 += ints.tmp66
    .add 46 (.cp 8) 1 1,
    -- 1244: del ints.tmp66
    .del 8,
    -- 1245: tmp13 += ints.tmp67 * 2
    .add 46 (.cp 9) 2 1,
    -- 1246: del ints.tmp67
    .del 9,
    -- 1247: tmp13 += ints.tmp38 * -1
    .add 46 (.cp 10) (-1) 1,
    -- 1248: del ints.tmp38
    .del 10,
    -- 1249: tmp13 += ints.tmp52 * -1
    .add 46 (.cp 11) (-1) 1,
    -- 1250: del ints.tmp52
    .del 11,
    -- 1251: tmp13 += ints.tmp56 * -2
    .add 46 (.cp 12) (-2) 1,
    -- 1252: del ints.tmp56
    .del 12,
    -- 1253: tmp13 += ints.tmp68 * -1
    .add 46 (.cp 13) (-1) 1,
    -- 1254: del ints.tmp68
    .del 13,
    -- 1255: tmp13 += ints.tmp69 * -1
    .add 46 (.cp 14) (-1) 1,
    -- 1256: del ints.tmp69
    .del 14,
    -- 1257: tmp6 = np.copy(ints.tmp35)
    .set 47 (.cp 15) 1 1,
    -- 1258: tmp6 += ints.tmp46 * -1
    .add 47 (.cp 16) (-1) 1,
    -- 1259: tmp8 = np.copy(ints.tmp20) * 2
    .set 48 (.cp 17) 2 1,
    -- 1260: del ints.tmp20
    .del 17,
    -- 1261: tmp8 += np.transpose(v.xov, (1, 2, 0))
    .add 48 (.tr 18 [1, 2, 0]) 1 1,
    -- 1262: tmp8 += ints.tmp17 * -1
    .add 48 (.cp 19) (-1) 1,
    -- 1263: del ints.tmp17
    .del 19,
    -- 1264: tmp11 = np.copy(ints.tmp1)
    .set 49 (.cp 20) 1 1,
    -- 1265: tmp11 += np.transpose(ints.tmp30, (0, 2, 1, 3))
    .add 49 (.tr 21 [0, 2, 1, 3]) 1 1,
    -- 1266: del ints.tmp30
    .del 21,
    -- 1267: tmp11 += np.transpose(ints.tmp43, (2, 1, 0, 3)) * 2
    .add 49 (.tr 22 [2, 1, 0, 3]) 2 1,
    -- 1268: del ints.tmp43
    .del 22,
    -- 1269: tmp11 += np.transpose(ints.tmp54, (2, 0, 1, 3))
    .add 49 (.tr 23 [2, 0, 1, 3]) 1 1,
    -- 1270: del ints.tmp54
    .del 23,
    -- 1271: tmp11 += np.transpose(ints.tmp42, (1, 2, 0, 3)) * -1
    .add 49 (.tr 24 [1, 2, 0, 3]) (-1) 1,
    -- 1272: del ints.tmp42
    .del 24,
    -- 1273: tmp11 += np.transpose(ints.tmp45, (2, 1, 0, 3)) * -1
    .add 49 (.tr 25 [2, 1, 0, 3]) (-1) 1,
    -- 1274: del ints.tmp45
    .del 25,
    -- 1275: tmp11 += np.transpose(ints.tmp57, (0, 2, 1, 3)) * -1
    .add 49 (.tr 26 [0, 2, 1, 3]) (-1) 1,
    -- 1276: del ints.tmp57
    .del 26,
    -- 1277: tmp7 = einsum(tmp3, (0, 1, 2), v.xov, (3, 0, 2), (1, 3)) * 0.5
    .set 50 (.ein [(44, [0, 1, 2]), (18, [3, 0, 2])] [1, 3]) 1 2,
    -- 1278: tmp5 = np.copy(ints.tmp35) * 0.5
    .set 51 (.cp 15) 1 2,
    -- 1279: del ints.tmp35
    .del 15,
    -- 1280: tmp5 += ints.tmp47
    .add 51 (.cp 27) 1 1,
    -- 1281: tmp5 += ints.tmp46 * -0.5
    .add 51 (.cp 16) (-1) 2,
    -- 1282: del ints.tmp46
    .del 16,
    -- 1283: tmp12 = np.copy(f.oo)
    .set 52 (.cp 28) 1 1,
    -- 1284: tmp12 += ints.tmp0
    .add 52 (.cp 29) 1 1,
    -- 1285: tmp12 += np.transpose(ints.tmp21, (1, 0)) * 2
    .add 52 (.tr 30 [1, 0]) 2 1,
    -- 1286: tmp12 += np.transpose(ints.tmp18, (1, 0)) * -1
    .add 52 (.tr 31 [1, 0]) (-1) 1,
    -- 1287: tmp10 = einsum(ints.tmp32, (0, 1, 2, 3), tmp3, (0, 1, 2), (3,)) * 0.5
    .set 53 (.ein [(32, [0, 1, 2, 3]), (44, [0, 1, 2])] [3]) 1 2,
    -- 1288: del ints.tmp32
    .del 32,
    -- 1289: tmp4 = np.copy(f.oo)
    .set 54 (.cp 28) 1 1,
    -- 1290: tmp4 += ints.tmp0
    .add 54 (.cp 29) 1 1,
    -- 1291: del ints.tmp0
    .del 29,
    -- 1292: tmp4 += np.transpose(ints.tmp21, (1, 0)) * 2
    .add 54 (.tr 30 [1, 0]) 2 1,
    -- 1293: del ints.tmp21
    .del 30,
    -- 1294: tmp4 += np.transpose(ints.tmp24, (1, 0)) * 2
    .add 54 (.tr 33 [1, 0]) 2 1,
    -- 1295: del ints.tmp24
    .del 33,
    -- 1296: tmp4 += np.transpose(ints.tmp7, (1, 0)) * 2
    .add 54 (.tr 34 [1, 0]) 2 1,
    -- 1297: del ints.tmp7
    .del 34,
    -- 1298: tmp4 += np.transpose(ints.tmp18, (1, 0)) * -1
    .add 54 (.tr 31 [1, 0]) (-1) 1,
    -- 1299: del ints.tmp18
    .del 31,
    -- 1300: tmp4 += np.transpose(ints.tmp23, (1, 0)) * -1
    .add 54 (.tr 35 [1, 0]) (-1) 1,
    -- 1301: del ints.tmp23
    .del 35,
    -- 1302: tmp4 += np.transpose(ints.tmp5, (1, 0)) * -1
    .add 54 (.tr 36 [1, 0]) (-1) 1,
    -- 1303: del ints.tmp5
    .del 36,
    -- 1304: tmp2 = np.copy(f.ov) * 0.5
    .set 55 (.cp 4) 1 2,
    -- 1305: tmp2 += ints.tmp11
    .add 55 (.cp 37) 1 1,
    -- 1306: del ints.tmp11
    .del 37,
    -- 1307: tmp2 += ints.tmp9 * -0.5
    .add 55 (.cp 38) (-1) 2,
    -- 1308: del ints.tmp9
    .del 38,
    -- 1309: tmp0 = np.copy(r2) * -1
    .set 56 (.cp 0) (-1) 1,
    -- 1310: tmp0 += np.transpose(r2, (1, 0, 2)) * 2
    .add 56 (.tr 0 [1, 0, 2]) 2 1,
    -- 1311: tmp1 = np.copy(r2)
    .set 57 (.cp 0) 1 1,
    -- 1312: tmp1 += np.transpose(r2, (1, 0, 2)) * -0.5
    .add 57 (.tr 0 [1, 0, 2]) (-1) 2,
    -- 1313: r2new = einsum(ints.tmp40, (0, 1, 2, 3), r2, (1, 3, 4), (2, 0, 4))
    .set 58 (.ein [(39, [0, 1, 2, 3]), (0, [1, 3, 4])] [2, 0, 4]) 1 1,
    -- 1314: del ints.tmp40
    .del 39,
    -- 1315: r2new += einsum(ints.tmp33, (0, 1, 2, 3), r2, (3, 2, 4), (1, 0, 4))
    .add 58 (.ein [(40, [0, 1, 2, 3]), (0, [3, 2, 4])] [1, 0, 4]) 1 1,
    -- 1316: del ints.tmp33
    .del 40,
    -- 1317: r2new += einsum(r2, (0, 1, 2), ints.tmp47, (3, 1, 4, 2), (3, 0, 4))
    .add 58 (.ein [(0, [0, 1, 2]), (27, [3, 1, 4, 2])] [3, 0, 4]) 1 1,
    -- 1318: del ints.tmp47
    .del 27,
    -- 1319: r2new += einsum(r2, (0, 1, 2), tmp5, (3, 0, 4, 2), (3, 1, 4)) * -2
    .add 58 (.ein [(0, [0, 1, 2]), (51, [3, 0, 4, 2])] [3, 1, 4]) (-2) 1,
    -- 1320: del tmp5
    .del 51,
    -- 1321: r2new += einsum(r2, (0, 1, 2), tmp6, (3, 1, 4, 2), (0, 3, 4)) * -1
    .add 58 (.ein [(0, [0, 1, 2]), (47, [3, 1, 4, 2])] [0, 3, 4]) (-1) 1,
    -- 1322: del tmp6
    .del 47,
    -- 1323: r2new += einsum(tmp8, (0, 1, 2), tmp7, (3, 2), (0, 3, 1)) * 2
    .add 58 (.ein [(48, [0, 1, 2]), (50, [3, 2])] [0, 3, 1]) 2 1,
    -- 1324: del tmp8, tmp7
    .del 48,
    .del 50,
    -- 1325: r2new += einsum(tmp9, (0, 1), r2, (2, 3, 0), (2, 3, 1)) * -1
    .add 58 (.ein [(45, [0, 1]), (0, [2, 3, 0])] [2, 3, 1]) (-1) 1,
    -- 1326: del tmp9
    .del 45,
    -- 1327: r2new += einsum(tmp10, (0,), t2, (1, 2, 3, 0), (1, 2, 3)) * -2
    .add 58 (.ein [(53, [0]), (41, [1, 2, 3, 0])] [1, 2, 3]) (-2) 1,
    -- 1328: del tmp10
    .del 53,
    -- 1329: r2new += einsum(r1, (0,), tmp11, (1, 0, 2, 3), (2, 1, 3))
    .add 58 (.ein [(42, [0]), (49, [1, 0, 2, 3])] [2, 1, 3]) 1 1,
    -- 1330: del tmp11
    .del 49,
    -- 1331: r2new += einsum(r2, (0, 1, 2), tmp12, (0, 3), (3, 1, 2)) * -1
    .add 58 (.ein [(0, [0, 1, 2]), (52, [0, 3])] [3, 1, 2]) (-1) 1,
    -- 1332: r2new += einsum(tmp12, (0, 1), r2, (2, 0, 3), (2, 1, 3)) * -1
    .add 58 (.ein [(52, [0, 1]), (0, [2, 0, 3])] [2, 1, 3]) (-1) 1,
    -- 1333: del tmp12
    .del 52,
    -- 1334: r2new += einsum(r1, (0,), tmp13, (1, 2), (1, 0, 2)) * -1
    .add 58 (.ein [(42, [0]), (46, [1, 2])] [1, 0, 2]) (-1) 1,
    -- 1335: del tmp13
    .del 46,
    -- 1336: r1new = einsum(ints.tmp14, (0, 1, 2, 3), tmp0, (2, 1, 3), (0,))
    .set 59 (.ein [(43, [0, 1, 2, 3]), (56, [2, 1, 3])] [0]) 1 1,
    -- 1337: del ints.tmp14, tmp0
    .del 43,
    .del 56,
    -- 1338: r1new += einsum(tmp1, (0, 1, 2), ints.tmp1, (3, 1, 0, 2), (3,)) * 2
    .add 59 (.ein [(57, [0, 1, 2]), (20, [3, 1, 0, 2])] [3]) 2 1,
    -- 1339: del ints.tmp1, tmp1
    .del 20,
    .del 57,
    -- 1340: r1new += einsum(tmp3, (0, 1, 2), tmp2, (0, 2), (1,)) * -2
    .add 59 (.ein [(44, [0, 1, 2]), (55, [0, 2])] [1]) (-2) 1,
    -- 1341: del tmp3, tmp2
    .del 44,
    .del 55,
    -- 1342: r1new += einsum(r1, (0,), tmp4, (0, 1), (1,)) * -1
    .add 59 (.ein [(42, [0]), (54, [0, 1])] [1]) (-1) 1,
    -- 1343: del tmp4
    .del 54
  ]
  ret := [(chars! "r1new", 59), (chars! "r2new", 58)]

/-- codegen/RDFCC2.py:1583-1745 `hbar_lmatvec_ip_intermediates`. -/
def hbar_lmatvec_ip_intermediates : GenFun where
  args := [chars! "v.xov", chars! "t1", chars! "t2", chars! "v.xvv", chars! "v.xoo", chars! "f.ov", chars! "f.vv", chars! "f.oo"]
  body := [
    -- 1665: tmp15 = einsum(v.xov, (0, 1, 2), t1, (1, 2), (0,))
    .set 8 (.ein [(0, [0, 1, 2]), (1, [1, 2])] [0]) 1 1,
    -- 1666: tmp13 = einsum(t1, (0, 1), v.xov, (2, 3, 1), (0, 3, 2))
    .set 9 (.ein [(1, [0, 1]), (0, [2, 3, 1])] [0, 3, 2]) 1 1,
    -- 1667: tmp22 = einsum(v.xov, (0, 1, 2), tmp15, (0,), (1, 2))
    .set 10 (.ein [(0, [0, 1, 2]), (8, [0])] [1, 2]) 1 1,
    -- 1668: tmp62 = einsum(v.xov, (0, 1, 2), tmp13, (1, 3, 0), (3, 2))
    .set 11 (.ein [(0, [0, 1, 2]), (9, [1, 3, 0])] [3, 2]) 1 1,
    -- 1669: tmp101 = einsum(v.xov, (0, 1, 2), v.xov, (0, 3, 4), (1, 3, 2, 4))
    .set 12 (.ein [(0, [0, 1, 2]), (0, [0, 3, 4])] [1, 3, 2, 4]) 1 1,
    -- 1670: tmp32 = einsum(v.xov, (0, 1, 2), t2, (3, 1, 2, 4), (3, 4, 0))
    .set 13 (.ein [(0, [0, 1, 2]), (2, [3, 1, 2, 4])] [3, 4, 0]) 1 1,
    -- 1671: tmp35 = einsum(v.xov, (0, 1, 2), t2, (3, 1, 4, 2), (3, 4, 0))
    .set 14 (.ein [(0, [0, 1, 2]), (2, [3, 1, 4, 2])] [3, 4, 0]) 1 1,
    -- 1672: tmp133 = einsum(tmp13, (0, 1, 2), tmp13, (3, 4, 2), (0, 3, 1, 4))
    .set 15 (.ein [(9, [0, 1, 2]), (9, [3, 4, 2])] [0, 3, 1, 4]) 1 1,
    -- 1673: tmp107 = einsum(t1, (0, 1), tmp22, (2, 1), (0, 2))
    .set 16 (.ein [(1, [0, 1]), (10, [2, 1])] [0, 2]) 1 1,
    -- 1674: tmp106 = einsum(tmp62, (0, 1), t1, (2, 1), (2, 0))
    .set 17 (.ein [(11, [0, 1]), (1, [2, 1])] [2, 0]) 1 1,
    -- 1675: tmp25 = einsum(v.xvv, (0, 1, 2), t1, (3, 2), (3, 1, 0))
    .set 18 (.ein [(3, [0, 1, 2]), (1, [3, 2])] [3, 1, 0]) 1 1,
    -- 1676: tmp119 = einsum(v.xvv, (0, 1, 2), tmp15, (0,), (1, 2))
    .set 19 (.ein [(3, [0, 1, 2]), (8, [0])] [1, 2]) 1 1,
    -- 1677: tmp114 = einsum(v.xoo, (0, 1, 2), tmp13, (3, 4, 0), (3, 1, 2, 4))
    .set 20 (.ein [(4, [0, 1, 2]), (9, [3, 4, 0])] [3, 1, 2, 4]) 1 1,
    -- 1678: tmp16 = einsum(v.xoo, (0, 1, 2), tmp15, (0,), (1, 2))
    .set 21 (.ein [(4, [0, 1, 2]), (8, [0])] [1, 2]) 1 1,
    -- 1679: del tmp15
    .del 8,
    -- 1680: tmp14 = einsum(v.xoo, (0, 1, 2), tmp13, (2, 3, 0), (1, 3))
    .set 22 (.ein [(4, [0, 1, 2]), (9, [2, 3, 0])] [1, 3]) 1 1,
    -- 1681: tmp102 = einsum(t2, (0, 1, 2, 3), tmp101, (4, 5, 3, 2), (0, 1, 5, 4))
    .set 23 (.ein [(2, [0, 1, 2, 3]), (12, [4, 5, 3, 2])] [0, 1, 5, 4]) 1 1,
    -- 1682: tmp33 = einsum(tmp32, (0, 1, 2), v.xov, (2, 3, 1), (0, 3))
    .set 24 (.ein [(13, [0, 1, 2]), (0, [2, 3, 1])] [0, 3]) 1 1,
    -- 1683: tmp36 = einsum(tmp35, (0, 1, 2), v.xov, (2, 3, 1), (0, 3))
    .set 25 (.ein [(14, [0, 1, 2]), (0, [2, 3, 1])] [0, 3]) 1 1,
    -- 1684: tmp28 = einsum(tmp13, (0, 1, 2), v.xov, (2, 3, 4), (0, 3, 1, 4))
    .set 26 (.ein [(9, [0, 1, 2]), (0, [2, 3, 4])] [0, 3, 1, 4]) 1 1,
    -- 1685: tmp58 = einsum(v.xvv, (0, 1, 2), v.xov, (0, 3, 4), (3, 1, 2, 4))
    .set 27 (.ein [(3, [0, 1, 2]), (0, [0, 3, 4])] [3, 1, 2, 4]) 1 1,
    -- 1686: tmp10 = einsum(v.xov, (0, 1, 2), v.xoo, (0, 3, 4), (3, 4, 1, 2))
    .set 28 (.ein [(0, [0, 1, 2]), (4, [0, 3, 4])] [3, 4, 1, 2]) 1 1,
    -- 1687: tmp18 = einsum(v.xoo, (0, 1, 2), v.xoo, (0, 3, 4), (1, 3, 4, 2))
    .set 29 (.ein [(4, [0, 1, 2]), (4, [0, 3, 4])] [1, 3, 4, 2]) 1 1,
    -- 1688: tmp0 = einsum(f.ov, (0, 1), t1, (2, 1), (0, 2))
    .set 30 (.ein [(5, [0, 1]), (1, [2, 1])] [0, 2]) 1 1,
    -- 1689: tmp163 = einsum(tmp35, (0, 1, 2), v.xov, (2, 0, 3), (1, 3))
    .set 31 (.ein [(14, [0, 1, 2]), (0, [2, 0, 3])] [1, 3]) 1 1,
    -- 1690: tmp161 = einsum(v.xov, (0, 1, 2), tmp32, (1, 3, 0), (3, 2))
    .set 32 (.ein [(0, [0, 1, 2]), (13, [1, 3, 0])] [3, 2]) 1 1,
    -- 1691: tmp142 = einsum(tmp101, (0, 1, 2, 3), t2, (4, 0, 5, 3), (4, 1, 5, 2))
    .set 33 (.ein [(12, [0, 1, 2, 3]), (2, [4, 0, 5, 3])] [4, 1, 5, 2]) 1 1,
    -- 1692: tmp141 = einsum(tmp101, (0, 1, 2, 3), t2, (4, 0, 3, 5), (4, 1, 5, 2))
    .set 34 (.ein [(12, [0, 1, 2, 3]), (2, [4, 0, 3, 5])] [4, 1, 5, 2]) 1 1,
    -- 1693: tmp139 = einsum(v.xvv, (0, 1, 2), v.xoo, (0, 3, 4), (3, 4, 1, 2))
    .set 35 (.ein [(3, [0, 1, 2]), (4, [0, 3, 4])] [3, 4, 1, 2]) 1 1,
    -- 1694: tmp134 = einsum(tmp133, (0, 1, 2, 3), t1, (3, 4), (0, 1, 2, 4))
    .set 36 (.ein [(15, [0, 1, 2, 3]), (1, [3, 4])] [0, 1, 2, 4]) 1 1,
    -- 1695: del tmp133
    .del 15,
    -- 1696: tmp130 = einsum(tmp107, (0, 1), t1, (1, 2), (0, 2))
    .set 37 (.ein [(16, [0, 1]), (1, [1, 2])] [0, 2]) 1 1,
    -- 1697: tmp128 = einsum(tmp106, (0, 1), t1, (1, 2), (0, 2))
    .set 38 (.ein [(17, [0, 1]), (1, [1, 2])] [0, 2]) 1 1,
    -- 1698: tmp125 = einsum(tmp25, (0, 1, 2), tmp13, (3, 4, 2), (3, 0, 4, 1))
    .set 39 (.ein [(18, [0, 1, 2]), (9, [3, 4, 2])] [3, 0, 4, 1]) 1 1,
    -- 1699: tmp123 = einsum(tmp13, (0, 1, 2), tmp25, (1, 3, 2), (0, 3))
    .set 40 (.ein [(9, [0, 1, 2]), (18, [1, 3, 2])] [0, 3]) 1 1,
    -- 1700: tmp120 = einsum(tmp119, (0, 1), t1, (2, 1), (2, 0))
    .set 41 (.ein [(19, [0, 1]), (1, [2, 1])] [2, 0]) 1 1,
    -- 1701: del tmp119
    .del 19,
    -- 1702: tmp117 = einsum(t1, (0, 1), tmp114, (2, 3, 4, 0), (2, 3, 4, 1))
    .set 42 (.ein [(1, [0, 1]), (20, [2, 3, 4, 0])] [2, 3, 4, 1]) 1 1,
    -- 1703: tmp115 = einsum(t1, (0, 1), tmp114, (2, 3, 0, 4), (2, 3, 4, 1))
    .set 43 (.ein [(1, [0, 1]), (20, [2, 3, 0, 4])] [2, 3, 4, 1]) 1 1,
    -- 1704: del tmp114
    .del 20,
    -- 1705: tmp111 = einsum(tmp16, (0, 1), t1, (1, 2), (0, 2))
    .set 44 (.ein [(21, [0, 1]), (1, [1, 2])] [0, 2]) 1 1,
    -- 1706: tmp109 = einsum(tmp14, (0, 1), t1, (1, 2), (0, 2))
    .set 45 (.ein [(22, [0, 1]), (1, [1, 2])] [0, 2]) 1 1,
    -- 1707: tmp103 = einsum(tmp102, (0, 1, 2, 3), t1, (2, 4), (1, 0, 3, 4))
    .set 46 (.ein [(23, [0, 1, 2, 3]), (1, [2, 4])] [1, 0, 3, 4]) 1 1,
    -- 1708: tmp98 = einsum(tmp33, (0, 1), t1, (1, 2), (0, 2))
    .set 47 (.ein [(24, [0, 1]), (1, [1, 2])] [0, 2]) 1 1,
    -- 1709: tmp95 = einsum(tmp36, (0, 1), t1, (1, 2), (0, 2))
    .set 48 (.ein [(25, [0, 1]), (1, [1, 2])] [0, 2]) 1 1,
    -- 1710: tmp93 = einsum(tmp28, (0, 1, 2, 3), t2, (4, 2, 5, 3), (0, 4, 1, 5))
    .set 49 (.ein [(26, [0, 1, 2, 3]), (2, [4, 2, 5, 3])] [0, 4, 1, 5]) 1 1,
    -- 1711: tmp91 = einsum(tmp28, (0, 1, 2, 3), t2, (4, 2, 3, 5), (0, 4, 1, 5))
    .set 50 (.ein [(26, [0, 1, 2, 3]), (2, [4, 2, 3, 5])] [0, 4, 1, 5]) 1 1,
    -- 1712: tmp88 = einsum(tmp35, (0, 1, 2), tmp13, (3, 4, 2), (3, 0, 4, 1))
    .set 51 (.ein [(14, [0, 1, 2]), (9, [3, 4, 2])] [3, 0, 4, 1]) 1 1,
    -- 1713: tmp86 = einsum(tmp13, (0, 1, 2), tmp32, (3, 4, 2), (0, 3, 1, 4))
    .set 52 (.ein [(9, [0, 1, 2]), (13, [3, 4, 2])] [0, 3, 1, 4]) 1 1,
    -- 1714: del tmp13
    .del 9,
    -- 1715: tmp83 = einsum(t2, (0, 1, 2, 3), tmp28, (4, 1, 0, 2), (4, 3))
    .set 53 (.ein [(2, [0, 1, 2, 3]), (26, [4, 1, 0, 2])] [4, 3]) 1 1,
    -- 1716: tmp80 = einsum(t2, (0, 1, 2, 3), tmp28, (4, 1, 0, 3), (4, 2))
    .set 54 (.ein [(2, [0, 1, 2, 3]), (26, [4, 1, 0, 3])] [4, 2]) 1 1,
    -- 1717: tmp77 = einsum(tmp22, (0, 1), t2, (2, 3, 4, 1), (2, 3, 0, 4))
    .set 55 (.ein [(10, [0, 1]), (2, [2, 3, 4, 1])] [2, 3, 0, 4]) 1 1,
    -- 1718: tmp74 = einsum(t2, (0, 1, 2, 3), tmp62, (4, 3), (0, 1, 4, 2))
    .set 56 (.ein [(2, [0, 1, 2, 3]), (11, [4, 3])] [0, 1, 4, 2]) 1 1,
    -- 1719: tmp71 = einsum(t2, (0, 1, 2, 3), tmp22, (1, 3), (0, 2))
    .set 57 (.ein [(2, [0, 1, 2, 3]), (10, [1, 3])] [0, 2]) 1 1,
    -- 1720: tmp68 = einsum(t2, (0, 1, 2, 3), tmp22, (1, 2), (0, 3))
    .set 58 (.ein [(2, [0, 1, 2, 3]), (10, [1, 2])] [0, 3]) 1 1,
    -- 1721: tmp65 = einsum(tmp62, (0, 1), t2, (2, 0, 3, 1), (2, 3))
    .set 59 (.ein [(11, [0, 1]), (2, [2, 0, 3, 1])] [2, 3]) 1 1,
    -- 1722: tmp63 = einsum(t2, (0, 1, 2, 3), tmp62, (1, 2), (0, 3))
    .set 60 (.ein [(2, [0, 1, 2, 3]), (11, [1, 2])] [0, 3]) 1 1,
    -- 1723: del tmp62
    .del 11,
    -- 1724: tmp59 = einsum(t2, (0, 1, 2, 3), tmp58, (4, 5, 3, 2), (0, 1, 4, 5))
    .set 61 (.ein [(2, [0, 1, 2, 3]), (27, [4, 5, 3, 2])] [0, 1, 4, 5]) 1 1,
    -- 1725: del tmp58
    .del 27,
    -- 1726: tmp55 = einsum(v.xvv, (0, 1, 2), tmp32, (3, 2, 0), (3, 1))
    .set 62 (.ein [(3, [0, 1, 2]), (13, [3, 2, 0])] [3, 1]) 1 1,
    -- 1727: tmp52 = einsum(tmp35, (0, 1, 2), v.xvv, (2, 3, 1), (0, 3))
    .set 63 (.ein [(14, [0, 1, 2]), (3, [2, 3, 1])] [0, 3]) 1 1,
    -- 1728: tmp50 = einsum(tmp35, (0, 1, 2), v.xoo, (2, 3, 4), (0, 3, 4, 1))
    .set 64 (.ein [(14, [0, 1, 2]), (4, [2, 3, 4])] [0, 3, 4, 1]) 1 1,
    -- 1729: tmp48 = einsum(tmp32, (0, 1, 2), v.xoo, (2, 3, 4), (0, 3, 4, 1))
    .set 65 (.ein [(13, [0, 1, 2]), (4, [2, 3, 4])] [0, 3, 4, 1]) 1 1,
    -- 1730: tmp46 = einsum(tmp10, (0, 1, 2, 3), t2, (4, 0, 5, 3), (4, 1, 2, 5))
    .set 66 (.ein [(28, [0, 1, 2, 3]), (2, [4, 0, 5, 3])] [4, 1, 2, 5]) 1 1,
    -- 1731: tmp44 = einsum(tmp10, (0, 1, 2, 3), t2, (4, 0, 3, 5), (4, 1, 2, 5))
    .set 67 (.ein [(28, [0, 1, 2, 3]), (2, [4, 0, 3, 5])] [4, 1, 2, 5]) 1 1,
    -- 1732: tmp41 = einsum(t2, (0, 1, 2, 3), tmp10, (0, 4, 1, 3), (4, 2))
    .set 68 (.ein [(2, [0, 1, 2, 3]), (28, [0, 4, 1, 3])] [4, 2]) 1 1,
    -- 1733: tmp38 = einsum(t2, (0, 1, 2, 3), tmp10, (0, 4, 1, 2), (4, 3))
    .set 69 (.ein [(2, [0, 1, 2, 3]), (28, [0, 4, 1, 2])] [4, 3]) 1 1,
    -- 1734: tmp30 = einsum(tmp25, (0, 1, 2), v.xoo, (2, 3, 4), (0, 3, 4, 1))
    .set 70 (.ein [(18, [0, 1, 2]), (4, [2, 3, 4])] [0, 3, 4, 1]) 1 1,
    -- 1735: tmp26 = einsum(tmp25, (0, 1, 2), v.xoo, (2, 3, 0), (3, 1))
    .set 71 (.ein [(18, [0, 1, 2]), (4, [2, 3, 0])] [3, 1]) 1 1,
    -- 1736: del tmp25
    .del 18,
    -- 1737: tmp19 = einsum(t1, (0, 1), tmp18, (2, 0, 3, 4), (4, 2, 3, 1))
    .set 72 (.ein [(1, [0, 1]), (29, [2, 0, 3, 4])] [4, 2, 3, 1]) 1 1,
    -- 1738: tmp9 = einsum(tmp0, (0, 1), t1, (0, 2), (1, 2))
    .set 73 (.ein [(30, [0, 1]), (1, [0, 2])] [1, 2]) 1 1,
    -- 1739: tmp6 = einsum(t2, (0, 1, 2, 3), f.ov, (4, 3), (4, 0, 1, 2))
    .set 74 (.ein [(2, [0, 1, 2, 3]), (5, [4, 3])] [4, 0, 1, 2]) 1 1,
    -- 1740: tmp4 = einsum(f.ov, (0, 1), t2, (2, 0, 3, 1), (2, 3))
    .set 75 (.ein [(5, [0, 1]), (2, [2, 0, 3, 1])] [2, 3]) 1 1,
    -- 1741: tmp3 = einsum(f.ov, (0, 1), t2, (2, 0, 1, 3), (2, 3))
    .set 76 (.ein [(5, [0, 1]), (2, [2, 0, 1, 3])] [2, 3]) 1 1,
    -- 1742: tmp2 = einsum(f.vv, (0, 1), t1, (2, 1), (2, 0))
    .set 77 (.ein [(6, [0, 1]), (1, [2, 1])] [2, 0]) 1 1,
    -- 1743: tmp1 = einsum(f.oo, (0, 1), t1, (1, 2), (0, 2))
    .set 78 (.ein [(7, [0, 1]), (1, [1, 2])] [0, 2]) 1 1
  ]
  ret := [(chars! "tmp0", 30), (chars! "tmp1", 78), (chars! "tmp10", 28), (chars! "tmp101", 12), (chars! "tmp102", 23), (chars! "tmp103", 46), (chars! "tmp106", 17), (chars! "tmp107", 16), (chars! "tmp109", 45), (chars! "tmp111", 44), (chars! "tmp115", 43), (chars! "tmp117", 42), (chars! "tmp120", 41), (chars! "tmp123", 40), (chars! "tmp125", 39), (chars! "tmp128", 38), (chars! "tmp130", 37), (chars! "tmp134", 36), (chars! "tmp139", 35), (chars! "tmp14", 22), (chars! "tmp141", 34), (chars! "tmp142", 33), (chars! "tmp16", 21), (chars! "tmp161", 32), (chars! "tmp163", 31), (chars! "tmp18", 29), (chars! "tmp19", 72), (chars! "tmp2", 77), (chars! "tmp22", 10), (chars! "tmp26", 71), (chars! "tmp28", 26), (chars! "tmp3", 76), (chars! "tmp30", 70), (chars! "tmp32", 13), (chars! "tmp33", 24), (chars! "tmp35", 14), (chars! "tmp36", 25), (chars! "tmp38", 69), (chars! "tmp4", 75), (chars! "tmp41", 68), (chars! "tmp44", 67), (chars! "tmp46", 66), (chars! "tmp48", 65), (chars! "tmp50", 64), (chars! "tmp52", 63), (chars! "tmp55", 62), (chars! "tmp59", 61), (chars! "tmp6", 74), (chars! "tmp63", 60), (chars! "tmp65", 59), (chars! "tmp68", 58), (chars! "tmp71", 57), (chars! "tmp74", 56), (chars! "tmp77", 55), (chars! "tmp80", 54), (chars! "tmp83", 53), (chars! "tmp86", 52), (chars! "tmp88", 51), (chars! "tmp9", 73), (chars! "tmp91", 50), (chars! "tmp93", 49), (chars! "tmp95", 48), (chars! "tmp98", 47)]

/-- codegen/RDFCC2.py:1747-1947 `hbar_lmatvec_ip`. -/
def hbar_lmatvec_ip : GenFun where
  args := [chars! "t2", chars! "ints.tmp35", chars! "v.xov", chars! "ints.tmp32", chars! "r2", chars! "ints.tmp139", chars! "ints.tmp141", chars! "ints.tmp163", chars! "f.vv", chars! "ints.tmp161", chars! "t1", chars! "f.ov", chars! "ints.tmp142", chars! "f.oo", chars! "ints.tmp0", chars! "ints.tmp36", chars! "ints.tmp33", chars! "ints.tmp107", chars! "ints.tmp16", chars! "ints.tmp106", chars! "ints.tmp14", chars! "ints.tmp111", chars! "ints.tmp123", chars! "ints.tmp130", chars! "ints.tmp1", chars! "ints.tmp26", chars! "ints.tmp3", chars! "ints.tmp41", chars! "ints.tmp55", chars! "ints.tmp65", chars! "ints.tmp68", chars! "ints.tmp80", chars! "ints.tmp95", chars! "ints.tmp9", chars! "ints.tmp109", chars! "ints.tmp120", chars! "ints.tmp128", chars! "ints.tmp22", chars! "ints.tmp2", chars! "ints.tmp38", chars! "ints.tmp4", chars! "ints.tmp52", chars! "ints.tmp63", chars! "ints.tmp71", chars! "ints.tmp83", chars! "ints.tmp98", chars! "ints.tmp103", chars! "ints.tmp115", chars! "ints.tmp134", chars! "ints.tmp19", chars! "ints.tmp44", chars! "ints.tmp86", chars! "ints.tmp93", chars! "ints.tmp10", chars! "ints.tmp125", chars! "ints.tmp28", chars! "ints.tmp59", chars! "ints.tmp88", chars! "ints.tmp117", chars! "ints.tmp46", chars! "ints.tmp48", chars! "ints.tmp74", chars! "ints.tmp91", chars! "ints.tmp30", chars! "ints.tmp50", chars! "ints.tmp6", chars! "ints.tmp77", chars! "r1", chars! "ints.tmp18", chars! "ints.tmp102", chars! "ints.tmp101"]
  body := [
    -- 1775: tmp12 = np.copy(np.transpose(t2, (0, 1, 3, 2)))
    .set 71 (.tr 0 [0, 1, 3, 2]) 1 1,
    -- 1776: tmp12 += t2 * -0.5
    .add 71 (.cp 0) (-1) 2,
    -- 1777: tmp9 = np.copy(ints.tmp35) * 2
    .set 72 (.cp 1) 2 1,
    -- 1778: del ints.tmp35
    .del 1,
    -- 1779: tmp9 += np.transpose(v.xov, (1, 2, 0))
    .add 72 (.tr 2 [1, 2, 0]) 1 1,
    -- 1780: tmp9 += ints.tmp32 * -1
    .add 72 (.cp 3) (-1) 1,
    -- 1781: del ints.tmp32
    .del 3,
    -- 1782: tmp0 = np.copy(r2)
    .set 73 (.cp 4) 1 1,
    -- 1783: tmp0 += np.transpose(r2, (1, 0, 2)) * -0.5
    .add 73 (.tr 4 [1, 0, 2]) (-1) 2,
    -- 1784: tmp13 = einsum(r2, (0, 1, 2), tmp12, (0, 1, 3, 2), (3,))
    .set 74 (.ein [(4, [0, 1, 2]), (71, [0, 1, 3, 2])] [3]) 1 1,
    -- 1785: del tmp12
    .del 71,
    -- 1786: tmp8 = np.copy(ints.tmp139)
    .set 75 (.cp 5) 1 1,
    -- 1787: tmp8 += ints.tmp141 * -1
    .add 75 (.cp 6) (-1) 1,
    -- 1788: tmp11 = np.copy(ints.tmp163) * 2
    .set 76 (.cp 7) 2 1,
    -- 1789: del ints.tmp163
    .del 7,
    -- 1790: tmp11 += f.vv * -1
    .add 76 (.cp 8) (-1) 1,
    -- 1791: tmp11 += ints.tmp161 * -1
    .add 76 (.cp 9) (-1) 1,
    -- 1792: del ints.tmp161
    .del 9,
    -- 1793: tmp11 += einsum(t1, (0, 1), f.ov, (0, 2), (1, 2))
    .add 76 (.ein [(10, [0, 1]), (11, [0, 2])] [1, 2]) 1 1,
    -- 1794: tmp7 = np.copy(ints.tmp139) * 0.5
    .set 77 (.cp 5) 1 2,
    -- 1795: del ints.tmp139
    .del 5,
    -- 1796: tmp7 += ints.tmp142
    .add 77 (.cp 12) 1 1,
    -- 1797: tmp7 += ints.tmp141 * -0.5
    .add 77 (.cp 6) (-1) 2,
    -- 1798: del ints.tmp141
    .del 6,
    -- 1799: tmp14 = np.copy(f.oo)
    .set 78 (.cp 13) 1 1,
    -- 1800: tmp14 += np.transpose(ints.tmp0, (1, 0))
    .add 78 (.tr 14 [1, 0]) 1 1,
    -- 1801: tmp14 += ints.tmp36 * 2
    .add 78 (.cp 15) 2 1,
    -- 1802: tmp14 += ints.tmp33 * -1
    .add 78 (.cp 16) (-1) 1,
    -- 1803: tmp10 = einsum(tmp9, (0, 1, 2), tmp0, (0, 3, 1), (3, 2)) * 2
    .set 79 (.ein [(72, [0, 1, 2]), (73, [0, 3, 1])] [3, 2]) 2 1,
    -- 1804: del tmp9
    .del 72,
    -- 1805: tmp6 = np.copy(f.oo)
    .set 80 (.cp 13) 1 1,
    -- 1806: tmp6 += np.transpose(ints.tmp0, (1, 0))
    .add 80 (.tr 14 [1, 0]) 1 1,
    -- 1807: del ints.tmp0
    .del 14,
    -- 1808: tmp6 += ints.tmp107 * 2
    .add 80 (.cp 17) 2 1,
    -- 1809: del ints.tmp107
    .del 17,
    -- 1810: tmp6 += np.transpose(ints.tmp16, (1, 0)) * 2
    .add 80 (.tr 18 [1, 0]) 2 1,
    -- 1811: del ints.tmp16
    .del 18,
    -- 1812: tmp6 += ints.tmp36 * 2
    .add 80 (.cp 15) 2 1,
    -- 1813: del ints.tmp36
    .del 15,
    -- 1814: tmp6 += ints.tmp106 * -1
    .add 80 (.cp 19) (-1) 1,
    -- 1815: del ints.tmp106
    .del 19,
    -- 1816: tmp6 += ints.tmp14 * -1
    .add 80 (.cp 20) (-1) 1,
    -- 1817: del ints.tmp14
    .del 20,
    -- 1818: tmp6 += ints.tmp33 * -1
    .add 80 (.cp 16) (-1) 1,
    -- 1819: del ints.tmp33
    .del 16,
    -- 1820: tmp4 = np.copy(ints.tmp111) * 2
    .set 81 (.cp 21) 2 1,
    -- 1821: del ints.tmp111
    .del 21,
    -- 1822: tmp4 += ints.tmp123
    .add 81 (.cp 22) 1 1,
    -- 1823: del ints.tmp123
    .del 22,
    -- 1824: tmp4 += ints.tmp130 * 2
    .add 81 (.cp 23) 2 1,
    -- 1825: del ints.tmp130
    .del 23,
    -- 1826: tmp4 += ints.tmp1
    .add 81 (.cp 24) 1 1,
    -- 1827: del ints.tmp1
    .del 24,
    -- 1828: tmp4 += ints.tmp26
    .add 81 (.cp 25) 1 1,
    -- 1829: del ints.tmp26
    .del 25,
    -- 1830: tmp4 += ints.tmp3
    .add 81 (.cp 26) 1 1,
    -- 1831: del ints.tmp3
    .del 26,
    -- 1832: tmp4 += ints.tmp41 * 2
    .add 81 (.cp 27) 2 1,
    -- 1833: del ints.tmp41
    .del 27,
    -- 1834: tmp4 += ints.tmp55
    .add 81 (.cp 28) 1 1,
    -- 1835: del ints.tmp55
    .del 28,
    -- 1836: tmp4 += ints.tmp65 * 2
    .add 81 (.cp 29) 2 1,
    -- 1837: del ints.tmp65
    .del 29,
    -- 1838: tmp4 += ints.tmp68 * 2
    .add 81 (.cp 30) 2 1,
    -- 1839: del ints.tmp68
    .del 30,
    -- 1840: tmp4 += ints.tmp80 * 2
    .add 81 (.cp 31) 2 1,
    -- 1841: del ints.tmp80
    .del 31,
    -- 1842: tmp4 += ints.tmp95 * 2
    .add 81 (.cp 32) 2 1,
    -- 1843: del ints.tmp95
    .del 32,
    -- 1844: tmp4 += ints.tmp9
    .add 81 (.cp 33) 1 1,
    -- 1845: del ints.tmp9
    .del 33,
    -- 1846: tmp4 += f.ov * -1
    .add 81 (.cp 11) (-1) 1,
    -- 1847: tmp4 += ints.tmp109 * -1
    .add 81 (.cp 34) (-1) 1,
    -- 1848: del ints.tmp109
    .del 34,
    -- 1849: tmp4 += ints.tmp120 * -2
    .add 81 (.cp 35) (-2) 1,
    -- 1850: del ints.tmp120
    .del 35,
    -- 1851: tmp4 += ints.tmp128 * -1
    .add 81 (.cp 36) (-1) 1,
    -- 1852: del ints.tmp128
    .del 36,
    -- 1853: tmp4 += ints.tmp22 * -2
    .add 81 (.cp 37) (-2) 1,
    -- 1854: del ints.tmp22
    .del 37,
    -- 1855: tmp4 += ints.tmp2 * -1
    .add 81 (.cp 38) (-1) 1,
    -- 1856: del ints.tmp2
    .del 38,
    -- 1857: tmp4 += ints.tmp38 * -1
    .add 81 (.cp 39) (-1) 1,
    -- 1858: del ints.tmp38
    .del 39,
    -- 1859: tmp4 += ints.tmp4 * -2
    .add 81 (.cp 40) (-2) 1,
    -- 1860: del ints.tmp4
    .del 40,
    -- 1861: tmp4 += ints.tmp52 * -2
    .add 81 (.cp 41) (-2) 1,
    -- 1862: del ints.tmp52
    .del 41,
    -- 1863: tmp4 += ints.tmp63 * -1
    .add 81 (.cp 42) (-1) 1,
    -- 1864: del ints.tmp63
    .del 42,
    -- 1865: tmp4 += ints.tmp71 * -4
    .add 81 (.cp 43) (-4) 1,
    -- 1866: del ints.tmp71
    .del 43,
    -- 1867: tmp4 += ints.tmp83 * -1
    .add 81 (.cp 44) (-1) 1,
    -- 1868: del ints.tmp83
    .del 44,
    -- 1869: tmp4 += ints.tmp98 * -1
    .add 81 (.cp 45) (-1) 1,
    -- 1870: del ints.tmp98
    .del 45,
    -- 1871: tmp2 = np.copy(r2) * -1
    .set 82 (.cp 4) (-1) 1,
    -- 1872: tmp2 += np.transpose(r2, (1, 0, 2)) * 2
    .add 82 (.tr 4 [1, 0, 2]) 2 1,
    -- 1873: tmp1 = np.copy(ints.tmp103)
    .set 83 (.cp 46) 1 1,
    -- 1874: del ints.tmp103
    .del 46,
    -- 1875: tmp1 += ints.tmp115
    .add 83 (.cp 47) 1 1,
    -- 1876: del ints.tmp115
    .del 47,
    -- 1877: tmp1 += ints.tmp134
    .add 83 (.cp 48) 1 1,
    -- 1878: del ints.tmp134
    .del 48,
    -- 1879: tmp1 += np.transpose(ints.tmp19, (0, 2, 1, 3))
    .add 83 (.tr 49 [0, 2, 1, 3]) 1 1,
    -- 1880: del ints.tmp19
    .del 49,
    -- 1881: tmp1 += ints.tmp44
    .add 83 (.cp 50) 1 1,
    -- 1882: del ints.tmp44
    .del 50,
    -- 1883: tmp1 += ints.tmp86
    .add 83 (.cp 51) 1 1,
    -- 1884: del ints.tmp86
    .del 51,
    -- 1885: tmp1 += ints.tmp93
    .add 83 (.cp 52) 1 1,
    -- 1886: del ints.tmp93
    .del 52,
    -- 1887: tmp1 += np.transpose(ints.tmp10, (1, 2, 0, 3)) * -1
    .add 83 (.tr 53 [1, 2, 0, 3]) (-1) 1,
    -- 1888: tmp1 += ints.tmp125 * -1
    .add 83 (.cp 54) (-1) 1,
    -- 1889: del ints.tmp125
    .del 54,
    -- 1890: tmp1 += ints.tmp28 * -1
    .add 83 (.cp 55) (-1) 1,
    -- 1891: del ints.tmp28
    .del 55,
    -- 1892: tmp1 += ints.tmp59 * -1
    .add 83 (.cp 56) (-1) 1,
    -- 1893: del ints.tmp59
    .del 56,
    -- 1894: tmp1 += ints.tmp88 * -2
    .add 83 (.cp 57) (-2) 1,
    -- 1895: del ints.tmp88
    .del 57,
    -- 1896: tmp3 = np.copy(ints.tmp117)
    .set 84 (.cp 58) 1 1,
    -- 1897: del ints.tmp117
    .del 58,
    -- 1898: tmp3 += np.transpose(ints.tmp46, (0, 2, 1, 3))
    .add 84 (.tr 59 [0, 2, 1, 3]) 1 1,
    -- 1899: del ints.tmp46
    .del 59,
    -- 1900: tmp3 += np.transpose(ints.tmp48, (0, 2, 1, 3))
    .add 84 (.tr 60 [0, 2, 1, 3]) 1 1,
    -- 1901: del ints.tmp48
    .del 60,
    -- 1902: tmp3 += np.transpose(ints.tmp74, (0, 2, 1, 3))
    .add 84 (.tr 61 [0, 2, 1, 3]) 1 1,
    -- 1903: del ints.tmp74
    .del 61,
    -- 1904: tmp3 += np.transpose(ints.tmp91, (0, 2, 1, 3))
    .add 84 (.tr 62 [0, 2, 1, 3]) 1 1,
    -- 1905: del ints.tmp91
    .del 62,
    -- 1906: tmp3 += ints.tmp30 * -1
    .add 84 (.cp 63) (-1) 1,
    -- 1907: del ints.tmp30
    .del 63,
    -- 1908: tmp3 += np.transpose(ints.tmp50, (0, 2, 1, 3)) * -2
    .add 84 (.tr 64 [0, 2, 1, 3]) (-2) 1,
    -- 1909: del ints.tmp50
    .del 64,
    -- 1910: tmp3 += np.transpose(ints.tmp6, (1, 0, 2, 3)) * -1
    .add 84 (.tr 65 [1, 0, 2, 3]) (-1) 1,
    -- 1911: del ints.tmp6
    .del 65,
    -- 1912: tmp3 += np.transpose(ints.tmp77, (0, 2, 1, 3)) * -2
    .add 84 (.tr 66 [0, 2, 1, 3]) (-2) 1,
    -- 1913: del ints.tmp77
    .del 66,
    -- 1914: tmp5 = np.copy(r2) * 2
    .set 85 (.cp 4) 2 1,
    -- 1915: tmp5 += np.transpose(r2, (1, 0, 2)) * -1
    .add 85 (.tr 4 [1, 0, 2]) (-1) 1,
    -- 1916: r2new = einsum(r1, (0,), ints.tmp10, (1, 0, 2, 3), (2, 1, 3))
    .set 86 (.ein [(67, [0]), (53, [1, 0, 2, 3])] [2, 1, 3]) 1 1,
    -- 1917: del ints.tmp10
    .del 53,
    -- 1918: r2new += einsum(ints.tmp18, (0, 1, 2, 3), r2, (2, 3, 4), (1, 0, 4))
    .add 86 (.ein [(68, [0, 1, 2, 3]), (4, [2, 3, 4])] [1, 0, 4]) 1 1,
    -- 1919: del ints.tmp18
    .del 68,
    -- 1920: r2new += einsum(ints.tmp102, (0, 1, 2, 3), r2, (1, 0, 4), (3, 2, 4))
    .add 86 (.ein [(69, [0, 1, 2, 3]), (4, [1, 0, 4])] [3, 2, 4]) 1 1,
    -- 1921: del ints.tmp102
    .del 69,
    -- 1922: r2new += einsum(f.ov, (0, 1), r1, (2,), (0, 2, 1)) * -1
    .add 86 (.ein [(11, [0, 1]), (67, [2])] [0, 2, 1]) (-1) 1,
    -- 1923: r2new += einsum(r2, (0, 1, 2), ints.tmp142, (1, 3, 2, 4), (3, 0, 4))
    .add 86 (.ein [(4, [0, 1, 2]), (12, [1, 3, 2, 4])] [3, 0, 4]) 1 1,
    -- 1924: del ints.tmp142
    .del 12,
    -- 1925: r2new += einsum(r2, (0, 1, 2), tmp7, (0, 3, 2, 4), (3, 1, 4)) * -2
    .add 86 (.ein [(4, [0, 1, 2]), (77, [0, 3, 2, 4])] [3, 1, 4]) (-2) 1,
    -- 1926: del tmp7
    .del 77,
    -- 1927: r2new += einsum(tmp8, (0, 1, 2, 3), r2, (4, 0, 2), (4, 1, 3)) * -1
    .add 86 (.ein [(75, [0, 1, 2, 3]), (4, [4, 0, 2])] [4, 1, 3]) (-1) 1,
    -- 1928: del tmp8
    .del 75,
    -- 1929: r2new += einsum(v.xov, (0, 1, 2), tmp10, (3, 0), (1, 3, 2))
    .add 86 (.ein [(2, [0, 1, 2]), (79, [3, 0])] [1, 3, 2]) 1 1,
    -- 1930: del tmp10
    .del 79,
    -- 1931: r2new += einsum(r2, (0, 1, 2), tmp11, (2, 3), (0, 1, 3)) * -1
    .add 86 (.ein [(4, [0, 1, 2]), (76, [2, 3])] [0, 1, 3]) (-1) 1,
    -- 1932: del tmp11
    .del 76,
    -- 1933: r2new += einsum(ints.tmp101, (0, 1, 2, 3), tmp13, (3,), (0, 1, 2)) * -2
    .add 86 (.ein [(70, [0, 1, 2, 3]), (74, [3])] [0, 1, 2]) (-2) 1,
    -- 1934: del ints.tmp101, tmp13
    .del 70,
    .del 74,
    -- 1935: r2new += einsum(r2, (0, 1, 2), tmp14, (0, 3), (3, 1, 2)) * -1
    .add 86 (.ein [(4, [0, 1, 2]), (78, [0, 3])] [3, 1, 2]) (-1) 1,
    -- 1936: r2new += einsum(r2, (0, 1, 2), tmp14, (1, 3), (0, 3, 2)) * -1
    .add 86 (.ein [(4, [0, 1, 2]), (78, [1, 3])] [0, 3, 2]) (-1) 1,
    -- 1937: del tmp14
    .del 78,
    -- 1938: r1new = einsum(tmp0, (0, 1, 2), tmp1, (1, 0, 3, 2), (3,)) * -2
    .set 87 (.ein [(73, [0, 1, 2]), (83, [1, 0, 3, 2])] [3]) (-2) 1,
    -- 1939: del tmp0, tmp1
    .del 73,
    .del 83,
    -- 1940: r1new += einsum(tmp3, (0, 1, 2, 3), tmp2, (2, 0, 3), (1,)) * -1
    .add 87 (.ein [(84, [0, 1, 2, 3]), (82, [2, 0, 3])] [1]) (-1) 1,
    -- 1941: del tmp3, tmp2
    .del 84,
    .del 82,
    -- 1942: r1new += einsum(tmp5, (0, 1, 2), tmp4, (0, 2), (1,))
    .add 87 (.ein [(85, [0, 1, 2]), (81, [0, 2])] [1]) 1 1,
    -- 1943: del tmp5, tmp4
    .del 85,
    .del 81,
    -- 1944: r1new += einsum(tmp6, (0, 1), r1, (0,), (1,)) * -1
    .add 87 (.ein [(80, [0, 1]), (67, [0])] [1]) (-1) 1,
    -- 1945: del tmp6
    .del 80
  ]
  ret := [(chars! "r1new", 87), (chars! "r2new", 86)]

/-- codegen/RDFCC2.py:1347-1437 `hbar_matvec_ea_intermediates`. -/
def hbar_matvec_ea_intermediates : GenFun where
  args := [chars! "v.xov", chars! "t2", chars! "v.xvv", chars! "v.xoo", chars! "f.ov", chars! "t1", chars! "f.oo", chars! "f.vv"]
  body := [
    -- 1397: tmp15 = einsum(v.xov, (0, 1, 2), v.xov, (0, 3, 4), (1, 3, 2, 4))
    .set 8 (.ein [(0, [0, 1, 2]), (0, [0, 3, 4])] [1, 3, 2, 4]) 1 1,
    -- 1398: tmp20 = einsum(v.xov, (0, 1, 2), t2, (3, 1, 2, 4), (3, 4, 0))
    .set 9 (.ein [(0, [0, 1, 2]), (1, [3, 1, 2, 4])] [3, 4, 0]) 1 1,
    -- 1399: tmp1 = einsum(v.xvv, (0, 1, 2), v.xov, (0, 3, 4), (3, 1, 2, 4))
    .set 10 (.ein [(2, [0, 1, 2]), (0, [0, 3, 4])] [3, 1, 2, 4]) 1 1,
    -- 1400: tmp23 = einsum(v.xov, (0, 1, 2), t2, (3, 1, 4, 2), (3, 4, 0))
    .set 11 (.ein [(0, [0, 1, 2]), (1, [3, 1, 4, 2])] [3, 4, 0]) 1 1,
    -- 1401: tmp38 = einsum(v.xov, (0, 1, 2), v.xoo, (0, 3, 4), (3, 4, 1, 2))
    .set 12 (.ein [(0, [0, 1, 2]), (3, [0, 3, 4])] [3, 4, 1, 2]) 1 1,
    -- 1402: tmp46 = einsum(f.ov, (0, 1), t1, (2, 1), (0, 2))
    .set 13 (.ein [(4, [0, 1]), (5, [2, 1])] [0, 2]) 1 1,
    -- 1403: tmp4 = einsum(v.xov, (0, 1, 2), t1, (1, 2), (0,))
    .set 14 (.ein [(0, [0, 1, 2]), (5, [1, 2])] [0]) 1 1,
    -- 1404: tmp9 = einsum(t1, (0, 1), v.xov, (2, 3, 1), (0, 3, 2))
    .set 15 (.ein [(5, [0, 1]), (0, [2, 3, 1])] [0, 3, 2]) 1 1,
    -- 1405: tmp7 = einsum(v.xvv, (0, 1, 2), t1, (3, 2), (3, 1, 0))
    .set 16 (.ein [(2, [0, 1, 2]), (5, [3, 2])] [3, 1, 0]) 1 1,
    -- 1406: tmp68 = einsum(tmp15, (0, 1, 2, 3), t2, (4, 0, 5, 3), (4, 1, 5, 2))
    .set 17 (.ein [(8, [0, 1, 2, 3]), (1, [4, 0, 5, 3])] [4, 1, 5, 2]) 1 1,
    -- 1407: tmp65 = einsum(v.xvv, (0, 1, 2), tmp20, (3, 4, 0), (3, 4, 1, 2))
    .set 18 (.ein [(2, [0, 1, 2]), (9, [3, 4, 0])] [3, 4, 1, 2]) 1 1,
    -- 1408: tmp64 = einsum(t2, (0, 1, 2, 3), tmp1, (1, 4, 3, 5), (0, 2, 5, 4))
    .set 19 (.ein [(1, [0, 1, 2, 3]), (10, [1, 4, 3, 5])] [0, 2, 5, 4]) 1 1,
    -- 1409: tmp62 = einsum(tmp23, (0, 1, 2), v.xvv, (2, 3, 4), (0, 1, 3, 4))
    .set 20 (.ein [(11, [0, 1, 2]), (2, [2, 3, 4])] [0, 1, 3, 4]) 1 1,
    -- 1410: tmp61 = einsum(f.ov, (0, 1), t2, (2, 0, 3, 1), (2, 3))
    .set 21 (.ein [(4, [0, 1]), (1, [2, 0, 3, 1])] [2, 3]) 1 1,
    -- 1411: tmp60 = einsum(f.ov, (0, 1), t2, (2, 0, 1, 3), (2, 3))
    .set 22 (.ein [(4, [0, 1]), (1, [2, 0, 1, 3])] [2, 3]) 1 1,
    -- 1412: tmp58 = einsum(tmp38, (0, 1, 2, 3), t2, (1, 2, 4, 3), (0, 4))
    .set 23 (.ein [(12, [0, 1, 2, 3]), (1, [1, 2, 4, 3])] [0, 4]) 1 1,
    -- 1413: tmp57 = einsum(t2, (0, 1, 2, 3), tmp38, (4, 0, 1, 2), (4, 3))
    .set 24 (.ein [(1, [0, 1, 2, 3]), (12, [4, 0, 1, 2])] [4, 3]) 1 1,
    -- 1414: tmp56 = einsum(f.oo, (0, 1), t1, (1, 2), (0, 2))
    .set 25 (.ein [(6, [0, 1]), (5, [1, 2])] [0, 2]) 1 1,
    -- 1415: tmp55 = einsum(tmp46, (0, 1), t1, (0, 2), (1, 2))
    .set 26 (.ein [(13, [0, 1]), (5, [0, 2])] [1, 2]) 1 1,
    -- 1416: tmp53 = einsum(tmp23, (0, 1, 2), v.xov, (2, 3, 1), (0, 3))
    .set 27 (.ein [(11, [0, 1, 2]), (0, [2, 3, 1])] [0, 3]) 1 1,
    -- 1417: tmp51 = einsum(v.xov, (0, 1, 2), tmp20, (3, 2, 0), (3, 1))
    .set 28 (.ein [(0, [0, 1, 2]), (9, [3, 2, 0])] [3, 1]) 1 1,
    -- 1418: tmp50 = einsum(tmp20, (0, 1, 2), v.xvv, (2, 3, 1), (0, 3))
    .set 29 (.ein [(9, [0, 1, 2]), (2, [2, 3, 1])] [0, 3]) 1 1,
    -- 1419: tmp49 = einsum(v.xvv, (0, 1, 2), tmp23, (3, 2, 0), (3, 1))
    .set 30 (.ein [(2, [0, 1, 2]), (11, [3, 2, 0])] [3, 1]) 1 1,
    -- 1420: tmp47 = einsum(v.xvv, (0, 1, 2), v.xvv, (0, 3, 4), (1, 3, 4, 2))
    .set 31 (.ein [(2, [0, 1, 2]), (2, [0, 3, 4])] [1, 3, 4, 2]) 1 1,
    -- 1421: tmp45 = einsum(f.vv, (0, 1), t1, (2, 1), (2, 0))
    .set 32 (.ein [(7, [0, 1]), (5, [2, 1])] [2, 0]) 1 1,
    -- 1422: tmp39 = einsum(t2, (0, 1, 2, 3), tmp38, (4, 0, 1, 5), (4, 2, 3, 5))
    .set 33 (.ein [(1, [0, 1, 2, 3]), (12, [4, 0, 1, 5])] [4, 2, 3, 5]) 1 1,
    -- 1423: del tmp38
    .del 12,
    -- 1424: tmp37 = einsum(v.xvv, (0, 1, 2), v.xoo, (0, 3, 4), (3, 4, 1, 2))
    .set 34 (.ein [(2, [0, 1, 2]), (3, [0, 3, 4])] [3, 4, 1, 2]) 1 1,
    -- 1425: tmp36 = einsum(tmp15, (0, 1, 2, 3), t2, (4, 0, 3, 5), (4, 1, 5, 2))
    .set 35 (.ein [(8, [0, 1, 2, 3]), (1, [4, 0, 3, 5])] [4, 1, 5, 2]) 1 1,
    -- 1426: tmp33 = einsum(t2, (0, 1, 2, 3), tmp1, (1, 4, 2, 5), (0, 3, 5, 4))
    .set 36 (.ein [(1, [0, 1, 2, 3]), (10, [1, 4, 2, 5])] [0, 3, 5, 4]) 1 1,
    -- 1427: tmp24 = einsum(v.xov, (0, 1, 2), tmp23, (1, 3, 0), (3, 2))
    .set 37 (.ein [(0, [0, 1, 2]), (11, [1, 3, 0])] [3, 2]) 1 1,
    -- 1428: tmp21 = einsum(v.xov, (0, 1, 2), tmp20, (1, 3, 0), (3, 2))
    .set 38 (.ein [(0, [0, 1, 2]), (9, [1, 3, 0])] [3, 2]) 1 1,
    -- 1429: tmp12 = einsum(v.xov, (0, 1, 2), tmp4, (0,), (1, 2))
    .set 39 (.ein [(0, [0, 1, 2]), (14, [0])] [1, 2]) 1 1,
    -- 1430: tmp10 = einsum(tmp9, (0, 1, 2), v.xov, (2, 0, 3), (1, 3))
    .set 40 (.ein [(15, [0, 1, 2]), (0, [2, 0, 3])] [1, 3]) 1 1,
    -- 1431: del tmp9
    .del 15,
    -- 1432: tmp8 = einsum(v.xov, (0, 1, 2), tmp7, (1, 3, 0), (2, 3))
    .set 41 (.ein [(0, [0, 1, 2]), (16, [1, 3, 0])] [2, 3]) 1 1,
    -- 1433: del tmp7
    .del 16,
    -- 1434: tmp5 = einsum(v.xvv, (0, 1, 2), tmp4, (0,), (1, 2))
    .set 42 (.ein [(2, [0, 1, 2]), (14, [0])] [1, 2]) 1 1,
    -- 1435: del tmp4
    .del 14
  ]
  ret := [(chars! "tmp1", 10), (chars! "tmp10", 40), (chars! "tmp12", 39), (chars! "tmp15", 8), (chars! "tmp20", 9), (chars! "tmp21", 38), (chars! "tmp23", 11), (chars! "tmp24", 37), (chars! "tmp33", 36), (chars! "tmp36", 35), (chars! "tmp37", 34), (chars! "tmp39", 33), (chars! "tmp45", 32), (chars! "tmp46", 13), (chars! "tmp47", 31), (chars! "tmp49", 30), (chars! "tmp5", 42), (chars! "tmp50", 29), (chars! "tmp51", 28), (chars! "tmp53", 27), (chars! "tmp55", 26), (chars! "tmp56", 25), (chars! "tmp57", 24), (chars! "tmp58", 23), (chars! "tmp60", 22), (chars! "tmp61", 21), (chars! "tmp62", 20), (chars! "tmp64", 19), (chars! "tmp65", 18), (chars! "tmp68", 17), (chars! "tmp8", 41)]

/-- codegen/RDFCC2.py:1439-1581 `hbar_matvec_ea`. -/
def hbar_matvec_ea : GenFun where
  args := [chars! "r2", chars! "f.ov", chars! "t1", chars! "ints.tmp15", chars! "ints.tmp12", chars! "ints.tmp10", chars! "v.xov", chars! "ints.tmp24", chars! "f.vv", chars! "ints.tmp21", chars! "r1", chars! "ints.tmp36", chars! "ints.tmp37", chars! "ints.tmp45", chars! "ints.tmp49", chars! "ints.tmp57", chars! "ints.tmp61", chars! "ints.tmp50", chars! "ints.tmp55", chars! "ints.tmp56", chars! "ints.tmp58", chars! "ints.tmp60", chars! "ints.tmp1", chars! "ints.tmp39", chars! "ints.tmp62", chars! "ints.tmp33", chars! "ints.tmp64", chars! "ints.tmp65", chars! "ints.tmp68", chars! "f.oo", chars! "ints.tmp46", chars! "ints.tmp53", chars! "ints.tmp51", chars! "ints.tmp23", chars! "ints.tmp20", chars! "ints.tmp5", chars! "ints.tmp8", chars! "ints.tmp47", chars! "t2"]
  body := [
    -- 1467: tmp0 = np.copy(np.transpose(r2, (2, 0, 1)))
    .set 39 (.tr 0 [2, 0, 1]) 1 1,
    -- 1468: tmp0 += np.transpose(r2, (2, 1, 0)) * -0.5
    .add 39 (.tr 0 [2, 1, 0]) (-1) 2,
    -- 1469: tmp2 = np.copy(np.transpose(r2, (2, 0, 1))) * -1
    .set 40 (.tr 0 [2, 0, 1]) (-1) 1,
    -- 1470: tmp2 += np.transpose(r2, (2, 1, 0)) * 2
    .add 40 (.tr 0 [2, 1, 0]) 2 1,
    -- 1471: tmp12 = einsum(f.ov, (0, 1), t1, (0, 2), (1, 2))
    .set 41 (.ein [(1, [0, 1]), (2, [0, 2])] [1, 2]) 1 1,
    -- 1472: tmp4 = einsum(tmp0, (0, 1, 2), ints.tmp15, (0, 3, 1, 2), (3,)) * 2
    .set 42 (.ein [(39, [0, 1, 2]), (3, [0, 3, 1, 2])] [3]) 2 1,
    -- 1473: tmp1 = np.copy(f.ov)
    .set 43 (.cp 1) 1 1,
    -- 1474: tmp1 += ints.tmp12 * 2
    .add 43 (.cp 4) 2 1,
    -- 1475: del ints.tmp12
    .del 4,
    -- 1476: tmp1 += ints.tmp10 * -1
    .add 43 (.cp 5) (-1) 1,
    -- 1477: del ints.tmp10
    .del 5,
    -- 1478: tmp9 = einsum(v.xov, (0, 1, 2), tmp2, (1, 3, 2), (3, 0)) * 0.5
    .set 44 (.ein [(6, [0, 1, 2]), (40, [1, 3, 2])] [3, 0]) 1 2,
    -- 1479: tmp13 = np.copy(np.transpose(ints.tmp24, (1, 0))) * 2
    .set 45 (.tr 7 [1, 0]) 2 1,
    -- 1480: tmp13 += f.vv * -1
    .add 45 (.cp 8) (-1) 1,
    -- 1481: tmp13 += np.transpose(ints.tmp21, (1, 0)) * -1
    .add 45 (.tr 9 [1, 0]) (-1) 1,
    -- 1482: tmp13 += tmp12
    .add 45 (.cp 41) 1 1,
    -- 1483: del tmp12
    .del 41,
    -- 1484: tmp15 = einsum(f.ov, (0, 1), r1, (1,), (0,))
    .set 46 (.ein [(1, [0, 1]), (10, [1])] [0]) 1 1,
    -- 1485: tmp15 += tmp4 * -1
    .add 46 (.cp 42) (-1) 1,
    -- 1486: tmp6 = einsum(r2, (0, 1, 2), ints.tmp15, (3, 4, 1, 0), (3, 4, 2))
    .set 47 (.ein [(0, [0, 1, 2]), (3, [3, 4, 1, 0])] [3, 4, 2]) 1 1,
    -- 1487: del ints.tmp15
    .del 3,
    -- 1488: tmp8 = np.copy(ints.tmp36)
    .set 48 (.cp 11) 1 1,
    -- 1489: tmp8 += ints.tmp37 * -1
    .add 48 (.cp 12) (-1) 1,
    -- 1490: tmp16 = np.copy(f.ov)
    .set 49 (.cp 1) 1 1,
    -- 1491: tmp16 += ints.tmp45
    .add 49 (.cp 13) 1 1,
    -- 1492: del ints.tmp45
    .del 13,
    -- 1493: tmp16 += ints.tmp49 * 2
    .add 49 (.cp 14) 2 1,
    -- 1494: del ints.tmp49
    .del 14,
    -- 1495: tmp16 += ints.tmp57
    .add 49 (.cp 15) 1 1,
    -- 1496: del ints.tmp57
    .del 15,
    -- 1497: tmp16 += ints.tmp61 * 2
    .add 49 (.cp 16) 2 1,
    -- 1498: del ints.tmp61
    .del 16,
    -- 1499: tmp16 += ints.tmp50 * -1
    .add 49 (.cp 17) (-1) 1,
    -- 1500: del ints.tmp50
    .del 17,
    -- 1501: tmp16 += ints.tmp55 * -1
    .add 49 (.cp 18) (-1) 1,
    -- 1502: del ints.tmp55
    .del 18,
    -- 1503: tmp16 += ints.tmp56 * -1
    .add 49 (.cp 19) (-1) 1,
    -- 1504: del ints.tmp56
    .del 19,
    -- 1505: tmp16 += ints.tmp58 * -2
    .add 49 (.cp 20) (-2) 1,
    -- 1506: del ints.tmp58
    .del 20,
    -- 1507: tmp16 += ints.tmp60 * -1
    .add 49 (.cp 21) (-1) 1,
    -- 1508: del ints.tmp60
    .del 21,
    -- 1509: tmp11 = np.copy(ints.tmp1)
    .set 50 (.cp 22) 1 1,
    -- 1510: tmp11 += np.transpose(ints.tmp39, (0, 2, 3, 1))
    .add 50 (.tr 23 [0, 2, 3, 1]) 1 1,
    -- 1511: del ints.tmp39
    .del 23,
    -- 1512: tmp11 += np.transpose(ints.tmp62, (0, 3, 2, 1)) * 2
    .add 50 (.tr 24 [0, 3, 2, 1]) 2 1,
    -- 1513: del ints.tmp62
    .del 24,
    -- 1514: tmp11 += ints.tmp33 * -1
    .add 50 (.cp 25) (-1) 1,
    -- 1515: del ints.tmp33
    .del 25,
    -- 1516: tmp11 += np.transpose(ints.tmp64, (0, 3, 2, 1)) * -1
    .add 50 (.tr 26 [0, 3, 2, 1]) (-1) 1,
    -- 1517: del ints.tmp64
    .del 26,
    -- 1518: tmp11 += np.transpose(ints.tmp65, (0, 3, 2, 1)) * -1
    .add 50 (.tr 27 [0, 3, 2, 1]) (-1) 1,
    -- 1519: del ints.tmp65
    .del 27,
    -- 1520: tmp7 = np.copy(ints.tmp37) * 0.5
    .set 51 (.cp 12) 1 2,
    -- 1521: del ints.tmp37
    .del 12,
    -- 1522: tmp7 += ints.tmp68
    .add 51 (.cp 28) 1 1,
    -- 1523: tmp7 += ints.tmp36 * -0.5
    .add 51 (.cp 11) (-1) 2,
    -- 1524: del ints.tmp36
    .del 11,
    -- 1525: tmp14 = np.copy(f.oo)
    .set 52 (.cp 29) 1 1,
    -- 1526: tmp14 += ints.tmp46
    .add 52 (.cp 30) 1 1,
    -- 1527: del ints.tmp46
    .del 30,
    -- 1528: tmp14 += np.transpose(ints.tmp53, (1, 0)) * 2
    .add 52 (.tr 31 [1, 0]) 2 1,
    -- 1529: del ints.tmp53
    .del 31,
    -- 1530: tmp14 += np.transpose(ints.tmp51, (1, 0)) * -1
    .add 52 (.tr 32 [1, 0]) (-1) 1,
    -- 1531: del ints.tmp51
    .del 32,
    -- 1532: tmp10 = np.copy(ints.tmp23) * 2
    .set 53 (.cp 33) 2 1,
    -- 1533: del ints.tmp23
    .del 33,
    -- 1534: tmp10 += np.transpose(v.xov, (1, 2, 0))
    .add 53 (.tr 6 [1, 2, 0]) 1 1,
    -- 1535: tmp10 += ints.tmp20 * -1
    .add 53 (.cp 34) (-1) 1,
    -- 1536: del ints.tmp20
    .del 34,
    -- 1537: tmp3 = np.copy(f.vv)
    .set 54 (.cp 8) 1 1,
    -- 1538: tmp3 += np.transpose(ints.tmp21, (1, 0))
    .add 54 (.tr 9 [1, 0]) 1 1,
    -- 1539: del ints.tmp21
    .del 9,
    -- 1540: tmp3 += np.transpose(ints.tmp5, (1, 0)) * 2
    .add 54 (.tr 35 [1, 0]) 2 1,
    -- 1541: del ints.tmp5
    .del 35,
    -- 1542: tmp3 += np.transpose(ints.tmp24, (1, 0)) * -2
    .add 54 (.tr 7 [1, 0]) (-2) 1,
    -- 1543: del ints.tmp24
    .del 7,
    -- 1544: tmp3 += ints.tmp8 * -1
    .add 54 (.cp 36) (-1) 1,
    -- 1545: del ints.tmp8
    .del 36,
    -- 1546: tmp5 = np.copy(tmp4) * -1
    .set 55 (.cp 42) (-1) 1,
    -- 1547: del tmp4
    .del 42,
    -- 1548: tmp5 += einsum(tmp1, (0, 1), r1, (1,), (0,))
    .add 55 (.ein [(43, [0, 1]), (10, [1])] [0]) 1 1,
    -- 1549: r2new = einsum(ints.tmp68, (0, 1, 2, 3), r2, (4, 3, 1), (2, 4, 0))
    .set 56 (.ein [(28, [0, 1, 2, 3]), (0, [4, 3, 1])] [2, 4, 0]) 1 1,
    -- 1550: del ints.tmp68
    .del 28,
    -- 1551: r2new += einsum(r2, (0, 1, 2), ints.tmp47, (3, 0, 4, 1), (4, 3, 2))
    .add 56 (.ein [(0, [0, 1, 2]), (37, [3, 0, 4, 1])] [4, 3, 2]) 1 1,
    -- 1552: del ints.tmp47
    .del 37,
    -- 1553: r2new += einsum(t2, (0, 1, 2, 3), tmp6, (0, 1, 4), (3, 2, 4))
    .add 56 (.ein [(38, [0, 1, 2, 3]), (47, [0, 1, 4])] [3, 2, 4]) 1 1,
    -- 1554: del tmp6
    .del 47,
    -- 1555: r2new += einsum(tmp7, (0, 1, 2, 3), r2, (3, 4, 1), (2, 4, 0)) * -2
    .add 56 (.ein [(51, [0, 1, 2, 3]), (0, [3, 4, 1])] [2, 4, 0]) (-2) 1,
    -- 1556: del tmp7
    .del 51,
    -- 1557: r2new += einsum(r2, (0, 1, 2), tmp8, (3, 2, 4, 1), (0, 4, 3))
    .add 56 (.ein [(0, [0, 1, 2]), (48, [3, 2, 4, 1])] [0, 4, 3]) 1 1,
    -- 1558: del tmp8
    .del 48,
    -- 1559: r2new += einsum(tmp10, (0, 1, 2), tmp9, (3, 2), (1, 3, 0)) * 2
    .add 56 (.ein [(53, [0, 1, 2]), (44, [3, 2])] [1, 3, 0]) 2 1,
    -- 1560: del tmp10, tmp9
    .del 53,
    .del 44,
    -- 1561: r2new += einsum(r1, (0,), tmp11, (1, 2, 0, 3), (3, 2, 1)) * -1
    .add 56 (.ein [(10, [0]), (50, [1, 2, 0, 3])] [3, 2, 1]) (-1) 1,
    -- 1562: del tmp11
    .del 50,
    -- 1563: r2new += einsum(r2, (0, 1, 2), tmp13, (0, 3), (3, 1, 2)) * -1
    .add 56 (.ein [(0, [0, 1, 2]), (45, [0, 3])] [3, 1, 2]) (-1) 1,
    -- 1564: r2new += einsum(r2, (0, 1, 2), tmp13, (1, 3), (0, 3, 2)) * -1
    .add 56 (.ein [(0, [0, 1, 2]), (45, [1, 3])] [0, 3, 2]) (-1) 1,
    -- 1565: del tmp13
    .del 45,
    -- 1566: r2new += einsum(r2, (0, 1, 2), tmp14, (2, 3), (0, 1, 3)) * -1
    .add 56 (.ein [(0, [0, 1, 2]), (52, [2, 3])] [0, 1, 3]) (-1) 1,
    -- 1567: del tmp14
    .del 52,
    -- 1568: r2new += einsum(t2, (0, 1, 2, 3), tmp15, (1,), (2, 3, 0))
    .add 56 (.ein [(38, [0, 1, 2, 3]), (46, [1])] [2, 3, 0]) 1 1,
    -- 1569: del tmp15
    .del 46,
    -- 1570: r2new += einsum(r1, (0,), tmp16, (1, 2), (2, 0, 1)) * -1
    .add 56 (.ein [(10, [0]), (49, [1, 2])] [2, 0, 1]) (-1) 1,
    -- 1571: del tmp16
    .del 49,
    -- 1572: r1new = einsum(ints.tmp1, (0, 1, 2, 3), tmp0, (0, 3, 2), (1,)) * -2
    .set 57 (.ein [(22, [0, 1, 2, 3]), (39, [0, 3, 2])] [1]) (-2) 1,
    -- 1573: del tmp0, ints.tmp1
    .del 39,
    .del 22,
    -- 1574: r1new += einsum(tmp2, (0, 1, 2), tmp1, (0, 2), (1,)) * -1
    .add 57 (.ein [(40, [0, 1, 2]), (43, [0, 2])] [1]) (-1) 1,
    -- 1575: del tmp2, tmp1
    .del 40,
    .del 43,
    -- 1576: r1new += einsum(r1, (0,), tmp3, (0, 1), (1,))
    .add 57 (.ein [(10, [0]), (54, [0, 1])] [1]) 1 1,
    -- 1577: del tmp3
    .del 54,
    -- 1578: r1new += einsum(tmp5, (0,), t1, (0, 1), (1,)) * -1
    .add 57 (.ein [(55, [0]), (2, [0, 1])] [1]) (-1) 1,
    -- 1579: del tmp5
    .del 55
  ]
  ret := [(chars! "r1new", 57), (chars! "r2new", 56)]

/-- codegen/RDFCC2.py:1949-2091 `hbar_lmatvec_ea_intermediates`. -/
def hbar_lmatvec_ea_intermediates : GenFun where
  args := [chars! "v.xov", chars! "t1", chars! "t2", chars! "v.xvv", chars! "v.xoo", chars! "f.ov", chars! "f.vv", chars! "f.oo"]
  body := [
    -- 2022: tmp15 = einsum(v.xov, (0, 1, 2), t1, (1, 2), (0,))
    .set 8 (.ein [(0, [0, 1, 2]), (1, [1, 2])] [0]) 1 1,
    -- 2023: tmp65 = einsum(t1, (0, 1), v.xov, (2, 3, 1), (0, 3, 2))
    .set 9 (.ein [(1, [0, 1]), (0, [2, 3, 1])] [0, 3, 2]) 1 1,
    -- 2024: tmp20 = einsum(v.xov, (0, 1, 2), tmp15, (0,), (1, 2))
    .set 10 (.ein [(0, [0, 1, 2]), (8, [0])] [1, 2]) 1 1,
    -- 2025: tmp66 = einsum(tmp65, (0, 1, 2), v.xov, (2, 0, 3), (1, 3))
    .set 11 (.ein [(9, [0, 1, 2]), (0, [2, 0, 3])] [1, 3]) 1 1,
    -- 2026: tmp34 = einsum(v.xov, (0, 1, 2), t2, (3, 1, 2, 4), (3, 4, 0))
    .set 12 (.ein [(0, [0, 1, 2]), (2, [3, 1, 2, 4])] [3, 4, 0]) 1 1,
    -- 2027: tmp37 = einsum(v.xov, (0, 1, 2), t2, (3, 1, 4, 2), (3, 4, 0))
    .set 13 (.ein [(0, [0, 1, 2]), (2, [3, 1, 4, 2])] [3, 4, 0]) 1 1,
    -- 2028: tmp132 = einsum(tmp20, (0, 1), t1, (2, 1), (2, 0))
    .set 14 (.ein [(10, [0, 1]), (1, [2, 1])] [2, 0]) 1 1,
    -- 2029: tmp129 = einsum(tmp66, (0, 1), t1, (2, 1), (2, 0))
    .set 15 (.ein [(11, [0, 1]), (1, [2, 1])] [2, 0]) 1 1,
    -- 2030: tmp18 = einsum(t1, (0, 1), v.xvv, (2, 3, 1), (0, 3, 2))
    .set 16 (.ein [(1, [0, 1]), (3, [2, 3, 1])] [0, 3, 2]) 1 1,
    -- 2031: tmp16 = einsum(v.xvv, (0, 1, 2), tmp15, (0,), (1, 2))
    .set 17 (.ein [(3, [0, 1, 2]), (8, [0])] [1, 2]) 1 1,
    -- 2032: tmp113 = einsum(v.xoo, (0, 1, 2), tmp15, (0,), (1, 2))
    .set 18 (.ein [(4, [0, 1, 2]), (8, [0])] [1, 2]) 1 1,
    -- 2033: del tmp15
    .del 8,
    -- 2034: tmp110 = einsum(tmp65, (0, 1, 2), v.xoo, (2, 3, 0), (3, 1))
    .set 19 (.ein [(9, [0, 1, 2]), (4, [2, 3, 0])] [3, 1]) 1 1,
    -- 2035: tmp25 = einsum(v.xov, (0, 1, 2), v.xov, (0, 3, 4), (1, 3, 2, 4))
    .set 20 (.ein [(0, [0, 1, 2]), (0, [0, 3, 4])] [1, 3, 2, 4]) 1 1,
    -- 2036: tmp96 = einsum(tmp34, (0, 1, 2), v.xov, (2, 3, 1), (0, 3))
    .set 21 (.ein [(12, [0, 1, 2]), (0, [2, 3, 1])] [0, 3]) 1 1,
    -- 2037: tmp92 = einsum(tmp37, (0, 1, 2), v.xov, (2, 3, 1), (0, 3))
    .set 22 (.ein [(13, [0, 1, 2]), (0, [2, 3, 1])] [0, 3]) 1 1,
    -- 2038: tmp82 = einsum(tmp65, (0, 1, 2), v.xov, (2, 3, 4), (0, 3, 1, 4))
    .set 23 (.ein [(9, [0, 1, 2]), (0, [2, 3, 4])] [0, 3, 1, 4]) 1 1,
    -- 2039: tmp12 = einsum(v.xvv, (0, 1, 2), v.xov, (0, 3, 4), (3, 1, 2, 4))
    .set 24 (.ein [(3, [0, 1, 2]), (0, [0, 3, 4])] [3, 1, 2, 4]) 1 1,
    -- 2040: tmp40 = einsum(v.xov, (0, 1, 2), v.xoo, (0, 3, 4), (3, 4, 1, 2))
    .set 25 (.ein [(0, [0, 1, 2]), (4, [0, 3, 4])] [3, 4, 1, 2]) 1 1,
    -- 2041: tmp10 = einsum(f.ov, (0, 1), t1, (2, 1), (0, 2))
    .set 26 (.ein [(5, [0, 1]), (1, [2, 1])] [0, 2]) 1 1,
    -- 2042: tmp152 = einsum(v.xvv, (0, 1, 2), v.xvv, (0, 3, 4), (1, 3, 4, 2))
    .set 27 (.ein [(3, [0, 1, 2]), (3, [0, 3, 4])] [1, 3, 4, 2]) 1 1,
    -- 2043: tmp133 = einsum(tmp132, (0, 1), t1, (1, 2), (0, 2))
    .set 28 (.ein [(14, [0, 1]), (1, [1, 2])] [0, 2]) 1 1,
    -- 2044: del tmp132
    .del 14,
    -- 2045: tmp130 = einsum(tmp129, (0, 1), t1, (1, 2), (0, 2))
    .set 29 (.ein [(15, [0, 1]), (1, [1, 2])] [0, 2]) 1 1,
    -- 2046: del tmp129
    .del 15,
    -- 2047: tmp127 = einsum(tmp18, (0, 1, 2), v.xov, (2, 3, 4), (0, 3, 4, 1))
    .set 30 (.ein [(16, [0, 1, 2]), (0, [2, 3, 4])] [0, 3, 4, 1]) 1 1,
    -- 2048: tmp125 = einsum(v.xvv, (0, 1, 2), tmp65, (3, 4, 0), (3, 4, 1, 2))
    .set 31 (.ein [(3, [0, 1, 2]), (9, [3, 4, 0])] [3, 4, 1, 2]) 1 1,
    -- 2049: tmp123 = einsum(tmp18, (0, 1, 2), tmp65, (3, 0, 2), (3, 1))
    .set 32 (.ein [(16, [0, 1, 2]), (9, [3, 0, 2])] [3, 1]) 1 1,
    -- 2050: del tmp65
    .del 9,
    -- 2051: tmp120 = einsum(tmp16, (0, 1), t1, (2, 1), (2, 0))
    .set 33 (.ein [(17, [0, 1]), (1, [2, 1])] [2, 0]) 1 1,
    -- 2052: tmp114 = einsum(tmp113, (0, 1), t1, (1, 2), (0, 2))
    .set 34 (.ein [(18, [0, 1]), (1, [1, 2])] [0, 2]) 1 1,
    -- 2053: del tmp113
    .del 18,
    -- 2054: tmp111 = einsum(tmp110, (0, 1), t1, (1, 2), (0, 2))
    .set 35 (.ein [(19, [0, 1]), (1, [1, 2])] [0, 2]) 1 1,
    -- 2055: del tmp110
    .del 19,
    -- 2056: tmp107 = einsum(t2, (0, 1, 2, 3), tmp25, (1, 4, 5, 3), (0, 4, 2, 5))
    .set 36 (.ein [(2, [0, 1, 2, 3]), (20, [1, 4, 5, 3])] [0, 4, 2, 5]) 1 1,
    -- 2057: tmp105 = einsum(t2, (0, 1, 2, 3), tmp25, (1, 4, 5, 2), (0, 4, 3, 5))
    .set 37 (.ein [(2, [0, 1, 2, 3]), (20, [1, 4, 5, 2])] [0, 4, 3, 5]) 1 1,
    -- 2058: tmp102 = einsum(v.xov, (0, 1, 2), tmp37, (3, 4, 0), (3, 1, 4, 2))
    .set 38 (.ein [(0, [0, 1, 2]), (13, [3, 4, 0])] [3, 1, 4, 2]) 1 1,
    -- 2059: tmp100 = einsum(v.xov, (0, 1, 2), tmp34, (3, 4, 0), (3, 1, 4, 2))
    .set 39 (.ein [(0, [0, 1, 2]), (12, [3, 4, 0])] [3, 1, 4, 2]) 1 1,
    -- 2060: tmp97 = einsum(tmp96, (0, 1), t1, (1, 2), (0, 2))
    .set 40 (.ein [(21, [0, 1]), (1, [1, 2])] [0, 2]) 1 1,
    -- 2061: tmp93 = einsum(tmp92, (0, 1), t1, (1, 2), (0, 2))
    .set 41 (.ein [(22, [0, 1]), (1, [1, 2])] [0, 2]) 1 1,
    -- 2062: tmp89 = einsum(tmp82, (0, 1, 2, 3), t2, (1, 2, 4, 5), (0, 4, 5, 3))
    .set 42 (.ein [(23, [0, 1, 2, 3]), (2, [1, 2, 4, 5])] [0, 4, 5, 3]) 1 1,
    -- 2063: tmp86 = einsum(t2, (0, 1, 2, 3), tmp82, (4, 1, 0, 2), (4, 3))
    .set 43 (.ein [(2, [0, 1, 2, 3]), (23, [4, 1, 0, 2])] [4, 3]) 1 1,
    -- 2064: tmp83 = einsum(tmp82, (0, 1, 2, 3), t2, (2, 1, 4, 3), (0, 4))
    .set 44 (.ein [(23, [0, 1, 2, 3]), (2, [2, 1, 4, 3])] [0, 4]) 1 1,
    -- 2065: tmp75 = einsum(tmp20, (0, 1), t2, (2, 0, 3, 1), (2, 3))
    .set 45 (.ein [(10, [0, 1]), (2, [2, 0, 3, 1])] [2, 3]) 1 1,
    -- 2066: tmp72 = einsum(t2, (0, 1, 2, 3), tmp20, (1, 2), (0, 3))
    .set 46 (.ein [(2, [0, 1, 2, 3]), (10, [1, 2])] [0, 3]) 1 1,
    -- 2067: tmp69 = einsum(tmp66, (0, 1), t2, (2, 0, 3, 1), (2, 3))
    .set 47 (.ein [(11, [0, 1]), (2, [2, 0, 3, 1])] [2, 3]) 1 1,
    -- 2068: tmp67 = einsum(tmp66, (0, 1), t2, (2, 0, 1, 3), (2, 3))
    .set 48 (.ein [(11, [0, 1]), (2, [2, 0, 1, 3])] [2, 3]) 1 1,
    -- 2069: tmp63 = einsum(t2, (0, 1, 2, 3), tmp12, (1, 3, 4, 5), (0, 2, 5, 4))
    .set 49 (.ein [(2, [0, 1, 2, 3]), (24, [1, 3, 4, 5])] [0, 2, 5, 4]) 1 1,
    -- 2070: tmp61 = einsum(t2, (0, 1, 2, 3), tmp12, (1, 2, 4, 5), (0, 3, 5, 4))
    .set 50 (.ein [(2, [0, 1, 2, 3]), (24, [1, 2, 4, 5])] [0, 3, 5, 4]) 1 1,
    -- 2071: tmp58 = einsum(tmp37, (0, 1, 2), v.xvv, (2, 3, 4), (0, 1, 3, 4))
    .set 51 (.ein [(13, [0, 1, 2]), (3, [2, 3, 4])] [0, 1, 3, 4]) 1 1,
    -- 2072: tmp56 = einsum(tmp34, (0, 1, 2), v.xvv, (2, 3, 4), (0, 1, 3, 4))
    .set 52 (.ein [(12, [0, 1, 2]), (3, [2, 3, 4])] [0, 1, 3, 4]) 1 1,
    -- 2073: tmp53 = einsum(tmp34, (0, 1, 2), v.xvv, (2, 3, 1), (0, 3))
    .set 53 (.ein [(12, [0, 1, 2]), (3, [2, 3, 1])] [0, 3]) 1 1,
    -- 2074: tmp50 = einsum(tmp37, (0, 1, 2), v.xvv, (2, 3, 1), (0, 3))
    .set 54 (.ein [(13, [0, 1, 2]), (3, [2, 3, 1])] [0, 3]) 1 1,
    -- 2075: tmp47 = einsum(tmp40, (0, 1, 2, 3), t2, (0, 2, 4, 5), (1, 4, 5, 3))
    .set 55 (.ein [(25, [0, 1, 2, 3]), (2, [0, 2, 4, 5])] [1, 4, 5, 3]) 1 1,
    -- 2076: tmp44 = einsum(tmp40, (0, 1, 2, 3), t2, (0, 2, 4, 3), (1, 4))
    .set 56 (.ein [(25, [0, 1, 2, 3]), (2, [0, 2, 4, 3])] [1, 4]) 1 1,
    -- 2077: tmp41 = einsum(t2, (0, 1, 2, 3), tmp40, (0, 4, 1, 2), (4, 3))
    .set 57 (.ein [(2, [0, 1, 2, 3]), (25, [0, 4, 1, 2])] [4, 3]) 1 1,
    -- 2078: tmp38 = einsum(v.xov, (0, 1, 2), tmp37, (1, 3, 0), (3, 2))
    .set 58 (.ein [(0, [0, 1, 2]), (13, [1, 3, 0])] [3, 2]) 1 1,
    -- 2079: tmp35 = einsum(v.xov, (0, 1, 2), tmp34, (1, 3, 0), (3, 2))
    .set 59 (.ein [(0, [0, 1, 2]), (12, [1, 3, 0])] [3, 2]) 1 1,
    -- 2080: tmp31 = einsum(tmp18, (0, 1, 2), v.xvv, (2, 3, 4), (0, 3, 4, 1))
    .set 60 (.ein [(16, [0, 1, 2]), (3, [2, 3, 4])] [0, 3, 4, 1]) 1 1,
    -- 2081: tmp29 = einsum(v.xvv, (0, 1, 2), v.xoo, (0, 3, 4), (3, 4, 1, 2))
    .set 61 (.ein [(3, [0, 1, 2]), (4, [0, 3, 4])] [3, 4, 1, 2]) 1 1,
    -- 2082: tmp23 = einsum(tmp18, (0, 1, 2), v.xoo, (2, 3, 0), (3, 1))
    .set 62 (.ein [(16, [0, 1, 2]), (4, [2, 3, 0])] [3, 1]) 1 1,
    -- 2083: tmp19 = einsum(v.xov, (0, 1, 2), tmp18, (1, 3, 0), (2, 3))
    .set 63 (.ein [(0, [0, 1, 2]), (16, [1, 3, 0])] [2, 3]) 1 1,
    -- 2084: del tmp18
    .del 16,
    -- 2085: tmp11 = einsum(tmp10, (0, 1), t1, (0, 2), (1, 2))
    .set 64 (.ein [(26, [0, 1]), (1, [0, 2])] [1, 2]) 1 1,
    -- 2086: tmp4 = einsum(f.ov, (0, 1), t2, (2, 0, 3, 1), (2, 3))
    .set 65 (.ein [(5, [0, 1]), (2, [2, 0, 3, 1])] [2, 3]) 1 1,
    -- 2087: tmp3 = einsum(f.ov, (0, 1), t2, (2, 0, 1, 3), (2, 3))
    .set 66 (.ein [(5, [0, 1]), (2, [2, 0, 1, 3])] [2, 3]) 1 1,
    -- 2088: tmp2 = einsum(f.vv, (0, 1), t1, (2, 1), (2, 0))
    .set 67 (.ein [(6, [0, 1]), (1, [2, 1])] [2, 0]) 1 1,
    -- 2089: tmp1 = einsum(f.oo, (0, 1), t1, (1, 2), (0, 2))
    .set 68 (.ein [(7, [0, 1]), (1, [1, 2])] [0, 2]) 1 1
  ]
  ret := [(chars! "tmp1", 68), (chars! "tmp10", 26), (chars! "tmp100", 39), (chars! "tmp102", 38), (chars! "tmp105", 37), (chars! "tmp107", 36), (chars! "tmp11", 64), (chars! "tmp111", 35), (chars! "tmp114", 34), (chars! "tmp12", 24), (chars! "tmp120", 33), (chars! "tmp123", 32), (chars! "tmp125", 31), (chars! "tmp127", 30), (chars! "tmp130", 29), (chars! "tmp133", 28), (chars! "tmp152", 27), (chars! "tmp16", 17), (chars! "tmp19", 63), (chars! "tmp2", 67), (chars! "tmp20", 10), (chars! "tmp23", 62), (chars! "tmp25", 20), (chars! "tmp29", 61), (chars! "tmp3", 66), (chars! "tmp31", 60), (chars! "tmp34", 12), (chars! "tmp35", 59), (chars! "tmp37", 13), (chars! "tmp38", 58), (chars! "tmp4", 65), (chars! "tmp40", 25), (chars! "tmp41", 57), (chars! "tmp44", 56), (chars! "tmp47", 55), (chars! "tmp50", 54), (chars! "tmp53", 53), (chars! "tmp56", 52), (chars! "tmp58", 51), (chars! "tmp61", 50), (chars! "tmp63", 49), (chars! "tmp66", 11), (chars! "tmp67", 48), (chars! "tmp69", 47), (chars! "tmp72", 46), (chars! "tmp75", 45), (chars! "tmp82", 23), (chars! "tmp83", 44), (chars! "tmp86", 43), (chars! "tmp89", 42), (chars! "tmp92", 22), (chars! "tmp93", 41), (chars! "tmp96", 21), (chars! "tmp97", 40)]

/-- codegen/RDFCC2.py:2093-2307 `hbar_lmatvec_ea`. -/
def hbar_lmatvec_ea : GenFun where
  args := [chars! "t1", chars! "r2", chars! "ints.tmp37", chars! "v.xov", chars! "ints.tmp34", chars! "t2", chars! "f.ov", chars! "ints.tmp107", chars! "ints.tmp29", chars! "ints.tmp105", chars! "ints.tmp38", chars! "f.vv", chars! "ints.tmp35", chars! "f.oo", chars! "ints.tmp10", chars! "ints.tmp92", chars! "ints.tmp96", chars! "ints.tmp114", chars! "ints.tmp11", chars! "ints.tmp123", chars! "ints.tmp133", chars! "ints.tmp1", chars! "ints.tmp23", chars! "ints.tmp3", chars! "ints.tmp44", chars! "ints.tmp53", chars! "ints.tmp69", chars! "ints.tmp72", chars! "ints.tmp83", chars! "ints.tmp93", chars! "ints.tmp111", chars! "ints.tmp120", chars! "ints.tmp130", chars! "ints.tmp20", chars! "ints.tmp2", chars! "ints.tmp41", chars! "ints.tmp4", chars! "ints.tmp50", chars! "ints.tmp67", chars! "ints.tmp75", chars! "ints.tmp86", chars! "ints.tmp97", chars! "ints.tmp66", chars! "ints.tmp125", chars! "ints.tmp102", chars! "ints.tmp127", chars! "ints.tmp25", chars! "ints.tmp100", chars! "r1", chars! "ints.tmp12", chars! "ints.tmp31", chars! "ints.tmp89", chars! "ints.tmp61", chars! "ints.tmp47", chars! "ints.tmp58", chars! "ints.tmp56", chars! "ints.tmp63", chars! "ints.tmp16", chars! "ints.tmp19", chars! "ints.tmp152", chars! "ints.tmp82", chars! "ints.tmp40"]
  body := [
    -- 2121: tmp10 = einsum(t1, (0, 1), r2, (2, 1, 3), (3, 0, 2))
    .set 62 (.ein [(0, [0, 1]), (1, [2, 1, 3])] [3, 0, 2]) 1 1,
    -- 2122: tmp4 = np.copy(np.transpose(r2, (2, 0, 1))) * -0.5
    .set 63 (.tr 1 [2, 0, 1]) (-1) 2,
    -- 2123: tmp4 += np.transpose(r2, (2, 1, 0))
    .add 63 (.tr 1 [2, 1, 0]) 1 1,
    -- 2124: tmp21 = np.copy(ints.tmp37) * 2
    .set 64 (.cp 2) 2 1,
    -- 2125: del ints.tmp37
    .del 2,
    -- 2126: tmp21 += np.transpose(v.xov, (1, 2, 0))
    .add 64 (.tr 3 [1, 2, 0]) 1 1,
    -- 2127: tmp21 += ints.tmp34 * -1
    .add 64 (.cp 4) (-1) 1,
    -- 2128: del ints.tmp34
    .del 4,
    -- 2129: tmp26 = np.copy(np.transpose(t2, (0, 1, 3, 2))) * -0.5
    .set 65 (.tr 5 [0, 1, 3, 2]) (-1) 2,
    -- 2130: tmp26 += t2
    .add 65 (.cp 5) 1 1,
    -- 2131: tmp23 = einsum(f.ov, (0, 1), t1, (0, 2), (1, 2))
    .set 66 (.ein [(6, [0, 1]), (0, [0, 2])] [1, 2]) 1 1,
    -- 2132: tmp11 = einsum(tmp10, (0, 1, 2), t1, (3, 2), (0, 3, 1))
    .set 67 (.ein [(62, [0, 1, 2]), (0, [3, 2])] [0, 3, 1]) 1 1,
    -- 2133: del tmp10
    .del 62,
    -- 2134: tmp15 = np.copy(np.transpose(t2, (0, 1, 3, 2))) * -1
    .set 68 (.tr 5 [0, 1, 3, 2]) (-1) 1,
    -- 2135: tmp15 += t2 * 2
    .add 68 (.cp 5) 2 1,
    -- 2136: tmp0 = np.copy(np.transpose(r2, (2, 0, 1)))
    .set 69 (.tr 1 [2, 0, 1]) 1 1,
    -- 2137: tmp0 += np.transpose(r2, (2, 1, 0)) * -0.5
    .add 69 (.tr 1 [2, 1, 0]) (-1) 2,
    -- 2138: tmp22 = einsum(tmp4, (0, 1, 2), tmp21, (0, 2, 3), (1, 3)) * 2
    .set 70 (.ein [(63, [0, 1, 2]), (64, [0, 2, 3])] [1, 3]) 2 1,
    -- 2139: del tmp21
    .del 64,
    -- 2140: tmp19 = np.copy(ints.tmp107)
    .set 71 (.cp 7) 1 1,
    -- 2141: tmp19 += ints.tmp29 * 0.5
    .add 71 (.cp 8) 1 2,
    -- 2142: tmp19 += ints.tmp105 * -0.5
    .add 71 (.cp 9) (-1) 2,
    -- 2143: tmp27 = einsum(r2, (0, 1, 2), tmp26, (2, 3, 0, 1), (3,))
    .set 72 (.ein [(1, [0, 1, 2]), (65, [2, 3, 0, 1])] [3]) 1 1,
    -- 2144: del tmp26
    .del 65,
    -- 2145: tmp24 = np.copy(ints.tmp38) * 2
    .set 73 (.cp 10) 2 1,
    -- 2146: tmp24 += f.vv * -1
    .add 73 (.cp 11) (-1) 1,
    -- 2147: tmp24 += ints.tmp35 * -1
    .add 73 (.cp 12) (-1) 1,
    -- 2148: tmp24 += np.transpose(tmp23, (1, 0))
    .add 73 (.tr 66 [1, 0]) 1 1,
    -- 2149: del tmp23
    .del 66,
    -- 2150: tmp18 = einsum(t2, (0, 1, 2, 3), r2, (2, 3, 4), (4, 0, 1))
    .set 74 (.ein [(5, [0, 1, 2, 3]), (1, [2, 3, 4])] [4, 0, 1]) 1 1,
    -- 2151: tmp20 = np.copy(ints.tmp105)
    .set 75 (.cp 9) 1 1,
    -- 2152: tmp20 += ints.tmp29 * -1
    .add 75 (.cp 8) (-1) 1,
    -- 2153: tmp25 = np.copy(f.oo)
    .set 76 (.cp 13) 1 1,
    -- 2154: tmp25 += np.transpose(ints.tmp10, (1, 0))
    .add 76 (.tr 14 [1, 0]) 1 1,
    -- 2155: del ints.tmp10
    .del 14,
    -- 2156: tmp25 += ints.tmp92 * 2
    .add 76 (.cp 15) 2 1,
    -- 2157: del ints.tmp92
    .del 15,
    -- 2158: tmp25 += ints.tmp96 * -1
    .add 76 (.cp 16) (-1) 1,
    -- 2159: del ints.tmp96
    .del 16,
    -- 2160: tmp9 = np.copy(ints.tmp114) * 2
    .set 77 (.cp 17) 2 1,
    -- 2161: del ints.tmp114
    .del 17,
    -- 2162: tmp9 += ints.tmp11
    .add 77 (.cp 18) 1 1,
    -- 2163: del ints.tmp11
    .del 18,
    -- 2164: tmp9 += ints.tmp123
    .add 77 (.cp 19) 1 1,
    -- 2165: del ints.tmp123
    .del 19,
    -- 2166: tmp9 += ints.tmp133 * 2
    .add 77 (.cp 20) 2 1,
    -- 2167: del ints.tmp133
    .del 20,
    -- 2168: tmp9 += ints.tmp1
    .add 77 (.cp 21) 1 1,
    -- 2169: del ints.tmp1
    .del 21,
    -- 2170: tmp9 += ints.tmp23
    .add 77 (.cp 22) 1 1,
    -- 2171: del ints.tmp23
    .del 22,
    -- 2172: tmp9 += ints.tmp3
    .add 77 (.cp 23) 1 1,
    -- 2173: del ints.tmp3
    .del 23,
    -- 2174: tmp9 += ints.tmp44 * 2
    .add 77 (.cp 24) 2 1,
    -- 2175: del ints.tmp44
    .del 24,
    -- 2176: tmp9 += ints.tmp53
    .add 77 (.cp 25) 1 1,
    -- 2177: del ints.tmp53
    .del 25,
    -- 2178: tmp9 += ints.tmp69 * 2
    .add 77 (.cp 26) 2 1,
    -- 2179: del ints.tmp69
    .del 26,
    -- 2180: tmp9 += ints.tmp72 * 2
    .add 77 (.cp 27) 2 1,
    -- 2181: del ints.tmp72
    .del 27,
    -- 2182: tmp9 += ints.tmp83 * 2
    .add 77 (.cp 28) 2 1,
    -- 2183: del ints.tmp83
    .del 28,
    -- 2184: tmp9 += ints.tmp93 * 2
    .add 77 (.cp 29) 2 1,
    -- 2185: del ints.tmp93
    .del 29,
    -- 2186: tmp9 += f.ov * -1
    .add 77 (.cp 6) (-1) 1,
    -- 2187: tmp9 += ints.tmp111 * -1
    .add 77 (.cp 30) (-1) 1,
    -- 2188: del ints.tmp111
    .del 30,
    -- 2189: tmp9 += ints.tmp120 * -2
    .add 77 (.cp 31) (-2) 1,
    -- 2190: del ints.tmp120
    .del 31,
    -- 2191: tmp9 += ints.tmp130 * -1
    .add 77 (.cp 32) (-1) 1,
    -- 2192: del ints.tmp130
    .del 32,
    -- 2193: tmp9 += ints.tmp20 * -2
    .add 77 (.cp 33) (-2) 1,
    -- 2194: tmp9 += ints.tmp2 * -1
    .add 77 (.cp 34) (-1) 1,
    -- 2195: del ints.tmp2
    .del 34,
    -- 2196: tmp9 += ints.tmp41 * -1
    .add 77 (.cp 35) (-1) 1,
    -- 2197: del ints.tmp41
    .del 35,
    -- 2198: tmp9 += ints.tmp4 * -2
    .add 77 (.cp 36) (-2) 1,
    -- 2199: del ints.tmp4
    .del 36,
    -- 2200: tmp9 += ints.tmp50 * -2
    .add 77 (.cp 37) (-2) 1,
    -- 2201: del ints.tmp50
    .del 37,
    -- 2202: tmp9 += ints.tmp67 * -1
    .add 77 (.cp 38) (-1) 1,
    -- 2203: del ints.tmp67
    .del 38,
    -- 2204: tmp9 += ints.tmp75 * -4
    .add 77 (.cp 39) (-4) 1,
    -- 2205: del ints.tmp75
    .del 39,
    -- 2206: tmp9 += ints.tmp86 * -1
    .add 77 (.cp 40) (-1) 1,
    -- 2207: del ints.tmp86
    .del 40,
    -- 2208: tmp9 += ints.tmp97 * -1
    .add 77 (.cp 41) (-1) 1,
    -- 2209: del ints.tmp97
    .del 41,
    -- 2210: tmp13 = np.copy(tmp11) * -1
    .set 78 (.cp 67) (-1) 1,
    -- 2211: tmp13 += np.transpose(tmp11, (0, 2, 1)) * 2
    .add 78 (.tr 67 [0, 2, 1]) 2 1,
    -- 2212: tmp17 = np.copy(f.ov)
    .set 79 (.cp 6) 1 1,
    -- 2213: tmp17 += ints.tmp20 * 2
    .add 79 (.cp 33) 2 1,
    -- 2214: del ints.tmp20
    .del 33,
    -- 2215: tmp17 += ints.tmp66 * -1
    .add 79 (.cp 42) (-1) 1,
    -- 2216: del ints.tmp66
    .del 42,
    -- 2217: tmp6 = np.copy(np.transpose(ints.tmp125, (0, 1, 3, 2)))
    .set 80 (.tr 43 [0, 1, 3, 2]) 1 1,
    -- 2218: del ints.tmp125
    .del 43,
    -- 2219: tmp6 += np.transpose(ints.tmp29, (0, 1, 3, 2))
    .add 80 (.tr 8 [0, 1, 3, 2]) 1 1,
    -- 2220: del ints.tmp29
    .del 8,
    -- 2221: tmp6 += ints.tmp105 * -1
    .add 80 (.cp 9) (-1) 1,
    -- 2222: del ints.tmp105
    .del 9,
    -- 2223: tmp8 = np.copy(ints.tmp102) * 2
    .set 81 (.cp 44) 2 1,
    -- 2224: del ints.tmp102
    .del 44,
    -- 2225: tmp8 += np.transpose(ints.tmp127, (0, 1, 3, 2))
    .add 81 (.tr 45 [0, 1, 3, 2]) 1 1,
    -- 2226: del ints.tmp127
    .del 45,
    -- 2227: tmp8 += ints.tmp25
    .add 81 (.cp 46) 1 1,
    -- 2228: tmp8 += ints.tmp100 * -1
    .add 81 (.cp 47) (-1) 1,
    -- 2229: del ints.tmp100
    .del 47,
    -- 2230: tmp8 += ints.tmp107 * -1
    .add 81 (.cp 7) (-1) 1,
    -- 2231: tmp16 = einsum(r1, (0,), t1, (1, 0), (1,))
    .set 82 (.ein [(48, [0]), (0, [1, 0])] [1]) 1 1,
    -- 2232: tmp16 += einsum(tmp15, (0, 1, 2, 3), r2, (2, 3, 0), (1,)) * -1
    .add 82 (.ein [(68, [0, 1, 2, 3]), (1, [2, 3, 0])] [1]) (-1) 1,
    -- 2233: del tmp15
    .del 68,
    -- 2234: tmp2 = np.copy(np.transpose(r2, (2, 0, 1))) * -1
    .set 83 (.tr 1 [2, 0, 1]) (-1) 1,
    -- 2235: tmp2 += np.transpose(r2, (2, 1, 0)) * 2
    .add 83 (.tr 1 [2, 1, 0]) 2 1,
    -- 2236: tmp1 = np.copy(ints.tmp12)
    .set 84 (.cp 49) 1 1,
    -- 2237: tmp1 += ints.tmp31
    .add 84 (.cp 50) 1 1,
    -- 2238: del ints.tmp31
    .del 50,
    -- 2239: tmp1 += np.transpose(ints.tmp89, (0, 3, 1, 2))
    .add 84 (.tr 51 [0, 3, 1, 2]) 1 1,
    -- 2240: del ints.tmp89
    .del 51,
    -- 2241: tmp1 += np.transpose(ints.tmp61, (0, 2, 1, 3)) * -1
    .add 84 (.tr 52 [0, 2, 1, 3]) (-1) 1,
    -- 2242: del ints.tmp61
    .del 52,
    -- 2243: tmp7 = einsum(t1, (0, 1), tmp0, (2, 3, 1), (2, 0, 3)) * 2
    .set 85 (.ein [(0, [0, 1]), (69, [2, 3, 1])] [2, 0, 3]) 2 1,
    -- 2244: tmp3 = np.copy(ints.tmp47)
    .set 86 (.cp 53) 1 1,
    -- 2245: del ints.tmp47
    .del 53,
    -- 2246: tmp3 += ints.tmp58 * 2
    .add 86 (.cp 54) 2 1,
    -- 2247: del ints.tmp58
    .del 54,
    -- 2248: tmp3 += ints.tmp56 * -1
    .add 86 (.cp 55) (-1) 1,
    -- 2249: del ints.tmp56
    .del 55,
    -- 2250: tmp3 += np.transpose(ints.tmp63, (0, 1, 3, 2)) * -1
    .add 86 (.tr 56 [0, 1, 3, 2]) (-1) 1,
    -- 2251: del ints.tmp63
    .del 56,
    -- 2252: tmp5 = einsum(t1, (0, 1), tmp4, (2, 3, 1), (2, 0, 3))
    .set 87 (.ein [(0, [0, 1]), (63, [2, 3, 1])] [2, 0, 3]) 1 1,
    -- 2253: del tmp4
    .del 63,
    -- 2254: tmp14 = np.copy(f.vv)
    .set 88 (.cp 11) 1 1,
    -- 2255: tmp14 += np.transpose(ints.tmp16, (1, 0)) * 2
    .add 88 (.tr 57 [1, 0]) 2 1,
    -- 2256: del ints.tmp16
    .del 57,
    -- 2257: tmp14 += ints.tmp35
    .add 88 (.cp 12) 1 1,
    -- 2258: del ints.tmp35
    .del 12,
    -- 2259: tmp14 += np.transpose(ints.tmp19, (1, 0)) * -1
    .add 88 (.tr 58 [1, 0]) (-1) 1,
    -- 2260: del ints.tmp19
    .del 58,
    -- 2261: tmp14 += ints.tmp38 * -2
    .add 88 (.cp 10) (-2) 1,
    -- 2262: del ints.tmp38
    .del 10,
    -- 2263: tmp12 = np.copy(tmp11)
    .set 89 (.cp 67) 1 1,
    -- 2264: tmp12 += np.transpose(tmp11, (0, 2, 1)) * -0.5
    .add 89 (.tr 67 [0, 2, 1]) (-1) 2,
    -- 2265: del tmp11
    .del 67,
    -- 2266: r2new = einsum(ints.tmp107, (0, 1, 2, 3), r2, (4, 2, 0), (3, 4, 1))
    .set 90 (.ein [(7, [0, 1, 2, 3]), (1, [4, 2, 0])] [3, 4, 1]) 1 1,
    -- 2267: del ints.tmp107
    .del 7,
    -- 2268: r2new += einsum(f.ov, (0, 1), r1, (2,), (1, 2, 0)) * -1
    .add 90 (.ein [(6, [0, 1]), (48, [2])] [1, 2, 0]) (-1) 1,
    -- 2269: r2new += einsum(ints.tmp12, (0, 1, 2, 3), r1, (2,), (3, 1, 0)) * -1
    .add 90 (.ein [(49, [0, 1, 2, 3]), (48, [2])] [3, 1, 0]) (-1) 1,
    -- 2270: del ints.tmp12
    .del 49,
    -- 2271: r2new += einsum(r2, (0, 1, 2), ints.tmp152, (3, 4, 0, 1), (4, 3, 2))
    .add 90 (.ein [(1, [0, 1, 2]), (59, [3, 4, 0, 1])] [4, 3, 2]) 1 1,
    -- 2272: del ints.tmp152
    .del 59,
    -- 2273: r2new += einsum(ints.tmp25, (0, 1, 2, 3), tmp18, (4, 1, 0), (3, 2, 4))
    .add 90 (.ein [(46, [0, 1, 2, 3]), (74, [4, 1, 0])] [3, 2, 4]) 1 1,
    -- 2274: del tmp18
    .del 74,
    -- 2275: r2new += einsum(tmp19, (0, 1, 2, 3), r2, (2, 4, 0), (3, 4, 1)) * -2
    .add 90 (.ein [(71, [0, 1, 2, 3]), (1, [2, 4, 0])] [3, 4, 1]) (-2) 1,
    -- 2276: del tmp19
    .del 71,
    -- 2277: r2new += einsum(r2, (0, 1, 2), tmp20, (2, 3, 1, 4), (0, 4, 3))
    .add 90 (.ein [(1, [0, 1, 2]), (75, [2, 3, 1, 4])] [0, 4, 3]) 1 1,
    -- 2278: del tmp20
    .del 75,
    -- 2279: r2new += einsum(v.xov, (0, 1, 2), tmp22, (3, 0), (2, 3, 1))
    .add 90 (.ein [(3, [0, 1, 2]), (70, [3, 0])] [2, 3, 1]) 1 1,
    -- 2280: del tmp22
    .del 70,
    -- 2281: r2new += einsum(r2, (0, 1, 2), tmp24, (0, 3), (3, 1, 2)) * -1
    .add 90 (.ein [(1, [0, 1, 2]), (73, [0, 3])] [3, 1, 2]) (-1) 1,
    -- 2282: r2new += einsum(tmp24, (0, 1), r2, (2, 0, 3), (2, 1, 3)) * -1
    .add 90 (.ein [(73, [0, 1]), (1, [2, 0, 3])] [2, 1, 3]) (-1) 1,
    -- 2283: del tmp24
    .del 73,
    -- 2284: r2new += einsum(r2, (0, 1, 2), tmp25, (2, 3), (0, 1, 3)) * -1
    .add 90 (.ein [(1, [0, 1, 2]), (76, [2, 3])] [0, 1, 3]) (-1) 1,
    -- 2285: del tmp25
    .del 76,
    -- 2286: r2new += einsum(tmp27, (0,), ints.tmp25, (0, 1, 2, 3), (3, 2, 1)) * -2
    .add 90 (.ein [(72, [0]), (46, [0, 1, 2, 3])] [3, 2, 1]) (-2) 1,
    -- 2287: del ints.tmp25, tmp27
    .del 46,
    .del 72,
    -- 2288: r1new = einsum(tmp0, (0, 1, 2), tmp1, (0, 3, 2, 1), (3,)) * -2
    .set 91 (.ein [(69, [0, 1, 2]), (84, [0, 3, 2, 1])] [3]) (-2) 1,
    -- 2289: del tmp0, tmp1
    .del 69,
    .del 84,
    -- 2290: r1new += einsum(tmp2, (0, 1, 2), tmp3, (0, 2, 1, 3), (3,)) * -1
    .add 91 (.ein [(83, [0, 1, 2]), (86, [0, 2, 1, 3])] [3]) (-1) 1,
    -- 2291: del tmp3
    .del 86,
    -- 2292: r1new += einsum(tmp6, (0, 1, 2, 3), tmp5, (0, 1, 2), (3,)) * 2
    .add 91 (.ein [(80, [0, 1, 2, 3]), (87, [0, 1, 2])] [3]) 2 1,
    -- 2293: del tmp6, tmp5
    .del 80,
    .del 87,
    -- 2294: r1new += einsum(tmp7, (0, 1, 2), tmp8, (0, 1, 2, 3), (3,))
    .add 91 (.ein [(85, [0, 1, 2]), (81, [0, 1, 2, 3])] [3]) 1 1,
    -- 2295: del tmp7, tmp8
    .del 85,
    .del 81,
    -- 2296: r1new += einsum(tmp2, (0, 1, 2), tmp9, (0, 2), (1,))
    .add 91 (.ein [(83, [0, 1, 2]), (77, [0, 2])] [1]) 1 1,
    -- 2297: del tmp2, tmp9
    .del 83,
    .del 77,
    -- 2298: r1new += einsum(ints.tmp82, (0, 1, 2, 3), tmp12, (0, 2, 1), (3,)) * -2
    .add 91 (.ein [(60, [0, 1, 2, 3]), (89, [0, 2, 1])] [3]) (-2) 1,
    -- 2299: del ints.tmp82, tmp12
    .del 60,
    .del 89,
    -- 2300: r1new += einsum(ints.tmp40, (0, 1, 2, 3), tmp13, (0, 2, 1), (3,)) * -1
    .add 91 (.ein [(61, [0, 1, 2, 3]), (78, [0, 2, 1])] [3]) (-1) 1,
    -- 2301: del ints.tmp40, tmp13
    .del 61,
    .del 78,
    -- 2302: r1new += einsum(tmp14, (0, 1), r1, (0,), (1,))
    .add 91 (.ein [(88, [0, 1]), (48, [0])] [1]) 1 1,
    -- 2303: del tmp14
    .del 88,
    -- 2304: r1new += einsum(tmp16, (0,), tmp17, (0, 1), (1,)) * -1
    .add 91 (.ein [(82, [0]), (79, [0, 1])] [1]) (-1) 1,
    -- 2305: del tmp16, tmp17
    .del 82,
    .del 79
  ]
  ret := [(chars! "r1new", 91), (chars! "r2new", 90)]

end Ebcc.Gen.RDFCC2Eom
