import Verif.Model.GenCode
/-!
Functions of `ebcc/codegen/RCC2.py`, written by `tools/gencode.py`.  Comments give the
number and the text of the line of each statement.
-/

set_option maxRecDepth 100000

namespace Ebcc.Gen.RCC2Eom

/-- codegen/RCC2.py:1072-1156 `hbar_matvec_ip_intermediates`. -/
def hbar_matvec_ip_intermediates : GenFun where
  args := [chars! "f.ov", chars! "t1", chars! "v.ovov", chars! "t2", chars! "v.ovvv", chars! "f.vv", chars! "v.ooov", chars! "f.oo"]
  body := [
    -- 1123: tmp0 = einsum(f.ov, (0, 1), t1, (2, 1), (0, 2))
    .set 8 (.ein [(0, [0, 1]), (1, [2, 1])] [0, 2]) 1 1,
    -- 1124: tmp6 = einsum(t1, (0, 1), v.ovov, (2, 3, 0, 1), (2, 3))
    .set 9 (.ein [(1, [0, 1]), (2, [2, 3, 0, 1])] [2, 3]) 1 1,
    -- 1125: tmp5 = einsum(v.ovov, (0, 1, 2, 3), t1, (2, 1), (0, 3))
    .set 10 (.ein [(2, [0, 1, 2, 3]), (1, [2, 1])] [0, 3]) 1 1,
    -- 1126: tmp54 = einsum(tmp0, (0, 1), t1, (0, 2), (1, 2))
    .set 11 (.ein [(8, [0, 1]), (1, [0, 2])] [1, 2]) 1 1,
    -- 1127: tmp53 = einsum(t2, (0, 1, 2, 3), v.ovvv, (1, 2, 4, 3), (0, 4))
    .set 12 (.ein [(3, [0, 1, 2, 3]), (4, [1, 2, 4, 3])] [0, 4]) 1 1,
    -- 1128: tmp52 = einsum(t2, (0, 1, 2, 3), v.ovvv, (1, 3, 4, 2), (0, 4))
    .set 13 (.ein [(3, [0, 1, 2, 3]), (4, [1, 3, 4, 2])] [0, 4]) 1 1,
    -- 1129: tmp51 = einsum(t1, (0, 1), f.vv, (2, 1), (0, 2))
    .set 14 (.ein [(1, [0, 1]), (5, [2, 1])] [0, 2]) 1 1,
    -- 1130: tmp45 = einsum(v.ovov, (0, 1, 2, 3), t2, (0, 2, 4, 3), (4, 1))
    .set 15 (.ein [(2, [0, 1, 2, 3]), (3, [0, 2, 4, 3])] [4, 1]) 1 1,
    -- 1131: tmp43 = einsum(v.ovov, (0, 1, 2, 3), t2, (0, 2, 4, 1), (4, 3))
    .set 16 (.ein [(2, [0, 1, 2, 3]), (3, [0, 2, 4, 1])] [4, 3]) 1 1,
    -- 1132: tmp42 = einsum(v.ooov, (0, 1, 2, 3), t2, (4, 1, 3, 5), (4, 0, 2, 5))
    .set 17 (.ein [(6, [0, 1, 2, 3]), (3, [4, 1, 3, 5])] [4, 0, 2, 5]) 1 1,
    -- 1133: tmp41 = einsum(v.ooov, (0, 1, 2, 3), t2, (1, 2, 4, 3), (0, 4))
    .set 18 (.ein [(6, [0, 1, 2, 3]), (3, [1, 2, 4, 3])] [0, 4]) 1 1,
    -- 1134: tmp40 = einsum(v.ooov, (0, 1, 2, 3), t2, (2, 1, 4, 3), (0, 4))
    .set 19 (.ein [(6, [0, 1, 2, 3]), (3, [2, 1, 4, 3])] [0, 4]) 1 1,
    -- 1135: tmp39 = einsum(f.ov, (0, 1), t2, (2, 3, 4, 1), (0, 2, 3, 4))
    .set 20 (.ein [(0, [0, 1]), (3, [2, 3, 4, 1])] [0, 2, 3, 4]) 1 1,
    -- 1136: tmp37 = einsum(f.oo, (0, 1), t1, (1, 2), (0, 2))
    .set 21 (.ein [(7, [0, 1]), (1, [1, 2])] [0, 2]) 1 1,
    -- 1137: tmp35 = einsum(v.ovov, (0, 1, 2, 3), t2, (4, 2, 5, 3), (4, 0, 5, 1))
    .set 22 (.ein [(2, [0, 1, 2, 3]), (3, [4, 2, 5, 3])] [4, 0, 5, 1]) 1 1,
    -- 1138: tmp34 = einsum(t2, (0, 1, 2, 3), v.ovov, (4, 5, 1, 2), (0, 4, 3, 5))
    .set 23 (.ein [(3, [0, 1, 2, 3]), (2, [4, 5, 1, 2])] [0, 4, 3, 5]) 1 1,
    -- 1139: tmp33 = einsum(t2, (0, 1, 2, 3), v.ovov, (4, 3, 1, 5), (0, 4, 2, 5))
    .set 24 (.ein [(3, [0, 1, 2, 3]), (2, [4, 3, 1, 5])] [0, 4, 2, 5]) 1 1,
    -- 1140: tmp32 = einsum(t2, (0, 1, 2, 3), v.ovov, (4, 2, 1, 5), (0, 4, 3, 5))
    .set 25 (.ein [(3, [0, 1, 2, 3]), (2, [4, 2, 1, 5])] [0, 4, 3, 5]) 1 1,
    -- 1141: tmp31 = einsum(v.ooov, (0, 1, 2, 3), t2, (4, 2, 3, 5), (4, 0, 1, 5))
    .set 26 (.ein [(6, [0, 1, 2, 3]), (3, [4, 2, 3, 5])] [4, 0, 1, 5]) 1 1,
    -- 1142: tmp29 = einsum(v.ooov, (0, 1, 2, 3), t2, (4, 2, 5, 3), (4, 0, 1, 5))
    .set 27 (.ein [(6, [0, 1, 2, 3]), (3, [4, 2, 5, 3])] [4, 0, 1, 5]) 1 1,
    -- 1143: tmp28 = einsum(v.ooov, (0, 1, 2, 3), t2, (4, 1, 5, 3), (4, 0, 2, 5))
    .set 28 (.ein [(6, [0, 1, 2, 3]), (3, [4, 1, 5, 3])] [4, 0, 2, 5]) 1 1,
    -- 1144: tmp26 = einsum(t2, (0, 1, 2, 3), f.ov, (1, 3), (0, 2))
    .set 29 (.ein [(3, [0, 1, 2, 3]), (0, [1, 3])] [0, 2]) 1 1,
    -- 1145: tmp25 = einsum(f.ov, (0, 1), t2, (2, 0, 1, 3), (2, 3))
    .set 30 (.ein [(0, [0, 1]), (3, [2, 0, 1, 3])] [2, 3]) 1 1,
    -- 1146: tmp21 = einsum(v.ovov, (0, 1, 2, 3), t2, (4, 5, 1, 3), (4, 5, 0, 2))
    .set 31 (.ein [(2, [0, 1, 2, 3]), (3, [4, 5, 1, 3])] [4, 5, 0, 2]) 1 1,
    -- 1147: tmp19 = einsum(t2, (0, 1, 2, 3), v.ovvv, (4, 2, 5, 3), (0, 1, 4, 5))
    .set 32 (.ein [(3, [0, 1, 2, 3]), (4, [4, 2, 5, 3])] [0, 1, 4, 5]) 1 1,
    -- 1148: tmp17 = einsum(tmp6, (0, 1), t1, (2, 1), (2, 0))
    .set 33 (.ein [(9, [0, 1]), (1, [2, 1])] [2, 0]) 1 1,
    -- 1149: tmp16 = einsum(tmp5, (0, 1), t1, (2, 1), (2, 0))
    .set 34 (.ein [(10, [0, 1]), (1, [2, 1])] [2, 0]) 1 1,
    -- 1150: tmp14 = einsum(t2, (0, 1, 2, 3), v.ovov, (4, 2, 1, 3), (0, 4))
    .set 35 (.ein [(3, [0, 1, 2, 3]), (2, [4, 2, 1, 3])] [0, 4]) 1 1,
    -- 1151: tmp12 = einsum(t2, (0, 1, 2, 3), v.ovov, (4, 3, 1, 2), (0, 4))
    .set 36 (.ein [(3, [0, 1, 2, 3]), (2, [4, 3, 1, 2])] [0, 4]) 1 1,
    -- 1152: tmp9 = einsum(t1, (0, 1), v.ovov, (2, 3, 4, 1), (0, 2, 4, 3))
    .set 37 (.ein [(1, [0, 1]), (2, [2, 3, 4, 1])] [0, 2, 4, 3]) 1 1,
    -- 1153: tmp4 = einsum(v.ooov, (0, 1, 2, 3), t1, (2, 3), (0, 1))
    .set 38 (.ein [(6, [0, 1, 2, 3]), (1, [2, 3])] [0, 1]) 1 1,
    -- 1154: tmp3 = einsum(t1, (0, 1), v.ooov, (2, 0, 3, 1), (2, 3))
    .set 39 (.ein [(1, [0, 1]), (6, [2, 0, 3, 1])] [2, 3]) 1 1
  ]
  ret := [(chars! "tmp0", 8), (chars! "tmp12", 36), (chars! "tmp14", 35), (chars! "tmp16", 34), (chars! "tmp17", 33), (chars! "tmp19", 32), (chars! "tmp21", 31), (chars! "tmp25", 30), (chars! "tmp26", 29), (chars! "tmp28", 28), (chars! "tmp29", 27), (chars! "tmp3", 39), (chars! "tmp31", 26), (chars! "tmp32", 25), (chars! "tmp33", 24), (chars! "tmp34", 23), (chars! "tmp35", 22), (chars! "tmp37", 21), (chars! "tmp39", 20), (chars! "tmp4", 38), (chars! "tmp40", 19), (chars! "tmp41", 18), (chars! "tmp42", 17), (chars! "tmp43", 16), (chars! "tmp45", 15), (chars! "tmp5", 10), (chars! "tmp51", 14), (chars! "tmp52", 13), (chars! "tmp53", 12), (chars! "tmp54", 11), (chars! "tmp6", 9), (chars! "tmp9", 37)]

/-- codegen/RCC2.py:1158-1297 `hbar_matvec_ip`. -/
def hbar_matvec_ip : GenFun where
  args := [chars! "v.ovov", chars! "r2", chars! "f.oo", chars! "ints.tmp0", chars! "ints.tmp14", chars! "ints.tmp12", chars! "ints.tmp32", chars! "v.oovv", chars! "ints.tmp35", chars! "ints.tmp33", chars! "ints.tmp34", chars! "ints.tmp19", chars! "ints.tmp29", chars! "ints.tmp39", chars! "v.ooov", chars! "ints.tmp28", chars! "ints.tmp31", chars! "ints.tmp42", chars! "f.ov", chars! "ints.tmp26", chars! "ints.tmp40", chars! "ints.tmp51", chars! "ints.tmp52", chars! "ints.tmp25", chars! "ints.tmp37", chars! "ints.tmp41", chars! "ints.tmp53", chars! "ints.tmp54", chars! "ints.tmp45", chars! "f.vv", chars! "ints.tmp43", chars! "t1", chars! "ints.tmp6", chars! "ints.tmp5", chars! "ints.tmp17", chars! "ints.tmp4", chars! "ints.tmp16", chars! "ints.tmp3", chars! "ints.tmp9", chars! "v.oooo", chars! "ints.tmp21", chars! "t2", chars! "r1"]
  body := [
    -- 1186: tmp8 = np.copy(np.transpose(v.ovov, (0, 2, 3, 1))) * -0.5
    .set 43 (.tr 0 [0, 2, 3, 1]) (-1) 2,
    -- 1187: tmp8 += np.transpose(v.ovov, (0, 2, 1, 3))
    .add 43 (.tr 0 [0, 2, 1, 3]) 1 1,
    -- 1188: tmp4 = np.copy(r2) * -0.5
    .set 44 (.cp 1) (-1) 2,
    -- 1189: tmp4 += np.transpose(r2, (1, 0, 2))
    .add 44 (.tr 1 [1, 0, 2]) 1 1,
    -- 1190: tmp11 = np.copy(f.oo)
    .set 45 (.cp 2) 1 1,
    -- 1191: tmp11 += ints.tmp0
    .add 45 (.cp 3) 1 1,
    -- 1192: tmp11 += np.transpose(ints.tmp14, (1, 0)) * 2
    .add 45 (.tr 4 [1, 0]) 2 1,
    -- 1193: tmp11 += np.transpose(ints.tmp12, (1, 0)) * -1
    .add 45 (.tr 5 [1, 0]) (-1) 1,
    -- 1194: tmp6 = np.copy(ints.tmp32)
    .set 46 (.cp 6) 1 1,
    -- 1195: del ints.tmp32
    .del 6,
    -- 1196: tmp6 += v.oovv * -1
    .add 46 (.cp 7) (-1) 1,
    -- 1197: tmp5 = np.copy(ints.tmp35) * 2
    .set 47 (.cp 8) 2 1,
    -- 1198: del ints.tmp35
    .del 8,
    -- 1199: tmp5 += np.transpose(v.ovov, (0, 2, 1, 3))
    .add 47 (.tr 0 [0, 2, 1, 3]) 1 1,
    -- 1200: tmp5 += ints.tmp33 * -1
    .add 47 (.cp 9) (-1) 1,
    -- 1201: del ints.tmp33
    .del 9,
    -- 1202: tmp5 += ints.tmp34 * -1
    .add 47 (.cp 10) (-1) 1,
    -- 1203: del ints.tmp34
    .del 10,
    -- 1204: tmp9 = einsum(r2, (0, 1, 2), tmp8, (1, 0, 3, 2), (3,))
    .set 48 (.ein [(1, [0, 1, 2]), (43, [1, 0, 3, 2])] [3]) 1 1,
    -- 1205: del tmp8
    .del 43,
    -- 1206: tmp10 = np.copy(ints.tmp19)
    .set 49 (.cp 11) 1 1,
    -- 1207: del ints.tmp19
    .del 11,
    -- 1208: tmp10 += np.transpose(ints.tmp29, (1, 0, 2, 3)) * 2
    .add 49 (.tr 12 [1, 0, 2, 3]) 2 1,
    -- 1209: del ints.tmp29
    .del 12,
    -- 1210: tmp10 += np.transpose(ints.tmp39, (2, 1, 0, 3))
    .add 49 (.tr 13 [2, 1, 0, 3]) 1 1,
    -- 1211: del ints.tmp39
    .del 13,
    -- 1212: tmp10 += np.transpose(v.ooov, (0, 2, 1, 3))
    .add 49 (.tr 14 [0, 2, 1, 3]) 1 1,
    -- 1213: tmp10 += np.transpose(ints.tmp28, (1, 0, 2, 3)) * -1
    .add 49 (.tr 15 [1, 0, 2, 3]) (-1) 1,
    -- 1214: del ints.tmp28
    .del 15,
    -- 1215: tmp10 += np.transpose(ints.tmp31, (1, 0, 2, 3)) * -1
    .add 49 (.tr 16 [1, 0, 2, 3]) (-1) 1,
    -- 1216: del ints.tmp31
    .del 16,
    -- 1217: tmp10 += ints.tmp42 * -1
    .add 49 (.cp 17) (-1) 1,
    -- 1218: del ints.tmp42
    .del 17,
    -- 1219: tmp12 = np.copy(f.ov)
    .set 50 (.cp 18) 1 1,
    -- 1220: tmp12 += ints.tmp26 * 2
    .add 50 (.cp 19) 2 1,
    -- 1221: del ints.tmp26
    .del 19,
    -- 1222: tmp12 += ints.tmp40
    .add 50 (.cp 20) 1 1,
    -- 1223: del ints.tmp40
    .del 20,
    -- 1224: tmp12 += ints.tmp51
    .add 50 (.cp 21) 1 1,
    -- 1225: del ints.tmp51
    .del 21,
    -- 1226: tmp12 += ints.tmp52 * 2
    .add 50 (.cp 22) 2 1,
    -- 1227: del ints.tmp52
    .del 22,
    -- 1228: tmp12 += ints.tmp25 * -1
    .add 50 (.cp 23) (-1) 1,
    -- 1229: del ints.tmp25
    .del 23,
    -- 1230: tmp12 += ints.tmp37 * -1
    .add 50 (.cp 24) (-1) 1,
    -- 1231: del ints.tmp37
    .del 24,
    -- 1232: tmp12 += ints.tmp41 * -2
    .add 50 (.cp 25) (-2) 1,
    -- 1233: del ints.tmp41
    .del 25,
    -- 1234: tmp12 += ints.tmp53 * -1
    .add 50 (.cp 26) (-1) 1,
    -- 1235: del ints.tmp53
    .del 26,
    -- 1236: tmp12 += ints.tmp54 * -1
    .add 50 (.cp 27) (-1) 1,
    -- 1237: del ints.tmp54
    .del 27,
    -- 1238: tmp7 = np.copy(np.transpose(ints.tmp45, (1, 0))) * 2
    .set 51 (.tr 28 [1, 0]) 2 1,
    -- 1239: del ints.tmp45
    .del 28,
    -- 1240: tmp7 += f.vv * -1
    .add 51 (.cp 29) (-1) 1,
    -- 1241: tmp7 += np.transpose(ints.tmp43, (1, 0)) * -1
    .add 51 (.tr 30 [1, 0]) (-1) 1,
    -- 1242: del ints.tmp43
    .del 30,
    -- 1243: tmp7 += einsum(t1, (0, 1), f.ov, (0, 2), (2, 1))
    .add 51 (.ein [(31, [0, 1]), (18, [0, 2])] [2, 1]) 1 1,
    -- 1244: tmp1 = np.copy(f.ov) * 0.5
    .set 52 (.cp 18) 1 2,
    -- 1245: tmp1 += ints.tmp6
    .add 52 (.cp 32) 1 1,
    -- 1246: del ints.tmp6
    .del 32,
    -- 1247: tmp1 += ints.tmp5 * -0.5
    .add 52 (.cp 33) (-1) 2,
    -- 1248: del ints.tmp5
    .del 33,
    -- 1249: tmp3 = np.copy(f.oo)
    .set 53 (.cp 2) 1 1,
    -- 1250: tmp3 += ints.tmp0
    .add 53 (.cp 3) 1 1,
    -- 1251: del ints.tmp0
    .del 3,
    -- 1252: tmp3 += np.transpose(ints.tmp14, (1, 0)) * 2
    .add 53 (.tr 4 [1, 0]) 2 1,
    -- 1253: del ints.tmp14
    .del 4,
    -- 1254: tmp3 += np.transpose(ints.tmp17, (1, 0)) * 2
    .add 53 (.tr 34 [1, 0]) 2 1,
    -- 1255: del ints.tmp17
    .del 34,
    -- 1256: tmp3 += np.transpose(ints.tmp4, (1, 0)) * 2
    .add 53 (.tr 35 [1, 0]) 2 1,
    -- 1257: del ints.tmp4
    .del 35,
    -- 1258: tmp3 += np.transpose(ints.tmp12, (1, 0)) * -1
    .add 53 (.tr 5 [1, 0]) (-1) 1,
    -- 1259: del ints.tmp12
    .del 5,
    -- 1260: tmp3 += np.transpose(ints.tmp16, (1, 0)) * -1
    .add 53 (.tr 36 [1, 0]) (-1) 1,
    -- 1261: del ints.tmp16
    .del 36,
    -- 1262: tmp3 += np.transpose(ints.tmp3, (1, 0)) * -1
    .add 53 (.tr 37 [1, 0]) (-1) 1,
    -- 1263: del ints.tmp3
    .del 37,
    -- 1264: tmp0 = np.copy(ints.tmp9)
    .set 54 (.cp 38) 1 1,
    -- 1265: tmp0 += v.ooov * -0.5
    .add 54 (.cp 14) (-1) 2,
    -- 1266: tmp0 += np.transpose(v.ooov, (0, 2, 1, 3))
    .add 54 (.tr 14 [0, 2, 1, 3]) 1 1,
    -- 1267: tmp2 = np.copy(r2) * -1
    .set 55 (.cp 1) (-1) 1,
    -- 1268: tmp2 += np.transpose(r2, (1, 0, 2)) * 2
    .add 55 (.tr 1 [1, 0, 2]) 2 1,
    -- 1269: r2new = einsum(r2, (0, 1, 2), v.oooo, (3, 0, 4, 1), (3, 4, 2))
    .set 56 (.ein [(1, [0, 1, 2]), (39, [3, 0, 4, 1])] [3, 4, 2]) 1 1,
    -- 1270: r2new += einsum(ints.tmp21, (0, 1, 2, 3), r2, (3, 2, 4), (1, 0, 4))
    .add 56 (.ein [(40, [0, 1, 2, 3]), (1, [3, 2, 4])] [1, 0, 4]) 1 1,
    -- 1271: del ints.tmp21
    .del 40,
    -- 1272: r2new += einsum(tmp5, (0, 1, 2, 3), tmp4, (4, 1, 3), (0, 4, 2)) * 2
    .add 56 (.ein [(47, [0, 1, 2, 3]), (44, [4, 1, 3])] [0, 4, 2]) 2 1,
    -- 1273: del tmp5, tmp4
    .del 47,
    .del 44,
    -- 1274: r2new += einsum(r2, (0, 1, 2), tmp6, (3, 1, 4, 2), (0, 3, 4))
    .add 56 (.ein [(1, [0, 1, 2]), (46, [3, 1, 4, 2])] [0, 3, 4]) 1 1,
    -- 1275: r2new += einsum(r2, (0, 1, 2), tmp6, (3, 0, 4, 2), (3, 1, 4))
    .add 56 (.ein [(1, [0, 1, 2]), (46, [3, 0, 4, 2])] [3, 1, 4]) 1 1,
    -- 1276: del tmp6
    .del 46,
    -- 1277: r2new += einsum(tmp7, (0, 1), r2, (2, 3, 0), (2, 3, 1)) * -1
    .add 56 (.ein [(51, [0, 1]), (1, [2, 3, 0])] [2, 3, 1]) (-1) 1,
    -- 1278: del tmp7
    .del 51,
    -- 1279: r2new += einsum(tmp9, (0,), t2, (1, 2, 3, 0), (1, 2, 3)) * -2
    .add 56 (.ein [(48, [0]), (41, [1, 2, 3, 0])] [1, 2, 3]) (-2) 1,
    -- 1280: del tmp9
    .del 48,
    -- 1281: r2new += einsum(tmp10, (0, 1, 2, 3), r1, (2,), (1, 0, 3))
    .add 56 (.ein [(49, [0, 1, 2, 3]), (42, [2])] [1, 0, 3]) 1 1,
    -- 1282: del tmp10
    .del 49,
    -- 1283: r2new += einsum(tmp11, (0, 1), r2, (0, 2, 3), (1, 2, 3)) * -1
    .add 56 (.ein [(45, [0, 1]), (1, [0, 2, 3])] [1, 2, 3]) (-1) 1,
    -- 1284: r2new += einsum(r2, (0, 1, 2), tmp11, (1, 3), (0, 3, 2)) * -1
    .add 56 (.ein [(1, [0, 1, 2]), (45, [1, 3])] [0, 3, 2]) (-1) 1,
    -- 1285: del tmp11
    .del 45,
    -- 1286: r2new += einsum(r1, (0,), tmp12, (1, 2), (1, 0, 2)) * -1
    .add 56 (.ein [(42, [0]), (50, [1, 2])] [1, 0, 2]) (-1) 1,
    -- 1287: del tmp12
    .del 50,
    -- 1288: r1new = einsum(r2, (0, 1, 2), ints.tmp9, (3, 1, 0, 2), (3,)) * -1
    .set 57 (.ein [(1, [0, 1, 2]), (38, [3, 1, 0, 2])] [3]) (-1) 1,
    -- 1289: del ints.tmp9
    .del 38,
    -- 1290: r1new += einsum(r2, (0, 1, 2), tmp0, (3, 0, 1, 2), (3,)) * 2
    .add 57 (.ein [(1, [0, 1, 2]), (54, [3, 0, 1, 2])] [3]) 2 1,
    -- 1291: del tmp0
    .del 54,
    -- 1292: r1new += einsum(tmp1, (0, 1), tmp2, (2, 0, 1), (2,)) * -2
    .add 57 (.ein [(52, [0, 1]), (55, [2, 0, 1])] [2]) (-2) 1,
    -- 1293: del tmp1, tmp2
    .del 52,
    .del 55,
    -- 1294: r1new += einsum(tmp3, (0, 1), r1, (0,), (1,)) * -1
    .add 57 (.ein [(53, [0, 1]), (42, [0])] [1]) (-1) 1,
    -- 1295: del tmp3
    .del 53
  ]
  ret := [(chars! "r1new", 57), (chars! "r2new", 56)]

/-- codegen/RCC2.py:1518-1668 `hbar_lmatvec_ip_intermediates`. -/
def hbar_lmatvec_ip_intermediates : GenFun where
  args := [chars! "t1", chars! "v.ovov", chars! "v.ovvv", chars! "v.ooov", chars! "t2", chars! "f.ov", chars! "v.oovv", chars! "v.oooo", chars! "f.vv", chars! "f.oo"]
  body := [
    -- 1596: tmp20 = einsum(t1, (0, 1), v.ovov, (2, 3, 4, 1), (0, 2, 4, 3))
    .set 10 (.ein [(0, [0, 1]), (1, [2, 3, 4, 1])] [0, 2, 4, 3]) 1 1,
    -- 1597: tmp17 = einsum(t1, (0, 1), v.ovov, (2, 3, 0, 1), (2, 3))
    .set 11 (.ein [(0, [0, 1]), (1, [2, 3, 0, 1])] [2, 3]) 1 1,
    -- 1598: tmp47 = einsum(v.ovov, (0, 1, 2, 3), t1, (2, 1), (0, 3))
    .set 12 (.ein [(1, [0, 1, 2, 3]), (0, [2, 1])] [0, 3]) 1 1,
    -- 1599: tmp107 = einsum(tmp20, (0, 1, 2, 3), t1, (4, 3), (4, 0, 1, 2))
    .set 13 (.ein [(10, [0, 1, 2, 3]), (0, [4, 3])] [4, 0, 1, 2]) 1 1,
    -- 1600: tmp86 = einsum(tmp17, (0, 1), t1, (2, 1), (2, 0))
    .set 14 (.ein [(11, [0, 1]), (0, [2, 1])] [2, 0]) 1 1,
    -- 1601: tmp85 = einsum(tmp47, (0, 1), t1, (2, 1), (2, 0))
    .set 15 (.ein [(12, [0, 1]), (0, [2, 1])] [2, 0]) 1 1,
    -- 1602: tmp99 = einsum(t1, (0, 1), v.ovvv, (2, 3, 4, 1), (0, 2, 3, 4))
    .set 16 (.ein [(0, [0, 1]), (2, [2, 3, 4, 1])] [0, 2, 3, 4]) 1 1,
    -- 1603: tmp97 = einsum(v.ovvv, (0, 1, 2, 3), t1, (0, 3), (1, 2))
    .set 17 (.ein [(2, [0, 1, 2, 3]), (0, [0, 3])] [1, 2]) 1 1,
    -- 1604: tmp93 = einsum(t1, (0, 1), v.ovvv, (0, 1, 2, 3), (2, 3))
    .set 18 (.ein [(0, [0, 1]), (2, [0, 1, 2, 3])] [2, 3]) 1 1,
    -- 1605: tmp90 = einsum(v.ooov, (0, 1, 2, 3), t1, (4, 3), (4, 0, 1, 2))
    .set 19 (.ein [(3, [0, 1, 2, 3]), (0, [4, 3])] [4, 0, 1, 2]) 1 1,
    -- 1606: tmp13 = einsum(v.ooov, (0, 1, 2, 3), t1, (2, 3), (0, 1))
    .set 20 (.ein [(3, [0, 1, 2, 3]), (0, [2, 3])] [0, 1]) 1 1,
    -- 1607: tmp12 = einsum(v.ooov, (0, 1, 2, 3), t1, (1, 3), (0, 2))
    .set 21 (.ein [(3, [0, 1, 2, 3]), (0, [1, 3])] [0, 2]) 1 1,
    -- 1608: tmp81 = einsum(v.ovov, (0, 1, 2, 3), t2, (4, 5, 1, 3), (4, 5, 0, 2))
    .set 22 (.ein [(1, [0, 1, 2, 3]), (4, [4, 5, 1, 3])] [4, 5, 0, 2]) 1 1,
    -- 1609: tmp22 = einsum(v.ovov, (0, 1, 2, 3), t2, (4, 2, 3, 1), (4, 0))
    .set 23 (.ein [(1, [0, 1, 2, 3]), (4, [4, 2, 3, 1])] [4, 0]) 1 1,
    -- 1610: tmp24 = einsum(v.ovov, (0, 1, 2, 3), t2, (4, 2, 1, 3), (4, 0))
    .set 24 (.ein [(1, [0, 1, 2, 3]), (4, [4, 2, 1, 3])] [4, 0]) 1 1,
    -- 1611: tmp0 = einsum(f.ov, (0, 1), t1, (2, 1), (0, 2))
    .set 25 (.ein [(5, [0, 1]), (0, [2, 1])] [0, 2]) 1 1,
    -- 1612: tmp131 = einsum(v.ovov, (0, 1, 2, 3), t2, (0, 2, 4, 3), (4, 1))
    .set 26 (.ein [(1, [0, 1, 2, 3]), (4, [0, 2, 4, 3])] [4, 1]) 1 1,
    -- 1613: tmp129 = einsum(v.ovov, (0, 1, 2, 3), t2, (0, 2, 4, 1), (4, 3))
    .set 27 (.ein [(1, [0, 1, 2, 3]), (4, [0, 2, 4, 1])] [4, 3]) 1 1,
    -- 1614: tmp115 = einsum(v.ovov, (0, 1, 2, 3), t2, (4, 2, 5, 3), (4, 0, 5, 1))
    .set 28 (.ein [(1, [0, 1, 2, 3]), (4, [4, 2, 5, 3])] [4, 0, 5, 1]) 1 1,
    -- 1615: tmp114 = einsum(t2, (0, 1, 2, 3), v.ovov, (4, 5, 1, 2), (0, 4, 3, 5))
    .set 29 (.ein [(4, [0, 1, 2, 3]), (1, [4, 5, 1, 2])] [0, 4, 3, 5]) 1 1,
    -- 1616: tmp112 = einsum(t2, (0, 1, 2, 3), v.ovov, (4, 3, 1, 5), (0, 4, 2, 5))
    .set 30 (.ein [(4, [0, 1, 2, 3]), (1, [4, 3, 1, 5])] [0, 4, 2, 5]) 1 1,
    -- 1617: tmp111 = einsum(t2, (0, 1, 2, 3), v.ovov, (4, 2, 1, 5), (0, 4, 3, 5))
    .set 31 (.ein [(4, [0, 1, 2, 3]), (1, [4, 2, 1, 5])] [0, 4, 3, 5]) 1 1,
    -- 1618: tmp108 = einsum(tmp107, (0, 1, 2, 3), t1, (3, 4), (0, 1, 2, 4))
    .set 32 (.ein [(13, [0, 1, 2, 3]), (0, [3, 4])] [0, 1, 2, 4]) 1 1,
    -- 1619: del tmp107
    .del 13,
    -- 1620: tmp104 = einsum(tmp86, (0, 1), t1, (1, 2), (0, 2))
    .set 33 (.ein [(14, [0, 1]), (0, [1, 2])] [0, 2]) 1 1,
    -- 1621: tmp103 = einsum(t1, (0, 1), tmp85, (2, 0), (2, 1))
    .set 34 (.ein [(0, [0, 1]), (15, [2, 0])] [2, 1]) 1 1,
    -- 1622: tmp100 = einsum(t1, (0, 1), tmp99, (2, 3, 1, 4), (0, 2, 3, 4))
    .set 35 (.ein [(0, [0, 1]), (16, [2, 3, 1, 4])] [0, 2, 3, 4]) 1 1,
    -- 1623: del tmp99
    .del 16,
    -- 1624: tmp98 = einsum(t1, (0, 1), tmp97, (1, 2), (0, 2))
    .set 36 (.ein [(0, [0, 1]), (17, [1, 2])] [0, 2]) 1 1,
    -- 1625: del tmp97
    .del 17,
    -- 1626: tmp94 = einsum(t1, (0, 1), tmp93, (2, 1), (0, 2))
    .set 37 (.ein [(0, [0, 1]), (18, [2, 1])] [0, 2]) 1 1,
    -- 1627: del tmp93
    .del 18,
    -- 1628: tmp92 = einsum(tmp90, (0, 1, 2, 3), t1, (3, 4), (0, 1, 2, 4))
    .set 38 (.ein [(19, [0, 1, 2, 3]), (0, [3, 4])] [0, 1, 2, 4]) 1 1,
    -- 1629: tmp91 = einsum(tmp90, (0, 1, 2, 3), t1, (2, 4), (0, 1, 3, 4))
    .set 39 (.ein [(19, [0, 1, 2, 3]), (0, [2, 4])] [0, 1, 3, 4]) 1 1,
    -- 1630: del tmp90
    .del 19,
    -- 1631: tmp88 = einsum(tmp13, (0, 1), t1, (1, 2), (0, 2))
    .set 40 (.ein [(20, [0, 1]), (0, [1, 2])] [0, 2]) 1 1,
    -- 1632: tmp87 = einsum(t1, (0, 1), tmp12, (2, 0), (2, 1))
    .set 41 (.ein [(0, [0, 1]), (21, [2, 0])] [2, 1]) 1 1,
    -- 1633: tmp82 = einsum(tmp81, (0, 1, 2, 3), t1, (3, 4), (0, 1, 2, 4))
    .set 42 (.ein [(22, [0, 1, 2, 3]), (0, [3, 4])] [0, 1, 2, 4]) 1 1,
    -- 1634: tmp78 = einsum(t1, (0, 1), tmp22, (2, 0), (2, 1))
    .set 43 (.ein [(0, [0, 1]), (23, [2, 0])] [2, 1]) 1 1,
    -- 1635: tmp75 = einsum(tmp24, (0, 1), t1, (1, 2), (0, 2))
    .set 44 (.ein [(24, [0, 1]), (0, [1, 2])] [0, 2]) 1 1,
    -- 1636: tmp73 = einsum(tmp20, (0, 1, 2, 3), t2, (4, 2, 5, 3), (0, 4, 1, 5))
    .set 45 (.ein [(10, [0, 1, 2, 3]), (4, [4, 2, 5, 3])] [0, 4, 1, 5]) 1 1,
    -- 1637: tmp72 = einsum(t2, (0, 1, 2, 3), tmp20, (4, 5, 1, 2), (4, 0, 5, 3))
    .set 46 (.ein [(4, [0, 1, 2, 3]), (10, [4, 5, 1, 2])] [4, 0, 5, 3]) 1 1,
    -- 1638: tmp70 = einsum(t2, (0, 1, 2, 3), tmp20, (4, 1, 5, 3), (4, 0, 5, 2))
    .set 47 (.ein [(4, [0, 1, 2, 3]), (10, [4, 1, 5, 3])] [4, 0, 5, 2]) 1 1,
    -- 1639: tmp69 = einsum(t2, (0, 1, 2, 3), tmp20, (4, 1, 5, 2), (4, 0, 5, 3))
    .set 48 (.ein [(4, [0, 1, 2, 3]), (10, [4, 1, 5, 2])] [4, 0, 5, 3]) 1 1,
    -- 1640: tmp66 = einsum(tmp20, (0, 1, 2, 3), t2, (1, 2, 4, 3), (0, 4))
    .set 49 (.ein [(10, [0, 1, 2, 3]), (4, [1, 2, 4, 3])] [0, 4]) 1 1,
    -- 1641: tmp63 = einsum(tmp20, (0, 1, 2, 3), t2, (2, 1, 4, 3), (0, 4))
    .set 50 (.ein [(10, [0, 1, 2, 3]), (4, [2, 1, 4, 3])] [0, 4]) 1 1,
    -- 1642: tmp60 = einsum(t2, (0, 1, 2, 3), tmp17, (4, 3), (0, 1, 4, 2))
    .set 51 (.ein [(4, [0, 1, 2, 3]), (11, [4, 3])] [0, 1, 4, 2]) 1 1,
    -- 1643: tmp57 = einsum(t2, (0, 1, 2, 3), tmp47, (4, 3), (0, 1, 4, 2))
    .set 52 (.ein [(4, [0, 1, 2, 3]), (12, [4, 3])] [0, 1, 4, 2]) 1 1,
    -- 1644: tmp54 = einsum(tmp17, (0, 1), t2, (2, 0, 3, 1), (2, 3))
    .set 53 (.ein [(11, [0, 1]), (4, [2, 0, 3, 1])] [2, 3]) 1 1,
    -- 1645: tmp51 = einsum(tmp17, (0, 1), t2, (2, 0, 1, 3), (2, 3))
    .set 54 (.ein [(11, [0, 1]), (4, [2, 0, 1, 3])] [2, 3]) 1 1,
    -- 1646: tmp49 = einsum(tmp47, (0, 1), t2, (2, 0, 3, 1), (2, 3))
    .set 55 (.ein [(12, [0, 1]), (4, [2, 0, 3, 1])] [2, 3]) 1 1,
    -- 1647: tmp48 = einsum(tmp47, (0, 1), t2, (2, 0, 1, 3), (2, 3))
    .set 56 (.ein [(12, [0, 1]), (4, [2, 0, 1, 3])] [2, 3]) 1 1,
    -- 1648: del tmp47
    .del 12,
    -- 1649: tmp44 = einsum(t2, (0, 1, 2, 3), v.ovvv, (4, 2, 5, 3), (0, 1, 4, 5))
    .set 57 (.ein [(4, [0, 1, 2, 3]), (2, [4, 2, 5, 3])] [0, 1, 4, 5]) 1 1,
    -- 1650: tmp41 = einsum(t2, (0, 1, 2, 3), v.ovvv, (1, 2, 4, 3), (0, 4))
    .set 58 (.ein [(4, [0, 1, 2, 3]), (2, [1, 2, 4, 3])] [0, 4]) 1 1,
    -- 1651: tmp38 = einsum(v.ovvv, (0, 1, 2, 3), t2, (4, 0, 3, 1), (4, 2))
    .set 59 (.ein [(2, [0, 1, 2, 3]), (4, [4, 0, 3, 1])] [4, 2]) 1 1,
    -- 1652: tmp36 = einsum(v.ooov, (0, 1, 2, 3), t2, (4, 2, 5, 3), (4, 0, 1, 5))
    .set 60 (.ein [(3, [0, 1, 2, 3]), (4, [4, 2, 5, 3])] [4, 0, 1, 5]) 1 1,
    -- 1653: tmp35 = einsum(t2, (0, 1, 2, 3), v.ooov, (4, 5, 1, 2), (0, 4, 5, 3))
    .set 61 (.ein [(4, [0, 1, 2, 3]), (3, [4, 5, 1, 2])] [0, 4, 5, 3]) 1 1,
    -- 1654: tmp33 = einsum(v.ooov, (0, 1, 2, 3), t2, (4, 1, 5, 3), (4, 0, 2, 5))
    .set 62 (.ein [(3, [0, 1, 2, 3]), (4, [4, 1, 5, 3])] [4, 0, 2, 5]) 1 1,
    -- 1655: tmp32 = einsum(t2, (0, 1, 2, 3), v.ooov, (4, 1, 5, 2), (0, 4, 5, 3))
    .set 63 (.ein [(4, [0, 1, 2, 3]), (3, [4, 1, 5, 2])] [0, 4, 5, 3]) 1 1,
    -- 1656: tmp29 = einsum(v.ooov, (0, 1, 2, 3), t2, (1, 2, 4, 3), (0, 4))
    .set 64 (.ein [(3, [0, 1, 2, 3]), (4, [1, 2, 4, 3])] [0, 4]) 1 1,
    -- 1657: tmp26 = einsum(v.ooov, (0, 1, 2, 3), t2, (1, 2, 3, 4), (0, 4))
    .set 65 (.ein [(3, [0, 1, 2, 3]), (4, [1, 2, 3, 4])] [0, 4]) 1 1,
    -- 1658: tmp21 = einsum(t1, (0, 1), v.oovv, (2, 3, 4, 1), (0, 2, 3, 4))
    .set 66 (.ein [(0, [0, 1]), (6, [2, 3, 4, 1])] [0, 2, 3, 4]) 1 1,
    -- 1659: tmp19 = einsum(v.oovv, (0, 1, 2, 3), t1, (1, 3), (0, 2))
    .set 67 (.ein [(6, [0, 1, 2, 3]), (0, [1, 3])] [0, 2]) 1 1,
    -- 1660: tmp14 = einsum(v.oooo, (0, 1, 2, 3), t1, (3, 4), (0, 1, 2, 4))
    .set 68 (.ein [(7, [0, 1, 2, 3]), (0, [3, 4])] [0, 1, 2, 4]) 1 1,
    -- 1661: tmp9 = einsum(tmp0, (0, 1), t1, (0, 2), (1, 2))
    .set 69 (.ein [(25, [0, 1]), (0, [0, 2])] [1, 2]) 1 1,
    -- 1662: tmp6 = einsum(f.ov, (0, 1), t2, (2, 3, 4, 1), (0, 2, 3, 4))
    .set 70 (.ein [(5, [0, 1]), (4, [2, 3, 4, 1])] [0, 2, 3, 4]) 1 1,
    -- 1663: tmp4 = einsum(t2, (0, 1, 2, 3), f.ov, (1, 3), (0, 2))
    .set 71 (.ein [(4, [0, 1, 2, 3]), (5, [1, 3])] [0, 2]) 1 1,
    -- 1664: tmp3 = einsum(f.ov, (0, 1), t2, (2, 0, 1, 3), (2, 3))
    .set 72 (.ein [(5, [0, 1]), (4, [2, 0, 1, 3])] [2, 3]) 1 1,
    -- 1665: tmp2 = einsum(t1, (0, 1), f.vv, (2, 1), (0, 2))
    .set 73 (.ein [(0, [0, 1]), (8, [2, 1])] [0, 2]) 1 1,
    -- 1666: tmp1 = einsum(t1, (0, 1), f.oo, (2, 0), (2, 1))
    .set 74 (.ein [(0, [0, 1]), (9, [2, 0])] [2, 1]) 1 1
  ]
  ret := [(chars! "tmp0", 25), (chars! "tmp1", 74), (chars! "tmp100", 35), (chars! "tmp103", 34), (chars! "tmp104", 33), (chars! "tmp108", 32), (chars! "tmp111", 31), (chars! "tmp112", 30), (chars! "tmp114", 29), (chars! "tmp115", 28), (chars! "tmp12", 21), (chars! "tmp129", 27), (chars! "tmp13", 20), (chars! "tmp131", 26), (chars! "tmp14", 68), (chars! "tmp17", 11), (chars! "tmp19", 67), (chars! "tmp2", 73), (chars! "tmp20", 10), (chars! "tmp21", 66), (chars! "tmp22", 23), (chars! "tmp24", 24), (chars! "tmp26", 65), (chars! "tmp29", 64), (chars! "tmp3", 72), (chars! "tmp32", 63), (chars! "tmp33", 62), (chars! "tmp35", 61), (chars! "tmp36", 60), (chars! "tmp38", 59), (chars! "tmp4", 71), (chars! "tmp41", 58), (chars! "tmp44", 57), (chars! "tmp48", 56), (chars! "tmp49", 55), (chars! "tmp51", 54), (chars! "tmp54", 53), (chars! "tmp57", 52), (chars! "tmp6", 70), (chars! "tmp60", 51), (chars! "tmp63", 50), (chars! "tmp66", 49), (chars! "tmp69", 48), (chars! "tmp70", 47), (chars! "tmp72", 46), (chars! "tmp73", 45), (chars! "tmp75", 44), (chars! "tmp78", 43), (chars! "tmp81", 22), (chars! "tmp82", 42), (chars! "tmp85", 15), (chars! "tmp86", 14), (chars! "tmp87", 41), (chars! "tmp88", 40), (chars! "tmp9", 69), (chars! "tmp91", 39), (chars! "tmp92", 38), (chars! "tmp94", 37), (chars! "tmp98", 36)]

/-- codegen/RCC2.py:1670-1866 `hbar_lmatvec_ip`. -/
def hbar_lmatvec_ip : GenFun where
  args := [chars! "t2", chars! "f.oo", chars! "ints.tmp0", chars! "ints.tmp24", chars! "ints.tmp22", chars! "ints.tmp115", chars! "v.ovov", chars! "ints.tmp112", chars! "ints.tmp114", chars! "ints.tmp111", chars! "v.oovv", chars! "ints.tmp131", chars! "f.vv", chars! "ints.tmp129", chars! "f.ov", chars! "t1", chars! "ints.tmp81", chars! "v.oooo", chars! "r2", chars! "v.ooov", chars! "v.ovoo", chars! "ints.tmp108", chars! "ints.tmp14", chars! "ints.tmp32", chars! "ints.tmp69", chars! "ints.tmp73", chars! "ints.tmp82", chars! "ints.tmp91", chars! "ints.tmp100", chars! "ints.tmp20", chars! "ints.tmp44", chars! "ints.tmp70", chars! "ints.tmp104", chars! "ints.tmp19", chars! "ints.tmp1", chars! "ints.tmp29", chars! "ints.tmp3", chars! "ints.tmp41", chars! "ints.tmp49", chars! "ints.tmp51", chars! "ints.tmp63", chars! "ints.tmp75", chars! "ints.tmp88", chars! "ints.tmp98", chars! "ints.tmp9", chars! "ints.tmp103", chars! "ints.tmp17", chars! "ints.tmp26", chars! "ints.tmp2", chars! "ints.tmp38", chars! "ints.tmp48", chars! "ints.tmp4", chars! "ints.tmp54", chars! "ints.tmp66", chars! "ints.tmp78", chars! "ints.tmp87", chars! "ints.tmp94", chars! "ints.tmp13", chars! "ints.tmp86", chars! "ints.tmp12", chars! "ints.tmp85", chars! "ints.tmp33", chars! "ints.tmp35", chars! "ints.tmp57", chars! "ints.tmp72", chars! "ints.tmp92", chars! "ints.tmp21", chars! "ints.tmp36", chars! "ints.tmp60", chars! "ints.tmp6", chars! "r1"]
  body := [
    -- 1698: tmp12 = np.copy(np.transpose(t2, (0, 1, 3, 2))) * -0.5
    .set 71 (.tr 0 [0, 1, 3, 2]) (-1) 2,
    -- 1699: tmp12 += t2
    .add 71 (.cp 0) 1 1,
    -- 1700: tmp14 = np.copy(f.oo)
    .set 72 (.cp 1) 1 1,
    -- 1701: tmp14 += np.transpose(ints.tmp0, (1, 0))
    .add 72 (.tr 2 [1, 0]) 1 1,
    -- 1702: tmp14 += ints.tmp24 * 2
    .add 72 (.cp 3) 2 1,
    -- 1703: tmp14 += ints.tmp22 * -1
    .add 72 (.cp 4) (-1) 1,
    -- 1704: tmp8 = np.copy(ints.tmp115) * 2
    .set 73 (.cp 5) 2 1,
    -- 1705: del ints.tmp115
    .del 5,
    -- 1706: tmp8 += np.transpose(v.ovov, (0, 2, 1, 3))
    .add 73 (.tr 6 [0, 2, 1, 3]) 1 1,
    -- 1707: tmp8 += ints.tmp112 * -1
    .add 73 (.cp 7) (-1) 1,
    -- 1708: del ints.tmp112
    .del 7,
    -- 1709: tmp8 += ints.tmp114 * -1
    .add 73 (.cp 8) (-1) 1,
    -- 1710: del ints.tmp114
    .del 8,
    -- 1711: tmp9 = np.copy(ints.tmp111)
    .set 74 (.cp 9) 1 1,
    -- 1712: del ints.tmp111
    .del 9,
    -- 1713: tmp9 += v.oovv * -1
    .add 74 (.cp 10) (-1) 1,
    -- 1714: tmp11 = np.copy(ints.tmp131) * 2
    .set 75 (.cp 11) 2 1,
    -- 1715: del ints.tmp131
    .del 11,
    -- 1716: tmp11 += f.vv * -1
    .add 75 (.cp 12) (-1) 1,
    -- 1717: tmp11 += ints.tmp129 * -1
    .add 75 (.cp 13) (-1) 1,
    -- 1718: del ints.tmp129
    .del 13,
    -- 1719: tmp11 += einsum(f.ov, (0, 1), t1, (0, 2), (2, 1))
    .add 75 (.ein [(14, [0, 1]), (15, [0, 2])] [2, 1]) 1 1,
    -- 1720: tmp10 = np.copy(ints.tmp81)
    .set 76 (.cp 16) 1 1,
    -- 1721: del ints.tmp81
    .del 16,
    -- 1722: tmp10 += np.transpose(v.oooo, (0, 2, 1, 3))
    .add 76 (.tr 17 [0, 2, 1, 3]) 1 1,
    -- 1723: tmp13 = einsum(tmp12, (0, 1, 2, 3), r2, (1, 0, 3), (2,))
    .set 77 (.ein [(71, [0, 1, 2, 3]), (18, [1, 0, 3])] [2]) 1 1,
    -- 1724: del tmp12
    .del 71,
    -- 1725: tmp0 = np.copy(r2) * -0.5
    .set 78 (.cp 18) (-1) 2,
    -- 1726: tmp0 += np.transpose(r2, (1, 0, 2))
    .add 78 (.tr 18 [1, 0, 2]) 1 1,
    -- 1727: tmp4 = np.copy(v.ooov) * -0.5
    .set 79 (.cp 19) (-1) 2,
    -- 1728: tmp4 += np.transpose(v.ovoo, (0, 2, 3, 1))
    .add 79 (.tr 20 [0, 2, 3, 1]) 1 1,
    -- 1729: tmp1 = np.copy(ints.tmp108)
    .set 80 (.cp 21) 1 1,
    -- 1730: del ints.tmp108
    .del 21,
    -- 1731: tmp1 += np.transpose(ints.tmp14, (1, 2, 0, 3))
    .add 80 (.tr 22 [1, 2, 0, 3]) 1 1,
    -- 1732: del ints.tmp14
    .del 22,
    -- 1733: tmp1 += ints.tmp32
    .add 80 (.cp 23) 1 1,
    -- 1734: del ints.tmp32
    .del 23,
    -- 1735: tmp1 += ints.tmp69
    .add 80 (.cp 24) 1 1,
    -- 1736: del ints.tmp69
    .del 24,
    -- 1737: tmp1 += ints.tmp73
    .add 80 (.cp 25) 1 1,
    -- 1738: del ints.tmp73
    .del 25,
    -- 1739: tmp1 += ints.tmp82
    .add 80 (.cp 26) 1 1,
    -- 1740: del ints.tmp82
    .del 26,
    -- 1741: tmp1 += ints.tmp91
    .add 80 (.cp 27) 1 1,
    -- 1742: del ints.tmp91
    .del 27,
    -- 1743: tmp1 += ints.tmp100 * -1
    .add 80 (.cp 28) (-1) 1,
    -- 1744: del ints.tmp100
    .del 28,
    -- 1745: tmp1 += ints.tmp20 * -1
    .add 80 (.cp 29) (-1) 1,
    -- 1746: del ints.tmp20
    .del 29,
    -- 1747: tmp1 += ints.tmp44 * -1
    .add 80 (.cp 30) (-1) 1,
    -- 1748: del ints.tmp44
    .del 30,
    -- 1749: tmp1 += ints.tmp70 * -2
    .add 80 (.cp 31) (-2) 1,
    -- 1750: del ints.tmp70
    .del 31,
    -- 1751: tmp5 = np.copy(ints.tmp104) * 2
    .set 81 (.cp 32) 2 1,
    -- 1752: del ints.tmp104
    .del 32,
    -- 1753: tmp5 += ints.tmp19
    .add 81 (.cp 33) 1 1,
    -- 1754: del ints.tmp19
    .del 33,
    -- 1755: tmp5 += ints.tmp1
    .add 81 (.cp 34) 1 1,
    -- 1756: del ints.tmp1
    .del 34,
    -- 1757: tmp5 += ints.tmp29 * 2
    .add 81 (.cp 35) 2 1,
    -- 1758: del ints.tmp29
    .del 35,
    -- 1759: tmp5 += ints.tmp3
    .add 81 (.cp 36) 1 1,
    -- 1760: del ints.tmp3
    .del 36,
    -- 1761: tmp5 += ints.tmp41
    .add 81 (.cp 37) 1 1,
    -- 1762: del ints.tmp41
    .del 37,
    -- 1763: tmp5 += ints.tmp49 * 2
    .add 81 (.cp 38) 2 1,
    -- 1764: del ints.tmp49
    .del 38,
    -- 1765: tmp5 += ints.tmp51 * 2
    .add 81 (.cp 39) 2 1,
    -- 1766: del ints.tmp51
    .del 39,
    -- 1767: tmp5 += ints.tmp63 * 2
    .add 81 (.cp 40) 2 1,
    -- 1768: del ints.tmp63
    .del 40,
    -- 1769: tmp5 += ints.tmp75 * 2
    .add 81 (.cp 41) 2 1,
    -- 1770: del ints.tmp75
    .del 41,
    -- 1771: tmp5 += ints.tmp88 * 2
    .add 81 (.cp 42) 2 1,
    -- 1772: del ints.tmp88
    .del 42,
    -- 1773: tmp5 += ints.tmp98
    .add 81 (.cp 43) 1 1,
    -- 1774: del ints.tmp98
    .del 43,
    -- 1775: tmp5 += ints.tmp9
    .add 81 (.cp 44) 1 1,
    -- 1776: del ints.tmp9
    .del 44,
    -- 1777: tmp5 += f.ov * -1
    .add 81 (.cp 14) (-1) 1,
    -- 1778: tmp5 += ints.tmp103 * -1
    .add 81 (.cp 45) (-1) 1,
    -- 1779: del ints.tmp103
    .del 45,
    -- 1780: tmp5 += ints.tmp17 * -2
    .add 81 (.cp 46) (-2) 1,
    -- 1781: del ints.tmp17
    .del 46,
    -- 1782: tmp5 += ints.tmp26 * -1
    .add 81 (.cp 47) (-1) 1,
    -- 1783: del ints.tmp26
    .del 47,
    -- 1784: tmp5 += ints.tmp2 * -1
    .add 81 (.cp 48) (-1) 1,
    -- 1785: del ints.tmp2
    .del 48,
    -- 1786: tmp5 += ints.tmp38 * -2
    .add 81 (.cp 49) (-2) 1,
    -- 1787: del ints.tmp38
    .del 49,
    -- 1788: tmp5 += ints.tmp48 * -1
    .add 81 (.cp 50) (-1) 1,
    -- 1789: del ints.tmp48
    .del 50,
    -- 1790: tmp5 += ints.tmp4 * -2
    .add 81 (.cp 51) (-2) 1,
    -- 1791: del ints.tmp4
    .del 51,
    -- 1792: tmp5 += ints.tmp54 * -4
    .add 81 (.cp 52) (-4) 1,
    -- 1793: del ints.tmp54
    .del 52,
    -- 1794: tmp5 += ints.tmp66 * -1
    .add 81 (.cp 53) (-1) 1,
    -- 1795: del ints.tmp66
    .del 53,
    -- 1796: tmp5 += ints.tmp78 * -1
    .add 81 (.cp 54) (-1) 1,
    -- 1797: del ints.tmp78
    .del 54,
    -- 1798: tmp5 += ints.tmp87 * -1
    .add 81 (.cp 55) (-1) 1,
    -- 1799: del ints.tmp87
    .del 55,
    -- 1800: tmp5 += ints.tmp94 * -2
    .add 81 (.cp 56) (-2) 1,
    -- 1801: del ints.tmp94
    .del 56,
    -- 1802: tmp6 = np.copy(r2) * -1
    .set 82 (.cp 18) (-1) 1,
    -- 1803: tmp6 += np.transpose(r2, (1, 0, 2)) * 2
    .add 82 (.tr 18 [1, 0, 2]) 2 1,
    -- 1804: tmp7 = np.copy(f.oo)
    .set 83 (.cp 1) 1 1,
    -- 1805: tmp7 += np.transpose(ints.tmp0, (1, 0))
    .add 83 (.tr 2 [1, 0]) 1 1,
    -- 1806: del ints.tmp0
    .del 2,
    -- 1807: tmp7 += np.transpose(ints.tmp13, (1, 0)) * 2
    .add 83 (.tr 57 [1, 0]) 2 1,
    -- 1808: del ints.tmp13
    .del 57,
    -- 1809: tmp7 += ints.tmp24 * 2
    .add 83 (.cp 3) 2 1,
    -- 1810: del ints.tmp24
    .del 3,
    -- 1811: tmp7 += ints.tmp86 * 2
    .add 83 (.cp 58) 2 1,
    -- 1812: del ints.tmp86
    .del 58,
    -- 1813: tmp7 += ints.tmp12 * -1
    .add 83 (.cp 59) (-1) 1,
    -- 1814: del ints.tmp12
    .del 59,
    -- 1815: tmp7 += ints.tmp22 * -1
    .add 83 (.cp 4) (-1) 1,
    -- 1816: del ints.tmp22
    .del 4,
    -- 1817: tmp7 += ints.tmp85 * -1
    .add 83 (.cp 60) (-1) 1,
    -- 1818: del ints.tmp85
    .del 60,
    -- 1819: tmp3 = np.copy(np.transpose(ints.tmp33, (0, 2, 1, 3)))
    .set 84 (.tr 61 [0, 2, 1, 3]) 1 1,
    -- 1820: del ints.tmp33
    .del 61,
    -- 1821: tmp3 += ints.tmp35
    .add 84 (.cp 62) 1 1,
    -- 1822: del ints.tmp35
    .del 62,
    -- 1823: tmp3 += np.transpose(ints.tmp57, (0, 2, 1, 3))
    .add 84 (.tr 63 [0, 2, 1, 3]) 1 1,
    -- 1824: del ints.tmp57
    .del 63,
    -- 1825: tmp3 += np.transpose(ints.tmp72, (0, 2, 1, 3))
    .add 84 (.tr 64 [0, 2, 1, 3]) 1 1,
    -- 1826: del ints.tmp72
    .del 64,
    -- 1827: tmp3 += ints.tmp92
    .add 84 (.cp 65) 1 1,
    -- 1828: del ints.tmp92
    .del 65,
    -- 1829: tmp3 += ints.tmp21 * -1
    .add 84 (.cp 66) (-1) 1,
    -- 1830: del ints.tmp21
    .del 66,
    -- 1831: tmp3 += ints.tmp36 * -2
    .add 84 (.cp 67) (-2) 1,
    -- 1832: del ints.tmp36
    .del 67,
    -- 1833: tmp3 += np.transpose(ints.tmp60, (0, 2, 1, 3)) * -2
    .add 84 (.tr 68 [0, 2, 1, 3]) (-2) 1,
    -- 1834: del ints.tmp60
    .del 68,
    -- 1835: tmp3 += np.transpose(ints.tmp6, (1, 0, 2, 3)) * -1
    .add 84 (.tr 69 [1, 0, 2, 3]) (-1) 1,
    -- 1836: del ints.tmp6
    .del 69,
    -- 1837: tmp2 = np.copy(r2) * 2
    .set 85 (.cp 18) 2 1,
    -- 1838: tmp2 += np.transpose(r2, (1, 0, 2)) * -1
    .add 85 (.tr 18 [1, 0, 2]) (-1) 1,
    -- 1839: r2new = einsum(f.ov, (0, 1), r1, (2,), (0, 2, 1)) * -1
    .set 86 (.ein [(14, [0, 1]), (70, [2])] [0, 2, 1]) (-1) 1,
    -- 1840: r2new += einsum(r1, (0,), v.ovoo, (1, 2, 3, 0), (1, 3, 2))
    .add 86 (.ein [(70, [0]), (20, [1, 2, 3, 0])] [1, 3, 2]) 1 1,
    -- 1841: r2new += einsum(tmp8, (0, 1, 2, 3), tmp0, (4, 0, 2), (1, 4, 3)) * 2
    .add 86 (.ein [(73, [0, 1, 2, 3]), (78, [4, 0, 2])] [1, 4, 3]) 2 1,
    -- 1842: del tmp8
    .del 73,
    -- 1843: r2new += einsum(r2, (0, 1, 2), tmp9, (1, 3, 2, 4), (0, 3, 4))
    .add 86 (.ein [(18, [0, 1, 2]), (74, [1, 3, 2, 4])] [0, 3, 4]) 1 1,
    -- 1844: r2new += einsum(r2, (0, 1, 2), tmp9, (0, 3, 2, 4), (3, 1, 4))
    .add 86 (.ein [(18, [0, 1, 2]), (74, [0, 3, 2, 4])] [3, 1, 4]) 1 1,
    -- 1845: del tmp9
    .del 74,
    -- 1846: r2new += einsum(r2, (0, 1, 2), tmp10, (0, 1, 3, 4), (3, 4, 2))
    .add 86 (.ein [(18, [0, 1, 2]), (76, [0, 1, 3, 4])] [3, 4, 2]) 1 1,
    -- 1847: del tmp10
    .del 76,
    -- 1848: r2new += einsum(tmp11, (0, 1), r2, (2, 3, 0), (2, 3, 1)) * -1
    .add 86 (.ein [(75, [0, 1]), (18, [2, 3, 0])] [2, 3, 1]) (-1) 1,
    -- 1849: del tmp11
    .del 75,
    -- 1850: r2new += einsum(tmp13, (0,), v.ovov, (1, 2, 3, 0), (1, 3, 2)) * -2
    .add 86 (.ein [(77, [0]), (6, [1, 2, 3, 0])] [1, 3, 2]) (-2) 1,
    -- 1851: del tmp13
    .del 77,
    -- 1852: r2new += einsum(tmp14, (0, 1), r2, (0, 2, 3), (1, 2, 3)) * -1
    .add 86 (.ein [(72, [0, 1]), (18, [0, 2, 3])] [1, 2, 3]) (-1) 1,
    -- 1853: r2new += einsum(r2, (0, 1, 2), tmp14, (1, 3), (0, 3, 2)) * -1
    .add 86 (.ein [(18, [0, 1, 2]), (72, [1, 3])] [0, 3, 2]) (-1) 1,
    -- 1854: del tmp14
    .del 72,
    -- 1855: r1new = einsum(tmp1, (0, 1, 2, 3), tmp0, (0, 1, 3), (2,)) * -2
    .set 87 (.ein [(80, [0, 1, 2, 3]), (78, [0, 1, 3])] [2]) (-2) 1,
    -- 1856: del tmp0, tmp1
    .del 78,
    .del 80,
    -- 1857: r1new += einsum(tmp3, (0, 1, 2, 3), tmp2, (0, 2, 3), (1,)) * -1
    .add 87 (.ein [(84, [0, 1, 2, 3]), (85, [0, 2, 3])] [1]) (-1) 1,
    -- 1858: del tmp3, tmp2
    .del 84,
    .del 85,
    -- 1859: r1new += einsum(r2, (0, 1, 2), tmp4, (0, 3, 1, 2), (3,)) * 2
    .add 87 (.ein [(18, [0, 1, 2]), (79, [0, 3, 1, 2])] [3]) 2 1,
    -- 1860: del tmp4
    .del 79,
    -- 1861: r1new += einsum(tmp5, (0, 1), tmp6, (2, 0, 1), (2,))
    .add 87 (.ein [(81, [0, 1]), (82, [2, 0, 1])] [2]) 1 1,
    -- 1862: del tmp5, tmp6
    .del 81,
    .del 82,
    -- 1863: r1new += einsum(tmp7, (0, 1), r1, (0,), (1,)) * -1
    .add 87 (.ein [(83, [0, 1]), (70, [0])] [1]) (-1) 1,
    -- 1864: del tmp7
    .del 83
  ]
  ret := [(chars! "r1new", 87), (chars! "r2new", 86)]

/-- codegen/RCC2.py:1299-1373 `hbar_matvec_ea_intermediates`. -/
def hbar_matvec_ea_intermediates : GenFun where
  args := [chars! "f.ov", chars! "t1", chars! "v.ovov", chars! "t2", chars! "v.ovvv", chars! "v.ooov", chars! "f.oo", chars! "f.vv"]
  body := [
    -- 1345: tmp33 = einsum(f.ov, (0, 1), t1, (2, 1), (0, 2))
    .set 8 (.ein [(0, [0, 1]), (1, [2, 1])] [0, 2]) 1 1,
    -- 1346: tmp55 = einsum(v.ovov, (0, 1, 2, 3), t2, (4, 2, 5, 3), (4, 0, 5, 1))
    .set 9 (.ein [(2, [0, 1, 2, 3]), (3, [4, 2, 5, 3])] [4, 0, 5, 1]) 1 1,
    -- 1347: tmp54 = einsum(t2, (0, 1, 2, 3), v.ovov, (4, 5, 1, 2), (0, 4, 3, 5))
    .set 10 (.ein [(3, [0, 1, 2, 3]), (2, [4, 5, 1, 2])] [0, 4, 3, 5]) 1 1,
    -- 1348: tmp53 = einsum(t2, (0, 1, 2, 3), v.ovov, (4, 3, 1, 5), (0, 4, 2, 5))
    .set 11 (.ein [(3, [0, 1, 2, 3]), (2, [4, 3, 1, 5])] [0, 4, 2, 5]) 1 1,
    -- 1349: tmp50 = einsum(v.ovvv, (0, 1, 2, 3), t2, (4, 0, 1, 5), (4, 5, 2, 3))
    .set 12 (.ein [(4, [0, 1, 2, 3]), (3, [4, 0, 1, 5])] [4, 5, 2, 3]) 1 1,
    -- 1350: tmp49 = einsum(t2, (0, 1, 2, 3), v.ovvv, (1, 4, 5, 3), (0, 2, 4, 5))
    .set 13 (.ein [(3, [0, 1, 2, 3]), (4, [1, 4, 5, 3])] [0, 2, 4, 5]) 1 1,
    -- 1351: tmp48 = einsum(v.ovvv, (0, 1, 2, 3), t2, (4, 0, 5, 1), (4, 5, 2, 3))
    .set 14 (.ein [(4, [0, 1, 2, 3]), (3, [4, 0, 5, 1])] [4, 5, 2, 3]) 1 1,
    -- 1352: tmp47 = einsum(t2, (0, 1, 2, 3), f.ov, (1, 3), (0, 2))
    .set 15 (.ein [(3, [0, 1, 2, 3]), (0, [1, 3])] [0, 2]) 1 1,
    -- 1353: tmp46 = einsum(f.ov, (0, 1), t2, (2, 0, 1, 3), (2, 3))
    .set 16 (.ein [(0, [0, 1]), (3, [2, 0, 1, 3])] [2, 3]) 1 1,
    -- 1354: tmp44 = einsum(v.ooov, (0, 1, 2, 3), t2, (2, 1, 3, 4), (0, 4))
    .set 17 (.ein [(5, [0, 1, 2, 3]), (3, [2, 1, 3, 4])] [0, 4]) 1 1,
    -- 1355: tmp43 = einsum(v.ooov, (0, 1, 2, 3), t2, (1, 2, 3, 4), (0, 4))
    .set 18 (.ein [(5, [0, 1, 2, 3]), (3, [1, 2, 3, 4])] [0, 4]) 1 1,
    -- 1356: tmp42 = einsum(f.oo, (0, 1), t1, (1, 2), (0, 2))
    .set 19 (.ein [(6, [0, 1]), (1, [1, 2])] [0, 2]) 1 1,
    -- 1357: tmp41 = einsum(tmp33, (0, 1), t1, (0, 2), (1, 2))
    .set 20 (.ein [(8, [0, 1]), (1, [0, 2])] [1, 2]) 1 1,
    -- 1358: tmp39 = einsum(v.ovov, (0, 1, 2, 3), t2, (4, 2, 1, 3), (4, 0))
    .set 21 (.ein [(2, [0, 1, 2, 3]), (3, [4, 2, 1, 3])] [4, 0]) 1 1,
    -- 1359: tmp37 = einsum(v.ovov, (0, 1, 2, 3), t2, (4, 2, 3, 1), (4, 0))
    .set 22 (.ein [(2, [0, 1, 2, 3]), (3, [4, 2, 3, 1])] [4, 0]) 1 1,
    -- 1360: tmp36 = einsum(v.ovvv, (0, 1, 2, 3), t2, (4, 0, 1, 3), (4, 2))
    .set 23 (.ein [(4, [0, 1, 2, 3]), (3, [4, 0, 1, 3])] [4, 2]) 1 1,
    -- 1361: tmp35 = einsum(v.ovvv, (0, 1, 2, 3), t2, (4, 0, 3, 1), (4, 2))
    .set 24 (.ein [(4, [0, 1, 2, 3]), (3, [4, 0, 3, 1])] [4, 2]) 1 1,
    -- 1362: tmp32 = einsum(t1, (0, 1), f.vv, (2, 1), (0, 2))
    .set 25 (.ein [(1, [0, 1]), (7, [2, 1])] [0, 2]) 1 1,
    -- 1363: tmp26 = einsum(v.ooov, (0, 1, 2, 3), t2, (2, 1, 4, 5), (0, 5, 4, 3))
    .set 26 (.ein [(5, [0, 1, 2, 3]), (3, [2, 1, 4, 5])] [0, 5, 4, 3]) 1 1,
    -- 1364: tmp25 = einsum(t2, (0, 1, 2, 3), v.ovov, (4, 2, 1, 5), (0, 4, 3, 5))
    .set 27 (.ein [(3, [0, 1, 2, 3]), (2, [4, 2, 1, 5])] [0, 4, 3, 5]) 1 1,
    -- 1365: tmp22 = einsum(t2, (0, 1, 2, 3), v.ovvv, (1, 4, 5, 2), (0, 3, 4, 5))
    .set 28 (.ein [(3, [0, 1, 2, 3]), (4, [1, 4, 5, 2])] [0, 3, 4, 5]) 1 1,
    -- 1366: tmp16 = einsum(v.ovov, (0, 1, 2, 3), t2, (0, 2, 4, 3), (4, 1))
    .set 29 (.ein [(2, [0, 1, 2, 3]), (3, [0, 2, 4, 3])] [4, 1]) 1 1,
    -- 1367: tmp14 = einsum(v.ovov, (0, 1, 2, 3), t2, (0, 2, 4, 1), (4, 3))
    .set 30 (.ein [(2, [0, 1, 2, 3]), (3, [0, 2, 4, 1])] [4, 3]) 1 1,
    -- 1368: tmp7 = einsum(t1, (0, 1), v.ovov, (2, 3, 0, 1), (2, 3))
    .set 31 (.ein [(1, [0, 1]), (2, [2, 3, 0, 1])] [2, 3]) 1 1,
    -- 1369: tmp6 = einsum(v.ovov, (0, 1, 2, 3), t1, (2, 1), (0, 3))
    .set 32 (.ein [(2, [0, 1, 2, 3]), (1, [2, 1])] [0, 3]) 1 1,
    -- 1370: tmp5 = einsum(t1, (0, 1), v.ovvv, (0, 2, 3, 1), (2, 3))
    .set 33 (.ein [(1, [0, 1]), (4, [0, 2, 3, 1])] [2, 3]) 1 1,
    -- 1371: tmp3 = einsum(t1, (0, 1), v.ovvv, (0, 1, 2, 3), (2, 3))
    .set 34 (.ein [(1, [0, 1]), (4, [0, 1, 2, 3])] [2, 3]) 1 1
  ]
  ret := [(chars! "tmp14", 30), (chars! "tmp16", 29), (chars! "tmp22", 28), (chars! "tmp25", 27), (chars! "tmp26", 26), (chars! "tmp3", 34), (chars! "tmp32", 25), (chars! "tmp33", 8), (chars! "tmp35", 24), (chars! "tmp36", 23), (chars! "tmp37", 22), (chars! "tmp39", 21), (chars! "tmp41", 20), (chars! "tmp42", 19), (chars! "tmp43", 18), (chars! "tmp44", 17), (chars! "tmp46", 16), (chars! "tmp47", 15), (chars! "tmp48", 14), (chars! "tmp49", 13), (chars! "tmp5", 33), (chars! "tmp50", 12), (chars! "tmp53", 11), (chars! "tmp54", 10), (chars! "tmp55", 9), (chars! "tmp6", 32), (chars! "tmp7", 31)]

/-- codegen/RCC2.py:1375-1516 `hbar_matvec_ea`. -/
def hbar_matvec_ea : GenFun where
  args := [chars! "t1", chars! "f.ov", chars! "v.ovov", chars! "ints.tmp7", chars! "ints.tmp6", chars! "f.oo", chars! "ints.tmp33", chars! "ints.tmp39", chars! "ints.tmp37", chars! "r2", chars! "ints.tmp55", chars! "ints.tmp53", chars! "ints.tmp54", chars! "ints.tmp26", chars! "ints.tmp48", chars! "v.ovvv", chars! "ints.tmp22", chars! "ints.tmp49", chars! "ints.tmp50", chars! "ints.tmp25", chars! "v.oovv", chars! "ints.tmp16", chars! "f.vv", chars! "ints.tmp14", chars! "r1", chars! "ints.tmp32", chars! "ints.tmp35", chars! "ints.tmp43", chars! "ints.tmp47", chars! "ints.tmp36", chars! "ints.tmp41", chars! "ints.tmp42", chars! "ints.tmp44", chars! "ints.tmp46", chars! "ints.tmp3", chars! "ints.tmp5", chars! "t2", chars! "v.vvvv"]
  body := [
    -- 1403: tmp12 = einsum(t1, (0, 1), f.ov, (0, 2), (2, 1))
    .set 38 (.ein [(0, [0, 1]), (1, [0, 2])] [2, 1]) 1 1,
    -- 1404: tmp4 = np.copy(np.transpose(v.ovov, (0, 2, 3, 1))) * -1
    .set 39 (.tr 2 [0, 2, 3, 1]) (-1) 1,
    -- 1405: tmp4 += np.transpose(v.ovov, (0, 2, 1, 3)) * 2
    .add 39 (.tr 2 [0, 2, 1, 3]) 2 1,
    -- 1406: tmp5 = np.copy(f.ov)
    .set 40 (.cp 1) 1 1,
    -- 1407: tmp5 += ints.tmp7 * 2
    .add 40 (.cp 3) 2 1,
    -- 1408: tmp5 += ints.tmp6 * -1
    .add 40 (.cp 4) (-1) 1,
    -- 1409: tmp14 = np.copy(f.oo)
    .set 41 (.cp 5) 1 1,
    -- 1410: tmp14 += ints.tmp33
    .add 41 (.cp 6) 1 1,
    -- 1411: del ints.tmp33
    .del 6,
    -- 1412: tmp14 += np.transpose(ints.tmp39, (1, 0)) * 2
    .add 41 (.tr 7 [1, 0]) 2 1,
    -- 1413: del ints.tmp39
    .del 7,
    -- 1414: tmp14 += np.transpose(ints.tmp37, (1, 0)) * -1
    .add 41 (.tr 8 [1, 0]) (-1) 1,
    -- 1415: del ints.tmp37
    .del 8,
    -- 1416: tmp8 = np.copy(np.transpose(r2, (2, 0, 1)))
    .set 42 (.tr 9 [2, 0, 1]) 1 1,
    -- 1417: tmp8 += np.transpose(r2, (2, 1, 0)) * -0.5
    .add 42 (.tr 9 [2, 1, 0]) (-1) 2,
    -- 1418: tmp9 = np.copy(ints.tmp55) * 2
    .set 43 (.cp 10) 2 1,
    -- 1419: del ints.tmp55
    .del 10,
    -- 1420: tmp9 += np.transpose(v.ovov, (0, 2, 1, 3))
    .add 43 (.tr 2 [0, 2, 1, 3]) 1 1,
    -- 1421: tmp9 += ints.tmp53 * -1
    .add 43 (.cp 11) (-1) 1,
    -- 1422: del ints.tmp53
    .del 11,
    -- 1423: tmp9 += ints.tmp54 * -1
    .add 43 (.cp 12) (-1) 1,
    -- 1424: del ints.tmp54
    .del 12,
    -- 1425: tmp11 = np.copy(np.transpose(ints.tmp26, (0, 2, 3, 1)))
    .set 44 (.tr 13 [0, 2, 3, 1]) 1 1,
    -- 1426: del ints.tmp26
    .del 13,
    -- 1427: tmp11 += np.transpose(ints.tmp48, (0, 2, 3, 1)) * 2
    .add 44 (.tr 14 [0, 2, 3, 1]) 2 1,
    -- 1428: del ints.tmp48
    .del 14,
    -- 1429: tmp11 += np.transpose(v.ovvv, (0, 2, 3, 1))
    .add 44 (.tr 15 [0, 2, 3, 1]) 1 1,
    -- 1430: tmp11 += ints.tmp22 * -1
    .add 44 (.cp 16) (-1) 1,
    -- 1431: del ints.tmp22
    .del 16,
    -- 1432: tmp11 += np.transpose(ints.tmp49, (0, 3, 2, 1)) * -1
    .add 44 (.tr 17 [0, 3, 2, 1]) (-1) 1,
    -- 1433: del ints.tmp49
    .del 17,
    -- 1434: tmp11 += np.transpose(ints.tmp50, (0, 2, 3, 1)) * -1
    .add 44 (.tr 18 [0, 2, 3, 1]) (-1) 1,
    -- 1435: del ints.tmp50
    .del 18,
    -- 1436: tmp10 = np.copy(ints.tmp25)
    .set 45 (.cp 19) 1 1,
    -- 1437: del ints.tmp25
    .del 19,
    -- 1438: tmp10 += v.oovv * -1
    .add 45 (.cp 20) (-1) 1,
    -- 1439: tmp7 = einsum(v.ovov, (0, 1, 2, 3), r2, (1, 3, 4), (4, 0, 2))
    .set 46 (.ein [(2, [0, 1, 2, 3]), (9, [1, 3, 4])] [4, 0, 2]) 1 1,
    -- 1440: tmp13 = np.copy(np.transpose(ints.tmp16, (1, 0))) * 2
    .set 47 (.tr 21 [1, 0]) 2 1,
    -- 1441: tmp13 += f.vv * -1
    .add 47 (.cp 22) (-1) 1,
    -- 1442: tmp13 += np.transpose(ints.tmp14, (1, 0)) * -1
    .add 47 (.tr 23 [1, 0]) (-1) 1,
    -- 1443: tmp13 += tmp12
    .add 47 (.cp 38) 1 1,
    -- 1444: del tmp12
    .del 38,
    -- 1445: tmp15 = einsum(f.ov, (0, 1), r1, (1,), (0,)) * 0.5
    .set 48 (.ein [(1, [0, 1]), (24, [1])] [0]) 1 2,
    -- 1446: tmp15 += einsum(r2, (0, 1, 2), tmp4, (2, 3, 0, 1), (3,)) * -0.5
    .add 48 (.ein [(9, [0, 1, 2]), (39, [2, 3, 0, 1])] [3]) (-1) 2,
    -- 1447: tmp16 = np.copy(f.ov)
    .set 49 (.cp 1) 1 1,
    -- 1448: tmp16 += ints.tmp32
    .add 49 (.cp 25) 1 1,
    -- 1449: del ints.tmp32
    .del 25,
    -- 1450: tmp16 += ints.tmp35 * 2
    .add 49 (.cp 26) 2 1,
    -- 1451: del ints.tmp35
    .del 26,
    -- 1452: tmp16 += ints.tmp43
    .add 49 (.cp 27) 1 1,
    -- 1453: del ints.tmp43
    .del 27,
    -- 1454: tmp16 += ints.tmp47 * 2
    .add 49 (.cp 28) 2 1,
    -- 1455: del ints.tmp47
    .del 28,
    -- 1456: tmp16 += ints.tmp36 * -1
    .add 49 (.cp 29) (-1) 1,
    -- 1457: del ints.tmp36
    .del 29,
    -- 1458: tmp16 += ints.tmp41 * -1
    .add 49 (.cp 30) (-1) 1,
    -- 1459: del ints.tmp41
    .del 30,
    -- 1460: tmp16 += ints.tmp42 * -1
    .add 49 (.cp 31) (-1) 1,
    -- 1461: del ints.tmp42
    .del 31,
    -- 1462: tmp16 += ints.tmp44 * -2
    .add 49 (.cp 32) (-2) 1,
    -- 1463: del ints.tmp44
    .del 32,
    -- 1464: tmp16 += ints.tmp46 * -1
    .add 49 (.cp 33) (-1) 1,
    -- 1465: del ints.tmp46
    .del 33,
    -- 1466: tmp1 = np.copy(f.ov) * 0.5
    .set 50 (.cp 1) 1 2,
    -- 1467: tmp1 += ints.tmp7
    .add 50 (.cp 3) 1 1,
    -- 1468: del ints.tmp7
    .del 3,
    -- 1469: tmp1 += ints.tmp6 * -0.5
    .add 50 (.cp 4) (-1) 2,
    -- 1470: del ints.tmp6
    .del 4,
    -- 1471: tmp6 = einsum(r2, (0, 1, 2), tmp4, (2, 3, 0, 1), (3,)) * -1
    .set 51 (.ein [(9, [0, 1, 2]), (39, [2, 3, 0, 1])] [3]) (-1) 1,
    -- 1472: del tmp4
    .del 39,
    -- 1473: tmp6 += einsum(tmp5, (0, 1), r1, (1,), (0,))
    .add 51 (.ein [(40, [0, 1]), (24, [1])] [0]) 1 1,
    -- 1474: del tmp5
    .del 40,
    -- 1475: tmp3 = np.copy(f.vv)
    .set 52 (.cp 22) 1 1,
    -- 1476: tmp3 += np.transpose(ints.tmp14, (1, 0))
    .add 52 (.tr 23 [1, 0]) 1 1,
    -- 1477: del ints.tmp14
    .del 23,
    -- 1478: tmp3 += np.transpose(ints.tmp3, (1, 0)) * 2
    .add 52 (.tr 34 [1, 0]) 2 1,
    -- 1479: del ints.tmp3
    .del 34,
    -- 1480: tmp3 += np.transpose(ints.tmp16, (1, 0)) * -2
    .add 52 (.tr 21 [1, 0]) (-2) 1,
    -- 1481: del ints.tmp16
    .del 21,
    -- 1482: tmp3 += ints.tmp5 * -1
    .add 52 (.cp 35) (-1) 1,
    -- 1483: del ints.tmp5
    .del 35,
    -- 1484: tmp2 = np.copy(np.transpose(r2, (2, 0, 1))) * -1
    .set 53 (.tr 9 [2, 0, 1]) (-1) 1,
    -- 1485: tmp2 += np.transpose(r2, (2, 1, 0)) * 2
    .add 53 (.tr 9 [2, 1, 0]) 2 1,
    -- 1486: tmp0 = np.copy(v.ovvv) * -1
    .set 54 (.cp 15) (-1) 1,
    -- 1487: tmp0 += np.transpose(v.ovvv, (0, 2, 1, 3)) * 2
    .add 54 (.tr 15 [0, 2, 1, 3]) 2 1,
    -- 1488: r2new = einsum(tmp7, (0, 1, 2), t2, (2, 1, 3, 4), (4, 3, 0))
    .set 55 (.ein [(46, [0, 1, 2]), (36, [2, 1, 3, 4])] [4, 3, 0]) 1 1,
    -- 1489: del tmp7
    .del 46,
    -- 1490: r2new += einsum(r2, (0, 1, 2), v.vvvv, (3, 0, 4, 1), (3, 4, 2))
    .add 55 (.ein [(9, [0, 1, 2]), (37, [3, 0, 4, 1])] [3, 4, 2]) 1 1,
    -- 1491: r2new += einsum(tmp9, (0, 1, 2, 3), tmp8, (1, 3, 4), (2, 4, 0)) * 2
    .add 55 (.ein [(43, [0, 1, 2, 3]), (42, [1, 3, 4])] [2, 4, 0]) 2 1,
    -- 1492: del tmp9, tmp8
    .del 43,
    .del 42,
    -- 1493: r2new += einsum(tmp10, (0, 1, 2, 3), r2, (4, 3, 1), (4, 2, 0))
    .add 55 (.ein [(45, [0, 1, 2, 3]), (9, [4, 3, 1])] [4, 2, 0]) 1 1,
    -- 1494: r2new += einsum(r2, (0, 1, 2), tmp10, (3, 2, 4, 0), (4, 1, 3))
    .add 55 (.ein [(9, [0, 1, 2]), (45, [3, 2, 4, 0])] [4, 1, 3]) 1 1,
    -- 1495: del tmp10
    .del 45,
    -- 1496: r2new += einsum(r1, (0,), tmp11, (1, 2, 0, 3), (3, 2, 1)) * -1
    .add 55 (.ein [(24, [0]), (44, [1, 2, 0, 3])] [3, 2, 1]) (-1) 1,
    -- 1497: del tmp11
    .del 44,
    -- 1498: r2new += einsum(tmp13, (0, 1), r2, (0, 2, 3), (1, 2, 3)) * -1
    .add 55 (.ein [(47, [0, 1]), (9, [0, 2, 3])] [1, 2, 3]) (-1) 1,
    -- 1499: r2new += einsum(tmp13, (0, 1), r2, (2, 0, 3), (2, 1, 3)) * -1
    .add 55 (.ein [(47, [0, 1]), (9, [2, 0, 3])] [2, 1, 3]) (-1) 1,
    -- 1500: del tmp13
    .del 47,
    -- 1501: r2new += einsum(r2, (0, 1, 2), tmp14, (2, 3), (0, 1, 3)) * -1
    .add 55 (.ein [(9, [0, 1, 2]), (41, [2, 3])] [0, 1, 3]) (-1) 1,
    -- 1502: del tmp14
    .del 41,
    -- 1503: r2new += einsum(tmp15, (0,), t2, (1, 0, 2, 3), (2, 3, 1)) * 2
    .add 55 (.ein [(48, [0]), (36, [1, 0, 2, 3])] [2, 3, 1]) 2 1,
    -- 1504: del tmp15
    .del 48,
    -- 1505: r2new += einsum(r1, (0,), tmp16, (1, 2), (2, 0, 1)) * -1
    .add 55 (.ein [(24, [0]), (49, [1, 2])] [2, 0, 1]) (-1) 1,
    -- 1506: del tmp16
    .del 49,
    -- 1507: r1new = einsum(r2, (0, 1, 2), tmp0, (2, 1, 0, 3), (3,)) * -1
    .set 56 (.ein [(9, [0, 1, 2]), (54, [2, 1, 0, 3])] [3]) (-1) 1,
    -- 1508: del tmp0
    .del 54,
    -- 1509: r1new += einsum(tmp2, (0, 1, 2), tmp1, (0, 2), (1,)) * -2
    .add 56 (.ein [(53, [0, 1, 2]), (50, [0, 2])] [1]) (-2) 1,
    -- 1510: del tmp2, tmp1
    .del 53,
    .del 50,
    -- 1511: r1new += einsum(r1, (0,), tmp3, (0, 1), (1,))
    .add 56 (.ein [(24, [0]), (52, [0, 1])] [1]) 1 1,
    -- 1512: del tmp3
    .del 52,
    -- 1513: r1new += einsum(tmp6, (0,), t1, (0, 1), (1,)) * -1
    .add 56 (.ein [(51, [0]), (0, [0, 1])] [1]) (-1) 1,
    -- 1514: del tmp6
    .del 51
  ]
  ret := [(chars! "r1new", 56), (chars! "r2new", 55)]

/-- codegen/RCC2.py:1868-1990 `hbar_lmatvec_ea_intermediates`. -/
def hbar_lmatvec_ea_intermediates : GenFun where
  args := [chars! "t1", chars! "v.ovov", chars! "v.ovvv", chars! "v.ooov", chars! "t2", chars! "f.ov", chars! "v.vvvv", chars! "v.oovv", chars! "f.vv", chars! "f.oo"]
  body := [
    -- 1934: tmp17 = einsum(t1, (0, 1), v.ovov, (2, 3, 0, 1), (2, 3))
    .set 10 (.ein [(0, [0, 1]), (1, [2, 3, 0, 1])] [2, 3]) 1 1,
    -- 1935: tmp55 = einsum(v.ovov, (0, 1, 2, 3), t1, (2, 1), (0, 3))
    .set 11 (.ein [(1, [0, 1, 2, 3]), (0, [2, 1])] [0, 3]) 1 1,
    -- 1936: tmp112 = einsum(tmp17, (0, 1), t1, (2, 1), (2, 0))
    .set 12 (.ein [(10, [0, 1]), (0, [2, 1])] [2, 0]) 1 1,
    -- 1937: tmp110 = einsum(tmp55, (0, 1), t1, (2, 1), (2, 0))
    .set 13 (.ein [(11, [0, 1]), (0, [2, 1])] [2, 0]) 1 1,
    -- 1938: tmp16 = einsum(v.ovvv, (0, 1, 2, 3), t1, (0, 3), (1, 2))
    .set 14 (.ein [(2, [0, 1, 2, 3]), (0, [0, 3])] [1, 2]) 1 1,
    -- 1939: tmp14 = einsum(t1, (0, 1), v.ovvv, (0, 1, 2, 3), (2, 3))
    .set 15 (.ein [(0, [0, 1]), (2, [0, 1, 2, 3])] [2, 3]) 1 1,
    -- 1940: tmp97 = einsum(v.ooov, (0, 1, 2, 3), t1, (2, 3), (0, 1))
    .set 16 (.ein [(3, [0, 1, 2, 3]), (0, [2, 3])] [0, 1]) 1 1,
    -- 1941: tmp95 = einsum(v.ooov, (0, 1, 2, 3), t1, (1, 3), (0, 2))
    .set 17 (.ein [(3, [0, 1, 2, 3]), (0, [1, 3])] [0, 2]) 1 1,
    -- 1942: tmp83 = einsum(v.ovov, (0, 1, 2, 3), t2, (4, 2, 3, 1), (4, 0))
    .set 18 (.ein [(1, [0, 1, 2, 3]), (4, [4, 2, 3, 1])] [4, 0]) 1 1,
    -- 1943: tmp79 = einsum(v.ovov, (0, 1, 2, 3), t2, (4, 2, 1, 3), (4, 0))
    .set 19 (.ein [(1, [0, 1, 2, 3]), (4, [4, 2, 1, 3])] [4, 0]) 1 1,
    -- 1944: tmp69 = einsum(t1, (0, 1), v.ovov, (2, 3, 4, 1), (0, 2, 4, 3))
    .set 20 (.ein [(0, [0, 1]), (1, [2, 3, 4, 1])] [0, 2, 4, 3]) 1 1,
    -- 1945: tmp10 = einsum(f.ov, (0, 1), t1, (2, 1), (0, 2))
    .set 21 (.ein [(5, [0, 1]), (0, [2, 1])] [0, 2]) 1 1,
    -- 1946: tmp113 = einsum(t1, (0, 1), tmp112, (2, 0), (2, 1))
    .set 22 (.ein [(0, [0, 1]), (12, [2, 0])] [2, 1]) 1 1,
    -- 1947: del tmp112
    .del 12,
    -- 1948: tmp111 = einsum(tmp110, (0, 1), t1, (1, 2), (0, 2))
    .set 23 (.ein [(13, [0, 1]), (0, [1, 2])] [0, 2]) 1 1,
    -- 1949: del tmp110
    .del 13,
    -- 1950: tmp109 = einsum(t1, (0, 1), v.ovvv, (2, 3, 4, 1), (0, 2, 3, 4))
    .set 24 (.ein [(0, [0, 1]), (2, [2, 3, 4, 1])] [0, 2, 3, 4]) 1 1,
    -- 1951: tmp107 = einsum(t1, (0, 1), v.ovvv, (2, 1, 3, 4), (0, 2, 3, 4))
    .set 25 (.ein [(0, [0, 1]), (2, [2, 1, 3, 4])] [0, 2, 3, 4]) 1 1,
    -- 1952: tmp106 = einsum(t1, (0, 1), tmp16, (1, 2), (0, 2))
    .set 26 (.ein [(0, [0, 1]), (14, [1, 2])] [0, 2]) 1 1,
    -- 1953: tmp103 = einsum(t1, (0, 1), tmp14, (2, 1), (0, 2))
    .set 27 (.ein [(0, [0, 1]), (15, [2, 1])] [0, 2]) 1 1,
    -- 1954: tmp98 = einsum(tmp97, (0, 1), t1, (1, 2), (0, 2))
    .set 28 (.ein [(16, [0, 1]), (0, [1, 2])] [0, 2]) 1 1,
    -- 1955: del tmp97
    .del 16,
    -- 1956: tmp96 = einsum(t1, (0, 1), tmp95, (2, 0), (2, 1))
    .set 29 (.ein [(0, [0, 1]), (17, [2, 0])] [2, 1]) 1 1,
    -- 1957: del tmp95
    .del 17,
    -- 1958: tmp92 = einsum(t2, (0, 1, 2, 3), v.ovov, (4, 3, 1, 5), (0, 4, 2, 5))
    .set 30 (.ein [(4, [0, 1, 2, 3]), (1, [4, 3, 1, 5])] [0, 4, 2, 5]) 1 1,
    -- 1959: tmp90 = einsum(t2, (0, 1, 2, 3), v.ovov, (4, 2, 1, 5), (0, 4, 3, 5))
    .set 31 (.ein [(4, [0, 1, 2, 3]), (1, [4, 2, 1, 5])] [0, 4, 3, 5]) 1 1,
    -- 1960: tmp88 = einsum(v.ovov, (0, 1, 2, 3), t2, (4, 2, 5, 3), (4, 0, 5, 1))
    .set 32 (.ein [(1, [0, 1, 2, 3]), (4, [4, 2, 5, 3])] [4, 0, 5, 1]) 1 1,
    -- 1961: tmp87 = einsum(t2, (0, 1, 2, 3), v.ovov, (4, 5, 1, 2), (0, 4, 3, 5))
    .set 33 (.ein [(4, [0, 1, 2, 3]), (1, [4, 5, 1, 2])] [0, 4, 3, 5]) 1 1,
    -- 1962: tmp84 = einsum(t1, (0, 1), tmp83, (2, 0), (2, 1))
    .set 34 (.ein [(0, [0, 1]), (18, [2, 0])] [2, 1]) 1 1,
    -- 1963: tmp80 = einsum(tmp79, (0, 1), t1, (1, 2), (0, 2))
    .set 35 (.ein [(19, [0, 1]), (0, [1, 2])] [0, 2]) 1 1,
    -- 1964: tmp76 = einsum(tmp69, (0, 1, 2, 3), t2, (2, 1, 4, 5), (0, 5, 4, 3))
    .set 36 (.ein [(20, [0, 1, 2, 3]), (4, [2, 1, 4, 5])] [0, 5, 4, 3]) 1 1,
    -- 1965: tmp73 = einsum(tmp69, (0, 1, 2, 3), t2, (2, 1, 3, 4), (0, 4))
    .set 37 (.ein [(20, [0, 1, 2, 3]), (4, [2, 1, 3, 4])] [0, 4]) 1 1,
    -- 1966: tmp70 = einsum(tmp69, (0, 1, 2, 3), t2, (1, 2, 3, 4), (0, 4))
    .set 38 (.ein [(20, [0, 1, 2, 3]), (4, [1, 2, 3, 4])] [0, 4]) 1 1,
    -- 1967: tmp62 = einsum(tmp17, (0, 1), t2, (2, 0, 3, 1), (2, 3))
    .set 39 (.ein [(10, [0, 1]), (4, [2, 0, 3, 1])] [2, 3]) 1 1,
    -- 1968: tmp59 = einsum(tmp17, (0, 1), t2, (2, 0, 1, 3), (2, 3))
    .set 40 (.ein [(10, [0, 1]), (4, [2, 0, 1, 3])] [2, 3]) 1 1,
    -- 1969: tmp57 = einsum(t2, (0, 1, 2, 3), tmp55, (1, 3), (0, 2))
    .set 41 (.ein [(4, [0, 1, 2, 3]), (11, [1, 3])] [0, 2]) 1 1,
    -- 1970: tmp56 = einsum(t2, (0, 1, 2, 3), tmp55, (1, 2), (0, 3))
    .set 42 (.ein [(4, [0, 1, 2, 3]), (11, [1, 2])] [0, 3]) 1 1,
    -- 1971: tmp53 = einsum(t2, (0, 1, 2, 3), v.ovvv, (1, 4, 5, 3), (0, 2, 4, 5))
    .set 43 (.ein [(4, [0, 1, 2, 3]), (2, [1, 4, 5, 3])] [0, 2, 4, 5]) 1 1,
    -- 1972: tmp51 = einsum(t2, (0, 1, 2, 3), v.ovvv, (1, 4, 5, 2), (0, 3, 4, 5))
    .set 44 (.ein [(4, [0, 1, 2, 3]), (2, [1, 4, 5, 2])] [0, 3, 4, 5]) 1 1,
    -- 1973: tmp48 = einsum(t2, (0, 1, 2, 3), v.ovvv, (1, 3, 4, 5), (0, 2, 4, 5))
    .set 45 (.ein [(4, [0, 1, 2, 3]), (2, [1, 3, 4, 5])] [0, 2, 4, 5]) 1 1,
    -- 1974: tmp46 = einsum(t2, (0, 1, 2, 3), v.ovvv, (1, 2, 4, 5), (0, 3, 4, 5))
    .set 46 (.ein [(4, [0, 1, 2, 3]), (2, [1, 2, 4, 5])] [0, 3, 4, 5]) 1 1,
    -- 1975: tmp43 = einsum(v.ovvv, (0, 1, 2, 3), t2, (4, 0, 1, 3), (4, 2))
    .set 47 (.ein [(2, [0, 1, 2, 3]), (4, [4, 0, 1, 3])] [4, 2]) 1 1,
    -- 1976: tmp40 = einsum(t2, (0, 1, 2, 3), v.ovvv, (1, 3, 4, 2), (0, 4))
    .set 48 (.ein [(4, [0, 1, 2, 3]), (2, [1, 3, 4, 2])] [0, 4]) 1 1,
    -- 1977: tmp37 = einsum(t2, (0, 1, 2, 3), v.ooov, (4, 1, 0, 5), (4, 3, 2, 5))
    .set 49 (.ein [(4, [0, 1, 2, 3]), (3, [4, 1, 0, 5])] [4, 3, 2, 5]) 1 1,
    -- 1978: tmp34 = einsum(v.ooov, (0, 1, 2, 3), t2, (2, 1, 3, 4), (0, 4))
    .set 50 (.ein [(3, [0, 1, 2, 3]), (4, [2, 1, 3, 4])] [0, 4]) 1 1,
    -- 1979: tmp31 = einsum(v.ooov, (0, 1, 2, 3), t2, (2, 1, 4, 3), (0, 4))
    .set 51 (.ein [(3, [0, 1, 2, 3]), (4, [2, 1, 4, 3])] [0, 4]) 1 1,
    -- 1980: tmp29 = einsum(v.ovov, (0, 1, 2, 3), t2, (0, 2, 4, 3), (4, 1))
    .set 52 (.ein [(1, [0, 1, 2, 3]), (4, [0, 2, 4, 3])] [4, 1]) 1 1,
    -- 1981: tmp27 = einsum(t2, (0, 1, 2, 3), v.ovov, (0, 4, 1, 2), (3, 4))
    .set 53 (.ein [(4, [0, 1, 2, 3]), (1, [0, 4, 1, 2])] [3, 4]) 1 1,
    -- 1982: tmp24 = einsum(t1, (0, 1), v.vvvv, (2, 3, 4, 1), (0, 2, 3, 4))
    .set 54 (.ein [(0, [0, 1]), (6, [2, 3, 4, 1])] [0, 2, 3, 4]) 1 1,
    -- 1983: tmp19 = einsum(v.oovv, (0, 1, 2, 3), t1, (1, 3), (0, 2))
    .set 55 (.ein [(7, [0, 1, 2, 3]), (0, [1, 3])] [0, 2]) 1 1,
    -- 1984: tmp11 = einsum(tmp10, (0, 1), t1, (0, 2), (1, 2))
    .set 56 (.ein [(21, [0, 1]), (0, [0, 2])] [1, 2]) 1 1,
    -- 1985: tmp4 = einsum(t2, (0, 1, 2, 3), f.ov, (1, 3), (0, 2))
    .set 57 (.ein [(4, [0, 1, 2, 3]), (5, [1, 3])] [0, 2]) 1 1,
    -- 1986: tmp3 = einsum(f.ov, (0, 1), t2, (2, 0, 1, 3), (2, 3))
    .set 58 (.ein [(5, [0, 1]), (4, [2, 0, 1, 3])] [2, 3]) 1 1,
    -- 1987: tmp2 = einsum(t1, (0, 1), f.vv, (2, 1), (0, 2))
    .set 59 (.ein [(0, [0, 1]), (8, [2, 1])] [0, 2]) 1 1,
    -- 1988: tmp1 = einsum(f.oo, (0, 1), t1, (1, 2), (0, 2))
    .set 60 (.ein [(9, [0, 1]), (0, [1, 2])] [0, 2]) 1 1
  ]
  ret := [(chars! "tmp1", 60), (chars! "tmp10", 21), (chars! "tmp103", 27), (chars! "tmp106", 26), (chars! "tmp107", 25), (chars! "tmp109", 24), (chars! "tmp11", 56), (chars! "tmp111", 23), (chars! "tmp113", 22), (chars! "tmp14", 15), (chars! "tmp16", 14), (chars! "tmp17", 10), (chars! "tmp19", 55), (chars! "tmp2", 59), (chars! "tmp24", 54), (chars! "tmp27", 53), (chars! "tmp29", 52), (chars! "tmp3", 58), (chars! "tmp31", 51), (chars! "tmp34", 50), (chars! "tmp37", 49), (chars! "tmp4", 57), (chars! "tmp40", 48), (chars! "tmp43", 47), (chars! "tmp46", 46), (chars! "tmp48", 45), (chars! "tmp51", 44), (chars! "tmp53", 43), (chars! "tmp55", 11), (chars! "tmp56", 42), (chars! "tmp57", 41), (chars! "tmp59", 40), (chars! "tmp62", 39), (chars! "tmp69", 20), (chars! "tmp70", 38), (chars! "tmp73", 37), (chars! "tmp76", 36), (chars! "tmp79", 19), (chars! "tmp80", 35), (chars! "tmp83", 18), (chars! "tmp84", 34), (chars! "tmp87", 33), (chars! "tmp88", 32), (chars! "tmp90", 31), (chars! "tmp92", 30), (chars! "tmp96", 29), (chars! "tmp98", 28)]

/-- codegen/RCC2.py:1992-2200 `hbar_lmatvec_ea`. -/
def hbar_lmatvec_ea : GenFun where
  args := [chars! "r2", chars! "t1", chars! "t2", chars! "f.ov", chars! "f.oo", chars! "ints.tmp10", chars! "ints.tmp79", chars! "ints.tmp83", chars! "ints.tmp29", chars! "f.vv", chars! "ints.tmp27", chars! "ints.tmp90", chars! "v.oovv", chars! "ints.tmp88", chars! "v.ovov", chars! "ints.tmp87", chars! "ints.tmp92", chars! "ints.tmp107", chars! "ints.tmp24", chars! "ints.tmp46", chars! "ints.tmp53", chars! "ints.tmp76", chars! "ints.tmp37", chars! "ints.tmp48", chars! "ints.tmp51", chars! "ints.tmp109", chars! "ints.tmp106", chars! "ints.tmp113", chars! "ints.tmp11", chars! "ints.tmp19", chars! "ints.tmp1", chars! "ints.tmp34", chars! "ints.tmp3", chars! "ints.tmp43", chars! "ints.tmp57", chars! "ints.tmp59", chars! "ints.tmp70", chars! "ints.tmp80", chars! "ints.tmp98", chars! "ints.tmp103", chars! "ints.tmp111", chars! "ints.tmp17", chars! "ints.tmp2", chars! "ints.tmp31", chars! "ints.tmp40", chars! "ints.tmp4", chars! "ints.tmp56", chars! "ints.tmp62", chars! "ints.tmp73", chars! "ints.tmp84", chars! "ints.tmp96", chars! "ints.tmp14", chars! "ints.tmp16", chars! "r1", chars! "v.ovvv", chars! "ints.tmp55", chars! "v.vvvv", chars! "ints.tmp69", chars! "v.ooov"]
  body := [
    -- 2020: tmp9 = einsum(r2, (0, 1, 2), t1, (3, 1), (2, 3, 0))
    .set 59 (.ein [(0, [0, 1, 2]), (1, [3, 1])] [2, 3, 0]) 1 1,
    -- 2021: tmp23 = np.copy(np.transpose(t2, (0, 1, 3, 2))) * -0.5
    .set 60 (.tr 2 [0, 1, 3, 2]) (-1) 2,
    -- 2022: tmp23 += t2
    .add 60 (.cp 2) 1 1,
    -- 2023: tmp20 = einsum(t1, (0, 1), f.ov, (0, 2), (2, 1))
    .set 61 (.ein [(1, [0, 1]), (3, [0, 2])] [2, 1]) 1 1,
    -- 2024: tmp2 = np.copy(np.transpose(r2, (2, 0, 1)))
    .set 62 (.tr 0 [2, 0, 1]) 1 1,
    -- 2025: tmp2 += np.transpose(r2, (2, 1, 0)) * -0.5
    .add 62 (.tr 0 [2, 1, 0]) (-1) 2,
    -- 2026: tmp10 = einsum(t1, (0, 1), tmp9, (2, 3, 1), (2, 0, 3))
    .set 63 (.ein [(1, [0, 1]), (59, [2, 3, 1])] [2, 0, 3]) 1 1,
    -- 2027: del tmp9
    .del 59,
    -- 2028: tmp14 = np.copy(np.transpose(t2, (0, 1, 3, 2))) * -1
    .set 64 (.tr 2 [0, 1, 3, 2]) (-1) 1,
    -- 2029: tmp14 += t2 * 2
    .add 64 (.cp 2) 2 1,
    -- 2030: tmp22 = np.copy(f.oo)
    .set 65 (.cp 4) 1 1,
    -- 2031: tmp22 += np.transpose(ints.tmp10, (1, 0))
    .add 65 (.tr 5 [1, 0]) 1 1,
    -- 2032: del ints.tmp10
    .del 5,
    -- 2033: tmp22 += ints.tmp79 * 2
    .add 65 (.cp 6) 2 1,
    -- 2034: del ints.tmp79
    .del 6,
    -- 2035: tmp22 += ints.tmp83 * -1
    .add 65 (.cp 7) (-1) 1,
    -- 2036: del ints.tmp83
    .del 7,
    -- 2037: tmp17 = einsum(t2, (0, 1, 2, 3), r2, (2, 3, 4), (4, 0, 1))
    .set 66 (.ein [(2, [0, 1, 2, 3]), (0, [2, 3, 4])] [4, 0, 1]) 1 1,
    -- 2038: tmp24 = einsum(r2, (0, 1, 2), tmp23, (2, 3, 0, 1), (3,))
    .set 67 (.ein [(0, [0, 1, 2]), (60, [2, 3, 0, 1])] [3]) 1 1,
    -- 2039: del tmp23
    .del 60,
    -- 2040: tmp21 = np.copy(ints.tmp29) * 2
    .set 68 (.cp 8) 2 1,
    -- 2041: tmp21 += f.vv * -1
    .add 68 (.cp 9) (-1) 1,
    -- 2042: tmp21 += ints.tmp27 * -1
    .add 68 (.cp 10) (-1) 1,
    -- 2043: tmp21 += np.transpose(tmp20, (1, 0))
    .add 68 (.tr 61 [1, 0]) 1 1,
    -- 2044: del tmp20
    .del 61,
    -- 2045: tmp19 = np.copy(ints.tmp90)
    .set 69 (.cp 11) 1 1,
    -- 2046: tmp19 += v.oovv * -1
    .add 69 (.cp 12) (-1) 1,
    -- 2047: tmp18 = np.copy(ints.tmp88) * 2
    .set 70 (.cp 13) 2 1,
    -- 2048: tmp18 += np.transpose(v.ovov, (0, 2, 1, 3))
    .add 70 (.tr 14 [0, 2, 1, 3]) 1 1,
    -- 2049: tmp18 += ints.tmp87 * -1
    .add 70 (.cp 15) (-1) 1,
    -- 2050: tmp18 += ints.tmp92 * -1
    .add 70 (.cp 16) (-1) 1,
    -- 2051: tmp4 = np.copy(ints.tmp107)
    .set 71 (.cp 17) 1 1,
    -- 2052: del ints.tmp107
    .del 17,
    -- 2053: tmp4 += v.oovv
    .add 71 (.cp 12) 1 1,
    -- 2054: tmp4 += np.transpose(ints.tmp90, (0, 1, 3, 2)) * -1
    .add 71 (.tr 11 [0, 1, 3, 2]) (-1) 1,
    -- 2055: del ints.tmp90
    .del 11,
    -- 2056: tmp8 = np.copy(np.transpose(r2, (2, 0, 1))) * -1
    .set 72 (.tr 0 [2, 0, 1]) (-1) 1,
    -- 2057: tmp8 += np.transpose(r2, (2, 1, 0)) * 2
    .add 72 (.tr 0 [2, 1, 0]) 2 1,
    -- 2058: tmp1 = np.copy(ints.tmp24)
    .set 73 (.cp 18) 1 1,
    -- 2059: tmp1 += np.transpose(ints.tmp46, (0, 2, 1, 3)) * 0.5
    .add 73 (.tr 19 [0, 2, 1, 3]) 1 2,
    -- 2060: tmp1 += np.transpose(ints.tmp53, (0, 2, 1, 3)) * 0.5
    .add 73 (.tr 20 [0, 2, 1, 3]) 1 2,
    -- 2061: tmp1 += np.transpose(ints.tmp76, (0, 3, 1, 2))
    .add 73 (.tr 21 [0, 3, 1, 2]) 1 1,
    -- 2062: tmp1 += np.transpose(ints.tmp37, (0, 3, 1, 2)) * -0.5
    .add 73 (.tr 22 [0, 3, 1, 2]) (-1) 2,
    -- 2063: tmp1 += np.transpose(ints.tmp48, (0, 2, 1, 3)) * -1
    .add 73 (.tr 23 [0, 2, 1, 3]) (-1) 1,
    -- 2064: tmp1 += np.transpose(ints.tmp51, (0, 2, 1, 3)) * -1
    .add 73 (.tr 24 [0, 2, 1, 3]) (-1) 1,
    -- 2065: tmp3 = einsum(tmp2, (0, 1, 2), t1, (3, 1), (0, 3, 2))
    .set 74 (.ein [(62, [0, 1, 2]), (1, [3, 1])] [0, 3, 2]) 1 1,
    -- 2066: tmp5 = einsum(tmp2, (0, 1, 2), t1, (3, 2), (0, 3, 1)) * 2
    .set 75 (.ein [(62, [0, 1, 2]), (1, [3, 2])] [0, 3, 1]) 2 1,
    -- 2067: tmp11 = np.copy(tmp10)
    .set 76 (.cp 63) 1 1,
    -- 2068: tmp11 += np.transpose(tmp10, (0, 2, 1)) * -0.5
    .add 76 (.tr 63 [0, 2, 1]) (-1) 2,
    -- 2069: tmp6 = np.copy(ints.tmp109)
    .set 77 (.cp 25) 1 1,
    -- 2070: del ints.tmp109
    .del 25,
    -- 2071: tmp6 += np.transpose(ints.tmp88, (0, 1, 3, 2)) * 2
    .add 77 (.tr 13 [0, 1, 3, 2]) 2 1,
    -- 2072: del ints.tmp88
    .del 13,
    -- 2073: tmp6 += np.transpose(v.ovov, (0, 2, 3, 1))
    .add 77 (.tr 14 [0, 2, 3, 1]) 1 1,
    -- 2074: tmp6 += np.transpose(ints.tmp87, (0, 1, 3, 2)) * -1
    .add 77 (.tr 15 [0, 1, 3, 2]) (-1) 1,
    -- 2075: del ints.tmp87
    .del 15,
    -- 2076: tmp6 += np.transpose(ints.tmp92, (0, 1, 3, 2)) * -1
    .add 77 (.tr 16 [0, 1, 3, 2]) (-1) 1,
    -- 2077: del ints.tmp92
    .del 16,
    -- 2078: tmp12 = np.copy(tmp10) * -1
    .set 78 (.cp 63) (-1) 1,
    -- 2079: tmp12 += np.transpose(tmp10, (0, 2, 1)) * 2
    .add 78 (.tr 63 [0, 2, 1]) 2 1,
    -- 2080: del tmp10
    .del 63,
    -- 2081: tmp7 = np.copy(ints.tmp106)
    .set 79 (.cp 26) 1 1,
    -- 2082: del ints.tmp106
    .del 26,
    -- 2083: tmp7 += ints.tmp113 * 2
    .add 79 (.cp 27) 2 1,
    -- 2084: del ints.tmp113
    .del 27,
    -- 2085: tmp7 += ints.tmp11
    .add 79 (.cp 28) 1 1,
    -- 2086: del ints.tmp11
    .del 28,
    -- 2087: tmp7 += ints.tmp19
    .add 79 (.cp 29) 1 1,
    -- 2088: del ints.tmp19
    .del 29,
    -- 2089: tmp7 += ints.tmp1
    .add 79 (.cp 30) 1 1,
    -- 2090: del ints.tmp1
    .del 30,
    -- 2091: tmp7 += ints.tmp34 * 2
    .add 79 (.cp 31) 2 1,
    -- 2092: del ints.tmp34
    .del 31,
    -- 2093: tmp7 += ints.tmp3
    .add 79 (.cp 32) 1 1,
    -- 2094: del ints.tmp3
    .del 32,
    -- 2095: tmp7 += ints.tmp43
    .add 79 (.cp 33) 1 1,
    -- 2096: del ints.tmp43
    .del 33,
    -- 2097: tmp7 += ints.tmp57 * 2
    .add 79 (.cp 34) 2 1,
    -- 2098: del ints.tmp57
    .del 34,
    -- 2099: tmp7 += ints.tmp59 * 2
    .add 79 (.cp 35) 2 1,
    -- 2100: del ints.tmp59
    .del 35,
    -- 2101: tmp7 += ints.tmp70 * 2
    .add 79 (.cp 36) 2 1,
    -- 2102: del ints.tmp70
    .del 36,
    -- 2103: tmp7 += ints.tmp80 * 2
    .add 79 (.cp 37) 2 1,
    -- 2104: del ints.tmp80
    .del 37,
    -- 2105: tmp7 += ints.tmp98 * 2
    .add 79 (.cp 38) 2 1,
    -- 2106: del ints.tmp98
    .del 38,
    -- 2107: tmp7 += f.ov * -1
    .add 79 (.cp 3) (-1) 1,
    -- 2108: tmp7 += ints.tmp103 * -2
    .add 79 (.cp 39) (-2) 1,
    -- 2109: del ints.tmp103
    .del 39,
    -- 2110: tmp7 += ints.tmp111 * -1
    .add 79 (.cp 40) (-1) 1,
    -- 2111: del ints.tmp111
    .del 40,
    -- 2112: tmp7 += ints.tmp17 * -2
    .add 79 (.cp 41) (-2) 1,
    -- 2113: tmp7 += ints.tmp2 * -1
    .add 79 (.cp 42) (-1) 1,
    -- 2114: del ints.tmp2
    .del 42,
    -- 2115: tmp7 += ints.tmp31 * -1
    .add 79 (.cp 43) (-1) 1,
    -- 2116: del ints.tmp31
    .del 43,
    -- 2117: tmp7 += ints.tmp40 * -2
    .add 79 (.cp 44) (-2) 1,
    -- 2118: del ints.tmp40
    .del 44,
    -- 2119: tmp7 += ints.tmp4 * -2
    .add 79 (.cp 45) (-2) 1,
    -- 2120: del ints.tmp4
    .del 45,
    -- 2121: tmp7 += ints.tmp56 * -1
    .add 79 (.cp 46) (-1) 1,
    -- 2122: del ints.tmp56
    .del 46,
    -- 2123: tmp7 += ints.tmp62 * -4
    .add 79 (.cp 47) (-4) 1,
    -- 2124: del ints.tmp62
    .del 47,
    -- 2125: tmp7 += ints.tmp73 * -1
    .add 79 (.cp 48) (-1) 1,
    -- 2126: del ints.tmp73
    .del 48,
    -- 2127: tmp7 += ints.tmp84 * -1
    .add 79 (.cp 49) (-1) 1,
    -- 2128: del ints.tmp84
    .del 49,
    -- 2129: tmp7 += ints.tmp96 * -1
    .add 79 (.cp 50) (-1) 1,
    -- 2130: del ints.tmp96
    .del 50,
    -- 2131: tmp13 = np.copy(f.vv)
    .set 80 (.cp 9) 1 1,
    -- 2132: tmp13 += np.transpose(ints.tmp14, (1, 0)) * 2
    .add 80 (.tr 51 [1, 0]) 2 1,
    -- 2133: del ints.tmp14
    .del 51,
    -- 2134: tmp13 += ints.tmp27
    .add 80 (.cp 10) 1 1,
    -- 2135: del ints.tmp27
    .del 10,
    -- 2136: tmp13 += np.transpose(ints.tmp16, (1, 0)) * -1
    .add 80 (.tr 52 [1, 0]) (-1) 1,
    -- 2137: del ints.tmp16
    .del 52,
    -- 2138: tmp13 += ints.tmp29 * -2
    .add 80 (.cp 8) (-2) 1,
    -- 2139: del ints.tmp29
    .del 8,
    -- 2140: tmp15 = einsum(t1, (0, 1), r1, (1,), (0,)) * 0.5
    .set 81 (.ein [(1, [0, 1]), (53, [1])] [0]) 1 2,
    -- 2141: tmp15 += einsum(r2, (0, 1, 2), tmp14, (2, 3, 0, 1), (3,)) * -0.5
    .add 81 (.ein [(0, [0, 1, 2]), (64, [2, 3, 0, 1])] [3]) (-1) 2,
    -- 2142: del tmp14
    .del 64,
    -- 2143: tmp0 = np.copy(ints.tmp24)
    .set 82 (.cp 18) 1 1,
    -- 2144: del ints.tmp24
    .del 18,
    -- 2145: tmp0 += np.transpose(ints.tmp46, (0, 2, 1, 3)) * 2
    .add 82 (.tr 19 [0, 2, 1, 3]) 2 1,
    -- 2146: del ints.tmp46
    .del 19,
    -- 2147: tmp0 += np.transpose(ints.tmp53, (0, 2, 1, 3)) * 2
    .add 82 (.tr 20 [0, 2, 1, 3]) 2 1,
    -- 2148: del ints.tmp53
    .del 20,
    -- 2149: tmp0 += np.transpose(ints.tmp76, (0, 3, 1, 2))
    .add 82 (.tr 21 [0, 3, 1, 2]) 1 1,
    -- 2150: del ints.tmp76
    .del 21,
    -- 2151: tmp0 += np.transpose(ints.tmp37, (0, 3, 1, 2)) * -2
    .add 82 (.tr 22 [0, 3, 1, 2]) (-2) 1,
    -- 2152: del ints.tmp37
    .del 22,
    -- 2153: tmp0 += np.transpose(ints.tmp48, (0, 2, 1, 3)) * -4
    .add 82 (.tr 23 [0, 2, 1, 3]) (-4) 1,
    -- 2154: del ints.tmp48
    .del 23,
    -- 2155: tmp0 += np.transpose(ints.tmp51, (0, 2, 1, 3)) * -1
    .add 82 (.tr 24 [0, 2, 1, 3]) (-1) 1,
    -- 2156: del ints.tmp51
    .del 24,
    -- 2157: tmp0 += np.transpose(v.ovvv, (0, 2, 1, 3)) * -2
    .add 82 (.tr 54 [0, 2, 1, 3]) (-2) 1,
    -- 2158: tmp0 += np.transpose(v.ovvv, (0, 2, 3, 1))
    .add 82 (.tr 54 [0, 2, 3, 1]) 1 1,
    -- 2159: tmp16 = np.copy(f.ov)
    .set 83 (.cp 3) 1 1,
    -- 2160: tmp16 += ints.tmp17 * 2
    .add 83 (.cp 41) 2 1,
    -- 2161: del ints.tmp17
    .del 41,
    -- 2162: tmp16 += ints.tmp55 * -1
    .add 83 (.cp 55) (-1) 1,
    -- 2163: del ints.tmp55
    .del 55,
    -- 2164: r2new = einsum(tmp17, (0, 1, 2), v.ovov, (2, 3, 1, 4), (4, 3, 0))
    .set 84 (.ein [(66, [0, 1, 2]), (14, [2, 3, 1, 4])] [4, 3, 0]) 1 1,
    -- 2165: del tmp17
    .del 66,
    -- 2166: r2new += einsum(r1, (0,), v.ovvv, (1, 2, 3, 0), (2, 3, 1)) * -1
    .add 84 (.ein [(53, [0]), (54, [1, 2, 3, 0])] [2, 3, 1]) (-1) 1,
    -- 2167: r2new += einsum(r2, (0, 1, 2), v.vvvv, (3, 0, 4, 1), (3, 4, 2))
    .add 84 (.ein [(0, [0, 1, 2]), (56, [3, 0, 4, 1])] [3, 4, 2]) 1 1,
    -- 2168: r2new += einsum(r1, (0,), f.ov, (1, 2), (2, 0, 1)) * -1
    .add 84 (.ein [(53, [0]), (3, [1, 2])] [2, 0, 1]) (-1) 1,
    -- 2169: r2new += einsum(tmp18, (0, 1, 2, 3), tmp2, (0, 2, 4), (3, 4, 1)) * 2
    .add 84 (.ein [(70, [0, 1, 2, 3]), (62, [0, 2, 4])] [3, 4, 1]) 2 1,
    -- 2170: del tmp2, tmp18
    .del 62,
    .del 70,
    -- 2171: r2new += einsum(tmp19, (0, 1, 2, 3), r2, (4, 2, 0), (4, 3, 1))
    .add 84 (.ein [(69, [0, 1, 2, 3]), (0, [4, 2, 0])] [4, 3, 1]) 1 1,
    -- 2172: r2new += einsum(tmp19, (0, 1, 2, 3), r2, (2, 4, 0), (3, 4, 1))
    .add 84 (.ein [(69, [0, 1, 2, 3]), (0, [2, 4, 0])] [3, 4, 1]) 1 1,
    -- 2173: del tmp19
    .del 69,
    -- 2174: r2new += einsum(tmp21, (0, 1), r2, (0, 2, 3), (1, 2, 3)) * -1
    .add 84 (.ein [(68, [0, 1]), (0, [0, 2, 3])] [1, 2, 3]) (-1) 1,
    -- 2175: r2new += einsum(r2, (0, 1, 2), tmp21, (1, 3), (0, 3, 2)) * -1
    .add 84 (.ein [(0, [0, 1, 2]), (68, [1, 3])] [0, 3, 2]) (-1) 1,
    -- 2176: del tmp21
    .del 68,
    -- 2177: r2new += einsum(r2, (0, 1, 2), tmp22, (2, 3), (0, 1, 3)) * -1
    .add 84 (.ein [(0, [0, 1, 2]), (65, [2, 3])] [0, 1, 3]) (-1) 1,
    -- 2178: del tmp22
    .del 65,
    -- 2179: r2new += einsum(tmp24, (0,), v.ovov, (1, 2, 0, 3), (2, 3, 1)) * -2
    .add 84 (.ein [(67, [0]), (14, [1, 2, 0, 3])] [2, 3, 1]) (-2) 1,
    -- 2180: del tmp24
    .del 67,
    -- 2181: r1new = einsum(tmp0, (0, 1, 2, 3), r2, (2, 3, 0), (1,))
    .set 85 (.ein [(82, [0, 1, 2, 3]), (0, [2, 3, 0])] [1]) 1 1,
    -- 2182: del tmp0
    .del 82,
    -- 2183: r1new += einsum(r2, (0, 1, 2), tmp1, (2, 3, 1, 0), (3,)) * -2
    .add 85 (.ein [(0, [0, 1, 2]), (73, [2, 3, 1, 0])] [3]) (-2) 1,
    -- 2184: del tmp1
    .del 73,
    -- 2185: r1new += einsum(tmp4, (0, 1, 2, 3), tmp3, (0, 1, 3), (2,)) * 2
    .add 85 (.ein [(71, [0, 1, 2, 3]), (74, [0, 1, 3])] [2]) 2 1,
    -- 2186: del tmp4, tmp3
    .del 71,
    .del 74,
    -- 2187: r1new += einsum(tmp5, (0, 1, 2), tmp6, (0, 1, 3, 2), (3,))
    .add 85 (.ein [(75, [0, 1, 2]), (77, [0, 1, 3, 2])] [3]) 1 1,
    -- 2188: del tmp5, tmp6
    .del 75,
    .del 77,
    -- 2189: r1new += einsum(tmp8, (0, 1, 2), tmp7, (0, 2), (1,))
    .add 85 (.ein [(72, [0, 1, 2]), (79, [0, 2])] [1]) 1 1,
    -- 2190: del tmp8, tmp7
    .del 72,
    .del 79,
    -- 2191: r1new += einsum(ints.tmp69, (0, 1, 2, 3), tmp11, (0, 2, 1), (3,)) * -2
    .add 85 (.ein [(57, [0, 1, 2, 3]), (76, [0, 2, 1])] [3]) (-2) 1,
    -- 2192: del ints.tmp69, tmp11
    .del 57,
    .del 76,
    -- 2193: r1new += einsum(v.ooov, (0, 1, 2, 3), tmp12, (0, 2, 1), (3,)) * -1
    .add 85 (.ein [(58, [0, 1, 2, 3]), (78, [0, 2, 1])] [3]) (-1) 1,
    -- 2194: del tmp12
    .del 78,
    -- 2195: r1new += einsum(r1, (0,), tmp13, (0, 1), (1,))
    .add 85 (.ein [(53, [0]), (80, [0, 1])] [1]) 1 1,
    -- 2196: del tmp13
    .del 80,
    -- 2197: r1new += einsum(tmp15, (0,), tmp16, (0, 1), (1,)) * -2
    .add 85 (.ein [(81, [0]), (83, [0, 1])] [1]) (-2) 1,
    -- 2198: del tmp15, tmp16
    .del 81,
    .del 83
  ]
  ret := [(chars! "r1new", 85), (chars! "r2new", 84)]

end Ebcc.Gen.RCC2Eom
