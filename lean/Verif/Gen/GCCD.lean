import Verif.Model.GenCode
/-!
Functions of `ebcc/codegen/GCCD.py`, written by `tools/gencode.py`.  Comments give the
number and the text of the line of each statement.
-/

set_option maxRecDepth 100000

namespace Ebcc.Gen.GCCD

/-- codegen/GCCD.py:19-38 `energy`. -/
def energy : GenFun where
  args := [chars! "v.oovv", chars! "t2"]
  body := [
    -- 36: e_cc = einsum(v.oovv, (0, 1, 2, 3), t2, (0, 1, 2, 3), ()) * 0.25
    .set 2 (.ein [(0, [0, 1, 2, 3]), (1, [0, 1, 2, 3])] []) 1 4
  ]
  ret := [(chars! "e_cc", 2)]

/-- codegen/GCCD.py:40-98 `update_amps`. -/
def update_amps : GenFun where
  args := [chars! "t2", chars! "v.oovv", chars! "v.ovov", chars! "f.oo", chars! "v.oooo", chars! "f.vv", chars! "v.vvvv"]
  body := [
    -- 59: tmp3 = einsum(t2, (0, 1, 2, 3), v.oovv, (0, 1, 4, 3), (2, 4))
    .set 7 (.ein [(0, [0, 1, 2, 3]), (1, [0, 1, 4, 3])] [2, 4]) 1 1,
    -- 60: tmp1 = einsum(t2, (0, 1, 2, 3), v.oovv, (4, 1, 5, 3), (0, 4, 2, 5))
    .set 8 (.ein [(0, [0, 1, 2, 3]), (1, [4, 1, 5, 3])] [0, 4, 2, 5]) 1 1,
    -- 61: tmp5 = einsum(v.oovv, (0, 1, 2, 3), t2, (4, 1, 2, 3), (4, 0))
    .set 9 (.ein [(1, [0, 1, 2, 3]), (0, [4, 1, 2, 3])] [4, 0]) 1 1,
    -- 62: tmp4 = einsum(t2, (0, 1, 2, 3), tmp3, (4, 3), (0, 1, 2, 4))
    .set 10 (.ein [(0, [0, 1, 2, 3]), (7, [4, 3])] [0, 1, 2, 4]) 1 1,
    -- 63: del tmp3
    .del 7,
    -- 64: tmp8 = einsum(v.ovov, (0, 1, 2, 3), t2, (4, 2, 5, 1), (4, 0, 5, 3))
    .set 11 (.ein [(2, [0, 1, 2, 3]), (0, [4, 2, 5, 1])] [4, 0, 5, 3]) 1 1,
    -- 65: tmp2 = einsum(tmp1, (0, 1, 2, 3), t2, (4, 1, 5, 3), (0, 4, 2, 5))
    .set 12 (.ein [(8, [0, 1, 2, 3]), (0, [4, 1, 5, 3])] [0, 4, 2, 5]) 1 1,
    -- 66: del tmp1
    .del 8,
    -- 67: tmp6 = einsum(tmp5, (0, 1), t2, (2, 1, 3, 4), (2, 0, 3, 4))
    .set 13 (.ein [(9, [0, 1]), (0, [2, 1, 3, 4])] [2, 0, 3, 4]) 1 1,
    -- 68: del tmp5
    .del 9,
    -- 69: tmp0 = einsum(t2, (0, 1, 2, 3), f.oo, (4, 1), (4, 0, 2, 3))
    .set 14 (.ein [(0, [0, 1, 2, 3]), (3, [4, 1])] [4, 0, 2, 3]) 1 1,
    -- 70: tmp9 = np.copy(v.oooo)
    .set 15 (.cp 4) 1 1,
    -- 71: tmp9 += einsum(v.oovv, (0, 1, 2, 3), t2, (4, 5, 2, 3), (0, 1, 4, 5)) * 0.5
    .add 15 (.ein [(1, [0, 1, 2, 3]), (0, [4, 5, 2, 3])] [0, 1, 4, 5]) 1 2,
    -- 72: tmp7 = einsum(f.vv, (0, 1), t2, (2, 3, 4, 1), (2, 3, 0, 4))
    .set 16 (.ein [(5, [0, 1]), (0, [2, 3, 4, 1])] [2, 3, 0, 4]) 1 1,
    -- 73: t2new = einsum(t2, (0, 1, 2, 3), v.vvvv, (4, 5, 2, 3), (0, 1, 4, 5)) * 0.5
    .set 17 (.ein [(0, [0, 1, 2, 3]), (6, [4, 5, 2, 3])] [0, 1, 4, 5]) 1 2,
    -- 74: t2new += v.oovv
    .add 17 (.cp 1) 1 1,
    -- 75: t2new += np.transpose(tmp0, (0, 1, 3, 2)) * -1
    .add 17 (.tr 14 [0, 1, 3, 2]) (-1) 1,
    -- 76: t2new += np.transpose(tmp0, (1, 0, 3, 2))
    .add 17 (.tr 14 [1, 0, 3, 2]) 1 1,
    -- 77: del tmp0
    .del 14,
    -- 78: t2new += tmp2
    .add 17 (.cp 12) 1 1,
    -- 79: t2new += np.transpose(tmp2, (0, 1, 3, 2)) * -1
    .add 17 (.tr 12 [0, 1, 3, 2]) (-1) 1,
    -- 80: del tmp2
    .del 12,
    -- 81: t2new += tmp4 * -0.5
    .add 17 (.cp 10) (-1) 2,
    -- 82: t2new += np.transpose(tmp4, (0, 1, 3, 2)) * 0.5
    .add 17 (.tr 10 [0, 1, 3, 2]) 1 2,
    -- 83: del tmp4
    .del 10,
    -- 84: t2new += np.transpose(tmp6, (0, 1, 3, 2)) * 0.5
    .add 17 (.tr 13 [0, 1, 3, 2]) 1 2,
    -- 85: t2new += np.transpose(tmp6, (1, 0, 3, 2)) * -0.5
    .add 17 (.tr 13 [1, 0, 3, 2]) (-1) 2,
    -- 86: del tmp6
    .del 13,
    -- 87: t2new += np.transpose(tmp7, (1, 0, 2, 3))
    .add 17 (.tr 16 [1, 0, 2, 3]) 1 1,
    -- 88: t2new += np.transpose(tmp7, (1, 0, 3, 2)) * -1
    .add 17 (.tr 16 [1, 0, 3, 2]) (-1) 1,
    -- 89: del tmp7
    .del 16,
    -- 90: t2new += tmp8 * -1
    .add 17 (.cp 11) (-1) 1,
    -- 91: t2new += np.transpose(tmp8, (0, 1, 3, 2))
    .add 17 (.tr 11 [0, 1, 3, 2]) 1 1,
    -- 92: t2new += np.transpose(tmp8, (1, 0, 2, 3))
    .add 17 (.tr 11 [1, 0, 2, 3]) 1 1,
    -- 93: t2new += np.transpose(tmp8, (1, 0, 3, 2)) * -1
    .add 17 (.tr 11 [1, 0, 3, 2]) (-1) 1,
    -- 94: del tmp8
    .del 11,
    -- 95: t2new += einsum(t2, (0, 1, 2, 3), tmp9, (0, 1, 4, 5), (4, 5, 2, 3)) * 0.5
    .add 17 (.ein [(0, [0, 1, 2, 3]), (15, [0, 1, 4, 5])] [4, 5, 2, 3]) 1 2,
    -- 96: del tmp9
    .del 15
  ]
  ret := [(chars! "t2new", 17)]

/-- codegen/GCCD.py:100-176 `update_lams`. -/
def update_lams : GenFun where
  args := [chars! "l2", chars! "t2", chars! "v.oovv", chars! "v.ovov", chars! "f.oo", chars! "f.vv", chars! "v.oooo", chars! "v.vvvv"]
  body := [
    -- 121: tmp12 = einsum(l2, (0, 1, 2, 3), t2, (2, 3, 4, 1), (0, 4))
    .set 8 (.ein [(0, [0, 1, 2, 3]), (1, [2, 3, 4, 1])] [0, 4]) 1 1,
    -- 122: tmp10 = einsum(t2, (0, 1, 2, 3), v.oovv, (0, 1, 4, 3), (2, 4))
    .set 9 (.ein [(1, [0, 1, 2, 3]), (2, [0, 1, 4, 3])] [2, 4]) 1 1,
    -- 123: tmp2 = einsum(t2, (0, 1, 2, 3), v.oovv, (4, 1, 5, 3), (0, 4, 2, 5))
    .set 10 (.ein [(1, [0, 1, 2, 3]), (2, [4, 1, 5, 3])] [0, 4, 2, 5]) 1 1,
    -- 124: tmp5 = einsum(v.oovv, (0, 1, 2, 3), t2, (4, 1, 2, 3), (4, 0))
    .set 11 (.ein [(2, [0, 1, 2, 3]), (1, [4, 1, 2, 3])] [4, 0]) 1 1,
    -- 125: tmp7 = einsum(t2, (0, 1, 2, 3), l2, (2, 3, 4, 1), (4, 0))
    .set 12 (.ein [(1, [0, 1, 2, 3]), (0, [2, 3, 4, 1])] [4, 0]) 1 1,
    -- 126: tmp13 = einsum(v.oovv, (0, 1, 2, 3), tmp12, (4, 3), (0, 1, 4, 2)) * -1
    .set 13 (.ein [(2, [0, 1, 2, 3]), (8, [4, 3])] [0, 1, 4, 2]) (-1) 1,
    -- 127: del tmp12
    .del 8,
    -- 128: tmp11 = einsum(tmp10, (0, 1), l2, (2, 0, 3, 4), (3, 4, 2, 1))
    .set 14 (.ein [(9, [0, 1]), (0, [2, 0, 3, 4])] [3, 4, 2, 1]) 1 1,
    -- 129: del tmp10
    .del 9,
    -- 130: tmp3 = np.copy(np.transpose(v.ovov, (0, 2, 3, 1))) * -1
    .set 15 (.tr 3 [0, 2, 3, 1]) (-1) 1,
    -- 131: tmp3 += tmp2
    .add 15 (.cp 10) 1 1,
    -- 132: del tmp2
    .del 10,
    -- 133: tmp6 = einsum(l2, (0, 1, 2, 3), tmp5, (3, 4), (2, 4, 0, 1))
    .set 16 (.ein [(0, [0, 1, 2, 3]), (11, [3, 4])] [2, 4, 0, 1]) 1 1,
    -- 134: del tmp5
    .del 11,
    -- 135: tmp8 = einsum(tmp7, (0, 1), v.oovv, (2, 1, 3, 4), (0, 2, 3, 4)) * -1
    .set 17 (.ein [(12, [0, 1]), (2, [2, 1, 3, 4])] [0, 2, 3, 4]) (-1) 1,
    -- 136: del tmp7
    .del 12,
    -- 137: tmp14 = np.copy(tmp11) * 0.5
    .set 18 (.cp 14) 1 2,
    -- 138: del tmp11
    .del 14,
    -- 139: tmp14 += tmp13 * 0.5
    .add 18 (.cp 13) 1 2,
    -- 140: del tmp13
    .del 13,
    -- 141: tmp4 = einsum(l2, (0, 1, 2, 3), tmp3, (3, 4, 1, 5), (2, 4, 0, 5))
    .set 19 (.ein [(0, [0, 1, 2, 3]), (15, [3, 4, 1, 5])] [2, 4, 0, 5]) 1 1,
    -- 142: del tmp3
    .del 15,
    -- 143: tmp1 = einsum(l2, (0, 1, 2, 3), f.oo, (4, 3), (4, 2, 0, 1))
    .set 20 (.ein [(0, [0, 1, 2, 3]), (4, [4, 3])] [4, 2, 0, 1]) 1 1,
    -- 144: tmp15 = einsum(l2, (0, 1, 2, 3), f.vv, (4, 1), (2, 3, 4, 0))
    .set 21 (.ein [(0, [0, 1, 2, 3]), (5, [4, 1])] [2, 3, 4, 0]) 1 1,
    -- 145: tmp16 = np.copy(v.oooo) * 2
    .set 22 (.cp 6) 2 1,
    -- 146: tmp16 += einsum(v.oovv, (0, 1, 2, 3), t2, (4, 5, 2, 3), (4, 5, 0, 1))
    .add 22 (.ein [(2, [0, 1, 2, 3]), (1, [4, 5, 2, 3])] [4, 5, 0, 1]) 1 1,
    -- 147: tmp0 = einsum(t2, (0, 1, 2, 3), l2, (2, 3, 4, 5), (4, 5, 0, 1))
    .set 23 (.ein [(1, [0, 1, 2, 3]), (0, [2, 3, 4, 5])] [4, 5, 0, 1]) 1 1,
    -- 148: tmp9 = np.copy(np.transpose(tmp6, (0, 1, 3, 2))) * -0.5
    .set 24 (.tr 16 [0, 1, 3, 2]) (-1) 2,
    -- 149: del tmp6
    .del 16,
    -- 150: tmp9 += np.transpose(tmp8, (0, 1, 3, 2)) * -0.5
    .add 24 (.tr 17 [0, 1, 3, 2]) (-1) 2,
    -- 151: del tmp8
    .del 17,
    -- 152: l2new = einsum(v.vvvv, (0, 1, 2, 3), l2, (2, 3, 4, 5), (0, 1, 4, 5)) * 0.5
    .set 25 (.ein [(7, [0, 1, 2, 3]), (0, [2, 3, 4, 5])] [0, 1, 4, 5]) 1 2,
    -- 153: l2new += np.transpose(v.oovv, (2, 3, 0, 1))
    .add 25 (.tr 2 [2, 3, 0, 1]) 1 1,
    -- 154: l2new += einsum(v.oovv, (0, 1, 2, 3), tmp0, (4, 5, 1, 0), (2, 3, 4, 5)) * -0.25
    .add 25 (.ein [(2, [0, 1, 2, 3]), (23, [4, 5, 1, 0])] [2, 3, 4, 5]) (-1) 4,
    -- 155: del tmp0
    .del 23,
    -- 156: l2new += np.transpose(tmp1, (3, 2, 0, 1)) * -1
    .add 25 (.tr 20 [3, 2, 0, 1]) (-1) 1,
    -- 157: l2new += np.transpose(tmp1, (3, 2, 1, 0))
    .add 25 (.tr 20 [3, 2, 1, 0]) 1 1,
    -- 158: del tmp1
    .del 20,
    -- 159: l2new += np.transpose(tmp4, (2, 3, 0, 1))
    .add 25 (.tr 19 [2, 3, 0, 1]) 1 1,
    -- 160: l2new += np.transpose(tmp4, (3, 2, 0, 1)) * -1
    .add 25 (.tr 19 [3, 2, 0, 1]) (-1) 1,
    -- 161: l2new += np.transpose(tmp4, (2, 3, 1, 0)) * -1
    .add 25 (.tr 19 [2, 3, 1, 0]) (-1) 1,
    -- 162: l2new += np.transpose(tmp4, (3, 2, 1, 0))
    .add 25 (.tr 19 [3, 2, 1, 0]) 1 1,
    -- 163: del tmp4
    .del 19,
    -- 164: l2new += np.transpose(tmp9, (3, 2, 0, 1))
    .add 25 (.tr 24 [3, 2, 0, 1]) 1 1,
    -- 165: l2new += np.transpose(tmp9, (3, 2, 1, 0)) * -1
    .add 25 (.tr 24 [3, 2, 1, 0]) (-1) 1,
    -- 166: del tmp9
    .del 24,
    -- 167: l2new += np.transpose(tmp14, (2, 3, 1, 0))
    .add 25 (.tr 18 [2, 3, 1, 0]) 1 1,
    -- 168: l2new += np.transpose(tmp14, (3, 2, 1, 0)) * -1
    .add 25 (.tr 18 [3, 2, 1, 0]) (-1) 1,
    -- 169: del tmp14
    .del 18,
    -- 170: l2new += np.transpose(tmp15, (2, 3, 1, 0))
    .add 25 (.tr 21 [2, 3, 1, 0]) 1 1,
    -- 171: l2new += np.transpose(tmp15, (3, 2, 1, 0)) * -1
    .add 25 (.tr 21 [3, 2, 1, 0]) (-1) 1,
    -- 172: del tmp15
    .del 21,
    -- 173: l2new += einsum(tmp16, (0, 1, 2, 3), l2, (4, 5, 0, 1), (4, 5, 2, 3)) * 0.25
    .add 25 (.ein [(22, [0, 1, 2, 3]), (0, [4, 5, 0, 1])] [4, 5, 2, 3]) 1 4,
    -- 174: del tmp16
    .del 22
  ]
  ret := [(chars! "l2new", 25)]

/-- codegen/GCCD.py:178-208 `make_rdm1_f`. -/
def make_rdm1_f : GenFun where
  args := [chars! "l2", chars! "t2"]
  body := [
    -- 196: delta = Namespace(
    .eye 2 0,
    .eye 3 1,
    -- 200: rdm1.vv = einsum(l2, (0, 1, 2, 3), t2, (2, 3, 4, 1), (0, 4)) * 0.5
    .set 4 (.ein [(0, [0, 1, 2, 3]), (1, [2, 3, 4, 1])] [0, 4]) 1 2,
    -- 201: rdm1.oo = einsum(l2, (0, 1, 2, 3), t2, (4, 3, 0, 1), (4, 2)) * -0.5
    .set 5 (.ein [(0, [0, 1, 2, 3]), (1, [4, 3, 0, 1])] [4, 2]) (-1) 2,
    -- 202: rdm1.oo += delta.oo
    .add 5 (.cp 2) 1 1,
    -- 203: del delta
    .del 2,
    .del 3,
    -- 204: rdm1.ov = np.zeros((t2.shape[0], t2.shape[-1]))
    .zeros 6 [0, 1],
    -- 205: rdm1.vo = np.zeros((t2.shape[-1], t2.shape[0]))
    .zeros 7 [1, 0]
  ]
  ret := [(chars! "rdm1.oo", 5), (chars! "rdm1.ov", 6), (chars! "rdm1.vo", 7), (chars! "rdm1.vv", 4)]

/-- codegen/GCCD.py:210-283 `make_rdm2_f`. -/
def make_rdm2_f : GenFun where
  args := [chars! "t2", chars! "l2"]
  body := [
    -- 228: delta = Namespace(
    .eye 2 0,
    .eye 3 1,
    -- 232: tmp2 = einsum(t2, (0, 1, 2, 3), l2, (4, 3, 5, 1), (5, 0, 4, 2))
    .set 4 (.ein [(0, [0, 1, 2, 3]), (1, [4, 3, 5, 1])] [5, 0, 4, 2]) 1 1,
    -- 233: tmp4 = einsum(l2, (0, 1, 2, 3), t2, (2, 3, 4, 1), (0, 4))
    .set 5 (.ein [(1, [0, 1, 2, 3]), (0, [2, 3, 4, 1])] [0, 4]) 1 1,
    -- 234: tmp1 = einsum(l2, (0, 1, 2, 3), t2, (4, 3, 0, 1), (2, 4))
    .set 6 (.ein [(1, [0, 1, 2, 3]), (0, [4, 3, 0, 1])] [2, 4]) 1 1,
    -- 235: tmp3 = einsum(t2, (0, 1, 2, 3), tmp2, (1, 4, 3, 5), (0, 4, 2, 5))
    .set 7 (.ein [(0, [0, 1, 2, 3]), (4, [1, 4, 3, 5])] [0, 4, 2, 5]) 1 1,
    -- 236: tmp5 = einsum(tmp4, (0, 1), t2, (2, 3, 4, 0), (2, 3, 4, 1))
    .set 8 (.ein [(5, [0, 1]), (0, [2, 3, 4, 0])] [2, 3, 4, 1]) 1 1,
    -- 237: tmp6 = einsum(tmp1, (0, 1), t2, (2, 0, 3, 4), (2, 1, 3, 4))
    .set 9 (.ein [(6, [0, 1]), (0, [2, 0, 3, 4])] [2, 1, 3, 4]) 1 1,
    -- 238: tmp0 = einsum(t2, (0, 1, 2, 3), l2, (2, 3, 4, 5), (4, 5, 0, 1))
    .set 10 (.ein [(0, [0, 1, 2, 3]), (1, [2, 3, 4, 5])] [4, 5, 0, 1]) 1 1,
    -- 239: rdm2.vvvv = einsum(t2, (0, 1, 2, 3), l2, (4, 5, 0, 1), (4, 5, 2, 3)) * 0.5
    .set 11 (.ein [(0, [0, 1, 2, 3]), (1, [4, 5, 0, 1])] [4, 5, 2, 3]) 1 2,
    -- 240: rdm2.vvoo = np.copy(l2)
    .set 12 (.cp 1) 1 1,
    -- 241: rdm2.vovo = einsum(tmp4, (0, 1), delta.oo, (2, 3), (0, 2, 1, 3)) * 0.5
    .set 13 (.ein [(5, [0, 1]), (2, [2, 3])] [0, 2, 1, 3]) 1 2,
    -- 242: rdm2.vovo += np.transpose(tmp2, (2, 1, 3, 0)) * -1
    .add 13 (.tr 4 [2, 1, 3, 0]) (-1) 1,
    -- 243: rdm2.voov = einsum(tmp4, (0, 1), delta.oo, (2, 3), (0, 2, 3, 1)) * -0.5
    .set 14 (.ein [(5, [0, 1]), (2, [2, 3])] [0, 2, 3, 1]) (-1) 2,
    -- 244: rdm2.voov += np.transpose(tmp2, (2, 1, 0, 3))
    .add 14 (.tr 4 [2, 1, 0, 3]) 1 1,
    -- 245: rdm2.ovvo = einsum(tmp4, (0, 1), delta.oo, (2, 3), (2, 0, 1, 3)) * -0.5
    .set 15 (.ein [(5, [0, 1]), (2, [2, 3])] [2, 0, 1, 3]) (-1) 2,
    -- 246: rdm2.ovvo += np.transpose(tmp2, (1, 2, 3, 0))
    .add 15 (.tr 4 [1, 2, 3, 0]) 1 1,
    -- 247: rdm2.ovov = einsum(tmp4, (0, 1), delta.oo, (2, 3), (2, 0, 3, 1)) * 0.5
    .set 16 (.ein [(5, [0, 1]), (2, [2, 3])] [2, 0, 3, 1]) 1 2,
    -- 248: del tmp4
    .del 5,
    -- 249: rdm2.ovov += np.transpose(tmp2, (1, 2, 0, 3)) * -1
    .add 16 (.tr 4 [1, 2, 0, 3]) (-1) 1,
    -- 250: del tmp2
    .del 4,
    -- 251: rdm2.oovv = einsum(tmp0, (0, 1, 2, 3), t2, (1, 0, 4, 5), (3, 2, 4, 5)) * 0.25
    .set 17 (.ein [(10, [0, 1, 2, 3]), (0, [1, 0, 4, 5])] [3, 2, 4, 5]) 1 4,
    -- 252: rdm2.oovv += t2
    .add 17 (.cp 0) 1 1,
    -- 253: rdm2.oovv += tmp3
    .add 17 (.cp 7) 1 1,
    -- 254: rdm2.oovv += np.transpose(tmp3, (0, 1, 3, 2)) * -1
    .add 17 (.tr 7 [0, 1, 3, 2]) (-1) 1,
    -- 255: del tmp3
    .del 7,
    -- 256: rdm2.oovv += tmp5 * -0.5
    .add 17 (.cp 8) (-1) 2,
    -- 257: rdm2.oovv += np.transpose(tmp5, (0, 1, 3, 2)) * 0.5
    .add 17 (.tr 8 [0, 1, 3, 2]) 1 2,
    -- 258: del tmp5
    .del 8,
    -- 259: rdm2.oovv += np.transpose(tmp6, (0, 1, 3, 2)) * 0.5
    .add 17 (.tr 9 [0, 1, 3, 2]) 1 2,
    -- 260: rdm2.oovv += np.transpose(tmp6, (1, 0, 3, 2)) * -0.5
    .add 17 (.tr 9 [1, 0, 3, 2]) (-1) 2,
    -- 261: del tmp6
    .del 9,
    -- 262: rdm2.oooo = np.copy(np.transpose(tmp0, (3, 2, 1, 0))) * 0.5
    .set 18 (.tr 10 [3, 2, 1, 0]) 1 2,
    -- 263: del tmp0
    .del 10,
    -- 264: rdm2.oooo += einsum(tmp1, (0, 1), delta.oo, (2, 3), (1, 2, 0, 3)) * -0.5
    .add 18 (.ein [(6, [0, 1]), (2, [2, 3])] [1, 2, 0, 3]) (-1) 2,
    -- 265: rdm2.oooo += einsum(tmp1, (0, 1), delta.oo, (2, 3), (2, 1, 0, 3)) * 0.5
    .add 18 (.ein [(6, [0, 1]), (2, [2, 3])] [2, 1, 0, 3]) 1 2,
    -- 266: rdm2.oooo += einsum(delta.oo, (0, 1), tmp1, (2, 3), (3, 0, 1, 2)) * 0.5
    .add 18 (.ein [(2, [0, 1]), (6, [2, 3])] [3, 0, 1, 2]) 1 2,
    -- 267: rdm2.oooo += einsum(delta.oo, (0, 1), tmp1, (2, 3), (0, 3, 1, 2)) * -0.5
    .add 18 (.ein [(2, [0, 1]), (6, [2, 3])] [0, 3, 1, 2]) (-1) 2,
    -- 268: del tmp1
    .del 6,
    -- 269: rdm2.oooo += einsum(delta.oo, (0, 1), delta.oo, (2, 3), (2, 0, 3, 1))
    .add 18 (.ein [(2, [0, 1]), (2, [2, 3])] [2, 0, 3, 1]) 1 1,
    -- 270: rdm2.oooo += einsum(delta.oo, (0, 1), delta.oo, (2, 3), (0, 2, 3, 1)) * -1
    .add 18 (.ein [(2, [0, 1]), (2, [2, 3])] [0, 2, 3, 1]) (-1) 1,
    -- 271: del delta
    .del 2,
    .del 3,
    -- 272: rdm2.ooov = np.zeros((t2.shape[0], t2.shape[0], t2.shape[0], t2.shape[-1]))
    .zeros 19 [0, 0, 0, 1],
    -- 273: rdm2.oovo = np.zeros((t2.shape[0], t2.shape[0], t2.shape[-1], t2.shape[0]))
    .zeros 20 [0, 0, 1, 0],
    -- 274: rdm2.ovoo = np.zeros((t2.shape[0], t2.shape[-1], t2.shape[0], t2.shape[0]))
    .zeros 21 [0, 1, 0, 0],
    -- 275: rdm2.vooo = np.zeros((t2.shape[-1], t2.shape[0], t2.shape[0], t2.shape[0]))
    .zeros 22 [1, 0, 0, 0],
    -- 276: rdm2.ovvv = np.zeros((t2.shape[0], t2.shape[-1], t2.shape[-1], t2.shape[-1]))
    .zeros 23 [0, 1, 1, 1],
    -- 277: rdm2.vovv = np.zeros((t2.shape[-1], t2.shape[0], t2.shape[-1], t2.shape[-1]))
    .zeros 24 [1, 0, 1, 1],
    -- 278: rdm2.vvov = np.zeros((t2.shape[-1], t2.shape[-1], t2.shape[0], t2.shape[-1]))
    .zeros 25 [1, 1, 0, 1],
    -- 279: rdm2.vvvo = np.zeros((t2.shape[-1], t2.shape[-1], t2.shape[-1], t2.shape[0]))
    .zeros 26 [1, 1, 1, 0],
    -- 281: rdm2 = np.transpose(rdm2, (0, 2, 1, 3))
    .set 27 (.tr 18 [0, 2, 1, 3]) 1 1,
    .set 28 (.tr 19 [0, 2, 1, 3]) 1 1,
    .set 29 (.tr 21 [0, 2, 1, 3]) 1 1,
    .set 30 (.tr 20 [0, 2, 1, 3]) 1 1,
    .set 31 (.tr 22 [0, 2, 1, 3]) 1 1,
    .set 32 (.tr 16 [0, 2, 1, 3]) 1 1,
    .set 33 (.tr 17 [0, 2, 1, 3]) 1 1,
    .set 34 (.tr 15 [0, 2, 1, 3]) 1 1,
    .set 35 (.tr 14 [0, 2, 1, 3]) 1 1,
    .set 36 (.tr 12 [0, 2, 1, 3]) 1 1,
    .set 37 (.tr 13 [0, 2, 1, 3]) 1 1,
    .set 38 (.tr 23 [0, 2, 1, 3]) 1 1,
    .set 39 (.tr 25 [0, 2, 1, 3]) 1 1,
    .set 40 (.tr 24 [0, 2, 1, 3]) 1 1,
    .set 41 (.tr 26 [0, 2, 1, 3]) 1 1,
    .set 42 (.tr 11 [0, 2, 1, 3]) 1 1
  ]
  ret := [(chars! "rdm2.oooo", 27), (chars! "rdm2.ooov", 28), (chars! "rdm2.oovo", 29), (chars! "rdm2.ovoo", 30), (chars! "rdm2.vooo", 31), (chars! "rdm2.oovv", 32), (chars! "rdm2.ovov", 33), (chars! "rdm2.ovvo", 34), (chars! "rdm2.voov", 35), (chars! "rdm2.vovo", 36), (chars! "rdm2.vvoo", 37), (chars! "rdm2.ovvv", 38), (chars! "rdm2.vovv", 39), (chars! "rdm2.vvov", 40), (chars! "rdm2.vvvo", 41), (chars! "rdm2.vvvv", 42)]

end Ebcc.Gen.GCCD
