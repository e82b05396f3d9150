import Verif.Model.GenCode
/-!
Functions of `ebcc/codegen/GCCSD.py`, written by `tools/gencode.py`.  Comments give the
number and the text of the line of each statement.
-/

set_option maxRecDepth 100000

namespace Ebcc.Gen.GCCSD

/-- codegen/GCCSD.py:19-46 `energy`. -/
def energy : GenFun where
  args := [chars! "t2", chars! "t1", chars! "f.ov", chars! "v.oovv"]
  body := [
    -- 40: tmp0 = np.copy(t2)
    .set 4 (.cp 0) 1 1,
    -- 41: tmp0 += einsum(t1, (0, 1), t1, (2, 3), (2, 0, 3, 1)) * 2
    .add 4 (.ein [(1, [0, 1]), (1, [2, 3])] [2, 0, 3, 1]) 2 1,
    -- 42: e_cc = einsum(f.ov, (0, 1), t1, (0, 1), ())
    .set 5 (.ein [(2, [0, 1]), (1, [0, 1])] []) 1 1,
    -- 43: e_cc += einsum(tmp0, (0, 1, 2, 3), v.oovv, (0, 1, 2, 3), ()) * 0.25
    .add 5 (.ein [(4, [0, 1, 2, 3]), (3, [0, 1, 2, 3])] []) 1 4,
    -- 44: del tmp0
    .del 4
  ]
  ret := [(chars! "e_cc", 5)]

/-- codegen/GCCSD.py:48-226 `update_amps`. -/
def update_amps : GenFun where
  args := [chars! "t1", chars! "v.oovv", chars! "t2", chars! "f.ov", chars! "v.ovvv", chars! "v.ooov", chars! "v.ovov", chars! "f.vv", chars! "f.oo", chars! "v.oooo", chars! "v.ovoo", chars! "v.vvvv"]
  body := [
    -- 71: tmp3 = einsum(t1, (0, 1), v.oovv, (2, 0, 3, 1), (2, 3))
    .set 12 (.ein [(0, [0, 1]), (1, [2, 0, 3, 1])] [2, 3]) 1 1,
    -- 72: tmp20 = einsum(t2, (0, 1, 2, 3), f.ov, (4, 3), (4, 0, 1, 2))
    .set 13 (.ein [(2, [0, 1, 2, 3]), (3, [4, 3])] [4, 0, 1, 2]) 1 1,
    -- 73: tmp21 = einsum(v.ovvv, (0, 1, 2, 3), t2, (4, 5, 2, 3), (4, 5, 0, 1))
    .set 14 (.ein [(4, [0, 1, 2, 3]), (2, [4, 5, 2, 3])] [4, 5, 0, 1]) 1 1,
    -- 74: tmp34 = einsum(tmp3, (0, 1), t1, (2, 1), (2, 0))
    .set 15 (.ein [(12, [0, 1]), (0, [2, 1])] [2, 0]) 1 1,
    -- 75: tmp6 = einsum(v.ooov, (0, 1, 2, 3), t1, (1, 3), (0, 2))
    .set 16 (.ein [(5, [0, 1, 2, 3]), (0, [1, 3])] [0, 2]) 1 1,
    -- 76: tmp40 = einsum(v.ooov, (0, 1, 2, 3), t1, (4, 3), (4, 0, 1, 2))
    .set 17 (.ein [(5, [0, 1, 2, 3]), (0, [4, 3])] [4, 0, 1, 2]) 1 1,
    -- 77: tmp7 = np.copy(t2)
    .set 18 (.cp 2) 1 1,
    -- 78: tmp7 += einsum(t1, (0, 1), t1, (2, 3), (2, 0, 3, 1)) * 2
    .add 18 (.ein [(0, [0, 1]), (0, [2, 3])] [2, 0, 3, 1]) 2 1,
    -- 79: tmp5 = einsum(f.ov, (0, 1), t1, (2, 1), (0, 2))
    .set 19 (.ein [(3, [0, 1]), (0, [2, 1])] [0, 2]) 1 1,
    -- 80: tmp38 = einsum(t2, (0, 1, 2, 3), v.oovv, (4, 1, 2, 3), (0, 4))
    .set 20 (.ein [(2, [0, 1, 2, 3]), (1, [4, 1, 2, 3])] [0, 4]) 1 1,
    -- 81: tmp0 = einsum(v.oovv, (0, 1, 2, 3), t1, (4, 3), (4, 0, 1, 2))
    .set 21 (.ein [(1, [0, 1, 2, 3]), (0, [4, 3])] [4, 0, 1, 2]) 1 1,
    -- 82: tmp29 = np.copy(t2)
    .set 22 (.cp 2) 1 1,
    -- 83: tmp29 += einsum(t1, (0, 1), t1, (2, 3), (2, 0, 1, 3)) * -1
    .add 22 (.ein [(0, [0, 1]), (0, [2, 3])] [2, 0, 1, 3]) (-1) 1,
    -- 84: tmp27 = einsum(t2, (0, 1, 2, 3), v.ooov, (4, 1, 5, 3), (0, 4, 5, 2))
    .set 23 (.ein [(2, [0, 1, 2, 3]), (5, [4, 1, 5, 3])] [0, 4, 5, 2]) 1 1,
    -- 85: tmp11 = einsum(v.ovvv, (0, 1, 2, 3), t1, (0, 3), (1, 2))
    .set 24 (.ein [(4, [0, 1, 2, 3]), (0, [0, 3])] [1, 2]) 1 1,
    -- 86: tmp13 = einsum(v.oovv, (0, 1, 2, 3), t2, (4, 1, 5, 3), (4, 0, 5, 2))
    .set 25 (.ein [(1, [0, 1, 2, 3]), (2, [4, 1, 5, 3])] [4, 0, 5, 2]) 1 1,
    -- 87: tmp15 = einsum(tmp3, (0, 1), t2, (2, 3, 4, 1), (2, 3, 0, 4)) * -1
    .set 26 (.ein [(12, [0, 1]), (2, [2, 3, 4, 1])] [2, 3, 0, 4]) (-1) 1,
    -- 88: tmp22 = np.copy(np.transpose(tmp20, (0, 2, 1, 3))) * -1
    .set 27 (.tr 13 [0, 2, 1, 3]) (-1) 1,
    -- 89: del tmp20
    .del 13,
    -- 90: tmp22 += np.transpose(tmp21, (2, 1, 0, 3)) * 0.5
    .add 27 (.tr 14 [2, 1, 0, 3]) 1 2,
    -- 91: del tmp21
    .del 14,
    -- 92: tmp18 = einsum(t2, (0, 1, 2, 3), v.oovv, (0, 1, 4, 3), (2, 4))
    .set 28 (.ein [(2, [0, 1, 2, 3]), (1, [0, 1, 4, 3])] [2, 4]) 1 1,
    -- 93: tmp9 = einsum(v.ovvv, (0, 1, 2, 3), t1, (4, 3), (4, 0, 1, 2))
    .set 29 (.ein [(4, [0, 1, 2, 3]), (0, [4, 3])] [4, 0, 1, 2]) 1 1,
    -- 94: tmp35 = einsum(t2, (0, 1, 2, 3), tmp34, (4, 1), (4, 0, 2, 3)) * -1
    .set 30 (.ein [(2, [0, 1, 2, 3]), (15, [4, 1])] [4, 0, 2, 3]) (-1) 1,
    -- 95: del tmp34
    .del 15,
    -- 96: tmp33 = einsum(tmp6, (0, 1), t2, (2, 0, 3, 4), (2, 1, 3, 4)) * -1
    .set 31 (.ein [(16, [0, 1]), (2, [2, 0, 3, 4])] [2, 1, 3, 4]) (-1) 1,
    -- 97: tmp32 = einsum(v.ovvv, (0, 1, 2, 3), t1, (4, 1), (4, 0, 2, 3))
    .set 32 (.ein [(4, [0, 1, 2, 3]), (0, [4, 1])] [4, 0, 2, 3]) 1 1,
    -- 98: tmp41 = einsum(tmp7, (0, 1, 2, 3), tmp40, (4, 0, 1, 5), (4, 5, 2, 3)) * 0.5
    .set 33 (.ein [(18, [0, 1, 2, 3]), (17, [4, 0, 1, 5])] [4, 5, 2, 3]) 1 2,
    -- 99: del tmp40
    .del 17,
    -- 100: tmp37 = einsum(t2, (0, 1, 2, 3), tmp5, (1, 4), (4, 0, 2, 3))
    .set 34 (.ein [(2, [0, 1, 2, 3]), (19, [1, 4])] [4, 0, 2, 3]) 1 1,
    -- 101: tmp39 = einsum(t2, (0, 1, 2, 3), tmp38, (4, 1), (0, 4, 2, 3))
    .set 35 (.ein [(2, [0, 1, 2, 3]), (20, [4, 1])] [0, 4, 2, 3]) 1 1,
    -- 102: del tmp38
    .del 20,
    -- 103: tmp47 = einsum(t2, (0, 1, 2, 3), tmp0, (4, 1, 5, 3), (4, 0, 5, 2))
    .set 36 (.ein [(2, [0, 1, 2, 3]), (21, [4, 1, 5, 3])] [4, 0, 5, 2]) 1 1,
    -- 104: tmp30 = einsum(tmp29, (0, 1, 2, 3), v.ovov, (4, 2, 0, 5), (1, 4, 3, 5))
    .set 37 (.ein [(22, [0, 1, 2, 3]), (6, [4, 2, 0, 5])] [1, 4, 3, 5]) 1 1,
    -- 105: del tmp29
    .del 22,
    -- 106: tmp28 = einsum(tmp27, (0, 1, 2, 3), t1, (1, 4), (0, 2, 4, 3))
    .set 38 (.ein [(23, [0, 1, 2, 3]), (0, [1, 4])] [0, 2, 4, 3]) 1 1,
    -- 107: del tmp27
    .del 23,
    -- 108: tmp12 = einsum(tmp11, (0, 1), t2, (2, 3, 4, 1), (2, 3, 4, 0)) * -1
    .set 39 (.ein [(24, [0, 1]), (2, [2, 3, 4, 1])] [2, 3, 4, 0]) (-1) 1,
    -- 109: del tmp11
    .del 24,
    -- 110: tmp14 = einsum(tmp13, (0, 1, 2, 3), t2, (4, 1, 5, 3), (4, 0, 5, 2))
    .set 40 (.ein [(25, [0, 1, 2, 3]), (2, [4, 1, 5, 3])] [4, 0, 5, 2]) 1 1,
    -- 111: del tmp13
    .del 25,
    -- 112: tmp16 = einsum(tmp15, (0, 1, 2, 3), t1, (2, 4), (0, 1, 4, 3))
    .set 41 (.ein [(26, [0, 1, 2, 3]), (0, [2, 4])] [0, 1, 4, 3]) 1 1,
    -- 113: del tmp15
    .del 26,
    -- 114: tmp23 = einsum(tmp22, (0, 1, 2, 3), t1, (0, 4), (1, 2, 3, 4))
    .set 42 (.ein [(27, [0, 1, 2, 3]), (0, [0, 4])] [1, 2, 3, 4]) 1 1,
    -- 115: del tmp22
    .del 27,
    -- 116: tmp19 = einsum(tmp18, (0, 1), t2, (2, 3, 4, 1), (2, 3, 4, 0))
    .set 43 (.ein [(28, [0, 1]), (2, [2, 3, 4, 1])] [2, 3, 4, 0]) 1 1,
    -- 117: del tmp18
    .del 28,
    -- 118: tmp25 = einsum(tmp9, (0, 1, 2, 3), t1, (4, 3), (0, 4, 1, 2)) * -1
    .set 44 (.ein [(29, [0, 1, 2, 3]), (0, [4, 3])] [0, 4, 1, 2]) (-1) 1,
    -- 119: tmp44 = einsum(f.vv, (0, 1), t2, (2, 3, 4, 1), (2, 3, 0, 4))
    .set 45 (.ein [(7, [0, 1]), (2, [2, 3, 4, 1])] [2, 3, 0, 4]) 1 1,
    -- 120: tmp43 = einsum(v.ooov, (0, 1, 2, 3), t1, (2, 4), (0, 1, 4, 3))
    .set 46 (.ein [(5, [0, 1, 2, 3]), (0, [2, 4])] [0, 1, 4, 3]) 1 1,
    -- 121: tmp36 = np.copy(np.transpose(tmp32, (0, 1, 3, 2))) * -1
    .set 47 (.tr 32 [0, 1, 3, 2]) (-1) 1,
    -- 122: del tmp32
    .del 32,
    -- 123: tmp36 += np.transpose(tmp33, (0, 1, 3, 2))
    .add 47 (.tr 31 [0, 1, 3, 2]) 1 1,
    -- 124: del tmp33
    .del 31,
    -- 125: tmp36 += np.transpose(tmp35, (0, 1, 3, 2)) * -1
    .add 47 (.tr 30 [0, 1, 3, 2]) (-1) 1,
    -- 126: del tmp35
    .del 30,
    -- 127: tmp42 = np.copy(np.transpose(tmp37, (0, 1, 3, 2)))
    .set 48 (.tr 34 [0, 1, 3, 2]) 1 1,
    -- 128: del tmp37
    .del 34,
    -- 129: tmp42 += np.transpose(tmp39, (0, 1, 3, 2)) * -0.5
    .add 48 (.tr 35 [0, 1, 3, 2]) (-1) 2,
    -- 130: del tmp39
    .del 35,
    -- 131: tmp42 += np.transpose(tmp41, (0, 1, 3, 2)) * -1
    .add 48 (.tr 33 [0, 1, 3, 2]) (-1) 1,
    -- 132: del tmp41
    .del 33,
    -- 133: tmp48 = einsum(tmp47, (0, 1, 2, 3), t1, (2, 4), (0, 1, 4, 3))
    .set 49 (.ein [(36, [0, 1, 2, 3]), (0, [2, 4])] [0, 1, 4, 3]) 1 1,
    -- 134: del tmp47
    .del 36,
    -- 135: tmp10 = einsum(t2, (0, 1, 2, 3), tmp9, (4, 1, 5, 3), (4, 0, 2, 5)) * -1
    .set 50 (.ein [(2, [0, 1, 2, 3]), (29, [4, 1, 5, 3])] [4, 0, 2, 5]) (-1) 1,
    -- 136: del tmp9
    .del 29,
    -- 137: tmp31 = np.copy(tmp28)
    .set 51 (.cp 38) 1 1,
    -- 138: del tmp28
    .del 38,
    -- 139: tmp31 += tmp30 * -1
    .add 51 (.cp 37) (-1) 1,
    -- 140: del tmp30
    .del 37,
    -- 141: tmp17 = np.copy(tmp12)
    .set 52 (.cp 39) 1 1,
    -- 142: del tmp12
    .del 39,
    -- 143: tmp17 += tmp14
    .add 52 (.cp 40) 1 1,
    -- 144: del tmp14
    .del 40,
    -- 145: tmp17 += tmp16 * -1
    .add 52 (.cp 41) (-1) 1,
    -- 146: del tmp16
    .del 41,
    -- 147: tmp24 = np.copy(tmp19) * 0.5
    .set 53 (.cp 43) 1 2,
    -- 148: del tmp19
    .del 43,
    -- 149: tmp24 += np.transpose(tmp23, (1, 0, 3, 2))
    .add 53 (.tr 42 [1, 0, 3, 2]) 1 1,
    -- 150: del tmp23
    .del 42,
    -- 151: tmp46 = einsum(t2, (0, 1, 2, 3), f.oo, (4, 1), (4, 0, 2, 3))
    .set 54 (.ein [(2, [0, 1, 2, 3]), (8, [4, 1])] [4, 0, 2, 3]) 1 1,
    -- 152: tmp26 = einsum(tmp25, (0, 1, 2, 3), t1, (2, 4), (1, 0, 4, 3)) * -1
    .set 55 (.ein [(44, [0, 1, 2, 3]), (0, [2, 4])] [1, 0, 4, 3]) (-1) 1,
    -- 153: del tmp25
    .del 44,
    -- 154: tmp45 = np.copy(np.transpose(tmp43, (1, 0, 2, 3))) * -1
    .set 56 (.tr 46 [1, 0, 2, 3]) (-1) 1,
    -- 155: del tmp43
    .del 46,
    -- 156: tmp45 += np.transpose(tmp44, (1, 0, 2, 3)) * -1
    .add 56 (.tr 45 [1, 0, 2, 3]) (-1) 1,
    -- 157: del tmp44
    .del 45,
    -- 158: tmp2 = np.copy(t2) * 0.5
    .set 57 (.cp 2) 1 2,
    -- 159: tmp2 += einsum(t1, (0, 1), t1, (2, 3), (2, 0, 3, 1))
    .add 57 (.ein [(0, [0, 1]), (0, [2, 3])] [2, 0, 3, 1]) 1 1,
    -- 160: tmp49 = np.copy(v.oooo)
    .set 58 (.cp 9) 1 1,
    -- 161: tmp49 += einsum(tmp7, (0, 1, 2, 3), v.oovv, (4, 5, 2, 3), (4, 5, 1, 0)) * -0.5
    .add 58 (.ein [(18, [0, 1, 2, 3]), (1, [4, 5, 2, 3])] [4, 5, 1, 0]) (-1) 2,
    -- 162: tmp8 = np.copy(f.oo)
    .set 59 (.cp 8) 1 1,
    -- 163: tmp8 += tmp5
    .add 59 (.cp 19) 1 1,
    -- 164: del tmp5
    .del 19,
    -- 165: tmp8 += tmp6
    .add 59 (.cp 16) 1 1,
    -- 166: del tmp6
    .del 16,
    -- 167: tmp8 += einsum(tmp7, (0, 1, 2, 3), v.oovv, (4, 0, 2, 3), (4, 1)) * -0.5
    .add 59 (.ein [(18, [0, 1, 2, 3]), (1, [4, 0, 2, 3])] [4, 1]) (-1) 2,
    -- 168: tmp1 = np.copy(np.transpose(v.ovoo, (0, 2, 3, 1))) * -1
    .set 60 (.tr 10 [0, 2, 3, 1]) (-1) 1,
    -- 169: tmp1 += np.transpose(tmp0, (0, 2, 1, 3)) * -1
    .add 60 (.tr 21 [0, 2, 1, 3]) (-1) 1,
    -- 170: del tmp0
    .del 21,
    -- 171: tmp4 = np.copy(f.ov)
    .set 61 (.cp 3) 1 1,
    -- 172: tmp4 += tmp3
    .add 61 (.cp 12) 1 1,
    -- 173: del tmp3
    .del 12,
    -- 174: t2new = np.copy(v.oovv)
    .set 62 (.cp 1) 1 1,
    -- 175: t2new += tmp10
    .add 62 (.cp 50) 1 1,
    -- 176: t2new += np.transpose(tmp10, (0, 1, 3, 2)) * -1
    .add 62 (.tr 50 [0, 1, 3, 2]) (-1) 1,
    -- 177: t2new += np.transpose(tmp10, (1, 0, 2, 3)) * -1
    .add 62 (.tr 50 [1, 0, 2, 3]) (-1) 1,
    -- 178: t2new += np.transpose(tmp10, (1, 0, 3, 2))
    .add 62 (.tr 50 [1, 0, 3, 2]) 1 1,
    -- 179: del tmp10
    .del 50,
    -- 180: t2new += tmp17
    .add 62 (.cp 52) 1 1,
    -- 181: t2new += np.transpose(tmp17, (0, 1, 3, 2)) * -1
    .add 62 (.tr 52 [0, 1, 3, 2]) (-1) 1,
    -- 182: del tmp17
    .del 52,
    -- 183: t2new += tmp24 * -1
    .add 62 (.cp 53) (-1) 1,
    -- 184: t2new += np.transpose(tmp24, (0, 1, 3, 2))
    .add 62 (.tr 53 [0, 1, 3, 2]) 1 1,
    -- 185: del tmp24
    .del 53,
    -- 186: t2new += tmp26 * -1
    .add 62 (.cp 55) (-1) 1,
    -- 187: t2new += np.transpose(tmp26, (0, 1, 3, 2))
    .add 62 (.tr 55 [0, 1, 3, 2]) 1 1,
    -- 188: del tmp26
    .del 55,
    -- 189: t2new += tmp31
    .add 62 (.cp 51) 1 1,
    -- 190: t2new += np.transpose(tmp31, (0, 1, 3, 2)) * -1
    .add 62 (.tr 51 [0, 1, 3, 2]) (-1) 1,
    -- 191: t2new += np.transpose(tmp31, (1, 0, 2, 3)) * -1
    .add 62 (.tr 51 [1, 0, 2, 3]) (-1) 1,
    -- 192: t2new += np.transpose(tmp31, (1, 0, 3, 2))
    .add 62 (.tr 51 [1, 0, 3, 2]) 1 1,
    -- 193: del tmp31
    .del 51,
    -- 194: t2new += tmp36 * -1
    .add 62 (.cp 47) (-1) 1,
    -- 195: t2new += np.transpose(tmp36, (1, 0, 2, 3))
    .add 62 (.tr 47 [1, 0, 2, 3]) 1 1,
    -- 196: del tmp36
    .del 47,
    -- 197: t2new += tmp42 * -1
    .add 62 (.cp 48) (-1) 1,
    -- 198: t2new += np.transpose(tmp42, (1, 0, 2, 3))
    .add 62 (.tr 48 [1, 0, 2, 3]) 1 1,
    -- 199: del tmp42
    .del 48,
    -- 200: t2new += tmp45 * -1
    .add 62 (.cp 56) (-1) 1,
    -- 201: t2new += np.transpose(tmp45, (0, 1, 3, 2))
    .add 62 (.tr 56 [0, 1, 3, 2]) 1 1,
    -- 202: del tmp45
    .del 56,
    -- 203: t2new += np.transpose(tmp46, (0, 1, 3, 2)) * -1
    .add 62 (.tr 54 [0, 1, 3, 2]) (-1) 1,
    -- 204: t2new += np.transpose(tmp46, (1, 0, 3, 2))
    .add 62 (.tr 54 [1, 0, 3, 2]) 1 1,
    -- 205: del tmp46
    .del 54,
    -- 206: t2new += tmp48 * -1
    .add 62 (.cp 49) (-1) 1,
    -- 207: t2new += np.transpose(tmp48, (0, 1, 3, 2))
    .add 62 (.tr 49 [0, 1, 3, 2]) 1 1,
    -- 208: t2new += np.transpose(tmp48, (1, 0, 2, 3))
    .add 62 (.tr 49 [1, 0, 2, 3]) 1 1,
    -- 209: t2new += np.transpose(tmp48, (1, 0, 3, 2)) * -1
    .add 62 (.tr 49 [1, 0, 3, 2]) (-1) 1,
    -- 210: del tmp48
    .del 49,
    -- 211: t2new += einsum(tmp7, (0, 1, 2, 3), tmp49, (0, 1, 4, 5), (4, 5, 3, 2)) * -0.5
    .add 62 (.ein [(18, [0, 1, 2, 3]), (58, [0, 1, 4, 5])] [4, 5, 3, 2]) (-1) 2,
    -- 212: del tmp7, tmp49
    .del 18,
    .del 58,
    -- 213: t2new += einsum(tmp2, (0, 1, 2, 3), v.vvvv, (4, 5, 2, 3), (1, 0, 4, 5)) * -1
    .add 62 (.ein [(57, [0, 1, 2, 3]), (11, [4, 5, 2, 3])] [1, 0, 4, 5]) (-1) 1,
    -- 214: t1new = np.copy(f.ov)
    .set 63 (.cp 3) 1 1,
    -- 215: t1new += einsum(t1, (0, 1), f.vv, (2, 1), (0, 2))
    .add 63 (.ein [(0, [0, 1]), (7, [2, 1])] [0, 2]) 1 1,
    -- 216: t1new += einsum(t1, (0, 1), v.ovov, (2, 1, 0, 3), (2, 3)) * -1
    .add 63 (.ein [(0, [0, 1]), (6, [2, 1, 0, 3])] [2, 3]) (-1) 1,
    -- 217: t1new += einsum(tmp1, (0, 1, 2, 3), t2, (1, 2, 4, 3), (0, 4)) * 0.5
    .add 63 (.ein [(60, [0, 1, 2, 3]), (2, [1, 2, 4, 3])] [0, 4]) 1 2,
    -- 218: del tmp1
    .del 60,
    -- 219: t1new += einsum(tmp2, (0, 1, 2, 3), v.ovvv, (0, 4, 2, 3), (1, 4))
    .add 63 (.ein [(57, [0, 1, 2, 3]), (4, [0, 4, 2, 3])] [1, 4]) 1 1,
    -- 220: del tmp2
    .del 57,
    -- 221: t1new += einsum(t2, (0, 1, 2, 3), tmp4, (1, 3), (0, 2))
    .add 63 (.ein [(2, [0, 1, 2, 3]), (61, [1, 3])] [0, 2]) 1 1,
    -- 222: del tmp4
    .del 61,
    -- 223: t1new += einsum(tmp8, (0, 1), t1, (0, 2), (1, 2)) * -1
    .add 63 (.ein [(59, [0, 1]), (0, [0, 2])] [1, 2]) (-1) 1,
    -- 224: del tmp8
    .del 59
  ]
  ret := [(chars! "t1new", 63), (chars! "t2new", 62)]

/-- codegen/GCCSD.py:228-460 `update_lams`. -/
def update_lams : GenFun where
  args := [chars! "v.oovv", chars! "t1", chars! "t2", chars! "v.ovvv", chars! "v.ooov", chars! "l1", chars! "l2", chars! "v.ovoo", chars! "v.ovov", chars! "f.ov", chars! "f.vv", chars! "f.oo", chars! "v.oooo", chars! "v.vvvv"]
  body := [
    -- 255: tmp5 = einsum(v.oovv, (0, 1, 2, 3), t1, (4, 3), (4, 0, 1, 2))
    .set 14 (.ein [(0, [0, 1, 2, 3]), (1, [4, 3])] [4, 0, 1, 2]) 1 1,
    -- 256: tmp36 = einsum(v.oovv, (0, 1, 2, 3), t2, (0, 1, 4, 3), (4, 2))
    .set 15 (.ein [(0, [0, 1, 2, 3]), (2, [0, 1, 4, 3])] [4, 2]) 1 1,
    -- 257: tmp25 = einsum(v.ovvv, (0, 1, 2, 3), t1, (0, 3), (1, 2))
    .set 16 (.ein [(3, [0, 1, 2, 3]), (1, [0, 3])] [1, 2]) 1 1,
    -- 258: tmp4 = einsum(v.ovvv, (0, 1, 2, 3), t1, (4, 3), (4, 0, 1, 2))
    .set 17 (.ein [(3, [0, 1, 2, 3]), (1, [4, 3])] [4, 0, 1, 2]) 1 1,
    -- 259: tmp28 = einsum(v.oovv, (0, 1, 2, 3), t2, (4, 1, 2, 3), (4, 0))
    .set 18 (.ein [(0, [0, 1, 2, 3]), (2, [4, 1, 2, 3])] [4, 0]) 1 1,
    -- 260: tmp27 = einsum(t1, (0, 1), v.ooov, (2, 0, 3, 1), (2, 3))
    .set 19 (.ein [(1, [0, 1]), (4, [2, 0, 3, 1])] [2, 3]) 1 1,
    -- 261: tmp20 = einsum(t1, (0, 1), l1, (1, 2), (2, 0))
    .set 20 (.ein [(1, [0, 1]), (5, [1, 2])] [2, 0]) 1 1,
    -- 262: tmp21 = einsum(l2, (0, 1, 2, 3), t2, (4, 3, 0, 1), (2, 4))
    .set 21 (.ein [(6, [0, 1, 2, 3]), (2, [4, 3, 0, 1])] [2, 4]) 1 1,
    -- 263: tmp1 = einsum(l2, (0, 1, 2, 3), t1, (4, 1), (2, 3, 4, 0))
    .set 22 (.ein [(6, [0, 1, 2, 3]), (1, [4, 1])] [2, 3, 4, 0]) 1 1,
    -- 264: tmp11 = np.copy(v.ooov)
    .set 23 (.cp 4) 1 1,
    -- 265: tmp11 += np.transpose(tmp5, (2, 1, 0, 3)) * 0.5
    .add 23 (.tr 14 [2, 1, 0, 3]) 1 2,
    -- 266: tmp7 = einsum(t1, (0, 1), v.oovv, (2, 0, 3, 1), (2, 3))
    .set 24 (.ein [(1, [0, 1]), (0, [2, 0, 3, 1])] [2, 3]) 1 1,
    -- 267: tmp18 = einsum(t2, (0, 1, 2, 3), l2, (4, 3, 0, 1), (4, 2))
    .set 25 (.ein [(2, [0, 1, 2, 3]), (6, [4, 3, 0, 1])] [4, 2]) 1 1,
    -- 268: tmp37 = np.copy(tmp25)
    .set 26 (.cp 16) 1 1,
    -- 269: tmp37 += tmp36 * 0.5
    .add 26 (.cp 15) 1 2,
    -- 270: del tmp36
    .del 15,
    -- 271: tmp6 = np.copy(np.transpose(v.ovoo, (0, 2, 3, 1))) * -1
    .set 27 (.tr 7 [0, 2, 3, 1]) (-1) 1,
    -- 272: tmp6 += np.transpose(tmp5, (0, 2, 1, 3)) * -1
    .add 27 (.tr 14 [0, 2, 1, 3]) (-1) 1,
    -- 273: tmp31 = np.copy(np.transpose(v.ovov, (0, 2, 3, 1))) * -1
    .set 28 (.tr 8 [0, 2, 3, 1]) (-1) 1,
    -- 274: tmp31 += tmp4
    .add 28 (.cp 17) 1 1,
    -- 275: tmp41 = einsum(f.ov, (0, 1), t1, (2, 1), (0, 2))
    .set 29 (.ein [(9, [0, 1]), (1, [2, 1])] [0, 2]) 1 1,
    -- 276: tmp44 = np.copy(tmp27) * 2
    .set 30 (.cp 19) 2 1,
    -- 277: tmp44 += np.transpose(tmp28, (1, 0))
    .add 30 (.tr 18 [1, 0]) 1 1,
    -- 278: tmp24 = np.copy(tmp20)
    .set 31 (.cp 20) 1 1,
    -- 279: tmp24 += tmp21 * 0.5
    .add 31 (.cp 21) 1 2,
    -- 280: tmp50 = einsum(v.oovv, (0, 1, 2, 3), t2, (4, 1, 5, 3), (4, 0, 5, 2))
    .set 32 (.ein [(0, [0, 1, 2, 3]), (2, [4, 1, 5, 3])] [4, 0, 5, 2]) 1 1,
    -- 281: tmp0 = einsum(l2, (0, 1, 2, 3), t2, (4, 5, 0, 1), (2, 3, 4, 5))
    .set 33 (.ein [(6, [0, 1, 2, 3]), (2, [4, 5, 0, 1])] [2, 3, 4, 5]) 1 1,
    -- 282: tmp2 = einsum(t1, (0, 1), tmp1, (2, 3, 4, 1), (3, 2, 4, 0))
    .set 34 (.ein [(1, [0, 1]), (22, [2, 3, 4, 1])] [3, 2, 4, 0]) 1 1,
    -- 283: tmp12 = einsum(t1, (0, 1), tmp11, (2, 3, 4, 1), (2, 3, 4, 0))
    .set 35 (.ein [(1, [0, 1]), (23, [2, 3, 4, 1])] [2, 3, 4, 0]) 1 1,
    -- 284: del tmp11
    .del 23,
    -- 285: tmp10 = einsum(v.oovv, (0, 1, 2, 3), t2, (4, 5, 2, 3), (4, 5, 0, 1))
    .set 36 (.ein [(0, [0, 1, 2, 3]), (2, [4, 5, 2, 3])] [4, 5, 0, 1]) 1 1,
    -- 286: tmp56 = einsum(f.vv, (0, 1), l2, (2, 1, 3, 4), (3, 4, 0, 2))
    .set 37 (.ein [(10, [0, 1]), (6, [2, 1, 3, 4])] [3, 4, 0, 2]) 1 1,
    -- 287: tmp57 = einsum(tmp7, (0, 1), tmp1, (2, 3, 0, 4), (2, 3, 4, 1))
    .set 38 (.ein [(24, [0, 1]), (22, [2, 3, 0, 4])] [2, 3, 4, 1]) 1 1,
    -- 288: tmp35 = einsum(v.oovv, (0, 1, 2, 3), tmp18, (4, 3), (0, 1, 4, 2)) * -1
    .set 39 (.ein [(0, [0, 1, 2, 3]), (25, [4, 3])] [0, 1, 4, 2]) (-1) 1,
    -- 289: tmp38 = einsum(tmp37, (0, 1), l2, (2, 0, 3, 4), (3, 4, 1, 2)) * -1
    .set 40 (.ein [(26, [0, 1]), (6, [2, 0, 3, 4])] [3, 4, 1, 2]) (-1) 1,
    -- 290: del tmp37
    .del 26,
    -- 291: tmp34 = einsum(tmp1, (0, 1, 2, 3), f.ov, (2, 4), (0, 1, 4, 3))
    .set 41 (.ein [(22, [0, 1, 2, 3]), (9, [2, 4])] [0, 1, 4, 3]) 1 1,
    -- 292: tmp39 = einsum(l1, (0, 1), tmp6, (1, 2, 3, 4), (2, 3, 4, 0))
    .set 42 (.ein [(5, [0, 1]), (27, [1, 2, 3, 4])] [2, 3, 4, 0]) 1 1,
    -- 293: tmp32 = einsum(l2, (0, 1, 2, 3), tmp31, (3, 4, 1, 5), (4, 2, 5, 0))
    .set 43 (.ein [(6, [0, 1, 2, 3]), (28, [3, 4, 1, 5])] [4, 2, 5, 0]) 1 1,
    -- 294: del tmp31
    .del 28,
    -- 295: tmp30 = einsum(tmp1, (0, 1, 2, 3), v.ooov, (4, 2, 1, 5), (0, 4, 3, 5))
    .set 44 (.ein [(22, [0, 1, 2, 3]), (4, [4, 2, 1, 5])] [0, 4, 3, 5]) 1 1,
    -- 296: tmp42 = einsum(l2, (0, 1, 2, 3), tmp41, (4, 3), (4, 2, 0, 1))
    .set 45 (.ein [(6, [0, 1, 2, 3]), (29, [4, 3])] [4, 2, 0, 1]) 1 1,
    -- 297: del tmp41
    .del 29,
    -- 298: tmp45 = einsum(l2, (0, 1, 2, 3), tmp44, (4, 3), (4, 2, 0, 1)) * -0.5
    .set 46 (.ein [(6, [0, 1, 2, 3]), (30, [4, 3])] [4, 2, 0, 1]) (-1) 2,
    -- 299: del tmp44
    .del 30,
    -- 300: tmp43 = einsum(v.oovv, (0, 1, 2, 3), tmp24, (4, 1), (4, 0, 2, 3)) * -1
    .set 47 (.ein [(0, [0, 1, 2, 3]), (31, [4, 1])] [4, 0, 2, 3]) (-1) 1,
    -- 301: tmp52 = einsum(tmp5, (0, 1, 2, 3), tmp1, (0, 4, 2, 5), (4, 1, 5, 3)) * -1
    .set 48 (.ein [(14, [0, 1, 2, 3]), (22, [0, 4, 2, 5])] [4, 1, 5, 3]) (-1) 1,
    -- 302: del tmp5
    .del 14,
    -- 303: tmp51 = einsum(l2, (0, 1, 2, 3), tmp50, (3, 4, 1, 5), (2, 4, 0, 5))
    .set 49 (.ein [(6, [0, 1, 2, 3]), (32, [3, 4, 1, 5])] [2, 4, 0, 5]) 1 1,
    -- 304: del tmp50
    .del 32,
    -- 305: tmp54 = einsum(tmp7, (0, 1), t1, (2, 1), (2, 0))
    .set 50 (.ein [(24, [0, 1]), (1, [2, 1])] [2, 0]) 1 1,
    -- 306: tmp48 = einsum(l1, (0, 1), v.ovvv, (2, 0, 3, 4), (1, 2, 3, 4))
    .set 51 (.ein [(5, [0, 1]), (3, [2, 0, 3, 4])] [1, 2, 3, 4]) 1 1,
    -- 307: tmp47 = einsum(l2, (0, 1, 2, 3), f.oo, (4, 3), (4, 2, 0, 1))
    .set 52 (.ein [(6, [0, 1, 2, 3]), (11, [4, 3])] [4, 2, 0, 1]) 1 1,
    -- 308: tmp8 = np.copy(f.ov)
    .set 53 (.cp 9) 1 1,
    -- 309: tmp8 += tmp7
    .add 53 (.cp 24) 1 1,
    -- 310: tmp16 = np.copy(np.transpose(tmp0, (1, 0, 3, 2))) * -0.5
    .set 54 (.tr 33 [1, 0, 3, 2]) (-1) 2,
    -- 311: tmp16 += np.transpose(tmp2, (0, 1, 3, 2))
    .add 54 (.tr 34 [0, 1, 3, 2]) 1 1,
    -- 312: tmp9 = np.copy(np.transpose(v.ovov, (0, 2, 1, 3)))
    .set 55 (.tr 8 [0, 2, 1, 3]) 1 1,
    -- 313: tmp9 += np.transpose(tmp4, (0, 1, 3, 2)) * -0.5
    .add 55 (.tr 17 [0, 1, 3, 2]) (-1) 2,
    -- 314: tmp13 = np.copy(v.oooo) * -0.5
    .set 56 (.cp 12) (-1) 2,
    -- 315: tmp13 += np.transpose(tmp10, (3, 2, 1, 0)) * -0.25
    .add 56 (.tr 36 [3, 2, 1, 0]) (-1) 4,
    -- 316: tmp13 += np.transpose(tmp12, (1, 0, 3, 2)) * -1
    .add 56 (.tr 35 [1, 0, 3, 2]) (-1) 1,
    -- 317: tmp22 = np.copy(tmp20) * 2
    .set 57 (.cp 20) 2 1,
    -- 318: del tmp20
    .del 20,
    -- 319: tmp22 += tmp21
    .add 57 (.cp 21) 1 1,
    -- 320: del tmp21
    .del 21,
    -- 321: tmp58 = np.copy(np.transpose(tmp56, (1, 0, 2, 3))) * -1
    .set 58 (.tr 37 [1, 0, 2, 3]) (-1) 1,
    -- 322: del tmp56
    .del 37,
    -- 323: tmp58 += tmp57
    .add 58 (.cp 38) 1 1,
    -- 324: del tmp57
    .del 38,
    -- 325: tmp40 = np.copy(tmp34) * -1
    .set 59 (.cp 41) (-1) 1,
    -- 326: del tmp34
    .del 41,
    -- 327: tmp40 += tmp35 * 0.5
    .add 59 (.cp 39) 1 2,
    -- 328: del tmp35
    .del 39,
    -- 329: tmp40 += np.transpose(tmp38, (1, 0, 3, 2))
    .add 59 (.tr 40 [1, 0, 3, 2]) 1 1,
    -- 330: del tmp38
    .del 40,
    -- 331: tmp40 += np.transpose(tmp39, (1, 0, 3, 2))
    .add 59 (.tr 42 [1, 0, 3, 2]) 1 1,
    -- 332: del tmp39
    .del 42,
    -- 333: tmp59 = np.copy(v.oooo) * 0.5
    .set 60 (.cp 12) 1 2,
    -- 334: tmp59 += np.transpose(tmp10, (1, 0, 3, 2)) * 0.25
    .add 60 (.tr 36 [1, 0, 3, 2]) 1 4,
    -- 335: del tmp10
    .del 36,
    -- 336: tmp59 += np.transpose(tmp12, (2, 3, 1, 0)) * -1
    .add 60 (.tr 35 [2, 3, 1, 0]) (-1) 1,
    -- 337: del tmp12
    .del 35,
    -- 338: tmp33 = einsum(tmp7, (0, 1), l1, (2, 3), (3, 0, 2, 1))
    .set 61 (.ein [(24, [0, 1]), (5, [2, 3])] [3, 0, 2, 1]) 1 1,
    -- 339: del tmp7
    .del 24,
    -- 340: tmp33 += tmp30
    .add 61 (.cp 44) 1 1,
    -- 341: del tmp30
    .del 44,
    -- 342: tmp33 += np.transpose(tmp32, (1, 0, 3, 2))
    .add 61 (.tr 43 [1, 0, 3, 2]) 1 1,
    -- 343: del tmp32
    .del 43,
    -- 344: tmp46 = np.copy(np.transpose(tmp42, (0, 1, 3, 2)))
    .set 62 (.tr 45 [0, 1, 3, 2]) 1 1,
    -- 345: del tmp42
    .del 45,
    -- 346: tmp46 += np.transpose(tmp43, (0, 1, 3, 2)) * -1
    .add 62 (.tr 47 [0, 1, 3, 2]) (-1) 1,
    -- 347: del tmp43
    .del 47,
    -- 348: tmp46 += np.transpose(tmp45, (1, 0, 3, 2))
    .add 62 (.tr 46 [1, 0, 3, 2]) 1 1,
    -- 349: del tmp45
    .del 46,
    -- 350: tmp60 = np.copy(np.transpose(tmp0, (1, 0, 3, 2))) * -1
    .set 63 (.tr 33 [1, 0, 3, 2]) (-1) 1,
    -- 351: tmp60 += np.transpose(tmp2, (0, 1, 3, 2)) * 2
    .add 63 (.tr 34 [0, 1, 3, 2]) 2 1,
    -- 352: tmp53 = np.copy(tmp51)
    .set 64 (.cp 49) 1 1,
    -- 353: del tmp51
    .del 49,
    -- 354: tmp53 += tmp52 * -1
    .add 64 (.cp 48) (-1) 1,
    -- 355: del tmp52
    .del 48,
    -- 356: tmp55 = einsum(tmp54, (0, 1), l2, (2, 3, 4, 0), (4, 1, 2, 3))
    .set 65 (.ein [(50, [0, 1]), (6, [2, 3, 4, 0])] [4, 1, 2, 3]) 1 1,
    -- 357: del tmp54
    .del 50,
    -- 358: tmp49 = np.copy(np.transpose(tmp47, (0, 1, 3, 2))) * -1
    .set 66 (.tr 52 [0, 1, 3, 2]) (-1) 1,
    -- 359: del tmp47
    .del 52,
    -- 360: tmp49 += np.transpose(tmp48, (0, 1, 3, 2))
    .add 66 (.tr 51 [0, 1, 3, 2]) 1 1,
    -- 361: del tmp48
    .del 51,
    -- 362: tmp29 = np.copy(f.oo)
    .set 67 (.cp 11) 1 1,
    -- 363: tmp29 += np.transpose(tmp27, (1, 0))
    .add 67 (.tr 19 [1, 0]) 1 1,
    -- 364: del tmp27
    .del 19,
    -- 365: tmp29 += tmp28 * 0.5
    .add 67 (.cp 18) 1 2,
    -- 366: del tmp28
    .del 18,
    -- 367: tmp29 += einsum(tmp8, (0, 1), t1, (2, 1), (2, 0))
    .add 67 (.ein [(53, [0, 1]), (1, [2, 1])] [2, 0]) 1 1,
    -- 368: tmp17 = einsum(t2, (0, 1, 2, 3), l1, (3, 4), (4, 0, 1, 2)) * 0.5
    .set 68 (.ein [(2, [0, 1, 2, 3]), (5, [3, 4])] [4, 0, 1, 2]) 1 2,
    -- 369: tmp17 += einsum(tmp1, (0, 1, 2, 3), t2, (4, 1, 5, 3), (0, 4, 2, 5)) * -1
    .add 68 (.ein [(22, [0, 1, 2, 3]), (2, [4, 1, 5, 3])] [0, 4, 2, 5]) (-1) 1,
    -- 370: tmp17 += einsum(t1, (0, 1), tmp16, (0, 2, 3, 4), (2, 4, 3, 1)) * -0.5
    .add 68 (.ein [(1, [0, 1]), (54, [0, 2, 3, 4])] [2, 4, 3, 1]) (-1) 2,
    -- 371: del tmp16
    .del 54,
    -- 372: tmp3 = einsum(t2, (0, 1, 2, 3), l2, (4, 3, 5, 1), (5, 0, 4, 2))
    .set 69 (.ein [(2, [0, 1, 2, 3]), (6, [4, 3, 5, 1])] [5, 0, 4, 2]) 1 1,
    -- 373: tmp14 = np.copy(np.transpose(v.ovoo, (0, 2, 3, 1))) * -0.5
    .set 70 (.tr 7 [0, 2, 3, 1]) (-1) 2,
    -- 374: tmp14 += einsum(v.ovvv, (0, 1, 2, 3), t2, (4, 5, 2, 3), (0, 4, 5, 1)) * -0.25
    .add 70 (.ein [(3, [0, 1, 2, 3]), (2, [4, 5, 2, 3])] [0, 4, 5, 1]) (-1) 4,
    -- 375: tmp14 += einsum(t2, (0, 1, 2, 3), tmp6, (4, 1, 5, 3), (5, 0, 4, 2))
    .add 70 (.ein [(2, [0, 1, 2, 3]), (27, [4, 1, 5, 3])] [5, 0, 4, 2]) 1 1,
    -- 376: del tmp6
    .del 27,
    -- 377: tmp14 += einsum(tmp8, (0, 1), t2, (2, 3, 4, 1), (0, 2, 3, 4)) * 0.5
    .add 70 (.ein [(53, [0, 1]), (2, [2, 3, 4, 1])] [0, 2, 3, 4]) 1 2,
    -- 378: tmp14 += einsum(tmp9, (0, 1, 2, 3), t1, (4, 2), (1, 0, 4, 3)) * -1
    .add 70 (.ein [(55, [0, 1, 2, 3]), (1, [4, 2])] [1, 0, 4, 3]) (-1) 1,
    -- 379: del tmp9
    .del 55,
    -- 380: tmp14 += einsum(t1, (0, 1), tmp13, (0, 2, 3, 4), (2, 4, 3, 1)) * -1
    .add 70 (.ein [(1, [0, 1]), (56, [0, 2, 3, 4])] [2, 4, 3, 1]) (-1) 1,
    -- 381: del tmp13
    .del 56,
    -- 382: tmp15 = np.copy(v.ovvv)
    .set 71 (.cp 3) 1 1,
    -- 383: tmp15 += einsum(v.vvvv, (0, 1, 2, 3), t1, (4, 1), (4, 0, 2, 3)) * -1
    .add 71 (.ein [(13, [0, 1, 2, 3]), (1, [4, 1])] [4, 0, 2, 3]) (-1) 1,
    -- 384: tmp26 = np.copy(f.vv)
    .set 72 (.cp 10) 1 1,
    -- 385: tmp26 += tmp25 * -1
    .add 72 (.cp 16) (-1) 1,
    -- 386: del tmp25
    .del 16,
    -- 387: tmp23 = np.copy(t1) * -1
    .set 73 (.cp 1) (-1) 1,
    -- 388: tmp23 += einsum(l1, (0, 1), t2, (2, 1, 3, 0), (2, 3)) * -1
    .add 73 (.ein [(5, [0, 1]), (2, [2, 1, 3, 0])] [2, 3]) (-1) 1,
    -- 389: tmp23 += einsum(t2, (0, 1, 2, 3), tmp1, (1, 0, 4, 3), (4, 2)) * 0.5
    .add 73 (.ein [(2, [0, 1, 2, 3]), (22, [1, 0, 4, 3])] [4, 2]) 1 2,
    -- 390: tmp23 += einsum(tmp22, (0, 1), t1, (0, 2), (1, 2)) * 0.5
    .add 73 (.ein [(57, [0, 1]), (1, [0, 2])] [1, 2]) 1 2,
    -- 391: del tmp22
    .del 57,
    -- 392: tmp19 = einsum(t1, (0, 1), l1, (2, 0), (2, 1)) * 2
    .set 74 (.ein [(1, [0, 1]), (5, [2, 0])] [2, 1]) 2 1,
    -- 393: tmp19 += tmp18
    .add 74 (.cp 25) 1 1,
    -- 394: del tmp18
    .del 25,
    -- 395: l2new = einsum(v.ovvv, (0, 1, 2, 3), tmp1, (4, 5, 0, 1), (2, 3, 4, 5))
    .set 75 (.ein [(3, [0, 1, 2, 3]), (22, [4, 5, 0, 1])] [2, 3, 4, 5]) 1 1,
    -- 396: l2new += np.transpose(v.oovv, (2, 3, 0, 1))
    .add 75 (.tr 0 [2, 3, 0, 1]) 1 1,
    -- 397: l2new += einsum(l2, (0, 1, 2, 3), v.vvvv, (4, 5, 0, 1), (4, 5, 2, 3)) * 0.5
    .add 75 (.ein [(6, [0, 1, 2, 3]), (13, [4, 5, 0, 1])] [4, 5, 2, 3]) 1 2,
    -- 398: l2new += np.transpose(tmp33, (2, 3, 0, 1))
    .add 75 (.tr 61 [2, 3, 0, 1]) 1 1,
    -- 399: l2new += np.transpose(tmp33, (3, 2, 0, 1)) * -1
    .add 75 (.tr 61 [3, 2, 0, 1]) (-1) 1,
    -- 400: l2new += np.transpose(tmp33, (2, 3, 1, 0)) * -1
    .add 75 (.tr 61 [2, 3, 1, 0]) (-1) 1,
    -- 401: l2new += np.transpose(tmp33, (3, 2, 1, 0))
    .add 75 (.tr 61 [3, 2, 1, 0]) 1 1,
    -- 402: del tmp33
    .del 61,
    -- 403: l2new += np.transpose(tmp40, (2, 3, 0, 1)) * -1
    .add 75 (.tr 59 [2, 3, 0, 1]) (-1) 1,
    -- 404: l2new += np.transpose(tmp40, (3, 2, 0, 1))
    .add 75 (.tr 59 [3, 2, 0, 1]) 1 1,
    -- 405: del tmp40
    .del 59,
    -- 406: l2new += np.transpose(tmp46, (3, 2, 0, 1))
    .add 75 (.tr 62 [3, 2, 0, 1]) 1 1,
    -- 407: l2new += np.transpose(tmp46, (3, 2, 1, 0)) * -1
    .add 75 (.tr 62 [3, 2, 1, 0]) (-1) 1,
    -- 408: del tmp46
    .del 62,
    -- 409: l2new += np.transpose(tmp49, (2, 3, 0, 1))
    .add 75 (.tr 66 [2, 3, 0, 1]) 1 1,
    -- 410: l2new += np.transpose(tmp49, (2, 3, 1, 0)) * -1
    .add 75 (.tr 66 [2, 3, 1, 0]) (-1) 1,
    -- 411: del tmp49
    .del 66,
    -- 412: l2new += einsum(l1, (0, 1), f.ov, (2, 3), (3, 0, 2, 1))
    .add 75 (.ein [(5, [0, 1]), (9, [2, 3])] [3, 0, 2, 1]) 1 1,
    -- 413: l2new += einsum(f.ov, (0, 1), l1, (2, 3), (2, 1, 0, 3)) * -1
    .add 75 (.ein [(9, [0, 1]), (5, [2, 3])] [2, 1, 0, 3]) (-1) 1,
    -- 414: l2new += einsum(f.ov, (0, 1), l1, (2, 3), (1, 2, 3, 0)) * -1
    .add 75 (.ein [(9, [0, 1]), (5, [2, 3])] [1, 2, 3, 0]) (-1) 1,
    -- 415: l2new += einsum(f.ov, (0, 1), l1, (2, 3), (2, 1, 3, 0))
    .add 75 (.ein [(9, [0, 1]), (5, [2, 3])] [2, 1, 3, 0]) 1 1,
    -- 416: l2new += np.transpose(tmp53, (2, 3, 0, 1))
    .add 75 (.tr 64 [2, 3, 0, 1]) 1 1,
    -- 417: l2new += np.transpose(tmp53, (3, 2, 0, 1)) * -1
    .add 75 (.tr 64 [3, 2, 0, 1]) (-1) 1,
    -- 418: l2new += np.transpose(tmp53, (2, 3, 1, 0)) * -1
    .add 75 (.tr 64 [2, 3, 1, 0]) (-1) 1,
    -- 419: l2new += np.transpose(tmp53, (3, 2, 1, 0))
    .add 75 (.tr 64 [3, 2, 1, 0]) 1 1,
    -- 420: del tmp53
    .del 64,
    -- 421: l2new += np.transpose(tmp55, (2, 3, 0, 1)) * -1
    .add 75 (.tr 65 [2, 3, 0, 1]) (-1) 1,
    -- 422: l2new += np.transpose(tmp55, (2, 3, 1, 0))
    .add 75 (.tr 65 [2, 3, 1, 0]) 1 1,
    -- 423: del tmp55
    .del 65,
    -- 424: l2new += np.transpose(tmp58, (2, 3, 0, 1)) * -1
    .add 75 (.tr 58 [2, 3, 0, 1]) (-1) 1,
    -- 425: l2new += np.transpose(tmp58, (3, 2, 0, 1))
    .add 75 (.tr 58 [3, 2, 0, 1]) 1 1,
    -- 426: del tmp58
    .del 58,
    -- 427: l2new += einsum(tmp59, (0, 1, 2, 3), l2, (4, 5, 0, 1), (4, 5, 2, 3))
    .add 75 (.ein [(60, [0, 1, 2, 3]), (6, [4, 5, 0, 1])] [4, 5, 2, 3]) 1 1,
    -- 428: del tmp59
    .del 60,
    -- 429: l2new += einsum(tmp60, (0, 1, 2, 3), v.oovv, (2, 3, 4, 5), (4, 5, 1, 0)) * 0.25
    .add 75 (.ein [(63, [0, 1, 2, 3]), (0, [2, 3, 4, 5])] [4, 5, 1, 0]) 1 4,
    -- 430: del tmp60
    .del 63,
    -- 431: l1new = np.copy(np.transpose(f.ov, (1, 0)))
    .set 76 (.tr 9 [1, 0]) 1 1,
    -- 432: l1new += einsum(l1, (0, 1), v.ovov, (2, 0, 1, 3), (3, 2)) * -1
    .add 76 (.ein [(5, [0, 1]), (8, [2, 0, 1, 3])] [3, 2]) (-1) 1,
    -- 433: l1new += einsum(v.ovoo, (0, 1, 2, 3), tmp0, (4, 0, 3, 2), (1, 4)) * 0.25
    .add 76 (.ein [(7, [0, 1, 2, 3]), (33, [4, 0, 3, 2])] [1, 4]) 1 4,
    -- 434: del tmp0
    .del 33,
    -- 435: l1new += einsum(v.ooov, (0, 1, 2, 3), tmp2, (4, 2, 0, 1), (3, 4)) * -0.5
    .add 76 (.ein [(4, [0, 1, 2, 3]), (34, [4, 2, 0, 1])] [3, 4]) (-1) 2,
    -- 436: del tmp2
    .del 34,
    -- 437: l1new += einsum(tmp1, (0, 1, 2, 3), v.ovov, (2, 3, 1, 4), (4, 0)) * -1
    .add 76 (.ein [(22, [0, 1, 2, 3]), (8, [2, 3, 1, 4])] [4, 0]) (-1) 1,
    -- 438: l1new += einsum(v.ovvv, (0, 1, 2, 3), tmp3, (4, 0, 1, 3), (2, 4)) * -1
    .add 76 (.ein [(3, [0, 1, 2, 3]), (69, [4, 0, 1, 3])] [2, 4]) (-1) 1,
    -- 439: del tmp3
    .del 69,
    -- 440: l1new += einsum(tmp1, (0, 1, 2, 3), tmp4, (1, 2, 3, 4), (4, 0))
    .add 76 (.ein [(22, [0, 1, 2, 3]), (17, [1, 2, 3, 4])] [4, 0]) 1 1,
    -- 441: del tmp4, tmp1
    .del 17,
    .del 22,
    -- 442: l1new += einsum(tmp14, (0, 1, 2, 3), l2, (4, 3, 1, 2), (4, 0))
    .add 76 (.ein [(70, [0, 1, 2, 3]), (6, [4, 3, 1, 2])] [4, 0]) 1 1,
    -- 443: del tmp14
    .del 70,
    -- 444: l1new += einsum(l2, (0, 1, 2, 3), tmp15, (3, 4, 0, 1), (4, 2)) * -0.5
    .add 76 (.ein [(6, [0, 1, 2, 3]), (71, [3, 4, 0, 1])] [4, 2]) (-1) 2,
    -- 445: del tmp15
    .del 71,
    -- 446: l1new += einsum(tmp17, (0, 1, 2, 3), v.oovv, (1, 2, 4, 3), (4, 0))
    .add 76 (.ein [(68, [0, 1, 2, 3]), (0, [1, 2, 4, 3])] [4, 0]) 1 1,
    -- 447: del tmp17
    .del 68,
    -- 448: l1new += einsum(tmp19, (0, 1), v.ovvv, (2, 0, 3, 1), (3, 2)) * 0.5
    .add 76 (.ein [(74, [0, 1]), (3, [2, 0, 3, 1])] [3, 2]) 1 2,
    -- 449: del tmp19
    .del 74,
    -- 450: l1new += einsum(v.oovv, (0, 1, 2, 3), tmp23, (1, 3), (2, 0)) * -1
    .add 76 (.ein [(0, [0, 1, 2, 3]), (73, [1, 3])] [2, 0]) (-1) 1,
    -- 451: del tmp23
    .del 73,
    -- 452: l1new += einsum(tmp24, (0, 1), v.ooov, (2, 1, 0, 3), (3, 2))
    .add 76 (.ein [(31, [0, 1]), (4, [2, 1, 0, 3])] [3, 2]) 1 1,
    -- 453: l1new += einsum(l1, (0, 1), tmp26, (0, 2), (2, 1))
    .add 76 (.ein [(5, [0, 1]), (72, [0, 2])] [2, 1]) 1 1,
    -- 454: del tmp26
    .del 72,
    -- 455: l1new += einsum(tmp29, (0, 1), l1, (2, 0), (2, 1)) * -1
    .add 76 (.ein [(67, [0, 1]), (5, [2, 0])] [2, 1]) (-1) 1,
    -- 456: del tmp29
    .del 67,
    -- 457: l1new += einsum(tmp8, (0, 1), tmp24, (2, 0), (1, 2)) * -1
    .add 76 (.ein [(53, [0, 1]), (31, [2, 0])] [1, 2]) (-1) 1,
    -- 458: del tmp24, tmp8
    .del 31,
    .del 53
  ]
  ret := [(chars! "l1new", 76), (chars! "l2new", 75)]

/-- codegen/GCCSD.py:462-510 `make_rdm1_f`. -/
def make_rdm1_f : GenFun where
  args := [chars! "t1", chars! "l1", chars! "l2", chars! "t2"]
  body := [
    -- 484: delta = Namespace(
    .eye 4 0,
    .eye 5 1,
    -- 488: tmp1 = einsum(t1, (0, 1), l1, (1, 2), (2, 0))
    .set 6 (.ein [(0, [0, 1]), (1, [1, 2])] [2, 0]) 1 1,
    -- 489: tmp0 = einsum(l2, (0, 1, 2, 3), t2, (4, 3, 0, 1), (2, 4))
    .set 7 (.ein [(2, [0, 1, 2, 3]), (3, [4, 3, 0, 1])] [2, 4]) 1 1,
    -- 490: tmp3 = np.copy(tmp1) * 2
    .set 8 (.cp 6) 2 1,
    -- 491: tmp3 += tmp0
    .add 8 (.cp 7) 1 1,
    -- 492: tmp2 = einsum(l2, (0, 1, 2, 3), t1, (4, 1), (2, 3, 4, 0))
    .set 9 (.ein [(2, [0, 1, 2, 3]), (0, [4, 1])] [2, 3, 4, 0]) 1 1,
    -- 493: rdm1.vv = einsum(t1, (0, 1), l1, (2, 0), (2, 1))
    .set 10 (.ein [(0, [0, 1]), (1, [2, 0])] [2, 1]) 1 1,
    -- 494: rdm1.vv += einsum(t2, (0, 1, 2, 3), l2, (4, 3, 0, 1), (4, 2)) * 0.5
    .add 10 (.ein [(3, [0, 1, 2, 3]), (2, [4, 3, 0, 1])] [4, 2]) 1 2,
    -- 495: rdm1.vo = np.copy(l1)
    .set 11 (.cp 1) 1 1,
    -- 496: rdm1.ov = einsum(l1, (0, 1), t2, (2, 1, 3, 0), (2, 3))
    .set 12 (.ein [(1, [0, 1]), (3, [2, 1, 3, 0])] [2, 3]) 1 1,
    -- 497: rdm1.ov += t1
    .add 12 (.cp 0) 1 1,
    -- 498: rdm1.ov += einsum(tmp2, (0, 1, 2, 3), t2, (1, 0, 4, 3), (2, 4)) * -0.5
    .add 12 (.ein [(9, [0, 1, 2, 3]), (3, [1, 0, 4, 3])] [2, 4]) (-1) 2,
    -- 499: del tmp2
    .del 9,
    -- 500: rdm1.ov += einsum(tmp3, (0, 1), t1, (0, 2), (1, 2)) * -0.5
    .add 12 (.ein [(8, [0, 1]), (0, [0, 2])] [1, 2]) (-1) 2,
    -- 501: del tmp3
    .del 8,
    -- 502: rdm1.oo = np.copy(np.transpose(tmp0, (1, 0))) * -0.5
    .set 13 (.tr 7 [1, 0]) (-1) 2,
    -- 503: del tmp0
    .del 7,
    -- 504: rdm1.oo += delta.oo
    .add 13 (.cp 4) 1 1,
    -- 505: del delta
    .del 4,
    .del 5,
    -- 506: rdm1.oo += np.transpose(tmp1, (1, 0)) * -1
    .add 13 (.tr 6 [1, 0]) (-1) 1,
    -- 507: del tmp1
    .del 6
  ]
  ret := [(chars! "rdm1.oo", 13), (chars! "rdm1.ov", 12), (chars! "rdm1.vo", 11), (chars! "rdm1.vv", 10)]

/-- codegen/GCCSD.py:512-731 `make_rdm2_f`. -/
def make_rdm2_f : GenFun where
  args := [chars! "t1", chars! "l1", chars! "l2", chars! "t2"]
  body := [
    -- 534: delta = Namespace(
    .eye 4 0,
    .eye 5 1,
    -- 538: tmp3 = einsum(t1, (0, 1), l1, (1, 2), (2, 0))
    .set 6 (.ein [(0, [0, 1]), (1, [1, 2])] [2, 0]) 1 1,
    -- 539: tmp1 = einsum(l2, (0, 1, 2, 3), t1, (4, 1), (2, 3, 4, 0))
    .set 7 (.ein [(2, [0, 1, 2, 3]), (0, [4, 1])] [2, 3, 4, 0]) 1 1,
    -- 540: tmp4 = einsum(l2, (0, 1, 2, 3), t2, (4, 3, 0, 1), (2, 4))
    .set 8 (.ein [(2, [0, 1, 2, 3]), (3, [4, 3, 0, 1])] [2, 4]) 1 1,
    -- 541: tmp21 = einsum(t2, (0, 1, 2, 3), l2, (4, 3, 5, 1), (5, 0, 4, 2))
    .set 9 (.ein [(3, [0, 1, 2, 3]), (2, [4, 3, 5, 1])] [5, 0, 4, 2]) 1 1,
    -- 542: tmp10 = einsum(l1, (0, 1), t2, (2, 1, 3, 0), (2, 3))
    .set 10 (.ein [(1, [0, 1]), (3, [2, 1, 3, 0])] [2, 3]) 1 1,
    -- 543: tmp11 = einsum(tmp3, (0, 1), t1, (0, 2), (1, 2))
    .set 11 (.ein [(6, [0, 1]), (0, [0, 2])] [1, 2]) 1 1,
    -- 544: tmp6 = einsum(t2, (0, 1, 2, 3), tmp1, (4, 1, 5, 3), (4, 5, 0, 2)) * -1
    .set 12 (.ein [(3, [0, 1, 2, 3]), (7, [4, 1, 5, 3])] [4, 5, 0, 2]) (-1) 1,
    -- 545: tmp0 = einsum(l2, (0, 1, 2, 3), t2, (4, 5, 0, 1), (2, 3, 4, 5))
    .set 13 (.ein [(2, [0, 1, 2, 3]), (3, [4, 5, 0, 1])] [2, 3, 4, 5]) 1 1,
    -- 546: tmp2 = einsum(t1, (0, 1), tmp1, (2, 3, 4, 1), (2, 3, 0, 4))
    .set 14 (.ein [(0, [0, 1]), (7, [2, 3, 4, 1])] [2, 3, 0, 4]) 1 1,
    -- 547: tmp5 = einsum(t2, (0, 1, 2, 3), l1, (3, 4), (4, 0, 1, 2))
    .set 15 (.ein [(3, [0, 1, 2, 3]), (1, [3, 4])] [4, 0, 1, 2]) 1 1,
    -- 548: tmp14 = np.copy(tmp3) * 2
    .set 16 (.cp 6) 2 1,
    -- 549: tmp14 += tmp4
    .add 16 (.cp 8) 1 1,
    -- 550: tmp30 = einsum(t1, (0, 1), l1, (2, 0), (2, 1))
    .set 17 (.ein [(0, [0, 1]), (1, [2, 0])] [2, 1]) 1 1,
    -- 551: tmp25 = einsum(t2, (0, 1, 2, 3), l2, (4, 3, 0, 1), (4, 2))
    .set 18 (.ein [(3, [0, 1, 2, 3]), (2, [4, 3, 0, 1])] [4, 2]) 1 1,
    -- 552: tmp29 = einsum(tmp1, (0, 1, 2, 3), t1, (1, 4), (0, 2, 3, 4))
    .set 19 (.ein [(7, [0, 1, 2, 3]), (0, [1, 4])] [0, 2, 3, 4]) 1 1,
    -- 553: tmp36 = einsum(tmp21, (0, 1, 2, 3), t1, (0, 4), (1, 2, 4, 3))
    .set 20 (.ein [(9, [0, 1, 2, 3]), (0, [0, 4])] [1, 2, 4, 3]) 1 1,
    -- 554: tmp12 = np.copy(tmp10)
    .set 21 (.cp 10) 1 1,
    -- 555: tmp12 += tmp11 * -1
    .add 21 (.cp 11) (-1) 1,
    -- 556: del tmp11
    .del 11,
    -- 557: tmp18 = einsum(tmp6, (0, 1, 2, 3), t1, (0, 4), (1, 2, 4, 3))
    .set 22 (.ein [(12, [0, 1, 2, 3]), (0, [0, 4])] [1, 2, 4, 3]) 1 1,
    -- 558: tmp7 = einsum(tmp1, (0, 1, 2, 3), t2, (1, 0, 4, 3), (2, 4))
    .set 23 (.ein [(7, [0, 1, 2, 3]), (3, [1, 0, 4, 3])] [2, 4]) 1 1,
    -- 559: tmp8 = einsum(t1, (0, 1), tmp4, (0, 2), (2, 1))
    .set 24 (.ein [(0, [0, 1]), (8, [0, 2])] [2, 1]) 1 1,
    -- 560: tmp13 = np.copy(np.transpose(tmp0, (1, 0, 3, 2))) * -0.5
    .set 25 (.tr 13 [1, 0, 3, 2]) (-1) 2,
    -- 561: tmp13 += np.transpose(tmp2, (0, 1, 3, 2))
    .add 25 (.tr 14 [0, 1, 3, 2]) 1 1,
    -- 562: tmp22 = einsum(t2, (0, 1, 2, 3), tmp21, (1, 4, 3, 5), (0, 4, 2, 5))
    .set 26 (.ein [(3, [0, 1, 2, 3]), (9, [1, 4, 3, 5])] [0, 4, 2, 5]) 1 1,
    -- 563: tmp20 = einsum(tmp5, (0, 1, 2, 3), t1, (0, 4), (1, 2, 4, 3))
    .set 27 (.ein [(15, [0, 1, 2, 3]), (0, [0, 4])] [1, 2, 4, 3]) 1 1,
    -- 564: tmp15 = einsum(tmp14, (0, 1), t1, (0, 2), (1, 2)) * 0.5
    .set 28 (.ein [(16, [0, 1]), (0, [0, 2])] [1, 2]) 1 2,
    -- 565: del tmp14
    .del 16,
    -- 566: tmp38 = einsum(l2, (0, 1, 2, 3), t1, (3, 4), (2, 0, 1, 4))
    .set 29 (.ein [(2, [0, 1, 2, 3]), (0, [3, 4])] [2, 0, 1, 4]) 1 1,
    -- 567: tmp31 = np.copy(tmp30)
    .set 30 (.cp 17) 1 1,
    -- 568: tmp31 += tmp25 * 0.5
    .add 30 (.cp 18) 1 2,
    -- 569: tmp33 = einsum(t2, (0, 1, 2, 3), tmp1, (1, 0, 4, 5), (4, 5, 2, 3)) * -1
    .set 31 (.ein [(3, [0, 1, 2, 3]), (7, [1, 0, 4, 5])] [4, 5, 2, 3]) (-1) 1,
    -- 570: tmp35 = einsum(l1, (0, 1), t2, (2, 1, 3, 4), (2, 0, 3, 4))
    .set 32 (.ein [(1, [0, 1]), (3, [2, 1, 3, 4])] [2, 0, 3, 4]) 1 1,
    -- 571: tmp34 = einsum(tmp29, (0, 1, 2, 3), t1, (0, 4), (1, 2, 3, 4)) * -1
    .set 33 (.ein [(19, [0, 1, 2, 3]), (0, [0, 4])] [1, 2, 3, 4]) (-1) 1,
    -- 572: tmp37 = np.copy(tmp36)
    .set 34 (.cp 20) 1 1,
    -- 573: tmp37 += einsum(tmp25, (0, 1), t1, (2, 3), (2, 0, 3, 1)) * -0.5
    .add 34 (.ein [(18, [0, 1]), (0, [2, 3])] [2, 0, 3, 1]) (-1) 2,
    -- 574: tmp32 = np.copy(tmp30) * 2
    .set 35 (.cp 17) 2 1,
    -- 575: tmp32 += tmp25
    .add 35 (.cp 18) 1 1,
    -- 576: tmp19 = np.copy(tmp18)
    .set 36 (.cp 22) 1 1,
    -- 577: del tmp18
    .del 22,
    -- 578: tmp19 += einsum(tmp12, (0, 1), t1, (2, 3), (2, 0, 3, 1)) * -1
    .add 36 (.ein [(21, [0, 1]), (0, [2, 3])] [2, 0, 3, 1]) (-1) 1,
    -- 579: tmp9 = np.copy(tmp7)
    .set 37 (.cp 23) 1 1,
    -- 580: tmp9 += tmp8
    .add 37 (.cp 24) 1 1,
    -- 581: del tmp8
    .del 24,
    -- 582: tmp28 = einsum(t1, (0, 1), tmp13, (0, 2, 3, 4), (2, 4, 3, 1)) * -2
    .set 38 (.ein [(0, [0, 1]), (25, [0, 2, 3, 4])] [2, 4, 3, 1]) (-2) 1,
    -- 583: tmp27 = einsum(t2, (0, 1, 2, 3), tmp4, (1, 4), (0, 4, 2, 3))
    .set 39 (.ein [(3, [0, 1, 2, 3]), (8, [1, 4])] [0, 4, 2, 3]) 1 1,
    -- 584: tmp24 = einsum(t2, (0, 1, 2, 3), tmp3, (1, 4), (4, 0, 2, 3))
    .set 40 (.ein [(3, [0, 1, 2, 3]), (6, [1, 4])] [4, 0, 2, 3]) 1 1,
    -- 585: tmp26 = einsum(tmp25, (0, 1), t2, (2, 3, 4, 0), (2, 3, 4, 1))
    .set 41 (.ein [(18, [0, 1]), (3, [2, 3, 4, 0])] [2, 3, 4, 1]) 1 1,
    -- 586: del tmp25
    .del 18,
    -- 587: tmp23 = np.copy(tmp20)
    .set 42 (.cp 27) 1 1,
    -- 588: del tmp20
    .del 27,
    -- 589: tmp23 += tmp22
    .add 42 (.cp 26) 1 1,
    -- 590: del tmp22
    .del 26,
    -- 591: tmp17 = np.copy(np.transpose(tmp0, (1, 0, 3, 2))) * -1
    .set 43 (.tr 13 [1, 0, 3, 2]) (-1) 1,
    -- 592: tmp17 += np.transpose(tmp2, (0, 1, 3, 2)) * 2
    .add 43 (.tr 14 [0, 1, 3, 2]) 2 1,
    -- 593: tmp16 = np.copy(tmp10) * -1
    .set 44 (.cp 10) (-1) 1,
    -- 594: del tmp10
    .del 10,
    -- 595: tmp16 += tmp7 * 0.5
    .add 44 (.cp 23) 1 2,
    -- 596: del tmp7
    .del 23,
    -- 597: tmp16 += tmp15
    .add 44 (.cp 28) 1 1,
    -- 598: del tmp15
    .del 28,
    -- 599: rdm2.vvvv = einsum(t2, (0, 1, 2, 3), l2, (4, 5, 0, 1), (4, 5, 2, 3)) * 0.5
    .set 45 (.ein [(3, [0, 1, 2, 3]), (2, [4, 5, 0, 1])] [4, 5, 2, 3]) 1 2,
    -- 600: rdm2.vvvv += einsum(tmp38, (0, 1, 2, 3), t1, (0, 4), (1, 2, 4, 3))
    .add 45 (.ein [(29, [0, 1, 2, 3]), (0, [0, 4])] [1, 2, 4, 3]) 1 1,
    -- 601: rdm2.vvvo = np.copy(np.transpose(tmp38, (2, 1, 3, 0)))
    .set 46 (.tr 29 [2, 1, 3, 0]) 1 1,
    -- 602: rdm2.vvov = np.copy(np.transpose(tmp38, (2, 1, 0, 3))) * -1
    .set 47 (.tr 29 [2, 1, 0, 3]) (-1) 1,
    -- 603: del tmp38
    .del 29,
    -- 604: rdm2.vovv = np.copy(np.transpose(tmp33, (1, 0, 3, 2))) * 0.5
    .set 48 (.tr 31 [1, 0, 3, 2]) 1 2,
    -- 605: rdm2.vovv += np.transpose(tmp34, (1, 0, 3, 2))
    .add 48 (.tr 33 [1, 0, 3, 2]) 1 1,
    -- 606: rdm2.vovv += np.transpose(tmp35, (1, 0, 3, 2))
    .add 48 (.tr 32 [1, 0, 3, 2]) 1 1,
    -- 607: rdm2.vovv += np.transpose(tmp36, (1, 0, 2, 3))
    .add 48 (.tr 20 [1, 0, 2, 3]) 1 1,
    -- 608: rdm2.vovv += np.transpose(tmp36, (1, 0, 3, 2)) * -1
    .add 48 (.tr 20 [1, 0, 3, 2]) (-1) 1,
    -- 609: del tmp36
    .del 20,
    -- 610: rdm2.vovv += einsum(tmp31, (0, 1), t1, (2, 3), (0, 2, 3, 1)) * -1
    .add 48 (.ein [(30, [0, 1]), (0, [2, 3])] [0, 2, 3, 1]) (-1) 1,
    -- 611: rdm2.vovv += einsum(tmp31, (0, 1), t1, (2, 3), (0, 2, 1, 3))
    .add 48 (.ein [(30, [0, 1]), (0, [2, 3])] [0, 2, 1, 3]) 1 1,
    -- 612: rdm2.ovvv = np.copy(np.transpose(tmp33, (0, 1, 3, 2))) * -0.5
    .set 49 (.tr 31 [0, 1, 3, 2]) (-1) 2,
    -- 613: del tmp33
    .del 31,
    -- 614: rdm2.ovvv += np.transpose(tmp34, (0, 1, 3, 2)) * -1
    .add 49 (.tr 33 [0, 1, 3, 2]) (-1) 1,
    -- 615: del tmp34
    .del 33,
    -- 616: rdm2.ovvv += np.transpose(tmp35, (0, 1, 3, 2)) * -1
    .add 49 (.tr 32 [0, 1, 3, 2]) (-1) 1,
    -- 617: del tmp35
    .del 32,
    -- 618: rdm2.ovvv += tmp37 * -1
    .add 49 (.cp 34) (-1) 1,
    -- 619: rdm2.ovvv += np.transpose(tmp37, (0, 1, 3, 2))
    .add 49 (.tr 34 [0, 1, 3, 2]) 1 1,
    -- 620: del tmp37
    .del 34,
    -- 621: rdm2.ovvv += einsum(tmp30, (0, 1), t1, (2, 3), (2, 0, 3, 1))
    .add 49 (.ein [(17, [0, 1]), (0, [2, 3])] [2, 0, 3, 1]) 1 1,
    -- 622: rdm2.ovvv += einsum(tmp30, (0, 1), t1, (2, 3), (2, 0, 1, 3)) * -1
    .add 49 (.ein [(17, [0, 1]), (0, [2, 3])] [2, 0, 1, 3]) (-1) 1,
    -- 623: del tmp30
    .del 17,
    -- 624: rdm2.vvoo = np.copy(l2)
    .set 50 (.cp 2) 1 1,
    -- 625: rdm2.vovo = np.copy(np.transpose(tmp21, (2, 1, 3, 0))) * -1
    .set 51 (.tr 9 [2, 1, 3, 0]) (-1) 1,
    -- 626: rdm2.vovo += np.transpose(tmp29, (2, 1, 3, 0))
    .add 51 (.tr 19 [2, 1, 3, 0]) 1 1,
    -- 627: rdm2.vovo += einsum(l1, (0, 1), t1, (2, 3), (0, 2, 3, 1)) * -1
    .add 51 (.ein [(1, [0, 1]), (0, [2, 3])] [0, 2, 3, 1]) (-1) 1,
    -- 628: rdm2.vovo += einsum(delta.oo, (0, 1), tmp32, (2, 3), (2, 0, 3, 1)) * 0.5
    .add 51 (.ein [(4, [0, 1]), (35, [2, 3])] [2, 0, 3, 1]) 1 2,
    -- 629: rdm2.voov = np.copy(np.transpose(tmp21, (2, 1, 0, 3)))
    .set 52 (.tr 9 [2, 1, 0, 3]) 1 1,
    -- 630: rdm2.voov += np.transpose(tmp29, (2, 1, 0, 3)) * -1
    .add 52 (.tr 19 [2, 1, 0, 3]) (-1) 1,
    -- 631: rdm2.voov += einsum(l1, (0, 1), t1, (2, 3), (0, 2, 1, 3))
    .add 52 (.ein [(1, [0, 1]), (0, [2, 3])] [0, 2, 1, 3]) 1 1,
    -- 632: rdm2.voov += einsum(tmp31, (0, 1), delta.oo, (2, 3), (0, 2, 3, 1)) * -1
    .add 52 (.ein [(30, [0, 1]), (4, [2, 3])] [0, 2, 3, 1]) (-1) 1,
    -- 633: rdm2.ovvo = np.copy(np.transpose(tmp21, (1, 2, 3, 0)))
    .set 53 (.tr 9 [1, 2, 3, 0]) 1 1,
    -- 634: rdm2.ovvo += np.transpose(tmp29, (1, 2, 3, 0)) * -1
    .add 53 (.tr 19 [1, 2, 3, 0]) (-1) 1,
    -- 635: rdm2.ovvo += einsum(l1, (0, 1), t1, (2, 3), (2, 0, 3, 1))
    .add 53 (.ein [(1, [0, 1]), (0, [2, 3])] [2, 0, 3, 1]) 1 1,
    -- 636: rdm2.ovvo += einsum(delta.oo, (0, 1), tmp32, (2, 3), (0, 2, 3, 1)) * -0.5
    .add 53 (.ein [(4, [0, 1]), (35, [2, 3])] [0, 2, 3, 1]) (-1) 2,
    -- 637: del tmp32
    .del 35,
    -- 638: rdm2.ovov = np.copy(np.transpose(tmp21, (1, 2, 0, 3))) * -1
    .set 54 (.tr 9 [1, 2, 0, 3]) (-1) 1,
    -- 639: del tmp21
    .del 9,
    -- 640: rdm2.ovov += np.transpose(tmp29, (1, 2, 0, 3))
    .add 54 (.tr 19 [1, 2, 0, 3]) 1 1,
    -- 641: del tmp29
    .del 19,
    -- 642: rdm2.ovov += einsum(l1, (0, 1), t1, (2, 3), (2, 0, 1, 3)) * -1
    .add 54 (.ein [(1, [0, 1]), (0, [2, 3])] [2, 0, 1, 3]) (-1) 1,
    -- 643: rdm2.ovov += einsum(tmp31, (0, 1), delta.oo, (2, 3), (2, 0, 3, 1))
    .add 54 (.ein [(30, [0, 1]), (4, [2, 3])] [2, 0, 3, 1]) 1 1,
    -- 644: del tmp31
    .del 30,
    -- 645: rdm2.oovv = np.copy(t2)
    .set 55 (.cp 3) 1 1,
    -- 646: rdm2.oovv += tmp19 * -1
    .add 55 (.cp 36) (-1) 1,
    -- 647: rdm2.oovv += np.transpose(tmp19, (0, 1, 3, 2))
    .add 55 (.tr 36 [0, 1, 3, 2]) 1 1,
    -- 648: rdm2.oovv += np.transpose(tmp19, (1, 0, 2, 3))
    .add 55 (.tr 36 [1, 0, 2, 3]) 1 1,
    -- 649: rdm2.oovv += np.transpose(tmp19, (1, 0, 3, 2)) * -1
    .add 55 (.tr 36 [1, 0, 3, 2]) (-1) 1,
    -- 650: del tmp19
    .del 36,
    -- 651: rdm2.oovv += tmp23
    .add 55 (.cp 42) 1 1,
    -- 652: rdm2.oovv += np.transpose(tmp23, (0, 1, 3, 2)) * -1
    .add 55 (.tr 42 [0, 1, 3, 2]) (-1) 1,
    -- 653: del tmp23
    .del 42,
    -- 654: rdm2.oovv += np.transpose(tmp24, (0, 1, 3, 2)) * -1
    .add 55 (.tr 40 [0, 1, 3, 2]) (-1) 1,
    -- 655: rdm2.oovv += np.transpose(tmp24, (1, 0, 3, 2))
    .add 55 (.tr 40 [1, 0, 3, 2]) 1 1,
    -- 656: del tmp24
    .del 40,
    -- 657: rdm2.oovv += einsum(t1, (0, 1), t1, (2, 3), (2, 0, 1, 3)) * -1
    .add 55 (.ein [(0, [0, 1]), (0, [2, 3])] [2, 0, 1, 3]) (-1) 1,
    -- 658: rdm2.oovv += einsum(t1, (0, 1), t1, (2, 3), (2, 0, 3, 1))
    .add 55 (.ein [(0, [0, 1]), (0, [2, 3])] [2, 0, 3, 1]) 1 1,
    -- 659: rdm2.oovv += tmp26 * -0.5
    .add 55 (.cp 41) (-1) 2,
    -- 660: rdm2.oovv += np.transpose(tmp26, (0, 1, 3, 2)) * 0.5
    .add 55 (.tr 41 [0, 1, 3, 2]) 1 2,
    -- 661: del tmp26
    .del 41,
    -- 662: rdm2.oovv += np.transpose(tmp27, (0, 1, 3, 2)) * 0.5
    .add 55 (.tr 39 [0, 1, 3, 2]) 1 2,
    -- 663: rdm2.oovv += np.transpose(tmp27, (1, 0, 3, 2)) * -0.5
    .add 55 (.tr 39 [1, 0, 3, 2]) (-1) 2,
    -- 664: del tmp27
    .del 39,
    -- 665: rdm2.oovv += einsum(tmp9, (0, 1), t1, (2, 3), (2, 0, 3, 1)) * -0.5
    .add 55 (.ein [(37, [0, 1]), (0, [2, 3])] [2, 0, 3, 1]) (-1) 2,
    -- 666: rdm2.oovv += einsum(t1, (0, 1), tmp9, (2, 3), (0, 2, 3, 1)) * 0.5
    .add 55 (.ein [(0, [0, 1]), (37, [2, 3])] [0, 2, 3, 1]) 1 2,
    -- 667: rdm2.oovv += einsum(tmp9, (0, 1), t1, (2, 3), (0, 2, 3, 1)) * 0.5
    .add 55 (.ein [(37, [0, 1]), (0, [2, 3])] [0, 2, 3, 1]) 1 2,
    -- 668: rdm2.oovv += einsum(tmp9, (0, 1), t1, (2, 3), (0, 2, 1, 3)) * -0.5
    .add 55 (.ein [(37, [0, 1]), (0, [2, 3])] [0, 2, 1, 3]) (-1) 2,
    -- 669: rdm2.oovv += einsum(t2, (0, 1, 2, 3), tmp13, (0, 1, 4, 5), (5, 4, 2, 3)) * 0.5
    .add 55 (.ein [(3, [0, 1, 2, 3]), (25, [0, 1, 4, 5])] [5, 4, 2, 3]) 1 2,
    -- 670: rdm2.oovv += einsum(tmp28, (0, 1, 2, 3), t1, (0, 4), (1, 2, 4, 3)) * 0.5
    .add 55 (.ein [(38, [0, 1, 2, 3]), (0, [0, 4])] [1, 2, 4, 3]) 1 2,
    -- 671: del tmp28
    .del 38,
    -- 672: rdm2.vooo = np.copy(np.transpose(tmp1, (3, 2, 1, 0)))
    .set 56 (.tr 7 [3, 2, 1, 0]) 1 1,
    -- 673: rdm2.vooo += einsum(l1, (0, 1), delta.oo, (2, 3), (0, 2, 1, 3))
    .add 56 (.ein [(1, [0, 1]), (4, [2, 3])] [0, 2, 1, 3]) 1 1,
    -- 674: rdm2.vooo += einsum(delta.oo, (0, 1), l1, (2, 3), (2, 0, 1, 3)) * -1
    .add 56 (.ein [(4, [0, 1]), (1, [2, 3])] [2, 0, 1, 3]) (-1) 1,
    -- 675: rdm2.ovoo = np.copy(np.transpose(tmp1, (2, 3, 1, 0))) * -1
    .set 57 (.tr 7 [2, 3, 1, 0]) (-1) 1,
    -- 676: del tmp1
    .del 7,
    -- 677: rdm2.ovoo += einsum(l1, (0, 1), delta.oo, (2, 3), (2, 0, 1, 3)) * -1
    .add 57 (.ein [(1, [0, 1]), (4, [2, 3])] [2, 0, 1, 3]) (-1) 1,
    -- 678: rdm2.ovoo += einsum(delta.oo, (0, 1), l1, (2, 3), (0, 2, 1, 3))
    .add 57 (.ein [(4, [0, 1]), (1, [2, 3])] [0, 2, 1, 3]) 1 1,
    -- 679: rdm2.oovo = np.copy(np.transpose(tmp5, (2, 1, 3, 0)))
    .set 58 (.tr 15 [2, 1, 3, 0]) 1 1,
    -- 680: rdm2.oovo += np.transpose(tmp6, (1, 2, 3, 0))
    .add 58 (.tr 12 [1, 2, 3, 0]) 1 1,
    -- 681: rdm2.oovo += np.transpose(tmp6, (2, 1, 3, 0)) * -1
    .add 58 (.tr 12 [2, 1, 3, 0]) (-1) 1,
    -- 682: rdm2.oovo += einsum(tmp4, (0, 1), t1, (2, 3), (2, 1, 3, 0)) * -0.5
    .add 58 (.ein [(8, [0, 1]), (0, [2, 3])] [2, 1, 3, 0]) (-1) 2,
    -- 683: rdm2.oovo += einsum(tmp4, (0, 1), t1, (2, 3), (1, 2, 3, 0)) * 0.5
    .add 58 (.ein [(8, [0, 1]), (0, [2, 3])] [1, 2, 3, 0]) 1 2,
    -- 684: rdm2.oovo += einsum(delta.oo, (0, 1), t1, (2, 3), (2, 0, 3, 1))
    .add 58 (.ein [(4, [0, 1]), (0, [2, 3])] [2, 0, 3, 1]) 1 1,
    -- 685: rdm2.oovo += einsum(t1, (0, 1), delta.oo, (2, 3), (2, 0, 1, 3)) * -1
    .add 58 (.ein [(0, [0, 1]), (4, [2, 3])] [2, 0, 1, 3]) (-1) 1,
    -- 686: rdm2.oovo += einsum(tmp16, (0, 1), delta.oo, (2, 3), (0, 2, 1, 3)) * -1
    .add 58 (.ein [(44, [0, 1]), (4, [2, 3])] [0, 2, 1, 3]) (-1) 1,
    -- 687: rdm2.oovo += einsum(delta.oo, (0, 1), tmp16, (2, 3), (0, 2, 3, 1))
    .add 58 (.ein [(4, [0, 1]), (44, [2, 3])] [0, 2, 3, 1]) 1 1,
    -- 688: del tmp16
    .del 44,
    -- 689: rdm2.oovo += einsum(tmp3, (0, 1), t1, (2, 3), (2, 1, 3, 0)) * -1
    .add 58 (.ein [(6, [0, 1]), (0, [2, 3])] [2, 1, 3, 0]) (-1) 1,
    -- 690: rdm2.oovo += einsum(tmp3, (0, 1), t1, (2, 3), (1, 2, 3, 0))
    .add 58 (.ein [(6, [0, 1]), (0, [2, 3])] [1, 2, 3, 0]) 1 1,
    -- 691: rdm2.oovo += einsum(t1, (0, 1), tmp17, (0, 2, 3, 4), (4, 3, 1, 2)) * 0.5
    .add 58 (.ein [(0, [0, 1]), (43, [0, 2, 3, 4])] [4, 3, 1, 2]) 1 2,
    -- 692: del tmp17
    .del 43,
    -- 693: rdm2.ooov = np.copy(np.transpose(tmp5, (2, 1, 0, 3))) * -1
    .set 59 (.tr 15 [2, 1, 0, 3]) (-1) 1,
    -- 694: del tmp5
    .del 15,
    -- 695: rdm2.ooov += np.transpose(tmp6, (1, 2, 0, 3)) * -1
    .add 59 (.tr 12 [1, 2, 0, 3]) (-1) 1,
    -- 696: rdm2.ooov += np.transpose(tmp6, (2, 1, 0, 3))
    .add 59 (.tr 12 [2, 1, 0, 3]) 1 1,
    -- 697: del tmp6
    .del 12,
    -- 698: rdm2.ooov += einsum(tmp4, (0, 1), t1, (2, 3), (2, 1, 0, 3)) * 0.5
    .add 59 (.ein [(8, [0, 1]), (0, [2, 3])] [2, 1, 0, 3]) 1 2,
    -- 699: rdm2.ooov += einsum(tmp4, (0, 1), t1, (2, 3), (1, 2, 0, 3)) * -0.5
    .add 59 (.ein [(8, [0, 1]), (0, [2, 3])] [1, 2, 0, 3]) (-1) 2,
    -- 700: rdm2.ooov += einsum(delta.oo, (0, 1), t1, (2, 3), (2, 0, 1, 3)) * -1
    .add 59 (.ein [(4, [0, 1]), (0, [2, 3])] [2, 0, 1, 3]) (-1) 1,
    -- 701: rdm2.ooov += einsum(t1, (0, 1), delta.oo, (2, 3), (2, 0, 3, 1))
    .add 59 (.ein [(0, [0, 1]), (4, [2, 3])] [2, 0, 3, 1]) 1 1,
    -- 702: rdm2.ooov += einsum(tmp9, (0, 1), delta.oo, (2, 3), (0, 2, 3, 1)) * 0.5
    .add 59 (.ein [(37, [0, 1]), (4, [2, 3])] [0, 2, 3, 1]) 1 2,
    -- 703: rdm2.ooov += einsum(delta.oo, (0, 1), tmp9, (2, 3), (0, 2, 1, 3)) * -0.5
    .add 59 (.ein [(4, [0, 1]), (37, [2, 3])] [0, 2, 1, 3]) (-1) 2,
    -- 704: del tmp9
    .del 37,
    -- 705: rdm2.ooov += einsum(tmp3, (0, 1), t1, (2, 3), (2, 1, 0, 3))
    .add 59 (.ein [(6, [0, 1]), (0, [2, 3])] [2, 1, 0, 3]) 1 1,
    -- 706: rdm2.ooov += einsum(tmp3, (0, 1), t1, (2, 3), (1, 2, 0, 3)) * -1
    .add 59 (.ein [(6, [0, 1]), (0, [2, 3])] [1, 2, 0, 3]) (-1) 1,
    -- 707: rdm2.ooov += einsum(tmp12, (0, 1), delta.oo, (2, 3), (0, 2, 3, 1)) * -1
    .add 59 (.ein [(21, [0, 1]), (4, [2, 3])] [0, 2, 3, 1]) (-1) 1,
    -- 708: rdm2.ooov += einsum(delta.oo, (0, 1), tmp12, (2, 3), (0, 2, 1, 3))
    .add 59 (.ein [(4, [0, 1]), (21, [2, 3])] [0, 2, 1, 3]) 1 1,
    -- 709: del tmp12
    .del 21,
    -- 710: rdm2.ooov += einsum(t1, (0, 1), tmp13, (0, 2, 3, 4), (4, 3, 2, 1)) * -1
    .add 59 (.ein [(0, [0, 1]), (25, [0, 2, 3, 4])] [4, 3, 2, 1]) (-1) 1,
    -- 711: del tmp13
    .del 25,
    -- 712: rdm2.oooo = np.copy(np.transpose(tmp0, (3, 2, 1, 0))) * 0.5
    .set 60 (.tr 13 [3, 2, 1, 0]) 1 2,
    -- 713: del tmp0
    .del 13,
    -- 714: rdm2.oooo += np.transpose(tmp2, (2, 3, 1, 0)) * -1
    .add 60 (.tr 14 [2, 3, 1, 0]) (-1) 1,
    -- 715: del tmp2
    .del 14,
    -- 716: rdm2.oooo += einsum(delta.oo, (0, 1), delta.oo, (2, 3), (0, 2, 1, 3))
    .add 60 (.ein [(4, [0, 1]), (4, [2, 3])] [0, 2, 1, 3]) 1 1,
    -- 717: rdm2.oooo += einsum(delta.oo, (0, 1), delta.oo, (2, 3), (0, 2, 3, 1)) * -1
    .add 60 (.ein [(4, [0, 1]), (4, [2, 3])] [0, 2, 3, 1]) (-1) 1,
    -- 718: rdm2.oooo += einsum(tmp3, (0, 1), delta.oo, (2, 3), (1, 2, 0, 3)) * -1
    .add 60 (.ein [(6, [0, 1]), (4, [2, 3])] [1, 2, 0, 3]) (-1) 1,
    -- 719: rdm2.oooo += einsum(tmp3, (0, 1), delta.oo, (2, 3), (2, 1, 0, 3))
    .add 60 (.ein [(6, [0, 1]), (4, [2, 3])] [2, 1, 0, 3]) 1 1,
    -- 720: rdm2.oooo += einsum(tmp3, (0, 1), delta.oo, (2, 3), (1, 2, 3, 0))
    .add 60 (.ein [(6, [0, 1]), (4, [2, 3])] [1, 2, 3, 0]) 1 1,
    -- 721: rdm2.oooo += einsum(tmp3, (0, 1), delta.oo, (2, 3), (2, 1, 3, 0)) * -1
    .add 60 (.ein [(6, [0, 1]), (4, [2, 3])] [2, 1, 3, 0]) (-1) 1,
    -- 722: del tmp3
    .del 6,
    -- 723: rdm2.oooo += einsum(tmp4, (0, 1), delta.oo, (2, 3), (1, 2, 0, 3)) * -0.5
    .add 60 (.ein [(8, [0, 1]), (4, [2, 3])] [1, 2, 0, 3]) (-1) 2,
    -- 724: rdm2.oooo += einsum(delta.oo, (0, 1), tmp4, (2, 3), (0, 3, 2, 1)) * 0.5
    .add 60 (.ein [(4, [0, 1]), (8, [2, 3])] [0, 3, 2, 1]) 1 2,
    -- 725: rdm2.oooo += einsum(tmp4, (0, 1), delta.oo, (2, 3), (1, 2, 3, 0)) * 0.5
    .add 60 (.ein [(8, [0, 1]), (4, [2, 3])] [1, 2, 3, 0]) 1 2,
    -- 726: rdm2.oooo += einsum(tmp4, (0, 1), delta.oo, (2, 3), (2, 1, 3, 0)) * -0.5
    .add 60 (.ein [(8, [0, 1]), (4, [2, 3])] [2, 1, 3, 0]) (-1) 2,
    -- 727: del tmp4, delta
    .del 8,
    .del 4,
    .del 5,
    -- 729: rdm2 = np.transpose(rdm2, (0, 2, 1, 3))
    .set 61 (.tr 60 [0, 2, 1, 3]) 1 1,
    .set 62 (.tr 59 [0, 2, 1, 3]) 1 1,
    .set 63 (.tr 57 [0, 2, 1, 3]) 1 1,
    .set 64 (.tr 58 [0, 2, 1, 3]) 1 1,
    .set 65 (.tr 56 [0, 2, 1, 3]) 1 1,
    .set 66 (.tr 54 [0, 2, 1, 3]) 1 1,
    .set 67 (.tr 55 [0, 2, 1, 3]) 1 1,
    .set 68 (.tr 53 [0, 2, 1, 3]) 1 1,
    .set 69 (.tr 52 [0, 2, 1, 3]) 1 1,
    .set 70 (.tr 50 [0, 2, 1, 3]) 1 1,
    .set 71 (.tr 51 [0, 2, 1, 3]) 1 1,
    .set 72 (.tr 49 [0, 2, 1, 3]) 1 1,
    .set 73 (.tr 47 [0, 2, 1, 3]) 1 1,
    .set 74 (.tr 48 [0, 2, 1, 3]) 1 1,
    .set 75 (.tr 46 [0, 2, 1, 3]) 1 1,
    .set 76 (.tr 45 [0, 2, 1, 3]) 1 1
  ]
  ret := [(chars! "rdm2.oooo", 61), (chars! "rdm2.ooov", 62), (chars! "rdm2.oovo", 63), (chars! "rdm2.ovoo", 64), (chars! "rdm2.vooo", 65), (chars! "rdm2.oovv", 66), (chars! "rdm2.ovov", 67), (chars! "rdm2.ovvo", 68), (chars! "rdm2.voov", 69), (chars! "rdm2.vovo", 70), (chars! "rdm2.vvoo", 71), (chars! "rdm2.ovvv", 72), (chars! "rdm2.vovv", 73), (chars! "rdm2.vvov", 74), (chars! "rdm2.vvvo", 75), (chars! "rdm2.vvvv", 76)]

end Ebcc.Gen.GCCSD
