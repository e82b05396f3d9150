import Verif.Model.GenCode
/-!
Functions of `ebcc/codegen/RDFQCISD.py`, written by `tools/gencode.py`.  Comments give the
number and the text of the line of each statement.
-/

set_option maxRecDepth 100000

namespace Ebcc.Gen.RDFQCISD

/-- codegen/RDFQCISD.py:19-43 `energy`. -/
def energy : GenFun where
  args := [chars! "t2", chars! "v.xov"]
  body := [
    -- 36: tmp0 = np.copy(np.transpose(t2, (0, 1, 3, 2))) * 2
    .set 2 (.tr 0 [0, 1, 3, 2]) 2 1,
    -- 37: tmp0 += t2 * -1
    .add 2 (.cp 0) (-1) 1,
    -- 38: tmp1 = einsum(v.xov, (0, 1, 2), tmp0, (1, 3, 4, 2), (3, 4, 0)) * 0.5
    .set 3 (.ein [(1, [0, 1, 2]), (2, [1, 3, 4, 2])] [3, 4, 0]) 1 2,
    -- 39: del tmp0
    .del 2,
    -- 40: e_cc = einsum(v.xov, (0, 1, 2), tmp1, (1, 2, 0), ()) * 2
    .set 4 (.ein [(1, [0, 1, 2]), (3, [1, 2, 0])] []) 2 1,
    -- 41: del tmp1
    .del 3
  ]
  ret := [(chars! "e_cc", 4)]

/-- codegen/RDFQCISD.py:45-185 `update_amps`. -/
def update_amps : GenFun where
  args := [chars! "t2", chars! "v.xov", chars! "v.xoo", chars! "t1", chars! "v.xvv", chars! "f.vv", chars! "f.oo", chars! "f.ov"]
  body := [
    -- 68: tmp14 = einsum(t2, (0, 1, 2, 3), v.xov, (4, 1, 2), (0, 3, 4))
    .set 8 (.ein [(0, [0, 1, 2, 3]), (1, [4, 1, 2])] [0, 3, 4]) 1 1,
    -- 69: tmp19 = np.copy(np.transpose(v.xov, (1, 2, 0)))
    .set 9 (.tr 1 [1, 2, 0]) 1 1,
    -- 70: tmp19 += tmp14 * -1
    .add 9 (.cp 8) (-1) 1,
    -- 71: tmp13 = einsum(v.xov, (0, 1, 2), v.xov, (0, 3, 4), (1, 3, 2, 4))
    .set 10 (.ein [(1, [0, 1, 2]), (1, [0, 3, 4])] [1, 3, 2, 4]) 1 1,
    -- 72: tmp5 = np.copy(np.transpose(t2, (0, 1, 3, 2))) * 2
    .set 11 (.tr 0 [0, 1, 3, 2]) 2 1,
    -- 73: tmp5 += t2 * -1
    .add 11 (.cp 0) (-1) 1,
    -- 74: tmp6 = einsum(v.xoo, (0, 1, 2), t1, (2, 3), (1, 3, 0))
    .set 12 (.ein [(2, [0, 1, 2]), (3, [2, 3])] [1, 3, 0]) 1 1,
    -- 75: tmp20 = einsum(tmp19, (0, 1, 2), v.xov, (2, 3, 4), (0, 3, 1, 4))
    .set 13 (.ein [(9, [0, 1, 2]), (1, [2, 3, 4])] [0, 3, 1, 4]) 1 1,
    -- 76: del tmp19
    .del 9,
    -- 77: tmp18 = einsum(v.xoo, (0, 1, 2), v.xvv, (0, 3, 4), (1, 2, 3, 4))
    .set 14 (.ein [(2, [0, 1, 2]), (4, [0, 3, 4])] [1, 2, 3, 4]) 1 1,
    -- 78: tmp15 = einsum(t2, (0, 1, 2, 3), tmp13, (1, 4, 5, 2), (0, 4, 3, 5))
    .set 15 (.ein [(0, [0, 1, 2, 3]), (10, [1, 4, 5, 2])] [0, 4, 3, 5]) 1 1,
    -- 79: tmp26 = einsum(v.xov, (0, 1, 2), tmp5, (1, 3, 4, 2), (3, 4, 0))
    .set 16 (.ein [(1, [0, 1, 2]), (11, [1, 3, 4, 2])] [3, 4, 0]) 1 1,
    -- 80: tmp23 = np.copy(tmp6)
    .set 17 (.cp 12) 1 1,
    -- 81: tmp23 += tmp14
    .add 17 (.cp 8) 1 1,
    -- 82: tmp21 = np.copy(np.transpose(tmp18, (1, 0, 3, 2)))
    .set 18 (.tr 14 [1, 0, 3, 2]) 1 1,
    -- 83: tmp21 += tmp15 * -1
    .add 18 (.cp 15) (-1) 1,
    -- 84: tmp21 += tmp20 * -2
    .add 18 (.cp 13) (-2) 1,
    -- 85: del tmp20
    .del 13,
    -- 86: tmp33 = einsum(t1, (0, 1), v.xvv, (2, 3, 1), (0, 3, 2))
    .set 19 (.ein [(3, [0, 1]), (4, [2, 3, 1])] [0, 3, 2]) 1 1,
    -- 87: tmp27 = einsum(tmp26, (0, 1, 2), v.xov, (2, 0, 3), (1, 3)) * 0.5
    .set 20 (.ein [(16, [0, 1, 2]), (1, [2, 0, 3])] [1, 3]) 1 2,
    -- 88: tmp29 = einsum(tmp26, (0, 1, 2), v.xov, (2, 3, 1), (0, 3))
    .set 21 (.ein [(16, [0, 1, 2]), (1, [2, 3, 1])] [0, 3]) 1 1,
    -- 89: del tmp26
    .del 16,
    -- 90: tmp0 = einsum(v.xov, (0, 1, 2), t1, (1, 2), (0,))
    .set 22 (.ein [(1, [0, 1, 2]), (3, [1, 2])] [0]) 1 1,
    -- 91: tmp2 = einsum(v.xov, (0, 1, 2), t1, (3, 2), (3, 1, 0))
    .set 23 (.ein [(1, [0, 1, 2]), (3, [3, 2])] [3, 1, 0]) 1 1,
    -- 92: tmp38 = np.copy(np.transpose(tmp13, (1, 0, 2, 3))) * -1
    .set 24 (.tr 10 [1, 0, 2, 3]) (-1) 1,
    -- 93: tmp38 += np.transpose(tmp13, (1, 0, 3, 2)) * 2
    .add 24 (.tr 10 [1, 0, 3, 2]) 2 1,
    -- 94: tmp24 = einsum(v.xov, (0, 1, 2), tmp23, (3, 4, 0), (3, 1, 4, 2))
    .set 25 (.ein [(1, [0, 1, 2]), (17, [3, 4, 0])] [3, 1, 4, 2]) 1 1,
    -- 95: del tmp23
    .del 17,
    -- 96: tmp22 = einsum(t2, (0, 1, 2, 3), tmp21, (4, 1, 5, 3), (4, 0, 5, 2))
    .set 26 (.ein [(0, [0, 1, 2, 3]), (18, [4, 1, 5, 3])] [4, 0, 5, 2]) 1 1,
    -- 97: del tmp21
    .del 18,
    -- 98: tmp34 = einsum(tmp33, (0, 1, 2), v.xov, (2, 3, 4), (0, 3, 4, 1))
    .set 27 (.ein [(19, [0, 1, 2]), (1, [2, 3, 4])] [0, 3, 4, 1]) 1 1,
    -- 99: del tmp33
    .del 19,
    -- 100: tmp35 = einsum(tmp18, (0, 1, 2, 3), t2, (4, 1, 3, 5), (4, 0, 5, 2))
    .set 28 (.ein [(14, [0, 1, 2, 3]), (0, [4, 1, 3, 5])] [4, 0, 5, 2]) 1 1,
    -- 101: del tmp18
    .del 14,
    -- 102: tmp32 = einsum(t2, (0, 1, 2, 3), f.vv, (4, 3), (0, 1, 4, 2))
    .set 29 (.ein [(0, [0, 1, 2, 3]), (5, [4, 3])] [0, 1, 4, 2]) 1 1,
    -- 103: tmp28 = einsum(tmp27, (0, 1), t2, (2, 3, 1, 4), (2, 3, 0, 4)) * 2
    .set 30 (.ein [(20, [0, 1]), (0, [2, 3, 1, 4])] [2, 3, 0, 4]) 2 1,
    -- 104: del tmp27
    .del 20,
    -- 105: tmp30 = einsum(tmp29, (0, 1), t2, (2, 1, 3, 4), (0, 2, 4, 3))
    .set 31 (.ein [(21, [0, 1]), (0, [2, 1, 3, 4])] [0, 2, 4, 3]) 1 1,
    -- 106: del tmp29
    .del 21,
    -- 107: tmp1 = einsum(tmp0, (0,), v.xov, (0, 1, 2), (1, 2))
    .set 32 (.ein [(22, [0]), (1, [0, 1, 2])] [1, 2]) 1 1,
    -- 108: del tmp0
    .del 22,
    -- 109: tmp11 = einsum(v.xov, (0, 1, 2), tmp5, (1, 3, 4, 2), (3, 4, 0)) * 0.5
    .set 33 (.ein [(1, [0, 1, 2]), (11, [1, 3, 4, 2])] [3, 4, 0]) 1 2,
    -- 110: tmp7 = np.copy(np.transpose(t2, (0, 1, 3, 2)))
    .set 34 (.tr 0 [0, 1, 3, 2]) 1 1,
    -- 111: tmp7 += t2 * -0.5
    .add 34 (.cp 0) (-1) 2,
    -- 112: tmp3 = np.copy(np.transpose(v.xoo, (1, 2, 0)))
    .set 35 (.tr 2 [1, 2, 0]) 1 1,
    -- 113: tmp3 += np.transpose(tmp2, (1, 0, 2))
    .add 35 (.tr 23 [1, 0, 2]) 1 1,
    -- 114: tmp16 = einsum(v.xvv, (0, 1, 2), v.xvv, (0, 3, 4), (3, 1, 2, 4))
    .set 36 (.ein [(4, [0, 1, 2]), (4, [0, 3, 4])] [3, 1, 2, 4]) 1 1,
    -- 115: tmp39 = einsum(tmp38, (0, 1, 2, 3), t2, (4, 0, 5, 2), (4, 1, 5, 3))
    .set 37 (.ein [(24, [0, 1, 2, 3]), (0, [4, 0, 5, 2])] [4, 1, 5, 3]) 1 1,
    -- 116: del tmp38
    .del 24,
    -- 117: tmp25 = np.copy(np.transpose(tmp22, (1, 0, 3, 2)))
    .set 38 (.tr 26 [1, 0, 3, 2]) 1 1,
    -- 118: del tmp22
    .del 26,
    -- 119: tmp25 += tmp24
    .add 38 (.cp 25) 1 1,
    -- 120: del tmp24
    .del 25,
    -- 121: tmp36 = np.copy(tmp32)
    .set 39 (.cp 29) 1 1,
    -- 122: del tmp32
    .del 29,
    -- 123: tmp36 += tmp34
    .add 39 (.cp 27) 1 1,
    -- 124: del tmp34
    .del 27,
    -- 125: tmp36 += tmp35 * -1
    .add 39 (.cp 28) (-1) 1,
    -- 126: del tmp35
    .del 28,
    -- 127: tmp37 = einsum(v.xoo, (0, 1, 2), v.xoo, (0, 3, 4), (3, 1, 2, 4))
    .set 40 (.ein [(2, [0, 1, 2]), (2, [0, 3, 4])] [3, 1, 2, 4]) 1 1,
    -- 128: tmp37 += einsum(t2, (0, 1, 2, 3), tmp13, (4, 5, 3, 2), (4, 0, 5, 1))
    .add 40 (.ein [(0, [0, 1, 2, 3]), (10, [4, 5, 3, 2])] [4, 0, 5, 1]) 1 1,
    -- 129: tmp17 = einsum(f.oo, (0, 1), t2, (2, 1, 3, 4), (0, 2, 3, 4))
    .set 41 (.ein [(6, [0, 1]), (0, [2, 1, 3, 4])] [0, 2, 3, 4]) 1 1,
    -- 130: tmp31 = np.copy(np.transpose(tmp28, (1, 0, 3, 2)))
    .set 42 (.tr 30 [1, 0, 3, 2]) 1 1,
    -- 131: del tmp28
    .del 30,
    -- 132: tmp31 += np.transpose(tmp30, (1, 0, 3, 2))
    .add 42 (.tr 31 [1, 0, 3, 2]) 1 1,
    -- 133: del tmp30
    .del 31,
    -- 134: tmp9 = np.copy(f.ov)
    .set 43 (.cp 7) 1 1,
    -- 135: tmp9 += tmp1 * 2
    .add 43 (.cp 32) 2 1,
    -- 136: tmp9 += einsum(v.xov, (0, 1, 2), tmp2, (1, 3, 0), (3, 2)) * -1
    .add 43 (.ein [(1, [0, 1, 2]), (23, [1, 3, 0])] [3, 2]) (-1) 1,
    -- 137: del tmp2
    .del 23,
    -- 138: tmp12 = np.copy(f.oo)
    .set 44 (.cp 6) 1 1,
    -- 139: tmp12 += einsum(v.xov, (0, 1, 2), tmp11, (3, 2, 0), (1, 3)) * 2
    .add 44 (.ein [(1, [0, 1, 2]), (33, [3, 2, 0])] [1, 3]) 2 1,
    -- 140: del tmp11
    .del 33,
    -- 141: tmp8 = np.copy(tmp6) * 0.5
    .set 45 (.cp 12) 1 2,
    -- 142: del tmp6
    .del 12,
    -- 143: tmp8 += einsum(tmp7, (0, 1, 2, 3), v.xov, (4, 0, 3), (1, 2, 4)) * -1
    .add 45 (.ein [(34, [0, 1, 2, 3]), (1, [4, 0, 3])] [1, 2, 4]) (-1) 1,
    -- 144: del tmp7
    .del 34,
    -- 145: tmp4 = einsum(v.xov, (0, 1, 2), tmp3, (3, 4, 0), (4, 1, 3, 2))
    .set 46 (.ein [(1, [0, 1, 2]), (35, [3, 4, 0])] [4, 1, 3, 2]) 1 1,
    -- 146: del tmp3
    .del 35,
    -- 147: tmp10 = np.copy(np.transpose(t2, (0, 1, 3, 2))) * 2
    .set 47 (.tr 0 [0, 1, 3, 2]) 2 1,
    -- 148: tmp10 += t2 * -1
    .add 47 (.cp 0) (-1) 1,
    -- 149: t2new = np.copy(np.transpose(tmp13, (1, 0, 3, 2)))
    .set 48 (.tr 10 [1, 0, 3, 2]) 1 1,
    -- 150: del tmp13
    .del 10,
    -- 151: t2new += einsum(tmp14, (0, 1, 2), tmp14, (3, 4, 2), (0, 3, 1, 4))
    .add 48 (.ein [(8, [0, 1, 2]), (8, [3, 4, 2])] [0, 3, 1, 4]) 1 1,
    -- 152: del tmp14
    .del 8,
    -- 153: t2new += einsum(t2, (0, 1, 2, 3), tmp15, (4, 1, 5, 2), (0, 4, 5, 3))
    .add 48 (.ein [(0, [0, 1, 2, 3]), (15, [4, 1, 5, 2])] [0, 4, 5, 3]) 1 1,
    -- 154: del tmp15
    .del 15,
    -- 155: t2new += einsum(tmp16, (0, 1, 2, 3), t2, (4, 5, 3, 1), (4, 5, 0, 2))
    .add 48 (.ein [(36, [0, 1, 2, 3]), (0, [4, 5, 3, 1])] [4, 5, 0, 2]) 1 1,
    -- 156: del tmp16
    .del 36,
    -- 157: t2new += np.transpose(tmp17, (0, 1, 3, 2)) * -1
    .add 48 (.tr 41 [0, 1, 3, 2]) (-1) 1,
    -- 158: t2new += np.transpose(tmp17, (1, 0, 2, 3)) * -1
    .add 48 (.tr 41 [1, 0, 2, 3]) (-1) 1,
    -- 159: del tmp17
    .del 41,
    -- 160: t2new += tmp25 * -1
    .add 48 (.cp 38) (-1) 1,
    -- 161: t2new += np.transpose(tmp25, (1, 0, 3, 2)) * -1
    .add 48 (.tr 38 [1, 0, 3, 2]) (-1) 1,
    -- 162: del tmp25
    .del 38,
    -- 163: t2new += tmp31 * -1
    .add 48 (.cp 42) (-1) 1,
    -- 164: t2new += np.transpose(tmp31, (1, 0, 3, 2)) * -1
    .add 48 (.tr 42 [1, 0, 3, 2]) (-1) 1,
    -- 165: del tmp31
    .del 42,
    -- 166: t2new += np.transpose(tmp36, (0, 1, 3, 2))
    .add 48 (.tr 39 [0, 1, 3, 2]) 1 1,
    -- 167: t2new += np.transpose(tmp36, (1, 0, 2, 3))
    .add 48 (.tr 39 [1, 0, 2, 3]) 1 1,
    -- 168: del tmp36
    .del 39,
    -- 169: t2new += einsum(tmp37, (0, 1, 2, 3), t2, (0, 2, 4, 5), (1, 3, 5, 4))
    .add 48 (.ein [(40, [0, 1, 2, 3]), (0, [0, 2, 4, 5])] [1, 3, 5, 4]) 1 1,
    -- 170: del tmp37
    .del 40,
    -- 171: t2new += einsum(tmp39, (0, 1, 2, 3), t2, (4, 1, 5, 3), (0, 4, 2, 5)) * 2
    .add 48 (.ein [(37, [0, 1, 2, 3]), (0, [4, 1, 5, 3])] [0, 4, 2, 5]) 2 1,
    -- 172: del tmp39
    .del 37,
    -- 173: t1new = np.copy(tmp1) * 2
    .set 49 (.cp 32) 2 1,
    -- 174: del tmp1
    .del 32,
    -- 175: t1new += einsum(f.vv, (0, 1), t1, (2, 1), (2, 0))
    .add 49 (.ein [(5, [0, 1]), (3, [2, 1])] [2, 0]) 1 1,
    -- 176: t1new += einsum(tmp5, (0, 1, 2, 3), tmp4, (4, 0, 1, 3), (4, 2)) * -1
    .add 49 (.ein [(11, [0, 1, 2, 3]), (46, [4, 0, 1, 3])] [4, 2]) (-1) 1,
    -- 177: del tmp5, tmp4
    .del 11,
    .del 46,
    -- 178: t1new += einsum(v.xvv, (0, 1, 2), tmp8, (3, 2, 0), (3, 1)) * -2
    .add 49 (.ein [(4, [0, 1, 2]), (45, [3, 2, 0])] [3, 1]) (-2) 1,
    -- 179: del tmp8
    .del 45,
    -- 180: t1new += einsum(tmp9, (0, 1), tmp10, (0, 2, 3, 1), (2, 3))
    .add 49 (.ein [(43, [0, 1]), (47, [0, 2, 3, 1])] [2, 3]) 1 1,
    -- 181: del tmp9, tmp10
    .del 43,
    .del 47,
    -- 182: t1new += einsum(t1, (0, 1), tmp12, (0, 2), (2, 1)) * -1
    .add 49 (.ein [(3, [0, 1]), (44, [0, 2])] [2, 1]) (-1) 1,
    -- 183: del tmp12
    .del 44
  ]
  ret := [(chars! "t1new", 49), (chars! "t2new", 48)]

end Ebcc.Gen.RDFQCISD
