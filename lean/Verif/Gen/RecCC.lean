import Verif.Model.GenCode
/-!
Functions of `ebcc/codegen/RecCC.py`, written by `tools/gencode.py`.  Comments give the
number and the text of the line of each statement.
-/

set_option maxRecDepth 100000

namespace Ebcc.Gen.RecCC

/-- codegen/RecCC.py:166-178 `convert_c1_to_t1`. -/
def convert_c1_to_t1 : GenFun where
  args := [chars! "c1"]
  body := [
    -- 176: t1 = np.copy(c1)
    .set 1 (.cp 0) 1 1
  ]
  ret := [(chars! "t1", 1)]

/-- codegen/RecCC.py:319-331 `convert_t1_to_c1`. -/
def convert_t1_to_c1 : GenFun where
  args := [chars! "t1"]
  body := [
    -- 329: c1 = np.copy(t1)
    .set 1 (.cp 0) 1 1
  ]
  ret := [(chars! "c1", 1)]

/-- codegen/RecCC.py:180-194 `convert_c2_to_t2`. -/
def convert_c2_to_t2 : GenFun where
  args := [chars! "t1", chars! "c2"]
  body := [
    -- 191: t2 = einsum(t1, (0, 1), t1, (2, 3), (2, 0, 3, 1)) * -1
    .set 2 (.ein [(0, [0, 1]), (0, [2, 3])] [2, 0, 3, 1]) (-1) 1,
    -- 192: t2 += c2
    .add 2 (.cp 1) 1 1
  ]
  ret := [(chars! "t2", 2)]

/-- codegen/RecCC.py:333-347 `convert_t2_to_c2`. -/
def convert_t2_to_c2 : GenFun where
  args := [chars! "t1", chars! "t2"]
  body := [
    -- 344: c2 = einsum(t1, (0, 1), t1, (2, 3), (2, 0, 3, 1))
    .set 2 (.ein [(0, [0, 1]), (0, [2, 3])] [2, 0, 3, 1]) 1 1,
    -- 345: c2 += t2
    .add 2 (.cp 1) 1 1
  ]
  ret := [(chars! "c2", 2)]

/-- codegen/RecCC.py:196-221 `convert_c3_to_t3`. -/
def convert_c3_to_t3 : GenFun where
  args := [chars! "c3", chars! "t2", chars! "t1"]
  body := [
    -- 208: t3 = np.copy(c3)
    .set 3 (.cp 0) 1 1,
    -- 209: t3 += einsum(t2, (0, 1, 2, 3), t1, (4, 5), (4, 0, 1, 5, 2, 3)) * -1
    .add 3 (.ein [(1, [0, 1, 2, 3]), (2, [4, 5])] [4, 0, 1, 5, 2, 3]) (-1) 1,
    -- 210: t3 += einsum(t2, (0, 1, 2, 3), t1, (4, 5), (4, 0, 1, 3, 2, 5))
    .add 3 (.ein [(1, [0, 1, 2, 3]), (2, [4, 5])] [4, 0, 1, 3, 2, 5]) 1 1,
    -- 211: t3 += einsum(t2, (0, 1, 2, 3), t1, (4, 5), (0, 1, 4, 5, 3, 2))
    .add 3 (.ein [(1, [0, 1, 2, 3]), (2, [4, 5])] [0, 1, 4, 5, 3, 2]) 1 1,
    -- 212: t3 += einsum(t1, (0, 1), t2, (2, 3, 4, 5), (2, 3, 0, 4, 5, 1)) * -1
    .add 3 (.ein [(2, [0, 1]), (1, [2, 3, 4, 5])] [2, 3, 0, 4, 5, 1]) (-1) 1,
    -- 213: tmp0 = np.copy(t2)
    .set 4 (.cp 1) 1 1,
    -- 214: tmp0 += einsum(t1, (0, 1), t1, (2, 3), (2, 0, 3, 1))
    .add 4 (.ein [(2, [0, 1]), (2, [2, 3])] [2, 0, 3, 1]) 1 1,
    -- 215: tmp1 = np.copy(np.transpose(tmp0, (0, 1, 3, 2))) * -1
    .set 5 (.tr 4 [0, 1, 3, 2]) (-1) 1,
    -- 216: tmp1 += tmp0
    .add 5 (.cp 4) 1 1,
    -- 217: del tmp0
    .del 4,
    -- 218: t3 += einsum(tmp1, (0, 1, 2, 3), t1, (4, 5), (1, 4, 0, 3, 5, 2)) * -1
    .add 3 (.ein [(5, [0, 1, 2, 3]), (2, [4, 5])] [1, 4, 0, 3, 5, 2]) (-1) 1,
    -- 219: del tmp1
    .del 5
  ]
  ret := [(chars! "t3", 3)]

/-- codegen/RecCC.py:349-374 `convert_t3_to_c3`. -/
def convert_t3_to_c3 : GenFun where
  args := [chars! "t3", chars! "t2", chars! "t1"]
  body := [
    -- 361: c3 = np.copy(t3)
    .set 3 (.cp 0) 1 1,
    -- 362: c3 += einsum(t2, (0, 1, 2, 3), t1, (4, 5), (4, 0, 1, 5, 2, 3))
    .add 3 (.ein [(1, [0, 1, 2, 3]), (2, [4, 5])] [4, 0, 1, 5, 2, 3]) 1 1,
    -- 363: c3 += einsum(t2, (0, 1, 2, 3), t1, (4, 5), (4, 0, 1, 3, 2, 5)) * -1
    .add 3 (.ein [(1, [0, 1, 2, 3]), (2, [4, 5])] [4, 0, 1, 3, 2, 5]) (-1) 1,
    -- 364: c3 += einsum(t2, (0, 1, 2, 3), t1, (4, 5), (0, 1, 4, 5, 3, 2)) * -1
    .add 3 (.ein [(1, [0, 1, 2, 3]), (2, [4, 5])] [0, 1, 4, 5, 3, 2]) (-1) 1,
    -- 365: c3 += einsum(t1, (0, 1), t2, (2, 3, 4, 5), (2, 3, 0, 4, 5, 1))
    .add 3 (.ein [(2, [0, 1]), (1, [2, 3, 4, 5])] [2, 3, 0, 4, 5, 1]) 1 1,
    -- 366: tmp0 = np.copy(t2)
    .set 4 (.cp 1) 1 1,
    -- 367: tmp0 += einsum(t1, (0, 1), t1, (2, 3), (2, 0, 3, 1))
    .add 4 (.ein [(2, [0, 1]), (2, [2, 3])] [2, 0, 3, 1]) 1 1,
    -- 368: tmp1 = np.copy(np.transpose(tmp0, (0, 1, 3, 2)))
    .set 5 (.tr 4 [0, 1, 3, 2]) 1 1,
    -- 369: tmp1 += tmp0 * -1
    .add 5 (.cp 4) (-1) 1,
    -- 370: del tmp0
    .del 4,
    -- 371: c3 += einsum(tmp1, (0, 1, 2, 3), t1, (4, 5), (1, 4, 0, 3, 5, 2)) * -1
    .add 3 (.ein [(5, [0, 1, 2, 3]), (2, [4, 5])] [1, 4, 0, 3, 5, 2]) (-1) 1,
    -- 372: del tmp1
    .del 5
  ]
  ret := [(chars! "c3", 3)]

/-- codegen/RecCC.py:223-317 `convert_c4_to_t4`. -/
def convert_c4_to_t4 : GenFun where
  args := [chars! "c4", chars! "t2", chars! "t3", chars! "t1", chars! "c4a"]
  body := [
    -- 238: t4 = np.copy(c4)
    .set 5 (.cp 0) 1 1,
    -- 239: t4 += einsum(t2, (0, 1, 2, 3), t2, (4, 5, 6, 7), (4, 0, 1, 5, 3, 2, 6, 7))
    .add 5 (.ein [(1, [0, 1, 2, 3]), (1, [4, 5, 6, 7])] [4, 0, 1, 5, 3, 2, 6, 7]) 1 1,
    -- 240: t4 += einsum(t2, (0, 1, 2, 3), t2, (4, 5, 6, 7), (0, 4, 5, 1, 2, 6, 7, 3)) * -1
    .add 5 (.ein [(1, [0, 1, 2, 3]), (1, [4, 5, 6, 7])] [0, 4, 5, 1, 2, 6, 7, 3]) (-1) 1,
    -- 241: t4 += einsum(t2, (0, 1, 2, 3), t2, (4, 5, 6, 7), (0, 4, 5, 1, 7, 3, 2, 6)) * -1
    .add 5 (.ein [(1, [0, 1, 2, 3]), (1, [4, 5, 6, 7])] [0, 4, 5, 1, 7, 3, 2, 6]) (-1) 1,
    -- 242: t4 += einsum(t2, (0, 1, 2, 3), t2, (4, 5, 6, 7), (0, 4, 5, 1, 2, 3, 7, 6))
    .add 5 (.ein [(1, [0, 1, 2, 3]), (1, [4, 5, 6, 7])] [0, 4, 5, 1, 2, 3, 7, 6]) 1 1,
    -- 243: t4 += einsum(t2, (0, 1, 2, 3), t2, (4, 5, 6, 7), (4, 5, 0, 1, 2, 3, 6, 7)) * -1
    .add 5 (.ein [(1, [0, 1, 2, 3]), (1, [4, 5, 6, 7])] [4, 5, 0, 1, 2, 3, 6, 7]) (-1) 1,
    -- 244: t4 += einsum(t2, (0, 1, 2, 3), t2, (4, 5, 6, 7), (4, 5, 0, 1, 6, 3, 2, 7))
    .add 5 (.ein [(1, [0, 1, 2, 3]), (1, [4, 5, 6, 7])] [4, 5, 0, 1, 6, 3, 2, 7]) 1 1,
    -- 245: t4 += einsum(t2, (0, 1, 2, 3), t2, (4, 5, 6, 7), (4, 5, 0, 1, 2, 7, 6, 3))
    .add 5 (.ein [(1, [0, 1, 2, 3]), (1, [4, 5, 6, 7])] [4, 5, 0, 1, 2, 7, 6, 3]) 1 1,
    -- 246: t4 += einsum(t2, (0, 1, 2, 3), t2, (4, 5, 6, 7), (4, 5, 0, 1, 6, 7, 2, 3)) * -1
    .add 5 (.ein [(1, [0, 1, 2, 3]), (1, [4, 5, 6, 7])] [4, 5, 0, 1, 6, 7, 2, 3]) (-1) 1,
    -- 247: t4 += einsum(t3, (0, 1, 2, 3, 4, 5), t1, (6, 7), (0, 6, 2, 1, 3, 7, 5, 4)) * -1
    .add 5 (.ein [(2, [0, 1, 2, 3, 4, 5]), (3, [6, 7])] [0, 6, 2, 1, 3, 7, 5, 4]) (-1) 1,
    -- 248: t4 += einsum(t3, (0, 1, 2, 3, 4, 5), t1, (6, 7), (0, 6, 2, 1, 5, 4, 3, 7)) * -1
    .add 5 (.ein [(2, [0, 1, 2, 3, 4, 5]), (3, [6, 7])] [0, 6, 2, 1, 5, 4, 3, 7]) (-1) 1,
    -- 249: t4 += einsum(t1, (0, 1), t3, (2, 3, 4, 5, 6, 7), (2, 3, 4, 0, 7, 1, 5, 6)) * -1
    .add 5 (.ein [(3, [0, 1]), (2, [2, 3, 4, 5, 6, 7])] [2, 3, 4, 0, 7, 1, 5, 6]) (-1) 1,
    -- 250: t4 += einsum(t1, (0, 1), t3, (2, 3, 4, 5, 6, 7), (2, 3, 4, 0, 5, 6, 7, 1)) * -1
    .add 5 (.ein [(3, [0, 1]), (2, [2, 3, 4, 5, 6, 7])] [2, 3, 4, 0, 5, 6, 7, 1]) (-1) 1,
    -- 251: tmp0 = np.copy(t2)
    .set 6 (.cp 1) 1 1,
    -- 252: tmp0 += einsum(t1, (0, 1), t1, (2, 3), (2, 0, 3, 1))
    .add 6 (.ein [(3, [0, 1]), (3, [2, 3])] [2, 0, 3, 1]) 1 1,
    -- 253: tmp2 = np.copy(np.transpose(tmp0, (0, 1, 3, 2)))
    .set 7 (.tr 6 [0, 1, 3, 2]) 1 1,
    -- 254: tmp2 += tmp0 * -1
    .add 7 (.cp 6) (-1) 1,
    -- 255: tmp1 = np.copy(np.transpose(tmp0, (0, 1, 3, 2))) * -1
    .set 8 (.tr 6 [0, 1, 3, 2]) (-1) 1,
    -- 256: tmp1 += tmp0
    .add 8 (.cp 6) 1 1,
    -- 257: del tmp0
    .del 6,
    -- 258: t4 += einsum(tmp2, (0, 1, 2, 3), tmp1, (4, 5, 6, 7), (5, 1, 4, 0, 7, 2, 6, 3)) * -1
    .add 5 (.ein [(7, [0, 1, 2, 3]), (8, [4, 5, 6, 7])] [5, 1, 4, 0, 7, 2, 6, 3]) (-1) 1,
    -- 259: tmp3 = np.copy(np.transpose(t3, (0, 2, 1, 3, 5, 4)))
    .set 9 (.tr 2 [0, 2, 1, 3, 5, 4]) 1 1,
    -- 260: tmp3 += einsum(t2, (0, 1, 2, 3), t1, (4, 5), (4, 0, 1, 5, 2, 3))
    .add 9 (.ein [(1, [0, 1, 2, 3]), (3, [4, 5])] [4, 0, 1, 5, 2, 3]) 1 1,
    -- 261: tmp3 += einsum(t2, (0, 1, 2, 3), t1, (4, 5), (4, 0, 1, 2, 5, 3)) * -1
    .add 9 (.ein [(1, [0, 1, 2, 3]), (3, [4, 5])] [4, 0, 1, 2, 5, 3]) (-1) 1,
    -- 262: tmp3 += einsum(t2, (0, 1, 2, 3), t1, (4, 5), (0, 4, 1, 5, 2, 3)) * -1
    .add 9 (.ein [(1, [0, 1, 2, 3]), (3, [4, 5])] [0, 4, 1, 5, 2, 3]) (-1) 1,
    -- 263: tmp3 += einsum(t2, (0, 1, 2, 3), t1, (4, 5), (0, 4, 1, 2, 5, 3))
    .add 9 (.ein [(1, [0, 1, 2, 3]), (3, [4, 5])] [0, 4, 1, 2, 5, 3]) 1 1,
    -- 264: t4 += einsum(tmp3, (0, 1, 2, 3, 4, 5), t1, (6, 7), (6, 1, 2, 0, 7, 4, 5, 3)) * -1
    .add 5 (.ein [(9, [0, 1, 2, 3, 4, 5]), (3, [6, 7])] [6, 1, 2, 0, 7, 4, 5, 3]) (-1) 1,
    -- 265: t4 += einsum(t1, (0, 1), tmp3, (2, 3, 4, 5, 6, 7), (0, 3, 4, 2, 7, 5, 1, 6)) * -1
    .add 5 (.ein [(3, [0, 1]), (9, [2, 3, 4, 5, 6, 7])] [0, 3, 4, 2, 7, 5, 1, 6]) (-1) 1,
    -- 266: t4 += einsum(t1, (0, 1), tmp3, (2, 3, 4, 5, 6, 7), (4, 3, 0, 2, 1, 5, 7, 6)) * -1
    .add 5 (.ein [(3, [0, 1]), (9, [2, 3, 4, 5, 6, 7])] [4, 3, 0, 2, 1, 5, 7, 6]) (-1) 1,
    -- 267: t4 += einsum(t1, (0, 1), tmp3, (2, 3, 4, 5, 6, 7), (4, 3, 0, 2, 7, 6, 1, 5)) * -1
    .add 5 (.ein [(3, [0, 1]), (9, [2, 3, 4, 5, 6, 7])] [4, 3, 0, 2, 7, 6, 1, 5]) (-1) 1,
    -- 268: t4a = np.copy(np.transpose(c4a, (0, 1, 3, 2, 4, 5, 7, 6)))
    .set 10 (.tr 4 [0, 1, 3, 2, 4, 5, 7, 6]) 1 1,
    -- 269: t4a += einsum(t3, (0, 1, 2, 3, 4, 5), t1, (6, 7), (6, 1, 0, 2, 7, 4, 3, 5)) * -1
    .add 10 (.ein [(2, [0, 1, 2, 3, 4, 5]), (3, [6, 7])] [6, 1, 0, 2, 7, 4, 3, 5]) (-1) 1,
    -- 270: t4a += einsum(t3, (0, 1, 2, 3, 4, 5), t1, (6, 7), (6, 1, 0, 2, 5, 4, 7, 3)) * -1
    .add 10 (.ein [(2, [0, 1, 2, 3, 4, 5]), (3, [6, 7])] [6, 1, 0, 2, 5, 4, 7, 3]) (-1) 1,
    -- 271: t4a += einsum(t1, (0, 1), t3, (2, 3, 4, 5, 6, 7), (2, 3, 0, 4, 1, 6, 7, 5)) * -1
    .add 10 (.ein [(3, [0, 1]), (2, [2, 3, 4, 5, 6, 7])] [2, 3, 0, 4, 1, 6, 7, 5]) (-1) 1,
    -- 272: t4a += einsum(t3, (0, 1, 2, 3, 4, 5), t1, (6, 7), (0, 1, 6, 2, 3, 4, 7, 5)) * -1
    .add 10 (.ein [(2, [0, 1, 2, 3, 4, 5]), (3, [6, 7])] [0, 1, 6, 2, 3, 4, 7, 5]) (-1) 1,
    -- 273: t4a += einsum(t1, (0, 1), t3, (2, 3, 4, 5, 6, 7), (2, 3, 4, 0, 1, 6, 7, 5))
    .add 10 (.ein [(3, [0, 1]), (2, [2, 3, 4, 5, 6, 7])] [2, 3, 4, 0, 1, 6, 7, 5]) 1 1,
    -- 274: t4a += einsum(t1, (0, 1), t3, (2, 3, 4, 5, 6, 7), (2, 3, 4, 0, 5, 6, 1, 7))
    .add 10 (.ein [(3, [0, 1]), (2, [2, 3, 4, 5, 6, 7])] [2, 3, 4, 0, 5, 6, 1, 7]) 1 1,
    -- 275: t4a += einsum(t2, (0, 1, 2, 3), t2, (4, 5, 6, 7), (4, 0, 1, 5, 3, 2, 6, 7))
    .add 10 (.ein [(1, [0, 1, 2, 3]), (1, [4, 5, 6, 7])] [4, 0, 1, 5, 3, 2, 6, 7]) 1 1,
    -- 276: t4a += einsum(t2, (0, 1, 2, 3), t2, (4, 5, 6, 7), (4, 0, 1, 5, 3, 2, 7, 6)) * -1
    .add 10 (.ein [(1, [0, 1, 2, 3]), (1, [4, 5, 6, 7])] [4, 0, 1, 5, 3, 2, 7, 6]) (-1) 1,
    -- 277: t4a += einsum(t2, (0, 1, 2, 3), t2, (4, 5, 6, 7), (0, 4, 5, 1, 2, 6, 7, 3)) * -1
    .add 10 (.ein [(1, [0, 1, 2, 3]), (1, [4, 5, 6, 7])] [0, 4, 5, 1, 2, 6, 7, 3]) (-1) 1,
    -- 278: t4a += einsum(t2, (0, 1, 2, 3), t2, (4, 5, 6, 7), (0, 4, 5, 1, 3, 6, 7, 2))
    .add 10 (.ein [(1, [0, 1, 2, 3]), (1, [4, 5, 6, 7])] [0, 4, 5, 1, 3, 6, 7, 2]) 1 1,
    -- 279: t4a += einsum(t2, (0, 1, 2, 3), t2, (4, 5, 6, 7), (4, 0, 5, 1, 3, 2, 6, 7)) * -1
    .add 10 (.ein [(1, [0, 1, 2, 3]), (1, [4, 5, 6, 7])] [4, 0, 5, 1, 3, 2, 6, 7]) (-1) 1,
    -- 280: t4a += einsum(t2, (0, 1, 2, 3), t2, (4, 5, 6, 7), (0, 4, 1, 5, 7, 6, 3, 2))
    .add 10 (.ein [(1, [0, 1, 2, 3]), (1, [4, 5, 6, 7])] [0, 4, 1, 5, 7, 6, 3, 2]) 1 1,
    -- 281: t4a += einsum(t2, (0, 1, 2, 3), t2, (4, 5, 6, 7), (4, 0, 5, 1, 6, 2, 3, 7))
    .add 10 (.ein [(1, [0, 1, 2, 3]), (1, [4, 5, 6, 7])] [4, 0, 5, 1, 6, 2, 3, 7]) 1 1,
    -- 282: t4a += einsum(t2, (0, 1, 2, 3), t2, (4, 5, 6, 7), (4, 0, 5, 1, 7, 2, 3, 6)) * -1
    .add 10 (.ein [(1, [0, 1, 2, 3]), (1, [4, 5, 6, 7])] [4, 0, 5, 1, 7, 2, 3, 6]) (-1) 1,
    -- 283: t4a += einsum(t2, (0, 1, 2, 3), t2, (4, 5, 6, 7), (0, 1, 4, 5, 7, 3, 2, 6)) * -1
    .add 10 (.ein [(1, [0, 1, 2, 3]), (1, [4, 5, 6, 7])] [0, 1, 4, 5, 7, 3, 2, 6]) (-1) 1,
    -- 284: t4a += einsum(t2, (0, 1, 2, 3), t2, (4, 5, 6, 7), (4, 5, 0, 1, 6, 7, 3, 2))
    .add 10 (.ein [(1, [0, 1, 2, 3]), (1, [4, 5, 6, 7])] [4, 5, 0, 1, 6, 7, 3, 2]) 1 1,
    -- 285: t4a += einsum(t2, (0, 1, 2, 3), t2, (4, 5, 6, 7), (4, 5, 0, 1, 2, 7, 6, 3))
    .add 10 (.ein [(1, [0, 1, 2, 3]), (1, [4, 5, 6, 7])] [4, 5, 0, 1, 2, 7, 6, 3]) 1 1,
    -- 286: t4a += einsum(t2, (0, 1, 2, 3), t2, (4, 5, 6, 7), (4, 5, 0, 1, 6, 7, 2, 3)) * -1
    .add 10 (.ein [(1, [0, 1, 2, 3]), (1, [4, 5, 6, 7])] [4, 5, 0, 1, 6, 7, 2, 3]) (-1) 1,
    -- 287: tmp4 = np.copy(np.transpose(t3, (0, 2, 1, 5, 4, 3)))
    .set 11 (.tr 2 [0, 2, 1, 5, 4, 3]) 1 1,
    -- 288: tmp4 += np.transpose(t3, (0, 2, 1, 3, 5, 4))
    .add 11 (.tr 2 [0, 2, 1, 3, 5, 4]) 1 1,
    -- 289: tmp4 += np.transpose(t3, (0, 2, 1, 4, 3, 5))
    .add 11 (.tr 2 [0, 2, 1, 4, 3, 5]) 1 1,
    -- 290: tmp4 += einsum(t2, (0, 1, 2, 3), t1, (4, 5), (0, 4, 1, 5, 3, 2))
    .add 11 (.ein [(1, [0, 1, 2, 3]), (3, [4, 5])] [0, 4, 1, 5, 3, 2]) 1 1,
    -- 291: tmp4 += einsum(t2, (0, 1, 2, 3), t1, (4, 5), (0, 4, 1, 5, 2, 3)) * -1
    .add 11 (.ein [(1, [0, 1, 2, 3]), (3, [4, 5])] [0, 4, 1, 5, 2, 3]) (-1) 1,
    -- 292: tmp4 += einsum(t1, (0, 1), t2, (2, 3, 4, 5), (2, 0, 3, 5, 1, 4)) * -1
    .add 11 (.ein [(3, [0, 1]), (1, [2, 3, 4, 5])] [2, 0, 3, 5, 1, 4]) (-1) 1,
    -- 293: tmp4 += einsum(t2, (0, 1, 2, 3), t1, (4, 5), (0, 4, 1, 2, 5, 3))
    .add 11 (.ein [(1, [0, 1, 2, 3]), (3, [4, 5])] [0, 4, 1, 2, 5, 3]) 1 1,
    -- 294: tmp4 += einsum(t1, (0, 1), t2, (2, 3, 4, 5), (2, 0, 3, 5, 4, 1))
    .add 11 (.ein [(3, [0, 1]), (1, [2, 3, 4, 5])] [2, 0, 3, 5, 4, 1]) 1 1,
    -- 295: tmp4 += einsum(t1, (0, 1), t2, (2, 3, 4, 5), (2, 0, 3, 4, 5, 1)) * -1
    .add 11 (.ein [(3, [0, 1]), (1, [2, 3, 4, 5])] [2, 0, 3, 4, 5, 1]) (-1) 1,
    -- 296: tmp4 += einsum(t2, (0, 1, 2, 3), t1, (4, 5), (0, 1, 4, 5, 3, 2)) * -1
    .add 11 (.ein [(1, [0, 1, 2, 3]), (3, [4, 5])] [0, 1, 4, 5, 3, 2]) (-1) 1,
    -- 297: tmp4 += einsum(t2, (0, 1, 2, 3), t1, (4, 5), (0, 1, 4, 5, 2, 3))
    .add 11 (.ein [(1, [0, 1, 2, 3]), (3, [4, 5])] [0, 1, 4, 5, 2, 3]) 1 1,
    -- 298: tmp4 += einsum(t2, (0, 1, 2, 3), t1, (4, 5), (0, 1, 4, 3, 5, 2))
    .add 11 (.ein [(1, [0, 1, 2, 3]), (3, [4, 5])] [0, 1, 4, 3, 5, 2]) 1 1,
    -- 299: tmp4 += einsum(t1, (0, 1), t2, (2, 3, 4, 5), (2, 3, 0, 4, 1, 5)) * -1
    .add 11 (.ein [(3, [0, 1]), (1, [2, 3, 4, 5])] [2, 3, 0, 4, 1, 5]) (-1) 1,
    -- 300: tmp4 += einsum(t2, (0, 1, 2, 3), t1, (4, 5), (0, 1, 4, 3, 2, 5)) * -1
    .add 11 (.ein [(1, [0, 1, 2, 3]), (3, [4, 5])] [0, 1, 4, 3, 2, 5]) (-1) 1,
    -- 301: tmp4 += einsum(t1, (0, 1), t2, (2, 3, 4, 5), (2, 3, 0, 4, 5, 1))
    .add 11 (.ein [(3, [0, 1]), (1, [2, 3, 4, 5])] [2, 3, 0, 4, 5, 1]) 1 1,
    -- 302: tmp4 += einsum(tmp1, (0, 1, 2, 3), t1, (4, 5), (4, 1, 0, 5, 2, 3)) * -1
    .add 11 (.ein [(8, [0, 1, 2, 3]), (3, [4, 5])] [4, 1, 0, 5, 2, 3]) (-1) 1,
    -- 303: tmp4 += einsum(tmp1, (0, 1, 2, 3), t1, (4, 5), (4, 1, 0, 3, 5, 2)) * -1
    .add 11 (.ein [(8, [0, 1, 2, 3]), (3, [4, 5])] [4, 1, 0, 3, 5, 2]) (-1) 1,
    -- 304: tmp4 += einsum(tmp1, (0, 1, 2, 3), t1, (4, 5), (4, 1, 0, 3, 2, 5))
    .add 11 (.ein [(8, [0, 1, 2, 3]), (3, [4, 5])] [4, 1, 0, 3, 2, 5]) 1 1,
    -- 305: t4a += einsum(t1, (0, 1), tmp4, (2, 3, 4, 5, 6, 7), (3, 0, 4, 2, 7, 1, 5, 6)) * -1
    .add 10 (.ein [(3, [0, 1]), (11, [2, 3, 4, 5, 6, 7])] [3, 0, 4, 2, 7, 1, 5, 6]) (-1) 1,
    -- 306: del tmp4
    .del 11,
    -- 307: t4a += einsum(tmp3, (0, 1, 2, 3, 4, 5), t1, (6, 7), (6, 2, 1, 0, 3, 5, 4, 7))
    .add 10 (.ein [(9, [0, 1, 2, 3, 4, 5]), (3, [6, 7])] [6, 2, 1, 0, 3, 5, 4, 7]) 1 1,
    -- 308: t4a += einsum(t1, (0, 1), tmp3, (2, 3, 4, 5, 6, 7), (3, 4, 0, 2, 6, 7, 5, 1))
    .add 10 (.ein [(3, [0, 1]), (9, [2, 3, 4, 5, 6, 7])] [3, 4, 0, 2, 6, 7, 5, 1]) 1 1,
    -- 309: t4a += einsum(t1, (0, 1), tmp3, (2, 3, 4, 5, 6, 7), (3, 4, 2, 0, 6, 7, 5, 1)) * -1
    .add 10 (.ein [(3, [0, 1]), (9, [2, 3, 4, 5, 6, 7])] [3, 4, 2, 0, 6, 7, 5, 1]) (-1) 1,
    -- 310: del tmp3
    .del 9,
    -- 311: t4a += einsum(tmp2, (0, 1, 2, 3), t2, (4, 5, 6, 7), (4, 5, 1, 0, 3, 7, 2, 6))
    .add 10 (.ein [(7, [0, 1, 2, 3]), (1, [4, 5, 6, 7])] [4, 5, 1, 0, 3, 7, 2, 6]) 1 1,
    -- 312: t4a += einsum(tmp2, (0, 1, 2, 3), t2, (4, 5, 6, 7), (1, 4, 0, 5, 3, 6, 2, 7))
    .add 10 (.ein [(7, [0, 1, 2, 3]), (1, [4, 5, 6, 7])] [1, 4, 0, 5, 3, 6, 2, 7]) 1 1,
    -- 313: del tmp2
    .del 7,
    -- 314: t4a += einsum(tmp1, (0, 1, 2, 3), t2, (4, 5, 6, 7), (1, 4, 5, 0, 3, 6, 2, 7))
    .add 10 (.ein [(8, [0, 1, 2, 3]), (1, [4, 5, 6, 7])] [1, 4, 5, 0, 3, 6, 2, 7]) 1 1,
    -- 315: del tmp1
    .del 8
  ]
  ret := [(chars! "t4", 5), (chars! "t4a", 10)]

/-- codegen/RecCC.py:376-470 `convert_t4_to_c4`. -/
def convert_t4_to_c4 : GenFun where
  args := [chars! "t4", chars! "t3", chars! "t1", chars! "t2", chars! "t4a"]
  body := [
    -- 391: c4 = np.copy(t4)
    .set 5 (.cp 0) 1 1,
    -- 392: c4 += einsum(t3, (0, 1, 2, 3, 4, 5), t1, (6, 7), (0, 6, 2, 1, 3, 7, 5, 4))
    .add 5 (.ein [(1, [0, 1, 2, 3, 4, 5]), (2, [6, 7])] [0, 6, 2, 1, 3, 7, 5, 4]) 1 1,
    -- 393: c4 += einsum(t3, (0, 1, 2, 3, 4, 5), t1, (6, 7), (0, 6, 2, 1, 5, 4, 3, 7))
    .add 5 (.ein [(1, [0, 1, 2, 3, 4, 5]), (2, [6, 7])] [0, 6, 2, 1, 5, 4, 3, 7]) 1 1,
    -- 394: c4 += einsum(t1, (0, 1), t3, (2, 3, 4, 5, 6, 7), (2, 3, 4, 0, 7, 1, 5, 6))
    .add 5 (.ein [(2, [0, 1]), (1, [2, 3, 4, 5, 6, 7])] [2, 3, 4, 0, 7, 1, 5, 6]) 1 1,
    -- 395: c4 += einsum(t1, (0, 1), t3, (2, 3, 4, 5, 6, 7), (2, 3, 4, 0, 5, 6, 7, 1))
    .add 5 (.ein [(2, [0, 1]), (1, [2, 3, 4, 5, 6, 7])] [2, 3, 4, 0, 5, 6, 7, 1]) 1 1,
    -- 396: c4 += einsum(t2, (0, 1, 2, 3), t2, (4, 5, 6, 7), (4, 0, 1, 5, 3, 2, 6, 7)) * -1
    .add 5 (.ein [(3, [0, 1, 2, 3]), (3, [4, 5, 6, 7])] [4, 0, 1, 5, 3, 2, 6, 7]) (-1) 1,
    -- 397: c4 += einsum(t2, (0, 1, 2, 3), t2, (4, 5, 6, 7), (0, 4, 5, 1, 2, 6, 7, 3))
    .add 5 (.ein [(3, [0, 1, 2, 3]), (3, [4, 5, 6, 7])] [0, 4, 5, 1, 2, 6, 7, 3]) 1 1,
    -- 398: c4 += einsum(t2, (0, 1, 2, 3), t2, (4, 5, 6, 7), (0, 4, 5, 1, 7, 3, 2, 6))
    .add 5 (.ein [(3, [0, 1, 2, 3]), (3, [4, 5, 6, 7])] [0, 4, 5, 1, 7, 3, 2, 6]) 1 1,
    -- 399: c4 += einsum(t2, (0, 1, 2, 3), t2, (4, 5, 6, 7), (0, 4, 5, 1, 2, 3, 7, 6)) * -1
    .add 5 (.ein [(3, [0, 1, 2, 3]), (3, [4, 5, 6, 7])] [0, 4, 5, 1, 2, 3, 7, 6]) (-1) 1,
    -- 400: c4 += einsum(t2, (0, 1, 2, 3), t2, (4, 5, 6, 7), (4, 5, 0, 1, 2, 3, 6, 7))
    .add 5 (.ein [(3, [0, 1, 2, 3]), (3, [4, 5, 6, 7])] [4, 5, 0, 1, 2, 3, 6, 7]) 1 1,
    -- 401: c4 += einsum(t2, (0, 1, 2, 3), t2, (4, 5, 6, 7), (4, 5, 0, 1, 6, 3, 2, 7)) * -1
    .add 5 (.ein [(3, [0, 1, 2, 3]), (3, [4, 5, 6, 7])] [4, 5, 0, 1, 6, 3, 2, 7]) (-1) 1,
    -- 402: c4 += einsum(t2, (0, 1, 2, 3), t2, (4, 5, 6, 7), (4, 5, 0, 1, 2, 7, 6, 3)) * -1
    .add 5 (.ein [(3, [0, 1, 2, 3]), (3, [4, 5, 6, 7])] [4, 5, 0, 1, 2, 7, 6, 3]) (-1) 1,
    -- 403: c4 += einsum(t2, (0, 1, 2, 3), t2, (4, 5, 6, 7), (4, 5, 0, 1, 6, 7, 2, 3))
    .add 5 (.ein [(3, [0, 1, 2, 3]), (3, [4, 5, 6, 7])] [4, 5, 0, 1, 6, 7, 2, 3]) 1 1,
    -- 404: tmp0 = np.copy(t2)
    .set 6 (.cp 3) 1 1,
    -- 405: tmp0 += einsum(t1, (0, 1), t1, (2, 3), (2, 0, 3, 1))
    .add 6 (.ein [(2, [0, 1]), (2, [2, 3])] [2, 0, 3, 1]) 1 1,
    -- 406: tmp1 = np.copy(np.transpose(tmp0, (0, 1, 3, 2))) * -1
    .set 7 (.tr 6 [0, 1, 3, 2]) (-1) 1,
    -- 407: tmp1 += tmp0
    .add 7 (.cp 6) 1 1,
    -- 408: c4 += einsum(tmp1, (0, 1, 2, 3), tmp1, (4, 5, 6, 7), (5, 1, 4, 0, 7, 2, 6, 3)) * -1
    .add 5 (.ein [(7, [0, 1, 2, 3]), (7, [4, 5, 6, 7])] [5, 1, 4, 0, 7, 2, 6, 3]) (-1) 1,
    -- 409: tmp2 = np.copy(np.transpose(t3, (0, 2, 1, 3, 5, 4)))
    .set 8 (.tr 1 [0, 2, 1, 3, 5, 4]) 1 1,
    -- 410: tmp2 += einsum(t2, (0, 1, 2, 3), t1, (4, 5), (4, 0, 1, 5, 2, 3))
    .add 8 (.ein [(3, [0, 1, 2, 3]), (2, [4, 5])] [4, 0, 1, 5, 2, 3]) 1 1,
    -- 411: tmp2 += einsum(t2, (0, 1, 2, 3), t1, (4, 5), (4, 0, 1, 2, 5, 3)) * -1
    .add 8 (.ein [(3, [0, 1, 2, 3]), (2, [4, 5])] [4, 0, 1, 2, 5, 3]) (-1) 1,
    -- 412: tmp2 += einsum(t2, (0, 1, 2, 3), t1, (4, 5), (0, 4, 1, 5, 2, 3)) * -1
    .add 8 (.ein [(3, [0, 1, 2, 3]), (2, [4, 5])] [0, 4, 1, 5, 2, 3]) (-1) 1,
    -- 413: tmp2 += einsum(t2, (0, 1, 2, 3), t1, (4, 5), (0, 4, 1, 2, 5, 3))
    .add 8 (.ein [(3, [0, 1, 2, 3]), (2, [4, 5])] [0, 4, 1, 2, 5, 3]) 1 1,
    -- 414: c4 += einsum(tmp2, (0, 1, 2, 3, 4, 5), t1, (6, 7), (6, 1, 2, 0, 7, 4, 5, 3))
    .add 5 (.ein [(8, [0, 1, 2, 3, 4, 5]), (2, [6, 7])] [6, 1, 2, 0, 7, 4, 5, 3]) 1 1,
    -- 415: c4 += einsum(t1, (0, 1), tmp2, (2, 3, 4, 5, 6, 7), (0, 3, 4, 2, 7, 5, 1, 6))
    .add 5 (.ein [(2, [0, 1]), (8, [2, 3, 4, 5, 6, 7])] [0, 3, 4, 2, 7, 5, 1, 6]) 1 1,
    -- 416: c4 += einsum(t1, (0, 1), tmp2, (2, 3, 4, 5, 6, 7), (4, 3, 0, 2, 1, 5, 7, 6))
    .add 5 (.ein [(2, [0, 1]), (8, [2, 3, 4, 5, 6, 7])] [4, 3, 0, 2, 1, 5, 7, 6]) 1 1,
    -- 417: c4 += einsum(t1, (0, 1), tmp2, (2, 3, 4, 5, 6, 7), (4, 3, 0, 2, 7, 6, 1, 5))
    .add 5 (.ein [(2, [0, 1]), (8, [2, 3, 4, 5, 6, 7])] [4, 3, 0, 2, 7, 6, 1, 5]) 1 1,
    -- 418: c4a = np.copy(np.transpose(t4a, (0, 1, 3, 2, 4, 5, 7, 6)))
    .set 9 (.tr 4 [0, 1, 3, 2, 4, 5, 7, 6]) 1 1,
    -- 419: c4a += einsum(t1, (0, 1), t3, (2, 3, 4, 5, 6, 7), (2, 3, 0, 4, 1, 6, 7, 5))
    .add 9 (.ein [(2, [0, 1]), (1, [2, 3, 4, 5, 6, 7])] [2, 3, 0, 4, 1, 6, 7, 5]) 1 1,
    -- 420: c4a += einsum(t3, (0, 1, 2, 3, 4, 5), t1, (6, 7), (0, 1, 6, 2, 3, 4, 7, 5))
    .add 9 (.ein [(1, [0, 1, 2, 3, 4, 5]), (2, [6, 7])] [0, 1, 6, 2, 3, 4, 7, 5]) 1 1,
    -- 421: c4a += einsum(t1, (0, 1), t3, (2, 3, 4, 5, 6, 7), (2, 3, 0, 4, 5, 6, 7, 1)) * -1
    .add 9 (.ein [(2, [0, 1]), (1, [2, 3, 4, 5, 6, 7])] [2, 3, 0, 4, 5, 6, 7, 1]) (-1) 1,
    -- 422: c4a += einsum(t1, (0, 1), t3, (2, 3, 4, 5, 6, 7), (2, 3, 4, 0, 1, 6, 7, 5)) * -1
    .add 9 (.ein [(2, [0, 1]), (1, [2, 3, 4, 5, 6, 7])] [2, 3, 4, 0, 1, 6, 7, 5]) (-1) 1,
    -- 423: c4a += einsum(t1, (0, 1), t3, (2, 3, 4, 5, 6, 7), (2, 3, 4, 0, 5, 6, 1, 7)) * -1
    .add 9 (.ein [(2, [0, 1]), (1, [2, 3, 4, 5, 6, 7])] [2, 3, 4, 0, 5, 6, 1, 7]) (-1) 1,
    -- 424: c4a += einsum(t1, (0, 1), t3, (2, 3, 4, 5, 6, 7), (2, 3, 4, 0, 5, 6, 7, 1))
    .add 9 (.ein [(2, [0, 1]), (1, [2, 3, 4, 5, 6, 7])] [2, 3, 4, 0, 5, 6, 7, 1]) 1 1,
    -- 425: c4a += einsum(t2, (0, 1, 2, 3), t2, (4, 5, 6, 7), (4, 0, 1, 5, 3, 2, 6, 7)) * -1
    .add 9 (.ein [(3, [0, 1, 2, 3]), (3, [4, 5, 6, 7])] [4, 0, 1, 5, 3, 2, 6, 7]) (-1) 1,
    -- 426: c4a += einsum(t2, (0, 1, 2, 3), t2, (4, 5, 6, 7), (4, 0, 1, 5, 3, 2, 7, 6))
    .add 9 (.ein [(3, [0, 1, 2, 3]), (3, [4, 5, 6, 7])] [4, 0, 1, 5, 3, 2, 7, 6]) 1 1,
    -- 427: c4a += einsum(t2, (0, 1, 2, 3), t2, (4, 5, 6, 7), (0, 4, 5, 1, 2, 6, 7, 3))
    .add 9 (.ein [(3, [0, 1, 2, 3]), (3, [4, 5, 6, 7])] [0, 4, 5, 1, 2, 6, 7, 3]) 1 1,
    -- 428: c4a += einsum(t2, (0, 1, 2, 3), t2, (4, 5, 6, 7), (0, 4, 5, 1, 3, 6, 7, 2)) * -1
    .add 9 (.ein [(3, [0, 1, 2, 3]), (3, [4, 5, 6, 7])] [0, 4, 5, 1, 3, 6, 7, 2]) (-1) 1,
    -- 429: c4a += einsum(t2, (0, 1, 2, 3), t2, (4, 5, 6, 7), (0, 4, 5, 1, 2, 6, 3, 7)) * -1
    .add 9 (.ein [(3, [0, 1, 2, 3]), (3, [4, 5, 6, 7])] [0, 4, 5, 1, 2, 6, 3, 7]) (-1) 1,
    -- 430: c4a += einsum(t2, (0, 1, 2, 3), t2, (4, 5, 6, 7), (0, 4, 5, 1, 3, 6, 2, 7))
    .add 9 (.ein [(3, [0, 1, 2, 3]), (3, [4, 5, 6, 7])] [0, 4, 5, 1, 3, 6, 2, 7]) 1 1,
    -- 431: c4a += einsum(t2, (0, 1, 2, 3), t2, (4, 5, 6, 7), (4, 0, 5, 1, 3, 2, 6, 7))
    .add 9 (.ein [(3, [0, 1, 2, 3]), (3, [4, 5, 6, 7])] [4, 0, 5, 1, 3, 2, 6, 7]) 1 1,
    -- 432: c4a += einsum(t2, (0, 1, 2, 3), t2, (4, 5, 6, 7), (0, 4, 1, 5, 7, 6, 3, 2)) * -1
    .add 9 (.ein [(3, [0, 1, 2, 3]), (3, [4, 5, 6, 7])] [0, 4, 1, 5, 7, 6, 3, 2]) (-1) 1,
    -- 433: c4a += einsum(t2, (0, 1, 2, 3), t2, (4, 5, 6, 7), (4, 0, 5, 1, 6, 2, 3, 7)) * -1
    .add 9 (.ein [(3, [0, 1, 2, 3]), (3, [4, 5, 6, 7])] [4, 0, 5, 1, 6, 2, 3, 7]) (-1) 1,
    -- 434: c4a += einsum(t2, (0, 1, 2, 3), t2, (4, 5, 6, 7), (4, 0, 5, 1, 7, 2, 3, 6))
    .add 9 (.ein [(3, [0, 1, 2, 3]), (3, [4, 5, 6, 7])] [4, 0, 5, 1, 7, 2, 3, 6]) 1 1,
    -- 435: c4a += einsum(t2, (0, 1, 2, 3), t2, (4, 5, 6, 7), (4, 0, 5, 1, 6, 2, 7, 3))
    .add 9 (.ein [(3, [0, 1, 2, 3]), (3, [4, 5, 6, 7])] [4, 0, 5, 1, 6, 2, 7, 3]) 1 1,
    -- 436: c4a += einsum(t2, (0, 1, 2, 3), t2, (4, 5, 6, 7), (4, 0, 5, 1, 7, 2, 6, 3)) * -1
    .add 9 (.ein [(3, [0, 1, 2, 3]), (3, [4, 5, 6, 7])] [4, 0, 5, 1, 7, 2, 6, 3]) (-1) 1,
    -- 437: tmp3 = np.copy(np.transpose(t3, (0, 2, 1, 5, 4, 3)))
    .set 10 (.tr 1 [0, 2, 1, 5, 4, 3]) 1 1,
    -- 438: tmp3 += np.transpose(t3, (0, 2, 1, 3, 5, 4))
    .add 10 (.tr 1 [0, 2, 1, 3, 5, 4]) 1 1,
    -- 439: tmp3 += np.transpose(t3, (0, 2, 1, 4, 3, 5))
    .add 10 (.tr 1 [0, 2, 1, 4, 3, 5]) 1 1,
    -- 440: tmp3 += einsum(t2, (0, 1, 2, 3), t1, (4, 5), (0, 4, 1, 5, 3, 2))
    .add 10 (.ein [(3, [0, 1, 2, 3]), (2, [4, 5])] [0, 4, 1, 5, 3, 2]) 1 1,
    -- 441: tmp3 += einsum(t2, (0, 1, 2, 3), t1, (4, 5), (0, 4, 1, 5, 2, 3)) * -1
    .add 10 (.ein [(3, [0, 1, 2, 3]), (2, [4, 5])] [0, 4, 1, 5, 2, 3]) (-1) 1,
    -- 442: tmp3 += einsum(t1, (0, 1), t2, (2, 3, 4, 5), (2, 0, 3, 5, 1, 4)) * -1
    .add 10 (.ein [(2, [0, 1]), (3, [2, 3, 4, 5])] [2, 0, 3, 5, 1, 4]) (-1) 1,
    -- 443: tmp3 += einsum(t2, (0, 1, 2, 3), t1, (4, 5), (0, 4, 1, 2, 5, 3))
    .add 10 (.ein [(3, [0, 1, 2, 3]), (2, [4, 5])] [0, 4, 1, 2, 5, 3]) 1 1,
    -- 444: tmp3 += einsum(t1, (0, 1), t2, (2, 3, 4, 5), (2, 0, 3, 5, 4, 1))
    .add 10 (.ein [(2, [0, 1]), (3, [2, 3, 4, 5])] [2, 0, 3, 5, 4, 1]) 1 1,
    -- 445: tmp3 += einsum(t1, (0, 1), t2, (2, 3, 4, 5), (2, 0, 3, 4, 5, 1)) * -1
    .add 10 (.ein [(2, [0, 1]), (3, [2, 3, 4, 5])] [2, 0, 3, 4, 5, 1]) (-1) 1,
    -- 446: tmp3 += einsum(t2, (0, 1, 2, 3), t1, (4, 5), (0, 1, 4, 5, 3, 2)) * -1
    .add 10 (.ein [(3, [0, 1, 2, 3]), (2, [4, 5])] [0, 1, 4, 5, 3, 2]) (-1) 1,
    -- 447: tmp3 += einsum(t2, (0, 1, 2, 3), t1, (4, 5), (0, 1, 4, 5, 2, 3))
    .add 10 (.ein [(3, [0, 1, 2, 3]), (2, [4, 5])] [0, 1, 4, 5, 2, 3]) 1 1,
    -- 448: tmp3 += einsum(t2, (0, 1, 2, 3), t1, (4, 5), (0, 1, 4, 3, 5, 2))
    .add 10 (.ein [(3, [0, 1, 2, 3]), (2, [4, 5])] [0, 1, 4, 3, 5, 2]) 1 1,
    -- 449: tmp3 += einsum(t1, (0, 1), t2, (2, 3, 4, 5), (2, 3, 0, 4, 1, 5)) * -1
    .add 10 (.ein [(2, [0, 1]), (3, [2, 3, 4, 5])] [2, 3, 0, 4, 1, 5]) (-1) 1,
    -- 450: tmp3 += einsum(t2, (0, 1, 2, 3), t1, (4, 5), (0, 1, 4, 3, 2, 5)) * -1
    .add 10 (.ein [(3, [0, 1, 2, 3]), (2, [4, 5])] [0, 1, 4, 3, 2, 5]) (-1) 1,
    -- 451: tmp3 += einsum(t1, (0, 1), t2, (2, 3, 4, 5), (2, 3, 0, 4, 5, 1))
    .add 10 (.ein [(2, [0, 1]), (3, [2, 3, 4, 5])] [2, 3, 0, 4, 5, 1]) 1 1,
    -- 452: tmp3 += einsum(tmp1, (0, 1, 2, 3), t1, (4, 5), (4, 1, 0, 5, 2, 3)) * -1
    .add 10 (.ein [(7, [0, 1, 2, 3]), (2, [4, 5])] [4, 1, 0, 5, 2, 3]) (-1) 1,
    -- 453: tmp3 += einsum(tmp1, (0, 1, 2, 3), t1, (4, 5), (4, 1, 0, 3, 5, 2)) * -1
    .add 10 (.ein [(7, [0, 1, 2, 3]), (2, [4, 5])] [4, 1, 0, 3, 5, 2]) (-1) 1,
    -- 454: tmp3 += einsum(tmp1, (0, 1, 2, 3), t1, (4, 5), (4, 1, 0, 3, 2, 5))
    .add 10 (.ein [(7, [0, 1, 2, 3]), (2, [4, 5])] [4, 1, 0, 3, 2, 5]) 1 1,
    -- 455: c4a += einsum(tmp3, (0, 1, 2, 3, 4, 5), t1, (6, 7), (1, 6, 2, 0, 5, 7, 3, 4))
    .add 9 (.ein [(10, [0, 1, 2, 3, 4, 5]), (2, [6, 7])] [1, 6, 2, 0, 5, 7, 3, 4]) 1 1,
    -- 456: del tmp3
    .del 10,
    -- 457: c4a += einsum(tmp2, (0, 1, 2, 3, 4, 5), t1, (6, 7), (6, 2, 1, 0, 7, 5, 4, 3))
    .add 9 (.ein [(8, [0, 1, 2, 3, 4, 5]), (2, [6, 7])] [6, 2, 1, 0, 7, 5, 4, 3]) 1 1,
    -- 458: c4a += einsum(t1, (0, 1), tmp2, (2, 3, 4, 5, 6, 7), (0, 4, 3, 2, 5, 7, 1, 6))
    .add 9 (.ein [(2, [0, 1]), (8, [2, 3, 4, 5, 6, 7])] [0, 4, 3, 2, 5, 7, 1, 6]) 1 1,
    -- 459: c4a += einsum(tmp2, (0, 1, 2, 3, 4, 5), t1, (6, 7), (6, 2, 1, 0, 3, 5, 4, 7)) * -1
    .add 9 (.ein [(8, [0, 1, 2, 3, 4, 5]), (2, [6, 7])] [6, 2, 1, 0, 3, 5, 4, 7]) (-1) 1,
    -- 460: del tmp2
    .del 8,
    -- 461: tmp4 = np.copy(np.transpose(tmp0, (0, 1, 3, 2)))
    .set 11 (.tr 6 [0, 1, 3, 2]) 1 1,
    -- 462: tmp4 += tmp0 * -1
    .add 11 (.cp 6) (-1) 1,
    -- 463: del tmp0
    .del 6,
    -- 464: c4a += einsum(tmp4, (0, 1, 2, 3), t2, (4, 5, 6, 7), (4, 5, 1, 0, 6, 7, 3, 2)) * -1
    .add 9 (.ein [(11, [0, 1, 2, 3]), (3, [4, 5, 6, 7])] [4, 5, 1, 0, 6, 7, 3, 2]) (-1) 1,
    -- 465: c4a += einsum(tmp4, (0, 1, 2, 3), t2, (4, 5, 6, 7), (4, 5, 1, 0, 2, 7, 6, 3)) * -1
    .add 9 (.ein [(11, [0, 1, 2, 3]), (3, [4, 5, 6, 7])] [4, 5, 1, 0, 2, 7, 6, 3]) (-1) 1,
    -- 466: del tmp4
    .del 11,
    -- 467: c4a += einsum(tmp1, (0, 1, 2, 3), t2, (4, 5, 6, 7), (4, 5, 1, 0, 3, 7, 2, 6))
    .add 9 (.ein [(7, [0, 1, 2, 3]), (3, [4, 5, 6, 7])] [4, 5, 1, 0, 3, 7, 2, 6]) 1 1,
    -- 468: del tmp1
    .del 7
  ]
  ret := [(chars! "c4", 5), (chars! "c4a", 9)]

end Ebcc.Gen.RecCC
