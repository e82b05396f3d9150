import Verif.Model.GenCode
/-!
Functions of `ebcc/codegen/GecCC.py`, written by `tools/gencode.py`.  Comments give the
number and the text of the line of each statement.
-/

set_option maxRecDepth 100000

namespace Ebcc.Gen.GecCC

/-- codegen/GecCC.py:78-90 `convert_c1_to_t1`. -/
def convert_c1_to_t1 : GenFun where
  args := [chars! "c1"]
  body := [
    -- 88: t1 = np.copy(c1)
    .set 1 (.cp 0) 1 1
  ]
  ret := [(chars! "t1", 1)]

/-- codegen/GecCC.py:217-229 `convert_t1_to_c1`. -/
def convert_t1_to_c1 : GenFun where
  args := [chars! "t1"]
  body := [
    -- 227: c1 = np.copy(t1)
    .set 1 (.cp 0) 1 1
  ]
  ret := [(chars! "c1", 1)]

/-- codegen/GecCC.py:92-107 `convert_c2_to_t2`. -/
def convert_c2_to_t2 : GenFun where
  args := [chars! "c2", chars! "t1"]
  body := [
    -- 103: t2 = np.copy(c2)
    .set 2 (.cp 0) 1 1,
    -- 104: t2 += einsum(t1, (0, 1), t1, (2, 3), (0, 2, 3, 1))
    .add 2 (.ein [(1, [0, 1]), (1, [2, 3])] [0, 2, 3, 1]) 1 1,
    -- 105: t2 += einsum(t1, (0, 1), t1, (2, 3), (0, 2, 1, 3)) * -1
    .add 2 (.ein [(1, [0, 1]), (1, [2, 3])] [0, 2, 1, 3]) (-1) 1
  ]
  ret := [(chars! "t2", 2)]

/-- codegen/GecCC.py:231-246 `convert_t2_to_c2`. -/
def convert_t2_to_c2 : GenFun where
  args := [chars! "t2", chars! "t1"]
  body := [
    -- 242: c2 = np.copy(t2)
    .set 2 (.cp 0) 1 1,
    -- 243: c2 += einsum(t1, (0, 1), t1, (2, 3), (0, 2, 3, 1)) * -1
    .add 2 (.ein [(1, [0, 1]), (1, [2, 3])] [0, 2, 3, 1]) (-1) 1,
    -- 244: c2 += einsum(t1, (0, 1), t1, (2, 3), (0, 2, 1, 3))
    .add 2 (.ein [(1, [0, 1]), (1, [2, 3])] [0, 2, 1, 3]) 1 1
  ]
  ret := [(chars! "c2", 2)]

/-- codegen/GecCC.py:109-136 `convert_c3_to_t3`. -/
def convert_c3_to_t3 : GenFun where
  args := [chars! "c3", chars! "t1", chars! "t2"]
  body := [
    -- 121: t3 = np.copy(c3)
    .set 3 (.cp 0) 1 1,
    -- 122: t3 += einsum(t1, (0, 1), t2, (2, 3, 4, 5), (0, 2, 3, 1, 4, 5)) * -1
    .add 3 (.ein [(1, [0, 1]), (2, [2, 3, 4, 5])] [0, 2, 3, 1, 4, 5]) (-1) 1,
    -- 123: t3 += einsum(t1, (0, 1), t2, (2, 3, 4, 5), (0, 2, 3, 4, 5, 1)) * -1
    .add 3 (.ein [(1, [0, 1]), (2, [2, 3, 4, 5])] [0, 2, 3, 4, 5, 1]) (-1) 1,
    -- 124: t3 += einsum(t2, (0, 1, 2, 3), t1, (4, 5), (0, 4, 1, 5, 2, 3))
    .add 3 (.ein [(2, [0, 1, 2, 3]), (1, [4, 5])] [0, 4, 1, 5, 2, 3]) 1 1,
    -- 125: t3 += einsum(t1, (0, 1), t2, (2, 3, 4, 5), (2, 0, 3, 4, 5, 1))
    .add 3 (.ein [(1, [0, 1]), (2, [2, 3, 4, 5])] [2, 0, 3, 4, 5, 1]) 1 1,
    -- 126: t3 += einsum(t2, (0, 1, 2, 3), t1, (4, 5), (0, 1, 4, 5, 2, 3)) * -1
    .add 3 (.ein [(2, [0, 1, 2, 3]), (1, [4, 5])] [0, 1, 4, 5, 2, 3]) (-1) 1,
    -- 127: t3 += einsum(t2, (0, 1, 2, 3), t1, (4, 5), (0, 1, 4, 2, 3, 5)) * -1
    .add 3 (.ein [(2, [0, 1, 2, 3]), (1, [4, 5])] [0, 1, 4, 2, 3, 5]) (-1) 1,
    -- 128: tmp0 = np.copy(t2)
    .set 4 (.cp 2) 1 1,
    -- 129: tmp0 += einsum(t1, (0, 1), t1, (2, 3), (0, 2, 3, 1)) * -1
    .add 4 (.ein [(1, [0, 1]), (1, [2, 3])] [0, 2, 3, 1]) (-1) 1,
    -- 130: tmp0 += einsum(t1, (0, 1), t1, (2, 3), (0, 2, 1, 3))
    .add 4 (.ein [(1, [0, 1]), (1, [2, 3])] [0, 2, 1, 3]) 1 1,
    -- 131: t3 += einsum(t1, (0, 1), tmp0, (2, 3, 4, 5), (0, 3, 2, 5, 1, 4))
    .add 3 (.ein [(1, [0, 1]), (4, [2, 3, 4, 5])] [0, 3, 2, 5, 1, 4]) 1 1,
    -- 132: t3 += einsum(tmp0, (0, 1, 2, 3), t1, (4, 5), (1, 0, 4, 3, 5, 2))
    .add 3 (.ein [(4, [0, 1, 2, 3]), (1, [4, 5])] [1, 0, 4, 3, 5, 2]) 1 1,
    -- 133: t3 += einsum(t1, (0, 1), tmp0, (2, 3, 4, 5), (3, 0, 2, 5, 1, 4)) * -1
    .add 3 (.ein [(1, [0, 1]), (4, [2, 3, 4, 5])] [3, 0, 2, 5, 1, 4]) (-1) 1,
    -- 134: del tmp0
    .del 4
  ]
  ret := [(chars! "t3", 3)]

/-- codegen/GecCC.py:248-275 `convert_t3_to_c3`. -/
def convert_t3_to_c3 : GenFun where
  args := [chars! "t3", chars! "t2", chars! "t1"]
  body := [
    -- 260: c3 = np.copy(t3)
    .set 3 (.cp 0) 1 1,
    -- 261: c3 += einsum(t2, (0, 1, 2, 3), t1, (4, 5), (0, 4, 1, 5, 2, 3)) * -1
    .add 3 (.ein [(1, [0, 1, 2, 3]), (2, [4, 5])] [0, 4, 1, 5, 2, 3]) (-1) 1,
    -- 262: c3 += einsum(t2, (0, 1, 2, 3), t1, (4, 5), (0, 4, 1, 2, 5, 3))
    .add 3 (.ein [(1, [0, 1, 2, 3]), (2, [4, 5])] [0, 4, 1, 2, 5, 3]) 1 1,
    -- 263: c3 += einsum(t1, (0, 1), t2, (2, 3, 4, 5), (2, 0, 3, 4, 5, 1)) * -1
    .add 3 (.ein [(2, [0, 1]), (1, [2, 3, 4, 5])] [2, 0, 3, 4, 5, 1]) (-1) 1,
    -- 264: c3 += einsum(t2, (0, 1, 2, 3), t1, (4, 5), (0, 1, 4, 5, 2, 3))
    .add 3 (.ein [(1, [0, 1, 2, 3]), (2, [4, 5])] [0, 1, 4, 5, 2, 3]) 1 1,
    -- 265: c3 += einsum(t2, (0, 1, 2, 3), t1, (4, 5), (0, 1, 4, 2, 5, 3)) * -1
    .add 3 (.ein [(1, [0, 1, 2, 3]), (2, [4, 5])] [0, 1, 4, 2, 5, 3]) (-1) 1,
    -- 266: c3 += einsum(t2, (0, 1, 2, 3), t1, (4, 5), (0, 1, 4, 2, 3, 5))
    .add 3 (.ein [(1, [0, 1, 2, 3]), (2, [4, 5])] [0, 1, 4, 2, 3, 5]) 1 1,
    -- 267: tmp0 = np.copy(t2)
    .set 4 (.cp 1) 1 1,
    -- 268: tmp0 += einsum(t1, (0, 1), t1, (2, 3), (0, 2, 3, 1)) * -1
    .add 4 (.ein [(2, [0, 1]), (2, [2, 3])] [0, 2, 3, 1]) (-1) 1,
    -- 269: tmp0 += einsum(t1, (0, 1), t1, (2, 3), (0, 2, 1, 3))
    .add 4 (.ein [(2, [0, 1]), (2, [2, 3])] [0, 2, 1, 3]) 1 1,
    -- 270: c3 += einsum(t1, (0, 1), tmp0, (2, 3, 4, 5), (0, 3, 2, 1, 5, 4))
    .add 3 (.ein [(2, [0, 1]), (4, [2, 3, 4, 5])] [0, 3, 2, 1, 5, 4]) 1 1,
    -- 271: c3 += einsum(t1, (0, 1), tmp0, (2, 3, 4, 5), (0, 3, 2, 5, 4, 1))
    .add 3 (.ein [(2, [0, 1]), (4, [2, 3, 4, 5])] [0, 3, 2, 5, 4, 1]) 1 1,
    -- 272: c3 += einsum(t1, (0, 1), tmp0, (2, 3, 4, 5), (0, 3, 2, 5, 1, 4)) * -1
    .add 3 (.ein [(2, [0, 1]), (4, [2, 3, 4, 5])] [0, 3, 2, 5, 1, 4]) (-1) 1,
    -- 273: del tmp0
    .del 4
  ]
  ret := [(chars! "c3", 3)]

/-- codegen/GecCC.py:138-215 `convert_c4_to_t4`. -/
def convert_c4_to_t4 : GenFun where
  args := [chars! "c4", chars! "t3", chars! "t1", chars! "t2"]
  body := [
    -- 151: t4 = np.copy(c4)
    .set 4 (.cp 0) 1 1,
    -- 152: t4 += einsum(t3, (0, 1, 2, 3, 4, 5), t1, (6, 7), (0, 1, 2, 6, 7, 3, 4, 5))
    .add 4 (.ein [(1, [0, 1, 2, 3, 4, 5]), (2, [6, 7])] [0, 1, 2, 6, 7, 3, 4, 5]) 1 1,
    -- 153: t4 += einsum(t3, (0, 1, 2, 3, 4, 5), t1, (6, 7), (0, 1, 2, 6, 3, 7, 4, 5)) * -1
    .add 4 (.ein [(1, [0, 1, 2, 3, 4, 5]), (2, [6, 7])] [0, 1, 2, 6, 3, 7, 4, 5]) (-1) 1,
    -- 154: t4 += einsum(t3, (0, 1, 2, 3, 4, 5), t1, (6, 7), (0, 1, 2, 6, 3, 4, 7, 5))
    .add 4 (.ein [(1, [0, 1, 2, 3, 4, 5]), (2, [6, 7])] [0, 1, 2, 6, 3, 4, 7, 5]) 1 1,
    -- 155: t4 += einsum(t3, (0, 1, 2, 3, 4, 5), t1, (6, 7), (0, 1, 2, 6, 3, 4, 5, 7)) * -1
    .add 4 (.ein [(1, [0, 1, 2, 3, 4, 5]), (2, [6, 7])] [0, 1, 2, 6, 3, 4, 5, 7]) (-1) 1,
    -- 156: t4 += einsum(t2, (0, 1, 2, 3), t2, (4, 5, 6, 7), (4, 0, 1, 5, 2, 3, 6, 7)) * -1
    .add 4 (.ein [(3, [0, 1, 2, 3]), (3, [4, 5, 6, 7])] [4, 0, 1, 5, 2, 3, 6, 7]) (-1) 1,
    -- 157: t4 += einsum(t2, (0, 1, 2, 3), t2, (4, 5, 6, 7), (4, 0, 1, 5, 2, 6, 3, 7))
    .add 4 (.ein [(3, [0, 1, 2, 3]), (3, [4, 5, 6, 7])] [4, 0, 1, 5, 2, 6, 3, 7]) 1 1,
    -- 158: t4 += einsum(t2, (0, 1, 2, 3), t2, (4, 5, 6, 7), (4, 0, 1, 5, 6, 2, 3, 7)) * -1
    .add 4 (.ein [(3, [0, 1, 2, 3]), (3, [4, 5, 6, 7])] [4, 0, 1, 5, 6, 2, 3, 7]) (-1) 1,
    -- 159: t4 += einsum(t2, (0, 1, 2, 3), t2, (4, 5, 6, 7), (4, 0, 1, 5, 2, 6, 7, 3)) * -1
    .add 4 (.ein [(3, [0, 1, 2, 3]), (3, [4, 5, 6, 7])] [4, 0, 1, 5, 2, 6, 7, 3]) (-1) 1,
    -- 160: t4 += einsum(t2, (0, 1, 2, 3), t2, (4, 5, 6, 7), (0, 4, 5, 1, 2, 6, 3, 7))
    .add 4 (.ein [(3, [0, 1, 2, 3]), (3, [4, 5, 6, 7])] [0, 4, 5, 1, 2, 6, 3, 7]) 1 1,
    -- 161: t4 += einsum(t2, (0, 1, 2, 3), t2, (4, 5, 6, 7), (0, 4, 5, 1, 2, 3, 6, 7)) * -1
    .add 4 (.ein [(3, [0, 1, 2, 3]), (3, [4, 5, 6, 7])] [0, 4, 5, 1, 2, 3, 6, 7]) (-1) 1,
    -- 162: t4 += einsum(t2, (0, 1, 2, 3), t2, (4, 5, 6, 7), (0, 4, 1, 5, 6, 7, 2, 3))
    .add 4 (.ein [(3, [0, 1, 2, 3]), (3, [4, 5, 6, 7])] [0, 4, 1, 5, 6, 7, 2, 3]) 1 1,
    -- 163: t4 += einsum(t2, (0, 1, 2, 3), t2, (4, 5, 6, 7), (0, 4, 1, 5, 6, 2, 7, 3)) * -1
    .add 4 (.ein [(3, [0, 1, 2, 3]), (3, [4, 5, 6, 7])] [0, 4, 1, 5, 6, 2, 7, 3]) (-1) 1,
    -- 164: t4 += einsum(t2, (0, 1, 2, 3), t2, (4, 5, 6, 7), (0, 4, 1, 5, 2, 6, 7, 3))
    .add 4 (.ein [(3, [0, 1, 2, 3]), (3, [4, 5, 6, 7])] [0, 4, 1, 5, 2, 6, 7, 3]) 1 1,
    -- 165: t4 += einsum(t2, (0, 1, 2, 3), t2, (4, 5, 6, 7), (0, 4, 1, 5, 6, 2, 3, 7))
    .add 4 (.ein [(3, [0, 1, 2, 3]), (3, [4, 5, 6, 7])] [0, 4, 1, 5, 6, 2, 3, 7]) 1 1,
    -- 166: t4 += einsum(t2, (0, 1, 2, 3), t2, (4, 5, 6, 7), (4, 0, 5, 1, 6, 2, 7, 3)) * -1
    .add 4 (.ein [(3, [0, 1, 2, 3]), (3, [4, 5, 6, 7])] [4, 0, 5, 1, 6, 2, 7, 3]) (-1) 1,
    -- 167: t4 += einsum(t2, (0, 1, 2, 3), t2, (4, 5, 6, 7), (4, 0, 5, 1, 6, 7, 2, 3))
    .add 4 (.ein [(3, [0, 1, 2, 3]), (3, [4, 5, 6, 7])] [4, 0, 5, 1, 6, 7, 2, 3]) 1 1,
    -- 168: t4 += einsum(t2, (0, 1, 2, 3), t2, (4, 5, 6, 7), (4, 5, 0, 1, 2, 3, 6, 7)) * -1
    .add 4 (.ein [(3, [0, 1, 2, 3]), (3, [4, 5, 6, 7])] [4, 5, 0, 1, 2, 3, 6, 7]) (-1) 1,
    -- 169: t4 += einsum(t2, (0, 1, 2, 3), t2, (4, 5, 6, 7), (4, 5, 0, 1, 2, 6, 3, 7))
    .add 4 (.ein [(3, [0, 1, 2, 3]), (3, [4, 5, 6, 7])] [4, 5, 0, 1, 2, 6, 3, 7]) 1 1,
    -- 170: t4 += einsum(t2, (0, 1, 2, 3), t2, (4, 5, 6, 7), (0, 1, 4, 5, 2, 6, 7, 3)) * -1
    .add 4 (.ein [(3, [0, 1, 2, 3]), (3, [4, 5, 6, 7])] [0, 1, 4, 5, 2, 6, 7, 3]) (-1) 1,
    -- 171: t4 += einsum(t2, (0, 1, 2, 3), t2, (4, 5, 6, 7), (0, 1, 4, 5, 6, 2, 3, 7)) * -1
    .add 4 (.ein [(3, [0, 1, 2, 3]), (3, [4, 5, 6, 7])] [0, 1, 4, 5, 6, 2, 3, 7]) (-1) 1,
    -- 172: t4 += einsum(t2, (0, 1, 2, 3), t2, (4, 5, 6, 7), (4, 5, 0, 1, 6, 2, 7, 3))
    .add 4 (.ein [(3, [0, 1, 2, 3]), (3, [4, 5, 6, 7])] [4, 5, 0, 1, 6, 2, 7, 3]) 1 1,
    -- 173: t4 += einsum(t2, (0, 1, 2, 3), t2, (4, 5, 6, 7), (4, 5, 0, 1, 6, 7, 2, 3)) * -1
    .add 4 (.ein [(3, [0, 1, 2, 3]), (3, [4, 5, 6, 7])] [4, 5, 0, 1, 6, 7, 2, 3]) (-1) 1,
    -- 174: tmp1 = np.copy(t3)
    .set 5 (.cp 1) 1 1,
    -- 175: tmp1 += einsum(t2, (0, 1, 2, 3), t1, (4, 5), (0, 4, 1, 5, 2, 3)) * -1
    .add 5 (.ein [(3, [0, 1, 2, 3]), (2, [4, 5])] [0, 4, 1, 5, 2, 3]) (-1) 1,
    -- 176: tmp1 += einsum(t2, (0, 1, 2, 3), t1, (4, 5), (0, 4, 1, 2, 5, 3))
    .add 5 (.ein [(3, [0, 1, 2, 3]), (2, [4, 5])] [0, 4, 1, 2, 5, 3]) 1 1,
    -- 177: tmp1 += einsum(t1, (0, 1), t2, (2, 3, 4, 5), (2, 0, 3, 4, 5, 1)) * -1
    .add 5 (.ein [(2, [0, 1]), (3, [2, 3, 4, 5])] [2, 0, 3, 4, 5, 1]) (-1) 1,
    -- 178: tmp1 += einsum(t2, (0, 1, 2, 3), t1, (4, 5), (0, 1, 4, 5, 2, 3))
    .add 5 (.ein [(3, [0, 1, 2, 3]), (2, [4, 5])] [0, 1, 4, 5, 2, 3]) 1 1,
    -- 179: tmp1 += einsum(t2, (0, 1, 2, 3), t1, (4, 5), (0, 1, 4, 2, 5, 3)) * -1
    .add 5 (.ein [(3, [0, 1, 2, 3]), (2, [4, 5])] [0, 1, 4, 2, 5, 3]) (-1) 1,
    -- 180: tmp1 += einsum(t2, (0, 1, 2, 3), t1, (4, 5), (0, 1, 4, 2, 3, 5))
    .add 5 (.ein [(3, [0, 1, 2, 3]), (2, [4, 5])] [0, 1, 4, 2, 3, 5]) 1 1,
    -- 181: tmp0 = np.copy(t2)
    .set 6 (.cp 3) 1 1,
    -- 182: tmp0 += einsum(t1, (0, 1), t1, (2, 3), (0, 2, 3, 1)) * -1
    .add 6 (.ein [(2, [0, 1]), (2, [2, 3])] [0, 2, 3, 1]) (-1) 1,
    -- 183: tmp0 += einsum(t1, (0, 1), t1, (2, 3), (0, 2, 1, 3))
    .add 6 (.ein [(2, [0, 1]), (2, [2, 3])] [0, 2, 1, 3]) 1 1,
    -- 184: tmp1 += einsum(t1, (0, 1), tmp0, (2, 3, 4, 5), (0, 3, 2, 1, 5, 4))
    .add 5 (.ein [(2, [0, 1]), (6, [2, 3, 4, 5])] [0, 3, 2, 1, 5, 4]) 1 1,
    -- 185: tmp1 += einsum(t1, (0, 1), tmp0, (2, 3, 4, 5), (0, 3, 2, 5, 4, 1))
    .add 5 (.ein [(2, [0, 1]), (6, [2, 3, 4, 5])] [0, 3, 2, 5, 4, 1]) 1 1,
    -- 186: tmp1 += einsum(t1, (0, 1), tmp0, (2, 3, 4, 5), (0, 3, 2, 5, 1, 4)) * -1
    .add 5 (.ein [(2, [0, 1]), (6, [2, 3, 4, 5])] [0, 3, 2, 5, 1, 4]) (-1) 1,
    -- 187: del tmp0
    .del 6,
    -- 188: t4 += einsum(tmp1, (0, 1, 2, 3, 4, 5), t1, (6, 7), (6, 1, 2, 0, 4, 7, 5, 3))
    .add 4 (.ein [(5, [0, 1, 2, 3, 4, 5]), (2, [6, 7])] [6, 1, 2, 0, 4, 7, 5, 3]) 1 1,
    -- 189: t4 += einsum(tmp1, (0, 1, 2, 3, 4, 5), t1, (6, 7), (6, 1, 2, 0, 4, 5, 3, 7))
    .add 4 (.ein [(5, [0, 1, 2, 3, 4, 5]), (2, [6, 7])] [6, 1, 2, 0, 4, 5, 3, 7]) 1 1,
    -- 190: t4 += einsum(tmp1, (0, 1, 2, 3, 4, 5), t1, (6, 7), (6, 1, 2, 0, 7, 4, 5, 3)) * -1
    .add 4 (.ein [(5, [0, 1, 2, 3, 4, 5]), (2, [6, 7])] [6, 1, 2, 0, 7, 4, 5, 3]) (-1) 1,
    -- 191: t4 += einsum(t1, (0, 1), tmp1, (2, 3, 4, 5, 6, 7), (0, 3, 4, 2, 6, 7, 1, 5)) * -1
    .add 4 (.ein [(2, [0, 1]), (5, [2, 3, 4, 5, 6, 7])] [0, 3, 4, 2, 6, 7, 1, 5]) (-1) 1,
    -- 192: del tmp1
    .del 5,
    -- 193: tmp2 = np.copy(t3)
    .set 7 (.cp 1) 1 1,
    -- 194: tmp2 += einsum(t1, (0, 1), t2, (2, 3, 4, 5), (0, 2, 3, 1, 4, 5))
    .add 7 (.ein [(2, [0, 1]), (3, [2, 3, 4, 5])] [0, 2, 3, 1, 4, 5]) 1 1,
    -- 195: tmp2 += einsum(t1, (0, 1), t2, (2, 3, 4, 5), (0, 2, 3, 4, 1, 5)) * -1
    .add 7 (.ein [(2, [0, 1]), (3, [2, 3, 4, 5])] [0, 2, 3, 4, 1, 5]) (-1) 1,
    -- 196: tmp2 += einsum(t1, (0, 1), t2, (2, 3, 4, 5), (0, 2, 3, 4, 5, 1))
    .add 7 (.ein [(2, [0, 1]), (3, [2, 3, 4, 5])] [0, 2, 3, 4, 5, 1]) 1 1,
    -- 197: tmp2 += einsum(t2, (0, 1, 2, 3), t1, (4, 5), (0, 1, 4, 5, 2, 3))
    .add 7 (.ein [(3, [0, 1, 2, 3]), (2, [4, 5])] [0, 1, 4, 5, 2, 3]) 1 1,
    -- 198: tmp2 += einsum(t2, (0, 1, 2, 3), t1, (4, 5), (0, 1, 4, 2, 5, 3)) * -1
    .add 7 (.ein [(3, [0, 1, 2, 3]), (2, [4, 5])] [0, 1, 4, 2, 5, 3]) (-1) 1,
    -- 199: tmp2 += einsum(t2, (0, 1, 2, 3), t1, (4, 5), (0, 1, 4, 2, 3, 5))
    .add 7 (.ein [(3, [0, 1, 2, 3]), (2, [4, 5])] [0, 1, 4, 2, 3, 5]) 1 1,
    -- 200: t4 += einsum(t1, (0, 1), tmp2, (2, 3, 4, 5, 6, 7), (3, 0, 4, 2, 1, 6, 7, 5))
    .add 4 (.ein [(2, [0, 1]), (7, [2, 3, 4, 5, 6, 7])] [3, 0, 4, 2, 1, 6, 7, 5]) 1 1,
    -- 201: t4 += einsum(t1, (0, 1), tmp2, (2, 3, 4, 5, 6, 7), (3, 0, 4, 2, 6, 7, 1, 5))
    .add 4 (.ein [(2, [0, 1]), (7, [2, 3, 4, 5, 6, 7])] [3, 0, 4, 2, 6, 7, 1, 5]) 1 1,
    -- 202: t4 += einsum(t1, (0, 1), tmp2, (2, 3, 4, 5, 6, 7), (3, 0, 4, 2, 6, 1, 7, 5)) * -1
    .add 4 (.ein [(2, [0, 1]), (7, [2, 3, 4, 5, 6, 7])] [3, 0, 4, 2, 6, 1, 7, 5]) (-1) 1,
    -- 203: t4 += einsum(tmp2, (0, 1, 2, 3, 4, 5), t1, (6, 7), (1, 6, 2, 0, 4, 5, 3, 7)) * -1
    .add 4 (.ein [(7, [0, 1, 2, 3, 4, 5]), (2, [6, 7])] [1, 6, 2, 0, 4, 5, 3, 7]) (-1) 1,
    -- 204: del tmp2
    .del 7,
    -- 205: tmp3 = np.copy(t3)
    .set 8 (.cp 1) 1 1,
    -- 206: tmp3 += einsum(t1, (0, 1), t2, (2, 3, 4, 5), (0, 2, 3, 1, 4, 5))
    .add 8 (.ein [(2, [0, 1]), (3, [2, 3, 4, 5])] [0, 2, 3, 1, 4, 5]) 1 1,
    -- 207: tmp3 += einsum(t1, (0, 1), t2, (2, 3, 4, 5), (0, 2, 3, 4, 1, 5)) * -1
    .add 8 (.ein [(2, [0, 1]), (3, [2, 3, 4, 5])] [0, 2, 3, 4, 1, 5]) (-1) 1,
    -- 208: tmp3 += einsum(t1, (0, 1), t2, (2, 3, 4, 5), (0, 2, 3, 4, 5, 1))
    .add 8 (.ein [(2, [0, 1]), (3, [2, 3, 4, 5])] [0, 2, 3, 4, 5, 1]) 1 1,
    -- 209: t4 += einsum(tmp3, (0, 1, 2, 3, 4, 5), t1, (6, 7), (1, 2, 6, 0, 4, 7, 5, 3))
    .add 4 (.ein [(8, [0, 1, 2, 3, 4, 5]), (2, [6, 7])] [1, 2, 6, 0, 4, 7, 5, 3]) 1 1,
    -- 210: t4 += einsum(t1, (0, 1), tmp3, (2, 3, 4, 5, 6, 7), (3, 4, 0, 2, 6, 7, 5, 1))
    .add 4 (.ein [(2, [0, 1]), (8, [2, 3, 4, 5, 6, 7])] [3, 4, 0, 2, 6, 7, 5, 1]) 1 1,
    -- 211: t4 += einsum(t1, (0, 1), tmp3, (2, 3, 4, 5, 6, 7), (3, 4, 0, 2, 1, 6, 7, 5)) * -1
    .add 4 (.ein [(2, [0, 1]), (8, [2, 3, 4, 5, 6, 7])] [3, 4, 0, 2, 1, 6, 7, 5]) (-1) 1,
    -- 212: t4 += einsum(tmp3, (0, 1, 2, 3, 4, 5), t1, (6, 7), (1, 2, 6, 0, 4, 5, 7, 3)) * -1
    .add 4 (.ein [(8, [0, 1, 2, 3, 4, 5]), (2, [6, 7])] [1, 2, 6, 0, 4, 5, 7, 3]) (-1) 1,
    -- 213: del tmp3
    .del 8
  ]
  ret := [(chars! "t4", 4)]

/-- codegen/GecCC.py:277-354 `convert_t4_to_c4`. -/
def convert_t4_to_c4 : GenFun where
  args := [chars! "t4", chars! "t3", chars! "t1", chars! "t2"]
  body := [
    -- 290: c4 = np.copy(t4)
    .set 4 (.cp 0) 1 1,
    -- 291: c4 += einsum(t3, (0, 1, 2, 3, 4, 5), t1, (6, 7), (0, 1, 2, 6, 7, 3, 4, 5)) * -1
    .add 4 (.ein [(1, [0, 1, 2, 3, 4, 5]), (2, [6, 7])] [0, 1, 2, 6, 7, 3, 4, 5]) (-1) 1,
    -- 292: c4 += einsum(t3, (0, 1, 2, 3, 4, 5), t1, (6, 7), (0, 1, 2, 6, 3, 7, 4, 5))
    .add 4 (.ein [(1, [0, 1, 2, 3, 4, 5]), (2, [6, 7])] [0, 1, 2, 6, 3, 7, 4, 5]) 1 1,
    -- 293: c4 += einsum(t3, (0, 1, 2, 3, 4, 5), t1, (6, 7), (0, 1, 2, 6, 3, 4, 7, 5)) * -1
    .add 4 (.ein [(1, [0, 1, 2, 3, 4, 5]), (2, [6, 7])] [0, 1, 2, 6, 3, 4, 7, 5]) (-1) 1,
    -- 294: c4 += einsum(t3, (0, 1, 2, 3, 4, 5), t1, (6, 7), (0, 1, 2, 6, 3, 4, 5, 7))
    .add 4 (.ein [(1, [0, 1, 2, 3, 4, 5]), (2, [6, 7])] [0, 1, 2, 6, 3, 4, 5, 7]) 1 1,
    -- 295: c4 += einsum(t2, (0, 1, 2, 3), t2, (4, 5, 6, 7), (4, 0, 1, 5, 2, 3, 6, 7))
    .add 4 (.ein [(3, [0, 1, 2, 3]), (3, [4, 5, 6, 7])] [4, 0, 1, 5, 2, 3, 6, 7]) 1 1,
    -- 296: c4 += einsum(t2, (0, 1, 2, 3), t2, (4, 5, 6, 7), (4, 0, 1, 5, 2, 6, 3, 7)) * -1
    .add 4 (.ein [(3, [0, 1, 2, 3]), (3, [4, 5, 6, 7])] [4, 0, 1, 5, 2, 6, 3, 7]) (-1) 1,
    -- 297: c4 += einsum(t2, (0, 1, 2, 3), t2, (4, 5, 6, 7), (4, 0, 1, 5, 6, 2, 3, 7))
    .add 4 (.ein [(3, [0, 1, 2, 3]), (3, [4, 5, 6, 7])] [4, 0, 1, 5, 6, 2, 3, 7]) 1 1,
    -- 298: c4 += einsum(t2, (0, 1, 2, 3), t2, (4, 5, 6, 7), (4, 0, 1, 5, 2, 6, 7, 3))
    .add 4 (.ein [(3, [0, 1, 2, 3]), (3, [4, 5, 6, 7])] [4, 0, 1, 5, 2, 6, 7, 3]) 1 1,
    -- 299: c4 += einsum(t2, (0, 1, 2, 3), t2, (4, 5, 6, 7), (0, 4, 5, 1, 2, 6, 3, 7)) * -1
    .add 4 (.ein [(3, [0, 1, 2, 3]), (3, [4, 5, 6, 7])] [0, 4, 5, 1, 2, 6, 3, 7]) (-1) 1,
    -- 300: c4 += einsum(t2, (0, 1, 2, 3), t2, (4, 5, 6, 7), (0, 4, 5, 1, 2, 3, 6, 7))
    .add 4 (.ein [(3, [0, 1, 2, 3]), (3, [4, 5, 6, 7])] [0, 4, 5, 1, 2, 3, 6, 7]) 1 1,
    -- 301: c4 += einsum(t2, (0, 1, 2, 3), t2, (4, 5, 6, 7), (0, 4, 1, 5, 6, 7, 2, 3)) * -1
    .add 4 (.ein [(3, [0, 1, 2, 3]), (3, [4, 5, 6, 7])] [0, 4, 1, 5, 6, 7, 2, 3]) (-1) 1,
    -- 302: c4 += einsum(t2, (0, 1, 2, 3), t2, (4, 5, 6, 7), (0, 4, 1, 5, 6, 2, 7, 3))
    .add 4 (.ein [(3, [0, 1, 2, 3]), (3, [4, 5, 6, 7])] [0, 4, 1, 5, 6, 2, 7, 3]) 1 1,
    -- 303: c4 += einsum(t2, (0, 1, 2, 3), t2, (4, 5, 6, 7), (0, 4, 1, 5, 2, 6, 7, 3)) * -1
    .add 4 (.ein [(3, [0, 1, 2, 3]), (3, [4, 5, 6, 7])] [0, 4, 1, 5, 2, 6, 7, 3]) (-1) 1,
    -- 304: c4 += einsum(t2, (0, 1, 2, 3), t2, (4, 5, 6, 7), (0, 4, 1, 5, 6, 2, 3, 7)) * -1
    .add 4 (.ein [(3, [0, 1, 2, 3]), (3, [4, 5, 6, 7])] [0, 4, 1, 5, 6, 2, 3, 7]) (-1) 1,
    -- 305: c4 += einsum(t2, (0, 1, 2, 3), t2, (4, 5, 6, 7), (4, 0, 5, 1, 6, 2, 7, 3))
    .add 4 (.ein [(3, [0, 1, 2, 3]), (3, [4, 5, 6, 7])] [4, 0, 5, 1, 6, 2, 7, 3]) 1 1,
    -- 306: c4 += einsum(t2, (0, 1, 2, 3), t2, (4, 5, 6, 7), (4, 0, 5, 1, 6, 7, 2, 3)) * -1
    .add 4 (.ein [(3, [0, 1, 2, 3]), (3, [4, 5, 6, 7])] [4, 0, 5, 1, 6, 7, 2, 3]) (-1) 1,
    -- 307: c4 += einsum(t2, (0, 1, 2, 3), t2, (4, 5, 6, 7), (4, 5, 0, 1, 2, 3, 6, 7))
    .add 4 (.ein [(3, [0, 1, 2, 3]), (3, [4, 5, 6, 7])] [4, 5, 0, 1, 2, 3, 6, 7]) 1 1,
    -- 308: c4 += einsum(t2, (0, 1, 2, 3), t2, (4, 5, 6, 7), (4, 5, 0, 1, 2, 6, 3, 7)) * -1
    .add 4 (.ein [(3, [0, 1, 2, 3]), (3, [4, 5, 6, 7])] [4, 5, 0, 1, 2, 6, 3, 7]) (-1) 1,
    -- 309: c4 += einsum(t2, (0, 1, 2, 3), t2, (4, 5, 6, 7), (0, 1, 4, 5, 2, 6, 7, 3))
    .add 4 (.ein [(3, [0, 1, 2, 3]), (3, [4, 5, 6, 7])] [0, 1, 4, 5, 2, 6, 7, 3]) 1 1,
    -- 310: c4 += einsum(t2, (0, 1, 2, 3), t2, (4, 5, 6, 7), (0, 1, 4, 5, 6, 2, 3, 7))
    .add 4 (.ein [(3, [0, 1, 2, 3]), (3, [4, 5, 6, 7])] [0, 1, 4, 5, 6, 2, 3, 7]) 1 1,
    -- 311: c4 += einsum(t2, (0, 1, 2, 3), t2, (4, 5, 6, 7), (4, 5, 0, 1, 6, 2, 7, 3)) * -1
    .add 4 (.ein [(3, [0, 1, 2, 3]), (3, [4, 5, 6, 7])] [4, 5, 0, 1, 6, 2, 7, 3]) (-1) 1,
    -- 312: c4 += einsum(t2, (0, 1, 2, 3), t2, (4, 5, 6, 7), (4, 5, 0, 1, 6, 7, 2, 3))
    .add 4 (.ein [(3, [0, 1, 2, 3]), (3, [4, 5, 6, 7])] [4, 5, 0, 1, 6, 7, 2, 3]) 1 1,
    -- 313: tmp1 = np.copy(t3)
    .set 5 (.cp 1) 1 1,
    -- 314: tmp1 += einsum(t2, (0, 1, 2, 3), t1, (4, 5), (0, 4, 1, 5, 2, 3)) * -1
    .add 5 (.ein [(3, [0, 1, 2, 3]), (2, [4, 5])] [0, 4, 1, 5, 2, 3]) (-1) 1,
    -- 315: tmp1 += einsum(t2, (0, 1, 2, 3), t1, (4, 5), (0, 4, 1, 2, 5, 3))
    .add 5 (.ein [(3, [0, 1, 2, 3]), (2, [4, 5])] [0, 4, 1, 2, 5, 3]) 1 1,
    -- 316: tmp1 += einsum(t1, (0, 1), t2, (2, 3, 4, 5), (2, 0, 3, 4, 5, 1)) * -1
    .add 5 (.ein [(2, [0, 1]), (3, [2, 3, 4, 5])] [2, 0, 3, 4, 5, 1]) (-1) 1,
    -- 317: tmp1 += einsum(t2, (0, 1, 2, 3), t1, (4, 5), (0, 1, 4, 5, 2, 3))
    .add 5 (.ein [(3, [0, 1, 2, 3]), (2, [4, 5])] [0, 1, 4, 5, 2, 3]) 1 1,
    -- 318: tmp1 += einsum(t2, (0, 1, 2, 3), t1, (4, 5), (0, 1, 4, 2, 5, 3)) * -1
    .add 5 (.ein [(3, [0, 1, 2, 3]), (2, [4, 5])] [0, 1, 4, 2, 5, 3]) (-1) 1,
    -- 319: tmp1 += einsum(t2, (0, 1, 2, 3), t1, (4, 5), (0, 1, 4, 2, 3, 5))
    .add 5 (.ein [(3, [0, 1, 2, 3]), (2, [4, 5])] [0, 1, 4, 2, 3, 5]) 1 1,
    -- 320: tmp0 = np.copy(t2)
    .set 6 (.cp 3) 1 1,
    -- 321: tmp0 += einsum(t1, (0, 1), t1, (2, 3), (0, 2, 3, 1)) * -1
    .add 6 (.ein [(2, [0, 1]), (2, [2, 3])] [0, 2, 3, 1]) (-1) 1,
    -- 322: tmp0 += einsum(t1, (0, 1), t1, (2, 3), (0, 2, 1, 3))
    .add 6 (.ein [(2, [0, 1]), (2, [2, 3])] [0, 2, 1, 3]) 1 1,
    -- 323: tmp1 += einsum(t1, (0, 1), tmp0, (2, 3, 4, 5), (0, 3, 2, 1, 5, 4))
    .add 5 (.ein [(2, [0, 1]), (6, [2, 3, 4, 5])] [0, 3, 2, 1, 5, 4]) 1 1,
    -- 324: tmp1 += einsum(t1, (0, 1), tmp0, (2, 3, 4, 5), (0, 3, 2, 5, 4, 1))
    .add 5 (.ein [(2, [0, 1]), (6, [2, 3, 4, 5])] [0, 3, 2, 5, 4, 1]) 1 1,
    -- 325: tmp1 += einsum(t1, (0, 1), tmp0, (2, 3, 4, 5), (0, 3, 2, 5, 1, 4)) * -1
    .add 5 (.ein [(2, [0, 1]), (6, [2, 3, 4, 5])] [0, 3, 2, 5, 1, 4]) (-1) 1,
    -- 326: del tmp0
    .del 6,
    -- 327: c4 += einsum(tmp1, (0, 1, 2, 3, 4, 5), t1, (6, 7), (6, 1, 2, 0, 7, 4, 5, 3))
    .add 4 (.ein [(5, [0, 1, 2, 3, 4, 5]), (2, [6, 7])] [6, 1, 2, 0, 7, 4, 5, 3]) 1 1,
    -- 328: c4 += einsum(t1, (0, 1), tmp1, (2, 3, 4, 5, 6, 7), (0, 3, 4, 2, 6, 7, 1, 5))
    .add 4 (.ein [(2, [0, 1]), (5, [2, 3, 4, 5, 6, 7])] [0, 3, 4, 2, 6, 7, 1, 5]) 1 1,
    -- 329: c4 += einsum(tmp1, (0, 1, 2, 3, 4, 5), t1, (6, 7), (6, 1, 2, 0, 4, 7, 5, 3)) * -1
    .add 4 (.ein [(5, [0, 1, 2, 3, 4, 5]), (2, [6, 7])] [6, 1, 2, 0, 4, 7, 5, 3]) (-1) 1,
    -- 330: c4 += einsum(tmp1, (0, 1, 2, 3, 4, 5), t1, (6, 7), (6, 1, 2, 0, 4, 5, 3, 7)) * -1
    .add 4 (.ein [(5, [0, 1, 2, 3, 4, 5]), (2, [6, 7])] [6, 1, 2, 0, 4, 5, 3, 7]) (-1) 1,
    -- 331: del tmp1
    .del 5,
    -- 332: tmp2 = np.copy(t3)
    .set 7 (.cp 1) 1 1,
    -- 333: tmp2 += einsum(t1, (0, 1), t2, (2, 3, 4, 5), (0, 2, 3, 1, 4, 5))
    .add 7 (.ein [(2, [0, 1]), (3, [2, 3, 4, 5])] [0, 2, 3, 1, 4, 5]) 1 1,
    -- 334: tmp2 += einsum(t1, (0, 1), t2, (2, 3, 4, 5), (0, 2, 3, 4, 1, 5)) * -1
    .add 7 (.ein [(2, [0, 1]), (3, [2, 3, 4, 5])] [0, 2, 3, 4, 1, 5]) (-1) 1,
    -- 335: tmp2 += einsum(t1, (0, 1), t2, (2, 3, 4, 5), (0, 2, 3, 4, 5, 1))
    .add 7 (.ein [(2, [0, 1]), (3, [2, 3, 4, 5])] [0, 2, 3, 4, 5, 1]) 1 1,
    -- 336: tmp2 += einsum(t2, (0, 1, 2, 3), t1, (4, 5), (0, 1, 4, 5, 2, 3))
    .add 7 (.ein [(3, [0, 1, 2, 3]), (2, [4, 5])] [0, 1, 4, 5, 2, 3]) 1 1,
    -- 337: tmp2 += einsum(t2, (0, 1, 2, 3), t1, (4, 5), (0, 1, 4, 2, 5, 3)) * -1
    .add 7 (.ein [(3, [0, 1, 2, 3]), (2, [4, 5])] [0, 1, 4, 2, 5, 3]) (-1) 1,
    -- 338: tmp2 += einsum(t2, (0, 1, 2, 3), t1, (4, 5), (0, 1, 4, 2, 3, 5))
    .add 7 (.ein [(3, [0, 1, 2, 3]), (2, [4, 5])] [0, 1, 4, 2, 3, 5]) 1 1,
    -- 339: c4 += einsum(t1, (0, 1), tmp2, (2, 3, 4, 5, 6, 7), (3, 0, 4, 2, 6, 1, 7, 5))
    .add 4 (.ein [(2, [0, 1]), (7, [2, 3, 4, 5, 6, 7])] [3, 0, 4, 2, 6, 1, 7, 5]) 1 1,
    -- 340: c4 += einsum(tmp2, (0, 1, 2, 3, 4, 5), t1, (6, 7), (1, 6, 2, 0, 4, 5, 3, 7))
    .add 4 (.ein [(7, [0, 1, 2, 3, 4, 5]), (2, [6, 7])] [1, 6, 2, 0, 4, 5, 3, 7]) 1 1,
    -- 341: c4 += einsum(t1, (0, 1), tmp2, (2, 3, 4, 5, 6, 7), (3, 0, 4, 2, 1, 6, 7, 5)) * -1
    .add 4 (.ein [(2, [0, 1]), (7, [2, 3, 4, 5, 6, 7])] [3, 0, 4, 2, 1, 6, 7, 5]) (-1) 1,
    -- 342: c4 += einsum(t1, (0, 1), tmp2, (2, 3, 4, 5, 6, 7), (3, 0, 4, 2, 6, 7, 1, 5)) * -1
    .add 4 (.ein [(2, [0, 1]), (7, [2, 3, 4, 5, 6, 7])] [3, 0, 4, 2, 6, 7, 1, 5]) (-1) 1,
    -- 343: del tmp2
    .del 7,
    -- 344: tmp3 = np.copy(t3)
    .set 8 (.cp 1) 1 1,
    -- 345: tmp3 += einsum(t1, (0, 1), t2, (2, 3, 4, 5), (0, 2, 3, 1, 4, 5))
    .add 8 (.ein [(2, [0, 1]), (3, [2, 3, 4, 5])] [0, 2, 3, 1, 4, 5]) 1 1,
    -- 346: tmp3 += einsum(t1, (0, 1), t2, (2, 3, 4, 5), (0, 2, 3, 4, 1, 5)) * -1
    .add 8 (.ein [(2, [0, 1]), (3, [2, 3, 4, 5])] [0, 2, 3, 4, 1, 5]) (-1) 1,
    -- 347: tmp3 += einsum(t1, (0, 1), t2, (2, 3, 4, 5), (0, 2, 3, 4, 5, 1))
    .add 8 (.ein [(2, [0, 1]), (3, [2, 3, 4, 5])] [0, 2, 3, 4, 5, 1]) 1 1,
    -- 348: c4 += einsum(t1, (0, 1), tmp3, (2, 3, 4, 5, 6, 7), (3, 4, 0, 2, 1, 6, 7, 5))
    .add 4 (.ein [(2, [0, 1]), (8, [2, 3, 4, 5, 6, 7])] [3, 4, 0, 2, 1, 6, 7, 5]) 1 1,
    -- 349: c4 += einsum(tmp3, (0, 1, 2, 3, 4, 5), t1, (6, 7), (1, 2, 6, 0, 4, 5, 7, 3))
    .add 4 (.ein [(8, [0, 1, 2, 3, 4, 5]), (2, [6, 7])] [1, 2, 6, 0, 4, 5, 7, 3]) 1 1,
    -- 350: c4 += einsum(tmp3, (0, 1, 2, 3, 4, 5), t1, (6, 7), (1, 2, 6, 0, 4, 7, 5, 3)) * -1
    .add 4 (.ein [(8, [0, 1, 2, 3, 4, 5]), (2, [6, 7])] [1, 2, 6, 0, 4, 7, 5, 3]) (-1) 1,
    -- 351: c4 += einsum(t1, (0, 1), tmp3, (2, 3, 4, 5, 6, 7), (3, 4, 0, 2, 6, 7, 5, 1)) * -1
    .add 4 (.ein [(2, [0, 1]), (8, [2, 3, 4, 5, 6, 7])] [3, 4, 0, 2, 6, 7, 5, 1]) (-1) 1,
    -- 352: del tmp3
    .del 8
  ]
  ret := [(chars! "c4", 4)]

end Ebcc.Gen.GecCC
