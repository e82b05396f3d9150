import Verif.Model.GenCode
/-!
Functions of `ebcc/codegen/GCCSDT.py`, written by `tools/gencode.py`.  Comments give the
number and the text of the line of each statement.
-/

set_option maxRecDepth 100000

namespace Ebcc.Gen.GCCSDT

/-- codegen/GCCSDT.py:7-17 `energy`. -/
def energy : GenFun where
  args := [chars! "f.ov", chars! "t1", chars! "t2", chars! "v.oovv"]
  body := [
    -- 9: e_cc = 0
    .zeros 4 [],
    -- 10: e_cc += einsum(f.ov, (0, 1), t1, (0, 1), ())
    .add 4 (.ein [(0, [0, 1]), (1, [0, 1])] []) 1 1,
    -- 11: x0 = np.zeros((nocc, nocc, nvir, nvir), dtype=types[float])
    .zeros 5 [0, 0, 1, 1],
    -- 12: x0 += einsum(t2, (0, 1, 2, 3), (0, 1, 2, 3))
    .add 5 (.ein [(2, [0, 1, 2, 3])] [0, 1, 2, 3]) 1 1,
    -- 13: x0 += einsum(t1, (0, 1), t1, (2, 3), (0, 2, 1, 3)) * 2.0
    .add 5 (.ein [(1, [0, 1]), (1, [2, 3])] [0, 2, 1, 3]) 2 1,
    -- 14: e_cc += einsum(v.oovv, (0, 1, 2, 3), x0, (0, 1, 2, 3), ()) * 0.25
    .add 4 (.ein [(3, [0, 1, 2, 3]), (5, [0, 1, 2, 3])] []) 1 4,
    -- 15: del x0
    .del 5
  ]
  ret := [(chars! "e_cc", 4)]

/-- codegen/GCCSDT.py:19-569 `update_amps`. -/
def update_amps : GenFun where
  args := [chars! "f.vv", chars! "t1", chars! "v.oovv", chars! "t3", chars! "f.ov", chars! "v.ovov", chars! "v.ooov", chars! "t2", chars! "v.ovvv", chars! "f.oo", chars! "v.vvvv", chars! "v.oooo"]
  body := [
    -- 21: t1new = np.zeros((nocc, nvir), dtype=types[float])
    .zeros 12 [0, 1],
    -- 22: t1new += einsum(f.vv, (0, 1), t1, (2, 1), (2, 0))
    .add 12 (.ein [(0, [0, 1]), (1, [2, 1])] [2, 0]) 1 1,
    -- 23: t1new += einsum(v.oovv, (0, 1, 2, 3), t3, (4, 0, 1, 5, 2, 3), (4, 5)) * 0.25
    .add 12 (.ein [(2, [0, 1, 2, 3]), (3, [4, 0, 1, 5, 2, 3])] [4, 5]) 1 4,
    -- 24: t1new += einsum(f.ov, (0, 1), (0, 1))
    .add 12 (.ein [(4, [0, 1])] [0, 1]) 1 1,
    -- 25: t1new += einsum(t1, (0, 1), v.ovov, (2, 1, 0, 3), (2, 3)) * -1.0
    .add 12 (.ein [(1, [0, 1]), (5, [2, 1, 0, 3])] [2, 3]) (-1) 1,
    -- 26: t2new = np.zeros((nocc, nocc, nvir, nvir), dtype=types[float])
    .zeros 13 [0, 0, 1, 1],
    -- 27: t2new += einsum(v.oovv, (0, 1, 2, 3), (0, 1, 2, 3))
    .add 13 (.ein [(2, [0, 1, 2, 3])] [0, 1, 2, 3]) 1 1,
    -- 28: x0 = np.zeros((nocc, nocc, nocc, nvir), dtype=types[float])
    .zeros 14 [0, 0, 0, 1],
    -- 29: x0 += einsum(t1, (0, 1), v.oovv, (2, 3, 4, 1), (0, 2, 3, 4))
    .add 14 (.ein [(1, [0, 1]), (2, [2, 3, 4, 1])] [0, 2, 3, 4]) 1 1,
    -- 30: x1 = np.zeros((nocc, nocc, nocc, nvir), dtype=types[float])
    .zeros 15 [0, 0, 0, 1],
    -- 31: x1 += einsum(v.ooov, (0, 1, 2, 3), (2, 0, 1, 3)) * -1.0
    .add 15 (.ein [(6, [0, 1, 2, 3])] [2, 0, 1, 3]) (-1) 1,
    -- 32: x1 += einsum(x0, (0, 1, 2, 3), (0, 2, 1, 3)) * -1.0
    .add 15 (.ein [(14, [0, 1, 2, 3])] [0, 2, 1, 3]) (-1) 1,
    -- 33: t1new += einsum(t2, (0, 1, 2, 3), x1, (4, 1, 0, 3), (4, 2)) * -0.5
    .add 12 (.ein [(7, [0, 1, 2, 3]), (15, [4, 1, 0, 3])] [4, 2]) (-1) 2,
    -- 34: del x1
    .del 15,
    -- 35: x2 = np.zeros((nocc, nocc, nvir, nvir), dtype=types[float])
    .zeros 16 [0, 0, 1, 1],
    -- 36: x2 += einsum(t2, (0, 1, 2, 3), (0, 1, 2, 3))
    .add 16 (.ein [(7, [0, 1, 2, 3])] [0, 1, 2, 3]) 1 1,
    -- 37: x2 += einsum(t1, (0, 1), t1, (2, 3), (0, 2, 1, 3)) * 2.0
    .add 16 (.ein [(1, [0, 1]), (1, [2, 3])] [0, 2, 1, 3]) 2 1,
    -- 38: t1new += einsum(v.ovvv, (0, 1, 2, 3), x2, (0, 4, 2, 3), (4, 1)) * 0.5
    .add 12 (.ein [(8, [0, 1, 2, 3]), (16, [0, 4, 2, 3])] [4, 1]) 1 2,
    -- 39: x3 = np.zeros((nocc, nvir), dtype=types[float])
    .zeros 17 [0, 1],
    -- 40: x3 += einsum(t1, (0, 1), v.oovv, (2, 0, 3, 1), (2, 3))
    .add 17 (.ein [(1, [0, 1]), (2, [2, 0, 3, 1])] [2, 3]) 1 1,
    -- 41: x4 = np.zeros((nocc, nvir), dtype=types[float])
    .zeros 18 [0, 1],
    -- 42: x4 += einsum(f.ov, (0, 1), (0, 1))
    .add 18 (.ein [(4, [0, 1])] [0, 1]) 1 1,
    -- 43: x4 += einsum(x3, (0, 1), (0, 1))
    .add 18 (.ein [(17, [0, 1])] [0, 1]) 1 1,
    -- 44: del x3
    .del 17,
    -- 45: t1new += einsum(x4, (0, 1), t2, (2, 0, 3, 1), (2, 3))
    .add 12 (.ein [(18, [0, 1]), (7, [2, 0, 3, 1])] [2, 3]) 1 1,
    -- 46: t2new += einsum(x4, (0, 1), t3, (2, 3, 0, 4, 5, 1), (2, 3, 4, 5))
    .add 13 (.ein [(18, [0, 1]), (3, [2, 3, 0, 4, 5, 1])] [2, 3, 4, 5]) 1 1,
    -- 47: x5 = np.zeros((nocc, nocc), dtype=types[float])
    .zeros 19 [0, 0],
    -- 48: x5 += einsum(f.ov, (0, 1), t1, (2, 1), (0, 2))
    .add 19 (.ein [(4, [0, 1]), (1, [2, 1])] [0, 2]) 1 1,
    -- 49: x6 = np.zeros((nocc, nocc), dtype=types[float])
    .zeros 20 [0, 0],
    -- 50: x6 += einsum(t1, (0, 1), v.ooov, (2, 0, 3, 1), (2, 3))
    .add 20 (.ein [(1, [0, 1]), (6, [2, 0, 3, 1])] [2, 3]) 1 1,
    -- 51: x7 = np.zeros((nocc, nocc), dtype=types[float])
    .zeros 21 [0, 0],
    -- 52: x7 += einsum(v.oovv, (0, 1, 2, 3), x2, (1, 4, 2, 3), (4, 0)) * -1.0
    .add 21 (.ein [(2, [0, 1, 2, 3]), (16, [1, 4, 2, 3])] [4, 0]) (-1) 1,
    -- 53: x8 = np.zeros((nocc, nocc), dtype=types[float])
    .zeros 22 [0, 0],
    -- 54: x8 += einsum(f.oo, (0, 1), (0, 1)) * 2.0
    .add 22 (.ein [(9, [0, 1])] [0, 1]) 2 1,
    -- 55: x8 += einsum(x5, (0, 1), (0, 1)) * 2.0
    .add 22 (.ein [(19, [0, 1])] [0, 1]) 2 1,
    -- 56: x8 += einsum(x6, (0, 1), (0, 1)) * 2.0
    .add 22 (.ein [(20, [0, 1])] [0, 1]) 2 1,
    -- 57: x8 += einsum(x7, (0, 1), (1, 0))
    .add 22 (.ein [(21, [0, 1])] [1, 0]) 1 1,
    -- 58: t1new += einsum(t1, (0, 1), x8, (0, 2), (2, 1)) * -0.5
    .add 12 (.ein [(1, [0, 1]), (22, [0, 2])] [2, 1]) (-1) 2,
    -- 59: del x8
    .del 22,
    -- 60: x9 = np.zeros((nocc, nocc, nvir, nvir), dtype=types[float])
    .zeros 23 [0, 0, 1, 1],
    -- 61: x9 += einsum(t1, (0, 1), v.ovvv, (2, 1, 3, 4), (0, 2, 3, 4))
    .add 23 (.ein [(1, [0, 1]), (8, [2, 1, 3, 4])] [0, 2, 3, 4]) 1 1,
    -- 62: x10 = np.zeros((nocc, nocc, nvir, nvir), dtype=types[float])
    .zeros 24 [0, 0, 1, 1],
    -- 63: x10 += einsum(v.ooov, (0, 1, 2, 3), t3, (4, 0, 1, 5, 6, 3), (4, 2, 5, 6))
    .add 24 (.ein [(6, [0, 1, 2, 3]), (3, [4, 0, 1, 5, 6, 3])] [4, 2, 5, 6]) 1 1,
    -- 64: x11 = np.zeros((nocc, nocc, nvir, nvir), dtype=types[float])
    .zeros 25 [0, 0, 1, 1],
    -- 65: x11 += einsum(x0, (0, 1, 2, 3), t3, (4, 2, 1, 5, 6, 3), (0, 4, 5, 6))
    .add 25 (.ein [(14, [0, 1, 2, 3]), (3, [4, 2, 1, 5, 6, 3])] [0, 4, 5, 6]) 1 1,
    -- 66: x12 = np.zeros((nocc, nocc), dtype=types[float])
    .zeros 26 [0, 0],
    -- 67: x12 += einsum(t1, (0, 1), x4, (2, 1), (2, 0))
    .add 26 (.ein [(1, [0, 1]), (18, [2, 1])] [2, 0]) 1 1,
    -- 68: x13 = np.zeros((nocc, nocc), dtype=types[float])
    .zeros 27 [0, 0],
    -- 69: x13 += einsum(f.oo, (0, 1), (0, 1))
    .add 27 (.ein [(9, [0, 1])] [0, 1]) 1 1,
    -- 70: x13 += einsum(x12, (0, 1), (1, 0))
    .add 27 (.ein [(26, [0, 1])] [1, 0]) 1 1,
    -- 71: del x12
    .del 26,
    -- 72: x14 = np.zeros((nocc, nocc, nvir, nvir), dtype=types[float])
    .zeros 28 [0, 0, 1, 1],
    -- 73: x14 += einsum(x13, (0, 1), t2, (2, 1, 3, 4), (2, 0, 3, 4)) * -1.0
    .add 28 (.ein [(27, [0, 1]), (7, [2, 1, 3, 4])] [2, 0, 3, 4]) (-1) 1,
    -- 74: del x13
    .del 27,
    -- 75: x15 = np.zeros((nocc, nocc, nocc, nocc), dtype=types[float])
    .zeros 29 [0, 0, 0, 0],
    -- 76: x15 += einsum(t1, (0, 1), v.ooov, (2, 3, 4, 1), (0, 2, 3, 4))
    .add 29 (.ein [(1, [0, 1]), (6, [2, 3, 4, 1])] [0, 2, 3, 4]) 1 1,
    -- 77: x16 = np.zeros((nocc, nocc, nvir, nvir), dtype=types[float])
    .zeros 30 [0, 0, 1, 1],
    -- 78: x16 += einsum(x15, (0, 1, 2, 3), x2, (1, 2, 4, 5), (0, 3, 4, 5)) * 0.5
    .add 30 (.ein [(29, [0, 1, 2, 3]), (16, [1, 2, 4, 5])] [0, 3, 4, 5]) 1 2,
    -- 79: x17 = np.zeros((nocc, nocc), dtype=types[float])
    .zeros 31 [0, 0],
    -- 80: x17 += einsum(t2, (0, 1, 2, 3), v.oovv, (4, 1, 2, 3), (0, 4))
    .add 31 (.ein [(7, [0, 1, 2, 3]), (2, [4, 1, 2, 3])] [0, 4]) 1 1,
    -- 81: x18 = np.zeros((nocc, nocc), dtype=types[float])
    .zeros 32 [0, 0],
    -- 82: x18 += einsum(x6, (0, 1), (0, 1))
    .add 32 (.ein [(20, [0, 1])] [0, 1]) 1 1,
    -- 83: x18 += einsum(x17, (0, 1), (1, 0)) * 0.5
    .add 32 (.ein [(31, [0, 1])] [1, 0]) 1 2,
    -- 84: del x17
    .del 31,
    -- 85: x19 = np.zeros((nocc, nocc, nvir, nvir), dtype=types[float])
    .zeros 33 [0, 0, 1, 1],
    -- 86: x19 += einsum(x18, (0, 1), t2, (2, 0, 3, 4), (2, 1, 3, 4)) * -1.0
    .add 33 (.ein [(32, [0, 1]), (7, [2, 0, 3, 4])] [2, 1, 3, 4]) (-1) 1,
    -- 87: del x18
    .del 32,
    -- 88: x20 = np.zeros((nocc, nocc, nvir, nvir), dtype=types[float])
    .zeros 34 [0, 0, 1, 1],
    -- 89: x20 += einsum(x9, (0, 1, 2, 3), (0, 1, 3, 2)) * -1.0
    .add 34 (.ein [(23, [0, 1, 2, 3])] [0, 1, 3, 2]) (-1) 1,
    -- 90: del x9
    .del 23,
    -- 91: x20 += einsum(x10, (0, 1, 2, 3), (0, 1, 3, 2)) * -0.5
    .add 34 (.ein [(24, [0, 1, 2, 3])] [0, 1, 3, 2]) (-1) 2,
    -- 92: del x10
    .del 24,
    -- 93: x20 += einsum(x11, (0, 1, 2, 3), (0, 1, 3, 2)) * 0.5
    .add 34 (.ein [(25, [0, 1, 2, 3])] [0, 1, 3, 2]) 1 2,
    -- 94: del x11
    .del 25,
    -- 95: x20 += einsum(x14, (0, 1, 2, 3), (1, 0, 3, 2)) * -1.0
    .add 34 (.ein [(28, [0, 1, 2, 3])] [1, 0, 3, 2]) (-1) 1,
    -- 96: del x14
    .del 28,
    -- 97: x20 += einsum(x16, (0, 1, 2, 3), (0, 1, 3, 2)) * -1.0
    .add 34 (.ein [(30, [0, 1, 2, 3])] [0, 1, 3, 2]) (-1) 1,
    -- 98: del x16
    .del 30,
    -- 99: x20 += einsum(x19, (0, 1, 2, 3), (0, 1, 3, 2))
    .add 34 (.ein [(33, [0, 1, 2, 3])] [0, 1, 3, 2]) 1 1,
    -- 100: del x19
    .del 33,
    -- 101: t2new += einsum(x20, (0, 1, 2, 3), (0, 1, 2, 3)) * -1.0
    .add 13 (.ein [(34, [0, 1, 2, 3])] [0, 1, 2, 3]) (-1) 1,
    -- 102: t2new += einsum(x20, (0, 1, 2, 3), (1, 0, 2, 3))
    .add 13 (.ein [(34, [0, 1, 2, 3])] [1, 0, 2, 3]) 1 1,
    -- 103: del x20
    .del 34,
    -- 104: x21 = np.zeros((nocc, nocc, nvir, nvir), dtype=types[float])
    .zeros 35 [0, 0, 1, 1],
    -- 105: x21 += einsum(t1, (0, 1), v.ooov, (2, 3, 0, 4), (2, 3, 1, 4))
    .add 35 (.ein [(1, [0, 1]), (6, [2, 3, 0, 4])] [2, 3, 1, 4]) 1 1,
    -- 106: x22 = np.zeros((nocc, nocc, nvir, nvir), dtype=types[float])
    .zeros 36 [0, 0, 1, 1],
    -- 107: x22 += einsum(f.vv, (0, 1), t2, (2, 3, 4, 1), (2, 3, 0, 4))
    .add 36 (.ein [(0, [0, 1]), (7, [2, 3, 4, 1])] [2, 3, 0, 4]) 1 1,
    -- 108: x23 = np.zeros((nocc, nocc, nvir, nvir), dtype=types[float])
    .zeros 37 [0, 0, 1, 1],
    -- 109: x23 += einsum(x21, (0, 1, 2, 3), (1, 0, 2, 3)) * -1.0
    .add 37 (.ein [(35, [0, 1, 2, 3])] [1, 0, 2, 3]) (-1) 1,
    -- 110: del x21
    .del 35,
    -- 111: x23 += einsum(x22, (0, 1, 2, 3), (1, 0, 2, 3)) * -1.0
    .add 37 (.ein [(36, [0, 1, 2, 3])] [1, 0, 2, 3]) (-1) 1,
    -- 112: del x22
    .del 36,
    -- 113: t2new += einsum(x23, (0, 1, 2, 3), (0, 1, 2, 3)) * -1.0
    .add 13 (.ein [(37, [0, 1, 2, 3])] [0, 1, 2, 3]) (-1) 1,
    -- 114: t2new += einsum(x23, (0, 1, 2, 3), (0, 1, 3, 2))
    .add 13 (.ein [(37, [0, 1, 2, 3])] [0, 1, 3, 2]) 1 1,
    -- 115: del x23
    .del 37,
    -- 116: x24 = np.zeros((nocc, nocc, nvir, nvir), dtype=types[float])
    .zeros 38 [0, 0, 1, 1],
    -- 117: x24 += einsum(v.ovvv, (0, 1, 2, 3), t3, (4, 5, 0, 6, 2, 3), (4, 5, 6, 1))
    .add 38 (.ein [(8, [0, 1, 2, 3]), (3, [4, 5, 0, 6, 2, 3])] [4, 5, 6, 1]) 1 1,
    -- 118: x25 = np.zeros((nocc, nocc, nvir, nvir), dtype=types[float])
    .zeros 39 [0, 0, 1, 1],
    -- 119: x25 += einsum(t2, (0, 1, 2, 3), v.oovv, (4, 1, 5, 3), (0, 4, 2, 5))
    .add 39 (.ein [(7, [0, 1, 2, 3]), (2, [4, 1, 5, 3])] [0, 4, 2, 5]) 1 1,
    -- 120: x26 = np.zeros((nocc, nocc, nvir, nvir), dtype=types[float])
    .zeros 40 [0, 0, 1, 1],
    -- 121: x26 += einsum(t2, (0, 1, 2, 3), x25, (4, 1, 5, 3), (0, 4, 2, 5))
    .add 40 (.ein [(7, [0, 1, 2, 3]), (39, [4, 1, 5, 3])] [0, 4, 2, 5]) 1 1,
    -- 122: x27 = np.zeros((nvir, nvir), dtype=types[float])
    .zeros 41 [1, 1],
    -- 123: x27 += einsum(t1, (0, 1), v.ovvv, (0, 2, 3, 1), (2, 3))
    .add 41 (.ein [(1, [0, 1]), (8, [0, 2, 3, 1])] [2, 3]) 1 1,
    -- 124: x28 = np.zeros((nvir, nvir), dtype=types[float])
    .zeros 42 [1, 1],
    -- 125: x28 += einsum(t2, (0, 1, 2, 3), v.oovv, (0, 1, 4, 3), (2, 4))
    .add 42 (.ein [(7, [0, 1, 2, 3]), (2, [0, 1, 4, 3])] [2, 4]) 1 1,
    -- 126: x29 = np.zeros((nvir, nvir), dtype=types[float])
    .zeros 43 [1, 1],
    -- 127: x29 += einsum(x27, (0, 1), (0, 1))
    .add 43 (.ein [(41, [0, 1])] [0, 1]) 1 1,
    -- 128: x29 += einsum(x28, (0, 1), (0, 1)) * 0.5
    .add 43 (.ein [(42, [0, 1])] [0, 1]) 1 2,
    -- 129: del x28
    .del 42,
    -- 130: x30 = np.zeros((nocc, nocc, nvir, nvir), dtype=types[float])
    .zeros 44 [0, 0, 1, 1],
    -- 131: x30 += einsum(x29, (0, 1), t2, (2, 3, 4, 1), (2, 3, 4, 0)) * -1.0
    .add 44 (.ein [(43, [0, 1]), (7, [2, 3, 4, 1])] [2, 3, 4, 0]) (-1) 1,
    -- 132: del x29
    .del 43,
    -- 133: x31 = np.zeros((nocc, nocc, nocc, nvir), dtype=types[float])
    .zeros 45 [0, 0, 0, 1],
    -- 134: x31 += einsum(v.oovv, (0, 1, 2, 3), t3, (4, 5, 1, 6, 2, 3), (4, 5, 0, 6))
    .add 45 (.ein [(2, [0, 1, 2, 3]), (3, [4, 5, 1, 6, 2, 3])] [4, 5, 0, 6]) 1 1,
    -- 135: x32 = np.zeros((nocc, nocc, nocc, nvir), dtype=types[float])
    .zeros 46 [0, 0, 0, 1],
    -- 136: x32 += einsum(v.ovvv, (0, 1, 2, 3), x2, (4, 5, 2, 3), (0, 4, 5, 1)) * 0.5
    .add 46 (.ein [(8, [0, 1, 2, 3]), (16, [4, 5, 2, 3])] [0, 4, 5, 1]) 1 2,
    -- 137: x33 = np.zeros((nocc, nocc, nocc, nvir), dtype=types[float])
    .zeros 47 [0, 0, 0, 1],
    -- 138: x33 += einsum(x4, (0, 1), t2, (2, 3, 4, 1), (2, 3, 0, 4)) * -1.0
    .add 47 (.ein [(18, [0, 1]), (7, [2, 3, 4, 1])] [2, 3, 0, 4]) (-1) 1,
    -- 139: x34 = np.zeros((nocc, nocc, nocc, nvir), dtype=types[float])
    .zeros 48 [0, 0, 0, 1],
    -- 140: x34 += einsum(x31, (0, 1, 2, 3), (2, 1, 0, 3)) * -0.5
    .add 48 (.ein [(45, [0, 1, 2, 3])] [2, 1, 0, 3]) (-1) 2,
    -- 141: x34 += einsum(x32, (0, 1, 2, 3), (0, 2, 1, 3))
    .add 48 (.ein [(46, [0, 1, 2, 3])] [0, 2, 1, 3]) 1 1,
    -- 142: del x32
    .del 46,
    -- 143: x34 += einsum(x33, (0, 1, 2, 3), (2, 1, 0, 3))
    .add 48 (.ein [(47, [0, 1, 2, 3])] [2, 1, 0, 3]) 1 1,
    -- 144: del x33
    .del 47,
    -- 145: x35 = np.zeros((nocc, nocc, nvir, nvir), dtype=types[float])
    .zeros 49 [0, 0, 1, 1],
    -- 146: x35 += einsum(t1, (0, 1), x34, (0, 2, 3, 4), (2, 3, 4, 1))
    .add 49 (.ein [(1, [0, 1]), (48, [0, 2, 3, 4])] [2, 3, 4, 1]) 1 1,
    -- 147: del x34
    .del 48,
    -- 148: x36 = np.zeros((nocc, nocc, nvir, nvir), dtype=types[float])
    .zeros 50 [0, 0, 1, 1],
    -- 149: x36 += einsum(x24, (0, 1, 2, 3), (0, 1, 2, 3)) * 0.5
    .add 50 (.ein [(38, [0, 1, 2, 3])] [0, 1, 2, 3]) 1 2,
    -- 150: del x24
    .del 38,
    -- 151: x36 += einsum(x26, (0, 1, 2, 3), (0, 1, 2, 3)) * -1.0
    .add 50 (.ein [(40, [0, 1, 2, 3])] [0, 1, 2, 3]) (-1) 1,
    -- 152: del x26
    .del 40,
    -- 153: x36 += einsum(x30, (0, 1, 2, 3), (1, 0, 2, 3))
    .add 50 (.ein [(44, [0, 1, 2, 3])] [1, 0, 2, 3]) 1 1,
    -- 154: del x30
    .del 44,
    -- 155: x36 += einsum(x35, (0, 1, 2, 3), (1, 0, 3, 2))
    .add 50 (.ein [(49, [0, 1, 2, 3])] [1, 0, 3, 2]) 1 1,
    -- 156: del x35
    .del 49,
    -- 157: t2new += einsum(x36, (0, 1, 2, 3), (0, 1, 2, 3)) * -1.0
    .add 13 (.ein [(50, [0, 1, 2, 3])] [0, 1, 2, 3]) (-1) 1,
    -- 158: t2new += einsum(x36, (0, 1, 2, 3), (0, 1, 3, 2))
    .add 13 (.ein [(50, [0, 1, 2, 3])] [0, 1, 3, 2]) 1 1,
    -- 159: del x36
    .del 50,
    -- 160: x37 = np.zeros((nocc, nocc, nvir, nvir), dtype=types[float])
    .zeros 51 [0, 0, 1, 1],
    -- 161: x37 += einsum(t2, (0, 1, 2, 3), v.ovov, (4, 3, 1, 5), (0, 4, 2, 5))
    .add 51 (.ein [(7, [0, 1, 2, 3]), (5, [4, 3, 1, 5])] [0, 4, 2, 5]) 1 1,
    -- 162: x38 = np.zeros((nocc, nocc, nvir, nvir), dtype=types[float])
    .zeros 52 [0, 0, 1, 1],
    -- 163: x38 += einsum(t1, (0, 1), v.ovvv, (2, 3, 4, 1), (0, 2, 3, 4))
    .add 52 (.ein [(1, [0, 1]), (8, [2, 3, 4, 1])] [0, 2, 3, 4]) 1 1,
    -- 164: x39 = np.zeros((nocc, nocc, nvir, nvir), dtype=types[float])
    .zeros 53 [0, 0, 1, 1],
    -- 165: x39 += einsum(t2, (0, 1, 2, 3), x38, (4, 1, 5, 3), (4, 0, 2, 5)) * -1.0
    .add 53 (.ein [(7, [0, 1, 2, 3]), (52, [4, 1, 5, 3])] [4, 0, 2, 5]) (-1) 1,
    -- 166: x40 = np.zeros((nocc, nocc, nocc, nvir), dtype=types[float])
    .zeros 54 [0, 0, 0, 1],
    -- 167: x40 += einsum(t1, (0, 1), v.ovov, (2, 3, 4, 1), (0, 2, 4, 3))
    .add 54 (.ein [(1, [0, 1]), (5, [2, 3, 4, 1])] [0, 2, 4, 3]) 1 1,
    -- 168: x41 = np.zeros((nocc, nocc, nocc, nvir), dtype=types[float])
    .zeros 55 [0, 0, 0, 1],
    -- 169: x41 += einsum(t2, (0, 1, 2, 3), v.ooov, (4, 1, 5, 3), (0, 4, 5, 2))
    .add 55 (.ein [(7, [0, 1, 2, 3]), (6, [4, 1, 5, 3])] [0, 4, 5, 2]) 1 1,
    -- 170: x42 = np.zeros((nocc, nocc, nocc, nvir), dtype=types[float])
    .zeros 56 [0, 0, 0, 1],
    -- 171: x42 += einsum(t2, (0, 1, 2, 3), x0, (4, 1, 5, 3), (4, 0, 5, 2))
    .add 56 (.ein [(7, [0, 1, 2, 3]), (14, [4, 1, 5, 3])] [4, 0, 5, 2]) 1 1,
    -- 172: x43 = np.zeros((nocc, nocc, nocc, nvir), dtype=types[float])
    .zeros 57 [0, 0, 0, 1],
    -- 173: x43 += einsum(x40, (0, 1, 2, 3), (0, 1, 2, 3))
    .add 57 (.ein [(54, [0, 1, 2, 3])] [0, 1, 2, 3]) 1 1,
    -- 174: x43 += einsum(x41, (0, 1, 2, 3), (0, 1, 2, 3))
    .add 57 (.ein [(55, [0, 1, 2, 3])] [0, 1, 2, 3]) 1 1,
    -- 175: x43 += einsum(x42, (0, 1, 2, 3), (0, 2, 1, 3)) * -1.0
    .add 57 (.ein [(56, [0, 1, 2, 3])] [0, 2, 1, 3]) (-1) 1,
    -- 176: x44 = np.zeros((nocc, nocc, nvir, nvir), dtype=types[float])
    .zeros 58 [0, 0, 1, 1],
    -- 177: x44 += einsum(t1, (0, 1), x43, (2, 0, 3, 4), (2, 3, 4, 1))
    .add 58 (.ein [(1, [0, 1]), (57, [2, 0, 3, 4])] [2, 3, 4, 1]) 1 1,
    -- 178: del x43
    .del 57,
    -- 179: x45 = np.zeros((nocc, nocc, nvir, nvir), dtype=types[float])
    .zeros 59 [0, 0, 1, 1],
    -- 180: x45 += einsum(x37, (0, 1, 2, 3), (0, 1, 2, 3)) * -1.0
    .add 59 (.ein [(51, [0, 1, 2, 3])] [0, 1, 2, 3]) (-1) 1,
    -- 181: del x37
    .del 51,
    -- 182: x45 += einsum(x39, (0, 1, 2, 3), (0, 1, 2, 3))
    .add 59 (.ein [(53, [0, 1, 2, 3])] [0, 1, 2, 3]) 1 1,
    -- 183: del x39
    .del 53,
    -- 184: x45 += einsum(x44, (0, 1, 2, 3), (0, 1, 3, 2))
    .add 59 (.ein [(58, [0, 1, 2, 3])] [0, 1, 3, 2]) 1 1,
    -- 185: del x44
    .del 58,
    -- 186: t2new += einsum(x45, (0, 1, 2, 3), (0, 1, 2, 3))
    .add 13 (.ein [(59, [0, 1, 2, 3])] [0, 1, 2, 3]) 1 1,
    -- 187: t2new += einsum(x45, (0, 1, 2, 3), (0, 1, 3, 2)) * -1.0
    .add 13 (.ein [(59, [0, 1, 2, 3])] [0, 1, 3, 2]) (-1) 1,
    -- 188: t2new += einsum(x45, (0, 1, 2, 3), (1, 0, 2, 3)) * -1.0
    .add 13 (.ein [(59, [0, 1, 2, 3])] [1, 0, 2, 3]) (-1) 1,
    -- 189: t2new += einsum(x45, (0, 1, 2, 3), (1, 0, 3, 2))
    .add 13 (.ein [(59, [0, 1, 2, 3])] [1, 0, 3, 2]) 1 1,
    -- 190: del x45
    .del 59,
    -- 191: x46 = np.zeros((nocc, nocc, nvir, nvir), dtype=types[float])
    .zeros 60 [0, 0, 1, 1],
    -- 192: x46 += einsum(t2, (0, 1, 2, 3), (0, 1, 2, 3)) * 0.5
    .add 60 (.ein [(7, [0, 1, 2, 3])] [0, 1, 2, 3]) 1 2,
    -- 193: x46 += einsum(t1, (0, 1), t1, (2, 3), (0, 2, 1, 3))
    .add 60 (.ein [(1, [0, 1]), (1, [2, 3])] [0, 2, 1, 3]) 1 1,
    -- 194: t2new += einsum(v.vvvv, (0, 1, 2, 3), x46, (4, 5, 2, 3), (5, 4, 0, 1)) * -1.0
    .add 13 (.ein [(10, [0, 1, 2, 3]), (60, [4, 5, 2, 3])] [5, 4, 0, 1]) (-1) 1,
    -- 195: del x46
    .del 60,
    -- 196: x47 = np.zeros((nocc, nocc, nocc, nocc), dtype=types[float])
    .zeros 61 [0, 0, 0, 0],
    -- 197: x47 += einsum(v.oooo, (0, 1, 2, 3), (0, 1, 2, 3)) * 2.0
    .add 61 (.ein [(11, [0, 1, 2, 3])] [0, 1, 2, 3]) 2 1,
    -- 198: x47 += einsum(v.oovv, (0, 1, 2, 3), x2, (4, 5, 2, 3), (0, 1, 5, 4)) * -1.0
    .add 61 (.ein [(2, [0, 1, 2, 3]), (16, [4, 5, 2, 3])] [0, 1, 5, 4]) (-1) 1,
    -- 199: t2new += einsum(x2, (0, 1, 2, 3), x47, (0, 1, 4, 5), (4, 5, 3, 2)) * -0.25
    .add 13 (.ein [(16, [0, 1, 2, 3]), (61, [0, 1, 4, 5])] [4, 5, 3, 2]) (-1) 4,
    -- 200: del x47
    .del 61,
    -- 201: x48 = np.zeros((nocc, nocc, nocc, nvir, nvir, nvir), dtype=types[float])
    .zeros 62 [0, 0, 0, 1, 1, 1],
    -- 202: x48 += einsum(x15, (0, 1, 2, 3), t3, (4, 1, 2, 5, 6, 7), (0, 4, 3, 5, 6, 7))
    .add 62 (.ein [(29, [0, 1, 2, 3]), (3, [4, 1, 2, 5, 6, 7])] [0, 4, 3, 5, 6, 7]) 1 1,
    -- 203: t3new = np.zeros((nocc, nocc, nocc, nvir, nvir, nvir), dtype=types[float])
    .zeros 63 [0, 0, 0, 1, 1, 1],
    -- 204: t3new += einsum(x48, (0, 1, 2, 3, 4, 5), (0, 1, 2, 4, 5, 3)) * 0.5
    .add 63 (.ein [(62, [0, 1, 2, 3, 4, 5])] [0, 1, 2, 4, 5, 3]) 1 2,
    -- 205: t3new += einsum(x48, (0, 1, 2, 3, 4, 5), (0, 2, 1, 4, 5, 3)) * -0.5
    .add 63 (.ein [(62, [0, 1, 2, 3, 4, 5])] [0, 2, 1, 4, 5, 3]) (-1) 2,
    -- 206: t3new += einsum(x48, (0, 1, 2, 3, 4, 5), (1, 0, 2, 4, 5, 3)) * -0.5
    .add 63 (.ein [(62, [0, 1, 2, 3, 4, 5])] [1, 0, 2, 4, 5, 3]) (-1) 2,
    -- 207: t3new += einsum(x48, (0, 1, 2, 3, 4, 5), (2, 0, 1, 4, 5, 3)) * 0.5
    .add 63 (.ein [(62, [0, 1, 2, 3, 4, 5])] [2, 0, 1, 4, 5, 3]) 1 2,
    -- 208: t3new += einsum(x48, (0, 1, 2, 3, 4, 5), (1, 2, 0, 4, 5, 3)) * 0.5
    .add 63 (.ein [(62, [0, 1, 2, 3, 4, 5])] [1, 2, 0, 4, 5, 3]) 1 2,
    -- 209: t3new += einsum(x48, (0, 1, 2, 3, 4, 5), (2, 1, 0, 4, 5, 3)) * -0.5
    .add 63 (.ein [(62, [0, 1, 2, 3, 4, 5])] [2, 1, 0, 4, 5, 3]) (-1) 2,
    -- 210: del x48
    .del 62,
    -- 211: x49 = np.zeros((nocc, nocc, nocc, nvir, nvir, nvir), dtype=types[float])
    .zeros 64 [0, 0, 0, 1, 1, 1],
    -- 212: x49 += einsum(v.ovov, (0, 1, 2, 3), t3, (4, 5, 2, 6, 7, 1), (4, 5, 0, 6, 7, 3))
    .add 64 (.ein [(5, [0, 1, 2, 3]), (3, [4, 5, 2, 6, 7, 1])] [4, 5, 0, 6, 7, 3]) 1 1,
    -- 213: x50 = np.zeros((nocc, nvir, nvir, nvir), dtype=types[float])
    .zeros 65 [0, 1, 1, 1],
    -- 214: x50 += einsum(v.ooov, (0, 1, 2, 3), x2, (0, 1, 4, 5), (2, 3, 4, 5))
    .add 65 (.ein [(6, [0, 1, 2, 3]), (16, [0, 1, 4, 5])] [2, 3, 4, 5]) 1 1,
    -- 215: x51 = np.zeros((nocc, nocc, nocc, nvir, nvir, nvir), dtype=types[float])
    .zeros 66 [0, 0, 0, 1, 1, 1],
    -- 216: x51 += einsum(t2, (0, 1, 2, 3), x50, (4, 3, 5, 6), (0, 1, 4, 2, 6, 5)) * 0.5
    .add 66 (.ein [(7, [0, 1, 2, 3]), (65, [4, 3, 5, 6])] [0, 1, 4, 2, 6, 5]) 1 2,
    -- 217: del x50
    .del 65,
    -- 218: x52 = np.zeros((nocc, nocc, nvir, nvir), dtype=types[float])
    .zeros 67 [0, 0, 1, 1],
    -- 219: x52 += einsum(t1, (0, 1), t1, (2, 3), (0, 2, 3, 1)) * 2.0
    .add 67 (.ein [(1, [0, 1]), (1, [2, 3])] [0, 2, 3, 1]) 2 1,
    -- 220: x52 += einsum(t2, (0, 1, 2, 3), (0, 1, 2, 3)) * -1.0
    .add 67 (.ein [(7, [0, 1, 2, 3])] [0, 1, 2, 3]) (-1) 1,
    -- 221: x53 = np.zeros((nocc, nocc, nocc, nvir), dtype=types[float])
    .zeros 68 [0, 0, 0, 1],
    -- 222: x53 += einsum(v.ovvv, (0, 1, 2, 3), x52, (4, 5, 2, 3), (0, 4, 5, 1))
    .add 68 (.ein [(8, [0, 1, 2, 3]), (67, [4, 5, 2, 3])] [0, 4, 5, 1]) 1 1,
    -- 223: x54 = np.zeros((nocc, nocc, nocc, nvir, nvir, nvir), dtype=types[float])
    .zeros 69 [0, 0, 0, 1, 1, 1],
    -- 224: x54 += einsum(t2, (0, 1, 2, 3), x53, (1, 4, 5, 6), (0, 5, 4, 2, 3, 6)) * 0.5
    .add 69 (.ein [(7, [0, 1, 2, 3]), (68, [1, 4, 5, 6])] [0, 5, 4, 2, 3, 6]) 1 2,
    -- 225: del x53
    .del 68,
    -- 226: x55 = np.zeros((nocc, nocc, nocc, nvir, nvir, nvir), dtype=types[float])
    .zeros 70 [0, 0, 0, 1, 1, 1],
    -- 227: x55 += einsum(x49, (0, 1, 2, 3, 4, 5), (0, 1, 2, 4, 3, 5)) * -1.0
    .add 70 (.ein [(64, [0, 1, 2, 3, 4, 5])] [0, 1, 2, 4, 3, 5]) (-1) 1,
    -- 228: del x49
    .del 64,
    -- 229: x55 += einsum(x51, (0, 1, 2, 3, 4, 5), (1, 0, 2, 5, 4, 3)) * -1.0
    .add 70 (.ein [(66, [0, 1, 2, 3, 4, 5])] [1, 0, 2, 5, 4, 3]) (-1) 1,
    -- 230: del x51
    .del 66,
    -- 231: x55 += einsum(x54, (0, 1, 2, 3, 4, 5), (2, 1, 0, 4, 3, 5))
    .add 70 (.ein [(69, [0, 1, 2, 3, 4, 5])] [2, 1, 0, 4, 3, 5]) 1 1,
    -- 232: del x54
    .del 69,
    -- 233: t3new += einsum(x55, (0, 1, 2, 3, 4, 5), (0, 1, 2, 3, 4, 5)) * -1.0
    .add 63 (.ein [(70, [0, 1, 2, 3, 4, 5])] [0, 1, 2, 3, 4, 5]) (-1) 1,
    -- 234: t3new += einsum(x55, (0, 1, 2, 3, 4, 5), (0, 1, 2, 3, 5, 4))
    .add 63 (.ein [(70, [0, 1, 2, 3, 4, 5])] [0, 1, 2, 3, 5, 4]) 1 1,
    -- 235: t3new += einsum(x55, (0, 1, 2, 3, 4, 5), (0, 1, 2, 5, 3, 4)) * -1.0
    .add 63 (.ein [(70, [0, 1, 2, 3, 4, 5])] [0, 1, 2, 5, 3, 4]) (-1) 1,
    -- 236: t3new += einsum(x55, (0, 1, 2, 3, 4, 5), (0, 2, 1, 3, 4, 5))
    .add 63 (.ein [(70, [0, 1, 2, 3, 4, 5])] [0, 2, 1, 3, 4, 5]) 1 1,
    -- 237: t3new += einsum(x55, (0, 1, 2, 3, 4, 5), (0, 2, 1, 3, 5, 4)) * -1.0
    .add 63 (.ein [(70, [0, 1, 2, 3, 4, 5])] [0, 2, 1, 3, 5, 4]) (-1) 1,
    -- 238: t3new += einsum(x55, (0, 1, 2, 3, 4, 5), (0, 2, 1, 5, 3, 4))
    .add 63 (.ein [(70, [0, 1, 2, 3, 4, 5])] [0, 2, 1, 5, 3, 4]) 1 1,
    -- 239: t3new += einsum(x55, (0, 1, 2, 3, 4, 5), (2, 1, 0, 3, 4, 5))
    .add 63 (.ein [(70, [0, 1, 2, 3, 4, 5])] [2, 1, 0, 3, 4, 5]) 1 1,
    -- 240: t3new += einsum(x55, (0, 1, 2, 3, 4, 5), (2, 1, 0, 3, 5, 4)) * -1.0
    .add 63 (.ein [(70, [0, 1, 2, 3, 4, 5])] [2, 1, 0, 3, 5, 4]) (-1) 1,
    -- 241: t3new += einsum(x55, (0, 1, 2, 3, 4, 5), (2, 1, 0, 5, 3, 4))
    .add 63 (.ein [(70, [0, 1, 2, 3, 4, 5])] [2, 1, 0, 5, 3, 4]) 1 1,
    -- 242: del x55
    .del 70,
    -- 243: x56 = np.zeros((nocc, nvir, nvir, nvir), dtype=types[float])
    .zeros 71 [0, 1, 1, 1],
    -- 244: x56 += einsum(v.oovv, (0, 1, 2, 3), t3, (4, 0, 1, 5, 6, 3), (4, 5, 6, 2))
    .add 71 (.ein [(2, [0, 1, 2, 3]), (3, [4, 0, 1, 5, 6, 3])] [4, 5, 6, 2]) 1 1,
    -- 245: x57 = np.zeros((nocc, nvir, nvir, nvir), dtype=types[float])
    .zeros 72 [0, 1, 1, 1],
    -- 246: x57 += einsum(x4, (0, 1), t2, (2, 0, 3, 4), (2, 3, 4, 1)) * -1.0
    .add 72 (.ein [(18, [0, 1]), (7, [2, 0, 3, 4])] [2, 3, 4, 1]) (-1) 1,
    -- 247: del x4
    .del 18,
    -- 248: x58 = np.zeros((nocc, nvir, nvir, nvir), dtype=types[float])
    .zeros 73 [0, 1, 1, 1],
    -- 249: x58 += einsum(v.ovvv, (0, 1, 2, 3), (0, 2, 3, 1))
    .add 73 (.ein [(8, [0, 1, 2, 3])] [0, 2, 3, 1]) 1 1,
    -- 250: x58 += einsum(x56, (0, 1, 2, 3), (0, 2, 1, 3)) * 0.5
    .add 73 (.ein [(71, [0, 1, 2, 3])] [0, 2, 1, 3]) 1 2,
    -- 251: del x56
    .del 71,
    -- 252: x58 += einsum(x57, (0, 1, 2, 3), (0, 2, 1, 3)) * -1.0
    .add 73 (.ein [(72, [0, 1, 2, 3])] [0, 2, 1, 3]) (-1) 1,
    -- 253: del x57
    .del 72,
    -- 254: x59 = np.zeros((nocc, nocc, nocc, nvir, nvir, nvir), dtype=types[float])
    .zeros 74 [0, 0, 0, 1, 1, 1],
    -- 255: x59 += einsum(t2, (0, 1, 2, 3), x58, (4, 5, 6, 3), (0, 1, 4, 2, 5, 6)) * -1.0
    .add 74 (.ein [(7, [0, 1, 2, 3]), (73, [4, 5, 6, 3])] [0, 1, 4, 2, 5, 6]) (-1) 1,
    -- 256: del x58
    .del 73,
    -- 257: x60 = np.zeros((nocc, nocc, nocc, nocc, nvir, nvir), dtype=types[float])
    .zeros 75 [0, 0, 0, 0, 1, 1],
    -- 258: x60 += einsum(v.ooov, (0, 1, 2, 3), t3, (4, 5, 1, 6, 7, 3), (4, 5, 0, 2, 6, 7))
    .add 75 (.ein [(6, [0, 1, 2, 3]), (3, [4, 5, 1, 6, 7, 3])] [4, 5, 0, 2, 6, 7]) 1 1,
    -- 259: x61 = np.zeros((nocc, nocc, nocc, nocc), dtype=types[float])
    .zeros 76 [0, 0, 0, 0],
    -- 260: x61 += einsum(v.oovv, (0, 1, 2, 3), x52, (4, 5, 2, 3), (0, 1, 4, 5))
    .add 76 (.ein [(2, [0, 1, 2, 3]), (67, [4, 5, 2, 3])] [0, 1, 4, 5]) 1 1,
    -- 261: del x52
    .del 67,
    -- 262: x62 = np.zeros((nocc, nocc, nocc, nocc, nvir, nvir), dtype=types[float])
    .zeros 77 [0, 0, 0, 0, 1, 1],
    -- 263: x62 += einsum(t2, (0, 1, 2, 3), x61, (4, 1, 5, 6), (0, 6, 5, 4, 2, 3)) * -0.5
    .add 77 (.ein [(7, [0, 1, 2, 3]), (76, [4, 1, 5, 6])] [0, 6, 5, 4, 2, 3]) (-1) 2,
    -- 264: x63 = np.zeros((nocc, nocc, nocc, nocc, nvir, nvir), dtype=types[float])
    .zeros 78 [0, 0, 0, 0, 1, 1],
    -- 265: x63 += einsum(x60, (0, 1, 2, 3, 4, 5), (0, 1, 2, 3, 5, 4)) * -1.0
    .add 78 (.ein [(75, [0, 1, 2, 3, 4, 5])] [0, 1, 2, 3, 5, 4]) (-1) 1,
    -- 266: del x60
    .del 75,
    -- 267: x63 += einsum(x62, (0, 1, 2, 3, 4, 5), (2, 1, 3, 0, 5, 4)) * -1.0
    .add 78 (.ein [(77, [0, 1, 2, 3, 4, 5])] [2, 1, 3, 0, 5, 4]) (-1) 1,
    -- 268: del x62
    .del 77,
    -- 269: x64 = np.zeros((nocc, nocc, nocc, nvir, nvir, nvir), dtype=types[float])
    .zeros 79 [0, 0, 0, 1, 1, 1],
    -- 270: x64 += einsum(t1, (0, 1), x63, (2, 3, 0, 4, 5, 6), (2, 3, 4, 5, 6, 1))
    .add 79 (.ein [(1, [0, 1]), (78, [2, 3, 0, 4, 5, 6])] [2, 3, 4, 5, 6, 1]) 1 1,
    -- 271: del x63
    .del 78,
    -- 272: x65 = np.zeros((nocc, nocc, nocc, nvir, nvir, nvir), dtype=types[float])
    .zeros 80 [0, 0, 0, 1, 1, 1],
    -- 273: x65 += einsum(x59, (0, 1, 2, 3, 4, 5), (1, 0, 2, 3, 5, 4)) * -1.0
    .add 80 (.ein [(74, [0, 1, 2, 3, 4, 5])] [1, 0, 2, 3, 5, 4]) (-1) 1,
    -- 274: del x59
    .del 74,
    -- 275: x65 += einsum(x64, (0, 1, 2, 3, 4, 5), (0, 1, 2, 5, 4, 3)) * -1.0
    .add 80 (.ein [(79, [0, 1, 2, 3, 4, 5])] [0, 1, 2, 5, 4, 3]) (-1) 1,
    -- 276: del x64
    .del 79,
    -- 277: t3new += einsum(x65, (0, 1, 2, 3, 4, 5), (0, 1, 2, 3, 4, 5)) * -1.0
    .add 63 (.ein [(80, [0, 1, 2, 3, 4, 5])] [0, 1, 2, 3, 4, 5]) (-1) 1,
    -- 278: t3new += einsum(x65, (0, 1, 2, 3, 4, 5), (0, 1, 2, 4, 3, 5))
    .add 63 (.ein [(80, [0, 1, 2, 3, 4, 5])] [0, 1, 2, 4, 3, 5]) 1 1,
    -- 279: t3new += einsum(x65, (0, 1, 2, 3, 4, 5), (0, 1, 2, 4, 5, 3)) * -1.0
    .add 63 (.ein [(80, [0, 1, 2, 3, 4, 5])] [0, 1, 2, 4, 5, 3]) (-1) 1,
    -- 280: t3new += einsum(x65, (0, 1, 2, 3, 4, 5), (0, 2, 1, 3, 4, 5))
    .add 63 (.ein [(80, [0, 1, 2, 3, 4, 5])] [0, 2, 1, 3, 4, 5]) 1 1,
    -- 281: t3new += einsum(x65, (0, 1, 2, 3, 4, 5), (0, 2, 1, 4, 3, 5)) * -1.0
    .add 63 (.ein [(80, [0, 1, 2, 3, 4, 5])] [0, 2, 1, 4, 3, 5]) (-1) 1,
    -- 282: t3new += einsum(x65, (0, 1, 2, 3, 4, 5), (0, 2, 1, 4, 5, 3))
    .add 63 (.ein [(80, [0, 1, 2, 3, 4, 5])] [0, 2, 1, 4, 5, 3]) 1 1,
    -- 283: t3new += einsum(x65, (0, 1, 2, 3, 4, 5), (2, 1, 0, 3, 4, 5))
    .add 63 (.ein [(80, [0, 1, 2, 3, 4, 5])] [2, 1, 0, 3, 4, 5]) 1 1,
    -- 284: t3new += einsum(x65, (0, 1, 2, 3, 4, 5), (2, 1, 0, 4, 3, 5)) * -1.0
    .add 63 (.ein [(80, [0, 1, 2, 3, 4, 5])] [2, 1, 0, 4, 3, 5]) (-1) 1,
    -- 285: t3new += einsum(x65, (0, 1, 2, 3, 4, 5), (2, 1, 0, 4, 5, 3))
    .add 63 (.ein [(80, [0, 1, 2, 3, 4, 5])] [2, 1, 0, 4, 5, 3]) 1 1,
    -- 286: del x65
    .del 80,
    -- 287: x66 = np.zeros((nocc, nocc, nocc, nvir, nvir, nvir), dtype=types[float])
    .zeros 81 [0, 0, 0, 1, 1, 1],
    -- 288: x66 += einsum(x6, (0, 1), t3, (2, 3, 0, 4, 5, 6), (2, 3, 1, 4, 5, 6)) * -1.0
    .add 81 (.ein [(20, [0, 1]), (3, [2, 3, 0, 4, 5, 6])] [2, 3, 1, 4, 5, 6]) (-1) 1,
    -- 289: del x6
    .del 20,
    -- 290: x67 = np.zeros((nocc, nocc, nocc, nvir, nvir, nvir), dtype=types[float])
    .zeros 82 [0, 0, 0, 1, 1, 1],
    -- 291: x67 += einsum(x61, (0, 1, 2, 3), t3, (4, 1, 0, 5, 6, 7), (4, 3, 2, 5, 6, 7)) * -0.25
    .add 82 (.ein [(76, [0, 1, 2, 3]), (3, [4, 1, 0, 5, 6, 7])] [4, 3, 2, 5, 6, 7]) (-1) 4,
    -- 292: del x61
    .del 76,
    -- 293: x68 = np.zeros((nocc, nocc, nocc, nvir, nvir, nvir), dtype=types[float])
    .zeros 83 [0, 0, 0, 1, 1, 1],
    -- 294: x68 += einsum(x66, (0, 1, 2, 3, 4, 5), (0, 1, 2, 4, 5, 3))
    .add 83 (.ein [(81, [0, 1, 2, 3, 4, 5])] [0, 1, 2, 4, 5, 3]) 1 1,
    -- 295: del x66
    .del 81,
    -- 296: x68 += einsum(x67, (0, 1, 2, 3, 4, 5), (2, 1, 0, 4, 5, 3)) * -1.0
    .add 83 (.ein [(82, [0, 1, 2, 3, 4, 5])] [2, 1, 0, 4, 5, 3]) (-1) 1,
    -- 297: del x67
    .del 82,
    -- 298: t3new += einsum(x68, (0, 1, 2, 3, 4, 5), (0, 1, 2, 5, 3, 4))
    .add 63 (.ein [(83, [0, 1, 2, 3, 4, 5])] [0, 1, 2, 5, 3, 4]) 1 1,
    -- 299: t3new += einsum(x68, (0, 1, 2, 3, 4, 5), (0, 2, 1, 5, 3, 4)) * -1.0
    .add 63 (.ein [(83, [0, 1, 2, 3, 4, 5])] [0, 2, 1, 5, 3, 4]) (-1) 1,
    -- 300: t3new += einsum(x68, (0, 1, 2, 3, 4, 5), (2, 1, 0, 5, 3, 4)) * -1.0
    .add 63 (.ein [(83, [0, 1, 2, 3, 4, 5])] [2, 1, 0, 5, 3, 4]) (-1) 1,
    -- 301: del x68
    .del 83,
    -- 302: x69 = np.zeros((nocc, nocc, nocc, nvir, nvir, nvir), dtype=types[float])
    .zeros 84 [0, 0, 0, 1, 1, 1],
    -- 303: x69 += einsum(t2, (0, 1, 2, 3), x41, (4, 1, 5, 6), (0, 4, 5, 2, 3, 6))
    .add 84 (.ein [(7, [0, 1, 2, 3]), (55, [4, 1, 5, 6])] [0, 4, 5, 2, 3, 6]) 1 1,
    -- 304: del x41
    .del 55,
    -- 305: x70 = np.zeros((nocc, nocc, nocc, nvir), dtype=types[float])
    .zeros 85 [0, 0, 0, 1],
    -- 306: x70 += einsum(x40, (0, 1, 2, 3), (0, 2, 1, 3)) * -1.0
    .add 85 (.ein [(54, [0, 1, 2, 3])] [0, 2, 1, 3]) (-1) 1,
    -- 307: del x40
    .del 54,
    -- 308: x70 += einsum(x42, (0, 1, 2, 3), (0, 1, 2, 3))
    .add 85 (.ein [(56, [0, 1, 2, 3])] [0, 1, 2, 3]) 1 1,
    -- 309: del x42
    .del 56,
    -- 310: x71 = np.zeros((nocc, nocc, nocc, nvir, nvir, nvir), dtype=types[float])
    .zeros 86 [0, 0, 0, 1, 1, 1],
    -- 311: x71 += einsum(t2, (0, 1, 2, 3), x70, (4, 5, 1, 6), (0, 4, 5, 2, 3, 6)) * -1.0
    .add 86 (.ein [(7, [0, 1, 2, 3]), (85, [4, 5, 1, 6])] [0, 4, 5, 2, 3, 6]) (-1) 1,
    -- 312: del x70
    .del 85,
    -- 313: x72 = np.zeros((nocc, nocc, nocc, nvir, nvir, nvir), dtype=types[float])
    .zeros 87 [0, 0, 0, 1, 1, 1],
    -- 314: x72 += einsum(x69, (0, 1, 2, 3, 4, 5), (0, 1, 2, 4, 3, 5)) * -1.0
    .add 87 (.ein [(84, [0, 1, 2, 3, 4, 5])] [0, 1, 2, 4, 3, 5]) (-1) 1,
    -- 315: del x69
    .del 84,
    -- 316: x72 += einsum(x71, (0, 1, 2, 3, 4, 5), (1, 0, 2, 4, 3, 5))
    .add 87 (.ein [(86, [0, 1, 2, 3, 4, 5])] [1, 0, 2, 4, 3, 5]) 1 1,
    -- 317: del x71
    .del 86,
    -- 318: t3new += einsum(x72, (0, 1, 2, 3, 4, 5), (0, 1, 2, 3, 4, 5))
    .add 63 (.ein [(87, [0, 1, 2, 3, 4, 5])] [0, 1, 2, 3, 4, 5]) 1 1,
    -- 319: t3new += einsum(x72, (0, 1, 2, 3, 4, 5), (0, 1, 2, 3, 5, 4)) * -1.0
    .add 63 (.ein [(87, [0, 1, 2, 3, 4, 5])] [0, 1, 2, 3, 5, 4]) (-1) 1,
    -- 320: t3new += einsum(x72, (0, 1, 2, 3, 4, 5), (0, 1, 2, 5, 3, 4))
    .add 63 (.ein [(87, [0, 1, 2, 3, 4, 5])] [0, 1, 2, 5, 3, 4]) 1 1,
    -- 321: t3new += einsum(x72, (0, 1, 2, 3, 4, 5), (0, 2, 1, 3, 4, 5)) * -1.0
    .add 63 (.ein [(87, [0, 1, 2, 3, 4, 5])] [0, 2, 1, 3, 4, 5]) (-1) 1,
    -- 322: t3new += einsum(x72, (0, 1, 2, 3, 4, 5), (0, 2, 1, 3, 5, 4))
    .add 63 (.ein [(87, [0, 1, 2, 3, 4, 5])] [0, 2, 1, 3, 5, 4]) 1 1,
    -- 323: t3new += einsum(x72, (0, 1, 2, 3, 4, 5), (0, 2, 1, 5, 3, 4)) * -1.0
    .add 63 (.ein [(87, [0, 1, 2, 3, 4, 5])] [0, 2, 1, 5, 3, 4]) (-1) 1,
    -- 324: t3new += einsum(x72, (0, 1, 2, 3, 4, 5), (1, 0, 2, 3, 4, 5)) * -1.0
    .add 63 (.ein [(87, [0, 1, 2, 3, 4, 5])] [1, 0, 2, 3, 4, 5]) (-1) 1,
    -- 325: t3new += einsum(x72, (0, 1, 2, 3, 4, 5), (1, 0, 2, 3, 5, 4))
    .add 63 (.ein [(87, [0, 1, 2, 3, 4, 5])] [1, 0, 2, 3, 5, 4]) 1 1,
    -- 326: t3new += einsum(x72, (0, 1, 2, 3, 4, 5), (1, 0, 2, 5, 3, 4)) * -1.0
    .add 63 (.ein [(87, [0, 1, 2, 3, 4, 5])] [1, 0, 2, 5, 3, 4]) (-1) 1,
    -- 327: t3new += einsum(x72, (0, 1, 2, 3, 4, 5), (2, 0, 1, 3, 4, 5))
    .add 63 (.ein [(87, [0, 1, 2, 3, 4, 5])] [2, 0, 1, 3, 4, 5]) 1 1,
    -- 328: t3new += einsum(x72, (0, 1, 2, 3, 4, 5), (2, 0, 1, 3, 5, 4)) * -1.0
    .add 63 (.ein [(87, [0, 1, 2, 3, 4, 5])] [2, 0, 1, 3, 5, 4]) (-1) 1,
    -- 329: t3new += einsum(x72, (0, 1, 2, 3, 4, 5), (2, 0, 1, 5, 3, 4))
    .add 63 (.ein [(87, [0, 1, 2, 3, 4, 5])] [2, 0, 1, 5, 3, 4]) 1 1,
    -- 330: t3new += einsum(x72, (0, 1, 2, 3, 4, 5), (1, 2, 0, 3, 4, 5))
    .add 63 (.ein [(87, [0, 1, 2, 3, 4, 5])] [1, 2, 0, 3, 4, 5]) 1 1,
    -- 331: t3new += einsum(x72, (0, 1, 2, 3, 4, 5), (1, 2, 0, 3, 5, 4)) * -1.0
    .add 63 (.ein [(87, [0, 1, 2, 3, 4, 5])] [1, 2, 0, 3, 5, 4]) (-1) 1,
    -- 332: t3new += einsum(x72, (0, 1, 2, 3, 4, 5), (1, 2, 0, 5, 3, 4))
    .add 63 (.ein [(87, [0, 1, 2, 3, 4, 5])] [1, 2, 0, 5, 3, 4]) 1 1,
    -- 333: t3new += einsum(x72, (0, 1, 2, 3, 4, 5), (2, 1, 0, 3, 4, 5)) * -1.0
    .add 63 (.ein [(87, [0, 1, 2, 3, 4, 5])] [2, 1, 0, 3, 4, 5]) (-1) 1,
    -- 334: t3new += einsum(x72, (0, 1, 2, 3, 4, 5), (2, 1, 0, 3, 5, 4))
    .add 63 (.ein [(87, [0, 1, 2, 3, 4, 5])] [2, 1, 0, 3, 5, 4]) 1 1,
    -- 335: t3new += einsum(x72, (0, 1, 2, 3, 4, 5), (2, 1, 0, 5, 3, 4)) * -1.0
    .add 63 (.ein [(87, [0, 1, 2, 3, 4, 5])] [2, 1, 0, 5, 3, 4]) (-1) 1,
    -- 336: del x72
    .del 87,
    -- 337: x73 = np.zeros((nocc, nocc, nocc, nvir), dtype=types[float])
    .zeros 88 [0, 0, 0, 1],
    -- 338: x73 += einsum(t1, (0, 1), x15, (2, 0, 3, 4), (2, 3, 4, 1)) * -1.0
    .add 88 (.ein [(1, [0, 1]), (29, [2, 0, 3, 4])] [2, 3, 4, 1]) (-1) 1,
    -- 339: del x15
    .del 29,
    -- 340: x74 = np.zeros((nocc, nocc, nocc, nvir, nvir, nvir), dtype=types[float])
    .zeros 89 [0, 0, 0, 1, 1, 1],
    -- 341: x74 += einsum(t2, (0, 1, 2, 3), x73, (4, 1, 5, 6), (4, 0, 5, 6, 2, 3)) * -1.0
    .add 89 (.ein [(7, [0, 1, 2, 3]), (88, [4, 1, 5, 6])] [4, 0, 5, 6, 2, 3]) (-1) 1,
    -- 342: del x73
    .del 88,
    -- 343: t3new += einsum(x74, (0, 1, 2, 3, 4, 5), (0, 1, 2, 3, 5, 4))
    .add 63 (.ein [(89, [0, 1, 2, 3, 4, 5])] [0, 1, 2, 3, 5, 4]) 1 1,
    -- 344: t3new += einsum(x74, (0, 1, 2, 3, 4, 5), (0, 1, 2, 5, 3, 4)) * -1.0
    .add 63 (.ein [(89, [0, 1, 2, 3, 4, 5])] [0, 1, 2, 5, 3, 4]) (-1) 1,
    -- 345: t3new += einsum(x74, (0, 1, 2, 3, 4, 5), (0, 1, 2, 5, 4, 3))
    .add 63 (.ein [(89, [0, 1, 2, 3, 4, 5])] [0, 1, 2, 5, 4, 3]) 1 1,
    -- 346: t3new += einsum(x74, (0, 1, 2, 3, 4, 5), (0, 2, 1, 3, 5, 4)) * -1.0
    .add 63 (.ein [(89, [0, 1, 2, 3, 4, 5])] [0, 2, 1, 3, 5, 4]) (-1) 1,
    -- 347: t3new += einsum(x74, (0, 1, 2, 3, 4, 5), (0, 2, 1, 5, 3, 4))
    .add 63 (.ein [(89, [0, 1, 2, 3, 4, 5])] [0, 2, 1, 5, 3, 4]) 1 1,
    -- 348: t3new += einsum(x74, (0, 1, 2, 3, 4, 5), (0, 2, 1, 5, 4, 3)) * -1.0
    .add 63 (.ein [(89, [0, 1, 2, 3, 4, 5])] [0, 2, 1, 5, 4, 3]) (-1) 1,
    -- 349: t3new += einsum(x74, (0, 1, 2, 3, 4, 5), (1, 0, 2, 3, 5, 4)) * -1.0
    .add 63 (.ein [(89, [0, 1, 2, 3, 4, 5])] [1, 0, 2, 3, 5, 4]) (-1) 1,
    -- 350: t3new += einsum(x74, (0, 1, 2, 3, 4, 5), (1, 0, 2, 5, 3, 4))
    .add 63 (.ein [(89, [0, 1, 2, 3, 4, 5])] [1, 0, 2, 5, 3, 4]) 1 1,
    -- 351: t3new += einsum(x74, (0, 1, 2, 3, 4, 5), (1, 0, 2, 5, 4, 3)) * -1.0
    .add 63 (.ein [(89, [0, 1, 2, 3, 4, 5])] [1, 0, 2, 5, 4, 3]) (-1) 1,
    -- 352: t3new += einsum(x74, (0, 1, 2, 3, 4, 5), (2, 0, 1, 3, 5, 4))
    .add 63 (.ein [(89, [0, 1, 2, 3, 4, 5])] [2, 0, 1, 3, 5, 4]) 1 1,
    -- 353: t3new += einsum(x74, (0, 1, 2, 3, 4, 5), (2, 0, 1, 5, 3, 4)) * -1.0
    .add 63 (.ein [(89, [0, 1, 2, 3, 4, 5])] [2, 0, 1, 5, 3, 4]) (-1) 1,
    -- 354: t3new += einsum(x74, (0, 1, 2, 3, 4, 5), (2, 0, 1, 5, 4, 3))
    .add 63 (.ein [(89, [0, 1, 2, 3, 4, 5])] [2, 0, 1, 5, 4, 3]) 1 1,
    -- 355: t3new += einsum(x74, (0, 1, 2, 3, 4, 5), (1, 2, 0, 3, 5, 4))
    .add 63 (.ein [(89, [0, 1, 2, 3, 4, 5])] [1, 2, 0, 3, 5, 4]) 1 1,
    -- 356: t3new += einsum(x74, (0, 1, 2, 3, 4, 5), (1, 2, 0, 5, 3, 4)) * -1.0
    .add 63 (.ein [(89, [0, 1, 2, 3, 4, 5])] [1, 2, 0, 5, 3, 4]) (-1) 1,
    -- 357: t3new += einsum(x74, (0, 1, 2, 3, 4, 5), (1, 2, 0, 5, 4, 3))
    .add 63 (.ein [(89, [0, 1, 2, 3, 4, 5])] [1, 2, 0, 5, 4, 3]) 1 1,
    -- 358: t3new += einsum(x74, (0, 1, 2, 3, 4, 5), (2, 1, 0, 3, 5, 4)) * -1.0
    .add 63 (.ein [(89, [0, 1, 2, 3, 4, 5])] [2, 1, 0, 3, 5, 4]) (-1) 1,
    -- 359: t3new += einsum(x74, (0, 1, 2, 3, 4, 5), (2, 1, 0, 5, 3, 4))
    .add 63 (.ein [(89, [0, 1, 2, 3, 4, 5])] [2, 1, 0, 5, 3, 4]) 1 1,
    -- 360: t3new += einsum(x74, (0, 1, 2, 3, 4, 5), (2, 1, 0, 5, 4, 3)) * -1.0
    .add 63 (.ein [(89, [0, 1, 2, 3, 4, 5])] [2, 1, 0, 5, 4, 3]) (-1) 1,
    -- 361: del x74
    .del 89,
    -- 362: x75 = np.zeros((nocc, nocc, nocc, nocc, nvir, nvir), dtype=types[float])
    .zeros 90 [0, 0, 0, 0, 1, 1],
    -- 363: x75 += einsum(v.ovvv, (0, 1, 2, 3), t3, (4, 5, 6, 7, 2, 3), (4, 5, 6, 0, 7, 1))
    .add 90 (.ein [(8, [0, 1, 2, 3]), (3, [4, 5, 6, 7, 2, 3])] [4, 5, 6, 0, 7, 1]) 1 1,
    -- 364: x76 = np.zeros((nocc, nocc, nocc, nvir, nvir, nvir), dtype=types[float])
    .zeros 91 [0, 0, 0, 1, 1, 1],
    -- 365: x76 += einsum(t1, (0, 1), x75, (2, 3, 4, 0, 5, 6), (2, 3, 4, 1, 5, 6))
    .add 91 (.ein [(1, [0, 1]), (90, [2, 3, 4, 0, 5, 6])] [2, 3, 4, 1, 5, 6]) 1 1,
    -- 366: del x75
    .del 90,
    -- 367: t3new += einsum(x76, (0, 1, 2, 3, 4, 5), (0, 1, 2, 3, 4, 5)) * 0.5
    .add 63 (.ein [(91, [0, 1, 2, 3, 4, 5])] [0, 1, 2, 3, 4, 5]) 1 2,
    -- 368: t3new += einsum(x76, (0, 1, 2, 3, 4, 5), (0, 1, 2, 3, 5, 4)) * -0.5
    .add 63 (.ein [(91, [0, 1, 2, 3, 4, 5])] [0, 1, 2, 3, 5, 4]) (-1) 2,
    -- 369: t3new += einsum(x76, (0, 1, 2, 3, 4, 5), (0, 1, 2, 4, 3, 5)) * -0.5
    .add 63 (.ein [(91, [0, 1, 2, 3, 4, 5])] [0, 1, 2, 4, 3, 5]) (-1) 2,
    -- 370: t3new += einsum(x76, (0, 1, 2, 3, 4, 5), (0, 1, 2, 5, 3, 4)) * 0.5
    .add 63 (.ein [(91, [0, 1, 2, 3, 4, 5])] [0, 1, 2, 5, 3, 4]) 1 2,
    -- 371: t3new += einsum(x76, (0, 1, 2, 3, 4, 5), (0, 1, 2, 4, 5, 3)) * 0.5
    .add 63 (.ein [(91, [0, 1, 2, 3, 4, 5])] [0, 1, 2, 4, 5, 3]) 1 2,
    -- 372: t3new += einsum(x76, (0, 1, 2, 3, 4, 5), (0, 1, 2, 5, 4, 3)) * -0.5
    .add 63 (.ein [(91, [0, 1, 2, 3, 4, 5])] [0, 1, 2, 5, 4, 3]) (-1) 2,
    -- 373: del x76
    .del 91,
    -- 374: x77 = np.zeros((nocc, nocc, nocc, nvir, nvir, nvir), dtype=types[float])
    .zeros 92 [0, 0, 0, 1, 1, 1],
    -- 375: x77 += einsum(x38, (0, 1, 2, 3), t3, (4, 5, 1, 6, 7, 3), (0, 4, 5, 6, 7, 2)) * -1.0
    .add 92 (.ein [(52, [0, 1, 2, 3]), (3, [4, 5, 1, 6, 7, 3])] [0, 4, 5, 6, 7, 2]) (-1) 1,
    -- 376: x78 = np.zeros((nocc, nvir, nvir, nvir), dtype=types[float])
    .zeros 93 [0, 1, 1, 1],
    -- 377: x78 += einsum(x0, (0, 1, 2, 3), x2, (1, 2, 4, 5), (0, 3, 4, 5))
    .add 93 (.ein [(14, [0, 1, 2, 3]), (16, [1, 2, 4, 5])] [0, 3, 4, 5]) 1 1,
    -- 378: del x0
    .del 14,
    -- 379: x79 = np.zeros((nocc, nocc, nocc, nvir, nvir, nvir), dtype=types[float])
    .zeros 94 [0, 0, 0, 1, 1, 1],
    -- 380: x79 += einsum(t2, (0, 1, 2, 3), x78, (4, 3, 5, 6), (0, 1, 4, 2, 6, 5)) * 0.5
    .add 94 (.ein [(7, [0, 1, 2, 3]), (93, [4, 3, 5, 6])] [0, 1, 4, 2, 6, 5]) 1 2,
    -- 381: del x78
    .del 93,
    -- 382: x80 = np.zeros((nocc, nocc, nocc, nvir), dtype=types[float])
    .zeros 95 [0, 0, 0, 1],
    -- 383: x80 += einsum(v.ooov, (0, 1, 2, 3), (0, 1, 2, 3)) * -1.0
    .add 95 (.ein [(6, [0, 1, 2, 3])] [0, 1, 2, 3]) (-1) 1,
    -- 384: x80 += einsum(x31, (0, 1, 2, 3), (0, 1, 2, 3)) * 0.5
    .add 95 (.ein [(45, [0, 1, 2, 3])] [0, 1, 2, 3]) 1 2,
    -- 385: del x31
    .del 45,
    -- 386: x81 = np.zeros((nocc, nocc, nocc, nvir, nvir, nvir), dtype=types[float])
    .zeros 96 [0, 0, 0, 1, 1, 1],
    -- 387: x81 += einsum(t2, (0, 1, 2, 3), x80, (4, 5, 1, 6), (0, 4, 5, 2, 3, 6)) * -1.0
    .add 96 (.ein [(7, [0, 1, 2, 3]), (95, [4, 5, 1, 6])] [0, 4, 5, 2, 3, 6]) (-1) 1,
    -- 388: del x80
    .del 95,
    -- 389: x82 = np.zeros((nocc, nocc, nocc, nvir, nvir, nvir), dtype=types[float])
    .zeros 97 [0, 0, 0, 1, 1, 1],
    -- 390: x82 += einsum(x77, (0, 1, 2, 3, 4, 5), (0, 2, 1, 4, 3, 5))
    .add 97 (.ein [(92, [0, 1, 2, 3, 4, 5])] [0, 2, 1, 4, 3, 5]) 1 1,
    -- 391: del x77
    .del 92,
    -- 392: x82 += einsum(x79, (0, 1, 2, 3, 4, 5), (2, 1, 0, 5, 4, 3))
    .add 97 (.ein [(94, [0, 1, 2, 3, 4, 5])] [2, 1, 0, 5, 4, 3]) 1 1,
    -- 393: del x79
    .del 94,
    -- 394: x82 += einsum(x81, (0, 1, 2, 3, 4, 5), (0, 1, 2, 4, 3, 5)) * -1.0
    .add 97 (.ein [(96, [0, 1, 2, 3, 4, 5])] [0, 1, 2, 4, 3, 5]) (-1) 1,
    -- 395: del x81
    .del 96,
    -- 396: t3new += einsum(x82, (0, 1, 2, 3, 4, 5), (0, 1, 2, 3, 4, 5)) * -1.0
    .add 63 (.ein [(97, [0, 1, 2, 3, 4, 5])] [0, 1, 2, 3, 4, 5]) (-1) 1,
    -- 397: t3new += einsum(x82, (0, 1, 2, 3, 4, 5), (0, 1, 2, 3, 5, 4))
    .add 63 (.ein [(97, [0, 1, 2, 3, 4, 5])] [0, 1, 2, 3, 5, 4]) 1 1,
    -- 398: t3new += einsum(x82, (0, 1, 2, 3, 4, 5), (0, 1, 2, 5, 3, 4)) * -1.0
    .add 63 (.ein [(97, [0, 1, 2, 3, 4, 5])] [0, 1, 2, 5, 3, 4]) (-1) 1,
    -- 399: t3new += einsum(x82, (0, 1, 2, 3, 4, 5), (2, 0, 1, 3, 4, 5)) * -1.0
    .add 63 (.ein [(97, [0, 1, 2, 3, 4, 5])] [2, 0, 1, 3, 4, 5]) (-1) 1,
    -- 400: t3new += einsum(x82, (0, 1, 2, 3, 4, 5), (2, 0, 1, 3, 5, 4))
    .add 63 (.ein [(97, [0, 1, 2, 3, 4, 5])] [2, 0, 1, 3, 5, 4]) 1 1,
    -- 401: t3new += einsum(x82, (0, 1, 2, 3, 4, 5), (2, 0, 1, 5, 3, 4)) * -1.0
    .add 63 (.ein [(97, [0, 1, 2, 3, 4, 5])] [2, 0, 1, 5, 3, 4]) (-1) 1,
    -- 402: t3new += einsum(x82, (0, 1, 2, 3, 4, 5), (2, 1, 0, 3, 4, 5))
    .add 63 (.ein [(97, [0, 1, 2, 3, 4, 5])] [2, 1, 0, 3, 4, 5]) 1 1,
    -- 403: t3new += einsum(x82, (0, 1, 2, 3, 4, 5), (2, 1, 0, 3, 5, 4)) * -1.0
    .add 63 (.ein [(97, [0, 1, 2, 3, 4, 5])] [2, 1, 0, 3, 5, 4]) (-1) 1,
    -- 404: t3new += einsum(x82, (0, 1, 2, 3, 4, 5), (2, 1, 0, 5, 3, 4))
    .add 63 (.ein [(97, [0, 1, 2, 3, 4, 5])] [2, 1, 0, 5, 3, 4]) 1 1,
    -- 405: del x82
    .del 97,
    -- 406: x83 = np.zeros((nocc, nocc, nocc, nvir, nvir, nvir), dtype=types[float])
    .zeros 98 [0, 0, 0, 1, 1, 1],
    -- 407: x83 += einsum(x27, (0, 1), t3, (2, 3, 4, 5, 6, 1), (2, 3, 4, 5, 6, 0)) * -1.0
    .add 98 (.ein [(41, [0, 1]), (3, [2, 3, 4, 5, 6, 1])] [2, 3, 4, 5, 6, 0]) (-1) 1,
    -- 408: del x27
    .del 41,
    -- 409: x84 = np.zeros((nocc, nocc, nocc, nocc, nocc, nvir), dtype=types[float])
    .zeros 99 [0, 0, 0, 0, 0, 1],
    -- 410: x84 += einsum(v.oovv, (0, 1, 2, 3), t3, (4, 5, 6, 7, 2, 3), (4, 5, 6, 0, 1, 7))
    .add 99 (.ein [(2, [0, 1, 2, 3]), (3, [4, 5, 6, 7, 2, 3])] [4, 5, 6, 0, 1, 7]) 1 1,
    -- 411: x85 = np.zeros((nocc, nocc, nocc, nvir, nvir, nvir), dtype=types[float])
    .zeros 100 [0, 0, 0, 1, 1, 1],
    -- 412: x85 += einsum(x2, (0, 1, 2, 3), x84, (4, 5, 6, 0, 1, 7), (4, 5, 6, 2, 3, 7)) * 0.25
    .add 100 (.ein [(16, [0, 1, 2, 3]), (99, [4, 5, 6, 0, 1, 7])] [4, 5, 6, 2, 3, 7]) 1 4,
    -- 413: del x84
    .del 99,
    -- 414: x86 = np.zeros((nocc, nocc, nocc, nvir, nvir, nvir), dtype=types[float])
    .zeros 101 [0, 0, 0, 1, 1, 1],
    -- 415: x86 += einsum(x83, (0, 1, 2, 3, 4, 5), (0, 1, 2, 4, 3, 5)) * -1.0
    .add 101 (.ein [(98, [0, 1, 2, 3, 4, 5])] [0, 1, 2, 4, 3, 5]) (-1) 1,
    -- 416: del x83
    .del 98,
    -- 417: x86 += einsum(x85, (0, 1, 2, 3, 4, 5), (0, 1, 2, 4, 3, 5)) * -1.0
    .add 101 (.ein [(100, [0, 1, 2, 3, 4, 5])] [0, 1, 2, 4, 3, 5]) (-1) 1,
    -- 418: del x85
    .del 100,
    -- 419: t3new += einsum(x86, (0, 1, 2, 3, 4, 5), (0, 1, 2, 3, 4, 5))
    .add 63 (.ein [(101, [0, 1, 2, 3, 4, 5])] [0, 1, 2, 3, 4, 5]) 1 1,
    -- 420: t3new += einsum(x86, (0, 1, 2, 3, 4, 5), (0, 1, 2, 3, 5, 4)) * -1.0
    .add 63 (.ein [(101, [0, 1, 2, 3, 4, 5])] [0, 1, 2, 3, 5, 4]) (-1) 1,
    -- 421: t3new += einsum(x86, (0, 1, 2, 3, 4, 5), (0, 1, 2, 5, 3, 4))
    .add 63 (.ein [(101, [0, 1, 2, 3, 4, 5])] [0, 1, 2, 5, 3, 4]) 1 1,
    -- 422: del x86
    .del 101,
    -- 423: x87 = np.zeros((nocc, nvir, nvir, nvir), dtype=types[float])
    .zeros 102 [0, 1, 1, 1],
    -- 424: x87 += einsum(t2, (0, 1, 2, 3), v.ovvv, (1, 4, 5, 3), (0, 2, 4, 5))
    .add 102 (.ein [(7, [0, 1, 2, 3]), (8, [1, 4, 5, 3])] [0, 2, 4, 5]) 1 1,
    -- 425: x88 = np.zeros((nocc, nocc, nocc, nvir, nvir, nvir), dtype=types[float])
    .zeros 103 [0, 0, 0, 1, 1, 1],
    -- 426: x88 += einsum(t2, (0, 1, 2, 3), x87, (4, 5, 6, 3), (0, 1, 4, 2, 5, 6))
    .add 103 (.ein [(7, [0, 1, 2, 3]), (102, [4, 5, 6, 3])] [0, 1, 4, 2, 5, 6]) 1 1,
    -- 427: del x87
    .del 102,
    -- 428: x89 = np.zeros((nocc, nocc, nvir, nvir), dtype=types[float])
    .zeros 104 [0, 0, 1, 1],
    -- 429: x89 += einsum(v.ovov, (0, 1, 2, 3), (0, 2, 3, 1)) * -1.0
    .add 104 (.ein [(5, [0, 1, 2, 3])] [0, 2, 3, 1]) (-1) 1,
    -- 430: x89 += einsum(x25, (0, 1, 2, 3), (0, 1, 2, 3))
    .add 104 (.ein [(39, [0, 1, 2, 3])] [0, 1, 2, 3]) 1 1,
    -- 431: del x25
    .del 39,
    -- 432: x90 = np.zeros((nocc, nocc, nocc, nocc, nvir, nvir), dtype=types[float])
    .zeros 105 [0, 0, 0, 0, 1, 1],
    -- 433: x90 += einsum(t2, (0, 1, 2, 3), x89, (4, 5, 6, 3), (0, 1, 4, 5, 2, 6)) * -1.0
    .add 105 (.ein [(7, [0, 1, 2, 3]), (104, [4, 5, 6, 3])] [0, 1, 4, 5, 2, 6]) (-1) 1,
    -- 434: del x89
    .del 104,
    -- 435: x91 = np.zeros((nocc, nocc, nocc, nvir, nvir, nvir), dtype=types[float])
    .zeros 106 [0, 0, 0, 1, 1, 1],
    -- 436: x91 += einsum(t1, (0, 1), x90, (2, 3, 4, 0, 5, 6), (3, 2, 4, 5, 6, 1)) * -1.0
    .add 106 (.ein [(1, [0, 1]), (105, [2, 3, 4, 0, 5, 6])] [3, 2, 4, 5, 6, 1]) (-1) 1,
    -- 437: del x90
    .del 105,
    -- 438: x92 = np.zeros((nocc, nocc, nocc, nvir, nvir, nvir), dtype=types[float])
    .zeros 107 [0, 0, 0, 1, 1, 1],
    -- 439: x92 += einsum(x88, (0, 1, 2, 3, 4, 5), (0, 1, 2, 3, 4, 5))
    .add 107 (.ein [(103, [0, 1, 2, 3, 4, 5])] [0, 1, 2, 3, 4, 5]) 1 1,
    -- 440: del x88
    .del 103,
    -- 441: x92 += einsum(x91, (0, 1, 2, 3, 4, 5), (0, 1, 2, 5, 3, 4)) * -1.0
    .add 107 (.ein [(106, [0, 1, 2, 3, 4, 5])] [0, 1, 2, 5, 3, 4]) (-1) 1,
    -- 442: del x91
    .del 106,
    -- 443: t3new += einsum(x92, (0, 1, 2, 3, 4, 5), (0, 1, 2, 3, 4, 5))
    .add 63 (.ein [(107, [0, 1, 2, 3, 4, 5])] [0, 1, 2, 3, 4, 5]) 1 1,
    -- 444: t3new += einsum(x92, (0, 1, 2, 3, 4, 5), (0, 1, 2, 3, 5, 4)) * -1.0
    .add 63 (.ein [(107, [0, 1, 2, 3, 4, 5])] [0, 1, 2, 3, 5, 4]) (-1) 1,
    -- 445: t3new += einsum(x92, (0, 1, 2, 3, 4, 5), (0, 1, 2, 4, 3, 5)) * -1.0
    .add 63 (.ein [(107, [0, 1, 2, 3, 4, 5])] [0, 1, 2, 4, 3, 5]) (-1) 1,
    -- 446: t3new += einsum(x92, (0, 1, 2, 3, 4, 5), (0, 1, 2, 5, 3, 4))
    .add 63 (.ein [(107, [0, 1, 2, 3, 4, 5])] [0, 1, 2, 5, 3, 4]) 1 1,
    -- 447: t3new += einsum(x92, (0, 1, 2, 3, 4, 5), (0, 1, 2, 4, 5, 3))
    .add 63 (.ein [(107, [0, 1, 2, 3, 4, 5])] [0, 1, 2, 4, 5, 3]) 1 1,
    -- 448: t3new += einsum(x92, (0, 1, 2, 3, 4, 5), (0, 1, 2, 5, 4, 3)) * -1.0
    .add 63 (.ein [(107, [0, 1, 2, 3, 4, 5])] [0, 1, 2, 5, 4, 3]) (-1) 1,
    -- 449: t3new += einsum(x92, (0, 1, 2, 3, 4, 5), (0, 2, 1, 3, 4, 5)) * -1.0
    .add 63 (.ein [(107, [0, 1, 2, 3, 4, 5])] [0, 2, 1, 3, 4, 5]) (-1) 1,
    -- 450: t3new += einsum(x92, (0, 1, 2, 3, 4, 5), (0, 2, 1, 3, 5, 4))
    .add 63 (.ein [(107, [0, 1, 2, 3, 4, 5])] [0, 2, 1, 3, 5, 4]) 1 1,
    -- 451: t3new += einsum(x92, (0, 1, 2, 3, 4, 5), (0, 2, 1, 4, 3, 5))
    .add 63 (.ein [(107, [0, 1, 2, 3, 4, 5])] [0, 2, 1, 4, 3, 5]) 1 1,
    -- 452: t3new += einsum(x92, (0, 1, 2, 3, 4, 5), (0, 2, 1, 5, 3, 4)) * -1.0
    .add 63 (.ein [(107, [0, 1, 2, 3, 4, 5])] [0, 2, 1, 5, 3, 4]) (-1) 1,
    -- 453: t3new += einsum(x92, (0, 1, 2, 3, 4, 5), (0, 2, 1, 4, 5, 3)) * -1.0
    .add 63 (.ein [(107, [0, 1, 2, 3, 4, 5])] [0, 2, 1, 4, 5, 3]) (-1) 1,
    -- 454: t3new += einsum(x92, (0, 1, 2, 3, 4, 5), (0, 2, 1, 5, 4, 3))
    .add 63 (.ein [(107, [0, 1, 2, 3, 4, 5])] [0, 2, 1, 5, 4, 3]) 1 1,
    -- 455: t3new += einsum(x92, (0, 1, 2, 3, 4, 5), (2, 1, 0, 3, 4, 5)) * -1.0
    .add 63 (.ein [(107, [0, 1, 2, 3, 4, 5])] [2, 1, 0, 3, 4, 5]) (-1) 1,
    -- 456: t3new += einsum(x92, (0, 1, 2, 3, 4, 5), (2, 1, 0, 3, 5, 4))
    .add 63 (.ein [(107, [0, 1, 2, 3, 4, 5])] [2, 1, 0, 3, 5, 4]) 1 1,
    -- 457: t3new += einsum(x92, (0, 1, 2, 3, 4, 5), (2, 1, 0, 4, 3, 5))
    .add 63 (.ein [(107, [0, 1, 2, 3, 4, 5])] [2, 1, 0, 4, 3, 5]) 1 1,
    -- 458: t3new += einsum(x92, (0, 1, 2, 3, 4, 5), (2, 1, 0, 5, 3, 4)) * -1.0
    .add 63 (.ein [(107, [0, 1, 2, 3, 4, 5])] [2, 1, 0, 5, 3, 4]) (-1) 1,
    -- 459: t3new += einsum(x92, (0, 1, 2, 3, 4, 5), (2, 1, 0, 4, 5, 3)) * -1.0
    .add 63 (.ein [(107, [0, 1, 2, 3, 4, 5])] [2, 1, 0, 4, 5, 3]) (-1) 1,
    -- 460: t3new += einsum(x92, (0, 1, 2, 3, 4, 5), (2, 1, 0, 5, 4, 3))
    .add 63 (.ein [(107, [0, 1, 2, 3, 4, 5])] [2, 1, 0, 5, 4, 3]) 1 1,
    -- 461: del x92
    .del 107,
    -- 462: x93 = np.zeros((nocc, nocc, nocc, nocc, nvir, nvir), dtype=types[float])
    .zeros 108 [0, 0, 0, 0, 1, 1],
    -- 463: x93 += einsum(t2, (0, 1, 2, 3), x38, (4, 5, 6, 3), (4, 0, 1, 5, 2, 6)) * -1.0
    .add 108 (.ein [(7, [0, 1, 2, 3]), (52, [4, 5, 6, 3])] [4, 0, 1, 5, 2, 6]) (-1) 1,
    -- 464: del x38
    .del 52,
    -- 465: x94 = np.zeros((nocc, nocc, nocc, nvir, nvir, nvir), dtype=types[float])
    .zeros 109 [0, 0, 0, 1, 1, 1],
    -- 466: x94 += einsum(t1, (0, 1), x93, (2, 3, 4, 0, 5, 6), (2, 3, 4, 1, 5, 6))
    .add 109 (.ein [(1, [0, 1]), (108, [2, 3, 4, 0, 5, 6])] [2, 3, 4, 1, 5, 6]) 1 1,
    -- 467: del x93
    .del 108,
    -- 468: t3new += einsum(x94, (0, 1, 2, 3, 4, 5), (0, 2, 1, 3, 4, 5))
    .add 63 (.ein [(109, [0, 1, 2, 3, 4, 5])] [0, 2, 1, 3, 4, 5]) 1 1,
    -- 469: t3new += einsum(x94, (0, 1, 2, 3, 4, 5), (0, 2, 1, 3, 5, 4)) * -1.0
    .add 63 (.ein [(109, [0, 1, 2, 3, 4, 5])] [0, 2, 1, 3, 5, 4]) (-1) 1,
    -- 470: t3new += einsum(x94, (0, 1, 2, 3, 4, 5), (0, 2, 1, 4, 3, 5)) * -1.0
    .add 63 (.ein [(109, [0, 1, 2, 3, 4, 5])] [0, 2, 1, 4, 3, 5]) (-1) 1,
    -- 471: t3new += einsum(x94, (0, 1, 2, 3, 4, 5), (0, 2, 1, 5, 3, 4))
    .add 63 (.ein [(109, [0, 1, 2, 3, 4, 5])] [0, 2, 1, 5, 3, 4]) 1 1,
    -- 472: t3new += einsum(x94, (0, 1, 2, 3, 4, 5), (0, 2, 1, 4, 5, 3))
    .add 63 (.ein [(109, [0, 1, 2, 3, 4, 5])] [0, 2, 1, 4, 5, 3]) 1 1,
    -- 473: t3new += einsum(x94, (0, 1, 2, 3, 4, 5), (0, 2, 1, 5, 4, 3)) * -1.0
    .add 63 (.ein [(109, [0, 1, 2, 3, 4, 5])] [0, 2, 1, 5, 4, 3]) (-1) 1,
    -- 474: t3new += einsum(x94, (0, 1, 2, 3, 4, 5), (1, 0, 2, 3, 4, 5))
    .add 63 (.ein [(109, [0, 1, 2, 3, 4, 5])] [1, 0, 2, 3, 4, 5]) 1 1,
    -- 475: t3new += einsum(x94, (0, 1, 2, 3, 4, 5), (1, 0, 2, 3, 5, 4)) * -1.0
    .add 63 (.ein [(109, [0, 1, 2, 3, 4, 5])] [1, 0, 2, 3, 5, 4]) (-1) 1,
    -- 476: t3new += einsum(x94, (0, 1, 2, 3, 4, 5), (1, 0, 2, 4, 3, 5)) * -1.0
    .add 63 (.ein [(109, [0, 1, 2, 3, 4, 5])] [1, 0, 2, 4, 3, 5]) (-1) 1,
    -- 477: t3new += einsum(x94, (0, 1, 2, 3, 4, 5), (1, 0, 2, 5, 3, 4))
    .add 63 (.ein [(109, [0, 1, 2, 3, 4, 5])] [1, 0, 2, 5, 3, 4]) 1 1,
    -- 478: t3new += einsum(x94, (0, 1, 2, 3, 4, 5), (1, 0, 2, 4, 5, 3))
    .add 63 (.ein [(109, [0, 1, 2, 3, 4, 5])] [1, 0, 2, 4, 5, 3]) 1 1,
    -- 479: t3new += einsum(x94, (0, 1, 2, 3, 4, 5), (1, 0, 2, 5, 4, 3)) * -1.0
    .add 63 (.ein [(109, [0, 1, 2, 3, 4, 5])] [1, 0, 2, 5, 4, 3]) (-1) 1,
    -- 480: t3new += einsum(x94, (0, 1, 2, 3, 4, 5), (1, 2, 0, 3, 4, 5)) * -1.0
    .add 63 (.ein [(109, [0, 1, 2, 3, 4, 5])] [1, 2, 0, 3, 4, 5]) (-1) 1,
    -- 481: t3new += einsum(x94, (0, 1, 2, 3, 4, 5), (1, 2, 0, 3, 5, 4))
    .add 63 (.ein [(109, [0, 1, 2, 3, 4, 5])] [1, 2, 0, 3, 5, 4]) 1 1,
    -- 482: t3new += einsum(x94, (0, 1, 2, 3, 4, 5), (1, 2, 0, 4, 3, 5))
    .add 63 (.ein [(109, [0, 1, 2, 3, 4, 5])] [1, 2, 0, 4, 3, 5]) 1 1,
    -- 483: t3new += einsum(x94, (0, 1, 2, 3, 4, 5), (1, 2, 0, 5, 3, 4)) * -1.0
    .add 63 (.ein [(109, [0, 1, 2, 3, 4, 5])] [1, 2, 0, 5, 3, 4]) (-1) 1,
    -- 484: t3new += einsum(x94, (0, 1, 2, 3, 4, 5), (1, 2, 0, 4, 5, 3)) * -1.0
    .add 63 (.ein [(109, [0, 1, 2, 3, 4, 5])] [1, 2, 0, 4, 5, 3]) (-1) 1,
    -- 485: t3new += einsum(x94, (0, 1, 2, 3, 4, 5), (1, 2, 0, 5, 4, 3))
    .add 63 (.ein [(109, [0, 1, 2, 3, 4, 5])] [1, 2, 0, 5, 4, 3]) 1 1,
    -- 486: del x94
    .del 109,
    -- 487: x95 = np.zeros((nocc, nocc, nocc, nvir, nvir, nvir), dtype=types[float])
    .zeros 110 [0, 0, 0, 1, 1, 1],
    -- 488: x95 += einsum(v.vvvv, (0, 1, 2, 3), t3, (4, 5, 6, 7, 2, 3), (4, 5, 6, 7, 0, 1))
    .add 110 (.ein [(10, [0, 1, 2, 3]), (3, [4, 5, 6, 7, 2, 3])] [4, 5, 6, 7, 0, 1]) 1 1,
    -- 489: x96 = np.zeros((nvir, nvir), dtype=types[float])
    .zeros 111 [1, 1],
    -- 490: x96 += einsum(f.ov, (0, 1), t1, (0, 2), (1, 2))
    .add 111 (.ein [(4, [0, 1]), (1, [0, 2])] [1, 2]) 1 1,
    -- 491: x97 = np.zeros((nvir, nvir), dtype=types[float])
    .zeros 112 [1, 1],
    -- 492: x97 += einsum(v.oovv, (0, 1, 2, 3), x2, (0, 1, 3, 4), (4, 2)) * -1.0
    .add 112 (.ein [(2, [0, 1, 2, 3]), (16, [0, 1, 3, 4])] [4, 2]) (-1) 1,
    -- 493: del x2
    .del 16,
    -- 494: x98 = np.zeros((nvir, nvir), dtype=types[float])
    .zeros 113 [1, 1],
    -- 495: x98 += einsum(f.vv, (0, 1), (0, 1)) * -2.0
    .add 113 (.ein [(0, [0, 1])] [0, 1]) (-2) 1,
    -- 496: x98 += einsum(x96, (0, 1), (0, 1)) * 2.0
    .add 113 (.ein [(111, [0, 1])] [0, 1]) 2 1,
    -- 497: del x96
    .del 111,
    -- 498: x98 += einsum(x97, (0, 1), (1, 0))
    .add 113 (.ein [(112, [0, 1])] [1, 0]) 1 1,
    -- 499: del x97
    .del 112,
    -- 500: x99 = np.zeros((nocc, nocc, nocc, nvir, nvir, nvir), dtype=types[float])
    .zeros 114 [0, 0, 0, 1, 1, 1],
    -- 501: x99 += einsum(x98, (0, 1), t3, (2, 3, 4, 5, 6, 0), (2, 3, 4, 5, 6, 1)) * 0.5
    .add 114 (.ein [(113, [0, 1]), (3, [2, 3, 4, 5, 6, 0])] [2, 3, 4, 5, 6, 1]) 1 2,
    -- 502: del x98
    .del 113,
    -- 503: x100 = np.zeros((nocc, nocc, nocc, nvir, nvir, nvir), dtype=types[float])
    .zeros 115 [0, 0, 0, 1, 1, 1],
    -- 504: x100 += einsum(x95, (0, 1, 2, 3, 4, 5), (0, 1, 2, 3, 5, 4)) * -0.5
    .add 115 (.ein [(110, [0, 1, 2, 3, 4, 5])] [0, 1, 2, 3, 5, 4]) (-1) 2,
    -- 505: del x95
    .del 110,
    -- 506: x100 += einsum(x99, (0, 1, 2, 3, 4, 5), (1, 2, 0, 5, 3, 4)) * -1.0
    .add 115 (.ein [(114, [0, 1, 2, 3, 4, 5])] [1, 2, 0, 5, 3, 4]) (-1) 1,
    -- 507: del x99
    .del 114,
    -- 508: t3new += einsum(x100, (0, 1, 2, 3, 4, 5), (0, 1, 2, 3, 4, 5))
    .add 63 (.ein [(115, [0, 1, 2, 3, 4, 5])] [0, 1, 2, 3, 4, 5]) 1 1,
    -- 509: t3new += einsum(x100, (0, 1, 2, 3, 4, 5), (0, 1, 2, 4, 3, 5)) * -1.0
    .add 63 (.ein [(115, [0, 1, 2, 3, 4, 5])] [0, 1, 2, 4, 3, 5]) (-1) 1,
    -- 510: t3new += einsum(x100, (0, 1, 2, 3, 4, 5), (0, 1, 2, 4, 5, 3))
    .add 63 (.ein [(115, [0, 1, 2, 3, 4, 5])] [0, 1, 2, 4, 5, 3]) 1 1,
    -- 511: del x100
    .del 115,
    -- 512: x101 = np.zeros((nocc, nocc, nocc, nvir), dtype=types[float])
    .zeros 116 [0, 0, 0, 1],
    -- 513: x101 += einsum(t1, (0, 1), v.oooo, (2, 3, 4, 0), (2, 3, 4, 1))
    .add 116 (.ein [(1, [0, 1]), (11, [2, 3, 4, 0])] [2, 3, 4, 1]) 1 1,
    -- 514: x102 = np.zeros((nocc, nocc, nocc, nvir, nvir, nvir), dtype=types[float])
    .zeros 117 [0, 0, 0, 1, 1, 1],
    -- 515: x102 += einsum(t2, (0, 1, 2, 3), x101, (4, 5, 1, 6), (0, 4, 5, 6, 2, 3)) * -1.0
    .add 117 (.ein [(7, [0, 1, 2, 3]), (116, [4, 5, 1, 6])] [0, 4, 5, 6, 2, 3]) (-1) 1,
    -- 516: del x101
    .del 116,
    -- 517: x103 = np.zeros((nocc, nvir, nvir, nvir), dtype=types[float])
    .zeros 118 [0, 1, 1, 1],
    -- 518: x103 += einsum(t1, (0, 1), v.vvvv, (2, 3, 4, 1), (0, 2, 3, 4))
    .add 118 (.ein [(1, [0, 1]), (10, [2, 3, 4, 1])] [0, 2, 3, 4]) 1 1,
    -- 519: x104 = np.zeros((nocc, nocc, nocc, nvir, nvir, nvir), dtype=types[float])
    .zeros 119 [0, 0, 0, 1, 1, 1],
    -- 520: x104 += einsum(t2, (0, 1, 2, 3), x103, (4, 5, 6, 3), (4, 0, 1, 2, 5, 6)) * -1.0
    .add 119 (.ein [(7, [0, 1, 2, 3]), (118, [4, 5, 6, 3])] [4, 0, 1, 2, 5, 6]) (-1) 1,
    -- 521: del x103
    .del 118,
    -- 522: x105 = np.zeros((nocc, nocc, nvir, nvir), dtype=types[float])
    .zeros 120 [0, 0, 1, 1],
    -- 523: x105 += einsum(t2, (0, 1, 2, 3), (0, 1, 2, 3))
    .add 120 (.ein [(7, [0, 1, 2, 3])] [0, 1, 2, 3]) 1 1,
    -- 524: x105 += einsum(t1, (0, 1), t1, (2, 3), (0, 2, 3, 1)) * -0.99999999999999
    .add 120 (.ein [(1, [0, 1]), (1, [2, 3])] [0, 2, 3, 1]) (-1) 1,
    -- 525: x106 = np.zeros((nocc, nocc, nvir, nvir), dtype=types[float])
    .zeros 121 [0, 0, 1, 1],
    -- 526: x106 += einsum(v.oovv, (0, 1, 2, 3), x105, (1, 4, 3, 5), (0, 4, 2, 5))
    .add 121 (.ein [(2, [0, 1, 2, 3]), (120, [1, 4, 3, 5])] [0, 4, 2, 5]) 1 1,
    -- 527: del x105
    .del 120,
    -- 528: x107 = np.zeros((nocc, nocc, nocc, nvir, nvir, nvir), dtype=types[float])
    .zeros 122 [0, 0, 0, 1, 1, 1],
    -- 529: x107 += einsum(x106, (0, 1, 2, 3), t3, (4, 5, 0, 6, 7, 2), (4, 5, 1, 6, 7, 3)) * 1.00000000000001
    .add 122 (.ein [(121, [0, 1, 2, 3]), (3, [4, 5, 0, 6, 7, 2])] [4, 5, 1, 6, 7, 3]) 1 1,
    -- 530: del x106
    .del 121,
    -- 531: x108 = np.zeros((nocc, nocc, nocc, nvir, nvir, nvir), dtype=types[float])
    .zeros 123 [0, 0, 0, 1, 1, 1],
    -- 532: x108 += einsum(x102, (0, 1, 2, 3, 4, 5), (0, 2, 1, 3, 5, 4))
    .add 123 (.ein [(117, [0, 1, 2, 3, 4, 5])] [0, 2, 1, 3, 5, 4]) 1 1,
    -- 533: del x102
    .del 117,
    -- 534: x108 += einsum(x104, (0, 1, 2, 3, 4, 5), (0, 2, 1, 3, 5, 4))
    .add 123 (.ein [(119, [0, 1, 2, 3, 4, 5])] [0, 2, 1, 3, 5, 4]) 1 1,
    -- 535: del x104
    .del 119,
    -- 536: x108 += einsum(x107, (0, 1, 2, 3, 4, 5), (2, 0, 1, 5, 3, 4)) * -1.0
    .add 123 (.ein [(122, [0, 1, 2, 3, 4, 5])] [2, 0, 1, 5, 3, 4]) (-1) 1,
    -- 537: del x107
    .del 122,
    -- 538: t3new += einsum(x108, (0, 1, 2, 3, 4, 5), (0, 1, 2, 3, 4, 5)) * -1.0
    .add 63 (.ein [(123, [0, 1, 2, 3, 4, 5])] [0, 1, 2, 3, 4, 5]) (-1) 1,
    -- 539: t3new += einsum(x108, (0, 1, 2, 3, 4, 5), (0, 1, 2, 4, 3, 5))
    .add 63 (.ein [(123, [0, 1, 2, 3, 4, 5])] [0, 1, 2, 4, 3, 5]) 1 1,
    -- 540: t3new += einsum(x108, (0, 1, 2, 3, 4, 5), (0, 1, 2, 4, 5, 3)) * -1.0
    .add 63 (.ein [(123, [0, 1, 2, 3, 4, 5])] [0, 1, 2, 4, 5, 3]) (-1) 1,
    -- 541: t3new += einsum(x108, (0, 1, 2, 3, 4, 5), (2, 0, 1, 3, 4, 5)) * -1.0
    .add 63 (.ein [(123, [0, 1, 2, 3, 4, 5])] [2, 0, 1, 3, 4, 5]) (-1) 1,
    -- 542: t3new += einsum(x108, (0, 1, 2, 3, 4, 5), (2, 0, 1, 4, 3, 5))
    .add 63 (.ein [(123, [0, 1, 2, 3, 4, 5])] [2, 0, 1, 4, 3, 5]) 1 1,
    -- 543: t3new += einsum(x108, (0, 1, 2, 3, 4, 5), (2, 0, 1, 4, 5, 3)) * -1.0
    .add 63 (.ein [(123, [0, 1, 2, 3, 4, 5])] [2, 0, 1, 4, 5, 3]) (-1) 1,
    -- 544: t3new += einsum(x108, (0, 1, 2, 3, 4, 5), (2, 1, 0, 3, 4, 5))
    .add 63 (.ein [(123, [0, 1, 2, 3, 4, 5])] [2, 1, 0, 3, 4, 5]) 1 1,
    -- 545: t3new += einsum(x108, (0, 1, 2, 3, 4, 5), (2, 1, 0, 4, 3, 5)) * -1.0
    .add 63 (.ein [(123, [0, 1, 2, 3, 4, 5])] [2, 1, 0, 4, 3, 5]) (-1) 1,
    -- 546: t3new += einsum(x108, (0, 1, 2, 3, 4, 5), (2, 1, 0, 4, 5, 3))
    .add 63 (.ein [(123, [0, 1, 2, 3, 4, 5])] [2, 1, 0, 4, 5, 3]) 1 1,
    -- 547: del x108
    .del 123,
    -- 548: x109 = np.zeros((nocc, nocc, nocc, nvir, nvir, nvir), dtype=types[float])
    .zeros 124 [0, 0, 0, 1, 1, 1],
    -- 549: x109 += einsum(v.oooo, (0, 1, 2, 3), t3, (4, 2, 3, 5, 6, 7), (4, 0, 1, 5, 6, 7))
    .add 124 (.ein [(11, [0, 1, 2, 3]), (3, [4, 2, 3, 5, 6, 7])] [4, 0, 1, 5, 6, 7]) 1 1,
    -- 550: x110 = np.zeros((nocc, nocc), dtype=types[float])
    .zeros 125 [0, 0],
    -- 551: x110 += einsum(f.oo, (0, 1), (0, 1)) * 2.0
    .add 125 (.ein [(9, [0, 1])] [0, 1]) 2 1,
    -- 552: x110 += einsum(x5, (0, 1), (0, 1)) * 2.0
    .add 125 (.ein [(19, [0, 1])] [0, 1]) 2 1,
    -- 553: del x5
    .del 19,
    -- 554: x110 += einsum(x7, (0, 1), (1, 0))
    .add 125 (.ein [(21, [0, 1])] [1, 0]) 1 1,
    -- 555: del x7
    .del 21,
    -- 556: x111 = np.zeros((nocc, nocc, nocc, nvir, nvir, nvir), dtype=types[float])
    .zeros 126 [0, 0, 0, 1, 1, 1],
    -- 557: x111 += einsum(x110, (0, 1), t3, (2, 3, 0, 4, 5, 6), (2, 3, 1, 4, 5, 6)) * 0.5
    .add 126 (.ein [(125, [0, 1]), (3, [2, 3, 0, 4, 5, 6])] [2, 3, 1, 4, 5, 6]) 1 2,
    -- 558: del x110
    .del 125,
    -- 559: x112 = np.zeros((nocc, nocc, nocc, nvir, nvir, nvir), dtype=types[float])
    .zeros 127 [0, 0, 0, 1, 1, 1],
    -- 560: x112 += einsum(x109, (0, 1, 2, 3, 4, 5), (0, 2, 1, 4, 5, 3)) * -0.5
    .add 127 (.ein [(124, [0, 1, 2, 3, 4, 5])] [0, 2, 1, 4, 5, 3]) (-1) 2,
    -- 561: del x109
    .del 124,
    -- 562: x112 += einsum(x111, (0, 1, 2, 3, 4, 5), (2, 0, 1, 4, 5, 3)) * -1.0
    .add 127 (.ein [(126, [0, 1, 2, 3, 4, 5])] [2, 0, 1, 4, 5, 3]) (-1) 1,
    -- 563: del x111
    .del 126,
    -- 564: t3new += einsum(x112, (0, 1, 2, 3, 4, 5), (0, 1, 2, 5, 3, 4))
    .add 63 (.ein [(127, [0, 1, 2, 3, 4, 5])] [0, 1, 2, 5, 3, 4]) 1 1,
    -- 565: t3new += einsum(x112, (0, 1, 2, 3, 4, 5), (2, 0, 1, 5, 3, 4))
    .add 63 (.ein [(127, [0, 1, 2, 3, 4, 5])] [2, 0, 1, 5, 3, 4]) 1 1,
    -- 566: t3new += einsum(x112, (0, 1, 2, 3, 4, 5), (2, 1, 0, 5, 3, 4)) * -1.0
    .add 63 (.ein [(127, [0, 1, 2, 3, 4, 5])] [2, 1, 0, 5, 3, 4]) (-1) 1,
    -- 567: del x112
    .del 127
  ]
  ret := [(chars! "t1new", 12), (chars! "t2new", 13), (chars! "t3new", 63)]

/-- codegen/GCCSDT.py:571-1218 `update_lams`. -/
def update_lams : GenFun where
  args := [chars! "l2", chars! "v.ovvv", chars! "f.ov", chars! "l1", chars! "v.ovov", chars! "v.oovv", chars! "v.vvvv", chars! "t1", chars! "l3", chars! "t3", chars! "v.ooov", chars! "t2", chars! "v.oooo", chars! "f.vv", chars! "f.oo"]
  body := [
    -- 573: l1new = np.zeros((nvir, nocc), dtype=types[float])
    .zeros 15 [1, 0],
    -- 574: l1new += einsum(l2, (0, 1, 2, 3), v.ovvv, (3, 4, 0, 1), (4, 2)) * -0.5
    .add 15 (.ein [(0, [0, 1, 2, 3]), (1, [3, 4, 0, 1])] [4, 2]) (-1) 2,
    -- 575: l1new += einsum(f.ov, (0, 1), (1, 0))
    .add 15 (.ein [(2, [0, 1])] [1, 0]) 1 1,
    -- 576: l1new += einsum(l1, (0, 1), v.ovov, (2, 0, 1, 3), (3, 2)) * -1.0
    .add 15 (.ein [(3, [0, 1]), (4, [2, 0, 1, 3])] [3, 2]) (-1) 1,
    -- 577: l2new = np.zeros((nvir, nvir, nocc, nocc), dtype=types[float])
    .zeros 16 [1, 1, 0, 0],
    -- 578: l2new += einsum(v.oovv, (0, 1, 2, 3), (2, 3, 0, 1))
    .add 16 (.ein [(5, [0, 1, 2, 3])] [2, 3, 0, 1]) 1 1,
    -- 579: l2new += einsum(l2, (0, 1, 2, 3), v.vvvv, (4, 5, 0, 1), (4, 5, 2, 3)) * 0.5
    .add 16 (.ein [(0, [0, 1, 2, 3]), (6, [4, 5, 0, 1])] [4, 5, 2, 3]) 1 2,
    -- 580: x0 = np.zeros((nocc, nocc), dtype=types[float])
    .zeros 17 [0, 0],
    -- 581: x0 += einsum(l1, (0, 1), t1, (2, 0), (1, 2))
    .add 17 (.ein [(3, [0, 1]), (7, [2, 0])] [1, 2]) 1 1,
    -- 582: x1 = np.zeros((nocc, nvir), dtype=types[float])
    .zeros 18 [0, 1],
    -- 583: x1 += einsum(t1, (0, 1), v.oovv, (2, 0, 3, 1), (2, 3))
    .add 18 (.ein [(7, [0, 1]), (5, [2, 0, 3, 1])] [2, 3]) 1 1,
    -- 584: l1new += einsum(x0, (0, 1), x1, (1, 2), (2, 0)) * -1.0
    .add 15 (.ein [(17, [0, 1]), (18, [1, 2])] [2, 0]) (-1) 1,
    -- 585: l3new = np.zeros((nvir, nvir, nvir, nocc, nocc, nocc), dtype=types[float])
    .zeros 19 [1, 1, 1, 0, 0, 0],
    -- 586: l3new += einsum(x1, (0, 1), l2, (2, 3, 4, 5), (2, 3, 1, 4, 5, 0))
    .add 19 (.ein [(18, [0, 1]), (0, [2, 3, 4, 5])] [2, 3, 1, 4, 5, 0]) 1 1,
    -- 587: l3new += einsum(x1, (0, 1), l2, (2, 3, 4, 5), (2, 1, 3, 4, 5, 0)) * -1.0
    .add 19 (.ein [(18, [0, 1]), (0, [2, 3, 4, 5])] [2, 1, 3, 4, 5, 0]) (-1) 1,
    -- 588: l3new += einsum(x1, (0, 1), l2, (2, 3, 4, 5), (1, 2, 3, 4, 5, 0))
    .add 19 (.ein [(18, [0, 1]), (0, [2, 3, 4, 5])] [1, 2, 3, 4, 5, 0]) 1 1,
    -- 589: l3new += einsum(x1, (0, 1), l2, (2, 3, 4, 5), (2, 3, 1, 4, 0, 5)) * -1.0
    .add 19 (.ein [(18, [0, 1]), (0, [2, 3, 4, 5])] [2, 3, 1, 4, 0, 5]) (-1) 1,
    -- 590: l3new += einsum(x1, (0, 1), l2, (2, 3, 4, 5), (2, 1, 3, 4, 0, 5))
    .add 19 (.ein [(18, [0, 1]), (0, [2, 3, 4, 5])] [2, 1, 3, 4, 0, 5]) 1 1,
    -- 591: l3new += einsum(x1, (0, 1), l2, (2, 3, 4, 5), (1, 2, 3, 4, 0, 5)) * -1.0
    .add 19 (.ein [(18, [0, 1]), (0, [2, 3, 4, 5])] [1, 2, 3, 4, 0, 5]) (-1) 1,
    -- 592: l3new += einsum(x1, (0, 1), l2, (2, 3, 4, 5), (2, 3, 1, 0, 4, 5))
    .add 19 (.ein [(18, [0, 1]), (0, [2, 3, 4, 5])] [2, 3, 1, 0, 4, 5]) 1 1,
    -- 593: l3new += einsum(x1, (0, 1), l2, (2, 3, 4, 5), (2, 1, 3, 0, 4, 5)) * -1.0
    .add 19 (.ein [(18, [0, 1]), (0, [2, 3, 4, 5])] [2, 1, 3, 0, 4, 5]) (-1) 1,
    -- 594: l3new += einsum(x1, (0, 1), l2, (2, 3, 4, 5), (1, 2, 3, 0, 4, 5))
    .add 19 (.ein [(18, [0, 1]), (0, [2, 3, 4, 5])] [1, 2, 3, 0, 4, 5]) 1 1,
    -- 595: x2 = np.zeros((nvir, nvir), dtype=types[float])
    .zeros 20 [1, 1],
    -- 596: x2 += einsum(l3, (0, 1, 2, 3, 4, 5), t3, (3, 4, 5, 6, 1, 2), (0, 6))
    .add 20 (.ein [(8, [0, 1, 2, 3, 4, 5]), (9, [3, 4, 5, 6, 1, 2])] [0, 6]) 1 1,
    -- 597: l1new += einsum(x2, (0, 1), v.ovvv, (2, 0, 3, 1), (3, 2)) * 0.08333333333333
    .add 15 (.ein [(20, [0, 1]), (1, [2, 0, 3, 1])] [3, 2]) 1 12,
    -- 598: x3 = np.zeros((nocc, nocc), dtype=types[float])
    .zeros 21 [0, 0],
    -- 599: x3 += einsum(l3, (0, 1, 2, 3, 4, 5), t3, (6, 4, 5, 0, 1, 2), (3, 6))
    .add 21 (.ein [(8, [0, 1, 2, 3, 4, 5]), (9, [6, 4, 5, 0, 1, 2])] [3, 6]) 1 1,
    -- 600: l1new += einsum(x3, (0, 1), v.ooov, (2, 1, 0, 3), (3, 2)) * 0.08333333333333
    .add 15 (.ein [(21, [0, 1]), (10, [2, 1, 0, 3])] [3, 2]) 1 12,
    -- 601: x4 = np.zeros((nocc, nocc, nocc, nvir), dtype=types[float])
    .zeros 22 [0, 0, 0, 1],
    -- 602: x4 += einsum(t1, (0, 1), v.oovv, (2, 3, 4, 1), (0, 2, 3, 4))
    .add 22 (.ein [(7, [0, 1]), (5, [2, 3, 4, 1])] [0, 2, 3, 4]) 1 1,
    -- 603: x5 = np.zeros((nocc, nocc, nocc, nvir), dtype=types[float])
    .zeros 23 [0, 0, 0, 1],
    -- 604: x5 += einsum(v.ooov, (0, 1, 2, 3), (0, 1, 2, 3))
    .add 23 (.ein [(10, [0, 1, 2, 3])] [0, 1, 2, 3]) 1 1,
    -- 605: x5 += einsum(x4, (0, 1, 2, 3), (2, 1, 0, 3))
    .add 23 (.ein [(22, [0, 1, 2, 3])] [2, 1, 0, 3]) 1 1,
    -- 606: x6 = np.zeros((nocc, nocc, nvir, nvir), dtype=types[float])
    .zeros 24 [0, 0, 1, 1],
    -- 607: x6 += einsum(t1, (0, 1), v.ovvv, (2, 3, 4, 1), (0, 2, 3, 4))
    .add 24 (.ein [(7, [0, 1]), (1, [2, 3, 4, 1])] [0, 2, 3, 4]) 1 1,
    -- 608: x7 = np.zeros((nocc, nocc, nvir, nvir), dtype=types[float])
    .zeros 25 [0, 0, 1, 1],
    -- 609: x7 += einsum(t2, (0, 1, 2, 3), v.oovv, (4, 1, 5, 3), (0, 4, 2, 5))
    .add 25 (.ein [(11, [0, 1, 2, 3]), (5, [4, 1, 5, 3])] [0, 4, 2, 5]) 1 1,
    -- 610: x8 = np.zeros((nocc, nocc, nvir, nvir), dtype=types[float])
    .zeros 26 [0, 0, 1, 1],
    -- 611: x8 += einsum(v.ovov, (0, 1, 2, 3), (0, 2, 3, 1)) * -1.0
    .add 26 (.ein [(4, [0, 1, 2, 3])] [0, 2, 3, 1]) (-1) 1,
    -- 612: x8 += einsum(x6, (0, 1, 2, 3), (0, 1, 2, 3))
    .add 26 (.ein [(24, [0, 1, 2, 3])] [0, 1, 2, 3]) 1 1,
    -- 613: x8 += einsum(x7, (0, 1, 2, 3), (0, 1, 2, 3))
    .add 26 (.ein [(25, [0, 1, 2, 3])] [0, 1, 2, 3]) 1 1,
    -- 614: x9 = np.zeros((nocc, nvir), dtype=types[float])
    .zeros 27 [0, 1],
    -- 615: x9 += einsum(f.ov, (0, 1), (0, 1))
    .add 27 (.ein [(2, [0, 1])] [0, 1]) 1 1,
    -- 616: x9 += einsum(x1, (0, 1), (0, 1))
    .add 27 (.ein [(18, [0, 1])] [0, 1]) 1 1,
    -- 617: x10 = np.zeros((nocc, nocc, nocc, nocc), dtype=types[float])
    .zeros 28 [0, 0, 0, 0],
    -- 618: x10 += einsum(t2, (0, 1, 2, 3), v.oovv, (4, 5, 2, 3), (0, 1, 4, 5))
    .add 28 (.ein [(11, [0, 1, 2, 3]), (5, [4, 5, 2, 3])] [0, 1, 4, 5]) 1 1,
    -- 619: x11 = np.zeros((nocc, nocc, nocc, nvir), dtype=types[float])
    .zeros 29 [0, 0, 0, 1],
    -- 620: x11 += einsum(v.ooov, (0, 1, 2, 3), (0, 1, 2, 3))
    .add 29 (.ein [(10, [0, 1, 2, 3])] [0, 1, 2, 3]) 1 1,
    -- 621: x11 += einsum(x4, (0, 1, 2, 3), (2, 1, 0, 3)) * 0.5
    .add 29 (.ein [(22, [0, 1, 2, 3])] [2, 1, 0, 3]) 1 2,
    -- 622: x12 = np.zeros((nocc, nocc, nocc, nocc), dtype=types[float])
    .zeros 30 [0, 0, 0, 0],
    -- 623: x12 += einsum(t1, (0, 1), x11, (2, 3, 4, 1), (0, 2, 3, 4)) * 4.0
    .add 30 (.ein [(7, [0, 1]), (29, [2, 3, 4, 1])] [0, 2, 3, 4]) 4 1,
    -- 624: del x11
    .del 29,
    -- 625: x13 = np.zeros((nocc, nocc, nocc, nocc), dtype=types[float])
    .zeros 31 [0, 0, 0, 0],
    -- 626: x13 += einsum(v.oooo, (0, 1, 2, 3), (0, 1, 2, 3)) * 2.0
    .add 31 (.ein [(12, [0, 1, 2, 3])] [0, 1, 2, 3]) 2 1,
    -- 627: x13 += einsum(x10, (0, 1, 2, 3), (3, 2, 1, 0))
    .add 31 (.ein [(28, [0, 1, 2, 3])] [3, 2, 1, 0]) 1 1,
    -- 628: x13 += einsum(x12, (0, 1, 2, 3), (2, 1, 3, 0)) * -1.0
    .add 31 (.ein [(30, [0, 1, 2, 3])] [2, 1, 3, 0]) (-1) 1,
    -- 629: x14 = np.zeros((nocc, nocc, nocc, nocc, nocc, nvir), dtype=types[float])
    .zeros 32 [0, 0, 0, 0, 0, 1],
    -- 630: x14 += einsum(v.oovv, (0, 1, 2, 3), t3, (4, 5, 6, 7, 2, 3), (4, 5, 6, 0, 1, 7))
    .add 32 (.ein [(5, [0, 1, 2, 3]), (9, [4, 5, 6, 7, 2, 3])] [4, 5, 6, 0, 1, 7]) 1 1,
    -- 631: l2new += einsum(l3, (0, 1, 2, 3, 4, 5), x14, (3, 4, 5, 6, 7, 2), (0, 1, 6, 7)) * 0.08333333333333
    .add 16 (.ein [(8, [0, 1, 2, 3, 4, 5]), (32, [3, 4, 5, 6, 7, 2])] [0, 1, 6, 7]) 1 12,
    -- 632: x15 = np.zeros((nocc, nocc, nocc, nvir), dtype=types[float])
    .zeros 33 [0, 0, 0, 1],
    -- 633: x15 += einsum(v.ooov, (0, 1, 2, 3), (2, 0, 1, 3)) * -1.0
    .add 33 (.ein [(10, [0, 1, 2, 3])] [2, 0, 1, 3]) (-1) 1,
    -- 634: x15 += einsum(x4, (0, 1, 2, 3), (0, 2, 1, 3)) * -1.0
    .add 33 (.ein [(22, [0, 1, 2, 3])] [0, 2, 1, 3]) (-1) 1,
    -- 635: x16 = np.zeros((nocc, nocc, nocc, nocc, nocc, nvir), dtype=types[float])
    .zeros 34 [0, 0, 0, 0, 0, 1],
    -- 636: x16 += einsum(x14, (0, 1, 2, 3, 4, 5), (0, 1, 4, 3, 2, 5)) * 0.16666666666666
    .add 34 (.ein [(32, [0, 1, 2, 3, 4, 5])] [0, 1, 4, 3, 2, 5]) 1 6,
    -- 637: del x14
    .del 32,
    -- 638: x16 += einsum(t2, (0, 1, 2, 3), x15, (4, 5, 6, 3), (0, 1, 6, 5, 4, 2))
    .add 34 (.ein [(11, [0, 1, 2, 3]), (33, [4, 5, 6, 3])] [0, 1, 6, 5, 4, 2]) 1 1,
    -- 639: x17 = np.zeros((nocc, nocc, nocc, nocc, nvir, nvir), dtype=types[float])
    .zeros 35 [0, 0, 0, 0, 1, 1],
    -- 640: x17 += einsum(v.ovvv, (0, 1, 2, 3), t3, (4, 5, 6, 7, 2, 3), (0, 4, 5, 6, 7, 1)) * 0.66666666666664
    .add 35 (.ein [(1, [0, 1, 2, 3]), (9, [4, 5, 6, 7, 2, 3])] [0, 4, 5, 6, 7, 1]) 2 3,
    -- 641: x17 += einsum(x5, (0, 1, 2, 3), t3, (4, 5, 0, 6, 7, 3), (1, 4, 2, 5, 6, 7)) * -2.0
    .add 35 (.ein [(23, [0, 1, 2, 3]), (9, [4, 5, 0, 6, 7, 3])] [1, 4, 2, 5, 6, 7]) (-2) 1,
    -- 642: x17 += einsum(t2, (0, 1, 2, 3), x8, (4, 5, 6, 3), (5, 0, 4, 1, 2, 6)) * -4.0
    .add 35 (.ein [(11, [0, 1, 2, 3]), (26, [4, 5, 6, 3])] [5, 0, 4, 1, 2, 6]) (-4) 1,
    -- 643: del x8
    .del 26,
    -- 644: x17 += einsum(x9, (0, 1), t3, (2, 3, 4, 5, 6, 1), (0, 2, 3, 4, 5, 6)) * -0.66666666666664
    .add 35 (.ein [(27, [0, 1]), (9, [2, 3, 4, 5, 6, 1])] [0, 2, 3, 4, 5, 6]) (-2) 3,
    -- 645: x17 += einsum(t2, (0, 1, 2, 3), x13, (1, 4, 5, 6), (4, 0, 6, 5, 2, 3)) * -1.0
    .add 35 (.ein [(11, [0, 1, 2, 3]), (31, [1, 4, 5, 6])] [4, 0, 6, 5, 2, 3]) (-1) 1,
    -- 646: x17 += einsum(t1, (0, 1), x16, (2, 3, 4, 0, 5, 6), (4, 3, 5, 2, 6, 1)) * 4.0
    .add 35 (.ein [(7, [0, 1]), (34, [2, 3, 4, 0, 5, 6])] [4, 3, 5, 2, 6, 1]) 4 1,
    -- 647: del x16
    .del 34,
    -- 648: l1new += einsum(l3, (0, 1, 2, 3, 4, 5), x17, (6, 3, 4, 5, 2, 1), (0, 6)) * -0.125
    .add 15 (.ein [(8, [0, 1, 2, 3, 4, 5]), (35, [6, 3, 4, 5, 2, 1])] [0, 6]) (-1) 8,
    -- 649: del x17
    .del 35,
    -- 650: x18 = np.zeros((nocc, nvir, nvir, nvir), dtype=types[float])
    .zeros 36 [0, 1, 1, 1],
    -- 651: x18 += einsum(t2, (0, 1, 2, 3), l3, (4, 5, 3, 6, 0, 1), (6, 4, 5, 2))
    .add 36 (.ein [(11, [0, 1, 2, 3]), (8, [4, 5, 3, 6, 0, 1])] [6, 4, 5, 2]) 1 1,
    -- 652: l2new += einsum(x18, (0, 1, 2, 3), x5, (4, 5, 0, 3), (1, 2, 5, 4)) * -0.5
    .add 16 (.ein [(36, [0, 1, 2, 3]), (23, [4, 5, 0, 3])] [1, 2, 5, 4]) (-1) 2,
    -- 653: x19 = np.zeros((nocc, nvir, nvir, nvir), dtype=types[float])
    .zeros 37 [0, 1, 1, 1],
    -- 654: x19 += einsum(t1, (0, 1), l2, (2, 3, 4, 0), (4, 2, 3, 1)) * 2.0
    .add 37 (.ein [(7, [0, 1]), (0, [2, 3, 4, 0])] [4, 2, 3, 1]) 2 1,
    -- 655: x19 += einsum(x18, (0, 1, 2, 3), (0, 2, 1, 3)) * -1.0
    .add 37 (.ein [(36, [0, 1, 2, 3])] [0, 2, 1, 3]) (-1) 1,
    -- 656: l1new += einsum(v.vvvv, (0, 1, 2, 3), x19, (4, 3, 2, 1), (0, 4)) * -0.25
    .add 15 (.ein [(6, [0, 1, 2, 3]), (37, [4, 3, 2, 1])] [0, 4]) (-1) 4,
    -- 657: del x19
    .del 37,
    -- 658: x20 = np.zeros((nocc, nocc, nocc, nvir), dtype=types[float])
    .zeros 38 [0, 0, 0, 1],
    -- 659: x20 += einsum(t2, (0, 1, 2, 3), v.ovvv, (4, 5, 2, 3), (0, 1, 4, 5))
    .add 38 (.ein [(11, [0, 1, 2, 3]), (1, [4, 5, 2, 3])] [0, 1, 4, 5]) 1 1,
    -- 660: x21 = np.zeros((nocc, nocc, nocc, nvir), dtype=types[float])
    .zeros 39 [0, 0, 0, 1],
    -- 661: x21 += einsum(v.oovv, (0, 1, 2, 3), t3, (4, 5, 1, 6, 2, 3), (4, 5, 0, 6))
    .add 39 (.ein [(5, [0, 1, 2, 3]), (9, [4, 5, 1, 6, 2, 3])] [4, 5, 0, 6]) 1 1,
    -- 662: x22 = np.zeros((nocc, nocc, nocc, nvir), dtype=types[float])
    .zeros 40 [0, 0, 0, 1],
    -- 663: x22 += einsum(t2, (0, 1, 2, 3), x15, (4, 1, 5, 3), (0, 4, 5, 2)) * 2.0
    .add 40 (.ein [(11, [0, 1, 2, 3]), (33, [4, 1, 5, 3])] [0, 4, 5, 2]) 2 1,
    -- 664: x23 = np.zeros((nocc, nocc, nvir, nvir), dtype=types[float])
    .zeros 41 [0, 0, 1, 1],
    -- 665: x23 += einsum(v.ovov, (0, 1, 2, 3), (0, 2, 1, 3))
    .add 41 (.ein [(4, [0, 1, 2, 3])] [0, 2, 1, 3]) 1 1,
    -- 666: x23 += einsum(x6, (0, 1, 2, 3), (0, 1, 3, 2)) * -0.5
    .add 41 (.ein [(24, [0, 1, 2, 3])] [0, 1, 3, 2]) (-1) 2,
    -- 667: x24 = np.zeros((nocc, nocc, nocc, nocc), dtype=types[float])
    .zeros 42 [0, 0, 0, 0],
    -- 668: x24 += einsum(v.oooo, (0, 1, 2, 3), (0, 1, 2, 3)) * -2.0
    .add 42 (.ein [(12, [0, 1, 2, 3])] [0, 1, 2, 3]) (-2) 1,
    -- 669: x24 += einsum(x10, (0, 1, 2, 3), (3, 2, 1, 0)) * -1.0
    .add 42 (.ein [(28, [0, 1, 2, 3])] [3, 2, 1, 0]) (-1) 1,
    -- 670: x24 += einsum(x12, (0, 1, 2, 3), (2, 1, 0, 3)) * -1.0
    .add 42 (.ein [(30, [0, 1, 2, 3])] [2, 1, 0, 3]) (-1) 1,
    -- 671: x25 = np.zeros((nocc, nocc, nocc, nvir), dtype=types[float])
    .zeros 43 [0, 0, 0, 1],
    -- 672: x25 += einsum(v.ooov, (0, 1, 2, 3), (2, 0, 1, 3)) * -1.0
    .add 43 (.ein [(10, [0, 1, 2, 3])] [2, 0, 1, 3]) (-1) 1,
    -- 673: x25 += einsum(x20, (0, 1, 2, 3), (2, 1, 0, 3)) * 0.5
    .add 43 (.ein [(38, [0, 1, 2, 3])] [2, 1, 0, 3]) 1 2,
    -- 674: x25 += einsum(x21, (0, 1, 2, 3), (2, 1, 0, 3)) * -0.5
    .add 43 (.ein [(39, [0, 1, 2, 3])] [2, 1, 0, 3]) (-1) 2,
    -- 675: x25 += einsum(x22, (0, 1, 2, 3), (2, 0, 1, 3))
    .add 43 (.ein [(40, [0, 1, 2, 3])] [2, 0, 1, 3]) 1 1,
    -- 676: x25 += einsum(x9, (0, 1), t2, (2, 3, 4, 1), (0, 2, 3, 4))
    .add 43 (.ein [(27, [0, 1]), (11, [2, 3, 4, 1])] [0, 2, 3, 4]) 1 1,
    -- 677: x25 += einsum(t1, (0, 1), x23, (2, 3, 1, 4), (3, 2, 0, 4)) * -2.0
    .add 43 (.ein [(7, [0, 1]), (41, [2, 3, 1, 4])] [3, 2, 0, 4]) (-2) 1,
    -- 678: del x23
    .del 41,
    -- 679: x25 += einsum(t1, (0, 1), x24, (0, 2, 3, 4), (2, 4, 3, 1)) * -0.5
    .add 43 (.ein [(7, [0, 1]), (42, [0, 2, 3, 4])] [2, 4, 3, 1]) (-1) 2,
    -- 680: del x24
    .del 42,
    -- 681: l1new += einsum(l2, (0, 1, 2, 3), x25, (4, 2, 3, 1), (0, 4)) * 0.5
    .add 15 (.ein [(0, [0, 1, 2, 3]), (43, [4, 2, 3, 1])] [0, 4]) 1 2,
    -- 682: del x25
    .del 43,
    -- 683: x26 = np.zeros((nocc, nocc, nocc, nocc, nvir, nvir), dtype=types[float])
    .zeros 44 [0, 0, 0, 0, 1, 1],
    -- 684: x26 += einsum(t1, (0, 1), l3, (2, 3, 1, 4, 5, 6), (4, 5, 6, 0, 2, 3))
    .add 44 (.ein [(7, [0, 1]), (8, [2, 3, 1, 4, 5, 6])] [4, 5, 6, 0, 2, 3]) 1 1,
    -- 685: x27 = np.zeros((nocc, nocc, nocc, nocc, nocc, nvir), dtype=types[float])
    .zeros 45 [0, 0, 0, 0, 0, 1],
    -- 686: x27 += einsum(t1, (0, 1), x26, (2, 3, 4, 5, 6, 1), (2, 3, 4, 0, 5, 6))
    .add 45 (.ein [(7, [0, 1]), (44, [2, 3, 4, 5, 6, 1])] [2, 3, 4, 0, 5, 6]) 1 1,
    -- 687: x28 = np.zeros((nocc, nocc, nocc, nvir), dtype=types[float])
    .zeros 46 [0, 0, 0, 1],
    -- 688: x28 += einsum(t1, (0, 1), l2, (2, 1, 3, 4), (3, 4, 0, 2))
    .add 46 (.ein [(7, [0, 1]), (0, [2, 1, 3, 4])] [3, 4, 0, 2]) 1 1,
    -- 689: x29 = np.zeros((nocc, nocc, nocc, nvir), dtype=types[float])
    .zeros 47 [0, 0, 0, 1],
    -- 690: x29 += einsum(t2, (0, 1, 2, 3), l3, (4, 2, 3, 5, 6, 1), (5, 6, 0, 4))
    .add 47 (.ein [(11, [0, 1, 2, 3]), (8, [4, 2, 3, 5, 6, 1])] [5, 6, 0, 4]) 1 1,
    -- 691: x30 = np.zeros((nocc, nocc, nocc, nvir), dtype=types[float])
    .zeros 48 [0, 0, 0, 1],
    -- 692: x30 += einsum(x28, (0, 1, 2, 3), (1, 0, 2, 3))
    .add 48 (.ein [(46, [0, 1, 2, 3])] [1, 0, 2, 3]) 1 1,
    -- 693: x30 += einsum(x29, (0, 1, 2, 3), (0, 1, 2, 3)) * -0.5
    .add 48 (.ein [(47, [0, 1, 2, 3])] [0, 1, 2, 3]) (-1) 2,
    -- 694: l2new += einsum(v.ovvv, (0, 1, 2, 3), x30, (4, 5, 0, 1), (2, 3, 4, 5)) * -1.0
    .add 16 (.ein [(1, [0, 1, 2, 3]), (48, [4, 5, 0, 1])] [2, 3, 4, 5]) (-1) 1,
    -- 695: x31 = np.zeros((nocc, nocc, nocc, nocc), dtype=types[float])
    .zeros 49 [0, 0, 0, 0],
    -- 696: x31 += einsum(l2, (0, 1, 2, 3), t2, (4, 5, 0, 1), (2, 3, 4, 5))
    .add 49 (.ein [(0, [0, 1, 2, 3]), (11, [4, 5, 0, 1])] [2, 3, 4, 5]) 1 1,
    -- 697: x32 = np.zeros((nocc, nocc, nocc, nocc), dtype=types[float])
    .zeros 50 [0, 0, 0, 0],
    -- 698: x32 += einsum(l3, (0, 1, 2, 3, 4, 5), t3, (6, 7, 5, 0, 1, 2), (3, 4, 6, 7))
    .add 50 (.ein [(8, [0, 1, 2, 3, 4, 5]), (9, [6, 7, 5, 0, 1, 2])] [3, 4, 6, 7]) 1 1,
    -- 699: x33 = np.zeros((nocc, nocc, nocc, nvir), dtype=types[float])
    .zeros 51 [0, 0, 0, 1],
    -- 700: x33 += einsum(x28, (0, 1, 2, 3), (1, 0, 2, 3)) * -1.0
    .add 51 (.ein [(46, [0, 1, 2, 3])] [1, 0, 2, 3]) (-1) 1,
    -- 701: x33 += einsum(x29, (0, 1, 2, 3), (0, 1, 2, 3))
    .add 51 (.ein [(47, [0, 1, 2, 3])] [0, 1, 2, 3]) 1 1,
    -- 702: x34 = np.zeros((nocc, nocc, nocc, nocc), dtype=types[float])
    .zeros 52 [0, 0, 0, 0],
    -- 703: x34 += einsum(x31, (0, 1, 2, 3), (1, 0, 3, 2)) * -3.00000000000012
    .add 52 (.ein [(49, [0, 1, 2, 3])] [1, 0, 3, 2]) (-3) 1,
    -- 704: x34 += einsum(x32, (0, 1, 2, 3), (0, 1, 3, 2))
    .add 52 (.ein [(50, [0, 1, 2, 3])] [0, 1, 3, 2]) 1 1,
    -- 705: x34 += einsum(t1, (0, 1), x33, (2, 3, 4, 1), (2, 3, 0, 4)) * -6.00000000000024
    .add 52 (.ein [(7, [0, 1]), (51, [2, 3, 4, 1])] [2, 3, 0, 4]) (-6) 1,
    -- 706: x35 = np.zeros((nocc, nocc), dtype=types[float])
    .zeros 53 [0, 0],
    -- 707: x35 += einsum(l2, (0, 1, 2, 3), t2, (4, 3, 0, 1), (2, 4))
    .add 53 (.ein [(0, [0, 1, 2, 3]), (11, [4, 3, 0, 1])] [2, 4]) 1 1,
    -- 708: x36 = np.zeros((nocc, nocc), dtype=types[float])
    .zeros 54 [0, 0],
    -- 709: x36 += einsum(x35, (0, 1), (0, 1))
    .add 54 (.ein [(53, [0, 1])] [0, 1]) 1 1,
    -- 710: x36 += einsum(x3, (0, 1), (0, 1)) * 0.16666666666666
    .add 54 (.ein [(21, [0, 1])] [0, 1]) 1 6,
    -- 711: x37 = np.zeros((nocc, nocc, nocc, nvir), dtype=types[float])
    .zeros 55 [0, 0, 0, 1],
    -- 712: x37 += einsum(l1, (0, 1), t2, (2, 3, 4, 0), (1, 2, 3, 4))
    .add 55 (.ein [(3, [0, 1]), (11, [2, 3, 4, 0])] [1, 2, 3, 4]) 1 1,
    -- 713: x37 += einsum(l2, (0, 1, 2, 3), t3, (4, 5, 3, 6, 0, 1), (2, 4, 5, 6)) * 0.5
    .add 55 (.ein [(0, [0, 1, 2, 3]), (9, [4, 5, 3, 6, 0, 1])] [2, 4, 5, 6]) 1 2,
    -- 714: x37 += einsum(t3, (0, 1, 2, 3, 4, 5), x26, (6, 1, 2, 7, 5, 4), (6, 0, 7, 3)) * -0.5
    .add 55 (.ein [(9, [0, 1, 2, 3, 4, 5]), (44, [6, 1, 2, 7, 5, 4])] [6, 0, 7, 3]) (-1) 2,
    -- 715: x37 += einsum(t2, (0, 1, 2, 3), x18, (4, 3, 2, 5), (4, 0, 1, 5)) * -0.25
    .add 55 (.ein [(11, [0, 1, 2, 3]), (36, [4, 3, 2, 5])] [4, 0, 1, 5]) (-1) 4,
    -- 716: x37 += einsum(t2, (0, 1, 2, 3), x27, (4, 0, 1, 5, 6, 3), (4, 6, 5, 2)) * -0.5
    .add 55 (.ein [(11, [0, 1, 2, 3]), (45, [4, 0, 1, 5, 6, 3])] [4, 6, 5, 2]) (-1) 2,
    -- 717: x37 += einsum(t2, (0, 1, 2, 3), x30, (4, 1, 5, 3), (4, 0, 5, 2)) * 2.0
    .add 55 (.ein [(11, [0, 1, 2, 3]), (48, [4, 1, 5, 3])] [4, 0, 5, 2]) 2 1,
    -- 718: x37 += einsum(t1, (0, 1), x34, (0, 2, 3, 4), (2, 4, 3, 1)) * -0.16666666666666
    .add 55 (.ein [(7, [0, 1]), (52, [0, 2, 3, 4])] [2, 4, 3, 1]) (-1) 6,
    -- 719: del x34
    .del 52,
    -- 720: x37 += einsum(t1, (0, 1), x36, (2, 3), (2, 0, 3, 1))
    .add 55 (.ein [(7, [0, 1]), (54, [2, 3])] [2, 0, 3, 1]) 1 1,
    -- 721: del x36
    .del 54,
    -- 722: l1new += einsum(v.oovv, (0, 1, 2, 3), x37, (4, 0, 1, 3), (2, 4)) * 0.5
    .add 15 (.ein [(5, [0, 1, 2, 3]), (55, [4, 0, 1, 3])] [2, 4]) 1 2,
    -- 723: del x37
    .del 55,
    -- 724: x38 = np.zeros((nocc, nocc, nvir, nvir), dtype=types[float])
    .zeros 56 [0, 0, 1, 1],
    -- 725: x38 += einsum(t2, (0, 1, 2, 3), x26, (4, 0, 1, 5, 3, 6), (4, 5, 6, 2))
    .add 56 (.ein [(11, [0, 1, 2, 3]), (44, [4, 0, 1, 5, 3, 6])] [4, 5, 6, 2]) 1 1,
    -- 726: x39 = np.zeros((nocc, nocc, nocc, nvir), dtype=types[float])
    .zeros 57 [0, 0, 0, 1],
    -- 727: x39 += einsum(x28, (0, 1, 2, 3), (1, 0, 2, 3)) * -1.0
    .add 57 (.ein [(46, [0, 1, 2, 3])] [1, 0, 2, 3]) (-1) 1,
    -- 728: x39 += einsum(x29, (0, 1, 2, 3), (0, 1, 2, 3)) * 0.5
    .add 57 (.ein [(47, [0, 1, 2, 3])] [0, 1, 2, 3]) 1 2,
    -- 729: l1new += einsum(v.ovov, (0, 1, 2, 3), x39, (0, 4, 2, 3), (1, 4))
    .add 15 (.ein [(4, [0, 1, 2, 3]), (57, [0, 4, 2, 3])] [1, 4]) 1 1,
    -- 730: x40 = np.zeros((nocc, nocc, nvir, nvir), dtype=types[float])
    .zeros 58 [0, 0, 1, 1],
    -- 731: x40 += einsum(x38, (0, 1, 2, 3), (0, 1, 2, 3)) * 0.5
    .add 58 (.ein [(56, [0, 1, 2, 3])] [0, 1, 2, 3]) 1 2,
    -- 732: x40 += einsum(t1, (0, 1), x39, (0, 2, 3, 4), (2, 3, 4, 1)) * -1.0
    .add 58 (.ein [(7, [0, 1]), (57, [0, 2, 3, 4])] [2, 3, 4, 1]) (-1) 1,
    -- 733: l1new += einsum(v.ovvv, (0, 1, 2, 3), x40, (4, 0, 1, 3), (2, 4))
    .add 15 (.ein [(1, [0, 1, 2, 3]), (58, [4, 0, 1, 3])] [2, 4]) 1 1,
    -- 734: del x40
    .del 58,
    -- 735: x41 = np.zeros((nocc, nocc, nvir, nvir), dtype=types[float])
    .zeros 59 [0, 0, 1, 1],
    -- 736: x41 += einsum(l2, (0, 1, 2, 3), t2, (4, 3, 5, 1), (2, 4, 0, 5))
    .add 59 (.ein [(0, [0, 1, 2, 3]), (11, [4, 3, 5, 1])] [2, 4, 0, 5]) 1 1,
    -- 737: x42 = np.zeros((nocc, nocc, nvir, nvir), dtype=types[float])
    .zeros 60 [0, 0, 1, 1],
    -- 738: x42 += einsum(l3, (0, 1, 2, 3, 4, 5), t3, (6, 4, 5, 7, 1, 2), (3, 6, 0, 7))
    .add 60 (.ein [(8, [0, 1, 2, 3, 4, 5]), (9, [6, 4, 5, 7, 1, 2])] [3, 6, 0, 7]) 1 1,
    -- 739: x43 = np.zeros((nocc, nocc, nvir, nvir), dtype=types[float])
    .zeros 61 [0, 0, 1, 1],
    -- 740: x43 += einsum(x41, (0, 1, 2, 3), (0, 1, 2, 3))
    .add 61 (.ein [(59, [0, 1, 2, 3])] [0, 1, 2, 3]) 1 1,
    -- 741: x43 += einsum(x42, (0, 1, 2, 3), (0, 1, 2, 3)) * 0.25
    .add 61 (.ein [(60, [0, 1, 2, 3])] [0, 1, 2, 3]) 1 4,
    -- 742: l1new += einsum(v.ovvv, (0, 1, 2, 3), x43, (4, 0, 1, 3), (2, 4)) * -1.0
    .add 15 (.ein [(1, [0, 1, 2, 3]), (61, [4, 0, 1, 3])] [2, 4]) (-1) 1,
    -- 743: del x43
    .del 61,
    -- 744: x44 = np.zeros((nocc, nocc), dtype=types[float])
    .zeros 62 [0, 0],
    -- 745: x44 += einsum(x0, (0, 1), (0, 1)) * 12.00000000000048
    .add 62 (.ein [(17, [0, 1])] [0, 1]) 12 1,
    -- 746: x44 += einsum(x35, (0, 1), (0, 1)) * 6.00000000000024
    .add 62 (.ein [(53, [0, 1])] [0, 1]) 6 1,
    -- 747: x44 += einsum(x3, (0, 1), (0, 1))
    .add 62 (.ein [(21, [0, 1])] [0, 1]) 1 1,
    -- 748: x45 = np.zeros((nocc, nvir), dtype=types[float])
    .zeros 63 [0, 1],
    -- 749: x45 += einsum(t1, (0, 1), (0, 1)) * -1.0
    .add 63 (.ein [(7, [0, 1])] [0, 1]) (-1) 1,
    -- 750: x45 += einsum(l1, (0, 1), t2, (2, 1, 3, 0), (2, 3)) * -1.0
    .add 63 (.ein [(3, [0, 1]), (11, [2, 1, 3, 0])] [2, 3]) (-1) 1,
    -- 751: x45 += einsum(l2, (0, 1, 2, 3), t3, (4, 2, 3, 5, 0, 1), (4, 5)) * -0.25
    .add 63 (.ein [(0, [0, 1, 2, 3]), (9, [4, 2, 3, 5, 0, 1])] [4, 5]) (-1) 4,
    -- 752: x45 += einsum(t3, (0, 1, 2, 3, 4, 5), x26, (2, 0, 1, 6, 5, 4), (6, 3)) * -0.08333333333333
    .add 63 (.ein [(9, [0, 1, 2, 3, 4, 5]), (44, [2, 0, 1, 6, 5, 4])] [6, 3]) (-1) 12,
    -- 753: x45 += einsum(t2, (0, 1, 2, 3), x39, (0, 1, 4, 3), (4, 2)) * -0.5
    .add 63 (.ein [(11, [0, 1, 2, 3]), (57, [0, 1, 4, 3])] [4, 2]) (-1) 2,
    -- 754: x45 += einsum(t1, (0, 1), x44, (0, 2), (2, 1)) * 0.08333333333333
    .add 63 (.ein [(7, [0, 1]), (62, [0, 2])] [2, 1]) 1 12,
    -- 755: l1new += einsum(x45, (0, 1), v.oovv, (2, 0, 3, 1), (3, 2)) * -1.0
    .add 15 (.ein [(63, [0, 1]), (5, [2, 0, 3, 1])] [3, 2]) (-1) 1,
    -- 756: del x45
    .del 63,
    -- 757: x46 = np.zeros((nvir, nvir), dtype=types[float])
    .zeros 64 [1, 1],
    -- 758: x46 += einsum(l2, (0, 1, 2, 3), t2, (2, 3, 4, 1), (0, 4))
    .add 64 (.ein [(0, [0, 1, 2, 3]), (11, [2, 3, 4, 1])] [0, 4]) 1 1,
    -- 759: x47 = np.zeros((nvir, nvir), dtype=types[float])
    .zeros 65 [1, 1],
    -- 760: x47 += einsum(l1, (0, 1), t1, (1, 2), (0, 2))
    .add 65 (.ein [(3, [0, 1]), (7, [1, 2])] [0, 2]) 1 1,
    -- 761: x47 += einsum(x46, (0, 1), (0, 1)) * 0.5
    .add 65 (.ein [(64, [0, 1])] [0, 1]) 1 2,
    -- 762: l1new += einsum(x47, (0, 1), v.ovvv, (2, 0, 3, 1), (3, 2))
    .add 15 (.ein [(65, [0, 1]), (1, [2, 0, 3, 1])] [3, 2]) 1 1,
    -- 763: del x47
    .del 65,
    -- 764: x48 = np.zeros((nocc, nocc, nocc, nocc), dtype=types[float])
    .zeros 66 [0, 0, 0, 0],
    -- 765: x48 += einsum(x31, (0, 1, 2, 3), (1, 0, 3, 2)) * 3.00000000000012
    .add 66 (.ein [(49, [0, 1, 2, 3])] [1, 0, 3, 2]) 3 1,
    -- 766: x48 += einsum(x32, (0, 1, 2, 3), (0, 1, 3, 2)) * -1.0
    .add 66 (.ein [(50, [0, 1, 2, 3])] [0, 1, 3, 2]) (-1) 1,
    -- 767: l1new += einsum(v.ooov, (0, 1, 2, 3), x48, (2, 4, 0, 1), (3, 4)) * 0.08333333333333
    .add 15 (.ein [(10, [0, 1, 2, 3]), (66, [2, 4, 0, 1])] [3, 4]) 1 12,
    -- 768: del x48
    .del 66,
    -- 769: x49 = np.zeros((nocc, nocc, nocc, nocc), dtype=types[float])
    .zeros 67 [0, 0, 0, 0],
    -- 770: x49 += einsum(t1, (0, 1), x33, (2, 3, 4, 1), (3, 2, 4, 0))
    .add 67 (.ein [(7, [0, 1]), (51, [2, 3, 4, 1])] [3, 2, 4, 0]) 1 1,
    -- 771: l1new += einsum(v.ooov, (0, 1, 2, 3), x49, (4, 2, 0, 1), (3, 4)) * -0.5
    .add 15 (.ein [(10, [0, 1, 2, 3]), (67, [4, 2, 0, 1])] [3, 4]) (-1) 2,
    -- 772: del x49
    .del 67,
    -- 773: x50 = np.zeros((nocc, nocc), dtype=types[float])
    .zeros 68 [0, 0],
    -- 774: x50 += einsum(x0, (0, 1), (0, 1)) * 2.0
    .add 68 (.ein [(17, [0, 1])] [0, 1]) 2 1,
    -- 775: x50 += einsum(x35, (0, 1), (0, 1))
    .add 68 (.ein [(53, [0, 1])] [0, 1]) 1 1,
    -- 776: l1new += einsum(x50, (0, 1), v.ooov, (2, 1, 0, 3), (3, 2)) * 0.5
    .add 15 (.ein [(68, [0, 1]), (10, [2, 1, 0, 3])] [3, 2]) 1 2,
    -- 777: del x50
    .del 68,
    -- 778: x51 = np.zeros((nvir, nvir), dtype=types[float])
    .zeros 69 [1, 1],
    -- 779: x51 += einsum(t1, (0, 1), v.ovvv, (0, 2, 3, 1), (2, 3))
    .add 69 (.ein [(7, [0, 1]), (1, [0, 2, 3, 1])] [2, 3]) 1 1,
    -- 780: x52 = np.zeros((nvir, nvir), dtype=types[float])
    .zeros 70 [1, 1],
    -- 781: x52 += einsum(f.vv, (0, 1), (0, 1))
    .add 70 (.ein [(13, [0, 1])] [0, 1]) 1 1,
    -- 782: x52 += einsum(x51, (0, 1), (0, 1)) * -1.0
    .add 70 (.ein [(69, [0, 1])] [0, 1]) (-1) 1,
    -- 783: l1new += einsum(l1, (0, 1), x52, (0, 2), (2, 1))
    .add 15 (.ein [(3, [0, 1]), (70, [0, 2])] [2, 1]) 1 1,
    -- 784: del x52
    .del 70,
    -- 785: x53 = np.zeros((nocc, nocc), dtype=types[float])
    .zeros 71 [0, 0],
    -- 786: x53 += einsum(t1, (0, 1), v.ooov, (2, 0, 3, 1), (2, 3))
    .add 71 (.ein [(7, [0, 1]), (10, [2, 0, 3, 1])] [2, 3]) 1 1,
    -- 787: x54 = np.zeros((nocc, nocc), dtype=types[float])
    .zeros 72 [0, 0],
    -- 788: x54 += einsum(t2, (0, 1, 2, 3), v.oovv, (4, 1, 2, 3), (0, 4))
    .add 72 (.ein [(11, [0, 1, 2, 3]), (5, [4, 1, 2, 3])] [0, 4]) 1 1,
    -- 789: x55 = np.zeros((nocc, nocc), dtype=types[float])
    .zeros 73 [0, 0],
    -- 790: x55 += einsum(f.oo, (0, 1), (0, 1)) * 2.0
    .add 73 (.ein [(14, [0, 1])] [0, 1]) 2 1,
    -- 791: x55 += einsum(x53, (0, 1), (1, 0)) * 2.0
    .add 73 (.ein [(71, [0, 1])] [1, 0]) 2 1,
    -- 792: x55 += einsum(x54, (0, 1), (0, 1))
    .add 73 (.ein [(72, [0, 1])] [0, 1]) 1 1,
    -- 793: x55 += einsum(t1, (0, 1), x9, (2, 1), (0, 2)) * 2.0
    .add 73 (.ein [(7, [0, 1]), (27, [2, 1])] [0, 2]) 2 1,
    -- 794: del x9
    .del 27,
    -- 795: l1new += einsum(l1, (0, 1), x55, (1, 2), (0, 2)) * -0.5
    .add 15 (.ein [(3, [0, 1]), (73, [1, 2])] [0, 2]) (-1) 2,
    -- 796: del x55
    .del 73,
    -- 797: x56 = np.zeros((nocc, nocc), dtype=types[float])
    .zeros 74 [0, 0],
    -- 798: x56 += einsum(x0, (0, 1), (0, 1)) * 2.0
    .add 74 (.ein [(17, [0, 1])] [0, 1]) 2 1,
    -- 799: del x0
    .del 17,
    -- 800: x56 += einsum(x35, (0, 1), (0, 1))
    .add 74 (.ein [(53, [0, 1])] [0, 1]) 1 1,
    -- 801: del x35
    .del 53,
    -- 802: x56 += einsum(x3, (0, 1), (0, 1)) * 0.16666666666666
    .add 74 (.ein [(21, [0, 1])] [0, 1]) 1 6,
    -- 803: del x3
    .del 21,
    -- 804: l1new += einsum(f.ov, (0, 1), x56, (2, 0), (1, 2)) * -0.5
    .add 15 (.ein [(2, [0, 1]), (74, [2, 0])] [1, 2]) (-1) 2,
    -- 805: del x56
    .del 74,
    -- 806: x57 = np.zeros((nocc, nocc, nvir, nvir), dtype=types[float])
    .zeros 75 [0, 0, 1, 1],
    -- 807: x57 += einsum(f.vv, (0, 1), l2, (2, 1, 3, 4), (3, 4, 0, 2))
    .add 75 (.ein [(13, [0, 1]), (0, [2, 1, 3, 4])] [3, 4, 0, 2]) 1 1,
    -- 808: x58 = np.zeros((nocc, nvir, nvir, nvir), dtype=types[float])
    .zeros 76 [0, 1, 1, 1],
    -- 809: x58 += einsum(t1, (0, 1), v.vvvv, (2, 3, 4, 1), (0, 2, 3, 4))
    .add 76 (.ein [(7, [0, 1]), (6, [2, 3, 4, 1])] [0, 2, 3, 4]) 1 1,
    -- 810: x59 = np.zeros((nocc, nvir, nvir, nvir), dtype=types[float])
    .zeros 77 [0, 1, 1, 1],
    -- 811: x59 += einsum(t2, (0, 1, 2, 3), v.ovvv, (1, 4, 5, 3), (0, 2, 4, 5))
    .add 77 (.ein [(11, [0, 1, 2, 3]), (1, [1, 4, 5, 3])] [0, 2, 4, 5]) 1 1,
    -- 812: x60 = np.zeros((nocc, nvir, nvir, nvir), dtype=types[float])
    .zeros 78 [0, 1, 1, 1],
    -- 813: x60 += einsum(v.oovv, (0, 1, 2, 3), t3, (4, 0, 1, 5, 6, 3), (4, 5, 6, 2))
    .add 78 (.ein [(5, [0, 1, 2, 3]), (9, [4, 0, 1, 5, 6, 3])] [4, 5, 6, 2]) 1 1,
    -- 814: x61 = np.zeros((nocc, nvir, nvir, nvir), dtype=types[float])
    .zeros 79 [0, 1, 1, 1],
    -- 815: x61 += einsum(t2, (0, 1, 2, 3), x5, (0, 1, 4, 5), (4, 2, 3, 5)) * 0.5
    .add 79 (.ein [(11, [0, 1, 2, 3]), (23, [0, 1, 4, 5])] [4, 2, 3, 5]) 1 2,
    -- 816: del x5
    .del 23,
    -- 817: x62 = np.zeros((nocc, nvir, nvir, nvir), dtype=types[float])
    .zeros 80 [0, 1, 1, 1],
    -- 818: x62 += einsum(v.ovvv, (0, 1, 2, 3), (0, 2, 3, 1)) * -1.0
    .add 80 (.ein [(1, [0, 1, 2, 3])] [0, 2, 3, 1]) (-1) 1,
    -- 819: x62 += einsum(x58, (0, 1, 2, 3), (0, 2, 1, 3)) * -1.0
    .add 80 (.ein [(76, [0, 1, 2, 3])] [0, 2, 1, 3]) (-1) 1,
    -- 820: del x58
    .del 76,
    -- 821: x62 += einsum(x59, (0, 1, 2, 3), (0, 1, 2, 3)) * 2.0
    .add 80 (.ein [(77, [0, 1, 2, 3])] [0, 1, 2, 3]) 2 1,
    -- 822: del x59
    .del 77,
    -- 823: x62 += einsum(x60, (0, 1, 2, 3), (0, 2, 1, 3)) * -0.49999999999998
    .add 80 (.ein [(78, [0, 1, 2, 3])] [0, 2, 1, 3]) (-1) 2,
    -- 824: del x60
    .del 78,
    -- 825: x62 += einsum(x61, (0, 1, 2, 3), (0, 2, 1, 3))
    .add 80 (.ein [(79, [0, 1, 2, 3])] [0, 2, 1, 3]) 1 1,
    -- 826: del x61
    .del 79,
    -- 827: x63 = np.zeros((nocc, nocc, nvir, nvir), dtype=types[float])
    .zeros 81 [0, 0, 1, 1],
    -- 828: x63 += einsum(x62, (0, 1, 2, 3), l3, (4, 1, 2, 5, 6, 0), (5, 6, 4, 3)) * -0.5
    .add 81 (.ein [(80, [0, 1, 2, 3]), (8, [4, 1, 2, 5, 6, 0])] [5, 6, 4, 3]) (-1) 2,
    -- 829: del x62
    .del 80,
    -- 830: x64 = np.zeros((nocc, nocc, nvir, nvir), dtype=types[float])
    .zeros 82 [0, 0, 1, 1],
    -- 831: x64 += einsum(t1, (0, 1), v.ooov, (2, 0, 3, 4), (2, 3, 1, 4))
    .add 82 (.ein [(7, [0, 1]), (10, [2, 0, 3, 4])] [2, 3, 1, 4]) 1 1,
    -- 832: x65 = np.zeros((nocc, nocc, nvir, nvir), dtype=types[float])
    .zeros 83 [0, 0, 1, 1],
    -- 833: x65 += einsum(v.ovov, (0, 1, 2, 3), (0, 2, 3, 1)) * -1.0
    .add 83 (.ein [(4, [0, 1, 2, 3])] [0, 2, 3, 1]) (-1) 1,
    -- 834: x65 += einsum(x64, (0, 1, 2, 3), (1, 0, 2, 3)) * 0.5
    .add 83 (.ein [(82, [0, 1, 2, 3])] [1, 0, 2, 3]) 1 2,
    -- 835: del x64
    .del 82,
    -- 836: x65 += einsum(x7, (0, 1, 2, 3), (0, 1, 2, 3))
    .add 83 (.ein [(25, [0, 1, 2, 3])] [0, 1, 2, 3]) 1 1,
    -- 837: x66 = np.zeros((nocc, nocc, nvir, nvir), dtype=types[float])
    .zeros 84 [0, 0, 1, 1],
    -- 838: x66 += einsum(x65, (0, 1, 2, 3), x26, (4, 5, 0, 1, 2, 6), (4, 5, 6, 3))
    .add 84 (.ein [(83, [0, 1, 2, 3]), (44, [4, 5, 0, 1, 2, 6])] [4, 5, 6, 3]) 1 1,
    -- 839: del x65
    .del 83,
    -- 840: x67 = np.zeros((nocc, nocc, nvir, nvir), dtype=types[float])
    .zeros 85 [0, 0, 1, 1],
    -- 841: x67 += einsum(t1, (0, 1), x4, (2, 3, 0, 4), (2, 3, 1, 4))
    .add 85 (.ein [(7, [0, 1]), (22, [2, 3, 0, 4])] [2, 3, 1, 4]) 1 1,
    -- 842: x68 = np.zeros((nocc, nocc, nvir, nvir), dtype=types[float])
    .zeros 86 [0, 0, 1, 1],
    -- 843: x68 += einsum(x6, (0, 1, 2, 3), (0, 1, 2, 3))
    .add 86 (.ein [(24, [0, 1, 2, 3])] [0, 1, 2, 3]) 1 1,
    -- 844: x68 += einsum(x67, (0, 1, 2, 3), (0, 1, 2, 3)) * -0.5
    .add 86 (.ein [(85, [0, 1, 2, 3])] [0, 1, 2, 3]) (-1) 2,
    -- 845: del x67
    .del 85,
    -- 846: x69 = np.zeros((nocc, nocc, nvir, nvir), dtype=types[float])
    .zeros 87 [0, 0, 1, 1],
    -- 847: x69 += einsum(x68, (0, 1, 2, 3), x26, (4, 5, 0, 1, 2, 6), (4, 5, 6, 3))
    .add 87 (.ein [(86, [0, 1, 2, 3]), (44, [4, 5, 0, 1, 2, 6])] [4, 5, 6, 3]) 1 1,
    -- 848: del x68
    .del 86,
    -- 849: x70 = np.zeros((nvir, nvir), dtype=types[float])
    .zeros 88 [1, 1],
    -- 850: x70 += einsum(x46, (0, 1), (0, 1))
    .add 88 (.ein [(64, [0, 1])] [0, 1]) 1 1,
    -- 851: del x46
    .del 64,
    -- 852: x70 += einsum(x2, (0, 1), (0, 1)) * 0.16666666666666
    .add 88 (.ein [(20, [0, 1])] [0, 1]) 1 6,
    -- 853: del x2
    .del 20,
    -- 854: x71 = np.zeros((nocc, nocc, nvir, nvir), dtype=types[float])
    .zeros 89 [0, 0, 1, 1],
    -- 855: x71 += einsum(x70, (0, 1), v.oovv, (2, 3, 4, 1), (2, 3, 0, 4)) * -0.5
    .add 89 (.ein [(88, [0, 1]), (5, [2, 3, 4, 1])] [2, 3, 0, 4]) (-1) 2,
    -- 856: del x70
    .del 88,
    -- 857: x72 = np.zeros((nvir, nvir), dtype=types[float])
    .zeros 90 [1, 1],
    -- 858: x72 += einsum(t2, (0, 1, 2, 3), v.oovv, (0, 1, 4, 3), (2, 4))
    .add 90 (.ein [(11, [0, 1, 2, 3]), (5, [0, 1, 4, 3])] [2, 4]) 1 1,
    -- 859: x73 = np.zeros((nvir, nvir), dtype=types[float])
    .zeros 91 [1, 1],
    -- 860: x73 += einsum(x51, (0, 1), (0, 1))
    .add 91 (.ein [(69, [0, 1])] [0, 1]) 1 1,
    -- 861: del x51
    .del 69,
    -- 862: x73 += einsum(x72, (0, 1), (0, 1)) * 0.5
    .add 91 (.ein [(90, [0, 1])] [0, 1]) 1 2,
    -- 863: del x72
    .del 90,
    -- 864: x74 = np.zeros((nocc, nocc, nvir, nvir), dtype=types[float])
    .zeros 92 [0, 0, 1, 1],
    -- 865: x74 += einsum(x73, (0, 1), l2, (2, 0, 3, 4), (3, 4, 2, 1)) * -1.0
    .add 92 (.ein [(91, [0, 1]), (0, [2, 0, 3, 4])] [3, 4, 2, 1]) (-1) 1,
    -- 866: x75 = np.zeros((nocc, nocc, nvir, nvir), dtype=types[float])
    .zeros 93 [0, 0, 1, 1],
    -- 867: x75 += einsum(l1, (0, 1), x15, (1, 2, 3, 4), (2, 3, 0, 4))
    .add 93 (.ein [(3, [0, 1]), (33, [1, 2, 3, 4])] [2, 3, 0, 4]) 1 1,
    -- 868: del x15
    .del 33,
    -- 869: x76 = np.zeros((nocc, nocc, nvir, nvir), dtype=types[float])
    .zeros 94 [0, 0, 1, 1],
    -- 870: x76 += einsum(f.ov, (0, 1), x39, (2, 3, 0, 4), (2, 3, 4, 1))
    .add 94 (.ein [(2, [0, 1]), (57, [2, 3, 0, 4])] [2, 3, 4, 1]) 1 1,
    -- 871: x77 = np.zeros((nocc, nocc, nvir, nvir), dtype=types[float])
    .zeros 95 [0, 0, 1, 1],
    -- 872: x77 += einsum(x1, (0, 1), x39, (2, 3, 0, 4), (2, 3, 4, 1))
    .add 95 (.ein [(18, [0, 1]), (57, [2, 3, 0, 4])] [2, 3, 4, 1]) 1 1,
    -- 873: del x39
    .del 57,
    -- 874: x78 = np.zeros((nocc, nocc, nvir, nvir), dtype=types[float])
    .zeros 96 [0, 0, 1, 1],
    -- 875: x78 += einsum(x57, (0, 1, 2, 3), (1, 0, 2, 3)) * -1.0
    .add 96 (.ein [(75, [0, 1, 2, 3])] [1, 0, 2, 3]) (-1) 1,
    -- 876: del x57
    .del 75,
    -- 877: x78 += einsum(x63, (0, 1, 2, 3), (0, 1, 2, 3))
    .add 96 (.ein [(81, [0, 1, 2, 3])] [0, 1, 2, 3]) 1 1,
    -- 878: del x63
    .del 81,
    -- 879: x78 += einsum(x66, (0, 1, 2, 3), (0, 1, 2, 3))
    .add 96 (.ein [(84, [0, 1, 2, 3])] [0, 1, 2, 3]) 1 1,
    -- 880: del x66
    .del 84,
    -- 881: x78 += einsum(x69, (0, 1, 2, 3), (0, 1, 2, 3))
    .add 96 (.ein [(87, [0, 1, 2, 3])] [0, 1, 2, 3]) 1 1,
    -- 882: del x69
    .del 87,
    -- 883: x78 += einsum(x71, (0, 1, 2, 3), (1, 0, 2, 3)) * -1.0
    .add 96 (.ein [(89, [0, 1, 2, 3])] [1, 0, 2, 3]) (-1) 1,
    -- 884: del x71
    .del 89,
    -- 885: x78 += einsum(x74, (0, 1, 2, 3), (1, 0, 2, 3))
    .add 96 (.ein [(92, [0, 1, 2, 3])] [1, 0, 2, 3]) 1 1,
    -- 886: del x74
    .del 92,
    -- 887: x78 += einsum(x75, (0, 1, 2, 3), (1, 0, 2, 3))
    .add 96 (.ein [(93, [0, 1, 2, 3])] [1, 0, 2, 3]) 1 1,
    -- 888: del x75
    .del 93,
    -- 889: x78 += einsum(x76, (0, 1, 2, 3), (1, 0, 3, 2))
    .add 96 (.ein [(94, [0, 1, 2, 3])] [1, 0, 3, 2]) 1 1,
    -- 890: del x76
    .del 94,
    -- 891: x78 += einsum(x77, (0, 1, 2, 3), (1, 0, 2, 3)) * -1.0
    .add 96 (.ein [(95, [0, 1, 2, 3])] [1, 0, 2, 3]) (-1) 1,
    -- 892: del x77
    .del 95,
    -- 893: l2new += einsum(x78, (0, 1, 2, 3), (2, 3, 0, 1)) * -1.0
    .add 16 (.ein [(96, [0, 1, 2, 3])] [2, 3, 0, 1]) (-1) 1,
    -- 894: l2new += einsum(x78, (0, 1, 2, 3), (3, 2, 0, 1))
    .add 16 (.ein [(96, [0, 1, 2, 3])] [3, 2, 0, 1]) 1 1,
    -- 895: del x78
    .del 96,
    -- 896: x79 = np.zeros((nocc, nocc, nvir, nvir), dtype=types[float])
    .zeros 97 [0, 0, 1, 1],
    -- 897: x79 += einsum(x28, (0, 1, 2, 3), x4, (0, 4, 2, 5), (1, 4, 3, 5)) * -1.0
    .add 97 (.ein [(46, [0, 1, 2, 3]), (22, [0, 4, 2, 5])] [1, 4, 3, 5]) (-1) 1,
    -- 898: x80 = np.zeros((nocc, nocc, nvir, nvir), dtype=types[float])
    .zeros 98 [0, 0, 1, 1],
    -- 899: x80 += einsum(v.ovvv, (0, 1, 2, 3), x18, (4, 5, 1, 3), (4, 0, 5, 2))
    .add 98 (.ein [(1, [0, 1, 2, 3]), (36, [4, 5, 1, 3])] [4, 0, 5, 2]) 1 1,
    -- 900: x81 = np.zeros((nocc, nocc, nvir, nvir), dtype=types[float])
    .zeros 99 [0, 0, 1, 1],
    -- 901: x81 += einsum(t1, (0, 1), x29, (0, 2, 3, 4), (2, 3, 4, 1)) * -1.0
    .add 99 (.ein [(7, [0, 1]), (47, [0, 2, 3, 4])] [2, 3, 4, 1]) (-1) 1,
    -- 902: x82 = np.zeros((nocc, nocc, nvir, nvir), dtype=types[float])
    .zeros 100 [0, 0, 1, 1],
    -- 903: x82 += einsum(x41, (0, 1, 2, 3), (0, 1, 2, 3)) * -2.0
    .add 100 (.ein [(59, [0, 1, 2, 3])] [0, 1, 2, 3]) (-2) 1,
    -- 904: del x41
    .del 59,
    -- 905: x82 += einsum(x42, (0, 1, 2, 3), (0, 1, 2, 3)) * -0.49999999999998
    .add 100 (.ein [(60, [0, 1, 2, 3])] [0, 1, 2, 3]) (-1) 2,
    -- 906: del x42
    .del 60,
    -- 907: x82 += einsum(x38, (0, 1, 2, 3), (0, 1, 2, 3))
    .add 100 (.ein [(56, [0, 1, 2, 3])] [0, 1, 2, 3]) 1 1,
    -- 908: del x38
    .del 56,
    -- 909: x82 += einsum(x81, (0, 1, 2, 3), (0, 1, 2, 3))
    .add 100 (.ein [(99, [0, 1, 2, 3])] [0, 1, 2, 3]) 1 1,
    -- 910: del x81
    .del 99,
    -- 911: x83 = np.zeros((nocc, nocc, nvir, nvir), dtype=types[float])
    .zeros 101 [0, 0, 1, 1],
    -- 912: x83 += einsum(v.oovv, (0, 1, 2, 3), x82, (4, 1, 5, 3), (4, 0, 5, 2)) * 0.5
    .add 101 (.ein [(5, [0, 1, 2, 3]), (100, [4, 1, 5, 3])] [4, 0, 5, 2]) 1 2,
    -- 913: del x82
    .del 100,
    -- 914: x84 = np.zeros((nocc, nocc, nvir, nvir), dtype=types[float])
    .zeros 102 [0, 0, 1, 1],
    -- 915: x84 += einsum(v.ovov, (0, 1, 2, 3), (0, 2, 3, 1)) * -1.0
    .add 102 (.ein [(4, [0, 1, 2, 3])] [0, 2, 3, 1]) (-1) 1,
    -- 916: x84 += einsum(x6, (0, 1, 2, 3), (0, 1, 2, 3))
    .add 102 (.ein [(24, [0, 1, 2, 3])] [0, 1, 2, 3]) 1 1,
    -- 917: x85 = np.zeros((nocc, nocc, nvir, nvir), dtype=types[float])
    .zeros 103 [0, 0, 1, 1],
    -- 918: x85 += einsum(l2, (0, 1, 2, 3), x84, (3, 4, 1, 5), (2, 4, 0, 5))
    .add 103 (.ein [(0, [0, 1, 2, 3]), (102, [3, 4, 1, 5])] [2, 4, 0, 5]) 1 1,
    -- 919: del x84
    .del 102,
    -- 920: x86 = np.zeros((nocc, nocc, nvir, nvir), dtype=types[float])
    .zeros 104 [0, 0, 1, 1],
    -- 921: x86 += einsum(v.ooov, (0, 1, 2, 3), x30, (4, 2, 1, 5), (0, 4, 3, 5)) * -1.0
    .add 104 (.ein [(10, [0, 1, 2, 3]), (48, [4, 2, 1, 5])] [0, 4, 3, 5]) (-1) 1,
    -- 922: del x30
    .del 48,
    -- 923: x87 = np.zeros((nocc, nocc, nvir, nvir), dtype=types[float])
    .zeros 105 [0, 0, 1, 1],
    -- 924: x87 += einsum(f.ov, (0, 1), l1, (2, 3), (0, 3, 1, 2))
    .add 105 (.ein [(2, [0, 1]), (3, [2, 3])] [0, 3, 1, 2]) 1 1,
    -- 925: x87 += einsum(l1, (0, 1), x1, (2, 3), (1, 2, 0, 3))
    .add 105 (.ein [(3, [0, 1]), (18, [2, 3])] [1, 2, 0, 3]) 1 1,
    -- 926: x87 += einsum(x79, (0, 1, 2, 3), (0, 1, 2, 3)) * -1.0
    .add 105 (.ein [(97, [0, 1, 2, 3])] [0, 1, 2, 3]) (-1) 1,
    -- 927: del x79
    .del 97,
    -- 928: x87 += einsum(x80, (0, 1, 2, 3), (0, 1, 2, 3)) * 0.5
    .add 105 (.ein [(98, [0, 1, 2, 3])] [0, 1, 2, 3]) 1 2,
    -- 929: del x80
    .del 98,
    -- 930: x87 += einsum(x83, (0, 1, 2, 3), (0, 1, 2, 3)) * -1.0
    .add 105 (.ein [(101, [0, 1, 2, 3])] [0, 1, 2, 3]) (-1) 1,
    -- 931: del x83
    .del 101,
    -- 932: x87 += einsum(x85, (0, 1, 2, 3), (0, 1, 2, 3))
    .add 105 (.ein [(103, [0, 1, 2, 3])] [0, 1, 2, 3]) 1 1,
    -- 933: del x85
    .del 103,
    -- 934: x87 += einsum(x86, (0, 1, 2, 3), (1, 0, 3, 2))
    .add 105 (.ein [(104, [0, 1, 2, 3])] [1, 0, 3, 2]) 1 1,
    -- 935: del x86
    .del 104,
    -- 936: l2new += einsum(x87, (0, 1, 2, 3), (2, 3, 0, 1))
    .add 16 (.ein [(105, [0, 1, 2, 3])] [2, 3, 0, 1]) 1 1,
    -- 937: l2new += einsum(x87, (0, 1, 2, 3), (3, 2, 0, 1)) * -1.0
    .add 16 (.ein [(105, [0, 1, 2, 3])] [3, 2, 0, 1]) (-1) 1,
    -- 938: l2new += einsum(x87, (0, 1, 2, 3), (2, 3, 1, 0)) * -1.0
    .add 16 (.ein [(105, [0, 1, 2, 3])] [2, 3, 1, 0]) (-1) 1,
    -- 939: l2new += einsum(x87, (0, 1, 2, 3), (3, 2, 1, 0))
    .add 16 (.ein [(105, [0, 1, 2, 3])] [3, 2, 1, 0]) 1 1,
    -- 940: del x87
    .del 105,
    -- 941: x88 = np.zeros((nocc, nocc), dtype=types[float])
    .zeros 106 [0, 0],
    -- 942: x88 += einsum(f.ov, (0, 1), t1, (2, 1), (0, 2))
    .add 106 (.ein [(2, [0, 1]), (7, [2, 1])] [0, 2]) 1 1,
    -- 943: x89 = np.zeros((nocc, nocc, nvir, nvir), dtype=types[float])
    .zeros 107 [0, 0, 1, 1],
    -- 944: x89 += einsum(x88, (0, 1), l2, (2, 3, 4, 1), (0, 4, 2, 3))
    .add 107 (.ein [(106, [0, 1]), (0, [2, 3, 4, 1])] [0, 4, 2, 3]) 1 1,
    -- 945: x90 = np.zeros((nocc, nocc, nocc, nvir), dtype=types[float])
    .zeros 108 [0, 0, 0, 1],
    -- 946: x90 += einsum(f.ov, (0, 1), t2, (2, 3, 4, 1), (0, 2, 3, 4))
    .add 108 (.ein [(2, [0, 1]), (11, [2, 3, 4, 1])] [0, 2, 3, 4]) 1 1,
    -- 947: x91 = np.zeros((nocc, nocc, nvir, nvir), dtype=types[float])
    .zeros 109 [0, 0, 1, 1],
    -- 948: x91 += einsum(x90, (0, 1, 2, 3), l3, (4, 5, 3, 6, 2, 1), (0, 6, 4, 5))
    .add 109 (.ein [(108, [0, 1, 2, 3]), (8, [4, 5, 3, 6, 2, 1])] [0, 6, 4, 5]) 1 1,
    -- 949: del x90
    .del 108,
    -- 950: x92 = np.zeros((nocc, nocc, nocc, nvir), dtype=types[float])
    .zeros 110 [0, 0, 0, 1],
    -- 951: x92 += einsum(x1, (0, 1), t2, (2, 3, 4, 1), (2, 3, 0, 4)) * -1.0
    .add 110 (.ein [(18, [0, 1]), (11, [2, 3, 4, 1])] [2, 3, 0, 4]) (-1) 1,
    -- 952: x93 = np.zeros((nocc, nocc, nvir, nvir), dtype=types[float])
    .zeros 111 [0, 0, 1, 1],
    -- 953: x93 += einsum(v.ovov, (0, 1, 2, 3), (0, 2, 1, 3))
    .add 111 (.ein [(4, [0, 1, 2, 3])] [0, 2, 1, 3]) 1 1,
    -- 954: x93 += einsum(x6, (0, 1, 2, 3), (1, 0, 2, 3)) * -0.5
    .add 111 (.ein [(24, [0, 1, 2, 3])] [1, 0, 2, 3]) (-1) 2,
    -- 955: x94 = np.zeros((nocc, nocc, nocc, nvir), dtype=types[float])
    .zeros 112 [0, 0, 0, 1],
    -- 956: x94 += einsum(t1, (0, 1), x93, (2, 3, 4, 1), (0, 2, 3, 4)) * 2.0
    .add 112 (.ein [(7, [0, 1]), (111, [2, 3, 4, 1])] [0, 2, 3, 4]) 2 1,
    -- 957: del x93
    .del 111,
    -- 958: x95 = np.zeros((nocc, nocc, nocc, nvir), dtype=types[float])
    .zeros 113 [0, 0, 0, 1],
    -- 959: x95 += einsum(t1, (0, 1), x13, (0, 2, 3, 4), (2, 3, 4, 1)) * 0.5
    .add 113 (.ein [(7, [0, 1]), (31, [0, 2, 3, 4])] [2, 3, 4, 1]) 1 2,
    -- 960: del x13
    .del 31,
    -- 961: x96 = np.zeros((nocc, nocc, nocc, nvir), dtype=types[float])
    .zeros 114 [0, 0, 0, 1],
    -- 962: x96 += einsum(v.ooov, (0, 1, 2, 3), (0, 1, 2, 3)) * -1.0
    .add 114 (.ein [(10, [0, 1, 2, 3])] [0, 1, 2, 3]) (-1) 1,
    -- 963: x96 += einsum(x20, (0, 1, 2, 3), (1, 0, 2, 3)) * 0.5
    .add 114 (.ein [(38, [0, 1, 2, 3])] [1, 0, 2, 3]) 1 2,
    -- 964: del x20
    .del 38,
    -- 965: x96 += einsum(x21, (0, 1, 2, 3), (0, 1, 2, 3)) * 0.49999999999998
    .add 114 (.ein [(39, [0, 1, 2, 3])] [0, 1, 2, 3]) 1 2,
    -- 966: del x21
    .del 39,
    -- 967: x96 += einsum(x92, (0, 1, 2, 3), (0, 1, 2, 3)) * -1.0
    .add 114 (.ein [(110, [0, 1, 2, 3])] [0, 1, 2, 3]) (-1) 1,
    -- 968: del x92
    .del 110,
    -- 969: x96 += einsum(x22, (0, 1, 2, 3), (0, 1, 2, 3))
    .add 114 (.ein [(40, [0, 1, 2, 3])] [0, 1, 2, 3]) 1 1,
    -- 970: del x22
    .del 40,
    -- 971: x96 += einsum(x94, (0, 1, 2, 3), (2, 0, 1, 3)) * -1.0
    .add 114 (.ein [(112, [0, 1, 2, 3])] [2, 0, 1, 3]) (-1) 1,
    -- 972: del x94
    .del 112,
    -- 973: x96 += einsum(x95, (0, 1, 2, 3), (1, 2, 0, 3)) * -1.0
    .add 114 (.ein [(113, [0, 1, 2, 3])] [1, 2, 0, 3]) (-1) 1,
    -- 974: del x95
    .del 113,
    -- 975: x97 = np.zeros((nocc, nocc, nvir, nvir), dtype=types[float])
    .zeros 115 [0, 0, 1, 1],
    -- 976: x97 += einsum(x96, (0, 1, 2, 3), l3, (4, 5, 3, 6, 0, 1), (6, 2, 4, 5)) * -0.5
    .add 115 (.ein [(114, [0, 1, 2, 3]), (8, [4, 5, 3, 6, 0, 1])] [6, 2, 4, 5]) (-1) 2,
    -- 977: del x96
    .del 114,
    -- 978: x98 = np.zeros((nocc, nocc, nvir, nvir), dtype=types[float])
    .zeros 116 [0, 0, 1, 1],
    -- 979: x98 += einsum(x44, (0, 1), v.oovv, (2, 1, 3, 4), (0, 2, 3, 4)) * -0.08333333333333
    .add 116 (.ein [(62, [0, 1]), (5, [2, 1, 3, 4])] [0, 2, 3, 4]) (-1) 12,
    -- 980: del x44
    .del 62,
    -- 981: x99 = np.zeros((nocc, nocc), dtype=types[float])
    .zeros 117 [0, 0],
    -- 982: x99 += einsum(t1, (0, 1), x1, (2, 1), (0, 2))
    .add 117 (.ein [(7, [0, 1]), (18, [2, 1])] [0, 2]) 1 1,
    -- 983: x100 = np.zeros((nocc, nocc), dtype=types[float])
    .zeros 118 [0, 0],
    -- 984: x100 += einsum(x53, (0, 1), (0, 1))
    .add 118 (.ein [(71, [0, 1])] [0, 1]) 1 1,
    -- 985: del x53
    .del 71,
    -- 986: x100 += einsum(x54, (0, 1), (1, 0)) * 0.5
    .add 118 (.ein [(72, [0, 1])] [1, 0]) 1 2,
    -- 987: del x54
    .del 72,
    -- 988: x100 += einsum(x99, (0, 1), (1, 0))
    .add 118 (.ein [(117, [0, 1])] [1, 0]) 1 1,
    -- 989: del x99
    .del 117,
    -- 990: x101 = np.zeros((nocc, nocc, nvir, nvir), dtype=types[float])
    .zeros 119 [0, 0, 1, 1],
    -- 991: x101 += einsum(x100, (0, 1), l2, (2, 3, 4, 1), (4, 0, 2, 3)) * -1.0
    .add 119 (.ein [(118, [0, 1]), (0, [2, 3, 4, 1])] [4, 0, 2, 3]) (-1) 1,
    -- 992: x102 = np.zeros((nocc, nocc, nvir, nvir), dtype=types[float])
    .zeros 120 [0, 0, 1, 1],
    -- 993: x102 += einsum(x89, (0, 1, 2, 3), (0, 1, 3, 2))
    .add 120 (.ein [(107, [0, 1, 2, 3])] [0, 1, 3, 2]) 1 1,
    -- 994: del x89
    .del 107,
    -- 995: x102 += einsum(x91, (0, 1, 2, 3), (0, 1, 3, 2)) * 0.5
    .add 120 (.ein [(109, [0, 1, 2, 3])] [0, 1, 3, 2]) 1 2,
    -- 996: del x91
    .del 109,
    -- 997: x102 += einsum(x97, (0, 1, 2, 3), (0, 1, 2, 3))
    .add 120 (.ein [(115, [0, 1, 2, 3])] [0, 1, 2, 3]) 1 1,
    -- 998: del x97
    .del 115,
    -- 999: x102 += einsum(x98, (0, 1, 2, 3), (0, 1, 3, 2)) * -1.0
    .add 120 (.ein [(116, [0, 1, 2, 3])] [0, 1, 3, 2]) (-1) 1,
    -- 1000: del x98
    .del 116,
    -- 1001: x102 += einsum(x101, (0, 1, 2, 3), (0, 1, 3, 2))
    .add 120 (.ein [(119, [0, 1, 2, 3])] [0, 1, 3, 2]) 1 1,
    -- 1002: del x101
    .del 119,
    -- 1003: l2new += einsum(x102, (0, 1, 2, 3), (3, 2, 0, 1))
    .add 16 (.ein [(120, [0, 1, 2, 3])] [3, 2, 0, 1]) 1 1,
    -- 1004: l2new += einsum(x102, (0, 1, 2, 3), (3, 2, 1, 0)) * -1.0
    .add 16 (.ein [(120, [0, 1, 2, 3])] [3, 2, 1, 0]) (-1) 1,
    -- 1005: del x102
    .del 120,
    -- 1006: x103 = np.zeros((nocc, nocc, nvir, nvir), dtype=types[float])
    .zeros 121 [0, 0, 1, 1],
    -- 1007: x103 += einsum(f.oo, (0, 1), l2, (2, 3, 4, 1), (0, 4, 2, 3))
    .add 121 (.ein [(14, [0, 1]), (0, [2, 3, 4, 1])] [0, 4, 2, 3]) 1 1,
    -- 1008: x104 = np.zeros((nocc, nocc, nvir, nvir), dtype=types[float])
    .zeros 122 [0, 0, 1, 1],
    -- 1009: x104 += einsum(l1, (0, 1), v.ovvv, (2, 0, 3, 4), (1, 2, 3, 4))
    .add 122 (.ein [(3, [0, 1]), (1, [2, 0, 3, 4])] [1, 2, 3, 4]) 1 1,
    -- 1010: x105 = np.zeros((nocc, nocc, nvir, nvir), dtype=types[float])
    .zeros 123 [0, 0, 1, 1],
    -- 1011: x105 += einsum(x103, (0, 1, 2, 3), (0, 1, 3, 2)) * -1.0
    .add 123 (.ein [(121, [0, 1, 2, 3])] [0, 1, 3, 2]) (-1) 1,
    -- 1012: del x103
    .del 121,
    -- 1013: x105 += einsum(x104, (0, 1, 2, 3), (0, 1, 3, 2))
    .add 123 (.ein [(122, [0, 1, 2, 3])] [0, 1, 3, 2]) 1 1,
    -- 1014: del x104
    .del 122,
    -- 1015: l2new += einsum(x105, (0, 1, 2, 3), (2, 3, 0, 1))
    .add 16 (.ein [(123, [0, 1, 2, 3])] [2, 3, 0, 1]) 1 1,
    -- 1016: l2new += einsum(x105, (0, 1, 2, 3), (2, 3, 1, 0)) * -1.0
    .add 16 (.ein [(123, [0, 1, 2, 3])] [2, 3, 1, 0]) (-1) 1,
    -- 1017: del x105
    .del 123,
    -- 1018: x106 = np.zeros((nocc, nocc, nocc, nocc), dtype=types[float])
    .zeros 124 [0, 0, 0, 0],
    -- 1019: x106 += einsum(v.oooo, (0, 1, 2, 3), (0, 1, 2, 3)) * 2.0
    .add 124 (.ein [(12, [0, 1, 2, 3])] [0, 1, 2, 3]) 2 1,
    -- 1020: x106 += einsum(x10, (0, 1, 2, 3), (1, 0, 3, 2))
    .add 124 (.ein [(28, [0, 1, 2, 3])] [1, 0, 3, 2]) 1 1,
    -- 1021: del x10
    .del 28,
    -- 1022: x106 += einsum(x12, (0, 1, 2, 3), (3, 0, 2, 1)) * -1.0
    .add 124 (.ein [(30, [0, 1, 2, 3])] [3, 0, 2, 1]) (-1) 1,
    -- 1023: del x12
    .del 30,
    -- 1024: l2new += einsum(l2, (0, 1, 2, 3), x106, (2, 3, 4, 5), (0, 1, 4, 5)) * 0.25
    .add 16 (.ein [(0, [0, 1, 2, 3]), (124, [2, 3, 4, 5])] [0, 1, 4, 5]) 1 4,
    -- 1025: x107 = np.zeros((nocc, nocc, nocc, nocc), dtype=types[float])
    .zeros 125 [0, 0, 0, 0],
    -- 1026: x107 += einsum(x31, (0, 1, 2, 3), (1, 0, 3, 2))
    .add 125 (.ein [(49, [0, 1, 2, 3])] [1, 0, 3, 2]) 1 1,
    -- 1027: del x31
    .del 49,
    -- 1028: x107 += einsum(x32, (0, 1, 2, 3), (0, 1, 3, 2)) * -0.33333333333332
    .add 125 (.ein [(50, [0, 1, 2, 3])] [0, 1, 3, 2]) (-1) 3,
    -- 1029: del x32
    .del 50,
    -- 1030: x107 += einsum(t1, (0, 1), x33, (2, 3, 4, 1), (3, 2, 4, 0)) * 2.0
    .add 125 (.ein [(7, [0, 1]), (51, [2, 3, 4, 1])] [3, 2, 4, 0]) 2 1,
    -- 1031: del x33
    .del 51,
    -- 1032: l2new += einsum(v.oovv, (0, 1, 2, 3), x107, (4, 5, 0, 1), (2, 3, 5, 4)) * -0.25
    .add 16 (.ein [(5, [0, 1, 2, 3]), (125, [4, 5, 0, 1])] [2, 3, 5, 4]) (-1) 4,
    -- 1033: del x107
    .del 125,
    -- 1034: x108 = np.zeros((nocc, nocc, nocc, nvir, nvir, nvir), dtype=types[float])
    .zeros 126 [0, 0, 0, 1, 1, 1],
    -- 1035: x108 += einsum(x106, (0, 1, 2, 3), l3, (4, 5, 6, 7, 0, 1), (7, 2, 3, 4, 5, 6)) * -0.25
    .add 126 (.ein [(124, [0, 1, 2, 3]), (8, [4, 5, 6, 7, 0, 1])] [7, 2, 3, 4, 5, 6]) (-1) 4,
    -- 1036: del x106
    .del 124,
    -- 1037: x109 = np.zeros((nocc, nocc), dtype=types[float])
    .zeros 127 [0, 0],
    -- 1038: x109 += einsum(f.oo, (0, 1), (0, 1))
    .add 127 (.ein [(14, [0, 1])] [0, 1]) 1 1,
    -- 1039: x109 += einsum(x88, (0, 1), (1, 0))
    .add 127 (.ein [(106, [0, 1])] [1, 0]) 1 1,
    -- 1040: del x88
    .del 106,
    -- 1041: x110 = np.zeros((nocc, nocc, nocc, nvir, nvir, nvir), dtype=types[float])
    .zeros 128 [0, 0, 0, 1, 1, 1],
    -- 1042: x110 += einsum(x109, (0, 1), l3, (2, 3, 4, 5, 6, 0), (5, 6, 1, 2, 3, 4))
    .add 128 (.ein [(127, [0, 1]), (8, [2, 3, 4, 5, 6, 0])] [5, 6, 1, 2, 3, 4]) 1 1,
    -- 1043: del x109
    .del 127,
    -- 1044: x111 = np.zeros((nocc, nocc, nocc, nvir, nvir, nvir), dtype=types[float])
    .zeros 129 [0, 0, 0, 1, 1, 1],
    -- 1045: x111 += einsum(x108, (0, 1, 2, 3, 4, 5), (0, 1, 2, 4, 5, 3))
    .add 129 (.ein [(126, [0, 1, 2, 3, 4, 5])] [0, 1, 2, 4, 5, 3]) 1 1,
    -- 1046: del x108
    .del 126,
    -- 1047: x111 += einsum(x110, (0, 1, 2, 3, 4, 5), (2, 0, 1, 4, 5, 3))
    .add 129 (.ein [(128, [0, 1, 2, 3, 4, 5])] [2, 0, 1, 4, 5, 3]) 1 1,
    -- 1048: del x110
    .del 128,
    -- 1049: l3new += einsum(x111, (0, 1, 2, 3, 4, 5), (4, 5, 3, 0, 1, 2)) * -1.0
    .add 19 (.ein [(129, [0, 1, 2, 3, 4, 5])] [4, 5, 3, 0, 1, 2]) (-1) 1,
    -- 1050: l3new += einsum(x111, (0, 1, 2, 3, 4, 5), (4, 5, 3, 1, 0, 2))
    .add 19 (.ein [(129, [0, 1, 2, 3, 4, 5])] [4, 5, 3, 1, 0, 2]) 1 1,
    -- 1051: l3new += einsum(x111, (0, 1, 2, 3, 4, 5), (4, 5, 3, 1, 2, 0)) * -1.0
    .add 19 (.ein [(129, [0, 1, 2, 3, 4, 5])] [4, 5, 3, 1, 2, 0]) (-1) 1,
    -- 1052: del x111
    .del 129,
    -- 1053: x112 = np.zeros((nocc, nocc, nocc, nvir, nvir, nvir), dtype=types[float])
    .zeros 130 [0, 0, 0, 1, 1, 1],
    -- 1054: x112 += einsum(x100, (0, 1), l3, (2, 3, 4, 5, 6, 1), (5, 6, 0, 2, 3, 4))
    .add 130 (.ein [(118, [0, 1]), (8, [2, 3, 4, 5, 6, 1])] [5, 6, 0, 2, 3, 4]) 1 1,
    -- 1055: del x100
    .del 118,
    -- 1056: l3new += einsum(x112, (0, 1, 2, 3, 4, 5), (5, 3, 4, 1, 0, 2))
    .add 19 (.ein [(130, [0, 1, 2, 3, 4, 5])] [5, 3, 4, 1, 0, 2]) 1 1,
    -- 1057: l3new += einsum(x112, (0, 1, 2, 3, 4, 5), (5, 3, 4, 1, 2, 0)) * -1.0
    .add 19 (.ein [(130, [0, 1, 2, 3, 4, 5])] [5, 3, 4, 1, 2, 0]) (-1) 1,
    -- 1058: l3new += einsum(x112, (0, 1, 2, 3, 4, 5), (5, 3, 4, 2, 1, 0))
    .add 19 (.ein [(130, [0, 1, 2, 3, 4, 5])] [5, 3, 4, 2, 1, 0]) 1 1,
    -- 1059: del x112
    .del 130,
    -- 1060: x113 = np.zeros((nocc, nocc, nocc, nvir, nvir, nvir), dtype=types[float])
    .zeros 131 [0, 0, 0, 1, 1, 1],
    -- 1061: x113 += einsum(v.ooov, (0, 1, 2, 3), x26, (4, 2, 5, 1, 6, 7), (4, 5, 0, 6, 7, 3)) * -1.0
    .add 131 (.ein [(10, [0, 1, 2, 3]), (44, [4, 2, 5, 1, 6, 7])] [4, 5, 0, 6, 7, 3]) (-1) 1,
    -- 1062: x114 = np.zeros((nocc, nocc, nocc, nvir, nvir, nvir), dtype=types[float])
    .zeros 132 [0, 0, 0, 1, 1, 1],
    -- 1063: x114 += einsum(x4, (0, 1, 2, 3), x26, (0, 4, 5, 2, 6, 7), (5, 4, 1, 6, 7, 3)) * -1.0
    .add 132 (.ein [(22, [0, 1, 2, 3]), (44, [0, 4, 5, 2, 6, 7])] [5, 4, 1, 6, 7, 3]) (-1) 1,
    -- 1064: x115 = np.zeros((nocc, nocc, nvir, nvir), dtype=types[float])
    .zeros 133 [0, 0, 1, 1],
    -- 1065: x115 += einsum(v.ovov, (0, 1, 2, 3), (0, 2, 3, 1)) * -1.0
    .add 133 (.ein [(4, [0, 1, 2, 3])] [0, 2, 3, 1]) (-1) 1,
    -- 1066: x115 += einsum(x6, (0, 1, 2, 3), (0, 1, 2, 3))
    .add 133 (.ein [(24, [0, 1, 2, 3])] [0, 1, 2, 3]) 1 1,
    -- 1067: del x6
    .del 24,
    -- 1068: x115 += einsum(x7, (0, 1, 2, 3), (0, 1, 2, 3)) * 1.00000000000001
    .add 133 (.ein [(25, [0, 1, 2, 3])] [0, 1, 2, 3]) 1 1,
    -- 1069: del x7
    .del 25,
    -- 1070: x116 = np.zeros((nocc, nocc, nocc, nvir, nvir, nvir), dtype=types[float])
    .zeros 134 [0, 0, 0, 1, 1, 1],
    -- 1071: x116 += einsum(x115, (0, 1, 2, 3), l3, (4, 5, 2, 6, 7, 0), (6, 7, 1, 4, 5, 3))
    .add 134 (.ein [(133, [0, 1, 2, 3]), (8, [4, 5, 2, 6, 7, 0])] [6, 7, 1, 4, 5, 3]) 1 1,
    -- 1072: del x115
    .del 133,
    -- 1073: x117 = np.zeros((nocc, nocc, nocc, nvir, nvir, nvir), dtype=types[float])
    .zeros 135 [0, 0, 0, 1, 1, 1],
    -- 1074: x117 += einsum(x113, (0, 1, 2, 3, 4, 5), (0, 1, 2, 4, 3, 5)) * -1.0
    .add 135 (.ein [(131, [0, 1, 2, 3, 4, 5])] [0, 1, 2, 4, 3, 5]) (-1) 1,
    -- 1075: del x113
    .del 131,
    -- 1076: x117 += einsum(x114, (0, 1, 2, 3, 4, 5), (0, 1, 2, 4, 3, 5))
    .add 135 (.ein [(132, [0, 1, 2, 3, 4, 5])] [0, 1, 2, 4, 3, 5]) 1 1,
    -- 1077: del x114
    .del 132,
    -- 1078: x117 += einsum(x116, (0, 1, 2, 3, 4, 5), (0, 1, 2, 3, 4, 5))
    .add 135 (.ein [(134, [0, 1, 2, 3, 4, 5])] [0, 1, 2, 3, 4, 5]) 1 1,
    -- 1079: del x116
    .del 134,
    -- 1080: l3new += einsum(x117, (0, 1, 2, 3, 4, 5), (4, 3, 5, 1, 0, 2))
    .add 19 (.ein [(135, [0, 1, 2, 3, 4, 5])] [4, 3, 5, 1, 0, 2]) 1 1,
    -- 1081: l3new += einsum(x117, (0, 1, 2, 3, 4, 5), (4, 5, 3, 1, 0, 2)) * -1.0
    .add 19 (.ein [(135, [0, 1, 2, 3, 4, 5])] [4, 5, 3, 1, 0, 2]) (-1) 1,
    -- 1082: l3new += einsum(x117, (0, 1, 2, 3, 4, 5), (5, 3, 4, 1, 0, 2)) * -1.0
    .add 19 (.ein [(135, [0, 1, 2, 3, 4, 5])] [5, 3, 4, 1, 0, 2]) (-1) 1,
    -- 1083: l3new += einsum(x117, (0, 1, 2, 3, 4, 5), (4, 3, 5, 1, 2, 0)) * -1.0
    .add 19 (.ein [(135, [0, 1, 2, 3, 4, 5])] [4, 3, 5, 1, 2, 0]) (-1) 1,
    -- 1084: l3new += einsum(x117, (0, 1, 2, 3, 4, 5), (4, 5, 3, 1, 2, 0))
    .add 19 (.ein [(135, [0, 1, 2, 3, 4, 5])] [4, 5, 3, 1, 2, 0]) 1 1,
    -- 1085: l3new += einsum(x117, (0, 1, 2, 3, 4, 5), (5, 3, 4, 1, 2, 0))
    .add 19 (.ein [(135, [0, 1, 2, 3, 4, 5])] [5, 3, 4, 1, 2, 0]) 1 1,
    -- 1086: l3new += einsum(x117, (0, 1, 2, 3, 4, 5), (4, 3, 5, 2, 1, 0))
    .add 19 (.ein [(135, [0, 1, 2, 3, 4, 5])] [4, 3, 5, 2, 1, 0]) 1 1,
    -- 1087: l3new += einsum(x117, (0, 1, 2, 3, 4, 5), (4, 5, 3, 2, 1, 0)) * -1.0
    .add 19 (.ein [(135, [0, 1, 2, 3, 4, 5])] [4, 5, 3, 2, 1, 0]) (-1) 1,
    -- 1088: l3new += einsum(x117, (0, 1, 2, 3, 4, 5), (5, 3, 4, 2, 1, 0)) * -1.0
    .add 19 (.ein [(135, [0, 1, 2, 3, 4, 5])] [5, 3, 4, 2, 1, 0]) (-1) 1,
    -- 1089: del x117
    .del 135,
    -- 1090: x118 = np.zeros((nocc, nocc, nocc, nvir, nvir, nvir), dtype=types[float])
    .zeros 136 [0, 0, 0, 1, 1, 1],
    -- 1091: x118 += einsum(f.vv, (0, 1), l3, (2, 3, 1, 4, 5, 6), (4, 5, 6, 0, 2, 3))
    .add 136 (.ein [(13, [0, 1]), (8, [2, 3, 1, 4, 5, 6])] [4, 5, 6, 0, 2, 3]) 1 1,
    -- 1092: x119 = np.zeros((nocc, nocc, nocc, nvir, nvir, nvir), dtype=types[float])
    .zeros 137 [0, 0, 0, 1, 1, 1],
    -- 1093: x119 += einsum(f.ov, (0, 1), x26, (2, 3, 4, 0, 5, 6), (2, 3, 4, 1, 5, 6))
    .add 137 (.ein [(2, [0, 1]), (44, [2, 3, 4, 0, 5, 6])] [2, 3, 4, 1, 5, 6]) 1 1,
    -- 1094: x120 = np.zeros((nocc, nocc, nocc, nvir, nvir, nvir), dtype=types[float])
    .zeros 138 [0, 0, 0, 1, 1, 1],
    -- 1095: x120 += einsum(v.vvvv, (0, 1, 2, 3), l3, (4, 2, 3, 5, 6, 7), (5, 6, 7, 4, 0, 1))
    .add 138 (.ein [(6, [0, 1, 2, 3]), (8, [4, 2, 3, 5, 6, 7])] [5, 6, 7, 4, 0, 1]) 1 1,
    -- 1096: x121 = np.zeros((nocc, nocc, nocc, nvir, nvir, nvir), dtype=types[float])
    .zeros 139 [0, 0, 0, 1, 1, 1],
    -- 1097: x121 += einsum(v.ovvv, (0, 1, 2, 3), x26, (4, 5, 6, 0, 7, 1), (4, 5, 6, 7, 2, 3)) * -1.0
    .add 139 (.ein [(1, [0, 1, 2, 3]), (44, [4, 5, 6, 0, 7, 1])] [4, 5, 6, 7, 2, 3]) (-1) 1,
    -- 1098: x122 = np.zeros((nocc, nocc, nocc, nocc, nocc, nvir), dtype=types[float])
    .zeros 140 [0, 0, 0, 0, 0, 1],
    -- 1099: x122 += einsum(t2, (0, 1, 2, 3), l3, (4, 2, 3, 5, 6, 7), (5, 6, 7, 0, 1, 4))
    .add 140 (.ein [(11, [0, 1, 2, 3]), (8, [4, 2, 3, 5, 6, 7])] [5, 6, 7, 0, 1, 4]) 1 1,
    -- 1100: x123 = np.zeros((nocc, nocc, nocc, nocc, nocc, nvir), dtype=types[float])
    .zeros 141 [0, 0, 0, 0, 0, 1],
    -- 1101: x123 += einsum(x122, (0, 1, 2, 3, 4, 5), (0, 1, 2, 4, 3, 5)) * -1.0
    .add 141 (.ein [(140, [0, 1, 2, 3, 4, 5])] [0, 1, 2, 4, 3, 5]) (-1) 1,
    -- 1102: del x122
    .del 140,
    -- 1103: x123 += einsum(x27, (0, 1, 2, 3, 4, 5), (0, 1, 2, 4, 3, 5)) * -2.0
    .add 141 (.ein [(45, [0, 1, 2, 3, 4, 5])] [0, 1, 2, 4, 3, 5]) (-2) 1,
    -- 1104: del x27
    .del 45,
    -- 1105: x124 = np.zeros((nocc, nocc, nocc, nvir, nvir, nvir), dtype=types[float])
    .zeros 142 [0, 0, 0, 1, 1, 1],
    -- 1106: x124 += einsum(v.oovv, (0, 1, 2, 3), x123, (4, 5, 6, 0, 1, 7), (4, 5, 6, 7, 2, 3)) * 0.25
    .add 142 (.ein [(5, [0, 1, 2, 3]), (141, [4, 5, 6, 0, 1, 7])] [4, 5, 6, 7, 2, 3]) 1 4,
    -- 1107: del x123
    .del 141,
    -- 1108: x125 = np.zeros((nocc, nocc, nocc, nvir, nvir, nvir), dtype=types[float])
    .zeros 143 [0, 0, 0, 1, 1, 1],
    -- 1109: x125 += einsum(x118, (0, 1, 2, 3, 4, 5), (0, 1, 2, 3, 5, 4)) * -1.0
    .add 143 (.ein [(136, [0, 1, 2, 3, 4, 5])] [0, 1, 2, 3, 5, 4]) (-1) 1,
    -- 1110: del x118
    .del 136,
    -- 1111: x125 += einsum(x119, (0, 1, 2, 3, 4, 5), (0, 1, 2, 3, 5, 4))
    .add 143 (.ein [(137, [0, 1, 2, 3, 4, 5])] [0, 1, 2, 3, 5, 4]) 1 1,
    -- 1112: del x119
    .del 137,
    -- 1113: x125 += einsum(x120, (0, 1, 2, 3, 4, 5), (0, 1, 2, 3, 5, 4)) * -0.5
    .add 143 (.ein [(138, [0, 1, 2, 3, 4, 5])] [0, 1, 2, 3, 5, 4]) (-1) 2,
    -- 1114: del x120
    .del 138,
    -- 1115: x125 += einsum(x121, (0, 1, 2, 3, 4, 5), (0, 1, 2, 3, 5, 4))
    .add 143 (.ein [(139, [0, 1, 2, 3, 4, 5])] [0, 1, 2, 3, 5, 4]) 1 1,
    -- 1116: del x121
    .del 139,
    -- 1117: x125 += einsum(x124, (0, 1, 2, 3, 4, 5), (0, 1, 2, 3, 5, 4)) * -1.0
    .add 143 (.ein [(142, [0, 1, 2, 3, 4, 5])] [0, 1, 2, 3, 5, 4]) (-1) 1,
    -- 1118: del x124
    .del 142,
    -- 1119: l3new += einsum(x125, (0, 1, 2, 3, 4, 5), (3, 4, 5, 1, 2, 0))
    .add 19 (.ein [(143, [0, 1, 2, 3, 4, 5])] [3, 4, 5, 1, 2, 0]) 1 1,
    -- 1120: l3new += einsum(x125, (0, 1, 2, 3, 4, 5), (5, 3, 4, 1, 2, 0))
    .add 19 (.ein [(143, [0, 1, 2, 3, 4, 5])] [5, 3, 4, 1, 2, 0]) 1 1,
    -- 1121: l3new += einsum(x125, (0, 1, 2, 3, 4, 5), (5, 4, 3, 1, 2, 0)) * -1.0
    .add 19 (.ein [(143, [0, 1, 2, 3, 4, 5])] [5, 4, 3, 1, 2, 0]) (-1) 1,
    -- 1122: del x125
    .del 143,
    -- 1123: x126 = np.zeros((nocc, nocc, nocc, nvir, nvir, nvir), dtype=types[float])
    .zeros 144 [0, 0, 0, 1, 1, 1],
    -- 1124: x126 += einsum(x1, (0, 1), x26, (2, 3, 4, 0, 5, 6), (2, 3, 4, 5, 6, 1))
    .add 144 (.ein [(18, [0, 1]), (44, [2, 3, 4, 0, 5, 6])] [2, 3, 4, 5, 6, 1]) 1 1,
    -- 1125: del x1, x26
    .del 18,
    .del 44,
    -- 1126: x127 = np.zeros((nocc, nocc, nocc, nvir, nvir, nvir), dtype=types[float])
    .zeros 145 [0, 0, 0, 1, 1, 1],
    -- 1127: x127 += einsum(x73, (0, 1), l3, (2, 3, 0, 4, 5, 6), (4, 5, 6, 2, 3, 1))
    .add 145 (.ein [(91, [0, 1]), (8, [2, 3, 0, 4, 5, 6])] [4, 5, 6, 2, 3, 1]) 1 1,
    -- 1128: del x73
    .del 91,
    -- 1129: x128 = np.zeros((nocc, nocc, nocc, nvir, nvir, nvir), dtype=types[float])
    .zeros 146 [0, 0, 0, 1, 1, 1],
    -- 1130: x128 += einsum(x126, (0, 1, 2, 3, 4, 5), (0, 1, 2, 4, 3, 5)) * -1.0
    .add 146 (.ein [(144, [0, 1, 2, 3, 4, 5])] [0, 1, 2, 4, 3, 5]) (-1) 1,
    -- 1131: del x126
    .del 144,
    -- 1132: x128 += einsum(x127, (0, 1, 2, 3, 4, 5), (1, 2, 0, 3, 4, 5))
    .add 146 (.ein [(145, [0, 1, 2, 3, 4, 5])] [1, 2, 0, 3, 4, 5]) 1 1,
    -- 1133: del x127
    .del 145,
    -- 1134: l3new += einsum(x128, (0, 1, 2, 3, 4, 5), (4, 3, 5, 1, 2, 0))
    .add 19 (.ein [(146, [0, 1, 2, 3, 4, 5])] [4, 3, 5, 1, 2, 0]) 1 1,
    -- 1135: l3new += einsum(x128, (0, 1, 2, 3, 4, 5), (4, 5, 3, 1, 2, 0)) * -1.0
    .add 19 (.ein [(146, [0, 1, 2, 3, 4, 5])] [4, 5, 3, 1, 2, 0]) (-1) 1,
    -- 1136: l3new += einsum(x128, (0, 1, 2, 3, 4, 5), (5, 3, 4, 1, 2, 0)) * -1.0
    .add 19 (.ein [(146, [0, 1, 2, 3, 4, 5])] [5, 3, 4, 1, 2, 0]) (-1) 1,
    -- 1137: del x128
    .del 146,
    -- 1138: x129 = np.zeros((nocc, nocc, nocc, nvir, nvir, nvir), dtype=types[float])
    .zeros 147 [0, 0, 0, 1, 1, 1],
    -- 1139: x129 += einsum(l2, (0, 1, 2, 3), v.ovvv, (4, 1, 5, 6), (2, 3, 4, 0, 5, 6))
    .add 147 (.ein [(0, [0, 1, 2, 3]), (1, [4, 1, 5, 6])] [2, 3, 4, 0, 5, 6]) 1 1,
    -- 1140: x130 = np.zeros((nocc, nocc, nocc, nvir, nvir, nvir), dtype=types[float])
    .zeros 148 [0, 0, 0, 1, 1, 1],
    -- 1141: x130 += einsum(v.oovv, (0, 1, 2, 3), x29, (4, 5, 1, 6), (5, 4, 0, 6, 2, 3))
    .add 148 (.ein [(5, [0, 1, 2, 3]), (47, [4, 5, 1, 6])] [5, 4, 0, 6, 2, 3]) 1 1,
    -- 1142: del x29
    .del 47,
    -- 1143: x131 = np.zeros((nocc, nocc, nocc, nvir, nvir, nvir), dtype=types[float])
    .zeros 149 [0, 0, 0, 1, 1, 1],
    -- 1144: x131 += einsum(x129, (0, 1, 2, 3, 4, 5), (0, 1, 2, 3, 5, 4)) * -1.0
    .add 149 (.ein [(147, [0, 1, 2, 3, 4, 5])] [0, 1, 2, 3, 5, 4]) (-1) 1,
    -- 1145: del x129
    .del 147,
    -- 1146: x131 += einsum(x130, (0, 1, 2, 3, 4, 5), (0, 1, 2, 3, 5, 4)) * -0.5
    .add 149 (.ein [(148, [0, 1, 2, 3, 4, 5])] [0, 1, 2, 3, 5, 4]) (-1) 2,
    -- 1147: del x130
    .del 148,
    -- 1148: l3new += einsum(x131, (0, 1, 2, 3, 4, 5), (3, 4, 5, 1, 0, 2))
    .add 19 (.ein [(149, [0, 1, 2, 3, 4, 5])] [3, 4, 5, 1, 0, 2]) 1 1,
    -- 1149: l3new += einsum(x131, (0, 1, 2, 3, 4, 5), (5, 3, 4, 1, 0, 2))
    .add 19 (.ein [(149, [0, 1, 2, 3, 4, 5])] [5, 3, 4, 1, 0, 2]) 1 1,
    -- 1150: l3new += einsum(x131, (0, 1, 2, 3, 4, 5), (5, 4, 3, 1, 0, 2)) * -1.0
    .add 19 (.ein [(149, [0, 1, 2, 3, 4, 5])] [5, 4, 3, 1, 0, 2]) (-1) 1,
    -- 1151: l3new += einsum(x131, (0, 1, 2, 3, 4, 5), (3, 4, 5, 1, 2, 0)) * -1.0
    .add 19 (.ein [(149, [0, 1, 2, 3, 4, 5])] [3, 4, 5, 1, 2, 0]) (-1) 1,
    -- 1152: l3new += einsum(x131, (0, 1, 2, 3, 4, 5), (5, 3, 4, 1, 2, 0)) * -1.0
    .add 19 (.ein [(149, [0, 1, 2, 3, 4, 5])] [5, 3, 4, 1, 2, 0]) (-1) 1,
    -- 1153: l3new += einsum(x131, (0, 1, 2, 3, 4, 5), (5, 4, 3, 1, 2, 0))
    .add 19 (.ein [(149, [0, 1, 2, 3, 4, 5])] [5, 4, 3, 1, 2, 0]) 1 1,
    -- 1154: l3new += einsum(x131, (0, 1, 2, 3, 4, 5), (3, 4, 5, 2, 1, 0))
    .add 19 (.ein [(149, [0, 1, 2, 3, 4, 5])] [3, 4, 5, 2, 1, 0]) 1 1,
    -- 1155: l3new += einsum(x131, (0, 1, 2, 3, 4, 5), (5, 3, 4, 2, 1, 0))
    .add 19 (.ein [(149, [0, 1, 2, 3, 4, 5])] [5, 3, 4, 2, 1, 0]) 1 1,
    -- 1156: l3new += einsum(x131, (0, 1, 2, 3, 4, 5), (5, 4, 3, 2, 1, 0)) * -1.0
    .add 19 (.ein [(149, [0, 1, 2, 3, 4, 5])] [5, 4, 3, 2, 1, 0]) (-1) 1,
    -- 1157: del x131
    .del 149,
    -- 1158: x132 = np.zeros((nocc, nocc, nocc, nvir, nvir, nvir), dtype=types[float])
    .zeros 150 [0, 0, 0, 1, 1, 1],
    -- 1159: x132 += einsum(l2, (0, 1, 2, 3), v.ooov, (4, 5, 3, 6), (2, 4, 5, 0, 1, 6))
    .add 150 (.ein [(0, [0, 1, 2, 3]), (10, [4, 5, 3, 6])] [2, 4, 5, 0, 1, 6]) 1 1,
    -- 1160: x133 = np.zeros((nocc, nocc, nocc, nvir, nvir, nvir), dtype=types[float])
    .zeros 151 [0, 0, 0, 1, 1, 1],
    -- 1161: x133 += einsum(v.oovv, (0, 1, 2, 3), x18, (4, 5, 6, 3), (4, 0, 1, 6, 5, 2))
    .add 151 (.ein [(5, [0, 1, 2, 3]), (36, [4, 5, 6, 3])] [4, 0, 1, 6, 5, 2]) 1 1,
    -- 1162: del x18
    .del 36,
    -- 1163: x134 = np.zeros((nocc, nocc, nocc, nvir, nvir, nvir), dtype=types[float])
    .zeros 152 [0, 0, 0, 1, 1, 1],
    -- 1164: x134 += einsum(x132, (0, 1, 2, 3, 4, 5), (0, 2, 1, 4, 3, 5))
    .add 152 (.ein [(150, [0, 1, 2, 3, 4, 5])] [0, 2, 1, 4, 3, 5]) 1 1,
    -- 1165: del x132
    .del 150,
    -- 1166: x134 += einsum(x133, (0, 1, 2, 3, 4, 5), (0, 2, 1, 4, 3, 5)) * 0.5
    .add 152 (.ein [(151, [0, 1, 2, 3, 4, 5])] [0, 2, 1, 4, 3, 5]) 1 2,
    -- 1167: del x133
    .del 151,
    -- 1168: l3new += einsum(x134, (0, 1, 2, 3, 4, 5), (4, 3, 5, 0, 1, 2))
    .add 19 (.ein [(152, [0, 1, 2, 3, 4, 5])] [4, 3, 5, 0, 1, 2]) 1 1,
    -- 1169: l3new += einsum(x134, (0, 1, 2, 3, 4, 5), (4, 5, 3, 0, 1, 2)) * -1.0
    .add 19 (.ein [(152, [0, 1, 2, 3, 4, 5])] [4, 5, 3, 0, 1, 2]) (-1) 1,
    -- 1170: l3new += einsum(x134, (0, 1, 2, 3, 4, 5), (5, 3, 4, 0, 1, 2)) * -1.0
    .add 19 (.ein [(152, [0, 1, 2, 3, 4, 5])] [5, 3, 4, 0, 1, 2]) (-1) 1,
    -- 1171: l3new += einsum(x134, (0, 1, 2, 3, 4, 5), (4, 3, 5, 1, 0, 2)) * -1.0
    .add 19 (.ein [(152, [0, 1, 2, 3, 4, 5])] [4, 3, 5, 1, 0, 2]) (-1) 1,
    -- 1172: l3new += einsum(x134, (0, 1, 2, 3, 4, 5), (4, 5, 3, 1, 0, 2))
    .add 19 (.ein [(152, [0, 1, 2, 3, 4, 5])] [4, 5, 3, 1, 0, 2]) 1 1,
    -- 1173: l3new += einsum(x134, (0, 1, 2, 3, 4, 5), (5, 3, 4, 1, 0, 2))
    .add 19 (.ein [(152, [0, 1, 2, 3, 4, 5])] [5, 3, 4, 1, 0, 2]) 1 1,
    -- 1174: l3new += einsum(x134, (0, 1, 2, 3, 4, 5), (4, 3, 5, 1, 2, 0))
    .add 19 (.ein [(152, [0, 1, 2, 3, 4, 5])] [4, 3, 5, 1, 2, 0]) 1 1,
    -- 1175: l3new += einsum(x134, (0, 1, 2, 3, 4, 5), (4, 5, 3, 1, 2, 0)) * -1.0
    .add 19 (.ein [(152, [0, 1, 2, 3, 4, 5])] [4, 5, 3, 1, 2, 0]) (-1) 1,
    -- 1176: l3new += einsum(x134, (0, 1, 2, 3, 4, 5), (5, 3, 4, 1, 2, 0)) * -1.0
    .add 19 (.ein [(152, [0, 1, 2, 3, 4, 5])] [5, 3, 4, 1, 2, 0]) (-1) 1,
    -- 1177: del x134
    .del 152,
    -- 1178: x135 = np.zeros((nocc, nocc, nocc, nvir, nvir, nvir), dtype=types[float])
    .zeros 153 [0, 0, 0, 1, 1, 1],
    -- 1179: x135 += einsum(f.ov, (0, 1), l2, (2, 3, 4, 5), (0, 4, 5, 1, 2, 3))
    .add 153 (.ein [(2, [0, 1]), (0, [2, 3, 4, 5])] [0, 4, 5, 1, 2, 3]) 1 1,
    -- 1180: x135 += einsum(l1, (0, 1), v.oovv, (2, 3, 4, 5), (1, 2, 3, 0, 4, 5))
    .add 153 (.ein [(3, [0, 1]), (5, [2, 3, 4, 5])] [1, 2, 3, 0, 4, 5]) 1 1,
    -- 1181: l3new += einsum(x135, (0, 1, 2, 3, 4, 5), (3, 4, 5, 0, 1, 2))
    .add 19 (.ein [(153, [0, 1, 2, 3, 4, 5])] [3, 4, 5, 0, 1, 2]) 1 1,
    -- 1182: l3new += einsum(x135, (0, 1, 2, 3, 4, 5), (4, 3, 5, 0, 1, 2)) * -1.0
    .add 19 (.ein [(153, [0, 1, 2, 3, 4, 5])] [4, 3, 5, 0, 1, 2]) (-1) 1,
    -- 1183: l3new += einsum(x135, (0, 1, 2, 3, 4, 5), (4, 5, 3, 0, 1, 2))
    .add 19 (.ein [(153, [0, 1, 2, 3, 4, 5])] [4, 5, 3, 0, 1, 2]) 1 1,
    -- 1184: l3new += einsum(x135, (0, 1, 2, 3, 4, 5), (3, 4, 5, 1, 0, 2)) * -1.0
    .add 19 (.ein [(153, [0, 1, 2, 3, 4, 5])] [3, 4, 5, 1, 0, 2]) (-1) 1,
    -- 1185: l3new += einsum(x135, (0, 1, 2, 3, 4, 5), (4, 3, 5, 1, 0, 2))
    .add 19 (.ein [(153, [0, 1, 2, 3, 4, 5])] [4, 3, 5, 1, 0, 2]) 1 1,
    -- 1186: l3new += einsum(x135, (0, 1, 2, 3, 4, 5), (4, 5, 3, 1, 0, 2)) * -1.0
    .add 19 (.ein [(153, [0, 1, 2, 3, 4, 5])] [4, 5, 3, 1, 0, 2]) (-1) 1,
    -- 1187: l3new += einsum(x135, (0, 1, 2, 3, 4, 5), (3, 4, 5, 1, 2, 0))
    .add 19 (.ein [(153, [0, 1, 2, 3, 4, 5])] [3, 4, 5, 1, 2, 0]) 1 1,
    -- 1188: l3new += einsum(x135, (0, 1, 2, 3, 4, 5), (4, 3, 5, 1, 2, 0)) * -1.0
    .add 19 (.ein [(153, [0, 1, 2, 3, 4, 5])] [4, 3, 5, 1, 2, 0]) (-1) 1,
    -- 1189: l3new += einsum(x135, (0, 1, 2, 3, 4, 5), (4, 5, 3, 1, 2, 0))
    .add 19 (.ein [(153, [0, 1, 2, 3, 4, 5])] [4, 5, 3, 1, 2, 0]) 1 1,
    -- 1190: del x135
    .del 153,
    -- 1191: x136 = np.zeros((nocc, nocc, nocc, nvir, nvir, nvir), dtype=types[float])
    .zeros 154 [0, 0, 0, 1, 1, 1],
    -- 1192: x136 += einsum(l2, (0, 1, 2, 3), x4, (3, 4, 5, 6), (2, 5, 4, 0, 1, 6)) * -1.0
    .add 154 (.ein [(0, [0, 1, 2, 3]), (22, [3, 4, 5, 6])] [2, 5, 4, 0, 1, 6]) (-1) 1,
    -- 1193: del x4
    .del 22,
    -- 1194: l3new += einsum(x136, (0, 1, 2, 3, 4, 5), (3, 4, 5, 0, 2, 1)) * -1.0
    .add 19 (.ein [(154, [0, 1, 2, 3, 4, 5])] [3, 4, 5, 0, 2, 1]) (-1) 1,
    -- 1195: l3new += einsum(x136, (0, 1, 2, 3, 4, 5), (4, 5, 3, 0, 2, 1)) * -1.0
    .add 19 (.ein [(154, [0, 1, 2, 3, 4, 5])] [4, 5, 3, 0, 2, 1]) (-1) 1,
    -- 1196: l3new += einsum(x136, (0, 1, 2, 3, 4, 5), (5, 4, 3, 0, 2, 1))
    .add 19 (.ein [(154, [0, 1, 2, 3, 4, 5])] [5, 4, 3, 0, 2, 1]) 1 1,
    -- 1197: l3new += einsum(x136, (0, 1, 2, 3, 4, 5), (3, 4, 5, 2, 0, 1))
    .add 19 (.ein [(154, [0, 1, 2, 3, 4, 5])] [3, 4, 5, 2, 0, 1]) 1 1,
    -- 1198: l3new += einsum(x136, (0, 1, 2, 3, 4, 5), (4, 5, 3, 2, 0, 1))
    .add 19 (.ein [(154, [0, 1, 2, 3, 4, 5])] [4, 5, 3, 2, 0, 1]) 1 1,
    -- 1199: l3new += einsum(x136, (0, 1, 2, 3, 4, 5), (5, 4, 3, 2, 0, 1)) * -1.0
    .add 19 (.ein [(154, [0, 1, 2, 3, 4, 5])] [5, 4, 3, 2, 0, 1]) (-1) 1,
    -- 1200: l3new += einsum(x136, (0, 1, 2, 3, 4, 5), (3, 4, 5, 2, 1, 0)) * -1.0
    .add 19 (.ein [(154, [0, 1, 2, 3, 4, 5])] [3, 4, 5, 2, 1, 0]) (-1) 1,
    -- 1201: l3new += einsum(x136, (0, 1, 2, 3, 4, 5), (4, 5, 3, 2, 1, 0)) * -1.0
    .add 19 (.ein [(154, [0, 1, 2, 3, 4, 5])] [4, 5, 3, 2, 1, 0]) (-1) 1,
    -- 1202: l3new += einsum(x136, (0, 1, 2, 3, 4, 5), (5, 4, 3, 2, 1, 0))
    .add 19 (.ein [(154, [0, 1, 2, 3, 4, 5])] [5, 4, 3, 2, 1, 0]) 1 1,
    -- 1203: del x136
    .del 154,
    -- 1204: x137 = np.zeros((nocc, nocc, nocc, nvir, nvir, nvir), dtype=types[float])
    .zeros 155 [0, 0, 0, 1, 1, 1],
    -- 1205: x137 += einsum(v.oovv, (0, 1, 2, 3), x28, (4, 5, 1, 6), (4, 5, 0, 6, 2, 3))
    .add 155 (.ein [(5, [0, 1, 2, 3]), (46, [4, 5, 1, 6])] [4, 5, 0, 6, 2, 3]) 1 1,
    -- 1206: del x28
    .del 46,
    -- 1207: l3new += einsum(x137, (0, 1, 2, 3, 4, 5), (3, 5, 4, 1, 0, 2))
    .add 19 (.ein [(155, [0, 1, 2, 3, 4, 5])] [3, 5, 4, 1, 0, 2]) 1 1,
    -- 1208: l3new += einsum(x137, (0, 1, 2, 3, 4, 5), (5, 3, 4, 1, 0, 2)) * -1.0
    .add 19 (.ein [(155, [0, 1, 2, 3, 4, 5])] [5, 3, 4, 1, 0, 2]) (-1) 1,
    -- 1209: l3new += einsum(x137, (0, 1, 2, 3, 4, 5), (4, 5, 3, 1, 0, 2)) * -1.0
    .add 19 (.ein [(155, [0, 1, 2, 3, 4, 5])] [4, 5, 3, 1, 0, 2]) (-1) 1,
    -- 1210: l3new += einsum(x137, (0, 1, 2, 3, 4, 5), (3, 5, 4, 1, 2, 0)) * -1.0
    .add 19 (.ein [(155, [0, 1, 2, 3, 4, 5])] [3, 5, 4, 1, 2, 0]) (-1) 1,
    -- 1211: l3new += einsum(x137, (0, 1, 2, 3, 4, 5), (5, 3, 4, 1, 2, 0))
    .add 19 (.ein [(155, [0, 1, 2, 3, 4, 5])] [5, 3, 4, 1, 2, 0]) 1 1,
    -- 1212: l3new += einsum(x137, (0, 1, 2, 3, 4, 5), (4, 5, 3, 1, 2, 0))
    .add 19 (.ein [(155, [0, 1, 2, 3, 4, 5])] [4, 5, 3, 1, 2, 0]) 1 1,
    -- 1213: l3new += einsum(x137, (0, 1, 2, 3, 4, 5), (3, 5, 4, 2, 1, 0))
    .add 19 (.ein [(155, [0, 1, 2, 3, 4, 5])] [3, 5, 4, 2, 1, 0]) 1 1,
    -- 1214: l3new += einsum(x137, (0, 1, 2, 3, 4, 5), (5, 3, 4, 2, 1, 0)) * -1.0
    .add 19 (.ein [(155, [0, 1, 2, 3, 4, 5])] [5, 3, 4, 2, 1, 0]) (-1) 1,
    -- 1215: l3new += einsum(x137, (0, 1, 2, 3, 4, 5), (4, 5, 3, 2, 1, 0)) * -1.0
    .add 19 (.ein [(155, [0, 1, 2, 3, 4, 5])] [4, 5, 3, 2, 1, 0]) (-1) 1,
    -- 1216: del x137
    .del 155
  ]
  ret := [(chars! "l1new", 15), (chars! "l2new", 16), (chars! "l3new", 19)]

/-- codegen/GCCSDT.py:1220-1266 `make_rdm1_f`. -/
def make_rdm1_f : GenFun where
  args := [chars! "t1", chars! "l2", chars! "t3", chars! "l1", chars! "t2", chars! "l3"]
  body := [
    -- 1221: delta = Namespace(oo=np.eye(nocc), vv=np.eye(nvir))
    .eye 6 0,
    .eye 7 1,
    -- 1224: rdm1_f_oo = np.zeros((nocc, nocc), dtype=types[float])
    .zeros 8 [0, 0],
    -- 1225: rdm1_f_oo += einsum(delta.oo, (0, 1), (0, 1))
    .add 8 (.ein [(6, [0, 1])] [0, 1]) 1 1,
    -- 1226: rdm1_f_ov = np.zeros((nocc, nvir), dtype=types[float])
    .zeros 9 [0, 1],
    -- 1227: rdm1_f_ov += einsum(t1, (0, 1), (0, 1))
    .add 9 (.ein [(0, [0, 1])] [0, 1]) 1 1,
    -- 1228: rdm1_f_ov += einsum(l2, (0, 1, 2, 3), t3, (4, 2, 3, 5, 0, 1), (4, 5)) * 0.25
    .add 9 (.ein [(1, [0, 1, 2, 3]), (2, [4, 2, 3, 5, 0, 1])] [4, 5]) 1 4,
    -- 1229: rdm1_f_ov += einsum(l1, (0, 1), t2, (2, 1, 3, 0), (2, 3))
    .add 9 (.ein [(3, [0, 1]), (4, [2, 1, 3, 0])] [2, 3]) 1 1,
    -- 1230: rdm1_f_vo = np.zeros((nvir, nocc), dtype=types[float])
    .zeros 10 [1, 0],
    -- 1231: rdm1_f_vo += einsum(l1, (0, 1), (0, 1))
    .add 10 (.ein [(3, [0, 1])] [0, 1]) 1 1,
    -- 1232: rdm1_f_vv = np.zeros((nvir, nvir), dtype=types[float])
    .zeros 11 [1, 1],
    -- 1233: rdm1_f_vv += einsum(l3, (0, 1, 2, 3, 4, 5), t3, (3, 4, 5, 6, 1, 2), (0, 6)) * 0.08333333333333
    .add 11 (.ein [(5, [0, 1, 2, 3, 4, 5]), (2, [3, 4, 5, 6, 1, 2])] [0, 6]) 1 12,
    -- 1234: rdm1_f_vv += einsum(l2, (0, 1, 2, 3), t2, (2, 3, 4, 1), (0, 4)) * 0.5
    .add 11 (.ein [(1, [0, 1, 2, 3]), (4, [2, 3, 4, 1])] [0, 4]) 1 2,
    -- 1235: rdm1_f_vv += einsum(l1, (0, 1), t1, (1, 2), (0, 2))
    .add 11 (.ein [(3, [0, 1]), (0, [1, 2])] [0, 2]) 1 1,
    -- 1236: x0 = np.zeros((nocc, nocc), dtype=types[float])
    .zeros 12 [0, 0],
    -- 1237: x0 += einsum(l2, (0, 1, 2, 3), t2, (4, 3, 0, 1), (2, 4))
    .add 12 (.ein [(1, [0, 1, 2, 3]), (4, [4, 3, 0, 1])] [2, 4]) 1 1,
    -- 1238: rdm1_f_oo += einsum(x0, (0, 1), (1, 0)) * -0.5
    .add 8 (.ein [(12, [0, 1])] [1, 0]) (-1) 2,
    -- 1239: x1 = np.zeros((nocc, nocc), dtype=types[float])
    .zeros 13 [0, 0],
    -- 1240: x1 += einsum(l1, (0, 1), t1, (2, 0), (1, 2))
    .add 13 (.ein [(3, [0, 1]), (0, [2, 0])] [1, 2]) 1 1,
    -- 1241: rdm1_f_oo += einsum(x1, (0, 1), (1, 0)) * -1.0
    .add 8 (.ein [(13, [0, 1])] [1, 0]) (-1) 1,
    -- 1242: x2 = np.zeros((nocc, nocc), dtype=types[float])
    .zeros 14 [0, 0],
    -- 1243: x2 += einsum(l3, (0, 1, 2, 3, 4, 5), t3, (6, 4, 5, 0, 1, 2), (3, 6))
    .add 14 (.ein [(5, [0, 1, 2, 3, 4, 5]), (2, [6, 4, 5, 0, 1, 2])] [3, 6]) 1 1,
    -- 1244: rdm1_f_oo += einsum(x2, (0, 1), (1, 0)) * -0.08333333333333
    .add 8 (.ein [(14, [0, 1])] [1, 0]) (-1) 12,
    -- 1245: x3 = np.zeros((nocc, nocc, nocc, nocc, nvir, nvir), dtype=types[float])
    .zeros 15 [0, 0, 0, 0, 1, 1],
    -- 1246: x3 += einsum(t1, (0, 1), l3, (2, 3, 1, 4, 5, 6), (4, 5, 6, 0, 2, 3))
    .add 15 (.ein [(0, [0, 1]), (5, [2, 3, 1, 4, 5, 6])] [4, 5, 6, 0, 2, 3]) 1 1,
    -- 1247: rdm1_f_ov += einsum(t3, (0, 1, 2, 3, 4, 5), x3, (0, 1, 2, 6, 5, 4), (6, 3)) * 0.08333333333333
    .add 9 (.ein [(2, [0, 1, 2, 3, 4, 5]), (15, [0, 1, 2, 6, 5, 4])] [6, 3]) 1 12,
    -- 1248: del x3
    .del 15,
    -- 1249: x4 = np.zeros((nocc, nocc, nocc, nvir), dtype=types[float])
    .zeros 16 [0, 0, 0, 1],
    -- 1250: x4 += einsum(t1, (0, 1), l2, (2, 1, 3, 4), (3, 4, 0, 2))
    .add 16 (.ein [(0, [0, 1]), (1, [2, 1, 3, 4])] [3, 4, 0, 2]) 1 1,
    -- 1251: x4 += einsum(t2, (0, 1, 2, 3), l3, (4, 2, 3, 5, 6, 1), (5, 6, 0, 4)) * 0.5
    .add 16 (.ein [(4, [0, 1, 2, 3]), (5, [4, 2, 3, 5, 6, 1])] [5, 6, 0, 4]) 1 2,
    -- 1252: rdm1_f_ov += einsum(t2, (0, 1, 2, 3), x4, (0, 1, 4, 3), (4, 2)) * 0.5
    .add 9 (.ein [(4, [0, 1, 2, 3]), (16, [0, 1, 4, 3])] [4, 2]) 1 2,
    -- 1253: del x4
    .del 16,
    -- 1254: x5 = np.zeros((nocc, nocc), dtype=types[float])
    .zeros 17 [0, 0],
    -- 1255: x5 += einsum(x1, (0, 1), (0, 1))
    .add 17 (.ein [(13, [0, 1])] [0, 1]) 1 1,
    -- 1256: del x1
    .del 13,
    -- 1257: x5 += einsum(x0, (0, 1), (0, 1)) * 0.5
    .add 17 (.ein [(12, [0, 1])] [0, 1]) 1 2,
    -- 1258: del x0
    .del 12,
    -- 1259: x5 += einsum(x2, (0, 1), (0, 1)) * 0.08333333333333
    .add 17 (.ein [(14, [0, 1])] [0, 1]) 1 12,
    -- 1260: del x2
    .del 14,
    -- 1261: rdm1_f_ov += einsum(t1, (0, 1), x5, (0, 2), (2, 1)) * -1.0
    .add 9 (.ein [(0, [0, 1]), (17, [0, 2])] [2, 1]) (-1) 1,
    -- 1262: del x5
    .del 17
  ]
  ret := [(chars! "rdm1_f.oo", 8), (chars! "rdm1_f.ov", 9), (chars! "rdm1_f.vo", 10), (chars! "rdm1_f.vv", 11)]

/-- codegen/GCCSDT.py:1268-1691 `make_rdm2_f`. -/
def make_rdm2_f : GenFun where
  args := [chars! "l1", chars! "t2", chars! "t3", chars! "t1", chars! "l2", chars! "l3"]
  body := [
    -- 1269: delta = Namespace(oo=np.eye(nocc), vv=np.eye(nvir))
    .eye 6 0,
    .eye 7 1,
    -- 1272: rdm2_f_oooo = np.zeros((nocc, nocc, nocc, nocc), dtype=types[float])
    .zeros 8 [0, 0, 0, 0],
    -- 1273: rdm2_f_oooo += einsum(delta.oo, (0, 1), delta.oo, (2, 3), (0, 2, 1, 3))
    .add 8 (.ein [(6, [0, 1]), (6, [2, 3])] [0, 2, 1, 3]) 1 1,
    -- 1274: rdm2_f_oooo += einsum(delta.oo, (0, 1), delta.oo, (2, 3), (0, 2, 3, 1)) * -1.0
    .add 8 (.ein [(6, [0, 1]), (6, [2, 3])] [0, 2, 3, 1]) (-1) 1,
    -- 1275: rdm2_f_ovoo = np.zeros((nocc, nvir, nocc, nocc), dtype=types[float])
    .zeros 9 [0, 1, 0, 0],
    -- 1276: rdm2_f_ovoo += einsum(delta.oo, (0, 1), l1, (2, 3), (0, 2, 1, 3))
    .add 9 (.ein [(6, [0, 1]), (0, [2, 3])] [0, 2, 1, 3]) 1 1,
    -- 1277: rdm2_f_ovoo += einsum(delta.oo, (0, 1), l1, (2, 3), (0, 2, 3, 1)) * -1.0
    .add 9 (.ein [(6, [0, 1]), (0, [2, 3])] [0, 2, 3, 1]) (-1) 1,
    -- 1278: rdm2_f_vooo = np.zeros((nvir, nocc, nocc, nocc), dtype=types[float])
    .zeros 10 [1, 0, 0, 0],
    -- 1279: rdm2_f_vooo += einsum(delta.oo, (0, 1), l1, (2, 3), (2, 0, 1, 3)) * -1.0
    .add 10 (.ein [(6, [0, 1]), (0, [2, 3])] [2, 0, 1, 3]) (-1) 1,
    -- 1280: rdm2_f_vooo += einsum(delta.oo, (0, 1), l1, (2, 3), (2, 0, 3, 1))
    .add 10 (.ein [(6, [0, 1]), (0, [2, 3])] [2, 0, 3, 1]) 1 1,
    -- 1281: rdm2_f_oovv = np.zeros((nocc, nocc, nvir, nvir), dtype=types[float])
    .zeros 11 [0, 0, 1, 1],
    -- 1282: rdm2_f_oovv += einsum(t2, (0, 1, 2, 3), (0, 1, 2, 3))
    .add 11 (.ein [(1, [0, 1, 2, 3])] [0, 1, 2, 3]) 1 1,
    -- 1283: rdm2_f_oovv += einsum(l1, (0, 1), t3, (2, 3, 1, 4, 5, 0), (2, 3, 4, 5))
    .add 11 (.ein [(0, [0, 1]), (2, [2, 3, 1, 4, 5, 0])] [2, 3, 4, 5]) 1 1,
    -- 1284: rdm2_f_oovv += einsum(t1, (0, 1), t1, (2, 3), (0, 2, 3, 1)) * -1.0
    .add 11 (.ein [(3, [0, 1]), (3, [2, 3])] [0, 2, 3, 1]) (-1) 1,
    -- 1285: rdm2_f_oovv += einsum(t1, (0, 1), t1, (2, 3), (0, 2, 1, 3))
    .add 11 (.ein [(3, [0, 1]), (3, [2, 3])] [0, 2, 1, 3]) 1 1,
    -- 1286: rdm2_f_ovov = np.zeros((nocc, nvir, nocc, nvir), dtype=types[float])
    .zeros 12 [0, 1, 0, 1],
    -- 1287: rdm2_f_ovov += einsum(l1, (0, 1), t1, (2, 3), (2, 0, 1, 3)) * -1.0
    .add 12 (.ein [(0, [0, 1]), (3, [2, 3])] [2, 0, 1, 3]) (-1) 1,
    -- 1288: rdm2_f_ovvo = np.zeros((nocc, nvir, nvir, nocc), dtype=types[float])
    .zeros 13 [0, 1, 1, 0],
    -- 1289: rdm2_f_ovvo += einsum(l1, (0, 1), t1, (2, 3), (2, 0, 3, 1))
    .add 13 (.ein [(0, [0, 1]), (3, [2, 3])] [2, 0, 3, 1]) 1 1,
    -- 1290: rdm2_f_voov = np.zeros((nvir, nocc, nocc, nvir), dtype=types[float])
    .zeros 14 [1, 0, 0, 1],
    -- 1291: rdm2_f_voov += einsum(l1, (0, 1), t1, (2, 3), (0, 2, 1, 3))
    .add 14 (.ein [(0, [0, 1]), (3, [2, 3])] [0, 2, 1, 3]) 1 1,
    -- 1292: rdm2_f_vovo = np.zeros((nvir, nocc, nvir, nocc), dtype=types[float])
    .zeros 15 [1, 0, 1, 0],
    -- 1293: rdm2_f_vovo += einsum(l1, (0, 1), t1, (2, 3), (0, 2, 3, 1)) * -1.0
    .add 15 (.ein [(0, [0, 1]), (3, [2, 3])] [0, 2, 3, 1]) (-1) 1,
    -- 1294: rdm2_f_vvoo = np.zeros((nvir, nvir, nocc, nocc), dtype=types[float])
    .zeros 16 [1, 1, 0, 0],
    -- 1295: rdm2_f_vvoo += einsum(l2, (0, 1, 2, 3), (0, 1, 2, 3))
    .add 16 (.ein [(4, [0, 1, 2, 3])] [0, 1, 2, 3]) 1 1,
    -- 1296: rdm2_f_vvvv = np.zeros((nvir, nvir, nvir, nvir), dtype=types[float])
    .zeros 17 [1, 1, 1, 1],
    -- 1297: rdm2_f_vvvv += einsum(l2, (0, 1, 2, 3), t2, (2, 3, 4, 5), (0, 1, 4, 5)) * 0.5
    .add 17 (.ein [(4, [0, 1, 2, 3]), (1, [2, 3, 4, 5])] [0, 1, 4, 5]) 1 2,
    -- 1298: rdm2_f_vvvv += einsum(l3, (0, 1, 2, 3, 4, 5), t3, (3, 4, 5, 6, 7, 2), (0, 1, 6, 7)) * 0.16666666666667
    .add 17 (.ein [(5, [0, 1, 2, 3, 4, 5]), (2, [3, 4, 5, 6, 7, 2])] [0, 1, 6, 7]) 1 6,
    -- 1299: x0 = np.zeros((nocc, nocc, nocc, nocc), dtype=types[float])
    .zeros 18 [0, 0, 0, 0],
    -- 1300: x0 += einsum(l3, (0, 1, 2, 3, 4, 5), t3, (6, 7, 5, 0, 1, 2), (3, 4, 6, 7))
    .add 18 (.ein [(5, [0, 1, 2, 3, 4, 5]), (2, [6, 7, 5, 0, 1, 2])] [3, 4, 6, 7]) 1 1,
    -- 1301: rdm2_f_oooo += einsum(x0, (0, 1, 2, 3), (2, 3, 1, 0)) * -0.16666666666667
    .add 8 (.ein [(18, [0, 1, 2, 3])] [2, 3, 1, 0]) (-1) 6,
    -- 1302: x1 = np.zeros((nocc, nocc, nocc, nocc), dtype=types[float])
    .zeros 19 [0, 0, 0, 0],
    -- 1303: x1 += einsum(l2, (0, 1, 2, 3), t2, (4, 5, 0, 1), (2, 3, 4, 5))
    .add 19 (.ein [(4, [0, 1, 2, 3]), (1, [4, 5, 0, 1])] [2, 3, 4, 5]) 1 1,
    -- 1304: rdm2_f_oooo += einsum(x1, (0, 1, 2, 3), (3, 2, 1, 0)) * 0.5
    .add 8 (.ein [(19, [0, 1, 2, 3])] [3, 2, 1, 0]) 1 2,
    -- 1305: x2 = np.zeros((nocc, nocc, nocc, nvir), dtype=types[float])
    .zeros 20 [0, 0, 0, 1],
    -- 1306: x2 += einsum(t1, (0, 1), l2, (2, 1, 3, 4), (3, 4, 0, 2))
    .add 20 (.ein [(3, [0, 1]), (4, [2, 1, 3, 4])] [3, 4, 0, 2]) 1 1,
    -- 1307: rdm2_f_ovoo += einsum(x2, (0, 1, 2, 3), (2, 3, 1, 0)) * -1.0
    .add 9 (.ein [(20, [0, 1, 2, 3])] [2, 3, 1, 0]) (-1) 1,
    -- 1308: rdm2_f_vooo += einsum(x2, (0, 1, 2, 3), (3, 2, 1, 0))
    .add 10 (.ein [(20, [0, 1, 2, 3])] [3, 2, 1, 0]) 1 1,
    -- 1309: x3 = np.zeros((nocc, nocc, nocc, nocc), dtype=types[float])
    .zeros 21 [0, 0, 0, 0],
    -- 1310: x3 += einsum(t1, (0, 1), x2, (2, 3, 4, 1), (2, 3, 0, 4))
    .add 21 (.ein [(3, [0, 1]), (20, [2, 3, 4, 1])] [2, 3, 0, 4]) 1 1,
    -- 1311: rdm2_f_oooo += einsum(x3, (0, 1, 2, 3), (2, 3, 1, 0)) * -1.0
    .add 8 (.ein [(21, [0, 1, 2, 3])] [2, 3, 1, 0]) (-1) 1,
    -- 1312: x4 = np.zeros((nocc, nocc, nocc, nvir), dtype=types[float])
    .zeros 22 [0, 0, 0, 1],
    -- 1313: x4 += einsum(t2, (0, 1, 2, 3), l3, (4, 2, 3, 5, 6, 1), (5, 6, 0, 4))
    .add 22 (.ein [(1, [0, 1, 2, 3]), (5, [4, 2, 3, 5, 6, 1])] [5, 6, 0, 4]) 1 1,
    -- 1314: rdm2_f_ovoo += einsum(x4, (0, 1, 2, 3), (2, 3, 1, 0)) * -0.5
    .add 9 (.ein [(22, [0, 1, 2, 3])] [2, 3, 1, 0]) (-1) 2,
    -- 1315: rdm2_f_vooo += einsum(x4, (0, 1, 2, 3), (3, 2, 1, 0)) * 0.5
    .add 10 (.ein [(22, [0, 1, 2, 3])] [3, 2, 1, 0]) 1 2,
    -- 1316: x5 = np.zeros((nocc, nocc, nocc, nocc), dtype=types[float])
    .zeros 23 [0, 0, 0, 0],
    -- 1317: x5 += einsum(t1, (0, 1), x4, (2, 3, 4, 1), (2, 3, 0, 4))
    .add 23 (.ein [(3, [0, 1]), (22, [2, 3, 4, 1])] [2, 3, 0, 4]) 1 1,
    -- 1318: rdm2_f_oooo += einsum(x5, (0, 1, 2, 3), (2, 3, 1, 0)) * -0.5
    .add 8 (.ein [(23, [0, 1, 2, 3])] [2, 3, 1, 0]) (-1) 2,
    -- 1319: rdm2_f_oooo += einsum(x5, (0, 1, 2, 3), (3, 2, 1, 0)) * 0.5
    .add 8 (.ein [(23, [0, 1, 2, 3])] [3, 2, 1, 0]) 1 2,
    -- 1320: x6 = np.zeros((nocc, nocc), dtype=types[float])
    .zeros 24 [0, 0],
    -- 1321: x6 += einsum(l2, (0, 1, 2, 3), t2, (4, 3, 0, 1), (2, 4))
    .add 24 (.ein [(4, [0, 1, 2, 3]), (1, [4, 3, 0, 1])] [2, 4]) 1 1,
    -- 1322: x7 = np.zeros((nocc, nocc), dtype=types[float])
    .zeros 25 [0, 0],
    -- 1323: x7 += einsum(l3, (0, 1, 2, 3, 4, 5), t3, (6, 4, 5, 0, 1, 2), (3, 6))
    .add 25 (.ein [(5, [0, 1, 2, 3, 4, 5]), (2, [6, 4, 5, 0, 1, 2])] [3, 6]) 1 1,
    -- 1324: x8 = np.zeros((nocc, nocc), dtype=types[float])
    .zeros 26 [0, 0],
    -- 1325: x8 += einsum(x6, (0, 1), (0, 1))
    .add 26 (.ein [(24, [0, 1])] [0, 1]) 1 1,
    -- 1326: x8 += einsum(x7, (0, 1), (0, 1)) * 0.16666666666666
    .add 26 (.ein [(25, [0, 1])] [0, 1]) 1 6,
    -- 1327: rdm2_f_oooo += einsum(delta.oo, (0, 1), x8, (2, 3), (0, 3, 1, 2)) * -0.5
    .add 8 (.ein [(6, [0, 1]), (26, [2, 3])] [0, 3, 1, 2]) (-1) 2,
    -- 1328: rdm2_f_oooo += einsum(delta.oo, (0, 1), x8, (2, 3), (0, 3, 2, 1)) * 0.5
    .add 8 (.ein [(6, [0, 1]), (26, [2, 3])] [0, 3, 2, 1]) 1 2,
    -- 1329: rdm2_f_oooo += einsum(delta.oo, (0, 1), x8, (2, 3), (3, 0, 1, 2)) * 0.5
    .add 8 (.ein [(6, [0, 1]), (26, [2, 3])] [3, 0, 1, 2]) 1 2,
    -- 1330: rdm2_f_oooo += einsum(delta.oo, (0, 1), x8, (2, 3), (3, 0, 2, 1)) * -0.5
    .add 8 (.ein [(6, [0, 1]), (26, [2, 3])] [3, 0, 2, 1]) (-1) 2,
    -- 1331: del x8
    .del 26,
    -- 1332: x9 = np.zeros((nocc, nocc), dtype=types[float])
    .zeros 27 [0, 0],
    -- 1333: x9 += einsum(l1, (0, 1), t1, (2, 0), (1, 2))
    .add 27 (.ein [(0, [0, 1]), (3, [2, 0])] [1, 2]) 1 1,
    -- 1334: rdm2_f_oooo += einsum(delta.oo, (0, 1), x9, (2, 3), (0, 3, 1, 2)) * -1.0
    .add 8 (.ein [(6, [0, 1]), (27, [2, 3])] [0, 3, 1, 2]) (-1) 1,
    -- 1335: rdm2_f_oooo += einsum(delta.oo, (0, 1), x9, (2, 3), (3, 0, 1, 2))
    .add 8 (.ein [(6, [0, 1]), (27, [2, 3])] [3, 0, 1, 2]) 1 1,
    -- 1336: rdm2_f_oooo += einsum(delta.oo, (0, 1), x9, (2, 3), (0, 3, 2, 1))
    .add 8 (.ein [(6, [0, 1]), (27, [2, 3])] [0, 3, 2, 1]) 1 1,
    -- 1337: rdm2_f_oooo += einsum(delta.oo, (0, 1), x9, (2, 3), (3, 0, 2, 1)) * -1.0
    .add 8 (.ein [(6, [0, 1]), (27, [2, 3])] [3, 0, 2, 1]) (-1) 1,
    -- 1338: x10 = np.zeros((nocc, nocc, nocc, nvir), dtype=types[float])
    .zeros 28 [0, 0, 0, 1],
    -- 1339: x10 += einsum(l1, (0, 1), t2, (2, 3, 4, 0), (1, 2, 3, 4))
    .add 28 (.ein [(0, [0, 1]), (1, [2, 3, 4, 0])] [1, 2, 3, 4]) 1 1,
    -- 1340: rdm2_f_ooov = np.zeros((nocc, nocc, nocc, nvir), dtype=types[float])
    .zeros 29 [0, 0, 0, 1],
    -- 1341: rdm2_f_ooov += einsum(x10, (0, 1, 2, 3), (2, 1, 0, 3)) * -1.0
    .add 29 (.ein [(28, [0, 1, 2, 3])] [2, 1, 0, 3]) (-1) 1,
    -- 1342: rdm2_f_oovo = np.zeros((nocc, nocc, nvir, nocc), dtype=types[float])
    .zeros 30 [0, 0, 1, 0],
    -- 1343: rdm2_f_oovo += einsum(x10, (0, 1, 2, 3), (2, 1, 3, 0))
    .add 30 (.ein [(28, [0, 1, 2, 3])] [2, 1, 3, 0]) 1 1,
    -- 1344: x11 = np.zeros((nocc, nocc, nocc, nvir), dtype=types[float])
    .zeros 31 [0, 0, 0, 1],
    -- 1345: x11 += einsum(l2, (0, 1, 2, 3), t3, (4, 5, 3, 6, 0, 1), (2, 4, 5, 6))
    .add 31 (.ein [(4, [0, 1, 2, 3]), (2, [4, 5, 3, 6, 0, 1])] [2, 4, 5, 6]) 1 1,
    -- 1346: rdm2_f_ooov += einsum(x11, (0, 1, 2, 3), (1, 2, 0, 3)) * 0.5
    .add 29 (.ein [(31, [0, 1, 2, 3])] [1, 2, 0, 3]) 1 2,
    -- 1347: rdm2_f_oovo += einsum(x11, (0, 1, 2, 3), (1, 2, 3, 0)) * -0.5
    .add 30 (.ein [(31, [0, 1, 2, 3])] [1, 2, 3, 0]) (-1) 2,
    -- 1348: x12 = np.zeros((nocc, nvir, nvir, nvir), dtype=types[float])
    .zeros 32 [0, 1, 1, 1],
    -- 1349: x12 += einsum(t2, (0, 1, 2, 3), l3, (4, 5, 3, 6, 0, 1), (6, 4, 5, 2))
    .add 32 (.ein [(1, [0, 1, 2, 3]), (5, [4, 5, 3, 6, 0, 1])] [6, 4, 5, 2]) 1 1,
    -- 1350: rdm2_f_vvov = np.zeros((nvir, nvir, nocc, nvir), dtype=types[float])
    .zeros 33 [1, 1, 0, 1],
    -- 1351: rdm2_f_vvov += einsum(x12, (0, 1, 2, 3), (1, 2, 0, 3)) * 0.5
    .add 33 (.ein [(32, [0, 1, 2, 3])] [1, 2, 0, 3]) 1 2,
    -- 1352: rdm2_f_vvvo = np.zeros((nvir, nvir, nvir, nocc), dtype=types[float])
    .zeros 34 [1, 1, 1, 0],
    -- 1353: rdm2_f_vvvo += einsum(x12, (0, 1, 2, 3), (1, 2, 3, 0)) * -0.5
    .add 34 (.ein [(32, [0, 1, 2, 3])] [1, 2, 3, 0]) (-1) 2,
    -- 1354: x13 = np.zeros((nocc, nocc, nocc, nvir), dtype=types[float])
    .zeros 35 [0, 0, 0, 1],
    -- 1355: x13 += einsum(t2, (0, 1, 2, 3), x12, (4, 3, 2, 5), (4, 0, 1, 5)) * -1.0
    .add 35 (.ein [(1, [0, 1, 2, 3]), (32, [4, 3, 2, 5])] [4, 0, 1, 5]) (-1) 1,
    -- 1356: rdm2_f_ooov += einsum(x13, (0, 1, 2, 3), (1, 2, 0, 3)) * 0.25
    .add 29 (.ein [(35, [0, 1, 2, 3])] [1, 2, 0, 3]) 1 4,
    -- 1357: rdm2_f_oovo += einsum(x13, (0, 1, 2, 3), (1, 2, 3, 0)) * -0.25
    .add 30 (.ein [(35, [0, 1, 2, 3])] [1, 2, 3, 0]) (-1) 4,
    -- 1358: x14 = np.zeros((nocc, nocc, nocc, nocc, nvir, nvir), dtype=types[float])
    .zeros 36 [0, 0, 0, 0, 1, 1],
    -- 1359: x14 += einsum(t1, (0, 1), l3, (2, 3, 1, 4, 5, 6), (4, 5, 6, 0, 2, 3))
    .add 36 (.ein [(3, [0, 1]), (5, [2, 3, 1, 4, 5, 6])] [4, 5, 6, 0, 2, 3]) 1 1,
    -- 1360: x15 = np.zeros((nocc, nocc, nocc, nocc, nocc, nvir), dtype=types[float])
    .zeros 37 [0, 0, 0, 0, 0, 1],
    -- 1361: x15 += einsum(t1, (0, 1), x14, (2, 3, 4, 5, 1, 6), (2, 3, 4, 5, 0, 6))
    .add 37 (.ein [(3, [0, 1]), (36, [2, 3, 4, 5, 1, 6])] [2, 3, 4, 5, 0, 6]) 1 1,
    -- 1362: x16 = np.zeros((nocc, nocc, nocc, nvir), dtype=types[float])
    .zeros 38 [0, 0, 0, 1],
    -- 1363: x16 += einsum(t2, (0, 1, 2, 3), x15, (4, 1, 0, 5, 6, 3), (4, 6, 5, 2))
    .add 38 (.ein [(1, [0, 1, 2, 3]), (37, [4, 1, 0, 5, 6, 3])] [4, 6, 5, 2]) 1 1,
    -- 1364: rdm2_f_ooov += einsum(x16, (0, 1, 2, 3), (1, 2, 0, 3)) * 0.5
    .add 29 (.ein [(38, [0, 1, 2, 3])] [1, 2, 0, 3]) 1 2,
    -- 1365: rdm2_f_oovo += einsum(x16, (0, 1, 2, 3), (1, 2, 3, 0)) * -0.5
    .add 30 (.ein [(38, [0, 1, 2, 3])] [1, 2, 3, 0]) (-1) 2,
    -- 1366: x17 = np.zeros((nocc, nocc, nocc, nvir), dtype=types[float])
    .zeros 39 [0, 0, 0, 1],
    -- 1367: x17 += einsum(t3, (0, 1, 2, 3, 4, 5), x14, (6, 1, 2, 7, 4, 5), (6, 7, 0, 3))
    .add 39 (.ein [(2, [0, 1, 2, 3, 4, 5]), (36, [6, 1, 2, 7, 4, 5])] [6, 7, 0, 3]) 1 1,
    -- 1368: x18 = np.zeros((nocc, nocc, nocc, nvir), dtype=types[float])
    .zeros 40 [0, 0, 0, 1],
    -- 1369: x18 += einsum(t1, (0, 1), x5, (0, 2, 3, 4), (2, 3, 4, 1)) * -1.0
    .add 40 (.ein [(3, [0, 1]), (23, [0, 2, 3, 4])] [2, 3, 4, 1]) (-1) 1,
    -- 1370: x19 = np.zeros((nocc, nocc, nocc, nvir), dtype=types[float])
    .zeros 41 [0, 0, 0, 1],
    -- 1371: x19 += einsum(x2, (0, 1, 2, 3), (1, 0, 2, 3)) * -1.0
    .add 41 (.ein [(20, [0, 1, 2, 3])] [1, 0, 2, 3]) (-1) 1,
    -- 1372: x19 += einsum(x4, (0, 1, 2, 3), (0, 1, 2, 3)) * 0.5
    .add 41 (.ein [(22, [0, 1, 2, 3])] [0, 1, 2, 3]) 1 2,
    -- 1373: x20 = np.zeros((nocc, nocc, nocc, nvir), dtype=types[float])
    .zeros 42 [0, 0, 0, 1],
    -- 1374: x20 += einsum(t2, (0, 1, 2, 3), x19, (1, 4, 5, 3), (4, 5, 0, 2))
    .add 42 (.ein [(1, [0, 1, 2, 3]), (41, [1, 4, 5, 3])] [4, 5, 0, 2]) 1 1,
    -- 1375: x21 = np.zeros((nocc, nocc), dtype=types[float])
    .zeros 43 [0, 0],
    -- 1376: x21 += einsum(x9, (0, 1), (0, 1)) * 12.00000000000048
    .add 43 (.ein [(27, [0, 1])] [0, 1]) 12 1,
    -- 1377: x21 += einsum(x6, (0, 1), (0, 1)) * 6.00000000000024
    .add 43 (.ein [(24, [0, 1])] [0, 1]) 6 1,
    -- 1378: x21 += einsum(x7, (0, 1), (0, 1))
    .add 43 (.ein [(25, [0, 1])] [0, 1]) 1 1,
    -- 1379: x22 = np.zeros((nocc, nocc, nocc, nvir), dtype=types[float])
    .zeros 44 [0, 0, 0, 1],
    -- 1380: x22 += einsum(delta.oo, (0, 1), t1, (2, 3), (0, 1, 2, 3))
    .add 44 (.ein [(6, [0, 1]), (3, [2, 3])] [0, 1, 2, 3]) 1 1,
    -- 1381: x22 += einsum(x17, (0, 1, 2, 3), (1, 0, 2, 3)) * -0.25
    .add 44 (.ein [(39, [0, 1, 2, 3])] [1, 0, 2, 3]) (-1) 4,
    -- 1382: x22 += einsum(x18, (0, 1, 2, 3), (1, 0, 2, 3)) * 0.5
    .add 44 (.ein [(40, [0, 1, 2, 3])] [1, 0, 2, 3]) 1 2,
    -- 1383: del x18
    .del 40,
    -- 1384: x22 += einsum(x20, (0, 1, 2, 3), (1, 0, 2, 3)) * -1.0
    .add 44 (.ein [(42, [0, 1, 2, 3])] [1, 0, 2, 3]) (-1) 1,
    -- 1385: del x20
    .del 42,
    -- 1386: x22 += einsum(t1, (0, 1), x21, (2, 3), (0, 2, 3, 1)) * 0.08333333333333
    .add 44 (.ein [(3, [0, 1]), (43, [2, 3])] [0, 2, 3, 1]) 1 12,
    -- 1387: rdm2_f_ooov += einsum(x22, (0, 1, 2, 3), (0, 2, 1, 3))
    .add 29 (.ein [(44, [0, 1, 2, 3])] [0, 2, 1, 3]) 1 1,
    -- 1388: rdm2_f_ooov += einsum(x22, (0, 1, 2, 3), (2, 0, 1, 3)) * -1.0
    .add 29 (.ein [(44, [0, 1, 2, 3])] [2, 0, 1, 3]) (-1) 1,
    -- 1389: rdm2_f_oovo += einsum(x22, (0, 1, 2, 3), (0, 2, 3, 1)) * -1.0
    .add 30 (.ein [(44, [0, 1, 2, 3])] [0, 2, 3, 1]) (-1) 1,
    -- 1390: rdm2_f_oovo += einsum(x22, (0, 1, 2, 3), (2, 0, 3, 1))
    .add 30 (.ein [(44, [0, 1, 2, 3])] [2, 0, 3, 1]) 1 1,
    -- 1391: del x22
    .del 44,
    -- 1392: x23 = np.zeros((nocc, nvir), dtype=types[float])
    .zeros 45 [0, 1],
    -- 1393: x23 += einsum(l1, (0, 1), t2, (2, 1, 3, 0), (2, 3))
    .add 45 (.ein [(0, [0, 1]), (1, [2, 1, 3, 0])] [2, 3]) 1 1,
    -- 1394: x24 = np.zeros((nocc, nvir), dtype=types[float])
    .zeros 46 [0, 1],
    -- 1395: x24 += einsum(l2, (0, 1, 2, 3), t3, (4, 2, 3, 5, 0, 1), (4, 5))
    .add 46 (.ein [(4, [0, 1, 2, 3]), (2, [4, 2, 3, 5, 0, 1])] [4, 5]) 1 1,
    -- 1396: x25 = np.zeros((nocc, nvir), dtype=types[float])
    .zeros 47 [0, 1],
    -- 1397: x25 += einsum(t3, (0, 1, 2, 3, 4, 5), x14, (0, 1, 2, 6, 4, 5), (6, 3))
    .add 47 (.ein [(2, [0, 1, 2, 3, 4, 5]), (36, [0, 1, 2, 6, 4, 5])] [6, 3]) 1 1,
    -- 1398: x26 = np.zeros((nocc, nvir), dtype=types[float])
    .zeros 48 [0, 1],
    -- 1399: x26 += einsum(t2, (0, 1, 2, 3), x19, (0, 1, 4, 3), (4, 2)) * -0.5
    .add 48 (.ein [(1, [0, 1, 2, 3]), (41, [0, 1, 4, 3])] [4, 2]) (-1) 2,
    -- 1400: x27 = np.zeros((nocc, nvir), dtype=types[float])
    .zeros 49 [0, 1],
    -- 1401: x27 += einsum(t1, (0, 1), x21, (0, 2), (2, 1)) * 0.08333333333333
    .add 49 (.ein [(3, [0, 1]), (43, [0, 2])] [2, 1]) 1 12,
    -- 1402: del x21
    .del 43,
    -- 1403: x28 = np.zeros((nocc, nvir), dtype=types[float])
    .zeros 50 [0, 1],
    -- 1404: x28 += einsum(x23, (0, 1), (0, 1)) * -1.0
    .add 50 (.ein [(45, [0, 1])] [0, 1]) (-1) 1,
    -- 1405: del x23
    .del 45,
    -- 1406: x28 += einsum(x24, (0, 1), (0, 1)) * -0.25
    .add 50 (.ein [(46, [0, 1])] [0, 1]) (-1) 4,
    -- 1407: del x24
    .del 46,
    -- 1408: x28 += einsum(x25, (0, 1), (0, 1)) * 0.08333333333333
    .add 50 (.ein [(47, [0, 1])] [0, 1]) 1 12,
    -- 1409: del x25
    .del 47,
    -- 1410: x28 += einsum(x26, (0, 1), (0, 1))
    .add 50 (.ein [(48, [0, 1])] [0, 1]) 1 1,
    -- 1411: del x26
    .del 48,
    -- 1412: x28 += einsum(x27, (0, 1), (0, 1))
    .add 50 (.ein [(49, [0, 1])] [0, 1]) 1 1,
    -- 1413: del x27
    .del 49,
    -- 1414: rdm2_f_ooov += einsum(delta.oo, (0, 1), x28, (2, 3), (0, 2, 1, 3)) * -1.0
    .add 29 (.ein [(6, [0, 1]), (50, [2, 3])] [0, 2, 1, 3]) (-1) 1,
    -- 1415: rdm2_f_ooov += einsum(delta.oo, (0, 1), x28, (2, 3), (2, 0, 1, 3))
    .add 29 (.ein [(6, [0, 1]), (50, [2, 3])] [2, 0, 1, 3]) 1 1,
    -- 1416: rdm2_f_oovo += einsum(delta.oo, (0, 1), x28, (2, 3), (0, 2, 3, 1))
    .add 30 (.ein [(6, [0, 1]), (50, [2, 3])] [0, 2, 3, 1]) 1 1,
    -- 1417: rdm2_f_oovo += einsum(delta.oo, (0, 1), x28, (2, 3), (2, 0, 3, 1)) * -1.0
    .add 30 (.ein [(6, [0, 1]), (50, [2, 3])] [2, 0, 3, 1]) (-1) 1,
    -- 1418: x29 = np.zeros((nocc, nocc, nocc, nocc), dtype=types[float])
    .zeros 51 [0, 0, 0, 0],
    -- 1419: x29 += einsum(x1, (0, 1, 2, 3), (1, 0, 3, 2)) * -1.0
    .add 51 (.ein [(19, [0, 1, 2, 3])] [1, 0, 3, 2]) (-1) 1,
    -- 1420: x29 += einsum(x3, (0, 1, 2, 3), (0, 1, 3, 2)) * 2.0
    .add 51 (.ein [(21, [0, 1, 2, 3])] [0, 1, 3, 2]) 2 1,
    -- 1421: x29 += einsum(x0, (0, 1, 2, 3), (0, 1, 3, 2)) * 0.33333333333334
    .add 51 (.ein [(18, [0, 1, 2, 3])] [0, 1, 3, 2]) 1 3,
    -- 1422: x30 = np.zeros((nocc, nocc, nocc, nvir), dtype=types[float])
    .zeros 52 [0, 0, 0, 1],
    -- 1423: x30 += einsum(t1, (0, 1), x29, (0, 2, 3, 4), (2, 3, 4, 1)) * 0.5
    .add 52 (.ein [(3, [0, 1]), (51, [0, 2, 3, 4])] [2, 3, 4, 1]) 1 2,
    -- 1424: del x29
    .del 51,
    -- 1425: rdm2_f_ooov += einsum(x30, (0, 1, 2, 3), (2, 1, 0, 3)) * -1.0
    .add 29 (.ein [(52, [0, 1, 2, 3])] [2, 1, 0, 3]) (-1) 1,
    -- 1426: rdm2_f_oovo += einsum(x30, (0, 1, 2, 3), (2, 1, 3, 0))
    .add 30 (.ein [(52, [0, 1, 2, 3])] [2, 1, 3, 0]) 1 1,
    -- 1427: del x30
    .del 52,
    -- 1428: x31 = np.zeros((nocc, nocc, nvir, nvir), dtype=types[float])
    .zeros 53 [0, 0, 1, 1],
    -- 1429: x31 += einsum(l3, (0, 1, 2, 3, 4, 5), t3, (6, 4, 5, 7, 1, 2), (3, 6, 0, 7))
    .add 53 (.ein [(5, [0, 1, 2, 3, 4, 5]), (2, [6, 4, 5, 7, 1, 2])] [3, 6, 0, 7]) 1 1,
    -- 1430: rdm2_f_ovov += einsum(x31, (0, 1, 2, 3), (1, 2, 0, 3)) * -0.25
    .add 12 (.ein [(53, [0, 1, 2, 3])] [1, 2, 0, 3]) (-1) 4,
    -- 1431: rdm2_f_ovvo += einsum(x31, (0, 1, 2, 3), (1, 2, 3, 0)) * 0.25
    .add 13 (.ein [(53, [0, 1, 2, 3])] [1, 2, 3, 0]) 1 4,
    -- 1432: rdm2_f_voov += einsum(x31, (0, 1, 2, 3), (2, 1, 0, 3)) * 0.25
    .add 14 (.ein [(53, [0, 1, 2, 3])] [2, 1, 0, 3]) 1 4,
    -- 1433: rdm2_f_vovo += einsum(x31, (0, 1, 2, 3), (2, 1, 3, 0)) * -0.25
    .add 15 (.ein [(53, [0, 1, 2, 3])] [2, 1, 3, 0]) (-1) 4,
    -- 1434: x32 = np.zeros((nocc, nocc, nvir, nvir), dtype=types[float])
    .zeros 54 [0, 0, 1, 1],
    -- 1435: x32 += einsum(t2, (0, 1, 2, 3), x31, (1, 4, 3, 5), (0, 4, 2, 5))
    .add 54 (.ein [(1, [0, 1, 2, 3]), (53, [1, 4, 3, 5])] [0, 4, 2, 5]) 1 1,
    -- 1436: x33 = np.zeros((nocc, nocc, nvir, nvir), dtype=types[float])
    .zeros 55 [0, 0, 1, 1],
    -- 1437: x33 += einsum(t2, (0, 1, 2, 3), x14, (4, 1, 0, 5, 6, 3), (4, 5, 6, 2))
    .add 55 (.ein [(1, [0, 1, 2, 3]), (36, [4, 1, 0, 5, 6, 3])] [4, 5, 6, 2]) 1 1,
    -- 1438: rdm2_f_ovov += einsum(x33, (0, 1, 2, 3), (1, 2, 0, 3)) * 0.5
    .add 12 (.ein [(55, [0, 1, 2, 3])] [1, 2, 0, 3]) 1 2,
    -- 1439: rdm2_f_ovvo += einsum(x33, (0, 1, 2, 3), (1, 2, 3, 0)) * -0.5
    .add 13 (.ein [(55, [0, 1, 2, 3])] [1, 2, 3, 0]) (-1) 2,
    -- 1440: rdm2_f_voov += einsum(x33, (0, 1, 2, 3), (2, 1, 0, 3)) * -0.5
    .add 14 (.ein [(55, [0, 1, 2, 3])] [2, 1, 0, 3]) (-1) 2,
    -- 1441: rdm2_f_vovo += einsum(x33, (0, 1, 2, 3), (2, 1, 3, 0)) * 0.5
    .add 15 (.ein [(55, [0, 1, 2, 3])] [2, 1, 3, 0]) 1 2,
    -- 1442: x34 = np.zeros((nocc, nocc, nvir, nvir), dtype=types[float])
    .zeros 56 [0, 0, 1, 1],
    -- 1443: x34 += einsum(t1, (0, 1), x4, (0, 2, 3, 4), (2, 3, 4, 1)) * -1.0
    .add 56 (.ein [(3, [0, 1]), (22, [0, 2, 3, 4])] [2, 3, 4, 1]) (-1) 1,
    -- 1444: x35 = np.zeros((nocc, nocc, nvir, nvir), dtype=types[float])
    .zeros 57 [0, 0, 1, 1],
    -- 1445: x35 += einsum(x33, (0, 1, 2, 3), (0, 1, 2, 3))
    .add 57 (.ein [(55, [0, 1, 2, 3])] [0, 1, 2, 3]) 1 1,
    -- 1446: x35 += einsum(x34, (0, 1, 2, 3), (0, 1, 2, 3))
    .add 57 (.ein [(56, [0, 1, 2, 3])] [0, 1, 2, 3]) 1 1,
    -- 1447: del x34
    .del 56,
    -- 1448: x36 = np.zeros((nocc, nocc, nvir, nvir), dtype=types[float])
    .zeros 58 [0, 0, 1, 1],
    -- 1449: x36 += einsum(t2, (0, 1, 2, 3), x35, (1, 4, 3, 5), (4, 0, 5, 2)) * 0.5
    .add 58 (.ein [(1, [0, 1, 2, 3]), (57, [1, 4, 3, 5])] [4, 0, 5, 2]) 1 2,
    -- 1450: del x35
    .del 57,
    -- 1451: x37 = np.zeros((nocc, nocc, nocc, nvir), dtype=types[float])
    .zeros 59 [0, 0, 0, 1],
    -- 1452: x37 += einsum(t2, (0, 1, 2, 3), x2, (4, 1, 5, 3), (4, 5, 0, 2)) * -1.0
    .add 59 (.ein [(1, [0, 1, 2, 3]), (20, [4, 1, 5, 3])] [4, 5, 0, 2]) (-1) 1,
    -- 1453: x38 = np.zeros((nocc, nocc, nocc, nvir), dtype=types[float])
    .zeros 60 [0, 0, 0, 1],
    -- 1454: x38 += einsum(x37, (0, 1, 2, 3), (0, 1, 2, 3))
    .add 60 (.ein [(59, [0, 1, 2, 3])] [0, 1, 2, 3]) 1 1,
    -- 1455: del x37
    .del 59,
    -- 1456: x38 += einsum(x17, (0, 1, 2, 3), (0, 1, 2, 3)) * 0.25
    .add 60 (.ein [(39, [0, 1, 2, 3])] [0, 1, 2, 3]) 1 4,
    -- 1457: del x17
    .del 39,
    -- 1458: x39 = np.zeros((nocc, nocc, nvir, nvir), dtype=types[float])
    .zeros 61 [0, 0, 1, 1],
    -- 1459: x39 += einsum(t1, (0, 1), x38, (0, 2, 3, 4), (2, 3, 1, 4))
    .add 61 (.ein [(3, [0, 1]), (60, [0, 2, 3, 4])] [2, 3, 1, 4]) 1 1,
    -- 1460: del x38
    .del 60,
    -- 1461: x40 = np.zeros((nocc, nocc, nvir, nvir), dtype=types[float])
    .zeros 62 [0, 0, 1, 1],
    -- 1462: x40 += einsum(x32, (0, 1, 2, 3), (0, 1, 2, 3)) * -0.25
    .add 62 (.ein [(54, [0, 1, 2, 3])] [0, 1, 2, 3]) (-1) 4,
    -- 1463: del x32
    .del 54,
    -- 1464: x40 += einsum(x36, (0, 1, 2, 3), (0, 1, 2, 3))
    .add 62 (.ein [(58, [0, 1, 2, 3])] [0, 1, 2, 3]) 1 1,
    -- 1465: del x36
    .del 58,
    -- 1466: x40 += einsum(x39, (0, 1, 2, 3), (0, 1, 2, 3))
    .add 62 (.ein [(61, [0, 1, 2, 3])] [0, 1, 2, 3]) 1 1,
    -- 1467: del x39
    .del 61,
    -- 1468: x40 += einsum(t1, (0, 1), x28, (2, 3), (0, 2, 1, 3))
    .add 62 (.ein [(3, [0, 1]), (50, [2, 3])] [0, 2, 1, 3]) 1 1,
    -- 1469: del x28
    .del 50,
    -- 1470: rdm2_f_oovv += einsum(x40, (0, 1, 2, 3), (0, 1, 2, 3)) * -1.0
    .add 11 (.ein [(62, [0, 1, 2, 3])] [0, 1, 2, 3]) (-1) 1,
    -- 1471: rdm2_f_oovv += einsum(x40, (0, 1, 2, 3), (0, 1, 3, 2))
    .add 11 (.ein [(62, [0, 1, 2, 3])] [0, 1, 3, 2]) 1 1,
    -- 1472: rdm2_f_oovv += einsum(x40, (0, 1, 2, 3), (1, 0, 2, 3))
    .add 11 (.ein [(62, [0, 1, 2, 3])] [1, 0, 2, 3]) 1 1,
    -- 1473: rdm2_f_oovv += einsum(x40, (0, 1, 2, 3), (1, 0, 3, 2)) * -1.0
    .add 11 (.ein [(62, [0, 1, 2, 3])] [1, 0, 3, 2]) (-1) 1,
    -- 1474: del x40
    .del 62,
    -- 1475: x41 = np.zeros((nocc, nocc, nvir, nvir), dtype=types[float])
    .zeros 63 [0, 0, 1, 1],
    -- 1476: x41 += einsum(x7, (0, 1), t2, (2, 0, 3, 4), (2, 1, 3, 4))
    .add 63 (.ein [(25, [0, 1]), (1, [2, 0, 3, 4])] [2, 1, 3, 4]) 1 1,
    -- 1477: del x7
    .del 25,
    -- 1478: x42 = np.zeros((nocc, nocc, nvir, nvir), dtype=types[float])
    .zeros 64 [0, 0, 1, 1],
    -- 1479: x42 += einsum(x4, (0, 1, 2, 3), t3, (4, 0, 1, 5, 6, 3), (2, 4, 5, 6))
    .add 64 (.ein [(22, [0, 1, 2, 3]), (2, [4, 0, 1, 5, 6, 3])] [2, 4, 5, 6]) 1 1,
    -- 1480: x43 = np.zeros((nocc, nocc, nvir, nvir), dtype=types[float])
    .zeros 65 [0, 0, 1, 1],
    -- 1481: x43 += einsum(x41, (0, 1, 2, 3), (0, 1, 2, 3)) * 0.08333333333333
    .add 65 (.ein [(63, [0, 1, 2, 3])] [0, 1, 2, 3]) 1 12,
    -- 1482: del x41
    .del 63,
    -- 1483: x43 += einsum(x42, (0, 1, 2, 3), (0, 1, 2, 3)) * 0.25
    .add 65 (.ein [(64, [0, 1, 2, 3])] [0, 1, 2, 3]) 1 4,
    -- 1484: del x42
    .del 64,
    -- 1485: rdm2_f_oovv += einsum(x43, (0, 1, 2, 3), (0, 1, 2, 3)) * -1.0
    .add 11 (.ein [(65, [0, 1, 2, 3])] [0, 1, 2, 3]) (-1) 1,
    -- 1486: rdm2_f_oovv += einsum(x43, (0, 1, 2, 3), (1, 0, 2, 3))
    .add 11 (.ein [(65, [0, 1, 2, 3])] [1, 0, 2, 3]) 1 1,
    -- 1487: del x43
    .del 65,
    -- 1488: x44 = np.zeros((nocc, nocc, nvir, nvir), dtype=types[float])
    .zeros 66 [0, 0, 1, 1],
    -- 1489: x44 += einsum(l2, (0, 1, 2, 3), t2, (4, 3, 5, 1), (2, 4, 0, 5))
    .add 66 (.ein [(4, [0, 1, 2, 3]), (1, [4, 3, 5, 1])] [2, 4, 0, 5]) 1 1,
    -- 1490: rdm2_f_ovov += einsum(x44, (0, 1, 2, 3), (1, 2, 0, 3)) * -1.0
    .add 12 (.ein [(66, [0, 1, 2, 3])] [1, 2, 0, 3]) (-1) 1,
    -- 1491: rdm2_f_ovvo += einsum(x44, (0, 1, 2, 3), (1, 2, 3, 0))
    .add 13 (.ein [(66, [0, 1, 2, 3])] [1, 2, 3, 0]) 1 1,
    -- 1492: rdm2_f_voov += einsum(x44, (0, 1, 2, 3), (2, 1, 0, 3))
    .add 14 (.ein [(66, [0, 1, 2, 3])] [2, 1, 0, 3]) 1 1,
    -- 1493: rdm2_f_vovo += einsum(x44, (0, 1, 2, 3), (2, 1, 3, 0)) * -1.0
    .add 15 (.ein [(66, [0, 1, 2, 3])] [2, 1, 3, 0]) (-1) 1,
    -- 1494: x45 = np.zeros((nocc, nocc, nvir, nvir), dtype=types[float])
    .zeros 67 [0, 0, 1, 1],
    -- 1495: x45 += einsum(t2, (0, 1, 2, 3), x44, (1, 4, 3, 5), (4, 0, 5, 2))
    .add 67 (.ein [(1, [0, 1, 2, 3]), (66, [1, 4, 3, 5])] [4, 0, 5, 2]) 1 1,
    -- 1496: x46 = np.zeros((nocc, nocc, nvir, nvir), dtype=types[float])
    .zeros 68 [0, 0, 1, 1],
    -- 1497: x46 += einsum(x12, (0, 1, 2, 3), t3, (4, 5, 0, 6, 1, 2), (4, 5, 3, 6))
    .add 68 (.ein [(32, [0, 1, 2, 3]), (2, [4, 5, 0, 6, 1, 2])] [4, 5, 3, 6]) 1 1,
    -- 1498: x47 = np.zeros((nvir, nvir), dtype=types[float])
    .zeros 69 [1, 1],
    -- 1499: x47 += einsum(l2, (0, 1, 2, 3), t2, (2, 3, 4, 1), (0, 4))
    .add 69 (.ein [(4, [0, 1, 2, 3]), (1, [2, 3, 4, 1])] [0, 4]) 1 1,
    -- 1500: x48 = np.zeros((nvir, nvir), dtype=types[float])
    .zeros 70 [1, 1],
    -- 1501: x48 += einsum(l3, (0, 1, 2, 3, 4, 5), t3, (3, 4, 5, 6, 1, 2), (0, 6))
    .add 70 (.ein [(5, [0, 1, 2, 3, 4, 5]), (2, [3, 4, 5, 6, 1, 2])] [0, 6]) 1 1,
    -- 1502: x49 = np.zeros((nvir, nvir), dtype=types[float])
    .zeros 71 [1, 1],
    -- 1503: x49 += einsum(x47, (0, 1), (0, 1))
    .add 71 (.ein [(69, [0, 1])] [0, 1]) 1 1,
    -- 1504: x49 += einsum(x48, (0, 1), (0, 1)) * 0.16666666666666
    .add 71 (.ein [(70, [0, 1])] [0, 1]) 1 6,
    -- 1505: x50 = np.zeros((nocc, nocc, nvir, nvir), dtype=types[float])
    .zeros 72 [0, 0, 1, 1],
    -- 1506: x50 += einsum(x49, (0, 1), t2, (2, 3, 4, 0), (2, 3, 1, 4)) * -0.5
    .add 72 (.ein [(71, [0, 1]), (1, [2, 3, 4, 0])] [2, 3, 1, 4]) (-1) 2,
    -- 1507: del x49
    .del 71,
    -- 1508: x51 = np.zeros((nocc, nocc, nocc, nvir), dtype=types[float])
    .zeros 73 [0, 0, 0, 1],
    -- 1509: x51 += einsum(x10, (0, 1, 2, 3), (0, 2, 1, 3))
    .add 73 (.ein [(28, [0, 1, 2, 3])] [0, 2, 1, 3]) 1 1,
    -- 1510: del x10
    .del 28,
    -- 1511: x51 += einsum(x11, (0, 1, 2, 3), (0, 2, 1, 3)) * 0.5
    .add 73 (.ein [(31, [0, 1, 2, 3])] [0, 2, 1, 3]) 1 2,
    -- 1512: del x11
    .del 31,
    -- 1513: x51 += einsum(x13, (0, 1, 2, 3), (0, 2, 1, 3)) * 0.25
    .add 73 (.ein [(35, [0, 1, 2, 3])] [0, 2, 1, 3]) 1 4,
    -- 1514: del x13
    .del 35,
    -- 1515: x51 += einsum(x16, (0, 1, 2, 3), (0, 2, 1, 3)) * 0.5
    .add 73 (.ein [(38, [0, 1, 2, 3])] [0, 2, 1, 3]) 1 2,
    -- 1516: del x16
    .del 38,
    -- 1517: x52 = np.zeros((nocc, nocc, nvir, nvir), dtype=types[float])
    .zeros 74 [0, 0, 1, 1],
    -- 1518: x52 += einsum(t1, (0, 1), x51, (0, 2, 3, 4), (2, 3, 1, 4))
    .add 74 (.ein [(3, [0, 1]), (73, [0, 2, 3, 4])] [2, 3, 1, 4]) 1 1,
    -- 1519: del x51
    .del 73,
    -- 1520: x53 = np.zeros((nocc, nocc, nvir, nvir), dtype=types[float])
    .zeros 75 [0, 0, 1, 1],
    -- 1521: x53 += einsum(x45, (0, 1, 2, 3), (0, 1, 2, 3))
    .add 75 (.ein [(67, [0, 1, 2, 3])] [0, 1, 2, 3]) 1 1,
    -- 1522: del x45
    .del 67,
    -- 1523: x53 += einsum(x46, (0, 1, 2, 3), (0, 1, 2, 3)) * -0.25
    .add 75 (.ein [(68, [0, 1, 2, 3])] [0, 1, 2, 3]) (-1) 4,
    -- 1524: del x46
    .del 68,
    -- 1525: x53 += einsum(x50, (0, 1, 2, 3), (1, 0, 3, 2)) * -1.0
    .add 75 (.ein [(72, [0, 1, 2, 3])] [1, 0, 3, 2]) (-1) 1,
    -- 1526: del x50
    .del 72,
    -- 1527: x53 += einsum(x52, (0, 1, 2, 3), (1, 0, 2, 3))
    .add 75 (.ein [(74, [0, 1, 2, 3])] [1, 0, 2, 3]) 1 1,
    -- 1528: del x52
    .del 74,
    -- 1529: rdm2_f_oovv += einsum(x53, (0, 1, 2, 3), (0, 1, 2, 3))
    .add 11 (.ein [(75, [0, 1, 2, 3])] [0, 1, 2, 3]) 1 1,
    -- 1530: rdm2_f_oovv += einsum(x53, (0, 1, 2, 3), (0, 1, 3, 2)) * -1.0
    .add 11 (.ein [(75, [0, 1, 2, 3])] [0, 1, 3, 2]) (-1) 1,
    -- 1531: del x53
    .del 75,
    -- 1532: x54 = np.zeros((nocc, nocc, nvir, nvir), dtype=types[float])
    .zeros 76 [0, 0, 1, 1],
    -- 1533: x54 += einsum(x9, (0, 1), t2, (2, 0, 3, 4), (1, 2, 3, 4))
    .add 76 (.ein [(27, [0, 1]), (1, [2, 0, 3, 4])] [1, 2, 3, 4]) 1 1,
    -- 1534: del x9
    .del 27,
    -- 1535: x55 = np.zeros((nocc, nocc, nvir, nvir), dtype=types[float])
    .zeros 77 [0, 0, 1, 1],
    -- 1536: x55 += einsum(x2, (0, 1, 2, 3), t3, (4, 1, 0, 5, 6, 3), (2, 4, 5, 6))
    .add 77 (.ein [(20, [0, 1, 2, 3]), (2, [4, 1, 0, 5, 6, 3])] [2, 4, 5, 6]) 1 1,
    -- 1537: x56 = np.zeros((nocc, nocc, nvir, nvir), dtype=types[float])
    .zeros 78 [0, 0, 1, 1],
    -- 1538: x56 += einsum(x6, (0, 1), t2, (2, 0, 3, 4), (2, 1, 3, 4))
    .add 78 (.ein [(24, [0, 1]), (1, [2, 0, 3, 4])] [2, 1, 3, 4]) 1 1,
    -- 1539: del x6
    .del 24,
    -- 1540: x57 = np.zeros((nocc, nocc, nvir, nvir), dtype=types[float])
    .zeros 79 [0, 0, 1, 1],
    -- 1541: x57 += einsum(t1, (0, 1), t1, (2, 3), (0, 2, 3, 1)) * 2.0
    .add 79 (.ein [(3, [0, 1]), (3, [2, 3])] [0, 2, 3, 1]) 2 1,
    -- 1542: x57 += einsum(t2, (0, 1, 2, 3), (0, 1, 2, 3)) * -1.0
    .add 79 (.ein [(1, [0, 1, 2, 3])] [0, 1, 2, 3]) (-1) 1,
    -- 1543: x58 = np.zeros((nocc, nocc, nvir, nvir), dtype=types[float])
    .zeros 80 [0, 0, 1, 1],
    -- 1544: x58 += einsum(x5, (0, 1, 2, 3), x57, (0, 1, 4, 5), (2, 3, 4, 5)) * 0.25
    .add 80 (.ein [(23, [0, 1, 2, 3]), (79, [0, 1, 4, 5])] [2, 3, 4, 5]) 1 4,
    -- 1545: del x5, x57
    .del 23,
    .del 79,
    -- 1546: x59 = np.zeros((nocc, nocc, nvir, nvir), dtype=types[float])
    .zeros 81 [0, 0, 1, 1],
    -- 1547: x59 += einsum(x54, (0, 1, 2, 3), (0, 1, 3, 2)) * -1.0
    .add 81 (.ein [(76, [0, 1, 2, 3])] [0, 1, 3, 2]) (-1) 1,
    -- 1548: del x54
    .del 76,
    -- 1549: x59 += einsum(x55, (0, 1, 2, 3), (0, 1, 3, 2)) * -0.5
    .add 81 (.ein [(77, [0, 1, 2, 3])] [0, 1, 3, 2]) (-1) 2,
    -- 1550: del x55
    .del 77,
    -- 1551: x59 += einsum(x56, (0, 1, 2, 3), (0, 1, 3, 2)) * 0.5
    .add 81 (.ein [(78, [0, 1, 2, 3])] [0, 1, 3, 2]) 1 2,
    -- 1552: del x56
    .del 78,
    -- 1553: x59 += einsum(x58, (0, 1, 2, 3), (0, 1, 3, 2))
    .add 81 (.ein [(80, [0, 1, 2, 3])] [0, 1, 3, 2]) 1 1,
    -- 1554: del x58
    .del 80,
    -- 1555: rdm2_f_oovv += einsum(x59, (0, 1, 2, 3), (0, 1, 2, 3))
    .add 11 (.ein [(81, [0, 1, 2, 3])] [0, 1, 2, 3]) 1 1,
    -- 1556: rdm2_f_oovv += einsum(x59, (0, 1, 2, 3), (1, 0, 2, 3)) * -1.0
    .add 11 (.ein [(81, [0, 1, 2, 3])] [1, 0, 2, 3]) (-1) 1,
    -- 1557: del x59
    .del 81,
    -- 1558: x60 = np.zeros((nocc, nocc, nocc, nocc, nocc, nvir), dtype=types[float])
    .zeros 82 [0, 0, 0, 0, 0, 1],
    -- 1559: x60 += einsum(t2, (0, 1, 2, 3), l3, (4, 2, 3, 5, 6, 7), (5, 6, 7, 0, 1, 4))
    .add 82 (.ein [(1, [0, 1, 2, 3]), (5, [4, 2, 3, 5, 6, 7])] [5, 6, 7, 0, 1, 4]) 1 1,
    -- 1560: x60 += einsum(x15, (0, 1, 2, 3, 4, 5), (0, 1, 2, 4, 3, 5)) * -2.00000000000012
    .add 82 (.ein [(37, [0, 1, 2, 3, 4, 5])] [0, 1, 2, 4, 3, 5]) (-2) 1,
    -- 1561: del x15
    .del 37,
    -- 1562: rdm2_f_oovv += einsum(t3, (0, 1, 2, 3, 4, 5), x60, (0, 1, 2, 6, 7, 5), (6, 7, 3, 4)) * 0.08333333333333
    .add 11 (.ein [(2, [0, 1, 2, 3, 4, 5]), (82, [0, 1, 2, 6, 7, 5])] [6, 7, 3, 4]) 1 12,
    -- 1563: del x60
    .del 82,
    -- 1564: x61 = np.zeros((nocc, nocc, nocc, nocc), dtype=types[float])
    .zeros 83 [0, 0, 0, 0],
    -- 1565: x61 += einsum(x1, (0, 1, 2, 3), (1, 0, 3, 2)) * -3.00000000000012
    .add 83 (.ein [(19, [0, 1, 2, 3])] [1, 0, 3, 2]) (-3) 1,
    -- 1566: x61 += einsum(x3, (0, 1, 2, 3), (0, 1, 3, 2)) * 6.00000000000024
    .add 83 (.ein [(21, [0, 1, 2, 3])] [0, 1, 3, 2]) 6 1,
    -- 1567: x61 += einsum(x0, (0, 1, 2, 3), (0, 1, 3, 2))
    .add 83 (.ein [(18, [0, 1, 2, 3])] [0, 1, 3, 2]) 1 1,
    -- 1568: rdm2_f_oovv += einsum(t2, (0, 1, 2, 3), x61, (0, 1, 4, 5), (5, 4, 2, 3)) * 0.08333333333333
    .add 11 (.ein [(1, [0, 1, 2, 3]), (83, [0, 1, 4, 5])] [5, 4, 2, 3]) 1 12,
    -- 1569: del x61
    .del 83,
    -- 1570: x62 = np.zeros((nocc, nocc, nocc, nocc), dtype=types[float])
    .zeros 84 [0, 0, 0, 0],
    -- 1571: x62 += einsum(x1, (0, 1, 2, 3), (1, 0, 3, 2)) * -2.99999999999994
    .add 84 (.ein [(19, [0, 1, 2, 3])] [1, 0, 3, 2]) (-3) 1,
    -- 1572: del x1
    .del 19,
    -- 1573: x62 += einsum(x3, (0, 1, 2, 3), (0, 1, 3, 2)) * 5.99999999999988
    .add 84 (.ein [(21, [0, 1, 2, 3])] [0, 1, 3, 2]) 6 1,
    -- 1574: del x3
    .del 21,
    -- 1575: x62 += einsum(x0, (0, 1, 2, 3), (0, 1, 3, 2))
    .add 84 (.ein [(18, [0, 1, 2, 3])] [0, 1, 3, 2]) 1 1,
    -- 1576: del x0
    .del 18,
    -- 1577: x63 = np.zeros((nocc, nocc, nocc, nvir), dtype=types[float])
    .zeros 85 [0, 0, 0, 1],
    -- 1578: x63 += einsum(t1, (0, 1), x62, (0, 2, 3, 4), (2, 4, 3, 1)) * -0.16666666666667
    .add 85 (.ein [(3, [0, 1]), (84, [0, 2, 3, 4])] [2, 4, 3, 1]) (-1) 6,
    -- 1579: del x62
    .del 84,
    -- 1580: rdm2_f_oovv += einsum(t1, (0, 1), x63, (0, 2, 3, 4), (2, 3, 4, 1)) * -1.0
    .add 11 (.ein [(3, [0, 1]), (85, [0, 2, 3, 4])] [2, 3, 4, 1]) (-1) 1,
    -- 1581: del x63
    .del 85,
    -- 1582: x64 = np.zeros((nocc, nocc, nocc, nvir), dtype=types[float])
    .zeros 86 [0, 0, 0, 1],
    -- 1583: x64 += einsum(x2, (0, 1, 2, 3), (1, 0, 2, 3)) * -2.0
    .add 86 (.ein [(20, [0, 1, 2, 3])] [1, 0, 2, 3]) (-2) 1,
    -- 1584: del x2
    .del 20,
    -- 1585: x64 += einsum(x4, (0, 1, 2, 3), (0, 1, 2, 3))
    .add 86 (.ein [(22, [0, 1, 2, 3])] [0, 1, 2, 3]) 1 1,
    -- 1586: del x4
    .del 22,
    -- 1587: x65 = np.zeros((nocc, nocc, nvir, nvir), dtype=types[float])
    .zeros 87 [0, 0, 1, 1],
    -- 1588: x65 += einsum(t1, (0, 1), x64, (0, 2, 3, 4), (2, 3, 1, 4)) * 0.5
    .add 87 (.ein [(3, [0, 1]), (86, [0, 2, 3, 4])] [2, 3, 1, 4]) 1 2,
    -- 1589: del x64
    .del 86,
    -- 1590: rdm2_f_ovov += einsum(x65, (0, 1, 2, 3), (1, 3, 0, 2)) * -1.0
    .add 12 (.ein [(87, [0, 1, 2, 3])] [1, 3, 0, 2]) (-1) 1,
    -- 1591: rdm2_f_ovvo += einsum(x65, (0, 1, 2, 3), (1, 3, 2, 0))
    .add 13 (.ein [(87, [0, 1, 2, 3])] [1, 3, 2, 0]) 1 1,
    -- 1592: rdm2_f_voov += einsum(x65, (0, 1, 2, 3), (3, 1, 0, 2))
    .add 14 (.ein [(87, [0, 1, 2, 3])] [3, 1, 0, 2]) 1 1,
    -- 1593: rdm2_f_vovo += einsum(x65, (0, 1, 2, 3), (3, 1, 2, 0)) * -1.0
    .add 15 (.ein [(87, [0, 1, 2, 3])] [3, 1, 2, 0]) (-1) 1,
    -- 1594: del x65
    .del 87,
    -- 1595: x66 = np.zeros((nvir, nvir), dtype=types[float])
    .zeros 88 [1, 1],
    -- 1596: x66 += einsum(l1, (0, 1), t1, (1, 2), (0, 2))
    .add 88 (.ein [(0, [0, 1]), (3, [1, 2])] [0, 2]) 1 1,
    -- 1597: x67 = np.zeros((nvir, nvir), dtype=types[float])
    .zeros 89 [1, 1],
    -- 1598: x67 += einsum(x66, (0, 1), (0, 1)) * 12.00000000000048
    .add 89 (.ein [(88, [0, 1])] [0, 1]) 12 1,
    -- 1599: x67 += einsum(x47, (0, 1), (0, 1)) * 6.00000000000024
    .add 89 (.ein [(69, [0, 1])] [0, 1]) 6 1,
    -- 1600: x67 += einsum(x48, (0, 1), (0, 1))
    .add 89 (.ein [(70, [0, 1])] [0, 1]) 1 1,
    -- 1601: rdm2_f_ovov += einsum(delta.oo, (0, 1), x67, (2, 3), (0, 2, 1, 3)) * 0.08333333333333
    .add 12 (.ein [(6, [0, 1]), (89, [2, 3])] [0, 2, 1, 3]) 1 12,
    -- 1602: rdm2_f_voov += einsum(delta.oo, (0, 1), x67, (2, 3), (2, 0, 1, 3)) * -0.08333333333333
    .add 14 (.ein [(6, [0, 1]), (89, [2, 3])] [2, 0, 1, 3]) (-1) 12,
    -- 1603: del x67
    .del 89,
    -- 1604: x68 = np.zeros((nvir, nvir), dtype=types[float])
    .zeros 90 [1, 1],
    -- 1605: x68 += einsum(x66, (0, 1), (0, 1)) * 2.0
    .add 90 (.ein [(88, [0, 1])] [0, 1]) 2 1,
    -- 1606: x68 += einsum(x47, (0, 1), (0, 1))
    .add 90 (.ein [(69, [0, 1])] [0, 1]) 1 1,
    -- 1607: x68 += einsum(x48, (0, 1), (0, 1)) * 0.16666666666666
    .add 90 (.ein [(70, [0, 1])] [0, 1]) 1 6,
    -- 1608: rdm2_f_ovvo += einsum(delta.oo, (0, 1), x68, (2, 3), (0, 2, 3, 1)) * -0.5
    .add 13 (.ein [(6, [0, 1]), (90, [2, 3])] [0, 2, 3, 1]) (-1) 2,
    -- 1609: rdm2_f_vovo += einsum(delta.oo, (0, 1), x68, (2, 3), (2, 0, 3, 1)) * 0.5
    .add 15 (.ein [(6, [0, 1]), (90, [2, 3])] [2, 0, 3, 1]) 1 2,
    -- 1610: del x68
    .del 90,
    -- 1611: x69 = np.zeros((nocc, nvir, nvir, nvir), dtype=types[float])
    .zeros 91 [0, 1, 1, 1],
    -- 1612: x69 += einsum(l2, (0, 1, 2, 3), t3, (4, 2, 3, 5, 6, 1), (4, 0, 5, 6))
    .add 91 (.ein [(4, [0, 1, 2, 3]), (2, [4, 2, 3, 5, 6, 1])] [4, 0, 5, 6]) 1 1,
    -- 1613: rdm2_f_ovvv = np.zeros((nocc, nvir, nvir, nvir), dtype=types[float])
    .zeros 92 [0, 1, 1, 1],
    -- 1614: rdm2_f_ovvv += einsum(x69, (0, 1, 2, 3), (0, 1, 3, 2)) * -0.5
    .add 92 (.ein [(91, [0, 1, 2, 3])] [0, 1, 3, 2]) (-1) 2,
    -- 1615: rdm2_f_vovv = np.zeros((nvir, nocc, nvir, nvir), dtype=types[float])
    .zeros 93 [1, 0, 1, 1],
    -- 1616: rdm2_f_vovv += einsum(x69, (0, 1, 2, 3), (1, 0, 3, 2)) * 0.5
    .add 93 (.ein [(91, [0, 1, 2, 3])] [1, 0, 3, 2]) 1 2,
    -- 1617: del x69
    .del 91,
    -- 1618: x70 = np.zeros((nocc, nvir, nvir, nvir), dtype=types[float])
    .zeros 94 [0, 1, 1, 1],
    -- 1619: x70 += einsum(t3, (0, 1, 2, 3, 4, 5), x14, (0, 1, 2, 6, 7, 5), (6, 7, 3, 4)) * -1.0
    .add 94 (.ein [(2, [0, 1, 2, 3, 4, 5]), (36, [0, 1, 2, 6, 7, 5])] [6, 7, 3, 4]) (-1) 1,
    -- 1620: del x14
    .del 36,
    -- 1621: rdm2_f_ovvv += einsum(x70, (0, 1, 2, 3), (0, 1, 3, 2)) * -0.16666666666667
    .add 92 (.ein [(94, [0, 1, 2, 3])] [0, 1, 3, 2]) (-1) 6,
    -- 1622: rdm2_f_vovv += einsum(x70, (0, 1, 2, 3), (1, 0, 3, 2)) * 0.16666666666667
    .add 93 (.ein [(94, [0, 1, 2, 3])] [1, 0, 3, 2]) 1 6,
    -- 1623: del x70
    .del 94,
    -- 1624: x71 = np.zeros((nocc, nvir, nvir, nvir), dtype=types[float])
    .zeros 95 [0, 1, 1, 1],
    -- 1625: x71 += einsum(l1, (0, 1), t2, (2, 1, 3, 4), (2, 0, 3, 4))
    .add 95 (.ein [(0, [0, 1]), (1, [2, 1, 3, 4])] [2, 0, 3, 4]) 1 1,
    -- 1626: rdm2_f_ovvv += einsum(x71, (0, 1, 2, 3), (0, 1, 3, 2)) * -1.0
    .add 92 (.ein [(95, [0, 1, 2, 3])] [0, 1, 3, 2]) (-1) 1,
    -- 1627: rdm2_f_vovv += einsum(x71, (0, 1, 2, 3), (1, 0, 3, 2))
    .add 93 (.ein [(95, [0, 1, 2, 3])] [1, 0, 3, 2]) 1 1,
    -- 1628: del x71
    .del 95,
    -- 1629: x72 = np.zeros((nocc, nvir, nvir, nvir), dtype=types[float])
    .zeros 96 [0, 1, 1, 1],
    -- 1630: x72 += einsum(t2, (0, 1, 2, 3), x12, (1, 4, 3, 5), (0, 4, 5, 2)) * -1.0
    .add 96 (.ein [(1, [0, 1, 2, 3]), (32, [1, 4, 3, 5])] [0, 4, 5, 2]) (-1) 1,
    -- 1631: x73 = np.zeros((nocc, nocc, nvir, nvir), dtype=types[float])
    .zeros 97 [0, 0, 1, 1],
    -- 1632: x73 += einsum(x44, (0, 1, 2, 3), (0, 1, 2, 3))
    .add 97 (.ein [(66, [0, 1, 2, 3])] [0, 1, 2, 3]) 1 1,
    -- 1633: del x44
    .del 66,
    -- 1634: x73 += einsum(x31, (0, 1, 2, 3), (0, 1, 2, 3)) * 0.25
    .add 97 (.ein [(53, [0, 1, 2, 3])] [0, 1, 2, 3]) 1 4,
    -- 1635: del x31
    .del 53,
    -- 1636: x73 += einsum(x33, (0, 1, 2, 3), (0, 1, 2, 3)) * -0.5
    .add 97 (.ein [(55, [0, 1, 2, 3])] [0, 1, 2, 3]) (-1) 2,
    -- 1637: del x33
    .del 55,
    -- 1638: x74 = np.zeros((nocc, nvir, nvir, nvir), dtype=types[float])
    .zeros 98 [0, 1, 1, 1],
    -- 1639: x74 += einsum(t1, (0, 1), x73, (0, 2, 3, 4), (2, 1, 3, 4))
    .add 98 (.ein [(3, [0, 1]), (97, [0, 2, 3, 4])] [2, 1, 3, 4]) 1 1,
    -- 1640: del x73
    .del 97,
    -- 1641: x75 = np.zeros((nvir, nvir), dtype=types[float])
    .zeros 99 [1, 1],
    -- 1642: x75 += einsum(x66, (0, 1), (0, 1))
    .add 99 (.ein [(88, [0, 1])] [0, 1]) 1 1,
    -- 1643: del x66
    .del 88,
    -- 1644: x75 += einsum(x47, (0, 1), (0, 1)) * 0.5
    .add 99 (.ein [(69, [0, 1])] [0, 1]) 1 2,
    -- 1645: del x47
    .del 69,
    -- 1646: x75 += einsum(x48, (0, 1), (0, 1)) * 0.08333333333333
    .add 99 (.ein [(70, [0, 1])] [0, 1]) 1 12,
    -- 1647: del x48
    .del 70,
    -- 1648: x76 = np.zeros((nocc, nvir, nvir, nvir), dtype=types[float])
    .zeros 100 [0, 1, 1, 1],
    -- 1649: x76 += einsum(x72, (0, 1, 2, 3), (0, 1, 2, 3)) * -0.5
    .add 100 (.ein [(96, [0, 1, 2, 3])] [0, 1, 2, 3]) (-1) 2,
    -- 1650: del x72
    .del 96,
    -- 1651: x76 += einsum(x74, (0, 1, 2, 3), (0, 2, 1, 3)) * -1.0
    .add 100 (.ein [(98, [0, 1, 2, 3])] [0, 2, 1, 3]) (-1) 1,
    -- 1652: del x74
    .del 98,
    -- 1653: x76 += einsum(t1, (0, 1), x75, (2, 3), (0, 2, 1, 3))
    .add 100 (.ein [(3, [0, 1]), (99, [2, 3])] [0, 2, 1, 3]) 1 1,
    -- 1654: del x75
    .del 99,
    -- 1655: rdm2_f_ovvv += einsum(x76, (0, 1, 2, 3), (0, 1, 2, 3))
    .add 92 (.ein [(100, [0, 1, 2, 3])] [0, 1, 2, 3]) 1 1,
    -- 1656: rdm2_f_ovvv += einsum(x76, (0, 1, 2, 3), (0, 1, 3, 2)) * -1.0
    .add 92 (.ein [(100, [0, 1, 2, 3])] [0, 1, 3, 2]) (-1) 1,
    -- 1657: rdm2_f_vovv += einsum(x76, (0, 1, 2, 3), (1, 0, 2, 3)) * -1.0
    .add 93 (.ein [(100, [0, 1, 2, 3])] [1, 0, 2, 3]) (-1) 1,
    -- 1658: rdm2_f_vovv += einsum(x76, (0, 1, 2, 3), (1, 0, 3, 2))
    .add 93 (.ein [(100, [0, 1, 2, 3])] [1, 0, 3, 2]) 1 1,
    -- 1659: del x76
    .del 100,
    -- 1660: x77 = np.zeros((nocc, nvir, nvir, nvir), dtype=types[float])
    .zeros 101 [0, 1, 1, 1],
    -- 1661: x77 += einsum(t2, (0, 1, 2, 3), x19, (0, 1, 4, 5), (4, 5, 2, 3)) * 0.5
    .add 101 (.ein [(1, [0, 1, 2, 3]), (41, [0, 1, 4, 5])] [4, 5, 2, 3]) 1 2,
    -- 1662: rdm2_f_ovvv += einsum(x77, (0, 1, 2, 3), (0, 1, 3, 2)) * -1.0
    .add 92 (.ein [(101, [0, 1, 2, 3])] [0, 1, 3, 2]) (-1) 1,
    -- 1663: rdm2_f_vovv += einsum(x77, (0, 1, 2, 3), (1, 0, 3, 2))
    .add 93 (.ein [(101, [0, 1, 2, 3])] [1, 0, 3, 2]) 1 1,
    -- 1664: del x77
    .del 101,
    -- 1665: x78 = np.zeros((nocc, nocc, nvir, nvir), dtype=types[float])
    .zeros 102 [0, 0, 1, 1],
    -- 1666: x78 += einsum(t1, (0, 1), x19, (0, 2, 3, 4), (2, 3, 4, 1)) * -1.0
    .add 102 (.ein [(3, [0, 1]), (41, [0, 2, 3, 4])] [2, 3, 4, 1]) (-1) 1,
    -- 1667: rdm2_f_ovvv += einsum(t1, (0, 1), x78, (0, 2, 3, 4), (2, 3, 1, 4))
    .add 92 (.ein [(3, [0, 1]), (102, [0, 2, 3, 4])] [2, 3, 1, 4]) 1 1,
    -- 1668: del x78
    .del 102,
    -- 1669: x79 = np.zeros((nocc, nocc, nvir, nvir), dtype=types[float])
    .zeros 103 [0, 0, 1, 1],
    -- 1670: x79 += einsum(t1, (0, 1), x19, (0, 2, 3, 4), (2, 3, 4, 1)) * -2.0
    .add 103 (.ein [(3, [0, 1]), (41, [0, 2, 3, 4])] [2, 3, 4, 1]) (-2) 1,
    -- 1671: del x19
    .del 41,
    -- 1672: rdm2_f_vovv += einsum(t1, (0, 1), x79, (0, 2, 3, 4), (3, 2, 4, 1)) * 0.5
    .add 93 (.ein [(3, [0, 1]), (103, [0, 2, 3, 4])] [3, 2, 4, 1]) 1 2,
    -- 1673: del x79
    .del 103,
    -- 1674: x80 = np.zeros((nocc, nvir, nvir, nvir), dtype=types[float])
    .zeros 104 [0, 1, 1, 1],
    -- 1675: x80 += einsum(t1, (0, 1), l2, (2, 3, 4, 0), (4, 2, 3, 1))
    .add 104 (.ein [(3, [0, 1]), (4, [2, 3, 4, 0])] [4, 2, 3, 1]) 1 1,
    -- 1676: rdm2_f_vvov += einsum(x80, (0, 1, 2, 3), (2, 1, 0, 3)) * -1.0
    .add 33 (.ein [(104, [0, 1, 2, 3])] [2, 1, 0, 3]) (-1) 1,
    -- 1677: rdm2_f_vvvo += einsum(x80, (0, 1, 2, 3), (2, 1, 3, 0))
    .add 34 (.ein [(104, [0, 1, 2, 3])] [2, 1, 3, 0]) 1 1,
    -- 1678: rdm2_f_vvvv += einsum(t1, (0, 1), x80, (0, 2, 3, 4), (2, 3, 1, 4))
    .add 17 (.ein [(3, [0, 1]), (104, [0, 2, 3, 4])] [2, 3, 1, 4]) 1 1,
    -- 1679: del x80
    .del 104,
    -- 1680: x81 = np.zeros((nvir, nvir, nvir, nvir), dtype=types[float])
    .zeros 105 [1, 1, 1, 1],
    -- 1681: x81 += einsum(t1, (0, 1), x12, (0, 2, 3, 4), (3, 2, 1, 4)) * -1.0
    .add 105 (.ein [(3, [0, 1]), (32, [0, 2, 3, 4])] [3, 2, 1, 4]) (-1) 1,
    -- 1682: del x12
    .del 32,
    -- 1683: rdm2_f_vvvv += einsum(x81, (0, 1, 2, 3), (0, 1, 2, 3)) * 0.5
    .add 17 (.ein [(105, [0, 1, 2, 3])] [0, 1, 2, 3]) 1 2,
    -- 1684: rdm2_f_vvvv += einsum(x81, (0, 1, 2, 3), (0, 1, 3, 2)) * -0.5
    .add 17 (.ein [(105, [0, 1, 2, 3])] [0, 1, 3, 2]) (-1) 2,
    -- 1685: del x81
    .del 105,
    -- 1689: rdm2_f = np.transpose(rdm2_f, (0, 2, 1, 3))
    .set 106 (.tr 8 [0, 2, 1, 3]) 1 1,
    .set 107 (.tr 29 [0, 2, 1, 3]) 1 1,
    .set 108 (.tr 9 [0, 2, 1, 3]) 1 1,
    .set 109 (.tr 30 [0, 2, 1, 3]) 1 1,
    .set 110 (.tr 10 [0, 2, 1, 3]) 1 1,
    .set 111 (.tr 12 [0, 2, 1, 3]) 1 1,
    .set 112 (.tr 11 [0, 2, 1, 3]) 1 1,
    .set 113 (.tr 13 [0, 2, 1, 3]) 1 1,
    .set 114 (.tr 14 [0, 2, 1, 3]) 1 1,
    .set 115 (.tr 16 [0, 2, 1, 3]) 1 1,
    .set 116 (.tr 15 [0, 2, 1, 3]) 1 1,
    .set 117 (.tr 92 [0, 2, 1, 3]) 1 1,
    .set 118 (.tr 33 [0, 2, 1, 3]) 1 1,
    .set 119 (.tr 93 [0, 2, 1, 3]) 1 1,
    .set 120 (.tr 34 [0, 2, 1, 3]) 1 1,
    .set 121 (.tr 17 [0, 2, 1, 3]) 1 1
  ]
  ret := [(chars! "rdm2_f.oooo", 106), (chars! "rdm2_f.ooov", 107), (chars! "rdm2_f.oovo", 108), (chars! "rdm2_f.ovoo", 109), (chars! "rdm2_f.vooo", 110), (chars! "rdm2_f.oovv", 111), (chars! "rdm2_f.ovov", 112), (chars! "rdm2_f.ovvo", 113), (chars! "rdm2_f.voov", 114), (chars! "rdm2_f.vovo", 115), (chars! "rdm2_f.vvoo", 116), (chars! "rdm2_f.ovvv", 117), (chars! "rdm2_f.vovv", 118), (chars! "rdm2_f.vvov", 119), (chars! "rdm2_f.vvvo", 120), (chars! "rdm2_f.vvvv", 121)]

end Ebcc.Gen.GCCSDT
