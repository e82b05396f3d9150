import Verif.Model.GenCode
/-!
Functions of `ebcc/codegen/GCCSDTQ.py`, written by `tools/gencode.py`.  Comments give the
number and the text of the line of each statement.
-/

set_option maxRecDepth 100000

namespace Ebcc.Gen.GCCSDTQ

/-- codegen/GCCSDTQ.py:18-110 `update_amps`, the statements for the results `t1new`, `t2new`; without
the other results and their statements, lines 111-3159. -/
def update_amps : GenFun where
  args := [chars! "f.ov", chars! "f.oo", chars! "t1", chars! "f.vv", chars! "t2", chars! "v.ovov", chars! "v.ooov", chars! "v.ovvv", chars! "v.oovv", chars! "t3", chars! "v.oooo", chars! "v.vvvv", chars! "t4"]
  body := [
    -- 20: t1new = np.zeros((nocc, nvir), dtype=types[float])
    .zeros 13 [0, 1],
    -- 21: t1new += einsum(f.ov, (0, 1), (0, 1))
    .add 13 (.ein [(0, [0, 1])] [0, 1]) 1 1,
    -- 22: t1new += einsum(f.oo, (0, 1), t1, (1, 2), (0, 2)) * -1.0
    .add 13 (.ein [(1, [0, 1]), (2, [1, 2])] [0, 2]) (-1) 1,
    -- 23: t1new += einsum(f.vv, (0, 1), t1, (2, 1), (2, 0))
    .add 13 (.ein [(3, [0, 1]), (2, [2, 1])] [2, 0]) 1 1,
    -- 24: t1new += einsum(f.ov, (0, 1), t2, (2, 0, 3, 1), (2, 3))
    .add 13 (.ein [(0, [0, 1]), (4, [2, 0, 3, 1])] [2, 3]) 1 1,
    -- 25: t1new += einsum(t1, (0, 1), v.ovov, (2, 1, 0, 3), (2, 3)) * -1.0
    .add 13 (.ein [(2, [0, 1]), (5, [2, 1, 0, 3])] [2, 3]) (-1) 1,
    -- 26: t1new += einsum(t2, (0, 1, 2, 3), v.ooov, (0, 1, 4, 3), (4, 2)) * -0.5
    .add 13 (.ein [(4, [0, 1, 2, 3]), (6, [0, 1, 4, 3])] [4, 2]) (-1) 2,
    -- 27: t1new += einsum(t2, (0, 1, 2, 3), v.ovvv, (1, 4, 2, 3), (0, 4)) * -0.5
    .add 13 (.ein [(4, [0, 1, 2, 3]), (7, [1, 4, 2, 3])] [0, 4]) (-1) 2,
    -- 28: t1new += einsum(v.oovv, (0, 1, 2, 3), t3, (4, 0, 1, 5, 2, 3), (4, 5)) * 0.25
    .add 13 (.ein [(8, [0, 1, 2, 3]), (9, [4, 0, 1, 5, 2, 3])] [4, 5]) 1 4,
    -- 29: t1new += einsum(f.ov, (0, 1), t1, (2, 1), t1, (0, 3), (2, 3)) * -1.0
    .add 13 (.ein [(0, [0, 1]), (2, [2, 1]), (2, [0, 3])] [2, 3]) (-1) 1,
    -- 30: t1new += einsum(t1, (0, 1), t1, (2, 3), v.ooov, (0, 2, 4, 1), (4, 3))
    .add 13 (.ein [(2, [0, 1]), (2, [2, 3]), (6, [0, 2, 4, 1])] [4, 3]) 1 1,
    -- 31: t1new += einsum(t1, (0, 1), t1, (2, 3), v.ovvv, (2, 4, 1, 3), (0, 4)) * -1.0
    .add 13 (.ein [(2, [0, 1]), (2, [2, 3]), (7, [2, 4, 1, 3])] [0, 4]) (-1) 1,
    -- 32: t1new += einsum(t1, (0, 1), t2, (2, 3, 4, 5), v.oovv, (2, 3, 1, 5), (0, 4)) * -0.5
    .add 13 (.ein [(2, [0, 1]), (4, [2, 3, 4, 5]), (8, [2, 3, 1, 5])] [0, 4]) (-1) 2,
    -- 33: t1new += einsum(t1, (0, 1), t2, (2, 3, 4, 5), v.oovv, (0, 3, 4, 5), (2, 1)) * -0.5
    .add 13 (.ein [(2, [0, 1]), (4, [2, 3, 4, 5]), (8, [0, 3, 4, 5])] [2, 1]) (-1) 2,
    -- 34: t1new += einsum(t1, (0, 1), t2, (2, 3, 4, 5), v.oovv, (0, 3, 1, 5), (2, 4))
    .add 13 (.ein [(2, [0, 1]), (4, [2, 3, 4, 5]), (8, [0, 3, 1, 5])] [2, 4]) 1 1,
    -- 35: t1new += einsum(t1, (0, 1), t1, (2, 3), t1, (4, 5), v.oovv, (2, 4, 1, 3), (0, 5))
    .add 13 (.ein [(2, [0, 1]), (2, [2, 3]), (2, [4, 5]), (8, [2, 4, 1, 3])] [0, 5]) 1 1,
    -- 36: t2new = np.zeros((nocc, nocc, nvir, nvir), dtype=types[float])
    .zeros 14 [0, 0, 1, 1],
    -- 37: t2new += einsum(v.oovv, (0, 1, 2, 3), (0, 1, 2, 3))
    .add 14 (.ein [(8, [0, 1, 2, 3])] [0, 1, 2, 3]) 1 1,
    -- 38: t2new += einsum(f.oo, (0, 1), t2, (2, 1, 3, 4), (0, 2, 3, 4))
    .add 14 (.ein [(1, [0, 1]), (4, [2, 1, 3, 4])] [0, 2, 3, 4]) 1 1,
    -- 39: t2new += einsum(f.oo, (0, 1), t2, (2, 1, 3, 4), (2, 0, 3, 4)) * -1.0
    .add 14 (.ein [(1, [0, 1]), (4, [2, 1, 3, 4])] [2, 0, 3, 4]) (-1) 1,
    -- 40: t2new += einsum(f.vv, (0, 1), t2, (2, 3, 4, 1), (2, 3, 0, 4)) * -1.0
    .add 14 (.ein [(3, [0, 1]), (4, [2, 3, 4, 1])] [2, 3, 0, 4]) (-1) 1,
    -- 41: t2new += einsum(f.vv, (0, 1), t2, (2, 3, 4, 1), (2, 3, 4, 0))
    .add 14 (.ein [(3, [0, 1]), (4, [2, 3, 4, 1])] [2, 3, 4, 0]) 1 1,
    -- 42: t2new += einsum(t1, (0, 1), v.ooov, (2, 3, 0, 4), (2, 3, 1, 4)) * -1.0
    .add 14 (.ein [(2, [0, 1]), (6, [2, 3, 0, 4])] [2, 3, 1, 4]) (-1) 1,
    -- 43: t2new += einsum(t1, (0, 1), v.ooov, (2, 3, 0, 4), (2, 3, 4, 1))
    .add 14 (.ein [(2, [0, 1]), (6, [2, 3, 0, 4])] [2, 3, 4, 1]) 1 1,
    -- 44: t2new += einsum(t1, (0, 1), v.ovvv, (2, 1, 3, 4), (0, 2, 3, 4)) * -1.0
    .add 14 (.ein [(2, [0, 1]), (7, [2, 1, 3, 4])] [0, 2, 3, 4]) (-1) 1,
    -- 45: t2new += einsum(t1, (0, 1), v.ovvv, (2, 1, 3, 4), (2, 0, 3, 4))
    .add 14 (.ein [(2, [0, 1]), (7, [2, 1, 3, 4])] [2, 0, 3, 4]) 1 1,
    -- 46: t2new += einsum(f.ov, (0, 1), t3, (2, 3, 0, 4, 5, 1), (2, 3, 4, 5))
    .add 14 (.ein [(0, [0, 1]), (9, [2, 3, 0, 4, 5, 1])] [2, 3, 4, 5]) 1 1,
    -- 47: t2new += einsum(t2, (0, 1, 2, 3), v.oooo, (4, 5, 0, 1), (4, 5, 2, 3)) * 0.5
    .add 14 (.ein [(4, [0, 1, 2, 3]), (10, [4, 5, 0, 1])] [4, 5, 2, 3]) 1 2,
    -- 48: t2new += einsum(t2, (0, 1, 2, 3), v.ovov, (4, 3, 1, 5), (0, 4, 2, 5)) * -1.0
    .add 14 (.ein [(4, [0, 1, 2, 3]), (5, [4, 3, 1, 5])] [0, 4, 2, 5]) (-1) 1,
    -- 49: t2new += einsum(t2, (0, 1, 2, 3), v.ovov, (4, 3, 1, 5), (0, 4, 5, 2))
    .add 14 (.ein [(4, [0, 1, 2, 3]), (5, [4, 3, 1, 5])] [0, 4, 5, 2]) 1 1,
    -- 50: t2new += einsum(t2, (0, 1, 2, 3), v.ovov, (4, 3, 1, 5), (4, 0, 2, 5))
    .add 14 (.ein [(4, [0, 1, 2, 3]), (5, [4, 3, 1, 5])] [4, 0, 2, 5]) 1 1,
    -- 51: t2new += einsum(t2, (0, 1, 2, 3), v.ovov, (4, 3, 1, 5), (4, 0, 5, 2)) * -1.0
    .add 14 (.ein [(4, [0, 1, 2, 3]), (5, [4, 3, 1, 5])] [4, 0, 5, 2]) (-1) 1,
    -- 52: t2new += einsum(t2, (0, 1, 2, 3), v.vvvv, (4, 5, 2, 3), (0, 1, 4, 5)) * 0.5
    .add 14 (.ein [(4, [0, 1, 2, 3]), (11, [4, 5, 2, 3])] [0, 1, 4, 5]) 1 2,
    -- 53: t2new += einsum(v.ooov, (0, 1, 2, 3), t3, (4, 0, 1, 5, 6, 3), (2, 4, 5, 6)) * 0.5
    .add 14 (.ein [(6, [0, 1, 2, 3]), (9, [4, 0, 1, 5, 6, 3])] [2, 4, 5, 6]) 1 2,
    -- 54: t2new += einsum(v.ooov, (0, 1, 2, 3), t3, (4, 0, 1, 5, 6, 3), (4, 2, 5, 6)) * -0.5
    .add 14 (.ein [(6, [0, 1, 2, 3]), (9, [4, 0, 1, 5, 6, 3])] [4, 2, 5, 6]) (-1) 2,
    -- 55: t2new += einsum(v.ovvv, (0, 1, 2, 3), t3, (4, 5, 0, 6, 2, 3), (4, 5, 1, 6)) * 0.5
    .add 14 (.ein [(7, [0, 1, 2, 3]), (9, [4, 5, 0, 6, 2, 3])] [4, 5, 1, 6]) 1 2,
    -- 56: t2new += einsum(v.ovvv, (0, 1, 2, 3), t3, (4, 5, 0, 6, 2, 3), (4, 5, 6, 1)) * -0.5
    .add 14 (.ein [(7, [0, 1, 2, 3]), (9, [4, 5, 0, 6, 2, 3])] [4, 5, 6, 1]) (-1) 2,
    -- 57: t2new += einsum(v.oovv, (0, 1, 2, 3), t4, (4, 5, 0, 1, 6, 7, 2, 3), (4, 5, 6, 7)) * 0.25
    .add 14 (.ein [(8, [0, 1, 2, 3]), (12, [4, 5, 0, 1, 6, 7, 2, 3])] [4, 5, 6, 7]) 1 4,
    -- 58: t2new += einsum(f.ov, (0, 1), t1, (2, 1), t2, (3, 0, 4, 5), (2, 3, 4, 5))
    .add 14 (.ein [(0, [0, 1]), (2, [2, 1]), (4, [3, 0, 4, 5])] [2, 3, 4, 5]) 1 1,
    -- 59: t2new += einsum(f.ov, (0, 1), t1, (2, 1), t2, (3, 0, 4, 5), (3, 2, 4, 5)) * -1.0
    .add 14 (.ein [(0, [0, 1]), (2, [2, 1]), (4, [3, 0, 4, 5])] [3, 2, 4, 5]) (-1) 1,
    -- 60: t2new += einsum(f.ov, (0, 1), t1, (0, 2), t2, (3, 4, 5, 1), (3, 4, 2, 5))
    .add 14 (.ein [(0, [0, 1]), (2, [0, 2]), (4, [3, 4, 5, 1])] [3, 4, 2, 5]) 1 1,
    -- 61: t2new += einsum(f.ov, (0, 1), t1, (0, 2), t2, (3, 4, 5, 1), (3, 4, 5, 2)) * -1.0
    .add 14 (.ein [(0, [0, 1]), (2, [0, 2]), (4, [3, 4, 5, 1])] [3, 4, 5, 2]) (-1) 1,
    -- 62: t2new += einsum(t1, (0, 1), t1, (2, 3), v.oooo, (4, 5, 0, 2), (4, 5, 1, 3))
    .add 14 (.ein [(2, [0, 1]), (2, [2, 3]), (10, [4, 5, 0, 2])] [4, 5, 1, 3]) 1 1,
    -- 63: t2new += einsum(t1, (0, 1), t1, (2, 3), v.ovov, (4, 1, 2, 5), (0, 4, 3, 5))
    .add 14 (.ein [(2, [0, 1]), (2, [2, 3]), (5, [4, 1, 2, 5])] [0, 4, 3, 5]) 1 1,
    -- 64: t2new += einsum(t1, (0, 1), t1, (2, 3), v.ovov, (4, 1, 2, 5), (0, 4, 5, 3)) * -1.0
    .add 14 (.ein [(2, [0, 1]), (2, [2, 3]), (5, [4, 1, 2, 5])] [0, 4, 5, 3]) (-1) 1,
    -- 65: t2new += einsum(t1, (0, 1), t1, (2, 3), v.ovov, (4, 1, 2, 5), (4, 0, 3, 5)) * -1.0
    .add 14 (.ein [(2, [0, 1]), (2, [2, 3]), (5, [4, 1, 2, 5])] [4, 0, 3, 5]) (-1) 1,
    -- 66: t2new += einsum(t1, (0, 1), t1, (2, 3), v.ovov, (4, 1, 2, 5), (4, 0, 5, 3))
    .add 14 (.ein [(2, [0, 1]), (2, [2, 3]), (5, [4, 1, 2, 5])] [4, 0, 5, 3]) 1 1,
    -- 67: t2new += einsum(t1, (0, 1), t1, (2, 3), v.vvvv, (4, 5, 1, 3), (0, 2, 4, 5))
    .add 14 (.ein [(2, [0, 1]), (2, [2, 3]), (11, [4, 5, 1, 3])] [0, 2, 4, 5]) 1 1,
    -- 68: t2new += einsum(t1, (0, 1), t2, (2, 3, 4, 5), v.ooov, (2, 3, 6, 1), (0, 6, 4, 5)) * -0.5
    .add 14 (.ein [(2, [0, 1]), (4, [2, 3, 4, 5]), (6, [2, 3, 6, 1])] [0, 6, 4, 5]) (-1) 2,
    -- 69: t2new += einsum(t1, (0, 1), t2, (2, 3, 4, 5), v.ooov, (2, 3, 6, 1), (6, 0, 4, 5)) * 0.5
    .add 14 (.ein [(2, [0, 1]), (4, [2, 3, 4, 5]), (6, [2, 3, 6, 1])] [6, 0, 4, 5]) 1 2,
    -- 70: t2new += einsum(t1, (0, 1), t2, (2, 3, 4, 5), v.ooov, (0, 3, 6, 5), (2, 6, 1, 4))
    .add 14 (.ein [(2, [0, 1]), (4, [2, 3, 4, 5]), (6, [0, 3, 6, 5])] [2, 6, 1, 4]) 1 1,
    -- 71: t2new += einsum(t1, (0, 1), t2, (2, 3, 4, 5), v.ooov, (0, 3, 6, 5), (6, 2, 1, 4)) * -1.0
    .add 14 (.ein [(2, [0, 1]), (4, [2, 3, 4, 5]), (6, [0, 3, 6, 5])] [6, 2, 1, 4]) (-1) 1,
    -- 72: t2new += einsum(t1, (0, 1), t2, (2, 3, 4, 5), v.ooov, (0, 3, 6, 5), (2, 6, 4, 1)) * -1.0
    .add 14 (.ein [(2, [0, 1]), (4, [2, 3, 4, 5]), (6, [0, 3, 6, 5])] [2, 6, 4, 1]) (-1) 1,
    -- 73: t2new += einsum(t1, (0, 1), t2, (2, 3, 4, 5), v.ooov, (0, 3, 6, 5), (6, 2, 4, 1))
    .add 14 (.ein [(2, [0, 1]), (4, [2, 3, 4, 5]), (6, [0, 3, 6, 5])] [6, 2, 4, 1]) 1 1,
    -- 74: t2new += einsum(t1, (0, 1), t2, (2, 3, 4, 5), v.ooov, (0, 3, 6, 1), (2, 6, 4, 5))
    .add 14 (.ein [(2, [0, 1]), (4, [2, 3, 4, 5]), (6, [0, 3, 6, 1])] [2, 6, 4, 5]) 1 1,
    -- 75: t2new += einsum(t1, (0, 1), t2, (2, 3, 4, 5), v.ooov, (0, 3, 6, 1), (6, 2, 4, 5)) * -1.0
    .add 14 (.ein [(2, [0, 1]), (4, [2, 3, 4, 5]), (6, [0, 3, 6, 1])] [6, 2, 4, 5]) (-1) 1,
    -- 76: t2new += einsum(t1, (0, 1), t2, (2, 3, 4, 5), v.ovvv, (3, 6, 1, 5), (0, 2, 6, 4)) * -1.0
    .add 14 (.ein [(2, [0, 1]), (4, [2, 3, 4, 5]), (7, [3, 6, 1, 5])] [0, 2, 6, 4]) (-1) 1,
    -- 77: t2new += einsum(t1, (0, 1), t2, (2, 3, 4, 5), v.ovvv, (3, 6, 1, 5), (0, 2, 4, 6))
    .add 14 (.ein [(2, [0, 1]), (4, [2, 3, 4, 5]), (7, [3, 6, 1, 5])] [0, 2, 4, 6]) 1 1,
    -- 78: t2new += einsum(t1, (0, 1), t2, (2, 3, 4, 5), v.ovvv, (3, 6, 1, 5), (2, 0, 6, 4))
    .add 14 (.ein [(2, [0, 1]), (4, [2, 3, 4, 5]), (7, [3, 6, 1, 5])] [2, 0, 6, 4]) 1 1,
    -- 79: t2new += einsum(t1, (0, 1), t2, (2, 3, 4, 5), v.ovvv, (3, 6, 1, 5), (2, 0, 4, 6)) * -1.0
    .add 14 (.ein [(2, [0, 1]), (4, [2, 3, 4, 5]), (7, [3, 6, 1, 5])] [2, 0, 4, 6]) (-1) 1,
    -- 80: t2new += einsum(t1, (0, 1), t2, (2, 3, 4, 5), v.ovvv, (0, 6, 4, 5), (2, 3, 1, 6)) * -0.5
    .add 14 (.ein [(2, [0, 1]), (4, [2, 3, 4, 5]), (7, [0, 6, 4, 5])] [2, 3, 1, 6]) (-1) 2,
    -- 81: t2new += einsum(t1, (0, 1), t2, (2, 3, 4, 5), v.ovvv, (0, 6, 4, 5), (2, 3, 6, 1)) * 0.5
    .add 14 (.ein [(2, [0, 1]), (4, [2, 3, 4, 5]), (7, [0, 6, 4, 5])] [2, 3, 6, 1]) 1 2,
    -- 82: t2new += einsum(t1, (0, 1), t2, (2, 3, 4, 5), v.ovvv, (0, 6, 1, 5), (2, 3, 6, 4)) * -1.0
    .add 14 (.ein [(2, [0, 1]), (4, [2, 3, 4, 5]), (7, [0, 6, 1, 5])] [2, 3, 6, 4]) (-1) 1,
    -- 83: t2new += einsum(t1, (0, 1), t2, (2, 3, 4, 5), v.ovvv, (0, 6, 1, 5), (2, 3, 4, 6))
    .add 14 (.ein [(2, [0, 1]), (4, [2, 3, 4, 5]), (7, [0, 6, 1, 5])] [2, 3, 4, 6]) 1 1,
    -- 84: t2new += einsum(t1, (0, 1), v.oovv, (2, 3, 1, 4), t3, (5, 2, 3, 6, 7, 4), (0, 5, 6, 7)) * 0.5
    .add 14 (.ein [(2, [0, 1]), (8, [2, 3, 1, 4]), (9, [5, 2, 3, 6, 7, 4])] [0, 5, 6, 7]) 1 2,
    -- 85: t2new += einsum(t1, (0, 1), v.oovv, (2, 3, 1, 4), t3, (5, 2, 3, 6, 7, 4), (5, 0, 6, 7)) * -0.5
    .add 14 (.ein [(2, [0, 1]), (8, [2, 3, 1, 4]), (9, [5, 2, 3, 6, 7, 4])] [5, 0, 6, 7]) (-1) 2,
    -- 86: t2new += einsum(t1, (0, 1), v.oovv, (0, 2, 3, 4), t3, (5, 6, 2, 7, 3, 4), (5, 6, 1, 7)) * 0.5
    .add 14 (.ein [(2, [0, 1]), (8, [0, 2, 3, 4]), (9, [5, 6, 2, 7, 3, 4])] [5, 6, 1, 7]) 1 2,
    -- 87: t2new += einsum(t1, (0, 1), v.oovv, (0, 2, 3, 4), t3, (5, 6, 2, 7, 3, 4), (5, 6, 7, 1)) * -0.5
    .add 14 (.ein [(2, [0, 1]), (8, [0, 2, 3, 4]), (9, [5, 6, 2, 7, 3, 4])] [5, 6, 7, 1]) (-1) 2,
    -- 88: t2new += einsum(t1, (0, 1), v.oovv, (0, 2, 1, 3), t3, (4, 5, 2, 6, 7, 3), (4, 5, 6, 7))
    .add 14 (.ein [(2, [0, 1]), (8, [0, 2, 1, 3]), (9, [4, 5, 2, 6, 7, 3])] [4, 5, 6, 7]) 1 1,
    -- 89: t2new += einsum(t2, (0, 1, 2, 3), t2, (4, 5, 6, 7), v.oovv, (1, 5, 3, 7), (0, 4, 2, 6))
    .add 14 (.ein [(4, [0, 1, 2, 3]), (4, [4, 5, 6, 7]), (8, [1, 5, 3, 7])] [0, 4, 2, 6]) 1 1,
    -- 90: t2new += einsum(t2, (0, 1, 2, 3), t2, (4, 5, 6, 7), v.oovv, (1, 5, 6, 7), (0, 4, 2, 3)) * -0.5
    .add 14 (.ein [(4, [0, 1, 2, 3]), (4, [4, 5, 6, 7]), (8, [1, 5, 6, 7])] [0, 4, 2, 3]) (-1) 2,
    -- 91: t2new += einsum(t2, (0, 1, 2, 3), t2, (4, 5, 6, 7), v.oovv, (1, 5, 3, 7), (0, 4, 6, 2)) * -1.0
    .add 14 (.ein [(4, [0, 1, 2, 3]), (4, [4, 5, 6, 7]), (8, [1, 5, 3, 7])] [0, 4, 6, 2]) (-1) 1,
    -- 92: t2new += einsum(t2, (0, 1, 2, 3), t2, (4, 5, 6, 7), v.oovv, (1, 5, 2, 3), (0, 4, 6, 7)) * -0.5
    .add 14 (.ein [(4, [0, 1, 2, 3]), (4, [4, 5, 6, 7]), (8, [1, 5, 2, 3])] [0, 4, 6, 7]) (-1) 2,
    -- 93: t2new += einsum(t2, (0, 1, 2, 3), t2, (4, 5, 6, 7), v.oovv, (4, 5, 3, 7), (0, 1, 2, 6)) * -0.5
    .add 14 (.ein [(4, [0, 1, 2, 3]), (4, [4, 5, 6, 7]), (8, [4, 5, 3, 7])] [0, 1, 2, 6]) (-1) 2,
    -- 94: t2new += einsum(t2, (0, 1, 2, 3), t2, (4, 5, 6, 7), v.oovv, (4, 5, 3, 7), (0, 1, 6, 2)) * 0.5
    .add 14 (.ein [(4, [0, 1, 2, 3]), (4, [4, 5, 6, 7]), (8, [4, 5, 3, 7])] [0, 1, 6, 2]) 1 2,
    -- 95: t2new += einsum(t2, (0, 1, 2, 3), t2, (4, 5, 6, 7), v.oovv, (4, 5, 2, 3), (0, 1, 6, 7)) * 0.25
    .add 14 (.ein [(4, [0, 1, 2, 3]), (4, [4, 5, 6, 7]), (8, [4, 5, 2, 3])] [0, 1, 6, 7]) 1 4,
    -- 96: t2new += einsum(t1, (0, 1), t1, (2, 3), t1, (4, 5), v.ooov, (2, 4, 6, 1), (0, 6, 3, 5)) * -1.0
    .add 14 (.ein [(2, [0, 1]), (2, [2, 3]), (2, [4, 5]), (6, [2, 4, 6, 1])] [0, 6, 3, 5]) (-1) 1,
    -- 97: t2new += einsum(t1, (0, 1), t1, (2, 3), t1, (4, 5), v.ooov, (2, 4, 6, 1), (6, 0, 3, 5))
    .add 14 (.ein [(2, [0, 1]), (2, [2, 3]), (2, [4, 5]), (6, [2, 4, 6, 1])] [6, 0, 3, 5]) 1 1,
    -- 98: t2new += einsum(t1, (0, 1), t1, (2, 3), t1, (4, 5), v.ovvv, (4, 6, 1, 3), (0, 2, 5, 6)) * -1.0
    .add 14 (.ein [(2, [0, 1]), (2, [2, 3]), (2, [4, 5]), (7, [4, 6, 1, 3])] [0, 2, 5, 6]) (-1) 1,
    -- 99: t2new += einsum(t1, (0, 1), t1, (2, 3), t1, (4, 5), v.ovvv, (4, 6, 1, 3), (0, 2, 6, 5))
    .add 14 (.ein [(2, [0, 1]), (2, [2, 3]), (2, [4, 5]), (7, [4, 6, 1, 3])] [0, 2, 6, 5]) 1 1,
    -- 100: t2new += einsum(t1, (0, 1), t1, (2, 3), t2, (4, 5, 6, 7), v.oovv, (4, 5, 1, 3), (0, 2, 6, 7)) * 0.5
    .add 14 (.ein [(2, [0, 1]), (2, [2, 3]), (4, [4, 5, 6, 7]), (8, [4, 5, 1, 3])] [0, 2, 6, 7]) 1 2,
    -- 101: t2new += einsum(t1, (0, 1), t1, (2, 3), t2, (4, 5, 6, 7), v.oovv, (2, 5, 1, 7), (0, 4, 3, 6)) * -1.0
    .add 14 (.ein [(2, [0, 1]), (2, [2, 3]), (4, [4, 5, 6, 7]), (8, [2, 5, 1, 7])] [0, 4, 3, 6]) (-1) 1,
    -- 102: t2new += einsum(t1, (0, 1), t1, (2, 3), t2, (4, 5, 6, 7), v.oovv, (2, 5, 1, 7), (0, 4, 6, 3))
    .add 14 (.ein [(2, [0, 1]), (2, [2, 3]), (4, [4, 5, 6, 7]), (8, [2, 5, 1, 7])] [0, 4, 6, 3]) 1 1,
    -- 103: t2new += einsum(t1, (0, 1), t1, (2, 3), t2, (4, 5, 6, 7), v.oovv, (2, 5, 1, 3), (0, 4, 6, 7)) * -1.0
    .add 14 (.ein [(2, [0, 1]), (2, [2, 3]), (4, [4, 5, 6, 7]), (8, [2, 5, 1, 3])] [0, 4, 6, 7]) (-1) 1,
    -- 104: t2new += einsum(t1, (0, 1), t1, (2, 3), t2, (4, 5, 6, 7), v.oovv, (2, 5, 1, 7), (4, 0, 3, 6))
    .add 14 (.ein [(2, [0, 1]), (2, [2, 3]), (4, [4, 5, 6, 7]), (8, [2, 5, 1, 7])] [4, 0, 3, 6]) 1 1,
    -- 105: t2new += einsum(t1, (0, 1), t1, (2, 3), t2, (4, 5, 6, 7), v.oovv, (2, 5, 1, 7), (4, 0, 6, 3)) * -1.0
    .add 14 (.ein [(2, [0, 1]), (2, [2, 3]), (4, [4, 5, 6, 7]), (8, [2, 5, 1, 7])] [4, 0, 6, 3]) (-1) 1,
    -- 106: t2new += einsum(t1, (0, 1), t1, (2, 3), t2, (4, 5, 6, 7), v.oovv, (2, 5, 1, 3), (4, 0, 6, 7))
    .add 14 (.ein [(2, [0, 1]), (2, [2, 3]), (4, [4, 5, 6, 7]), (8, [2, 5, 1, 3])] [4, 0, 6, 7]) 1 1,
    -- 107: t2new += einsum(t1, (0, 1), t1, (2, 3), t2, (4, 5, 6, 7), v.oovv, (0, 2, 6, 7), (4, 5, 1, 3)) * 0.5
    .add 14 (.ein [(2, [0, 1]), (2, [2, 3]), (4, [4, 5, 6, 7]), (8, [0, 2, 6, 7])] [4, 5, 1, 3]) 1 2,
    -- 108: t2new += einsum(t1, (0, 1), t1, (2, 3), t2, (4, 5, 6, 7), v.oovv, (0, 2, 1, 7), (4, 5, 3, 6))
    .add 14 (.ein [(2, [0, 1]), (2, [2, 3]), (4, [4, 5, 6, 7]), (8, [0, 2, 1, 7])] [4, 5, 3, 6]) 1 1,
    -- 109: t2new += einsum(t1, (0, 1), t1, (2, 3), t2, (4, 5, 6, 7), v.oovv, (0, 2, 1, 7), (4, 5, 6, 3)) * -1.0
    .add 14 (.ein [(2, [0, 1]), (2, [2, 3]), (4, [4, 5, 6, 7]), (8, [0, 2, 1, 7])] [4, 5, 6, 3]) (-1) 1,
    -- 110: t2new += einsum(t1, (0, 1), t1, (2, 3), t1, (4, 5), t1, (6, 7), v.oovv, (4, 6, 1, 3), (0, 2, 5, 7))
    .add 14 (.ein [(2, [0, 1]), (2, [2, 3]), (2, [4, 5]), (2, [6, 7]), (8, [4, 6, 1, 3])] [0, 2, 5, 7]) 1 1
  ]
  ret := [(chars! "t1new", 13), (chars! "t2new", 14)]

end Ebcc.Gen.GCCSDTQ
