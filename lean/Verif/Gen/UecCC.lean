import Verif.Model.GenCode
/-!
Functions of `ebcc/codegen/UecCC.py`, written by `tools/gencode.py`.  Comments give the
number and the text of the line of each statement.
-/

set_option maxRecDepth 100000

namespace Ebcc.Gen.UecCC

/-- codegen/UecCC.py:325-339 `convert_c1_to_t1`. -/
def convert_c1_to_t1 : GenFun where
  args := [chars! "c1.aa", chars! "c1.bb"]
  body := [
    -- 336: t1.aa = np.copy(c1.aa)
    .set 2 (.cp 0) 1 1,
    -- 337: t1.bb = np.copy(c1.bb)
    .set 3 (.cp 1) 1 1
  ]
  ret := [(chars! "t1.aa", 2), (chars! "t1.bb", 3)]

/-- codegen/UecCC.py:924-938 `convert_t1_to_c1`. -/
def convert_t1_to_c1 : GenFun where
  args := [chars! "t1.aa", chars! "t1.bb"]
  body := [
    -- 935: c1.aa = np.copy(t1.aa)
    .set 2 (.cp 0) 1 1,
    -- 936: c1.bb = np.copy(t1.bb)
    .set 3 (.cp 1) 1 1
  ]
  ret := [(chars! "c1.aa", 2), (chars! "c1.bb", 3)]

/-- codegen/UecCC.py:341-362 `convert_c2_to_t2`. -/
def convert_c2_to_t2 : GenFun where
  args := [chars! "c2.aaaa", chars! "t1.aa", chars! "c2.abab", chars! "t1.bb", chars! "c2.bbbb"]
  body := [
    -- 353: t2.aaaa = np.copy(c2.aaaa)
    .set 5 (.cp 0) 1 1,
    -- 354: t2.aaaa += einsum(t1.aa, (0, 1), t1.aa, (2, 3), (2, 0, 3, 1)) * -1
    .add 5 (.ein [(1, [0, 1]), (1, [2, 3])] [2, 0, 3, 1]) (-1) 1,
    -- 355: t2.aaaa += einsum(t1.aa, (0, 1), t1.aa, (2, 3), (2, 0, 1, 3))
    .add 5 (.ein [(1, [0, 1]), (1, [2, 3])] [2, 0, 1, 3]) 1 1,
    -- 356: t2.abab = np.copy(c2.abab)
    .set 6 (.cp 2) 1 1,
    -- 357: t2.abab += einsum(t1.bb, (0, 1), t1.aa, (2, 3), (2, 0, 3, 1)) * -1
    .add 6 (.ein [(3, [0, 1]), (1, [2, 3])] [2, 0, 3, 1]) (-1) 1,
    -- 358: t2.bbbb = np.copy(c2.bbbb)
    .set 7 (.cp 4) 1 1,
    -- 359: t2.bbbb += einsum(t1.bb, (0, 1), t1.bb, (2, 3), (2, 0, 3, 1)) * -1
    .add 7 (.ein [(3, [0, 1]), (3, [2, 3])] [2, 0, 3, 1]) (-1) 1,
    -- 360: t2.bbbb += einsum(t1.bb, (0, 1), t1.bb, (2, 3), (2, 0, 1, 3))
    .add 7 (.ein [(3, [0, 1]), (3, [2, 3])] [2, 0, 1, 3]) 1 1
  ]
  ret := [(chars! "t2.aaaa", 5), (chars! "t2.abab", 6), (chars! "t2.bbbb", 7)]

/-- codegen/UecCC.py:940-961 `convert_t2_to_c2`. -/
def convert_t2_to_c2 : GenFun where
  args := [chars! "t2.aaaa", chars! "t1.aa", chars! "t2.abab", chars! "t1.bb", chars! "t2.bbbb"]
  body := [
    -- 952: c2.aaaa = np.copy(t2.aaaa) * 2
    .set 5 (.cp 0) 2 1,
    -- 953: c2.aaaa += einsum(t1.aa, (0, 1), t1.aa, (2, 3), (2, 0, 1, 3)) * -1
    .add 5 (.ein [(1, [0, 1]), (1, [2, 3])] [2, 0, 1, 3]) (-1) 1,
    -- 954: c2.aaaa += einsum(t1.aa, (0, 1), t1.aa, (2, 3), (2, 0, 3, 1))
    .add 5 (.ein [(1, [0, 1]), (1, [2, 3])] [2, 0, 3, 1]) 1 1,
    -- 955: c2.abab = np.copy(t2.abab)
    .set 6 (.cp 2) 1 1,
    -- 956: c2.abab += einsum(t1.bb, (0, 1), t1.aa, (2, 3), (2, 0, 3, 1))
    .add 6 (.ein [(3, [0, 1]), (1, [2, 3])] [2, 0, 3, 1]) 1 1,
    -- 957: c2.bbbb = np.copy(t2.bbbb) * 2
    .set 7 (.cp 4) 2 1,
    -- 958: c2.bbbb += einsum(t1.bb, (0, 1), t1.bb, (2, 3), (2, 0, 1, 3)) * -1
    .add 7 (.ein [(3, [0, 1]), (3, [2, 3])] [2, 0, 1, 3]) (-1) 1,
    -- 959: c2.bbbb += einsum(t1.bb, (0, 1), t1.bb, (2, 3), (2, 0, 3, 1))
    .add 7 (.ein [(3, [0, 1]), (3, [2, 3])] [2, 0, 3, 1]) 1 1
  ]
  ret := [(chars! "c2.aaaa", 5), (chars! "c2.abab", 6), (chars! "c2.bbbb", 7)]

/-- codegen/UecCC.py:364-430 `convert_c3_to_t3`. -/
def convert_c3_to_t3 : GenFun where
  args := [chars! "c3.aaaaaa", chars! "t2.aaaa", chars! "t1.aa", chars! "c3.abaaba", chars! "t2.abab", chars! "t1.bb", chars! "c3.bbbbbb", chars! "t2.bbbb", chars! "c3.babbab"]
  body := [
    -- 377: t3.aaaaaa = np.copy(c3.aaaaaa) * 0.5
    .set 9 (.cp 0) 1 2,
    -- 378: t3.aaaaaa += c3.aaaaaa * 0.5
    .add 9 (.cp 0) 1 2,
    -- 379: t3.aaaaaa += einsum(t2.aaaa, (0, 1, 2, 3), t1.aa, (4, 5), (4, 0, 1, 5, 2, 3)) * -1
    .add 9 (.ein [(1, [0, 1, 2, 3]), (2, [4, 5])] [4, 0, 1, 5, 2, 3]) (-1) 1,
    -- 380: t3.aaaaaa += einsum(t2.aaaa, (0, 1, 2, 3), t1.aa, (4, 5), (4, 0, 1, 2, 5, 3))
    .add 9 (.ein [(1, [0, 1, 2, 3]), (2, [4, 5])] [4, 0, 1, 2, 5, 3]) 1 1,
    -- 381: t3.aaaaaa += einsum(t2.aaaa, (0, 1, 2, 3), t1.aa, (4, 5), (4, 0, 1, 2, 3, 5)) * -1
    .add 9 (.ein [(1, [0, 1, 2, 3]), (2, [4, 5])] [4, 0, 1, 2, 3, 5]) (-1) 1,
    -- 382: t3.aaaaaa += einsum(t1.aa, (0, 1), t2.aaaa, (2, 3, 4, 5), (2, 0, 3, 1, 4, 5))
    .add 9 (.ein [(2, [0, 1]), (1, [2, 3, 4, 5])] [2, 0, 3, 1, 4, 5]) 1 1,
    -- 383: t3.aaaaaa += einsum(t1.aa, (0, 1), t2.aaaa, (2, 3, 4, 5), (2, 0, 3, 4, 1, 5)) * -1
    .add 9 (.ein [(2, [0, 1]), (1, [2, 3, 4, 5])] [2, 0, 3, 4, 1, 5]) (-1) 1,
    -- 384: t3.aaaaaa += einsum(t1.aa, (0, 1), t2.aaaa, (2, 3, 4, 5), (2, 0, 3, 4, 5, 1))
    .add 9 (.ein [(2, [0, 1]), (1, [2, 3, 4, 5])] [2, 0, 3, 4, 5, 1]) 1 1,
    -- 385: t3.aaaaaa += einsum(t2.aaaa, (0, 1, 2, 3), t1.aa, (4, 5), (0, 1, 4, 5, 2, 3)) * -1
    .add 9 (.ein [(1, [0, 1, 2, 3]), (2, [4, 5])] [0, 1, 4, 5, 2, 3]) (-1) 1,
    -- 386: t3.aaaaaa += einsum(t1.aa, (0, 1), t2.aaaa, (2, 3, 4, 5), (2, 3, 0, 4, 1, 5))
    .add 9 (.ein [(2, [0, 1]), (1, [2, 3, 4, 5])] [2, 3, 0, 4, 1, 5]) 1 1,
    -- 387: t3.aaaaaa += einsum(t2.aaaa, (0, 1, 2, 3), t1.aa, (4, 5), (0, 1, 4, 2, 3, 5)) * -1
    .add 9 (.ein [(1, [0, 1, 2, 3]), (2, [4, 5])] [0, 1, 4, 2, 3, 5]) (-1) 1,
    -- 388: t3.aaaaaa += einsum(t1.aa, (0, 1), t1.aa, (2, 3), t1.aa, (4, 5), (2, 0, 4, 3, 1, 5)) * -1
    .add 9 (.ein [(2, [0, 1]), (2, [2, 3]), (2, [4, 5])] [2, 0, 4, 3, 1, 5]) (-1) 1,
    -- 389: t3.aaaaaa += einsum(t1.aa, (0, 1), t1.aa, (2, 3), t1.aa, (4, 5), (2, 4, 0, 3, 1, 5))
    .add 9 (.ein [(2, [0, 1]), (2, [2, 3]), (2, [4, 5])] [2, 4, 0, 3, 1, 5]) 1 1,
    -- 390: t3.aaaaaa += einsum(t1.aa, (0, 1), t1.aa, (2, 3), t1.aa, (4, 5), (4, 0, 2, 1, 5, 3))
    .add 9 (.ein [(2, [0, 1]), (2, [2, 3]), (2, [4, 5])] [4, 0, 2, 1, 5, 3]) 1 1,
    -- 391: t3.aaaaaa += einsum(t1.aa, (0, 1), t1.aa, (2, 3), t1.aa, (4, 5), (4, 2, 0, 1, 5, 3)) * -1
    .add 9 (.ein [(2, [0, 1]), (2, [2, 3]), (2, [4, 5])] [4, 2, 0, 1, 5, 3]) (-1) 1,
    -- 392: t3.aaaaaa += einsum(t1.aa, (0, 1), t1.aa, (2, 3), t1.aa, (4, 5), (0, 4, 2, 5, 3, 1)) * -1
    .add 9 (.ein [(2, [0, 1]), (2, [2, 3]), (2, [4, 5])] [0, 4, 2, 5, 3, 1]) (-1) 1,
    -- 393: t3.aaaaaa += einsum(t1.aa, (0, 1), t1.aa, (2, 3), t1.aa, (4, 5), (2, 0, 4, 5, 1, 3))
    .add 9 (.ein [(2, [0, 1]), (2, [2, 3]), (2, [4, 5])] [2, 0, 4, 5, 1, 3]) 1 1,
    -- 394: t3.abaaba = np.copy(c3.abaaba) * 0.5
    .set 10 (.cp 3) 1 2,
    -- 395: t3.abaaba += c3.abaaba * 0.5
    .add 10 (.cp 3) 1 2,
    -- 396: t3.abaaba += einsum(t1.aa, (0, 1), t2.abab, (2, 3, 4, 5), (0, 3, 2, 1, 5, 4)) * -1
    .add 10 (.ein [(2, [0, 1]), (4, [2, 3, 4, 5])] [0, 3, 2, 1, 5, 4]) (-1) 1,
    -- 397: t3.abaaba += einsum(t2.abab, (0, 1, 2, 3), t1.aa, (4, 5), (4, 1, 0, 2, 3, 5))
    .add 10 (.ein [(4, [0, 1, 2, 3]), (2, [4, 5])] [4, 1, 0, 2, 3, 5]) 1 1,
    -- 398: t3.abaaba += einsum(t1.bb, (0, 1), t2.aaaa, (2, 3, 4, 5), (2, 0, 3, 4, 1, 5)) * -1
    .add 10 (.ein [(5, [0, 1]), (1, [2, 3, 4, 5])] [2, 0, 3, 4, 1, 5]) (-1) 1,
    -- 399: t3.abaaba += einsum(t2.abab, (0, 1, 2, 3), t1.aa, (4, 5), (0, 1, 4, 5, 3, 2))
    .add 10 (.ein [(4, [0, 1, 2, 3]), (2, [4, 5])] [0, 1, 4, 5, 3, 2]) 1 1,
    -- 400: t3.abaaba += einsum(t1.aa, (0, 1), t2.abab, (2, 3, 4, 5), (2, 3, 0, 4, 5, 1)) * -1
    .add 10 (.ein [(2, [0, 1]), (4, [2, 3, 4, 5])] [2, 3, 0, 4, 5, 1]) (-1) 1,
    -- 401: t3.abaaba += einsum(t1.aa, (0, 1), t1.bb, (2, 3), t1.aa, (4, 5), (4, 2, 0, 5, 3, 1)) * -1
    .add 10 (.ein [(2, [0, 1]), (5, [2, 3]), (2, [4, 5])] [4, 2, 0, 5, 3, 1]) (-1) 1,
    -- 402: t3.abaaba += einsum(t1.bb, (0, 1), t1.aa, (2, 3), t1.aa, (4, 5), (4, 0, 2, 3, 1, 5))
    .add 10 (.ein [(5, [0, 1]), (2, [2, 3]), (2, [4, 5])] [4, 0, 2, 3, 1, 5]) 1 1,
    -- 403: t3.bbbbbb = np.copy(c3.bbbbbb) * 0.5
    .set 11 (.cp 6) 1 2,
    -- 404: t3.bbbbbb += c3.bbbbbb * 0.5
    .add 11 (.cp 6) 1 2,
    -- 405: t3.bbbbbb += einsum(t2.bbbb, (0, 1, 2, 3), t1.bb, (4, 5), (4, 0, 1, 5, 2, 3)) * -1
    .add 11 (.ein [(7, [0, 1, 2, 3]), (5, [4, 5])] [4, 0, 1, 5, 2, 3]) (-1) 1,
    -- 406: t3.bbbbbb += einsum(t2.bbbb, (0, 1, 2, 3), t1.bb, (4, 5), (4, 0, 1, 2, 5, 3))
    .add 11 (.ein [(7, [0, 1, 2, 3]), (5, [4, 5])] [4, 0, 1, 2, 5, 3]) 1 1,
    -- 407: t3.bbbbbb += einsum(t1.bb, (0, 1), t2.bbbb, (2, 3, 4, 5), (0, 2, 3, 4, 5, 1)) * -1
    .add 11 (.ein [(5, [0, 1]), (7, [2, 3, 4, 5])] [0, 2, 3, 4, 5, 1]) (-1) 1,
    -- 408: t3.bbbbbb += einsum(t1.bb, (0, 1), t2.bbbb, (2, 3, 4, 5), (2, 0, 3, 1, 4, 5))
    .add 11 (.ein [(5, [0, 1]), (7, [2, 3, 4, 5])] [2, 0, 3, 1, 4, 5]) 1 1,
    -- 409: t3.bbbbbb += einsum(t2.bbbb, (0, 1, 2, 3), t1.bb, (4, 5), (0, 4, 1, 2, 5, 3)) * -1
    .add 11 (.ein [(7, [0, 1, 2, 3]), (5, [4, 5])] [0, 4, 1, 2, 5, 3]) (-1) 1,
    -- 410: t3.bbbbbb += einsum(t1.bb, (0, 1), t2.bbbb, (2, 3, 4, 5), (2, 0, 3, 4, 5, 1))
    .add 11 (.ein [(5, [0, 1]), (7, [2, 3, 4, 5])] [2, 0, 3, 4, 5, 1]) 1 1,
    -- 411: t3.bbbbbb += einsum(t2.bbbb, (0, 1, 2, 3), t1.bb, (4, 5), (0, 1, 4, 5, 2, 3)) * -1
    .add 11 (.ein [(7, [0, 1, 2, 3]), (5, [4, 5])] [0, 1, 4, 5, 2, 3]) (-1) 1,
    -- 412: t3.bbbbbb += einsum(t1.bb, (0, 1), t2.bbbb, (2, 3, 4, 5), (2, 3, 0, 4, 1, 5))
    .add 11 (.ein [(5, [0, 1]), (7, [2, 3, 4, 5])] [2, 3, 0, 4, 1, 5]) 1 1,
    -- 413: t3.bbbbbb += einsum(t2.bbbb, (0, 1, 2, 3), t1.bb, (4, 5), (0, 1, 4, 2, 3, 5)) * -1
    .add 11 (.ein [(7, [0, 1, 2, 3]), (5, [4, 5])] [0, 1, 4, 2, 3, 5]) (-1) 1,
    -- 414: t3.bbbbbb += einsum(t1.bb, (0, 1), t1.bb, (2, 3), t1.bb, (4, 5), (4, 0, 2, 5, 1, 3)) * -1
    .add 11 (.ein [(5, [0, 1]), (5, [2, 3]), (5, [4, 5])] [4, 0, 2, 5, 1, 3]) (-1) 1,
    -- 415: t3.bbbbbb += einsum(t1.bb, (0, 1), t1.bb, (2, 3), t1.bb, (4, 5), (4, 0, 2, 5, 3, 1))
    .add 11 (.ein [(5, [0, 1]), (5, [2, 3]), (5, [4, 5])] [4, 0, 2, 5, 3, 1]) 1 1,
    -- 416: t3.bbbbbb += einsum(t1.bb, (0, 1), t1.bb, (2, 3), t1.bb, (4, 5), (2, 0, 4, 1, 3, 5))
    .add 11 (.ein [(5, [0, 1]), (5, [2, 3]), (5, [4, 5])] [2, 0, 4, 1, 3, 5]) 1 1,
    -- 417: t3.bbbbbb += einsum(t1.bb, (0, 1), t1.bb, (2, 3), t1.bb, (4, 5), (4, 0, 2, 3, 5, 1)) * -1
    .add 11 (.ein [(5, [0, 1]), (5, [2, 3]), (5, [4, 5])] [4, 0, 2, 3, 5, 1]) (-1) 1,
    -- 418: t3.bbbbbb += einsum(t1.bb, (0, 1), t1.bb, (2, 3), t1.bb, (4, 5), (2, 0, 4, 1, 5, 3)) * -1
    .add 11 (.ein [(5, [0, 1]), (5, [2, 3]), (5, [4, 5])] [2, 0, 4, 1, 5, 3]) (-1) 1,
    -- 419: t3.bbbbbb += einsum(t1.bb, (0, 1), t1.bb, (2, 3), t1.bb, (4, 5), (4, 0, 2, 3, 1, 5))
    .add 11 (.ein [(5, [0, 1]), (5, [2, 3]), (5, [4, 5])] [4, 0, 2, 3, 1, 5]) 1 1,
    -- 420: t3.babbab = np.copy(c3.babbab) * 0.5
    .set 12 (.cp 8) 1 2,
    -- 421: t3.babbab += c3.babbab * 0.5
    .add 12 (.cp 8) 1 2,
    -- 422: t3.babbab += einsum(t2.abab, (0, 1, 2, 3), t1.bb, (4, 5), (4, 0, 1, 5, 2, 3)) * -1
    .add 12 (.ein [(4, [0, 1, 2, 3]), (5, [4, 5])] [4, 0, 1, 5, 2, 3]) (-1) 1,
    -- 423: t3.babbab += einsum(t2.abab, (0, 1, 2, 3), t1.bb, (4, 5), (4, 0, 1, 3, 2, 5))
    .add 12 (.ein [(4, [0, 1, 2, 3]), (5, [4, 5])] [4, 0, 1, 3, 2, 5]) 1 1,
    -- 424: t3.babbab += einsum(t2.bbbb, (0, 1, 2, 3), t1.aa, (4, 5), (0, 4, 1, 2, 5, 3)) * -1
    .add 12 (.ein [(7, [0, 1, 2, 3]), (2, [4, 5])] [0, 4, 1, 2, 5, 3]) (-1) 1,
    -- 425: t3.babbab += einsum(t1.bb, (0, 1), t2.abab, (2, 3, 4, 5), (3, 2, 0, 1, 4, 5))
    .add 12 (.ein [(5, [0, 1]), (4, [2, 3, 4, 5])] [3, 2, 0, 1, 4, 5]) 1 1,
    -- 426: t3.babbab += einsum(t1.bb, (0, 1), t2.abab, (2, 3, 4, 5), (3, 2, 0, 5, 4, 1)) * -1
    .add 12 (.ein [(5, [0, 1]), (4, [2, 3, 4, 5])] [3, 2, 0, 5, 4, 1]) (-1) 1,
    -- 427: t3.babbab += einsum(t1.bb, (0, 1), t1.bb, (2, 3), t1.aa, (4, 5), (2, 4, 0, 3, 5, 1)) * -1
    .add 12 (.ein [(5, [0, 1]), (5, [2, 3]), (2, [4, 5])] [2, 4, 0, 3, 5, 1]) (-1) 1,
    -- 428: t3.babbab += einsum(t1.bb, (0, 1), t1.bb, (2, 3), t1.aa, (4, 5), (2, 4, 0, 1, 5, 3))
    .add 12 (.ein [(5, [0, 1]), (5, [2, 3]), (2, [4, 5])] [2, 4, 0, 1, 5, 3]) 1 1
  ]
  ret := [(chars! "t3.aaaaaa", 9), (chars! "t3.abaaba", 10), (chars! "t3.bbbbbb", 11), (chars! "t3.babbab", 12)]

/-- codegen/UecCC.py:963-1029 `convert_t3_to_c3`. -/
def convert_t3_to_c3 : GenFun where
  args := [chars! "t3.aaaaaa", chars! "t2.aaaa", chars! "t1.aa", chars! "t3.abaaba", chars! "t2.abab", chars! "t1.bb", chars! "t3.bbbbbb", chars! "t2.bbbb", chars! "t3.babbab"]
  body := [
    -- 976: c3.aaaaaa = np.copy(t3.aaaaaa) * 3
    .set 9 (.cp 0) 3 1,
    -- 977: c3.aaaaaa += t3.aaaaaa * 3
    .add 9 (.cp 0) 3 1,
    -- 978: c3.aaaaaa += einsum(t2.aaaa, (0, 1, 2, 3), t1.aa, (4, 5), (0, 1, 4, 5, 2, 3)) * 2
    .add 9 (.ein [(1, [0, 1, 2, 3]), (2, [4, 5])] [0, 1, 4, 5, 2, 3]) 2 1,
    -- 979: c3.aaaaaa += einsum(t1.aa, (0, 1), t2.aaaa, (2, 3, 4, 5), (2, 0, 3, 1, 4, 5)) * -2
    .add 9 (.ein [(2, [0, 1]), (1, [2, 3, 4, 5])] [2, 0, 3, 1, 4, 5]) (-2) 1,
    -- 980: c3.aaaaaa += einsum(t1.aa, (0, 1), t2.aaaa, (2, 3, 4, 5), (2, 3, 0, 4, 1, 5)) * -2
    .add 9 (.ein [(2, [0, 1]), (1, [2, 3, 4, 5])] [2, 3, 0, 4, 1, 5]) (-2) 1,
    -- 981: c3.aaaaaa += einsum(t1.aa, (0, 1), t2.aaaa, (2, 3, 4, 5), (2, 0, 3, 4, 1, 5)) * 2
    .add 9 (.ein [(2, [0, 1]), (1, [2, 3, 4, 5])] [2, 0, 3, 4, 1, 5]) 2 1,
    -- 982: c3.aaaaaa += einsum(t2.aaaa, (0, 1, 2, 3), t1.aa, (4, 5), (4, 0, 1, 5, 2, 3)) * 2
    .add 9 (.ein [(1, [0, 1, 2, 3]), (2, [4, 5])] [4, 0, 1, 5, 2, 3]) 2 1,
    -- 983: c3.aaaaaa += einsum(t2.aaaa, (0, 1, 2, 3), t1.aa, (4, 5), (4, 0, 1, 2, 5, 3)) * -2
    .add 9 (.ein [(1, [0, 1, 2, 3]), (2, [4, 5])] [4, 0, 1, 2, 5, 3]) (-2) 1,
    -- 984: c3.aaaaaa += einsum(t2.aaaa, (0, 1, 2, 3), t1.aa, (4, 5), (0, 1, 4, 2, 3, 5)) * 2
    .add 9 (.ein [(1, [0, 1, 2, 3]), (2, [4, 5])] [0, 1, 4, 2, 3, 5]) 2 1,
    -- 985: c3.aaaaaa += einsum(t1.aa, (0, 1), t2.aaaa, (2, 3, 4, 5), (2, 0, 3, 4, 5, 1)) * -2
    .add 9 (.ein [(2, [0, 1]), (1, [2, 3, 4, 5])] [2, 0, 3, 4, 5, 1]) (-2) 1,
    -- 986: c3.aaaaaa += einsum(t2.aaaa, (0, 1, 2, 3), t1.aa, (4, 5), (4, 0, 1, 2, 3, 5)) * 2
    .add 9 (.ein [(1, [0, 1, 2, 3]), (2, [4, 5])] [4, 0, 1, 2, 3, 5]) 2 1,
    -- 987: c3.aaaaaa += einsum(t1.aa, (0, 1), t1.aa, (2, 3), t1.aa, (4, 5), (2, 0, 4, 5, 1, 3)) * -1
    .add 9 (.ein [(2, [0, 1]), (2, [2, 3]), (2, [4, 5])] [2, 0, 4, 5, 1, 3]) (-1) 1,
    -- 988: c3.aaaaaa += einsum(t1.aa, (0, 1), t1.aa, (2, 3), t1.aa, (4, 5), (4, 2, 0, 1, 5, 3))
    .add 9 (.ein [(2, [0, 1]), (2, [2, 3]), (2, [4, 5])] [4, 2, 0, 1, 5, 3]) 1 1,
    -- 989: c3.aaaaaa += einsum(t1.aa, (0, 1), t1.aa, (2, 3), t1.aa, (4, 5), (0, 4, 2, 5, 3, 1))
    .add 9 (.ein [(2, [0, 1]), (2, [2, 3]), (2, [4, 5])] [0, 4, 2, 5, 3, 1]) 1 1,
    -- 990: c3.aaaaaa += einsum(t1.aa, (0, 1), t1.aa, (2, 3), t1.aa, (4, 5), (4, 0, 2, 1, 5, 3)) * -1
    .add 9 (.ein [(2, [0, 1]), (2, [2, 3]), (2, [4, 5])] [4, 0, 2, 1, 5, 3]) (-1) 1,
    -- 991: c3.aaaaaa += einsum(t1.aa, (0, 1), t1.aa, (2, 3), t1.aa, (4, 5), (2, 4, 0, 3, 1, 5)) * -1
    .add 9 (.ein [(2, [0, 1]), (2, [2, 3]), (2, [4, 5])] [2, 4, 0, 3, 1, 5]) (-1) 1,
    -- 992: c3.aaaaaa += einsum(t1.aa, (0, 1), t1.aa, (2, 3), t1.aa, (4, 5), (2, 0, 4, 3, 1, 5))
    .add 9 (.ein [(2, [0, 1]), (2, [2, 3]), (2, [4, 5])] [2, 0, 4, 3, 1, 5]) 1 1,
    -- 993: c3.abaaba = np.copy(t3.abaaba)
    .set 10 (.cp 3) 1 1,
    -- 994: c3.abaaba += t3.abaaba
    .add 10 (.cp 3) 1 1,
    -- 995: c3.abaaba += einsum(t2.abab, (0, 1, 2, 3), t1.aa, (4, 5), (0, 1, 4, 5, 3, 2)) * -1
    .add 10 (.ein [(4, [0, 1, 2, 3]), (2, [4, 5])] [0, 1, 4, 5, 3, 2]) (-1) 1,
    -- 996: c3.abaaba += einsum(t1.bb, (0, 1), t2.aaaa, (2, 3, 4, 5), (2, 0, 3, 4, 1, 5)) * 2
    .add 10 (.ein [(5, [0, 1]), (1, [2, 3, 4, 5])] [2, 0, 3, 4, 1, 5]) 2 1,
    -- 997: c3.abaaba += einsum(t1.aa, (0, 1), t2.abab, (2, 3, 4, 5), (0, 3, 2, 1, 5, 4))
    .add 10 (.ein [(2, [0, 1]), (4, [2, 3, 4, 5])] [0, 3, 2, 1, 5, 4]) 1 1,
    -- 998: c3.abaaba += einsum(t1.aa, (0, 1), t2.abab, (2, 3, 4, 5), (2, 3, 0, 4, 5, 1))
    .add 10 (.ein [(2, [0, 1]), (4, [2, 3, 4, 5])] [2, 3, 0, 4, 5, 1]) 1 1,
    -- 999: c3.abaaba += einsum(t2.abab, (0, 1, 2, 3), t1.aa, (4, 5), (4, 1, 0, 2, 3, 5)) * -1
    .add 10 (.ein [(4, [0, 1, 2, 3]), (2, [4, 5])] [4, 1, 0, 2, 3, 5]) (-1) 1,
    -- 1000: c3.abaaba += einsum(t1.bb, (0, 1), t1.aa, (2, 3), t1.aa, (4, 5), (4, 0, 2, 3, 1, 5)) * -1
    .add 10 (.ein [(5, [0, 1]), (2, [2, 3]), (2, [4, 5])] [4, 0, 2, 3, 1, 5]) (-1) 1,
    -- 1001: c3.abaaba += einsum(t1.aa, (0, 1), t1.bb, (2, 3), t1.aa, (4, 5), (4, 2, 0, 5, 3, 1))
    .add 10 (.ein [(2, [0, 1]), (5, [2, 3]), (2, [4, 5])] [4, 2, 0, 5, 3, 1]) 1 1,
    -- 1002: c3.bbbbbb = np.copy(t3.bbbbbb) * 3
    .set 11 (.cp 6) 3 1,
    -- 1003: c3.bbbbbb += t3.bbbbbb * 3
    .add 11 (.cp 6) 3 1,
    -- 1004: c3.bbbbbb += einsum(t2.bbbb, (0, 1, 2, 3), t1.bb, (4, 5), (0, 1, 4, 5, 2, 3)) * 2
    .add 11 (.ein [(7, [0, 1, 2, 3]), (5, [4, 5])] [0, 1, 4, 5, 2, 3]) 2 1,
    -- 1005: c3.bbbbbb += einsum(t1.bb, (0, 1), t2.bbbb, (2, 3, 4, 5), (2, 0, 3, 1, 4, 5)) * -2
    .add 11 (.ein [(5, [0, 1]), (7, [2, 3, 4, 5])] [2, 0, 3, 1, 4, 5]) (-2) 1,
    -- 1006: c3.bbbbbb += einsum(t1.bb, (0, 1), t2.bbbb, (2, 3, 4, 5), (2, 3, 0, 4, 1, 5)) * -2
    .add 11 (.ein [(5, [0, 1]), (7, [2, 3, 4, 5])] [2, 3, 0, 4, 1, 5]) (-2) 1,
    -- 1007: c3.bbbbbb += einsum(t2.bbbb, (0, 1, 2, 3), t1.bb, (4, 5), (0, 4, 1, 2, 5, 3)) * 2
    .add 11 (.ein [(7, [0, 1, 2, 3]), (5, [4, 5])] [0, 4, 1, 2, 5, 3]) 2 1,
    -- 1008: c3.bbbbbb += einsum(t2.bbbb, (0, 1, 2, 3), t1.bb, (4, 5), (4, 0, 1, 5, 2, 3)) * 2
    .add 11 (.ein [(7, [0, 1, 2, 3]), (5, [4, 5])] [4, 0, 1, 5, 2, 3]) 2 1,
    -- 1009: c3.bbbbbb += einsum(t2.bbbb, (0, 1, 2, 3), t1.bb, (4, 5), (4, 0, 1, 2, 5, 3)) * -2
    .add 11 (.ein [(7, [0, 1, 2, 3]), (5, [4, 5])] [4, 0, 1, 2, 5, 3]) (-2) 1,
    -- 1010: c3.bbbbbb += einsum(t2.bbbb, (0, 1, 2, 3), t1.bb, (4, 5), (0, 1, 4, 2, 3, 5)) * 2
    .add 11 (.ein [(7, [0, 1, 2, 3]), (5, [4, 5])] [0, 1, 4, 2, 3, 5]) 2 1,
    -- 1011: c3.bbbbbb += einsum(t1.bb, (0, 1), t2.bbbb, (2, 3, 4, 5), (2, 0, 3, 4, 5, 1)) * -2
    .add 11 (.ein [(5, [0, 1]), (7, [2, 3, 4, 5])] [2, 0, 3, 4, 5, 1]) (-2) 1,
    -- 1012: c3.bbbbbb += einsum(t1.bb, (0, 1), t2.bbbb, (2, 3, 4, 5), (0, 2, 3, 4, 5, 1)) * 2
    .add 11 (.ein [(5, [0, 1]), (7, [2, 3, 4, 5])] [0, 2, 3, 4, 5, 1]) 2 1,
    -- 1013: c3.bbbbbb += einsum(t1.bb, (0, 1), t1.bb, (2, 3), t1.bb, (4, 5), (4, 0, 2, 3, 1, 5)) * -1
    .add 11 (.ein [(5, [0, 1]), (5, [2, 3]), (5, [4, 5])] [4, 0, 2, 3, 1, 5]) (-1) 1,
    -- 1014: c3.bbbbbb += einsum(t1.bb, (0, 1), t1.bb, (2, 3), t1.bb, (4, 5), (4, 0, 2, 3, 5, 1))
    .add 11 (.ein [(5, [0, 1]), (5, [2, 3]), (5, [4, 5])] [4, 0, 2, 3, 5, 1]) 1 1,
    -- 1015: c3.bbbbbb += einsum(t1.bb, (0, 1), t1.bb, (2, 3), t1.bb, (4, 5), (2, 0, 4, 1, 5, 3))
    .add 11 (.ein [(5, [0, 1]), (5, [2, 3]), (5, [4, 5])] [2, 0, 4, 1, 5, 3]) 1 1,
    -- 1016: c3.bbbbbb += einsum(t1.bb, (0, 1), t1.bb, (2, 3), t1.bb, (4, 5), (2, 0, 4, 1, 3, 5)) * -1
    .add 11 (.ein [(5, [0, 1]), (5, [2, 3]), (5, [4, 5])] [2, 0, 4, 1, 3, 5]) (-1) 1,
    -- 1017: c3.bbbbbb += einsum(t1.bb, (0, 1), t1.bb, (2, 3), t1.bb, (4, 5), (4, 0, 2, 5, 3, 1)) * -1
    .add 11 (.ein [(5, [0, 1]), (5, [2, 3]), (5, [4, 5])] [4, 0, 2, 5, 3, 1]) (-1) 1,
    -- 1018: c3.bbbbbb += einsum(t1.bb, (0, 1), t1.bb, (2, 3), t1.bb, (4, 5), (4, 0, 2, 5, 1, 3))
    .add 11 (.ein [(5, [0, 1]), (5, [2, 3]), (5, [4, 5])] [4, 0, 2, 5, 1, 3]) 1 1,
    -- 1019: c3.babbab = np.copy(t3.babbab)
    .set 12 (.cp 8) 1 1,
    -- 1020: c3.babbab += t3.babbab
    .add 12 (.cp 8) 1 1,
    -- 1021: c3.babbab += einsum(t1.bb, (0, 1), t2.abab, (2, 3, 4, 5), (3, 2, 0, 1, 4, 5)) * -1
    .add 12 (.ein [(5, [0, 1]), (4, [2, 3, 4, 5])] [3, 2, 0, 1, 4, 5]) (-1) 1,
    -- 1022: c3.babbab += einsum(t2.bbbb, (0, 1, 2, 3), t1.aa, (4, 5), (0, 4, 1, 2, 5, 3)) * 2
    .add 12 (.ein [(7, [0, 1, 2, 3]), (2, [4, 5])] [0, 4, 1, 2, 5, 3]) 2 1,
    -- 1023: c3.babbab += einsum(t2.abab, (0, 1, 2, 3), t1.bb, (4, 5), (4, 0, 1, 5, 2, 3))
    .add 12 (.ein [(4, [0, 1, 2, 3]), (5, [4, 5])] [4, 0, 1, 5, 2, 3]) 1 1,
    -- 1024: c3.babbab += einsum(t1.bb, (0, 1), t2.abab, (2, 3, 4, 5), (3, 2, 0, 5, 4, 1))
    .add 12 (.ein [(5, [0, 1]), (4, [2, 3, 4, 5])] [3, 2, 0, 5, 4, 1]) 1 1,
    -- 1025: c3.babbab += einsum(t2.abab, (0, 1, 2, 3), t1.bb, (4, 5), (4, 0, 1, 3, 2, 5)) * -1
    .add 12 (.ein [(4, [0, 1, 2, 3]), (5, [4, 5])] [4, 0, 1, 3, 2, 5]) (-1) 1,
    -- 1026: c3.babbab += einsum(t1.bb, (0, 1), t1.bb, (2, 3), t1.aa, (4, 5), (2, 4, 0, 1, 5, 3)) * -1
    .add 12 (.ein [(5, [0, 1]), (5, [2, 3]), (2, [4, 5])] [2, 4, 0, 1, 5, 3]) (-1) 1,
    -- 1027: c3.babbab += einsum(t1.bb, (0, 1), t1.bb, (2, 3), t1.aa, (4, 5), (2, 4, 0, 3, 5, 1))
    .add 12 (.ein [(5, [0, 1]), (5, [2, 3]), (2, [4, 5])] [2, 4, 0, 3, 5, 1]) 1 1
  ]
  ret := [(chars! "c3.aaaaaa", 9), (chars! "c3.abaaba", 10), (chars! "c3.bbbbbb", 11), (chars! "c3.babbab", 12)]

/-- codegen/UecCC.py:432-922 `convert_c4_to_t4`. -/
def convert_c4_to_t4 : GenFun where
  args := [chars! "c4.aaaaaaaa", chars! "t3.aaaaaa", chars! "t1.aa", chars! "t2.aaaa", chars! "c4.aaabaaab", chars! "t3.abaaba", chars! "t1.bb", chars! "t2.abab", chars! "c4.bbbbbbbb", chars! "t3.bbbbbb", chars! "t2.bbbb", chars! "c4.abababab", chars! "t3.babbab", chars! "c4.abbbabbb"]
  body := [
    -- 446: t4.aaaaaaaa = np.copy(np.transpose(c4.aaaaaaaa, (0, 1, 2, 3, 4, 5, 7, 6))) * -0.5
    .set 14 (.tr 0 [0, 1, 2, 3, 4, 5, 7, 6]) (-1) 2,
    -- 447: t4.aaaaaaaa += np.transpose(c4.aaaaaaaa, (0, 1, 2, 3, 4, 5, 7, 6)) * -0.5
    .add 14 (.tr 0 [0, 1, 2, 3, 4, 5, 7, 6]) (-1) 2,
    -- 448: t4.aaaaaaaa += einsum(t3.aaaaaa, (0, 1, 2, 3, 4, 5), t1.aa, (6, 7), (6, 0, 1, 2, 7, 3, 4, 5)) * -0.5
    .add 14 (.ein [(1, [0, 1, 2, 3, 4, 5]), (2, [6, 7])] [6, 0, 1, 2, 7, 3, 4, 5]) (-1) 2,
    -- 449: t4.aaaaaaaa += einsum(t3.aaaaaa, (0, 1, 2, 3, 4, 5), t1.aa, (6, 7), (6, 0, 1, 2, 7, 3, 4, 5)) * -0.5
    .add 14 (.ein [(1, [0, 1, 2, 3, 4, 5]), (2, [6, 7])] [6, 0, 1, 2, 7, 3, 4, 5]) (-1) 2,
    -- 450: t4.aaaaaaaa += einsum(t3.aaaaaa, (0, 1, 2, 3, 4, 5), t1.aa, (6, 7), (6, 0, 1, 2, 3, 7, 4, 5)) * 0.5
    .add 14 (.ein [(1, [0, 1, 2, 3, 4, 5]), (2, [6, 7])] [6, 0, 1, 2, 3, 7, 4, 5]) 1 2,
    -- 451: t4.aaaaaaaa += einsum(t3.aaaaaa, (0, 1, 2, 3, 4, 5), t1.aa, (6, 7), (6, 0, 1, 2, 3, 7, 4, 5)) * 0.5
    .add 14 (.ein [(1, [0, 1, 2, 3, 4, 5]), (2, [6, 7])] [6, 0, 1, 2, 3, 7, 4, 5]) 1 2,
    -- 452: t4.aaaaaaaa += einsum(t3.aaaaaa, (0, 1, 2, 3, 4, 5), t1.aa, (6, 7), (6, 0, 1, 2, 3, 4, 7, 5)) * -0.5
    .add 14 (.ein [(1, [0, 1, 2, 3, 4, 5]), (2, [6, 7])] [6, 0, 1, 2, 3, 4, 7, 5]) (-1) 2,
    -- 453: t4.aaaaaaaa += einsum(t3.aaaaaa, (0, 1, 2, 3, 4, 5), t1.aa, (6, 7), (6, 0, 1, 2, 3, 4, 7, 5)) * -0.5
    .add 14 (.ein [(1, [0, 1, 2, 3, 4, 5]), (2, [6, 7])] [6, 0, 1, 2, 3, 4, 7, 5]) (-1) 2,
    -- 454: t4.aaaaaaaa += einsum(t3.aaaaaa, (0, 1, 2, 3, 4, 5), t1.aa, (6, 7), (6, 0, 1, 2, 3, 4, 5, 7)) * 0.5
    .add 14 (.ein [(1, [0, 1, 2, 3, 4, 5]), (2, [6, 7])] [6, 0, 1, 2, 3, 4, 5, 7]) 1 2,
    -- 455: t4.aaaaaaaa += einsum(t3.aaaaaa, (0, 1, 2, 3, 4, 5), t1.aa, (6, 7), (6, 0, 1, 2, 3, 4, 5, 7)) * 0.5
    .add 14 (.ein [(1, [0, 1, 2, 3, 4, 5]), (2, [6, 7])] [6, 0, 1, 2, 3, 4, 5, 7]) 1 2,
    -- 456: t4.aaaaaaaa += einsum(t3.aaaaaa, (0, 1, 2, 3, 4, 5), t1.aa, (6, 7), (0, 6, 1, 2, 7, 3, 4, 5)) * 0.5
    .add 14 (.ein [(1, [0, 1, 2, 3, 4, 5]), (2, [6, 7])] [0, 6, 1, 2, 7, 3, 4, 5]) 1 2,
    -- 457: t4.aaaaaaaa += einsum(t3.aaaaaa, (0, 1, 2, 3, 4, 5), t1.aa, (6, 7), (0, 6, 1, 2, 7, 3, 4, 5)) * 0.5
    .add 14 (.ein [(1, [0, 1, 2, 3, 4, 5]), (2, [6, 7])] [0, 6, 1, 2, 7, 3, 4, 5]) 1 2,
    -- 458: t4.aaaaaaaa += einsum(t1.aa, (0, 1), t3.aaaaaa, (2, 3, 4, 5, 6, 7), (2, 0, 3, 4, 5, 1, 6, 7)) * -0.5
    .add 14 (.ein [(2, [0, 1]), (1, [2, 3, 4, 5, 6, 7])] [2, 0, 3, 4, 5, 1, 6, 7]) (-1) 2,
    -- 459: t4.aaaaaaaa += einsum(t1.aa, (0, 1), t3.aaaaaa, (2, 3, 4, 5, 6, 7), (2, 0, 3, 4, 5, 1, 6, 7)) * -0.5
    .add 14 (.ein [(2, [0, 1]), (1, [2, 3, 4, 5, 6, 7])] [2, 0, 3, 4, 5, 1, 6, 7]) (-1) 2,
    -- 460: t4.aaaaaaaa += einsum(t3.aaaaaa, (0, 1, 2, 3, 4, 5), t1.aa, (6, 7), (0, 6, 1, 2, 3, 4, 7, 5)) * 0.5
    .add 14 (.ein [(1, [0, 1, 2, 3, 4, 5]), (2, [6, 7])] [0, 6, 1, 2, 3, 4, 7, 5]) 1 2,
    -- 461: t4.aaaaaaaa += einsum(t3.aaaaaa, (0, 1, 2, 3, 4, 5), t1.aa, (6, 7), (0, 6, 1, 2, 3, 4, 7, 5)) * 0.5
    .add 14 (.ein [(1, [0, 1, 2, 3, 4, 5]), (2, [6, 7])] [0, 6, 1, 2, 3, 4, 7, 5]) 1 2,
    -- 462: t4.aaaaaaaa += einsum(t1.aa, (0, 1), t3.aaaaaa, (2, 3, 4, 5, 6, 7), (2, 0, 3, 4, 5, 6, 7, 1)) * -0.5
    .add 14 (.ein [(2, [0, 1]), (1, [2, 3, 4, 5, 6, 7])] [2, 0, 3, 4, 5, 6, 7, 1]) (-1) 2,
    -- 463: t4.aaaaaaaa += einsum(t1.aa, (0, 1), t3.aaaaaa, (2, 3, 4, 5, 6, 7), (2, 0, 3, 4, 5, 6, 7, 1)) * -0.5
    .add 14 (.ein [(2, [0, 1]), (1, [2, 3, 4, 5, 6, 7])] [2, 0, 3, 4, 5, 6, 7, 1]) (-1) 2,
    -- 464: t4.aaaaaaaa += einsum(t3.aaaaaa, (0, 1, 2, 3, 4, 5), t1.aa, (6, 7), (0, 1, 6, 2, 7, 3, 4, 5)) * -0.5
    .add 14 (.ein [(1, [0, 1, 2, 3, 4, 5]), (2, [6, 7])] [0, 1, 6, 2, 7, 3, 4, 5]) (-1) 2,
    -- 465: t4.aaaaaaaa += einsum(t3.aaaaaa, (0, 1, 2, 3, 4, 5), t1.aa, (6, 7), (0, 1, 6, 2, 7, 3, 4, 5)) * -0.5
    .add 14 (.ein [(1, [0, 1, 2, 3, 4, 5]), (2, [6, 7])] [0, 1, 6, 2, 7, 3, 4, 5]) (-1) 2,
    -- 466: t4.aaaaaaaa += einsum(t1.aa, (0, 1), t3.aaaaaa, (2, 3, 4, 5, 6, 7), (2, 3, 0, 4, 5, 1, 6, 7)) * 0.5
    .add 14 (.ein [(2, [0, 1]), (1, [2, 3, 4, 5, 6, 7])] [2, 3, 0, 4, 5, 1, 6, 7]) 1 2,
    -- 467: t4.aaaaaaaa += einsum(t1.aa, (0, 1), t3.aaaaaa, (2, 3, 4, 5, 6, 7), (2, 3, 0, 4, 5, 1, 6, 7)) * 0.5
    .add 14 (.ein [(2, [0, 1]), (1, [2, 3, 4, 5, 6, 7])] [2, 3, 0, 4, 5, 1, 6, 7]) 1 2,
    -- 468: t4.aaaaaaaa += einsum(t3.aaaaaa, (0, 1, 2, 3, 4, 5), t1.aa, (6, 7), (0, 1, 6, 2, 3, 4, 7, 5)) * -0.5
    .add 14 (.ein [(1, [0, 1, 2, 3, 4, 5]), (2, [6, 7])] [0, 1, 6, 2, 3, 4, 7, 5]) (-1) 2,
    -- 469: t4.aaaaaaaa += einsum(t3.aaaaaa, (0, 1, 2, 3, 4, 5), t1.aa, (6, 7), (0, 1, 6, 2, 3, 4, 7, 5)) * -0.5
    .add 14 (.ein [(1, [0, 1, 2, 3, 4, 5]), (2, [6, 7])] [0, 1, 6, 2, 3, 4, 7, 5]) (-1) 2,
    -- 470: t4.aaaaaaaa += einsum(t3.aaaaaa, (0, 1, 2, 3, 4, 5), t1.aa, (6, 7), (0, 1, 6, 2, 3, 4, 5, 7)) * 0.5
    .add 14 (.ein [(1, [0, 1, 2, 3, 4, 5]), (2, [6, 7])] [0, 1, 6, 2, 3, 4, 5, 7]) 1 2,
    -- 471: t4.aaaaaaaa += einsum(t3.aaaaaa, (0, 1, 2, 3, 4, 5), t1.aa, (6, 7), (0, 1, 6, 2, 3, 4, 5, 7)) * 0.5
    .add 14 (.ein [(1, [0, 1, 2, 3, 4, 5]), (2, [6, 7])] [0, 1, 6, 2, 3, 4, 5, 7]) 1 2,
    -- 472: t4.aaaaaaaa += einsum(t3.aaaaaa, (0, 1, 2, 3, 4, 5), t1.aa, (6, 7), (0, 1, 2, 6, 7, 3, 4, 5)) * 0.5
    .add 14 (.ein [(1, [0, 1, 2, 3, 4, 5]), (2, [6, 7])] [0, 1, 2, 6, 7, 3, 4, 5]) 1 2,
    -- 473: t4.aaaaaaaa += einsum(t3.aaaaaa, (0, 1, 2, 3, 4, 5), t1.aa, (6, 7), (0, 1, 2, 6, 7, 3, 4, 5)) * 0.5
    .add 14 (.ein [(1, [0, 1, 2, 3, 4, 5]), (2, [6, 7])] [0, 1, 2, 6, 7, 3, 4, 5]) 1 2,
    -- 474: t4.aaaaaaaa += einsum(t3.aaaaaa, (0, 1, 2, 3, 4, 5), t1.aa, (6, 7), (0, 1, 2, 6, 3, 7, 4, 5)) * -0.5
    .add 14 (.ein [(1, [0, 1, 2, 3, 4, 5]), (2, [6, 7])] [0, 1, 2, 6, 3, 7, 4, 5]) (-1) 2,
    -- 475: t4.aaaaaaaa += einsum(t3.aaaaaa, (0, 1, 2, 3, 4, 5), t1.aa, (6, 7), (0, 1, 2, 6, 3, 7, 4, 5)) * -0.5
    .add 14 (.ein [(1, [0, 1, 2, 3, 4, 5]), (2, [6, 7])] [0, 1, 2, 6, 3, 7, 4, 5]) (-1) 2,
    -- 476: t4.aaaaaaaa += einsum(t1.aa, (0, 1), t3.aaaaaa, (2, 3, 4, 5, 6, 7), (2, 3, 4, 0, 5, 6, 1, 7)) * 0.5
    .add 14 (.ein [(2, [0, 1]), (1, [2, 3, 4, 5, 6, 7])] [2, 3, 4, 0, 5, 6, 1, 7]) 1 2,
    -- 477: t4.aaaaaaaa += einsum(t1.aa, (0, 1), t3.aaaaaa, (2, 3, 4, 5, 6, 7), (2, 3, 4, 0, 5, 6, 1, 7)) * 0.5
    .add 14 (.ein [(2, [0, 1]), (1, [2, 3, 4, 5, 6, 7])] [2, 3, 4, 0, 5, 6, 1, 7]) 1 2,
    -- 478: t4.aaaaaaaa += einsum(t1.aa, (0, 1), t3.aaaaaa, (2, 3, 4, 5, 6, 7), (2, 3, 4, 0, 5, 6, 7, 1)) * -0.5
    .add 14 (.ein [(2, [0, 1]), (1, [2, 3, 4, 5, 6, 7])] [2, 3, 4, 0, 5, 6, 7, 1]) (-1) 2,
    -- 479: t4.aaaaaaaa += einsum(t1.aa, (0, 1), t3.aaaaaa, (2, 3, 4, 5, 6, 7), (2, 3, 4, 0, 5, 6, 7, 1)) * -0.5
    .add 14 (.ein [(2, [0, 1]), (1, [2, 3, 4, 5, 6, 7])] [2, 3, 4, 0, 5, 6, 7, 1]) (-1) 2,
    -- 480: t4.aaaaaaaa += einsum(t2.aaaa, (0, 1, 2, 3), t2.aaaa, (4, 5, 6, 7), (4, 5, 0, 1, 6, 7, 2, 3)) * -1
    .add 14 (.ein [(3, [0, 1, 2, 3]), (3, [4, 5, 6, 7])] [4, 5, 0, 1, 6, 7, 2, 3]) (-1) 1,
    -- 481: t4.aaaaaaaa += einsum(t2.aaaa, (0, 1, 2, 3), t2.aaaa, (4, 5, 6, 7), (0, 1, 4, 5, 2, 6, 3, 7))
    .add 14 (.ein [(3, [0, 1, 2, 3]), (3, [4, 5, 6, 7])] [0, 1, 4, 5, 2, 6, 3, 7]) 1 1,
    -- 482: t4.aaaaaaaa += einsum(t2.aaaa, (0, 1, 2, 3), t2.aaaa, (4, 5, 6, 7), (4, 5, 0, 1, 6, 2, 3, 7)) * -1
    .add 14 (.ein [(3, [0, 1, 2, 3]), (3, [4, 5, 6, 7])] [4, 5, 0, 1, 6, 2, 3, 7]) (-1) 1,
    -- 483: t4.aaaaaaaa += einsum(t2.aaaa, (0, 1, 2, 3), t2.aaaa, (4, 5, 6, 7), (0, 1, 4, 5, 6, 2, 3, 7)) * -1
    .add 14 (.ein [(3, [0, 1, 2, 3]), (3, [4, 5, 6, 7])] [0, 1, 4, 5, 6, 2, 3, 7]) (-1) 1,
    -- 484: t4.aaaaaaaa += einsum(t2.aaaa, (0, 1, 2, 3), t2.aaaa, (4, 5, 6, 7), (4, 5, 0, 1, 2, 6, 3, 7))
    .add 14 (.ein [(3, [0, 1, 2, 3]), (3, [4, 5, 6, 7])] [4, 5, 0, 1, 2, 6, 3, 7]) 1 1,
    -- 485: t4.aaaaaaaa += einsum(t2.aaaa, (0, 1, 2, 3), t2.aaaa, (4, 5, 6, 7), (0, 1, 4, 5, 6, 7, 2, 3)) * -1
    .add 14 (.ein [(3, [0, 1, 2, 3]), (3, [4, 5, 6, 7])] [0, 1, 4, 5, 6, 7, 2, 3]) (-1) 1,
    -- 486: t4.aaaaaaaa += einsum(t2.aaaa, (0, 1, 2, 3), t2.aaaa, (4, 5, 6, 7), (4, 0, 5, 1, 6, 7, 2, 3))
    .add 14 (.ein [(3, [0, 1, 2, 3]), (3, [4, 5, 6, 7])] [4, 0, 5, 1, 6, 7, 2, 3]) 1 1,
    -- 487: t4.aaaaaaaa += einsum(t2.aaaa, (0, 1, 2, 3), t2.aaaa, (4, 5, 6, 7), (4, 0, 5, 1, 6, 2, 7, 3)) * -1
    .add 14 (.ein [(3, [0, 1, 2, 3]), (3, [4, 5, 6, 7])] [4, 0, 5, 1, 6, 2, 7, 3]) (-1) 1,
    -- 488: t4.aaaaaaaa += einsum(t2.aaaa, (0, 1, 2, 3), t2.aaaa, (4, 5, 6, 7), (4, 0, 5, 1, 6, 2, 3, 7))
    .add 14 (.ein [(3, [0, 1, 2, 3]), (3, [4, 5, 6, 7])] [4, 0, 5, 1, 6, 2, 3, 7]) 1 1,
    -- 489: t4.aaaaaaaa += einsum(t2.aaaa, (0, 1, 2, 3), t2.aaaa, (4, 5, 6, 7), (4, 0, 5, 1, 2, 6, 7, 3))
    .add 14 (.ein [(3, [0, 1, 2, 3]), (3, [4, 5, 6, 7])] [4, 0, 5, 1, 2, 6, 7, 3]) 1 1,
    -- 490: t4.aaaaaaaa += einsum(t2.aaaa, (0, 1, 2, 3), t2.aaaa, (4, 5, 6, 7), (4, 0, 5, 1, 2, 6, 3, 7)) * -1
    .add 14 (.ein [(3, [0, 1, 2, 3]), (3, [4, 5, 6, 7])] [4, 0, 5, 1, 2, 6, 3, 7]) (-1) 1,
    -- 491: t4.aaaaaaaa += einsum(t2.aaaa, (0, 1, 2, 3), t2.aaaa, (4, 5, 6, 7), (0, 4, 1, 5, 6, 7, 2, 3))
    .add 14 (.ein [(3, [0, 1, 2, 3]), (3, [4, 5, 6, 7])] [0, 4, 1, 5, 6, 7, 2, 3]) 1 1,
    -- 492: t4.aaaaaaaa += einsum(t2.aaaa, (0, 1, 2, 3), t2.aaaa, (4, 5, 6, 7), (0, 4, 5, 1, 2, 3, 6, 7)) * -1
    .add 14 (.ein [(3, [0, 1, 2, 3]), (3, [4, 5, 6, 7])] [0, 4, 5, 1, 2, 3, 6, 7]) (-1) 1,
    -- 493: t4.aaaaaaaa += einsum(t2.aaaa, (0, 1, 2, 3), t2.aaaa, (4, 5, 6, 7), (4, 0, 1, 5, 6, 2, 7, 3))
    .add 14 (.ein [(3, [0, 1, 2, 3]), (3, [4, 5, 6, 7])] [4, 0, 1, 5, 6, 2, 7, 3]) 1 1,
    -- 494: t4.aaaaaaaa += einsum(t2.aaaa, (0, 1, 2, 3), t2.aaaa, (4, 5, 6, 7), (4, 0, 1, 5, 6, 2, 3, 7)) * -1
    .add 14 (.ein [(3, [0, 1, 2, 3]), (3, [4, 5, 6, 7])] [4, 0, 1, 5, 6, 2, 3, 7]) (-1) 1,
    -- 495: t4.aaaaaaaa += einsum(t2.aaaa, (0, 1, 2, 3), t2.aaaa, (4, 5, 6, 7), (4, 0, 1, 5, 2, 6, 7, 3)) * -1
    .add 14 (.ein [(3, [0, 1, 2, 3]), (3, [4, 5, 6, 7])] [4, 0, 1, 5, 2, 6, 7, 3]) (-1) 1,
    -- 496: t4.aaaaaaaa += einsum(t2.aaaa, (0, 1, 2, 3), t2.aaaa, (4, 5, 6, 7), (0, 4, 5, 1, 6, 2, 7, 3))
    .add 14 (.ein [(3, [0, 1, 2, 3]), (3, [4, 5, 6, 7])] [0, 4, 5, 1, 6, 2, 7, 3]) 1 1,
    -- 497: t4.aaaaaaaa += einsum(t2.aaaa, (0, 1, 2, 3), t2.aaaa, (4, 5, 6, 7), (4, 0, 1, 5, 2, 3, 6, 7)) * -1
    .add 14 (.ein [(3, [0, 1, 2, 3]), (3, [4, 5, 6, 7])] [4, 0, 1, 5, 2, 3, 6, 7]) (-1) 1,
    -- 498: t4.aaaaaaaa += einsum(t1.aa, (0, 1), t2.aaaa, (2, 3, 4, 5), t1.aa, (6, 7), (6, 0, 2, 3, 7, 1, 4, 5)) * -1
    .add 14 (.ein [(2, [0, 1]), (3, [2, 3, 4, 5]), (2, [6, 7])] [6, 0, 2, 3, 7, 1, 4, 5]) (-1) 1,
    -- 499: t4.aaaaaaaa += einsum(t1.aa, (0, 1), t1.aa, (2, 3), t2.aaaa, (4, 5, 6, 7), (0, 2, 4, 5, 1, 6, 3, 7))
    .add 14 (.ein [(2, [0, 1]), (2, [2, 3]), (3, [4, 5, 6, 7])] [0, 2, 4, 5, 1, 6, 3, 7]) 1 1,
    -- 500: t4.aaaaaaaa += einsum(t1.aa, (0, 1), t1.aa, (2, 3), t2.aaaa, (4, 5, 6, 7), (2, 0, 4, 5, 3, 6, 7, 1)) * -1
    .add 14 (.ein [(2, [0, 1]), (2, [2, 3]), (3, [4, 5, 6, 7])] [2, 0, 4, 5, 3, 6, 7, 1]) (-1) 1,
    -- 501: t4.aaaaaaaa += einsum(t2.aaaa, (0, 1, 2, 3), t1.aa, (4, 5), t1.aa, (6, 7), (4, 0, 6, 1, 5, 7, 2, 3))
    .add 14 (.ein [(3, [0, 1, 2, 3]), (2, [4, 5]), (2, [6, 7])] [4, 0, 6, 1, 5, 7, 2, 3]) 1 1,
    -- 502: t4.aaaaaaaa += einsum(t2.aaaa, (0, 1, 2, 3), t1.aa, (4, 5), t1.aa, (6, 7), (4, 0, 6, 1, 5, 2, 7, 3)) * -1
    .add 14 (.ein [(3, [0, 1, 2, 3]), (2, [4, 5]), (2, [6, 7])] [4, 0, 6, 1, 5, 2, 7, 3]) (-1) 1,
    -- 503: t4.aaaaaaaa += einsum(t1.aa, (0, 1), t2.aaaa, (2, 3, 4, 5), t1.aa, (6, 7), (0, 2, 6, 3, 1, 4, 5, 7))
    .add 14 (.ein [(2, [0, 1]), (3, [2, 3, 4, 5]), (2, [6, 7])] [0, 2, 6, 3, 1, 4, 5, 7]) 1 1,
    -- 504: t4.aaaaaaaa += einsum(t2.aaaa, (0, 1, 2, 3), t1.aa, (4, 5), t1.aa, (6, 7), (4, 0, 1, 6, 5, 7, 2, 3)) * -1
    .add 14 (.ein [(3, [0, 1, 2, 3]), (2, [4, 5]), (2, [6, 7])] [4, 0, 1, 6, 5, 7, 2, 3]) (-1) 1,
    -- 505: t4.aaaaaaaa += einsum(t2.aaaa, (0, 1, 2, 3), t1.aa, (4, 5), t1.aa, (6, 7), (6, 0, 1, 4, 7, 2, 5, 3))
    .add 14 (.ein [(3, [0, 1, 2, 3]), (2, [4, 5]), (2, [6, 7])] [6, 0, 1, 4, 7, 2, 5, 3]) 1 1,
    -- 506: t4.aaaaaaaa += einsum(t2.aaaa, (0, 1, 2, 3), t1.aa, (4, 5), t1.aa, (6, 7), (4, 0, 1, 6, 5, 2, 3, 7)) * -1
    .add 14 (.ein [(3, [0, 1, 2, 3]), (2, [4, 5]), (2, [6, 7])] [4, 0, 1, 6, 5, 2, 3, 7]) (-1) 1,
    -- 507: t4.aaaaaaaa += einsum(t2.aaaa, (0, 1, 2, 3), t1.aa, (4, 5), t1.aa, (6, 7), (6, 4, 0, 1, 5, 7, 2, 3))
    .add 14 (.ein [(3, [0, 1, 2, 3]), (2, [4, 5]), (2, [6, 7])] [6, 4, 0, 1, 5, 7, 2, 3]) 1 1,
    -- 508: t4.aaaaaaaa += einsum(t2.aaaa, (0, 1, 2, 3), t1.aa, (4, 5), t1.aa, (6, 7), (6, 4, 0, 1, 2, 7, 5, 3)) * -1
    .add 14 (.ein [(3, [0, 1, 2, 3]), (2, [4, 5]), (2, [6, 7])] [6, 4, 0, 1, 2, 7, 5, 3]) (-1) 1,
    -- 509: t4.aaaaaaaa += einsum(t1.aa, (0, 1), t2.aaaa, (2, 3, 4, 5), t1.aa, (6, 7), (6, 0, 2, 3, 4, 7, 5, 1))
    .add 14 (.ein [(2, [0, 1]), (3, [2, 3, 4, 5]), (2, [6, 7])] [6, 0, 2, 3, 4, 7, 5, 1]) 1 1,
    -- 510: t4.aaaaaaaa += einsum(t2.aaaa, (0, 1, 2, 3), t1.aa, (4, 5), t1.aa, (6, 7), (6, 0, 4, 1, 5, 7, 2, 3)) * -1
    .add 14 (.ein [(3, [0, 1, 2, 3]), (2, [4, 5]), (2, [6, 7])] [6, 0, 4, 1, 5, 7, 2, 3]) (-1) 1,
    -- 511: t4.aaaaaaaa += einsum(t2.aaaa, (0, 1, 2, 3), t1.aa, (4, 5), t1.aa, (6, 7), (6, 0, 4, 1, 2, 7, 5, 3))
    .add 14 (.ein [(3, [0, 1, 2, 3]), (2, [4, 5]), (2, [6, 7])] [6, 0, 4, 1, 2, 7, 5, 3]) 1 1,
    -- 512: t4.aaaaaaaa += einsum(t2.aaaa, (0, 1, 2, 3), t1.aa, (4, 5), t1.aa, (6, 7), (6, 0, 4, 1, 2, 7, 3, 5)) * -1
    .add 14 (.ein [(3, [0, 1, 2, 3]), (2, [4, 5]), (2, [6, 7])] [6, 0, 4, 1, 2, 7, 3, 5]) (-1) 1,
    -- 513: t4.aaaaaaaa += einsum(t1.aa, (0, 1), t2.aaaa, (2, 3, 4, 5), t1.aa, (6, 7), (6, 2, 3, 0, 1, 7, 4, 5))
    .add 14 (.ein [(2, [0, 1]), (3, [2, 3, 4, 5]), (2, [6, 7])] [6, 2, 3, 0, 1, 7, 4, 5]) 1 1,
    -- 514: t4.aaaaaaaa += einsum(t1.aa, (0, 1), t2.aaaa, (2, 3, 4, 5), t1.aa, (6, 7), (6, 2, 3, 0, 4, 7, 1, 5)) * -1
    .add 14 (.ein [(2, [0, 1]), (3, [2, 3, 4, 5]), (2, [6, 7])] [6, 2, 3, 0, 4, 7, 1, 5]) (-1) 1,
    -- 515: t4.aaaaaaaa += einsum(t2.aaaa, (0, 1, 2, 3), t1.aa, (4, 5), t1.aa, (6, 7), (6, 0, 1, 4, 2, 7, 3, 5))
    .add 14 (.ein [(3, [0, 1, 2, 3]), (2, [4, 5]), (2, [6, 7])] [6, 0, 1, 4, 2, 7, 3, 5]) 1 1,
    -- 516: t4.aaaaaaaa += einsum(t1.aa, (0, 1), t1.aa, (2, 3), t2.aaaa, (4, 5, 6, 7), (0, 2, 4, 5, 3, 6, 1, 7)) * -1
    .add 14 (.ein [(2, [0, 1]), (2, [2, 3]), (3, [4, 5, 6, 7])] [0, 2, 4, 5, 3, 6, 1, 7]) (-1) 1,
    -- 517: t4.aaaaaaaa += einsum(t1.aa, (0, 1), t2.aaaa, (2, 3, 4, 5), t1.aa, (6, 7), (6, 0, 2, 3, 4, 1, 7, 5))
    .add 14 (.ein [(2, [0, 1]), (3, [2, 3, 4, 5]), (2, [6, 7])] [6, 0, 2, 3, 4, 1, 7, 5]) 1 1,
    -- 518: t4.aaaaaaaa += einsum(t1.aa, (0, 1), t1.aa, (2, 3), t2.aaaa, (4, 5, 6, 7), (2, 0, 4, 5, 6, 7, 3, 1)) * -1
    .add 14 (.ein [(2, [0, 1]), (2, [2, 3]), (3, [4, 5, 6, 7])] [2, 0, 4, 5, 6, 7, 3, 1]) (-1) 1,
    -- 519: t4.aaaaaaaa += einsum(t2.aaaa, (0, 1, 2, 3), t1.aa, (4, 5), t1.aa, (6, 7), (4, 0, 6, 1, 7, 2, 5, 3))
    .add 14 (.ein [(3, [0, 1, 2, 3]), (2, [4, 5]), (2, [6, 7])] [4, 0, 6, 1, 7, 2, 5, 3]) 1 1,
    -- 520: t4.aaaaaaaa += einsum(t1.aa, (0, 1), t1.aa, (2, 3), t2.aaaa, (4, 5, 6, 7), (0, 4, 2, 5, 6, 3, 1, 7)) * -1
    .add 14 (.ein [(2, [0, 1]), (2, [2, 3]), (3, [4, 5, 6, 7])] [0, 4, 2, 5, 6, 3, 1, 7]) (-1) 1,
    -- 521: t4.aaaaaaaa += einsum(t1.aa, (0, 1), t1.aa, (2, 3), t2.aaaa, (4, 5, 6, 7), (0, 4, 2, 5, 6, 7, 1, 3))
    .add 14 (.ein [(2, [0, 1]), (2, [2, 3]), (3, [4, 5, 6, 7])] [0, 4, 2, 5, 6, 7, 1, 3]) 1 1,
    -- 522: t4.aaaaaaaa += einsum(t2.aaaa, (0, 1, 2, 3), t1.aa, (4, 5), t1.aa, (6, 7), (6, 0, 1, 4, 5, 2, 7, 3)) * -1
    .add 14 (.ein [(3, [0, 1, 2, 3]), (2, [4, 5]), (2, [6, 7])] [6, 0, 1, 4, 5, 2, 7, 3]) (-1) 1,
    -- 523: t4.aaaaaaaa += einsum(t2.aaaa, (0, 1, 2, 3), t1.aa, (4, 5), t1.aa, (6, 7), (4, 0, 1, 6, 2, 7, 5, 3))
    .add 14 (.ein [(3, [0, 1, 2, 3]), (2, [4, 5]), (2, [6, 7])] [4, 0, 1, 6, 2, 7, 5, 3]) 1 1,
    -- 524: t4.aaaaaaaa += einsum(t2.aaaa, (0, 1, 2, 3), t1.aa, (4, 5), t1.aa, (6, 7), (4, 0, 1, 6, 2, 3, 5, 7)) * -1
    .add 14 (.ein [(3, [0, 1, 2, 3]), (2, [4, 5]), (2, [6, 7])] [4, 0, 1, 6, 2, 3, 5, 7]) (-1) 1,
    -- 525: t4.aaaaaaaa += einsum(t2.aaaa, (0, 1, 2, 3), t1.aa, (4, 5), t1.aa, (6, 7), (6, 4, 0, 1, 5, 2, 3, 7))
    .add 14 (.ein [(3, [0, 1, 2, 3]), (2, [4, 5]), (2, [6, 7])] [6, 4, 0, 1, 5, 2, 3, 7]) 1 1,
    -- 526: t4.aaaaaaaa += einsum(t1.aa, (0, 1), t2.aaaa, (2, 3, 4, 5), t1.aa, (6, 7), (6, 0, 2, 3, 4, 1, 5, 7)) * -1
    .add 14 (.ein [(2, [0, 1]), (3, [2, 3, 4, 5]), (2, [6, 7])] [6, 0, 2, 3, 4, 1, 5, 7]) (-1) 1,
    -- 527: t4.aaaaaaaa += einsum(t2.aaaa, (0, 1, 2, 3), t1.aa, (4, 5), t1.aa, (6, 7), (6, 4, 0, 1, 2, 3, 5, 7))
    .add 14 (.ein [(3, [0, 1, 2, 3]), (2, [4, 5]), (2, [6, 7])] [6, 4, 0, 1, 2, 3, 5, 7]) 1 1,
    -- 528: t4.aaaaaaaa += einsum(t2.aaaa, (0, 1, 2, 3), t1.aa, (4, 5), t1.aa, (6, 7), (6, 0, 4, 1, 5, 2, 3, 7)) * -1
    .add 14 (.ein [(3, [0, 1, 2, 3]), (2, [4, 5]), (2, [6, 7])] [6, 0, 4, 1, 5, 2, 3, 7]) (-1) 1,
    -- 529: t4.aaaaaaaa += einsum(t2.aaaa, (0, 1, 2, 3), t1.aa, (4, 5), t1.aa, (6, 7), (6, 0, 4, 1, 2, 5, 3, 7))
    .add 14 (.ein [(3, [0, 1, 2, 3]), (2, [4, 5]), (2, [6, 7])] [6, 0, 4, 1, 2, 5, 3, 7]) 1 1,
    -- 530: t4.aaaaaaaa += einsum(t2.aaaa, (0, 1, 2, 3), t1.aa, (4, 5), t1.aa, (6, 7), (6, 0, 4, 1, 2, 3, 5, 7)) * -1
    .add 14 (.ein [(3, [0, 1, 2, 3]), (2, [4, 5]), (2, [6, 7])] [6, 0, 4, 1, 2, 3, 5, 7]) (-1) 1,
    -- 531: t4.aaaaaaaa += einsum(t1.aa, (0, 1), t2.aaaa, (2, 3, 4, 5), t1.aa, (6, 7), (6, 2, 3, 0, 1, 4, 5, 7))
    .add 14 (.ein [(2, [0, 1]), (3, [2, 3, 4, 5]), (2, [6, 7])] [6, 2, 3, 0, 1, 4, 5, 7]) 1 1,
    -- 532: t4.aaaaaaaa += einsum(t2.aaaa, (0, 1, 2, 3), t1.aa, (4, 5), t1.aa, (6, 7), (6, 0, 1, 4, 2, 5, 3, 7)) * -1
    .add 14 (.ein [(3, [0, 1, 2, 3]), (2, [4, 5]), (2, [6, 7])] [6, 0, 1, 4, 2, 5, 3, 7]) (-1) 1,
    -- 533: t4.aaaaaaaa += einsum(t1.aa, (0, 1), t2.aaaa, (2, 3, 4, 5), t1.aa, (6, 7), (6, 2, 3, 0, 4, 5, 1, 7))
    .add 14 (.ein [(2, [0, 1]), (3, [2, 3, 4, 5]), (2, [6, 7])] [6, 2, 3, 0, 4, 5, 1, 7]) 1 1,
    -- 534: t4.aaaaaaaa += einsum(t1.aa, (0, 1), t1.aa, (2, 3), t2.aaaa, (4, 5, 6, 7), (4, 2, 0, 5, 3, 1, 6, 7)) * -1
    .add 14 (.ein [(2, [0, 1]), (2, [2, 3]), (3, [4, 5, 6, 7])] [4, 2, 0, 5, 3, 1, 6, 7]) (-1) 1,
    -- 535: t4.aaaaaaaa += einsum(t2.aaaa, (0, 1, 2, 3), t1.aa, (4, 5), t1.aa, (6, 7), (0, 4, 6, 1, 5, 2, 7, 3))
    .add 14 (.ein [(3, [0, 1, 2, 3]), (2, [4, 5]), (2, [6, 7])] [0, 4, 6, 1, 5, 2, 7, 3]) 1 1,
    -- 536: t4.aaaaaaaa += einsum(t1.aa, (0, 1), t1.aa, (2, 3), t2.aaaa, (4, 5, 6, 7), (4, 2, 0, 5, 3, 6, 7, 1)) * -1
    .add 14 (.ein [(2, [0, 1]), (2, [2, 3]), (3, [4, 5, 6, 7])] [4, 2, 0, 5, 3, 6, 7, 1]) (-1) 1,
    -- 537: t4.aaaaaaaa += einsum(t2.aaaa, (0, 1, 2, 3), t1.aa, (4, 5), t1.aa, (6, 7), (0, 4, 1, 6, 5, 7, 2, 3))
    .add 14 (.ein [(3, [0, 1, 2, 3]), (2, [4, 5]), (2, [6, 7])] [0, 4, 1, 6, 5, 7, 2, 3]) 1 1,
    -- 538: t4.aaaaaaaa += einsum(t2.aaaa, (0, 1, 2, 3), t1.aa, (4, 5), t1.aa, (6, 7), (0, 6, 1, 4, 7, 2, 5, 3)) * -1
    .add 14 (.ein [(3, [0, 1, 2, 3]), (2, [4, 5]), (2, [6, 7])] [0, 6, 1, 4, 7, 2, 5, 3]) (-1) 1,
    -- 539: t4.aaaaaaaa += einsum(t2.aaaa, (0, 1, 2, 3), t1.aa, (4, 5), t1.aa, (6, 7), (0, 4, 1, 6, 5, 2, 3, 7))
    .add 14 (.ein [(3, [0, 1, 2, 3]), (2, [4, 5]), (2, [6, 7])] [0, 4, 1, 6, 5, 2, 3, 7]) 1 1,
    -- 540: t4.aaaaaaaa += einsum(t1.aa, (0, 1), t2.aaaa, (2, 3, 4, 5), t1.aa, (6, 7), (2, 0, 6, 3, 7, 1, 4, 5))
    .add 14 (.ein [(2, [0, 1]), (3, [2, 3, 4, 5]), (2, [6, 7])] [2, 0, 6, 3, 7, 1, 4, 5]) 1 1,
    -- 541: t4.aaaaaaaa += einsum(t1.aa, (0, 1), t2.aaaa, (2, 3, 4, 5), t1.aa, (6, 7), (2, 0, 6, 3, 4, 1, 7, 5)) * -1
    .add 14 (.ein [(2, [0, 1]), (3, [2, 3, 4, 5]), (2, [6, 7])] [2, 0, 6, 3, 4, 1, 7, 5]) (-1) 1,
    -- 542: t4.aaaaaaaa += einsum(t1.aa, (0, 1), t2.aaaa, (2, 3, 4, 5), t1.aa, (6, 7), (2, 0, 6, 3, 4, 1, 5, 7))
    .add 14 (.ein [(2, [0, 1]), (3, [2, 3, 4, 5]), (2, [6, 7])] [2, 0, 6, 3, 4, 1, 5, 7]) 1 1,
    -- 543: t4.aaaaaaaa += einsum(t1.aa, (0, 1), t1.aa, (2, 3), t2.aaaa, (4, 5, 6, 7), (4, 0, 5, 2, 3, 1, 6, 7)) * -1
    .add 14 (.ein [(2, [0, 1]), (2, [2, 3]), (3, [4, 5, 6, 7])] [4, 0, 5, 2, 3, 1, 6, 7]) (-1) 1,
    -- 544: t4.aaaaaaaa += einsum(t1.aa, (0, 1), t1.aa, (2, 3), t2.aaaa, (4, 5, 6, 7), (4, 0, 5, 2, 6, 1, 3, 7))
    .add 14 (.ein [(2, [0, 1]), (2, [2, 3]), (3, [4, 5, 6, 7])] [4, 0, 5, 2, 6, 1, 3, 7]) 1 1,
    -- 545: t4.aaaaaaaa += einsum(t1.aa, (0, 1), t2.aaaa, (2, 3, 4, 5), t1.aa, (6, 7), (2, 0, 3, 6, 4, 1, 5, 7)) * -1
    .add 14 (.ein [(2, [0, 1]), (3, [2, 3, 4, 5]), (2, [6, 7])] [2, 0, 3, 6, 4, 1, 5, 7]) (-1) 1,
    -- 546: t4.aaaaaaaa += einsum(t2.aaaa, (0, 1, 2, 3), t1.aa, (4, 5), t1.aa, (6, 7), (0, 4, 6, 1, 7, 2, 5, 3)) * -1
    .add 14 (.ein [(3, [0, 1, 2, 3]), (2, [4, 5]), (2, [6, 7])] [0, 4, 6, 1, 7, 2, 5, 3]) (-1) 1,
    -- 547: t4.aaaaaaaa += einsum(t2.aaaa, (0, 1, 2, 3), t1.aa, (4, 5), t1.aa, (6, 7), (0, 6, 4, 1, 2, 5, 7, 3))
    .add 14 (.ein [(3, [0, 1, 2, 3]), (2, [4, 5]), (2, [6, 7])] [0, 6, 4, 1, 2, 5, 7, 3]) 1 1,
    -- 548: t4.aaaaaaaa += einsum(t2.aaaa, (0, 1, 2, 3), t1.aa, (4, 5), t1.aa, (6, 7), (0, 6, 4, 1, 2, 3, 7, 5)) * -1
    .add 14 (.ein [(3, [0, 1, 2, 3]), (2, [4, 5]), (2, [6, 7])] [0, 6, 4, 1, 2, 3, 7, 5]) (-1) 1,
    -- 549: t4.aaaaaaaa += einsum(t2.aaaa, (0, 1, 2, 3), t1.aa, (4, 5), t1.aa, (6, 7), (0, 6, 1, 4, 5, 2, 7, 3))
    .add 14 (.ein [(3, [0, 1, 2, 3]), (2, [4, 5]), (2, [6, 7])] [0, 6, 1, 4, 5, 2, 7, 3]) 1 1,
    -- 550: t4.aaaaaaaa += einsum(t2.aaaa, (0, 1, 2, 3), t1.aa, (4, 5), t1.aa, (6, 7), (0, 4, 1, 6, 2, 7, 5, 3)) * -1
    .add 14 (.ein [(3, [0, 1, 2, 3]), (2, [4, 5]), (2, [6, 7])] [0, 4, 1, 6, 2, 7, 5, 3]) (-1) 1,
    -- 551: t4.aaaaaaaa += einsum(t2.aaaa, (0, 1, 2, 3), t1.aa, (4, 5), t1.aa, (6, 7), (0, 4, 1, 6, 2, 3, 5, 7))
    .add 14 (.ein [(3, [0, 1, 2, 3]), (2, [4, 5]), (2, [6, 7])] [0, 4, 1, 6, 2, 3, 5, 7]) 1 1,
    -- 552: t4.aaaaaaaa += einsum(t1.aa, (0, 1), t2.aaaa, (2, 3, 4, 5), t1.aa, (6, 7), (2, 0, 6, 3, 7, 4, 5, 1))
    .add 14 (.ein [(2, [0, 1]), (3, [2, 3, 4, 5]), (2, [6, 7])] [2, 0, 6, 3, 7, 4, 5, 1]) 1 1,
    -- 553: t4.aaaaaaaa += einsum(t1.aa, (0, 1), t2.aaaa, (2, 3, 4, 5), t1.aa, (6, 7), (2, 0, 6, 3, 4, 7, 5, 1)) * -1
    .add 14 (.ein [(2, [0, 1]), (3, [2, 3, 4, 5]), (2, [6, 7])] [2, 0, 6, 3, 4, 7, 5, 1]) (-1) 1,
    -- 554: t4.aaaaaaaa += einsum(t1.aa, (0, 1), t2.aaaa, (2, 3, 4, 5), t1.aa, (6, 7), (2, 0, 6, 3, 4, 5, 7, 1))
    .add 14 (.ein [(2, [0, 1]), (3, [2, 3, 4, 5]), (2, [6, 7])] [2, 0, 6, 3, 4, 5, 7, 1]) 1 1,
    -- 555: t4.aaaaaaaa += einsum(t1.aa, (0, 1), t1.aa, (2, 3), t2.aaaa, (4, 5, 6, 7), (4, 0, 5, 2, 3, 6, 7, 1)) * -1
    .add 14 (.ein [(2, [0, 1]), (2, [2, 3]), (3, [4, 5, 6, 7])] [4, 0, 5, 2, 3, 6, 7, 1]) (-1) 1,
    -- 556: t4.aaaaaaaa += einsum(t1.aa, (0, 1), t2.aaaa, (2, 3, 4, 5), t1.aa, (6, 7), (2, 0, 3, 6, 4, 7, 5, 1))
    .add 14 (.ein [(2, [0, 1]), (3, [2, 3, 4, 5]), (2, [6, 7])] [2, 0, 3, 6, 4, 7, 5, 1]) 1 1,
    -- 557: t4.aaaaaaaa += einsum(t1.aa, (0, 1), t1.aa, (2, 3), t2.aaaa, (4, 5, 6, 7), (4, 0, 5, 2, 6, 7, 3, 1)) * -1
    .add 14 (.ein [(2, [0, 1]), (2, [2, 3]), (3, [4, 5, 6, 7])] [4, 0, 5, 2, 6, 7, 3, 1]) (-1) 1,
    -- 558: t4.aaaaaaaa += einsum(t2.aaaa, (0, 1, 2, 3), t1.aa, (4, 5), t1.aa, (6, 7), (0, 1, 6, 4, 7, 5, 2, 3)) * -1
    .add 14 (.ein [(3, [0, 1, 2, 3]), (2, [4, 5]), (2, [6, 7])] [0, 1, 6, 4, 7, 5, 2, 3]) (-1) 1,
    -- 559: t4.aaaaaaaa += einsum(t2.aaaa, (0, 1, 2, 3), t1.aa, (4, 5), t1.aa, (6, 7), (0, 1, 6, 4, 7, 2, 5, 3))
    .add 14 (.ein [(3, [0, 1, 2, 3]), (2, [4, 5]), (2, [6, 7])] [0, 1, 6, 4, 7, 2, 5, 3]) 1 1,
    -- 560: t4.aaaaaaaa += einsum(t2.aaaa, (0, 1, 2, 3), t1.aa, (4, 5), t1.aa, (6, 7), (0, 1, 6, 4, 7, 2, 3, 5)) * -1
    .add 14 (.ein [(3, [0, 1, 2, 3]), (2, [4, 5]), (2, [6, 7])] [0, 1, 6, 4, 7, 2, 3, 5]) (-1) 1,
    -- 561: t4.aaaaaaaa += einsum(t1.aa, (0, 1), t2.aaaa, (2, 3, 4, 5), t1.aa, (6, 7), (2, 3, 6, 0, 1, 7, 4, 5))
    .add 14 (.ein [(2, [0, 1]), (3, [2, 3, 4, 5]), (2, [6, 7])] [2, 3, 6, 0, 1, 7, 4, 5]) 1 1,
    -- 562: t4.aaaaaaaa += einsum(t1.aa, (0, 1), t1.aa, (2, 3), t2.aaaa, (4, 5, 6, 7), (4, 5, 2, 0, 6, 3, 1, 7)) * -1
    .add 14 (.ein [(2, [0, 1]), (2, [2, 3]), (3, [4, 5, 6, 7])] [4, 5, 2, 0, 6, 3, 1, 7]) (-1) 1,
    -- 563: t4.aaaaaaaa += einsum(t2.aaaa, (0, 1, 2, 3), t1.aa, (4, 5), t1.aa, (6, 7), (0, 1, 4, 6, 2, 5, 3, 7))
    .add 14 (.ein [(3, [0, 1, 2, 3]), (2, [4, 5]), (2, [6, 7])] [0, 1, 4, 6, 2, 5, 3, 7]) 1 1,
    -- 564: t4.aaaaaaaa += einsum(t1.aa, (0, 1), t2.aaaa, (2, 3, 4, 5), t1.aa, (6, 7), (2, 3, 6, 0, 1, 4, 7, 5)) * -1
    .add 14 (.ein [(2, [0, 1]), (3, [2, 3, 4, 5]), (2, [6, 7])] [2, 3, 6, 0, 1, 4, 7, 5]) (-1) 1,
    -- 565: t4.aaaaaaaa += einsum(t1.aa, (0, 1), t2.aaaa, (2, 3, 4, 5), t1.aa, (6, 7), (2, 3, 6, 0, 4, 1, 7, 5))
    .add 14 (.ein [(2, [0, 1]), (3, [2, 3, 4, 5]), (2, [6, 7])] [2, 3, 6, 0, 4, 1, 7, 5]) 1 1,
    -- 566: t4.aaaaaaaa += einsum(t1.aa, (0, 1), t2.aaaa, (2, 3, 4, 5), t1.aa, (6, 7), (2, 3, 6, 0, 4, 5, 7, 1)) * -1
    .add 14 (.ein [(2, [0, 1]), (3, [2, 3, 4, 5]), (2, [6, 7])] [2, 3, 6, 0, 4, 5, 7, 1]) (-1) 1,
    -- 567: t4.aaaaaaaa += einsum(t1.aa, (0, 1), t2.aaaa, (2, 3, 4, 5), t1.aa, (6, 7), (2, 3, 6, 0, 1, 4, 5, 7))
    .add 14 (.ein [(2, [0, 1]), (3, [2, 3, 4, 5]), (2, [6, 7])] [2, 3, 6, 0, 1, 4, 5, 7]) 1 1,
    -- 568: t4.aaaaaaaa += einsum(t2.aaaa, (0, 1, 2, 3), t1.aa, (4, 5), t1.aa, (6, 7), (0, 1, 4, 6, 2, 7, 3, 5)) * -1
    .add 14 (.ein [(3, [0, 1, 2, 3]), (2, [4, 5]), (2, [6, 7])] [0, 1, 4, 6, 2, 7, 3, 5]) (-1) 1,
    -- 569: t4.aaaaaaaa += einsum(t1.aa, (0, 1), t1.aa, (2, 3), t2.aaaa, (4, 5, 6, 7), (4, 5, 2, 0, 6, 7, 1, 3))
    .add 14 (.ein [(2, [0, 1]), (2, [2, 3]), (3, [4, 5, 6, 7])] [4, 5, 2, 0, 6, 7, 1, 3]) 1 1,
    -- 570: t4.aaaaaaaa += einsum(t1.aa, (0, 1), t1.aa, (2, 3), t1.aa, (4, 5), t1.aa, (6, 7), (2, 0, 6, 4, 3, 1, 7, 5)) * -1
    .add 14 (.ein [(2, [0, 1]), (2, [2, 3]), (2, [4, 5]), (2, [6, 7])] [2, 0, 6, 4, 3, 1, 7, 5]) (-1) 1,
    -- 571: t4.aaaaaaaa += einsum(t1.aa, (0, 1), t1.aa, (2, 3), t1.aa, (4, 5), t1.aa, (6, 7), (4, 0, 6, 2, 5, 1, 3, 7))
    .add 14 (.ein [(2, [0, 1]), (2, [2, 3]), (2, [4, 5]), (2, [6, 7])] [4, 0, 6, 2, 5, 1, 3, 7]) 1 1,
    -- 572: t4.aaaaaaaa += einsum(t1.aa, (0, 1), t1.aa, (2, 3), t1.aa, (4, 5), t1.aa, (6, 7), (2, 4, 0, 6, 3, 1, 5, 7))
    .add 14 (.ein [(2, [0, 1]), (2, [2, 3]), (2, [4, 5]), (2, [6, 7])] [2, 4, 0, 6, 3, 1, 5, 7]) 1 1,
    -- 573: t4.aaaaaaaa += einsum(t1.aa, (0, 1), t1.aa, (2, 3), t1.aa, (4, 5), t1.aa, (6, 7), (0, 2, 6, 4, 1, 5, 3, 7)) * -1
    .add 14 (.ein [(2, [0, 1]), (2, [2, 3]), (2, [4, 5]), (2, [6, 7])] [0, 2, 6, 4, 1, 5, 3, 7]) (-1) 1,
    -- 574: t4.aaaaaaaa += einsum(t1.aa, (0, 1), t1.aa, (2, 3), t1.aa, (4, 5), t1.aa, (6, 7), (4, 0, 6, 2, 5, 7, 3, 1)) * -1
    .add 14 (.ein [(2, [0, 1]), (2, [2, 3]), (2, [4, 5]), (2, [6, 7])] [4, 0, 6, 2, 5, 7, 3, 1]) (-1) 1,
    -- 575: t4.aaaaaaaa += einsum(t1.aa, (0, 1), t1.aa, (2, 3), t1.aa, (4, 5), t1.aa, (6, 7), (2, 0, 4, 6, 3, 7, 5, 1))
    .add 14 (.ein [(2, [0, 1]), (2, [2, 3]), (2, [4, 5]), (2, [6, 7])] [2, 0, 4, 6, 3, 7, 5, 1]) 1 1,
    -- 576: t4.aaaaaaaa += einsum(t1.aa, (0, 1), t1.aa, (2, 3), t1.aa, (4, 5), t1.aa, (6, 7), (6, 2, 4, 0, 3, 7, 5, 1))
    .add 14 (.ein [(2, [0, 1]), (2, [2, 3]), (2, [4, 5]), (2, [6, 7])] [6, 2, 4, 0, 3, 7, 5, 1]) 1 1,
    -- 577: t4.aaaaaaaa += einsum(t1.aa, (0, 1), t1.aa, (2, 3), t1.aa, (4, 5), t1.aa, (6, 7), (6, 4, 2, 0, 5, 7, 1, 3)) * -1
    .add 14 (.ein [(2, [0, 1]), (2, [2, 3]), (2, [4, 5]), (2, [6, 7])] [6, 4, 2, 0, 5, 7, 1, 3]) (-1) 1,
    -- 578: t4.aaaaaaaa += einsum(t1.aa, (0, 1), t1.aa, (2, 3), t1.aa, (4, 5), t1.aa, (6, 7), (6, 2, 0, 4, 1, 7, 3, 5)) * -1
    .add 14 (.ein [(2, [0, 1]), (2, [2, 3]), (2, [4, 5]), (2, [6, 7])] [6, 2, 0, 4, 1, 7, 3, 5]) (-1) 1,
    -- 579: t4.aaaaaaaa += einsum(t1.aa, (0, 1), t1.aa, (2, 3), t1.aa, (4, 5), t1.aa, (6, 7), (6, 4, 2, 0, 1, 7, 5, 3))
    .add 14 (.ein [(2, [0, 1]), (2, [2, 3]), (2, [4, 5]), (2, [6, 7])] [6, 4, 2, 0, 1, 7, 5, 3]) 1 1,
    -- 580: t4.aaaaaaaa += einsum(t1.aa, (0, 1), t1.aa, (2, 3), t1.aa, (4, 5), t1.aa, (6, 7), (6, 0, 4, 2, 5, 7, 3, 1))
    .add 14 (.ein [(2, [0, 1]), (2, [2, 3]), (2, [4, 5]), (2, [6, 7])] [6, 0, 4, 2, 5, 7, 3, 1]) 1 1,
    -- 581: t4.aaaaaaaa += einsum(t1.aa, (0, 1), t1.aa, (2, 3), t1.aa, (4, 5), t1.aa, (6, 7), (6, 0, 4, 2, 3, 7, 5, 1)) * -1
    .add 14 (.ein [(2, [0, 1]), (2, [2, 3]), (2, [4, 5]), (2, [6, 7])] [6, 0, 4, 2, 3, 7, 5, 1]) (-1) 1,
    -- 582: t4.aaaaaaaa += einsum(t1.aa, (0, 1), t1.aa, (2, 3), t1.aa, (4, 5), t1.aa, (6, 7), (0, 4, 2, 6, 5, 3, 1, 7)) * -1
    .add 14 (.ein [(2, [0, 1]), (2, [2, 3]), (2, [4, 5]), (2, [6, 7])] [0, 4, 2, 6, 5, 3, 1, 7]) (-1) 1,
    -- 583: t4.aaaaaaaa += einsum(t1.aa, (0, 1), t1.aa, (2, 3), t1.aa, (4, 5), t1.aa, (6, 7), (0, 4, 2, 6, 5, 7, 1, 3))
    .add 14 (.ein [(2, [0, 1]), (2, [2, 3]), (2, [4, 5]), (2, [6, 7])] [0, 4, 2, 6, 5, 7, 1, 3]) 1 1,
    -- 584: t4.aaaaaaaa += einsum(t1.aa, (0, 1), t1.aa, (2, 3), t1.aa, (4, 5), t1.aa, (6, 7), (2, 0, 6, 4, 7, 1, 3, 5))
    .add 14 (.ein [(2, [0, 1]), (2, [2, 3]), (2, [4, 5]), (2, [6, 7])] [2, 0, 6, 4, 7, 1, 3, 5]) 1 1,
    -- 585: t4.aaaaaaaa += einsum(t1.aa, (0, 1), t1.aa, (2, 3), t1.aa, (4, 5), t1.aa, (6, 7), (4, 0, 6, 2, 3, 1, 5, 7)) * -1
    .add 14 (.ein [(2, [0, 1]), (2, [2, 3]), (2, [4, 5]), (2, [6, 7])] [4, 0, 6, 2, 3, 1, 5, 7]) (-1) 1,
    -- 586: t4.aaaaaaaa += einsum(t1.aa, (0, 1), t1.aa, (2, 3), t1.aa, (4, 5), t1.aa, (6, 7), (2, 0, 6, 4, 7, 5, 3, 1)) * -1
    .add 14 (.ein [(2, [0, 1]), (2, [2, 3]), (2, [4, 5]), (2, [6, 7])] [2, 0, 6, 4, 7, 5, 3, 1]) (-1) 1,
    -- 587: t4.aaaaaaaa += einsum(t1.aa, (0, 1), t1.aa, (2, 3), t1.aa, (4, 5), t1.aa, (6, 7), (2, 0, 4, 6, 7, 5, 3, 1))
    .add 14 (.ein [(2, [0, 1]), (2, [2, 3]), (2, [4, 5]), (2, [6, 7])] [2, 0, 4, 6, 7, 5, 3, 1]) 1 1,
    -- 588: t4.aaaaaaaa += einsum(t1.aa, (0, 1), t1.aa, (2, 3), t1.aa, (4, 5), t1.aa, (6, 7), (6, 4, 2, 0, 5, 3, 1, 7))
    .add 14 (.ein [(2, [0, 1]), (2, [2, 3]), (2, [4, 5]), (2, [6, 7])] [6, 4, 2, 0, 5, 3, 1, 7]) 1 1,
    -- 589: t4.aaaaaaaa += einsum(t1.aa, (0, 1), t1.aa, (2, 3), t1.aa, (4, 5), t1.aa, (6, 7), (6, 2, 4, 0, 3, 1, 5, 7)) * -1
    .add 14 (.ein [(2, [0, 1]), (2, [2, 3]), (2, [4, 5]), (2, [6, 7])] [6, 2, 4, 0, 3, 1, 5, 7]) (-1) 1,
    -- 590: t4.aaaaaaaa += einsum(t1.aa, (0, 1), t1.aa, (2, 3), t1.aa, (4, 5), t1.aa, (6, 7), (6, 0, 4, 2, 5, 1, 3, 7)) * -1
    .add 14 (.ein [(2, [0, 1]), (2, [2, 3]), (2, [4, 5]), (2, [6, 7])] [6, 0, 4, 2, 5, 1, 3, 7]) (-1) 1,
    -- 591: t4.aaaaaaaa += einsum(t1.aa, (0, 1), t1.aa, (2, 3), t1.aa, (4, 5), t1.aa, (6, 7), (6, 0, 4, 2, 3, 1, 5, 7))
    .add 14 (.ein [(2, [0, 1]), (2, [2, 3]), (2, [4, 5]), (2, [6, 7])] [6, 0, 4, 2, 3, 1, 5, 7]) 1 1,
    -- 592: t4.aaaaaaaa += einsum(t1.aa, (0, 1), t1.aa, (2, 3), t1.aa, (4, 5), t1.aa, (6, 7), (6, 2, 0, 4, 1, 5, 3, 7))
    .add 14 (.ein [(2, [0, 1]), (2, [2, 3]), (2, [4, 5]), (2, [6, 7])] [6, 2, 0, 4, 1, 5, 3, 7]) 1 1,
    -- 593: t4.aaaaaaaa += einsum(t1.aa, (0, 1), t1.aa, (2, 3), t1.aa, (4, 5), t1.aa, (6, 7), (6, 4, 2, 0, 1, 3, 5, 7)) * -1
    .add 14 (.ein [(2, [0, 1]), (2, [2, 3]), (2, [4, 5]), (2, [6, 7])] [6, 4, 2, 0, 1, 3, 5, 7]) (-1) 1,
    -- 594: t4.aaabaaab = np.copy(c4.aaabaaab) * 0.5
    .set 15 (.cp 4) 1 2,
    -- 595: t4.aaabaaab += c4.aaabaaab * 0.5
    .add 15 (.cp 4) 1 2,
    -- 596: t4.aaabaaab += einsum(t1.aa, (0, 1), t3.abaaba, (2, 3, 4, 5, 6, 7), (0, 2, 4, 3, 1, 5, 7, 6)) * -0.5
    .add 15 (.ein [(2, [0, 1]), (5, [2, 3, 4, 5, 6, 7])] [0, 2, 4, 3, 1, 5, 7, 6]) (-1) 2,
    -- 597: t4.aaabaaab += einsum(t1.aa, (0, 1), t3.abaaba, (2, 3, 4, 5, 6, 7), (0, 2, 4, 3, 1, 5, 7, 6)) * -0.5
    .add 15 (.ein [(2, [0, 1]), (5, [2, 3, 4, 5, 6, 7])] [0, 2, 4, 3, 1, 5, 7, 6]) (-1) 2,
    -- 598: t4.aaabaaab += einsum(t3.abaaba, (0, 1, 2, 3, 4, 5), t1.aa, (6, 7), (6, 0, 2, 1, 3, 7, 5, 4)) * 0.5
    .add 15 (.ein [(5, [0, 1, 2, 3, 4, 5]), (2, [6, 7])] [6, 0, 2, 1, 3, 7, 5, 4]) 1 2,
    -- 599: t4.aaabaaab += einsum(t3.abaaba, (0, 1, 2, 3, 4, 5), t1.aa, (6, 7), (6, 0, 2, 1, 3, 7, 5, 4)) * 0.5
    .add 15 (.ein [(5, [0, 1, 2, 3, 4, 5]), (2, [6, 7])] [6, 0, 2, 1, 3, 7, 5, 4]) 1 2,
    -- 600: t4.aaabaaab += einsum(t1.aa, (0, 1), t3.abaaba, (2, 3, 4, 5, 6, 7), (0, 2, 4, 3, 5, 7, 1, 6)) * -0.5
    .add 15 (.ein [(2, [0, 1]), (5, [2, 3, 4, 5, 6, 7])] [0, 2, 4, 3, 5, 7, 1, 6]) (-1) 2,
    -- 601: t4.aaabaaab += einsum(t1.aa, (0, 1), t3.abaaba, (2, 3, 4, 5, 6, 7), (0, 2, 4, 3, 5, 7, 1, 6)) * -0.5
    .add 15 (.ein [(2, [0, 1]), (5, [2, 3, 4, 5, 6, 7])] [0, 2, 4, 3, 5, 7, 1, 6]) (-1) 2,
    -- 602: t4.aaabaaab += einsum(t1.aa, (0, 1), t3.abaaba, (2, 3, 4, 5, 6, 7), (2, 0, 4, 3, 1, 7, 5, 6)) * -0.5
    .add 15 (.ein [(2, [0, 1]), (5, [2, 3, 4, 5, 6, 7])] [2, 0, 4, 3, 1, 7, 5, 6]) (-1) 2,
    -- 603: t4.aaabaaab += einsum(t1.aa, (0, 1), t3.abaaba, (2, 3, 4, 5, 6, 7), (2, 0, 4, 3, 1, 7, 5, 6)) * -0.5
    .add 15 (.ein [(2, [0, 1]), (5, [2, 3, 4, 5, 6, 7])] [2, 0, 4, 3, 1, 7, 5, 6]) (-1) 2,
    -- 604: t4.aaabaaab += einsum(t1.aa, (0, 1), t3.abaaba, (2, 3, 4, 5, 6, 7), (2, 0, 4, 3, 7, 1, 5, 6)) * 0.5
    .add 15 (.ein [(2, [0, 1]), (5, [2, 3, 4, 5, 6, 7])] [2, 0, 4, 3, 7, 1, 5, 6]) 1 2,
    -- 605: t4.aaabaaab += einsum(t1.aa, (0, 1), t3.abaaba, (2, 3, 4, 5, 6, 7), (2, 0, 4, 3, 7, 1, 5, 6)) * 0.5
    .add 15 (.ein [(2, [0, 1]), (5, [2, 3, 4, 5, 6, 7])] [2, 0, 4, 3, 7, 1, 5, 6]) 1 2,
    -- 606: t4.aaabaaab += einsum(t1.aa, (0, 1), t3.abaaba, (2, 3, 4, 5, 6, 7), (2, 0, 4, 3, 7, 5, 1, 6)) * -0.5
    .add 15 (.ein [(2, [0, 1]), (5, [2, 3, 4, 5, 6, 7])] [2, 0, 4, 3, 7, 5, 1, 6]) (-1) 2,
    -- 607: t4.aaabaaab += einsum(t1.aa, (0, 1), t3.abaaba, (2, 3, 4, 5, 6, 7), (2, 0, 4, 3, 7, 5, 1, 6)) * -0.5
    .add 15 (.ein [(2, [0, 1]), (5, [2, 3, 4, 5, 6, 7])] [2, 0, 4, 3, 7, 5, 1, 6]) (-1) 2,
    -- 608: t4.aaabaaab += einsum(t3.abaaba, (0, 1, 2, 3, 4, 5), t1.aa, (6, 7), (0, 2, 6, 1, 7, 5, 3, 4)) * 0.5
    .add 15 (.ein [(5, [0, 1, 2, 3, 4, 5]), (2, [6, 7])] [0, 2, 6, 1, 7, 5, 3, 4]) 1 2,
    -- 609: t4.aaabaaab += einsum(t3.abaaba, (0, 1, 2, 3, 4, 5), t1.aa, (6, 7), (0, 2, 6, 1, 7, 5, 3, 4)) * 0.5
    .add 15 (.ein [(5, [0, 1, 2, 3, 4, 5]), (2, [6, 7])] [0, 2, 6, 1, 7, 5, 3, 4]) 1 2,
    -- 610: t4.aaabaaab += einsum(t3.abaaba, (0, 1, 2, 3, 4, 5), t1.aa, (6, 7), (0, 2, 6, 1, 5, 7, 3, 4)) * -0.5
    .add 15 (.ein [(5, [0, 1, 2, 3, 4, 5]), (2, [6, 7])] [0, 2, 6, 1, 5, 7, 3, 4]) (-1) 2,
    -- 611: t4.aaabaaab += einsum(t3.abaaba, (0, 1, 2, 3, 4, 5), t1.aa, (6, 7), (0, 2, 6, 1, 5, 7, 3, 4)) * -0.5
    .add 15 (.ein [(5, [0, 1, 2, 3, 4, 5]), (2, [6, 7])] [0, 2, 6, 1, 5, 7, 3, 4]) (-1) 2,
    -- 612: t4.aaabaaab += einsum(t1.aa, (0, 1), t3.abaaba, (2, 3, 4, 5, 6, 7), (2, 4, 0, 3, 7, 5, 1, 6)) * 0.5
    .add 15 (.ein [(2, [0, 1]), (5, [2, 3, 4, 5, 6, 7])] [2, 4, 0, 3, 7, 5, 1, 6]) 1 2,
    -- 613: t4.aaabaaab += einsum(t1.aa, (0, 1), t3.abaaba, (2, 3, 4, 5, 6, 7), (2, 4, 0, 3, 7, 5, 1, 6)) * 0.5
    .add 15 (.ein [(2, [0, 1]), (5, [2, 3, 4, 5, 6, 7])] [2, 4, 0, 3, 7, 5, 1, 6]) 1 2,
    -- 614: t4.aaabaaab += einsum(t1.bb, (0, 1), t3.aaaaaa, (2, 3, 4, 5, 6, 7), (2, 3, 4, 0, 5, 6, 7, 1)) * -0.5
    .add 15 (.ein [(6, [0, 1]), (1, [2, 3, 4, 5, 6, 7])] [2, 3, 4, 0, 5, 6, 7, 1]) (-1) 2,
    -- 615: t4.aaabaaab += einsum(t1.bb, (0, 1), t3.aaaaaa, (2, 3, 4, 5, 6, 7), (2, 3, 4, 0, 5, 6, 7, 1)) * -0.5
    .add 15 (.ein [(6, [0, 1]), (1, [2, 3, 4, 5, 6, 7])] [2, 3, 4, 0, 5, 6, 7, 1]) (-1) 2,
    -- 616: t4.aaabaaab += einsum(t2.aaaa, (0, 1, 2, 3), t2.abab, (4, 5, 6, 7), (0, 1, 4, 5, 2, 3, 6, 7)) * -1
    .add 15 (.ein [(3, [0, 1, 2, 3]), (7, [4, 5, 6, 7])] [0, 1, 4, 5, 2, 3, 6, 7]) (-1) 1,
    -- 617: t4.aaabaaab += einsum(t2.aaaa, (0, 1, 2, 3), t2.abab, (4, 5, 6, 7), (0, 1, 4, 5, 2, 6, 3, 7))
    .add 15 (.ein [(3, [0, 1, 2, 3]), (7, [4, 5, 6, 7])] [0, 1, 4, 5, 2, 6, 3, 7]) 1 1,
    -- 618: t4.aaabaaab += einsum(t2.abab, (0, 1, 2, 3), t2.aaaa, (4, 5, 6, 7), (4, 5, 0, 1, 2, 6, 7, 3)) * -1
    .add 15 (.ein [(7, [0, 1, 2, 3]), (3, [4, 5, 6, 7])] [4, 5, 0, 1, 2, 6, 7, 3]) (-1) 1,
    -- 619: t4.aaabaaab += einsum(t2.abab, (0, 1, 2, 3), t2.aaaa, (4, 5, 6, 7), (4, 0, 5, 1, 6, 7, 2, 3))
    .add 15 (.ein [(7, [0, 1, 2, 3]), (3, [4, 5, 6, 7])] [4, 0, 5, 1, 6, 7, 2, 3]) 1 1,
    -- 620: t4.aaabaaab += einsum(t2.aaaa, (0, 1, 2, 3), t2.abab, (4, 5, 6, 7), (0, 4, 1, 5, 2, 6, 3, 7)) * -1
    .add 15 (.ein [(3, [0, 1, 2, 3]), (7, [4, 5, 6, 7])] [0, 4, 1, 5, 2, 6, 3, 7]) (-1) 1,
    -- 621: t4.aaabaaab += einsum(t2.abab, (0, 1, 2, 3), t2.aaaa, (4, 5, 6, 7), (4, 0, 5, 1, 2, 6, 7, 3))
    .add 15 (.ein [(7, [0, 1, 2, 3]), (3, [4, 5, 6, 7])] [4, 0, 5, 1, 2, 6, 7, 3]) 1 1,
    -- 622: t4.aaabaaab += einsum(t2.aaaa, (0, 1, 2, 3), t2.abab, (4, 5, 6, 7), (4, 0, 1, 5, 6, 2, 3, 7)) * -1
    .add 15 (.ein [(3, [0, 1, 2, 3]), (7, [4, 5, 6, 7])] [4, 0, 1, 5, 6, 2, 3, 7]) (-1) 1,
    -- 623: t4.aaabaaab += einsum(t2.aaaa, (0, 1, 2, 3), t2.abab, (4, 5, 6, 7), (4, 0, 1, 5, 2, 6, 3, 7))
    .add 15 (.ein [(3, [0, 1, 2, 3]), (7, [4, 5, 6, 7])] [4, 0, 1, 5, 2, 6, 3, 7]) 1 1,
    -- 624: t4.aaabaaab += einsum(t2.abab, (0, 1, 2, 3), t2.aaaa, (4, 5, 6, 7), (0, 4, 5, 1, 6, 7, 2, 3)) * -1
    .add 15 (.ein [(7, [0, 1, 2, 3]), (3, [4, 5, 6, 7])] [0, 4, 5, 1, 6, 7, 2, 3]) (-1) 1,
    -- 625: t4.aaabaaab += einsum(t1.aa, (0, 1), t1.aa, (2, 3), t2.abab, (4, 5, 6, 7), (2, 0, 4, 5, 3, 1, 6, 7)) * -1
    .add 15 (.ein [(2, [0, 1]), (2, [2, 3]), (7, [4, 5, 6, 7])] [2, 0, 4, 5, 3, 1, 6, 7]) (-1) 1,
    -- 626: t4.aaabaaab += einsum(t2.abab, (0, 1, 2, 3), t1.aa, (4, 5), t1.aa, (6, 7), (4, 6, 0, 1, 5, 2, 7, 3))
    .add 15 (.ein [(7, [0, 1, 2, 3]), (2, [4, 5]), (2, [6, 7])] [4, 6, 0, 1, 5, 2, 7, 3]) 1 1,
    -- 627: t4.aaabaaab += einsum(t2.abab, (0, 1, 2, 3), t1.aa, (4, 5), t1.aa, (6, 7), (4, 0, 6, 1, 5, 7, 2, 3))
    .add 15 (.ein [(7, [0, 1, 2, 3]), (2, [4, 5]), (2, [6, 7])] [4, 0, 6, 1, 5, 7, 2, 3]) 1 1,
    -- 628: t4.aaabaaab += einsum(t1.aa, (0, 1), t2.abab, (2, 3, 4, 5), t1.aa, (6, 7), (0, 2, 6, 3, 1, 4, 7, 5)) * -1
    .add 15 (.ein [(2, [0, 1]), (7, [2, 3, 4, 5]), (2, [6, 7])] [0, 2, 6, 3, 1, 4, 7, 5]) (-1) 1,
    -- 629: t4.aaabaaab += einsum(t2.aaaa, (0, 1, 2, 3), t1.bb, (4, 5), t1.aa, (6, 7), (6, 0, 1, 4, 7, 2, 3, 5)) * -1
    .add 15 (.ein [(3, [0, 1, 2, 3]), (6, [4, 5]), (2, [6, 7])] [6, 0, 1, 4, 7, 2, 3, 5]) (-1) 1,
    -- 630: t4.aaabaaab += einsum(t2.abab, (0, 1, 2, 3), t1.aa, (4, 5), t1.aa, (6, 7), (6, 4, 0, 1, 5, 7, 2, 3))
    .add 15 (.ein [(7, [0, 1, 2, 3]), (2, [4, 5]), (2, [6, 7])] [6, 4, 0, 1, 5, 7, 2, 3]) 1 1,
    -- 631: t4.aaabaaab += einsum(t2.abab, (0, 1, 2, 3), t1.aa, (4, 5), t1.aa, (6, 7), (6, 4, 0, 1, 2, 7, 5, 3)) * -1
    .add 15 (.ein [(7, [0, 1, 2, 3]), (2, [4, 5]), (2, [6, 7])] [6, 4, 0, 1, 2, 7, 5, 3]) (-1) 1,
    -- 632: t4.aaabaaab += einsum(t2.abab, (0, 1, 2, 3), t1.aa, (4, 5), t1.aa, (6, 7), (6, 0, 4, 1, 5, 7, 2, 3)) * -1
    .add 15 (.ein [(7, [0, 1, 2, 3]), (2, [4, 5]), (2, [6, 7])] [6, 0, 4, 1, 5, 7, 2, 3]) (-1) 1,
    -- 633: t4.aaabaaab += einsum(t2.abab, (0, 1, 2, 3), t1.aa, (4, 5), t1.aa, (6, 7), (6, 0, 4, 1, 2, 7, 5, 3))
    .add 15 (.ein [(7, [0, 1, 2, 3]), (2, [4, 5]), (2, [6, 7])] [6, 0, 4, 1, 2, 7, 5, 3]) 1 1,
    -- 634: t4.aaabaaab += einsum(t1.bb, (0, 1), t2.aaaa, (2, 3, 4, 5), t1.aa, (6, 7), (6, 2, 3, 0, 4, 7, 5, 1))
    .add 15 (.ein [(6, [0, 1]), (3, [2, 3, 4, 5]), (2, [6, 7])] [6, 2, 3, 0, 4, 7, 5, 1]) 1 1,
    -- 635: t4.aaabaaab += einsum(t2.abab, (0, 1, 2, 3), t1.aa, (4, 5), t1.aa, (6, 7), (4, 6, 0, 1, 7, 2, 5, 3)) * -1
    .add 15 (.ein [(7, [0, 1, 2, 3]), (2, [4, 5]), (2, [6, 7])] [4, 6, 0, 1, 7, 2, 5, 3]) (-1) 1,
    -- 636: t4.aaabaaab += einsum(t1.aa, (0, 1), t2.abab, (2, 3, 4, 5), t1.aa, (6, 7), (6, 0, 2, 3, 4, 1, 7, 5))
    .add 15 (.ein [(2, [0, 1]), (7, [2, 3, 4, 5]), (2, [6, 7])] [6, 0, 2, 3, 4, 1, 7, 5]) 1 1,
    -- 637: t4.aaabaaab += einsum(t1.aa, (0, 1), t2.abab, (2, 3, 4, 5), t1.aa, (6, 7), (0, 2, 6, 3, 7, 4, 1, 5))
    .add 15 (.ein [(2, [0, 1]), (7, [2, 3, 4, 5]), (2, [6, 7])] [0, 2, 6, 3, 7, 4, 1, 5]) 1 1,
    -- 638: t4.aaabaaab += einsum(t2.abab, (0, 1, 2, 3), t1.aa, (4, 5), t1.aa, (6, 7), (4, 0, 6, 1, 2, 7, 5, 3)) * -1
    .add 15 (.ein [(7, [0, 1, 2, 3]), (2, [4, 5]), (2, [6, 7])] [4, 0, 6, 1, 2, 7, 5, 3]) (-1) 1,
    -- 639: t4.aaabaaab += einsum(t2.aaaa, (0, 1, 2, 3), t1.aa, (4, 5), t1.bb, (6, 7), (4, 0, 1, 6, 2, 3, 5, 7)) * -1
    .add 15 (.ein [(3, [0, 1, 2, 3]), (2, [4, 5]), (6, [6, 7])] [4, 0, 1, 6, 2, 3, 5, 7]) (-1) 1,
    -- 640: t4.aaabaaab += einsum(t2.abab, (0, 1, 2, 3), t1.aa, (4, 5), t1.aa, (6, 7), (0, 6, 4, 1, 7, 5, 2, 3)) * -1
    .add 15 (.ein [(7, [0, 1, 2, 3]), (2, [4, 5]), (2, [6, 7])] [0, 6, 4, 1, 7, 5, 2, 3]) (-1) 1,
    -- 641: t4.aaabaaab += einsum(t2.abab, (0, 1, 2, 3), t1.aa, (4, 5), t1.aa, (6, 7), (0, 4, 6, 1, 5, 2, 7, 3))
    .add 15 (.ein [(7, [0, 1, 2, 3]), (2, [4, 5]), (2, [6, 7])] [0, 4, 6, 1, 5, 2, 7, 3]) 1 1,
    -- 642: t4.aaabaaab += einsum(t1.bb, (0, 1), t1.aa, (2, 3), t2.aaaa, (4, 5, 6, 7), (4, 2, 5, 0, 3, 6, 7, 1))
    .add 15 (.ein [(6, [0, 1]), (2, [2, 3]), (3, [4, 5, 6, 7])] [4, 2, 5, 0, 3, 6, 7, 1]) 1 1,
    -- 643: t4.aaabaaab += einsum(t1.aa, (0, 1), t2.abab, (2, 3, 4, 5), t1.aa, (6, 7), (2, 0, 6, 3, 7, 1, 4, 5))
    .add 15 (.ein [(2, [0, 1]), (7, [2, 3, 4, 5]), (2, [6, 7])] [2, 0, 6, 3, 7, 1, 4, 5]) 1 1,
    -- 644: t4.aaabaaab += einsum(t1.aa, (0, 1), t1.aa, (2, 3), t2.abab, (4, 5, 6, 7), (4, 0, 2, 5, 6, 1, 3, 7)) * -1
    .add 15 (.ein [(2, [0, 1]), (2, [2, 3]), (7, [4, 5, 6, 7])] [4, 0, 2, 5, 6, 1, 3, 7]) (-1) 1,
    -- 645: t4.aaabaaab += einsum(t1.aa, (0, 1), t2.aaaa, (2, 3, 4, 5), t1.bb, (6, 7), (2, 0, 3, 6, 4, 1, 5, 7)) * -1
    .add 15 (.ein [(2, [0, 1]), (3, [2, 3, 4, 5]), (6, [6, 7])] [2, 0, 3, 6, 4, 1, 5, 7]) (-1) 1,
    -- 646: t4.aaabaaab += einsum(t2.abab, (0, 1, 2, 3), t1.aa, (4, 5), t1.aa, (6, 7), (0, 4, 6, 1, 7, 2, 5, 3)) * -1
    .add 15 (.ein [(7, [0, 1, 2, 3]), (2, [4, 5]), (2, [6, 7])] [0, 4, 6, 1, 7, 2, 5, 3]) (-1) 1,
    -- 647: t4.aaabaaab += einsum(t1.aa, (0, 1), t1.aa, (2, 3), t2.abab, (4, 5, 6, 7), (4, 2, 0, 5, 6, 1, 3, 7))
    .add 15 (.ein [(2, [0, 1]), (2, [2, 3]), (7, [4, 5, 6, 7])] [4, 2, 0, 5, 6, 1, 3, 7]) 1 1,
    -- 648: t4.aaabaaab += einsum(t1.bb, (0, 1), t1.aa, (2, 3), t2.aaaa, (4, 5, 6, 7), (4, 2, 5, 0, 6, 7, 3, 1))
    .add 15 (.ein [(6, [0, 1]), (2, [2, 3]), (3, [4, 5, 6, 7])] [4, 2, 5, 0, 6, 7, 3, 1]) 1 1,
    -- 649: t4.aaabaaab += einsum(t2.aaaa, (0, 1, 2, 3), t1.bb, (4, 5), t1.aa, (6, 7), (0, 1, 6, 4, 7, 2, 3, 5)) * -1
    .add 15 (.ein [(3, [0, 1, 2, 3]), (6, [4, 5]), (2, [6, 7])] [0, 1, 6, 4, 7, 2, 3, 5]) (-1) 1,
    -- 650: t4.aaabaaab += einsum(t2.aaaa, (0, 1, 2, 3), t1.bb, (4, 5), t1.aa, (6, 7), (0, 1, 6, 4, 2, 7, 3, 5))
    .add 15 (.ein [(3, [0, 1, 2, 3]), (6, [4, 5]), (2, [6, 7])] [0, 1, 6, 4, 2, 7, 3, 5]) 1 1,
    -- 651: t4.aaabaaab += einsum(t2.aaaa, (0, 1, 2, 3), t1.bb, (4, 5), t1.aa, (6, 7), (0, 1, 6, 4, 2, 3, 7, 5)) * -1
    .add 15 (.ein [(3, [0, 1, 2, 3]), (6, [4, 5]), (2, [6, 7])] [0, 1, 6, 4, 2, 3, 7, 5]) (-1) 1,
    -- 652: t4.aaabaaab += einsum(t1.aa, (0, 1), t1.bb, (2, 3), t1.aa, (4, 5), t1.aa, (6, 7), (4, 0, 6, 2, 5, 1, 7, 3)) * -1
    .add 15 (.ein [(2, [0, 1]), (6, [2, 3]), (2, [4, 5]), (2, [6, 7])] [4, 0, 6, 2, 5, 1, 7, 3]) (-1) 1,
    -- 653: t4.aaabaaab += einsum(t1.aa, (0, 1), t1.bb, (2, 3), t1.aa, (4, 5), t1.aa, (6, 7), (4, 6, 0, 2, 5, 1, 7, 3))
    .add 15 (.ein [(2, [0, 1]), (6, [2, 3]), (2, [4, 5]), (2, [6, 7])] [4, 6, 0, 2, 5, 1, 7, 3]) 1 1,
    -- 654: t4.aaabaaab += einsum(t1.bb, (0, 1), t1.aa, (2, 3), t1.aa, (4, 5), t1.aa, (6, 7), (6, 2, 4, 0, 3, 7, 5, 1))
    .add 15 (.ein [(6, [0, 1]), (2, [2, 3]), (2, [4, 5]), (2, [6, 7])] [6, 2, 4, 0, 3, 7, 5, 1]) 1 1,
    -- 655: t4.aaabaaab += einsum(t1.aa, (0, 1), t1.bb, (2, 3), t1.aa, (4, 5), t1.aa, (6, 7), (6, 4, 0, 2, 1, 7, 5, 3)) * -1
    .add 15 (.ein [(2, [0, 1]), (6, [2, 3]), (2, [4, 5]), (2, [6, 7])] [6, 4, 0, 2, 1, 7, 5, 3]) (-1) 1,
    -- 656: t4.aaabaaab += einsum(t1.aa, (0, 1), t1.aa, (2, 3), t1.bb, (4, 5), t1.aa, (6, 7), (2, 6, 0, 4, 7, 1, 3, 5)) * -1
    .add 15 (.ein [(2, [0, 1]), (2, [2, 3]), (6, [4, 5]), (2, [6, 7])] [2, 6, 0, 4, 7, 1, 3, 5]) (-1) 1,
    -- 657: t4.aaabaaab += einsum(t1.aa, (0, 1), t1.aa, (2, 3), t1.bb, (4, 5), t1.aa, (6, 7), (2, 0, 6, 4, 7, 1, 3, 5))
    .add 15 (.ein [(2, [0, 1]), (2, [2, 3]), (6, [4, 5]), (2, [6, 7])] [2, 0, 6, 4, 7, 1, 3, 5]) 1 1,
    -- 658: t4.bbbbbbbb = np.copy(np.transpose(c4.bbbbbbbb, (0, 1, 2, 3, 4, 5, 7, 6))) * -0.5
    .set 16 (.tr 8 [0, 1, 2, 3, 4, 5, 7, 6]) (-1) 2,
    -- 659: t4.bbbbbbbb += np.transpose(c4.bbbbbbbb, (0, 1, 2, 3, 4, 5, 7, 6)) * -0.5
    .add 16 (.tr 8 [0, 1, 2, 3, 4, 5, 7, 6]) (-1) 2,
    -- 660: t4.bbbbbbbb += einsum(t3.bbbbbb, (0, 1, 2, 3, 4, 5), t1.bb, (6, 7), (6, 0, 1, 2, 7, 3, 4, 5)) * -0.5
    .add 16 (.ein [(9, [0, 1, 2, 3, 4, 5]), (6, [6, 7])] [6, 0, 1, 2, 7, 3, 4, 5]) (-1) 2,
    -- 661: t4.bbbbbbbb += einsum(t3.bbbbbb, (0, 1, 2, 3, 4, 5), t1.bb, (6, 7), (6, 0, 1, 2, 7, 3, 4, 5)) * -0.5
    .add 16 (.ein [(9, [0, 1, 2, 3, 4, 5]), (6, [6, 7])] [6, 0, 1, 2, 7, 3, 4, 5]) (-1) 2,
    -- 662: t4.bbbbbbbb += einsum(t1.bb, (0, 1), t3.bbbbbb, (2, 3, 4, 5, 6, 7), (0, 2, 3, 4, 5, 1, 6, 7)) * 0.5
    .add 16 (.ein [(6, [0, 1]), (9, [2, 3, 4, 5, 6, 7])] [0, 2, 3, 4, 5, 1, 6, 7]) 1 2,
    -- 663: t4.bbbbbbbb += einsum(t1.bb, (0, 1), t3.bbbbbb, (2, 3, 4, 5, 6, 7), (0, 2, 3, 4, 5, 1, 6, 7)) * 0.5
    .add 16 (.ein [(6, [0, 1]), (9, [2, 3, 4, 5, 6, 7])] [0, 2, 3, 4, 5, 1, 6, 7]) 1 2,
    -- 664: t4.bbbbbbbb += einsum(t1.bb, (0, 1), t3.bbbbbb, (2, 3, 4, 5, 6, 7), (0, 2, 3, 4, 5, 6, 1, 7)) * -0.5
    .add 16 (.ein [(6, [0, 1]), (9, [2, 3, 4, 5, 6, 7])] [0, 2, 3, 4, 5, 6, 1, 7]) (-1) 2,
    -- 665: t4.bbbbbbbb += einsum(t1.bb, (0, 1), t3.bbbbbb, (2, 3, 4, 5, 6, 7), (0, 2, 3, 4, 5, 6, 1, 7)) * -0.5
    .add 16 (.ein [(6, [0, 1]), (9, [2, 3, 4, 5, 6, 7])] [0, 2, 3, 4, 5, 6, 1, 7]) (-1) 2,
    -- 666: t4.bbbbbbbb += einsum(t3.bbbbbb, (0, 1, 2, 3, 4, 5), t1.bb, (6, 7), (6, 0, 1, 2, 3, 4, 5, 7)) * 0.5
    .add 16 (.ein [(9, [0, 1, 2, 3, 4, 5]), (6, [6, 7])] [6, 0, 1, 2, 3, 4, 5, 7]) 1 2,
    -- 667: t4.bbbbbbbb += einsum(t3.bbbbbb, (0, 1, 2, 3, 4, 5), t1.bb, (6, 7), (6, 0, 1, 2, 3, 4, 5, 7)) * 0.5
    .add 16 (.ein [(9, [0, 1, 2, 3, 4, 5]), (6, [6, 7])] [6, 0, 1, 2, 3, 4, 5, 7]) 1 2,
    -- 668: t4.bbbbbbbb += einsum(t1.bb, (0, 1), t3.bbbbbb, (2, 3, 4, 5, 6, 7), (2, 0, 3, 4, 1, 5, 6, 7)) * 0.5
    .add 16 (.ein [(6, [0, 1]), (9, [2, 3, 4, 5, 6, 7])] [2, 0, 3, 4, 1, 5, 6, 7]) 1 2,
    -- 669: t4.bbbbbbbb += einsum(t1.bb, (0, 1), t3.bbbbbb, (2, 3, 4, 5, 6, 7), (2, 0, 3, 4, 1, 5, 6, 7)) * 0.5
    .add 16 (.ein [(6, [0, 1]), (9, [2, 3, 4, 5, 6, 7])] [2, 0, 3, 4, 1, 5, 6, 7]) 1 2,
    -- 670: t4.bbbbbbbb += einsum(t1.bb, (0, 1), t3.bbbbbb, (2, 3, 4, 5, 6, 7), (2, 0, 3, 4, 5, 1, 6, 7)) * -0.5
    .add 16 (.ein [(6, [0, 1]), (9, [2, 3, 4, 5, 6, 7])] [2, 0, 3, 4, 5, 1, 6, 7]) (-1) 2,
    -- 671: t4.bbbbbbbb += einsum(t1.bb, (0, 1), t3.bbbbbb, (2, 3, 4, 5, 6, 7), (2, 0, 3, 4, 5, 1, 6, 7)) * -0.5
    .add 16 (.ein [(6, [0, 1]), (9, [2, 3, 4, 5, 6, 7])] [2, 0, 3, 4, 5, 1, 6, 7]) (-1) 2,
    -- 672: t4.bbbbbbbb += einsum(t1.bb, (0, 1), t3.bbbbbb, (2, 3, 4, 5, 6, 7), (2, 0, 3, 4, 5, 6, 1, 7)) * 0.5
    .add 16 (.ein [(6, [0, 1]), (9, [2, 3, 4, 5, 6, 7])] [2, 0, 3, 4, 5, 6, 1, 7]) 1 2,
    -- 673: t4.bbbbbbbb += einsum(t1.bb, (0, 1), t3.bbbbbb, (2, 3, 4, 5, 6, 7), (2, 0, 3, 4, 5, 6, 1, 7)) * 0.5
    .add 16 (.ein [(6, [0, 1]), (9, [2, 3, 4, 5, 6, 7])] [2, 0, 3, 4, 5, 6, 1, 7]) 1 2,
    -- 674: t4.bbbbbbbb += einsum(t1.bb, (0, 1), t3.bbbbbb, (2, 3, 4, 5, 6, 7), (2, 0, 3, 4, 5, 6, 7, 1)) * -0.5
    .add 16 (.ein [(6, [0, 1]), (9, [2, 3, 4, 5, 6, 7])] [2, 0, 3, 4, 5, 6, 7, 1]) (-1) 2,
    -- 675: t4.bbbbbbbb += einsum(t1.bb, (0, 1), t3.bbbbbb, (2, 3, 4, 5, 6, 7), (2, 0, 3, 4, 5, 6, 7, 1)) * -0.5
    .add 16 (.ein [(6, [0, 1]), (9, [2, 3, 4, 5, 6, 7])] [2, 0, 3, 4, 5, 6, 7, 1]) (-1) 2,
    -- 676: t4.bbbbbbbb += einsum(t1.bb, (0, 1), t3.bbbbbb, (2, 3, 4, 5, 6, 7), (2, 3, 0, 4, 1, 5, 6, 7)) * -0.5
    .add 16 (.ein [(6, [0, 1]), (9, [2, 3, 4, 5, 6, 7])] [2, 3, 0, 4, 1, 5, 6, 7]) (-1) 2,
    -- 677: t4.bbbbbbbb += einsum(t1.bb, (0, 1), t3.bbbbbb, (2, 3, 4, 5, 6, 7), (2, 3, 0, 4, 1, 5, 6, 7)) * -0.5
    .add 16 (.ein [(6, [0, 1]), (9, [2, 3, 4, 5, 6, 7])] [2, 3, 0, 4, 1, 5, 6, 7]) (-1) 2,
    -- 678: t4.bbbbbbbb += einsum(t1.bb, (0, 1), t3.bbbbbb, (2, 3, 4, 5, 6, 7), (2, 3, 0, 4, 5, 1, 6, 7)) * 0.5
    .add 16 (.ein [(6, [0, 1]), (9, [2, 3, 4, 5, 6, 7])] [2, 3, 0, 4, 5, 1, 6, 7]) 1 2,
    -- 679: t4.bbbbbbbb += einsum(t1.bb, (0, 1), t3.bbbbbb, (2, 3, 4, 5, 6, 7), (2, 3, 0, 4, 5, 1, 6, 7)) * 0.5
    .add 16 (.ein [(6, [0, 1]), (9, [2, 3, 4, 5, 6, 7])] [2, 3, 0, 4, 5, 1, 6, 7]) 1 2,
    -- 680: t4.bbbbbbbb += einsum(t1.bb, (0, 1), t3.bbbbbb, (2, 3, 4, 5, 6, 7), (2, 3, 0, 4, 5, 6, 1, 7)) * -0.5
    .add 16 (.ein [(6, [0, 1]), (9, [2, 3, 4, 5, 6, 7])] [2, 3, 0, 4, 5, 6, 1, 7]) (-1) 2,
    -- 681: t4.bbbbbbbb += einsum(t1.bb, (0, 1), t3.bbbbbb, (2, 3, 4, 5, 6, 7), (2, 3, 0, 4, 5, 6, 1, 7)) * -0.5
    .add 16 (.ein [(6, [0, 1]), (9, [2, 3, 4, 5, 6, 7])] [2, 3, 0, 4, 5, 6, 1, 7]) (-1) 2,
    -- 682: t4.bbbbbbbb += einsum(t1.bb, (0, 1), t3.bbbbbb, (2, 3, 4, 5, 6, 7), (2, 3, 0, 4, 5, 6, 7, 1)) * 0.5
    .add 16 (.ein [(6, [0, 1]), (9, [2, 3, 4, 5, 6, 7])] [2, 3, 0, 4, 5, 6, 7, 1]) 1 2,
    -- 683: t4.bbbbbbbb += einsum(t1.bb, (0, 1), t3.bbbbbb, (2, 3, 4, 5, 6, 7), (2, 3, 0, 4, 5, 6, 7, 1)) * 0.5
    .add 16 (.ein [(6, [0, 1]), (9, [2, 3, 4, 5, 6, 7])] [2, 3, 0, 4, 5, 6, 7, 1]) 1 2,
    -- 684: t4.bbbbbbbb += einsum(t3.bbbbbb, (0, 1, 2, 3, 4, 5), t1.bb, (6, 7), (0, 1, 2, 6, 7, 3, 4, 5)) * 0.5
    .add 16 (.ein [(9, [0, 1, 2, 3, 4, 5]), (6, [6, 7])] [0, 1, 2, 6, 7, 3, 4, 5]) 1 2,
    -- 685: t4.bbbbbbbb += einsum(t3.bbbbbb, (0, 1, 2, 3, 4, 5), t1.bb, (6, 7), (0, 1, 2, 6, 7, 3, 4, 5)) * 0.5
    .add 16 (.ein [(9, [0, 1, 2, 3, 4, 5]), (6, [6, 7])] [0, 1, 2, 6, 7, 3, 4, 5]) 1 2,
    -- 686: t4.bbbbbbbb += einsum(t3.bbbbbb, (0, 1, 2, 3, 4, 5), t1.bb, (6, 7), (0, 1, 2, 6, 3, 7, 4, 5)) * -0.5
    .add 16 (.ein [(9, [0, 1, 2, 3, 4, 5]), (6, [6, 7])] [0, 1, 2, 6, 3, 7, 4, 5]) (-1) 2,
    -- 687: t4.bbbbbbbb += einsum(t3.bbbbbb, (0, 1, 2, 3, 4, 5), t1.bb, (6, 7), (0, 1, 2, 6, 3, 7, 4, 5)) * -0.5
    .add 16 (.ein [(9, [0, 1, 2, 3, 4, 5]), (6, [6, 7])] [0, 1, 2, 6, 3, 7, 4, 5]) (-1) 2,
    -- 688: t4.bbbbbbbb += einsum(t3.bbbbbb, (0, 1, 2, 3, 4, 5), t1.bb, (6, 7), (0, 1, 2, 6, 3, 4, 7, 5)) * 0.5
    .add 16 (.ein [(9, [0, 1, 2, 3, 4, 5]), (6, [6, 7])] [0, 1, 2, 6, 3, 4, 7, 5]) 1 2,
    -- 689: t4.bbbbbbbb += einsum(t3.bbbbbb, (0, 1, 2, 3, 4, 5), t1.bb, (6, 7), (0, 1, 2, 6, 3, 4, 7, 5)) * 0.5
    .add 16 (.ein [(9, [0, 1, 2, 3, 4, 5]), (6, [6, 7])] [0, 1, 2, 6, 3, 4, 7, 5]) 1 2,
    -- 690: t4.bbbbbbbb += einsum(t1.bb, (0, 1), t3.bbbbbb, (2, 3, 4, 5, 6, 7), (2, 3, 4, 0, 5, 6, 7, 1)) * -0.5
    .add 16 (.ein [(6, [0, 1]), (9, [2, 3, 4, 5, 6, 7])] [2, 3, 4, 0, 5, 6, 7, 1]) (-1) 2,
    -- 691: t4.bbbbbbbb += einsum(t1.bb, (0, 1), t3.bbbbbb, (2, 3, 4, 5, 6, 7), (2, 3, 4, 0, 5, 6, 7, 1)) * -0.5
    .add 16 (.ein [(6, [0, 1]), (9, [2, 3, 4, 5, 6, 7])] [2, 3, 4, 0, 5, 6, 7, 1]) (-1) 2,
    -- 692: t4.bbbbbbbb += einsum(t2.bbbb, (0, 1, 2, 3), t2.bbbb, (4, 5, 6, 7), (0, 1, 4, 5, 2, 3, 6, 7)) * -1
    .add 16 (.ein [(10, [0, 1, 2, 3]), (10, [4, 5, 6, 7])] [0, 1, 4, 5, 2, 3, 6, 7]) (-1) 1,
    -- 693: t4.bbbbbbbb += einsum(t2.bbbb, (0, 1, 2, 3), t2.bbbb, (4, 5, 6, 7), (0, 1, 4, 5, 2, 6, 3, 7))
    .add 16 (.ein [(10, [0, 1, 2, 3]), (10, [4, 5, 6, 7])] [0, 1, 4, 5, 2, 6, 3, 7]) 1 1,
    -- 694: t4.bbbbbbbb += einsum(t2.bbbb, (0, 1, 2, 3), t2.bbbb, (4, 5, 6, 7), (0, 1, 4, 5, 2, 6, 7, 3)) * -1
    .add 16 (.ein [(10, [0, 1, 2, 3]), (10, [4, 5, 6, 7])] [0, 1, 4, 5, 2, 6, 7, 3]) (-1) 1,
    -- 695: t4.bbbbbbbb += einsum(t2.bbbb, (0, 1, 2, 3), t2.bbbb, (4, 5, 6, 7), (0, 1, 4, 5, 6, 2, 3, 7)) * -1
    .add 16 (.ein [(10, [0, 1, 2, 3]), (10, [4, 5, 6, 7])] [0, 1, 4, 5, 6, 2, 3, 7]) (-1) 1,
    -- 696: t4.bbbbbbbb += einsum(t2.bbbb, (0, 1, 2, 3), t2.bbbb, (4, 5, 6, 7), (4, 5, 0, 1, 2, 6, 3, 7))
    .add 16 (.ein [(10, [0, 1, 2, 3]), (10, [4, 5, 6, 7])] [4, 5, 0, 1, 2, 6, 3, 7]) 1 1,
    -- 697: t4.bbbbbbbb += einsum(t2.bbbb, (0, 1, 2, 3), t2.bbbb, (4, 5, 6, 7), (0, 1, 4, 5, 6, 7, 2, 3)) * -1
    .add 16 (.ein [(10, [0, 1, 2, 3]), (10, [4, 5, 6, 7])] [0, 1, 4, 5, 6, 7, 2, 3]) (-1) 1,
    -- 698: t4.bbbbbbbb += einsum(t2.bbbb, (0, 1, 2, 3), t2.bbbb, (4, 5, 6, 7), (0, 4, 1, 5, 2, 3, 6, 7))
    .add 16 (.ein [(10, [0, 1, 2, 3]), (10, [4, 5, 6, 7])] [0, 4, 1, 5, 2, 3, 6, 7]) 1 1,
    -- 699: t4.bbbbbbbb += einsum(t2.bbbb, (0, 1, 2, 3), t2.bbbb, (4, 5, 6, 7), (0, 4, 1, 5, 2, 6, 3, 7)) * -1
    .add 16 (.ein [(10, [0, 1, 2, 3]), (10, [4, 5, 6, 7])] [0, 4, 1, 5, 2, 6, 3, 7]) (-1) 1,
    -- 700: t4.bbbbbbbb += einsum(t2.bbbb, (0, 1, 2, 3), t2.bbbb, (4, 5, 6, 7), (4, 0, 5, 1, 6, 2, 3, 7))
    .add 16 (.ein [(10, [0, 1, 2, 3]), (10, [4, 5, 6, 7])] [4, 0, 5, 1, 6, 2, 3, 7]) 1 1,
    -- 701: t4.bbbbbbbb += einsum(t2.bbbb, (0, 1, 2, 3), t2.bbbb, (4, 5, 6, 7), (4, 0, 5, 1, 2, 6, 7, 3))
    .add 16 (.ein [(10, [0, 1, 2, 3]), (10, [4, 5, 6, 7])] [4, 0, 5, 1, 2, 6, 7, 3]) 1 1,
    -- 702: t4.bbbbbbbb += einsum(t2.bbbb, (0, 1, 2, 3), t2.bbbb, (4, 5, 6, 7), (0, 4, 1, 5, 6, 2, 7, 3)) * -1
    .add 16 (.ein [(10, [0, 1, 2, 3]), (10, [4, 5, 6, 7])] [0, 4, 1, 5, 6, 2, 7, 3]) (-1) 1,
    -- 703: t4.bbbbbbbb += einsum(t2.bbbb, (0, 1, 2, 3), t2.bbbb, (4, 5, 6, 7), (4, 0, 5, 1, 2, 3, 6, 7))
    .add 16 (.ein [(10, [0, 1, 2, 3]), (10, [4, 5, 6, 7])] [4, 0, 5, 1, 2, 3, 6, 7]) 1 1,
    -- 704: t4.bbbbbbbb += einsum(t2.bbbb, (0, 1, 2, 3), t2.bbbb, (4, 5, 6, 7), (0, 4, 5, 1, 2, 3, 6, 7)) * -1
    .add 16 (.ein [(10, [0, 1, 2, 3]), (10, [4, 5, 6, 7])] [0, 4, 5, 1, 2, 3, 6, 7]) (-1) 1,
    -- 705: t4.bbbbbbbb += einsum(t2.bbbb, (0, 1, 2, 3), t2.bbbb, (4, 5, 6, 7), (0, 4, 5, 1, 2, 6, 3, 7))
    .add 16 (.ein [(10, [0, 1, 2, 3]), (10, [4, 5, 6, 7])] [0, 4, 5, 1, 2, 6, 3, 7]) 1 1,
    -- 706: t4.bbbbbbbb += einsum(t2.bbbb, (0, 1, 2, 3), t2.bbbb, (4, 5, 6, 7), (0, 4, 5, 1, 2, 6, 7, 3)) * -1
    .add 16 (.ein [(10, [0, 1, 2, 3]), (10, [4, 5, 6, 7])] [0, 4, 5, 1, 2, 6, 7, 3]) (-1) 1,
    -- 707: t4.bbbbbbbb += einsum(t2.bbbb, (0, 1, 2, 3), t2.bbbb, (4, 5, 6, 7), (0, 4, 5, 1, 6, 2, 3, 7)) * -1
    .add 16 (.ein [(10, [0, 1, 2, 3]), (10, [4, 5, 6, 7])] [0, 4, 5, 1, 6, 2, 3, 7]) (-1) 1,
    -- 708: t4.bbbbbbbb += einsum(t2.bbbb, (0, 1, 2, 3), t2.bbbb, (4, 5, 6, 7), (0, 4, 5, 1, 6, 2, 7, 3))
    .add 16 (.ein [(10, [0, 1, 2, 3]), (10, [4, 5, 6, 7])] [0, 4, 5, 1, 6, 2, 7, 3]) 1 1,
    -- 709: t4.bbbbbbbb += einsum(t2.bbbb, (0, 1, 2, 3), t2.bbbb, (4, 5, 6, 7), (0, 4, 5, 1, 6, 7, 2, 3)) * -1
    .add 16 (.ein [(10, [0, 1, 2, 3]), (10, [4, 5, 6, 7])] [0, 4, 5, 1, 6, 7, 2, 3]) (-1) 1,
    -- 710: t4.bbbbbbbb += einsum(t1.bb, (0, 1), t1.bb, (2, 3), t2.bbbb, (4, 5, 6, 7), (2, 0, 4, 5, 3, 1, 6, 7)) * -1
    .add 16 (.ein [(6, [0, 1]), (6, [2, 3]), (10, [4, 5, 6, 7])] [2, 0, 4, 5, 3, 1, 6, 7]) (-1) 1,
    -- 711: t4.bbbbbbbb += einsum(t1.bb, (0, 1), t2.bbbb, (2, 3, 4, 5), t1.bb, (6, 7), (6, 0, 2, 3, 7, 4, 1, 5))
    .add 16 (.ein [(6, [0, 1]), (10, [2, 3, 4, 5]), (6, [6, 7])] [6, 0, 2, 3, 7, 4, 1, 5]) 1 1,
    -- 712: t4.bbbbbbbb += einsum(t1.bb, (0, 1), t2.bbbb, (2, 3, 4, 5), t1.bb, (6, 7), (6, 0, 2, 3, 7, 4, 5, 1)) * -1
    .add 16 (.ein [(6, [0, 1]), (10, [2, 3, 4, 5]), (6, [6, 7])] [6, 0, 2, 3, 7, 4, 5, 1]) (-1) 1,
    -- 713: t4.bbbbbbbb += einsum(t1.bb, (0, 1), t1.bb, (2, 3), t2.bbbb, (4, 5, 6, 7), (2, 4, 0, 5, 3, 1, 6, 7))
    .add 16 (.ein [(6, [0, 1]), (6, [2, 3]), (10, [4, 5, 6, 7])] [2, 4, 0, 5, 3, 1, 6, 7]) 1 1,
    -- 714: t4.bbbbbbbb += einsum(t1.bb, (0, 1), t1.bb, (2, 3), t2.bbbb, (4, 5, 6, 7), (2, 4, 0, 5, 3, 6, 1, 7)) * -1
    .add 16 (.ein [(6, [0, 1]), (6, [2, 3]), (10, [4, 5, 6, 7])] [2, 4, 0, 5, 3, 6, 1, 7]) (-1) 1,
    -- 715: t4.bbbbbbbb += einsum(t1.bb, (0, 1), t1.bb, (2, 3), t2.bbbb, (4, 5, 6, 7), (2, 4, 0, 5, 3, 6, 7, 1))
    .add 16 (.ein [(6, [0, 1]), (6, [2, 3]), (10, [4, 5, 6, 7])] [2, 4, 0, 5, 3, 6, 7, 1]) 1 1,
    -- 716: t4.bbbbbbbb += einsum(t1.bb, (0, 1), t1.bb, (2, 3), t2.bbbb, (4, 5, 6, 7), (2, 4, 5, 0, 3, 1, 6, 7)) * -1
    .add 16 (.ein [(6, [0, 1]), (6, [2, 3]), (10, [4, 5, 6, 7])] [2, 4, 5, 0, 3, 1, 6, 7]) (-1) 1,
    -- 717: t4.bbbbbbbb += einsum(t1.bb, (0, 1), t1.bb, (2, 3), t2.bbbb, (4, 5, 6, 7), (0, 4, 5, 2, 1, 6, 3, 7))
    .add 16 (.ein [(6, [0, 1]), (6, [2, 3]), (10, [4, 5, 6, 7])] [0, 4, 5, 2, 1, 6, 3, 7]) 1 1,
    -- 718: t4.bbbbbbbb += einsum(t2.bbbb, (0, 1, 2, 3), t1.bb, (4, 5), t1.bb, (6, 7), (4, 0, 1, 6, 5, 2, 3, 7)) * -1
    .add 16 (.ein [(10, [0, 1, 2, 3]), (6, [4, 5]), (6, [6, 7])] [4, 0, 1, 6, 5, 2, 3, 7]) (-1) 1,
    -- 719: t4.bbbbbbbb += einsum(t1.bb, (0, 1), t1.bb, (2, 3), t2.bbbb, (4, 5, 6, 7), (2, 0, 4, 5, 1, 3, 6, 7))
    .add 16 (.ein [(6, [0, 1]), (6, [2, 3]), (10, [4, 5, 6, 7])] [2, 0, 4, 5, 1, 3, 6, 7]) 1 1,
    -- 720: t4.bbbbbbbb += einsum(t1.bb, (0, 1), t1.bb, (2, 3), t2.bbbb, (4, 5, 6, 7), (2, 0, 4, 5, 6, 3, 1, 7)) * -1
    .add 16 (.ein [(6, [0, 1]), (6, [2, 3]), (10, [4, 5, 6, 7])] [2, 0, 4, 5, 6, 3, 1, 7]) (-1) 1,
    -- 721: t4.bbbbbbbb += einsum(t1.bb, (0, 1), t2.bbbb, (2, 3, 4, 5), t1.bb, (6, 7), (6, 0, 2, 3, 4, 7, 5, 1))
    .add 16 (.ein [(6, [0, 1]), (10, [2, 3, 4, 5]), (6, [6, 7])] [6, 0, 2, 3, 4, 7, 5, 1]) 1 1,
    -- 722: t4.bbbbbbbb += einsum(t1.bb, (0, 1), t1.bb, (2, 3), t2.bbbb, (4, 5, 6, 7), (2, 4, 0, 5, 1, 3, 6, 7)) * -1
    .add 16 (.ein [(6, [0, 1]), (6, [2, 3]), (10, [4, 5, 6, 7])] [2, 4, 0, 5, 1, 3, 6, 7]) (-1) 1,
    -- 723: t4.bbbbbbbb += einsum(t1.bb, (0, 1), t1.bb, (2, 3), t2.bbbb, (4, 5, 6, 7), (2, 4, 0, 5, 6, 3, 1, 7))
    .add 16 (.ein [(6, [0, 1]), (6, [2, 3]), (10, [4, 5, 6, 7])] [2, 4, 0, 5, 6, 3, 1, 7]) 1 1,
    -- 724: t4.bbbbbbbb += einsum(t1.bb, (0, 1), t1.bb, (2, 3), t2.bbbb, (4, 5, 6, 7), (2, 4, 0, 5, 6, 3, 7, 1)) * -1
    .add 16 (.ein [(6, [0, 1]), (6, [2, 3]), (10, [4, 5, 6, 7])] [2, 4, 0, 5, 6, 3, 7, 1]) (-1) 1,
    -- 725: t4.bbbbbbbb += einsum(t2.bbbb, (0, 1, 2, 3), t1.bb, (4, 5), t1.bb, (6, 7), (4, 0, 1, 6, 7, 5, 2, 3))
    .add 16 (.ein [(10, [0, 1, 2, 3]), (6, [4, 5]), (6, [6, 7])] [4, 0, 1, 6, 7, 5, 2, 3]) 1 1,
    -- 726: t4.bbbbbbbb += einsum(t1.bb, (0, 1), t1.bb, (2, 3), t2.bbbb, (4, 5, 6, 7), (0, 4, 5, 2, 6, 1, 3, 7)) * -1
    .add 16 (.ein [(6, [0, 1]), (6, [2, 3]), (10, [4, 5, 6, 7])] [0, 4, 5, 2, 6, 1, 3, 7]) (-1) 1,
    -- 727: t4.bbbbbbbb += einsum(t2.bbbb, (0, 1, 2, 3), t1.bb, (4, 5), t1.bb, (6, 7), (4, 0, 1, 6, 2, 5, 3, 7))
    .add 16 (.ein [(10, [0, 1, 2, 3]), (6, [4, 5]), (6, [6, 7])] [4, 0, 1, 6, 2, 5, 3, 7]) 1 1,
    -- 728: t4.bbbbbbbb += einsum(t2.bbbb, (0, 1, 2, 3), t1.bb, (4, 5), t1.bb, (6, 7), (6, 4, 0, 1, 5, 2, 7, 3)) * -1
    .add 16 (.ein [(10, [0, 1, 2, 3]), (6, [4, 5]), (6, [6, 7])] [6, 4, 0, 1, 5, 2, 7, 3]) (-1) 1,
    -- 729: t4.bbbbbbbb += einsum(t2.bbbb, (0, 1, 2, 3), t1.bb, (4, 5), t1.bb, (6, 7), (6, 4, 0, 1, 2, 5, 7, 3))
    .add 16 (.ein [(10, [0, 1, 2, 3]), (6, [4, 5]), (6, [6, 7])] [6, 4, 0, 1, 2, 5, 7, 3]) 1 1,
    -- 730: t4.bbbbbbbb += einsum(t1.bb, (0, 1), t1.bb, (2, 3), t2.bbbb, (4, 5, 6, 7), (2, 0, 4, 5, 6, 7, 3, 1)) * -1
    .add 16 (.ein [(6, [0, 1]), (6, [2, 3]), (10, [4, 5, 6, 7])] [2, 0, 4, 5, 6, 7, 3, 1]) (-1) 1,
    -- 731: t4.bbbbbbbb += einsum(t1.bb, (0, 1), t1.bb, (2, 3), t2.bbbb, (4, 5, 6, 7), (2, 4, 0, 5, 1, 6, 3, 7))
    .add 16 (.ein [(6, [0, 1]), (6, [2, 3]), (10, [4, 5, 6, 7])] [2, 4, 0, 5, 1, 6, 3, 7]) 1 1,
    -- 732: t4.bbbbbbbb += einsum(t1.bb, (0, 1), t1.bb, (2, 3), t2.bbbb, (4, 5, 6, 7), (2, 4, 0, 5, 6, 1, 3, 7)) * -1
    .add 16 (.ein [(6, [0, 1]), (6, [2, 3]), (10, [4, 5, 6, 7])] [2, 4, 0, 5, 6, 1, 3, 7]) (-1) 1,
    -- 733: t4.bbbbbbbb += einsum(t1.bb, (0, 1), t1.bb, (2, 3), t2.bbbb, (4, 5, 6, 7), (2, 4, 0, 5, 6, 7, 3, 1))
    .add 16 (.ein [(6, [0, 1]), (6, [2, 3]), (10, [4, 5, 6, 7])] [2, 4, 0, 5, 6, 7, 3, 1]) 1 1,
    -- 734: t4.bbbbbbbb += einsum(t1.bb, (0, 1), t2.bbbb, (2, 3, 4, 5), t1.bb, (6, 7), (0, 2, 3, 6, 7, 4, 1, 5)) * -1
    .add 16 (.ein [(6, [0, 1]), (10, [2, 3, 4, 5]), (6, [6, 7])] [0, 2, 3, 6, 7, 4, 1, 5]) (-1) 1,
    -- 735: t4.bbbbbbbb += einsum(t1.bb, (0, 1), t1.bb, (2, 3), t2.bbbb, (4, 5, 6, 7), (0, 4, 5, 2, 6, 3, 1, 7))
    .add 16 (.ein [(6, [0, 1]), (6, [2, 3]), (10, [4, 5, 6, 7])] [0, 4, 5, 2, 6, 3, 1, 7]) 1 1,
    -- 736: t4.bbbbbbbb += einsum(t2.bbbb, (0, 1, 2, 3), t1.bb, (4, 5), t1.bb, (6, 7), (4, 0, 1, 6, 2, 3, 5, 7)) * -1
    .add 16 (.ein [(10, [0, 1, 2, 3]), (6, [4, 5]), (6, [6, 7])] [4, 0, 1, 6, 2, 3, 5, 7]) (-1) 1,
    -- 737: t4.bbbbbbbb += einsum(t2.bbbb, (0, 1, 2, 3), t1.bb, (4, 5), t1.bb, (6, 7), (6, 4, 0, 1, 5, 2, 3, 7))
    .add 16 (.ein [(10, [0, 1, 2, 3]), (6, [4, 5]), (6, [6, 7])] [6, 4, 0, 1, 5, 2, 3, 7]) 1 1,
    -- 738: t4.bbbbbbbb += einsum(t1.bb, (0, 1), t1.bb, (2, 3), t2.bbbb, (4, 5, 6, 7), (2, 0, 4, 5, 6, 1, 7, 3)) * -1
    .add 16 (.ein [(6, [0, 1]), (6, [2, 3]), (10, [4, 5, 6, 7])] [2, 0, 4, 5, 6, 1, 7, 3]) (-1) 1,
    -- 739: t4.bbbbbbbb += einsum(t1.bb, (0, 1), t1.bb, (2, 3), t2.bbbb, (4, 5, 6, 7), (2, 0, 4, 5, 6, 7, 1, 3))
    .add 16 (.ein [(6, [0, 1]), (6, [2, 3]), (10, [4, 5, 6, 7])] [2, 0, 4, 5, 6, 7, 1, 3]) 1 1,
    -- 740: t4.bbbbbbbb += einsum(t1.bb, (0, 1), t1.bb, (2, 3), t2.bbbb, (4, 5, 6, 7), (2, 4, 0, 5, 1, 6, 7, 3)) * -1
    .add 16 (.ein [(6, [0, 1]), (6, [2, 3]), (10, [4, 5, 6, 7])] [2, 4, 0, 5, 1, 6, 7, 3]) (-1) 1,
    -- 741: t4.bbbbbbbb += einsum(t1.bb, (0, 1), t1.bb, (2, 3), t2.bbbb, (4, 5, 6, 7), (2, 4, 0, 5, 6, 1, 7, 3))
    .add 16 (.ein [(6, [0, 1]), (6, [2, 3]), (10, [4, 5, 6, 7])] [2, 4, 0, 5, 6, 1, 7, 3]) 1 1,
    -- 742: t4.bbbbbbbb += einsum(t1.bb, (0, 1), t1.bb, (2, 3), t2.bbbb, (4, 5, 6, 7), (2, 4, 0, 5, 6, 7, 1, 3)) * -1
    .add 16 (.ein [(6, [0, 1]), (6, [2, 3]), (10, [4, 5, 6, 7])] [2, 4, 0, 5, 6, 7, 1, 3]) (-1) 1,
    -- 743: t4.bbbbbbbb += einsum(t2.bbbb, (0, 1, 2, 3), t1.bb, (4, 5), t1.bb, (6, 7), (4, 0, 1, 6, 7, 2, 3, 5))
    .add 16 (.ein [(10, [0, 1, 2, 3]), (6, [4, 5]), (6, [6, 7])] [4, 0, 1, 6, 7, 2, 3, 5]) 1 1,
    -- 744: t4.bbbbbbbb += einsum(t2.bbbb, (0, 1, 2, 3), t1.bb, (4, 5), t1.bb, (6, 7), (4, 0, 1, 6, 2, 7, 3, 5)) * -1
    .add 16 (.ein [(10, [0, 1, 2, 3]), (6, [4, 5]), (6, [6, 7])] [4, 0, 1, 6, 2, 7, 3, 5]) (-1) 1,
    -- 745: t4.bbbbbbbb += einsum(t1.bb, (0, 1), t2.bbbb, (2, 3, 4, 5), t1.bb, (6, 7), (0, 2, 3, 6, 4, 5, 7, 1))
    .add 16 (.ein [(6, [0, 1]), (10, [2, 3, 4, 5]), (6, [6, 7])] [0, 2, 3, 6, 4, 5, 7, 1]) 1 1,
    -- 746: t4.bbbbbbbb += einsum(t1.bb, (0, 1), t2.bbbb, (2, 3, 4, 5), t1.bb, (6, 7), (2, 0, 6, 3, 1, 7, 4, 5)) * -1
    .add 16 (.ein [(6, [0, 1]), (10, [2, 3, 4, 5]), (6, [6, 7])] [2, 0, 6, 3, 1, 7, 4, 5]) (-1) 1,
    -- 747: t4.bbbbbbbb += einsum(t1.bb, (0, 1), t1.bb, (2, 3), t2.bbbb, (4, 5, 6, 7), (4, 0, 2, 5, 1, 6, 3, 7))
    .add 16 (.ein [(6, [0, 1]), (6, [2, 3]), (10, [4, 5, 6, 7])] [4, 0, 2, 5, 1, 6, 3, 7]) 1 1,
    -- 748: t4.bbbbbbbb += einsum(t2.bbbb, (0, 1, 2, 3), t1.bb, (4, 5), t1.bb, (6, 7), (0, 4, 6, 1, 5, 2, 3, 7)) * -1
    .add 16 (.ein [(10, [0, 1, 2, 3]), (6, [4, 5]), (6, [6, 7])] [0, 4, 6, 1, 5, 2, 3, 7]) (-1) 1,
    -- 749: t4.bbbbbbbb += einsum(t1.bb, (0, 1), t2.bbbb, (2, 3, 4, 5), t1.bb, (6, 7), (2, 0, 3, 6, 1, 7, 4, 5))
    .add 16 (.ein [(6, [0, 1]), (10, [2, 3, 4, 5]), (6, [6, 7])] [2, 0, 3, 6, 1, 7, 4, 5]) 1 1,
    -- 750: t4.bbbbbbbb += einsum(t1.bb, (0, 1), t2.bbbb, (2, 3, 4, 5), t1.bb, (6, 7), (2, 0, 3, 6, 1, 4, 7, 5)) * -1
    .add 16 (.ein [(6, [0, 1]), (10, [2, 3, 4, 5]), (6, [6, 7])] [2, 0, 3, 6, 1, 4, 7, 5]) (-1) 1,
    -- 751: t4.bbbbbbbb += einsum(t1.bb, (0, 1), t1.bb, (2, 3), t2.bbbb, (4, 5, 6, 7), (4, 0, 5, 2, 1, 6, 7, 3))
    .add 16 (.ein [(6, [0, 1]), (6, [2, 3]), (10, [4, 5, 6, 7])] [4, 0, 5, 2, 1, 6, 7, 3]) 1 1,
    -- 752: t4.bbbbbbbb += einsum(t1.bb, (0, 1), t1.bb, (2, 3), t2.bbbb, (4, 5, 6, 7), (4, 0, 2, 5, 3, 1, 6, 7))
    .add 16 (.ein [(6, [0, 1]), (6, [2, 3]), (10, [4, 5, 6, 7])] [4, 0, 2, 5, 3, 1, 6, 7]) 1 1,
    -- 753: t4.bbbbbbbb += einsum(t1.bb, (0, 1), t1.bb, (2, 3), t2.bbbb, (4, 5, 6, 7), (4, 0, 2, 5, 6, 1, 3, 7)) * -1
    .add 16 (.ein [(6, [0, 1]), (6, [2, 3]), (10, [4, 5, 6, 7])] [4, 0, 2, 5, 6, 1, 3, 7]) (-1) 1,
    -- 754: t4.bbbbbbbb += einsum(t2.bbbb, (0, 1, 2, 3), t1.bb, (4, 5), t1.bb, (6, 7), (0, 4, 6, 1, 2, 5, 3, 7))
    .add 16 (.ein [(10, [0, 1, 2, 3]), (6, [4, 5]), (6, [6, 7])] [0, 4, 6, 1, 2, 5, 3, 7]) 1 1,
    -- 755: t4.bbbbbbbb += einsum(t1.bb, (0, 1), t2.bbbb, (2, 3, 4, 5), t1.bb, (6, 7), (2, 0, 3, 6, 7, 1, 4, 5)) * -1
    .add 16 (.ein [(6, [0, 1]), (10, [2, 3, 4, 5]), (6, [6, 7])] [2, 0, 3, 6, 7, 1, 4, 5]) (-1) 1,
    -- 756: t4.bbbbbbbb += einsum(t1.bb, (0, 1), t2.bbbb, (2, 3, 4, 5), t1.bb, (6, 7), (2, 0, 3, 6, 4, 1, 7, 5))
    .add 16 (.ein [(6, [0, 1]), (10, [2, 3, 4, 5]), (6, [6, 7])] [2, 0, 3, 6, 4, 1, 7, 5]) 1 1,
    -- 757: t4.bbbbbbbb += einsum(t2.bbbb, (0, 1, 2, 3), t1.bb, (4, 5), t1.bb, (6, 7), (0, 4, 1, 6, 2, 5, 3, 7)) * -1
    .add 16 (.ein [(10, [0, 1, 2, 3]), (6, [4, 5]), (6, [6, 7])] [0, 4, 1, 6, 2, 5, 3, 7]) (-1) 1,
    -- 758: t4.bbbbbbbb += einsum(t1.bb, (0, 1), t2.bbbb, (2, 3, 4, 5), t1.bb, (6, 7), (2, 0, 6, 3, 7, 4, 1, 5)) * -1
    .add 16 (.ein [(6, [0, 1]), (10, [2, 3, 4, 5]), (6, [6, 7])] [2, 0, 6, 3, 7, 4, 1, 5]) (-1) 1,
    -- 759: t4.bbbbbbbb += einsum(t1.bb, (0, 1), t1.bb, (2, 3), t2.bbbb, (4, 5, 6, 7), (4, 0, 2, 5, 6, 3, 1, 7))
    .add 16 (.ein [(6, [0, 1]), (6, [2, 3]), (10, [4, 5, 6, 7])] [4, 0, 2, 5, 6, 3, 1, 7]) 1 1,
    -- 760: t4.bbbbbbbb += einsum(t1.bb, (0, 1), t1.bb, (2, 3), t2.bbbb, (4, 5, 6, 7), (4, 0, 2, 5, 6, 7, 1, 3)) * -1
    .add 16 (.ein [(6, [0, 1]), (6, [2, 3]), (10, [4, 5, 6, 7])] [4, 0, 2, 5, 6, 7, 1, 3]) (-1) 1,
    -- 761: t4.bbbbbbbb += einsum(t1.bb, (0, 1), t2.bbbb, (2, 3, 4, 5), t1.bb, (6, 7), (2, 0, 3, 6, 7, 4, 1, 5))
    .add 16 (.ein [(6, [0, 1]), (10, [2, 3, 4, 5]), (6, [6, 7])] [2, 0, 3, 6, 7, 4, 1, 5]) 1 1,
    -- 762: t4.bbbbbbbb += einsum(t1.bb, (0, 1), t2.bbbb, (2, 3, 4, 5), t1.bb, (6, 7), (2, 0, 3, 6, 4, 7, 1, 5)) * -1
    .add 16 (.ein [(6, [0, 1]), (10, [2, 3, 4, 5]), (6, [6, 7])] [2, 0, 3, 6, 4, 7, 1, 5]) (-1) 1,
    -- 763: t4.bbbbbbbb += einsum(t1.bb, (0, 1), t2.bbbb, (2, 3, 4, 5), t1.bb, (6, 7), (2, 0, 3, 6, 4, 5, 1, 7))
    .add 16 (.ein [(6, [0, 1]), (10, [2, 3, 4, 5]), (6, [6, 7])] [2, 0, 3, 6, 4, 5, 1, 7]) 1 1,
    -- 764: t4.bbbbbbbb += einsum(t1.bb, (0, 1), t1.bb, (2, 3), t2.bbbb, (4, 5, 6, 7), (4, 0, 2, 5, 3, 6, 7, 1))
    .add 16 (.ein [(6, [0, 1]), (6, [2, 3]), (10, [4, 5, 6, 7])] [4, 0, 2, 5, 3, 6, 7, 1]) 1 1,
    -- 765: t4.bbbbbbbb += einsum(t1.bb, (0, 1), t1.bb, (2, 3), t2.bbbb, (4, 5, 6, 7), (4, 0, 2, 5, 6, 3, 7, 1)) * -1
    .add 16 (.ein [(6, [0, 1]), (6, [2, 3]), (10, [4, 5, 6, 7])] [4, 0, 2, 5, 6, 3, 7, 1]) (-1) 1,
    -- 766: t4.bbbbbbbb += einsum(t1.bb, (0, 1), t1.bb, (2, 3), t2.bbbb, (4, 5, 6, 7), (4, 0, 2, 5, 6, 7, 3, 1))
    .add 16 (.ein [(6, [0, 1]), (6, [2, 3]), (10, [4, 5, 6, 7])] [4, 0, 2, 5, 6, 7, 3, 1]) 1 1,
    -- 767: t4.bbbbbbbb += einsum(t1.bb, (0, 1), t2.bbbb, (2, 3, 4, 5), t1.bb, (6, 7), (2, 0, 3, 6, 7, 4, 5, 1)) * -1
    .add 16 (.ein [(6, [0, 1]), (10, [2, 3, 4, 5]), (6, [6, 7])] [2, 0, 3, 6, 7, 4, 5, 1]) (-1) 1,
    -- 768: t4.bbbbbbbb += einsum(t1.bb, (0, 1), t2.bbbb, (2, 3, 4, 5), t1.bb, (6, 7), (2, 0, 3, 6, 4, 7, 5, 1))
    .add 16 (.ein [(6, [0, 1]), (10, [2, 3, 4, 5]), (6, [6, 7])] [2, 0, 3, 6, 4, 7, 5, 1]) 1 1,
    -- 769: t4.bbbbbbbb += einsum(t1.bb, (0, 1), t2.bbbb, (2, 3, 4, 5), t1.bb, (6, 7), (2, 0, 3, 6, 4, 5, 7, 1)) * -1
    .add 16 (.ein [(6, [0, 1]), (10, [2, 3, 4, 5]), (6, [6, 7])] [2, 0, 3, 6, 4, 5, 7, 1]) (-1) 1,
    -- 770: t4.bbbbbbbb += einsum(t2.bbbb, (0, 1, 2, 3), t1.bb, (4, 5), t1.bb, (6, 7), (0, 1, 4, 6, 5, 7, 2, 3)) * -1
    .add 16 (.ein [(10, [0, 1, 2, 3]), (6, [4, 5]), (6, [6, 7])] [0, 1, 4, 6, 5, 7, 2, 3]) (-1) 1,
    -- 771: t4.bbbbbbbb += einsum(t1.bb, (0, 1), t1.bb, (2, 3), t2.bbbb, (4, 5, 6, 7), (4, 5, 0, 2, 1, 6, 3, 7))
    .add 16 (.ein [(6, [0, 1]), (6, [2, 3]), (10, [4, 5, 6, 7])] [4, 5, 0, 2, 1, 6, 3, 7]) 1 1,
    -- 772: t4.bbbbbbbb += einsum(t2.bbbb, (0, 1, 2, 3), t1.bb, (4, 5), t1.bb, (6, 7), (0, 1, 4, 6, 5, 2, 3, 7)) * -1
    .add 16 (.ein [(10, [0, 1, 2, 3]), (6, [4, 5]), (6, [6, 7])] [0, 1, 4, 6, 5, 2, 3, 7]) (-1) 1,
    -- 773: t4.bbbbbbbb += einsum(t2.bbbb, (0, 1, 2, 3), t1.bb, (4, 5), t1.bb, (6, 7), (0, 1, 4, 6, 7, 5, 2, 3))
    .add 16 (.ein [(10, [0, 1, 2, 3]), (6, [4, 5]), (6, [6, 7])] [0, 1, 4, 6, 7, 5, 2, 3]) 1 1,
    -- 774: t4.bbbbbbbb += einsum(t1.bb, (0, 1), t2.bbbb, (2, 3, 4, 5), t1.bb, (6, 7), (2, 3, 0, 6, 4, 1, 7, 5)) * -1
    .add 16 (.ein [(6, [0, 1]), (10, [2, 3, 4, 5]), (6, [6, 7])] [2, 3, 0, 6, 4, 1, 7, 5]) (-1) 1,
    -- 775: t4.bbbbbbbb += einsum(t2.bbbb, (0, 1, 2, 3), t1.bb, (4, 5), t1.bb, (6, 7), (0, 1, 4, 6, 2, 5, 3, 7))
    .add 16 (.ein [(10, [0, 1, 2, 3]), (6, [4, 5]), (6, [6, 7])] [0, 1, 4, 6, 2, 5, 3, 7]) 1 1,
    -- 776: t4.bbbbbbbb += einsum(t1.bb, (0, 1), t1.bb, (2, 3), t2.bbbb, (4, 5, 6, 7), (4, 5, 0, 2, 3, 6, 1, 7)) * -1
    .add 16 (.ein [(6, [0, 1]), (6, [2, 3]), (10, [4, 5, 6, 7])] [4, 5, 0, 2, 3, 6, 1, 7]) (-1) 1,
    -- 777: t4.bbbbbbbb += einsum(t1.bb, (0, 1), t2.bbbb, (2, 3, 4, 5), t1.bb, (6, 7), (2, 3, 0, 6, 4, 7, 1, 5))
    .add 16 (.ein [(6, [0, 1]), (10, [2, 3, 4, 5]), (6, [6, 7])] [2, 3, 0, 6, 4, 7, 1, 5]) 1 1,
    -- 778: t4.bbbbbbbb += einsum(t1.bb, (0, 1), t2.bbbb, (2, 3, 4, 5), t1.bb, (6, 7), (2, 3, 0, 6, 4, 5, 1, 7)) * -1
    .add 16 (.ein [(6, [0, 1]), (10, [2, 3, 4, 5]), (6, [6, 7])] [2, 3, 0, 6, 4, 5, 1, 7]) (-1) 1,
    -- 779: t4.bbbbbbbb += einsum(t2.bbbb, (0, 1, 2, 3), t1.bb, (4, 5), t1.bb, (6, 7), (0, 1, 4, 6, 7, 2, 3, 5))
    .add 16 (.ein [(10, [0, 1, 2, 3]), (6, [4, 5]), (6, [6, 7])] [0, 1, 4, 6, 7, 2, 3, 5]) 1 1,
    -- 780: t4.bbbbbbbb += einsum(t2.bbbb, (0, 1, 2, 3), t1.bb, (4, 5), t1.bb, (6, 7), (0, 1, 4, 6, 2, 7, 3, 5)) * -1
    .add 16 (.ein [(10, [0, 1, 2, 3]), (6, [4, 5]), (6, [6, 7])] [0, 1, 4, 6, 2, 7, 3, 5]) (-1) 1,
    -- 781: t4.bbbbbbbb += einsum(t1.bb, (0, 1), t2.bbbb, (2, 3, 4, 5), t1.bb, (6, 7), (2, 3, 0, 6, 4, 5, 7, 1))
    .add 16 (.ein [(6, [0, 1]), (10, [2, 3, 4, 5]), (6, [6, 7])] [2, 3, 0, 6, 4, 5, 7, 1]) 1 1,
    -- 782: t4.bbbbbbbb += einsum(t1.bb, (0, 1), t1.bb, (2, 3), t1.bb, (4, 5), t1.bb, (6, 7), (4, 0, 2, 6, 5, 1, 3, 7)) * -1
    .add 16 (.ein [(6, [0, 1]), (6, [2, 3]), (6, [4, 5]), (6, [6, 7])] [4, 0, 2, 6, 5, 1, 3, 7]) (-1) 1,
    -- 783: t4.bbbbbbbb += einsum(t1.bb, (0, 1), t1.bb, (2, 3), t1.bb, (4, 5), t1.bb, (6, 7), (2, 0, 6, 4, 3, 1, 5, 7))
    .add 16 (.ein [(6, [0, 1]), (6, [2, 3]), (6, [4, 5]), (6, [6, 7])] [2, 0, 6, 4, 3, 1, 5, 7]) 1 1,
    -- 784: t4.bbbbbbbb += einsum(t1.bb, (0, 1), t1.bb, (2, 3), t1.bb, (4, 5), t1.bb, (6, 7), (4, 0, 2, 6, 5, 3, 1, 7))
    .add 16 (.ein [(6, [0, 1]), (6, [2, 3]), (6, [4, 5]), (6, [6, 7])] [4, 0, 2, 6, 5, 3, 1, 7]) 1 1,
    -- 785: t4.bbbbbbbb += einsum(t1.bb, (0, 1), t1.bb, (2, 3), t1.bb, (4, 5), t1.bb, (6, 7), (6, 0, 2, 4, 7, 5, 1, 3)) * -1
    .add 16 (.ein [(6, [0, 1]), (6, [2, 3]), (6, [4, 5]), (6, [6, 7])] [6, 0, 2, 4, 7, 5, 1, 3]) (-1) 1,
    -- 786: t4.bbbbbbbb += einsum(t1.bb, (0, 1), t1.bb, (2, 3), t1.bb, (4, 5), t1.bb, (6, 7), (4, 0, 2, 6, 5, 3, 7, 1)) * -1
    .add 16 (.ein [(6, [0, 1]), (6, [2, 3]), (6, [4, 5]), (6, [6, 7])] [4, 0, 2, 6, 5, 3, 7, 1]) (-1) 1,
    -- 787: t4.bbbbbbbb += einsum(t1.bb, (0, 1), t1.bb, (2, 3), t1.bb, (4, 5), t1.bb, (6, 7), (6, 0, 2, 4, 7, 5, 3, 1))
    .add 16 (.ein [(6, [0, 1]), (6, [2, 3]), (6, [4, 5]), (6, [6, 7])] [6, 0, 2, 4, 7, 5, 3, 1]) 1 1,
    -- 788: t4.bbbbbbbb += einsum(t1.bb, (0, 1), t1.bb, (2, 3), t1.bb, (4, 5), t1.bb, (6, 7), (2, 0, 6, 4, 1, 3, 7, 5))
    .add 16 (.ein [(6, [0, 1]), (6, [2, 3]), (6, [4, 5]), (6, [6, 7])] [2, 0, 6, 4, 1, 3, 7, 5]) 1 1,
    -- 789: t4.bbbbbbbb += einsum(t1.bb, (0, 1), t1.bb, (2, 3), t1.bb, (4, 5), t1.bb, (6, 7), (2, 0, 6, 4, 1, 3, 5, 7)) * -1
    .add 16 (.ein [(6, [0, 1]), (6, [2, 3]), (6, [4, 5]), (6, [6, 7])] [2, 0, 6, 4, 1, 3, 5, 7]) (-1) 1,
    -- 790: t4.bbbbbbbb += einsum(t1.bb, (0, 1), t1.bb, (2, 3), t1.bb, (4, 5), t1.bb, (6, 7), (4, 0, 2, 6, 3, 5, 1, 7)) * -1
    .add 16 (.ein [(6, [0, 1]), (6, [2, 3]), (6, [4, 5]), (6, [6, 7])] [4, 0, 2, 6, 3, 5, 1, 7]) (-1) 1,
    -- 791: t4.bbbbbbbb += einsum(t1.bb, (0, 1), t1.bb, (2, 3), t1.bb, (4, 5), t1.bb, (6, 7), (4, 0, 2, 6, 7, 5, 1, 3))
    .add 16 (.ein [(6, [0, 1]), (6, [2, 3]), (6, [4, 5]), (6, [6, 7])] [4, 0, 2, 6, 7, 5, 1, 3]) 1 1,
    -- 792: t4.bbbbbbbb += einsum(t1.bb, (0, 1), t1.bb, (2, 3), t1.bb, (4, 5), t1.bb, (6, 7), (4, 0, 2, 6, 3, 5, 7, 1))
    .add 16 (.ein [(6, [0, 1]), (6, [2, 3]), (6, [4, 5]), (6, [6, 7])] [4, 0, 2, 6, 3, 5, 7, 1]) 1 1,
    -- 793: t4.bbbbbbbb += einsum(t1.bb, (0, 1), t1.bb, (2, 3), t1.bb, (4, 5), t1.bb, (6, 7), (4, 0, 2, 6, 7, 5, 3, 1)) * -1
    .add 16 (.ein [(6, [0, 1]), (6, [2, 3]), (6, [4, 5]), (6, [6, 7])] [4, 0, 2, 6, 7, 5, 3, 1]) (-1) 1,
    -- 794: t4.bbbbbbbb += einsum(t1.bb, (0, 1), t1.bb, (2, 3), t1.bb, (4, 5), t1.bb, (6, 7), (2, 0, 6, 4, 1, 7, 3, 5)) * -1
    .add 16 (.ein [(6, [0, 1]), (6, [2, 3]), (6, [4, 5]), (6, [6, 7])] [2, 0, 6, 4, 1, 7, 3, 5]) (-1) 1,
    -- 795: t4.bbbbbbbb += einsum(t1.bb, (0, 1), t1.bb, (2, 3), t1.bb, (4, 5), t1.bb, (6, 7), (2, 0, 6, 4, 1, 5, 3, 7))
    .add 16 (.ein [(6, [0, 1]), (6, [2, 3]), (6, [4, 5]), (6, [6, 7])] [2, 0, 6, 4, 1, 5, 3, 7]) 1 1,
    -- 796: t4.bbbbbbbb += einsum(t1.bb, (0, 1), t1.bb, (2, 3), t1.bb, (4, 5), t1.bb, (6, 7), (4, 0, 2, 6, 3, 1, 5, 7))
    .add 16 (.ein [(6, [0, 1]), (6, [2, 3]), (6, [4, 5]), (6, [6, 7])] [4, 0, 2, 6, 3, 1, 5, 7]) 1 1,
    -- 797: t4.bbbbbbbb += einsum(t1.bb, (0, 1), t1.bb, (2, 3), t1.bb, (4, 5), t1.bb, (6, 7), (2, 0, 6, 4, 5, 1, 3, 7)) * -1
    .add 16 (.ein [(6, [0, 1]), (6, [2, 3]), (6, [4, 5]), (6, [6, 7])] [2, 0, 6, 4, 5, 1, 3, 7]) (-1) 1,
    -- 798: t4.bbbbbbbb += einsum(t1.bb, (0, 1), t1.bb, (2, 3), t1.bb, (4, 5), t1.bb, (6, 7), (4, 0, 2, 6, 3, 7, 5, 1)) * -1
    .add 16 (.ein [(6, [0, 1]), (6, [2, 3]), (6, [4, 5]), (6, [6, 7])] [4, 0, 2, 6, 3, 7, 5, 1]) (-1) 1,
    -- 799: t4.bbbbbbbb += einsum(t1.bb, (0, 1), t1.bb, (2, 3), t1.bb, (4, 5), t1.bb, (6, 7), (4, 0, 2, 6, 7, 3, 5, 1))
    .add 16 (.ein [(6, [0, 1]), (6, [2, 3]), (6, [4, 5]), (6, [6, 7])] [4, 0, 2, 6, 7, 3, 5, 1]) 1 1,
    -- 800: t4.bbbbbbbb += einsum(t1.bb, (0, 1), t1.bb, (2, 3), t1.bb, (4, 5), t1.bb, (6, 7), (2, 0, 6, 4, 1, 7, 5, 3))
    .add 16 (.ein [(6, [0, 1]), (6, [2, 3]), (6, [4, 5]), (6, [6, 7])] [2, 0, 6, 4, 1, 7, 5, 3]) 1 1,
    -- 801: t4.bbbbbbbb += einsum(t1.bb, (0, 1), t1.bb, (2, 3), t1.bb, (4, 5), t1.bb, (6, 7), (2, 0, 6, 4, 1, 5, 7, 3)) * -1
    .add 16 (.ein [(6, [0, 1]), (6, [2, 3]), (6, [4, 5]), (6, [6, 7])] [2, 0, 6, 4, 1, 5, 7, 3]) (-1) 1,
    -- 802: t4.bbbbbbbb += einsum(t1.bb, (0, 1), t1.bb, (2, 3), t1.bb, (4, 5), t1.bb, (6, 7), (4, 0, 2, 6, 3, 1, 7, 5)) * -1
    .add 16 (.ein [(6, [0, 1]), (6, [2, 3]), (6, [4, 5]), (6, [6, 7])] [4, 0, 2, 6, 3, 1, 7, 5]) (-1) 1,
    -- 803: t4.bbbbbbbb += einsum(t1.bb, (0, 1), t1.bb, (2, 3), t1.bb, (4, 5), t1.bb, (6, 7), (2, 0, 6, 4, 5, 1, 7, 3))
    .add 16 (.ein [(6, [0, 1]), (6, [2, 3]), (6, [4, 5]), (6, [6, 7])] [2, 0, 6, 4, 5, 1, 7, 3]) 1 1,
    -- 804: t4.bbbbbbbb += einsum(t1.bb, (0, 1), t1.bb, (2, 3), t1.bb, (4, 5), t1.bb, (6, 7), (4, 0, 2, 6, 3, 7, 1, 5))
    .add 16 (.ein [(6, [0, 1]), (6, [2, 3]), (6, [4, 5]), (6, [6, 7])] [4, 0, 2, 6, 3, 7, 1, 5]) 1 1,
    -- 805: t4.bbbbbbbb += einsum(t1.bb, (0, 1), t1.bb, (2, 3), t1.bb, (4, 5), t1.bb, (6, 7), (4, 0, 2, 6, 7, 3, 1, 5)) * -1
    .add 16 (.ein [(6, [0, 1]), (6, [2, 3]), (6, [4, 5]), (6, [6, 7])] [4, 0, 2, 6, 7, 3, 1, 5]) (-1) 1,
    -- 806: t4.abababab = np.copy(c4.abababab) * 0.5
    .set 17 (.cp 11) 1 2,
    -- 807: t4.abababab += c4.abababab * 0.5
    .add 17 (.cp 11) 1 2,
    -- 808: t4.abababab += einsum(t3.babbab, (0, 1, 2, 3, 4, 5), t1.aa, (6, 7), (6, 0, 1, 2, 7, 3, 4, 5)) * -0.5
    .add 17 (.ein [(12, [0, 1, 2, 3, 4, 5]), (2, [6, 7])] [6, 0, 1, 2, 7, 3, 4, 5]) (-1) 2,
    -- 809: t4.abababab += einsum(t3.babbab, (0, 1, 2, 3, 4, 5), t1.aa, (6, 7), (6, 0, 1, 2, 7, 3, 4, 5)) * -0.5
    .add 17 (.ein [(12, [0, 1, 2, 3, 4, 5]), (2, [6, 7])] [6, 0, 1, 2, 7, 3, 4, 5]) (-1) 2,
    -- 810: t4.abababab += einsum(t3.babbab, (0, 1, 2, 3, 4, 5), t1.aa, (6, 7), (6, 0, 1, 2, 4, 3, 7, 5)) * 0.5
    .add 17 (.ein [(12, [0, 1, 2, 3, 4, 5]), (2, [6, 7])] [6, 0, 1, 2, 4, 3, 7, 5]) 1 2,
    -- 811: t4.abababab += einsum(t3.babbab, (0, 1, 2, 3, 4, 5), t1.aa, (6, 7), (6, 0, 1, 2, 4, 3, 7, 5)) * 0.5
    .add 17 (.ein [(12, [0, 1, 2, 3, 4, 5]), (2, [6, 7])] [6, 0, 1, 2, 4, 3, 7, 5]) 1 2,
    -- 812: t4.abababab += einsum(t1.bb, (0, 1), t3.abaaba, (2, 3, 4, 5, 6, 7), (2, 0, 4, 3, 7, 1, 5, 6)) * 0.5
    .add 17 (.ein [(6, [0, 1]), (5, [2, 3, 4, 5, 6, 7])] [2, 0, 4, 3, 7, 1, 5, 6]) 1 2,
    -- 813: t4.abababab += einsum(t1.bb, (0, 1), t3.abaaba, (2, 3, 4, 5, 6, 7), (2, 0, 4, 3, 7, 1, 5, 6)) * 0.5
    .add 17 (.ein [(6, [0, 1]), (5, [2, 3, 4, 5, 6, 7])] [2, 0, 4, 3, 7, 1, 5, 6]) 1 2,
    -- 814: t4.abababab += einsum(t1.bb, (0, 1), t3.abaaba, (2, 3, 4, 5, 6, 7), (2, 0, 4, 3, 7, 6, 5, 1)) * -0.5
    .add 17 (.ein [(6, [0, 1]), (5, [2, 3, 4, 5, 6, 7])] [2, 0, 4, 3, 7, 6, 5, 1]) (-1) 2,
    -- 815: t4.abababab += einsum(t1.bb, (0, 1), t3.abaaba, (2, 3, 4, 5, 6, 7), (2, 0, 4, 3, 7, 6, 5, 1)) * -0.5
    .add 17 (.ein [(6, [0, 1]), (5, [2, 3, 4, 5, 6, 7])] [2, 0, 4, 3, 7, 6, 5, 1]) (-1) 2,
    -- 816: t4.abababab += einsum(t3.babbab, (0, 1, 2, 3, 4, 5), t1.aa, (6, 7), (1, 0, 6, 2, 7, 3, 4, 5)) * 0.5
    .add 17 (.ein [(12, [0, 1, 2, 3, 4, 5]), (2, [6, 7])] [1, 0, 6, 2, 7, 3, 4, 5]) 1 2,
    -- 817: t4.abababab += einsum(t3.babbab, (0, 1, 2, 3, 4, 5), t1.aa, (6, 7), (1, 0, 6, 2, 7, 3, 4, 5)) * 0.5
    .add 17 (.ein [(12, [0, 1, 2, 3, 4, 5]), (2, [6, 7])] [1, 0, 6, 2, 7, 3, 4, 5]) 1 2,
    -- 818: t4.abababab += einsum(t1.aa, (0, 1), t3.babbab, (2, 3, 4, 5, 6, 7), (3, 2, 0, 4, 6, 5, 1, 7)) * -0.5
    .add 17 (.ein [(2, [0, 1]), (12, [2, 3, 4, 5, 6, 7])] [3, 2, 0, 4, 6, 5, 1, 7]) (-1) 2,
    -- 819: t4.abababab += einsum(t1.aa, (0, 1), t3.babbab, (2, 3, 4, 5, 6, 7), (3, 2, 0, 4, 6, 5, 1, 7)) * -0.5
    .add 17 (.ein [(2, [0, 1]), (12, [2, 3, 4, 5, 6, 7])] [3, 2, 0, 4, 6, 5, 1, 7]) (-1) 2,
    -- 820: t4.abababab += einsum(t3.abaaba, (0, 1, 2, 3, 4, 5), t1.bb, (6, 7), (0, 1, 2, 6, 5, 7, 3, 4)) * -0.5
    .add 17 (.ein [(5, [0, 1, 2, 3, 4, 5]), (6, [6, 7])] [0, 1, 2, 6, 5, 7, 3, 4]) (-1) 2,
    -- 821: t4.abababab += einsum(t3.abaaba, (0, 1, 2, 3, 4, 5), t1.bb, (6, 7), (0, 1, 2, 6, 5, 7, 3, 4)) * -0.5
    .add 17 (.ein [(5, [0, 1, 2, 3, 4, 5]), (6, [6, 7])] [0, 1, 2, 6, 5, 7, 3, 4]) (-1) 2,
    -- 822: t4.abababab += einsum(t1.bb, (0, 1), t3.abaaba, (2, 3, 4, 5, 6, 7), (2, 3, 4, 0, 7, 6, 5, 1)) * 0.5
    .add 17 (.ein [(6, [0, 1]), (5, [2, 3, 4, 5, 6, 7])] [2, 3, 4, 0, 7, 6, 5, 1]) 1 2,
    -- 823: t4.abababab += einsum(t1.bb, (0, 1), t3.abaaba, (2, 3, 4, 5, 6, 7), (2, 3, 4, 0, 7, 6, 5, 1)) * 0.5
    .add 17 (.ein [(6, [0, 1]), (5, [2, 3, 4, 5, 6, 7])] [2, 3, 4, 0, 7, 6, 5, 1]) 1 2,
    -- 824: t4.abababab += einsum(t2.abab, (0, 1, 2, 3), t2.abab, (4, 5, 6, 7), (4, 5, 0, 1, 6, 7, 2, 3)) * -1
    .add 17 (.ein [(7, [0, 1, 2, 3]), (7, [4, 5, 6, 7])] [4, 5, 0, 1, 6, 7, 2, 3]) (-1) 1,
    -- 825: t4.abababab += einsum(t2.abab, (0, 1, 2, 3), t2.abab, (4, 5, 6, 7), (4, 5, 0, 1, 6, 3, 2, 7))
    .add 17 (.ein [(7, [0, 1, 2, 3]), (7, [4, 5, 6, 7])] [4, 5, 0, 1, 6, 3, 2, 7]) 1 1,
    -- 826: t4.abababab += einsum(t2.abab, (0, 1, 2, 3), t2.abab, (4, 5, 6, 7), (0, 1, 4, 5, 6, 3, 2, 7))
    .add 17 (.ein [(7, [0, 1, 2, 3]), (7, [4, 5, 6, 7])] [0, 1, 4, 5, 6, 3, 2, 7]) 1 1,
    -- 827: t4.abababab += einsum(t2.abab, (0, 1, 2, 3), t2.abab, (4, 5, 6, 7), (4, 5, 0, 1, 2, 3, 6, 7)) * -1
    .add 17 (.ein [(7, [0, 1, 2, 3]), (7, [4, 5, 6, 7])] [4, 5, 0, 1, 2, 3, 6, 7]) (-1) 1,
    -- 828: t4.abababab += einsum(t2.bbbb, (0, 1, 2, 3), t2.aaaa, (4, 5, 6, 7), (4, 0, 5, 1, 6, 2, 7, 3)) * -1
    .add 17 (.ein [(10, [0, 1, 2, 3]), (3, [4, 5, 6, 7])] [4, 0, 5, 1, 6, 2, 7, 3]) (-1) 1,
    -- 829: t4.abababab += einsum(t2.abab, (0, 1, 2, 3), t2.abab, (4, 5, 6, 7), (0, 5, 4, 1, 2, 3, 6, 7))
    .add 17 (.ein [(7, [0, 1, 2, 3]), (7, [4, 5, 6, 7])] [0, 5, 4, 1, 2, 3, 6, 7]) 1 1,
    -- 830: t4.abababab += einsum(t2.abab, (0, 1, 2, 3), t2.abab, (4, 5, 6, 7), (0, 5, 4, 1, 2, 7, 6, 3)) * -1
    .add 17 (.ein [(7, [0, 1, 2, 3]), (7, [4, 5, 6, 7])] [0, 5, 4, 1, 2, 7, 6, 3]) (-1) 1,
    -- 831: t4.abababab += einsum(t2.abab, (0, 1, 2, 3), t2.abab, (4, 5, 6, 7), (0, 5, 4, 1, 6, 3, 2, 7)) * -1
    .add 17 (.ein [(7, [0, 1, 2, 3]), (7, [4, 5, 6, 7])] [0, 5, 4, 1, 6, 3, 2, 7]) (-1) 1,
    -- 832: t4.abababab += einsum(t2.abab, (0, 1, 2, 3), t2.abab, (4, 5, 6, 7), (0, 5, 4, 1, 6, 7, 2, 3))
    .add 17 (.ein [(7, [0, 1, 2, 3]), (7, [4, 5, 6, 7])] [0, 5, 4, 1, 6, 7, 2, 3]) 1 1,
    -- 833: t4.abababab += einsum(t2.abab, (0, 1, 2, 3), t1.bb, (4, 5), t1.aa, (6, 7), (6, 4, 0, 1, 7, 5, 2, 3)) * -1
    .add 17 (.ein [(7, [0, 1, 2, 3]), (6, [4, 5]), (2, [6, 7])] [6, 4, 0, 1, 7, 5, 2, 3]) (-1) 1,
    -- 834: t4.abababab += einsum(t2.abab, (0, 1, 2, 3), t1.bb, (4, 5), t1.aa, (6, 7), (6, 4, 0, 1, 7, 3, 2, 5))
    .add 17 (.ein [(7, [0, 1, 2, 3]), (6, [4, 5]), (2, [6, 7])] [6, 4, 0, 1, 7, 3, 2, 5]) 1 1,
    -- 835: t4.abababab += einsum(t1.aa, (0, 1), t2.bbbb, (2, 3, 4, 5), t1.aa, (6, 7), (6, 2, 0, 3, 7, 4, 1, 5)) * -1
    .add 17 (.ein [(2, [0, 1]), (10, [2, 3, 4, 5]), (2, [6, 7])] [6, 2, 0, 3, 7, 4, 1, 5]) (-1) 1,
    -- 836: t4.abababab += einsum(t1.bb, (0, 1), t2.abab, (2, 3, 4, 5), t1.aa, (6, 7), (6, 3, 2, 0, 7, 1, 4, 5))
    .add 17 (.ein [(6, [0, 1]), (7, [2, 3, 4, 5]), (2, [6, 7])] [6, 3, 2, 0, 7, 1, 4, 5]) 1 1,
    -- 837: t4.abababab += einsum(t1.bb, (0, 1), t1.aa, (2, 3), t2.abab, (4, 5, 6, 7), (2, 5, 4, 0, 3, 7, 6, 1)) * -1
    .add 17 (.ein [(6, [0, 1]), (2, [2, 3]), (7, [4, 5, 6, 7])] [2, 5, 4, 0, 3, 7, 6, 1]) (-1) 1,
    -- 838: t4.abababab += einsum(t2.abab, (0, 1, 2, 3), t1.bb, (4, 5), t1.aa, (6, 7), (6, 4, 0, 1, 2, 5, 7, 3))
    .add 17 (.ein [(7, [0, 1, 2, 3]), (6, [4, 5]), (2, [6, 7])] [6, 4, 0, 1, 2, 5, 7, 3]) 1 1,
    -- 839: t4.abababab += einsum(t2.abab, (0, 1, 2, 3), t1.bb, (4, 5), t1.aa, (6, 7), (6, 4, 0, 1, 2, 3, 7, 5)) * -1
    .add 17 (.ein [(7, [0, 1, 2, 3]), (6, [4, 5]), (2, [6, 7])] [6, 4, 0, 1, 2, 3, 7, 5]) (-1) 1,
    -- 840: t4.abababab += einsum(t2.bbbb, (0, 1, 2, 3), t1.aa, (4, 5), t1.aa, (6, 7), (6, 0, 4, 1, 5, 2, 7, 3))
    .add 17 (.ein [(10, [0, 1, 2, 3]), (2, [4, 5]), (2, [6, 7])] [6, 0, 4, 1, 5, 2, 7, 3]) 1 1,
    -- 841: t4.abababab += einsum(t1.bb, (0, 1), t2.abab, (2, 3, 4, 5), t1.aa, (6, 7), (6, 3, 2, 0, 4, 1, 7, 5)) * -1
    .add 17 (.ein [(6, [0, 1]), (7, [2, 3, 4, 5]), (2, [6, 7])] [6, 3, 2, 0, 4, 1, 7, 5]) (-1) 1,
    -- 842: t4.abababab += einsum(t1.bb, (0, 1), t2.abab, (2, 3, 4, 5), t1.aa, (6, 7), (6, 3, 2, 0, 4, 5, 7, 1))
    .add 17 (.ein [(6, [0, 1]), (7, [2, 3, 4, 5]), (2, [6, 7])] [6, 3, 2, 0, 4, 5, 7, 1]) 1 1,
    -- 843: t4.abababab += einsum(t2.abab, (0, 1, 2, 3), t1.bb, (4, 5), t1.aa, (6, 7), (0, 4, 6, 1, 7, 5, 2, 3))
    .add 17 (.ein [(7, [0, 1, 2, 3]), (6, [4, 5]), (2, [6, 7])] [0, 4, 6, 1, 7, 5, 2, 3]) 1 1,
    -- 844: t4.abababab += einsum(t1.aa, (0, 1), t2.abab, (2, 3, 4, 5), t1.bb, (6, 7), (2, 6, 0, 3, 4, 7, 1, 5)) * -1
    .add 17 (.ein [(2, [0, 1]), (7, [2, 3, 4, 5]), (6, [6, 7])] [2, 6, 0, 3, 4, 7, 1, 5]) (-1) 1,
    -- 845: t4.abababab += einsum(t1.bb, (0, 1), t1.bb, (2, 3), t2.aaaa, (4, 5, 6, 7), (4, 2, 5, 0, 6, 3, 7, 1)) * -1
    .add 17 (.ein [(6, [0, 1]), (6, [2, 3]), (3, [4, 5, 6, 7])] [4, 2, 5, 0, 6, 3, 7, 1]) (-1) 1,
    -- 846: t4.abababab += einsum(t2.abab, (0, 1, 2, 3), t1.bb, (4, 5), t1.aa, (6, 7), (0, 4, 6, 1, 7, 3, 2, 5)) * -1
    .add 17 (.ein [(7, [0, 1, 2, 3]), (6, [4, 5]), (2, [6, 7])] [0, 4, 6, 1, 7, 3, 2, 5]) (-1) 1,
    -- 847: t4.abababab += einsum(t1.aa, (0, 1), t2.abab, (2, 3, 4, 5), t1.bb, (6, 7), (2, 6, 0, 3, 4, 5, 1, 7))
    .add 17 (.ein [(2, [0, 1]), (7, [2, 3, 4, 5]), (6, [6, 7])] [2, 6, 0, 3, 4, 5, 1, 7]) 1 1,
    -- 848: t4.abababab += einsum(t1.bb, (0, 1), t1.bb, (2, 3), t2.aaaa, (4, 5, 6, 7), (4, 2, 5, 0, 6, 1, 7, 3))
    .add 17 (.ein [(6, [0, 1]), (6, [2, 3]), (3, [4, 5, 6, 7])] [4, 2, 5, 0, 6, 1, 7, 3]) 1 1,
    -- 849: t4.abababab += einsum(t1.bb, (0, 1), t2.abab, (2, 3, 4, 5), t1.aa, (6, 7), (2, 3, 6, 0, 7, 1, 4, 5)) * -1
    .add 17 (.ein [(6, [0, 1]), (7, [2, 3, 4, 5]), (2, [6, 7])] [2, 3, 6, 0, 7, 1, 4, 5]) (-1) 1,
    -- 850: t4.abababab += einsum(t1.bb, (0, 1), t2.abab, (2, 3, 4, 5), t1.aa, (6, 7), (2, 3, 6, 0, 7, 5, 4, 1))
    .add 17 (.ein [(6, [0, 1]), (7, [2, 3, 4, 5]), (2, [6, 7])] [2, 3, 6, 0, 7, 5, 4, 1]) 1 1,
    -- 851: t4.abababab += einsum(t1.aa, (0, 1), t1.bb, (2, 3), t2.abab, (4, 5, 6, 7), (4, 5, 0, 2, 6, 3, 1, 7))
    .add 17 (.ein [(2, [0, 1]), (6, [2, 3]), (7, [4, 5, 6, 7])] [4, 5, 0, 2, 6, 3, 1, 7]) 1 1,
    -- 852: t4.abababab += einsum(t1.aa, (0, 1), t1.bb, (2, 3), t2.abab, (4, 5, 6, 7), (4, 5, 0, 2, 6, 7, 1, 3)) * -1
    .add 17 (.ein [(2, [0, 1]), (6, [2, 3]), (7, [4, 5, 6, 7])] [4, 5, 0, 2, 6, 7, 1, 3]) (-1) 1,
    -- 853: t4.abababab += einsum(t1.aa, (0, 1), t1.bb, (2, 3), t1.bb, (4, 5), t1.aa, (6, 7), (6, 4, 0, 2, 7, 5, 1, 3)) * -1
    .add 17 (.ein [(2, [0, 1]), (6, [2, 3]), (6, [4, 5]), (2, [6, 7])] [6, 4, 0, 2, 7, 5, 1, 3]) (-1) 1,
    -- 854: t4.abababab += einsum(t1.aa, (0, 1), t1.bb, (2, 3), t1.bb, (4, 5), t1.aa, (6, 7), (6, 4, 0, 2, 7, 3, 1, 5))
    .add 17 (.ein [(2, [0, 1]), (6, [2, 3]), (6, [4, 5]), (2, [6, 7])] [6, 4, 0, 2, 7, 3, 1, 5]) 1 1,
    -- 855: t4.abababab += einsum(t1.bb, (0, 1), t1.bb, (2, 3), t1.aa, (4, 5), t1.aa, (6, 7), (6, 2, 4, 0, 5, 3, 7, 1))
    .add 17 (.ein [(6, [0, 1]), (6, [2, 3]), (2, [4, 5]), (2, [6, 7])] [6, 2, 4, 0, 5, 3, 7, 1]) 1 1,
    -- 856: t4.abababab += einsum(t1.bb, (0, 1), t1.bb, (2, 3), t1.aa, (4, 5), t1.aa, (6, 7), (6, 2, 4, 0, 5, 1, 7, 3)) * -1
    .add 17 (.ein [(6, [0, 1]), (6, [2, 3]), (2, [4, 5]), (2, [6, 7])] [6, 2, 4, 0, 5, 1, 7, 3]) (-1) 1,
    -- 857: t4.abbbabbb = np.copy(c4.abbbabbb) * 0.5
    .set 18 (.cp 13) 1 2,
    -- 858: t4.abbbabbb += c4.abbbabbb * 0.5
    .add 18 (.cp 13) 1 2,
    -- 859: t4.abbbabbb += einsum(t3.bbbbbb, (0, 1, 2, 3, 4, 5), t1.aa, (6, 7), (6, 0, 1, 2, 7, 3, 4, 5)) * -0.5
    .add 18 (.ein [(9, [0, 1, 2, 3, 4, 5]), (2, [6, 7])] [6, 0, 1, 2, 7, 3, 4, 5]) (-1) 2,
    -- 860: t4.abbbabbb += einsum(t3.bbbbbb, (0, 1, 2, 3, 4, 5), t1.aa, (6, 7), (6, 0, 1, 2, 7, 3, 4, 5)) * -0.5
    .add 18 (.ein [(9, [0, 1, 2, 3, 4, 5]), (2, [6, 7])] [6, 0, 1, 2, 7, 3, 4, 5]) (-1) 2,
    -- 861: t4.abbbabbb += einsum(t1.bb, (0, 1), t3.babbab, (2, 3, 4, 5, 6, 7), (3, 0, 2, 4, 6, 1, 5, 7)) * -0.5
    .add 18 (.ein [(6, [0, 1]), (12, [2, 3, 4, 5, 6, 7])] [3, 0, 2, 4, 6, 1, 5, 7]) (-1) 2,
    -- 862: t4.abbbabbb += einsum(t1.bb, (0, 1), t3.babbab, (2, 3, 4, 5, 6, 7), (3, 0, 2, 4, 6, 1, 5, 7)) * -0.5
    .add 18 (.ein [(6, [0, 1]), (12, [2, 3, 4, 5, 6, 7])] [3, 0, 2, 4, 6, 1, 5, 7]) (-1) 2,
    -- 863: t4.abbbabbb += einsum(t1.bb, (0, 1), t3.babbab, (2, 3, 4, 5, 6, 7), (3, 0, 2, 4, 6, 5, 1, 7)) * 0.5
    .add 18 (.ein [(6, [0, 1]), (12, [2, 3, 4, 5, 6, 7])] [3, 0, 2, 4, 6, 5, 1, 7]) 1 2,
    -- 864: t4.abbbabbb += einsum(t1.bb, (0, 1), t3.babbab, (2, 3, 4, 5, 6, 7), (3, 0, 2, 4, 6, 5, 1, 7)) * 0.5
    .add 18 (.ein [(6, [0, 1]), (12, [2, 3, 4, 5, 6, 7])] [3, 0, 2, 4, 6, 5, 1, 7]) 1 2,
    -- 865: t4.abbbabbb += einsum(t3.babbab, (0, 1, 2, 3, 4, 5), t1.bb, (6, 7), (1, 6, 0, 2, 4, 3, 5, 7)) * -0.5
    .add 18 (.ein [(12, [0, 1, 2, 3, 4, 5]), (6, [6, 7])] [1, 6, 0, 2, 4, 3, 5, 7]) (-1) 2,
    -- 866: t4.abbbabbb += einsum(t3.babbab, (0, 1, 2, 3, 4, 5), t1.bb, (6, 7), (1, 6, 0, 2, 4, 3, 5, 7)) * -0.5
    .add 18 (.ein [(12, [0, 1, 2, 3, 4, 5]), (6, [6, 7])] [1, 6, 0, 2, 4, 3, 5, 7]) (-1) 2,
    -- 867: t4.abbbabbb += einsum(t1.bb, (0, 1), t3.babbab, (2, 3, 4, 5, 6, 7), (3, 2, 0, 4, 6, 1, 5, 7)) * 0.5
    .add 18 (.ein [(6, [0, 1]), (12, [2, 3, 4, 5, 6, 7])] [3, 2, 0, 4, 6, 1, 5, 7]) 1 2,
    -- 868: t4.abbbabbb += einsum(t1.bb, (0, 1), t3.babbab, (2, 3, 4, 5, 6, 7), (3, 2, 0, 4, 6, 1, 5, 7)) * 0.5
    .add 18 (.ein [(6, [0, 1]), (12, [2, 3, 4, 5, 6, 7])] [3, 2, 0, 4, 6, 1, 5, 7]) 1 2,
    -- 869: t4.abbbabbb += einsum(t3.babbab, (0, 1, 2, 3, 4, 5), t1.bb, (6, 7), (1, 0, 6, 2, 4, 3, 7, 5)) * -0.5
    .add 18 (.ein [(12, [0, 1, 2, 3, 4, 5]), (6, [6, 7])] [1, 0, 6, 2, 4, 3, 7, 5]) (-1) 2,
    -- 870: t4.abbbabbb += einsum(t3.babbab, (0, 1, 2, 3, 4, 5), t1.bb, (6, 7), (1, 0, 6, 2, 4, 3, 7, 5)) * -0.5
    .add 18 (.ein [(12, [0, 1, 2, 3, 4, 5]), (6, [6, 7])] [1, 0, 6, 2, 4, 3, 7, 5]) (-1) 2,
    -- 871: t4.abbbabbb += einsum(t1.bb, (0, 1), t3.babbab, (2, 3, 4, 5, 6, 7), (3, 2, 0, 4, 6, 5, 7, 1)) * 0.5
    .add 18 (.ein [(6, [0, 1]), (12, [2, 3, 4, 5, 6, 7])] [3, 2, 0, 4, 6, 5, 7, 1]) 1 2,
    -- 872: t4.abbbabbb += einsum(t1.bb, (0, 1), t3.babbab, (2, 3, 4, 5, 6, 7), (3, 2, 0, 4, 6, 5, 7, 1)) * 0.5
    .add 18 (.ein [(6, [0, 1]), (12, [2, 3, 4, 5, 6, 7])] [3, 2, 0, 4, 6, 5, 7, 1]) 1 2,
    -- 873: t4.abbbabbb += einsum(t1.bb, (0, 1), t3.babbab, (2, 3, 4, 5, 6, 7), (3, 2, 4, 0, 6, 1, 5, 7)) * -0.5
    .add 18 (.ein [(6, [0, 1]), (12, [2, 3, 4, 5, 6, 7])] [3, 2, 4, 0, 6, 1, 5, 7]) (-1) 2,
    -- 874: t4.abbbabbb += einsum(t1.bb, (0, 1), t3.babbab, (2, 3, 4, 5, 6, 7), (3, 2, 4, 0, 6, 1, 5, 7)) * -0.5
    .add 18 (.ein [(6, [0, 1]), (12, [2, 3, 4, 5, 6, 7])] [3, 2, 4, 0, 6, 1, 5, 7]) (-1) 2,
    -- 875: t4.abbbabbb += einsum(t1.bb, (0, 1), t3.babbab, (2, 3, 4, 5, 6, 7), (3, 2, 4, 0, 6, 5, 1, 7)) * 0.5
    .add 18 (.ein [(6, [0, 1]), (12, [2, 3, 4, 5, 6, 7])] [3, 2, 4, 0, 6, 5, 1, 7]) 1 2,
    -- 876: t4.abbbabbb += einsum(t1.bb, (0, 1), t3.babbab, (2, 3, 4, 5, 6, 7), (3, 2, 4, 0, 6, 5, 1, 7)) * 0.5
    .add 18 (.ein [(6, [0, 1]), (12, [2, 3, 4, 5, 6, 7])] [3, 2, 4, 0, 6, 5, 1, 7]) 1 2,
    -- 877: t4.abbbabbb += einsum(t1.bb, (0, 1), t3.babbab, (2, 3, 4, 5, 6, 7), (3, 2, 4, 0, 6, 5, 7, 1)) * -0.5
    .add 18 (.ein [(6, [0, 1]), (12, [2, 3, 4, 5, 6, 7])] [3, 2, 4, 0, 6, 5, 7, 1]) (-1) 2,
    -- 878: t4.abbbabbb += einsum(t1.bb, (0, 1), t3.babbab, (2, 3, 4, 5, 6, 7), (3, 2, 4, 0, 6, 5, 7, 1)) * -0.5
    .add 18 (.ein [(6, [0, 1]), (12, [2, 3, 4, 5, 6, 7])] [3, 2, 4, 0, 6, 5, 7, 1]) (-1) 2,
    -- 879: t4.abbbabbb += einsum(t2.bbbb, (0, 1, 2, 3), t2.abab, (4, 5, 6, 7), (4, 5, 0, 1, 6, 7, 2, 3)) * -1
    .add 18 (.ein [(10, [0, 1, 2, 3]), (7, [4, 5, 6, 7])] [4, 5, 0, 1, 6, 7, 2, 3]) (-1) 1,
    -- 880: t4.abbbabbb += einsum(t2.bbbb, (0, 1, 2, 3), t2.abab, (4, 5, 6, 7), (4, 5, 0, 1, 6, 2, 7, 3))
    .add 18 (.ein [(10, [0, 1, 2, 3]), (7, [4, 5, 6, 7])] [4, 5, 0, 1, 6, 2, 7, 3]) 1 1,
    -- 881: t4.abbbabbb += einsum(t2.bbbb, (0, 1, 2, 3), t2.abab, (4, 5, 6, 7), (4, 5, 0, 1, 6, 2, 3, 7)) * -1
    .add 18 (.ein [(10, [0, 1, 2, 3]), (7, [4, 5, 6, 7])] [4, 5, 0, 1, 6, 2, 3, 7]) (-1) 1,
    -- 882: t4.abbbabbb += einsum(t2.abab, (0, 1, 2, 3), t2.bbbb, (4, 5, 6, 7), (0, 4, 1, 5, 2, 3, 6, 7))
    .add 18 (.ein [(7, [0, 1, 2, 3]), (10, [4, 5, 6, 7])] [0, 4, 1, 5, 2, 3, 6, 7]) 1 1,
    -- 883: t4.abbbabbb += einsum(t2.abab, (0, 1, 2, 3), t2.bbbb, (4, 5, 6, 7), (0, 4, 1, 5, 2, 6, 3, 7)) * -1
    .add 18 (.ein [(7, [0, 1, 2, 3]), (10, [4, 5, 6, 7])] [0, 4, 1, 5, 2, 6, 3, 7]) (-1) 1,
    -- 884: t4.abbbabbb += einsum(t2.abab, (0, 1, 2, 3), t2.bbbb, (4, 5, 6, 7), (0, 4, 1, 5, 2, 6, 7, 3))
    .add 18 (.ein [(7, [0, 1, 2, 3]), (10, [4, 5, 6, 7])] [0, 4, 1, 5, 2, 6, 7, 3]) 1 1,
    -- 885: t4.abbbabbb += einsum(t2.bbbb, (0, 1, 2, 3), t2.abab, (4, 5, 6, 7), (4, 0, 1, 5, 6, 7, 2, 3)) * -1
    .add 18 (.ein [(10, [0, 1, 2, 3]), (7, [4, 5, 6, 7])] [4, 0, 1, 5, 6, 7, 2, 3]) (-1) 1,
    -- 886: t4.abbbabbb += einsum(t2.abab, (0, 1, 2, 3), t2.bbbb, (4, 5, 6, 7), (0, 4, 5, 1, 2, 6, 3, 7))
    .add 18 (.ein [(7, [0, 1, 2, 3]), (10, [4, 5, 6, 7])] [0, 4, 5, 1, 2, 6, 3, 7]) 1 1,
    -- 887: t4.abbbabbb += einsum(t2.bbbb, (0, 1, 2, 3), t2.abab, (4, 5, 6, 7), (4, 0, 1, 5, 6, 2, 3, 7)) * -1
    .add 18 (.ein [(10, [0, 1, 2, 3]), (7, [4, 5, 6, 7])] [4, 0, 1, 5, 6, 2, 3, 7]) (-1) 1,
    -- 888: t4.abbbabbb += einsum(t2.bbbb, (0, 1, 2, 3), t1.bb, (4, 5), t1.aa, (6, 7), (6, 4, 0, 1, 7, 5, 2, 3)) * -1
    .add 18 (.ein [(10, [0, 1, 2, 3]), (6, [4, 5]), (2, [6, 7])] [6, 4, 0, 1, 7, 5, 2, 3]) (-1) 1,
    -- 889: t4.abbbabbb += einsum(t2.bbbb, (0, 1, 2, 3), t1.bb, (4, 5), t1.aa, (6, 7), (6, 4, 0, 1, 7, 2, 5, 3))
    .add 18 (.ein [(10, [0, 1, 2, 3]), (6, [4, 5]), (2, [6, 7])] [6, 4, 0, 1, 7, 2, 5, 3]) 1 1,
    -- 890: t4.abbbabbb += einsum(t2.bbbb, (0, 1, 2, 3), t1.bb, (4, 5), t1.aa, (6, 7), (6, 4, 0, 1, 7, 2, 3, 5)) * -1
    .add 18 (.ein [(10, [0, 1, 2, 3]), (6, [4, 5]), (2, [6, 7])] [6, 4, 0, 1, 7, 2, 3, 5]) (-1) 1,
    -- 891: t4.abbbabbb += einsum(t1.bb, (0, 1), t1.aa, (2, 3), t2.bbbb, (4, 5, 6, 7), (2, 4, 0, 5, 3, 1, 6, 7))
    .add 18 (.ein [(6, [0, 1]), (2, [2, 3]), (10, [4, 5, 6, 7])] [2, 4, 0, 5, 3, 1, 6, 7]) 1 1,
    -- 892: t4.abbbabbb += einsum(t2.bbbb, (0, 1, 2, 3), t1.bb, (4, 5), t1.aa, (6, 7), (6, 0, 4, 1, 7, 2, 5, 3)) * -1
    .add 18 (.ein [(10, [0, 1, 2, 3]), (6, [4, 5]), (2, [6, 7])] [6, 0, 4, 1, 7, 2, 5, 3]) (-1) 1,
    -- 893: t4.abbbabbb += einsum(t1.bb, (0, 1), t2.bbbb, (2, 3, 4, 5), t1.aa, (6, 7), (6, 2, 0, 3, 7, 4, 5, 1))
    .add 18 (.ein [(6, [0, 1]), (10, [2, 3, 4, 5]), (2, [6, 7])] [6, 2, 0, 3, 7, 4, 5, 1]) 1 1,
    -- 894: t4.abbbabbb += einsum(t2.bbbb, (0, 1, 2, 3), t1.bb, (4, 5), t1.aa, (6, 7), (6, 0, 1, 4, 7, 5, 2, 3)) * -1
    .add 18 (.ein [(10, [0, 1, 2, 3]), (6, [4, 5]), (2, [6, 7])] [6, 0, 1, 4, 7, 5, 2, 3]) (-1) 1,
    -- 895: t4.abbbabbb += einsum(t1.bb, (0, 1), t2.bbbb, (2, 3, 4, 5), t1.aa, (6, 7), (6, 2, 3, 0, 7, 4, 1, 5))
    .add 18 (.ein [(6, [0, 1]), (10, [2, 3, 4, 5]), (2, [6, 7])] [6, 2, 3, 0, 7, 4, 1, 5]) 1 1,
    -- 896: t4.abbbabbb += einsum(t2.bbbb, (0, 1, 2, 3), t1.bb, (4, 5), t1.aa, (6, 7), (6, 0, 1, 4, 7, 2, 3, 5)) * -1
    .add 18 (.ein [(10, [0, 1, 2, 3]), (6, [4, 5]), (2, [6, 7])] [6, 0, 1, 4, 7, 2, 3, 5]) (-1) 1,
    -- 897: t4.abbbabbb += einsum(t1.bb, (0, 1), t2.abab, (2, 3, 4, 5), t1.bb, (6, 7), (2, 6, 0, 3, 4, 7, 1, 5)) * -1
    .add 18 (.ein [(6, [0, 1]), (7, [2, 3, 4, 5]), (6, [6, 7])] [2, 6, 0, 3, 4, 7, 1, 5]) (-1) 1,
    -- 898: t4.abbbabbb += einsum(t1.bb, (0, 1), t2.abab, (2, 3, 4, 5), t1.bb, (6, 7), (2, 6, 0, 3, 4, 7, 5, 1))
    .add 18 (.ein [(6, [0, 1]), (7, [2, 3, 4, 5]), (6, [6, 7])] [2, 6, 0, 3, 4, 7, 5, 1]) 1 1,
    -- 899: t4.abbbabbb += einsum(t2.abab, (0, 1, 2, 3), t1.bb, (4, 5), t1.bb, (6, 7), (0, 6, 1, 4, 2, 7, 5, 3))
    .add 18 (.ein [(7, [0, 1, 2, 3]), (6, [4, 5]), (6, [6, 7])] [0, 6, 1, 4, 2, 7, 5, 3]) 1 1,
    -- 900: t4.abbbabbb += einsum(t2.abab, (0, 1, 2, 3), t1.bb, (4, 5), t1.bb, (6, 7), (0, 6, 1, 4, 2, 7, 3, 5)) * -1
    .add 18 (.ein [(7, [0, 1, 2, 3]), (6, [4, 5]), (6, [6, 7])] [0, 6, 1, 4, 2, 7, 3, 5]) (-1) 1,
    -- 901: t4.abbbabbb += einsum(t1.bb, (0, 1), t1.bb, (2, 3), t2.abab, (4, 5, 6, 7), (4, 2, 0, 5, 6, 1, 3, 7))
    .add 18 (.ein [(6, [0, 1]), (6, [2, 3]), (7, [4, 5, 6, 7])] [4, 2, 0, 5, 6, 1, 3, 7]) 1 1,
    -- 902: t4.abbbabbb += einsum(t1.bb, (0, 1), t1.bb, (2, 3), t2.abab, (4, 5, 6, 7), (4, 2, 0, 5, 6, 7, 3, 1)) * -1
    .add 18 (.ein [(6, [0, 1]), (6, [2, 3]), (7, [4, 5, 6, 7])] [4, 2, 0, 5, 6, 7, 3, 1]) (-1) 1,
    -- 903: t4.abbbabbb += einsum(t2.abab, (0, 1, 2, 3), t1.bb, (4, 5), t1.bb, (6, 7), (0, 6, 1, 4, 2, 5, 7, 3)) * -1
    .add 18 (.ein [(7, [0, 1, 2, 3]), (6, [4, 5]), (6, [6, 7])] [0, 6, 1, 4, 2, 5, 7, 3]) (-1) 1,
    -- 904: t4.abbbabbb += einsum(t1.bb, (0, 1), t1.bb, (2, 3), t2.abab, (4, 5, 6, 7), (4, 2, 5, 0, 6, 7, 3, 1))
    .add 18 (.ein [(6, [0, 1]), (6, [2, 3]), (7, [4, 5, 6, 7])] [4, 2, 5, 0, 6, 7, 3, 1]) 1 1,
    -- 905: t4.abbbabbb += einsum(t1.bb, (0, 1), t2.abab, (2, 3, 4, 5), t1.bb, (6, 7), (2, 6, 0, 3, 4, 1, 5, 7)) * -1
    .add 18 (.ein [(6, [0, 1]), (7, [2, 3, 4, 5]), (6, [6, 7])] [2, 6, 0, 3, 4, 1, 5, 7]) (-1) 1,
    -- 906: t4.abbbabbb += einsum(t1.bb, (0, 1), t1.bb, (2, 3), t2.abab, (4, 5, 6, 7), (4, 2, 0, 5, 6, 7, 1, 3))
    .add 18 (.ein [(6, [0, 1]), (6, [2, 3]), (7, [4, 5, 6, 7])] [4, 2, 0, 5, 6, 7, 1, 3]) 1 1,
    -- 907: t4.abbbabbb += einsum(t2.abab, (0, 1, 2, 3), t1.bb, (4, 5), t1.bb, (6, 7), (0, 6, 1, 4, 2, 5, 3, 7))
    .add 18 (.ein [(7, [0, 1, 2, 3]), (6, [4, 5]), (6, [6, 7])] [0, 6, 1, 4, 2, 5, 3, 7]) 1 1,
    -- 908: t4.abbbabbb += einsum(t1.bb, (0, 1), t1.bb, (2, 3), t2.abab, (4, 5, 6, 7), (4, 2, 5, 0, 6, 7, 1, 3)) * -1
    .add 18 (.ein [(6, [0, 1]), (6, [2, 3]), (7, [4, 5, 6, 7])] [4, 2, 5, 0, 6, 7, 1, 3]) (-1) 1,
    -- 909: t4.abbbabbb += einsum(t1.bb, (0, 1), t1.bb, (2, 3), t2.abab, (4, 5, 6, 7), (4, 5, 0, 2, 6, 1, 3, 7)) * -1
    .add 18 (.ein [(6, [0, 1]), (6, [2, 3]), (7, [4, 5, 6, 7])] [4, 5, 0, 2, 6, 1, 3, 7]) (-1) 1,
    -- 910: t4.abbbabbb += einsum(t1.bb, (0, 1), t1.bb, (2, 3), t2.abab, (4, 5, 6, 7), (4, 5, 0, 2, 6, 1, 7, 3))
    .add 18 (.ein [(6, [0, 1]), (6, [2, 3]), (7, [4, 5, 6, 7])] [4, 5, 0, 2, 6, 1, 7, 3]) 1 1,
    -- 911: t4.abbbabbb += einsum(t1.bb, (0, 1), t1.bb, (2, 3), t2.abab, (4, 5, 6, 7), (4, 5, 0, 2, 6, 3, 1, 7))
    .add 18 (.ein [(6, [0, 1]), (6, [2, 3]), (7, [4, 5, 6, 7])] [4, 5, 0, 2, 6, 3, 1, 7]) 1 1,
    -- 912: t4.abbbabbb += einsum(t1.bb, (0, 1), t1.bb, (2, 3), t2.abab, (4, 5, 6, 7), (4, 5, 0, 2, 6, 7, 1, 3)) * -1
    .add 18 (.ein [(6, [0, 1]), (6, [2, 3]), (7, [4, 5, 6, 7])] [4, 5, 0, 2, 6, 7, 1, 3]) (-1) 1,
    -- 913: t4.abbbabbb += einsum(t1.bb, (0, 1), t1.bb, (2, 3), t2.abab, (4, 5, 6, 7), (4, 5, 0, 2, 6, 3, 7, 1)) * -1
    .add 18 (.ein [(6, [0, 1]), (6, [2, 3]), (7, [4, 5, 6, 7])] [4, 5, 0, 2, 6, 3, 7, 1]) (-1) 1,
    -- 914: t4.abbbabbb += einsum(t1.bb, (0, 1), t1.bb, (2, 3), t2.abab, (4, 5, 6, 7), (4, 5, 0, 2, 6, 7, 3, 1))
    .add 18 (.ein [(6, [0, 1]), (6, [2, 3]), (7, [4, 5, 6, 7])] [4, 5, 0, 2, 6, 7, 3, 1]) 1 1,
    -- 915: t4.abbbabbb += einsum(t1.bb, (0, 1), t1.bb, (2, 3), t1.aa, (4, 5), t1.bb, (6, 7), (4, 2, 0, 6, 5, 3, 1, 7)) * -1
    .add 18 (.ein [(6, [0, 1]), (6, [2, 3]), (2, [4, 5]), (6, [6, 7])] [4, 2, 0, 6, 5, 3, 1, 7]) (-1) 1,
    -- 916: t4.abbbabbb += einsum(t1.bb, (0, 1), t1.bb, (2, 3), t1.bb, (4, 5), t1.aa, (6, 7), (6, 4, 0, 2, 7, 5, 3, 1))
    .add 18 (.ein [(6, [0, 1]), (6, [2, 3]), (6, [4, 5]), (2, [6, 7])] [6, 4, 0, 2, 7, 5, 3, 1]) 1 1,
    -- 917: t4.abbbabbb += einsum(t1.bb, (0, 1), t1.bb, (2, 3), t1.aa, (4, 5), t1.bb, (6, 7), (4, 2, 0, 6, 5, 1, 3, 7))
    .add 18 (.ein [(6, [0, 1]), (6, [2, 3]), (2, [4, 5]), (6, [6, 7])] [4, 2, 0, 6, 5, 1, 3, 7]) 1 1,
    -- 918: t4.abbbabbb += einsum(t1.bb, (0, 1), t1.bb, (2, 3), t1.bb, (4, 5), t1.aa, (6, 7), (6, 4, 0, 2, 7, 3, 5, 1)) * -1
    .add 18 (.ein [(6, [0, 1]), (6, [2, 3]), (6, [4, 5]), (2, [6, 7])] [6, 4, 0, 2, 7, 3, 5, 1]) (-1) 1,
    -- 919: t4.abbbabbb += einsum(t1.bb, (0, 1), t1.bb, (2, 3), t1.aa, (4, 5), t1.bb, (6, 7), (4, 2, 0, 6, 5, 1, 7, 3)) * -1
    .add 18 (.ein [(6, [0, 1]), (6, [2, 3]), (2, [4, 5]), (6, [6, 7])] [4, 2, 0, 6, 5, 1, 7, 3]) (-1) 1,
    -- 920: t4.abbbabbb += einsum(t1.bb, (0, 1), t1.bb, (2, 3), t1.bb, (4, 5), t1.aa, (6, 7), (6, 4, 0, 2, 7, 3, 1, 5))
    .add 18 (.ein [(6, [0, 1]), (6, [2, 3]), (6, [4, 5]), (2, [6, 7])] [6, 4, 0, 2, 7, 3, 1, 5]) 1 1
  ]
  ret := [(chars! "t4.aaaaaaaa", 14), (chars! "t4.aaabaaab", 15), (chars! "t4.bbbbbbbb", 16), (chars! "t4.abababab", 17), (chars! "t4.abbbabbb", 18)]

/-- codegen/UecCC.py:1031-1521 `convert_t4_to_c4`. -/
def convert_t4_to_c4 : GenFun where
  args := [chars! "t4.aaaaaaaa", chars! "t3.aaaaaa", chars! "t1.aa", chars! "t2.aaaa", chars! "t4.aaabaaab", chars! "t3.abaaba", chars! "t1.bb", chars! "t2.abab", chars! "t4.bbbbbbbb", chars! "t3.bbbbbb", chars! "t2.bbbb", chars! "t4.abababab", chars! "t3.babbab", chars! "t4.abbbabbb"]
  body := [
    -- 1045: c4.aaaaaaaa = np.copy(np.transpose(t4.aaaaaaaa, (0, 1, 2, 3, 4, 5, 7, 6))) * -12
    .set 14 (.tr 0 [0, 1, 2, 3, 4, 5, 7, 6]) (-12) 1,
    -- 1046: c4.aaaaaaaa += np.transpose(t4.aaaaaaaa, (0, 1, 2, 3, 4, 5, 7, 6)) * -12
    .add 14 (.tr 0 [0, 1, 2, 3, 4, 5, 7, 6]) (-12) 1,
    -- 1047: c4.aaaaaaaa += einsum(t3.aaaaaa, (0, 1, 2, 3, 4, 5), t1.aa, (6, 7), (0, 1, 2, 6, 7, 3, 4, 5)) * -3
    .add 14 (.ein [(1, [0, 1, 2, 3, 4, 5]), (2, [6, 7])] [0, 1, 2, 6, 7, 3, 4, 5]) (-3) 1,
    -- 1048: c4.aaaaaaaa += einsum(t3.aaaaaa, (0, 1, 2, 3, 4, 5), t1.aa, (6, 7), (0, 1, 2, 6, 7, 3, 4, 5)) * -3
    .add 14 (.ein [(1, [0, 1, 2, 3, 4, 5]), (2, [6, 7])] [0, 1, 2, 6, 7, 3, 4, 5]) (-3) 1,
    -- 1049: c4.aaaaaaaa += einsum(t3.aaaaaa, (0, 1, 2, 3, 4, 5), t1.aa, (6, 7), (0, 1, 6, 2, 7, 3, 4, 5)) * 3
    .add 14 (.ein [(1, [0, 1, 2, 3, 4, 5]), (2, [6, 7])] [0, 1, 6, 2, 7, 3, 4, 5]) 3 1,
    -- 1050: c4.aaaaaaaa += einsum(t3.aaaaaa, (0, 1, 2, 3, 4, 5), t1.aa, (6, 7), (0, 1, 6, 2, 7, 3, 4, 5)) * 3
    .add 14 (.ein [(1, [0, 1, 2, 3, 4, 5]), (2, [6, 7])] [0, 1, 6, 2, 7, 3, 4, 5]) 3 1,
    -- 1051: c4.aaaaaaaa += einsum(t3.aaaaaa, (0, 1, 2, 3, 4, 5), t1.aa, (6, 7), (0, 1, 2, 6, 3, 7, 4, 5)) * 3
    .add 14 (.ein [(1, [0, 1, 2, 3, 4, 5]), (2, [6, 7])] [0, 1, 2, 6, 3, 7, 4, 5]) 3 1,
    -- 1052: c4.aaaaaaaa += einsum(t3.aaaaaa, (0, 1, 2, 3, 4, 5), t1.aa, (6, 7), (0, 1, 2, 6, 3, 7, 4, 5)) * 3
    .add 14 (.ein [(1, [0, 1, 2, 3, 4, 5]), (2, [6, 7])] [0, 1, 2, 6, 3, 7, 4, 5]) 3 1,
    -- 1053: c4.aaaaaaaa += einsum(t1.aa, (0, 1), t3.aaaaaa, (2, 3, 4, 5, 6, 7), (2, 3, 0, 4, 5, 1, 6, 7)) * -3
    .add 14 (.ein [(2, [0, 1]), (1, [2, 3, 4, 5, 6, 7])] [2, 3, 0, 4, 5, 1, 6, 7]) (-3) 1,
    -- 1054: c4.aaaaaaaa += einsum(t1.aa, (0, 1), t3.aaaaaa, (2, 3, 4, 5, 6, 7), (2, 3, 0, 4, 5, 1, 6, 7)) * -3
    .add 14 (.ein [(2, [0, 1]), (1, [2, 3, 4, 5, 6, 7])] [2, 3, 0, 4, 5, 1, 6, 7]) (-3) 1,
    -- 1055: c4.aaaaaaaa += einsum(t3.aaaaaa, (0, 1, 2, 3, 4, 5), t1.aa, (6, 7), (0, 6, 1, 2, 7, 3, 4, 5)) * -3
    .add 14 (.ein [(1, [0, 1, 2, 3, 4, 5]), (2, [6, 7])] [0, 6, 1, 2, 7, 3, 4, 5]) (-3) 1,
    -- 1056: c4.aaaaaaaa += einsum(t3.aaaaaa, (0, 1, 2, 3, 4, 5), t1.aa, (6, 7), (0, 6, 1, 2, 7, 3, 4, 5)) * -3
    .add 14 (.ein [(1, [0, 1, 2, 3, 4, 5]), (2, [6, 7])] [0, 6, 1, 2, 7, 3, 4, 5]) (-3) 1,
    -- 1057: c4.aaaaaaaa += einsum(t3.aaaaaa, (0, 1, 2, 3, 4, 5), t1.aa, (6, 7), (6, 0, 1, 2, 7, 3, 4, 5)) * 3
    .add 14 (.ein [(1, [0, 1, 2, 3, 4, 5]), (2, [6, 7])] [6, 0, 1, 2, 7, 3, 4, 5]) 3 1,
    -- 1058: c4.aaaaaaaa += einsum(t3.aaaaaa, (0, 1, 2, 3, 4, 5), t1.aa, (6, 7), (6, 0, 1, 2, 7, 3, 4, 5)) * 3
    .add 14 (.ein [(1, [0, 1, 2, 3, 4, 5]), (2, [6, 7])] [6, 0, 1, 2, 7, 3, 4, 5]) 3 1,
    -- 1059: c4.aaaaaaaa += einsum(t1.aa, (0, 1), t3.aaaaaa, (2, 3, 4, 5, 6, 7), (2, 0, 3, 4, 5, 1, 6, 7)) * 3
    .add 14 (.ein [(2, [0, 1]), (1, [2, 3, 4, 5, 6, 7])] [2, 0, 3, 4, 5, 1, 6, 7]) 3 1,
    -- 1060: c4.aaaaaaaa += einsum(t1.aa, (0, 1), t3.aaaaaa, (2, 3, 4, 5, 6, 7), (2, 0, 3, 4, 5, 1, 6, 7)) * 3
    .add 14 (.ein [(2, [0, 1]), (1, [2, 3, 4, 5, 6, 7])] [2, 0, 3, 4, 5, 1, 6, 7]) 3 1,
    -- 1061: c4.aaaaaaaa += einsum(t3.aaaaaa, (0, 1, 2, 3, 4, 5), t1.aa, (6, 7), (6, 0, 1, 2, 3, 7, 4, 5)) * -3
    .add 14 (.ein [(1, [0, 1, 2, 3, 4, 5]), (2, [6, 7])] [6, 0, 1, 2, 3, 7, 4, 5]) (-3) 1,
    -- 1062: c4.aaaaaaaa += einsum(t3.aaaaaa, (0, 1, 2, 3, 4, 5), t1.aa, (6, 7), (6, 0, 1, 2, 3, 7, 4, 5)) * -3
    .add 14 (.ein [(1, [0, 1, 2, 3, 4, 5]), (2, [6, 7])] [6, 0, 1, 2, 3, 7, 4, 5]) (-3) 1,
    -- 1063: c4.aaaaaaaa += einsum(t1.aa, (0, 1), t3.aaaaaa, (2, 3, 4, 5, 6, 7), (2, 3, 4, 0, 5, 6, 1, 7)) * -3
    .add 14 (.ein [(2, [0, 1]), (1, [2, 3, 4, 5, 6, 7])] [2, 3, 4, 0, 5, 6, 1, 7]) (-3) 1,
    -- 1064: c4.aaaaaaaa += einsum(t1.aa, (0, 1), t3.aaaaaa, (2, 3, 4, 5, 6, 7), (2, 3, 4, 0, 5, 6, 1, 7)) * -3
    .add 14 (.ein [(2, [0, 1]), (1, [2, 3, 4, 5, 6, 7])] [2, 3, 4, 0, 5, 6, 1, 7]) (-3) 1,
    -- 1065: c4.aaaaaaaa += einsum(t3.aaaaaa, (0, 1, 2, 3, 4, 5), t1.aa, (6, 7), (0, 1, 6, 2, 3, 4, 7, 5)) * 3
    .add 14 (.ein [(1, [0, 1, 2, 3, 4, 5]), (2, [6, 7])] [0, 1, 6, 2, 3, 4, 7, 5]) 3 1,
    -- 1066: c4.aaaaaaaa += einsum(t3.aaaaaa, (0, 1, 2, 3, 4, 5), t1.aa, (6, 7), (0, 1, 6, 2, 3, 4, 7, 5)) * 3
    .add 14 (.ein [(1, [0, 1, 2, 3, 4, 5]), (2, [6, 7])] [0, 1, 6, 2, 3, 4, 7, 5]) 3 1,
    -- 1067: c4.aaaaaaaa += einsum(t1.aa, (0, 1), t3.aaaaaa, (2, 3, 4, 5, 6, 7), (2, 3, 4, 0, 5, 6, 7, 1)) * 3
    .add 14 (.ein [(2, [0, 1]), (1, [2, 3, 4, 5, 6, 7])] [2, 3, 4, 0, 5, 6, 7, 1]) 3 1,
    -- 1068: c4.aaaaaaaa += einsum(t1.aa, (0, 1), t3.aaaaaa, (2, 3, 4, 5, 6, 7), (2, 3, 4, 0, 5, 6, 7, 1)) * 3
    .add 14 (.ein [(2, [0, 1]), (1, [2, 3, 4, 5, 6, 7])] [2, 3, 4, 0, 5, 6, 7, 1]) 3 1,
    -- 1069: c4.aaaaaaaa += einsum(t3.aaaaaa, (0, 1, 2, 3, 4, 5), t1.aa, (6, 7), (0, 1, 6, 2, 3, 4, 5, 7)) * -3
    .add 14 (.ein [(1, [0, 1, 2, 3, 4, 5]), (2, [6, 7])] [0, 1, 6, 2, 3, 4, 5, 7]) (-3) 1,
    -- 1070: c4.aaaaaaaa += einsum(t3.aaaaaa, (0, 1, 2, 3, 4, 5), t1.aa, (6, 7), (0, 1, 6, 2, 3, 4, 5, 7)) * -3
    .add 14 (.ein [(1, [0, 1, 2, 3, 4, 5]), (2, [6, 7])] [0, 1, 6, 2, 3, 4, 5, 7]) (-3) 1,
    -- 1071: c4.aaaaaaaa += einsum(t3.aaaaaa, (0, 1, 2, 3, 4, 5), t1.aa, (6, 7), (0, 6, 1, 2, 3, 4, 7, 5)) * -3
    .add 14 (.ein [(1, [0, 1, 2, 3, 4, 5]), (2, [6, 7])] [0, 6, 1, 2, 3, 4, 7, 5]) (-3) 1,
    -- 1072: c4.aaaaaaaa += einsum(t3.aaaaaa, (0, 1, 2, 3, 4, 5), t1.aa, (6, 7), (0, 6, 1, 2, 3, 4, 7, 5)) * -3
    .add 14 (.ein [(1, [0, 1, 2, 3, 4, 5]), (2, [6, 7])] [0, 6, 1, 2, 3, 4, 7, 5]) (-3) 1,
    -- 1073: c4.aaaaaaaa += einsum(t3.aaaaaa, (0, 1, 2, 3, 4, 5), t1.aa, (6, 7), (6, 0, 1, 2, 3, 4, 7, 5)) * 3
    .add 14 (.ein [(1, [0, 1, 2, 3, 4, 5]), (2, [6, 7])] [6, 0, 1, 2, 3, 4, 7, 5]) 3 1,
    -- 1074: c4.aaaaaaaa += einsum(t3.aaaaaa, (0, 1, 2, 3, 4, 5), t1.aa, (6, 7), (6, 0, 1, 2, 3, 4, 7, 5)) * 3
    .add 14 (.ein [(1, [0, 1, 2, 3, 4, 5]), (2, [6, 7])] [6, 0, 1, 2, 3, 4, 7, 5]) 3 1,
    -- 1075: c4.aaaaaaaa += einsum(t1.aa, (0, 1), t3.aaaaaa, (2, 3, 4, 5, 6, 7), (2, 0, 3, 4, 5, 6, 7, 1)) * 3
    .add 14 (.ein [(2, [0, 1]), (1, [2, 3, 4, 5, 6, 7])] [2, 0, 3, 4, 5, 6, 7, 1]) 3 1,
    -- 1076: c4.aaaaaaaa += einsum(t1.aa, (0, 1), t3.aaaaaa, (2, 3, 4, 5, 6, 7), (2, 0, 3, 4, 5, 6, 7, 1)) * 3
    .add 14 (.ein [(2, [0, 1]), (1, [2, 3, 4, 5, 6, 7])] [2, 0, 3, 4, 5, 6, 7, 1]) 3 1,
    -- 1077: c4.aaaaaaaa += einsum(t3.aaaaaa, (0, 1, 2, 3, 4, 5), t1.aa, (6, 7), (6, 0, 1, 2, 3, 4, 5, 7)) * -3
    .add 14 (.ein [(1, [0, 1, 2, 3, 4, 5]), (2, [6, 7])] [6, 0, 1, 2, 3, 4, 5, 7]) (-3) 1,
    -- 1078: c4.aaaaaaaa += einsum(t3.aaaaaa, (0, 1, 2, 3, 4, 5), t1.aa, (6, 7), (6, 0, 1, 2, 3, 4, 5, 7)) * -3
    .add 14 (.ein [(1, [0, 1, 2, 3, 4, 5]), (2, [6, 7])] [6, 0, 1, 2, 3, 4, 5, 7]) (-3) 1,
    -- 1079: c4.aaaaaaaa += einsum(t2.aaaa, (0, 1, 2, 3), t2.aaaa, (4, 5, 6, 7), (0, 1, 4, 5, 6, 7, 2, 3)) * 4
    .add 14 (.ein [(3, [0, 1, 2, 3]), (3, [4, 5, 6, 7])] [0, 1, 4, 5, 6, 7, 2, 3]) 4 1,
    -- 1080: c4.aaaaaaaa += einsum(t2.aaaa, (0, 1, 2, 3), t2.aaaa, (4, 5, 6, 7), (0, 4, 1, 5, 6, 7, 2, 3)) * -4
    .add 14 (.ein [(3, [0, 1, 2, 3]), (3, [4, 5, 6, 7])] [0, 4, 1, 5, 6, 7, 2, 3]) (-4) 1,
    -- 1081: c4.aaaaaaaa += einsum(t2.aaaa, (0, 1, 2, 3), t2.aaaa, (4, 5, 6, 7), (4, 5, 0, 1, 2, 6, 3, 7)) * -4
    .add 14 (.ein [(3, [0, 1, 2, 3]), (3, [4, 5, 6, 7])] [4, 5, 0, 1, 2, 6, 3, 7]) (-4) 1,
    -- 1082: c4.aaaaaaaa += einsum(t2.aaaa, (0, 1, 2, 3), t2.aaaa, (4, 5, 6, 7), (4, 0, 5, 1, 2, 6, 3, 7)) * 4
    .add 14 (.ein [(3, [0, 1, 2, 3]), (3, [4, 5, 6, 7])] [4, 0, 5, 1, 2, 6, 3, 7]) 4 1,
    -- 1083: c4.aaaaaaaa += einsum(t2.aaaa, (0, 1, 2, 3), t2.aaaa, (4, 5, 6, 7), (0, 4, 5, 1, 2, 3, 6, 7)) * 4
    .add 14 (.ein [(3, [0, 1, 2, 3]), (3, [4, 5, 6, 7])] [0, 4, 5, 1, 2, 3, 6, 7]) 4 1,
    -- 1084: c4.aaaaaaaa += einsum(t2.aaaa, (0, 1, 2, 3), t2.aaaa, (4, 5, 6, 7), (4, 0, 5, 1, 6, 7, 2, 3)) * -4
    .add 14 (.ein [(3, [0, 1, 2, 3]), (3, [4, 5, 6, 7])] [4, 0, 5, 1, 6, 7, 2, 3]) (-4) 1,
    -- 1085: c4.aaaaaaaa += einsum(t2.aaaa, (0, 1, 2, 3), t2.aaaa, (4, 5, 6, 7), (4, 0, 1, 5, 6, 2, 7, 3)) * -4
    .add 14 (.ein [(3, [0, 1, 2, 3]), (3, [4, 5, 6, 7])] [4, 0, 1, 5, 6, 2, 7, 3]) (-4) 1,
    -- 1086: c4.aaaaaaaa += einsum(t2.aaaa, (0, 1, 2, 3), t2.aaaa, (4, 5, 6, 7), (4, 0, 5, 1, 6, 2, 7, 3)) * 4
    .add 14 (.ein [(3, [0, 1, 2, 3]), (3, [4, 5, 6, 7])] [4, 0, 5, 1, 6, 2, 7, 3]) 4 1,
    -- 1087: c4.aaaaaaaa += einsum(t2.aaaa, (0, 1, 2, 3), t2.aaaa, (4, 5, 6, 7), (4, 0, 1, 5, 2, 3, 6, 7)) * 4
    .add 14 (.ein [(3, [0, 1, 2, 3]), (3, [4, 5, 6, 7])] [4, 0, 1, 5, 2, 3, 6, 7]) 4 1,
    -- 1088: c4.aaaaaaaa += einsum(t2.aaaa, (0, 1, 2, 3), t2.aaaa, (4, 5, 6, 7), (4, 5, 0, 1, 6, 7, 2, 3)) * 4
    .add 14 (.ein [(3, [0, 1, 2, 3]), (3, [4, 5, 6, 7])] [4, 5, 0, 1, 6, 7, 2, 3]) 4 1,
    -- 1089: c4.aaaaaaaa += einsum(t2.aaaa, (0, 1, 2, 3), t2.aaaa, (4, 5, 6, 7), (0, 4, 5, 1, 6, 2, 7, 3)) * -4
    .add 14 (.ein [(3, [0, 1, 2, 3]), (3, [4, 5, 6, 7])] [0, 4, 5, 1, 6, 2, 7, 3]) (-4) 1,
    -- 1090: c4.aaaaaaaa += einsum(t2.aaaa, (0, 1, 2, 3), t2.aaaa, (4, 5, 6, 7), (0, 1, 4, 5, 2, 6, 3, 7)) * -4
    .add 14 (.ein [(3, [0, 1, 2, 3]), (3, [4, 5, 6, 7])] [0, 1, 4, 5, 2, 6, 3, 7]) (-4) 1,
    -- 1091: c4.aaaaaaaa += einsum(t2.aaaa, (0, 1, 2, 3), t2.aaaa, (4, 5, 6, 7), (0, 1, 4, 5, 6, 2, 3, 7)) * 4
    .add 14 (.ein [(3, [0, 1, 2, 3]), (3, [4, 5, 6, 7])] [0, 1, 4, 5, 6, 2, 3, 7]) 4 1,
    -- 1092: c4.aaaaaaaa += einsum(t2.aaaa, (0, 1, 2, 3), t2.aaaa, (4, 5, 6, 7), (4, 0, 5, 1, 2, 6, 7, 3)) * -4
    .add 14 (.ein [(3, [0, 1, 2, 3]), (3, [4, 5, 6, 7])] [4, 0, 5, 1, 2, 6, 7, 3]) (-4) 1,
    -- 1093: c4.aaaaaaaa += einsum(t2.aaaa, (0, 1, 2, 3), t2.aaaa, (4, 5, 6, 7), (4, 0, 1, 5, 6, 2, 3, 7)) * 4
    .add 14 (.ein [(3, [0, 1, 2, 3]), (3, [4, 5, 6, 7])] [4, 0, 1, 5, 6, 2, 3, 7]) 4 1,
    -- 1094: c4.aaaaaaaa += einsum(t2.aaaa, (0, 1, 2, 3), t2.aaaa, (4, 5, 6, 7), (4, 0, 5, 1, 6, 2, 3, 7)) * -4
    .add 14 (.ein [(3, [0, 1, 2, 3]), (3, [4, 5, 6, 7])] [4, 0, 5, 1, 6, 2, 3, 7]) (-4) 1,
    -- 1095: c4.aaaaaaaa += einsum(t2.aaaa, (0, 1, 2, 3), t2.aaaa, (4, 5, 6, 7), (4, 0, 1, 5, 2, 6, 7, 3)) * 4
    .add 14 (.ein [(3, [0, 1, 2, 3]), (3, [4, 5, 6, 7])] [4, 0, 1, 5, 2, 6, 7, 3]) 4 1,
    -- 1096: c4.aaaaaaaa += einsum(t2.aaaa, (0, 1, 2, 3), t2.aaaa, (4, 5, 6, 7), (4, 5, 0, 1, 6, 2, 3, 7)) * 4
    .add 14 (.ein [(3, [0, 1, 2, 3]), (3, [4, 5, 6, 7])] [4, 5, 0, 1, 6, 2, 3, 7]) 4 1,
    -- 1097: c4.aaaaaaaa += einsum(t1.aa, (0, 1), t2.aaaa, (2, 3, 4, 5), t1.aa, (6, 7), (2, 3, 6, 0, 1, 7, 4, 5)) * -2
    .add 14 (.ein [(2, [0, 1]), (3, [2, 3, 4, 5]), (2, [6, 7])] [2, 3, 6, 0, 1, 7, 4, 5]) (-2) 1,
    -- 1098: c4.aaaaaaaa += einsum(t1.aa, (0, 1), t1.aa, (2, 3), t2.aaaa, (4, 5, 6, 7), (4, 0, 5, 2, 3, 1, 6, 7)) * 2
    .add 14 (.ein [(2, [0, 1]), (2, [2, 3]), (3, [4, 5, 6, 7])] [4, 0, 5, 2, 3, 1, 6, 7]) 2 1,
    -- 1099: c4.aaaaaaaa += einsum(t1.aa, (0, 1), t2.aaaa, (2, 3, 4, 5), t1.aa, (6, 7), (2, 3, 6, 0, 1, 4, 7, 5)) * 2
    .add 14 (.ein [(2, [0, 1]), (3, [2, 3, 4, 5]), (2, [6, 7])] [2, 3, 6, 0, 1, 4, 7, 5]) 2 1,
    -- 1100: c4.aaaaaaaa += einsum(t2.aaaa, (0, 1, 2, 3), t1.aa, (4, 5), t1.aa, (6, 7), (0, 6, 1, 4, 5, 2, 7, 3)) * -2
    .add 14 (.ein [(3, [0, 1, 2, 3]), (2, [4, 5]), (2, [6, 7])] [0, 6, 1, 4, 5, 2, 7, 3]) (-2) 1,
    -- 1101: c4.aaaaaaaa += einsum(t1.aa, (0, 1), t2.aaaa, (2, 3, 4, 5), t1.aa, (6, 7), (6, 2, 3, 0, 1, 7, 4, 5)) * -2
    .add 14 (.ein [(2, [0, 1]), (3, [2, 3, 4, 5]), (2, [6, 7])] [6, 2, 3, 0, 1, 7, 4, 5]) (-2) 1,
    -- 1102: c4.aaaaaaaa += einsum(t2.aaaa, (0, 1, 2, 3), t1.aa, (4, 5), t1.aa, (6, 7), (6, 0, 4, 1, 5, 7, 2, 3)) * 2
    .add 14 (.ein [(3, [0, 1, 2, 3]), (2, [4, 5]), (2, [6, 7])] [6, 0, 4, 1, 5, 7, 2, 3]) 2 1,
    -- 1103: c4.aaaaaaaa += einsum(t2.aaaa, (0, 1, 2, 3), t1.aa, (4, 5), t1.aa, (6, 7), (6, 0, 1, 4, 5, 2, 7, 3)) * 2
    .add 14 (.ein [(3, [0, 1, 2, 3]), (2, [4, 5]), (2, [6, 7])] [6, 0, 1, 4, 5, 2, 7, 3]) 2 1,
    -- 1104: c4.aaaaaaaa += einsum(t2.aaaa, (0, 1, 2, 3), t1.aa, (4, 5), t1.aa, (6, 7), (4, 0, 6, 1, 7, 2, 5, 3)) * -2
    .add 14 (.ein [(3, [0, 1, 2, 3]), (2, [4, 5]), (2, [6, 7])] [4, 0, 6, 1, 7, 2, 5, 3]) (-2) 1,
    -- 1105: c4.aaaaaaaa += einsum(t1.aa, (0, 1), t2.aaaa, (2, 3, 4, 5), t1.aa, (6, 7), (2, 3, 6, 0, 1, 4, 5, 7)) * -2
    .add 14 (.ein [(2, [0, 1]), (3, [2, 3, 4, 5]), (2, [6, 7])] [2, 3, 6, 0, 1, 4, 5, 7]) (-2) 1,
    -- 1106: c4.aaaaaaaa += einsum(t1.aa, (0, 1), t1.aa, (2, 3), t2.aaaa, (4, 5, 6, 7), (4, 0, 5, 2, 3, 6, 7, 1)) * 2
    .add 14 (.ein [(2, [0, 1]), (2, [2, 3]), (3, [4, 5, 6, 7])] [4, 0, 5, 2, 3, 6, 7, 1]) 2 1,
    -- 1107: c4.aaaaaaaa += einsum(t2.aaaa, (0, 1, 2, 3), t1.aa, (4, 5), t1.aa, (6, 7), (0, 1, 4, 6, 2, 7, 3, 5)) * 2
    .add 14 (.ein [(3, [0, 1, 2, 3]), (2, [4, 5]), (2, [6, 7])] [0, 1, 4, 6, 2, 7, 3, 5]) 2 1,
    -- 1108: c4.aaaaaaaa += einsum(t1.aa, (0, 1), t2.aaaa, (2, 3, 4, 5), t1.aa, (6, 7), (2, 0, 3, 6, 4, 7, 5, 1)) * -2
    .add 14 (.ein [(2, [0, 1]), (3, [2, 3, 4, 5]), (2, [6, 7])] [2, 0, 3, 6, 4, 7, 5, 1]) (-2) 1,
    -- 1109: c4.aaaaaaaa += einsum(t1.aa, (0, 1), t2.aaaa, (2, 3, 4, 5), t1.aa, (6, 7), (6, 2, 3, 0, 1, 4, 5, 7)) * -2
    .add 14 (.ein [(2, [0, 1]), (3, [2, 3, 4, 5]), (2, [6, 7])] [6, 2, 3, 0, 1, 4, 5, 7]) (-2) 1,
    -- 1110: c4.aaaaaaaa += einsum(t2.aaaa, (0, 1, 2, 3), t1.aa, (4, 5), t1.aa, (6, 7), (6, 0, 4, 1, 5, 2, 3, 7)) * 2
    .add 14 (.ein [(3, [0, 1, 2, 3]), (2, [4, 5]), (2, [6, 7])] [6, 0, 4, 1, 5, 2, 3, 7]) 2 1,
    -- 1111: c4.aaaaaaaa += einsum(t2.aaaa, (0, 1, 2, 3), t1.aa, (4, 5), t1.aa, (6, 7), (4, 0, 1, 6, 5, 2, 3, 7)) * 2
    .add 14 (.ein [(3, [0, 1, 2, 3]), (2, [4, 5]), (2, [6, 7])] [4, 0, 1, 6, 5, 2, 3, 7]) 2 1,
    -- 1112: c4.aaaaaaaa += einsum(t1.aa, (0, 1), t2.aaaa, (2, 3, 4, 5), t1.aa, (6, 7), (0, 2, 6, 3, 1, 4, 5, 7)) * -2
    .add 14 (.ein [(2, [0, 1]), (3, [2, 3, 4, 5]), (2, [6, 7])] [0, 2, 6, 3, 1, 4, 5, 7]) (-2) 1,
    -- 1113: c4.aaaaaaaa += einsum(t2.aaaa, (0, 1, 2, 3), t1.aa, (4, 5), t1.aa, (6, 7), (0, 1, 6, 4, 7, 5, 2, 3)) * 2
    .add 14 (.ein [(3, [0, 1, 2, 3]), (2, [4, 5]), (2, [6, 7])] [0, 1, 6, 4, 7, 5, 2, 3]) 2 1,
    -- 1114: c4.aaaaaaaa += einsum(t1.aa, (0, 1), t2.aaaa, (2, 3, 4, 5), t1.aa, (6, 7), (2, 0, 6, 3, 7, 1, 4, 5)) * -2
    .add 14 (.ein [(2, [0, 1]), (3, [2, 3, 4, 5]), (2, [6, 7])] [2, 0, 6, 3, 7, 1, 4, 5]) (-2) 1,
    -- 1115: c4.aaaaaaaa += einsum(t2.aaaa, (0, 1, 2, 3), t1.aa, (4, 5), t1.aa, (6, 7), (0, 1, 6, 4, 7, 2, 5, 3)) * -2
    .add 14 (.ein [(3, [0, 1, 2, 3]), (2, [4, 5]), (2, [6, 7])] [0, 1, 6, 4, 7, 2, 5, 3]) (-2) 1,
    -- 1116: c4.aaaaaaaa += einsum(t2.aaaa, (0, 1, 2, 3), t1.aa, (4, 5), t1.aa, (6, 7), (0, 4, 6, 1, 7, 2, 5, 3)) * 2
    .add 14 (.ein [(3, [0, 1, 2, 3]), (2, [4, 5]), (2, [6, 7])] [0, 4, 6, 1, 7, 2, 5, 3]) 2 1,
    -- 1117: c4.aaaaaaaa += einsum(t2.aaaa, (0, 1, 2, 3), t1.aa, (4, 5), t1.aa, (6, 7), (0, 1, 6, 4, 7, 2, 3, 5)) * 2
    .add 14 (.ein [(3, [0, 1, 2, 3]), (2, [4, 5]), (2, [6, 7])] [0, 1, 6, 4, 7, 2, 3, 5]) 2 1,
    -- 1118: c4.aaaaaaaa += einsum(t1.aa, (0, 1), t2.aaaa, (2, 3, 4, 5), t1.aa, (6, 7), (2, 0, 6, 3, 7, 4, 5, 1)) * -2
    .add 14 (.ein [(2, [0, 1]), (3, [2, 3, 4, 5]), (2, [6, 7])] [2, 0, 6, 3, 7, 4, 5, 1]) (-2) 1,
    -- 1119: c4.aaaaaaaa += einsum(t2.aaaa, (0, 1, 2, 3), t1.aa, (4, 5), t1.aa, (6, 7), (0, 1, 4, 6, 2, 5, 3, 7)) * -2
    .add 14 (.ein [(3, [0, 1, 2, 3]), (2, [4, 5]), (2, [6, 7])] [0, 1, 4, 6, 2, 5, 3, 7]) (-2) 1,
    -- 1120: c4.aaaaaaaa += einsum(t1.aa, (0, 1), t2.aaaa, (2, 3, 4, 5), t1.aa, (6, 7), (2, 0, 6, 3, 4, 7, 5, 1)) * 2
    .add 14 (.ein [(2, [0, 1]), (3, [2, 3, 4, 5]), (2, [6, 7])] [2, 0, 6, 3, 4, 7, 5, 1]) 2 1,
    -- 1121: c4.aaaaaaaa += einsum(t2.aaaa, (0, 1, 2, 3), t1.aa, (4, 5), t1.aa, (6, 7), (0, 4, 1, 6, 5, 7, 2, 3)) * -2
    .add 14 (.ein [(3, [0, 1, 2, 3]), (2, [4, 5]), (2, [6, 7])] [0, 4, 1, 6, 5, 7, 2, 3]) (-2) 1,
    -- 1122: c4.aaaaaaaa += einsum(t1.aa, (0, 1), t1.aa, (2, 3), t2.aaaa, (4, 5, 6, 7), (4, 2, 0, 5, 3, 1, 6, 7)) * 2
    .add 14 (.ein [(2, [0, 1]), (2, [2, 3]), (3, [4, 5, 6, 7])] [4, 2, 0, 5, 3, 1, 6, 7]) 2 1,
    -- 1123: c4.aaaaaaaa += einsum(t2.aaaa, (0, 1, 2, 3), t1.aa, (4, 5), t1.aa, (6, 7), (0, 6, 1, 4, 7, 2, 5, 3)) * 2
    .add 14 (.ein [(3, [0, 1, 2, 3]), (2, [4, 5]), (2, [6, 7])] [0, 6, 1, 4, 7, 2, 5, 3]) 2 1,
    -- 1124: c4.aaaaaaaa += einsum(t2.aaaa, (0, 1, 2, 3), t1.aa, (4, 5), t1.aa, (6, 7), (0, 4, 6, 1, 5, 2, 7, 3)) * -2
    .add 14 (.ein [(3, [0, 1, 2, 3]), (2, [4, 5]), (2, [6, 7])] [0, 4, 6, 1, 5, 2, 7, 3]) (-2) 1,
    -- 1125: c4.aaaaaaaa += einsum(t2.aaaa, (0, 1, 2, 3), t1.aa, (4, 5), t1.aa, (6, 7), (6, 4, 0, 1, 5, 7, 2, 3)) * -2
    .add 14 (.ein [(3, [0, 1, 2, 3]), (2, [4, 5]), (2, [6, 7])] [6, 4, 0, 1, 5, 7, 2, 3]) (-2) 1,
    -- 1126: c4.aaaaaaaa += einsum(t1.aa, (0, 1), t2.aaaa, (2, 3, 4, 5), t1.aa, (6, 7), (6, 0, 2, 3, 7, 1, 4, 5)) * 2
    .add 14 (.ein [(2, [0, 1]), (3, [2, 3, 4, 5]), (2, [6, 7])] [6, 0, 2, 3, 7, 1, 4, 5]) 2 1,
    -- 1127: c4.aaaaaaaa += einsum(t1.aa, (0, 1), t1.aa, (2, 3), t2.aaaa, (4, 5, 6, 7), (0, 2, 4, 5, 3, 6, 1, 7)) * 2
    .add 14 (.ein [(2, [0, 1]), (2, [2, 3]), (3, [4, 5, 6, 7])] [0, 2, 4, 5, 3, 6, 1, 7]) 2 1,
    -- 1128: c4.aaaaaaaa += einsum(t1.aa, (0, 1), t1.aa, (2, 3), t2.aaaa, (4, 5, 6, 7), (0, 2, 4, 5, 1, 6, 3, 7)) * -2
    .add 14 (.ein [(2, [0, 1]), (2, [2, 3]), (3, [4, 5, 6, 7])] [0, 2, 4, 5, 1, 6, 3, 7]) (-2) 1,
    -- 1129: c4.aaaaaaaa += einsum(t2.aaaa, (0, 1, 2, 3), t1.aa, (4, 5), t1.aa, (6, 7), (0, 4, 1, 6, 5, 2, 3, 7)) * -2
    .add 14 (.ein [(3, [0, 1, 2, 3]), (2, [4, 5]), (2, [6, 7])] [0, 4, 1, 6, 5, 2, 3, 7]) (-2) 1,
    -- 1130: c4.aaaaaaaa += einsum(t1.aa, (0, 1), t1.aa, (2, 3), t2.aaaa, (4, 5, 6, 7), (4, 2, 0, 5, 3, 6, 7, 1)) * 2
    .add 14 (.ein [(2, [0, 1]), (2, [2, 3]), (3, [4, 5, 6, 7])] [4, 2, 0, 5, 3, 6, 7, 1]) 2 1,
    -- 1131: c4.aaaaaaaa += einsum(t1.aa, (0, 1), t2.aaaa, (2, 3, 4, 5), t1.aa, (6, 7), (2, 0, 3, 6, 4, 1, 5, 7)) * 2
    .add 14 (.ein [(2, [0, 1]), (3, [2, 3, 4, 5]), (2, [6, 7])] [2, 0, 3, 6, 4, 1, 5, 7]) 2 1,
    -- 1132: c4.aaaaaaaa += einsum(t1.aa, (0, 1), t2.aaaa, (2, 3, 4, 5), t1.aa, (6, 7), (2, 0, 6, 3, 4, 1, 5, 7)) * -2
    .add 14 (.ein [(2, [0, 1]), (3, [2, 3, 4, 5]), (2, [6, 7])] [2, 0, 6, 3, 4, 1, 5, 7]) (-2) 1,
    -- 1133: c4.aaaaaaaa += einsum(t2.aaaa, (0, 1, 2, 3), t1.aa, (4, 5), t1.aa, (6, 7), (6, 4, 0, 1, 5, 2, 3, 7)) * -2
    .add 14 (.ein [(3, [0, 1, 2, 3]), (2, [4, 5]), (2, [6, 7])] [6, 4, 0, 1, 5, 2, 3, 7]) (-2) 1,
    -- 1134: c4.aaaaaaaa += einsum(t1.aa, (0, 1), t1.aa, (2, 3), t2.aaaa, (4, 5, 6, 7), (2, 0, 4, 5, 3, 6, 7, 1)) * 2
    .add 14 (.ein [(2, [0, 1]), (2, [2, 3]), (3, [4, 5, 6, 7])] [2, 0, 4, 5, 3, 6, 7, 1]) 2 1,
    -- 1135: c4.aaaaaaaa += einsum(t1.aa, (0, 1), t2.aaaa, (2, 3, 4, 5), t1.aa, (6, 7), (6, 0, 2, 3, 4, 1, 5, 7)) * 2
    .add 14 (.ein [(2, [0, 1]), (3, [2, 3, 4, 5]), (2, [6, 7])] [6, 0, 2, 3, 4, 1, 5, 7]) 2 1,
    -- 1136: c4.aaaaaaaa += einsum(t1.aa, (0, 1), t2.aaaa, (2, 3, 4, 5), t1.aa, (6, 7), (6, 0, 2, 3, 4, 7, 5, 1)) * -2
    .add 14 (.ein [(2, [0, 1]), (3, [2, 3, 4, 5]), (2, [6, 7])] [6, 0, 2, 3, 4, 7, 5, 1]) (-2) 1,
    -- 1137: c4.aaaaaaaa += einsum(t2.aaaa, (0, 1, 2, 3), t1.aa, (4, 5), t1.aa, (6, 7), (4, 0, 1, 6, 5, 7, 2, 3)) * 2
    .add 14 (.ein [(3, [0, 1, 2, 3]), (2, [4, 5]), (2, [6, 7])] [4, 0, 1, 6, 5, 7, 2, 3]) 2 1,
    -- 1138: c4.aaaaaaaa += einsum(t2.aaaa, (0, 1, 2, 3), t1.aa, (4, 5), t1.aa, (6, 7), (4, 0, 6, 1, 5, 7, 2, 3)) * -2
    .add 14 (.ein [(3, [0, 1, 2, 3]), (2, [4, 5]), (2, [6, 7])] [4, 0, 6, 1, 5, 7, 2, 3]) (-2) 1,
    -- 1139: c4.aaaaaaaa += einsum(t2.aaaa, (0, 1, 2, 3), t1.aa, (4, 5), t1.aa, (6, 7), (6, 0, 1, 4, 7, 2, 5, 3)) * -2
    .add 14 (.ein [(3, [0, 1, 2, 3]), (2, [4, 5]), (2, [6, 7])] [6, 0, 1, 4, 7, 2, 5, 3]) (-2) 1,
    -- 1140: c4.aaaaaaaa += einsum(t2.aaaa, (0, 1, 2, 3), t1.aa, (4, 5), t1.aa, (6, 7), (4, 0, 6, 1, 5, 2, 7, 3)) * 2
    .add 14 (.ein [(3, [0, 1, 2, 3]), (2, [4, 5]), (2, [6, 7])] [4, 0, 6, 1, 5, 2, 7, 3]) 2 1,
    -- 1141: c4.aaaaaaaa += einsum(t1.aa, (0, 1), t2.aaaa, (2, 3, 4, 5), t1.aa, (6, 7), (2, 3, 6, 0, 4, 1, 7, 5)) * -2
    .add 14 (.ein [(2, [0, 1]), (3, [2, 3, 4, 5]), (2, [6, 7])] [2, 3, 6, 0, 4, 1, 7, 5]) (-2) 1,
    -- 1142: c4.aaaaaaaa += einsum(t2.aaaa, (0, 1, 2, 3), t1.aa, (4, 5), t1.aa, (6, 7), (0, 4, 1, 6, 2, 7, 5, 3)) * 2
    .add 14 (.ein [(3, [0, 1, 2, 3]), (2, [4, 5]), (2, [6, 7])] [0, 4, 1, 6, 2, 7, 5, 3]) 2 1,
    -- 1143: c4.aaaaaaaa += einsum(t2.aaaa, (0, 1, 2, 3), t1.aa, (4, 5), t1.aa, (6, 7), (4, 0, 1, 6, 2, 7, 5, 3)) * -2
    .add 14 (.ein [(3, [0, 1, 2, 3]), (2, [4, 5]), (2, [6, 7])] [4, 0, 1, 6, 2, 7, 5, 3]) (-2) 1,
    -- 1144: c4.aaaaaaaa += einsum(t1.aa, (0, 1), t1.aa, (2, 3), t2.aaaa, (4, 5, 6, 7), (0, 4, 2, 5, 6, 3, 1, 7)) * 2
    .add 14 (.ein [(2, [0, 1]), (2, [2, 3]), (3, [4, 5, 6, 7])] [0, 4, 2, 5, 6, 3, 1, 7]) 2 1,
    -- 1145: c4.aaaaaaaa += einsum(t2.aaaa, (0, 1, 2, 3), t1.aa, (4, 5), t1.aa, (6, 7), (6, 0, 1, 4, 2, 5, 3, 7)) * 2
    .add 14 (.ein [(3, [0, 1, 2, 3]), (2, [4, 5]), (2, [6, 7])] [6, 0, 1, 4, 2, 5, 3, 7]) 2 1,
    -- 1146: c4.aaaaaaaa += einsum(t2.aaaa, (0, 1, 2, 3), t1.aa, (4, 5), t1.aa, (6, 7), (6, 0, 4, 1, 2, 5, 3, 7)) * -2
    .add 14 (.ein [(3, [0, 1, 2, 3]), (2, [4, 5]), (2, [6, 7])] [6, 0, 4, 1, 2, 5, 3, 7]) (-2) 1,
    -- 1147: c4.aaaaaaaa += einsum(t1.aa, (0, 1), t1.aa, (2, 3), t2.aaaa, (4, 5, 6, 7), (4, 5, 2, 0, 6, 3, 1, 7)) * 2
    .add 14 (.ein [(2, [0, 1]), (2, [2, 3]), (3, [4, 5, 6, 7])] [4, 5, 2, 0, 6, 3, 1, 7]) 2 1,
    -- 1148: c4.aaaaaaaa += einsum(t2.aaaa, (0, 1, 2, 3), t1.aa, (4, 5), t1.aa, (6, 7), (0, 6, 4, 1, 2, 5, 7, 3)) * -2
    .add 14 (.ein [(3, [0, 1, 2, 3]), (2, [4, 5]), (2, [6, 7])] [0, 6, 4, 1, 2, 5, 7, 3]) (-2) 1,
    -- 1149: c4.aaaaaaaa += einsum(t1.aa, (0, 1), t1.aa, (2, 3), t2.aaaa, (4, 5, 6, 7), (4, 0, 5, 2, 6, 1, 3, 7)) * -2
    .add 14 (.ein [(2, [0, 1]), (2, [2, 3]), (3, [4, 5, 6, 7])] [4, 0, 5, 2, 6, 1, 3, 7]) (-2) 1,
    -- 1150: c4.aaaaaaaa += einsum(t1.aa, (0, 1), t2.aaaa, (2, 3, 4, 5), t1.aa, (6, 7), (2, 0, 6, 3, 4, 1, 7, 5)) * 2
    .add 14 (.ein [(2, [0, 1]), (3, [2, 3, 4, 5]), (2, [6, 7])] [2, 0, 6, 3, 4, 1, 7, 5]) 2 1,
    -- 1151: c4.aaaaaaaa += einsum(t1.aa, (0, 1), t2.aaaa, (2, 3, 4, 5), t1.aa, (6, 7), (6, 0, 2, 3, 4, 1, 7, 5)) * -2
    .add 14 (.ein [(2, [0, 1]), (3, [2, 3, 4, 5]), (2, [6, 7])] [6, 0, 2, 3, 4, 1, 7, 5]) (-2) 1,
    -- 1152: c4.aaaaaaaa += einsum(t2.aaaa, (0, 1, 2, 3), t1.aa, (4, 5), t1.aa, (6, 7), (6, 4, 0, 1, 2, 7, 5, 3)) * 2
    .add 14 (.ein [(3, [0, 1, 2, 3]), (2, [4, 5]), (2, [6, 7])] [6, 4, 0, 1, 2, 7, 5, 3]) 2 1,
    -- 1153: c4.aaaaaaaa += einsum(t1.aa, (0, 1), t2.aaaa, (2, 3, 4, 5), t1.aa, (6, 7), (6, 2, 3, 0, 4, 7, 1, 5)) * 2
    .add 14 (.ein [(2, [0, 1]), (3, [2, 3, 4, 5]), (2, [6, 7])] [6, 2, 3, 0, 4, 7, 1, 5]) 2 1,
    -- 1154: c4.aaaaaaaa += einsum(t2.aaaa, (0, 1, 2, 3), t1.aa, (4, 5), t1.aa, (6, 7), (6, 0, 4, 1, 2, 7, 5, 3)) * -2
    .add 14 (.ein [(3, [0, 1, 2, 3]), (2, [4, 5]), (2, [6, 7])] [6, 0, 4, 1, 2, 7, 5, 3]) (-2) 1,
    -- 1155: c4.aaaaaaaa += einsum(t2.aaaa, (0, 1, 2, 3), t1.aa, (4, 5), t1.aa, (6, 7), (6, 0, 1, 4, 2, 7, 3, 5)) * -2
    .add 14 (.ein [(3, [0, 1, 2, 3]), (2, [4, 5]), (2, [6, 7])] [6, 0, 1, 4, 2, 7, 3, 5]) (-2) 1,
    -- 1156: c4.aaaaaaaa += einsum(t2.aaaa, (0, 1, 2, 3), t1.aa, (4, 5), t1.aa, (6, 7), (6, 0, 4, 1, 2, 7, 3, 5)) * 2
    .add 14 (.ein [(3, [0, 1, 2, 3]), (2, [4, 5]), (2, [6, 7])] [6, 0, 4, 1, 2, 7, 3, 5]) 2 1,
    -- 1157: c4.aaaaaaaa += einsum(t1.aa, (0, 1), t1.aa, (2, 3), t2.aaaa, (4, 5, 6, 7), (4, 5, 2, 0, 6, 7, 1, 3)) * -2
    .add 14 (.ein [(2, [0, 1]), (2, [2, 3]), (3, [4, 5, 6, 7])] [4, 5, 2, 0, 6, 7, 1, 3]) (-2) 1,
    -- 1158: c4.aaaaaaaa += einsum(t1.aa, (0, 1), t1.aa, (2, 3), t2.aaaa, (4, 5, 6, 7), (4, 0, 5, 2, 6, 7, 3, 1)) * 2
    .add 14 (.ein [(2, [0, 1]), (2, [2, 3]), (3, [4, 5, 6, 7])] [4, 0, 5, 2, 6, 7, 3, 1]) 2 1,
    -- 1159: c4.aaaaaaaa += einsum(t1.aa, (0, 1), t2.aaaa, (2, 3, 4, 5), t1.aa, (6, 7), (6, 2, 3, 0, 4, 5, 1, 7)) * -2
    .add 14 (.ein [(2, [0, 1]), (3, [2, 3, 4, 5]), (2, [6, 7])] [6, 2, 3, 0, 4, 5, 1, 7]) (-2) 1,
    -- 1160: c4.aaaaaaaa += einsum(t2.aaaa, (0, 1, 2, 3), t1.aa, (4, 5), t1.aa, (6, 7), (6, 0, 4, 1, 2, 3, 5, 7)) * 2
    .add 14 (.ein [(3, [0, 1, 2, 3]), (2, [4, 5]), (2, [6, 7])] [6, 0, 4, 1, 2, 3, 5, 7]) 2 1,
    -- 1161: c4.aaaaaaaa += einsum(t2.aaaa, (0, 1, 2, 3), t1.aa, (4, 5), t1.aa, (6, 7), (4, 0, 1, 6, 2, 3, 5, 7)) * 2
    .add 14 (.ein [(3, [0, 1, 2, 3]), (2, [4, 5]), (2, [6, 7])] [4, 0, 1, 6, 2, 3, 5, 7]) 2 1,
    -- 1162: c4.aaaaaaaa += einsum(t1.aa, (0, 1), t1.aa, (2, 3), t2.aaaa, (4, 5, 6, 7), (0, 4, 2, 5, 6, 7, 1, 3)) * -2
    .add 14 (.ein [(2, [0, 1]), (2, [2, 3]), (3, [4, 5, 6, 7])] [0, 4, 2, 5, 6, 7, 1, 3]) (-2) 1,
    -- 1163: c4.aaaaaaaa += einsum(t1.aa, (0, 1), t2.aaaa, (2, 3, 4, 5), t1.aa, (6, 7), (2, 3, 6, 0, 4, 5, 7, 1)) * 2
    .add 14 (.ein [(2, [0, 1]), (3, [2, 3, 4, 5]), (2, [6, 7])] [2, 3, 6, 0, 4, 5, 7, 1]) 2 1,
    -- 1164: c4.aaaaaaaa += einsum(t1.aa, (0, 1), t2.aaaa, (2, 3, 4, 5), t1.aa, (6, 7), (2, 0, 6, 3, 4, 5, 7, 1)) * -2
    .add 14 (.ein [(2, [0, 1]), (3, [2, 3, 4, 5]), (2, [6, 7])] [2, 0, 6, 3, 4, 5, 7, 1]) (-2) 1,
    -- 1165: c4.aaaaaaaa += einsum(t2.aaaa, (0, 1, 2, 3), t1.aa, (4, 5), t1.aa, (6, 7), (0, 4, 1, 6, 2, 3, 5, 7)) * -2
    .add 14 (.ein [(3, [0, 1, 2, 3]), (2, [4, 5]), (2, [6, 7])] [0, 4, 1, 6, 2, 3, 5, 7]) (-2) 1,
    -- 1166: c4.aaaaaaaa += einsum(t2.aaaa, (0, 1, 2, 3), t1.aa, (4, 5), t1.aa, (6, 7), (0, 6, 4, 1, 2, 3, 7, 5)) * 2
    .add 14 (.ein [(3, [0, 1, 2, 3]), (2, [4, 5]), (2, [6, 7])] [0, 6, 4, 1, 2, 3, 7, 5]) 2 1,
    -- 1167: c4.aaaaaaaa += einsum(t2.aaaa, (0, 1, 2, 3), t1.aa, (4, 5), t1.aa, (6, 7), (6, 4, 0, 1, 2, 3, 5, 7)) * -2
    .add 14 (.ein [(3, [0, 1, 2, 3]), (2, [4, 5]), (2, [6, 7])] [6, 4, 0, 1, 2, 3, 5, 7]) (-2) 1,
    -- 1168: c4.aaaaaaaa += einsum(t1.aa, (0, 1), t1.aa, (2, 3), t2.aaaa, (4, 5, 6, 7), (2, 0, 4, 5, 6, 7, 3, 1)) * 2
    .add 14 (.ein [(2, [0, 1]), (2, [2, 3]), (3, [4, 5, 6, 7])] [2, 0, 4, 5, 6, 7, 3, 1]) 2 1,
    -- 1169: c4.aaaaaaaa += einsum(t1.aa, (0, 1), t1.aa, (2, 3), t1.aa, (4, 5), t1.aa, (6, 7), (6, 4, 2, 0, 1, 3, 5, 7))
    .add 14 (.ein [(2, [0, 1]), (2, [2, 3]), (2, [4, 5]), (2, [6, 7])] [6, 4, 2, 0, 1, 3, 5, 7]) 1 1,
    -- 1170: c4.aaaaaaaa += einsum(t1.aa, (0, 1), t1.aa, (2, 3), t1.aa, (4, 5), t1.aa, (6, 7), (2, 0, 4, 6, 7, 5, 3, 1)) * -1
    .add 14 (.ein [(2, [0, 1]), (2, [2, 3]), (2, [4, 5]), (2, [6, 7])] [2, 0, 4, 6, 7, 5, 3, 1]) (-1) 1,
    -- 1171: c4.aaaaaaaa += einsum(t1.aa, (0, 1), t1.aa, (2, 3), t1.aa, (4, 5), t1.aa, (6, 7), (6, 2, 0, 4, 1, 5, 3, 7)) * -1
    .add 14 (.ein [(2, [0, 1]), (2, [2, 3]), (2, [4, 5]), (2, [6, 7])] [6, 2, 0, 4, 1, 5, 3, 7]) (-1) 1,
    -- 1172: c4.aaaaaaaa += einsum(t1.aa, (0, 1), t1.aa, (2, 3), t1.aa, (4, 5), t1.aa, (6, 7), (2, 0, 6, 4, 7, 5, 3, 1))
    .add 14 (.ein [(2, [0, 1]), (2, [2, 3]), (2, [4, 5]), (2, [6, 7])] [2, 0, 6, 4, 7, 5, 3, 1]) 1 1,
    -- 1173: c4.aaaaaaaa += einsum(t1.aa, (0, 1), t1.aa, (2, 3), t1.aa, (4, 5), t1.aa, (6, 7), (6, 0, 4, 2, 3, 1, 5, 7)) * -1
    .add 14 (.ein [(2, [0, 1]), (2, [2, 3]), (2, [4, 5]), (2, [6, 7])] [6, 0, 4, 2, 3, 1, 5, 7]) (-1) 1,
    -- 1174: c4.aaaaaaaa += einsum(t1.aa, (0, 1), t1.aa, (2, 3), t1.aa, (4, 5), t1.aa, (6, 7), (4, 0, 6, 2, 3, 1, 5, 7))
    .add 14 (.ein [(2, [0, 1]), (2, [2, 3]), (2, [4, 5]), (2, [6, 7])] [4, 0, 6, 2, 3, 1, 5, 7]) 1 1,
    -- 1175: c4.aaaaaaaa += einsum(t1.aa, (0, 1), t1.aa, (2, 3), t1.aa, (4, 5), t1.aa, (6, 7), (6, 2, 4, 0, 3, 1, 5, 7))
    .add 14 (.ein [(2, [0, 1]), (2, [2, 3]), (2, [4, 5]), (2, [6, 7])] [6, 2, 4, 0, 3, 1, 5, 7]) 1 1,
    -- 1176: c4.aaaaaaaa += einsum(t1.aa, (0, 1), t1.aa, (2, 3), t1.aa, (4, 5), t1.aa, (6, 7), (0, 4, 2, 6, 5, 7, 1, 3)) * -1
    .add 14 (.ein [(2, [0, 1]), (2, [2, 3]), (2, [4, 5]), (2, [6, 7])] [0, 4, 2, 6, 5, 7, 1, 3]) (-1) 1,
    -- 1177: c4.aaaaaaaa += einsum(t1.aa, (0, 1), t1.aa, (2, 3), t1.aa, (4, 5), t1.aa, (6, 7), (6, 0, 4, 2, 3, 7, 5, 1))
    .add 14 (.ein [(2, [0, 1]), (2, [2, 3]), (2, [4, 5]), (2, [6, 7])] [6, 0, 4, 2, 3, 7, 5, 1]) 1 1,
    -- 1178: c4.aaaaaaaa += einsum(t1.aa, (0, 1), t1.aa, (2, 3), t1.aa, (4, 5), t1.aa, (6, 7), (6, 4, 2, 0, 1, 7, 5, 3)) * -1
    .add 14 (.ein [(2, [0, 1]), (2, [2, 3]), (2, [4, 5]), (2, [6, 7])] [6, 4, 2, 0, 1, 7, 5, 3]) (-1) 1,
    -- 1179: c4.aaaaaaaa += einsum(t1.aa, (0, 1), t1.aa, (2, 3), t1.aa, (4, 5), t1.aa, (6, 7), (2, 0, 4, 6, 3, 7, 5, 1)) * -1
    .add 14 (.ein [(2, [0, 1]), (2, [2, 3]), (2, [4, 5]), (2, [6, 7])] [2, 0, 4, 6, 3, 7, 5, 1]) (-1) 1,
    -- 1180: c4.aaaaaaaa += einsum(t1.aa, (0, 1), t1.aa, (2, 3), t1.aa, (4, 5), t1.aa, (6, 7), (0, 2, 6, 4, 1, 5, 3, 7))
    .add 14 (.ein [(2, [0, 1]), (2, [2, 3]), (2, [4, 5]), (2, [6, 7])] [0, 2, 6, 4, 1, 5, 3, 7]) 1 1,
    -- 1181: c4.aaaaaaaa += einsum(t1.aa, (0, 1), t1.aa, (2, 3), t1.aa, (4, 5), t1.aa, (6, 7), (6, 0, 4, 2, 5, 1, 3, 7))
    .add 14 (.ein [(2, [0, 1]), (2, [2, 3]), (2, [4, 5]), (2, [6, 7])] [6, 0, 4, 2, 5, 1, 3, 7]) 1 1,
    -- 1182: c4.aaaaaaaa += einsum(t1.aa, (0, 1), t1.aa, (2, 3), t1.aa, (4, 5), t1.aa, (6, 7), (2, 0, 6, 4, 7, 1, 3, 5)) * -1
    .add 14 (.ein [(2, [0, 1]), (2, [2, 3]), (2, [4, 5]), (2, [6, 7])] [2, 0, 6, 4, 7, 1, 3, 5]) (-1) 1,
    -- 1183: c4.aaaaaaaa += einsum(t1.aa, (0, 1), t1.aa, (2, 3), t1.aa, (4, 5), t1.aa, (6, 7), (6, 4, 2, 0, 5, 3, 1, 7)) * -1
    .add 14 (.ein [(2, [0, 1]), (2, [2, 3]), (2, [4, 5]), (2, [6, 7])] [6, 4, 2, 0, 5, 3, 1, 7]) (-1) 1,
    -- 1184: c4.aaaaaaaa += einsum(t1.aa, (0, 1), t1.aa, (2, 3), t1.aa, (4, 5), t1.aa, (6, 7), (0, 4, 2, 6, 5, 3, 1, 7))
    .add 14 (.ein [(2, [0, 1]), (2, [2, 3]), (2, [4, 5]), (2, [6, 7])] [0, 4, 2, 6, 5, 3, 1, 7]) 1 1,
    -- 1185: c4.aaaaaaaa += einsum(t1.aa, (0, 1), t1.aa, (2, 3), t1.aa, (4, 5), t1.aa, (6, 7), (6, 0, 4, 2, 5, 7, 3, 1)) * -1
    .add 14 (.ein [(2, [0, 1]), (2, [2, 3]), (2, [4, 5]), (2, [6, 7])] [6, 0, 4, 2, 5, 7, 3, 1]) (-1) 1,
    -- 1186: c4.aaaaaaaa += einsum(t1.aa, (0, 1), t1.aa, (2, 3), t1.aa, (4, 5), t1.aa, (6, 7), (6, 2, 0, 4, 1, 7, 3, 5))
    .add 14 (.ein [(2, [0, 1]), (2, [2, 3]), (2, [4, 5]), (2, [6, 7])] [6, 2, 0, 4, 1, 7, 3, 5]) 1 1,
    -- 1187: c4.aaaaaaaa += einsum(t1.aa, (0, 1), t1.aa, (2, 3), t1.aa, (4, 5), t1.aa, (6, 7), (4, 0, 6, 2, 5, 7, 3, 1))
    .add 14 (.ein [(2, [0, 1]), (2, [2, 3]), (2, [4, 5]), (2, [6, 7])] [4, 0, 6, 2, 5, 7, 3, 1]) 1 1,
    -- 1188: c4.aaaaaaaa += einsum(t1.aa, (0, 1), t1.aa, (2, 3), t1.aa, (4, 5), t1.aa, (6, 7), (2, 4, 0, 6, 3, 1, 5, 7)) * -1
    .add 14 (.ein [(2, [0, 1]), (2, [2, 3]), (2, [4, 5]), (2, [6, 7])] [2, 4, 0, 6, 3, 1, 5, 7]) (-1) 1,
    -- 1189: c4.aaaaaaaa += einsum(t1.aa, (0, 1), t1.aa, (2, 3), t1.aa, (4, 5), t1.aa, (6, 7), (6, 4, 2, 0, 5, 7, 1, 3))
    .add 14 (.ein [(2, [0, 1]), (2, [2, 3]), (2, [4, 5]), (2, [6, 7])] [6, 4, 2, 0, 5, 7, 1, 3]) 1 1,
    -- 1190: c4.aaaaaaaa += einsum(t1.aa, (0, 1), t1.aa, (2, 3), t1.aa, (4, 5), t1.aa, (6, 7), (6, 2, 4, 0, 3, 7, 5, 1)) * -1
    .add 14 (.ein [(2, [0, 1]), (2, [2, 3]), (2, [4, 5]), (2, [6, 7])] [6, 2, 4, 0, 3, 7, 5, 1]) (-1) 1,
    -- 1191: c4.aaaaaaaa += einsum(t1.aa, (0, 1), t1.aa, (2, 3), t1.aa, (4, 5), t1.aa, (6, 7), (4, 0, 6, 2, 5, 1, 3, 7)) * -1
    .add 14 (.ein [(2, [0, 1]), (2, [2, 3]), (2, [4, 5]), (2, [6, 7])] [4, 0, 6, 2, 5, 1, 3, 7]) (-1) 1,
    -- 1192: c4.aaaaaaaa += einsum(t1.aa, (0, 1), t1.aa, (2, 3), t1.aa, (4, 5), t1.aa, (6, 7), (2, 0, 6, 4, 3, 1, 7, 5))
    .add 14 (.ein [(2, [0, 1]), (2, [2, 3]), (2, [4, 5]), (2, [6, 7])] [2, 0, 6, 4, 3, 1, 7, 5]) 1 1,
    -- 1193: c4.aaabaaab = np.copy(t4.aaabaaab) * 3
    .set 15 (.cp 4) 3 1,
    -- 1194: c4.aaabaaab += t4.aaabaaab * 3
    .add 15 (.cp 4) 3 1,
    -- 1195: c4.aaabaaab += einsum(t3.abaaba, (0, 1, 2, 3, 4, 5), t1.aa, (6, 7), (0, 2, 6, 1, 7, 5, 3, 4)) * -1
    .add 15 (.ein [(5, [0, 1, 2, 3, 4, 5]), (2, [6, 7])] [0, 2, 6, 1, 7, 5, 3, 4]) (-1) 1,
    -- 1196: c4.aaabaaab += einsum(t3.abaaba, (0, 1, 2, 3, 4, 5), t1.aa, (6, 7), (0, 2, 6, 1, 7, 5, 3, 4)) * -1
    .add 15 (.ein [(5, [0, 1, 2, 3, 4, 5]), (2, [6, 7])] [0, 2, 6, 1, 7, 5, 3, 4]) (-1) 1,
    -- 1197: c4.aaabaaab += einsum(t3.abaaba, (0, 1, 2, 3, 4, 5), t1.aa, (6, 7), (0, 2, 6, 1, 5, 7, 3, 4))
    .add 15 (.ein [(5, [0, 1, 2, 3, 4, 5]), (2, [6, 7])] [0, 2, 6, 1, 5, 7, 3, 4]) 1 1,
    -- 1198: c4.aaabaaab += einsum(t3.abaaba, (0, 1, 2, 3, 4, 5), t1.aa, (6, 7), (0, 2, 6, 1, 5, 7, 3, 4))
    .add 15 (.ein [(5, [0, 1, 2, 3, 4, 5]), (2, [6, 7])] [0, 2, 6, 1, 5, 7, 3, 4]) 1 1,
    -- 1199: c4.aaabaaab += einsum(t1.aa, (0, 1), t3.abaaba, (2, 3, 4, 5, 6, 7), (2, 0, 4, 3, 1, 7, 5, 6))
    .add 15 (.ein [(2, [0, 1]), (5, [2, 3, 4, 5, 6, 7])] [2, 0, 4, 3, 1, 7, 5, 6]) 1 1,
    -- 1200: c4.aaabaaab += einsum(t1.aa, (0, 1), t3.abaaba, (2, 3, 4, 5, 6, 7), (2, 0, 4, 3, 1, 7, 5, 6))
    .add 15 (.ein [(2, [0, 1]), (5, [2, 3, 4, 5, 6, 7])] [2, 0, 4, 3, 1, 7, 5, 6]) 1 1,
    -- 1201: c4.aaabaaab += einsum(t1.aa, (0, 1), t3.abaaba, (2, 3, 4, 5, 6, 7), (0, 2, 4, 3, 1, 5, 7, 6))
    .add 15 (.ein [(2, [0, 1]), (5, [2, 3, 4, 5, 6, 7])] [0, 2, 4, 3, 1, 5, 7, 6]) 1 1,
    -- 1202: c4.aaabaaab += einsum(t1.aa, (0, 1), t3.abaaba, (2, 3, 4, 5, 6, 7), (0, 2, 4, 3, 1, 5, 7, 6))
    .add 15 (.ein [(2, [0, 1]), (5, [2, 3, 4, 5, 6, 7])] [0, 2, 4, 3, 1, 5, 7, 6]) 1 1,
    -- 1203: c4.aaabaaab += einsum(t1.aa, (0, 1), t3.abaaba, (2, 3, 4, 5, 6, 7), (2, 0, 4, 3, 7, 1, 5, 6)) * -1
    .add 15 (.ein [(2, [0, 1]), (5, [2, 3, 4, 5, 6, 7])] [2, 0, 4, 3, 7, 1, 5, 6]) (-1) 1,
    -- 1204: c4.aaabaaab += einsum(t1.aa, (0, 1), t3.abaaba, (2, 3, 4, 5, 6, 7), (2, 0, 4, 3, 7, 1, 5, 6)) * -1
    .add 15 (.ein [(2, [0, 1]), (5, [2, 3, 4, 5, 6, 7])] [2, 0, 4, 3, 7, 1, 5, 6]) (-1) 1,
    -- 1205: c4.aaabaaab += einsum(t3.abaaba, (0, 1, 2, 3, 4, 5), t1.aa, (6, 7), (6, 0, 2, 1, 3, 7, 5, 4)) * -1
    .add 15 (.ein [(5, [0, 1, 2, 3, 4, 5]), (2, [6, 7])] [6, 0, 2, 1, 3, 7, 5, 4]) (-1) 1,
    -- 1206: c4.aaabaaab += einsum(t3.abaaba, (0, 1, 2, 3, 4, 5), t1.aa, (6, 7), (6, 0, 2, 1, 3, 7, 5, 4)) * -1
    .add 15 (.ein [(5, [0, 1, 2, 3, 4, 5]), (2, [6, 7])] [6, 0, 2, 1, 3, 7, 5, 4]) (-1) 1,
    -- 1207: c4.aaabaaab += einsum(t1.aa, (0, 1), t3.abaaba, (2, 3, 4, 5, 6, 7), (2, 4, 0, 3, 7, 5, 1, 6)) * -1
    .add 15 (.ein [(2, [0, 1]), (5, [2, 3, 4, 5, 6, 7])] [2, 4, 0, 3, 7, 5, 1, 6]) (-1) 1,
    -- 1208: c4.aaabaaab += einsum(t1.aa, (0, 1), t3.abaaba, (2, 3, 4, 5, 6, 7), (2, 4, 0, 3, 7, 5, 1, 6)) * -1
    .add 15 (.ein [(2, [0, 1]), (5, [2, 3, 4, 5, 6, 7])] [2, 4, 0, 3, 7, 5, 1, 6]) (-1) 1,
    -- 1209: c4.aaabaaab += einsum(t1.bb, (0, 1), t3.aaaaaa, (2, 3, 4, 5, 6, 7), (2, 3, 4, 0, 5, 6, 7, 1)) * 3
    .add 15 (.ein [(6, [0, 1]), (1, [2, 3, 4, 5, 6, 7])] [2, 3, 4, 0, 5, 6, 7, 1]) 3 1,
    -- 1210: c4.aaabaaab += einsum(t1.bb, (0, 1), t3.aaaaaa, (2, 3, 4, 5, 6, 7), (2, 3, 4, 0, 5, 6, 7, 1)) * 3
    .add 15 (.ein [(6, [0, 1]), (1, [2, 3, 4, 5, 6, 7])] [2, 3, 4, 0, 5, 6, 7, 1]) 3 1,
    -- 1211: c4.aaabaaab += einsum(t1.aa, (0, 1), t3.abaaba, (2, 3, 4, 5, 6, 7), (2, 0, 4, 3, 7, 5, 1, 6))
    .add 15 (.ein [(2, [0, 1]), (5, [2, 3, 4, 5, 6, 7])] [2, 0, 4, 3, 7, 5, 1, 6]) 1 1,
    -- 1212: c4.aaabaaab += einsum(t1.aa, (0, 1), t3.abaaba, (2, 3, 4, 5, 6, 7), (2, 0, 4, 3, 7, 5, 1, 6))
    .add 15 (.ein [(2, [0, 1]), (5, [2, 3, 4, 5, 6, 7])] [2, 0, 4, 3, 7, 5, 1, 6]) 1 1,
    -- 1213: c4.aaabaaab += einsum(t1.aa, (0, 1), t3.abaaba, (2, 3, 4, 5, 6, 7), (0, 2, 4, 3, 5, 7, 1, 6))
    .add 15 (.ein [(2, [0, 1]), (5, [2, 3, 4, 5, 6, 7])] [0, 2, 4, 3, 5, 7, 1, 6]) 1 1,
    -- 1214: c4.aaabaaab += einsum(t1.aa, (0, 1), t3.abaaba, (2, 3, 4, 5, 6, 7), (0, 2, 4, 3, 5, 7, 1, 6))
    .add 15 (.ein [(2, [0, 1]), (5, [2, 3, 4, 5, 6, 7])] [0, 2, 4, 3, 5, 7, 1, 6]) 1 1,
    -- 1215: c4.aaabaaab += einsum(t2.abab, (0, 1, 2, 3), t2.aaaa, (4, 5, 6, 7), (4, 0, 5, 1, 6, 7, 2, 3)) * -2
    .add 15 (.ein [(7, [0, 1, 2, 3]), (3, [4, 5, 6, 7])] [4, 0, 5, 1, 6, 7, 2, 3]) (-2) 1,
    -- 1216: c4.aaabaaab += einsum(t2.aaaa, (0, 1, 2, 3), t2.abab, (4, 5, 6, 7), (0, 4, 1, 5, 2, 6, 3, 7)) * 2
    .add 15 (.ein [(3, [0, 1, 2, 3]), (7, [4, 5, 6, 7])] [0, 4, 1, 5, 2, 6, 3, 7]) 2 1,
    -- 1217: c4.aaabaaab += einsum(t2.abab, (0, 1, 2, 3), t2.aaaa, (4, 5, 6, 7), (0, 4, 5, 1, 6, 7, 2, 3)) * 2
    .add 15 (.ein [(7, [0, 1, 2, 3]), (3, [4, 5, 6, 7])] [0, 4, 5, 1, 6, 7, 2, 3]) 2 1,
    -- 1218: c4.aaabaaab += einsum(t2.aaaa, (0, 1, 2, 3), t2.abab, (4, 5, 6, 7), (0, 1, 4, 5, 2, 3, 6, 7)) * 2
    .add 15 (.ein [(3, [0, 1, 2, 3]), (7, [4, 5, 6, 7])] [0, 1, 4, 5, 2, 3, 6, 7]) 2 1,
    -- 1219: c4.aaabaaab += einsum(t2.aaaa, (0, 1, 2, 3), t2.abab, (4, 5, 6, 7), (4, 0, 1, 5, 2, 6, 3, 7)) * -2
    .add 15 (.ein [(3, [0, 1, 2, 3]), (7, [4, 5, 6, 7])] [4, 0, 1, 5, 2, 6, 3, 7]) (-2) 1,
    -- 1220: c4.aaabaaab += einsum(t2.aaaa, (0, 1, 2, 3), t2.abab, (4, 5, 6, 7), (0, 1, 4, 5, 2, 6, 3, 7)) * -2
    .add 15 (.ein [(3, [0, 1, 2, 3]), (7, [4, 5, 6, 7])] [0, 1, 4, 5, 2, 6, 3, 7]) (-2) 1,
    -- 1221: c4.aaabaaab += einsum(t2.abab, (0, 1, 2, 3), t2.aaaa, (4, 5, 6, 7), (4, 5, 0, 1, 2, 6, 7, 3)) * 2
    .add 15 (.ein [(7, [0, 1, 2, 3]), (3, [4, 5, 6, 7])] [4, 5, 0, 1, 2, 6, 7, 3]) 2 1,
    -- 1222: c4.aaabaaab += einsum(t2.abab, (0, 1, 2, 3), t2.aaaa, (4, 5, 6, 7), (4, 0, 5, 1, 2, 6, 7, 3)) * -2
    .add 15 (.ein [(7, [0, 1, 2, 3]), (3, [4, 5, 6, 7])] [4, 0, 5, 1, 2, 6, 7, 3]) (-2) 1,
    -- 1223: c4.aaabaaab += einsum(t2.aaaa, (0, 1, 2, 3), t2.abab, (4, 5, 6, 7), (4, 0, 1, 5, 6, 2, 3, 7)) * 2
    .add 15 (.ein [(3, [0, 1, 2, 3]), (7, [4, 5, 6, 7])] [4, 0, 1, 5, 6, 2, 3, 7]) 2 1,
    -- 1224: c4.aaabaaab += einsum(t2.abab, (0, 1, 2, 3), t1.aa, (4, 5), t1.aa, (6, 7), (6, 0, 4, 1, 5, 7, 2, 3))
    .add 15 (.ein [(7, [0, 1, 2, 3]), (2, [4, 5]), (2, [6, 7])] [6, 0, 4, 1, 5, 7, 2, 3]) 1 1,
    -- 1225: c4.aaabaaab += einsum(t1.aa, (0, 1), t2.abab, (2, 3, 4, 5), t1.aa, (6, 7), (0, 2, 6, 3, 7, 4, 1, 5)) * -1
    .add 15 (.ein [(2, [0, 1]), (7, [2, 3, 4, 5]), (2, [6, 7])] [0, 2, 6, 3, 7, 4, 1, 5]) (-1) 1,
    -- 1226: c4.aaabaaab += einsum(t2.aaaa, (0, 1, 2, 3), t1.bb, (4, 5), t1.aa, (6, 7), (6, 0, 1, 4, 7, 2, 3, 5)) * 2
    .add 15 (.ein [(3, [0, 1, 2, 3]), (6, [4, 5]), (2, [6, 7])] [6, 0, 1, 4, 7, 2, 3, 5]) 2 1,
    -- 1227: c4.aaabaaab += einsum(t1.aa, (0, 1), t2.abab, (2, 3, 4, 5), t1.aa, (6, 7), (2, 0, 6, 3, 7, 1, 4, 5)) * -1
    .add 15 (.ein [(2, [0, 1]), (7, [2, 3, 4, 5]), (2, [6, 7])] [2, 0, 6, 3, 7, 1, 4, 5]) (-1) 1,
    -- 1228: c4.aaabaaab += einsum(t2.abab, (0, 1, 2, 3), t1.aa, (4, 5), t1.aa, (6, 7), (0, 4, 6, 1, 7, 2, 5, 3))
    .add 15 (.ein [(7, [0, 1, 2, 3]), (2, [4, 5]), (2, [6, 7])] [0, 4, 6, 1, 7, 2, 5, 3]) 1 1,
    -- 1229: c4.aaabaaab += einsum(t2.aaaa, (0, 1, 2, 3), t1.bb, (4, 5), t1.aa, (6, 7), (0, 1, 6, 4, 7, 2, 3, 5)) * 2
    .add 15 (.ein [(3, [0, 1, 2, 3]), (6, [4, 5]), (2, [6, 7])] [0, 1, 6, 4, 7, 2, 3, 5]) 2 1,
    -- 1230: c4.aaabaaab += einsum(t2.aaaa, (0, 1, 2, 3), t1.bb, (4, 5), t1.aa, (6, 7), (0, 1, 6, 4, 2, 7, 3, 5)) * -2
    .add 15 (.ein [(3, [0, 1, 2, 3]), (6, [4, 5]), (2, [6, 7])] [0, 1, 6, 4, 2, 7, 3, 5]) (-2) 1,
    -- 1231: c4.aaabaaab += einsum(t2.abab, (0, 1, 2, 3), t1.aa, (4, 5), t1.aa, (6, 7), (0, 6, 4, 1, 7, 5, 2, 3))
    .add 15 (.ein [(7, [0, 1, 2, 3]), (2, [4, 5]), (2, [6, 7])] [0, 6, 4, 1, 7, 5, 2, 3]) 1 1,
    -- 1232: c4.aaabaaab += einsum(t2.abab, (0, 1, 2, 3), t1.aa, (4, 5), t1.aa, (6, 7), (0, 4, 6, 1, 5, 2, 7, 3)) * -1
    .add 15 (.ein [(7, [0, 1, 2, 3]), (2, [4, 5]), (2, [6, 7])] [0, 4, 6, 1, 5, 2, 7, 3]) (-1) 1,
    -- 1233: c4.aaabaaab += einsum(t2.abab, (0, 1, 2, 3), t1.aa, (4, 5), t1.aa, (6, 7), (6, 4, 0, 1, 5, 7, 2, 3)) * -1
    .add 15 (.ein [(7, [0, 1, 2, 3]), (2, [4, 5]), (2, [6, 7])] [6, 4, 0, 1, 5, 7, 2, 3]) (-1) 1,
    -- 1234: c4.aaabaaab += einsum(t1.aa, (0, 1), t1.aa, (2, 3), t2.abab, (4, 5, 6, 7), (2, 0, 4, 5, 3, 1, 6, 7))
    .add 15 (.ein [(2, [0, 1]), (2, [2, 3]), (7, [4, 5, 6, 7])] [2, 0, 4, 5, 3, 1, 6, 7]) 1 1,
    -- 1235: c4.aaabaaab += einsum(t2.abab, (0, 1, 2, 3), t1.aa, (4, 5), t1.aa, (6, 7), (4, 6, 0, 1, 7, 2, 5, 3))
    .add 15 (.ein [(7, [0, 1, 2, 3]), (2, [4, 5]), (2, [6, 7])] [4, 6, 0, 1, 7, 2, 5, 3]) 1 1,
    -- 1236: c4.aaabaaab += einsum(t2.abab, (0, 1, 2, 3), t1.aa, (4, 5), t1.aa, (6, 7), (4, 6, 0, 1, 5, 2, 7, 3)) * -1
    .add 15 (.ein [(7, [0, 1, 2, 3]), (2, [4, 5]), (2, [6, 7])] [4, 6, 0, 1, 5, 2, 7, 3]) (-1) 1,
    -- 1237: c4.aaabaaab += einsum(t1.bb, (0, 1), t1.aa, (2, 3), t2.aaaa, (4, 5, 6, 7), (4, 2, 5, 0, 3, 6, 7, 1)) * -2
    .add 15 (.ein [(6, [0, 1]), (2, [2, 3]), (3, [4, 5, 6, 7])] [4, 2, 5, 0, 3, 6, 7, 1]) (-2) 1,
    -- 1238: c4.aaabaaab += einsum(t1.aa, (0, 1), t2.aaaa, (2, 3, 4, 5), t1.bb, (6, 7), (2, 0, 3, 6, 4, 1, 5, 7)) * 2
    .add 15 (.ein [(2, [0, 1]), (3, [2, 3, 4, 5]), (6, [6, 7])] [2, 0, 3, 6, 4, 1, 5, 7]) 2 1,
    -- 1239: c4.aaabaaab += einsum(t2.abab, (0, 1, 2, 3), t1.aa, (4, 5), t1.aa, (6, 7), (4, 0, 6, 1, 5, 7, 2, 3)) * -1
    .add 15 (.ein [(7, [0, 1, 2, 3]), (2, [4, 5]), (2, [6, 7])] [4, 0, 6, 1, 5, 7, 2, 3]) (-1) 1,
    -- 1240: c4.aaabaaab += einsum(t1.aa, (0, 1), t2.abab, (2, 3, 4, 5), t1.aa, (6, 7), (0, 2, 6, 3, 1, 4, 7, 5))
    .add 15 (.ein [(2, [0, 1]), (7, [2, 3, 4, 5]), (2, [6, 7])] [0, 2, 6, 3, 1, 4, 7, 5]) 1 1,
    -- 1241: c4.aaabaaab += einsum(t2.abab, (0, 1, 2, 3), t1.aa, (4, 5), t1.aa, (6, 7), (4, 0, 6, 1, 2, 7, 5, 3))
    .add 15 (.ein [(7, [0, 1, 2, 3]), (2, [4, 5]), (2, [6, 7])] [4, 0, 6, 1, 2, 7, 5, 3]) 1 1,
    -- 1242: c4.aaabaaab += einsum(t1.aa, (0, 1), t1.aa, (2, 3), t2.abab, (4, 5, 6, 7), (4, 2, 0, 5, 6, 1, 3, 7)) * -1
    .add 15 (.ein [(2, [0, 1]), (2, [2, 3]), (7, [4, 5, 6, 7])] [4, 2, 0, 5, 6, 1, 3, 7]) (-1) 1,
    -- 1243: c4.aaabaaab += einsum(t1.aa, (0, 1), t1.aa, (2, 3), t2.abab, (4, 5, 6, 7), (4, 0, 2, 5, 6, 1, 3, 7))
    .add 15 (.ein [(2, [0, 1]), (2, [2, 3]), (7, [4, 5, 6, 7])] [4, 0, 2, 5, 6, 1, 3, 7]) 1 1,
    -- 1244: c4.aaabaaab += einsum(t1.aa, (0, 1), t2.abab, (2, 3, 4, 5), t1.aa, (6, 7), (6, 0, 2, 3, 4, 1, 7, 5)) * -1
    .add 15 (.ein [(2, [0, 1]), (7, [2, 3, 4, 5]), (2, [6, 7])] [6, 0, 2, 3, 4, 1, 7, 5]) (-1) 1,
    -- 1245: c4.aaabaaab += einsum(t2.abab, (0, 1, 2, 3), t1.aa, (4, 5), t1.aa, (6, 7), (6, 4, 0, 1, 2, 7, 5, 3))
    .add 15 (.ein [(7, [0, 1, 2, 3]), (2, [4, 5]), (2, [6, 7])] [6, 4, 0, 1, 2, 7, 5, 3]) 1 1,
    -- 1246: c4.aaabaaab += einsum(t2.abab, (0, 1, 2, 3), t1.aa, (4, 5), t1.aa, (6, 7), (6, 0, 4, 1, 2, 7, 5, 3)) * -1
    .add 15 (.ein [(7, [0, 1, 2, 3]), (2, [4, 5]), (2, [6, 7])] [6, 0, 4, 1, 2, 7, 5, 3]) (-1) 1,
    -- 1247: c4.aaabaaab += einsum(t1.bb, (0, 1), t2.aaaa, (2, 3, 4, 5), t1.aa, (6, 7), (6, 2, 3, 0, 4, 7, 5, 1)) * -2
    .add 15 (.ein [(6, [0, 1]), (3, [2, 3, 4, 5]), (2, [6, 7])] [6, 2, 3, 0, 4, 7, 5, 1]) (-2) 1,
    -- 1248: c4.aaabaaab += einsum(t2.aaaa, (0, 1, 2, 3), t1.aa, (4, 5), t1.bb, (6, 7), (4, 0, 1, 6, 2, 3, 5, 7)) * 2
    .add 15 (.ein [(3, [0, 1, 2, 3]), (2, [4, 5]), (6, [6, 7])] [4, 0, 1, 6, 2, 3, 5, 7]) 2 1,
    -- 1249: c4.aaabaaab += einsum(t2.aaaa, (0, 1, 2, 3), t1.bb, (4, 5), t1.aa, (6, 7), (0, 1, 6, 4, 2, 3, 7, 5)) * 2
    .add 15 (.ein [(3, [0, 1, 2, 3]), (6, [4, 5]), (2, [6, 7])] [0, 1, 6, 4, 2, 3, 7, 5]) 2 1,
    -- 1250: c4.aaabaaab += einsum(t1.bb, (0, 1), t1.aa, (2, 3), t2.aaaa, (4, 5, 6, 7), (4, 2, 5, 0, 6, 7, 3, 1)) * -2
    .add 15 (.ein [(6, [0, 1]), (2, [2, 3]), (3, [4, 5, 6, 7])] [4, 2, 5, 0, 6, 7, 3, 1]) (-2) 1,
    -- 1251: c4.aaabaaab += einsum(t1.aa, (0, 1), t1.aa, (2, 3), t1.bb, (4, 5), t1.aa, (6, 7), (2, 0, 6, 4, 7, 1, 3, 5)) * -1
    .add 15 (.ein [(2, [0, 1]), (2, [2, 3]), (6, [4, 5]), (2, [6, 7])] [2, 0, 6, 4, 7, 1, 3, 5]) (-1) 1,
    -- 1252: c4.aaabaaab += einsum(t1.aa, (0, 1), t1.aa, (2, 3), t1.bb, (4, 5), t1.aa, (6, 7), (2, 6, 0, 4, 7, 1, 3, 5))
    .add 15 (.ein [(2, [0, 1]), (2, [2, 3]), (6, [4, 5]), (2, [6, 7])] [2, 6, 0, 4, 7, 1, 3, 5]) 1 1,
    -- 1253: c4.aaabaaab += einsum(t1.aa, (0, 1), t1.bb, (2, 3), t1.aa, (4, 5), t1.aa, (6, 7), (6, 4, 0, 2, 1, 7, 5, 3))
    .add 15 (.ein [(2, [0, 1]), (6, [2, 3]), (2, [4, 5]), (2, [6, 7])] [6, 4, 0, 2, 1, 7, 5, 3]) 1 1,
    -- 1254: c4.aaabaaab += einsum(t1.aa, (0, 1), t1.bb, (2, 3), t1.aa, (4, 5), t1.aa, (6, 7), (4, 6, 0, 2, 5, 1, 7, 3)) * -1
    .add 15 (.ein [(2, [0, 1]), (6, [2, 3]), (2, [4, 5]), (2, [6, 7])] [4, 6, 0, 2, 5, 1, 7, 3]) (-1) 1,
    -- 1255: c4.aaabaaab += einsum(t1.bb, (0, 1), t1.aa, (2, 3), t1.aa, (4, 5), t1.aa, (6, 7), (6, 2, 4, 0, 3, 7, 5, 1)) * -1
    .add 15 (.ein [(6, [0, 1]), (2, [2, 3]), (2, [4, 5]), (2, [6, 7])] [6, 2, 4, 0, 3, 7, 5, 1]) (-1) 1,
    -- 1256: c4.aaabaaab += einsum(t1.aa, (0, 1), t1.bb, (2, 3), t1.aa, (4, 5), t1.aa, (6, 7), (4, 0, 6, 2, 5, 1, 7, 3))
    .add 15 (.ein [(2, [0, 1]), (6, [2, 3]), (2, [4, 5]), (2, [6, 7])] [4, 0, 6, 2, 5, 1, 7, 3]) 1 1,
    -- 1257: c4.bbbbbbbb = np.copy(np.transpose(t4.bbbbbbbb, (0, 1, 2, 3, 4, 5, 7, 6))) * -12
    .set 16 (.tr 8 [0, 1, 2, 3, 4, 5, 7, 6]) (-12) 1,
    -- 1258: c4.bbbbbbbb += np.transpose(t4.bbbbbbbb, (0, 1, 2, 3, 4, 5, 7, 6)) * -12
    .add 16 (.tr 8 [0, 1, 2, 3, 4, 5, 7, 6]) (-12) 1,
    -- 1259: c4.bbbbbbbb += einsum(t3.bbbbbb, (0, 1, 2, 3, 4, 5), t1.bb, (6, 7), (0, 1, 2, 6, 7, 3, 4, 5)) * -3
    .add 16 (.ein [(9, [0, 1, 2, 3, 4, 5]), (6, [6, 7])] [0, 1, 2, 6, 7, 3, 4, 5]) (-3) 1,
    -- 1260: c4.bbbbbbbb += einsum(t3.bbbbbb, (0, 1, 2, 3, 4, 5), t1.bb, (6, 7), (0, 1, 2, 6, 7, 3, 4, 5)) * -3
    .add 16 (.ein [(9, [0, 1, 2, 3, 4, 5]), (6, [6, 7])] [0, 1, 2, 6, 7, 3, 4, 5]) (-3) 1,
    -- 1261: c4.bbbbbbbb += einsum(t1.bb, (0, 1), t3.bbbbbb, (2, 3, 4, 5, 6, 7), (2, 3, 0, 4, 1, 5, 6, 7)) * 3
    .add 16 (.ein [(6, [0, 1]), (9, [2, 3, 4, 5, 6, 7])] [2, 3, 0, 4, 1, 5, 6, 7]) 3 1,
    -- 1262: c4.bbbbbbbb += einsum(t1.bb, (0, 1), t3.bbbbbb, (2, 3, 4, 5, 6, 7), (2, 3, 0, 4, 1, 5, 6, 7)) * 3
    .add 16 (.ein [(6, [0, 1]), (9, [2, 3, 4, 5, 6, 7])] [2, 3, 0, 4, 1, 5, 6, 7]) 3 1,
    -- 1263: c4.bbbbbbbb += einsum(t3.bbbbbb, (0, 1, 2, 3, 4, 5), t1.bb, (6, 7), (0, 1, 2, 6, 3, 7, 4, 5)) * 3
    .add 16 (.ein [(9, [0, 1, 2, 3, 4, 5]), (6, [6, 7])] [0, 1, 2, 6, 3, 7, 4, 5]) 3 1,
    -- 1264: c4.bbbbbbbb += einsum(t3.bbbbbb, (0, 1, 2, 3, 4, 5), t1.bb, (6, 7), (0, 1, 2, 6, 3, 7, 4, 5)) * 3
    .add 16 (.ein [(9, [0, 1, 2, 3, 4, 5]), (6, [6, 7])] [0, 1, 2, 6, 3, 7, 4, 5]) 3 1,
    -- 1265: c4.bbbbbbbb += einsum(t1.bb, (0, 1), t3.bbbbbb, (2, 3, 4, 5, 6, 7), (2, 3, 0, 4, 5, 1, 6, 7)) * -3
    .add 16 (.ein [(6, [0, 1]), (9, [2, 3, 4, 5, 6, 7])] [2, 3, 0, 4, 5, 1, 6, 7]) (-3) 1,
    -- 1266: c4.bbbbbbbb += einsum(t1.bb, (0, 1), t3.bbbbbb, (2, 3, 4, 5, 6, 7), (2, 3, 0, 4, 5, 1, 6, 7)) * -3
    .add 16 (.ein [(6, [0, 1]), (9, [2, 3, 4, 5, 6, 7])] [2, 3, 0, 4, 5, 1, 6, 7]) (-3) 1,
    -- 1267: c4.bbbbbbbb += einsum(t1.bb, (0, 1), t3.bbbbbb, (2, 3, 4, 5, 6, 7), (2, 0, 3, 4, 1, 5, 6, 7)) * -3
    .add 16 (.ein [(6, [0, 1]), (9, [2, 3, 4, 5, 6, 7])] [2, 0, 3, 4, 1, 5, 6, 7]) (-3) 1,
    -- 1268: c4.bbbbbbbb += einsum(t1.bb, (0, 1), t3.bbbbbb, (2, 3, 4, 5, 6, 7), (2, 0, 3, 4, 1, 5, 6, 7)) * -3
    .add 16 (.ein [(6, [0, 1]), (9, [2, 3, 4, 5, 6, 7])] [2, 0, 3, 4, 1, 5, 6, 7]) (-3) 1,
    -- 1269: c4.bbbbbbbb += einsum(t3.bbbbbb, (0, 1, 2, 3, 4, 5), t1.bb, (6, 7), (6, 0, 1, 2, 7, 3, 4, 5)) * 3
    .add 16 (.ein [(9, [0, 1, 2, 3, 4, 5]), (6, [6, 7])] [6, 0, 1, 2, 7, 3, 4, 5]) 3 1,
    -- 1270: c4.bbbbbbbb += einsum(t3.bbbbbb, (0, 1, 2, 3, 4, 5), t1.bb, (6, 7), (6, 0, 1, 2, 7, 3, 4, 5)) * 3
    .add 16 (.ein [(9, [0, 1, 2, 3, 4, 5]), (6, [6, 7])] [6, 0, 1, 2, 7, 3, 4, 5]) 3 1,
    -- 1271: c4.bbbbbbbb += einsum(t1.bb, (0, 1), t3.bbbbbb, (2, 3, 4, 5, 6, 7), (2, 0, 3, 4, 5, 1, 6, 7)) * 3
    .add 16 (.ein [(6, [0, 1]), (9, [2, 3, 4, 5, 6, 7])] [2, 0, 3, 4, 5, 1, 6, 7]) 3 1,
    -- 1272: c4.bbbbbbbb += einsum(t1.bb, (0, 1), t3.bbbbbb, (2, 3, 4, 5, 6, 7), (2, 0, 3, 4, 5, 1, 6, 7)) * 3
    .add 16 (.ein [(6, [0, 1]), (9, [2, 3, 4, 5, 6, 7])] [2, 0, 3, 4, 5, 1, 6, 7]) 3 1,
    -- 1273: c4.bbbbbbbb += einsum(t1.bb, (0, 1), t3.bbbbbb, (2, 3, 4, 5, 6, 7), (0, 2, 3, 4, 5, 1, 6, 7)) * -3
    .add 16 (.ein [(6, [0, 1]), (9, [2, 3, 4, 5, 6, 7])] [0, 2, 3, 4, 5, 1, 6, 7]) (-3) 1,
    -- 1274: c4.bbbbbbbb += einsum(t1.bb, (0, 1), t3.bbbbbb, (2, 3, 4, 5, 6, 7), (0, 2, 3, 4, 5, 1, 6, 7)) * -3
    .add 16 (.ein [(6, [0, 1]), (9, [2, 3, 4, 5, 6, 7])] [0, 2, 3, 4, 5, 1, 6, 7]) (-3) 1,
    -- 1275: c4.bbbbbbbb += einsum(t3.bbbbbb, (0, 1, 2, 3, 4, 5), t1.bb, (6, 7), (0, 1, 2, 6, 3, 4, 7, 5)) * -3
    .add 16 (.ein [(9, [0, 1, 2, 3, 4, 5]), (6, [6, 7])] [0, 1, 2, 6, 3, 4, 7, 5]) (-3) 1,
    -- 1276: c4.bbbbbbbb += einsum(t3.bbbbbb, (0, 1, 2, 3, 4, 5), t1.bb, (6, 7), (0, 1, 2, 6, 3, 4, 7, 5)) * -3
    .add 16 (.ein [(9, [0, 1, 2, 3, 4, 5]), (6, [6, 7])] [0, 1, 2, 6, 3, 4, 7, 5]) (-3) 1,
    -- 1277: c4.bbbbbbbb += einsum(t1.bb, (0, 1), t3.bbbbbb, (2, 3, 4, 5, 6, 7), (2, 3, 0, 4, 5, 6, 1, 7)) * 3
    .add 16 (.ein [(6, [0, 1]), (9, [2, 3, 4, 5, 6, 7])] [2, 3, 0, 4, 5, 6, 1, 7]) 3 1,
    -- 1278: c4.bbbbbbbb += einsum(t1.bb, (0, 1), t3.bbbbbb, (2, 3, 4, 5, 6, 7), (2, 3, 0, 4, 5, 6, 1, 7)) * 3
    .add 16 (.ein [(6, [0, 1]), (9, [2, 3, 4, 5, 6, 7])] [2, 3, 0, 4, 5, 6, 1, 7]) 3 1,
    -- 1279: c4.bbbbbbbb += einsum(t1.bb, (0, 1), t3.bbbbbb, (2, 3, 4, 5, 6, 7), (2, 3, 4, 0, 5, 6, 7, 1)) * 3
    .add 16 (.ein [(6, [0, 1]), (9, [2, 3, 4, 5, 6, 7])] [2, 3, 4, 0, 5, 6, 7, 1]) 3 1,
    -- 1280: c4.bbbbbbbb += einsum(t1.bb, (0, 1), t3.bbbbbb, (2, 3, 4, 5, 6, 7), (2, 3, 4, 0, 5, 6, 7, 1)) * 3
    .add 16 (.ein [(6, [0, 1]), (9, [2, 3, 4, 5, 6, 7])] [2, 3, 4, 0, 5, 6, 7, 1]) 3 1,
    -- 1281: c4.bbbbbbbb += einsum(t1.bb, (0, 1), t3.bbbbbb, (2, 3, 4, 5, 6, 7), (2, 3, 0, 4, 5, 6, 7, 1)) * -3
    .add 16 (.ein [(6, [0, 1]), (9, [2, 3, 4, 5, 6, 7])] [2, 3, 0, 4, 5, 6, 7, 1]) (-3) 1,
    -- 1282: c4.bbbbbbbb += einsum(t1.bb, (0, 1), t3.bbbbbb, (2, 3, 4, 5, 6, 7), (2, 3, 0, 4, 5, 6, 7, 1)) * -3
    .add 16 (.ein [(6, [0, 1]), (9, [2, 3, 4, 5, 6, 7])] [2, 3, 0, 4, 5, 6, 7, 1]) (-3) 1,
    -- 1283: c4.bbbbbbbb += einsum(t1.bb, (0, 1), t3.bbbbbb, (2, 3, 4, 5, 6, 7), (2, 0, 3, 4, 5, 6, 1, 7)) * -3
    .add 16 (.ein [(6, [0, 1]), (9, [2, 3, 4, 5, 6, 7])] [2, 0, 3, 4, 5, 6, 1, 7]) (-3) 1,
    -- 1284: c4.bbbbbbbb += einsum(t1.bb, (0, 1), t3.bbbbbb, (2, 3, 4, 5, 6, 7), (2, 0, 3, 4, 5, 6, 1, 7)) * -3
    .add 16 (.ein [(6, [0, 1]), (9, [2, 3, 4, 5, 6, 7])] [2, 0, 3, 4, 5, 6, 1, 7]) (-3) 1,
    -- 1285: c4.bbbbbbbb += einsum(t1.bb, (0, 1), t3.bbbbbb, (2, 3, 4, 5, 6, 7), (0, 2, 3, 4, 5, 6, 1, 7)) * 3
    .add 16 (.ein [(6, [0, 1]), (9, [2, 3, 4, 5, 6, 7])] [0, 2, 3, 4, 5, 6, 1, 7]) 3 1,
    -- 1286: c4.bbbbbbbb += einsum(t1.bb, (0, 1), t3.bbbbbb, (2, 3, 4, 5, 6, 7), (0, 2, 3, 4, 5, 6, 1, 7)) * 3
    .add 16 (.ein [(6, [0, 1]), (9, [2, 3, 4, 5, 6, 7])] [0, 2, 3, 4, 5, 6, 1, 7]) 3 1,
    -- 1287: c4.bbbbbbbb += einsum(t1.bb, (0, 1), t3.bbbbbb, (2, 3, 4, 5, 6, 7), (2, 0, 3, 4, 5, 6, 7, 1)) * 3
    .add 16 (.ein [(6, [0, 1]), (9, [2, 3, 4, 5, 6, 7])] [2, 0, 3, 4, 5, 6, 7, 1]) 3 1,
    -- 1288: c4.bbbbbbbb += einsum(t1.bb, (0, 1), t3.bbbbbb, (2, 3, 4, 5, 6, 7), (2, 0, 3, 4, 5, 6, 7, 1)) * 3
    .add 16 (.ein [(6, [0, 1]), (9, [2, 3, 4, 5, 6, 7])] [2, 0, 3, 4, 5, 6, 7, 1]) 3 1,
    -- 1289: c4.bbbbbbbb += einsum(t3.bbbbbb, (0, 1, 2, 3, 4, 5), t1.bb, (6, 7), (6, 0, 1, 2, 3, 4, 5, 7)) * -3
    .add 16 (.ein [(9, [0, 1, 2, 3, 4, 5]), (6, [6, 7])] [6, 0, 1, 2, 3, 4, 5, 7]) (-3) 1,
    -- 1290: c4.bbbbbbbb += einsum(t3.bbbbbb, (0, 1, 2, 3, 4, 5), t1.bb, (6, 7), (6, 0, 1, 2, 3, 4, 5, 7)) * -3
    .add 16 (.ein [(9, [0, 1, 2, 3, 4, 5]), (6, [6, 7])] [6, 0, 1, 2, 3, 4, 5, 7]) (-3) 1,
    -- 1291: c4.bbbbbbbb += einsum(t2.bbbb, (0, 1, 2, 3), t2.bbbb, (4, 5, 6, 7), (0, 1, 4, 5, 6, 7, 2, 3)) * 4
    .add 16 (.ein [(10, [0, 1, 2, 3]), (10, [4, 5, 6, 7])] [0, 1, 4, 5, 6, 7, 2, 3]) 4 1,
    -- 1292: c4.bbbbbbbb += einsum(t2.bbbb, (0, 1, 2, 3), t2.bbbb, (4, 5, 6, 7), (4, 0, 5, 1, 2, 3, 6, 7)) * -4
    .add 16 (.ein [(10, [0, 1, 2, 3]), (10, [4, 5, 6, 7])] [4, 0, 5, 1, 2, 3, 6, 7]) (-4) 1,
    -- 1293: c4.bbbbbbbb += einsum(t2.bbbb, (0, 1, 2, 3), t2.bbbb, (4, 5, 6, 7), (4, 5, 0, 1, 2, 6, 3, 7)) * -4
    .add 16 (.ein [(10, [0, 1, 2, 3]), (10, [4, 5, 6, 7])] [4, 5, 0, 1, 2, 6, 3, 7]) (-4) 1,
    -- 1294: c4.bbbbbbbb += einsum(t2.bbbb, (0, 1, 2, 3), t2.bbbb, (4, 5, 6, 7), (0, 4, 1, 5, 6, 2, 7, 3)) * 4
    .add 16 (.ein [(10, [0, 1, 2, 3]), (10, [4, 5, 6, 7])] [0, 4, 1, 5, 6, 2, 7, 3]) 4 1,
    -- 1295: c4.bbbbbbbb += einsum(t2.bbbb, (0, 1, 2, 3), t2.bbbb, (4, 5, 6, 7), (0, 4, 5, 1, 2, 3, 6, 7)) * 4
    .add 16 (.ein [(10, [0, 1, 2, 3]), (10, [4, 5, 6, 7])] [0, 4, 5, 1, 2, 3, 6, 7]) 4 1,
    -- 1296: c4.bbbbbbbb += einsum(t2.bbbb, (0, 1, 2, 3), t2.bbbb, (4, 5, 6, 7), (0, 4, 1, 5, 2, 3, 6, 7)) * -4
    .add 16 (.ein [(10, [0, 1, 2, 3]), (10, [4, 5, 6, 7])] [0, 4, 1, 5, 2, 3, 6, 7]) (-4) 1,
    -- 1297: c4.bbbbbbbb += einsum(t2.bbbb, (0, 1, 2, 3), t2.bbbb, (4, 5, 6, 7), (0, 4, 5, 1, 2, 6, 3, 7)) * -4
    .add 16 (.ein [(10, [0, 1, 2, 3]), (10, [4, 5, 6, 7])] [0, 4, 5, 1, 2, 6, 3, 7]) (-4) 1,
    -- 1298: c4.bbbbbbbb += einsum(t2.bbbb, (0, 1, 2, 3), t2.bbbb, (4, 5, 6, 7), (0, 4, 1, 5, 2, 6, 3, 7)) * 4
    .add 16 (.ein [(10, [0, 1, 2, 3]), (10, [4, 5, 6, 7])] [0, 4, 1, 5, 2, 6, 3, 7]) 4 1,
    -- 1299: c4.bbbbbbbb += einsum(t2.bbbb, (0, 1, 2, 3), t2.bbbb, (4, 5, 6, 7), (0, 4, 5, 1, 6, 7, 2, 3)) * 4
    .add 16 (.ein [(10, [0, 1, 2, 3]), (10, [4, 5, 6, 7])] [0, 4, 5, 1, 6, 7, 2, 3]) 4 1,
    -- 1300: c4.bbbbbbbb += einsum(t2.bbbb, (0, 1, 2, 3), t2.bbbb, (4, 5, 6, 7), (0, 1, 4, 5, 2, 3, 6, 7)) * 4
    .add 16 (.ein [(10, [0, 1, 2, 3]), (10, [4, 5, 6, 7])] [0, 1, 4, 5, 2, 3, 6, 7]) 4 1,
    -- 1301: c4.bbbbbbbb += einsum(t2.bbbb, (0, 1, 2, 3), t2.bbbb, (4, 5, 6, 7), (0, 4, 5, 1, 6, 2, 7, 3)) * -4
    .add 16 (.ein [(10, [0, 1, 2, 3]), (10, [4, 5, 6, 7])] [0, 4, 5, 1, 6, 2, 7, 3]) (-4) 1,
    -- 1302: c4.bbbbbbbb += einsum(t2.bbbb, (0, 1, 2, 3), t2.bbbb, (4, 5, 6, 7), (0, 1, 4, 5, 2, 6, 3, 7)) * -4
    .add 16 (.ein [(10, [0, 1, 2, 3]), (10, [4, 5, 6, 7])] [0, 1, 4, 5, 2, 6, 3, 7]) (-4) 1,
    -- 1303: c4.bbbbbbbb += einsum(t2.bbbb, (0, 1, 2, 3), t2.bbbb, (4, 5, 6, 7), (0, 1, 4, 5, 6, 2, 3, 7)) * 4
    .add 16 (.ein [(10, [0, 1, 2, 3]), (10, [4, 5, 6, 7])] [0, 1, 4, 5, 6, 2, 3, 7]) 4 1,
    -- 1304: c4.bbbbbbbb += einsum(t2.bbbb, (0, 1, 2, 3), t2.bbbb, (4, 5, 6, 7), (4, 0, 5, 1, 2, 6, 7, 3)) * -4
    .add 16 (.ein [(10, [0, 1, 2, 3]), (10, [4, 5, 6, 7])] [4, 0, 5, 1, 2, 6, 7, 3]) (-4) 1,
    -- 1305: c4.bbbbbbbb += einsum(t2.bbbb, (0, 1, 2, 3), t2.bbbb, (4, 5, 6, 7), (0, 4, 5, 1, 2, 6, 7, 3)) * 4
    .add 16 (.ein [(10, [0, 1, 2, 3]), (10, [4, 5, 6, 7])] [0, 4, 5, 1, 2, 6, 7, 3]) 4 1,
    -- 1306: c4.bbbbbbbb += einsum(t2.bbbb, (0, 1, 2, 3), t2.bbbb, (4, 5, 6, 7), (4, 0, 5, 1, 6, 2, 3, 7)) * -4
    .add 16 (.ein [(10, [0, 1, 2, 3]), (10, [4, 5, 6, 7])] [4, 0, 5, 1, 6, 2, 3, 7]) (-4) 1,
    -- 1307: c4.bbbbbbbb += einsum(t2.bbbb, (0, 1, 2, 3), t2.bbbb, (4, 5, 6, 7), (0, 4, 5, 1, 6, 2, 3, 7)) * 4
    .add 16 (.ein [(10, [0, 1, 2, 3]), (10, [4, 5, 6, 7])] [0, 4, 5, 1, 6, 2, 3, 7]) 4 1,
    -- 1308: c4.bbbbbbbb += einsum(t2.bbbb, (0, 1, 2, 3), t2.bbbb, (4, 5, 6, 7), (0, 1, 4, 5, 2, 6, 7, 3)) * 4
    .add 16 (.ein [(10, [0, 1, 2, 3]), (10, [4, 5, 6, 7])] [0, 1, 4, 5, 2, 6, 7, 3]) 4 1,
    -- 1309: c4.bbbbbbbb += einsum(t2.bbbb, (0, 1, 2, 3), t1.bb, (4, 5), t1.bb, (6, 7), (0, 1, 4, 6, 7, 5, 2, 3)) * -2
    .add 16 (.ein [(10, [0, 1, 2, 3]), (6, [4, 5]), (6, [6, 7])] [0, 1, 4, 6, 7, 5, 2, 3]) (-2) 1,
    -- 1310: c4.bbbbbbbb += einsum(t1.bb, (0, 1), t2.bbbb, (2, 3, 4, 5), t1.bb, (6, 7), (2, 0, 3, 6, 7, 1, 4, 5)) * 2
    .add 16 (.ein [(6, [0, 1]), (10, [2, 3, 4, 5]), (6, [6, 7])] [2, 0, 3, 6, 7, 1, 4, 5]) 2 1,
    -- 1311: c4.bbbbbbbb += einsum(t1.bb, (0, 1), t1.bb, (2, 3), t2.bbbb, (4, 5, 6, 7), (4, 5, 0, 2, 3, 6, 1, 7)) * 2
    .add 16 (.ein [(6, [0, 1]), (6, [2, 3]), (10, [4, 5, 6, 7])] [4, 5, 0, 2, 3, 6, 1, 7]) 2 1,
    -- 1312: c4.bbbbbbbb += einsum(t1.bb, (0, 1), t2.bbbb, (2, 3, 4, 5), t1.bb, (6, 7), (2, 0, 3, 6, 7, 4, 1, 5)) * -2
    .add 16 (.ein [(6, [0, 1]), (10, [2, 3, 4, 5]), (6, [6, 7])] [2, 0, 3, 6, 7, 4, 1, 5]) (-2) 1,
    -- 1313: c4.bbbbbbbb += einsum(t2.bbbb, (0, 1, 2, 3), t1.bb, (4, 5), t1.bb, (6, 7), (4, 0, 1, 6, 7, 5, 2, 3)) * -2
    .add 16 (.ein [(10, [0, 1, 2, 3]), (6, [4, 5]), (6, [6, 7])] [4, 0, 1, 6, 7, 5, 2, 3]) (-2) 1,
    -- 1314: c4.bbbbbbbb += einsum(t1.bb, (0, 1), t1.bb, (2, 3), t2.bbbb, (4, 5, 6, 7), (2, 4, 0, 5, 1, 3, 6, 7)) * 2
    .add 16 (.ein [(6, [0, 1]), (6, [2, 3]), (10, [4, 5, 6, 7])] [2, 4, 0, 5, 1, 3, 6, 7]) 2 1,
    -- 1315: c4.bbbbbbbb += einsum(t1.bb, (0, 1), t2.bbbb, (2, 3, 4, 5), t1.bb, (6, 7), (0, 2, 3, 6, 7, 4, 1, 5)) * 2
    .add 16 (.ein [(6, [0, 1]), (10, [2, 3, 4, 5]), (6, [6, 7])] [0, 2, 3, 6, 7, 4, 1, 5]) 2 1,
    -- 1316: c4.bbbbbbbb += einsum(t1.bb, (0, 1), t1.bb, (2, 3), t2.bbbb, (4, 5, 6, 7), (2, 4, 0, 5, 1, 6, 3, 7)) * -2
    .add 16 (.ein [(6, [0, 1]), (6, [2, 3]), (10, [4, 5, 6, 7])] [2, 4, 0, 5, 1, 6, 3, 7]) (-2) 1,
    -- 1317: c4.bbbbbbbb += einsum(t2.bbbb, (0, 1, 2, 3), t1.bb, (4, 5), t1.bb, (6, 7), (0, 1, 4, 6, 7, 2, 3, 5)) * -2
    .add 16 (.ein [(10, [0, 1, 2, 3]), (6, [4, 5]), (6, [6, 7])] [0, 1, 4, 6, 7, 2, 3, 5]) (-2) 1,
    -- 1318: c4.bbbbbbbb += einsum(t1.bb, (0, 1), t2.bbbb, (2, 3, 4, 5), t1.bb, (6, 7), (2, 0, 3, 6, 7, 4, 5, 1)) * 2
    .add 16 (.ein [(6, [0, 1]), (10, [2, 3, 4, 5]), (6, [6, 7])] [2, 0, 3, 6, 7, 4, 5, 1]) 2 1,
    -- 1319: c4.bbbbbbbb += einsum(t2.bbbb, (0, 1, 2, 3), t1.bb, (4, 5), t1.bb, (6, 7), (0, 1, 4, 6, 2, 7, 3, 5)) * 2
    .add 16 (.ein [(10, [0, 1, 2, 3]), (6, [4, 5]), (6, [6, 7])] [0, 1, 4, 6, 2, 7, 3, 5]) 2 1,
    -- 1320: c4.bbbbbbbb += einsum(t1.bb, (0, 1), t2.bbbb, (2, 3, 4, 5), t1.bb, (6, 7), (2, 0, 3, 6, 4, 7, 5, 1)) * -2
    .add 16 (.ein [(6, [0, 1]), (10, [2, 3, 4, 5]), (6, [6, 7])] [2, 0, 3, 6, 4, 7, 5, 1]) (-2) 1,
    -- 1321: c4.bbbbbbbb += einsum(t2.bbbb, (0, 1, 2, 3), t1.bb, (4, 5), t1.bb, (6, 7), (4, 0, 1, 6, 7, 2, 3, 5)) * -2
    .add 16 (.ein [(10, [0, 1, 2, 3]), (6, [4, 5]), (6, [6, 7])] [4, 0, 1, 6, 7, 2, 3, 5]) (-2) 1,
    -- 1322: c4.bbbbbbbb += einsum(t1.bb, (0, 1), t1.bb, (2, 3), t2.bbbb, (4, 5, 6, 7), (2, 4, 0, 5, 1, 6, 7, 3)) * 2
    .add 16 (.ein [(6, [0, 1]), (6, [2, 3]), (10, [4, 5, 6, 7])] [2, 4, 0, 5, 1, 6, 7, 3]) 2 1,
    -- 1323: c4.bbbbbbbb += einsum(t2.bbbb, (0, 1, 2, 3), t1.bb, (4, 5), t1.bb, (6, 7), (4, 0, 1, 6, 5, 2, 3, 7)) * 2
    .add 16 (.ein [(10, [0, 1, 2, 3]), (6, [4, 5]), (6, [6, 7])] [4, 0, 1, 6, 5, 2, 3, 7]) 2 1,
    -- 1324: c4.bbbbbbbb += einsum(t1.bb, (0, 1), t1.bb, (2, 3), t2.bbbb, (4, 5, 6, 7), (2, 4, 0, 5, 3, 6, 7, 1)) * -2
    .add 16 (.ein [(6, [0, 1]), (6, [2, 3]), (10, [4, 5, 6, 7])] [2, 4, 0, 5, 3, 6, 7, 1]) (-2) 1,
    -- 1325: c4.bbbbbbbb += einsum(t2.bbbb, (0, 1, 2, 3), t1.bb, (4, 5), t1.bb, (6, 7), (0, 1, 4, 6, 5, 7, 2, 3)) * 2
    .add 16 (.ein [(10, [0, 1, 2, 3]), (6, [4, 5]), (6, [6, 7])] [0, 1, 4, 6, 5, 7, 2, 3]) 2 1,
    -- 1326: c4.bbbbbbbb += einsum(t1.bb, (0, 1), t1.bb, (2, 3), t2.bbbb, (4, 5, 6, 7), (4, 0, 2, 5, 3, 1, 6, 7)) * -2
    .add 16 (.ein [(6, [0, 1]), (6, [2, 3]), (10, [4, 5, 6, 7])] [4, 0, 2, 5, 3, 1, 6, 7]) (-2) 1,
    -- 1327: c4.bbbbbbbb += einsum(t1.bb, (0, 1), t1.bb, (2, 3), t2.bbbb, (4, 5, 6, 7), (4, 5, 0, 2, 1, 6, 3, 7)) * -2
    .add 16 (.ein [(6, [0, 1]), (6, [2, 3]), (10, [4, 5, 6, 7])] [4, 5, 0, 2, 1, 6, 3, 7]) (-2) 1,
    -- 1328: c4.bbbbbbbb += einsum(t1.bb, (0, 1), t2.bbbb, (2, 3, 4, 5), t1.bb, (6, 7), (2, 0, 6, 3, 7, 4, 1, 5)) * 2
    .add 16 (.ein [(6, [0, 1]), (10, [2, 3, 4, 5]), (6, [6, 7])] [2, 0, 6, 3, 7, 4, 1, 5]) 2 1,
    -- 1329: c4.bbbbbbbb += einsum(t2.bbbb, (0, 1, 2, 3), t1.bb, (4, 5), t1.bb, (6, 7), (0, 1, 4, 6, 5, 2, 3, 7)) * 2
    .add 16 (.ein [(10, [0, 1, 2, 3]), (6, [4, 5]), (6, [6, 7])] [0, 1, 4, 6, 5, 2, 3, 7]) 2 1,
    -- 1330: c4.bbbbbbbb += einsum(t1.bb, (0, 1), t1.bb, (2, 3), t2.bbbb, (4, 5, 6, 7), (4, 0, 2, 5, 3, 6, 7, 1)) * -2
    .add 16 (.ein [(6, [0, 1]), (6, [2, 3]), (10, [4, 5, 6, 7])] [4, 0, 2, 5, 3, 6, 7, 1]) (-2) 1,
    -- 1331: c4.bbbbbbbb += einsum(t2.bbbb, (0, 1, 2, 3), t1.bb, (4, 5), t1.bb, (6, 7), (0, 1, 4, 6, 2, 5, 3, 7)) * -2
    .add 16 (.ein [(10, [0, 1, 2, 3]), (6, [4, 5]), (6, [6, 7])] [0, 1, 4, 6, 2, 5, 3, 7]) (-2) 1,
    -- 1332: c4.bbbbbbbb += einsum(t1.bb, (0, 1), t1.bb, (2, 3), t2.bbbb, (4, 5, 6, 7), (4, 0, 2, 5, 6, 3, 7, 1)) * 2
    .add 16 (.ein [(6, [0, 1]), (6, [2, 3]), (10, [4, 5, 6, 7])] [4, 0, 2, 5, 6, 3, 7, 1]) 2 1,
    -- 1333: c4.bbbbbbbb += einsum(t1.bb, (0, 1), t2.bbbb, (2, 3, 4, 5), t1.bb, (6, 7), (2, 0, 3, 6, 1, 7, 4, 5)) * -2
    .add 16 (.ein [(6, [0, 1]), (10, [2, 3, 4, 5]), (6, [6, 7])] [2, 0, 3, 6, 1, 7, 4, 5]) (-2) 1,
    -- 1334: c4.bbbbbbbb += einsum(t1.bb, (0, 1), t2.bbbb, (2, 3, 4, 5), t1.bb, (6, 7), (2, 0, 6, 3, 1, 7, 4, 5)) * 2
    .add 16 (.ein [(6, [0, 1]), (10, [2, 3, 4, 5]), (6, [6, 7])] [2, 0, 6, 3, 1, 7, 4, 5]) 2 1,
    -- 1335: c4.bbbbbbbb += einsum(t1.bb, (0, 1), t2.bbbb, (2, 3, 4, 5), t1.bb, (6, 7), (2, 0, 3, 6, 1, 4, 7, 5)) * 2
    .add 16 (.ein [(6, [0, 1]), (10, [2, 3, 4, 5]), (6, [6, 7])] [2, 0, 3, 6, 1, 4, 7, 5]) 2 1,
    -- 1336: c4.bbbbbbbb += einsum(t1.bb, (0, 1), t1.bb, (2, 3), t2.bbbb, (4, 5, 6, 7), (4, 0, 2, 5, 1, 6, 3, 7)) * -2
    .add 16 (.ein [(6, [0, 1]), (6, [2, 3]), (10, [4, 5, 6, 7])] [4, 0, 2, 5, 1, 6, 3, 7]) (-2) 1,
    -- 1337: c4.bbbbbbbb += einsum(t1.bb, (0, 1), t1.bb, (2, 3), t2.bbbb, (4, 5, 6, 7), (2, 0, 4, 5, 1, 3, 6, 7)) * -2
    .add 16 (.ein [(6, [0, 1]), (6, [2, 3]), (10, [4, 5, 6, 7])] [2, 0, 4, 5, 1, 3, 6, 7]) (-2) 1,
    -- 1338: c4.bbbbbbbb += einsum(t1.bb, (0, 1), t1.bb, (2, 3), t2.bbbb, (4, 5, 6, 7), (2, 0, 4, 5, 3, 1, 6, 7)) * 2
    .add 16 (.ein [(6, [0, 1]), (6, [2, 3]), (10, [4, 5, 6, 7])] [2, 0, 4, 5, 3, 1, 6, 7]) 2 1,
    -- 1339: c4.bbbbbbbb += einsum(t2.bbbb, (0, 1, 2, 3), t1.bb, (4, 5), t1.bb, (6, 7), (6, 4, 0, 1, 5, 2, 7, 3)) * 2
    .add 16 (.ein [(10, [0, 1, 2, 3]), (6, [4, 5]), (6, [6, 7])] [6, 4, 0, 1, 5, 2, 7, 3]) 2 1,
    -- 1340: c4.bbbbbbbb += einsum(t1.bb, (0, 1), t2.bbbb, (2, 3, 4, 5), t1.bb, (6, 7), (6, 0, 2, 3, 7, 4, 1, 5)) * -2
    .add 16 (.ein [(6, [0, 1]), (10, [2, 3, 4, 5]), (6, [6, 7])] [6, 0, 2, 3, 7, 4, 1, 5]) (-2) 1,
    -- 1341: c4.bbbbbbbb += einsum(t1.bb, (0, 1), t1.bb, (2, 3), t2.bbbb, (4, 5, 6, 7), (4, 0, 5, 2, 1, 6, 7, 3)) * -2
    .add 16 (.ein [(6, [0, 1]), (6, [2, 3]), (10, [4, 5, 6, 7])] [4, 0, 5, 2, 1, 6, 7, 3]) (-2) 1,
    -- 1342: c4.bbbbbbbb += einsum(t2.bbbb, (0, 1, 2, 3), t1.bb, (4, 5), t1.bb, (6, 7), (0, 4, 6, 1, 5, 2, 3, 7)) * 2
    .add 16 (.ein [(10, [0, 1, 2, 3]), (6, [4, 5]), (6, [6, 7])] [0, 4, 6, 1, 5, 2, 3, 7]) 2 1,
    -- 1343: c4.bbbbbbbb += einsum(t2.bbbb, (0, 1, 2, 3), t1.bb, (4, 5), t1.bb, (6, 7), (0, 4, 1, 6, 2, 5, 3, 7)) * 2
    .add 16 (.ein [(10, [0, 1, 2, 3]), (6, [4, 5]), (6, [6, 7])] [0, 4, 1, 6, 2, 5, 3, 7]) 2 1,
    -- 1344: c4.bbbbbbbb += einsum(t2.bbbb, (0, 1, 2, 3), t1.bb, (4, 5), t1.bb, (6, 7), (0, 4, 6, 1, 2, 5, 3, 7)) * -2
    .add 16 (.ein [(10, [0, 1, 2, 3]), (6, [4, 5]), (6, [6, 7])] [0, 4, 6, 1, 2, 5, 3, 7]) (-2) 1,
    -- 1345: c4.bbbbbbbb += einsum(t2.bbbb, (0, 1, 2, 3), t1.bb, (4, 5), t1.bb, (6, 7), (6, 4, 0, 1, 5, 2, 3, 7)) * -2
    .add 16 (.ein [(10, [0, 1, 2, 3]), (6, [4, 5]), (6, [6, 7])] [6, 4, 0, 1, 5, 2, 3, 7]) (-2) 1,
    -- 1346: c4.bbbbbbbb += einsum(t1.bb, (0, 1), t2.bbbb, (2, 3, 4, 5), t1.bb, (6, 7), (6, 0, 2, 3, 7, 4, 5, 1)) * 2
    .add 16 (.ein [(6, [0, 1]), (10, [2, 3, 4, 5]), (6, [6, 7])] [6, 0, 2, 3, 7, 4, 5, 1]) 2 1,
    -- 1347: c4.bbbbbbbb += einsum(t1.bb, (0, 1), t1.bb, (2, 3), t2.bbbb, (4, 5, 6, 7), (2, 0, 4, 5, 6, 1, 7, 3)) * 2
    .add 16 (.ein [(6, [0, 1]), (6, [2, 3]), (10, [4, 5, 6, 7])] [2, 0, 4, 5, 6, 1, 7, 3]) 2 1,
    -- 1348: c4.bbbbbbbb += einsum(t1.bb, (0, 1), t2.bbbb, (2, 3, 4, 5), t1.bb, (6, 7), (6, 0, 2, 3, 4, 7, 5, 1)) * -2
    .add 16 (.ein [(6, [0, 1]), (10, [2, 3, 4, 5]), (6, [6, 7])] [6, 0, 2, 3, 4, 7, 5, 1]) (-2) 1,
    -- 1349: c4.bbbbbbbb += einsum(t1.bb, (0, 1), t1.bb, (2, 3), t2.bbbb, (4, 5, 6, 7), (2, 4, 5, 0, 3, 1, 6, 7)) * 2
    .add 16 (.ein [(6, [0, 1]), (6, [2, 3]), (10, [4, 5, 6, 7])] [2, 4, 5, 0, 3, 1, 6, 7]) 2 1,
    -- 1350: c4.bbbbbbbb += einsum(t1.bb, (0, 1), t1.bb, (2, 3), t2.bbbb, (4, 5, 6, 7), (2, 4, 0, 5, 3, 1, 6, 7)) * -2
    .add 16 (.ein [(6, [0, 1]), (6, [2, 3]), (10, [4, 5, 6, 7])] [2, 4, 0, 5, 3, 1, 6, 7]) (-2) 1,
    -- 1351: c4.bbbbbbbb += einsum(t1.bb, (0, 1), t1.bb, (2, 3), t2.bbbb, (4, 5, 6, 7), (0, 4, 5, 2, 1, 6, 3, 7)) * -2
    .add 16 (.ein [(6, [0, 1]), (6, [2, 3]), (10, [4, 5, 6, 7])] [0, 4, 5, 2, 1, 6, 3, 7]) (-2) 1,
    -- 1352: c4.bbbbbbbb += einsum(t1.bb, (0, 1), t1.bb, (2, 3), t2.bbbb, (4, 5, 6, 7), (2, 4, 0, 5, 3, 6, 1, 7)) * 2
    .add 16 (.ein [(6, [0, 1]), (6, [2, 3]), (10, [4, 5, 6, 7])] [2, 4, 0, 5, 3, 6, 1, 7]) 2 1,
    -- 1353: c4.bbbbbbbb += einsum(t1.bb, (0, 1), t2.bbbb, (2, 3, 4, 5), t1.bb, (6, 7), (2, 3, 0, 6, 4, 7, 1, 5)) * -2
    .add 16 (.ein [(6, [0, 1]), (10, [2, 3, 4, 5]), (6, [6, 7])] [2, 3, 0, 6, 4, 7, 1, 5]) (-2) 1,
    -- 1354: c4.bbbbbbbb += einsum(t1.bb, (0, 1), t2.bbbb, (2, 3, 4, 5), t1.bb, (6, 7), (2, 0, 3, 6, 4, 7, 1, 5)) * 2
    .add 16 (.ein [(6, [0, 1]), (10, [2, 3, 4, 5]), (6, [6, 7])] [2, 0, 3, 6, 4, 7, 1, 5]) 2 1,
    -- 1355: c4.bbbbbbbb += einsum(t1.bb, (0, 1), t1.bb, (2, 3), t2.bbbb, (4, 5, 6, 7), (0, 4, 5, 2, 6, 3, 1, 7)) * -2
    .add 16 (.ein [(6, [0, 1]), (6, [2, 3]), (10, [4, 5, 6, 7])] [0, 4, 5, 2, 6, 3, 1, 7]) (-2) 1,
    -- 1356: c4.bbbbbbbb += einsum(t1.bb, (0, 1), t1.bb, (2, 3), t2.bbbb, (4, 5, 6, 7), (2, 4, 0, 5, 6, 1, 3, 7)) * 2
    .add 16 (.ein [(6, [0, 1]), (6, [2, 3]), (10, [4, 5, 6, 7])] [2, 4, 0, 5, 6, 1, 3, 7]) 2 1,
    -- 1357: c4.bbbbbbbb += einsum(t2.bbbb, (0, 1, 2, 3), t1.bb, (4, 5), t1.bb, (6, 7), (4, 0, 1, 6, 2, 7, 3, 5)) * 2
    .add 16 (.ein [(10, [0, 1, 2, 3]), (6, [4, 5]), (6, [6, 7])] [4, 0, 1, 6, 2, 7, 3, 5]) 2 1,
    -- 1358: c4.bbbbbbbb += einsum(t1.bb, (0, 1), t1.bb, (2, 3), t2.bbbb, (4, 5, 6, 7), (2, 4, 0, 5, 6, 1, 7, 3)) * -2
    .add 16 (.ein [(6, [0, 1]), (6, [2, 3]), (10, [4, 5, 6, 7])] [2, 4, 0, 5, 6, 1, 7, 3]) (-2) 1,
    -- 1359: c4.bbbbbbbb += einsum(t1.bb, (0, 1), t2.bbbb, (2, 3, 4, 5), t1.bb, (6, 7), (2, 3, 0, 6, 4, 1, 7, 5)) * 2
    .add 16 (.ein [(6, [0, 1]), (10, [2, 3, 4, 5]), (6, [6, 7])] [2, 3, 0, 6, 4, 1, 7, 5]) 2 1,
    -- 1360: c4.bbbbbbbb += einsum(t1.bb, (0, 1), t1.bb, (2, 3), t2.bbbb, (4, 5, 6, 7), (4, 0, 2, 5, 6, 3, 1, 7)) * -2
    .add 16 (.ein [(6, [0, 1]), (6, [2, 3]), (10, [4, 5, 6, 7])] [4, 0, 2, 5, 6, 3, 1, 7]) (-2) 1,
    -- 1361: c4.bbbbbbbb += einsum(t1.bb, (0, 1), t2.bbbb, (2, 3, 4, 5), t1.bb, (6, 7), (2, 0, 3, 6, 4, 1, 7, 5)) * -2
    .add 16 (.ein [(6, [0, 1]), (10, [2, 3, 4, 5]), (6, [6, 7])] [2, 0, 3, 6, 4, 1, 7, 5]) (-2) 1,
    -- 1362: c4.bbbbbbbb += einsum(t1.bb, (0, 1), t1.bb, (2, 3), t2.bbbb, (4, 5, 6, 7), (4, 0, 2, 5, 6, 1, 3, 7)) * 2
    .add 16 (.ein [(6, [0, 1]), (6, [2, 3]), (10, [4, 5, 6, 7])] [4, 0, 2, 5, 6, 1, 3, 7]) 2 1,
    -- 1363: c4.bbbbbbbb += einsum(t2.bbbb, (0, 1, 2, 3), t1.bb, (4, 5), t1.bb, (6, 7), (6, 4, 0, 1, 2, 5, 7, 3)) * -2
    .add 16 (.ein [(10, [0, 1, 2, 3]), (6, [4, 5]), (6, [6, 7])] [6, 4, 0, 1, 2, 5, 7, 3]) (-2) 1,
    -- 1364: c4.bbbbbbbb += einsum(t1.bb, (0, 1), t1.bb, (2, 3), t2.bbbb, (4, 5, 6, 7), (2, 0, 4, 5, 6, 3, 1, 7)) * 2
    .add 16 (.ein [(6, [0, 1]), (6, [2, 3]), (10, [4, 5, 6, 7])] [2, 0, 4, 5, 6, 3, 1, 7]) 2 1,
    -- 1365: c4.bbbbbbbb += einsum(t1.bb, (0, 1), t1.bb, (2, 3), t2.bbbb, (4, 5, 6, 7), (0, 4, 5, 2, 6, 1, 3, 7)) * 2
    .add 16 (.ein [(6, [0, 1]), (6, [2, 3]), (10, [4, 5, 6, 7])] [0, 4, 5, 2, 6, 1, 3, 7]) 2 1,
    -- 1366: c4.bbbbbbbb += einsum(t1.bb, (0, 1), t1.bb, (2, 3), t2.bbbb, (4, 5, 6, 7), (2, 4, 0, 5, 6, 3, 1, 7)) * -2
    .add 16 (.ein [(6, [0, 1]), (6, [2, 3]), (10, [4, 5, 6, 7])] [2, 4, 0, 5, 6, 3, 1, 7]) (-2) 1,
    -- 1367: c4.bbbbbbbb += einsum(t2.bbbb, (0, 1, 2, 3), t1.bb, (4, 5), t1.bb, (6, 7), (4, 0, 1, 6, 2, 5, 3, 7)) * -2
    .add 16 (.ein [(10, [0, 1, 2, 3]), (6, [4, 5]), (6, [6, 7])] [4, 0, 1, 6, 2, 5, 3, 7]) (-2) 1,
    -- 1368: c4.bbbbbbbb += einsum(t1.bb, (0, 1), t1.bb, (2, 3), t2.bbbb, (4, 5, 6, 7), (2, 4, 0, 5, 6, 3, 7, 1)) * 2
    .add 16 (.ein [(6, [0, 1]), (6, [2, 3]), (10, [4, 5, 6, 7])] [2, 4, 0, 5, 6, 3, 7, 1]) 2 1,
    -- 1369: c4.bbbbbbbb += einsum(t1.bb, (0, 1), t2.bbbb, (2, 3, 4, 5), t1.bb, (6, 7), (2, 3, 0, 6, 4, 5, 7, 1)) * -2
    .add 16 (.ein [(6, [0, 1]), (10, [2, 3, 4, 5]), (6, [6, 7])] [2, 3, 0, 6, 4, 5, 7, 1]) (-2) 1,
    -- 1370: c4.bbbbbbbb += einsum(t1.bb, (0, 1), t2.bbbb, (2, 3, 4, 5), t1.bb, (6, 7), (2, 0, 3, 6, 4, 5, 7, 1)) * 2
    .add 16 (.ein [(6, [0, 1]), (10, [2, 3, 4, 5]), (6, [6, 7])] [2, 0, 3, 6, 4, 5, 7, 1]) 2 1,
    -- 1371: c4.bbbbbbbb += einsum(t1.bb, (0, 1), t2.bbbb, (2, 3, 4, 5), t1.bb, (6, 7), (0, 2, 3, 6, 4, 5, 7, 1)) * -2
    .add 16 (.ein [(6, [0, 1]), (10, [2, 3, 4, 5]), (6, [6, 7])] [0, 2, 3, 6, 4, 5, 7, 1]) (-2) 1,
    -- 1372: c4.bbbbbbbb += einsum(t1.bb, (0, 1), t1.bb, (2, 3), t2.bbbb, (4, 5, 6, 7), (2, 4, 0, 5, 6, 7, 1, 3)) * 2
    .add 16 (.ein [(6, [0, 1]), (6, [2, 3]), (10, [4, 5, 6, 7])] [2, 4, 0, 5, 6, 7, 1, 3]) 2 1,
    -- 1373: c4.bbbbbbbb += einsum(t2.bbbb, (0, 1, 2, 3), t1.bb, (4, 5), t1.bb, (6, 7), (4, 0, 1, 6, 2, 3, 5, 7)) * 2
    .add 16 (.ein [(10, [0, 1, 2, 3]), (6, [4, 5]), (6, [6, 7])] [4, 0, 1, 6, 2, 3, 5, 7]) 2 1,
    -- 1374: c4.bbbbbbbb += einsum(t1.bb, (0, 1), t1.bb, (2, 3), t2.bbbb, (4, 5, 6, 7), (2, 4, 0, 5, 6, 7, 3, 1)) * -2
    .add 16 (.ein [(6, [0, 1]), (6, [2, 3]), (10, [4, 5, 6, 7])] [2, 4, 0, 5, 6, 7, 3, 1]) (-2) 1,
    -- 1375: c4.bbbbbbbb += einsum(t1.bb, (0, 1), t2.bbbb, (2, 3, 4, 5), t1.bb, (6, 7), (2, 3, 0, 6, 4, 5, 1, 7)) * 2
    .add 16 (.ein [(6, [0, 1]), (10, [2, 3, 4, 5]), (6, [6, 7])] [2, 3, 0, 6, 4, 5, 1, 7]) 2 1,
    -- 1376: c4.bbbbbbbb += einsum(t1.bb, (0, 1), t1.bb, (2, 3), t2.bbbb, (4, 5, 6, 7), (4, 0, 2, 5, 6, 7, 3, 1)) * -2
    .add 16 (.ein [(6, [0, 1]), (6, [2, 3]), (10, [4, 5, 6, 7])] [4, 0, 2, 5, 6, 7, 3, 1]) (-2) 1,
    -- 1377: c4.bbbbbbbb += einsum(t1.bb, (0, 1), t2.bbbb, (2, 3, 4, 5), t1.bb, (6, 7), (2, 0, 3, 6, 4, 5, 1, 7)) * -2
    .add 16 (.ein [(6, [0, 1]), (10, [2, 3, 4, 5]), (6, [6, 7])] [2, 0, 3, 6, 4, 5, 1, 7]) (-2) 1,
    -- 1378: c4.bbbbbbbb += einsum(t1.bb, (0, 1), t1.bb, (2, 3), t2.bbbb, (4, 5, 6, 7), (4, 0, 2, 5, 6, 7, 1, 3)) * 2
    .add 16 (.ein [(6, [0, 1]), (6, [2, 3]), (10, [4, 5, 6, 7])] [4, 0, 2, 5, 6, 7, 1, 3]) 2 1,
    -- 1379: c4.bbbbbbbb += einsum(t1.bb, (0, 1), t1.bb, (2, 3), t2.bbbb, (4, 5, 6, 7), (2, 0, 4, 5, 6, 7, 1, 3)) * -2
    .add 16 (.ein [(6, [0, 1]), (6, [2, 3]), (10, [4, 5, 6, 7])] [2, 0, 4, 5, 6, 7, 1, 3]) (-2) 1,
    -- 1380: c4.bbbbbbbb += einsum(t1.bb, (0, 1), t1.bb, (2, 3), t2.bbbb, (4, 5, 6, 7), (2, 0, 4, 5, 6, 7, 3, 1)) * 2
    .add 16 (.ein [(6, [0, 1]), (6, [2, 3]), (10, [4, 5, 6, 7])] [2, 0, 4, 5, 6, 7, 3, 1]) 2 1,
    -- 1381: c4.bbbbbbbb += einsum(t1.bb, (0, 1), t1.bb, (2, 3), t1.bb, (4, 5), t1.bb, (6, 7), (4, 0, 2, 6, 7, 3, 1, 5))
    .add 16 (.ein [(6, [0, 1]), (6, [2, 3]), (6, [4, 5]), (6, [6, 7])] [4, 0, 2, 6, 7, 3, 1, 5]) 1 1,
    -- 1382: c4.bbbbbbbb += einsum(t1.bb, (0, 1), t1.bb, (2, 3), t1.bb, (4, 5), t1.bb, (6, 7), (4, 0, 2, 6, 7, 3, 5, 1)) * -1
    .add 16 (.ein [(6, [0, 1]), (6, [2, 3]), (6, [4, 5]), (6, [6, 7])] [4, 0, 2, 6, 7, 3, 5, 1]) (-1) 1,
    -- 1383: c4.bbbbbbbb += einsum(t1.bb, (0, 1), t1.bb, (2, 3), t1.bb, (4, 5), t1.bb, (6, 7), (4, 0, 2, 6, 3, 7, 1, 5)) * -1
    .add 16 (.ein [(6, [0, 1]), (6, [2, 3]), (6, [4, 5]), (6, [6, 7])] [4, 0, 2, 6, 3, 7, 1, 5]) (-1) 1,
    -- 1384: c4.bbbbbbbb += einsum(t1.bb, (0, 1), t1.bb, (2, 3), t1.bb, (4, 5), t1.bb, (6, 7), (4, 0, 2, 6, 3, 7, 5, 1))
    .add 16 (.ein [(6, [0, 1]), (6, [2, 3]), (6, [4, 5]), (6, [6, 7])] [4, 0, 2, 6, 3, 7, 5, 1]) 1 1,
    -- 1385: c4.bbbbbbbb += einsum(t1.bb, (0, 1), t1.bb, (2, 3), t1.bb, (4, 5), t1.bb, (6, 7), (2, 0, 6, 4, 5, 1, 7, 3)) * -1
    .add 16 (.ein [(6, [0, 1]), (6, [2, 3]), (6, [4, 5]), (6, [6, 7])] [2, 0, 6, 4, 5, 1, 7, 3]) (-1) 1,
    -- 1386: c4.bbbbbbbb += einsum(t1.bb, (0, 1), t1.bb, (2, 3), t1.bb, (4, 5), t1.bb, (6, 7), (2, 0, 6, 4, 5, 1, 3, 7))
    .add 16 (.ein [(6, [0, 1]), (6, [2, 3]), (6, [4, 5]), (6, [6, 7])] [2, 0, 6, 4, 5, 1, 3, 7]) 1 1,
    -- 1387: c4.bbbbbbbb += einsum(t1.bb, (0, 1), t1.bb, (2, 3), t1.bb, (4, 5), t1.bb, (6, 7), (2, 0, 6, 4, 1, 5, 7, 3))
    .add 16 (.ein [(6, [0, 1]), (6, [2, 3]), (6, [4, 5]), (6, [6, 7])] [2, 0, 6, 4, 1, 5, 7, 3]) 1 1,
    -- 1388: c4.bbbbbbbb += einsum(t1.bb, (0, 1), t1.bb, (2, 3), t1.bb, (4, 5), t1.bb, (6, 7), (2, 0, 6, 4, 1, 5, 3, 7)) * -1
    .add 16 (.ein [(6, [0, 1]), (6, [2, 3]), (6, [4, 5]), (6, [6, 7])] [2, 0, 6, 4, 1, 5, 3, 7]) (-1) 1,
    -- 1389: c4.bbbbbbbb += einsum(t1.bb, (0, 1), t1.bb, (2, 3), t1.bb, (4, 5), t1.bb, (6, 7), (4, 0, 2, 6, 7, 5, 3, 1))
    .add 16 (.ein [(6, [0, 1]), (6, [2, 3]), (6, [4, 5]), (6, [6, 7])] [4, 0, 2, 6, 7, 5, 3, 1]) 1 1,
    -- 1390: c4.bbbbbbbb += einsum(t1.bb, (0, 1), t1.bb, (2, 3), t1.bb, (4, 5), t1.bb, (6, 7), (4, 0, 2, 6, 7, 5, 1, 3)) * -1
    .add 16 (.ein [(6, [0, 1]), (6, [2, 3]), (6, [4, 5]), (6, [6, 7])] [4, 0, 2, 6, 7, 5, 1, 3]) (-1) 1,
    -- 1391: c4.bbbbbbbb += einsum(t1.bb, (0, 1), t1.bb, (2, 3), t1.bb, (4, 5), t1.bb, (6, 7), (6, 0, 2, 4, 7, 5, 3, 1)) * -1
    .add 16 (.ein [(6, [0, 1]), (6, [2, 3]), (6, [4, 5]), (6, [6, 7])] [6, 0, 2, 4, 7, 5, 3, 1]) (-1) 1,
    -- 1392: c4.bbbbbbbb += einsum(t1.bb, (0, 1), t1.bb, (2, 3), t1.bb, (4, 5), t1.bb, (6, 7), (6, 0, 2, 4, 7, 5, 1, 3))
    .add 16 (.ein [(6, [0, 1]), (6, [2, 3]), (6, [4, 5]), (6, [6, 7])] [6, 0, 2, 4, 7, 5, 1, 3]) 1 1,
    -- 1393: c4.bbbbbbbb += einsum(t1.bb, (0, 1), t1.bb, (2, 3), t1.bb, (4, 5), t1.bb, (6, 7), (4, 0, 2, 6, 3, 1, 7, 5))
    .add 16 (.ein [(6, [0, 1]), (6, [2, 3]), (6, [4, 5]), (6, [6, 7])] [4, 0, 2, 6, 3, 1, 7, 5]) 1 1,
    -- 1394: c4.bbbbbbbb += einsum(t1.bb, (0, 1), t1.bb, (2, 3), t1.bb, (4, 5), t1.bb, (6, 7), (4, 0, 2, 6, 3, 1, 5, 7)) * -1
    .add 16 (.ein [(6, [0, 1]), (6, [2, 3]), (6, [4, 5]), (6, [6, 7])] [4, 0, 2, 6, 3, 1, 5, 7]) (-1) 1,
    -- 1395: c4.bbbbbbbb += einsum(t1.bb, (0, 1), t1.bb, (2, 3), t1.bb, (4, 5), t1.bb, (6, 7), (2, 0, 6, 4, 1, 7, 5, 3)) * -1
    .add 16 (.ein [(6, [0, 1]), (6, [2, 3]), (6, [4, 5]), (6, [6, 7])] [2, 0, 6, 4, 1, 7, 5, 3]) (-1) 1,
    -- 1396: c4.bbbbbbbb += einsum(t1.bb, (0, 1), t1.bb, (2, 3), t1.bb, (4, 5), t1.bb, (6, 7), (2, 0, 6, 4, 1, 7, 3, 5))
    .add 16 (.ein [(6, [0, 1]), (6, [2, 3]), (6, [4, 5]), (6, [6, 7])] [2, 0, 6, 4, 1, 7, 3, 5]) 1 1,
    -- 1397: c4.bbbbbbbb += einsum(t1.bb, (0, 1), t1.bb, (2, 3), t1.bb, (4, 5), t1.bb, (6, 7), (4, 0, 2, 6, 3, 5, 7, 1)) * -1
    .add 16 (.ein [(6, [0, 1]), (6, [2, 3]), (6, [4, 5]), (6, [6, 7])] [4, 0, 2, 6, 3, 5, 7, 1]) (-1) 1,
    -- 1398: c4.bbbbbbbb += einsum(t1.bb, (0, 1), t1.bb, (2, 3), t1.bb, (4, 5), t1.bb, (6, 7), (4, 0, 2, 6, 3, 5, 1, 7))
    .add 16 (.ein [(6, [0, 1]), (6, [2, 3]), (6, [4, 5]), (6, [6, 7])] [4, 0, 2, 6, 3, 5, 1, 7]) 1 1,
    -- 1399: c4.bbbbbbbb += einsum(t1.bb, (0, 1), t1.bb, (2, 3), t1.bb, (4, 5), t1.bb, (6, 7), (4, 0, 2, 6, 5, 3, 7, 1))
    .add 16 (.ein [(6, [0, 1]), (6, [2, 3]), (6, [4, 5]), (6, [6, 7])] [4, 0, 2, 6, 5, 3, 7, 1]) 1 1,
    -- 1400: c4.bbbbbbbb += einsum(t1.bb, (0, 1), t1.bb, (2, 3), t1.bb, (4, 5), t1.bb, (6, 7), (4, 0, 2, 6, 5, 3, 1, 7)) * -1
    .add 16 (.ein [(6, [0, 1]), (6, [2, 3]), (6, [4, 5]), (6, [6, 7])] [4, 0, 2, 6, 5, 3, 1, 7]) (-1) 1,
    -- 1401: c4.bbbbbbbb += einsum(t1.bb, (0, 1), t1.bb, (2, 3), t1.bb, (4, 5), t1.bb, (6, 7), (2, 0, 6, 4, 1, 3, 5, 7))
    .add 16 (.ein [(6, [0, 1]), (6, [2, 3]), (6, [4, 5]), (6, [6, 7])] [2, 0, 6, 4, 1, 3, 5, 7]) 1 1,
    -- 1402: c4.bbbbbbbb += einsum(t1.bb, (0, 1), t1.bb, (2, 3), t1.bb, (4, 5), t1.bb, (6, 7), (2, 0, 6, 4, 1, 3, 7, 5)) * -1
    .add 16 (.ein [(6, [0, 1]), (6, [2, 3]), (6, [4, 5]), (6, [6, 7])] [2, 0, 6, 4, 1, 3, 7, 5]) (-1) 1,
    -- 1403: c4.bbbbbbbb += einsum(t1.bb, (0, 1), t1.bb, (2, 3), t1.bb, (4, 5), t1.bb, (6, 7), (2, 0, 6, 4, 3, 1, 5, 7)) * -1
    .add 16 (.ein [(6, [0, 1]), (6, [2, 3]), (6, [4, 5]), (6, [6, 7])] [2, 0, 6, 4, 3, 1, 5, 7]) (-1) 1,
    -- 1404: c4.bbbbbbbb += einsum(t1.bb, (0, 1), t1.bb, (2, 3), t1.bb, (4, 5), t1.bb, (6, 7), (4, 0, 2, 6, 5, 1, 3, 7))
    .add 16 (.ein [(6, [0, 1]), (6, [2, 3]), (6, [4, 5]), (6, [6, 7])] [4, 0, 2, 6, 5, 1, 3, 7]) 1 1,
    -- 1405: c4.abababab = np.copy(t4.abababab) * 2
    .set 17 (.cp 11) 2 1,
    -- 1406: c4.abababab += t4.abababab * 2
    .add 17 (.cp 11) 2 1,
    -- 1407: c4.abababab += einsum(t3.babbab, (0, 1, 2, 3, 4, 5), t1.aa, (6, 7), (1, 0, 6, 2, 7, 3, 4, 5)) * -1
    .add 17 (.ein [(12, [0, 1, 2, 3, 4, 5]), (2, [6, 7])] [1, 0, 6, 2, 7, 3, 4, 5]) (-1) 1,
    -- 1408: c4.abababab += einsum(t3.babbab, (0, 1, 2, 3, 4, 5), t1.aa, (6, 7), (1, 0, 6, 2, 7, 3, 4, 5)) * -1
    .add 17 (.ein [(12, [0, 1, 2, 3, 4, 5]), (2, [6, 7])] [1, 0, 6, 2, 7, 3, 4, 5]) (-1) 1,
    -- 1409: c4.abababab += einsum(t3.abaaba, (0, 1, 2, 3, 4, 5), t1.bb, (6, 7), (0, 1, 2, 6, 5, 7, 3, 4))
    .add 17 (.ein [(5, [0, 1, 2, 3, 4, 5]), (6, [6, 7])] [0, 1, 2, 6, 5, 7, 3, 4]) 1 1,
    -- 1410: c4.abababab += einsum(t3.abaaba, (0, 1, 2, 3, 4, 5), t1.bb, (6, 7), (0, 1, 2, 6, 5, 7, 3, 4))
    .add 17 (.ein [(5, [0, 1, 2, 3, 4, 5]), (6, [6, 7])] [0, 1, 2, 6, 5, 7, 3, 4]) 1 1,
    -- 1411: c4.abababab += einsum(t3.babbab, (0, 1, 2, 3, 4, 5), t1.aa, (6, 7), (6, 0, 1, 2, 7, 3, 4, 5))
    .add 17 (.ein [(12, [0, 1, 2, 3, 4, 5]), (2, [6, 7])] [6, 0, 1, 2, 7, 3, 4, 5]) 1 1,
    -- 1412: c4.abababab += einsum(t3.babbab, (0, 1, 2, 3, 4, 5), t1.aa, (6, 7), (6, 0, 1, 2, 7, 3, 4, 5))
    .add 17 (.ein [(12, [0, 1, 2, 3, 4, 5]), (2, [6, 7])] [6, 0, 1, 2, 7, 3, 4, 5]) 1 1,
    -- 1413: c4.abababab += einsum(t1.bb, (0, 1), t3.abaaba, (2, 3, 4, 5, 6, 7), (2, 0, 4, 3, 7, 1, 5, 6)) * -1
    .add 17 (.ein [(6, [0, 1]), (5, [2, 3, 4, 5, 6, 7])] [2, 0, 4, 3, 7, 1, 5, 6]) (-1) 1,
    -- 1414: c4.abababab += einsum(t1.bb, (0, 1), t3.abaaba, (2, 3, 4, 5, 6, 7), (2, 0, 4, 3, 7, 1, 5, 6)) * -1
    .add 17 (.ein [(6, [0, 1]), (5, [2, 3, 4, 5, 6, 7])] [2, 0, 4, 3, 7, 1, 5, 6]) (-1) 1,
    -- 1415: c4.abababab += einsum(t1.aa, (0, 1), t3.babbab, (2, 3, 4, 5, 6, 7), (3, 2, 0, 4, 6, 5, 1, 7))
    .add 17 (.ein [(2, [0, 1]), (12, [2, 3, 4, 5, 6, 7])] [3, 2, 0, 4, 6, 5, 1, 7]) 1 1,
    -- 1416: c4.abababab += einsum(t1.aa, (0, 1), t3.babbab, (2, 3, 4, 5, 6, 7), (3, 2, 0, 4, 6, 5, 1, 7))
    .add 17 (.ein [(2, [0, 1]), (12, [2, 3, 4, 5, 6, 7])] [3, 2, 0, 4, 6, 5, 1, 7]) 1 1,
    -- 1417: c4.abababab += einsum(t1.bb, (0, 1), t3.abaaba, (2, 3, 4, 5, 6, 7), (2, 3, 4, 0, 7, 6, 5, 1)) * -1
    .add 17 (.ein [(6, [0, 1]), (5, [2, 3, 4, 5, 6, 7])] [2, 3, 4, 0, 7, 6, 5, 1]) (-1) 1,
    -- 1418: c4.abababab += einsum(t1.bb, (0, 1), t3.abaaba, (2, 3, 4, 5, 6, 7), (2, 3, 4, 0, 7, 6, 5, 1)) * -1
    .add 17 (.ein [(6, [0, 1]), (5, [2, 3, 4, 5, 6, 7])] [2, 3, 4, 0, 7, 6, 5, 1]) (-1) 1,
    -- 1419: c4.abababab += einsum(t3.babbab, (0, 1, 2, 3, 4, 5), t1.aa, (6, 7), (6, 0, 1, 2, 4, 3, 7, 5)) * -1
    .add 17 (.ein [(12, [0, 1, 2, 3, 4, 5]), (2, [6, 7])] [6, 0, 1, 2, 4, 3, 7, 5]) (-1) 1,
    -- 1420: c4.abababab += einsum(t3.babbab, (0, 1, 2, 3, 4, 5), t1.aa, (6, 7), (6, 0, 1, 2, 4, 3, 7, 5)) * -1
    .add 17 (.ein [(12, [0, 1, 2, 3, 4, 5]), (2, [6, 7])] [6, 0, 1, 2, 4, 3, 7, 5]) (-1) 1,
    -- 1421: c4.abababab += einsum(t1.bb, (0, 1), t3.abaaba, (2, 3, 4, 5, 6, 7), (2, 0, 4, 3, 7, 6, 5, 1))
    .add 17 (.ein [(6, [0, 1]), (5, [2, 3, 4, 5, 6, 7])] [2, 0, 4, 3, 7, 6, 5, 1]) 1 1,
    -- 1422: c4.abababab += einsum(t1.bb, (0, 1), t3.abaaba, (2, 3, 4, 5, 6, 7), (2, 0, 4, 3, 7, 6, 5, 1))
    .add 17 (.ein [(6, [0, 1]), (5, [2, 3, 4, 5, 6, 7])] [2, 0, 4, 3, 7, 6, 5, 1]) 1 1,
    -- 1423: c4.abababab += einsum(t2.abab, (0, 1, 2, 3), t2.abab, (4, 5, 6, 7), (4, 5, 0, 1, 2, 3, 6, 7))
    .add 17 (.ein [(7, [0, 1, 2, 3]), (7, [4, 5, 6, 7])] [4, 5, 0, 1, 2, 3, 6, 7]) 1 1,
    -- 1424: c4.abababab += einsum(t2.abab, (0, 1, 2, 3), t2.abab, (4, 5, 6, 7), (0, 5, 4, 1, 2, 3, 6, 7)) * -1
    .add 17 (.ein [(7, [0, 1, 2, 3]), (7, [4, 5, 6, 7])] [0, 5, 4, 1, 2, 3, 6, 7]) (-1) 1,
    -- 1425: c4.abababab += einsum(t2.bbbb, (0, 1, 2, 3), t2.aaaa, (4, 5, 6, 7), (4, 0, 5, 1, 6, 2, 7, 3)) * 4
    .add 17 (.ein [(10, [0, 1, 2, 3]), (3, [4, 5, 6, 7])] [4, 0, 5, 1, 6, 2, 7, 3]) 4 1,
    -- 1426: c4.abababab += einsum(t2.abab, (0, 1, 2, 3), t2.abab, (4, 5, 6, 7), (0, 5, 4, 1, 6, 7, 2, 3)) * -1
    .add 17 (.ein [(7, [0, 1, 2, 3]), (7, [4, 5, 6, 7])] [0, 5, 4, 1, 6, 7, 2, 3]) (-1) 1,
    -- 1427: c4.abababab += einsum(t2.abab, (0, 1, 2, 3), t2.abab, (4, 5, 6, 7), (4, 5, 0, 1, 6, 7, 2, 3))
    .add 17 (.ein [(7, [0, 1, 2, 3]), (7, [4, 5, 6, 7])] [4, 5, 0, 1, 6, 7, 2, 3]) 1 1,
    -- 1428: c4.abababab += einsum(t2.abab, (0, 1, 2, 3), t2.abab, (4, 5, 6, 7), (0, 1, 4, 5, 6, 3, 2, 7)) * -1
    .add 17 (.ein [(7, [0, 1, 2, 3]), (7, [4, 5, 6, 7])] [0, 1, 4, 5, 6, 3, 2, 7]) (-1) 1,
    -- 1429: c4.abababab += einsum(t2.abab, (0, 1, 2, 3), t2.abab, (4, 5, 6, 7), (0, 5, 4, 1, 2, 7, 6, 3))
    .add 17 (.ein [(7, [0, 1, 2, 3]), (7, [4, 5, 6, 7])] [0, 5, 4, 1, 2, 7, 6, 3]) 1 1,
    -- 1430: c4.abababab += einsum(t2.abab, (0, 1, 2, 3), t2.abab, (4, 5, 6, 7), (0, 5, 4, 1, 6, 3, 2, 7))
    .add 17 (.ein [(7, [0, 1, 2, 3]), (7, [4, 5, 6, 7])] [0, 5, 4, 1, 6, 3, 2, 7]) 1 1,
    -- 1431: c4.abababab += einsum(t2.abab, (0, 1, 2, 3), t2.abab, (4, 5, 6, 7), (4, 5, 0, 1, 6, 3, 2, 7)) * -1
    .add 17 (.ein [(7, [0, 1, 2, 3]), (7, [4, 5, 6, 7])] [4, 5, 0, 1, 6, 3, 2, 7]) (-1) 1,
    -- 1432: c4.abababab += einsum(t2.bbbb, (0, 1, 2, 3), t1.aa, (4, 5), t1.aa, (6, 7), (6, 0, 4, 1, 5, 2, 7, 3)) * -2
    .add 17 (.ein [(10, [0, 1, 2, 3]), (2, [4, 5]), (2, [6, 7])] [6, 0, 4, 1, 5, 2, 7, 3]) (-2) 1,
    -- 1433: c4.abababab += einsum(t1.bb, (0, 1), t1.bb, (2, 3), t2.aaaa, (4, 5, 6, 7), (4, 2, 5, 0, 6, 1, 7, 3)) * -2
    .add 17 (.ein [(6, [0, 1]), (6, [2, 3]), (3, [4, 5, 6, 7])] [4, 2, 5, 0, 6, 1, 7, 3]) (-2) 1,
    -- 1434: c4.abababab += einsum(t1.bb, (0, 1), t1.aa, (2, 3), t2.abab, (4, 5, 6, 7), (2, 5, 4, 0, 3, 7, 6, 1))
    .add 17 (.ein [(6, [0, 1]), (2, [2, 3]), (7, [4, 5, 6, 7])] [2, 5, 4, 0, 3, 7, 6, 1]) 1 1,
    -- 1435: c4.abababab += einsum(t1.bb, (0, 1), t2.abab, (2, 3, 4, 5), t1.aa, (6, 7), (2, 3, 6, 0, 7, 1, 4, 5))
    .add 17 (.ein [(6, [0, 1]), (7, [2, 3, 4, 5]), (2, [6, 7])] [2, 3, 6, 0, 7, 1, 4, 5]) 1 1,
    -- 1436: c4.abababab += einsum(t2.abab, (0, 1, 2, 3), t1.bb, (4, 5), t1.aa, (6, 7), (0, 4, 6, 1, 7, 5, 2, 3)) * -1
    .add 17 (.ein [(7, [0, 1, 2, 3]), (6, [4, 5]), (2, [6, 7])] [0, 4, 6, 1, 7, 5, 2, 3]) (-1) 1,
    -- 1437: c4.abababab += einsum(t1.bb, (0, 1), t2.abab, (2, 3, 4, 5), t1.aa, (6, 7), (2, 3, 6, 0, 7, 5, 4, 1)) * -1
    .add 17 (.ein [(6, [0, 1]), (7, [2, 3, 4, 5]), (2, [6, 7])] [2, 3, 6, 0, 7, 5, 4, 1]) (-1) 1,
    -- 1438: c4.abababab += einsum(t2.abab, (0, 1, 2, 3), t1.bb, (4, 5), t1.aa, (6, 7), (0, 4, 6, 1, 7, 3, 2, 5))
    .add 17 (.ein [(7, [0, 1, 2, 3]), (6, [4, 5]), (2, [6, 7])] [0, 4, 6, 1, 7, 3, 2, 5]) 1 1,
    -- 1439: c4.abababab += einsum(t2.abab, (0, 1, 2, 3), t1.bb, (4, 5), t1.aa, (6, 7), (6, 4, 0, 1, 7, 5, 2, 3))
    .add 17 (.ein [(7, [0, 1, 2, 3]), (6, [4, 5]), (2, [6, 7])] [6, 4, 0, 1, 7, 5, 2, 3]) 1 1,
    -- 1440: c4.abababab += einsum(t1.bb, (0, 1), t1.bb, (2, 3), t2.aaaa, (4, 5, 6, 7), (4, 2, 5, 0, 6, 3, 7, 1)) * 2
    .add 17 (.ein [(6, [0, 1]), (6, [2, 3]), (3, [4, 5, 6, 7])] [4, 2, 5, 0, 6, 3, 7, 1]) 2 1,
    -- 1441: c4.abababab += einsum(t2.abab, (0, 1, 2, 3), t1.bb, (4, 5), t1.aa, (6, 7), (6, 4, 0, 1, 7, 3, 2, 5)) * -1
    .add 17 (.ein [(7, [0, 1, 2, 3]), (6, [4, 5]), (2, [6, 7])] [6, 4, 0, 1, 7, 3, 2, 5]) (-1) 1,
    -- 1442: c4.abababab += einsum(t1.bb, (0, 1), t2.abab, (2, 3, 4, 5), t1.aa, (6, 7), (6, 3, 2, 0, 7, 1, 4, 5)) * -1
    .add 17 (.ein [(6, [0, 1]), (7, [2, 3, 4, 5]), (2, [6, 7])] [6, 3, 2, 0, 7, 1, 4, 5]) (-1) 1,
    -- 1443: c4.abababab += einsum(t1.aa, (0, 1), t2.bbbb, (2, 3, 4, 5), t1.aa, (6, 7), (6, 2, 0, 3, 7, 4, 1, 5)) * 2
    .add 17 (.ein [(2, [0, 1]), (10, [2, 3, 4, 5]), (2, [6, 7])] [6, 2, 0, 3, 7, 4, 1, 5]) 2 1,
    -- 1444: c4.abababab += einsum(t1.aa, (0, 1), t1.bb, (2, 3), t2.abab, (4, 5, 6, 7), (4, 5, 0, 2, 6, 3, 1, 7)) * -1
    .add 17 (.ein [(2, [0, 1]), (6, [2, 3]), (7, [4, 5, 6, 7])] [4, 5, 0, 2, 6, 3, 1, 7]) (-1) 1,
    -- 1445: c4.abababab += einsum(t1.bb, (0, 1), t2.abab, (2, 3, 4, 5), t1.aa, (6, 7), (6, 3, 2, 0, 4, 1, 7, 5))
    .add 17 (.ein [(6, [0, 1]), (7, [2, 3, 4, 5]), (2, [6, 7])] [6, 3, 2, 0, 4, 1, 7, 5]) 1 1,
    -- 1446: c4.abababab += einsum(t1.aa, (0, 1), t2.abab, (2, 3, 4, 5), t1.bb, (6, 7), (2, 6, 0, 3, 4, 7, 1, 5))
    .add 17 (.ein [(2, [0, 1]), (7, [2, 3, 4, 5]), (6, [6, 7])] [2, 6, 0, 3, 4, 7, 1, 5]) 1 1,
    -- 1447: c4.abababab += einsum(t2.abab, (0, 1, 2, 3), t1.bb, (4, 5), t1.aa, (6, 7), (6, 4, 0, 1, 2, 5, 7, 3)) * -1
    .add 17 (.ein [(7, [0, 1, 2, 3]), (6, [4, 5]), (2, [6, 7])] [6, 4, 0, 1, 2, 5, 7, 3]) (-1) 1,
    -- 1448: c4.abababab += einsum(t1.bb, (0, 1), t2.abab, (2, 3, 4, 5), t1.aa, (6, 7), (6, 3, 2, 0, 4, 5, 7, 1)) * -1
    .add 17 (.ein [(6, [0, 1]), (7, [2, 3, 4, 5]), (2, [6, 7])] [6, 3, 2, 0, 4, 5, 7, 1]) (-1) 1,
    -- 1449: c4.abababab += einsum(t1.aa, (0, 1), t1.bb, (2, 3), t2.abab, (4, 5, 6, 7), (4, 5, 0, 2, 6, 7, 1, 3))
    .add 17 (.ein [(2, [0, 1]), (6, [2, 3]), (7, [4, 5, 6, 7])] [4, 5, 0, 2, 6, 7, 1, 3]) 1 1,
    -- 1450: c4.abababab += einsum(t1.aa, (0, 1), t2.abab, (2, 3, 4, 5), t1.bb, (6, 7), (2, 6, 0, 3, 4, 5, 1, 7)) * -1
    .add 17 (.ein [(2, [0, 1]), (7, [2, 3, 4, 5]), (6, [6, 7])] [2, 6, 0, 3, 4, 5, 1, 7]) (-1) 1,
    -- 1451: c4.abababab += einsum(t2.abab, (0, 1, 2, 3), t1.bb, (4, 5), t1.aa, (6, 7), (6, 4, 0, 1, 2, 3, 7, 5))
    .add 17 (.ein [(7, [0, 1, 2, 3]), (6, [4, 5]), (2, [6, 7])] [6, 4, 0, 1, 2, 3, 7, 5]) 1 1,
    -- 1452: c4.abababab += einsum(t1.bb, (0, 1), t1.bb, (2, 3), t1.aa, (4, 5), t1.aa, (6, 7), (6, 2, 4, 0, 5, 1, 7, 3))
    .add 17 (.ein [(6, [0, 1]), (6, [2, 3]), (2, [4, 5]), (2, [6, 7])] [6, 2, 4, 0, 5, 1, 7, 3]) 1 1,
    -- 1453: c4.abababab += einsum(t1.aa, (0, 1), t1.bb, (2, 3), t1.bb, (4, 5), t1.aa, (6, 7), (6, 4, 0, 2, 7, 3, 1, 5)) * -1
    .add 17 (.ein [(2, [0, 1]), (6, [2, 3]), (6, [4, 5]), (2, [6, 7])] [6, 4, 0, 2, 7, 3, 1, 5]) (-1) 1,
    -- 1454: c4.abababab += einsum(t1.bb, (0, 1), t1.bb, (2, 3), t1.aa, (4, 5), t1.aa, (6, 7), (6, 2, 4, 0, 5, 3, 7, 1)) * -1
    .add 17 (.ein [(6, [0, 1]), (6, [2, 3]), (2, [4, 5]), (2, [6, 7])] [6, 2, 4, 0, 5, 3, 7, 1]) (-1) 1,
    -- 1455: c4.abababab += einsum(t1.aa, (0, 1), t1.bb, (2, 3), t1.bb, (4, 5), t1.aa, (6, 7), (6, 4, 0, 2, 7, 5, 1, 3))
    .add 17 (.ein [(2, [0, 1]), (6, [2, 3]), (6, [4, 5]), (2, [6, 7])] [6, 4, 0, 2, 7, 5, 1, 3]) 1 1,
    -- 1456: c4.abbbabbb = np.copy(t4.abbbabbb) * 3
    .set 18 (.cp 13) 3 1,
    -- 1457: c4.abbbabbb += t4.abbbabbb * 3
    .add 18 (.cp 13) 3 1,
    -- 1458: c4.abbbabbb += einsum(t1.bb, (0, 1), t3.babbab, (2, 3, 4, 5, 6, 7), (3, 2, 4, 0, 6, 1, 5, 7))
    .add 18 (.ein [(6, [0, 1]), (12, [2, 3, 4, 5, 6, 7])] [3, 2, 4, 0, 6, 1, 5, 7]) 1 1,
    -- 1459: c4.abbbabbb += einsum(t1.bb, (0, 1), t3.babbab, (2, 3, 4, 5, 6, 7), (3, 2, 4, 0, 6, 1, 5, 7))
    .add 18 (.ein [(6, [0, 1]), (12, [2, 3, 4, 5, 6, 7])] [3, 2, 4, 0, 6, 1, 5, 7]) 1 1,
    -- 1460: c4.abbbabbb += einsum(t1.bb, (0, 1), t3.babbab, (2, 3, 4, 5, 6, 7), (3, 2, 0, 4, 6, 1, 5, 7)) * -1
    .add 18 (.ein [(6, [0, 1]), (12, [2, 3, 4, 5, 6, 7])] [3, 2, 0, 4, 6, 1, 5, 7]) (-1) 1,
    -- 1461: c4.abbbabbb += einsum(t1.bb, (0, 1), t3.babbab, (2, 3, 4, 5, 6, 7), (3, 2, 0, 4, 6, 1, 5, 7)) * -1
    .add 18 (.ein [(6, [0, 1]), (12, [2, 3, 4, 5, 6, 7])] [3, 2, 0, 4, 6, 1, 5, 7]) (-1) 1,
    -- 1462: c4.abbbabbb += einsum(t3.bbbbbb, (0, 1, 2, 3, 4, 5), t1.aa, (6, 7), (6, 0, 1, 2, 7, 3, 4, 5)) * 3
    .add 18 (.ein [(9, [0, 1, 2, 3, 4, 5]), (2, [6, 7])] [6, 0, 1, 2, 7, 3, 4, 5]) 3 1,
    -- 1463: c4.abbbabbb += einsum(t3.bbbbbb, (0, 1, 2, 3, 4, 5), t1.aa, (6, 7), (6, 0, 1, 2, 7, 3, 4, 5)) * 3
    .add 18 (.ein [(9, [0, 1, 2, 3, 4, 5]), (2, [6, 7])] [6, 0, 1, 2, 7, 3, 4, 5]) 3 1,
    -- 1464: c4.abbbabbb += einsum(t1.bb, (0, 1), t3.babbab, (2, 3, 4, 5, 6, 7), (3, 0, 2, 4, 6, 1, 5, 7))
    .add 18 (.ein [(6, [0, 1]), (12, [2, 3, 4, 5, 6, 7])] [3, 0, 2, 4, 6, 1, 5, 7]) 1 1,
    -- 1465: c4.abbbabbb += einsum(t1.bb, (0, 1), t3.babbab, (2, 3, 4, 5, 6, 7), (3, 0, 2, 4, 6, 1, 5, 7))
    .add 18 (.ein [(6, [0, 1]), (12, [2, 3, 4, 5, 6, 7])] [3, 0, 2, 4, 6, 1, 5, 7]) 1 1,
    -- 1466: c4.abbbabbb += einsum(t1.bb, (0, 1), t3.babbab, (2, 3, 4, 5, 6, 7), (3, 2, 4, 0, 6, 5, 1, 7)) * -1
    .add 18 (.ein [(6, [0, 1]), (12, [2, 3, 4, 5, 6, 7])] [3, 2, 4, 0, 6, 5, 1, 7]) (-1) 1,
    -- 1467: c4.abbbabbb += einsum(t1.bb, (0, 1), t3.babbab, (2, 3, 4, 5, 6, 7), (3, 2, 4, 0, 6, 5, 1, 7)) * -1
    .add 18 (.ein [(6, [0, 1]), (12, [2, 3, 4, 5, 6, 7])] [3, 2, 4, 0, 6, 5, 1, 7]) (-1) 1,
    -- 1468: c4.abbbabbb += einsum(t3.babbab, (0, 1, 2, 3, 4, 5), t1.bb, (6, 7), (1, 0, 6, 2, 4, 3, 7, 5))
    .add 18 (.ein [(12, [0, 1, 2, 3, 4, 5]), (6, [6, 7])] [1, 0, 6, 2, 4, 3, 7, 5]) 1 1,
    -- 1469: c4.abbbabbb += einsum(t3.babbab, (0, 1, 2, 3, 4, 5), t1.bb, (6, 7), (1, 0, 6, 2, 4, 3, 7, 5))
    .add 18 (.ein [(12, [0, 1, 2, 3, 4, 5]), (6, [6, 7])] [1, 0, 6, 2, 4, 3, 7, 5]) 1 1,
    -- 1470: c4.abbbabbb += einsum(t1.bb, (0, 1), t3.babbab, (2, 3, 4, 5, 6, 7), (3, 2, 4, 0, 6, 5, 7, 1))
    .add 18 (.ein [(6, [0, 1]), (12, [2, 3, 4, 5, 6, 7])] [3, 2, 4, 0, 6, 5, 7, 1]) 1 1,
    -- 1471: c4.abbbabbb += einsum(t1.bb, (0, 1), t3.babbab, (2, 3, 4, 5, 6, 7), (3, 2, 4, 0, 6, 5, 7, 1))
    .add 18 (.ein [(6, [0, 1]), (12, [2, 3, 4, 5, 6, 7])] [3, 2, 4, 0, 6, 5, 7, 1]) 1 1,
    -- 1472: c4.abbbabbb += einsum(t1.bb, (0, 1), t3.babbab, (2, 3, 4, 5, 6, 7), (3, 2, 0, 4, 6, 5, 7, 1)) * -1
    .add 18 (.ein [(6, [0, 1]), (12, [2, 3, 4, 5, 6, 7])] [3, 2, 0, 4, 6, 5, 7, 1]) (-1) 1,
    -- 1473: c4.abbbabbb += einsum(t1.bb, (0, 1), t3.babbab, (2, 3, 4, 5, 6, 7), (3, 2, 0, 4, 6, 5, 7, 1)) * -1
    .add 18 (.ein [(6, [0, 1]), (12, [2, 3, 4, 5, 6, 7])] [3, 2, 0, 4, 6, 5, 7, 1]) (-1) 1,
    -- 1474: c4.abbbabbb += einsum(t1.bb, (0, 1), t3.babbab, (2, 3, 4, 5, 6, 7), (3, 0, 2, 4, 6, 5, 1, 7)) * -1
    .add 18 (.ein [(6, [0, 1]), (12, [2, 3, 4, 5, 6, 7])] [3, 0, 2, 4, 6, 5, 1, 7]) (-1) 1,
    -- 1475: c4.abbbabbb += einsum(t1.bb, (0, 1), t3.babbab, (2, 3, 4, 5, 6, 7), (3, 0, 2, 4, 6, 5, 1, 7)) * -1
    .add 18 (.ein [(6, [0, 1]), (12, [2, 3, 4, 5, 6, 7])] [3, 0, 2, 4, 6, 5, 1, 7]) (-1) 1,
    -- 1476: c4.abbbabbb += einsum(t3.babbab, (0, 1, 2, 3, 4, 5), t1.bb, (6, 7), (1, 6, 0, 2, 4, 3, 5, 7))
    .add 18 (.ein [(12, [0, 1, 2, 3, 4, 5]), (6, [6, 7])] [1, 6, 0, 2, 4, 3, 5, 7]) 1 1,
    -- 1477: c4.abbbabbb += einsum(t3.babbab, (0, 1, 2, 3, 4, 5), t1.bb, (6, 7), (1, 6, 0, 2, 4, 3, 5, 7))
    .add 18 (.ein [(12, [0, 1, 2, 3, 4, 5]), (6, [6, 7])] [1, 6, 0, 2, 4, 3, 5, 7]) 1 1,
    -- 1478: c4.abbbabbb += einsum(t2.bbbb, (0, 1, 2, 3), t2.abab, (4, 5, 6, 7), (4, 0, 1, 5, 6, 7, 2, 3)) * 2
    .add 18 (.ein [(10, [0, 1, 2, 3]), (7, [4, 5, 6, 7])] [4, 0, 1, 5, 6, 7, 2, 3]) 2 1,
    -- 1479: c4.abbbabbb += einsum(t2.abab, (0, 1, 2, 3), t2.bbbb, (4, 5, 6, 7), (0, 4, 1, 5, 2, 3, 6, 7)) * -2
    .add 18 (.ein [(7, [0, 1, 2, 3]), (10, [4, 5, 6, 7])] [0, 4, 1, 5, 2, 3, 6, 7]) (-2) 1,
    -- 1480: c4.abbbabbb += einsum(t2.abab, (0, 1, 2, 3), t2.bbbb, (4, 5, 6, 7), (0, 4, 5, 1, 2, 6, 3, 7)) * -2
    .add 18 (.ein [(7, [0, 1, 2, 3]), (10, [4, 5, 6, 7])] [0, 4, 5, 1, 2, 6, 3, 7]) (-2) 1,
    -- 1481: c4.abbbabbb += einsum(t2.abab, (0, 1, 2, 3), t2.bbbb, (4, 5, 6, 7), (0, 4, 1, 5, 2, 6, 3, 7)) * 2
    .add 18 (.ein [(7, [0, 1, 2, 3]), (10, [4, 5, 6, 7])] [0, 4, 1, 5, 2, 6, 3, 7]) 2 1,
    -- 1482: c4.abbbabbb += einsum(t2.bbbb, (0, 1, 2, 3), t2.abab, (4, 5, 6, 7), (4, 5, 0, 1, 6, 7, 2, 3)) * 2
    .add 18 (.ein [(10, [0, 1, 2, 3]), (7, [4, 5, 6, 7])] [4, 5, 0, 1, 6, 7, 2, 3]) 2 1,
    -- 1483: c4.abbbabbb += einsum(t2.bbbb, (0, 1, 2, 3), t2.abab, (4, 5, 6, 7), (4, 5, 0, 1, 6, 2, 7, 3)) * -2
    .add 18 (.ein [(10, [0, 1, 2, 3]), (7, [4, 5, 6, 7])] [4, 5, 0, 1, 6, 2, 7, 3]) (-2) 1,
    -- 1484: c4.abbbabbb += einsum(t2.bbbb, (0, 1, 2, 3), t2.abab, (4, 5, 6, 7), (4, 0, 1, 5, 6, 2, 3, 7)) * 2
    .add 18 (.ein [(10, [0, 1, 2, 3]), (7, [4, 5, 6, 7])] [4, 0, 1, 5, 6, 2, 3, 7]) 2 1,
    -- 1485: c4.abbbabbb += einsum(t2.abab, (0, 1, 2, 3), t2.bbbb, (4, 5, 6, 7), (0, 4, 1, 5, 2, 6, 7, 3)) * -2
    .add 18 (.ein [(7, [0, 1, 2, 3]), (10, [4, 5, 6, 7])] [0, 4, 1, 5, 2, 6, 7, 3]) (-2) 1,
    -- 1486: c4.abbbabbb += einsum(t2.bbbb, (0, 1, 2, 3), t2.abab, (4, 5, 6, 7), (4, 5, 0, 1, 6, 2, 3, 7)) * 2
    .add 18 (.ein [(10, [0, 1, 2, 3]), (7, [4, 5, 6, 7])] [4, 5, 0, 1, 6, 2, 3, 7]) 2 1,
    -- 1487: c4.abbbabbb += einsum(t1.bb, (0, 1), t1.bb, (2, 3), t2.abab, (4, 5, 6, 7), (4, 5, 0, 2, 6, 3, 7, 1))
    .add 18 (.ein [(6, [0, 1]), (6, [2, 3]), (7, [4, 5, 6, 7])] [4, 5, 0, 2, 6, 3, 7, 1]) 1 1,
    -- 1488: c4.abbbabbb += einsum(t2.abab, (0, 1, 2, 3), t1.bb, (4, 5), t1.bb, (6, 7), (0, 6, 1, 4, 2, 5, 3, 7)) * -1
    .add 18 (.ein [(7, [0, 1, 2, 3]), (6, [4, 5]), (6, [6, 7])] [0, 6, 1, 4, 2, 5, 3, 7]) (-1) 1,
    -- 1489: c4.abbbabbb += einsum(t2.bbbb, (0, 1, 2, 3), t1.bb, (4, 5), t1.aa, (6, 7), (6, 0, 1, 4, 7, 2, 3, 5)) * 2
    .add 18 (.ein [(10, [0, 1, 2, 3]), (6, [4, 5]), (2, [6, 7])] [6, 0, 1, 4, 7, 2, 3, 5]) 2 1,
    -- 1490: c4.abbbabbb += einsum(t1.bb, (0, 1), t2.bbbb, (2, 3, 4, 5), t1.aa, (6, 7), (6, 2, 0, 3, 7, 4, 5, 1)) * -2
    .add 18 (.ein [(6, [0, 1]), (10, [2, 3, 4, 5]), (2, [6, 7])] [6, 2, 0, 3, 7, 4, 5, 1]) (-2) 1,
    -- 1491: c4.abbbabbb += einsum(t1.bb, (0, 1), t1.bb, (2, 3), t2.abab, (4, 5, 6, 7), (4, 5, 0, 2, 6, 1, 7, 3)) * -1
    .add 18 (.ein [(6, [0, 1]), (6, [2, 3]), (7, [4, 5, 6, 7])] [4, 5, 0, 2, 6, 1, 7, 3]) (-1) 1,
    -- 1492: c4.abbbabbb += einsum(t1.bb, (0, 1), t2.abab, (2, 3, 4, 5), t1.bb, (6, 7), (2, 6, 0, 3, 4, 1, 5, 7))
    .add 18 (.ein [(6, [0, 1]), (7, [2, 3, 4, 5]), (6, [6, 7])] [2, 6, 0, 3, 4, 1, 5, 7]) 1 1,
    -- 1493: c4.abbbabbb += einsum(t2.bbbb, (0, 1, 2, 3), t1.bb, (4, 5), t1.aa, (6, 7), (6, 4, 0, 1, 7, 5, 2, 3)) * 2
    .add 18 (.ein [(10, [0, 1, 2, 3]), (6, [4, 5]), (2, [6, 7])] [6, 4, 0, 1, 7, 5, 2, 3]) 2 1,
    -- 1494: c4.abbbabbb += einsum(t2.bbbb, (0, 1, 2, 3), t1.bb, (4, 5), t1.aa, (6, 7), (6, 4, 0, 1, 7, 2, 5, 3)) * -2
    .add 18 (.ein [(10, [0, 1, 2, 3]), (6, [4, 5]), (2, [6, 7])] [6, 4, 0, 1, 7, 2, 5, 3]) (-2) 1,
    -- 1495: c4.abbbabbb += einsum(t2.abab, (0, 1, 2, 3), t1.bb, (4, 5), t1.bb, (6, 7), (0, 6, 1, 4, 2, 7, 3, 5))
    .add 18 (.ein [(7, [0, 1, 2, 3]), (6, [4, 5]), (6, [6, 7])] [0, 6, 1, 4, 2, 7, 3, 5]) 1 1,
    -- 1496: c4.abbbabbb += einsum(t1.bb, (0, 1), t2.abab, (2, 3, 4, 5), t1.bb, (6, 7), (2, 6, 0, 3, 4, 7, 5, 1)) * -1
    .add 18 (.ein [(6, [0, 1]), (7, [2, 3, 4, 5]), (6, [6, 7])] [2, 6, 0, 3, 4, 7, 5, 1]) (-1) 1,
    -- 1497: c4.abbbabbb += einsum(t2.bbbb, (0, 1, 2, 3), t1.bb, (4, 5), t1.aa, (6, 7), (6, 4, 0, 1, 7, 2, 3, 5)) * 2
    .add 18 (.ein [(10, [0, 1, 2, 3]), (6, [4, 5]), (2, [6, 7])] [6, 4, 0, 1, 7, 2, 3, 5]) 2 1,
    -- 1498: c4.abbbabbb += einsum(t2.bbbb, (0, 1, 2, 3), t1.bb, (4, 5), t1.aa, (6, 7), (6, 0, 1, 4, 7, 5, 2, 3)) * 2
    .add 18 (.ein [(10, [0, 1, 2, 3]), (6, [4, 5]), (2, [6, 7])] [6, 0, 1, 4, 7, 5, 2, 3]) 2 1,
    -- 1499: c4.abbbabbb += einsum(t1.bb, (0, 1), t1.aa, (2, 3), t2.bbbb, (4, 5, 6, 7), (2, 4, 0, 5, 3, 1, 6, 7)) * -2
    .add 18 (.ein [(6, [0, 1]), (2, [2, 3]), (10, [4, 5, 6, 7])] [2, 4, 0, 5, 3, 1, 6, 7]) (-2) 1,
    -- 1500: c4.abbbabbb += einsum(t1.bb, (0, 1), t2.bbbb, (2, 3, 4, 5), t1.aa, (6, 7), (6, 2, 3, 0, 7, 4, 1, 5)) * -2
    .add 18 (.ein [(6, [0, 1]), (10, [2, 3, 4, 5]), (2, [6, 7])] [6, 2, 3, 0, 7, 4, 1, 5]) (-2) 1,
    -- 1501: c4.abbbabbb += einsum(t2.bbbb, (0, 1, 2, 3), t1.bb, (4, 5), t1.aa, (6, 7), (6, 0, 4, 1, 7, 2, 5, 3)) * 2
    .add 18 (.ein [(10, [0, 1, 2, 3]), (6, [4, 5]), (2, [6, 7])] [6, 0, 4, 1, 7, 2, 5, 3]) 2 1,
    -- 1502: c4.abbbabbb += einsum(t1.bb, (0, 1), t1.bb, (2, 3), t2.abab, (4, 5, 6, 7), (4, 5, 0, 2, 6, 3, 1, 7)) * -1
    .add 18 (.ein [(6, [0, 1]), (6, [2, 3]), (7, [4, 5, 6, 7])] [4, 5, 0, 2, 6, 3, 1, 7]) (-1) 1,
    -- 1503: c4.abbbabbb += einsum(t2.abab, (0, 1, 2, 3), t1.bb, (4, 5), t1.bb, (6, 7), (0, 6, 1, 4, 2, 5, 7, 3))
    .add 18 (.ein [(7, [0, 1, 2, 3]), (6, [4, 5]), (6, [6, 7])] [0, 6, 1, 4, 2, 5, 7, 3]) 1 1,
    -- 1504: c4.abbbabbb += einsum(t1.bb, (0, 1), t1.bb, (2, 3), t2.abab, (4, 5, 6, 7), (4, 5, 0, 2, 6, 1, 3, 7))
    .add 18 (.ein [(6, [0, 1]), (6, [2, 3]), (7, [4, 5, 6, 7])] [4, 5, 0, 2, 6, 1, 3, 7]) 1 1,
    -- 1505: c4.abbbabbb += einsum(t1.bb, (0, 1), t1.bb, (2, 3), t2.abab, (4, 5, 6, 7), (4, 2, 0, 5, 6, 1, 3, 7)) * -1
    .add 18 (.ein [(6, [0, 1]), (6, [2, 3]), (7, [4, 5, 6, 7])] [4, 2, 0, 5, 6, 1, 3, 7]) (-1) 1,
    -- 1506: c4.abbbabbb += einsum(t2.abab, (0, 1, 2, 3), t1.bb, (4, 5), t1.bb, (6, 7), (0, 6, 1, 4, 2, 7, 5, 3)) * -1
    .add 18 (.ein [(7, [0, 1, 2, 3]), (6, [4, 5]), (6, [6, 7])] [0, 6, 1, 4, 2, 7, 5, 3]) (-1) 1,
    -- 1507: c4.abbbabbb += einsum(t1.bb, (0, 1), t2.abab, (2, 3, 4, 5), t1.bb, (6, 7), (2, 6, 0, 3, 4, 7, 1, 5))
    .add 18 (.ein [(6, [0, 1]), (7, [2, 3, 4, 5]), (6, [6, 7])] [2, 6, 0, 3, 4, 7, 1, 5]) 1 1,
    -- 1508: c4.abbbabbb += einsum(t1.bb, (0, 1), t1.bb, (2, 3), t2.abab, (4, 5, 6, 7), (4, 5, 0, 2, 6, 7, 3, 1)) * -1
    .add 18 (.ein [(6, [0, 1]), (6, [2, 3]), (7, [4, 5, 6, 7])] [4, 5, 0, 2, 6, 7, 3, 1]) (-1) 1,
    -- 1509: c4.abbbabbb += einsum(t1.bb, (0, 1), t1.bb, (2, 3), t2.abab, (4, 5, 6, 7), (4, 2, 5, 0, 6, 7, 1, 3))
    .add 18 (.ein [(6, [0, 1]), (6, [2, 3]), (7, [4, 5, 6, 7])] [4, 2, 5, 0, 6, 7, 1, 3]) 1 1,
    -- 1510: c4.abbbabbb += einsum(t1.bb, (0, 1), t1.bb, (2, 3), t2.abab, (4, 5, 6, 7), (4, 5, 0, 2, 6, 7, 1, 3))
    .add 18 (.ein [(6, [0, 1]), (6, [2, 3]), (7, [4, 5, 6, 7])] [4, 5, 0, 2, 6, 7, 1, 3]) 1 1,
    -- 1511: c4.abbbabbb += einsum(t1.bb, (0, 1), t1.bb, (2, 3), t2.abab, (4, 5, 6, 7), (4, 2, 0, 5, 6, 7, 1, 3)) * -1
    .add 18 (.ein [(6, [0, 1]), (6, [2, 3]), (7, [4, 5, 6, 7])] [4, 2, 0, 5, 6, 7, 1, 3]) (-1) 1,
    -- 1512: c4.abbbabbb += einsum(t1.bb, (0, 1), t1.bb, (2, 3), t2.abab, (4, 5, 6, 7), (4, 2, 5, 0, 6, 7, 3, 1)) * -1
    .add 18 (.ein [(6, [0, 1]), (6, [2, 3]), (7, [4, 5, 6, 7])] [4, 2, 5, 0, 6, 7, 3, 1]) (-1) 1,
    -- 1513: c4.abbbabbb += einsum(t1.bb, (0, 1), t1.bb, (2, 3), t2.abab, (4, 5, 6, 7), (4, 2, 0, 5, 6, 7, 3, 1))
    .add 18 (.ein [(6, [0, 1]), (6, [2, 3]), (7, [4, 5, 6, 7])] [4, 2, 0, 5, 6, 7, 3, 1]) 1 1,
    -- 1514: c4.abbbabbb += einsum(t1.bb, (0, 1), t1.bb, (2, 3), t1.bb, (4, 5), t1.aa, (6, 7), (6, 4, 0, 2, 7, 3, 1, 5)) * -1
    .add 18 (.ein [(6, [0, 1]), (6, [2, 3]), (6, [4, 5]), (2, [6, 7])] [6, 4, 0, 2, 7, 3, 1, 5]) (-1) 1,
    -- 1515: c4.abbbabbb += einsum(t1.bb, (0, 1), t1.bb, (2, 3), t1.bb, (4, 5), t1.aa, (6, 7), (6, 4, 0, 2, 7, 3, 5, 1))
    .add 18 (.ein [(6, [0, 1]), (6, [2, 3]), (6, [4, 5]), (2, [6, 7])] [6, 4, 0, 2, 7, 3, 5, 1]) 1 1,
    -- 1516: c4.abbbabbb += einsum(t1.bb, (0, 1), t1.bb, (2, 3), t1.aa, (4, 5), t1.bb, (6, 7), (4, 2, 0, 6, 5, 1, 7, 3))
    .add 18 (.ein [(6, [0, 1]), (6, [2, 3]), (2, [4, 5]), (6, [6, 7])] [4, 2, 0, 6, 5, 1, 7, 3]) 1 1,
    -- 1517: c4.abbbabbb += einsum(t1.bb, (0, 1), t1.bb, (2, 3), t1.aa, (4, 5), t1.bb, (6, 7), (4, 2, 0, 6, 5, 1, 3, 7)) * -1
    .add 18 (.ein [(6, [0, 1]), (6, [2, 3]), (2, [4, 5]), (6, [6, 7])] [4, 2, 0, 6, 5, 1, 3, 7]) (-1) 1,
    -- 1518: c4.abbbabbb += einsum(t1.bb, (0, 1), t1.bb, (2, 3), t1.bb, (4, 5), t1.aa, (6, 7), (6, 4, 0, 2, 7, 5, 3, 1)) * -1
    .add 18 (.ein [(6, [0, 1]), (6, [2, 3]), (6, [4, 5]), (2, [6, 7])] [6, 4, 0, 2, 7, 5, 3, 1]) (-1) 1,
    -- 1519: c4.abbbabbb += einsum(t1.bb, (0, 1), t1.bb, (2, 3), t1.aa, (4, 5), t1.bb, (6, 7), (4, 2, 0, 6, 5, 3, 1, 7))
    .add 18 (.ein [(6, [0, 1]), (6, [2, 3]), (2, [4, 5]), (6, [6, 7])] [4, 2, 0, 6, 5, 3, 1, 7]) 1 1
  ]
  ret := [(chars! "c4.aaaaaaaa", 14), (chars! "c4.aaabaaab", 15), (chars! "c4.bbbbbbbb", 16), (chars! "c4.abababab", 17), (chars! "c4.abbbabbb", 18)]

end Ebcc.Gen.UecCC
