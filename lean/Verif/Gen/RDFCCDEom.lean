import Verif.Model.GenCode
/-!
Functions of `ebcc/codegen/RDFCCD.py`, written by `tools/gencode.py`.  Comments give the
number and the text of the line of each statement.
-/

set_option maxRecDepth 100000

namespace Ebcc.Gen.RDFCCDEom

/-- codegen/RDFCCD.py:456-526 `hbar_matvec_ip_intermediates`. -/
def hbar_matvec_ip_intermediates : GenFun where
  args := [chars! "v.xov", chars! "t2", chars! "v.xoo", chars! "v.xvv", chars! "f.ov"]
  body := [
    -- 498: tmp3 = einsum(v.xov, (0, 1, 2), t2, (3, 1, 2, 4), (3, 4, 0))
    .set 5 (.ein [(0, [0, 1, 2]), (1, [3, 1, 2, 4])] [3, 4, 0]) 1 1,
    -- 499: tmp6 = einsum(v.xov, (0, 1, 2), t2, (3, 1, 4, 2), (3, 4, 0))
    .set 6 (.ein [(0, [0, 1, 2]), (1, [3, 1, 4, 2])] [3, 4, 0]) 1 1,
    -- 500: tmp0 = einsum(v.xoo, (0, 1, 2), v.xov, (0, 3, 4), (1, 2, 3, 4))
    .set 7 (.ein [(2, [0, 1, 2]), (0, [0, 3, 4])] [1, 2, 3, 4]) 1 1,
    -- 501: tmp15 = einsum(v.xov, (0, 1, 2), v.xov, (0, 3, 4), (3, 1, 4, 2))
    .set 8 (.ein [(0, [0, 1, 2]), (0, [0, 3, 4])] [3, 1, 4, 2]) 1 1,
    -- 502: tmp12 = einsum(v.xvv, (0, 1, 2), v.xov, (0, 3, 4), (3, 1, 2, 4))
    .set 9 (.ein [(3, [0, 1, 2]), (0, [0, 3, 4])] [3, 1, 2, 4]) 1 1,
    -- 503: tmp50 = einsum(v.xvv, (0, 1, 2), tmp3, (3, 2, 0), (3, 1))
    .set 10 (.ein [(3, [0, 1, 2]), (5, [3, 2, 0])] [3, 1]) 1 1,
    -- 504: tmp49 = einsum(v.xvv, (0, 1, 2), tmp6, (3, 2, 0), (3, 1))
    .set 11 (.ein [(3, [0, 1, 2]), (6, [3, 2, 0])] [3, 1]) 1 1,
    -- 505: tmp43 = einsum(tmp6, (0, 1, 2), v.xov, (2, 0, 3), (1, 3))
    .set 12 (.ein [(6, [0, 1, 2]), (0, [2, 0, 3])] [1, 3]) 1 1,
    -- 506: tmp41 = einsum(tmp3, (0, 1, 2), v.xov, (2, 0, 3), (1, 3))
    .set 13 (.ein [(5, [0, 1, 2]), (0, [2, 0, 3])] [1, 3]) 1 1,
    -- 507: tmp40 = einsum(tmp0, (0, 1, 2, 3), t2, (4, 1, 3, 5), (4, 0, 2, 5))
    .set 14 (.ein [(7, [0, 1, 2, 3]), (1, [4, 1, 3, 5])] [4, 0, 2, 5]) 1 1,
    -- 508: tmp39 = einsum(t2, (0, 1, 2, 3), tmp0, (4, 0, 1, 3), (4, 2))
    .set 15 (.ein [(1, [0, 1, 2, 3]), (7, [4, 0, 1, 3])] [4, 2]) 1 1,
    -- 509: tmp38 = einsum(tmp0, (0, 1, 2, 3), t2, (1, 2, 3, 4), (0, 4))
    .set 16 (.ein [(7, [0, 1, 2, 3]), (1, [1, 2, 3, 4])] [0, 4]) 1 1,
    -- 510: tmp37 = einsum(t2, (0, 1, 2, 3), f.ov, (4, 3), (4, 0, 1, 2))
    .set 17 (.ein [(1, [0, 1, 2, 3]), (4, [4, 3])] [4, 0, 1, 2]) 1 1,
    -- 511: tmp32 = einsum(t2, (0, 1, 2, 3), tmp15, (1, 4, 5, 3), (0, 4, 2, 5))
    .set 18 (.ein [(1, [0, 1, 2, 3]), (8, [1, 4, 5, 3])] [0, 4, 2, 5]) 1 1,
    -- 512: tmp31 = einsum(t2, (0, 1, 2, 3), tmp15, (1, 4, 5, 2), (0, 4, 3, 5))
    .set 19 (.ein [(1, [0, 1, 2, 3]), (8, [1, 4, 5, 2])] [0, 4, 3, 5]) 1 1,
    -- 513: tmp30 = einsum(v.xoo, (0, 1, 2), tmp3, (3, 4, 0), (3, 1, 2, 4))
    .set 20 (.ein [(2, [0, 1, 2]), (5, [3, 4, 0])] [3, 1, 2, 4]) 1 1,
    -- 514: tmp28 = einsum(v.xoo, (0, 1, 2), tmp6, (3, 4, 0), (3, 1, 2, 4))
    .set 21 (.ein [(2, [0, 1, 2]), (6, [3, 4, 0])] [3, 1, 2, 4]) 1 1,
    -- 515: tmp27 = einsum(tmp0, (0, 1, 2, 3), t2, (4, 1, 5, 3), (4, 0, 2, 5))
    .set 22 (.ein [(7, [0, 1, 2, 3]), (1, [4, 1, 5, 3])] [4, 0, 2, 5]) 1 1,
    -- 516: tmp25 = einsum(v.xoo, (0, 1, 2), v.xoo, (0, 3, 4), (3, 1, 2, 4))
    .set 23 (.ein [(2, [0, 1, 2]), (2, [0, 3, 4])] [3, 1, 2, 4]) 1 1,
    -- 517: tmp24 = einsum(f.ov, (0, 1), t2, (2, 0, 3, 1), (2, 3))
    .set 24 (.ein [(4, [0, 1]), (1, [2, 0, 3, 1])] [2, 3]) 1 1,
    -- 518: tmp23 = einsum(f.ov, (0, 1), t2, (2, 0, 1, 3), (2, 3))
    .set 25 (.ein [(4, [0, 1]), (1, [2, 0, 1, 3])] [2, 3]) 1 1,
    -- 519: tmp18 = einsum(v.xvv, (0, 1, 2), v.xoo, (0, 3, 4), (3, 4, 1, 2))
    .set 26 (.ein [(3, [0, 1, 2]), (2, [0, 3, 4])] [3, 4, 1, 2]) 1 1,
    -- 520: tmp16 = einsum(t2, (0, 1, 2, 3), tmp15, (4, 5, 2, 3), (0, 1, 4, 5))
    .set 27 (.ein [(1, [0, 1, 2, 3]), (8, [4, 5, 2, 3])] [0, 1, 4, 5]) 1 1,
    -- 521: tmp13 = einsum(tmp12, (0, 1, 2, 3), t2, (4, 5, 3, 2), (4, 5, 0, 1))
    .set 28 (.ein [(9, [0, 1, 2, 3]), (1, [4, 5, 3, 2])] [4, 5, 0, 1]) 1 1,
    -- 522: del tmp12
    .del 9,
    -- 523: tmp7 = einsum(v.xov, (0, 1, 2), tmp6, (3, 2, 0), (3, 1))
    .set 29 (.ein [(0, [0, 1, 2]), (6, [3, 2, 0])] [3, 1]) 1 1,
    -- 524: tmp4 = einsum(v.xov, (0, 1, 2), tmp3, (3, 2, 0), (3, 1))
    .set 30 (.ein [(0, [0, 1, 2]), (5, [3, 2, 0])] [3, 1]) 1 1
  ]
  ret := [(chars! "tmp0", 7), (chars! "tmp13", 28), (chars! "tmp15", 8), (chars! "tmp16", 27), (chars! "tmp18", 26), (chars! "tmp23", 25), (chars! "tmp24", 24), (chars! "tmp25", 23), (chars! "tmp27", 22), (chars! "tmp28", 21), (chars! "tmp3", 5), (chars! "tmp30", 20), (chars! "tmp31", 19), (chars! "tmp32", 18), (chars! "tmp37", 17), (chars! "tmp38", 16), (chars! "tmp39", 15), (chars! "tmp4", 30), (chars! "tmp40", 14), (chars! "tmp41", 13), (chars! "tmp43", 12), (chars! "tmp49", 11), (chars! "tmp50", 10), (chars! "tmp6", 6), (chars! "tmp7", 29)]

/-- codegen/RDFCCD.py:528-643 `hbar_matvec_ip`. -/
def hbar_matvec_ip : GenFun where
  args := [chars! "ints.tmp15", chars! "r2", chars! "ints.tmp0", chars! "ints.tmp13", chars! "ints.tmp28", chars! "ints.tmp37", chars! "ints.tmp27", chars! "ints.tmp30", chars! "ints.tmp40", chars! "f.vv", chars! "ints.tmp41", chars! "ints.tmp43", chars! "ints.tmp18", chars! "ints.tmp32", chars! "ints.tmp31", chars! "ints.tmp6", chars! "v.xov", chars! "ints.tmp3", chars! "ints.tmp16", chars! "ints.tmp25", chars! "f.ov", chars! "ints.tmp24", chars! "ints.tmp38", chars! "ints.tmp49", chars! "ints.tmp23", chars! "ints.tmp39", chars! "ints.tmp50", chars! "f.oo", chars! "ints.tmp7", chars! "ints.tmp4", chars! "t2", chars! "r1"]
  body := [
    -- 554: tmp9 = np.copy(ints.tmp15)
    .set 32 (.cp 0) 1 1,
    -- 555: tmp9 += np.transpose(ints.tmp15, (1, 0, 2, 3)) * -0.5
    .add 32 (.tr 0 [1, 0, 2, 3]) (-1) 2,
    -- 556: del ints.tmp15
    .del 0,
    -- 557: tmp1 = np.copy(r2) * -1
    .set 33 (.cp 1) (-1) 1,
    -- 558: tmp1 += np.transpose(r2, (1, 0, 2)) * 2
    .add 33 (.tr 1 [1, 0, 2]) 2 1,
    -- 559: tmp11 = np.copy(ints.tmp0)
    .set 34 (.cp 2) 1 1,
    -- 560: tmp11 += np.transpose(ints.tmp13, (0, 2, 1, 3))
    .add 34 (.tr 3 [0, 2, 1, 3]) 1 1,
    -- 561: del ints.tmp13
    .del 3,
    -- 562: tmp11 += np.transpose(ints.tmp28, (2, 1, 0, 3)) * 2
    .add 34 (.tr 4 [2, 1, 0, 3]) 2 1,
    -- 563: del ints.tmp28
    .del 4,
    -- 564: tmp11 += np.transpose(ints.tmp37, (2, 0, 1, 3))
    .add 34 (.tr 5 [2, 0, 1, 3]) 1 1,
    -- 565: del ints.tmp37
    .del 5,
    -- 566: tmp11 += np.transpose(ints.tmp27, (1, 2, 0, 3)) * -1
    .add 34 (.tr 6 [1, 2, 0, 3]) (-1) 1,
    -- 567: del ints.tmp27
    .del 6,
    -- 568: tmp11 += np.transpose(ints.tmp30, (2, 1, 0, 3)) * -1
    .add 34 (.tr 7 [2, 1, 0, 3]) (-1) 1,
    -- 569: del ints.tmp30
    .del 7,
    -- 570: tmp11 += np.transpose(ints.tmp40, (0, 2, 1, 3)) * -1
    .add 34 (.tr 8 [0, 2, 1, 3]) (-1) 1,
    -- 571: del ints.tmp40
    .del 8,
    -- 572: tmp8 = np.copy(f.vv)
    .set 35 (.cp 9) 1 1,
    -- 573: tmp8 += np.transpose(ints.tmp41, (1, 0))
    .add 35 (.tr 10 [1, 0]) 1 1,
    -- 574: del ints.tmp41
    .del 10,
    -- 575: tmp8 += np.transpose(ints.tmp43, (1, 0)) * -2
    .add 35 (.tr 11 [1, 0]) (-2) 1,
    -- 576: del ints.tmp43
    .del 11,
    -- 577: tmp3 = np.copy(ints.tmp18) * 0.5
    .set 36 (.cp 12) 1 2,
    -- 578: tmp3 += ints.tmp32
    .add 36 (.cp 13) 1 1,
    -- 579: tmp3 += ints.tmp31 * -0.5
    .add 36 (.cp 14) (-1) 2,
    -- 580: tmp7 = np.copy(ints.tmp6) * 2
    .set 37 (.cp 15) 2 1,
    -- 581: del ints.tmp6
    .del 15,
    -- 582: tmp7 += np.transpose(v.xov, (1, 2, 0))
    .add 37 (.tr 16 [1, 2, 0]) 1 1,
    -- 583: tmp7 += ints.tmp3 * -1
    .add 37 (.cp 17) (-1) 1,
    -- 584: del ints.tmp3
    .del 17,
    -- 585: tmp10 = einsum(tmp9, (0, 1, 2, 3), r2, (0, 1, 2), (3,))
    .set 38 (.ein [(32, [0, 1, 2, 3]), (1, [0, 1, 2])] [3]) 1 1,
    -- 586: del tmp9
    .del 32,
    -- 587: tmp6 = einsum(tmp1, (0, 1, 2), v.xov, (3, 1, 2), (0, 3)) * 0.5
    .set 39 (.ein [(33, [0, 1, 2]), (16, [3, 1, 2])] [0, 3]) 1 2,
    -- 588: tmp5 = np.copy(ints.tmp16)
    .set 40 (.cp 18) 1 1,
    -- 589: del ints.tmp16
    .del 18,
    -- 590: tmp5 += np.transpose(ints.tmp25, (0, 2, 3, 1))
    .add 40 (.tr 19 [0, 2, 3, 1]) 1 1,
    -- 591: del ints.tmp25
    .del 19,
    -- 592: tmp12 = np.copy(f.ov)
    .set 41 (.cp 20) 1 1,
    -- 593: tmp12 += ints.tmp24 * 2
    .add 41 (.cp 21) 2 1,
    -- 594: del ints.tmp24
    .del 21,
    -- 595: tmp12 += ints.tmp38
    .add 41 (.cp 22) 1 1,
    -- 596: del ints.tmp38
    .del 22,
    -- 597: tmp12 += ints.tmp49 * 2
    .add 41 (.cp 23) 2 1,
    -- 598: del ints.tmp49
    .del 23,
    -- 599: tmp12 += ints.tmp23 * -1
    .add 41 (.cp 24) (-1) 1,
    -- 600: del ints.tmp23
    .del 24,
    -- 601: tmp12 += ints.tmp39 * -2
    .add 41 (.cp 25) (-2) 1,
    -- 602: del ints.tmp39
    .del 25,
    -- 603: tmp12 += ints.tmp50 * -1
    .add 41 (.cp 26) (-1) 1,
    -- 604: del ints.tmp50
    .del 26,
    -- 605: tmp2 = np.copy(f.oo)
    .set 42 (.cp 27) 1 1,
    -- 606: tmp2 += np.transpose(ints.tmp7, (1, 0)) * 2
    .add 42 (.tr 28 [1, 0]) 2 1,
    -- 607: del ints.tmp7
    .del 28,
    -- 608: tmp2 += np.transpose(ints.tmp4, (1, 0)) * -1
    .add 42 (.tr 29 [1, 0]) (-1) 1,
    -- 609: del ints.tmp4
    .del 29,
    -- 610: tmp4 = np.copy(ints.tmp18)
    .set 43 (.cp 12) 1 1,
    -- 611: del ints.tmp18
    .del 12,
    -- 612: tmp4 += ints.tmp31 * -1
    .add 43 (.cp 14) (-1) 1,
    -- 613: del ints.tmp31
    .del 14,
    -- 614: tmp0 = np.copy(r2) * 2
    .set 44 (.cp 1) 2 1,
    -- 615: tmp0 += np.transpose(r2, (1, 0, 2)) * -1
    .add 44 (.tr 1 [1, 0, 2]) (-1) 1,
    -- 616: r2new = einsum(ints.tmp32, (0, 1, 2, 3), r2, (4, 1, 3), (0, 4, 2))
    .set 45 (.ein [(13, [0, 1, 2, 3]), (1, [4, 1, 3])] [0, 4, 2]) 1 1,
    -- 617: del ints.tmp32
    .del 13,
    -- 618: r2new += einsum(r2, (0, 1, 2), tmp3, (3, 0, 4, 2), (3, 1, 4)) * -2
    .add 45 (.ein [(1, [0, 1, 2]), (36, [3, 0, 4, 2])] [3, 1, 4]) (-2) 1,
    -- 619: del tmp3
    .del 36,
    -- 620: r2new += einsum(r2, (0, 1, 2), tmp4, (3, 1, 4, 2), (0, 3, 4)) * -1
    .add 45 (.ein [(1, [0, 1, 2]), (43, [3, 1, 4, 2])] [0, 3, 4]) (-1) 1,
    -- 621: del tmp4
    .del 43,
    -- 622: r2new += einsum(r2, (0, 1, 2), tmp5, (3, 4, 1, 0), (4, 3, 2))
    .add 45 (.ein [(1, [0, 1, 2]), (40, [3, 4, 1, 0])] [4, 3, 2]) 1 1,
    -- 623: del tmp5
    .del 40,
    -- 624: r2new += einsum(tmp6, (0, 1), tmp7, (2, 3, 1), (2, 0, 3)) * 2
    .add 45 (.ein [(39, [0, 1]), (37, [2, 3, 1])] [2, 0, 3]) 2 1,
    -- 625: del tmp6, tmp7
    .del 39,
    .del 37,
    -- 626: r2new += einsum(r2, (0, 1, 2), tmp8, (2, 3), (0, 1, 3))
    .add 45 (.ein [(1, [0, 1, 2]), (35, [2, 3])] [0, 1, 3]) 1 1,
    -- 627: del tmp8
    .del 35,
    -- 628: r2new += einsum(t2, (0, 1, 2, 3), tmp10, (3,), (0, 1, 2)) * -2
    .add 45 (.ein [(30, [0, 1, 2, 3]), (38, [3])] [0, 1, 2]) (-2) 1,
    -- 629: del tmp10
    .del 38,
    -- 630: r2new += einsum(r1, (0,), tmp11, (1, 0, 2, 3), (2, 1, 3))
    .add 45 (.ein [(31, [0]), (34, [1, 0, 2, 3])] [2, 1, 3]) 1 1,
    -- 631: del tmp11
    .del 34,
    -- 632: r2new += einsum(r2, (0, 1, 2), tmp2, (0, 3), (3, 1, 2)) * -1
    .add 45 (.ein [(1, [0, 1, 2]), (42, [0, 3])] [3, 1, 2]) (-1) 1,
    -- 633: r2new += einsum(tmp2, (0, 1), r2, (2, 0, 3), (2, 1, 3)) * -1
    .add 45 (.ein [(42, [0, 1]), (1, [2, 0, 3])] [2, 1, 3]) (-1) 1,
    -- 634: r2new += einsum(tmp12, (0, 1), r1, (2,), (0, 2, 1)) * -1
    .add 45 (.ein [(41, [0, 1]), (31, [2])] [0, 2, 1]) (-1) 1,
    -- 635: del tmp12
    .del 41,
    -- 636: r1new = einsum(tmp0, (0, 1, 2), ints.tmp0, (3, 1, 0, 2), (3,))
    .set 46 (.ein [(44, [0, 1, 2]), (2, [3, 1, 0, 2])] [3]) 1 1,
    -- 637: del ints.tmp0, tmp0
    .del 2,
    .del 44,
    -- 638: r1new += einsum(tmp1, (0, 1, 2), f.ov, (1, 2), (0,)) * -1
    .add 46 (.ein [(33, [0, 1, 2]), (20, [1, 2])] [0]) (-1) 1,
    -- 639: del tmp1
    .del 33,
    -- 640: r1new += einsum(tmp2, (0, 1), r1, (0,), (1,)) * -1
    .add 46 (.ein [(42, [0, 1]), (31, [0])] [1]) (-1) 1,
    -- 641: del tmp2
    .del 42
  ]
  ret := [(chars! "r1new", 46), (chars! "r2new", 45)]

/-- codegen/RDFCCD.py:827-897 `hbar_lmatvec_ip_intermediates`. -/
def hbar_lmatvec_ip_intermediates : GenFun where
  args := [chars! "v.xov", chars! "t2", chars! "v.xvv", chars! "v.xoo", chars! "f.ov"]
  body := [
    -- 869: tmp12 = einsum(v.xov, (0, 1, 2), t2, (3, 1, 4, 2), (3, 4, 0))
    .set 5 (.ein [(0, [0, 1, 2]), (1, [3, 1, 4, 2])] [3, 4, 0]) 1 1,
    -- 870: tmp9 = einsum(v.xov, (0, 1, 2), t2, (3, 1, 2, 4), (3, 4, 0))
    .set 6 (.ein [(0, [0, 1, 2]), (1, [3, 1, 2, 4])] [3, 4, 0]) 1 1,
    -- 871: tmp43 = einsum(v.xov, (0, 1, 2), v.xov, (0, 3, 4), (3, 1, 4, 2))
    .set 7 (.ein [(0, [0, 1, 2]), (0, [0, 3, 4])] [3, 1, 4, 2]) 1 1,
    -- 872: tmp35 = einsum(v.xvv, (0, 1, 2), v.xov, (0, 3, 4), (3, 1, 2, 4))
    .set 8 (.ein [(2, [0, 1, 2]), (0, [0, 3, 4])] [3, 1, 2, 4]) 1 1,
    -- 873: tmp6 = einsum(v.xoo, (0, 1, 2), v.xov, (0, 3, 4), (1, 2, 3, 4))
    .set 9 (.ein [(3, [0, 1, 2]), (0, [0, 3, 4])] [1, 2, 3, 4]) 1 1,
    -- 874: tmp67 = einsum(tmp12, (0, 1, 2), v.xov, (2, 0, 3), (1, 3))
    .set 10 (.ein [(5, [0, 1, 2]), (0, [2, 0, 3])] [1, 3]) 1 1,
    -- 875: tmp65 = einsum(tmp9, (0, 1, 2), v.xov, (2, 0, 3), (1, 3))
    .set 11 (.ein [(6, [0, 1, 2]), (0, [2, 0, 3])] [1, 3]) 1 1,
    -- 876: tmp63 = einsum(t2, (0, 1, 2, 3), tmp43, (4, 5, 3, 2), (0, 1, 5, 4))
    .set 12 (.ein [(1, [0, 1, 2, 3]), (7, [4, 5, 3, 2])] [0, 1, 5, 4]) 1 1,
    -- 877: tmp59 = einsum(v.xoo, (0, 1, 2), v.xoo, (0, 3, 4), (3, 1, 2, 4))
    .set 13 (.ein [(3, [0, 1, 2]), (3, [0, 3, 4])] [3, 1, 2, 4]) 1 1,
    -- 878: tmp45 = einsum(t2, (0, 1, 2, 3), tmp43, (4, 1, 3, 5), (0, 4, 2, 5))
    .set 14 (.ein [(1, [0, 1, 2, 3]), (7, [4, 1, 3, 5])] [0, 4, 2, 5]) 1 1,
    -- 879: tmp44 = einsum(t2, (0, 1, 2, 3), tmp43, (4, 1, 2, 5), (0, 4, 3, 5))
    .set 15 (.ein [(1, [0, 1, 2, 3]), (7, [4, 1, 2, 5])] [0, 4, 3, 5]) 1 1,
    -- 880: tmp41 = einsum(v.xvv, (0, 1, 2), v.xoo, (0, 3, 4), (3, 4, 1, 2))
    .set 16 (.ein [(2, [0, 1, 2]), (3, [0, 3, 4])] [3, 4, 1, 2]) 1 1,
    -- 881: tmp36 = einsum(tmp35, (0, 1, 2, 3), t2, (4, 5, 3, 2), (4, 5, 0, 1))
    .set 17 (.ein [(8, [0, 1, 2, 3]), (1, [4, 5, 3, 2])] [4, 5, 0, 1]) 1 1,
    -- 882: del tmp35
    .del 8,
    -- 883: tmp32 = einsum(v.xvv, (0, 1, 2), tmp9, (3, 2, 0), (3, 1))
    .set 18 (.ein [(2, [0, 1, 2]), (6, [3, 2, 0])] [3, 1]) 1 1,
    -- 884: tmp29 = einsum(v.xvv, (0, 1, 2), tmp12, (3, 2, 0), (3, 1))
    .set 19 (.ein [(2, [0, 1, 2]), (5, [3, 2, 0])] [3, 1]) 1 1,
    -- 885: tmp27 = einsum(v.xoo, (0, 1, 2), tmp12, (3, 4, 0), (3, 1, 2, 4))
    .set 20 (.ein [(3, [0, 1, 2]), (5, [3, 4, 0])] [3, 1, 2, 4]) 1 1,
    -- 886: tmp25 = einsum(v.xoo, (0, 1, 2), tmp9, (3, 4, 0), (3, 1, 2, 4))
    .set 21 (.ein [(3, [0, 1, 2]), (6, [3, 4, 0])] [3, 1, 2, 4]) 1 1,
    -- 887: tmp23 = einsum(tmp6, (0, 1, 2, 3), t2, (4, 0, 5, 3), (4, 1, 2, 5))
    .set 22 (.ein [(9, [0, 1, 2, 3]), (1, [4, 0, 5, 3])] [4, 1, 2, 5]) 1 1,
    -- 888: tmp21 = einsum(tmp6, (0, 1, 2, 3), t2, (4, 0, 3, 5), (4, 1, 2, 5))
    .set 23 (.ein [(9, [0, 1, 2, 3]), (1, [4, 0, 3, 5])] [4, 1, 2, 5]) 1 1,
    -- 889: tmp18 = einsum(t2, (0, 1, 2, 3), tmp6, (0, 4, 1, 3), (4, 2))
    .set 24 (.ein [(1, [0, 1, 2, 3]), (9, [0, 4, 1, 3])] [4, 2]) 1 1,
    -- 890: tmp15 = einsum(tmp6, (0, 1, 2, 3), t2, (0, 2, 3, 4), (1, 4))
    .set 25 (.ein [(9, [0, 1, 2, 3]), (1, [0, 2, 3, 4])] [1, 4]) 1 1,
    -- 891: tmp13 = einsum(v.xov, (0, 1, 2), tmp12, (3, 2, 0), (3, 1))
    .set 26 (.ein [(0, [0, 1, 2]), (5, [3, 2, 0])] [3, 1]) 1 1,
    -- 892: tmp10 = einsum(v.xov, (0, 1, 2), tmp9, (3, 2, 0), (3, 1))
    .set 27 (.ein [(0, [0, 1, 2]), (6, [3, 2, 0])] [3, 1]) 1 1,
    -- 893: tmp3 = einsum(t2, (0, 1, 2, 3), f.ov, (4, 3), (4, 0, 1, 2))
    .set 28 (.ein [(1, [0, 1, 2, 3]), (4, [4, 3])] [4, 0, 1, 2]) 1 1,
    -- 894: tmp1 = einsum(f.ov, (0, 1), t2, (2, 0, 3, 1), (2, 3))
    .set 29 (.ein [(4, [0, 1]), (1, [2, 0, 3, 1])] [2, 3]) 1 1,
    -- 895: tmp0 = einsum(f.ov, (0, 1), t2, (2, 0, 1, 3), (2, 3))
    .set 30 (.ein [(4, [0, 1]), (1, [2, 0, 1, 3])] [2, 3]) 1 1
  ]
  ret := [(chars! "tmp0", 30), (chars! "tmp1", 29), (chars! "tmp10", 27), (chars! "tmp12", 5), (chars! "tmp13", 26), (chars! "tmp15", 25), (chars! "tmp18", 24), (chars! "tmp21", 23), (chars! "tmp23", 22), (chars! "tmp25", 21), (chars! "tmp27", 20), (chars! "tmp29", 19), (chars! "tmp3", 28), (chars! "tmp32", 18), (chars! "tmp36", 17), (chars! "tmp41", 16), (chars! "tmp43", 7), (chars! "tmp44", 15), (chars! "tmp45", 14), (chars! "tmp59", 13), (chars! "tmp6", 9), (chars! "tmp63", 12), (chars! "tmp65", 11), (chars! "tmp67", 10), (chars! "tmp9", 6)]

/-- codegen/RDFCCD.py:899-1015 `hbar_lmatvec_ip`. -/
def hbar_lmatvec_ip : GenFun where
  args := [chars! "t2", chars! "ints.tmp12", chars! "v.xov", chars! "ints.tmp9", chars! "r2", chars! "f.vv", chars! "ints.tmp65", chars! "ints.tmp67", chars! "ints.tmp59", chars! "ints.tmp63", chars! "ints.tmp41", chars! "ints.tmp44", chars! "f.oo", chars! "ints.tmp13", chars! "ints.tmp10", chars! "ints.tmp45", chars! "ints.tmp27", chars! "ints.tmp3", chars! "ints.tmp23", chars! "ints.tmp25", chars! "ints.tmp36", chars! "ints.tmp6", chars! "ints.tmp21", chars! "f.ov", chars! "ints.tmp15", chars! "ints.tmp1", chars! "ints.tmp29", chars! "ints.tmp0", chars! "ints.tmp18", chars! "ints.tmp32", chars! "r1", chars! "ints.tmp43"]
  body := [
    -- 925: tmp12 = np.copy(np.transpose(t2, (0, 1, 3, 2)))
    .set 32 (.tr 0 [0, 1, 3, 2]) 1 1,
    -- 926: tmp12 += t2 * -0.5
    .add 32 (.cp 0) (-1) 2,
    -- 927: tmp9 = np.copy(ints.tmp12)
    .set 33 (.cp 1) 1 1,
    -- 928: del ints.tmp12
    .del 1,
    -- 929: tmp9 += np.transpose(v.xov, (1, 2, 0)) * 0.5
    .add 33 (.tr 2 [1, 2, 0]) 1 2,
    -- 930: tmp9 += ints.tmp9 * -0.5
    .add 33 (.cp 3) (-1) 2,
    -- 931: del ints.tmp9
    .del 3,
    -- 932: tmp2 = np.copy(r2) * -1
    .set 34 (.cp 4) (-1) 1,
    -- 933: tmp2 += np.transpose(r2, (1, 0, 2)) * 2
    .add 34 (.tr 4 [1, 0, 2]) 2 1,
    -- 934: tmp11 = np.copy(f.vv)
    .set 35 (.cp 5) 1 1,
    -- 935: tmp11 += ints.tmp65
    .add 35 (.cp 6) 1 1,
    -- 936: del ints.tmp65
    .del 6,
    -- 937: tmp11 += ints.tmp67 * -2
    .add 35 (.cp 7) (-2) 1,
    -- 938: del ints.tmp67
    .del 7,
    -- 939: tmp8 = np.copy(ints.tmp59)
    .set 36 (.cp 8) 1 1,
    -- 940: del ints.tmp59
    .del 8,
    -- 941: tmp8 += np.transpose(ints.tmp63, (3, 0, 2, 1))
    .add 36 (.tr 9 [3, 0, 2, 1]) 1 1,
    -- 942: del ints.tmp63
    .del 9,
    -- 943: tmp7 = np.copy(ints.tmp41)
    .set 37 (.cp 10) 1 1,
    -- 944: tmp7 += np.transpose(ints.tmp44, (1, 0, 3, 2)) * -1
    .add 37 (.tr 11 [1, 0, 3, 2]) (-1) 1,
    -- 945: tmp13 = einsum(r2, (0, 1, 2), tmp12, (0, 1, 3, 2), (3,))
    .set 38 (.ein [(4, [0, 1, 2]), (32, [0, 1, 3, 2])] [3]) 1 1,
    -- 946: del tmp12
    .del 32,
    -- 947: tmp10 = einsum(tmp2, (0, 1, 2), tmp9, (1, 2, 3), (0, 3)) * 2
    .set 39 (.ein [(34, [0, 1, 2]), (33, [1, 2, 3])] [0, 3]) 2 1,
    -- 948: del tmp9
    .del 33,
    -- 949: tmp5 = np.copy(f.oo)
    .set 40 (.cp 12) 1 1,
    -- 950: tmp5 += ints.tmp13 * 2
    .add 40 (.cp 13) 2 1,
    -- 951: del ints.tmp13
    .del 13,
    -- 952: tmp5 += ints.tmp10 * -1
    .add 40 (.cp 14) (-1) 1,
    -- 953: del ints.tmp10
    .del 14,
    -- 954: tmp6 = np.copy(ints.tmp41) * 0.5
    .set 41 (.cp 10) 1 2,
    -- 955: del ints.tmp41
    .del 10,
    -- 956: tmp6 += np.transpose(ints.tmp45, (1, 0, 3, 2))
    .add 41 (.tr 15 [1, 0, 3, 2]) 1 1,
    -- 957: tmp6 += np.transpose(ints.tmp44, (1, 0, 3, 2)) * -0.5
    .add 41 (.tr 11 [1, 0, 3, 2]) (-1) 2,
    -- 958: del ints.tmp44
    .del 11,
    -- 959: tmp3 = np.copy(ints.tmp27) * 2
    .set 42 (.cp 16) 2 1,
    -- 960: del ints.tmp27
    .del 16,
    -- 961: tmp3 += np.transpose(ints.tmp3, (1, 2, 0, 3))
    .add 42 (.tr 17 [1, 2, 0, 3]) 1 1,
    -- 962: del ints.tmp3
    .del 17,
    -- 963: tmp3 += ints.tmp23 * -1
    .add 42 (.cp 18) (-1) 1,
    -- 964: del ints.tmp23
    .del 18,
    -- 965: tmp3 += ints.tmp25 * -1
    .add 42 (.cp 19) (-1) 1,
    -- 966: del ints.tmp25
    .del 19,
    -- 967: tmp0 = np.copy(r2)
    .set 43 (.cp 4) 1 1,
    -- 968: tmp0 += np.transpose(r2, (1, 0, 2)) * -0.5
    .add 43 (.tr 4 [1, 0, 2]) (-1) 2,
    -- 969: tmp1 = np.copy(ints.tmp36)
    .set 44 (.cp 20) 1 1,
    -- 970: del ints.tmp36
    .del 20,
    -- 971: tmp1 += np.transpose(ints.tmp6, (1, 2, 0, 3))
    .add 44 (.tr 21 [1, 2, 0, 3]) 1 1,
    -- 972: tmp1 += ints.tmp21 * -1
    .add 44 (.cp 22) (-1) 1,
    -- 973: del ints.tmp21
    .del 22,
    -- 974: tmp4 = np.copy(f.ov)
    .set 45 (.cp 23) 1 1,
    -- 975: tmp4 += ints.tmp15
    .add 45 (.cp 24) 1 1,
    -- 976: del ints.tmp15
    .del 24,
    -- 977: tmp4 += ints.tmp1 * 2
    .add 45 (.cp 25) 2 1,
    -- 978: del ints.tmp1
    .del 25,
    -- 979: tmp4 += ints.tmp29 * 2
    .add 45 (.cp 26) 2 1,
    -- 980: del ints.tmp29
    .del 26,
    -- 981: tmp4 += ints.tmp0 * -1
    .add 45 (.cp 27) (-1) 1,
    -- 982: del ints.tmp0
    .del 27,
    -- 983: tmp4 += ints.tmp18 * -2
    .add 45 (.cp 28) (-2) 1,
    -- 984: del ints.tmp18
    .del 28,
    -- 985: tmp4 += ints.tmp32 * -1
    .add 45 (.cp 29) (-1) 1,
    -- 986: del ints.tmp32
    .del 29,
    -- 987: r2new = einsum(ints.tmp45, (0, 1, 2, 3), r2, (4, 0, 2), (1, 4, 3))
    .set 46 (.ein [(15, [0, 1, 2, 3]), (4, [4, 0, 2])] [1, 4, 3]) 1 1,
    -- 988: del ints.tmp45
    .del 15,
    -- 989: r2new += einsum(f.ov, (0, 1), r1, (2,), (0, 2, 1)) * -1
    .add 46 (.ein [(23, [0, 1]), (30, [2])] [0, 2, 1]) (-1) 1,
    -- 990: r2new += einsum(r1, (0,), ints.tmp6, (1, 0, 2, 3), (2, 1, 3))
    .add 46 (.ein [(30, [0]), (21, [1, 0, 2, 3])] [2, 1, 3]) 1 1,
    -- 991: del ints.tmp6
    .del 21,
    -- 992: r2new += einsum(r2, (0, 1, 2), tmp6, (3, 0, 4, 2), (3, 1, 4)) * -2
    .add 46 (.ein [(4, [0, 1, 2]), (41, [3, 0, 4, 2])] [3, 1, 4]) (-2) 1,
    -- 993: del tmp6
    .del 41,
    -- 994: r2new += einsum(r2, (0, 1, 2), tmp7, (3, 1, 4, 2), (0, 3, 4)) * -1
    .add 46 (.ein [(4, [0, 1, 2]), (37, [3, 1, 4, 2])] [0, 3, 4]) (-1) 1,
    -- 995: del tmp7
    .del 37,
    -- 996: r2new += einsum(tmp8, (0, 1, 2, 3), r2, (1, 3, 4), (2, 0, 4))
    .add 46 (.ein [(36, [0, 1, 2, 3]), (4, [1, 3, 4])] [2, 0, 4]) 1 1,
    -- 997: del tmp8
    .del 36,
    -- 998: r2new += einsum(tmp10, (0, 1), v.xov, (1, 2, 3), (2, 0, 3))
    .add 46 (.ein [(39, [0, 1]), (2, [1, 2, 3])] [2, 0, 3]) 1 1,
    -- 999: del tmp10
    .del 39,
    -- 1000: r2new += einsum(r2, (0, 1, 2), tmp11, (2, 3), (0, 1, 3))
    .add 46 (.ein [(4, [0, 1, 2]), (35, [2, 3])] [0, 1, 3]) 1 1,
    -- 1001: del tmp11
    .del 35,
    -- 1002: r2new += einsum(tmp13, (0,), ints.tmp43, (1, 2, 3, 0), (1, 2, 3)) * -2
    .add 46 (.ein [(38, [0]), (31, [1, 2, 3, 0])] [1, 2, 3]) (-2) 1,
    -- 1003: del tmp13, ints.tmp43
    .del 38,
    .del 31,
    -- 1004: r2new += einsum(r2, (0, 1, 2), tmp5, (0, 3), (3, 1, 2)) * -1
    .add 46 (.ein [(4, [0, 1, 2]), (40, [0, 3])] [3, 1, 2]) (-1) 1,
    -- 1005: r2new += einsum(tmp5, (0, 1), r2, (2, 0, 3), (2, 1, 3)) * -1
    .add 46 (.ein [(40, [0, 1]), (4, [2, 0, 3])] [2, 1, 3]) (-1) 1,
    -- 1006: r1new = einsum(tmp1, (0, 1, 2, 3), tmp0, (1, 0, 3), (2,)) * 2
    .set 47 (.ein [(44, [0, 1, 2, 3]), (43, [1, 0, 3])] [2]) 2 1,
    -- 1007: del tmp1, tmp0
    .del 44,
    .del 43,
    -- 1008: r1new += einsum(tmp3, (0, 1, 2, 3), tmp2, (1, 0, 3), (2,))
    .add 47 (.ein [(42, [0, 1, 2, 3]), (34, [1, 0, 3])] [2]) 1 1,
    -- 1009: del tmp3
    .del 42,
    -- 1010: r1new += einsum(tmp4, (0, 1), tmp2, (2, 0, 1), (2,)) * -1
    .add 47 (.ein [(45, [0, 1]), (34, [2, 0, 1])] [2]) (-1) 1,
    -- 1011: del tmp2, tmp4
    .del 34,
    .del 45,
    -- 1012: r1new += einsum(r1, (0,), tmp5, (0, 1), (1,)) * -1
    .add 47 (.ein [(30, [0]), (40, [0, 1])] [1]) (-1) 1,
    -- 1013: del tmp5
    .del 40
  ]
  ret := [(chars! "r1new", 47), (chars! "r2new", 46)]

/-- codegen/RDFCCD.py:645-711 `hbar_matvec_ea_intermediates`. -/
def hbar_matvec_ea_intermediates : GenFun where
  args := [chars! "v.xoo", chars! "v.xov", chars! "t2", chars! "v.xvv", chars! "f.ov"]
  body := [
    -- 685: tmp19 = einsum(v.xoo, (0, 1, 2), v.xov, (0, 3, 4), (1, 2, 3, 4))
    .set 5 (.ein [(0, [0, 1, 2]), (1, [0, 3, 4])] [1, 2, 3, 4]) 1 1,
    -- 686: tmp15 = einsum(v.xov, (0, 1, 2), v.xov, (0, 3, 4), (3, 1, 4, 2))
    .set 6 (.ein [(1, [0, 1, 2]), (1, [0, 3, 4])] [3, 1, 4, 2]) 1 1,
    -- 687: tmp3 = einsum(v.xov, (0, 1, 2), t2, (3, 1, 2, 4), (3, 4, 0))
    .set 7 (.ein [(1, [0, 1, 2]), (2, [3, 1, 2, 4])] [3, 4, 0]) 1 1,
    -- 688: tmp0 = einsum(v.xvv, (0, 1, 2), v.xov, (0, 3, 4), (3, 1, 2, 4))
    .set 8 (.ein [(3, [0, 1, 2]), (1, [0, 3, 4])] [3, 1, 2, 4]) 1 1,
    -- 689: tmp6 = einsum(v.xov, (0, 1, 2), t2, (3, 1, 4, 2), (3, 4, 0))
    .set 9 (.ein [(1, [0, 1, 2]), (2, [3, 1, 4, 2])] [3, 4, 0]) 1 1,
    -- 690: tmp50 = einsum(t2, (0, 1, 2, 3), tmp19, (4, 0, 1, 3), (4, 2))
    .set 10 (.ein [(2, [0, 1, 2, 3]), (5, [4, 0, 1, 3])] [4, 2]) 1 1,
    -- 691: tmp49 = einsum(tmp19, (0, 1, 2, 3), t2, (1, 2, 3, 4), (0, 4))
    .set 11 (.ein [(5, [0, 1, 2, 3]), (2, [1, 2, 3, 4])] [0, 4]) 1 1,
    -- 692: tmp44 = einsum(t2, (0, 1, 2, 3), tmp15, (1, 4, 5, 3), (0, 4, 2, 5))
    .set 12 (.ein [(2, [0, 1, 2, 3]), (6, [1, 4, 5, 3])] [0, 4, 2, 5]) 1 1,
    -- 693: tmp41 = einsum(v.xvv, (0, 1, 2), tmp3, (3, 4, 0), (3, 4, 1, 2))
    .set 13 (.ein [(3, [0, 1, 2]), (7, [3, 4, 0])] [3, 4, 1, 2]) 1 1,
    -- 694: tmp40 = einsum(tmp0, (0, 1, 2, 3), t2, (4, 0, 5, 2), (4, 5, 3, 1))
    .set 14 (.ein [(8, [0, 1, 2, 3]), (2, [4, 0, 5, 2])] [4, 5, 3, 1]) 1 1,
    -- 695: tmp38 = einsum(v.xvv, (0, 1, 2), tmp6, (3, 4, 0), (3, 4, 1, 2))
    .set 15 (.ein [(3, [0, 1, 2]), (9, [3, 4, 0])] [3, 4, 1, 2]) 1 1,
    -- 696: tmp37 = einsum(f.ov, (0, 1), t2, (2, 0, 3, 1), (2, 3))
    .set 16 (.ein [(4, [0, 1]), (2, [2, 0, 3, 1])] [2, 3]) 1 1,
    -- 697: tmp36 = einsum(f.ov, (0, 1), t2, (2, 0, 1, 3), (2, 3))
    .set 17 (.ein [(4, [0, 1]), (2, [2, 0, 1, 3])] [2, 3]) 1 1,
    -- 698: tmp34 = einsum(v.xov, (0, 1, 2), tmp6, (3, 2, 0), (3, 1))
    .set 18 (.ein [(1, [0, 1, 2]), (9, [3, 2, 0])] [3, 1]) 1 1,
    -- 699: tmp32 = einsum(v.xov, (0, 1, 2), tmp3, (3, 2, 0), (3, 1))
    .set 19 (.ein [(1, [0, 1, 2]), (7, [3, 2, 0])] [3, 1]) 1 1,
    -- 700: tmp31 = einsum(v.xvv, (0, 1, 2), tmp3, (3, 2, 0), (3, 1))
    .set 20 (.ein [(3, [0, 1, 2]), (7, [3, 2, 0])] [3, 1]) 1 1,
    -- 701: tmp30 = einsum(v.xvv, (0, 1, 2), tmp6, (3, 2, 0), (3, 1))
    .set 21 (.ein [(3, [0, 1, 2]), (9, [3, 2, 0])] [3, 1]) 1 1,
    -- 702: tmp28 = einsum(v.xvv, (0, 1, 2), v.xvv, (0, 3, 4), (1, 3, 4, 2))
    .set 22 (.ein [(3, [0, 1, 2]), (3, [0, 3, 4])] [1, 3, 4, 2]) 1 1,
    -- 703: tmp20 = einsum(tmp19, (0, 1, 2, 3), t2, (1, 2, 4, 5), (0, 4, 5, 3))
    .set 23 (.ein [(5, [0, 1, 2, 3]), (2, [1, 2, 4, 5])] [0, 4, 5, 3]) 1 1,
    -- 704: del tmp19
    .del 5,
    -- 705: tmp18 = einsum(v.xvv, (0, 1, 2), v.xoo, (0, 3, 4), (3, 4, 1, 2))
    .set 24 (.ein [(3, [0, 1, 2]), (0, [0, 3, 4])] [3, 4, 1, 2]) 1 1,
    -- 706: tmp16 = einsum(t2, (0, 1, 2, 3), tmp15, (1, 4, 5, 2), (0, 4, 3, 5))
    .set 25 (.ein [(2, [0, 1, 2, 3]), (6, [1, 4, 5, 2])] [0, 4, 3, 5]) 1 1,
    -- 707: tmp12 = einsum(t2, (0, 1, 2, 3), tmp0, (1, 4, 2, 5), (0, 3, 5, 4))
    .set 26 (.ein [(2, [0, 1, 2, 3]), (8, [1, 4, 2, 5])] [0, 3, 5, 4]) 1 1,
    -- 708: tmp7 = einsum(tmp6, (0, 1, 2), v.xov, (2, 0, 3), (1, 3))
    .set 27 (.ein [(9, [0, 1, 2]), (1, [2, 0, 3])] [1, 3]) 1 1,
    -- 709: tmp4 = einsum(tmp3, (0, 1, 2), v.xov, (2, 0, 3), (1, 3))
    .set 28 (.ein [(7, [0, 1, 2]), (1, [2, 0, 3])] [1, 3]) 1 1
  ]
  ret := [(chars! "tmp0", 8), (chars! "tmp12", 26), (chars! "tmp15", 6), (chars! "tmp16", 25), (chars! "tmp18", 24), (chars! "tmp20", 23), (chars! "tmp28", 22), (chars! "tmp3", 7), (chars! "tmp30", 21), (chars! "tmp31", 20), (chars! "tmp32", 19), (chars! "tmp34", 18), (chars! "tmp36", 17), (chars! "tmp37", 16), (chars! "tmp38", 15), (chars! "tmp4", 28), (chars! "tmp40", 14), (chars! "tmp41", 13), (chars! "tmp44", 12), (chars! "tmp49", 11), (chars! "tmp50", 10), (chars! "tmp6", 9), (chars! "tmp7", 27)]

/-- codegen/RDFCCD.py:713-825 `hbar_matvec_ea`. -/
def hbar_matvec_ea : GenFun where
  args := [chars! "r2", chars! "f.oo", chars! "ints.tmp34", chars! "ints.tmp32", chars! "ints.tmp0", chars! "ints.tmp20", chars! "ints.tmp38", chars! "ints.tmp12", chars! "ints.tmp40", chars! "ints.tmp41", chars! "ints.tmp15", chars! "ints.tmp6", chars! "v.xov", chars! "ints.tmp3", chars! "f.ov", chars! "r1", chars! "ints.tmp16", chars! "ints.tmp18", chars! "ints.tmp30", chars! "ints.tmp37", chars! "ints.tmp49", chars! "ints.tmp31", chars! "ints.tmp36", chars! "ints.tmp50", chars! "f.vv", chars! "ints.tmp4", chars! "ints.tmp7", chars! "ints.tmp44", chars! "ints.tmp28", chars! "t2"]
  body := [
    -- 739: tmp9 = np.copy(np.transpose(r2, (2, 0, 1)))
    .set 30 (.tr 0 [2, 0, 1]) 1 1,
    -- 740: tmp9 += np.transpose(r2, (2, 1, 0)) * -0.5
    .add 30 (.tr 0 [2, 1, 0]) (-1) 2,
    -- 741: tmp1 = np.copy(np.transpose(r2, (2, 0, 1))) * -1
    .set 31 (.tr 0 [2, 0, 1]) (-1) 1,
    -- 742: tmp1 += np.transpose(r2, (2, 1, 0)) * 2
    .add 31 (.tr 0 [2, 1, 0]) 2 1,
    -- 743: tmp11 = np.copy(f.oo)
    .set 32 (.cp 1) 1 1,
    -- 744: tmp11 += np.transpose(ints.tmp34, (1, 0)) * 2
    .add 32 (.tr 2 [1, 0]) 2 1,
    -- 745: del ints.tmp34
    .del 2,
    -- 746: tmp11 += np.transpose(ints.tmp32, (1, 0)) * -1
    .add 32 (.tr 3 [1, 0]) (-1) 1,
    -- 747: del ints.tmp32
    .del 3,
    -- 748: tmp8 = np.copy(ints.tmp0)
    .set 33 (.cp 4) 1 1,
    -- 749: tmp8 += np.transpose(ints.tmp20, (0, 2, 3, 1))
    .add 33 (.tr 5 [0, 2, 3, 1]) 1 1,
    -- 750: del ints.tmp20
    .del 5,
    -- 751: tmp8 += np.transpose(ints.tmp38, (0, 3, 2, 1)) * 2
    .add 33 (.tr 6 [0, 3, 2, 1]) 2 1,
    -- 752: del ints.tmp38
    .del 6,
    -- 753: tmp8 += ints.tmp12 * -1
    .add 33 (.cp 7) (-1) 1,
    -- 754: del ints.tmp12
    .del 7,
    -- 755: tmp8 += np.transpose(ints.tmp40, (0, 3, 2, 1)) * -1
    .add 33 (.tr 8 [0, 3, 2, 1]) (-1) 1,
    -- 756: del ints.tmp40
    .del 8,
    -- 757: tmp8 += np.transpose(ints.tmp41, (0, 3, 2, 1)) * -1
    .add 33 (.tr 9 [0, 3, 2, 1]) (-1) 1,
    -- 758: del ints.tmp41
    .del 9,
    -- 759: tmp3 = einsum(r2, (0, 1, 2), ints.tmp15, (3, 4, 1, 0), (3, 4, 2))
    .set 34 (.ein [(0, [0, 1, 2]), (10, [3, 4, 1, 0])] [3, 4, 2]) 1 1,
    -- 760: tmp7 = np.copy(ints.tmp6) * 2
    .set 35 (.cp 11) 2 1,
    -- 761: del ints.tmp6
    .del 11,
    -- 762: tmp7 += np.transpose(v.xov, (1, 2, 0))
    .add 35 (.tr 12 [1, 2, 0]) 1 1,
    -- 763: tmp7 += ints.tmp3 * -1
    .add 35 (.cp 13) (-1) 1,
    -- 764: del ints.tmp3
    .del 13,
    -- 765: tmp10 = einsum(f.ov, (0, 1), r1, (1,), (0,))
    .set 36 (.ein [(14, [0, 1]), (15, [1])] [0]) 1 1,
    -- 766: tmp10 += einsum(ints.tmp15, (0, 1, 2, 3), tmp9, (0, 2, 3), (1,)) * -2
    .add 36 (.ein [(10, [0, 1, 2, 3]), (30, [0, 2, 3])] [1]) (-2) 1,
    -- 767: del ints.tmp15, tmp9
    .del 10,
    .del 30,
    -- 768: tmp6 = einsum(tmp1, (0, 1, 2), v.xov, (3, 0, 2), (1, 3)) * 0.5
    .set 37 (.ein [(31, [0, 1, 2]), (12, [3, 0, 2])] [1, 3]) 1 2,
    -- 769: tmp5 = np.copy(ints.tmp16)
    .set 38 (.cp 16) 1 1,
    -- 770: tmp5 += ints.tmp18 * -1
    .add 38 (.cp 17) (-1) 1,
    -- 771: tmp12 = np.copy(f.ov)
    .set 39 (.cp 14) 1 1,
    -- 772: tmp12 += ints.tmp30 * 2
    .add 39 (.cp 18) 2 1,
    -- 773: del ints.tmp30
    .del 18,
    -- 774: tmp12 += ints.tmp37 * 2
    .add 39 (.cp 19) 2 1,
    -- 775: del ints.tmp37
    .del 19,
    -- 776: tmp12 += ints.tmp49
    .add 39 (.cp 20) 1 1,
    -- 777: del ints.tmp49
    .del 20,
    -- 778: tmp12 += ints.tmp31 * -1
    .add 39 (.cp 21) (-1) 1,
    -- 779: del ints.tmp31
    .del 21,
    -- 780: tmp12 += ints.tmp36 * -1
    .add 39 (.cp 22) (-1) 1,
    -- 781: del ints.tmp36
    .del 22,
    -- 782: tmp12 += ints.tmp50 * -2
    .add 39 (.cp 23) (-2) 1,
    -- 783: del ints.tmp50
    .del 23,
    -- 784: tmp2 = np.copy(f.vv)
    .set 40 (.cp 24) 1 1,
    -- 785: tmp2 += np.transpose(ints.tmp4, (1, 0))
    .add 40 (.tr 25 [1, 0]) 1 1,
    -- 786: del ints.tmp4
    .del 25,
    -- 787: tmp2 += np.transpose(ints.tmp7, (1, 0)) * -2
    .add 40 (.tr 26 [1, 0]) (-2) 1,
    -- 788: del ints.tmp7
    .del 26,
    -- 789: tmp4 = np.copy(ints.tmp18) * 0.5
    .set 41 (.cp 17) 1 2,
    -- 790: del ints.tmp18
    .del 17,
    -- 791: tmp4 += ints.tmp44
    .add 41 (.cp 27) 1 1,
    -- 792: tmp4 += ints.tmp16 * -0.5
    .add 41 (.cp 16) (-1) 2,
    -- 793: del ints.tmp16
    .del 16,
    -- 794: tmp0 = np.copy(np.transpose(r2, (2, 0, 1))) * -0.5
    .set 42 (.tr 0 [2, 0, 1]) (-1) 2,
    -- 795: tmp0 += np.transpose(r2, (2, 1, 0))
    .add 42 (.tr 0 [2, 1, 0]) 1 1,
    -- 796: r2new = einsum(ints.tmp28, (0, 1, 2, 3), r2, (1, 3, 4), (2, 0, 4))
    .set 43 (.ein [(28, [0, 1, 2, 3]), (0, [1, 3, 4])] [2, 0, 4]) 1 1,
    -- 797: del ints.tmp28
    .del 28,
    -- 798: r2new += einsum(ints.tmp44, (0, 1, 2, 3), r2, (4, 3, 1), (2, 4, 0))
    .add 43 (.ein [(27, [0, 1, 2, 3]), (0, [4, 3, 1])] [2, 4, 0]) 1 1,
    -- 799: del ints.tmp44
    .del 27,
    -- 800: r2new += einsum(t2, (0, 1, 2, 3), tmp3, (1, 0, 4), (2, 3, 4))
    .add 43 (.ein [(29, [0, 1, 2, 3]), (34, [1, 0, 4])] [2, 3, 4]) 1 1,
    -- 801: del tmp3
    .del 34,
    -- 802: r2new += einsum(tmp4, (0, 1, 2, 3), r2, (3, 4, 1), (2, 4, 0)) * -2
    .add 43 (.ein [(41, [0, 1, 2, 3]), (0, [3, 4, 1])] [2, 4, 0]) (-2) 1,
    -- 803: del tmp4
    .del 41,
    -- 804: r2new += einsum(tmp5, (0, 1, 2, 3), r2, (4, 3, 1), (4, 2, 0))
    .add 43 (.ein [(38, [0, 1, 2, 3]), (0, [4, 3, 1])] [4, 2, 0]) 1 1,
    -- 805: del tmp5
    .del 38,
    -- 806: r2new += einsum(tmp6, (0, 1), tmp7, (2, 3, 1), (3, 0, 2)) * 2
    .add 43 (.ein [(37, [0, 1]), (35, [2, 3, 1])] [3, 0, 2]) 2 1,
    -- 807: del tmp6, tmp7
    .del 37,
    .del 35,
    -- 808: r2new += einsum(tmp8, (0, 1, 2, 3), r1, (2,), (3, 1, 0)) * -1
    .add 43 (.ein [(33, [0, 1, 2, 3]), (15, [2])] [3, 1, 0]) (-1) 1,
    -- 809: del tmp8
    .del 33,
    -- 810: r2new += einsum(r2, (0, 1, 2), tmp2, (0, 3), (3, 1, 2))
    .add 43 (.ein [(0, [0, 1, 2]), (40, [0, 3])] [3, 1, 2]) 1 1,
    -- 811: r2new += einsum(tmp2, (0, 1), r2, (2, 0, 3), (2, 1, 3))
    .add 43 (.ein [(40, [0, 1]), (0, [2, 0, 3])] [2, 1, 3]) 1 1,
    -- 812: r2new += einsum(t2, (0, 1, 2, 3), tmp10, (1,), (2, 3, 0))
    .add 43 (.ein [(29, [0, 1, 2, 3]), (36, [1])] [2, 3, 0]) 1 1,
    -- 813: del tmp10
    .del 36,
    -- 814: r2new += einsum(r2, (0, 1, 2), tmp11, (2, 3), (0, 1, 3)) * -1
    .add 43 (.ein [(0, [0, 1, 2]), (32, [2, 3])] [0, 1, 3]) (-1) 1,
    -- 815: del tmp11
    .del 32,
    -- 816: r2new += einsum(tmp12, (0, 1), r1, (2,), (1, 2, 0)) * -1
    .add 43 (.ein [(39, [0, 1]), (15, [2])] [1, 2, 0]) (-1) 1,
    -- 817: del tmp12
    .del 39,
    -- 818: r1new = einsum(tmp0, (0, 1, 2), ints.tmp0, (0, 3, 1, 2), (3,)) * -2
    .set 44 (.ein [(42, [0, 1, 2]), (4, [0, 3, 1, 2])] [3]) (-2) 1,
    -- 819: del ints.tmp0, tmp0
    .del 4,
    .del 42,
    -- 820: r1new += einsum(f.ov, (0, 1), tmp1, (0, 2, 1), (2,)) * -1
    .add 44 (.ein [(14, [0, 1]), (31, [0, 2, 1])] [2]) (-1) 1,
    -- 821: del tmp1
    .del 31,
    -- 822: r1new += einsum(r1, (0,), tmp2, (0, 1), (1,))
    .add 44 (.ein [(15, [0]), (40, [0, 1])] [1]) 1 1,
    -- 823: del tmp2
    .del 40
  ]
  ret := [(chars! "r1new", 44), (chars! "r2new", 43)]

/-- codegen/RDFCCD.py:1017-1083 `hbar_lmatvec_ea_intermediates`. -/
def hbar_lmatvec_ea_intermediates : GenFun where
  args := [chars! "v.xov", chars! "t2", chars! "v.xvv", chars! "v.xoo", chars! "f.ov"]
  body := [
    -- 1057: tmp49 = einsum(v.xov, (0, 1, 2), v.xov, (0, 3, 4), (3, 1, 4, 2))
    .set 5 (.ein [(0, [0, 1, 2]), (0, [0, 3, 4])] [3, 1, 4, 2]) 1 1,
    -- 1058: tmp13 = einsum(v.xov, (0, 1, 2), t2, (3, 1, 4, 2), (3, 4, 0))
    .set 6 (.ein [(0, [0, 1, 2]), (1, [3, 1, 4, 2])] [3, 4, 0]) 1 1,
    -- 1059: tmp10 = einsum(v.xov, (0, 1, 2), t2, (3, 1, 2, 4), (3, 4, 0))
    .set 7 (.ein [(0, [0, 1, 2]), (1, [3, 1, 2, 4])] [3, 4, 0]) 1 1,
    -- 1060: tmp7 = einsum(v.xvv, (0, 1, 2), v.xov, (0, 3, 4), (3, 1, 2, 4))
    .set 8 (.ein [(2, [0, 1, 2]), (0, [0, 3, 4])] [3, 1, 2, 4]) 1 1,
    -- 1061: tmp16 = einsum(v.xoo, (0, 1, 2), v.xov, (0, 3, 4), (1, 2, 3, 4))
    .set 9 (.ein [(3, [0, 1, 2]), (0, [0, 3, 4])] [1, 2, 3, 4]) 1 1,
    -- 1062: tmp61 = einsum(v.xvv, (0, 1, 2), v.xvv, (0, 3, 4), (1, 3, 4, 2))
    .set 10 (.ein [(2, [0, 1, 2]), (2, [0, 3, 4])] [1, 3, 4, 2]) 1 1,
    -- 1063: tmp51 = einsum(tmp49, (0, 1, 2, 3), t2, (4, 1, 5, 2), (4, 0, 5, 3))
    .set 11 (.ein [(5, [0, 1, 2, 3]), (1, [4, 1, 5, 2])] [4, 0, 5, 3]) 1 1,
    -- 1064: tmp50 = einsum(t2, (0, 1, 2, 3), tmp49, (4, 1, 2, 5), (0, 4, 3, 5))
    .set 12 (.ein [(1, [0, 1, 2, 3]), (5, [4, 1, 2, 5])] [0, 4, 3, 5]) 1 1,
    -- 1065: tmp47 = einsum(v.xov, (0, 1, 2), tmp13, (3, 2, 0), (3, 1))
    .set 13 (.ein [(0, [0, 1, 2]), (6, [3, 2, 0])] [3, 1]) 1 1,
    -- 1066: tmp45 = einsum(v.xov, (0, 1, 2), tmp10, (3, 2, 0), (3, 1))
    .set 14 (.ein [(0, [0, 1, 2]), (7, [3, 2, 0])] [3, 1]) 1 1,
    -- 1067: tmp43 = einsum(v.xvv, (0, 1, 2), v.xoo, (0, 3, 4), (3, 4, 1, 2))
    .set 15 (.ein [(2, [0, 1, 2]), (3, [0, 3, 4])] [3, 4, 1, 2]) 1 1,
    -- 1068: tmp39 = einsum(tmp7, (0, 1, 2, 3), t2, (4, 0, 5, 2), (4, 5, 3, 1))
    .set 16 (.ein [(8, [0, 1, 2, 3]), (1, [4, 0, 5, 2])] [4, 5, 3, 1]) 1 1,
    -- 1069: tmp37 = einsum(tmp7, (0, 1, 2, 3), t2, (4, 0, 2, 5), (4, 5, 3, 1))
    .set 17 (.ein [(8, [0, 1, 2, 3]), (1, [4, 0, 2, 5])] [4, 5, 3, 1]) 1 1,
    -- 1070: tmp34 = einsum(v.xvv, (0, 1, 2), tmp13, (3, 4, 0), (3, 4, 1, 2))
    .set 18 (.ein [(2, [0, 1, 2]), (6, [3, 4, 0])] [3, 4, 1, 2]) 1 1,
    -- 1071: tmp32 = einsum(v.xvv, (0, 1, 2), tmp10, (3, 4, 0), (3, 4, 1, 2))
    .set 19 (.ein [(2, [0, 1, 2]), (7, [3, 4, 0])] [3, 4, 1, 2]) 1 1,
    -- 1072: tmp29 = einsum(v.xvv, (0, 1, 2), tmp10, (3, 2, 0), (3, 1))
    .set 20 (.ein [(2, [0, 1, 2]), (7, [3, 2, 0])] [3, 1]) 1 1,
    -- 1073: tmp26 = einsum(tmp13, (0, 1, 2), v.xvv, (2, 3, 1), (0, 3))
    .set 21 (.ein [(6, [0, 1, 2]), (2, [2, 3, 1])] [0, 3]) 1 1,
    -- 1074: tmp23 = einsum(t2, (0, 1, 2, 3), tmp16, (4, 0, 1, 5), (4, 2, 3, 5))
    .set 22 (.ein [(1, [0, 1, 2, 3]), (9, [4, 0, 1, 5])] [4, 2, 3, 5]) 1 1,
    -- 1075: tmp20 = einsum(t2, (0, 1, 2, 3), tmp16, (4, 0, 1, 3), (4, 2))
    .set 23 (.ein [(1, [0, 1, 2, 3]), (9, [4, 0, 1, 3])] [4, 2]) 1 1,
    -- 1076: tmp17 = einsum(t2, (0, 1, 2, 3), tmp16, (4, 0, 1, 2), (4, 3))
    .set 24 (.ein [(1, [0, 1, 2, 3]), (9, [4, 0, 1, 2])] [4, 3]) 1 1,
    -- 1077: del tmp16
    .del 9,
    -- 1078: tmp14 = einsum(tmp13, (0, 1, 2), v.xov, (2, 0, 3), (1, 3))
    .set 25 (.ein [(6, [0, 1, 2]), (0, [2, 0, 3])] [1, 3]) 1 1,
    -- 1079: tmp11 = einsum(tmp10, (0, 1, 2), v.xov, (2, 0, 3), (1, 3))
    .set 26 (.ein [(7, [0, 1, 2]), (0, [2, 0, 3])] [1, 3]) 1 1,
    -- 1080: tmp1 = einsum(f.ov, (0, 1), t2, (2, 0, 3, 1), (2, 3))
    .set 27 (.ein [(4, [0, 1]), (1, [2, 0, 3, 1])] [2, 3]) 1 1,
    -- 1081: tmp0 = einsum(f.ov, (0, 1), t2, (2, 0, 1, 3), (2, 3))
    .set 28 (.ein [(4, [0, 1]), (1, [2, 0, 1, 3])] [2, 3]) 1 1
  ]
  ret := [(chars! "tmp0", 28), (chars! "tmp1", 27), (chars! "tmp10", 7), (chars! "tmp11", 26), (chars! "tmp13", 6), (chars! "tmp14", 25), (chars! "tmp17", 24), (chars! "tmp20", 23), (chars! "tmp23", 22), (chars! "tmp26", 21), (chars! "tmp29", 20), (chars! "tmp32", 19), (chars! "tmp34", 18), (chars! "tmp37", 17), (chars! "tmp39", 16), (chars! "tmp43", 15), (chars! "tmp45", 14), (chars! "tmp47", 13), (chars! "tmp49", 5), (chars! "tmp50", 12), (chars! "tmp51", 11), (chars! "tmp61", 10), (chars! "tmp7", 8)]

/-- codegen/RDFCCD.py:1085-1207 `hbar_lmatvec_ea`. -/
def hbar_lmatvec_ea : GenFun where
  args := [chars! "ints.tmp13", chars! "v.xov", chars! "ints.tmp10", chars! "r2", chars! "t2", chars! "ints.tmp43", chars! "ints.tmp50", chars! "ints.tmp51", chars! "f.oo", chars! "ints.tmp47", chars! "ints.tmp45", chars! "f.vv", chars! "ints.tmp11", chars! "ints.tmp14", chars! "ints.tmp23", chars! "ints.tmp34", chars! "ints.tmp37", chars! "ints.tmp32", chars! "ints.tmp39", chars! "ints.tmp7", chars! "f.ov", chars! "ints.tmp17", chars! "ints.tmp1", chars! "ints.tmp26", chars! "ints.tmp0", chars! "ints.tmp20", chars! "ints.tmp29", chars! "ints.tmp61", chars! "r1", chars! "ints.tmp49"]
  body := [
    -- 1111: tmp11 = np.copy(ints.tmp13) * 2
    .set 30 (.cp 0) 2 1,
    -- 1112: del ints.tmp13
    .del 0,
    -- 1113: tmp11 += np.transpose(v.xov, (1, 2, 0))
    .add 30 (.tr 1 [1, 2, 0]) 1 1,
    -- 1114: tmp11 += ints.tmp10 * -1
    .add 30 (.cp 2) (-1) 1,
    -- 1115: del ints.tmp10
    .del 2,
    -- 1116: tmp10 = np.copy(np.transpose(r2, (2, 0, 1))) * -0.5
    .set 31 (.tr 3 [2, 0, 1]) (-1) 2,
    -- 1117: tmp10 += np.transpose(r2, (2, 1, 0))
    .add 31 (.tr 3 [2, 1, 0]) 1 1,
    -- 1118: tmp5 = np.copy(np.transpose(t2, (0, 1, 3, 2)))
    .set 32 (.tr 4 [0, 1, 3, 2]) 1 1,
    -- 1119: tmp5 += t2 * -0.5
    .add 32 (.cp 4) (-1) 2,
    -- 1120: tmp9 = np.copy(ints.tmp43)
    .set 33 (.cp 5) 1 1,
    -- 1121: tmp9 += np.transpose(ints.tmp50, (1, 0, 3, 2)) * -1
    .add 33 (.tr 6 [1, 0, 3, 2]) (-1) 1,
    -- 1122: tmp12 = einsum(tmp11, (0, 1, 2), tmp10, (0, 3, 1), (3, 2)) * 2
    .set 34 (.ein [(30, [0, 1, 2]), (31, [0, 3, 1])] [3, 2]) 2 1,
    -- 1123: del tmp11, tmp10
    .del 30,
    .del 31,
    -- 1124: tmp8 = np.copy(ints.tmp43) * 0.5
    .set 35 (.cp 5) 1 2,
    -- 1125: del ints.tmp43
    .del 5,
    -- 1126: tmp8 += np.transpose(ints.tmp51, (1, 0, 3, 2))
    .add 35 (.tr 7 [1, 0, 3, 2]) 1 1,
    -- 1127: tmp8 += np.transpose(ints.tmp50, (1, 0, 3, 2)) * -0.5
    .add 35 (.tr 6 [1, 0, 3, 2]) (-1) 2,
    -- 1128: del ints.tmp50
    .del 6,
    -- 1129: tmp7 = einsum(r2, (0, 1, 2), t2, (3, 4, 0, 1), (2, 3, 4))
    .set 36 (.ein [(3, [0, 1, 2]), (4, [3, 4, 0, 1])] [2, 3, 4]) 1 1,
    -- 1130: tmp13 = np.copy(f.oo)
    .set 37 (.cp 8) 1 1,
    -- 1131: tmp13 += ints.tmp47 * 2
    .add 37 (.cp 9) 2 1,
    -- 1132: del ints.tmp47
    .del 9,
    -- 1133: tmp13 += ints.tmp45 * -1
    .add 37 (.cp 10) (-1) 1,
    -- 1134: del ints.tmp45
    .del 10,
    -- 1135: tmp14 = einsum(r2, (0, 1, 2), tmp5, (2, 3, 1, 0), (3,))
    .set 38 (.ein [(3, [0, 1, 2]), (32, [2, 3, 1, 0])] [3]) 1 1,
    -- 1136: tmp4 = np.copy(f.vv)
    .set 39 (.cp 11) 1 1,
    -- 1137: tmp4 += ints.tmp11
    .add 39 (.cp 12) 1 1,
    -- 1138: del ints.tmp11
    .del 12,
    -- 1139: tmp4 += ints.tmp14 * -2
    .add 39 (.cp 13) (-2) 1,
    -- 1140: del ints.tmp14
    .del 13,
    -- 1141: tmp3 = np.copy(np.transpose(r2, (2, 0, 1))) * -1
    .set 40 (.tr 3 [2, 0, 1]) (-1) 1,
    -- 1142: tmp3 += np.transpose(r2, (2, 1, 0)) * 2
    .add 40 (.tr 3 [2, 1, 0]) 2 1,
    -- 1143: tmp0 = np.copy(ints.tmp23) * 0.5
    .set 41 (.cp 14) 1 2,
    -- 1144: tmp0 += ints.tmp34
    .add 41 (.cp 15) 1 1,
    -- 1145: tmp0 += np.transpose(ints.tmp37, (0, 1, 3, 2))
    .add 41 (.tr 16 [0, 1, 3, 2]) 1 1,
    -- 1146: tmp0 += ints.tmp32 * -0.5
    .add 41 (.cp 17) (-1) 2,
    -- 1147: tmp0 += np.transpose(ints.tmp39, (0, 1, 3, 2)) * -0.5
    .add 41 (.tr 18 [0, 1, 3, 2]) (-1) 2,
    -- 1148: tmp0 += np.transpose(ints.tmp7, (0, 2, 3, 1)) * -1
    .add 41 (.tr 19 [0, 2, 3, 1]) (-1) 1,
    -- 1149: tmp6 = einsum(r2, (0, 1, 2), tmp5, (2, 3, 1, 0), (3,)) * 2
    .set 42 (.ein [(3, [0, 1, 2]), (32, [2, 3, 1, 0])] [3]) 2 1,
    -- 1150: del tmp5
    .del 32,
    -- 1151: tmp1 = np.copy(ints.tmp23) * 2
    .set 43 (.cp 14) 2 1,
    -- 1152: del ints.tmp23
    .del 14,
    -- 1153: tmp1 += ints.tmp34 * 4
    .add 43 (.cp 15) 4 1,
    -- 1154: del ints.tmp34
    .del 15,
    -- 1155: tmp1 += np.transpose(ints.tmp37, (0, 1, 3, 2))
    .add 43 (.tr 16 [0, 1, 3, 2]) 1 1,
    -- 1156: del ints.tmp37
    .del 16,
    -- 1157: tmp1 += ints.tmp32 * -2
    .add 43 (.cp 17) (-2) 1,
    -- 1158: del ints.tmp32
    .del 17,
    -- 1159: tmp1 += np.transpose(ints.tmp39, (0, 1, 3, 2)) * -2
    .add 43 (.tr 18 [0, 1, 3, 2]) (-2) 1,
    -- 1160: del ints.tmp39
    .del 18,
    -- 1161: tmp1 += np.transpose(ints.tmp7, (0, 2, 3, 1)) * -1
    .add 43 (.tr 19 [0, 2, 3, 1]) (-1) 1,
    -- 1162: tmp2 = np.copy(f.ov)
    .set 44 (.cp 20) 1 1,
    -- 1163: tmp2 += ints.tmp17
    .add 44 (.cp 21) 1 1,
    -- 1164: del ints.tmp17
    .del 21,
    -- 1165: tmp2 += ints.tmp1 * 2
    .add 44 (.cp 22) 2 1,
    -- 1166: del ints.tmp1
    .del 22,
    -- 1167: tmp2 += ints.tmp26 * 2
    .add 44 (.cp 23) 2 1,
    -- 1168: del ints.tmp26
    .del 23,
    -- 1169: tmp2 += ints.tmp0 * -1
    .add 44 (.cp 24) (-1) 1,
    -- 1170: del ints.tmp0
    .del 24,
    -- 1171: tmp2 += ints.tmp20 * -2
    .add 44 (.cp 25) (-2) 1,
    -- 1172: del ints.tmp20
    .del 25,
    -- 1173: tmp2 += ints.tmp29 * -1
    .add 44 (.cp 26) (-1) 1,
    -- 1174: del ints.tmp29
    .del 26,
    -- 1175: r2new = einsum(ints.tmp61, (0, 1, 2, 3), r2, (1, 3, 4), (2, 0, 4))
    .set 45 (.ein [(27, [0, 1, 2, 3]), (3, [1, 3, 4])] [2, 0, 4]) 1 1,
    -- 1176: del ints.tmp61
    .del 27,
    -- 1177: r2new += einsum(f.ov, (0, 1), r1, (2,), (1, 2, 0)) * -1
    .add 45 (.ein [(20, [0, 1]), (28, [2])] [1, 2, 0]) (-1) 1,
    -- 1178: r2new += einsum(ints.tmp51, (0, 1, 2, 3), r2, (4, 2, 0), (3, 4, 1))
    .add 45 (.ein [(7, [0, 1, 2, 3]), (3, [4, 2, 0])] [3, 4, 1]) 1 1,
    -- 1179: del ints.tmp51
    .del 7,
    -- 1180: r2new += einsum(ints.tmp49, (0, 1, 2, 3), tmp7, (4, 1, 0), (3, 2, 4))
    .add 45 (.ein [(29, [0, 1, 2, 3]), (36, [4, 1, 0])] [3, 2, 4]) 1 1,
    -- 1181: del tmp7
    .del 36,
    -- 1182: r2new += einsum(ints.tmp7, (0, 1, 2, 3), r1, (2,), (3, 1, 0)) * -1
    .add 45 (.ein [(19, [0, 1, 2, 3]), (28, [2])] [3, 1, 0]) (-1) 1,
    -- 1183: del ints.tmp7
    .del 19,
    -- 1184: r2new += einsum(tmp8, (0, 1, 2, 3), r2, (3, 4, 1), (2, 4, 0)) * -2
    .add 45 (.ein [(35, [0, 1, 2, 3]), (3, [3, 4, 1])] [2, 4, 0]) (-2) 1,
    -- 1185: del tmp8
    .del 35,
    -- 1186: r2new += einsum(tmp9, (0, 1, 2, 3), r2, (4, 3, 1), (4, 2, 0)) * -1
    .add 45 (.ein [(33, [0, 1, 2, 3]), (3, [4, 3, 1])] [4, 2, 0]) (-1) 1,
    -- 1187: del tmp9
    .del 33,
    -- 1188: r2new += einsum(v.xov, (0, 1, 2), tmp12, (3, 0), (2, 3, 1))
    .add 45 (.ein [(1, [0, 1, 2]), (34, [3, 0])] [2, 3, 1]) 1 1,
    -- 1189: del tmp12
    .del 34,
    -- 1190: r2new += einsum(tmp4, (0, 1), r2, (0, 2, 3), (1, 2, 3))
    .add 45 (.ein [(39, [0, 1]), (3, [0, 2, 3])] [1, 2, 3]) 1 1,
    -- 1191: r2new += einsum(r2, (0, 1, 2), tmp4, (1, 3), (0, 3, 2))
    .add 45 (.ein [(3, [0, 1, 2]), (39, [1, 3])] [0, 3, 2]) 1 1,
    -- 1192: r2new += einsum(r2, (0, 1, 2), tmp13, (2, 3), (0, 1, 3)) * -1
    .add 45 (.ein [(3, [0, 1, 2]), (37, [2, 3])] [0, 1, 3]) (-1) 1,
    -- 1193: del tmp13
    .del 37,
    -- 1194: r2new += einsum(ints.tmp49, (0, 1, 2, 3), tmp14, (1,), (2, 3, 0)) * -2
    .add 45 (.ein [(29, [0, 1, 2, 3]), (38, [1])] [2, 3, 0]) (-2) 1,
    -- 1195: del ints.tmp49, tmp14
    .del 29,
    .del 38,
    -- 1196: r1new = einsum(r2, (0, 1, 2), tmp0, (2, 1, 0, 3), (3,)) * 2
    .set 46 (.ein [(3, [0, 1, 2]), (41, [2, 1, 0, 3])] [3]) 2 1,
    -- 1197: del tmp0
    .del 41,
    -- 1198: r1new += einsum(r2, (0, 1, 2), tmp1, (2, 0, 1, 3), (3,)) * -1
    .add 46 (.ein [(3, [0, 1, 2]), (43, [2, 0, 1, 3])] [3]) (-1) 1,
    -- 1199: del tmp1
    .del 43,
    -- 1200: r1new += einsum(tmp3, (0, 1, 2), tmp2, (0, 2), (1,)) * -1
    .add 46 (.ein [(40, [0, 1, 2]), (44, [0, 2])] [1]) (-1) 1,
    -- 1201: del tmp3, tmp2
    .del 40,
    .del 44,
    -- 1202: r1new += einsum(r1, (0,), tmp4, (0, 1), (1,))
    .add 46 (.ein [(28, [0]), (39, [0, 1])] [1]) 1 1,
    -- 1203: del tmp4
    .del 39,
    -- 1204: r1new += einsum(f.ov, (0, 1), tmp6, (0,), (1,))
    .add 46 (.ein [(20, [0, 1]), (42, [0])] [1]) 1 1,
    -- 1205: del tmp6
    .del 42
  ]
  ret := [(chars! "r1new", 46), (chars! "r2new", 45)]

end Ebcc.Gen.RDFCCDEom
