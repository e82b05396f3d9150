import Verif.Model.GenCode
/-!
Functions of `ebcc/codegen/RCCD.py`, written by `tools/gencode.py`.  Comments give the
number and the text of the line of each statement.
-/

set_option maxRecDepth 100000

namespace Ebcc.Gen.RCCDEom

/-- codegen/RCCD.py:423-483 `hbar_matvec_ip_intermediates`. -/
def hbar_matvec_ip_intermediates : GenFun where
  args := [chars! "t2", chars! "v.ovvv", chars! "v.ovov", chars! "v.ooov", chars! "f.ov"]
  body := [
    -- 461: tmp39 = einsum(t2, (0, 1, 2, 3), v.ovvv, (1, 2, 4, 3), (0, 4))
    .set 5 (.ein [(0, [0, 1, 2, 3]), (1, [1, 2, 4, 3])] [0, 4]) 1 1,
    -- 462: tmp38 = einsum(t2, (0, 1, 2, 3), v.ovvv, (1, 3, 4, 2), (0, 4))
    .set 6 (.ein [(0, [0, 1, 2, 3]), (1, [1, 3, 4, 2])] [0, 4]) 1 1,
    -- 463: tmp32 = einsum(v.ovov, (0, 1, 2, 3), t2, (0, 2, 4, 3), (4, 1))
    .set 7 (.ein [(2, [0, 1, 2, 3]), (0, [0, 2, 4, 3])] [4, 1]) 1 1,
    -- 464: tmp30 = einsum(v.ovov, (0, 1, 2, 3), t2, (0, 2, 4, 1), (4, 3))
    .set 8 (.ein [(2, [0, 1, 2, 3]), (0, [0, 2, 4, 1])] [4, 3]) 1 1,
    -- 465: tmp29 = einsum(t2, (0, 1, 2, 3), v.ooov, (4, 1, 5, 2), (0, 4, 5, 3))
    .set 9 (.ein [(0, [0, 1, 2, 3]), (3, [4, 1, 5, 2])] [0, 4, 5, 3]) 1 1,
    -- 466: tmp28 = einsum(t2, (0, 1, 2, 3), v.ooov, (4, 0, 1, 3), (4, 2))
    .set 10 (.ein [(0, [0, 1, 2, 3]), (3, [4, 0, 1, 3])] [4, 2]) 1 1,
    -- 467: tmp27 = einsum(t2, (0, 1, 2, 3), v.ooov, (4, 1, 0, 3), (4, 2))
    .set 11 (.ein [(0, [0, 1, 2, 3]), (3, [4, 1, 0, 3])] [4, 2]) 1 1,
    -- 468: tmp26 = einsum(t2, (0, 1, 2, 3), f.ov, (4, 3), (4, 0, 1, 2))
    .set 12 (.ein [(0, [0, 1, 2, 3]), (4, [4, 3])] [4, 0, 1, 2]) 1 1,
    -- 469: tmp24 = einsum(v.ovov, (0, 1, 2, 3), t2, (4, 2, 5, 3), (4, 0, 5, 1))
    .set 13 (.ein [(2, [0, 1, 2, 3]), (0, [4, 2, 5, 3])] [4, 0, 5, 1]) 1 1,
    -- 470: tmp23 = einsum(t2, (0, 1, 2, 3), v.ovov, (4, 5, 1, 2), (0, 4, 3, 5))
    .set 14 (.ein [(0, [0, 1, 2, 3]), (2, [4, 5, 1, 2])] [0, 4, 3, 5]) 1 1,
    -- 471: tmp22 = einsum(v.ovov, (0, 1, 2, 3), t2, (4, 2, 5, 1), (4, 0, 5, 3))
    .set 15 (.ein [(2, [0, 1, 2, 3]), (0, [4, 2, 5, 1])] [4, 0, 5, 3]) 1 1,
    -- 472: tmp21 = einsum(v.ovov, (0, 1, 2, 3), t2, (4, 2, 1, 5), (4, 0, 5, 3))
    .set 16 (.ein [(2, [0, 1, 2, 3]), (0, [4, 2, 1, 5])] [4, 0, 5, 3]) 1 1,
    -- 473: tmp20 = einsum(t2, (0, 1, 2, 3), v.ooov, (4, 5, 1, 2), (0, 4, 5, 3))
    .set 17 (.ein [(0, [0, 1, 2, 3]), (3, [4, 5, 1, 2])] [0, 4, 5, 3]) 1 1,
    -- 474: tmp18 = einsum(t2, (0, 1, 2, 3), v.ooov, (4, 5, 1, 3), (0, 4, 5, 2))
    .set 18 (.ein [(0, [0, 1, 2, 3]), (3, [4, 5, 1, 3])] [0, 4, 5, 2]) 1 1,
    -- 475: tmp17 = einsum(v.ooov, (0, 1, 2, 3), t2, (4, 1, 5, 3), (4, 0, 2, 5))
    .set 19 (.ein [(3, [0, 1, 2, 3]), (0, [4, 1, 5, 3])] [4, 0, 2, 5]) 1 1,
    -- 476: tmp15 = einsum(t2, (0, 1, 2, 3), f.ov, (1, 3), (0, 2))
    .set 20 (.ein [(0, [0, 1, 2, 3]), (4, [1, 3])] [0, 2]) 1 1,
    -- 477: tmp14 = einsum(t2, (0, 1, 2, 3), f.ov, (1, 2), (0, 3))
    .set 21 (.ein [(0, [0, 1, 2, 3]), (4, [1, 2])] [0, 3]) 1 1,
    -- 478: tmp8 = einsum(v.ovov, (0, 1, 2, 3), t2, (4, 5, 1, 3), (4, 5, 0, 2))
    .set 22 (.ein [(2, [0, 1, 2, 3]), (0, [4, 5, 1, 3])] [4, 5, 0, 2]) 1 1,
    -- 479: tmp6 = einsum(t2, (0, 1, 2, 3), v.ovvv, (4, 2, 5, 3), (0, 1, 4, 5))
    .set 23 (.ein [(0, [0, 1, 2, 3]), (1, [4, 2, 5, 3])] [0, 1, 4, 5]) 1 1,
    -- 480: tmp4 = einsum(t2, (0, 1, 2, 3), v.ovov, (4, 2, 1, 3), (0, 4))
    .set 24 (.ein [(0, [0, 1, 2, 3]), (2, [4, 2, 1, 3])] [0, 4]) 1 1,
    -- 481: tmp2 = einsum(t2, (0, 1, 2, 3), v.ovov, (4, 3, 1, 2), (0, 4))
    .set 25 (.ein [(0, [0, 1, 2, 3]), (2, [4, 3, 1, 2])] [0, 4]) 1 1
  ]
  ret := [(chars! "tmp14", 21), (chars! "tmp15", 20), (chars! "tmp17", 19), (chars! "tmp18", 18), (chars! "tmp2", 25), (chars! "tmp20", 17), (chars! "tmp21", 16), (chars! "tmp22", 15), (chars! "tmp23", 14), (chars! "tmp24", 13), (chars! "tmp26", 12), (chars! "tmp27", 11), (chars! "tmp28", 10), (chars! "tmp29", 9), (chars! "tmp30", 8), (chars! "tmp32", 7), (chars! "tmp38", 6), (chars! "tmp39", 5), (chars! "tmp4", 24), (chars! "tmp6", 23), (chars! "tmp8", 22)]

/-- codegen/RCCD.py:485-592 `hbar_matvec_ip`. -/
def hbar_matvec_ip : GenFun where
  args := [chars! "v.ovov", chars! "ints.tmp24", chars! "ints.tmp22", chars! "ints.tmp23", chars! "r2", chars! "ints.tmp21", chars! "v.oovv", chars! "f.vv", chars! "ints.tmp30", chars! "ints.tmp32", chars! "f.ov", chars! "ints.tmp15", chars! "ints.tmp27", chars! "ints.tmp38", chars! "ints.tmp14", chars! "ints.tmp28", chars! "ints.tmp39", chars! "f.oo", chars! "ints.tmp4", chars! "ints.tmp2", chars! "ints.tmp18", chars! "ints.tmp26", chars! "ints.tmp6", chars! "v.ovoo", chars! "ints.tmp17", chars! "ints.tmp20", chars! "ints.tmp29", chars! "v.ooov", chars! "v.oooo", chars! "ints.tmp8", chars! "t2", chars! "r1"]
  body := [
    -- 511: tmp7 = np.copy(np.transpose(v.ovov, (0, 2, 3, 1)))
    .set 32 (.tr 0 [0, 2, 3, 1]) 1 1,
    -- 512: tmp7 += np.transpose(v.ovov, (0, 2, 1, 3)) * -0.5
    .add 32 (.tr 0 [0, 2, 1, 3]) (-1) 2,
    -- 513: tmp4 = np.copy(ints.tmp24) * 2
    .set 33 (.cp 1) 2 1,
    -- 514: del ints.tmp24
    .del 1,
    -- 515: tmp4 += np.transpose(v.ovov, (0, 2, 1, 3))
    .add 33 (.tr 0 [0, 2, 1, 3]) 1 1,
    -- 516: tmp4 += ints.tmp22 * -1
    .add 33 (.cp 2) (-1) 1,
    -- 517: del ints.tmp22
    .del 2,
    -- 518: tmp4 += ints.tmp23 * -1
    .add 33 (.cp 3) (-1) 1,
    -- 519: del ints.tmp23
    .del 3,
    -- 520: tmp3 = np.copy(r2) * -0.5
    .set 34 (.cp 4) (-1) 2,
    -- 521: tmp3 += np.transpose(r2, (1, 0, 2))
    .add 34 (.tr 4 [1, 0, 2]) 1 1,
    -- 522: tmp5 = np.copy(ints.tmp21)
    .set 35 (.cp 5) 1 1,
    -- 523: del ints.tmp21
    .del 5,
    -- 524: tmp5 += v.oovv * -1
    .add 35 (.cp 6) (-1) 1,
    -- 525: tmp8 = einsum(tmp7, (0, 1, 2, 3), r2, (0, 1, 3), (2,))
    .set 36 (.ein [(32, [0, 1, 2, 3]), (4, [0, 1, 3])] [2]) 1 1,
    -- 526: del tmp7
    .del 32,
    -- 527: tmp6 = np.copy(f.vv)
    .set 37 (.cp 7) 1 1,
    -- 528: tmp6 += np.transpose(ints.tmp30, (1, 0))
    .add 37 (.tr 8 [1, 0]) 1 1,
    -- 529: del ints.tmp30
    .del 8,
    -- 530: tmp6 += np.transpose(ints.tmp32, (1, 0)) * -2
    .add 37 (.tr 9 [1, 0]) (-2) 1,
    -- 531: del ints.tmp32
    .del 9,
    -- 532: tmp10 = np.copy(f.ov)
    .set 38 (.cp 10) 1 1,
    -- 533: tmp10 += ints.tmp15 * 2
    .add 38 (.cp 11) 2 1,
    -- 534: del ints.tmp15
    .del 11,
    -- 535: tmp10 += ints.tmp27
    .add 38 (.cp 12) 1 1,
    -- 536: del ints.tmp27
    .del 12,
    -- 537: tmp10 += ints.tmp38 * 2
    .add 38 (.cp 13) 2 1,
    -- 538: del ints.tmp38
    .del 13,
    -- 539: tmp10 += ints.tmp14 * -1
    .add 38 (.cp 14) (-1) 1,
    -- 540: del ints.tmp14
    .del 14,
    -- 541: tmp10 += ints.tmp28 * -2
    .add 38 (.cp 15) (-2) 1,
    -- 542: del ints.tmp28
    .del 15,
    -- 543: tmp10 += ints.tmp39 * -1
    .add 38 (.cp 16) (-1) 1,
    -- 544: del ints.tmp39
    .del 16,
    -- 545: tmp2 = np.copy(f.oo)
    .set 39 (.cp 17) 1 1,
    -- 546: tmp2 += np.transpose(ints.tmp4, (1, 0)) * 2
    .add 39 (.tr 18 [1, 0]) 2 1,
    -- 547: del ints.tmp4
    .del 18,
    -- 548: tmp2 += np.transpose(ints.tmp2, (1, 0)) * -1
    .add 39 (.tr 19 [1, 0]) (-1) 1,
    -- 549: del ints.tmp2
    .del 19,
    -- 550: tmp9 = np.copy(ints.tmp18) * 2
    .set 40 (.cp 20) 2 1,
    -- 551: del ints.tmp18
    .del 20,
    -- 552: tmp9 += np.transpose(ints.tmp26, (1, 2, 0, 3))
    .add 40 (.tr 21 [1, 2, 0, 3]) 1 1,
    -- 553: del ints.tmp26
    .del 21,
    -- 554: tmp9 += np.transpose(ints.tmp6, (1, 0, 2, 3))
    .add 40 (.tr 22 [1, 0, 2, 3]) 1 1,
    -- 555: del ints.tmp6
    .del 22,
    -- 556: tmp9 += np.transpose(v.ovoo, (0, 2, 3, 1))
    .add 40 (.tr 23 [0, 2, 3, 1]) 1 1,
    -- 557: tmp9 += ints.tmp17 * -1
    .add 40 (.cp 24) (-1) 1,
    -- 558: del ints.tmp17
    .del 24,
    -- 559: tmp9 += ints.tmp20 * -1
    .add 40 (.cp 25) (-1) 1,
    -- 560: del ints.tmp20
    .del 25,
    -- 561: tmp9 += np.transpose(ints.tmp29, (1, 0, 2, 3)) * -1
    .add 40 (.tr 26 [1, 0, 2, 3]) (-1) 1,
    -- 562: del ints.tmp29
    .del 26,
    -- 563: tmp1 = np.copy(r2) * -1
    .set 41 (.cp 4) (-1) 1,
    -- 564: tmp1 += np.transpose(r2, (1, 0, 2)) * 2
    .add 41 (.tr 4 [1, 0, 2]) 2 1,
    -- 565: tmp0 = np.copy(v.ooov)
    .set 42 (.cp 27) 1 1,
    -- 566: tmp0 += np.transpose(v.ovoo, (0, 2, 3, 1)) * -0.5
    .add 42 (.tr 23 [0, 2, 3, 1]) (-1) 2,
    -- 567: r2new = einsum(v.oooo, (0, 1, 2, 3), r2, (1, 3, 4), (0, 2, 4))
    .set 43 (.ein [(28, [0, 1, 2, 3]), (4, [1, 3, 4])] [0, 2, 4]) 1 1,
    -- 568: r2new += einsum(r2, (0, 1, 2), ints.tmp8, (3, 4, 1, 0), (4, 3, 2))
    .add 43 (.ein [(4, [0, 1, 2]), (29, [3, 4, 1, 0])] [4, 3, 2]) 1 1,
    -- 569: del ints.tmp8
    .del 29,
    -- 570: r2new += einsum(tmp3, (0, 1, 2), tmp4, (3, 1, 4, 2), (3, 0, 4)) * 2
    .add 43 (.ein [(34, [0, 1, 2]), (33, [3, 1, 4, 2])] [3, 0, 4]) 2 1,
    -- 571: del tmp3, tmp4
    .del 34,
    .del 33,
    -- 572: r2new += einsum(tmp5, (0, 1, 2, 3), r2, (4, 1, 3), (4, 0, 2))
    .add 43 (.ein [(35, [0, 1, 2, 3]), (4, [4, 1, 3])] [4, 0, 2]) 1 1,
    -- 573: r2new += einsum(tmp5, (0, 1, 2, 3), r2, (1, 4, 3), (0, 4, 2))
    .add 43 (.ein [(35, [0, 1, 2, 3]), (4, [1, 4, 3])] [0, 4, 2]) 1 1,
    -- 574: del tmp5
    .del 35,
    -- 575: r2new += einsum(tmp6, (0, 1), r2, (2, 3, 0), (2, 3, 1))
    .add 43 (.ein [(37, [0, 1]), (4, [2, 3, 0])] [2, 3, 1]) 1 1,
    -- 576: del tmp6
    .del 37,
    -- 577: r2new += einsum(tmp8, (0,), t2, (1, 2, 3, 0), (1, 2, 3)) * -2
    .add 43 (.ein [(36, [0]), (30, [1, 2, 3, 0])] [1, 2, 3]) (-2) 1,
    -- 578: del tmp8
    .del 36,
    -- 579: r2new += einsum(r1, (0,), tmp9, (1, 2, 0, 3), (1, 2, 3))
    .add 43 (.ein [(31, [0]), (40, [1, 2, 0, 3])] [1, 2, 3]) 1 1,
    -- 580: del tmp9
    .del 40,
    -- 581: r2new += einsum(r2, (0, 1, 2), tmp2, (0, 3), (3, 1, 2)) * -1
    .add 43 (.ein [(4, [0, 1, 2]), (39, [0, 3])] [3, 1, 2]) (-1) 1,
    -- 582: r2new += einsum(tmp2, (0, 1), r2, (2, 0, 3), (2, 1, 3)) * -1
    .add 43 (.ein [(39, [0, 1]), (4, [2, 0, 3])] [2, 1, 3]) (-1) 1,
    -- 583: r2new += einsum(r1, (0,), tmp10, (1, 2), (1, 0, 2)) * -1
    .add 43 (.ein [(31, [0]), (38, [1, 2])] [1, 0, 2]) (-1) 1,
    -- 584: del tmp10
    .del 38,
    -- 585: r1new = einsum(tmp0, (0, 1, 2, 3), r2, (2, 0, 3), (1,)) * 2
    .set 44 (.ein [(42, [0, 1, 2, 3]), (4, [2, 0, 3])] [1]) 2 1,
    -- 586: del tmp0
    .del 42,
    -- 587: r1new += einsum(tmp1, (0, 1, 2), f.ov, (1, 2), (0,)) * -1
    .add 44 (.ein [(41, [0, 1, 2]), (10, [1, 2])] [0]) (-1) 1,
    -- 588: del tmp1
    .del 41,
    -- 589: r1new += einsum(tmp2, (0, 1), r1, (0,), (1,)) * -1
    .add 44 (.ein [(39, [0, 1]), (31, [0])] [1]) (-1) 1,
    -- 590: del tmp2
    .del 39
  ]
  ret := [(chars! "r1new", 44), (chars! "r2new", 43)]

/-- codegen/RCCD.py:761-821 `hbar_lmatvec_ip_intermediates`. -/
def hbar_lmatvec_ip_intermediates : GenFun where
  args := [chars! "v.ovov", chars! "t2", chars! "v.ovvv", chars! "v.ooov", chars! "f.ov"]
  body := [
    -- 799: tmp53 = einsum(v.ovov, (0, 1, 2, 3), t2, (0, 2, 4, 3), (4, 1))
    .set 5 (.ein [(0, [0, 1, 2, 3]), (1, [0, 2, 4, 3])] [4, 1]) 1 1,
    -- 800: tmp51 = einsum(v.ovov, (0, 1, 2, 3), t2, (0, 2, 3, 4), (4, 1))
    .set 6 (.ein [(0, [0, 1, 2, 3]), (1, [0, 2, 3, 4])] [4, 1]) 1 1,
    -- 801: tmp49 = einsum(v.ovov, (0, 1, 2, 3), t2, (4, 5, 1, 3), (4, 5, 0, 2))
    .set 7 (.ein [(0, [0, 1, 2, 3]), (1, [4, 5, 1, 3])] [4, 5, 0, 2]) 1 1,
    -- 802: tmp37 = einsum(v.ovov, (0, 1, 2, 3), t2, (4, 2, 5, 3), (4, 0, 5, 1))
    .set 8 (.ein [(0, [0, 1, 2, 3]), (1, [4, 2, 5, 3])] [4, 0, 5, 1]) 1 1,
    -- 803: tmp36 = einsum(t2, (0, 1, 2, 3), v.ovov, (4, 5, 1, 2), (0, 4, 3, 5))
    .set 9 (.ein [(1, [0, 1, 2, 3]), (0, [4, 5, 1, 2])] [0, 4, 3, 5]) 1 1,
    -- 804: tmp34 = einsum(v.ovov, (0, 1, 2, 3), t2, (4, 2, 5, 1), (4, 0, 5, 3))
    .set 10 (.ein [(0, [0, 1, 2, 3]), (1, [4, 2, 5, 1])] [4, 0, 5, 3]) 1 1,
    -- 805: tmp33 = einsum(v.ovov, (0, 1, 2, 3), t2, (4, 2, 1, 5), (4, 0, 5, 3))
    .set 11 (.ein [(0, [0, 1, 2, 3]), (1, [4, 2, 1, 5])] [4, 0, 5, 3]) 1 1,
    -- 806: tmp30 = einsum(t2, (0, 1, 2, 3), v.ovvv, (4, 2, 5, 3), (0, 1, 4, 5))
    .set 12 (.ein [(1, [0, 1, 2, 3]), (2, [4, 2, 5, 3])] [0, 1, 4, 5]) 1 1,
    -- 807: tmp27 = einsum(t2, (0, 1, 2, 3), v.ovvv, (1, 2, 4, 3), (0, 4))
    .set 13 (.ein [(1, [0, 1, 2, 3]), (2, [1, 2, 4, 3])] [0, 4]) 1 1,
    -- 808: tmp24 = einsum(v.ovvv, (0, 1, 2, 3), t2, (4, 0, 3, 1), (4, 2))
    .set 14 (.ein [(2, [0, 1, 2, 3]), (1, [4, 0, 3, 1])] [4, 2]) 1 1,
    -- 809: tmp22 = einsum(t2, (0, 1, 2, 3), v.ooov, (4, 5, 1, 3), (0, 4, 5, 2))
    .set 15 (.ein [(1, [0, 1, 2, 3]), (3, [4, 5, 1, 3])] [0, 4, 5, 2]) 1 1,
    -- 810: tmp21 = einsum(t2, (0, 1, 2, 3), v.ooov, (4, 5, 1, 2), (0, 4, 5, 3))
    .set 16 (.ein [(1, [0, 1, 2, 3]), (3, [4, 5, 1, 2])] [0, 4, 5, 3]) 1 1,
    -- 811: tmp19 = einsum(t2, (0, 1, 2, 3), v.ooov, (4, 1, 5, 3), (0, 4, 5, 2))
    .set 17 (.ein [(1, [0, 1, 2, 3]), (3, [4, 1, 5, 3])] [0, 4, 5, 2]) 1 1,
    -- 812: tmp18 = einsum(t2, (0, 1, 2, 3), v.ooov, (4, 1, 5, 2), (0, 4, 5, 3))
    .set 18 (.ein [(1, [0, 1, 2, 3]), (3, [4, 1, 5, 2])] [0, 4, 5, 3]) 1 1,
    -- 813: tmp15 = einsum(t2, (0, 1, 2, 3), v.ooov, (4, 0, 1, 3), (4, 2))
    .set 19 (.ein [(1, [0, 1, 2, 3]), (3, [4, 0, 1, 3])] [4, 2]) 1 1,
    -- 814: tmp12 = einsum(t2, (0, 1, 2, 3), v.ooov, (4, 0, 1, 2), (4, 3))
    .set 20 (.ein [(1, [0, 1, 2, 3]), (3, [4, 0, 1, 2])] [4, 3]) 1 1,
    -- 815: tmp10 = einsum(t2, (0, 1, 2, 3), v.ovov, (4, 2, 1, 3), (0, 4))
    .set 21 (.ein [(1, [0, 1, 2, 3]), (0, [4, 2, 1, 3])] [0, 4]) 1 1,
    -- 816: tmp8 = einsum(v.ovov, (0, 1, 2, 3), t2, (4, 2, 3, 1), (4, 0))
    .set 22 (.ein [(0, [0, 1, 2, 3]), (1, [4, 2, 3, 1])] [4, 0]) 1 1,
    -- 817: tmp3 = einsum(t2, (0, 1, 2, 3), f.ov, (4, 3), (4, 0, 1, 2))
    .set 23 (.ein [(1, [0, 1, 2, 3]), (4, [4, 3])] [4, 0, 1, 2]) 1 1,
    -- 818: tmp1 = einsum(t2, (0, 1, 2, 3), f.ov, (1, 3), (0, 2))
    .set 24 (.ein [(1, [0, 1, 2, 3]), (4, [1, 3])] [0, 2]) 1 1,
    -- 819: tmp0 = einsum(t2, (0, 1, 2, 3), f.ov, (1, 2), (0, 3))
    .set 25 (.ein [(1, [0, 1, 2, 3]), (4, [1, 2])] [0, 3]) 1 1
  ]
  ret := [(chars! "tmp0", 25), (chars! "tmp1", 24), (chars! "tmp10", 21), (chars! "tmp12", 20), (chars! "tmp15", 19), (chars! "tmp18", 18), (chars! "tmp19", 17), (chars! "tmp21", 16), (chars! "tmp22", 15), (chars! "tmp24", 14), (chars! "tmp27", 13), (chars! "tmp3", 23), (chars! "tmp30", 12), (chars! "tmp33", 11), (chars! "tmp34", 10), (chars! "tmp36", 9), (chars! "tmp37", 8), (chars! "tmp49", 7), (chars! "tmp51", 6), (chars! "tmp53", 5), (chars! "tmp8", 22)]

/-- codegen/RCCD.py:823-935 `hbar_lmatvec_ip`. -/
def hbar_lmatvec_ip : GenFun where
  args := [chars! "t2", chars! "f.oo", chars! "ints.tmp10", chars! "ints.tmp8", chars! "r2", chars! "ints.tmp33", chars! "v.oovv", chars! "f.vv", chars! "ints.tmp51", chars! "ints.tmp53", chars! "ints.tmp37", chars! "v.ovov", chars! "ints.tmp34", chars! "ints.tmp36", chars! "ints.tmp18", chars! "ints.tmp22", chars! "ints.tmp3", chars! "ints.tmp19", chars! "ints.tmp21", chars! "ints.tmp30", chars! "f.ov", chars! "ints.tmp12", chars! "ints.tmp1", chars! "ints.tmp24", chars! "ints.tmp0", chars! "ints.tmp15", chars! "ints.tmp27", chars! "v.ooov", chars! "v.ovoo", chars! "r1", chars! "v.oooo", chars! "ints.tmp49"]
  body := [
    -- 849: tmp9 = np.copy(np.transpose(t2, (0, 1, 3, 2)))
    .set 32 (.tr 0 [0, 1, 3, 2]) 1 1,
    -- 850: tmp9 += t2 * -0.5
    .add 32 (.cp 0) (-1) 2,
    -- 851: tmp4 = np.copy(f.oo)
    .set 33 (.cp 1) 1 1,
    -- 852: tmp4 += ints.tmp10 * 2
    .add 33 (.cp 2) 2 1,
    -- 853: del ints.tmp10
    .del 2,
    -- 854: tmp4 += ints.tmp8 * -1
    .add 33 (.cp 3) (-1) 1,
    -- 855: del ints.tmp8
    .del 3,
    -- 856: tmp5 = np.copy(r2) * -0.5
    .set 34 (.cp 4) (-1) 2,
    -- 857: tmp5 += np.transpose(r2, (1, 0, 2))
    .add 34 (.tr 4 [1, 0, 2]) 1 1,
    -- 858: tmp7 = np.copy(ints.tmp33)
    .set 35 (.cp 5) 1 1,
    -- 859: del ints.tmp33
    .del 5,
    -- 860: tmp7 += v.oovv * -1
    .add 35 (.cp 6) (-1) 1,
    -- 861: tmp10 = einsum(tmp9, (0, 1, 2, 3), r2, (0, 1, 3), (2,))
    .set 36 (.ein [(32, [0, 1, 2, 3]), (4, [0, 1, 3])] [2]) 1 1,
    -- 862: del tmp9
    .del 32,
    -- 863: tmp8 = np.copy(f.vv)
    .set 37 (.cp 7) 1 1,
    -- 864: tmp8 += ints.tmp51
    .add 37 (.cp 8) 1 1,
    -- 865: del ints.tmp51
    .del 8,
    -- 866: tmp8 += ints.tmp53 * -2
    .add 37 (.cp 9) (-2) 1,
    -- 867: del ints.tmp53
    .del 9,
    -- 868: tmp6 = np.copy(ints.tmp37) * 2
    .set 38 (.cp 10) 2 1,
    -- 869: del ints.tmp37
    .del 10,
    -- 870: tmp6 += np.transpose(v.ovov, (0, 2, 1, 3))
    .add 38 (.tr 11 [0, 2, 1, 3]) 1 1,
    -- 871: tmp6 += ints.tmp34 * -1
    .add 38 (.cp 12) (-1) 1,
    -- 872: del ints.tmp34
    .del 12,
    -- 873: tmp6 += ints.tmp36 * -1
    .add 38 (.cp 13) (-1) 1,
    -- 874: del ints.tmp36
    .del 13,
    -- 875: tmp3 = np.copy(r2) * -1
    .set 39 (.cp 4) (-1) 1,
    -- 876: tmp3 += np.transpose(r2, (1, 0, 2)) * 2
    .add 39 (.tr 4 [1, 0, 2]) 2 1,
    -- 877: tmp1 = np.copy(ints.tmp18)
    .set 40 (.cp 14) 1 1,
    -- 878: tmp1 += np.transpose(ints.tmp22, (0, 2, 1, 3))
    .add 40 (.tr 15 [0, 2, 1, 3]) 1 1,
    -- 879: tmp1 += np.transpose(ints.tmp3, (1, 2, 0, 3)) * 0.5
    .add 40 (.tr 16 [1, 2, 0, 3]) 1 2,
    -- 880: tmp1 += ints.tmp19 * -0.5
    .add 40 (.cp 17) (-1) 2,
    -- 881: tmp1 += np.transpose(ints.tmp21, (0, 2, 1, 3)) * -0.5
    .add 40 (.tr 18 [0, 2, 1, 3]) (-1) 2,
    -- 882: tmp1 += ints.tmp30 * -1
    .add 40 (.cp 19) (-1) 1,
    -- 883: tmp2 = np.copy(f.ov) * 0.5
    .set 41 (.cp 20) 1 2,
    -- 884: tmp2 += ints.tmp12 * 0.5
    .add 41 (.cp 21) 1 2,
    -- 885: del ints.tmp12
    .del 21,
    -- 886: tmp2 += ints.tmp1
    .add 41 (.cp 22) 1 1,
    -- 887: del ints.tmp1
    .del 22,
    -- 888: tmp2 += ints.tmp24
    .add 41 (.cp 23) 1 1,
    -- 889: del ints.tmp24
    .del 23,
    -- 890: tmp2 += ints.tmp0 * -0.5
    .add 41 (.cp 24) (-1) 2,
    -- 891: del ints.tmp0
    .del 24,
    -- 892: tmp2 += ints.tmp15 * -1
    .add 41 (.cp 25) (-1) 1,
    -- 893: del ints.tmp15
    .del 25,
    -- 894: tmp2 += ints.tmp27 * -0.5
    .add 41 (.cp 26) (-1) 2,
    -- 895: del ints.tmp27
    .del 26,
    -- 896: tmp0 = np.copy(ints.tmp18)
    .set 42 (.cp 14) 1 1,
    -- 897: del ints.tmp18
    .del 14,
    -- 898: tmp0 += np.transpose(ints.tmp22, (0, 2, 1, 3)) * 4
    .add 42 (.tr 15 [0, 2, 1, 3]) 4 1,
    -- 899: del ints.tmp22
    .del 15,
    -- 900: tmp0 += np.transpose(ints.tmp3, (1, 2, 0, 3)) * 2
    .add 42 (.tr 16 [1, 2, 0, 3]) 2 1,
    -- 901: del ints.tmp3
    .del 16,
    -- 902: tmp0 += ints.tmp19 * -2
    .add 42 (.cp 17) (-2) 1,
    -- 903: del ints.tmp19
    .del 17,
    -- 904: tmp0 += np.transpose(ints.tmp21, (0, 2, 1, 3)) * -2
    .add 42 (.tr 18 [0, 2, 1, 3]) (-2) 1,
    -- 905: del ints.tmp21
    .del 18,
    -- 906: tmp0 += ints.tmp30 * -1
    .add 42 (.cp 19) (-1) 1,
    -- 907: del ints.tmp30
    .del 19,
    -- 908: tmp0 += np.transpose(v.ooov, (0, 2, 1, 3)) * -1
    .add 42 (.tr 27 [0, 2, 1, 3]) (-1) 1,
    -- 909: tmp0 += np.transpose(v.ovoo, (0, 2, 3, 1)) * 2
    .add 42 (.tr 28 [0, 2, 3, 1]) 2 1,
    -- 910: r2new = einsum(r1, (0,), v.ovoo, (1, 2, 3, 0), (1, 3, 2))
    .set 43 (.ein [(29, [0]), (28, [1, 2, 3, 0])] [1, 3, 2]) 1 1,
    -- 911: r2new += einsum(v.oooo, (0, 1, 2, 3), r2, (1, 3, 4), (0, 2, 4))
    .add 43 (.ein [(30, [0, 1, 2, 3]), (4, [1, 3, 4])] [0, 2, 4]) 1 1,
    -- 912: r2new += einsum(r2, (0, 1, 2), ints.tmp49, (1, 0, 3, 4), (4, 3, 2))
    .add 43 (.ein [(4, [0, 1, 2]), (31, [1, 0, 3, 4])] [4, 3, 2]) 1 1,
    -- 913: del ints.tmp49
    .del 31,
    -- 914: r2new += einsum(f.ov, (0, 1), r1, (2,), (0, 2, 1)) * -1
    .add 43 (.ein [(20, [0, 1]), (29, [2])] [0, 2, 1]) (-1) 1,
    -- 915: r2new += einsum(tmp6, (0, 1, 2, 3), tmp5, (4, 0, 2), (1, 4, 3)) * 2
    .add 43 (.ein [(38, [0, 1, 2, 3]), (34, [4, 0, 2])] [1, 4, 3]) 2 1,
    -- 916: del tmp6, tmp5
    .del 38,
    .del 34,
    -- 917: r2new += einsum(r2, (0, 1, 2), tmp7, (1, 3, 2, 4), (0, 3, 4))
    .add 43 (.ein [(4, [0, 1, 2]), (35, [1, 3, 2, 4])] [0, 3, 4]) 1 1,
    -- 918: r2new += einsum(r2, (0, 1, 2), tmp7, (0, 3, 2, 4), (3, 1, 4))
    .add 43 (.ein [(4, [0, 1, 2]), (35, [0, 3, 2, 4])] [3, 1, 4]) 1 1,
    -- 919: del tmp7
    .del 35,
    -- 920: r2new += einsum(tmp8, (0, 1), r2, (2, 3, 0), (2, 3, 1))
    .add 43 (.ein [(37, [0, 1]), (4, [2, 3, 0])] [2, 3, 1]) 1 1,
    -- 921: del tmp8
    .del 37,
    -- 922: r2new += einsum(v.ovov, (0, 1, 2, 3), tmp10, (3,), (0, 2, 1)) * -2
    .add 43 (.ein [(11, [0, 1, 2, 3]), (36, [3])] [0, 2, 1]) (-2) 1,
    -- 923: del tmp10
    .del 36,
    -- 924: r2new += einsum(tmp4, (0, 1), r2, (0, 2, 3), (1, 2, 3)) * -1
    .add 43 (.ein [(33, [0, 1]), (4, [0, 2, 3])] [1, 2, 3]) (-1) 1,
    -- 925: r2new += einsum(tmp4, (0, 1), r2, (2, 0, 3), (2, 1, 3)) * -1
    .add 43 (.ein [(33, [0, 1]), (4, [2, 0, 3])] [2, 1, 3]) (-1) 1,
    -- 926: r1new = einsum(r2, (0, 1, 2), tmp0, (0, 1, 3, 2), (3,))
    .set 44 (.ein [(4, [0, 1, 2]), (42, [0, 1, 3, 2])] [3]) 1 1,
    -- 927: del tmp0
    .del 42,
    -- 928: r1new += einsum(r2, (0, 1, 2), tmp1, (1, 0, 3, 2), (3,)) * -2
    .add 44 (.ein [(4, [0, 1, 2]), (40, [1, 0, 3, 2])] [3]) (-2) 1,
    -- 929: del tmp1
    .del 40,
    -- 930: r1new += einsum(tmp2, (0, 1), tmp3, (2, 0, 1), (2,)) * -2
    .add 44 (.ein [(41, [0, 1]), (39, [2, 0, 1])] [2]) (-2) 1,
    -- 931: del tmp2, tmp3
    .del 41,
    .del 39,
    -- 932: r1new += einsum(r1, (0,), tmp4, (0, 1), (1,)) * -1
    .add 44 (.ein [(29, [0]), (33, [0, 1])] [1]) (-1) 1,
    -- 933: del tmp4
    .del 33
  ]
  ret := [(chars! "r1new", 44), (chars! "r2new", 43)]

/-- codegen/RCCD.py:594-650 `hbar_matvec_ea_intermediates`. -/
def hbar_matvec_ea_intermediates : GenFun where
  args := [chars! "t2", chars! "v.ooov", chars! "v.ovov", chars! "v.ovvv", chars! "f.ov"]
  body := [
    -- 630: tmp38 = einsum(t2, (0, 1, 2, 3), v.ooov, (4, 1, 0, 2), (4, 3))
    .set 5 (.ein [(0, [0, 1, 2, 3]), (1, [4, 1, 0, 2])] [4, 3]) 1 1,
    -- 631: tmp37 = einsum(t2, (0, 1, 2, 3), v.ooov, (4, 0, 1, 2), (4, 3))
    .set 6 (.ein [(0, [0, 1, 2, 3]), (1, [4, 0, 1, 2])] [4, 3]) 1 1,
    -- 632: tmp35 = einsum(v.ovov, (0, 1, 2, 3), t2, (4, 2, 5, 3), (4, 0, 5, 1))
    .set 7 (.ein [(2, [0, 1, 2, 3]), (0, [4, 2, 5, 3])] [4, 0, 5, 1]) 1 1,
    -- 633: tmp34 = einsum(t2, (0, 1, 2, 3), v.ovov, (4, 5, 1, 2), (0, 4, 3, 5))
    .set 8 (.ein [(0, [0, 1, 2, 3]), (2, [4, 5, 1, 2])] [0, 4, 3, 5]) 1 1,
    -- 634: tmp33 = einsum(v.ovov, (0, 1, 2, 3), t2, (4, 2, 5, 1), (4, 0, 5, 3))
    .set 9 (.ein [(2, [0, 1, 2, 3]), (0, [4, 2, 5, 1])] [4, 0, 5, 3]) 1 1,
    -- 635: tmp30 = einsum(v.ovvv, (0, 1, 2, 3), t2, (4, 0, 1, 5), (4, 5, 2, 3))
    .set 10 (.ein [(3, [0, 1, 2, 3]), (0, [4, 0, 1, 5])] [4, 5, 2, 3]) 1 1,
    -- 636: tmp29 = einsum(v.ovvv, (0, 1, 2, 3), t2, (4, 0, 5, 3), (4, 5, 1, 2))
    .set 11 (.ein [(3, [0, 1, 2, 3]), (0, [4, 0, 5, 3])] [4, 5, 1, 2]) 1 1,
    -- 637: tmp28 = einsum(v.ovvv, (0, 1, 2, 3), t2, (4, 0, 5, 1), (4, 5, 2, 3))
    .set 12 (.ein [(3, [0, 1, 2, 3]), (0, [4, 0, 5, 1])] [4, 5, 2, 3]) 1 1,
    -- 638: tmp27 = einsum(t2, (0, 1, 2, 3), f.ov, (1, 3), (0, 2))
    .set 13 (.ein [(0, [0, 1, 2, 3]), (4, [1, 3])] [0, 2]) 1 1,
    -- 639: tmp26 = einsum(t2, (0, 1, 2, 3), f.ov, (1, 2), (0, 3))
    .set 14 (.ein [(0, [0, 1, 2, 3]), (4, [1, 2])] [0, 3]) 1 1,
    -- 640: tmp24 = einsum(v.ovov, (0, 1, 2, 3), t2, (4, 2, 1, 3), (4, 0))
    .set 15 (.ein [(2, [0, 1, 2, 3]), (0, [4, 2, 1, 3])] [4, 0]) 1 1,
    -- 641: tmp22 = einsum(v.ovov, (0, 1, 2, 3), t2, (4, 2, 3, 1), (4, 0))
    .set 16 (.ein [(2, [0, 1, 2, 3]), (0, [4, 2, 3, 1])] [4, 0]) 1 1,
    -- 642: tmp21 = einsum(t2, (0, 1, 2, 3), v.ovvv, (1, 2, 4, 3), (0, 4))
    .set 17 (.ein [(0, [0, 1, 2, 3]), (3, [1, 2, 4, 3])] [0, 4]) 1 1,
    -- 643: tmp20 = einsum(t2, (0, 1, 2, 3), v.ovvv, (1, 3, 4, 2), (0, 4))
    .set 18 (.ein [(0, [0, 1, 2, 3]), (3, [1, 3, 4, 2])] [0, 4]) 1 1,
    -- 644: tmp11 = einsum(t2, (0, 1, 2, 3), v.ooov, (4, 1, 0, 5), (4, 3, 2, 5))
    .set 19 (.ein [(0, [0, 1, 2, 3]), (1, [4, 1, 0, 5])] [4, 3, 2, 5]) 1 1,
    -- 645: tmp9 = einsum(v.ovov, (0, 1, 2, 3), t2, (4, 2, 1, 5), (4, 0, 5, 3))
    .set 20 (.ein [(2, [0, 1, 2, 3]), (0, [4, 2, 1, 5])] [4, 0, 5, 3]) 1 1,
    -- 646: tmp6 = einsum(v.ovvv, (0, 1, 2, 3), t2, (4, 0, 3, 5), (4, 5, 1, 2))
    .set 21 (.ein [(3, [0, 1, 2, 3]), (0, [4, 0, 3, 5])] [4, 5, 1, 2]) 1 1,
    -- 647: tmp4 = einsum(v.ovov, (0, 1, 2, 3), t2, (0, 2, 4, 3), (4, 1))
    .set 22 (.ein [(2, [0, 1, 2, 3]), (0, [0, 2, 4, 3])] [4, 1]) 1 1,
    -- 648: tmp2 = einsum(v.ovov, (0, 1, 2, 3), t2, (0, 2, 4, 1), (4, 3))
    .set 23 (.ein [(2, [0, 1, 2, 3]), (0, [0, 2, 4, 1])] [4, 3]) 1 1
  ]
  ret := [(chars! "tmp11", 19), (chars! "tmp2", 23), (chars! "tmp20", 18), (chars! "tmp21", 17), (chars! "tmp22", 16), (chars! "tmp24", 15), (chars! "tmp26", 14), (chars! "tmp27", 13), (chars! "tmp28", 12), (chars! "tmp29", 11), (chars! "tmp30", 10), (chars! "tmp33", 9), (chars! "tmp34", 8), (chars! "tmp35", 7), (chars! "tmp37", 6), (chars! "tmp38", 5), (chars! "tmp4", 22), (chars! "tmp6", 21), (chars! "tmp9", 20)]

/-- codegen/RCCD.py:652-759 `hbar_matvec_ea`. -/
def hbar_matvec_ea : GenFun where
  args := [chars! "v.ovov", chars! "f.ov", chars! "ints.tmp20", chars! "ints.tmp27", chars! "ints.tmp37", chars! "ints.tmp21", chars! "ints.tmp26", chars! "ints.tmp38", chars! "r2", chars! "ints.tmp35", chars! "ints.tmp33", chars! "ints.tmp34", chars! "ints.tmp11", chars! "ints.tmp28", chars! "v.ovvv", chars! "ints.tmp29", chars! "ints.tmp30", chars! "ints.tmp6", chars! "ints.tmp9", chars! "v.oovv", chars! "f.oo", chars! "ints.tmp24", chars! "ints.tmp22", chars! "f.vv", chars! "ints.tmp2", chars! "ints.tmp4", chars! "r1", chars! "v.vvvv", chars! "t2"]
  body := [
    -- 678: tmp8 = np.copy(np.transpose(v.ovov, (0, 2, 3, 1))) * -1
    .set 29 (.tr 0 [0, 2, 3, 1]) (-1) 1,
    -- 679: tmp8 += np.transpose(v.ovov, (0, 2, 1, 3)) * 2
    .add 29 (.tr 0 [0, 2, 1, 3]) 2 1,
    -- 680: tmp11 = np.copy(f.ov)
    .set 30 (.cp 1) 1 1,
    -- 681: tmp11 += ints.tmp20 * 2
    .add 30 (.cp 2) 2 1,
    -- 682: del ints.tmp20
    .del 2,
    -- 683: tmp11 += ints.tmp27 * 2
    .add 30 (.cp 3) 2 1,
    -- 684: del ints.tmp27
    .del 3,
    -- 685: tmp11 += ints.tmp37
    .add 30 (.cp 4) 1 1,
    -- 686: del ints.tmp37
    .del 4,
    -- 687: tmp11 += ints.tmp21 * -1
    .add 30 (.cp 5) (-1) 1,
    -- 688: del ints.tmp21
    .del 5,
    -- 689: tmp11 += ints.tmp26 * -1
    .add 30 (.cp 6) (-1) 1,
    -- 690: del ints.tmp26
    .del 6,
    -- 691: tmp11 += ints.tmp38 * -2
    .add 30 (.cp 7) (-2) 1,
    -- 692: del ints.tmp38
    .del 7,
    -- 693: tmp4 = np.copy(np.transpose(r2, (2, 0, 1)))
    .set 31 (.tr 8 [2, 0, 1]) 1 1,
    -- 694: tmp4 += np.transpose(r2, (2, 1, 0)) * -0.5
    .add 31 (.tr 8 [2, 1, 0]) (-1) 2,
    -- 695: tmp3 = einsum(v.ovov, (0, 1, 2, 3), r2, (1, 3, 4), (4, 0, 2))
    .set 32 (.ein [(0, [0, 1, 2, 3]), (8, [1, 3, 4])] [4, 0, 2]) 1 1,
    -- 696: tmp5 = np.copy(ints.tmp35) * 2
    .set 33 (.cp 9) 2 1,
    -- 697: del ints.tmp35
    .del 9,
    -- 698: tmp5 += np.transpose(v.ovov, (0, 2, 1, 3))
    .add 33 (.tr 0 [0, 2, 1, 3]) 1 1,
    -- 699: tmp5 += ints.tmp33 * -1
    .add 33 (.cp 10) (-1) 1,
    -- 700: del ints.tmp33
    .del 10,
    -- 701: tmp5 += ints.tmp34 * -1
    .add 33 (.cp 11) (-1) 1,
    -- 702: del ints.tmp34
    .del 11,
    -- 703: tmp7 = np.copy(ints.tmp11)
    .set 34 (.cp 12) 1 1,
    -- 704: del ints.tmp11
    .del 12,
    -- 705: tmp7 += ints.tmp28 * 2
    .add 34 (.cp 13) 2 1,
    -- 706: del ints.tmp28
    .del 13,
    -- 707: tmp7 += v.ovvv
    .add 34 (.cp 14) 1 1,
    -- 708: tmp7 += np.transpose(ints.tmp29, (0, 1, 3, 2)) * -1
    .add 34 (.tr 15 [0, 1, 3, 2]) (-1) 1,
    -- 709: del ints.tmp29
    .del 15,
    -- 710: tmp7 += ints.tmp30 * -1
    .add 34 (.cp 16) (-1) 1,
    -- 711: del ints.tmp30
    .del 16,
    -- 712: tmp7 += np.transpose(ints.tmp6, (0, 3, 1, 2)) * -1
    .add 34 (.tr 17 [0, 3, 1, 2]) (-1) 1,
    -- 713: del ints.tmp6
    .del 17,
    -- 714: tmp6 = np.copy(ints.tmp9)
    .set 35 (.cp 18) 1 1,
    -- 715: del ints.tmp9
    .del 18,
    -- 716: tmp6 += v.oovv * -1
    .add 35 (.cp 19) (-1) 1,
    -- 717: tmp10 = np.copy(f.oo)
    .set 36 (.cp 20) 1 1,
    -- 718: tmp10 += np.transpose(ints.tmp24, (1, 0)) * 2
    .add 36 (.tr 21 [1, 0]) 2 1,
    -- 719: del ints.tmp24
    .del 21,
    -- 720: tmp10 += np.transpose(ints.tmp22, (1, 0)) * -1
    .add 36 (.tr 22 [1, 0]) (-1) 1,
    -- 721: del ints.tmp22
    .del 22,
    -- 722: tmp2 = np.copy(f.vv)
    .set 37 (.cp 23) 1 1,
    -- 723: tmp2 += np.transpose(ints.tmp2, (1, 0))
    .add 37 (.tr 24 [1, 0]) 1 1,
    -- 724: del ints.tmp2
    .del 24,
    -- 725: tmp2 += np.transpose(ints.tmp4, (1, 0)) * -2
    .add 37 (.tr 25 [1, 0]) (-2) 1,
    -- 726: del ints.tmp4
    .del 25,
    -- 727: tmp9 = einsum(f.ov, (0, 1), r1, (1,), (0,))
    .set 38 (.ein [(1, [0, 1]), (26, [1])] [0]) 1 1,
    -- 728: tmp9 += einsum(tmp8, (0, 1, 2, 3), r2, (2, 3, 0), (1,)) * -1
    .add 38 (.ein [(29, [0, 1, 2, 3]), (8, [2, 3, 0])] [1]) (-1) 1,
    -- 729: del tmp8
    .del 29,
    -- 730: tmp1 = np.copy(np.transpose(r2, (2, 0, 1))) * 2
    .set 39 (.tr 8 [2, 0, 1]) 2 1,
    -- 731: tmp1 += np.transpose(r2, (2, 1, 0)) * -1
    .add 39 (.tr 8 [2, 1, 0]) (-1) 1,
    -- 732: tmp0 = np.copy(v.ovvv) * -1
    .set 40 (.cp 14) (-1) 1,
    -- 733: tmp0 += np.transpose(v.ovvv, (0, 2, 1, 3)) * 2
    .add 40 (.tr 14 [0, 2, 1, 3]) 2 1,
    -- 734: r2new = einsum(r2, (0, 1, 2), v.vvvv, (3, 0, 4, 1), (3, 4, 2))
    .set 41 (.ein [(8, [0, 1, 2]), (27, [3, 0, 4, 1])] [3, 4, 2]) 1 1,
    -- 735: r2new += einsum(t2, (0, 1, 2, 3), tmp3, (4, 1, 0), (3, 2, 4))
    .add 41 (.ein [(28, [0, 1, 2, 3]), (32, [4, 1, 0])] [3, 2, 4]) 1 1,
    -- 736: del tmp3
    .del 32,
    -- 737: r2new += einsum(tmp5, (0, 1, 2, 3), tmp4, (1, 3, 4), (2, 4, 0)) * 2
    .add 41 (.ein [(33, [0, 1, 2, 3]), (31, [1, 3, 4])] [2, 4, 0]) 2 1,
    -- 738: del tmp5, tmp4
    .del 33,
    .del 31,
    -- 739: r2new += einsum(r2, (0, 1, 2), tmp6, (3, 2, 4, 1), (0, 4, 3))
    .add 41 (.ein [(8, [0, 1, 2]), (35, [3, 2, 4, 1])] [0, 4, 3]) 1 1,
    -- 740: r2new += einsum(tmp6, (0, 1, 2, 3), r2, (3, 4, 1), (2, 4, 0))
    .add 41 (.ein [(35, [0, 1, 2, 3]), (8, [3, 4, 1])] [2, 4, 0]) 1 1,
    -- 741: del tmp6
    .del 35,
    -- 742: r2new += einsum(tmp7, (0, 1, 2, 3), r1, (3,), (1, 2, 0)) * -1
    .add 41 (.ein [(34, [0, 1, 2, 3]), (26, [3])] [1, 2, 0]) (-1) 1,
    -- 743: del tmp7
    .del 34,
    -- 744: r2new += einsum(tmp2, (0, 1), r2, (0, 2, 3), (1, 2, 3))
    .add 41 (.ein [(37, [0, 1]), (8, [0, 2, 3])] [1, 2, 3]) 1 1,
    -- 745: r2new += einsum(r2, (0, 1, 2), tmp2, (1, 3), (0, 3, 2))
    .add 41 (.ein [(8, [0, 1, 2]), (37, [1, 3])] [0, 3, 2]) 1 1,
    -- 746: r2new += einsum(tmp9, (0,), t2, (1, 0, 2, 3), (2, 3, 1))
    .add 41 (.ein [(38, [0]), (28, [1, 0, 2, 3])] [2, 3, 1]) 1 1,
    -- 747: del tmp9
    .del 38,
    -- 748: r2new += einsum(tmp10, (0, 1), r2, (2, 3, 0), (2, 3, 1)) * -1
    .add 41 (.ein [(36, [0, 1]), (8, [2, 3, 0])] [2, 3, 1]) (-1) 1,
    -- 749: del tmp10
    .del 36,
    -- 750: r2new += einsum(r1, (0,), tmp11, (1, 2), (2, 0, 1)) * -1
    .add 41 (.ein [(26, [0]), (30, [1, 2])] [2, 0, 1]) (-1) 1,
    -- 751: del tmp11
    .del 30,
    -- 752: r1new = einsum(r2, (0, 1, 2), tmp0, (2, 1, 0, 3), (3,)) * -1
    .set 42 (.ein [(8, [0, 1, 2]), (40, [2, 1, 0, 3])] [3]) (-1) 1,
    -- 753: del tmp0
    .del 40,
    -- 754: r1new += einsum(f.ov, (0, 1), tmp1, (0, 1, 2), (2,)) * -1
    .add 42 (.ein [(1, [0, 1]), (39, [0, 1, 2])] [2]) (-1) 1,
    -- 755: del tmp1
    .del 39,
    -- 756: r1new += einsum(tmp2, (0, 1), r1, (0,), (1,))
    .add 42 (.ein [(37, [0, 1]), (26, [0])] [1]) 1 1,
    -- 757: del tmp2
    .del 37
  ]
  ret := [(chars! "r1new", 42), (chars! "r2new", 41)]

/-- codegen/RCCD.py:937-993 `hbar_lmatvec_ea_intermediates`. -/
def hbar_lmatvec_ea_intermediates : GenFun where
  args := [chars! "v.ovov", chars! "t2", chars! "v.ovvv", chars! "v.ooov", chars! "f.ov"]
  body := [
    -- 973: tmp45 = einsum(v.ovov, (0, 1, 2, 3), t2, (4, 2, 5, 3), (4, 0, 5, 1))
    .set 5 (.ein [(0, [0, 1, 2, 3]), (1, [4, 2, 5, 3])] [4, 0, 5, 1]) 1 1,
    -- 974: tmp44 = einsum(t2, (0, 1, 2, 3), v.ovov, (4, 5, 1, 2), (0, 4, 3, 5))
    .set 6 (.ein [(1, [0, 1, 2, 3]), (0, [4, 5, 1, 2])] [0, 4, 3, 5]) 1 1,
    -- 975: tmp42 = einsum(v.ovov, (0, 1, 2, 3), t2, (4, 2, 5, 1), (4, 0, 5, 3))
    .set 7 (.ein [(0, [0, 1, 2, 3]), (1, [4, 2, 5, 1])] [4, 0, 5, 3]) 1 1,
    -- 976: tmp41 = einsum(v.ovov, (0, 1, 2, 3), t2, (4, 2, 1, 5), (4, 0, 5, 3))
    .set 8 (.ein [(0, [0, 1, 2, 3]), (1, [4, 2, 1, 5])] [4, 0, 5, 3]) 1 1,
    -- 977: tmp39 = einsum(v.ovov, (0, 1, 2, 3), t2, (4, 2, 1, 3), (4, 0))
    .set 9 (.ein [(0, [0, 1, 2, 3]), (1, [4, 2, 1, 3])] [4, 0]) 1 1,
    -- 978: tmp37 = einsum(t2, (0, 1, 2, 3), v.ovov, (4, 3, 1, 2), (0, 4))
    .set 10 (.ein [(1, [0, 1, 2, 3]), (0, [4, 3, 1, 2])] [0, 4]) 1 1,
    -- 979: tmp35 = einsum(v.ovvv, (0, 1, 2, 3), t2, (4, 0, 5, 3), (4, 5, 1, 2))
    .set 11 (.ein [(2, [0, 1, 2, 3]), (1, [4, 0, 5, 3])] [4, 5, 1, 2]) 1 1,
    -- 980: tmp33 = einsum(t2, (0, 1, 2, 3), v.ovvv, (1, 4, 5, 2), (0, 3, 4, 5))
    .set 12 (.ein [(1, [0, 1, 2, 3]), (2, [1, 4, 5, 2])] [0, 3, 4, 5]) 1 1,
    -- 981: tmp30 = einsum(v.ovvv, (0, 1, 2, 3), t2, (4, 0, 5, 1), (4, 5, 2, 3))
    .set 13 (.ein [(2, [0, 1, 2, 3]), (1, [4, 0, 5, 1])] [4, 5, 2, 3]) 1 1,
    -- 982: tmp28 = einsum(v.ovvv, (0, 1, 2, 3), t2, (4, 0, 1, 5), (4, 5, 2, 3))
    .set 14 (.ein [(2, [0, 1, 2, 3]), (1, [4, 0, 1, 5])] [4, 5, 2, 3]) 1 1,
    -- 983: tmp25 = einsum(t2, (0, 1, 2, 3), v.ovvv, (1, 2, 4, 3), (0, 4))
    .set 15 (.ein [(1, [0, 1, 2, 3]), (2, [1, 2, 4, 3])] [0, 4]) 1 1,
    -- 984: tmp22 = einsum(t2, (0, 1, 2, 3), v.ovvv, (1, 3, 4, 2), (0, 4))
    .set 16 (.ein [(1, [0, 1, 2, 3]), (2, [1, 3, 4, 2])] [0, 4]) 1 1,
    -- 985: tmp19 = einsum(t2, (0, 1, 2, 3), v.ooov, (4, 1, 0, 5), (4, 3, 2, 5))
    .set 17 (.ein [(1, [0, 1, 2, 3]), (3, [4, 1, 0, 5])] [4, 3, 2, 5]) 1 1,
    -- 986: tmp16 = einsum(t2, (0, 1, 2, 3), v.ooov, (4, 1, 0, 2), (4, 3))
    .set 18 (.ein [(1, [0, 1, 2, 3]), (3, [4, 1, 0, 2])] [4, 3]) 1 1,
    -- 987: tmp13 = einsum(t2, (0, 1, 2, 3), v.ooov, (4, 1, 0, 3), (4, 2))
    .set 19 (.ein [(1, [0, 1, 2, 3]), (3, [4, 1, 0, 3])] [4, 2]) 1 1,
    -- 988: tmp11 = einsum(v.ovov, (0, 1, 2, 3), t2, (0, 2, 4, 3), (4, 1))
    .set 20 (.ein [(0, [0, 1, 2, 3]), (1, [0, 2, 4, 3])] [4, 1]) 1 1,
    -- 989: tmp9 = einsum(v.ovov, (0, 1, 2, 3), t2, (0, 2, 3, 4), (4, 1))
    .set 21 (.ein [(0, [0, 1, 2, 3]), (1, [0, 2, 3, 4])] [4, 1]) 1 1,
    -- 990: tmp1 = einsum(t2, (0, 1, 2, 3), f.ov, (1, 3), (0, 2))
    .set 22 (.ein [(1, [0, 1, 2, 3]), (4, [1, 3])] [0, 2]) 1 1,
    -- 991: tmp0 = einsum(t2, (0, 1, 2, 3), f.ov, (1, 2), (0, 3))
    .set 23 (.ein [(1, [0, 1, 2, 3]), (4, [1, 2])] [0, 3]) 1 1
  ]
  ret := [(chars! "tmp0", 23), (chars! "tmp1", 22), (chars! "tmp11", 20), (chars! "tmp13", 19), (chars! "tmp16", 18), (chars! "tmp19", 17), (chars! "tmp22", 16), (chars! "tmp25", 15), (chars! "tmp28", 14), (chars! "tmp30", 13), (chars! "tmp33", 12), (chars! "tmp35", 11), (chars! "tmp37", 10), (chars! "tmp39", 9), (chars! "tmp41", 8), (chars! "tmp42", 7), (chars! "tmp44", 6), (chars! "tmp45", 5), (chars! "tmp9", 21)]

/-- codegen/RCCD.py:995-1106 `hbar_lmatvec_ea`. -/
def hbar_lmatvec_ea : GenFun where
  args := [chars! "t2", chars! "r2", chars! "ints.tmp41", chars! "v.oovv", chars! "f.vv", chars! "ints.tmp9", chars! "ints.tmp11", chars! "f.oo", chars! "ints.tmp39", chars! "ints.tmp37", chars! "ints.tmp45", chars! "v.ovov", chars! "ints.tmp42", chars! "ints.tmp44", chars! "f.ov", chars! "ints.tmp13", chars! "ints.tmp1", chars! "ints.tmp22", chars! "ints.tmp0", chars! "ints.tmp16", chars! "ints.tmp25", chars! "ints.tmp19", chars! "ints.tmp30", chars! "ints.tmp28", chars! "ints.tmp35", chars! "ints.tmp33", chars! "v.ovvv", chars! "r1", chars! "v.vvvv"]
  body := [
    -- 1021: tmp6 = np.copy(np.transpose(t2, (0, 1, 3, 2)))
    .set 29 (.tr 0 [0, 1, 3, 2]) 1 1,
    -- 1022: tmp6 += t2 * -0.5
    .add 29 (.cp 0) (-1) 2,
    -- 1023: tmp13 = einsum(tmp6, (0, 1, 2, 3), r2, (3, 2, 0), (1,))
    .set 30 (.ein [(29, [0, 1, 2, 3]), (1, [3, 2, 0])] [1]) 1 1,
    -- 1024: tmp11 = np.copy(ints.tmp41)
    .set 31 (.cp 2) 1 1,
    -- 1025: del ints.tmp41
    .del 2,
    -- 1026: tmp11 += v.oovv * -1
    .add 31 (.cp 3) (-1) 1,
    -- 1027: tmp5 = np.copy(f.vv)
    .set 32 (.cp 4) 1 1,
    -- 1028: tmp5 += ints.tmp9
    .add 32 (.cp 5) 1 1,
    -- 1029: del ints.tmp9
    .del 5,
    -- 1030: tmp5 += ints.tmp11 * -2
    .add 32 (.cp 6) (-2) 1,
    -- 1031: del ints.tmp11
    .del 6,
    -- 1032: tmp12 = np.copy(f.oo)
    .set 33 (.cp 7) 1 1,
    -- 1033: tmp12 += ints.tmp39 * 2
    .add 33 (.cp 8) 2 1,
    -- 1034: del ints.tmp39
    .del 8,
    -- 1035: tmp12 += ints.tmp37 * -1
    .add 33 (.cp 9) (-1) 1,
    -- 1036: del ints.tmp37
    .del 9,
    -- 1037: tmp10 = np.copy(ints.tmp45) * 2
    .set 34 (.cp 10) 2 1,
    -- 1038: del ints.tmp45
    .del 10,
    -- 1039: tmp10 += np.transpose(v.ovov, (0, 2, 1, 3))
    .add 34 (.tr 11 [0, 2, 1, 3]) 1 1,
    -- 1040: tmp10 += ints.tmp42 * -1
    .add 34 (.cp 12) (-1) 1,
    -- 1041: del ints.tmp42
    .del 12,
    -- 1042: tmp10 += ints.tmp44 * -1
    .add 34 (.cp 13) (-1) 1,
    -- 1043: del ints.tmp44
    .del 13,
    -- 1044: tmp8 = einsum(r2, (0, 1, 2), t2, (3, 4, 0, 1), (2, 3, 4))
    .set 35 (.ein [(1, [0, 1, 2]), (0, [3, 4, 0, 1])] [2, 3, 4]) 1 1,
    -- 1045: tmp9 = np.copy(np.transpose(r2, (2, 0, 1)))
    .set 36 (.tr 1 [2, 0, 1]) 1 1,
    -- 1046: tmp9 += np.transpose(r2, (2, 1, 0)) * -0.5
    .add 36 (.tr 1 [2, 1, 0]) (-1) 2,
    -- 1047: tmp4 = np.copy(np.transpose(r2, (2, 0, 1))) * 2
    .set 37 (.tr 1 [2, 0, 1]) 2 1,
    -- 1048: tmp4 += np.transpose(r2, (2, 1, 0)) * -1
    .add 37 (.tr 1 [2, 1, 0]) (-1) 1,
    -- 1049: tmp3 = np.copy(f.ov) * 0.5
    .set 38 (.cp 14) 1 2,
    -- 1050: tmp3 += ints.tmp13 * 0.5
    .add 38 (.cp 15) 1 2,
    -- 1051: del ints.tmp13
    .del 15,
    -- 1052: tmp3 += ints.tmp1
    .add 38 (.cp 16) 1 1,
    -- 1053: del ints.tmp1
    .del 16,
    -- 1054: tmp3 += ints.tmp22
    .add 38 (.cp 17) 1 1,
    -- 1055: del ints.tmp22
    .del 17,
    -- 1056: tmp3 += ints.tmp0 * -0.5
    .add 38 (.cp 18) (-1) 2,
    -- 1057: del ints.tmp0
    .del 18,
    -- 1058: tmp3 += ints.tmp16 * -1
    .add 38 (.cp 19) (-1) 1,
    -- 1059: del ints.tmp16
    .del 19,
    -- 1060: tmp3 += ints.tmp25 * -0.5
    .add 38 (.cp 20) (-1) 2,
    -- 1061: del ints.tmp25
    .del 20,
    -- 1062: tmp1 = np.copy(ints.tmp19)
    .set 39 (.cp 21) 1 1,
    -- 1063: del ints.tmp19
    .del 21,
    -- 1064: tmp1 += np.transpose(ints.tmp30, (0, 1, 3, 2)) * 2
    .add 39 (.tr 22 [0, 1, 3, 2]) 2 1,
    -- 1065: del ints.tmp30
    .del 22,
    -- 1066: tmp1 += np.transpose(ints.tmp28, (0, 1, 3, 2)) * -1
    .add 39 (.tr 23 [0, 1, 3, 2]) (-1) 1,
    -- 1067: del ints.tmp28
    .del 23,
    -- 1068: tmp1 += np.transpose(ints.tmp35, (0, 1, 3, 2)) * -1
    .add 39 (.tr 24 [0, 1, 3, 2]) (-1) 1,
    -- 1069: del ints.tmp35
    .del 24,
    -- 1070: tmp7 = einsum(tmp6, (0, 1, 2, 3), r2, (3, 2, 0), (1,)) * 2
    .set 40 (.ein [(29, [0, 1, 2, 3]), (1, [3, 2, 0])] [1]) 2 1,
    -- 1071: del tmp6
    .del 29,
    -- 1072: tmp2 = np.copy(ints.tmp33)
    .set 41 (.cp 25) 1 1,
    -- 1073: tmp2 += v.ovvv * 2
    .add 41 (.cp 26) 2 1,
    -- 1074: tmp2 += np.transpose(v.ovvv, (0, 2, 3, 1)) * -1
    .add 41 (.tr 26 [0, 2, 3, 1]) (-1) 1,
    -- 1075: tmp0 = np.copy(np.transpose(r2, (2, 0, 1))) * -1
    .set 42 (.tr 1 [2, 0, 1]) (-1) 1,
    -- 1076: tmp0 += np.transpose(r2, (2, 1, 0)) * 2
    .add 42 (.tr 1 [2, 1, 0]) 2 1,
    -- 1077: r2new = einsum(f.ov, (0, 1), r1, (2,), (1, 2, 0)) * -1
    .set 43 (.ein [(14, [0, 1]), (27, [2])] [1, 2, 0]) (-1) 1,
    -- 1078: r2new += einsum(r2, (0, 1, 2), v.vvvv, (3, 0, 4, 1), (3, 4, 2))
    .add 43 (.ein [(1, [0, 1, 2]), (28, [3, 0, 4, 1])] [3, 4, 2]) 1 1,
    -- 1079: r2new += einsum(r1, (0,), v.ovvv, (1, 2, 3, 0), (2, 3, 1)) * -1
    .add 43 (.ein [(27, [0]), (26, [1, 2, 3, 0])] [2, 3, 1]) (-1) 1,
    -- 1080: r2new += einsum(tmp8, (0, 1, 2), v.ovov, (2, 3, 1, 4), (4, 3, 0))
    .add 43 (.ein [(35, [0, 1, 2]), (11, [2, 3, 1, 4])] [4, 3, 0]) 1 1,
    -- 1081: del tmp8
    .del 35,
    -- 1082: r2new += einsum(tmp9, (0, 1, 2), tmp10, (0, 3, 1, 4), (4, 2, 3)) * 2
    .add 43 (.ein [(36, [0, 1, 2]), (34, [0, 3, 1, 4])] [4, 2, 3]) 2 1,
    -- 1083: del tmp9, tmp10
    .del 36,
    .del 34,
    -- 1084: r2new += einsum(r2, (0, 1, 2), tmp11, (2, 3, 1, 4), (0, 4, 3))
    .add 43 (.ein [(1, [0, 1, 2]), (31, [2, 3, 1, 4])] [0, 4, 3]) 1 1,
    -- 1085: r2new += einsum(tmp11, (0, 1, 2, 3), r2, (2, 4, 0), (3, 4, 1))
    .add 43 (.ein [(31, [0, 1, 2, 3]), (1, [2, 4, 0])] [3, 4, 1]) 1 1,
    -- 1086: del tmp11
    .del 31,
    -- 1087: r2new += einsum(r2, (0, 1, 2), tmp5, (0, 3), (3, 1, 2))
    .add 43 (.ein [(1, [0, 1, 2]), (32, [0, 3])] [3, 1, 2]) 1 1,
    -- 1088: r2new += einsum(r2, (0, 1, 2), tmp5, (1, 3), (0, 3, 2))
    .add 43 (.ein [(1, [0, 1, 2]), (32, [1, 3])] [0, 3, 2]) 1 1,
    -- 1089: r2new += einsum(tmp12, (0, 1), r2, (2, 3, 0), (2, 3, 1)) * -1
    .add 43 (.ein [(33, [0, 1]), (1, [2, 3, 0])] [2, 3, 1]) (-1) 1,
    -- 1090: del tmp12
    .del 33,
    -- 1091: r2new += einsum(v.ovov, (0, 1, 2, 3), tmp13, (2,), (1, 3, 0)) * -2
    .add 43 (.ein [(11, [0, 1, 2, 3]), (30, [2])] [1, 3, 0]) (-2) 1,
    -- 1092: del tmp13
    .del 30,
    -- 1093: r1new = einsum(r2, (0, 1, 2), ints.tmp33, (2, 1, 3, 0), (3,)) * 2
    .set 44 (.ein [(1, [0, 1, 2]), (25, [2, 1, 3, 0])] [3]) 2 1,
    -- 1094: del ints.tmp33
    .del 25,
    -- 1095: r1new += einsum(tmp0, (0, 1, 2), tmp1, (0, 2, 1, 3), (3,)) * -1
    .add 44 (.ein [(42, [0, 1, 2]), (39, [0, 2, 1, 3])] [3]) (-1) 1,
    -- 1096: del tmp0, tmp1
    .del 42,
    .del 39,
    -- 1097: r1new += einsum(r2, (0, 1, 2), tmp2, (2, 0, 3, 1), (3,)) * -1
    .add 44 (.ein [(1, [0, 1, 2]), (41, [2, 0, 3, 1])] [3]) (-1) 1,
    -- 1098: del tmp2
    .del 41,
    -- 1099: r1new += einsum(tmp3, (0, 1), tmp4, (0, 1, 2), (2,)) * -2
    .add 44 (.ein [(38, [0, 1]), (37, [0, 1, 2])] [2]) (-2) 1,
    -- 1100: del tmp3, tmp4
    .del 38,
    .del 37,
    -- 1101: r1new += einsum(tmp5, (0, 1), r1, (0,), (1,))
    .add 44 (.ein [(32, [0, 1]), (27, [0])] [1]) 1 1,
    -- 1102: del tmp5
    .del 32,
    -- 1103: r1new += einsum(tmp7, (0,), f.ov, (0, 1), (1,))
    .add 44 (.ein [(40, [0]), (14, [0, 1])] [1]) 1 1,
    -- 1104: del tmp7
    .del 40
  ]
  ret := [(chars! "r1new", 44), (chars! "r2new", 43)]

end Ebcc.Gen.RCCDEom
