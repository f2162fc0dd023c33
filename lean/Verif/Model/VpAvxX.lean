import Verif.Model.VpSseX
/-
The vector routines of directional intra prediction, statement by statement in the language of Model/VecProg.lean;
the number after `--` is the line of source/common/vec/intrinsic_intra-pred_avx2.cc.
Routines: intra_pred_ver_avx, intra_pred_hor_avx, intra_pred_ang_x_3_avx, intra_pred_ang_x_4_avx, intra_pred_ang_x_5_avx, intra_pred_ang_x_6_avx, intra_pred_ang_x_8_avx, intra_pred_ang_x_10_avx.
-/
namespace Davs2.Vp

/-- `intra_pred_ver_avx`, vec/intrinsic_intra-pred_avx2.cc:48. -/
def verA_1 : Stmt :=
  .call verS (.pv (.n 0)) (.pv (.n 1)) (.v 0) (.v 1) (.v 2) (.v 3)

/-- `intra_pred_ver_avx`, vec/intrinsic_intra-pred_avx2.cc:51. -/
def verA_2 : Stmt :=
  .run [
    .P (.n 2) (.add (.pv (.n 0)) (.n 1))  -- 51
  ]

/-- `intra_pred_ver_avx`, vec/intrinsic_intra-pred_avx2.cc:56. -/
def verA_3 : Stmt :=
  .run [
    .I 4 (.n 0)  -- 56
  ]

/-- `intra_pred_ver_avx`, vec/intrinsic_intra-pred_avx2.cc:57-58. -/
def verA_4 : Stmt :=
  .run [
    .V 0 (.ld 32 (.pv (.n 2))),  -- 57
    .st 32 (.pv (.n 1)) (.v 0)  -- 58
  ]

/-- `intra_pred_ver_avx`, vec/intrinsic_intra-pred_avx2.cc:61-62. -/
def verA_5 : Stmt :=
  .run [
    .V 0 (.ld 32 (.add (.pv (.n 2)) (.n 32))),  -- 61
    .st 32 (.add (.pv (.n 1)) (.n 32)) (.v 0)  -- 62
  ]

/-- `intra_pred_ver_avx`, vec/intrinsic_intra-pred_avx2.cc:60. -/
def verA_6 : Stmt :=
  .ite (.lt (.n 32) (.v 2)) verA_5 (.run [])

/-- `intra_pred_ver_avx`, vec/intrinsic_intra-pred_avx2.cc:56-64. -/
def verA_7 : Stmt :=
  .run [
    .P (.n 1) (.add (.pv (.n 1)) (.v 0)),  -- 64
    .I 4 (.add (.v 4) (.n 1))  -- 56
  ]

/-- `intra_pred_ver_avx`, vec/intrinsic_intra-pred_avx2.cc:56. -/
def verA_8 : Stmt :=
  .loop (.lt (.v 4) (.v 3)) (.seq verA_4 (.seq verA_6 verA_7))

/-- `intra_pred_ver_avx`, vec/intrinsic_intra-pred_avx2.cc:70-71. -/
def verA_9 : Stmt :=
  .run [
    .V 2 (.mask 15 (.sub (.land (.v 2) 15) (.n 1))),  -- 70
    .I 4 (.n 0)  -- 71
  ]

/-- `intra_pred_ver_avx`, vec/intrinsic_intra-pred_avx2.cc:72. -/
def verA_10 : Stmt :=
  .run [
    .I 5 (.n 0)  -- 72
  ]

/-- `intra_pred_ver_avx`, vec/intrinsic_intra-pred_avx2.cc:72-74. -/
def verA_11 : Stmt :=
  .run [
    .V 1 (.ld 16 (.add (.pv (.n 2)) (.v 5))),  -- 73
    .st 16 (.add (.pv (.n 1)) (.v 5)) (.v 1),  -- 74
    .I 5 (.add (.v 5) (.n 16))  -- 72
  ]

/-- `intra_pred_ver_avx`, vec/intrinsic_intra-pred_avx2.cc:72. -/
def verA_12 : Stmt :=
  .loop (.lt (.v 5) (.sub (.v 2) (.n 15))) verA_11

/-- `intra_pred_ver_avx`, vec/intrinsic_intra-pred_avx2.cc:71-78. -/
def verA_13 : Stmt :=
  .run [
    .V 1 (.ld 16 (.add (.pv (.n 2)) (.v 5))),  -- 76
    .mst 1 16 (.add (.pv (.n 1)) (.v 5)) (.v 2) (.v 1),  -- 77
    .P (.n 1) (.add (.pv (.n 1)) (.v 0)),  -- 78
    .I 4 (.add (.v 4) (.n 1))  -- 71
  ]

/-- `intra_pred_ver_avx`, vec/intrinsic_intra-pred_avx2.cc:71. -/
def verA_14 : Stmt :=
  .loop (.lt (.v 4) (.v 3)) (.seq verA_10 (.seq verA_12 verA_13))

/-- `intra_pred_ver_avx`, vec/intrinsic_intra-pred_avx2.cc:81. -/
def verA_15 : Stmt :=
  .run [
    .I 4 (.n 0)  -- 81
  ]

/-- `intra_pred_ver_avx`, vec/intrinsic_intra-pred_avx2.cc:81-84. -/
def verA_16 : Stmt :=
  .run [
    .V 1 (.ld 16 (.pv (.n 2))),  -- 82
    .st 16 (.pv (.n 1)) (.v 1),  -- 83
    .P (.n 1) (.add (.pv (.n 1)) (.v 0)),  -- 84
    .I 4 (.add (.v 4) (.n 1))  -- 81
  ]

/-- `intra_pred_ver_avx`, vec/intrinsic_intra-pred_avx2.cc:81. -/
def verA_17 : Stmt :=
  .loop (.lt (.v 4) (.v 3)) verA_16

/-- `intra_pred_ver_avx`, vec/intrinsic_intra-pred_avx2.cc:69. -/
def verA_18 : Stmt :=
  .ite (.ne (.land (.v 2) 15) (.n 0)) (.seq verA_9 verA_14) (.seq verA_15 verA_17)

/-- `intra_pred_ver_avx`, vec/intrinsic_intra-pred_avx2.cc:55. -/
def verA_19 : Stmt :=
  .ite (.le (.n 32) (.v 2)) (.seq verA_3 verA_8) verA_18

/-- `intra_pred_ver_avx`, vec/intrinsic_intra-pred_avx2.cc:46. -/
def verA_20 : Stmt :=
  .ite (.and (.le (.v 2) (.n 8)) (.le (.v 3) (.n 8))) verA_1 (.seq verA_2 verA_19)

/-- `intra_pred_ver_avx`, source/common/vec/intrinsic_intra-pred_avx2.cc:44-89.  Variables:
I: 0 i_dst, 1 dir_mode, 2 bsx, 3 bsy, 4 i, 5 j;
P: 0 src, 1 dst, 2 rsrc;
V: 0 S1, 1 S_1, 2 mask. -/
def verA : Stmt :=
  verA_20

/-- `intra_pred_hor_avx`, vec/intrinsic_intra-pred_avx2.cc:95. -/
def horA_1 : Stmt :=
  .call horS (.pv (.n 0)) (.pv (.n 1)) (.v 0) (.v 1) (.v 2) (.v 3)

/-- `intra_pred_hor_avx`, vec/intrinsic_intra-pred_avx2.cc:99. -/
def horA_2 : Stmt :=
  .run [
    .P (.n 2) (.sub (.pv (.n 0)) (.n 1))  -- 99
  ]

/-- `intra_pred_hor_avx`, vec/intrinsic_intra-pred_avx2.cc:103. -/
def horA_3 : Stmt :=
  .run [
    .I 4 (.n 0)  -- 103
  ]

/-- `intra_pred_hor_avx`, vec/intrinsic_intra-pred_avx2.cc:104-105. -/
def horA_4 : Stmt :=
  .run [
    .V 0 (.set1_8 (.ld (.add (.pv (.n 2)) (.sub (.n 0) (.v 4))))),  -- 104
    .st 32 (.pv (.n 1)) (.v 0)  -- 105
  ]

/-- `intra_pred_hor_avx`, vec/intrinsic_intra-pred_avx2.cc:108. -/
def horA_5 : Stmt :=
  .run [
    .st 32 (.add (.pv (.n 1)) (.n 32)) (.v 0)  -- 108
  ]

/-- `intra_pred_hor_avx`, vec/intrinsic_intra-pred_avx2.cc:107. -/
def horA_6 : Stmt :=
  .ite (.lt (.n 32) (.v 2)) horA_5 (.run [])

/-- `intra_pred_hor_avx`, vec/intrinsic_intra-pred_avx2.cc:103-110. -/
def horA_7 : Stmt :=
  .run [
    .P (.n 1) (.add (.pv (.n 1)) (.v 0)),  -- 110
    .I 4 (.add (.v 4) (.n 1))  -- 103
  ]

/-- `intra_pred_hor_avx`, vec/intrinsic_intra-pred_avx2.cc:103. -/
def horA_8 : Stmt :=
  .loop (.lt (.v 4) (.v 3)) (.seq horA_4 (.seq horA_6 horA_7))

/-- `intra_pred_hor_avx`, vec/intrinsic_intra-pred_avx2.cc:116-117. -/
def horA_9 : Stmt :=
  .run [
    .V 2 (.mask 15 (.sub (.land (.v 2) 15) (.n 1))),  -- 116
    .I 4 (.n 0)  -- 117
  ]

/-- `intra_pred_hor_avx`, vec/intrinsic_intra-pred_avx2.cc:118. -/
def horA_10 : Stmt :=
  .run [
    .I 5 (.n 0)  -- 118
  ]

/-- `intra_pred_hor_avx`, vec/intrinsic_intra-pred_avx2.cc:118-120. -/
def horA_11 : Stmt :=
  .run [
    .V 1 (.set1_8 (.ld (.add (.pv (.n 2)) (.sub (.n 0) (.v 4))))),  -- 119
    .st 16 (.add (.pv (.n 1)) (.v 5)) (.v 1),  -- 120
    .I 5 (.add (.v 5) (.n 16))  -- 118
  ]

/-- `intra_pred_hor_avx`, vec/intrinsic_intra-pred_avx2.cc:118. -/
def horA_12 : Stmt :=
  .loop (.lt (.v 5) (.sub (.v 2) (.n 15))) horA_11

/-- `intra_pred_hor_avx`, vec/intrinsic_intra-pred_avx2.cc:117-124. -/
def horA_13 : Stmt :=
  .run [
    .V 1 (.set1_8 (.ld (.add (.pv (.n 2)) (.sub (.n 0) (.v 4))))),  -- 122
    .mst 1 16 (.add (.pv (.n 1)) (.v 5)) (.v 2) (.v 1),  -- 123
    .P (.n 1) (.add (.pv (.n 1)) (.v 0)),  -- 124
    .I 4 (.add (.v 4) (.n 1))  -- 117
  ]

/-- `intra_pred_hor_avx`, vec/intrinsic_intra-pred_avx2.cc:117. -/
def horA_14 : Stmt :=
  .loop (.lt (.v 4) (.v 3)) (.seq horA_10 (.seq horA_12 horA_13))

/-- `intra_pred_hor_avx`, vec/intrinsic_intra-pred_avx2.cc:127. -/
def horA_15 : Stmt :=
  .run [
    .I 4 (.n 0)  -- 127
  ]

/-- `intra_pred_hor_avx`, vec/intrinsic_intra-pred_avx2.cc:127-130. -/
def horA_16 : Stmt :=
  .run [
    .V 1 (.set1_8 (.ld (.add (.pv (.n 2)) (.sub (.n 0) (.v 4))))),  -- 128
    .st 16 (.pv (.n 1)) (.v 1),  -- 129
    .P (.n 1) (.add (.pv (.n 1)) (.v 0)),  -- 130
    .I 4 (.add (.v 4) (.n 1))  -- 127
  ]

/-- `intra_pred_hor_avx`, vec/intrinsic_intra-pred_avx2.cc:127. -/
def horA_17 : Stmt :=
  .loop (.lt (.v 4) (.v 3)) horA_16

/-- `intra_pred_hor_avx`, vec/intrinsic_intra-pred_avx2.cc:115. -/
def horA_18 : Stmt :=
  .ite (.ne (.land (.v 2) 15) (.n 0)) (.seq horA_9 horA_14) (.seq horA_15 horA_17)

/-- `intra_pred_hor_avx`, vec/intrinsic_intra-pred_avx2.cc:102. -/
def horA_19 : Stmt :=
  .ite (.le (.n 32) (.v 2)) (.seq horA_3 horA_8) horA_18

/-- `intra_pred_hor_avx`, vec/intrinsic_intra-pred_avx2.cc:93. -/
def horA_20 : Stmt :=
  .ite (.and (.le (.v 2) (.n 8)) (.le (.v 3) (.n 8))) horA_1 (.seq horA_2 horA_19)

/-- `intra_pred_hor_avx`, source/common/vec/intrinsic_intra-pred_avx2.cc:91-134.  Variables:
I: 0 i_dst, 1 dir_mode, 2 bsx, 3 bsy, 4 i, 5 j;
P: 0 src, 1 dst, 2 rsrc;
V: 0 S1, 1 S_1, 2 mask. -/
def horA : Stmt :=
  horA_20

/-- `intra_pred_ang_x_3_avx`, vec/intrinsic_intra-pred_avx2.cc:525-528. -/
def x3A_1 : Stmt :=
  .run [
    .P (.n 2) (.pv (.n 1)),  -- 525
    .P (.n 3) (.add (.pv (.n 2)) (.v 0)),  -- 526
    .P (.n 4) (.add (.pv (.n 3)) (.v 0)),  -- 527
    .P (.n 5) (.add (.pv (.n 4)) (.v 0))  -- 528
  ]

/-- `intra_pred_ang_x_3_avx`, vec/intrinsic_intra-pred_avx2.cc:534-567. -/
def x3A_2 : Stmt :=
  .run [
    .V 0 (.set1_16 (.n 2)),  -- 534
    .V 1 (.set1_16 (.n 3)),  -- 535
    .V 2 (.set1_16 (.n 4)),  -- 536
    .V 3 (.set1_16 (.n 5)),  -- 537
    .V 4 (.set1_16 (.n 7)),  -- 538
    .V 5 (.set1_16 (.n 8)),  -- 539
    .alloc 0 1024,  -- 541
    .I 4 (.add (.v 2) (.shr (.mul (.sub (.v 3) (.n 4)) (.n 11)) 2)),  -- 542
    .I 5 (.add (.add (.n 64) (.n 176)) (.n 16)),  -- 547
    .P (.n 6) (.pa 0),  -- 554
    .P (.n 7) (.add (.pv (.n 6)) (.v 5)),  -- 555
    .P (.n 8) (.add (.pv (.n 7)) (.v 5)),  -- 556
    .P (.n 9) (.add (.pv (.n 8)) (.v 5)),  -- 557
    .I 6 (.n 0)  -- 567
  ]

/-- `intra_pred_ang_x_3_avx`, vec/intrinsic_intra-pred_avx2.cc:572-595. -/
def x3A_3 : Stmt :=
  .run [
    .V 14 (.ld 32 (.add (.pv (.n 0)) (.n 2))),  -- 572
    .V 16 (.o1 .cvtu8 (.o1 (.half 0) (.v 14))),  -- 573
    .V 28 (.o1 .cvtu8 (.o1 (.half 1) (.v 14))),  -- 574
    .V 14 (.ld 32 (.add (.pv (.n 0)) (.n 3))),  -- 575
    .V 17 (.o1 .cvtu8 (.o1 (.half 0) (.v 14))),  -- 576
    .V 29 (.o1 .cvtu8 (.o1 (.half 1) (.v 14))),  -- 577
    .V 14 (.ld 32 (.add (.pv (.n 0)) (.n 4))),  -- 578
    .V 18 (.o1 .cvtu8 (.o1 (.half 0) (.v 14))),  -- 579
    .V 30 (.o1 .cvtu8 (.o1 (.half 1) (.v 14))),  -- 580
    .V 14 (.ld 32 (.add (.pv (.n 0)) (.n 5))),  -- 581
    .V 19 (.o1 .cvtu8 (.o1 (.half 0) (.v 14))),  -- 582
    .V 31 (.o1 .cvtu8 (.o1 (.half 1) (.v 14))),  -- 583
    .V 14 (.ld 32 (.add (.pv (.n 0)) (.n 6))),  -- 584
    .V 20 (.o1 .cvtu8 (.o1 (.half 0) (.v 14))),  -- 585
    .V 32 (.o1 .cvtu8 (.o1 (.half 1) (.v 14))),  -- 586
    .V 14 (.ld 32 (.add (.pv (.n 0)) (.n 7))),  -- 587
    .V 21 (.o1 .cvtu8 (.o1 (.half 0) (.v 14))),  -- 588
    .V 33 (.o1 .cvtu8 (.o1 (.half 1) (.v 14))),  -- 589
    .V 14 (.ld 32 (.add (.pv (.n 0)) (.n 8))),  -- 590
    .V 22 (.o1 .cvtu8 (.o1 (.half 0) (.v 14))),  -- 591
    .V 34 (.o1 .cvtu8 (.o1 (.half 1) (.v 14))),  -- 592
    .V 14 (.ld 32 (.add (.pv (.n 0)) (.n 9))),  -- 593
    .V 23 (.o1 .cvtu8 (.o1 (.half 0) (.v 14))),  -- 594
    .V 35 (.o1 .cvtu8 (.o1 (.half 1) (.v 14)))  -- 595
  ]

/-- `intra_pred_ang_x_3_avx`, vec/intrinsic_intra-pred_avx2.cc:596-621. -/
def x3A_4 : Stmt :=
  .run [
    .V 14 (.ld 32 (.add (.pv (.n 0)) (.n 10))),  -- 596
    .V 24 (.o1 .cvtu8 (.o1 (.half 0) (.v 14))),  -- 597
    .V 36 (.o1 .cvtu8 (.o1 (.half 1) (.v 14))),  -- 598
    .V 14 (.ld 32 (.add (.pv (.n 0)) (.n 11))),  -- 599
    .V 25 (.o1 .cvtu8 (.o1 (.half 0) (.v 14))),  -- 600
    .V 37 (.o1 .cvtu8 (.o1 (.half 1) (.v 14))),  -- 601
    .V 14 (.ld 32 (.add (.pv (.n 0)) (.n 12))),  -- 602
    .V 26 (.o1 .cvtu8 (.o1 (.half 0) (.v 14))),  -- 603
    .V 38 (.o1 .cvtu8 (.o1 (.half 1) (.v 14))),  -- 604
    .V 14 (.ld 32 (.add (.pv (.n 0)) (.n 13))),  -- 605
    .V 27 (.o1 .cvtu8 (.o1 (.half 0) (.v 14))),  -- 606
    .V 39 (.o1 .cvtu8 (.o1 (.half 1) (.v 14))),  -- 607
    .V 6 (.o2 .add16 (.v 16) (.v 5)),  -- 609
    .V 7 (.o2 .mullo16 (.v 17) (.v 3)),  -- 610
    .V 8 (.o2 .mullo16 (.v 18) (.v 4)),  -- 611
    .V 9 (.o2 .mullo16 (.v 19) (.v 1)),  -- 612
    .V 6 (.o2 .add16 (.v 6) (.v 7)),  -- 613
    .V 6 (.o2 .add16 (.v 6) (.v 8)),  -- 614
    .V 6 (.o2 .add16 (.v 6) (.v 9)),  -- 615
    .V 6 (.o1 (.srli16 4) (.v 6)),  -- 616
    .V 10 (.o2 .add16 (.v 28) (.v 5)),  -- 618
    .V 11 (.o2 .mullo16 (.v 29) (.v 3)),  -- 619
    .V 12 (.o2 .mullo16 (.v 30) (.v 4)),  -- 620
    .V 13 (.o2 .mullo16 (.v 31) (.v 1))  -- 621
  ]

/-- `intra_pred_ang_x_3_avx`, vec/intrinsic_intra-pred_avx2.cc:622-650. -/
def x3A_5 : Stmt :=
  .run [
    .V 10 (.o2 .add16 (.v 10) (.v 11)),  -- 622
    .V 10 (.o2 .add16 (.v 10) (.v 12)),  -- 623
    .V 10 (.o2 .add16 (.v 10) (.v 13)),  -- 624
    .V 10 (.o1 (.srli16 4) (.v 10)),  -- 625
    .V 6 (.o2 .packus16y (.v 6) (.v 10)),  -- 627
    .V 6 (.o1 (.perm4 216) (.v 6)),  -- 628
    .st 32 (.add (.pv (.n 6)) (.v 6)) (.v 6),  -- 629
    .V 6 (.o2 .add16 (.v 19) (.v 22)),  -- 631
    .V 7 (.o2 .add16 (.v 20) (.v 21)),  -- 632
    .V 7 (.o2 .mullo16 (.v 7) (.v 1)),  -- 633
    .V 6 (.o2 .add16 (.v 6) (.v 2)),  -- 634
    .V 6 (.o2 .add16 (.v 6) (.v 7)),  -- 635
    .V 6 (.o1 (.srli16 3) (.v 6)),  -- 636
    .V 10 (.o2 .add16 (.v 31) (.v 34)),  -- 638
    .V 11 (.o2 .add16 (.v 32) (.v 33)),  -- 639
    .V 11 (.o2 .mullo16 (.v 11) (.v 1)),  -- 640
    .V 10 (.o2 .add16 (.v 10) (.v 2)),  -- 641
    .V 10 (.o2 .add16 (.v 10) (.v 11)),  -- 642
    .V 10 (.o1 (.srli16 3) (.v 10)),  -- 643
    .V 6 (.o2 .packus16y (.v 6) (.v 10)),  -- 645
    .V 6 (.o1 (.perm4 216) (.v 6)),  -- 646
    .st 32 (.add (.pv (.n 7)) (.v 6)) (.v 6),  -- 647
    .V 6 (.o2 .mullo16 (.v 22) (.v 1)),  -- 649
    .V 7 (.o2 .mullo16 (.v 23) (.v 4))  -- 650
  ]

/-- `intra_pred_ang_x_3_avx`, vec/intrinsic_intra-pred_avx2.cc:651-678. -/
def x3A_6 : Stmt :=
  .run [
    .V 8 (.o2 .mullo16 (.v 24) (.v 3)),  -- 651
    .V 9 (.o2 .add16 (.v 25) (.v 5)),  -- 652
    .V 6 (.o2 .add16 (.v 6) (.v 7)),  -- 653
    .V 6 (.o2 .add16 (.v 6) (.v 8)),  -- 654
    .V 6 (.o2 .add16 (.v 6) (.v 9)),  -- 655
    .V 6 (.o1 (.srli16 4) (.v 6)),  -- 656
    .V 10 (.o2 .mullo16 (.v 34) (.v 1)),  -- 658
    .V 11 (.o2 .mullo16 (.v 35) (.v 4)),  -- 659
    .V 12 (.o2 .mullo16 (.v 36) (.v 3)),  -- 660
    .V 13 (.o2 .add16 (.v 37) (.v 5)),  -- 661
    .V 10 (.o2 .add16 (.v 10) (.v 11)),  -- 662
    .V 10 (.o2 .add16 (.v 10) (.v 12)),  -- 663
    .V 10 (.o2 .add16 (.v 10) (.v 13)),  -- 664
    .V 10 (.o1 (.srli16 4) (.v 10)),  -- 665
    .V 6 (.o2 .packus16y (.v 6) (.v 10)),  -- 667
    .V 6 (.o1 (.perm4 216) (.v 6)),  -- 668
    .st 32 (.add (.pv (.n 8)) (.v 6)) (.v 6),  -- 669
    .V 6 (.o2 .add16 (.v 25) (.v 27)),  -- 671
    .V 7 (.o2 .mullo16 (.v 26) (.v 0)),  -- 672
    .V 6 (.o2 .add16 (.v 6) (.v 0)),  -- 673
    .V 6 (.o2 .add16 (.v 6) (.v 7)),  -- 674
    .V 6 (.o1 (.srli16 2) (.v 6)),  -- 675
    .V 10 (.o2 .add16 (.v 37) (.v 39)),  -- 677
    .V 11 (.o2 .mullo16 (.v 38) (.v 0))  -- 678
  ]

/-- `intra_pred_ang_x_3_avx`, vec/intrinsic_intra-pred_avx2.cc:567-685. -/
def x3A_7 : Stmt :=
  .run [
    .V 10 (.o2 .add16 (.v 10) (.v 0)),  -- 679
    .V 10 (.o2 .add16 (.v 10) (.v 11)),  -- 680
    .V 10 (.o1 (.srli16 2) (.v 10)),  -- 681
    .V 6 (.o2 .packus16y (.v 6) (.v 10)),  -- 683
    .V 6 (.o1 (.perm4 216) (.v 6)),  -- 684
    .st 32 (.add (.pv (.n 9)) (.v 6)) (.v 6),  -- 685
    .I 6 (.add (.v 6) (.n 32)),  -- 567
    .P (.n 0) (.add (.pv (.n 0)) (.n 32))
  ]

/-- `intra_pred_ang_x_3_avx`, vec/intrinsic_intra-pred_avx2.cc:567. -/
def x3A_8 : Stmt :=
  .loop (.lt (.v 6) (.sub (.v 4) (.n 16))) (.seq x3A_3 (.seq x3A_4 (.seq x3A_5 (.seq x3A_6 x3A_7))))

/-- `intra_pred_ang_x_3_avx`, vec/intrinsic_intra-pred_avx2.cc:693-717. -/
def x3A_9 : Stmt :=
  .run [
    .V 14 (.ld 32 (.add (.pv (.n 0)) (.n 2))),  -- 693
    .V 16 (.o1 .cvtu8 (.o1 (.half 0) (.v 14))),  -- 694
    .V 14 (.ld 32 (.add (.pv (.n 0)) (.n 3))),  -- 695
    .V 17 (.o1 .cvtu8 (.o1 (.half 0) (.v 14))),  -- 696
    .V 14 (.ld 32 (.add (.pv (.n 0)) (.n 4))),  -- 697
    .V 18 (.o1 .cvtu8 (.o1 (.half 0) (.v 14))),  -- 698
    .V 14 (.ld 32 (.add (.pv (.n 0)) (.n 5))),  -- 699
    .V 19 (.o1 .cvtu8 (.o1 (.half 0) (.v 14))),  -- 700
    .V 14 (.ld 32 (.add (.pv (.n 0)) (.n 6))),  -- 701
    .V 20 (.o1 .cvtu8 (.o1 (.half 0) (.v 14))),  -- 702
    .V 14 (.ld 32 (.add (.pv (.n 0)) (.n 7))),  -- 703
    .V 21 (.o1 .cvtu8 (.o1 (.half 0) (.v 14))),  -- 704
    .V 14 (.ld 32 (.add (.pv (.n 0)) (.n 8))),  -- 705
    .V 22 (.o1 .cvtu8 (.o1 (.half 0) (.v 14))),  -- 706
    .V 14 (.ld 32 (.add (.pv (.n 0)) (.n 9))),  -- 707
    .V 23 (.o1 .cvtu8 (.o1 (.half 0) (.v 14))),  -- 708
    .V 14 (.ld 32 (.add (.pv (.n 0)) (.n 10))),  -- 709
    .V 24 (.o1 .cvtu8 (.o1 (.half 0) (.v 14))),  -- 710
    .V 15 (.ld 32 (.add (.pv (.n 0)) (.n 11))),  -- 712
    .V 25 (.o1 .cvtu8 (.o1 (.half 0) (.v 15))),  -- 713
    .V 15 (.ld 32 (.add (.pv (.n 0)) (.n 12))),  -- 714
    .V 26 (.o1 .cvtu8 (.o1 (.half 0) (.v 15))),  -- 715
    .V 15 (.ld 32 (.add (.pv (.n 0)) (.n 13))),  -- 716
    .V 27 (.o1 .cvtu8 (.o1 (.half 0) (.v 15)))  -- 717
  ]

/-- `intra_pred_ang_x_3_avx`, vec/intrinsic_intra-pred_avx2.cc:719-746. -/
def x3A_10 : Stmt :=
  .run [
    .V 6 (.o2 .add16 (.v 16) (.v 5)),  -- 719
    .V 7 (.o2 .mullo16 (.v 17) (.v 3)),  -- 720
    .V 8 (.o2 .mullo16 (.v 18) (.v 4)),  -- 721
    .V 9 (.o2 .mullo16 (.v 19) (.v 1)),  -- 722
    .V 6 (.o2 .add16 (.v 6) (.v 7)),  -- 723
    .V 6 (.o2 .add16 (.v 6) (.v 8)),  -- 724
    .V 6 (.o2 .add16 (.v 6) (.v 9)),  -- 725
    .V 6 (.o1 (.srli16 4) (.v 6)),  -- 726
    .V 6 (.o2 .packus16y (.v 6) (.v 6)),  -- 728
    .V 6 (.o1 (.perm4 8) (.v 6)),  -- 729
    .V 40 (.mask 16 (.n 15)),  -- 730
    .mst 8 32 (.add (.pv (.n 6)) (.v 6)) (.v 40) (.v 6),  -- 731
    .V 6 (.o2 .add16 (.v 19) (.v 22)),  -- 733
    .V 7 (.o2 .add16 (.v 20) (.v 21)),  -- 734
    .V 7 (.o2 .mullo16 (.v 7) (.v 1)),  -- 735
    .V 6 (.o2 .add16 (.v 6) (.v 2)),  -- 736
    .V 6 (.o2 .add16 (.v 6) (.v 7)),  -- 737
    .V 6 (.o1 (.srli16 3) (.v 6)),  -- 738
    .V 6 (.o2 .packus16y (.v 6) (.v 6)),  -- 740
    .V 6 (.o1 (.perm4 8) (.v 6)),  -- 741
    .mst 8 32 (.add (.pv (.n 7)) (.v 6)) (.v 40) (.v 6),  -- 742
    .V 6 (.o2 .mullo16 (.v 22) (.v 1)),  -- 744
    .V 7 (.o2 .mullo16 (.v 23) (.v 4)),  -- 745
    .V 8 (.o2 .mullo16 (.v 24) (.v 3))  -- 746
  ]

/-- `intra_pred_ang_x_3_avx`, vec/intrinsic_intra-pred_avx2.cc:747-765. -/
def x3A_11 : Stmt :=
  .run [
    .V 9 (.o2 .add16 (.v 25) (.v 5)),  -- 747
    .V 6 (.o2 .add16 (.v 6) (.v 7)),  -- 748
    .V 6 (.o2 .add16 (.v 6) (.v 8)),  -- 749
    .V 6 (.o2 .add16 (.v 6) (.v 9)),  -- 750
    .V 6 (.o1 (.srli16 4) (.v 6)),  -- 751
    .V 6 (.o2 .packus16y (.v 6) (.v 6)),  -- 753
    .V 6 (.o1 (.perm4 8) (.v 6)),  -- 754
    .mst 8 32 (.add (.pv (.n 8)) (.v 6)) (.v 40) (.v 6),  -- 755
    .V 6 (.o2 .add16 (.v 25) (.v 27)),  -- 757
    .V 7 (.o2 .mullo16 (.v 26) (.v 0)),  -- 758
    .V 6 (.o2 .add16 (.v 6) (.v 0)),  -- 759
    .V 6 (.o2 .add16 (.v 6) (.v 7)),  -- 760
    .V 6 (.o1 (.srli16 2) (.v 6)),  -- 761
    .V 6 (.o2 .packus16y (.v 6) (.v 6)),  -- 763
    .V 6 (.o1 (.perm4 8) (.v 6)),  -- 764
    .mst 8 32 (.add (.pv (.n 9)) (.v 6)) (.v 40) (.v 6)  -- 765
  ]

/-- `intra_pred_ang_x_3_avx`, vec/intrinsic_intra-pred_avx2.cc:689. -/
def x3A_12 : Stmt :=
  .ite (.lt (.v 6) (.v 4)) (.seq x3A_9 (.seq x3A_10 x3A_11)) (.run [])

/-- `intra_pred_ang_x_3_avx`, vec/intrinsic_intra-pred_avx2.cc:768. -/
def x3A_13 : Stmt :=
  .run [
    .I 3 (.shr (.v 3) 2)  -- 768
  ]

/-- `intra_pred_ang_x_3_avx`, vec/intrinsic_intra-pred_avx2.cc:771. -/
def x3A_14 : Stmt :=
  .run [
    .I 6 (.n 0)  -- 771
  ]

/-- `intra_pred_ang_x_3_avx`, vec/intrinsic_intra-pred_avx2.cc:771-795. -/
def x3A_15 : Stmt :=
  .run [
    .V 40 (.ld 32 (.add (.pv (.n 6)) (.mul (.v 6) (.n 11)))),  -- 772
    .st 32 (.pv (.n 2)) (.v 40),  -- 773
    .V 40 (.ld 32 (.add (.add (.pv (.n 6)) (.mul (.v 6) (.n 11))) (.n 32))),  -- 774
    .st 32 (.add (.pv (.n 2)) (.n 32)) (.v 40),  -- 775
    .V 40 (.ld 32 (.add (.pv (.n 7)) (.mul (.v 6) (.n 11)))),  -- 777
    .st 32 (.pv (.n 3)) (.v 40),  -- 778
    .V 40 (.ld 32 (.add (.add (.pv (.n 7)) (.mul (.v 6) (.n 11))) (.n 32))),  -- 779
    .st 32 (.add (.pv (.n 3)) (.n 32)) (.v 40),  -- 780
    .V 40 (.ld 32 (.add (.pv (.n 8)) (.mul (.v 6) (.n 11)))),  -- 782
    .st 32 (.pv (.n 4)) (.v 40),  -- 783
    .V 40 (.ld 32 (.add (.add (.pv (.n 8)) (.mul (.v 6) (.n 11))) (.n 32))),  -- 784
    .st 32 (.add (.pv (.n 4)) (.n 32)) (.v 40),  -- 785
    .V 40 (.ld 32 (.add (.pv (.n 9)) (.mul (.v 6) (.n 11)))),  -- 787
    .st 32 (.pv (.n 5)) (.v 40),  -- 788
    .V 40 (.ld 32 (.add (.add (.pv (.n 9)) (.mul (.v 6) (.n 11))) (.n 32))),  -- 789
    .st 32 (.add (.pv (.n 5)) (.n 32)) (.v 40),  -- 790
    .P (.n 2) (.add (.pv (.n 5)) (.v 0)),  -- 792
    .P (.n 3) (.add (.pv (.n 2)) (.v 0)),  -- 793
    .P (.n 4) (.add (.pv (.n 3)) (.v 0)),  -- 794
    .P (.n 5) (.add (.pv (.n 4)) (.v 0)),  -- 795
    .I 6 (.add (.v 6) (.n 1))  -- 771
  ]

/-- `intra_pred_ang_x_3_avx`, vec/intrinsic_intra-pred_avx2.cc:771. -/
def x3A_16 : Stmt :=
  .loop (.lt (.v 6) (.v 3)) x3A_15

/-- `intra_pred_ang_x_3_avx`, vec/intrinsic_intra-pred_avx2.cc:798. -/
def x3A_17 : Stmt :=
  .run [
    .I 6 (.n 0)  -- 798
  ]

/-- `intra_pred_ang_x_3_avx`, vec/intrinsic_intra-pred_avx2.cc:798-814. -/
def x3A_18 : Stmt :=
  .run [
    .V 40 (.ld 32 (.add (.pv (.n 6)) (.mul (.v 6) (.n 11)))),  -- 799
    .st 32 (.pv (.n 2)) (.v 40),  -- 800
    .V 40 (.ld 32 (.add (.pv (.n 7)) (.mul (.v 6) (.n 11)))),  -- 802
    .st 32 (.pv (.n 3)) (.v 40),  -- 803
    .V 40 (.ld 32 (.add (.pv (.n 8)) (.mul (.v 6) (.n 11)))),  -- 805
    .st 32 (.pv (.n 4)) (.v 40),  -- 806
    .V 40 (.ld 32 (.add (.pv (.n 9)) (.mul (.v 6) (.n 11)))),  -- 808
    .st 32 (.pv (.n 5)) (.v 40),  -- 809
    .P (.n 2) (.add (.pv (.n 5)) (.v 0)),  -- 811
    .P (.n 3) (.add (.pv (.n 2)) (.v 0)),  -- 812
    .P (.n 4) (.add (.pv (.n 3)) (.v 0)),  -- 813
    .P (.n 5) (.add (.pv (.n 4)) (.v 0)),  -- 814
    .I 6 (.add (.v 6) (.n 1))  -- 798
  ]

/-- `intra_pred_ang_x_3_avx`, vec/intrinsic_intra-pred_avx2.cc:798. -/
def x3A_19 : Stmt :=
  .loop (.lt (.v 6) (.v 3)) x3A_18

/-- `intra_pred_ang_x_3_avx`, vec/intrinsic_intra-pred_avx2.cc:817-818. -/
def x3A_20 : Stmt :=
  .run [
    .V 41 (.mask 16 (.n 15)),  -- 817
    .I 6 (.n 0)  -- 818
  ]

/-- `intra_pred_ang_x_3_avx`, vec/intrinsic_intra-pred_avx2.cc:818-834. -/
def x3A_21 : Stmt :=
  .run [
    .V 40 (.ld 32 (.add (.pv (.n 6)) (.mul (.v 6) (.n 11)))),  -- 819
    .mst 8 32 (.pv (.n 2)) (.v 41) (.v 40),  -- 820
    .V 40 (.ld 32 (.add (.pv (.n 7)) (.mul (.v 6) (.n 11)))),  -- 822
    .mst 8 32 (.pv (.n 3)) (.v 41) (.v 40),  -- 823
    .V 40 (.ld 32 (.add (.pv (.n 8)) (.mul (.v 6) (.n 11)))),  -- 825
    .mst 8 32 (.pv (.n 4)) (.v 41) (.v 40),  -- 826
    .V 40 (.ld 32 (.add (.pv (.n 9)) (.mul (.v 6) (.n 11)))),  -- 828
    .mst 8 32 (.pv (.n 5)) (.v 41) (.v 40),  -- 829
    .P (.n 2) (.add (.pv (.n 5)) (.v 0)),  -- 831
    .P (.n 3) (.add (.pv (.n 2)) (.v 0)),  -- 832
    .P (.n 4) (.add (.pv (.n 3)) (.v 0)),  -- 833
    .P (.n 5) (.add (.pv (.n 4)) (.v 0)),  -- 834
    .I 6 (.add (.v 6) (.n 1))  -- 818
  ]

/-- `intra_pred_ang_x_3_avx`, vec/intrinsic_intra-pred_avx2.cc:818. -/
def x3A_22 : Stmt :=
  .loop (.lt (.v 6) (.v 3)) x3A_21

/-- `intra_pred_ang_x_3_avx`, vec/intrinsic_intra-pred_avx2.cc:797. -/
def x3A_23 : Stmt :=
  .ite (.eq (.v 2) (.n 32)) (.seq x3A_17 x3A_19) (.seq x3A_20 x3A_22)

/-- `intra_pred_ang_x_3_avx`, vec/intrinsic_intra-pred_avx2.cc:770. -/
def x3A_24 : Stmt :=
  .ite (.eq (.v 2) (.n 64)) (.seq x3A_14 x3A_16) x3A_23

/-- `intra_pred_ang_x_3_avx`, vec/intrinsic_intra-pred_avx2.cc:850-875. -/
def x3A_25 : Stmt :=
  .run [
    .V 0 (.set1_16 (.n 2)),  -- 850
    .V 1 (.set1_16 (.n 3)),  -- 851
    .V 2 (.set1_16 (.n 4)),  -- 852
    .V 3 (.set1_16 (.n 5)),  -- 853
    .V 4 (.set1_16 (.n 7)),  -- 854
    .V 5 (.set1_16 (.n 8)),  -- 855
    .V 10 (.ld 32 (.add (.pv (.n 0)) (.n 2))),  -- 858
    .V 11 (.o1 .cvtu8 (.o1 (.half 0) (.v 10))),  -- 859
    .V 10 (.ld 32 (.add (.pv (.n 0)) (.n 3))),  -- 860
    .V 12 (.o1 .cvtu8 (.o1 (.half 0) (.v 10))),  -- 861
    .V 10 (.ld 32 (.add (.pv (.n 0)) (.n 4))),  -- 862
    .V 13 (.o1 .cvtu8 (.o1 (.half 0) (.v 10))),  -- 863
    .V 10 (.ld 32 (.add (.pv (.n 0)) (.n 5))),  -- 864
    .V 14 (.o1 .cvtu8 (.o1 (.half 0) (.v 10))),  -- 865
    .V 10 (.ld 32 (.add (.pv (.n 0)) (.n 6))),  -- 866
    .V 15 (.o1 .cvtu8 (.o1 (.half 0) (.v 10))),  -- 867
    .V 10 (.ld 32 (.add (.pv (.n 0)) (.n 7))),  -- 868
    .V 16 (.o1 .cvtu8 (.o1 (.half 0) (.v 10))),  -- 869
    .V 10 (.ld 32 (.add (.pv (.n 0)) (.n 8))),  -- 870
    .V 17 (.o1 .cvtu8 (.o1 (.half 0) (.v 10))),  -- 871
    .V 10 (.ld 32 (.add (.pv (.n 0)) (.n 9))),  -- 872
    .V 18 (.o1 .cvtu8 (.o1 (.half 0) (.v 10))),  -- 873
    .V 10 (.ld 32 (.add (.pv (.n 0)) (.n 10))),  -- 874
    .V 19 (.o1 .cvtu8 (.o1 (.half 0) (.v 10)))  -- 875
  ]

/-- `intra_pred_ang_x_3_avx`, vec/intrinsic_intra-pred_avx2.cc:877-903. -/
def x3A_26 : Stmt :=
  .run [
    .V 20 (.ld 32 (.add (.pv (.n 0)) (.n 11))),  -- 877
    .V 21 (.o1 .cvtu8 (.o1 (.half 0) (.v 20))),  -- 878
    .V 20 (.ld 32 (.add (.pv (.n 0)) (.n 12))),  -- 879
    .V 22 (.o1 .cvtu8 (.o1 (.half 0) (.v 20))),  -- 880
    .V 20 (.ld 32 (.add (.pv (.n 0)) (.n 13))),  -- 881
    .V 23 (.o1 .cvtu8 (.o1 (.half 0) (.v 20))),  -- 882
    .V 6 (.o2 .add16 (.v 11) (.v 5)),  -- 884
    .V 7 (.o2 .mullo16 (.v 12) (.v 3)),  -- 885
    .V 8 (.o2 .mullo16 (.v 13) (.v 4)),  -- 886
    .V 9 (.o2 .mullo16 (.v 14) (.v 1)),  -- 887
    .V 6 (.o2 .add16 (.v 6) (.v 7)),  -- 888
    .V 6 (.o2 .add16 (.v 6) (.v 8)),  -- 889
    .V 6 (.o2 .add16 (.v 6) (.v 9)),  -- 890
    .V 6 (.o1 (.srli16 4) (.v 6)),  -- 891
    .V 6 (.o2 .packus16y (.v 6) (.v 6)),  -- 893
    .V 6 (.o1 (.perm4 8) (.v 6)),  -- 894
    .V 24 (.mask 16 (.n 15)),  -- 895
    .mst 8 32 (.pv (.n 2)) (.v 24) (.v 6),  -- 896
    .V 6 (.o2 .add16 (.v 14) (.v 17)),  -- 898
    .V 7 (.o2 .add16 (.v 15) (.v 16)),  -- 899
    .V 7 (.o2 .mullo16 (.v 7) (.v 1)),  -- 900
    .V 6 (.o2 .add16 (.v 6) (.v 2)),  -- 901
    .V 6 (.o2 .add16 (.v 6) (.v 7)),  -- 902
    .V 6 (.o1 (.srli16 3) (.v 6))  -- 903
  ]

/-- `intra_pred_ang_x_3_avx`, vec/intrinsic_intra-pred_avx2.cc:905-930. -/
def x3A_27 : Stmt :=
  .run [
    .V 6 (.o2 .packus16y (.v 6) (.v 6)),  -- 905
    .V 6 (.o1 (.perm4 8) (.v 6)),  -- 906
    .mst 8 32 (.pv (.n 3)) (.v 24) (.v 6),  -- 907
    .V 6 (.o2 .mullo16 (.v 17) (.v 1)),  -- 909
    .V 7 (.o2 .mullo16 (.v 18) (.v 4)),  -- 910
    .V 8 (.o2 .mullo16 (.v 19) (.v 3)),  -- 911
    .V 9 (.o2 .add16 (.v 21) (.v 5)),  -- 912
    .V 6 (.o2 .add16 (.v 6) (.v 7)),  -- 913
    .V 6 (.o2 .add16 (.v 6) (.v 8)),  -- 914
    .V 6 (.o2 .add16 (.v 6) (.v 9)),  -- 915
    .V 6 (.o1 (.srli16 4) (.v 6)),  -- 916
    .V 6 (.o2 .packus16y (.v 6) (.v 6)),  -- 918
    .V 6 (.o1 (.perm4 8) (.v 6)),  -- 919
    .mst 8 32 (.pv (.n 4)) (.v 24) (.v 6),  -- 920
    .V 6 (.o2 .add16 (.v 21) (.v 23)),  -- 922
    .V 7 (.o2 .mullo16 (.v 22) (.v 0)),  -- 923
    .V 6 (.o2 .add16 (.v 6) (.v 0)),  -- 924
    .V 6 (.o2 .add16 (.v 6) (.v 7)),  -- 925
    .V 6 (.o1 (.srli16 2) (.v 6)),  -- 926
    .V 6 (.o2 .packus16y (.v 6) (.v 6)),  -- 928
    .V 6 (.o1 (.perm4 8) (.v 6)),  -- 929
    .mst 8 32 (.pv (.n 5)) (.v 24) (.v 6)  -- 930
  ]

/-- `intra_pred_ang_x_3_avx`, vec/intrinsic_intra-pred_avx2.cc:934. -/
def x3A_28 : Stmt :=
  .call x3S (.pv (.n 0)) (.pv (.n 1)) (.v 0) (.v 1) (.v 2) (.v 3)

/-- `intra_pred_ang_x_3_avx`, vec/intrinsic_intra-pred_avx2.cc:848. -/
def x3A_29 : Stmt :=
  .ite (.eq (.v 2) (.n 16)) (.seq x3A_25 (.seq x3A_26 x3A_27)) x3A_28

/-- `intra_pred_ang_x_3_avx`, vec/intrinsic_intra-pred_avx2.cc:532. -/
def x3A_30 : Stmt :=
  .ite (.and (.lt (.n 4) (.v 3)) (.lt (.n 8) (.v 2))) (.seq x3A_2 (.seq x3A_8 (.seq x3A_12 (.seq x3A_13 x3A_24)))) x3A_29

/-- `intra_pred_ang_x_3_avx`, source/common/vec/intrinsic_intra-pred_avx2.cc:522-938.  Variables:
I: 0 i_dst, 1 dir_mode, 2 bsx, 3 bsy, 4 line_size, 5 aligned_line_size, 6 i;
P: 0 src, 1 dst, 2 dst1, 3 dst2, 4 dst3, 5 dst4, 6 pfirst;
V: 0 coeff2, 1 coeff3, 2 coeff4, 3 coeff5, 4 coeff7, 5 coeff8, 6 p00, 7 p10, 8 p20, 9 p30, 10 p01/SS2, 11 p11/L2, 12 p21/L3, 13 p31/L4, 14 SS2/L5, 15 SS11/L6, 16 L2/L7, 17 L3/L8, 18 L4/L9, 19 L5/L10, 20 L6/SS11, 21 L7/L11, 22 L8/L12, 23 L9/L13, 24 L10/mask, 25 L11, 26 L12, 27 L13, 28 H2, 29 H3, 30 H4, 31 H5, 32 H6, 33 H7, 34 H8, 35 H9, 36 H10, 37 H11, 38 H12, 39 H13, 40 mask/M, 41 mask. -/
def x3A : Stmt :=
  .seq x3A_1 x3A_30

/-- `intra_pred_ang_x_4_avx`, vec/intrinsic_intra-pred_avx2.cc:943. -/
def x4A_1 : Stmt :=
  .call x4S (.pv (.n 0)) (.pv (.n 1)) (.v 0) (.v 1) (.v 2) (.v 3)

/-- `intra_pred_ang_x_4_avx`, vec/intrinsic_intra-pred_avx2.cc:946-958. -/
def x4A_2 : Stmt :=
  .run [
    .alloc 0 192,  -- 946
    .I 4 (.add (.v 2) (.shl (.sub (.v 3) (.n 1)) 1)),  -- 947
    .I 5 (.shl (.v 3) 1),  -- 949
    .V 0 .zero,  -- 951
    .V 1 (.set1_16 (.n 2)),  -- 952
    .P (.n 0) (.add (.pv (.n 0)) (.n 3)),  -- 955
    .I 6 (.n 0)  -- 958
  ]

/-- `intra_pred_ang_x_4_avx`, vec/intrinsic_intra-pred_avx2.cc:963-994. -/
def x4A_3 : Stmt :=
  .run [
    .V 2 (.ld 32 (.sub (.pv (.n 0)) (.n 1))),  -- 963
    .V 3 (.ld 32 (.pv (.n 0))),  -- 964
    .V 4 (.ld 32 (.add (.pv (.n 0)) (.n 1))),  -- 965
    .V 5 (.o2 .unpacklo8y (.v 2) (.v 0)),  -- 967
    .V 6 (.o2 .unpacklo8y (.v 3) (.v 0)),  -- 968
    .V 7 (.o2 .unpacklo8y (.v 4) (.v 0)),  -- 969
    .V 8 (.o2 .unpackhi8y (.v 2) (.v 0)),  -- 971
    .V 9 (.o2 .unpackhi8y (.v 3) (.v 0)),  -- 972
    .V 10 (.o2 .unpackhi8y (.v 4) (.v 0)),  -- 973
    .V 11 (.o2 (.perm2 32) (.v 5) (.v 8)),  -- 975
    .V 12 (.o2 (.perm2 32) (.v 6) (.v 9)),  -- 976
    .V 13 (.o2 (.perm2 32) (.v 7) (.v 10)),  -- 977
    .V 14 (.o2 .add16 (.v 11) (.v 12)),  -- 978
    .V 15 (.o2 .add16 (.v 12) (.v 13)),  -- 979
    .V 11 (.o2 (.perm2 49) (.v 5) (.v 8)),  -- 982
    .V 12 (.o2 (.perm2 49) (.v 6) (.v 9)),  -- 983
    .V 13 (.o2 (.perm2 49) (.v 7) (.v 10)),  -- 984
    .V 16 (.o2 .add16 (.v 11) (.v 12)),  -- 985
    .V 17 (.o2 .add16 (.v 12) (.v 13)),  -- 986
    .V 14 (.o2 .add16 (.v 14) (.v 15)),  -- 988
    .V 16 (.o2 .add16 (.v 16) (.v 17)),  -- 989
    .V 14 (.o2 .add16 (.v 14) (.v 1)),  -- 991
    .V 16 (.o2 .add16 (.v 16) (.v 1)),  -- 992
    .V 14 (.o1 (.srli16 2) (.v 14))  -- 994
  ]

/-- `intra_pred_ang_x_4_avx`, vec/intrinsic_intra-pred_avx2.cc:958-999. -/
def x4A_4 : Stmt :=
  .run [
    .V 16 (.o1 (.srli16 2) (.v 16)),  -- 995
    .V 14 (.o2 .packus16y (.v 14) (.v 16)),  -- 997
    .V 14 (.o1 (.perm4 216) (.v 14)),  -- 998
    .st 32 (.add (.pa 0) (.v 6)) (.v 14),  -- 999
    .I 6 (.add (.v 6) (.n 32)),  -- 958
    .P (.n 0) (.add (.pv (.n 0)) (.n 32))
  ]

/-- `intra_pred_ang_x_4_avx`, vec/intrinsic_intra-pred_avx2.cc:958. -/
def x4A_5 : Stmt :=
  .loop (.lt (.v 6) (.sub (.v 4) (.n 16))) (.seq x4A_3 x4A_4)

/-- `intra_pred_ang_x_4_avx`, vec/intrinsic_intra-pred_avx2.cc:1008-1030. -/
def x4A_6 : Stmt :=
  .run [
    .V 2 (.ld 32 (.sub (.pv (.n 0)) (.n 1))),  -- 1008
    .V 3 (.ld 32 (.add (.pv (.n 0)) (.n 1))),  -- 1009
    .V 4 (.ld 32 (.pv (.n 0))),  -- 1010
    .V 2 (.o1 (.perm4 216) (.v 2)),  -- 1011
    .V 3 (.o1 (.perm4 216) (.v 3)),  -- 1012
    .V 4 (.o1 (.perm4 216) (.v 4)),  -- 1013
    .V 5 (.o2 .unpacklo8y (.v 2) (.v 0)),  -- 1015
    .V 6 (.o2 .unpacklo8y (.v 4) (.v 0)),  -- 1016
    .V 7 (.o2 .unpacklo8y (.v 3) (.v 0)),  -- 1017
    .V 8 (.o2 .add16 (.v 5) (.v 6)),  -- 1019
    .V 9 (.o2 .add16 (.v 6) (.v 7)),  -- 1020
    .V 8 (.o2 .add16 (.v 8) (.v 9)),  -- 1022
    .V 8 (.o2 .add16 (.v 8) (.v 1)),  -- 1023
    .V 8 (.o1 (.srli16 2) (.v 8)),  -- 1024
    .V 8 (.o2 .packus16y (.v 8) (.v 8)),  -- 1026
    .V 8 (.o1 (.perm4 8) (.v 8)),  -- 1027
    .V 10 (.mask 16 (.n 15)),  -- 1029
    .mst 8 32 (.add (.pa 0) (.v 6)) (.v 10) (.v 8)  -- 1030
  ]

/-- `intra_pred_ang_x_4_avx`, vec/intrinsic_intra-pred_avx2.cc:1003. -/
def x4A_7 : Stmt :=
  .ite (.lt (.v 6) (.v 4)) x4A_6 (.run [])

/-- `intra_pred_ang_x_4_avx`, vec/intrinsic_intra-pred_avx2.cc:1037. -/
def x4A_8 : Stmt :=
  .run [
    .I 6 (.n 0)  -- 1037
  ]

/-- `intra_pred_ang_x_4_avx`, vec/intrinsic_intra-pred_avx2.cc:1037-1057. -/
def x4A_9 : Stmt :=
  .run [
    .V 2 (.ld 32 (.add (.pa 0) (.v 6))),  -- 1038
    .st 32 (.pv (.n 1)) (.v 2),  -- 1039
    .V 2 (.ld 32 (.add (.add (.pa 0) (.v 6)) (.n 32))),  -- 1040
    .st 32 (.add (.pv (.n 1)) (.n 32)) (.v 2),  -- 1041
    .P (.n 1) (.add (.pv (.n 1)) (.v 0)),  -- 1042
    .V 2 (.ld 32 (.add (.pa 0) (.add (.v 6) (.n 2)))),  -- 1043
    .st 32 (.pv (.n 1)) (.v 2),  -- 1044
    .V 2 (.ld 32 (.add (.add (.pa 0) (.add (.v 6) (.n 2))) (.n 32))),  -- 1045
    .st 32 (.add (.pv (.n 1)) (.n 32)) (.v 2),  -- 1046
    .P (.n 1) (.add (.pv (.n 1)) (.v 0)),  -- 1047
    .V 2 (.ld 32 (.add (.pa 0) (.add (.v 6) (.n 4)))),  -- 1048
    .st 32 (.pv (.n 1)) (.v 2),  -- 1049
    .V 2 (.ld 32 (.add (.add (.pa 0) (.add (.v 6) (.n 4))) (.n 32))),  -- 1050
    .st 32 (.add (.pv (.n 1)) (.n 32)) (.v 2),  -- 1051
    .P (.n 1) (.add (.pv (.n 1)) (.v 0)),  -- 1052
    .V 2 (.ld 32 (.add (.pa 0) (.add (.v 6) (.n 6)))),  -- 1053
    .st 32 (.pv (.n 1)) (.v 2),  -- 1054
    .V 2 (.ld 32 (.add (.add (.pa 0) (.add (.v 6) (.n 6))) (.n 32))),  -- 1055
    .st 32 (.add (.pv (.n 1)) (.n 32)) (.v 2),  -- 1056
    .P (.n 1) (.add (.pv (.n 1)) (.v 0)),  -- 1057
    .I 6 (.add (.v 6) (.n 8))  -- 1037
  ]

/-- `intra_pred_ang_x_4_avx`, vec/intrinsic_intra-pred_avx2.cc:1037. -/
def x4A_10 : Stmt :=
  .loop (.lt (.v 6) (.v 5)) x4A_9

/-- `intra_pred_ang_x_4_avx`, vec/intrinsic_intra-pred_avx2.cc:1060. -/
def x4A_11 : Stmt :=
  .run [
    .I 6 (.n 0)  -- 1060
  ]

/-- `intra_pred_ang_x_4_avx`, vec/intrinsic_intra-pred_avx2.cc:1060-1072. -/
def x4A_12 : Stmt :=
  .run [
    .V 2 (.ld 32 (.add (.pa 0) (.v 6))),  -- 1061
    .st 32 (.pv (.n 1)) (.v 2),  -- 1062
    .P (.n 1) (.add (.pv (.n 1)) (.v 0)),  -- 1063
    .V 2 (.ld 32 (.add (.pa 0) (.add (.v 6) (.n 2)))),  -- 1064
    .st 32 (.pv (.n 1)) (.v 2),  -- 1065
    .P (.n 1) (.add (.pv (.n 1)) (.v 0)),  -- 1066
    .V 2 (.ld 32 (.add (.pa 0) (.add (.v 6) (.n 4)))),  -- 1067
    .st 32 (.pv (.n 1)) (.v 2),  -- 1068
    .P (.n 1) (.add (.pv (.n 1)) (.v 0)),  -- 1069
    .V 2 (.ld 32 (.add (.pa 0) (.add (.v 6) (.n 6)))),  -- 1070
    .st 32 (.pv (.n 1)) (.v 2),  -- 1071
    .P (.n 1) (.add (.pv (.n 1)) (.v 0)),  -- 1072
    .I 6 (.add (.v 6) (.n 8))  -- 1060
  ]

/-- `intra_pred_ang_x_4_avx`, vec/intrinsic_intra-pred_avx2.cc:1060. -/
def x4A_13 : Stmt :=
  .loop (.lt (.v 6) (.v 5)) x4A_12

/-- `intra_pred_ang_x_4_avx`, vec/intrinsic_intra-pred_avx2.cc:1075-1076. -/
def x4A_14 : Stmt :=
  .run [
    .V 2 (.mask 16 (.sub (.v 2) (.n 1))),  -- 1075
    .I 6 (.n 0)  -- 1076
  ]

/-- `intra_pred_ang_x_4_avx`, vec/intrinsic_intra-pred_avx2.cc:1076-1088. -/
def x4A_15 : Stmt :=
  .run [
    .V 3 (.ld 32 (.add (.pa 0) (.v 6))),  -- 1077
    .mst 8 32 (.pv (.n 1)) (.v 2) (.v 3),  -- 1078
    .P (.n 1) (.add (.pv (.n 1)) (.v 0)),  -- 1079
    .V 3 (.ld 32 (.add (.pa 0) (.add (.v 6) (.n 2)))),  -- 1080
    .mst 8 32 (.pv (.n 1)) (.v 2) (.v 3),  -- 1081
    .P (.n 1) (.add (.pv (.n 1)) (.v 0)),  -- 1082
    .V 3 (.ld 32 (.add (.pa 0) (.add (.v 6) (.n 4)))),  -- 1083
    .mst 8 32 (.pv (.n 1)) (.v 2) (.v 3),  -- 1084
    .P (.n 1) (.add (.pv (.n 1)) (.v 0)),  -- 1085
    .V 3 (.ld 32 (.add (.pa 0) (.add (.v 6) (.n 6)))),  -- 1086
    .mst 8 32 (.pv (.n 1)) (.v 2) (.v 3),  -- 1087
    .P (.n 1) (.add (.pv (.n 1)) (.v 0)),  -- 1088
    .I 6 (.add (.v 6) (.n 8))  -- 1076
  ]

/-- `intra_pred_ang_x_4_avx`, vec/intrinsic_intra-pred_avx2.cc:1076. -/
def x4A_16 : Stmt :=
  .loop (.lt (.v 6) (.v 5)) x4A_15

/-- `intra_pred_ang_x_4_avx`, vec/intrinsic_intra-pred_avx2.cc:1091-1092. -/
def x4A_17 : Stmt :=
  .run [
    .V 2 (.mask 16 (.sub (.v 2) (.n 1))),  -- 1091
    .I 6 (.n 0)  -- 1092
  ]

/-- `intra_pred_ang_x_4_avx`, vec/intrinsic_intra-pred_avx2.cc:1092-1104. -/
def x4A_18 : Stmt :=
  .run [
    .V 3 (.ld 32 (.add (.pa 0) (.v 6))),  -- 1093
    .mst 8 32 (.pv (.n 1)) (.v 2) (.v 3),  -- 1094
    .P (.n 1) (.add (.pv (.n 1)) (.v 0)),  -- 1095
    .V 3 (.o1 (.srliBy 2) (.v 3)),  -- 1096
    .mst 8 32 (.pv (.n 1)) (.v 2) (.v 3),  -- 1097
    .P (.n 1) (.add (.pv (.n 1)) (.v 0)),  -- 1098
    .V 3 (.o1 (.srliBy 2) (.v 3)),  -- 1099
    .mst 8 32 (.pv (.n 1)) (.v 2) (.v 3),  -- 1100
    .P (.n 1) (.add (.pv (.n 1)) (.v 0)),  -- 1101
    .V 3 (.o1 (.srliBy 2) (.v 3)),  -- 1102
    .mst 8 32 (.pv (.n 1)) (.v 2) (.v 3),  -- 1103
    .P (.n 1) (.add (.pv (.n 1)) (.v 0)),  -- 1104
    .I 6 (.add (.v 6) (.n 8))  -- 1092
  ]

/-- `intra_pred_ang_x_4_avx`, vec/intrinsic_intra-pred_avx2.cc:1092. -/
def x4A_19 : Stmt :=
  .loop (.lt (.v 6) (.v 5)) x4A_18

/-- `intra_pred_ang_x_4_avx`, vec/intrinsic_intra-pred_avx2.cc:1107-1108. -/
def x4A_20 : Stmt :=
  .run [
    .V 2 (.mask 16 (.sub (.v 2) (.n 1))),  -- 1107
    .I 6 (.n 0)  -- 1108
  ]

/-- `intra_pred_ang_x_4_avx`, vec/intrinsic_intra-pred_avx2.cc:1108-1120. -/
def x4A_21 : Stmt :=
  .run [
    .V 3 (.ld 32 (.add (.pa 0) (.v 6))),  -- 1109
    .mst 4 32 (.pv (.n 1)) (.v 2) (.v 3),  -- 1110
    .P (.n 1) (.add (.pv (.n 1)) (.v 0)),  -- 1111
    .V 3 (.o1 (.srliBy 2) (.v 3)),  -- 1112
    .mst 4 32 (.pv (.n 1)) (.v 2) (.v 3),  -- 1113
    .P (.n 1) (.add (.pv (.n 1)) (.v 0)),  -- 1114
    .V 3 (.o1 (.srliBy 2) (.v 3)),  -- 1115
    .mst 4 32 (.pv (.n 1)) (.v 2) (.v 3),  -- 1116
    .P (.n 1) (.add (.pv (.n 1)) (.v 0)),  -- 1117
    .V 3 (.o1 (.srliBy 2) (.v 3)),  -- 1118
    .mst 4 32 (.pv (.n 1)) (.v 2) (.v 3),  -- 1119
    .P (.n 1) (.add (.pv (.n 1)) (.v 0)),  -- 1120
    .I 6 (.add (.v 6) (.n 8))  -- 1108
  ]

/-- `intra_pred_ang_x_4_avx`, vec/intrinsic_intra-pred_avx2.cc:1108. -/
def x4A_22 : Stmt :=
  .loop (.lt (.v 6) (.v 5)) x4A_21

/-- `intra_pred_ang_x_4_avx`, vec/intrinsic_intra-pred_avx2.cc:1090. -/
def x4A_23 : Stmt :=
  .ite (.eq (.v 2) (.n 8)) (.seq x4A_17 x4A_19) (.seq x4A_20 x4A_22)

/-- `intra_pred_ang_x_4_avx`, vec/intrinsic_intra-pred_avx2.cc:1074. -/
def x4A_24 : Stmt :=
  .ite (.eq (.v 2) (.n 16)) (.seq x4A_14 x4A_16) x4A_23

/-- `intra_pred_ang_x_4_avx`, vec/intrinsic_intra-pred_avx2.cc:1059. -/
def x4A_25 : Stmt :=
  .ite (.eq (.v 2) (.n 32)) (.seq x4A_11 x4A_13) x4A_24

/-- `intra_pred_ang_x_4_avx`, vec/intrinsic_intra-pred_avx2.cc:1035. -/
def x4A_26 : Stmt :=
  .ite (.eq (.v 2) (.n 64)) (.seq x4A_8 x4A_10) x4A_25

/-- `intra_pred_ang_x_4_avx`, vec/intrinsic_intra-pred_avx2.cc:942. -/
def x4A_27 : Stmt :=
  .ite (.and (.ne (.v 2) (.v 3)) (.lt (.v 2) (.v 3))) x4A_1 (.seq x4A_2 (.seq x4A_5 (.seq x4A_7 x4A_26)))

/-- `intra_pred_ang_x_4_avx`, source/common/vec/intrinsic_intra-pred_avx2.cc:940-1147.  Variables:
I: 0 i_dst, 1 dir_mode, 2 bsx, 3 bsy, 4 line_size, 5 iHeight2, 6 i;
P: 0 src, 1 dst;
V: 0 zero, 1 offset, 2 S0/M/mask, 3 S1/S2/M, 4 S2/S1, 5 L0, 6 L1, 7 L2, 8 H0/sum1, 9 H1/sum2, 10 H2/mask2, 11 tmp0, 12 tmp1, 13 tmp2, 14 sum1, 15 sum2, 16 sum3, 17 sum4. -/
def x4A : Stmt :=
  x4A_27

/-- `intra_pred_ang_x_5_avx`, vec/intrinsic_intra-pred_avx2.cc:1151-1161. -/
def x5A_1 : Stmt :=
  .run [
    .V 0 (.set1_16 (.n 2)),  -- 1151
    .V 1 (.set1_16 (.n 3)),  -- 1152
    .V 2 (.set1_16 (.n 4)),  -- 1153
    .V 3 (.set1_16 (.n 5)),  -- 1154
    .V 4 (.set1_16 (.n 7)),  -- 1155
    .V 5 (.set1_16 (.n 8)),  -- 1156
    .V 6 (.set1_16 (.n 9)),  -- 1157
    .V 7 (.set1_16 (.n 11)),  -- 1158
    .V 8 (.set1_16 (.n 13)),  -- 1159
    .V 9 (.set1_16 (.n 15)),  -- 1160
    .V 10 (.set1_16 (.n 16))  -- 1161
  ]

/-- `intra_pred_ang_x_5_avx`, vec/intrinsic_intra-pred_avx2.cc:1167-1206. -/
def x5A_2 : Stmt :=
  .run [
    .alloc 0 1280,  -- 1167
    .I 5 (.add (.v 2) (.mul (.shr (.sub (.v 3) (.n 8)) 3) (.n 11))),  -- 1168
    .I 6 (.add (.shl (.shr (.add (.v 5) (.n 15)) 4) 4) (.n 16)),  -- 1173
    .P (.n 10) (.pv (.n 1)),  -- 1179
    .P (.n 11) (.add (.pv (.n 10)) (.v 0)),  -- 1180
    .P (.n 12) (.add (.pv (.n 11)) (.v 0)),  -- 1181
    .P (.n 13) (.add (.pv (.n 12)) (.v 0)),  -- 1182
    .P (.n 14) (.add (.pv (.n 13)) (.v 0)),  -- 1183
    .P (.n 15) (.add (.pv (.n 14)) (.v 0)),  -- 1184
    .P (.n 16) (.add (.pv (.n 15)) (.v 0)),  -- 1185
    .P (.n 17) (.add (.pv (.n 16)) (.v 0)),  -- 1186
    .P (.n 2) (.pa 0),  -- 1188
    .P (.n 3) (.add (.pv (.n 2)) (.v 6)),  -- 1189
    .P (.n 4) (.add (.pv (.n 3)) (.v 6)),  -- 1190
    .P (.n 5) (.add (.pv (.n 4)) (.v 6)),  -- 1191
    .P (.n 6) (.add (.pv (.n 5)) (.v 6)),  -- 1192
    .P (.n 7) (.add (.pv (.n 6)) (.v 6)),  -- 1193
    .P (.n 8) (.add (.pv (.n 7)) (.v 6)),  -- 1194
    .P (.n 9) (.add (.pv (.n 8)) (.v 6)),  -- 1195
    .I 4 (.n 0)  -- 1206
  ]

/-- `intra_pred_ang_x_5_avx`, vec/intrinsic_intra-pred_avx2.cc:1210-1233. -/
def x5A_3 : Stmt :=
  .run [
    .V 19 (.ld 32 (.add (.pv (.n 0)) (.n 1))),  -- 1210
    .V 20 (.o1 .cvtu8 (.o1 (.half 0) (.v 19))),  -- 1211
    .V 33 (.o1 .cvtu8 (.o1 (.half 1) (.v 19))),  -- 1212
    .V 19 (.ld 32 (.add (.pv (.n 0)) (.n 2))),  -- 1213
    .V 21 (.o1 .cvtu8 (.o1 (.half 0) (.v 19))),  -- 1214
    .V 34 (.o1 .cvtu8 (.o1 (.half 1) (.v 19))),  -- 1215
    .V 19 (.ld 32 (.add (.pv (.n 0)) (.n 3))),  -- 1216
    .V 22 (.o1 .cvtu8 (.o1 (.half 0) (.v 19))),  -- 1217
    .V 35 (.o1 .cvtu8 (.o1 (.half 1) (.v 19))),  -- 1218
    .V 19 (.ld 32 (.add (.pv (.n 0)) (.n 4))),  -- 1219
    .V 23 (.o1 .cvtu8 (.o1 (.half 0) (.v 19))),  -- 1220
    .V 36 (.o1 .cvtu8 (.o1 (.half 1) (.v 19))),  -- 1221
    .V 19 (.ld 32 (.add (.pv (.n 0)) (.n 5))),  -- 1222
    .V 24 (.o1 .cvtu8 (.o1 (.half 0) (.v 19))),  -- 1223
    .V 37 (.o1 .cvtu8 (.o1 (.half 1) (.v 19))),  -- 1224
    .V 19 (.ld 32 (.add (.pv (.n 0)) (.n 6))),  -- 1225
    .V 25 (.o1 .cvtu8 (.o1 (.half 0) (.v 19))),  -- 1226
    .V 38 (.o1 .cvtu8 (.o1 (.half 1) (.v 19))),  -- 1227
    .V 19 (.ld 32 (.add (.pv (.n 0)) (.n 7))),  -- 1228
    .V 26 (.o1 .cvtu8 (.o1 (.half 0) (.v 19))),  -- 1229
    .V 39 (.o1 .cvtu8 (.o1 (.half 1) (.v 19))),  -- 1230
    .V 19 (.ld 32 (.add (.pv (.n 0)) (.n 8))),  -- 1231
    .V 27 (.o1 .cvtu8 (.o1 (.half 0) (.v 19))),  -- 1232
    .V 40 (.o1 .cvtu8 (.o1 (.half 1) (.v 19)))  -- 1233
  ]

/-- `intra_pred_ang_x_5_avx`, vec/intrinsic_intra-pred_avx2.cc:1234-1258. -/
def x5A_4 : Stmt :=
  .run [
    .V 19 (.ld 32 (.add (.pv (.n 0)) (.n 9))),  -- 1234
    .V 28 (.o1 .cvtu8 (.o1 (.half 0) (.v 19))),  -- 1235
    .V 41 (.o1 .cvtu8 (.o1 (.half 1) (.v 19))),  -- 1236
    .V 19 (.ld 32 (.add (.pv (.n 0)) (.n 10))),  -- 1237
    .V 29 (.o1 .cvtu8 (.o1 (.half 0) (.v 19))),  -- 1238
    .V 42 (.o1 .cvtu8 (.o1 (.half 1) (.v 19))),  -- 1239
    .V 19 (.ld 32 (.add (.pv (.n 0)) (.n 11))),  -- 1240
    .V 30 (.o1 .cvtu8 (.o1 (.half 0) (.v 19))),  -- 1241
    .V 43 (.o1 .cvtu8 (.o1 (.half 1) (.v 19))),  -- 1242
    .V 19 (.ld 32 (.add (.pv (.n 0)) (.n 12))),  -- 1243
    .V 31 (.o1 .cvtu8 (.o1 (.half 0) (.v 19))),  -- 1244
    .V 44 (.o1 .cvtu8 (.o1 (.half 1) (.v 19))),  -- 1245
    .V 19 (.ld 32 (.add (.pv (.n 0)) (.n 13))),  -- 1246
    .V 32 (.o1 .cvtu8 (.o1 (.half 0) (.v 19))),  -- 1247
    .V 45 (.o1 .cvtu8 (.o1 (.half 1) (.v 19))),  -- 1248
    .V 11 (.o2 .mullo16 (.v 20) (.v 3)),  -- 1250
    .V 12 (.o2 .mullo16 (.v 21) (.v 8)),  -- 1251
    .V 13 (.o2 .mullo16 (.v 22) (.v 7)),  -- 1252
    .V 14 (.o2 .mullo16 (.v 23) (.v 1)),  -- 1253
    .V 11 (.o2 .add16 (.v 11) (.v 10)),  -- 1254
    .V 11 (.o2 .add16 (.v 11) (.v 12)),  -- 1255
    .V 11 (.o2 .add16 (.v 11) (.v 13)),  -- 1256
    .V 11 (.o2 .add16 (.v 11) (.v 14)),  -- 1257
    .V 11 (.o1 (.srli16 5) (.v 11))  -- 1258
  ]

/-- `intra_pred_ang_x_5_avx`, vec/intrinsic_intra-pred_avx2.cc:1260-1286. -/
def x5A_5 : Stmt :=
  .run [
    .V 15 (.o2 .mullo16 (.v 33) (.v 3)),  -- 1260
    .V 16 (.o2 .mullo16 (.v 34) (.v 8)),  -- 1261
    .V 17 (.o2 .mullo16 (.v 35) (.v 7)),  -- 1262
    .V 18 (.o2 .mullo16 (.v 36) (.v 1)),  -- 1263
    .V 15 (.o2 .add16 (.v 15) (.v 10)),  -- 1264
    .V 15 (.o2 .add16 (.v 15) (.v 16)),  -- 1265
    .V 15 (.o2 .add16 (.v 15) (.v 17)),  -- 1266
    .V 15 (.o2 .add16 (.v 15) (.v 18)),  -- 1267
    .V 15 (.o1 (.srli16 5) (.v 15)),  -- 1268
    .V 11 (.o2 .packus16y (.v 11) (.v 15)),  -- 1270
    .V 11 (.o1 (.perm4 216) (.v 11)),  -- 1271
    .st 32 (.add (.pv (.n 2)) (.v 4)) (.v 11),  -- 1272
    .V 12 (.o2 .mullo16 (.v 22) (.v 3)),  -- 1274
    .V 13 (.o2 .mullo16 (.v 23) (.v 4)),  -- 1275
    .V 14 (.o2 .mullo16 (.v 24) (.v 1)),  -- 1276
    .V 11 (.o2 .add16 (.v 21) (.v 5)),  -- 1277
    .V 11 (.o2 .add16 (.v 11) (.v 12)),  -- 1278
    .V 11 (.o2 .add16 (.v 11) (.v 13)),  -- 1279
    .V 11 (.o2 .add16 (.v 11) (.v 14)),  -- 1280
    .V 11 (.o1 (.srli16 4) (.v 11)),  -- 1281
    .V 16 (.o2 .mullo16 (.v 35) (.v 3)),  -- 1283
    .V 17 (.o2 .mullo16 (.v 36) (.v 4)),  -- 1284
    .V 18 (.o2 .mullo16 (.v 37) (.v 1)),  -- 1285
    .V 15 (.o2 .add16 (.v 34) (.v 5))  -- 1286
  ]

/-- `intra_pred_ang_x_5_avx`, vec/intrinsic_intra-pred_avx2.cc:1287-1314. -/
def x5A_6 : Stmt :=
  .run [
    .V 15 (.o2 .add16 (.v 15) (.v 16)),  -- 1287
    .V 15 (.o2 .add16 (.v 15) (.v 17)),  -- 1288
    .V 15 (.o2 .add16 (.v 15) (.v 18)),  -- 1289
    .V 15 (.o1 (.srli16 4) (.v 15)),  -- 1290
    .V 11 (.o2 .packus16y (.v 11) (.v 15)),  -- 1292
    .V 11 (.o1 (.perm4 216) (.v 11)),  -- 1293
    .st 32 (.add (.pv (.n 3)) (.v 4)) (.v 11),  -- 1294
    .V 11 (.o2 .mullo16 (.v 23) (.v 4)),  -- 1296
    .V 12 (.o2 .mullo16 (.v 24) (.v 9)),  -- 1297
    .V 13 (.o2 .mullo16 (.v 25) (.v 6)),  -- 1298
    .V 14 (.o2 .add16 (.v 26) (.v 10)),  -- 1299
    .V 11 (.o2 .add16 (.v 11) (.v 12)),  -- 1300
    .V 11 (.o2 .add16 (.v 11) (.v 13)),  -- 1301
    .V 11 (.o2 .add16 (.v 11) (.v 14)),  -- 1302
    .V 11 (.o1 (.srli16 5) (.v 11)),  -- 1303
    .V 15 (.o2 .mullo16 (.v 36) (.v 4)),  -- 1305
    .V 16 (.o2 .mullo16 (.v 37) (.v 9)),  -- 1306
    .V 17 (.o2 .mullo16 (.v 38) (.v 6)),  -- 1307
    .V 18 (.o2 .add16 (.v 39) (.v 10)),  -- 1308
    .V 15 (.o2 .add16 (.v 15) (.v 16)),  -- 1309
    .V 15 (.o2 .add16 (.v 15) (.v 17)),  -- 1310
    .V 15 (.o2 .add16 (.v 15) (.v 18)),  -- 1311
    .V 15 (.o1 (.srli16 5) (.v 15)),  -- 1312
    .V 11 (.o2 .packus16y (.v 11) (.v 15))  -- 1314
  ]

/-- `intra_pred_ang_x_5_avx`, vec/intrinsic_intra-pred_avx2.cc:1315-1342. -/
def x5A_7 : Stmt :=
  .run [
    .V 11 (.o1 (.perm4 216) (.v 11)),  -- 1315
    .st 32 (.add (.pv (.n 4)) (.v 4)) (.v 11),  -- 1316
    .V 11 (.o2 .add16 (.v 24) (.v 27)),  -- 1318
    .V 12 (.o2 .add16 (.v 25) (.v 26)),  -- 1319
    .V 12 (.o2 .mullo16 (.v 12) (.v 1)),  -- 1320
    .V 11 (.o2 .add16 (.v 11) (.v 2)),  -- 1321
    .V 11 (.o2 .add16 (.v 11) (.v 12)),  -- 1322
    .V 11 (.o1 (.srli16 3) (.v 11)),  -- 1323
    .V 15 (.o2 .add16 (.v 37) (.v 40)),  -- 1325
    .V 16 (.o2 .add16 (.v 38) (.v 39)),  -- 1326
    .V 16 (.o2 .mullo16 (.v 16) (.v 1)),  -- 1327
    .V 15 (.o2 .add16 (.v 15) (.v 2)),  -- 1328
    .V 15 (.o2 .add16 (.v 15) (.v 16)),  -- 1329
    .V 15 (.o1 (.srli16 3) (.v 15)),  -- 1330
    .V 11 (.o2 .packus16y (.v 11) (.v 15)),  -- 1332
    .V 11 (.o1 (.perm4 216) (.v 11)),  -- 1333
    .st 32 (.add (.pv (.n 5)) (.v 4)) (.v 11),  -- 1334
    .V 11 (.o2 .add16 (.v 25) (.v 10)),  -- 1336
    .V 12 (.o2 .mullo16 (.v 26) (.v 6)),  -- 1337
    .V 13 (.o2 .mullo16 (.v 27) (.v 9)),  -- 1338
    .V 14 (.o2 .mullo16 (.v 28) (.v 4)),  -- 1339
    .V 11 (.o2 .add16 (.v 11) (.v 12)),  -- 1340
    .V 11 (.o2 .add16 (.v 11) (.v 13)),  -- 1341
    .V 11 (.o2 .add16 (.v 11) (.v 14))  -- 1342
  ]

/-- `intra_pred_ang_x_5_avx`, vec/intrinsic_intra-pred_avx2.cc:1343-1370. -/
def x5A_8 : Stmt :=
  .run [
    .V 11 (.o1 (.srli16 5) (.v 11)),  -- 1343
    .V 15 (.o2 .add16 (.v 38) (.v 10)),  -- 1345
    .V 16 (.o2 .mullo16 (.v 39) (.v 6)),  -- 1346
    .V 17 (.o2 .mullo16 (.v 40) (.v 9)),  -- 1347
    .V 18 (.o2 .mullo16 (.v 41) (.v 4)),  -- 1348
    .V 15 (.o2 .add16 (.v 15) (.v 16)),  -- 1349
    .V 15 (.o2 .add16 (.v 15) (.v 17)),  -- 1350
    .V 15 (.o2 .add16 (.v 15) (.v 18)),  -- 1351
    .V 15 (.o1 (.srli16 5) (.v 15)),  -- 1352
    .V 11 (.o2 .packus16y (.v 11) (.v 15)),  -- 1354
    .V 11 (.o1 (.perm4 216) (.v 11)),  -- 1355
    .st 32 (.add (.pv (.n 6)) (.v 4)) (.v 11),  -- 1356
    .V 11 (.o2 .mullo16 (.v 27) (.v 1)),  -- 1358
    .V 12 (.o2 .mullo16 (.v 28) (.v 4)),  -- 1359
    .V 13 (.o2 .mullo16 (.v 29) (.v 3)),  -- 1360
    .V 14 (.o2 .add16 (.v 30) (.v 5)),  -- 1361
    .V 11 (.o2 .add16 (.v 11) (.v 12)),  -- 1362
    .V 11 (.o2 .add16 (.v 11) (.v 13)),  -- 1363
    .V 11 (.o2 .add16 (.v 11) (.v 14)),  -- 1364
    .V 11 (.o1 (.srli16 4) (.v 11)),  -- 1365
    .V 15 (.o2 .mullo16 (.v 40) (.v 1)),  -- 1367
    .V 16 (.o2 .mullo16 (.v 41) (.v 4)),  -- 1368
    .V 17 (.o2 .mullo16 (.v 42) (.v 3)),  -- 1369
    .V 18 (.o2 .add16 (.v 43) (.v 5))  -- 1370
  ]

/-- `intra_pred_ang_x_5_avx`, vec/intrinsic_intra-pred_avx2.cc:1371-1397. -/
def x5A_9 : Stmt :=
  .run [
    .V 15 (.o2 .add16 (.v 15) (.v 16)),  -- 1371
    .V 15 (.o2 .add16 (.v 15) (.v 17)),  -- 1372
    .V 15 (.o2 .add16 (.v 15) (.v 18)),  -- 1373
    .V 15 (.o1 (.srli16 4) (.v 15)),  -- 1374
    .V 11 (.o2 .packus16y (.v 11) (.v 15)),  -- 1376
    .V 11 (.o1 (.perm4 216) (.v 11)),  -- 1377
    .st 32 (.add (.pv (.n 7)) (.v 4)) (.v 11),  -- 1378
    .V 11 (.o2 .mullo16 (.v 28) (.v 1)),  -- 1380
    .V 12 (.o2 .mullo16 (.v 29) (.v 7)),  -- 1381
    .V 13 (.o2 .mullo16 (.v 30) (.v 8)),  -- 1382
    .V 14 (.o2 .mullo16 (.v 31) (.v 3)),  -- 1383
    .V 11 (.o2 .add16 (.v 11) (.v 10)),  -- 1384
    .V 11 (.o2 .add16 (.v 11) (.v 12)),  -- 1385
    .V 11 (.o2 .add16 (.v 11) (.v 13)),  -- 1386
    .V 11 (.o2 .add16 (.v 11) (.v 14)),  -- 1387
    .V 11 (.o1 (.srli16 5) (.v 11)),  -- 1388
    .V 15 (.o2 .mullo16 (.v 41) (.v 1)),  -- 1390
    .V 16 (.o2 .mullo16 (.v 42) (.v 7)),  -- 1391
    .V 17 (.o2 .mullo16 (.v 43) (.v 8)),  -- 1392
    .V 18 (.o2 .mullo16 (.v 44) (.v 3)),  -- 1393
    .V 15 (.o2 .add16 (.v 15) (.v 10)),  -- 1394
    .V 15 (.o2 .add16 (.v 15) (.v 16)),  -- 1395
    .V 15 (.o2 .add16 (.v 15) (.v 17)),  -- 1396
    .V 15 (.o2 .add16 (.v 15) (.v 18))  -- 1397
  ]

/-- `intra_pred_ang_x_5_avx`, vec/intrinsic_intra-pred_avx2.cc:1206-1418. -/
def x5A_10 : Stmt :=
  .run [
    .V 15 (.o1 (.srli16 5) (.v 15)),  -- 1398
    .V 11 (.o2 .packus16y (.v 11) (.v 15)),  -- 1400
    .V 11 (.o1 (.perm4 216) (.v 11)),  -- 1401
    .st 32 (.add (.pv (.n 8)) (.v 4)) (.v 11),  -- 1402
    .V 11 (.o2 .add16 (.v 30) (.v 32)),  -- 1404
    .V 12 (.o2 .add16 (.v 31) (.v 31)),  -- 1405
    .V 11 (.o2 .add16 (.v 11) (.v 0)),  -- 1406
    .V 11 (.o2 .add16 (.v 11) (.v 12)),  -- 1407
    .V 11 (.o1 (.srli16 2) (.v 11)),  -- 1408
    .V 15 (.o2 .add16 (.v 43) (.v 45)),  -- 1410
    .V 16 (.o2 .add16 (.v 44) (.v 44)),  -- 1411
    .V 15 (.o2 .add16 (.v 15) (.v 0)),  -- 1412
    .V 15 (.o2 .add16 (.v 15) (.v 16)),  -- 1413
    .V 15 (.o1 (.srli16 2) (.v 15)),  -- 1414
    .V 11 (.o2 .packus16y (.v 11) (.v 15)),  -- 1416
    .V 11 (.o1 (.perm4 216) (.v 11)),  -- 1417
    .st 32 (.add (.pv (.n 9)) (.v 4)) (.v 11),  -- 1418
    .I 4 (.add (.v 4) (.n 32)),  -- 1206
    .P (.n 0) (.add (.pv (.n 0)) (.n 32))
  ]

/-- `intra_pred_ang_x_5_avx`, vec/intrinsic_intra-pred_avx2.cc:1206. -/
def x5A_11 : Stmt :=
  .loop (.lt (.v 4) (.sub (.v 5) (.n 16))) (.seq x5A_3 (.seq x5A_4 (.seq x5A_5 (.seq x5A_6 (.seq x5A_7 (.seq x5A_8 (.seq x5A_9 x5A_10)))))))

/-- `intra_pred_ang_x_5_avx`, vec/intrinsic_intra-pred_avx2.cc:1425-1448. -/
def x5A_12 : Stmt :=
  .run [
    .V 19 (.ld 32 (.add (.pv (.n 0)) (.n 1))),  -- 1425
    .V 20 (.o1 .cvtu8 (.o1 (.half 0) (.v 19))),  -- 1426
    .V 19 (.ld 32 (.add (.pv (.n 0)) (.n 2))),  -- 1427
    .V 21 (.o1 .cvtu8 (.o1 (.half 0) (.v 19))),  -- 1428
    .V 19 (.ld 32 (.add (.pv (.n 0)) (.n 3))),  -- 1429
    .V 22 (.o1 .cvtu8 (.o1 (.half 0) (.v 19))),  -- 1430
    .V 19 (.ld 32 (.add (.pv (.n 0)) (.n 4))),  -- 1431
    .V 23 (.o1 .cvtu8 (.o1 (.half 0) (.v 19))),  -- 1432
    .V 19 (.ld 32 (.add (.pv (.n 0)) (.n 5))),  -- 1433
    .V 24 (.o1 .cvtu8 (.o1 (.half 0) (.v 19))),  -- 1434
    .V 19 (.ld 32 (.add (.pv (.n 0)) (.n 6))),  -- 1435
    .V 25 (.o1 .cvtu8 (.o1 (.half 0) (.v 19))),  -- 1436
    .V 19 (.ld 32 (.add (.pv (.n 0)) (.n 7))),  -- 1437
    .V 26 (.o1 .cvtu8 (.o1 (.half 0) (.v 19))),  -- 1438
    .V 19 (.ld 32 (.add (.pv (.n 0)) (.n 8))),  -- 1439
    .V 27 (.o1 .cvtu8 (.o1 (.half 0) (.v 19))),  -- 1440
    .V 19 (.ld 32 (.add (.pv (.n 0)) (.n 9))),  -- 1441
    .V 28 (.o1 .cvtu8 (.o1 (.half 0) (.v 19))),  -- 1442
    .V 19 (.ld 32 (.add (.pv (.n 0)) (.n 10))),  -- 1443
    .V 29 (.o1 .cvtu8 (.o1 (.half 0) (.v 19))),  -- 1444
    .V 19 (.ld 32 (.add (.pv (.n 0)) (.n 11))),  -- 1445
    .V 30 (.o1 .cvtu8 (.o1 (.half 0) (.v 19))),  -- 1446
    .V 19 (.ld 32 (.add (.pv (.n 0)) (.n 12))),  -- 1447
    .V 31 (.o1 .cvtu8 (.o1 (.half 0) (.v 19)))  -- 1448
  ]

/-- `intra_pred_ang_x_5_avx`, vec/intrinsic_intra-pred_avx2.cc:1449-1476. -/
def x5A_13 : Stmt :=
  .run [
    .V 19 (.ld 32 (.add (.pv (.n 0)) (.n 13))),  -- 1449
    .V 32 (.o1 .cvtu8 (.o1 (.half 0) (.v 19))),  -- 1450
    .V 11 (.o2 .mullo16 (.v 20) (.v 3)),  -- 1452
    .V 12 (.o2 .mullo16 (.v 21) (.v 8)),  -- 1453
    .V 13 (.o2 .mullo16 (.v 22) (.v 7)),  -- 1454
    .V 14 (.o2 .mullo16 (.v 23) (.v 1)),  -- 1455
    .V 11 (.o2 .add16 (.v 11) (.v 10)),  -- 1456
    .V 11 (.o2 .add16 (.v 11) (.v 12)),  -- 1457
    .V 11 (.o2 .add16 (.v 11) (.v 13)),  -- 1458
    .V 11 (.o2 .add16 (.v 11) (.v 14)),  -- 1459
    .V 11 (.o1 (.srli16 5) (.v 11)),  -- 1460
    .V 11 (.o2 .packus16y (.v 11) (.v 11)),  -- 1462
    .V 11 (.o1 (.perm4 8) (.v 11)),  -- 1463
    .V 46 (.mask 16 (.n 15)),  -- 1464
    .mst 8 32 (.add (.pv (.n 2)) (.v 4)) (.v 46) (.v 11),  -- 1465
    .V 12 (.o2 .mullo16 (.v 22) (.v 3)),  -- 1467
    .V 13 (.o2 .mullo16 (.v 23) (.v 4)),  -- 1468
    .V 14 (.o2 .mullo16 (.v 24) (.v 1)),  -- 1469
    .V 11 (.o2 .add16 (.v 21) (.v 5)),  -- 1470
    .V 11 (.o2 .add16 (.v 11) (.v 12)),  -- 1471
    .V 11 (.o2 .add16 (.v 11) (.v 13)),  -- 1472
    .V 11 (.o2 .add16 (.v 11) (.v 14)),  -- 1473
    .V 11 (.o1 (.srli16 4) (.v 11)),  -- 1474
    .V 11 (.o2 .packus16y (.v 11) (.v 11))  -- 1476
  ]

/-- `intra_pred_ang_x_5_avx`, vec/intrinsic_intra-pred_avx2.cc:1477-1505. -/
def x5A_14 : Stmt :=
  .run [
    .V 11 (.o1 (.perm4 8) (.v 11)),  -- 1477
    .mst 8 32 (.add (.pv (.n 3)) (.v 4)) (.v 46) (.v 11),  -- 1478
    .V 11 (.o2 .mullo16 (.v 23) (.v 4)),  -- 1480
    .V 12 (.o2 .mullo16 (.v 24) (.v 9)),  -- 1481
    .V 13 (.o2 .mullo16 (.v 25) (.v 6)),  -- 1482
    .V 14 (.o2 .add16 (.v 26) (.v 10)),  -- 1483
    .V 11 (.o2 .add16 (.v 11) (.v 12)),  -- 1484
    .V 11 (.o2 .add16 (.v 11) (.v 13)),  -- 1485
    .V 11 (.o2 .add16 (.v 11) (.v 14)),  -- 1486
    .V 11 (.o1 (.srli16 5) (.v 11)),  -- 1487
    .V 11 (.o2 .packus16y (.v 11) (.v 11)),  -- 1489
    .mst 8 32 (.add (.pv (.n 4)) (.v 4)) (.v 46) (.v 11),  -- 1490
    .V 11 (.o2 .add16 (.v 24) (.v 27)),  -- 1492
    .V 12 (.o2 .add16 (.v 25) (.v 26)),  -- 1493
    .V 12 (.o2 .mullo16 (.v 12) (.v 1)),  -- 1494
    .V 11 (.o2 .add16 (.v 11) (.v 2)),  -- 1495
    .V 11 (.o2 .add16 (.v 11) (.v 12)),  -- 1496
    .V 11 (.o1 (.srli16 3) (.v 11)),  -- 1497
    .V 11 (.o2 .packus16y (.v 11) (.v 11)),  -- 1499
    .mst 8 32 (.add (.pv (.n 5)) (.v 4)) (.v 46) (.v 11),  -- 1500
    .V 11 (.o2 .add16 (.v 25) (.v 10)),  -- 1502
    .V 12 (.o2 .mullo16 (.v 26) (.v 6)),  -- 1503
    .V 13 (.o2 .mullo16 (.v 27) (.v 9)),  -- 1504
    .V 14 (.o2 .mullo16 (.v 28) (.v 4))  -- 1505
  ]

/-- `intra_pred_ang_x_5_avx`, vec/intrinsic_intra-pred_avx2.cc:1506-1533. -/
def x5A_15 : Stmt :=
  .run [
    .V 11 (.o2 .add16 (.v 11) (.v 12)),  -- 1506
    .V 11 (.o2 .add16 (.v 11) (.v 13)),  -- 1507
    .V 11 (.o2 .add16 (.v 11) (.v 14)),  -- 1508
    .V 11 (.o1 (.srli16 5) (.v 11)),  -- 1509
    .V 11 (.o2 .packus16y (.v 11) (.v 11)),  -- 1511
    .mst 8 32 (.add (.pv (.n 6)) (.v 4)) (.v 46) (.v 11),  -- 1512
    .V 11 (.o2 .mullo16 (.v 27) (.v 1)),  -- 1514
    .V 12 (.o2 .mullo16 (.v 28) (.v 4)),  -- 1515
    .V 13 (.o2 .mullo16 (.v 29) (.v 3)),  -- 1516
    .V 14 (.o2 .add16 (.v 30) (.v 5)),  -- 1517
    .V 11 (.o2 .add16 (.v 11) (.v 12)),  -- 1518
    .V 11 (.o2 .add16 (.v 11) (.v 13)),  -- 1519
    .V 11 (.o2 .add16 (.v 11) (.v 14)),  -- 1520
    .V 11 (.o1 (.srli16 4) (.v 11)),  -- 1521
    .V 11 (.o2 .packus16y (.v 11) (.v 11)),  -- 1523
    .mst 8 32 (.add (.pv (.n 7)) (.v 4)) (.v 46) (.v 11),  -- 1524
    .V 11 (.o2 .mullo16 (.v 28) (.v 1)),  -- 1526
    .V 12 (.o2 .mullo16 (.v 29) (.v 7)),  -- 1527
    .V 13 (.o2 .mullo16 (.v 30) (.v 8)),  -- 1528
    .V 14 (.o2 .mullo16 (.v 31) (.v 3)),  -- 1529
    .V 11 (.o2 .add16 (.v 11) (.v 10)),  -- 1530
    .V 11 (.o2 .add16 (.v 11) (.v 12)),  -- 1531
    .V 11 (.o2 .add16 (.v 11) (.v 13)),  -- 1532
    .V 11 (.o2 .add16 (.v 11) (.v 14))  -- 1533
  ]

/-- `intra_pred_ang_x_5_avx`, vec/intrinsic_intra-pred_avx2.cc:1534-1546. -/
def x5A_16 : Stmt :=
  .run [
    .V 11 (.o1 (.srli16 5) (.v 11)),  -- 1534
    .V 11 (.o2 .packus16y (.v 11) (.v 11)),  -- 1536
    .mst 8 32 (.add (.pv (.n 8)) (.v 4)) (.v 46) (.v 11),  -- 1537
    .V 11 (.o2 .add16 (.v 30) (.v 32)),  -- 1539
    .V 12 (.o2 .add16 (.v 31) (.v 31)),  -- 1540
    .V 11 (.o2 .add16 (.v 11) (.v 0)),  -- 1541
    .V 11 (.o2 .add16 (.v 11) (.v 12)),  -- 1542
    .V 11 (.o1 (.srli16 2) (.v 11)),  -- 1543
    .V 11 (.o2 .packus16y (.v 11) (.v 11)),  -- 1545
    .mst 8 32 (.add (.pv (.n 9)) (.v 4)) (.v 46) (.v 11)  -- 1546
  ]

/-- `intra_pred_ang_x_5_avx`, vec/intrinsic_intra-pred_avx2.cc:1421. -/
def x5A_17 : Stmt :=
  .ite (.lt (.v 4) (.v 5)) (.seq x5A_12 (.seq x5A_13 (.seq x5A_14 (.seq x5A_15 x5A_16)))) (.run [])

/-- `intra_pred_ang_x_5_avx`, vec/intrinsic_intra-pred_avx2.cc:1549. -/
def x5A_18 : Stmt :=
  .run [
    .I 3 (.shr (.v 3) 3)  -- 1549
  ]

/-- `intra_pred_ang_x_5_avx`, vec/intrinsic_intra-pred_avx2.cc:1553. -/
def x5A_19 : Stmt :=
  .run [
    .I 4 (.n 0)  -- 1553
  ]

/-- `intra_pred_ang_x_5_avx`, vec/intrinsic_intra-pred_avx2.cc:1554-1582. -/
def x5A_20 : Stmt :=
  .run [
    .V 46 (.ld 32 (.add (.pv (.n 2)) (.mul (.v 4) (.n 11)))),  -- 1554
    .st 32 (.pv (.n 10)) (.v 46),  -- 1555
    .V 46 (.ld 32 (.add (.add (.pv (.n 2)) (.mul (.v 4) (.n 11))) (.n 32))),  -- 1556
    .st 32 (.add (.pv (.n 10)) (.n 32)) (.v 46),  -- 1557
    .V 46 (.ld 32 (.add (.pv (.n 3)) (.mul (.v 4) (.n 11)))),  -- 1559
    .st 32 (.pv (.n 11)) (.v 46),  -- 1560
    .V 46 (.ld 32 (.add (.add (.pv (.n 3)) (.mul (.v 4) (.n 11))) (.n 32))),  -- 1561
    .st 32 (.add (.pv (.n 11)) (.n 32)) (.v 46),  -- 1562
    .V 46 (.ld 32 (.add (.pv (.n 4)) (.mul (.v 4) (.n 11)))),  -- 1564
    .st 32 (.pv (.n 12)) (.v 46),  -- 1565
    .V 46 (.ld 32 (.add (.add (.pv (.n 4)) (.mul (.v 4) (.n 11))) (.n 32))),  -- 1566
    .st 32 (.add (.pv (.n 12)) (.n 32)) (.v 46),  -- 1567
    .V 46 (.ld 32 (.add (.pv (.n 5)) (.mul (.v 4) (.n 11)))),  -- 1569
    .st 32 (.pv (.n 13)) (.v 46),  -- 1570
    .V 46 (.ld 32 (.add (.add (.pv (.n 5)) (.mul (.v 4) (.n 11))) (.n 32))),  -- 1571
    .st 32 (.add (.pv (.n 13)) (.n 32)) (.v 46),  -- 1572
    .V 46 (.ld 32 (.add (.pv (.n 6)) (.mul (.v 4) (.n 11)))),  -- 1574
    .st 32 (.pv (.n 14)) (.v 46),  -- 1575
    .V 46 (.ld 32 (.add (.add (.pv (.n 6)) (.mul (.v 4) (.n 11))) (.n 32))),  -- 1576
    .st 32 (.add (.pv (.n 14)) (.n 32)) (.v 46),  -- 1577
    .V 46 (.ld 32 (.add (.pv (.n 7)) (.mul (.v 4) (.n 11)))),  -- 1579
    .st 32 (.pv (.n 15)) (.v 46),  -- 1580
    .V 46 (.ld 32 (.add (.add (.pv (.n 7)) (.mul (.v 4) (.n 11))) (.n 32))),  -- 1581
    .st 32 (.add (.pv (.n 15)) (.n 32)) (.v 46)  -- 1582
  ]

/-- `intra_pred_ang_x_5_avx`, vec/intrinsic_intra-pred_avx2.cc:1553-1601. -/
def x5A_21 : Stmt :=
  .run [
    .V 46 (.ld 32 (.add (.pv (.n 8)) (.mul (.v 4) (.n 11)))),  -- 1584
    .st 32 (.pv (.n 16)) (.v 46),  -- 1585
    .V 46 (.ld 32 (.add (.add (.pv (.n 8)) (.mul (.v 4) (.n 11))) (.n 32))),  -- 1586
    .st 32 (.add (.pv (.n 16)) (.n 32)) (.v 46),  -- 1587
    .V 46 (.ld 32 (.add (.pv (.n 9)) (.mul (.v 4) (.n 11)))),  -- 1589
    .st 32 (.pv (.n 17)) (.v 46),  -- 1590
    .V 46 (.ld 32 (.add (.add (.pv (.n 9)) (.mul (.v 4) (.n 11))) (.n 32))),  -- 1591
    .st 32 (.add (.pv (.n 17)) (.n 32)) (.v 46),  -- 1592
    .P (.n 10) (.add (.pv (.n 17)) (.v 0)),  -- 1594
    .P (.n 11) (.add (.pv (.n 10)) (.v 0)),  -- 1595
    .P (.n 12) (.add (.pv (.n 11)) (.v 0)),  -- 1596
    .P (.n 13) (.add (.pv (.n 12)) (.v 0)),  -- 1597
    .P (.n 14) (.add (.pv (.n 13)) (.v 0)),  -- 1598
    .P (.n 15) (.add (.pv (.n 14)) (.v 0)),  -- 1599
    .P (.n 16) (.add (.pv (.n 15)) (.v 0)),  -- 1600
    .P (.n 17) (.add (.pv (.n 16)) (.v 0)),  -- 1601
    .I 4 (.add (.v 4) (.n 1))  -- 1553
  ]

/-- `intra_pred_ang_x_5_avx`, vec/intrinsic_intra-pred_avx2.cc:1553. -/
def x5A_22 : Stmt :=
  .loop (.lt (.v 4) (.v 3)) (.seq x5A_20 x5A_21)

/-- `intra_pred_ang_x_5_avx`, vec/intrinsic_intra-pred_avx2.cc:1604. -/
def x5A_23 : Stmt :=
  .run [
    .I 4 (.n 0)  -- 1604
  ]

/-- `intra_pred_ang_x_5_avx`, vec/intrinsic_intra-pred_avx2.cc:1605-1636. -/
def x5A_24 : Stmt :=
  .run [
    .V 46 (.ld 32 (.add (.pv (.n 2)) (.mul (.v 4) (.n 11)))),  -- 1605
    .st 32 (.pv (.n 10)) (.v 46),  -- 1606
    .V 46 (.ld 32 (.add (.pv (.n 3)) (.mul (.v 4) (.n 11)))),  -- 1608
    .st 32 (.pv (.n 11)) (.v 46),  -- 1609
    .V 46 (.ld 32 (.add (.pv (.n 4)) (.mul (.v 4) (.n 11)))),  -- 1611
    .st 32 (.pv (.n 12)) (.v 46),  -- 1612
    .V 46 (.ld 32 (.add (.pv (.n 5)) (.mul (.v 4) (.n 11)))),  -- 1614
    .st 32 (.pv (.n 13)) (.v 46),  -- 1615
    .V 46 (.ld 32 (.add (.pv (.n 6)) (.mul (.v 4) (.n 11)))),  -- 1617
    .st 32 (.pv (.n 14)) (.v 46),  -- 1618
    .V 46 (.ld 32 (.add (.pv (.n 7)) (.mul (.v 4) (.n 11)))),  -- 1620
    .st 32 (.pv (.n 15)) (.v 46),  -- 1621
    .V 46 (.ld 32 (.add (.pv (.n 8)) (.mul (.v 4) (.n 11)))),  -- 1623
    .st 32 (.pv (.n 16)) (.v 46),  -- 1624
    .V 46 (.ld 32 (.add (.pv (.n 9)) (.mul (.v 4) (.n 11)))),  -- 1626
    .st 32 (.pv (.n 17)) (.v 46),  -- 1627
    .P (.n 10) (.add (.pv (.n 17)) (.v 0)),  -- 1629
    .P (.n 11) (.add (.pv (.n 10)) (.v 0)),  -- 1630
    .P (.n 12) (.add (.pv (.n 11)) (.v 0)),  -- 1631
    .P (.n 13) (.add (.pv (.n 12)) (.v 0)),  -- 1632
    .P (.n 14) (.add (.pv (.n 13)) (.v 0)),  -- 1633
    .P (.n 15) (.add (.pv (.n 14)) (.v 0)),  -- 1634
    .P (.n 16) (.add (.pv (.n 15)) (.v 0)),  -- 1635
    .P (.n 17) (.add (.pv (.n 16)) (.v 0))  -- 1636
  ]

/-- `intra_pred_ang_x_5_avx`, vec/intrinsic_intra-pred_avx2.cc:1604. -/
def x5A_25 : Stmt :=
  .run [
    .I 4 (.add (.v 4) (.n 1))  -- 1604
  ]

/-- `intra_pred_ang_x_5_avx`, vec/intrinsic_intra-pred_avx2.cc:1604. -/
def x5A_26 : Stmt :=
  .loop (.lt (.v 4) (.v 3)) (.seq x5A_24 x5A_25)

/-- `intra_pred_ang_x_5_avx`, vec/intrinsic_intra-pred_avx2.cc:1639-1640. -/
def x5A_27 : Stmt :=
  .run [
    .V 47 (.mask 16 (.n 15)),  -- 1639
    .I 4 (.n 0)  -- 1640
  ]

/-- `intra_pred_ang_x_5_avx`, vec/intrinsic_intra-pred_avx2.cc:1641-1672. -/
def x5A_28 : Stmt :=
  .run [
    .V 46 (.ld 32 (.add (.pv (.n 2)) (.mul (.v 4) (.n 11)))),  -- 1641
    .mst 8 32 (.pv (.n 10)) (.v 47) (.v 46),  -- 1642
    .V 46 (.ld 32 (.add (.pv (.n 3)) (.mul (.v 4) (.n 11)))),  -- 1644
    .mst 8 32 (.pv (.n 11)) (.v 47) (.v 46),  -- 1645
    .V 46 (.ld 32 (.add (.pv (.n 4)) (.mul (.v 4) (.n 11)))),  -- 1647
    .mst 8 32 (.pv (.n 12)) (.v 47) (.v 46),  -- 1648
    .V 46 (.ld 32 (.add (.pv (.n 5)) (.mul (.v 4) (.n 11)))),  -- 1650
    .mst 8 32 (.pv (.n 13)) (.v 47) (.v 46),  -- 1651
    .V 46 (.ld 32 (.add (.pv (.n 6)) (.mul (.v 4) (.n 11)))),  -- 1653
    .mst 8 32 (.pv (.n 14)) (.v 47) (.v 46),  -- 1654
    .V 46 (.ld 32 (.add (.pv (.n 7)) (.mul (.v 4) (.n 11)))),  -- 1656
    .mst 8 32 (.pv (.n 15)) (.v 47) (.v 46),  -- 1657
    .V 46 (.ld 32 (.add (.pv (.n 8)) (.mul (.v 4) (.n 11)))),  -- 1659
    .mst 8 32 (.pv (.n 16)) (.v 47) (.v 46),  -- 1660
    .V 46 (.ld 32 (.add (.pv (.n 9)) (.mul (.v 4) (.n 11)))),  -- 1662
    .mst 8 32 (.pv (.n 17)) (.v 47) (.v 46),  -- 1663
    .P (.n 10) (.add (.pv (.n 17)) (.v 0)),  -- 1665
    .P (.n 11) (.add (.pv (.n 10)) (.v 0)),  -- 1666
    .P (.n 12) (.add (.pv (.n 11)) (.v 0)),  -- 1667
    .P (.n 13) (.add (.pv (.n 12)) (.v 0)),  -- 1668
    .P (.n 14) (.add (.pv (.n 13)) (.v 0)),  -- 1669
    .P (.n 15) (.add (.pv (.n 14)) (.v 0)),  -- 1670
    .P (.n 16) (.add (.pv (.n 15)) (.v 0)),  -- 1671
    .P (.n 17) (.add (.pv (.n 16)) (.v 0))  -- 1672
  ]

/-- `intra_pred_ang_x_5_avx`, vec/intrinsic_intra-pred_avx2.cc:1640. -/
def x5A_29 : Stmt :=
  .run [
    .I 4 (.add (.v 4) (.n 1))  -- 1640
  ]

/-- `intra_pred_ang_x_5_avx`, vec/intrinsic_intra-pred_avx2.cc:1640. -/
def x5A_30 : Stmt :=
  .loop (.lt (.v 4) (.v 3)) (.seq x5A_28 x5A_29)

/-- `intra_pred_ang_x_5_avx`, vec/intrinsic_intra-pred_avx2.cc:1603. -/
def x5A_31 : Stmt :=
  .ite (.eq (.v 2) (.n 32)) (.seq x5A_23 x5A_26) (.seq x5A_27 x5A_30)

/-- `intra_pred_ang_x_5_avx`, vec/intrinsic_intra-pred_avx2.cc:1552. -/
def x5A_32 : Stmt :=
  .ite (.eq (.v 2) (.n 64)) (.seq x5A_19 x5A_22) x5A_31

/-- `intra_pred_ang_x_5_avx`, vec/intrinsic_intra-pred_avx2.cc:1700-1730. -/
def x5A_33 : Stmt :=
  .run [
    .P (.n 2) (.pv (.n 1)),  -- 1700
    .P (.n 3) (.add (.pv (.n 2)) (.v 0)),  -- 1701
    .P (.n 4) (.add (.pv (.n 3)) (.v 0)),  -- 1702
    .P (.n 5) (.add (.pv (.n 4)) (.v 0)),  -- 1703
    .V 15 (.ld 32 (.add (.pv (.n 0)) (.n 1))),  -- 1710
    .V 16 (.o1 .cvtu8 (.o1 (.half 0) (.v 15))),  -- 1711
    .V 15 (.ld 32 (.add (.pv (.n 0)) (.n 2))),  -- 1712
    .V 17 (.o1 .cvtu8 (.o1 (.half 0) (.v 15))),  -- 1713
    .V 15 (.ld 32 (.add (.pv (.n 0)) (.n 3))),  -- 1714
    .V 18 (.o1 .cvtu8 (.o1 (.half 0) (.v 15))),  -- 1715
    .V 15 (.ld 32 (.add (.pv (.n 0)) (.n 4))),  -- 1716
    .V 19 (.o1 .cvtu8 (.o1 (.half 0) (.v 15))),  -- 1717
    .V 15 (.ld 32 (.add (.pv (.n 0)) (.n 5))),  -- 1718
    .V 20 (.o1 .cvtu8 (.o1 (.half 0) (.v 15))),  -- 1719
    .V 15 (.ld 32 (.add (.pv (.n 0)) (.n 6))),  -- 1720
    .V 21 (.o1 .cvtu8 (.o1 (.half 0) (.v 15))),  -- 1721
    .V 15 (.ld 32 (.add (.pv (.n 0)) (.n 7))),  -- 1722
    .V 22 (.o1 .cvtu8 (.o1 (.half 0) (.v 15))),  -- 1723
    .V 15 (.ld 32 (.add (.pv (.n 0)) (.n 8))),  -- 1724
    .V 23 (.o1 .cvtu8 (.o1 (.half 0) (.v 15))),  -- 1725
    .V 11 (.o2 .mullo16 (.v 16) (.v 3)),  -- 1727
    .V 12 (.o2 .mullo16 (.v 17) (.v 8)),  -- 1728
    .V 13 (.o2 .mullo16 (.v 18) (.v 7)),  -- 1729
    .V 14 (.o2 .mullo16 (.v 19) (.v 1))  -- 1730
  ]

/-- `intra_pred_ang_x_5_avx`, vec/intrinsic_intra-pred_avx2.cc:1731-1758. -/
def x5A_34 : Stmt :=
  .run [
    .V 11 (.o2 .add16 (.v 11) (.v 10)),  -- 1731
    .V 11 (.o2 .add16 (.v 11) (.v 12)),  -- 1732
    .V 11 (.o2 .add16 (.v 11) (.v 13)),  -- 1733
    .V 11 (.o2 .add16 (.v 11) (.v 14)),  -- 1734
    .V 11 (.o1 (.srli16 5) (.v 11)),  -- 1735
    .V 11 (.o2 .packus16y (.v 11) (.v 11)),  -- 1737
    .V 11 (.o1 (.perm4 8) (.v 11)),  -- 1738
    .V 24 (.mask 16 (.n 15)),  -- 1739
    .mst 8 32 (.pv (.n 2)) (.v 24) (.v 11),  -- 1740
    .V 12 (.o2 .mullo16 (.v 18) (.v 3)),  -- 1742
    .V 13 (.o2 .mullo16 (.v 19) (.v 4)),  -- 1743
    .V 14 (.o2 .mullo16 (.v 20) (.v 1)),  -- 1744
    .V 11 (.o2 .add16 (.v 17) (.v 5)),  -- 1745
    .V 11 (.o2 .add16 (.v 11) (.v 12)),  -- 1746
    .V 11 (.o2 .add16 (.v 11) (.v 13)),  -- 1747
    .V 11 (.o2 .add16 (.v 11) (.v 14)),  -- 1748
    .V 11 (.o1 (.srli16 4) (.v 11)),  -- 1749
    .V 11 (.o2 .packus16y (.v 11) (.v 11)),  -- 1751
    .V 11 (.o1 (.perm4 8) (.v 11)),  -- 1752
    .mst 8 32 (.pv (.n 3)) (.v 24) (.v 11),  -- 1753
    .V 11 (.o2 .mullo16 (.v 19) (.v 4)),  -- 1755
    .V 12 (.o2 .mullo16 (.v 20) (.v 9)),  -- 1756
    .V 13 (.o2 .mullo16 (.v 21) (.v 6)),  -- 1757
    .V 14 (.o2 .add16 (.v 22) (.v 10))  -- 1758
  ]

/-- `intra_pred_ang_x_5_avx`, vec/intrinsic_intra-pred_avx2.cc:1759-1777. -/
def x5A_35 : Stmt :=
  .run [
    .V 11 (.o2 .add16 (.v 11) (.v 12)),  -- 1759
    .V 11 (.o2 .add16 (.v 11) (.v 13)),  -- 1760
    .V 11 (.o2 .add16 (.v 11) (.v 14)),  -- 1761
    .V 11 (.o1 (.srli16 5) (.v 11)),  -- 1762
    .V 11 (.o2 .packus16y (.v 11) (.v 11)),  -- 1764
    .V 11 (.o1 (.perm4 8) (.v 11)),  -- 1765
    .mst 8 32 (.pv (.n 4)) (.v 24) (.v 11),  -- 1766
    .V 11 (.o2 .add16 (.v 20) (.v 23)),  -- 1768
    .V 12 (.o2 .add16 (.v 21) (.v 22)),  -- 1769
    .V 12 (.o2 .mullo16 (.v 12) (.v 1)),  -- 1770
    .V 11 (.o2 .add16 (.v 11) (.v 2)),  -- 1771
    .V 11 (.o2 .add16 (.v 11) (.v 12)),  -- 1772
    .V 11 (.o1 (.srli16 3) (.v 11)),  -- 1773
    .V 11 (.o2 .packus16y (.v 11) (.v 11)),  -- 1775
    .V 11 (.o1 (.perm4 8) (.v 11)),  -- 1776
    .mst 8 32 (.pv (.n 5)) (.v 24) (.v 11)  -- 1777
  ]

/-- `intra_pred_ang_x_5_avx`, vec/intrinsic_intra-pred_avx2.cc:1782. -/
def x5A_36 : Stmt :=
  .call x5S (.pv (.n 0)) (.pv (.n 1)) (.v 0) (.v 1) (.v 2) (.v 3)

/-- `intra_pred_ang_x_5_avx`, vec/intrinsic_intra-pred_avx2.cc:1698. -/
def x5A_37 : Stmt :=
  .ite (.eq (.v 2) (.n 16)) (.seq x5A_33 (.seq x5A_34 x5A_35)) x5A_36

/-- `intra_pred_ang_x_5_avx`, vec/intrinsic_intra-pred_avx2.cc:1166. -/
def x5A_38 : Stmt :=
  .ite (.and (.lt (.n 4) (.v 3)) (.lt (.n 8) (.v 2))) (.seq x5A_2 (.seq x5A_11 (.seq x5A_17 (.seq x5A_18 x5A_32)))) x5A_37

/-- `intra_pred_ang_x_5_avx`, source/common/vec/intrinsic_intra-pred_avx2.cc:1149-1786.  Variables:
I: 0 i_dst, 1 dir_mode, 2 bsx, 3 bsy, 4 i, 5 line_size, 6 aligned_line_size;
P: 0 src, 1 dst, 2 pfirst/dst1, 3 dst2, 4 dst3, 5 dst4, 10 dst1, 11 dst2, 12 dst3, 13 dst4, 14 dst5, 15 dst6, 16 dst7, 17 dst8;
V: 0 coeff2, 1 coeff3, 2 coeff4, 3 coeff5, 4 coeff7, 5 coeff8, 6 coeff9, 7 coeff11, 8 coeff13, 9 coeff15, 10 coeff16, 11 p00, 12 p10, 13 p20, 14 p30, 15 p01/SS1, 16 p11/L1, 17 p21/L2, 18 p31/L3, 19 SS1/L4, 20 L1/L5, 21 L2/L6, 22 L3/L7, 23 L4/L8, 24 L5/mask, 25 L6, 26 L7, 27 L8, 28 L9, 29 L10, 30 L11, 31 L12, 32 L13, 33 H1, 34 H2, 35 H3, 36 H4, 37 H5, 38 H6, 39 H7, 40 H8, 41 H9, 42 H10, 43 H11, 44 H12, 45 H13, 46 mask/M, 47 mask. -/
def x5A : Stmt :=
  .seq x5A_1 x5A_38

/-- `intra_pred_ang_x_6_avx`, vec/intrinsic_intra-pred_avx2.cc:1790-1801. -/
def x6A_1 : Stmt :=
  .run [
    .alloc 0 128,  -- 1790
    .I 4 (.sub (.add (.v 2) (.v 3)) (.n 1)),  -- 1791
    .V 0 .zero,  -- 1794
    .V 1 (.set1_16 (.n 2)),  -- 1795
    .P (.n 0) (.add (.pv (.n 0)) (.n 2)),  -- 1798
    .I 5 (.n 0)  -- 1801
  ]

/-- `intra_pred_ang_x_6_avx`, vec/intrinsic_intra-pred_avx2.cc:1806-1837. -/
def x6A_2 : Stmt :=
  .run [
    .V 2 (.ld 32 (.sub (.pv (.n 0)) (.n 1))),  -- 1806
    .V 3 (.ld 32 (.pv (.n 0))),  -- 1807
    .V 4 (.ld 32 (.add (.pv (.n 0)) (.n 1))),  -- 1808
    .V 5 (.o2 .unpacklo8y (.v 2) (.v 0)),  -- 1810
    .V 6 (.o2 .unpacklo8y (.v 3) (.v 0)),  -- 1811
    .V 7 (.o2 .unpacklo8y (.v 4) (.v 0)),  -- 1812
    .V 8 (.o2 .unpackhi8y (.v 2) (.v 0)),  -- 1814
    .V 9 (.o2 .unpackhi8y (.v 3) (.v 0)),  -- 1815
    .V 10 (.o2 .unpackhi8y (.v 4) (.v 0)),  -- 1816
    .V 11 (.o2 (.perm2 32) (.v 5) (.v 8)),  -- 1818
    .V 12 (.o2 (.perm2 32) (.v 6) (.v 9)),  -- 1819
    .V 13 (.o2 (.perm2 32) (.v 7) (.v 10)),  -- 1820
    .V 14 (.o2 .add16 (.v 11) (.v 12)),  -- 1821
    .V 15 (.o2 .add16 (.v 12) (.v 13)),  -- 1822
    .V 11 (.o2 (.perm2 49) (.v 5) (.v 8)),  -- 1825
    .V 12 (.o2 (.perm2 49) (.v 6) (.v 9)),  -- 1826
    .V 13 (.o2 (.perm2 49) (.v 7) (.v 10)),  -- 1827
    .V 16 (.o2 .add16 (.v 11) (.v 12)),  -- 1828
    .V 17 (.o2 .add16 (.v 12) (.v 13)),  -- 1829
    .V 14 (.o2 .add16 (.v 14) (.v 15)),  -- 1831
    .V 16 (.o2 .add16 (.v 16) (.v 17)),  -- 1832
    .V 14 (.o2 .add16 (.v 14) (.v 1)),  -- 1834
    .V 16 (.o2 .add16 (.v 16) (.v 1)),  -- 1835
    .V 14 (.o1 (.srli16 2) (.v 14))  -- 1837
  ]

/-- `intra_pred_ang_x_6_avx`, vec/intrinsic_intra-pred_avx2.cc:1801-1842. -/
def x6A_3 : Stmt :=
  .run [
    .V 16 (.o1 (.srli16 2) (.v 16)),  -- 1838
    .V 14 (.o2 .packus16y (.v 14) (.v 16)),  -- 1840
    .V 14 (.o1 (.perm4 216) (.v 14)),  -- 1841
    .st 32 (.add (.pa 0) (.v 5)) (.v 14),  -- 1842
    .I 5 (.add (.v 5) (.n 32)),  -- 1801
    .P (.n 0) (.add (.pv (.n 0)) (.n 32))
  ]

/-- `intra_pred_ang_x_6_avx`, vec/intrinsic_intra-pred_avx2.cc:1801. -/
def x6A_4 : Stmt :=
  .loop (.lt (.v 5) (.sub (.v 4) (.n 16))) (.seq x6A_2 x6A_3)

/-- `intra_pred_ang_x_6_avx`, vec/intrinsic_intra-pred_avx2.cc:1851-1873. -/
def x6A_5 : Stmt :=
  .run [
    .V 2 (.ld 32 (.sub (.pv (.n 0)) (.n 1))),  -- 1851
    .V 3 (.ld 32 (.add (.pv (.n 0)) (.n 1))),  -- 1852
    .V 4 (.ld 32 (.pv (.n 0))),  -- 1853
    .V 2 (.o1 (.perm4 216) (.v 2)),  -- 1854
    .V 3 (.o1 (.perm4 216) (.v 3)),  -- 1855
    .V 4 (.o1 (.perm4 216) (.v 4)),  -- 1856
    .V 5 (.o2 .unpacklo8y (.v 2) (.v 0)),  -- 1858
    .V 6 (.o2 .unpacklo8y (.v 4) (.v 0)),  -- 1859
    .V 7 (.o2 .unpacklo8y (.v 3) (.v 0)),  -- 1860
    .V 8 (.o2 .add16 (.v 5) (.v 6)),  -- 1862
    .V 9 (.o2 .add16 (.v 6) (.v 7)),  -- 1863
    .V 8 (.o2 .add16 (.v 8) (.v 9)),  -- 1865
    .V 8 (.o2 .add16 (.v 8) (.v 1)),  -- 1866
    .V 8 (.o1 (.srli16 2) (.v 8)),  -- 1867
    .V 8 (.o2 .packus16y (.v 8) (.v 8)),  -- 1869
    .V 8 (.o1 (.perm4 8) (.v 8)),  -- 1870
    .V 10 (.mask 16 (.n 15)),  -- 1872
    .mst 8 32 (.add (.pa 0) (.v 5)) (.v 10) (.v 8)  -- 1873
  ]

/-- `intra_pred_ang_x_6_avx`, vec/intrinsic_intra-pred_avx2.cc:1846. -/
def x6A_6 : Stmt :=
  .ite (.lt (.v 5) (.v 4)) x6A_5 (.run [])

/-- `intra_pred_ang_x_6_avx`, vec/intrinsic_intra-pred_avx2.cc:1887. -/
def x6A_7 : Stmt :=
  .run [
    .I 5 (.n 0)  -- 1887
  ]

/-- `intra_pred_ang_x_6_avx`, vec/intrinsic_intra-pred_avx2.cc:1887-1907. -/
def x6A_8 : Stmt :=
  .run [
    .V 2 (.ld 32 (.add (.pa 0) (.v 5))),  -- 1888
    .st 32 (.pv (.n 1)) (.v 2),  -- 1889
    .V 2 (.ld 32 (.add (.add (.pa 0) (.v 5)) (.n 32))),  -- 1890
    .st 32 (.add (.pv (.n 1)) (.n 32)) (.v 2),  -- 1891
    .P (.n 1) (.add (.pv (.n 1)) (.v 0)),  -- 1892
    .V 2 (.ld 32 (.add (.pa 0) (.add (.v 5) (.n 1)))),  -- 1893
    .st 32 (.pv (.n 1)) (.v 2),  -- 1894
    .V 2 (.ld 32 (.add (.add (.pa 0) (.add (.v 5) (.n 1))) (.n 32))),  -- 1895
    .st 32 (.add (.pv (.n 1)) (.n 32)) (.v 2),  -- 1896
    .P (.n 1) (.add (.pv (.n 1)) (.v 0)),  -- 1897
    .V 2 (.ld 32 (.add (.pa 0) (.add (.v 5) (.n 2)))),  -- 1898
    .st 32 (.pv (.n 1)) (.v 2),  -- 1899
    .V 2 (.ld 32 (.add (.add (.pa 0) (.add (.v 5) (.n 2))) (.n 32))),  -- 1900
    .st 32 (.add (.pv (.n 1)) (.n 32)) (.v 2),  -- 1901
    .P (.n 1) (.add (.pv (.n 1)) (.v 0)),  -- 1902
    .V 2 (.ld 32 (.add (.pa 0) (.add (.v 5) (.n 3)))),  -- 1903
    .st 32 (.pv (.n 1)) (.v 2),  -- 1904
    .V 2 (.ld 32 (.add (.add (.pa 0) (.add (.v 5) (.n 3))) (.n 32))),  -- 1905
    .st 32 (.add (.pv (.n 1)) (.n 32)) (.v 2),  -- 1906
    .P (.n 1) (.add (.pv (.n 1)) (.v 0)),  -- 1907
    .I 5 (.add (.v 5) (.n 4))  -- 1887
  ]

/-- `intra_pred_ang_x_6_avx`, vec/intrinsic_intra-pred_avx2.cc:1887. -/
def x6A_9 : Stmt :=
  .loop (.lt (.v 5) (.v 3)) x6A_8

/-- `intra_pred_ang_x_6_avx`, vec/intrinsic_intra-pred_avx2.cc:1910. -/
def x6A_10 : Stmt :=
  .run [
    .I 5 (.n 0)  -- 1910
  ]

/-- `intra_pred_ang_x_6_avx`, vec/intrinsic_intra-pred_avx2.cc:1910-1922. -/
def x6A_11 : Stmt :=
  .run [
    .V 2 (.ld 32 (.add (.pa 0) (.v 5))),  -- 1911
    .st 32 (.pv (.n 1)) (.v 2),  -- 1912
    .P (.n 1) (.add (.pv (.n 1)) (.v 0)),  -- 1913
    .V 2 (.ld 32 (.add (.pa 0) (.add (.v 5) (.n 1)))),  -- 1914
    .st 32 (.pv (.n 1)) (.v 2),  -- 1915
    .P (.n 1) (.add (.pv (.n 1)) (.v 0)),  -- 1916
    .V 2 (.ld 32 (.add (.pa 0) (.add (.v 5) (.n 2)))),  -- 1917
    .st 32 (.pv (.n 1)) (.v 2),  -- 1918
    .P (.n 1) (.add (.pv (.n 1)) (.v 0)),  -- 1919
    .V 2 (.ld 32 (.add (.pa 0) (.add (.v 5) (.n 3)))),  -- 1920
    .st 32 (.pv (.n 1)) (.v 2),  -- 1921
    .P (.n 1) (.add (.pv (.n 1)) (.v 0)),  -- 1922
    .I 5 (.add (.v 5) (.n 4))  -- 1910
  ]

/-- `intra_pred_ang_x_6_avx`, vec/intrinsic_intra-pred_avx2.cc:1910. -/
def x6A_12 : Stmt :=
  .loop (.lt (.v 5) (.v 3)) x6A_11

/-- `intra_pred_ang_x_6_avx`, vec/intrinsic_intra-pred_avx2.cc:1925-1926. -/
def x6A_13 : Stmt :=
  .run [
    .V 2 (.mask 16 (.n 15)),  -- 1925
    .I 5 (.n 0)  -- 1926
  ]

/-- `intra_pred_ang_x_6_avx`, vec/intrinsic_intra-pred_avx2.cc:1926-1938. -/
def x6A_14 : Stmt :=
  .run [
    .V 3 (.ld 32 (.add (.pa 0) (.v 5))),  -- 1927
    .mst 8 32 (.pv (.n 1)) (.v 2) (.v 3),  -- 1928
    .P (.n 1) (.add (.pv (.n 1)) (.v 0)),  -- 1929
    .V 3 (.ld 32 (.add (.pa 0) (.add (.v 5) (.n 1)))),  -- 1930
    .mst 8 32 (.pv (.n 1)) (.v 2) (.v 3),  -- 1931
    .P (.n 1) (.add (.pv (.n 1)) (.v 0)),  -- 1932
    .V 3 (.ld 32 (.add (.pa 0) (.add (.v 5) (.n 2)))),  -- 1933
    .mst 8 32 (.pv (.n 1)) (.v 2) (.v 3),  -- 1934
    .P (.n 1) (.add (.pv (.n 1)) (.v 0)),  -- 1935
    .V 3 (.ld 32 (.add (.pa 0) (.add (.v 5) (.n 3)))),  -- 1936
    .mst 8 32 (.pv (.n 1)) (.v 2) (.v 3),  -- 1937
    .P (.n 1) (.add (.pv (.n 1)) (.v 0)),  -- 1938
    .I 5 (.add (.v 5) (.n 4))  -- 1926
  ]

/-- `intra_pred_ang_x_6_avx`, vec/intrinsic_intra-pred_avx2.cc:1926. -/
def x6A_15 : Stmt :=
  .loop (.lt (.v 5) (.v 3)) x6A_14

/-- `intra_pred_ang_x_6_avx`, vec/intrinsic_intra-pred_avx2.cc:1942-1943. -/
def x6A_16 : Stmt :=
  .run [
    .V 2 (.mask 16 (.n 7)),  -- 1942
    .I 5 (.n 0)  -- 1943
  ]

/-- `intra_pred_ang_x_6_avx`, vec/intrinsic_intra-pred_avx2.cc:1943-1955. -/
def x6A_17 : Stmt :=
  .run [
    .V 3 (.ld 32 (.add (.pa 0) (.v 5))),  -- 1944
    .mst 8 32 (.pv (.n 1)) (.v 2) (.v 3),  -- 1945
    .P (.n 1) (.add (.pv (.n 1)) (.v 0)),  -- 1946
    .V 3 (.ld 32 (.add (.pa 0) (.add (.v 5) (.n 1)))),  -- 1947
    .mst 8 32 (.pv (.n 1)) (.v 2) (.v 3),  -- 1948
    .P (.n 1) (.add (.pv (.n 1)) (.v 0)),  -- 1949
    .V 3 (.ld 32 (.add (.pa 0) (.add (.v 5) (.n 2)))),  -- 1950
    .mst 8 32 (.pv (.n 1)) (.v 2) (.v 3),  -- 1951
    .P (.n 1) (.add (.pv (.n 1)) (.v 0)),  -- 1952
    .V 3 (.ld 32 (.add (.pa 0) (.add (.v 5) (.n 3)))),  -- 1953
    .mst 8 32 (.pv (.n 1)) (.v 2) (.v 3),  -- 1954
    .P (.n 1) (.add (.pv (.n 1)) (.v 0)),  -- 1955
    .I 5 (.add (.v 5) (.n 4))  -- 1943
  ]

/-- `intra_pred_ang_x_6_avx`, vec/intrinsic_intra-pred_avx2.cc:1943. -/
def x6A_18 : Stmt :=
  .loop (.lt (.v 5) (.v 3)) x6A_17

/-- `intra_pred_ang_x_6_avx`, vec/intrinsic_intra-pred_avx2.cc:1959-1960. -/
def x6A_19 : Stmt :=
  .run [
    .V 2 (.mask 16 (.n 3)),  -- 1959
    .I 5 (.n 0)  -- 1960
  ]

/-- `intra_pred_ang_x_6_avx`, vec/intrinsic_intra-pred_avx2.cc:1960-1972. -/
def x6A_20 : Stmt :=
  .run [
    .V 3 (.ld 32 (.add (.pa 0) (.v 5))),  -- 1961
    .mst 4 32 (.pv (.n 1)) (.v 2) (.v 3),  -- 1962
    .P (.n 1) (.add (.pv (.n 1)) (.v 0)),  -- 1963
    .V 3 (.ld 32 (.add (.pa 0) (.add (.v 5) (.n 1)))),  -- 1964
    .mst 4 32 (.pv (.n 1)) (.v 2) (.v 3),  -- 1965
    .P (.n 1) (.add (.pv (.n 1)) (.v 0)),  -- 1966
    .V 3 (.ld 32 (.add (.pa 0) (.add (.v 5) (.n 2)))),  -- 1967
    .mst 4 32 (.pv (.n 1)) (.v 2) (.v 3),  -- 1968
    .P (.n 1) (.add (.pv (.n 1)) (.v 0)),  -- 1969
    .V 3 (.ld 32 (.add (.pa 0) (.add (.v 5) (.n 3)))),  -- 1970
    .mst 4 32 (.pv (.n 1)) (.v 2) (.v 3),  -- 1971
    .P (.n 1) (.add (.pv (.n 1)) (.v 0)),  -- 1972
    .I 5 (.add (.v 5) (.n 4))  -- 1960
  ]

/-- `intra_pred_ang_x_6_avx`, vec/intrinsic_intra-pred_avx2.cc:1960. -/
def x6A_21 : Stmt :=
  .loop (.lt (.v 5) (.v 3)) x6A_20

/-- `intra_pred_ang_x_6_avx`, vec/intrinsic_intra-pred_avx2.cc:1941. -/
def x6A_22 : Stmt :=
  .ite (.eq (.v 2) (.n 8)) (.seq x6A_16 x6A_18) (.seq x6A_19 x6A_21)

/-- `intra_pred_ang_x_6_avx`, vec/intrinsic_intra-pred_avx2.cc:1924. -/
def x6A_23 : Stmt :=
  .ite (.eq (.v 2) (.n 16)) (.seq x6A_13 x6A_15) x6A_22

/-- `intra_pred_ang_x_6_avx`, vec/intrinsic_intra-pred_avx2.cc:1909. -/
def x6A_24 : Stmt :=
  .ite (.eq (.v 2) (.n 32)) (.seq x6A_10 x6A_12) x6A_23

/-- `intra_pred_ang_x_6_avx`, vec/intrinsic_intra-pred_avx2.cc:1886. -/
def x6A_25 : Stmt :=
  .ite (.eq (.v 2) (.n 64)) (.seq x6A_7 x6A_9) x6A_24

/-- `intra_pred_ang_x_6_avx`, source/common/vec/intrinsic_intra-pred_avx2.cc:1788-2004.  Variables:
I: 0 i_dst, 1 dir_mode, 2 bsx, 3 bsy, 4 line_size, 5 i;
P: 0 src, 1 dst;
V: 0 zero, 1 offset, 2 S0/M/mask, 3 S1/S2/M, 4 S2/S1, 5 L0, 6 L1, 7 L2, 8 H0/sum1, 9 H1/sum2, 10 H2/mask2, 11 tmp0, 12 tmp1, 13 tmp2, 14 sum1, 15 sum2, 16 sum3, 17 sum4. -/
def x6A : Stmt :=
  .seq x6A_1 (.seq x6A_4 (.seq x6A_6 x6A_25))

/-- `intra_pred_ang_x_8_avx`, vec/intrinsic_intra-pred_avx2.cc:2132-2158. -/
def x8A_1 : Stmt :=
  .run [
    .alloc 0 224,  -- 2132
    .I 4 (.sub (.add (.v 2) (.shr (.v 3) 1)) (.n 1)),  -- 2133
    .I 6 (.shl (.shr (.add (.v 4) (.n 31)) 4) 4),  -- 2141
    .V 0 .zero,  -- 2143
    .V 1 (.set1_16 (.n 3)),  -- 2145
    .V 2 (.set1_16 (.n 4)),  -- 2146
    .V 3 (.set1_16 (.n 2)),  -- 2147
    .P (.n 2) (.pa 0),  -- 2151
    .P (.n 3) (.add (.pa 0) (.v 6)),  -- 2152
    .I 5 (.n 0)  -- 2158
  ]

/-- `intra_pred_ang_x_8_avx`, vec/intrinsic_intra-pred_avx2.cc:2163-2192. -/
def x8A_2 : Stmt :=
  .run [
    .V 16 (.ld 32 (.pv (.n 0))),  -- 2163
    .V 17 (.ld 32 (.add (.pv (.n 0)) (.n 3))),  -- 2164
    .V 18 (.ld 32 (.add (.pv (.n 0)) (.n 1))),  -- 2165
    .V 19 (.ld 32 (.add (.pv (.n 0)) (.n 2))),  -- 2166
    .V 20 (.o2 .unpacklo8y (.v 16) (.v 0)),  -- 2168
    .V 21 (.o2 .unpacklo8y (.v 18) (.v 0)),  -- 2169
    .V 22 (.o2 .unpacklo8y (.v 19) (.v 0)),  -- 2170
    .V 23 (.o2 .unpacklo8y (.v 17) (.v 0)),  -- 2171
    .V 24 (.o2 .unpackhi8y (.v 16) (.v 0)),  -- 2173
    .V 25 (.o2 .unpackhi8y (.v 18) (.v 0)),  -- 2174
    .V 26 (.o2 .unpackhi8y (.v 19) (.v 0)),  -- 2175
    .V 27 (.o2 .unpackhi8y (.v 17) (.v 0)),  -- 2176
    .V 12 (.o2 (.perm2 32) (.v 20) (.v 24)),  -- 2178
    .V 13 (.o2 (.perm2 32) (.v 21) (.v 25)),  -- 2179
    .V 14 (.o2 (.perm2 32) (.v 22) (.v 26)),  -- 2180
    .V 15 (.o2 (.perm2 32) (.v 23) (.v 27)),  -- 2181
    .V 4 (.o2 .add16 (.v 13) (.v 14)),  -- 2183
    .V 4 (.o2 .mullo16 (.v 4) (.v 1)),  -- 2184
    .V 5 (.o2 .add16 (.v 12) (.v 15)),  -- 2185
    .V 5 (.o2 .add16 (.v 5) (.v 2)),  -- 2186
    .V 4 (.o2 .add16 (.v 4) (.v 5)),  -- 2187
    .V 4 (.o1 (.srli16 3) (.v 4)),  -- 2188
    .V 8 (.o2 .add16 (.v 13) (.v 14)),  -- 2191
    .V 9 (.o2 .add16 (.v 14) (.v 15))  -- 2192
  ]

/-- `intra_pred_ang_x_8_avx`, vec/intrinsic_intra-pred_avx2.cc:2194-2225. -/
def x8A_3 : Stmt :=
  .run [
    .V 12 (.o2 (.perm2 49) (.v 20) (.v 24)),  -- 2194
    .V 13 (.o2 (.perm2 49) (.v 21) (.v 25)),  -- 2195
    .V 14 (.o2 (.perm2 49) (.v 22) (.v 26)),  -- 2196
    .V 15 (.o2 (.perm2 49) (.v 23) (.v 27)),  -- 2197
    .V 6 (.o2 .add16 (.v 13) (.v 14)),  -- 2199
    .V 6 (.o2 .mullo16 (.v 6) (.v 1)),  -- 2200
    .V 7 (.o2 .add16 (.v 12) (.v 15)),  -- 2201
    .V 7 (.o2 .add16 (.v 7) (.v 2)),  -- 2202
    .V 6 (.o2 .add16 (.v 6) (.v 7)),  -- 2203
    .V 6 (.o1 (.srli16 3) (.v 6)),  -- 2204
    .V 10 (.o2 .add16 (.v 13) (.v 14)),  -- 2207
    .V 11 (.o2 .add16 (.v 14) (.v 15)),  -- 2208
    .V 4 (.o2 .packus16y (.v 4) (.v 6)),  -- 2210
    .V 4 (.o1 (.perm4 216) (.v 4)),  -- 2211
    .st 32 (.add (.pv (.n 2)) (.v 5)) (.v 4),  -- 2212
    .V 8 (.o2 .add16 (.v 8) (.v 9)),  -- 2214
    .V 10 (.o2 .add16 (.v 10) (.v 11)),  -- 2215
    .V 8 (.o2 .add16 (.v 8) (.v 3)),  -- 2217
    .V 10 (.o2 .add16 (.v 10) (.v 3)),  -- 2218
    .V 8 (.o1 (.srli16 2) (.v 8)),  -- 2220
    .V 10 (.o1 (.srli16 2) (.v 10)),  -- 2221
    .V 8 (.o2 .packus16y (.v 8) (.v 10)),  -- 2223
    .V 8 (.o1 (.perm4 216) (.v 8)),  -- 2224
    .st 32 (.add (.pv (.n 3)) (.v 5)) (.v 8)  -- 2225
  ]

/-- `intra_pred_ang_x_8_avx`, vec/intrinsic_intra-pred_avx2.cc:2158. -/
def x8A_4 : Stmt :=
  .run [
    .I 5 (.add (.v 5) (.n 32)),  -- 2158
    .P (.n 0) (.add (.pv (.n 0)) (.n 32))
  ]

/-- `intra_pred_ang_x_8_avx`, vec/intrinsic_intra-pred_avx2.cc:2158. -/
def x8A_5 : Stmt :=
  .loop (.lt (.v 5) (.sub (.v 4) (.n 16))) (.seq x8A_2 (.seq x8A_3 x8A_4))

/-- `intra_pred_ang_x_8_avx`, vec/intrinsic_intra-pred_avx2.cc:2233-2261. -/
def x8A_6 : Stmt :=
  .run [
    .V 16 (.ld 32 (.pv (.n 0))),  -- 2233
    .V 17 (.ld 32 (.add (.pv (.n 0)) (.n 3))),  -- 2234
    .V 18 (.ld 32 (.add (.pv (.n 0)) (.n 1))),  -- 2235
    .V 19 (.ld 32 (.add (.pv (.n 0)) (.n 2))),  -- 2236
    .V 16 (.o1 (.perm4 216) (.v 16)),  -- 2238
    .V 17 (.o1 (.perm4 216) (.v 17)),  -- 2239
    .V 18 (.o1 (.perm4 216) (.v 18)),  -- 2240
    .V 19 (.o1 (.perm4 216) (.v 19)),  -- 2241
    .V 20 (.o2 .unpacklo8y (.v 16) (.v 0)),  -- 2243
    .V 21 (.o2 .unpacklo8y (.v 18) (.v 0)),  -- 2244
    .V 22 (.o2 .unpacklo8y (.v 19) (.v 0)),  -- 2245
    .V 23 (.o2 .unpacklo8y (.v 17) (.v 0)),  -- 2246
    .V 4 (.o2 .add16 (.v 21) (.v 22)),  -- 2248
    .V 4 (.o2 .mullo16 (.v 4) (.v 1)),  -- 2249
    .V 5 (.o2 .add16 (.v 20) (.v 23)),  -- 2250
    .V 5 (.o2 .add16 (.v 5) (.v 2)),  -- 2251
    .V 4 (.o2 .add16 (.v 4) (.v 5)),  -- 2252
    .V 4 (.o1 (.srli16 3) (.v 4)),  -- 2253
    .V 4 (.o2 .packus16y (.v 4) (.v 4)),  -- 2255
    .V 4 (.o1 (.perm4 8) (.v 4)),  -- 2256
    .V 24 (.mask 16 (.n 15)),  -- 2257
    .mst 8 32 (.add (.pv (.n 2)) (.v 5)) (.v 24) (.v 4),  -- 2258
    .V 4 (.o2 .add16 (.v 21) (.v 22)),  -- 2260
    .V 5 (.o2 .add16 (.v 22) (.v 23))  -- 2261
  ]

/-- `intra_pred_ang_x_8_avx`, vec/intrinsic_intra-pred_avx2.cc:2263-2269. -/
def x8A_7 : Stmt :=
  .run [
    .V 4 (.o2 .add16 (.v 4) (.v 5)),  -- 2263
    .V 4 (.o2 .add16 (.v 4) (.v 3)),  -- 2264
    .V 4 (.o1 (.srli16 2) (.v 4)),  -- 2265
    .V 4 (.o2 .packus16y (.v 4) (.v 4)),  -- 2267
    .V 4 (.o1 (.perm4 8) (.v 4)),  -- 2268
    .mst 8 32 (.add (.pv (.n 3)) (.v 5)) (.v 24) (.v 4)  -- 2269
  ]

/-- `intra_pred_ang_x_8_avx`, vec/intrinsic_intra-pred_avx2.cc:2229. -/
def x8A_8 : Stmt :=
  .ite (.lt (.v 5) (.v 4)) (.seq x8A_6 x8A_7) (.run [])

/-- `intra_pred_ang_x_8_avx`, vec/intrinsic_intra-pred_avx2.cc:2286. -/
def x8A_9 : Stmt :=
  .run [
    .I 3 (.shr (.v 3) 1)  -- 2286
  ]

/-- `intra_pred_ang_x_8_avx`, vec/intrinsic_intra-pred_avx2.cc:2290. -/
def x8A_10 : Stmt :=
  .run [
    .I 5 (.n 0)  -- 2290
  ]

/-- `intra_pred_ang_x_8_avx`, vec/intrinsic_intra-pred_avx2.cc:2291-2318. -/
def x8A_11 : Stmt :=
  .run [
    .V 16 (.ld 32 (.add (.pv (.n 2)) (.v 5))),  -- 2291
    .st 32 (.pv (.n 1)) (.v 16),  -- 2292
    .V 16 (.ld 32 (.add (.add (.pv (.n 2)) (.v 5)) (.n 32))),  -- 2293
    .st 32 (.add (.pv (.n 1)) (.n 32)) (.v 16),  -- 2294
    .P (.n 1) (.add (.pv (.n 1)) (.v 0)),  -- 2295
    .V 16 (.ld 32 (.add (.pv (.n 3)) (.v 5))),  -- 2297
    .st 32 (.pv (.n 1)) (.v 16),  -- 2298
    .V 16 (.ld 32 (.add (.add (.pv (.n 3)) (.v 5)) (.n 32))),  -- 2299
    .st 32 (.add (.pv (.n 1)) (.n 32)) (.v 16),  -- 2300
    .P (.n 1) (.add (.pv (.n 1)) (.v 0)),  -- 2301
    .V 16 (.ld 32 (.add (.add (.pv (.n 2)) (.v 5)) (.n 1))),  -- 2303
    .st 32 (.pv (.n 1)) (.v 16),  -- 2304
    .V 16 (.ld 32 (.add (.add (.add (.pv (.n 2)) (.v 5)) (.n 1)) (.n 32))),  -- 2305
    .st 32 (.add (.pv (.n 1)) (.n 32)) (.v 16),  -- 2306
    .P (.n 1) (.add (.pv (.n 1)) (.v 0)),  -- 2307
    .V 16 (.ld 32 (.add (.add (.pv (.n 3)) (.v 5)) (.n 1))),  -- 2309
    .st 32 (.pv (.n 1)) (.v 16),  -- 2310
    .V 16 (.ld 32 (.add (.add (.add (.pv (.n 3)) (.v 5)) (.n 1)) (.n 32))),  -- 2311
    .st 32 (.add (.pv (.n 1)) (.n 32)) (.v 16),  -- 2312
    .P (.n 1) (.add (.pv (.n 1)) (.v 0)),  -- 2313
    .V 16 (.ld 32 (.add (.add (.pv (.n 2)) (.v 5)) (.n 2))),  -- 2315
    .st 32 (.pv (.n 1)) (.v 16),  -- 2316
    .V 16 (.ld 32 (.add (.add (.add (.pv (.n 2)) (.v 5)) (.n 2)) (.n 32))),  -- 2317
    .st 32 (.add (.pv (.n 1)) (.n 32)) (.v 16)  -- 2318
  ]

/-- `intra_pred_ang_x_8_avx`, vec/intrinsic_intra-pred_avx2.cc:2290-2337. -/
def x8A_12 : Stmt :=
  .run [
    .P (.n 1) (.add (.pv (.n 1)) (.v 0)),  -- 2319
    .V 16 (.ld 32 (.add (.add (.pv (.n 3)) (.v 5)) (.n 2))),  -- 2321
    .st 32 (.pv (.n 1)) (.v 16),  -- 2322
    .V 16 (.ld 32 (.add (.add (.add (.pv (.n 3)) (.v 5)) (.n 2)) (.n 32))),  -- 2323
    .st 32 (.add (.pv (.n 1)) (.n 32)) (.v 16),  -- 2324
    .P (.n 1) (.add (.pv (.n 1)) (.v 0)),  -- 2325
    .V 16 (.ld 32 (.add (.add (.pv (.n 2)) (.v 5)) (.n 3))),  -- 2327
    .st 32 (.pv (.n 1)) (.v 16),  -- 2328
    .V 16 (.ld 32 (.add (.add (.add (.pv (.n 2)) (.v 5)) (.n 3)) (.n 32))),  -- 2329
    .st 32 (.add (.pv (.n 1)) (.n 32)) (.v 16),  -- 2330
    .P (.n 1) (.add (.pv (.n 1)) (.v 0)),  -- 2331
    .V 16 (.ld 32 (.add (.add (.pv (.n 3)) (.v 5)) (.n 3))),  -- 2333
    .st 32 (.pv (.n 1)) (.v 16),  -- 2334
    .V 16 (.ld 32 (.add (.add (.add (.pv (.n 3)) (.v 5)) (.n 3)) (.n 32))),  -- 2335
    .st 32 (.add (.pv (.n 1)) (.n 32)) (.v 16),  -- 2336
    .P (.n 1) (.add (.pv (.n 1)) (.v 0)),  -- 2337
    .I 5 (.add (.v 5) (.n 4))  -- 2290
  ]

/-- `intra_pred_ang_x_8_avx`, vec/intrinsic_intra-pred_avx2.cc:2290. -/
def x8A_13 : Stmt :=
  .loop (.lt (.v 5) (.v 3)) (.seq x8A_11 x8A_12)

/-- `intra_pred_ang_x_8_avx`, vec/intrinsic_intra-pred_avx2.cc:2341. -/
def x8A_14 : Stmt :=
  .run [
    .I 5 (.n 0)  -- 2341
  ]

/-- `intra_pred_ang_x_8_avx`, vec/intrinsic_intra-pred_avx2.cc:2342-2372. -/
def x8A_15 : Stmt :=
  .run [
    .V 16 (.ld 32 (.add (.pv (.n 2)) (.v 5))),  -- 2342
    .st 32 (.pv (.n 1)) (.v 16),  -- 2343
    .P (.n 1) (.add (.pv (.n 1)) (.v 0)),  -- 2344
    .V 16 (.ld 32 (.add (.pv (.n 3)) (.v 5))),  -- 2346
    .st 32 (.pv (.n 1)) (.v 16),  -- 2347
    .P (.n 1) (.add (.pv (.n 1)) (.v 0)),  -- 2348
    .V 16 (.ld 32 (.add (.add (.pv (.n 2)) (.v 5)) (.n 1))),  -- 2350
    .st 32 (.pv (.n 1)) (.v 16),  -- 2351
    .P (.n 1) (.add (.pv (.n 1)) (.v 0)),  -- 2352
    .V 16 (.ld 32 (.add (.add (.pv (.n 3)) (.v 5)) (.n 1))),  -- 2354
    .st 32 (.pv (.n 1)) (.v 16),  -- 2355
    .P (.n 1) (.add (.pv (.n 1)) (.v 0)),  -- 2356
    .V 16 (.ld 32 (.add (.add (.pv (.n 2)) (.v 5)) (.n 2))),  -- 2358
    .st 32 (.pv (.n 1)) (.v 16),  -- 2359
    .P (.n 1) (.add (.pv (.n 1)) (.v 0)),  -- 2360
    .V 16 (.ld 32 (.add (.add (.pv (.n 3)) (.v 5)) (.n 2))),  -- 2362
    .st 32 (.pv (.n 1)) (.v 16),  -- 2363
    .P (.n 1) (.add (.pv (.n 1)) (.v 0)),  -- 2364
    .V 16 (.ld 32 (.add (.add (.pv (.n 2)) (.v 5)) (.n 3))),  -- 2366
    .st 32 (.pv (.n 1)) (.v 16),  -- 2367
    .P (.n 1) (.add (.pv (.n 1)) (.v 0)),  -- 2368
    .V 16 (.ld 32 (.add (.add (.pv (.n 3)) (.v 5)) (.n 3))),  -- 2370
    .st 32 (.pv (.n 1)) (.v 16),  -- 2371
    .P (.n 1) (.add (.pv (.n 1)) (.v 0))  -- 2372
  ]

/-- `intra_pred_ang_x_8_avx`, vec/intrinsic_intra-pred_avx2.cc:2341. -/
def x8A_16 : Stmt :=
  .run [
    .I 5 (.add (.v 5) (.n 4))  -- 2341
  ]

/-- `intra_pred_ang_x_8_avx`, vec/intrinsic_intra-pred_avx2.cc:2341. -/
def x8A_17 : Stmt :=
  .loop (.lt (.v 5) (.v 3)) (.seq x8A_15 x8A_16)

/-- `intra_pred_ang_x_8_avx`, vec/intrinsic_intra-pred_avx2.cc:2375-2376. -/
def x8A_18 : Stmt :=
  .run [
    .V 16 (.mask 16 (.sub (.v 2) (.n 1))),  -- 2375
    .I 5 (.n 0)  -- 2376
  ]

/-- `intra_pred_ang_x_8_avx`, vec/intrinsic_intra-pred_avx2.cc:2377-2403. -/
def x8A_19 : Stmt :=
  .run [
    .V 17 (.ld 32 (.add (.pv (.n 2)) (.v 5))),  -- 2377
    .mst 8 32 (.pv (.n 1)) (.v 16) (.v 17),  -- 2378
    .P (.n 1) (.add (.pv (.n 1)) (.v 0)),  -- 2379
    .V 17 (.ld 32 (.add (.pv (.n 3)) (.v 5))),  -- 2380
    .mst 8 32 (.pv (.n 1)) (.v 16) (.v 17),  -- 2381
    .P (.n 1) (.add (.pv (.n 1)) (.v 0)),  -- 2382
    .V 17 (.ld 32 (.add (.add (.pv (.n 2)) (.v 5)) (.n 1))),  -- 2384
    .mst 8 32 (.pv (.n 1)) (.v 16) (.v 17),  -- 2385
    .P (.n 1) (.add (.pv (.n 1)) (.v 0)),  -- 2386
    .V 17 (.ld 32 (.add (.add (.pv (.n 3)) (.v 5)) (.n 1))),  -- 2387
    .mst 8 32 (.pv (.n 1)) (.v 16) (.v 17),  -- 2388
    .P (.n 1) (.add (.pv (.n 1)) (.v 0)),  -- 2389
    .V 17 (.ld 32 (.add (.add (.pv (.n 2)) (.v 5)) (.n 2))),  -- 2391
    .mst 8 32 (.pv (.n 1)) (.v 16) (.v 17),  -- 2392
    .P (.n 1) (.add (.pv (.n 1)) (.v 0)),  -- 2393
    .V 17 (.ld 32 (.add (.add (.pv (.n 3)) (.v 5)) (.n 2))),  -- 2394
    .mst 8 32 (.pv (.n 1)) (.v 16) (.v 17),  -- 2395
    .P (.n 1) (.add (.pv (.n 1)) (.v 0)),  -- 2396
    .V 17 (.ld 32 (.add (.add (.pv (.n 2)) (.v 5)) (.n 3))),  -- 2398
    .mst 8 32 (.pv (.n 1)) (.v 16) (.v 17),  -- 2399
    .P (.n 1) (.add (.pv (.n 1)) (.v 0)),  -- 2400
    .V 17 (.ld 32 (.add (.add (.pv (.n 3)) (.v 5)) (.n 3))),  -- 2401
    .mst 8 32 (.pv (.n 1)) (.v 16) (.v 17),  -- 2402
    .P (.n 1) (.add (.pv (.n 1)) (.v 0))  -- 2403
  ]

/-- `intra_pred_ang_x_8_avx`, vec/intrinsic_intra-pred_avx2.cc:2376. -/
def x8A_20 : Stmt :=
  .run [
    .I 5 (.add (.v 5) (.n 4))  -- 2376
  ]

/-- `intra_pred_ang_x_8_avx`, vec/intrinsic_intra-pred_avx2.cc:2376. -/
def x8A_21 : Stmt :=
  .loop (.lt (.v 5) (.v 3)) (.seq x8A_19 x8A_20)

/-- `intra_pred_ang_x_8_avx`, vec/intrinsic_intra-pred_avx2.cc:2406-2407. -/
def x8A_22 : Stmt :=
  .run [
    .V 16 (.mask 16 (.sub (.v 2) (.n 1))),  -- 2406
    .I 5 (.n 0)  -- 2407
  ]

/-- `intra_pred_ang_x_8_avx`, vec/intrinsic_intra-pred_avx2.cc:2408-2434. -/
def x8A_23 : Stmt :=
  .run [
    .V 17 (.ld 32 (.add (.pv (.n 2)) (.v 5))),  -- 2408
    .mst 8 32 (.pv (.n 1)) (.v 16) (.v 17),  -- 2409
    .P (.n 1) (.add (.pv (.n 1)) (.v 0)),  -- 2410
    .V 17 (.ld 32 (.add (.pv (.n 3)) (.v 5))),  -- 2411
    .mst 8 32 (.pv (.n 1)) (.v 16) (.v 17),  -- 2412
    .P (.n 1) (.add (.pv (.n 1)) (.v 0)),  -- 2413
    .V 17 (.ld 32 (.add (.add (.pv (.n 2)) (.v 5)) (.n 1))),  -- 2415
    .mst 8 32 (.pv (.n 1)) (.v 16) (.v 17),  -- 2416
    .P (.n 1) (.add (.pv (.n 1)) (.v 0)),  -- 2417
    .V 17 (.ld 32 (.add (.add (.pv (.n 3)) (.v 5)) (.n 1))),  -- 2418
    .mst 8 32 (.pv (.n 1)) (.v 16) (.v 17),  -- 2419
    .P (.n 1) (.add (.pv (.n 1)) (.v 0)),  -- 2420
    .V 17 (.ld 32 (.add (.add (.pv (.n 2)) (.v 5)) (.n 2))),  -- 2422
    .mst 8 32 (.pv (.n 1)) (.v 16) (.v 17),  -- 2423
    .P (.n 1) (.add (.pv (.n 1)) (.v 0)),  -- 2424
    .V 17 (.ld 32 (.add (.add (.pv (.n 3)) (.v 5)) (.n 2))),  -- 2425
    .mst 8 32 (.pv (.n 1)) (.v 16) (.v 17),  -- 2426
    .P (.n 1) (.add (.pv (.n 1)) (.v 0)),  -- 2427
    .V 17 (.ld 32 (.add (.add (.pv (.n 2)) (.v 5)) (.n 3))),  -- 2429
    .mst 8 32 (.pv (.n 1)) (.v 16) (.v 17),  -- 2430
    .P (.n 1) (.add (.pv (.n 1)) (.v 0)),  -- 2431
    .V 17 (.ld 32 (.add (.add (.pv (.n 3)) (.v 5)) (.n 3))),  -- 2432
    .mst 8 32 (.pv (.n 1)) (.v 16) (.v 17),  -- 2433
    .P (.n 1) (.add (.pv (.n 1)) (.v 0))  -- 2434
  ]

/-- `intra_pred_ang_x_8_avx`, vec/intrinsic_intra-pred_avx2.cc:2407. -/
def x8A_24 : Stmt :=
  .run [
    .I 5 (.add (.v 5) (.n 4))  -- 2407
  ]

/-- `intra_pred_ang_x_8_avx`, vec/intrinsic_intra-pred_avx2.cc:2407. -/
def x8A_25 : Stmt :=
  .loop (.lt (.v 5) (.v 3)) (.seq x8A_23 x8A_24)

/-- `intra_pred_ang_x_8_avx`, vec/intrinsic_intra-pred_avx2.cc:2437-2438. -/
def x8A_26 : Stmt :=
  .run [
    .V 16 (.mask 16 (.sub (.v 2) (.n 1))),  -- 2437
    .I 5 (.n 0)  -- 2438
  ]

/-- `intra_pred_ang_x_8_avx`, vec/intrinsic_intra-pred_avx2.cc:2439-2465. -/
def x8A_27 : Stmt :=
  .run [
    .V 17 (.ld 32 (.add (.pv (.n 2)) (.v 5))),  -- 2439
    .mst 4 32 (.pv (.n 1)) (.v 16) (.v 17),  -- 2440
    .P (.n 1) (.add (.pv (.n 1)) (.v 0)),  -- 2441
    .V 17 (.ld 32 (.add (.pv (.n 3)) (.v 5))),  -- 2442
    .mst 4 32 (.pv (.n 1)) (.v 16) (.v 17),  -- 2443
    .P (.n 1) (.add (.pv (.n 1)) (.v 0)),  -- 2444
    .V 17 (.ld 32 (.add (.add (.pv (.n 2)) (.v 5)) (.n 1))),  -- 2446
    .mst 4 32 (.pv (.n 1)) (.v 16) (.v 17),  -- 2447
    .P (.n 1) (.add (.pv (.n 1)) (.v 0)),  -- 2448
    .V 17 (.ld 32 (.add (.add (.pv (.n 3)) (.v 5)) (.n 1))),  -- 2449
    .mst 4 32 (.pv (.n 1)) (.v 16) (.v 17),  -- 2450
    .P (.n 1) (.add (.pv (.n 1)) (.v 0)),  -- 2451
    .V 17 (.ld 32 (.add (.add (.pv (.n 2)) (.v 5)) (.n 2))),  -- 2453
    .mst 4 32 (.pv (.n 1)) (.v 16) (.v 17),  -- 2454
    .P (.n 1) (.add (.pv (.n 1)) (.v 0)),  -- 2455
    .V 17 (.ld 32 (.add (.add (.pv (.n 3)) (.v 5)) (.n 2))),  -- 2456
    .mst 4 32 (.pv (.n 1)) (.v 16) (.v 17),  -- 2457
    .P (.n 1) (.add (.pv (.n 1)) (.v 0)),  -- 2458
    .V 17 (.ld 32 (.add (.add (.pv (.n 2)) (.v 5)) (.n 3))),  -- 2460
    .mst 4 32 (.pv (.n 1)) (.v 16) (.v 17),  -- 2461
    .P (.n 1) (.add (.pv (.n 1)) (.v 0)),  -- 2462
    .V 17 (.ld 32 (.add (.add (.pv (.n 3)) (.v 5)) (.n 3))),  -- 2463
    .mst 4 32 (.pv (.n 1)) (.v 16) (.v 17),  -- 2464
    .P (.n 1) (.add (.pv (.n 1)) (.v 0))  -- 2465
  ]

/-- `intra_pred_ang_x_8_avx`, vec/intrinsic_intra-pred_avx2.cc:2438. -/
def x8A_28 : Stmt :=
  .run [
    .I 5 (.add (.v 5) (.n 4))  -- 2438
  ]

/-- `intra_pred_ang_x_8_avx`, vec/intrinsic_intra-pred_avx2.cc:2438. -/
def x8A_29 : Stmt :=
  .loop (.lt (.v 5) (.v 3)) (.seq x8A_27 x8A_28)

/-- `intra_pred_ang_x_8_avx`, vec/intrinsic_intra-pred_avx2.cc:2405. -/
def x8A_30 : Stmt :=
  .ite (.eq (.v 2) (.n 8)) (.seq x8A_22 x8A_25) (.seq x8A_26 x8A_29)

/-- `intra_pred_ang_x_8_avx`, vec/intrinsic_intra-pred_avx2.cc:2374. -/
def x8A_31 : Stmt :=
  .ite (.eq (.v 2) (.n 16)) (.seq x8A_18 x8A_21) x8A_30

/-- `intra_pred_ang_x_8_avx`, vec/intrinsic_intra-pred_avx2.cc:2340. -/
def x8A_32 : Stmt :=
  .ite (.eq (.v 2) (.n 32)) (.seq x8A_14 x8A_17) x8A_31

/-- `intra_pred_ang_x_8_avx`, vec/intrinsic_intra-pred_avx2.cc:2288. -/
def x8A_33 : Stmt :=
  .ite (.eq (.v 2) (.n 64)) (.seq x8A_10 x8A_13) x8A_32

/-- `intra_pred_ang_x_8_avx`, source/common/vec/intrinsic_intra-pred_avx2.cc:2129-2544.  Variables:
I: 0 i_dst, 1 dir_mode, 2 bsx, 3 bsy, 4 line_size, 5 i, 6 aligned_line_size;
P: 0 src, 1 dst, 2 pfirst;
V: 0 zero, 1 coeff, 2 offset1, 3 offset2, 4 p01, 5 p02, 6 p11, 7 p12, 8 p21, 9 p22, 10 p31, 11 p32, 12 tmp0, 13 tmp1, 14 tmp2, 15 tmp3, 16 S0/M/mask, 17 S3/M, 18 S1, 19 S2, 20 L0, 21 L1, 22 L2, 23 L3, 24 H0/mask, 25 H1, 26 H2, 27 H3. -/
def x8A : Stmt :=
  .seq x8A_1 (.seq x8A_5 (.seq x8A_8 (.seq x8A_9 x8A_33)))

/-- `intra_pred_ang_x_10_avx`, vec/intrinsic_intra-pred_avx2.cc:2675. -/
def x10A_1 : Stmt :=
  .call x10S (.pv (.n 0)) (.pv (.n 1)) (.v 0) (.v 1) (.v 2) (.v 3)

/-- `intra_pred_ang_x_10_avx`, vec/intrinsic_intra-pred_avx2.cc:2679-2682. -/
def x10A_2 : Stmt :=
  .run [
    .P (.n 2) (.pv (.n 1)),  -- 2679
    .P (.n 3) (.add (.pv (.n 2)) (.v 0)),  -- 2680
    .P (.n 4) (.add (.pv (.n 3)) (.v 0)),  -- 2681
    .P (.n 5) (.add (.pv (.n 4)) (.v 0))  -- 2682
  ]

/-- `intra_pred_ang_x_10_avx`, vec/intrinsic_intra-pred_avx2.cc:2687-2706. -/
def x10A_3 : Stmt :=
  .run [
    .V 0 .zero,  -- 2687
    .V 1 (.set1_16 (.n 2)),  -- 2689
    .V 2 (.set1_16 (.n 3)),  -- 2690
    .V 3 (.set1_16 (.n 4)),  -- 2691
    .V 4 (.set1_16 (.n 5)),  -- 2692
    .V 5 (.set1_16 (.n 7)),  -- 2693
    .V 6 (.set1_16 (.n 8)),  -- 2694
    .alloc 0 384,  -- 2696
    .I 5 (.sub (.add (.v 2) (.div (.v 3) (.n 4))) (.n 1)),  -- 2697
    .I 6 (.shl (.shr (.add (.v 5) (.n 31)) 4) 4),  -- 2698
    .P (.n 6) (.pa 0),  -- 2701
    .P (.n 7) (.add (.pa 0) (.v 6)),  -- 2702
    .P (.n 8) (.add (.pa 0) (.mul (.v 6) (.n 2))),  -- 2703
    .P (.n 9) (.add (.pa 0) (.mul (.v 6) (.n 3))),  -- 2704
    .I 4 (.n 0)  -- 2706
  ]

/-- `intra_pred_ang_x_10_avx`, vec/intrinsic_intra-pred_avx2.cc:2710-2738. -/
def x10A_4 : Stmt :=
  .run [
    .V 15 (.ld 32 (.pv (.n 0))),  -- 2710
    .V 16 (.ld 32 (.add (.pv (.n 0)) (.n 3))),  -- 2711
    .V 17 (.ld 32 (.add (.pv (.n 0)) (.n 1))),  -- 2712
    .V 18 (.ld 32 (.add (.pv (.n 0)) (.n 2))),  -- 2713
    .V 19 (.o2 .unpacklo8y (.v 15) (.v 0)),  -- 2715
    .V 20 (.o2 .unpacklo8y (.v 17) (.v 0)),  -- 2716
    .V 21 (.o2 .unpacklo8y (.v 18) (.v 0)),  -- 2717
    .V 22 (.o2 .unpacklo8y (.v 16) (.v 0)),  -- 2718
    .V 23 (.o2 .unpackhi8y (.v 15) (.v 0)),  -- 2720
    .V 24 (.o2 .unpackhi8y (.v 17) (.v 0)),  -- 2721
    .V 25 (.o2 .unpackhi8y (.v 18) (.v 0)),  -- 2722
    .V 26 (.o2 .unpackhi8y (.v 16) (.v 0)),  -- 2723
    .V 27 (.o2 (.perm2 32) (.v 19) (.v 23)),  -- 2725
    .V 28 (.o2 (.perm2 32) (.v 20) (.v 24)),  -- 2726
    .V 29 (.o2 (.perm2 32) (.v 21) (.v 25)),  -- 2727
    .V 30 (.o2 (.perm2 32) (.v 22) (.v 26)),  -- 2728
    .V 31 (.o2 (.perm2 49) (.v 19) (.v 23)),  -- 2730
    .V 32 (.o2 (.perm2 49) (.v 20) (.v 24)),  -- 2731
    .V 33 (.o2 (.perm2 49) (.v 21) (.v 25)),  -- 2732
    .V 34 (.o2 (.perm2 49) (.v 22) (.v 26)),  -- 2733
    .V 7 (.o2 .mullo16 (.v 27) (.v 2)),  -- 2735
    .V 8 (.o2 .mullo16 (.v 28) (.v 5)),  -- 2736
    .V 9 (.o2 .mullo16 (.v 29) (.v 4)),  -- 2737
    .V 10 (.o2 .add16 (.v 30) (.v 6))  -- 2738
  ]

/-- `intra_pred_ang_x_10_avx`, vec/intrinsic_intra-pred_avx2.cc:2739-2766. -/
def x10A_5 : Stmt :=
  .run [
    .V 7 (.o2 .add16 (.v 7) (.v 10)),  -- 2739
    .V 7 (.o2 .add16 (.v 7) (.v 8)),  -- 2740
    .V 7 (.o2 .add16 (.v 7) (.v 9)),  -- 2741
    .V 7 (.o1 (.srli16 4) (.v 7)),  -- 2742
    .V 11 (.o2 .mullo16 (.v 31) (.v 2)),  -- 2744
    .V 12 (.o2 .mullo16 (.v 32) (.v 5)),  -- 2745
    .V 13 (.o2 .mullo16 (.v 33) (.v 4)),  -- 2746
    .V 14 (.o2 .add16 (.v 34) (.v 6)),  -- 2747
    .V 11 (.o2 .add16 (.v 11) (.v 14)),  -- 2748
    .V 11 (.o2 .add16 (.v 11) (.v 12)),  -- 2749
    .V 11 (.o2 .add16 (.v 11) (.v 13)),  -- 2750
    .V 11 (.o1 (.srli16 4) (.v 11)),  -- 2751
    .V 7 (.o2 .packus16y (.v 7) (.v 11)),  -- 2753
    .V 7 (.o1 (.perm4 216) (.v 7)),  -- 2754
    .st 32 (.add (.pv (.n 6)) (.v 4)) (.v 7),  -- 2755
    .V 7 (.o2 .add16 (.v 28) (.v 29)),  -- 2757
    .V 7 (.o2 .mullo16 (.v 7) (.v 2)),  -- 2758
    .V 8 (.o2 .add16 (.v 27) (.v 30)),  -- 2759
    .V 8 (.o2 .add16 (.v 8) (.v 3)),  -- 2760
    .V 7 (.o2 .add16 (.v 8) (.v 7)),  -- 2761
    .V 7 (.o1 (.srli16 3) (.v 7)),  -- 2762
    .V 11 (.o2 .add16 (.v 32) (.v 33)),  -- 2764
    .V 11 (.o2 .mullo16 (.v 11) (.v 2)),  -- 2765
    .V 12 (.o2 .add16 (.v 31) (.v 34))  -- 2766
  ]

/-- `intra_pred_ang_x_10_avx`, vec/intrinsic_intra-pred_avx2.cc:2767-2794. -/
def x10A_6 : Stmt :=
  .run [
    .V 12 (.o2 .add16 (.v 12) (.v 3)),  -- 2767
    .V 11 (.o2 .add16 (.v 12) (.v 11)),  -- 2768
    .V 11 (.o1 (.srli16 3) (.v 11)),  -- 2769
    .V 7 (.o2 .packus16y (.v 7) (.v 11)),  -- 2771
    .V 7 (.o1 (.perm4 216) (.v 7)),  -- 2772
    .st 32 (.add (.pv (.n 7)) (.v 4)) (.v 7),  -- 2773
    .V 8 (.o2 .mullo16 (.v 28) (.v 4)),  -- 2775
    .V 9 (.o2 .mullo16 (.v 29) (.v 5)),  -- 2776
    .V 10 (.o2 .mullo16 (.v 30) (.v 2)),  -- 2777
    .V 7 (.o2 .add16 (.v 27) (.v 6)),  -- 2778
    .V 7 (.o2 .add16 (.v 7) (.v 8)),  -- 2779
    .V 7 (.o2 .add16 (.v 7) (.v 9)),  -- 2780
    .V 7 (.o2 .add16 (.v 7) (.v 10)),  -- 2781
    .V 7 (.o1 (.srli16 4) (.v 7)),  -- 2782
    .V 12 (.o2 .mullo16 (.v 32) (.v 4)),  -- 2784
    .V 13 (.o2 .mullo16 (.v 33) (.v 5)),  -- 2785
    .V 14 (.o2 .mullo16 (.v 34) (.v 2)),  -- 2786
    .V 11 (.o2 .add16 (.v 31) (.v 6)),  -- 2787
    .V 11 (.o2 .add16 (.v 11) (.v 12)),  -- 2788
    .V 11 (.o2 .add16 (.v 11) (.v 13)),  -- 2789
    .V 11 (.o2 .add16 (.v 11) (.v 14)),  -- 2790
    .V 11 (.o1 (.srli16 4) (.v 11)),  -- 2791
    .V 7 (.o2 .packus16y (.v 7) (.v 11)),  -- 2793
    .V 7 (.o1 (.perm4 216) (.v 7))  -- 2794
  ]

/-- `intra_pred_ang_x_10_avx`, vec/intrinsic_intra-pred_avx2.cc:2706-2811. -/
def x10A_7 : Stmt :=
  .run [
    .st 32 (.add (.pv (.n 8)) (.v 4)) (.v 7),  -- 2795
    .V 7 (.o2 .add16 (.v 28) (.v 29)),  -- 2797
    .V 8 (.o2 .add16 (.v 29) (.v 30)),  -- 2798
    .V 7 (.o2 .add16 (.v 7) (.v 8)),  -- 2799
    .V 7 (.o2 .add16 (.v 7) (.v 1)),  -- 2800
    .V 7 (.o1 (.srli16 2) (.v 7)),  -- 2801
    .V 11 (.o2 .add16 (.v 32) (.v 33)),  -- 2803
    .V 12 (.o2 .add16 (.v 33) (.v 34)),  -- 2804
    .V 11 (.o2 .add16 (.v 11) (.v 12)),  -- 2805
    .V 11 (.o2 .add16 (.v 11) (.v 1)),  -- 2806
    .V 11 (.o1 (.srli16 2) (.v 11)),  -- 2807
    .V 7 (.o2 .packus16y (.v 7) (.v 11)),  -- 2809
    .V 7 (.o1 (.perm4 216) (.v 7)),  -- 2810
    .st 32 (.add (.pv (.n 9)) (.v 4)) (.v 7),  -- 2811
    .I 4 (.add (.v 4) (.n 32)),  -- 2706
    .P (.n 0) (.add (.pv (.n 0)) (.n 32))
  ]

/-- `intra_pred_ang_x_10_avx`, vec/intrinsic_intra-pred_avx2.cc:2706. -/
def x10A_8 : Stmt :=
  .loop (.lt (.v 4) (.sub (.v 5) (.n 16))) (.seq x10A_4 (.seq x10A_5 (.seq x10A_6 x10A_7)))

/-- `intra_pred_ang_x_10_avx`, vec/intrinsic_intra-pred_avx2.cc:2816-2843. -/
def x10A_9 : Stmt :=
  .run [
    .V 11 (.ld 32 (.pv (.n 0))),  -- 2816
    .V 12 (.ld 32 (.add (.pv (.n 0)) (.n 3))),  -- 2817
    .V 13 (.ld 32 (.add (.pv (.n 0)) (.n 1))),  -- 2818
    .V 14 (.ld 32 (.add (.pv (.n 0)) (.n 2))),  -- 2819
    .V 11 (.o1 (.perm4 216) (.v 11)),  -- 2821
    .V 12 (.o1 (.perm4 216) (.v 12)),  -- 2822
    .V 14 (.o1 (.perm4 216) (.v 14)),  -- 2823
    .V 13 (.o1 (.perm4 216) (.v 13)),  -- 2824
    .V 15 (.o2 .unpacklo8y (.v 11) (.v 0)),  -- 2826
    .V 16 (.o2 .unpacklo8y (.v 13) (.v 0)),  -- 2827
    .V 17 (.o2 .unpacklo8y (.v 14) (.v 0)),  -- 2828
    .V 18 (.o2 .unpacklo8y (.v 12) (.v 0)),  -- 2829
    .V 7 (.o2 .mullo16 (.v 15) (.v 2)),  -- 2831
    .V 8 (.o2 .mullo16 (.v 16) (.v 5)),  -- 2832
    .V 9 (.o2 .mullo16 (.v 17) (.v 4)),  -- 2833
    .V 10 (.o2 .add16 (.v 18) (.v 6)),  -- 2834
    .V 7 (.o2 .add16 (.v 7) (.v 10)),  -- 2835
    .V 7 (.o2 .add16 (.v 7) (.v 8)),  -- 2836
    .V 7 (.o2 .add16 (.v 7) (.v 9)),  -- 2837
    .V 7 (.o1 (.srli16 4) (.v 7)),  -- 2838
    .V 7 (.o2 .packus16y (.v 7) (.v 7)),  -- 2840
    .V 7 (.o1 (.perm4 8) (.v 7)),  -- 2841
    .V 19 (.mask 16 (.n 15)),  -- 2842
    .mst 8 32 (.add (.pv (.n 6)) (.v 4)) (.v 19) (.v 7)  -- 2843
  ]

/-- `intra_pred_ang_x_10_avx`, vec/intrinsic_intra-pred_avx2.cc:2845-2872. -/
def x10A_10 : Stmt :=
  .run [
    .V 7 (.o2 .add16 (.v 16) (.v 17)),  -- 2845
    .V 7 (.o2 .mullo16 (.v 7) (.v 2)),  -- 2846
    .V 8 (.o2 .add16 (.v 15) (.v 18)),  -- 2847
    .V 8 (.o2 .add16 (.v 8) (.v 3)),  -- 2848
    .V 7 (.o2 .add16 (.v 8) (.v 7)),  -- 2849
    .V 7 (.o1 (.srli16 3) (.v 7)),  -- 2850
    .V 7 (.o2 .packus16y (.v 7) (.v 7)),  -- 2852
    .V 7 (.o1 (.perm4 8) (.v 7)),  -- 2853
    .mst 8 32 (.add (.pv (.n 7)) (.v 4)) (.v 19) (.v 7),  -- 2854
    .V 8 (.o2 .mullo16 (.v 16) (.v 4)),  -- 2856
    .V 9 (.o2 .mullo16 (.v 17) (.v 5)),  -- 2857
    .V 10 (.o2 .mullo16 (.v 18) (.v 2)),  -- 2858
    .V 7 (.o2 .add16 (.v 15) (.v 6)),  -- 2859
    .V 7 (.o2 .add16 (.v 7) (.v 8)),  -- 2860
    .V 7 (.o2 .add16 (.v 7) (.v 9)),  -- 2861
    .V 7 (.o2 .add16 (.v 7) (.v 10)),  -- 2862
    .V 7 (.o1 (.srli16 4) (.v 7)),  -- 2863
    .V 7 (.o2 .packus16y (.v 7) (.v 7)),  -- 2865
    .V 7 (.o1 (.perm4 8) (.v 7)),  -- 2866
    .mst 8 32 (.add (.pv (.n 8)) (.v 4)) (.v 19) (.v 7),  -- 2867
    .V 7 (.o2 .add16 (.v 16) (.v 17)),  -- 2869
    .V 8 (.o2 .add16 (.v 17) (.v 18)),  -- 2870
    .V 7 (.o2 .add16 (.v 7) (.v 8)),  -- 2871
    .V 7 (.o2 .add16 (.v 7) (.v 1))  -- 2872
  ]

/-- `intra_pred_ang_x_10_avx`, vec/intrinsic_intra-pred_avx2.cc:2873-2877. -/
def x10A_11 : Stmt :=
  .run [
    .V 7 (.o1 (.srli16 2) (.v 7)),  -- 2873
    .V 7 (.o2 .packus16y (.v 7) (.v 7)),  -- 2875
    .V 7 (.o1 (.perm4 8) (.v 7)),  -- 2876
    .mst 8 32 (.add (.pv (.n 9)) (.v 4)) (.v 19) (.v 7)  -- 2877
  ]

/-- `intra_pred_ang_x_10_avx`, vec/intrinsic_intra-pred_avx2.cc:2814. -/
def x10A_12 : Stmt :=
  .ite (.lt (.v 4) (.v 5)) (.seq x10A_9 (.seq x10A_10 x10A_11)) (.run [])

/-- `intra_pred_ang_x_10_avx`, vec/intrinsic_intra-pred_avx2.cc:2880-2881. -/
def x10A_13 : Stmt :=
  .run [
    .I 3 (.shr (.v 3) 2),  -- 2880
    .I 7 (.shl (.v 0) 2)  -- 2881
  ]

/-- `intra_pred_ang_x_10_avx`, vec/intrinsic_intra-pred_avx2.cc:2884. -/
def x10A_14 : Stmt :=
  .run [
    .I 4 (.n 0)  -- 2884
  ]

/-- `intra_pred_ang_x_10_avx`, vec/intrinsic_intra-pred_avx2.cc:2884-2908. -/
def x10A_15 : Stmt :=
  .run [
    .V 7 (.ld 32 (.add (.pv (.n 6)) (.v 4))),  -- 2885
    .st 32 (.pv (.n 2)) (.v 7),  -- 2886
    .V 7 (.ld 32 (.add (.add (.pv (.n 6)) (.v 4)) (.n 32))),  -- 2887
    .st 32 (.add (.pv (.n 2)) (.n 32)) (.v 7),  -- 2888
    .V 7 (.ld 32 (.add (.pv (.n 7)) (.v 4))),  -- 2890
    .st 32 (.pv (.n 3)) (.v 7),  -- 2891
    .V 7 (.ld 32 (.add (.add (.pv (.n 7)) (.v 4)) (.n 32))),  -- 2892
    .st 32 (.add (.pv (.n 3)) (.n 32)) (.v 7),  -- 2893
    .V 7 (.ld 32 (.add (.pv (.n 8)) (.v 4))),  -- 2895
    .st 32 (.pv (.n 4)) (.v 7),  -- 2896
    .V 7 (.ld 32 (.add (.add (.pv (.n 8)) (.v 4)) (.n 32))),  -- 2897
    .st 32 (.add (.pv (.n 4)) (.n 32)) (.v 7),  -- 2898
    .V 7 (.ld 32 (.add (.pv (.n 9)) (.v 4))),  -- 2900
    .st 32 (.pv (.n 5)) (.v 7),  -- 2901
    .V 7 (.ld 32 (.add (.add (.pv (.n 9)) (.v 4)) (.n 32))),  -- 2902
    .st 32 (.add (.pv (.n 5)) (.n 32)) (.v 7),  -- 2903
    .P (.n 2) (.add (.pv (.n 2)) (.v 7)),  -- 2905
    .P (.n 3) (.add (.pv (.n 3)) (.v 7)),  -- 2906
    .P (.n 4) (.add (.pv (.n 4)) (.v 7)),  -- 2907
    .P (.n 5) (.add (.pv (.n 5)) (.v 7)),  -- 2908
    .I 4 (.add (.v 4) (.n 1))  -- 2884
  ]

/-- `intra_pred_ang_x_10_avx`, vec/intrinsic_intra-pred_avx2.cc:2884. -/
def x10A_16 : Stmt :=
  .loop (.lt (.v 4) (.v 3)) x10A_15

/-- `intra_pred_ang_x_10_avx`, vec/intrinsic_intra-pred_avx2.cc:2913. -/
def x10A_17 : Stmt :=
  .run [
    .I 4 (.n 0)  -- 2913
  ]

/-- `intra_pred_ang_x_10_avx`, vec/intrinsic_intra-pred_avx2.cc:2913-2929. -/
def x10A_18 : Stmt :=
  .run [
    .V 7 (.ld 32 (.add (.pv (.n 6)) (.v 4))),  -- 2914
    .st 32 (.pv (.n 2)) (.v 7),  -- 2915
    .V 7 (.ld 32 (.add (.pv (.n 7)) (.v 4))),  -- 2917
    .st 32 (.pv (.n 3)) (.v 7),  -- 2918
    .V 7 (.ld 32 (.add (.pv (.n 8)) (.v 4))),  -- 2920
    .st 32 (.pv (.n 4)) (.v 7),  -- 2921
    .V 7 (.ld 32 (.add (.pv (.n 9)) (.v 4))),  -- 2923
    .st 32 (.pv (.n 5)) (.v 7),  -- 2924
    .P (.n 2) (.add (.pv (.n 2)) (.v 7)),  -- 2926
    .P (.n 3) (.add (.pv (.n 3)) (.v 7)),  -- 2927
    .P (.n 4) (.add (.pv (.n 4)) (.v 7)),  -- 2928
    .P (.n 5) (.add (.pv (.n 5)) (.v 7)),  -- 2929
    .I 4 (.add (.v 4) (.n 1))  -- 2913
  ]

/-- `intra_pred_ang_x_10_avx`, vec/intrinsic_intra-pred_avx2.cc:2913. -/
def x10A_19 : Stmt :=
  .loop (.lt (.v 4) (.v 3)) x10A_18

/-- `intra_pred_ang_x_10_avx`, vec/intrinsic_intra-pred_avx2.cc:2933-2934. -/
def x10A_20 : Stmt :=
  .run [
    .V 7 (.mask 16 (.n 15)),  -- 2933
    .I 4 (.n 0)  -- 2934
  ]

/-- `intra_pred_ang_x_10_avx`, vec/intrinsic_intra-pred_avx2.cc:2934-2950. -/
def x10A_21 : Stmt :=
  .run [
    .V 8 (.ld 32 (.add (.pv (.n 6)) (.v 4))),  -- 2935
    .mst 8 32 (.pv (.n 2)) (.v 7) (.v 8),  -- 2936
    .V 8 (.ld 32 (.add (.pv (.n 7)) (.v 4))),  -- 2938
    .mst 8 32 (.pv (.n 3)) (.v 7) (.v 8),  -- 2939
    .V 8 (.ld 32 (.add (.pv (.n 8)) (.v 4))),  -- 2941
    .mst 8 32 (.pv (.n 4)) (.v 7) (.v 8),  -- 2942
    .V 8 (.ld 32 (.add (.pv (.n 9)) (.v 4))),  -- 2944
    .mst 8 32 (.pv (.n 5)) (.v 7) (.v 8),  -- 2945
    .P (.n 2) (.add (.pv (.n 2)) (.v 7)),  -- 2947
    .P (.n 3) (.add (.pv (.n 3)) (.v 7)),  -- 2948
    .P (.n 4) (.add (.pv (.n 4)) (.v 7)),  -- 2949
    .P (.n 5) (.add (.pv (.n 5)) (.v 7)),  -- 2950
    .I 4 (.add (.v 4) (.n 1))  -- 2934
  ]

/-- `intra_pred_ang_x_10_avx`, vec/intrinsic_intra-pred_avx2.cc:2934. -/
def x10A_22 : Stmt :=
  .loop (.lt (.v 4) (.v 3)) x10A_21

/-- `intra_pred_ang_x_10_avx`, vec/intrinsic_intra-pred_avx2.cc:2953-2954. -/
def x10A_23 : Stmt :=
  .run [
    .V 7 (.mask 16 (.n 7)),  -- 2953
    .I 4 (.n 0)  -- 2954
  ]

/-- `intra_pred_ang_x_10_avx`, vec/intrinsic_intra-pred_avx2.cc:2954-2970. -/
def x10A_24 : Stmt :=
  .run [
    .V 8 (.ld 32 (.add (.pv (.n 6)) (.v 4))),  -- 2955
    .mst 8 32 (.pv (.n 2)) (.v 7) (.v 8),  -- 2956
    .V 8 (.ld 32 (.add (.pv (.n 7)) (.v 4))),  -- 2958
    .mst 8 32 (.pv (.n 3)) (.v 7) (.v 8),  -- 2959
    .V 8 (.ld 32 (.add (.pv (.n 8)) (.v 4))),  -- 2961
    .mst 8 32 (.pv (.n 4)) (.v 7) (.v 8),  -- 2962
    .V 8 (.ld 32 (.add (.pv (.n 9)) (.v 4))),  -- 2964
    .mst 8 32 (.pv (.n 5)) (.v 7) (.v 8),  -- 2965
    .P (.n 2) (.add (.pv (.n 2)) (.v 7)),  -- 2967
    .P (.n 3) (.add (.pv (.n 3)) (.v 7)),  -- 2968
    .P (.n 4) (.add (.pv (.n 4)) (.v 7)),  -- 2969
    .P (.n 5) (.add (.pv (.n 5)) (.v 7)),  -- 2970
    .I 4 (.add (.v 4) (.n 1))  -- 2954
  ]

/-- `intra_pred_ang_x_10_avx`, vec/intrinsic_intra-pred_avx2.cc:2954. -/
def x10A_25 : Stmt :=
  .loop (.lt (.v 4) (.v 3)) x10A_24

/-- `intra_pred_ang_x_10_avx`, vec/intrinsic_intra-pred_avx2.cc:2973-2974. -/
def x10A_26 : Stmt :=
  .run [
    .V 7 (.mask 16 (.n 3)),  -- 2973
    .I 4 (.n 0)  -- 2974
  ]

/-- `intra_pred_ang_x_10_avx`, vec/intrinsic_intra-pred_avx2.cc:2974-2990. -/
def x10A_27 : Stmt :=
  .run [
    .V 8 (.ld 32 (.add (.pv (.n 6)) (.v 4))),  -- 2975
    .mst 4 32 (.pv (.n 2)) (.v 7) (.v 8),  -- 2976
    .V 8 (.ld 32 (.add (.pv (.n 7)) (.v 4))),  -- 2978
    .mst 4 32 (.pv (.n 3)) (.v 7) (.v 8),  -- 2979
    .V 8 (.ld 32 (.add (.pv (.n 8)) (.v 4))),  -- 2981
    .mst 4 32 (.pv (.n 4)) (.v 7) (.v 8),  -- 2982
    .V 8 (.ld 32 (.add (.pv (.n 9)) (.v 4))),  -- 2984
    .mst 4 32 (.pv (.n 5)) (.v 7) (.v 8),  -- 2985
    .P (.n 2) (.add (.pv (.n 2)) (.v 7)),  -- 2987
    .P (.n 3) (.add (.pv (.n 3)) (.v 7)),  -- 2988
    .P (.n 4) (.add (.pv (.n 4)) (.v 7)),  -- 2989
    .P (.n 5) (.add (.pv (.n 5)) (.v 7)),  -- 2990
    .I 4 (.add (.v 4) (.n 1))  -- 2974
  ]

/-- `intra_pred_ang_x_10_avx`, vec/intrinsic_intra-pred_avx2.cc:2974. -/
def x10A_28 : Stmt :=
  .loop (.lt (.v 4) (.v 3)) x10A_27

/-- `intra_pred_ang_x_10_avx`, vec/intrinsic_intra-pred_avx2.cc:2952. -/
def x10A_29 : Stmt :=
  .ite (.eq (.v 2) (.n 8)) (.seq x10A_23 x10A_25) (.seq x10A_26 x10A_28)

/-- `intra_pred_ang_x_10_avx`, vec/intrinsic_intra-pred_avx2.cc:2932. -/
def x10A_30 : Stmt :=
  .ite (.eq (.v 2) (.n 16)) (.seq x10A_20 x10A_22) x10A_29

/-- `intra_pred_ang_x_10_avx`, vec/intrinsic_intra-pred_avx2.cc:2911. -/
def x10A_31 : Stmt :=
  .ite (.eq (.v 2) (.n 32)) (.seq x10A_17 x10A_19) x10A_30

/-- `intra_pred_ang_x_10_avx`, vec/intrinsic_intra-pred_avx2.cc:2882. -/
def x10A_32 : Stmt :=
  .ite (.eq (.v 2) (.n 64)) (.seq x10A_14 x10A_16) x10A_31

/-- `intra_pred_ang_x_10_avx`, vec/intrinsic_intra-pred_avx2.cc:2685. -/
def x10A_33 : Stmt :=
  .ite (.ne (.v 3) (.n 4)) (.seq x10A_3 (.seq x10A_8 (.seq x10A_12 (.seq x10A_13 x10A_32)))) (.run [])

/-- `intra_pred_ang_x_10_avx`, vec/intrinsic_intra-pred_avx2.cc:2674. -/
def x10A_34 : Stmt :=
  .ite (.eq (.v 3) (.n 4)) x10A_1 (.seq x10A_2 x10A_33)

/-- `intra_pred_ang_x_10_avx`, source/common/vec/intrinsic_intra-pred_avx2.cc:2672-3143.  Variables:
I: 0 i_dst, 1 dir_mode, 2 bsx, 3 bsy, 4 i, 5 line_size, 6 aligned_line_size, 7 i_dstx4;
P: 0 src, 1 dst, 2 dst1, 3 dst2, 4 dst3, 5 dst4, 6 pfirst;
V: 0 zero, 1 coeff2, 2 coeff3, 3 coeff4, 4 coeff5, 5 coeff7, 6 coeff8, 7 p00/M/mask, 8 p10/M, 9 p20, 10 p30, 11 p01/S0, 12 p11/S3, 13 p21/S1, 14 p31/S2, 15 S0/L0, 16 S3/L1, 17 S1/L2, 18 S2/L3, 19 L0/mask, 20 L1, 21 L2, 22 L3, 23 H0, 24 H1, 25 H2, 26 H3, 27 tmpL0, 28 tmpL1, 29 tmpL2, 30 tmpL3, 31 tmpH0, 32 tmpH1, 33 tmpH2, 34 tmpH3. -/
def x10A : Stmt :=
  x10A_34

end Davs2.Vp
