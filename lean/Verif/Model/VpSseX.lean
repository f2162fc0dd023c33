import Verif.Model.VecProg
/-
The vector routines of directional intra prediction, statement by statement in the language of Model/VecProg.lean;
the number after `--` is the line of source/common/vec/intrinsic_intra-pred.cc.
Routines: intra_pred_ver_sse128, intra_pred_hor_sse128, intra_pred_ang_x_3_sse128, intra_pred_ang_x_4_sse128, intra_pred_ang_x_5_sse128, intra_pred_ang_x_6_sse128, intra_pred_ang_x_8_sse128, intra_pred_ang_x_10_sse128.
-/
namespace Davs2.Vp

/-- `intra_pred_ver_sse128`, vec/intrinsic_intra-pred.cc:66. -/
def verS_1 : Stmt :=
  .run [
    .P (.n 2) (.add (.pv (.n 0)) (.n 1))  -- 66
  ]

/-- `intra_pred_ver_sse128`, vec/intrinsic_intra-pred.cc:73. -/
def verS_2 : Stmt :=
  .run [
    .I 4 (.n 0)  -- 73
  ]

/-- `intra_pred_ver_sse128`, vec/intrinsic_intra-pred.cc:73-76. -/
def verS_3 : Stmt :=
  .run [
    .cpy (.pv (.n 1)) (.pv (.n 2)) (.n 4),  -- 74
    .cpy (.add (.pv (.n 1)) (.v 0)) (.pv (.n 2)) (.n 4),  -- 75
    .P (.n 1) (.add (.pv (.n 1)) (.shl (.v 0) 1)),  -- 76
    .I 4 (.add (.v 4) (.n 2))  -- 73
  ]

/-- `intra_pred_ver_sse128`, vec/intrinsic_intra-pred.cc:73. -/
def verS_4 : Stmt :=
  .loop (.lt (.v 4) (.v 3)) verS_3

/-- `intra_pred_ver_sse128`, vec/intrinsic_intra-pred.cc:80. -/
def verS_5 : Stmt :=
  .run [
    .I 4 (.n 0)  -- 80
  ]

/-- `intra_pred_ver_sse128`, vec/intrinsic_intra-pred.cc:80-83. -/
def verS_6 : Stmt :=
  .run [
    .cpy (.pv (.n 1)) (.pv (.n 2)) (.n 8),  -- 81
    .cpy (.add (.pv (.n 1)) (.v 0)) (.pv (.n 2)) (.n 8),  -- 82
    .P (.n 1) (.add (.pv (.n 1)) (.shl (.v 0) 1)),  -- 83
    .I 4 (.add (.v 4) (.n 2))  -- 80
  ]

/-- `intra_pred_ver_sse128`, vec/intrinsic_intra-pred.cc:80. -/
def verS_7 : Stmt :=
  .loop (.lt (.v 4) (.v 3)) verS_6

/-- `intra_pred_ver_sse128`, vec/intrinsic_intra-pred.cc:87-88. -/
def verS_8 : Stmt :=
  .run [
    .V 0 (.ld 16 (.pv (.n 2))),  -- 87
    .I 4 (.n 0)  -- 88
  ]

/-- `intra_pred_ver_sse128`, vec/intrinsic_intra-pred.cc:88-90. -/
def verS_9 : Stmt :=
  .run [
    .st 16 (.pv (.n 1)) (.v 0),  -- 89
    .P (.n 1) (.add (.pv (.n 1)) (.v 0)),  -- 90
    .I 4 (.add (.v 4) (.n 1))  -- 88
  ]

/-- `intra_pred_ver_sse128`, vec/intrinsic_intra-pred.cc:88. -/
def verS_10 : Stmt :=
  .loop (.lt (.v 4) (.v 3)) verS_9

/-- `intra_pred_ver_sse128`, vec/intrinsic_intra-pred.cc:94-96. -/
def verS_11 : Stmt :=
  .run [
    .V 0 (.ld 16 (.add (.pv (.n 2)) (.n 0))),  -- 94
    .V 1 (.ld 16 (.add (.pv (.n 2)) (.n 16))),  -- 95
    .I 4 (.n 0)  -- 96
  ]

/-- `intra_pred_ver_sse128`, vec/intrinsic_intra-pred.cc:96-99. -/
def verS_12 : Stmt :=
  .run [
    .st 16 (.add (.pv (.n 1)) (.n 0)) (.v 0),  -- 97
    .st 16 (.add (.pv (.n 1)) (.n 16)) (.v 1),  -- 98
    .P (.n 1) (.add (.pv (.n 1)) (.v 0)),  -- 99
    .I 4 (.add (.v 4) (.n 1))  -- 96
  ]

/-- `intra_pred_ver_sse128`, vec/intrinsic_intra-pred.cc:96. -/
def verS_13 : Stmt :=
  .loop (.lt (.v 4) (.v 3)) verS_12

/-- `intra_pred_ver_sse128`, vec/intrinsic_intra-pred.cc:103-107. -/
def verS_14 : Stmt :=
  .run [
    .V 0 (.ld 16 (.add (.pv (.n 2)) (.n 0))),  -- 103
    .V 1 (.ld 16 (.add (.pv (.n 2)) (.n 16))),  -- 104
    .V 2 (.ld 16 (.add (.pv (.n 2)) (.n 32))),  -- 105
    .V 3 (.ld 16 (.add (.pv (.n 2)) (.n 48))),  -- 106
    .I 4 (.n 0)  -- 107
  ]

/-- `intra_pred_ver_sse128`, vec/intrinsic_intra-pred.cc:107-112. -/
def verS_15 : Stmt :=
  .run [
    .st 16 (.add (.pv (.n 1)) (.n 0)) (.v 0),  -- 108
    .st 16 (.add (.pv (.n 1)) (.n 16)) (.v 1),  -- 109
    .st 16 (.add (.pv (.n 1)) (.n 32)) (.v 2),  -- 110
    .st 16 (.add (.pv (.n 1)) (.n 48)) (.v 3),  -- 111
    .P (.n 1) (.add (.pv (.n 1)) (.v 0)),  -- 112
    .I 4 (.add (.v 4) (.n 1))  -- 107
  ]

/-- `intra_pred_ver_sse128`, vec/intrinsic_intra-pred.cc:107. -/
def verS_16 : Stmt :=
  .loop (.lt (.v 4) (.v 3)) verS_15

/-- `intra_pred_ver_sse128`, vec/intrinsic_intra-pred.cc:116. -/
def verS_17 : Stmt :=
  .run [
    .bad  -- 116
  ]

/-- `intra_pred_ver_sse128`, vec/intrinsic_intra-pred.cc:71. -/
def verS_18 : Stmt :=
  .ite (.eq (.v 2) (.n 64)) (.seq verS_14 verS_16) verS_17

/-- `intra_pred_ver_sse128`, vec/intrinsic_intra-pred.cc:71. -/
def verS_19 : Stmt :=
  .ite (.eq (.v 2) (.n 32)) (.seq verS_11 verS_13) verS_18

/-- `intra_pred_ver_sse128`, vec/intrinsic_intra-pred.cc:71. -/
def verS_20 : Stmt :=
  .ite (.eq (.v 2) (.n 16)) (.seq verS_8 verS_10) verS_19

/-- `intra_pred_ver_sse128`, vec/intrinsic_intra-pred.cc:71. -/
def verS_21 : Stmt :=
  .ite (.eq (.v 2) (.n 8)) (.seq verS_5 verS_7) verS_20

/-- `intra_pred_ver_sse128`, vec/intrinsic_intra-pred.cc:71. -/
def verS_22 : Stmt :=
  .ite (.eq (.v 2) (.n 4)) (.seq verS_2 verS_4) verS_21

/-- `intra_pred_ver_sse128`, source/common/vec/intrinsic_intra-pred.cc:63-119.  Variables:
I: 0 i_dst, 1 dir_mode, 2 bsx, 3 bsy, 4 y;
P: 0 src, 1 dst, 2 rpSrc;
V: 0 T1, 1 T2, 2 T3, 3 T4. -/
def verS : Stmt :=
  .seq verS_1 verS_22

/-- `intra_pred_hor_sse128`, vec/intrinsic_intra-pred.cc:127. -/
def horS_1 : Stmt :=
  .run [
    .P (.n 2) (.sub (.pv (.n 0)) (.n 1))  -- 127
  ]

/-- `intra_pred_hor_sse128`, vec/intrinsic_intra-pred.cc:134. -/
def horS_2 : Stmt :=
  .run [
    .I 4 (.n 0)  -- 134
  ]

/-- `intra_pred_hor_sse128`, vec/intrinsic_intra-pred.cc:134-136. -/
def horS_3 : Stmt :=
  .run [
    .fill (.pv (.n 1)) (.ld (.add (.pv (.n 2)) (.sub (.n 0) (.v 4)))) (.n 4),  -- 135
    .P (.n 1) (.add (.pv (.n 1)) (.v 0)),  -- 136
    .I 4 (.add (.v 4) (.n 1))  -- 134
  ]

/-- `intra_pred_hor_sse128`, vec/intrinsic_intra-pred.cc:134. -/
def horS_4 : Stmt :=
  .loop (.lt (.v 4) (.v 3)) horS_3

/-- `intra_pred_hor_sse128`, vec/intrinsic_intra-pred.cc:140. -/
def horS_5 : Stmt :=
  .run [
    .I 4 (.n 0)  -- 140
  ]

/-- `intra_pred_hor_sse128`, vec/intrinsic_intra-pred.cc:140-142. -/
def horS_6 : Stmt :=
  .run [
    .fill (.pv (.n 1)) (.ld (.add (.pv (.n 2)) (.sub (.n 0) (.v 4)))) (.n 8),  -- 141
    .P (.n 1) (.add (.pv (.n 1)) (.v 0)),  -- 142
    .I 4 (.add (.v 4) (.n 1))  -- 140
  ]

/-- `intra_pred_hor_sse128`, vec/intrinsic_intra-pred.cc:140. -/
def horS_7 : Stmt :=
  .loop (.lt (.v 4) (.v 3)) horS_6

/-- `intra_pred_hor_sse128`, vec/intrinsic_intra-pred.cc:146. -/
def horS_8 : Stmt :=
  .run [
    .I 4 (.n 0)  -- 146
  ]

/-- `intra_pred_hor_sse128`, vec/intrinsic_intra-pred.cc:146-149. -/
def horS_9 : Stmt :=
  .run [
    .V 0 (.set1_8 (.ld (.add (.pv (.n 2)) (.sub (.n 0) (.v 4))))),  -- 147
    .st 16 (.pv (.n 1)) (.v 0),  -- 148
    .P (.n 1) (.add (.pv (.n 1)) (.v 0)),  -- 149
    .I 4 (.add (.v 4) (.n 1))  -- 146
  ]

/-- `intra_pred_hor_sse128`, vec/intrinsic_intra-pred.cc:146. -/
def horS_10 : Stmt :=
  .loop (.lt (.v 4) (.v 3)) horS_9

/-- `intra_pred_hor_sse128`, vec/intrinsic_intra-pred.cc:153. -/
def horS_11 : Stmt :=
  .run [
    .I 4 (.n 0)  -- 153
  ]

/-- `intra_pred_hor_sse128`, vec/intrinsic_intra-pred.cc:153-157. -/
def horS_12 : Stmt :=
  .run [
    .V 0 (.set1_8 (.ld (.add (.pv (.n 2)) (.sub (.n 0) (.v 4))))),  -- 154
    .st 16 (.add (.pv (.n 1)) (.n 0)) (.v 0),  -- 155
    .st 16 (.add (.pv (.n 1)) (.n 16)) (.v 0),  -- 156
    .P (.n 1) (.add (.pv (.n 1)) (.v 0)),  -- 157
    .I 4 (.add (.v 4) (.n 1))  -- 153
  ]

/-- `intra_pred_hor_sse128`, vec/intrinsic_intra-pred.cc:153. -/
def horS_13 : Stmt :=
  .loop (.lt (.v 4) (.v 3)) horS_12

/-- `intra_pred_hor_sse128`, vec/intrinsic_intra-pred.cc:161. -/
def horS_14 : Stmt :=
  .run [
    .I 4 (.n 0)  -- 161
  ]

/-- `intra_pred_hor_sse128`, vec/intrinsic_intra-pred.cc:161-167. -/
def horS_15 : Stmt :=
  .run [
    .V 0 (.set1_8 (.ld (.add (.pv (.n 2)) (.sub (.n 0) (.v 4))))),  -- 162
    .st 16 (.add (.pv (.n 1)) (.n 0)) (.v 0),  -- 163
    .st 16 (.add (.pv (.n 1)) (.n 16)) (.v 0),  -- 164
    .st 16 (.add (.pv (.n 1)) (.n 32)) (.v 0),  -- 165
    .st 16 (.add (.pv (.n 1)) (.n 48)) (.v 0),  -- 166
    .P (.n 1) (.add (.pv (.n 1)) (.v 0)),  -- 167
    .I 4 (.add (.v 4) (.n 1))  -- 161
  ]

/-- `intra_pred_hor_sse128`, vec/intrinsic_intra-pred.cc:161. -/
def horS_16 : Stmt :=
  .loop (.lt (.v 4) (.v 3)) horS_15

/-- `intra_pred_hor_sse128`, vec/intrinsic_intra-pred.cc:171. -/
def horS_17 : Stmt :=
  .run [
    .bad  -- 171
  ]

/-- `intra_pred_hor_sse128`, vec/intrinsic_intra-pred.cc:132. -/
def horS_18 : Stmt :=
  .ite (.eq (.v 2) (.n 64)) (.seq horS_14 horS_16) horS_17

/-- `intra_pred_hor_sse128`, vec/intrinsic_intra-pred.cc:132. -/
def horS_19 : Stmt :=
  .ite (.eq (.v 2) (.n 32)) (.seq horS_11 horS_13) horS_18

/-- `intra_pred_hor_sse128`, vec/intrinsic_intra-pred.cc:132. -/
def horS_20 : Stmt :=
  .ite (.eq (.v 2) (.n 16)) (.seq horS_8 horS_10) horS_19

/-- `intra_pred_hor_sse128`, vec/intrinsic_intra-pred.cc:132. -/
def horS_21 : Stmt :=
  .ite (.eq (.v 2) (.n 8)) (.seq horS_5 horS_7) horS_20

/-- `intra_pred_hor_sse128`, vec/intrinsic_intra-pred.cc:132. -/
def horS_22 : Stmt :=
  .ite (.eq (.v 2) (.n 4)) (.seq horS_2 horS_4) horS_21

/-- `intra_pred_hor_sse128`, source/common/vec/intrinsic_intra-pred.cc:124-175.  Variables:
I: 0 i_dst, 1 dir_mode, 2 bsx, 3 bsy, 4 y;
P: 0 src, 1 dst, 2 rpSrc;
V: 0 T. -/
def horS : Stmt :=
  .seq horS_1 horS_22

/-- `intra_pred_ang_x_3_sse128`, vec/intrinsic_intra-pred.cc:546-557. -/
def x3S_1 : Stmt :=
  .run [
    .V 0 .zero,  -- 546
    .V 1 (.set1_16 (.n 2)),  -- 547
    .V 2 (.set1_16 (.n 3)),  -- 548
    .V 3 (.set1_16 (.n 4)),  -- 549
    .V 4 (.set1_16 (.n 5)),  -- 550
    .V 5 (.set1_16 (.n 7)),  -- 551
    .V 6 (.set1_16 (.n 8)),  -- 552
    .P (.n 2) (.pv (.n 1)),  -- 554
    .P (.n 3) (.add (.pv (.n 2)) (.v 0)),  -- 555
    .P (.n 4) (.add (.pv (.n 3)) (.v 0)),  -- 556
    .P (.n 5) (.add (.pv (.n 4)) (.v 0))  -- 557
  ]

/-- `intra_pred_ang_x_3_sse128`, vec/intrinsic_intra-pred.cc:562-581. -/
def x3S_2 : Stmt :=
  .run [
    .alloc 0 1024,  -- 562
    .I 4 (.add (.v 2) (.shr (.mul (.sub (.v 3) (.n 4)) (.n 11)) 2)),  -- 563
    .I 5 (.add (.add (.n 64) (.n 176)) (.n 16)),  -- 568
    .P (.n 6) (.pa 0),  -- 575
    .P (.n 7) (.add (.pv (.n 6)) (.v 5)),  -- 576
    .P (.n 8) (.add (.pv (.n 7)) (.v 5)),  -- 577
    .P (.n 9) (.add (.pv (.n 8)) (.v 5)),  -- 578
    .I 6 (.n 0)  -- 581
  ]

/-- `intra_pred_ang_x_3_sse128`, vec/intrinsic_intra-pred.cc:588-612. -/
def x3S_3 : Stmt :=
  .run [
    .V 15 (.ld 16 (.add (.pv (.n 0)) (.n 2))),  -- 588
    .V 16 (.o2 .unpacklo8 (.v 15) (.v 0)),  -- 589
    .V 15 (.o1 (.srliB 1) (.v 15)),  -- 590
    .V 17 (.o2 .unpacklo8 (.v 15) (.v 0)),  -- 591
    .V 15 (.o1 (.srliB 1) (.v 15)),  -- 592
    .V 18 (.o2 .unpacklo8 (.v 15) (.v 0)),  -- 593
    .V 15 (.o1 (.srliB 1) (.v 15)),  -- 594
    .V 19 (.o2 .unpacklo8 (.v 15) (.v 0)),  -- 595
    .V 15 (.o1 (.srliB 1) (.v 15)),  -- 596
    .V 20 (.o2 .unpacklo8 (.v 15) (.v 0)),  -- 597
    .V 15 (.o1 (.srliB 1) (.v 15)),  -- 598
    .V 21 (.o2 .unpacklo8 (.v 15) (.v 0)),  -- 599
    .V 15 (.o1 (.srliB 1) (.v 15)),  -- 600
    .V 22 (.o2 .unpacklo8 (.v 15) (.v 0)),  -- 601
    .V 15 (.o1 (.srliB 1) (.v 15)),  -- 602
    .V 23 (.o2 .unpacklo8 (.v 15) (.v 0)),  -- 603
    .V 15 (.o1 (.srliB 1) (.v 15)),  -- 604
    .V 24 (.o2 .unpacklo8 (.v 15) (.v 0)),  -- 605
    .V 25 (.v 24),  -- 606
    .V 26 (.ld 16 (.add (.pv (.n 0)) (.n 11))),  -- 608
    .V 27 (.o2 .unpacklo8 (.v 26) (.v 0)),  -- 609
    .V 28 (.v 27),  -- 610
    .V 26 (.o1 (.srliB 1) (.v 26)),  -- 611
    .V 29 (.o2 .unpacklo8 (.v 26) (.v 0))  -- 612
  ]

/-- `intra_pred_ang_x_3_sse128`, vec/intrinsic_intra-pred.cc:613-639. -/
def x3S_4 : Stmt :=
  .run [
    .V 30 (.v 29),  -- 613
    .V 26 (.o1 (.srliB 1) (.v 26)),  -- 614
    .V 31 (.o2 .unpacklo8 (.v 26) (.v 0)),  -- 615
    .V 32 (.v 31),  -- 616
    .V 26 (.o1 (.srliB 1) (.v 26)),  -- 618
    .V 33 (.o2 .unpacklo8 (.v 26) (.v 0)),  -- 619
    .V 26 (.o1 (.srliB 1) (.v 26)),  -- 620
    .V 34 (.o2 .unpacklo8 (.v 26) (.v 0)),  -- 621
    .V 26 (.o1 (.srliB 1) (.v 26)),  -- 622
    .V 35 (.o2 .unpacklo8 (.v 26) (.v 0)),  -- 623
    .V 26 (.o1 (.srliB 1) (.v 26)),  -- 624
    .V 36 (.o2 .unpacklo8 (.v 26) (.v 0)),  -- 625
    .V 26 (.o1 (.srliB 1) (.v 26)),  -- 626
    .V 37 (.o2 .unpacklo8 (.v 26) (.v 0)),  -- 627
    .V 26 (.o1 (.srliB 1) (.v 26)),  -- 628
    .V 38 (.o2 .unpacklo8 (.v 26) (.v 0)),  -- 629
    .V 39 (.ld 16 (.add (.pv (.n 0)) (.n 20))),  -- 631
    .V 40 (.o2 .unpacklo8 (.v 39) (.v 0)),  -- 632
    .V 39 (.o1 (.srliB 1) (.v 39)),  -- 633
    .V 41 (.o2 .unpacklo8 (.v 39) (.v 0)),  -- 634
    .V 7 (.o2 .add16 (.v 16) (.v 6)),  -- 636
    .V 8 (.o2 .mullo16 (.v 17) (.v 4)),  -- 637
    .V 9 (.o2 .mullo16 (.v 18) (.v 5)),  -- 638
    .V 10 (.o2 .mullo16 (.v 19) (.v 2))  -- 639
  ]

/-- `intra_pred_ang_x_3_sse128`, vec/intrinsic_intra-pred.cc:640-667. -/
def x3S_5 : Stmt :=
  .run [
    .V 7 (.o2 .add16 (.v 7) (.v 8)),  -- 640
    .V 7 (.o2 .add16 (.v 7) (.v 9)),  -- 641
    .V 7 (.o2 .add16 (.v 7) (.v 10)),  -- 642
    .V 7 (.o1 (.srli16 4) (.v 7)),  -- 643
    .V 11 (.o2 .add16 (.v 25) (.v 6)),  -- 645
    .V 12 (.o2 .mullo16 (.v 28) (.v 4)),  -- 646
    .V 13 (.o2 .mullo16 (.v 30) (.v 5)),  -- 647
    .V 14 (.o2 .mullo16 (.v 32) (.v 2)),  -- 648
    .V 11 (.o2 .add16 (.v 11) (.v 12)),  -- 649
    .V 11 (.o2 .add16 (.v 11) (.v 13)),  -- 650
    .V 11 (.o2 .add16 (.v 11) (.v 14)),  -- 651
    .V 11 (.o1 (.srli16 4) (.v 11)),  -- 652
    .V 7 (.o2 .packus16 (.v 7) (.v 11)),  -- 654
    .st 16 (.add (.pv (.n 6)) (.v 6)) (.v 7),  -- 655
    .V 7 (.o2 .add16 (.v 19) (.v 22)),  -- 657
    .V 8 (.o2 .add16 (.v 20) (.v 21)),  -- 658
    .V 8 (.o2 .mullo16 (.v 8) (.v 2)),  -- 659
    .V 7 (.o2 .add16 (.v 7) (.v 3)),  -- 660
    .V 7 (.o2 .add16 (.v 7) (.v 8)),  -- 661
    .V 7 (.o1 (.srli16 3) (.v 7)),  -- 662
    .V 11 (.o2 .add16 (.v 32) (.v 35)),  -- 664
    .V 12 (.o2 .add16 (.v 33) (.v 34)),  -- 665
    .V 12 (.o2 .mullo16 (.v 12) (.v 2)),  -- 666
    .V 11 (.o2 .add16 (.v 11) (.v 3))  -- 667
  ]

/-- `intra_pred_ang_x_3_sse128`, vec/intrinsic_intra-pred.cc:668-696. -/
def x3S_6 : Stmt :=
  .run [
    .V 11 (.o2 .add16 (.v 11) (.v 12)),  -- 668
    .V 11 (.o1 (.srli16 3) (.v 11)),  -- 669
    .V 7 (.o2 .packus16 (.v 7) (.v 11)),  -- 671
    .st 16 (.add (.pv (.n 7)) (.v 6)) (.v 7),  -- 672
    .V 7 (.o2 .mullo16 (.v 22) (.v 2)),  -- 674
    .V 8 (.o2 .mullo16 (.v 23) (.v 5)),  -- 675
    .V 9 (.o2 .mullo16 (.v 24) (.v 4)),  -- 676
    .V 10 (.o2 .add16 (.v 27) (.v 6)),  -- 677
    .V 7 (.o2 .add16 (.v 7) (.v 8)),  -- 678
    .V 7 (.o2 .add16 (.v 7) (.v 9)),  -- 679
    .V 7 (.o2 .add16 (.v 7) (.v 10)),  -- 680
    .V 7 (.o1 (.srli16 4) (.v 7)),  -- 681
    .V 11 (.o2 .mullo16 (.v 35) (.v 2)),  -- 683
    .V 12 (.o2 .mullo16 (.v 36) (.v 5)),  -- 684
    .V 13 (.o2 .mullo16 (.v 37) (.v 4)),  -- 685
    .V 14 (.o2 .add16 (.v 38) (.v 6)),  -- 686
    .V 11 (.o2 .add16 (.v 11) (.v 12)),  -- 687
    .V 11 (.o2 .add16 (.v 11) (.v 13)),  -- 688
    .V 11 (.o2 .add16 (.v 11) (.v 14)),  -- 689
    .V 11 (.o1 (.srli16 4) (.v 11)),  -- 690
    .V 7 (.o2 .packus16 (.v 7) (.v 11)),  -- 692
    .st 16 (.add (.pv (.n 8)) (.v 6)) (.v 7),  -- 693
    .V 7 (.o2 .add16 (.v 27) (.v 31)),  -- 695
    .V 8 (.o2 .mullo16 (.v 29) (.v 1))  -- 696
  ]

/-- `intra_pred_ang_x_3_sse128`, vec/intrinsic_intra-pred.cc:581-708. -/
def x3S_7 : Stmt :=
  .run [
    .V 7 (.o2 .add16 (.v 7) (.v 1)),  -- 697
    .V 7 (.o2 .add16 (.v 7) (.v 8)),  -- 698
    .V 7 (.o1 (.srli16 2) (.v 7)),  -- 699
    .V 11 (.o2 .add16 (.v 38) (.v 41)),  -- 701
    .V 12 (.o2 .mullo16 (.v 40) (.v 1)),  -- 702
    .V 11 (.o2 .add16 (.v 11) (.v 1)),  -- 703
    .V 11 (.o2 .add16 (.v 11) (.v 12)),  -- 704
    .V 11 (.o1 (.srli16 2) (.v 11)),  -- 705
    .V 7 (.o2 .packus16 (.v 7) (.v 11)),  -- 707
    .st 16 (.add (.pv (.n 9)) (.v 6)) (.v 7),  -- 708
    .I 6 (.add (.v 6) (.n 16)),  -- 581
    .P (.n 0) (.add (.pv (.n 0)) (.n 16))
  ]

/-- `intra_pred_ang_x_3_sse128`, vec/intrinsic_intra-pred.cc:581. -/
def x3S_8 : Stmt :=
  .loop (.lt (.v 6) (.sub (.v 4) (.n 8))) (.seq x3S_3 (.seq x3S_4 (.seq x3S_5 (.seq x3S_6 x3S_7))))

/-- `intra_pred_ang_x_3_sse128`, vec/intrinsic_intra-pred.cc:716-740. -/
def x3S_9 : Stmt :=
  .run [
    .V 11 (.ld 16 (.add (.pv (.n 0)) (.n 2))),  -- 716
    .V 12 (.o2 .unpacklo8 (.v 11) (.v 0)),  -- 717
    .V 11 (.o1 (.srliB 1) (.v 11)),  -- 718
    .V 13 (.o2 .unpacklo8 (.v 11) (.v 0)),  -- 719
    .V 11 (.o1 (.srliB 1) (.v 11)),  -- 720
    .V 14 (.o2 .unpacklo8 (.v 11) (.v 0)),  -- 721
    .V 11 (.o1 (.srliB 1) (.v 11)),  -- 722
    .V 15 (.o2 .unpacklo8 (.v 11) (.v 0)),  -- 723
    .V 11 (.o1 (.srliB 1) (.v 11)),  -- 724
    .V 16 (.o2 .unpacklo8 (.v 11) (.v 0)),  -- 725
    .V 11 (.o1 (.srliB 1) (.v 11)),  -- 726
    .V 17 (.o2 .unpacklo8 (.v 11) (.v 0)),  -- 727
    .V 11 (.o1 (.srliB 1) (.v 11)),  -- 728
    .V 18 (.o2 .unpacklo8 (.v 11) (.v 0)),  -- 729
    .V 11 (.o1 (.srliB 1) (.v 11)),  -- 730
    .V 19 (.o2 .unpacklo8 (.v 11) (.v 0)),  -- 731
    .V 11 (.o1 (.srliB 1) (.v 11)),  -- 732
    .V 20 (.o2 .unpacklo8 (.v 11) (.v 0)),  -- 733
    .V 21 (.ld 16 (.add (.pv (.n 0)) (.n 11))),  -- 735
    .V 22 (.o2 .unpacklo8 (.v 21) (.v 0)),  -- 736
    .V 21 (.o1 (.srliB 1) (.v 21)),  -- 737
    .V 23 (.o2 .unpacklo8 (.v 21) (.v 0)),  -- 738
    .V 21 (.o1 (.srliB 1) (.v 21)),  -- 739
    .V 24 (.o2 .unpacklo8 (.v 21) (.v 0))  -- 740
  ]

/-- `intra_pred_ang_x_3_sse128`, vec/intrinsic_intra-pred.cc:742-769. -/
def x3S_10 : Stmt :=
  .run [
    .V 7 (.o2 .add16 (.v 12) (.v 6)),  -- 742
    .V 8 (.o2 .mullo16 (.v 13) (.v 4)),  -- 743
    .V 9 (.o2 .mullo16 (.v 14) (.v 5)),  -- 744
    .V 10 (.o2 .mullo16 (.v 15) (.v 2)),  -- 745
    .V 7 (.o2 .add16 (.v 7) (.v 8)),  -- 746
    .V 7 (.o2 .add16 (.v 7) (.v 9)),  -- 747
    .V 7 (.o2 .add16 (.v 7) (.v 10)),  -- 748
    .V 7 (.o1 (.srli16 4) (.v 7)),  -- 749
    .V 7 (.o2 .packus16 (.v 7) (.v 7)),  -- 751
    .st 8 (.add (.pv (.n 6)) (.v 6)) (.v 7),  -- 752
    .V 7 (.o2 .add16 (.v 15) (.v 18)),  -- 754
    .V 8 (.o2 .add16 (.v 16) (.v 17)),  -- 755
    .V 8 (.o2 .mullo16 (.v 8) (.v 2)),  -- 756
    .V 7 (.o2 .add16 (.v 7) (.v 3)),  -- 757
    .V 7 (.o2 .add16 (.v 7) (.v 8)),  -- 758
    .V 7 (.o1 (.srli16 3) (.v 7)),  -- 759
    .V 7 (.o2 .packus16 (.v 7) (.v 7)),  -- 761
    .st 8 (.add (.pv (.n 7)) (.v 6)) (.v 7),  -- 762
    .V 7 (.o2 .mullo16 (.v 18) (.v 2)),  -- 764
    .V 8 (.o2 .mullo16 (.v 19) (.v 5)),  -- 765
    .V 9 (.o2 .mullo16 (.v 20) (.v 4)),  -- 766
    .V 10 (.o2 .add16 (.v 22) (.v 6)),  -- 767
    .V 7 (.o2 .add16 (.v 7) (.v 8)),  -- 768
    .V 7 (.o2 .add16 (.v 7) (.v 9))  -- 769
  ]

/-- `intra_pred_ang_x_3_sse128`, vec/intrinsic_intra-pred.cc:770-783. -/
def x3S_11 : Stmt :=
  .run [
    .V 7 (.o2 .add16 (.v 7) (.v 10)),  -- 770
    .V 7 (.o1 (.srli16 4) (.v 7)),  -- 771
    .V 7 (.o2 .packus16 (.v 7) (.v 7)),  -- 773
    .st 8 (.add (.pv (.n 8)) (.v 6)) (.v 7),  -- 774
    .V 7 (.o2 .add16 (.v 22) (.v 24)),  -- 776
    .V 8 (.o2 .mullo16 (.v 23) (.v 1)),  -- 777
    .V 7 (.o2 .add16 (.v 7) (.v 1)),  -- 778
    .V 7 (.o2 .add16 (.v 7) (.v 8)),  -- 779
    .V 7 (.o1 (.srli16 2) (.v 7)),  -- 780
    .V 7 (.o2 .packus16 (.v 7) (.v 7)),  -- 782
    .st 8 (.add (.pv (.n 9)) (.v 6)) (.v 7)  -- 783
  ]

/-- `intra_pred_ang_x_3_sse128`, vec/intrinsic_intra-pred.cc:711. -/
def x3S_12 : Stmt :=
  .ite (.lt (.v 6) (.v 4)) (.seq x3S_9 (.seq x3S_10 x3S_11)) (.run [])

/-- `intra_pred_ang_x_3_sse128`, vec/intrinsic_intra-pred.cc:815-816. -/
def x3S_13 : Stmt :=
  .run [
    .I 3 (.shr (.v 3) 2),  -- 815
    .I 6 (.n 0)  -- 816
  ]

/-- `intra_pred_ang_x_3_sse128`, vec/intrinsic_intra-pred.cc:816-824. -/
def x3S_14 : Stmt :=
  .run [
    .cpy (.pv (.n 2)) (.add (.pv (.n 6)) (.mul (.v 6) (.n 11))) (.mul (.v 2) (.n 1)),  -- 817
    .cpy (.pv (.n 3)) (.add (.pv (.n 7)) (.mul (.v 6) (.n 11))) (.mul (.v 2) (.n 1)),  -- 818
    .cpy (.pv (.n 4)) (.add (.pv (.n 8)) (.mul (.v 6) (.n 11))) (.mul (.v 2) (.n 1)),  -- 819
    .cpy (.pv (.n 5)) (.add (.pv (.n 9)) (.mul (.v 6) (.n 11))) (.mul (.v 2) (.n 1)),  -- 820
    .P (.n 2) (.add (.pv (.n 5)) (.v 0)),  -- 821
    .P (.n 3) (.add (.pv (.n 2)) (.v 0)),  -- 822
    .P (.n 4) (.add (.pv (.n 3)) (.v 0)),  -- 823
    .P (.n 5) (.add (.pv (.n 4)) (.v 0)),  -- 824
    .I 6 (.add (.v 6) (.n 1))  -- 816
  ]

/-- `intra_pred_ang_x_3_sse128`, vec/intrinsic_intra-pred.cc:816. -/
def x3S_15 : Stmt :=
  .loop (.lt (.v 6) (.v 3)) x3S_14

/-- `intra_pred_ang_x_3_sse128`, vec/intrinsic_intra-pred.cc:830-854. -/
def x3S_16 : Stmt :=
  .run [
    .V 15 (.ld 16 (.add (.pv (.n 0)) (.n 2))),  -- 830
    .V 16 (.o2 .unpacklo8 (.v 15) (.v 0)),  -- 831
    .V 15 (.o1 (.srliB 1) (.v 15)),  -- 832
    .V 17 (.o2 .unpacklo8 (.v 15) (.v 0)),  -- 833
    .V 15 (.o1 (.srliB 1) (.v 15)),  -- 834
    .V 18 (.o2 .unpacklo8 (.v 15) (.v 0)),  -- 835
    .V 15 (.o1 (.srliB 1) (.v 15)),  -- 836
    .V 19 (.o2 .unpacklo8 (.v 15) (.v 0)),  -- 837
    .V 15 (.o1 (.srliB 1) (.v 15)),  -- 838
    .V 20 (.o2 .unpacklo8 (.v 15) (.v 0)),  -- 839
    .V 15 (.o1 (.srliB 1) (.v 15)),  -- 840
    .V 21 (.o2 .unpacklo8 (.v 15) (.v 0)),  -- 841
    .V 15 (.o1 (.srliB 1) (.v 15)),  -- 842
    .V 22 (.o2 .unpacklo8 (.v 15) (.v 0)),  -- 843
    .V 15 (.o1 (.srliB 1) (.v 15)),  -- 844
    .V 23 (.o2 .unpacklo8 (.v 15) (.v 0)),  -- 845
    .V 15 (.o1 (.srliB 1) (.v 15)),  -- 846
    .V 24 (.o2 .unpacklo8 (.v 15) (.v 0)),  -- 847
    .V 25 (.v 24),  -- 848
    .V 26 (.ld 16 (.add (.pv (.n 0)) (.n 11))),  -- 850
    .V 27 (.o2 .unpacklo8 (.v 26) (.v 0)),  -- 851
    .V 28 (.v 27),  -- 852
    .V 26 (.o1 (.srliB 1) (.v 26)),  -- 853
    .V 29 (.o2 .unpacklo8 (.v 26) (.v 0))  -- 854
  ]

/-- `intra_pred_ang_x_3_sse128`, vec/intrinsic_intra-pred.cc:855-881. -/
def x3S_17 : Stmt :=
  .run [
    .V 30 (.v 29),  -- 855
    .V 26 (.o1 (.srliB 1) (.v 26)),  -- 856
    .V 31 (.o2 .unpacklo8 (.v 26) (.v 0)),  -- 857
    .V 32 (.v 31),  -- 858
    .V 26 (.o1 (.srliB 1) (.v 26)),  -- 860
    .V 33 (.o2 .unpacklo8 (.v 26) (.v 0)),  -- 861
    .V 26 (.o1 (.srliB 1) (.v 26)),  -- 862
    .V 34 (.o2 .unpacklo8 (.v 26) (.v 0)),  -- 863
    .V 26 (.o1 (.srliB 1) (.v 26)),  -- 864
    .V 35 (.o2 .unpacklo8 (.v 26) (.v 0)),  -- 865
    .V 26 (.o1 (.srliB 1) (.v 26)),  -- 866
    .V 36 (.o2 .unpacklo8 (.v 26) (.v 0)),  -- 867
    .V 26 (.o1 (.srliB 1) (.v 26)),  -- 868
    .V 37 (.o2 .unpacklo8 (.v 26) (.v 0)),  -- 869
    .V 26 (.o1 (.srliB 1) (.v 26)),  -- 870
    .V 38 (.o2 .unpacklo8 (.v 26) (.v 0)),  -- 871
    .V 39 (.ld 16 (.add (.pv (.n 0)) (.n 20))),  -- 873
    .V 40 (.o2 .unpacklo8 (.v 39) (.v 0)),  -- 874
    .V 39 (.o1 (.srliB 1) (.v 39)),  -- 875
    .V 41 (.o2 .unpacklo8 (.v 39) (.v 0)),  -- 876
    .V 7 (.o2 .add16 (.v 16) (.v 6)),  -- 878
    .V 8 (.o2 .mullo16 (.v 17) (.v 4)),  -- 879
    .V 9 (.o2 .mullo16 (.v 18) (.v 5)),  -- 880
    .V 10 (.o2 .mullo16 (.v 19) (.v 2))  -- 881
  ]

/-- `intra_pred_ang_x_3_sse128`, vec/intrinsic_intra-pred.cc:882-909. -/
def x3S_18 : Stmt :=
  .run [
    .V 7 (.o2 .add16 (.v 7) (.v 8)),  -- 882
    .V 7 (.o2 .add16 (.v 7) (.v 9)),  -- 883
    .V 7 (.o2 .add16 (.v 7) (.v 10)),  -- 884
    .V 7 (.o1 (.srli16 4) (.v 7)),  -- 885
    .V 11 (.o2 .add16 (.v 25) (.v 6)),  -- 887
    .V 12 (.o2 .mullo16 (.v 28) (.v 4)),  -- 888
    .V 13 (.o2 .mullo16 (.v 30) (.v 5)),  -- 889
    .V 14 (.o2 .mullo16 (.v 32) (.v 2)),  -- 890
    .V 11 (.o2 .add16 (.v 11) (.v 12)),  -- 891
    .V 11 (.o2 .add16 (.v 11) (.v 13)),  -- 892
    .V 11 (.o2 .add16 (.v 11) (.v 14)),  -- 893
    .V 11 (.o1 (.srli16 4) (.v 11)),  -- 894
    .V 7 (.o2 .packus16 (.v 7) (.v 11)),  -- 896
    .st 16 (.pv (.n 2)) (.v 7),  -- 897
    .V 7 (.o2 .add16 (.v 19) (.v 22)),  -- 899
    .V 8 (.o2 .add16 (.v 20) (.v 21)),  -- 900
    .V 8 (.o2 .mullo16 (.v 8) (.v 2)),  -- 901
    .V 7 (.o2 .add16 (.v 7) (.v 3)),  -- 902
    .V 7 (.o2 .add16 (.v 7) (.v 8)),  -- 903
    .V 7 (.o1 (.srli16 3) (.v 7)),  -- 904
    .V 11 (.o2 .add16 (.v 32) (.v 35)),  -- 906
    .V 12 (.o2 .add16 (.v 33) (.v 34)),  -- 907
    .V 12 (.o2 .mullo16 (.v 12) (.v 2)),  -- 908
    .V 11 (.o2 .add16 (.v 11) (.v 3))  -- 909
  ]

/-- `intra_pred_ang_x_3_sse128`, vec/intrinsic_intra-pred.cc:910-938. -/
def x3S_19 : Stmt :=
  .run [
    .V 11 (.o2 .add16 (.v 11) (.v 12)),  -- 910
    .V 11 (.o1 (.srli16 3) (.v 11)),  -- 911
    .V 7 (.o2 .packus16 (.v 7) (.v 11)),  -- 913
    .st 16 (.pv (.n 3)) (.v 7),  -- 914
    .V 7 (.o2 .mullo16 (.v 22) (.v 2)),  -- 916
    .V 8 (.o2 .mullo16 (.v 23) (.v 5)),  -- 917
    .V 9 (.o2 .mullo16 (.v 24) (.v 4)),  -- 918
    .V 10 (.o2 .add16 (.v 27) (.v 6)),  -- 919
    .V 7 (.o2 .add16 (.v 7) (.v 8)),  -- 920
    .V 7 (.o2 .add16 (.v 7) (.v 9)),  -- 921
    .V 7 (.o2 .add16 (.v 7) (.v 10)),  -- 922
    .V 7 (.o1 (.srli16 4) (.v 7)),  -- 923
    .V 11 (.o2 .mullo16 (.v 35) (.v 2)),  -- 925
    .V 12 (.o2 .mullo16 (.v 36) (.v 5)),  -- 926
    .V 13 (.o2 .mullo16 (.v 37) (.v 4)),  -- 927
    .V 14 (.o2 .add16 (.v 38) (.v 6)),  -- 928
    .V 11 (.o2 .add16 (.v 11) (.v 12)),  -- 929
    .V 11 (.o2 .add16 (.v 11) (.v 13)),  -- 930
    .V 11 (.o2 .add16 (.v 11) (.v 14)),  -- 931
    .V 11 (.o1 (.srli16 4) (.v 11)),  -- 932
    .V 7 (.o2 .packus16 (.v 7) (.v 11)),  -- 934
    .st 16 (.pv (.n 4)) (.v 7),  -- 935
    .V 7 (.o2 .add16 (.v 27) (.v 31)),  -- 937
    .V 8 (.o2 .mullo16 (.v 29) (.v 1))  -- 938
  ]

/-- `intra_pred_ang_x_3_sse128`, vec/intrinsic_intra-pred.cc:939-950. -/
def x3S_20 : Stmt :=
  .run [
    .V 7 (.o2 .add16 (.v 7) (.v 1)),  -- 939
    .V 7 (.o2 .add16 (.v 7) (.v 8)),  -- 940
    .V 7 (.o1 (.srli16 2) (.v 7)),  -- 941
    .V 11 (.o2 .add16 (.v 38) (.v 41)),  -- 943
    .V 12 (.o2 .mullo16 (.v 40) (.v 1)),  -- 944
    .V 11 (.o2 .add16 (.v 11) (.v 1)),  -- 945
    .V 11 (.o2 .add16 (.v 11) (.v 12)),  -- 946
    .V 11 (.o1 (.srli16 2) (.v 11)),  -- 947
    .V 7 (.o2 .packus16 (.v 7) (.v 11)),  -- 949
    .st 16 (.pv (.n 5)) (.v 7)  -- 950
  ]

/-- `intra_pred_ang_x_3_sse128`, vec/intrinsic_intra-pred.cc:954-978. -/
def x3S_21 : Stmt :=
  .run [
    .V 11 (.ld 16 (.add (.pv (.n 0)) (.n 2))),  -- 954
    .V 12 (.o2 .unpacklo8 (.v 11) (.v 0)),  -- 955
    .V 11 (.o1 (.srliB 1) (.v 11)),  -- 956
    .V 13 (.o2 .unpacklo8 (.v 11) (.v 0)),  -- 957
    .V 11 (.o1 (.srliB 1) (.v 11)),  -- 958
    .V 14 (.o2 .unpacklo8 (.v 11) (.v 0)),  -- 959
    .V 11 (.o1 (.srliB 1) (.v 11)),  -- 960
    .V 15 (.o2 .unpacklo8 (.v 11) (.v 0)),  -- 961
    .V 11 (.o1 (.srliB 1) (.v 11)),  -- 962
    .V 16 (.o2 .unpacklo8 (.v 11) (.v 0)),  -- 963
    .V 11 (.o1 (.srliB 1) (.v 11)),  -- 964
    .V 17 (.o2 .unpacklo8 (.v 11) (.v 0)),  -- 965
    .V 11 (.o1 (.srliB 1) (.v 11)),  -- 966
    .V 18 (.o2 .unpacklo8 (.v 11) (.v 0)),  -- 967
    .V 11 (.o1 (.srliB 1) (.v 11)),  -- 968
    .V 19 (.o2 .unpacklo8 (.v 11) (.v 0)),  -- 969
    .V 11 (.o1 (.srliB 1) (.v 11)),  -- 970
    .V 20 (.o2 .unpacklo8 (.v 11) (.v 0)),  -- 971
    .V 21 (.ld 16 (.add (.pv (.n 0)) (.n 11))),  -- 973
    .V 22 (.o2 .unpacklo8 (.v 21) (.v 0)),  -- 974
    .V 21 (.o1 (.srliB 1) (.v 21)),  -- 975
    .V 23 (.o2 .unpacklo8 (.v 21) (.v 0)),  -- 976
    .V 21 (.o1 (.srliB 1) (.v 21)),  -- 977
    .V 24 (.o2 .unpacklo8 (.v 21) (.v 0))  -- 978
  ]

/-- `intra_pred_ang_x_3_sse128`, vec/intrinsic_intra-pred.cc:980-1007. -/
def x3S_22 : Stmt :=
  .run [
    .V 7 (.o2 .add16 (.v 12) (.v 6)),  -- 980
    .V 8 (.o2 .mullo16 (.v 13) (.v 4)),  -- 981
    .V 9 (.o2 .mullo16 (.v 14) (.v 5)),  -- 982
    .V 10 (.o2 .mullo16 (.v 15) (.v 2)),  -- 983
    .V 7 (.o2 .add16 (.v 7) (.v 8)),  -- 984
    .V 7 (.o2 .add16 (.v 7) (.v 9)),  -- 985
    .V 7 (.o2 .add16 (.v 7) (.v 10)),  -- 986
    .V 7 (.o1 (.srli16 4) (.v 7)),  -- 987
    .V 7 (.o2 .packus16 (.v 7) (.v 7)),  -- 989
    .st 8 (.pv (.n 2)) (.v 7),  -- 990
    .V 7 (.o2 .add16 (.v 15) (.v 18)),  -- 992
    .V 8 (.o2 .add16 (.v 16) (.v 17)),  -- 993
    .V 8 (.o2 .mullo16 (.v 8) (.v 2)),  -- 994
    .V 7 (.o2 .add16 (.v 7) (.v 3)),  -- 995
    .V 7 (.o2 .add16 (.v 7) (.v 8)),  -- 996
    .V 7 (.o1 (.srli16 3) (.v 7)),  -- 997
    .V 7 (.o2 .packus16 (.v 7) (.v 7)),  -- 999
    .st 8 (.pv (.n 3)) (.v 7),  -- 1000
    .V 7 (.o2 .mullo16 (.v 18) (.v 2)),  -- 1002
    .V 8 (.o2 .mullo16 (.v 19) (.v 5)),  -- 1003
    .V 9 (.o2 .mullo16 (.v 20) (.v 4)),  -- 1004
    .V 10 (.o2 .add16 (.v 22) (.v 6)),  -- 1005
    .V 7 (.o2 .add16 (.v 7) (.v 8)),  -- 1006
    .V 7 (.o2 .add16 (.v 7) (.v 9))  -- 1007
  ]

/-- `intra_pred_ang_x_3_sse128`, vec/intrinsic_intra-pred.cc:1008-1053. -/
def x3S_23 : Stmt :=
  .run [
    .V 7 (.o2 .add16 (.v 7) (.v 10)),  -- 1008
    .V 7 (.o1 (.srli16 4) (.v 7)),  -- 1009
    .V 7 (.o2 .packus16 (.v 7) (.v 7)),  -- 1011
    .st 8 (.pv (.n 4)) (.v 7),  -- 1012
    .V 7 (.o2 .add16 (.v 22) (.v 24)),  -- 1014
    .V 8 (.o2 .mullo16 (.v 23) (.v 1)),  -- 1015
    .V 7 (.o2 .add16 (.v 7) (.v 1)),  -- 1016
    .V 7 (.o2 .add16 (.v 7) (.v 8)),  -- 1017
    .V 7 (.o1 (.srli16 2) (.v 7)),  -- 1018
    .V 7 (.o2 .packus16 (.v 7) (.v 7)),  -- 1020
    .st 8 (.pv (.n 5)) (.v 7),  -- 1021
    .V 25 (.set1_8 (.ld (.add (.pv (.n 0)) (.n 16)))),  -- 1023
    .P (.n 2) (.add (.pv (.n 5)) (.v 0)),  -- 1035
    .P (.n 3) (.add (.pv (.n 2)) (.v 0)),  -- 1036
    .P (.n 4) (.add (.pv (.n 3)) (.v 0)),  -- 1037
    .P (.n 5) (.add (.pv (.n 4)) (.v 0)),  -- 1038
    .st 8 (.pv (.n 2)) (.v 25),  -- 1041
    .st 8 (.pv (.n 3)) (.v 25),  -- 1042
    .st 8 (.pv (.n 4)) (.v 25),  -- 1043
    .st 8 (.pv (.n 5)) (.v 25),  -- 1044
    .st1 (.add (.pv (.n 2)) (.n 0)) (.shr (.add (.add (.add (.add (.ld (.add (.pv (.n 0)) (.n 13))) (.mul 5 (.ld (.add (.pv (.n 0)) (.n 14))))) (.mul 7 (.ld (.add (.pv (.n 0)) (.n 15))))) (.mul 3 (.ld (.add (.pv (.n 0)) (.n 16))))) (.n 8)) 4),  -- 1051
    .st1 (.add (.pv (.n 2)) (.n 1)) (.shr (.add (.add (.add (.add (.ld (.add (.pv (.n 0)) (.n 14))) (.mul 5 (.ld (.add (.pv (.n 0)) (.n 15))))) (.mul 7 (.ld (.add (.pv (.n 0)) (.n 16))))) (.mul 3 (.ld (.add (.pv (.n 0)) (.n 17))))) (.n 8)) 4),  -- 1052
    .st1 (.add (.pv (.n 2)) (.n 2)) (.shr (.add (.add (.add (.add (.ld (.add (.pv (.n 0)) (.n 15))) (.mul 5 (.ld (.add (.pv (.n 0)) (.n 16))))) (.mul 7 (.ld (.add (.pv (.n 0)) (.n 17))))) (.mul 3 (.ld (.add (.pv (.n 0)) (.n 18))))) (.n 8)) 4)  -- 1053
  ]

/-- `intra_pred_ang_x_3_sse128`, vec/intrinsic_intra-pred.cc:1056. -/
def x3S_24 : Stmt :=
  .run [
    .I 4 (.n 0)  -- 1056
  ]

/-- `intra_pred_ang_x_3_sse128`, vec/intrinsic_intra-pred.cc:1056-1066. -/
def x3S_25 : Stmt :=
  .run [
    .P (.n 2) (.add (.pv (.n 5)) (.v 0)),  -- 1057
    .P (.n 3) (.add (.pv (.n 2)) (.v 0)),  -- 1058
    .P (.n 4) (.add (.pv (.n 3)) (.v 0)),  -- 1059
    .P (.n 5) (.add (.pv (.n 4)) (.v 0)),  -- 1060
    .st 8 (.pv (.n 2)) (.v 25),  -- 1063
    .st 8 (.pv (.n 3)) (.v 25),  -- 1064
    .st 8 (.pv (.n 4)) (.v 25),  -- 1065
    .st 8 (.pv (.n 5)) (.v 25),  -- 1066
    .I 4 (.add (.v 4) (.n 1))  -- 1056
  ]

/-- `intra_pred_ang_x_3_sse128`, vec/intrinsic_intra-pred.cc:1056. -/
def x3S_26 : Stmt :=
  .loop (.lt (.v 4) (.n 6)) x3S_25

/-- `intra_pred_ang_x_3_sse128`, vec/intrinsic_intra-pred.cc:1055. -/
def x3S_27 : Stmt :=
  .ite (.eq (.v 3) (.n 32)) (.seq x3S_24 x3S_26) (.run [])

/-- `intra_pred_ang_x_3_sse128`, vec/intrinsic_intra-pred.cc:1079-1104. -/
def x3S_28 : Stmt :=
  .run [
    .V 11 (.ld 16 (.add (.pv (.n 0)) (.n 2))),  -- 1079
    .V 12 (.o2 .unpacklo8 (.v 11) (.v 0)),  -- 1080
    .V 11 (.o1 (.srliB 1) (.v 11)),  -- 1081
    .V 13 (.o2 .unpacklo8 (.v 11) (.v 0)),  -- 1082
    .V 11 (.o1 (.srliB 1) (.v 11)),  -- 1083
    .V 14 (.o2 .unpacklo8 (.v 11) (.v 0)),  -- 1084
    .V 11 (.o1 (.srliB 1) (.v 11)),  -- 1085
    .V 15 (.o2 .unpacklo8 (.v 11) (.v 0)),  -- 1086
    .V 11 (.o1 (.srliB 1) (.v 11)),  -- 1087
    .V 16 (.o2 .unpacklo8 (.v 11) (.v 0)),  -- 1088
    .V 11 (.o1 (.srliB 1) (.v 11)),  -- 1089
    .V 17 (.o2 .unpacklo8 (.v 11) (.v 0)),  -- 1090
    .V 11 (.o1 (.srliB 1) (.v 11)),  -- 1091
    .V 18 (.o2 .unpacklo8 (.v 11) (.v 0)),  -- 1092
    .V 7 (.o2 .add16 (.v 12) (.v 6)),  -- 1094
    .V 8 (.o2 .mullo16 (.v 13) (.v 4)),  -- 1095
    .V 9 (.o2 .mullo16 (.v 14) (.v 5)),  -- 1096
    .V 10 (.o2 .mullo16 (.v 15) (.v 2)),  -- 1097
    .V 7 (.o2 .add16 (.v 7) (.v 8)),  -- 1098
    .V 7 (.o2 .add16 (.v 7) (.v 9)),  -- 1099
    .V 7 (.o2 .add16 (.v 7) (.v 10)),  -- 1100
    .V 7 (.o1 (.srli16 4) (.v 7)),  -- 1101
    .V 7 (.o2 .packus16 (.v 7) (.v 7)),  -- 1103
    .st 4 (.pv (.n 2)) (.v 7)  -- 1104
  ]

/-- `intra_pred_ang_x_3_sse128`, vec/intrinsic_intra-pred.cc:1106-1131. -/
def x3S_29 : Stmt :=
  .run [
    .V 7 (.o2 .add16 (.v 15) (.v 18)),  -- 1106
    .V 8 (.o2 .add16 (.v 16) (.v 17)),  -- 1107
    .V 8 (.o2 .mullo16 (.v 8) (.v 2)),  -- 1108
    .V 7 (.o2 .add16 (.v 7) (.v 3)),  -- 1109
    .V 7 (.o2 .add16 (.v 7) (.v 8)),  -- 1110
    .V 7 (.o1 (.srli16 3) (.v 7)),  -- 1111
    .V 7 (.o2 .packus16 (.v 7) (.v 7)),  -- 1113
    .st 4 (.pv (.n 3)) (.v 7),  -- 1114
    .V 19 (.set1_8 (.ld (.add (.pv (.n 0)) (.n 8)))),  -- 1116
    .st 4 (.pv (.n 4)) (.v 19),  -- 1117
    .st 4 (.pv (.n 5)) (.v 19),  -- 1118
    .I 4 (.n 0)  -- 1131
  ]

/-- `intra_pred_ang_x_3_sse128`, vec/intrinsic_intra-pred.cc:1131-1141. -/
def x3S_30 : Stmt :=
  .run [
    .P (.n 2) (.add (.pv (.n 5)) (.v 0)),  -- 1132
    .P (.n 3) (.add (.pv (.n 2)) (.v 0)),  -- 1133
    .P (.n 4) (.add (.pv (.n 3)) (.v 0)),  -- 1134
    .P (.n 5) (.add (.pv (.n 4)) (.v 0)),  -- 1135
    .st 4 (.pv (.n 2)) (.v 19),  -- 1138
    .st 4 (.pv (.n 3)) (.v 19),  -- 1139
    .st 4 (.pv (.n 4)) (.v 19),  -- 1140
    .st 4 (.pv (.n 5)) (.v 19),  -- 1141
    .I 4 (.add (.v 4) (.n 1))  -- 1131
  ]

/-- `intra_pred_ang_x_3_sse128`, vec/intrinsic_intra-pred.cc:1131. -/
def x3S_31 : Stmt :=
  .loop (.lt (.v 4) (.n 3)) x3S_30

/-- `intra_pred_ang_x_3_sse128`, vec/intrinsic_intra-pred.cc:1151-1176. -/
def x3S_32 : Stmt :=
  .run [
    .V 11 (.ld 16 (.add (.pv (.n 0)) (.n 2))),  -- 1151
    .V 12 (.o2 .unpacklo8 (.v 11) (.v 0)),  -- 1152
    .V 11 (.o1 (.srliB 1) (.v 11)),  -- 1153
    .V 13 (.o2 .unpacklo8 (.v 11) (.v 0)),  -- 1154
    .V 11 (.o1 (.srliB 1) (.v 11)),  -- 1155
    .V 14 (.o2 .unpacklo8 (.v 11) (.v 0)),  -- 1156
    .V 11 (.o1 (.srliB 1) (.v 11)),  -- 1157
    .V 15 (.o2 .unpacklo8 (.v 11) (.v 0)),  -- 1158
    .V 11 (.o1 (.srliB 1) (.v 11)),  -- 1159
    .V 16 (.o2 .unpacklo8 (.v 11) (.v 0)),  -- 1160
    .V 11 (.o1 (.srliB 1) (.v 11)),  -- 1161
    .V 17 (.o2 .unpacklo8 (.v 11) (.v 0)),  -- 1162
    .V 11 (.o1 (.srliB 1) (.v 11)),  -- 1163
    .V 18 (.o2 .unpacklo8 (.v 11) (.v 0)),  -- 1164
    .V 7 (.o2 .add16 (.v 12) (.v 6)),  -- 1166
    .V 8 (.o2 .mullo16 (.v 13) (.v 4)),  -- 1167
    .V 9 (.o2 .mullo16 (.v 14) (.v 5)),  -- 1168
    .V 10 (.o2 .mullo16 (.v 15) (.v 2)),  -- 1169
    .V 7 (.o2 .add16 (.v 7) (.v 8)),  -- 1170
    .V 7 (.o2 .add16 (.v 7) (.v 9)),  -- 1171
    .V 7 (.o2 .add16 (.v 7) (.v 10)),  -- 1172
    .V 7 (.o1 (.srli16 4) (.v 7)),  -- 1173
    .V 7 (.o2 .packus16 (.v 7) (.v 7)),  -- 1175
    .st 4 (.pv (.n 2)) (.v 7)  -- 1176
  ]

/-- `intra_pred_ang_x_3_sse128`, vec/intrinsic_intra-pred.cc:1178-1190. -/
def x3S_33 : Stmt :=
  .run [
    .V 7 (.o2 .add16 (.v 15) (.v 18)),  -- 1178
    .V 8 (.o2 .add16 (.v 16) (.v 17)),  -- 1179
    .V 8 (.o2 .mullo16 (.v 8) (.v 2)),  -- 1180
    .V 7 (.o2 .add16 (.v 7) (.v 3)),  -- 1181
    .V 7 (.o2 .add16 (.v 7) (.v 8)),  -- 1182
    .V 7 (.o1 (.srli16 3) (.v 7)),  -- 1183
    .V 7 (.o2 .packus16 (.v 7) (.v 7)),  -- 1185
    .st 4 (.pv (.n 3)) (.v 7),  -- 1186
    .V 19 (.set1_8 (.ld (.add (.pv (.n 0)) (.n 8)))),  -- 1188
    .st 4 (.pv (.n 4)) (.v 19),  -- 1189
    .st 4 (.pv (.n 5)) (.v 19)  -- 1190
  ]

/-- `intra_pred_ang_x_3_sse128`, vec/intrinsic_intra-pred.cc:1076. -/
def x3S_34 : Stmt :=
  .ite (.eq (.v 3) (.n 16)) (.seq x3S_28 (.seq x3S_29 x3S_31)) (.seq x3S_32 x3S_33)

/-- `intra_pred_ang_x_3_sse128`, vec/intrinsic_intra-pred.cc:951. -/
def x3S_35 : Stmt :=
  .ite (.eq (.v 2) (.n 8)) (.seq x3S_21 (.seq x3S_22 (.seq x3S_23 x3S_27))) x3S_34

/-- `intra_pred_ang_x_3_sse128`, vec/intrinsic_intra-pred.cc:826. -/
def x3S_36 : Stmt :=
  .ite (.eq (.v 2) (.n 16)) (.seq x3S_16 (.seq x3S_17 (.seq x3S_18 (.seq x3S_19 x3S_20)))) x3S_35

/-- `intra_pred_ang_x_3_sse128`, vec/intrinsic_intra-pred.cc:561. -/
def x3S_37 : Stmt :=
  .ite (.and (.lt (.n 4) (.v 3)) (.lt (.n 8) (.v 2))) (.seq x3S_2 (.seq x3S_8 (.seq x3S_12 (.seq x3S_13 x3S_15)))) x3S_36

/-- `intra_pred_ang_x_3_sse128`, source/common/vec/intrinsic_intra-pred.cc:544-1207.  Variables:
I: 0 i_dst, 1 dir_mode, 2 bsx, 3 bsy, 4 line_size/i, 5 aligned_line_size, 6 i;
P: 0 src, 1 dst, 2 dst1, 3 dst2, 4 dst3, 5 dst4, 6 pfirst;
V: 0 zero, 1 coeff2, 2 coeff3, 3 coeff4, 4 coeff5, 5 coeff7, 6 coeff8, 7 p00, 8 p10, 9 p20, 10 p30, 11 p01/SS2, 12 p11/L2, 13 p21/L3, 14 p31/L4, 15 SS2/L5, 16 L2/L6, 17 L3/L7, 18 L4/L8, 19 L5/L9/pad1, 20 L6/L10, 21 L7/SS11, 22 L8/L11, 23 L9/L12, 24 L10/L13, 25 H2/pad1, 26 SS11, 27 L11, 28 H3, 29 L12, 30 H4, 31 L13, 32 H5, 33 H6, 34 H7, 35 H8, 36 H9, 37 H10, 38 H11, 39 SS20, 40 H12, 41 H13. -/
def x3S : Stmt :=
  .seq x3S_1 x3S_37

/-- `intra_pred_ang_x_4_sse128`, vec/intrinsic_intra-pred.cc:1215-1229. -/
def x4S_1 : Stmt :=
  .run [
    .alloc 0 192,  -- 1215
    .I 4 (.add (.v 2) (.shl (.sub (.v 3) (.n 1)) 1)),  -- 1216
    .I 5 (.shl (.v 3) 1),  -- 1220
    .V 0 .zero,  -- 1222
    .V 1 (.set1_16 (.n 2)),  -- 1223
    .P (.n 0) (.add (.pv (.n 0)) (.n 3)),  -- 1227
    .I 6 (.n 0)  -- 1229
  ]

/-- `intra_pred_ang_x_4_sse128`, vec/intrinsic_intra-pred.cc:1229-1261. -/
def x4S_2 : Stmt :=
  .run [
    .V 2 (.ld 16 (.sub (.pv (.n 0)) (.n 1))),  -- 1233
    .V 3 (.ld 16 (.add (.pv (.n 0)) (.n 1))),  -- 1234
    .V 4 (.ld 16 (.pv (.n 0))),  -- 1235
    .V 5 (.o2 .unpacklo8 (.v 2) (.v 0)),  -- 1237
    .V 6 (.o2 .unpacklo8 (.v 4) (.v 0)),  -- 1238
    .V 7 (.o2 .unpacklo8 (.v 3) (.v 0)),  -- 1239
    .V 8 (.o2 .unpackhi8 (.v 2) (.v 0)),  -- 1241
    .V 9 (.o2 .unpackhi8 (.v 4) (.v 0)),  -- 1242
    .V 10 (.o2 .unpackhi8 (.v 3) (.v 0)),  -- 1243
    .V 11 (.o2 .add16 (.v 5) (.v 6)),  -- 1245
    .V 12 (.o2 .add16 (.v 6) (.v 7)),  -- 1246
    .V 13 (.o2 .add16 (.v 8) (.v 9)),  -- 1247
    .V 14 (.o2 .add16 (.v 9) (.v 10)),  -- 1248
    .V 11 (.o2 .add16 (.v 11) (.v 12)),  -- 1250
    .V 13 (.o2 .add16 (.v 13) (.v 14)),  -- 1251
    .V 11 (.o2 .add16 (.v 11) (.v 1)),  -- 1253
    .V 13 (.o2 .add16 (.v 13) (.v 1)),  -- 1254
    .V 11 (.o1 (.srli16 2) (.v 11)),  -- 1256
    .V 13 (.o1 (.srli16 2) (.v 13)),  -- 1257
    .V 11 (.o2 .packus16 (.v 11) (.v 13)),  -- 1259
    .st 16 (.add (.pa 0) (.v 6)) (.v 11),  -- 1261
    .I 6 (.add (.v 6) (.n 16)),  -- 1229
    .P (.n 0) (.add (.pv (.n 0)) (.n 16))
  ]

/-- `intra_pred_ang_x_4_sse128`, vec/intrinsic_intra-pred.cc:1229. -/
def x4S_3 : Stmt :=
  .loop (.lt (.v 6) (.sub (.v 4) (.n 8))) x4S_2

/-- `intra_pred_ang_x_4_sse128`, vec/intrinsic_intra-pred.cc:1269-1285. -/
def x4S_4 : Stmt :=
  .run [
    .V 2 (.ld 16 (.sub (.pv (.n 0)) (.n 1))),  -- 1269
    .V 3 (.ld 16 (.add (.pv (.n 0)) (.n 1))),  -- 1270
    .V 4 (.ld 16 (.pv (.n 0))),  -- 1271
    .V 5 (.o2 .unpacklo8 (.v 2) (.v 0)),  -- 1273
    .V 6 (.o2 .unpacklo8 (.v 4) (.v 0)),  -- 1274
    .V 7 (.o2 .unpacklo8 (.v 3) (.v 0)),  -- 1275
    .V 8 (.o2 .add16 (.v 5) (.v 6)),  -- 1277
    .V 9 (.o2 .add16 (.v 6) (.v 7)),  -- 1278
    .V 8 (.o2 .add16 (.v 8) (.v 9)),  -- 1280
    .V 8 (.o2 .add16 (.v 8) (.v 1)),  -- 1281
    .V 8 (.o1 (.srli16 2) (.v 8)),  -- 1282
    .V 8 (.o2 .packus16 (.v 8) (.v 8)),  -- 1284
    .st 8 (.add (.pa 0) (.v 6)) (.v 8)  -- 1285
  ]

/-- `intra_pred_ang_x_4_sse128`, vec/intrinsic_intra-pred.cc:1265. -/
def x4S_5 : Stmt :=
  .ite (.lt (.v 6) (.v 4)) x4S_4 (.run [])

/-- `intra_pred_ang_x_4_sse128`, vec/intrinsic_intra-pred.cc:1298. -/
def x4S_6 : Stmt :=
  .run [
    .I 6 (.n 0)  -- 1298
  ]

/-- `intra_pred_ang_x_4_sse128`, vec/intrinsic_intra-pred.cc:1298-1300. -/
def x4S_7 : Stmt :=
  .run [
    .cpy (.pv (.n 1)) (.add (.pa 0) (.v 6)) (.mul (.v 2) (.n 1)),  -- 1299
    .P (.n 1) (.add (.pv (.n 1)) (.v 0)),  -- 1300
    .I 6 (.add (.v 6) (.n 2))  -- 1298
  ]

/-- `intra_pred_ang_x_4_sse128`, vec/intrinsic_intra-pred.cc:1298. -/
def x4S_8 : Stmt :=
  .loop (.lt (.v 6) (.v 5)) x4S_7

/-- `intra_pred_ang_x_4_sse128`, vec/intrinsic_intra-pred.cc:1303-1326. -/
def x4S_9 : Stmt :=
  .run [
    .P (.n 2) (.pv (.n 1)),  -- 1303
    .V 2 (.ld 16 (.add (.pa 0) (.n 0))),  -- 1304
    .st 8 (.pv (.n 1)) (.v 2),  -- 1305
    .P (.n 1) (.add (.pv (.n 1)) (.v 0)),  -- 1306
    .V 2 (.o1 (.srliB 2) (.v 2)),  -- 1307
    .st 8 (.pv (.n 1)) (.v 2),  -- 1308
    .P (.n 1) (.add (.pv (.n 1)) (.v 0)),  -- 1309
    .V 2 (.o1 (.srliB 2) (.v 2)),  -- 1310
    .st 8 (.pv (.n 1)) (.v 2),  -- 1311
    .P (.n 1) (.add (.pv (.n 1)) (.v 0)),  -- 1312
    .V 2 (.o1 (.srliB 2) (.v 2)),  -- 1313
    .st 8 (.pv (.n 1)) (.v 2),  -- 1314
    .P (.n 1) (.add (.pv (.n 2)) (.n 8)),  -- 1315
    .V 2 (.ld 16 (.add (.pa 0) (.n 8))),  -- 1316
    .st 8 (.pv (.n 1)) (.v 2),  -- 1317
    .P (.n 1) (.add (.pv (.n 1)) (.v 0)),  -- 1318
    .V 2 (.o1 (.srliB 2) (.v 2)),  -- 1319
    .st 8 (.pv (.n 1)) (.v 2),  -- 1320
    .P (.n 1) (.add (.pv (.n 1)) (.v 0)),  -- 1321
    .V 2 (.o1 (.srliB 2) (.v 2)),  -- 1322
    .st 8 (.pv (.n 1)) (.v 2),  -- 1323
    .P (.n 1) (.add (.pv (.n 1)) (.v 0)),  -- 1324
    .V 2 (.o1 (.srliB 2) (.v 2)),  -- 1325
    .st 8 (.pv (.n 1)) (.v 2)  -- 1326
  ]

/-- `intra_pred_ang_x_4_sse128`, vec/intrinsic_intra-pred.cc:1328. -/
def x4S_10 : Stmt :=
  .run [
    .I 6 (.n 0)  -- 1328
  ]

/-- `intra_pred_ang_x_4_sse128`, vec/intrinsic_intra-pred.cc:1328-1340. -/
def x4S_11 : Stmt :=
  .run [
    .V 2 (.ld 16 (.add (.pa 0) (.v 6))),  -- 1329
    .st 8 (.pv (.n 1)) (.v 2),  -- 1330
    .P (.n 1) (.add (.pv (.n 1)) (.v 0)),  -- 1331
    .V 2 (.o1 (.srliB 2) (.v 2)),  -- 1332
    .st 8 (.pv (.n 1)) (.v 2),  -- 1333
    .P (.n 1) (.add (.pv (.n 1)) (.v 0)),  -- 1334
    .V 2 (.o1 (.srliB 2) (.v 2)),  -- 1335
    .st 8 (.pv (.n 1)) (.v 2),  -- 1336
    .P (.n 1) (.add (.pv (.n 1)) (.v 0)),  -- 1337
    .V 2 (.o1 (.srliB 2) (.v 2)),  -- 1338
    .st 8 (.pv (.n 1)) (.v 2),  -- 1339
    .P (.n 1) (.add (.pv (.n 1)) (.v 0)),  -- 1340
    .I 6 (.add (.v 6) (.n 8))  -- 1328
  ]

/-- `intra_pred_ang_x_4_sse128`, vec/intrinsic_intra-pred.cc:1328. -/
def x4S_12 : Stmt :=
  .loop (.lt (.v 6) (.v 5)) x4S_11

/-- `intra_pred_ang_x_4_sse128`, vec/intrinsic_intra-pred.cc:1343. -/
def x4S_13 : Stmt :=
  .run [
    .I 6 (.n 0)  -- 1343
  ]

/-- `intra_pred_ang_x_4_sse128`, vec/intrinsic_intra-pred.cc:1343-1355. -/
def x4S_14 : Stmt :=
  .run [
    .V 2 (.ld 16 (.add (.pa 0) (.v 6))),  -- 1344
    .st 4 (.pv (.n 1)) (.v 2),  -- 1345
    .P (.n 1) (.add (.pv (.n 1)) (.v 0)),  -- 1346
    .V 2 (.o1 (.srliB 2) (.v 2)),  -- 1347
    .st 4 (.pv (.n 1)) (.v 2),  -- 1348
    .P (.n 1) (.add (.pv (.n 1)) (.v 0)),  -- 1349
    .V 2 (.o1 (.srliB 2) (.v 2)),  -- 1350
    .st 4 (.pv (.n 1)) (.v 2),  -- 1351
    .P (.n 1) (.add (.pv (.n 1)) (.v 0)),  -- 1352
    .V 2 (.o1 (.srliB 2) (.v 2)),  -- 1353
    .st 4 (.pv (.n 1)) (.v 2),  -- 1354
    .P (.n 1) (.add (.pv (.n 1)) (.v 0)),  -- 1355
    .I 6 (.add (.v 6) (.n 8))  -- 1343
  ]

/-- `intra_pred_ang_x_4_sse128`, vec/intrinsic_intra-pred.cc:1343. -/
def x4S_15 : Stmt :=
  .loop (.lt (.v 6) (.v 5)) x4S_14

/-- `intra_pred_ang_x_4_sse128`, vec/intrinsic_intra-pred.cc:1327. -/
def x4S_16 : Stmt :=
  .ite (.eq (.v 2) (.n 8)) (.seq x4S_10 x4S_12) (.seq x4S_13 x4S_15)

/-- `intra_pred_ang_x_4_sse128`, vec/intrinsic_intra-pred.cc:1302. -/
def x4S_17 : Stmt :=
  .ite (.eq (.v 2) (.n 16)) x4S_9 x4S_16

/-- `intra_pred_ang_x_4_sse128`, vec/intrinsic_intra-pred.cc:1297. -/
def x4S_18 : Stmt :=
  .ite (.or (.eq (.v 2) (.v 3)) (.lt (.n 16) (.v 2))) (.seq x4S_6 x4S_8) x4S_17

/-- `intra_pred_ang_x_4_sse128`, source/common/vec/intrinsic_intra-pred.cc:1212-1359.  Variables:
I: 0 i_dst, 1 dir_mode, 2 bsx, 3 bsy, 4 line_size, 5 iHeight2, 6 i;
P: 0 src, 1 dst, 2 dst1;
V: 0 zero, 1 offset, 2 S0/M, 3 S2, 4 S1, 5 L0, 6 L1, 7 L2, 8 H0/sum1, 9 H1/sum2, 10 H2, 11 sum1, 12 sum2, 13 sum3, 14 sum4. -/
def x4S : Stmt :=
  .seq x4S_1 (.seq x4S_3 (.seq x4S_5 x4S_18))

/-- `intra_pred_ang_x_5_sse128`, vec/intrinsic_intra-pred.cc:1366-1377. -/
def x5S_1 : Stmt :=
  .run [
    .V 0 .zero,  -- 1366
    .V 1 (.set1_16 (.n 2)),  -- 1367
    .V 2 (.set1_16 (.n 3)),  -- 1368
    .V 3 (.set1_16 (.n 4)),  -- 1369
    .V 4 (.set1_16 (.n 5)),  -- 1370
    .V 5 (.set1_16 (.n 7)),  -- 1371
    .V 6 (.set1_16 (.n 8)),  -- 1372
    .V 7 (.set1_16 (.n 9)),  -- 1373
    .V 8 (.set1_16 (.n 11)),  -- 1374
    .V 9 (.set1_16 (.n 13)),  -- 1375
    .V 10 (.set1_16 (.n 15)),  -- 1376
    .V 11 (.set1_16 (.n 16))  -- 1377
  ]

/-- `intra_pred_ang_x_5_sse128`, vec/intrinsic_intra-pred.cc:1383-1416. -/
def x5S_2 : Stmt :=
  .run [
    .alloc 0 1280,  -- 1383
    .I 5 (.add (.v 2) (.mul (.shr (.sub (.v 3) (.n 8)) 3) (.n 11))),  -- 1384
    .I 6 (.add (.shl (.shr (.add (.v 5) (.n 15)) 4) 4) (.n 16)),  -- 1389
    .P (.n 10) (.pv (.n 1)),  -- 1395
    .P (.n 11) (.add (.pv (.n 10)) (.v 0)),  -- 1396
    .P (.n 12) (.add (.pv (.n 11)) (.v 0)),  -- 1397
    .P (.n 13) (.add (.pv (.n 12)) (.v 0)),  -- 1398
    .P (.n 14) (.add (.pv (.n 13)) (.v 0)),  -- 1399
    .P (.n 15) (.add (.pv (.n 14)) (.v 0)),  -- 1400
    .P (.n 16) (.add (.pv (.n 15)) (.v 0)),  -- 1401
    .P (.n 17) (.add (.pv (.n 16)) (.v 0)),  -- 1402
    .P (.n 2) (.pa 0),  -- 1404
    .P (.n 3) (.add (.pv (.n 2)) (.v 6)),  -- 1405
    .P (.n 4) (.add (.pv (.n 3)) (.v 6)),  -- 1406
    .P (.n 5) (.add (.pv (.n 4)) (.v 6)),  -- 1407
    .P (.n 6) (.add (.pv (.n 5)) (.v 6)),  -- 1408
    .P (.n 7) (.add (.pv (.n 6)) (.v 6)),  -- 1409
    .P (.n 8) (.add (.pv (.n 7)) (.v 6)),  -- 1410
    .P (.n 9) (.add (.pv (.n 8)) (.v 6)),  -- 1411
    .I 4 (.n 0)  -- 1416
  ]

/-- `intra_pred_ang_x_5_sse128`, vec/intrinsic_intra-pred.cc:1420-1444. -/
def x5S_3 : Stmt :=
  .run [
    .V 20 (.ld 16 (.add (.pv (.n 0)) (.n 1))),  -- 1420
    .V 21 (.o2 .unpacklo8 (.v 20) (.v 0)),  -- 1421
    .V 20 (.o1 (.srliB 1) (.v 20)),  -- 1422
    .V 22 (.o2 .unpacklo8 (.v 20) (.v 0)),  -- 1423
    .V 20 (.o1 (.srliB 1) (.v 20)),  -- 1424
    .V 23 (.o2 .unpacklo8 (.v 20) (.v 0)),  -- 1425
    .V 20 (.o1 (.srliB 1) (.v 20)),  -- 1426
    .V 24 (.o2 .unpacklo8 (.v 20) (.v 0)),  -- 1427
    .V 20 (.o1 (.srliB 1) (.v 20)),  -- 1428
    .V 25 (.o2 .unpacklo8 (.v 20) (.v 0)),  -- 1429
    .V 20 (.o1 (.srliB 1) (.v 20)),  -- 1430
    .V 26 (.o2 .unpacklo8 (.v 20) (.v 0)),  -- 1431
    .V 20 (.o1 (.srliB 1) (.v 20)),  -- 1432
    .V 27 (.o2 .unpacklo8 (.v 20) (.v 0)),  -- 1433
    .V 20 (.o1 (.srliB 1) (.v 20)),  -- 1434
    .V 28 (.o2 .unpacklo8 (.v 20) (.v 0)),  -- 1435
    .V 20 (.o1 (.srliB 1) (.v 20)),  -- 1436
    .V 29 (.o2 .unpacklo8 (.v 20) (.v 0)),  -- 1437
    .V 30 (.v 29),  -- 1438
    .V 31 (.ld 16 (.add (.pv (.n 0)) (.n 10))),  -- 1440
    .V 32 (.o2 .unpacklo8 (.v 31) (.v 0)),  -- 1441
    .V 33 (.v 32),  -- 1442
    .V 31 (.o1 (.srliB 1) (.v 31)),  -- 1443
    .V 34 (.o2 .unpacklo8 (.v 31) (.v 0))  -- 1444
  ]

/-- `intra_pred_ang_x_5_sse128`, vec/intrinsic_intra-pred.cc:1445-1471. -/
def x5S_4 : Stmt :=
  .run [
    .V 35 (.v 34),  -- 1445
    .V 31 (.o1 (.srliB 1) (.v 31)),  -- 1446
    .V 36 (.o2 .unpacklo8 (.v 31) (.v 0)),  -- 1447
    .V 37 (.v 36),  -- 1448
    .V 31 (.o1 (.srliB 1) (.v 31)),  -- 1449
    .V 38 (.o2 .unpacklo8 (.v 31) (.v 0)),  -- 1450
    .V 39 (.v 38),  -- 1451
    .V 31 (.o1 (.srliB 1) (.v 31)),  -- 1453
    .V 40 (.o2 .unpacklo8 (.v 31) (.v 0)),  -- 1454
    .V 31 (.o1 (.srliB 1) (.v 31)),  -- 1455
    .V 41 (.o2 .unpacklo8 (.v 31) (.v 0)),  -- 1456
    .V 31 (.o1 (.srliB 1) (.v 31)),  -- 1457
    .V 42 (.o2 .unpacklo8 (.v 31) (.v 0)),  -- 1458
    .V 31 (.o1 (.srliB 1) (.v 31)),  -- 1459
    .V 43 (.o2 .unpacklo8 (.v 31) (.v 0)),  -- 1460
    .V 31 (.o1 (.srliB 1) (.v 31)),  -- 1461
    .V 44 (.o2 .unpacklo8 (.v 31) (.v 0)),  -- 1462
    .V 45 (.ld 16 (.add (.pv (.n 0)) (.n 19))),  -- 1464
    .V 46 (.o2 .unpacklo8 (.v 45) (.v 0)),  -- 1465
    .V 45 (.o1 (.srliB 1) (.v 45)),  -- 1466
    .V 47 (.o2 .unpacklo8 (.v 45) (.v 0)),  -- 1467
    .V 45 (.o1 (.srliB 1) (.v 45)),  -- 1468
    .V 48 (.o2 .unpacklo8 (.v 45) (.v 0)),  -- 1469
    .V 12 (.o2 .mullo16 (.v 21) (.v 4))  -- 1471
  ]

/-- `intra_pred_ang_x_5_sse128`, vec/intrinsic_intra-pred.cc:1472-1498. -/
def x5S_5 : Stmt :=
  .run [
    .V 13 (.o2 .mullo16 (.v 22) (.v 9)),  -- 1472
    .V 14 (.o2 .mullo16 (.v 23) (.v 8)),  -- 1473
    .V 15 (.o2 .mullo16 (.v 24) (.v 2)),  -- 1474
    .V 12 (.o2 .add16 (.v 12) (.v 11)),  -- 1475
    .V 12 (.o2 .add16 (.v 12) (.v 13)),  -- 1476
    .V 12 (.o2 .add16 (.v 12) (.v 14)),  -- 1477
    .V 12 (.o2 .add16 (.v 12) (.v 15)),  -- 1478
    .V 12 (.o1 (.srli16 5) (.v 12)),  -- 1479
    .V 16 (.o2 .mullo16 (.v 30) (.v 4)),  -- 1481
    .V 17 (.o2 .mullo16 (.v 33) (.v 9)),  -- 1482
    .V 18 (.o2 .mullo16 (.v 35) (.v 8)),  -- 1483
    .V 19 (.o2 .mullo16 (.v 37) (.v 2)),  -- 1484
    .V 16 (.o2 .add16 (.v 16) (.v 11)),  -- 1485
    .V 16 (.o2 .add16 (.v 16) (.v 17)),  -- 1486
    .V 16 (.o2 .add16 (.v 16) (.v 18)),  -- 1487
    .V 16 (.o2 .add16 (.v 16) (.v 19)),  -- 1488
    .V 16 (.o1 (.srli16 5) (.v 16)),  -- 1489
    .V 12 (.o2 .packus16 (.v 12) (.v 16)),  -- 1491
    .st 16 (.add (.pv (.n 2)) (.v 4)) (.v 12),  -- 1492
    .V 13 (.o2 .mullo16 (.v 23) (.v 4)),  -- 1494
    .V 14 (.o2 .mullo16 (.v 24) (.v 5)),  -- 1495
    .V 15 (.o2 .mullo16 (.v 25) (.v 2)),  -- 1496
    .V 12 (.o2 .add16 (.v 22) (.v 6)),  -- 1497
    .V 12 (.o2 .add16 (.v 12) (.v 13))  -- 1498
  ]

/-- `intra_pred_ang_x_5_sse128`, vec/intrinsic_intra-pred.cc:1499-1526. -/
def x5S_6 : Stmt :=
  .run [
    .V 12 (.o2 .add16 (.v 12) (.v 14)),  -- 1499
    .V 12 (.o2 .add16 (.v 12) (.v 15)),  -- 1500
    .V 12 (.o1 (.srli16 4) (.v 12)),  -- 1501
    .V 17 (.o2 .mullo16 (.v 35) (.v 4)),  -- 1503
    .V 18 (.o2 .mullo16 (.v 37) (.v 5)),  -- 1504
    .V 19 (.o2 .mullo16 (.v 39) (.v 2)),  -- 1505
    .V 16 (.o2 .add16 (.v 33) (.v 6)),  -- 1506
    .V 16 (.o2 .add16 (.v 16) (.v 17)),  -- 1507
    .V 16 (.o2 .add16 (.v 16) (.v 18)),  -- 1508
    .V 16 (.o2 .add16 (.v 16) (.v 19)),  -- 1509
    .V 16 (.o1 (.srli16 4) (.v 16)),  -- 1510
    .V 12 (.o2 .packus16 (.v 12) (.v 16)),  -- 1512
    .st 16 (.add (.pv (.n 3)) (.v 4)) (.v 12),  -- 1513
    .V 12 (.o2 .mullo16 (.v 24) (.v 5)),  -- 1515
    .V 13 (.o2 .mullo16 (.v 25) (.v 10)),  -- 1516
    .V 14 (.o2 .mullo16 (.v 26) (.v 7)),  -- 1517
    .V 15 (.o2 .add16 (.v 27) (.v 11)),  -- 1518
    .V 12 (.o2 .add16 (.v 12) (.v 13)),  -- 1519
    .V 12 (.o2 .add16 (.v 12) (.v 14)),  -- 1520
    .V 12 (.o2 .add16 (.v 12) (.v 15)),  -- 1521
    .V 12 (.o1 (.srli16 5) (.v 12)),  -- 1522
    .V 16 (.o2 .mullo16 (.v 37) (.v 5)),  -- 1524
    .V 17 (.o2 .mullo16 (.v 39) (.v 10)),  -- 1525
    .V 18 (.o2 .mullo16 (.v 40) (.v 7))  -- 1526
  ]

/-- `intra_pred_ang_x_5_sse128`, vec/intrinsic_intra-pred.cc:1527-1555. -/
def x5S_7 : Stmt :=
  .run [
    .V 19 (.o2 .add16 (.v 41) (.v 11)),  -- 1527
    .V 16 (.o2 .add16 (.v 16) (.v 17)),  -- 1528
    .V 16 (.o2 .add16 (.v 16) (.v 18)),  -- 1529
    .V 16 (.o2 .add16 (.v 16) (.v 19)),  -- 1530
    .V 16 (.o1 (.srli16 5) (.v 16)),  -- 1531
    .V 12 (.o2 .packus16 (.v 12) (.v 16)),  -- 1533
    .st 16 (.add (.pv (.n 4)) (.v 4)) (.v 12),  -- 1534
    .V 12 (.o2 .add16 (.v 25) (.v 28)),  -- 1536
    .V 13 (.o2 .add16 (.v 26) (.v 27)),  -- 1537
    .V 13 (.o2 .mullo16 (.v 13) (.v 2)),  -- 1538
    .V 12 (.o2 .add16 (.v 12) (.v 3)),  -- 1539
    .V 12 (.o2 .add16 (.v 12) (.v 13)),  -- 1540
    .V 12 (.o1 (.srli16 3) (.v 12)),  -- 1541
    .V 16 (.o2 .add16 (.v 39) (.v 42)),  -- 1543
    .V 17 (.o2 .add16 (.v 40) (.v 41)),  -- 1544
    .V 17 (.o2 .mullo16 (.v 17) (.v 2)),  -- 1545
    .V 16 (.o2 .add16 (.v 16) (.v 3)),  -- 1546
    .V 16 (.o2 .add16 (.v 16) (.v 17)),  -- 1547
    .V 16 (.o1 (.srli16 3) (.v 16)),  -- 1548
    .V 12 (.o2 .packus16 (.v 12) (.v 16)),  -- 1550
    .st 16 (.add (.pv (.n 5)) (.v 4)) (.v 12),  -- 1551
    .V 12 (.o2 .add16 (.v 26) (.v 11)),  -- 1553
    .V 13 (.o2 .mullo16 (.v 27) (.v 7)),  -- 1554
    .V 14 (.o2 .mullo16 (.v 28) (.v 10))  -- 1555
  ]

/-- `intra_pred_ang_x_5_sse128`, vec/intrinsic_intra-pred.cc:1556-1583. -/
def x5S_8 : Stmt :=
  .run [
    .V 15 (.o2 .mullo16 (.v 29) (.v 5)),  -- 1556
    .V 12 (.o2 .add16 (.v 12) (.v 13)),  -- 1557
    .V 12 (.o2 .add16 (.v 12) (.v 14)),  -- 1558
    .V 12 (.o2 .add16 (.v 12) (.v 15)),  -- 1559
    .V 12 (.o1 (.srli16 5) (.v 12)),  -- 1560
    .V 16 (.o2 .add16 (.v 40) (.v 11)),  -- 1562
    .V 17 (.o2 .mullo16 (.v 41) (.v 7)),  -- 1563
    .V 18 (.o2 .mullo16 (.v 42) (.v 10)),  -- 1564
    .V 19 (.o2 .mullo16 (.v 43) (.v 5)),  -- 1565
    .V 16 (.o2 .add16 (.v 16) (.v 17)),  -- 1566
    .V 16 (.o2 .add16 (.v 16) (.v 18)),  -- 1567
    .V 16 (.o2 .add16 (.v 16) (.v 19)),  -- 1568
    .V 16 (.o1 (.srli16 5) (.v 16)),  -- 1569
    .V 12 (.o2 .packus16 (.v 12) (.v 16)),  -- 1571
    .st 16 (.add (.pv (.n 6)) (.v 4)) (.v 12),  -- 1572
    .V 12 (.o2 .mullo16 (.v 28) (.v 2)),  -- 1574
    .V 13 (.o2 .mullo16 (.v 29) (.v 5)),  -- 1575
    .V 14 (.o2 .mullo16 (.v 32) (.v 4)),  -- 1576
    .V 15 (.o2 .add16 (.v 34) (.v 6)),  -- 1577
    .V 12 (.o2 .add16 (.v 12) (.v 13)),  -- 1578
    .V 12 (.o2 .add16 (.v 12) (.v 14)),  -- 1579
    .V 12 (.o2 .add16 (.v 12) (.v 15)),  -- 1580
    .V 12 (.o1 (.srli16 4) (.v 12)),  -- 1581
    .V 16 (.o2 .mullo16 (.v 42) (.v 2))  -- 1583
  ]

/-- `intra_pred_ang_x_5_sse128`, vec/intrinsic_intra-pred.cc:1584-1610. -/
def x5S_9 : Stmt :=
  .run [
    .V 17 (.o2 .mullo16 (.v 43) (.v 5)),  -- 1584
    .V 18 (.o2 .mullo16 (.v 44) (.v 4)),  -- 1585
    .V 19 (.o2 .add16 (.v 46) (.v 6)),  -- 1586
    .V 16 (.o2 .add16 (.v 16) (.v 17)),  -- 1587
    .V 16 (.o2 .add16 (.v 16) (.v 18)),  -- 1588
    .V 16 (.o2 .add16 (.v 16) (.v 19)),  -- 1589
    .V 16 (.o1 (.srli16 4) (.v 16)),  -- 1590
    .V 12 (.o2 .packus16 (.v 12) (.v 16)),  -- 1592
    .st 16 (.add (.pv (.n 7)) (.v 4)) (.v 12),  -- 1593
    .V 12 (.o2 .mullo16 (.v 29) (.v 2)),  -- 1595
    .V 13 (.o2 .mullo16 (.v 32) (.v 8)),  -- 1596
    .V 14 (.o2 .mullo16 (.v 34) (.v 9)),  -- 1597
    .V 15 (.o2 .mullo16 (.v 36) (.v 4)),  -- 1598
    .V 12 (.o2 .add16 (.v 12) (.v 11)),  -- 1599
    .V 12 (.o2 .add16 (.v 12) (.v 13)),  -- 1600
    .V 12 (.o2 .add16 (.v 12) (.v 14)),  -- 1601
    .V 12 (.o2 .add16 (.v 12) (.v 15)),  -- 1602
    .V 12 (.o1 (.srli16 5) (.v 12)),  -- 1603
    .V 16 (.o2 .mullo16 (.v 43) (.v 2)),  -- 1605
    .V 17 (.o2 .mullo16 (.v 44) (.v 8)),  -- 1606
    .V 18 (.o2 .mullo16 (.v 46) (.v 9)),  -- 1607
    .V 19 (.o2 .mullo16 (.v 47) (.v 4)),  -- 1608
    .V 16 (.o2 .add16 (.v 16) (.v 11)),  -- 1609
    .V 16 (.o2 .add16 (.v 16) (.v 17))  -- 1610
  ]

/-- `intra_pred_ang_x_5_sse128`, vec/intrinsic_intra-pred.cc:1416-1631. -/
def x5S_10 : Stmt :=
  .run [
    .V 16 (.o2 .add16 (.v 16) (.v 18)),  -- 1611
    .V 16 (.o2 .add16 (.v 16) (.v 19)),  -- 1612
    .V 16 (.o1 (.srli16 5) (.v 16)),  -- 1613
    .V 12 (.o2 .packus16 (.v 12) (.v 16)),  -- 1615
    .st 16 (.add (.pv (.n 8)) (.v 4)) (.v 12),  -- 1616
    .V 12 (.o2 .add16 (.v 34) (.v 38)),  -- 1618
    .V 13 (.o2 .add16 (.v 36) (.v 36)),  -- 1619
    .V 12 (.o2 .add16 (.v 12) (.v 1)),  -- 1620
    .V 12 (.o2 .add16 (.v 12) (.v 13)),  -- 1621
    .V 12 (.o1 (.srli16 2) (.v 12)),  -- 1622
    .V 16 (.o2 .add16 (.v 46) (.v 48)),  -- 1624
    .V 17 (.o2 .add16 (.v 47) (.v 47)),  -- 1625
    .V 16 (.o2 .add16 (.v 16) (.v 1)),  -- 1626
    .V 16 (.o2 .add16 (.v 16) (.v 17)),  -- 1627
    .V 16 (.o1 (.srli16 2) (.v 16)),  -- 1628
    .V 12 (.o2 .packus16 (.v 12) (.v 16)),  -- 1630
    .st 16 (.add (.pv (.n 9)) (.v 4)) (.v 12),  -- 1631
    .I 4 (.add (.v 4) (.n 16)),  -- 1416
    .P (.n 0) (.add (.pv (.n 0)) (.n 16))
  ]

/-- `intra_pred_ang_x_5_sse128`, vec/intrinsic_intra-pred.cc:1416. -/
def x5S_11 : Stmt :=
  .loop (.lt (.v 4) (.sub (.v 5) (.n 8))) (.seq x5S_3 (.seq x5S_4 (.seq x5S_5 (.seq x5S_6 (.seq x5S_7 (.seq x5S_8 (.seq x5S_9 x5S_10)))))))

/-- `intra_pred_ang_x_5_sse128`, vec/intrinsic_intra-pred.cc:1638-1662. -/
def x5S_12 : Stmt :=
  .run [
    .V 20 (.ld 16 (.add (.pv (.n 0)) (.n 1))),  -- 1638
    .V 21 (.o2 .unpacklo8 (.v 20) (.v 0)),  -- 1639
    .V 20 (.o1 (.srliB 1) (.v 20)),  -- 1640
    .V 22 (.o2 .unpacklo8 (.v 20) (.v 0)),  -- 1641
    .V 20 (.o1 (.srliB 1) (.v 20)),  -- 1642
    .V 23 (.o2 .unpacklo8 (.v 20) (.v 0)),  -- 1643
    .V 20 (.o1 (.srliB 1) (.v 20)),  -- 1644
    .V 24 (.o2 .unpacklo8 (.v 20) (.v 0)),  -- 1645
    .V 20 (.o1 (.srliB 1) (.v 20)),  -- 1646
    .V 25 (.o2 .unpacklo8 (.v 20) (.v 0)),  -- 1647
    .V 20 (.o1 (.srliB 1) (.v 20)),  -- 1648
    .V 26 (.o2 .unpacklo8 (.v 20) (.v 0)),  -- 1649
    .V 20 (.o1 (.srliB 1) (.v 20)),  -- 1650
    .V 27 (.o2 .unpacklo8 (.v 20) (.v 0)),  -- 1651
    .V 20 (.o1 (.srliB 1) (.v 20)),  -- 1652
    .V 28 (.o2 .unpacklo8 (.v 20) (.v 0)),  -- 1653
    .V 20 (.o1 (.srliB 1) (.v 20)),  -- 1654
    .V 29 (.o2 .unpacklo8 (.v 20) (.v 0)),  -- 1655
    .V 30 (.ld 16 (.add (.pv (.n 0)) (.n 10))),  -- 1657
    .V 31 (.o2 .unpacklo8 (.v 30) (.v 0)),  -- 1658
    .V 30 (.o1 (.srliB 1) (.v 30)),  -- 1659
    .V 32 (.o2 .unpacklo8 (.v 30) (.v 0)),  -- 1660
    .V 30 (.o1 (.srliB 1) (.v 30)),  -- 1661
    .V 33 (.o2 .unpacklo8 (.v 30) (.v 0))  -- 1662
  ]

/-- `intra_pred_ang_x_5_sse128`, vec/intrinsic_intra-pred.cc:1663-1691. -/
def x5S_13 : Stmt :=
  .run [
    .V 30 (.o1 (.srliB 1) (.v 30)),  -- 1663
    .V 34 (.o2 .unpacklo8 (.v 30) (.v 0)),  -- 1664
    .V 12 (.o2 .mullo16 (.v 21) (.v 4)),  -- 1666
    .V 13 (.o2 .mullo16 (.v 22) (.v 9)),  -- 1667
    .V 14 (.o2 .mullo16 (.v 23) (.v 8)),  -- 1668
    .V 15 (.o2 .mullo16 (.v 24) (.v 2)),  -- 1669
    .V 12 (.o2 .add16 (.v 12) (.v 11)),  -- 1670
    .V 12 (.o2 .add16 (.v 12) (.v 13)),  -- 1671
    .V 12 (.o2 .add16 (.v 12) (.v 14)),  -- 1672
    .V 12 (.o2 .add16 (.v 12) (.v 15)),  -- 1673
    .V 12 (.o1 (.srli16 5) (.v 12)),  -- 1674
    .V 12 (.o2 .packus16 (.v 12) (.v 12)),  -- 1676
    .st 8 (.add (.pv (.n 2)) (.v 4)) (.v 12),  -- 1677
    .V 13 (.o2 .mullo16 (.v 23) (.v 4)),  -- 1679
    .V 14 (.o2 .mullo16 (.v 24) (.v 5)),  -- 1680
    .V 15 (.o2 .mullo16 (.v 25) (.v 2)),  -- 1681
    .V 12 (.o2 .add16 (.v 22) (.v 6)),  -- 1682
    .V 12 (.o2 .add16 (.v 12) (.v 13)),  -- 1683
    .V 12 (.o2 .add16 (.v 12) (.v 14)),  -- 1684
    .V 12 (.o2 .add16 (.v 12) (.v 15)),  -- 1685
    .V 12 (.o1 (.srli16 4) (.v 12)),  -- 1686
    .V 12 (.o2 .packus16 (.v 12) (.v 12)),  -- 1688
    .st 8 (.add (.pv (.n 3)) (.v 4)) (.v 12),  -- 1689
    .V 12 (.o2 .mullo16 (.v 24) (.v 5))  -- 1691
  ]

/-- `intra_pred_ang_x_5_sse128`, vec/intrinsic_intra-pred.cc:1692-1719. -/
def x5S_14 : Stmt :=
  .run [
    .V 13 (.o2 .mullo16 (.v 25) (.v 10)),  -- 1692
    .V 14 (.o2 .mullo16 (.v 26) (.v 7)),  -- 1693
    .V 15 (.o2 .add16 (.v 27) (.v 11)),  -- 1694
    .V 12 (.o2 .add16 (.v 12) (.v 13)),  -- 1695
    .V 12 (.o2 .add16 (.v 12) (.v 14)),  -- 1696
    .V 12 (.o2 .add16 (.v 12) (.v 15)),  -- 1697
    .V 12 (.o1 (.srli16 5) (.v 12)),  -- 1698
    .V 12 (.o2 .packus16 (.v 12) (.v 12)),  -- 1700
    .st 8 (.add (.pv (.n 4)) (.v 4)) (.v 12),  -- 1701
    .V 12 (.o2 .add16 (.v 25) (.v 28)),  -- 1703
    .V 13 (.o2 .add16 (.v 26) (.v 27)),  -- 1704
    .V 13 (.o2 .mullo16 (.v 13) (.v 2)),  -- 1705
    .V 12 (.o2 .add16 (.v 12) (.v 3)),  -- 1706
    .V 12 (.o2 .add16 (.v 12) (.v 13)),  -- 1707
    .V 12 (.o1 (.srli16 3) (.v 12)),  -- 1708
    .V 12 (.o2 .packus16 (.v 12) (.v 12)),  -- 1710
    .st 8 (.add (.pv (.n 5)) (.v 4)) (.v 12),  -- 1711
    .V 12 (.o2 .add16 (.v 26) (.v 11)),  -- 1713
    .V 13 (.o2 .mullo16 (.v 27) (.v 7)),  -- 1714
    .V 14 (.o2 .mullo16 (.v 28) (.v 10)),  -- 1715
    .V 15 (.o2 .mullo16 (.v 29) (.v 5)),  -- 1716
    .V 12 (.o2 .add16 (.v 12) (.v 13)),  -- 1717
    .V 12 (.o2 .add16 (.v 12) (.v 14)),  -- 1718
    .V 12 (.o2 .add16 (.v 12) (.v 15))  -- 1719
  ]

/-- `intra_pred_ang_x_5_sse128`, vec/intrinsic_intra-pred.cc:1720-1748. -/
def x5S_15 : Stmt :=
  .run [
    .V 12 (.o1 (.srli16 5) (.v 12)),  -- 1720
    .V 12 (.o2 .packus16 (.v 12) (.v 12)),  -- 1722
    .st 8 (.add (.pv (.n 6)) (.v 4)) (.v 12),  -- 1723
    .V 12 (.o2 .mullo16 (.v 28) (.v 2)),  -- 1725
    .V 13 (.o2 .mullo16 (.v 29) (.v 5)),  -- 1726
    .V 14 (.o2 .mullo16 (.v 31) (.v 4)),  -- 1727
    .V 15 (.o2 .add16 (.v 32) (.v 6)),  -- 1728
    .V 12 (.o2 .add16 (.v 12) (.v 13)),  -- 1729
    .V 12 (.o2 .add16 (.v 12) (.v 14)),  -- 1730
    .V 12 (.o2 .add16 (.v 12) (.v 15)),  -- 1731
    .V 12 (.o1 (.srli16 4) (.v 12)),  -- 1732
    .V 12 (.o2 .packus16 (.v 12) (.v 12)),  -- 1734
    .st 8 (.add (.pv (.n 7)) (.v 4)) (.v 12),  -- 1735
    .V 12 (.o2 .mullo16 (.v 29) (.v 2)),  -- 1737
    .V 13 (.o2 .mullo16 (.v 31) (.v 8)),  -- 1738
    .V 14 (.o2 .mullo16 (.v 32) (.v 9)),  -- 1739
    .V 15 (.o2 .mullo16 (.v 33) (.v 4)),  -- 1740
    .V 12 (.o2 .add16 (.v 12) (.v 11)),  -- 1741
    .V 12 (.o2 .add16 (.v 12) (.v 13)),  -- 1742
    .V 12 (.o2 .add16 (.v 12) (.v 14)),  -- 1743
    .V 12 (.o2 .add16 (.v 12) (.v 15)),  -- 1744
    .V 12 (.o1 (.srli16 5) (.v 12)),  -- 1745
    .V 12 (.o2 .packus16 (.v 12) (.v 12)),  -- 1747
    .st 8 (.add (.pv (.n 8)) (.v 4)) (.v 12)  -- 1748
  ]

/-- `intra_pred_ang_x_5_sse128`, vec/intrinsic_intra-pred.cc:1750-1757. -/
def x5S_16 : Stmt :=
  .run [
    .V 12 (.o2 .add16 (.v 32) (.v 34)),  -- 1750
    .V 13 (.o2 .add16 (.v 33) (.v 33)),  -- 1751
    .V 12 (.o2 .add16 (.v 12) (.v 1)),  -- 1752
    .V 12 (.o2 .add16 (.v 12) (.v 13)),  -- 1753
    .V 12 (.o1 (.srli16 2) (.v 12)),  -- 1754
    .V 12 (.o2 .packus16 (.v 12) (.v 12)),  -- 1756
    .st 8 (.add (.pv (.n 9)) (.v 4)) (.v 12)  -- 1757
  ]

/-- `intra_pred_ang_x_5_sse128`, vec/intrinsic_intra-pred.cc:1634. -/
def x5S_17 : Stmt :=
  .ite (.lt (.v 4) (.v 5)) (.seq x5S_12 (.seq x5S_13 (.seq x5S_14 (.seq x5S_15 x5S_16)))) (.run [])

/-- `intra_pred_ang_x_5_sse128`, vec/intrinsic_intra-pred.cc:1812-1813. -/
def x5S_18 : Stmt :=
  .run [
    .I 3 (.shr (.v 3) 3),  -- 1812
    .I 4 (.n 0)  -- 1813
  ]

/-- `intra_pred_ang_x_5_sse128`, vec/intrinsic_intra-pred.cc:1813-1830. -/
def x5S_19 : Stmt :=
  .run [
    .cpy (.pv (.n 10)) (.add (.pv (.n 2)) (.mul (.v 4) (.n 11))) (.mul (.v 2) (.n 1)),  -- 1814
    .cpy (.pv (.n 11)) (.add (.pv (.n 3)) (.mul (.v 4) (.n 11))) (.mul (.v 2) (.n 1)),  -- 1815
    .cpy (.pv (.n 12)) (.add (.pv (.n 4)) (.mul (.v 4) (.n 11))) (.mul (.v 2) (.n 1)),  -- 1816
    .cpy (.pv (.n 13)) (.add (.pv (.n 5)) (.mul (.v 4) (.n 11))) (.mul (.v 2) (.n 1)),  -- 1817
    .cpy (.pv (.n 14)) (.add (.pv (.n 6)) (.mul (.v 4) (.n 11))) (.mul (.v 2) (.n 1)),  -- 1818
    .cpy (.pv (.n 15)) (.add (.pv (.n 7)) (.mul (.v 4) (.n 11))) (.mul (.v 2) (.n 1)),  -- 1819
    .cpy (.pv (.n 16)) (.add (.pv (.n 8)) (.mul (.v 4) (.n 11))) (.mul (.v 2) (.n 1)),  -- 1820
    .cpy (.pv (.n 17)) (.add (.pv (.n 9)) (.mul (.v 4) (.n 11))) (.mul (.v 2) (.n 1)),  -- 1821
    .P (.n 10) (.add (.pv (.n 17)) (.v 0)),  -- 1823
    .P (.n 11) (.add (.pv (.n 10)) (.v 0)),  -- 1824
    .P (.n 12) (.add (.pv (.n 11)) (.v 0)),  -- 1825
    .P (.n 13) (.add (.pv (.n 12)) (.v 0)),  -- 1826
    .P (.n 14) (.add (.pv (.n 13)) (.v 0)),  -- 1827
    .P (.n 15) (.add (.pv (.n 14)) (.v 0)),  -- 1828
    .P (.n 16) (.add (.pv (.n 15)) (.v 0)),  -- 1829
    .P (.n 17) (.add (.pv (.n 16)) (.v 0)),  -- 1830
    .I 4 (.add (.v 4) (.n 1))  -- 1813
  ]

/-- `intra_pred_ang_x_5_sse128`, vec/intrinsic_intra-pred.cc:1813. -/
def x5S_20 : Stmt :=
  .loop (.lt (.v 4) (.v 3)) x5S_19

/-- `intra_pred_ang_x_5_sse128`, vec/intrinsic_intra-pred.cc:1833-1861. -/
def x5S_21 : Stmt :=
  .run [
    .P (.n 2) (.pv (.n 1)),  -- 1833
    .P (.n 3) (.add (.pv (.n 2)) (.v 0)),  -- 1834
    .P (.n 4) (.add (.pv (.n 3)) (.v 0)),  -- 1835
    .P (.n 5) (.add (.pv (.n 4)) (.v 0)),  -- 1836
    .V 20 (.ld 16 (.add (.pv (.n 0)) (.n 1))),  -- 1841
    .V 21 (.o2 .unpacklo8 (.v 20) (.v 0)),  -- 1842
    .V 20 (.o1 (.srliB 1) (.v 20)),  -- 1843
    .V 22 (.o2 .unpacklo8 (.v 20) (.v 0)),  -- 1844
    .V 20 (.o1 (.srliB 1) (.v 20)),  -- 1845
    .V 23 (.o2 .unpacklo8 (.v 20) (.v 0)),  -- 1846
    .V 20 (.o1 (.srliB 1) (.v 20)),  -- 1847
    .V 24 (.o2 .unpacklo8 (.v 20) (.v 0)),  -- 1848
    .V 20 (.o1 (.srliB 1) (.v 20)),  -- 1849
    .V 25 (.o2 .unpacklo8 (.v 20) (.v 0)),  -- 1850
    .V 20 (.o1 (.srliB 1) (.v 20)),  -- 1851
    .V 26 (.o2 .unpacklo8 (.v 20) (.v 0)),  -- 1852
    .V 20 (.o1 (.srliB 1) (.v 20)),  -- 1853
    .V 27 (.o2 .unpacklo8 (.v 20) (.v 0)),  -- 1854
    .V 20 (.o1 (.srliB 1) (.v 20)),  -- 1855
    .V 28 (.o2 .unpacklo8 (.v 20) (.v 0)),  -- 1856
    .V 20 (.o1 (.srliB 1) (.v 20)),  -- 1857
    .V 29 (.o2 .unpacklo8 (.v 20) (.v 0)),  -- 1858
    .V 30 (.ld 16 (.add (.pv (.n 0)) (.n 10))),  -- 1860
    .V 31 (.o2 .unpacklo8 (.v 30) (.v 0))  -- 1861
  ]

/-- `intra_pred_ang_x_5_sse128`, vec/intrinsic_intra-pred.cc:1862-1888. -/
def x5S_22 : Stmt :=
  .run [
    .V 30 (.o1 (.srliB 1) (.v 30)),  -- 1862
    .V 32 (.o2 .unpacklo8 (.v 30) (.v 0)),  -- 1863
    .V 30 (.o1 (.srliB 1) (.v 30)),  -- 1864
    .V 33 (.o2 .unpacklo8 (.v 30) (.v 0)),  -- 1865
    .V 30 (.o1 (.srliB 1) (.v 30)),  -- 1866
    .V 34 (.o2 .unpacklo8 (.v 30) (.v 0)),  -- 1867
    .V 30 (.o1 (.srliB 1) (.v 30)),  -- 1869
    .V 35 (.o2 .unpacklo8 (.v 30) (.v 0)),  -- 1870
    .V 30 (.o1 (.srliB 1) (.v 30)),  -- 1871
    .V 36 (.o2 .unpacklo8 (.v 30) (.v 0)),  -- 1872
    .V 30 (.o1 (.srliB 1) (.v 30)),  -- 1873
    .V 37 (.o2 .unpacklo8 (.v 30) (.v 0)),  -- 1874
    .V 12 (.o2 .mullo16 (.v 21) (.v 4)),  -- 1876
    .V 13 (.o2 .mullo16 (.v 22) (.v 9)),  -- 1877
    .V 14 (.o2 .mullo16 (.v 23) (.v 8)),  -- 1878
    .V 15 (.o2 .mullo16 (.v 24) (.v 2)),  -- 1879
    .V 12 (.o2 .add16 (.v 12) (.v 11)),  -- 1880
    .V 12 (.o2 .add16 (.v 12) (.v 13)),  -- 1881
    .V 12 (.o2 .add16 (.v 12) (.v 14)),  -- 1882
    .V 12 (.o2 .add16 (.v 12) (.v 15)),  -- 1883
    .V 12 (.o1 (.srli16 5) (.v 12)),  -- 1884
    .V 16 (.o2 .mullo16 (.v 29) (.v 4)),  -- 1886
    .V 17 (.o2 .mullo16 (.v 31) (.v 9)),  -- 1887
    .V 18 (.o2 .mullo16 (.v 32) (.v 8))  -- 1888
  ]

/-- `intra_pred_ang_x_5_sse128`, vec/intrinsic_intra-pred.cc:1889-1915. -/
def x5S_23 : Stmt :=
  .run [
    .V 19 (.o2 .mullo16 (.v 33) (.v 2)),  -- 1889
    .V 16 (.o2 .add16 (.v 16) (.v 11)),  -- 1890
    .V 16 (.o2 .add16 (.v 16) (.v 17)),  -- 1891
    .V 16 (.o2 .add16 (.v 16) (.v 18)),  -- 1892
    .V 16 (.o2 .add16 (.v 16) (.v 19)),  -- 1893
    .V 16 (.o1 (.srli16 5) (.v 16)),  -- 1894
    .V 12 (.o2 .packus16 (.v 12) (.v 16)),  -- 1896
    .st 16 (.pv (.n 2)) (.v 12),  -- 1897
    .V 13 (.o2 .mullo16 (.v 23) (.v 4)),  -- 1899
    .V 14 (.o2 .mullo16 (.v 24) (.v 5)),  -- 1900
    .V 15 (.o2 .mullo16 (.v 25) (.v 2)),  -- 1901
    .V 12 (.o2 .add16 (.v 22) (.v 6)),  -- 1902
    .V 12 (.o2 .add16 (.v 12) (.v 13)),  -- 1903
    .V 12 (.o2 .add16 (.v 12) (.v 14)),  -- 1904
    .V 12 (.o2 .add16 (.v 12) (.v 15)),  -- 1905
    .V 12 (.o1 (.srli16 4) (.v 12)),  -- 1906
    .V 17 (.o2 .mullo16 (.v 32) (.v 4)),  -- 1908
    .V 18 (.o2 .mullo16 (.v 33) (.v 5)),  -- 1909
    .V 19 (.o2 .mullo16 (.v 34) (.v 2)),  -- 1910
    .V 16 (.o2 .add16 (.v 31) (.v 6)),  -- 1911
    .V 16 (.o2 .add16 (.v 16) (.v 17)),  -- 1912
    .V 16 (.o2 .add16 (.v 16) (.v 18)),  -- 1913
    .V 16 (.o2 .add16 (.v 16) (.v 19)),  -- 1914
    .V 16 (.o1 (.srli16 4) (.v 16))  -- 1915
  ]

/-- `intra_pred_ang_x_5_sse128`, vec/intrinsic_intra-pred.cc:1917-1944. -/
def x5S_24 : Stmt :=
  .run [
    .V 12 (.o2 .packus16 (.v 12) (.v 16)),  -- 1917
    .st 16 (.pv (.n 3)) (.v 12),  -- 1918
    .V 12 (.o2 .mullo16 (.v 24) (.v 5)),  -- 1920
    .V 13 (.o2 .mullo16 (.v 25) (.v 10)),  -- 1921
    .V 14 (.o2 .mullo16 (.v 26) (.v 7)),  -- 1922
    .V 15 (.o2 .add16 (.v 27) (.v 11)),  -- 1923
    .V 12 (.o2 .add16 (.v 12) (.v 13)),  -- 1924
    .V 12 (.o2 .add16 (.v 12) (.v 14)),  -- 1925
    .V 12 (.o2 .add16 (.v 12) (.v 15)),  -- 1926
    .V 12 (.o1 (.srli16 5) (.v 12)),  -- 1927
    .V 16 (.o2 .mullo16 (.v 33) (.v 5)),  -- 1929
    .V 17 (.o2 .mullo16 (.v 34) (.v 10)),  -- 1930
    .V 18 (.o2 .mullo16 (.v 35) (.v 7)),  -- 1931
    .V 19 (.o2 .add16 (.v 36) (.v 11)),  -- 1932
    .V 16 (.o2 .add16 (.v 16) (.v 17)),  -- 1933
    .V 16 (.o2 .add16 (.v 16) (.v 18)),  -- 1934
    .V 16 (.o2 .add16 (.v 16) (.v 19)),  -- 1935
    .V 16 (.o1 (.srli16 5) (.v 16)),  -- 1936
    .V 12 (.o2 .packus16 (.v 12) (.v 16)),  -- 1938
    .st 16 (.pv (.n 4)) (.v 12),  -- 1939
    .V 12 (.o2 .add16 (.v 25) (.v 28)),  -- 1941
    .V 13 (.o2 .add16 (.v 26) (.v 27)),  -- 1942
    .V 13 (.o2 .mullo16 (.v 13) (.v 2)),  -- 1943
    .V 12 (.o2 .add16 (.v 12) (.v 3))  -- 1944
  ]

/-- `intra_pred_ang_x_5_sse128`, vec/intrinsic_intra-pred.cc:1945-1956. -/
def x5S_25 : Stmt :=
  .run [
    .V 12 (.o2 .add16 (.v 12) (.v 13)),  -- 1945
    .V 12 (.o1 (.srli16 3) (.v 12)),  -- 1946
    .V 16 (.o2 .add16 (.v 34) (.v 37)),  -- 1948
    .V 17 (.o2 .add16 (.v 35) (.v 36)),  -- 1949
    .V 17 (.o2 .mullo16 (.v 17) (.v 2)),  -- 1950
    .V 16 (.o2 .add16 (.v 16) (.v 3)),  -- 1951
    .V 16 (.o2 .add16 (.v 16) (.v 17)),  -- 1952
    .V 16 (.o1 (.srli16 3) (.v 16)),  -- 1953
    .V 12 (.o2 .packus16 (.v 12) (.v 16)),  -- 1955
    .st 16 (.pv (.n 5)) (.v 12)  -- 1956
  ]

/-- `intra_pred_ang_x_5_sse128`, vec/intrinsic_intra-pred.cc:1958-1967. -/
def x5S_26 : Stmt :=
  .run [
    .P (.n 2) (.pv (.n 1)),  -- 1958
    .P (.n 3) (.add (.pv (.n 2)) (.v 0)),  -- 1959
    .P (.n 4) (.add (.pv (.n 3)) (.v 0)),  -- 1960
    .P (.n 5) (.add (.pv (.n 4)) (.v 0)),  -- 1961
    .P (.n 6) (.add (.pv (.n 5)) (.v 0)),  -- 1962
    .P (.n 7) (.add (.pv (.n 6)) (.v 0)),  -- 1963
    .P (.n 8) (.add (.pv (.n 7)) (.v 0)),  -- 1964
    .P (.n 9) (.add (.pv (.n 8)) (.v 0)),  -- 1965
    .I 4 (.n 0)  -- 1967
  ]

/-- `intra_pred_ang_x_5_sse128`, vec/intrinsic_intra-pred.cc:1967-1976. -/
def x5S_27 : Stmt :=
  .run [
    .st1 (.add (.pv (.n 2)) (.v 4)) (.shr (.add (.add (.add (.add (.mul 5 (.ld (.add (.pv (.n 0)) (.n 1)))) (.mul 13 (.ld (.add (.pv (.n 0)) (.n 2))))) (.mul 11 (.ld (.add (.pv (.n 0)) (.n 3))))) (.mul 3 (.ld (.add (.pv (.n 0)) (.n 4))))) (.n 16)) 5),  -- 1968
    .st1 (.add (.pv (.n 3)) (.v 4)) (.shr (.add (.add (.add (.add (.ld (.add (.pv (.n 0)) (.n 2))) (.mul 5 (.ld (.add (.pv (.n 0)) (.n 3))))) (.mul 7 (.ld (.add (.pv (.n 0)) (.n 4))))) (.mul 3 (.ld (.add (.pv (.n 0)) (.n 5))))) (.n 8)) 4),  -- 1969
    .st1 (.add (.pv (.n 4)) (.v 4)) (.shr (.add (.add (.add (.add (.mul 7 (.ld (.add (.pv (.n 0)) (.n 4)))) (.mul 15 (.ld (.add (.pv (.n 0)) (.n 5))))) (.mul 9 (.ld (.add (.pv (.n 0)) (.n 6))))) (.mul 1 (.ld (.add (.pv (.n 0)) (.n 7))))) (.n 16)) 5),  -- 1970
    .st1 (.add (.pv (.n 5)) (.v 4)) (.shr (.add (.add (.add (.add (.ld (.add (.pv (.n 0)) (.n 5))) (.mul 3 (.ld (.add (.pv (.n 0)) (.n 6))))) (.mul 3 (.ld (.add (.pv (.n 0)) (.n 7))))) (.mul 1 (.ld (.add (.pv (.n 0)) (.n 8))))) (.n 4)) 3),  -- 1971
    .st1 (.add (.pv (.n 6)) (.v 4)) (.shr (.add (.add (.add (.add (.ld (.add (.pv (.n 0)) (.n 6))) (.mul 9 (.ld (.add (.pv (.n 0)) (.n 7))))) (.mul 15 (.ld (.add (.pv (.n 0)) (.n 8))))) (.mul 7 (.ld (.add (.pv (.n 0)) (.n 9))))) (.n 16)) 5),  -- 1973
    .st1 (.add (.pv (.n 7)) (.v 4)) (.shr (.add (.add (.add (.add (.mul 3 (.ld (.add (.pv (.n 0)) (.n 8)))) (.mul 7 (.ld (.add (.pv (.n 0)) (.n 9))))) (.mul 5 (.ld (.add (.pv (.n 0)) (.n 10))))) (.ld (.add (.pv (.n 0)) (.n 11)))) (.n 8)) 4),  -- 1974
    .st1 (.add (.pv (.n 8)) (.v 4)) (.shr (.add (.add (.add (.add (.mul 3 (.ld (.add (.pv (.n 0)) (.n 9)))) (.mul 11 (.ld (.add (.pv (.n 0)) (.n 10))))) (.mul 13 (.ld (.add (.pv (.n 0)) (.n 11))))) (.mul 5 (.ld (.add (.pv (.n 0)) (.n 12))))) (.n 16)) 5),  -- 1975
    .st1 (.add (.pv (.n 9)) (.v 4)) (.shr (.add (.add (.add (.ld (.add (.pv (.n 0)) (.n 11))) (.mul 2 (.ld (.add (.pv (.n 0)) (.n 12))))) (.ld (.add (.pv (.n 0)) (.n 13)))) (.n 2)) 2),  -- 1976
    .P (.n 0) (.add (.pv (.n 0)) (.n 1)),  -- 1967
    .I 4 (.add (.v 4) (.n 1))
  ]

/-- `intra_pred_ang_x_5_sse128`, vec/intrinsic_intra-pred.cc:1967. -/
def x5S_28 : Stmt :=
  .loop (.lt (.v 4) (.n 8)) x5S_27

/-- `intra_pred_ang_x_5_sse128`, vec/intrinsic_intra-pred.cc:1987-2037. -/
def x5S_29 : Stmt :=
  .run [
    .V 12 (.set1_8 (.ld (.add (.pv (.n 0)) (.n 8)))),  -- 1987
    .P (.n 2) (.add (.pv (.n 9)) (.v 0)),  -- 2000
    .P (.n 3) (.add (.pv (.n 2)) (.v 0)),  -- 2001
    .P (.n 4) (.add (.pv (.n 3)) (.v 0)),  -- 2002
    .P (.n 5) (.add (.pv (.n 4)) (.v 0)),  -- 2003
    .P (.n 6) (.add (.pv (.n 5)) (.v 0)),  -- 2004
    .P (.n 7) (.add (.pv (.n 6)) (.v 0)),  -- 2005
    .P (.n 8) (.add (.pv (.n 7)) (.v 0)),  -- 2006
    .P (.n 9) (.add (.pv (.n 8)) (.v 0)),  -- 2007
    .st 8 (.pv (.n 2)) (.v 12),  -- 2010
    .st 8 (.pv (.n 3)) (.v 12),  -- 2011
    .st 8 (.pv (.n 4)) (.v 12),  -- 2012
    .st 8 (.pv (.n 5)) (.v 12),  -- 2013
    .st 8 (.pv (.n 6)) (.v 12),  -- 2015
    .st 8 (.pv (.n 7)) (.v 12),  -- 2016
    .st 8 (.pv (.n 8)) (.v 12),  -- 2017
    .st 8 (.pv (.n 9)) (.v 12),  -- 2018
    .P (.n 0) (.add (.pv (.n 0)) (.n 4)),  -- 2031
    .st1 (.add (.pv (.n 2)) (.n 0)) (.shr (.add (.add (.add (.add (.mul 5 (.ld (.add (.pv (.n 0)) (.n 0)))) (.mul 13 (.ld (.add (.pv (.n 0)) (.n 1))))) (.mul 11 (.ld (.add (.pv (.n 0)) (.n 2))))) (.mul 3 (.ld (.add (.pv (.n 0)) (.n 3))))) (.n 16)) 5),  -- 2032
    .st1 (.add (.pv (.n 2)) (.n 1)) (.shr (.add (.add (.add (.add (.mul 5 (.ld (.add (.pv (.n 0)) (.n 1)))) (.mul 13 (.ld (.add (.pv (.n 0)) (.n 2))))) (.mul 11 (.ld (.add (.pv (.n 0)) (.n 3))))) (.mul 3 (.ld (.add (.pv (.n 0)) (.n 4))))) (.n 16)) 5),  -- 2033
    .st1 (.add (.pv (.n 2)) (.n 2)) (.shr (.add (.add (.add (.add (.mul 5 (.ld (.add (.pv (.n 0)) (.n 2)))) (.mul 13 (.ld (.add (.pv (.n 0)) (.n 3))))) (.mul 11 (.ld (.add (.pv (.n 0)) (.n 4))))) (.mul 3 (.ld (.add (.pv (.n 0)) (.n 5))))) (.n 16)) 5),  -- 2034
    .st1 (.add (.pv (.n 2)) (.n 3)) (.shr (.add (.add (.add (.add (.mul 5 (.ld (.add (.pv (.n 0)) (.n 3)))) (.mul 13 (.ld (.add (.pv (.n 0)) (.n 4))))) (.mul 11 (.ld (.add (.pv (.n 0)) (.n 5))))) (.mul 3 (.ld (.add (.pv (.n 0)) (.n 6))))) (.n 16)) 5),  -- 2035
    .st1 (.add (.pv (.n 3)) (.n 0)) (.shr (.add (.add (.add (.add (.ld (.add (.pv (.n 0)) (.n 1))) (.mul 5 (.ld (.add (.pv (.n 0)) (.n 2))))) (.mul 7 (.ld (.add (.pv (.n 0)) (.n 3))))) (.mul 3 (.ld (.add (.pv (.n 0)) (.n 4))))) (.n 8)) 4),  -- 2036
    .st1 (.add (.pv (.n 3)) (.n 1)) (.shr (.add (.add (.add (.add (.ld (.add (.pv (.n 0)) (.n 2))) (.mul 5 (.ld (.add (.pv (.n 0)) (.n 3))))) (.mul 7 (.ld (.add (.pv (.n 0)) (.n 4))))) (.mul 3 (.ld (.add (.pv (.n 0)) (.n 5))))) (.n 8)) 4)  -- 2037
  ]

/-- `intra_pred_ang_x_5_sse128`, vec/intrinsic_intra-pred.cc:2038-2077. -/
def x5S_30 : Stmt :=
  .run [
    .st1 (.add (.pv (.n 3)) (.n 2)) (.shr (.add (.add (.add (.add (.ld (.add (.pv (.n 0)) (.n 3))) (.mul 5 (.ld (.add (.pv (.n 0)) (.n 4))))) (.mul 7 (.ld (.add (.pv (.n 0)) (.n 5))))) (.mul 3 (.ld (.add (.pv (.n 0)) (.n 6))))) (.n 8)) 4),  -- 2038
    .st1 (.add (.pv (.n 4)) (.n 0)) (.shr (.add (.add (.add (.add (.mul 7 (.ld (.add (.pv (.n 0)) (.n 3)))) (.mul 15 (.ld (.add (.pv (.n 0)) (.n 4))))) (.mul 9 (.ld (.add (.pv (.n 0)) (.n 5))))) (.ld (.add (.pv (.n 0)) (.n 6)))) (.n 16)) 5),  -- 2039
    .P (.n 2) (.add (.pv (.n 9)) (.v 0)),  -- 2041
    .P (.n 3) (.add (.pv (.n 2)) (.v 0)),  -- 2042
    .P (.n 4) (.add (.pv (.n 3)) (.v 0)),  -- 2043
    .P (.n 5) (.add (.pv (.n 4)) (.v 0)),  -- 2044
    .P (.n 6) (.add (.pv (.n 5)) (.v 0)),  -- 2045
    .P (.n 7) (.add (.pv (.n 6)) (.v 0)),  -- 2046
    .P (.n 8) (.add (.pv (.n 7)) (.v 0)),  -- 2047
    .P (.n 9) (.add (.pv (.n 8)) (.v 0)),  -- 2048
    .st 8 (.pv (.n 2)) (.v 12),  -- 2051
    .st 8 (.pv (.n 3)) (.v 12),  -- 2052
    .st 8 (.pv (.n 4)) (.v 12),  -- 2053
    .st 8 (.pv (.n 5)) (.v 12),  -- 2054
    .st 8 (.pv (.n 6)) (.v 12),  -- 2056
    .st 8 (.pv (.n 7)) (.v 12),  -- 2057
    .st 8 (.pv (.n 8)) (.v 12),  -- 2058
    .st 8 (.pv (.n 9)) (.v 12),  -- 2059
    .P (.n 2) (.add (.pv (.n 9)) (.v 0)),  -- 2072
    .P (.n 3) (.add (.pv (.n 2)) (.v 0)),  -- 2073
    .P (.n 4) (.add (.pv (.n 3)) (.v 0)),  -- 2074
    .P (.n 5) (.add (.pv (.n 4)) (.v 0)),  -- 2075
    .P (.n 6) (.add (.pv (.n 5)) (.v 0)),  -- 2076
    .P (.n 7) (.add (.pv (.n 6)) (.v 0))  -- 2077
  ]

/-- `intra_pred_ang_x_5_sse128`, vec/intrinsic_intra-pred.cc:2078-2090. -/
def x5S_31 : Stmt :=
  .run [
    .P (.n 8) (.add (.pv (.n 7)) (.v 0)),  -- 2078
    .P (.n 9) (.add (.pv (.n 8)) (.v 0)),  -- 2079
    .st 8 (.pv (.n 2)) (.v 12),  -- 2082
    .st 8 (.pv (.n 3)) (.v 12),  -- 2083
    .st 8 (.pv (.n 4)) (.v 12),  -- 2084
    .st 8 (.pv (.n 5)) (.v 12),  -- 2085
    .st 8 (.pv (.n 6)) (.v 12),  -- 2087
    .st 8 (.pv (.n 7)) (.v 12),  -- 2088
    .st 8 (.pv (.n 8)) (.v 12),  -- 2089
    .st 8 (.pv (.n 9)) (.v 12)  -- 2090
  ]

/-- `intra_pred_ang_x_5_sse128`, vec/intrinsic_intra-pred.cc:1984. -/
def x5S_32 : Stmt :=
  .ite (.eq (.v 3) (.n 32)) (.seq x5S_29 (.seq x5S_30 x5S_31)) (.run [])

/-- `intra_pred_ang_x_5_sse128`, vec/intrinsic_intra-pred.cc:2104-2131. -/
def x5S_33 : Stmt :=
  .run [
    .P (.n 2) (.pv (.n 1)),  -- 2104
    .P (.n 3) (.add (.pv (.n 2)) (.v 0)),  -- 2105
    .P (.n 4) (.add (.pv (.n 3)) (.v 0)),  -- 2106
    .P (.n 5) (.add (.pv (.n 4)) (.v 0)),  -- 2107
    .V 16 (.ld 16 (.add (.pv (.n 0)) (.n 1))),  -- 2111
    .V 17 (.o2 .unpacklo8 (.v 16) (.v 0)),  -- 2112
    .V 16 (.o1 (.srliB 1) (.v 16)),  -- 2113
    .V 18 (.o2 .unpacklo8 (.v 16) (.v 0)),  -- 2114
    .V 16 (.o1 (.srliB 1) (.v 16)),  -- 2115
    .V 19 (.o2 .unpacklo8 (.v 16) (.v 0)),  -- 2116
    .V 16 (.o1 (.srliB 1) (.v 16)),  -- 2117
    .V 20 (.o2 .unpacklo8 (.v 16) (.v 0)),  -- 2118
    .V 16 (.o1 (.srliB 1) (.v 16)),  -- 2119
    .V 21 (.o2 .unpacklo8 (.v 16) (.v 0)),  -- 2120
    .V 16 (.o1 (.srliB 1) (.v 16)),  -- 2121
    .V 22 (.o2 .unpacklo8 (.v 16) (.v 0)),  -- 2122
    .V 16 (.o1 (.srliB 1) (.v 16)),  -- 2123
    .V 23 (.o2 .unpacklo8 (.v 16) (.v 0)),  -- 2124
    .V 16 (.o1 (.srliB 1) (.v 16)),  -- 2125
    .V 24 (.o2 .unpacklo8 (.v 16) (.v 0)),  -- 2126
    .V 12 (.o2 .mullo16 (.v 17) (.v 4)),  -- 2128
    .V 13 (.o2 .mullo16 (.v 18) (.v 9)),  -- 2129
    .V 14 (.o2 .mullo16 (.v 19) (.v 8)),  -- 2130
    .V 15 (.o2 .mullo16 (.v 20) (.v 2))  -- 2131
  ]

/-- `intra_pred_ang_x_5_sse128`, vec/intrinsic_intra-pred.cc:2132-2159. -/
def x5S_34 : Stmt :=
  .run [
    .V 12 (.o2 .add16 (.v 12) (.v 11)),  -- 2132
    .V 12 (.o2 .add16 (.v 12) (.v 13)),  -- 2133
    .V 12 (.o2 .add16 (.v 12) (.v 14)),  -- 2134
    .V 12 (.o2 .add16 (.v 12) (.v 15)),  -- 2135
    .V 12 (.o1 (.srli16 5) (.v 12)),  -- 2136
    .V 12 (.o2 .packus16 (.v 12) (.v 12)),  -- 2138
    .st 4 (.pv (.n 2)) (.v 12),  -- 2139
    .V 13 (.o2 .mullo16 (.v 19) (.v 4)),  -- 2141
    .V 14 (.o2 .mullo16 (.v 20) (.v 5)),  -- 2142
    .V 15 (.o2 .mullo16 (.v 21) (.v 2)),  -- 2143
    .V 12 (.o2 .add16 (.v 18) (.v 6)),  -- 2144
    .V 12 (.o2 .add16 (.v 12) (.v 13)),  -- 2145
    .V 12 (.o2 .add16 (.v 12) (.v 14)),  -- 2146
    .V 12 (.o2 .add16 (.v 12) (.v 15)),  -- 2147
    .V 12 (.o1 (.srli16 4) (.v 12)),  -- 2148
    .V 12 (.o2 .packus16 (.v 12) (.v 12)),  -- 2150
    .st 4 (.pv (.n 3)) (.v 12),  -- 2151
    .V 12 (.o2 .mullo16 (.v 20) (.v 5)),  -- 2153
    .V 13 (.o2 .mullo16 (.v 21) (.v 10)),  -- 2154
    .V 14 (.o2 .mullo16 (.v 22) (.v 7)),  -- 2155
    .V 15 (.o2 .add16 (.v 23) (.v 11)),  -- 2156
    .V 12 (.o2 .add16 (.v 12) (.v 13)),  -- 2157
    .V 12 (.o2 .add16 (.v 12) (.v 14)),  -- 2158
    .V 12 (.o2 .add16 (.v 12) (.v 15))  -- 2159
  ]

/-- `intra_pred_ang_x_5_sse128`, vec/intrinsic_intra-pred.cc:2160-2173. -/
def x5S_35 : Stmt :=
  .run [
    .V 12 (.o1 (.srli16 5) (.v 12)),  -- 2160
    .V 12 (.o2 .packus16 (.v 12) (.v 12)),  -- 2162
    .st 4 (.pv (.n 4)) (.v 12),  -- 2163
    .V 12 (.o2 .add16 (.v 21) (.v 24)),  -- 2165
    .V 13 (.o2 .add16 (.v 22) (.v 23)),  -- 2166
    .V 13 (.o2 .mullo16 (.v 13) (.v 2)),  -- 2167
    .V 12 (.o2 .add16 (.v 12) (.v 3)),  -- 2168
    .V 12 (.o2 .add16 (.v 12) (.v 13)),  -- 2169
    .V 12 (.o1 (.srli16 3) (.v 12)),  -- 2170
    .V 12 (.o2 .packus16 (.v 12) (.v 12)),  -- 2172
    .st 4 (.pv (.n 5)) (.v 12)  -- 2173
  ]

/-- `intra_pred_ang_x_5_sse128`, vec/intrinsic_intra-pred.cc:2180-2226. -/
def x5S_36 : Stmt :=
  .run [
    .P (.n 6) (.add (.pv (.n 5)) (.v 0)),  -- 2180
    .P (.n 7) (.add (.pv (.n 6)) (.v 0)),  -- 2181
    .P (.n 8) (.add (.pv (.n 7)) (.v 0)),  -- 2182
    .P (.n 9) (.add (.pv (.n 8)) (.v 0)),  -- 2183
    .P (.n 0) (.add (.pv (.n 0)) (.n 8)),  -- 2185
    .V 25 (.set1_8 (.ld (.add (.pv (.n 0)) (.n 0)))),  -- 2187
    .st 4 (.pv (.n 6)) (.v 25),  -- 2189
    .st 4 (.pv (.n 7)) (.v 25),  -- 2190
    .st 4 (.pv (.n 8)) (.v 25),  -- 2191
    .st 4 (.pv (.n 9)) (.v 25),  -- 2192
    .st1 (.add (.pv (.n 6)) (.n 0)) (.shr (.add (.add (.add (.add (.ld (.add (.pv (.n 0)) (.n (-2)))) (.mul 9 (.ld (.add (.pv (.n 0)) (.n (-1)))))) (.mul 15 (.ld (.add (.pv (.n 0)) (.n 0))))) (.mul 7 (.ld (.add (.pv (.n 0)) (.n 1))))) (.n 16)) 5),  -- 2210
    .st1 (.add (.pv (.n 6)) (.n 1)) (.shr (.add (.add (.add (.add (.ld (.add (.pv (.n 0)) (.n (-1)))) (.mul 9 (.ld (.add (.pv (.n 0)) (.n 0))))) (.mul 15 (.ld (.add (.pv (.n 0)) (.n 1))))) (.mul 7 (.ld (.add (.pv (.n 0)) (.n 2))))) (.n 16)) 5),  -- 2211
    .P (.n 2) (.add (.pv (.n 9)) (.v 0)),  -- 2213
    .P (.n 3) (.add (.pv (.n 2)) (.v 0)),  -- 2214
    .P (.n 4) (.add (.pv (.n 3)) (.v 0)),  -- 2215
    .P (.n 5) (.add (.pv (.n 4)) (.v 0)),  -- 2216
    .P (.n 6) (.add (.pv (.n 5)) (.v 0)),  -- 2217
    .P (.n 7) (.add (.pv (.n 6)) (.v 0)),  -- 2218
    .P (.n 8) (.add (.pv (.n 7)) (.v 0)),  -- 2219
    .P (.n 9) (.add (.pv (.n 8)) (.v 0)),  -- 2220
    .st 4 (.pv (.n 2)) (.v 25),  -- 2223
    .st 4 (.pv (.n 3)) (.v 25),  -- 2224
    .st 4 (.pv (.n 4)) (.v 25),  -- 2225
    .st 4 (.pv (.n 5)) (.v 25)  -- 2226
  ]

/-- `intra_pred_ang_x_5_sse128`, vec/intrinsic_intra-pred.cc:2228-2231. -/
def x5S_37 : Stmt :=
  .run [
    .st 4 (.pv (.n 6)) (.v 25),  -- 2228
    .st 4 (.pv (.n 7)) (.v 25),  -- 2229
    .st 4 (.pv (.n 8)) (.v 25),  -- 2230
    .st 4 (.pv (.n 9)) (.v 25)  -- 2231
  ]

/-- `intra_pred_ang_x_5_sse128`, vec/intrinsic_intra-pred.cc:2179. -/
def x5S_38 : Stmt :=
  .ite (.eq (.v 3) (.n 16)) (.seq x5S_36 x5S_37) (.run [])

/-- `intra_pred_ang_x_5_sse128`, vec/intrinsic_intra-pred.cc:1957. -/
def x5S_39 : Stmt :=
  .ite (.eq (.v 2) (.n 8)) (.seq x5S_26 (.seq x5S_28 x5S_32)) (.seq x5S_33 (.seq x5S_34 (.seq x5S_35 x5S_38)))

/-- `intra_pred_ang_x_5_sse128`, vec/intrinsic_intra-pred.cc:1832. -/
def x5S_40 : Stmt :=
  .ite (.eq (.v 2) (.n 16)) (.seq x5S_21 (.seq x5S_22 (.seq x5S_23 (.seq x5S_24 x5S_25)))) x5S_39

/-- `intra_pred_ang_x_5_sse128`, vec/intrinsic_intra-pred.cc:1382. -/
def x5S_41 : Stmt :=
  .ite (.and (.lt (.n 4) (.v 3)) (.lt (.n 8) (.v 2))) (.seq x5S_2 (.seq x5S_11 (.seq x5S_17 (.seq x5S_18 x5S_20)))) x5S_40

/-- `intra_pred_ang_x_5_sse128`, source/common/vec/intrinsic_intra-pred.cc:1364-2246.  Variables:
I: 0 i_dst, 1 dir_mode, 2 bsx, 3 bsy, 4 i, 5 line_size, 6 aligned_line_size;
P: 0 src, 1 dst, 2 pfirst/dst1, 3 dst2, 4 dst3, 5 dst4, 6 dst5, 7 dst6, 8 dst7, 9 dst8, 10 dst1, 11 dst2, 12 dst3, 13 dst4, 14 dst5, 15 dst6, 16 dst7, 17 dst8;
V: 0 zero, 1 coeff2, 2 coeff3, 3 coeff4, 4 coeff5, 5 coeff7, 6 coeff8, 7 coeff9, 8 coeff11, 9 coeff13, 10 coeff15, 11 coeff16, 12 p00/pad1, 13 p10, 14 p20, 15 p30, 16 p01/SS1, 17 p11/L1, 18 p21/L2, 19 p31/L3, 20 SS1/L4, 21 L1/L5, 22 L2/L6, 23 L3/L7, 24 L4/L8, 25 L5/pad1, 26 L6, 27 L7, 28 L8, 29 L9/H1, 30 H1/SS10, 31 SS10/L10/H2, 32 L10/L11/H3, 33 H2/L12/H4, 34 L11/L13/H5, 35 H3/H6, 36 L12/H7, 37 H4/H8, 38 L13, 39 H5, 40 H6, 41 H7, 42 H8, 43 H9, 44 H10, 45 SS19, 46 H11, 47 H12, 48 H13. -/
def x5S : Stmt :=
  .seq x5S_1 x5S_41

/-- `intra_pred_ang_x_6_sse128`, vec/intrinsic_intra-pred.cc:2253-2266. -/
def x6S_1 : Stmt :=
  .run [
    .alloc 0 128,  -- 2253
    .I 4 (.sub (.add (.v 2) (.v 3)) (.n 1)),  -- 2254
    .V 0 .zero,  -- 2259
    .V 1 (.set1_16 (.n 2)),  -- 2260
    .P (.n 0) (.add (.pv (.n 0)) (.n 2)),  -- 2264
    .I 5 (.n 0)  -- 2266
  ]

/-- `intra_pred_ang_x_6_sse128`, vec/intrinsic_intra-pred.cc:2266-2298. -/
def x6S_2 : Stmt :=
  .run [
    .V 2 (.ld 16 (.sub (.pv (.n 0)) (.n 1))),  -- 2270
    .V 3 (.ld 16 (.add (.pv (.n 0)) (.n 1))),  -- 2271
    .V 4 (.ld 16 (.pv (.n 0))),  -- 2272
    .V 5 (.o2 .unpacklo8 (.v 2) (.v 0)),  -- 2274
    .V 6 (.o2 .unpacklo8 (.v 4) (.v 0)),  -- 2275
    .V 7 (.o2 .unpacklo8 (.v 3) (.v 0)),  -- 2276
    .V 8 (.o2 .unpackhi8 (.v 2) (.v 0)),  -- 2278
    .V 9 (.o2 .unpackhi8 (.v 4) (.v 0)),  -- 2279
    .V 10 (.o2 .unpackhi8 (.v 3) (.v 0)),  -- 2280
    .V 11 (.o2 .add16 (.v 5) (.v 6)),  -- 2282
    .V 12 (.o2 .add16 (.v 6) (.v 7)),  -- 2283
    .V 13 (.o2 .add16 (.v 8) (.v 9)),  -- 2284
    .V 14 (.o2 .add16 (.v 9) (.v 10)),  -- 2285
    .V 11 (.o2 .add16 (.v 11) (.v 12)),  -- 2287
    .V 13 (.o2 .add16 (.v 13) (.v 14)),  -- 2288
    .V 11 (.o2 .add16 (.v 11) (.v 1)),  -- 2290
    .V 13 (.o2 .add16 (.v 13) (.v 1)),  -- 2291
    .V 11 (.o1 (.srli16 2) (.v 11)),  -- 2293
    .V 13 (.o1 (.srli16 2) (.v 13)),  -- 2294
    .V 11 (.o2 .packus16 (.v 11) (.v 13)),  -- 2296
    .st 16 (.add (.pa 0) (.v 5)) (.v 11),  -- 2298
    .I 5 (.add (.v 5) (.n 16)),  -- 2266
    .P (.n 0) (.add (.pv (.n 0)) (.n 16))
  ]

/-- `intra_pred_ang_x_6_sse128`, vec/intrinsic_intra-pred.cc:2266. -/
def x6S_3 : Stmt :=
  .loop (.lt (.v 5) (.sub (.v 4) (.n 8))) x6S_2

/-- `intra_pred_ang_x_6_sse128`, vec/intrinsic_intra-pred.cc:2306-2322. -/
def x6S_4 : Stmt :=
  .run [
    .V 2 (.ld 16 (.sub (.pv (.n 0)) (.n 1))),  -- 2306
    .V 3 (.ld 16 (.add (.pv (.n 0)) (.n 1))),  -- 2307
    .V 4 (.ld 16 (.pv (.n 0))),  -- 2308
    .V 5 (.o2 .unpacklo8 (.v 2) (.v 0)),  -- 2310
    .V 6 (.o2 .unpacklo8 (.v 4) (.v 0)),  -- 2311
    .V 7 (.o2 .unpacklo8 (.v 3) (.v 0)),  -- 2312
    .V 8 (.o2 .add16 (.v 5) (.v 6)),  -- 2314
    .V 9 (.o2 .add16 (.v 6) (.v 7)),  -- 2315
    .V 8 (.o2 .add16 (.v 8) (.v 9)),  -- 2317
    .V 8 (.o2 .add16 (.v 8) (.v 1)),  -- 2318
    .V 8 (.o1 (.srli16 2) (.v 8)),  -- 2319
    .V 8 (.o2 .packus16 (.v 8) (.v 8)),  -- 2321
    .st 8 (.add (.pa 0) (.v 5)) (.v 8)  -- 2322
  ]

/-- `intra_pred_ang_x_6_sse128`, vec/intrinsic_intra-pred.cc:2302. -/
def x6S_5 : Stmt :=
  .ite (.lt (.v 5) (.v 4)) x6S_4 (.run [])

/-- `intra_pred_ang_x_6_sse128`, vec/intrinsic_intra-pred.cc:2334. -/
def x6S_6 : Stmt :=
  .run [
    .I 5 (.n 0)  -- 2334
  ]

/-- `intra_pred_ang_x_6_sse128`, vec/intrinsic_intra-pred.cc:2334-2336. -/
def x6S_7 : Stmt :=
  .run [
    .cpy (.pv (.n 1)) (.add (.pa 0) (.v 5)) (.mul (.v 2) (.n 1)),  -- 2335
    .P (.n 1) (.add (.pv (.n 1)) (.v 0)),  -- 2336
    .I 5 (.add (.v 5) (.n 1))  -- 2334
  ]

/-- `intra_pred_ang_x_6_sse128`, vec/intrinsic_intra-pred.cc:2334. -/
def x6S_8 : Stmt :=
  .loop (.lt (.v 5) (.v 3)) x6S_7

/-- `intra_pred_ang_x_6_sse128`, vec/intrinsic_intra-pred.cc:2339. -/
def x6S_9 : Stmt :=
  .run [
    .P (.n 2) (.pv (.n 1))  -- 2339
  ]

/-- `intra_pred_ang_x_6_sse128`, vec/intrinsic_intra-pred.cc:2342-2364. -/
def x6S_10 : Stmt :=
  .run [
    .V 2 (.ld 16 (.add (.pa 0) (.n 0))),  -- 2342
    .st 8 (.pv (.n 2)) (.v 2),  -- 2343
    .P (.n 2) (.add (.pv (.n 2)) (.v 0)),  -- 2344
    .V 2 (.o1 (.srliB 1) (.v 2)),  -- 2345
    .st 8 (.pv (.n 2)) (.v 2),  -- 2346
    .P (.n 2) (.add (.pv (.n 2)) (.v 0)),  -- 2347
    .V 2 (.o1 (.srliB 1) (.v 2)),  -- 2348
    .st 8 (.pv (.n 2)) (.v 2),  -- 2349
    .P (.n 2) (.add (.pv (.n 2)) (.v 0)),  -- 2350
    .V 2 (.o1 (.srliB 1) (.v 2)),  -- 2351
    .st 8 (.pv (.n 2)) (.v 2),  -- 2352
    .P (.n 2) (.add (.pv (.n 1)) (.n 8)),  -- 2353
    .V 2 (.ld 16 (.add (.pa 0) (.n 8))),  -- 2354
    .st 8 (.pv (.n 2)) (.v 2),  -- 2355
    .P (.n 2) (.add (.pv (.n 2)) (.v 0)),  -- 2356
    .V 2 (.o1 (.srliB 1) (.v 2)),  -- 2357
    .st 8 (.pv (.n 2)) (.v 2),  -- 2358
    .P (.n 2) (.add (.pv (.n 2)) (.v 0)),  -- 2359
    .V 2 (.o1 (.srliB 1) (.v 2)),  -- 2360
    .st 8 (.pv (.n 2)) (.v 2),  -- 2361
    .P (.n 2) (.add (.pv (.n 2)) (.v 0)),  -- 2362
    .V 2 (.o1 (.srliB 1) (.v 2)),  -- 2363
    .st 8 (.pv (.n 2)) (.v 2)  -- 2364
  ]

/-- `intra_pred_ang_x_6_sse128`, vec/intrinsic_intra-pred.cc:2366-2389. -/
def x6S_11 : Stmt :=
  .run [
    .V 2 (.ld 16 (.add (.pa 0) (.n 0))),  -- 2366
    .st 8 (.pv (.n 2)) (.v 2),  -- 2367
    .P (.n 2) (.add (.pv (.n 2)) (.v 0)),  -- 2368
    .V 2 (.o1 (.srliB 1) (.v 2)),  -- 2369
    .st 8 (.pv (.n 2)) (.v 2),  -- 2370
    .P (.n 2) (.add (.pv (.n 2)) (.v 0)),  -- 2371
    .V 2 (.o1 (.srliB 1) (.v 2)),  -- 2372
    .st 8 (.pv (.n 2)) (.v 2),  -- 2373
    .P (.n 2) (.add (.pv (.n 2)) (.v 0)),  -- 2374
    .V 2 (.o1 (.srliB 1) (.v 2)),  -- 2375
    .st 8 (.pv (.n 2)) (.v 2),  -- 2376
    .P (.n 2) (.add (.pv (.n 2)) (.v 0)),  -- 2377
    .V 2 (.o1 (.srliB 1) (.v 2)),  -- 2378
    .st 8 (.pv (.n 2)) (.v 2),  -- 2379
    .P (.n 2) (.add (.pv (.n 2)) (.v 0)),  -- 2380
    .V 2 (.o1 (.srliB 1) (.v 2)),  -- 2381
    .st 8 (.pv (.n 2)) (.v 2),  -- 2382
    .P (.n 2) (.add (.pv (.n 2)) (.v 0)),  -- 2383
    .V 2 (.o1 (.srliB 1) (.v 2)),  -- 2384
    .st 8 (.pv (.n 2)) (.v 2),  -- 2385
    .P (.n 2) (.add (.pv (.n 2)) (.v 0)),  -- 2386
    .V 2 (.o1 (.srliB 1) (.v 2)),  -- 2387
    .st 8 (.pv (.n 2)) (.v 2),  -- 2388
    .P (.n 3) (.add (.pv (.n 2)) (.v 0))  -- 2389
  ]

/-- `intra_pred_ang_x_6_sse128`, vec/intrinsic_intra-pred.cc:2390-2413. -/
def x6S_12 : Stmt :=
  .run [
    .P (.n 2) (.add (.pv (.n 1)) (.n 8)),  -- 2390
    .V 2 (.ld 16 (.add (.pa 0) (.n 8))),  -- 2391
    .st 8 (.pv (.n 2)) (.v 2),  -- 2392
    .st 8 (.pv (.n 3)) (.v 2),  -- 2393
    .P (.n 2) (.add (.pv (.n 2)) (.v 0)),  -- 2394
    .P (.n 3) (.add (.pv (.n 3)) (.v 0)),  -- 2395
    .V 2 (.o1 (.srliB 1) (.v 2)),  -- 2396
    .st 8 (.pv (.n 2)) (.v 2),  -- 2397
    .st 8 (.pv (.n 3)) (.v 2),  -- 2398
    .P (.n 2) (.add (.pv (.n 2)) (.v 0)),  -- 2399
    .P (.n 3) (.add (.pv (.n 3)) (.v 0)),  -- 2400
    .V 2 (.o1 (.srliB 1) (.v 2)),  -- 2401
    .st 8 (.pv (.n 2)) (.v 2),  -- 2402
    .st 8 (.pv (.n 3)) (.v 2),  -- 2403
    .P (.n 2) (.add (.pv (.n 2)) (.v 0)),  -- 2404
    .P (.n 3) (.add (.pv (.n 3)) (.v 0)),  -- 2405
    .V 2 (.o1 (.srliB 1) (.v 2)),  -- 2406
    .st 8 (.pv (.n 2)) (.v 2),  -- 2407
    .st 8 (.pv (.n 3)) (.v 2),  -- 2408
    .P (.n 2) (.add (.pv (.n 2)) (.v 0)),  -- 2409
    .P (.n 3) (.add (.pv (.n 3)) (.v 0)),  -- 2410
    .V 2 (.o1 (.srliB 1) (.v 2)),  -- 2411
    .st 8 (.pv (.n 2)) (.v 2),  -- 2412
    .st 8 (.pv (.n 3)) (.v 2)  -- 2413
  ]

/-- `intra_pred_ang_x_6_sse128`, vec/intrinsic_intra-pred.cc:2414-2437. -/
def x6S_13 : Stmt :=
  .run [
    .P (.n 2) (.add (.pv (.n 2)) (.v 0)),  -- 2414
    .P (.n 3) (.add (.pv (.n 3)) (.v 0)),  -- 2415
    .V 2 (.o1 (.srliB 1) (.v 2)),  -- 2416
    .st 8 (.pv (.n 2)) (.v 2),  -- 2417
    .st 8 (.pv (.n 3)) (.v 2),  -- 2418
    .P (.n 2) (.add (.pv (.n 2)) (.v 0)),  -- 2419
    .P (.n 3) (.add (.pv (.n 3)) (.v 0)),  -- 2420
    .V 2 (.o1 (.srliB 1) (.v 2)),  -- 2421
    .st 8 (.pv (.n 2)) (.v 2),  -- 2422
    .st 8 (.pv (.n 3)) (.v 2),  -- 2423
    .P (.n 2) (.add (.pv (.n 2)) (.v 0)),  -- 2424
    .P (.n 3) (.add (.pv (.n 3)) (.v 0)),  -- 2425
    .V 2 (.o1 (.srliB 1) (.v 2)),  -- 2426
    .st 8 (.pv (.n 2)) (.v 2),  -- 2427
    .st 8 (.pv (.n 3)) (.v 2),  -- 2428
    .P (.n 2) (.add (.pv (.n 2)) (.v 0)),  -- 2429
    .V 2 (.ld 16 (.add (.pa 0) (.n 16))),  -- 2430
    .st 8 (.pv (.n 2)) (.v 2),  -- 2431
    .P (.n 2) (.add (.pv (.n 2)) (.v 0)),  -- 2432
    .V 2 (.o1 (.srliB 1) (.v 2)),  -- 2433
    .st 8 (.pv (.n 2)) (.v 2),  -- 2434
    .P (.n 2) (.add (.pv (.n 2)) (.v 0)),  -- 2435
    .V 2 (.o1 (.srliB 1) (.v 2)),  -- 2436
    .st 8 (.pv (.n 2)) (.v 2)  -- 2437
  ]

/-- `intra_pred_ang_x_6_sse128`, vec/intrinsic_intra-pred.cc:2438-2452. -/
def x6S_14 : Stmt :=
  .run [
    .P (.n 2) (.add (.pv (.n 2)) (.v 0)),  -- 2438
    .V 2 (.o1 (.srliB 1) (.v 2)),  -- 2439
    .st 8 (.pv (.n 2)) (.v 2),  -- 2440
    .P (.n 2) (.add (.pv (.n 2)) (.v 0)),  -- 2441
    .V 2 (.o1 (.srliB 1) (.v 2)),  -- 2442
    .st 8 (.pv (.n 2)) (.v 2),  -- 2443
    .P (.n 2) (.add (.pv (.n 2)) (.v 0)),  -- 2444
    .V 2 (.o1 (.srliB 1) (.v 2)),  -- 2445
    .st 8 (.pv (.n 2)) (.v 2),  -- 2446
    .P (.n 2) (.add (.pv (.n 2)) (.v 0)),  -- 2447
    .V 2 (.o1 (.srliB 1) (.v 2)),  -- 2448
    .st 8 (.pv (.n 2)) (.v 2),  -- 2449
    .P (.n 2) (.add (.pv (.n 2)) (.v 0)),  -- 2450
    .V 2 (.o1 (.srliB 1) (.v 2)),  -- 2451
    .st 8 (.pv (.n 2)) (.v 2)  -- 2452
  ]

/-- `intra_pred_ang_x_6_sse128`, vec/intrinsic_intra-pred.cc:2341. -/
def x6S_15 : Stmt :=
  .ite (.eq (.v 3) (.n 4)) x6S_10 (.seq x6S_11 (.seq x6S_12 (.seq x6S_13 x6S_14)))

/-- `intra_pred_ang_x_6_sse128`, vec/intrinsic_intra-pred.cc:2455. -/
def x6S_16 : Stmt :=
  .run [
    .I 5 (.n 0)  -- 2455
  ]

/-- `intra_pred_ang_x_6_sse128`, vec/intrinsic_intra-pred.cc:2456-2479. -/
def x6S_17 : Stmt :=
  .run [
    .V 2 (.ld 16 (.add (.pa 0) (.v 5))),  -- 2456
    .st 8 (.pv (.n 1)) (.v 2),  -- 2457
    .P (.n 1) (.add (.pv (.n 1)) (.v 0)),  -- 2458
    .V 2 (.o1 (.srliB 1) (.v 2)),  -- 2459
    .st 8 (.pv (.n 1)) (.v 2),  -- 2460
    .P (.n 1) (.add (.pv (.n 1)) (.v 0)),  -- 2461
    .V 2 (.o1 (.srliB 1) (.v 2)),  -- 2462
    .st 8 (.pv (.n 1)) (.v 2),  -- 2463
    .P (.n 1) (.add (.pv (.n 1)) (.v 0)),  -- 2464
    .V 2 (.o1 (.srliB 1) (.v 2)),  -- 2465
    .st 8 (.pv (.n 1)) (.v 2),  -- 2466
    .P (.n 1) (.add (.pv (.n 1)) (.v 0)),  -- 2467
    .V 2 (.o1 (.srliB 1) (.v 2)),  -- 2468
    .st 8 (.pv (.n 1)) (.v 2),  -- 2469
    .P (.n 1) (.add (.pv (.n 1)) (.v 0)),  -- 2470
    .V 2 (.o1 (.srliB 1) (.v 2)),  -- 2471
    .st 8 (.pv (.n 1)) (.v 2),  -- 2472
    .P (.n 1) (.add (.pv (.n 1)) (.v 0)),  -- 2473
    .V 2 (.o1 (.srliB 1) (.v 2)),  -- 2474
    .st 8 (.pv (.n 1)) (.v 2),  -- 2475
    .P (.n 1) (.add (.pv (.n 1)) (.v 0)),  -- 2476
    .V 2 (.o1 (.srliB 1) (.v 2)),  -- 2477
    .st 8 (.pv (.n 1)) (.v 2),  -- 2478
    .P (.n 1) (.add (.pv (.n 1)) (.v 0))  -- 2479
  ]

/-- `intra_pred_ang_x_6_sse128`, vec/intrinsic_intra-pred.cc:2455. -/
def x6S_18 : Stmt :=
  .run [
    .I 5 (.add (.v 5) (.n 8))  -- 2455
  ]

/-- `intra_pred_ang_x_6_sse128`, vec/intrinsic_intra-pred.cc:2455. -/
def x6S_19 : Stmt :=
  .loop (.lt (.v 5) (.v 3)) (.seq x6S_17 x6S_18)

/-- `intra_pred_ang_x_6_sse128`, vec/intrinsic_intra-pred.cc:2338. -/
def x6S_20 : Stmt :=
  .ite (.eq (.v 2) (.n 16)) (.seq x6S_9 x6S_15) (.seq x6S_16 x6S_19)

/-- `intra_pred_ang_x_6_sse128`, vec/intrinsic_intra-pred.cc:2333. -/
def x6S_21 : Stmt :=
  .ite (.or (.lt (.n 16) (.v 2)) (.eq (.v 2) (.n 4))) (.seq x6S_6 x6S_8) x6S_20

/-- `intra_pred_ang_x_6_sse128`, source/common/vec/intrinsic_intra-pred.cc:2251-2482.  Variables:
I: 0 i_dst, 1 dir_mode, 2 bsx, 3 bsy, 4 line_size, 5 i;
P: 0 src, 1 dst, 2 dst1, 3 dst2;
V: 0 zero, 1 offset, 2 S0/M, 3 S2, 4 S1, 5 L0, 6 L1, 7 L2, 8 H0/sum1, 9 H1/sum2, 10 H2, 11 sum1, 12 sum2, 13 sum3, 14 sum4. -/
def x6S : Stmt :=
  .seq x6S_1 (.seq x6S_3 (.seq x6S_5 x6S_21))

/-- `intra_pred_ang_x_8_sse128`, vec/intrinsic_intra-pred.cc:2816-2839. -/
def x8S_1 : Stmt :=
  .run [
    .alloc 0 224,  -- 2816
    .I 4 (.sub (.add (.v 2) (.shr (.v 3) 1)) (.n 1)),  -- 2817
    .I 6 (.shl (.shr (.add (.v 4) (.n 31)) 4) 4),  -- 2825
    .V 0 .zero,  -- 2827
    .V 1 (.set1_16 (.n 3)),  -- 2828
    .V 2 (.set1_16 (.n 4)),  -- 2829
    .V 3 (.set1_16 (.n 2)),  -- 2830
    .I 7 (.mul (.v 0) (.n 2)),  -- 2831
    .P (.n 2) (.pa 0),  -- 2835
    .P (.n 3) (.add (.pa 0) (.v 6)),  -- 2836
    .I 5 (.n 0)  -- 2839
  ]

/-- `intra_pred_ang_x_8_sse128`, vec/intrinsic_intra-pred.cc:2844-2871. -/
def x8S_2 : Stmt :=
  .run [
    .V 8 (.ld 16 (.pv (.n 0))),  -- 2844
    .V 9 (.ld 16 (.add (.pv (.n 0)) (.n 3))),  -- 2845
    .V 10 (.ld 16 (.add (.pv (.n 0)) (.n 1))),  -- 2846
    .V 11 (.ld 16 (.add (.pv (.n 0)) (.n 2))),  -- 2847
    .V 12 (.o2 .unpacklo8 (.v 8) (.v 0)),  -- 2849
    .V 13 (.o2 .unpacklo8 (.v 10) (.v 0)),  -- 2850
    .V 14 (.o2 .unpacklo8 (.v 11) (.v 0)),  -- 2851
    .V 15 (.o2 .unpacklo8 (.v 9) (.v 0)),  -- 2852
    .V 16 (.o2 .unpackhi8 (.v 8) (.v 0)),  -- 2854
    .V 17 (.o2 .unpackhi8 (.v 10) (.v 0)),  -- 2855
    .V 18 (.o2 .unpackhi8 (.v 11) (.v 0)),  -- 2856
    .V 19 (.o2 .unpackhi8 (.v 9) (.v 0)),  -- 2857
    .V 4 (.o2 .add16 (.v 13) (.v 14)),  -- 2859
    .V 4 (.o2 .mullo16 (.v 4) (.v 1)),  -- 2860
    .V 5 (.o2 .add16 (.v 12) (.v 15)),  -- 2861
    .V 5 (.o2 .add16 (.v 5) (.v 2)),  -- 2862
    .V 4 (.o2 .add16 (.v 4) (.v 5)),  -- 2863
    .V 4 (.o1 (.srli16 3) (.v 4)),  -- 2864
    .V 6 (.o2 .add16 (.v 17) (.v 18)),  -- 2866
    .V 6 (.o2 .mullo16 (.v 6) (.v 1)),  -- 2867
    .V 7 (.o2 .add16 (.v 16) (.v 19)),  -- 2868
    .V 7 (.o2 .add16 (.v 7) (.v 2)),  -- 2869
    .V 6 (.o2 .add16 (.v 6) (.v 7)),  -- 2870
    .V 6 (.o1 (.srli16 3) (.v 6))  -- 2871
  ]

/-- `intra_pred_ang_x_8_sse128`, vec/intrinsic_intra-pred.cc:2839-2891. -/
def x8S_3 : Stmt :=
  .run [
    .V 4 (.o2 .packus16 (.v 4) (.v 6)),  -- 2873
    .st 16 (.add (.pv (.n 2)) (.v 5)) (.v 4),  -- 2874
    .V 4 (.o2 .add16 (.v 13) (.v 14)),  -- 2876
    .V 5 (.o2 .add16 (.v 14) (.v 15)),  -- 2877
    .V 6 (.o2 .add16 (.v 17) (.v 18)),  -- 2878
    .V 7 (.o2 .add16 (.v 18) (.v 19)),  -- 2879
    .V 4 (.o2 .add16 (.v 4) (.v 5)),  -- 2881
    .V 6 (.o2 .add16 (.v 6) (.v 7)),  -- 2882
    .V 4 (.o2 .add16 (.v 4) (.v 3)),  -- 2884
    .V 6 (.o2 .add16 (.v 6) (.v 3)),  -- 2885
    .V 4 (.o1 (.srli16 2) (.v 4)),  -- 2887
    .V 6 (.o1 (.srli16 2) (.v 6)),  -- 2888
    .V 4 (.o2 .packus16 (.v 4) (.v 6)),  -- 2890
    .st 16 (.add (.pv (.n 3)) (.v 5)) (.v 4),  -- 2891
    .I 5 (.add (.v 5) (.n 16)),  -- 2839
    .P (.n 0) (.add (.pv (.n 0)) (.n 16))
  ]

/-- `intra_pred_ang_x_8_sse128`, vec/intrinsic_intra-pred.cc:2839. -/
def x8S_4 : Stmt :=
  .loop (.lt (.v 5) (.sub (.v 4) (.n 8))) (.seq x8S_2 x8S_3)

/-- `intra_pred_ang_x_8_sse128`, vec/intrinsic_intra-pred.cc:2900-2928. -/
def x8S_5 : Stmt :=
  .run [
    .V 6 (.ld 16 (.pv (.n 0))),  -- 2900
    .V 7 (.ld 16 (.add (.pv (.n 0)) (.n 3))),  -- 2901
    .V 8 (.ld 16 (.add (.pv (.n 0)) (.n 1))),  -- 2902
    .V 9 (.ld 16 (.add (.pv (.n 0)) (.n 2))),  -- 2903
    .V 10 (.o2 .unpacklo8 (.v 6) (.v 0)),  -- 2905
    .V 11 (.o2 .unpacklo8 (.v 8) (.v 0)),  -- 2906
    .V 12 (.o2 .unpacklo8 (.v 9) (.v 0)),  -- 2907
    .V 13 (.o2 .unpacklo8 (.v 7) (.v 0)),  -- 2908
    .V 4 (.o2 .add16 (.v 11) (.v 12)),  -- 2910
    .V 4 (.o2 .mullo16 (.v 4) (.v 1)),  -- 2911
    .V 5 (.o2 .add16 (.v 10) (.v 13)),  -- 2912
    .V 5 (.o2 .add16 (.v 5) (.v 2)),  -- 2913
    .V 4 (.o2 .add16 (.v 4) (.v 5)),  -- 2914
    .V 4 (.o1 (.srli16 3) (.v 4)),  -- 2915
    .V 4 (.o2 .packus16 (.v 4) (.v 4)),  -- 2917
    .st 8 (.add (.pv (.n 2)) (.v 5)) (.v 4),  -- 2918
    .V 4 (.o2 .add16 (.v 11) (.v 12)),  -- 2920
    .V 5 (.o2 .add16 (.v 12) (.v 13)),  -- 2921
    .V 4 (.o2 .add16 (.v 4) (.v 5)),  -- 2923
    .V 4 (.o2 .add16 (.v 4) (.v 3)),  -- 2924
    .V 4 (.o1 (.srli16 2) (.v 4)),  -- 2925
    .V 4 (.o2 .packus16 (.v 4) (.v 4)),  -- 2927
    .st 8 (.add (.pv (.n 3)) (.v 5)) (.v 4)  -- 2928
  ]

/-- `intra_pred_ang_x_8_sse128`, vec/intrinsic_intra-pred.cc:2895. -/
def x8S_6 : Stmt :=
  .ite (.lt (.v 5) (.v 4)) x8S_5 (.run [])

/-- `intra_pred_ang_x_8_sse128`, vec/intrinsic_intra-pred.cc:2945. -/
def x8S_7 : Stmt :=
  .run [
    .I 3 (.shr (.v 3) 1)  -- 2945
  ]

/-- `intra_pred_ang_x_8_sse128`, vec/intrinsic_intra-pred.cc:2948. -/
def x8S_8 : Stmt :=
  .run [
    .I 5 (.n 0)  -- 2948
  ]

/-- `intra_pred_ang_x_8_sse128`, vec/intrinsic_intra-pred.cc:2948-2951. -/
def x8S_9 : Stmt :=
  .run [
    .cpy (.pv (.n 1)) (.add (.pv (.n 2)) (.v 5)) (.mul (.v 2) (.n 1)),  -- 2949
    .cpy (.add (.pv (.n 1)) (.v 0)) (.add (.pv (.n 3)) (.v 5)) (.mul (.v 2) (.n 1)),  -- 2950
    .P (.n 1) (.add (.pv (.n 1)) (.v 7)),  -- 2951
    .I 5 (.add (.v 5) (.n 1))  -- 2948
  ]

/-- `intra_pred_ang_x_8_sse128`, vec/intrinsic_intra-pred.cc:2948. -/
def x8S_10 : Stmt :=
  .loop (.lt (.v 5) (.v 3)) x8S_9

/-- `intra_pred_ang_x_8_sse128`, vec/intrinsic_intra-pred.cc:2954-2972. -/
def x8S_11 : Stmt :=
  .run [
    .V 4 (.ld 16 (.add (.pv (.n 2)) (.n 0))),  -- 2954
    .V 5 (.ld 16 (.add (.pv (.n 3)) (.n 0))),  -- 2955
    .st 8 (.pv (.n 1)) (.v 4),  -- 2956
    .st 8 (.add (.pv (.n 1)) (.v 0)) (.v 5),  -- 2957
    .P (.n 1) (.add (.pv (.n 1)) (.v 7)),  -- 2958
    .V 4 (.o1 (.srliB 1) (.v 4)),  -- 2959
    .V 5 (.o1 (.srliB 1) (.v 5)),  -- 2960
    .st 8 (.pv (.n 1)) (.v 4),  -- 2961
    .st 8 (.add (.pv (.n 1)) (.v 0)) (.v 5),  -- 2962
    .P (.n 1) (.add (.pv (.n 1)) (.v 7)),  -- 2963
    .V 4 (.o1 (.srliB 1) (.v 4)),  -- 2964
    .V 5 (.o1 (.srliB 1) (.v 5)),  -- 2965
    .st 8 (.pv (.n 1)) (.v 4),  -- 2966
    .st 8 (.add (.pv (.n 1)) (.v 0)) (.v 5),  -- 2967
    .P (.n 1) (.add (.pv (.n 1)) (.v 7)),  -- 2968
    .V 4 (.o1 (.srliB 1) (.v 4)),  -- 2969
    .V 5 (.o1 (.srliB 1) (.v 5)),  -- 2970
    .st 8 (.pv (.n 1)) (.v 4),  -- 2971
    .st 8 (.add (.pv (.n 1)) (.v 0)) (.v 5)  -- 2972
  ]

/-- `intra_pred_ang_x_8_sse128`, vec/intrinsic_intra-pred.cc:2974. -/
def x8S_12 : Stmt :=
  .run [
    .I 5 (.n 0)  -- 2974
  ]

/-- `intra_pred_ang_x_8_sse128`, vec/intrinsic_intra-pred.cc:2975-2998. -/
def x8S_13 : Stmt :=
  .run [
    .V 4 (.ld 16 (.add (.pv (.n 2)) (.v 5))),  -- 2975
    .V 5 (.ld 16 (.add (.pv (.n 3)) (.v 5))),  -- 2976
    .st 8 (.pv (.n 1)) (.v 4),  -- 2977
    .st 8 (.add (.pv (.n 1)) (.v 0)) (.v 5),  -- 2978
    .P (.n 1) (.add (.pv (.n 1)) (.v 7)),  -- 2979
    .V 4 (.o1 (.srliB 1) (.v 4)),  -- 2980
    .V 5 (.o1 (.srliB 1) (.v 5)),  -- 2981
    .st 8 (.pv (.n 1)) (.v 4),  -- 2982
    .st 8 (.add (.pv (.n 1)) (.v 0)) (.v 5),  -- 2983
    .P (.n 1) (.add (.pv (.n 1)) (.v 7)),  -- 2984
    .V 4 (.o1 (.srliB 1) (.v 4)),  -- 2985
    .V 5 (.o1 (.srliB 1) (.v 5)),  -- 2986
    .st 8 (.pv (.n 1)) (.v 4),  -- 2987
    .st 8 (.add (.pv (.n 1)) (.v 0)) (.v 5),  -- 2988
    .P (.n 1) (.add (.pv (.n 1)) (.v 7)),  -- 2989
    .V 4 (.o1 (.srliB 1) (.v 4)),  -- 2990
    .V 5 (.o1 (.srliB 1) (.v 5)),  -- 2991
    .st 8 (.pv (.n 1)) (.v 4),  -- 2992
    .st 8 (.add (.pv (.n 1)) (.v 0)) (.v 5),  -- 2993
    .P (.n 1) (.add (.pv (.n 1)) (.v 7)),  -- 2994
    .V 4 (.o1 (.srliB 1) (.v 4)),  -- 2995
    .V 5 (.o1 (.srliB 1) (.v 5)),  -- 2996
    .st 8 (.pv (.n 1)) (.v 4),  -- 2997
    .st 8 (.add (.pv (.n 1)) (.v 0)) (.v 5)  -- 2998
  ]

/-- `intra_pred_ang_x_8_sse128`, vec/intrinsic_intra-pred.cc:2974-3014. -/
def x8S_14 : Stmt :=
  .run [
    .P (.n 1) (.add (.pv (.n 1)) (.v 7)),  -- 2999
    .V 4 (.o1 (.srliB 1) (.v 4)),  -- 3000
    .V 5 (.o1 (.srliB 1) (.v 5)),  -- 3001
    .st 8 (.pv (.n 1)) (.v 4),  -- 3002
    .st 8 (.add (.pv (.n 1)) (.v 0)) (.v 5),  -- 3003
    .P (.n 1) (.add (.pv (.n 1)) (.v 7)),  -- 3004
    .V 4 (.o1 (.srliB 1) (.v 4)),  -- 3005
    .V 5 (.o1 (.srliB 1) (.v 5)),  -- 3006
    .st 8 (.pv (.n 1)) (.v 4),  -- 3007
    .st 8 (.add (.pv (.n 1)) (.v 0)) (.v 5),  -- 3008
    .P (.n 1) (.add (.pv (.n 1)) (.v 7)),  -- 3009
    .V 4 (.o1 (.srliB 1) (.v 4)),  -- 3010
    .V 5 (.o1 (.srliB 1) (.v 5)),  -- 3011
    .st 8 (.pv (.n 1)) (.v 4),  -- 3012
    .st 8 (.add (.pv (.n 1)) (.v 0)) (.v 5),  -- 3013
    .P (.n 1) (.add (.pv (.n 1)) (.v 7)),  -- 3014
    .I 5 (.add (.v 5) (.n 8))  -- 2974
  ]

/-- `intra_pred_ang_x_8_sse128`, vec/intrinsic_intra-pred.cc:2974. -/
def x8S_15 : Stmt :=
  .loop (.lt (.v 5) (.n 16)) (.seq x8S_13 x8S_14)

/-- `intra_pred_ang_x_8_sse128`, vec/intrinsic_intra-pred.cc:2953. -/
def x8S_16 : Stmt :=
  .ite (.eq (.v 3) (.n 4)) x8S_11 (.seq x8S_12 x8S_15)

/-- `intra_pred_ang_x_8_sse128`, vec/intrinsic_intra-pred.cc:2947. -/
def x8S_17 : Stmt :=
  .ite (.ne (.v 2) (.n 8)) (.seq x8S_8 x8S_10) x8S_16

/-- `intra_pred_ang_x_8_sse128`, source/common/vec/intrinsic_intra-pred.cc:2814-3018.  Variables:
I: 0 i_dst, 1 dir_mode, 2 bsx, 3 bsy, 4 line_size, 5 i, 6 aligned_line_size, 7 i_dst2;
P: 0 src, 1 dst, 2 pfirst;
V: 0 zero, 1 coeff, 2 offset1, 3 offset2, 4 p01/M1, 5 p02/M2, 6 p11/S0, 7 p12/S3, 8 S0/S1, 9 S3/S2, 10 S1/L0, 11 S2/L1, 12 L0/L2, 13 L1/L3, 14 L2, 15 L3, 16 H0, 17 H1, 18 H2, 19 H3. -/
def x8S : Stmt :=
  .seq x8S_1 (.seq x8S_4 (.seq x8S_6 (.seq x8S_7 x8S_17)))

/-- `intra_pred_ang_x_10_sse128`, vec/intrinsic_intra-pred.cc:3354-3364. -/
def x10S_1 : Stmt :=
  .run [
    .P (.n 2) (.pv (.n 1)),  -- 3354
    .P (.n 3) (.add (.pv (.n 2)) (.v 0)),  -- 3355
    .P (.n 4) (.add (.pv (.n 3)) (.v 0)),  -- 3356
    .P (.n 5) (.add (.pv (.n 4)) (.v 0)),  -- 3357
    .V 0 .zero,  -- 3358
    .V 1 (.set1_16 (.n 2)),  -- 3359
    .V 2 (.set1_16 (.n 3)),  -- 3360
    .V 3 (.set1_16 (.n 4)),  -- 3361
    .V 4 (.set1_16 (.n 5)),  -- 3362
    .V 5 (.set1_16 (.n 7)),  -- 3363
    .V 6 (.set1_16 (.n 8))  -- 3364
  ]

/-- `intra_pred_ang_x_10_sse128`, vec/intrinsic_intra-pred.cc:3369-3379. -/
def x10S_2 : Stmt :=
  .run [
    .alloc 0 384,  -- 3369
    .I 5 (.sub (.add (.v 2) (.div (.v 3) (.n 4))) (.n 1)),  -- 3370
    .I 6 (.shl (.shr (.add (.v 5) (.n 31)) 4) 4),  -- 3371
    .P (.n 6) (.pa 0),  -- 3374
    .P (.n 7) (.add (.pa 0) (.v 6)),  -- 3375
    .P (.n 8) (.add (.pa 0) (.mul (.v 6) (.n 2))),  -- 3376
    .P (.n 9) (.add (.pa 0) (.mul (.v 6) (.n 3))),  -- 3377
    .I 4 (.n 0)  -- 3379
  ]

/-- `intra_pred_ang_x_10_sse128`, vec/intrinsic_intra-pred.cc:3382-3409. -/
def x10S_3 : Stmt :=
  .run [
    .V 15 (.ld 16 (.pv (.n 0))),  -- 3382
    .V 16 (.ld 16 (.add (.pv (.n 0)) (.n 3))),  -- 3383
    .V 17 (.ld 16 (.add (.pv (.n 0)) (.n 1))),  -- 3384
    .V 18 (.ld 16 (.add (.pv (.n 0)) (.n 2))),  -- 3385
    .V 19 (.o2 .unpacklo8 (.v 15) (.v 0)),  -- 3387
    .V 20 (.o2 .unpacklo8 (.v 17) (.v 0)),  -- 3388
    .V 21 (.o2 .unpacklo8 (.v 18) (.v 0)),  -- 3389
    .V 22 (.o2 .unpacklo8 (.v 16) (.v 0)),  -- 3390
    .V 23 (.o2 .unpackhi8 (.v 15) (.v 0)),  -- 3392
    .V 24 (.o2 .unpackhi8 (.v 17) (.v 0)),  -- 3393
    .V 25 (.o2 .unpackhi8 (.v 18) (.v 0)),  -- 3394
    .V 26 (.o2 .unpackhi8 (.v 16) (.v 0)),  -- 3395
    .V 7 (.o2 .mullo16 (.v 19) (.v 2)),  -- 3397
    .V 8 (.o2 .mullo16 (.v 20) (.v 5)),  -- 3398
    .V 9 (.o2 .mullo16 (.v 21) (.v 4)),  -- 3399
    .V 10 (.o2 .add16 (.v 22) (.v 6)),  -- 3400
    .V 7 (.o2 .add16 (.v 7) (.v 10)),  -- 3401
    .V 7 (.o2 .add16 (.v 7) (.v 8)),  -- 3402
    .V 7 (.o2 .add16 (.v 7) (.v 9)),  -- 3403
    .V 7 (.o1 (.srli16 4) (.v 7)),  -- 3404
    .V 11 (.o2 .mullo16 (.v 23) (.v 2)),  -- 3406
    .V 12 (.o2 .mullo16 (.v 24) (.v 5)),  -- 3407
    .V 13 (.o2 .mullo16 (.v 25) (.v 4)),  -- 3408
    .V 14 (.o2 .add16 (.v 26) (.v 6))  -- 3409
  ]

/-- `intra_pred_ang_x_10_sse128`, vec/intrinsic_intra-pred.cc:3410-3438. -/
def x10S_4 : Stmt :=
  .run [
    .V 11 (.o2 .add16 (.v 11) (.v 14)),  -- 3410
    .V 11 (.o2 .add16 (.v 11) (.v 12)),  -- 3411
    .V 11 (.o2 .add16 (.v 11) (.v 13)),  -- 3412
    .V 11 (.o1 (.srli16 4) (.v 11)),  -- 3413
    .V 7 (.o2 .packus16 (.v 7) (.v 11)),  -- 3415
    .st 16 (.add (.pv (.n 6)) (.v 4)) (.v 7),  -- 3416
    .V 7 (.o2 .add16 (.v 20) (.v 21)),  -- 3418
    .V 7 (.o2 .mullo16 (.v 7) (.v 2)),  -- 3419
    .V 8 (.o2 .add16 (.v 19) (.v 22)),  -- 3420
    .V 8 (.o2 .add16 (.v 8) (.v 3)),  -- 3421
    .V 7 (.o2 .add16 (.v 8) (.v 7)),  -- 3422
    .V 7 (.o1 (.srli16 3) (.v 7)),  -- 3423
    .V 11 (.o2 .add16 (.v 24) (.v 25)),  -- 3425
    .V 11 (.o2 .mullo16 (.v 11) (.v 2)),  -- 3426
    .V 12 (.o2 .add16 (.v 23) (.v 26)),  -- 3427
    .V 12 (.o2 .add16 (.v 12) (.v 3)),  -- 3428
    .V 11 (.o2 .add16 (.v 12) (.v 11)),  -- 3429
    .V 11 (.o1 (.srli16 3) (.v 11)),  -- 3430
    .V 7 (.o2 .packus16 (.v 7) (.v 11)),  -- 3432
    .st 16 (.add (.pv (.n 7)) (.v 4)) (.v 7),  -- 3433
    .V 8 (.o2 .mullo16 (.v 20) (.v 4)),  -- 3435
    .V 9 (.o2 .mullo16 (.v 21) (.v 5)),  -- 3436
    .V 10 (.o2 .mullo16 (.v 22) (.v 2)),  -- 3437
    .V 7 (.o2 .add16 (.v 19) (.v 6))  -- 3438
  ]

/-- `intra_pred_ang_x_10_sse128`, vec/intrinsic_intra-pred.cc:3439-3466. -/
def x10S_5 : Stmt :=
  .run [
    .V 7 (.o2 .add16 (.v 7) (.v 8)),  -- 3439
    .V 7 (.o2 .add16 (.v 7) (.v 9)),  -- 3440
    .V 7 (.o2 .add16 (.v 7) (.v 10)),  -- 3441
    .V 7 (.o1 (.srli16 4) (.v 7)),  -- 3442
    .V 12 (.o2 .mullo16 (.v 24) (.v 4)),  -- 3444
    .V 13 (.o2 .mullo16 (.v 25) (.v 5)),  -- 3445
    .V 14 (.o2 .mullo16 (.v 26) (.v 2)),  -- 3446
    .V 11 (.o2 .add16 (.v 23) (.v 6)),  -- 3447
    .V 11 (.o2 .add16 (.v 11) (.v 12)),  -- 3448
    .V 11 (.o2 .add16 (.v 11) (.v 13)),  -- 3449
    .V 11 (.o2 .add16 (.v 11) (.v 14)),  -- 3450
    .V 11 (.o1 (.srli16 4) (.v 11)),  -- 3451
    .V 7 (.o2 .packus16 (.v 7) (.v 11)),  -- 3453
    .st 16 (.add (.pv (.n 8)) (.v 4)) (.v 7),  -- 3454
    .V 7 (.o2 .add16 (.v 20) (.v 21)),  -- 3456
    .V 8 (.o2 .add16 (.v 21) (.v 22)),  -- 3457
    .V 7 (.o2 .add16 (.v 7) (.v 8)),  -- 3458
    .V 7 (.o2 .add16 (.v 7) (.v 1)),  -- 3459
    .V 7 (.o1 (.srli16 2) (.v 7)),  -- 3460
    .V 11 (.o2 .add16 (.v 24) (.v 25)),  -- 3462
    .V 12 (.o2 .add16 (.v 25) (.v 26)),  -- 3463
    .V 11 (.o2 .add16 (.v 11) (.v 12)),  -- 3464
    .V 11 (.o2 .add16 (.v 11) (.v 1)),  -- 3465
    .V 11 (.o1 (.srli16 2) (.v 11))  -- 3466
  ]

/-- `intra_pred_ang_x_10_sse128`, vec/intrinsic_intra-pred.cc:3379-3469. -/
def x10S_6 : Stmt :=
  .run [
    .V 7 (.o2 .packus16 (.v 7) (.v 11)),  -- 3468
    .st 16 (.add (.pv (.n 9)) (.v 4)) (.v 7),  -- 3469
    .I 4 (.add (.v 4) (.n 16)),  -- 3379
    .P (.n 0) (.add (.pv (.n 0)) (.n 16))
  ]

/-- `intra_pred_ang_x_10_sse128`, vec/intrinsic_intra-pred.cc:3379. -/
def x10S_7 : Stmt :=
  .loop (.lt (.v 4) (.sub (.v 5) (.n 8))) (.seq x10S_3 (.seq x10S_4 (.seq x10S_5 x10S_6)))

/-- `intra_pred_ang_x_10_sse128`, vec/intrinsic_intra-pred.cc:3474-3501. -/
def x10S_8 : Stmt :=
  .run [
    .V 11 (.ld 16 (.pv (.n 0))),  -- 3474
    .V 12 (.ld 16 (.add (.pv (.n 0)) (.n 3))),  -- 3475
    .V 13 (.ld 16 (.add (.pv (.n 0)) (.n 1))),  -- 3476
    .V 14 (.ld 16 (.add (.pv (.n 0)) (.n 2))),  -- 3477
    .V 15 (.o2 .unpacklo8 (.v 11) (.v 0)),  -- 3479
    .V 16 (.o2 .unpacklo8 (.v 13) (.v 0)),  -- 3480
    .V 17 (.o2 .unpacklo8 (.v 14) (.v 0)),  -- 3481
    .V 18 (.o2 .unpacklo8 (.v 12) (.v 0)),  -- 3482
    .V 7 (.o2 .mullo16 (.v 15) (.v 2)),  -- 3484
    .V 8 (.o2 .mullo16 (.v 16) (.v 5)),  -- 3485
    .V 9 (.o2 .mullo16 (.v 17) (.v 4)),  -- 3486
    .V 10 (.o2 .add16 (.v 18) (.v 6)),  -- 3487
    .V 7 (.o2 .add16 (.v 7) (.v 10)),  -- 3488
    .V 7 (.o2 .add16 (.v 7) (.v 8)),  -- 3489
    .V 7 (.o2 .add16 (.v 7) (.v 9)),  -- 3490
    .V 7 (.o1 (.srli16 4) (.v 7)),  -- 3491
    .V 7 (.o2 .packus16 (.v 7) (.v 7)),  -- 3493
    .st 8 (.add (.pv (.n 6)) (.v 4)) (.v 7),  -- 3494
    .V 7 (.o2 .add16 (.v 16) (.v 17)),  -- 3496
    .V 7 (.o2 .mullo16 (.v 7) (.v 2)),  -- 3497
    .V 8 (.o2 .add16 (.v 15) (.v 18)),  -- 3498
    .V 8 (.o2 .add16 (.v 8) (.v 3)),  -- 3499
    .V 7 (.o2 .add16 (.v 8) (.v 7)),  -- 3500
    .V 7 (.o1 (.srli16 3) (.v 7))  -- 3501
  ]

/-- `intra_pred_ang_x_10_sse128`, vec/intrinsic_intra-pred.cc:3503-3525. -/
def x10S_9 : Stmt :=
  .run [
    .V 7 (.o2 .packus16 (.v 7) (.v 7)),  -- 3503
    .st 8 (.add (.pv (.n 7)) (.v 4)) (.v 7),  -- 3504
    .V 8 (.o2 .mullo16 (.v 16) (.v 4)),  -- 3506
    .V 9 (.o2 .mullo16 (.v 17) (.v 5)),  -- 3507
    .V 10 (.o2 .mullo16 (.v 18) (.v 2)),  -- 3508
    .V 7 (.o2 .add16 (.v 15) (.v 6)),  -- 3509
    .V 7 (.o2 .add16 (.v 7) (.v 8)),  -- 3510
    .V 7 (.o2 .add16 (.v 7) (.v 9)),  -- 3511
    .V 7 (.o2 .add16 (.v 7) (.v 10)),  -- 3512
    .V 7 (.o1 (.srli16 4) (.v 7)),  -- 3513
    .V 7 (.o2 .packus16 (.v 7) (.v 7)),  -- 3515
    .st 8 (.add (.pv (.n 8)) (.v 4)) (.v 7),  -- 3516
    .V 7 (.o2 .add16 (.v 16) (.v 17)),  -- 3518
    .V 8 (.o2 .add16 (.v 17) (.v 18)),  -- 3519
    .V 7 (.o2 .add16 (.v 7) (.v 8)),  -- 3520
    .V 7 (.o2 .add16 (.v 7) (.v 1)),  -- 3521
    .V 7 (.o1 (.srli16 2) (.v 7)),  -- 3522
    .V 7 (.o2 .packus16 (.v 7) (.v 7)),  -- 3524
    .st 8 (.add (.pv (.n 9)) (.v 4)) (.v 7)  -- 3525
  ]

/-- `intra_pred_ang_x_10_sse128`, vec/intrinsic_intra-pred.cc:3472. -/
def x10S_10 : Stmt :=
  .ite (.lt (.v 4) (.v 5)) (.seq x10S_8 x10S_9) (.run [])

/-- `intra_pred_ang_x_10_sse128`, vec/intrinsic_intra-pred.cc:3528. -/
def x10S_11 : Stmt :=
  .run [
    .I 3 (.shr (.v 3) 2)  -- 3528
  ]

/-- `intra_pred_ang_x_10_sse128`, vec/intrinsic_intra-pred.cc:3531. -/
def x10S_12 : Stmt :=
  .run [
    .I 7 (.shl (.v 0) 2)  -- 3531
  ]

/-- `intra_pred_ang_x_10_sse128`, vec/intrinsic_intra-pred.cc:3534. -/
def x10S_13 : Stmt :=
  .run [
    .I 4 (.n 0)  -- 3534
  ]

/-- `intra_pred_ang_x_10_sse128`, vec/intrinsic_intra-pred.cc:3534-3538. -/
def x10S_14 : Stmt :=
  .run [
    .cpy (.pv (.n 2)) (.add (.pv (.n 6)) (.v 4)) (.n 4),  -- 3535
    .P (.n 2) (.add (.pv (.n 2)) (.v 7)),
    .cpy (.pv (.n 3)) (.add (.pv (.n 7)) (.v 4)) (.n 4),  -- 3536
    .P (.n 3) (.add (.pv (.n 3)) (.v 7)),
    .cpy (.pv (.n 4)) (.add (.pv (.n 8)) (.v 4)) (.n 4),  -- 3537
    .P (.n 4) (.add (.pv (.n 4)) (.v 7)),
    .cpy (.pv (.n 5)) (.add (.pv (.n 9)) (.v 4)) (.n 4),  -- 3538
    .P (.n 5) (.add (.pv (.n 5)) (.v 7)),
    .I 4 (.add (.v 4) (.n 1))  -- 3534
  ]

/-- `intra_pred_ang_x_10_sse128`, vec/intrinsic_intra-pred.cc:3534. -/
def x10S_15 : Stmt :=
  .loop (.lt (.v 4) (.v 3)) x10S_14

/-- `intra_pred_ang_x_10_sse128`, vec/intrinsic_intra-pred.cc:3542. -/
def x10S_16 : Stmt :=
  .run [
    .I 4 (.n 0)  -- 3542
  ]

/-- `intra_pred_ang_x_10_sse128`, vec/intrinsic_intra-pred.cc:3542-3546. -/
def x10S_17 : Stmt :=
  .run [
    .cpy (.pv (.n 2)) (.add (.pv (.n 6)) (.v 4)) (.mul (.n 16) (.n 1)),  -- 3543
    .P (.n 2) (.add (.pv (.n 2)) (.v 7)),
    .cpy (.pv (.n 3)) (.add (.pv (.n 7)) (.v 4)) (.mul (.n 16) (.n 1)),  -- 3544
    .P (.n 3) (.add (.pv (.n 3)) (.v 7)),
    .cpy (.pv (.n 4)) (.add (.pv (.n 8)) (.v 4)) (.mul (.n 16) (.n 1)),  -- 3545
    .P (.n 4) (.add (.pv (.n 4)) (.v 7)),
    .cpy (.pv (.n 5)) (.add (.pv (.n 9)) (.v 4)) (.mul (.n 16) (.n 1)),  -- 3546
    .P (.n 5) (.add (.pv (.n 5)) (.v 7)),
    .I 4 (.add (.v 4) (.n 1))  -- 3542
  ]

/-- `intra_pred_ang_x_10_sse128`, vec/intrinsic_intra-pred.cc:3542. -/
def x10S_18 : Stmt :=
  .loop (.lt (.v 4) (.v 3)) x10S_17

/-- `intra_pred_ang_x_10_sse128`, vec/intrinsic_intra-pred.cc:3550. -/
def x10S_19 : Stmt :=
  .run [
    .I 4 (.n 0)  -- 3550
  ]

/-- `intra_pred_ang_x_10_sse128`, vec/intrinsic_intra-pred.cc:3550-3554. -/
def x10S_20 : Stmt :=
  .run [
    .cpy (.pv (.n 2)) (.add (.pv (.n 6)) (.v 4)) (.mul (.n 32) (.n 1)),  -- 3551
    .P (.n 2) (.add (.pv (.n 2)) (.v 7)),
    .cpy (.pv (.n 3)) (.add (.pv (.n 7)) (.v 4)) (.mul (.n 32) (.n 1)),  -- 3552
    .P (.n 3) (.add (.pv (.n 3)) (.v 7)),
    .cpy (.pv (.n 4)) (.add (.pv (.n 8)) (.v 4)) (.mul (.n 32) (.n 1)),  -- 3553
    .P (.n 4) (.add (.pv (.n 4)) (.v 7)),
    .cpy (.pv (.n 5)) (.add (.pv (.n 9)) (.v 4)) (.mul (.n 32) (.n 1)),  -- 3554
    .P (.n 5) (.add (.pv (.n 5)) (.v 7)),
    .I 4 (.add (.v 4) (.n 1))  -- 3550
  ]

/-- `intra_pred_ang_x_10_sse128`, vec/intrinsic_intra-pred.cc:3550. -/
def x10S_21 : Stmt :=
  .loop (.lt (.v 4) (.v 3)) x10S_20

/-- `intra_pred_ang_x_10_sse128`, vec/intrinsic_intra-pred.cc:3558. -/
def x10S_22 : Stmt :=
  .run [
    .I 4 (.n 0)  -- 3558
  ]

/-- `intra_pred_ang_x_10_sse128`, vec/intrinsic_intra-pred.cc:3558-3562. -/
def x10S_23 : Stmt :=
  .run [
    .cpy (.pv (.n 2)) (.add (.pv (.n 6)) (.v 4)) (.mul (.n 64) (.n 1)),  -- 3559
    .P (.n 2) (.add (.pv (.n 2)) (.v 7)),
    .cpy (.pv (.n 3)) (.add (.pv (.n 7)) (.v 4)) (.mul (.n 64) (.n 1)),  -- 3560
    .P (.n 3) (.add (.pv (.n 3)) (.v 7)),
    .cpy (.pv (.n 4)) (.add (.pv (.n 8)) (.v 4)) (.mul (.n 64) (.n 1)),  -- 3561
    .P (.n 4) (.add (.pv (.n 4)) (.v 7)),
    .cpy (.pv (.n 5)) (.add (.pv (.n 9)) (.v 4)) (.mul (.n 64) (.n 1)),  -- 3562
    .P (.n 5) (.add (.pv (.n 5)) (.v 7)),
    .I 4 (.add (.v 4) (.n 1))  -- 3558
  ]

/-- `intra_pred_ang_x_10_sse128`, vec/intrinsic_intra-pred.cc:3558. -/
def x10S_24 : Stmt :=
  .loop (.lt (.v 4) (.v 3)) x10S_23

/-- `intra_pred_ang_x_10_sse128`, vec/intrinsic_intra-pred.cc:3566. -/
def x10S_25 : Stmt :=
  .run [
    .bad  -- 3566
  ]

/-- `intra_pred_ang_x_10_sse128`, vec/intrinsic_intra-pred.cc:3532. -/
def x10S_26 : Stmt :=
  .ite (.eq (.v 2) (.n 64)) (.seq x10S_22 x10S_24) x10S_25

/-- `intra_pred_ang_x_10_sse128`, vec/intrinsic_intra-pred.cc:3532. -/
def x10S_27 : Stmt :=
  .ite (.eq (.v 2) (.n 32)) (.seq x10S_19 x10S_21) x10S_26

/-- `intra_pred_ang_x_10_sse128`, vec/intrinsic_intra-pred.cc:3532. -/
def x10S_28 : Stmt :=
  .ite (.eq (.v 2) (.n 16)) (.seq x10S_16 x10S_18) x10S_27

/-- `intra_pred_ang_x_10_sse128`, vec/intrinsic_intra-pred.cc:3532. -/
def x10S_29 : Stmt :=
  .ite (.eq (.v 2) (.n 4)) (.seq x10S_13 x10S_15) x10S_28

/-- `intra_pred_ang_x_10_sse128`, vec/intrinsic_intra-pred.cc:3572. -/
def x10S_30 : Stmt :=
  .run [
    .I 4 (.n 0)  -- 3572
  ]

/-- `intra_pred_ang_x_10_sse128`, vec/intrinsic_intra-pred.cc:3572-3580. -/
def x10S_31 : Stmt :=
  .run [
    .cpy (.pv (.n 2)) (.add (.pv (.n 6)) (.v 4)) (.n 8),  -- 3573
    .cpy (.pv (.n 3)) (.add (.pv (.n 7)) (.v 4)) (.n 8),  -- 3574
    .cpy (.pv (.n 4)) (.add (.pv (.n 8)) (.v 4)) (.n 8),  -- 3575
    .cpy (.pv (.n 5)) (.add (.pv (.n 9)) (.v 4)) (.n 8),  -- 3576
    .P (.n 2) (.add (.pv (.n 5)) (.v 0)),  -- 3577
    .P (.n 3) (.add (.pv (.n 2)) (.v 0)),  -- 3578
    .P (.n 4) (.add (.pv (.n 3)) (.v 0)),  -- 3579
    .P (.n 5) (.add (.pv (.n 4)) (.v 0)),  -- 3580
    .I 4 (.add (.v 4) (.n 1))  -- 3572
  ]

/-- `intra_pred_ang_x_10_sse128`, vec/intrinsic_intra-pred.cc:3572. -/
def x10S_32 : Stmt :=
  .loop (.lt (.v 4) (.v 3)) x10S_31

/-- `intra_pred_ang_x_10_sse128`, vec/intrinsic_intra-pred.cc:3583-3606. -/
def x10S_33 : Stmt :=
  .run [
    .V 7 (.ld 16 (.add (.pv (.n 6)) (.n 0))),  -- 3583
    .V 8 (.ld 16 (.add (.pv (.n 7)) (.n 0))),  -- 3584
    .V 9 (.ld 16 (.add (.pv (.n 8)) (.n 0))),  -- 3585
    .V 10 (.ld 16 (.add (.pv (.n 9)) (.n 0))),  -- 3586
    .st 8 (.pv (.n 2)) (.v 7),  -- 3587
    .st 8 (.pv (.n 3)) (.v 8),  -- 3588
    .st 8 (.pv (.n 4)) (.v 9),  -- 3589
    .st 8 (.pv (.n 5)) (.v 10),  -- 3590
    .P (.n 2) (.add (.pv (.n 5)) (.v 0)),  -- 3591
    .P (.n 3) (.add (.pv (.n 2)) (.v 0)),  -- 3592
    .P (.n 4) (.add (.pv (.n 3)) (.v 0)),  -- 3593
    .P (.n 5) (.add (.pv (.n 4)) (.v 0)),  -- 3594
    .V 7 (.o1 (.srliB 1) (.v 7)),  -- 3595
    .V 8 (.o1 (.srliB 1) (.v 8)),  -- 3596
    .V 9 (.o1 (.srliB 1) (.v 9)),  -- 3597
    .V 10 (.o1 (.srliB 1) (.v 10)),  -- 3598
    .st 8 (.pv (.n 2)) (.v 7),  -- 3599
    .st 8 (.pv (.n 3)) (.v 8),  -- 3600
    .st 8 (.pv (.n 4)) (.v 9),  -- 3601
    .st 8 (.pv (.n 5)) (.v 10),  -- 3602
    .P (.n 2) (.add (.pv (.n 5)) (.v 0)),  -- 3603
    .P (.n 3) (.add (.pv (.n 2)) (.v 0)),  -- 3604
    .P (.n 4) (.add (.pv (.n 3)) (.v 0)),  -- 3605
    .P (.n 5) (.add (.pv (.n 4)) (.v 0))  -- 3606
  ]

/-- `intra_pred_ang_x_10_sse128`, vec/intrinsic_intra-pred.cc:3607-3630. -/
def x10S_34 : Stmt :=
  .run [
    .V 7 (.o1 (.srliB 1) (.v 7)),  -- 3607
    .V 8 (.o1 (.srliB 1) (.v 8)),  -- 3608
    .V 9 (.o1 (.srliB 1) (.v 9)),  -- 3609
    .V 10 (.o1 (.srliB 1) (.v 10)),  -- 3610
    .st 8 (.pv (.n 2)) (.v 7),  -- 3611
    .st 8 (.pv (.n 3)) (.v 8),  -- 3612
    .st 8 (.pv (.n 4)) (.v 9),  -- 3613
    .st 8 (.pv (.n 5)) (.v 10),  -- 3614
    .P (.n 2) (.add (.pv (.n 5)) (.v 0)),  -- 3615
    .P (.n 3) (.add (.pv (.n 2)) (.v 0)),  -- 3616
    .P (.n 4) (.add (.pv (.n 3)) (.v 0)),  -- 3617
    .P (.n 5) (.add (.pv (.n 4)) (.v 0)),  -- 3618
    .V 7 (.o1 (.srliB 1) (.v 7)),  -- 3619
    .V 8 (.o1 (.srliB 1) (.v 8)),  -- 3620
    .V 9 (.o1 (.srliB 1) (.v 9)),  -- 3621
    .V 10 (.o1 (.srliB 1) (.v 10)),  -- 3622
    .st 8 (.pv (.n 2)) (.v 7),  -- 3623
    .st 8 (.pv (.n 3)) (.v 8),  -- 3624
    .st 8 (.pv (.n 4)) (.v 9),  -- 3625
    .st 8 (.pv (.n 5)) (.v 10),  -- 3626
    .P (.n 2) (.add (.pv (.n 5)) (.v 0)),  -- 3627
    .P (.n 3) (.add (.pv (.n 2)) (.v 0)),  -- 3628
    .P (.n 4) (.add (.pv (.n 3)) (.v 0)),  -- 3629
    .P (.n 5) (.add (.pv (.n 4)) (.v 0))  -- 3630
  ]

/-- `intra_pred_ang_x_10_sse128`, vec/intrinsic_intra-pred.cc:3631-3654. -/
def x10S_35 : Stmt :=
  .run [
    .V 7 (.o1 (.srliB 1) (.v 7)),  -- 3631
    .V 8 (.o1 (.srliB 1) (.v 8)),  -- 3632
    .V 9 (.o1 (.srliB 1) (.v 9)),  -- 3633
    .V 10 (.o1 (.srliB 1) (.v 10)),  -- 3634
    .st 8 (.pv (.n 2)) (.v 7),  -- 3635
    .st 8 (.pv (.n 3)) (.v 8),  -- 3636
    .st 8 (.pv (.n 4)) (.v 9),  -- 3637
    .st 8 (.pv (.n 5)) (.v 10),  -- 3638
    .P (.n 2) (.add (.pv (.n 5)) (.v 0)),  -- 3639
    .P (.n 3) (.add (.pv (.n 2)) (.v 0)),  -- 3640
    .P (.n 4) (.add (.pv (.n 3)) (.v 0)),  -- 3641
    .P (.n 5) (.add (.pv (.n 4)) (.v 0)),  -- 3642
    .V 7 (.o1 (.srliB 1) (.v 7)),  -- 3643
    .V 8 (.o1 (.srliB 1) (.v 8)),  -- 3644
    .V 9 (.o1 (.srliB 1) (.v 9)),  -- 3645
    .V 10 (.o1 (.srliB 1) (.v 10)),  -- 3646
    .st 8 (.pv (.n 2)) (.v 7),  -- 3647
    .st 8 (.pv (.n 3)) (.v 8),  -- 3648
    .st 8 (.pv (.n 4)) (.v 9),  -- 3649
    .st 8 (.pv (.n 5)) (.v 10),  -- 3650
    .P (.n 2) (.add (.pv (.n 5)) (.v 0)),  -- 3651
    .P (.n 3) (.add (.pv (.n 2)) (.v 0)),  -- 3652
    .P (.n 4) (.add (.pv (.n 3)) (.v 0)),  -- 3653
    .P (.n 5) (.add (.pv (.n 4)) (.v 0))  -- 3654
  ]

/-- `intra_pred_ang_x_10_sse128`, vec/intrinsic_intra-pred.cc:3655-3674. -/
def x10S_36 : Stmt :=
  .run [
    .V 7 (.o1 (.srliB 1) (.v 7)),  -- 3655
    .V 8 (.o1 (.srliB 1) (.v 8)),  -- 3656
    .V 9 (.o1 (.srliB 1) (.v 9)),  -- 3657
    .V 10 (.o1 (.srliB 1) (.v 10)),  -- 3658
    .st 8 (.pv (.n 2)) (.v 7),  -- 3659
    .st 8 (.pv (.n 3)) (.v 8),  -- 3660
    .st 8 (.pv (.n 4)) (.v 9),  -- 3661
    .st 8 (.pv (.n 5)) (.v 10),  -- 3662
    .P (.n 2) (.add (.pv (.n 5)) (.v 0)),  -- 3663
    .P (.n 3) (.add (.pv (.n 2)) (.v 0)),  -- 3664
    .P (.n 4) (.add (.pv (.n 3)) (.v 0)),  -- 3665
    .P (.n 5) (.add (.pv (.n 4)) (.v 0)),  -- 3666
    .V 7 (.o1 (.srliB 1) (.v 7)),  -- 3667
    .V 8 (.o1 (.srliB 1) (.v 8)),  -- 3668
    .V 9 (.o1 (.srliB 1) (.v 9)),  -- 3669
    .V 10 (.o1 (.srliB 1) (.v 10)),  -- 3670
    .st 8 (.pv (.n 2)) (.v 7),  -- 3671
    .st 8 (.pv (.n 3)) (.v 8),  -- 3672
    .st 8 (.pv (.n 4)) (.v 9),  -- 3673
    .st 8 (.pv (.n 5)) (.v 10)  -- 3674
  ]

/-- `intra_pred_ang_x_10_sse128`, vec/intrinsic_intra-pred.cc:3571. -/
def x10S_37 : Stmt :=
  .ite (.eq (.v 3) (.n 2)) (.seq x10S_30 x10S_32) (.seq x10S_33 (.seq x10S_34 (.seq x10S_35 x10S_36)))

/-- `intra_pred_ang_x_10_sse128`, vec/intrinsic_intra-pred.cc:3530. -/
def x10S_38 : Stmt :=
  .ite (.ne (.v 2) (.n 8)) (.seq x10S_12 x10S_29) x10S_37

/-- `intra_pred_ang_x_10_sse128`, vec/intrinsic_intra-pred.cc:3681-3708. -/
def x10S_39 : Stmt :=
  .run [
    .V 15 (.ld 16 (.pv (.n 0))),  -- 3681
    .V 16 (.ld 16 (.add (.pv (.n 0)) (.n 3))),  -- 3682
    .V 17 (.ld 16 (.add (.pv (.n 0)) (.n 1))),  -- 3683
    .V 18 (.ld 16 (.add (.pv (.n 0)) (.n 2))),  -- 3684
    .V 19 (.o2 .unpacklo8 (.v 15) (.v 0)),  -- 3686
    .V 20 (.o2 .unpacklo8 (.v 17) (.v 0)),  -- 3687
    .V 21 (.o2 .unpacklo8 (.v 18) (.v 0)),  -- 3688
    .V 22 (.o2 .unpacklo8 (.v 16) (.v 0)),  -- 3689
    .V 23 (.o2 .unpackhi8 (.v 15) (.v 0)),  -- 3691
    .V 24 (.o2 .unpackhi8 (.v 17) (.v 0)),  -- 3692
    .V 25 (.o2 .unpackhi8 (.v 18) (.v 0)),  -- 3693
    .V 26 (.o2 .unpackhi8 (.v 16) (.v 0)),  -- 3694
    .V 7 (.o2 .mullo16 (.v 19) (.v 2)),  -- 3696
    .V 8 (.o2 .mullo16 (.v 20) (.v 5)),  -- 3697
    .V 9 (.o2 .mullo16 (.v 21) (.v 4)),  -- 3698
    .V 10 (.o2 .add16 (.v 22) (.v 6)),  -- 3699
    .V 7 (.o2 .add16 (.v 7) (.v 10)),  -- 3700
    .V 7 (.o2 .add16 (.v 7) (.v 8)),  -- 3701
    .V 7 (.o2 .add16 (.v 7) (.v 9)),  -- 3702
    .V 7 (.o1 (.srli16 4) (.v 7)),  -- 3703
    .V 11 (.o2 .mullo16 (.v 23) (.v 2)),  -- 3705
    .V 12 (.o2 .mullo16 (.v 24) (.v 5)),  -- 3706
    .V 13 (.o2 .mullo16 (.v 25) (.v 4)),  -- 3707
    .V 14 (.o2 .add16 (.v 26) (.v 6))  -- 3708
  ]

/-- `intra_pred_ang_x_10_sse128`, vec/intrinsic_intra-pred.cc:3709-3737. -/
def x10S_40 : Stmt :=
  .run [
    .V 11 (.o2 .add16 (.v 11) (.v 14)),  -- 3709
    .V 11 (.o2 .add16 (.v 11) (.v 12)),  -- 3710
    .V 11 (.o2 .add16 (.v 11) (.v 13)),  -- 3711
    .V 11 (.o1 (.srli16 4) (.v 11)),  -- 3712
    .V 7 (.o2 .packus16 (.v 7) (.v 11)),  -- 3714
    .st 16 (.pv (.n 2)) (.v 7),  -- 3715
    .V 7 (.o2 .add16 (.v 20) (.v 21)),  -- 3717
    .V 7 (.o2 .mullo16 (.v 7) (.v 2)),  -- 3718
    .V 8 (.o2 .add16 (.v 19) (.v 22)),  -- 3719
    .V 8 (.o2 .add16 (.v 8) (.v 3)),  -- 3720
    .V 7 (.o2 .add16 (.v 8) (.v 7)),  -- 3721
    .V 7 (.o1 (.srli16 3) (.v 7)),  -- 3722
    .V 11 (.o2 .add16 (.v 24) (.v 25)),  -- 3724
    .V 11 (.o2 .mullo16 (.v 11) (.v 2)),  -- 3725
    .V 12 (.o2 .add16 (.v 23) (.v 26)),  -- 3726
    .V 12 (.o2 .add16 (.v 12) (.v 3)),  -- 3727
    .V 11 (.o2 .add16 (.v 12) (.v 11)),  -- 3728
    .V 11 (.o1 (.srli16 3) (.v 11)),  -- 3729
    .V 7 (.o2 .packus16 (.v 7) (.v 11)),  -- 3731
    .st 16 (.pv (.n 3)) (.v 7),  -- 3732
    .V 8 (.o2 .mullo16 (.v 20) (.v 4)),  -- 3734
    .V 9 (.o2 .mullo16 (.v 21) (.v 5)),  -- 3735
    .V 10 (.o2 .mullo16 (.v 22) (.v 2)),  -- 3736
    .V 7 (.o2 .add16 (.v 19) (.v 6))  -- 3737
  ]

/-- `intra_pred_ang_x_10_sse128`, vec/intrinsic_intra-pred.cc:3738-3765. -/
def x10S_41 : Stmt :=
  .run [
    .V 7 (.o2 .add16 (.v 7) (.v 8)),  -- 3738
    .V 7 (.o2 .add16 (.v 7) (.v 9)),  -- 3739
    .V 7 (.o2 .add16 (.v 7) (.v 10)),  -- 3740
    .V 7 (.o1 (.srli16 4) (.v 7)),  -- 3741
    .V 12 (.o2 .mullo16 (.v 24) (.v 4)),  -- 3743
    .V 13 (.o2 .mullo16 (.v 25) (.v 5)),  -- 3744
    .V 14 (.o2 .mullo16 (.v 26) (.v 2)),  -- 3745
    .V 11 (.o2 .add16 (.v 23) (.v 6)),  -- 3746
    .V 11 (.o2 .add16 (.v 11) (.v 12)),  -- 3747
    .V 11 (.o2 .add16 (.v 11) (.v 13)),  -- 3748
    .V 11 (.o2 .add16 (.v 11) (.v 14)),  -- 3749
    .V 11 (.o1 (.srli16 4) (.v 11)),  -- 3750
    .V 7 (.o2 .packus16 (.v 7) (.v 11)),  -- 3752
    .st 16 (.pv (.n 4)) (.v 7),  -- 3753
    .V 7 (.o2 .add16 (.v 20) (.v 21)),  -- 3755
    .V 8 (.o2 .add16 (.v 21) (.v 22)),  -- 3756
    .V 7 (.o2 .add16 (.v 7) (.v 8)),  -- 3757
    .V 7 (.o2 .add16 (.v 7) (.v 1)),  -- 3758
    .V 7 (.o1 (.srli16 2) (.v 7)),  -- 3759
    .V 11 (.o2 .add16 (.v 24) (.v 25)),  -- 3761
    .V 12 (.o2 .add16 (.v 25) (.v 26)),  -- 3762
    .V 11 (.o2 .add16 (.v 11) (.v 12)),  -- 3763
    .V 11 (.o2 .add16 (.v 11) (.v 1)),  -- 3764
    .V 11 (.o1 (.srli16 2) (.v 11))  -- 3765
  ]

/-- `intra_pred_ang_x_10_sse128`, vec/intrinsic_intra-pred.cc:3767-3768. -/
def x10S_42 : Stmt :=
  .run [
    .V 7 (.o2 .packus16 (.v 7) (.v 11)),  -- 3767
    .st 16 (.pv (.n 5)) (.v 7)  -- 3768
  ]

/-- `intra_pred_ang_x_10_sse128`, vec/intrinsic_intra-pred.cc:3771-3798. -/
def x10S_43 : Stmt :=
  .run [
    .V 11 (.ld 16 (.pv (.n 0))),  -- 3771
    .V 12 (.ld 16 (.add (.pv (.n 0)) (.n 3))),  -- 3772
    .V 13 (.ld 16 (.add (.pv (.n 0)) (.n 1))),  -- 3773
    .V 14 (.ld 16 (.add (.pv (.n 0)) (.n 2))),  -- 3774
    .V 15 (.o2 .unpacklo8 (.v 11) (.v 0)),  -- 3776
    .V 16 (.o2 .unpacklo8 (.v 13) (.v 0)),  -- 3777
    .V 17 (.o2 .unpacklo8 (.v 14) (.v 0)),  -- 3778
    .V 18 (.o2 .unpacklo8 (.v 12) (.v 0)),  -- 3779
    .V 7 (.o2 .mullo16 (.v 15) (.v 2)),  -- 3781
    .V 8 (.o2 .mullo16 (.v 16) (.v 5)),  -- 3782
    .V 9 (.o2 .mullo16 (.v 17) (.v 4)),  -- 3783
    .V 10 (.o2 .add16 (.v 18) (.v 6)),  -- 3784
    .V 7 (.o2 .add16 (.v 7) (.v 10)),  -- 3785
    .V 7 (.o2 .add16 (.v 7) (.v 8)),  -- 3786
    .V 7 (.o2 .add16 (.v 7) (.v 9)),  -- 3787
    .V 7 (.o1 (.srli16 4) (.v 7)),  -- 3788
    .V 7 (.o2 .packus16 (.v 7) (.v 7)),  -- 3790
    .st 4 (.pv (.n 2)) (.v 7),  -- 3791
    .V 7 (.o2 .add16 (.v 16) (.v 17)),  -- 3793
    .V 7 (.o2 .mullo16 (.v 7) (.v 2)),  -- 3794
    .V 8 (.o2 .add16 (.v 15) (.v 18)),  -- 3795
    .V 8 (.o2 .add16 (.v 8) (.v 3)),  -- 3796
    .V 7 (.o2 .add16 (.v 8) (.v 7)),  -- 3797
    .V 7 (.o1 (.srli16 3) (.v 7))  -- 3798
  ]

/-- `intra_pred_ang_x_10_sse128`, vec/intrinsic_intra-pred.cc:3800-3822. -/
def x10S_44 : Stmt :=
  .run [
    .V 7 (.o2 .packus16 (.v 7) (.v 7)),  -- 3800
    .st 4 (.pv (.n 3)) (.v 7),  -- 3801
    .V 8 (.o2 .mullo16 (.v 16) (.v 4)),  -- 3803
    .V 9 (.o2 .mullo16 (.v 17) (.v 5)),  -- 3804
    .V 10 (.o2 .mullo16 (.v 18) (.v 2)),  -- 3805
    .V 7 (.o2 .add16 (.v 15) (.v 6)),  -- 3806
    .V 7 (.o2 .add16 (.v 7) (.v 8)),  -- 3807
    .V 7 (.o2 .add16 (.v 7) (.v 9)),  -- 3808
    .V 7 (.o2 .add16 (.v 7) (.v 10)),  -- 3809
    .V 7 (.o1 (.srli16 4) (.v 7)),  -- 3810
    .V 7 (.o2 .packus16 (.v 7) (.v 7)),  -- 3812
    .st 4 (.pv (.n 4)) (.v 7),  -- 3813
    .V 7 (.o2 .add16 (.v 16) (.v 17)),  -- 3815
    .V 8 (.o2 .add16 (.v 17) (.v 18)),  -- 3816
    .V 7 (.o2 .add16 (.v 7) (.v 8)),  -- 3817
    .V 7 (.o2 .add16 (.v 7) (.v 1)),  -- 3818
    .V 7 (.o1 (.srli16 2) (.v 7)),  -- 3819
    .V 7 (.o2 .packus16 (.v 7) (.v 7)),  -- 3821
    .st 4 (.pv (.n 5)) (.v 7)  -- 3822
  ]

/-- `intra_pred_ang_x_10_sse128`, vec/intrinsic_intra-pred.cc:3678. -/
def x10S_45 : Stmt :=
  .ite (.eq (.v 2) (.n 16)) (.seq x10S_39 (.seq x10S_40 (.seq x10S_41 x10S_42))) (.seq x10S_43 x10S_44)

/-- `intra_pred_ang_x_10_sse128`, vec/intrinsic_intra-pred.cc:3368. -/
def x10S_46 : Stmt :=
  .ite (.ne (.v 3) (.n 4)) (.seq x10S_2 (.seq x10S_7 (.seq x10S_10 (.seq x10S_11 x10S_38)))) x10S_45

/-- `intra_pred_ang_x_10_sse128`, source/common/vec/intrinsic_intra-pred.cc:3351-3826.  Variables:
I: 0 i_dst, 1 dir_mode, 2 bsx, 3 bsy, 4 i, 5 line_size, 6 aligned_line_size, 7 i_dstx4;
P: 0 src, 1 dst, 2 dst1, 3 dst2, 4 dst3, 5 dst4, 6 pfirst;
V: 0 zero, 1 coeff2, 2 coeff3, 3 coeff4, 4 coeff5, 5 coeff7, 6 coeff8, 7 p00/M1, 8 p10/M2, 9 p20/M3, 10 p30/M4, 11 p01/S0, 12 p11/S3, 13 p21/S1, 14 p31/S2, 15 S0/L0, 16 S3/L1, 17 S1/L2, 18 S2/L3, 19 L0, 20 L1, 21 L2, 22 L3, 23 H0, 24 H1, 25 H2, 26 H3. -/
def x10S : Stmt :=
  .seq x10S_1 x10S_46

end Davs2.Vp
