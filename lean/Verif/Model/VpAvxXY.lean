import Verif.Model.VpSseXY
/-
The vector routines of directional intra prediction, statement by statement in the language of Model/VecProg.lean;
the number after `--` is the line of source/common/vec/intrinsic_intra-pred_avx2.cc.
Routines: intra_pred_ang_xy_13_avx, intra_pred_ang_xy_14_avx, intra_pred_ang_xy_16_avx, intra_pred_ang_xy_18_avx, intra_pred_ang_xy_20_avx, intra_pred_ang_xy_22_avx, intra_pred_ang_xy_23_avx.
-/
namespace Davs2.Vp

/-- `intra_pred_ang_xy_13_avx`, vec/intrinsic_intra-pred_avx2.cc:4843-4870. -/
def xy13A_1 : Stmt :=
  .run [
    .V 0 (.set1_16 (.n 2)),  -- 4843
    .V 1 (.set1_16 (.n 3)),  -- 4844
    .V 2 (.set1_16 (.n 4)),  -- 4845
    .V 3 (.set1_16 (.n 5)),  -- 4846
    .V 4 (.set1_16 (.n 7)),  -- 4847
    .V 5 (.set1_16 (.n 8)),  -- 4848
    .V 6 (.set1_16 (.n 9)),  -- 4849
    .V 7 (.set1_16 (.n 11)),  -- 4850
    .V 8 (.set1_16 (.n 13)),  -- 4851
    .V 9 (.set1_16 (.n 15)),  -- 4852
    .V 10 (.set1_16 (.n 16)),  -- 4853
    .alloc 0 640,  -- 4855
    .I 5 (.sub (.add (.v 2) (.shr (.v 3) 3)) (.n 1)),  -- 4856
    .I 6 (.sub (.v 5) (.v 2)),  -- 4857
    .I 7 (.shl (.shr (.add (.v 5) (.n 15)) 4) 4),  -- 4858
    .P (.n 2) (.pa 0),  -- 4861
    .P (.n 3) (.add (.pv (.n 2)) (.v 7)),  -- 4862
    .P (.n 4) (.add (.pv (.n 3)) (.v 7)),  -- 4863
    .P (.n 5) (.add (.pv (.n 4)) (.v 7)),  -- 4864
    .P (.n 6) (.add (.pv (.n 5)) (.v 7)),  -- 4865
    .P (.n 7) (.add (.pv (.n 6)) (.v 7)),  -- 4866
    .P (.n 8) (.add (.pv (.n 7)) (.v 7)),  -- 4867
    .P (.n 9) (.add (.pv (.n 8)) (.v 7)),  -- 4868
    .P (.n 0) (.sub (.pv (.n 0)) (.sub (.v 3) (.n 8)))  -- 4870
  ]

/-- `intra_pred_ang_xy_13_avx`, vec/intrinsic_intra-pred_avx2.cc:4871. -/
def xy13A_2 : Stmt :=
  .run [
    .I 4 (.n 0)  -- 4871
  ]

/-- `intra_pred_ang_xy_13_avx`, vec/intrinsic_intra-pred_avx2.cc:4871-4880. -/
def xy13A_3 : Stmt :=
  .run [
    .st1 (.add (.pv (.n 2)) (.v 4)) (.shr (.add (.add (.add (.ld (.add (.pv (.n 0)) (.n 6))) (.mul 2 (.ld (.add (.pv (.n 0)) (.n 7))))) (.ld (.add (.pv (.n 0)) (.n 8)))) (.n 2)) 2),  -- 4872
    .st1 (.add (.pv (.n 3)) (.v 4)) (.shr (.add (.add (.add (.ld (.add (.pv (.n 0)) (.n 5))) (.mul 2 (.ld (.add (.pv (.n 0)) (.n 6))))) (.ld (.add (.pv (.n 0)) (.n 7)))) (.n 2)) 2),  -- 4873
    .st1 (.add (.pv (.n 4)) (.v 4)) (.shr (.add (.add (.add (.ld (.add (.pv (.n 0)) (.n 4))) (.mul 2 (.ld (.add (.pv (.n 0)) (.n 5))))) (.ld (.add (.pv (.n 0)) (.n 6)))) (.n 2)) 2),  -- 4874
    .st1 (.add (.pv (.n 5)) (.v 4)) (.shr (.add (.add (.add (.ld (.add (.pv (.n 0)) (.n 3))) (.mul 2 (.ld (.add (.pv (.n 0)) (.n 4))))) (.ld (.add (.pv (.n 0)) (.n 5)))) (.n 2)) 2),  -- 4875
    .st1 (.add (.pv (.n 6)) (.v 4)) (.shr (.add (.add (.add (.ld (.add (.pv (.n 0)) (.n 2))) (.mul 2 (.ld (.add (.pv (.n 0)) (.n 3))))) (.ld (.add (.pv (.n 0)) (.n 4)))) (.n 2)) 2),  -- 4877
    .st1 (.add (.pv (.n 7)) (.v 4)) (.shr (.add (.add (.add (.ld (.add (.pv (.n 0)) (.n 1))) (.mul 2 (.ld (.add (.pv (.n 0)) (.n 2))))) (.ld (.add (.pv (.n 0)) (.n 3)))) (.n 2)) 2),  -- 4878
    .st1 (.add (.pv (.n 8)) (.v 4)) (.shr (.add (.add (.add (.ld (.add (.pv (.n 0)) (.n 0))) (.mul 2 (.ld (.add (.pv (.n 0)) (.n 1))))) (.ld (.add (.pv (.n 0)) (.n 2)))) (.n 2)) 2),  -- 4879
    .st1 (.add (.pv (.n 9)) (.v 4)) (.shr (.add (.add (.add (.ld (.add (.pv (.n 0)) (.n (-1)))) (.mul 2 (.ld (.add (.pv (.n 0)) (.n 0))))) (.ld (.add (.pv (.n 0)) (.n 1)))) (.n 2)) 2),  -- 4880
    .I 4 (.add (.v 4) (.n 1)),  -- 4871
    .P (.n 0) (.add (.pv (.n 0)) (.n 8))
  ]

/-- `intra_pred_ang_xy_13_avx`, vec/intrinsic_intra-pred_avx2.cc:4871. -/
def xy13A_4 : Stmt :=
  .loop (.lt (.v 4) (.v 6)) xy13A_3

/-- `intra_pred_ang_xy_13_avx`, vec/intrinsic_intra-pred_avx2.cc:4891-4918. -/
def xy13A_5 : Stmt :=
  .run [
    .V 19 (.ld 32 (.add (.pv (.n 0)) (.n 2))),  -- 4891
    .V 20 (.ld 32 (.add (.pv (.n 0)) (.n 1))),  -- 4892
    .V 21 (.ld 32 (.pv (.n 0))),  -- 4893
    .V 22 (.ld 32 (.sub (.pv (.n 0)) (.n 1))),  -- 4894
    .V 23 (.o1 .cvtu8 (.o1 (.half 0) (.v 19))),  -- 4896
    .V 24 (.o1 .cvtu8 (.o1 (.half 0) (.v 20))),  -- 4897
    .V 25 (.o1 .cvtu8 (.o1 (.half 0) (.v 21))),  -- 4898
    .V 26 (.o1 .cvtu8 (.o1 (.half 0) (.v 22))),  -- 4899
    .V 27 (.o1 .cvtu8 (.o1 (.half 1) (.v 19))),  -- 4901
    .V 28 (.o1 .cvtu8 (.o1 (.half 1) (.v 20))),  -- 4902
    .V 29 (.o1 .cvtu8 (.o1 (.half 1) (.v 21))),  -- 4903
    .V 30 (.o1 .cvtu8 (.o1 (.half 1) (.v 22))),  -- 4904
    .V 11 (.o2 .mullo16 (.v 23) (.v 4)),  -- 4906
    .V 12 (.o2 .mullo16 (.v 24) (.v 9)),  -- 4907
    .V 13 (.o2 .mullo16 (.v 25) (.v 6)),  -- 4908
    .V 14 (.o2 .add16 (.v 26) (.v 10)),  -- 4909
    .V 11 (.o2 .add16 (.v 11) (.v 12)),  -- 4910
    .V 11 (.o2 .add16 (.v 11) (.v 13)),  -- 4911
    .V 11 (.o2 .add16 (.v 11) (.v 14)),  -- 4912
    .V 11 (.o1 (.srli16 5) (.v 11)),  -- 4913
    .V 15 (.o2 .mullo16 (.v 27) (.v 4)),  -- 4915
    .V 16 (.o2 .mullo16 (.v 28) (.v 9)),  -- 4916
    .V 17 (.o2 .mullo16 (.v 29) (.v 6)),  -- 4917
    .V 18 (.o2 .add16 (.v 30) (.v 10))  -- 4918
  ]

/-- `intra_pred_ang_xy_13_avx`, vec/intrinsic_intra-pred_avx2.cc:4919-4947. -/
def xy13A_6 : Stmt :=
  .run [
    .V 15 (.o2 .add16 (.v 15) (.v 16)),  -- 4919
    .V 15 (.o2 .add16 (.v 15) (.v 17)),  -- 4920
    .V 15 (.o2 .add16 (.v 15) (.v 18)),  -- 4921
    .V 15 (.o1 (.srli16 5) (.v 15)),  -- 4922
    .V 11 (.o2 .packus16y (.v 11) (.v 15)),  -- 4924
    .V 11 (.o1 (.perm4 216) (.v 11)),  -- 4925
    .st 32 (.add (.pv (.n 2)) (.v 4)) (.v 11),  -- 4927
    .V 11 (.o2 .mullo16 (.v 23) (.v 1)),  -- 4929
    .V 12 (.o2 .mullo16 (.v 24) (.v 4)),  -- 4930
    .V 13 (.o2 .mullo16 (.v 25) (.v 3)),  -- 4931
    .V 14 (.o2 .add16 (.v 26) (.v 5)),  -- 4932
    .V 11 (.o2 .add16 (.v 11) (.v 12)),  -- 4933
    .V 11 (.o2 .add16 (.v 11) (.v 13)),  -- 4934
    .V 11 (.o2 .add16 (.v 11) (.v 14)),  -- 4935
    .V 11 (.o1 (.srli16 4) (.v 11)),  -- 4936
    .V 15 (.o2 .mullo16 (.v 27) (.v 1)),  -- 4938
    .V 16 (.o2 .mullo16 (.v 28) (.v 4)),  -- 4939
    .V 17 (.o2 .mullo16 (.v 29) (.v 3)),  -- 4940
    .V 18 (.o2 .add16 (.v 30) (.v 5)),  -- 4941
    .V 15 (.o2 .add16 (.v 15) (.v 16)),  -- 4942
    .V 15 (.o2 .add16 (.v 15) (.v 17)),  -- 4943
    .V 15 (.o2 .add16 (.v 15) (.v 18)),  -- 4944
    .V 15 (.o1 (.srli16 4) (.v 15)),  -- 4945
    .V 11 (.o2 .packus16y (.v 11) (.v 15))  -- 4947
  ]

/-- `intra_pred_ang_xy_13_avx`, vec/intrinsic_intra-pred_avx2.cc:4948-4976. -/
def xy13A_7 : Stmt :=
  .run [
    .V 11 (.o1 (.perm4 216) (.v 11)),  -- 4948
    .st 32 (.add (.pv (.n 3)) (.v 4)) (.v 11),  -- 4949
    .V 11 (.o2 .mullo16 (.v 23) (.v 3)),  -- 4952
    .V 12 (.o2 .mullo16 (.v 24) (.v 8)),  -- 4953
    .V 13 (.o2 .mullo16 (.v 25) (.v 7)),  -- 4954
    .V 14 (.o2 .mullo16 (.v 26) (.v 1)),  -- 4955
    .V 11 (.o2 .add16 (.v 11) (.v 10)),  -- 4956
    .V 11 (.o2 .add16 (.v 11) (.v 12)),  -- 4957
    .V 11 (.o2 .add16 (.v 11) (.v 13)),  -- 4958
    .V 11 (.o2 .add16 (.v 11) (.v 14)),  -- 4959
    .V 11 (.o1 (.srli16 5) (.v 11)),  -- 4960
    .V 15 (.o2 .mullo16 (.v 27) (.v 3)),  -- 4962
    .V 16 (.o2 .mullo16 (.v 28) (.v 8)),  -- 4963
    .V 17 (.o2 .mullo16 (.v 29) (.v 7)),  -- 4964
    .V 18 (.o2 .mullo16 (.v 30) (.v 1)),  -- 4965
    .V 15 (.o2 .add16 (.v 15) (.v 10)),  -- 4966
    .V 15 (.o2 .add16 (.v 15) (.v 16)),  -- 4967
    .V 15 (.o2 .add16 (.v 15) (.v 17)),  -- 4968
    .V 15 (.o2 .add16 (.v 15) (.v 18)),  -- 4969
    .V 15 (.o1 (.srli16 5) (.v 15)),  -- 4970
    .V 11 (.o2 .packus16y (.v 11) (.v 15)),  -- 4972
    .V 11 (.o1 (.perm4 216) (.v 11)),  -- 4973
    .st 32 (.add (.pv (.n 4)) (.v 4)) (.v 11),  -- 4974
    .V 11 (.o2 .add16 (.v 23) (.v 26))  -- 4976
  ]

/-- `intra_pred_ang_xy_13_avx`, vec/intrinsic_intra-pred_avx2.cc:4977-5004. -/
def xy13A_8 : Stmt :=
  .run [
    .V 12 (.o2 .add16 (.v 24) (.v 25)),  -- 4977
    .V 12 (.o2 .mullo16 (.v 12) (.v 1)),  -- 4978
    .V 11 (.o2 .add16 (.v 11) (.v 12)),  -- 4979
    .V 11 (.o2 .add16 (.v 11) (.v 2)),  -- 4980
    .V 11 (.o1 (.srli16 3) (.v 11)),  -- 4981
    .V 15 (.o2 .add16 (.v 27) (.v 30)),  -- 4983
    .V 16 (.o2 .add16 (.v 28) (.v 29)),  -- 4984
    .V 16 (.o2 .mullo16 (.v 16) (.v 1)),  -- 4985
    .V 15 (.o2 .add16 (.v 15) (.v 16)),  -- 4986
    .V 15 (.o2 .add16 (.v 15) (.v 2)),  -- 4987
    .V 15 (.o1 (.srli16 3) (.v 15)),  -- 4988
    .V 11 (.o2 .packus16y (.v 11) (.v 15)),  -- 4990
    .V 11 (.o1 (.perm4 216) (.v 11)),  -- 4991
    .st 32 (.add (.pv (.n 5)) (.v 4)) (.v 11),  -- 4992
    .V 11 (.o2 .mullo16 (.v 23) (.v 1)),  -- 4994
    .V 12 (.o2 .mullo16 (.v 24) (.v 7)),  -- 4995
    .V 13 (.o2 .mullo16 (.v 25) (.v 8)),  -- 4996
    .V 14 (.o2 .mullo16 (.v 26) (.v 3)),  -- 4997
    .V 11 (.o2 .add16 (.v 11) (.v 10)),  -- 4998
    .V 11 (.o2 .add16 (.v 11) (.v 12)),  -- 4999
    .V 11 (.o2 .add16 (.v 11) (.v 13)),  -- 5000
    .V 11 (.o2 .add16 (.v 11) (.v 14)),  -- 5001
    .V 11 (.o1 (.srli16 5) (.v 11)),  -- 5002
    .V 15 (.o2 .mullo16 (.v 27) (.v 1))  -- 5004
  ]

/-- `intra_pred_ang_xy_13_avx`, vec/intrinsic_intra-pred_avx2.cc:5005-5031. -/
def xy13A_9 : Stmt :=
  .run [
    .V 16 (.o2 .mullo16 (.v 28) (.v 7)),  -- 5005
    .V 17 (.o2 .mullo16 (.v 29) (.v 8)),  -- 5006
    .V 18 (.o2 .mullo16 (.v 30) (.v 3)),  -- 5007
    .V 15 (.o2 .add16 (.v 15) (.v 10)),  -- 5008
    .V 15 (.o2 .add16 (.v 15) (.v 16)),  -- 5009
    .V 15 (.o2 .add16 (.v 15) (.v 17)),  -- 5010
    .V 15 (.o2 .add16 (.v 15) (.v 18)),  -- 5011
    .V 15 (.o1 (.srli16 5) (.v 15)),  -- 5012
    .V 11 (.o2 .packus16y (.v 11) (.v 15)),  -- 5014
    .V 11 (.o1 (.perm4 216) (.v 11)),  -- 5015
    .st 32 (.add (.pv (.n 6)) (.v 4)) (.v 11),  -- 5016
    .V 12 (.o2 .mullo16 (.v 24) (.v 3)),  -- 5018
    .V 13 (.o2 .mullo16 (.v 25) (.v 4)),  -- 5019
    .V 14 (.o2 .mullo16 (.v 26) (.v 1)),  -- 5020
    .V 11 (.o2 .add16 (.v 23) (.v 5)),  -- 5021
    .V 11 (.o2 .add16 (.v 11) (.v 12)),  -- 5022
    .V 11 (.o2 .add16 (.v 11) (.v 13)),  -- 5023
    .V 11 (.o2 .add16 (.v 11) (.v 14)),  -- 5024
    .V 11 (.o1 (.srli16 4) (.v 11)),  -- 5025
    .V 16 (.o2 .mullo16 (.v 28) (.v 3)),  -- 5027
    .V 17 (.o2 .mullo16 (.v 29) (.v 4)),  -- 5028
    .V 18 (.o2 .mullo16 (.v 30) (.v 1)),  -- 5029
    .V 15 (.o2 .add16 (.v 27) (.v 5)),  -- 5030
    .V 15 (.o2 .add16 (.v 15) (.v 16))  -- 5031
  ]

/-- `intra_pred_ang_xy_13_avx`, vec/intrinsic_intra-pred_avx2.cc:5032-5059. -/
def xy13A_10 : Stmt :=
  .run [
    .V 15 (.o2 .add16 (.v 15) (.v 17)),  -- 5032
    .V 15 (.o2 .add16 (.v 15) (.v 18)),  -- 5033
    .V 15 (.o1 (.srli16 4) (.v 15)),  -- 5034
    .V 11 (.o2 .packus16y (.v 11) (.v 15)),  -- 5036
    .V 11 (.o1 (.perm4 216) (.v 11)),  -- 5037
    .st 32 (.add (.pv (.n 7)) (.v 4)) (.v 11),  -- 5038
    .V 12 (.o2 .mullo16 (.v 24) (.v 6)),  -- 5040
    .V 13 (.o2 .mullo16 (.v 25) (.v 9)),  -- 5041
    .V 14 (.o2 .mullo16 (.v 26) (.v 4)),  -- 5042
    .V 11 (.o2 .add16 (.v 23) (.v 10)),  -- 5043
    .V 11 (.o2 .add16 (.v 11) (.v 12)),  -- 5044
    .V 11 (.o2 .add16 (.v 11) (.v 13)),  -- 5045
    .V 11 (.o2 .add16 (.v 11) (.v 14)),  -- 5046
    .V 11 (.o1 (.srli16 5) (.v 11)),  -- 5047
    .V 16 (.o2 .mullo16 (.v 28) (.v 6)),  -- 5049
    .V 17 (.o2 .mullo16 (.v 29) (.v 9)),  -- 5050
    .V 18 (.o2 .mullo16 (.v 30) (.v 4)),  -- 5051
    .V 15 (.o2 .add16 (.v 27) (.v 10)),  -- 5052
    .V 15 (.o2 .add16 (.v 15) (.v 16)),  -- 5053
    .V 15 (.o2 .add16 (.v 15) (.v 17)),  -- 5054
    .V 15 (.o2 .add16 (.v 15) (.v 18)),  -- 5055
    .V 15 (.o1 (.srli16 5) (.v 15)),  -- 5056
    .V 11 (.o2 .packus16y (.v 11) (.v 15)),  -- 5058
    .V 11 (.o1 (.perm4 216) (.v 11))  -- 5059
  ]

/-- `intra_pred_ang_xy_13_avx`, vec/intrinsic_intra-pred_avx2.cc:4889-5076. -/
def xy13A_11 : Stmt :=
  .run [
    .st 32 (.add (.pv (.n 8)) (.v 4)) (.v 11),  -- 5060
    .V 12 (.o2 .mullo16 (.v 25) (.v 0)),  -- 5062
    .V 11 (.o2 .add16 (.v 24) (.v 26)),  -- 5063
    .V 11 (.o2 .add16 (.v 11) (.v 0)),  -- 5064
    .V 11 (.o2 .add16 (.v 11) (.v 12)),  -- 5065
    .V 11 (.o1 (.srli16 2) (.v 11)),  -- 5066
    .V 16 (.o2 .mullo16 (.v 29) (.v 0)),  -- 5068
    .V 15 (.o2 .add16 (.v 28) (.v 30)),  -- 5069
    .V 15 (.o2 .add16 (.v 15) (.v 0)),  -- 5070
    .V 15 (.o2 .add16 (.v 15) (.v 16)),  -- 5071
    .V 15 (.o1 (.srli16 2) (.v 15)),  -- 5072
    .V 11 (.o2 .packus16y (.v 11) (.v 15)),  -- 5074
    .V 11 (.o1 (.perm4 216) (.v 11)),  -- 5075
    .st 32 (.add (.pv (.n 9)) (.v 4)) (.v 11),  -- 5076
    .I 4 (.add (.v 4) (.n 32)),  -- 4889
    .P (.n 0) (.add (.pv (.n 0)) (.n 32))
  ]

/-- `intra_pred_ang_xy_13_avx`, vec/intrinsic_intra-pred_avx2.cc:4889. -/
def xy13A_12 : Stmt :=
  .loop (.lt (.v 4) (.sub (.v 5) (.n 16))) (.seq xy13A_5 (.seq xy13A_6 (.seq xy13A_7 (.seq xy13A_8 (.seq xy13A_9 (.seq xy13A_10 xy13A_11))))))

/-- `intra_pred_ang_xy_13_avx`, vec/intrinsic_intra-pred_avx2.cc:5079. -/
def xy13A_13 : Stmt :=
  .run [
    .V 31 (.mask 16 (.sub (.v 2) (.n 1)))  -- 5079
  ]

/-- `intra_pred_ang_xy_13_avx`, vec/intrinsic_intra-pred_avx2.cc:5083-5110. -/
def xy13A_14 : Stmt :=
  .run [
    .V 19 (.ld 32 (.add (.pv (.n 0)) (.n 2))),  -- 5083
    .V 20 (.ld 32 (.add (.pv (.n 0)) (.n 1))),  -- 5084
    .V 21 (.ld 32 (.pv (.n 0))),  -- 5085
    .V 22 (.ld 32 (.sub (.pv (.n 0)) (.n 1))),  -- 5086
    .V 23 (.o1 .cvtu8 (.o1 (.half 0) (.v 19))),  -- 5088
    .V 24 (.o1 .cvtu8 (.o1 (.half 0) (.v 20))),  -- 5089
    .V 25 (.o1 .cvtu8 (.o1 (.half 0) (.v 21))),  -- 5090
    .V 26 (.o1 .cvtu8 (.o1 (.half 0) (.v 22))),  -- 5091
    .V 11 (.o2 .mullo16 (.v 23) (.v 4)),  -- 5093
    .V 12 (.o2 .mullo16 (.v 24) (.v 9)),  -- 5094
    .V 13 (.o2 .mullo16 (.v 25) (.v 6)),  -- 5095
    .V 14 (.o2 .add16 (.v 26) (.v 10)),  -- 5096
    .V 11 (.o2 .add16 (.v 11) (.v 12)),  -- 5097
    .V 11 (.o2 .add16 (.v 11) (.v 13)),  -- 5098
    .V 11 (.o2 .add16 (.v 11) (.v 14)),  -- 5099
    .V 11 (.o1 (.srli16 5) (.v 11)),  -- 5100
    .V 11 (.o2 .packus16y (.v 11) (.v 11)),  -- 5102
    .V 11 (.o1 (.perm4 216) (.v 11)),  -- 5103
    .mst 4 32 (.add (.pv (.n 2)) (.v 4)) (.v 31) (.v 11),  -- 5104
    .V 11 (.o2 .mullo16 (.v 23) (.v 1)),  -- 5106
    .V 12 (.o2 .mullo16 (.v 24) (.v 4)),  -- 5107
    .V 13 (.o2 .mullo16 (.v 25) (.v 3)),  -- 5108
    .V 14 (.o2 .add16 (.v 26) (.v 5)),  -- 5109
    .V 11 (.o2 .add16 (.v 11) (.v 12))  -- 5110
  ]

/-- `intra_pred_ang_xy_13_avx`, vec/intrinsic_intra-pred_avx2.cc:5111-5138. -/
def xy13A_15 : Stmt :=
  .run [
    .V 11 (.o2 .add16 (.v 11) (.v 13)),  -- 5111
    .V 11 (.o2 .add16 (.v 11) (.v 14)),  -- 5112
    .V 11 (.o1 (.srli16 4) (.v 11)),  -- 5113
    .V 11 (.o2 .packus16y (.v 11) (.v 11)),  -- 5115
    .V 11 (.o1 (.perm4 216) (.v 11)),  -- 5116
    .mst 4 32 (.add (.pv (.n 3)) (.v 4)) (.v 31) (.v 11),  -- 5117
    .V 11 (.o2 .mullo16 (.v 23) (.v 3)),  -- 5119
    .V 12 (.o2 .mullo16 (.v 24) (.v 8)),  -- 5120
    .V 13 (.o2 .mullo16 (.v 25) (.v 7)),  -- 5121
    .V 14 (.o2 .mullo16 (.v 26) (.v 1)),  -- 5122
    .V 11 (.o2 .add16 (.v 11) (.v 10)),  -- 5123
    .V 11 (.o2 .add16 (.v 11) (.v 12)),  -- 5124
    .V 11 (.o2 .add16 (.v 11) (.v 13)),  -- 5125
    .V 11 (.o2 .add16 (.v 11) (.v 14)),  -- 5126
    .V 11 (.o1 (.srli16 5) (.v 11)),  -- 5127
    .V 11 (.o2 .packus16y (.v 11) (.v 11)),  -- 5129
    .V 11 (.o1 (.perm4 216) (.v 11)),  -- 5130
    .mst 4 32 (.add (.pv (.n 4)) (.v 4)) (.v 31) (.v 11),  -- 5131
    .V 11 (.o2 .add16 (.v 23) (.v 26)),  -- 5133
    .V 12 (.o2 .add16 (.v 24) (.v 25)),  -- 5134
    .V 12 (.o2 .mullo16 (.v 12) (.v 1)),  -- 5135
    .V 11 (.o2 .add16 (.v 11) (.v 12)),  -- 5136
    .V 11 (.o2 .add16 (.v 11) (.v 2)),  -- 5137
    .V 11 (.o1 (.srli16 3) (.v 11))  -- 5138
  ]

/-- `intra_pred_ang_xy_13_avx`, vec/intrinsic_intra-pred_avx2.cc:5140-5167. -/
def xy13A_16 : Stmt :=
  .run [
    .V 11 (.o2 .packus16y (.v 11) (.v 11)),  -- 5140
    .V 11 (.o1 (.perm4 216) (.v 11)),  -- 5141
    .mst 4 32 (.add (.pv (.n 5)) (.v 4)) (.v 31) (.v 11),  -- 5142
    .V 11 (.o2 .mullo16 (.v 23) (.v 1)),  -- 5144
    .V 12 (.o2 .mullo16 (.v 24) (.v 7)),  -- 5145
    .V 13 (.o2 .mullo16 (.v 25) (.v 8)),  -- 5146
    .V 14 (.o2 .mullo16 (.v 26) (.v 3)),  -- 5147
    .V 11 (.o2 .add16 (.v 11) (.v 10)),  -- 5148
    .V 11 (.o2 .add16 (.v 11) (.v 12)),  -- 5149
    .V 11 (.o2 .add16 (.v 11) (.v 13)),  -- 5150
    .V 11 (.o2 .add16 (.v 11) (.v 14)),  -- 5151
    .V 11 (.o1 (.srli16 5) (.v 11)),  -- 5152
    .V 11 (.o2 .packus16y (.v 11) (.v 11)),  -- 5154
    .V 11 (.o1 (.perm4 216) (.v 11)),  -- 5155
    .mst 4 32 (.add (.pv (.n 6)) (.v 4)) (.v 31) (.v 11),  -- 5156
    .V 12 (.o2 .mullo16 (.v 24) (.v 3)),  -- 5158
    .V 13 (.o2 .mullo16 (.v 25) (.v 4)),  -- 5159
    .V 14 (.o2 .mullo16 (.v 26) (.v 1)),  -- 5160
    .V 11 (.o2 .add16 (.v 23) (.v 5)),  -- 5161
    .V 11 (.o2 .add16 (.v 11) (.v 12)),  -- 5162
    .V 11 (.o2 .add16 (.v 11) (.v 13)),  -- 5163
    .V 11 (.o2 .add16 (.v 11) (.v 14)),  -- 5164
    .V 11 (.o1 (.srli16 4) (.v 11)),  -- 5165
    .V 11 (.o2 .packus16y (.v 11) (.v 11))  -- 5167
  ]

/-- `intra_pred_ang_xy_13_avx`, vec/intrinsic_intra-pred_avx2.cc:5168-5192. -/
def xy13A_17 : Stmt :=
  .run [
    .V 11 (.o1 (.perm4 216) (.v 11)),  -- 5168
    .mst 4 32 (.add (.pv (.n 7)) (.v 4)) (.v 31) (.v 11),  -- 5169
    .V 12 (.o2 .mullo16 (.v 24) (.v 6)),  -- 5171
    .V 13 (.o2 .mullo16 (.v 25) (.v 9)),  -- 5172
    .V 14 (.o2 .mullo16 (.v 26) (.v 4)),  -- 5173
    .V 11 (.o2 .add16 (.v 23) (.v 10)),  -- 5174
    .V 11 (.o2 .add16 (.v 11) (.v 12)),  -- 5175
    .V 11 (.o2 .add16 (.v 11) (.v 13)),  -- 5176
    .V 11 (.o2 .add16 (.v 11) (.v 14)),  -- 5177
    .V 11 (.o1 (.srli16 5) (.v 11)),  -- 5178
    .V 11 (.o2 .packus16y (.v 11) (.v 11)),  -- 5180
    .V 11 (.o1 (.perm4 216) (.v 11)),  -- 5181
    .mst 4 32 (.add (.pv (.n 8)) (.v 4)) (.v 31) (.v 11),  -- 5182
    .V 12 (.o2 .mullo16 (.v 25) (.v 0)),  -- 5184
    .V 11 (.o2 .add16 (.v 24) (.v 26)),  -- 5185
    .V 11 (.o2 .add16 (.v 11) (.v 0)),  -- 5186
    .V 11 (.o2 .add16 (.v 11) (.v 12)),  -- 5187
    .V 11 (.o1 (.srli16 2) (.v 11)),  -- 5188
    .V 11 (.o2 .packus16y (.v 11) (.v 11)),  -- 5190
    .V 11 (.o1 (.perm4 216) (.v 11)),  -- 5191
    .mst 4 32 (.add (.pv (.n 9)) (.v 4)) (.v 31) (.v 11)  -- 5192
  ]

/-- `intra_pred_ang_xy_13_avx`, vec/intrinsic_intra-pred_avx2.cc:5081. -/
def xy13A_18 : Stmt :=
  .ite (.lt (.v 4) (.v 5)) (.seq xy13A_14 (.seq xy13A_15 (.seq xy13A_16 xy13A_17))) (.run [])

/-- `intra_pred_ang_xy_13_avx`, vec/intrinsic_intra-pred_avx2.cc:5195-5204. -/
def xy13A_19 : Stmt :=
  .run [
    .P (.n 2) (.add (.pv (.n 2)) (.v 6)),  -- 5195
    .P (.n 3) (.add (.pv (.n 3)) (.v 6)),  -- 5196
    .P (.n 4) (.add (.pv (.n 4)) (.v 6)),  -- 5197
    .P (.n 5) (.add (.pv (.n 5)) (.v 6)),  -- 5198
    .P (.n 6) (.add (.pv (.n 6)) (.v 6)),  -- 5199
    .P (.n 7) (.add (.pv (.n 7)) (.v 6)),  -- 5200
    .P (.n 8) (.add (.pv (.n 8)) (.v 6)),  -- 5201
    .P (.n 9) (.add (.pv (.n 9)) (.v 6)),  -- 5202
    .I 3 (.shr (.v 3) 3)  -- 5204
  ]

/-- `intra_pred_ang_xy_13_avx`, vec/intrinsic_intra-pred_avx2.cc:5207. -/
def xy13A_20 : Stmt :=
  .run [
    .I 4 (.n 0)  -- 5207
  ]

/-- `intra_pred_ang_xy_13_avx`, vec/intrinsic_intra-pred_avx2.cc:5208-5235. -/
def xy13A_21 : Stmt :=
  .run [
    .V 32 (.ld 32 (.sub (.pv (.n 2)) (.v 4))),  -- 5208
    .st 32 (.pv (.n 1)) (.v 32),  -- 5209
    .V 32 (.ld 32 (.add (.sub (.pv (.n 2)) (.v 4)) (.n 32))),  -- 5210
    .st 32 (.add (.pv (.n 1)) (.n 32)) (.v 32),  -- 5211
    .P (.n 1) (.add (.pv (.n 1)) (.v 0)),  -- 5212
    .V 32 (.ld 32 (.sub (.pv (.n 3)) (.v 4))),  -- 5214
    .st 32 (.pv (.n 1)) (.v 32),  -- 5215
    .V 32 (.ld 32 (.add (.sub (.pv (.n 3)) (.v 4)) (.n 32))),  -- 5216
    .st 32 (.add (.pv (.n 1)) (.n 32)) (.v 32),  -- 5217
    .P (.n 1) (.add (.pv (.n 1)) (.v 0)),  -- 5218
    .V 32 (.ld 32 (.sub (.pv (.n 4)) (.v 4))),  -- 5220
    .st 32 (.pv (.n 1)) (.v 32),  -- 5221
    .V 32 (.ld 32 (.add (.sub (.pv (.n 4)) (.v 4)) (.n 32))),  -- 5222
    .st 32 (.add (.pv (.n 1)) (.n 32)) (.v 32),  -- 5223
    .P (.n 1) (.add (.pv (.n 1)) (.v 0)),  -- 5224
    .V 32 (.ld 32 (.sub (.pv (.n 5)) (.v 4))),  -- 5226
    .st 32 (.pv (.n 1)) (.v 32),  -- 5227
    .V 32 (.ld 32 (.add (.sub (.pv (.n 5)) (.v 4)) (.n 32))),  -- 5228
    .st 32 (.add (.pv (.n 1)) (.n 32)) (.v 32),  -- 5229
    .P (.n 1) (.add (.pv (.n 1)) (.v 0)),  -- 5230
    .V 32 (.ld 32 (.sub (.pv (.n 6)) (.v 4))),  -- 5232
    .st 32 (.pv (.n 1)) (.v 32),  -- 5233
    .V 32 (.ld 32 (.add (.sub (.pv (.n 6)) (.v 4)) (.n 32))),  -- 5234
    .st 32 (.add (.pv (.n 1)) (.n 32)) (.v 32)  -- 5235
  ]

/-- `intra_pred_ang_xy_13_avx`, vec/intrinsic_intra-pred_avx2.cc:5207-5254. -/
def xy13A_22 : Stmt :=
  .run [
    .P (.n 1) (.add (.pv (.n 1)) (.v 0)),  -- 5236
    .V 32 (.ld 32 (.sub (.pv (.n 7)) (.v 4))),  -- 5238
    .st 32 (.pv (.n 1)) (.v 32),  -- 5239
    .V 32 (.ld 32 (.add (.sub (.pv (.n 7)) (.v 4)) (.n 32))),  -- 5240
    .st 32 (.add (.pv (.n 1)) (.n 32)) (.v 32),  -- 5241
    .P (.n 1) (.add (.pv (.n 1)) (.v 0)),  -- 5242
    .V 32 (.ld 32 (.sub (.pv (.n 8)) (.v 4))),  -- 5244
    .st 32 (.pv (.n 1)) (.v 32),  -- 5245
    .V 32 (.ld 32 (.add (.sub (.pv (.n 8)) (.v 4)) (.n 32))),  -- 5246
    .st 32 (.add (.pv (.n 1)) (.n 32)) (.v 32),  -- 5247
    .P (.n 1) (.add (.pv (.n 1)) (.v 0)),  -- 5248
    .V 32 (.ld 32 (.sub (.pv (.n 9)) (.v 4))),  -- 5250
    .st 32 (.pv (.n 1)) (.v 32),  -- 5251
    .V 32 (.ld 32 (.add (.sub (.pv (.n 9)) (.v 4)) (.n 32))),  -- 5252
    .st 32 (.add (.pv (.n 1)) (.n 32)) (.v 32),  -- 5253
    .P (.n 1) (.add (.pv (.n 1)) (.v 0)),  -- 5254
    .I 4 (.add (.v 4) (.n 1))  -- 5207
  ]

/-- `intra_pred_ang_xy_13_avx`, vec/intrinsic_intra-pred_avx2.cc:5207. -/
def xy13A_23 : Stmt :=
  .loop (.lt (.v 4) (.v 3)) (.seq xy13A_21 xy13A_22)

/-- `intra_pred_ang_xy_13_avx`, vec/intrinsic_intra-pred_avx2.cc:5257. -/
def xy13A_24 : Stmt :=
  .run [
    .I 4 (.n 0)  -- 5257
  ]

/-- `intra_pred_ang_xy_13_avx`, vec/intrinsic_intra-pred_avx2.cc:5258-5288. -/
def xy13A_25 : Stmt :=
  .run [
    .V 32 (.ld 32 (.sub (.pv (.n 2)) (.v 4))),  -- 5258
    .st 32 (.pv (.n 1)) (.v 32),  -- 5259
    .P (.n 1) (.add (.pv (.n 1)) (.v 0)),  -- 5260
    .V 32 (.ld 32 (.sub (.pv (.n 3)) (.v 4))),  -- 5262
    .st 32 (.pv (.n 1)) (.v 32),  -- 5263
    .P (.n 1) (.add (.pv (.n 1)) (.v 0)),  -- 5264
    .V 32 (.ld 32 (.sub (.pv (.n 4)) (.v 4))),  -- 5266
    .st 32 (.pv (.n 1)) (.v 32),  -- 5267
    .P (.n 1) (.add (.pv (.n 1)) (.v 0)),  -- 5268
    .V 32 (.ld 32 (.sub (.pv (.n 5)) (.v 4))),  -- 5270
    .st 32 (.pv (.n 1)) (.v 32),  -- 5271
    .P (.n 1) (.add (.pv (.n 1)) (.v 0)),  -- 5272
    .V 32 (.ld 32 (.sub (.pv (.n 6)) (.v 4))),  -- 5274
    .st 32 (.pv (.n 1)) (.v 32),  -- 5275
    .P (.n 1) (.add (.pv (.n 1)) (.v 0)),  -- 5276
    .V 32 (.ld 32 (.sub (.pv (.n 7)) (.v 4))),  -- 5278
    .st 32 (.pv (.n 1)) (.v 32),  -- 5279
    .P (.n 1) (.add (.pv (.n 1)) (.v 0)),  -- 5280
    .V 32 (.ld 32 (.sub (.pv (.n 8)) (.v 4))),  -- 5282
    .st 32 (.pv (.n 1)) (.v 32),  -- 5283
    .P (.n 1) (.add (.pv (.n 1)) (.v 0)),  -- 5284
    .V 32 (.ld 32 (.sub (.pv (.n 9)) (.v 4))),  -- 5286
    .st 32 (.pv (.n 1)) (.v 32),  -- 5287
    .P (.n 1) (.add (.pv (.n 1)) (.v 0))  -- 5288
  ]

/-- `intra_pred_ang_xy_13_avx`, vec/intrinsic_intra-pred_avx2.cc:5257. -/
def xy13A_26 : Stmt :=
  .run [
    .I 4 (.add (.v 4) (.n 1))  -- 5257
  ]

/-- `intra_pred_ang_xy_13_avx`, vec/intrinsic_intra-pred_avx2.cc:5257. -/
def xy13A_27 : Stmt :=
  .loop (.lt (.v 4) (.v 3)) (.seq xy13A_25 xy13A_26)

/-- `intra_pred_ang_xy_13_avx`, vec/intrinsic_intra-pred_avx2.cc:5291-5292. -/
def xy13A_28 : Stmt :=
  .run [
    .V 31 (.mask 16 (.n 15)),  -- 5291
    .I 4 (.n 0)  -- 5292
  ]

/-- `intra_pred_ang_xy_13_avx`, vec/intrinsic_intra-pred_avx2.cc:5293-5323. -/
def xy13A_29 : Stmt :=
  .run [
    .V 32 (.ld 32 (.sub (.pv (.n 2)) (.v 4))),  -- 5293
    .mst 8 32 (.pv (.n 1)) (.v 31) (.v 32),  -- 5294
    .P (.n 1) (.add (.pv (.n 1)) (.v 0)),  -- 5295
    .V 32 (.ld 32 (.sub (.pv (.n 3)) (.v 4))),  -- 5297
    .mst 8 32 (.pv (.n 1)) (.v 31) (.v 32),  -- 5298
    .P (.n 1) (.add (.pv (.n 1)) (.v 0)),  -- 5299
    .V 32 (.ld 32 (.sub (.pv (.n 4)) (.v 4))),  -- 5301
    .mst 8 32 (.pv (.n 1)) (.v 31) (.v 32),  -- 5302
    .P (.n 1) (.add (.pv (.n 1)) (.v 0)),  -- 5303
    .V 32 (.ld 32 (.sub (.pv (.n 5)) (.v 4))),  -- 5305
    .mst 8 32 (.pv (.n 1)) (.v 31) (.v 32),  -- 5306
    .P (.n 1) (.add (.pv (.n 1)) (.v 0)),  -- 5307
    .V 32 (.ld 32 (.sub (.pv (.n 6)) (.v 4))),  -- 5309
    .mst 8 32 (.pv (.n 1)) (.v 31) (.v 32),  -- 5310
    .P (.n 1) (.add (.pv (.n 1)) (.v 0)),  -- 5311
    .V 32 (.ld 32 (.sub (.pv (.n 7)) (.v 4))),  -- 5313
    .mst 8 32 (.pv (.n 1)) (.v 31) (.v 32),  -- 5314
    .P (.n 1) (.add (.pv (.n 1)) (.v 0)),  -- 5315
    .V 32 (.ld 32 (.sub (.pv (.n 8)) (.v 4))),  -- 5317
    .mst 8 32 (.pv (.n 1)) (.v 31) (.v 32),  -- 5318
    .P (.n 1) (.add (.pv (.n 1)) (.v 0)),  -- 5319
    .V 32 (.ld 32 (.sub (.pv (.n 9)) (.v 4))),  -- 5321
    .mst 8 32 (.pv (.n 1)) (.v 31) (.v 32),  -- 5322
    .P (.n 1) (.add (.pv (.n 1)) (.v 0))  -- 5323
  ]

/-- `intra_pred_ang_xy_13_avx`, vec/intrinsic_intra-pred_avx2.cc:5292. -/
def xy13A_30 : Stmt :=
  .run [
    .I 4 (.add (.v 4) (.n 1))  -- 5292
  ]

/-- `intra_pred_ang_xy_13_avx`, vec/intrinsic_intra-pred_avx2.cc:5292. -/
def xy13A_31 : Stmt :=
  .loop (.lt (.v 4) (.v 3)) (.seq xy13A_29 xy13A_30)

/-- `intra_pred_ang_xy_13_avx`, vec/intrinsic_intra-pred_avx2.cc:5326-5327. -/
def xy13A_32 : Stmt :=
  .run [
    .V 31 (.mask 16 (.n 7)),  -- 5326
    .I 4 (.n 0)  -- 5327
  ]

/-- `intra_pred_ang_xy_13_avx`, vec/intrinsic_intra-pred_avx2.cc:5328-5358. -/
def xy13A_33 : Stmt :=
  .run [
    .V 32 (.ld 32 (.sub (.pv (.n 2)) (.v 4))),  -- 5328
    .mst 8 32 (.pv (.n 1)) (.v 31) (.v 32),  -- 5329
    .P (.n 1) (.add (.pv (.n 1)) (.v 0)),  -- 5330
    .V 32 (.ld 32 (.sub (.pv (.n 3)) (.v 4))),  -- 5332
    .mst 8 32 (.pv (.n 1)) (.v 31) (.v 32),  -- 5333
    .P (.n 1) (.add (.pv (.n 1)) (.v 0)),  -- 5334
    .V 32 (.ld 32 (.sub (.pv (.n 4)) (.v 4))),  -- 5336
    .mst 8 32 (.pv (.n 1)) (.v 31) (.v 32),  -- 5337
    .P (.n 1) (.add (.pv (.n 1)) (.v 0)),  -- 5338
    .V 32 (.ld 32 (.sub (.pv (.n 5)) (.v 4))),  -- 5340
    .mst 8 32 (.pv (.n 1)) (.v 31) (.v 32),  -- 5341
    .P (.n 1) (.add (.pv (.n 1)) (.v 0)),  -- 5342
    .V 32 (.ld 32 (.sub (.pv (.n 6)) (.v 4))),  -- 5344
    .mst 8 32 (.pv (.n 1)) (.v 31) (.v 32),  -- 5345
    .P (.n 1) (.add (.pv (.n 1)) (.v 0)),  -- 5346
    .V 32 (.ld 32 (.sub (.pv (.n 7)) (.v 4))),  -- 5348
    .mst 8 32 (.pv (.n 1)) (.v 31) (.v 32),  -- 5349
    .P (.n 1) (.add (.pv (.n 1)) (.v 0)),  -- 5350
    .V 32 (.ld 32 (.sub (.pv (.n 8)) (.v 4))),  -- 5352
    .mst 8 32 (.pv (.n 1)) (.v 31) (.v 32),  -- 5353
    .P (.n 1) (.add (.pv (.n 1)) (.v 0)),  -- 5354
    .V 32 (.ld 32 (.sub (.pv (.n 9)) (.v 4))),  -- 5356
    .mst 8 32 (.pv (.n 1)) (.v 31) (.v 32),  -- 5357
    .P (.n 1) (.add (.pv (.n 1)) (.v 0))  -- 5358
  ]

/-- `intra_pred_ang_xy_13_avx`, vec/intrinsic_intra-pred_avx2.cc:5327. -/
def xy13A_34 : Stmt :=
  .run [
    .I 4 (.add (.v 4) (.n 1))  -- 5327
  ]

/-- `intra_pred_ang_xy_13_avx`, vec/intrinsic_intra-pred_avx2.cc:5327. -/
def xy13A_35 : Stmt :=
  .loop (.lt (.v 4) (.v 3)) (.seq xy13A_33 xy13A_34)

/-- `intra_pred_ang_xy_13_avx`, vec/intrinsic_intra-pred_avx2.cc:5361-5362. -/
def xy13A_36 : Stmt :=
  .run [
    .V 31 (.mask 16 (.n 3)),  -- 5361
    .I 4 (.n 0)  -- 5362
  ]

/-- `intra_pred_ang_xy_13_avx`, vec/intrinsic_intra-pred_avx2.cc:5363-5393. -/
def xy13A_37 : Stmt :=
  .run [
    .V 32 (.ld 32 (.sub (.pv (.n 2)) (.v 4))),  -- 5363
    .mst 4 32 (.pv (.n 1)) (.v 31) (.v 32),  -- 5364
    .P (.n 1) (.add (.pv (.n 1)) (.v 0)),  -- 5365
    .V 32 (.ld 32 (.sub (.pv (.n 3)) (.v 4))),  -- 5367
    .mst 4 32 (.pv (.n 1)) (.v 31) (.v 32),  -- 5368
    .P (.n 1) (.add (.pv (.n 1)) (.v 0)),  -- 5369
    .V 32 (.ld 32 (.sub (.pv (.n 4)) (.v 4))),  -- 5371
    .mst 4 32 (.pv (.n 1)) (.v 31) (.v 32),  -- 5372
    .P (.n 1) (.add (.pv (.n 1)) (.v 0)),  -- 5373
    .V 32 (.ld 32 (.sub (.pv (.n 5)) (.v 4))),  -- 5375
    .mst 4 32 (.pv (.n 1)) (.v 31) (.v 32),  -- 5376
    .P (.n 1) (.add (.pv (.n 1)) (.v 0)),  -- 5377
    .V 32 (.ld 32 (.sub (.pv (.n 6)) (.v 4))),  -- 5379
    .mst 4 32 (.pv (.n 1)) (.v 31) (.v 32),  -- 5380
    .P (.n 1) (.add (.pv (.n 1)) (.v 0)),  -- 5381
    .V 32 (.ld 32 (.sub (.pv (.n 7)) (.v 4))),  -- 5383
    .mst 4 32 (.pv (.n 1)) (.v 31) (.v 32),  -- 5384
    .P (.n 1) (.add (.pv (.n 1)) (.v 0)),  -- 5385
    .V 32 (.ld 32 (.sub (.pv (.n 8)) (.v 4))),  -- 5387
    .mst 4 32 (.pv (.n 1)) (.v 31) (.v 32),  -- 5388
    .P (.n 1) (.add (.pv (.n 1)) (.v 0)),  -- 5389
    .V 32 (.ld 32 (.sub (.pv (.n 9)) (.v 4))),  -- 5391
    .mst 4 32 (.pv (.n 1)) (.v 31) (.v 32),  -- 5392
    .P (.n 1) (.add (.pv (.n 1)) (.v 0))  -- 5393
  ]

/-- `intra_pred_ang_xy_13_avx`, vec/intrinsic_intra-pred_avx2.cc:5362. -/
def xy13A_38 : Stmt :=
  .run [
    .I 4 (.add (.v 4) (.n 1))  -- 5362
  ]

/-- `intra_pred_ang_xy_13_avx`, vec/intrinsic_intra-pred_avx2.cc:5362. -/
def xy13A_39 : Stmt :=
  .loop (.lt (.v 4) (.v 3)) (.seq xy13A_37 xy13A_38)

/-- `intra_pred_ang_xy_13_avx`, vec/intrinsic_intra-pred_avx2.cc:5325. -/
def xy13A_40 : Stmt :=
  .ite (.eq (.v 2) (.n 8)) (.seq xy13A_32 xy13A_35) (.seq xy13A_36 xy13A_39)

/-- `intra_pred_ang_xy_13_avx`, vec/intrinsic_intra-pred_avx2.cc:5290. -/
def xy13A_41 : Stmt :=
  .ite (.eq (.v 2) (.n 16)) (.seq xy13A_28 xy13A_31) xy13A_40

/-- `intra_pred_ang_xy_13_avx`, vec/intrinsic_intra-pred_avx2.cc:5256. -/
def xy13A_42 : Stmt :=
  .ite (.eq (.v 2) (.n 32)) (.seq xy13A_24 xy13A_27) xy13A_41

/-- `intra_pred_ang_xy_13_avx`, vec/intrinsic_intra-pred_avx2.cc:5206. -/
def xy13A_43 : Stmt :=
  .ite (.eq (.v 2) (.n 64)) (.seq xy13A_20 xy13A_23) xy13A_42

/-- `intra_pred_ang_xy_13_avx`, vec/intrinsic_intra-pred_avx2.cc:5416. -/
def xy13A_44 : Stmt :=
  .call xy13S (.pv (.n 0)) (.pv (.n 1)) (.v 0) (.v 1) (.v 2) (.v 3)

/-- `intra_pred_ang_xy_13_avx`, vec/intrinsic_intra-pred_avx2.cc:4841. -/
def xy13A_45 : Stmt :=
  .ite (.lt (.n 4) (.v 3)) (.seq xy13A_1 (.seq xy13A_2 (.seq xy13A_4 (.seq xy13A_12 (.seq xy13A_13 (.seq xy13A_18 (.seq xy13A_19 xy13A_43))))))) xy13A_44

/-- `intra_pred_ang_xy_13_avx`, source/common/vec/intrinsic_intra-pred_avx2.cc:4836-5420.  Variables:
I: 0 i_dst, 1 dir_mode, 2 bsx, 3 bsy, 4 i, 5 line_size, 6 left_size, 7 aligned_line_size;
P: 0 src, 1 dst, 2 pfirst;
V: 0 coeff2, 1 coeff3, 2 coeff4, 3 coeff5, 4 coeff7, 5 coeff8, 6 coeff9, 7 coeff11, 8 coeff13, 9 coeff15, 10 coeff16, 11 p00, 12 p10, 13 p20, 14 p30, 15 p01, 16 p11, 17 p21, 18 p31, 19 S0, 20 S1, 21 S2, 22 S3, 23 L0, 24 L1, 25 L2, 26 L3, 27 H0, 28 H1, 29 H2, 30 H3, 31 mask, 32 M. -/
def xy13A : Stmt :=
  xy13A_45

/-- `intra_pred_ang_xy_14_avx`, vec/intrinsic_intra-pred_avx2.cc:5427-5432. -/
def xy14A_1 : Stmt :=
  .run [
    .V 0 (.set1_16 (.n 2)),  -- 5427
    .V 1 (.set1_16 (.n 3)),  -- 5428
    .V 2 (.set1_16 (.n 4)),  -- 5429
    .V 3 (.set1_16 (.n 5)),  -- 5430
    .V 4 (.set1_16 (.n 7)),  -- 5431
    .V 5 (.set1_16 (.n 8))  -- 5432
  ]

/-- `intra_pred_ang_xy_14_avx`, vec/intrinsic_intra-pred_avx2.cc:5435-5464. -/
def xy14A_2 : Stmt :=
  .run [
    .alloc 0 384,  -- 5435
    .I 5 (.sub (.add (.v 2) (.div (.v 3) (.n 4))) (.n 1)),  -- 5436
    .I 6 (.sub (.v 5) (.v 2)),  -- 5437
    .I 7 (.shl (.shr (.add (.v 5) (.n 31)) 4) 4),  -- 5438
    .V 6 (.setr8 [0, 4, 8, 12, 1, 5, 9, 13, 2, 6, 10, 14, 3, 7, 11, 15, 0, 4, 8, 12, 1, 5, 9, 13, 2, 6, 10, 14, 3, 7, 11, 15]),  -- 5440
    .V 7 (.setr8 [0, 0, 0, 0, 4, 0, 0, 0, 1, 0, 0, 0, 5, 0, 0, 0, 2, 0, 0, 0, 6, 0, 0, 0, 3, 0, 0, 0, 7, 0, 0, 0]),  -- 5443
    .P (.n 6) (.pv (.n 0)),  -- 5445
    .P (.n 2) (.pa 0),  -- 5447
    .P (.n 3) (.add (.pa 0) (.v 7)),  -- 5448
    .P (.n 4) (.add (.pa 0) (.mul (.v 7) (.n 2))),  -- 5449
    .P (.n 5) (.add (.pa 0) (.mul (.v 7) (.n 3))),  -- 5450
    .P (.n 0) (.sub (.pv (.n 0)) (.sub (.v 3) (.n 4))),  -- 5451
    .V 28 (.setr8 [255, 255, 255, 255, 255, 255, 255, 255, 0, 0, 0, 0, 0, 0, 0, 0, 0, 0, 0, 0, 0, 0, 0, 0, 0, 0, 0, 0, 0, 0, 0, 0]),  -- 5459
    .V 29 (.setr8 [0, 0, 0, 0, 0, 0, 0, 0, 255, 255, 255, 255, 255, 255, 255, 255, 0, 0, 0, 0, 0, 0, 0, 0, 0, 0, 0, 0, 0, 0, 0, 0]),  -- 5460
    .V 30 (.setr8 [0, 0, 0, 0, 0, 0, 0, 0, 0, 0, 0, 0, 0, 0, 0, 0, 255, 255, 255, 255, 255, 255, 255, 255, 0, 0, 0, 0, 0, 0, 0, 0]),  -- 5461
    .V 31 (.setr8 [0, 0, 0, 0, 0, 0, 0, 0, 0, 0, 0, 0, 0, 0, 0, 0, 0, 0, 0, 0, 0, 0, 0, 0, 255, 255, 255, 255, 255, 255, 255, 255]),  -- 5462
    .I 4 (.n 0)  -- 5464
  ]

/-- `intra_pred_ang_xy_14_avx`, vec/intrinsic_intra-pred_avx2.cc:5466-5499. -/
def xy14A_3 : Stmt :=
  .run [
    .V 16 (.ld 32 (.sub (.pv (.n 0)) (.n 1))),  -- 5466
    .V 17 (.ld 32 (.pv (.n 0))),  -- 5467
    .V 18 (.ld 32 (.add (.pv (.n 0)) (.n 1))),  -- 5468
    .V 20 (.o1 .cvtu8 (.o1 (.half 0) (.v 16))),  -- 5470
    .V 21 (.o1 .cvtu8 (.o1 (.half 0) (.v 17))),  -- 5471
    .V 22 (.o1 .cvtu8 (.o1 (.half 0) (.v 18))),  -- 5472
    .V 24 (.o1 .cvtu8 (.o1 (.half 1) (.v 16))),  -- 5474
    .V 25 (.o1 .cvtu8 (.o1 (.half 1) (.v 17))),  -- 5475
    .V 26 (.o1 .cvtu8 (.o1 (.half 1) (.v 18))),  -- 5476
    .V 8 (.o2 .add16 (.v 20) (.v 21)),  -- 5478
    .V 9 (.o2 .add16 (.v 21) (.v 22)),  -- 5479
    .V 10 (.o2 .add16 (.v 24) (.v 25)),  -- 5480
    .V 11 (.o2 .add16 (.v 25) (.v 26)),  -- 5481
    .V 8 (.o2 .add16 (.v 8) (.v 0)),  -- 5483
    .V 10 (.o2 .add16 (.v 10) (.v 0)),  -- 5484
    .V 8 (.o2 .add16 (.v 8) (.v 9)),  -- 5485
    .V 10 (.o2 .add16 (.v 10) (.v 11)),  -- 5486
    .V 8 (.o1 (.srli16 2) (.v 8)),  -- 5488
    .V 10 (.o1 (.srli16 2) (.v 10)),  -- 5489
    .V 8 (.o2 .packus16y (.v 8) (.v 10)),  -- 5491
    .V 8 (.o1 (.perm4 216) (.v 8)),  -- 5493
    .V 10 (.o2 .shuffle8y (.v 8) (.v 6)),  -- 5495
    .V 10 (.o2 .permv (.v 10) (.v 7)),  -- 5497
    .mst 8 32 (.sub (.add (.pv (.n 2)) (.v 4)) (.n 24)) (.v 31) (.v 10)  -- 5499
  ]

/-- `intra_pred_ang_xy_14_avx`, vec/intrinsic_intra-pred_avx2.cc:5464-5502. -/
def xy14A_4 : Stmt :=
  .run [
    .mst 8 32 (.sub (.add (.pv (.n 3)) (.v 4)) (.n 16)) (.v 30) (.v 10),  -- 5500
    .mst 8 32 (.sub (.add (.pv (.n 4)) (.v 4)) (.n 8)) (.v 29) (.v 10),  -- 5501
    .mst 8 32 (.add (.pv (.n 5)) (.v 4)) (.v 28) (.v 10),  -- 5502
    .I 4 (.add (.v 4) (.n 8)),  -- 5464
    .P (.n 0) (.add (.pv (.n 0)) (.n 32))
  ]

/-- `intra_pred_ang_xy_14_avx`, vec/intrinsic_intra-pred_avx2.cc:5464. -/
def xy14A_5 : Stmt :=
  .loop (.lt (.v 4) (.sub (.v 6) (.n 1))) (.seq xy14A_3 xy14A_4)

/-- `intra_pred_ang_xy_14_avx`, vec/intrinsic_intra-pred_avx2.cc:5506-5533. -/
def xy14A_6 : Stmt :=
  .run [
    .V 32 (.setr8 [0, 4, 1, 5, 2, 6, 3, 7, 0, 4, 1, 5, 2, 6, 3, 7]),  -- 5506
    .V 33 (.set1_16 (.n 2)),  -- 5507
    .V 34 .zero,  -- 5508
    .V 35 (.ld 16 (.sub (.pv (.n 0)) (.n 1))),  -- 5510
    .V 36 (.ld 16 (.add (.pv (.n 0)) (.n 1))),  -- 5511
    .V 37 (.ld 16 (.pv (.n 0))),  -- 5512
    .V 38 (.o2 .unpacklo8 (.v 35) (.v 34)),  -- 5514
    .V 39 (.o2 .unpacklo8 (.v 37) (.v 34)),  -- 5515
    .V 40 (.o2 .unpacklo8 (.v 36) (.v 34)),  -- 5516
    .V 41 (.o2 .add16 (.v 38) (.v 39)),  -- 5518
    .V 42 (.o2 .add16 (.v 39) (.v 40)),  -- 5519
    .V 41 (.o2 .add16 (.v 41) (.v 33)),  -- 5521
    .V 41 (.o2 .add16 (.v 41) (.v 42)),  -- 5522
    .V 41 (.o1 (.srli16 2) (.v 41)),  -- 5524
    .V 41 (.o2 .packus16 (.v 41) (.v 41)),  -- 5526
    .V 41 (.o2 .shuffle8 (.v 41) (.v 32)),  -- 5528
    .st 4 (.add (.pv (.n 2)) (.v 4)) (.o1 (.ext16 3) (.v 41)),  -- 5530
    .st 4 (.add (.pv (.n 3)) (.v 4)) (.o1 (.ext16 2) (.v 41)),  -- 5531
    .st 4 (.add (.pv (.n 4)) (.v 4)) (.o1 (.ext16 1) (.v 41)),  -- 5532
    .st 4 (.add (.pv (.n 5)) (.v 4)) (.o1 (.ext16 0) (.v 41))  -- 5533
  ]

/-- `intra_pred_ang_xy_14_avx`, vec/intrinsic_intra-pred_avx2.cc:5505. -/
def xy14A_7 : Stmt :=
  .ite (.lt (.v 4) (.v 6)) xy14A_6 (.run [])

/-- `intra_pred_ang_xy_14_avx`, vec/intrinsic_intra-pred_avx2.cc:5536-5538. -/
def xy14A_8 : Stmt :=
  .run [
    .P (.n 0) (.pv (.n 6)),  -- 5536
    .I 4 (.v 6)  -- 5538
  ]

/-- `intra_pred_ang_xy_14_avx`, vec/intrinsic_intra-pred_avx2.cc:5540-5567. -/
def xy14A_9 : Stmt :=
  .run [
    .V 16 (.ld 32 (.sub (.pv (.n 0)) (.n 1))),  -- 5540
    .V 17 (.ld 32 (.pv (.n 0))),  -- 5541
    .V 18 (.ld 32 (.add (.pv (.n 0)) (.n 1))),  -- 5542
    .V 19 (.ld 32 (.add (.pv (.n 0)) (.n 2))),  -- 5543
    .V 20 (.o1 .cvtu8 (.o1 (.half 0) (.v 16))),  -- 5545
    .V 21 (.o1 .cvtu8 (.o1 (.half 0) (.v 17))),  -- 5546
    .V 22 (.o1 .cvtu8 (.o1 (.half 0) (.v 18))),  -- 5547
    .V 23 (.o1 .cvtu8 (.o1 (.half 0) (.v 19))),  -- 5548
    .V 24 (.o1 .cvtu8 (.o1 (.half 1) (.v 16))),  -- 5550
    .V 25 (.o1 .cvtu8 (.o1 (.half 1) (.v 17))),  -- 5551
    .V 26 (.o1 .cvtu8 (.o1 (.half 1) (.v 18))),  -- 5552
    .V 27 (.o1 .cvtu8 (.o1 (.half 1) (.v 19))),  -- 5553
    .V 8 (.o2 .mullo16 (.v 20) (.v 1)),  -- 5555
    .V 10 (.o2 .mullo16 (.v 21) (.v 4)),  -- 5556
    .V 12 (.o2 .mullo16 (.v 22) (.v 3)),  -- 5557
    .V 13 (.o2 .add16 (.v 23) (.v 5)),  -- 5558
    .V 8 (.o2 .add16 (.v 8) (.v 13)),  -- 5559
    .V 8 (.o2 .add16 (.v 8) (.v 10)),  -- 5560
    .V 8 (.o2 .add16 (.v 8) (.v 12)),  -- 5561
    .V 8 (.o1 (.srli16 4) (.v 8)),  -- 5562
    .V 9 (.o2 .mullo16 (.v 24) (.v 1)),  -- 5564
    .V 11 (.o2 .mullo16 (.v 25) (.v 4)),  -- 5565
    .V 14 (.o2 .mullo16 (.v 26) (.v 3)),  -- 5566
    .V 15 (.o2 .add16 (.v 27) (.v 5))  -- 5567
  ]

/-- `intra_pred_ang_xy_14_avx`, vec/intrinsic_intra-pred_avx2.cc:5568-5596. -/
def xy14A_10 : Stmt :=
  .run [
    .V 9 (.o2 .add16 (.v 9) (.v 15)),  -- 5568
    .V 9 (.o2 .add16 (.v 9) (.v 11)),  -- 5569
    .V 9 (.o2 .add16 (.v 9) (.v 14)),  -- 5570
    .V 9 (.o1 (.srli16 4) (.v 9)),  -- 5571
    .V 8 (.o2 .packus16y (.v 8) (.v 9)),  -- 5573
    .V 8 (.o1 (.perm4 216) (.v 8)),  -- 5574
    .st 32 (.add (.pv (.n 4)) (.v 4)) (.v 8),  -- 5575
    .V 8 (.o2 .add16 (.v 21) (.v 22)),  -- 5577
    .V 8 (.o2 .mullo16 (.v 8) (.v 1)),  -- 5578
    .V 10 (.o2 .add16 (.v 20) (.v 23)),  -- 5579
    .V 10 (.o2 .add16 (.v 10) (.v 2)),  -- 5580
    .V 8 (.o2 .add16 (.v 10) (.v 8)),  -- 5581
    .V 8 (.o1 (.srli16 3) (.v 8)),  -- 5582
    .V 9 (.o2 .add16 (.v 25) (.v 26)),  -- 5584
    .V 9 (.o2 .mullo16 (.v 9) (.v 1)),  -- 5585
    .V 11 (.o2 .add16 (.v 24) (.v 27)),  -- 5586
    .V 11 (.o2 .add16 (.v 11) (.v 2)),  -- 5587
    .V 9 (.o2 .add16 (.v 11) (.v 9)),  -- 5588
    .V 9 (.o1 (.srli16 3) (.v 9)),  -- 5589
    .V 8 (.o2 .packus16y (.v 8) (.v 9)),  -- 5591
    .V 8 (.o1 (.perm4 216) (.v 8)),  -- 5592
    .st 32 (.add (.pv (.n 3)) (.v 4)) (.v 8),  -- 5593
    .V 10 (.o2 .mullo16 (.v 21) (.v 3)),  -- 5595
    .V 12 (.o2 .mullo16 (.v 22) (.v 4))  -- 5596
  ]

/-- `intra_pred_ang_xy_14_avx`, vec/intrinsic_intra-pred_avx2.cc:5597-5624. -/
def xy14A_11 : Stmt :=
  .run [
    .V 13 (.o2 .mullo16 (.v 23) (.v 1)),  -- 5597
    .V 8 (.o2 .add16 (.v 20) (.v 5)),  -- 5598
    .V 8 (.o2 .add16 (.v 8) (.v 10)),  -- 5599
    .V 8 (.o2 .add16 (.v 8) (.v 12)),  -- 5600
    .V 8 (.o2 .add16 (.v 8) (.v 13)),  -- 5601
    .V 8 (.o1 (.srli16 4) (.v 8)),  -- 5602
    .V 11 (.o2 .mullo16 (.v 25) (.v 3)),  -- 5604
    .V 14 (.o2 .mullo16 (.v 26) (.v 4)),  -- 5605
    .V 15 (.o2 .mullo16 (.v 27) (.v 1)),  -- 5606
    .V 9 (.o2 .add16 (.v 24) (.v 5)),  -- 5607
    .V 9 (.o2 .add16 (.v 9) (.v 11)),  -- 5608
    .V 9 (.o2 .add16 (.v 9) (.v 14)),  -- 5609
    .V 9 (.o2 .add16 (.v 9) (.v 15)),  -- 5610
    .V 9 (.o1 (.srli16 4) (.v 9)),  -- 5611
    .V 8 (.o2 .packus16y (.v 8) (.v 9)),  -- 5613
    .V 8 (.o1 (.perm4 216) (.v 8)),  -- 5614
    .st 32 (.add (.pv (.n 2)) (.v 4)) (.v 8),  -- 5615
    .V 8 (.o2 .add16 (.v 20) (.v 21)),  -- 5617
    .V 10 (.o2 .add16 (.v 21) (.v 22)),  -- 5618
    .V 8 (.o2 .add16 (.v 8) (.v 10)),  -- 5619
    .V 8 (.o2 .add16 (.v 8) (.v 0)),  -- 5620
    .V 8 (.o1 (.srli16 2) (.v 8)),  -- 5621
    .V 9 (.o2 .add16 (.v 24) (.v 25)),  -- 5623
    .V 11 (.o2 .add16 (.v 25) (.v 26))  -- 5624
  ]

/-- `intra_pred_ang_xy_14_avx`, vec/intrinsic_intra-pred_avx2.cc:5538-5631. -/
def xy14A_12 : Stmt :=
  .run [
    .V 9 (.o2 .add16 (.v 9) (.v 11)),  -- 5625
    .V 9 (.o2 .add16 (.v 9) (.v 0)),  -- 5626
    .V 9 (.o1 (.srli16 2) (.v 9)),  -- 5627
    .V 8 (.o2 .packus16y (.v 8) (.v 9)),  -- 5629
    .V 8 (.o1 (.perm4 216) (.v 8)),  -- 5630
    .st 32 (.add (.pv (.n 5)) (.v 4)) (.v 8),  -- 5631
    .I 4 (.add (.v 4) (.n 32)),  -- 5538
    .P (.n 0) (.add (.pv (.n 0)) (.n 32))
  ]

/-- `intra_pred_ang_xy_14_avx`, vec/intrinsic_intra-pred_avx2.cc:5538. -/
def xy14A_13 : Stmt :=
  .loop (.lt (.v 4) (.sub (.v 5) (.n 16))) (.seq xy14A_9 (.seq xy14A_10 (.seq xy14A_11 xy14A_12)))

/-- `intra_pred_ang_xy_14_avx`, vec/intrinsic_intra-pred_avx2.cc:5635-5663. -/
def xy14A_14 : Stmt :=
  .run [
    .V 32 (.mask 16 (.n 15)),  -- 5635
    .V 16 (.ld 32 (.sub (.pv (.n 0)) (.n 1))),  -- 5637
    .V 17 (.ld 32 (.pv (.n 0))),  -- 5638
    .V 18 (.ld 32 (.add (.pv (.n 0)) (.n 1))),  -- 5639
    .V 19 (.ld 32 (.add (.pv (.n 0)) (.n 2))),  -- 5640
    .V 20 (.o1 .cvtu8 (.o1 (.half 0) (.v 16))),  -- 5642
    .V 21 (.o1 .cvtu8 (.o1 (.half 0) (.v 17))),  -- 5643
    .V 22 (.o1 .cvtu8 (.o1 (.half 0) (.v 18))),  -- 5644
    .V 23 (.o1 .cvtu8 (.o1 (.half 0) (.v 19))),  -- 5645
    .V 8 (.o2 .mullo16 (.v 20) (.v 1)),  -- 5647
    .V 10 (.o2 .mullo16 (.v 21) (.v 4)),  -- 5648
    .V 12 (.o2 .mullo16 (.v 22) (.v 3)),  -- 5649
    .V 13 (.o2 .add16 (.v 23) (.v 5)),  -- 5650
    .V 8 (.o2 .add16 (.v 8) (.v 13)),  -- 5651
    .V 8 (.o2 .add16 (.v 8) (.v 10)),  -- 5652
    .V 8 (.o2 .add16 (.v 8) (.v 12)),  -- 5653
    .V 8 (.o1 (.srli16 4) (.v 8)),  -- 5654
    .V 8 (.o2 .packus16y (.v 8) (.v 8)),  -- 5656
    .V 8 (.o1 (.perm4 8) (.v 8)),  -- 5657
    .mst 8 32 (.add (.pv (.n 4)) (.v 4)) (.v 32) (.v 8),  -- 5658
    .V 8 (.o2 .add16 (.v 21) (.v 22)),  -- 5660
    .V 8 (.o2 .mullo16 (.v 8) (.v 1)),  -- 5661
    .V 10 (.o2 .add16 (.v 20) (.v 23)),  -- 5662
    .V 10 (.o2 .add16 (.v 10) (.v 2))  -- 5663
  ]

/-- `intra_pred_ang_xy_14_avx`, vec/intrinsic_intra-pred_avx2.cc:5664-5692. -/
def xy14A_15 : Stmt :=
  .run [
    .V 8 (.o2 .add16 (.v 10) (.v 8)),  -- 5664
    .V 8 (.o1 (.srli16 3) (.v 8)),  -- 5665
    .V 8 (.o2 .packus16y (.v 8) (.v 8)),  -- 5667
    .V 8 (.o1 (.perm4 8) (.v 8)),  -- 5668
    .mst 8 32 (.add (.pv (.n 3)) (.v 4)) (.v 32) (.v 8),  -- 5669
    .V 10 (.o2 .mullo16 (.v 21) (.v 3)),  -- 5671
    .V 12 (.o2 .mullo16 (.v 22) (.v 4)),  -- 5672
    .V 13 (.o2 .mullo16 (.v 23) (.v 1)),  -- 5673
    .V 8 (.o2 .add16 (.v 20) (.v 5)),  -- 5674
    .V 8 (.o2 .add16 (.v 8) (.v 10)),  -- 5675
    .V 8 (.o2 .add16 (.v 8) (.v 12)),  -- 5676
    .V 8 (.o2 .add16 (.v 8) (.v 13)),  -- 5677
    .V 8 (.o1 (.srli16 4) (.v 8)),  -- 5678
    .V 8 (.o2 .packus16y (.v 8) (.v 8)),  -- 5680
    .V 8 (.o1 (.perm4 8) (.v 8)),  -- 5681
    .mst 8 32 (.add (.pv (.n 2)) (.v 4)) (.v 32) (.v 8),  -- 5682
    .V 8 (.o2 .add16 (.v 20) (.v 21)),  -- 5684
    .V 10 (.o2 .add16 (.v 21) (.v 22)),  -- 5685
    .V 8 (.o2 .add16 (.v 8) (.v 10)),  -- 5686
    .V 8 (.o2 .add16 (.v 8) (.v 0)),  -- 5687
    .V 8 (.o1 (.srli16 2) (.v 8)),  -- 5688
    .V 8 (.o2 .packus16y (.v 8) (.v 8)),  -- 5690
    .V 8 (.o1 (.perm4 8) (.v 8)),  -- 5691
    .mst 8 32 (.add (.pv (.n 5)) (.v 4)) (.v 32) (.v 8)  -- 5692
  ]

/-- `intra_pred_ang_xy_14_avx`, vec/intrinsic_intra-pred_avx2.cc:5634. -/
def xy14A_16 : Stmt :=
  .ite (.lt (.v 4) (.v 5)) (.seq xy14A_14 xy14A_15) (.run [])

/-- `intra_pred_ang_xy_14_avx`, vec/intrinsic_intra-pred_avx2.cc:5695-5700. -/
def xy14A_17 : Stmt :=
  .run [
    .P (.n 2) (.add (.pv (.n 2)) (.v 6)),  -- 5695
    .P (.n 3) (.add (.pv (.n 3)) (.v 6)),  -- 5696
    .P (.n 4) (.add (.pv (.n 4)) (.v 6)),  -- 5697
    .P (.n 5) (.add (.pv (.n 5)) (.v 6)),  -- 5698
    .I 3 (.shr (.v 3) 2)  -- 5700
  ]

/-- `intra_pred_ang_xy_14_avx`, vec/intrinsic_intra-pred_avx2.cc:5704. -/
def xy14A_18 : Stmt :=
  .run [
    .I 4 (.n 0)  -- 5704
  ]

/-- `intra_pred_ang_xy_14_avx`, vec/intrinsic_intra-pred_avx2.cc:5704-5727. -/
def xy14A_19 : Stmt :=
  .run [
    .V 32 (.ld 32 (.sub (.pv (.n 2)) (.v 4))),  -- 5705
    .st 32 (.pv (.n 1)) (.v 32),  -- 5706
    .V 32 (.ld 32 (.add (.sub (.pv (.n 2)) (.v 4)) (.n 32))),  -- 5707
    .st 32 (.add (.pv (.n 1)) (.n 32)) (.v 32),  -- 5708
    .P (.n 1) (.add (.pv (.n 1)) (.v 0)),  -- 5709
    .V 32 (.ld 32 (.sub (.pv (.n 3)) (.v 4))),  -- 5711
    .st 32 (.pv (.n 1)) (.v 32),  -- 5712
    .V 32 (.ld 32 (.add (.sub (.pv (.n 3)) (.v 4)) (.n 32))),  -- 5713
    .st 32 (.add (.pv (.n 1)) (.n 32)) (.v 32),  -- 5714
    .P (.n 1) (.add (.pv (.n 1)) (.v 0)),  -- 5715
    .V 32 (.ld 32 (.sub (.pv (.n 4)) (.v 4))),  -- 5717
    .st 32 (.pv (.n 1)) (.v 32),  -- 5718
    .V 32 (.ld 32 (.add (.sub (.pv (.n 4)) (.v 4)) (.n 32))),  -- 5719
    .st 32 (.add (.pv (.n 1)) (.n 32)) (.v 32),  -- 5720
    .P (.n 1) (.add (.pv (.n 1)) (.v 0)),  -- 5721
    .V 32 (.ld 32 (.sub (.pv (.n 5)) (.v 4))),  -- 5723
    .st 32 (.pv (.n 1)) (.v 32),  -- 5724
    .V 32 (.ld 32 (.add (.sub (.pv (.n 5)) (.v 4)) (.n 32))),  -- 5725
    .st 32 (.add (.pv (.n 1)) (.n 32)) (.v 32),  -- 5726
    .P (.n 1) (.add (.pv (.n 1)) (.v 0)),  -- 5727
    .I 4 (.add (.v 4) (.n 1))  -- 5704
  ]

/-- `intra_pred_ang_xy_14_avx`, vec/intrinsic_intra-pred_avx2.cc:5704. -/
def xy14A_20 : Stmt :=
  .loop (.lt (.v 4) (.v 3)) xy14A_19

/-- `intra_pred_ang_xy_14_avx`, vec/intrinsic_intra-pred_avx2.cc:5730. -/
def xy14A_21 : Stmt :=
  .run [
    .I 4 (.n 0)  -- 5730
  ]

/-- `intra_pred_ang_xy_14_avx`, vec/intrinsic_intra-pred_avx2.cc:5730-5745. -/
def xy14A_22 : Stmt :=
  .run [
    .V 32 (.ld 32 (.sub (.pv (.n 2)) (.v 4))),  -- 5731
    .st 32 (.pv (.n 1)) (.v 32),  -- 5732
    .P (.n 1) (.add (.pv (.n 1)) (.v 0)),  -- 5733
    .V 32 (.ld 32 (.sub (.pv (.n 3)) (.v 4))),  -- 5735
    .st 32 (.pv (.n 1)) (.v 32),  -- 5736
    .P (.n 1) (.add (.pv (.n 1)) (.v 0)),  -- 5737
    .V 32 (.ld 32 (.sub (.pv (.n 4)) (.v 4))),  -- 5739
    .st 32 (.pv (.n 1)) (.v 32),  -- 5740
    .P (.n 1) (.add (.pv (.n 1)) (.v 0)),  -- 5741
    .V 32 (.ld 32 (.sub (.pv (.n 5)) (.v 4))),  -- 5743
    .st 32 (.pv (.n 1)) (.v 32),  -- 5744
    .P (.n 1) (.add (.pv (.n 1)) (.v 0)),  -- 5745
    .I 4 (.add (.v 4) (.n 1))  -- 5730
  ]

/-- `intra_pred_ang_xy_14_avx`, vec/intrinsic_intra-pred_avx2.cc:5730. -/
def xy14A_23 : Stmt :=
  .loop (.lt (.v 4) (.v 3)) xy14A_22

/-- `intra_pred_ang_xy_14_avx`, vec/intrinsic_intra-pred_avx2.cc:5749-5750. -/
def xy14A_24 : Stmt :=
  .run [
    .V 32 (.mask 16 (.n 15)),  -- 5749
    .I 4 (.n 0)  -- 5750
  ]

/-- `intra_pred_ang_xy_14_avx`, vec/intrinsic_intra-pred_avx2.cc:5750-5765. -/
def xy14A_25 : Stmt :=
  .run [
    .V 33 (.ld 32 (.sub (.pv (.n 2)) (.v 4))),  -- 5751
    .mst 8 32 (.pv (.n 1)) (.v 32) (.v 33),  -- 5752
    .P (.n 1) (.add (.pv (.n 1)) (.v 0)),  -- 5753
    .V 33 (.ld 32 (.sub (.pv (.n 3)) (.v 4))),  -- 5755
    .mst 8 32 (.pv (.n 1)) (.v 32) (.v 33),  -- 5756
    .P (.n 1) (.add (.pv (.n 1)) (.v 0)),  -- 5757
    .V 33 (.ld 32 (.sub (.pv (.n 4)) (.v 4))),  -- 5759
    .mst 8 32 (.pv (.n 1)) (.v 32) (.v 33),  -- 5760
    .P (.n 1) (.add (.pv (.n 1)) (.v 0)),  -- 5761
    .V 33 (.ld 32 (.sub (.pv (.n 5)) (.v 4))),  -- 5763
    .mst 8 32 (.pv (.n 1)) (.v 32) (.v 33),  -- 5764
    .P (.n 1) (.add (.pv (.n 1)) (.v 0)),  -- 5765
    .I 4 (.add (.v 4) (.n 1))  -- 5750
  ]

/-- `intra_pred_ang_xy_14_avx`, vec/intrinsic_intra-pred_avx2.cc:5750. -/
def xy14A_26 : Stmt :=
  .loop (.lt (.v 4) (.v 3)) xy14A_25

/-- `intra_pred_ang_xy_14_avx`, vec/intrinsic_intra-pred_avx2.cc:5768-5769. -/
def xy14A_27 : Stmt :=
  .run [
    .V 32 (.mask 16 (.n 7)),  -- 5768
    .I 4 (.n 0)  -- 5769
  ]

/-- `intra_pred_ang_xy_14_avx`, vec/intrinsic_intra-pred_avx2.cc:5769-5784. -/
def xy14A_28 : Stmt :=
  .run [
    .V 33 (.ld 32 (.sub (.pv (.n 2)) (.v 4))),  -- 5770
    .mst 8 32 (.pv (.n 1)) (.v 32) (.v 33),  -- 5771
    .P (.n 1) (.add (.pv (.n 1)) (.v 0)),  -- 5772
    .V 33 (.ld 32 (.sub (.pv (.n 3)) (.v 4))),  -- 5774
    .mst 8 32 (.pv (.n 1)) (.v 32) (.v 33),  -- 5775
    .P (.n 1) (.add (.pv (.n 1)) (.v 0)),  -- 5776
    .V 33 (.ld 32 (.sub (.pv (.n 4)) (.v 4))),  -- 5778
    .mst 8 32 (.pv (.n 1)) (.v 32) (.v 33),  -- 5779
    .P (.n 1) (.add (.pv (.n 1)) (.v 0)),  -- 5780
    .V 33 (.ld 32 (.sub (.pv (.n 5)) (.v 4))),  -- 5782
    .mst 8 32 (.pv (.n 1)) (.v 32) (.v 33),  -- 5783
    .P (.n 1) (.add (.pv (.n 1)) (.v 0)),  -- 5784
    .I 4 (.add (.v 4) (.n 1))  -- 5769
  ]

/-- `intra_pred_ang_xy_14_avx`, vec/intrinsic_intra-pred_avx2.cc:5769. -/
def xy14A_29 : Stmt :=
  .loop (.lt (.v 4) (.v 3)) xy14A_28

/-- `intra_pred_ang_xy_14_avx`, vec/intrinsic_intra-pred_avx2.cc:5787-5788. -/
def xy14A_30 : Stmt :=
  .run [
    .V 32 (.mask 16 (.n 3)),  -- 5787
    .I 4 (.n 0)  -- 5788
  ]

/-- `intra_pred_ang_xy_14_avx`, vec/intrinsic_intra-pred_avx2.cc:5788-5803. -/
def xy14A_31 : Stmt :=
  .run [
    .V 33 (.ld 32 (.sub (.pv (.n 2)) (.v 4))),  -- 5789
    .mst 4 32 (.pv (.n 1)) (.v 32) (.v 33),  -- 5790
    .P (.n 1) (.add (.pv (.n 1)) (.v 0)),  -- 5791
    .V 33 (.ld 32 (.sub (.pv (.n 3)) (.v 4))),  -- 5793
    .mst 4 32 (.pv (.n 1)) (.v 32) (.v 33),  -- 5794
    .P (.n 1) (.add (.pv (.n 1)) (.v 0)),  -- 5795
    .V 33 (.ld 32 (.sub (.pv (.n 4)) (.v 4))),  -- 5797
    .mst 4 32 (.pv (.n 1)) (.v 32) (.v 33),  -- 5798
    .P (.n 1) (.add (.pv (.n 1)) (.v 0)),  -- 5799
    .V 33 (.ld 32 (.sub (.pv (.n 5)) (.v 4))),  -- 5801
    .mst 4 32 (.pv (.n 1)) (.v 32) (.v 33),  -- 5802
    .P (.n 1) (.add (.pv (.n 1)) (.v 0)),  -- 5803
    .I 4 (.add (.v 4) (.n 1))  -- 5788
  ]

/-- `intra_pred_ang_xy_14_avx`, vec/intrinsic_intra-pred_avx2.cc:5788. -/
def xy14A_32 : Stmt :=
  .loop (.lt (.v 4) (.v 3)) xy14A_31

/-- `intra_pred_ang_xy_14_avx`, vec/intrinsic_intra-pred_avx2.cc:5767. -/
def xy14A_33 : Stmt :=
  .ite (.eq (.v 2) (.n 8)) (.seq xy14A_27 xy14A_29) (.seq xy14A_30 xy14A_32)

/-- `intra_pred_ang_xy_14_avx`, vec/intrinsic_intra-pred_avx2.cc:5748. -/
def xy14A_34 : Stmt :=
  .ite (.eq (.v 2) (.n 16)) (.seq xy14A_24 xy14A_26) xy14A_33

/-- `intra_pred_ang_xy_14_avx`, vec/intrinsic_intra-pred_avx2.cc:5729. -/
def xy14A_35 : Stmt :=
  .ite (.eq (.v 2) (.n 32)) (.seq xy14A_21 xy14A_23) xy14A_34

/-- `intra_pred_ang_xy_14_avx`, vec/intrinsic_intra-pred_avx2.cc:5703. -/
def xy14A_36 : Stmt :=
  .ite (.eq (.v 2) (.n 64)) (.seq xy14A_18 xy14A_20) xy14A_35

/-- `intra_pred_ang_xy_14_avx`, vec/intrinsic_intra-pred_avx2.cc:5820-5850. -/
def xy14A_37 : Stmt :=
  .run [
    .V 6 (.mask 16 (.n 15)),  -- 5820
    .P (.n 2) (.add (.pv (.n 1)) (.v 0)),  -- 5821
    .P (.n 3) (.add (.pv (.n 2)) (.v 0)),  -- 5822
    .P (.n 4) (.add (.pv (.n 3)) (.v 0)),  -- 5823
    .V 15 (.ld 32 (.sub (.pv (.n 0)) (.n 1))),  -- 5827
    .V 16 (.ld 32 (.add (.pv (.n 0)) (.n 2))),  -- 5828
    .V 17 (.ld 32 (.pv (.n 0))),  -- 5829
    .V 18 (.ld 32 (.add (.pv (.n 0)) (.n 1))),  -- 5830
    .V 11 (.o1 .cvtu8 (.o1 (.half 0) (.v 15))),  -- 5832
    .V 12 (.o1 .cvtu8 (.o1 (.half 0) (.v 17))),  -- 5833
    .V 13 (.o1 .cvtu8 (.o1 (.half 0) (.v 18))),  -- 5834
    .V 14 (.o1 .cvtu8 (.o1 (.half 0) (.v 16))),  -- 5835
    .V 7 (.o2 .mullo16 (.v 11) (.v 1)),  -- 5837
    .V 8 (.o2 .mullo16 (.v 12) (.v 4)),  -- 5838
    .V 9 (.o2 .mullo16 (.v 13) (.v 3)),  -- 5839
    .V 10 (.o2 .add16 (.v 14) (.v 5)),  -- 5840
    .V 7 (.o2 .add16 (.v 7) (.v 10)),  -- 5841
    .V 7 (.o2 .add16 (.v 7) (.v 8)),  -- 5842
    .V 7 (.o2 .add16 (.v 7) (.v 9)),  -- 5843
    .V 7 (.o1 (.srli16 4) (.v 7)),  -- 5844
    .V 7 (.o2 .packus16y (.v 7) (.v 7)),  -- 5846
    .V 7 (.o1 (.perm4 8) (.v 7)),  -- 5847
    .mst 8 32 (.pv (.n 3)) (.v 6) (.v 7),  -- 5848
    .V 7 (.o2 .add16 (.v 12) (.v 13))  -- 5850
  ]

/-- `intra_pred_ang_xy_14_avx`, vec/intrinsic_intra-pred_avx2.cc:5851-5879. -/
def xy14A_38 : Stmt :=
  .run [
    .V 7 (.o2 .mullo16 (.v 7) (.v 1)),  -- 5851
    .V 8 (.o2 .add16 (.v 11) (.v 14)),  -- 5852
    .V 8 (.o2 .add16 (.v 8) (.v 2)),  -- 5853
    .V 7 (.o2 .add16 (.v 8) (.v 7)),  -- 5854
    .V 7 (.o1 (.srli16 3) (.v 7)),  -- 5855
    .V 7 (.o2 .packus16y (.v 7) (.v 7)),  -- 5857
    .V 7 (.o1 (.perm4 8) (.v 7)),  -- 5858
    .mst 8 32 (.pv (.n 2)) (.v 6) (.v 7),  -- 5859
    .V 8 (.o2 .mullo16 (.v 12) (.v 3)),  -- 5862
    .V 9 (.o2 .mullo16 (.v 13) (.v 4)),  -- 5863
    .V 10 (.o2 .mullo16 (.v 14) (.v 1)),  -- 5864
    .V 7 (.o2 .add16 (.v 11) (.v 5)),  -- 5865
    .V 7 (.o2 .add16 (.v 7) (.v 8)),  -- 5866
    .V 7 (.o2 .add16 (.v 7) (.v 9)),  -- 5867
    .V 7 (.o2 .add16 (.v 7) (.v 10)),  -- 5868
    .V 7 (.o1 (.srli16 4) (.v 7)),  -- 5869
    .V 7 (.o2 .packus16y (.v 7) (.v 7)),  -- 5871
    .V 7 (.o1 (.perm4 8) (.v 7)),  -- 5872
    .mst 8 32 (.pv (.n 1)) (.v 6) (.v 7),  -- 5873
    .V 7 (.o2 .add16 (.v 11) (.v 12)),  -- 5875
    .V 8 (.o2 .add16 (.v 12) (.v 13)),  -- 5876
    .V 7 (.o2 .add16 (.v 7) (.v 8)),  -- 5877
    .V 7 (.o2 .add16 (.v 7) (.v 0)),  -- 5878
    .V 7 (.o1 (.srli16 2) (.v 7))  -- 5879
  ]

/-- `intra_pred_ang_xy_14_avx`, vec/intrinsic_intra-pred_avx2.cc:5881-5883. -/
def xy14A_39 : Stmt :=
  .run [
    .V 7 (.o2 .packus16y (.v 7) (.v 7)),  -- 5881
    .V 7 (.o1 (.perm4 8) (.v 7)),  -- 5882
    .mst 8 32 (.pv (.n 4)) (.v 6) (.v 7)  -- 5883
  ]

/-- `intra_pred_ang_xy_14_avx`, vec/intrinsic_intra-pred_avx2.cc:5885-5912. -/
def xy14A_40 : Stmt :=
  .run [
    .P (.n 2) (.add (.pv (.n 1)) (.v 0)),  -- 5885
    .P (.n 3) (.add (.pv (.n 2)) (.v 0)),  -- 5886
    .P (.n 4) (.add (.pv (.n 3)) (.v 0)),  -- 5887
    .V 10 (.set1_16 (.n 2)),  -- 5889
    .V 11 (.set1_16 (.n 3)),  -- 5890
    .V 12 (.set1_16 (.n 4)),  -- 5891
    .V 13 (.set1_16 (.n 5)),  -- 5892
    .V 14 (.set1_16 (.n 7)),  -- 5893
    .V 15 (.set1_16 (.n 8)),  -- 5894
    .V 16 .zero,  -- 5895
    .V 17 (.ld 16 (.sub (.pv (.n 0)) (.n 1))),  -- 5897
    .V 18 (.ld 16 (.add (.pv (.n 0)) (.n 2))),  -- 5898
    .V 19 (.ld 16 (.pv (.n 0))),  -- 5899
    .V 20 (.ld 16 (.add (.pv (.n 0)) (.n 1))),  -- 5900
    .V 21 (.o2 .unpacklo8 (.v 17) (.v 16)),  -- 5902
    .V 22 (.o2 .unpacklo8 (.v 19) (.v 16)),  -- 5903
    .V 23 (.o2 .unpacklo8 (.v 20) (.v 16)),  -- 5904
    .V 24 (.o2 .unpacklo8 (.v 18) (.v 16)),  -- 5905
    .V 6 (.o2 .mullo16 (.v 21) (.v 11)),  -- 5907
    .V 7 (.o2 .mullo16 (.v 22) (.v 14)),  -- 5908
    .V 8 (.o2 .mullo16 (.v 23) (.v 13)),  -- 5909
    .V 9 (.o2 .add16 (.v 24) (.v 15)),  -- 5910
    .V 6 (.o2 .add16 (.v 6) (.v 9)),  -- 5911
    .V 6 (.o2 .add16 (.v 6) (.v 7))  -- 5912
  ]

/-- `intra_pred_ang_xy_14_avx`, vec/intrinsic_intra-pred_avx2.cc:5913-5942. -/
def xy14A_41 : Stmt :=
  .run [
    .V 6 (.o2 .add16 (.v 6) (.v 8)),  -- 5913
    .V 6 (.o1 (.srli16 4) (.v 6)),  -- 5914
    .V 6 (.o2 .packus16 (.v 6) (.v 6)),  -- 5916
    .st 4 (.pv (.n 3)) (.v 6),  -- 5917
    .V 6 (.o2 .add16 (.v 22) (.v 23)),  -- 5919
    .V 6 (.o2 .mullo16 (.v 6) (.v 11)),  -- 5920
    .V 7 (.o2 .add16 (.v 21) (.v 24)),  -- 5921
    .V 7 (.o2 .add16 (.v 7) (.v 12)),  -- 5922
    .V 6 (.o2 .add16 (.v 7) (.v 6)),  -- 5923
    .V 6 (.o1 (.srli16 3) (.v 6)),  -- 5924
    .V 6 (.o2 .packus16 (.v 6) (.v 6)),  -- 5926
    .st 4 (.pv (.n 2)) (.v 6),  -- 5927
    .V 7 (.o2 .mullo16 (.v 22) (.v 13)),  -- 5929
    .V 8 (.o2 .mullo16 (.v 23) (.v 14)),  -- 5930
    .V 9 (.o2 .mullo16 (.v 24) (.v 11)),  -- 5931
    .V 6 (.o2 .add16 (.v 21) (.v 15)),  -- 5932
    .V 6 (.o2 .add16 (.v 6) (.v 7)),  -- 5933
    .V 6 (.o2 .add16 (.v 6) (.v 8)),  -- 5934
    .V 6 (.o2 .add16 (.v 6) (.v 9)),  -- 5935
    .V 6 (.o1 (.srli16 4) (.v 6)),  -- 5936
    .V 6 (.o2 .packus16 (.v 6) (.v 6)),  -- 5938
    .st 4 (.pv (.n 1)) (.v 6),  -- 5939
    .V 6 (.o2 .add16 (.v 21) (.v 22)),  -- 5941
    .V 7 (.o2 .add16 (.v 22) (.v 23))  -- 5942
  ]

/-- `intra_pred_ang_xy_14_avx`, vec/intrinsic_intra-pred_avx2.cc:5943-5948. -/
def xy14A_42 : Stmt :=
  .run [
    .V 6 (.o2 .add16 (.v 6) (.v 7)),  -- 5943
    .V 6 (.o2 .add16 (.v 6) (.v 10)),  -- 5944
    .V 6 (.o1 (.srli16 2) (.v 6)),  -- 5945
    .V 6 (.o2 .packus16 (.v 6) (.v 6)),  -- 5947
    .st 4 (.pv (.n 4)) (.v 6)  -- 5948
  ]

/-- `intra_pred_ang_xy_14_avx`, vec/intrinsic_intra-pred_avx2.cc:5819. -/
def xy14A_43 : Stmt :=
  .ite (.eq (.v 2) (.n 16)) (.seq xy14A_37 (.seq xy14A_38 xy14A_39)) (.seq xy14A_40 (.seq xy14A_41 xy14A_42))

/-- `intra_pred_ang_xy_14_avx`, vec/intrinsic_intra-pred_avx2.cc:5434. -/
def xy14A_44 : Stmt :=
  .ite (.ne (.v 3) (.n 4)) (.seq xy14A_2 (.seq xy14A_5 (.seq xy14A_7 (.seq xy14A_8 (.seq xy14A_13 (.seq xy14A_16 (.seq xy14A_17 xy14A_36))))))) xy14A_43

/-- `intra_pred_ang_xy_14_avx`, source/common/vec/intrinsic_intra-pred_avx2.cc:5422-5952.  Variables:
I: 0 i_dst, 1 dir_mode, 2 bsx, 3 bsy, 4 i, 5 line_size, 6 left_size, 7 aligned_line_size;
P: 0 src, 1 dst, 2 pfirst/dst2, 3 dst3, 4 dst4, 6 pSrc1;
V: 0 coeff2, 1 coeff3, 2 coeff4, 3 coeff5, 4 coeff7, 5 coeff8, 6 shuffle/mask/p00, 7 index/p00/p10, 8 p00/p10/p20, 9 p01/p20/p30, 10 p10/p30/coeff_2, 11 p11/L0/coeff_3, 12 p20/L1/coeff_4, 13 p30/L2/coeff_5, 14 p21/L3/coeff_7, 15 p31/S0/coeff_8, 16 S0/S3/zero, 17 S1/S0, 18 S2/S3, 19 S3/S1, 20 L0/S2, 21 L1/L0, 22 L2/L1, 23 L3/L2, 24 H0/L3, 25 H1, 26 H2, 27 H3, 28 mask0, 29 mask1, 30 mask2, 31 mask3, 32 shuffle1/mask/M, 33 coeff_2/M, 34 zero, 35 S_0, 36 S_2, 37 S_1, 38 L_0, 39 L_1, 40 L_2, 41 p_00, 42 p_01. -/
def xy14A : Stmt :=
  .seq xy14A_1 xy14A_44

/-- `intra_pred_ang_xy_16_avx`, vec/intrinsic_intra-pred_avx2.cc:5956-5983. -/
def xy16A_1 : Stmt :=
  .run [
    .alloc 0 224,  -- 5956
    .I 4 (.sub (.add (.v 2) (.div (.v 3) (.n 2))) (.n 1)),  -- 5957
    .I 5 (.sub (.v 4) (.v 2)),  -- 5958
    .I 6 (.shl (.shr (.add (.v 4) (.n 31)) 4) 4),  -- 5959
    .V 0 (.set1_16 (.n 2)),  -- 5962
    .V 1 (.set1_16 (.n 3)),  -- 5963
    .V 2 (.set1_16 (.n 4)),  -- 5964
    .V 3 (.setr8 [0, 2, 4, 6, 8, 10, 12, 14, 1, 3, 5, 7, 9, 11, 13, 15, 0, 2, 4, 6, 8, 10, 12, 14, 1, 3, 5, 7, 9, 11, 13, 15]),  -- 5965
    .P (.n 2) (.pa 0),  -- 5971
    .P (.n 3) (.add (.pa 0) (.v 6)),  -- 5972
    .P (.n 0) (.sub (.pv (.n 0)) (.sub (.v 3) (.n 2))),  -- 5974
    .P (.n 4) (.pv (.n 0)),  -- 5975
    .V 20 (.mask 16 (.n 15)),  -- 5982
    .I 7 (.n 0)  -- 5983
  ]

/-- `intra_pred_ang_xy_16_avx`, vec/intrinsic_intra-pred_avx2.cc:5985-6019. -/
def xy16A_2 : Stmt :=
  .run [
    .V 8 (.ld 32 (.sub (.pv (.n 0)) (.n 1))),  -- 5985
    .V 10 (.ld 32 (.add (.pv (.n 0)) (.n 1))),  -- 5986
    .V 9 (.ld 32 (.pv (.n 0))),  -- 5987
    .V 12 (.o1 .cvtu8 (.o1 (.half 0) (.v 8))),  -- 5989
    .V 13 (.o1 .cvtu8 (.o1 (.half 0) (.v 9))),  -- 5990
    .V 14 (.o1 .cvtu8 (.o1 (.half 0) (.v 10))),  -- 5991
    .V 16 (.o1 .cvtu8 (.o1 (.half 1) (.v 8))),  -- 5993
    .V 17 (.o1 .cvtu8 (.o1 (.half 1) (.v 9))),  -- 5994
    .V 18 (.o1 .cvtu8 (.o1 (.half 1) (.v 10))),  -- 5995
    .V 4 (.o2 .add16 (.v 12) (.v 13)),  -- 5997
    .V 5 (.o2 .add16 (.v 13) (.v 14)),  -- 5998
    .V 6 (.o2 .add16 (.v 16) (.v 17)),  -- 5999
    .V 7 (.o2 .add16 (.v 17) (.v 18)),  -- 6000
    .V 4 (.o2 .add16 (.v 4) (.v 0)),  -- 6002
    .V 6 (.o2 .add16 (.v 6) (.v 0)),  -- 6003
    .V 4 (.o2 .add16 (.v 4) (.v 5)),  -- 6005
    .V 6 (.o2 .add16 (.v 6) (.v 7)),  -- 6006
    .V 4 (.o1 (.srli16 2) (.v 4)),  -- 6008
    .V 6 (.o1 (.srli16 2) (.v 6)),  -- 6009
    .V 4 (.o2 .packus16y (.v 4) (.v 6)),  -- 6012
    .V 4 (.o1 (.perm4 216) (.v 4)),  -- 6013
    .V 4 (.o2 .shuffle8y (.v 4) (.v 3)),  -- 6016
    .V 6 (.o1 (.perm4 8) (.v 4)),  -- 6018
    .V 4 (.o1 (.perm4 13) (.v 4))  -- 6019
  ]

/-- `intra_pred_ang_xy_16_avx`, vec/intrinsic_intra-pred_avx2.cc:5983-6022. -/
def xy16A_3 : Stmt :=
  .run [
    .mst 8 32 (.add (.pv (.n 2)) (.v 7)) (.v 20) (.v 4),  -- 6021
    .mst 8 32 (.add (.pv (.n 3)) (.v 7)) (.v 20) (.v 6),  -- 6022
    .I 7 (.add (.v 7) (.n 16)),  -- 5983
    .P (.n 0) (.add (.pv (.n 0)) (.n 32))
  ]

/-- `intra_pred_ang_xy_16_avx`, vec/intrinsic_intra-pred_avx2.cc:5983. -/
def xy16A_4 : Stmt :=
  .loop (.lt (.v 7) (.sub (.v 5) (.n 8))) (.seq xy16A_2 xy16A_3)

/-- `intra_pred_ang_xy_16_avx`, vec/intrinsic_intra-pred_avx2.cc:6026. -/
def xy16A_5 : Stmt :=
  .run [
    .V 21 (.mask 16 (.n 7))  -- 6026
  ]

/-- `intra_pred_ang_xy_16_avx`, vec/intrinsic_intra-pred_avx2.cc:6028-6051. -/
def xy16A_6 : Stmt :=
  .run [
    .V 8 (.ld 32 (.sub (.pv (.n 0)) (.n 1))),  -- 6028
    .V 10 (.ld 32 (.add (.pv (.n 0)) (.n 1))),  -- 6029
    .V 9 (.ld 32 (.pv (.n 0))),  -- 6030
    .V 12 (.o1 .cvtu8 (.o1 (.half 0) (.v 8))),  -- 6032
    .V 13 (.o1 .cvtu8 (.o1 (.half 0) (.v 9))),  -- 6033
    .V 14 (.o1 .cvtu8 (.o1 (.half 0) (.v 10))),  -- 6034
    .V 4 (.o2 .add16 (.v 12) (.v 13)),  -- 6036
    .V 5 (.o2 .add16 (.v 13) (.v 14)),  -- 6037
    .V 4 (.o2 .add16 (.v 4) (.v 0)),  -- 6038
    .V 4 (.o2 .add16 (.v 4) (.v 5)),  -- 6039
    .V 4 (.o1 (.srli16 2) (.v 4)),  -- 6040
    .V 4 (.o2 .packus16y (.v 4) (.v 4)),  -- 6043
    .V 4 (.o1 (.perm4 8) (.v 4)),  -- 6044
    .V 5 (.o2 .shuffle8y (.v 4) (.v 3)),  -- 6046
    .V 6 (.o1 (.perm4 1) (.v 5)),  -- 6048
    .mst 8 32 (.add (.pv (.n 2)) (.v 7)) (.v 21) (.v 6),  -- 6050
    .mst 8 32 (.add (.pv (.n 3)) (.v 7)) (.v 21) (.v 5)  -- 6051
  ]

/-- `intra_pred_ang_xy_16_avx`, vec/intrinsic_intra-pred_avx2.cc:6027. -/
def xy16A_7 : Stmt :=
  .ite (.lt (.v 7) (.v 5)) xy16A_6 (.run [])

/-- `intra_pred_ang_xy_16_avx`, vec/intrinsic_intra-pred_avx2.cc:6054-6056. -/
def xy16A_8 : Stmt :=
  .run [
    .P (.n 0) (.add (.add (.pv (.n 4)) (.v 5)) (.v 5)),  -- 6054
    .I 7 (.v 5)  -- 6056
  ]

/-- `intra_pred_ang_xy_16_avx`, vec/intrinsic_intra-pred_avx2.cc:6058-6085. -/
def xy16A_9 : Stmt :=
  .run [
    .V 8 (.ld 32 (.sub (.pv (.n 0)) (.n 1))),  -- 6058
    .V 11 (.ld 32 (.add (.pv (.n 0)) (.n 2))),  -- 6059
    .V 9 (.ld 32 (.pv (.n 0))),  -- 6060
    .V 10 (.ld 32 (.add (.pv (.n 0)) (.n 1))),  -- 6061
    .V 12 (.o1 .cvtu8 (.o1 (.half 0) (.v 8))),  -- 6063
    .V 13 (.o1 .cvtu8 (.o1 (.half 0) (.v 9))),  -- 6064
    .V 14 (.o1 .cvtu8 (.o1 (.half 0) (.v 10))),  -- 6065
    .V 15 (.o1 .cvtu8 (.o1 (.half 0) (.v 11))),  -- 6066
    .V 16 (.o1 .cvtu8 (.o1 (.half 1) (.v 8))),  -- 6068
    .V 17 (.o1 .cvtu8 (.o1 (.half 1) (.v 9))),  -- 6069
    .V 18 (.o1 .cvtu8 (.o1 (.half 1) (.v 10))),  -- 6070
    .V 19 (.o1 .cvtu8 (.o1 (.half 1) (.v 11))),  -- 6071
    .V 4 (.o2 .add16 (.v 13) (.v 14)),  -- 6073
    .V 5 (.o2 .add16 (.v 12) (.v 15)),  -- 6074
    .V 4 (.o2 .mullo16 (.v 4) (.v 1)),  -- 6075
    .V 4 (.o2 .add16 (.v 4) (.v 2)),  -- 6076
    .V 4 (.o2 .add16 (.v 4) (.v 5)),  -- 6077
    .V 4 (.o1 (.srli16 3) (.v 4)),  -- 6078
    .V 6 (.o2 .add16 (.v 17) (.v 18)),  -- 6080
    .V 7 (.o2 .add16 (.v 16) (.v 19)),  -- 6081
    .V 6 (.o2 .mullo16 (.v 6) (.v 1)),  -- 6082
    .V 6 (.o2 .add16 (.v 6) (.v 2)),  -- 6083
    .V 6 (.o2 .add16 (.v 6) (.v 7)),  -- 6084
    .V 6 (.o1 (.srli16 3) (.v 6))  -- 6085
  ]

/-- `intra_pred_ang_xy_16_avx`, vec/intrinsic_intra-pred_avx2.cc:6056-6107. -/
def xy16A_10 : Stmt :=
  .run [
    .V 4 (.o2 .packus16y (.v 4) (.v 6)),  -- 6087
    .V 4 (.o1 (.perm4 216) (.v 4)),  -- 6088
    .st 32 (.add (.pv (.n 2)) (.v 7)) (.v 4),  -- 6089
    .V 4 (.o2 .add16 (.v 12) (.v 13)),  -- 6091
    .V 5 (.o2 .add16 (.v 13) (.v 14)),  -- 6092
    .V 6 (.o2 .add16 (.v 16) (.v 17)),  -- 6093
    .V 7 (.o2 .add16 (.v 17) (.v 18)),  -- 6094
    .V 4 (.o2 .add16 (.v 4) (.v 0)),  -- 6096
    .V 6 (.o2 .add16 (.v 6) (.v 0)),  -- 6097
    .V 4 (.o2 .add16 (.v 4) (.v 5)),  -- 6099
    .V 6 (.o2 .add16 (.v 6) (.v 7)),  -- 6100
    .V 4 (.o1 (.srli16 2) (.v 4)),  -- 6102
    .V 6 (.o1 (.srli16 2) (.v 6)),  -- 6103
    .V 4 (.o2 .packus16y (.v 4) (.v 6)),  -- 6105
    .V 4 (.o1 (.perm4 216) (.v 4)),  -- 6106
    .st 32 (.add (.pv (.n 3)) (.v 7)) (.v 4),  -- 6107
    .I 7 (.add (.v 7) (.n 32)),  -- 6056
    .P (.n 0) (.add (.pv (.n 0)) (.n 32))
  ]

/-- `intra_pred_ang_xy_16_avx`, vec/intrinsic_intra-pred_avx2.cc:6056. -/
def xy16A_11 : Stmt :=
  .loop (.lt (.v 7) (.sub (.v 4) (.n 16))) (.seq xy16A_9 xy16A_10)

/-- `intra_pred_ang_xy_16_avx`, vec/intrinsic_intra-pred_avx2.cc:6113-6141. -/
def xy16A_12 : Stmt :=
  .run [
    .V 8 (.ld 32 (.sub (.pv (.n 0)) (.n 1))),  -- 6113
    .V 11 (.ld 32 (.add (.pv (.n 0)) (.n 2))),  -- 6114
    .V 9 (.ld 32 (.pv (.n 0))),  -- 6115
    .V 10 (.ld 32 (.add (.pv (.n 0)) (.n 1))),  -- 6116
    .V 12 (.o1 .cvtu8 (.o1 (.half 0) (.v 8))),  -- 6118
    .V 13 (.o1 .cvtu8 (.o1 (.half 0) (.v 9))),  -- 6119
    .V 14 (.o1 .cvtu8 (.o1 (.half 0) (.v 10))),  -- 6120
    .V 15 (.o1 .cvtu8 (.o1 (.half 0) (.v 11))),  -- 6121
    .V 4 (.o2 .add16 (.v 13) (.v 14)),  -- 6123
    .V 5 (.o2 .add16 (.v 12) (.v 15)),  -- 6124
    .V 4 (.o2 .mullo16 (.v 4) (.v 1)),  -- 6125
    .V 4 (.o2 .add16 (.v 4) (.v 2)),  -- 6126
    .V 4 (.o2 .add16 (.v 4) (.v 5)),  -- 6127
    .V 4 (.o1 (.srli16 3) (.v 4)),  -- 6128
    .V 4 (.o2 .packus16y (.v 4) (.v 4)),  -- 6130
    .V 4 (.o1 (.perm4 8) (.v 4)),  -- 6131
    .mst 8 32 (.add (.pv (.n 2)) (.v 7)) (.v 20) (.v 4),  -- 6132
    .V 4 (.o2 .add16 (.v 12) (.v 13)),  -- 6134
    .V 5 (.o2 .add16 (.v 13) (.v 14)),  -- 6135
    .V 4 (.o2 .add16 (.v 4) (.v 0)),  -- 6136
    .V 4 (.o2 .add16 (.v 4) (.v 5)),  -- 6137
    .V 4 (.o1 (.srli16 2) (.v 4)),  -- 6138
    .V 4 (.o2 .packus16y (.v 4) (.v 4)),  -- 6140
    .V 4 (.o1 (.perm4 8) (.v 4))  -- 6141
  ]

/-- `intra_pred_ang_xy_16_avx`, vec/intrinsic_intra-pred_avx2.cc:6142. -/
def xy16A_13 : Stmt :=
  .run [
    .mst 8 32 (.add (.pv (.n 3)) (.v 7)) (.v 20) (.v 4)  -- 6142
  ]

/-- `intra_pred_ang_xy_16_avx`, vec/intrinsic_intra-pred_avx2.cc:6111. -/
def xy16A_14 : Stmt :=
  .ite (.lt (.v 7) (.v 4)) (.seq xy16A_12 xy16A_13) (.run [])

/-- `intra_pred_ang_xy_16_avx`, vec/intrinsic_intra-pred_avx2.cc:6146-6149. -/
def xy16A_15 : Stmt :=
  .run [
    .P (.n 2) (.add (.pv (.n 2)) (.v 5)),  -- 6146
    .P (.n 3) (.add (.pv (.n 3)) (.v 5)),  -- 6147
    .I 3 (.shr (.v 3) 1)  -- 6149
  ]

/-- `intra_pred_ang_xy_16_avx`, vec/intrinsic_intra-pred_avx2.cc:6153. -/
def xy16A_16 : Stmt :=
  .run [
    .I 7 (.n 0)  -- 6153
  ]

/-- `intra_pred_ang_xy_16_avx`, vec/intrinsic_intra-pred_avx2.cc:6155-6182. -/
def xy16A_17 : Stmt :=
  .run [
    .V 22 (.ld 32 (.sub (.pv (.n 2)) (.v 7))),  -- 6155
    .st 32 (.pv (.n 1)) (.v 22),  -- 6156
    .V 22 (.ld 32 (.add (.sub (.pv (.n 2)) (.v 7)) (.n 32))),  -- 6157
    .st 32 (.add (.pv (.n 1)) (.n 32)) (.v 22),  -- 6158
    .P (.n 1) (.add (.pv (.n 1)) (.v 0)),  -- 6159
    .V 22 (.ld 32 (.sub (.pv (.n 3)) (.v 7))),  -- 6161
    .st 32 (.pv (.n 1)) (.v 22),  -- 6162
    .V 22 (.ld 32 (.add (.sub (.pv (.n 3)) (.v 7)) (.n 32))),  -- 6163
    .st 32 (.add (.pv (.n 1)) (.n 32)) (.v 22),  -- 6164
    .P (.n 1) (.add (.pv (.n 1)) (.v 0)),  -- 6165
    .V 22 (.ld 32 (.sub (.sub (.pv (.n 2)) (.v 7)) (.n 1))),  -- 6167
    .st 32 (.pv (.n 1)) (.v 22),  -- 6168
    .V 22 (.ld 32 (.add (.sub (.sub (.pv (.n 2)) (.v 7)) (.n 1)) (.n 32))),  -- 6169
    .st 32 (.add (.pv (.n 1)) (.n 32)) (.v 22),  -- 6170
    .P (.n 1) (.add (.pv (.n 1)) (.v 0)),  -- 6171
    .V 22 (.ld 32 (.sub (.sub (.pv (.n 3)) (.v 7)) (.n 1))),  -- 6173
    .st 32 (.pv (.n 1)) (.v 22),  -- 6174
    .V 22 (.ld 32 (.add (.sub (.sub (.pv (.n 3)) (.v 7)) (.n 1)) (.n 32))),  -- 6175
    .st 32 (.add (.pv (.n 1)) (.n 32)) (.v 22),  -- 6176
    .P (.n 1) (.add (.pv (.n 1)) (.v 0)),  -- 6177
    .V 22 (.ld 32 (.sub (.sub (.pv (.n 2)) (.v 7)) (.n 2))),  -- 6179
    .st 32 (.pv (.n 1)) (.v 22),  -- 6180
    .V 22 (.ld 32 (.add (.sub (.sub (.pv (.n 2)) (.v 7)) (.n 2)) (.n 32))),  -- 6181
    .st 32 (.add (.pv (.n 1)) (.n 32)) (.v 22)  -- 6182
  ]

/-- `intra_pred_ang_xy_16_avx`, vec/intrinsic_intra-pred_avx2.cc:6153-6201. -/
def xy16A_18 : Stmt :=
  .run [
    .P (.n 1) (.add (.pv (.n 1)) (.v 0)),  -- 6183
    .V 22 (.ld 32 (.sub (.sub (.pv (.n 3)) (.v 7)) (.n 2))),  -- 6185
    .st 32 (.pv (.n 1)) (.v 22),  -- 6186
    .V 22 (.ld 32 (.add (.sub (.sub (.pv (.n 3)) (.v 7)) (.n 2)) (.n 32))),  -- 6187
    .st 32 (.add (.pv (.n 1)) (.n 32)) (.v 22),  -- 6188
    .P (.n 1) (.add (.pv (.n 1)) (.v 0)),  -- 6189
    .V 22 (.ld 32 (.sub (.sub (.pv (.n 2)) (.v 7)) (.n 3))),  -- 6191
    .st 32 (.pv (.n 1)) (.v 22),  -- 6192
    .V 22 (.ld 32 (.add (.sub (.sub (.pv (.n 2)) (.v 7)) (.n 3)) (.n 32))),  -- 6193
    .st 32 (.add (.pv (.n 1)) (.n 32)) (.v 22),  -- 6194
    .P (.n 1) (.add (.pv (.n 1)) (.v 0)),  -- 6195
    .V 22 (.ld 32 (.sub (.sub (.pv (.n 3)) (.v 7)) (.n 3))),  -- 6197
    .st 32 (.pv (.n 1)) (.v 22),  -- 6198
    .V 22 (.ld 32 (.add (.sub (.sub (.pv (.n 3)) (.v 7)) (.n 3)) (.n 32))),  -- 6199
    .st 32 (.add (.pv (.n 1)) (.n 32)) (.v 22),  -- 6200
    .P (.n 1) (.add (.pv (.n 1)) (.v 0)),  -- 6201
    .I 7 (.add (.v 7) (.n 4))  -- 6153
  ]

/-- `intra_pred_ang_xy_16_avx`, vec/intrinsic_intra-pred_avx2.cc:6153. -/
def xy16A_19 : Stmt :=
  .loop (.lt (.v 7) (.v 3)) (.seq xy16A_17 xy16A_18)

/-- `intra_pred_ang_xy_16_avx`, vec/intrinsic_intra-pred_avx2.cc:6205. -/
def xy16A_20 : Stmt :=
  .run [
    .I 7 (.n 0)  -- 6205
  ]

/-- `intra_pred_ang_xy_16_avx`, vec/intrinsic_intra-pred_avx2.cc:6206-6236. -/
def xy16A_21 : Stmt :=
  .run [
    .V 22 (.ld 32 (.sub (.pv (.n 2)) (.v 7))),  -- 6206
    .st 32 (.pv (.n 1)) (.v 22),  -- 6207
    .P (.n 1) (.add (.pv (.n 1)) (.v 0)),  -- 6208
    .V 22 (.ld 32 (.sub (.pv (.n 3)) (.v 7))),  -- 6210
    .st 32 (.pv (.n 1)) (.v 22),  -- 6211
    .P (.n 1) (.add (.pv (.n 1)) (.v 0)),  -- 6212
    .V 22 (.ld 32 (.sub (.sub (.pv (.n 2)) (.v 7)) (.n 1))),  -- 6214
    .st 32 (.pv (.n 1)) (.v 22),  -- 6215
    .P (.n 1) (.add (.pv (.n 1)) (.v 0)),  -- 6216
    .V 22 (.ld 32 (.sub (.sub (.pv (.n 3)) (.v 7)) (.n 1))),  -- 6218
    .st 32 (.pv (.n 1)) (.v 22),  -- 6219
    .P (.n 1) (.add (.pv (.n 1)) (.v 0)),  -- 6220
    .V 22 (.ld 32 (.sub (.sub (.pv (.n 2)) (.v 7)) (.n 2))),  -- 6222
    .st 32 (.pv (.n 1)) (.v 22),  -- 6223
    .P (.n 1) (.add (.pv (.n 1)) (.v 0)),  -- 6224
    .V 22 (.ld 32 (.sub (.sub (.pv (.n 3)) (.v 7)) (.n 2))),  -- 6226
    .st 32 (.pv (.n 1)) (.v 22),  -- 6227
    .P (.n 1) (.add (.pv (.n 1)) (.v 0)),  -- 6228
    .V 22 (.ld 32 (.sub (.sub (.pv (.n 2)) (.v 7)) (.n 3))),  -- 6230
    .st 32 (.pv (.n 1)) (.v 22),  -- 6231
    .P (.n 1) (.add (.pv (.n 1)) (.v 0)),  -- 6232
    .V 22 (.ld 32 (.sub (.sub (.pv (.n 3)) (.v 7)) (.n 3))),  -- 6234
    .st 32 (.pv (.n 1)) (.v 22),  -- 6235
    .P (.n 1) (.add (.pv (.n 1)) (.v 0))  -- 6236
  ]

/-- `intra_pred_ang_xy_16_avx`, vec/intrinsic_intra-pred_avx2.cc:6205. -/
def xy16A_22 : Stmt :=
  .run [
    .I 7 (.add (.v 7) (.n 4))  -- 6205
  ]

/-- `intra_pred_ang_xy_16_avx`, vec/intrinsic_intra-pred_avx2.cc:6205. -/
def xy16A_23 : Stmt :=
  .loop (.lt (.v 7) (.v 3)) (.seq xy16A_21 xy16A_22)

/-- `intra_pred_ang_xy_16_avx`, vec/intrinsic_intra-pred_avx2.cc:6239-6240. -/
def xy16A_24 : Stmt :=
  .run [
    .V 22 (.mask 16 (.sub (.v 2) (.n 1))),  -- 6239
    .I 7 (.n 0)  -- 6240
  ]

/-- `intra_pred_ang_xy_16_avx`, vec/intrinsic_intra-pred_avx2.cc:6241-6267. -/
def xy16A_25 : Stmt :=
  .run [
    .V 23 (.ld 32 (.sub (.pv (.n 2)) (.v 7))),  -- 6241
    .mst 8 32 (.pv (.n 1)) (.v 22) (.v 23),  -- 6242
    .P (.n 1) (.add (.pv (.n 1)) (.v 0)),  -- 6243
    .V 23 (.ld 32 (.sub (.pv (.n 3)) (.v 7))),  -- 6244
    .mst 8 32 (.pv (.n 1)) (.v 22) (.v 23),  -- 6245
    .P (.n 1) (.add (.pv (.n 1)) (.v 0)),  -- 6246
    .V 23 (.ld 32 (.sub (.sub (.pv (.n 2)) (.v 7)) (.n 1))),  -- 6248
    .mst 8 32 (.pv (.n 1)) (.v 22) (.v 23),  -- 6249
    .P (.n 1) (.add (.pv (.n 1)) (.v 0)),  -- 6250
    .V 23 (.ld 32 (.sub (.sub (.pv (.n 3)) (.v 7)) (.n 1))),  -- 6251
    .mst 8 32 (.pv (.n 1)) (.v 22) (.v 23),  -- 6252
    .P (.n 1) (.add (.pv (.n 1)) (.v 0)),  -- 6253
    .V 23 (.ld 32 (.sub (.sub (.pv (.n 2)) (.v 7)) (.n 2))),  -- 6255
    .mst 8 32 (.pv (.n 1)) (.v 22) (.v 23),  -- 6256
    .P (.n 1) (.add (.pv (.n 1)) (.v 0)),  -- 6257
    .V 23 (.ld 32 (.sub (.sub (.pv (.n 3)) (.v 7)) (.n 2))),  -- 6258
    .mst 8 32 (.pv (.n 1)) (.v 22) (.v 23),  -- 6259
    .P (.n 1) (.add (.pv (.n 1)) (.v 0)),  -- 6260
    .V 23 (.ld 32 (.sub (.sub (.pv (.n 2)) (.v 7)) (.n 3))),  -- 6262
    .mst 8 32 (.pv (.n 1)) (.v 22) (.v 23),  -- 6263
    .P (.n 1) (.add (.pv (.n 1)) (.v 0)),  -- 6264
    .V 23 (.ld 32 (.sub (.sub (.pv (.n 3)) (.v 7)) (.n 3))),  -- 6265
    .mst 8 32 (.pv (.n 1)) (.v 22) (.v 23),  -- 6266
    .P (.n 1) (.add (.pv (.n 1)) (.v 0))  -- 6267
  ]

/-- `intra_pred_ang_xy_16_avx`, vec/intrinsic_intra-pred_avx2.cc:6240. -/
def xy16A_26 : Stmt :=
  .run [
    .I 7 (.add (.v 7) (.n 4))  -- 6240
  ]

/-- `intra_pred_ang_xy_16_avx`, vec/intrinsic_intra-pred_avx2.cc:6240. -/
def xy16A_27 : Stmt :=
  .loop (.lt (.v 7) (.v 3)) (.seq xy16A_25 xy16A_26)

/-- `intra_pred_ang_xy_16_avx`, vec/intrinsic_intra-pred_avx2.cc:6270-6271. -/
def xy16A_28 : Stmt :=
  .run [
    .V 22 (.mask 16 (.sub (.v 2) (.n 1))),  -- 6270
    .I 7 (.n 0)  -- 6271
  ]

/-- `intra_pred_ang_xy_16_avx`, vec/intrinsic_intra-pred_avx2.cc:6272-6298. -/
def xy16A_29 : Stmt :=
  .run [
    .V 23 (.ld 32 (.sub (.pv (.n 2)) (.v 7))),  -- 6272
    .mst 8 32 (.pv (.n 1)) (.v 22) (.v 23),  -- 6273
    .P (.n 1) (.add (.pv (.n 1)) (.v 0)),  -- 6274
    .V 23 (.ld 32 (.sub (.pv (.n 3)) (.v 7))),  -- 6275
    .mst 8 32 (.pv (.n 1)) (.v 22) (.v 23),  -- 6276
    .P (.n 1) (.add (.pv (.n 1)) (.v 0)),  -- 6277
    .V 23 (.ld 32 (.sub (.sub (.pv (.n 2)) (.v 7)) (.n 1))),  -- 6279
    .mst 8 32 (.pv (.n 1)) (.v 22) (.v 23),  -- 6280
    .P (.n 1) (.add (.pv (.n 1)) (.v 0)),  -- 6281
    .V 23 (.ld 32 (.sub (.sub (.pv (.n 3)) (.v 7)) (.n 1))),  -- 6282
    .mst 8 32 (.pv (.n 1)) (.v 22) (.v 23),  -- 6283
    .P (.n 1) (.add (.pv (.n 1)) (.v 0)),  -- 6284
    .V 23 (.ld 32 (.sub (.sub (.pv (.n 2)) (.v 7)) (.n 2))),  -- 6286
    .mst 8 32 (.pv (.n 1)) (.v 22) (.v 23),  -- 6287
    .P (.n 1) (.add (.pv (.n 1)) (.v 0)),  -- 6288
    .V 23 (.ld 32 (.sub (.sub (.pv (.n 3)) (.v 7)) (.n 2))),  -- 6289
    .mst 8 32 (.pv (.n 1)) (.v 22) (.v 23),  -- 6290
    .P (.n 1) (.add (.pv (.n 1)) (.v 0)),  -- 6291
    .V 23 (.ld 32 (.sub (.sub (.pv (.n 2)) (.v 7)) (.n 3))),  -- 6293
    .mst 8 32 (.pv (.n 1)) (.v 22) (.v 23),  -- 6294
    .P (.n 1) (.add (.pv (.n 1)) (.v 0)),  -- 6295
    .V 23 (.ld 32 (.sub (.sub (.pv (.n 3)) (.v 7)) (.n 3))),  -- 6296
    .mst 8 32 (.pv (.n 1)) (.v 22) (.v 23),  -- 6297
    .P (.n 1) (.add (.pv (.n 1)) (.v 0))  -- 6298
  ]

/-- `intra_pred_ang_xy_16_avx`, vec/intrinsic_intra-pred_avx2.cc:6271. -/
def xy16A_30 : Stmt :=
  .run [
    .I 7 (.add (.v 7) (.n 4))  -- 6271
  ]

/-- `intra_pred_ang_xy_16_avx`, vec/intrinsic_intra-pred_avx2.cc:6271. -/
def xy16A_31 : Stmt :=
  .loop (.lt (.v 7) (.v 3)) (.seq xy16A_29 xy16A_30)

/-- `intra_pred_ang_xy_16_avx`, vec/intrinsic_intra-pred_avx2.cc:6301-6302. -/
def xy16A_32 : Stmt :=
  .run [
    .V 22 (.mask 16 (.sub (.v 2) (.n 1))),  -- 6301
    .I 7 (.n 0)  -- 6302
  ]

/-- `intra_pred_ang_xy_16_avx`, vec/intrinsic_intra-pred_avx2.cc:6303-6329. -/
def xy16A_33 : Stmt :=
  .run [
    .V 23 (.ld 32 (.sub (.pv (.n 2)) (.v 7))),  -- 6303
    .mst 4 32 (.pv (.n 1)) (.v 22) (.v 23),  -- 6304
    .P (.n 1) (.add (.pv (.n 1)) (.v 0)),  -- 6305
    .V 23 (.ld 32 (.sub (.pv (.n 3)) (.v 7))),  -- 6306
    .mst 4 32 (.pv (.n 1)) (.v 22) (.v 23),  -- 6307
    .P (.n 1) (.add (.pv (.n 1)) (.v 0)),  -- 6308
    .V 23 (.ld 32 (.sub (.sub (.pv (.n 2)) (.v 7)) (.n 1))),  -- 6310
    .mst 4 32 (.pv (.n 1)) (.v 22) (.v 23),  -- 6311
    .P (.n 1) (.add (.pv (.n 1)) (.v 0)),  -- 6312
    .V 23 (.ld 32 (.sub (.sub (.pv (.n 3)) (.v 7)) (.n 1))),  -- 6313
    .mst 4 32 (.pv (.n 1)) (.v 22) (.v 23),  -- 6314
    .P (.n 1) (.add (.pv (.n 1)) (.v 0)),  -- 6315
    .V 23 (.ld 32 (.sub (.sub (.pv (.n 2)) (.v 7)) (.n 2))),  -- 6317
    .mst 4 32 (.pv (.n 1)) (.v 22) (.v 23),  -- 6318
    .P (.n 1) (.add (.pv (.n 1)) (.v 0)),  -- 6319
    .V 23 (.ld 32 (.sub (.sub (.pv (.n 3)) (.v 7)) (.n 2))),  -- 6320
    .mst 4 32 (.pv (.n 1)) (.v 22) (.v 23),  -- 6321
    .P (.n 1) (.add (.pv (.n 1)) (.v 0)),  -- 6322
    .V 23 (.ld 32 (.sub (.sub (.pv (.n 2)) (.v 7)) (.n 3))),  -- 6324
    .mst 4 32 (.pv (.n 1)) (.v 22) (.v 23),  -- 6325
    .P (.n 1) (.add (.pv (.n 1)) (.v 0)),  -- 6326
    .V 23 (.ld 32 (.sub (.sub (.pv (.n 3)) (.v 7)) (.n 3))),  -- 6327
    .mst 4 32 (.pv (.n 1)) (.v 22) (.v 23),  -- 6328
    .P (.n 1) (.add (.pv (.n 1)) (.v 0))  -- 6329
  ]

/-- `intra_pred_ang_xy_16_avx`, vec/intrinsic_intra-pred_avx2.cc:6302. -/
def xy16A_34 : Stmt :=
  .run [
    .I 7 (.add (.v 7) (.n 4))  -- 6302
  ]

/-- `intra_pred_ang_xy_16_avx`, vec/intrinsic_intra-pred_avx2.cc:6302. -/
def xy16A_35 : Stmt :=
  .loop (.lt (.v 7) (.v 3)) (.seq xy16A_33 xy16A_34)

/-- `intra_pred_ang_xy_16_avx`, vec/intrinsic_intra-pred_avx2.cc:6269. -/
def xy16A_36 : Stmt :=
  .ite (.eq (.v 2) (.n 8)) (.seq xy16A_28 xy16A_31) (.seq xy16A_32 xy16A_35)

/-- `intra_pred_ang_xy_16_avx`, vec/intrinsic_intra-pred_avx2.cc:6238. -/
def xy16A_37 : Stmt :=
  .ite (.eq (.v 2) (.n 16)) (.seq xy16A_24 xy16A_27) xy16A_36

/-- `intra_pred_ang_xy_16_avx`, vec/intrinsic_intra-pred_avx2.cc:6204. -/
def xy16A_38 : Stmt :=
  .ite (.eq (.v 2) (.n 32)) (.seq xy16A_20 xy16A_23) xy16A_37

/-- `intra_pred_ang_xy_16_avx`, vec/intrinsic_intra-pred_avx2.cc:6151. -/
def xy16A_39 : Stmt :=
  .ite (.eq (.v 2) (.n 64)) (.seq xy16A_16 xy16A_19) xy16A_38

/-- `intra_pred_ang_xy_16_avx`, source/common/vec/intrinsic_intra-pred_avx2.cc:5954-6357.  Variables:
I: 0 i_dst, 1 dir_mode, 2 bsx, 3 bsy, 4 line_size, 5 left_size, 6 aligned_line_size, 7 i;
P: 0 src, 1 dst, 2 pfirst, 4 pSrc1;
V: 0 coeff2, 1 coeff3, 2 coeff4, 3 shuffle, 4 p00, 5 p01, 6 p10, 7 p11, 8 S0, 9 S1, 10 S2, 11 S3, 12 L0, 13 L1, 14 L2, 15 L3, 16 H0, 17 H1, 18 H2, 19 H3, 20 mask1, 21 mask2, 22 M/mask, 23 M. -/
def xy16A : Stmt :=
  .seq xy16A_1 (.seq xy16A_4 (.seq xy16A_5 (.seq xy16A_7 (.seq xy16A_8 (.seq xy16A_11 (.seq xy16A_14 (.seq xy16A_15 xy16A_39)))))))

/-- `intra_pred_ang_xy_18_avx`, vec/intrinsic_intra-pred_avx2.cc:6361-6375. -/
def xy18A_1 : Stmt :=
  .run [
    .alloc 0 128,  -- 6361
    .I 4 (.sub (.add (.v 2) (.v 3)) (.n 1)),  -- 6362
    .P (.n 2) (.sub (.add (.pa 0) (.v 3)) (.n 1)),  -- 6364
    .V 0 (.set1_16 (.n 2)),  -- 6366
    .P (.n 0) (.sub (.pv (.n 0)) (.sub (.v 3) (.n 1))),  -- 6368
    .I 5 (.n 0)  -- 6375
  ]

/-- `intra_pred_ang_xy_18_avx`, vec/intrinsic_intra-pred_avx2.cc:6375-6404. -/
def xy18A_2 : Stmt :=
  .run [
    .V 1 (.ld 32 (.sub (.pv (.n 0)) (.n 1))),  -- 6376
    .V 3 (.ld 32 (.add (.pv (.n 0)) (.n 1))),  -- 6377
    .V 2 (.ld 32 (.pv (.n 0))),  -- 6378
    .V 4 (.o1 .cvtu8 (.o1 (.half 0) (.v 1))),  -- 6380
    .V 5 (.o1 .cvtu8 (.o1 (.half 0) (.v 2))),  -- 6381
    .V 6 (.o1 .cvtu8 (.o1 (.half 0) (.v 3))),  -- 6382
    .V 7 (.o1 .cvtu8 (.o1 (.half 1) (.v 1))),  -- 6384
    .V 8 (.o1 .cvtu8 (.o1 (.half 1) (.v 2))),  -- 6385
    .V 9 (.o1 .cvtu8 (.o1 (.half 1) (.v 3))),  -- 6386
    .V 10 (.o2 .add16 (.v 4) (.v 5)),  -- 6388
    .V 11 (.o2 .add16 (.v 5) (.v 6)),  -- 6389
    .V 12 (.o2 .add16 (.v 7) (.v 8)),  -- 6390
    .V 13 (.o2 .add16 (.v 8) (.v 9)),  -- 6391
    .V 10 (.o2 .add16 (.v 10) (.v 11)),  -- 6393
    .V 12 (.o2 .add16 (.v 12) (.v 13)),  -- 6394
    .V 10 (.o2 .add16 (.v 10) (.v 0)),  -- 6396
    .V 12 (.o2 .add16 (.v 12) (.v 0)),  -- 6397
    .V 10 (.o1 (.srli16 2) (.v 10)),  -- 6399
    .V 12 (.o1 (.srli16 2) (.v 12)),  -- 6400
    .V 10 (.o2 .packus16y (.v 10) (.v 12)),  -- 6402
    .V 10 (.o1 (.perm4 216) (.v 10)),  -- 6403
    .st 32 (.add (.pa 0) (.v 5)) (.v 10),  -- 6404
    .I 5 (.add (.v 5) (.n 32)),  -- 6375
    .P (.n 0) (.add (.pv (.n 0)) (.n 32))
  ]

/-- `intra_pred_ang_xy_18_avx`, vec/intrinsic_intra-pred_avx2.cc:6375. -/
def xy18A_3 : Stmt :=
  .loop (.lt (.v 5) (.sub (.v 4) (.n 16))) xy18A_2

/-- `intra_pred_ang_xy_18_avx`, vec/intrinsic_intra-pred_avx2.cc:6408-6427. -/
def xy18A_4 : Stmt :=
  .run [
    .V 14 (.mask 16 (.n 15)),  -- 6408
    .V 1 (.ld 32 (.sub (.pv (.n 0)) (.n 1))),  -- 6409
    .V 3 (.ld 32 (.add (.pv (.n 0)) (.n 1))),  -- 6410
    .V 2 (.ld 32 (.pv (.n 0))),  -- 6411
    .V 4 (.o1 .cvtu8 (.o1 (.half 0) (.v 1))),  -- 6413
    .V 5 (.o1 .cvtu8 (.o1 (.half 0) (.v 2))),  -- 6414
    .V 6 (.o1 .cvtu8 (.o1 (.half 0) (.v 3))),  -- 6415
    .V 10 (.o2 .add16 (.v 4) (.v 5)),  -- 6417
    .V 11 (.o2 .add16 (.v 5) (.v 6)),  -- 6418
    .V 10 (.o2 .add16 (.v 10) (.v 11)),  -- 6420
    .V 10 (.o2 .add16 (.v 10) (.v 0)),  -- 6421
    .V 10 (.o1 (.srli16 2) (.v 10)),  -- 6422
    .V 10 (.o2 .packus16y (.v 10) (.v 10)),  -- 6424
    .V 10 (.o1 (.perm4 216) (.v 10)),  -- 6425
    .mst 8 32 (.add (.pa 0) (.v 5)) (.v 14) (.v 10)  -- 6427
  ]

/-- `intra_pred_ang_xy_18_avx`, vec/intrinsic_intra-pred_avx2.cc:6407. -/
def xy18A_5 : Stmt :=
  .ite (.lt (.v 5) (.v 4)) xy18A_4 (.run [])

/-- `intra_pred_ang_xy_18_avx`, vec/intrinsic_intra-pred_avx2.cc:6432. -/
def xy18A_6 : Stmt :=
  .run [
    .I 5 (.n 0)  -- 6432
  ]

/-- `intra_pred_ang_xy_18_avx`, vec/intrinsic_intra-pred_avx2.cc:6433-6459. -/
def xy18A_7 : Stmt :=
  .run [
    .V 14 (.ld 32 (.pv (.n 2))),  -- 6433
    .st 32 (.pv (.n 1)) (.v 14),  -- 6434
    .V 14 (.ld 32 (.add (.pv (.n 2)) (.n 32))),  -- 6435
    .st 32 (.add (.pv (.n 1)) (.n 32)) (.v 14),  -- 6436
    .P (.n 1) (.add (.pv (.n 1)) (.v 0)),  -- 6437
    .P (.n 2) (.sub (.pv (.n 2)) (.n 1)),  -- 6438
    .V 14 (.ld 32 (.pv (.n 2))),  -- 6440
    .st 32 (.pv (.n 1)) (.v 14),  -- 6441
    .V 14 (.ld 32 (.add (.pv (.n 2)) (.n 32))),  -- 6442
    .st 32 (.add (.pv (.n 1)) (.n 32)) (.v 14),  -- 6443
    .P (.n 1) (.add (.pv (.n 1)) (.v 0)),  -- 6444
    .P (.n 2) (.sub (.pv (.n 2)) (.n 1)),  -- 6445
    .V 14 (.ld 32 (.pv (.n 2))),  -- 6447
    .st 32 (.pv (.n 1)) (.v 14),  -- 6448
    .V 14 (.ld 32 (.add (.pv (.n 2)) (.n 32))),  -- 6449
    .st 32 (.add (.pv (.n 1)) (.n 32)) (.v 14),  -- 6450
    .P (.n 1) (.add (.pv (.n 1)) (.v 0)),  -- 6451
    .P (.n 2) (.sub (.pv (.n 2)) (.n 1)),  -- 6452
    .V 14 (.ld 32 (.pv (.n 2))),  -- 6454
    .st 32 (.pv (.n 1)) (.v 14),  -- 6455
    .V 14 (.ld 32 (.add (.pv (.n 2)) (.n 32))),  -- 6456
    .st 32 (.add (.pv (.n 1)) (.n 32)) (.v 14),  -- 6457
    .P (.n 1) (.add (.pv (.n 1)) (.v 0)),  -- 6458
    .P (.n 2) (.sub (.pv (.n 2)) (.n 1))  -- 6459
  ]

/-- `intra_pred_ang_xy_18_avx`, vec/intrinsic_intra-pred_avx2.cc:6432. -/
def xy18A_8 : Stmt :=
  .run [
    .I 5 (.add (.v 5) (.n 4))  -- 6432
  ]

/-- `intra_pred_ang_xy_18_avx`, vec/intrinsic_intra-pred_avx2.cc:6432. -/
def xy18A_9 : Stmt :=
  .loop (.lt (.v 5) (.v 3)) (.seq xy18A_7 xy18A_8)

/-- `intra_pred_ang_xy_18_avx`, vec/intrinsic_intra-pred_avx2.cc:6462. -/
def xy18A_10 : Stmt :=
  .run [
    .I 5 (.n 0)  -- 6462
  ]

/-- `intra_pred_ang_xy_18_avx`, vec/intrinsic_intra-pred_avx2.cc:6462-6481. -/
def xy18A_11 : Stmt :=
  .run [
    .V 14 (.ld 32 (.pv (.n 2))),  -- 6463
    .st 32 (.pv (.n 1)) (.v 14),  -- 6464
    .P (.n 1) (.add (.pv (.n 1)) (.v 0)),  -- 6465
    .P (.n 2) (.sub (.pv (.n 2)) (.n 1)),  -- 6466
    .V 14 (.ld 32 (.pv (.n 2))),  -- 6468
    .st 32 (.pv (.n 1)) (.v 14),  -- 6469
    .P (.n 1) (.add (.pv (.n 1)) (.v 0)),  -- 6470
    .P (.n 2) (.sub (.pv (.n 2)) (.n 1)),  -- 6471
    .V 14 (.ld 32 (.pv (.n 2))),  -- 6473
    .st 32 (.pv (.n 1)) (.v 14),  -- 6474
    .P (.n 1) (.add (.pv (.n 1)) (.v 0)),  -- 6475
    .P (.n 2) (.sub (.pv (.n 2)) (.n 1)),  -- 6476
    .V 14 (.ld 32 (.pv (.n 2))),  -- 6478
    .st 32 (.pv (.n 1)) (.v 14),  -- 6479
    .P (.n 1) (.add (.pv (.n 1)) (.v 0)),  -- 6480
    .P (.n 2) (.sub (.pv (.n 2)) (.n 1)),  -- 6481
    .I 5 (.add (.v 5) (.n 4))  -- 6462
  ]

/-- `intra_pred_ang_xy_18_avx`, vec/intrinsic_intra-pred_avx2.cc:6462. -/
def xy18A_12 : Stmt :=
  .loop (.lt (.v 5) (.v 3)) xy18A_11

/-- `intra_pred_ang_xy_18_avx`, vec/intrinsic_intra-pred_avx2.cc:6484-6485. -/
def xy18A_13 : Stmt :=
  .run [
    .V 15 (.mask 16 (.n 15)),  -- 6484
    .I 5 (.n 0)  -- 6485
  ]

/-- `intra_pred_ang_xy_18_avx`, vec/intrinsic_intra-pred_avx2.cc:6485-6504. -/
def xy18A_14 : Stmt :=
  .run [
    .V 14 (.ld 32 (.pv (.n 2))),  -- 6486
    .mst 8 32 (.pv (.n 1)) (.v 15) (.v 14),  -- 6487
    .P (.n 1) (.add (.pv (.n 1)) (.v 0)),  -- 6488
    .P (.n 2) (.sub (.pv (.n 2)) (.n 1)),  -- 6489
    .V 14 (.ld 32 (.pv (.n 2))),  -- 6491
    .mst 8 32 (.pv (.n 1)) (.v 15) (.v 14),  -- 6492
    .P (.n 1) (.add (.pv (.n 1)) (.v 0)),  -- 6493
    .P (.n 2) (.sub (.pv (.n 2)) (.n 1)),  -- 6494
    .V 14 (.ld 32 (.pv (.n 2))),  -- 6496
    .mst 8 32 (.pv (.n 1)) (.v 15) (.v 14),  -- 6497
    .P (.n 1) (.add (.pv (.n 1)) (.v 0)),  -- 6498
    .P (.n 2) (.sub (.pv (.n 2)) (.n 1)),  -- 6499
    .V 14 (.ld 32 (.pv (.n 2))),  -- 6501
    .mst 8 32 (.pv (.n 1)) (.v 15) (.v 14),  -- 6502
    .P (.n 1) (.add (.pv (.n 1)) (.v 0)),  -- 6503
    .P (.n 2) (.sub (.pv (.n 2)) (.n 1)),  -- 6504
    .I 5 (.add (.v 5) (.n 4))  -- 6485
  ]

/-- `intra_pred_ang_xy_18_avx`, vec/intrinsic_intra-pred_avx2.cc:6485. -/
def xy18A_15 : Stmt :=
  .loop (.lt (.v 5) (.v 3)) xy18A_14

/-- `intra_pred_ang_xy_18_avx`, vec/intrinsic_intra-pred_avx2.cc:6507-6508. -/
def xy18A_16 : Stmt :=
  .run [
    .V 15 (.mask 16 (.n 7)),  -- 6507
    .I 5 (.n 0)  -- 6508
  ]

/-- `intra_pred_ang_xy_18_avx`, vec/intrinsic_intra-pred_avx2.cc:6508-6527. -/
def xy18A_17 : Stmt :=
  .run [
    .V 14 (.ld 32 (.pv (.n 2))),  -- 6509
    .mst 8 32 (.pv (.n 1)) (.v 15) (.v 14),  -- 6510
    .P (.n 1) (.add (.pv (.n 1)) (.v 0)),  -- 6511
    .P (.n 2) (.sub (.pv (.n 2)) (.n 1)),  -- 6512
    .V 14 (.ld 32 (.pv (.n 2))),  -- 6514
    .mst 8 32 (.pv (.n 1)) (.v 15) (.v 14),  -- 6515
    .P (.n 1) (.add (.pv (.n 1)) (.v 0)),  -- 6516
    .P (.n 2) (.sub (.pv (.n 2)) (.n 1)),  -- 6517
    .V 14 (.ld 32 (.pv (.n 2))),  -- 6519
    .mst 8 32 (.pv (.n 1)) (.v 15) (.v 14),  -- 6520
    .P (.n 1) (.add (.pv (.n 1)) (.v 0)),  -- 6521
    .P (.n 2) (.sub (.pv (.n 2)) (.n 1)),  -- 6522
    .V 14 (.ld 32 (.pv (.n 2))),  -- 6524
    .mst 8 32 (.pv (.n 1)) (.v 15) (.v 14),  -- 6525
    .P (.n 1) (.add (.pv (.n 1)) (.v 0)),  -- 6526
    .P (.n 2) (.sub (.pv (.n 2)) (.n 1)),  -- 6527
    .I 5 (.add (.v 5) (.n 4))  -- 6508
  ]

/-- `intra_pred_ang_xy_18_avx`, vec/intrinsic_intra-pred_avx2.cc:6508. -/
def xy18A_18 : Stmt :=
  .loop (.lt (.v 5) (.v 3)) xy18A_17

/-- `intra_pred_ang_xy_18_avx`, vec/intrinsic_intra-pred_avx2.cc:6530-6531. -/
def xy18A_19 : Stmt :=
  .run [
    .V 15 (.mask 16 (.n 3)),  -- 6530
    .I 5 (.n 0)  -- 6531
  ]

/-- `intra_pred_ang_xy_18_avx`, vec/intrinsic_intra-pred_avx2.cc:6531-6550. -/
def xy18A_20 : Stmt :=
  .run [
    .V 14 (.ld 32 (.pv (.n 2))),  -- 6532
    .mst 4 32 (.pv (.n 1)) (.v 15) (.v 14),  -- 6533
    .P (.n 1) (.add (.pv (.n 1)) (.v 0)),  -- 6534
    .P (.n 2) (.sub (.pv (.n 2)) (.n 1)),  -- 6535
    .V 14 (.ld 32 (.pv (.n 2))),  -- 6537
    .mst 4 32 (.pv (.n 1)) (.v 15) (.v 14),  -- 6538
    .P (.n 1) (.add (.pv (.n 1)) (.v 0)),  -- 6539
    .P (.n 2) (.sub (.pv (.n 2)) (.n 1)),  -- 6540
    .V 14 (.ld 32 (.pv (.n 2))),  -- 6542
    .mst 4 32 (.pv (.n 1)) (.v 15) (.v 14),  -- 6543
    .P (.n 1) (.add (.pv (.n 1)) (.v 0)),  -- 6544
    .P (.n 2) (.sub (.pv (.n 2)) (.n 1)),  -- 6545
    .V 14 (.ld 32 (.pv (.n 2))),  -- 6547
    .mst 4 32 (.pv (.n 1)) (.v 15) (.v 14),  -- 6548
    .P (.n 1) (.add (.pv (.n 1)) (.v 0)),  -- 6549
    .P (.n 2) (.sub (.pv (.n 2)) (.n 1)),  -- 6550
    .I 5 (.add (.v 5) (.n 4))  -- 6531
  ]

/-- `intra_pred_ang_xy_18_avx`, vec/intrinsic_intra-pred_avx2.cc:6531. -/
def xy18A_21 : Stmt :=
  .loop (.lt (.v 5) (.v 3)) xy18A_20

/-- `intra_pred_ang_xy_18_avx`, vec/intrinsic_intra-pred_avx2.cc:6506. -/
def xy18A_22 : Stmt :=
  .ite (.eq (.v 2) (.n 8)) (.seq xy18A_16 xy18A_18) (.seq xy18A_19 xy18A_21)

/-- `intra_pred_ang_xy_18_avx`, vec/intrinsic_intra-pred_avx2.cc:6483. -/
def xy18A_23 : Stmt :=
  .ite (.eq (.v 2) (.n 16)) (.seq xy18A_13 xy18A_15) xy18A_22

/-- `intra_pred_ang_xy_18_avx`, vec/intrinsic_intra-pred_avx2.cc:6461. -/
def xy18A_24 : Stmt :=
  .ite (.eq (.v 2) (.n 32)) (.seq xy18A_10 xy18A_12) xy18A_23

/-- `intra_pred_ang_xy_18_avx`, vec/intrinsic_intra-pred_avx2.cc:6431. -/
def xy18A_25 : Stmt :=
  .ite (.eq (.v 2) (.n 64)) (.seq xy18A_6 xy18A_9) xy18A_24

/-- `intra_pred_ang_xy_18_avx`, source/common/vec/intrinsic_intra-pred_avx2.cc:6359-6577.  Variables:
I: 0 i_dst, 1 dir_mode, 2 bsx, 3 bsy, 4 line_size, 5 i;
P: 0 src, 1 dst, 2 pfirst;
V: 0 coeff2, 1 S0, 2 S1, 3 S2, 4 L0, 5 L1, 6 L2, 7 H0, 8 H1, 9 H2, 10 sum1, 11 sum2, 12 sum3, 13 sum4, 14 mask/M, 15 mask. -/
def xy18A : Stmt :=
  .seq xy18A_1 (.seq xy18A_3 (.seq xy18A_5 xy18A_25))

/-- `intra_pred_ang_xy_20_avx`, vec/intrinsic_intra-pred_avx2.cc:6581-6606. -/
def xy20A_1 : Stmt :=
  .run [
    .alloc 0 192,  -- 6581
    .I 4 (.add (.mul (.sub (.v 3) (.n 1)) (.n 2)) (.n 1)),  -- 6582
    .I 5 (.sub (.v 2) (.n 1)),  -- 6583
    .I 6 (.add (.v 4) (.v 5)),  -- 6584
    .P (.n 2) (.sub (.add (.pa 0) (.v 4)) (.n 1)),  -- 6586
    .V 0 (.set1_16 (.n 2)),  -- 6588
    .V 1 (.set1_16 (.n 3)),  -- 6589
    .V 2 (.set1_16 (.n 4)),  -- 6590
    .V 3 (.setr8 [0, 8, 1, 9, 2, 10, 3, 11, 4, 12, 5, 13, 6, 14, 7, 15, 0, 8, 1, 9, 2, 10, 3, 11, 4, 12, 5, 13, 6, 14, 7, 15]),  -- 6591
    .P (.n 3) (.pv (.n 0)),  -- 6593
    .P (.n 0) (.sub (.pv (.n 0)) (.v 3)),  -- 6597
    .I 7 (.n 0)  -- 6606
  ]

/-- `intra_pred_ang_xy_20_avx`, vec/intrinsic_intra-pred_avx2.cc:6608-6635. -/
def xy20A_2 : Stmt :=
  .run [
    .V 12 (.ld 32 (.sub (.pv (.n 0)) (.n 1))),  -- 6608
    .V 13 (.ld 32 (.pv (.n 0))),  -- 6609
    .V 14 (.ld 32 (.add (.pv (.n 0)) (.n 1))),  -- 6610
    .V 15 (.ld 32 (.add (.pv (.n 0)) (.n 2))),  -- 6611
    .V 16 (.o1 .cvtu8 (.o1 (.half 0) (.v 12))),  -- 6613
    .V 17 (.o1 .cvtu8 (.o1 (.half 0) (.v 13))),  -- 6614
    .V 18 (.o1 .cvtu8 (.o1 (.half 0) (.v 14))),  -- 6615
    .V 19 (.o1 .cvtu8 (.o1 (.half 0) (.v 15))),  -- 6616
    .V 20 (.o1 .cvtu8 (.o1 (.half 1) (.v 12))),  -- 6618
    .V 21 (.o1 .cvtu8 (.o1 (.half 1) (.v 13))),  -- 6619
    .V 22 (.o1 .cvtu8 (.o1 (.half 1) (.v 14))),  -- 6620
    .V 23 (.o1 .cvtu8 (.o1 (.half 1) (.v 15))),  -- 6621
    .V 4 (.o2 .add16 (.v 17) (.v 18)),  -- 6623
    .V 5 (.o2 .add16 (.v 16) (.v 19)),  -- 6624
    .V 4 (.o2 .mullo16 (.v 4) (.v 1)),  -- 6625
    .V 4 (.o2 .add16 (.v 4) (.v 2)),  -- 6626
    .V 4 (.o2 .add16 (.v 4) (.v 5)),  -- 6627
    .V 4 (.o1 (.srli16 3) (.v 4)),  -- 6628
    .V 6 (.o2 .add16 (.v 21) (.v 22)),  -- 6630
    .V 7 (.o2 .add16 (.v 20) (.v 23)),  -- 6631
    .V 6 (.o2 .mullo16 (.v 6) (.v 1)),  -- 6632
    .V 6 (.o2 .add16 (.v 6) (.v 2)),  -- 6633
    .V 6 (.o2 .add16 (.v 6) (.v 7)),  -- 6634
    .V 6 (.o1 (.srli16 3) (.v 6))  -- 6635
  ]

/-- `intra_pred_ang_xy_20_avx`, vec/intrinsic_intra-pred_avx2.cc:6606-6657. -/
def xy20A_3 : Stmt :=
  .run [
    .V 8 (.o2 .add16 (.v 17) (.v 18)),  -- 6637
    .V 9 (.o2 .add16 (.v 18) (.v 19)),  -- 6638
    .V 8 (.o2 .add16 (.v 8) (.v 0)),  -- 6639
    .V 8 (.o2 .add16 (.v 8) (.v 9)),  -- 6640
    .V 8 (.o1 (.srli16 2) (.v 8)),  -- 6641
    .V 10 (.o2 .add16 (.v 21) (.v 22)),  -- 6643
    .V 11 (.o2 .add16 (.v 22) (.v 23)),  -- 6644
    .V 10 (.o2 .add16 (.v 10) (.v 0)),  -- 6645
    .V 10 (.o2 .add16 (.v 10) (.v 11)),  -- 6646
    .V 10 (.o1 (.srli16 2) (.v 10)),  -- 6647
    .V 4 (.o2 .packus16y (.v 4) (.v 8)),  -- 6650
    .V 6 (.o2 .packus16y (.v 6) (.v 10)),  -- 6651
    .V 4 (.o2 .shuffle8y (.v 4) (.v 3)),  -- 6653
    .V 6 (.o2 .shuffle8y (.v 6) (.v 3)),  -- 6654
    .st 32 (.add (.pa 0) (.v 7)) (.v 4),  -- 6656
    .st 32 (.add (.pa 0) (.add (.v 7) (.n 32))) (.v 6),  -- 6657
    .I 7 (.add (.v 7) (.n 64)),  -- 6606
    .P (.n 0) (.add (.pv (.n 0)) (.n 32))
  ]

/-- `intra_pred_ang_xy_20_avx`, vec/intrinsic_intra-pred_avx2.cc:6606. -/
def xy20A_4 : Stmt :=
  .loop (.lt (.v 7) (.sub (.v 4) (.n 32))) (.seq xy20A_2 xy20A_3)

/-- `intra_pred_ang_xy_20_avx`, vec/intrinsic_intra-pred_avx2.cc:6662-6687. -/
def xy20A_5 : Stmt :=
  .run [
    .V 12 (.ld 32 (.sub (.pv (.n 0)) (.n 1))),  -- 6662
    .V 13 (.ld 32 (.pv (.n 0))),  -- 6663
    .V 14 (.ld 32 (.add (.pv (.n 0)) (.n 1))),  -- 6664
    .V 15 (.ld 32 (.add (.pv (.n 0)) (.n 2))),  -- 6665
    .V 16 (.o1 .cvtu8 (.o1 (.half 0) (.v 12))),  -- 6667
    .V 17 (.o1 .cvtu8 (.o1 (.half 0) (.v 13))),  -- 6668
    .V 18 (.o1 .cvtu8 (.o1 (.half 0) (.v 14))),  -- 6669
    .V 19 (.o1 .cvtu8 (.o1 (.half 0) (.v 15))),  -- 6670
    .V 4 (.o2 .add16 (.v 17) (.v 18)),  -- 6672
    .V 4 (.o2 .mullo16 (.v 4) (.v 1)),  -- 6673
    .V 5 (.o2 .add16 (.v 16) (.v 19)),  -- 6674
    .V 4 (.o2 .add16 (.v 4) (.v 2)),  -- 6675
    .V 4 (.o2 .add16 (.v 4) (.v 5)),  -- 6676
    .V 4 (.o1 (.srli16 3) (.v 4)),  -- 6677
    .V 8 (.o2 .add16 (.v 17) (.v 18)),  -- 6679
    .V 9 (.o2 .add16 (.v 18) (.v 19)),  -- 6680
    .V 8 (.o2 .add16 (.v 8) (.v 0)),  -- 6681
    .V 8 (.o2 .add16 (.v 8) (.v 9)),  -- 6682
    .V 8 (.o1 (.srli16 2) (.v 8)),  -- 6683
    .V 4 (.o2 .packus16y (.v 4) (.v 8)),  -- 6685
    .V 4 (.o2 .shuffle8y (.v 4) (.v 3)),  -- 6686
    .st 32 (.add (.pa 0) (.v 7)) (.v 4)  -- 6687
  ]

/-- `intra_pred_ang_xy_20_avx`, vec/intrinsic_intra-pred_avx2.cc:6660. -/
def xy20A_6 : Stmt :=
  .ite (.lt (.v 7) (.v 4)) xy20A_5 (.run [])

/-- `intra_pred_ang_xy_20_avx`, vec/intrinsic_intra-pred_avx2.cc:6690-6693. -/
def xy20A_7 : Stmt :=
  .run [
    .P (.n 0) (.pv (.n 3)),  -- 6690
    .I 7 (.v 4)  -- 6693
  ]

/-- `intra_pred_ang_xy_20_avx`, vec/intrinsic_intra-pred_avx2.cc:6693-6722. -/
def xy20A_8 : Stmt :=
  .run [
    .V 14 (.ld 32 (.add (.pv (.n 0)) (.n 1))),  -- 6694
    .V 12 (.ld 32 (.sub (.pv (.n 0)) (.n 1))),  -- 6695
    .V 13 (.ld 32 (.pv (.n 0))),  -- 6696
    .V 16 (.o1 .cvtu8 (.o1 (.half 0) (.v 12))),  -- 6698
    .V 17 (.o1 .cvtu8 (.o1 (.half 0) (.v 13))),  -- 6699
    .V 18 (.o1 .cvtu8 (.o1 (.half 0) (.v 14))),  -- 6700
    .V 20 (.o1 .cvtu8 (.o1 (.half 1) (.v 12))),  -- 6702
    .V 21 (.o1 .cvtu8 (.o1 (.half 1) (.v 13))),  -- 6703
    .V 22 (.o1 .cvtu8 (.o1 (.half 1) (.v 14))),  -- 6704
    .V 24 (.o2 .add16 (.v 16) (.v 17)),  -- 6706
    .V 25 (.o2 .add16 (.v 17) (.v 18)),  -- 6707
    .V 26 (.o2 .add16 (.v 20) (.v 21)),  -- 6708
    .V 27 (.o2 .add16 (.v 21) (.v 22)),  -- 6709
    .V 24 (.o2 .add16 (.v 24) (.v 25)),  -- 6711
    .V 26 (.o2 .add16 (.v 26) (.v 27)),  -- 6712
    .V 24 (.o2 .add16 (.v 24) (.v 0)),  -- 6714
    .V 26 (.o2 .add16 (.v 26) (.v 0)),  -- 6715
    .V 24 (.o1 (.srli16 2) (.v 24)),  -- 6717
    .V 26 (.o1 (.srli16 2) (.v 26)),  -- 6718
    .V 24 (.o2 .packus16y (.v 24) (.v 26)),  -- 6720
    .V 24 (.o1 (.perm4 216) (.v 24)),  -- 6721
    .st 32 (.add (.pa 0) (.v 7)) (.v 24),  -- 6722
    .I 7 (.add (.v 7) (.n 32)),  -- 6693
    .P (.n 0) (.add (.pv (.n 0)) (.n 32))
  ]

/-- `intra_pred_ang_xy_20_avx`, vec/intrinsic_intra-pred_avx2.cc:6693. -/
def xy20A_9 : Stmt :=
  .loop (.lt (.v 7) (.sub (.v 6) (.n 16))) xy20A_8

/-- `intra_pred_ang_xy_20_avx`, vec/intrinsic_intra-pred_avx2.cc:6724. -/
def xy20A_10 : Stmt :=
  .run [
    .V 28 (.mask 16 (.n 15))  -- 6724
  ]

/-- `intra_pred_ang_xy_20_avx`, vec/intrinsic_intra-pred_avx2.cc:6726-6743. -/
def xy20A_11 : Stmt :=
  .run [
    .V 12 (.ld 32 (.sub (.pv (.n 0)) (.n 1))),  -- 6726
    .V 14 (.ld 32 (.add (.pv (.n 0)) (.n 1))),  -- 6727
    .V 13 (.ld 32 (.pv (.n 0))),  -- 6728
    .V 16 (.o1 .cvtu8 (.o1 (.half 0) (.v 12))),  -- 6730
    .V 17 (.o1 .cvtu8 (.o1 (.half 0) (.v 13))),  -- 6731
    .V 18 (.o1 .cvtu8 (.o1 (.half 0) (.v 14))),  -- 6732
    .V 24 (.o2 .add16 (.v 16) (.v 17)),  -- 6734
    .V 25 (.o2 .add16 (.v 17) (.v 18)),  -- 6735
    .V 24 (.o2 .add16 (.v 24) (.v 25)),  -- 6737
    .V 24 (.o2 .add16 (.v 24) (.v 0)),  -- 6738
    .V 24 (.o1 (.srli16 2) (.v 24)),  -- 6739
    .V 24 (.o2 .packus16y (.v 24) (.v 24)),  -- 6741
    .V 24 (.o1 (.perm4 216) (.v 24)),  -- 6742
    .mst 8 32 (.add (.pa 0) (.v 7)) (.v 28) (.v 24)  -- 6743
  ]

/-- `intra_pred_ang_xy_20_avx`, vec/intrinsic_intra-pred_avx2.cc:6725. -/
def xy20A_12 : Stmt :=
  .ite (.lt (.v 7) (.v 6)) xy20A_11 (.run [])

/-- `intra_pred_ang_xy_20_avx`, vec/intrinsic_intra-pred_avx2.cc:6748. -/
def xy20A_13 : Stmt :=
  .run [
    .I 7 (.n 0)  -- 6748
  ]

/-- `intra_pred_ang_xy_20_avx`, vec/intrinsic_intra-pred_avx2.cc:6749-6772. -/
def xy20A_14 : Stmt :=
  .run [
    .V 29 (.ld 32 (.pv (.n 2))),  -- 6749
    .st 32 (.pv (.n 1)) (.v 29),  -- 6750
    .V 29 (.ld 32 (.add (.pv (.n 2)) (.n 32))),  -- 6751
    .st 32 (.add (.pv (.n 1)) (.n 32)) (.v 29),  -- 6752
    .P (.n 1) (.add (.pv (.n 1)) (.v 0)),  -- 6753
    .P (.n 2) (.sub (.pv (.n 2)) (.n 2)),  -- 6754
    .V 29 (.ld 32 (.pv (.n 2))),  -- 6755
    .st 32 (.pv (.n 1)) (.v 29),  -- 6756
    .V 29 (.ld 32 (.add (.pv (.n 2)) (.n 32))),  -- 6757
    .st 32 (.add (.pv (.n 1)) (.n 32)) (.v 29),  -- 6758
    .P (.n 1) (.add (.pv (.n 1)) (.v 0)),  -- 6759
    .P (.n 2) (.sub (.pv (.n 2)) (.n 2)),  -- 6760
    .V 29 (.ld 32 (.pv (.n 2))),  -- 6761
    .st 32 (.pv (.n 1)) (.v 29),  -- 6762
    .V 29 (.ld 32 (.add (.pv (.n 2)) (.n 32))),  -- 6763
    .st 32 (.add (.pv (.n 1)) (.n 32)) (.v 29),  -- 6764
    .P (.n 1) (.add (.pv (.n 1)) (.v 0)),  -- 6765
    .P (.n 2) (.sub (.pv (.n 2)) (.n 2)),  -- 6766
    .V 29 (.ld 32 (.pv (.n 2))),  -- 6767
    .st 32 (.pv (.n 1)) (.v 29),  -- 6768
    .V 29 (.ld 32 (.add (.pv (.n 2)) (.n 32))),  -- 6769
    .st 32 (.add (.pv (.n 1)) (.n 32)) (.v 29),  -- 6770
    .P (.n 1) (.add (.pv (.n 1)) (.v 0)),  -- 6771
    .P (.n 2) (.sub (.pv (.n 2)) (.n 2))  -- 6772
  ]

/-- `intra_pred_ang_xy_20_avx`, vec/intrinsic_intra-pred_avx2.cc:6773-6796. -/
def xy20A_15 : Stmt :=
  .run [
    .V 29 (.ld 32 (.pv (.n 2))),  -- 6773
    .st 32 (.pv (.n 1)) (.v 29),  -- 6774
    .V 29 (.ld 32 (.add (.pv (.n 2)) (.n 32))),  -- 6775
    .st 32 (.add (.pv (.n 1)) (.n 32)) (.v 29),  -- 6776
    .P (.n 1) (.add (.pv (.n 1)) (.v 0)),  -- 6777
    .P (.n 2) (.sub (.pv (.n 2)) (.n 2)),  -- 6778
    .V 29 (.ld 32 (.pv (.n 2))),  -- 6779
    .st 32 (.pv (.n 1)) (.v 29),  -- 6780
    .V 29 (.ld 32 (.add (.pv (.n 2)) (.n 32))),  -- 6781
    .st 32 (.add (.pv (.n 1)) (.n 32)) (.v 29),  -- 6782
    .P (.n 1) (.add (.pv (.n 1)) (.v 0)),  -- 6783
    .P (.n 2) (.sub (.pv (.n 2)) (.n 2)),  -- 6784
    .V 29 (.ld 32 (.pv (.n 2))),  -- 6785
    .st 32 (.pv (.n 1)) (.v 29),  -- 6786
    .V 29 (.ld 32 (.add (.pv (.n 2)) (.n 32))),  -- 6787
    .st 32 (.add (.pv (.n 1)) (.n 32)) (.v 29),  -- 6788
    .P (.n 1) (.add (.pv (.n 1)) (.v 0)),  -- 6789
    .P (.n 2) (.sub (.pv (.n 2)) (.n 2)),  -- 6790
    .V 29 (.ld 32 (.pv (.n 2))),  -- 6791
    .st 32 (.pv (.n 1)) (.v 29),  -- 6792
    .V 29 (.ld 32 (.add (.pv (.n 2)) (.n 32))),  -- 6793
    .st 32 (.add (.pv (.n 1)) (.n 32)) (.v 29),  -- 6794
    .P (.n 1) (.add (.pv (.n 1)) (.v 0)),  -- 6795
    .P (.n 2) (.sub (.pv (.n 2)) (.n 2))  -- 6796
  ]

/-- `intra_pred_ang_xy_20_avx`, vec/intrinsic_intra-pred_avx2.cc:6748. -/
def xy20A_16 : Stmt :=
  .run [
    .I 7 (.add (.v 7) (.n 8))  -- 6748
  ]

/-- `intra_pred_ang_xy_20_avx`, vec/intrinsic_intra-pred_avx2.cc:6748. -/
def xy20A_17 : Stmt :=
  .loop (.lt (.v 7) (.v 3)) (.seq xy20A_14 (.seq xy20A_15 xy20A_16))

/-- `intra_pred_ang_xy_20_avx`, vec/intrinsic_intra-pred_avx2.cc:6799. -/
def xy20A_18 : Stmt :=
  .run [
    .I 7 (.n 0)  -- 6799
  ]

/-- `intra_pred_ang_xy_20_avx`, vec/intrinsic_intra-pred_avx2.cc:6800-6823. -/
def xy20A_19 : Stmt :=
  .run [
    .V 29 (.ld 32 (.pv (.n 2))),  -- 6800
    .st 32 (.pv (.n 1)) (.v 29),  -- 6801
    .P (.n 1) (.add (.pv (.n 1)) (.v 0)),  -- 6802
    .P (.n 2) (.sub (.pv (.n 2)) (.n 2)),  -- 6803
    .V 29 (.ld 32 (.pv (.n 2))),  -- 6804
    .st 32 (.pv (.n 1)) (.v 29),  -- 6805
    .P (.n 1) (.add (.pv (.n 1)) (.v 0)),  -- 6806
    .P (.n 2) (.sub (.pv (.n 2)) (.n 2)),  -- 6807
    .V 29 (.ld 32 (.pv (.n 2))),  -- 6808
    .st 32 (.pv (.n 1)) (.v 29),  -- 6809
    .P (.n 1) (.add (.pv (.n 1)) (.v 0)),  -- 6810
    .P (.n 2) (.sub (.pv (.n 2)) (.n 2)),  -- 6811
    .V 29 (.ld 32 (.pv (.n 2))),  -- 6812
    .st 32 (.pv (.n 1)) (.v 29),  -- 6813
    .P (.n 1) (.add (.pv (.n 1)) (.v 0)),  -- 6814
    .P (.n 2) (.sub (.pv (.n 2)) (.n 2)),  -- 6815
    .V 29 (.ld 32 (.pv (.n 2))),  -- 6816
    .st 32 (.pv (.n 1)) (.v 29),  -- 6817
    .P (.n 1) (.add (.pv (.n 1)) (.v 0)),  -- 6818
    .P (.n 2) (.sub (.pv (.n 2)) (.n 2)),  -- 6819
    .V 29 (.ld 32 (.pv (.n 2))),  -- 6820
    .st 32 (.pv (.n 1)) (.v 29),  -- 6821
    .P (.n 1) (.add (.pv (.n 1)) (.v 0)),  -- 6822
    .P (.n 2) (.sub (.pv (.n 2)) (.n 2))  -- 6823
  ]

/-- `intra_pred_ang_xy_20_avx`, vec/intrinsic_intra-pred_avx2.cc:6799-6831. -/
def xy20A_20 : Stmt :=
  .run [
    .V 29 (.ld 32 (.pv (.n 2))),  -- 6824
    .st 32 (.pv (.n 1)) (.v 29),  -- 6825
    .P (.n 1) (.add (.pv (.n 1)) (.v 0)),  -- 6826
    .P (.n 2) (.sub (.pv (.n 2)) (.n 2)),  -- 6827
    .V 29 (.ld 32 (.pv (.n 2))),  -- 6828
    .st 32 (.pv (.n 1)) (.v 29),  -- 6829
    .P (.n 1) (.add (.pv (.n 1)) (.v 0)),  -- 6830
    .P (.n 2) (.sub (.pv (.n 2)) (.n 2)),  -- 6831
    .I 7 (.add (.v 7) (.n 8))  -- 6799
  ]

/-- `intra_pred_ang_xy_20_avx`, vec/intrinsic_intra-pred_avx2.cc:6799. -/
def xy20A_21 : Stmt :=
  .loop (.lt (.v 7) (.v 3)) (.seq xy20A_19 xy20A_20)

/-- `intra_pred_ang_xy_20_avx`, vec/intrinsic_intra-pred_avx2.cc:6835-6836. -/
def xy20A_22 : Stmt :=
  .run [
    .V 28 (.mask 16 (.sub (.v 2) (.n 1))),  -- 6835
    .I 7 (.n 0)  -- 6836
  ]

/-- `intra_pred_ang_xy_20_avx`, vec/intrinsic_intra-pred_avx2.cc:6836-6852. -/
def xy20A_23 : Stmt :=
  .run [
    .V 29 (.ld 32 (.pv (.n 2))),  -- 6837
    .mst 8 32 (.pv (.n 1)) (.v 28) (.v 29),  -- 6838
    .P (.n 1) (.add (.pv (.n 1)) (.v 0)),  -- 6839
    .P (.n 2) (.sub (.pv (.n 2)) (.n 2)),  -- 6840
    .V 29 (.ld 32 (.pv (.n 2))),  -- 6841
    .mst 8 32 (.pv (.n 1)) (.v 28) (.v 29),  -- 6842
    .P (.n 1) (.add (.pv (.n 1)) (.v 0)),  -- 6843
    .P (.n 2) (.sub (.pv (.n 2)) (.n 2)),  -- 6844
    .V 29 (.ld 32 (.pv (.n 2))),  -- 6845
    .mst 8 32 (.pv (.n 1)) (.v 28) (.v 29),  -- 6846
    .P (.n 1) (.add (.pv (.n 1)) (.v 0)),  -- 6847
    .P (.n 2) (.sub (.pv (.n 2)) (.n 2)),  -- 6848
    .V 29 (.ld 32 (.pv (.n 2))),  -- 6849
    .mst 8 32 (.pv (.n 1)) (.v 28) (.v 29),  -- 6850
    .P (.n 1) (.add (.pv (.n 1)) (.v 0)),  -- 6851
    .P (.n 2) (.sub (.pv (.n 2)) (.n 2)),  -- 6852
    .I 7 (.add (.v 7) (.n 4))  -- 6836
  ]

/-- `intra_pred_ang_xy_20_avx`, vec/intrinsic_intra-pred_avx2.cc:6836. -/
def xy20A_24 : Stmt :=
  .loop (.lt (.v 7) (.v 3)) xy20A_23

/-- `intra_pred_ang_xy_20_avx`, vec/intrinsic_intra-pred_avx2.cc:6857-6858. -/
def xy20A_25 : Stmt :=
  .run [
    .V 28 (.mask 16 (.sub (.v 2) (.n 1))),  -- 6857
    .I 7 (.n 0)  -- 6858
  ]

/-- `intra_pred_ang_xy_20_avx`, vec/intrinsic_intra-pred_avx2.cc:6859-6882. -/
def xy20A_26 : Stmt :=
  .run [
    .V 29 (.ld 32 (.pv (.n 2))),  -- 6859
    .mst 8 32 (.pv (.n 1)) (.v 28) (.v 29),  -- 6860
    .P (.n 1) (.add (.pv (.n 1)) (.v 0)),  -- 6861
    .P (.n 2) (.sub (.pv (.n 2)) (.n 2)),  -- 6862
    .V 29 (.ld 32 (.pv (.n 2))),  -- 6863
    .mst 8 32 (.pv (.n 1)) (.v 28) (.v 29),  -- 6864
    .P (.n 1) (.add (.pv (.n 1)) (.v 0)),  -- 6865
    .P (.n 2) (.sub (.pv (.n 2)) (.n 2)),  -- 6866
    .V 29 (.ld 32 (.pv (.n 2))),  -- 6867
    .mst 8 32 (.pv (.n 1)) (.v 28) (.v 29),  -- 6868
    .P (.n 1) (.add (.pv (.n 1)) (.v 0)),  -- 6869
    .P (.n 2) (.sub (.pv (.n 2)) (.n 2)),  -- 6870
    .V 29 (.ld 32 (.pv (.n 2))),  -- 6871
    .mst 8 32 (.pv (.n 1)) (.v 28) (.v 29),  -- 6872
    .P (.n 1) (.add (.pv (.n 1)) (.v 0)),  -- 6873
    .P (.n 2) (.sub (.pv (.n 2)) (.n 2)),  -- 6874
    .V 29 (.ld 32 (.pv (.n 2))),  -- 6875
    .mst 8 32 (.pv (.n 1)) (.v 28) (.v 29),  -- 6876
    .P (.n 1) (.add (.pv (.n 1)) (.v 0)),  -- 6877
    .P (.n 2) (.sub (.pv (.n 2)) (.n 2)),  -- 6878
    .V 29 (.ld 32 (.pv (.n 2))),  -- 6879
    .mst 8 32 (.pv (.n 1)) (.v 28) (.v 29),  -- 6880
    .P (.n 1) (.add (.pv (.n 1)) (.v 0)),  -- 6881
    .P (.n 2) (.sub (.pv (.n 2)) (.n 2))  -- 6882
  ]

/-- `intra_pred_ang_xy_20_avx`, vec/intrinsic_intra-pred_avx2.cc:6858-6890. -/
def xy20A_27 : Stmt :=
  .run [
    .V 29 (.ld 32 (.pv (.n 2))),  -- 6883
    .mst 8 32 (.pv (.n 1)) (.v 28) (.v 29),  -- 6884
    .P (.n 1) (.add (.pv (.n 1)) (.v 0)),  -- 6885
    .P (.n 2) (.sub (.pv (.n 2)) (.n 2)),  -- 6886
    .V 29 (.ld 32 (.pv (.n 2))),  -- 6887
    .mst 8 32 (.pv (.n 1)) (.v 28) (.v 29),  -- 6888
    .P (.n 1) (.add (.pv (.n 1)) (.v 0)),  -- 6889
    .P (.n 2) (.sub (.pv (.n 2)) (.n 2)),  -- 6890
    .I 7 (.add (.v 7) (.n 8))  -- 6858
  ]

/-- `intra_pred_ang_xy_20_avx`, vec/intrinsic_intra-pred_avx2.cc:6858. -/
def xy20A_28 : Stmt :=
  .loop (.lt (.v 7) (.v 3)) (.seq xy20A_26 xy20A_27)

/-- `intra_pred_ang_xy_20_avx`, vec/intrinsic_intra-pred_avx2.cc:6894-6895. -/
def xy20A_29 : Stmt :=
  .run [
    .V 28 (.mask 16 (.sub (.v 2) (.n 1))),  -- 6894
    .I 7 (.n 0)  -- 6895
  ]

/-- `intra_pred_ang_xy_20_avx`, vec/intrinsic_intra-pred_avx2.cc:6895-6911. -/
def xy20A_30 : Stmt :=
  .run [
    .V 29 (.ld 32 (.pv (.n 2))),  -- 6896
    .mst 4 32 (.pv (.n 1)) (.v 28) (.v 29),  -- 6897
    .P (.n 1) (.add (.pv (.n 1)) (.v 0)),  -- 6898
    .P (.n 2) (.sub (.pv (.n 2)) (.n 2)),  -- 6899
    .V 29 (.ld 32 (.pv (.n 2))),  -- 6900
    .mst 4 32 (.pv (.n 1)) (.v 28) (.v 29),  -- 6901
    .P (.n 1) (.add (.pv (.n 1)) (.v 0)),  -- 6902
    .P (.n 2) (.sub (.pv (.n 2)) (.n 2)),  -- 6903
    .V 29 (.ld 32 (.pv (.n 2))),  -- 6904
    .mst 4 32 (.pv (.n 1)) (.v 28) (.v 29),  -- 6905
    .P (.n 1) (.add (.pv (.n 1)) (.v 0)),  -- 6906
    .P (.n 2) (.sub (.pv (.n 2)) (.n 2)),  -- 6907
    .V 29 (.ld 32 (.pv (.n 2))),  -- 6908
    .mst 4 32 (.pv (.n 1)) (.v 28) (.v 29),  -- 6909
    .P (.n 1) (.add (.pv (.n 1)) (.v 0)),  -- 6910
    .P (.n 2) (.sub (.pv (.n 2)) (.n 2)),  -- 6911
    .I 7 (.add (.v 7) (.n 4))  -- 6895
  ]

/-- `intra_pred_ang_xy_20_avx`, vec/intrinsic_intra-pred_avx2.cc:6895. -/
def xy20A_31 : Stmt :=
  .loop (.lt (.v 7) (.v 3)) xy20A_30

/-- `intra_pred_ang_xy_20_avx`, vec/intrinsic_intra-pred_avx2.cc:6855. -/
def xy20A_32 : Stmt :=
  .ite (.eq (.v 2) (.n 8)) (.seq xy20A_25 xy20A_28) (.seq xy20A_29 xy20A_31)

/-- `intra_pred_ang_xy_20_avx`, vec/intrinsic_intra-pred_avx2.cc:6833. -/
def xy20A_33 : Stmt :=
  .ite (.eq (.v 2) (.n 16)) (.seq xy20A_22 xy20A_24) xy20A_32

/-- `intra_pred_ang_xy_20_avx`, vec/intrinsic_intra-pred_avx2.cc:6798. -/
def xy20A_34 : Stmt :=
  .ite (.eq (.v 2) (.n 32)) (.seq xy20A_18 xy20A_21) xy20A_33

/-- `intra_pred_ang_xy_20_avx`, vec/intrinsic_intra-pred_avx2.cc:6746. -/
def xy20A_35 : Stmt :=
  .ite (.eq (.v 2) (.n 64)) (.seq xy20A_13 xy20A_17) xy20A_34

/-- `intra_pred_ang_xy_20_avx`, source/common/vec/intrinsic_intra-pred_avx2.cc:6579-6923.  Variables:
I: 0 i_dst, 1 dir_mode, 2 bsx, 3 bsy, 4 left_size, 5 top_size, 6 line_size, 7 i;
P: 0 src, 1 dst, 2 pfirst, 3 pSrc1;
V: 0 coeff2, 1 coeff3, 2 coeff4, 3 shuffle, 4 p00, 5 p01, 6 p10, 7 p11, 8 p20, 9 p21, 10 p30, 11 p31, 12 S0, 13 S1, 14 S2, 15 S3, 16 L0, 17 L1, 18 L2, 19 L3, 20 H0, 21 H1, 22 H2, 23 H3, 24 sum1, 25 sum2, 26 sum3, 27 sum4, 28 mask, 29 M. -/
def xy20A : Stmt :=
  .seq xy20A_1 (.seq xy20A_4 (.seq xy20A_6 (.seq xy20A_7 (.seq xy20A_9 (.seq xy20A_10 (.seq xy20A_12 xy20A_35))))))

/-- `intra_pred_ang_xy_22_avx`, vec/intrinsic_intra-pred_avx2.cc:6931-6955. -/
def xy22A_1 : Stmt :=
  .run [
    .P (.n 0) (.sub (.pv (.n 0)) (.v 3)),  -- 6931
    .alloc 0 320,  -- 6932
    .I 5 (.add (.mul (.sub (.v 3) (.n 1)) (.n 4)) (.n 3)),  -- 6933
    .I 6 (.sub (.v 2) (.n 3)),  -- 6934
    .I 7 (.add (.v 5) (.v 6)),  -- 6935
    .P (.n 2) (.sub (.add (.pa 0) (.v 5)) (.n 3)),  -- 6936
    .P (.n 3) (.pv (.n 0)),  -- 6937
    .V 0 (.set1_16 (.n 2)),  -- 6939
    .V 1 (.set1_16 (.n 3)),  -- 6940
    .V 2 (.set1_16 (.n 4)),  -- 6941
    .V 3 (.set1_16 (.n 5)),  -- 6942
    .V 4 (.set1_16 (.n 7)),  -- 6943
    .V 5 (.set1_16 (.n 8)),  -- 6944
    .V 6 (.setr8 [0, 8, 1, 9, 2, 10, 3, 11, 4, 12, 5, 13, 6, 14, 7, 15, 0, 8, 1, 9, 2, 10, 3, 11, 4, 12, 5, 13, 6, 14, 7, 15]),  -- 6945
    .I 4 (.n 0)  -- 6955
  ]

/-- `intra_pred_ang_xy_22_avx`, vec/intrinsic_intra-pred_avx2.cc:6957-6984. -/
def xy22A_2 : Stmt :=
  .run [
    .V 23 (.ld 32 (.sub (.pv (.n 0)) (.n 1))),  -- 6957
    .V 26 (.ld 32 (.add (.pv (.n 0)) (.n 2))),  -- 6958
    .V 24 (.ld 32 (.pv (.n 0))),  -- 6959
    .V 25 (.ld 32 (.add (.pv (.n 0)) (.n 1))),  -- 6960
    .V 27 (.o1 .cvtu8 (.o1 (.half 0) (.v 23))),  -- 6962
    .V 28 (.o1 .cvtu8 (.o1 (.half 0) (.v 24))),  -- 6963
    .V 29 (.o1 .cvtu8 (.o1 (.half 0) (.v 25))),  -- 6964
    .V 30 (.o1 .cvtu8 (.o1 (.half 0) (.v 26))),  -- 6965
    .V 31 (.o1 .cvtu8 (.o1 (.half 1) (.v 23))),  -- 6967
    .V 32 (.o1 .cvtu8 (.o1 (.half 1) (.v 24))),  -- 6968
    .V 33 (.o1 .cvtu8 (.o1 (.half 1) (.v 25))),  -- 6969
    .V 34 (.o1 .cvtu8 (.o1 (.half 1) (.v 26))),  -- 6970
    .V 7 (.o2 .mullo16 (.v 27) (.v 1)),  -- 6972
    .V 8 (.o2 .mullo16 (.v 28) (.v 4)),  -- 6973
    .V 9 (.o2 .mullo16 (.v 29) (.v 3)),  -- 6974
    .V 10 (.o2 .add16 (.v 30) (.v 5)),  -- 6975
    .V 7 (.o2 .add16 (.v 7) (.v 10)),  -- 6976
    .V 7 (.o2 .add16 (.v 7) (.v 8)),  -- 6977
    .V 7 (.o2 .add16 (.v 7) (.v 9)),  -- 6978
    .V 15 (.o1 (.srli16 4) (.v 7)),  -- 6979
    .V 11 (.o2 .mullo16 (.v 31) (.v 1)),  -- 6981
    .V 12 (.o2 .mullo16 (.v 32) (.v 4)),  -- 6982
    .V 13 (.o2 .mullo16 (.v 33) (.v 3)),  -- 6983
    .V 14 (.o2 .add16 (.v 34) (.v 5))  -- 6984
  ]

/-- `intra_pred_ang_xy_22_avx`, vec/intrinsic_intra-pred_avx2.cc:6985-7012. -/
def xy22A_3 : Stmt :=
  .run [
    .V 11 (.o2 .add16 (.v 11) (.v 14)),  -- 6985
    .V 11 (.o2 .add16 (.v 11) (.v 12)),  -- 6986
    .V 11 (.o2 .add16 (.v 11) (.v 13)),  -- 6987
    .V 16 (.o1 (.srli16 4) (.v 11)),  -- 6988
    .V 7 (.o2 .add16 (.v 28) (.v 29)),  -- 6990
    .V 7 (.o2 .mullo16 (.v 7) (.v 1)),  -- 6991
    .V 8 (.o2 .add16 (.v 27) (.v 30)),  -- 6992
    .V 8 (.o2 .add16 (.v 8) (.v 2)),  -- 6993
    .V 7 (.o2 .add16 (.v 8) (.v 7)),  -- 6994
    .V 17 (.o1 (.srli16 3) (.v 7)),  -- 6995
    .V 11 (.o2 .add16 (.v 32) (.v 33)),  -- 6997
    .V 11 (.o2 .mullo16 (.v 11) (.v 1)),  -- 6998
    .V 12 (.o2 .add16 (.v 31) (.v 34)),  -- 6999
    .V 12 (.o2 .add16 (.v 12) (.v 2)),  -- 7000
    .V 11 (.o2 .add16 (.v 12) (.v 11)),  -- 7001
    .V 18 (.o1 (.srli16 3) (.v 11)),  -- 7002
    .V 8 (.o2 .mullo16 (.v 28) (.v 3)),  -- 7005
    .V 9 (.o2 .mullo16 (.v 29) (.v 4)),  -- 7006
    .V 10 (.o2 .mullo16 (.v 30) (.v 1)),  -- 7007
    .V 7 (.o2 .add16 (.v 27) (.v 5)),  -- 7008
    .V 7 (.o2 .add16 (.v 7) (.v 8)),  -- 7009
    .V 7 (.o2 .add16 (.v 7) (.v 9)),  -- 7010
    .V 7 (.o2 .add16 (.v 7) (.v 10)),  -- 7011
    .V 19 (.o1 (.srli16 4) (.v 7))  -- 7012
  ]

/-- `intra_pred_ang_xy_22_avx`, vec/intrinsic_intra-pred_avx2.cc:7014-7042. -/
def xy22A_4 : Stmt :=
  .run [
    .V 12 (.o2 .mullo16 (.v 32) (.v 3)),  -- 7014
    .V 13 (.o2 .mullo16 (.v 33) (.v 4)),  -- 7015
    .V 14 (.o2 .mullo16 (.v 34) (.v 1)),  -- 7016
    .V 11 (.o2 .add16 (.v 31) (.v 5)),  -- 7017
    .V 11 (.o2 .add16 (.v 11) (.v 12)),  -- 7018
    .V 11 (.o2 .add16 (.v 11) (.v 13)),  -- 7019
    .V 11 (.o2 .add16 (.v 11) (.v 14)),  -- 7020
    .V 20 (.o1 (.srli16 4) (.v 11)),  -- 7021
    .V 7 (.o2 .add16 (.v 28) (.v 29)),  -- 7024
    .V 8 (.o2 .add16 (.v 29) (.v 30)),  -- 7025
    .V 7 (.o2 .add16 (.v 7) (.v 8)),  -- 7026
    .V 7 (.o2 .add16 (.v 7) (.v 0)),  -- 7027
    .V 21 (.o1 (.srli16 2) (.v 7)),  -- 7028
    .V 11 (.o2 .add16 (.v 32) (.v 33)),  -- 7030
    .V 12 (.o2 .add16 (.v 33) (.v 34)),  -- 7031
    .V 11 (.o2 .add16 (.v 11) (.v 12)),  -- 7032
    .V 11 (.o2 .add16 (.v 11) (.v 0)),  -- 7033
    .V 22 (.o1 (.srli16 2) (.v 11)),  -- 7034
    .V 15 (.o2 .packus16y (.v 15) (.v 17)),  -- 7036
    .V 19 (.o2 .packus16y (.v 19) (.v 21)),  -- 7037
    .V 15 (.o2 .shuffle8y (.v 15) (.v 6)),  -- 7038
    .V 19 (.o2 .shuffle8y (.v 19) (.v 6)),  -- 7039
    .V 16 (.o2 .packus16y (.v 16) (.v 18)),  -- 7041
    .V 20 (.o2 .packus16y (.v 20) (.v 22))  -- 7042
  ]

/-- `intra_pred_ang_xy_22_avx`, vec/intrinsic_intra-pred_avx2.cc:6955-7059. -/
def xy22A_5 : Stmt :=
  .run [
    .V 16 (.o2 .shuffle8y (.v 16) (.v 6)),  -- 7043
    .V 20 (.o2 .shuffle8y (.v 20) (.v 6)),  -- 7044
    .V 15 (.o1 (.perm4 216) (.v 15)),  -- 7046
    .V 19 (.o1 (.perm4 216) (.v 19)),  -- 7047
    .V 16 (.o1 (.perm4 216) (.v 16)),  -- 7048
    .V 20 (.o1 (.perm4 216) (.v 20)),  -- 7049
    .V 17 (.o2 .unpacklo16y (.v 15) (.v 19)),  -- 7051
    .V 21 (.o2 .unpackhi16y (.v 15) (.v 19)),  -- 7052
    .V 18 (.o2 .unpacklo16y (.v 16) (.v 20)),  -- 7053
    .V 22 (.o2 .unpackhi16y (.v 16) (.v 20)),  -- 7054
    .st 32 (.add (.pa 0) (.v 4)) (.v 17),  -- 7056
    .st 32 (.add (.pa 0) (.add (.n 32) (.v 4))) (.v 21),  -- 7057
    .st 32 (.add (.pa 0) (.add (.n 64) (.v 4))) (.v 18),  -- 7058
    .st 32 (.add (.pa 0) (.add (.n 96) (.v 4))) (.v 22),  -- 7059
    .I 4 (.add (.v 4) (.n 128)),  -- 6955
    .P (.n 0) (.add (.pv (.n 0)) (.n 32))
  ]

/-- `intra_pred_ang_xy_22_avx`, vec/intrinsic_intra-pred_avx2.cc:6955. -/
def xy22A_6 : Stmt :=
  .loop (.lt (.v 4) (.sub (.v 7) (.n 64))) (.seq xy22A_2 (.seq xy22A_3 (.seq xy22A_4 xy22A_5)))

/-- `intra_pred_ang_xy_22_avx`, vec/intrinsic_intra-pred_avx2.cc:7064-7091. -/
def xy22A_7 : Stmt :=
  .run [
    .V 23 (.ld 32 (.sub (.pv (.n 0)) (.n 1))),  -- 7064
    .V 26 (.ld 32 (.add (.pv (.n 0)) (.n 2))),  -- 7065
    .V 24 (.ld 32 (.pv (.n 0))),  -- 7066
    .V 25 (.ld 32 (.add (.pv (.n 0)) (.n 1))),  -- 7067
    .V 27 (.o1 .cvtu8 (.o1 (.half 0) (.v 23))),  -- 7069
    .V 28 (.o1 .cvtu8 (.o1 (.half 0) (.v 24))),  -- 7070
    .V 29 (.o1 .cvtu8 (.o1 (.half 0) (.v 25))),  -- 7071
    .V 30 (.o1 .cvtu8 (.o1 (.half 0) (.v 26))),  -- 7072
    .V 7 (.o2 .mullo16 (.v 27) (.v 1)),  -- 7074
    .V 8 (.o2 .mullo16 (.v 28) (.v 4)),  -- 7075
    .V 9 (.o2 .mullo16 (.v 29) (.v 3)),  -- 7076
    .V 10 (.o2 .add16 (.v 30) (.v 5)),  -- 7077
    .V 7 (.o2 .add16 (.v 7) (.v 10)),  -- 7078
    .V 7 (.o2 .add16 (.v 7) (.v 8)),  -- 7079
    .V 7 (.o2 .add16 (.v 7) (.v 9)),  -- 7080
    .V 15 (.o1 (.srli16 4) (.v 7)),  -- 7081
    .V 7 (.o2 .add16 (.v 28) (.v 29)),  -- 7083
    .V 7 (.o2 .mullo16 (.v 7) (.v 1)),  -- 7084
    .V 8 (.o2 .add16 (.v 27) (.v 30)),  -- 7085
    .V 8 (.o2 .add16 (.v 8) (.v 2)),  -- 7086
    .V 7 (.o2 .add16 (.v 8) (.v 7)),  -- 7087
    .V 17 (.o1 (.srli16 3) (.v 7)),  -- 7088
    .V 8 (.o2 .mullo16 (.v 28) (.v 3)),  -- 7090
    .V 9 (.o2 .mullo16 (.v 29) (.v 4))  -- 7091
  ]

/-- `intra_pred_ang_xy_22_avx`, vec/intrinsic_intra-pred_avx2.cc:7092-7117. -/
def xy22A_8 : Stmt :=
  .run [
    .V 10 (.o2 .mullo16 (.v 30) (.v 1)),  -- 7092
    .V 7 (.o2 .add16 (.v 27) (.v 5)),  -- 7093
    .V 7 (.o2 .add16 (.v 7) (.v 8)),  -- 7094
    .V 7 (.o2 .add16 (.v 7) (.v 9)),  -- 7095
    .V 7 (.o2 .add16 (.v 7) (.v 10)),  -- 7096
    .V 19 (.o1 (.srli16 4) (.v 7)),  -- 7097
    .V 8 (.o2 .add16 (.v 29) (.v 30)),  -- 7099
    .V 7 (.o2 .add16 (.v 28) (.v 29)),  -- 7100
    .V 7 (.o2 .add16 (.v 7) (.v 8)),  -- 7101
    .V 7 (.o2 .add16 (.v 7) (.v 0)),  -- 7102
    .V 21 (.o1 (.srli16 2) (.v 7)),  -- 7103
    .V 15 (.o2 .packus16y (.v 15) (.v 17)),  -- 7105
    .V 19 (.o2 .packus16y (.v 19) (.v 21)),  -- 7106
    .V 15 (.o2 .shuffle8y (.v 15) (.v 6)),  -- 7107
    .V 19 (.o2 .shuffle8y (.v 19) (.v 6)),  -- 7108
    .V 15 (.o1 (.perm4 216) (.v 15)),  -- 7110
    .V 19 (.o1 (.perm4 216) (.v 19)),  -- 7111
    .V 17 (.o2 .unpacklo16y (.v 15) (.v 19)),  -- 7113
    .V 21 (.o2 .unpackhi16y (.v 15) (.v 19)),  -- 7114
    .st 32 (.add (.pa 0) (.v 4)) (.v 17),  -- 7116
    .st 32 (.add (.pa 0) (.add (.n 32) (.v 4))) (.v 21)  -- 7117
  ]

/-- `intra_pred_ang_xy_22_avx`, vec/intrinsic_intra-pred_avx2.cc:7062. -/
def xy22A_9 : Stmt :=
  .ite (.lt (.v 4) (.v 5)) (.seq xy22A_7 xy22A_8) (.run [])

/-- `intra_pred_ang_xy_22_avx`, vec/intrinsic_intra-pred_avx2.cc:7120-7123. -/
def xy22A_10 : Stmt :=
  .run [
    .P (.n 0) (.add (.pv (.n 3)) (.v 3)),  -- 7120
    .I 4 (.v 5)  -- 7123
  ]

/-- `intra_pred_ang_xy_22_avx`, vec/intrinsic_intra-pred_avx2.cc:7123-7154. -/
def xy22A_11 : Stmt :=
  .run [
    .V 23 (.ld 32 (.sub (.pv (.n 0)) (.n 1))),  -- 7125
    .V 25 (.ld 32 (.add (.pv (.n 0)) (.n 1))),  -- 7126
    .V 24 (.ld 32 (.pv (.n 0))),  -- 7127
    .V 27 (.o1 .cvtu8 (.o1 (.half 0) (.v 23))),  -- 7129
    .V 28 (.o1 .cvtu8 (.o1 (.half 0) (.v 24))),  -- 7130
    .V 29 (.o1 .cvtu8 (.o1 (.half 0) (.v 25))),  -- 7131
    .V 31 (.o1 .cvtu8 (.o1 (.half 1) (.v 23))),  -- 7133
    .V 32 (.o1 .cvtu8 (.o1 (.half 1) (.v 24))),  -- 7134
    .V 33 (.o1 .cvtu8 (.o1 (.half 1) (.v 25))),  -- 7135
    .V 35 (.o2 .add16 (.v 27) (.v 28)),  -- 7137
    .V 36 (.o2 .add16 (.v 28) (.v 29)),  -- 7138
    .V 37 (.o2 .add16 (.v 31) (.v 32)),  -- 7139
    .V 38 (.o2 .add16 (.v 32) (.v 33)),  -- 7140
    .V 35 (.o2 .add16 (.v 35) (.v 36)),  -- 7142
    .V 37 (.o2 .add16 (.v 37) (.v 38)),  -- 7143
    .V 35 (.o2 .add16 (.v 35) (.v 0)),  -- 7145
    .V 37 (.o2 .add16 (.v 37) (.v 0)),  -- 7146
    .V 35 (.o1 (.srli16 2) (.v 35)),  -- 7148
    .V 37 (.o1 (.srli16 2) (.v 37)),  -- 7149
    .V 35 (.o2 .packus16y (.v 35) (.v 37)),  -- 7151
    .V 35 (.o1 (.perm4 216) (.v 35)),  -- 7152
    .st 32 (.add (.pa 0) (.v 4)) (.v 35),  -- 7154
    .I 4 (.add (.v 4) (.n 32)),  -- 7123
    .P (.n 0) (.add (.pv (.n 0)) (.n 32))
  ]

/-- `intra_pred_ang_xy_22_avx`, vec/intrinsic_intra-pred_avx2.cc:7123. -/
def xy22A_12 : Stmt :=
  .loop (.lt (.v 4) (.sub (.v 7) (.n 16))) xy22A_11

/-- `intra_pred_ang_xy_22_avx`, vec/intrinsic_intra-pred_avx2.cc:7159-7178. -/
def xy22A_13 : Stmt :=
  .run [
    .V 39 (.mask 16 (.n 15)),  -- 7159
    .V 23 (.ld 32 (.sub (.pv (.n 0)) (.n 1))),  -- 7160
    .V 25 (.ld 32 (.add (.pv (.n 0)) (.n 1))),  -- 7161
    .V 24 (.ld 32 (.pv (.n 0))),  -- 7162
    .V 27 (.o1 .cvtu8 (.o1 (.half 0) (.v 23))),  -- 7164
    .V 28 (.o1 .cvtu8 (.o1 (.half 0) (.v 24))),  -- 7165
    .V 29 (.o1 .cvtu8 (.o1 (.half 0) (.v 25))),  -- 7166
    .V 35 (.o2 .add16 (.v 27) (.v 28)),  -- 7168
    .V 36 (.o2 .add16 (.v 28) (.v 29)),  -- 7169
    .V 35 (.o2 .add16 (.v 35) (.v 36)),  -- 7171
    .V 35 (.o2 .add16 (.v 35) (.v 0)),  -- 7172
    .V 35 (.o1 (.srli16 2) (.v 35)),  -- 7173
    .V 35 (.o2 .packus16y (.v 35) (.v 35)),  -- 7175
    .V 35 (.o1 (.perm4 216) (.v 35)),  -- 7176
    .mst 8 32 (.add (.pa 0) (.v 4)) (.v 39) (.v 35)  -- 7178
  ]

/-- `intra_pred_ang_xy_22_avx`, vec/intrinsic_intra-pred_avx2.cc:7157. -/
def xy22A_14 : Stmt :=
  .ite (.lt (.v 4) (.v 7)) xy22A_13 (.run [])

/-- `intra_pred_ang_xy_22_avx`, vec/intrinsic_intra-pred_avx2.cc:7185. -/
def xy22A_15 : Stmt :=
  .run [
    .I 4 (.n 0)  -- 7185
  ]

/-- `intra_pred_ang_xy_22_avx`, vec/intrinsic_intra-pred_avx2.cc:7186-7212. -/
def xy22A_16 : Stmt :=
  .run [
    .V 39 (.ld 32 (.pv (.n 2))),  -- 7186
    .st 32 (.pv (.n 1)) (.v 39),  -- 7187
    .V 39 (.ld 32 (.add (.pv (.n 2)) (.n 32))),  -- 7188
    .st 32 (.add (.pv (.n 1)) (.n 32)) (.v 39),  -- 7189
    .P (.n 1) (.add (.pv (.n 1)) (.v 0)),  -- 7190
    .P (.n 2) (.sub (.pv (.n 2)) (.n 4)),  -- 7191
    .V 39 (.ld 32 (.pv (.n 2))),  -- 7193
    .st 32 (.pv (.n 1)) (.v 39),  -- 7194
    .V 39 (.ld 32 (.add (.pv (.n 2)) (.n 32))),  -- 7195
    .st 32 (.add (.pv (.n 1)) (.n 32)) (.v 39),  -- 7196
    .P (.n 1) (.add (.pv (.n 1)) (.v 0)),  -- 7197
    .P (.n 2) (.sub (.pv (.n 2)) (.n 4)),  -- 7198
    .V 39 (.ld 32 (.pv (.n 2))),  -- 7200
    .st 32 (.pv (.n 1)) (.v 39),  -- 7201
    .V 39 (.ld 32 (.add (.pv (.n 2)) (.n 32))),  -- 7202
    .st 32 (.add (.pv (.n 1)) (.n 32)) (.v 39),  -- 7203
    .P (.n 1) (.add (.pv (.n 1)) (.v 0)),  -- 7204
    .P (.n 2) (.sub (.pv (.n 2)) (.n 4)),  -- 7205
    .V 39 (.ld 32 (.pv (.n 2))),  -- 7207
    .st 32 (.pv (.n 1)) (.v 39),  -- 7208
    .V 39 (.ld 32 (.add (.pv (.n 2)) (.n 32))),  -- 7209
    .st 32 (.add (.pv (.n 1)) (.n 32)) (.v 39),  -- 7210
    .P (.n 1) (.add (.pv (.n 1)) (.v 0)),  -- 7211
    .P (.n 2) (.sub (.pv (.n 2)) (.n 4))  -- 7212
  ]

/-- `intra_pred_ang_xy_22_avx`, vec/intrinsic_intra-pred_avx2.cc:7185. -/
def xy22A_17 : Stmt :=
  .run [
    .I 4 (.add (.v 4) (.n 4))  -- 7185
  ]

/-- `intra_pred_ang_xy_22_avx`, vec/intrinsic_intra-pred_avx2.cc:7185. -/
def xy22A_18 : Stmt :=
  .loop (.lt (.v 4) (.v 3)) (.seq xy22A_16 xy22A_17)

/-- `intra_pred_ang_xy_22_avx`, vec/intrinsic_intra-pred_avx2.cc:7215. -/
def xy22A_19 : Stmt :=
  .run [
    .I 4 (.n 0)  -- 7215
  ]

/-- `intra_pred_ang_xy_22_avx`, vec/intrinsic_intra-pred_avx2.cc:7215-7234. -/
def xy22A_20 : Stmt :=
  .run [
    .V 39 (.ld 32 (.pv (.n 2))),  -- 7216
    .st 32 (.pv (.n 1)) (.v 39),  -- 7217
    .P (.n 1) (.add (.pv (.n 1)) (.v 0)),  -- 7218
    .P (.n 2) (.sub (.pv (.n 2)) (.n 4)),  -- 7219
    .V 39 (.ld 32 (.pv (.n 2))),  -- 7221
    .st 32 (.pv (.n 1)) (.v 39),  -- 7222
    .P (.n 1) (.add (.pv (.n 1)) (.v 0)),  -- 7223
    .P (.n 2) (.sub (.pv (.n 2)) (.n 4)),  -- 7224
    .V 39 (.ld 32 (.pv (.n 2))),  -- 7226
    .st 32 (.pv (.n 1)) (.v 39),  -- 7227
    .P (.n 1) (.add (.pv (.n 1)) (.v 0)),  -- 7228
    .P (.n 2) (.sub (.pv (.n 2)) (.n 4)),  -- 7229
    .V 39 (.ld 32 (.pv (.n 2))),  -- 7231
    .st 32 (.pv (.n 1)) (.v 39),  -- 7232
    .P (.n 1) (.add (.pv (.n 1)) (.v 0)),  -- 7233
    .P (.n 2) (.sub (.pv (.n 2)) (.n 4)),  -- 7234
    .I 4 (.add (.v 4) (.n 4))  -- 7215
  ]

/-- `intra_pred_ang_xy_22_avx`, vec/intrinsic_intra-pred_avx2.cc:7215. -/
def xy22A_21 : Stmt :=
  .loop (.lt (.v 4) (.v 3)) xy22A_20

/-- `intra_pred_ang_xy_22_avx`, vec/intrinsic_intra-pred_avx2.cc:7237-7238. -/
def xy22A_22 : Stmt :=
  .run [
    .V 40 (.mask 16 (.n 15)),  -- 7237
    .I 4 (.n 0)  -- 7238
  ]

/-- `intra_pred_ang_xy_22_avx`, vec/intrinsic_intra-pred_avx2.cc:7238-7257. -/
def xy22A_23 : Stmt :=
  .run [
    .V 39 (.ld 32 (.pv (.n 2))),  -- 7239
    .mst 8 32 (.pv (.n 1)) (.v 40) (.v 39),  -- 7240
    .P (.n 1) (.add (.pv (.n 1)) (.v 0)),  -- 7241
    .P (.n 2) (.sub (.pv (.n 2)) (.n 4)),  -- 7242
    .V 39 (.ld 32 (.pv (.n 2))),  -- 7244
    .mst 8 32 (.pv (.n 1)) (.v 40) (.v 39),  -- 7245
    .P (.n 1) (.add (.pv (.n 1)) (.v 0)),  -- 7246
    .P (.n 2) (.sub (.pv (.n 2)) (.n 4)),  -- 7247
    .V 39 (.ld 32 (.pv (.n 2))),  -- 7249
    .mst 8 32 (.pv (.n 1)) (.v 40) (.v 39),  -- 7250
    .P (.n 1) (.add (.pv (.n 1)) (.v 0)),  -- 7251
    .P (.n 2) (.sub (.pv (.n 2)) (.n 4)),  -- 7252
    .V 39 (.ld 32 (.pv (.n 2))),  -- 7254
    .mst 8 32 (.pv (.n 1)) (.v 40) (.v 39),  -- 7255
    .P (.n 1) (.add (.pv (.n 1)) (.v 0)),  -- 7256
    .P (.n 2) (.sub (.pv (.n 2)) (.n 4)),  -- 7257
    .I 4 (.add (.v 4) (.n 4))  -- 7238
  ]

/-- `intra_pred_ang_xy_22_avx`, vec/intrinsic_intra-pred_avx2.cc:7238. -/
def xy22A_24 : Stmt :=
  .loop (.lt (.v 4) (.v 3)) xy22A_23

/-- `intra_pred_ang_xy_22_avx`, vec/intrinsic_intra-pred_avx2.cc:7260-7261. -/
def xy22A_25 : Stmt :=
  .run [
    .V 40 (.mask 16 (.n 7)),  -- 7260
    .I 4 (.n 0)  -- 7261
  ]

/-- `intra_pred_ang_xy_22_avx`, vec/intrinsic_intra-pred_avx2.cc:7261-7280. -/
def xy22A_26 : Stmt :=
  .run [
    .V 39 (.ld 32 (.pv (.n 2))),  -- 7262
    .mst 8 32 (.pv (.n 1)) (.v 40) (.v 39),  -- 7263
    .P (.n 1) (.add (.pv (.n 1)) (.v 0)),  -- 7264
    .P (.n 2) (.sub (.pv (.n 2)) (.n 4)),  -- 7265
    .V 39 (.ld 32 (.pv (.n 2))),  -- 7267
    .mst 8 32 (.pv (.n 1)) (.v 40) (.v 39),  -- 7268
    .P (.n 1) (.add (.pv (.n 1)) (.v 0)),  -- 7269
    .P (.n 2) (.sub (.pv (.n 2)) (.n 4)),  -- 7270
    .V 39 (.ld 32 (.pv (.n 2))),  -- 7272
    .mst 8 32 (.pv (.n 1)) (.v 40) (.v 39),  -- 7273
    .P (.n 1) (.add (.pv (.n 1)) (.v 0)),  -- 7274
    .P (.n 2) (.sub (.pv (.n 2)) (.n 4)),  -- 7275
    .V 39 (.ld 32 (.pv (.n 2))),  -- 7277
    .mst 8 32 (.pv (.n 1)) (.v 40) (.v 39),  -- 7278
    .P (.n 1) (.add (.pv (.n 1)) (.v 0)),  -- 7279
    .P (.n 2) (.sub (.pv (.n 2)) (.n 4)),  -- 7280
    .I 4 (.add (.v 4) (.n 4))  -- 7261
  ]

/-- `intra_pred_ang_xy_22_avx`, vec/intrinsic_intra-pred_avx2.cc:7261. -/
def xy22A_27 : Stmt :=
  .loop (.lt (.v 4) (.v 3)) xy22A_26

/-- `intra_pred_ang_xy_22_avx`, vec/intrinsic_intra-pred_avx2.cc:7236. -/
def xy22A_28 : Stmt :=
  .ite (.eq (.v 2) (.n 16)) (.seq xy22A_22 xy22A_24) (.seq xy22A_25 xy22A_27)

/-- `intra_pred_ang_xy_22_avx`, vec/intrinsic_intra-pred_avx2.cc:7214. -/
def xy22A_29 : Stmt :=
  .ite (.eq (.v 2) (.n 32)) (.seq xy22A_19 xy22A_21) xy22A_28

/-- `intra_pred_ang_xy_22_avx`, vec/intrinsic_intra-pred_avx2.cc:7184. -/
def xy22A_30 : Stmt :=
  .ite (.eq (.v 2) (.n 64)) (.seq xy22A_15 xy22A_18) xy22A_29

/-- `intra_pred_ang_xy_22_avx`, vec/intrinsic_intra-pred_avx2.cc:7309. -/
def xy22A_31 : Stmt :=
  .run [
    .I 4 (.n 0)  -- 7309
  ]

/-- `intra_pred_ang_xy_22_avx`, vec/intrinsic_intra-pred_avx2.cc:7309-7314. -/
def xy22A_32 : Stmt :=
  .run [
    .st1 (.add (.pv (.n 1)) (.n 0)) (.shr (.add (.add (.add (.add (.mul 3 (.ld (.add (.pv (.n 0)) (.n (-2))))) (.mul 7 (.ld (.add (.pv (.n 0)) (.n (-1)))))) (.mul 5 (.ld (.add (.pv (.n 0)) (.n 0))))) (.ld (.add (.pv (.n 0)) (.n 1)))) (.n 8)) 4),  -- 7310
    .st1 (.add (.pv (.n 1)) (.n 1)) (.shr (.add (.add (.add (.ld (.add (.pv (.n 0)) (.n (-2)))) (.mul 3 (.add (.ld (.add (.pv (.n 0)) (.n (-1)))) (.ld (.add (.pv (.n 0)) (.n 0)))))) (.ld (.add (.pv (.n 0)) (.n 1)))) (.n 4)) 3),  -- 7311
    .st1 (.add (.pv (.n 1)) (.n 2)) (.shr (.add (.add (.add (.add (.ld (.add (.pv (.n 0)) (.n (-2)))) (.mul 5 (.ld (.add (.pv (.n 0)) (.n (-1)))))) (.mul 7 (.ld (.add (.pv (.n 0)) (.n 0))))) (.mul 3 (.ld (.add (.pv (.n 0)) (.n 1))))) (.n 8)) 4),  -- 7312
    .st1 (.add (.pv (.n 1)) (.n 3)) (.shr (.add (.add (.add (.ld (.add (.pv (.n 0)) (.n (-1)))) (.mul 2 (.ld (.add (.pv (.n 0)) (.n 0))))) (.ld (.add (.pv (.n 0)) (.n 1)))) (.n 2)) 2),  -- 7313
    .P (.n 1) (.add (.pv (.n 1)) (.v 0)),  -- 7314
    .I 4 (.add (.v 4) (.n 1)),  -- 7309
    .P (.n 0) (.sub (.pv (.n 0)) (.n 1))
  ]

/-- `intra_pred_ang_xy_22_avx`, vec/intrinsic_intra-pred_avx2.cc:7309. -/
def xy22A_33 : Stmt :=
  .loop (.lt (.v 4) (.v 3)) xy22A_32

/-- `intra_pred_ang_xy_22_avx`, vec/intrinsic_intra-pred_avx2.cc:6930. -/
def xy22A_34 : Stmt :=
  .ite (.ne (.v 2) (.n 4)) (.seq xy22A_1 (.seq xy22A_6 (.seq xy22A_9 (.seq xy22A_10 (.seq xy22A_12 (.seq xy22A_14 xy22A_30)))))) (.seq xy22A_31 xy22A_33)

/-- `intra_pred_ang_xy_22_avx`, source/common/vec/intrinsic_intra-pred_avx2.cc:6925-7318.  Variables:
I: 0 i_dst, 1 dir_mode, 2 bsx, 3 bsy, 4 i, 5 left_size, 6 top_size, 7 line_size;
P: 0 src, 1 dst, 2 pfirst, 3 pSrc1;
V: 0 coeff2, 1 coeff3, 2 coeff4, 3 coeff5, 4 coeff7, 5 coeff8, 6 shuffle, 7 p00, 8 p10, 9 p20, 10 p30, 11 p01, 12 p11, 13 p21, 14 p31, 15 M1, 16 M2, 17 M3, 18 M4, 19 M5, 20 M6, 21 M7, 22 M8, 23 S0, 24 S1, 25 S2, 26 S3, 27 L0, 28 L1, 29 L2, 30 L3, 31 H0, 32 H1, 33 H2, 34 H3, 35 sum1, 36 sum2, 37 sum3, 38 sum4, 39 mask/M, 40 mask. -/
def xy22A : Stmt :=
  xy22A_34

/-- `intra_pred_ang_xy_23_avx`, vec/intrinsic_intra-pred_avx2.cc:7326-7341. -/
def xy23A_1 : Stmt :=
  .run [
    .alloc 0 576,  -- 7326
    .I 5 (.sub (.shl (.v 3) 3) (.n 1)),  -- 7327
    .I 6 (.sub (.v 2) (.n 7)),  -- 7328
    .I 7 (.add (.v 5) (.v 6)),  -- 7329
    .P (.n 2) (.sub (.add (.pa 0) (.v 5)) (.n 7)),  -- 7330
    .P (.n 3) (.pa 0),  -- 7331
    .P (.n 4) (.pv (.n 0)),  -- 7332
    .P (.n 0) (.sub (.pv (.n 0)) (.v 3)),  -- 7334
    .V 0 (.setr16 [.n 7, .n 3, .n 5, .n 1, .n 3, .n 1, .n 1, .n 0, .n 7, .n 3, .n 5, .n 1, .n 3, .n 1, .n 1, .n 0]),  -- 7336
    .V 1 (.setr16 [.n 15, .n 7, .n 13, .n 3, .n 11, .n 5, .n 9, .n 1, .n 15, .n 7, .n 13, .n 3, .n 11, .n 5, .n 9, .n 1]),  -- 7337
    .V 2 (.setr16 [.n 9, .n 5, .n 11, .n 3, .n 13, .n 7, .n 15, .n 2, .n 9, .n 5, .n 11, .n 3, .n 13, .n 7, .n 15, .n 2]),  -- 7338
    .V 3 (.setr16 [.n 1, .n 1, .n 3, .n 1, .n 5, .n 3, .n 7, .n 1, .n 1, .n 1, .n 3, .n 1, .n 5, .n 3, .n 7, .n 1]),  -- 7339
    .V 4 (.setr16 [.n 16, .n 8, .n 16, .n 4, .n 16, .n 8, .n 16, .n 2, .n 16, .n 8, .n 16, .n 4, .n 16, .n 8, .n 16, .n 2]),  -- 7340
    .V 5 (.setr16 [.n 1, .n 2, .n 1, .n 4, .n 1, .n 2, .n 1, .n 8, .n 1, .n 2, .n 1, .n 4, .n 1, .n 2, .n 1, .n 8])  -- 7341
  ]

/-- `intra_pred_ang_xy_23_avx`, vec/intrinsic_intra-pred_avx2.cc:7352-7366. -/
def xy23A_2 : Stmt :=
  .run [
    .V 16 (.setr16 [.ld (.add (.pv (.n 0)) (.n (-1))), .ld (.add (.pv (.n 0)) (.n (-1))), .ld (.add (.pv (.n 0)) (.n (-1))), .ld (.add (.pv (.n 0)) (.n (-1))), .ld (.add (.pv (.n 0)) (.n (-1))), .ld (.add (.pv (.n 0)) (.n (-1))), .ld (.add (.pv (.n 0)) (.n (-1))), .ld (.add (.pv (.n 0)) (.n (-1))), .ld (.add (.pv (.n 0)) (.n 1)), .ld (.add (.pv (.n 0)) (.n 1)), .ld (.add (.pv (.n 0)) (.n 1)), .ld (.add (.pv (.n 0)) (.n 1)), .ld (.add (.pv (.n 0)) (.n 1)), .ld (.add (.pv (.n 0)) (.n 1)), .ld (.add (.pv (.n 0)) (.n 1)), .ld (.add (.pv (.n 0)) (.n 1))]),  -- 7352
    .V 17 (.setr16 [.ld (.add (.pv (.n 0)) (.n 0)), .ld (.add (.pv (.n 0)) (.n 0)), .ld (.add (.pv (.n 0)) (.n 0)), .ld (.add (.pv (.n 0)) (.n 0)), .ld (.add (.pv (.n 0)) (.n 0)), .ld (.add (.pv (.n 0)) (.n 0)), .ld (.add (.pv (.n 0)) (.n 0)), .ld (.add (.pv (.n 0)) (.n 0)), .ld (.add (.pv (.n 0)) (.n 2)), .ld (.add (.pv (.n 0)) (.n 2)), .ld (.add (.pv (.n 0)) (.n 2)), .ld (.add (.pv (.n 0)) (.n 2)), .ld (.add (.pv (.n 0)) (.n 2)), .ld (.add (.pv (.n 0)) (.n 2)), .ld (.add (.pv (.n 0)) (.n 2)), .ld (.add (.pv (.n 0)) (.n 2))]),  -- 7355
    .V 18 (.setr16 [.ld (.add (.pv (.n 0)) (.n 1)), .ld (.add (.pv (.n 0)) (.n 1)), .ld (.add (.pv (.n 0)) (.n 1)), .ld (.add (.pv (.n 0)) (.n 1)), .ld (.add (.pv (.n 0)) (.n 1)), .ld (.add (.pv (.n 0)) (.n 1)), .ld (.add (.pv (.n 0)) (.n 1)), .ld (.add (.pv (.n 0)) (.n 1)), .ld (.add (.pv (.n 0)) (.n 3)), .ld (.add (.pv (.n 0)) (.n 3)), .ld (.add (.pv (.n 0)) (.n 3)), .ld (.add (.pv (.n 0)) (.n 3)), .ld (.add (.pv (.n 0)) (.n 3)), .ld (.add (.pv (.n 0)) (.n 3)), .ld (.add (.pv (.n 0)) (.n 3)), .ld (.add (.pv (.n 0)) (.n 3))]),  -- 7358
    .V 19 (.setr16 [.ld (.add (.pv (.n 0)) (.n 2)), .ld (.add (.pv (.n 0)) (.n 2)), .ld (.add (.pv (.n 0)) (.n 2)), .ld (.add (.pv (.n 0)) (.n 2)), .ld (.add (.pv (.n 0)) (.n 2)), .ld (.add (.pv (.n 0)) (.n 2)), .ld (.add (.pv (.n 0)) (.n 2)), .ld (.add (.pv (.n 0)) (.n 2)), .ld (.add (.pv (.n 0)) (.n 4)), .ld (.add (.pv (.n 0)) (.n 4)), .ld (.add (.pv (.n 0)) (.n 4)), .ld (.add (.pv (.n 0)) (.n 4)), .ld (.add (.pv (.n 0)) (.n 4)), .ld (.add (.pv (.n 0)) (.n 4)), .ld (.add (.pv (.n 0)) (.n 4)), .ld (.add (.pv (.n 0)) (.n 4))]),  -- 7361
    .P (.n 0) (.add (.pv (.n 0)) (.n 4)),  -- 7364
    .I 4 (.n 0)  -- 7366
  ]

/-- `intra_pred_ang_xy_23_avx`, vec/intrinsic_intra-pred_avx2.cc:7366-7393. -/
def xy23A_3 : Stmt :=
  .run [
    .V 6 (.o2 .mullo16 (.v 16) (.v 0)),  -- 7367
    .V 7 (.o2 .mullo16 (.v 17) (.v 1)),  -- 7368
    .V 8 (.o2 .mullo16 (.v 18) (.v 2)),  -- 7369
    .V 9 (.o2 .mullo16 (.v 19) (.v 3)),  -- 7370
    .V 6 (.o2 .add16 (.v 6) (.v 4)),  -- 7371
    .V 6 (.o2 .add16 (.v 6) (.v 7)),  -- 7372
    .V 6 (.o2 .add16 (.v 6) (.v 8)),  -- 7373
    .V 6 (.o2 .add16 (.v 6) (.v 9)),  -- 7374
    .V 6 (.o2 .mullo16 (.v 6) (.v 5)),  -- 7375
    .V 6 (.o1 (.srli16 5) (.v 6)),  -- 7376
    .V 16 (.setr16 [.ld (.add (.pv (.n 0)) (.n (-1))), .ld (.add (.pv (.n 0)) (.n (-1))), .ld (.add (.pv (.n 0)) (.n (-1))), .ld (.add (.pv (.n 0)) (.n (-1))), .ld (.add (.pv (.n 0)) (.n (-1))), .ld (.add (.pv (.n 0)) (.n (-1))), .ld (.add (.pv (.n 0)) (.n (-1))), .ld (.add (.pv (.n 0)) (.n (-1))), .ld (.add (.pv (.n 0)) (.n 1)), .ld (.add (.pv (.n 0)) (.n 1)), .ld (.add (.pv (.n 0)) (.n 1)), .ld (.add (.pv (.n 0)) (.n 1)), .ld (.add (.pv (.n 0)) (.n 1)), .ld (.add (.pv (.n 0)) (.n 1)), .ld (.add (.pv (.n 0)) (.n 1)), .ld (.add (.pv (.n 0)) (.n 1))]),  -- 7378
    .V 10 (.o2 .mullo16 (.v 17) (.v 0)),  -- 7381
    .V 11 (.o2 .mullo16 (.v 18) (.v 1)),  -- 7382
    .V 12 (.o2 .mullo16 (.v 19) (.v 2)),  -- 7383
    .V 13 (.o2 .mullo16 (.v 16) (.v 3)),  -- 7384
    .V 10 (.o2 .add16 (.v 10) (.v 4)),  -- 7385
    .V 10 (.o2 .add16 (.v 10) (.v 11)),  -- 7386
    .V 10 (.o2 .add16 (.v 10) (.v 12)),  -- 7387
    .V 10 (.o2 .add16 (.v 10) (.v 13)),  -- 7388
    .V 10 (.o2 .mullo16 (.v 10) (.v 5)),  -- 7389
    .V 10 (.o1 (.srli16 5) (.v 10)),  -- 7390
    .V 14 (.o2 .packus16y (.v 6) (.v 10)),  -- 7392
    .st 32 (.pv (.n 3)) (.v 14),  -- 7393
    .I 4 (.add (.v 4) (.n 32))  -- 7366
  ]

/-- `intra_pred_ang_xy_23_avx`, vec/intrinsic_intra-pred_avx2.cc:7366. -/
def xy23A_4 : Stmt :=
  .loop (.lt (.v 4) (.add (.v 5) (.n 1))) xy23A_3

/-- `intra_pred_ang_xy_23_avx`, vec/intrinsic_intra-pred_avx2.cc:7399-7413. -/
def xy23A_5 : Stmt :=
  .run [
    .V 16 (.setr16 [.ld (.add (.pv (.n 0)) (.n (-1))), .ld (.add (.pv (.n 0)) (.n (-1))), .ld (.add (.pv (.n 0)) (.n (-1))), .ld (.add (.pv (.n 0)) (.n (-1))), .ld (.add (.pv (.n 0)) (.n (-1))), .ld (.add (.pv (.n 0)) (.n (-1))), .ld (.add (.pv (.n 0)) (.n (-1))), .ld (.add (.pv (.n 0)) (.n (-1))), .ld (.add (.pv (.n 0)) (.n 3)), .ld (.add (.pv (.n 0)) (.n 3)), .ld (.add (.pv (.n 0)) (.n 3)), .ld (.add (.pv (.n 0)) (.n 3)), .ld (.add (.pv (.n 0)) (.n 3)), .ld (.add (.pv (.n 0)) (.n 3)), .ld (.add (.pv (.n 0)) (.n 3)), .ld (.add (.pv (.n 0)) (.n 3))]),  -- 7399
    .V 17 (.setr16 [.ld (.add (.pv (.n 0)) (.n 0)), .ld (.add (.pv (.n 0)) (.n 0)), .ld (.add (.pv (.n 0)) (.n 0)), .ld (.add (.pv (.n 0)) (.n 0)), .ld (.add (.pv (.n 0)) (.n 0)), .ld (.add (.pv (.n 0)) (.n 0)), .ld (.add (.pv (.n 0)) (.n 0)), .ld (.add (.pv (.n 0)) (.n 0)), .ld (.add (.pv (.n 0)) (.n 4)), .ld (.add (.pv (.n 0)) (.n 4)), .ld (.add (.pv (.n 0)) (.n 4)), .ld (.add (.pv (.n 0)) (.n 4)), .ld (.add (.pv (.n 0)) (.n 4)), .ld (.add (.pv (.n 0)) (.n 4)), .ld (.add (.pv (.n 0)) (.n 4)), .ld (.add (.pv (.n 0)) (.n 4))]),  -- 7402
    .V 18 (.setr16 [.ld (.add (.pv (.n 0)) (.n 1)), .ld (.add (.pv (.n 0)) (.n 1)), .ld (.add (.pv (.n 0)) (.n 1)), .ld (.add (.pv (.n 0)) (.n 1)), .ld (.add (.pv (.n 0)) (.n 1)), .ld (.add (.pv (.n 0)) (.n 1)), .ld (.add (.pv (.n 0)) (.n 1)), .ld (.add (.pv (.n 0)) (.n 1)), .ld (.add (.pv (.n 0)) (.n 5)), .ld (.add (.pv (.n 0)) (.n 5)), .ld (.add (.pv (.n 0)) (.n 5)), .ld (.add (.pv (.n 0)) (.n 5)), .ld (.add (.pv (.n 0)) (.n 5)), .ld (.add (.pv (.n 0)) (.n 5)), .ld (.add (.pv (.n 0)) (.n 5)), .ld (.add (.pv (.n 0)) (.n 5))]),  -- 7405
    .V 19 (.setr16 [.ld (.add (.pv (.n 0)) (.n 2)), .ld (.add (.pv (.n 0)) (.n 2)), .ld (.add (.pv (.n 0)) (.n 2)), .ld (.add (.pv (.n 0)) (.n 2)), .ld (.add (.pv (.n 0)) (.n 2)), .ld (.add (.pv (.n 0)) (.n 2)), .ld (.add (.pv (.n 0)) (.n 2)), .ld (.add (.pv (.n 0)) (.n 2)), .ld (.add (.pv (.n 0)) (.n 6)), .ld (.add (.pv (.n 0)) (.n 6)), .ld (.add (.pv (.n 0)) (.n 6)), .ld (.add (.pv (.n 0)) (.n 6)), .ld (.add (.pv (.n 0)) (.n 6)), .ld (.add (.pv (.n 0)) (.n 6)), .ld (.add (.pv (.n 0)) (.n 6)), .ld (.add (.pv (.n 0)) (.n 6))]),  -- 7408
    .P (.n 0) (.add (.pv (.n 0)) (.n 4)),  -- 7411
    .I 4 (.n 0)  -- 7413
  ]

/-- `intra_pred_ang_xy_23_avx`, vec/intrinsic_intra-pred_avx2.cc:7414-7444. -/
def xy23A_6 : Stmt :=
  .run [
    .V 6 (.o2 .mullo16 (.v 16) (.v 0)),  -- 7414
    .V 7 (.o2 .mullo16 (.v 17) (.v 1)),  -- 7415
    .V 8 (.o2 .mullo16 (.v 18) (.v 2)),  -- 7416
    .V 9 (.o2 .mullo16 (.v 19) (.v 3)),  -- 7417
    .V 6 (.o2 .add16 (.v 6) (.v 4)),  -- 7418
    .V 6 (.o2 .add16 (.v 6) (.v 7)),  -- 7419
    .V 6 (.o2 .add16 (.v 6) (.v 8)),  -- 7420
    .V 6 (.o2 .add16 (.v 6) (.v 9)),  -- 7421
    .V 6 (.o2 .mullo16 (.v 6) (.v 5)),  -- 7422
    .V 6 (.o1 (.srli16 5) (.v 6)),  -- 7423
    .V 16 (.setr16 [.ld (.add (.pv (.n 0)) (.n (-1))), .ld (.add (.pv (.n 0)) (.n (-1))), .ld (.add (.pv (.n 0)) (.n (-1))), .ld (.add (.pv (.n 0)) (.n (-1))), .ld (.add (.pv (.n 0)) (.n (-1))), .ld (.add (.pv (.n 0)) (.n (-1))), .ld (.add (.pv (.n 0)) (.n (-1))), .ld (.add (.pv (.n 0)) (.n (-1))), .ld (.add (.pv (.n 0)) (.n 3)), .ld (.add (.pv (.n 0)) (.n 3)), .ld (.add (.pv (.n 0)) (.n 3)), .ld (.add (.pv (.n 0)) (.n 3)), .ld (.add (.pv (.n 0)) (.n 3)), .ld (.add (.pv (.n 0)) (.n 3)), .ld (.add (.pv (.n 0)) (.n 3)), .ld (.add (.pv (.n 0)) (.n 3))]),  -- 7425
    .V 10 (.o2 .mullo16 (.v 17) (.v 0)),  -- 7428
    .V 11 (.o2 .mullo16 (.v 18) (.v 1)),  -- 7429
    .V 12 (.o2 .mullo16 (.v 19) (.v 2)),  -- 7430
    .V 13 (.o2 .mullo16 (.v 16) (.v 3)),  -- 7431
    .V 10 (.o2 .add16 (.v 10) (.v 4)),  -- 7432
    .V 10 (.o2 .add16 (.v 10) (.v 11)),  -- 7433
    .V 10 (.o2 .add16 (.v 10) (.v 12)),  -- 7434
    .V 10 (.o2 .add16 (.v 10) (.v 13)),  -- 7435
    .V 10 (.o2 .mullo16 (.v 10) (.v 5)),  -- 7436
    .V 10 (.o1 (.srli16 5) (.v 10)),  -- 7437
    .V 14 (.o2 .packus16y (.v 6) (.v 10)),  -- 7439
    .V 17 (.setr16 [.ld (.add (.pv (.n 0)) (.n 0)), .ld (.add (.pv (.n 0)) (.n 0)), .ld (.add (.pv (.n 0)) (.n 0)), .ld (.add (.pv (.n 0)) (.n 0)), .ld (.add (.pv (.n 0)) (.n 0)), .ld (.add (.pv (.n 0)) (.n 0)), .ld (.add (.pv (.n 0)) (.n 0)), .ld (.add (.pv (.n 0)) (.n 0)), .ld (.add (.pv (.n 0)) (.n 4)), .ld (.add (.pv (.n 0)) (.n 4)), .ld (.add (.pv (.n 0)) (.n 4)), .ld (.add (.pv (.n 0)) (.n 4)), .ld (.add (.pv (.n 0)) (.n 4)), .ld (.add (.pv (.n 0)) (.n 4)), .ld (.add (.pv (.n 0)) (.n 4)), .ld (.add (.pv (.n 0)) (.n 4))]),  -- 7441
    .V 6 (.o2 .mullo16 (.v 18) (.v 0))  -- 7444
  ]

/-- `intra_pred_ang_xy_23_avx`, vec/intrinsic_intra-pred_avx2.cc:7445-7472. -/
def xy23A_7 : Stmt :=
  .run [
    .V 7 (.o2 .mullo16 (.v 19) (.v 1)),  -- 7445
    .V 8 (.o2 .mullo16 (.v 16) (.v 2)),  -- 7446
    .V 9 (.o2 .mullo16 (.v 17) (.v 3)),  -- 7447
    .V 6 (.o2 .add16 (.v 6) (.v 4)),  -- 7448
    .V 6 (.o2 .add16 (.v 6) (.v 7)),  -- 7449
    .V 6 (.o2 .add16 (.v 6) (.v 8)),  -- 7450
    .V 6 (.o2 .add16 (.v 6) (.v 9)),  -- 7451
    .V 6 (.o2 .mullo16 (.v 6) (.v 5)),  -- 7452
    .V 6 (.o1 (.srli16 5) (.v 6)),  -- 7453
    .V 18 (.setr16 [.ld (.add (.pv (.n 0)) (.n 1)), .ld (.add (.pv (.n 0)) (.n 1)), .ld (.add (.pv (.n 0)) (.n 1)), .ld (.add (.pv (.n 0)) (.n 1)), .ld (.add (.pv (.n 0)) (.n 1)), .ld (.add (.pv (.n 0)) (.n 1)), .ld (.add (.pv (.n 0)) (.n 1)), .ld (.add (.pv (.n 0)) (.n 1)), .ld (.add (.pv (.n 0)) (.n 5)), .ld (.add (.pv (.n 0)) (.n 5)), .ld (.add (.pv (.n 0)) (.n 5)), .ld (.add (.pv (.n 0)) (.n 5)), .ld (.add (.pv (.n 0)) (.n 5)), .ld (.add (.pv (.n 0)) (.n 5)), .ld (.add (.pv (.n 0)) (.n 5)), .ld (.add (.pv (.n 0)) (.n 5))]),  -- 7455
    .V 10 (.o2 .mullo16 (.v 19) (.v 0)),  -- 7458
    .V 11 (.o2 .mullo16 (.v 16) (.v 1)),  -- 7459
    .V 12 (.o2 .mullo16 (.v 17) (.v 2)),  -- 7460
    .V 13 (.o2 .mullo16 (.v 18) (.v 3)),  -- 7461
    .V 10 (.o2 .add16 (.v 10) (.v 4)),  -- 7462
    .V 10 (.o2 .add16 (.v 10) (.v 11)),  -- 7463
    .V 10 (.o2 .add16 (.v 10) (.v 12)),  -- 7464
    .V 10 (.o2 .add16 (.v 10) (.v 13)),  -- 7465
    .V 10 (.o2 .mullo16 (.v 10) (.v 5)),  -- 7466
    .V 10 (.o1 (.srli16 5) (.v 10)),  -- 7467
    .V 15 (.o2 .packus16y (.v 6) (.v 10)),  -- 7469
    .V 6 (.o2 (.perm2 32) (.v 14) (.v 15)),  -- 7470
    .st 32 (.pv (.n 3)) (.v 6),  -- 7471
    .P (.n 3) (.add (.pv (.n 3)) (.n 32))  -- 7472
  ]

/-- `intra_pred_ang_xy_23_avx`, vec/intrinsic_intra-pred_avx2.cc:7413-7490. -/
def xy23A_8 : Stmt :=
  .run [
    .V 6 (.o2 (.perm2 49) (.v 14) (.v 15)),  -- 7474
    .st 32 (.pv (.n 3)) (.v 6),  -- 7475
    .P (.n 3) (.add (.pv (.n 3)) (.n 32)),  -- 7477
    .P (.n 0) (.add (.pv (.n 0)) (.n 4)),  -- 7479
    .V 16 (.setr16 [.ld (.add (.pv (.n 0)) (.n (-1))), .ld (.add (.pv (.n 0)) (.n (-1))), .ld (.add (.pv (.n 0)) (.n (-1))), .ld (.add (.pv (.n 0)) (.n (-1))), .ld (.add (.pv (.n 0)) (.n (-1))), .ld (.add (.pv (.n 0)) (.n (-1))), .ld (.add (.pv (.n 0)) (.n (-1))), .ld (.add (.pv (.n 0)) (.n (-1))), .ld (.add (.pv (.n 0)) (.n 3)), .ld (.add (.pv (.n 0)) (.n 3)), .ld (.add (.pv (.n 0)) (.n 3)), .ld (.add (.pv (.n 0)) (.n 3)), .ld (.add (.pv (.n 0)) (.n 3)), .ld (.add (.pv (.n 0)) (.n 3)), .ld (.add (.pv (.n 0)) (.n 3)), .ld (.add (.pv (.n 0)) (.n 3))]),  -- 7481
    .V 17 (.setr16 [.ld (.add (.pv (.n 0)) (.n 0)), .ld (.add (.pv (.n 0)) (.n 0)), .ld (.add (.pv (.n 0)) (.n 0)), .ld (.add (.pv (.n 0)) (.n 0)), .ld (.add (.pv (.n 0)) (.n 0)), .ld (.add (.pv (.n 0)) (.n 0)), .ld (.add (.pv (.n 0)) (.n 0)), .ld (.add (.pv (.n 0)) (.n 0)), .ld (.add (.pv (.n 0)) (.n 4)), .ld (.add (.pv (.n 0)) (.n 4)), .ld (.add (.pv (.n 0)) (.n 4)), .ld (.add (.pv (.n 0)) (.n 4)), .ld (.add (.pv (.n 0)) (.n 4)), .ld (.add (.pv (.n 0)) (.n 4)), .ld (.add (.pv (.n 0)) (.n 4)), .ld (.add (.pv (.n 0)) (.n 4))]),  -- 7484
    .V 18 (.setr16 [.ld (.add (.pv (.n 0)) (.n 1)), .ld (.add (.pv (.n 0)) (.n 1)), .ld (.add (.pv (.n 0)) (.n 1)), .ld (.add (.pv (.n 0)) (.n 1)), .ld (.add (.pv (.n 0)) (.n 1)), .ld (.add (.pv (.n 0)) (.n 1)), .ld (.add (.pv (.n 0)) (.n 1)), .ld (.add (.pv (.n 0)) (.n 1)), .ld (.add (.pv (.n 0)) (.n 5)), .ld (.add (.pv (.n 0)) (.n 5)), .ld (.add (.pv (.n 0)) (.n 5)), .ld (.add (.pv (.n 0)) (.n 5)), .ld (.add (.pv (.n 0)) (.n 5)), .ld (.add (.pv (.n 0)) (.n 5)), .ld (.add (.pv (.n 0)) (.n 5)), .ld (.add (.pv (.n 0)) (.n 5))]),  -- 7487
    .V 19 (.setr16 [.ld (.add (.pv (.n 0)) (.n 2)), .ld (.add (.pv (.n 0)) (.n 2)), .ld (.add (.pv (.n 0)) (.n 2)), .ld (.add (.pv (.n 0)) (.n 2)), .ld (.add (.pv (.n 0)) (.n 2)), .ld (.add (.pv (.n 0)) (.n 2)), .ld (.add (.pv (.n 0)) (.n 2)), .ld (.add (.pv (.n 0)) (.n 2)), .ld (.add (.pv (.n 0)) (.n 6)), .ld (.add (.pv (.n 0)) (.n 6)), .ld (.add (.pv (.n 0)) (.n 6)), .ld (.add (.pv (.n 0)) (.n 6)), .ld (.add (.pv (.n 0)) (.n 6)), .ld (.add (.pv (.n 0)) (.n 6)), .ld (.add (.pv (.n 0)) (.n 6)), .ld (.add (.pv (.n 0)) (.n 6))]),  -- 7490
    .I 4 (.add (.v 4) (.n 64)),  -- 7413
    .P (.n 0) (.add (.pv (.n 0)) (.n 4))
  ]

/-- `intra_pred_ang_xy_23_avx`, vec/intrinsic_intra-pred_avx2.cc:7413. -/
def xy23A_9 : Stmt :=
  .loop (.lt (.v 4) (.add (.v 5) (.n 1))) (.seq xy23A_6 (.seq xy23A_7 xy23A_8))

/-- `intra_pred_ang_xy_23_avx`, vec/intrinsic_intra-pred_avx2.cc:7351. -/
def xy23A_10 : Stmt :=
  .ite (.eq (.v 3) (.n 4)) (.seq xy23A_2 xy23A_4) (.seq xy23A_5 xy23A_9)

/-- `intra_pred_ang_xy_23_avx`, vec/intrinsic_intra-pred_avx2.cc:7495-7497. -/
def xy23A_11 : Stmt :=
  .run [
    .P (.n 0) (.add (.pv (.n 4)) (.n 1)),  -- 7495
    .V 2 (.set1_16 (.n 2))  -- 7497
  ]

/-- `intra_pred_ang_xy_23_avx`, vec/intrinsic_intra-pred_avx2.cc:7498-7526. -/
def xy23A_12 : Stmt :=
  .run [
    .V 23 (.ld 32 (.pv (.n 0))),  -- 7500
    .V 24 (.ld 32 (.add (.pv (.n 0)) (.n 1))),  -- 7501
    .V 25 (.ld 32 (.sub (.pv (.n 0)) (.n 1))),  -- 7502
    .V 16 (.o1 .cvtu8 (.o1 (.half 0) (.v 23))),  -- 7504
    .V 17 (.o1 .cvtu8 (.o1 (.half 0) (.v 24))),  -- 7505
    .V 18 (.o1 .cvtu8 (.o1 (.half 0) (.v 25))),  -- 7506
    .V 20 (.o1 .cvtu8 (.o1 (.half 1) (.v 23))),  -- 7508
    .V 21 (.o1 .cvtu8 (.o1 (.half 1) (.v 24))),  -- 7509
    .V 22 (.o1 .cvtu8 (.o1 (.half 1) (.v 25))),  -- 7510
    .V 6 (.o2 .mullo16 (.v 16) (.v 2)),  -- 7512
    .V 7 (.o2 .add16 (.v 17) (.v 18)),  -- 7513
    .V 6 (.o2 .add16 (.v 6) (.v 2)),  -- 7514
    .V 6 (.o2 .add16 (.v 6) (.v 7)),  -- 7515
    .V 6 (.o1 (.srli16 2) (.v 6)),  -- 7516
    .V 10 (.o2 .mullo16 (.v 20) (.v 2)),  -- 7518
    .V 11 (.o2 .add16 (.v 21) (.v 22)),  -- 7519
    .V 10 (.o2 .add16 (.v 10) (.v 2)),  -- 7520
    .V 10 (.o2 .add16 (.v 10) (.v 11)),  -- 7521
    .V 10 (.o1 (.srli16 2) (.v 10)),  -- 7522
    .V 6 (.o2 .packus16y (.v 6) (.v 10)),  -- 7524
    .V 6 (.o1 (.perm4 216) (.v 6)),  -- 7525
    .st 32 (.add (.pa 0) (.v 4)) (.v 6),  -- 7526
    .I 4 (.add (.v 4) (.n 32)),  -- 7498
    .P (.n 0) (.add (.pv (.n 0)) (.n 32))
  ]

/-- `intra_pred_ang_xy_23_avx`, vec/intrinsic_intra-pred_avx2.cc:7498. -/
def xy23A_13 : Stmt :=
  .loop (.lt (.v 4) (.v 7)) xy23A_12

/-- `intra_pred_ang_xy_23_avx`, vec/intrinsic_intra-pred_avx2.cc:7531. -/
def xy23A_14 : Stmt :=
  .run [
    .I 4 (.n 0)  -- 7531
  ]

/-- `intra_pred_ang_xy_23_avx`, vec/intrinsic_intra-pred_avx2.cc:7532-7558. -/
def xy23A_15 : Stmt :=
  .run [
    .V 26 (.ld 32 (.pv (.n 2))),  -- 7532
    .st 32 (.pv (.n 1)) (.v 26),  -- 7533
    .V 26 (.ld 32 (.add (.pv (.n 2)) (.n 32))),  -- 7534
    .st 32 (.add (.pv (.n 1)) (.n 32)) (.v 26),  -- 7535
    .P (.n 1) (.add (.pv (.n 1)) (.v 0)),  -- 7536
    .P (.n 2) (.sub (.pv (.n 2)) (.n 8)),  -- 7537
    .V 26 (.ld 32 (.pv (.n 2))),  -- 7539
    .st 32 (.pv (.n 1)) (.v 26),  -- 7540
    .V 26 (.ld 32 (.add (.pv (.n 2)) (.n 32))),  -- 7541
    .st 32 (.add (.pv (.n 1)) (.n 32)) (.v 26),  -- 7542
    .P (.n 1) (.add (.pv (.n 1)) (.v 0)),  -- 7543
    .P (.n 2) (.sub (.pv (.n 2)) (.n 8)),  -- 7544
    .V 26 (.ld 32 (.pv (.n 2))),  -- 7546
    .st 32 (.pv (.n 1)) (.v 26),  -- 7547
    .V 26 (.ld 32 (.add (.pv (.n 2)) (.n 32))),  -- 7548
    .st 32 (.add (.pv (.n 1)) (.n 32)) (.v 26),  -- 7549
    .P (.n 1) (.add (.pv (.n 1)) (.v 0)),  -- 7550
    .P (.n 2) (.sub (.pv (.n 2)) (.n 8)),  -- 7551
    .V 26 (.ld 32 (.pv (.n 2))),  -- 7553
    .st 32 (.pv (.n 1)) (.v 26),  -- 7554
    .V 26 (.ld 32 (.add (.pv (.n 2)) (.n 32))),  -- 7555
    .st 32 (.add (.pv (.n 1)) (.n 32)) (.v 26),  -- 7556
    .P (.n 1) (.add (.pv (.n 1)) (.v 0)),  -- 7557
    .P (.n 2) (.sub (.pv (.n 2)) (.n 8))  -- 7558
  ]

/-- `intra_pred_ang_xy_23_avx`, vec/intrinsic_intra-pred_avx2.cc:7531. -/
def xy23A_16 : Stmt :=
  .run [
    .I 4 (.add (.v 4) (.n 4))  -- 7531
  ]

/-- `intra_pred_ang_xy_23_avx`, vec/intrinsic_intra-pred_avx2.cc:7531. -/
def xy23A_17 : Stmt :=
  .loop (.lt (.v 4) (.v 3)) (.seq xy23A_15 xy23A_16)

/-- `intra_pred_ang_xy_23_avx`, vec/intrinsic_intra-pred_avx2.cc:7561. -/
def xy23A_18 : Stmt :=
  .run [
    .I 4 (.n 0)  -- 7561
  ]

/-- `intra_pred_ang_xy_23_avx`, vec/intrinsic_intra-pred_avx2.cc:7561-7580. -/
def xy23A_19 : Stmt :=
  .run [
    .V 26 (.ld 32 (.pv (.n 2))),  -- 7562
    .st 32 (.pv (.n 1)) (.v 26),  -- 7563
    .P (.n 1) (.add (.pv (.n 1)) (.v 0)),  -- 7564
    .P (.n 2) (.sub (.pv (.n 2)) (.n 8)),  -- 7565
    .V 26 (.ld 32 (.pv (.n 2))),  -- 7567
    .st 32 (.pv (.n 1)) (.v 26),  -- 7568
    .P (.n 1) (.add (.pv (.n 1)) (.v 0)),  -- 7569
    .P (.n 2) (.sub (.pv (.n 2)) (.n 8)),  -- 7570
    .V 26 (.ld 32 (.pv (.n 2))),  -- 7572
    .st 32 (.pv (.n 1)) (.v 26),  -- 7573
    .P (.n 1) (.add (.pv (.n 1)) (.v 0)),  -- 7574
    .P (.n 2) (.sub (.pv (.n 2)) (.n 8)),  -- 7575
    .V 26 (.ld 32 (.pv (.n 2))),  -- 7577
    .st 32 (.pv (.n 1)) (.v 26),  -- 7578
    .P (.n 1) (.add (.pv (.n 1)) (.v 0)),  -- 7579
    .P (.n 2) (.sub (.pv (.n 2)) (.n 8)),  -- 7580
    .I 4 (.add (.v 4) (.n 4))  -- 7561
  ]

/-- `intra_pred_ang_xy_23_avx`, vec/intrinsic_intra-pred_avx2.cc:7561. -/
def xy23A_20 : Stmt :=
  .loop (.lt (.v 4) (.v 3)) xy23A_19

/-- `intra_pred_ang_xy_23_avx`, vec/intrinsic_intra-pred_avx2.cc:7583-7584. -/
def xy23A_21 : Stmt :=
  .run [
    .V 27 (.mask 16 (.n 15)),  -- 7583
    .I 4 (.n 0)  -- 7584
  ]

/-- `intra_pred_ang_xy_23_avx`, vec/intrinsic_intra-pred_avx2.cc:7584-7603. -/
def xy23A_22 : Stmt :=
  .run [
    .V 26 (.ld 32 (.pv (.n 2))),  -- 7585
    .mst 8 32 (.pv (.n 1)) (.v 27) (.v 26),  -- 7586
    .P (.n 1) (.add (.pv (.n 1)) (.v 0)),  -- 7587
    .P (.n 2) (.sub (.pv (.n 2)) (.n 8)),  -- 7588
    .V 26 (.ld 32 (.pv (.n 2))),  -- 7590
    .mst 8 32 (.pv (.n 1)) (.v 27) (.v 26),  -- 7591
    .P (.n 1) (.add (.pv (.n 1)) (.v 0)),  -- 7592
    .P (.n 2) (.sub (.pv (.n 2)) (.n 8)),  -- 7593
    .V 26 (.ld 32 (.pv (.n 2))),  -- 7595
    .mst 8 32 (.pv (.n 1)) (.v 27) (.v 26),  -- 7596
    .P (.n 1) (.add (.pv (.n 1)) (.v 0)),  -- 7597
    .P (.n 2) (.sub (.pv (.n 2)) (.n 8)),  -- 7598
    .V 26 (.ld 32 (.pv (.n 2))),  -- 7600
    .mst 8 32 (.pv (.n 1)) (.v 27) (.v 26),  -- 7601
    .P (.n 1) (.add (.pv (.n 1)) (.v 0)),  -- 7602
    .P (.n 2) (.sub (.pv (.n 2)) (.n 8)),  -- 7603
    .I 4 (.add (.v 4) (.n 4))  -- 7584
  ]

/-- `intra_pred_ang_xy_23_avx`, vec/intrinsic_intra-pred_avx2.cc:7584. -/
def xy23A_23 : Stmt :=
  .loop (.lt (.v 4) (.v 3)) xy23A_22

/-- `intra_pred_ang_xy_23_avx`, vec/intrinsic_intra-pred_avx2.cc:7582. -/
def xy23A_24 : Stmt :=
  .ite (.eq (.v 2) (.n 16)) (.seq xy23A_21 xy23A_23) (.run [])

/-- `intra_pred_ang_xy_23_avx`, vec/intrinsic_intra-pred_avx2.cc:7560. -/
def xy23A_25 : Stmt :=
  .ite (.eq (.v 2) (.n 32)) (.seq xy23A_18 xy23A_20) xy23A_24

/-- `intra_pred_ang_xy_23_avx`, vec/intrinsic_intra-pred_avx2.cc:7530. -/
def xy23A_26 : Stmt :=
  .ite (.eq (.v 2) (.n 64)) (.seq xy23A_14 xy23A_17) xy23A_25

/-- `intra_pred_ang_xy_23_avx`, vec/intrinsic_intra-pred_avx2.cc:7613. -/
def xy23A_27 : Stmt :=
  .call xy23S (.pv (.n 0)) (.pv (.n 1)) (.v 0) (.v 1) (.v 2) (.v 3)

/-- `intra_pred_ang_xy_23_avx`, vec/intrinsic_intra-pred_avx2.cc:7325. -/
def xy23A_28 : Stmt :=
  .ite (.lt (.n 8) (.v 2)) (.seq xy23A_1 (.seq xy23A_10 (.seq xy23A_11 (.seq xy23A_13 xy23A_26)))) xy23A_27

/-- `intra_pred_ang_xy_23_avx`, source/common/vec/intrinsic_intra-pred_avx2.cc:7320-7616.  Variables:
I: 0 i_dst, 1 dir_mode, 2 bsx, 3 bsy, 4 i, 5 left_size, 6 top_size, 7 line_size;
P: 0 src, 1 dst, 2 pfirst, 3 pfirst1, 4 src_org;
V: 0 coeff0, 1 coeff1, 2 coeff2, 3 coeff3, 4 coeff4, 5 coeff5, 6 p00, 7 p10, 8 p20, 9 p30, 10 p01, 11 p11, 12 p21, 13 p31, 14 res1, 15 res2, 16 L0, 17 L1, 18 L2, 19 L3, 20 H0, 21 H1, 22 H2, 23 S0, 24 S1, 25 S2, 26 M, 27 mask. -/
def xy23A : Stmt :=
  xy23A_28

end Davs2.Vp
