import Verif.Model.VecProg
/-
The vector routines of directional intra prediction, statement by statement in the language of Model/VecProg.lean;
the number after `--` is the line of source/common/vec/intrinsic_intra-pred.cc.
Routines: intra_pred_ang_xy_13_sse128, intra_pred_ang_xy_14_sse128, intra_pred_ang_xy_16_sse128, intra_pred_ang_xy_18_sse128, intra_pred_ang_xy_20_sse128, intra_pred_ang_xy_22_sse128, intra_pred_ang_xy_23_sse128.
-/
namespace Davs2.Vp

/-- `intra_pred_ang_xy_13_sse128`, vec/intrinsic_intra-pred.cc:5747-5758. -/
def xy13S_1 : Stmt :=
  .run [
    .V 0 .zero,  -- 5747
    .V 1 (.set1_16 (.n 2)),  -- 5748
    .V 2 (.set1_16 (.n 3)),  -- 5749
    .V 3 (.set1_16 (.n 4)),  -- 5750
    .V 4 (.set1_16 (.n 5)),  -- 5751
    .V 5 (.set1_16 (.n 7)),  -- 5752
    .V 6 (.set1_16 (.n 8)),  -- 5753
    .V 7 (.set1_16 (.n 9)),  -- 5754
    .V 8 (.set1_16 (.n 11)),  -- 5755
    .V 9 (.set1_16 (.n 13)),  -- 5756
    .V 10 (.set1_16 (.n 15)),  -- 5757
    .V 11 (.set1_16 (.n 16))  -- 5758
  ]

/-- `intra_pred_ang_xy_13_sse128`, vec/intrinsic_intra-pred.cc:5764-5780. -/
def xy13S_2 : Stmt :=
  .run [
    .alloc 0 640,  -- 5764
    .I 5 (.sub (.add (.v 2) (.shr (.v 3) 3)) (.n 1)),  -- 5765
    .I 6 (.sub (.v 5) (.v 2)),  -- 5766
    .I 7 (.shl (.shr (.add (.v 5) (.n 15)) 4) 4),  -- 5767
    .P (.n 2) (.pa 0),  -- 5770
    .P (.n 3) (.add (.pv (.n 2)) (.v 7)),  -- 5771
    .P (.n 4) (.add (.pv (.n 3)) (.v 7)),  -- 5772
    .P (.n 5) (.add (.pv (.n 4)) (.v 7)),  -- 5773
    .P (.n 6) (.add (.pv (.n 5)) (.v 7)),  -- 5774
    .P (.n 7) (.add (.pv (.n 6)) (.v 7)),  -- 5775
    .P (.n 8) (.add (.pv (.n 7)) (.v 7)),  -- 5776
    .P (.n 9) (.add (.pv (.n 8)) (.v 7)),  -- 5777
    .P (.n 0) (.sub (.pv (.n 0)) (.sub (.v 3) (.n 8))),  -- 5779
    .I 4 (.n 0)  -- 5780
  ]

/-- `intra_pred_ang_xy_13_sse128`, vec/intrinsic_intra-pred.cc:5780-5789. -/
def xy13S_3 : Stmt :=
  .run [
    .st1 (.add (.pv (.n 2)) (.v 4)) (.shr (.add (.add (.add (.ld (.add (.pv (.n 0)) (.n 6))) (.mul 2 (.ld (.add (.pv (.n 0)) (.n 7))))) (.ld (.add (.pv (.n 0)) (.n 8)))) (.n 2)) 2),  -- 5781
    .st1 (.add (.pv (.n 3)) (.v 4)) (.shr (.add (.add (.add (.ld (.add (.pv (.n 0)) (.n 5))) (.mul 2 (.ld (.add (.pv (.n 0)) (.n 6))))) (.ld (.add (.pv (.n 0)) (.n 7)))) (.n 2)) 2),  -- 5782
    .st1 (.add (.pv (.n 4)) (.v 4)) (.shr (.add (.add (.add (.ld (.add (.pv (.n 0)) (.n 4))) (.mul 2 (.ld (.add (.pv (.n 0)) (.n 5))))) (.ld (.add (.pv (.n 0)) (.n 6)))) (.n 2)) 2),  -- 5783
    .st1 (.add (.pv (.n 5)) (.v 4)) (.shr (.add (.add (.add (.ld (.add (.pv (.n 0)) (.n 3))) (.mul 2 (.ld (.add (.pv (.n 0)) (.n 4))))) (.ld (.add (.pv (.n 0)) (.n 5)))) (.n 2)) 2),  -- 5784
    .st1 (.add (.pv (.n 6)) (.v 4)) (.shr (.add (.add (.add (.ld (.add (.pv (.n 0)) (.n 2))) (.mul 2 (.ld (.add (.pv (.n 0)) (.n 3))))) (.ld (.add (.pv (.n 0)) (.n 4)))) (.n 2)) 2),  -- 5786
    .st1 (.add (.pv (.n 7)) (.v 4)) (.shr (.add (.add (.add (.ld (.add (.pv (.n 0)) (.n 1))) (.mul 2 (.ld (.add (.pv (.n 0)) (.n 2))))) (.ld (.add (.pv (.n 0)) (.n 3)))) (.n 2)) 2),  -- 5787
    .st1 (.add (.pv (.n 8)) (.v 4)) (.shr (.add (.add (.add (.ld (.add (.pv (.n 0)) (.n 0))) (.mul 2 (.ld (.add (.pv (.n 0)) (.n 1))))) (.ld (.add (.pv (.n 0)) (.n 2)))) (.n 2)) 2),  -- 5788
    .st1 (.add (.pv (.n 9)) (.v 4)) (.shr (.add (.add (.add (.ld (.add (.pv (.n 0)) (.n (-1)))) (.mul 2 (.ld (.add (.pv (.n 0)) (.n 0))))) (.ld (.add (.pv (.n 0)) (.n 1)))) (.n 2)) 2),  -- 5789
    .I 4 (.add (.v 4) (.n 1)),  -- 5780
    .P (.n 0) (.add (.pv (.n 0)) (.n 8))
  ]

/-- `intra_pred_ang_xy_13_sse128`, vec/intrinsic_intra-pred.cc:5780. -/
def xy13S_4 : Stmt :=
  .loop (.lt (.v 4) (.v 6)) xy13S_3

/-- `intra_pred_ang_xy_13_sse128`, vec/intrinsic_intra-pred.cc:5795-5822. -/
def xy13S_5 : Stmt :=
  .run [
    .V 20 (.ld 16 (.add (.pv (.n 0)) (.n 2))),  -- 5795
    .V 21 (.ld 16 (.add (.pv (.n 0)) (.n 1))),  -- 5796
    .V 22 (.ld 16 (.pv (.n 0))),  -- 5797
    .V 23 (.ld 16 (.sub (.pv (.n 0)) (.n 1))),  -- 5798
    .V 24 (.o2 .unpacklo8 (.v 20) (.v 0)),  -- 5800
    .V 25 (.o2 .unpacklo8 (.v 21) (.v 0)),  -- 5801
    .V 26 (.o2 .unpacklo8 (.v 22) (.v 0)),  -- 5802
    .V 27 (.o2 .unpacklo8 (.v 23) (.v 0)),  -- 5803
    .V 28 (.o2 .unpackhi8 (.v 20) (.v 0)),  -- 5805
    .V 29 (.o2 .unpackhi8 (.v 21) (.v 0)),  -- 5806
    .V 30 (.o2 .unpackhi8 (.v 22) (.v 0)),  -- 5807
    .V 31 (.o2 .unpackhi8 (.v 23) (.v 0)),  -- 5808
    .V 12 (.o2 .mullo16 (.v 24) (.v 5)),  -- 5810
    .V 13 (.o2 .mullo16 (.v 25) (.v 10)),  -- 5811
    .V 14 (.o2 .mullo16 (.v 26) (.v 7)),  -- 5812
    .V 15 (.o2 .add16 (.v 27) (.v 11)),  -- 5813
    .V 12 (.o2 .add16 (.v 12) (.v 13)),  -- 5814
    .V 12 (.o2 .add16 (.v 12) (.v 14)),  -- 5815
    .V 12 (.o2 .add16 (.v 12) (.v 15)),  -- 5816
    .V 12 (.o1 (.srli16 5) (.v 12)),  -- 5817
    .V 16 (.o2 .mullo16 (.v 28) (.v 5)),  -- 5819
    .V 17 (.o2 .mullo16 (.v 29) (.v 10)),  -- 5820
    .V 18 (.o2 .mullo16 (.v 30) (.v 7)),  -- 5821
    .V 19 (.o2 .add16 (.v 31) (.v 11))  -- 5822
  ]

/-- `intra_pred_ang_xy_13_sse128`, vec/intrinsic_intra-pred.cc:5823-5850. -/
def xy13S_6 : Stmt :=
  .run [
    .V 16 (.o2 .add16 (.v 16) (.v 17)),  -- 5823
    .V 16 (.o2 .add16 (.v 16) (.v 18)),  -- 5824
    .V 16 (.o2 .add16 (.v 16) (.v 19)),  -- 5825
    .V 16 (.o1 (.srli16 5) (.v 16)),  -- 5826
    .V 12 (.o2 .packus16 (.v 12) (.v 16)),  -- 5828
    .st 16 (.add (.pv (.n 2)) (.v 4)) (.v 12),  -- 5829
    .V 12 (.o2 .mullo16 (.v 24) (.v 2)),  -- 5831
    .V 13 (.o2 .mullo16 (.v 25) (.v 5)),  -- 5832
    .V 14 (.o2 .mullo16 (.v 26) (.v 4)),  -- 5833
    .V 15 (.o2 .add16 (.v 27) (.v 6)),  -- 5834
    .V 12 (.o2 .add16 (.v 12) (.v 13)),  -- 5835
    .V 12 (.o2 .add16 (.v 12) (.v 14)),  -- 5836
    .V 12 (.o2 .add16 (.v 12) (.v 15)),  -- 5837
    .V 12 (.o1 (.srli16 4) (.v 12)),  -- 5838
    .V 16 (.o2 .mullo16 (.v 28) (.v 2)),  -- 5840
    .V 17 (.o2 .mullo16 (.v 29) (.v 5)),  -- 5841
    .V 18 (.o2 .mullo16 (.v 30) (.v 4)),  -- 5842
    .V 19 (.o2 .add16 (.v 31) (.v 6)),  -- 5843
    .V 16 (.o2 .add16 (.v 16) (.v 17)),  -- 5844
    .V 16 (.o2 .add16 (.v 16) (.v 18)),  -- 5845
    .V 16 (.o2 .add16 (.v 16) (.v 19)),  -- 5846
    .V 16 (.o1 (.srli16 4) (.v 16)),  -- 5847
    .V 12 (.o2 .packus16 (.v 12) (.v 16)),  -- 5849
    .st 16 (.add (.pv (.n 3)) (.v 4)) (.v 12)  -- 5850
  ]

/-- `intra_pred_ang_xy_13_sse128`, vec/intrinsic_intra-pred.cc:5852-5878. -/
def xy13S_7 : Stmt :=
  .run [
    .V 12 (.o2 .mullo16 (.v 24) (.v 4)),  -- 5852
    .V 13 (.o2 .mullo16 (.v 25) (.v 9)),  -- 5853
    .V 14 (.o2 .mullo16 (.v 26) (.v 8)),  -- 5854
    .V 15 (.o2 .mullo16 (.v 27) (.v 2)),  -- 5855
    .V 12 (.o2 .add16 (.v 12) (.v 11)),  -- 5856
    .V 12 (.o2 .add16 (.v 12) (.v 13)),  -- 5857
    .V 12 (.o2 .add16 (.v 12) (.v 14)),  -- 5858
    .V 12 (.o2 .add16 (.v 12) (.v 15)),  -- 5859
    .V 12 (.o1 (.srli16 5) (.v 12)),  -- 5860
    .V 16 (.o2 .mullo16 (.v 28) (.v 4)),  -- 5862
    .V 17 (.o2 .mullo16 (.v 29) (.v 9)),  -- 5863
    .V 18 (.o2 .mullo16 (.v 30) (.v 8)),  -- 5864
    .V 19 (.o2 .mullo16 (.v 31) (.v 2)),  -- 5865
    .V 16 (.o2 .add16 (.v 16) (.v 11)),  -- 5866
    .V 16 (.o2 .add16 (.v 16) (.v 17)),  -- 5867
    .V 16 (.o2 .add16 (.v 16) (.v 18)),  -- 5868
    .V 16 (.o2 .add16 (.v 16) (.v 19)),  -- 5869
    .V 16 (.o1 (.srli16 5) (.v 16)),  -- 5870
    .V 12 (.o2 .packus16 (.v 12) (.v 16)),  -- 5872
    .st 16 (.add (.pv (.n 4)) (.v 4)) (.v 12),  -- 5873
    .V 12 (.o2 .add16 (.v 24) (.v 27)),  -- 5875
    .V 13 (.o2 .add16 (.v 25) (.v 26)),  -- 5876
    .V 13 (.o2 .mullo16 (.v 13) (.v 2)),  -- 5877
    .V 12 (.o2 .add16 (.v 12) (.v 13))  -- 5878
  ]

/-- `intra_pred_ang_xy_13_sse128`, vec/intrinsic_intra-pred.cc:5879-5906. -/
def xy13S_8 : Stmt :=
  .run [
    .V 12 (.o2 .add16 (.v 12) (.v 3)),  -- 5879
    .V 12 (.o1 (.srli16 3) (.v 12)),  -- 5880
    .V 16 (.o2 .add16 (.v 28) (.v 31)),  -- 5882
    .V 17 (.o2 .add16 (.v 29) (.v 30)),  -- 5883
    .V 17 (.o2 .mullo16 (.v 17) (.v 2)),  -- 5884
    .V 16 (.o2 .add16 (.v 16) (.v 17)),  -- 5885
    .V 16 (.o2 .add16 (.v 16) (.v 3)),  -- 5886
    .V 16 (.o1 (.srli16 3) (.v 16)),  -- 5887
    .V 12 (.o2 .packus16 (.v 12) (.v 16)),  -- 5889
    .st 16 (.add (.pv (.n 5)) (.v 4)) (.v 12),  -- 5890
    .V 12 (.o2 .mullo16 (.v 24) (.v 2)),  -- 5892
    .V 13 (.o2 .mullo16 (.v 25) (.v 8)),  -- 5893
    .V 14 (.o2 .mullo16 (.v 26) (.v 9)),  -- 5894
    .V 15 (.o2 .mullo16 (.v 27) (.v 4)),  -- 5895
    .V 12 (.o2 .add16 (.v 12) (.v 11)),  -- 5896
    .V 12 (.o2 .add16 (.v 12) (.v 13)),  -- 5897
    .V 12 (.o2 .add16 (.v 12) (.v 14)),  -- 5898
    .V 12 (.o2 .add16 (.v 12) (.v 15)),  -- 5899
    .V 12 (.o1 (.srli16 5) (.v 12)),  -- 5900
    .V 16 (.o2 .mullo16 (.v 28) (.v 2)),  -- 5902
    .V 17 (.o2 .mullo16 (.v 29) (.v 8)),  -- 5903
    .V 18 (.o2 .mullo16 (.v 30) (.v 9)),  -- 5904
    .V 19 (.o2 .mullo16 (.v 31) (.v 4)),  -- 5905
    .V 16 (.o2 .add16 (.v 16) (.v 11))  -- 5906
  ]

/-- `intra_pred_ang_xy_13_sse128`, vec/intrinsic_intra-pred.cc:5907-5934. -/
def xy13S_9 : Stmt :=
  .run [
    .V 16 (.o2 .add16 (.v 16) (.v 17)),  -- 5907
    .V 16 (.o2 .add16 (.v 16) (.v 18)),  -- 5908
    .V 16 (.o2 .add16 (.v 16) (.v 19)),  -- 5909
    .V 16 (.o1 (.srli16 5) (.v 16)),  -- 5910
    .V 12 (.o2 .packus16 (.v 12) (.v 16)),  -- 5912
    .st 16 (.add (.pv (.n 6)) (.v 4)) (.v 12),  -- 5913
    .V 13 (.o2 .mullo16 (.v 25) (.v 4)),  -- 5915
    .V 14 (.o2 .mullo16 (.v 26) (.v 5)),  -- 5916
    .V 15 (.o2 .mullo16 (.v 27) (.v 2)),  -- 5917
    .V 12 (.o2 .add16 (.v 24) (.v 6)),  -- 5918
    .V 12 (.o2 .add16 (.v 12) (.v 13)),  -- 5919
    .V 12 (.o2 .add16 (.v 12) (.v 14)),  -- 5920
    .V 12 (.o2 .add16 (.v 12) (.v 15)),  -- 5921
    .V 12 (.o1 (.srli16 4) (.v 12)),  -- 5922
    .V 17 (.o2 .mullo16 (.v 29) (.v 4)),  -- 5924
    .V 18 (.o2 .mullo16 (.v 30) (.v 5)),  -- 5925
    .V 19 (.o2 .mullo16 (.v 31) (.v 2)),  -- 5926
    .V 16 (.o2 .add16 (.v 28) (.v 6)),  -- 5927
    .V 16 (.o2 .add16 (.v 16) (.v 17)),  -- 5928
    .V 16 (.o2 .add16 (.v 16) (.v 18)),  -- 5929
    .V 16 (.o2 .add16 (.v 16) (.v 19)),  -- 5930
    .V 16 (.o1 (.srli16 4) (.v 16)),  -- 5931
    .V 12 (.o2 .packus16 (.v 12) (.v 16)),  -- 5933
    .st 16 (.add (.pv (.n 7)) (.v 4)) (.v 12)  -- 5934
  ]

/-- `intra_pred_ang_xy_13_sse128`, vec/intrinsic_intra-pred.cc:5936-5964. -/
def xy13S_10 : Stmt :=
  .run [
    .V 13 (.o2 .mullo16 (.v 25) (.v 7)),  -- 5936
    .V 14 (.o2 .mullo16 (.v 26) (.v 10)),  -- 5937
    .V 15 (.o2 .mullo16 (.v 27) (.v 5)),  -- 5938
    .V 12 (.o2 .add16 (.v 24) (.v 11)),  -- 5939
    .V 12 (.o2 .add16 (.v 12) (.v 13)),  -- 5940
    .V 12 (.o2 .add16 (.v 12) (.v 14)),  -- 5941
    .V 12 (.o2 .add16 (.v 12) (.v 15)),  -- 5942
    .V 12 (.o1 (.srli16 5) (.v 12)),  -- 5943
    .V 17 (.o2 .mullo16 (.v 29) (.v 7)),  -- 5945
    .V 18 (.o2 .mullo16 (.v 30) (.v 10)),  -- 5946
    .V 19 (.o2 .mullo16 (.v 31) (.v 5)),  -- 5947
    .V 16 (.o2 .add16 (.v 28) (.v 11)),  -- 5948
    .V 16 (.o2 .add16 (.v 16) (.v 17)),  -- 5949
    .V 16 (.o2 .add16 (.v 16) (.v 18)),  -- 5950
    .V 16 (.o2 .add16 (.v 16) (.v 19)),  -- 5951
    .V 16 (.o1 (.srli16 5) (.v 16)),  -- 5952
    .V 12 (.o2 .packus16 (.v 12) (.v 16)),  -- 5954
    .st 16 (.add (.pv (.n 8)) (.v 4)) (.v 12),  -- 5955
    .V 13 (.o2 .mullo16 (.v 26) (.v 1)),  -- 5958
    .V 12 (.o2 .add16 (.v 25) (.v 27)),  -- 5959
    .V 12 (.o2 .add16 (.v 12) (.v 1)),  -- 5960
    .V 12 (.o2 .add16 (.v 12) (.v 13)),  -- 5961
    .V 12 (.o1 (.srli16 2) (.v 12)),  -- 5962
    .V 17 (.o2 .mullo16 (.v 30) (.v 1))  -- 5964
  ]

/-- `intra_pred_ang_xy_13_sse128`, vec/intrinsic_intra-pred.cc:5792-5971. -/
def xy13S_11 : Stmt :=
  .run [
    .V 16 (.o2 .add16 (.v 29) (.v 31)),  -- 5965
    .V 16 (.o2 .add16 (.v 16) (.v 1)),  -- 5966
    .V 16 (.o2 .add16 (.v 16) (.v 17)),  -- 5967
    .V 16 (.o1 (.srli16 2) (.v 16)),  -- 5968
    .V 12 (.o2 .packus16 (.v 12) (.v 16)),  -- 5970
    .st 16 (.add (.pv (.n 9)) (.v 4)) (.v 12),  -- 5971
    .I 4 (.add (.v 4) (.n 16)),  -- 5792
    .P (.n 0) (.add (.pv (.n 0)) (.n 16))
  ]

/-- `intra_pred_ang_xy_13_sse128`, vec/intrinsic_intra-pred.cc:5792. -/
def xy13S_12 : Stmt :=
  .loop (.lt (.v 4) (.sub (.v 5) (.n 8))) (.seq xy13S_5 (.seq xy13S_6 (.seq xy13S_7 (.seq xy13S_8 (.seq xy13S_9 (.seq xy13S_10 xy13S_11))))))

/-- `intra_pred_ang_xy_13_sse128`, vec/intrinsic_intra-pred.cc:5976-6003. -/
def xy13S_13 : Stmt :=
  .run [
    .V 16 (.ld 16 (.add (.pv (.n 0)) (.n 2))),  -- 5976
    .V 17 (.ld 16 (.add (.pv (.n 0)) (.n 1))),  -- 5977
    .V 18 (.ld 16 (.pv (.n 0))),  -- 5978
    .V 19 (.ld 16 (.sub (.pv (.n 0)) (.n 1))),  -- 5979
    .V 20 (.o2 .unpacklo8 (.v 16) (.v 0)),  -- 5981
    .V 21 (.o2 .unpacklo8 (.v 17) (.v 0)),  -- 5982
    .V 22 (.o2 .unpacklo8 (.v 18) (.v 0)),  -- 5983
    .V 23 (.o2 .unpacklo8 (.v 19) (.v 0)),  -- 5984
    .V 12 (.o2 .mullo16 (.v 20) (.v 5)),  -- 5986
    .V 13 (.o2 .mullo16 (.v 21) (.v 10)),  -- 5987
    .V 14 (.o2 .mullo16 (.v 22) (.v 7)),  -- 5988
    .V 15 (.o2 .add16 (.v 23) (.v 11)),  -- 5989
    .V 12 (.o2 .add16 (.v 12) (.v 13)),  -- 5990
    .V 12 (.o2 .add16 (.v 12) (.v 14)),  -- 5991
    .V 12 (.o2 .add16 (.v 12) (.v 15)),  -- 5992
    .V 12 (.o1 (.srli16 5) (.v 12)),  -- 5993
    .V 12 (.o2 .packus16 (.v 12) (.v 12)),  -- 5995
    .st 8 (.add (.pv (.n 2)) (.v 4)) (.v 12),  -- 5996
    .V 12 (.o2 .mullo16 (.v 20) (.v 2)),  -- 5998
    .V 13 (.o2 .mullo16 (.v 21) (.v 5)),  -- 5999
    .V 14 (.o2 .mullo16 (.v 22) (.v 4)),  -- 6000
    .V 15 (.o2 .add16 (.v 23) (.v 6)),  -- 6001
    .V 12 (.o2 .add16 (.v 12) (.v 13)),  -- 6002
    .V 12 (.o2 .add16 (.v 12) (.v 14))  -- 6003
  ]

/-- `intra_pred_ang_xy_13_sse128`, vec/intrinsic_intra-pred.cc:6004-6033. -/
def xy13S_14 : Stmt :=
  .run [
    .V 12 (.o2 .add16 (.v 12) (.v 15)),  -- 6004
    .V 12 (.o1 (.srli16 4) (.v 12)),  -- 6005
    .V 12 (.o2 .packus16 (.v 12) (.v 12)),  -- 6007
    .st 8 (.add (.pv (.n 3)) (.v 4)) (.v 12),  -- 6008
    .V 12 (.o2 .mullo16 (.v 20) (.v 4)),  -- 6010
    .V 13 (.o2 .mullo16 (.v 21) (.v 9)),  -- 6011
    .V 14 (.o2 .mullo16 (.v 22) (.v 8)),  -- 6012
    .V 15 (.o2 .mullo16 (.v 23) (.v 2)),  -- 6013
    .V 12 (.o2 .add16 (.v 12) (.v 11)),  -- 6014
    .V 12 (.o2 .add16 (.v 12) (.v 13)),  -- 6015
    .V 12 (.o2 .add16 (.v 12) (.v 14)),  -- 6016
    .V 12 (.o2 .add16 (.v 12) (.v 15)),  -- 6017
    .V 12 (.o1 (.srli16 5) (.v 12)),  -- 6018
    .V 12 (.o2 .packus16 (.v 12) (.v 12)),  -- 6020
    .st 8 (.add (.pv (.n 4)) (.v 4)) (.v 12),  -- 6021
    .V 12 (.o2 .add16 (.v 20) (.v 23)),  -- 6023
    .V 13 (.o2 .add16 (.v 21) (.v 22)),  -- 6024
    .V 13 (.o2 .mullo16 (.v 13) (.v 2)),  -- 6025
    .V 12 (.o2 .add16 (.v 12) (.v 13)),  -- 6026
    .V 12 (.o2 .add16 (.v 12) (.v 3)),  -- 6027
    .V 12 (.o1 (.srli16 3) (.v 12)),  -- 6028
    .V 12 (.o2 .packus16 (.v 12) (.v 12)),  -- 6030
    .st 8 (.add (.pv (.n 5)) (.v 4)) (.v 12),  -- 6031
    .V 12 (.o2 .mullo16 (.v 20) (.v 2))  -- 6033
  ]

/-- `intra_pred_ang_xy_13_sse128`, vec/intrinsic_intra-pred.cc:6034-6061. -/
def xy13S_15 : Stmt :=
  .run [
    .V 13 (.o2 .mullo16 (.v 21) (.v 8)),  -- 6034
    .V 14 (.o2 .mullo16 (.v 22) (.v 9)),  -- 6035
    .V 15 (.o2 .mullo16 (.v 23) (.v 4)),  -- 6036
    .V 12 (.o2 .add16 (.v 12) (.v 11)),  -- 6037
    .V 12 (.o2 .add16 (.v 12) (.v 13)),  -- 6038
    .V 12 (.o2 .add16 (.v 12) (.v 14)),  -- 6039
    .V 12 (.o2 .add16 (.v 12) (.v 15)),  -- 6040
    .V 12 (.o1 (.srli16 5) (.v 12)),  -- 6041
    .V 12 (.o2 .packus16 (.v 12) (.v 12)),  -- 6043
    .st 8 (.add (.pv (.n 6)) (.v 4)) (.v 12),  -- 6044
    .V 13 (.o2 .mullo16 (.v 21) (.v 4)),  -- 6046
    .V 14 (.o2 .mullo16 (.v 22) (.v 5)),  -- 6047
    .V 15 (.o2 .mullo16 (.v 23) (.v 2)),  -- 6048
    .V 12 (.o2 .add16 (.v 20) (.v 6)),  -- 6049
    .V 12 (.o2 .add16 (.v 12) (.v 13)),  -- 6050
    .V 12 (.o2 .add16 (.v 12) (.v 14)),  -- 6051
    .V 12 (.o2 .add16 (.v 12) (.v 15)),  -- 6052
    .V 12 (.o1 (.srli16 4) (.v 12)),  -- 6053
    .V 12 (.o2 .packus16 (.v 12) (.v 12)),  -- 6055
    .st 8 (.add (.pv (.n 7)) (.v 4)) (.v 12),  -- 6056
    .V 13 (.o2 .mullo16 (.v 21) (.v 7)),  -- 6058
    .V 14 (.o2 .mullo16 (.v 22) (.v 10)),  -- 6059
    .V 15 (.o2 .mullo16 (.v 23) (.v 5)),  -- 6060
    .V 12 (.o2 .add16 (.v 20) (.v 11))  -- 6061
  ]

/-- `intra_pred_ang_xy_13_sse128`, vec/intrinsic_intra-pred.cc:6062-6077. -/
def xy13S_16 : Stmt :=
  .run [
    .V 12 (.o2 .add16 (.v 12) (.v 13)),  -- 6062
    .V 12 (.o2 .add16 (.v 12) (.v 14)),  -- 6063
    .V 12 (.o2 .add16 (.v 12) (.v 15)),  -- 6064
    .V 12 (.o1 (.srli16 5) (.v 12)),  -- 6065
    .V 12 (.o2 .packus16 (.v 12) (.v 12)),  -- 6067
    .st 8 (.add (.pv (.n 8)) (.v 4)) (.v 12),  -- 6068
    .V 13 (.o2 .mullo16 (.v 22) (.v 1)),  -- 6070
    .V 12 (.o2 .add16 (.v 21) (.v 23)),  -- 6071
    .V 12 (.o2 .add16 (.v 12) (.v 1)),  -- 6072
    .V 12 (.o2 .add16 (.v 12) (.v 13)),  -- 6073
    .V 12 (.o1 (.srli16 2) (.v 12)),  -- 6074
    .V 12 (.o2 .packus16 (.v 12) (.v 12)),  -- 6076
    .st 8 (.add (.pv (.n 9)) (.v 4)) (.v 12)  -- 6077
  ]

/-- `intra_pred_ang_xy_13_sse128`, vec/intrinsic_intra-pred.cc:5974. -/
def xy13S_17 : Stmt :=
  .ite (.lt (.v 4) (.v 5)) (.seq xy13S_13 (.seq xy13S_14 (.seq xy13S_15 xy13S_16))) (.run [])

/-- `intra_pred_ang_xy_13_sse128`, vec/intrinsic_intra-pred.cc:6080-6090. -/
def xy13S_18 : Stmt :=
  .run [
    .P (.n 2) (.add (.pv (.n 2)) (.v 6)),  -- 6080
    .P (.n 3) (.add (.pv (.n 3)) (.v 6)),  -- 6081
    .P (.n 4) (.add (.pv (.n 4)) (.v 6)),  -- 6082
    .P (.n 5) (.add (.pv (.n 5)) (.v 6)),  -- 6083
    .P (.n 6) (.add (.pv (.n 6)) (.v 6)),  -- 6084
    .P (.n 7) (.add (.pv (.n 7)) (.v 6)),  -- 6085
    .P (.n 8) (.add (.pv (.n 8)) (.v 6)),  -- 6086
    .P (.n 9) (.add (.pv (.n 9)) (.v 6)),  -- 6087
    .I 3 (.shr (.v 3) 3),  -- 6089
    .I 4 (.n 0)  -- 6090
  ]

/-- `intra_pred_ang_xy_13_sse128`, vec/intrinsic_intra-pred.cc:6090-6106. -/
def xy13S_19 : Stmt :=
  .run [
    .cpy (.pv (.n 1)) (.sub (.pv (.n 2)) (.v 4)) (.mul (.v 2) (.n 1)),  -- 6091
    .P (.n 1) (.add (.pv (.n 1)) (.v 0)),  -- 6092
    .cpy (.pv (.n 1)) (.sub (.pv (.n 3)) (.v 4)) (.mul (.v 2) (.n 1)),  -- 6093
    .P (.n 1) (.add (.pv (.n 1)) (.v 0)),  -- 6094
    .cpy (.pv (.n 1)) (.sub (.pv (.n 4)) (.v 4)) (.mul (.v 2) (.n 1)),  -- 6095
    .P (.n 1) (.add (.pv (.n 1)) (.v 0)),  -- 6096
    .cpy (.pv (.n 1)) (.sub (.pv (.n 5)) (.v 4)) (.mul (.v 2) (.n 1)),  -- 6097
    .P (.n 1) (.add (.pv (.n 1)) (.v 0)),  -- 6098
    .cpy (.pv (.n 1)) (.sub (.pv (.n 6)) (.v 4)) (.mul (.v 2) (.n 1)),  -- 6099
    .P (.n 1) (.add (.pv (.n 1)) (.v 0)),  -- 6100
    .cpy (.pv (.n 1)) (.sub (.pv (.n 7)) (.v 4)) (.mul (.v 2) (.n 1)),  -- 6101
    .P (.n 1) (.add (.pv (.n 1)) (.v 0)),  -- 6102
    .cpy (.pv (.n 1)) (.sub (.pv (.n 8)) (.v 4)) (.mul (.v 2) (.n 1)),  -- 6103
    .P (.n 1) (.add (.pv (.n 1)) (.v 0)),  -- 6104
    .cpy (.pv (.n 1)) (.sub (.pv (.n 9)) (.v 4)) (.mul (.v 2) (.n 1)),  -- 6105
    .P (.n 1) (.add (.pv (.n 1)) (.v 0)),  -- 6106
    .I 4 (.add (.v 4) (.n 1))  -- 6090
  ]

/-- `intra_pred_ang_xy_13_sse128`, vec/intrinsic_intra-pred.cc:6090. -/
def xy13S_20 : Stmt :=
  .loop (.lt (.v 4) (.v 3)) xy13S_19

/-- `intra_pred_ang_xy_13_sse128`, vec/intrinsic_intra-pred.cc:6109-6116. -/
def xy13S_21 : Stmt :=
  .run [
    .P (.n 2) (.pv (.n 1)),  -- 6109
    .P (.n 3) (.add (.pv (.n 2)) (.v 0)),  -- 6110
    .P (.n 4) (.add (.pv (.n 3)) (.v 0)),  -- 6111
    .P (.n 5) (.add (.pv (.n 4)) (.v 0)),  -- 6112
    .P (.n 6) (.add (.pv (.n 5)) (.v 0)),  -- 6113
    .P (.n 7) (.add (.pv (.n 6)) (.v 0)),  -- 6114
    .P (.n 8) (.add (.pv (.n 7)) (.v 0)),  -- 6115
    .P (.n 9) (.add (.pv (.n 8)) (.v 0))  -- 6116
  ]

/-- `intra_pred_ang_xy_13_sse128`, vec/intrinsic_intra-pred.cc:6120-6147. -/
def xy13S_22 : Stmt :=
  .run [
    .V 20 (.ld 16 (.add (.pv (.n 0)) (.n 2))),  -- 6120
    .V 21 (.ld 16 (.add (.pv (.n 0)) (.n 1))),  -- 6121
    .V 22 (.ld 16 (.pv (.n 0))),  -- 6122
    .V 23 (.ld 16 (.sub (.pv (.n 0)) (.n 1))),  -- 6123
    .V 24 (.o2 .unpacklo8 (.v 20) (.v 0)),  -- 6125
    .V 25 (.o2 .unpacklo8 (.v 21) (.v 0)),  -- 6126
    .V 26 (.o2 .unpacklo8 (.v 22) (.v 0)),  -- 6127
    .V 27 (.o2 .unpacklo8 (.v 23) (.v 0)),  -- 6128
    .V 28 (.o2 .unpackhi8 (.v 20) (.v 0)),  -- 6130
    .V 29 (.o2 .unpackhi8 (.v 21) (.v 0)),  -- 6131
    .V 30 (.o2 .unpackhi8 (.v 22) (.v 0)),  -- 6132
    .V 31 (.o2 .unpackhi8 (.v 23) (.v 0)),  -- 6133
    .V 12 (.o2 .mullo16 (.v 24) (.v 5)),  -- 6135
    .V 13 (.o2 .mullo16 (.v 25) (.v 10)),  -- 6136
    .V 14 (.o2 .mullo16 (.v 26) (.v 7)),  -- 6137
    .V 15 (.o2 .add16 (.v 27) (.v 11)),  -- 6138
    .V 12 (.o2 .add16 (.v 12) (.v 13)),  -- 6139
    .V 12 (.o2 .add16 (.v 12) (.v 14)),  -- 6140
    .V 12 (.o2 .add16 (.v 12) (.v 15)),  -- 6141
    .V 12 (.o1 (.srli16 5) (.v 12)),  -- 6142
    .V 16 (.o2 .mullo16 (.v 28) (.v 5)),  -- 6144
    .V 17 (.o2 .mullo16 (.v 29) (.v 10)),  -- 6145
    .V 18 (.o2 .mullo16 (.v 30) (.v 7)),  -- 6146
    .V 19 (.o2 .add16 (.v 31) (.v 11))  -- 6147
  ]

/-- `intra_pred_ang_xy_13_sse128`, vec/intrinsic_intra-pred.cc:6148-6175. -/
def xy13S_23 : Stmt :=
  .run [
    .V 16 (.o2 .add16 (.v 16) (.v 17)),  -- 6148
    .V 16 (.o2 .add16 (.v 16) (.v 18)),  -- 6149
    .V 16 (.o2 .add16 (.v 16) (.v 19)),  -- 6150
    .V 16 (.o1 (.srli16 5) (.v 16)),  -- 6151
    .V 12 (.o2 .packus16 (.v 12) (.v 16)),  -- 6153
    .st 16 (.pv (.n 2)) (.v 12),  -- 6154
    .V 12 (.o2 .mullo16 (.v 24) (.v 2)),  -- 6156
    .V 13 (.o2 .mullo16 (.v 25) (.v 5)),  -- 6157
    .V 14 (.o2 .mullo16 (.v 26) (.v 4)),  -- 6158
    .V 15 (.o2 .add16 (.v 27) (.v 6)),  -- 6159
    .V 12 (.o2 .add16 (.v 12) (.v 13)),  -- 6160
    .V 12 (.o2 .add16 (.v 12) (.v 14)),  -- 6161
    .V 12 (.o2 .add16 (.v 12) (.v 15)),  -- 6162
    .V 12 (.o1 (.srli16 4) (.v 12)),  -- 6163
    .V 16 (.o2 .mullo16 (.v 28) (.v 2)),  -- 6165
    .V 17 (.o2 .mullo16 (.v 29) (.v 5)),  -- 6166
    .V 18 (.o2 .mullo16 (.v 30) (.v 4)),  -- 6167
    .V 19 (.o2 .add16 (.v 31) (.v 6)),  -- 6168
    .V 16 (.o2 .add16 (.v 16) (.v 17)),  -- 6169
    .V 16 (.o2 .add16 (.v 16) (.v 18)),  -- 6170
    .V 16 (.o2 .add16 (.v 16) (.v 19)),  -- 6171
    .V 16 (.o1 (.srli16 4) (.v 16)),  -- 6172
    .V 12 (.o2 .packus16 (.v 12) (.v 16)),  -- 6174
    .st 16 (.pv (.n 3)) (.v 12)  -- 6175
  ]

/-- `intra_pred_ang_xy_13_sse128`, vec/intrinsic_intra-pred.cc:6177-6203. -/
def xy13S_24 : Stmt :=
  .run [
    .V 12 (.o2 .mullo16 (.v 24) (.v 4)),  -- 6177
    .V 13 (.o2 .mullo16 (.v 25) (.v 9)),  -- 6178
    .V 14 (.o2 .mullo16 (.v 26) (.v 8)),  -- 6179
    .V 15 (.o2 .mullo16 (.v 27) (.v 2)),  -- 6180
    .V 12 (.o2 .add16 (.v 12) (.v 11)),  -- 6181
    .V 12 (.o2 .add16 (.v 12) (.v 13)),  -- 6182
    .V 12 (.o2 .add16 (.v 12) (.v 14)),  -- 6183
    .V 12 (.o2 .add16 (.v 12) (.v 15)),  -- 6184
    .V 12 (.o1 (.srli16 5) (.v 12)),  -- 6185
    .V 16 (.o2 .mullo16 (.v 28) (.v 4)),  -- 6187
    .V 17 (.o2 .mullo16 (.v 29) (.v 9)),  -- 6188
    .V 18 (.o2 .mullo16 (.v 30) (.v 8)),  -- 6189
    .V 19 (.o2 .mullo16 (.v 31) (.v 2)),  -- 6190
    .V 16 (.o2 .add16 (.v 16) (.v 11)),  -- 6191
    .V 16 (.o2 .add16 (.v 16) (.v 17)),  -- 6192
    .V 16 (.o2 .add16 (.v 16) (.v 18)),  -- 6193
    .V 16 (.o2 .add16 (.v 16) (.v 19)),  -- 6194
    .V 16 (.o1 (.srli16 5) (.v 16)),  -- 6195
    .V 12 (.o2 .packus16 (.v 12) (.v 16)),  -- 6197
    .st 16 (.pv (.n 4)) (.v 12),  -- 6198
    .V 12 (.o2 .add16 (.v 24) (.v 27)),  -- 6200
    .V 13 (.o2 .add16 (.v 25) (.v 26)),  -- 6201
    .V 13 (.o2 .mullo16 (.v 13) (.v 2)),  -- 6202
    .V 12 (.o2 .add16 (.v 12) (.v 13))  -- 6203
  ]

/-- `intra_pred_ang_xy_13_sse128`, vec/intrinsic_intra-pred.cc:6204-6231. -/
def xy13S_25 : Stmt :=
  .run [
    .V 12 (.o2 .add16 (.v 12) (.v 3)),  -- 6204
    .V 12 (.o1 (.srli16 3) (.v 12)),  -- 6205
    .V 16 (.o2 .add16 (.v 28) (.v 31)),  -- 6207
    .V 17 (.o2 .add16 (.v 29) (.v 30)),  -- 6208
    .V 17 (.o2 .mullo16 (.v 17) (.v 2)),  -- 6209
    .V 16 (.o2 .add16 (.v 16) (.v 17)),  -- 6210
    .V 16 (.o2 .add16 (.v 16) (.v 3)),  -- 6211
    .V 16 (.o1 (.srli16 3) (.v 16)),  -- 6212
    .V 12 (.o2 .packus16 (.v 12) (.v 16)),  -- 6214
    .st 16 (.pv (.n 5)) (.v 12),  -- 6215
    .V 12 (.o2 .mullo16 (.v 24) (.v 2)),  -- 6217
    .V 13 (.o2 .mullo16 (.v 25) (.v 8)),  -- 6218
    .V 14 (.o2 .mullo16 (.v 26) (.v 9)),  -- 6219
    .V 15 (.o2 .mullo16 (.v 27) (.v 4)),  -- 6220
    .V 12 (.o2 .add16 (.v 12) (.v 11)),  -- 6221
    .V 12 (.o2 .add16 (.v 12) (.v 13)),  -- 6222
    .V 12 (.o2 .add16 (.v 12) (.v 14)),  -- 6223
    .V 12 (.o2 .add16 (.v 12) (.v 15)),  -- 6224
    .V 12 (.o1 (.srli16 5) (.v 12)),  -- 6225
    .V 16 (.o2 .mullo16 (.v 28) (.v 2)),  -- 6227
    .V 17 (.o2 .mullo16 (.v 29) (.v 8)),  -- 6228
    .V 18 (.o2 .mullo16 (.v 30) (.v 9)),  -- 6229
    .V 19 (.o2 .mullo16 (.v 31) (.v 4)),  -- 6230
    .V 16 (.o2 .add16 (.v 16) (.v 11))  -- 6231
  ]

/-- `intra_pred_ang_xy_13_sse128`, vec/intrinsic_intra-pred.cc:6232-6259. -/
def xy13S_26 : Stmt :=
  .run [
    .V 16 (.o2 .add16 (.v 16) (.v 17)),  -- 6232
    .V 16 (.o2 .add16 (.v 16) (.v 18)),  -- 6233
    .V 16 (.o2 .add16 (.v 16) (.v 19)),  -- 6234
    .V 16 (.o1 (.srli16 5) (.v 16)),  -- 6235
    .V 12 (.o2 .packus16 (.v 12) (.v 16)),  -- 6237
    .st 16 (.pv (.n 6)) (.v 12),  -- 6238
    .V 13 (.o2 .mullo16 (.v 25) (.v 4)),  -- 6240
    .V 14 (.o2 .mullo16 (.v 26) (.v 5)),  -- 6241
    .V 15 (.o2 .mullo16 (.v 27) (.v 2)),  -- 6242
    .V 12 (.o2 .add16 (.v 24) (.v 6)),  -- 6243
    .V 12 (.o2 .add16 (.v 12) (.v 13)),  -- 6244
    .V 12 (.o2 .add16 (.v 12) (.v 14)),  -- 6245
    .V 12 (.o2 .add16 (.v 12) (.v 15)),  -- 6246
    .V 12 (.o1 (.srli16 4) (.v 12)),  -- 6247
    .V 17 (.o2 .mullo16 (.v 29) (.v 4)),  -- 6249
    .V 18 (.o2 .mullo16 (.v 30) (.v 5)),  -- 6250
    .V 19 (.o2 .mullo16 (.v 31) (.v 2)),  -- 6251
    .V 16 (.o2 .add16 (.v 28) (.v 6)),  -- 6252
    .V 16 (.o2 .add16 (.v 16) (.v 17)),  -- 6253
    .V 16 (.o2 .add16 (.v 16) (.v 18)),  -- 6254
    .V 16 (.o2 .add16 (.v 16) (.v 19)),  -- 6255
    .V 16 (.o1 (.srli16 4) (.v 16)),  -- 6256
    .V 12 (.o2 .packus16 (.v 12) (.v 16)),  -- 6258
    .st 16 (.pv (.n 7)) (.v 12)  -- 6259
  ]

/-- `intra_pred_ang_xy_13_sse128`, vec/intrinsic_intra-pred.cc:6261-6289. -/
def xy13S_27 : Stmt :=
  .run [
    .V 13 (.o2 .mullo16 (.v 25) (.v 7)),  -- 6261
    .V 14 (.o2 .mullo16 (.v 26) (.v 10)),  -- 6262
    .V 15 (.o2 .mullo16 (.v 27) (.v 5)),  -- 6263
    .V 12 (.o2 .add16 (.v 24) (.v 11)),  -- 6264
    .V 12 (.o2 .add16 (.v 12) (.v 13)),  -- 6265
    .V 12 (.o2 .add16 (.v 12) (.v 14)),  -- 6266
    .V 12 (.o2 .add16 (.v 12) (.v 15)),  -- 6267
    .V 12 (.o1 (.srli16 5) (.v 12)),  -- 6268
    .V 17 (.o2 .mullo16 (.v 29) (.v 7)),  -- 6270
    .V 18 (.o2 .mullo16 (.v 30) (.v 10)),  -- 6271
    .V 19 (.o2 .mullo16 (.v 31) (.v 5)),  -- 6272
    .V 16 (.o2 .add16 (.v 28) (.v 11)),  -- 6273
    .V 16 (.o2 .add16 (.v 16) (.v 17)),  -- 6274
    .V 16 (.o2 .add16 (.v 16) (.v 18)),  -- 6275
    .V 16 (.o2 .add16 (.v 16) (.v 19)),  -- 6276
    .V 16 (.o1 (.srli16 5) (.v 16)),  -- 6277
    .V 12 (.o2 .packus16 (.v 12) (.v 16)),  -- 6279
    .st 16 (.pv (.n 8)) (.v 12),  -- 6280
    .V 13 (.o2 .mullo16 (.v 26) (.v 1)),  -- 6283
    .V 12 (.o2 .add16 (.v 25) (.v 27)),  -- 6284
    .V 12 (.o2 .add16 (.v 12) (.v 1)),  -- 6285
    .V 12 (.o2 .add16 (.v 12) (.v 13)),  -- 6286
    .V 12 (.o1 (.srli16 2) (.v 12)),  -- 6287
    .V 17 (.o2 .mullo16 (.v 30) (.v 1))  -- 6289
  ]

/-- `intra_pred_ang_xy_13_sse128`, vec/intrinsic_intra-pred.cc:6290-6318. -/
def xy13S_28 : Stmt :=
  .run [
    .V 16 (.o2 .add16 (.v 29) (.v 31)),  -- 6290
    .V 16 (.o2 .add16 (.v 16) (.v 1)),  -- 6291
    .V 16 (.o2 .add16 (.v 16) (.v 17)),  -- 6292
    .V 16 (.o1 (.srli16 2) (.v 16)),  -- 6293
    .V 12 (.o2 .packus16 (.v 12) (.v 16)),  -- 6295
    .st 16 (.pv (.n 9)) (.v 12),  -- 6296
    .P (.n 0) (.add (.pv (.n 0)) (.n 16)),  -- 6298
    .P (.n 2) (.add (.pv (.n 2)) (.n 16)),  -- 6299
    .P (.n 3) (.add (.pv (.n 3)) (.n 16)),  -- 6300
    .P (.n 4) (.add (.pv (.n 4)) (.n 16)),  -- 6301
    .P (.n 5) (.add (.pv (.n 5)) (.n 16)),  -- 6302
    .P (.n 6) (.add (.pv (.n 6)) (.n 16)),  -- 6303
    .P (.n 7) (.add (.pv (.n 7)) (.n 16)),  -- 6304
    .P (.n 8) (.add (.pv (.n 8)) (.n 16)),  -- 6305
    .P (.n 9) (.add (.pv (.n 9)) (.n 16)),  -- 6306
    .V 20 (.ld 16 (.add (.pv (.n 0)) (.n 2))),  -- 6308
    .V 21 (.ld 16 (.add (.pv (.n 0)) (.n 1))),  -- 6309
    .V 22 (.ld 16 (.pv (.n 0))),  -- 6310
    .V 23 (.ld 16 (.sub (.pv (.n 0)) (.n 1))),  -- 6311
    .V 24 (.o2 .unpacklo8 (.v 20) (.v 0)),  -- 6313
    .V 25 (.o2 .unpacklo8 (.v 21) (.v 0)),  -- 6314
    .V 26 (.o2 .unpacklo8 (.v 22) (.v 0)),  -- 6315
    .V 27 (.o2 .unpacklo8 (.v 23) (.v 0)),  -- 6316
    .V 28 (.o2 .unpackhi8 (.v 20) (.v 0))  -- 6318
  ]

/-- `intra_pred_ang_xy_13_sse128`, vec/intrinsic_intra-pred.cc:6319-6346. -/
def xy13S_29 : Stmt :=
  .run [
    .V 29 (.o2 .unpackhi8 (.v 21) (.v 0)),  -- 6319
    .V 30 (.o2 .unpackhi8 (.v 22) (.v 0)),  -- 6320
    .V 31 (.o2 .unpackhi8 (.v 23) (.v 0)),  -- 6321
    .V 12 (.o2 .mullo16 (.v 24) (.v 5)),  -- 6323
    .V 13 (.o2 .mullo16 (.v 25) (.v 10)),  -- 6324
    .V 14 (.o2 .mullo16 (.v 26) (.v 7)),  -- 6325
    .V 15 (.o2 .add16 (.v 27) (.v 11)),  -- 6326
    .V 12 (.o2 .add16 (.v 12) (.v 13)),  -- 6327
    .V 12 (.o2 .add16 (.v 12) (.v 14)),  -- 6328
    .V 12 (.o2 .add16 (.v 12) (.v 15)),  -- 6329
    .V 12 (.o1 (.srli16 5) (.v 12)),  -- 6330
    .V 16 (.o2 .mullo16 (.v 28) (.v 5)),  -- 6332
    .V 17 (.o2 .mullo16 (.v 29) (.v 10)),  -- 6333
    .V 18 (.o2 .mullo16 (.v 30) (.v 7)),  -- 6334
    .V 19 (.o2 .add16 (.v 31) (.v 11)),  -- 6335
    .V 16 (.o2 .add16 (.v 16) (.v 17)),  -- 6336
    .V 16 (.o2 .add16 (.v 16) (.v 18)),  -- 6337
    .V 16 (.o2 .add16 (.v 16) (.v 19)),  -- 6338
    .V 16 (.o1 (.srli16 5) (.v 16)),  -- 6339
    .V 12 (.o2 .packus16 (.v 12) (.v 16)),  -- 6341
    .st 16 (.pv (.n 2)) (.v 12),  -- 6342
    .V 12 (.o2 .mullo16 (.v 24) (.v 2)),  -- 6344
    .V 13 (.o2 .mullo16 (.v 25) (.v 5)),  -- 6345
    .V 14 (.o2 .mullo16 (.v 26) (.v 4))  -- 6346
  ]

/-- `intra_pred_ang_xy_13_sse128`, vec/intrinsic_intra-pred.cc:6347-6373. -/
def xy13S_30 : Stmt :=
  .run [
    .V 15 (.o2 .add16 (.v 27) (.v 6)),  -- 6347
    .V 12 (.o2 .add16 (.v 12) (.v 13)),  -- 6348
    .V 12 (.o2 .add16 (.v 12) (.v 14)),  -- 6349
    .V 12 (.o2 .add16 (.v 12) (.v 15)),  -- 6350
    .V 12 (.o1 (.srli16 4) (.v 12)),  -- 6351
    .V 16 (.o2 .mullo16 (.v 28) (.v 2)),  -- 6353
    .V 17 (.o2 .mullo16 (.v 29) (.v 5)),  -- 6354
    .V 18 (.o2 .mullo16 (.v 30) (.v 4)),  -- 6355
    .V 19 (.o2 .add16 (.v 31) (.v 6)),  -- 6356
    .V 16 (.o2 .add16 (.v 16) (.v 17)),  -- 6357
    .V 16 (.o2 .add16 (.v 16) (.v 18)),  -- 6358
    .V 16 (.o2 .add16 (.v 16) (.v 19)),  -- 6359
    .V 16 (.o1 (.srli16 4) (.v 16)),  -- 6360
    .V 12 (.o2 .packus16 (.v 12) (.v 16)),  -- 6362
    .st 16 (.pv (.n 3)) (.v 12),  -- 6363
    .V 12 (.o2 .mullo16 (.v 24) (.v 4)),  -- 6365
    .V 13 (.o2 .mullo16 (.v 25) (.v 9)),  -- 6366
    .V 14 (.o2 .mullo16 (.v 26) (.v 8)),  -- 6367
    .V 15 (.o2 .mullo16 (.v 27) (.v 2)),  -- 6368
    .V 12 (.o2 .add16 (.v 12) (.v 11)),  -- 6369
    .V 12 (.o2 .add16 (.v 12) (.v 13)),  -- 6370
    .V 12 (.o2 .add16 (.v 12) (.v 14)),  -- 6371
    .V 12 (.o2 .add16 (.v 12) (.v 15)),  -- 6372
    .V 12 (.o1 (.srli16 5) (.v 12))  -- 6373
  ]

/-- `intra_pred_ang_xy_13_sse128`, vec/intrinsic_intra-pred.cc:6375-6402. -/
def xy13S_31 : Stmt :=
  .run [
    .V 16 (.o2 .mullo16 (.v 28) (.v 4)),  -- 6375
    .V 17 (.o2 .mullo16 (.v 29) (.v 9)),  -- 6376
    .V 18 (.o2 .mullo16 (.v 30) (.v 8)),  -- 6377
    .V 19 (.o2 .mullo16 (.v 31) (.v 2)),  -- 6378
    .V 16 (.o2 .add16 (.v 16) (.v 11)),  -- 6379
    .V 16 (.o2 .add16 (.v 16) (.v 17)),  -- 6380
    .V 16 (.o2 .add16 (.v 16) (.v 18)),  -- 6381
    .V 16 (.o2 .add16 (.v 16) (.v 19)),  -- 6382
    .V 16 (.o1 (.srli16 5) (.v 16)),  -- 6383
    .V 12 (.o2 .packus16 (.v 12) (.v 16)),  -- 6385
    .st 16 (.pv (.n 4)) (.v 12),  -- 6386
    .V 12 (.o2 .add16 (.v 24) (.v 27)),  -- 6388
    .V 13 (.o2 .add16 (.v 25) (.v 26)),  -- 6389
    .V 13 (.o2 .mullo16 (.v 13) (.v 2)),  -- 6390
    .V 12 (.o2 .add16 (.v 12) (.v 13)),  -- 6391
    .V 12 (.o2 .add16 (.v 12) (.v 3)),  -- 6392
    .V 12 (.o1 (.srli16 3) (.v 12)),  -- 6393
    .V 16 (.o2 .add16 (.v 28) (.v 31)),  -- 6395
    .V 17 (.o2 .add16 (.v 29) (.v 30)),  -- 6396
    .V 17 (.o2 .mullo16 (.v 17) (.v 2)),  -- 6397
    .V 16 (.o2 .add16 (.v 16) (.v 17)),  -- 6398
    .V 16 (.o2 .add16 (.v 16) (.v 3)),  -- 6399
    .V 16 (.o1 (.srli16 3) (.v 16)),  -- 6400
    .V 12 (.o2 .packus16 (.v 12) (.v 16))  -- 6402
  ]

/-- `intra_pred_ang_xy_13_sse128`, vec/intrinsic_intra-pred.cc:6403-6430. -/
def xy13S_32 : Stmt :=
  .run [
    .st 16 (.pv (.n 5)) (.v 12),  -- 6403
    .V 12 (.o2 .mullo16 (.v 24) (.v 2)),  -- 6405
    .V 13 (.o2 .mullo16 (.v 25) (.v 8)),  -- 6406
    .V 14 (.o2 .mullo16 (.v 26) (.v 9)),  -- 6407
    .V 15 (.o2 .mullo16 (.v 27) (.v 4)),  -- 6408
    .V 12 (.o2 .add16 (.v 12) (.v 11)),  -- 6409
    .V 12 (.o2 .add16 (.v 12) (.v 13)),  -- 6410
    .V 12 (.o2 .add16 (.v 12) (.v 14)),  -- 6411
    .V 12 (.o2 .add16 (.v 12) (.v 15)),  -- 6412
    .V 12 (.o1 (.srli16 5) (.v 12)),  -- 6413
    .V 16 (.o2 .mullo16 (.v 28) (.v 2)),  -- 6415
    .V 17 (.o2 .mullo16 (.v 29) (.v 8)),  -- 6416
    .V 18 (.o2 .mullo16 (.v 30) (.v 9)),  -- 6417
    .V 19 (.o2 .mullo16 (.v 31) (.v 4)),  -- 6418
    .V 16 (.o2 .add16 (.v 16) (.v 11)),  -- 6419
    .V 16 (.o2 .add16 (.v 16) (.v 17)),  -- 6420
    .V 16 (.o2 .add16 (.v 16) (.v 18)),  -- 6421
    .V 16 (.o2 .add16 (.v 16) (.v 19)),  -- 6422
    .V 16 (.o1 (.srli16 5) (.v 16)),  -- 6423
    .V 12 (.o2 .packus16 (.v 12) (.v 16)),  -- 6425
    .st 16 (.pv (.n 6)) (.v 12),  -- 6426
    .V 13 (.o2 .mullo16 (.v 25) (.v 4)),  -- 6428
    .V 14 (.o2 .mullo16 (.v 26) (.v 5)),  -- 6429
    .V 15 (.o2 .mullo16 (.v 27) (.v 2))  -- 6430
  ]

/-- `intra_pred_ang_xy_13_sse128`, vec/intrinsic_intra-pred.cc:6431-6458. -/
def xy13S_33 : Stmt :=
  .run [
    .V 12 (.o2 .add16 (.v 24) (.v 6)),  -- 6431
    .V 12 (.o2 .add16 (.v 12) (.v 13)),  -- 6432
    .V 12 (.o2 .add16 (.v 12) (.v 14)),  -- 6433
    .V 12 (.o2 .add16 (.v 12) (.v 15)),  -- 6434
    .V 12 (.o1 (.srli16 4) (.v 12)),  -- 6435
    .V 17 (.o2 .mullo16 (.v 29) (.v 4)),  -- 6437
    .V 18 (.o2 .mullo16 (.v 30) (.v 5)),  -- 6438
    .V 19 (.o2 .mullo16 (.v 31) (.v 2)),  -- 6439
    .V 16 (.o2 .add16 (.v 28) (.v 6)),  -- 6440
    .V 16 (.o2 .add16 (.v 16) (.v 17)),  -- 6441
    .V 16 (.o2 .add16 (.v 16) (.v 18)),  -- 6442
    .V 16 (.o2 .add16 (.v 16) (.v 19)),  -- 6443
    .V 16 (.o1 (.srli16 4) (.v 16)),  -- 6444
    .V 12 (.o2 .packus16 (.v 12) (.v 16)),  -- 6446
    .st 16 (.pv (.n 7)) (.v 12),  -- 6447
    .V 13 (.o2 .mullo16 (.v 25) (.v 7)),  -- 6449
    .V 14 (.o2 .mullo16 (.v 26) (.v 10)),  -- 6450
    .V 15 (.o2 .mullo16 (.v 27) (.v 5)),  -- 6451
    .V 12 (.o2 .add16 (.v 24) (.v 11)),  -- 6452
    .V 12 (.o2 .add16 (.v 12) (.v 13)),  -- 6453
    .V 12 (.o2 .add16 (.v 12) (.v 14)),  -- 6454
    .V 12 (.o2 .add16 (.v 12) (.v 15)),  -- 6455
    .V 12 (.o1 (.srli16 5) (.v 12)),  -- 6456
    .V 17 (.o2 .mullo16 (.v 29) (.v 7))  -- 6458
  ]

/-- `intra_pred_ang_xy_13_sse128`, vec/intrinsic_intra-pred.cc:6459-6484. -/
def xy13S_34 : Stmt :=
  .run [
    .V 18 (.o2 .mullo16 (.v 30) (.v 10)),  -- 6459
    .V 19 (.o2 .mullo16 (.v 31) (.v 5)),  -- 6460
    .V 16 (.o2 .add16 (.v 28) (.v 11)),  -- 6461
    .V 16 (.o2 .add16 (.v 16) (.v 17)),  -- 6462
    .V 16 (.o2 .add16 (.v 16) (.v 18)),  -- 6463
    .V 16 (.o2 .add16 (.v 16) (.v 19)),  -- 6464
    .V 16 (.o1 (.srli16 5) (.v 16)),  -- 6465
    .V 12 (.o2 .packus16 (.v 12) (.v 16)),  -- 6467
    .st 16 (.pv (.n 8)) (.v 12),  -- 6468
    .V 13 (.o2 .mullo16 (.v 26) (.v 1)),  -- 6471
    .V 12 (.o2 .add16 (.v 25) (.v 27)),  -- 6472
    .V 12 (.o2 .add16 (.v 12) (.v 1)),  -- 6473
    .V 12 (.o2 .add16 (.v 12) (.v 13)),  -- 6474
    .V 12 (.o1 (.srli16 2) (.v 12)),  -- 6475
    .V 17 (.o2 .mullo16 (.v 30) (.v 1)),  -- 6477
    .V 16 (.o2 .add16 (.v 29) (.v 31)),  -- 6478
    .V 16 (.o2 .add16 (.v 16) (.v 1)),  -- 6479
    .V 16 (.o2 .add16 (.v 16) (.v 17)),  -- 6480
    .V 16 (.o1 (.srli16 2) (.v 16)),  -- 6481
    .V 12 (.o2 .packus16 (.v 12) (.v 16)),  -- 6483
    .st 16 (.pv (.n 9)) (.v 12)  -- 6484
  ]

/-- `intra_pred_ang_xy_13_sse128`, vec/intrinsic_intra-pred.cc:6487-6514. -/
def xy13S_35 : Stmt :=
  .run [
    .V 16 (.ld 16 (.add (.pv (.n 0)) (.n 2))),  -- 6487
    .V 17 (.ld 16 (.add (.pv (.n 0)) (.n 1))),  -- 6488
    .V 18 (.ld 16 (.pv (.n 0))),  -- 6489
    .V 19 (.ld 16 (.sub (.pv (.n 0)) (.n 1))),  -- 6490
    .V 20 (.o2 .unpacklo8 (.v 16) (.v 0)),  -- 6492
    .V 21 (.o2 .unpacklo8 (.v 17) (.v 0)),  -- 6493
    .V 22 (.o2 .unpacklo8 (.v 18) (.v 0)),  -- 6494
    .V 23 (.o2 .unpacklo8 (.v 19) (.v 0)),  -- 6495
    .V 12 (.o2 .mullo16 (.v 20) (.v 5)),  -- 6497
    .V 13 (.o2 .mullo16 (.v 21) (.v 10)),  -- 6498
    .V 14 (.o2 .mullo16 (.v 22) (.v 7)),  -- 6499
    .V 15 (.o2 .add16 (.v 23) (.v 11)),  -- 6500
    .V 12 (.o2 .add16 (.v 12) (.v 13)),  -- 6501
    .V 12 (.o2 .add16 (.v 12) (.v 14)),  -- 6502
    .V 12 (.o2 .add16 (.v 12) (.v 15)),  -- 6503
    .V 12 (.o1 (.srli16 5) (.v 12)),  -- 6504
    .V 12 (.o2 .packus16 (.v 12) (.v 12)),  -- 6506
    .st 8 (.pv (.n 2)) (.v 12),  -- 6507
    .V 12 (.o2 .mullo16 (.v 20) (.v 2)),  -- 6509
    .V 13 (.o2 .mullo16 (.v 21) (.v 5)),  -- 6510
    .V 14 (.o2 .mullo16 (.v 22) (.v 4)),  -- 6511
    .V 15 (.o2 .add16 (.v 23) (.v 6)),  -- 6512
    .V 12 (.o2 .add16 (.v 12) (.v 13)),  -- 6513
    .V 12 (.o2 .add16 (.v 12) (.v 14))  -- 6514
  ]

/-- `intra_pred_ang_xy_13_sse128`, vec/intrinsic_intra-pred.cc:6515-6544. -/
def xy13S_36 : Stmt :=
  .run [
    .V 12 (.o2 .add16 (.v 12) (.v 15)),  -- 6515
    .V 12 (.o1 (.srli16 4) (.v 12)),  -- 6516
    .V 12 (.o2 .packus16 (.v 12) (.v 12)),  -- 6518
    .st 8 (.pv (.n 3)) (.v 12),  -- 6519
    .V 12 (.o2 .mullo16 (.v 20) (.v 4)),  -- 6521
    .V 13 (.o2 .mullo16 (.v 21) (.v 9)),  -- 6522
    .V 14 (.o2 .mullo16 (.v 22) (.v 8)),  -- 6523
    .V 15 (.o2 .mullo16 (.v 23) (.v 2)),  -- 6524
    .V 12 (.o2 .add16 (.v 12) (.v 11)),  -- 6525
    .V 12 (.o2 .add16 (.v 12) (.v 13)),  -- 6526
    .V 12 (.o2 .add16 (.v 12) (.v 14)),  -- 6527
    .V 12 (.o2 .add16 (.v 12) (.v 15)),  -- 6528
    .V 12 (.o1 (.srli16 5) (.v 12)),  -- 6529
    .V 12 (.o2 .packus16 (.v 12) (.v 12)),  -- 6531
    .st 8 (.pv (.n 4)) (.v 12),  -- 6532
    .V 12 (.o2 .add16 (.v 20) (.v 23)),  -- 6534
    .V 13 (.o2 .add16 (.v 21) (.v 22)),  -- 6535
    .V 13 (.o2 .mullo16 (.v 13) (.v 2)),  -- 6536
    .V 12 (.o2 .add16 (.v 12) (.v 13)),  -- 6537
    .V 12 (.o2 .add16 (.v 12) (.v 3)),  -- 6538
    .V 12 (.o1 (.srli16 3) (.v 12)),  -- 6539
    .V 12 (.o2 .packus16 (.v 12) (.v 12)),  -- 6541
    .st 8 (.pv (.n 5)) (.v 12),  -- 6542
    .V 12 (.o2 .mullo16 (.v 20) (.v 2))  -- 6544
  ]

/-- `intra_pred_ang_xy_13_sse128`, vec/intrinsic_intra-pred.cc:6545-6572. -/
def xy13S_37 : Stmt :=
  .run [
    .V 13 (.o2 .mullo16 (.v 21) (.v 8)),  -- 6545
    .V 14 (.o2 .mullo16 (.v 22) (.v 9)),  -- 6546
    .V 15 (.o2 .mullo16 (.v 23) (.v 4)),  -- 6547
    .V 12 (.o2 .add16 (.v 12) (.v 11)),  -- 6548
    .V 12 (.o2 .add16 (.v 12) (.v 13)),  -- 6549
    .V 12 (.o2 .add16 (.v 12) (.v 14)),  -- 6550
    .V 12 (.o2 .add16 (.v 12) (.v 15)),  -- 6551
    .V 12 (.o1 (.srli16 5) (.v 12)),  -- 6552
    .V 12 (.o2 .packus16 (.v 12) (.v 12)),  -- 6554
    .st 8 (.pv (.n 6)) (.v 12),  -- 6555
    .V 13 (.o2 .mullo16 (.v 21) (.v 4)),  -- 6557
    .V 14 (.o2 .mullo16 (.v 22) (.v 5)),  -- 6558
    .V 15 (.o2 .mullo16 (.v 23) (.v 2)),  -- 6559
    .V 12 (.o2 .add16 (.v 20) (.v 6)),  -- 6560
    .V 12 (.o2 .add16 (.v 12) (.v 13)),  -- 6561
    .V 12 (.o2 .add16 (.v 12) (.v 14)),  -- 6562
    .V 12 (.o2 .add16 (.v 12) (.v 15)),  -- 6563
    .V 12 (.o1 (.srli16 4) (.v 12)),  -- 6564
    .V 12 (.o2 .packus16 (.v 12) (.v 12)),  -- 6566
    .st 8 (.pv (.n 7)) (.v 12),  -- 6567
    .V 13 (.o2 .mullo16 (.v 21) (.v 7)),  -- 6569
    .V 14 (.o2 .mullo16 (.v 22) (.v 10)),  -- 6570
    .V 15 (.o2 .mullo16 (.v 23) (.v 5)),  -- 6571
    .V 12 (.o2 .add16 (.v 20) (.v 11))  -- 6572
  ]

/-- `intra_pred_ang_xy_13_sse128`, vec/intrinsic_intra-pred.cc:6573-6589. -/
def xy13S_38 : Stmt :=
  .run [
    .V 12 (.o2 .add16 (.v 12) (.v 13)),  -- 6573
    .V 12 (.o2 .add16 (.v 12) (.v 14)),  -- 6574
    .V 12 (.o2 .add16 (.v 12) (.v 15)),  -- 6575
    .V 12 (.o1 (.srli16 5) (.v 12)),  -- 6576
    .V 12 (.o2 .packus16 (.v 12) (.v 12)),  -- 6578
    .st 8 (.pv (.n 8)) (.v 12),  -- 6579
    .V 13 (.o2 .mullo16 (.v 22) (.v 1)),  -- 6582
    .V 12 (.o2 .add16 (.v 21) (.v 23)),  -- 6583
    .V 12 (.o2 .add16 (.v 12) (.v 1)),  -- 6584
    .V 12 (.o2 .add16 (.v 12) (.v 13)),  -- 6585
    .V 12 (.o1 (.srli16 2) (.v 12)),  -- 6586
    .V 12 (.o2 .packus16 (.v 12) (.v 12)),  -- 6588
    .st 8 (.pv (.n 9)) (.v 12)  -- 6589
  ]

/-- `intra_pred_ang_xy_13_sse128`, vec/intrinsic_intra-pred.cc:6117. -/
def xy13S_39 : Stmt :=
  .ite (.eq (.v 2) (.n 32)) (.seq xy13S_22 (.seq xy13S_23 (.seq xy13S_24 (.seq xy13S_25 (.seq xy13S_26 (.seq xy13S_27 (.seq xy13S_28 (.seq xy13S_29 (.seq xy13S_30 (.seq xy13S_31 (.seq xy13S_32 (.seq xy13S_33 xy13S_34)))))))))))) (.seq xy13S_35 (.seq xy13S_36 (.seq xy13S_37 xy13S_38)))

/-- `intra_pred_ang_xy_13_sse128`, vec/intrinsic_intra-pred.cc:6592-6595. -/
def xy13S_40 : Stmt :=
  .run [
    .P (.n 2) (.pv (.n 1)),  -- 6592
    .P (.n 3) (.add (.pv (.n 2)) (.v 0)),  -- 6593
    .P (.n 4) (.add (.pv (.n 3)) (.v 0)),  -- 6594
    .P (.n 5) (.add (.pv (.n 4)) (.v 0))  -- 6595
  ]

/-- `intra_pred_ang_xy_13_sse128`, vec/intrinsic_intra-pred.cc:6600-6627. -/
def xy13S_41 : Stmt :=
  .run [
    .V 20 (.ld 16 (.add (.pv (.n 0)) (.n 2))),  -- 6600
    .V 21 (.ld 16 (.add (.pv (.n 0)) (.n 1))),  -- 6601
    .V 22 (.ld 16 (.pv (.n 0))),  -- 6602
    .V 23 (.ld 16 (.sub (.pv (.n 0)) (.n 1))),  -- 6603
    .V 24 (.o2 .unpacklo8 (.v 20) (.v 0)),  -- 6605
    .V 25 (.o2 .unpacklo8 (.v 21) (.v 0)),  -- 6606
    .V 26 (.o2 .unpacklo8 (.v 22) (.v 0)),  -- 6607
    .V 27 (.o2 .unpacklo8 (.v 23) (.v 0)),  -- 6608
    .V 28 (.o2 .unpackhi8 (.v 20) (.v 0)),  -- 6610
    .V 29 (.o2 .unpackhi8 (.v 21) (.v 0)),  -- 6611
    .V 30 (.o2 .unpackhi8 (.v 22) (.v 0)),  -- 6612
    .V 31 (.o2 .unpackhi8 (.v 23) (.v 0)),  -- 6613
    .V 12 (.o2 .mullo16 (.v 24) (.v 5)),  -- 6615
    .V 13 (.o2 .mullo16 (.v 25) (.v 10)),  -- 6616
    .V 14 (.o2 .mullo16 (.v 26) (.v 7)),  -- 6617
    .V 15 (.o2 .add16 (.v 27) (.v 11)),  -- 6618
    .V 12 (.o2 .add16 (.v 12) (.v 13)),  -- 6619
    .V 12 (.o2 .add16 (.v 12) (.v 14)),  -- 6620
    .V 12 (.o2 .add16 (.v 12) (.v 15)),  -- 6621
    .V 12 (.o1 (.srli16 5) (.v 12)),  -- 6622
    .V 16 (.o2 .mullo16 (.v 28) (.v 5)),  -- 6624
    .V 17 (.o2 .mullo16 (.v 29) (.v 10)),  -- 6625
    .V 18 (.o2 .mullo16 (.v 30) (.v 7)),  -- 6626
    .V 19 (.o2 .add16 (.v 31) (.v 11))  -- 6627
  ]

/-- `intra_pred_ang_xy_13_sse128`, vec/intrinsic_intra-pred.cc:6628-6655. -/
def xy13S_42 : Stmt :=
  .run [
    .V 16 (.o2 .add16 (.v 16) (.v 17)),  -- 6628
    .V 16 (.o2 .add16 (.v 16) (.v 18)),  -- 6629
    .V 16 (.o2 .add16 (.v 16) (.v 19)),  -- 6630
    .V 16 (.o1 (.srli16 5) (.v 16)),  -- 6631
    .V 12 (.o2 .packus16 (.v 12) (.v 16)),  -- 6633
    .st 16 (.pv (.n 2)) (.v 12),  -- 6634
    .V 12 (.o2 .mullo16 (.v 24) (.v 2)),  -- 6636
    .V 13 (.o2 .mullo16 (.v 25) (.v 5)),  -- 6637
    .V 14 (.o2 .mullo16 (.v 26) (.v 4)),  -- 6638
    .V 15 (.o2 .add16 (.v 27) (.v 6)),  -- 6639
    .V 12 (.o2 .add16 (.v 12) (.v 13)),  -- 6640
    .V 12 (.o2 .add16 (.v 12) (.v 14)),  -- 6641
    .V 12 (.o2 .add16 (.v 12) (.v 15)),  -- 6642
    .V 12 (.o1 (.srli16 4) (.v 12)),  -- 6643
    .V 16 (.o2 .mullo16 (.v 28) (.v 2)),  -- 6645
    .V 17 (.o2 .mullo16 (.v 29) (.v 5)),  -- 6646
    .V 18 (.o2 .mullo16 (.v 30) (.v 4)),  -- 6647
    .V 19 (.o2 .add16 (.v 31) (.v 6)),  -- 6648
    .V 16 (.o2 .add16 (.v 16) (.v 17)),  -- 6649
    .V 16 (.o2 .add16 (.v 16) (.v 18)),  -- 6650
    .V 16 (.o2 .add16 (.v 16) (.v 19)),  -- 6651
    .V 16 (.o1 (.srli16 4) (.v 16)),  -- 6652
    .V 12 (.o2 .packus16 (.v 12) (.v 16)),  -- 6654
    .st 16 (.pv (.n 3)) (.v 12)  -- 6655
  ]

/-- `intra_pred_ang_xy_13_sse128`, vec/intrinsic_intra-pred.cc:6657-6683. -/
def xy13S_43 : Stmt :=
  .run [
    .V 12 (.o2 .mullo16 (.v 24) (.v 4)),  -- 6657
    .V 13 (.o2 .mullo16 (.v 25) (.v 9)),  -- 6658
    .V 14 (.o2 .mullo16 (.v 26) (.v 8)),  -- 6659
    .V 15 (.o2 .mullo16 (.v 27) (.v 2)),  -- 6660
    .V 12 (.o2 .add16 (.v 12) (.v 11)),  -- 6661
    .V 12 (.o2 .add16 (.v 12) (.v 13)),  -- 6662
    .V 12 (.o2 .add16 (.v 12) (.v 14)),  -- 6663
    .V 12 (.o2 .add16 (.v 12) (.v 15)),  -- 6664
    .V 12 (.o1 (.srli16 5) (.v 12)),  -- 6665
    .V 16 (.o2 .mullo16 (.v 28) (.v 4)),  -- 6667
    .V 17 (.o2 .mullo16 (.v 29) (.v 9)),  -- 6668
    .V 18 (.o2 .mullo16 (.v 30) (.v 8)),  -- 6669
    .V 19 (.o2 .mullo16 (.v 31) (.v 2)),  -- 6670
    .V 16 (.o2 .add16 (.v 16) (.v 11)),  -- 6671
    .V 16 (.o2 .add16 (.v 16) (.v 17)),  -- 6672
    .V 16 (.o2 .add16 (.v 16) (.v 18)),  -- 6673
    .V 16 (.o2 .add16 (.v 16) (.v 19)),  -- 6674
    .V 16 (.o1 (.srli16 5) (.v 16)),  -- 6675
    .V 12 (.o2 .packus16 (.v 12) (.v 16)),  -- 6677
    .st 16 (.pv (.n 4)) (.v 12),  -- 6678
    .V 12 (.o2 .add16 (.v 24) (.v 27)),  -- 6680
    .V 13 (.o2 .add16 (.v 25) (.v 26)),  -- 6681
    .V 13 (.o2 .mullo16 (.v 13) (.v 2)),  -- 6682
    .V 12 (.o2 .add16 (.v 12) (.v 13))  -- 6683
  ]

/-- `intra_pred_ang_xy_13_sse128`, vec/intrinsic_intra-pred.cc:6684-6695. -/
def xy13S_44 : Stmt :=
  .run [
    .V 12 (.o2 .add16 (.v 12) (.v 3)),  -- 6684
    .V 12 (.o1 (.srli16 3) (.v 12)),  -- 6685
    .V 16 (.o2 .add16 (.v 28) (.v 31)),  -- 6687
    .V 17 (.o2 .add16 (.v 29) (.v 30)),  -- 6688
    .V 17 (.o2 .mullo16 (.v 17) (.v 2)),  -- 6689
    .V 16 (.o2 .add16 (.v 16) (.v 17)),  -- 6690
    .V 16 (.o2 .add16 (.v 16) (.v 3)),  -- 6691
    .V 16 (.o1 (.srli16 3) (.v 16)),  -- 6692
    .V 12 (.o2 .packus16 (.v 12) (.v 16)),  -- 6694
    .st 16 (.pv (.n 5)) (.v 12)  -- 6695
  ]

/-- `intra_pred_ang_xy_13_sse128`, vec/intrinsic_intra-pred.cc:6698-6725. -/
def xy13S_45 : Stmt :=
  .run [
    .V 16 (.ld 16 (.add (.pv (.n 0)) (.n 2))),  -- 6698
    .V 17 (.ld 16 (.add (.pv (.n 0)) (.n 1))),  -- 6699
    .V 18 (.ld 16 (.pv (.n 0))),  -- 6700
    .V 19 (.ld 16 (.sub (.pv (.n 0)) (.n 1))),  -- 6701
    .V 20 (.o2 .unpacklo8 (.v 16) (.v 0)),  -- 6703
    .V 21 (.o2 .unpacklo8 (.v 17) (.v 0)),  -- 6704
    .V 22 (.o2 .unpacklo8 (.v 18) (.v 0)),  -- 6705
    .V 23 (.o2 .unpacklo8 (.v 19) (.v 0)),  -- 6706
    .V 12 (.o2 .mullo16 (.v 20) (.v 5)),  -- 6708
    .V 13 (.o2 .mullo16 (.v 21) (.v 10)),  -- 6709
    .V 14 (.o2 .mullo16 (.v 22) (.v 7)),  -- 6710
    .V 15 (.o2 .add16 (.v 23) (.v 11)),  -- 6711
    .V 12 (.o2 .add16 (.v 12) (.v 13)),  -- 6712
    .V 12 (.o2 .add16 (.v 12) (.v 14)),  -- 6713
    .V 12 (.o2 .add16 (.v 12) (.v 15)),  -- 6714
    .V 12 (.o1 (.srli16 5) (.v 12)),  -- 6715
    .V 12 (.o2 .packus16 (.v 12) (.v 12)),  -- 6717
    .st 4 (.pv (.n 2)) (.v 12),  -- 6718
    .V 12 (.o2 .mullo16 (.v 20) (.v 2)),  -- 6720
    .V 13 (.o2 .mullo16 (.v 21) (.v 5)),  -- 6721
    .V 14 (.o2 .mullo16 (.v 22) (.v 4)),  -- 6722
    .V 15 (.o2 .add16 (.v 23) (.v 6)),  -- 6723
    .V 12 (.o2 .add16 (.v 12) (.v 13)),  -- 6724
    .V 12 (.o2 .add16 (.v 12) (.v 14))  -- 6725
  ]

/-- `intra_pred_ang_xy_13_sse128`, vec/intrinsic_intra-pred.cc:6726-6753. -/
def xy13S_46 : Stmt :=
  .run [
    .V 12 (.o2 .add16 (.v 12) (.v 15)),  -- 6726
    .V 12 (.o1 (.srli16 4) (.v 12)),  -- 6727
    .V 12 (.o2 .packus16 (.v 12) (.v 12)),  -- 6729
    .st 4 (.pv (.n 3)) (.v 12),  -- 6730
    .V 12 (.o2 .mullo16 (.v 20) (.v 4)),  -- 6732
    .V 13 (.o2 .mullo16 (.v 21) (.v 9)),  -- 6733
    .V 14 (.o2 .mullo16 (.v 22) (.v 8)),  -- 6734
    .V 15 (.o2 .mullo16 (.v 23) (.v 2)),  -- 6735
    .V 12 (.o2 .add16 (.v 12) (.v 11)),  -- 6736
    .V 12 (.o2 .add16 (.v 12) (.v 13)),  -- 6737
    .V 12 (.o2 .add16 (.v 12) (.v 14)),  -- 6738
    .V 12 (.o2 .add16 (.v 12) (.v 15)),  -- 6739
    .V 12 (.o1 (.srli16 5) (.v 12)),  -- 6740
    .V 12 (.o2 .packus16 (.v 12) (.v 12)),  -- 6742
    .st 4 (.pv (.n 4)) (.v 12),  -- 6743
    .V 12 (.o2 .add16 (.v 20) (.v 23)),  -- 6745
    .V 13 (.o2 .add16 (.v 21) (.v 22)),  -- 6746
    .V 13 (.o2 .mullo16 (.v 13) (.v 2)),  -- 6747
    .V 12 (.o2 .add16 (.v 12) (.v 13)),  -- 6748
    .V 12 (.o2 .add16 (.v 12) (.v 3)),  -- 6749
    .V 12 (.o1 (.srli16 3) (.v 12)),  -- 6750
    .V 12 (.o2 .packus16 (.v 12) (.v 12)),  -- 6752
    .st 4 (.pv (.n 5)) (.v 12)  -- 6753
  ]

/-- `intra_pred_ang_xy_13_sse128`, vec/intrinsic_intra-pred.cc:6597. -/
def xy13S_47 : Stmt :=
  .ite (.eq (.v 2) (.n 16)) (.seq xy13S_41 (.seq xy13S_42 (.seq xy13S_43 xy13S_44))) (.seq xy13S_45 xy13S_46)

/-- `intra_pred_ang_xy_13_sse128`, vec/intrinsic_intra-pred.cc:6108. -/
def xy13S_48 : Stmt :=
  .ite (.eq (.v 3) (.n 8)) (.seq xy13S_21 xy13S_39) (.seq xy13S_40 xy13S_47)

/-- `intra_pred_ang_xy_13_sse128`, vec/intrinsic_intra-pred.cc:5763. -/
def xy13S_49 : Stmt :=
  .ite (.lt (.n 8) (.v 3)) (.seq xy13S_2 (.seq xy13S_4 (.seq xy13S_12 (.seq xy13S_17 (.seq xy13S_18 xy13S_20))))) xy13S_48

/-- `intra_pred_ang_xy_13_sse128`, source/common/vec/intrinsic_intra-pred.cc:5745-6756.  Variables:
I: 0 i_dst, 1 dir_mode, 2 bsx, 3 bsy, 4 i, 5 line_size, 6 left_size, 7 aligned_line_size;
P: 0 src, 1 dst, 2 pfirst/dst1, 3 dst2, 4 dst3, 5 dst4, 6 dst5, 7 dst6, 8 dst7, 9 dst8;
V: 0 zero, 1 coeff2, 2 coeff3, 3 coeff4, 4 coeff5, 5 coeff7, 6 coeff8, 7 coeff9, 8 coeff11, 9 coeff13, 10 coeff15, 11 coeff16, 12 p00, 13 p10, 14 p20, 15 p30, 16 p01/S0, 17 p11/S1, 18 p21/S2, 19 p31/S3, 20 S0/L0, 21 S1/L1, 22 S2/L2, 23 S3/L3, 24 L0, 25 L1, 26 L2, 27 L3, 28 H0, 29 H1, 30 H2, 31 H3. -/
def xy13S : Stmt :=
  .seq xy13S_1 xy13S_49

/-- `intra_pred_ang_xy_14_sse128`, vec/intrinsic_intra-pred.cc:6764-6770. -/
def xy14S_1 : Stmt :=
  .run [
    .V 0 (.set1_16 (.n 2)),  -- 6764
    .V 1 (.set1_16 (.n 3)),  -- 6765
    .V 2 (.set1_16 (.n 4)),  -- 6766
    .V 3 (.set1_16 (.n 5)),  -- 6767
    .V 4 (.set1_16 (.n 7)),  -- 6768
    .V 5 (.set1_16 (.n 8)),  -- 6769
    .V 6 .zero  -- 6770
  ]

/-- `intra_pred_ang_xy_14_sse128`, vec/intrinsic_intra-pred.cc:6775-6791. -/
def xy14S_2 : Stmt :=
  .run [
    .alloc 0 384,  -- 6775
    .I 5 (.sub (.add (.v 2) (.div (.v 3) (.n 4))) (.n 1)),  -- 6776
    .I 6 (.sub (.v 5) (.v 2)),  -- 6777
    .I 7 (.shl (.shr (.add (.v 5) (.n 31)) 4) 4),  -- 6778
    .V 7 (.setr8 [0, 4, 8, 12, 1, 5, 9, 13, 2, 6, 10, 14, 3, 7, 11, 15]),  -- 6780
    .V 8 (.setr8 [1, 5, 9, 13, 2, 6, 10, 14, 3, 7, 11, 15, 0, 4, 8, 12]),  -- 6781
    .V 9 (.setr8 [2, 6, 10, 14, 3, 7, 11, 15, 0, 4, 8, 12, 1, 5, 9, 13]),  -- 6782
    .V 10 (.setr8 [3, 7, 11, 15, 0, 4, 8, 12, 1, 5, 9, 13, 2, 6, 10, 14]),  -- 6783
    .P (.n 6) (.pv (.n 0)),  -- 6784
    .P (.n 2) (.pa 0),  -- 6786
    .P (.n 3) (.add (.pa 0) (.v 7)),  -- 6787
    .P (.n 4) (.add (.pa 0) (.mul (.v 7) (.n 2))),  -- 6788
    .P (.n 5) (.add (.pa 0) (.mul (.v 7) (.n 3))),  -- 6789
    .P (.n 0) (.sub (.pv (.n 0)) (.sub (.v 3) (.n 4))),  -- 6790
    .I 4 (.n 0)  -- 6791
  ]

/-- `intra_pred_ang_xy_14_sse128`, vec/intrinsic_intra-pred.cc:6794-6823. -/
def xy14S_3 : Stmt :=
  .run [
    .V 17 (.ld 16 (.sub (.pv (.n 0)) (.n 1))),  -- 6794
    .V 18 (.ld 16 (.add (.pv (.n 0)) (.n 1))),  -- 6795
    .V 19 (.ld 16 (.pv (.n 0))),  -- 6796
    .V 20 (.o2 .unpacklo8 (.v 17) (.v 6)),  -- 6798
    .V 21 (.o2 .unpacklo8 (.v 19) (.v 6)),  -- 6799
    .V 22 (.o2 .unpacklo8 (.v 18) (.v 6)),  -- 6800
    .V 23 (.o2 .unpackhi8 (.v 17) (.v 6)),  -- 6802
    .V 24 (.o2 .unpackhi8 (.v 19) (.v 6)),  -- 6803
    .V 25 (.o2 .unpackhi8 (.v 18) (.v 6)),  -- 6804
    .V 11 (.o2 .add16 (.v 20) (.v 21)),  -- 6806
    .V 12 (.o2 .add16 (.v 21) (.v 22)),  -- 6807
    .V 13 (.o2 .add16 (.v 23) (.v 24)),  -- 6808
    .V 14 (.o2 .add16 (.v 24) (.v 25)),  -- 6809
    .V 11 (.o2 .add16 (.v 11) (.v 0)),  -- 6811
    .V 13 (.o2 .add16 (.v 13) (.v 0)),  -- 6812
    .V 11 (.o2 .add16 (.v 11) (.v 12)),  -- 6813
    .V 13 (.o2 .add16 (.v 13) (.v 14)),  -- 6814
    .V 11 (.o1 (.srli16 2) (.v 11)),  -- 6816
    .V 13 (.o1 (.srli16 2) (.v 13)),  -- 6817
    .V 11 (.o2 .packus16 (.v 11) (.v 13)),  -- 6819
    .V 13 (.o2 .shuffle8 (.v 11) (.v 8)),  -- 6820
    .V 15 (.o2 .shuffle8 (.v 11) (.v 9)),  -- 6821
    .V 16 (.o2 .shuffle8 (.v 11) (.v 10)),  -- 6822
    .V 11 (.o2 .shuffle8 (.v 11) (.v 7))  -- 6823
  ]

/-- `intra_pred_ang_xy_14_sse128`, vec/intrinsic_intra-pred.cc:6791-6828. -/
def xy14S_4 : Stmt :=
  .run [
    .st 4 (.add (.pv (.n 2)) (.v 4)) (.v 16),  -- 6825
    .st 4 (.add (.pv (.n 3)) (.v 4)) (.v 15),  -- 6826
    .st 4 (.add (.pv (.n 4)) (.v 4)) (.v 13),  -- 6827
    .st 4 (.add (.pv (.n 5)) (.v 4)) (.v 11),  -- 6828
    .I 4 (.add (.v 4) (.n 4)),  -- 6791
    .P (.n 0) (.add (.pv (.n 0)) (.n 16))
  ]

/-- `intra_pred_ang_xy_14_sse128`, vec/intrinsic_intra-pred.cc:6791. -/
def xy14S_5 : Stmt :=
  .loop (.lt (.v 4) (.sub (.v 6) (.n 1))) (.seq xy14S_3 xy14S_4)

/-- `intra_pred_ang_xy_14_sse128`, vec/intrinsic_intra-pred.cc:6834-6859. -/
def xy14S_6 : Stmt :=
  .run [
    .V 16 (.ld 16 (.sub (.pv (.n 0)) (.n 1))),  -- 6834
    .V 17 (.ld 16 (.add (.pv (.n 0)) (.n 1))),  -- 6835
    .V 18 (.ld 16 (.pv (.n 0))),  -- 6836
    .V 19 (.o2 .unpacklo8 (.v 16) (.v 6)),  -- 6838
    .V 20 (.o2 .unpacklo8 (.v 18) (.v 6)),  -- 6839
    .V 21 (.o2 .unpacklo8 (.v 17) (.v 6)),  -- 6840
    .V 11 (.o2 .add16 (.v 19) (.v 20)),  -- 6842
    .V 12 (.o2 .add16 (.v 20) (.v 21)),  -- 6843
    .V 11 (.o2 .add16 (.v 11) (.v 0)),  -- 6845
    .V 11 (.o2 .add16 (.v 11) (.v 12)),  -- 6846
    .V 11 (.o1 (.srli16 2) (.v 11)),  -- 6848
    .V 11 (.o2 .packus16 (.v 11) (.v 11)),  -- 6850
    .V 13 (.o2 .shuffle8 (.v 11) (.v 8)),  -- 6851
    .V 14 (.o2 .shuffle8 (.v 11) (.v 9)),  -- 6852
    .V 15 (.o2 .shuffle8 (.v 11) (.v 10)),  -- 6853
    .V 11 (.o2 .shuffle8 (.v 11) (.v 7)),  -- 6854
    .st 4 (.add (.pv (.n 2)) (.v 4)) (.v 15),  -- 6856
    .st 4 (.add (.pv (.n 3)) (.v 4)) (.v 14),  -- 6857
    .st 4 (.add (.pv (.n 4)) (.v 4)) (.v 13),  -- 6858
    .st 4 (.add (.pv (.n 5)) (.v 4)) (.v 11)  -- 6859
  ]

/-- `intra_pred_ang_xy_14_sse128`, vec/intrinsic_intra-pred.cc:6831. -/
def xy14S_7 : Stmt :=
  .ite (.lt (.v 4) (.v 6)) xy14S_6 (.run [])

/-- `intra_pred_ang_xy_14_sse128`, vec/intrinsic_intra-pred.cc:6862-6864. -/
def xy14S_8 : Stmt :=
  .run [
    .P (.n 0) (.pv (.n 6)),  -- 6862
    .I 4 (.v 6)  -- 6864
  ]

/-- `intra_pred_ang_xy_14_sse128`, vec/intrinsic_intra-pred.cc:6867-6894. -/
def xy14S_9 : Stmt :=
  .run [
    .V 19 (.ld 16 (.sub (.pv (.n 0)) (.n 1))),  -- 6867
    .V 20 (.ld 16 (.add (.pv (.n 0)) (.n 2))),  -- 6868
    .V 21 (.ld 16 (.pv (.n 0))),  -- 6869
    .V 22 (.ld 16 (.add (.pv (.n 0)) (.n 1))),  -- 6870
    .V 23 (.o2 .unpacklo8 (.v 19) (.v 6)),  -- 6872
    .V 24 (.o2 .unpacklo8 (.v 21) (.v 6)),  -- 6873
    .V 25 (.o2 .unpacklo8 (.v 22) (.v 6)),  -- 6874
    .V 26 (.o2 .unpacklo8 (.v 20) (.v 6)),  -- 6875
    .V 27 (.o2 .unpackhi8 (.v 19) (.v 6)),  -- 6877
    .V 28 (.o2 .unpackhi8 (.v 21) (.v 6)),  -- 6878
    .V 29 (.o2 .unpackhi8 (.v 22) (.v 6)),  -- 6879
    .V 30 (.o2 .unpackhi8 (.v 20) (.v 6)),  -- 6880
    .V 11 (.o2 .mullo16 (.v 23) (.v 1)),  -- 6882
    .V 12 (.o2 .mullo16 (.v 24) (.v 4)),  -- 6883
    .V 13 (.o2 .mullo16 (.v 25) (.v 3)),  -- 6884
    .V 14 (.o2 .add16 (.v 26) (.v 5)),  -- 6885
    .V 11 (.o2 .add16 (.v 11) (.v 14)),  -- 6886
    .V 11 (.o2 .add16 (.v 11) (.v 12)),  -- 6887
    .V 11 (.o2 .add16 (.v 11) (.v 13)),  -- 6888
    .V 11 (.o1 (.srli16 4) (.v 11)),  -- 6889
    .V 15 (.o2 .mullo16 (.v 27) (.v 1)),  -- 6891
    .V 16 (.o2 .mullo16 (.v 28) (.v 4)),  -- 6892
    .V 17 (.o2 .mullo16 (.v 29) (.v 3)),  -- 6893
    .V 18 (.o2 .add16 (.v 30) (.v 5))  -- 6894
  ]

/-- `intra_pred_ang_xy_14_sse128`, vec/intrinsic_intra-pred.cc:6895-6923. -/
def xy14S_10 : Stmt :=
  .run [
    .V 15 (.o2 .add16 (.v 15) (.v 18)),  -- 6895
    .V 15 (.o2 .add16 (.v 15) (.v 16)),  -- 6896
    .V 15 (.o2 .add16 (.v 15) (.v 17)),  -- 6897
    .V 15 (.o1 (.srli16 4) (.v 15)),  -- 6898
    .V 11 (.o2 .packus16 (.v 11) (.v 15)),  -- 6900
    .st 16 (.add (.pv (.n 4)) (.v 4)) (.v 11),  -- 6901
    .V 11 (.o2 .add16 (.v 24) (.v 25)),  -- 6903
    .V 11 (.o2 .mullo16 (.v 11) (.v 1)),  -- 6904
    .V 12 (.o2 .add16 (.v 23) (.v 26)),  -- 6905
    .V 12 (.o2 .add16 (.v 12) (.v 2)),  -- 6906
    .V 11 (.o2 .add16 (.v 12) (.v 11)),  -- 6907
    .V 11 (.o1 (.srli16 3) (.v 11)),  -- 6908
    .V 15 (.o2 .add16 (.v 28) (.v 29)),  -- 6910
    .V 15 (.o2 .mullo16 (.v 15) (.v 1)),  -- 6911
    .V 16 (.o2 .add16 (.v 27) (.v 30)),  -- 6912
    .V 16 (.o2 .add16 (.v 16) (.v 2)),  -- 6913
    .V 15 (.o2 .add16 (.v 16) (.v 15)),  -- 6914
    .V 15 (.o1 (.srli16 3) (.v 15)),  -- 6915
    .V 11 (.o2 .packus16 (.v 11) (.v 15)),  -- 6917
    .st 16 (.add (.pv (.n 3)) (.v 4)) (.v 11),  -- 6918
    .V 12 (.o2 .mullo16 (.v 24) (.v 3)),  -- 6920
    .V 13 (.o2 .mullo16 (.v 25) (.v 4)),  -- 6921
    .V 14 (.o2 .mullo16 (.v 26) (.v 1)),  -- 6922
    .V 11 (.o2 .add16 (.v 23) (.v 5))  -- 6923
  ]

/-- `intra_pred_ang_xy_14_sse128`, vec/intrinsic_intra-pred.cc:6924-6951. -/
def xy14S_11 : Stmt :=
  .run [
    .V 11 (.o2 .add16 (.v 11) (.v 12)),  -- 6924
    .V 11 (.o2 .add16 (.v 11) (.v 13)),  -- 6925
    .V 11 (.o2 .add16 (.v 11) (.v 14)),  -- 6926
    .V 11 (.o1 (.srli16 4) (.v 11)),  -- 6927
    .V 16 (.o2 .mullo16 (.v 28) (.v 3)),  -- 6929
    .V 17 (.o2 .mullo16 (.v 29) (.v 4)),  -- 6930
    .V 18 (.o2 .mullo16 (.v 30) (.v 1)),  -- 6931
    .V 15 (.o2 .add16 (.v 27) (.v 5)),  -- 6932
    .V 15 (.o2 .add16 (.v 15) (.v 16)),  -- 6933
    .V 15 (.o2 .add16 (.v 15) (.v 17)),  -- 6934
    .V 15 (.o2 .add16 (.v 15) (.v 18)),  -- 6935
    .V 15 (.o1 (.srli16 4) (.v 15)),  -- 6936
    .V 11 (.o2 .packus16 (.v 11) (.v 15)),  -- 6938
    .st 16 (.add (.pv (.n 2)) (.v 4)) (.v 11),  -- 6939
    .V 11 (.o2 .add16 (.v 23) (.v 24)),  -- 6941
    .V 12 (.o2 .add16 (.v 24) (.v 25)),  -- 6942
    .V 11 (.o2 .add16 (.v 11) (.v 12)),  -- 6943
    .V 11 (.o2 .add16 (.v 11) (.v 0)),  -- 6944
    .V 11 (.o1 (.srli16 2) (.v 11)),  -- 6945
    .V 15 (.o2 .add16 (.v 27) (.v 28)),  -- 6947
    .V 16 (.o2 .add16 (.v 28) (.v 29)),  -- 6948
    .V 15 (.o2 .add16 (.v 15) (.v 16)),  -- 6949
    .V 15 (.o2 .add16 (.v 15) (.v 0)),  -- 6950
    .V 15 (.o1 (.srli16 2) (.v 15))  -- 6951
  ]

/-- `intra_pred_ang_xy_14_sse128`, vec/intrinsic_intra-pred.cc:6864-6954. -/
def xy14S_12 : Stmt :=
  .run [
    .V 11 (.o2 .packus16 (.v 11) (.v 15)),  -- 6953
    .st 16 (.add (.pv (.n 5)) (.v 4)) (.v 11),  -- 6954
    .I 4 (.add (.v 4) (.n 1)),  -- 6864
    .P (.n 0) (.add (.pv (.n 0)) (.n 1))
  ]

/-- `intra_pred_ang_xy_14_sse128`, vec/intrinsic_intra-pred.cc:6864. -/
def xy14S_13 : Stmt :=
  .loop (.lt (.v 4) (.v 5)) (.seq xy14S_9 (.seq xy14S_10 (.seq xy14S_11 xy14S_12)))

/-- `intra_pred_ang_xy_14_sse128`, vec/intrinsic_intra-pred.cc:6957-6964. -/
def xy14S_14 : Stmt :=
  .run [
    .P (.n 2) (.add (.pv (.n 2)) (.v 6)),  -- 6957
    .P (.n 3) (.add (.pv (.n 3)) (.v 6)),  -- 6958
    .P (.n 4) (.add (.pv (.n 4)) (.v 6)),  -- 6959
    .P (.n 5) (.add (.pv (.n 5)) (.v 6)),  -- 6960
    .I 3 (.shr (.v 3) 2),  -- 6962
    .I 4 (.n 0)  -- 6964
  ]

/-- `intra_pred_ang_xy_14_sse128`, vec/intrinsic_intra-pred.cc:6964-6972. -/
def xy14S_15 : Stmt :=
  .run [
    .cpy (.pv (.n 1)) (.sub (.pv (.n 2)) (.v 4)) (.mul (.v 2) (.n 1)),  -- 6965
    .P (.n 1) (.add (.pv (.n 1)) (.v 0)),  -- 6966
    .cpy (.pv (.n 1)) (.sub (.pv (.n 3)) (.v 4)) (.mul (.v 2) (.n 1)),  -- 6967
    .P (.n 1) (.add (.pv (.n 1)) (.v 0)),  -- 6968
    .cpy (.pv (.n 1)) (.sub (.pv (.n 4)) (.v 4)) (.mul (.v 2) (.n 1)),  -- 6969
    .P (.n 1) (.add (.pv (.n 1)) (.v 0)),  -- 6970
    .cpy (.pv (.n 1)) (.sub (.pv (.n 5)) (.v 4)) (.mul (.v 2) (.n 1)),  -- 6971
    .P (.n 1) (.add (.pv (.n 1)) (.v 0)),  -- 6972
    .I 4 (.add (.v 4) (.n 1))  -- 6964
  ]

/-- `intra_pred_ang_xy_14_sse128`, vec/intrinsic_intra-pred.cc:6964. -/
def xy14S_16 : Stmt :=
  .loop (.lt (.v 4) (.v 3)) xy14S_15

/-- `intra_pred_ang_xy_14_sse128`, vec/intrinsic_intra-pred.cc:6976-7005. -/
def xy14S_17 : Stmt :=
  .run [
    .P (.n 2) (.add (.pv (.n 1)) (.v 0)),  -- 6976
    .P (.n 3) (.add (.pv (.n 2)) (.v 0)),  -- 6977
    .P (.n 4) (.add (.pv (.n 3)) (.v 0)),  -- 6978
    .V 15 (.ld 16 (.sub (.pv (.n 0)) (.n 1))),  -- 6981
    .V 16 (.ld 16 (.add (.pv (.n 0)) (.n 2))),  -- 6982
    .V 17 (.ld 16 (.pv (.n 0))),  -- 6983
    .V 18 (.ld 16 (.add (.pv (.n 0)) (.n 1))),  -- 6984
    .V 19 (.o2 .unpacklo8 (.v 15) (.v 6)),  -- 6986
    .V 20 (.o2 .unpacklo8 (.v 17) (.v 6)),  -- 6987
    .V 21 (.o2 .unpacklo8 (.v 18) (.v 6)),  -- 6988
    .V 22 (.o2 .unpacklo8 (.v 16) (.v 6)),  -- 6989
    .V 23 (.o2 .unpackhi8 (.v 15) (.v 6)),  -- 6991
    .V 24 (.o2 .unpackhi8 (.v 17) (.v 6)),  -- 6992
    .V 25 (.o2 .unpackhi8 (.v 18) (.v 6)),  -- 6993
    .V 26 (.o2 .unpackhi8 (.v 16) (.v 6)),  -- 6994
    .V 7 (.o2 .mullo16 (.v 19) (.v 1)),  -- 6996
    .V 8 (.o2 .mullo16 (.v 20) (.v 4)),  -- 6997
    .V 9 (.o2 .mullo16 (.v 21) (.v 3)),  -- 6998
    .V 10 (.o2 .add16 (.v 22) (.v 5)),  -- 6999
    .V 7 (.o2 .add16 (.v 7) (.v 10)),  -- 7000
    .V 7 (.o2 .add16 (.v 7) (.v 8)),  -- 7001
    .V 7 (.o2 .add16 (.v 7) (.v 9)),  -- 7002
    .V 7 (.o1 (.srli16 4) (.v 7)),  -- 7003
    .V 11 (.o2 .mullo16 (.v 23) (.v 1))  -- 7005
  ]

/-- `intra_pred_ang_xy_14_sse128`, vec/intrinsic_intra-pred.cc:7006-7034. -/
def xy14S_18 : Stmt :=
  .run [
    .V 12 (.o2 .mullo16 (.v 24) (.v 4)),  -- 7006
    .V 13 (.o2 .mullo16 (.v 25) (.v 3)),  -- 7007
    .V 14 (.o2 .add16 (.v 26) (.v 5)),  -- 7008
    .V 11 (.o2 .add16 (.v 11) (.v 14)),  -- 7009
    .V 11 (.o2 .add16 (.v 11) (.v 12)),  -- 7010
    .V 11 (.o2 .add16 (.v 11) (.v 13)),  -- 7011
    .V 11 (.o1 (.srli16 4) (.v 11)),  -- 7012
    .V 7 (.o2 .packus16 (.v 7) (.v 11)),  -- 7014
    .st 16 (.pv (.n 3)) (.v 7),  -- 7015
    .V 7 (.o2 .add16 (.v 20) (.v 21)),  -- 7017
    .V 7 (.o2 .mullo16 (.v 7) (.v 1)),  -- 7018
    .V 8 (.o2 .add16 (.v 19) (.v 22)),  -- 7019
    .V 8 (.o2 .add16 (.v 8) (.v 2)),  -- 7020
    .V 7 (.o2 .add16 (.v 8) (.v 7)),  -- 7021
    .V 7 (.o1 (.srli16 3) (.v 7)),  -- 7022
    .V 11 (.o2 .add16 (.v 24) (.v 25)),  -- 7024
    .V 11 (.o2 .mullo16 (.v 11) (.v 1)),  -- 7025
    .V 12 (.o2 .add16 (.v 23) (.v 26)),  -- 7026
    .V 12 (.o2 .add16 (.v 12) (.v 2)),  -- 7027
    .V 11 (.o2 .add16 (.v 12) (.v 11)),  -- 7028
    .V 11 (.o1 (.srli16 3) (.v 11)),  -- 7029
    .V 7 (.o2 .packus16 (.v 7) (.v 11)),  -- 7031
    .st 16 (.pv (.n 2)) (.v 7),  -- 7032
    .V 8 (.o2 .mullo16 (.v 20) (.v 3))  -- 7034
  ]

/-- `intra_pred_ang_xy_14_sse128`, vec/intrinsic_intra-pred.cc:7035-7062. -/
def xy14S_19 : Stmt :=
  .run [
    .V 9 (.o2 .mullo16 (.v 21) (.v 4)),  -- 7035
    .V 10 (.o2 .mullo16 (.v 22) (.v 1)),  -- 7036
    .V 7 (.o2 .add16 (.v 19) (.v 5)),  -- 7037
    .V 7 (.o2 .add16 (.v 7) (.v 8)),  -- 7038
    .V 7 (.o2 .add16 (.v 7) (.v 9)),  -- 7039
    .V 7 (.o2 .add16 (.v 7) (.v 10)),  -- 7040
    .V 7 (.o1 (.srli16 4) (.v 7)),  -- 7041
    .V 12 (.o2 .mullo16 (.v 24) (.v 3)),  -- 7043
    .V 13 (.o2 .mullo16 (.v 25) (.v 4)),  -- 7044
    .V 14 (.o2 .mullo16 (.v 26) (.v 1)),  -- 7045
    .V 11 (.o2 .add16 (.v 23) (.v 5)),  -- 7046
    .V 11 (.o2 .add16 (.v 11) (.v 12)),  -- 7047
    .V 11 (.o2 .add16 (.v 11) (.v 13)),  -- 7048
    .V 11 (.o2 .add16 (.v 11) (.v 14)),  -- 7049
    .V 11 (.o1 (.srli16 4) (.v 11)),  -- 7050
    .V 7 (.o2 .packus16 (.v 7) (.v 11)),  -- 7052
    .st 16 (.pv (.n 1)) (.v 7),  -- 7053
    .V 7 (.o2 .add16 (.v 19) (.v 20)),  -- 7055
    .V 8 (.o2 .add16 (.v 20) (.v 21)),  -- 7056
    .V 7 (.o2 .add16 (.v 7) (.v 8)),  -- 7057
    .V 7 (.o2 .add16 (.v 7) (.v 0)),  -- 7058
    .V 7 (.o1 (.srli16 2) (.v 7)),  -- 7059
    .V 11 (.o2 .add16 (.v 23) (.v 24)),  -- 7061
    .V 12 (.o2 .add16 (.v 24) (.v 25))  -- 7062
  ]

/-- `intra_pred_ang_xy_14_sse128`, vec/intrinsic_intra-pred.cc:7063-7068. -/
def xy14S_20 : Stmt :=
  .run [
    .V 11 (.o2 .add16 (.v 11) (.v 12)),  -- 7063
    .V 11 (.o2 .add16 (.v 11) (.v 0)),  -- 7064
    .V 11 (.o1 (.srli16 2) (.v 11)),  -- 7065
    .V 7 (.o2 .packus16 (.v 7) (.v 11)),  -- 7067
    .st 16 (.pv (.n 4)) (.v 7)  -- 7068
  ]

/-- `intra_pred_ang_xy_14_sse128`, vec/intrinsic_intra-pred.cc:7070-7098. -/
def xy14S_21 : Stmt :=
  .run [
    .P (.n 2) (.add (.pv (.n 1)) (.v 0)),  -- 7070
    .P (.n 3) (.add (.pv (.n 2)) (.v 0)),  -- 7071
    .P (.n 4) (.add (.pv (.n 3)) (.v 0)),  -- 7072
    .V 11 (.ld 16 (.sub (.pv (.n 0)) (.n 1))),  -- 7074
    .V 12 (.ld 16 (.add (.pv (.n 0)) (.n 2))),  -- 7075
    .V 13 (.ld 16 (.pv (.n 0))),  -- 7076
    .V 14 (.ld 16 (.add (.pv (.n 0)) (.n 1))),  -- 7077
    .V 15 (.o2 .unpacklo8 (.v 11) (.v 6)),  -- 7079
    .V 16 (.o2 .unpacklo8 (.v 13) (.v 6)),  -- 7080
    .V 17 (.o2 .unpacklo8 (.v 14) (.v 6)),  -- 7081
    .V 18 (.o2 .unpacklo8 (.v 12) (.v 6)),  -- 7082
    .V 7 (.o2 .mullo16 (.v 15) (.v 1)),  -- 7084
    .V 8 (.o2 .mullo16 (.v 16) (.v 4)),  -- 7085
    .V 9 (.o2 .mullo16 (.v 17) (.v 3)),  -- 7086
    .V 10 (.o2 .add16 (.v 18) (.v 5)),  -- 7087
    .V 7 (.o2 .add16 (.v 7) (.v 10)),  -- 7088
    .V 7 (.o2 .add16 (.v 7) (.v 8)),  -- 7089
    .V 7 (.o2 .add16 (.v 7) (.v 9)),  -- 7090
    .V 7 (.o1 (.srli16 4) (.v 7)),  -- 7091
    .V 7 (.o2 .packus16 (.v 7) (.v 7)),  -- 7093
    .st 4 (.pv (.n 3)) (.v 7),  -- 7094
    .V 7 (.o2 .add16 (.v 16) (.v 17)),  -- 7096
    .V 7 (.o2 .mullo16 (.v 7) (.v 1)),  -- 7097
    .V 8 (.o2 .add16 (.v 15) (.v 18))  -- 7098
  ]

/-- `intra_pred_ang_xy_14_sse128`, vec/intrinsic_intra-pred.cc:7099-7125. -/
def xy14S_22 : Stmt :=
  .run [
    .V 8 (.o2 .add16 (.v 8) (.v 2)),  -- 7099
    .V 7 (.o2 .add16 (.v 8) (.v 7)),  -- 7100
    .V 7 (.o1 (.srli16 3) (.v 7)),  -- 7101
    .V 7 (.o2 .packus16 (.v 7) (.v 7)),  -- 7103
    .st 4 (.pv (.n 2)) (.v 7),  -- 7104
    .V 8 (.o2 .mullo16 (.v 16) (.v 3)),  -- 7106
    .V 9 (.o2 .mullo16 (.v 17) (.v 4)),  -- 7107
    .V 10 (.o2 .mullo16 (.v 18) (.v 1)),  -- 7108
    .V 7 (.o2 .add16 (.v 15) (.v 5)),  -- 7109
    .V 7 (.o2 .add16 (.v 7) (.v 8)),  -- 7110
    .V 7 (.o2 .add16 (.v 7) (.v 9)),  -- 7111
    .V 7 (.o2 .add16 (.v 7) (.v 10)),  -- 7112
    .V 7 (.o1 (.srli16 4) (.v 7)),  -- 7113
    .V 7 (.o2 .packus16 (.v 7) (.v 7)),  -- 7115
    .st 4 (.pv (.n 1)) (.v 7),  -- 7116
    .V 7 (.o2 .add16 (.v 15) (.v 16)),  -- 7118
    .V 8 (.o2 .add16 (.v 16) (.v 17)),  -- 7119
    .V 7 (.o2 .add16 (.v 7) (.v 8)),  -- 7120
    .V 7 (.o2 .add16 (.v 7) (.v 0)),  -- 7121
    .V 7 (.o1 (.srli16 2) (.v 7)),  -- 7122
    .V 7 (.o2 .packus16 (.v 7) (.v 7)),  -- 7124
    .st 4 (.pv (.n 4)) (.v 7)  -- 7125
  ]

/-- `intra_pred_ang_xy_14_sse128`, vec/intrinsic_intra-pred.cc:6975. -/
def xy14S_23 : Stmt :=
  .ite (.eq (.v 2) (.n 16)) (.seq xy14S_17 (.seq xy14S_18 (.seq xy14S_19 xy14S_20))) (.seq xy14S_21 xy14S_22)

/-- `intra_pred_ang_xy_14_sse128`, vec/intrinsic_intra-pred.cc:6774. -/
def xy14S_24 : Stmt :=
  .ite (.ne (.v 3) (.n 4)) (.seq xy14S_2 (.seq xy14S_5 (.seq xy14S_7 (.seq xy14S_8 (.seq xy14S_13 (.seq xy14S_14 xy14S_16)))))) xy14S_23

/-- `intra_pred_ang_xy_14_sse128`, source/common/vec/intrinsic_intra-pred.cc:6761-7128.  Variables:
I: 0 i_dst, 1 dir_mode, 2 bsx, 3 bsy, 4 i, 5 line_size, 6 left_size, 7 aligned_line_size;
P: 0 src, 1 dst, 2 pfirst/dst2, 3 dst3, 4 dst4, 6 pSrc1;
V: 0 coeff2, 1 coeff3, 2 coeff4, 3 coeff5, 4 coeff7, 5 coeff8, 6 zero, 7 shuffle1/p00, 8 shuffle2/p10, 9 shuffle3/p20, 10 shuffle4/p30, 11 p00/p01/S0, 12 p01/p10/p11/S3, 13 p10/p20/p21/S1, 14 p11/p20/p30/p31/S2, 15 p20/p30/p01/S0/L0, 16 p30/S0/p11/S3/L1, 17 S0/S2/p21/S1/L2, 18 S2/S1/p31/L3, 19 S1/L0/S0, 20 L0/L1/S3, 21 L1/L2/S1, 22 L2/S2/L3, 23 H0/L0, 24 H1/L1, 25 H2/L2, 26 L3/H3, 27 H0, 28 H1, 29 H2, 30 H3. -/
def xy14S : Stmt :=
  .seq xy14S_1 xy14S_24

/-- `intra_pred_ang_xy_16_sse128`, vec/intrinsic_intra-pred.cc:7135-7158. -/
def xy16S_1 : Stmt :=
  .run [
    .alloc 0 224,  -- 7135
    .I 4 (.sub (.add (.v 2) (.div (.v 3) (.n 2))) (.n 1)),  -- 7136
    .I 5 (.sub (.v 4) (.v 2)),  -- 7137
    .I 6 (.shl (.shr (.add (.v 4) (.n 31)) 4) 4),  -- 7138
    .V 0 .zero,  -- 7140
    .V 1 (.set1_16 (.n 2)),  -- 7141
    .V 2 (.set1_16 (.n 3)),  -- 7142
    .V 3 (.set1_16 (.n 4)),  -- 7143
    .V 4 (.setr8 [0, 2, 4, 6, 8, 10, 12, 14, 1, 3, 5, 7, 9, 11, 13, 15]),  -- 7144
    .V 5 (.setr8 [1, 3, 5, 7, 9, 11, 13, 15, 0, 2, 4, 6, 8, 10, 12, 14]),  -- 7145
    .P (.n 2) (.pa 0),  -- 7151
    .P (.n 3) (.add (.pa 0) (.v 6)),  -- 7152
    .P (.n 0) (.sub (.pv (.n 0)) (.sub (.v 3) (.n 2))),  -- 7154
    .P (.n 4) (.pv (.n 0)),  -- 7156
    .I 7 (.n 0)  -- 7158
  ]

/-- `intra_pred_ang_xy_16_sse128`, vec/intrinsic_intra-pred.cc:7160-7190. -/
def xy16S_2 : Stmt :=
  .run [
    .V 10 (.ld 16 (.sub (.pv (.n 0)) (.n 1))),  -- 7160
    .V 11 (.ld 16 (.add (.pv (.n 0)) (.n 1))),  -- 7161
    .V 12 (.ld 16 (.pv (.n 0))),  -- 7162
    .V 13 (.o2 .unpacklo8 (.v 10) (.v 0)),  -- 7164
    .V 14 (.o2 .unpacklo8 (.v 12) (.v 0)),  -- 7165
    .V 15 (.o2 .unpacklo8 (.v 11) (.v 0)),  -- 7166
    .V 16 (.o2 .unpackhi8 (.v 10) (.v 0)),  -- 7168
    .V 17 (.o2 .unpackhi8 (.v 12) (.v 0)),  -- 7169
    .V 18 (.o2 .unpackhi8 (.v 11) (.v 0)),  -- 7170
    .V 6 (.o2 .add16 (.v 13) (.v 14)),  -- 7172
    .V 7 (.o2 .add16 (.v 14) (.v 15)),  -- 7173
    .V 8 (.o2 .add16 (.v 16) (.v 17)),  -- 7174
    .V 9 (.o2 .add16 (.v 17) (.v 18)),  -- 7175
    .V 6 (.o2 .add16 (.v 6) (.v 1)),  -- 7177
    .V 8 (.o2 .add16 (.v 8) (.v 1)),  -- 7178
    .V 6 (.o2 .add16 (.v 6) (.v 7)),  -- 7180
    .V 8 (.o2 .add16 (.v 8) (.v 9)),  -- 7181
    .V 6 (.o1 (.srli16 2) (.v 6)),  -- 7183
    .V 8 (.o1 (.srli16 2) (.v 8)),  -- 7184
    .V 6 (.o2 .packus16 (.v 6) (.v 8)),  -- 7185
    .V 8 (.o2 .shuffle8 (.v 6) (.v 5)),  -- 7187
    .V 6 (.o2 .shuffle8 (.v 6) (.v 4)),  -- 7188
    .st 8 (.add (.pv (.n 3)) (.v 7)) (.v 6),  -- 7189
    .st 8 (.add (.pv (.n 2)) (.v 7)) (.v 8)  -- 7190
  ]

/-- `intra_pred_ang_xy_16_sse128`, vec/intrinsic_intra-pred.cc:7158. -/
def xy16S_3 : Stmt :=
  .run [
    .I 7 (.add (.v 7) (.n 8)),  -- 7158
    .P (.n 0) (.add (.pv (.n 0)) (.n 16))
  ]

/-- `intra_pred_ang_xy_16_sse128`, vec/intrinsic_intra-pred.cc:7158. -/
def xy16S_4 : Stmt :=
  .loop (.lt (.v 7) (.sub (.v 5) (.n 4))) (.seq xy16S_2 xy16S_3)

/-- `intra_pred_ang_xy_16_sse128`, vec/intrinsic_intra-pred.cc:7195-7213. -/
def xy16S_5 : Stmt :=
  .run [
    .V 8 (.ld 16 (.sub (.pv (.n 0)) (.n 1))),  -- 7195
    .V 9 (.ld 16 (.add (.pv (.n 0)) (.n 1))),  -- 7196
    .V 10 (.ld 16 (.pv (.n 0))),  -- 7197
    .V 11 (.o2 .unpacklo8 (.v 8) (.v 0)),  -- 7199
    .V 12 (.o2 .unpacklo8 (.v 10) (.v 0)),  -- 7200
    .V 13 (.o2 .unpacklo8 (.v 9) (.v 0)),  -- 7201
    .V 6 (.o2 .add16 (.v 11) (.v 12)),  -- 7203
    .V 7 (.o2 .add16 (.v 12) (.v 13)),  -- 7204
    .V 6 (.o2 .add16 (.v 6) (.v 1)),  -- 7205
    .V 6 (.o2 .add16 (.v 6) (.v 7)),  -- 7206
    .V 6 (.o1 (.srli16 2) (.v 6)),  -- 7207
    .V 6 (.o2 .packus16 (.v 6) (.v 6)),  -- 7208
    .V 7 (.o2 .shuffle8 (.v 6) (.v 5)),  -- 7210
    .V 6 (.o2 .shuffle8 (.v 6) (.v 4)),  -- 7211
    .st 4 (.add (.pv (.n 3)) (.v 7)) (.v 6),  -- 7212
    .st 4 (.add (.pv (.n 2)) (.v 7)) (.v 7)  -- 7213
  ]

/-- `intra_pred_ang_xy_16_sse128`, vec/intrinsic_intra-pred.cc:7193. -/
def xy16S_6 : Stmt :=
  .ite (.lt (.v 7) (.v 5)) xy16S_5 (.run [])

/-- `intra_pred_ang_xy_16_sse128`, vec/intrinsic_intra-pred.cc:7216-7218. -/
def xy16S_7 : Stmt :=
  .run [
    .P (.n 0) (.add (.add (.pv (.n 4)) (.v 5)) (.v 5)),  -- 7216
    .I 7 (.v 5)  -- 7218
  ]

/-- `intra_pred_ang_xy_16_sse128`, vec/intrinsic_intra-pred.cc:7220-7248. -/
def xy16S_8 : Stmt :=
  .run [
    .V 10 (.ld 16 (.sub (.pv (.n 0)) (.n 1))),  -- 7220
    .V 11 (.ld 16 (.add (.pv (.n 0)) (.n 2))),  -- 7221
    .V 12 (.ld 16 (.pv (.n 0))),  -- 7222
    .V 13 (.ld 16 (.add (.pv (.n 0)) (.n 1))),  -- 7223
    .V 14 (.o2 .unpacklo8 (.v 10) (.v 0)),  -- 7225
    .V 15 (.o2 .unpacklo8 (.v 12) (.v 0)),  -- 7226
    .V 16 (.o2 .unpacklo8 (.v 13) (.v 0)),  -- 7227
    .V 17 (.o2 .unpacklo8 (.v 11) (.v 0)),  -- 7228
    .V 18 (.o2 .unpackhi8 (.v 10) (.v 0)),  -- 7230
    .V 19 (.o2 .unpackhi8 (.v 12) (.v 0)),  -- 7231
    .V 20 (.o2 .unpackhi8 (.v 13) (.v 0)),  -- 7232
    .V 21 (.o2 .unpackhi8 (.v 11) (.v 0)),  -- 7233
    .V 6 (.o2 .add16 (.v 15) (.v 16)),  -- 7235
    .V 8 (.o2 .add16 (.v 19) (.v 20)),  -- 7236
    .V 6 (.o2 .mullo16 (.v 6) (.v 2)),  -- 7237
    .V 8 (.o2 .mullo16 (.v 8) (.v 2)),  -- 7238
    .V 7 (.o2 .add16 (.v 14) (.v 17)),  -- 7240
    .V 9 (.o2 .add16 (.v 18) (.v 21)),  -- 7241
    .V 6 (.o2 .add16 (.v 6) (.v 3)),  -- 7242
    .V 8 (.o2 .add16 (.v 8) (.v 3)),  -- 7243
    .V 6 (.o2 .add16 (.v 6) (.v 7)),  -- 7244
    .V 8 (.o2 .add16 (.v 8) (.v 9)),  -- 7245
    .V 6 (.o1 (.srli16 3) (.v 6)),  -- 7247
    .V 8 (.o1 (.srli16 3) (.v 8))  -- 7248
  ]

/-- `intra_pred_ang_xy_16_sse128`, vec/intrinsic_intra-pred.cc:7218-7268. -/
def xy16S_9 : Stmt :=
  .run [
    .V 6 (.o2 .packus16 (.v 6) (.v 8)),  -- 7250
    .st 16 (.add (.pv (.n 2)) (.v 7)) (.v 6),  -- 7251
    .V 6 (.o2 .add16 (.v 14) (.v 15)),  -- 7253
    .V 7 (.o2 .add16 (.v 15) (.v 16)),  -- 7254
    .V 8 (.o2 .add16 (.v 18) (.v 19)),  -- 7255
    .V 9 (.o2 .add16 (.v 19) (.v 20)),  -- 7256
    .V 6 (.o2 .add16 (.v 6) (.v 1)),  -- 7258
    .V 8 (.o2 .add16 (.v 8) (.v 1)),  -- 7259
    .V 6 (.o2 .add16 (.v 6) (.v 7)),  -- 7261
    .V 8 (.o2 .add16 (.v 8) (.v 9)),  -- 7262
    .V 6 (.o1 (.srli16 2) (.v 6)),  -- 7264
    .V 8 (.o1 (.srli16 2) (.v 8)),  -- 7265
    .V 6 (.o2 .packus16 (.v 6) (.v 8)),  -- 7267
    .st 16 (.add (.pv (.n 3)) (.v 7)) (.v 6),  -- 7268
    .I 7 (.add (.v 7) (.n 16)),  -- 7218
    .P (.n 0) (.add (.pv (.n 0)) (.n 16))
  ]

/-- `intra_pred_ang_xy_16_sse128`, vec/intrinsic_intra-pred.cc:7218. -/
def xy16S_10 : Stmt :=
  .loop (.lt (.v 7) (.v 4)) (.seq xy16S_8 xy16S_9)

/-- `intra_pred_ang_xy_16_sse128`, vec/intrinsic_intra-pred.cc:7271-7274. -/
def xy16S_11 : Stmt :=
  .run [
    .P (.n 2) (.add (.pv (.n 2)) (.v 5)),  -- 7271
    .P (.n 3) (.add (.pv (.n 3)) (.v 5)),  -- 7272
    .I 3 (.shr (.v 3) 1)  -- 7274
  ]

/-- `intra_pred_ang_xy_16_sse128`, vec/intrinsic_intra-pred.cc:7278. -/
def xy16S_12 : Stmt :=
  .run [
    .I 7 (.n 0)  -- 7278
  ]

/-- `intra_pred_ang_xy_16_sse128`, vec/intrinsic_intra-pred.cc:7278-7281. -/
def xy16S_13 : Stmt :=
  .run [
    .cpy (.pv (.n 1)) (.sub (.pv (.n 2)) (.v 7)) (.n 4),  -- 7279
    .cpy (.add (.pv (.n 1)) (.v 0)) (.sub (.pv (.n 3)) (.v 7)) (.n 4),  -- 7280
    .P (.n 1) (.add (.pv (.n 1)) (.shl (.v 0) 1)),  -- 7281
    .I 7 (.add (.v 7) (.n 1))  -- 7278
  ]

/-- `intra_pred_ang_xy_16_sse128`, vec/intrinsic_intra-pred.cc:7278. -/
def xy16S_14 : Stmt :=
  .loop (.lt (.v 7) (.v 3)) xy16S_13

/-- `intra_pred_ang_xy_16_sse128`, vec/intrinsic_intra-pred.cc:7285. -/
def xy16S_15 : Stmt :=
  .run [
    .I 7 (.n 0)  -- 7285
  ]

/-- `intra_pred_ang_xy_16_sse128`, vec/intrinsic_intra-pred.cc:7285-7288. -/
def xy16S_16 : Stmt :=
  .run [
    .cpy (.pv (.n 1)) (.sub (.pv (.n 2)) (.v 7)) (.n 8),  -- 7286
    .cpy (.add (.pv (.n 1)) (.v 0)) (.sub (.pv (.n 3)) (.v 7)) (.n 8),  -- 7287
    .P (.n 1) (.add (.pv (.n 1)) (.shl (.v 0) 1)),  -- 7288
    .I 7 (.add (.v 7) (.n 1))  -- 7285
  ]

/-- `intra_pred_ang_xy_16_sse128`, vec/intrinsic_intra-pred.cc:7285. -/
def xy16S_17 : Stmt :=
  .loop (.lt (.v 7) (.v 3)) xy16S_16

/-- `intra_pred_ang_xy_16_sse128`, vec/intrinsic_intra-pred.cc:7292. -/
def xy16S_18 : Stmt :=
  .run [
    .I 7 (.n 0)  -- 7292
  ]

/-- `intra_pred_ang_xy_16_sse128`, vec/intrinsic_intra-pred.cc:7292-7295. -/
def xy16S_19 : Stmt :=
  .run [
    .cpy (.pv (.n 1)) (.sub (.pv (.n 2)) (.v 7)) (.mul (.v 2) (.n 1)),  -- 7293
    .cpy (.add (.pv (.n 1)) (.v 0)) (.sub (.pv (.n 3)) (.v 7)) (.mul (.v 2) (.n 1)),  -- 7294
    .P (.n 1) (.add (.pv (.n 1)) (.shl (.v 0) 1)),  -- 7295
    .I 7 (.add (.v 7) (.n 1))  -- 7292
  ]

/-- `intra_pred_ang_xy_16_sse128`, vec/intrinsic_intra-pred.cc:7292. -/
def xy16S_20 : Stmt :=
  .loop (.lt (.v 7) (.v 3)) xy16S_19

/-- `intra_pred_ang_xy_16_sse128`, vec/intrinsic_intra-pred.cc:7276. -/
def xy16S_21 : Stmt :=
  .ite (.eq (.v 2) (.n 8)) (.seq xy16S_15 xy16S_17) (.seq xy16S_18 xy16S_20)

/-- `intra_pred_ang_xy_16_sse128`, vec/intrinsic_intra-pred.cc:7276. -/
def xy16S_22 : Stmt :=
  .ite (.eq (.v 2) (.n 4)) (.seq xy16S_12 xy16S_14) xy16S_21

/-- `intra_pred_ang_xy_16_sse128`, source/common/vec/intrinsic_intra-pred.cc:7133-7299.  Variables:
I: 0 i_dst, 1 dir_mode, 2 bsx, 3 bsy, 4 line_size, 5 left_size, 6 aligned_line_size, 7 i;
P: 0 src, 1 dst, 2 pfirst, 4 pSrc1;
V: 0 zero, 1 coeff2, 2 coeff3, 3 coeff4, 4 shuffle1, 5 shuffle2, 6 p00, 7 p01, 8 p10/S0, 9 p11/S2, 10 S0/S1, 11 S2/L0/S3, 12 S1/L1, 13 L0/L2/S2, 14 L1/L0, 15 L2/L1, 16 H0/L2, 17 H1/L3, 18 H2/H0, 19 H1, 20 H2, 21 H3. -/
def xy16S : Stmt :=
  .seq xy16S_1 (.seq xy16S_4 (.seq xy16S_6 (.seq xy16S_7 (.seq xy16S_10 (.seq xy16S_11 xy16S_22)))))

/-- `intra_pred_ang_xy_18_sse128`, vec/intrinsic_intra-pred.cc:7305-7316. -/
def xy18S_1 : Stmt :=
  .run [
    .alloc 0 128,  -- 7305
    .I 4 (.sub (.add (.v 2) (.v 3)) (.n 1)),  -- 7306
    .P (.n 2) (.sub (.add (.pa 0) (.v 3)) (.n 1)),  -- 7308
    .V 0 (.set1_16 (.n 2)),  -- 7309
    .V 1 .zero,  -- 7310
    .P (.n 0) (.sub (.pv (.n 0)) (.sub (.v 3) (.n 1))),  -- 7314
    .I 5 (.n 0)  -- 7316
  ]

/-- `intra_pred_ang_xy_18_sse128`, vec/intrinsic_intra-pred.cc:7316-7345. -/
def xy18S_2 : Stmt :=
  .run [
    .V 2 (.ld 16 (.sub (.pv (.n 0)) (.n 1))),  -- 7317
    .V 3 (.ld 16 (.add (.pv (.n 0)) (.n 1))),  -- 7318
    .V 4 (.ld 16 (.pv (.n 0))),  -- 7319
    .V 5 (.o2 .unpacklo8 (.v 2) (.v 1)),  -- 7321
    .V 6 (.o2 .unpacklo8 (.v 4) (.v 1)),  -- 7322
    .V 7 (.o2 .unpacklo8 (.v 3) (.v 1)),  -- 7323
    .V 8 (.o2 .unpackhi8 (.v 2) (.v 1)),  -- 7325
    .V 9 (.o2 .unpackhi8 (.v 4) (.v 1)),  -- 7326
    .V 10 (.o2 .unpackhi8 (.v 3) (.v 1)),  -- 7327
    .V 11 (.o2 .add16 (.v 5) (.v 6)),  -- 7329
    .V 12 (.o2 .add16 (.v 6) (.v 7)),  -- 7330
    .V 13 (.o2 .add16 (.v 8) (.v 9)),  -- 7331
    .V 14 (.o2 .add16 (.v 9) (.v 10)),  -- 7332
    .V 11 (.o2 .add16 (.v 11) (.v 12)),  -- 7334
    .V 13 (.o2 .add16 (.v 13) (.v 14)),  -- 7335
    .V 11 (.o2 .add16 (.v 11) (.v 0)),  -- 7337
    .V 13 (.o2 .add16 (.v 13) (.v 0)),  -- 7338
    .V 11 (.o1 (.srli16 2) (.v 11)),  -- 7340
    .V 13 (.o1 (.srli16 2) (.v 13)),  -- 7341
    .V 11 (.o2 .packus16 (.v 11) (.v 13)),  -- 7343
    .st 16 (.add (.pa 0) (.v 5)) (.v 11),  -- 7345
    .I 5 (.add (.v 5) (.n 16)),  -- 7316
    .P (.n 0) (.add (.pv (.n 0)) (.n 16))
  ]

/-- `intra_pred_ang_xy_18_sse128`, vec/intrinsic_intra-pred.cc:7316. -/
def xy18S_3 : Stmt :=
  .loop (.lt (.v 5) (.sub (.v 4) (.n 8))) xy18S_2

/-- `intra_pred_ang_xy_18_sse128`, vec/intrinsic_intra-pred.cc:7349-7365. -/
def xy18S_4 : Stmt :=
  .run [
    .V 2 (.ld 16 (.sub (.pv (.n 0)) (.n 1))),  -- 7349
    .V 3 (.ld 16 (.add (.pv (.n 0)) (.n 1))),  -- 7350
    .V 4 (.ld 16 (.pv (.n 0))),  -- 7351
    .V 5 (.o2 .unpacklo8 (.v 2) (.v 1)),  -- 7353
    .V 6 (.o2 .unpacklo8 (.v 4) (.v 1)),  -- 7354
    .V 7 (.o2 .unpacklo8 (.v 3) (.v 1)),  -- 7355
    .V 8 (.o2 .add16 (.v 5) (.v 6)),  -- 7357
    .V 9 (.o2 .add16 (.v 6) (.v 7)),  -- 7358
    .V 8 (.o2 .add16 (.v 8) (.v 9)),  -- 7360
    .V 8 (.o2 .add16 (.v 8) (.v 0)),  -- 7361
    .V 8 (.o1 (.srli16 2) (.v 8)),  -- 7362
    .V 8 (.o2 .packus16 (.v 8) (.v 8)),  -- 7364
    .st 8 (.add (.pa 0) (.v 5)) (.v 8)  -- 7365
  ]

/-- `intra_pred_ang_xy_18_sse128`, vec/intrinsic_intra-pred.cc:7348. -/
def xy18S_5 : Stmt :=
  .ite (.lt (.v 5) (.v 4)) xy18S_4 (.run [])

/-- `intra_pred_ang_xy_18_sse128`, vec/intrinsic_intra-pred.cc:7370. -/
def xy18S_6 : Stmt :=
  .run [
    .I 5 (.n 0)  -- 7370
  ]

/-- `intra_pred_ang_xy_18_sse128`, vec/intrinsic_intra-pred.cc:7370-7372. -/
def xy18S_7 : Stmt :=
  .run [
    .cpy (.pv (.n 1)) (.pv (.n 2)) (.n 4),  -- 7371
    .P (.n 2) (.sub (.pv (.n 2)) (.n 1)),
    .P (.n 1) (.add (.pv (.n 1)) (.v 0)),  -- 7372
    .I 5 (.add (.v 5) (.n 1))  -- 7370
  ]

/-- `intra_pred_ang_xy_18_sse128`, vec/intrinsic_intra-pred.cc:7370. -/
def xy18S_8 : Stmt :=
  .loop (.lt (.v 5) (.v 3)) xy18S_7

/-- `intra_pred_ang_xy_18_sse128`, vec/intrinsic_intra-pred.cc:7376. -/
def xy18S_9 : Stmt :=
  .run [
    .I 5 (.n 0)  -- 7376
  ]

/-- `intra_pred_ang_xy_18_sse128`, vec/intrinsic_intra-pred.cc:7376-7378. -/
def xy18S_10 : Stmt :=
  .run [
    .cpy (.pv (.n 1)) (.pv (.n 2)) (.n 8),  -- 7377
    .P (.n 2) (.sub (.pv (.n 2)) (.n 1)),
    .P (.n 1) (.add (.pv (.n 1)) (.v 0)),  -- 7378
    .I 5 (.add (.v 5) (.n 1))  -- 7376
  ]

/-- `intra_pred_ang_xy_18_sse128`, vec/intrinsic_intra-pred.cc:7376. -/
def xy18S_11 : Stmt :=
  .loop (.lt (.v 5) (.v 3)) xy18S_10

/-- `intra_pred_ang_xy_18_sse128`, vec/intrinsic_intra-pred.cc:7382. -/
def xy18S_12 : Stmt :=
  .run [
    .I 5 (.n 0)  -- 7382
  ]

/-- `intra_pred_ang_xy_18_sse128`, vec/intrinsic_intra-pred.cc:7382-7384. -/
def xy18S_13 : Stmt :=
  .run [
    .cpy (.pv (.n 1)) (.pv (.n 2)) (.mul (.v 2) (.n 1)),  -- 7383
    .P (.n 2) (.sub (.pv (.n 2)) (.n 1)),
    .P (.n 1) (.add (.pv (.n 1)) (.v 0)),  -- 7384
    .I 5 (.add (.v 5) (.n 1))  -- 7382
  ]

/-- `intra_pred_ang_xy_18_sse128`, vec/intrinsic_intra-pred.cc:7382. -/
def xy18S_14 : Stmt :=
  .loop (.lt (.v 5) (.v 3)) xy18S_13

/-- `intra_pred_ang_xy_18_sse128`, vec/intrinsic_intra-pred.cc:7368. -/
def xy18S_15 : Stmt :=
  .ite (.eq (.v 2) (.n 8)) (.seq xy18S_9 xy18S_11) (.seq xy18S_12 xy18S_14)

/-- `intra_pred_ang_xy_18_sse128`, vec/intrinsic_intra-pred.cc:7368. -/
def xy18S_16 : Stmt :=
  .ite (.eq (.v 2) (.n 4)) (.seq xy18S_6 xy18S_8) xy18S_15

/-- `intra_pred_ang_xy_18_sse128`, source/common/vec/intrinsic_intra-pred.cc:7303-7389.  Variables:
I: 0 i_dst, 1 dir_mode, 2 bsx, 3 bsy, 4 line_size, 5 i;
P: 0 src, 1 dst, 2 pfirst;
V: 0 coeff2, 1 zero, 2 S0, 3 S2, 4 S1, 5 L0, 6 L1, 7 L2, 8 H0/sum1, 9 H1/sum2, 10 H2, 11 sum1, 12 sum2, 13 sum3, 14 sum4. -/
def xy18S : Stmt :=
  .seq xy18S_1 (.seq xy18S_3 (.seq xy18S_5 xy18S_16))

/-- `intra_pred_ang_xy_20_sse128`, vec/intrinsic_intra-pred.cc:7396-7413. -/
def xy20S_1 : Stmt :=
  .run [
    .alloc 0 192,  -- 7396
    .I 4 (.add (.mul (.sub (.v 3) (.n 1)) (.n 2)) (.n 1)),  -- 7397
    .I 5 (.sub (.v 2) (.n 1)),  -- 7398
    .I 6 (.add (.v 4) (.v 5)),  -- 7399
    .P (.n 2) (.sub (.add (.pa 0) (.v 4)) (.n 1)),  -- 7401
    .V 0 .zero,  -- 7402
    .V 1 (.set1_16 (.n 2)),  -- 7403
    .V 2 (.set1_16 (.n 3)),  -- 7404
    .V 3 (.set1_16 (.n 4)),  -- 7405
    .V 4 (.setr8 [0, 8, 1, 9, 2, 10, 3, 11, 4, 12, 5, 13, 6, 14, 7, 15]),  -- 7406
    .P (.n 3) (.pv (.n 0)),  -- 7407
    .P (.n 0) (.sub (.pv (.n 0)) (.v 3)),  -- 7411
    .I 7 (.n 0)  -- 7413
  ]

/-- `intra_pred_ang_xy_20_sse128`, vec/intrinsic_intra-pred.cc:7416-7444. -/
def xy20S_2 : Stmt :=
  .run [
    .V 13 (.ld 16 (.sub (.pv (.n 0)) (.n 1))),  -- 7416
    .V 14 (.ld 16 (.add (.pv (.n 0)) (.n 2))),  -- 7417
    .V 15 (.ld 16 (.add (.pv (.n 0)) (.n 1))),  -- 7418
    .V 16 (.ld 16 (.pv (.n 0))),  -- 7419
    .V 17 (.o2 .unpacklo8 (.v 13) (.v 0)),  -- 7421
    .V 18 (.o2 .unpacklo8 (.v 16) (.v 0)),  -- 7422
    .V 19 (.o2 .unpacklo8 (.v 15) (.v 0)),  -- 7423
    .V 20 (.o2 .unpacklo8 (.v 14) (.v 0)),  -- 7424
    .V 21 (.o2 .unpackhi8 (.v 13) (.v 0)),  -- 7426
    .V 22 (.o2 .unpackhi8 (.v 16) (.v 0)),  -- 7427
    .V 23 (.o2 .unpackhi8 (.v 15) (.v 0)),  -- 7428
    .V 24 (.o2 .unpackhi8 (.v 14) (.v 0)),  -- 7429
    .V 5 (.o2 .add16 (.v 18) (.v 19)),  -- 7431
    .V 7 (.o2 .add16 (.v 22) (.v 23)),  -- 7432
    .V 5 (.o2 .mullo16 (.v 5) (.v 2)),  -- 7433
    .V 7 (.o2 .mullo16 (.v 7) (.v 2)),  -- 7434
    .V 6 (.o2 .add16 (.v 17) (.v 20)),  -- 7436
    .V 8 (.o2 .add16 (.v 21) (.v 24)),  -- 7437
    .V 5 (.o2 .add16 (.v 5) (.v 3)),  -- 7438
    .V 7 (.o2 .add16 (.v 7) (.v 3)),  -- 7439
    .V 5 (.o2 .add16 (.v 5) (.v 6)),  -- 7440
    .V 7 (.o2 .add16 (.v 7) (.v 8)),  -- 7441
    .V 5 (.o1 (.srli16 3) (.v 5)),  -- 7443
    .V 7 (.o1 (.srli16 3) (.v 7))  -- 7444
  ]

/-- `intra_pred_ang_xy_20_sse128`, vec/intrinsic_intra-pred.cc:7413-7464. -/
def xy20S_3 : Stmt :=
  .run [
    .V 9 (.o2 .add16 (.v 18) (.v 19)),  -- 7446
    .V 11 (.o2 .add16 (.v 22) (.v 23)),  -- 7447
    .V 10 (.o2 .add16 (.v 19) (.v 20)),  -- 7448
    .V 12 (.o2 .add16 (.v 23) (.v 24)),  -- 7449
    .V 9 (.o2 .add16 (.v 9) (.v 1)),  -- 7450
    .V 11 (.o2 .add16 (.v 11) (.v 1)),  -- 7451
    .V 9 (.o2 .add16 (.v 9) (.v 10)),  -- 7452
    .V 11 (.o2 .add16 (.v 11) (.v 12)),  -- 7453
    .V 9 (.o1 (.srli16 2) (.v 9)),  -- 7455
    .V 11 (.o1 (.srli16 2) (.v 11)),  -- 7456
    .V 5 (.o2 .packus16 (.v 5) (.v 9)),  -- 7458
    .V 7 (.o2 .packus16 (.v 7) (.v 11)),  -- 7459
    .V 5 (.o2 .shuffle8 (.v 5) (.v 4)),  -- 7461
    .V 7 (.o2 .shuffle8 (.v 7) (.v 4)),  -- 7462
    .st 16 (.add (.pa 0) (.v 7)) (.v 5),  -- 7463
    .st 16 (.add (.pa 0) (.add (.v 7) (.n 16))) (.v 7),  -- 7464
    .I 7 (.add (.v 7) (.n 32)),  -- 7413
    .P (.n 0) (.add (.pv (.n 0)) (.n 16))
  ]

/-- `intra_pred_ang_xy_20_sse128`, vec/intrinsic_intra-pred.cc:7413. -/
def xy20S_4 : Stmt :=
  .loop (.lt (.v 7) (.sub (.v 4) (.n 16))) (.seq xy20S_2 xy20S_3)

/-- `intra_pred_ang_xy_20_sse128`, vec/intrinsic_intra-pred.cc:7470-7499. -/
def xy20S_5 : Stmt :=
  .run [
    .V 9 (.ld 16 (.sub (.pv (.n 0)) (.n 1))),  -- 7470
    .V 10 (.ld 16 (.add (.pv (.n 0)) (.n 2))),  -- 7471
    .V 11 (.ld 16 (.add (.pv (.n 0)) (.n 1))),  -- 7472
    .V 12 (.ld 16 (.pv (.n 0))),  -- 7473
    .V 13 (.o2 .unpacklo8 (.v 9) (.v 0)),  -- 7475
    .V 14 (.o2 .unpacklo8 (.v 12) (.v 0)),  -- 7476
    .V 15 (.o2 .unpacklo8 (.v 11) (.v 0)),  -- 7477
    .V 16 (.o2 .unpacklo8 (.v 10) (.v 0)),  -- 7478
    .V 5 (.o2 .add16 (.v 14) (.v 15)),  -- 7480
    .V 5 (.o2 .mullo16 (.v 5) (.v 2)),  -- 7481
    .V 6 (.o2 .add16 (.v 13) (.v 16)),  -- 7483
    .V 5 (.o2 .add16 (.v 5) (.v 3)),  -- 7484
    .V 5 (.o2 .add16 (.v 5) (.v 6)),  -- 7485
    .V 5 (.o1 (.srli16 3) (.v 5)),  -- 7487
    .V 7 (.o2 .add16 (.v 14) (.v 15)),  -- 7489
    .V 8 (.o2 .add16 (.v 15) (.v 16)),  -- 7490
    .V 7 (.o2 .add16 (.v 7) (.v 1)),  -- 7491
    .V 7 (.o2 .add16 (.v 7) (.v 8)),  -- 7492
    .V 7 (.o1 (.srli16 2) (.v 7)),  -- 7494
    .V 5 (.o2 .packus16 (.v 5) (.v 7)),  -- 7496
    .V 5 (.o2 .shuffle8 (.v 5) (.v 4)),  -- 7498
    .st 16 (.add (.pa 0) (.v 7)) (.v 5)  -- 7499
  ]

/-- `intra_pred_ang_xy_20_sse128`, vec/intrinsic_intra-pred.cc:7467. -/
def xy20S_6 : Stmt :=
  .ite (.lt (.v 7) (.v 4)) xy20S_5 (.run [])

/-- `intra_pred_ang_xy_20_sse128`, vec/intrinsic_intra-pred.cc:7502-7504. -/
def xy20S_7 : Stmt :=
  .run [
    .P (.n 0) (.pv (.n 3)),  -- 7502
    .I 7 (.v 4)  -- 7504
  ]

/-- `intra_pred_ang_xy_20_sse128`, vec/intrinsic_intra-pred.cc:7504-7533. -/
def xy20S_8 : Stmt :=
  .run [
    .V 5 (.ld 16 (.sub (.pv (.n 0)) (.n 1))),  -- 7505
    .V 6 (.ld 16 (.add (.pv (.n 0)) (.n 1))),  -- 7506
    .V 7 (.ld 16 (.pv (.n 0))),  -- 7507
    .V 8 (.o2 .unpacklo8 (.v 5) (.v 0)),  -- 7509
    .V 9 (.o2 .unpacklo8 (.v 7) (.v 0)),  -- 7510
    .V 10 (.o2 .unpacklo8 (.v 6) (.v 0)),  -- 7511
    .V 11 (.o2 .unpackhi8 (.v 5) (.v 0)),  -- 7513
    .V 12 (.o2 .unpackhi8 (.v 7) (.v 0)),  -- 7514
    .V 13 (.o2 .unpackhi8 (.v 6) (.v 0)),  -- 7515
    .V 14 (.o2 .add16 (.v 8) (.v 9)),  -- 7517
    .V 15 (.o2 .add16 (.v 9) (.v 10)),  -- 7518
    .V 16 (.o2 .add16 (.v 11) (.v 12)),  -- 7519
    .V 17 (.o2 .add16 (.v 12) (.v 13)),  -- 7520
    .V 14 (.o2 .add16 (.v 14) (.v 15)),  -- 7522
    .V 16 (.o2 .add16 (.v 16) (.v 17)),  -- 7523
    .V 14 (.o2 .add16 (.v 14) (.v 1)),  -- 7525
    .V 16 (.o2 .add16 (.v 16) (.v 1)),  -- 7526
    .V 14 (.o1 (.srli16 2) (.v 14)),  -- 7528
    .V 16 (.o1 (.srli16 2) (.v 16)),  -- 7529
    .V 14 (.o2 .packus16 (.v 14) (.v 16)),  -- 7531
    .st 16 (.add (.pa 0) (.v 7)) (.v 14),  -- 7533
    .I 7 (.add (.v 7) (.n 16)),  -- 7504
    .P (.n 0) (.add (.pv (.n 0)) (.n 16))
  ]

/-- `intra_pred_ang_xy_20_sse128`, vec/intrinsic_intra-pred.cc:7504. -/
def xy20S_9 : Stmt :=
  .loop (.lt (.v 7) (.sub (.v 6) (.n 8))) xy20S_8

/-- `intra_pred_ang_xy_20_sse128`, vec/intrinsic_intra-pred.cc:7537-7553. -/
def xy20S_10 : Stmt :=
  .run [
    .V 5 (.ld 16 (.sub (.pv (.n 0)) (.n 1))),  -- 7537
    .V 6 (.ld 16 (.add (.pv (.n 0)) (.n 1))),  -- 7538
    .V 7 (.ld 16 (.pv (.n 0))),  -- 7539
    .V 8 (.o2 .unpacklo8 (.v 5) (.v 0)),  -- 7541
    .V 9 (.o2 .unpacklo8 (.v 7) (.v 0)),  -- 7542
    .V 10 (.o2 .unpacklo8 (.v 6) (.v 0)),  -- 7543
    .V 11 (.o2 .add16 (.v 8) (.v 9)),  -- 7545
    .V 12 (.o2 .add16 (.v 9) (.v 10)),  -- 7546
    .V 11 (.o2 .add16 (.v 11) (.v 12)),  -- 7548
    .V 11 (.o2 .add16 (.v 11) (.v 1)),  -- 7549
    .V 11 (.o1 (.srli16 2) (.v 11)),  -- 7550
    .V 11 (.o2 .packus16 (.v 11) (.v 11)),  -- 7552
    .st 8 (.add (.pa 0) (.v 7)) (.v 11)  -- 7553
  ]

/-- `intra_pred_ang_xy_20_sse128`, vec/intrinsic_intra-pred.cc:7536. -/
def xy20S_11 : Stmt :=
  .ite (.lt (.v 7) (.v 6)) xy20S_10 (.run [])

/-- `intra_pred_ang_xy_20_sse128`, vec/intrinsic_intra-pred.cc:7556. -/
def xy20S_12 : Stmt :=
  .run [
    .I 7 (.n 0)  -- 7556
  ]

/-- `intra_pred_ang_xy_20_sse128`, vec/intrinsic_intra-pred.cc:7556-7559. -/
def xy20S_13 : Stmt :=
  .run [
    .cpy (.pv (.n 1)) (.pv (.n 2)) (.mul (.v 2) (.n 1)),  -- 7557
    .P (.n 2) (.sub (.pv (.n 2)) (.n 2)),  -- 7558
    .P (.n 1) (.add (.pv (.n 1)) (.v 0)),  -- 7559
    .I 7 (.add (.v 7) (.n 1))  -- 7556
  ]

/-- `intra_pred_ang_xy_20_sse128`, vec/intrinsic_intra-pred.cc:7556. -/
def xy20S_14 : Stmt :=
  .loop (.lt (.v 7) (.v 3)) xy20S_13

/-- `intra_pred_ang_xy_20_sse128`, source/common/vec/intrinsic_intra-pred.cc:7394-7561.  Variables:
I: 0 i_dst, 1 dir_mode, 2 bsx, 3 bsy, 4 left_size, 5 top_size, 6 line_size, 7 i;
P: 0 src, 1 dst, 2 pfirst, 3 pSrc1;
V: 0 zero, 1 coeff2, 2 coeff3, 3 coeff4, 4 shuffle, 5 p00/S0, 6 p01/S2, 7 p10/p20/S1, 8 p11/p21/L0, 9 p20/S0/L1, 10 p21/S3/L2, 11 p30/S2/H0/sum1, 12 p31/S1/H1/sum2, 13 S0/L0/H2, 14 S3/L1/sum1, 15 S2/L2/sum2, 16 S1/L3/sum3, 17 L0/sum4, 18 L1, 19 L2, 20 L3, 21 H0, 22 H1, 23 H2, 24 H3. -/
def xy20S : Stmt :=
  .seq xy20S_1 (.seq xy20S_4 (.seq xy20S_6 (.seq xy20S_7 (.seq xy20S_9 (.seq xy20S_11 (.seq xy20S_12 xy20S_14))))))

/-- `intra_pred_ang_xy_22_sse128`, vec/intrinsic_intra-pred.cc:7572. -/
def xy22S_1 : Stmt :=
  .run [
    .P (.n 0) (.sub (.pv (.n 0)) (.v 3))  -- 7572
  ]

/-- `intra_pred_ang_xy_22_sse128`, vec/intrinsic_intra-pred.cc:7574-7590. -/
def xy22S_2 : Stmt :=
  .run [
    .alloc 0 320,  -- 7574
    .I 5 (.add (.mul (.sub (.v 3) (.n 1)) (.n 4)) (.n 3)),  -- 7575
    .I 6 (.sub (.v 2) (.n 3)),  -- 7576
    .I 7 (.add (.v 5) (.v 6)),  -- 7577
    .P (.n 2) (.sub (.add (.pa 0) (.v 5)) (.n 3)),  -- 7578
    .P (.n 3) (.pv (.n 0)),  -- 7579
    .V 0 .zero,  -- 7581
    .V 1 (.set1_16 (.n 2)),  -- 7582
    .V 2 (.set1_16 (.n 3)),  -- 7583
    .V 3 (.set1_16 (.n 4)),  -- 7584
    .V 4 (.set1_16 (.n 5)),  -- 7585
    .V 5 (.set1_16 (.n 7)),  -- 7586
    .V 6 (.set1_16 (.n 8)),  -- 7587
    .V 7 (.setr8 [0, 8, 1, 9, 2, 10, 3, 11, 4, 12, 5, 13, 6, 14, 7, 15]),  -- 7588
    .I 4 (.n 0)  -- 7590
  ]

/-- `intra_pred_ang_xy_22_sse128`, vec/intrinsic_intra-pred.cc:7594-7621. -/
def xy22S_3 : Stmt :=
  .run [
    .V 24 (.ld 16 (.sub (.pv (.n 0)) (.n 1))),  -- 7594
    .V 25 (.ld 16 (.add (.pv (.n 0)) (.n 2))),  -- 7595
    .V 26 (.ld 16 (.pv (.n 0))),  -- 7596
    .V 27 (.ld 16 (.add (.pv (.n 0)) (.n 1))),  -- 7597
    .V 28 (.o2 .unpacklo8 (.v 24) (.v 0)),  -- 7599
    .V 29 (.o2 .unpacklo8 (.v 26) (.v 0)),  -- 7600
    .V 30 (.o2 .unpacklo8 (.v 27) (.v 0)),  -- 7601
    .V 31 (.o2 .unpacklo8 (.v 25) (.v 0)),  -- 7602
    .V 32 (.o2 .unpackhi8 (.v 24) (.v 0)),  -- 7604
    .V 33 (.o2 .unpackhi8 (.v 26) (.v 0)),  -- 7605
    .V 34 (.o2 .unpackhi8 (.v 27) (.v 0)),  -- 7606
    .V 35 (.o2 .unpackhi8 (.v 25) (.v 0)),  -- 7607
    .V 8 (.o2 .mullo16 (.v 28) (.v 2)),  -- 7609
    .V 9 (.o2 .mullo16 (.v 29) (.v 5)),  -- 7610
    .V 10 (.o2 .mullo16 (.v 30) (.v 4)),  -- 7611
    .V 11 (.o2 .add16 (.v 31) (.v 6)),  -- 7612
    .V 8 (.o2 .add16 (.v 8) (.v 11)),  -- 7613
    .V 8 (.o2 .add16 (.v 8) (.v 9)),  -- 7614
    .V 8 (.o2 .add16 (.v 8) (.v 10)),  -- 7615
    .V 16 (.o1 (.srli16 4) (.v 8)),  -- 7616
    .V 12 (.o2 .mullo16 (.v 32) (.v 2)),  -- 7618
    .V 13 (.o2 .mullo16 (.v 33) (.v 5)),  -- 7619
    .V 14 (.o2 .mullo16 (.v 34) (.v 4)),  -- 7620
    .V 15 (.o2 .add16 (.v 35) (.v 6))  -- 7621
  ]

/-- `intra_pred_ang_xy_22_sse128`, vec/intrinsic_intra-pred.cc:7622-7650. -/
def xy22S_4 : Stmt :=
  .run [
    .V 12 (.o2 .add16 (.v 12) (.v 15)),  -- 7622
    .V 12 (.o2 .add16 (.v 12) (.v 13)),  -- 7623
    .V 12 (.o2 .add16 (.v 12) (.v 14)),  -- 7624
    .V 17 (.o1 (.srli16 4) (.v 12)),  -- 7625
    .V 8 (.o2 .add16 (.v 29) (.v 30)),  -- 7628
    .V 8 (.o2 .mullo16 (.v 8) (.v 2)),  -- 7629
    .V 9 (.o2 .add16 (.v 28) (.v 31)),  -- 7630
    .V 9 (.o2 .add16 (.v 9) (.v 3)),  -- 7631
    .V 8 (.o2 .add16 (.v 9) (.v 8)),  -- 7632
    .V 18 (.o1 (.srli16 3) (.v 8)),  -- 7633
    .V 12 (.o2 .add16 (.v 33) (.v 34)),  -- 7635
    .V 12 (.o2 .mullo16 (.v 12) (.v 2)),  -- 7636
    .V 13 (.o2 .add16 (.v 32) (.v 35)),  -- 7637
    .V 13 (.o2 .add16 (.v 13) (.v 3)),  -- 7638
    .V 12 (.o2 .add16 (.v 13) (.v 12)),  -- 7639
    .V 19 (.o1 (.srli16 3) (.v 12)),  -- 7640
    .V 9 (.o2 .mullo16 (.v 29) (.v 4)),  -- 7643
    .V 10 (.o2 .mullo16 (.v 30) (.v 5)),  -- 7644
    .V 11 (.o2 .mullo16 (.v 31) (.v 2)),  -- 7645
    .V 8 (.o2 .add16 (.v 28) (.v 6)),  -- 7646
    .V 8 (.o2 .add16 (.v 8) (.v 9)),  -- 7647
    .V 8 (.o2 .add16 (.v 8) (.v 10)),  -- 7648
    .V 8 (.o2 .add16 (.v 8) (.v 11)),  -- 7649
    .V 20 (.o1 (.srli16 4) (.v 8))  -- 7650
  ]

/-- `intra_pred_ang_xy_22_sse128`, vec/intrinsic_intra-pred.cc:7652-7680. -/
def xy22S_5 : Stmt :=
  .run [
    .V 13 (.o2 .mullo16 (.v 33) (.v 4)),  -- 7652
    .V 14 (.o2 .mullo16 (.v 34) (.v 5)),  -- 7653
    .V 15 (.o2 .mullo16 (.v 35) (.v 2)),  -- 7654
    .V 12 (.o2 .add16 (.v 32) (.v 6)),  -- 7655
    .V 12 (.o2 .add16 (.v 12) (.v 13)),  -- 7656
    .V 12 (.o2 .add16 (.v 12) (.v 14)),  -- 7657
    .V 12 (.o2 .add16 (.v 12) (.v 15)),  -- 7658
    .V 21 (.o1 (.srli16 4) (.v 12)),  -- 7659
    .V 8 (.o2 .add16 (.v 29) (.v 30)),  -- 7662
    .V 9 (.o2 .add16 (.v 30) (.v 31)),  -- 7663
    .V 8 (.o2 .add16 (.v 8) (.v 9)),  -- 7664
    .V 8 (.o2 .add16 (.v 8) (.v 1)),  -- 7665
    .V 22 (.o1 (.srli16 2) (.v 8)),  -- 7666
    .V 12 (.o2 .add16 (.v 33) (.v 34)),  -- 7668
    .V 13 (.o2 .add16 (.v 34) (.v 35)),  -- 7669
    .V 12 (.o2 .add16 (.v 12) (.v 13)),  -- 7670
    .V 12 (.o2 .add16 (.v 12) (.v 1)),  -- 7671
    .V 23 (.o1 (.srli16 2) (.v 12)),  -- 7672
    .V 16 (.o2 .packus16 (.v 16) (.v 18)),  -- 7674
    .V 20 (.o2 .packus16 (.v 20) (.v 22)),  -- 7675
    .V 16 (.o2 .shuffle8 (.v 16) (.v 7)),  -- 7676
    .V 20 (.o2 .shuffle8 (.v 20) (.v 7)),  -- 7677
    .V 17 (.o2 .packus16 (.v 17) (.v 19)),  -- 7679
    .V 21 (.o2 .packus16 (.v 21) (.v 23))  -- 7680
  ]

/-- `intra_pred_ang_xy_22_sse128`, vec/intrinsic_intra-pred.cc:7590-7692. -/
def xy22S_6 : Stmt :=
  .run [
    .V 17 (.o2 .shuffle8 (.v 17) (.v 7)),  -- 7681
    .V 21 (.o2 .shuffle8 (.v 21) (.v 7)),  -- 7682
    .V 18 (.o2 .unpacklo16 (.v 16) (.v 20)),  -- 7684
    .V 22 (.o2 .unpackhi16 (.v 16) (.v 20)),  -- 7685
    .V 19 (.o2 .unpacklo16 (.v 17) (.v 21)),  -- 7686
    .V 23 (.o2 .unpackhi16 (.v 17) (.v 21)),  -- 7687
    .st 16 (.add (.pa 0) (.v 4)) (.v 18),  -- 7689
    .st 16 (.add (.pa 0) (.add (.n 16) (.v 4))) (.v 22),  -- 7690
    .st 16 (.add (.pa 0) (.add (.n 32) (.v 4))) (.v 19),  -- 7691
    .st 16 (.add (.pa 0) (.add (.n 48) (.v 4))) (.v 23),  -- 7692
    .I 4 (.add (.v 4) (.n 64)),  -- 7590
    .P (.n 0) (.add (.pv (.n 0)) (.n 16))
  ]

/-- `intra_pred_ang_xy_22_sse128`, vec/intrinsic_intra-pred.cc:7590. -/
def xy22S_7 : Stmt :=
  .loop (.lt (.v 4) (.sub (.v 7) (.n 32))) (.seq xy22S_3 (.seq xy22S_4 (.seq xy22S_5 xy22S_6)))

/-- `intra_pred_ang_xy_22_sse128`, vec/intrinsic_intra-pred.cc:7698-7725. -/
def xy22S_8 : Stmt :=
  .run [
    .V 16 (.ld 16 (.sub (.pv (.n 0)) (.n 1))),  -- 7698
    .V 17 (.ld 16 (.add (.pv (.n 0)) (.n 2))),  -- 7699
    .V 18 (.ld 16 (.pv (.n 0))),  -- 7700
    .V 19 (.ld 16 (.add (.pv (.n 0)) (.n 1))),  -- 7701
    .V 20 (.o2 .unpacklo8 (.v 16) (.v 0)),  -- 7703
    .V 21 (.o2 .unpacklo8 (.v 18) (.v 0)),  -- 7704
    .V 22 (.o2 .unpacklo8 (.v 19) (.v 0)),  -- 7705
    .V 23 (.o2 .unpacklo8 (.v 17) (.v 0)),  -- 7706
    .V 8 (.o2 .mullo16 (.v 20) (.v 2)),  -- 7708
    .V 9 (.o2 .mullo16 (.v 21) (.v 5)),  -- 7709
    .V 10 (.o2 .mullo16 (.v 22) (.v 4)),  -- 7710
    .V 11 (.o2 .add16 (.v 23) (.v 6)),  -- 7711
    .V 8 (.o2 .add16 (.v 8) (.v 11)),  -- 7712
    .V 8 (.o2 .add16 (.v 8) (.v 9)),  -- 7713
    .V 8 (.o2 .add16 (.v 8) (.v 10)),  -- 7714
    .V 12 (.o1 (.srli16 4) (.v 8)),  -- 7715
    .V 8 (.o2 .add16 (.v 21) (.v 22)),  -- 7717
    .V 8 (.o2 .mullo16 (.v 8) (.v 2)),  -- 7718
    .V 9 (.o2 .add16 (.v 20) (.v 23)),  -- 7719
    .V 9 (.o2 .add16 (.v 9) (.v 3)),  -- 7720
    .V 8 (.o2 .add16 (.v 9) (.v 8)),  -- 7721
    .V 13 (.o1 (.srli16 3) (.v 8)),  -- 7722
    .V 9 (.o2 .mullo16 (.v 21) (.v 4)),  -- 7724
    .V 10 (.o2 .mullo16 (.v 22) (.v 5))  -- 7725
  ]

/-- `intra_pred_ang_xy_22_sse128`, vec/intrinsic_intra-pred.cc:7726-7748. -/
def xy22S_9 : Stmt :=
  .run [
    .V 11 (.o2 .mullo16 (.v 23) (.v 2)),  -- 7726
    .V 8 (.o2 .add16 (.v 20) (.v 6)),  -- 7727
    .V 8 (.o2 .add16 (.v 8) (.v 9)),  -- 7728
    .V 8 (.o2 .add16 (.v 8) (.v 10)),  -- 7729
    .V 8 (.o2 .add16 (.v 8) (.v 11)),  -- 7730
    .V 14 (.o1 (.srli16 4) (.v 8)),  -- 7731
    .V 8 (.o2 .add16 (.v 21) (.v 22)),  -- 7733
    .V 9 (.o2 .add16 (.v 22) (.v 23)),  -- 7734
    .V 8 (.o2 .add16 (.v 8) (.v 9)),  -- 7735
    .V 8 (.o2 .add16 (.v 8) (.v 1)),  -- 7736
    .V 15 (.o1 (.srli16 2) (.v 8)),  -- 7737
    .V 12 (.o2 .packus16 (.v 12) (.v 13)),  -- 7739
    .V 14 (.o2 .packus16 (.v 14) (.v 15)),  -- 7740
    .V 12 (.o2 .shuffle8 (.v 12) (.v 7)),  -- 7741
    .V 14 (.o2 .shuffle8 (.v 14) (.v 7)),  -- 7742
    .V 13 (.o2 .unpacklo16 (.v 12) (.v 14)),  -- 7744
    .V 15 (.o2 .unpackhi16 (.v 12) (.v 14)),  -- 7745
    .st 16 (.add (.pa 0) (.v 4)) (.v 13),  -- 7747
    .st 16 (.add (.pa 0) (.add (.n 16) (.v 4))) (.v 15)  -- 7748
  ]

/-- `intra_pred_ang_xy_22_sse128`, vec/intrinsic_intra-pred.cc:7695. -/
def xy22S_10 : Stmt :=
  .ite (.lt (.v 4) (.v 5)) (.seq xy22S_8 xy22S_9) (.run [])

/-- `intra_pred_ang_xy_22_sse128`, vec/intrinsic_intra-pred.cc:7751-7753. -/
def xy22S_11 : Stmt :=
  .run [
    .P (.n 0) (.add (.pv (.n 3)) (.v 3)),  -- 7751
    .I 4 (.v 5)  -- 7753
  ]

/-- `intra_pred_ang_xy_22_sse128`, vec/intrinsic_intra-pred.cc:7753-7782. -/
def xy22S_12 : Stmt :=
  .run [
    .V 8 (.ld 16 (.sub (.pv (.n 0)) (.n 1))),  -- 7754
    .V 9 (.ld 16 (.add (.pv (.n 0)) (.n 1))),  -- 7755
    .V 10 (.ld 16 (.pv (.n 0))),  -- 7756
    .V 11 (.o2 .unpacklo8 (.v 8) (.v 0)),  -- 7758
    .V 12 (.o2 .unpacklo8 (.v 10) (.v 0)),  -- 7759
    .V 13 (.o2 .unpacklo8 (.v 9) (.v 0)),  -- 7760
    .V 14 (.o2 .unpackhi8 (.v 8) (.v 0)),  -- 7762
    .V 15 (.o2 .unpackhi8 (.v 10) (.v 0)),  -- 7763
    .V 16 (.o2 .unpackhi8 (.v 9) (.v 0)),  -- 7764
    .V 17 (.o2 .add16 (.v 11) (.v 12)),  -- 7766
    .V 18 (.o2 .add16 (.v 12) (.v 13)),  -- 7767
    .V 19 (.o2 .add16 (.v 14) (.v 15)),  -- 7768
    .V 20 (.o2 .add16 (.v 15) (.v 16)),  -- 7769
    .V 17 (.o2 .add16 (.v 17) (.v 18)),  -- 7771
    .V 19 (.o2 .add16 (.v 19) (.v 20)),  -- 7772
    .V 17 (.o2 .add16 (.v 17) (.v 1)),  -- 7774
    .V 19 (.o2 .add16 (.v 19) (.v 1)),  -- 7775
    .V 17 (.o1 (.srli16 2) (.v 17)),  -- 7777
    .V 19 (.o1 (.srli16 2) (.v 19)),  -- 7778
    .V 17 (.o2 .packus16 (.v 17) (.v 19)),  -- 7780
    .st 16 (.add (.pa 0) (.v 4)) (.v 17),  -- 7782
    .I 4 (.add (.v 4) (.n 16)),  -- 7753
    .P (.n 0) (.add (.pv (.n 0)) (.n 16))
  ]

/-- `intra_pred_ang_xy_22_sse128`, vec/intrinsic_intra-pred.cc:7753. -/
def xy22S_13 : Stmt :=
  .loop (.lt (.v 4) (.sub (.v 7) (.n 8))) xy22S_12

/-- `intra_pred_ang_xy_22_sse128`, vec/intrinsic_intra-pred.cc:7786-7802. -/
def xy22S_14 : Stmt :=
  .run [
    .V 8 (.ld 16 (.sub (.pv (.n 0)) (.n 1))),  -- 7786
    .V 9 (.ld 16 (.add (.pv (.n 0)) (.n 1))),  -- 7787
    .V 10 (.ld 16 (.pv (.n 0))),  -- 7788
    .V 11 (.o2 .unpacklo8 (.v 8) (.v 0)),  -- 7790
    .V 12 (.o2 .unpacklo8 (.v 10) (.v 0)),  -- 7791
    .V 13 (.o2 .unpacklo8 (.v 9) (.v 0)),  -- 7792
    .V 14 (.o2 .add16 (.v 11) (.v 12)),  -- 7794
    .V 15 (.o2 .add16 (.v 12) (.v 13)),  -- 7795
    .V 14 (.o2 .add16 (.v 14) (.v 15)),  -- 7797
    .V 14 (.o2 .add16 (.v 14) (.v 1)),  -- 7798
    .V 14 (.o1 (.srli16 2) (.v 14)),  -- 7799
    .V 14 (.o2 .packus16 (.v 14) (.v 14)),  -- 7801
    .st 8 (.add (.pa 0) (.v 4)) (.v 14)  -- 7802
  ]

/-- `intra_pred_ang_xy_22_sse128`, vec/intrinsic_intra-pred.cc:7785. -/
def xy22S_15 : Stmt :=
  .ite (.lt (.v 4) (.v 7)) xy22S_14 (.run [])

/-- `intra_pred_ang_xy_22_sse128`, vec/intrinsic_intra-pred.cc:7807-7810. -/
def xy22S_16 : Stmt :=
  .run [
    .I 3 (.sub (.v 3) (.n 1)),  -- 7807
    .cpy (.pv (.n 1)) (.pv (.n 2)) (.n 8),  -- 7808
    .P (.n 1) (.add (.pv (.n 1)) (.v 0)),  -- 7809
    .P (.n 2) (.sub (.pv (.n 2)) (.n 4))  -- 7810
  ]

/-- `intra_pred_ang_xy_22_sse128`, vec/intrinsic_intra-pred.cc:7807. -/
def xy22S_17 : Stmt :=
  .loop (.ne (.v 3) (.n 0)) xy22S_16

/-- `intra_pred_ang_xy_22_sse128`, vec/intrinsic_intra-pred.cc:7807. -/
def xy22S_18 : Stmt :=
  .run [
    .I 3 (.sub (.v 3) (.n 1))  -- 7807
  ]

/-- `intra_pred_ang_xy_22_sse128`, vec/intrinsic_intra-pred.cc:7816-7819. -/
def xy22S_19 : Stmt :=
  .run [
    .I 3 (.sub (.v 3) (.n 1)),  -- 7816
    .cpy (.pv (.n 1)) (.pv (.n 2)) (.mul (.v 2) (.n 1)),  -- 7817
    .P (.n 1) (.add (.pv (.n 1)) (.v 0)),  -- 7818
    .P (.n 2) (.sub (.pv (.n 2)) (.n 4))  -- 7819
  ]

/-- `intra_pred_ang_xy_22_sse128`, vec/intrinsic_intra-pred.cc:7816. -/
def xy22S_20 : Stmt :=
  .loop (.ne (.v 3) (.n 0)) xy22S_19

/-- `intra_pred_ang_xy_22_sse128`, vec/intrinsic_intra-pred.cc:7816. -/
def xy22S_21 : Stmt :=
  .run [
    .I 3 (.sub (.v 3) (.n 1))  -- 7816
  ]

/-- `intra_pred_ang_xy_22_sse128`, vec/intrinsic_intra-pred.cc:7823. -/
def xy22S_22 : Stmt :=
  .run [
    .bad  -- 7823
  ]

/-- `intra_pred_ang_xy_22_sse128`, vec/intrinsic_intra-pred.cc:7805. -/
def xy22S_23 : Stmt :=
  .ite (.or (.or (.eq (.v 2) (.n 16)) (.eq (.v 2) (.n 32))) (.eq (.v 2) (.n 64))) (.seq xy22S_20 xy22S_21) xy22S_22

/-- `intra_pred_ang_xy_22_sse128`, vec/intrinsic_intra-pred.cc:7805. -/
def xy22S_24 : Stmt :=
  .ite (.eq (.v 2) (.n 8)) (.seq xy22S_17 xy22S_18) xy22S_23

/-- `intra_pred_ang_xy_22_sse128`, vec/intrinsic_intra-pred.cc:7827-7828. -/
def xy22S_25 : Stmt :=
  .run [
    .P (.n 1) (.add (.pv (.n 1)) (.mul (.sub (.v 3) (.n 1)) (.v 0))),  -- 7827
    .I 4 (.n 0)  -- 7828
  ]

/-- `intra_pred_ang_xy_22_sse128`, vec/intrinsic_intra-pred.cc:7828-7833. -/
def xy22S_26 : Stmt :=
  .run [
    .st1 (.add (.pv (.n 1)) (.n 0)) (.shr (.add (.add (.add (.add (.mul 3 (.ld (.add (.pv (.n 0)) (.n (-1))))) (.mul 7 (.ld (.add (.pv (.n 0)) (.n 0))))) (.mul 5 (.ld (.add (.pv (.n 0)) (.n 1))))) (.ld (.add (.pv (.n 0)) (.n 2)))) (.n 8)) 4),  -- 7829
    .st1 (.add (.pv (.n 1)) (.n 1)) (.shr (.add (.add (.add (.ld (.add (.pv (.n 0)) (.n (-1)))) (.mul 3 (.add (.ld (.add (.pv (.n 0)) (.n 0))) (.ld (.add (.pv (.n 0)) (.n 1)))))) (.ld (.add (.pv (.n 0)) (.n 2)))) (.n 4)) 3),  -- 7830
    .st1 (.add (.pv (.n 1)) (.n 2)) (.shr (.add (.add (.add (.add (.ld (.add (.pv (.n 0)) (.n (-1)))) (.mul 5 (.ld (.add (.pv (.n 0)) (.n 0))))) (.mul 7 (.ld (.add (.pv (.n 0)) (.n 1))))) (.mul 3 (.ld (.add (.pv (.n 0)) (.n 2))))) (.n 8)) 4),  -- 7831
    .st1 (.add (.pv (.n 1)) (.n 3)) (.shr (.add (.add (.add (.ld (.add (.pv (.n 0)) (.n 0))) (.mul 2 (.ld (.add (.pv (.n 0)) (.n 1))))) (.ld (.add (.pv (.n 0)) (.n 2)))) (.n 2)) 2),  -- 7832
    .P (.n 1) (.sub (.pv (.n 1)) (.v 0)),  -- 7833
    .I 4 (.add (.v 4) (.n 1)),  -- 7828
    .P (.n 0) (.add (.pv (.n 0)) (.n 1))
  ]

/-- `intra_pred_ang_xy_22_sse128`, vec/intrinsic_intra-pred.cc:7828. -/
def xy22S_27 : Stmt :=
  .loop (.lt (.v 4) (.v 3)) xy22S_26

/-- `intra_pred_ang_xy_22_sse128`, vec/intrinsic_intra-pred.cc:7573. -/
def xy22S_28 : Stmt :=
  .ite (.ne (.v 2) (.n 4)) (.seq xy22S_2 (.seq xy22S_7 (.seq xy22S_10 (.seq xy22S_11 (.seq xy22S_13 (.seq xy22S_15 xy22S_24)))))) (.seq xy22S_25 xy22S_27)

/-- `intra_pred_ang_xy_22_sse128`, source/common/vec/intrinsic_intra-pred.cc:7566-7837.  Variables:
I: 0 i_dst, 1 dir_mode, 2 bsx, 3 bsy, 4 i, 5 left_size, 6 top_size, 7 line_size;
P: 0 src, 1 dst, 2 pfirst, 3 pSrc1;
V: 0 zero, 1 coeff2, 2 coeff3, 3 coeff4, 4 coeff5, 5 coeff7, 6 coeff8, 7 shuffle, 8 p00/S0, 9 p10/S2, 10 p20/S1, 11 p30/L0, 12 p01/M1/L1, 13 p11/M3/L2, 14 p21/M5/H0/sum1, 15 p31/M7/H1/sum2, 16 M1/S0/H2, 17 M2/S3/sum1, 18 M3/S1/sum2, 19 M4/S2/sum3, 20 M5/L0/sum4, 21 M6/L1, 22 M7/L2, 23 M8/L3, 24 S0, 25 S3, 26 S1, 27 S2, 28 L0, 29 L1, 30 L2, 31 L3, 32 H0, 33 H1, 34 H2, 35 H3. -/
def xy22S : Stmt :=
  .seq xy22S_1 xy22S_28

/-- `intra_pred_ang_xy_23_sse128`, vec/intrinsic_intra-pred.cc:7850-7877. -/
def xy23S_1 : Stmt :=
  .run [
    .alloc 0 576,  -- 7850
    .I 5 (.sub (.shl (.v 3) 3) (.n 1)),  -- 7851
    .I 6 (.sub (.v 2) (.n 7)),  -- 7852
    .I 7 (.add (.v 5) (.v 6)),  -- 7853
    .P (.n 2) (.sub (.add (.pa 0) (.v 5)) (.n 7)),  -- 7854
    .P (.n 3) (.pa 0),  -- 7855
    .P (.n 4) (.pv (.n 0)),  -- 7856
    .P (.n 0) (.sub (.pv (.n 0)) (.v 3)),  -- 7858
    .V 0 .zero,  -- 7860
    .V 1 (.setr16 [.n 7, .n 3, .n 5, .n 1, .n 3, .n 1, .n 1, .n 0]),  -- 7861
    .V 2 (.setr16 [.n 15, .n 7, .n 13, .n 3, .n 11, .n 5, .n 9, .n 1]),  -- 7862
    .V 3 (.setr16 [.n 9, .n 5, .n 11, .n 3, .n 13, .n 7, .n 15, .n 2]),  -- 7863
    .V 4 (.setr16 [.n 1, .n 1, .n 3, .n 1, .n 5, .n 3, .n 7, .n 1]),  -- 7864
    .V 5 (.setr16 [.n 16, .n 8, .n 16, .n 4, .n 16, .n 8, .n 16, .n 2]),  -- 7865
    .V 6 (.setr16 [.n 1, .n 2, .n 1, .n 4, .n 1, .n 2, .n 1, .n 8]),  -- 7866
    .V 11 (.set1_16 (.ld (.add (.pv (.n 0)) (.n (-1))))),  -- 7870
    .V 12 (.set1_16 (.ld (.add (.pv (.n 0)) (.n 0)))),  -- 7871
    .V 13 (.set1_16 (.ld (.add (.pv (.n 0)) (.n 1)))),  -- 7872
    .V 14 (.set1_16 (.ld (.add (.pv (.n 0)) (.n 2)))),  -- 7873
    .P (.n 0) (.add (.pv (.n 0)) (.n 4)),  -- 7875
    .I 4 (.n 0)  -- 7877
  ]

/-- `intra_pred_ang_xy_23_sse128`, vec/intrinsic_intra-pred.cc:7878-7904. -/
def xy23S_2 : Stmt :=
  .run [
    .V 7 (.o2 .mullo16 (.v 11) (.v 1)),  -- 7878
    .V 8 (.o2 .mullo16 (.v 12) (.v 2)),  -- 7879
    .V 9 (.o2 .mullo16 (.v 13) (.v 3)),  -- 7880
    .V 10 (.o2 .mullo16 (.v 14) (.v 4)),  -- 7881
    .V 7 (.o2 .add16 (.v 7) (.v 5)),  -- 7882
    .V 7 (.o2 .add16 (.v 7) (.v 8)),  -- 7883
    .V 7 (.o2 .add16 (.v 7) (.v 9)),  -- 7884
    .V 7 (.o2 .add16 (.v 7) (.v 10)),  -- 7885
    .V 7 (.o2 .mullo16 (.v 7) (.v 6)),  -- 7886
    .V 7 (.o1 (.srli16 5) (.v 7)),  -- 7887
    .V 7 (.o2 .packus16 (.v 7) (.v 7)),  -- 7889
    .st 8 (.pv (.n 3)) (.v 7),  -- 7890
    .P (.n 3) (.add (.pv (.n 3)) (.n 8)),  -- 7892
    .V 11 (.set1_16 (.ld (.add (.pv (.n 0)) (.n (-1))))),  -- 7893
    .V 7 (.o2 .mullo16 (.v 12) (.v 1)),  -- 7895
    .V 8 (.o2 .mullo16 (.v 13) (.v 2)),  -- 7896
    .V 9 (.o2 .mullo16 (.v 14) (.v 3)),  -- 7897
    .V 10 (.o2 .mullo16 (.v 11) (.v 4)),  -- 7898
    .V 7 (.o2 .add16 (.v 7) (.v 5)),  -- 7899
    .V 7 (.o2 .add16 (.v 7) (.v 8)),  -- 7900
    .V 7 (.o2 .add16 (.v 7) (.v 9)),  -- 7901
    .V 7 (.o2 .add16 (.v 7) (.v 10)),  -- 7902
    .V 7 (.o2 .mullo16 (.v 7) (.v 6)),  -- 7903
    .V 7 (.o1 (.srli16 5) (.v 7))  -- 7904
  ]

/-- `intra_pred_ang_xy_23_sse128`, vec/intrinsic_intra-pred.cc:7906-7934. -/
def xy23S_3 : Stmt :=
  .run [
    .V 7 (.o2 .packus16 (.v 7) (.v 7)),  -- 7906
    .st 8 (.pv (.n 3)) (.v 7),  -- 7907
    .P (.n 3) (.add (.pv (.n 3)) (.n 8)),  -- 7909
    .V 12 (.set1_16 (.ld (.add (.pv (.n 0)) (.n 0)))),  -- 7910
    .V 7 (.o2 .mullo16 (.v 13) (.v 1)),  -- 7912
    .V 8 (.o2 .mullo16 (.v 14) (.v 2)),  -- 7913
    .V 9 (.o2 .mullo16 (.v 11) (.v 3)),  -- 7914
    .V 10 (.o2 .mullo16 (.v 12) (.v 4)),  -- 7915
    .V 7 (.o2 .add16 (.v 7) (.v 5)),  -- 7916
    .V 7 (.o2 .add16 (.v 7) (.v 8)),  -- 7917
    .V 7 (.o2 .add16 (.v 7) (.v 9)),  -- 7918
    .V 7 (.o2 .add16 (.v 7) (.v 10)),  -- 7919
    .V 7 (.o2 .mullo16 (.v 7) (.v 6)),  -- 7920
    .V 7 (.o1 (.srli16 5) (.v 7)),  -- 7921
    .V 7 (.o2 .packus16 (.v 7) (.v 7)),  -- 7923
    .st 8 (.pv (.n 3)) (.v 7),  -- 7924
    .P (.n 3) (.add (.pv (.n 3)) (.n 8)),  -- 7926
    .V 13 (.set1_16 (.ld (.add (.pv (.n 0)) (.n 1)))),  -- 7927
    .V 7 (.o2 .mullo16 (.v 14) (.v 1)),  -- 7929
    .V 8 (.o2 .mullo16 (.v 11) (.v 2)),  -- 7930
    .V 9 (.o2 .mullo16 (.v 12) (.v 3)),  -- 7931
    .V 10 (.o2 .mullo16 (.v 13) (.v 4)),  -- 7932
    .V 7 (.o2 .add16 (.v 7) (.v 5)),  -- 7933
    .V 7 (.o2 .add16 (.v 7) (.v 8))  -- 7934
  ]

/-- `intra_pred_ang_xy_23_sse128`, vec/intrinsic_intra-pred.cc:7877-7944. -/
def xy23S_4 : Stmt :=
  .run [
    .V 7 (.o2 .add16 (.v 7) (.v 9)),  -- 7935
    .V 7 (.o2 .add16 (.v 7) (.v 10)),  -- 7936
    .V 7 (.o2 .mullo16 (.v 7) (.v 6)),  -- 7937
    .V 7 (.o1 (.srli16 5) (.v 7)),  -- 7938
    .V 7 (.o2 .packus16 (.v 7) (.v 7)),  -- 7940
    .st 8 (.pv (.n 3)) (.v 7),  -- 7941
    .P (.n 3) (.add (.pv (.n 3)) (.n 8)),  -- 7943
    .V 14 (.set1_16 (.ld (.add (.pv (.n 0)) (.n 2)))),  -- 7944
    .I 4 (.add (.v 4) (.n 32)),  -- 7877
    .P (.n 0) (.add (.pv (.n 0)) (.n 4))
  ]

/-- `intra_pred_ang_xy_23_sse128`, vec/intrinsic_intra-pred.cc:7877. -/
def xy23S_5 : Stmt :=
  .loop (.lt (.v 4) (.add (.v 5) (.n 1))) (.seq xy23S_2 (.seq xy23S_3 xy23S_4))

/-- `intra_pred_ang_xy_23_sse128`, vec/intrinsic_intra-pred.cc:7947. -/
def xy23S_6 : Stmt :=
  .run [
    .P (.n 0) (.add (.pv (.n 4)) (.n 1))  -- 7947
  ]

/-- `intra_pred_ang_xy_23_sse128`, vec/intrinsic_intra-pred.cc:7948-7978. -/
def xy23S_7 : Stmt :=
  .run [
    .V 3 (.set1_16 (.n 2)),  -- 7949
    .V 17 (.ld 16 (.pv (.n 0))),  -- 7953
    .V 18 (.ld 16 (.add (.pv (.n 0)) (.n 1))),  -- 7954
    .V 19 (.ld 16 (.sub (.pv (.n 0)) (.n 1))),  -- 7955
    .V 11 (.o2 .unpacklo8 (.v 17) (.v 0)),  -- 7957
    .V 12 (.o2 .unpacklo8 (.v 18) (.v 0)),  -- 7958
    .V 13 (.o2 .unpacklo8 (.v 19) (.v 0)),  -- 7959
    .V 20 (.o2 .unpackhi8 (.v 17) (.v 0)),  -- 7961
    .V 21 (.o2 .unpackhi8 (.v 18) (.v 0)),  -- 7962
    .V 22 (.o2 .unpackhi8 (.v 19) (.v 0)),  -- 7963
    .V 7 (.o2 .mullo16 (.v 11) (.v 3)),  -- 7965
    .V 8 (.o2 .add16 (.v 12) (.v 13)),  -- 7966
    .V 7 (.o2 .add16 (.v 7) (.v 3)),  -- 7967
    .V 7 (.o2 .add16 (.v 7) (.v 8)),  -- 7968
    .V 7 (.o1 (.srli16 2) (.v 7)),  -- 7969
    .V 15 (.o2 .mullo16 (.v 20) (.v 3)),  -- 7971
    .V 16 (.o2 .add16 (.v 21) (.v 22)),  -- 7972
    .V 15 (.o2 .add16 (.v 15) (.v 3)),  -- 7973
    .V 15 (.o2 .add16 (.v 15) (.v 16)),  -- 7974
    .V 15 (.o1 (.srli16 2) (.v 15)),  -- 7975
    .V 7 (.o2 .packus16 (.v 7) (.v 15)),  -- 7977
    .st 16 (.add (.pa 0) (.v 4)) (.v 7),  -- 7978
    .I 4 (.add (.v 4) (.n 16)),  -- 7948
    .P (.n 0) (.add (.pv (.n 0)) (.n 16))
  ]

/-- `intra_pred_ang_xy_23_sse128`, vec/intrinsic_intra-pred.cc:7948. -/
def xy23S_8 : Stmt :=
  .loop (.lt (.v 4) (.v 7)) xy23S_7

/-- `intra_pred_ang_xy_23_sse128`, vec/intrinsic_intra-pred.cc:7981. -/
def xy23S_9 : Stmt :=
  .run [
    .I 4 (.n 0)  -- 7981
  ]

/-- `intra_pred_ang_xy_23_sse128`, vec/intrinsic_intra-pred.cc:7981-7984. -/
def xy23S_10 : Stmt :=
  .run [
    .cpy (.pv (.n 1)) (.pv (.n 2)) (.mul (.v 2) (.n 1)),  -- 7982
    .P (.n 1) (.add (.pv (.n 1)) (.v 0)),  -- 7983
    .P (.n 2) (.sub (.pv (.n 2)) (.n 8)),  -- 7984
    .I 4 (.add (.v 4) (.n 1))  -- 7981
  ]

/-- `intra_pred_ang_xy_23_sse128`, vec/intrinsic_intra-pred.cc:7981. -/
def xy23S_11 : Stmt :=
  .loop (.lt (.v 4) (.v 3)) xy23S_10

/-- `intra_pred_ang_xy_23_sse128`, vec/intrinsic_intra-pred.cc:7987-8003. -/
def xy23S_12 : Stmt :=
  .run [
    .V 0 (.setr16 [.n 7, .n 3, .n 5, .n 1, .n 3, .n 1, .n 1, .n 0]),  -- 7987
    .V 1 (.setr16 [.n 15, .n 7, .n 13, .n 3, .n 11, .n 5, .n 9, .n 1]),  -- 7988
    .V 2 (.setr16 [.n 9, .n 5, .n 11, .n 3, .n 13, .n 7, .n 15, .n 2]),  -- 7989
    .V 3 (.setr16 [.n 1, .n 1, .n 3, .n 1, .n 5, .n 3, .n 7, .n 1]),  -- 7990
    .V 4 (.setr16 [.n 16, .n 8, .n 16, .n 4, .n 16, .n 8, .n 16, .n 2]),  -- 7991
    .V 5 (.setr16 [.n 1, .n 2, .n 1, .n 4, .n 1, .n 2, .n 1, .n 8]),  -- 7992
    .V 10 (.set1_16 (.ld (.add (.pv (.n 0)) (.n (-2))))),  -- 7996
    .V 11 (.set1_16 (.ld (.add (.pv (.n 0)) (.n (-1))))),  -- 7997
    .V 12 (.set1_16 (.ld (.add (.pv (.n 0)) (.n 0)))),  -- 7998
    .V 13 (.set1_16 (.ld (.add (.pv (.n 0)) (.n 1)))),  -- 7999
    .P (.n 0) (.sub (.pv (.n 0)) (.n 4)),  -- 8000
    .I 3 (.shr (.v 3) 2),  -- 8002
    .I 4 (.n 0)  -- 8003
  ]

/-- `intra_pred_ang_xy_23_sse128`, vec/intrinsic_intra-pred.cc:8004-8030. -/
def xy23S_13 : Stmt :=
  .run [
    .V 6 (.o2 .mullo16 (.v 10) (.v 0)),  -- 8004
    .V 7 (.o2 .mullo16 (.v 11) (.v 1)),  -- 8005
    .V 8 (.o2 .mullo16 (.v 12) (.v 2)),  -- 8006
    .V 9 (.o2 .mullo16 (.v 13) (.v 3)),  -- 8007
    .V 6 (.o2 .add16 (.v 6) (.v 4)),  -- 8008
    .V 6 (.o2 .add16 (.v 6) (.v 7)),  -- 8009
    .V 6 (.o2 .add16 (.v 6) (.v 8)),  -- 8010
    .V 6 (.o2 .add16 (.v 6) (.v 9)),  -- 8011
    .V 6 (.o2 .mullo16 (.v 6) (.v 5)),  -- 8012
    .V 6 (.o1 (.srli16 5) (.v 6)),  -- 8013
    .V 6 (.o2 .packus16 (.v 6) (.v 6)),  -- 8015
    .st 8 (.pv (.n 1)) (.v 6),  -- 8016
    .P (.n 1) (.add (.pv (.n 1)) (.v 0)),  -- 8018
    .V 13 (.set1_16 (.ld (.add (.pv (.n 0)) (.n 1)))),  -- 8019
    .V 6 (.o2 .mullo16 (.v 13) (.v 0)),  -- 8021
    .V 7 (.o2 .mullo16 (.v 10) (.v 1)),  -- 8022
    .V 8 (.o2 .mullo16 (.v 11) (.v 2)),  -- 8023
    .V 9 (.o2 .mullo16 (.v 12) (.v 3)),  -- 8024
    .V 6 (.o2 .add16 (.v 6) (.v 4)),  -- 8025
    .V 6 (.o2 .add16 (.v 6) (.v 7)),  -- 8026
    .V 6 (.o2 .add16 (.v 6) (.v 8)),  -- 8027
    .V 6 (.o2 .add16 (.v 6) (.v 9)),  -- 8028
    .V 6 (.o2 .mullo16 (.v 6) (.v 5)),  -- 8029
    .V 6 (.o1 (.srli16 5) (.v 6))  -- 8030
  ]

/-- `intra_pred_ang_xy_23_sse128`, vec/intrinsic_intra-pred.cc:8032-8060. -/
def xy23S_14 : Stmt :=
  .run [
    .V 6 (.o2 .packus16 (.v 6) (.v 6)),  -- 8032
    .st 8 (.pv (.n 1)) (.v 6),  -- 8033
    .P (.n 1) (.add (.pv (.n 1)) (.v 0)),  -- 8035
    .V 12 (.set1_16 (.ld (.add (.pv (.n 0)) (.n 0)))),  -- 8036
    .V 6 (.o2 .mullo16 (.v 12) (.v 0)),  -- 8038
    .V 7 (.o2 .mullo16 (.v 13) (.v 1)),  -- 8039
    .V 8 (.o2 .mullo16 (.v 10) (.v 2)),  -- 8040
    .V 9 (.o2 .mullo16 (.v 11) (.v 3)),  -- 8041
    .V 6 (.o2 .add16 (.v 6) (.v 4)),  -- 8042
    .V 6 (.o2 .add16 (.v 6) (.v 7)),  -- 8043
    .V 6 (.o2 .add16 (.v 6) (.v 8)),  -- 8044
    .V 6 (.o2 .add16 (.v 6) (.v 9)),  -- 8045
    .V 6 (.o2 .mullo16 (.v 6) (.v 5)),  -- 8046
    .V 6 (.o1 (.srli16 5) (.v 6)),  -- 8047
    .V 6 (.o2 .packus16 (.v 6) (.v 6)),  -- 8049
    .st 8 (.pv (.n 1)) (.v 6),  -- 8050
    .P (.n 1) (.add (.pv (.n 1)) (.v 0)),  -- 8052
    .V 11 (.set1_16 (.ld (.add (.pv (.n 0)) (.n (-1))))),  -- 8053
    .V 6 (.o2 .mullo16 (.v 11) (.v 0)),  -- 8055
    .V 7 (.o2 .mullo16 (.v 12) (.v 1)),  -- 8056
    .V 8 (.o2 .mullo16 (.v 13) (.v 2)),  -- 8057
    .V 9 (.o2 .mullo16 (.v 10) (.v 3)),  -- 8058
    .V 6 (.o2 .add16 (.v 6) (.v 4)),  -- 8059
    .V 6 (.o2 .add16 (.v 6) (.v 7))  -- 8060
  ]

/-- `intra_pred_ang_xy_23_sse128`, vec/intrinsic_intra-pred.cc:8003-8070. -/
def xy23S_15 : Stmt :=
  .run [
    .V 6 (.o2 .add16 (.v 6) (.v 8)),  -- 8061
    .V 6 (.o2 .add16 (.v 6) (.v 9)),  -- 8062
    .V 6 (.o2 .mullo16 (.v 6) (.v 5)),  -- 8063
    .V 6 (.o1 (.srli16 5) (.v 6)),  -- 8064
    .V 6 (.o2 .packus16 (.v 6) (.v 6)),  -- 8066
    .st 8 (.pv (.n 1)) (.v 6),  -- 8067
    .P (.n 1) (.add (.pv (.n 1)) (.v 0)),  -- 8069
    .V 10 (.set1_16 (.ld (.add (.pv (.n 0)) (.n (-2))))),  -- 8070
    .I 4 (.add (.v 4) (.n 1)),  -- 8003
    .P (.n 0) (.sub (.pv (.n 0)) (.n 4))
  ]

/-- `intra_pred_ang_xy_23_sse128`, vec/intrinsic_intra-pred.cc:8003. -/
def xy23S_16 : Stmt :=
  .loop (.lt (.v 4) (.v 3)) (.seq xy23S_13 (.seq xy23S_14 xy23S_15))

/-- `intra_pred_ang_xy_23_sse128`, vec/intrinsic_intra-pred.cc:8073-8084. -/
def xy23S_17 : Stmt :=
  .run [
    .V 0 .zero,  -- 8073
    .V 1 (.set1_16 (.n 3)),  -- 8074
    .V 2 (.set1_16 (.n 4)),  -- 8075
    .V 3 (.set1_16 (.n 5)),  -- 8076
    .V 4 (.set1_16 (.n 7)),  -- 8077
    .V 5 (.set1_16 (.n 8)),  -- 8078
    .V 6 (.set1_16 (.n 9)),  -- 8079
    .V 7 (.set1_16 (.n 11)),  -- 8080
    .V 8 (.set1_16 (.n 13)),  -- 8081
    .V 9 (.set1_16 (.n 15)),  -- 8082
    .V 10 (.set1_16 (.n 16)),  -- 8083
    .V 11 (.setr8 [7, 15, 6, 14, 5, 13, 4, 12, 3, 11, 2, 10, 1, 9, 0, 8])  -- 8084
  ]

/-- `intra_pred_ang_xy_23_sse128`, vec/intrinsic_intra-pred.cc:8086-8114. -/
def xy23S_18 : Stmt :=
  .run [
    .P (.n 0) (.sub (.pv (.n 0)) (.n 15)),  -- 8086
    .V 20 (.ld 16 (.sub (.pv (.n 0)) (.n 2))),  -- 8089
    .V 21 (.ld 16 (.add (.pv (.n 0)) (.n 1))),  -- 8090
    .V 22 (.ld 16 (.sub (.pv (.n 0)) (.n 1))),  -- 8091
    .V 23 (.ld 16 (.pv (.n 0))),  -- 8092
    .V 24 (.o2 .unpackhi8 (.v 20) (.v 0)),  -- 8094
    .V 25 (.o2 .unpackhi8 (.v 22) (.v 0)),  -- 8095
    .V 26 (.o2 .unpackhi8 (.v 23) (.v 0)),  -- 8096
    .V 27 (.o2 .unpackhi8 (.v 21) (.v 0)),  -- 8097
    .V 12 (.o2 .mullo16 (.v 24) (.v 4)),  -- 8099
    .V 13 (.o2 .mullo16 (.v 25) (.v 9)),  -- 8100
    .V 14 (.o2 .mullo16 (.v 26) (.v 6)),  -- 8101
    .V 15 (.o2 .add16 (.v 27) (.v 10)),  -- 8102
    .V 12 (.o2 .add16 (.v 12) (.v 13)),  -- 8103
    .V 12 (.o2 .add16 (.v 12) (.v 14)),  -- 8104
    .V 12 (.o2 .add16 (.v 12) (.v 15)),  -- 8105
    .V 16 (.o1 (.srli16 5) (.v 12)),  -- 8106
    .V 12 (.o2 .mullo16 (.v 24) (.v 1)),  -- 8108
    .V 13 (.o2 .mullo16 (.v 25) (.v 4)),  -- 8109
    .V 14 (.o2 .mullo16 (.v 26) (.v 3)),  -- 8110
    .V 15 (.o2 .add16 (.v 27) (.v 5)),  -- 8111
    .V 12 (.o2 .add16 (.v 12) (.v 13)),  -- 8112
    .V 12 (.o2 .add16 (.v 12) (.v 14)),  -- 8113
    .V 12 (.o2 .add16 (.v 12) (.v 15))  -- 8114
  ]

/-- `intra_pred_ang_xy_23_sse128`, vec/intrinsic_intra-pred.cc:8115-8143. -/
def xy23S_19 : Stmt :=
  .run [
    .V 17 (.o1 (.srli16 4) (.v 12)),  -- 8115
    .V 12 (.o2 .mullo16 (.v 24) (.v 3)),  -- 8117
    .V 13 (.o2 .mullo16 (.v 25) (.v 8)),  -- 8118
    .V 14 (.o2 .mullo16 (.v 26) (.v 7)),  -- 8119
    .V 15 (.o2 .mullo16 (.v 27) (.v 1)),  -- 8120
    .V 12 (.o2 .add16 (.v 12) (.v 10)),  -- 8121
    .V 12 (.o2 .add16 (.v 12) (.v 13)),  -- 8122
    .V 12 (.o2 .add16 (.v 12) (.v 14)),  -- 8123
    .V 12 (.o2 .add16 (.v 12) (.v 15)),  -- 8124
    .V 18 (.o1 (.srli16 5) (.v 12)),  -- 8125
    .V 12 (.o2 .add16 (.v 24) (.v 27)),  -- 8127
    .V 13 (.o2 .add16 (.v 25) (.v 26)),  -- 8128
    .V 13 (.o2 .mullo16 (.v 13) (.v 1)),  -- 8129
    .V 12 (.o2 .add16 (.v 12) (.v 2)),  -- 8130
    .V 12 (.o2 .add16 (.v 12) (.v 13)),  -- 8131
    .V 19 (.o1 (.srli16 3) (.v 12)),  -- 8132
    .V 16 (.o2 .packus16 (.v 16) (.v 17)),  -- 8134
    .V 18 (.o2 .packus16 (.v 18) (.v 19)),  -- 8135
    .V 16 (.o2 .shuffle8 (.v 16) (.v 11)),  -- 8136
    .V 18 (.o2 .shuffle8 (.v 18) (.v 11)),  -- 8137
    .V 17 (.o2 .unpacklo16 (.v 16) (.v 18)),  -- 8139
    .st 4 (.pv (.n 1)) (.v 17),  -- 8141
    .P (.n 1) (.add (.pv (.n 1)) (.v 0)),  -- 8142
    .V 17 (.o1 (.srliB 4) (.v 17))  -- 8143
  ]

/-- `intra_pred_ang_xy_23_sse128`, vec/intrinsic_intra-pred.cc:8144-8150. -/
def xy23S_20 : Stmt :=
  .run [
    .st 4 (.pv (.n 1)) (.v 17),  -- 8144
    .P (.n 1) (.add (.pv (.n 1)) (.v 0)),  -- 8145
    .V 17 (.o1 (.srliB 4) (.v 17)),  -- 8146
    .st 4 (.pv (.n 1)) (.v 17),  -- 8147
    .P (.n 1) (.add (.pv (.n 1)) (.v 0)),  -- 8148
    .V 17 (.o1 (.srliB 4) (.v 17)),  -- 8149
    .st 4 (.pv (.n 1)) (.v 17)  -- 8150
  ]

/-- `intra_pred_ang_xy_23_sse128`, vec/intrinsic_intra-pred.cc:8152-8183. -/
def xy23S_21 : Stmt :=
  .run [
    .P (.n 0) (.sub (.pv (.n 0)) (.n 15)),  -- 8152
    .V 28 (.ld 16 (.sub (.pv (.n 0)) (.n 2))),  -- 8157
    .V 29 (.ld 16 (.add (.pv (.n 0)) (.n 1))),  -- 8158
    .V 30 (.ld 16 (.sub (.pv (.n 0)) (.n 1))),  -- 8159
    .V 31 (.ld 16 (.pv (.n 0))),  -- 8160
    .V 32 (.o2 .unpacklo8 (.v 28) (.v 0)),  -- 8162
    .V 33 (.o2 .unpacklo8 (.v 30) (.v 0)),  -- 8163
    .V 34 (.o2 .unpacklo8 (.v 31) (.v 0)),  -- 8164
    .V 35 (.o2 .unpacklo8 (.v 29) (.v 0)),  -- 8165
    .V 36 (.o2 .unpackhi8 (.v 28) (.v 0)),  -- 8167
    .V 37 (.o2 .unpackhi8 (.v 30) (.v 0)),  -- 8168
    .V 38 (.o2 .unpackhi8 (.v 31) (.v 0)),  -- 8169
    .V 39 (.o2 .unpackhi8 (.v 29) (.v 0)),  -- 8170
    .V 12 (.o2 .mullo16 (.v 32) (.v 4)),  -- 8172
    .V 13 (.o2 .mullo16 (.v 33) (.v 9)),  -- 8173
    .V 14 (.o2 .mullo16 (.v 34) (.v 6)),  -- 8174
    .V 15 (.o2 .add16 (.v 35) (.v 10)),  -- 8175
    .V 12 (.o2 .add16 (.v 12) (.v 13)),  -- 8176
    .V 12 (.o2 .add16 (.v 12) (.v 14)),  -- 8177
    .V 12 (.o2 .add16 (.v 12) (.v 15)),  -- 8178
    .V 20 (.o1 (.srli16 5) (.v 12)),  -- 8179
    .V 16 (.o2 .mullo16 (.v 36) (.v 4)),  -- 8181
    .V 17 (.o2 .mullo16 (.v 37) (.v 9)),  -- 8182
    .V 18 (.o2 .mullo16 (.v 38) (.v 6))  -- 8183
  ]

/-- `intra_pred_ang_xy_23_sse128`, vec/intrinsic_intra-pred.cc:8184-8210. -/
def xy23S_22 : Stmt :=
  .run [
    .V 19 (.o2 .add16 (.v 39) (.v 10)),  -- 8184
    .V 16 (.o2 .add16 (.v 16) (.v 17)),  -- 8185
    .V 16 (.o2 .add16 (.v 16) (.v 18)),  -- 8186
    .V 16 (.o2 .add16 (.v 16) (.v 19)),  -- 8187
    .V 21 (.o1 (.srli16 5) (.v 16)),  -- 8188
    .V 12 (.o2 .mullo16 (.v 32) (.v 1)),  -- 8190
    .V 13 (.o2 .mullo16 (.v 33) (.v 4)),  -- 8191
    .V 14 (.o2 .mullo16 (.v 34) (.v 3)),  -- 8192
    .V 15 (.o2 .add16 (.v 35) (.v 5)),  -- 8193
    .V 12 (.o2 .add16 (.v 12) (.v 13)),  -- 8194
    .V 12 (.o2 .add16 (.v 12) (.v 14)),  -- 8195
    .V 12 (.o2 .add16 (.v 12) (.v 15)),  -- 8196
    .V 22 (.o1 (.srli16 4) (.v 12)),  -- 8197
    .V 16 (.o2 .mullo16 (.v 36) (.v 1)),  -- 8199
    .V 17 (.o2 .mullo16 (.v 37) (.v 4)),  -- 8200
    .V 18 (.o2 .mullo16 (.v 38) (.v 3)),  -- 8201
    .V 19 (.o2 .add16 (.v 39) (.v 5)),  -- 8202
    .V 16 (.o2 .add16 (.v 16) (.v 17)),  -- 8203
    .V 16 (.o2 .add16 (.v 16) (.v 18)),  -- 8204
    .V 16 (.o2 .add16 (.v 16) (.v 19)),  -- 8205
    .V 23 (.o1 (.srli16 4) (.v 16)),  -- 8206
    .V 12 (.o2 .mullo16 (.v 32) (.v 3)),  -- 8208
    .V 13 (.o2 .mullo16 (.v 33) (.v 8)),  -- 8209
    .V 14 (.o2 .mullo16 (.v 34) (.v 7))  -- 8210
  ]

/-- `intra_pred_ang_xy_23_sse128`, vec/intrinsic_intra-pred.cc:8211-8237. -/
def xy23S_23 : Stmt :=
  .run [
    .V 15 (.o2 .mullo16 (.v 35) (.v 1)),  -- 8211
    .V 12 (.o2 .add16 (.v 12) (.v 10)),  -- 8212
    .V 12 (.o2 .add16 (.v 12) (.v 13)),  -- 8213
    .V 12 (.o2 .add16 (.v 12) (.v 14)),  -- 8214
    .V 12 (.o2 .add16 (.v 12) (.v 15)),  -- 8215
    .V 24 (.o1 (.srli16 5) (.v 12)),  -- 8216
    .V 16 (.o2 .mullo16 (.v 36) (.v 3)),  -- 8218
    .V 17 (.o2 .mullo16 (.v 37) (.v 8)),  -- 8219
    .V 18 (.o2 .mullo16 (.v 38) (.v 7)),  -- 8220
    .V 19 (.o2 .mullo16 (.v 39) (.v 1)),  -- 8221
    .V 16 (.o2 .add16 (.v 16) (.v 10)),  -- 8222
    .V 16 (.o2 .add16 (.v 16) (.v 17)),  -- 8223
    .V 16 (.o2 .add16 (.v 16) (.v 18)),  -- 8224
    .V 16 (.o2 .add16 (.v 16) (.v 19)),  -- 8225
    .V 25 (.o1 (.srli16 5) (.v 16)),  -- 8226
    .V 12 (.o2 .add16 (.v 32) (.v 35)),  -- 8228
    .V 13 (.o2 .add16 (.v 33) (.v 34)),  -- 8229
    .V 13 (.o2 .mullo16 (.v 13) (.v 1)),  -- 8230
    .V 12 (.o2 .add16 (.v 12) (.v 2)),  -- 8231
    .V 12 (.o2 .add16 (.v 12) (.v 13)),  -- 8232
    .V 26 (.o1 (.srli16 3) (.v 12)),  -- 8233
    .V 16 (.o2 .add16 (.v 36) (.v 39)),  -- 8235
    .V 17 (.o2 .add16 (.v 37) (.v 38)),  -- 8236
    .V 17 (.o2 .mullo16 (.v 17) (.v 1))  -- 8237
  ]

/-- `intra_pred_ang_xy_23_sse128`, vec/intrinsic_intra-pred.cc:8238-8265. -/
def xy23S_24 : Stmt :=
  .run [
    .V 16 (.o2 .add16 (.v 16) (.v 2)),  -- 8238
    .V 16 (.o2 .add16 (.v 16) (.v 17)),  -- 8239
    .V 27 (.o1 (.srli16 3) (.v 16)),  -- 8240
    .V 20 (.o2 .packus16 (.v 20) (.v 22)),  -- 8242
    .V 24 (.o2 .packus16 (.v 24) (.v 26)),  -- 8243
    .V 20 (.o2 .shuffle8 (.v 20) (.v 11)),  -- 8244
    .V 24 (.o2 .shuffle8 (.v 24) (.v 11)),  -- 8245
    .V 21 (.o2 .packus16 (.v 21) (.v 23)),  -- 8247
    .V 25 (.o2 .packus16 (.v 25) (.v 27)),  -- 8248
    .V 21 (.o2 .shuffle8 (.v 21) (.v 11)),  -- 8249
    .V 25 (.o2 .shuffle8 (.v 25) (.v 11)),  -- 8250
    .V 22 (.o2 .unpacklo16 (.v 20) (.v 24)),  -- 8252
    .V 26 (.o2 .unpackhi16 (.v 20) (.v 24)),  -- 8253
    .V 23 (.o2 .unpacklo16 (.v 21) (.v 25)),  -- 8254
    .V 27 (.o2 .unpackhi16 (.v 21) (.v 25)),  -- 8255
    .st 4 (.pv (.n 1)) (.v 23),  -- 8257
    .P (.n 1) (.add (.pv (.n 1)) (.v 0)),  -- 8258
    .V 23 (.o1 (.srliB 4) (.v 23)),  -- 8259
    .st 4 (.pv (.n 1)) (.v 23),  -- 8260
    .P (.n 1) (.add (.pv (.n 1)) (.v 0)),  -- 8261
    .V 23 (.o1 (.srliB 4) (.v 23)),  -- 8262
    .st 4 (.pv (.n 1)) (.v 23),  -- 8263
    .P (.n 1) (.add (.pv (.n 1)) (.v 0)),  -- 8264
    .V 23 (.o1 (.srliB 4) (.v 23))  -- 8265
  ]

/-- `intra_pred_ang_xy_23_sse128`, vec/intrinsic_intra-pred.cc:8266-8289. -/
def xy23S_25 : Stmt :=
  .run [
    .st 4 (.pv (.n 1)) (.v 23),  -- 8266
    .P (.n 1) (.add (.pv (.n 1)) (.v 0)),  -- 8267
    .st 4 (.pv (.n 1)) (.v 27),  -- 8268
    .P (.n 1) (.add (.pv (.n 1)) (.v 0)),  -- 8269
    .V 27 (.o1 (.srliB 4) (.v 27)),  -- 8270
    .st 4 (.pv (.n 1)) (.v 27),  -- 8271
    .P (.n 1) (.add (.pv (.n 1)) (.v 0)),  -- 8272
    .V 27 (.o1 (.srliB 4) (.v 27)),  -- 8273
    .st 4 (.pv (.n 1)) (.v 27),  -- 8274
    .P (.n 1) (.add (.pv (.n 1)) (.v 0)),  -- 8275
    .V 27 (.o1 (.srliB 4) (.v 27)),  -- 8276
    .st 4 (.pv (.n 1)) (.v 27),  -- 8277
    .P (.n 1) (.add (.pv (.n 1)) (.v 0)),  -- 8278
    .st 4 (.pv (.n 1)) (.v 22),  -- 8279
    .P (.n 1) (.add (.pv (.n 1)) (.v 0)),  -- 8280
    .V 22 (.o1 (.srliB 4) (.v 22)),  -- 8281
    .st 4 (.pv (.n 1)) (.v 22),  -- 8282
    .P (.n 1) (.add (.pv (.n 1)) (.v 0)),  -- 8283
    .V 22 (.o1 (.srliB 4) (.v 22)),  -- 8284
    .st 4 (.pv (.n 1)) (.v 22),  -- 8285
    .P (.n 1) (.add (.pv (.n 1)) (.v 0)),  -- 8286
    .V 22 (.o1 (.srliB 4) (.v 22)),  -- 8287
    .st 4 (.pv (.n 1)) (.v 22),  -- 8288
    .P (.n 1) (.add (.pv (.n 1)) (.v 0))  -- 8289
  ]

/-- `intra_pred_ang_xy_23_sse128`, vec/intrinsic_intra-pred.cc:8290-8299. -/
def xy23S_26 : Stmt :=
  .run [
    .st 4 (.pv (.n 1)) (.v 26),  -- 8290
    .P (.n 1) (.add (.pv (.n 1)) (.v 0)),  -- 8291
    .V 26 (.o1 (.srliB 4) (.v 26)),  -- 8292
    .st 4 (.pv (.n 1)) (.v 26),  -- 8293
    .P (.n 1) (.add (.pv (.n 1)) (.v 0)),  -- 8294
    .V 26 (.o1 (.srliB 4) (.v 26)),  -- 8295
    .st 4 (.pv (.n 1)) (.v 26),  -- 8296
    .P (.n 1) (.add (.pv (.n 1)) (.v 0)),  -- 8297
    .V 26 (.o1 (.srliB 4) (.v 26)),  -- 8298
    .st 4 (.pv (.n 1)) (.v 26)  -- 8299
  ]

/-- `intra_pred_ang_xy_23_sse128`, vec/intrinsic_intra-pred.cc:8085. -/
def xy23S_27 : Stmt :=
  .ite (.eq (.v 3) (.n 4)) (.seq xy23S_18 (.seq xy23S_19 xy23S_20)) (.seq xy23S_21 (.seq xy23S_22 (.seq xy23S_23 (.seq xy23S_24 (.seq xy23S_25 xy23S_26)))))

/-- `intra_pred_ang_xy_23_sse128`, vec/intrinsic_intra-pred.cc:7986. -/
def xy23S_28 : Stmt :=
  .ite (.eq (.v 2) (.n 8)) (.seq xy23S_12 xy23S_16) (.seq xy23S_17 xy23S_27)

/-- `intra_pred_ang_xy_23_sse128`, vec/intrinsic_intra-pred.cc:7849. -/
def xy23S_29 : Stmt :=
  .ite (.lt (.n 8) (.v 2)) (.seq xy23S_1 (.seq xy23S_5 (.seq xy23S_6 (.seq xy23S_8 (.seq xy23S_9 xy23S_11))))) xy23S_28

/-- `intra_pred_ang_xy_23_sse128`, source/common/vec/intrinsic_intra-pred.cc:7842-8303.  Variables:
I: 0 i_dst, 1 dir_mode, 2 bsx, 3 bsy, 4 i, 5 left_size, 6 top_size, 7 line_size;
P: 0 src, 1 dst, 2 pfirst, 3 pfirst1, 4 src_org;
V: 0 zero/coeff0, 1 coeff0/coeff1/coeff3, 2 coeff1/coeff2/coeff4, 3 coeff2/coeff3/coeff5, 4 coeff3/coeff4/coeff7, 5 coeff4/coeff5/coeff8, 6 coeff5/p00/coeff9, 7 p00/p10/coeff11, 8 p10/p20/coeff13, 9 p20/p30/coeff15, 10 p30/L0/coeff16, 11 L0/L1/shuffle, 12 L1/L2/p01/p00, 13 L2/L3/p11/p10, 14 L3/p21/p20, 15 p01/p31/p30, 16 p11/M2/p01, 17 S0/M4/p11, 18 S1/M6/p21, 19 S2/M8/p31, 20 H0/S0/M1, 21 H1/S3/M2, 22 H2/S1/M3, 23 S2/M4, 24 H0/M5, 25 H1/M6, 26 H2/M7, 27 H3/M8, 28 S0, 29 S3, 30 S1, 31 S2, 32 L0, 33 L1, 34 L2, 35 L3, 36 H0, 37 H1, 38 H2, 39 H3. -/
def xy23S : Stmt :=
  xy23S_29

end Davs2.Vp
