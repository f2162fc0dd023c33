import Verif.Model.VpSseX
/-
The vector routines of directional intra prediction, statement by statement in the language of Model/VecProg.lean;
the number after `--` is the line of source/common/vec/intrinsic_intra-pred.cc.
Routines: intra_pred_ang_y_25_sse128, intra_pred_ang_y_26_sse128, intra_pred_ang_y_28_sse128, intra_pred_ang_y_30_sse128, intra_pred_ang_y_31_sse128, intra_pred_ang_y_32_sse128.
-/
namespace Davs2.Vp

/-- `intra_pred_ang_y_25_sse128`, vec/intrinsic_intra-pred.cc:3975-3996. -/
def y25S_1 : Stmt :=
  .run [
    .alloc 0 576,  -- 3975
    .I 5 (.add (.v 2) (.shl (.sub (.v 3) (.n 1)) 3)),  -- 3976
    .I 6 (.shl (.v 3) 3),  -- 3977
    .P (.n 2) (.pa 0),  -- 3978
    .V 0 (.setr16 [.n 7, .n 3, .n 5, .n 1, .n 3, .n 1, .n 1, .n 0]),  -- 3980
    .V 1 (.setr16 [.n 15, .n 7, .n 13, .n 3, .n 11, .n 5, .n 9, .n 1]),  -- 3981
    .V 2 (.setr16 [.n 9, .n 5, .n 11, .n 3, .n 13, .n 7, .n 15, .n 2]),  -- 3982
    .V 3 (.setr16 [.n 1, .n 1, .n 3, .n 1, .n 5, .n 3, .n 7, .n 1]),  -- 3983
    .V 4 (.setr16 [.n 16, .n 8, .n 16, .n 4, .n 16, .n 8, .n 16, .n 2]),  -- 3984
    .V 5 (.setr16 [.n 1, .n 2, .n 1, .n 4, .n 1, .n 2, .n 1, .n 8]),  -- 3985
    .V 10 (.set1_16 (.ld (.add (.pv (.n 0)) (.n 0)))),  -- 3989
    .V 11 (.set1_16 (.ld (.add (.pv (.n 0)) (.n (-1))))),  -- 3990
    .V 12 (.set1_16 (.ld (.add (.pv (.n 0)) (.n (-2))))),  -- 3991
    .V 13 (.set1_16 (.ld (.add (.pv (.n 0)) (.n (-3))))),  -- 3992
    .P (.n 0) (.sub (.pv (.n 0)) (.n 4)),  -- 3994
    .I 4 (.n 0)  -- 3996
  ]

/-- `intra_pred_ang_y_25_sse128`, vec/intrinsic_intra-pred.cc:3997-4023. -/
def y25S_2 : Stmt :=
  .run [
    .V 6 (.o2 .mullo16 (.v 10) (.v 0)),  -- 3997
    .V 7 (.o2 .mullo16 (.v 11) (.v 1)),  -- 3998
    .V 8 (.o2 .mullo16 (.v 12) (.v 2)),  -- 3999
    .V 9 (.o2 .mullo16 (.v 13) (.v 3)),  -- 4000
    .V 6 (.o2 .add16 (.v 6) (.v 4)),  -- 4001
    .V 6 (.o2 .add16 (.v 6) (.v 7)),  -- 4002
    .V 6 (.o2 .add16 (.v 6) (.v 8)),  -- 4003
    .V 6 (.o2 .add16 (.v 6) (.v 9)),  -- 4004
    .V 6 (.o2 .mullo16 (.v 6) (.v 5)),  -- 4005
    .V 6 (.o1 (.srli16 5) (.v 6)),  -- 4006
    .V 6 (.o2 .packus16 (.v 6) (.v 6)),  -- 4008
    .st 8 (.pv (.n 2)) (.v 6),  -- 4009
    .P (.n 2) (.add (.pv (.n 2)) (.n 8)),  -- 4011
    .V 10 (.set1_16 (.ld (.add (.pv (.n 0)) (.n 0)))),  -- 4012
    .V 6 (.o2 .mullo16 (.v 11) (.v 0)),  -- 4014
    .V 7 (.o2 .mullo16 (.v 12) (.v 1)),  -- 4015
    .V 8 (.o2 .mullo16 (.v 13) (.v 2)),  -- 4016
    .V 9 (.o2 .mullo16 (.v 10) (.v 3)),  -- 4017
    .V 6 (.o2 .add16 (.v 6) (.v 4)),  -- 4018
    .V 6 (.o2 .add16 (.v 6) (.v 7)),  -- 4019
    .V 6 (.o2 .add16 (.v 6) (.v 8)),  -- 4020
    .V 6 (.o2 .add16 (.v 6) (.v 9)),  -- 4021
    .V 6 (.o2 .mullo16 (.v 6) (.v 5)),  -- 4022
    .V 6 (.o1 (.srli16 5) (.v 6))  -- 4023
  ]

/-- `intra_pred_ang_y_25_sse128`, vec/intrinsic_intra-pred.cc:4025-4053. -/
def y25S_3 : Stmt :=
  .run [
    .V 6 (.o2 .packus16 (.v 6) (.v 6)),  -- 4025
    .st 8 (.pv (.n 2)) (.v 6),  -- 4026
    .P (.n 2) (.add (.pv (.n 2)) (.n 8)),  -- 4028
    .V 11 (.set1_16 (.ld (.add (.pv (.n 0)) (.n (-1))))),  -- 4029
    .V 6 (.o2 .mullo16 (.v 12) (.v 0)),  -- 4031
    .V 7 (.o2 .mullo16 (.v 13) (.v 1)),  -- 4032
    .V 8 (.o2 .mullo16 (.v 10) (.v 2)),  -- 4033
    .V 9 (.o2 .mullo16 (.v 11) (.v 3)),  -- 4034
    .V 6 (.o2 .add16 (.v 6) (.v 4)),  -- 4035
    .V 6 (.o2 .add16 (.v 6) (.v 7)),  -- 4036
    .V 6 (.o2 .add16 (.v 6) (.v 8)),  -- 4037
    .V 6 (.o2 .add16 (.v 6) (.v 9)),  -- 4038
    .V 6 (.o2 .mullo16 (.v 6) (.v 5)),  -- 4039
    .V 6 (.o1 (.srli16 5) (.v 6)),  -- 4040
    .V 6 (.o2 .packus16 (.v 6) (.v 6)),  -- 4042
    .st 8 (.pv (.n 2)) (.v 6),  -- 4043
    .P (.n 2) (.add (.pv (.n 2)) (.n 8)),  -- 4045
    .V 12 (.set1_16 (.ld (.add (.pv (.n 0)) (.n (-2))))),  -- 4046
    .V 6 (.o2 .mullo16 (.v 13) (.v 0)),  -- 4048
    .V 7 (.o2 .mullo16 (.v 10) (.v 1)),  -- 4049
    .V 8 (.o2 .mullo16 (.v 11) (.v 2)),  -- 4050
    .V 9 (.o2 .mullo16 (.v 12) (.v 3)),  -- 4051
    .V 6 (.o2 .add16 (.v 6) (.v 4)),  -- 4052
    .V 6 (.o2 .add16 (.v 6) (.v 7))  -- 4053
  ]

/-- `intra_pred_ang_y_25_sse128`, vec/intrinsic_intra-pred.cc:3996-4063. -/
def y25S_4 : Stmt :=
  .run [
    .V 6 (.o2 .add16 (.v 6) (.v 8)),  -- 4054
    .V 6 (.o2 .add16 (.v 6) (.v 9)),  -- 4055
    .V 6 (.o2 .mullo16 (.v 6) (.v 5)),  -- 4056
    .V 6 (.o1 (.srli16 5) (.v 6)),  -- 4057
    .V 6 (.o2 .packus16 (.v 6) (.v 6)),  -- 4059
    .st 8 (.pv (.n 2)) (.v 6),  -- 4060
    .P (.n 2) (.add (.pv (.n 2)) (.n 8)),  -- 4062
    .V 13 (.set1_16 (.ld (.add (.pv (.n 0)) (.n (-3))))),  -- 4063
    .I 4 (.add (.v 4) (.n 32)),  -- 3996
    .P (.n 0) (.sub (.pv (.n 0)) (.n 4))
  ]

/-- `intra_pred_ang_y_25_sse128`, vec/intrinsic_intra-pred.cc:3996. -/
def y25S_5 : Stmt :=
  .loop (.lt (.v 4) (.sub (.v 5) (.n 24))) (.seq y25S_2 (.seq y25S_3 y25S_4))

/-- `intra_pred_ang_y_25_sse128`, vec/intrinsic_intra-pred.cc:4067-4079. -/
def y25S_6 : Stmt :=
  .run [
    .V 6 (.o2 .mullo16 (.v 10) (.v 0)),  -- 4067
    .V 7 (.o2 .mullo16 (.v 11) (.v 1)),  -- 4068
    .V 8 (.o2 .mullo16 (.v 12) (.v 2)),  -- 4069
    .V 9 (.o2 .mullo16 (.v 13) (.v 3)),  -- 4070
    .V 6 (.o2 .add16 (.v 6) (.v 4)),  -- 4071
    .V 6 (.o2 .add16 (.v 6) (.v 7)),  -- 4072
    .V 6 (.o2 .add16 (.v 6) (.v 8)),  -- 4073
    .V 6 (.o2 .add16 (.v 6) (.v 9)),  -- 4074
    .V 6 (.o2 .mullo16 (.v 6) (.v 5)),  -- 4075
    .V 6 (.o1 (.srli16 5) (.v 6)),  -- 4076
    .V 6 (.o2 .packus16 (.v 6) (.v 6)),  -- 4078
    .st 8 (.pv (.n 2)) (.v 6)  -- 4079
  ]

/-- `intra_pred_ang_y_25_sse128`, vec/intrinsic_intra-pred.cc:4081-4107. -/
def y25S_7 : Stmt :=
  .run [
    .V 6 (.o2 .mullo16 (.v 10) (.v 0)),  -- 4081
    .V 7 (.o2 .mullo16 (.v 11) (.v 1)),  -- 4082
    .V 8 (.o2 .mullo16 (.v 12) (.v 2)),  -- 4083
    .V 9 (.o2 .mullo16 (.v 13) (.v 3)),  -- 4084
    .V 6 (.o2 .add16 (.v 6) (.v 4)),  -- 4085
    .V 6 (.o2 .add16 (.v 6) (.v 7)),  -- 4086
    .V 6 (.o2 .add16 (.v 6) (.v 8)),  -- 4087
    .V 6 (.o2 .add16 (.v 6) (.v 9)),  -- 4088
    .V 6 (.o2 .mullo16 (.v 6) (.v 5)),  -- 4089
    .V 6 (.o1 (.srli16 5) (.v 6)),  -- 4090
    .V 6 (.o2 .packus16 (.v 6) (.v 6)),  -- 4092
    .st 8 (.pv (.n 2)) (.v 6),  -- 4093
    .P (.n 2) (.add (.pv (.n 2)) (.n 8)),  -- 4095
    .V 10 (.set1_16 (.ld (.add (.pv (.n 0)) (.n 0)))),  -- 4096
    .V 6 (.o2 .mullo16 (.v 11) (.v 0)),  -- 4098
    .V 7 (.o2 .mullo16 (.v 12) (.v 1)),  -- 4099
    .V 8 (.o2 .mullo16 (.v 13) (.v 2)),  -- 4100
    .V 9 (.o2 .mullo16 (.v 10) (.v 3)),  -- 4101
    .V 6 (.o2 .add16 (.v 6) (.v 4)),  -- 4102
    .V 6 (.o2 .add16 (.v 6) (.v 7)),  -- 4103
    .V 6 (.o2 .add16 (.v 6) (.v 8)),  -- 4104
    .V 6 (.o2 .add16 (.v 6) (.v 9)),  -- 4105
    .V 6 (.o2 .mullo16 (.v 6) (.v 5)),  -- 4106
    .V 6 (.o1 (.srli16 5) (.v 6))  -- 4107
  ]

/-- `intra_pred_ang_y_25_sse128`, vec/intrinsic_intra-pred.cc:4109-4127. -/
def y25S_8 : Stmt :=
  .run [
    .V 6 (.o2 .packus16 (.v 6) (.v 6)),  -- 4109
    .st 8 (.pv (.n 2)) (.v 6),  -- 4110
    .P (.n 2) (.add (.pv (.n 2)) (.n 8)),  -- 4112
    .V 11 (.set1_16 (.ld (.add (.pv (.n 0)) (.n (-1))))),  -- 4113
    .V 6 (.o2 .mullo16 (.v 12) (.v 0)),  -- 4115
    .V 7 (.o2 .mullo16 (.v 13) (.v 1)),  -- 4116
    .V 8 (.o2 .mullo16 (.v 10) (.v 2)),  -- 4117
    .V 9 (.o2 .mullo16 (.v 11) (.v 3)),  -- 4118
    .V 6 (.o2 .add16 (.v 6) (.v 4)),  -- 4119
    .V 6 (.o2 .add16 (.v 6) (.v 7)),  -- 4120
    .V 6 (.o2 .add16 (.v 6) (.v 8)),  -- 4121
    .V 6 (.o2 .add16 (.v 6) (.v 9)),  -- 4122
    .V 6 (.o2 .mullo16 (.v 6) (.v 5)),  -- 4123
    .V 6 (.o1 (.srli16 5) (.v 6)),  -- 4124
    .V 6 (.o2 .packus16 (.v 6) (.v 6)),  -- 4126
    .st 8 (.pv (.n 2)) (.v 6)  -- 4127
  ]

/-- `intra_pred_ang_y_25_sse128`, vec/intrinsic_intra-pred.cc:4066. -/
def y25S_9 : Stmt :=
  .ite (.eq (.v 2) (.n 16)) y25S_6 (.seq y25S_7 y25S_8)

/-- `intra_pred_ang_y_25_sse128`, vec/intrinsic_intra-pred.cc:4130. -/
def y25S_10 : Stmt :=
  .run [
    .I 4 (.n 0)  -- 4130
  ]

/-- `intra_pred_ang_y_25_sse128`, vec/intrinsic_intra-pred.cc:4130-4132. -/
def y25S_11 : Stmt :=
  .run [
    .cpy (.pv (.n 1)) (.add (.pa 0) (.v 4)) (.mul (.v 2) (.n 1)),  -- 4131
    .P (.n 1) (.add (.pv (.n 1)) (.v 0)),  -- 4132
    .I 4 (.add (.v 4) (.n 8))  -- 4130
  ]

/-- `intra_pred_ang_y_25_sse128`, vec/intrinsic_intra-pred.cc:4130. -/
def y25S_12 : Stmt :=
  .loop (.lt (.v 4) (.v 6)) y25S_11

/-- `intra_pred_ang_y_25_sse128`, vec/intrinsic_intra-pred.cc:4135-4151. -/
def y25S_13 : Stmt :=
  .run [
    .V 0 (.setr16 [.n 7, .n 3, .n 5, .n 1, .n 3, .n 1, .n 1, .n 0]),  -- 4135
    .V 1 (.setr16 [.n 15, .n 7, .n 13, .n 3, .n 11, .n 5, .n 9, .n 1]),  -- 4136
    .V 2 (.setr16 [.n 9, .n 5, .n 11, .n 3, .n 13, .n 7, .n 15, .n 2]),  -- 4137
    .V 3 (.setr16 [.n 1, .n 1, .n 3, .n 1, .n 5, .n 3, .n 7, .n 1]),  -- 4138
    .V 4 (.setr16 [.n 16, .n 8, .n 16, .n 4, .n 16, .n 8, .n 16, .n 2]),  -- 4139
    .V 5 (.setr16 [.n 1, .n 2, .n 1, .n 4, .n 1, .n 2, .n 1, .n 8]),  -- 4140
    .V 10 (.set1_16 (.ld (.add (.pv (.n 0)) (.n 0)))),  -- 4144
    .V 11 (.set1_16 (.ld (.add (.pv (.n 0)) (.n (-1))))),  -- 4145
    .V 12 (.set1_16 (.ld (.add (.pv (.n 0)) (.n (-2))))),  -- 4146
    .V 13 (.set1_16 (.ld (.add (.pv (.n 0)) (.n (-3))))),  -- 4147
    .P (.n 0) (.sub (.pv (.n 0)) (.n 4)),  -- 4148
    .I 3 (.shr (.v 3) 2),  -- 4150
    .I 4 (.n 0)  -- 4151
  ]

/-- `intra_pred_ang_y_25_sse128`, vec/intrinsic_intra-pred.cc:4152-4178. -/
def y25S_14 : Stmt :=
  .run [
    .V 6 (.o2 .mullo16 (.v 10) (.v 0)),  -- 4152
    .V 7 (.o2 .mullo16 (.v 11) (.v 1)),  -- 4153
    .V 8 (.o2 .mullo16 (.v 12) (.v 2)),  -- 4154
    .V 9 (.o2 .mullo16 (.v 13) (.v 3)),  -- 4155
    .V 6 (.o2 .add16 (.v 6) (.v 4)),  -- 4156
    .V 6 (.o2 .add16 (.v 6) (.v 7)),  -- 4157
    .V 6 (.o2 .add16 (.v 6) (.v 8)),  -- 4158
    .V 6 (.o2 .add16 (.v 6) (.v 9)),  -- 4159
    .V 6 (.o2 .mullo16 (.v 6) (.v 5)),  -- 4160
    .V 6 (.o1 (.srli16 5) (.v 6)),  -- 4161
    .V 6 (.o2 .packus16 (.v 6) (.v 6)),  -- 4163
    .st 8 (.pv (.n 1)) (.v 6),  -- 4164
    .P (.n 1) (.add (.pv (.n 1)) (.v 0)),  -- 4166
    .V 10 (.set1_16 (.ld (.add (.pv (.n 0)) (.n 0)))),  -- 4167
    .V 6 (.o2 .mullo16 (.v 11) (.v 0)),  -- 4169
    .V 7 (.o2 .mullo16 (.v 12) (.v 1)),  -- 4170
    .V 8 (.o2 .mullo16 (.v 13) (.v 2)),  -- 4171
    .V 9 (.o2 .mullo16 (.v 10) (.v 3)),  -- 4172
    .V 6 (.o2 .add16 (.v 6) (.v 4)),  -- 4173
    .V 6 (.o2 .add16 (.v 6) (.v 7)),  -- 4174
    .V 6 (.o2 .add16 (.v 6) (.v 8)),  -- 4175
    .V 6 (.o2 .add16 (.v 6) (.v 9)),  -- 4176
    .V 6 (.o2 .mullo16 (.v 6) (.v 5)),  -- 4177
    .V 6 (.o1 (.srli16 5) (.v 6))  -- 4178
  ]

/-- `intra_pred_ang_y_25_sse128`, vec/intrinsic_intra-pred.cc:4180-4208. -/
def y25S_15 : Stmt :=
  .run [
    .V 6 (.o2 .packus16 (.v 6) (.v 6)),  -- 4180
    .st 8 (.pv (.n 1)) (.v 6),  -- 4181
    .P (.n 1) (.add (.pv (.n 1)) (.v 0)),  -- 4183
    .V 11 (.set1_16 (.ld (.add (.pv (.n 0)) (.n (-1))))),  -- 4184
    .V 6 (.o2 .mullo16 (.v 12) (.v 0)),  -- 4186
    .V 7 (.o2 .mullo16 (.v 13) (.v 1)),  -- 4187
    .V 8 (.o2 .mullo16 (.v 10) (.v 2)),  -- 4188
    .V 9 (.o2 .mullo16 (.v 11) (.v 3)),  -- 4189
    .V 6 (.o2 .add16 (.v 6) (.v 4)),  -- 4190
    .V 6 (.o2 .add16 (.v 6) (.v 7)),  -- 4191
    .V 6 (.o2 .add16 (.v 6) (.v 8)),  -- 4192
    .V 6 (.o2 .add16 (.v 6) (.v 9)),  -- 4193
    .V 6 (.o2 .mullo16 (.v 6) (.v 5)),  -- 4194
    .V 6 (.o1 (.srli16 5) (.v 6)),  -- 4195
    .V 6 (.o2 .packus16 (.v 6) (.v 6)),  -- 4197
    .st 8 (.pv (.n 1)) (.v 6),  -- 4198
    .P (.n 1) (.add (.pv (.n 1)) (.v 0)),  -- 4200
    .V 12 (.set1_16 (.ld (.add (.pv (.n 0)) (.n (-2))))),  -- 4201
    .V 6 (.o2 .mullo16 (.v 13) (.v 0)),  -- 4203
    .V 7 (.o2 .mullo16 (.v 10) (.v 1)),  -- 4204
    .V 8 (.o2 .mullo16 (.v 11) (.v 2)),  -- 4205
    .V 9 (.o2 .mullo16 (.v 12) (.v 3)),  -- 4206
    .V 6 (.o2 .add16 (.v 6) (.v 4)),  -- 4207
    .V 6 (.o2 .add16 (.v 6) (.v 7))  -- 4208
  ]

/-- `intra_pred_ang_y_25_sse128`, vec/intrinsic_intra-pred.cc:4151-4218. -/
def y25S_16 : Stmt :=
  .run [
    .V 6 (.o2 .add16 (.v 6) (.v 8)),  -- 4209
    .V 6 (.o2 .add16 (.v 6) (.v 9)),  -- 4210
    .V 6 (.o2 .mullo16 (.v 6) (.v 5)),  -- 4211
    .V 6 (.o1 (.srli16 5) (.v 6)),  -- 4212
    .V 6 (.o2 .packus16 (.v 6) (.v 6)),  -- 4214
    .st 8 (.pv (.n 1)) (.v 6),  -- 4215
    .P (.n 1) (.add (.pv (.n 1)) (.v 0)),  -- 4217
    .V 13 (.set1_16 (.ld (.add (.pv (.n 0)) (.n (-3))))),  -- 4218
    .I 4 (.add (.v 4) (.n 1)),  -- 4151
    .P (.n 0) (.sub (.pv (.n 0)) (.n 4))
  ]

/-- `intra_pred_ang_y_25_sse128`, vec/intrinsic_intra-pred.cc:4151. -/
def y25S_17 : Stmt :=
  .loop (.lt (.v 4) (.v 3)) (.seq y25S_14 (.seq y25S_15 y25S_16))

/-- `intra_pred_ang_y_25_sse128`, vec/intrinsic_intra-pred.cc:4221-4232. -/
def y25S_18 : Stmt :=
  .run [
    .V 0 .zero,  -- 4221
    .V 1 (.set1_16 (.n 3)),  -- 4222
    .V 2 (.set1_16 (.n 4)),  -- 4223
    .V 3 (.set1_16 (.n 5)),  -- 4224
    .V 4 (.set1_16 (.n 7)),  -- 4225
    .V 5 (.set1_16 (.n 8)),  -- 4226
    .V 6 (.set1_16 (.n 9)),  -- 4227
    .V 7 (.set1_16 (.n 11)),  -- 4228
    .V 8 (.set1_16 (.n 13)),  -- 4229
    .V 9 (.set1_16 (.n 15)),  -- 4230
    .V 10 (.set1_16 (.n 16)),  -- 4231
    .V 11 (.setr8 [7, 15, 6, 14, 5, 13, 4, 12, 3, 11, 2, 10, 1, 9, 0, 8])  -- 4232
  ]

/-- `intra_pred_ang_y_25_sse128`, vec/intrinsic_intra-pred.cc:4235-4263. -/
def y25S_19 : Stmt :=
  .run [
    .P (.n 0) (.sub (.pv (.n 0)) (.n 15)),  -- 4235
    .V 20 (.ld 16 (.pv (.n 0))),  -- 4238
    .V 21 (.ld 16 (.sub (.pv (.n 0)) (.n 3))),  -- 4239
    .V 22 (.ld 16 (.sub (.pv (.n 0)) (.n 1))),  -- 4240
    .V 23 (.ld 16 (.sub (.pv (.n 0)) (.n 2))),  -- 4241
    .V 24 (.o2 .unpackhi8 (.v 20) (.v 0)),  -- 4243
    .V 25 (.o2 .unpackhi8 (.v 22) (.v 0)),  -- 4244
    .V 26 (.o2 .unpackhi8 (.v 23) (.v 0)),  -- 4245
    .V 27 (.o2 .unpackhi8 (.v 21) (.v 0)),  -- 4246
    .V 12 (.o2 .mullo16 (.v 24) (.v 4)),  -- 4248
    .V 13 (.o2 .mullo16 (.v 25) (.v 9)),  -- 4249
    .V 14 (.o2 .mullo16 (.v 26) (.v 6)),  -- 4250
    .V 15 (.o2 .add16 (.v 27) (.v 10)),  -- 4251
    .V 12 (.o2 .add16 (.v 12) (.v 13)),  -- 4252
    .V 12 (.o2 .add16 (.v 12) (.v 14)),  -- 4253
    .V 12 (.o2 .add16 (.v 12) (.v 15)),  -- 4254
    .V 16 (.o1 (.srli16 5) (.v 12)),  -- 4255
    .V 12 (.o2 .mullo16 (.v 24) (.v 1)),  -- 4257
    .V 13 (.o2 .mullo16 (.v 25) (.v 4)),  -- 4258
    .V 14 (.o2 .mullo16 (.v 26) (.v 3)),  -- 4259
    .V 15 (.o2 .add16 (.v 27) (.v 5)),  -- 4260
    .V 12 (.o2 .add16 (.v 12) (.v 13)),  -- 4261
    .V 12 (.o2 .add16 (.v 12) (.v 14)),  -- 4262
    .V 12 (.o2 .add16 (.v 12) (.v 15))  -- 4263
  ]

/-- `intra_pred_ang_y_25_sse128`, vec/intrinsic_intra-pred.cc:4264-4292. -/
def y25S_20 : Stmt :=
  .run [
    .V 17 (.o1 (.srli16 4) (.v 12)),  -- 4264
    .V 12 (.o2 .mullo16 (.v 24) (.v 3)),  -- 4266
    .V 13 (.o2 .mullo16 (.v 25) (.v 8)),  -- 4267
    .V 14 (.o2 .mullo16 (.v 26) (.v 7)),  -- 4268
    .V 15 (.o2 .mullo16 (.v 27) (.v 1)),  -- 4269
    .V 12 (.o2 .add16 (.v 12) (.v 10)),  -- 4270
    .V 12 (.o2 .add16 (.v 12) (.v 13)),  -- 4271
    .V 12 (.o2 .add16 (.v 12) (.v 14)),  -- 4272
    .V 12 (.o2 .add16 (.v 12) (.v 15)),  -- 4273
    .V 18 (.o1 (.srli16 5) (.v 12)),  -- 4274
    .V 12 (.o2 .add16 (.v 24) (.v 27)),  -- 4276
    .V 13 (.o2 .add16 (.v 25) (.v 26)),  -- 4277
    .V 13 (.o2 .mullo16 (.v 13) (.v 1)),  -- 4278
    .V 12 (.o2 .add16 (.v 12) (.v 2)),  -- 4279
    .V 12 (.o2 .add16 (.v 12) (.v 13)),  -- 4280
    .V 19 (.o1 (.srli16 3) (.v 12)),  -- 4281
    .V 16 (.o2 .packus16 (.v 16) (.v 17)),  -- 4283
    .V 18 (.o2 .packus16 (.v 18) (.v 19)),  -- 4284
    .V 16 (.o2 .shuffle8 (.v 16) (.v 11)),  -- 4285
    .V 18 (.o2 .shuffle8 (.v 18) (.v 11)),  -- 4286
    .V 17 (.o2 .unpacklo16 (.v 16) (.v 18)),  -- 4288
    .st 4 (.pv (.n 1)) (.v 17),  -- 4290
    .P (.n 1) (.add (.pv (.n 1)) (.v 0)),  -- 4291
    .V 17 (.o1 (.srliB 4) (.v 17))  -- 4292
  ]

/-- `intra_pred_ang_y_25_sse128`, vec/intrinsic_intra-pred.cc:4293-4299. -/
def y25S_21 : Stmt :=
  .run [
    .st 4 (.pv (.n 1)) (.v 17),  -- 4293
    .P (.n 1) (.add (.pv (.n 1)) (.v 0)),  -- 4294
    .V 17 (.o1 (.srliB 4) (.v 17)),  -- 4295
    .st 4 (.pv (.n 1)) (.v 17),  -- 4296
    .P (.n 1) (.add (.pv (.n 1)) (.v 0)),  -- 4297
    .V 17 (.o1 (.srliB 4) (.v 17)),  -- 4298
    .st 4 (.pv (.n 1)) (.v 17)  -- 4299
  ]

/-- `intra_pred_ang_y_25_sse128`, vec/intrinsic_intra-pred.cc:4301-4332. -/
def y25S_22 : Stmt :=
  .run [
    .P (.n 0) (.sub (.pv (.n 0)) (.n 15)),  -- 4301
    .V 28 (.ld 16 (.pv (.n 0))),  -- 4306
    .V 29 (.ld 16 (.sub (.pv (.n 0)) (.n 3))),  -- 4307
    .V 30 (.ld 16 (.sub (.pv (.n 0)) (.n 1))),  -- 4308
    .V 31 (.ld 16 (.sub (.pv (.n 0)) (.n 2))),  -- 4309
    .V 32 (.o2 .unpacklo8 (.v 28) (.v 0)),  -- 4311
    .V 33 (.o2 .unpacklo8 (.v 30) (.v 0)),  -- 4312
    .V 34 (.o2 .unpacklo8 (.v 31) (.v 0)),  -- 4313
    .V 35 (.o2 .unpacklo8 (.v 29) (.v 0)),  -- 4314
    .V 36 (.o2 .unpackhi8 (.v 28) (.v 0)),  -- 4316
    .V 37 (.o2 .unpackhi8 (.v 30) (.v 0)),  -- 4317
    .V 38 (.o2 .unpackhi8 (.v 31) (.v 0)),  -- 4318
    .V 39 (.o2 .unpackhi8 (.v 29) (.v 0)),  -- 4319
    .V 12 (.o2 .mullo16 (.v 32) (.v 4)),  -- 4321
    .V 13 (.o2 .mullo16 (.v 33) (.v 9)),  -- 4322
    .V 14 (.o2 .mullo16 (.v 34) (.v 6)),  -- 4323
    .V 15 (.o2 .add16 (.v 35) (.v 10)),  -- 4324
    .V 12 (.o2 .add16 (.v 12) (.v 13)),  -- 4325
    .V 12 (.o2 .add16 (.v 12) (.v 14)),  -- 4326
    .V 12 (.o2 .add16 (.v 12) (.v 15)),  -- 4327
    .V 20 (.o1 (.srli16 5) (.v 12)),  -- 4328
    .V 16 (.o2 .mullo16 (.v 36) (.v 4)),  -- 4330
    .V 17 (.o2 .mullo16 (.v 37) (.v 9)),  -- 4331
    .V 18 (.o2 .mullo16 (.v 38) (.v 6))  -- 4332
  ]

/-- `intra_pred_ang_y_25_sse128`, vec/intrinsic_intra-pred.cc:4333-4359. -/
def y25S_23 : Stmt :=
  .run [
    .V 19 (.o2 .add16 (.v 39) (.v 10)),  -- 4333
    .V 16 (.o2 .add16 (.v 16) (.v 17)),  -- 4334
    .V 16 (.o2 .add16 (.v 16) (.v 18)),  -- 4335
    .V 16 (.o2 .add16 (.v 16) (.v 19)),  -- 4336
    .V 21 (.o1 (.srli16 5) (.v 16)),  -- 4337
    .V 12 (.o2 .mullo16 (.v 32) (.v 1)),  -- 4339
    .V 13 (.o2 .mullo16 (.v 33) (.v 4)),  -- 4340
    .V 14 (.o2 .mullo16 (.v 34) (.v 3)),  -- 4341
    .V 15 (.o2 .add16 (.v 35) (.v 5)),  -- 4342
    .V 12 (.o2 .add16 (.v 12) (.v 13)),  -- 4343
    .V 12 (.o2 .add16 (.v 12) (.v 14)),  -- 4344
    .V 12 (.o2 .add16 (.v 12) (.v 15)),  -- 4345
    .V 22 (.o1 (.srli16 4) (.v 12)),  -- 4346
    .V 16 (.o2 .mullo16 (.v 36) (.v 1)),  -- 4348
    .V 17 (.o2 .mullo16 (.v 37) (.v 4)),  -- 4349
    .V 18 (.o2 .mullo16 (.v 38) (.v 3)),  -- 4350
    .V 19 (.o2 .add16 (.v 39) (.v 5)),  -- 4351
    .V 16 (.o2 .add16 (.v 16) (.v 17)),  -- 4352
    .V 16 (.o2 .add16 (.v 16) (.v 18)),  -- 4353
    .V 16 (.o2 .add16 (.v 16) (.v 19)),  -- 4354
    .V 23 (.o1 (.srli16 4) (.v 16)),  -- 4355
    .V 12 (.o2 .mullo16 (.v 32) (.v 3)),  -- 4357
    .V 13 (.o2 .mullo16 (.v 33) (.v 8)),  -- 4358
    .V 14 (.o2 .mullo16 (.v 34) (.v 7))  -- 4359
  ]

/-- `intra_pred_ang_y_25_sse128`, vec/intrinsic_intra-pred.cc:4360-4386. -/
def y25S_24 : Stmt :=
  .run [
    .V 15 (.o2 .mullo16 (.v 35) (.v 1)),  -- 4360
    .V 12 (.o2 .add16 (.v 12) (.v 10)),  -- 4361
    .V 12 (.o2 .add16 (.v 12) (.v 13)),  -- 4362
    .V 12 (.o2 .add16 (.v 12) (.v 14)),  -- 4363
    .V 12 (.o2 .add16 (.v 12) (.v 15)),  -- 4364
    .V 24 (.o1 (.srli16 5) (.v 12)),  -- 4365
    .V 16 (.o2 .mullo16 (.v 36) (.v 3)),  -- 4367
    .V 17 (.o2 .mullo16 (.v 37) (.v 8)),  -- 4368
    .V 18 (.o2 .mullo16 (.v 38) (.v 7)),  -- 4369
    .V 19 (.o2 .mullo16 (.v 39) (.v 1)),  -- 4370
    .V 16 (.o2 .add16 (.v 16) (.v 10)),  -- 4371
    .V 16 (.o2 .add16 (.v 16) (.v 17)),  -- 4372
    .V 16 (.o2 .add16 (.v 16) (.v 18)),  -- 4373
    .V 16 (.o2 .add16 (.v 16) (.v 19)),  -- 4374
    .V 25 (.o1 (.srli16 5) (.v 16)),  -- 4375
    .V 12 (.o2 .add16 (.v 32) (.v 35)),  -- 4377
    .V 13 (.o2 .add16 (.v 33) (.v 34)),  -- 4378
    .V 13 (.o2 .mullo16 (.v 13) (.v 1)),  -- 4379
    .V 12 (.o2 .add16 (.v 12) (.v 2)),  -- 4380
    .V 12 (.o2 .add16 (.v 12) (.v 13)),  -- 4381
    .V 26 (.o1 (.srli16 3) (.v 12)),  -- 4382
    .V 16 (.o2 .add16 (.v 36) (.v 39)),  -- 4384
    .V 17 (.o2 .add16 (.v 37) (.v 38)),  -- 4385
    .V 17 (.o2 .mullo16 (.v 17) (.v 1))  -- 4386
  ]

/-- `intra_pred_ang_y_25_sse128`, vec/intrinsic_intra-pred.cc:4387-4414. -/
def y25S_25 : Stmt :=
  .run [
    .V 16 (.o2 .add16 (.v 16) (.v 2)),  -- 4387
    .V 16 (.o2 .add16 (.v 16) (.v 17)),  -- 4388
    .V 27 (.o1 (.srli16 3) (.v 16)),  -- 4389
    .V 20 (.o2 .packus16 (.v 20) (.v 22)),  -- 4391
    .V 24 (.o2 .packus16 (.v 24) (.v 26)),  -- 4392
    .V 20 (.o2 .shuffle8 (.v 20) (.v 11)),  -- 4393
    .V 24 (.o2 .shuffle8 (.v 24) (.v 11)),  -- 4394
    .V 21 (.o2 .packus16 (.v 21) (.v 23)),  -- 4396
    .V 25 (.o2 .packus16 (.v 25) (.v 27)),  -- 4397
    .V 21 (.o2 .shuffle8 (.v 21) (.v 11)),  -- 4398
    .V 25 (.o2 .shuffle8 (.v 25) (.v 11)),  -- 4399
    .V 22 (.o2 .unpacklo16 (.v 20) (.v 24)),  -- 4401
    .V 26 (.o2 .unpackhi16 (.v 20) (.v 24)),  -- 4402
    .V 23 (.o2 .unpacklo16 (.v 21) (.v 25)),  -- 4403
    .V 27 (.o2 .unpackhi16 (.v 21) (.v 25)),  -- 4404
    .st 4 (.pv (.n 1)) (.v 23),  -- 4406
    .P (.n 1) (.add (.pv (.n 1)) (.v 0)),  -- 4407
    .V 23 (.o1 (.srliB 4) (.v 23)),  -- 4408
    .st 4 (.pv (.n 1)) (.v 23),  -- 4409
    .P (.n 1) (.add (.pv (.n 1)) (.v 0)),  -- 4410
    .V 23 (.o1 (.srliB 4) (.v 23)),  -- 4411
    .st 4 (.pv (.n 1)) (.v 23),  -- 4412
    .P (.n 1) (.add (.pv (.n 1)) (.v 0)),  -- 4413
    .V 23 (.o1 (.srliB 4) (.v 23))  -- 4414
  ]

/-- `intra_pred_ang_y_25_sse128`, vec/intrinsic_intra-pred.cc:4415-4438. -/
def y25S_26 : Stmt :=
  .run [
    .st 4 (.pv (.n 1)) (.v 23),  -- 4415
    .P (.n 1) (.add (.pv (.n 1)) (.v 0)),  -- 4416
    .st 4 (.pv (.n 1)) (.v 27),  -- 4417
    .P (.n 1) (.add (.pv (.n 1)) (.v 0)),  -- 4418
    .V 27 (.o1 (.srliB 4) (.v 27)),  -- 4419
    .st 4 (.pv (.n 1)) (.v 27),  -- 4420
    .P (.n 1) (.add (.pv (.n 1)) (.v 0)),  -- 4421
    .V 27 (.o1 (.srliB 4) (.v 27)),  -- 4422
    .st 4 (.pv (.n 1)) (.v 27),  -- 4423
    .P (.n 1) (.add (.pv (.n 1)) (.v 0)),  -- 4424
    .V 27 (.o1 (.srliB 4) (.v 27)),  -- 4425
    .st 4 (.pv (.n 1)) (.v 27),  -- 4426
    .P (.n 1) (.add (.pv (.n 1)) (.v 0)),  -- 4427
    .st 4 (.pv (.n 1)) (.v 22),  -- 4428
    .P (.n 1) (.add (.pv (.n 1)) (.v 0)),  -- 4429
    .V 22 (.o1 (.srliB 4) (.v 22)),  -- 4430
    .st 4 (.pv (.n 1)) (.v 22),  -- 4431
    .P (.n 1) (.add (.pv (.n 1)) (.v 0)),  -- 4432
    .V 22 (.o1 (.srliB 4) (.v 22)),  -- 4433
    .st 4 (.pv (.n 1)) (.v 22),  -- 4434
    .P (.n 1) (.add (.pv (.n 1)) (.v 0)),  -- 4435
    .V 22 (.o1 (.srliB 4) (.v 22)),  -- 4436
    .st 4 (.pv (.n 1)) (.v 22),  -- 4437
    .P (.n 1) (.add (.pv (.n 1)) (.v 0))  -- 4438
  ]

/-- `intra_pred_ang_y_25_sse128`, vec/intrinsic_intra-pred.cc:4439-4448. -/
def y25S_27 : Stmt :=
  .run [
    .st 4 (.pv (.n 1)) (.v 26),  -- 4439
    .P (.n 1) (.add (.pv (.n 1)) (.v 0)),  -- 4440
    .V 26 (.o1 (.srliB 4) (.v 26)),  -- 4441
    .st 4 (.pv (.n 1)) (.v 26),  -- 4442
    .P (.n 1) (.add (.pv (.n 1)) (.v 0)),  -- 4443
    .V 26 (.o1 (.srliB 4) (.v 26)),  -- 4444
    .st 4 (.pv (.n 1)) (.v 26),  -- 4445
    .P (.n 1) (.add (.pv (.n 1)) (.v 0)),  -- 4446
    .V 26 (.o1 (.srliB 4) (.v 26)),  -- 4447
    .st 4 (.pv (.n 1)) (.v 26)  -- 4448
  ]

/-- `intra_pred_ang_y_25_sse128`, vec/intrinsic_intra-pred.cc:4234. -/
def y25S_28 : Stmt :=
  .ite (.eq (.v 3) (.n 4)) (.seq y25S_19 (.seq y25S_20 y25S_21)) (.seq y25S_22 (.seq y25S_23 (.seq y25S_24 (.seq y25S_25 (.seq y25S_26 y25S_27)))))

/-- `intra_pred_ang_y_25_sse128`, vec/intrinsic_intra-pred.cc:4134. -/
def y25S_29 : Stmt :=
  .ite (.eq (.v 2) (.n 8)) (.seq y25S_13 y25S_17) (.seq y25S_18 y25S_28)

/-- `intra_pred_ang_y_25_sse128`, vec/intrinsic_intra-pred.cc:3974. -/
def y25S_30 : Stmt :=
  .ite (.lt (.n 8) (.v 2)) (.seq y25S_1 (.seq y25S_5 (.seq y25S_9 (.seq y25S_10 y25S_12)))) y25S_29

/-- `intra_pred_ang_y_25_sse128`, source/common/vec/intrinsic_intra-pred.cc:3968-4452.  Variables:
I: 0 i_dst, 1 dir_mode, 2 bsx, 3 bsy, 4 i, 5 line_size, 6 iHeight8;
P: 0 src, 1 dst, 2 pfirst;
V: 0 coeff0/zero, 1 coeff1/coeff3, 2 coeff2/coeff4, 3 coeff3/coeff5, 4 coeff4/coeff7, 5 coeff5/coeff8, 6 p00/coeff9, 7 p10/coeff11, 8 p20/coeff13, 9 p30/coeff15, 10 L0/coeff16, 11 L1/shuffle, 12 L2/p01/p00, 13 L3/p11/p10, 14 p21/p20, 15 p31/p30, 16 M2/p01, 17 M4/p11, 18 M6/p21, 19 M8/p31, 20 S0/M1, 21 S3/M2, 22 S1/M3, 23 S2/M4, 24 H0/M5, 25 H1/M6, 26 H2/M7, 27 H3/M8, 28 S0, 29 S3, 30 S1, 31 S2, 32 L0, 33 L1, 34 L2, 35 L3, 36 H0, 37 H1, 38 H2, 39 H3. -/
def y25S : Stmt :=
  y25S_30

/-- `intra_pred_ang_y_26_sse128`, vec/intrinsic_intra-pred.cc:4463-4478. -/
def y26S_1 : Stmt :=
  .run [
    .V 0 .zero,  -- 4463
    .V 1 (.set1_16 (.n 2)),  -- 4464
    .V 2 (.set1_16 (.n 3)),  -- 4465
    .V 3 (.set1_16 (.n 4)),  -- 4466
    .V 4 (.set1_16 (.n 5)),  -- 4467
    .V 5 (.set1_16 (.n 7)),  -- 4468
    .V 6 (.set1_16 (.n 8)),  -- 4469
    .V 7 (.setr8 [7, 15, 6, 14, 5, 13, 4, 12, 3, 11, 2, 10, 1, 9, 0, 8]),  -- 4470
    .alloc 0 320,  -- 4472
    .I 5 (.add (.v 2) (.mul (.sub (.v 3) (.n 1)) (.n 4))),  -- 4473
    .I 6 (.shl (.v 3) 2),  -- 4474
    .P (.n 0) (.sub (.pv (.n 0)) (.n 15)),  -- 4476
    .I 4 (.n 0)  -- 4478
  ]

/-- `intra_pred_ang_y_26_sse128`, vec/intrinsic_intra-pred.cc:4482-4509. -/
def y26S_2 : Stmt :=
  .run [
    .V 24 (.ld 16 (.pv (.n 0))),  -- 4482
    .V 25 (.ld 16 (.sub (.pv (.n 0)) (.n 3))),  -- 4483
    .V 26 (.ld 16 (.sub (.pv (.n 0)) (.n 1))),  -- 4484
    .V 27 (.ld 16 (.sub (.pv (.n 0)) (.n 2))),  -- 4485
    .V 28 (.o2 .unpacklo8 (.v 24) (.v 0)),  -- 4487
    .V 29 (.o2 .unpacklo8 (.v 26) (.v 0)),  -- 4488
    .V 30 (.o2 .unpacklo8 (.v 27) (.v 0)),  -- 4489
    .V 31 (.o2 .unpacklo8 (.v 25) (.v 0)),  -- 4490
    .V 32 (.o2 .unpackhi8 (.v 24) (.v 0)),  -- 4492
    .V 33 (.o2 .unpackhi8 (.v 26) (.v 0)),  -- 4493
    .V 34 (.o2 .unpackhi8 (.v 27) (.v 0)),  -- 4494
    .V 35 (.o2 .unpackhi8 (.v 25) (.v 0)),  -- 4495
    .V 8 (.o2 .mullo16 (.v 28) (.v 2)),  -- 4497
    .V 9 (.o2 .mullo16 (.v 29) (.v 5)),  -- 4498
    .V 10 (.o2 .mullo16 (.v 30) (.v 4)),  -- 4499
    .V 11 (.o2 .add16 (.v 31) (.v 6)),  -- 4500
    .V 8 (.o2 .add16 (.v 8) (.v 11)),  -- 4501
    .V 8 (.o2 .add16 (.v 8) (.v 9)),  -- 4502
    .V 8 (.o2 .add16 (.v 8) (.v 10)),  -- 4503
    .V 16 (.o1 (.srli16 4) (.v 8)),  -- 4504
    .V 12 (.o2 .mullo16 (.v 32) (.v 2)),  -- 4506
    .V 13 (.o2 .mullo16 (.v 33) (.v 5)),  -- 4507
    .V 14 (.o2 .mullo16 (.v 34) (.v 4)),  -- 4508
    .V 15 (.o2 .add16 (.v 35) (.v 6))  -- 4509
  ]

/-- `intra_pred_ang_y_26_sse128`, vec/intrinsic_intra-pred.cc:4510-4538. -/
def y26S_3 : Stmt :=
  .run [
    .V 12 (.o2 .add16 (.v 12) (.v 15)),  -- 4510
    .V 12 (.o2 .add16 (.v 12) (.v 13)),  -- 4511
    .V 12 (.o2 .add16 (.v 12) (.v 14)),  -- 4512
    .V 17 (.o1 (.srli16 4) (.v 12)),  -- 4513
    .V 8 (.o2 .add16 (.v 29) (.v 30)),  -- 4516
    .V 8 (.o2 .mullo16 (.v 8) (.v 2)),  -- 4517
    .V 9 (.o2 .add16 (.v 28) (.v 31)),  -- 4518
    .V 9 (.o2 .add16 (.v 9) (.v 3)),  -- 4519
    .V 8 (.o2 .add16 (.v 9) (.v 8)),  -- 4520
    .V 18 (.o1 (.srli16 3) (.v 8)),  -- 4521
    .V 12 (.o2 .add16 (.v 33) (.v 34)),  -- 4523
    .V 12 (.o2 .mullo16 (.v 12) (.v 2)),  -- 4524
    .V 13 (.o2 .add16 (.v 32) (.v 35)),  -- 4525
    .V 13 (.o2 .add16 (.v 13) (.v 3)),  -- 4526
    .V 12 (.o2 .add16 (.v 13) (.v 12)),  -- 4527
    .V 19 (.o1 (.srli16 3) (.v 12)),  -- 4528
    .V 9 (.o2 .mullo16 (.v 29) (.v 4)),  -- 4531
    .V 10 (.o2 .mullo16 (.v 30) (.v 5)),  -- 4532
    .V 11 (.o2 .mullo16 (.v 31) (.v 2)),  -- 4533
    .V 8 (.o2 .add16 (.v 28) (.v 6)),  -- 4534
    .V 8 (.o2 .add16 (.v 8) (.v 9)),  -- 4535
    .V 8 (.o2 .add16 (.v 8) (.v 10)),  -- 4536
    .V 8 (.o2 .add16 (.v 8) (.v 11)),  -- 4537
    .V 20 (.o1 (.srli16 4) (.v 8))  -- 4538
  ]

/-- `intra_pred_ang_y_26_sse128`, vec/intrinsic_intra-pred.cc:4540-4568. -/
def y26S_4 : Stmt :=
  .run [
    .V 13 (.o2 .mullo16 (.v 33) (.v 4)),  -- 4540
    .V 14 (.o2 .mullo16 (.v 34) (.v 5)),  -- 4541
    .V 15 (.o2 .mullo16 (.v 35) (.v 2)),  -- 4542
    .V 12 (.o2 .add16 (.v 32) (.v 6)),  -- 4543
    .V 12 (.o2 .add16 (.v 12) (.v 13)),  -- 4544
    .V 12 (.o2 .add16 (.v 12) (.v 14)),  -- 4545
    .V 12 (.o2 .add16 (.v 12) (.v 15)),  -- 4546
    .V 21 (.o1 (.srli16 4) (.v 12)),  -- 4547
    .V 8 (.o2 .add16 (.v 29) (.v 30)),  -- 4550
    .V 9 (.o2 .add16 (.v 30) (.v 31)),  -- 4551
    .V 8 (.o2 .add16 (.v 8) (.v 9)),  -- 4552
    .V 8 (.o2 .add16 (.v 8) (.v 1)),  -- 4553
    .V 22 (.o1 (.srli16 2) (.v 8)),  -- 4554
    .V 12 (.o2 .add16 (.v 33) (.v 34)),  -- 4556
    .V 13 (.o2 .add16 (.v 34) (.v 35)),  -- 4557
    .V 12 (.o2 .add16 (.v 12) (.v 13)),  -- 4558
    .V 12 (.o2 .add16 (.v 12) (.v 1)),  -- 4559
    .V 23 (.o1 (.srli16 2) (.v 12)),  -- 4560
    .V 16 (.o2 .packus16 (.v 16) (.v 18)),  -- 4562
    .V 20 (.o2 .packus16 (.v 20) (.v 22)),  -- 4563
    .V 16 (.o2 .shuffle8 (.v 16) (.v 7)),  -- 4564
    .V 20 (.o2 .shuffle8 (.v 20) (.v 7)),  -- 4565
    .V 17 (.o2 .packus16 (.v 17) (.v 19)),  -- 4567
    .V 21 (.o2 .packus16 (.v 21) (.v 23))  -- 4568
  ]

/-- `intra_pred_ang_y_26_sse128`, vec/intrinsic_intra-pred.cc:4478-4580. -/
def y26S_5 : Stmt :=
  .run [
    .V 17 (.o2 .shuffle8 (.v 17) (.v 7)),  -- 4569
    .V 21 (.o2 .shuffle8 (.v 21) (.v 7)),  -- 4570
    .V 18 (.o2 .unpacklo16 (.v 16) (.v 20)),  -- 4572
    .V 22 (.o2 .unpackhi16 (.v 16) (.v 20)),  -- 4573
    .V 19 (.o2 .unpacklo16 (.v 17) (.v 21)),  -- 4574
    .V 23 (.o2 .unpackhi16 (.v 17) (.v 21)),  -- 4575
    .st 16 (.add (.pa 0) (.v 4)) (.v 19),  -- 4577
    .st 16 (.add (.pa 0) (.add (.n 16) (.v 4))) (.v 23),  -- 4578
    .st 16 (.add (.pa 0) (.add (.n 32) (.v 4))) (.v 18),  -- 4579
    .st 16 (.add (.pa 0) (.add (.n 48) (.v 4))) (.v 22),  -- 4580
    .I 4 (.add (.v 4) (.n 64)),  -- 4478
    .P (.n 0) (.sub (.pv (.n 0)) (.n 16))
  ]

/-- `intra_pred_ang_y_26_sse128`, vec/intrinsic_intra-pred.cc:4478. -/
def y26S_6 : Stmt :=
  .loop (.lt (.v 4) (.sub (.v 5) (.n 32))) (.seq y26S_2 (.seq y26S_3 (.seq y26S_4 y26S_5)))

/-- `intra_pred_ang_y_26_sse128`, vec/intrinsic_intra-pred.cc:4586-4613. -/
def y26S_7 : Stmt :=
  .run [
    .V 16 (.ld 16 (.pv (.n 0))),  -- 4586
    .V 17 (.ld 16 (.sub (.pv (.n 0)) (.n 3))),  -- 4587
    .V 18 (.ld 16 (.sub (.pv (.n 0)) (.n 1))),  -- 4588
    .V 19 (.ld 16 (.sub (.pv (.n 0)) (.n 2))),  -- 4589
    .V 20 (.o2 .unpackhi8 (.v 16) (.v 0)),  -- 4591
    .V 21 (.o2 .unpackhi8 (.v 18) (.v 0)),  -- 4592
    .V 22 (.o2 .unpackhi8 (.v 19) (.v 0)),  -- 4593
    .V 23 (.o2 .unpackhi8 (.v 17) (.v 0)),  -- 4594
    .V 8 (.o2 .mullo16 (.v 20) (.v 2)),  -- 4596
    .V 9 (.o2 .mullo16 (.v 21) (.v 5)),  -- 4597
    .V 10 (.o2 .mullo16 (.v 22) (.v 4)),  -- 4598
    .V 11 (.o2 .add16 (.v 23) (.v 6)),  -- 4599
    .V 8 (.o2 .add16 (.v 8) (.v 11)),  -- 4600
    .V 8 (.o2 .add16 (.v 8) (.v 9)),  -- 4601
    .V 8 (.o2 .add16 (.v 8) (.v 10)),  -- 4602
    .V 12 (.o1 (.srli16 4) (.v 8)),  -- 4603
    .V 8 (.o2 .add16 (.v 21) (.v 22)),  -- 4605
    .V 8 (.o2 .mullo16 (.v 8) (.v 2)),  -- 4606
    .V 9 (.o2 .add16 (.v 20) (.v 23)),  -- 4607
    .V 9 (.o2 .add16 (.v 9) (.v 3)),  -- 4608
    .V 8 (.o2 .add16 (.v 9) (.v 8)),  -- 4609
    .V 13 (.o1 (.srli16 3) (.v 8)),  -- 4610
    .V 9 (.o2 .mullo16 (.v 21) (.v 4)),  -- 4612
    .V 10 (.o2 .mullo16 (.v 22) (.v 5))  -- 4613
  ]

/-- `intra_pred_ang_y_26_sse128`, vec/intrinsic_intra-pred.cc:4614-4636. -/
def y26S_8 : Stmt :=
  .run [
    .V 11 (.o2 .mullo16 (.v 23) (.v 2)),  -- 4614
    .V 8 (.o2 .add16 (.v 20) (.v 6)),  -- 4615
    .V 8 (.o2 .add16 (.v 8) (.v 9)),  -- 4616
    .V 8 (.o2 .add16 (.v 8) (.v 10)),  -- 4617
    .V 8 (.o2 .add16 (.v 8) (.v 11)),  -- 4618
    .V 14 (.o1 (.srli16 4) (.v 8)),  -- 4619
    .V 8 (.o2 .add16 (.v 21) (.v 22)),  -- 4621
    .V 9 (.o2 .add16 (.v 22) (.v 23)),  -- 4622
    .V 8 (.o2 .add16 (.v 8) (.v 9)),  -- 4623
    .V 8 (.o2 .add16 (.v 8) (.v 1)),  -- 4624
    .V 15 (.o1 (.srli16 2) (.v 8)),  -- 4625
    .V 12 (.o2 .packus16 (.v 12) (.v 13)),  -- 4627
    .V 14 (.o2 .packus16 (.v 14) (.v 15)),  -- 4628
    .V 12 (.o2 .shuffle8 (.v 12) (.v 7)),  -- 4629
    .V 14 (.o2 .shuffle8 (.v 14) (.v 7)),  -- 4630
    .V 13 (.o2 .unpacklo16 (.v 12) (.v 14)),  -- 4632
    .V 15 (.o2 .unpackhi16 (.v 12) (.v 14)),  -- 4633
    .st 16 (.add (.pa 0) (.v 4)) (.v 13),  -- 4635
    .st 16 (.add (.pa 0) (.add (.n 16) (.v 4))) (.v 15)  -- 4636
  ]

/-- `intra_pred_ang_y_26_sse128`, vec/intrinsic_intra-pred.cc:4583. -/
def y26S_9 : Stmt :=
  .ite (.lt (.v 4) (.v 5)) (.seq y26S_7 y26S_8) (.run [])

/-- `intra_pred_ang_y_26_sse128`, vec/intrinsic_intra-pred.cc:4641. -/
def y26S_10 : Stmt :=
  .run [
    .I 4 (.n 0)  -- 4641
  ]

/-- `intra_pred_ang_y_26_sse128`, vec/intrinsic_intra-pred.cc:4641-4643. -/
def y26S_11 : Stmt :=
  .run [
    .cpy (.pv (.n 1)) (.add (.pa 0) (.v 4)) (.n 4),  -- 4642
    .P (.n 1) (.add (.pv (.n 1)) (.v 0)),  -- 4643
    .I 4 (.add (.v 4) (.n 4))  -- 4641
  ]

/-- `intra_pred_ang_y_26_sse128`, vec/intrinsic_intra-pred.cc:4641. -/
def y26S_12 : Stmt :=
  .loop (.lt (.v 4) (.v 6)) y26S_11

/-- `intra_pred_ang_y_26_sse128`, vec/intrinsic_intra-pred.cc:4647. -/
def y26S_13 : Stmt :=
  .run [
    .I 4 (.n 0)  -- 4647
  ]

/-- `intra_pred_ang_y_26_sse128`, vec/intrinsic_intra-pred.cc:4647-4649. -/
def y26S_14 : Stmt :=
  .run [
    .cpy (.pv (.n 1)) (.add (.pa 0) (.v 4)) (.n 8),  -- 4648
    .P (.n 1) (.add (.pv (.n 1)) (.v 0)),  -- 4649
    .I 4 (.add (.v 4) (.n 4))  -- 4647
  ]

/-- `intra_pred_ang_y_26_sse128`, vec/intrinsic_intra-pred.cc:4647. -/
def y26S_15 : Stmt :=
  .loop (.lt (.v 4) (.v 6)) y26S_14

/-- `intra_pred_ang_y_26_sse128`, vec/intrinsic_intra-pred.cc:4653. -/
def y26S_16 : Stmt :=
  .run [
    .I 4 (.n 0)  -- 4653
  ]

/-- `intra_pred_ang_y_26_sse128`, vec/intrinsic_intra-pred.cc:4653-4655. -/
def y26S_17 : Stmt :=
  .run [
    .cpy (.pv (.n 1)) (.add (.pa 0) (.v 4)) (.mul (.v 2) (.n 1)),  -- 4654
    .P (.n 1) (.add (.pv (.n 1)) (.v 0)),  -- 4655
    .I 4 (.add (.v 4) (.n 4))  -- 4653
  ]

/-- `intra_pred_ang_y_26_sse128`, vec/intrinsic_intra-pred.cc:4653. -/
def y26S_18 : Stmt :=
  .loop (.lt (.v 4) (.v 6)) y26S_17

/-- `intra_pred_ang_y_26_sse128`, vec/intrinsic_intra-pred.cc:4639. -/
def y26S_19 : Stmt :=
  .ite (.eq (.v 2) (.n 8)) (.seq y26S_13 y26S_15) (.seq y26S_16 y26S_18)

/-- `intra_pred_ang_y_26_sse128`, vec/intrinsic_intra-pred.cc:4639. -/
def y26S_20 : Stmt :=
  .ite (.eq (.v 2) (.n 4)) (.seq y26S_10 y26S_12) y26S_19

/-- `intra_pred_ang_y_26_sse128`, vec/intrinsic_intra-pred.cc:4660-4668. -/
def y26S_21 : Stmt :=
  .run [
    .V 0 .zero,  -- 4660
    .V 1 (.set1_16 (.n 2)),  -- 4661
    .V 2 (.set1_16 (.n 3)),  -- 4662
    .V 3 (.set1_16 (.n 4)),  -- 4663
    .V 4 (.set1_16 (.n 5)),  -- 4664
    .V 5 (.set1_16 (.n 7)),  -- 4665
    .V 6 (.set1_16 (.n 8)),  -- 4666
    .V 7 (.setr8 [7, 15, 6, 14, 5, 13, 4, 12, 3, 11, 2, 10, 1, 9, 0, 8]),  -- 4667
    .P (.n 0) (.sub (.pv (.n 0)) (.n 15))  -- 4668
  ]

/-- `intra_pred_ang_y_26_sse128`, vec/intrinsic_intra-pred.cc:4673-4700. -/
def y26S_22 : Stmt :=
  .run [
    .V 16 (.ld 16 (.pv (.n 0))),  -- 4673
    .V 17 (.ld 16 (.sub (.pv (.n 0)) (.n 3))),  -- 4674
    .V 18 (.ld 16 (.sub (.pv (.n 0)) (.n 1))),  -- 4675
    .V 19 (.ld 16 (.sub (.pv (.n 0)) (.n 2))),  -- 4676
    .V 20 (.o2 .unpackhi8 (.v 16) (.v 0)),  -- 4678
    .V 21 (.o2 .unpackhi8 (.v 18) (.v 0)),  -- 4679
    .V 22 (.o2 .unpackhi8 (.v 19) (.v 0)),  -- 4680
    .V 23 (.o2 .unpackhi8 (.v 17) (.v 0)),  -- 4681
    .V 8 (.o2 .mullo16 (.v 20) (.v 2)),  -- 4683
    .V 9 (.o2 .mullo16 (.v 21) (.v 5)),  -- 4684
    .V 10 (.o2 .mullo16 (.v 22) (.v 4)),  -- 4685
    .V 11 (.o2 .add16 (.v 23) (.v 6)),  -- 4686
    .V 8 (.o2 .add16 (.v 8) (.v 11)),  -- 4687
    .V 8 (.o2 .add16 (.v 8) (.v 9)),  -- 4688
    .V 8 (.o2 .add16 (.v 8) (.v 10)),  -- 4689
    .V 12 (.o1 (.srli16 4) (.v 8)),  -- 4690
    .V 8 (.o2 .add16 (.v 21) (.v 22)),  -- 4692
    .V 8 (.o2 .mullo16 (.v 8) (.v 2)),  -- 4693
    .V 9 (.o2 .add16 (.v 20) (.v 23)),  -- 4694
    .V 9 (.o2 .add16 (.v 9) (.v 3)),  -- 4695
    .V 8 (.o2 .add16 (.v 9) (.v 8)),  -- 4696
    .V 13 (.o1 (.srli16 3) (.v 8)),  -- 4697
    .V 9 (.o2 .mullo16 (.v 21) (.v 4)),  -- 4699
    .V 10 (.o2 .mullo16 (.v 22) (.v 5))  -- 4700
  ]

/-- `intra_pred_ang_y_26_sse128`, vec/intrinsic_intra-pred.cc:4701-4728. -/
def y26S_23 : Stmt :=
  .run [
    .V 11 (.o2 .mullo16 (.v 23) (.v 2)),  -- 4701
    .V 8 (.o2 .add16 (.v 20) (.v 6)),  -- 4702
    .V 8 (.o2 .add16 (.v 8) (.v 9)),  -- 4703
    .V 8 (.o2 .add16 (.v 8) (.v 10)),  -- 4704
    .V 8 (.o2 .add16 (.v 8) (.v 11)),  -- 4705
    .V 14 (.o1 (.srli16 4) (.v 8)),  -- 4706
    .V 8 (.o2 .add16 (.v 21) (.v 22)),  -- 4708
    .V 9 (.o2 .add16 (.v 22) (.v 23)),  -- 4709
    .V 8 (.o2 .add16 (.v 8) (.v 9)),  -- 4710
    .V 8 (.o2 .add16 (.v 8) (.v 1)),  -- 4711
    .V 15 (.o1 (.srli16 2) (.v 8)),  -- 4712
    .V 12 (.o2 .packus16 (.v 12) (.v 13)),  -- 4714
    .V 14 (.o2 .packus16 (.v 14) (.v 15)),  -- 4715
    .V 12 (.o2 .shuffle8 (.v 12) (.v 7)),  -- 4716
    .V 14 (.o2 .shuffle8 (.v 14) (.v 7)),  -- 4717
    .V 13 (.o2 .unpacklo16 (.v 12) (.v 14)),  -- 4719
    .st 4 (.pv (.n 1)) (.v 13),  -- 4721
    .P (.n 1) (.add (.pv (.n 1)) (.v 0)),  -- 4722
    .V 13 (.o1 (.srliB 4) (.v 13)),  -- 4723
    .st 4 (.pv (.n 1)) (.v 13),  -- 4724
    .P (.n 1) (.add (.pv (.n 1)) (.v 0)),  -- 4725
    .V 13 (.o1 (.srliB 4) (.v 13)),  -- 4726
    .st 4 (.pv (.n 1)) (.v 13),  -- 4727
    .P (.n 1) (.add (.pv (.n 1)) (.v 0))  -- 4728
  ]

/-- `intra_pred_ang_y_26_sse128`, vec/intrinsic_intra-pred.cc:4729-4730. -/
def y26S_24 : Stmt :=
  .run [
    .V 13 (.o1 (.srliB 4) (.v 13)),  -- 4729
    .st 4 (.pv (.n 1)) (.v 13)  -- 4730
  ]

/-- `intra_pred_ang_y_26_sse128`, vec/intrinsic_intra-pred.cc:4735-4762. -/
def y26S_25 : Stmt :=
  .run [
    .V 24 (.ld 16 (.pv (.n 0))),  -- 4735
    .V 25 (.ld 16 (.sub (.pv (.n 0)) (.n 3))),  -- 4736
    .V 26 (.ld 16 (.sub (.pv (.n 0)) (.n 1))),  -- 4737
    .V 27 (.ld 16 (.sub (.pv (.n 0)) (.n 2))),  -- 4738
    .V 28 (.o2 .unpacklo8 (.v 24) (.v 0)),  -- 4740
    .V 29 (.o2 .unpacklo8 (.v 26) (.v 0)),  -- 4741
    .V 30 (.o2 .unpacklo8 (.v 27) (.v 0)),  -- 4742
    .V 31 (.o2 .unpacklo8 (.v 25) (.v 0)),  -- 4743
    .V 32 (.o2 .unpackhi8 (.v 24) (.v 0)),  -- 4745
    .V 33 (.o2 .unpackhi8 (.v 26) (.v 0)),  -- 4746
    .V 34 (.o2 .unpackhi8 (.v 27) (.v 0)),  -- 4747
    .V 35 (.o2 .unpackhi8 (.v 25) (.v 0)),  -- 4748
    .V 8 (.o2 .mullo16 (.v 28) (.v 2)),  -- 4750
    .V 9 (.o2 .mullo16 (.v 29) (.v 5)),  -- 4751
    .V 10 (.o2 .mullo16 (.v 30) (.v 4)),  -- 4752
    .V 11 (.o2 .add16 (.v 31) (.v 6)),  -- 4753
    .V 8 (.o2 .add16 (.v 8) (.v 11)),  -- 4754
    .V 8 (.o2 .add16 (.v 8) (.v 9)),  -- 4755
    .V 8 (.o2 .add16 (.v 8) (.v 10)),  -- 4756
    .V 16 (.o1 (.srli16 4) (.v 8)),  -- 4757
    .V 12 (.o2 .mullo16 (.v 32) (.v 2)),  -- 4759
    .V 13 (.o2 .mullo16 (.v 33) (.v 5)),  -- 4760
    .V 14 (.o2 .mullo16 (.v 34) (.v 4)),  -- 4761
    .V 15 (.o2 .add16 (.v 35) (.v 6))  -- 4762
  ]

/-- `intra_pred_ang_y_26_sse128`, vec/intrinsic_intra-pred.cc:4763-4791. -/
def y26S_26 : Stmt :=
  .run [
    .V 12 (.o2 .add16 (.v 12) (.v 15)),  -- 4763
    .V 12 (.o2 .add16 (.v 12) (.v 13)),  -- 4764
    .V 12 (.o2 .add16 (.v 12) (.v 14)),  -- 4765
    .V 17 (.o1 (.srli16 4) (.v 12)),  -- 4766
    .V 8 (.o2 .add16 (.v 29) (.v 30)),  -- 4769
    .V 8 (.o2 .mullo16 (.v 8) (.v 2)),  -- 4770
    .V 9 (.o2 .add16 (.v 28) (.v 31)),  -- 4771
    .V 9 (.o2 .add16 (.v 9) (.v 3)),  -- 4772
    .V 8 (.o2 .add16 (.v 9) (.v 8)),  -- 4773
    .V 18 (.o1 (.srli16 3) (.v 8)),  -- 4774
    .V 12 (.o2 .add16 (.v 33) (.v 34)),  -- 4776
    .V 12 (.o2 .mullo16 (.v 12) (.v 2)),  -- 4777
    .V 13 (.o2 .add16 (.v 32) (.v 35)),  -- 4778
    .V 13 (.o2 .add16 (.v 13) (.v 3)),  -- 4779
    .V 12 (.o2 .add16 (.v 13) (.v 12)),  -- 4780
    .V 19 (.o1 (.srli16 3) (.v 12)),  -- 4781
    .V 9 (.o2 .mullo16 (.v 29) (.v 4)),  -- 4784
    .V 10 (.o2 .mullo16 (.v 30) (.v 5)),  -- 4785
    .V 11 (.o2 .mullo16 (.v 31) (.v 2)),  -- 4786
    .V 8 (.o2 .add16 (.v 28) (.v 6)),  -- 4787
    .V 8 (.o2 .add16 (.v 8) (.v 9)),  -- 4788
    .V 8 (.o2 .add16 (.v 8) (.v 10)),  -- 4789
    .V 8 (.o2 .add16 (.v 8) (.v 11)),  -- 4790
    .V 20 (.o1 (.srli16 4) (.v 8))  -- 4791
  ]

/-- `intra_pred_ang_y_26_sse128`, vec/intrinsic_intra-pred.cc:4793-4821. -/
def y26S_27 : Stmt :=
  .run [
    .V 13 (.o2 .mullo16 (.v 33) (.v 4)),  -- 4793
    .V 14 (.o2 .mullo16 (.v 34) (.v 5)),  -- 4794
    .V 15 (.o2 .mullo16 (.v 35) (.v 2)),  -- 4795
    .V 12 (.o2 .add16 (.v 32) (.v 6)),  -- 4796
    .V 12 (.o2 .add16 (.v 12) (.v 13)),  -- 4797
    .V 12 (.o2 .add16 (.v 12) (.v 14)),  -- 4798
    .V 12 (.o2 .add16 (.v 12) (.v 15)),  -- 4799
    .V 21 (.o1 (.srli16 4) (.v 12)),  -- 4800
    .V 8 (.o2 .add16 (.v 29) (.v 30)),  -- 4803
    .V 9 (.o2 .add16 (.v 30) (.v 31)),  -- 4804
    .V 8 (.o2 .add16 (.v 8) (.v 9)),  -- 4805
    .V 8 (.o2 .add16 (.v 8) (.v 1)),  -- 4806
    .V 22 (.o1 (.srli16 2) (.v 8)),  -- 4807
    .V 12 (.o2 .add16 (.v 33) (.v 34)),  -- 4809
    .V 13 (.o2 .add16 (.v 34) (.v 35)),  -- 4810
    .V 12 (.o2 .add16 (.v 12) (.v 13)),  -- 4811
    .V 12 (.o2 .add16 (.v 12) (.v 1)),  -- 4812
    .V 23 (.o1 (.srli16 2) (.v 12)),  -- 4813
    .V 16 (.o2 .packus16 (.v 16) (.v 18)),  -- 4815
    .V 20 (.o2 .packus16 (.v 20) (.v 22)),  -- 4816
    .V 16 (.o2 .shuffle8 (.v 16) (.v 7)),  -- 4817
    .V 20 (.o2 .shuffle8 (.v 20) (.v 7)),  -- 4818
    .V 17 (.o2 .packus16 (.v 17) (.v 19)),  -- 4820
    .V 21 (.o2 .packus16 (.v 21) (.v 23))  -- 4821
  ]

/-- `intra_pred_ang_y_26_sse128`, vec/intrinsic_intra-pred.cc:4822-4847. -/
def y26S_28 : Stmt :=
  .run [
    .V 17 (.o2 .shuffle8 (.v 17) (.v 7)),  -- 4822
    .V 21 (.o2 .shuffle8 (.v 21) (.v 7)),  -- 4823
    .V 18 (.o2 .unpacklo16 (.v 16) (.v 20)),  -- 4825
    .V 22 (.o2 .unpackhi16 (.v 16) (.v 20)),  -- 4826
    .V 19 (.o2 .unpacklo16 (.v 17) (.v 21)),  -- 4827
    .V 23 (.o2 .unpackhi16 (.v 17) (.v 21)),  -- 4828
    .st 4 (.pv (.n 1)) (.v 19),  -- 4830
    .P (.n 1) (.add (.pv (.n 1)) (.v 0)),  -- 4831
    .V 19 (.o1 (.srliB 4) (.v 19)),  -- 4832
    .st 4 (.pv (.n 1)) (.v 19),  -- 4833
    .P (.n 1) (.add (.pv (.n 1)) (.v 0)),  -- 4834
    .V 19 (.o1 (.srliB 4) (.v 19)),  -- 4835
    .st 4 (.pv (.n 1)) (.v 19),  -- 4836
    .P (.n 1) (.add (.pv (.n 1)) (.v 0)),  -- 4837
    .V 19 (.o1 (.srliB 4) (.v 19)),  -- 4838
    .st 4 (.pv (.n 1)) (.v 19),  -- 4839
    .P (.n 1) (.add (.pv (.n 1)) (.v 0)),  -- 4840
    .st 4 (.pv (.n 1)) (.v 23),  -- 4841
    .P (.n 1) (.add (.pv (.n 1)) (.v 0)),  -- 4842
    .V 23 (.o1 (.srliB 4) (.v 23)),  -- 4843
    .st 4 (.pv (.n 1)) (.v 23),  -- 4844
    .P (.n 1) (.add (.pv (.n 1)) (.v 0)),  -- 4845
    .V 23 (.o1 (.srliB 4) (.v 23)),  -- 4846
    .st 4 (.pv (.n 1)) (.v 23)  -- 4847
  ]

/-- `intra_pred_ang_y_26_sse128`, vec/intrinsic_intra-pred.cc:4848-4871. -/
def y26S_29 : Stmt :=
  .run [
    .P (.n 1) (.add (.pv (.n 1)) (.v 0)),  -- 4848
    .V 23 (.o1 (.srliB 4) (.v 23)),  -- 4849
    .st 4 (.pv (.n 1)) (.v 23),  -- 4850
    .P (.n 1) (.add (.pv (.n 1)) (.v 0)),  -- 4851
    .st 4 (.pv (.n 1)) (.v 18),  -- 4852
    .P (.n 1) (.add (.pv (.n 1)) (.v 0)),  -- 4853
    .V 18 (.o1 (.srliB 4) (.v 18)),  -- 4854
    .st 4 (.pv (.n 1)) (.v 18),  -- 4855
    .P (.n 1) (.add (.pv (.n 1)) (.v 0)),  -- 4856
    .V 18 (.o1 (.srliB 4) (.v 18)),  -- 4857
    .st 4 (.pv (.n 1)) (.v 18),  -- 4858
    .P (.n 1) (.add (.pv (.n 1)) (.v 0)),  -- 4859
    .V 18 (.o1 (.srliB 4) (.v 18)),  -- 4860
    .st 4 (.pv (.n 1)) (.v 18),  -- 4861
    .P (.n 1) (.add (.pv (.n 1)) (.v 0)),  -- 4862
    .st 4 (.pv (.n 1)) (.v 22),  -- 4863
    .P (.n 1) (.add (.pv (.n 1)) (.v 0)),  -- 4864
    .V 22 (.o1 (.srliB 4) (.v 22)),  -- 4865
    .st 4 (.pv (.n 1)) (.v 22),  -- 4866
    .P (.n 1) (.add (.pv (.n 1)) (.v 0)),  -- 4867
    .V 22 (.o1 (.srliB 4) (.v 22)),  -- 4868
    .st 4 (.pv (.n 1)) (.v 22),  -- 4869
    .P (.n 1) (.add (.pv (.n 1)) (.v 0)),  -- 4870
    .V 22 (.o1 (.srliB 4) (.v 22))  -- 4871
  ]

/-- `intra_pred_ang_y_26_sse128`, vec/intrinsic_intra-pred.cc:4872. -/
def y26S_30 : Stmt :=
  .run [
    .st 4 (.pv (.n 1)) (.v 22)  -- 4872
  ]

/-- `intra_pred_ang_y_26_sse128`, vec/intrinsic_intra-pred.cc:4670. -/
def y26S_31 : Stmt :=
  .ite (.eq (.v 3) (.n 4)) (.seq y26S_22 (.seq y26S_23 y26S_24)) (.seq y26S_25 (.seq y26S_26 (.seq y26S_27 (.seq y26S_28 (.seq y26S_29 y26S_30)))))

/-- `intra_pred_ang_y_26_sse128`, vec/intrinsic_intra-pred.cc:4462. -/
def y26S_32 : Stmt :=
  .ite (.ne (.v 2) (.n 4)) (.seq y26S_1 (.seq y26S_6 (.seq y26S_9 y26S_20))) (.seq y26S_21 y26S_31)

/-- `intra_pred_ang_y_26_sse128`, source/common/vec/intrinsic_intra-pred.cc:4457-4876.  Variables:
I: 0 i_dst, 1 dir_mode, 2 bsx, 3 bsy, 4 i, 5 line_size, 6 iHeight4;
P: 0 src, 1 dst;
V: 0 zero, 1 coeff2, 2 coeff3, 3 coeff4, 4 coeff5, 5 coeff7, 6 coeff8, 7 shuffle, 8 p00/p01, 9 p10/p11, 10 p20/p21, 11 p30/p31, 12 p01/M2, 13 p11/M4, 14 p21/M6, 15 p31/M8, 16 M1/S0, 17 M2/S3, 18 M3/S1, 19 M4/S2, 20 M5/H0, 21 M6/H1, 22 M7/H2, 23 M8/H3, 24 S0, 25 S3, 26 S1, 27 S2, 28 L0, 29 L1, 30 L2, 31 L3, 32 H0, 33 H1, 34 H2, 35 H3. -/
def y26S : Stmt :=
  y26S_32

/-- `intra_pred_ang_y_28_sse128`, vec/intrinsic_intra-pred.cc:4883-4903. -/
def y28S_1 : Stmt :=
  .run [
    .alloc 0 192,  -- 4883
    .I 4 (.add (.v 2) (.mul (.sub (.v 3) (.n 1)) (.n 2))),  -- 4884
    .I 6 (.shl (.v 3) 1),  -- 4889
    .V 0 (.set1_16 (.n 2)),  -- 4893
    .V 1 (.set1_16 (.n 3)),  -- 4894
    .V 2 (.set1_16 (.n 4)),  -- 4895
    .V 3 (.setr8 [7, 15, 6, 14, 5, 13, 4, 12, 3, 11, 2, 10, 1, 9, 0, 8]),  -- 4896
    .V 4 .zero,  -- 4897
    .P (.n 0) (.sub (.pv (.n 0)) (.n 15)),  -- 4901
    .I 5 (.n 0)  -- 4903
  ]

/-- `intra_pred_ang_y_28_sse128`, vec/intrinsic_intra-pred.cc:4908-4936. -/
def y28S_2 : Stmt :=
  .run [
    .V 9 (.ld 16 (.pv (.n 0))),  -- 4908
    .V 10 (.ld 16 (.sub (.pv (.n 0)) (.n 3))),  -- 4909
    .V 11 (.ld 16 (.sub (.pv (.n 0)) (.n 1))),  -- 4910
    .V 12 (.ld 16 (.sub (.pv (.n 0)) (.n 2))),  -- 4911
    .V 13 (.o2 .unpacklo8 (.v 9) (.v 4)),  -- 4913
    .V 14 (.o2 .unpacklo8 (.v 11) (.v 4)),  -- 4914
    .V 15 (.o2 .unpacklo8 (.v 12) (.v 4)),  -- 4915
    .V 16 (.o2 .unpacklo8 (.v 10) (.v 4)),  -- 4916
    .V 17 (.o2 .unpackhi8 (.v 9) (.v 4)),  -- 4918
    .V 18 (.o2 .unpackhi8 (.v 11) (.v 4)),  -- 4919
    .V 19 (.o2 .unpackhi8 (.v 12) (.v 4)),  -- 4920
    .V 20 (.o2 .unpackhi8 (.v 10) (.v 4)),  -- 4921
    .V 5 (.o2 .adds16 (.v 14) (.v 15)),  -- 4923
    .V 7 (.o2 .add16 (.v 14) (.v 15)),  -- 4924
    .V 5 (.o2 .mullo16 (.v 5) (.v 1)),  -- 4925
    .V 6 (.o2 .adds16 (.v 13) (.v 16)),  -- 4926
    .V 8 (.o2 .add16 (.v 15) (.v 16)),  -- 4927
    .V 6 (.o2 .adds16 (.v 6) (.v 2)),  -- 4928
    .V 5 (.o2 .adds16 (.v 5) (.v 6)),  -- 4929
    .V 7 (.o2 .add16 (.v 7) (.v 8)),  -- 4930
    .V 7 (.o2 .add16 (.v 7) (.v 0)),  -- 4931
    .V 5 (.o1 (.srli16 3) (.v 5)),  -- 4933
    .V 7 (.o1 (.srli16 2) (.v 7)),  -- 4934
    .V 5 (.o2 .packus16 (.v 5) (.v 7))  -- 4936
  ]

/-- `intra_pred_ang_y_28_sse128`, vec/intrinsic_intra-pred.cc:4903-4957. -/
def y28S_3 : Stmt :=
  .run [
    .V 5 (.o2 .shuffle8 (.v 5) (.v 3)),  -- 4937
    .st 16 (.add (.pa 0) (.add (.v 5) (.n 16))) (.v 5),  -- 4939
    .V 5 (.o2 .adds16 (.v 18) (.v 19)),  -- 4941
    .V 7 (.o2 .add16 (.v 18) (.v 19)),  -- 4942
    .V 5 (.o2 .mullo16 (.v 5) (.v 1)),  -- 4943
    .V 6 (.o2 .adds16 (.v 17) (.v 20)),  -- 4944
    .V 8 (.o2 .add16 (.v 19) (.v 20)),  -- 4945
    .V 6 (.o2 .adds16 (.v 6) (.v 2)),  -- 4946
    .V 5 (.o2 .adds16 (.v 5) (.v 6)),  -- 4947
    .V 7 (.o2 .add16 (.v 7) (.v 8)),  -- 4948
    .V 7 (.o2 .add16 (.v 7) (.v 0)),  -- 4949
    .V 5 (.o1 (.srli16 3) (.v 5)),  -- 4951
    .V 7 (.o1 (.srli16 2) (.v 7)),  -- 4952
    .V 5 (.o2 .packus16 (.v 5) (.v 7)),  -- 4954
    .V 5 (.o2 .shuffle8 (.v 5) (.v 3)),  -- 4955
    .st 16 (.add (.pa 0) (.v 5)) (.v 5),  -- 4957
    .I 5 (.add (.v 5) (.n 32)),  -- 4903
    .P (.n 0) (.sub (.pv (.n 0)) (.n 16))
  ]

/-- `intra_pred_ang_y_28_sse128`, vec/intrinsic_intra-pred.cc:4903. -/
def y28S_4 : Stmt :=
  .loop (.lt (.v 5) (.sub (.v 4) (.n 16))) (.seq y28S_2 y28S_3)

/-- `intra_pred_ang_y_28_sse128`, vec/intrinsic_intra-pred.cc:4966-4992. -/
def y28S_5 : Stmt :=
  .run [
    .V 9 (.ld 16 (.pv (.n 0))),  -- 4966
    .V 10 (.ld 16 (.sub (.pv (.n 0)) (.n 3))),  -- 4967
    .V 11 (.ld 16 (.sub (.pv (.n 0)) (.n 1))),  -- 4968
    .V 12 (.ld 16 (.sub (.pv (.n 0)) (.n 2))),  -- 4969
    .V 13 (.o2 .unpackhi8 (.v 9) (.v 4)),  -- 4971
    .V 14 (.o2 .unpackhi8 (.v 11) (.v 4)),  -- 4972
    .V 15 (.o2 .unpackhi8 (.v 12) (.v 4)),  -- 4973
    .V 16 (.o2 .unpackhi8 (.v 10) (.v 4)),  -- 4974
    .V 5 (.o2 .adds16 (.v 14) (.v 15)),  -- 4976
    .V 7 (.o2 .add16 (.v 14) (.v 15)),  -- 4977
    .V 5 (.o2 .mullo16 (.v 5) (.v 1)),  -- 4978
    .V 6 (.o2 .adds16 (.v 13) (.v 16)),  -- 4979
    .V 8 (.o2 .add16 (.v 15) (.v 16)),  -- 4980
    .V 6 (.o2 .adds16 (.v 6) (.v 2)),  -- 4981
    .V 5 (.o2 .adds16 (.v 5) (.v 6)),  -- 4982
    .V 7 (.o2 .add16 (.v 7) (.v 8)),  -- 4983
    .V 7 (.o2 .add16 (.v 7) (.v 0)),  -- 4984
    .V 5 (.o1 (.srli16 3) (.v 5)),  -- 4986
    .V 7 (.o1 (.srli16 2) (.v 7)),  -- 4987
    .V 5 (.o2 .packus16 (.v 5) (.v 7)),  -- 4989
    .V 5 (.o2 .shuffle8 (.v 5) (.v 3)),  -- 4990
    .st 16 (.add (.pa 0) (.v 5)) (.v 5)  -- 4992
  ]

/-- `intra_pred_ang_y_28_sse128`, vec/intrinsic_intra-pred.cc:4961. -/
def y28S_6 : Stmt :=
  .ite (.lt (.v 5) (.v 4)) y28S_5 (.run [])

/-- `intra_pred_ang_y_28_sse128`, vec/intrinsic_intra-pred.cc:5010. -/
def y28S_7 : Stmt :=
  .run [
    .I 5 (.n 0)  -- 5010
  ]

/-- `intra_pred_ang_y_28_sse128`, vec/intrinsic_intra-pred.cc:5010-5012. -/
def y28S_8 : Stmt :=
  .run [
    .cpy (.pv (.n 1)) (.add (.pa 0) (.v 5)) (.mul (.v 2) (.n 1)),  -- 5011
    .P (.n 1) (.add (.pv (.n 1)) (.v 0)),  -- 5012
    .I 5 (.add (.v 5) (.n 2))  -- 5010
  ]

/-- `intra_pred_ang_y_28_sse128`, vec/intrinsic_intra-pred.cc:5010. -/
def y28S_9 : Stmt :=
  .loop (.lt (.v 5) (.v 6)) y28S_8

/-- `intra_pred_ang_y_28_sse128`, vec/intrinsic_intra-pred.cc:5015. -/
def y28S_10 : Stmt :=
  .run [
    .I 5 (.n 0)  -- 5015
  ]

/-- `intra_pred_ang_y_28_sse128`, vec/intrinsic_intra-pred.cc:5015-5027. -/
def y28S_11 : Stmt :=
  .run [
    .V 5 (.ld 16 (.add (.pa 0) (.v 5))),  -- 5016
    .st 8 (.pv (.n 1)) (.v 5),  -- 5017
    .P (.n 1) (.add (.pv (.n 1)) (.v 0)),  -- 5018
    .V 5 (.o1 (.srliB 2) (.v 5)),  -- 5019
    .st 8 (.pv (.n 1)) (.v 5),  -- 5020
    .P (.n 1) (.add (.pv (.n 1)) (.v 0)),  -- 5021
    .V 5 (.o1 (.srliB 2) (.v 5)),  -- 5022
    .st 8 (.pv (.n 1)) (.v 5),  -- 5023
    .P (.n 1) (.add (.pv (.n 1)) (.v 0)),  -- 5024
    .V 5 (.o1 (.srliB 2) (.v 5)),  -- 5025
    .st 8 (.pv (.n 1)) (.v 5),  -- 5026
    .P (.n 1) (.add (.pv (.n 1)) (.v 0)),  -- 5027
    .I 5 (.add (.v 5) (.n 8))  -- 5015
  ]

/-- `intra_pred_ang_y_28_sse128`, vec/intrinsic_intra-pred.cc:5015. -/
def y28S_12 : Stmt :=
  .loop (.lt (.v 5) (.v 6)) y28S_11

/-- `intra_pred_ang_y_28_sse128`, vec/intrinsic_intra-pred.cc:5030. -/
def y28S_13 : Stmt :=
  .run [
    .I 5 (.n 0)  -- 5030
  ]

/-- `intra_pred_ang_y_28_sse128`, vec/intrinsic_intra-pred.cc:5030-5042. -/
def y28S_14 : Stmt :=
  .run [
    .V 5 (.ld 16 (.add (.pa 0) (.v 5))),  -- 5031
    .st 4 (.pv (.n 1)) (.v 5),  -- 5032
    .P (.n 1) (.add (.pv (.n 1)) (.v 0)),  -- 5033
    .V 5 (.o1 (.srliB 2) (.v 5)),  -- 5034
    .st 4 (.pv (.n 1)) (.v 5),  -- 5035
    .P (.n 1) (.add (.pv (.n 1)) (.v 0)),  -- 5036
    .V 5 (.o1 (.srliB 2) (.v 5)),  -- 5037
    .st 4 (.pv (.n 1)) (.v 5),  -- 5038
    .P (.n 1) (.add (.pv (.n 1)) (.v 0)),  -- 5039
    .V 5 (.o1 (.srliB 2) (.v 5)),  -- 5040
    .st 4 (.pv (.n 1)) (.v 5),  -- 5041
    .P (.n 1) (.add (.pv (.n 1)) (.v 0)),  -- 5042
    .I 5 (.add (.v 5) (.n 8))  -- 5030
  ]

/-- `intra_pred_ang_y_28_sse128`, vec/intrinsic_intra-pred.cc:5030. -/
def y28S_15 : Stmt :=
  .loop (.lt (.v 5) (.v 6)) y28S_14

/-- `intra_pred_ang_y_28_sse128`, vec/intrinsic_intra-pred.cc:5014. -/
def y28S_16 : Stmt :=
  .ite (.eq (.v 2) (.n 8)) (.seq y28S_10 y28S_12) (.seq y28S_13 y28S_15)

/-- `intra_pred_ang_y_28_sse128`, vec/intrinsic_intra-pred.cc:5009. -/
def y28S_17 : Stmt :=
  .ite (.le (.n 16) (.v 2)) (.seq y28S_7 y28S_9) y28S_16

/-- `intra_pred_ang_y_28_sse128`, source/common/vec/intrinsic_intra-pred.cc:4881-5045.  Variables:
I: 0 i_dst, 1 dir_mode, 2 bsx, 3 bsy, 4 line_size, 5 i, 6 iHeight2;
P: 0 src, 1 dst;
V: 0 coeff2, 1 coeff3, 2 coeff4, 3 shuffle, 4 zero, 5 p00/M, 6 p10, 7 p01, 8 p11, 9 S0, 10 S3, 11 S1, 12 S2, 13 L0/H0, 14 L1/H1, 15 L2/H2, 16 L3/H3, 17 H0, 18 H1, 19 H2, 20 H3. -/
def y28S : Stmt :=
  .seq y28S_1 (.seq y28S_4 (.seq y28S_6 y28S_17))

/-- `intra_pred_ang_y_30_sse128`, vec/intrinsic_intra-pred.cc:5052-5066. -/
def y30S_1 : Stmt :=
  .run [
    .alloc 0 128,  -- 5052
    .I 4 (.sub (.add (.v 2) (.v 3)) (.n 1)),  -- 5053
    .V 0 (.set1_16 (.n 2)),  -- 5058
    .V 1 (.setr8 [15, 14, 13, 12, 11, 10, 9, 8, 7, 6, 5, 4, 3, 2, 1, 0]),  -- 5059
    .V 2 .zero,  -- 5060
    .P (.n 0) (.sub (.pv (.n 0)) (.n 17)),  -- 5064
    .I 5 (.n 0)  -- 5066
  ]

/-- `intra_pred_ang_y_30_sse128`, vec/intrinsic_intra-pred.cc:5066-5099. -/
def y30S_2 : Stmt :=
  .run [
    .V 7 (.ld 16 (.sub (.pv (.n 0)) (.n 1))),  -- 5071
    .V 8 (.ld 16 (.add (.pv (.n 0)) (.n 1))),  -- 5072
    .V 9 (.ld 16 (.pv (.n 0))),  -- 5073
    .V 10 (.o2 .unpacklo8 (.v 7) (.v 2)),  -- 5075
    .V 11 (.o2 .unpacklo8 (.v 9) (.v 2)),  -- 5076
    .V 12 (.o2 .unpacklo8 (.v 8) (.v 2)),  -- 5077
    .V 13 (.o2 .unpackhi8 (.v 7) (.v 2)),  -- 5079
    .V 14 (.o2 .unpackhi8 (.v 9) (.v 2)),  -- 5080
    .V 15 (.o2 .unpackhi8 (.v 8) (.v 2)),  -- 5081
    .V 3 (.o2 .add16 (.v 10) (.v 11)),  -- 5083
    .V 4 (.o2 .add16 (.v 11) (.v 12)),  -- 5084
    .V 5 (.o2 .add16 (.v 13) (.v 14)),  -- 5085
    .V 6 (.o2 .add16 (.v 14) (.v 15)),  -- 5086
    .V 3 (.o2 .add16 (.v 3) (.v 4)),  -- 5088
    .V 5 (.o2 .add16 (.v 5) (.v 6)),  -- 5089
    .V 3 (.o2 .add16 (.v 3) (.v 0)),  -- 5090
    .V 5 (.o2 .add16 (.v 5) (.v 0)),  -- 5091
    .V 3 (.o1 (.srli16 2) (.v 3)),  -- 5093
    .V 5 (.o1 (.srli16 2) (.v 5)),  -- 5094
    .V 3 (.o2 .packus16 (.v 3) (.v 5)),  -- 5096
    .V 3 (.o2 .shuffle8 (.v 3) (.v 1)),  -- 5097
    .st 16 (.add (.pa 0) (.v 5)) (.v 3),  -- 5099
    .I 5 (.add (.v 5) (.n 16)),  -- 5066
    .P (.n 0) (.sub (.pv (.n 0)) (.n 16))
  ]

/-- `intra_pred_ang_y_30_sse128`, vec/intrinsic_intra-pred.cc:5066. -/
def y30S_3 : Stmt :=
  .loop (.lt (.v 5) (.sub (.v 4) (.n 8))) y30S_2

/-- `intra_pred_ang_y_30_sse128`, vec/intrinsic_intra-pred.cc:5108-5127. -/
def y30S_4 : Stmt :=
  .run [
    .V 5 (.ld 16 (.sub (.pv (.n 0)) (.n 1))),  -- 5108
    .V 6 (.ld 16 (.add (.pv (.n 0)) (.n 1))),  -- 5109
    .V 7 (.ld 16 (.pv (.n 0))),  -- 5110
    .V 8 (.o2 .unpackhi8 (.v 5) (.v 2)),  -- 5112
    .V 9 (.o2 .unpackhi8 (.v 7) (.v 2)),  -- 5113
    .V 10 (.o2 .unpackhi8 (.v 6) (.v 2)),  -- 5114
    .V 3 (.o2 .add16 (.v 8) (.v 9)),  -- 5116
    .V 4 (.o2 .add16 (.v 9) (.v 10)),  -- 5117
    .V 3 (.o2 .add16 (.v 3) (.v 4)),  -- 5119
    .V 3 (.o2 .add16 (.v 3) (.v 0)),  -- 5120
    .V 3 (.o1 (.srli16 2) (.v 3)),  -- 5122
    .V 3 (.o2 .packus16 (.v 3) (.v 3)),  -- 5124
    .V 3 (.o2 .shuffle8 (.v 3) (.v 1)),  -- 5125
    .st 16 (.add (.pa 0) (.v 5)) (.v 3)  -- 5127
  ]

/-- `intra_pred_ang_y_30_sse128`, vec/intrinsic_intra-pred.cc:5103. -/
def y30S_5 : Stmt :=
  .ite (.lt (.v 5) (.v 4)) y30S_4 (.run [])

/-- `intra_pred_ang_y_30_sse128`, vec/intrinsic_intra-pred.cc:5138. -/
def y30S_6 : Stmt :=
  .run [
    .I 5 (.n 0)  -- 5138
  ]

/-- `intra_pred_ang_y_30_sse128`, vec/intrinsic_intra-pred.cc:5138-5140. -/
def y30S_7 : Stmt :=
  .run [
    .cpy (.pv (.n 1)) (.add (.pa 0) (.v 5)) (.mul (.v 2) (.n 1)),  -- 5139
    .P (.n 1) (.add (.pv (.n 1)) (.v 0)),  -- 5140
    .I 5 (.add (.v 5) (.n 1))  -- 5138
  ]

/-- `intra_pred_ang_y_30_sse128`, vec/intrinsic_intra-pred.cc:5138. -/
def y30S_8 : Stmt :=
  .loop (.lt (.v 5) (.v 3)) y30S_7

/-- `intra_pred_ang_y_30_sse128`, vec/intrinsic_intra-pred.cc:5143. -/
def y30S_9 : Stmt :=
  .run [
    .P (.n 2) (.pv (.n 1))  -- 5143
  ]

/-- `intra_pred_ang_y_30_sse128`, vec/intrinsic_intra-pred.cc:5146-5168. -/
def y30S_10 : Stmt :=
  .run [
    .V 3 (.ld 16 (.add (.pa 0) (.n 0))),  -- 5146
    .st 8 (.pv (.n 2)) (.v 3),  -- 5147
    .P (.n 2) (.add (.pv (.n 2)) (.v 0)),  -- 5148
    .V 3 (.o1 (.srliB 1) (.v 3)),  -- 5149
    .st 8 (.pv (.n 2)) (.v 3),  -- 5150
    .P (.n 2) (.add (.pv (.n 2)) (.v 0)),  -- 5151
    .V 3 (.o1 (.srliB 1) (.v 3)),  -- 5152
    .st 8 (.pv (.n 2)) (.v 3),  -- 5153
    .P (.n 2) (.add (.pv (.n 2)) (.v 0)),  -- 5154
    .V 3 (.o1 (.srliB 1) (.v 3)),  -- 5155
    .st 8 (.pv (.n 2)) (.v 3),  -- 5156
    .P (.n 2) (.add (.pv (.n 1)) (.n 8)),  -- 5157
    .V 3 (.ld 16 (.add (.pa 0) (.n 8))),  -- 5158
    .st 8 (.pv (.n 2)) (.v 3),  -- 5159
    .P (.n 2) (.add (.pv (.n 2)) (.v 0)),  -- 5160
    .V 3 (.o1 (.srliB 1) (.v 3)),  -- 5161
    .st 8 (.pv (.n 2)) (.v 3),  -- 5162
    .P (.n 2) (.add (.pv (.n 2)) (.v 0)),  -- 5163
    .V 3 (.o1 (.srliB 1) (.v 3)),  -- 5164
    .st 8 (.pv (.n 2)) (.v 3),  -- 5165
    .P (.n 2) (.add (.pv (.n 2)) (.v 0)),  -- 5166
    .V 3 (.o1 (.srliB 1) (.v 3)),  -- 5167
    .st 8 (.pv (.n 2)) (.v 3)  -- 5168
  ]

/-- `intra_pred_ang_y_30_sse128`, vec/intrinsic_intra-pred.cc:5170-5193. -/
def y30S_11 : Stmt :=
  .run [
    .V 3 (.ld 16 (.add (.pa 0) (.n 0))),  -- 5170
    .st 8 (.pv (.n 2)) (.v 3),  -- 5171
    .P (.n 2) (.add (.pv (.n 2)) (.v 0)),  -- 5172
    .V 3 (.o1 (.srliB 1) (.v 3)),  -- 5173
    .st 8 (.pv (.n 2)) (.v 3),  -- 5174
    .P (.n 2) (.add (.pv (.n 2)) (.v 0)),  -- 5175
    .V 3 (.o1 (.srliB 1) (.v 3)),  -- 5176
    .st 8 (.pv (.n 2)) (.v 3),  -- 5177
    .P (.n 2) (.add (.pv (.n 2)) (.v 0)),  -- 5178
    .V 3 (.o1 (.srliB 1) (.v 3)),  -- 5179
    .st 8 (.pv (.n 2)) (.v 3),  -- 5180
    .P (.n 2) (.add (.pv (.n 2)) (.v 0)),  -- 5181
    .V 3 (.o1 (.srliB 1) (.v 3)),  -- 5182
    .st 8 (.pv (.n 2)) (.v 3),  -- 5183
    .P (.n 2) (.add (.pv (.n 2)) (.v 0)),  -- 5184
    .V 3 (.o1 (.srliB 1) (.v 3)),  -- 5185
    .st 8 (.pv (.n 2)) (.v 3),  -- 5186
    .P (.n 2) (.add (.pv (.n 2)) (.v 0)),  -- 5187
    .V 3 (.o1 (.srliB 1) (.v 3)),  -- 5188
    .st 8 (.pv (.n 2)) (.v 3),  -- 5189
    .P (.n 2) (.add (.pv (.n 2)) (.v 0)),  -- 5190
    .V 3 (.o1 (.srliB 1) (.v 3)),  -- 5191
    .st 8 (.pv (.n 2)) (.v 3),  -- 5192
    .P (.n 3) (.add (.pv (.n 2)) (.v 0))  -- 5193
  ]

/-- `intra_pred_ang_y_30_sse128`, vec/intrinsic_intra-pred.cc:5194-5217. -/
def y30S_12 : Stmt :=
  .run [
    .P (.n 2) (.add (.pv (.n 1)) (.n 8)),  -- 5194
    .V 3 (.ld 16 (.add (.pa 0) (.n 8))),  -- 5195
    .st 8 (.pv (.n 2)) (.v 3),  -- 5196
    .st 8 (.pv (.n 3)) (.v 3),  -- 5197
    .P (.n 2) (.add (.pv (.n 2)) (.v 0)),  -- 5198
    .P (.n 3) (.add (.pv (.n 3)) (.v 0)),  -- 5199
    .V 3 (.o1 (.srliB 1) (.v 3)),  -- 5200
    .st 8 (.pv (.n 2)) (.v 3),  -- 5201
    .st 8 (.pv (.n 3)) (.v 3),  -- 5202
    .P (.n 2) (.add (.pv (.n 2)) (.v 0)),  -- 5203
    .P (.n 3) (.add (.pv (.n 3)) (.v 0)),  -- 5204
    .V 3 (.o1 (.srliB 1) (.v 3)),  -- 5205
    .st 8 (.pv (.n 2)) (.v 3),  -- 5206
    .st 8 (.pv (.n 3)) (.v 3),  -- 5207
    .P (.n 2) (.add (.pv (.n 2)) (.v 0)),  -- 5208
    .P (.n 3) (.add (.pv (.n 3)) (.v 0)),  -- 5209
    .V 3 (.o1 (.srliB 1) (.v 3)),  -- 5210
    .st 8 (.pv (.n 2)) (.v 3),  -- 5211
    .st 8 (.pv (.n 3)) (.v 3),  -- 5212
    .P (.n 2) (.add (.pv (.n 2)) (.v 0)),  -- 5213
    .P (.n 3) (.add (.pv (.n 3)) (.v 0)),  -- 5214
    .V 3 (.o1 (.srliB 1) (.v 3)),  -- 5215
    .st 8 (.pv (.n 2)) (.v 3),  -- 5216
    .st 8 (.pv (.n 3)) (.v 3)  -- 5217
  ]

/-- `intra_pred_ang_y_30_sse128`, vec/intrinsic_intra-pred.cc:5218-5241. -/
def y30S_13 : Stmt :=
  .run [
    .P (.n 2) (.add (.pv (.n 2)) (.v 0)),  -- 5218
    .P (.n 3) (.add (.pv (.n 3)) (.v 0)),  -- 5219
    .V 3 (.o1 (.srliB 1) (.v 3)),  -- 5220
    .st 8 (.pv (.n 2)) (.v 3),  -- 5221
    .st 8 (.pv (.n 3)) (.v 3),  -- 5222
    .P (.n 2) (.add (.pv (.n 2)) (.v 0)),  -- 5223
    .P (.n 3) (.add (.pv (.n 3)) (.v 0)),  -- 5224
    .V 3 (.o1 (.srliB 1) (.v 3)),  -- 5225
    .st 8 (.pv (.n 2)) (.v 3),  -- 5226
    .st 8 (.pv (.n 3)) (.v 3),  -- 5227
    .P (.n 2) (.add (.pv (.n 2)) (.v 0)),  -- 5228
    .P (.n 3) (.add (.pv (.n 3)) (.v 0)),  -- 5229
    .V 3 (.o1 (.srliB 1) (.v 3)),  -- 5230
    .st 8 (.pv (.n 2)) (.v 3),  -- 5231
    .st 8 (.pv (.n 3)) (.v 3),  -- 5232
    .P (.n 2) (.add (.pv (.n 2)) (.v 0)),  -- 5233
    .V 3 (.ld 16 (.add (.pa 0) (.n 16))),  -- 5234
    .st 8 (.pv (.n 2)) (.v 3),  -- 5235
    .P (.n 2) (.add (.pv (.n 2)) (.v 0)),  -- 5236
    .V 3 (.o1 (.srliB 1) (.v 3)),  -- 5237
    .st 8 (.pv (.n 2)) (.v 3),  -- 5238
    .P (.n 2) (.add (.pv (.n 2)) (.v 0)),  -- 5239
    .V 3 (.o1 (.srliB 1) (.v 3)),  -- 5240
    .st 8 (.pv (.n 2)) (.v 3)  -- 5241
  ]

/-- `intra_pred_ang_y_30_sse128`, vec/intrinsic_intra-pred.cc:5242-5256. -/
def y30S_14 : Stmt :=
  .run [
    .P (.n 2) (.add (.pv (.n 2)) (.v 0)),  -- 5242
    .V 3 (.o1 (.srliB 1) (.v 3)),  -- 5243
    .st 8 (.pv (.n 2)) (.v 3),  -- 5244
    .P (.n 2) (.add (.pv (.n 2)) (.v 0)),  -- 5245
    .V 3 (.o1 (.srliB 1) (.v 3)),  -- 5246
    .st 8 (.pv (.n 2)) (.v 3),  -- 5247
    .P (.n 2) (.add (.pv (.n 2)) (.v 0)),  -- 5248
    .V 3 (.o1 (.srliB 1) (.v 3)),  -- 5249
    .st 8 (.pv (.n 2)) (.v 3),  -- 5250
    .P (.n 2) (.add (.pv (.n 2)) (.v 0)),  -- 5251
    .V 3 (.o1 (.srliB 1) (.v 3)),  -- 5252
    .st 8 (.pv (.n 2)) (.v 3),  -- 5253
    .P (.n 2) (.add (.pv (.n 2)) (.v 0)),  -- 5254
    .V 3 (.o1 (.srliB 1) (.v 3)),  -- 5255
    .st 8 (.pv (.n 2)) (.v 3)  -- 5256
  ]

/-- `intra_pred_ang_y_30_sse128`, vec/intrinsic_intra-pred.cc:5145. -/
def y30S_15 : Stmt :=
  .ite (.eq (.v 3) (.n 4)) y30S_10 (.seq y30S_11 (.seq y30S_12 (.seq y30S_13 y30S_14)))

/-- `intra_pred_ang_y_30_sse128`, vec/intrinsic_intra-pred.cc:5259. -/
def y30S_16 : Stmt :=
  .run [
    .I 5 (.n 0)  -- 5259
  ]

/-- `intra_pred_ang_y_30_sse128`, vec/intrinsic_intra-pred.cc:5260-5283. -/
def y30S_17 : Stmt :=
  .run [
    .V 3 (.ld 16 (.add (.pa 0) (.v 5))),  -- 5260
    .st 8 (.pv (.n 1)) (.v 3),  -- 5261
    .P (.n 1) (.add (.pv (.n 1)) (.v 0)),  -- 5262
    .V 3 (.o1 (.srliB 1) (.v 3)),  -- 5263
    .st 8 (.pv (.n 1)) (.v 3),  -- 5264
    .P (.n 1) (.add (.pv (.n 1)) (.v 0)),  -- 5265
    .V 3 (.o1 (.srliB 1) (.v 3)),  -- 5266
    .st 8 (.pv (.n 1)) (.v 3),  -- 5267
    .P (.n 1) (.add (.pv (.n 1)) (.v 0)),  -- 5268
    .V 3 (.o1 (.srliB 1) (.v 3)),  -- 5269
    .st 8 (.pv (.n 1)) (.v 3),  -- 5270
    .P (.n 1) (.add (.pv (.n 1)) (.v 0)),  -- 5271
    .V 3 (.o1 (.srliB 1) (.v 3)),  -- 5272
    .st 8 (.pv (.n 1)) (.v 3),  -- 5273
    .P (.n 1) (.add (.pv (.n 1)) (.v 0)),  -- 5274
    .V 3 (.o1 (.srliB 1) (.v 3)),  -- 5275
    .st 8 (.pv (.n 1)) (.v 3),  -- 5276
    .P (.n 1) (.add (.pv (.n 1)) (.v 0)),  -- 5277
    .V 3 (.o1 (.srliB 1) (.v 3)),  -- 5278
    .st 8 (.pv (.n 1)) (.v 3),  -- 5279
    .P (.n 1) (.add (.pv (.n 1)) (.v 0)),  -- 5280
    .V 3 (.o1 (.srliB 1) (.v 3)),  -- 5281
    .st 8 (.pv (.n 1)) (.v 3),  -- 5282
    .P (.n 1) (.add (.pv (.n 1)) (.v 0))  -- 5283
  ]

/-- `intra_pred_ang_y_30_sse128`, vec/intrinsic_intra-pred.cc:5259. -/
def y30S_18 : Stmt :=
  .run [
    .I 5 (.add (.v 5) (.n 8))  -- 5259
  ]

/-- `intra_pred_ang_y_30_sse128`, vec/intrinsic_intra-pred.cc:5259. -/
def y30S_19 : Stmt :=
  .loop (.lt (.v 5) (.v 3)) (.seq y30S_17 y30S_18)

/-- `intra_pred_ang_y_30_sse128`, vec/intrinsic_intra-pred.cc:5286. -/
def y30S_20 : Stmt :=
  .run [
    .I 5 (.n 0)  -- 5286
  ]

/-- `intra_pred_ang_y_30_sse128`, vec/intrinsic_intra-pred.cc:5286-5298. -/
def y30S_21 : Stmt :=
  .run [
    .V 3 (.ld 16 (.add (.pa 0) (.v 5))),  -- 5287
    .st 4 (.pv (.n 1)) (.v 3),  -- 5288
    .P (.n 1) (.add (.pv (.n 1)) (.v 0)),  -- 5289
    .V 3 (.o1 (.srliB 1) (.v 3)),  -- 5290
    .st 4 (.pv (.n 1)) (.v 3),  -- 5291
    .P (.n 1) (.add (.pv (.n 1)) (.v 0)),  -- 5292
    .V 3 (.o1 (.srliB 1) (.v 3)),  -- 5293
    .st 4 (.pv (.n 1)) (.v 3),  -- 5294
    .P (.n 1) (.add (.pv (.n 1)) (.v 0)),  -- 5295
    .V 3 (.o1 (.srliB 1) (.v 3)),  -- 5296
    .st 4 (.pv (.n 1)) (.v 3),  -- 5297
    .P (.n 1) (.add (.pv (.n 1)) (.v 0)),  -- 5298
    .I 5 (.add (.v 5) (.n 4))  -- 5286
  ]

/-- `intra_pred_ang_y_30_sse128`, vec/intrinsic_intra-pred.cc:5286. -/
def y30S_22 : Stmt :=
  .loop (.lt (.v 5) (.v 3)) y30S_21

/-- `intra_pred_ang_y_30_sse128`, vec/intrinsic_intra-pred.cc:5258. -/
def y30S_23 : Stmt :=
  .ite (.eq (.v 2) (.n 8)) (.seq y30S_16 y30S_19) (.seq y30S_20 y30S_22)

/-- `intra_pred_ang_y_30_sse128`, vec/intrinsic_intra-pred.cc:5142. -/
def y30S_24 : Stmt :=
  .ite (.eq (.v 2) (.n 16)) (.seq y30S_9 y30S_15) y30S_23

/-- `intra_pred_ang_y_30_sse128`, vec/intrinsic_intra-pred.cc:5137. -/
def y30S_25 : Stmt :=
  .ite (.lt (.n 16) (.v 2)) (.seq y30S_6 y30S_8) y30S_24

/-- `intra_pred_ang_y_30_sse128`, source/common/vec/intrinsic_intra-pred.cc:5050-5302.  Variables:
I: 0 i_dst, 1 dir_mode, 2 bsx, 3 bsy, 4 line_size, 5 i;
P: 0 src, 1 dst, 2 dst1, 3 dst2;
V: 0 coeff2, 1 shuffle, 2 zero, 3 p00/p01/M, 4 p10/p11, 5 p01/S0, 6 p11/S2, 7 S0/S1, 8 S2/H0, 9 S1/H1, 10 L0/H2, 11 L1, 12 L2, 13 H0, 14 H1, 15 H2. -/
def y30S : Stmt :=
  .seq y30S_1 (.seq y30S_3 (.seq y30S_5 y30S_25))

/-- `intra_pred_ang_y_31_sse128`, vec/intrinsic_intra-pred.cc:5309-5318. -/
def y31S_1 : Stmt :=
  .run [
    .alloc 0 5120,  -- 5309
    .alloc 1 512,  -- 5310
    .I 4 (.add (.shl (.shr (.add (.v 3) (.n 15)) 4) 4) (.n 16)),  -- 5311
    .I 5 (.n 0)  -- 5318
  ]

/-- `intra_pred_ang_y_31_sse128`, vec/intrinsic_intra-pred.cc:5318-5322. -/
def y31S_2 : Stmt :=
  .run [
    .st1 (.add (.pa 1) (.v 5)) (.ld (.add (.pv (.n 0)) (.sub (.n 0) (.v 5)))),  -- 5322
    .I 5 (.add (.v 5) (.n 1))  -- 5318
  ]

/-- `intra_pred_ang_y_31_sse128`, vec/intrinsic_intra-pred.cc:5318. -/
def y31S_3 : Stmt :=
  .loop (.lt (.v 5) (.add (.add (.v 3) (.div (.mul (.v 2) (.n 11)) (.n 8))) (.n 3))) y31S_2

/-- `intra_pred_ang_y_31_sse128`, vec/intrinsic_intra-pred.cc:5325. -/
def y31S_4 : Stmt :=
  .call x5S (.pa 1) (.pa 0) (.v 4) (.n 5) (.v 3) (.v 2)

/-- `intra_pred_ang_y_31_sse128`, vec/intrinsic_intra-pred.cc:5331-5335. -/
def y31S_5 : Stmt :=
  .run [
    .I 6 (.shr (.v 2) 3),  -- 5331
    .I 7 (.shr (.v 3) 3),  -- 5332
    .I 8 (.mul (.v 6) (.v 7)),  -- 5333
    .I 9 (.n 0)  -- 5335
  ]

/-- `intra_pred_ang_y_31_sse128`, vec/intrinsic_intra-pred.cc:5336. -/
def y31S_6 : Stmt :=
  .run [
    .I 10 (.n 0)  -- 5336
  ]

/-- `intra_pred_ang_y_31_sse128`, vec/intrinsic_intra-pred.cc:5336-5338. -/
def y31S_7 : Stmt :=
  .run [
    .P (.add (.n 2) (.add (.v 10) (.mul (.v 9) (.v 6)))) (.add (.add (.pv (.n 1)) (.mul (.v 10) (.n 8))) (.mul (.mul (.v 9) (.n 8)) (.v 0))),  -- 5337
    .P (.add (.n 66) (.add (.v 10) (.mul (.v 9) (.v 6)))) (.add (.add (.pa 0) (.mul (.v 9) (.n 8))) (.mul (.mul (.v 10) (.n 8)) (.v 4))),  -- 5338
    .I 10 (.add (.v 10) (.n 1))  -- 5336
  ]

/-- `intra_pred_ang_y_31_sse128`, vec/intrinsic_intra-pred.cc:5336. -/
def y31S_8 : Stmt :=
  .loop (.lt (.v 10) (.v 6)) y31S_7

/-- `intra_pred_ang_y_31_sse128`, vec/intrinsic_intra-pred.cc:5335. -/
def y31S_9 : Stmt :=
  .run [
    .I 9 (.add (.v 9) (.n 1))  -- 5335
  ]

/-- `intra_pred_ang_y_31_sse128`, vec/intrinsic_intra-pred.cc:5335. -/
def y31S_10 : Stmt :=
  .loop (.lt (.v 9) (.v 7)) (.seq y31S_6 (.seq y31S_8 y31S_9))

/-- `intra_pred_ang_y_31_sse128`, vec/intrinsic_intra-pred.cc:5342. -/
def y31S_11 : Stmt :=
  .run [
    .I 5 (.n 0)  -- 5342
  ]

/-- `intra_pred_ang_y_31_sse128`, vec/intrinsic_intra-pred.cc:5343-5370. -/
def y31S_12 : Stmt :=
  .run [
    .P (.n 130) (.pv (.add (.n 66) (.v 5))),  -- 5343
    .P (.n 131) (.pv (.add (.n 2) (.v 5))),  -- 5345
    .P (.n 132) (.add (.pv (.n 131)) (.v 0)),  -- 5346
    .P (.n 133) (.add (.pv (.n 132)) (.v 0)),  -- 5347
    .P (.n 134) (.add (.pv (.n 133)) (.v 0)),  -- 5348
    .P (.n 135) (.add (.pv (.n 134)) (.v 0)),  -- 5349
    .P (.n 136) (.add (.pv (.n 135)) (.v 0)),  -- 5350
    .P (.n 137) (.add (.pv (.n 136)) (.v 0)),  -- 5351
    .P (.n 138) (.add (.pv (.n 137)) (.v 0)),  -- 5352
    .V 0 (.ld 16 (.pv (.n 130))),  -- 5356
    .P (.n 130) (.add (.pv (.n 130)) (.v 4)),  -- 5357
    .V 1 (.ld 16 (.pv (.n 130))),  -- 5358
    .P (.n 130) (.add (.pv (.n 130)) (.v 4)),  -- 5359
    .V 2 (.ld 16 (.pv (.n 130))),  -- 5360
    .P (.n 130) (.add (.pv (.n 130)) (.v 4)),  -- 5361
    .V 3 (.ld 16 (.pv (.n 130))),  -- 5362
    .P (.n 130) (.add (.pv (.n 130)) (.v 4)),  -- 5363
    .V 4 (.ld 16 (.pv (.n 130))),  -- 5364
    .P (.n 130) (.add (.pv (.n 130)) (.v 4)),  -- 5365
    .V 5 (.ld 16 (.pv (.n 130))),  -- 5366
    .P (.n 130) (.add (.pv (.n 130)) (.v 4)),  -- 5367
    .V 6 (.ld 16 (.pv (.n 130))),  -- 5368
    .P (.n 130) (.add (.pv (.n 130)) (.v 4)),  -- 5369
    .V 7 (.ld 16 (.pv (.n 130)))  -- 5370
  ]

/-- `intra_pred_ang_y_31_sse128`, vec/intrinsic_intra-pred.cc:5371-5401. -/
def y31S_13 : Stmt :=
  .run [
    .P (.n 130) (.add (.pv (.n 130)) (.v 4)),  -- 5371
    .V 8 (.o2 .unpacklo8 (.v 0) (.v 1)),  -- 5373
    .V 9 (.o2 .unpacklo8 (.v 2) (.v 3)),  -- 5374
    .V 10 (.o2 .unpacklo8 (.v 4) (.v 5)),  -- 5375
    .V 11 (.o2 .unpacklo8 (.v 6) (.v 7)),  -- 5376
    .V 12 (.o2 .unpacklo16 (.v 8) (.v 9)),  -- 5378
    .V 14 (.o2 .unpacklo16 (.v 10) (.v 11)),  -- 5379
    .V 13 (.o2 .unpackhi16 (.v 8) (.v 9)),  -- 5380
    .V 15 (.o2 .unpackhi16 (.v 10) (.v 11)),  -- 5381
    .V 8 (.o2 .unpacklo32 (.v 12) (.v 14)),  -- 5383
    .V 9 (.o2 .unpackhi32 (.v 12) (.v 14)),  -- 5384
    .V 10 (.o2 .unpacklo32 (.v 13) (.v 15)),  -- 5385
    .V 11 (.o2 .unpackhi32 (.v 13) (.v 15)),  -- 5386
    .st 8 (.pv (.n 131)) (.v 8),  -- 5388
    .V 8 (.o1 (.srliB 8) (.v 8)),  -- 5389
    .st 8 (.pv (.n 132)) (.v 8),  -- 5390
    .st 8 (.pv (.n 133)) (.v 9),  -- 5392
    .V 9 (.o1 (.srliB 8) (.v 9)),  -- 5393
    .st 8 (.pv (.n 134)) (.v 9),  -- 5394
    .st 8 (.pv (.n 135)) (.v 10),  -- 5396
    .V 10 (.o1 (.srliB 8) (.v 10)),  -- 5397
    .st 8 (.pv (.n 136)) (.v 10),  -- 5398
    .st 8 (.pv (.n 137)) (.v 11),  -- 5400
    .V 11 (.o1 (.srliB 8) (.v 11))  -- 5401
  ]

/-- `intra_pred_ang_y_31_sse128`, vec/intrinsic_intra-pred.cc:5342-5402. -/
def y31S_14 : Stmt :=
  .run [
    .st 8 (.pv (.n 138)) (.v 11),  -- 5402
    .I 5 (.add (.v 5) (.n 1))  -- 5342
  ]

/-- `intra_pred_ang_y_31_sse128`, vec/intrinsic_intra-pred.cc:5342. -/
def y31S_15 : Stmt :=
  .loop (.lt (.v 5) (.v 8)) (.seq y31S_12 (.seq y31S_13 y31S_14))

/-- `intra_pred_ang_y_31_sse128`, vec/intrinsic_intra-pred.cc:5405. -/
def y31S_16 : Stmt :=
  .run [
    .I 5 (.n 0)  -- 5405
  ]

/-- `intra_pred_ang_y_31_sse128`, vec/intrinsic_intra-pred.cc:5406-5435. -/
def y31S_17 : Stmt :=
  .run [
    .P (.n 2) (.add (.pa 0) (.mul (.mul (.v 5) (.n 8)) (.v 4))),  -- 5406
    .P (.n 3) (.add (.pv (.n 1)) (.mul (.v 5) (.n 8))),  -- 5408
    .P (.n 4) (.add (.pv (.n 3)) (.v 0)),  -- 5409
    .P (.n 5) (.add (.pv (.n 4)) (.v 0)),  -- 5410
    .P (.n 6) (.add (.pv (.n 5)) (.v 0)),  -- 5411
    .V 0 (.ld 16 (.pv (.n 2))),  -- 5416
    .P (.n 2) (.add (.pv (.n 2)) (.v 4)),  -- 5417
    .V 1 (.ld 16 (.pv (.n 2))),  -- 5418
    .P (.n 2) (.add (.pv (.n 2)) (.v 4)),  -- 5419
    .V 2 (.ld 16 (.pv (.n 2))),  -- 5420
    .P (.n 2) (.add (.pv (.n 2)) (.v 4)),  -- 5421
    .V 3 (.ld 16 (.pv (.n 2))),  -- 5422
    .P (.n 2) (.add (.pv (.n 2)) (.v 4)),  -- 5423
    .V 4 (.ld 16 (.pv (.n 2))),  -- 5424
    .P (.n 2) (.add (.pv (.n 2)) (.v 4)),  -- 5425
    .V 5 (.ld 16 (.pv (.n 2))),  -- 5426
    .P (.n 2) (.add (.pv (.n 2)) (.v 4)),  -- 5427
    .V 6 (.ld 16 (.pv (.n 2))),  -- 5428
    .P (.n 2) (.add (.pv (.n 2)) (.v 4)),  -- 5429
    .V 7 (.ld 16 (.pv (.n 2))),  -- 5430
    .P (.n 2) (.add (.pv (.n 2)) (.v 4)),  -- 5431
    .V 8 (.o2 .unpacklo8 (.v 0) (.v 1)),  -- 5433
    .V 9 (.o2 .unpacklo8 (.v 2) (.v 3)),  -- 5434
    .V 10 (.o2 .unpacklo8 (.v 4) (.v 5))  -- 5435
  ]

/-- `intra_pred_ang_y_31_sse128`, vec/intrinsic_intra-pred.cc:5405-5450. -/
def y31S_18 : Stmt :=
  .run [
    .V 11 (.o2 .unpacklo8 (.v 6) (.v 7)),  -- 5436
    .V 12 (.o2 .unpacklo16 (.v 8) (.v 9)),  -- 5438
    .V 13 (.o2 .unpacklo16 (.v 10) (.v 11)),  -- 5439
    .V 8 (.o2 .unpacklo32 (.v 12) (.v 13)),  -- 5441
    .V 9 (.o2 .unpackhi32 (.v 12) (.v 13)),  -- 5442
    .st 8 (.pv (.n 3)) (.v 8),  -- 5444
    .V 8 (.o1 (.srliB 8) (.v 8)),  -- 5445
    .st 8 (.pv (.n 4)) (.v 8),  -- 5446
    .st 8 (.pv (.n 5)) (.v 9),  -- 5448
    .V 9 (.o1 (.srliB 8) (.v 9)),  -- 5449
    .st 8 (.pv (.n 6)) (.v 9),  -- 5450
    .I 5 (.add (.v 5) (.n 1))  -- 5405
  ]

/-- `intra_pred_ang_y_31_sse128`, vec/intrinsic_intra-pred.cc:5405. -/
def y31S_19 : Stmt :=
  .loop (.lt (.v 5) (.n 2)) (.seq y31S_17 y31S_18)

/-- `intra_pred_ang_y_31_sse128`, vec/intrinsic_intra-pred.cc:5453-5484. -/
def y31S_20 : Stmt :=
  .run [
    .P (.n 2) (.pa 0),  -- 5453
    .P (.n 3) (.pv (.n 1)),  -- 5455
    .P (.n 4) (.add (.pv (.n 3)) (.v 0)),  -- 5456
    .P (.n 5) (.add (.pv (.n 4)) (.v 0)),  -- 5457
    .P (.n 6) (.add (.pv (.n 5)) (.v 0)),  -- 5458
    .P (.n 7) (.add (.pv (.n 6)) (.v 0)),  -- 5459
    .P (.n 8) (.add (.pv (.n 7)) (.v 0)),  -- 5460
    .P (.n 9) (.add (.pv (.n 8)) (.v 0)),  -- 5461
    .P (.n 10) (.add (.pv (.n 9)) (.v 0)),  -- 5462
    .V 0 (.ld 16 (.pv (.n 2))),  -- 5467
    .P (.n 2) (.add (.pv (.n 2)) (.v 4)),  -- 5468
    .V 1 (.ld 16 (.pv (.n 2))),  -- 5469
    .P (.n 2) (.add (.pv (.n 2)) (.v 4)),  -- 5470
    .V 2 (.ld 16 (.pv (.n 2))),  -- 5471
    .P (.n 2) (.add (.pv (.n 2)) (.v 4)),  -- 5472
    .V 3 (.ld 16 (.pv (.n 2))),  -- 5473
    .P (.n 2) (.add (.pv (.n 2)) (.v 4)),  -- 5474
    .V 4 (.o2 .unpacklo8 (.v 0) (.v 1)),  -- 5476
    .V 5 (.o2 .unpacklo8 (.v 2) (.v 3)),  -- 5477
    .V 6 (.o2 .unpacklo16 (.v 4) (.v 5)),  -- 5479
    .V 7 (.o2 .unpackhi16 (.v 4) (.v 5)),  -- 5480
    .st 4 (.pv (.n 3)) (.v 6),  -- 5482
    .V 6 (.o1 (.srliB 4) (.v 6)),  -- 5483
    .st 4 (.pv (.n 4)) (.v 6)  -- 5484
  ]

/-- `intra_pred_ang_y_31_sse128`, vec/intrinsic_intra-pred.cc:5485-5513. -/
def y31S_21 : Stmt :=
  .run [
    .V 6 (.o1 (.srliB 4) (.v 6)),  -- 5485
    .st 4 (.pv (.n 5)) (.v 6),  -- 5486
    .V 6 (.o1 (.srliB 4) (.v 6)),  -- 5487
    .st 4 (.pv (.n 6)) (.v 6),  -- 5488
    .st 4 (.pv (.n 7)) (.v 7),  -- 5490
    .V 7 (.o1 (.srliB 4) (.v 7)),  -- 5491
    .st 4 (.pv (.n 8)) (.v 7),  -- 5492
    .V 7 (.o1 (.srliB 4) (.v 7)),  -- 5493
    .st 4 (.pv (.n 9)) (.v 7),  -- 5494
    .V 7 (.o1 (.srliB 4) (.v 7)),  -- 5495
    .st 4 (.pv (.n 10)) (.v 7),  -- 5496
    .P (.n 3) (.add (.pv (.n 10)) (.v 0)),  -- 5498
    .P (.n 4) (.add (.pv (.n 3)) (.v 0)),  -- 5499
    .P (.n 5) (.add (.pv (.n 4)) (.v 0)),  -- 5500
    .P (.n 6) (.add (.pv (.n 5)) (.v 0)),  -- 5501
    .P (.n 7) (.add (.pv (.n 6)) (.v 0)),  -- 5502
    .P (.n 8) (.add (.pv (.n 7)) (.v 0)),  -- 5503
    .P (.n 9) (.add (.pv (.n 8)) (.v 0)),  -- 5504
    .P (.n 10) (.add (.pv (.n 9)) (.v 0)),  -- 5505
    .V 4 (.o2 .unpackhi8 (.v 0) (.v 1)),  -- 5507
    .V 5 (.o2 .unpackhi8 (.v 2) (.v 3)),  -- 5508
    .V 6 (.o2 .unpacklo16 (.v 4) (.v 5)),  -- 5510
    .V 7 (.o2 .unpackhi16 (.v 4) (.v 5)),  -- 5511
    .st 4 (.pv (.n 3)) (.v 6)  -- 5513
  ]

/-- `intra_pred_ang_y_31_sse128`, vec/intrinsic_intra-pred.cc:5514-5527. -/
def y31S_22 : Stmt :=
  .run [
    .V 6 (.o1 (.srliB 4) (.v 6)),  -- 5514
    .st 4 (.pv (.n 4)) (.v 6),  -- 5515
    .V 6 (.o1 (.srliB 4) (.v 6)),  -- 5516
    .st 4 (.pv (.n 5)) (.v 6),  -- 5517
    .V 6 (.o1 (.srliB 4) (.v 6)),  -- 5518
    .st 4 (.pv (.n 6)) (.v 6),  -- 5519
    .st 4 (.pv (.n 7)) (.v 7),  -- 5521
    .V 7 (.o1 (.srliB 4) (.v 7)),  -- 5522
    .st 4 (.pv (.n 8)) (.v 7),  -- 5523
    .V 7 (.o1 (.srliB 4) (.v 7)),  -- 5524
    .st 4 (.pv (.n 9)) (.v 7),  -- 5525
    .V 7 (.o1 (.srliB 4) (.v 7)),  -- 5526
    .st 4 (.pv (.n 10)) (.v 7)  -- 5527
  ]

/-- `intra_pred_ang_y_31_sse128`, vec/intrinsic_intra-pred.cc:5529-5559. -/
def y31S_23 : Stmt :=
  .run [
    .P (.n 2) (.pa 0),  -- 5529
    .P (.n 3) (.pv (.n 1)),  -- 5531
    .P (.n 4) (.add (.pv (.n 3)) (.v 0)),  -- 5532
    .P (.n 5) (.add (.pv (.n 4)) (.v 0)),  -- 5533
    .P (.n 6) (.add (.pv (.n 5)) (.v 0)),  -- 5534
    .V 0 (.ld 16 (.pv (.n 2))),  -- 5539
    .P (.n 2) (.add (.pv (.n 2)) (.v 4)),  -- 5540
    .V 1 (.ld 16 (.pv (.n 2))),  -- 5541
    .P (.n 2) (.add (.pv (.n 2)) (.v 4)),  -- 5542
    .V 2 (.ld 16 (.pv (.n 2))),  -- 5543
    .P (.n 2) (.add (.pv (.n 2)) (.v 4)),  -- 5544
    .V 3 (.ld 16 (.pv (.n 2))),  -- 5545
    .P (.n 2) (.add (.pv (.n 2)) (.v 4)),  -- 5546
    .V 4 (.o2 .unpacklo8 (.v 0) (.v 1)),  -- 5548
    .V 5 (.o2 .unpacklo8 (.v 2) (.v 3)),  -- 5549
    .V 6 (.o2 .unpacklo16 (.v 4) (.v 5)),  -- 5551
    .st 4 (.pv (.n 3)) (.v 6),  -- 5553
    .V 6 (.o1 (.srliB 4) (.v 6)),  -- 5554
    .st 4 (.pv (.n 4)) (.v 6),  -- 5555
    .V 6 (.o1 (.srliB 4) (.v 6)),  -- 5556
    .st 4 (.pv (.n 5)) (.v 6),  -- 5557
    .V 6 (.o1 (.srliB 4) (.v 6)),  -- 5558
    .st 4 (.pv (.n 6)) (.v 6)  -- 5559
  ]

/-- `intra_pred_ang_y_31_sse128`, vec/intrinsic_intra-pred.cc:5452. -/
def y31S_24 : Stmt :=
  .ite (.eq (.v 3) (.n 16)) (.seq y31S_20 (.seq y31S_21 y31S_22)) y31S_23

/-- `intra_pred_ang_y_31_sse128`, vec/intrinsic_intra-pred.cc:5404. -/
def y31S_25 : Stmt :=
  .ite (.eq (.v 2) (.n 16)) (.seq y31S_16 y31S_19) y31S_24

/-- `intra_pred_ang_y_31_sse128`, vec/intrinsic_intra-pred.cc:5327. -/
def y31S_26 : Stmt :=
  .ite (.and (.lt (.n 4) (.v 3)) (.lt (.n 4) (.v 2))) (.seq y31S_5 (.seq y31S_10 (.seq y31S_11 y31S_15))) y31S_25

/-- `intra_pred_ang_y_31_sse128`, source/common/vec/intrinsic_intra-pred.cc:5307-5562.  Variables:
I: 0 i_dst, 1 dir_mode, 2 bsx, 3 bsy, 4 i_dst2, 5 i, 6 iSize_x, 7 iSize_y, 8 iSize, 9 y, 10 x;
P: 0 src, 1 dst, 2 pDst_128/dst_tran_org, 3 dst1, 4 dst2, 5 dst3, 6 dst4, 7 dst5, 8 dst6, 9 dst7, 10 dst8, 66 pTra_128, 130 dst_tran_org, 131 dst1, 132 dst2, 133 dst3, 134 dst4, 135 dst5, 136 dst6, 137 dst7, 138 dst8;
V: 0 Org_8_0, 1 Org_8_1, 2 Org_8_2, 3 Org_8_3, 4 Org_8_4/p00, 5 Org_8_5/p10, 6 Org_8_6/t00, 7 Org_8_7/t10, 8 p00, 9 p10, 10 p20, 11 p30, 12 t00, 13 t10/t20, 14 t20, 15 t30. -/
def y31S : Stmt :=
  .seq y31S_1 (.seq y31S_3 (.seq y31S_4 y31S_26))

/-- `intra_pred_ang_y_32_sse128`, vec/intrinsic_intra-pred.cc:5569-5592. -/
def y32S_1 : Stmt :=
  .run [
    .alloc 0 256,  -- 5569
    .I 4 (.sub (.add (.shr (.v 3) 1) (.v 2)) (.n 1)),  -- 5570
    .I 6 (.shl (.shr (.add (.v 4) (.n 63)) 4) 4),  -- 5576
    .V 0 (.set1_16 (.n 2)),  -- 5579
    .V 1 .zero,  -- 5580
    .V 2 (.setr8 [15, 13, 11, 9, 7, 5, 3, 1, 14, 12, 10, 8, 6, 4, 2, 0]),  -- 5581
    .V 3 (.setr8 [14, 12, 10, 8, 6, 4, 2, 0, 15, 13, 11, 9, 7, 5, 3, 1]),  -- 5582
    .I 7 (.mul (.v 0) (.n 2)),  -- 5583
    .P (.n 2) (.pa 0),  -- 5587
    .P (.n 3) (.add (.pa 0) (.v 6)),  -- 5588
    .P (.n 0) (.sub (.pv (.n 0)) (.n 18)),  -- 5590
    .I 5 (.n 0)  -- 5592
  ]

/-- `intra_pred_ang_y_32_sse128`, vec/intrinsic_intra-pred.cc:5597-5625. -/
def y32S_2 : Stmt :=
  .run [
    .V 8 (.ld 16 (.add (.pv (.n 0)) (.n 1))),  -- 5597
    .V 9 (.ld 16 (.sub (.pv (.n 0)) (.n 1))),  -- 5598
    .V 10 (.ld 16 (.pv (.n 0))),  -- 5599
    .V 11 (.o2 .unpacklo8 (.v 9) (.v 1)),  -- 5601
    .V 12 (.o2 .unpacklo8 (.v 10) (.v 1)),  -- 5602
    .V 13 (.o2 .unpacklo8 (.v 8) (.v 1)),  -- 5603
    .V 14 (.o2 .unpackhi8 (.v 9) (.v 1)),  -- 5605
    .V 15 (.o2 .unpackhi8 (.v 10) (.v 1)),  -- 5606
    .V 16 (.o2 .unpackhi8 (.v 8) (.v 1)),  -- 5607
    .V 4 (.o2 .add16 (.v 11) (.v 12)),  -- 5609
    .V 5 (.o2 .add16 (.v 12) (.v 13)),  -- 5610
    .V 4 (.o2 .add16 (.v 4) (.v 0)),  -- 5611
    .V 4 (.o2 .add16 (.v 4) (.v 5)),  -- 5612
    .V 4 (.o1 (.srli16 2) (.v 4)),  -- 5613
    .V 6 (.o2 .add16 (.v 14) (.v 15)),  -- 5615
    .V 7 (.o2 .add16 (.v 15) (.v 16)),  -- 5616
    .V 6 (.o2 .add16 (.v 6) (.v 0)),  -- 5617
    .V 6 (.o2 .add16 (.v 6) (.v 7)),  -- 5618
    .V 6 (.o1 (.srli16 2) (.v 6)),  -- 5619
    .V 4 (.o2 .packus16 (.v 4) (.v 6)),  -- 5621
    .V 6 (.o2 .shuffle8 (.v 4) (.v 3)),  -- 5622
    .V 4 (.o2 .shuffle8 (.v 4) (.v 2)),  -- 5623
    .st 8 (.add (.pv (.n 2)) (.v 5)) (.v 4),  -- 5624
    .st 8 (.add (.pv (.n 3)) (.v 5)) (.v 6)  -- 5625
  ]

/-- `intra_pred_ang_y_32_sse128`, vec/intrinsic_intra-pred.cc:5592. -/
def y32S_3 : Stmt :=
  .run [
    .I 5 (.add (.v 5) (.n 8)),  -- 5592
    .P (.n 0) (.sub (.pv (.n 0)) (.n 16))
  ]

/-- `intra_pred_ang_y_32_sse128`, vec/intrinsic_intra-pred.cc:5592. -/
def y32S_4 : Stmt :=
  .loop (.lt (.v 5) (.sub (.v 4) (.n 4))) (.seq y32S_2 y32S_3)

/-- `intra_pred_ang_y_32_sse128`, vec/intrinsic_intra-pred.cc:5634-5652. -/
def y32S_5 : Stmt :=
  .run [
    .V 6 (.ld 16 (.add (.pv (.n 0)) (.n 1))),  -- 5634
    .V 7 (.ld 16 (.sub (.pv (.n 0)) (.n 1))),  -- 5635
    .V 8 (.ld 16 (.pv (.n 0))),  -- 5636
    .V 9 (.o2 .unpackhi8 (.v 7) (.v 1)),  -- 5638
    .V 10 (.o2 .unpackhi8 (.v 8) (.v 1)),  -- 5639
    .V 11 (.o2 .unpackhi8 (.v 6) (.v 1)),  -- 5640
    .V 4 (.o2 .add16 (.v 9) (.v 10)),  -- 5642
    .V 5 (.o2 .add16 (.v 10) (.v 11)),  -- 5643
    .V 4 (.o2 .add16 (.v 4) (.v 0)),  -- 5644
    .V 4 (.o2 .add16 (.v 4) (.v 5)),  -- 5645
    .V 4 (.o1 (.srli16 2) (.v 4)),  -- 5646
    .V 5 (.o2 .packus16 (.v 4) (.v 4)),  -- 5648
    .V 4 (.o2 .shuffle8 (.v 5) (.v 3)),  -- 5649
    .V 5 (.o2 .shuffle8 (.v 5) (.v 2)),  -- 5650
    .st 4 (.add (.pv (.n 2)) (.v 5)) (.v 5),  -- 5651
    .st 4 (.add (.pv (.n 3)) (.v 5)) (.v 4)  -- 5652
  ]

/-- `intra_pred_ang_y_32_sse128`, vec/intrinsic_intra-pred.cc:5629. -/
def y32S_6 : Stmt :=
  .ite (.lt (.v 5) (.v 4)) y32S_5 (.run [])

/-- `intra_pred_ang_y_32_sse128`, vec/intrinsic_intra-pred.cc:5666. -/
def y32S_7 : Stmt :=
  .run [
    .I 3 (.shr (.v 3) 1)  -- 5666
  ]

/-- `intra_pred_ang_y_32_sse128`, vec/intrinsic_intra-pred.cc:5669. -/
def y32S_8 : Stmt :=
  .run [
    .I 5 (.n 0)  -- 5669
  ]

/-- `intra_pred_ang_y_32_sse128`, vec/intrinsic_intra-pred.cc:5669-5672. -/
def y32S_9 : Stmt :=
  .run [
    .cpy (.pv (.n 1)) (.add (.pv (.n 2)) (.v 5)) (.mul (.v 2) (.n 1)),  -- 5670
    .cpy (.add (.pv (.n 1)) (.v 0)) (.add (.pv (.n 3)) (.v 5)) (.mul (.v 2) (.n 1)),  -- 5671
    .P (.n 1) (.add (.pv (.n 1)) (.v 7)),  -- 5672
    .I 5 (.add (.v 5) (.n 1))  -- 5669
  ]

/-- `intra_pred_ang_y_32_sse128`, vec/intrinsic_intra-pred.cc:5669. -/
def y32S_10 : Stmt :=
  .loop (.lt (.v 5) (.v 3)) y32S_9

/-- `intra_pred_ang_y_32_sse128`, vec/intrinsic_intra-pred.cc:5676-5694. -/
def y32S_11 : Stmt :=
  .run [
    .V 4 (.ld 16 (.add (.pv (.n 2)) (.n 0))),  -- 5676
    .V 5 (.ld 16 (.add (.pv (.n 3)) (.n 0))),  -- 5677
    .st 8 (.pv (.n 1)) (.v 4),  -- 5678
    .st 8 (.add (.pv (.n 1)) (.v 0)) (.v 5),  -- 5679
    .P (.n 1) (.add (.pv (.n 1)) (.v 7)),  -- 5680
    .V 4 (.o1 (.srliB 1) (.v 4)),  -- 5681
    .V 5 (.o1 (.srliB 1) (.v 5)),  -- 5682
    .st 8 (.pv (.n 1)) (.v 4),  -- 5683
    .st 8 (.add (.pv (.n 1)) (.v 0)) (.v 5),  -- 5684
    .P (.n 1) (.add (.pv (.n 1)) (.v 7)),  -- 5685
    .V 4 (.o1 (.srliB 1) (.v 4)),  -- 5686
    .V 5 (.o1 (.srliB 1) (.v 5)),  -- 5687
    .st 8 (.pv (.n 1)) (.v 4),  -- 5688
    .st 8 (.add (.pv (.n 1)) (.v 0)) (.v 5),  -- 5689
    .P (.n 1) (.add (.pv (.n 1)) (.v 7)),  -- 5690
    .V 4 (.o1 (.srliB 1) (.v 4)),  -- 5691
    .V 5 (.o1 (.srliB 1) (.v 5)),  -- 5692
    .st 8 (.pv (.n 1)) (.v 4),  -- 5693
    .st 8 (.add (.pv (.n 1)) (.v 0)) (.v 5)  -- 5694
  ]

/-- `intra_pred_ang_y_32_sse128`, vec/intrinsic_intra-pred.cc:5696. -/
def y32S_12 : Stmt :=
  .run [
    .I 5 (.n 0)  -- 5696
  ]

/-- `intra_pred_ang_y_32_sse128`, vec/intrinsic_intra-pred.cc:5697-5720. -/
def y32S_13 : Stmt :=
  .run [
    .V 4 (.ld 16 (.add (.pv (.n 2)) (.v 5))),  -- 5697
    .V 5 (.ld 16 (.add (.pv (.n 3)) (.v 5))),  -- 5698
    .st 8 (.pv (.n 1)) (.v 4),  -- 5699
    .st 8 (.add (.pv (.n 1)) (.v 0)) (.v 5),  -- 5700
    .P (.n 1) (.add (.pv (.n 1)) (.v 7)),  -- 5701
    .V 4 (.o1 (.srliB 1) (.v 4)),  -- 5702
    .V 5 (.o1 (.srliB 1) (.v 5)),  -- 5703
    .st 8 (.pv (.n 1)) (.v 4),  -- 5704
    .st 8 (.add (.pv (.n 1)) (.v 0)) (.v 5),  -- 5705
    .P (.n 1) (.add (.pv (.n 1)) (.v 7)),  -- 5706
    .V 4 (.o1 (.srliB 1) (.v 4)),  -- 5707
    .V 5 (.o1 (.srliB 1) (.v 5)),  -- 5708
    .st 8 (.pv (.n 1)) (.v 4),  -- 5709
    .st 8 (.add (.pv (.n 1)) (.v 0)) (.v 5),  -- 5710
    .P (.n 1) (.add (.pv (.n 1)) (.v 7)),  -- 5711
    .V 4 (.o1 (.srliB 1) (.v 4)),  -- 5712
    .V 5 (.o1 (.srliB 1) (.v 5)),  -- 5713
    .st 8 (.pv (.n 1)) (.v 4),  -- 5714
    .st 8 (.add (.pv (.n 1)) (.v 0)) (.v 5),  -- 5715
    .P (.n 1) (.add (.pv (.n 1)) (.v 7)),  -- 5716
    .V 4 (.o1 (.srliB 1) (.v 4)),  -- 5717
    .V 5 (.o1 (.srliB 1) (.v 5)),  -- 5718
    .st 8 (.pv (.n 1)) (.v 4),  -- 5719
    .st 8 (.add (.pv (.n 1)) (.v 0)) (.v 5)  -- 5720
  ]

/-- `intra_pred_ang_y_32_sse128`, vec/intrinsic_intra-pred.cc:5696-5736. -/
def y32S_14 : Stmt :=
  .run [
    .P (.n 1) (.add (.pv (.n 1)) (.v 7)),  -- 5721
    .V 4 (.o1 (.srliB 1) (.v 4)),  -- 5722
    .V 5 (.o1 (.srliB 1) (.v 5)),  -- 5723
    .st 8 (.pv (.n 1)) (.v 4),  -- 5724
    .st 8 (.add (.pv (.n 1)) (.v 0)) (.v 5),  -- 5725
    .P (.n 1) (.add (.pv (.n 1)) (.v 7)),  -- 5726
    .V 4 (.o1 (.srliB 1) (.v 4)),  -- 5727
    .V 5 (.o1 (.srliB 1) (.v 5)),  -- 5728
    .st 8 (.pv (.n 1)) (.v 4),  -- 5729
    .st 8 (.add (.pv (.n 1)) (.v 0)) (.v 5),  -- 5730
    .P (.n 1) (.add (.pv (.n 1)) (.v 7)),  -- 5731
    .V 4 (.o1 (.srliB 1) (.v 4)),  -- 5732
    .V 5 (.o1 (.srliB 1) (.v 5)),  -- 5733
    .st 8 (.pv (.n 1)) (.v 4),  -- 5734
    .st 8 (.add (.pv (.n 1)) (.v 0)) (.v 5),  -- 5735
    .P (.n 1) (.add (.pv (.n 1)) (.v 7)),  -- 5736
    .I 5 (.add (.v 5) (.n 8))  -- 5696
  ]

/-- `intra_pred_ang_y_32_sse128`, vec/intrinsic_intra-pred.cc:5696. -/
def y32S_15 : Stmt :=
  .loop (.lt (.v 5) (.n 16)) (.seq y32S_13 y32S_14)

/-- `intra_pred_ang_y_32_sse128`, vec/intrinsic_intra-pred.cc:5675. -/
def y32S_16 : Stmt :=
  .ite (.eq (.v 3) (.n 4)) y32S_11 (.seq y32S_12 y32S_15)

/-- `intra_pred_ang_y_32_sse128`, vec/intrinsic_intra-pred.cc:5668. -/
def y32S_17 : Stmt :=
  .ite (.or (.le (.n 16) (.v 2)) (.eq (.v 2) (.n 4))) (.seq y32S_8 y32S_10) y32S_16

/-- `intra_pred_ang_y_32_sse128`, source/common/vec/intrinsic_intra-pred.cc:5567-5740.  Variables:
I: 0 i_dst, 1 dir_mode, 2 bsx, 3 bsy, 4 line_size, 5 i, 6 aligned_line_size, 7 i_dst2;
P: 0 src, 1 dst, 2 pfirst;
V: 0 coeff2, 1 zero, 2 shuffle1, 3 shuffle2, 4 p00/p10/M1, 5 p01/p11/M2, 6 p10/S2, 7 p11/S0, 8 S2/S1, 9 S0/H0, 10 S1/H1, 11 L0/H2, 12 L1, 13 L2, 14 H0, 15 H1, 16 H2. -/
def y32S : Stmt :=
  .seq y32S_1 (.seq y32S_4 (.seq y32S_6 (.seq y32S_7 y32S_17)))

end Davs2.Vp
