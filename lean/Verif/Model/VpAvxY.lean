import Verif.Model.VpAvxX
import Verif.Model.VpSseY
/-
The vector routines of directional intra prediction, statement by statement in the language of Model/VecProg.lean;
the number after `--` is the line of source/common/vec/intrinsic_intra-pred_avx2.cc.
Routines: intra_pred_ang_y_25_avx, intra_pred_ang_y_26_avx, intra_pred_ang_y_28_avx, intra_pred_ang_y_30_avx, intra_pred_ang_y_31_avx, intra_pred_ang_y_32_avx.
-/
namespace Davs2.Vp

/-- `intra_pred_ang_y_25_avx`, vec/intrinsic_intra-pred_avx2.cc:3273-3302. -/
def y25A_1 : Stmt :=
  .run [
    .alloc 0 576,  -- 3273
    .I 5 (.add (.v 2) (.shl (.sub (.v 3) (.n 1)) 3)),  -- 3274
    .I 6 (.shl (.v 3) 3),  -- 3275
    .P (.n 2) (.pa 0),  -- 3276
    .V 0 (.setr16 [.n 7, .n 3, .n 5, .n 1, .n 3, .n 1, .n 1, .n 0, .n 7, .n 3, .n 5, .n 1, .n 3, .n 1, .n 1, .n 0]),  -- 3278
    .V 1 (.setr16 [.n 15, .n 7, .n 13, .n 3, .n 11, .n 5, .n 9, .n 1, .n 15, .n 7, .n 13, .n 3, .n 11, .n 5, .n 9, .n 1]),  -- 3279
    .V 2 (.setr16 [.n 9, .n 5, .n 11, .n 3, .n 13, .n 7, .n 15, .n 2, .n 9, .n 5, .n 11, .n 3, .n 13, .n 7, .n 15, .n 2]),  -- 3280
    .V 3 (.setr16 [.n 1, .n 1, .n 3, .n 1, .n 5, .n 3, .n 7, .n 1, .n 1, .n 1, .n 3, .n 1, .n 5, .n 3, .n 7, .n 1]),  -- 3281
    .V 4 (.setr16 [.n 16, .n 8, .n 16, .n 4, .n 16, .n 8, .n 16, .n 2, .n 16, .n 8, .n 16, .n 4, .n 16, .n 8, .n 16, .n 2]),  -- 3282
    .V 5 (.setr16 [.n 1, .n 2, .n 1, .n 4, .n 1, .n 2, .n 1, .n 8, .n 1, .n 2, .n 1, .n 4, .n 1, .n 2, .n 1, .n 8]),  -- 3283
    .V 16 (.setr16 [.ld (.add (.pv (.n 0)) (.n 0)), .ld (.add (.pv (.n 0)) (.n 0)), .ld (.add (.pv (.n 0)) (.n 0)), .ld (.add (.pv (.n 0)) (.n 0)), .ld (.add (.pv (.n 0)) (.n 0)), .ld (.add (.pv (.n 0)) (.n 0)), .ld (.add (.pv (.n 0)) (.n 0)), .ld (.add (.pv (.n 0)) (.n 0)), .ld (.add (.pv (.n 0)) (.n (-4))), .ld (.add (.pv (.n 0)) (.n (-4))), .ld (.add (.pv (.n 0)) (.n (-4))), .ld (.add (.pv (.n 0)) (.n (-4))), .ld (.add (.pv (.n 0)) (.n (-4))), .ld (.add (.pv (.n 0)) (.n (-4))), .ld (.add (.pv (.n 0)) (.n (-4))), .ld (.add (.pv (.n 0)) (.n (-4)))]),  -- 3288
    .V 17 (.setr16 [.ld (.add (.pv (.n 0)) (.n (-1))), .ld (.add (.pv (.n 0)) (.n (-1))), .ld (.add (.pv (.n 0)) (.n (-1))), .ld (.add (.pv (.n 0)) (.n (-1))), .ld (.add (.pv (.n 0)) (.n (-1))), .ld (.add (.pv (.n 0)) (.n (-1))), .ld (.add (.pv (.n 0)) (.n (-1))), .ld (.add (.pv (.n 0)) (.n (-1))), .ld (.add (.pv (.n 0)) (.n (-5))), .ld (.add (.pv (.n 0)) (.n (-5))), .ld (.add (.pv (.n 0)) (.n (-5))), .ld (.add (.pv (.n 0)) (.n (-5))), .ld (.add (.pv (.n 0)) (.n (-5))), .ld (.add (.pv (.n 0)) (.n (-5))), .ld (.add (.pv (.n 0)) (.n (-5))), .ld (.add (.pv (.n 0)) (.n (-5)))]),  -- 3291
    .V 18 (.setr16 [.ld (.add (.pv (.n 0)) (.n (-2))), .ld (.add (.pv (.n 0)) (.n (-2))), .ld (.add (.pv (.n 0)) (.n (-2))), .ld (.add (.pv (.n 0)) (.n (-2))), .ld (.add (.pv (.n 0)) (.n (-2))), .ld (.add (.pv (.n 0)) (.n (-2))), .ld (.add (.pv (.n 0)) (.n (-2))), .ld (.add (.pv (.n 0)) (.n (-2))), .ld (.add (.pv (.n 0)) (.n (-6))), .ld (.add (.pv (.n 0)) (.n (-6))), .ld (.add (.pv (.n 0)) (.n (-6))), .ld (.add (.pv (.n 0)) (.n (-6))), .ld (.add (.pv (.n 0)) (.n (-6))), .ld (.add (.pv (.n 0)) (.n (-6))), .ld (.add (.pv (.n 0)) (.n (-6))), .ld (.add (.pv (.n 0)) (.n (-6)))]),  -- 3294
    .V 19 (.setr16 [.ld (.add (.pv (.n 0)) (.n (-3))), .ld (.add (.pv (.n 0)) (.n (-3))), .ld (.add (.pv (.n 0)) (.n (-3))), .ld (.add (.pv (.n 0)) (.n (-3))), .ld (.add (.pv (.n 0)) (.n (-3))), .ld (.add (.pv (.n 0)) (.n (-3))), .ld (.add (.pv (.n 0)) (.n (-3))), .ld (.add (.pv (.n 0)) (.n (-3))), .ld (.add (.pv (.n 0)) (.n (-7))), .ld (.add (.pv (.n 0)) (.n (-7))), .ld (.add (.pv (.n 0)) (.n (-7))), .ld (.add (.pv (.n 0)) (.n (-7))), .ld (.add (.pv (.n 0)) (.n (-7))), .ld (.add (.pv (.n 0)) (.n (-7))), .ld (.add (.pv (.n 0)) (.n (-7))), .ld (.add (.pv (.n 0)) (.n (-7)))]),  -- 3297
    .P (.n 0) (.sub (.pv (.n 0)) (.n 4)),  -- 3300
    .I 4 (.n 0)  -- 3302
  ]

/-- `intra_pred_ang_y_25_avx`, vec/intrinsic_intra-pred_avx2.cc:3303-3334. -/
def y25A_2 : Stmt :=
  .run [
    .V 6 (.o2 .mullo16 (.v 16) (.v 0)),  -- 3303
    .V 7 (.o2 .mullo16 (.v 17) (.v 1)),  -- 3304
    .V 8 (.o2 .mullo16 (.v 18) (.v 2)),  -- 3305
    .V 9 (.o2 .mullo16 (.v 19) (.v 3)),  -- 3306
    .V 6 (.o2 .add16 (.v 6) (.v 4)),  -- 3307
    .V 6 (.o2 .add16 (.v 6) (.v 7)),  -- 3308
    .V 6 (.o2 .add16 (.v 6) (.v 8)),  -- 3309
    .V 6 (.o2 .add16 (.v 6) (.v 9)),  -- 3310
    .V 6 (.o2 .mullo16 (.v 6) (.v 5)),  -- 3311
    .V 6 (.o1 (.srli16 5) (.v 6)),  -- 3312
    .V 16 (.setr16 [.ld (.add (.pv (.n 0)) (.n 0)), .ld (.add (.pv (.n 0)) (.n 0)), .ld (.add (.pv (.n 0)) (.n 0)), .ld (.add (.pv (.n 0)) (.n 0)), .ld (.add (.pv (.n 0)) (.n 0)), .ld (.add (.pv (.n 0)) (.n 0)), .ld (.add (.pv (.n 0)) (.n 0)), .ld (.add (.pv (.n 0)) (.n 0)), .ld (.add (.pv (.n 0)) (.n (-4))), .ld (.add (.pv (.n 0)) (.n (-4))), .ld (.add (.pv (.n 0)) (.n (-4))), .ld (.add (.pv (.n 0)) (.n (-4))), .ld (.add (.pv (.n 0)) (.n (-4))), .ld (.add (.pv (.n 0)) (.n (-4))), .ld (.add (.pv (.n 0)) (.n (-4))), .ld (.add (.pv (.n 0)) (.n (-4)))]),  -- 3314
    .V 10 (.o2 .mullo16 (.v 17) (.v 0)),  -- 3317
    .V 11 (.o2 .mullo16 (.v 18) (.v 1)),  -- 3318
    .V 12 (.o2 .mullo16 (.v 19) (.v 2)),  -- 3319
    .V 13 (.o2 .mullo16 (.v 16) (.v 3)),  -- 3320
    .V 10 (.o2 .add16 (.v 10) (.v 4)),  -- 3321
    .V 10 (.o2 .add16 (.v 10) (.v 11)),  -- 3322
    .V 10 (.o2 .add16 (.v 10) (.v 12)),  -- 3323
    .V 10 (.o2 .add16 (.v 10) (.v 13)),  -- 3324
    .V 10 (.o2 .mullo16 (.v 10) (.v 5)),  -- 3325
    .V 10 (.o1 (.srli16 5) (.v 10)),  -- 3326
    .V 14 (.o2 .packus16y (.v 6) (.v 10)),  -- 3328
    .V 17 (.setr16 [.ld (.add (.pv (.n 0)) (.n (-1))), .ld (.add (.pv (.n 0)) (.n (-1))), .ld (.add (.pv (.n 0)) (.n (-1))), .ld (.add (.pv (.n 0)) (.n (-1))), .ld (.add (.pv (.n 0)) (.n (-1))), .ld (.add (.pv (.n 0)) (.n (-1))), .ld (.add (.pv (.n 0)) (.n (-1))), .ld (.add (.pv (.n 0)) (.n (-1))), .ld (.add (.pv (.n 0)) (.n (-5))), .ld (.add (.pv (.n 0)) (.n (-5))), .ld (.add (.pv (.n 0)) (.n (-5))), .ld (.add (.pv (.n 0)) (.n (-5))), .ld (.add (.pv (.n 0)) (.n (-5))), .ld (.add (.pv (.n 0)) (.n (-5))), .ld (.add (.pv (.n 0)) (.n (-5))), .ld (.add (.pv (.n 0)) (.n (-5)))]),  -- 3331
    .V 6 (.o2 .mullo16 (.v 18) (.v 0))  -- 3334
  ]

/-- `intra_pred_ang_y_25_avx`, vec/intrinsic_intra-pred_avx2.cc:3335-3362. -/
def y25A_3 : Stmt :=
  .run [
    .V 7 (.o2 .mullo16 (.v 19) (.v 1)),  -- 3335
    .V 8 (.o2 .mullo16 (.v 16) (.v 2)),  -- 3336
    .V 9 (.o2 .mullo16 (.v 17) (.v 3)),  -- 3337
    .V 6 (.o2 .add16 (.v 6) (.v 4)),  -- 3338
    .V 6 (.o2 .add16 (.v 6) (.v 7)),  -- 3339
    .V 6 (.o2 .add16 (.v 6) (.v 8)),  -- 3340
    .V 6 (.o2 .add16 (.v 6) (.v 9)),  -- 3341
    .V 6 (.o2 .mullo16 (.v 6) (.v 5)),  -- 3342
    .V 6 (.o1 (.srli16 5) (.v 6)),  -- 3343
    .V 18 (.setr16 [.ld (.add (.pv (.n 0)) (.n (-2))), .ld (.add (.pv (.n 0)) (.n (-2))), .ld (.add (.pv (.n 0)) (.n (-2))), .ld (.add (.pv (.n 0)) (.n (-2))), .ld (.add (.pv (.n 0)) (.n (-2))), .ld (.add (.pv (.n 0)) (.n (-2))), .ld (.add (.pv (.n 0)) (.n (-2))), .ld (.add (.pv (.n 0)) (.n (-2))), .ld (.add (.pv (.n 0)) (.n (-6))), .ld (.add (.pv (.n 0)) (.n (-6))), .ld (.add (.pv (.n 0)) (.n (-6))), .ld (.add (.pv (.n 0)) (.n (-6))), .ld (.add (.pv (.n 0)) (.n (-6))), .ld (.add (.pv (.n 0)) (.n (-6))), .ld (.add (.pv (.n 0)) (.n (-6))), .ld (.add (.pv (.n 0)) (.n (-6)))]),  -- 3345
    .V 10 (.o2 .mullo16 (.v 19) (.v 0)),  -- 3348
    .V 11 (.o2 .mullo16 (.v 16) (.v 1)),  -- 3349
    .V 12 (.o2 .mullo16 (.v 17) (.v 2)),  -- 3350
    .V 13 (.o2 .mullo16 (.v 18) (.v 3)),  -- 3351
    .V 10 (.o2 .add16 (.v 10) (.v 4)),  -- 3352
    .V 10 (.o2 .add16 (.v 10) (.v 11)),  -- 3353
    .V 10 (.o2 .add16 (.v 10) (.v 12)),  -- 3354
    .V 10 (.o2 .add16 (.v 10) (.v 13)),  -- 3355
    .V 10 (.o2 .mullo16 (.v 10) (.v 5)),  -- 3356
    .V 10 (.o1 (.srli16 5) (.v 10)),  -- 3357
    .V 15 (.o2 .packus16y (.v 6) (.v 10)),  -- 3359
    .V 6 (.o2 (.perm2 32) (.v 14) (.v 15)),  -- 3360
    .st 32 (.pv (.n 2)) (.v 6),  -- 3361
    .P (.n 2) (.add (.pv (.n 2)) (.n 32))  -- 3362
  ]

/-- `intra_pred_ang_y_25_avx`, vec/intrinsic_intra-pred_avx2.cc:3302-3379. -/
def y25A_4 : Stmt :=
  .run [
    .V 6 (.o2 (.perm2 49) (.v 14) (.v 15)),  -- 3364
    .st 32 (.pv (.n 2)) (.v 6),  -- 3365
    .P (.n 2) (.add (.pv (.n 2)) (.n 32)),  -- 3367
    .P (.n 0) (.sub (.pv (.n 0)) (.n 4)),  -- 3369
    .V 16 (.setr16 [.ld (.add (.pv (.n 0)) (.n 0)), .ld (.add (.pv (.n 0)) (.n 0)), .ld (.add (.pv (.n 0)) (.n 0)), .ld (.add (.pv (.n 0)) (.n 0)), .ld (.add (.pv (.n 0)) (.n 0)), .ld (.add (.pv (.n 0)) (.n 0)), .ld (.add (.pv (.n 0)) (.n 0)), .ld (.add (.pv (.n 0)) (.n 0)), .ld (.add (.pv (.n 0)) (.n (-4))), .ld (.add (.pv (.n 0)) (.n (-4))), .ld (.add (.pv (.n 0)) (.n (-4))), .ld (.add (.pv (.n 0)) (.n (-4))), .ld (.add (.pv (.n 0)) (.n (-4))), .ld (.add (.pv (.n 0)) (.n (-4))), .ld (.add (.pv (.n 0)) (.n (-4))), .ld (.add (.pv (.n 0)) (.n (-4)))]),  -- 3370
    .V 17 (.setr16 [.ld (.add (.pv (.n 0)) (.n (-1))), .ld (.add (.pv (.n 0)) (.n (-1))), .ld (.add (.pv (.n 0)) (.n (-1))), .ld (.add (.pv (.n 0)) (.n (-1))), .ld (.add (.pv (.n 0)) (.n (-1))), .ld (.add (.pv (.n 0)) (.n (-1))), .ld (.add (.pv (.n 0)) (.n (-1))), .ld (.add (.pv (.n 0)) (.n (-1))), .ld (.add (.pv (.n 0)) (.n (-5))), .ld (.add (.pv (.n 0)) (.n (-5))), .ld (.add (.pv (.n 0)) (.n (-5))), .ld (.add (.pv (.n 0)) (.n (-5))), .ld (.add (.pv (.n 0)) (.n (-5))), .ld (.add (.pv (.n 0)) (.n (-5))), .ld (.add (.pv (.n 0)) (.n (-5))), .ld (.add (.pv (.n 0)) (.n (-5)))]),  -- 3373
    .V 18 (.setr16 [.ld (.add (.pv (.n 0)) (.n (-2))), .ld (.add (.pv (.n 0)) (.n (-2))), .ld (.add (.pv (.n 0)) (.n (-2))), .ld (.add (.pv (.n 0)) (.n (-2))), .ld (.add (.pv (.n 0)) (.n (-2))), .ld (.add (.pv (.n 0)) (.n (-2))), .ld (.add (.pv (.n 0)) (.n (-2))), .ld (.add (.pv (.n 0)) (.n (-2))), .ld (.add (.pv (.n 0)) (.n (-6))), .ld (.add (.pv (.n 0)) (.n (-6))), .ld (.add (.pv (.n 0)) (.n (-6))), .ld (.add (.pv (.n 0)) (.n (-6))), .ld (.add (.pv (.n 0)) (.n (-6))), .ld (.add (.pv (.n 0)) (.n (-6))), .ld (.add (.pv (.n 0)) (.n (-6))), .ld (.add (.pv (.n 0)) (.n (-6)))]),  -- 3376
    .V 19 (.setr16 [.ld (.add (.pv (.n 0)) (.n (-3))), .ld (.add (.pv (.n 0)) (.n (-3))), .ld (.add (.pv (.n 0)) (.n (-3))), .ld (.add (.pv (.n 0)) (.n (-3))), .ld (.add (.pv (.n 0)) (.n (-3))), .ld (.add (.pv (.n 0)) (.n (-3))), .ld (.add (.pv (.n 0)) (.n (-3))), .ld (.add (.pv (.n 0)) (.n (-3))), .ld (.add (.pv (.n 0)) (.n (-7))), .ld (.add (.pv (.n 0)) (.n (-7))), .ld (.add (.pv (.n 0)) (.n (-7))), .ld (.add (.pv (.n 0)) (.n (-7))), .ld (.add (.pv (.n 0)) (.n (-7))), .ld (.add (.pv (.n 0)) (.n (-7))), .ld (.add (.pv (.n 0)) (.n (-7))), .ld (.add (.pv (.n 0)) (.n (-7)))]),  -- 3379
    .I 4 (.add (.v 4) (.n 64)),  -- 3302
    .P (.n 0) (.sub (.pv (.n 0)) (.n 4))
  ]

/-- `intra_pred_ang_y_25_avx`, vec/intrinsic_intra-pred_avx2.cc:3302. -/
def y25A_5 : Stmt :=
  .loop (.lt (.v 4) (.v 5)) (.seq y25A_2 (.seq y25A_3 y25A_4))

/-- `intra_pred_ang_y_25_avx`, vec/intrinsic_intra-pred_avx2.cc:3487. -/
def y25A_6 : Stmt :=
  .run [
    .I 4 (.n 0)  -- 3487
  ]

/-- `intra_pred_ang_y_25_avx`, vec/intrinsic_intra-pred_avx2.cc:3487-3510. -/
def y25A_7 : Stmt :=
  .run [
    .V 20 (.ld 32 (.add (.pa 0) (.v 4))),  -- 3488
    .st 32 (.pv (.n 1)) (.v 20),  -- 3489
    .V 20 (.ld 32 (.add (.add (.pa 0) (.v 4)) (.n 32))),  -- 3490
    .st 32 (.add (.pv (.n 1)) (.n 32)) (.v 20),  -- 3491
    .P (.n 1) (.add (.pv (.n 1)) (.v 0)),  -- 3492
    .V 20 (.ld 32 (.add (.add (.pa 0) (.v 4)) (.n 8))),  -- 3494
    .st 32 (.pv (.n 1)) (.v 20),  -- 3495
    .V 20 (.ld 32 (.add (.add (.add (.pa 0) (.v 4)) (.n 8)) (.n 32))),  -- 3496
    .st 32 (.add (.pv (.n 1)) (.n 32)) (.v 20),  -- 3497
    .P (.n 1) (.add (.pv (.n 1)) (.v 0)),  -- 3498
    .V 20 (.ld 32 (.add (.add (.pa 0) (.v 4)) (.n 16))),  -- 3500
    .st 32 (.pv (.n 1)) (.v 20),  -- 3501
    .V 20 (.ld 32 (.add (.add (.add (.pa 0) (.v 4)) (.n 16)) (.n 32))),  -- 3502
    .st 32 (.add (.pv (.n 1)) (.n 32)) (.v 20),  -- 3503
    .P (.n 1) (.add (.pv (.n 1)) (.v 0)),  -- 3504
    .V 20 (.ld 32 (.add (.add (.pa 0) (.v 4)) (.n 24))),  -- 3506
    .st 32 (.pv (.n 1)) (.v 20),  -- 3507
    .V 20 (.ld 32 (.add (.add (.add (.pa 0) (.v 4)) (.n 24)) (.n 32))),  -- 3508
    .st 32 (.add (.pv (.n 1)) (.n 32)) (.v 20),  -- 3509
    .P (.n 1) (.add (.pv (.n 1)) (.v 0)),  -- 3510
    .I 4 (.add (.v 4) (.n 32))  -- 3487
  ]

/-- `intra_pred_ang_y_25_avx`, vec/intrinsic_intra-pred_avx2.cc:3487. -/
def y25A_8 : Stmt :=
  .loop (.lt (.v 4) (.v 6)) y25A_7

/-- `intra_pred_ang_y_25_avx`, vec/intrinsic_intra-pred_avx2.cc:3513. -/
def y25A_9 : Stmt :=
  .run [
    .I 4 (.n 0)  -- 3513
  ]

/-- `intra_pred_ang_y_25_avx`, vec/intrinsic_intra-pred_avx2.cc:3513-3528. -/
def y25A_10 : Stmt :=
  .run [
    .V 20 (.ld 32 (.add (.pa 0) (.v 4))),  -- 3514
    .st 32 (.pv (.n 1)) (.v 20),  -- 3515
    .P (.n 1) (.add (.pv (.n 1)) (.v 0)),  -- 3516
    .V 20 (.ld 32 (.add (.add (.pa 0) (.v 4)) (.n 8))),  -- 3518
    .st 32 (.pv (.n 1)) (.v 20),  -- 3519
    .P (.n 1) (.add (.pv (.n 1)) (.v 0)),  -- 3520
    .V 20 (.ld 32 (.add (.add (.pa 0) (.v 4)) (.n 16))),  -- 3522
    .st 32 (.pv (.n 1)) (.v 20),  -- 3523
    .P (.n 1) (.add (.pv (.n 1)) (.v 0)),  -- 3524
    .V 20 (.ld 32 (.add (.add (.pa 0) (.v 4)) (.n 24))),  -- 3526
    .st 32 (.pv (.n 1)) (.v 20),  -- 3527
    .P (.n 1) (.add (.pv (.n 1)) (.v 0)),  -- 3528
    .I 4 (.add (.v 4) (.n 32))  -- 3513
  ]

/-- `intra_pred_ang_y_25_avx`, vec/intrinsic_intra-pred_avx2.cc:3513. -/
def y25A_11 : Stmt :=
  .loop (.lt (.v 4) (.v 6)) y25A_10

/-- `intra_pred_ang_y_25_avx`, vec/intrinsic_intra-pred_avx2.cc:3531-3532. -/
def y25A_12 : Stmt :=
  .run [
    .V 21 (.mask 16 (.n 15)),  -- 3531
    .I 4 (.n 0)  -- 3532
  ]

/-- `intra_pred_ang_y_25_avx`, vec/intrinsic_intra-pred_avx2.cc:3532-3547. -/
def y25A_13 : Stmt :=
  .run [
    .V 20 (.ld 32 (.add (.pa 0) (.v 4))),  -- 3533
    .mst 8 32 (.pv (.n 1)) (.v 21) (.v 20),  -- 3534
    .P (.n 1) (.add (.pv (.n 1)) (.v 0)),  -- 3535
    .V 20 (.ld 32 (.add (.add (.pa 0) (.v 4)) (.n 8))),  -- 3537
    .mst 8 32 (.pv (.n 1)) (.v 21) (.v 20),  -- 3538
    .P (.n 1) (.add (.pv (.n 1)) (.v 0)),  -- 3539
    .V 20 (.ld 32 (.add (.add (.pa 0) (.v 4)) (.n 16))),  -- 3541
    .mst 8 32 (.pv (.n 1)) (.v 21) (.v 20),  -- 3542
    .P (.n 1) (.add (.pv (.n 1)) (.v 0)),  -- 3543
    .V 20 (.ld 32 (.add (.add (.pa 0) (.v 4)) (.n 24))),  -- 3545
    .mst 8 32 (.pv (.n 1)) (.v 21) (.v 20),  -- 3546
    .P (.n 1) (.add (.pv (.n 1)) (.v 0)),  -- 3547
    .I 4 (.add (.v 4) (.n 32))  -- 3532
  ]

/-- `intra_pred_ang_y_25_avx`, vec/intrinsic_intra-pred_avx2.cc:3532. -/
def y25A_14 : Stmt :=
  .loop (.lt (.v 4) (.v 6)) y25A_13

/-- `intra_pred_ang_y_25_avx`, vec/intrinsic_intra-pred_avx2.cc:3530. -/
def y25A_15 : Stmt :=
  .ite (.eq (.v 2) (.n 16)) (.seq y25A_12 y25A_14) (.run [])

/-- `intra_pred_ang_y_25_avx`, vec/intrinsic_intra-pred_avx2.cc:3512. -/
def y25A_16 : Stmt :=
  .ite (.eq (.v 2) (.n 32)) (.seq y25A_9 y25A_11) y25A_15

/-- `intra_pred_ang_y_25_avx`, vec/intrinsic_intra-pred_avx2.cc:3486. -/
def y25A_17 : Stmt :=
  .ite (.eq (.v 2) (.n 64)) (.seq y25A_6 y25A_8) y25A_16

/-- `intra_pred_ang_y_25_avx`, vec/intrinsic_intra-pred_avx2.cc:3556. -/
def y25A_18 : Stmt :=
  .call y25S (.pv (.n 0)) (.pv (.n 1)) (.v 0) (.v 1) (.v 2) (.v 3)

/-- `intra_pred_ang_y_25_avx`, vec/intrinsic_intra-pred_avx2.cc:3271. -/
def y25A_19 : Stmt :=
  .ite (.lt (.n 8) (.v 2)) (.seq y25A_1 (.seq y25A_5 y25A_17)) y25A_18

/-- `intra_pred_ang_y_25_avx`, source/common/vec/intrinsic_intra-pred_avx2.cc:3266-3560.  Variables:
I: 0 i_dst, 1 dir_mode, 2 bsx, 3 bsy, 4 i, 5 line_size, 6 iHeight8;
P: 0 src, 1 dst, 2 pfirst;
V: 0 coeff0, 1 coeff1, 2 coeff2, 3 coeff3, 4 coeff4, 5 coeff5, 6 p00, 7 p10, 8 p20, 9 p30, 10 p01, 11 p11, 12 p21, 13 p31, 14 res1, 15 res2, 16 L0, 17 L1, 18 L2, 19 L3, 20 M, 21 mask. -/
def y25A : Stmt :=
  y25A_19

/-- `intra_pred_ang_y_26_avx`, vec/intrinsic_intra-pred_avx2.cc:3569-3591. -/
def y26A_1 : Stmt :=
  .run [
    .V 0 (.set1_16 (.n 2)),  -- 3569
    .V 1 (.set1_16 (.n 3)),  -- 3570
    .V 2 (.set1_16 (.n 4)),  -- 3571
    .V 3 (.set1_16 (.n 5)),  -- 3572
    .V 4 (.set1_16 (.n 7)),  -- 3573
    .V 5 (.set1_16 (.n 8)),  -- 3574
    .V 6 (.setr8 [7, 15, 6, 14, 5, 13, 4, 12, 3, 11, 2, 10, 1, 9, 0, 8, 7, 15, 6, 14, 5, 13, 4, 12, 3, 11, 2, 10, 1, 9, 0, 8]),  -- 3575
    .alloc 0 320,  -- 3578
    .I 5 (.add (.v 2) (.mul (.sub (.v 3) (.n 1)) (.n 4))),  -- 3579
    .I 6 (.shl (.v 3) 2),  -- 3580
    .P (.n 0) (.sub (.pv (.n 0)) (.n 31)),  -- 3582
    .I 4 (.n 0)  -- 3591
  ]

/-- `intra_pred_ang_y_26_avx`, vec/intrinsic_intra-pred_avx2.cc:3593-3620. -/
def y26A_2 : Stmt :=
  .run [
    .V 23 (.ld 32 (.pv (.n 0))),  -- 3593
    .V 24 (.ld 32 (.sub (.pv (.n 0)) (.n 1))),  -- 3594
    .V 25 (.ld 32 (.sub (.pv (.n 0)) (.n 2))),  -- 3595
    .V 26 (.ld 32 (.sub (.pv (.n 0)) (.n 3))),  -- 3596
    .V 27 (.o1 .cvtu8 (.o1 (.half 0) (.v 23))),  -- 3598
    .V 28 (.o1 .cvtu8 (.o1 (.half 0) (.v 24))),  -- 3599
    .V 29 (.o1 .cvtu8 (.o1 (.half 0) (.v 25))),  -- 3600
    .V 30 (.o1 .cvtu8 (.o1 (.half 0) (.v 26))),  -- 3601
    .V 31 (.o1 .cvtu8 (.o1 (.half 1) (.v 23))),  -- 3603
    .V 32 (.o1 .cvtu8 (.o1 (.half 1) (.v 24))),  -- 3604
    .V 33 (.o1 .cvtu8 (.o1 (.half 1) (.v 25))),  -- 3605
    .V 34 (.o1 .cvtu8 (.o1 (.half 1) (.v 26))),  -- 3606
    .V 7 (.o2 .mullo16 (.v 27) (.v 1)),  -- 3608
    .V 8 (.o2 .mullo16 (.v 28) (.v 4)),  -- 3609
    .V 9 (.o2 .mullo16 (.v 29) (.v 3)),  -- 3610
    .V 10 (.o2 .add16 (.v 30) (.v 5)),  -- 3611
    .V 7 (.o2 .add16 (.v 7) (.v 10)),  -- 3612
    .V 7 (.o2 .add16 (.v 7) (.v 8)),  -- 3613
    .V 7 (.o2 .add16 (.v 7) (.v 9)),  -- 3614
    .V 15 (.o1 (.srli16 4) (.v 7)),  -- 3615
    .V 11 (.o2 .mullo16 (.v 31) (.v 1)),  -- 3617
    .V 12 (.o2 .mullo16 (.v 32) (.v 4)),  -- 3618
    .V 13 (.o2 .mullo16 (.v 33) (.v 3)),  -- 3619
    .V 14 (.o2 .add16 (.v 34) (.v 5))  -- 3620
  ]

/-- `intra_pred_ang_y_26_avx`, vec/intrinsic_intra-pred_avx2.cc:3621-3647. -/
def y26A_3 : Stmt :=
  .run [
    .V 11 (.o2 .add16 (.v 11) (.v 14)),  -- 3621
    .V 11 (.o2 .add16 (.v 11) (.v 12)),  -- 3622
    .V 11 (.o2 .add16 (.v 11) (.v 13)),  -- 3623
    .V 16 (.o1 (.srli16 4) (.v 11)),  -- 3624
    .V 7 (.o2 .add16 (.v 28) (.v 29)),  -- 3626
    .V 7 (.o2 .mullo16 (.v 7) (.v 1)),  -- 3627
    .V 8 (.o2 .add16 (.v 27) (.v 30)),  -- 3628
    .V 8 (.o2 .add16 (.v 8) (.v 2)),  -- 3629
    .V 7 (.o2 .add16 (.v 8) (.v 7)),  -- 3630
    .V 17 (.o1 (.srli16 3) (.v 7)),  -- 3631
    .V 11 (.o2 .add16 (.v 32) (.v 33)),  -- 3633
    .V 11 (.o2 .mullo16 (.v 11) (.v 1)),  -- 3634
    .V 12 (.o2 .add16 (.v 31) (.v 34)),  -- 3635
    .V 12 (.o2 .add16 (.v 12) (.v 2)),  -- 3636
    .V 11 (.o2 .add16 (.v 12) (.v 11)),  -- 3637
    .V 18 (.o1 (.srli16 3) (.v 11)),  -- 3638
    .V 8 (.o2 .mullo16 (.v 28) (.v 3)),  -- 3640
    .V 9 (.o2 .mullo16 (.v 29) (.v 4)),  -- 3641
    .V 10 (.o2 .mullo16 (.v 30) (.v 1)),  -- 3642
    .V 7 (.o2 .add16 (.v 27) (.v 5)),  -- 3643
    .V 7 (.o2 .add16 (.v 7) (.v 8)),  -- 3644
    .V 7 (.o2 .add16 (.v 7) (.v 9)),  -- 3645
    .V 7 (.o2 .add16 (.v 7) (.v 10)),  -- 3646
    .V 19 (.o1 (.srli16 4) (.v 7))  -- 3647
  ]

/-- `intra_pred_ang_y_26_avx`, vec/intrinsic_intra-pred_avx2.cc:3649-3676. -/
def y26A_4 : Stmt :=
  .run [
    .V 12 (.o2 .mullo16 (.v 32) (.v 3)),  -- 3649
    .V 13 (.o2 .mullo16 (.v 33) (.v 4)),  -- 3650
    .V 14 (.o2 .mullo16 (.v 34) (.v 1)),  -- 3651
    .V 11 (.o2 .add16 (.v 31) (.v 5)),  -- 3652
    .V 11 (.o2 .add16 (.v 11) (.v 12)),  -- 3653
    .V 11 (.o2 .add16 (.v 11) (.v 13)),  -- 3654
    .V 11 (.o2 .add16 (.v 11) (.v 14)),  -- 3655
    .V 20 (.o1 (.srli16 4) (.v 11)),  -- 3656
    .V 7 (.o2 .add16 (.v 28) (.v 29)),  -- 3658
    .V 8 (.o2 .add16 (.v 29) (.v 30)),  -- 3659
    .V 7 (.o2 .add16 (.v 7) (.v 8)),  -- 3660
    .V 7 (.o2 .add16 (.v 7) (.v 0)),  -- 3661
    .V 21 (.o1 (.srli16 2) (.v 7)),  -- 3662
    .V 11 (.o2 .add16 (.v 32) (.v 33)),  -- 3664
    .V 12 (.o2 .add16 (.v 33) (.v 34)),  -- 3665
    .V 11 (.o2 .add16 (.v 11) (.v 12)),  -- 3666
    .V 11 (.o2 .add16 (.v 11) (.v 0)),  -- 3667
    .V 22 (.o1 (.srli16 2) (.v 11)),  -- 3668
    .V 15 (.o2 .packus16y (.v 15) (.v 17)),  -- 3670
    .V 19 (.o2 .packus16y (.v 19) (.v 21)),  -- 3671
    .V 15 (.o2 .shuffle8y (.v 15) (.v 6)),  -- 3672
    .V 19 (.o2 .shuffle8y (.v 19) (.v 6)),  -- 3673
    .V 16 (.o2 .packus16y (.v 16) (.v 18)),  -- 3675
    .V 20 (.o2 .packus16y (.v 20) (.v 22))  -- 3676
  ]

/-- `intra_pred_ang_y_26_avx`, vec/intrinsic_intra-pred_avx2.cc:3591-3698. -/
def y26A_5 : Stmt :=
  .run [
    .V 16 (.o2 .shuffle8y (.v 16) (.v 6)),  -- 3677
    .V 20 (.o2 .shuffle8y (.v 20) (.v 6)),  -- 3678
    .V 15 (.o1 (.perm4 114) (.v 15)),  -- 3685
    .V 19 (.o1 (.perm4 114) (.v 19)),  -- 3686
    .V 16 (.o1 (.perm4 114) (.v 16)),  -- 3687
    .V 20 (.o1 (.perm4 114) (.v 20)),  -- 3688
    .V 17 (.o2 .unpacklo16y (.v 15) (.v 19)),  -- 3690
    .V 21 (.o2 .unpackhi16y (.v 15) (.v 19)),  -- 3691
    .V 18 (.o2 .unpacklo16y (.v 16) (.v 20)),  -- 3692
    .V 22 (.o2 .unpackhi16y (.v 16) (.v 20)),  -- 3693
    .st 32 (.add (.pa 0) (.v 4)) (.v 18),  -- 3695
    .st 32 (.add (.pa 0) (.add (.n 32) (.v 4))) (.v 22),  -- 3696
    .st 32 (.add (.pa 0) (.add (.n 64) (.v 4))) (.v 17),  -- 3697
    .st 32 (.add (.pa 0) (.add (.n 96) (.v 4))) (.v 21),  -- 3698
    .I 4 (.add (.v 4) (.n 128)),  -- 3591
    .P (.n 0) (.sub (.pv (.n 0)) (.n 32))
  ]

/-- `intra_pred_ang_y_26_avx`, vec/intrinsic_intra-pred_avx2.cc:3591. -/
def y26A_6 : Stmt :=
  .loop (.lt (.v 4) (.sub (.v 5) (.n 64))) (.seq y26A_2 (.seq y26A_3 (.seq y26A_4 y26A_5)))

/-- `intra_pred_ang_y_26_avx`, vec/intrinsic_intra-pred_avx2.cc:3702-3729. -/
def y26A_7 : Stmt :=
  .run [
    .V 23 (.ld 32 (.pv (.n 0))),  -- 3702
    .V 24 (.ld 32 (.sub (.pv (.n 0)) (.n 1))),  -- 3703
    .V 25 (.ld 32 (.sub (.pv (.n 0)) (.n 2))),  -- 3704
    .V 26 (.ld 32 (.sub (.pv (.n 0)) (.n 3))),  -- 3705
    .V 31 (.o1 .cvtu8 (.o1 (.half 1) (.v 23))),  -- 3707
    .V 32 (.o1 .cvtu8 (.o1 (.half 1) (.v 24))),  -- 3708
    .V 33 (.o1 .cvtu8 (.o1 (.half 1) (.v 25))),  -- 3709
    .V 34 (.o1 .cvtu8 (.o1 (.half 1) (.v 26))),  -- 3710
    .V 11 (.o2 .mullo16 (.v 31) (.v 1)),  -- 3712
    .V 12 (.o2 .mullo16 (.v 32) (.v 4)),  -- 3713
    .V 13 (.o2 .mullo16 (.v 33) (.v 3)),  -- 3714
    .V 14 (.o2 .add16 (.v 34) (.v 5)),  -- 3715
    .V 11 (.o2 .add16 (.v 11) (.v 14)),  -- 3716
    .V 11 (.o2 .add16 (.v 11) (.v 12)),  -- 3717
    .V 11 (.o2 .add16 (.v 11) (.v 13)),  -- 3718
    .V 16 (.o1 (.srli16 4) (.v 11)),  -- 3719
    .V 11 (.o2 .add16 (.v 32) (.v 33)),  -- 3721
    .V 11 (.o2 .mullo16 (.v 11) (.v 1)),  -- 3722
    .V 12 (.o2 .add16 (.v 31) (.v 34)),  -- 3723
    .V 12 (.o2 .add16 (.v 12) (.v 2)),  -- 3724
    .V 11 (.o2 .add16 (.v 12) (.v 11)),  -- 3725
    .V 18 (.o1 (.srli16 3) (.v 11)),  -- 3726
    .V 12 (.o2 .mullo16 (.v 32) (.v 3)),  -- 3728
    .V 13 (.o2 .mullo16 (.v 33) (.v 4))  -- 3729
  ]

/-- `intra_pred_ang_y_26_avx`, vec/intrinsic_intra-pred_avx2.cc:3730-3758. -/
def y26A_8 : Stmt :=
  .run [
    .V 14 (.o2 .mullo16 (.v 34) (.v 1)),  -- 3730
    .V 11 (.o2 .add16 (.v 31) (.v 5)),  -- 3731
    .V 11 (.o2 .add16 (.v 11) (.v 12)),  -- 3732
    .V 11 (.o2 .add16 (.v 11) (.v 13)),  -- 3733
    .V 11 (.o2 .add16 (.v 11) (.v 14)),  -- 3734
    .V 20 (.o1 (.srli16 4) (.v 11)),  -- 3735
    .V 11 (.o2 .add16 (.v 32) (.v 33)),  -- 3737
    .V 12 (.o2 .add16 (.v 33) (.v 34)),  -- 3738
    .V 11 (.o2 .add16 (.v 11) (.v 12)),  -- 3739
    .V 11 (.o2 .add16 (.v 11) (.v 0)),  -- 3740
    .V 22 (.o1 (.srli16 2) (.v 11)),  -- 3741
    .V 16 (.o2 .packus16y (.v 16) (.v 18)),  -- 3743
    .V 20 (.o2 .packus16y (.v 20) (.v 22)),  -- 3744
    .V 16 (.o2 .shuffle8y (.v 16) (.v 6)),  -- 3745
    .V 20 (.o2 .shuffle8y (.v 20) (.v 6)),  -- 3746
    .V 16 (.o1 (.perm4 114) (.v 16)),  -- 3751
    .V 20 (.o1 (.perm4 114) (.v 20)),  -- 3752
    .V 18 (.o2 .unpacklo16y (.v 16) (.v 20)),  -- 3754
    .V 22 (.o2 .unpackhi16y (.v 16) (.v 20)),  -- 3755
    .st 32 (.add (.pa 0) (.v 4)) (.v 18),  -- 3757
    .st 32 (.add (.pa 0) (.add (.n 32) (.v 4))) (.v 22)  -- 3758
  ]

/-- `intra_pred_ang_y_26_avx`, vec/intrinsic_intra-pred_avx2.cc:3701. -/
def y26A_9 : Stmt :=
  .ite (.lt (.v 4) (.v 5)) (.seq y26A_7 y26A_8) (.run [])

/-- `intra_pred_ang_y_26_avx`, vec/intrinsic_intra-pred_avx2.cc:3763. -/
def y26A_10 : Stmt :=
  .run [
    .I 4 (.n 0)  -- 3763
  ]

/-- `intra_pred_ang_y_26_avx`, vec/intrinsic_intra-pred_avx2.cc:3763-3786. -/
def y26A_11 : Stmt :=
  .run [
    .V 35 (.ld 32 (.add (.pa 0) (.v 4))),  -- 3764
    .st 32 (.pv (.n 1)) (.v 35),  -- 3765
    .V 35 (.ld 32 (.add (.add (.pa 0) (.v 4)) (.n 32))),  -- 3766
    .st 32 (.add (.pv (.n 1)) (.n 32)) (.v 35),  -- 3767
    .P (.n 1) (.add (.pv (.n 1)) (.v 0)),  -- 3768
    .V 35 (.ld 32 (.add (.add (.pa 0) (.v 4)) (.n 4))),  -- 3770
    .st 32 (.pv (.n 1)) (.v 35),  -- 3771
    .V 35 (.ld 32 (.add (.add (.add (.pa 0) (.v 4)) (.n 32)) (.n 4))),  -- 3772
    .st 32 (.add (.pv (.n 1)) (.n 32)) (.v 35),  -- 3773
    .P (.n 1) (.add (.pv (.n 1)) (.v 0)),  -- 3774
    .V 35 (.ld 32 (.add (.add (.pa 0) (.v 4)) (.n 8))),  -- 3776
    .st 32 (.pv (.n 1)) (.v 35),  -- 3777
    .V 35 (.ld 32 (.add (.add (.add (.pa 0) (.v 4)) (.n 32)) (.n 8))),  -- 3778
    .st 32 (.add (.pv (.n 1)) (.n 32)) (.v 35),  -- 3779
    .P (.n 1) (.add (.pv (.n 1)) (.v 0)),  -- 3780
    .V 35 (.ld 32 (.add (.add (.pa 0) (.v 4)) (.n 12))),  -- 3782
    .st 32 (.pv (.n 1)) (.v 35),  -- 3783
    .V 35 (.ld 32 (.add (.add (.add (.pa 0) (.v 4)) (.n 32)) (.n 12))),  -- 3784
    .st 32 (.add (.pv (.n 1)) (.n 32)) (.v 35),  -- 3785
    .P (.n 1) (.add (.pv (.n 1)) (.v 0)),  -- 3786
    .I 4 (.add (.v 4) (.n 16))  -- 3763
  ]

/-- `intra_pred_ang_y_26_avx`, vec/intrinsic_intra-pred_avx2.cc:3763. -/
def y26A_12 : Stmt :=
  .loop (.lt (.v 4) (.v 6)) y26A_11

/-- `intra_pred_ang_y_26_avx`, vec/intrinsic_intra-pred_avx2.cc:3789. -/
def y26A_13 : Stmt :=
  .run [
    .I 4 (.n 0)  -- 3789
  ]

/-- `intra_pred_ang_y_26_avx`, vec/intrinsic_intra-pred_avx2.cc:3789-3804. -/
def y26A_14 : Stmt :=
  .run [
    .V 35 (.ld 32 (.add (.pa 0) (.v 4))),  -- 3790
    .st 32 (.pv (.n 1)) (.v 35),  -- 3791
    .P (.n 1) (.add (.pv (.n 1)) (.v 0)),  -- 3792
    .V 35 (.ld 32 (.add (.add (.pa 0) (.v 4)) (.n 4))),  -- 3794
    .st 32 (.pv (.n 1)) (.v 35),  -- 3795
    .P (.n 1) (.add (.pv (.n 1)) (.v 0)),  -- 3796
    .V 35 (.ld 32 (.add (.add (.pa 0) (.v 4)) (.n 8))),  -- 3798
    .st 32 (.pv (.n 1)) (.v 35),  -- 3799
    .P (.n 1) (.add (.pv (.n 1)) (.v 0)),  -- 3800
    .V 35 (.ld 32 (.add (.add (.pa 0) (.v 4)) (.n 12))),  -- 3802
    .st 32 (.pv (.n 1)) (.v 35),  -- 3803
    .P (.n 1) (.add (.pv (.n 1)) (.v 0)),  -- 3804
    .I 4 (.add (.v 4) (.n 16))  -- 3789
  ]

/-- `intra_pred_ang_y_26_avx`, vec/intrinsic_intra-pred_avx2.cc:3789. -/
def y26A_15 : Stmt :=
  .loop (.lt (.v 4) (.v 6)) y26A_14

/-- `intra_pred_ang_y_26_avx`, vec/intrinsic_intra-pred_avx2.cc:3807-3808. -/
def y26A_16 : Stmt :=
  .run [
    .V 36 (.mask 16 (.n 15)),  -- 3807
    .I 4 (.n 0)  -- 3808
  ]

/-- `intra_pred_ang_y_26_avx`, vec/intrinsic_intra-pred_avx2.cc:3808-3824. -/
def y26A_17 : Stmt :=
  .run [
    .V 35 (.ld 32 (.add (.pa 0) (.v 4))),  -- 3810
    .mst 8 32 (.pv (.n 1)) (.v 36) (.v 35),  -- 3811
    .P (.n 1) (.add (.pv (.n 1)) (.v 0)),  -- 3812
    .V 35 (.ld 32 (.add (.add (.pa 0) (.v 4)) (.n 4))),  -- 3814
    .mst 8 32 (.pv (.n 1)) (.v 36) (.v 35),  -- 3815
    .P (.n 1) (.add (.pv (.n 1)) (.v 0)),  -- 3816
    .V 35 (.ld 32 (.add (.add (.pa 0) (.v 4)) (.n 8))),  -- 3818
    .mst 8 32 (.pv (.n 1)) (.v 36) (.v 35),  -- 3819
    .P (.n 1) (.add (.pv (.n 1)) (.v 0)),  -- 3820
    .V 35 (.ld 32 (.add (.add (.pa 0) (.v 4)) (.n 12))),  -- 3822
    .mst 8 32 (.pv (.n 1)) (.v 36) (.v 35),  -- 3823
    .P (.n 1) (.add (.pv (.n 1)) (.v 0)),  -- 3824
    .I 4 (.add (.v 4) (.n 16))  -- 3808
  ]

/-- `intra_pred_ang_y_26_avx`, vec/intrinsic_intra-pred_avx2.cc:3808. -/
def y26A_18 : Stmt :=
  .loop (.lt (.v 4) (.v 6)) y26A_17

/-- `intra_pred_ang_y_26_avx`, vec/intrinsic_intra-pred_avx2.cc:3828-3829. -/
def y26A_19 : Stmt :=
  .run [
    .V 36 (.mask 16 (.n 7)),  -- 3828
    .I 4 (.n 0)  -- 3829
  ]

/-- `intra_pred_ang_y_26_avx`, vec/intrinsic_intra-pred_avx2.cc:3829-3844. -/
def y26A_20 : Stmt :=
  .run [
    .V 35 (.ld 32 (.add (.pa 0) (.v 4))),  -- 3830
    .mst 8 32 (.pv (.n 1)) (.v 36) (.v 35),  -- 3831
    .P (.n 1) (.add (.pv (.n 1)) (.v 0)),  -- 3832
    .V 35 (.ld 32 (.add (.add (.pa 0) (.v 4)) (.n 4))),  -- 3834
    .mst 8 32 (.pv (.n 1)) (.v 36) (.v 35),  -- 3835
    .P (.n 1) (.add (.pv (.n 1)) (.v 0)),  -- 3836
    .V 35 (.ld 32 (.add (.add (.pa 0) (.v 4)) (.n 8))),  -- 3838
    .mst 8 32 (.pv (.n 1)) (.v 36) (.v 35),  -- 3839
    .P (.n 1) (.add (.pv (.n 1)) (.v 0)),  -- 3840
    .V 35 (.ld 32 (.add (.add (.pa 0) (.v 4)) (.n 12))),  -- 3842
    .mst 8 32 (.pv (.n 1)) (.v 36) (.v 35),  -- 3843
    .P (.n 1) (.add (.pv (.n 1)) (.v 0)),  -- 3844
    .I 4 (.add (.v 4) (.n 16))  -- 3829
  ]

/-- `intra_pred_ang_y_26_avx`, vec/intrinsic_intra-pred_avx2.cc:3829. -/
def y26A_21 : Stmt :=
  .loop (.lt (.v 4) (.v 6)) y26A_20

/-- `intra_pred_ang_y_26_avx`, vec/intrinsic_intra-pred_avx2.cc:3806. -/
def y26A_22 : Stmt :=
  .ite (.eq (.v 2) (.n 16)) (.seq y26A_16 y26A_18) (.seq y26A_19 y26A_21)

/-- `intra_pred_ang_y_26_avx`, vec/intrinsic_intra-pred_avx2.cc:3788. -/
def y26A_23 : Stmt :=
  .ite (.eq (.v 2) (.n 32)) (.seq y26A_13 y26A_15) y26A_22

/-- `intra_pred_ang_y_26_avx`, vec/intrinsic_intra-pred_avx2.cc:3762. -/
def y26A_24 : Stmt :=
  .ite (.eq (.v 2) (.n 64)) (.seq y26A_10 y26A_12) y26A_23

/-- `intra_pred_ang_y_26_avx`, vec/intrinsic_intra-pred_avx2.cc:3869. -/
def y26A_25 : Stmt :=
  .call y26S (.pv (.n 0)) (.pv (.n 1)) (.v 0) (.v 1) (.v 2) (.v 3)

/-- `intra_pred_ang_y_26_avx`, vec/intrinsic_intra-pred_avx2.cc:3568. -/
def y26A_26 : Stmt :=
  .ite (.ne (.v 2) (.n 4)) (.seq y26A_1 (.seq y26A_6 (.seq y26A_9 y26A_24))) y26A_25

/-- `intra_pred_ang_y_26_avx`, source/common/vec/intrinsic_intra-pred_avx2.cc:3562-3873.  Variables:
I: 0 i_dst, 1 dir_mode, 2 bsx, 3 bsy, 4 i, 5 line_size, 6 iHeight4;
P: 0 src, 1 dst;
V: 0 coeff2, 1 coeff3, 2 coeff4, 3 coeff5, 4 coeff7, 5 coeff8, 6 shuffle, 7 p00, 8 p10, 9 p20, 10 p30, 11 p01, 12 p11, 13 p21, 14 p31, 15 M1, 16 M2, 17 M3, 18 M4, 19 M5, 20 M6, 21 M7, 22 M8, 23 S0, 24 S1, 25 S2, 26 S3, 27 L0, 28 L1, 29 L2, 30 L3, 31 H0, 32 H1, 33 H2, 34 H3, 35 M, 36 mask. -/
def y26A : Stmt :=
  y26A_26

/-- `intra_pred_ang_y_28_avx`, vec/intrinsic_intra-pred_avx2.cc:3877-3897. -/
def y28A_1 : Stmt :=
  .run [
    .alloc 0 192,  -- 3877
    .I 4 (.add (.v 2) (.mul (.sub (.v 3) (.n 1)) (.n 2))),  -- 3878
    .I 6 (.shl (.v 3) 1),  -- 3881
    .V 0 (.set1_16 (.n 2)),  -- 3884
    .V 1 (.set1_16 (.n 3)),  -- 3885
    .V 2 (.set1_16 (.n 4)),  -- 3886
    .V 3 (.setr8 [7, 15, 6, 14, 5, 13, 4, 12, 3, 11, 2, 10, 1, 9, 0, 8, 7, 15, 6, 14, 5, 13, 4, 12, 3, 11, 2, 10, 1, 9, 0, 8]),  -- 3887
    .P (.n 0) (.sub (.pv (.n 0)) (.n 31)),  -- 3890
    .I 5 (.n 0)  -- 3897
  ]

/-- `intra_pred_ang_y_28_avx`, vec/intrinsic_intra-pred_avx2.cc:3901-3929. -/
def y28A_2 : Stmt :=
  .run [
    .V 8 (.ld 32 (.pv (.n 0))),  -- 3901
    .V 11 (.ld 32 (.sub (.pv (.n 0)) (.n 3))),  -- 3902
    .V 9 (.ld 32 (.sub (.pv (.n 0)) (.n 1))),  -- 3903
    .V 10 (.ld 32 (.sub (.pv (.n 0)) (.n 2))),  -- 3904
    .V 12 (.o1 .cvtu8 (.o1 (.half 0) (.v 8))),  -- 3906
    .V 13 (.o1 .cvtu8 (.o1 (.half 0) (.v 9))),  -- 3907
    .V 14 (.o1 .cvtu8 (.o1 (.half 0) (.v 10))),  -- 3908
    .V 15 (.o1 .cvtu8 (.o1 (.half 0) (.v 11))),  -- 3909
    .V 16 (.o1 .cvtu8 (.o1 (.half 1) (.v 8))),  -- 3911
    .V 17 (.o1 .cvtu8 (.o1 (.half 1) (.v 9))),  -- 3912
    .V 18 (.o1 .cvtu8 (.o1 (.half 1) (.v 10))),  -- 3913
    .V 19 (.o1 .cvtu8 (.o1 (.half 1) (.v 11))),  -- 3914
    .V 4 (.o2 .adds16 (.v 13) (.v 14)),  -- 3916
    .V 4 (.o2 .mullo16 (.v 4) (.v 1)),  -- 3917
    .V 5 (.o2 .add16 (.v 12) (.v 15)),  -- 3918
    .V 5 (.o2 .add16 (.v 5) (.v 2)),  -- 3919
    .V 4 (.o2 .add16 (.v 4) (.v 5)),  -- 3920
    .V 4 (.o1 (.srli16 3) (.v 4)),  -- 3921
    .V 6 (.o2 .add16 (.v 13) (.v 14)),  -- 3923
    .V 7 (.o2 .add16 (.v 14) (.v 15)),  -- 3924
    .V 6 (.o2 .add16 (.v 6) (.v 7)),  -- 3925
    .V 6 (.o2 .add16 (.v 6) (.v 0)),  -- 3926
    .V 6 (.o1 (.srli16 2) (.v 6)),  -- 3927
    .V 4 (.o2 .packus16y (.v 4) (.v 6))  -- 3929
  ]

/-- `intra_pred_ang_y_28_avx`, vec/intrinsic_intra-pred_avx2.cc:3897-3950. -/
def y28A_3 : Stmt :=
  .run [
    .V 4 (.o2 .shuffle8y (.v 4) (.v 3)),  -- 3930
    .V 4 (.o1 (.perm4 78) (.v 4)),  -- 3931
    .st 32 (.add (.pa 0) (.add (.v 5) (.n 32))) (.v 4),  -- 3932
    .V 4 (.o2 .adds16 (.v 17) (.v 18)),  -- 3934
    .V 4 (.o2 .mullo16 (.v 4) (.v 1)),  -- 3935
    .V 5 (.o2 .adds16 (.v 16) (.v 19)),  -- 3936
    .V 5 (.o2 .adds16 (.v 5) (.v 2)),  -- 3937
    .V 4 (.o2 .adds16 (.v 4) (.v 5)),  -- 3938
    .V 4 (.o1 (.srli16 3) (.v 4)),  -- 3939
    .V 6 (.o2 .add16 (.v 17) (.v 18)),  -- 3941
    .V 7 (.o2 .add16 (.v 18) (.v 19)),  -- 3942
    .V 6 (.o2 .add16 (.v 6) (.v 7)),  -- 3943
    .V 6 (.o2 .add16 (.v 6) (.v 0)),  -- 3944
    .V 6 (.o1 (.srli16 2) (.v 6)),  -- 3945
    .V 4 (.o2 .packus16y (.v 4) (.v 6)),  -- 3947
    .V 4 (.o2 .shuffle8y (.v 4) (.v 3)),  -- 3948
    .V 4 (.o1 (.perm4 78) (.v 4)),  -- 3949
    .st 32 (.add (.pa 0) (.v 5)) (.v 4),  -- 3950
    .I 5 (.add (.v 5) (.n 64)),  -- 3897
    .P (.n 0) (.sub (.pv (.n 0)) (.n 32))
  ]

/-- `intra_pred_ang_y_28_avx`, vec/intrinsic_intra-pred_avx2.cc:3897. -/
def y28A_4 : Stmt :=
  .loop (.lt (.v 5) (.sub (.v 4) (.n 32))) (.seq y28A_2 y28A_3)

/-- `intra_pred_ang_y_28_avx`, vec/intrinsic_intra-pred_avx2.cc:3958-3984. -/
def y28A_5 : Stmt :=
  .run [
    .V 8 (.ld 32 (.pv (.n 0))),  -- 3958
    .V 11 (.ld 32 (.sub (.pv (.n 0)) (.n 3))),  -- 3959
    .V 9 (.ld 32 (.sub (.pv (.n 0)) (.n 1))),  -- 3960
    .V 10 (.ld 32 (.sub (.pv (.n 0)) (.n 2))),  -- 3961
    .V 16 (.o1 .cvtu8 (.o1 (.half 1) (.v 8))),  -- 3963
    .V 17 (.o1 .cvtu8 (.o1 (.half 1) (.v 9))),  -- 3964
    .V 18 (.o1 .cvtu8 (.o1 (.half 1) (.v 10))),  -- 3965
    .V 19 (.o1 .cvtu8 (.o1 (.half 1) (.v 11))),  -- 3966
    .V 4 (.o2 .adds16 (.v 17) (.v 18)),  -- 3968
    .V 4 (.o2 .mullo16 (.v 4) (.v 1)),  -- 3969
    .V 5 (.o2 .adds16 (.v 16) (.v 19)),  -- 3970
    .V 5 (.o2 .adds16 (.v 5) (.v 2)),  -- 3971
    .V 4 (.o2 .adds16 (.v 4) (.v 5)),  -- 3972
    .V 4 (.o1 (.srli16 3) (.v 4)),  -- 3973
    .V 6 (.o2 .add16 (.v 17) (.v 18)),  -- 3975
    .V 7 (.o2 .add16 (.v 18) (.v 19)),  -- 3976
    .V 6 (.o2 .add16 (.v 6) (.v 7)),  -- 3977
    .V 6 (.o2 .add16 (.v 6) (.v 0)),  -- 3978
    .V 6 (.o1 (.srli16 2) (.v 6)),  -- 3979
    .V 4 (.o2 .packus16y (.v 4) (.v 6)),  -- 3981
    .V 4 (.o2 .shuffle8y (.v 4) (.v 3)),  -- 3982
    .V 4 (.o1 (.perm4 78) (.v 4)),  -- 3983
    .st 32 (.add (.pa 0) (.v 5)) (.v 4)  -- 3984
  ]

/-- `intra_pred_ang_y_28_avx`, vec/intrinsic_intra-pred_avx2.cc:3954. -/
def y28A_6 : Stmt :=
  .ite (.lt (.v 5) (.v 4)) y28A_5 (.run [])

/-- `intra_pred_ang_y_28_avx`, vec/intrinsic_intra-pred_avx2.cc:3988. -/
def y28A_7 : Stmt :=
  .run [
    .I 5 (.n 0)  -- 3988
  ]

/-- `intra_pred_ang_y_28_avx`, vec/intrinsic_intra-pred_avx2.cc:3988-4008. -/
def y28A_8 : Stmt :=
  .run [
    .V 20 (.ld 32 (.add (.pa 0) (.v 5))),  -- 3989
    .st 32 (.pv (.n 1)) (.v 20),  -- 3990
    .V 20 (.ld 32 (.add (.add (.pa 0) (.v 5)) (.n 32))),  -- 3991
    .st 32 (.add (.pv (.n 1)) (.n 32)) (.v 20),  -- 3992
    .P (.n 1) (.add (.pv (.n 1)) (.v 0)),  -- 3993
    .V 20 (.ld 32 (.add (.pa 0) (.add (.v 5) (.n 2)))),  -- 3994
    .st 32 (.pv (.n 1)) (.v 20),  -- 3995
    .V 20 (.ld 32 (.add (.add (.pa 0) (.add (.v 5) (.n 2))) (.n 32))),  -- 3996
    .st 32 (.add (.pv (.n 1)) (.n 32)) (.v 20),  -- 3997
    .P (.n 1) (.add (.pv (.n 1)) (.v 0)),  -- 3998
    .V 20 (.ld 32 (.add (.pa 0) (.add (.v 5) (.n 4)))),  -- 3999
    .st 32 (.pv (.n 1)) (.v 20),  -- 4000
    .V 20 (.ld 32 (.add (.add (.pa 0) (.add (.v 5) (.n 4))) (.n 32))),  -- 4001
    .st 32 (.add (.pv (.n 1)) (.n 32)) (.v 20),  -- 4002
    .P (.n 1) (.add (.pv (.n 1)) (.v 0)),  -- 4003
    .V 20 (.ld 32 (.add (.pa 0) (.add (.v 5) (.n 6)))),  -- 4004
    .st 32 (.pv (.n 1)) (.v 20),  -- 4005
    .V 20 (.ld 32 (.add (.add (.pa 0) (.add (.v 5) (.n 6))) (.n 32))),  -- 4006
    .st 32 (.add (.pv (.n 1)) (.n 32)) (.v 20),  -- 4007
    .P (.n 1) (.add (.pv (.n 1)) (.v 0)),  -- 4008
    .I 5 (.add (.v 5) (.n 8))  -- 3988
  ]

/-- `intra_pred_ang_y_28_avx`, vec/intrinsic_intra-pred_avx2.cc:3988. -/
def y28A_9 : Stmt :=
  .loop (.lt (.v 5) (.v 6)) y28A_8

/-- `intra_pred_ang_y_28_avx`, vec/intrinsic_intra-pred_avx2.cc:4012. -/
def y28A_10 : Stmt :=
  .run [
    .I 5 (.n 0)  -- 4012
  ]

/-- `intra_pred_ang_y_28_avx`, vec/intrinsic_intra-pred_avx2.cc:4012-4024. -/
def y28A_11 : Stmt :=
  .run [
    .V 20 (.ld 32 (.add (.pa 0) (.v 5))),  -- 4013
    .st 32 (.pv (.n 1)) (.v 20),  -- 4014
    .P (.n 1) (.add (.pv (.n 1)) (.v 0)),  -- 4015
    .V 20 (.ld 32 (.add (.pa 0) (.add (.v 5) (.n 2)))),  -- 4016
    .st 32 (.pv (.n 1)) (.v 20),  -- 4017
    .P (.n 1) (.add (.pv (.n 1)) (.v 0)),  -- 4018
    .V 20 (.ld 32 (.add (.pa 0) (.add (.v 5) (.n 4)))),  -- 4019
    .st 32 (.pv (.n 1)) (.v 20),  -- 4020
    .P (.n 1) (.add (.pv (.n 1)) (.v 0)),  -- 4021
    .V 20 (.ld 32 (.add (.pa 0) (.add (.v 5) (.n 6)))),  -- 4022
    .st 32 (.pv (.n 1)) (.v 20),  -- 4023
    .P (.n 1) (.add (.pv (.n 1)) (.v 0)),  -- 4024
    .I 5 (.add (.v 5) (.n 8))  -- 4012
  ]

/-- `intra_pred_ang_y_28_avx`, vec/intrinsic_intra-pred_avx2.cc:4012. -/
def y28A_12 : Stmt :=
  .loop (.lt (.v 5) (.v 6)) y28A_11

/-- `intra_pred_ang_y_28_avx`, vec/intrinsic_intra-pred_avx2.cc:4027-4028. -/
def y28A_13 : Stmt :=
  .run [
    .V 20 (.mask 16 (.n 15)),  -- 4027
    .I 5 (.n 0)  -- 4028
  ]

/-- `intra_pred_ang_y_28_avx`, vec/intrinsic_intra-pred_avx2.cc:4028-4040. -/
def y28A_14 : Stmt :=
  .run [
    .V 21 (.ld 32 (.add (.pa 0) (.v 5))),  -- 4029
    .mst 8 32 (.pv (.n 1)) (.v 20) (.v 21),  -- 4030
    .P (.n 1) (.add (.pv (.n 1)) (.v 0)),  -- 4031
    .V 21 (.ld 32 (.add (.pa 0) (.add (.v 5) (.n 2)))),  -- 4032
    .mst 8 32 (.pv (.n 1)) (.v 20) (.v 21),  -- 4033
    .P (.n 1) (.add (.pv (.n 1)) (.v 0)),  -- 4034
    .V 21 (.ld 32 (.add (.pa 0) (.add (.v 5) (.n 4)))),  -- 4035
    .mst 8 32 (.pv (.n 1)) (.v 20) (.v 21),  -- 4036
    .P (.n 1) (.add (.pv (.n 1)) (.v 0)),  -- 4037
    .V 21 (.ld 32 (.add (.pa 0) (.add (.v 5) (.n 6)))),  -- 4038
    .mst 8 32 (.pv (.n 1)) (.v 20) (.v 21),  -- 4039
    .P (.n 1) (.add (.pv (.n 1)) (.v 0)),  -- 4040
    .I 5 (.add (.v 5) (.n 8))  -- 4028
  ]

/-- `intra_pred_ang_y_28_avx`, vec/intrinsic_intra-pred_avx2.cc:4028. -/
def y28A_15 : Stmt :=
  .loop (.lt (.v 5) (.v 6)) y28A_14

/-- `intra_pred_ang_y_28_avx`, vec/intrinsic_intra-pred_avx2.cc:4044-4045. -/
def y28A_16 : Stmt :=
  .run [
    .V 20 (.mask 16 (.n 7)),  -- 4044
    .I 5 (.n 0)  -- 4045
  ]

/-- `intra_pred_ang_y_28_avx`, vec/intrinsic_intra-pred_avx2.cc:4045-4057. -/
def y28A_17 : Stmt :=
  .run [
    .V 21 (.ld 32 (.add (.pa 0) (.v 5))),  -- 4046
    .mst 8 32 (.pv (.n 1)) (.v 20) (.v 21),  -- 4047
    .P (.n 1) (.add (.pv (.n 1)) (.v 0)),  -- 4048
    .V 21 (.ld 32 (.add (.pa 0) (.add (.v 5) (.n 2)))),  -- 4049
    .mst 8 32 (.pv (.n 1)) (.v 20) (.v 21),  -- 4050
    .P (.n 1) (.add (.pv (.n 1)) (.v 0)),  -- 4051
    .V 21 (.ld 32 (.add (.pa 0) (.add (.v 5) (.n 4)))),  -- 4052
    .mst 8 32 (.pv (.n 1)) (.v 20) (.v 21),  -- 4053
    .P (.n 1) (.add (.pv (.n 1)) (.v 0)),  -- 4054
    .V 21 (.ld 32 (.add (.pa 0) (.add (.v 5) (.n 6)))),  -- 4055
    .mst 8 32 (.pv (.n 1)) (.v 20) (.v 21),  -- 4056
    .P (.n 1) (.add (.pv (.n 1)) (.v 0)),  -- 4057
    .I 5 (.add (.v 5) (.n 8))  -- 4045
  ]

/-- `intra_pred_ang_y_28_avx`, vec/intrinsic_intra-pred_avx2.cc:4045. -/
def y28A_18 : Stmt :=
  .loop (.lt (.v 5) (.v 6)) y28A_17

/-- `intra_pred_ang_y_28_avx`, vec/intrinsic_intra-pred_avx2.cc:4061-4062. -/
def y28A_19 : Stmt :=
  .run [
    .V 20 (.mask 16 (.n 3)),  -- 4061
    .I 5 (.n 0)  -- 4062
  ]

/-- `intra_pred_ang_y_28_avx`, vec/intrinsic_intra-pred_avx2.cc:4062-4074. -/
def y28A_20 : Stmt :=
  .run [
    .V 21 (.ld 32 (.add (.pa 0) (.v 5))),  -- 4063
    .mst 4 32 (.pv (.n 1)) (.v 20) (.v 21),  -- 4064
    .P (.n 1) (.add (.pv (.n 1)) (.v 0)),  -- 4065
    .V 21 (.ld 32 (.add (.pa 0) (.add (.v 5) (.n 2)))),  -- 4066
    .mst 4 32 (.pv (.n 1)) (.v 20) (.v 21),  -- 4067
    .P (.n 1) (.add (.pv (.n 1)) (.v 0)),  -- 4068
    .V 21 (.ld 32 (.add (.pa 0) (.add (.v 5) (.n 4)))),  -- 4069
    .mst 4 32 (.pv (.n 1)) (.v 20) (.v 21),  -- 4070
    .P (.n 1) (.add (.pv (.n 1)) (.v 0)),  -- 4071
    .V 21 (.ld 32 (.add (.pa 0) (.add (.v 5) (.n 6)))),  -- 4072
    .mst 4 32 (.pv (.n 1)) (.v 20) (.v 21),  -- 4073
    .P (.n 1) (.add (.pv (.n 1)) (.v 0)),  -- 4074
    .I 5 (.add (.v 5) (.n 8))  -- 4062
  ]

/-- `intra_pred_ang_y_28_avx`, vec/intrinsic_intra-pred_avx2.cc:4062. -/
def y28A_21 : Stmt :=
  .loop (.lt (.v 5) (.v 6)) y28A_20

/-- `intra_pred_ang_y_28_avx`, vec/intrinsic_intra-pred_avx2.cc:4043. -/
def y28A_22 : Stmt :=
  .ite (.eq (.v 2) (.n 8)) (.seq y28A_16 y28A_18) (.seq y28A_19 y28A_21)

/-- `intra_pred_ang_y_28_avx`, vec/intrinsic_intra-pred_avx2.cc:4026. -/
def y28A_23 : Stmt :=
  .ite (.eq (.v 2) (.n 16)) (.seq y28A_13 y28A_15) y28A_22

/-- `intra_pred_ang_y_28_avx`, vec/intrinsic_intra-pred_avx2.cc:4011. -/
def y28A_24 : Stmt :=
  .ite (.eq (.v 2) (.n 32)) (.seq y28A_10 y28A_12) y28A_23

/-- `intra_pred_ang_y_28_avx`, vec/intrinsic_intra-pred_avx2.cc:3987. -/
def y28A_25 : Stmt :=
  .ite (.eq (.v 2) (.n 64)) (.seq y28A_7 y28A_9) y28A_24

/-- `intra_pred_ang_y_28_avx`, source/common/vec/intrinsic_intra-pred_avx2.cc:3875-4119.  Variables:
I: 0 i_dst, 1 dir_mode, 2 bsx, 3 bsy, 4 line_size, 5 i, 6 iHeight2;
P: 0 src, 1 dst;
V: 0 coeff2, 1 coeff3, 2 coeff4, 3 shuffle, 4 p00, 5 p10, 6 p01, 7 p11, 8 S0, 9 S1, 10 S2, 11 S3, 12 L0, 13 L1, 14 L2, 15 L3, 16 H0, 17 H1, 18 H2, 19 H3, 20 M/mask, 21 M. -/
def y28A : Stmt :=
  .seq y28A_1 (.seq y28A_4 (.seq y28A_6 y28A_25))

/-- `intra_pred_ang_y_30_avx`, vec/intrinsic_intra-pred_avx2.cc:4123-4140. -/
def y30A_1 : Stmt :=
  .run [
    .alloc 0 128,  -- 4123
    .I 4 (.sub (.add (.v 2) (.v 3)) (.n 1)),  -- 4124
    .V 0 (.set1_16 (.n 2)),  -- 4128
    .V 1 (.setr8 [15, 14, 13, 12, 11, 10, 9, 8, 7, 6, 5, 4, 3, 2, 1, 0, 15, 14, 13, 12, 11, 10, 9, 8, 7, 6, 5, 4, 3, 2, 1, 0]),  -- 4129
    .P (.n 0) (.sub (.pv (.n 0)) (.n 33)),  -- 4138
    .I 5 (.n 0)  -- 4140
  ]

/-- `intra_pred_ang_y_30_avx`, vec/intrinsic_intra-pred_avx2.cc:4140-4170. -/
def y30A_2 : Stmt :=
  .run [
    .V 6 (.ld 32 (.sub (.pv (.n 0)) (.n 1))),  -- 4142
    .V 7 (.ld 32 (.pv (.n 0))),  -- 4143
    .V 8 (.ld 32 (.add (.pv (.n 0)) (.n 1))),  -- 4144
    .V 9 (.o1 .cvtu8 (.o1 (.half 0) (.v 6))),  -- 4146
    .V 10 (.o1 .cvtu8 (.o1 (.half 0) (.v 7))),  -- 4147
    .V 11 (.o1 .cvtu8 (.o1 (.half 0) (.v 8))),  -- 4148
    .V 12 (.o1 .cvtu8 (.o1 (.half 1) (.v 6))),  -- 4150
    .V 13 (.o1 .cvtu8 (.o1 (.half 1) (.v 7))),  -- 4151
    .V 14 (.o1 .cvtu8 (.o1 (.half 1) (.v 8))),  -- 4152
    .V 2 (.o2 .add16 (.v 9) (.v 10)),  -- 4154
    .V 3 (.o2 .add16 (.v 10) (.v 11)),  -- 4155
    .V 2 (.o2 .add16 (.v 2) (.v 3)),  -- 4156
    .V 2 (.o2 .add16 (.v 2) (.v 0)),  -- 4157
    .V 2 (.o1 (.srli16 2) (.v 2)),  -- 4158
    .V 4 (.o2 .add16 (.v 12) (.v 13)),  -- 4160
    .V 5 (.o2 .add16 (.v 13) (.v 14)),  -- 4161
    .V 4 (.o2 .add16 (.v 4) (.v 5)),  -- 4162
    .V 4 (.o2 .add16 (.v 4) (.v 0)),  -- 4163
    .V 4 (.o1 (.srli16 2) (.v 4)),  -- 4164
    .V 2 (.o2 .packus16y (.v 2) (.v 4)),  -- 4166
    .V 2 (.o1 (.perm4 141) (.v 2)),  -- 4167
    .V 2 (.o2 .shuffle8y (.v 2) (.v 1)),  -- 4168
    .st 32 (.add (.pa 0) (.v 5)) (.v 2),  -- 4170
    .I 5 (.add (.v 5) (.n 32))  -- 4140
  ]

/-- `intra_pred_ang_y_30_avx`, vec/intrinsic_intra-pred_avx2.cc:4140. -/
def y30A_3 : Stmt :=
  .run [
    .P (.n 0) (.sub (.pv (.n 0)) (.n 32))  -- 4140
  ]

/-- `intra_pred_ang_y_30_avx`, vec/intrinsic_intra-pred_avx2.cc:4140. -/
def y30A_4 : Stmt :=
  .loop (.lt (.v 5) (.sub (.v 4) (.n 16))) (.seq y30A_2 y30A_3)

/-- `intra_pred_ang_y_30_avx`, vec/intrinsic_intra-pred_avx2.cc:4174. -/
def y30A_5 : Stmt :=
  .run [
    .V 15 (.mask 16 (.n 15))  -- 4174
  ]

/-- `intra_pred_ang_y_30_avx`, vec/intrinsic_intra-pred_avx2.cc:4177-4195. -/
def y30A_6 : Stmt :=
  .run [
    .V 6 (.ld 32 (.sub (.pv (.n 0)) (.n 1))),  -- 4177
    .V 7 (.ld 32 (.pv (.n 0))),  -- 4178
    .V 8 (.ld 32 (.add (.pv (.n 0)) (.n 1))),  -- 4179
    .V 12 (.o1 .cvtu8 (.o1 (.half 1) (.v 6))),  -- 4181
    .V 13 (.o1 .cvtu8 (.o1 (.half 1) (.v 7))),  -- 4182
    .V 14 (.o1 .cvtu8 (.o1 (.half 1) (.v 8))),  -- 4183
    .V 4 (.o2 .add16 (.v 12) (.v 13)),  -- 4185
    .V 5 (.o2 .add16 (.v 13) (.v 14)),  -- 4186
    .V 4 (.o2 .add16 (.v 4) (.v 5)),  -- 4187
    .V 4 (.o2 .add16 (.v 4) (.v 0)),  -- 4188
    .V 4 (.o1 (.srli16 2) (.v 4)),  -- 4189
    .V 4 (.o2 .packus16y (.v 4) (.v 4)),  -- 4191
    .V 4 (.o1 (.perm4 8) (.v 4)),  -- 4192
    .V 4 (.o2 .shuffle8y (.v 4) (.v 1)),  -- 4193
    .mst 8 32 (.add (.pa 0) (.v 5)) (.v 15) (.v 4)  -- 4195
  ]

/-- `intra_pred_ang_y_30_avx`, vec/intrinsic_intra-pred_avx2.cc:4176. -/
def y30A_7 : Stmt :=
  .ite (.lt (.v 5) (.v 4)) y30A_6 (.run [])

/-- `intra_pred_ang_y_30_avx`, vec/intrinsic_intra-pred_avx2.cc:4200. -/
def y30A_8 : Stmt :=
  .run [
    .I 5 (.n 0)  -- 4200
  ]

/-- `intra_pred_ang_y_30_avx`, vec/intrinsic_intra-pred_avx2.cc:4200-4223. -/
def y30A_9 : Stmt :=
  .run [
    .V 16 (.ld 32 (.add (.pa 0) (.v 5))),  -- 4201
    .st 32 (.pv (.n 1)) (.v 16),  -- 4202
    .V 16 (.ld 32 (.add (.add (.pa 0) (.v 5)) (.n 32))),  -- 4203
    .st 32 (.add (.pv (.n 1)) (.n 32)) (.v 16),  -- 4204
    .P (.n 1) (.add (.pv (.n 1)) (.v 0)),  -- 4205
    .V 16 (.ld 32 (.add (.add (.pa 0) (.v 5)) (.n 1))),  -- 4207
    .st 32 (.pv (.n 1)) (.v 16),  -- 4208
    .V 16 (.ld 32 (.add (.add (.add (.pa 0) (.v 5)) (.n 32)) (.n 1))),  -- 4209
    .st 32 (.add (.pv (.n 1)) (.n 32)) (.v 16),  -- 4210
    .P (.n 1) (.add (.pv (.n 1)) (.v 0)),  -- 4211
    .V 16 (.ld 32 (.add (.add (.pa 0) (.v 5)) (.n 2))),  -- 4213
    .st 32 (.pv (.n 1)) (.v 16),  -- 4214
    .V 16 (.ld 32 (.add (.add (.add (.pa 0) (.v 5)) (.n 32)) (.n 2))),  -- 4215
    .st 32 (.add (.pv (.n 1)) (.n 32)) (.v 16),  -- 4216
    .P (.n 1) (.add (.pv (.n 1)) (.v 0)),  -- 4217
    .V 16 (.ld 32 (.add (.add (.pa 0) (.v 5)) (.n 3))),  -- 4219
    .st 32 (.pv (.n 1)) (.v 16),  -- 4220
    .V 16 (.ld 32 (.add (.add (.add (.pa 0) (.v 5)) (.n 32)) (.n 3))),  -- 4221
    .st 32 (.add (.pv (.n 1)) (.n 32)) (.v 16),  -- 4222
    .P (.n 1) (.add (.pv (.n 1)) (.v 0)),  -- 4223
    .I 5 (.add (.v 5) (.n 4))  -- 4200
  ]

/-- `intra_pred_ang_y_30_avx`, vec/intrinsic_intra-pred_avx2.cc:4200. -/
def y30A_10 : Stmt :=
  .loop (.lt (.v 5) (.v 3)) y30A_9

/-- `intra_pred_ang_y_30_avx`, vec/intrinsic_intra-pred_avx2.cc:4226. -/
def y30A_11 : Stmt :=
  .run [
    .I 5 (.n 0)  -- 4226
  ]

/-- `intra_pred_ang_y_30_avx`, vec/intrinsic_intra-pred_avx2.cc:4226-4241. -/
def y30A_12 : Stmt :=
  .run [
    .V 16 (.ld 32 (.add (.pa 0) (.v 5))),  -- 4227
    .st 32 (.pv (.n 1)) (.v 16),  -- 4228
    .P (.n 1) (.add (.pv (.n 1)) (.v 0)),  -- 4229
    .V 16 (.ld 32 (.add (.add (.pa 0) (.v 5)) (.n 1))),  -- 4231
    .st 32 (.pv (.n 1)) (.v 16),  -- 4232
    .P (.n 1) (.add (.pv (.n 1)) (.v 0)),  -- 4233
    .V 16 (.ld 32 (.add (.add (.pa 0) (.v 5)) (.n 2))),  -- 4235
    .st 32 (.pv (.n 1)) (.v 16),  -- 4236
    .P (.n 1) (.add (.pv (.n 1)) (.v 0)),  -- 4237
    .V 16 (.ld 32 (.add (.add (.pa 0) (.v 5)) (.n 3))),  -- 4239
    .st 32 (.pv (.n 1)) (.v 16),  -- 4240
    .P (.n 1) (.add (.pv (.n 1)) (.v 0)),  -- 4241
    .I 5 (.add (.v 5) (.n 4))  -- 4226
  ]

/-- `intra_pred_ang_y_30_avx`, vec/intrinsic_intra-pred_avx2.cc:4226. -/
def y30A_13 : Stmt :=
  .loop (.lt (.v 5) (.v 3)) y30A_12

/-- `intra_pred_ang_y_30_avx`, vec/intrinsic_intra-pred_avx2.cc:4244-4245. -/
def y30A_14 : Stmt :=
  .run [
    .V 15 (.mask 16 (.n 15)),  -- 4244
    .I 5 (.n 0)  -- 4245
  ]

/-- `intra_pred_ang_y_30_avx`, vec/intrinsic_intra-pred_avx2.cc:4245-4261. -/
def y30A_15 : Stmt :=
  .run [
    .V 16 (.ld 32 (.add (.pa 0) (.v 5))),  -- 4247
    .mst 8 32 (.pv (.n 1)) (.v 15) (.v 16),  -- 4248
    .P (.n 1) (.add (.pv (.n 1)) (.v 0)),  -- 4249
    .V 16 (.ld 32 (.add (.add (.pa 0) (.v 5)) (.n 1))),  -- 4251
    .mst 8 32 (.pv (.n 1)) (.v 15) (.v 16),  -- 4252
    .P (.n 1) (.add (.pv (.n 1)) (.v 0)),  -- 4253
    .V 16 (.ld 32 (.add (.add (.pa 0) (.v 5)) (.n 2))),  -- 4255
    .mst 8 32 (.pv (.n 1)) (.v 15) (.v 16),  -- 4256
    .P (.n 1) (.add (.pv (.n 1)) (.v 0)),  -- 4257
    .V 16 (.ld 32 (.add (.add (.pa 0) (.v 5)) (.n 3))),  -- 4259
    .mst 8 32 (.pv (.n 1)) (.v 15) (.v 16),  -- 4260
    .P (.n 1) (.add (.pv (.n 1)) (.v 0)),  -- 4261
    .I 5 (.add (.v 5) (.n 4))  -- 4245
  ]

/-- `intra_pred_ang_y_30_avx`, vec/intrinsic_intra-pred_avx2.cc:4245. -/
def y30A_16 : Stmt :=
  .loop (.lt (.v 5) (.v 3)) y30A_15

/-- `intra_pred_ang_y_30_avx`, vec/intrinsic_intra-pred_avx2.cc:4265-4266. -/
def y30A_17 : Stmt :=
  .run [
    .V 15 (.mask 16 (.n 7)),  -- 4265
    .I 5 (.n 0)  -- 4266
  ]

/-- `intra_pred_ang_y_30_avx`, vec/intrinsic_intra-pred_avx2.cc:4266-4281. -/
def y30A_18 : Stmt :=
  .run [
    .V 16 (.ld 32 (.add (.pa 0) (.v 5))),  -- 4267
    .mst 8 32 (.pv (.n 1)) (.v 15) (.v 16),  -- 4268
    .P (.n 1) (.add (.pv (.n 1)) (.v 0)),  -- 4269
    .V 16 (.ld 32 (.add (.add (.pa 0) (.v 5)) (.n 1))),  -- 4271
    .mst 8 32 (.pv (.n 1)) (.v 15) (.v 16),  -- 4272
    .P (.n 1) (.add (.pv (.n 1)) (.v 0)),  -- 4273
    .V 16 (.ld 32 (.add (.add (.pa 0) (.v 5)) (.n 2))),  -- 4275
    .mst 8 32 (.pv (.n 1)) (.v 15) (.v 16),  -- 4276
    .P (.n 1) (.add (.pv (.n 1)) (.v 0)),  -- 4277
    .V 16 (.ld 32 (.add (.add (.pa 0) (.v 5)) (.n 3))),  -- 4279
    .mst 8 32 (.pv (.n 1)) (.v 15) (.v 16),  -- 4280
    .P (.n 1) (.add (.pv (.n 1)) (.v 0)),  -- 4281
    .I 5 (.add (.v 5) (.n 4))  -- 4266
  ]

/-- `intra_pred_ang_y_30_avx`, vec/intrinsic_intra-pred_avx2.cc:4266. -/
def y30A_19 : Stmt :=
  .loop (.lt (.v 5) (.v 3)) y30A_18

/-- `intra_pred_ang_y_30_avx`, vec/intrinsic_intra-pred_avx2.cc:4284-4285. -/
def y30A_20 : Stmt :=
  .run [
    .V 15 (.mask 16 (.n 3)),  -- 4284
    .I 5 (.n 0)  -- 4285
  ]

/-- `intra_pred_ang_y_30_avx`, vec/intrinsic_intra-pred_avx2.cc:4285-4300. -/
def y30A_21 : Stmt :=
  .run [
    .V 16 (.ld 32 (.add (.pa 0) (.v 5))),  -- 4286
    .mst 4 32 (.pv (.n 1)) (.v 15) (.v 16),  -- 4287
    .P (.n 1) (.add (.pv (.n 1)) (.v 0)),  -- 4288
    .V 16 (.ld 32 (.add (.add (.pa 0) (.v 5)) (.n 1))),  -- 4290
    .mst 4 32 (.pv (.n 1)) (.v 15) (.v 16),  -- 4291
    .P (.n 1) (.add (.pv (.n 1)) (.v 0)),  -- 4292
    .V 16 (.ld 32 (.add (.add (.pa 0) (.v 5)) (.n 2))),  -- 4294
    .mst 4 32 (.pv (.n 1)) (.v 15) (.v 16),  -- 4295
    .P (.n 1) (.add (.pv (.n 1)) (.v 0)),  -- 4296
    .V 16 (.ld 32 (.add (.add (.pa 0) (.v 5)) (.n 3))),  -- 4298
    .mst 4 32 (.pv (.n 1)) (.v 15) (.v 16),  -- 4299
    .P (.n 1) (.add (.pv (.n 1)) (.v 0)),  -- 4300
    .I 5 (.add (.v 5) (.n 4))  -- 4285
  ]

/-- `intra_pred_ang_y_30_avx`, vec/intrinsic_intra-pred_avx2.cc:4285. -/
def y30A_22 : Stmt :=
  .loop (.lt (.v 5) (.v 3)) y30A_21

/-- `intra_pred_ang_y_30_avx`, vec/intrinsic_intra-pred_avx2.cc:4264. -/
def y30A_23 : Stmt :=
  .ite (.eq (.v 2) (.n 8)) (.seq y30A_17 y30A_19) (.seq y30A_20 y30A_22)

/-- `intra_pred_ang_y_30_avx`, vec/intrinsic_intra-pred_avx2.cc:4243. -/
def y30A_24 : Stmt :=
  .ite (.eq (.v 2) (.n 16)) (.seq y30A_14 y30A_16) y30A_23

/-- `intra_pred_ang_y_30_avx`, vec/intrinsic_intra-pred_avx2.cc:4225. -/
def y30A_25 : Stmt :=
  .ite (.eq (.v 2) (.n 32)) (.seq y30A_11 y30A_13) y30A_24

/-- `intra_pred_ang_y_30_avx`, vec/intrinsic_intra-pred_avx2.cc:4199. -/
def y30A_26 : Stmt :=
  .ite (.eq (.v 2) (.n 64)) (.seq y30A_8 y30A_10) y30A_25

/-- `intra_pred_ang_y_30_avx`, source/common/vec/intrinsic_intra-pred_avx2.cc:4121-4424.  Variables:
I: 0 i_dst, 1 dir_mode, 2 bsx, 3 bsy, 4 line_size, 5 i;
P: 0 src, 1 dst;
V: 0 coeff2, 1 shuffle, 2 p00, 3 p10, 4 p01, 5 p11, 6 S0, 7 S1, 8 S2, 9 L0, 10 L1, 11 L2, 12 H0, 13 H1, 14 H2, 15 mask, 16 M. -/
def y30A : Stmt :=
  .seq y30A_1 (.seq y30A_4 (.seq y30A_5 (.seq y30A_7 y30A_26)))

/-- `intra_pred_ang_y_31_avx`, vec/intrinsic_intra-pred_avx2.cc:4432-4435. -/
def y31A_1 : Stmt :=
  .run [
    .alloc 0 4096,  -- 4432
    .alloc 1 512,  -- 4433
    .I 4 (.n 0)  -- 4435
  ]

/-- `intra_pred_ang_y_31_avx`, vec/intrinsic_intra-pred_avx2.cc:4435-4436. -/
def y31A_2 : Stmt :=
  .run [
    .st1 (.add (.pa 1) (.v 4)) (.ld (.add (.pv (.n 0)) (.sub (.n 0) (.v 4)))),  -- 4436
    .I 4 (.add (.v 4) (.n 1))  -- 4435
  ]

/-- `intra_pred_ang_y_31_avx`, vec/intrinsic_intra-pred_avx2.cc:4435. -/
def y31A_3 : Stmt :=
  .loop (.lt (.v 4) (.add (.add (.v 3) (.div (.mul (.v 2) (.n 11)) (.n 8))) (.n 3))) y31A_2

/-- `intra_pred_ang_y_31_avx`, vec/intrinsic_intra-pred_avx2.cc:4438. -/
def y31A_4 : Stmt :=
  .call x5A (.pa 1) (.pa 0) (.v 3) (.n 5) (.v 3) (.v 2)

/-- `intra_pred_ang_y_31_avx`, vec/intrinsic_intra-pred_avx2.cc:4439. -/
def y31A_5 : Stmt :=
  .run [
    .I 4 (.n 0)  -- 4439
  ]

/-- `intra_pred_ang_y_31_avx`, vec/intrinsic_intra-pred_avx2.cc:4440. -/
def y31A_6 : Stmt :=
  .run [
    .I 5 (.n 0)  -- 4440
  ]

/-- `intra_pred_ang_y_31_avx`, vec/intrinsic_intra-pred_avx2.cc:4440-4441. -/
def y31A_7 : Stmt :=
  .run [
    .st1 (.add (.pv (.n 1)) (.add (.v 5) (.mul (.v 0) (.v 4)))) (.ld (.add (.pa 0) (.add (.v 4) (.mul (.v 3) (.v 5))))),  -- 4441
    .I 5 (.add (.v 5) (.n 1))  -- 4440
  ]

/-- `intra_pred_ang_y_31_avx`, vec/intrinsic_intra-pred_avx2.cc:4440. -/
def y31A_8 : Stmt :=
  .loop (.lt (.v 5) (.v 2)) y31A_7

/-- `intra_pred_ang_y_31_avx`, vec/intrinsic_intra-pred_avx2.cc:4439. -/
def y31A_9 : Stmt :=
  .run [
    .I 4 (.add (.v 4) (.n 1))  -- 4439
  ]

/-- `intra_pred_ang_y_31_avx`, vec/intrinsic_intra-pred_avx2.cc:4439. -/
def y31A_10 : Stmt :=
  .loop (.lt (.v 4) (.v 3)) (.seq y31A_6 (.seq y31A_8 y31A_9))

/-- `intra_pred_ang_y_31_avx`, vec/intrinsic_intra-pred_avx2.cc:4446-4456. -/
def y31A_11 : Stmt :=
  .run [
    .V 0 (.setr16 [.n 5, .n 1, .n 7, .n 1, .n 1, .n 3, .n 3, .n 1]),  -- 4446
    .V 1 (.setr16 [.n 13, .n 5, .n 15, .n 3, .n 9, .n 7, .n 11, .n 2]),  -- 4447
    .V 2 (.setr16 [.n 11, .n 7, .n 9, .n 3, .n 15, .n 5, .n 13, .n 1]),  -- 4448
    .V 3 (.setr16 [.n 3, .n 3, .n 1, .n 1, .n 7, .n 1, .n 5, .n 0]),  -- 4449
    .V 4 (.setr16 [.n 16, .n 8, .n 16, .n 4, .n 16, .n 8, .n 16, .n 2]),  -- 4450
    .V 5 (.setr16 [.n 1, .n 2, .n 1, .n 4, .n 1, .n 2, .n 1, .n 8]),  -- 4451
    .I 4 (.n 0)  -- 4456
  ]

/-- `intra_pred_ang_y_31_avx`, vec/intrinsic_intra-pred_avx2.cc:4456-4475. -/
def y31A_12 : Stmt :=
  .run [
    .V 6 (.setr16 [.ld (.add (.pv (.n 0)) (.n (-1))), .ld (.add (.pv (.n 0)) (.n (-2))), .ld (.add (.pv (.n 0)) (.n (-4))), .ld (.add (.pv (.n 0)) (.n (-5))), .ld (.add (.pv (.n 0)) (.n (-6))), .ld (.add (.pv (.n 0)) (.n (-8))), .ld (.add (.pv (.n 0)) (.n (-9))), .ld (.add (.pv (.n 0)) (.n (-11)))]),  -- 4457
    .V 7 (.setr16 [.ld (.add (.pv (.n 0)) (.n (-2))), .ld (.add (.pv (.n 0)) (.n (-3))), .ld (.add (.pv (.n 0)) (.n (-5))), .ld (.add (.pv (.n 0)) (.n (-6))), .ld (.add (.pv (.n 0)) (.n (-7))), .ld (.add (.pv (.n 0)) (.n (-9))), .ld (.add (.pv (.n 0)) (.n (-10))), .ld (.add (.pv (.n 0)) (.n (-12)))]),  -- 4458
    .V 8 (.setr16 [.ld (.add (.pv (.n 0)) (.n (-3))), .ld (.add (.pv (.n 0)) (.n (-4))), .ld (.add (.pv (.n 0)) (.n (-6))), .ld (.add (.pv (.n 0)) (.n (-7))), .ld (.add (.pv (.n 0)) (.n (-8))), .ld (.add (.pv (.n 0)) (.n (-10))), .ld (.add (.pv (.n 0)) (.n (-11))), .ld (.add (.pv (.n 0)) (.n (-13)))]),  -- 4459
    .V 9 (.setr16 [.ld (.add (.pv (.n 0)) (.n (-4))), .ld (.add (.pv (.n 0)) (.n (-5))), .ld (.add (.pv (.n 0)) (.n (-7))), .ld (.add (.pv (.n 0)) (.n (-8))), .ld (.add (.pv (.n 0)) (.n (-9))), .ld (.add (.pv (.n 0)) (.n (-11))), .ld (.add (.pv (.n 0)) (.n (-12))), .ld (.add (.pv (.n 0)) (.n (-14)))]),  -- 4460
    .V 10 (.o2 .mullo16 (.v 6) (.v 0)),  -- 4462
    .V 11 (.o2 .mullo16 (.v 7) (.v 1)),  -- 4463
    .V 12 (.o2 .mullo16 (.v 8) (.v 2)),  -- 4464
    .V 13 (.o2 .mullo16 (.v 9) (.v 3)),  -- 4465
    .V 10 (.o2 .add16 (.v 10) (.v 4)),  -- 4466
    .V 10 (.o2 .add16 (.v 10) (.v 11)),  -- 4467
    .V 10 (.o2 .add16 (.v 10) (.v 12)),  -- 4468
    .V 10 (.o2 .add16 (.v 10) (.v 13)),  -- 4469
    .V 10 (.o2 .mullo16 (.v 10) (.v 5)),  -- 4470
    .V 10 (.o1 (.srli16 5) (.v 10)),  -- 4471
    .V 10 (.o2 .packus16 (.v 10) (.v 10)),  -- 4473
    .st 8 (.pv (.n 1)) (.v 10),  -- 4474
    .P (.n 1) (.add (.pv (.n 1)) (.v 0)),  -- 4475
    .I 4 (.add (.v 4) (.n 1)),  -- 4456
    .P (.n 0) (.sub (.pv (.n 0)) (.n 1))
  ]

/-- `intra_pred_ang_y_31_avx`, vec/intrinsic_intra-pred_avx2.cc:4456. -/
def y31A_13 : Stmt :=
  .loop (.lt (.v 4) (.v 3)) y31A_12

/-- `intra_pred_ang_y_31_avx`, vec/intrinsic_intra-pred_avx2.cc:4479. -/
def y31A_14 : Stmt :=
  .call y31S (.pv (.n 0)) (.pv (.n 1)) (.v 0) (.v 1) (.v 2) (.v 3)

/-- `intra_pred_ang_y_31_avx`, vec/intrinsic_intra-pred_avx2.cc:4444. -/
def y31A_15 : Stmt :=
  .ite (.eq (.v 2) (.n 8)) (.seq y31A_11 y31A_13) y31A_14

/-- `intra_pred_ang_y_31_avx`, vec/intrinsic_intra-pred_avx2.cc:4431. -/
def y31A_16 : Stmt :=
  .ite (.le (.v 3) (.v 2)) (.seq y31A_1 (.seq y31A_3 (.seq y31A_4 (.seq y31A_5 y31A_10)))) y31A_15

/-- `intra_pred_ang_y_31_avx`, source/common/vec/intrinsic_intra-pred_avx2.cc:4426-4483.  Variables:
I: 0 i_dst, 1 dir_mode, 2 bsx, 3 bsy, 4 i, 5 j;
P: 0 src, 1 dst;
V: 0 coeff0, 1 coeff1, 2 coeff2, 3 coeff3, 4 coeff4, 5 coeff5, 6 L0, 7 L1, 8 L2, 9 L3, 10 p00, 11 p10, 12 p20, 13 p30. -/
def y31A : Stmt :=
  y31A_16

/-- `intra_pred_ang_y_32_avx`, vec/intrinsic_intra-pred_avx2.cc:4487-4510. -/
def y32A_1 : Stmt :=
  .run [
    .alloc 0 256,  -- 4487
    .I 4 (.sub (.add (.shr (.v 3) 1) (.v 2)) (.n 1)),  -- 4488
    .I 6 (.shl (.shr (.add (.v 4) (.n 63)) 4) 4),  -- 4491
    .V 0 (.set1_16 (.n 2)),  -- 4495
    .V 1 (.setr8 [15, 13, 11, 9, 7, 5, 3, 1, 14, 12, 10, 8, 6, 4, 2, 0, 15, 13, 11, 9, 7, 5, 3, 1, 14, 12, 10, 8, 6, 4, 2, 0]),  -- 4496
    .P (.n 2) (.pa 0),  -- 4499
    .P (.n 3) (.add (.pa 0) (.v 6)),  -- 4500
    .P (.n 0) (.sub (.pv (.n 0)) (.n 34)),  -- 4502
    .V 15 (.mask 16 (.n 15)),  -- 4509
    .I 5 (.n 0)  -- 4510
  ]

/-- `intra_pred_ang_y_32_avx`, vec/intrinsic_intra-pred_avx2.cc:4512-4542. -/
def y32A_2 : Stmt :=
  .run [
    .V 2 (.ld 32 (.sub (.pv (.n 0)) (.n 1))),  -- 4512
    .V 3 (.ld 32 (.pv (.n 0))),  -- 4513
    .V 4 (.ld 32 (.add (.pv (.n 0)) (.n 1))),  -- 4514
    .V 5 (.o1 .cvtu8 (.o1 (.half 0) (.v 2))),  -- 4516
    .V 6 (.o1 .cvtu8 (.o1 (.half 0) (.v 3))),  -- 4517
    .V 7 (.o1 .cvtu8 (.o1 (.half 0) (.v 4))),  -- 4518
    .V 8 (.o1 .cvtu8 (.o1 (.half 1) (.v 2))),  -- 4520
    .V 9 (.o1 .cvtu8 (.o1 (.half 1) (.v 3))),  -- 4521
    .V 10 (.o1 .cvtu8 (.o1 (.half 1) (.v 4))),  -- 4522
    .V 11 (.o2 .add16 (.v 5) (.v 6)),  -- 4524
    .V 12 (.o2 .add16 (.v 6) (.v 7)),  -- 4525
    .V 11 (.o2 .add16 (.v 11) (.v 0)),  -- 4526
    .V 11 (.o2 .add16 (.v 11) (.v 12)),  -- 4527
    .V 11 (.o1 (.srli16 2) (.v 11)),  -- 4528
    .V 13 (.o2 .add16 (.v 8) (.v 9)),  -- 4530
    .V 14 (.o2 .add16 (.v 9) (.v 10)),  -- 4531
    .V 13 (.o2 .add16 (.v 13) (.v 0)),  -- 4532
    .V 13 (.o2 .add16 (.v 13) (.v 14)),  -- 4533
    .V 13 (.o1 (.srli16 2) (.v 13)),  -- 4534
    .V 11 (.o2 .packus16y (.v 11) (.v 13)),  -- 4537
    .V 11 (.o1 (.perm4 141) (.v 11)),  -- 4538
    .V 11 (.o2 .shuffle8y (.v 11) (.v 1)),  -- 4540
    .V 13 (.o1 (.perm4 13) (.v 11)),  -- 4541
    .V 11 (.o1 (.perm4 8) (.v 11))  -- 4542
  ]

/-- `intra_pred_ang_y_32_avx`, vec/intrinsic_intra-pred_avx2.cc:4510-4545. -/
def y32A_3 : Stmt :=
  .run [
    .mst 8 32 (.add (.pv (.n 2)) (.v 5)) (.v 15) (.v 11),  -- 4544
    .mst 8 32 (.add (.pv (.n 3)) (.v 5)) (.v 15) (.v 13),  -- 4545
    .I 5 (.add (.v 5) (.n 16)),  -- 4510
    .P (.n 0) (.sub (.pv (.n 0)) (.n 32))
  ]

/-- `intra_pred_ang_y_32_avx`, vec/intrinsic_intra-pred_avx2.cc:4510. -/
def y32A_4 : Stmt :=
  .loop (.lt (.v 5) (.sub (.v 4) (.n 8))) (.seq y32A_2 y32A_3)

/-- `intra_pred_ang_y_32_avx`, vec/intrinsic_intra-pred_avx2.cc:4548. -/
def y32A_5 : Stmt :=
  .run [
    .V 15 (.mask 16 (.n 8))  -- 4548
  ]

/-- `intra_pred_ang_y_32_avx`, vec/intrinsic_intra-pred_avx2.cc:4550-4573. -/
def y32A_6 : Stmt :=
  .run [
    .V 2 (.ld 32 (.sub (.pv (.n 0)) (.n 1))),  -- 4550
    .V 3 (.ld 32 (.pv (.n 0))),  -- 4551
    .V 4 (.ld 32 (.add (.pv (.n 0)) (.n 1))),  -- 4552
    .V 8 (.o1 .cvtu8 (.o1 (.half 1) (.v 2))),  -- 4554
    .V 9 (.o1 .cvtu8 (.o1 (.half 1) (.v 3))),  -- 4555
    .V 10 (.o1 .cvtu8 (.o1 (.half 1) (.v 4))),  -- 4556
    .V 13 (.o2 .add16 (.v 8) (.v 9)),  -- 4558
    .V 14 (.o2 .add16 (.v 9) (.v 10)),  -- 4559
    .V 13 (.o2 .add16 (.v 13) (.v 0)),  -- 4560
    .V 13 (.o2 .add16 (.v 13) (.v 14)),  -- 4561
    .V 13 (.o1 (.srli16 2) (.v 13)),  -- 4562
    .V 11 (.o2 .packus16y (.v 13) (.v 13)),  -- 4565
    .V 11 (.o1 (.perm4 141) (.v 11)),  -- 4566
    .V 11 (.o2 .shuffle8y (.v 11) (.v 1)),  -- 4568
    .V 13 (.o1 (.perm4 13) (.v 11)),  -- 4569
    .V 11 (.o1 (.perm4 8) (.v 11)),  -- 4570
    .mst 8 32 (.add (.pv (.n 2)) (.v 5)) (.v 15) (.v 11),  -- 4572
    .mst 8 32 (.add (.pv (.n 3)) (.v 5)) (.v 15) (.v 13)  -- 4573
  ]

/-- `intra_pred_ang_y_32_avx`, vec/intrinsic_intra-pred_avx2.cc:4549. -/
def y32A_7 : Stmt :=
  .ite (.lt (.v 5) (.v 4)) y32A_6 (.run [])

/-- `intra_pred_ang_y_32_avx`, vec/intrinsic_intra-pred_avx2.cc:4576. -/
def y32A_8 : Stmt :=
  .run [
    .I 3 (.shr (.v 3) 1)  -- 4576
  ]

/-- `intra_pred_ang_y_32_avx`, vec/intrinsic_intra-pred_avx2.cc:4580. -/
def y32A_9 : Stmt :=
  .run [
    .I 5 (.n 0)  -- 4580
  ]

/-- `intra_pred_ang_y_32_avx`, vec/intrinsic_intra-pred_avx2.cc:4581-4608. -/
def y32A_10 : Stmt :=
  .run [
    .V 16 (.ld 32 (.add (.pv (.n 2)) (.v 5))),  -- 4581
    .st 32 (.pv (.n 1)) (.v 16),  -- 4582
    .V 16 (.ld 32 (.add (.add (.pv (.n 2)) (.v 5)) (.n 32))),  -- 4583
    .st 32 (.add (.pv (.n 1)) (.n 32)) (.v 16),  -- 4584
    .P (.n 1) (.add (.pv (.n 1)) (.v 0)),  -- 4585
    .V 16 (.ld 32 (.add (.pv (.n 3)) (.v 5))),  -- 4587
    .st 32 (.pv (.n 1)) (.v 16),  -- 4588
    .V 16 (.ld 32 (.add (.add (.pv (.n 3)) (.v 5)) (.n 32))),  -- 4589
    .st 32 (.add (.pv (.n 1)) (.n 32)) (.v 16),  -- 4590
    .P (.n 1) (.add (.pv (.n 1)) (.v 0)),  -- 4591
    .V 16 (.ld 32 (.add (.add (.pv (.n 2)) (.v 5)) (.n 1))),  -- 4593
    .st 32 (.pv (.n 1)) (.v 16),  -- 4594
    .V 16 (.ld 32 (.add (.add (.add (.pv (.n 2)) (.v 5)) (.n 1)) (.n 32))),  -- 4595
    .st 32 (.add (.pv (.n 1)) (.n 32)) (.v 16),  -- 4596
    .P (.n 1) (.add (.pv (.n 1)) (.v 0)),  -- 4597
    .V 16 (.ld 32 (.add (.add (.pv (.n 3)) (.v 5)) (.n 1))),  -- 4599
    .st 32 (.pv (.n 1)) (.v 16),  -- 4600
    .V 16 (.ld 32 (.add (.add (.add (.pv (.n 3)) (.v 5)) (.n 1)) (.n 32))),  -- 4601
    .st 32 (.add (.pv (.n 1)) (.n 32)) (.v 16),  -- 4602
    .P (.n 1) (.add (.pv (.n 1)) (.v 0)),  -- 4603
    .V 16 (.ld 32 (.add (.add (.pv (.n 2)) (.v 5)) (.n 2))),  -- 4605
    .st 32 (.pv (.n 1)) (.v 16),  -- 4606
    .V 16 (.ld 32 (.add (.add (.add (.pv (.n 2)) (.v 5)) (.n 2)) (.n 32))),  -- 4607
    .st 32 (.add (.pv (.n 1)) (.n 32)) (.v 16)  -- 4608
  ]

/-- `intra_pred_ang_y_32_avx`, vec/intrinsic_intra-pred_avx2.cc:4580-4627. -/
def y32A_11 : Stmt :=
  .run [
    .P (.n 1) (.add (.pv (.n 1)) (.v 0)),  -- 4609
    .V 16 (.ld 32 (.add (.add (.pv (.n 3)) (.v 5)) (.n 2))),  -- 4611
    .st 32 (.pv (.n 1)) (.v 16),  -- 4612
    .V 16 (.ld 32 (.add (.add (.add (.pv (.n 3)) (.v 5)) (.n 2)) (.n 32))),  -- 4613
    .st 32 (.add (.pv (.n 1)) (.n 32)) (.v 16),  -- 4614
    .P (.n 1) (.add (.pv (.n 1)) (.v 0)),  -- 4615
    .V 16 (.ld 32 (.add (.add (.pv (.n 2)) (.v 5)) (.n 3))),  -- 4617
    .st 32 (.pv (.n 1)) (.v 16),  -- 4618
    .V 16 (.ld 32 (.add (.add (.add (.pv (.n 2)) (.v 5)) (.n 3)) (.n 32))),  -- 4619
    .st 32 (.add (.pv (.n 1)) (.n 32)) (.v 16),  -- 4620
    .P (.n 1) (.add (.pv (.n 1)) (.v 0)),  -- 4621
    .V 16 (.ld 32 (.add (.add (.pv (.n 3)) (.v 5)) (.n 3))),  -- 4623
    .st 32 (.pv (.n 1)) (.v 16),  -- 4624
    .V 16 (.ld 32 (.add (.add (.add (.pv (.n 3)) (.v 5)) (.n 3)) (.n 32))),  -- 4625
    .st 32 (.add (.pv (.n 1)) (.n 32)) (.v 16),  -- 4626
    .P (.n 1) (.add (.pv (.n 1)) (.v 0)),  -- 4627
    .I 5 (.add (.v 5) (.n 4))  -- 4580
  ]

/-- `intra_pred_ang_y_32_avx`, vec/intrinsic_intra-pred_avx2.cc:4580. -/
def y32A_12 : Stmt :=
  .loop (.lt (.v 5) (.v 3)) (.seq y32A_10 y32A_11)

/-- `intra_pred_ang_y_32_avx`, vec/intrinsic_intra-pred_avx2.cc:4632. -/
def y32A_13 : Stmt :=
  .run [
    .I 5 (.n 0)  -- 4632
  ]

/-- `intra_pred_ang_y_32_avx`, vec/intrinsic_intra-pred_avx2.cc:4633-4663. -/
def y32A_14 : Stmt :=
  .run [
    .V 16 (.ld 32 (.add (.pv (.n 2)) (.v 5))),  -- 4633
    .st 32 (.pv (.n 1)) (.v 16),  -- 4634
    .P (.n 1) (.add (.pv (.n 1)) (.v 0)),  -- 4635
    .V 16 (.ld 32 (.add (.pv (.n 3)) (.v 5))),  -- 4637
    .st 32 (.pv (.n 1)) (.v 16),  -- 4638
    .P (.n 1) (.add (.pv (.n 1)) (.v 0)),  -- 4639
    .V 16 (.ld 32 (.add (.add (.pv (.n 2)) (.v 5)) (.n 1))),  -- 4641
    .st 32 (.pv (.n 1)) (.v 16),  -- 4642
    .P (.n 1) (.add (.pv (.n 1)) (.v 0)),  -- 4643
    .V 16 (.ld 32 (.add (.add (.pv (.n 3)) (.v 5)) (.n 1))),  -- 4645
    .st 32 (.pv (.n 1)) (.v 16),  -- 4646
    .P (.n 1) (.add (.pv (.n 1)) (.v 0)),  -- 4647
    .V 16 (.ld 32 (.add (.add (.pv (.n 2)) (.v 5)) (.n 2))),  -- 4649
    .st 32 (.pv (.n 1)) (.v 16),  -- 4650
    .P (.n 1) (.add (.pv (.n 1)) (.v 0)),  -- 4651
    .V 16 (.ld 32 (.add (.add (.pv (.n 3)) (.v 5)) (.n 2))),  -- 4653
    .st 32 (.pv (.n 1)) (.v 16),  -- 4654
    .P (.n 1) (.add (.pv (.n 1)) (.v 0)),  -- 4655
    .V 16 (.ld 32 (.add (.add (.pv (.n 2)) (.v 5)) (.n 3))),  -- 4657
    .st 32 (.pv (.n 1)) (.v 16),  -- 4658
    .P (.n 1) (.add (.pv (.n 1)) (.v 0)),  -- 4659
    .V 16 (.ld 32 (.add (.add (.pv (.n 3)) (.v 5)) (.n 3))),  -- 4661
    .st 32 (.pv (.n 1)) (.v 16),  -- 4662
    .P (.n 1) (.add (.pv (.n 1)) (.v 0))  -- 4663
  ]

/-- `intra_pred_ang_y_32_avx`, vec/intrinsic_intra-pred_avx2.cc:4632. -/
def y32A_15 : Stmt :=
  .run [
    .I 5 (.add (.v 5) (.n 4))  -- 4632
  ]

/-- `intra_pred_ang_y_32_avx`, vec/intrinsic_intra-pred_avx2.cc:4632. -/
def y32A_16 : Stmt :=
  .loop (.lt (.v 5) (.v 3)) (.seq y32A_14 y32A_15)

/-- `intra_pred_ang_y_32_avx`, vec/intrinsic_intra-pred_avx2.cc:4666-4667. -/
def y32A_17 : Stmt :=
  .run [
    .V 15 (.mask 16 (.sub (.v 2) (.n 1))),  -- 4666
    .I 5 (.n 0)  -- 4667
  ]

/-- `intra_pred_ang_y_32_avx`, vec/intrinsic_intra-pred_avx2.cc:4668-4694. -/
def y32A_18 : Stmt :=
  .run [
    .V 16 (.ld 32 (.add (.pv (.n 2)) (.v 5))),  -- 4668
    .mst 8 32 (.pv (.n 1)) (.v 15) (.v 16),  -- 4669
    .P (.n 1) (.add (.pv (.n 1)) (.v 0)),  -- 4670
    .V 16 (.ld 32 (.add (.pv (.n 3)) (.v 5))),  -- 4671
    .mst 8 32 (.pv (.n 1)) (.v 15) (.v 16),  -- 4672
    .P (.n 1) (.add (.pv (.n 1)) (.v 0)),  -- 4673
    .V 16 (.ld 32 (.add (.add (.pv (.n 2)) (.v 5)) (.n 1))),  -- 4675
    .mst 8 32 (.pv (.n 1)) (.v 15) (.v 16),  -- 4676
    .P (.n 1) (.add (.pv (.n 1)) (.v 0)),  -- 4677
    .V 16 (.ld 32 (.add (.add (.pv (.n 3)) (.v 5)) (.n 1))),  -- 4678
    .mst 8 32 (.pv (.n 1)) (.v 15) (.v 16),  -- 4679
    .P (.n 1) (.add (.pv (.n 1)) (.v 0)),  -- 4680
    .V 16 (.ld 32 (.add (.add (.pv (.n 2)) (.v 5)) (.n 2))),  -- 4682
    .mst 8 32 (.pv (.n 1)) (.v 15) (.v 16),  -- 4683
    .P (.n 1) (.add (.pv (.n 1)) (.v 0)),  -- 4684
    .V 16 (.ld 32 (.add (.add (.pv (.n 3)) (.v 5)) (.n 2))),  -- 4685
    .mst 8 32 (.pv (.n 1)) (.v 15) (.v 16),  -- 4686
    .P (.n 1) (.add (.pv (.n 1)) (.v 0)),  -- 4687
    .V 16 (.ld 32 (.add (.add (.pv (.n 2)) (.v 5)) (.n 3))),  -- 4689
    .mst 8 32 (.pv (.n 1)) (.v 15) (.v 16),  -- 4690
    .P (.n 1) (.add (.pv (.n 1)) (.v 0)),  -- 4691
    .V 16 (.ld 32 (.add (.add (.pv (.n 3)) (.v 5)) (.n 3))),  -- 4692
    .mst 8 32 (.pv (.n 1)) (.v 15) (.v 16),  -- 4693
    .P (.n 1) (.add (.pv (.n 1)) (.v 0))  -- 4694
  ]

/-- `intra_pred_ang_y_32_avx`, vec/intrinsic_intra-pred_avx2.cc:4667. -/
def y32A_19 : Stmt :=
  .run [
    .I 5 (.add (.v 5) (.n 4))  -- 4667
  ]

/-- `intra_pred_ang_y_32_avx`, vec/intrinsic_intra-pred_avx2.cc:4667. -/
def y32A_20 : Stmt :=
  .loop (.lt (.v 5) (.v 3)) (.seq y32A_18 y32A_19)

/-- `intra_pred_ang_y_32_avx`, vec/intrinsic_intra-pred_avx2.cc:4697-4698. -/
def y32A_21 : Stmt :=
  .run [
    .V 15 (.mask 16 (.sub (.v 2) (.n 1))),  -- 4697
    .I 5 (.n 0)  -- 4698
  ]

/-- `intra_pred_ang_y_32_avx`, vec/intrinsic_intra-pred_avx2.cc:4699-4725. -/
def y32A_22 : Stmt :=
  .run [
    .V 16 (.ld 32 (.add (.pv (.n 2)) (.v 5))),  -- 4699
    .mst 8 32 (.pv (.n 1)) (.v 15) (.v 16),  -- 4700
    .P (.n 1) (.add (.pv (.n 1)) (.v 0)),  -- 4701
    .V 16 (.ld 32 (.add (.pv (.n 3)) (.v 5))),  -- 4702
    .mst 8 32 (.pv (.n 1)) (.v 15) (.v 16),  -- 4703
    .P (.n 1) (.add (.pv (.n 1)) (.v 0)),  -- 4704
    .V 16 (.ld 32 (.add (.add (.pv (.n 2)) (.v 5)) (.n 1))),  -- 4706
    .mst 8 32 (.pv (.n 1)) (.v 15) (.v 16),  -- 4707
    .P (.n 1) (.add (.pv (.n 1)) (.v 0)),  -- 4708
    .V 16 (.ld 32 (.add (.add (.pv (.n 3)) (.v 5)) (.n 1))),  -- 4709
    .mst 8 32 (.pv (.n 1)) (.v 15) (.v 16),  -- 4710
    .P (.n 1) (.add (.pv (.n 1)) (.v 0)),  -- 4711
    .V 16 (.ld 32 (.add (.add (.pv (.n 2)) (.v 5)) (.n 2))),  -- 4713
    .mst 8 32 (.pv (.n 1)) (.v 15) (.v 16),  -- 4714
    .P (.n 1) (.add (.pv (.n 1)) (.v 0)),  -- 4715
    .V 16 (.ld 32 (.add (.add (.pv (.n 3)) (.v 5)) (.n 2))),  -- 4716
    .mst 8 32 (.pv (.n 1)) (.v 15) (.v 16),  -- 4717
    .P (.n 1) (.add (.pv (.n 1)) (.v 0)),  -- 4718
    .V 16 (.ld 32 (.add (.add (.pv (.n 2)) (.v 5)) (.n 3))),  -- 4720
    .mst 8 32 (.pv (.n 1)) (.v 15) (.v 16),  -- 4721
    .P (.n 1) (.add (.pv (.n 1)) (.v 0)),  -- 4722
    .V 16 (.ld 32 (.add (.add (.pv (.n 3)) (.v 5)) (.n 3))),  -- 4723
    .mst 8 32 (.pv (.n 1)) (.v 15) (.v 16),  -- 4724
    .P (.n 1) (.add (.pv (.n 1)) (.v 0))  -- 4725
  ]

/-- `intra_pred_ang_y_32_avx`, vec/intrinsic_intra-pred_avx2.cc:4698. -/
def y32A_23 : Stmt :=
  .run [
    .I 5 (.add (.v 5) (.n 4))  -- 4698
  ]

/-- `intra_pred_ang_y_32_avx`, vec/intrinsic_intra-pred_avx2.cc:4698. -/
def y32A_24 : Stmt :=
  .loop (.lt (.v 5) (.v 3)) (.seq y32A_22 y32A_23)

/-- `intra_pred_ang_y_32_avx`, vec/intrinsic_intra-pred_avx2.cc:4728-4729. -/
def y32A_25 : Stmt :=
  .run [
    .V 15 (.mask 16 (.sub (.v 2) (.n 1))),  -- 4728
    .I 5 (.n 0)  -- 4729
  ]

/-- `intra_pred_ang_y_32_avx`, vec/intrinsic_intra-pred_avx2.cc:4730-4756. -/
def y32A_26 : Stmt :=
  .run [
    .V 16 (.ld 32 (.add (.pv (.n 2)) (.v 5))),  -- 4730
    .mst 4 32 (.pv (.n 1)) (.v 15) (.v 16),  -- 4731
    .P (.n 1) (.add (.pv (.n 1)) (.v 0)),  -- 4732
    .V 16 (.ld 32 (.add (.pv (.n 3)) (.v 5))),  -- 4733
    .mst 4 32 (.pv (.n 1)) (.v 15) (.v 16),  -- 4734
    .P (.n 1) (.add (.pv (.n 1)) (.v 0)),  -- 4735
    .V 16 (.ld 32 (.add (.add (.pv (.n 2)) (.v 5)) (.n 1))),  -- 4737
    .mst 4 32 (.pv (.n 1)) (.v 15) (.v 16),  -- 4738
    .P (.n 1) (.add (.pv (.n 1)) (.v 0)),  -- 4739
    .V 16 (.ld 32 (.add (.add (.pv (.n 3)) (.v 5)) (.n 1))),  -- 4740
    .mst 4 32 (.pv (.n 1)) (.v 15) (.v 16),  -- 4741
    .P (.n 1) (.add (.pv (.n 1)) (.v 0)),  -- 4742
    .V 16 (.ld 32 (.add (.add (.pv (.n 2)) (.v 5)) (.n 2))),  -- 4744
    .mst 4 32 (.pv (.n 1)) (.v 15) (.v 16),  -- 4745
    .P (.n 1) (.add (.pv (.n 1)) (.v 0)),  -- 4746
    .V 16 (.ld 32 (.add (.add (.pv (.n 3)) (.v 5)) (.n 2))),  -- 4747
    .mst 4 32 (.pv (.n 1)) (.v 15) (.v 16),  -- 4748
    .P (.n 1) (.add (.pv (.n 1)) (.v 0)),  -- 4749
    .V 16 (.ld 32 (.add (.add (.pv (.n 2)) (.v 5)) (.n 3))),  -- 4751
    .mst 4 32 (.pv (.n 1)) (.v 15) (.v 16),  -- 4752
    .P (.n 1) (.add (.pv (.n 1)) (.v 0)),  -- 4753
    .V 16 (.ld 32 (.add (.add (.pv (.n 3)) (.v 5)) (.n 3))),  -- 4754
    .mst 4 32 (.pv (.n 1)) (.v 15) (.v 16),  -- 4755
    .P (.n 1) (.add (.pv (.n 1)) (.v 0))  -- 4756
  ]

/-- `intra_pred_ang_y_32_avx`, vec/intrinsic_intra-pred_avx2.cc:4729. -/
def y32A_27 : Stmt :=
  .run [
    .I 5 (.add (.v 5) (.n 4))  -- 4729
  ]

/-- `intra_pred_ang_y_32_avx`, vec/intrinsic_intra-pred_avx2.cc:4729. -/
def y32A_28 : Stmt :=
  .loop (.lt (.v 5) (.v 3)) (.seq y32A_26 y32A_27)

/-- `intra_pred_ang_y_32_avx`, vec/intrinsic_intra-pred_avx2.cc:4696. -/
def y32A_29 : Stmt :=
  .ite (.eq (.v 2) (.n 8)) (.seq y32A_21 y32A_24) (.seq y32A_25 y32A_28)

/-- `intra_pred_ang_y_32_avx`, vec/intrinsic_intra-pred_avx2.cc:4665. -/
def y32A_30 : Stmt :=
  .ite (.eq (.v 2) (.n 16)) (.seq y32A_17 y32A_20) y32A_29

/-- `intra_pred_ang_y_32_avx`, vec/intrinsic_intra-pred_avx2.cc:4630. -/
def y32A_31 : Stmt :=
  .ite (.eq (.v 2) (.n 32)) (.seq y32A_13 y32A_16) y32A_30

/-- `intra_pred_ang_y_32_avx`, vec/intrinsic_intra-pred_avx2.cc:4578. -/
def y32A_32 : Stmt :=
  .ite (.eq (.v 2) (.n 64)) (.seq y32A_9 y32A_12) y32A_31

/-- `intra_pred_ang_y_32_avx`, source/common/vec/intrinsic_intra-pred_avx2.cc:4485-4834.  Variables:
I: 0 i_dst, 1 dir_mode, 2 bsx, 3 bsy, 4 line_size, 5 i, 6 aligned_line_size;
P: 0 src, 1 dst, 2 pfirst;
V: 0 coeff2, 1 shuffle, 2 S0, 3 S1, 4 S2, 5 L0, 6 L1, 7 L2, 8 H0, 9 H1, 10 H2, 11 p00, 12 p01, 13 p10, 14 p11, 15 mask, 16 M. -/
def y32A : Stmt :=
  .seq y32A_1 (.seq y32A_4 (.seq y32A_5 (.seq y32A_7 (.seq y32A_8 y32A_32))))

end Davs2.Vp
