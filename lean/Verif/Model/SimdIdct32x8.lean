import Verif.Model.SimdProg
/-
Vector versions (SSE) of the inverse transforms of blocks of 32 x 8 and 8 x 32, source/common/vec/intrinsic_idct.cc.

The statements of the functions in the order of the text; loops with `rep`.  The numbers of the registers are given
at the head of each function.  Produced from the text of the functions by replacing each variable by its number and each intrinsic by its name
in Model/SimdProg.lean.
-/
namespace Davs2.Si

/-! ### `idct_32x8_sse128`

Registers: 0-3 m128iS0, 4-7 m128iS1, 8-11 m128iS2, 12-15 m128iS3, 16-19 m128iS4, 20-23 m128iS5, 24-27 m128iS6, 28-31 m128iS7, 32
m128iAdd, 33 m128Tmp0, 34 m128Tmp1, 35 m128Tmp2, 36 m128Tmp3, 37 E0h, 38 E1h, 39 E2h, 40 E3h, 41 E0l, 42 E1l, 43 E2l, 44 E3l, 45
O0h, 46 O1h, 47 O2h, 48 O3h, 49 O0l, 50 O1l, 51 O2l, 52 O3l, 53 EE0l, 54 EE1l, 55 E00l, 56 E01l, 57 EE0h, 58 EE1h, 59 E00h, 60
E01h, 61 c16_p45_p45, 62 c16_p43_p44, 63 c16_p39_p41, 64 c16_p34_p36, 65 c16_p27_p30, 66 c16_p19_p23, 67 c16_p11_p15, 68
c16_p02_p07, 69 c16_p41_p45, 70 c16_p23_p34, 71 c16_n02_p11, 72 c16_n27_n15, 73 c16_n43_n36, 74 c16_n44_n45, 75 c16_n30_n39, 76
c16_n07_n19, 77 c16_p34_p44, 78 c16_n07_p15, 79 c16_n41_n27, 80 c16_n39_n45, 81 c16_n02_n23, 82 c16_p36_p19, 83 c16_p43_p45, 84
c16_p11_p30, 85 c16_p23_p43, 86 c16_n34_n07, 87 c16_n36_n45, 88 c16_p19_n11, 89 c16_p44_p41, 90 c16_n02_p27, 91 c16_n45_n30, 92
c16_n15_n39, 93 c16_p11_p41, 94 c16_n45_n27, 95 c16_p07_n30, 96 c16_p43_p39, 97 c16_n23_p15, 98 c16_n34_n45, 99 c16_p36_p02, 100
c16_p19_p44, 101 c16_n02_p39, 102 c16_n36_n41, 103 c16_p43_p07, 104 c16_n11_p34, 105 c16_n30_n44, 106 c16_p45_p15, 107
c16_n19_p27, 108 c16_n23_n45, 109 c16_n15_p36, 110 c16_n11_n45, 111 c16_p34_p39, 112 c16_n45_n19, 113 c16_p41_n07, 114
c16_n23_p30, 115 c16_n02_n44, 116 c16_p27_p43, 117 c16_n27_p34, 118 c16_p19_n39, 119 c16_n11_p43, 120 c16_p02_n45, 121
c16_p07_p45, 122 c16_n15_n44, 123 c16_p23_p41, 124 c16_n30_n36, 125 c16_n36_p30, 126 c16_p41_n23, 127 c16_n44_p15, 128
c16_p45_n07, 129 c16_n45_n02, 130 c16_p43_p11, 131 c16_n39_n19, 132 c16_p34_p27, 133 c16_n43_p27, 134 c16_p44_n02, 135
c16_n30_n23, 136 c16_p07_p41, 137 c16_p19_n45, 138 c16_n39_p34, 139 c16_p45_n11, 140 c16_n36_n15, 141 c16_n45_p23, 142
c16_p27_p19, 143 c16_p15_n45, 144 c16_n44_p30, 145 c16_p34_p11, 146 c16_p07_n43, 147 c16_n41_p36, 148 c16_p39_p02, 149
c16_n44_p19, 150 c16_n02_p36, 151 c16_p45_n34, 152 c16_n15_n23, 153 c16_n39_p43, 154 c16_p30_p07, 155 c16_p27_n45, 156
c16_n41_p11, 157 c16_n39_p15, 158 c16_n30_p45, 159 c16_p27_p02, 160 c16_p41_n44, 161 c16_n11_n19, 162 c16_n45_p36, 163
c16_n07_p34, 164 c16_p43_n23, 165 c16_n30_p11, 166 c16_n45_p43, 167 c16_n19_p36, 168 c16_p23_n02, 169 c16_p45_n39, 170
c16_p27_n41, 171 c16_n15_n07, 172 c16_n44_p34, 173 c16_n19_p07, 174 c16_n39_p30, 175 c16_n45_p44, 176 c16_n36_p43, 177
c16_n15_p27, 178 c16_p11_p02, 179 c16_p34_n23, 180 c16_p45_n41, 181 c16_n07_p02, 182 c16_n15_p11, 183 c16_n23_p19, 184
c16_n30_p27, 185 c16_n36_p34, 186 c16_n41_p39, 187 c16_n44_p43, 188 c16_n45_p45, 189 c16_p35_p40, 190 c16_p21_p29, 191
c16_p04_p13, 192 c16_p29_p43, 193 c16_n21_p04, 194 c16_n45_n40, 195 c16_n13_n35, 196 c16_p04_p40, 197 c16_n43_n35, 198
c16_p29_n13, 199 c16_p21_p45, 200 c16_n21_p35, 201 c16_p04_n43, 202 c16_p13_p45, 203 c16_n29_n40, 204 c16_n40_p29, 205
c16_p45_n13, 206 c16_n43_n04, 207 c16_p35_p21, 208 c16_n45_p21, 209 c16_p13_p29, 210 c16_p35_n43, 211 c16_n40_p04, 212
c16_n35_p13, 213 c16_n40_p45, 214 c16_p04_p21, 215 c16_p43_n29, 216 c16_n13_p04, 217 c16_n29_p21, 218 c16_n40_p35, 219
c16_p38_p44, 220 c16_p09_p25, 221 c16_n09_p38, 222 c16_n25_n44, 223 c16_n44_p25, 224 c16_p38_p09, 225 c16_n25_p09, 226
c16_n44_p38, 227 c16_p17_p42, 228 c16_n42_p17, 229 c16_p32_p32, 230 c16_n32_p32, 231 c32_rnd, 232-235 res00, 236-239 res01,
240-243 res02, 244-247 res03, 248-251 res04, 252-255 res05, 256-259 res06, 260-263 res07, 264-267 res08, 268-271 res09, 272-275
res10, 276-279 res11, 280-283 res12, 284-287 res13, 288-291 res14, 292-295 res15, 296-299 res16, 300-303 res17, 304-307 res18,
308-311 res19, 312-315 res20, 316-319 res21, 320-323 res22, 324-327 res23, 328-331 res24, 332-335 res25, 336-339 res26, 340-343
res27, 344-347 res28, 348-351 res29, 352-355 res30, 356-359 res31, 360 T_00_00A, 361 T_00_00B, 362 T_00_01A, 363 T_00_01B, 364
T_00_02A, 365 T_00_02B, 366 T_00_03A, 367 T_00_03B, 368 T_00_04A, 369 T_00_04B, 370 T_00_05A, 371 T_00_05B, 372 T_00_06A, 373
T_00_06B, 374 T_00_07A, 375 T_00_07B, 376 T_00_08A, 377 T_00_08B, 378 T_00_09A, 379 T_00_09B, 380 T_00_10A, 381 T_00_10B, 382
T_00_11A, 383 T_00_11B, 384 T_00_12A, 385 T_00_12B, 386 T_00_13A, 387 T_00_13B, 388 T_00_14A, 389 T_00_14B, 390 T_00_15A, 391
T_00_15B, 392 O00A, 393 O01A, 394 O02A, 395 O03A, 396 O04A, 397 O05A, 398 O06A, 399 O07A, 400 O08A, 401 O09A, 402 O10A, 403 O11A,
404 O12A, 405 O13A, 406 O14A, 407 O15A, 408 O00B, 409 O01B, 410 O02B, 411 O03B, 412 O04B, 413 O05B, 414 O06B, 415 O07B, 416 O08B,
417 O09B, 418 O10B, 419 O11B, 420 O12B, 421 O13B, 422 O14B, 423 O15B, 424 EO0A, 425 EO1A, 426 EO2A, 427 EO3A, 428 EO4A, 429 EO5A,
430 EO6A, 431 EO7A, 432 EO0B, 433 EO1B, 434 EO2B, 435 EO3B, 436 EO4B, 437 EO5B, 438 EO6B, 439 EO7B, 440 T00, 441 T01, 442 T02, 443
T03, 444 EEO0A, 445 EEO1A, 446 EEO2A, 447 EEO3A, 448 EEO0B, 449 EEO1B, 450 EEO2B, 451 EEO3B, 452 EEEO0A, 453 EEEO0B, 454 EEEO1A,
455 EEEO1B, 456 EEEE0A, 457 EEEE0B, 458 EEEE1A, 459 EEEE1B, 460 EEE0A, 461 EEE0B, 462 EEE1A, 463 EEE1B, 464 EEE3A, 465 EEE3B, 466
EEE2A, 467 EEE2B, 468 EE0A, 469 EE0B, 470 EE1A, 471 EE1B, 472 EE2A, 473 EE2B, 474 EE3A, 475 EE3B, 476 EE7A, 477 EE7B, 478 EE6A,
479 EE6B, 480 EE5A, 481 EE5B, 482 EE4A, 483 EE4B, 484 E0A, 485 E0B, 486 E1A, 487 E1B, 488 E2A, 489 E2B, 490 E3A, 491 E3B, 492 E4A,
493 E4B, 494 E5A, 495 E5B, 496 E6A, 497 E6B, 498 E7A, 499 E7B, 500 EFA, 501 EFB, 502 EEA, 503 EEB, 504 EDA, 505 EDB, 506 ECA, 507
ECB, 508 EBA, 509 EBB, 510 EAA, 511 EAB, 512 E9A, 513 E9B, 514 E8A, 515 E8B, 516 T10A, 517 T10B, 518 T11A, 519 T11B, 520 T12A, 521
T12B, 522 T13A, 523 T13B, 524 T14A, 525 T14B, 526 T15A, 527 T15B, 528 T16A, 529 T16B, 530 T17A, 531 T17B, 532 T18A, 533 T18B, 534
T19A, 535 T19B, 536 T1AA, 537 T1AB, 538 T1BA, 539 T1BB, 540 T1CA, 541 T1CB, 542 T1DA, 543 T1DB, 544 T1EA, 545 T1EB, 546 T1FA, 547
T1FB, 548 T2_00A, 549 T2_00B, 550 T2_01A, 551 T2_01B, 552 T2_02A, 553 T2_02B, 554 T2_03A, 555 T2_03B, 556 T2_04A, 557 T2_04B, 558
T2_05A, 559 T2_05B, 560 T2_06A, 561 T2_06B, 562 T2_07A, 563 T2_07B, 564 T2_08A, 565 T2_08B, 566 T2_09A, 567 T2_09B, 568 T2_10A,
569 T2_10B, 570 T2_11A, 571 T2_11B, 572 T2_12A, 573 T2_12B, 574 T2_13A, 575 T2_13B, 576 T2_14A, 577 T2_14B, 578 T2_15A, 579
T2_15B, 580 T2_31A, 581 T2_31B, 582 T2_30A, 583 T2_30B, 584 T2_29A, 585 T2_29B, 586 T2_28A, 587 T2_28B, 588 T2_27A, 589 T2_27B,
590 T2_26A, 591 T2_26B, 592 T2_25A, 593 T2_25B, 594 T2_24A, 595 T2_24B, 596 T2_23A, 597 T2_23B, 598 T2_22A, 599 T2_22B, 600
T2_21A, 601 T2_21B, 602 T2_20A, 603 T2_20B, 604 T2_19A, 605 T2_19B, 606 T2_18A, 607 T2_18B, 608 T2_17A, 609 T2_17B, 610 T2_16A,
611 T2_16B, 612 T3_00A, 613 T3_00B, 614 T3_01A, 615 T3_01B, 616 T3_02A, 617 T3_02B, 618 T3_03A, 619 T3_03B, 620 T3_04A, 621
T3_04B, 622 T3_05A, 623 T3_05B, 624 T3_06A, 625 T3_06B, 626 T3_07A, 627 T3_07B, 628 T3_08A, 629 T3_08B, 630 T3_09A, 631 T3_09B,
632 T3_10A, 633 T3_10B, 634 T3_11A, 635 T3_11B, 636 T3_12A, 637 T3_12B, 638 T3_13A, 639 T3_13B, 640 T3_14A, 641 T3_14B, 642
T3_15A, 643 T3_15B, 644 T3_16A, 645 T3_16B, 646 T3_17A, 647 T3_17B, 648 T3_18A, 649 T3_18B, 650 T3_19A, 651 T3_19B, 652 T3_20A,
653 T3_20B, 654 T3_21A, 655 T3_21B, 656 T3_22A, 657 T3_22B, 658 T3_23A, 659 T3_23B, 660 T3_24A, 661 T3_24B, 662 T3_25A, 663
T3_25B, 664 T3_26A, 665 T3_26B, 666 T3_27A, 667 T3_27B, 668 T3_28A, 669 T3_28B, 670 T3_29A, 671 T3_29B, 672 T3_30A, 673 T3_30B,
674 T3_31A, 675 T3_31B, 676 tr0_0, 677 tr0_1, 678 tr0_2, 679 tr0_3, 680 tr0_4, 681 tr0_5, 682 tr0_6, 683 tr0_7, 684 tr1_0, 685
tr1_1, 686 tr1_2, 687 tr1_3, 688 tr1_4, 689 tr1_5, 690 tr1_6, 691 tr1_7, 692 max_val, 693 min_val. -/


/-- source/common/vec/intrinsic_idct.cc:5227-5227. -/
def idct_32x8_1 : List S := [
  .set 32 (.k32 16)]

/-- source/common/vec/intrinsic_idct.cc:5230-5329. -/
def idct_32x8_2 (pass : Nat) : List S := [
  .set (4 + pass) (.ld 8 (32 + 8 * pass)),
  .set (12 + pass) (.ld 8 (96 + 8 * pass)),
  .set 33 (.op .lo16 (.r (4 + pass)) (.r (12 + pass))),
  .set 42 (.op .madd (.r 33) (.kk 44 38)),
  .set 34 (.op .hi16 (.r (4 + pass)) (.r (12 + pass))),
  .set 38 (.op .madd (.r 34) (.kk 44 38)),
  .set (20 + pass) (.ld 8 (160 + 8 * pass)),
  .set (28 + pass) (.ld 8 (224 + 8 * pass)),
  .set 35 (.op .lo16 (.r (20 + pass)) (.r (28 + pass))),
  .set 43 (.op .madd (.r 35) (.kk 25 9)),
  .set 36 (.op .hi16 (.r (20 + pass)) (.r (28 + pass))),
  .set 39 (.op .madd (.r 36) (.kk 25 9)),
  .set 49 (.op .add32 (.r 42) (.r 43)),
  .set 45 (.op .add32 (.r 38) (.r 39)),
  .set 42 (.op .madd (.r 33) (.kk 38 (-9))),
  .set 38 (.op .madd (.r 34) (.kk 38 (-9))),
  .set 43 (.op .madd (.r 35) (.kk (-44) (-25))),
  .set 39 (.op .madd (.r 36) (.kk (-44) (-25))),
  .set 50 (.op .add32 (.r 42) (.r 43)),
  .set 46 (.op .add32 (.r 38) (.r 39)),
  .set 42 (.op .madd (.r 33) (.kk 25 (-44))),
  .set 38 (.op .madd (.r 34) (.kk 25 (-44))),
  .set 43 (.op .madd (.r 35) (.kk 9 38)),
  .set 39 (.op .madd (.r 36) (.kk 9 38)),
  .set 51 (.op .add32 (.r 42) (.r 43)),
  .set 47 (.op .add32 (.r 38) (.r 39)),
  .set 42 (.op .madd (.r 33) (.kk 9 (-25))),
  .set 38 (.op .madd (.r 34) (.kk 9 (-25))),
  .set 43 (.op .madd (.r 35) (.kk 38 (-44))),
  .set 39 (.op .madd (.r 36) (.kk 38 (-44))),
  .set 48 (.op .add32 (.r 38) (.r 39)),
  .set 52 (.op .add32 (.r 42) (.r 43)),
  .set pass (.ld 8 (8 * pass)),
  .set (16 + pass) (.ld 8 (128 + 8 * pass)),
  .set 33 (.op .lo16 (.r pass) (.r (16 + pass))),
  .set 53 (.op .madd (.r 33) (.kk 32 32)),
  .set 34 (.op .hi16 (.r pass) (.r (16 + pass))),
  .set 57 (.op .madd (.r 34) (.kk 32 32)),
  .set 54 (.op .madd (.r 33) (.kk 32 (-32))),
  .set 58 (.op .madd (.r 34) (.kk 32 (-32))),
  .set (8 + pass) (.ld 8 (64 + 8 * pass)),
  .set (24 + pass) (.ld 8 (192 + 8 * pass)),
  .set 33 (.op .lo16 (.r (8 + pass)) (.r (24 + pass))),
  .set 55 (.op .madd (.r 33) (.kk 42 17)),
  .set 34 (.op .hi16 (.r (8 + pass)) (.r (24 + pass))),
  .set 59 (.op .madd (.r 34) (.kk 42 17)),
  .set 56 (.op .madd (.r 33) (.kk 17 (-42))),
  .set 60 (.op .madd (.r 34) (.kk 17 (-42))),
  .set 41 (.op .add32 (.r 53) (.r 55)),
  .set 41 (.op .add32 (.r 41) (.r 32)),
  .set 37 (.op .add32 (.r 57) (.r 59)),
  .set 37 (.op .add32 (.r 37) (.r 32)),
  .set 44 (.op .sub32 (.r 53) (.r 55)),
  .set 44 (.op .add32 (.r 44) (.r 32)),
  .set 40 (.op .sub32 (.r 57) (.r 59)),
  .set 40 (.op .add32 (.r 40) (.r 32)),
  .set 42 (.op .add32 (.r 54) (.r 56)),
  .set 42 (.op .add32 (.r 42) (.r 32)),
  .set 38 (.op .add32 (.r 58) (.r 60)),
  .set 38 (.op .add32 (.r 38) (.r 32)),
  .set 43 (.op .sub32 (.r 54) (.r 56)),
  .set 43 (.op .add32 (.r 43) (.r 32)),
  .set 39 (.op .sub32 (.r 58) (.r 60)),
  .set 39 (.op .add32 (.r 39) (.r 32)),
  .set pass (.op .packs (.sra32 (.op .add32 (.r 41) (.r 49)) 5) (.sra32 (.op .add32 (.r 37) (.r 45)) 5)),
  .set (28 + pass) (.op .packs (.sra32 (.op .sub32 (.r 41) (.r 49)) 5) (.sra32 (.op .sub32 (.r 37) (.r 45)) 5)),
  .set (4 + pass) (.op .packs (.sra32 (.op .add32 (.r 42) (.r 50)) 5) (.sra32 (.op .add32 (.r 38) (.r 46)) 5)),
  .set (24 + pass) (.op .packs (.sra32 (.op .sub32 (.r 42) (.r 50)) 5) (.sra32 (.op .sub32 (.r 38) (.r 46)) 5)),
  .set (8 + pass) (.op .packs (.sra32 (.op .add32 (.r 43) (.r 51)) 5) (.sra32 (.op .add32 (.r 39) (.r 47)) 5)),
  .set (20 + pass) (.op .packs (.sra32 (.op .sub32 (.r 43) (.r 51)) 5) (.sra32 (.op .sub32 (.r 39) (.r 47)) 5)),
  .set (12 + pass) (.op .packs (.sra32 (.op .add32 (.r 44) (.r 52)) 5) (.sra32 (.op .add32 (.r 40) (.r 48)) 5)),
  .set (16 + pass) (.op .packs (.sra32 (.op .sub32 (.r 44) (.r 52)) 5) (.sra32 (.op .sub32 (.r 40) (.r 48)) 5)),
  .set 41 (.op .lo16 (.r pass) (.r (16 + pass))),
  .set 42 (.op .lo16 (.r (4 + pass)) (.r (20 + pass))),
  .set 43 (.op .lo16 (.r (8 + pass)) (.r (24 + pass))),
  .set 44 (.op .lo16 (.r (12 + pass)) (.r (28 + pass))),
  .set 49 (.op .hi16 (.r pass) (.r (16 + pass))),
  .set 50 (.op .hi16 (.r (4 + pass)) (.r (20 + pass))),
  .set 51 (.op .hi16 (.r (8 + pass)) (.r (24 + pass))),
  .set 52 (.op .hi16 (.r (12 + pass)) (.r (28 + pass)))]

/-- source/common/vec/intrinsic_idct.cc:5330-5345. -/
def idct_32x8_3 (pass : Nat) : List S := [
  .set 33 (.op .lo16 (.r 41) (.r 43)),
  .set 34 (.op .lo16 (.r 42) (.r 44)),
  .set pass (.op .lo16 (.r 33) (.r 34)),
  .set (4 + pass) (.op .hi16 (.r 33) (.r 34)),
  .set 35 (.op .hi16 (.r 41) (.r 43)),
  .set 36 (.op .hi16 (.r 42) (.r 44)),
  .set (8 + pass) (.op .lo16 (.r 35) (.r 36)),
  .set (12 + pass) (.op .hi16 (.r 35) (.r 36)),
  .set 33 (.op .lo16 (.r 49) (.r 51)),
  .set 34 (.op .lo16 (.r 50) (.r 52)),
  .set (16 + pass) (.op .lo16 (.r 33) (.r 34)),
  .set (20 + pass) (.op .hi16 (.r 33) (.r 34)),
  .set 35 (.op .hi16 (.r 49) (.r 51)),
  .set 36 (.op .hi16 (.r 50) (.r 52)),
  .set (24 + pass) (.op .lo16 (.r 35) (.r 36)),
  .set (28 + pass) (.op .hi16 (.r 35) (.r 36))]

/-- source/common/vec/intrinsic_idct.cc:5349-5428. -/
def idct_32x8_4 : List S := [
  .set 61 (.k32 0x002d002d),
  .set 62 (.k32 0x002b002c),
  .set 63 (.k32 0x00270029),
  .set 64 (.k32 0x00220024),
  .set 65 (.k32 0x001b001e),
  .set 66 (.k32 0x00130017),
  .set 67 (.k32 0x000b000f),
  .set 68 (.k32 0x00020007),
  .set 69 (.k32 0x0029002d),
  .set 70 (.k32 0x00170022),
  .set 71 (.k32 0xfffe000b),
  .set 72 (.k32 0xffe5fff1),
  .set 73 (.k32 0xffd5ffdc),
  .set 74 (.k32 0xffd4ffd3),
  .set 75 (.k32 0xffe2ffd9),
  .set 76 (.k32 0xfff9ffed),
  .set 77 (.k32 0x0022002c),
  .set 78 (.k32 0xfff9000f),
  .set 79 (.k32 0xffd7ffe5),
  .set 80 (.k32 0xffd9ffd3),
  .set 81 (.k32 0xfffeffe9),
  .set 82 (.k32 0x00240013),
  .set 83 (.k32 0x002b002d),
  .set 84 (.k32 0x000b001e),
  .set 85 (.k32 0x0017002b),
  .set 86 (.k32 0xffdefff9),
  .set 87 (.k32 0xffdcffd3),
  .set 88 (.k32 0x0013fff5),
  .set 89 (.k32 0x002c0029),
  .set 90 (.k32 0xfffe001b),
  .set 91 (.k32 0xffd3ffe2),
  .set 92 (.k32 0xfff1ffd9),
  .set 93 (.k32 0x000b0029),
  .set 94 (.k32 0xffd3ffe5),
  .set 95 (.k32 0x0007ffe2),
  .set 96 (.k32 0x002b0027),
  .set 97 (.k32 0xffe9000f),
  .set 98 (.k32 0xffdeffd3),
  .set 99 (.k32 0x00240002),
  .set 100 (.k32 0x0013002c),
  .set 101 (.k32 0xfffe0027),
  .set 102 (.k32 0xffdcffd7),
  .set 103 (.k32 0x002b0007),
  .set 104 (.k32 0xfff50022),
  .set 105 (.k32 0xffe2ffd4),
  .set 106 (.k32 0x002d000f),
  .set 107 (.k32 0xffed001b),
  .set 108 (.k32 0xffe9ffd3),
  .set 109 (.k32 0xfff10024),
  .set 110 (.k32 0xfff5ffd3),
  .set 111 (.k32 0x00220027),
  .set 112 (.k32 0xffd3ffed),
  .set 113 (.k32 0x0029fff9),
  .set 114 (.k32 0xffe9001e),
  .set 115 (.k32 0xfffeffd4),
  .set 116 (.k32 0x001b002b),
  .set 117 (.k32 0xffe50022),
  .set 118 (.k32 0x0013ffd9),
  .set 119 (.k32 0xfff5002b),
  .set 120 (.k32 0x0002ffd3),
  .set 121 (.k32 0x0007002d),
  .set 122 (.k32 0xfff1ffd4),
  .set 123 (.k32 0x00170029),
  .set 124 (.k32 0xffe2ffdc),
  .set 125 (.k32 0xffdc001e),
  .set 126 (.k32 0x0029ffe9),
  .set 127 (.k32 0xffd4000f),
  .set 128 (.k32 0x002dfff9),
  .set 129 (.k32 0xffd3fffe),
  .set 130 (.k32 0x002b000b),
  .set 131 (.k32 0xffd9ffed),
  .set 132 (.k32 0x0022001b),
  .set 133 (.k32 0xffd5001b),
  .set 134 (.k32 0x002cfffe),
  .set 135 (.k32 0xffe2ffe9),
  .set 136 (.k32 0x00070029),
  .set 137 (.k32 0x0013ffd3),
  .set 138 (.k32 0xffd90022),
  .set 139 (.k32 0x002dfff5),
  .set 140 (.k32 0xffdcfff1)]

/-- source/common/vec/intrinsic_idct.cc:5429-5512. -/
def idct_32x8_5 : List S := [
  .set 141 (.k32 0xffd30017),
  .set 142 (.k32 0x001b0013),
  .set 143 (.k32 0x000fffd3),
  .set 144 (.k32 0xffd4001e),
  .set 145 (.k32 0x0022000b),
  .set 146 (.k32 0x0007ffd5),
  .set 147 (.k32 0xffd70024),
  .set 148 (.k32 0x00270002),
  .set 149 (.k32 0xffd40013),
  .set 150 (.k32 0xfffe0024),
  .set 151 (.k32 0x002dffde),
  .set 152 (.k32 0xfff1ffe9),
  .set 153 (.k32 0xffd9002b),
  .set 154 (.k32 0x001e0007),
  .set 155 (.k32 0x001bffd3),
  .set 156 (.k32 0xffd7000b),
  .set 157 (.k32 0xffd9000f),
  .set 158 (.k32 0xffe2002d),
  .set 159 (.k32 0x001b0002),
  .set 160 (.k32 0x0029ffd4),
  .set 161 (.k32 0xfff5ffed),
  .set 162 (.k32 0xffd30024),
  .set 163 (.k32 0xfff90022),
  .set 164 (.k32 0x002bffe9),
  .set 165 (.k32 0xffe2000b),
  .set 166 (.k32 0xffd3002b),
  .set 167 (.k32 0xffed0024),
  .set 168 (.k32 0x0017fffe),
  .set 169 (.k32 0x002dffd9),
  .set 170 (.k32 0x001bffd7),
  .set 171 (.k32 0xfff1fff9),
  .set 172 (.k32 0xffd40022),
  .set 173 (.k32 0xffed0007),
  .set 174 (.k32 0xffd9001e),
  .set 175 (.k32 0xffd3002c),
  .set 176 (.k32 0xffdc002b),
  .set 177 (.k32 0xfff1001b),
  .set 178 (.k32 0x000b0002),
  .set 179 (.k32 0x0022ffe9),
  .set 180 (.k32 0x002dffd7),
  .set 181 (.k32 0xfff90002),
  .set 182 (.k32 0xfff1000b),
  .set 183 (.k32 0xffe90013),
  .set 184 (.k32 0xffe2001b),
  .set 185 (.k32 0xffdc0022),
  .set 186 (.k32 0xffd70027),
  .set 187 (.k32 0xffd4002b),
  .set 188 (.k32 0xffd3002d),
  .set 189 (.k32 0x00230028),
  .set 190 (.k32 0x0015001d),
  .set 191 (.k32 0x0004000d),
  .set 192 (.k32 0x001d002b),
  .set 193 (.k32 0xffeb0004),
  .set 194 (.k32 0xffd3ffd8),
  .set 195 (.k32 0xfff3ffdd),
  .set 196 (.k32 0x00040028),
  .set 197 (.k32 0xffd5ffdd),
  .set 198 (.k32 0x001dfff3),
  .set 199 (.k32 0x0015002d),
  .set 200 (.k32 0xffeb0023),
  .set 201 (.k32 0x0004ffd5),
  .set 202 (.k32 0x000d002d),
  .set 203 (.k32 0xffe3ffd8),
  .set 204 (.k32 0xffd8001d),
  .set 205 (.k32 0x002dfff3),
  .set 206 (.k32 0xffd5fffc),
  .set 207 (.k32 0x00230015),
  .set 208 (.k32 0xffd30015),
  .set 209 (.k32 0x000d001d),
  .set 210 (.k32 0x0023ffd5),
  .set 211 (.k32 0xffd80004),
  .set 212 (.k32 0xffdd000d),
  .set 213 (.k32 0xffd8002d),
  .set 214 (.k32 0x00040015),
  .set 215 (.k32 0x002bffe3),
  .set 216 (.k32 0xfff30004),
  .set 217 (.k32 0xffe30015),
  .set 218 (.k32 0xffd80023),
  .set 219 (.k32 0x0026002c),
  .set 220 (.k32 0x00090019)]

/-- source/common/vec/intrinsic_idct.cc:5513-5599. -/
def idct_32x8_6 (wl : Nat) : List S := [
  .set 221 (.k32 0xfff70026),
  .set 222 (.k32 0xffe7ffd4),
  .set 223 (.k32 0xffd40019),
  .set 224 (.k32 0x00260009),
  .set 225 (.k32 0xffe70009),
  .set 226 (.k32 0xffd40026),
  .set 227 (.k32 0x0011002a),
  .set 228 (.k32 0xffd60011),
  .set 229 (.k32 0x00200020),
  .set 230 (.k32 0xffe00020),
  .set 231 (.k32 (2 ^ (11 - wl))),
  .set 360 (.op .lo16 (.r 4) (.r 12)),
  .set 361 (.op .hi16 (.r 4) (.r 12)),
  .set 362 (.op .lo16 (.r 20) (.r 28)),
  .set 363 (.op .hi16 (.r 20) (.r 28)),
  .set 364 (.op .lo16 (.r 5) (.r 13)),
  .set 365 (.op .hi16 (.r 5) (.r 13)),
  .set 366 (.op .lo16 (.r 21) (.r 29)),
  .set 367 (.op .hi16 (.r 21) (.r 29)),
  .set 368 (.op .lo16 (.r 6) (.r 14)),
  .set 369 (.op .hi16 (.r 6) (.r 14)),
  .set 370 (.op .lo16 (.r 22) (.r 30)),
  .set 371 (.op .hi16 (.r 22) (.r 30)),
  .set 372 (.op .lo16 (.r 7) (.r 15)),
  .set 373 (.op .hi16 (.r 7) (.r 15)),
  .set 374 (.op .lo16 (.r 23) (.r 31)),
  .set 375 (.op .hi16 (.r 23) (.r 31)),
  .set 376 (.op .lo16 (.r 8) (.r 24)),
  .set 377 (.op .hi16 (.r 8) (.r 24)),
  .set 378 (.op .lo16 (.r 9) (.r 25)),
  .set 379 (.op .hi16 (.r 9) (.r 25)),
  .set 380 (.op .lo16 (.r 10) (.r 26)),
  .set 381 (.op .hi16 (.r 10) (.r 26)),
  .set 382 (.op .lo16 (.r 11) (.r 27)),
  .set 383 (.op .hi16 (.r 11) (.r 27)),
  .set 384 (.op .lo16 (.r 16) (.r 17)),
  .set 385 (.op .hi16 (.r 16) (.r 17)),
  .set 386 (.op .lo16 (.r 18) (.r 19)),
  .set 387 (.op .hi16 (.r 18) (.r 19)),
  .set 388 (.op .lo16 (.r 1) (.r 3)),
  .set 389 (.op .hi16 (.r 1) (.r 3)),
  .set 390 (.op .lo16 (.r 0) (.r 2)),
  .set 391 (.op .hi16 (.r 0) (.r 2)),
  .set 440 (.op .add32 (.op .madd (.r 360) (.r 61)) (.op .madd (.r 362) (.r 62))),
  .set 441 (.op .add32 (.op .madd (.r 364) (.r 63)) (.op .madd (.r 366) (.r 64))),
  .set 442 (.op .add32 (.op .madd (.r 368) (.r 65)) (.op .madd (.r 370) (.r 66))),
  .set 443 (.op .add32 (.op .madd (.r 372) (.r 67)) (.op .madd (.r 374) (.r 68))),
  .set 392 (.op .add32 (.op .add32 (.r 440) (.r 441)) (.op .add32 (.r 442) (.r 443))),
  .set 440 (.op .add32 (.op .madd (.r 360) (.r 69)) (.op .madd (.r 362) (.r 70))),
  .set 441 (.op .add32 (.op .madd (.r 364) (.r 71)) (.op .madd (.r 366) (.r 72))),
  .set 442 (.op .add32 (.op .madd (.r 368) (.r 73)) (.op .madd (.r 370) (.r 74))),
  .set 443 (.op .add32 (.op .madd (.r 372) (.r 75)) (.op .madd (.r 374) (.r 76))),
  .set 393 (.op .add32 (.op .add32 (.r 440) (.r 441)) (.op .add32 (.r 442) (.r 443))),
  .set 440 (.op .add32 (.op .madd (.r 360) (.r 77)) (.op .madd (.r 362) (.r 78))),
  .set 441 (.op .add32 (.op .madd (.r 364) (.r 79)) (.op .madd (.r 366) (.r 80))),
  .set 442 (.op .add32 (.op .madd (.r 368) (.r 81)) (.op .madd (.r 370) (.r 82))),
  .set 443 (.op .add32 (.op .madd (.r 372) (.r 83)) (.op .madd (.r 374) (.r 84))),
  .set 394 (.op .add32 (.op .add32 (.r 440) (.r 441)) (.op .add32 (.r 442) (.r 443))),
  .set 440 (.op .add32 (.op .madd (.r 360) (.r 85)) (.op .madd (.r 362) (.r 86))),
  .set 441 (.op .add32 (.op .madd (.r 364) (.r 87)) (.op .madd (.r 366) (.r 88))),
  .set 442 (.op .add32 (.op .madd (.r 368) (.r 89)) (.op .madd (.r 370) (.r 90))),
  .set 443 (.op .add32 (.op .madd (.r 372) (.r 91)) (.op .madd (.r 374) (.r 92))),
  .set 395 (.op .add32 (.op .add32 (.r 440) (.r 441)) (.op .add32 (.r 442) (.r 443))),
  .set 440 (.op .add32 (.op .madd (.r 360) (.r 93)) (.op .madd (.r 362) (.r 94))),
  .set 441 (.op .add32 (.op .madd (.r 364) (.r 95)) (.op .madd (.r 366) (.r 96))),
  .set 442 (.op .add32 (.op .madd (.r 368) (.r 97)) (.op .madd (.r 370) (.r 98))),
  .set 443 (.op .add32 (.op .madd (.r 372) (.r 99)) (.op .madd (.r 374) (.r 100))),
  .set 396 (.op .add32 (.op .add32 (.r 440) (.r 441)) (.op .add32 (.r 442) (.r 443))),
  .set 440 (.op .add32 (.op .madd (.r 360) (.r 101)) (.op .madd (.r 362) (.r 102))),
  .set 441 (.op .add32 (.op .madd (.r 364) (.r 103)) (.op .madd (.r 366) (.r 104))),
  .set 442 (.op .add32 (.op .madd (.r 368) (.r 105)) (.op .madd (.r 370) (.r 106))),
  .set 443 (.op .add32 (.op .madd (.r 372) (.r 107)) (.op .madd (.r 374) (.r 108))),
  .set 397 (.op .add32 (.op .add32 (.r 440) (.r 441)) (.op .add32 (.r 442) (.r 443))),
  .set 440 (.op .add32 (.op .madd (.r 360) (.r 109)) (.op .madd (.r 362) (.r 110))),
  .set 441 (.op .add32 (.op .madd (.r 364) (.r 111)) (.op .madd (.r 366) (.r 112))),
  .set 442 (.op .add32 (.op .madd (.r 368) (.r 113)) (.op .madd (.r 370) (.r 114))),
  .set 443 (.op .add32 (.op .madd (.r 372) (.r 115)) (.op .madd (.r 374) (.r 116))),
  .set 398 (.op .add32 (.op .add32 (.r 440) (.r 441)) (.op .add32 (.r 442) (.r 443))),
  .set 440 (.op .add32 (.op .madd (.r 360) (.r 117)) (.op .madd (.r 362) (.r 118))),
  .set 441 (.op .add32 (.op .madd (.r 364) (.r 119)) (.op .madd (.r 366) (.r 120)))]

/-- source/common/vec/intrinsic_idct.cc:5599-5632. -/
def idct_32x8_7 : List S := [
  .set 442 (.op .add32 (.op .madd (.r 368) (.r 121)) (.op .madd (.r 370) (.r 122))),
  .set 443 (.op .add32 (.op .madd (.r 372) (.r 123)) (.op .madd (.r 374) (.r 124))),
  .set 399 (.op .add32 (.op .add32 (.r 440) (.r 441)) (.op .add32 (.r 442) (.r 443))),
  .set 440 (.op .add32 (.op .madd (.r 360) (.r 125)) (.op .madd (.r 362) (.r 126))),
  .set 441 (.op .add32 (.op .madd (.r 364) (.r 127)) (.op .madd (.r 366) (.r 128))),
  .set 442 (.op .add32 (.op .madd (.r 368) (.r 129)) (.op .madd (.r 370) (.r 130))),
  .set 443 (.op .add32 (.op .madd (.r 372) (.r 131)) (.op .madd (.r 374) (.r 132))),
  .set 400 (.op .add32 (.op .add32 (.r 440) (.r 441)) (.op .add32 (.r 442) (.r 443))),
  .set 440 (.op .add32 (.op .madd (.r 360) (.r 133)) (.op .madd (.r 362) (.r 134))),
  .set 441 (.op .add32 (.op .madd (.r 364) (.r 135)) (.op .madd (.r 366) (.r 136))),
  .set 442 (.op .add32 (.op .madd (.r 368) (.r 137)) (.op .madd (.r 370) (.r 138))),
  .set 443 (.op .add32 (.op .madd (.r 372) (.r 139)) (.op .madd (.r 374) (.r 140))),
  .set 401 (.op .add32 (.op .add32 (.r 440) (.r 441)) (.op .add32 (.r 442) (.r 443))),
  .set 440 (.op .add32 (.op .madd (.r 360) (.r 141)) (.op .madd (.r 362) (.r 142))),
  .set 441 (.op .add32 (.op .madd (.r 364) (.r 143)) (.op .madd (.r 366) (.r 144))),
  .set 442 (.op .add32 (.op .madd (.r 368) (.r 145)) (.op .madd (.r 370) (.r 146))),
  .set 443 (.op .add32 (.op .madd (.r 372) (.r 147)) (.op .madd (.r 374) (.r 148))),
  .set 402 (.op .add32 (.op .add32 (.r 440) (.r 441)) (.op .add32 (.r 442) (.r 443))),
  .set 440 (.op .add32 (.op .madd (.r 360) (.r 149)) (.op .madd (.r 362) (.r 150))),
  .set 441 (.op .add32 (.op .madd (.r 364) (.r 151)) (.op .madd (.r 366) (.r 152))),
  .set 442 (.op .add32 (.op .madd (.r 368) (.r 153)) (.op .madd (.r 370) (.r 154))),
  .set 443 (.op .add32 (.op .madd (.r 372) (.r 155)) (.op .madd (.r 374) (.r 156))),
  .set 403 (.op .add32 (.op .add32 (.r 440) (.r 441)) (.op .add32 (.r 442) (.r 443))),
  .set 440 (.op .add32 (.op .madd (.r 360) (.r 157)) (.op .madd (.r 362) (.r 158))),
  .set 441 (.op .add32 (.op .madd (.r 364) (.r 159)) (.op .madd (.r 366) (.r 160))),
  .set 442 (.op .add32 (.op .madd (.r 368) (.r 161)) (.op .madd (.r 370) (.r 162))),
  .set 443 (.op .add32 (.op .madd (.r 372) (.r 163)) (.op .madd (.r 374) (.r 164))),
  .set 404 (.op .add32 (.op .add32 (.r 440) (.r 441)) (.op .add32 (.r 442) (.r 443))),
  .set 440 (.op .add32 (.op .madd (.r 360) (.r 165)) (.op .madd (.r 362) (.r 166))),
  .set 441 (.op .add32 (.op .madd (.r 364) (.r 167)) (.op .madd (.r 366) (.r 168))),
  .set 442 (.op .add32 (.op .madd (.r 368) (.r 169)) (.op .madd (.r 370) (.r 170))),
  .set 443 (.op .add32 (.op .madd (.r 372) (.r 171)) (.op .madd (.r 374) (.r 172))),
  .set 405 (.op .add32 (.op .add32 (.r 440) (.r 441)) (.op .add32 (.r 442) (.r 443))),
  .set 440 (.op .add32 (.op .madd (.r 360) (.r 173)) (.op .madd (.r 362) (.r 174))),
  .set 441 (.op .add32 (.op .madd (.r 364) (.r 175)) (.op .madd (.r 366) (.r 176))),
  .set 442 (.op .add32 (.op .madd (.r 368) (.r 177)) (.op .madd (.r 370) (.r 178))),
  .set 443 (.op .add32 (.op .madd (.r 372) (.r 179)) (.op .madd (.r 374) (.r 180))),
  .set 406 (.op .add32 (.op .add32 (.r 440) (.r 441)) (.op .add32 (.r 442) (.r 443))),
  .set 440 (.op .add32 (.op .madd (.r 360) (.r 181)) (.op .madd (.r 362) (.r 182))),
  .set 441 (.op .add32 (.op .madd (.r 364) (.r 183)) (.op .madd (.r 366) (.r 184))),
  .set 442 (.op .add32 (.op .madd (.r 368) (.r 185)) (.op .madd (.r 370) (.r 186))),
  .set 443 (.op .add32 (.op .madd (.r 372) (.r 187)) (.op .madd (.r 374) (.r 188))),
  .set 407 (.op .add32 (.op .add32 (.r 440) (.r 441)) (.op .add32 (.r 442) (.r 443))),
  .set 440 (.op .add32 (.op .madd (.r 361) (.r 61)) (.op .madd (.r 363) (.r 62))),
  .set 441 (.op .add32 (.op .madd (.r 365) (.r 63)) (.op .madd (.r 367) (.r 64))),
  .set 442 (.op .add32 (.op .madd (.r 369) (.r 65)) (.op .madd (.r 371) (.r 66))),
  .set 443 (.op .add32 (.op .madd (.r 373) (.r 67)) (.op .madd (.r 375) (.r 68))),
  .set 408 (.op .add32 (.op .add32 (.r 440) (.r 441)) (.op .add32 (.r 442) (.r 443))),
  .set 440 (.op .add32 (.op .madd (.r 361) (.r 69)) (.op .madd (.r 363) (.r 70))),
  .set 441 (.op .add32 (.op .madd (.r 365) (.r 71)) (.op .madd (.r 367) (.r 72))),
  .set 442 (.op .add32 (.op .madd (.r 369) (.r 73)) (.op .madd (.r 371) (.r 74))),
  .set 443 (.op .add32 (.op .madd (.r 373) (.r 75)) (.op .madd (.r 375) (.r 76))),
  .set 409 (.op .add32 (.op .add32 (.r 440) (.r 441)) (.op .add32 (.r 442) (.r 443))),
  .set 440 (.op .add32 (.op .madd (.r 361) (.r 77)) (.op .madd (.r 363) (.r 78))),
  .set 441 (.op .add32 (.op .madd (.r 365) (.r 79)) (.op .madd (.r 367) (.r 80))),
  .set 442 (.op .add32 (.op .madd (.r 369) (.r 81)) (.op .madd (.r 371) (.r 82))),
  .set 443 (.op .add32 (.op .madd (.r 373) (.r 83)) (.op .madd (.r 375) (.r 84))),
  .set 410 (.op .add32 (.op .add32 (.r 440) (.r 441)) (.op .add32 (.r 442) (.r 443))),
  .set 440 (.op .add32 (.op .madd (.r 361) (.r 85)) (.op .madd (.r 363) (.r 86))),
  .set 441 (.op .add32 (.op .madd (.r 365) (.r 87)) (.op .madd (.r 367) (.r 88))),
  .set 442 (.op .add32 (.op .madd (.r 369) (.r 89)) (.op .madd (.r 371) (.r 90))),
  .set 443 (.op .add32 (.op .madd (.r 373) (.r 91)) (.op .madd (.r 375) (.r 92))),
  .set 411 (.op .add32 (.op .add32 (.r 440) (.r 441)) (.op .add32 (.r 442) (.r 443))),
  .set 440 (.op .add32 (.op .madd (.r 361) (.r 93)) (.op .madd (.r 363) (.r 94))),
  .set 441 (.op .add32 (.op .madd (.r 365) (.r 95)) (.op .madd (.r 367) (.r 96))),
  .set 442 (.op .add32 (.op .madd (.r 369) (.r 97)) (.op .madd (.r 371) (.r 98))),
  .set 443 (.op .add32 (.op .madd (.r 373) (.r 99)) (.op .madd (.r 375) (.r 100))),
  .set 412 (.op .add32 (.op .add32 (.r 440) (.r 441)) (.op .add32 (.r 442) (.r 443))),
  .set 440 (.op .add32 (.op .madd (.r 361) (.r 101)) (.op .madd (.r 363) (.r 102))),
  .set 441 (.op .add32 (.op .madd (.r 365) (.r 103)) (.op .madd (.r 367) (.r 104))),
  .set 442 (.op .add32 (.op .madd (.r 369) (.r 105)) (.op .madd (.r 371) (.r 106))),
  .set 443 (.op .add32 (.op .madd (.r 373) (.r 107)) (.op .madd (.r 375) (.r 108))),
  .set 413 (.op .add32 (.op .add32 (.r 440) (.r 441)) (.op .add32 (.r 442) (.r 443))),
  .set 440 (.op .add32 (.op .madd (.r 361) (.r 109)) (.op .madd (.r 363) (.r 110))),
  .set 441 (.op .add32 (.op .madd (.r 365) (.r 111)) (.op .madd (.r 367) (.r 112))),
  .set 442 (.op .add32 (.op .madd (.r 369) (.r 113)) (.op .madd (.r 371) (.r 114))),
  .set 443 (.op .add32 (.op .madd (.r 373) (.r 115)) (.op .madd (.r 375) (.r 116))),
  .set 414 (.op .add32 (.op .add32 (.r 440) (.r 441)) (.op .add32 (.r 442) (.r 443))),
  .set 440 (.op .add32 (.op .madd (.r 361) (.r 117)) (.op .madd (.r 363) (.r 118))),
  .set 441 (.op .add32 (.op .madd (.r 365) (.r 119)) (.op .madd (.r 367) (.r 120)))]

/-- source/common/vec/intrinsic_idct.cc:5632-5672. -/
def idct_32x8_8 : List S := [
  .set 442 (.op .add32 (.op .madd (.r 369) (.r 121)) (.op .madd (.r 371) (.r 122))),
  .set 443 (.op .add32 (.op .madd (.r 373) (.r 123)) (.op .madd (.r 375) (.r 124))),
  .set 415 (.op .add32 (.op .add32 (.r 440) (.r 441)) (.op .add32 (.r 442) (.r 443))),
  .set 440 (.op .add32 (.op .madd (.r 361) (.r 125)) (.op .madd (.r 363) (.r 126))),
  .set 441 (.op .add32 (.op .madd (.r 365) (.r 127)) (.op .madd (.r 367) (.r 128))),
  .set 442 (.op .add32 (.op .madd (.r 369) (.r 129)) (.op .madd (.r 371) (.r 130))),
  .set 443 (.op .add32 (.op .madd (.r 373) (.r 131)) (.op .madd (.r 375) (.r 132))),
  .set 416 (.op .add32 (.op .add32 (.r 440) (.r 441)) (.op .add32 (.r 442) (.r 443))),
  .set 440 (.op .add32 (.op .madd (.r 361) (.r 133)) (.op .madd (.r 363) (.r 134))),
  .set 441 (.op .add32 (.op .madd (.r 365) (.r 135)) (.op .madd (.r 367) (.r 136))),
  .set 442 (.op .add32 (.op .madd (.r 369) (.r 137)) (.op .madd (.r 371) (.r 138))),
  .set 443 (.op .add32 (.op .madd (.r 373) (.r 139)) (.op .madd (.r 375) (.r 140))),
  .set 417 (.op .add32 (.op .add32 (.r 440) (.r 441)) (.op .add32 (.r 442) (.r 443))),
  .set 440 (.op .add32 (.op .madd (.r 361) (.r 141)) (.op .madd (.r 363) (.r 142))),
  .set 441 (.op .add32 (.op .madd (.r 365) (.r 143)) (.op .madd (.r 367) (.r 144))),
  .set 442 (.op .add32 (.op .madd (.r 369) (.r 145)) (.op .madd (.r 371) (.r 146))),
  .set 443 (.op .add32 (.op .madd (.r 373) (.r 147)) (.op .madd (.r 375) (.r 148))),
  .set 418 (.op .add32 (.op .add32 (.r 440) (.r 441)) (.op .add32 (.r 442) (.r 443))),
  .set 440 (.op .add32 (.op .madd (.r 361) (.r 149)) (.op .madd (.r 363) (.r 150))),
  .set 441 (.op .add32 (.op .madd (.r 365) (.r 151)) (.op .madd (.r 367) (.r 152))),
  .set 442 (.op .add32 (.op .madd (.r 369) (.r 153)) (.op .madd (.r 371) (.r 154))),
  .set 443 (.op .add32 (.op .madd (.r 373) (.r 155)) (.op .madd (.r 375) (.r 156))),
  .set 419 (.op .add32 (.op .add32 (.r 440) (.r 441)) (.op .add32 (.r 442) (.r 443))),
  .set 440 (.op .add32 (.op .madd (.r 361) (.r 157)) (.op .madd (.r 363) (.r 158))),
  .set 441 (.op .add32 (.op .madd (.r 365) (.r 159)) (.op .madd (.r 367) (.r 160))),
  .set 442 (.op .add32 (.op .madd (.r 369) (.r 161)) (.op .madd (.r 371) (.r 162))),
  .set 443 (.op .add32 (.op .madd (.r 373) (.r 163)) (.op .madd (.r 375) (.r 164))),
  .set 420 (.op .add32 (.op .add32 (.r 440) (.r 441)) (.op .add32 (.r 442) (.r 443))),
  .set 440 (.op .add32 (.op .madd (.r 361) (.r 165)) (.op .madd (.r 363) (.r 166))),
  .set 441 (.op .add32 (.op .madd (.r 365) (.r 167)) (.op .madd (.r 367) (.r 168))),
  .set 442 (.op .add32 (.op .madd (.r 369) (.r 169)) (.op .madd (.r 371) (.r 170))),
  .set 443 (.op .add32 (.op .madd (.r 373) (.r 171)) (.op .madd (.r 375) (.r 172))),
  .set 421 (.op .add32 (.op .add32 (.r 440) (.r 441)) (.op .add32 (.r 442) (.r 443))),
  .set 440 (.op .add32 (.op .madd (.r 361) (.r 173)) (.op .madd (.r 363) (.r 174))),
  .set 441 (.op .add32 (.op .madd (.r 365) (.r 175)) (.op .madd (.r 367) (.r 176))),
  .set 442 (.op .add32 (.op .madd (.r 369) (.r 177)) (.op .madd (.r 371) (.r 178))),
  .set 443 (.op .add32 (.op .madd (.r 373) (.r 179)) (.op .madd (.r 375) (.r 180))),
  .set 422 (.op .add32 (.op .add32 (.r 440) (.r 441)) (.op .add32 (.r 442) (.r 443))),
  .set 440 (.op .add32 (.op .madd (.r 361) (.r 181)) (.op .madd (.r 363) (.r 182))),
  .set 441 (.op .add32 (.op .madd (.r 365) (.r 183)) (.op .madd (.r 367) (.r 184))),
  .set 442 (.op .add32 (.op .madd (.r 369) (.r 185)) (.op .madd (.r 371) (.r 186))),
  .set 443 (.op .add32 (.op .madd (.r 373) (.r 187)) (.op .madd (.r 375) (.r 188))),
  .set 423 (.op .add32 (.op .add32 (.r 440) (.r 441)) (.op .add32 (.r 442) (.r 443))),
  .set 440 (.op .add32 (.op .madd (.r 376) (.r 83)) (.op .madd (.r 378) (.r 189))),
  .set 441 (.op .add32 (.op .madd (.r 380) (.r 190)) (.op .madd (.r 382) (.r 191))),
  .set 424 (.op .add32 (.r 440) (.r 441)),
  .set 440 (.op .add32 (.op .madd (.r 376) (.r 192)) (.op .madd (.r 378) (.r 193))),
  .set 441 (.op .add32 (.op .madd (.r 380) (.r 194)) (.op .madd (.r 382) (.r 195))),
  .set 425 (.op .add32 (.r 440) (.r 441)),
  .set 440 (.op .add32 (.op .madd (.r 376) (.r 196)) (.op .madd (.r 378) (.r 197))),
  .set 441 (.op .add32 (.op .madd (.r 380) (.r 198)) (.op .madd (.r 382) (.r 199))),
  .set 426 (.op .add32 (.r 440) (.r 441)),
  .set 440 (.op .add32 (.op .madd (.r 376) (.r 200)) (.op .madd (.r 378) (.r 201))),
  .set 441 (.op .add32 (.op .madd (.r 380) (.r 202)) (.op .madd (.r 382) (.r 203))),
  .set 427 (.op .add32 (.r 440) (.r 441)),
  .set 440 (.op .add32 (.op .madd (.r 376) (.r 204)) (.op .madd (.r 378) (.r 205))),
  .set 441 (.op .add32 (.op .madd (.r 380) (.r 206)) (.op .madd (.r 382) (.r 207))),
  .set 428 (.op .add32 (.r 440) (.r 441)),
  .set 440 (.op .add32 (.op .madd (.r 376) (.r 208)) (.op .madd (.r 378) (.r 209))),
  .set 441 (.op .add32 (.op .madd (.r 380) (.r 210)) (.op .madd (.r 382) (.r 211))),
  .set 429 (.op .add32 (.r 440) (.r 441)),
  .set 440 (.op .add32 (.op .madd (.r 376) (.r 212)) (.op .madd (.r 378) (.r 213))),
  .set 441 (.op .add32 (.op .madd (.r 380) (.r 214)) (.op .madd (.r 382) (.r 215))),
  .set 430 (.op .add32 (.r 440) (.r 441)),
  .set 440 (.op .add32 (.op .madd (.r 376) (.r 216)) (.op .madd (.r 378) (.r 217))),
  .set 441 (.op .add32 (.op .madd (.r 380) (.r 218)) (.op .madd (.r 382) (.r 166))),
  .set 431 (.op .add32 (.r 440) (.r 441)),
  .set 440 (.op .add32 (.op .madd (.r 377) (.r 83)) (.op .madd (.r 379) (.r 189))),
  .set 441 (.op .add32 (.op .madd (.r 381) (.r 190)) (.op .madd (.r 383) (.r 191))),
  .set 432 (.op .add32 (.r 440) (.r 441)),
  .set 440 (.op .add32 (.op .madd (.r 377) (.r 192)) (.op .madd (.r 379) (.r 193))),
  .set 441 (.op .add32 (.op .madd (.r 381) (.r 194)) (.op .madd (.r 383) (.r 195))),
  .set 433 (.op .add32 (.r 440) (.r 441)),
  .set 440 (.op .add32 (.op .madd (.r 377) (.r 196)) (.op .madd (.r 379) (.r 197))),
  .set 441 (.op .add32 (.op .madd (.r 381) (.r 198)) (.op .madd (.r 383) (.r 199))),
  .set 434 (.op .add32 (.r 440) (.r 441)),
  .set 440 (.op .add32 (.op .madd (.r 377) (.r 200)) (.op .madd (.r 379) (.r 201))),
  .set 441 (.op .add32 (.op .madd (.r 381) (.r 202)) (.op .madd (.r 383) (.r 203))),
  .set 435 (.op .add32 (.r 440) (.r 441)),
  .set 440 (.op .add32 (.op .madd (.r 377) (.r 204)) (.op .madd (.r 379) (.r 205)))]

/-- source/common/vec/intrinsic_idct.cc:5672-5753. -/
def idct_32x8_9 : List S := [
  .set 441 (.op .add32 (.op .madd (.r 381) (.r 206)) (.op .madd (.r 383) (.r 207))),
  .set 436 (.op .add32 (.r 440) (.r 441)),
  .set 440 (.op .add32 (.op .madd (.r 377) (.r 208)) (.op .madd (.r 379) (.r 209))),
  .set 441 (.op .add32 (.op .madd (.r 381) (.r 210)) (.op .madd (.r 383) (.r 211))),
  .set 437 (.op .add32 (.r 440) (.r 441)),
  .set 440 (.op .add32 (.op .madd (.r 377) (.r 212)) (.op .madd (.r 379) (.r 213))),
  .set 441 (.op .add32 (.op .madd (.r 381) (.r 214)) (.op .madd (.r 383) (.r 215))),
  .set 438 (.op .add32 (.r 440) (.r 441)),
  .set 440 (.op .add32 (.op .madd (.r 377) (.r 216)) (.op .madd (.r 379) (.r 217))),
  .set 441 (.op .add32 (.op .madd (.r 381) (.r 218)) (.op .madd (.r 383) (.r 166))),
  .set 439 (.op .add32 (.r 440) (.r 441)),
  .set 444 (.op .add32 (.op .madd (.r 384) (.r 219)) (.op .madd (.r 386) (.r 220))),
  .set 445 (.op .add32 (.op .madd (.r 384) (.r 221)) (.op .madd (.r 386) (.r 222))),
  .set 446 (.op .add32 (.op .madd (.r 384) (.r 223)) (.op .madd (.r 386) (.r 224))),
  .set 447 (.op .add32 (.op .madd (.r 384) (.r 225)) (.op .madd (.r 386) (.r 226))),
  .set 448 (.op .add32 (.op .madd (.r 385) (.r 219)) (.op .madd (.r 387) (.r 220))),
  .set 449 (.op .add32 (.op .madd (.r 385) (.r 221)) (.op .madd (.r 387) (.r 222))),
  .set 450 (.op .add32 (.op .madd (.r 385) (.r 223)) (.op .madd (.r 387) (.r 224))),
  .set 451 (.op .add32 (.op .madd (.r 385) (.r 225)) (.op .madd (.r 387) (.r 226))),
  .set 452 (.op .madd (.r 388) (.r 227)),
  .set 453 (.op .madd (.r 389) (.r 227)),
  .set 454 (.op .madd (.r 388) (.r 228)),
  .set 455 (.op .madd (.r 389) (.r 228)),
  .set 456 (.op .madd (.r 390) (.r 229)),
  .set 457 (.op .madd (.r 391) (.r 229)),
  .set 458 (.op .madd (.r 390) (.r 230)),
  .set 459 (.op .madd (.r 391) (.r 230)),
  .set 460 (.op .add32 (.r 456) (.r 452)),
  .set 461 (.op .add32 (.r 457) (.r 453)),
  .set 462 (.op .add32 (.r 458) (.r 454)),
  .set 463 (.op .add32 (.r 459) (.r 455)),
  .set 464 (.op .sub32 (.r 456) (.r 452)),
  .set 465 (.op .sub32 (.r 457) (.r 453)),
  .set 466 (.op .sub32 (.r 458) (.r 454)),
  .set 467 (.op .sub32 (.r 459) (.r 455)),
  .set 468 (.op .add32 (.r 460) (.r 444)),
  .set 469 (.op .add32 (.r 461) (.r 448)),
  .set 470 (.op .add32 (.r 462) (.r 445)),
  .set 471 (.op .add32 (.r 463) (.r 449)),
  .set 472 (.op .add32 (.r 466) (.r 446)),
  .set 473 (.op .add32 (.r 467) (.r 450)),
  .set 474 (.op .add32 (.r 464) (.r 447)),
  .set 475 (.op .add32 (.r 465) (.r 451)),
  .set 476 (.op .sub32 (.r 460) (.r 444)),
  .set 477 (.op .sub32 (.r 461) (.r 448)),
  .set 478 (.op .sub32 (.r 462) (.r 445)),
  .set 479 (.op .sub32 (.r 463) (.r 449)),
  .set 480 (.op .sub32 (.r 466) (.r 446)),
  .set 481 (.op .sub32 (.r 467) (.r 450)),
  .set 482 (.op .sub32 (.r 464) (.r 447)),
  .set 483 (.op .sub32 (.r 465) (.r 451)),
  .set 484 (.op .add32 (.r 468) (.r 424)),
  .set 485 (.op .add32 (.r 469) (.r 432)),
  .set 486 (.op .add32 (.r 470) (.r 425)),
  .set 487 (.op .add32 (.r 471) (.r 433)),
  .set 488 (.op .add32 (.r 472) (.r 426)),
  .set 489 (.op .add32 (.r 473) (.r 434)),
  .set 490 (.op .add32 (.r 474) (.r 427)),
  .set 491 (.op .add32 (.r 475) (.r 435)),
  .set 492 (.op .add32 (.r 482) (.r 428)),
  .set 493 (.op .add32 (.r 483) (.r 436)),
  .set 494 (.op .add32 (.r 480) (.r 429)),
  .set 495 (.op .add32 (.r 481) (.r 437)),
  .set 496 (.op .add32 (.r 478) (.r 430)),
  .set 497 (.op .add32 (.r 479) (.r 438)),
  .set 498 (.op .add32 (.r 476) (.r 431)),
  .set 499 (.op .add32 (.r 477) (.r 439)),
  .set 500 (.op .sub32 (.r 468) (.r 424)),
  .set 501 (.op .sub32 (.r 469) (.r 432)),
  .set 502 (.op .sub32 (.r 470) (.r 425)),
  .set 503 (.op .sub32 (.r 471) (.r 433)),
  .set 504 (.op .sub32 (.r 472) (.r 426)),
  .set 505 (.op .sub32 (.r 473) (.r 434)),
  .set 506 (.op .sub32 (.r 474) (.r 427)),
  .set 507 (.op .sub32 (.r 475) (.r 435)),
  .set 508 (.op .sub32 (.r 482) (.r 428)),
  .set 509 (.op .sub32 (.r 483) (.r 436)),
  .set 510 (.op .sub32 (.r 480) (.r 429)),
  .set 511 (.op .sub32 (.r 481) (.r 437)),
  .set 512 (.op .sub32 (.r 478) (.r 430))]

/-- source/common/vec/intrinsic_idct.cc:5754-5835. -/
def idct_32x8_10 : List S := [
  .set 513 (.op .sub32 (.r 479) (.r 438)),
  .set 514 (.op .sub32 (.r 476) (.r 431)),
  .set 515 (.op .sub32 (.r 477) (.r 439)),
  .set 516 (.op .add32 (.r 484) (.r 231)),
  .set 517 (.op .add32 (.r 485) (.r 231)),
  .set 518 (.op .add32 (.r 486) (.r 231)),
  .set 519 (.op .add32 (.r 487) (.r 231)),
  .set 520 (.op .add32 (.r 488) (.r 231)),
  .set 521 (.op .add32 (.r 489) (.r 231)),
  .set 522 (.op .add32 (.r 490) (.r 231)),
  .set 523 (.op .add32 (.r 491) (.r 231)),
  .set 524 (.op .add32 (.r 492) (.r 231)),
  .set 525 (.op .add32 (.r 493) (.r 231)),
  .set 526 (.op .add32 (.r 494) (.r 231)),
  .set 527 (.op .add32 (.r 495) (.r 231)),
  .set 528 (.op .add32 (.r 496) (.r 231)),
  .set 529 (.op .add32 (.r 497) (.r 231)),
  .set 530 (.op .add32 (.r 498) (.r 231)),
  .set 531 (.op .add32 (.r 499) (.r 231)),
  .set 532 (.op .add32 (.r 514) (.r 231)),
  .set 533 (.op .add32 (.r 515) (.r 231)),
  .set 534 (.op .add32 (.r 512) (.r 231)),
  .set 535 (.op .add32 (.r 513) (.r 231)),
  .set 536 (.op .add32 (.r 510) (.r 231)),
  .set 537 (.op .add32 (.r 511) (.r 231)),
  .set 538 (.op .add32 (.r 508) (.r 231)),
  .set 539 (.op .add32 (.r 509) (.r 231)),
  .set 540 (.op .add32 (.r 506) (.r 231)),
  .set 541 (.op .add32 (.r 507) (.r 231)),
  .set 542 (.op .add32 (.r 504) (.r 231)),
  .set 543 (.op .add32 (.r 505) (.r 231)),
  .set 544 (.op .add32 (.r 502) (.r 231)),
  .set 545 (.op .add32 (.r 503) (.r 231)),
  .set 546 (.op .add32 (.r 500) (.r 231)),
  .set 547 (.op .add32 (.r 501) (.r 231)),
  .set 548 (.op .add32 (.r 516) (.r 392)),
  .set 549 (.op .add32 (.r 517) (.r 408)),
  .set 550 (.op .add32 (.r 518) (.r 393)),
  .set 551 (.op .add32 (.r 519) (.r 409)),
  .set 552 (.op .add32 (.r 520) (.r 394)),
  .set 553 (.op .add32 (.r 521) (.r 410)),
  .set 554 (.op .add32 (.r 522) (.r 395)),
  .set 555 (.op .add32 (.r 523) (.r 411)),
  .set 556 (.op .add32 (.r 524) (.r 396)),
  .set 557 (.op .add32 (.r 525) (.r 412)),
  .set 558 (.op .add32 (.r 526) (.r 397)),
  .set 559 (.op .add32 (.r 527) (.r 413)),
  .set 560 (.op .add32 (.r 528) (.r 398)),
  .set 561 (.op .add32 (.r 529) (.r 414)),
  .set 562 (.op .add32 (.r 530) (.r 399)),
  .set 563 (.op .add32 (.r 531) (.r 415)),
  .set 564 (.op .add32 (.r 532) (.r 400)),
  .set 565 (.op .add32 (.r 533) (.r 416)),
  .set 566 (.op .add32 (.r 534) (.r 401)),
  .set 567 (.op .add32 (.r 535) (.r 417)),
  .set 568 (.op .add32 (.r 536) (.r 402)),
  .set 569 (.op .add32 (.r 537) (.r 418)),
  .set 570 (.op .add32 (.r 538) (.r 403)),
  .set 571 (.op .add32 (.r 539) (.r 419)),
  .set 572 (.op .add32 (.r 540) (.r 404)),
  .set 573 (.op .add32 (.r 541) (.r 420)),
  .set 574 (.op .add32 (.r 542) (.r 405)),
  .set 575 (.op .add32 (.r 543) (.r 421)),
  .set 576 (.op .add32 (.r 544) (.r 406)),
  .set 577 (.op .add32 (.r 545) (.r 422)),
  .set 578 (.op .add32 (.r 546) (.r 407)),
  .set 579 (.op .add32 (.r 547) (.r 423)),
  .set 580 (.op .sub32 (.r 516) (.r 392)),
  .set 581 (.op .sub32 (.r 517) (.r 408)),
  .set 582 (.op .sub32 (.r 518) (.r 393)),
  .set 583 (.op .sub32 (.r 519) (.r 409)),
  .set 584 (.op .sub32 (.r 520) (.r 394)),
  .set 585 (.op .sub32 (.r 521) (.r 410)),
  .set 586 (.op .sub32 (.r 522) (.r 395)),
  .set 587 (.op .sub32 (.r 523) (.r 411)),
  .set 588 (.op .sub32 (.r 524) (.r 396)),
  .set 589 (.op .sub32 (.r 525) (.r 412)),
  .set 590 (.op .sub32 (.r 526) (.r 397)),
  .set 591 (.op .sub32 (.r 527) (.r 413)),
  .set 592 (.op .sub32 (.r 528) (.r 398))]

/-- source/common/vec/intrinsic_idct.cc:5836-5917. -/
def idct_32x8_11 (wl : Nat) : List S := [
  .set 593 (.op .sub32 (.r 529) (.r 414)),
  .set 594 (.op .sub32 (.r 530) (.r 399)),
  .set 595 (.op .sub32 (.r 531) (.r 415)),
  .set 596 (.op .sub32 (.r 532) (.r 400)),
  .set 597 (.op .sub32 (.r 533) (.r 416)),
  .set 598 (.op .sub32 (.r 534) (.r 401)),
  .set 599 (.op .sub32 (.r 535) (.r 417)),
  .set 600 (.op .sub32 (.r 536) (.r 402)),
  .set 601 (.op .sub32 (.r 537) (.r 418)),
  .set 602 (.op .sub32 (.r 538) (.r 403)),
  .set 603 (.op .sub32 (.r 539) (.r 419)),
  .set 604 (.op .sub32 (.r 540) (.r 404)),
  .set 605 (.op .sub32 (.r 541) (.r 420)),
  .set 606 (.op .sub32 (.r 542) (.r 405)),
  .set 607 (.op .sub32 (.r 543) (.r 421)),
  .set 608 (.op .sub32 (.r 544) (.r 406)),
  .set 609 (.op .sub32 (.r 545) (.r 422)),
  .set 610 (.op .sub32 (.r 546) (.r 407)),
  .set 611 (.op .sub32 (.r 547) (.r 423)),
  .set 612 (.sra32 (.r 548) (12 - wl)),
  .set 613 (.sra32 (.r 549) (12 - wl)),
  .set 614 (.sra32 (.r 550) (12 - wl)),
  .set 615 (.sra32 (.r 551) (12 - wl)),
  .set 616 (.sra32 (.r 552) (12 - wl)),
  .set 617 (.sra32 (.r 553) (12 - wl)),
  .set 618 (.sra32 (.r 554) (12 - wl)),
  .set 619 (.sra32 (.r 555) (12 - wl)),
  .set 620 (.sra32 (.r 556) (12 - wl)),
  .set 621 (.sra32 (.r 557) (12 - wl)),
  .set 622 (.sra32 (.r 558) (12 - wl)),
  .set 623 (.sra32 (.r 559) (12 - wl)),
  .set 624 (.sra32 (.r 560) (12 - wl)),
  .set 625 (.sra32 (.r 561) (12 - wl)),
  .set 626 (.sra32 (.r 562) (12 - wl)),
  .set 627 (.sra32 (.r 563) (12 - wl)),
  .set 628 (.sra32 (.r 564) (12 - wl)),
  .set 629 (.sra32 (.r 565) (12 - wl)),
  .set 630 (.sra32 (.r 566) (12 - wl)),
  .set 631 (.sra32 (.r 567) (12 - wl)),
  .set 632 (.sra32 (.r 568) (12 - wl)),
  .set 633 (.sra32 (.r 569) (12 - wl)),
  .set 634 (.sra32 (.r 570) (12 - wl)),
  .set 635 (.sra32 (.r 571) (12 - wl)),
  .set 636 (.sra32 (.r 572) (12 - wl)),
  .set 637 (.sra32 (.r 573) (12 - wl)),
  .set 638 (.sra32 (.r 574) (12 - wl)),
  .set 639 (.sra32 (.r 575) (12 - wl)),
  .set 640 (.sra32 (.r 576) (12 - wl)),
  .set 641 (.sra32 (.r 577) (12 - wl)),
  .set 642 (.sra32 (.r 578) (12 - wl)),
  .set 643 (.sra32 (.r 579) (12 - wl)),
  .set 644 (.sra32 (.r 610) (12 - wl)),
  .set 645 (.sra32 (.r 611) (12 - wl)),
  .set 646 (.sra32 (.r 608) (12 - wl)),
  .set 647 (.sra32 (.r 609) (12 - wl)),
  .set 648 (.sra32 (.r 606) (12 - wl)),
  .set 649 (.sra32 (.r 607) (12 - wl)),
  .set 650 (.sra32 (.r 604) (12 - wl)),
  .set 651 (.sra32 (.r 605) (12 - wl)),
  .set 652 (.sra32 (.r 602) (12 - wl)),
  .set 653 (.sra32 (.r 603) (12 - wl)),
  .set 654 (.sra32 (.r 600) (12 - wl)),
  .set 655 (.sra32 (.r 601) (12 - wl)),
  .set 656 (.sra32 (.r 598) (12 - wl)),
  .set 657 (.sra32 (.r 599) (12 - wl)),
  .set 658 (.sra32 (.r 596) (12 - wl)),
  .set 659 (.sra32 (.r 597) (12 - wl)),
  .set 660 (.sra32 (.r 594) (12 - wl)),
  .set 661 (.sra32 (.r 595) (12 - wl)),
  .set 662 (.sra32 (.r 592) (12 - wl)),
  .set 663 (.sra32 (.r 593) (12 - wl)),
  .set 664 (.sra32 (.r 590) (12 - wl)),
  .set 665 (.sra32 (.r 591) (12 - wl)),
  .set 666 (.sra32 (.r 588) (12 - wl)),
  .set 667 (.sra32 (.r 589) (12 - wl)),
  .set 668 (.sra32 (.r 586) (12 - wl)),
  .set 669 (.sra32 (.r 587) (12 - wl)),
  .set 670 (.sra32 (.r 584) (12 - wl)),
  .set 671 (.sra32 (.r 585) (12 - wl)),
  .set 672 (.sra32 (.r 582) (12 - wl))]

/-- source/common/vec/intrinsic_idct.cc:5918-5998. -/
def idct_32x8_12 (wl : Nat) : List S := [
  .set 673 (.sra32 (.r 583) (12 - wl)),
  .set 674 (.sra32 (.r 580) (12 - wl)),
  .set 675 (.sra32 (.r 581) (12 - wl)),
  .set 232 (.op .packs (.r 612) (.r 613)),
  .set 236 (.op .packs (.r 614) (.r 615)),
  .set 240 (.op .packs (.r 616) (.r 617)),
  .set 244 (.op .packs (.r 618) (.r 619)),
  .set 248 (.op .packs (.r 620) (.r 621)),
  .set 252 (.op .packs (.r 622) (.r 623)),
  .set 256 (.op .packs (.r 624) (.r 625)),
  .set 260 (.op .packs (.r 626) (.r 627)),
  .set 264 (.op .packs (.r 628) (.r 629)),
  .set 268 (.op .packs (.r 630) (.r 631)),
  .set 272 (.op .packs (.r 632) (.r 633)),
  .set 276 (.op .packs (.r 634) (.r 635)),
  .set 280 (.op .packs (.r 636) (.r 637)),
  .set 284 (.op .packs (.r 638) (.r 639)),
  .set 288 (.op .packs (.r 640) (.r 641)),
  .set 292 (.op .packs (.r 642) (.r 643)),
  .set 296 (.op .packs (.r 644) (.r 645)),
  .set 300 (.op .packs (.r 646) (.r 647)),
  .set 304 (.op .packs (.r 648) (.r 649)),
  .set 308 (.op .packs (.r 650) (.r 651)),
  .set 312 (.op .packs (.r 652) (.r 653)),
  .set 316 (.op .packs (.r 654) (.r 655)),
  .set 320 (.op .packs (.r 656) (.r 657)),
  .set 324 (.op .packs (.r 658) (.r 659)),
  .set 328 (.op .packs (.r 660) (.r 661)),
  .set 332 (.op .packs (.r 662) (.r 663)),
  .set 336 (.op .packs (.r 664) (.r 665)),
  .set 340 (.op .packs (.r 666) (.r 667)),
  .set 344 (.op .packs (.r 668) (.r 669)),
  .set 348 (.op .packs (.r 670) (.r 671)),
  .set 352 (.op .packs (.r 672) (.r 673)),
  .set 356 (.op .packs (.r 674) (.r 675))] ++
  transpose8 676 684
    232 236 240 244 248 252 256 260
    0 4 8 12 16 20 24 28 ++
  transpose8 676 684
    264 268 272 276 280 284 288 292
    1 5 9 13 17 21 25 29 ++
  transpose8 676 684
    296 300 304 308 312 316 320 324
    2 6 10 14 18 22 26 30 ++
  transpose8 676 684
    328 332 336 340 344 348 352 356
    3 7 11 15 19 23 27 31 ++
  [
  .set 692 (.k16 (255 + 256 * wl)),
  .set 693 (.k16 (-256 - 256 * wl))]

/-- source/common/vec/intrinsic_idct.cc:6001-6023. -/
def idct_32x8_13 (i : Nat) : List S := [
  .set i (.op .min16 (.r i) (.r 692)),
  .set i (.op .max16 (.r i) (.r 693)),
  .set (4 + i) (.op .min16 (.r (4 + i)) (.r 692)),
  .set (4 + i) (.op .max16 (.r (4 + i)) (.r 693)),
  .set (8 + i) (.op .min16 (.r (8 + i)) (.r 692)),
  .set (8 + i) (.op .max16 (.r (8 + i)) (.r 693)),
  .set (12 + i) (.op .min16 (.r (12 + i)) (.r 692)),
  .set (12 + i) (.op .max16 (.r (12 + i)) (.r 693)),
  .set (16 + i) (.op .min16 (.r (16 + i)) (.r 692)),
  .set (16 + i) (.op .max16 (.r (16 + i)) (.r 693)),
  .set (20 + i) (.op .min16 (.r (20 + i)) (.r 692)),
  .set (20 + i) (.op .max16 (.r (20 + i)) (.r 693)),
  .set (24 + i) (.op .min16 (.r (24 + i)) (.r 692)),
  .set (24 + i) (.op .max16 (.r (24 + i)) (.r 693)),
  .set (28 + i) (.op .min16 (.r (28 + i)) (.r 692)),
  .set (28 + i) (.op .max16 (.r (28 + i)) (.r 693))]

/-- source/common/vec/intrinsic_idct.cc:6036-6043. -/
def idct_32x8_14 : List S := [
  .st 8 0 (.r 0),
  .st 8 8 (.r 1),
  .st 8 16 (.r 2),
  .st 8 24 (.r 3),
  .st 8 32 (.r 4),
  .st 8 40 (.r 5),
  .st 8 48 (.r 6),
  .st 8 56 (.r 7),
  .st 8 64 (.r 8),
  .st 8 72 (.r 9),
  .st 8 80 (.r 10),
  .st 8 88 (.r 11),
  .st 8 96 (.r 12),
  .st 8 104 (.r 13),
  .st 8 112 (.r 14),
  .st 8 120 (.r 15),
  .st 8 128 (.r 16),
  .st 8 136 (.r 17),
  .st 8 144 (.r 18),
  .st 8 152 (.r 19),
  .st 8 160 (.r 20),
  .st 8 168 (.r 21),
  .st 8 176 (.r 22),
  .st 8 184 (.r 23),
  .st 8 192 (.r 24),
  .st 8 200 (.r 25),
  .st 8 208 (.r 26),
  .st 8 216 (.r 27),
  .st 8 224 (.r 28),
  .st 8 232 (.r 29),
  .st 8 240 (.r 30),
  .st 8 248 (.r 31)]

/-- `idct_32x8_sse128`, source/common/vec/intrinsic_idct.cc:5213. `wl` is the lowest bit of the argument `i_dst`. -/
def idct_32x8 (wl : Nat) : List S :=
  idct_32x8_1 ++ (rep 4 fun pass => idct_32x8_2 pass ++ idct_32x8_3 pass) ++ idct_32x8_4 ++ idct_32x8_5 ++ idct_32x8_6 wl ++ idct_32x8_7 ++ idct_32x8_8 ++ idct_32x8_9 ++ idct_32x8_10 ++ idct_32x8_11 wl ++ idct_32x8_12 wl ++ (rep 4 fun i => idct_32x8_13 i) ++ (rep 2 fun i => idct_32x8_14)

/-! ### `idct_8x32_sse128`

Registers: 0 c16_p45_p45, 1 c16_p43_p44, 2 c16_p39_p41, 3 c16_p34_p36, 4 c16_p27_p30, 5 c16_p19_p23, 6 c16_p11_p15, 7 c16_p02_p07,
8 c16_p41_p45, 9 c16_p23_p34, 10 c16_n02_p11, 11 c16_n27_n15, 12 c16_n43_n36, 13 c16_n44_n45, 14 c16_n30_n39, 15 c16_n07_n19, 16
c16_p34_p44, 17 c16_n07_p15, 18 c16_n41_n27, 19 c16_n39_n45, 20 c16_n02_n23, 21 c16_p36_p19, 22 c16_p43_p45, 23 c16_p11_p30, 24
c16_p23_p43, 25 c16_n34_n07, 26 c16_n36_n45, 27 c16_p19_n11, 28 c16_p44_p41, 29 c16_n02_p27, 30 c16_n45_n30, 31 c16_n15_n39, 32
c16_p11_p41, 33 c16_n45_n27, 34 c16_p07_n30, 35 c16_p43_p39, 36 c16_n23_p15, 37 c16_n34_n45, 38 c16_p36_p02, 39 c16_p19_p44, 40
c16_n02_p39, 41 c16_n36_n41, 42 c16_p43_p07, 43 c16_n11_p34, 44 c16_n30_n44, 45 c16_p45_p15, 46 c16_n19_p27, 47 c16_n23_n45, 48
c16_n15_p36, 49 c16_n11_n45, 50 c16_p34_p39, 51 c16_n45_n19, 52 c16_p41_n07, 53 c16_n23_p30, 54 c16_n02_n44, 55 c16_p27_p43, 56
c16_n27_p34, 57 c16_p19_n39, 58 c16_n11_p43, 59 c16_p02_n45, 60 c16_p07_p45, 61 c16_n15_n44, 62 c16_p23_p41, 63 c16_n30_n36, 64
c16_n36_p30, 65 c16_p41_n23, 66 c16_n44_p15, 67 c16_p45_n07, 68 c16_n45_n02, 69 c16_p43_p11, 70 c16_n39_n19, 71 c16_p34_p27, 72
c16_n43_p27, 73 c16_p44_n02, 74 c16_n30_n23, 75 c16_p07_p41, 76 c16_p19_n45, 77 c16_n39_p34, 78 c16_p45_n11, 79 c16_n36_n15, 80
c16_n45_p23, 81 c16_p27_p19, 82 c16_p15_n45, 83 c16_n44_p30, 84 c16_p34_p11, 85 c16_p07_n43, 86 c16_n41_p36, 87 c16_p39_p02, 88
c16_n44_p19, 89 c16_n02_p36, 90 c16_p45_n34, 91 c16_n15_n23, 92 c16_n39_p43, 93 c16_p30_p07, 94 c16_p27_n45, 95 c16_n41_p11, 96
c16_n39_p15, 97 c16_n30_p45, 98 c16_p27_p02, 99 c16_p41_n44, 100 c16_n11_n19, 101 c16_n45_p36, 102 c16_n07_p34, 103 c16_p43_n23,
104 c16_n30_p11, 105 c16_n45_p43, 106 c16_n19_p36, 107 c16_p23_n02, 108 c16_p45_n39, 109 c16_p27_n41, 110 c16_n15_n07, 111
c16_n44_p34, 112 c16_n19_p07, 113 c16_n39_p30, 114 c16_n45_p44, 115 c16_n36_p43, 116 c16_n15_p27, 117 c16_p11_p02, 118
c16_p34_n23, 119 c16_p45_n41, 120 c16_n07_p02, 121 c16_n15_p11, 122 c16_n23_p19, 123 c16_n30_p27, 124 c16_n36_p34, 125
c16_n41_p39, 126 c16_n44_p43, 127 c16_n45_p45, 128 c16_p35_p40, 129 c16_p21_p29, 130 c16_p04_p13, 131 c16_p29_p43, 132
c16_n21_p04, 133 c16_n45_n40, 134 c16_n13_n35, 135 c16_p04_p40, 136 c16_n43_n35, 137 c16_p29_n13, 138 c16_p21_p45, 139
c16_n21_p35, 140 c16_p04_n43, 141 c16_p13_p45, 142 c16_n29_n40, 143 c16_n40_p29, 144 c16_p45_n13, 145 c16_n43_n04, 146
c16_p35_p21, 147 c16_n45_p21, 148 c16_p13_p29, 149 c16_p35_n43, 150 c16_n40_p04, 151 c16_n35_p13, 152 c16_n40_p45, 153
c16_p04_p21, 154 c16_p43_n29, 155 c16_n13_p04, 156 c16_n29_p21, 157 c16_n40_p35, 158 c16_p38_p44, 159 c16_p09_p25, 160
c16_n09_p38, 161 c16_n25_n44, 162 c16_n44_p25, 163 c16_p38_p09, 164 c16_n25_p09, 165 c16_n44_p38, 166 c16_p17_p42, 167
c16_n42_p17, 168 c16_p32_p32, 169 c16_n32_p32, 170 c32_rnd, 171 in00, 172 in01, 173 in02, 174 in03, 175 in04, 176 in05, 177 in06,
178 in07, 179 in08, 180 in09, 181 in10, 182 in11, 183 in12, 184 in13, 185 in14, 186 in15, 187 in16, 188 in17, 189 in18, 190 in19,
191 in20, 192 in21, 193 in22, 194 in23, 195 in24, 196 in25, 197 in26, 198 in27, 199 in28, 200 in29, 201 in30, 202 in31, 203-206
res00, 207-210 res01, 211-214 res02, 215-218 res03, 219-222 res04, 223-226 res05, 227-230 res06, 231-234 res07, 235 T_00_00A, 236
T_00_00B, 237 T_00_01A, 238 T_00_01B, 239 T_00_02A, 240 T_00_02B, 241 T_00_03A, 242 T_00_03B, 243 T_00_04A, 244 T_00_04B, 245
T_00_05A, 246 T_00_05B, 247 T_00_06A, 248 T_00_06B, 249 T_00_07A, 250 T_00_07B, 251 T_00_08A, 252 T_00_08B, 253 T_00_09A, 254
T_00_09B, 255 T_00_10A, 256 T_00_10B, 257 T_00_11A, 258 T_00_11B, 259 T_00_12A, 260 T_00_12B, 261 T_00_13A, 262 T_00_13B, 263
T_00_14A, 264 T_00_14B, 265 T_00_15A, 266 T_00_15B, 267 O00A, 268 O01A, 269 O02A, 270 O03A, 271 O04A, 272 O05A, 273 O06A, 274
O07A, 275 O08A, 276 O09A, 277 O10A, 278 O11A, 279 O12A, 280 O13A, 281 O14A, 282 O15A, 283 O00B, 284 O01B, 285 O02B, 286 O03B, 287
O04B, 288 O05B, 289 O06B, 290 O07B, 291 O08B, 292 O09B, 293 O10B, 294 O11B, 295 O12B, 296 O13B, 297 O14B, 298 O15B, 299 EO0A, 300
EO1A, 301 EO2A, 302 EO3A, 303 EO4A, 304 EO5A, 305 EO6A, 306 EO7A, 307 EO0B, 308 EO1B, 309 EO2B, 310 EO3B, 311 EO4B, 312 EO5B, 313
EO6B, 314 EO7B, 315 T00, 316 T01, 317 T02, 318 T03, 319 T00, 320 T01, 321 EEO0A, 322 EEO1A, 323 EEO2A, 324 EEO3A, 325 EEO0B, 326
EEO1B, 327 EEO2B, 328 EEO3B, 329 EEEO0A, 330 EEEO0B, 331 EEEO1A, 332 EEEO1B, 333 EEEE0A, 334 EEEE0B, 335 EEEE1A, 336 EEEE1B, 337
EEE0A, 338 EEE0B, 339 EEE1A, 340 EEE1B, 341 EEE3A, 342 EEE3B, 343 EEE2A, 344 EEE2B, 345 EE0A, 346 EE0B, 347 EE1A, 348 EE1B, 349
EE2A, 350 EE2B, 351 EE3A, 352 EE3B, 353 EE7A, 354 EE7B, 355 EE6A, 356 EE6B, 357 EE5A, 358 EE5B, 359 EE4A, 360 EE4B, 361 E0A, 362
E0B, 363 E1A, 364 E1B, 365 E2A, 366 E2B, 367 E3A, 368 E3B, 369 E4A, 370 E4B, 371 E5A, 372 E5B, 373 E6A, 374 E6B, 375 E7A, 376 E7B,
377 EFA, 378 EFB, 379 EEA, 380 EEB, 381 EDA, 382 EDB, 383 ECA, 384 ECB, 385 EBA, 386 EBB, 387 EAA, 388 EAB, 389 E9A, 390 E9B, 391
E8A, 392 E8B, 393 T10A, 394 T10B, 395 T11A, 396 T11B, 397 T12A, 398 T12B, 399 T13A, 400 T13B, 401 T14A, 402 T14B, 403 T15A, 404
T15B, 405 T16A, 406 T16B, 407 T17A, 408 T17B, 409 T18A, 410 T18B, 411 T19A, 412 T19B, 413 T1AA, 414 T1AB, 415 T1BA, 416 T1BB, 417
T1CA, 418 T1CB, 419 T1DA, 420 T1DB, 421 T1EA, 422 T1EB, 423 T1FA, 424 T1FB, 425 T2_00A, 426 T2_00B, 427 T2_01A, 428 T2_01B, 429
T2_02A, 430 T2_02B, 431 T2_03A, 432 T2_03B, 433 T2_04A, 434 T2_04B, 435 T2_05A, 436 T2_05B, 437 T2_06A, 438 T2_06B, 439 T2_07A,
440 T2_07B, 441 T2_08A, 442 T2_08B, 443 T2_09A, 444 T2_09B, 445 T2_10A, 446 T2_10B, 447 T2_11A, 448 T2_11B, 449 T2_12A, 450
T2_12B, 451 T2_13A, 452 T2_13B, 453 T2_14A, 454 T2_14B, 455 T2_15A, 456 T2_15B, 457 T2_31A, 458 T2_31B, 459 T2_30A, 460 T2_30B,
461 T2_29A, 462 T2_29B, 463 T2_28A, 464 T2_28B, 465 T2_27A, 466 T2_27B, 467 T2_26A, 468 T2_26B, 469 T2_25A, 470 T2_25B, 471
T2_24A, 472 T2_24B, 473 T2_23A, 474 T2_23B, 475 T2_22A, 476 T2_22B, 477 T2_21A, 478 T2_21B, 479 T2_20A, 480 T2_20B, 481 T2_19A,
482 T2_19B, 483 T2_18A, 484 T2_18B, 485 T2_17A, 486 T2_17B, 487 T2_16A, 488 T2_16B, 489 T3_00A, 490 T3_00B, 491 T3_01A, 492
T3_01B, 493 T3_02A, 494 T3_02B, 495 T3_03A, 496 T3_03B, 497 T3_04A, 498 T3_04B, 499 T3_05A, 500 T3_05B, 501 T3_06A, 502 T3_06B,
503 T3_07A, 504 T3_07B, 505 T3_08A, 506 T3_08B, 507 T3_09A, 508 T3_09B, 509 T3_10A, 510 T3_10B, 511 T3_11A, 512 T3_11B, 513
T3_12A, 514 T3_12B, 515 T3_13A, 516 T3_13B, 517 T3_14A, 518 T3_14B, 519 T3_15A, 520 T3_15B, 521 T3_16A, 522 T3_16B, 523 T3_17A,
524 T3_17B, 525 T3_18A, 526 T3_18B, 527 T3_19A, 528 T3_19B, 529 T3_20A, 530 T3_20B, 531 T3_21A, 532 T3_21B, 533 T3_22A, 534
T3_22B, 535 T3_23A, 536 T3_23B, 537 T3_24A, 538 T3_24B, 539 T3_25A, 540 T3_25B, 541 T3_26A, 542 T3_26B, 543 T3_27A, 544 T3_27B,
545 T3_28A, 546 T3_28B, 547 T3_29A, 548 T3_29B, 549 T3_30A, 550 T3_30B, 551 T3_31A, 552 T3_31B, 553 max_val, 554 min_val, 555
tr0_0, 556 tr0_1, 557 tr0_2, 558 tr0_3, 559 tr0_4, 560 tr0_5, 561 tr0_6, 562 tr0_7, 563 tr1_0, 564 tr1_1, 565 tr1_2, 566 tr1_3,
567 tr1_4, 568 tr1_5, 569 tr1_6, 570 tr1_7, 571 m128Tmp0, 572 m128Tmp1, 573 m128Tmp2, 574 m128Tmp3, 575 E0h, 576 E1h, 577 E2h, 578
E3h, 579 E0l, 580 E1l, 581 E2l, 582 E3l, 583 O0h, 584 O1h, 585 O2h, 586 O3h, 587 O0l, 588 O1l, 589 O2l, 590 O3l, 591 EE0l, 592
EE1l, 593 E00l, 594 E01l, 595 EE0h, 596 EE1h, 597 E00h, 598 E01h. -/


/-- source/common/vec/intrinsic_idct.cc:6071-6150. -/
def idct_8x32_1 : List S := [
  .set 0 (.k32 0x002d002d),
  .set 1 (.k32 0x002b002c),
  .set 2 (.k32 0x00270029),
  .set 3 (.k32 0x00220024),
  .set 4 (.k32 0x001b001e),
  .set 5 (.k32 0x00130017),
  .set 6 (.k32 0x000b000f),
  .set 7 (.k32 0x00020007),
  .set 8 (.k32 0x0029002d),
  .set 9 (.k32 0x00170022),
  .set 10 (.k32 0xfffe000b),
  .set 11 (.k32 0xffe5fff1),
  .set 12 (.k32 0xffd5ffdc),
  .set 13 (.k32 0xffd4ffd3),
  .set 14 (.k32 0xffe2ffd9),
  .set 15 (.k32 0xfff9ffed),
  .set 16 (.k32 0x0022002c),
  .set 17 (.k32 0xfff9000f),
  .set 18 (.k32 0xffd7ffe5),
  .set 19 (.k32 0xffd9ffd3),
  .set 20 (.k32 0xfffeffe9),
  .set 21 (.k32 0x00240013),
  .set 22 (.k32 0x002b002d),
  .set 23 (.k32 0x000b001e),
  .set 24 (.k32 0x0017002b),
  .set 25 (.k32 0xffdefff9),
  .set 26 (.k32 0xffdcffd3),
  .set 27 (.k32 0x0013fff5),
  .set 28 (.k32 0x002c0029),
  .set 29 (.k32 0xfffe001b),
  .set 30 (.k32 0xffd3ffe2),
  .set 31 (.k32 0xfff1ffd9),
  .set 32 (.k32 0x000b0029),
  .set 33 (.k32 0xffd3ffe5),
  .set 34 (.k32 0x0007ffe2),
  .set 35 (.k32 0x002b0027),
  .set 36 (.k32 0xffe9000f),
  .set 37 (.k32 0xffdeffd3),
  .set 38 (.k32 0x00240002),
  .set 39 (.k32 0x0013002c),
  .set 40 (.k32 0xfffe0027),
  .set 41 (.k32 0xffdcffd7),
  .set 42 (.k32 0x002b0007),
  .set 43 (.k32 0xfff50022),
  .set 44 (.k32 0xffe2ffd4),
  .set 45 (.k32 0x002d000f),
  .set 46 (.k32 0xffed001b),
  .set 47 (.k32 0xffe9ffd3),
  .set 48 (.k32 0xfff10024),
  .set 49 (.k32 0xfff5ffd3),
  .set 50 (.k32 0x00220027),
  .set 51 (.k32 0xffd3ffed),
  .set 52 (.k32 0x0029fff9),
  .set 53 (.k32 0xffe9001e),
  .set 54 (.k32 0xfffeffd4),
  .set 55 (.k32 0x001b002b),
  .set 56 (.k32 0xffe50022),
  .set 57 (.k32 0x0013ffd9),
  .set 58 (.k32 0xfff5002b),
  .set 59 (.k32 0x0002ffd3),
  .set 60 (.k32 0x0007002d),
  .set 61 (.k32 0xfff1ffd4),
  .set 62 (.k32 0x00170029),
  .set 63 (.k32 0xffe2ffdc),
  .set 64 (.k32 0xffdc001e),
  .set 65 (.k32 0x0029ffe9),
  .set 66 (.k32 0xffd4000f),
  .set 67 (.k32 0x002dfff9),
  .set 68 (.k32 0xffd3fffe),
  .set 69 (.k32 0x002b000b),
  .set 70 (.k32 0xffd9ffed),
  .set 71 (.k32 0x0022001b),
  .set 72 (.k32 0xffd5001b),
  .set 73 (.k32 0x002cfffe),
  .set 74 (.k32 0xffe2ffe9),
  .set 75 (.k32 0x00070029),
  .set 76 (.k32 0x0013ffd3),
  .set 77 (.k32 0xffd90022),
  .set 78 (.k32 0x002dfff5),
  .set 79 (.k32 0xffdcfff1)]

/-- source/common/vec/intrinsic_idct.cc:6151-6234. -/
def idct_8x32_2 : List S := [
  .set 80 (.k32 0xffd30017),
  .set 81 (.k32 0x001b0013),
  .set 82 (.k32 0x000fffd3),
  .set 83 (.k32 0xffd4001e),
  .set 84 (.k32 0x0022000b),
  .set 85 (.k32 0x0007ffd5),
  .set 86 (.k32 0xffd70024),
  .set 87 (.k32 0x00270002),
  .set 88 (.k32 0xffd40013),
  .set 89 (.k32 0xfffe0024),
  .set 90 (.k32 0x002dffde),
  .set 91 (.k32 0xfff1ffe9),
  .set 92 (.k32 0xffd9002b),
  .set 93 (.k32 0x001e0007),
  .set 94 (.k32 0x001bffd3),
  .set 95 (.k32 0xffd7000b),
  .set 96 (.k32 0xffd9000f),
  .set 97 (.k32 0xffe2002d),
  .set 98 (.k32 0x001b0002),
  .set 99 (.k32 0x0029ffd4),
  .set 100 (.k32 0xfff5ffed),
  .set 101 (.k32 0xffd30024),
  .set 102 (.k32 0xfff90022),
  .set 103 (.k32 0x002bffe9),
  .set 104 (.k32 0xffe2000b),
  .set 105 (.k32 0xffd3002b),
  .set 106 (.k32 0xffed0024),
  .set 107 (.k32 0x0017fffe),
  .set 108 (.k32 0x002dffd9),
  .set 109 (.k32 0x001bffd7),
  .set 110 (.k32 0xfff1fff9),
  .set 111 (.k32 0xffd40022),
  .set 112 (.k32 0xffed0007),
  .set 113 (.k32 0xffd9001e),
  .set 114 (.k32 0xffd3002c),
  .set 115 (.k32 0xffdc002b),
  .set 116 (.k32 0xfff1001b),
  .set 117 (.k32 0x000b0002),
  .set 118 (.k32 0x0022ffe9),
  .set 119 (.k32 0x002dffd7),
  .set 120 (.k32 0xfff90002),
  .set 121 (.k32 0xfff1000b),
  .set 122 (.k32 0xffe90013),
  .set 123 (.k32 0xffe2001b),
  .set 124 (.k32 0xffdc0022),
  .set 125 (.k32 0xffd70027),
  .set 126 (.k32 0xffd4002b),
  .set 127 (.k32 0xffd3002d),
  .set 128 (.k32 0x00230028),
  .set 129 (.k32 0x0015001d),
  .set 130 (.k32 0x0004000d),
  .set 131 (.k32 0x001d002b),
  .set 132 (.k32 0xffeb0004),
  .set 133 (.k32 0xffd3ffd8),
  .set 134 (.k32 0xfff3ffdd),
  .set 135 (.k32 0x00040028),
  .set 136 (.k32 0xffd5ffdd),
  .set 137 (.k32 0x001dfff3),
  .set 138 (.k32 0x0015002d),
  .set 139 (.k32 0xffeb0023),
  .set 140 (.k32 0x0004ffd5),
  .set 141 (.k32 0x000d002d),
  .set 142 (.k32 0xffe3ffd8),
  .set 143 (.k32 0xffd8001d),
  .set 144 (.k32 0x002dfff3),
  .set 145 (.k32 0xffd5fffc),
  .set 146 (.k32 0x00230015),
  .set 147 (.k32 0xffd30015),
  .set 148 (.k32 0x000d001d),
  .set 149 (.k32 0x0023ffd5),
  .set 150 (.k32 0xffd80004),
  .set 151 (.k32 0xffdd000d),
  .set 152 (.k32 0xffd8002d),
  .set 153 (.k32 0x00040015),
  .set 154 (.k32 0x002bffe3),
  .set 155 (.k32 0xfff30004),
  .set 156 (.k32 0xffe30015),
  .set 157 (.k32 0xffd80023),
  .set 158 (.k32 0x0026002c),
  .set 159 (.k32 0x00090019)]

/-- source/common/vec/intrinsic_idct.cc:6235-6347. -/
def idct_8x32_3 : List S := [
  .set 160 (.k32 0xfff70026),
  .set 161 (.k32 0xffe7ffd4),
  .set 162 (.k32 0xffd40019),
  .set 163 (.k32 0x00260009),
  .set 164 (.k32 0xffe70009),
  .set 165 (.k32 0xffd40026),
  .set 166 (.k32 0x0011002a),
  .set 167 (.k32 0xffd60011),
  .set 168 (.k32 0x00200020),
  .set 169 (.k32 0xffe00020),
  .set 170 (.k32 16),
  .set 171 (.ld 8 0),
  .set 172 (.ld 8 8),
  .set 173 (.ld 8 16),
  .set 174 (.ld 8 24),
  .set 175 (.ld 8 32),
  .set 176 (.ld 8 40),
  .set 177 (.ld 8 48),
  .set 178 (.ld 8 56),
  .set 179 (.ld 8 64),
  .set 180 (.ld 8 72),
  .set 181 (.ld 8 80),
  .set 182 (.ld 8 88),
  .set 183 (.ld 8 96),
  .set 184 (.ld 8 104),
  .set 185 (.ld 8 112),
  .set 186 (.ld 8 120),
  .set 187 (.ld 8 128),
  .set 188 (.ld 8 136),
  .set 189 (.ld 8 144),
  .set 190 (.ld 8 152),
  .set 191 (.ld 8 160),
  .set 192 (.ld 8 168),
  .set 193 (.ld 8 176),
  .set 194 (.ld 8 184),
  .set 195 (.ld 8 192),
  .set 196 (.ld 8 200),
  .set 197 (.ld 8 208),
  .set 198 (.ld 8 216),
  .set 199 (.ld 8 224),
  .set 200 (.ld 8 232),
  .set 201 (.ld 8 240),
  .set 202 (.ld 8 248),
  .set 235 (.op .lo16 (.r 172) (.r 174)),
  .set 236 (.op .hi16 (.r 172) (.r 174)),
  .set 237 (.op .lo16 (.r 176) (.r 178)),
  .set 238 (.op .hi16 (.r 176) (.r 178)),
  .set 239 (.op .lo16 (.r 180) (.r 182)),
  .set 240 (.op .hi16 (.r 180) (.r 182)),
  .set 241 (.op .lo16 (.r 184) (.r 186)),
  .set 242 (.op .hi16 (.r 184) (.r 186)),
  .set 243 (.op .lo16 (.r 188) (.r 190)),
  .set 244 (.op .hi16 (.r 188) (.r 190)),
  .set 245 (.op .lo16 (.r 192) (.r 194)),
  .set 246 (.op .hi16 (.r 192) (.r 194)),
  .set 247 (.op .lo16 (.r 196) (.r 198)),
  .set 248 (.op .hi16 (.r 196) (.r 198)),
  .set 249 (.op .lo16 (.r 200) (.r 202)),
  .set 250 (.op .hi16 (.r 200) (.r 202)),
  .set 251 (.op .lo16 (.r 173) (.r 177)),
  .set 252 (.op .hi16 (.r 173) (.r 177)),
  .set 253 (.op .lo16 (.r 181) (.r 185)),
  .set 254 (.op .hi16 (.r 181) (.r 185)),
  .set 255 (.op .lo16 (.r 189) (.r 193)),
  .set 256 (.op .hi16 (.r 189) (.r 193)),
  .set 257 (.op .lo16 (.r 197) (.r 201)),
  .set 258 (.op .hi16 (.r 197) (.r 201)),
  .set 259 (.op .lo16 (.r 175) (.r 183)),
  .set 260 (.op .hi16 (.r 175) (.r 183)),
  .set 261 (.op .lo16 (.r 191) (.r 199)),
  .set 262 (.op .hi16 (.r 191) (.r 199)),
  .set 263 (.op .lo16 (.r 179) (.r 195)),
  .set 264 (.op .hi16 (.r 179) (.r 195)),
  .set 265 (.op .lo16 (.r 171) (.r 187)),
  .set 266 (.op .hi16 (.r 171) (.r 187)),
  .set 315 (.op .add32 (.op .madd (.r 235) (.r 0)) (.op .madd (.r 237) (.r 1))),
  .set 316 (.op .add32 (.op .madd (.r 239) (.r 2)) (.op .madd (.r 241) (.r 3))),
  .set 317 (.op .add32 (.op .madd (.r 243) (.r 4)) (.op .madd (.r 245) (.r 5))),
  .set 318 (.op .add32 (.op .madd (.r 247) (.r 6)) (.op .madd (.r 249) (.r 7))),
  .set 267 (.op .add32 (.op .add32 (.r 315) (.r 316)) (.op .add32 (.r 317) (.r 318)))]

/-- source/common/vec/intrinsic_idct.cc:6349-6380. -/
def idct_8x32_4 : List S := [
  .set 315 (.op .add32 (.op .madd (.r 235) (.r 8)) (.op .madd (.r 237) (.r 9))),
  .set 316 (.op .add32 (.op .madd (.r 239) (.r 10)) (.op .madd (.r 241) (.r 11))),
  .set 317 (.op .add32 (.op .madd (.r 243) (.r 12)) (.op .madd (.r 245) (.r 13))),
  .set 318 (.op .add32 (.op .madd (.r 247) (.r 14)) (.op .madd (.r 249) (.r 15))),
  .set 268 (.op .add32 (.op .add32 (.r 315) (.r 316)) (.op .add32 (.r 317) (.r 318))),
  .set 315 (.op .add32 (.op .madd (.r 235) (.r 16)) (.op .madd (.r 237) (.r 17))),
  .set 316 (.op .add32 (.op .madd (.r 239) (.r 18)) (.op .madd (.r 241) (.r 19))),
  .set 317 (.op .add32 (.op .madd (.r 243) (.r 20)) (.op .madd (.r 245) (.r 21))),
  .set 318 (.op .add32 (.op .madd (.r 247) (.r 22)) (.op .madd (.r 249) (.r 23))),
  .set 269 (.op .add32 (.op .add32 (.r 315) (.r 316)) (.op .add32 (.r 317) (.r 318))),
  .set 315 (.op .add32 (.op .madd (.r 235) (.r 24)) (.op .madd (.r 237) (.r 25))),
  .set 316 (.op .add32 (.op .madd (.r 239) (.r 26)) (.op .madd (.r 241) (.r 27))),
  .set 317 (.op .add32 (.op .madd (.r 243) (.r 28)) (.op .madd (.r 245) (.r 29))),
  .set 318 (.op .add32 (.op .madd (.r 247) (.r 30)) (.op .madd (.r 249) (.r 31))),
  .set 270 (.op .add32 (.op .add32 (.r 315) (.r 316)) (.op .add32 (.r 317) (.r 318))),
  .set 315 (.op .add32 (.op .madd (.r 235) (.r 32)) (.op .madd (.r 237) (.r 33))),
  .set 316 (.op .add32 (.op .madd (.r 239) (.r 34)) (.op .madd (.r 241) (.r 35))),
  .set 317 (.op .add32 (.op .madd (.r 243) (.r 36)) (.op .madd (.r 245) (.r 37))),
  .set 318 (.op .add32 (.op .madd (.r 247) (.r 38)) (.op .madd (.r 249) (.r 39))),
  .set 271 (.op .add32 (.op .add32 (.r 315) (.r 316)) (.op .add32 (.r 317) (.r 318))),
  .set 315 (.op .add32 (.op .madd (.r 235) (.r 40)) (.op .madd (.r 237) (.r 41))),
  .set 316 (.op .add32 (.op .madd (.r 239) (.r 42)) (.op .madd (.r 241) (.r 43))),
  .set 317 (.op .add32 (.op .madd (.r 243) (.r 44)) (.op .madd (.r 245) (.r 45))),
  .set 318 (.op .add32 (.op .madd (.r 247) (.r 46)) (.op .madd (.r 249) (.r 47))),
  .set 272 (.op .add32 (.op .add32 (.r 315) (.r 316)) (.op .add32 (.r 317) (.r 318))),
  .set 315 (.op .add32 (.op .madd (.r 235) (.r 48)) (.op .madd (.r 237) (.r 49))),
  .set 316 (.op .add32 (.op .madd (.r 239) (.r 50)) (.op .madd (.r 241) (.r 51))),
  .set 317 (.op .add32 (.op .madd (.r 243) (.r 52)) (.op .madd (.r 245) (.r 53))),
  .set 318 (.op .add32 (.op .madd (.r 247) (.r 54)) (.op .madd (.r 249) (.r 55))),
  .set 273 (.op .add32 (.op .add32 (.r 315) (.r 316)) (.op .add32 (.r 317) (.r 318))),
  .set 315 (.op .add32 (.op .madd (.r 235) (.r 56)) (.op .madd (.r 237) (.r 57))),
  .set 316 (.op .add32 (.op .madd (.r 239) (.r 58)) (.op .madd (.r 241) (.r 59))),
  .set 317 (.op .add32 (.op .madd (.r 243) (.r 60)) (.op .madd (.r 245) (.r 61))),
  .set 318 (.op .add32 (.op .madd (.r 247) (.r 62)) (.op .madd (.r 249) (.r 63))),
  .set 274 (.op .add32 (.op .add32 (.r 315) (.r 316)) (.op .add32 (.r 317) (.r 318))),
  .set 315 (.op .add32 (.op .madd (.r 235) (.r 64)) (.op .madd (.r 237) (.r 65))),
  .set 316 (.op .add32 (.op .madd (.r 239) (.r 66)) (.op .madd (.r 241) (.r 67))),
  .set 317 (.op .add32 (.op .madd (.r 243) (.r 68)) (.op .madd (.r 245) (.r 69))),
  .set 318 (.op .add32 (.op .madd (.r 247) (.r 70)) (.op .madd (.r 249) (.r 71))),
  .set 275 (.op .add32 (.op .add32 (.r 315) (.r 316)) (.op .add32 (.r 317) (.r 318))),
  .set 315 (.op .add32 (.op .madd (.r 235) (.r 72)) (.op .madd (.r 237) (.r 73))),
  .set 316 (.op .add32 (.op .madd (.r 239) (.r 74)) (.op .madd (.r 241) (.r 75))),
  .set 317 (.op .add32 (.op .madd (.r 243) (.r 76)) (.op .madd (.r 245) (.r 77))),
  .set 318 (.op .add32 (.op .madd (.r 247) (.r 78)) (.op .madd (.r 249) (.r 79))),
  .set 276 (.op .add32 (.op .add32 (.r 315) (.r 316)) (.op .add32 (.r 317) (.r 318))),
  .set 315 (.op .add32 (.op .madd (.r 235) (.r 80)) (.op .madd (.r 237) (.r 81))),
  .set 316 (.op .add32 (.op .madd (.r 239) (.r 82)) (.op .madd (.r 241) (.r 83))),
  .set 317 (.op .add32 (.op .madd (.r 243) (.r 84)) (.op .madd (.r 245) (.r 85))),
  .set 318 (.op .add32 (.op .madd (.r 247) (.r 86)) (.op .madd (.r 249) (.r 87))),
  .set 277 (.op .add32 (.op .add32 (.r 315) (.r 316)) (.op .add32 (.r 317) (.r 318))),
  .set 315 (.op .add32 (.op .madd (.r 235) (.r 88)) (.op .madd (.r 237) (.r 89))),
  .set 316 (.op .add32 (.op .madd (.r 239) (.r 90)) (.op .madd (.r 241) (.r 91))),
  .set 317 (.op .add32 (.op .madd (.r 243) (.r 92)) (.op .madd (.r 245) (.r 93))),
  .set 318 (.op .add32 (.op .madd (.r 247) (.r 94)) (.op .madd (.r 249) (.r 95))),
  .set 278 (.op .add32 (.op .add32 (.r 315) (.r 316)) (.op .add32 (.r 317) (.r 318))),
  .set 315 (.op .add32 (.op .madd (.r 235) (.r 96)) (.op .madd (.r 237) (.r 97))),
  .set 316 (.op .add32 (.op .madd (.r 239) (.r 98)) (.op .madd (.r 241) (.r 99))),
  .set 317 (.op .add32 (.op .madd (.r 243) (.r 100)) (.op .madd (.r 245) (.r 101))),
  .set 318 (.op .add32 (.op .madd (.r 247) (.r 102)) (.op .madd (.r 249) (.r 103))),
  .set 279 (.op .add32 (.op .add32 (.r 315) (.r 316)) (.op .add32 (.r 317) (.r 318))),
  .set 315 (.op .add32 (.op .madd (.r 235) (.r 104)) (.op .madd (.r 237) (.r 105))),
  .set 316 (.op .add32 (.op .madd (.r 239) (.r 106)) (.op .madd (.r 241) (.r 107))),
  .set 317 (.op .add32 (.op .madd (.r 243) (.r 108)) (.op .madd (.r 245) (.r 109))),
  .set 318 (.op .add32 (.op .madd (.r 247) (.r 110)) (.op .madd (.r 249) (.r 111))),
  .set 280 (.op .add32 (.op .add32 (.r 315) (.r 316)) (.op .add32 (.r 317) (.r 318))),
  .set 315 (.op .add32 (.op .madd (.r 235) (.r 112)) (.op .madd (.r 237) (.r 113))),
  .set 316 (.op .add32 (.op .madd (.r 239) (.r 114)) (.op .madd (.r 241) (.r 115))),
  .set 317 (.op .add32 (.op .madd (.r 243) (.r 116)) (.op .madd (.r 245) (.r 117))),
  .set 318 (.op .add32 (.op .madd (.r 247) (.r 118)) (.op .madd (.r 249) (.r 119))),
  .set 281 (.op .add32 (.op .add32 (.r 315) (.r 316)) (.op .add32 (.r 317) (.r 318))),
  .set 315 (.op .add32 (.op .madd (.r 235) (.r 120)) (.op .madd (.r 237) (.r 121))),
  .set 316 (.op .add32 (.op .madd (.r 239) (.r 122)) (.op .madd (.r 241) (.r 123))),
  .set 317 (.op .add32 (.op .madd (.r 243) (.r 124)) (.op .madd (.r 245) (.r 125))),
  .set 318 (.op .add32 (.op .madd (.r 247) (.r 126)) (.op .madd (.r 249) (.r 127))),
  .set 282 (.op .add32 (.op .add32 (.r 315) (.r 316)) (.op .add32 (.r 317) (.r 318))),
  .set 315 (.op .add32 (.op .madd (.r 236) (.r 0)) (.op .madd (.r 238) (.r 1))),
  .set 316 (.op .add32 (.op .madd (.r 240) (.r 2)) (.op .madd (.r 242) (.r 3))),
  .set 317 (.op .add32 (.op .madd (.r 244) (.r 4)) (.op .madd (.r 246) (.r 5))),
  .set 318 (.op .add32 (.op .madd (.r 248) (.r 6)) (.op .madd (.r 250) (.r 7))),
  .set 283 (.op .add32 (.op .add32 (.r 315) (.r 316)) (.op .add32 (.r 317) (.r 318)))]

/-- source/common/vec/intrinsic_idct.cc:6382-6424. -/
def idct_8x32_5 : List S := [
  .set 315 (.op .add32 (.op .madd (.r 236) (.r 8)) (.op .madd (.r 238) (.r 9))),
  .set 316 (.op .add32 (.op .madd (.r 240) (.r 10)) (.op .madd (.r 242) (.r 11))),
  .set 317 (.op .add32 (.op .madd (.r 244) (.r 12)) (.op .madd (.r 246) (.r 13))),
  .set 318 (.op .add32 (.op .madd (.r 248) (.r 14)) (.op .madd (.r 250) (.r 15))),
  .set 284 (.op .add32 (.op .add32 (.r 315) (.r 316)) (.op .add32 (.r 317) (.r 318))),
  .set 315 (.op .add32 (.op .madd (.r 236) (.r 16)) (.op .madd (.r 238) (.r 17))),
  .set 316 (.op .add32 (.op .madd (.r 240) (.r 18)) (.op .madd (.r 242) (.r 19))),
  .set 317 (.op .add32 (.op .madd (.r 244) (.r 20)) (.op .madd (.r 246) (.r 21))),
  .set 318 (.op .add32 (.op .madd (.r 248) (.r 22)) (.op .madd (.r 250) (.r 23))),
  .set 285 (.op .add32 (.op .add32 (.r 315) (.r 316)) (.op .add32 (.r 317) (.r 318))),
  .set 315 (.op .add32 (.op .madd (.r 236) (.r 24)) (.op .madd (.r 238) (.r 25))),
  .set 316 (.op .add32 (.op .madd (.r 240) (.r 26)) (.op .madd (.r 242) (.r 27))),
  .set 317 (.op .add32 (.op .madd (.r 244) (.r 28)) (.op .madd (.r 246) (.r 29))),
  .set 318 (.op .add32 (.op .madd (.r 248) (.r 30)) (.op .madd (.r 250) (.r 31))),
  .set 286 (.op .add32 (.op .add32 (.r 315) (.r 316)) (.op .add32 (.r 317) (.r 318))),
  .set 315 (.op .add32 (.op .madd (.r 236) (.r 32)) (.op .madd (.r 238) (.r 33))),
  .set 316 (.op .add32 (.op .madd (.r 240) (.r 34)) (.op .madd (.r 242) (.r 35))),
  .set 317 (.op .add32 (.op .madd (.r 244) (.r 36)) (.op .madd (.r 246) (.r 37))),
  .set 318 (.op .add32 (.op .madd (.r 248) (.r 38)) (.op .madd (.r 250) (.r 39))),
  .set 287 (.op .add32 (.op .add32 (.r 315) (.r 316)) (.op .add32 (.r 317) (.r 318))),
  .set 315 (.op .add32 (.op .madd (.r 236) (.r 40)) (.op .madd (.r 238) (.r 41))),
  .set 316 (.op .add32 (.op .madd (.r 240) (.r 42)) (.op .madd (.r 242) (.r 43))),
  .set 317 (.op .add32 (.op .madd (.r 244) (.r 44)) (.op .madd (.r 246) (.r 45))),
  .set 318 (.op .add32 (.op .madd (.r 248) (.r 46)) (.op .madd (.r 250) (.r 47))),
  .set 288 (.op .add32 (.op .add32 (.r 315) (.r 316)) (.op .add32 (.r 317) (.r 318))),
  .set 315 (.op .add32 (.op .madd (.r 236) (.r 48)) (.op .madd (.r 238) (.r 49))),
  .set 316 (.op .add32 (.op .madd (.r 240) (.r 50)) (.op .madd (.r 242) (.r 51))),
  .set 317 (.op .add32 (.op .madd (.r 244) (.r 52)) (.op .madd (.r 246) (.r 53))),
  .set 318 (.op .add32 (.op .madd (.r 248) (.r 54)) (.op .madd (.r 250) (.r 55))),
  .set 289 (.op .add32 (.op .add32 (.r 315) (.r 316)) (.op .add32 (.r 317) (.r 318))),
  .set 315 (.op .add32 (.op .madd (.r 236) (.r 56)) (.op .madd (.r 238) (.r 57))),
  .set 316 (.op .add32 (.op .madd (.r 240) (.r 58)) (.op .madd (.r 242) (.r 59))),
  .set 317 (.op .add32 (.op .madd (.r 244) (.r 60)) (.op .madd (.r 246) (.r 61))),
  .set 318 (.op .add32 (.op .madd (.r 248) (.r 62)) (.op .madd (.r 250) (.r 63))),
  .set 290 (.op .add32 (.op .add32 (.r 315) (.r 316)) (.op .add32 (.r 317) (.r 318))),
  .set 315 (.op .add32 (.op .madd (.r 236) (.r 64)) (.op .madd (.r 238) (.r 65))),
  .set 316 (.op .add32 (.op .madd (.r 240) (.r 66)) (.op .madd (.r 242) (.r 67))),
  .set 317 (.op .add32 (.op .madd (.r 244) (.r 68)) (.op .madd (.r 246) (.r 69))),
  .set 318 (.op .add32 (.op .madd (.r 248) (.r 70)) (.op .madd (.r 250) (.r 71))),
  .set 291 (.op .add32 (.op .add32 (.r 315) (.r 316)) (.op .add32 (.r 317) (.r 318))),
  .set 315 (.op .add32 (.op .madd (.r 236) (.r 72)) (.op .madd (.r 238) (.r 73))),
  .set 316 (.op .add32 (.op .madd (.r 240) (.r 74)) (.op .madd (.r 242) (.r 75))),
  .set 317 (.op .add32 (.op .madd (.r 244) (.r 76)) (.op .madd (.r 246) (.r 77))),
  .set 318 (.op .add32 (.op .madd (.r 248) (.r 78)) (.op .madd (.r 250) (.r 79))),
  .set 292 (.op .add32 (.op .add32 (.r 315) (.r 316)) (.op .add32 (.r 317) (.r 318))),
  .set 315 (.op .add32 (.op .madd (.r 236) (.r 80)) (.op .madd (.r 238) (.r 81))),
  .set 316 (.op .add32 (.op .madd (.r 240) (.r 82)) (.op .madd (.r 242) (.r 83))),
  .set 317 (.op .add32 (.op .madd (.r 244) (.r 84)) (.op .madd (.r 246) (.r 85))),
  .set 318 (.op .add32 (.op .madd (.r 248) (.r 86)) (.op .madd (.r 250) (.r 87))),
  .set 293 (.op .add32 (.op .add32 (.r 315) (.r 316)) (.op .add32 (.r 317) (.r 318))),
  .set 315 (.op .add32 (.op .madd (.r 236) (.r 88)) (.op .madd (.r 238) (.r 89))),
  .set 316 (.op .add32 (.op .madd (.r 240) (.r 90)) (.op .madd (.r 242) (.r 91))),
  .set 317 (.op .add32 (.op .madd (.r 244) (.r 92)) (.op .madd (.r 246) (.r 93))),
  .set 318 (.op .add32 (.op .madd (.r 248) (.r 94)) (.op .madd (.r 250) (.r 95))),
  .set 294 (.op .add32 (.op .add32 (.r 315) (.r 316)) (.op .add32 (.r 317) (.r 318))),
  .set 315 (.op .add32 (.op .madd (.r 236) (.r 96)) (.op .madd (.r 238) (.r 97))),
  .set 316 (.op .add32 (.op .madd (.r 240) (.r 98)) (.op .madd (.r 242) (.r 99))),
  .set 317 (.op .add32 (.op .madd (.r 244) (.r 100)) (.op .madd (.r 246) (.r 101))),
  .set 318 (.op .add32 (.op .madd (.r 248) (.r 102)) (.op .madd (.r 250) (.r 103))),
  .set 295 (.op .add32 (.op .add32 (.r 315) (.r 316)) (.op .add32 (.r 317) (.r 318))),
  .set 315 (.op .add32 (.op .madd (.r 236) (.r 104)) (.op .madd (.r 238) (.r 105))),
  .set 316 (.op .add32 (.op .madd (.r 240) (.r 106)) (.op .madd (.r 242) (.r 107))),
  .set 317 (.op .add32 (.op .madd (.r 244) (.r 108)) (.op .madd (.r 246) (.r 109))),
  .set 318 (.op .add32 (.op .madd (.r 248) (.r 110)) (.op .madd (.r 250) (.r 111))),
  .set 296 (.op .add32 (.op .add32 (.r 315) (.r 316)) (.op .add32 (.r 317) (.r 318))),
  .set 315 (.op .add32 (.op .madd (.r 236) (.r 112)) (.op .madd (.r 238) (.r 113))),
  .set 316 (.op .add32 (.op .madd (.r 240) (.r 114)) (.op .madd (.r 242) (.r 115))),
  .set 317 (.op .add32 (.op .madd (.r 244) (.r 116)) (.op .madd (.r 246) (.r 117))),
  .set 318 (.op .add32 (.op .madd (.r 248) (.r 118)) (.op .madd (.r 250) (.r 119))),
  .set 297 (.op .add32 (.op .add32 (.r 315) (.r 316)) (.op .add32 (.r 317) (.r 318))),
  .set 315 (.op .add32 (.op .madd (.r 236) (.r 120)) (.op .madd (.r 238) (.r 121))),
  .set 316 (.op .add32 (.op .madd (.r 240) (.r 122)) (.op .madd (.r 242) (.r 123))),
  .set 317 (.op .add32 (.op .madd (.r 244) (.r 124)) (.op .madd (.r 246) (.r 125))),
  .set 318 (.op .add32 (.op .madd (.r 248) (.r 126)) (.op .madd (.r 250) (.r 127))),
  .set 298 (.op .add32 (.op .add32 (.r 315) (.r 316)) (.op .add32 (.r 317) (.r 318))),
  .set 319 (.op .add32 (.op .madd (.r 251) (.r 22)) (.op .madd (.r 253) (.r 128))),
  .set 320 (.op .add32 (.op .madd (.r 255) (.r 129)) (.op .madd (.r 257) (.r 130))),
  .set 299 (.op .add32 (.r 319) (.r 320)),
  .set 319 (.op .add32 (.op .madd (.r 251) (.r 131)) (.op .madd (.r 253) (.r 132))),
  .set 320 (.op .add32 (.op .madd (.r 255) (.r 133)) (.op .madd (.r 257) (.r 134)))]

/-- source/common/vec/intrinsic_idct.cc:6424-6484. -/
def idct_8x32_6 : List S := [
  .set 300 (.op .add32 (.r 319) (.r 320)),
  .set 319 (.op .add32 (.op .madd (.r 251) (.r 135)) (.op .madd (.r 253) (.r 136))),
  .set 320 (.op .add32 (.op .madd (.r 255) (.r 137)) (.op .madd (.r 257) (.r 138))),
  .set 301 (.op .add32 (.r 319) (.r 320)),
  .set 319 (.op .add32 (.op .madd (.r 251) (.r 139)) (.op .madd (.r 253) (.r 140))),
  .set 320 (.op .add32 (.op .madd (.r 255) (.r 141)) (.op .madd (.r 257) (.r 142))),
  .set 302 (.op .add32 (.r 319) (.r 320)),
  .set 319 (.op .add32 (.op .madd (.r 251) (.r 143)) (.op .madd (.r 253) (.r 144))),
  .set 320 (.op .add32 (.op .madd (.r 255) (.r 145)) (.op .madd (.r 257) (.r 146))),
  .set 303 (.op .add32 (.r 319) (.r 320)),
  .set 319 (.op .add32 (.op .madd (.r 251) (.r 147)) (.op .madd (.r 253) (.r 148))),
  .set 320 (.op .add32 (.op .madd (.r 255) (.r 149)) (.op .madd (.r 257) (.r 150))),
  .set 304 (.op .add32 (.r 319) (.r 320)),
  .set 319 (.op .add32 (.op .madd (.r 251) (.r 151)) (.op .madd (.r 253) (.r 152))),
  .set 320 (.op .add32 (.op .madd (.r 255) (.r 153)) (.op .madd (.r 257) (.r 154))),
  .set 305 (.op .add32 (.r 319) (.r 320)),
  .set 319 (.op .add32 (.op .madd (.r 251) (.r 155)) (.op .madd (.r 253) (.r 156))),
  .set 320 (.op .add32 (.op .madd (.r 255) (.r 157)) (.op .madd (.r 257) (.r 105))),
  .set 306 (.op .add32 (.r 319) (.r 320)),
  .set 319 (.op .add32 (.op .madd (.r 252) (.r 22)) (.op .madd (.r 254) (.r 128))),
  .set 320 (.op .add32 (.op .madd (.r 256) (.r 129)) (.op .madd (.r 258) (.r 130))),
  .set 307 (.op .add32 (.r 319) (.r 320)),
  .set 319 (.op .add32 (.op .madd (.r 252) (.r 131)) (.op .madd (.r 254) (.r 132))),
  .set 320 (.op .add32 (.op .madd (.r 256) (.r 133)) (.op .madd (.r 258) (.r 134))),
  .set 308 (.op .add32 (.r 319) (.r 320)),
  .set 319 (.op .add32 (.op .madd (.r 252) (.r 135)) (.op .madd (.r 254) (.r 136))),
  .set 320 (.op .add32 (.op .madd (.r 256) (.r 137)) (.op .madd (.r 258) (.r 138))),
  .set 309 (.op .add32 (.r 319) (.r 320)),
  .set 319 (.op .add32 (.op .madd (.r 252) (.r 139)) (.op .madd (.r 254) (.r 140))),
  .set 320 (.op .add32 (.op .madd (.r 256) (.r 141)) (.op .madd (.r 258) (.r 142))),
  .set 310 (.op .add32 (.r 319) (.r 320)),
  .set 319 (.op .add32 (.op .madd (.r 252) (.r 143)) (.op .madd (.r 254) (.r 144))),
  .set 320 (.op .add32 (.op .madd (.r 256) (.r 145)) (.op .madd (.r 258) (.r 146))),
  .set 311 (.op .add32 (.r 319) (.r 320)),
  .set 319 (.op .add32 (.op .madd (.r 252) (.r 147)) (.op .madd (.r 254) (.r 148))),
  .set 320 (.op .add32 (.op .madd (.r 256) (.r 149)) (.op .madd (.r 258) (.r 150))),
  .set 312 (.op .add32 (.r 319) (.r 320)),
  .set 319 (.op .add32 (.op .madd (.r 252) (.r 151)) (.op .madd (.r 254) (.r 152))),
  .set 320 (.op .add32 (.op .madd (.r 256) (.r 153)) (.op .madd (.r 258) (.r 154))),
  .set 313 (.op .add32 (.r 319) (.r 320)),
  .set 319 (.op .add32 (.op .madd (.r 252) (.r 155)) (.op .madd (.r 254) (.r 156))),
  .set 320 (.op .add32 (.op .madd (.r 256) (.r 157)) (.op .madd (.r 258) (.r 105))),
  .set 314 (.op .add32 (.r 319) (.r 320)),
  .set 321 (.op .add32 (.op .madd (.r 259) (.r 158)) (.op .madd (.r 261) (.r 159))),
  .set 322 (.op .add32 (.op .madd (.r 259) (.r 160)) (.op .madd (.r 261) (.r 161))),
  .set 323 (.op .add32 (.op .madd (.r 259) (.r 162)) (.op .madd (.r 261) (.r 163))),
  .set 324 (.op .add32 (.op .madd (.r 259) (.r 164)) (.op .madd (.r 261) (.r 165))),
  .set 325 (.op .add32 (.op .madd (.r 260) (.r 158)) (.op .madd (.r 262) (.r 159))),
  .set 326 (.op .add32 (.op .madd (.r 260) (.r 160)) (.op .madd (.r 262) (.r 161))),
  .set 327 (.op .add32 (.op .madd (.r 260) (.r 162)) (.op .madd (.r 262) (.r 163))),
  .set 328 (.op .add32 (.op .madd (.r 260) (.r 164)) (.op .madd (.r 262) (.r 165))),
  .set 329 (.op .madd (.r 263) (.r 166)),
  .set 330 (.op .madd (.r 264) (.r 166)),
  .set 331 (.op .madd (.r 263) (.r 167)),
  .set 332 (.op .madd (.r 264) (.r 167)),
  .set 333 (.op .madd (.r 265) (.r 168)),
  .set 334 (.op .madd (.r 266) (.r 168)),
  .set 335 (.op .madd (.r 265) (.r 169)),
  .set 336 (.op .madd (.r 266) (.r 169)),
  .set 337 (.op .add32 (.r 333) (.r 329)),
  .set 338 (.op .add32 (.r 334) (.r 330)),
  .set 339 (.op .add32 (.r 335) (.r 331)),
  .set 340 (.op .add32 (.r 336) (.r 332)),
  .set 341 (.op .sub32 (.r 333) (.r 329)),
  .set 342 (.op .sub32 (.r 334) (.r 330)),
  .set 343 (.op .sub32 (.r 335) (.r 331)),
  .set 344 (.op .sub32 (.r 336) (.r 332)),
  .set 345 (.op .add32 (.r 337) (.r 321)),
  .set 346 (.op .add32 (.r 338) (.r 325)),
  .set 347 (.op .add32 (.r 339) (.r 322)),
  .set 348 (.op .add32 (.r 340) (.r 326)),
  .set 349 (.op .add32 (.r 343) (.r 323)),
  .set 350 (.op .add32 (.r 344) (.r 327)),
  .set 351 (.op .add32 (.r 341) (.r 324)),
  .set 352 (.op .add32 (.r 342) (.r 328)),
  .set 353 (.op .sub32 (.r 337) (.r 321)),
  .set 354 (.op .sub32 (.r 338) (.r 325)),
  .set 355 (.op .sub32 (.r 339) (.r 322)),
  .set 356 (.op .sub32 (.r 340) (.r 326)),
  .set 357 (.op .sub32 (.r 343) (.r 323))]

/-- source/common/vec/intrinsic_idct.cc:6485-6567. -/
def idct_8x32_7 : List S := [
  .set 358 (.op .sub32 (.r 344) (.r 327)),
  .set 359 (.op .sub32 (.r 341) (.r 324)),
  .set 360 (.op .sub32 (.r 342) (.r 328)),
  .set 361 (.op .add32 (.r 345) (.r 299)),
  .set 362 (.op .add32 (.r 346) (.r 307)),
  .set 363 (.op .add32 (.r 347) (.r 300)),
  .set 364 (.op .add32 (.r 348) (.r 308)),
  .set 365 (.op .add32 (.r 349) (.r 301)),
  .set 366 (.op .add32 (.r 350) (.r 309)),
  .set 367 (.op .add32 (.r 351) (.r 302)),
  .set 368 (.op .add32 (.r 352) (.r 310)),
  .set 369 (.op .add32 (.r 359) (.r 303)),
  .set 370 (.op .add32 (.r 360) (.r 311)),
  .set 371 (.op .add32 (.r 357) (.r 304)),
  .set 372 (.op .add32 (.r 358) (.r 312)),
  .set 373 (.op .add32 (.r 355) (.r 305)),
  .set 374 (.op .add32 (.r 356) (.r 313)),
  .set 375 (.op .add32 (.r 353) (.r 306)),
  .set 376 (.op .add32 (.r 354) (.r 314)),
  .set 377 (.op .sub32 (.r 345) (.r 299)),
  .set 378 (.op .sub32 (.r 346) (.r 307)),
  .set 379 (.op .sub32 (.r 347) (.r 300)),
  .set 380 (.op .sub32 (.r 348) (.r 308)),
  .set 381 (.op .sub32 (.r 349) (.r 301)),
  .set 382 (.op .sub32 (.r 350) (.r 309)),
  .set 383 (.op .sub32 (.r 351) (.r 302)),
  .set 384 (.op .sub32 (.r 352) (.r 310)),
  .set 385 (.op .sub32 (.r 359) (.r 303)),
  .set 386 (.op .sub32 (.r 360) (.r 311)),
  .set 387 (.op .sub32 (.r 357) (.r 304)),
  .set 388 (.op .sub32 (.r 358) (.r 312)),
  .set 389 (.op .sub32 (.r 355) (.r 305)),
  .set 390 (.op .sub32 (.r 356) (.r 313)),
  .set 391 (.op .sub32 (.r 353) (.r 306)),
  .set 392 (.op .sub32 (.r 354) (.r 314)),
  .set 393 (.op .add32 (.r 361) (.r 170)),
  .set 394 (.op .add32 (.r 362) (.r 170)),
  .set 395 (.op .add32 (.r 363) (.r 170)),
  .set 396 (.op .add32 (.r 364) (.r 170)),
  .set 397 (.op .add32 (.r 365) (.r 170)),
  .set 398 (.op .add32 (.r 366) (.r 170)),
  .set 399 (.op .add32 (.r 367) (.r 170)),
  .set 400 (.op .add32 (.r 368) (.r 170)),
  .set 401 (.op .add32 (.r 369) (.r 170)),
  .set 402 (.op .add32 (.r 370) (.r 170)),
  .set 403 (.op .add32 (.r 371) (.r 170)),
  .set 404 (.op .add32 (.r 372) (.r 170)),
  .set 405 (.op .add32 (.r 373) (.r 170)),
  .set 406 (.op .add32 (.r 374) (.r 170)),
  .set 407 (.op .add32 (.r 375) (.r 170)),
  .set 408 (.op .add32 (.r 376) (.r 170)),
  .set 409 (.op .add32 (.r 391) (.r 170)),
  .set 410 (.op .add32 (.r 392) (.r 170)),
  .set 411 (.op .add32 (.r 389) (.r 170)),
  .set 412 (.op .add32 (.r 390) (.r 170)),
  .set 413 (.op .add32 (.r 387) (.r 170)),
  .set 414 (.op .add32 (.r 388) (.r 170)),
  .set 415 (.op .add32 (.r 385) (.r 170)),
  .set 416 (.op .add32 (.r 386) (.r 170)),
  .set 417 (.op .add32 (.r 383) (.r 170)),
  .set 418 (.op .add32 (.r 384) (.r 170)),
  .set 419 (.op .add32 (.r 381) (.r 170)),
  .set 420 (.op .add32 (.r 382) (.r 170)),
  .set 421 (.op .add32 (.r 379) (.r 170)),
  .set 422 (.op .add32 (.r 380) (.r 170)),
  .set 423 (.op .add32 (.r 377) (.r 170)),
  .set 424 (.op .add32 (.r 378) (.r 170)),
  .set 425 (.op .add32 (.r 393) (.r 267)),
  .set 426 (.op .add32 (.r 394) (.r 283)),
  .set 427 (.op .add32 (.r 395) (.r 268)),
  .set 428 (.op .add32 (.r 396) (.r 284)),
  .set 429 (.op .add32 (.r 397) (.r 269)),
  .set 430 (.op .add32 (.r 398) (.r 285)),
  .set 431 (.op .add32 (.r 399) (.r 270)),
  .set 432 (.op .add32 (.r 400) (.r 286)),
  .set 433 (.op .add32 (.r 401) (.r 271)),
  .set 434 (.op .add32 (.r 402) (.r 287)),
  .set 435 (.op .add32 (.r 403) (.r 272)),
  .set 436 (.op .add32 (.r 404) (.r 288)),
  .set 437 (.op .add32 (.r 405) (.r 273))]

/-- source/common/vec/intrinsic_idct.cc:6568-6648. -/
def idct_8x32_8 : List S := [
  .set 438 (.op .add32 (.r 406) (.r 289)),
  .set 439 (.op .add32 (.r 407) (.r 274)),
  .set 440 (.op .add32 (.r 408) (.r 290)),
  .set 441 (.op .add32 (.r 409) (.r 275)),
  .set 442 (.op .add32 (.r 410) (.r 291)),
  .set 443 (.op .add32 (.r 411) (.r 276)),
  .set 444 (.op .add32 (.r 412) (.r 292)),
  .set 445 (.op .add32 (.r 413) (.r 277)),
  .set 446 (.op .add32 (.r 414) (.r 293)),
  .set 447 (.op .add32 (.r 415) (.r 278)),
  .set 448 (.op .add32 (.r 416) (.r 294)),
  .set 449 (.op .add32 (.r 417) (.r 279)),
  .set 450 (.op .add32 (.r 418) (.r 295)),
  .set 451 (.op .add32 (.r 419) (.r 280)),
  .set 452 (.op .add32 (.r 420) (.r 296)),
  .set 453 (.op .add32 (.r 421) (.r 281)),
  .set 454 (.op .add32 (.r 422) (.r 297)),
  .set 455 (.op .add32 (.r 423) (.r 282)),
  .set 456 (.op .add32 (.r 424) (.r 298)),
  .set 457 (.op .sub32 (.r 393) (.r 267)),
  .set 458 (.op .sub32 (.r 394) (.r 283)),
  .set 459 (.op .sub32 (.r 395) (.r 268)),
  .set 460 (.op .sub32 (.r 396) (.r 284)),
  .set 461 (.op .sub32 (.r 397) (.r 269)),
  .set 462 (.op .sub32 (.r 398) (.r 285)),
  .set 463 (.op .sub32 (.r 399) (.r 270)),
  .set 464 (.op .sub32 (.r 400) (.r 286)),
  .set 465 (.op .sub32 (.r 401) (.r 271)),
  .set 466 (.op .sub32 (.r 402) (.r 287)),
  .set 467 (.op .sub32 (.r 403) (.r 272)),
  .set 468 (.op .sub32 (.r 404) (.r 288)),
  .set 469 (.op .sub32 (.r 405) (.r 273)),
  .set 470 (.op .sub32 (.r 406) (.r 289)),
  .set 471 (.op .sub32 (.r 407) (.r 274)),
  .set 472 (.op .sub32 (.r 408) (.r 290)),
  .set 473 (.op .sub32 (.r 409) (.r 275)),
  .set 474 (.op .sub32 (.r 410) (.r 291)),
  .set 475 (.op .sub32 (.r 411) (.r 276)),
  .set 476 (.op .sub32 (.r 412) (.r 292)),
  .set 477 (.op .sub32 (.r 413) (.r 277)),
  .set 478 (.op .sub32 (.r 414) (.r 293)),
  .set 479 (.op .sub32 (.r 415) (.r 278)),
  .set 480 (.op .sub32 (.r 416) (.r 294)),
  .set 481 (.op .sub32 (.r 417) (.r 279)),
  .set 482 (.op .sub32 (.r 418) (.r 295)),
  .set 483 (.op .sub32 (.r 419) (.r 280)),
  .set 484 (.op .sub32 (.r 420) (.r 296)),
  .set 485 (.op .sub32 (.r 421) (.r 281)),
  .set 486 (.op .sub32 (.r 422) (.r 297)),
  .set 487 (.op .sub32 (.r 423) (.r 282)),
  .set 488 (.op .sub32 (.r 424) (.r 298)),
  .set 489 (.sra32 (.r 425) 5),
  .set 490 (.sra32 (.r 426) 5),
  .set 491 (.sra32 (.r 427) 5),
  .set 492 (.sra32 (.r 428) 5),
  .set 493 (.sra32 (.r 429) 5),
  .set 494 (.sra32 (.r 430) 5),
  .set 495 (.sra32 (.r 431) 5),
  .set 496 (.sra32 (.r 432) 5),
  .set 497 (.sra32 (.r 433) 5),
  .set 498 (.sra32 (.r 434) 5),
  .set 499 (.sra32 (.r 435) 5),
  .set 500 (.sra32 (.r 436) 5),
  .set 501 (.sra32 (.r 437) 5),
  .set 502 (.sra32 (.r 438) 5),
  .set 503 (.sra32 (.r 439) 5),
  .set 504 (.sra32 (.r 440) 5),
  .set 505 (.sra32 (.r 441) 5),
  .set 506 (.sra32 (.r 442) 5),
  .set 507 (.sra32 (.r 443) 5),
  .set 508 (.sra32 (.r 444) 5),
  .set 509 (.sra32 (.r 445) 5),
  .set 510 (.sra32 (.r 446) 5),
  .set 511 (.sra32 (.r 447) 5),
  .set 512 (.sra32 (.r 448) 5),
  .set 513 (.sra32 (.r 449) 5),
  .set 514 (.sra32 (.r 450) 5),
  .set 515 (.sra32 (.r 451) 5),
  .set 516 (.sra32 (.r 452) 5),
  .set 517 (.sra32 (.r 453) 5)]

/-- source/common/vec/intrinsic_idct.cc:6649-6753. -/
def idct_8x32_9 (wl : Nat) : List S := [
  .set 518 (.sra32 (.r 454) 5),
  .set 519 (.sra32 (.r 455) 5),
  .set 520 (.sra32 (.r 456) 5),
  .set 521 (.sra32 (.r 487) 5),
  .set 522 (.sra32 (.r 488) 5),
  .set 523 (.sra32 (.r 485) 5),
  .set 524 (.sra32 (.r 486) 5),
  .set 525 (.sra32 (.r 483) 5),
  .set 526 (.sra32 (.r 484) 5),
  .set 527 (.sra32 (.r 481) 5),
  .set 528 (.sra32 (.r 482) 5),
  .set 529 (.sra32 (.r 479) 5),
  .set 530 (.sra32 (.r 480) 5),
  .set 531 (.sra32 (.r 477) 5),
  .set 532 (.sra32 (.r 478) 5),
  .set 533 (.sra32 (.r 475) 5),
  .set 534 (.sra32 (.r 476) 5),
  .set 535 (.sra32 (.r 473) 5),
  .set 536 (.sra32 (.r 474) 5),
  .set 537 (.sra32 (.r 471) 5),
  .set 538 (.sra32 (.r 472) 5),
  .set 539 (.sra32 (.r 469) 5),
  .set 540 (.sra32 (.r 470) 5),
  .set 541 (.sra32 (.r 467) 5),
  .set 542 (.sra32 (.r 468) 5),
  .set 543 (.sra32 (.r 465) 5),
  .set 544 (.sra32 (.r 466) 5),
  .set 545 (.sra32 (.r 463) 5),
  .set 546 (.sra32 (.r 464) 5),
  .set 547 (.sra32 (.r 461) 5),
  .set 548 (.sra32 (.r 462) 5),
  .set 549 (.sra32 (.r 459) 5),
  .set 550 (.sra32 (.r 460) 5),
  .set 551 (.sra32 (.r 457) 5),
  .set 552 (.sra32 (.r 458) 5),
  .set 203 (.op .packs (.r 489) (.r 490)),
  .set 207 (.op .packs (.r 491) (.r 492)),
  .set 211 (.op .packs (.r 493) (.r 494)),
  .set 215 (.op .packs (.r 495) (.r 496)),
  .set 219 (.op .packs (.r 497) (.r 498)),
  .set 223 (.op .packs (.r 499) (.r 500)),
  .set 227 (.op .packs (.r 501) (.r 502)),
  .set 231 (.op .packs (.r 503) (.r 504)),
  .set 204 (.op .packs (.r 505) (.r 506)),
  .set 208 (.op .packs (.r 507) (.r 508)),
  .set 212 (.op .packs (.r 509) (.r 510)),
  .set 216 (.op .packs (.r 511) (.r 512)),
  .set 220 (.op .packs (.r 513) (.r 514)),
  .set 224 (.op .packs (.r 515) (.r 516)),
  .set 228 (.op .packs (.r 517) (.r 518)),
  .set 232 (.op .packs (.r 519) (.r 520)),
  .set 205 (.op .packs (.r 521) (.r 522)),
  .set 209 (.op .packs (.r 523) (.r 524)),
  .set 213 (.op .packs (.r 525) (.r 526)),
  .set 217 (.op .packs (.r 527) (.r 528)),
  .set 221 (.op .packs (.r 529) (.r 530)),
  .set 225 (.op .packs (.r 531) (.r 532)),
  .set 229 (.op .packs (.r 533) (.r 534)),
  .set 233 (.op .packs (.r 535) (.r 536)),
  .set 206 (.op .packs (.r 537) (.r 538)),
  .set 210 (.op .packs (.r 539) (.r 540)),
  .set 214 (.op .packs (.r 541) (.r 542)),
  .set 218 (.op .packs (.r 543) (.r 544)),
  .set 222 (.op .packs (.r 545) (.r 546)),
  .set 226 (.op .packs (.r 547) (.r 548)),
  .set 230 (.op .packs (.r 549) (.r 550)),
  .set 234 (.op .packs (.r 551) (.r 552)),
  .set 553 (.k16 (255 + 256 * wl)),
  .set 554 (.k16 (-256 - 256 * wl)),
  .set 170 (.k32 (2 ^ (11 - wl)))]

/-- source/common/vec/intrinsic_idct.cc:6761-6855. -/
def idct_8x32_10 (wl : Nat) (pass : Nat) : List S := transpose8 555 563
    (203 + pass) (207 + pass) (211 + pass) (215 + pass) (219 + pass) (223 + pass) (227 + pass) (231 + pass)
    171 172 173 174 175 176 177 178 ++
  [
  .set 571 (.op .lo16 (.r 172) (.r 174)),
  .set 580 (.op .madd (.r 571) (.kk 44 38)),
  .set 572 (.op .hi16 (.r 172) (.r 174)),
  .set 576 (.op .madd (.r 572) (.kk 44 38)),
  .set 573 (.op .lo16 (.r 176) (.r 178)),
  .set 581 (.op .madd (.r 573) (.kk 25 9)),
  .set 574 (.op .hi16 (.r 176) (.r 178)),
  .set 577 (.op .madd (.r 574) (.kk 25 9)),
  .set 587 (.op .add32 (.r 580) (.r 581)),
  .set 583 (.op .add32 (.r 576) (.r 577)),
  .set 580 (.op .madd (.r 571) (.kk 38 (-9))),
  .set 576 (.op .madd (.r 572) (.kk 38 (-9))),
  .set 581 (.op .madd (.r 573) (.kk (-44) (-25))),
  .set 577 (.op .madd (.r 574) (.kk (-44) (-25))),
  .set 588 (.op .add32 (.r 580) (.r 581)),
  .set 584 (.op .add32 (.r 576) (.r 577)),
  .set 580 (.op .madd (.r 571) (.kk 25 (-44))),
  .set 576 (.op .madd (.r 572) (.kk 25 (-44))),
  .set 581 (.op .madd (.r 573) (.kk 9 38)),
  .set 577 (.op .madd (.r 574) (.kk 9 38)),
  .set 589 (.op .add32 (.r 580) (.r 581)),
  .set 585 (.op .add32 (.r 576) (.r 577)),
  .set 580 (.op .madd (.r 571) (.kk 9 (-25))),
  .set 576 (.op .madd (.r 572) (.kk 9 (-25))),
  .set 581 (.op .madd (.r 573) (.kk 38 (-44))),
  .set 577 (.op .madd (.r 574) (.kk 38 (-44))),
  .set 586 (.op .add32 (.r 576) (.r 577)),
  .set 590 (.op .add32 (.r 580) (.r 581)),
  .set 571 (.op .lo16 (.r 171) (.r 175)),
  .set 591 (.op .madd (.r 571) (.kk 32 32)),
  .set 572 (.op .hi16 (.r 171) (.r 175)),
  .set 595 (.op .madd (.r 572) (.kk 32 32)),
  .set 592 (.op .madd (.r 571) (.kk 32 (-32))),
  .set 596 (.op .madd (.r 572) (.kk 32 (-32))),
  .set 571 (.op .lo16 (.r 173) (.r 177)),
  .set 593 (.op .madd (.r 571) (.kk 42 17)),
  .set 572 (.op .hi16 (.r 173) (.r 177)),
  .set 597 (.op .madd (.r 572) (.kk 42 17)),
  .set 594 (.op .madd (.r 571) (.kk 17 (-42))),
  .set 598 (.op .madd (.r 572) (.kk 17 (-42))),
  .set 579 (.op .add32 (.r 591) (.r 593)),
  .set 579 (.op .add32 (.r 579) (.r 170)),
  .set 575 (.op .add32 (.r 595) (.r 597)),
  .set 575 (.op .add32 (.r 575) (.r 170)),
  .set 582 (.op .sub32 (.r 591) (.r 593)),
  .set 582 (.op .add32 (.r 582) (.r 170)),
  .set 578 (.op .sub32 (.r 595) (.r 597)),
  .set 578 (.op .add32 (.r 578) (.r 170)),
  .set 580 (.op .add32 (.r 592) (.r 594)),
  .set 580 (.op .add32 (.r 580) (.r 170)),
  .set 576 (.op .add32 (.r 596) (.r 598)),
  .set 576 (.op .add32 (.r 576) (.r 170)),
  .set 581 (.op .sub32 (.r 592) (.r 594)),
  .set 581 (.op .add32 (.r 581) (.r 170)),
  .set 577 (.op .sub32 (.r 596) (.r 598)),
  .set 577 (.op .add32 (.r 577) (.r 170)),
  .set 171 (.op .packs (.sra32 (.op .add32 (.r 579) (.r 587)) (12 - wl)) (.sra32 (.op .add32 (.r 575) (.r 583)) (12 - wl))),
  .set 178 (.op .packs (.sra32 (.op .sub32 (.r 579) (.r 587)) (12 - wl)) (.sra32 (.op .sub32 (.r 575) (.r 583)) (12 - wl))),
  .set 172 (.op .packs (.sra32 (.op .add32 (.r 580) (.r 588)) (12 - wl)) (.sra32 (.op .add32 (.r 576) (.r 584)) (12 - wl))),
  .set 177 (.op .packs (.sra32 (.op .sub32 (.r 580) (.r 588)) (12 - wl)) (.sra32 (.op .sub32 (.r 576) (.r 584)) (12 - wl))),
  .set 173 (.op .packs (.sra32 (.op .add32 (.r 581) (.r 589)) (12 - wl)) (.sra32 (.op .add32 (.r 577) (.r 585)) (12 - wl))),
  .set 176 (.op .packs (.sra32 (.op .sub32 (.r 581) (.r 589)) (12 - wl)) (.sra32 (.op .sub32 (.r 577) (.r 585)) (12 - wl))),
  .set 174 (.op .packs (.sra32 (.op .add32 (.r 582) (.r 590)) (12 - wl)) (.sra32 (.op .add32 (.r 578) (.r 586)) (12 - wl))),
  .set 175 (.op .packs (.sra32 (.op .sub32 (.r 582) (.r 590)) (12 - wl)) (.sra32 (.op .sub32 (.r 578) (.r 586)) (12 - wl))),
  .set 579 (.op .lo16 (.r 171) (.r 175)),
  .set 580 (.op .lo16 (.r 172) (.r 176)),
  .set 581 (.op .lo16 (.r 173) (.r 177)),
  .set 582 (.op .lo16 (.r 174) (.r 178)),
  .set 587 (.op .hi16 (.r 171) (.r 175)),
  .set 588 (.op .hi16 (.r 172) (.r 176)),
  .set 589 (.op .hi16 (.r 173) (.r 177)),
  .set 590 (.op .hi16 (.r 174) (.r 178)),
  .set 571 (.op .lo16 (.r 579) (.r 581)),
  .set 572 (.op .lo16 (.r 580) (.r 582)),
  .set 171 (.op .lo16 (.r 571) (.r 572)),
  .set 171 (.op .min16 (.r 171) (.r 553)),
  .set 171 (.op .max16 (.r 171) (.r 554)),
  .st 8 (64 * pass) (.r 171),
  .set 172 (.op .hi16 (.r 571) (.r 572))]

/-- source/common/vec/intrinsic_idct.cc:6856-6891. -/
def idct_8x32_11 (pass : Nat) : List S := [
  .set 172 (.op .min16 (.r 172) (.r 553)),
  .set 172 (.op .max16 (.r 172) (.r 554)),
  .st 8 (8 + 64 * pass) (.r 172),
  .set 573 (.op .hi16 (.r 579) (.r 581)),
  .set 574 (.op .hi16 (.r 580) (.r 582)),
  .set 173 (.op .lo16 (.r 573) (.r 574)),
  .set 173 (.op .min16 (.r 173) (.r 553)),
  .set 173 (.op .max16 (.r 173) (.r 554)),
  .st 8 (16 + 64 * pass) (.r 173),
  .set 174 (.op .hi16 (.r 573) (.r 574)),
  .set 174 (.op .min16 (.r 174) (.r 553)),
  .set 174 (.op .max16 (.r 174) (.r 554)),
  .st 8 (24 + 64 * pass) (.r 174),
  .set 571 (.op .lo16 (.r 587) (.r 589)),
  .set 572 (.op .lo16 (.r 588) (.r 590)),
  .set 175 (.op .lo16 (.r 571) (.r 572)),
  .set 175 (.op .min16 (.r 175) (.r 553)),
  .set 175 (.op .max16 (.r 175) (.r 554)),
  .st 8 (32 + 64 * pass) (.r 175),
  .set 176 (.op .hi16 (.r 571) (.r 572)),
  .set 176 (.op .min16 (.r 176) (.r 553)),
  .set 176 (.op .max16 (.r 176) (.r 554)),
  .st 8 (40 + 64 * pass) (.r 176),
  .set 573 (.op .hi16 (.r 587) (.r 589)),
  .set 574 (.op .hi16 (.r 588) (.r 590)),
  .set 177 (.op .lo16 (.r 573) (.r 574)),
  .set 177 (.op .min16 (.r 177) (.r 553)),
  .set 177 (.op .max16 (.r 177) (.r 554)),
  .st 8 (48 + 64 * pass) (.r 177),
  .set 178 (.op .hi16 (.r 573) (.r 574)),
  .set 178 (.op .min16 (.r 178) (.r 553)),
  .set 178 (.op .max16 (.r 178) (.r 554)),
  .st 8 (56 + 64 * pass) (.r 178)]

/-- `idct_8x32_sse128`, source/common/vec/intrinsic_idct.cc:6069. `wl` is the lowest bit of the argument `i_dst`. -/
def idct_8x32 (wl : Nat) : List S :=
  idct_8x32_1 ++ idct_8x32_2 ++ idct_8x32_3 ++ idct_8x32_4 ++ idct_8x32_5 ++ idct_8x32_6 ++ idct_8x32_7 ++ idct_8x32_8 ++ idct_8x32_9 wl ++ (rep 4 fun pass => idct_8x32_10 wl pass ++ idct_8x32_11 pass)

end Davs2.Si
