import Verif.Model.SimdProg
/-
Vector versions (SSE) of the inverse transforms of blocks of 32 x 32, source/common/vec/intrinsic_idct.cc.

The statements of the functions in the order of the text; loops with `rep`.  The numbers of the registers are given
at the head of each function.  Produced from the text of the functions by replacing each variable by its number and each intrinsic by its name
in Model/SimdProg.lean.
-/
namespace Davs2.Si

/-! ### `idct_32x32_sse128`

Registers: 0 c16_p45_p45, 1 c16_p43_p44, 2 c16_p39_p41, 3 c16_p34_p36, 4 c16_p27_p30, 5 c16_p19_p23, 6 c16_p11_p15, 7 c16_p02_p07,
8 c16_p41_p45, 9 c16_p23_p34, 10 c16_n02_p11, 11 c16_n27_n15, 12 c16_n43_n36, 13 c16_n44_n45, 14 c16_n30_n39, 15 c16_n07_n19, 16
c16_p34_p44, 17 c16_n07_p15, 18 c16_n41_n27, 19 c16_n39_n45, 20 c16_n02_n23, 21 c16_p36_p19, 22 c16_p43_p45, 23 c16_p11_p30, 24
c16_p23_p43, 25 c16_n34_n07, 26 c16_n36_n45, 27 c16_p19_n11, 28 c16_p44_p41, 29 c16_n02_p27, 30 c16_n45_n30, 31 c16_n15_n39, 32
c16_p11_p41, 33 c16_n45_n27, 34 c16_p07_n30, 35 c16_p43_p39, 36 c16_n23_p15, 37 c16_n34_n45, 38 c16_p36_p02, 39 c16_p19_p44, 40
c16_n02_p39, 41 c16_n36_n41, 42 c16_p43_p07, 43 c16_n11_p34, 44 c16_n30_n44, 45 c16_p45_p15, 46 c16_n19_p27, 47 c16_n23_n45, 48
c16_n15_p36, 49 c16_n11_n45, 50 c16_p34_p39, 51 c16_n45_n19, 52 c16_p41_n07, 53 c16_n23_p30, 54 c16_n02_n44, 55 c16_p27_p43, 56
c16_n27_p34, 57 c16_p19_n39, 58 c16_n11_p43, 59 c16_p02_n45, 60 c16_p07_p45, 61 c16_n15_n44, 62 c16_p23_p41, 63 c16_n30_n36, 64
c16_n36_p30, 65 c16_p41_n23, 66 c16_n44_p15, 67 c16_p45_n07, 68 c16_n45_n02, 69 c16_p43_p11, 70 c16_n39_n19, 71 c16_p34_p27, 72
c16_n43_p27, 73 c16_p44_n02, 74 c16_n30_n23, 75 c16_p07_p41, 76 c16_p19_n45, 77 c16_n39_p34, 78 c16_p45_n11, 79 c16_n36_n15, 80
c16_n45_p23, 81 c16_p27_p19, 82 c16_p15_n45, 83 c16_n44_p30, 84 c16_p34_p11, 85 c16_p07_n43, 86 c16_n41_p36, 87 c16_p39_p02, 88
c16_n44_p19, 89 c16_n02_p36, 90 c16_p45_n34, 91 c16_n15_n23, 92 c16_n39_p43, 93 c16_p30_p07, 94 c16_p27_n45, 95 c16_n41_p11, 96
c16_n39_p15, 97 c16_n30_p45, 98 c16_p27_p02, 99 c16_p41_n44, 100 c16_n11_n19, 101 c16_n45_p36, 102 c16_n07_p34, 103 c16_p43_n23,
104 c16_n30_p11, 105 c16_n45_p43, 106 c16_n19_p36, 107 c16_p23_n02, 108 c16_p45_n39, 109 c16_p27_n41, 110 c16_n15_n07, 111
c16_n44_p34, 112 c16_n19_p07, 113 c16_n39_p30, 114 c16_n45_p44, 115 c16_n36_p43, 116 c16_n15_p27, 117 c16_p11_p02, 118
c16_p34_n23, 119 c16_p45_n41, 120 c16_n07_p02, 121 c16_n15_p11, 122 c16_n23_p19, 123 c16_n30_p27, 124 c16_n36_p34, 125
c16_n41_p39, 126 c16_n44_p43, 127 c16_n45_p45, 128 c16_p35_p40, 129 c16_p21_p29, 130 c16_p04_p13, 131 c16_p29_p43, 132
c16_n21_p04, 133 c16_n45_n40, 134 c16_n13_n35, 135 c16_p04_p40, 136 c16_n43_n35, 137 c16_p29_n13, 138 c16_p21_p45, 139
c16_n21_p35, 140 c16_p04_n43, 141 c16_p13_p45, 142 c16_n29_n40, 143 c16_n40_p29, 144 c16_p45_n13, 145 c16_n43_n04, 146
c16_p35_p21, 147 c16_n45_p21, 148 c16_p13_p29, 149 c16_p35_n43, 150 c16_n40_p04, 151 c16_n35_p13, 152 c16_n40_p45, 153
c16_p04_p21, 154 c16_p43_n29, 155 c16_n13_p04, 156 c16_n29_p21, 157 c16_n40_p35, 158 c16_p38_p44, 159 c16_p09_p25, 160
c16_n09_p38, 161 c16_n25_n44, 162 c16_n44_p25, 163 c16_p38_p09, 164 c16_n25_p09, 165 c16_n44_p38, 166 c16_p17_p42, 167
c16_n42_p17, 168 c16_p32_p32, 169 c16_n32_p32, 170 c32_rnd, 171-174 in00, 175-178 in01, 179-182 in02, 183-186 in03, 187-190 in04,
191-194 in05, 195-198 in06, 199-202 in07, 203-206 in08, 207-210 in09, 211-214 in10, 215-218 in11, 219-222 in12, 223-226 in13,
227-230 in14, 231-234 in15, 235-238 in16, 239-242 in17, 243-246 in18, 247-250 in19, 251-254 in20, 255-258 in21, 259-262 in22,
263-266 in23, 267-270 in24, 271-274 in25, 275-278 in26, 279-282 in27, 283-286 in28, 287-290 in29, 291-294 in30, 295-298 in31,
299-302 res00, 303-306 res01, 307-310 res02, 311-314 res03, 315-318 res04, 319-322 res05, 323-326 res06, 327-330 res07, 331-334
res08, 335-338 res09, 339-342 res10, 343-346 res11, 347-350 res12, 351-354 res13, 355-358 res14, 359-362 res15, 363-366 res16,
367-370 res17, 371-374 res18, 375-378 res19, 379-382 res20, 383-386 res21, 387-390 res22, 391-394 res23, 395-398 res24, 399-402
res25, 403-406 res26, 407-410 res27, 411-414 res28, 415-418 res29, 419-422 res30, 423-426 res31, 427 T_00_00A, 428 T_00_00B, 429
T_00_01A, 430 T_00_01B, 431 T_00_02A, 432 T_00_02B, 433 T_00_03A, 434 T_00_03B, 435 T_00_04A, 436 T_00_04B, 437 T_00_05A, 438
T_00_05B, 439 T_00_06A, 440 T_00_06B, 441 T_00_07A, 442 T_00_07B, 443 T_00_08A, 444 T_00_08B, 445 T_00_09A, 446 T_00_09B, 447
T_00_10A, 448 T_00_10B, 449 T_00_11A, 450 T_00_11B, 451 T_00_12A, 452 T_00_12B, 453 T_00_13A, 454 T_00_13B, 455 T_00_14A, 456
T_00_14B, 457 T_00_15A, 458 T_00_15B, 459 O00A, 460 O01A, 461 O02A, 462 O03A, 463 O04A, 464 O05A, 465 O06A, 466 O07A, 467 O08A,
468 O09A, 469 O10A, 470 O11A, 471 O12A, 472 O13A, 473 O14A, 474 O15A, 475 O00B, 476 O01B, 477 O02B, 478 O03B, 479 O04B, 480 O05B,
481 O06B, 482 O07B, 483 O08B, 484 O09B, 485 O10B, 486 O11B, 487 O12B, 488 O13B, 489 O14B, 490 O15B, 491 EO0A, 492 EO1A, 493 EO2A,
494 EO3A, 495 EO4A, 496 EO5A, 497 EO6A, 498 EO7A, 499 EO0B, 500 EO1B, 501 EO2B, 502 EO3B, 503 EO4B, 504 EO5B, 505 EO6B, 506 EO7B,
507 T00, 508 T01, 509 T02, 510 T03, 511 T00, 512 T01, 513 EEO0A, 514 EEO1A, 515 EEO2A, 516 EEO3A, 517 EEO0B, 518 EEO1B, 519 EEO2B,
520 EEO3B, 521 EEEO0A, 522 EEEO0B, 523 EEEO1A, 524 EEEO1B, 525 EEEE0A, 526 EEEE0B, 527 EEEE1A, 528 EEEE1B, 529 EEE0A, 530 EEE0B,
531 EEE1A, 532 EEE1B, 533 EEE3A, 534 EEE3B, 535 EEE2A, 536 EEE2B, 537 EE0A, 538 EE0B, 539 EE1A, 540 EE1B, 541 EE2A, 542 EE2B, 543
EE3A, 544 EE3B, 545 EE7A, 546 EE7B, 547 EE6A, 548 EE6B, 549 EE5A, 550 EE5B, 551 EE4A, 552 EE4B, 553 E0A, 554 E0B, 555 E1A, 556
E1B, 557 E2A, 558 E2B, 559 E3A, 560 E3B, 561 E4A, 562 E4B, 563 E5A, 564 E5B, 565 E6A, 566 E6B, 567 E7A, 568 E7B, 569 EFA, 570 EFB,
571 EEA, 572 EEB, 573 EDA, 574 EDB, 575 ECA, 576 ECB, 577 EBA, 578 EBB, 579 EAA, 580 EAB, 581 E9A, 582 E9B, 583 E8A, 584 E8B, 585
T10A, 586 T10B, 587 T11A, 588 T11B, 589 T12A, 590 T12B, 591 T13A, 592 T13B, 593 T14A, 594 T14B, 595 T15A, 596 T15B, 597 T16A, 598
T16B, 599 T17A, 600 T17B, 601 T18A, 602 T18B, 603 T19A, 604 T19B, 605 T1AA, 606 T1AB, 607 T1BA, 608 T1BB, 609 T1CA, 610 T1CB, 611
T1DA, 612 T1DB, 613 T1EA, 614 T1EB, 615 T1FA, 616 T1FB, 617 T2_00A, 618 T2_00B, 619 T2_01A, 620 T2_01B, 621 T2_02A, 622 T2_02B,
623 T2_03A, 624 T2_03B, 625 T2_04A, 626 T2_04B, 627 T2_05A, 628 T2_05B, 629 T2_06A, 630 T2_06B, 631 T2_07A, 632 T2_07B, 633
T2_08A, 634 T2_08B, 635 T2_09A, 636 T2_09B, 637 T2_10A, 638 T2_10B, 639 T2_11A, 640 T2_11B, 641 T2_12A, 642 T2_12B, 643 T2_13A,
644 T2_13B, 645 T2_14A, 646 T2_14B, 647 T2_15A, 648 T2_15B, 649 T2_31A, 650 T2_31B, 651 T2_30A, 652 T2_30B, 653 T2_29A, 654
T2_29B, 655 T2_28A, 656 T2_28B, 657 T2_27A, 658 T2_27B, 659 T2_26A, 660 T2_26B, 661 T2_25A, 662 T2_25B, 663 T2_24A, 664 T2_24B,
665 T2_23A, 666 T2_23B, 667 T2_22A, 668 T2_22B, 669 T2_21A, 670 T2_21B, 671 T2_20A, 672 T2_20B, 673 T2_19A, 674 T2_19B, 675
T2_18A, 676 T2_18B, 677 T2_17A, 678 T2_17B, 679 T2_16A, 680 T2_16B, 681 T3_00A, 682 T3_00B, 683 T3_01A, 684 T3_01B, 685 T3_02A,
686 T3_02B, 687 T3_03A, 688 T3_03B, 689 T3_04A, 690 T3_04B, 691 T3_05A, 692 T3_05B, 693 T3_06A, 694 T3_06B, 695 T3_07A, 696
T3_07B, 697 T3_08A, 698 T3_08B, 699 T3_09A, 700 T3_09B, 701 T3_10A, 702 T3_10B, 703 T3_11A, 704 T3_11B, 705 T3_12A, 706 T3_12B,
707 T3_13A, 708 T3_13B, 709 T3_14A, 710 T3_14B, 711 T3_15A, 712 T3_15B, 713 T3_16A, 714 T3_16B, 715 T3_17A, 716 T3_17B, 717
T3_18A, 718 T3_18B, 719 T3_19A, 720 T3_19B, 721 T3_20A, 722 T3_20B, 723 T3_21A, 724 T3_21B, 725 T3_22A, 726 T3_22B, 727 T3_23A,
728 T3_23B, 729 T3_24A, 730 T3_24B, 731 T3_25A, 732 T3_25B, 733 T3_26A, 734 T3_26B, 735 T3_27A, 736 T3_27B, 737 T3_28A, 738
T3_28B, 739 T3_29A, 740 T3_29B, 741 T3_30A, 742 T3_30B, 743 T3_31A, 744 T3_31B, 745 tr0_0, 746 tr0_1, 747 tr0_2, 748 tr0_3, 749
tr0_4, 750 tr0_5, 751 tr0_6, 752 tr0_7, 753 tr1_0, 754 tr1_1, 755 tr1_2, 756 tr1_3, 757 tr1_4, 758 tr1_5, 759 tr1_6, 760 tr1_7,
761 max_val, 762 min_val. -/


/-- source/common/vec/intrinsic_idct.cc:2690-2757. -/
def idct_32x32_1 (part : Nat) : List S := [
  .set 427 (.op .lo16 (.r (175 + part)) (.r (183 + part))),
  .set 428 (.op .hi16 (.r (175 + part)) (.r (183 + part))),
  .set 429 (.op .lo16 (.r (191 + part)) (.r (199 + part))),
  .set 430 (.op .hi16 (.r (191 + part)) (.r (199 + part))),
  .set 431 (.op .lo16 (.r (207 + part)) (.r (215 + part))),
  .set 432 (.op .hi16 (.r (207 + part)) (.r (215 + part))),
  .set 433 (.op .lo16 (.r (223 + part)) (.r (231 + part))),
  .set 434 (.op .hi16 (.r (223 + part)) (.r (231 + part))),
  .set 435 (.op .lo16 (.r (239 + part)) (.r (247 + part))),
  .set 436 (.op .hi16 (.r (239 + part)) (.r (247 + part))),
  .set 437 (.op .lo16 (.r (255 + part)) (.r (263 + part))),
  .set 438 (.op .hi16 (.r (255 + part)) (.r (263 + part))),
  .set 439 (.op .lo16 (.r (271 + part)) (.r (279 + part))),
  .set 440 (.op .hi16 (.r (271 + part)) (.r (279 + part))),
  .set 441 (.op .lo16 (.r (287 + part)) (.r (295 + part))),
  .set 442 (.op .hi16 (.r (287 + part)) (.r (295 + part))),
  .set 443 (.op .lo16 (.r (179 + part)) (.r (195 + part))),
  .set 444 (.op .hi16 (.r (179 + part)) (.r (195 + part))),
  .set 445 (.op .lo16 (.r (211 + part)) (.r (227 + part))),
  .set 446 (.op .hi16 (.r (211 + part)) (.r (227 + part))),
  .set 447 (.op .lo16 (.r (243 + part)) (.r (259 + part))),
  .set 448 (.op .hi16 (.r (243 + part)) (.r (259 + part))),
  .set 449 (.op .lo16 (.r (275 + part)) (.r (291 + part))),
  .set 450 (.op .hi16 (.r (275 + part)) (.r (291 + part))),
  .set 451 (.op .lo16 (.r (187 + part)) (.r (219 + part))),
  .set 452 (.op .hi16 (.r (187 + part)) (.r (219 + part))),
  .set 453 (.op .lo16 (.r (251 + part)) (.r (283 + part))),
  .set 454 (.op .hi16 (.r (251 + part)) (.r (283 + part))),
  .set 455 (.op .lo16 (.r (203 + part)) (.r (267 + part))),
  .set 456 (.op .hi16 (.r (203 + part)) (.r (267 + part))),
  .set 457 (.op .lo16 (.r (171 + part)) (.r (235 + part))),
  .set 458 (.op .hi16 (.r (171 + part)) (.r (235 + part))),
  .set 507 (.op .add32 (.op .madd (.r 427) (.r 0)) (.op .madd (.r 429) (.r 1))),
  .set 508 (.op .add32 (.op .madd (.r 431) (.r 2)) (.op .madd (.r 433) (.r 3))),
  .set 509 (.op .add32 (.op .madd (.r 435) (.r 4)) (.op .madd (.r 437) (.r 5))),
  .set 510 (.op .add32 (.op .madd (.r 439) (.r 6)) (.op .madd (.r 441) (.r 7))),
  .set 459 (.op .add32 (.op .add32 (.r 507) (.r 508)) (.op .add32 (.r 509) (.r 510))),
  .set 507 (.op .add32 (.op .madd (.r 427) (.r 8)) (.op .madd (.r 429) (.r 9))),
  .set 508 (.op .add32 (.op .madd (.r 431) (.r 10)) (.op .madd (.r 433) (.r 11))),
  .set 509 (.op .add32 (.op .madd (.r 435) (.r 12)) (.op .madd (.r 437) (.r 13))),
  .set 510 (.op .add32 (.op .madd (.r 439) (.r 14)) (.op .madd (.r 441) (.r 15))),
  .set 460 (.op .add32 (.op .add32 (.r 507) (.r 508)) (.op .add32 (.r 509) (.r 510))),
  .set 507 (.op .add32 (.op .madd (.r 427) (.r 16)) (.op .madd (.r 429) (.r 17))),
  .set 508 (.op .add32 (.op .madd (.r 431) (.r 18)) (.op .madd (.r 433) (.r 19))),
  .set 509 (.op .add32 (.op .madd (.r 435) (.r 20)) (.op .madd (.r 437) (.r 21))),
  .set 510 (.op .add32 (.op .madd (.r 439) (.r 22)) (.op .madd (.r 441) (.r 23))),
  .set 461 (.op .add32 (.op .add32 (.r 507) (.r 508)) (.op .add32 (.r 509) (.r 510))),
  .set 507 (.op .add32 (.op .madd (.r 427) (.r 24)) (.op .madd (.r 429) (.r 25))),
  .set 508 (.op .add32 (.op .madd (.r 431) (.r 26)) (.op .madd (.r 433) (.r 27))),
  .set 509 (.op .add32 (.op .madd (.r 435) (.r 28)) (.op .madd (.r 437) (.r 29))),
  .set 510 (.op .add32 (.op .madd (.r 439) (.r 30)) (.op .madd (.r 441) (.r 31))),
  .set 462 (.op .add32 (.op .add32 (.r 507) (.r 508)) (.op .add32 (.r 509) (.r 510))),
  .set 507 (.op .add32 (.op .madd (.r 427) (.r 32)) (.op .madd (.r 429) (.r 33))),
  .set 508 (.op .add32 (.op .madd (.r 431) (.r 34)) (.op .madd (.r 433) (.r 35))),
  .set 509 (.op .add32 (.op .madd (.r 435) (.r 36)) (.op .madd (.r 437) (.r 37))),
  .set 510 (.op .add32 (.op .madd (.r 439) (.r 38)) (.op .madd (.r 441) (.r 39))),
  .set 463 (.op .add32 (.op .add32 (.r 507) (.r 508)) (.op .add32 (.r 509) (.r 510))),
  .set 507 (.op .add32 (.op .madd (.r 427) (.r 40)) (.op .madd (.r 429) (.r 41))),
  .set 508 (.op .add32 (.op .madd (.r 431) (.r 42)) (.op .madd (.r 433) (.r 43))),
  .set 509 (.op .add32 (.op .madd (.r 435) (.r 44)) (.op .madd (.r 437) (.r 45))),
  .set 510 (.op .add32 (.op .madd (.r 439) (.r 46)) (.op .madd (.r 441) (.r 47))),
  .set 464 (.op .add32 (.op .add32 (.r 507) (.r 508)) (.op .add32 (.r 509) (.r 510))),
  .set 507 (.op .add32 (.op .madd (.r 427) (.r 48)) (.op .madd (.r 429) (.r 49))),
  .set 508 (.op .add32 (.op .madd (.r 431) (.r 50)) (.op .madd (.r 433) (.r 51))),
  .set 509 (.op .add32 (.op .madd (.r 435) (.r 52)) (.op .madd (.r 437) (.r 53))),
  .set 510 (.op .add32 (.op .madd (.r 439) (.r 54)) (.op .madd (.r 441) (.r 55))),
  .set 465 (.op .add32 (.op .add32 (.r 507) (.r 508)) (.op .add32 (.r 509) (.r 510))),
  .set 507 (.op .add32 (.op .madd (.r 427) (.r 56)) (.op .madd (.r 429) (.r 57))),
  .set 508 (.op .add32 (.op .madd (.r 431) (.r 58)) (.op .madd (.r 433) (.r 59))),
  .set 509 (.op .add32 (.op .madd (.r 435) (.r 60)) (.op .madd (.r 437) (.r 61))),
  .set 510 (.op .add32 (.op .madd (.r 439) (.r 62)) (.op .madd (.r 441) (.r 63))),
  .set 466 (.op .add32 (.op .add32 (.r 507) (.r 508)) (.op .add32 (.r 509) (.r 510))),
  .set 507 (.op .add32 (.op .madd (.r 427) (.r 64)) (.op .madd (.r 429) (.r 65))),
  .set 508 (.op .add32 (.op .madd (.r 431) (.r 66)) (.op .madd (.r 433) (.r 67))),
  .set 509 (.op .add32 (.op .madd (.r 435) (.r 68)) (.op .madd (.r 437) (.r 69))),
  .set 510 (.op .add32 (.op .madd (.r 439) (.r 70)) (.op .madd (.r 441) (.r 71))),
  .set 467 (.op .add32 (.op .add32 (.r 507) (.r 508)) (.op .add32 (.r 509) (.r 510))),
  .set 507 (.op .add32 (.op .madd (.r 427) (.r 72)) (.op .madd (.r 429) (.r 73))),
  .set 508 (.op .add32 (.op .madd (.r 431) (.r 74)) (.op .madd (.r 433) (.r 75))),
  .set 509 (.op .add32 (.op .madd (.r 435) (.r 76)) (.op .madd (.r 437) (.r 77)))]

/-- source/common/vec/intrinsic_idct.cc:2757-2790. -/
def idct_32x32_2 : List S := [
  .set 510 (.op .add32 (.op .madd (.r 439) (.r 78)) (.op .madd (.r 441) (.r 79))),
  .set 468 (.op .add32 (.op .add32 (.r 507) (.r 508)) (.op .add32 (.r 509) (.r 510))),
  .set 507 (.op .add32 (.op .madd (.r 427) (.r 80)) (.op .madd (.r 429) (.r 81))),
  .set 508 (.op .add32 (.op .madd (.r 431) (.r 82)) (.op .madd (.r 433) (.r 83))),
  .set 509 (.op .add32 (.op .madd (.r 435) (.r 84)) (.op .madd (.r 437) (.r 85))),
  .set 510 (.op .add32 (.op .madd (.r 439) (.r 86)) (.op .madd (.r 441) (.r 87))),
  .set 469 (.op .add32 (.op .add32 (.r 507) (.r 508)) (.op .add32 (.r 509) (.r 510))),
  .set 507 (.op .add32 (.op .madd (.r 427) (.r 88)) (.op .madd (.r 429) (.r 89))),
  .set 508 (.op .add32 (.op .madd (.r 431) (.r 90)) (.op .madd (.r 433) (.r 91))),
  .set 509 (.op .add32 (.op .madd (.r 435) (.r 92)) (.op .madd (.r 437) (.r 93))),
  .set 510 (.op .add32 (.op .madd (.r 439) (.r 94)) (.op .madd (.r 441) (.r 95))),
  .set 470 (.op .add32 (.op .add32 (.r 507) (.r 508)) (.op .add32 (.r 509) (.r 510))),
  .set 507 (.op .add32 (.op .madd (.r 427) (.r 96)) (.op .madd (.r 429) (.r 97))),
  .set 508 (.op .add32 (.op .madd (.r 431) (.r 98)) (.op .madd (.r 433) (.r 99))),
  .set 509 (.op .add32 (.op .madd (.r 435) (.r 100)) (.op .madd (.r 437) (.r 101))),
  .set 510 (.op .add32 (.op .madd (.r 439) (.r 102)) (.op .madd (.r 441) (.r 103))),
  .set 471 (.op .add32 (.op .add32 (.r 507) (.r 508)) (.op .add32 (.r 509) (.r 510))),
  .set 507 (.op .add32 (.op .madd (.r 427) (.r 104)) (.op .madd (.r 429) (.r 105))),
  .set 508 (.op .add32 (.op .madd (.r 431) (.r 106)) (.op .madd (.r 433) (.r 107))),
  .set 509 (.op .add32 (.op .madd (.r 435) (.r 108)) (.op .madd (.r 437) (.r 109))),
  .set 510 (.op .add32 (.op .madd (.r 439) (.r 110)) (.op .madd (.r 441) (.r 111))),
  .set 472 (.op .add32 (.op .add32 (.r 507) (.r 508)) (.op .add32 (.r 509) (.r 510))),
  .set 507 (.op .add32 (.op .madd (.r 427) (.r 112)) (.op .madd (.r 429) (.r 113))),
  .set 508 (.op .add32 (.op .madd (.r 431) (.r 114)) (.op .madd (.r 433) (.r 115))),
  .set 509 (.op .add32 (.op .madd (.r 435) (.r 116)) (.op .madd (.r 437) (.r 117))),
  .set 510 (.op .add32 (.op .madd (.r 439) (.r 118)) (.op .madd (.r 441) (.r 119))),
  .set 473 (.op .add32 (.op .add32 (.r 507) (.r 508)) (.op .add32 (.r 509) (.r 510))),
  .set 507 (.op .add32 (.op .madd (.r 427) (.r 120)) (.op .madd (.r 429) (.r 121))),
  .set 508 (.op .add32 (.op .madd (.r 431) (.r 122)) (.op .madd (.r 433) (.r 123))),
  .set 509 (.op .add32 (.op .madd (.r 435) (.r 124)) (.op .madd (.r 437) (.r 125))),
  .set 510 (.op .add32 (.op .madd (.r 439) (.r 126)) (.op .madd (.r 441) (.r 127))),
  .set 474 (.op .add32 (.op .add32 (.r 507) (.r 508)) (.op .add32 (.r 509) (.r 510))),
  .set 507 (.op .add32 (.op .madd (.r 428) (.r 0)) (.op .madd (.r 430) (.r 1))),
  .set 508 (.op .add32 (.op .madd (.r 432) (.r 2)) (.op .madd (.r 434) (.r 3))),
  .set 509 (.op .add32 (.op .madd (.r 436) (.r 4)) (.op .madd (.r 438) (.r 5))),
  .set 510 (.op .add32 (.op .madd (.r 440) (.r 6)) (.op .madd (.r 442) (.r 7))),
  .set 475 (.op .add32 (.op .add32 (.r 507) (.r 508)) (.op .add32 (.r 509) (.r 510))),
  .set 507 (.op .add32 (.op .madd (.r 428) (.r 8)) (.op .madd (.r 430) (.r 9))),
  .set 508 (.op .add32 (.op .madd (.r 432) (.r 10)) (.op .madd (.r 434) (.r 11))),
  .set 509 (.op .add32 (.op .madd (.r 436) (.r 12)) (.op .madd (.r 438) (.r 13))),
  .set 510 (.op .add32 (.op .madd (.r 440) (.r 14)) (.op .madd (.r 442) (.r 15))),
  .set 476 (.op .add32 (.op .add32 (.r 507) (.r 508)) (.op .add32 (.r 509) (.r 510))),
  .set 507 (.op .add32 (.op .madd (.r 428) (.r 16)) (.op .madd (.r 430) (.r 17))),
  .set 508 (.op .add32 (.op .madd (.r 432) (.r 18)) (.op .madd (.r 434) (.r 19))),
  .set 509 (.op .add32 (.op .madd (.r 436) (.r 20)) (.op .madd (.r 438) (.r 21))),
  .set 510 (.op .add32 (.op .madd (.r 440) (.r 22)) (.op .madd (.r 442) (.r 23))),
  .set 477 (.op .add32 (.op .add32 (.r 507) (.r 508)) (.op .add32 (.r 509) (.r 510))),
  .set 507 (.op .add32 (.op .madd (.r 428) (.r 24)) (.op .madd (.r 430) (.r 25))),
  .set 508 (.op .add32 (.op .madd (.r 432) (.r 26)) (.op .madd (.r 434) (.r 27))),
  .set 509 (.op .add32 (.op .madd (.r 436) (.r 28)) (.op .madd (.r 438) (.r 29))),
  .set 510 (.op .add32 (.op .madd (.r 440) (.r 30)) (.op .madd (.r 442) (.r 31))),
  .set 478 (.op .add32 (.op .add32 (.r 507) (.r 508)) (.op .add32 (.r 509) (.r 510))),
  .set 507 (.op .add32 (.op .madd (.r 428) (.r 32)) (.op .madd (.r 430) (.r 33))),
  .set 508 (.op .add32 (.op .madd (.r 432) (.r 34)) (.op .madd (.r 434) (.r 35))),
  .set 509 (.op .add32 (.op .madd (.r 436) (.r 36)) (.op .madd (.r 438) (.r 37))),
  .set 510 (.op .add32 (.op .madd (.r 440) (.r 38)) (.op .madd (.r 442) (.r 39))),
  .set 479 (.op .add32 (.op .add32 (.r 507) (.r 508)) (.op .add32 (.r 509) (.r 510))),
  .set 507 (.op .add32 (.op .madd (.r 428) (.r 40)) (.op .madd (.r 430) (.r 41))),
  .set 508 (.op .add32 (.op .madd (.r 432) (.r 42)) (.op .madd (.r 434) (.r 43))),
  .set 509 (.op .add32 (.op .madd (.r 436) (.r 44)) (.op .madd (.r 438) (.r 45))),
  .set 510 (.op .add32 (.op .madd (.r 440) (.r 46)) (.op .madd (.r 442) (.r 47))),
  .set 480 (.op .add32 (.op .add32 (.r 507) (.r 508)) (.op .add32 (.r 509) (.r 510))),
  .set 507 (.op .add32 (.op .madd (.r 428) (.r 48)) (.op .madd (.r 430) (.r 49))),
  .set 508 (.op .add32 (.op .madd (.r 432) (.r 50)) (.op .madd (.r 434) (.r 51))),
  .set 509 (.op .add32 (.op .madd (.r 436) (.r 52)) (.op .madd (.r 438) (.r 53))),
  .set 510 (.op .add32 (.op .madd (.r 440) (.r 54)) (.op .madd (.r 442) (.r 55))),
  .set 481 (.op .add32 (.op .add32 (.r 507) (.r 508)) (.op .add32 (.r 509) (.r 510))),
  .set 507 (.op .add32 (.op .madd (.r 428) (.r 56)) (.op .madd (.r 430) (.r 57))),
  .set 508 (.op .add32 (.op .madd (.r 432) (.r 58)) (.op .madd (.r 434) (.r 59))),
  .set 509 (.op .add32 (.op .madd (.r 436) (.r 60)) (.op .madd (.r 438) (.r 61))),
  .set 510 (.op .add32 (.op .madd (.r 440) (.r 62)) (.op .madd (.r 442) (.r 63))),
  .set 482 (.op .add32 (.op .add32 (.r 507) (.r 508)) (.op .add32 (.r 509) (.r 510))),
  .set 507 (.op .add32 (.op .madd (.r 428) (.r 64)) (.op .madd (.r 430) (.r 65))),
  .set 508 (.op .add32 (.op .madd (.r 432) (.r 66)) (.op .madd (.r 434) (.r 67))),
  .set 509 (.op .add32 (.op .madd (.r 436) (.r 68)) (.op .madd (.r 438) (.r 69))),
  .set 510 (.op .add32 (.op .madd (.r 440) (.r 70)) (.op .madd (.r 442) (.r 71))),
  .set 483 (.op .add32 (.op .add32 (.r 507) (.r 508)) (.op .add32 (.r 509) (.r 510))),
  .set 507 (.op .add32 (.op .madd (.r 428) (.r 72)) (.op .madd (.r 430) (.r 73))),
  .set 508 (.op .add32 (.op .madd (.r 432) (.r 74)) (.op .madd (.r 434) (.r 75))),
  .set 509 (.op .add32 (.op .madd (.r 436) (.r 76)) (.op .madd (.r 438) (.r 77)))]

/-- source/common/vec/intrinsic_idct.cc:2790-2830. -/
def idct_32x32_3 : List S := [
  .set 510 (.op .add32 (.op .madd (.r 440) (.r 78)) (.op .madd (.r 442) (.r 79))),
  .set 484 (.op .add32 (.op .add32 (.r 507) (.r 508)) (.op .add32 (.r 509) (.r 510))),
  .set 507 (.op .add32 (.op .madd (.r 428) (.r 80)) (.op .madd (.r 430) (.r 81))),
  .set 508 (.op .add32 (.op .madd (.r 432) (.r 82)) (.op .madd (.r 434) (.r 83))),
  .set 509 (.op .add32 (.op .madd (.r 436) (.r 84)) (.op .madd (.r 438) (.r 85))),
  .set 510 (.op .add32 (.op .madd (.r 440) (.r 86)) (.op .madd (.r 442) (.r 87))),
  .set 485 (.op .add32 (.op .add32 (.r 507) (.r 508)) (.op .add32 (.r 509) (.r 510))),
  .set 507 (.op .add32 (.op .madd (.r 428) (.r 88)) (.op .madd (.r 430) (.r 89))),
  .set 508 (.op .add32 (.op .madd (.r 432) (.r 90)) (.op .madd (.r 434) (.r 91))),
  .set 509 (.op .add32 (.op .madd (.r 436) (.r 92)) (.op .madd (.r 438) (.r 93))),
  .set 510 (.op .add32 (.op .madd (.r 440) (.r 94)) (.op .madd (.r 442) (.r 95))),
  .set 486 (.op .add32 (.op .add32 (.r 507) (.r 508)) (.op .add32 (.r 509) (.r 510))),
  .set 507 (.op .add32 (.op .madd (.r 428) (.r 96)) (.op .madd (.r 430) (.r 97))),
  .set 508 (.op .add32 (.op .madd (.r 432) (.r 98)) (.op .madd (.r 434) (.r 99))),
  .set 509 (.op .add32 (.op .madd (.r 436) (.r 100)) (.op .madd (.r 438) (.r 101))),
  .set 510 (.op .add32 (.op .madd (.r 440) (.r 102)) (.op .madd (.r 442) (.r 103))),
  .set 487 (.op .add32 (.op .add32 (.r 507) (.r 508)) (.op .add32 (.r 509) (.r 510))),
  .set 507 (.op .add32 (.op .madd (.r 428) (.r 104)) (.op .madd (.r 430) (.r 105))),
  .set 508 (.op .add32 (.op .madd (.r 432) (.r 106)) (.op .madd (.r 434) (.r 107))),
  .set 509 (.op .add32 (.op .madd (.r 436) (.r 108)) (.op .madd (.r 438) (.r 109))),
  .set 510 (.op .add32 (.op .madd (.r 440) (.r 110)) (.op .madd (.r 442) (.r 111))),
  .set 488 (.op .add32 (.op .add32 (.r 507) (.r 508)) (.op .add32 (.r 509) (.r 510))),
  .set 507 (.op .add32 (.op .madd (.r 428) (.r 112)) (.op .madd (.r 430) (.r 113))),
  .set 508 (.op .add32 (.op .madd (.r 432) (.r 114)) (.op .madd (.r 434) (.r 115))),
  .set 509 (.op .add32 (.op .madd (.r 436) (.r 116)) (.op .madd (.r 438) (.r 117))),
  .set 510 (.op .add32 (.op .madd (.r 440) (.r 118)) (.op .madd (.r 442) (.r 119))),
  .set 489 (.op .add32 (.op .add32 (.r 507) (.r 508)) (.op .add32 (.r 509) (.r 510))),
  .set 507 (.op .add32 (.op .madd (.r 428) (.r 120)) (.op .madd (.r 430) (.r 121))),
  .set 508 (.op .add32 (.op .madd (.r 432) (.r 122)) (.op .madd (.r 434) (.r 123))),
  .set 509 (.op .add32 (.op .madd (.r 436) (.r 124)) (.op .madd (.r 438) (.r 125))),
  .set 510 (.op .add32 (.op .madd (.r 440) (.r 126)) (.op .madd (.r 442) (.r 127))),
  .set 490 (.op .add32 (.op .add32 (.r 507) (.r 508)) (.op .add32 (.r 509) (.r 510))),
  .set 511 (.op .add32 (.op .madd (.r 443) (.r 22)) (.op .madd (.r 445) (.r 128))),
  .set 512 (.op .add32 (.op .madd (.r 447) (.r 129)) (.op .madd (.r 449) (.r 130))),
  .set 491 (.op .add32 (.r 511) (.r 512)),
  .set 511 (.op .add32 (.op .madd (.r 443) (.r 131)) (.op .madd (.r 445) (.r 132))),
  .set 512 (.op .add32 (.op .madd (.r 447) (.r 133)) (.op .madd (.r 449) (.r 134))),
  .set 492 (.op .add32 (.r 511) (.r 512)),
  .set 511 (.op .add32 (.op .madd (.r 443) (.r 135)) (.op .madd (.r 445) (.r 136))),
  .set 512 (.op .add32 (.op .madd (.r 447) (.r 137)) (.op .madd (.r 449) (.r 138))),
  .set 493 (.op .add32 (.r 511) (.r 512)),
  .set 511 (.op .add32 (.op .madd (.r 443) (.r 139)) (.op .madd (.r 445) (.r 140))),
  .set 512 (.op .add32 (.op .madd (.r 447) (.r 141)) (.op .madd (.r 449) (.r 142))),
  .set 494 (.op .add32 (.r 511) (.r 512)),
  .set 511 (.op .add32 (.op .madd (.r 443) (.r 143)) (.op .madd (.r 445) (.r 144))),
  .set 512 (.op .add32 (.op .madd (.r 447) (.r 145)) (.op .madd (.r 449) (.r 146))),
  .set 495 (.op .add32 (.r 511) (.r 512)),
  .set 511 (.op .add32 (.op .madd (.r 443) (.r 147)) (.op .madd (.r 445) (.r 148))),
  .set 512 (.op .add32 (.op .madd (.r 447) (.r 149)) (.op .madd (.r 449) (.r 150))),
  .set 496 (.op .add32 (.r 511) (.r 512)),
  .set 511 (.op .add32 (.op .madd (.r 443) (.r 151)) (.op .madd (.r 445) (.r 152))),
  .set 512 (.op .add32 (.op .madd (.r 447) (.r 153)) (.op .madd (.r 449) (.r 154))),
  .set 497 (.op .add32 (.r 511) (.r 512)),
  .set 511 (.op .add32 (.op .madd (.r 443) (.r 155)) (.op .madd (.r 445) (.r 156))),
  .set 512 (.op .add32 (.op .madd (.r 447) (.r 157)) (.op .madd (.r 449) (.r 105))),
  .set 498 (.op .add32 (.r 511) (.r 512)),
  .set 511 (.op .add32 (.op .madd (.r 444) (.r 22)) (.op .madd (.r 446) (.r 128))),
  .set 512 (.op .add32 (.op .madd (.r 448) (.r 129)) (.op .madd (.r 450) (.r 130))),
  .set 499 (.op .add32 (.r 511) (.r 512)),
  .set 511 (.op .add32 (.op .madd (.r 444) (.r 131)) (.op .madd (.r 446) (.r 132))),
  .set 512 (.op .add32 (.op .madd (.r 448) (.r 133)) (.op .madd (.r 450) (.r 134))),
  .set 500 (.op .add32 (.r 511) (.r 512)),
  .set 511 (.op .add32 (.op .madd (.r 444) (.r 135)) (.op .madd (.r 446) (.r 136))),
  .set 512 (.op .add32 (.op .madd (.r 448) (.r 137)) (.op .madd (.r 450) (.r 138))),
  .set 501 (.op .add32 (.r 511) (.r 512)),
  .set 511 (.op .add32 (.op .madd (.r 444) (.r 139)) (.op .madd (.r 446) (.r 140))),
  .set 512 (.op .add32 (.op .madd (.r 448) (.r 141)) (.op .madd (.r 450) (.r 142))),
  .set 502 (.op .add32 (.r 511) (.r 512)),
  .set 511 (.op .add32 (.op .madd (.r 444) (.r 143)) (.op .madd (.r 446) (.r 144))),
  .set 512 (.op .add32 (.op .madd (.r 448) (.r 145)) (.op .madd (.r 450) (.r 146))),
  .set 503 (.op .add32 (.r 511) (.r 512)),
  .set 511 (.op .add32 (.op .madd (.r 444) (.r 147)) (.op .madd (.r 446) (.r 148))),
  .set 512 (.op .add32 (.op .madd (.r 448) (.r 149)) (.op .madd (.r 450) (.r 150))),
  .set 504 (.op .add32 (.r 511) (.r 512)),
  .set 511 (.op .add32 (.op .madd (.r 444) (.r 151)) (.op .madd (.r 446) (.r 152))),
  .set 512 (.op .add32 (.op .madd (.r 448) (.r 153)) (.op .madd (.r 450) (.r 154))),
  .set 505 (.op .add32 (.r 511) (.r 512)),
  .set 511 (.op .add32 (.op .madd (.r 444) (.r 155)) (.op .madd (.r 446) (.r 156))),
  .set 512 (.op .add32 (.op .madd (.r 448) (.r 157)) (.op .madd (.r 450) (.r 105))),
  .set 506 (.op .add32 (.r 511) (.r 512))]

/-- source/common/vec/intrinsic_idct.cc:2834-2919. -/
def idct_32x32_4 : List S := [
  .set 513 (.op .add32 (.op .madd (.r 451) (.r 158)) (.op .madd (.r 453) (.r 159))),
  .set 514 (.op .add32 (.op .madd (.r 451) (.r 160)) (.op .madd (.r 453) (.r 161))),
  .set 515 (.op .add32 (.op .madd (.r 451) (.r 162)) (.op .madd (.r 453) (.r 163))),
  .set 516 (.op .add32 (.op .madd (.r 451) (.r 164)) (.op .madd (.r 453) (.r 165))),
  .set 517 (.op .add32 (.op .madd (.r 452) (.r 158)) (.op .madd (.r 454) (.r 159))),
  .set 518 (.op .add32 (.op .madd (.r 452) (.r 160)) (.op .madd (.r 454) (.r 161))),
  .set 519 (.op .add32 (.op .madd (.r 452) (.r 162)) (.op .madd (.r 454) (.r 163))),
  .set 520 (.op .add32 (.op .madd (.r 452) (.r 164)) (.op .madd (.r 454) (.r 165))),
  .set 521 (.op .madd (.r 455) (.r 166)),
  .set 522 (.op .madd (.r 456) (.r 166)),
  .set 523 (.op .madd (.r 455) (.r 167)),
  .set 524 (.op .madd (.r 456) (.r 167)),
  .set 525 (.op .madd (.r 457) (.r 168)),
  .set 526 (.op .madd (.r 458) (.r 168)),
  .set 527 (.op .madd (.r 457) (.r 169)),
  .set 528 (.op .madd (.r 458) (.r 169)),
  .set 529 (.op .add32 (.r 525) (.r 521)),
  .set 530 (.op .add32 (.r 526) (.r 522)),
  .set 531 (.op .add32 (.r 527) (.r 523)),
  .set 532 (.op .add32 (.r 528) (.r 524)),
  .set 533 (.op .sub32 (.r 525) (.r 521)),
  .set 534 (.op .sub32 (.r 526) (.r 522)),
  .set 535 (.op .sub32 (.r 527) (.r 523)),
  .set 536 (.op .sub32 (.r 528) (.r 524)),
  .set 537 (.op .add32 (.r 529) (.r 513)),
  .set 538 (.op .add32 (.r 530) (.r 517)),
  .set 539 (.op .add32 (.r 531) (.r 514)),
  .set 540 (.op .add32 (.r 532) (.r 518)),
  .set 541 (.op .add32 (.r 535) (.r 515)),
  .set 542 (.op .add32 (.r 536) (.r 519)),
  .set 543 (.op .add32 (.r 533) (.r 516)),
  .set 544 (.op .add32 (.r 534) (.r 520)),
  .set 545 (.op .sub32 (.r 529) (.r 513)),
  .set 546 (.op .sub32 (.r 530) (.r 517)),
  .set 547 (.op .sub32 (.r 531) (.r 514)),
  .set 548 (.op .sub32 (.r 532) (.r 518)),
  .set 549 (.op .sub32 (.r 535) (.r 515)),
  .set 550 (.op .sub32 (.r 536) (.r 519)),
  .set 551 (.op .sub32 (.r 533) (.r 516)),
  .set 552 (.op .sub32 (.r 534) (.r 520)),
  .set 553 (.op .add32 (.r 537) (.r 491)),
  .set 554 (.op .add32 (.r 538) (.r 499)),
  .set 555 (.op .add32 (.r 539) (.r 492)),
  .set 556 (.op .add32 (.r 540) (.r 500)),
  .set 557 (.op .add32 (.r 541) (.r 493)),
  .set 558 (.op .add32 (.r 542) (.r 501)),
  .set 559 (.op .add32 (.r 543) (.r 494)),
  .set 560 (.op .add32 (.r 544) (.r 502)),
  .set 561 (.op .add32 (.r 551) (.r 495)),
  .set 562 (.op .add32 (.r 552) (.r 503)),
  .set 563 (.op .add32 (.r 549) (.r 496)),
  .set 564 (.op .add32 (.r 550) (.r 504)),
  .set 565 (.op .add32 (.r 547) (.r 497)),
  .set 566 (.op .add32 (.r 548) (.r 505)),
  .set 567 (.op .add32 (.r 545) (.r 498)),
  .set 568 (.op .add32 (.r 546) (.r 506)),
  .set 569 (.op .sub32 (.r 537) (.r 491)),
  .set 570 (.op .sub32 (.r 538) (.r 499)),
  .set 571 (.op .sub32 (.r 539) (.r 492)),
  .set 572 (.op .sub32 (.r 540) (.r 500)),
  .set 573 (.op .sub32 (.r 541) (.r 493)),
  .set 574 (.op .sub32 (.r 542) (.r 501)),
  .set 575 (.op .sub32 (.r 543) (.r 494)),
  .set 576 (.op .sub32 (.r 544) (.r 502)),
  .set 577 (.op .sub32 (.r 551) (.r 495)),
  .set 578 (.op .sub32 (.r 552) (.r 503)),
  .set 579 (.op .sub32 (.r 549) (.r 496)),
  .set 580 (.op .sub32 (.r 550) (.r 504)),
  .set 581 (.op .sub32 (.r 547) (.r 497)),
  .set 582 (.op .sub32 (.r 548) (.r 505)),
  .set 583 (.op .sub32 (.r 545) (.r 498)),
  .set 584 (.op .sub32 (.r 546) (.r 506)),
  .set 585 (.op .add32 (.r 553) (.r 170)),
  .set 586 (.op .add32 (.r 554) (.r 170)),
  .set 587 (.op .add32 (.r 555) (.r 170)),
  .set 588 (.op .add32 (.r 556) (.r 170)),
  .set 589 (.op .add32 (.r 557) (.r 170)),
  .set 590 (.op .add32 (.r 558) (.r 170)),
  .set 591 (.op .add32 (.r 559) (.r 170)),
  .set 592 (.op .add32 (.r 560) (.r 170))]

/-- source/common/vec/intrinsic_idct.cc:2920-3000. -/
def idct_32x32_5 : List S := [
  .set 593 (.op .add32 (.r 561) (.r 170)),
  .set 594 (.op .add32 (.r 562) (.r 170)),
  .set 595 (.op .add32 (.r 563) (.r 170)),
  .set 596 (.op .add32 (.r 564) (.r 170)),
  .set 597 (.op .add32 (.r 565) (.r 170)),
  .set 598 (.op .add32 (.r 566) (.r 170)),
  .set 599 (.op .add32 (.r 567) (.r 170)),
  .set 600 (.op .add32 (.r 568) (.r 170)),
  .set 601 (.op .add32 (.r 583) (.r 170)),
  .set 602 (.op .add32 (.r 584) (.r 170)),
  .set 603 (.op .add32 (.r 581) (.r 170)),
  .set 604 (.op .add32 (.r 582) (.r 170)),
  .set 605 (.op .add32 (.r 579) (.r 170)),
  .set 606 (.op .add32 (.r 580) (.r 170)),
  .set 607 (.op .add32 (.r 577) (.r 170)),
  .set 608 (.op .add32 (.r 578) (.r 170)),
  .set 609 (.op .add32 (.r 575) (.r 170)),
  .set 610 (.op .add32 (.r 576) (.r 170)),
  .set 611 (.op .add32 (.r 573) (.r 170)),
  .set 612 (.op .add32 (.r 574) (.r 170)),
  .set 613 (.op .add32 (.r 571) (.r 170)),
  .set 614 (.op .add32 (.r 572) (.r 170)),
  .set 615 (.op .add32 (.r 569) (.r 170)),
  .set 616 (.op .add32 (.r 570) (.r 170)),
  .set 617 (.op .add32 (.r 585) (.r 459)),
  .set 618 (.op .add32 (.r 586) (.r 475)),
  .set 619 (.op .add32 (.r 587) (.r 460)),
  .set 620 (.op .add32 (.r 588) (.r 476)),
  .set 621 (.op .add32 (.r 589) (.r 461)),
  .set 622 (.op .add32 (.r 590) (.r 477)),
  .set 623 (.op .add32 (.r 591) (.r 462)),
  .set 624 (.op .add32 (.r 592) (.r 478)),
  .set 625 (.op .add32 (.r 593) (.r 463)),
  .set 626 (.op .add32 (.r 594) (.r 479)),
  .set 627 (.op .add32 (.r 595) (.r 464)),
  .set 628 (.op .add32 (.r 596) (.r 480)),
  .set 629 (.op .add32 (.r 597) (.r 465)),
  .set 630 (.op .add32 (.r 598) (.r 481)),
  .set 631 (.op .add32 (.r 599) (.r 466)),
  .set 632 (.op .add32 (.r 600) (.r 482)),
  .set 633 (.op .add32 (.r 601) (.r 467)),
  .set 634 (.op .add32 (.r 602) (.r 483)),
  .set 635 (.op .add32 (.r 603) (.r 468)),
  .set 636 (.op .add32 (.r 604) (.r 484)),
  .set 637 (.op .add32 (.r 605) (.r 469)),
  .set 638 (.op .add32 (.r 606) (.r 485)),
  .set 639 (.op .add32 (.r 607) (.r 470)),
  .set 640 (.op .add32 (.r 608) (.r 486)),
  .set 641 (.op .add32 (.r 609) (.r 471)),
  .set 642 (.op .add32 (.r 610) (.r 487)),
  .set 643 (.op .add32 (.r 611) (.r 472)),
  .set 644 (.op .add32 (.r 612) (.r 488)),
  .set 645 (.op .add32 (.r 613) (.r 473)),
  .set 646 (.op .add32 (.r 614) (.r 489)),
  .set 647 (.op .add32 (.r 615) (.r 474)),
  .set 648 (.op .add32 (.r 616) (.r 490)),
  .set 649 (.op .sub32 (.r 585) (.r 459)),
  .set 650 (.op .sub32 (.r 586) (.r 475)),
  .set 651 (.op .sub32 (.r 587) (.r 460)),
  .set 652 (.op .sub32 (.r 588) (.r 476)),
  .set 653 (.op .sub32 (.r 589) (.r 461)),
  .set 654 (.op .sub32 (.r 590) (.r 477)),
  .set 655 (.op .sub32 (.r 591) (.r 462)),
  .set 656 (.op .sub32 (.r 592) (.r 478)),
  .set 657 (.op .sub32 (.r 593) (.r 463)),
  .set 658 (.op .sub32 (.r 594) (.r 479)),
  .set 659 (.op .sub32 (.r 595) (.r 464)),
  .set 660 (.op .sub32 (.r 596) (.r 480)),
  .set 661 (.op .sub32 (.r 597) (.r 465)),
  .set 662 (.op .sub32 (.r 598) (.r 481)),
  .set 663 (.op .sub32 (.r 599) (.r 466)),
  .set 664 (.op .sub32 (.r 600) (.r 482)),
  .set 665 (.op .sub32 (.r 601) (.r 467)),
  .set 666 (.op .sub32 (.r 602) (.r 483)),
  .set 667 (.op .sub32 (.r 603) (.r 468)),
  .set 668 (.op .sub32 (.r 604) (.r 484)),
  .set 669 (.op .sub32 (.r 605) (.r 469)),
  .set 670 (.op .sub32 (.r 606) (.r 485)),
  .set 671 (.op .sub32 (.r 607) (.r 470)),
  .set 672 (.op .sub32 (.r 608) (.r 486))]

/-- source/common/vec/intrinsic_idct.cc:3001-3083. -/
def idct_32x32_6 (nShift : Nat) (part : Nat) : List S := [
  .set 673 (.op .sub32 (.r 609) (.r 471)),
  .set 674 (.op .sub32 (.r 610) (.r 487)),
  .set 675 (.op .sub32 (.r 611) (.r 472)),
  .set 676 (.op .sub32 (.r 612) (.r 488)),
  .set 677 (.op .sub32 (.r 613) (.r 473)),
  .set 678 (.op .sub32 (.r 614) (.r 489)),
  .set 679 (.op .sub32 (.r 615) (.r 474)),
  .set 680 (.op .sub32 (.r 616) (.r 490)),
  .set 681 (.sra32 (.r 617) nShift),
  .set 682 (.sra32 (.r 618) nShift),
  .set 683 (.sra32 (.r 619) nShift),
  .set 684 (.sra32 (.r 620) nShift),
  .set 685 (.sra32 (.r 621) nShift),
  .set 686 (.sra32 (.r 622) nShift),
  .set 687 (.sra32 (.r 623) nShift),
  .set 688 (.sra32 (.r 624) nShift),
  .set 689 (.sra32 (.r 625) nShift),
  .set 690 (.sra32 (.r 626) nShift),
  .set 691 (.sra32 (.r 627) nShift),
  .set 692 (.sra32 (.r 628) nShift),
  .set 693 (.sra32 (.r 629) nShift),
  .set 694 (.sra32 (.r 630) nShift),
  .set 695 (.sra32 (.r 631) nShift),
  .set 696 (.sra32 (.r 632) nShift),
  .set 697 (.sra32 (.r 633) nShift),
  .set 698 (.sra32 (.r 634) nShift),
  .set 699 (.sra32 (.r 635) nShift),
  .set 700 (.sra32 (.r 636) nShift),
  .set 701 (.sra32 (.r 637) nShift),
  .set 702 (.sra32 (.r 638) nShift),
  .set 703 (.sra32 (.r 639) nShift),
  .set 704 (.sra32 (.r 640) nShift),
  .set 705 (.sra32 (.r 641) nShift),
  .set 706 (.sra32 (.r 642) nShift),
  .set 707 (.sra32 (.r 643) nShift),
  .set 708 (.sra32 (.r 644) nShift),
  .set 709 (.sra32 (.r 645) nShift),
  .set 710 (.sra32 (.r 646) nShift),
  .set 711 (.sra32 (.r 647) nShift),
  .set 712 (.sra32 (.r 648) nShift),
  .set 713 (.sra32 (.r 679) nShift),
  .set 714 (.sra32 (.r 680) nShift),
  .set 715 (.sra32 (.r 677) nShift),
  .set 716 (.sra32 (.r 678) nShift),
  .set 717 (.sra32 (.r 675) nShift),
  .set 718 (.sra32 (.r 676) nShift),
  .set 719 (.sra32 (.r 673) nShift),
  .set 720 (.sra32 (.r 674) nShift),
  .set 721 (.sra32 (.r 671) nShift),
  .set 722 (.sra32 (.r 672) nShift),
  .set 723 (.sra32 (.r 669) nShift),
  .set 724 (.sra32 (.r 670) nShift),
  .set 725 (.sra32 (.r 667) nShift),
  .set 726 (.sra32 (.r 668) nShift),
  .set 727 (.sra32 (.r 665) nShift),
  .set 728 (.sra32 (.r 666) nShift),
  .set 729 (.sra32 (.r 663) nShift),
  .set 730 (.sra32 (.r 664) nShift),
  .set 731 (.sra32 (.r 661) nShift),
  .set 732 (.sra32 (.r 662) nShift),
  .set 733 (.sra32 (.r 659) nShift),
  .set 734 (.sra32 (.r 660) nShift),
  .set 735 (.sra32 (.r 657) nShift),
  .set 736 (.sra32 (.r 658) nShift),
  .set 737 (.sra32 (.r 655) nShift),
  .set 738 (.sra32 (.r 656) nShift),
  .set 739 (.sra32 (.r 653) nShift),
  .set 740 (.sra32 (.r 654) nShift),
  .set 741 (.sra32 (.r 651) nShift),
  .set 742 (.sra32 (.r 652) nShift),
  .set 743 (.sra32 (.r 649) nShift),
  .set 744 (.sra32 (.r 650) nShift),
  .set (299 + part) (.op .packs (.r 681) (.r 682)),
  .set (303 + part) (.op .packs (.r 683) (.r 684)),
  .set (307 + part) (.op .packs (.r 685) (.r 686)),
  .set (311 + part) (.op .packs (.r 687) (.r 688)),
  .set (315 + part) (.op .packs (.r 689) (.r 690)),
  .set (319 + part) (.op .packs (.r 691) (.r 692)),
  .set (323 + part) (.op .packs (.r 693) (.r 694)),
  .set (327 + part) (.op .packs (.r 695) (.r 696))]

/-- source/common/vec/intrinsic_idct.cc:3084-3107. -/
def idct_32x32_7 (part : Nat) : List S := [
  .set (331 + part) (.op .packs (.r 697) (.r 698)),
  .set (335 + part) (.op .packs (.r 699) (.r 700)),
  .set (339 + part) (.op .packs (.r 701) (.r 702)),
  .set (343 + part) (.op .packs (.r 703) (.r 704)),
  .set (347 + part) (.op .packs (.r 705) (.r 706)),
  .set (351 + part) (.op .packs (.r 707) (.r 708)),
  .set (355 + part) (.op .packs (.r 709) (.r 710)),
  .set (359 + part) (.op .packs (.r 711) (.r 712)),
  .set (363 + part) (.op .packs (.r 713) (.r 714)),
  .set (367 + part) (.op .packs (.r 715) (.r 716)),
  .set (371 + part) (.op .packs (.r 717) (.r 718)),
  .set (375 + part) (.op .packs (.r 719) (.r 720)),
  .set (379 + part) (.op .packs (.r 721) (.r 722)),
  .set (383 + part) (.op .packs (.r 723) (.r 724)),
  .set (387 + part) (.op .packs (.r 725) (.r 726)),
  .set (391 + part) (.op .packs (.r 727) (.r 728)),
  .set (395 + part) (.op .packs (.r 729) (.r 730)),
  .set (399 + part) (.op .packs (.r 731) (.r 732)),
  .set (403 + part) (.op .packs (.r 733) (.r 734)),
  .set (407 + part) (.op .packs (.r 735) (.r 736)),
  .set (411 + part) (.op .packs (.r 737) (.r 738)),
  .set (415 + part) (.op .packs (.r 739) (.r 740)),
  .set (419 + part) (.op .packs (.r 741) (.r 742)),
  .set (423 + part) (.op .packs (.r 743) (.r 744))]

/-- source/common/vec/intrinsic_idct.cc:3141-3159. -/
def idct_32x32_8 : List S := transpose8 745 753
    299 303 307 311 315 319 323 327
    171 175 179 183 187 191 195 199 ++
  transpose8 745 753
    300 304 308 312 316 320 324 328
    203 207 211 215 219 223 227 231 ++
  transpose8 745 753
    301 305 309 313 317 321 325 329
    235 239 243 247 251 255 259 263 ++
  transpose8 745 753
    302 306 310 314 318 322 326 330
    267 271 275 279 283 287 291 295 ++
  transpose8 745 753
    331 335 339 343 347 351 355 359
    172 176 180 184 188 192 196 200 ++
  transpose8 745 753
    332 336 340 344 348 352 356 360
    204 208 212 216 220 224 228 232 ++
  transpose8 745 753
    333 337 341 345 349 353 357 361
    236 240 244 248 252 256 260 264 ++
  transpose8 745 753
    334 338 342 346 350 354 358 362
    268 272 276 280 284 288 292 296 ++
  transpose8 745 753
    363 367 371 375 379 383 387 391
    173 177 181 185 189 193 197 201 ++
  transpose8 745 753
    364 368 372 376 380 384 388 392
    205 209 213 217 221 225 229 233 ++
  transpose8 745 753
    365 369 373 377 381 385 389 393
    237 241 245 249 253 257 261 265 ++
  transpose8 745 753
    366 370 374 378 382 386 390 394
    269 273 277 281 285 289 293 297 ++
  transpose8 745 753
    395 399 403 407 411 415 419 423
    174 178 182 186 190 194 198 202 ++
  transpose8 745 753
    396 400 404 408 412 416 420 424
    206 210 214 218 222 226 230 234 ++
  transpose8 745 753
    397 401 405 409 413 417 421 425
    238 242 246 250 254 258 262 266 ++
  transpose8 745 753
    398 402 406 410 414 418 422 426
    270 274 278 282 286 290 294 298

def idct_32x32_body1 (nShift : Nat) : List S :=
  (rep 4 fun part => idct_32x32_1 part ++ idct_32x32_2 ++ idct_32x32_3 ++ idct_32x32_4 ++ idct_32x32_5 ++ idct_32x32_6 nShift part ++ idct_32x32_7 part) ++ idct_32x32_8

/-- source/common/vec/intrinsic_idct.cc:2455-2534. -/
def idct_32x32_9 : List S := [
  .set 0 (.k32 0x002d002d),
  .set 1 (.k32 0x002b002c),
  .set 2 (.k32 0x00270029),
  .set 3 (.k32 0x00220024),
  .set 4 (.k32 0x001b001e),
  .set 5 (.k32 0x00130017),
  .set 6 (.k32 0x000b000f),
  .set 7 (.k32 0x00020007),
  .set 8 (.k32 0x0029002d),
  .set 9 (.k32 0x00170022),
  .set 10 (.k32 0xfffe000b),
  .set 11 (.k32 0xffe5fff1),
  .set 12 (.k32 0xffd5ffdc),
  .set 13 (.k32 0xffd4ffd3),
  .set 14 (.k32 0xffe2ffd9),
  .set 15 (.k32 0xfff9ffed),
  .set 16 (.k32 0x0022002c),
  .set 17 (.k32 0xfff9000f),
  .set 18 (.k32 0xffd7ffe5),
  .set 19 (.k32 0xffd9ffd3),
  .set 20 (.k32 0xfffeffe9),
  .set 21 (.k32 0x00240013),
  .set 22 (.k32 0x002b002d),
  .set 23 (.k32 0x000b001e),
  .set 24 (.k32 0x0017002b),
  .set 25 (.k32 0xffdefff9),
  .set 26 (.k32 0xffdcffd3),
  .set 27 (.k32 0x0013fff5),
  .set 28 (.k32 0x002c0029),
  .set 29 (.k32 0xfffe001b),
  .set 30 (.k32 0xffd3ffe2),
  .set 31 (.k32 0xfff1ffd9),
  .set 32 (.k32 0x000b0029),
  .set 33 (.k32 0xffd3ffe5),
  .set 34 (.k32 0x0007ffe2),
  .set 35 (.k32 0x002b0027),
  .set 36 (.k32 0xffe9000f),
  .set 37 (.k32 0xffdeffd3),
  .set 38 (.k32 0x00240002),
  .set 39 (.k32 0x0013002c),
  .set 40 (.k32 0xfffe0027),
  .set 41 (.k32 0xffdcffd7),
  .set 42 (.k32 0x002b0007),
  .set 43 (.k32 0xfff50022),
  .set 44 (.k32 0xffe2ffd4),
  .set 45 (.k32 0x002d000f),
  .set 46 (.k32 0xffed001b),
  .set 47 (.k32 0xffe9ffd3),
  .set 48 (.k32 0xfff10024),
  .set 49 (.k32 0xfff5ffd3),
  .set 50 (.k32 0x00220027),
  .set 51 (.k32 0xffd3ffed),
  .set 52 (.k32 0x0029fff9),
  .set 53 (.k32 0xffe9001e),
  .set 54 (.k32 0xfffeffd4),
  .set 55 (.k32 0x001b002b),
  .set 56 (.k32 0xffe50022),
  .set 57 (.k32 0x0013ffd9),
  .set 58 (.k32 0xfff5002b),
  .set 59 (.k32 0x0002ffd3),
  .set 60 (.k32 0x0007002d),
  .set 61 (.k32 0xfff1ffd4),
  .set 62 (.k32 0x00170029),
  .set 63 (.k32 0xffe2ffdc),
  .set 64 (.k32 0xffdc001e),
  .set 65 (.k32 0x0029ffe9),
  .set 66 (.k32 0xffd4000f),
  .set 67 (.k32 0x002dfff9),
  .set 68 (.k32 0xffd3fffe),
  .set 69 (.k32 0x002b000b),
  .set 70 (.k32 0xffd9ffed),
  .set 71 (.k32 0x0022001b),
  .set 72 (.k32 0xffd5001b),
  .set 73 (.k32 0x002cfffe),
  .set 74 (.k32 0xffe2ffe9),
  .set 75 (.k32 0x00070029),
  .set 76 (.k32 0x0013ffd3),
  .set 77 (.k32 0xffd90022),
  .set 78 (.k32 0x002dfff5),
  .set 79 (.k32 0xffdcfff1)]

/-- source/common/vec/intrinsic_idct.cc:2535-2618. -/
def idct_32x32_10 : List S := [
  .set 80 (.k32 0xffd30017),
  .set 81 (.k32 0x001b0013),
  .set 82 (.k32 0x000fffd3),
  .set 83 (.k32 0xffd4001e),
  .set 84 (.k32 0x0022000b),
  .set 85 (.k32 0x0007ffd5),
  .set 86 (.k32 0xffd70024),
  .set 87 (.k32 0x00270002),
  .set 88 (.k32 0xffd40013),
  .set 89 (.k32 0xfffe0024),
  .set 90 (.k32 0x002dffde),
  .set 91 (.k32 0xfff1ffe9),
  .set 92 (.k32 0xffd9002b),
  .set 93 (.k32 0x001e0007),
  .set 94 (.k32 0x001bffd3),
  .set 95 (.k32 0xffd7000b),
  .set 96 (.k32 0xffd9000f),
  .set 97 (.k32 0xffe2002d),
  .set 98 (.k32 0x001b0002),
  .set 99 (.k32 0x0029ffd4),
  .set 100 (.k32 0xfff5ffed),
  .set 101 (.k32 0xffd30024),
  .set 102 (.k32 0xfff90022),
  .set 103 (.k32 0x002bffe9),
  .set 104 (.k32 0xffe2000b),
  .set 105 (.k32 0xffd3002b),
  .set 106 (.k32 0xffed0024),
  .set 107 (.k32 0x0017fffe),
  .set 108 (.k32 0x002dffd9),
  .set 109 (.k32 0x001bffd7),
  .set 110 (.k32 0xfff1fff9),
  .set 111 (.k32 0xffd40022),
  .set 112 (.k32 0xffed0007),
  .set 113 (.k32 0xffd9001e),
  .set 114 (.k32 0xffd3002c),
  .set 115 (.k32 0xffdc002b),
  .set 116 (.k32 0xfff1001b),
  .set 117 (.k32 0x000b0002),
  .set 118 (.k32 0x0022ffe9),
  .set 119 (.k32 0x002dffd7),
  .set 120 (.k32 0xfff90002),
  .set 121 (.k32 0xfff1000b),
  .set 122 (.k32 0xffe90013),
  .set 123 (.k32 0xffe2001b),
  .set 124 (.k32 0xffdc0022),
  .set 125 (.k32 0xffd70027),
  .set 126 (.k32 0xffd4002b),
  .set 127 (.k32 0xffd3002d),
  .set 128 (.k32 0x00230028),
  .set 129 (.k32 0x0015001d),
  .set 130 (.k32 0x0004000d),
  .set 131 (.k32 0x001d002b),
  .set 132 (.k32 0xffeb0004),
  .set 133 (.k32 0xffd3ffd8),
  .set 134 (.k32 0xfff3ffdd),
  .set 135 (.k32 0x00040028),
  .set 136 (.k32 0xffd5ffdd),
  .set 137 (.k32 0x001dfff3),
  .set 138 (.k32 0x0015002d),
  .set 139 (.k32 0xffeb0023),
  .set 140 (.k32 0x0004ffd5),
  .set 141 (.k32 0x000d002d),
  .set 142 (.k32 0xffe3ffd8),
  .set 143 (.k32 0xffd8001d),
  .set 144 (.k32 0x002dfff3),
  .set 145 (.k32 0xffd5fffc),
  .set 146 (.k32 0x00230015),
  .set 147 (.k32 0xffd30015),
  .set 148 (.k32 0x000d001d),
  .set 149 (.k32 0x0023ffd5),
  .set 150 (.k32 0xffd80004),
  .set 151 (.k32 0xffdd000d),
  .set 152 (.k32 0xffd8002d),
  .set 153 (.k32 0x00040015),
  .set 154 (.k32 0x002bffe3),
  .set 155 (.k32 0xfff30004),
  .set 156 (.k32 0xffe30015),
  .set 157 (.k32 0xffd80023),
  .set 158 (.k32 0x0026002c),
  .set 159 (.k32 0x00090019)]

/-- source/common/vec/intrinsic_idct.cc:2619-2633. -/
def idct_32x32_11 : List S := [
  .set 160 (.k32 0xfff70026),
  .set 161 (.k32 0xffe7ffd4),
  .set 162 (.k32 0xffd40019),
  .set 163 (.k32 0x00260009),
  .set 164 (.k32 0xffe70009),
  .set 165 (.k32 0xffd40026),
  .set 166 (.k32 0x0011002a),
  .set 167 (.k32 0xffd60011),
  .set 168 (.k32 0x00200020),
  .set 169 (.k32 0xffe00020),
  .set 170 (.k32 16)]

/-- source/common/vec/intrinsic_idct.cc:2649-2680. -/
def idct_32x32_12 (i : Nat) : List S := [
  .set (171 + i) (.ld 8 (8 * i)),
  .set (175 + i) (.ld 8 (32 + 8 * i)),
  .set (179 + i) (.ld 8 (64 + 8 * i)),
  .set (183 + i) (.ld 8 (96 + 8 * i)),
  .set (187 + i) (.ld 8 (128 + 8 * i)),
  .set (191 + i) (.ld 8 (160 + 8 * i)),
  .set (195 + i) (.ld 8 (192 + 8 * i)),
  .set (199 + i) (.ld 8 (224 + 8 * i)),
  .set (203 + i) (.ld 8 (256 + 8 * i)),
  .set (207 + i) (.ld 8 (288 + 8 * i)),
  .set (211 + i) (.ld 8 (320 + 8 * i)),
  .set (215 + i) (.ld 8 (352 + 8 * i)),
  .set (219 + i) (.ld 8 (384 + 8 * i)),
  .set (223 + i) (.ld 8 (416 + 8 * i)),
  .set (227 + i) (.ld 8 (448 + 8 * i)),
  .set (231 + i) (.ld 8 (480 + 8 * i)),
  .set (235 + i) (.ld 8 (512 + 8 * i)),
  .set (239 + i) (.ld 8 (544 + 8 * i)),
  .set (243 + i) (.ld 8 (576 + 8 * i)),
  .set (247 + i) (.ld 8 (608 + 8 * i)),
  .set (251 + i) (.ld 8 (640 + 8 * i)),
  .set (255 + i) (.ld 8 (672 + 8 * i)),
  .set (259 + i) (.ld 8 (704 + 8 * i)),
  .set (263 + i) (.ld 8 (736 + 8 * i)),
  .set (267 + i) (.ld 8 (768 + 8 * i)),
  .set (271 + i) (.ld 8 (800 + 8 * i)),
  .set (275 + i) (.ld 8 (832 + 8 * i)),
  .set (279 + i) (.ld 8 (864 + 8 * i)),
  .set (283 + i) (.ld 8 (896 + 8 * i)),
  .set (287 + i) (.ld 8 (928 + 8 * i)),
  .set (291 + i) (.ld 8 (960 + 8 * i)),
  .set (295 + i) (.ld 8 (992 + 8 * i))]

/-- source/common/vec/intrinsic_idct.cc:2685-2685. -/
def idct_32x32_13 (wl : Nat) : List S := [
  .set 170 (.k32 (2 ^ (11 - wl)))]

/-- source/common/vec/intrinsic_idct.cc:3166-3167. -/
def idct_32x32_14 (wl : Nat) : List S := [
  .set 761 (.k16 (255 + 256 * wl)),
  .set 762 (.k16 (-256 - 256 * wl))]

/-- source/common/vec/intrinsic_idct.cc:3171-3202. -/
def idct_32x32_15 (k : Nat) : List S := [
  .set (171 + k) (.op .max16 (.op .min16 (.r (171 + k)) (.r 761)) (.r 762)),
  .set (175 + k) (.op .max16 (.op .min16 (.r (175 + k)) (.r 761)) (.r 762)),
  .set (179 + k) (.op .max16 (.op .min16 (.r (179 + k)) (.r 761)) (.r 762)),
  .set (183 + k) (.op .max16 (.op .min16 (.r (183 + k)) (.r 761)) (.r 762)),
  .set (187 + k) (.op .max16 (.op .min16 (.r (187 + k)) (.r 761)) (.r 762)),
  .set (191 + k) (.op .max16 (.op .min16 (.r (191 + k)) (.r 761)) (.r 762)),
  .set (195 + k) (.op .max16 (.op .min16 (.r (195 + k)) (.r 761)) (.r 762)),
  .set (199 + k) (.op .max16 (.op .min16 (.r (199 + k)) (.r 761)) (.r 762)),
  .set (203 + k) (.op .max16 (.op .min16 (.r (203 + k)) (.r 761)) (.r 762)),
  .set (207 + k) (.op .max16 (.op .min16 (.r (207 + k)) (.r 761)) (.r 762)),
  .set (211 + k) (.op .max16 (.op .min16 (.r (211 + k)) (.r 761)) (.r 762)),
  .set (215 + k) (.op .max16 (.op .min16 (.r (215 + k)) (.r 761)) (.r 762)),
  .set (219 + k) (.op .max16 (.op .min16 (.r (219 + k)) (.r 761)) (.r 762)),
  .set (223 + k) (.op .max16 (.op .min16 (.r (223 + k)) (.r 761)) (.r 762)),
  .set (227 + k) (.op .max16 (.op .min16 (.r (227 + k)) (.r 761)) (.r 762)),
  .set (231 + k) (.op .max16 (.op .min16 (.r (231 + k)) (.r 761)) (.r 762)),
  .set (235 + k) (.op .max16 (.op .min16 (.r (235 + k)) (.r 761)) (.r 762)),
  .set (239 + k) (.op .max16 (.op .min16 (.r (239 + k)) (.r 761)) (.r 762)),
  .set (243 + k) (.op .max16 (.op .min16 (.r (243 + k)) (.r 761)) (.r 762)),
  .set (247 + k) (.op .max16 (.op .min16 (.r (247 + k)) (.r 761)) (.r 762)),
  .set (251 + k) (.op .max16 (.op .min16 (.r (251 + k)) (.r 761)) (.r 762)),
  .set (255 + k) (.op .max16 (.op .min16 (.r (255 + k)) (.r 761)) (.r 762)),
  .set (259 + k) (.op .max16 (.op .min16 (.r (259 + k)) (.r 761)) (.r 762)),
  .set (263 + k) (.op .max16 (.op .min16 (.r (263 + k)) (.r 761)) (.r 762)),
  .set (267 + k) (.op .max16 (.op .min16 (.r (267 + k)) (.r 761)) (.r 762)),
  .set (271 + k) (.op .max16 (.op .min16 (.r (271 + k)) (.r 761)) (.r 762)),
  .set (275 + k) (.op .max16 (.op .min16 (.r (275 + k)) (.r 761)) (.r 762)),
  .set (279 + k) (.op .max16 (.op .min16 (.r (279 + k)) (.r 761)) (.r 762)),
  .set (283 + k) (.op .max16 (.op .min16 (.r (283 + k)) (.r 761)) (.r 762)),
  .set (287 + k) (.op .max16 (.op .min16 (.r (287 + k)) (.r 761)) (.r 762)),
  .set (291 + k) (.op .max16 (.op .min16 (.r (291 + k)) (.r 761)) (.r 762)),
  .set (295 + k) (.op .max16 (.op .min16 (.r (295 + k)) (.r 761)) (.r 762))]

/-- source/common/vec/intrinsic_idct.cc:3227-3230. -/
def idct_32x32_16 (i : Nat) : List S := [
  .st 8 (16 * i) (.r (171 + 2 * i)),
  .st 8 (8 + 16 * i) (.r (172 + 2 * i)),
  .st 8 (32 + 16 * i) (.r (175 + 2 * i)),
  .st 8 (40 + 16 * i) (.r (176 + 2 * i)),
  .st 8 (64 + 16 * i) (.r (179 + 2 * i)),
  .st 8 (72 + 16 * i) (.r (180 + 2 * i)),
  .st 8 (96 + 16 * i) (.r (183 + 2 * i)),
  .st 8 (104 + 16 * i) (.r (184 + 2 * i)),
  .st 8 (128 + 16 * i) (.r (187 + 2 * i)),
  .st 8 (136 + 16 * i) (.r (188 + 2 * i)),
  .st 8 (160 + 16 * i) (.r (191 + 2 * i)),
  .st 8 (168 + 16 * i) (.r (192 + 2 * i)),
  .st 8 (192 + 16 * i) (.r (195 + 2 * i)),
  .st 8 (200 + 16 * i) (.r (196 + 2 * i)),
  .st 8 (224 + 16 * i) (.r (199 + 2 * i)),
  .st 8 (232 + 16 * i) (.r (200 + 2 * i)),
  .st 8 (256 + 16 * i) (.r (203 + 2 * i)),
  .st 8 (264 + 16 * i) (.r (204 + 2 * i)),
  .st 8 (288 + 16 * i) (.r (207 + 2 * i)),
  .st 8 (296 + 16 * i) (.r (208 + 2 * i)),
  .st 8 (320 + 16 * i) (.r (211 + 2 * i)),
  .st 8 (328 + 16 * i) (.r (212 + 2 * i)),
  .st 8 (352 + 16 * i) (.r (215 + 2 * i)),
  .st 8 (360 + 16 * i) (.r (216 + 2 * i)),
  .st 8 (384 + 16 * i) (.r (219 + 2 * i)),
  .st 8 (392 + 16 * i) (.r (220 + 2 * i)),
  .st 8 (416 + 16 * i) (.r (223 + 2 * i)),
  .st 8 (424 + 16 * i) (.r (224 + 2 * i)),
  .st 8 (448 + 16 * i) (.r (227 + 2 * i)),
  .st 8 (456 + 16 * i) (.r (228 + 2 * i)),
  .st 8 (480 + 16 * i) (.r (231 + 2 * i)),
  .st 8 (488 + 16 * i) (.r (232 + 2 * i)),
  .st 8 (512 + 16 * i) (.r (235 + 2 * i)),
  .st 8 (520 + 16 * i) (.r (236 + 2 * i)),
  .st 8 (544 + 16 * i) (.r (239 + 2 * i)),
  .st 8 (552 + 16 * i) (.r (240 + 2 * i)),
  .st 8 (576 + 16 * i) (.r (243 + 2 * i)),
  .st 8 (584 + 16 * i) (.r (244 + 2 * i)),
  .st 8 (608 + 16 * i) (.r (247 + 2 * i)),
  .st 8 (616 + 16 * i) (.r (248 + 2 * i)),
  .st 8 (640 + 16 * i) (.r (251 + 2 * i)),
  .st 8 (648 + 16 * i) (.r (252 + 2 * i)),
  .st 8 (672 + 16 * i) (.r (255 + 2 * i)),
  .st 8 (680 + 16 * i) (.r (256 + 2 * i)),
  .st 8 (704 + 16 * i) (.r (259 + 2 * i)),
  .st 8 (712 + 16 * i) (.r (260 + 2 * i)),
  .st 8 (736 + 16 * i) (.r (263 + 2 * i)),
  .st 8 (744 + 16 * i) (.r (264 + 2 * i)),
  .st 8 (768 + 16 * i) (.r (267 + 2 * i)),
  .st 8 (776 + 16 * i) (.r (268 + 2 * i)),
  .st 8 (800 + 16 * i) (.r (271 + 2 * i)),
  .st 8 (808 + 16 * i) (.r (272 + 2 * i)),
  .st 8 (832 + 16 * i) (.r (275 + 2 * i)),
  .st 8 (840 + 16 * i) (.r (276 + 2 * i)),
  .st 8 (864 + 16 * i) (.r (279 + 2 * i)),
  .st 8 (872 + 16 * i) (.r (280 + 2 * i)),
  .st 8 (896 + 16 * i) (.r (283 + 2 * i)),
  .st 8 (904 + 16 * i) (.r (284 + 2 * i)),
  .st 8 (928 + 16 * i) (.r (287 + 2 * i)),
  .st 8 (936 + 16 * i) (.r (288 + 2 * i)),
  .st 8 (960 + 16 * i) (.r (291 + 2 * i)),
  .st 8 (968 + 16 * i) (.r (292 + 2 * i)),
  .st 8 (992 + 16 * i) (.r (295 + 2 * i)),
  .st 8 (1000 + 16 * i) (.r (296 + 2 * i))]

/-- `idct_32x32_sse128`, source/common/vec/intrinsic_idct.cc:2447. `wl` is the lowest bit of the argument `i_dst`. -/
def idct_32x32 (wl : Nat) : List S :=
  idct_32x32_9 ++ idct_32x32_10 ++ idct_32x32_11 ++ (rep 4 fun i => idct_32x32_12 i) ++ idct_32x32_body1 5 ++ idct_32x32_13 wl ++ idct_32x32_body1 (12 - wl) ++ idct_32x32_14 wl ++ (rep 4 fun k => idct_32x32_15 k) ++ (rep 2 fun i => idct_32x32_16 i)

/-! ### `idct_32x32_half_sse128`

Registers: 0 c16_p45_p45, 1 c16_p43_p44, 2 c16_p39_p41, 3 c16_p34_p36, 4 c16_p41_p45, 5 c16_p23_p34, 6 c16_n02_p11, 7 c16_n27_n15,
8 c16_p34_p44, 9 c16_n07_p15, 10 c16_n41_n27, 11 c16_n39_n45, 12 c16_p43_p45, 13 c16_p23_p43, 14 c16_n34_n07, 15 c16_n36_n45, 16
c16_p19_n11, 17 c16_p11_p41, 18 c16_n45_n27, 19 c16_p07_n30, 20 c16_p43_p39, 21 c16_n02_p39, 22 c16_n36_n41, 23 c16_p43_p07, 24
c16_n11_p34, 25 c16_n15_p36, 26 c16_n11_n45, 27 c16_p34_p39, 28 c16_n45_n19, 29 c16_n27_p34, 30 c16_p19_n39, 31 c16_n11_p43, 32
c16_p02_n45, 33 c16_n36_p30, 34 c16_p41_n23, 35 c16_n44_p15, 36 c16_p45_n07, 37 c16_n43_p27, 38 c16_p44_n02, 39 c16_n30_n23, 40
c16_p07_p41, 41 c16_n45_p23, 42 c16_p27_p19, 43 c16_p15_n45, 44 c16_n44_p30, 45 c16_n44_p19, 46 c16_n02_p36, 47 c16_p45_n34, 48
c16_n15_n23, 49 c16_n39_p15, 50 c16_n30_p45, 51 c16_p27_p02, 52 c16_p41_n44, 53 c16_n30_p11, 54 c16_n45_p43, 55 c16_n19_p36, 56
c16_p23_n02, 57 c16_n19_p07, 58 c16_n39_p30, 59 c16_n45_p44, 60 c16_n36_p43, 61 c16_n07_p02, 62 c16_n15_p11, 63 c16_n23_p19, 64
c16_n30_p27, 65 c16_p35_p40, 66 c16_p29_p43, 67 c16_n21_p04, 68 c16_p04_p40, 69 c16_n43_n35, 70 c16_n21_p35, 71 c16_p04_n43, 72
c16_n40_p29, 73 c16_p45_n13, 74 c16_n45_p21, 75 c16_p13_p29, 76 c16_n35_p13, 77 c16_n40_p45, 78 c16_n13_p04, 79 c16_n29_p21, 80
c16_p38_p44, 81 c16_n09_p38, 82 c16_n44_p25, 83 c16_n25_p09, 84 c16_p17_p42, 85 c16_n42_p17, 86 c16_p32_p32, 87 c16_n32_p32, 88
c32_rnd, 89 Zero_16, 90-93 in00, 94-97 in01, 98-101 in02, 102-105 in03, 106-109 in04, 110-113 in05, 114-117 in06, 118-121 in07,
122-125 in08, 126-129 in09, 130-133 in10, 134-137 in11, 138-141 in12, 142-145 in13, 146-149 in14, 150-153 in15, 154-157 in16,
158-161 in17, 162-165 in18, 166-169 in19, 170-173 in20, 174-177 in21, 178-181 in22, 182-185 in23, 186-189 in24, 190-193 in25,
194-197 in26, 198-201 in27, 202-205 in28, 206-209 in29, 210-213 in30, 214-217 in31, 218-221 res00, 222-225 res01, 226-229 res02,
230-233 res03, 234-237 res04, 238-241 res05, 242-245 res06, 246-249 res07, 250-253 res08, 254-257 res09, 258-261 res10, 262-265
res11, 266-269 res12, 270-273 res13, 274-277 res14, 278-281 res15, 282-285 res16, 286-289 res17, 290-293 res18, 294-297 res19,
298-301 res20, 302-305 res21, 306-309 res22, 310-313 res23, 314-317 res24, 318-321 res25, 322-325 res26, 326-329 res27, 330-333
res28, 334-337 res29, 338-341 res30, 342-345 res31, 346 T_00_00A, 347 T_00_00B, 348 T_00_01A, 349 T_00_01B, 350 T_00_02A, 351
T_00_02B, 352 T_00_03A, 353 T_00_03B, 354 T_00_08A, 355 T_00_08B, 356 T_00_09A, 357 T_00_09B, 358 T_00_12A, 359 T_00_12B, 360
T_00_14A, 361 T_00_14B, 362 T_00_15A, 363 T_00_15B, 364 O00A, 365 O01A, 366 O02A, 367 O03A, 368 O04A, 369 O05A, 370 O06A, 371
O07A, 372 O08A, 373 O09A, 374 O10A, 375 O11A, 376 O12A, 377 O13A, 378 O14A, 379 O15A, 380 O00B, 381 O01B, 382 O02B, 383 O03B, 384
O04B, 385 O05B, 386 O06B, 387 O07B, 388 O08B, 389 O09B, 390 O10B, 391 O11B, 392 O12B, 393 O13B, 394 O14B, 395 O15B, 396 EO0A, 397
EO1A, 398 EO2A, 399 EO3A, 400 EO4A, 401 EO5A, 402 EO6A, 403 EO7A, 404 EO0B, 405 EO1B, 406 EO2B, 407 EO3B, 408 EO4B, 409 EO5B, 410
EO6B, 411 EO7B, 412 T00, 413 T01, 414 EEO0A, 415 EEO1A, 416 EEO2A, 417 EEO3A, 418 EEO0B, 419 EEO1B, 420 EEO2B, 421 EEO3B, 422
EEEO0A, 423 EEEO0B, 424 EEEO1A, 425 EEEO1B, 426 EEEE0A, 427 EEEE0B, 428 EEEE1A, 429 EEEE1B, 430 EEE0A, 431 EEE0B, 432 EEE1A, 433
EEE1B, 434 EEE3A, 435 EEE3B, 436 EEE2A, 437 EEE2B, 438 EE0A, 439 EE0B, 440 EE1A, 441 EE1B, 442 EE2A, 443 EE2B, 444 EE3A, 445 EE3B,
446 EE7A, 447 EE7B, 448 EE6A, 449 EE6B, 450 EE5A, 451 EE5B, 452 EE4A, 453 EE4B, 454 E0A, 455 E0B, 456 E1A, 457 E1B, 458 E2A, 459
E2B, 460 E3A, 461 E3B, 462 E4A, 463 E4B, 464 E5A, 465 E5B, 466 E6A, 467 E6B, 468 E7A, 469 E7B, 470 EFA, 471 EFB, 472 EEA, 473 EEB,
474 EDA, 475 EDB, 476 ECA, 477 ECB, 478 EBA, 479 EBB, 480 EAA, 481 EAB, 482 E9A, 483 E9B, 484 E8A, 485 E8B, 486 T10A, 487 T10B,
488 T11A, 489 T11B, 490 T12A, 491 T12B, 492 T13A, 493 T13B, 494 T14A, 495 T14B, 496 T15A, 497 T15B, 498 T16A, 499 T16B, 500 T17A,
501 T17B, 502 T18A, 503 T18B, 504 T19A, 505 T19B, 506 T1AA, 507 T1AB, 508 T1BA, 509 T1BB, 510 T1CA, 511 T1CB, 512 T1DA, 513 T1DB,
514 T1EA, 515 T1EB, 516 T1FA, 517 T1FB, 518 T2_00A, 519 T2_00B, 520 T2_01A, 521 T2_01B, 522 T2_02A, 523 T2_02B, 524 T2_03A, 525
T2_03B, 526 T2_04A, 527 T2_04B, 528 T2_05A, 529 T2_05B, 530 T2_06A, 531 T2_06B, 532 T2_07A, 533 T2_07B, 534 T2_08A, 535 T2_08B,
536 T2_09A, 537 T2_09B, 538 T2_10A, 539 T2_10B, 540 T2_11A, 541 T2_11B, 542 T2_12A, 543 T2_12B, 544 T2_13A, 545 T2_13B, 546
T2_14A, 547 T2_14B, 548 T2_15A, 549 T2_15B, 550 T2_31A, 551 T2_31B, 552 T2_30A, 553 T2_30B, 554 T2_29A, 555 T2_29B, 556 T2_28A,
557 T2_28B, 558 T2_27A, 559 T2_27B, 560 T2_26A, 561 T2_26B, 562 T2_25A, 563 T2_25B, 564 T2_24A, 565 T2_24B, 566 T2_23A, 567
T2_23B, 568 T2_22A, 569 T2_22B, 570 T2_21A, 571 T2_21B, 572 T2_20A, 573 T2_20B, 574 T2_19A, 575 T2_19B, 576 T2_18A, 577 T2_18B,
578 T2_17A, 579 T2_17B, 580 T2_16A, 581 T2_16B, 582 T3_00A, 583 T3_00B, 584 T3_01A, 585 T3_01B, 586 T3_02A, 587 T3_02B, 588
T3_03A, 589 T3_03B, 590 T3_04A, 591 T3_04B, 592 T3_05A, 593 T3_05B, 594 T3_06A, 595 T3_06B, 596 T3_07A, 597 T3_07B, 598 T3_08A,
599 T3_08B, 600 T3_09A, 601 T3_09B, 602 T3_10A, 603 T3_10B, 604 T3_11A, 605 T3_11B, 606 T3_12A, 607 T3_12B, 608 T3_13A, 609
T3_13B, 610 T3_14A, 611 T3_14B, 612 T3_15A, 613 T3_15B, 614 T3_16A, 615 T3_16B, 616 T3_17A, 617 T3_17B, 618 T3_18A, 619 T3_18B,
620 T3_19A, 621 T3_19B, 622 T3_20A, 623 T3_20B, 624 T3_21A, 625 T3_21B, 626 T3_22A, 627 T3_22B, 628 T3_23A, 629 T3_23B, 630
T3_24A, 631 T3_24B, 632 T3_25A, 633 T3_25B, 634 T3_26A, 635 T3_26B, 636 T3_27A, 637 T3_27B, 638 T3_28A, 639 T3_28B, 640 T3_29A,
641 T3_29B, 642 T3_30A, 643 T3_30B, 644 T3_31A, 645 T3_31B, 646 tr0_0, 647 tr0_1, 648 tr0_2, 649 tr0_3, 650 tr0_4, 651 tr0_5, 652
tr0_6, 653 tr0_7, 654 tr1_0, 655 tr1_1, 656 tr1_2, 657 tr1_3, 658 tr1_4, 659 tr1_5, 660 tr1_6, 661 tr1_7, 662 T_00_00A, 663
T_00_00B, 664 T_00_01A, 665 T_00_01B, 666 T_00_02A, 667 T_00_02B, 668 T_00_03A, 669 T_00_03B, 670 T_00_08A, 671 T_00_08B, 672
T_00_09A, 673 T_00_09B, 674 T_00_12A, 675 T_00_12B, 676 T_00_14A, 677 T_00_14B, 678 T_00_15A, 679 T_00_15B, 680 O00A, 681 O01A,
682 O02A, 683 O03A, 684 O04A, 685 O05A, 686 O06A, 687 O07A, 688 O08A, 689 O09A, 690 O10A, 691 O11A, 692 O12A, 693 O13A, 694 O14A,
695 O15A, 696 O00B, 697 O01B, 698 O02B, 699 O03B, 700 O04B, 701 O05B, 702 O06B, 703 O07B, 704 O08B, 705 O09B, 706 O10B, 707 O11B,
708 O12B, 709 O13B, 710 O14B, 711 O15B, 712 EO0A, 713 EO1A, 714 EO2A, 715 EO3A, 716 EO4A, 717 EO5A, 718 EO6A, 719 EO7A, 720 EO0B,
721 EO1B, 722 EO2B, 723 EO3B, 724 EO4B, 725 EO5B, 726 EO6B, 727 EO7B, 728 T00, 729 T01, 730 EEO0A, 731 EEO1A, 732 EEO2A, 733
EEO3A, 734 EEO0B, 735 EEO1B, 736 EEO2B, 737 EEO3B, 738 EEEO0A, 739 EEEO0B, 740 EEEO1A, 741 EEEO1B, 742 EEEE0A, 743 EEEE0B, 744
EEEE1A, 745 EEEE1B, 746 EEE0A, 747 EEE0B, 748 EEE1A, 749 EEE1B, 750 EEE3A, 751 EEE3B, 752 EEE2A, 753 EEE2B, 754 EE0A, 755 EE0B,
756 EE1A, 757 EE1B, 758 EE2A, 759 EE2B, 760 EE3A, 761 EE3B, 762 EE7A, 763 EE7B, 764 EE6A, 765 EE6B, 766 EE5A, 767 EE5B, 768 EE4A,
769 EE4B, 770 E0A, 771 E0B, 772 E1A, 773 E1B, 774 E2A, 775 E2B, 776 E3A, 777 E3B, 778 E4A, 779 E4B, 780 E5A, 781 E5B, 782 E6A, 783
E6B, 784 E7A, 785 E7B, 786 EFA, 787 EFB, 788 EEA, 789 EEB, 790 EDA, 791 EDB, 792 ECA, 793 ECB, 794 EBA, 795 EBB, 796 EAA, 797 EAB,
798 E9A, 799 E9B, 800 E8A, 801 E8B, 802 T10A, 803 T10B, 804 T11A, 805 T11B, 806 T12A, 807 T12B, 808 T13A, 809 T13B, 810 T14A, 811
T14B, 812 T15A, 813 T15B, 814 T16A, 815 T16B, 816 T17A, 817 T17B, 818 T18A, 819 T18B, 820 T19A, 821 T19B, 822 T1AA, 823 T1AB, 824
T1BA, 825 T1BB, 826 T1CA, 827 T1CB, 828 T1DA, 829 T1DB, 830 T1EA, 831 T1EB, 832 T1FA, 833 T1FB, 834 T2_00A, 835 T2_00B, 836
T2_01A, 837 T2_01B, 838 T2_02A, 839 T2_02B, 840 T2_03A, 841 T2_03B, 842 T2_04A, 843 T2_04B, 844 T2_05A, 845 T2_05B, 846 T2_06A,
847 T2_06B, 848 T2_07A, 849 T2_07B, 850 T2_08A, 851 T2_08B, 852 T2_09A, 853 T2_09B, 854 T2_10A, 855 T2_10B, 856 T2_11A, 857
T2_11B, 858 T2_12A, 859 T2_12B, 860 T2_13A, 861 T2_13B, 862 T2_14A, 863 T2_14B, 864 T2_15A, 865 T2_15B, 866 T2_31A, 867 T2_31B,
868 T2_30A, 869 T2_30B, 870 T2_29A, 871 T2_29B, 872 T2_28A, 873 T2_28B, 874 T2_27A, 875 T2_27B, 876 T2_26A, 877 T2_26B, 878
T2_25A, 879 T2_25B, 880 T2_24A, 881 T2_24B, 882 T2_23A, 883 T2_23B, 884 T2_22A, 885 T2_22B, 886 T2_21A, 887 T2_21B, 888 T2_20A,
889 T2_20B, 890 T2_19A, 891 T2_19B, 892 T2_18A, 893 T2_18B, 894 T2_17A, 895 T2_17B, 896 T2_16A, 897 T2_16B, 898 T3_00A, 899
T3_00B, 900 T3_01A, 901 T3_01B, 902 T3_02A, 903 T3_02B, 904 T3_03A, 905 T3_03B, 906 T3_04A, 907 T3_04B, 908 T3_05A, 909 T3_05B,
910 T3_06A, 911 T3_06B, 912 T3_07A, 913 T3_07B, 914 T3_08A, 915 T3_08B, 916 T3_09A, 917 T3_09B, 918 T3_10A, 919 T3_10B, 920
T3_11A, 921 T3_11B, 922 T3_12A, 923 T3_12B, 924 T3_13A, 925 T3_13B, 926 T3_14A, 927 T3_14B, 928 T3_15A, 929 T3_15B, 930 T3_16A,
931 T3_16B, 932 T3_17A, 933 T3_17B, 934 T3_18A, 935 T3_18B, 936 T3_19A, 937 T3_19B, 938 T3_20A, 939 T3_20B, 940 T3_21A, 941
T3_21B, 942 T3_22A, 943 T3_22B, 944 T3_23A, 945 T3_23B, 946 T3_24A, 947 T3_24B, 948 T3_25A, 949 T3_25B, 950 T3_26A, 951 T3_26B,
952 T3_27A, 953 T3_27B, 954 T3_28A, 955 T3_28B, 956 T3_29A, 957 T3_29B, 958 T3_30A, 959 T3_30B, 960 T3_31A, 961 T3_31B, 962 tr0_0,
963 tr0_1, 964 tr0_2, 965 tr0_3, 966 tr0_4, 967 tr0_5, 968 tr0_6, 969 tr0_7, 970 tr1_0, 971 tr1_1, 972 tr1_2, 973 tr1_3, 974
tr1_4, 975 tr1_5, 976 tr1_6, 977 tr1_7, 978 max_val, 979 min_val. -/


/-- source/common/vec/intrinsic_idct.cc:3245-3324. -/
def idct_32x32_half_1 : List S := [
  .set 0 (.k32 0x002d002d),
  .set 1 (.k32 0x002b002c),
  .set 2 (.k32 0x00270029),
  .set 3 (.k32 0x00220024),
  .set 4 (.k32 0x0029002d),
  .set 5 (.k32 0x00170022),
  .set 6 (.k32 0xfffe000b),
  .set 7 (.k32 0xffe5fff1),
  .set 8 (.k32 0x0022002c),
  .set 9 (.k32 0xfff9000f),
  .set 10 (.k32 0xffd7ffe5),
  .set 11 (.k32 0xffd9ffd3),
  .set 12 (.k32 0x002b002d),
  .set 13 (.k32 0x0017002b),
  .set 14 (.k32 0xffdefff9),
  .set 15 (.k32 0xffdcffd3),
  .set 16 (.k32 0x0013fff5),
  .set 17 (.k32 0x000b0029),
  .set 18 (.k32 0xffd3ffe5),
  .set 19 (.k32 0x0007ffe2),
  .set 20 (.k32 0x002b0027),
  .set 21 (.k32 0xfffe0027),
  .set 22 (.k32 0xffdcffd7),
  .set 23 (.k32 0x002b0007),
  .set 24 (.k32 0xfff50022),
  .set 25 (.k32 0xfff10024),
  .set 26 (.k32 0xfff5ffd3),
  .set 27 (.k32 0x00220027),
  .set 28 (.k32 0xffd3ffed),
  .set 29 (.k32 0xffe50022),
  .set 30 (.k32 0x0013ffd9),
  .set 31 (.k32 0xfff5002b),
  .set 32 (.k32 0x0002ffd3),
  .set 33 (.k32 0xffdc001e),
  .set 34 (.k32 0x0029ffe9),
  .set 35 (.k32 0xffd4000f),
  .set 36 (.k32 0x002dfff9),
  .set 37 (.k32 0xffd5001b),
  .set 38 (.k32 0x002cfffe),
  .set 39 (.k32 0xffe2ffe9),
  .set 40 (.k32 0x00070029),
  .set 41 (.k32 0xffd30017),
  .set 42 (.k32 0x001b0013),
  .set 43 (.k32 0x000fffd3),
  .set 44 (.k32 0xffd4001e),
  .set 45 (.k32 0xffd40013),
  .set 46 (.k32 0xfffe0024),
  .set 47 (.k32 0x002dffde),
  .set 48 (.k32 0xfff1ffe9),
  .set 49 (.k32 0xffd9000f),
  .set 50 (.k32 0xffe2002d),
  .set 51 (.k32 0x001b0002),
  .set 52 (.k32 0x0029ffd4),
  .set 53 (.k32 0xffe2000b),
  .set 54 (.k32 0xffd3002b),
  .set 55 (.k32 0xffed0024),
  .set 56 (.k32 0x0017fffe),
  .set 57 (.k32 0xffed0007),
  .set 58 (.k32 0xffd9001e),
  .set 59 (.k32 0xffd3002c),
  .set 60 (.k32 0xffdc002b),
  .set 61 (.k32 0xfff90002),
  .set 62 (.k32 0xfff1000b),
  .set 63 (.k32 0xffe90013),
  .set 64 (.k32 0xffe2001b),
  .set 65 (.k32 0x00230028),
  .set 66 (.k32 0x001d002b),
  .set 67 (.k32 0xffeb0004),
  .set 68 (.k32 0x00040028),
  .set 69 (.k32 0xffd5ffdd),
  .set 70 (.k32 0xffeb0023),
  .set 71 (.k32 0x0004ffd5),
  .set 72 (.k32 0xffd8001d),
  .set 73 (.k32 0x002dfff3),
  .set 74 (.k32 0xffd30015),
  .set 75 (.k32 0x000d001d),
  .set 76 (.k32 0xffdd000d),
  .set 77 (.k32 0xffd8002d),
  .set 78 (.k32 0xfff30004),
  .set 79 (.k32 0xffe30015)]

/-- source/common/vec/intrinsic_idct.cc:3325-3335. -/
def idct_32x32_half_2 : List S := [
  .set 80 (.k32 0x0026002c),
  .set 81 (.k32 0xfff70026),
  .set 82 (.k32 0xffd40019),
  .set 83 (.k32 0xffe70009),
  .set 84 (.k32 0x0011002a),
  .set 85 (.k32 0xffd60011),
  .set 86 (.k32 0x00200020),
  .set 87 (.k32 0xffe00020),
  .set 88 (.k32 16),
  .set 89 (.k16 0)]

/-- source/common/vec/intrinsic_idct.cc:3350-3365. -/
def idct_32x32_half_3 (i : Nat) : List S := [
  .set (90 + i) (.ld 8 (8 * i)),
  .set (94 + i) (.ld 8 (32 + 8 * i)),
  .set (98 + i) (.ld 8 (64 + 8 * i)),
  .set (102 + i) (.ld 8 (96 + 8 * i)),
  .set (106 + i) (.ld 8 (128 + 8 * i)),
  .set (110 + i) (.ld 8 (160 + 8 * i)),
  .set (114 + i) (.ld 8 (192 + 8 * i)),
  .set (118 + i) (.ld 8 (224 + 8 * i)),
  .set (122 + i) (.ld 8 (256 + 8 * i)),
  .set (126 + i) (.ld 8 (288 + 8 * i)),
  .set (130 + i) (.ld 8 (320 + 8 * i)),
  .set (134 + i) (.ld 8 (352 + 8 * i)),
  .set (138 + i) (.ld 8 (384 + 8 * i)),
  .set (142 + i) (.ld 8 (416 + 8 * i)),
  .set (146 + i) (.ld 8 (448 + 8 * i)),
  .set (150 + i) (.ld 8 (480 + 8 * i))]

/-- source/common/vec/intrinsic_idct.cc:3370-3424. -/
def idct_32x32_half_4 (part : Nat) : List S := [
  .set 346 (.op .lo16 (.r (94 + part)) (.r (102 + part))),
  .set 347 (.op .hi16 (.r (94 + part)) (.r (102 + part))),
  .set 348 (.op .lo16 (.r (110 + part)) (.r (118 + part))),
  .set 349 (.op .hi16 (.r (110 + part)) (.r (118 + part))),
  .set 350 (.op .lo16 (.r (126 + part)) (.r (134 + part))),
  .set 351 (.op .hi16 (.r (126 + part)) (.r (134 + part))),
  .set 352 (.op .lo16 (.r (142 + part)) (.r (150 + part))),
  .set 353 (.op .hi16 (.r (142 + part)) (.r (150 + part))),
  .set 354 (.op .lo16 (.r (98 + part)) (.r (114 + part))),
  .set 355 (.op .hi16 (.r (98 + part)) (.r (114 + part))),
  .set 356 (.op .lo16 (.r (130 + part)) (.r (146 + part))),
  .set 357 (.op .hi16 (.r (130 + part)) (.r (146 + part))),
  .set 358 (.op .lo16 (.r (106 + part)) (.r (138 + part))),
  .set 359 (.op .hi16 (.r (106 + part)) (.r (138 + part))),
  .set 360 (.op .lo16 (.r (122 + part)) (.r 89)),
  .set 361 (.op .hi16 (.r (122 + part)) (.r 89)),
  .set 362 (.op .lo16 (.r (90 + part)) (.r 89)),
  .set 363 (.op .hi16 (.r (90 + part)) (.r 89)),
  .set 412 (.op .add32 (.op .madd (.r 346) (.r 0)) (.op .madd (.r 348) (.r 1))),
  .set 413 (.op .add32 (.op .madd (.r 350) (.r 2)) (.op .madd (.r 352) (.r 3))),
  .set 364 (.op .add32 (.r 412) (.r 413)),
  .set 412 (.op .add32 (.op .madd (.r 346) (.r 4)) (.op .madd (.r 348) (.r 5))),
  .set 413 (.op .add32 (.op .madd (.r 350) (.r 6)) (.op .madd (.r 352) (.r 7))),
  .set 365 (.op .add32 (.r 412) (.r 413)),
  .set 412 (.op .add32 (.op .madd (.r 346) (.r 8)) (.op .madd (.r 348) (.r 9))),
  .set 413 (.op .add32 (.op .madd (.r 350) (.r 10)) (.op .madd (.r 352) (.r 11))),
  .set 366 (.op .add32 (.r 412) (.r 413)),
  .set 412 (.op .add32 (.op .madd (.r 346) (.r 13)) (.op .madd (.r 348) (.r 14))),
  .set 413 (.op .add32 (.op .madd (.r 350) (.r 15)) (.op .madd (.r 352) (.r 16))),
  .set 367 (.op .add32 (.r 412) (.r 413)),
  .set 412 (.op .add32 (.op .madd (.r 346) (.r 17)) (.op .madd (.r 348) (.r 18))),
  .set 413 (.op .add32 (.op .madd (.r 350) (.r 19)) (.op .madd (.r 352) (.r 20))),
  .set 368 (.op .add32 (.r 412) (.r 413)),
  .set 412 (.op .add32 (.op .madd (.r 346) (.r 21)) (.op .madd (.r 348) (.r 22))),
  .set 413 (.op .add32 (.op .madd (.r 350) (.r 23)) (.op .madd (.r 352) (.r 24))),
  .set 369 (.op .add32 (.r 412) (.r 413)),
  .set 412 (.op .add32 (.op .madd (.r 346) (.r 25)) (.op .madd (.r 348) (.r 26))),
  .set 413 (.op .add32 (.op .madd (.r 350) (.r 27)) (.op .madd (.r 352) (.r 28))),
  .set 370 (.op .add32 (.r 412) (.r 413)),
  .set 412 (.op .add32 (.op .madd (.r 346) (.r 29)) (.op .madd (.r 348) (.r 30))),
  .set 413 (.op .add32 (.op .madd (.r 350) (.r 31)) (.op .madd (.r 352) (.r 32))),
  .set 371 (.op .add32 (.r 412) (.r 413)),
  .set 412 (.op .add32 (.op .madd (.r 346) (.r 33)) (.op .madd (.r 348) (.r 34))),
  .set 413 (.op .add32 (.op .madd (.r 350) (.r 35)) (.op .madd (.r 352) (.r 36))),
  .set 372 (.op .add32 (.r 412) (.r 413)),
  .set 412 (.op .add32 (.op .madd (.r 346) (.r 37)) (.op .madd (.r 348) (.r 38))),
  .set 413 (.op .add32 (.op .madd (.r 350) (.r 39)) (.op .madd (.r 352) (.r 40))),
  .set 373 (.op .add32 (.r 412) (.r 413)),
  .set 412 (.op .add32 (.op .madd (.r 346) (.r 41)) (.op .madd (.r 348) (.r 42))),
  .set 413 (.op .add32 (.op .madd (.r 350) (.r 43)) (.op .madd (.r 352) (.r 44))),
  .set 374 (.op .add32 (.r 412) (.r 413)),
  .set 412 (.op .add32 (.op .madd (.r 346) (.r 45)) (.op .madd (.r 348) (.r 46))),
  .set 413 (.op .add32 (.op .madd (.r 350) (.r 47)) (.op .madd (.r 352) (.r 48))),
  .set 375 (.op .add32 (.r 412) (.r 413)),
  .set 412 (.op .add32 (.op .madd (.r 346) (.r 49)) (.op .madd (.r 348) (.r 50))),
  .set 413 (.op .add32 (.op .madd (.r 350) (.r 51)) (.op .madd (.r 352) (.r 52))),
  .set 376 (.op .add32 (.r 412) (.r 413)),
  .set 412 (.op .add32 (.op .madd (.r 346) (.r 53)) (.op .madd (.r 348) (.r 54))),
  .set 413 (.op .add32 (.op .madd (.r 350) (.r 55)) (.op .madd (.r 352) (.r 56))),
  .set 377 (.op .add32 (.r 412) (.r 413)),
  .set 412 (.op .add32 (.op .madd (.r 346) (.r 57)) (.op .madd (.r 348) (.r 58))),
  .set 413 (.op .add32 (.op .madd (.r 350) (.r 59)) (.op .madd (.r 352) (.r 60))),
  .set 378 (.op .add32 (.r 412) (.r 413)),
  .set 412 (.op .add32 (.op .madd (.r 346) (.r 61)) (.op .madd (.r 348) (.r 62))),
  .set 413 (.op .add32 (.op .madd (.r 350) (.r 63)) (.op .madd (.r 352) (.r 64))),
  .set 379 (.op .add32 (.r 412) (.r 413)),
  .set 412 (.op .add32 (.op .madd (.r 347) (.r 0)) (.op .madd (.r 349) (.r 1))),
  .set 413 (.op .add32 (.op .madd (.r 351) (.r 2)) (.op .madd (.r 353) (.r 3))),
  .set 380 (.op .add32 (.r 412) (.r 413)),
  .set 412 (.op .add32 (.op .madd (.r 347) (.r 4)) (.op .madd (.r 349) (.r 5))),
  .set 413 (.op .add32 (.op .madd (.r 351) (.r 6)) (.op .madd (.r 353) (.r 7))),
  .set 381 (.op .add32 (.r 412) (.r 413)),
  .set 412 (.op .add32 (.op .madd (.r 347) (.r 8)) (.op .madd (.r 349) (.r 9))),
  .set 413 (.op .add32 (.op .madd (.r 351) (.r 10)) (.op .madd (.r 353) (.r 11))),
  .set 382 (.op .add32 (.r 412) (.r 413)),
  .set 412 (.op .add32 (.op .madd (.r 347) (.r 13)) (.op .madd (.r 349) (.r 14))),
  .set 413 (.op .add32 (.op .madd (.r 351) (.r 15)) (.op .madd (.r 353) (.r 16))),
  .set 383 (.op .add32 (.r 412) (.r 413)),
  .set 412 (.op .add32 (.op .madd (.r 347) (.r 17)) (.op .madd (.r 349) (.r 18))),
  .set 413 (.op .add32 (.op .madd (.r 351) (.r 19)) (.op .madd (.r 353) (.r 20)))]

/-- source/common/vec/intrinsic_idct.cc:3424-3491. -/
def idct_32x32_half_5 : List S := [
  .set 384 (.op .add32 (.r 412) (.r 413)),
  .set 412 (.op .add32 (.op .madd (.r 347) (.r 21)) (.op .madd (.r 349) (.r 22))),
  .set 413 (.op .add32 (.op .madd (.r 351) (.r 23)) (.op .madd (.r 353) (.r 24))),
  .set 385 (.op .add32 (.r 412) (.r 413)),
  .set 412 (.op .add32 (.op .madd (.r 347) (.r 25)) (.op .madd (.r 349) (.r 26))),
  .set 413 (.op .add32 (.op .madd (.r 351) (.r 27)) (.op .madd (.r 353) (.r 28))),
  .set 386 (.op .add32 (.r 412) (.r 413)),
  .set 412 (.op .add32 (.op .madd (.r 347) (.r 29)) (.op .madd (.r 349) (.r 30))),
  .set 413 (.op .add32 (.op .madd (.r 351) (.r 31)) (.op .madd (.r 353) (.r 32))),
  .set 387 (.op .add32 (.r 412) (.r 413)),
  .set 412 (.op .add32 (.op .madd (.r 347) (.r 33)) (.op .madd (.r 349) (.r 34))),
  .set 413 (.op .add32 (.op .madd (.r 351) (.r 35)) (.op .madd (.r 353) (.r 36))),
  .set 388 (.op .add32 (.r 412) (.r 413)),
  .set 412 (.op .add32 (.op .madd (.r 347) (.r 37)) (.op .madd (.r 349) (.r 38))),
  .set 413 (.op .add32 (.op .madd (.r 351) (.r 39)) (.op .madd (.r 353) (.r 40))),
  .set 389 (.op .add32 (.r 412) (.r 413)),
  .set 412 (.op .add32 (.op .madd (.r 347) (.r 41)) (.op .madd (.r 349) (.r 42))),
  .set 413 (.op .add32 (.op .madd (.r 351) (.r 43)) (.op .madd (.r 353) (.r 44))),
  .set 390 (.op .add32 (.r 412) (.r 413)),
  .set 412 (.op .add32 (.op .madd (.r 347) (.r 45)) (.op .madd (.r 349) (.r 46))),
  .set 413 (.op .add32 (.op .madd (.r 351) (.r 47)) (.op .madd (.r 353) (.r 48))),
  .set 391 (.op .add32 (.r 412) (.r 413)),
  .set 412 (.op .add32 (.op .madd (.r 347) (.r 49)) (.op .madd (.r 349) (.r 50))),
  .set 413 (.op .add32 (.op .madd (.r 351) (.r 51)) (.op .madd (.r 353) (.r 52))),
  .set 392 (.op .add32 (.r 412) (.r 413)),
  .set 412 (.op .add32 (.op .madd (.r 347) (.r 53)) (.op .madd (.r 349) (.r 54))),
  .set 413 (.op .add32 (.op .madd (.r 351) (.r 55)) (.op .madd (.r 353) (.r 56))),
  .set 393 (.op .add32 (.r 412) (.r 413)),
  .set 412 (.op .add32 (.op .madd (.r 347) (.r 57)) (.op .madd (.r 349) (.r 58))),
  .set 413 (.op .add32 (.op .madd (.r 351) (.r 59)) (.op .madd (.r 353) (.r 60))),
  .set 394 (.op .add32 (.r 412) (.r 413)),
  .set 412 (.op .add32 (.op .madd (.r 347) (.r 61)) (.op .madd (.r 349) (.r 62))),
  .set 413 (.op .add32 (.op .madd (.r 351) (.r 63)) (.op .madd (.r 353) (.r 64))),
  .set 395 (.op .add32 (.r 412) (.r 413)),
  .set 396 (.op .add32 (.op .madd (.r 354) (.r 12)) (.op .madd (.r 356) (.r 65))),
  .set 397 (.op .add32 (.op .madd (.r 354) (.r 66)) (.op .madd (.r 356) (.r 67))),
  .set 398 (.op .add32 (.op .madd (.r 354) (.r 68)) (.op .madd (.r 356) (.r 69))),
  .set 399 (.op .add32 (.op .madd (.r 354) (.r 70)) (.op .madd (.r 356) (.r 71))),
  .set 400 (.op .add32 (.op .madd (.r 354) (.r 72)) (.op .madd (.r 356) (.r 73))),
  .set 401 (.op .add32 (.op .madd (.r 354) (.r 74)) (.op .madd (.r 356) (.r 75))),
  .set 402 (.op .add32 (.op .madd (.r 354) (.r 76)) (.op .madd (.r 356) (.r 77))),
  .set 403 (.op .add32 (.op .madd (.r 354) (.r 78)) (.op .madd (.r 356) (.r 79))),
  .set 404 (.op .add32 (.op .madd (.r 355) (.r 12)) (.op .madd (.r 357) (.r 65))),
  .set 405 (.op .add32 (.op .madd (.r 355) (.r 66)) (.op .madd (.r 357) (.r 67))),
  .set 406 (.op .add32 (.op .madd (.r 355) (.r 68)) (.op .madd (.r 357) (.r 69))),
  .set 407 (.op .add32 (.op .madd (.r 355) (.r 70)) (.op .madd (.r 357) (.r 71))),
  .set 408 (.op .add32 (.op .madd (.r 355) (.r 72)) (.op .madd (.r 357) (.r 73))),
  .set 409 (.op .add32 (.op .madd (.r 355) (.r 74)) (.op .madd (.r 357) (.r 75))),
  .set 410 (.op .add32 (.op .madd (.r 355) (.r 76)) (.op .madd (.r 357) (.r 77))),
  .set 411 (.op .add32 (.op .madd (.r 355) (.r 78)) (.op .madd (.r 357) (.r 79))),
  .set 414 (.op .madd (.r 358) (.r 80)),
  .set 415 (.op .madd (.r 358) (.r 81)),
  .set 416 (.op .madd (.r 358) (.r 82)),
  .set 417 (.op .madd (.r 358) (.r 83)),
  .set 418 (.op .madd (.r 359) (.r 80)),
  .set 419 (.op .madd (.r 359) (.r 81)),
  .set 420 (.op .madd (.r 359) (.r 82)),
  .set 421 (.op .madd (.r 359) (.r 83)),
  .set 422 (.op .madd (.r 360) (.r 84)),
  .set 423 (.op .madd (.r 361) (.r 84)),
  .set 424 (.op .madd (.r 360) (.r 85)),
  .set 425 (.op .madd (.r 361) (.r 85)),
  .set 426 (.op .madd (.r 362) (.r 86)),
  .set 427 (.op .madd (.r 363) (.r 86)),
  .set 428 (.op .madd (.r 362) (.r 87)),
  .set 429 (.op .madd (.r 363) (.r 87)),
  .set 430 (.op .add32 (.r 426) (.r 422)),
  .set 431 (.op .add32 (.r 427) (.r 423)),
  .set 432 (.op .add32 (.r 428) (.r 424)),
  .set 433 (.op .add32 (.r 429) (.r 425)),
  .set 434 (.op .sub32 (.r 426) (.r 422)),
  .set 435 (.op .sub32 (.r 427) (.r 423)),
  .set 436 (.op .sub32 (.r 428) (.r 424)),
  .set 437 (.op .sub32 (.r 429) (.r 425)),
  .set 438 (.op .add32 (.r 430) (.r 414)),
  .set 439 (.op .add32 (.r 431) (.r 418)),
  .set 440 (.op .add32 (.r 432) (.r 415)),
  .set 441 (.op .add32 (.r 433) (.r 419)),
  .set 442 (.op .add32 (.r 436) (.r 416)),
  .set 443 (.op .add32 (.r 437) (.r 420))]

/-- source/common/vec/intrinsic_idct.cc:3492-3574. -/
def idct_32x32_half_6 : List S := [
  .set 444 (.op .add32 (.r 434) (.r 417)),
  .set 445 (.op .add32 (.r 435) (.r 421)),
  .set 446 (.op .sub32 (.r 430) (.r 414)),
  .set 447 (.op .sub32 (.r 431) (.r 418)),
  .set 448 (.op .sub32 (.r 432) (.r 415)),
  .set 449 (.op .sub32 (.r 433) (.r 419)),
  .set 450 (.op .sub32 (.r 436) (.r 416)),
  .set 451 (.op .sub32 (.r 437) (.r 420)),
  .set 452 (.op .sub32 (.r 434) (.r 417)),
  .set 453 (.op .sub32 (.r 435) (.r 421)),
  .set 454 (.op .add32 (.r 438) (.r 396)),
  .set 455 (.op .add32 (.r 439) (.r 404)),
  .set 456 (.op .add32 (.r 440) (.r 397)),
  .set 457 (.op .add32 (.r 441) (.r 405)),
  .set 458 (.op .add32 (.r 442) (.r 398)),
  .set 459 (.op .add32 (.r 443) (.r 406)),
  .set 460 (.op .add32 (.r 444) (.r 399)),
  .set 461 (.op .add32 (.r 445) (.r 407)),
  .set 462 (.op .add32 (.r 452) (.r 400)),
  .set 463 (.op .add32 (.r 453) (.r 408)),
  .set 464 (.op .add32 (.r 450) (.r 401)),
  .set 465 (.op .add32 (.r 451) (.r 409)),
  .set 466 (.op .add32 (.r 448) (.r 402)),
  .set 467 (.op .add32 (.r 449) (.r 410)),
  .set 468 (.op .add32 (.r 446) (.r 403)),
  .set 469 (.op .add32 (.r 447) (.r 411)),
  .set 470 (.op .sub32 (.r 438) (.r 396)),
  .set 471 (.op .sub32 (.r 439) (.r 404)),
  .set 472 (.op .sub32 (.r 440) (.r 397)),
  .set 473 (.op .sub32 (.r 441) (.r 405)),
  .set 474 (.op .sub32 (.r 442) (.r 398)),
  .set 475 (.op .sub32 (.r 443) (.r 406)),
  .set 476 (.op .sub32 (.r 444) (.r 399)),
  .set 477 (.op .sub32 (.r 445) (.r 407)),
  .set 478 (.op .sub32 (.r 452) (.r 400)),
  .set 479 (.op .sub32 (.r 453) (.r 408)),
  .set 480 (.op .sub32 (.r 450) (.r 401)),
  .set 481 (.op .sub32 (.r 451) (.r 409)),
  .set 482 (.op .sub32 (.r 448) (.r 402)),
  .set 483 (.op .sub32 (.r 449) (.r 410)),
  .set 484 (.op .sub32 (.r 446) (.r 403)),
  .set 485 (.op .sub32 (.r 447) (.r 411)),
  .set 486 (.op .add32 (.r 454) (.r 88)),
  .set 487 (.op .add32 (.r 455) (.r 88)),
  .set 488 (.op .add32 (.r 456) (.r 88)),
  .set 489 (.op .add32 (.r 457) (.r 88)),
  .set 490 (.op .add32 (.r 458) (.r 88)),
  .set 491 (.op .add32 (.r 459) (.r 88)),
  .set 492 (.op .add32 (.r 460) (.r 88)),
  .set 493 (.op .add32 (.r 461) (.r 88)),
  .set 494 (.op .add32 (.r 462) (.r 88)),
  .set 495 (.op .add32 (.r 463) (.r 88)),
  .set 496 (.op .add32 (.r 464) (.r 88)),
  .set 497 (.op .add32 (.r 465) (.r 88)),
  .set 498 (.op .add32 (.r 466) (.r 88)),
  .set 499 (.op .add32 (.r 467) (.r 88)),
  .set 500 (.op .add32 (.r 468) (.r 88)),
  .set 501 (.op .add32 (.r 469) (.r 88)),
  .set 502 (.op .add32 (.r 484) (.r 88)),
  .set 503 (.op .add32 (.r 485) (.r 88)),
  .set 504 (.op .add32 (.r 482) (.r 88)),
  .set 505 (.op .add32 (.r 483) (.r 88)),
  .set 506 (.op .add32 (.r 480) (.r 88)),
  .set 507 (.op .add32 (.r 481) (.r 88)),
  .set 508 (.op .add32 (.r 478) (.r 88)),
  .set 509 (.op .add32 (.r 479) (.r 88)),
  .set 510 (.op .add32 (.r 476) (.r 88)),
  .set 511 (.op .add32 (.r 477) (.r 88)),
  .set 512 (.op .add32 (.r 474) (.r 88)),
  .set 513 (.op .add32 (.r 475) (.r 88)),
  .set 514 (.op .add32 (.r 472) (.r 88)),
  .set 515 (.op .add32 (.r 473) (.r 88)),
  .set 516 (.op .add32 (.r 470) (.r 88)),
  .set 517 (.op .add32 (.r 471) (.r 88)),
  .set 518 (.op .add32 (.r 486) (.r 364)),
  .set 519 (.op .add32 (.r 487) (.r 380)),
  .set 520 (.op .add32 (.r 488) (.r 365)),
  .set 521 (.op .add32 (.r 489) (.r 381)),
  .set 522 (.op .add32 (.r 490) (.r 366)),
  .set 523 (.op .add32 (.r 491) (.r 382))]

/-- source/common/vec/intrinsic_idct.cc:3575-3655. -/
def idct_32x32_half_7 : List S := [
  .set 524 (.op .add32 (.r 492) (.r 367)),
  .set 525 (.op .add32 (.r 493) (.r 383)),
  .set 526 (.op .add32 (.r 494) (.r 368)),
  .set 527 (.op .add32 (.r 495) (.r 384)),
  .set 528 (.op .add32 (.r 496) (.r 369)),
  .set 529 (.op .add32 (.r 497) (.r 385)),
  .set 530 (.op .add32 (.r 498) (.r 370)),
  .set 531 (.op .add32 (.r 499) (.r 386)),
  .set 532 (.op .add32 (.r 500) (.r 371)),
  .set 533 (.op .add32 (.r 501) (.r 387)),
  .set 534 (.op .add32 (.r 502) (.r 372)),
  .set 535 (.op .add32 (.r 503) (.r 388)),
  .set 536 (.op .add32 (.r 504) (.r 373)),
  .set 537 (.op .add32 (.r 505) (.r 389)),
  .set 538 (.op .add32 (.r 506) (.r 374)),
  .set 539 (.op .add32 (.r 507) (.r 390)),
  .set 540 (.op .add32 (.r 508) (.r 375)),
  .set 541 (.op .add32 (.r 509) (.r 391)),
  .set 542 (.op .add32 (.r 510) (.r 376)),
  .set 543 (.op .add32 (.r 511) (.r 392)),
  .set 544 (.op .add32 (.r 512) (.r 377)),
  .set 545 (.op .add32 (.r 513) (.r 393)),
  .set 546 (.op .add32 (.r 514) (.r 378)),
  .set 547 (.op .add32 (.r 515) (.r 394)),
  .set 548 (.op .add32 (.r 516) (.r 379)),
  .set 549 (.op .add32 (.r 517) (.r 395)),
  .set 550 (.op .sub32 (.r 486) (.r 364)),
  .set 551 (.op .sub32 (.r 487) (.r 380)),
  .set 552 (.op .sub32 (.r 488) (.r 365)),
  .set 553 (.op .sub32 (.r 489) (.r 381)),
  .set 554 (.op .sub32 (.r 490) (.r 366)),
  .set 555 (.op .sub32 (.r 491) (.r 382)),
  .set 556 (.op .sub32 (.r 492) (.r 367)),
  .set 557 (.op .sub32 (.r 493) (.r 383)),
  .set 558 (.op .sub32 (.r 494) (.r 368)),
  .set 559 (.op .sub32 (.r 495) (.r 384)),
  .set 560 (.op .sub32 (.r 496) (.r 369)),
  .set 561 (.op .sub32 (.r 497) (.r 385)),
  .set 562 (.op .sub32 (.r 498) (.r 370)),
  .set 563 (.op .sub32 (.r 499) (.r 386)),
  .set 564 (.op .sub32 (.r 500) (.r 371)),
  .set 565 (.op .sub32 (.r 501) (.r 387)),
  .set 566 (.op .sub32 (.r 502) (.r 372)),
  .set 567 (.op .sub32 (.r 503) (.r 388)),
  .set 568 (.op .sub32 (.r 504) (.r 373)),
  .set 569 (.op .sub32 (.r 505) (.r 389)),
  .set 570 (.op .sub32 (.r 506) (.r 374)),
  .set 571 (.op .sub32 (.r 507) (.r 390)),
  .set 572 (.op .sub32 (.r 508) (.r 375)),
  .set 573 (.op .sub32 (.r 509) (.r 391)),
  .set 574 (.op .sub32 (.r 510) (.r 376)),
  .set 575 (.op .sub32 (.r 511) (.r 392)),
  .set 576 (.op .sub32 (.r 512) (.r 377)),
  .set 577 (.op .sub32 (.r 513) (.r 393)),
  .set 578 (.op .sub32 (.r 514) (.r 378)),
  .set 579 (.op .sub32 (.r 515) (.r 394)),
  .set 580 (.op .sub32 (.r 516) (.r 379)),
  .set 581 (.op .sub32 (.r 517) (.r 395)),
  .set 582 (.sra32 (.r 518) 5),
  .set 583 (.sra32 (.r 519) 5),
  .set 584 (.sra32 (.r 520) 5),
  .set 585 (.sra32 (.r 521) 5),
  .set 586 (.sra32 (.r 522) 5),
  .set 587 (.sra32 (.r 523) 5),
  .set 588 (.sra32 (.r 524) 5),
  .set 589 (.sra32 (.r 525) 5),
  .set 590 (.sra32 (.r 526) 5),
  .set 591 (.sra32 (.r 527) 5),
  .set 592 (.sra32 (.r 528) 5),
  .set 593 (.sra32 (.r 529) 5),
  .set 594 (.sra32 (.r 530) 5),
  .set 595 (.sra32 (.r 531) 5),
  .set 596 (.sra32 (.r 532) 5),
  .set 597 (.sra32 (.r 533) 5),
  .set 598 (.sra32 (.r 534) 5),
  .set 599 (.sra32 (.r 535) 5),
  .set 600 (.sra32 (.r 536) 5),
  .set 601 (.sra32 (.r 537) 5),
  .set 602 (.sra32 (.r 538) 5),
  .set 603 (.sra32 (.r 539) 5)]

/-- source/common/vec/intrinsic_idct.cc:3656-3731. -/
def idct_32x32_half_8 (part : Nat) : List S := [
  .set 604 (.sra32 (.r 540) 5),
  .set 605 (.sra32 (.r 541) 5),
  .set 606 (.sra32 (.r 542) 5),
  .set 607 (.sra32 (.r 543) 5),
  .set 608 (.sra32 (.r 544) 5),
  .set 609 (.sra32 (.r 545) 5),
  .set 610 (.sra32 (.r 546) 5),
  .set 611 (.sra32 (.r 547) 5),
  .set 612 (.sra32 (.r 548) 5),
  .set 613 (.sra32 (.r 549) 5),
  .set 614 (.sra32 (.r 580) 5),
  .set 615 (.sra32 (.r 581) 5),
  .set 616 (.sra32 (.r 578) 5),
  .set 617 (.sra32 (.r 579) 5),
  .set 618 (.sra32 (.r 576) 5),
  .set 619 (.sra32 (.r 577) 5),
  .set 620 (.sra32 (.r 574) 5),
  .set 621 (.sra32 (.r 575) 5),
  .set 622 (.sra32 (.r 572) 5),
  .set 623 (.sra32 (.r 573) 5),
  .set 624 (.sra32 (.r 570) 5),
  .set 625 (.sra32 (.r 571) 5),
  .set 626 (.sra32 (.r 568) 5),
  .set 627 (.sra32 (.r 569) 5),
  .set 628 (.sra32 (.r 566) 5),
  .set 629 (.sra32 (.r 567) 5),
  .set 630 (.sra32 (.r 564) 5),
  .set 631 (.sra32 (.r 565) 5),
  .set 632 (.sra32 (.r 562) 5),
  .set 633 (.sra32 (.r 563) 5),
  .set 634 (.sra32 (.r 560) 5),
  .set 635 (.sra32 (.r 561) 5),
  .set 636 (.sra32 (.r 558) 5),
  .set 637 (.sra32 (.r 559) 5),
  .set 638 (.sra32 (.r 556) 5),
  .set 639 (.sra32 (.r 557) 5),
  .set 640 (.sra32 (.r 554) 5),
  .set 641 (.sra32 (.r 555) 5),
  .set 642 (.sra32 (.r 552) 5),
  .set 643 (.sra32 (.r 553) 5),
  .set 644 (.sra32 (.r 550) 5),
  .set 645 (.sra32 (.r 551) 5),
  .set (218 + part) (.op .packs (.r 582) (.r 583)),
  .set (222 + part) (.op .packs (.r 584) (.r 585)),
  .set (226 + part) (.op .packs (.r 586) (.r 587)),
  .set (230 + part) (.op .packs (.r 588) (.r 589)),
  .set (234 + part) (.op .packs (.r 590) (.r 591)),
  .set (238 + part) (.op .packs (.r 592) (.r 593)),
  .set (242 + part) (.op .packs (.r 594) (.r 595)),
  .set (246 + part) (.op .packs (.r 596) (.r 597)),
  .set (250 + part) (.op .packs (.r 598) (.r 599)),
  .set (254 + part) (.op .packs (.r 600) (.r 601)),
  .set (258 + part) (.op .packs (.r 602) (.r 603)),
  .set (262 + part) (.op .packs (.r 604) (.r 605)),
  .set (266 + part) (.op .packs (.r 606) (.r 607)),
  .set (270 + part) (.op .packs (.r 608) (.r 609)),
  .set (274 + part) (.op .packs (.r 610) (.r 611)),
  .set (278 + part) (.op .packs (.r 612) (.r 613)),
  .set (282 + part) (.op .packs (.r 614) (.r 615)),
  .set (286 + part) (.op .packs (.r 616) (.r 617)),
  .set (290 + part) (.op .packs (.r 618) (.r 619)),
  .set (294 + part) (.op .packs (.r 620) (.r 621)),
  .set (298 + part) (.op .packs (.r 622) (.r 623)),
  .set (302 + part) (.op .packs (.r 624) (.r 625)),
  .set (306 + part) (.op .packs (.r 626) (.r 627)),
  .set (310 + part) (.op .packs (.r 628) (.r 629)),
  .set (314 + part) (.op .packs (.r 630) (.r 631)),
  .set (318 + part) (.op .packs (.r 632) (.r 633)),
  .set (322 + part) (.op .packs (.r 634) (.r 635)),
  .set (326 + part) (.op .packs (.r 636) (.r 637)),
  .set (330 + part) (.op .packs (.r 638) (.r 639)),
  .set (334 + part) (.op .packs (.r 640) (.r 641)),
  .set (338 + part) (.op .packs (.r 642) (.r 643)),
  .set (342 + part) (.op .packs (.r 644) (.r 645))]

/-- source/common/vec/intrinsic_idct.cc:3765-3780. -/
def idct_32x32_half_9 (wl : Nat) : List S := transpose8 646 654
    218 222 226 230 234 238 242 246
    90 94 98 102 106 110 114 118 ++
  transpose8 646 654
    219 223 227 231 235 239 243 247
    122 126 130 134 138 142 146 150 ++
  transpose8 646 654
    250 254 258 262 266 270 274 278
    91 95 99 103 107 111 115 119 ++
  transpose8 646 654
    251 255 259 263 267 271 275 279
    123 127 131 135 139 143 147 151 ++
  transpose8 646 654
    282 286 290 294 298 302 306 310
    92 96 100 104 108 112 116 120 ++
  transpose8 646 654
    283 287 291 295 299 303 307 311
    124 128 132 136 140 144 148 152 ++
  transpose8 646 654
    314 318 322 326 330 334 338 342
    93 97 101 105 109 113 117 121 ++
  transpose8 646 654
    315 319 323 327 331 335 339 343
    125 129 133 137 141 145 149 153 ++
  [
  .set 88 (.k32 (2 ^ (11 - wl)))]

/-- source/common/vec/intrinsic_idct.cc:3783-3837. -/
def idct_32x32_half_10 (part : Nat) : List S := [
  .set 662 (.op .lo16 (.r (94 + part)) (.r (102 + part))),
  .set 663 (.op .hi16 (.r (94 + part)) (.r (102 + part))),
  .set 664 (.op .lo16 (.r (110 + part)) (.r (118 + part))),
  .set 665 (.op .hi16 (.r (110 + part)) (.r (118 + part))),
  .set 666 (.op .lo16 (.r (126 + part)) (.r (134 + part))),
  .set 667 (.op .hi16 (.r (126 + part)) (.r (134 + part))),
  .set 668 (.op .lo16 (.r (142 + part)) (.r (150 + part))),
  .set 669 (.op .hi16 (.r (142 + part)) (.r (150 + part))),
  .set 670 (.op .lo16 (.r (98 + part)) (.r (114 + part))),
  .set 671 (.op .hi16 (.r (98 + part)) (.r (114 + part))),
  .set 672 (.op .lo16 (.r (130 + part)) (.r (146 + part))),
  .set 673 (.op .hi16 (.r (130 + part)) (.r (146 + part))),
  .set 674 (.op .lo16 (.r (106 + part)) (.r (138 + part))),
  .set 675 (.op .hi16 (.r (106 + part)) (.r (138 + part))),
  .set 676 (.op .lo16 (.r (122 + part)) (.r 89)),
  .set 677 (.op .hi16 (.r (122 + part)) (.r 89)),
  .set 678 (.op .lo16 (.r (90 + part)) (.r 89)),
  .set 679 (.op .hi16 (.r (90 + part)) (.r 89)),
  .set 728 (.op .add32 (.op .madd (.r 662) (.r 0)) (.op .madd (.r 664) (.r 1))),
  .set 729 (.op .add32 (.op .madd (.r 666) (.r 2)) (.op .madd (.r 668) (.r 3))),
  .set 680 (.op .add32 (.r 728) (.r 729)),
  .set 728 (.op .add32 (.op .madd (.r 662) (.r 4)) (.op .madd (.r 664) (.r 5))),
  .set 729 (.op .add32 (.op .madd (.r 666) (.r 6)) (.op .madd (.r 668) (.r 7))),
  .set 681 (.op .add32 (.r 728) (.r 729)),
  .set 728 (.op .add32 (.op .madd (.r 662) (.r 8)) (.op .madd (.r 664) (.r 9))),
  .set 729 (.op .add32 (.op .madd (.r 666) (.r 10)) (.op .madd (.r 668) (.r 11))),
  .set 682 (.op .add32 (.r 728) (.r 729)),
  .set 728 (.op .add32 (.op .madd (.r 662) (.r 13)) (.op .madd (.r 664) (.r 14))),
  .set 729 (.op .add32 (.op .madd (.r 666) (.r 15)) (.op .madd (.r 668) (.r 16))),
  .set 683 (.op .add32 (.r 728) (.r 729)),
  .set 728 (.op .add32 (.op .madd (.r 662) (.r 17)) (.op .madd (.r 664) (.r 18))),
  .set 729 (.op .add32 (.op .madd (.r 666) (.r 19)) (.op .madd (.r 668) (.r 20))),
  .set 684 (.op .add32 (.r 728) (.r 729)),
  .set 728 (.op .add32 (.op .madd (.r 662) (.r 21)) (.op .madd (.r 664) (.r 22))),
  .set 729 (.op .add32 (.op .madd (.r 666) (.r 23)) (.op .madd (.r 668) (.r 24))),
  .set 685 (.op .add32 (.r 728) (.r 729)),
  .set 728 (.op .add32 (.op .madd (.r 662) (.r 25)) (.op .madd (.r 664) (.r 26))),
  .set 729 (.op .add32 (.op .madd (.r 666) (.r 27)) (.op .madd (.r 668) (.r 28))),
  .set 686 (.op .add32 (.r 728) (.r 729)),
  .set 728 (.op .add32 (.op .madd (.r 662) (.r 29)) (.op .madd (.r 664) (.r 30))),
  .set 729 (.op .add32 (.op .madd (.r 666) (.r 31)) (.op .madd (.r 668) (.r 32))),
  .set 687 (.op .add32 (.r 728) (.r 729)),
  .set 728 (.op .add32 (.op .madd (.r 662) (.r 33)) (.op .madd (.r 664) (.r 34))),
  .set 729 (.op .add32 (.op .madd (.r 666) (.r 35)) (.op .madd (.r 668) (.r 36))),
  .set 688 (.op .add32 (.r 728) (.r 729)),
  .set 728 (.op .add32 (.op .madd (.r 662) (.r 37)) (.op .madd (.r 664) (.r 38))),
  .set 729 (.op .add32 (.op .madd (.r 666) (.r 39)) (.op .madd (.r 668) (.r 40))),
  .set 689 (.op .add32 (.r 728) (.r 729)),
  .set 728 (.op .add32 (.op .madd (.r 662) (.r 41)) (.op .madd (.r 664) (.r 42))),
  .set 729 (.op .add32 (.op .madd (.r 666) (.r 43)) (.op .madd (.r 668) (.r 44))),
  .set 690 (.op .add32 (.r 728) (.r 729)),
  .set 728 (.op .add32 (.op .madd (.r 662) (.r 45)) (.op .madd (.r 664) (.r 46))),
  .set 729 (.op .add32 (.op .madd (.r 666) (.r 47)) (.op .madd (.r 668) (.r 48))),
  .set 691 (.op .add32 (.r 728) (.r 729)),
  .set 728 (.op .add32 (.op .madd (.r 662) (.r 49)) (.op .madd (.r 664) (.r 50))),
  .set 729 (.op .add32 (.op .madd (.r 666) (.r 51)) (.op .madd (.r 668) (.r 52))),
  .set 692 (.op .add32 (.r 728) (.r 729)),
  .set 728 (.op .add32 (.op .madd (.r 662) (.r 53)) (.op .madd (.r 664) (.r 54))),
  .set 729 (.op .add32 (.op .madd (.r 666) (.r 55)) (.op .madd (.r 668) (.r 56))),
  .set 693 (.op .add32 (.r 728) (.r 729)),
  .set 728 (.op .add32 (.op .madd (.r 662) (.r 57)) (.op .madd (.r 664) (.r 58))),
  .set 729 (.op .add32 (.op .madd (.r 666) (.r 59)) (.op .madd (.r 668) (.r 60))),
  .set 694 (.op .add32 (.r 728) (.r 729)),
  .set 728 (.op .add32 (.op .madd (.r 662) (.r 61)) (.op .madd (.r 664) (.r 62))),
  .set 729 (.op .add32 (.op .madd (.r 666) (.r 63)) (.op .madd (.r 668) (.r 64))),
  .set 695 (.op .add32 (.r 728) (.r 729)),
  .set 728 (.op .add32 (.op .madd (.r 663) (.r 0)) (.op .madd (.r 665) (.r 1))),
  .set 729 (.op .add32 (.op .madd (.r 667) (.r 2)) (.op .madd (.r 669) (.r 3))),
  .set 696 (.op .add32 (.r 728) (.r 729)),
  .set 728 (.op .add32 (.op .madd (.r 663) (.r 4)) (.op .madd (.r 665) (.r 5))),
  .set 729 (.op .add32 (.op .madd (.r 667) (.r 6)) (.op .madd (.r 669) (.r 7))),
  .set 697 (.op .add32 (.r 728) (.r 729)),
  .set 728 (.op .add32 (.op .madd (.r 663) (.r 8)) (.op .madd (.r 665) (.r 9))),
  .set 729 (.op .add32 (.op .madd (.r 667) (.r 10)) (.op .madd (.r 669) (.r 11))),
  .set 698 (.op .add32 (.r 728) (.r 729)),
  .set 728 (.op .add32 (.op .madd (.r 663) (.r 13)) (.op .madd (.r 665) (.r 14))),
  .set 729 (.op .add32 (.op .madd (.r 667) (.r 15)) (.op .madd (.r 669) (.r 16))),
  .set 699 (.op .add32 (.r 728) (.r 729)),
  .set 728 (.op .add32 (.op .madd (.r 663) (.r 17)) (.op .madd (.r 665) (.r 18))),
  .set 729 (.op .add32 (.op .madd (.r 667) (.r 19)) (.op .madd (.r 669) (.r 20)))]

/-- source/common/vec/intrinsic_idct.cc:3837-3904. -/
def idct_32x32_half_11 : List S := [
  .set 700 (.op .add32 (.r 728) (.r 729)),
  .set 728 (.op .add32 (.op .madd (.r 663) (.r 21)) (.op .madd (.r 665) (.r 22))),
  .set 729 (.op .add32 (.op .madd (.r 667) (.r 23)) (.op .madd (.r 669) (.r 24))),
  .set 701 (.op .add32 (.r 728) (.r 729)),
  .set 728 (.op .add32 (.op .madd (.r 663) (.r 25)) (.op .madd (.r 665) (.r 26))),
  .set 729 (.op .add32 (.op .madd (.r 667) (.r 27)) (.op .madd (.r 669) (.r 28))),
  .set 702 (.op .add32 (.r 728) (.r 729)),
  .set 728 (.op .add32 (.op .madd (.r 663) (.r 29)) (.op .madd (.r 665) (.r 30))),
  .set 729 (.op .add32 (.op .madd (.r 667) (.r 31)) (.op .madd (.r 669) (.r 32))),
  .set 703 (.op .add32 (.r 728) (.r 729)),
  .set 728 (.op .add32 (.op .madd (.r 663) (.r 33)) (.op .madd (.r 665) (.r 34))),
  .set 729 (.op .add32 (.op .madd (.r 667) (.r 35)) (.op .madd (.r 669) (.r 36))),
  .set 704 (.op .add32 (.r 728) (.r 729)),
  .set 728 (.op .add32 (.op .madd (.r 663) (.r 37)) (.op .madd (.r 665) (.r 38))),
  .set 729 (.op .add32 (.op .madd (.r 667) (.r 39)) (.op .madd (.r 669) (.r 40))),
  .set 705 (.op .add32 (.r 728) (.r 729)),
  .set 728 (.op .add32 (.op .madd (.r 663) (.r 41)) (.op .madd (.r 665) (.r 42))),
  .set 729 (.op .add32 (.op .madd (.r 667) (.r 43)) (.op .madd (.r 669) (.r 44))),
  .set 706 (.op .add32 (.r 728) (.r 729)),
  .set 728 (.op .add32 (.op .madd (.r 663) (.r 45)) (.op .madd (.r 665) (.r 46))),
  .set 729 (.op .add32 (.op .madd (.r 667) (.r 47)) (.op .madd (.r 669) (.r 48))),
  .set 707 (.op .add32 (.r 728) (.r 729)),
  .set 728 (.op .add32 (.op .madd (.r 663) (.r 49)) (.op .madd (.r 665) (.r 50))),
  .set 729 (.op .add32 (.op .madd (.r 667) (.r 51)) (.op .madd (.r 669) (.r 52))),
  .set 708 (.op .add32 (.r 728) (.r 729)),
  .set 728 (.op .add32 (.op .madd (.r 663) (.r 53)) (.op .madd (.r 665) (.r 54))),
  .set 729 (.op .add32 (.op .madd (.r 667) (.r 55)) (.op .madd (.r 669) (.r 56))),
  .set 709 (.op .add32 (.r 728) (.r 729)),
  .set 728 (.op .add32 (.op .madd (.r 663) (.r 57)) (.op .madd (.r 665) (.r 58))),
  .set 729 (.op .add32 (.op .madd (.r 667) (.r 59)) (.op .madd (.r 669) (.r 60))),
  .set 710 (.op .add32 (.r 728) (.r 729)),
  .set 728 (.op .add32 (.op .madd (.r 663) (.r 61)) (.op .madd (.r 665) (.r 62))),
  .set 729 (.op .add32 (.op .madd (.r 667) (.r 63)) (.op .madd (.r 669) (.r 64))),
  .set 711 (.op .add32 (.r 728) (.r 729)),
  .set 712 (.op .add32 (.op .madd (.r 670) (.r 12)) (.op .madd (.r 672) (.r 65))),
  .set 713 (.op .add32 (.op .madd (.r 670) (.r 66)) (.op .madd (.r 672) (.r 67))),
  .set 714 (.op .add32 (.op .madd (.r 670) (.r 68)) (.op .madd (.r 672) (.r 69))),
  .set 715 (.op .add32 (.op .madd (.r 670) (.r 70)) (.op .madd (.r 672) (.r 71))),
  .set 716 (.op .add32 (.op .madd (.r 670) (.r 72)) (.op .madd (.r 672) (.r 73))),
  .set 717 (.op .add32 (.op .madd (.r 670) (.r 74)) (.op .madd (.r 672) (.r 75))),
  .set 718 (.op .add32 (.op .madd (.r 670) (.r 76)) (.op .madd (.r 672) (.r 77))),
  .set 719 (.op .add32 (.op .madd (.r 670) (.r 78)) (.op .madd (.r 672) (.r 79))),
  .set 720 (.op .add32 (.op .madd (.r 671) (.r 12)) (.op .madd (.r 673) (.r 65))),
  .set 721 (.op .add32 (.op .madd (.r 671) (.r 66)) (.op .madd (.r 673) (.r 67))),
  .set 722 (.op .add32 (.op .madd (.r 671) (.r 68)) (.op .madd (.r 673) (.r 69))),
  .set 723 (.op .add32 (.op .madd (.r 671) (.r 70)) (.op .madd (.r 673) (.r 71))),
  .set 724 (.op .add32 (.op .madd (.r 671) (.r 72)) (.op .madd (.r 673) (.r 73))),
  .set 725 (.op .add32 (.op .madd (.r 671) (.r 74)) (.op .madd (.r 673) (.r 75))),
  .set 726 (.op .add32 (.op .madd (.r 671) (.r 76)) (.op .madd (.r 673) (.r 77))),
  .set 727 (.op .add32 (.op .madd (.r 671) (.r 78)) (.op .madd (.r 673) (.r 79))),
  .set 730 (.op .madd (.r 674) (.r 80)),
  .set 731 (.op .madd (.r 674) (.r 81)),
  .set 732 (.op .madd (.r 674) (.r 82)),
  .set 733 (.op .madd (.r 674) (.r 83)),
  .set 734 (.op .madd (.r 675) (.r 80)),
  .set 735 (.op .madd (.r 675) (.r 81)),
  .set 736 (.op .madd (.r 675) (.r 82)),
  .set 737 (.op .madd (.r 675) (.r 83)),
  .set 738 (.op .madd (.r 676) (.r 84)),
  .set 739 (.op .madd (.r 677) (.r 84)),
  .set 740 (.op .madd (.r 676) (.r 85)),
  .set 741 (.op .madd (.r 677) (.r 85)),
  .set 742 (.op .madd (.r 678) (.r 86)),
  .set 743 (.op .madd (.r 679) (.r 86)),
  .set 744 (.op .madd (.r 678) (.r 87)),
  .set 745 (.op .madd (.r 679) (.r 87)),
  .set 746 (.op .add32 (.r 742) (.r 738)),
  .set 747 (.op .add32 (.r 743) (.r 739)),
  .set 748 (.op .add32 (.r 744) (.r 740)),
  .set 749 (.op .add32 (.r 745) (.r 741)),
  .set 750 (.op .sub32 (.r 742) (.r 738)),
  .set 751 (.op .sub32 (.r 743) (.r 739)),
  .set 752 (.op .sub32 (.r 744) (.r 740)),
  .set 753 (.op .sub32 (.r 745) (.r 741)),
  .set 754 (.op .add32 (.r 746) (.r 730)),
  .set 755 (.op .add32 (.r 747) (.r 734)),
  .set 756 (.op .add32 (.r 748) (.r 731)),
  .set 757 (.op .add32 (.r 749) (.r 735)),
  .set 758 (.op .add32 (.r 752) (.r 732)),
  .set 759 (.op .add32 (.r 753) (.r 736))]

/-- source/common/vec/intrinsic_idct.cc:3905-3987. -/
def idct_32x32_half_12 : List S := [
  .set 760 (.op .add32 (.r 750) (.r 733)),
  .set 761 (.op .add32 (.r 751) (.r 737)),
  .set 762 (.op .sub32 (.r 746) (.r 730)),
  .set 763 (.op .sub32 (.r 747) (.r 734)),
  .set 764 (.op .sub32 (.r 748) (.r 731)),
  .set 765 (.op .sub32 (.r 749) (.r 735)),
  .set 766 (.op .sub32 (.r 752) (.r 732)),
  .set 767 (.op .sub32 (.r 753) (.r 736)),
  .set 768 (.op .sub32 (.r 750) (.r 733)),
  .set 769 (.op .sub32 (.r 751) (.r 737)),
  .set 770 (.op .add32 (.r 754) (.r 712)),
  .set 771 (.op .add32 (.r 755) (.r 720)),
  .set 772 (.op .add32 (.r 756) (.r 713)),
  .set 773 (.op .add32 (.r 757) (.r 721)),
  .set 774 (.op .add32 (.r 758) (.r 714)),
  .set 775 (.op .add32 (.r 759) (.r 722)),
  .set 776 (.op .add32 (.r 760) (.r 715)),
  .set 777 (.op .add32 (.r 761) (.r 723)),
  .set 778 (.op .add32 (.r 768) (.r 716)),
  .set 779 (.op .add32 (.r 769) (.r 724)),
  .set 780 (.op .add32 (.r 766) (.r 717)),
  .set 781 (.op .add32 (.r 767) (.r 725)),
  .set 782 (.op .add32 (.r 764) (.r 718)),
  .set 783 (.op .add32 (.r 765) (.r 726)),
  .set 784 (.op .add32 (.r 762) (.r 719)),
  .set 785 (.op .add32 (.r 763) (.r 727)),
  .set 786 (.op .sub32 (.r 754) (.r 712)),
  .set 787 (.op .sub32 (.r 755) (.r 720)),
  .set 788 (.op .sub32 (.r 756) (.r 713)),
  .set 789 (.op .sub32 (.r 757) (.r 721)),
  .set 790 (.op .sub32 (.r 758) (.r 714)),
  .set 791 (.op .sub32 (.r 759) (.r 722)),
  .set 792 (.op .sub32 (.r 760) (.r 715)),
  .set 793 (.op .sub32 (.r 761) (.r 723)),
  .set 794 (.op .sub32 (.r 768) (.r 716)),
  .set 795 (.op .sub32 (.r 769) (.r 724)),
  .set 796 (.op .sub32 (.r 766) (.r 717)),
  .set 797 (.op .sub32 (.r 767) (.r 725)),
  .set 798 (.op .sub32 (.r 764) (.r 718)),
  .set 799 (.op .sub32 (.r 765) (.r 726)),
  .set 800 (.op .sub32 (.r 762) (.r 719)),
  .set 801 (.op .sub32 (.r 763) (.r 727)),
  .set 802 (.op .add32 (.r 770) (.r 88)),
  .set 803 (.op .add32 (.r 771) (.r 88)),
  .set 804 (.op .add32 (.r 772) (.r 88)),
  .set 805 (.op .add32 (.r 773) (.r 88)),
  .set 806 (.op .add32 (.r 774) (.r 88)),
  .set 807 (.op .add32 (.r 775) (.r 88)),
  .set 808 (.op .add32 (.r 776) (.r 88)),
  .set 809 (.op .add32 (.r 777) (.r 88)),
  .set 810 (.op .add32 (.r 778) (.r 88)),
  .set 811 (.op .add32 (.r 779) (.r 88)),
  .set 812 (.op .add32 (.r 780) (.r 88)),
  .set 813 (.op .add32 (.r 781) (.r 88)),
  .set 814 (.op .add32 (.r 782) (.r 88)),
  .set 815 (.op .add32 (.r 783) (.r 88)),
  .set 816 (.op .add32 (.r 784) (.r 88)),
  .set 817 (.op .add32 (.r 785) (.r 88)),
  .set 818 (.op .add32 (.r 800) (.r 88)),
  .set 819 (.op .add32 (.r 801) (.r 88)),
  .set 820 (.op .add32 (.r 798) (.r 88)),
  .set 821 (.op .add32 (.r 799) (.r 88)),
  .set 822 (.op .add32 (.r 796) (.r 88)),
  .set 823 (.op .add32 (.r 797) (.r 88)),
  .set 824 (.op .add32 (.r 794) (.r 88)),
  .set 825 (.op .add32 (.r 795) (.r 88)),
  .set 826 (.op .add32 (.r 792) (.r 88)),
  .set 827 (.op .add32 (.r 793) (.r 88)),
  .set 828 (.op .add32 (.r 790) (.r 88)),
  .set 829 (.op .add32 (.r 791) (.r 88)),
  .set 830 (.op .add32 (.r 788) (.r 88)),
  .set 831 (.op .add32 (.r 789) (.r 88)),
  .set 832 (.op .add32 (.r 786) (.r 88)),
  .set 833 (.op .add32 (.r 787) (.r 88)),
  .set 834 (.op .add32 (.r 802) (.r 680)),
  .set 835 (.op .add32 (.r 803) (.r 696)),
  .set 836 (.op .add32 (.r 804) (.r 681)),
  .set 837 (.op .add32 (.r 805) (.r 697)),
  .set 838 (.op .add32 (.r 806) (.r 682)),
  .set 839 (.op .add32 (.r 807) (.r 698))]

/-- source/common/vec/intrinsic_idct.cc:3988-4068. -/
def idct_32x32_half_13 (wl : Nat) : List S := [
  .set 840 (.op .add32 (.r 808) (.r 683)),
  .set 841 (.op .add32 (.r 809) (.r 699)),
  .set 842 (.op .add32 (.r 810) (.r 684)),
  .set 843 (.op .add32 (.r 811) (.r 700)),
  .set 844 (.op .add32 (.r 812) (.r 685)),
  .set 845 (.op .add32 (.r 813) (.r 701)),
  .set 846 (.op .add32 (.r 814) (.r 686)),
  .set 847 (.op .add32 (.r 815) (.r 702)),
  .set 848 (.op .add32 (.r 816) (.r 687)),
  .set 849 (.op .add32 (.r 817) (.r 703)),
  .set 850 (.op .add32 (.r 818) (.r 688)),
  .set 851 (.op .add32 (.r 819) (.r 704)),
  .set 852 (.op .add32 (.r 820) (.r 689)),
  .set 853 (.op .add32 (.r 821) (.r 705)),
  .set 854 (.op .add32 (.r 822) (.r 690)),
  .set 855 (.op .add32 (.r 823) (.r 706)),
  .set 856 (.op .add32 (.r 824) (.r 691)),
  .set 857 (.op .add32 (.r 825) (.r 707)),
  .set 858 (.op .add32 (.r 826) (.r 692)),
  .set 859 (.op .add32 (.r 827) (.r 708)),
  .set 860 (.op .add32 (.r 828) (.r 693)),
  .set 861 (.op .add32 (.r 829) (.r 709)),
  .set 862 (.op .add32 (.r 830) (.r 694)),
  .set 863 (.op .add32 (.r 831) (.r 710)),
  .set 864 (.op .add32 (.r 832) (.r 695)),
  .set 865 (.op .add32 (.r 833) (.r 711)),
  .set 866 (.op .sub32 (.r 802) (.r 680)),
  .set 867 (.op .sub32 (.r 803) (.r 696)),
  .set 868 (.op .sub32 (.r 804) (.r 681)),
  .set 869 (.op .sub32 (.r 805) (.r 697)),
  .set 870 (.op .sub32 (.r 806) (.r 682)),
  .set 871 (.op .sub32 (.r 807) (.r 698)),
  .set 872 (.op .sub32 (.r 808) (.r 683)),
  .set 873 (.op .sub32 (.r 809) (.r 699)),
  .set 874 (.op .sub32 (.r 810) (.r 684)),
  .set 875 (.op .sub32 (.r 811) (.r 700)),
  .set 876 (.op .sub32 (.r 812) (.r 685)),
  .set 877 (.op .sub32 (.r 813) (.r 701)),
  .set 878 (.op .sub32 (.r 814) (.r 686)),
  .set 879 (.op .sub32 (.r 815) (.r 702)),
  .set 880 (.op .sub32 (.r 816) (.r 687)),
  .set 881 (.op .sub32 (.r 817) (.r 703)),
  .set 882 (.op .sub32 (.r 818) (.r 688)),
  .set 883 (.op .sub32 (.r 819) (.r 704)),
  .set 884 (.op .sub32 (.r 820) (.r 689)),
  .set 885 (.op .sub32 (.r 821) (.r 705)),
  .set 886 (.op .sub32 (.r 822) (.r 690)),
  .set 887 (.op .sub32 (.r 823) (.r 706)),
  .set 888 (.op .sub32 (.r 824) (.r 691)),
  .set 889 (.op .sub32 (.r 825) (.r 707)),
  .set 890 (.op .sub32 (.r 826) (.r 692)),
  .set 891 (.op .sub32 (.r 827) (.r 708)),
  .set 892 (.op .sub32 (.r 828) (.r 693)),
  .set 893 (.op .sub32 (.r 829) (.r 709)),
  .set 894 (.op .sub32 (.r 830) (.r 694)),
  .set 895 (.op .sub32 (.r 831) (.r 710)),
  .set 896 (.op .sub32 (.r 832) (.r 695)),
  .set 897 (.op .sub32 (.r 833) (.r 711)),
  .set 898 (.sra32 (.r 834) (12 - wl)),
  .set 899 (.sra32 (.r 835) (12 - wl)),
  .set 900 (.sra32 (.r 836) (12 - wl)),
  .set 901 (.sra32 (.r 837) (12 - wl)),
  .set 902 (.sra32 (.r 838) (12 - wl)),
  .set 903 (.sra32 (.r 839) (12 - wl)),
  .set 904 (.sra32 (.r 840) (12 - wl)),
  .set 905 (.sra32 (.r 841) (12 - wl)),
  .set 906 (.sra32 (.r 842) (12 - wl)),
  .set 907 (.sra32 (.r 843) (12 - wl)),
  .set 908 (.sra32 (.r 844) (12 - wl)),
  .set 909 (.sra32 (.r 845) (12 - wl)),
  .set 910 (.sra32 (.r 846) (12 - wl)),
  .set 911 (.sra32 (.r 847) (12 - wl)),
  .set 912 (.sra32 (.r 848) (12 - wl)),
  .set 913 (.sra32 (.r 849) (12 - wl)),
  .set 914 (.sra32 (.r 850) (12 - wl)),
  .set 915 (.sra32 (.r 851) (12 - wl)),
  .set 916 (.sra32 (.r 852) (12 - wl)),
  .set 917 (.sra32 (.r 853) (12 - wl)),
  .set 918 (.sra32 (.r 854) (12 - wl)),
  .set 919 (.sra32 (.r 855) (12 - wl))]

/-- source/common/vec/intrinsic_idct.cc:4069-4144. -/
def idct_32x32_half_14 (wl : Nat) (part : Nat) : List S := [
  .set 920 (.sra32 (.r 856) (12 - wl)),
  .set 921 (.sra32 (.r 857) (12 - wl)),
  .set 922 (.sra32 (.r 858) (12 - wl)),
  .set 923 (.sra32 (.r 859) (12 - wl)),
  .set 924 (.sra32 (.r 860) (12 - wl)),
  .set 925 (.sra32 (.r 861) (12 - wl)),
  .set 926 (.sra32 (.r 862) (12 - wl)),
  .set 927 (.sra32 (.r 863) (12 - wl)),
  .set 928 (.sra32 (.r 864) (12 - wl)),
  .set 929 (.sra32 (.r 865) (12 - wl)),
  .set 930 (.sra32 (.r 896) (12 - wl)),
  .set 931 (.sra32 (.r 897) (12 - wl)),
  .set 932 (.sra32 (.r 894) (12 - wl)),
  .set 933 (.sra32 (.r 895) (12 - wl)),
  .set 934 (.sra32 (.r 892) (12 - wl)),
  .set 935 (.sra32 (.r 893) (12 - wl)),
  .set 936 (.sra32 (.r 890) (12 - wl)),
  .set 937 (.sra32 (.r 891) (12 - wl)),
  .set 938 (.sra32 (.r 888) (12 - wl)),
  .set 939 (.sra32 (.r 889) (12 - wl)),
  .set 940 (.sra32 (.r 886) (12 - wl)),
  .set 941 (.sra32 (.r 887) (12 - wl)),
  .set 942 (.sra32 (.r 884) (12 - wl)),
  .set 943 (.sra32 (.r 885) (12 - wl)),
  .set 944 (.sra32 (.r 882) (12 - wl)),
  .set 945 (.sra32 (.r 883) (12 - wl)),
  .set 946 (.sra32 (.r 880) (12 - wl)),
  .set 947 (.sra32 (.r 881) (12 - wl)),
  .set 948 (.sra32 (.r 878) (12 - wl)),
  .set 949 (.sra32 (.r 879) (12 - wl)),
  .set 950 (.sra32 (.r 876) (12 - wl)),
  .set 951 (.sra32 (.r 877) (12 - wl)),
  .set 952 (.sra32 (.r 874) (12 - wl)),
  .set 953 (.sra32 (.r 875) (12 - wl)),
  .set 954 (.sra32 (.r 872) (12 - wl)),
  .set 955 (.sra32 (.r 873) (12 - wl)),
  .set 956 (.sra32 (.r 870) (12 - wl)),
  .set 957 (.sra32 (.r 871) (12 - wl)),
  .set 958 (.sra32 (.r 868) (12 - wl)),
  .set 959 (.sra32 (.r 869) (12 - wl)),
  .set 960 (.sra32 (.r 866) (12 - wl)),
  .set 961 (.sra32 (.r 867) (12 - wl)),
  .set (218 + part) (.op .packs (.r 898) (.r 899)),
  .set (222 + part) (.op .packs (.r 900) (.r 901)),
  .set (226 + part) (.op .packs (.r 902) (.r 903)),
  .set (230 + part) (.op .packs (.r 904) (.r 905)),
  .set (234 + part) (.op .packs (.r 906) (.r 907)),
  .set (238 + part) (.op .packs (.r 908) (.r 909)),
  .set (242 + part) (.op .packs (.r 910) (.r 911)),
  .set (246 + part) (.op .packs (.r 912) (.r 913)),
  .set (250 + part) (.op .packs (.r 914) (.r 915)),
  .set (254 + part) (.op .packs (.r 916) (.r 917)),
  .set (258 + part) (.op .packs (.r 918) (.r 919)),
  .set (262 + part) (.op .packs (.r 920) (.r 921)),
  .set (266 + part) (.op .packs (.r 922) (.r 923)),
  .set (270 + part) (.op .packs (.r 924) (.r 925)),
  .set (274 + part) (.op .packs (.r 926) (.r 927)),
  .set (278 + part) (.op .packs (.r 928) (.r 929)),
  .set (282 + part) (.op .packs (.r 930) (.r 931)),
  .set (286 + part) (.op .packs (.r 932) (.r 933)),
  .set (290 + part) (.op .packs (.r 934) (.r 935)),
  .set (294 + part) (.op .packs (.r 936) (.r 937)),
  .set (298 + part) (.op .packs (.r 938) (.r 939)),
  .set (302 + part) (.op .packs (.r 940) (.r 941)),
  .set (306 + part) (.op .packs (.r 942) (.r 943)),
  .set (310 + part) (.op .packs (.r 944) (.r 945)),
  .set (314 + part) (.op .packs (.r 946) (.r 947)),
  .set (318 + part) (.op .packs (.r 948) (.r 949)),
  .set (322 + part) (.op .packs (.r 950) (.r 951)),
  .set (326 + part) (.op .packs (.r 952) (.r 953)),
  .set (330 + part) (.op .packs (.r 954) (.r 955)),
  .set (334 + part) (.op .packs (.r 956) (.r 957)),
  .set (338 + part) (.op .packs (.r 958) (.r 959)),
  .set (342 + part) (.op .packs (.r 960) (.r 961))]

/-- source/common/vec/intrinsic_idct.cc:4178-4204. -/
def idct_32x32_half_15 (wl : Nat) : List S := transpose8 962 970
    218 222 226 230 234 238 242 246
    90 94 98 102 106 110 114 118 ++
  transpose8 962 970
    219 223 227 231 235 239 243 247
    122 126 130 134 138 142 146 150 ++
  transpose8 962 970
    220 224 228 232 236 240 244 248
    154 158 162 166 170 174 178 182 ++
  transpose8 962 970
    221 225 229 233 237 241 245 249
    186 190 194 198 202 206 210 214 ++
  transpose8 962 970
    250 254 258 262 266 270 274 278
    91 95 99 103 107 111 115 119 ++
  transpose8 962 970
    251 255 259 263 267 271 275 279
    123 127 131 135 139 143 147 151 ++
  transpose8 962 970
    252 256 260 264 268 272 276 280
    155 159 163 167 171 175 179 183 ++
  transpose8 962 970
    253 257 261 265 269 273 277 281
    187 191 195 199 203 207 211 215 ++
  transpose8 962 970
    282 286 290 294 298 302 306 310
    92 96 100 104 108 112 116 120 ++
  transpose8 962 970
    283 287 291 295 299 303 307 311
    124 128 132 136 140 144 148 152 ++
  transpose8 962 970
    284 288 292 296 300 304 308 312
    156 160 164 168 172 176 180 184 ++
  transpose8 962 970
    285 289 293 297 301 305 309 313
    188 192 196 200 204 208 212 216 ++
  transpose8 962 970
    314 318 322 326 330 334 338 342
    93 97 101 105 109 113 117 121 ++
  transpose8 962 970
    315 319 323 327 331 335 339 343
    125 129 133 137 141 145 149 153 ++
  transpose8 962 970
    316 320 324 328 332 336 340 344
    157 161 165 169 173 177 181 185 ++
  transpose8 962 970
    317 321 325 329 333 337 341 345
    189 193 197 201 205 209 213 217 ++
  [
  .set 978 (.k16 (255 + 256 * wl)),
  .set 979 (.k16 (-256 - 256 * wl))]

/-- source/common/vec/intrinsic_idct.cc:4208-4239. -/
def idct_32x32_half_16 (k : Nat) : List S := [
  .set (90 + k) (.op .max16 (.op .min16 (.r (90 + k)) (.r 978)) (.r 979)),
  .set (94 + k) (.op .max16 (.op .min16 (.r (94 + k)) (.r 978)) (.r 979)),
  .set (98 + k) (.op .max16 (.op .min16 (.r (98 + k)) (.r 978)) (.r 979)),
  .set (102 + k) (.op .max16 (.op .min16 (.r (102 + k)) (.r 978)) (.r 979)),
  .set (106 + k) (.op .max16 (.op .min16 (.r (106 + k)) (.r 978)) (.r 979)),
  .set (110 + k) (.op .max16 (.op .min16 (.r (110 + k)) (.r 978)) (.r 979)),
  .set (114 + k) (.op .max16 (.op .min16 (.r (114 + k)) (.r 978)) (.r 979)),
  .set (118 + k) (.op .max16 (.op .min16 (.r (118 + k)) (.r 978)) (.r 979)),
  .set (122 + k) (.op .max16 (.op .min16 (.r (122 + k)) (.r 978)) (.r 979)),
  .set (126 + k) (.op .max16 (.op .min16 (.r (126 + k)) (.r 978)) (.r 979)),
  .set (130 + k) (.op .max16 (.op .min16 (.r (130 + k)) (.r 978)) (.r 979)),
  .set (134 + k) (.op .max16 (.op .min16 (.r (134 + k)) (.r 978)) (.r 979)),
  .set (138 + k) (.op .max16 (.op .min16 (.r (138 + k)) (.r 978)) (.r 979)),
  .set (142 + k) (.op .max16 (.op .min16 (.r (142 + k)) (.r 978)) (.r 979)),
  .set (146 + k) (.op .max16 (.op .min16 (.r (146 + k)) (.r 978)) (.r 979)),
  .set (150 + k) (.op .max16 (.op .min16 (.r (150 + k)) (.r 978)) (.r 979)),
  .set (154 + k) (.op .max16 (.op .min16 (.r (154 + k)) (.r 978)) (.r 979)),
  .set (158 + k) (.op .max16 (.op .min16 (.r (158 + k)) (.r 978)) (.r 979)),
  .set (162 + k) (.op .max16 (.op .min16 (.r (162 + k)) (.r 978)) (.r 979)),
  .set (166 + k) (.op .max16 (.op .min16 (.r (166 + k)) (.r 978)) (.r 979)),
  .set (170 + k) (.op .max16 (.op .min16 (.r (170 + k)) (.r 978)) (.r 979)),
  .set (174 + k) (.op .max16 (.op .min16 (.r (174 + k)) (.r 978)) (.r 979)),
  .set (178 + k) (.op .max16 (.op .min16 (.r (178 + k)) (.r 978)) (.r 979)),
  .set (182 + k) (.op .max16 (.op .min16 (.r (182 + k)) (.r 978)) (.r 979)),
  .set (186 + k) (.op .max16 (.op .min16 (.r (186 + k)) (.r 978)) (.r 979)),
  .set (190 + k) (.op .max16 (.op .min16 (.r (190 + k)) (.r 978)) (.r 979)),
  .set (194 + k) (.op .max16 (.op .min16 (.r (194 + k)) (.r 978)) (.r 979)),
  .set (198 + k) (.op .max16 (.op .min16 (.r (198 + k)) (.r 978)) (.r 979)),
  .set (202 + k) (.op .max16 (.op .min16 (.r (202 + k)) (.r 978)) (.r 979)),
  .set (206 + k) (.op .max16 (.op .min16 (.r (206 + k)) (.r 978)) (.r 979)),
  .set (210 + k) (.op .max16 (.op .min16 (.r (210 + k)) (.r 978)) (.r 979)),
  .set (214 + k) (.op .max16 (.op .min16 (.r (214 + k)) (.r 978)) (.r 979))]

/-- source/common/vec/intrinsic_idct.cc:4264-4267. -/
def idct_32x32_half_17 (i : Nat) : List S := [
  .st 8 (16 * i) (.r (90 + 2 * i)),
  .st 8 (8 + 16 * i) (.r (91 + 2 * i)),
  .st 8 (32 + 16 * i) (.r (94 + 2 * i)),
  .st 8 (40 + 16 * i) (.r (95 + 2 * i)),
  .st 8 (64 + 16 * i) (.r (98 + 2 * i)),
  .st 8 (72 + 16 * i) (.r (99 + 2 * i)),
  .st 8 (96 + 16 * i) (.r (102 + 2 * i)),
  .st 8 (104 + 16 * i) (.r (103 + 2 * i)),
  .st 8 (128 + 16 * i) (.r (106 + 2 * i)),
  .st 8 (136 + 16 * i) (.r (107 + 2 * i)),
  .st 8 (160 + 16 * i) (.r (110 + 2 * i)),
  .st 8 (168 + 16 * i) (.r (111 + 2 * i)),
  .st 8 (192 + 16 * i) (.r (114 + 2 * i)),
  .st 8 (200 + 16 * i) (.r (115 + 2 * i)),
  .st 8 (224 + 16 * i) (.r (118 + 2 * i)),
  .st 8 (232 + 16 * i) (.r (119 + 2 * i)),
  .st 8 (256 + 16 * i) (.r (122 + 2 * i)),
  .st 8 (264 + 16 * i) (.r (123 + 2 * i)),
  .st 8 (288 + 16 * i) (.r (126 + 2 * i)),
  .st 8 (296 + 16 * i) (.r (127 + 2 * i)),
  .st 8 (320 + 16 * i) (.r (130 + 2 * i)),
  .st 8 (328 + 16 * i) (.r (131 + 2 * i)),
  .st 8 (352 + 16 * i) (.r (134 + 2 * i)),
  .st 8 (360 + 16 * i) (.r (135 + 2 * i)),
  .st 8 (384 + 16 * i) (.r (138 + 2 * i)),
  .st 8 (392 + 16 * i) (.r (139 + 2 * i)),
  .st 8 (416 + 16 * i) (.r (142 + 2 * i)),
  .st 8 (424 + 16 * i) (.r (143 + 2 * i)),
  .st 8 (448 + 16 * i) (.r (146 + 2 * i)),
  .st 8 (456 + 16 * i) (.r (147 + 2 * i)),
  .st 8 (480 + 16 * i) (.r (150 + 2 * i)),
  .st 8 (488 + 16 * i) (.r (151 + 2 * i)),
  .st 8 (512 + 16 * i) (.r (154 + 2 * i)),
  .st 8 (520 + 16 * i) (.r (155 + 2 * i)),
  .st 8 (544 + 16 * i) (.r (158 + 2 * i)),
  .st 8 (552 + 16 * i) (.r (159 + 2 * i)),
  .st 8 (576 + 16 * i) (.r (162 + 2 * i)),
  .st 8 (584 + 16 * i) (.r (163 + 2 * i)),
  .st 8 (608 + 16 * i) (.r (166 + 2 * i)),
  .st 8 (616 + 16 * i) (.r (167 + 2 * i)),
  .st 8 (640 + 16 * i) (.r (170 + 2 * i)),
  .st 8 (648 + 16 * i) (.r (171 + 2 * i)),
  .st 8 (672 + 16 * i) (.r (174 + 2 * i)),
  .st 8 (680 + 16 * i) (.r (175 + 2 * i)),
  .st 8 (704 + 16 * i) (.r (178 + 2 * i)),
  .st 8 (712 + 16 * i) (.r (179 + 2 * i)),
  .st 8 (736 + 16 * i) (.r (182 + 2 * i)),
  .st 8 (744 + 16 * i) (.r (183 + 2 * i)),
  .st 8 (768 + 16 * i) (.r (186 + 2 * i)),
  .st 8 (776 + 16 * i) (.r (187 + 2 * i)),
  .st 8 (800 + 16 * i) (.r (190 + 2 * i)),
  .st 8 (808 + 16 * i) (.r (191 + 2 * i)),
  .st 8 (832 + 16 * i) (.r (194 + 2 * i)),
  .st 8 (840 + 16 * i) (.r (195 + 2 * i)),
  .st 8 (864 + 16 * i) (.r (198 + 2 * i)),
  .st 8 (872 + 16 * i) (.r (199 + 2 * i)),
  .st 8 (896 + 16 * i) (.r (202 + 2 * i)),
  .st 8 (904 + 16 * i) (.r (203 + 2 * i)),
  .st 8 (928 + 16 * i) (.r (206 + 2 * i)),
  .st 8 (936 + 16 * i) (.r (207 + 2 * i)),
  .st 8 (960 + 16 * i) (.r (210 + 2 * i)),
  .st 8 (968 + 16 * i) (.r (211 + 2 * i)),
  .st 8 (992 + 16 * i) (.r (214 + 2 * i)),
  .st 8 (1000 + 16 * i) (.r (215 + 2 * i))]

/-- `idct_32x32_half_sse128`, source/common/vec/intrinsic_idct.cc:3237. `wl` is the lowest bit of the argument `i_dst`. -/
def idct_32x32_half (wl : Nat) : List S :=
  idct_32x32_half_1 ++ idct_32x32_half_2 ++ (rep 2 fun i => idct_32x32_half_3 i) ++ (rep 2 fun part => idct_32x32_half_4 part ++ idct_32x32_half_5 ++ idct_32x32_half_6 ++ idct_32x32_half_7 ++ idct_32x32_half_8 part) ++ idct_32x32_half_9 wl ++ (rep 4 fun part => idct_32x32_half_10 part ++ idct_32x32_half_11 ++ idct_32x32_half_12 ++ idct_32x32_half_13 wl ++ idct_32x32_half_14 wl part) ++ idct_32x32_half_15 wl ++ (rep 4 fun k => idct_32x32_half_16 k) ++ (rep 2 fun i => idct_32x32_half_17 i)

/-! ### `idct_32x32_quad_sse128`

Registers: 0 c16_p45_p45, 1 c16_p43_p44, 2 c16_p41_p45, 3 c16_p23_p34, 4 c16_p34_p44, 5 c16_n07_p15, 6 c16_p43_p45, 7 c16_p23_p43,
8 c16_n34_n07, 9 c16_p11_p41, 10 c16_n45_n27, 11 c16_n02_p39, 12 c16_n36_n41, 13 c16_n15_p36, 14 c16_n11_n45, 15 c16_n27_p34, 16
c16_p19_n39, 17 c16_n36_p30, 18 c16_p41_n23, 19 c16_n43_p27, 20 c16_p44_n02, 21 c16_n45_p23, 22 c16_p27_p19, 23 c16_n44_p19, 24
c16_n02_p36, 25 c16_n39_p15, 26 c16_n30_p45, 27 c16_n30_p11, 28 c16_n45_p43, 29 c16_n19_p07, 30 c16_n39_p30, 31 c16_n07_p02, 32
c16_n15_p11, 33 c16_p29_p43, 34 c16_p04_p40, 35 c16_n21_p35, 36 c16_n40_p29, 37 c16_n45_p21, 38 c16_n35_p13, 39 c16_n13_p04, 40
c16_p38_p44, 41 c16_n09_p38, 42 c16_n44_p25, 43 c16_n25_p09, 44 c16_p32_p32, 45 c16_n32_p32, 46 c32_rnd, 47 Zero_16, 48-51 in00,
52-55 in01, 56-59 in02, 60-63 in03, 64-67 in04, 68-71 in05, 72-75 in06, 76-79 in07, 80-83 in08, 84-87 in09, 88-91 in10, 92-95
in11, 96-99 in12, 100-103 in13, 104-107 in14, 108-111 in15, 112-115 in16, 116-119 in17, 120-123 in18, 124-127 in19, 128-131 in20,
132-135 in21, 136-139 in22, 140-143 in23, 144-147 in24, 148-151 in25, 152-155 in26, 156-159 in27, 160-163 in28, 164-167 in29,
168-171 in30, 172-175 in31, 176-179 res00, 180-183 res01, 184-187 res02, 188-191 res03, 192-195 res04, 196-199 res05, 200-203
res06, 204-207 res07, 208-211 res08, 212-215 res09, 216-219 res10, 220-223 res11, 224-227 res12, 228-231 res13, 232-235 res14,
236-239 res15, 240-243 res16, 244-247 res17, 248-251 res18, 252-255 res19, 256-259 res20, 260-263 res21, 264-267 res22, 268-271
res23, 272-275 res24, 276-279 res25, 280-283 res26, 284-287 res27, 288-291 res28, 292-295 res29, 296-299 res30, 300-303 res31, 304
T_00_00A, 305 T_00_00B, 306 T_00_01A, 307 T_00_01B, 308 T_00_08A, 309 T_00_08B, 310 T_00_12A, 311 T_00_12B, 312 T_00_15A, 313
T_00_15B, 314 O00A, 315 O01A, 316 O02A, 317 O03A, 318 O04A, 319 O05A, 320 O06A, 321 O07A, 322 O08A, 323 O09A, 324 O10A, 325 O11A,
326 O12A, 327 O13A, 328 O14A, 329 O15A, 330 O00B, 331 O01B, 332 O02B, 333 O03B, 334 O04B, 335 O05B, 336 O06B, 337 O07B, 338 O08B,
339 O09B, 340 O10B, 341 O11B, 342 O12B, 343 O13B, 344 O14B, 345 O15B, 346 EO0A, 347 EO1A, 348 EO2A, 349 EO3A, 350 EO4A, 351 EO5A,
352 EO6A, 353 EO7A, 354 EO0B, 355 EO1B, 356 EO2B, 357 EO3B, 358 EO4B, 359 EO5B, 360 EO6B, 361 EO7B, 362 EEO0A, 363 EEO1A, 364
EEO2A, 365 EEO3A, 366 EEO0B, 367 EEO1B, 368 EEO2B, 369 EEO3B, 370 EEEE0A, 371 EEEE0B, 372 EEEE1A, 373 EEEE1B, 374 EEE0A, 375
EEE0B, 376 EEE1A, 377 EEE1B, 378 EEE3A, 379 EEE3B, 380 EEE2A, 381 EEE2B, 382 EE0A, 383 EE0B, 384 EE1A, 385 EE1B, 386 EE2A, 387
EE2B, 388 EE3A, 389 EE3B, 390 EE7A, 391 EE7B, 392 EE6A, 393 EE6B, 394 EE5A, 395 EE5B, 396 EE4A, 397 EE4B, 398 E0A, 399 E0B, 400
E1A, 401 E1B, 402 E2A, 403 E2B, 404 E3A, 405 E3B, 406 E4A, 407 E4B, 408 E5A, 409 E5B, 410 E6A, 411 E6B, 412 E7A, 413 E7B, 414 EFA,
415 EFB, 416 EEA, 417 EEB, 418 EDA, 419 EDB, 420 ECA, 421 ECB, 422 EBA, 423 EBB, 424 EAA, 425 EAB, 426 E9A, 427 E9B, 428 E8A, 429
E8B, 430 T10A, 431 T10B, 432 T11A, 433 T11B, 434 T12A, 435 T12B, 436 T13A, 437 T13B, 438 T14A, 439 T14B, 440 T15A, 441 T15B, 442
T16A, 443 T16B, 444 T17A, 445 T17B, 446 T18A, 447 T18B, 448 T19A, 449 T19B, 450 T1AA, 451 T1AB, 452 T1BA, 453 T1BB, 454 T1CA, 455
T1CB, 456 T1DA, 457 T1DB, 458 T1EA, 459 T1EB, 460 T1FA, 461 T1FB, 462 T2_00A, 463 T2_00B, 464 T2_01A, 465 T2_01B, 466 T2_02A, 467
T2_02B, 468 T2_03A, 469 T2_03B, 470 T2_04A, 471 T2_04B, 472 T2_05A, 473 T2_05B, 474 T2_06A, 475 T2_06B, 476 T2_07A, 477 T2_07B,
478 T2_08A, 479 T2_08B, 480 T2_09A, 481 T2_09B, 482 T2_10A, 483 T2_10B, 484 T2_11A, 485 T2_11B, 486 T2_12A, 487 T2_12B, 488
T2_13A, 489 T2_13B, 490 T2_14A, 491 T2_14B, 492 T2_15A, 493 T2_15B, 494 T2_31A, 495 T2_31B, 496 T2_30A, 497 T2_30B, 498 T2_29A,
499 T2_29B, 500 T2_28A, 501 T2_28B, 502 T2_27A, 503 T2_27B, 504 T2_26A, 505 T2_26B, 506 T2_25A, 507 T2_25B, 508 T2_24A, 509
T2_24B, 510 T2_23A, 511 T2_23B, 512 T2_22A, 513 T2_22B, 514 T2_21A, 515 T2_21B, 516 T2_20A, 517 T2_20B, 518 T2_19A, 519 T2_19B,
520 T2_18A, 521 T2_18B, 522 T2_17A, 523 T2_17B, 524 T2_16A, 525 T2_16B, 526 T3_00A, 527 T3_00B, 528 T3_01A, 529 T3_01B, 530
T3_02A, 531 T3_02B, 532 T3_03A, 533 T3_03B, 534 T3_04A, 535 T3_04B, 536 T3_05A, 537 T3_05B, 538 T3_06A, 539 T3_06B, 540 T3_07A,
541 T3_07B, 542 T3_08A, 543 T3_08B, 544 T3_09A, 545 T3_09B, 546 T3_10A, 547 T3_10B, 548 T3_11A, 549 T3_11B, 550 T3_12A, 551
T3_12B, 552 T3_13A, 553 T3_13B, 554 T3_14A, 555 T3_14B, 556 T3_15A, 557 T3_15B, 558 T3_16A, 559 T3_16B, 560 T3_17A, 561 T3_17B,
562 T3_18A, 563 T3_18B, 564 T3_19A, 565 T3_19B, 566 T3_20A, 567 T3_20B, 568 T3_21A, 569 T3_21B, 570 T3_22A, 571 T3_22B, 572
T3_23A, 573 T3_23B, 574 T3_24A, 575 T3_24B, 576 T3_25A, 577 T3_25B, 578 T3_26A, 579 T3_26B, 580 T3_27A, 581 T3_27B, 582 T3_28A,
583 T3_28B, 584 T3_29A, 585 T3_29B, 586 T3_30A, 587 T3_30B, 588 T3_31A, 589 T3_31B, 590 tr0_0, 591 tr0_1, 592 tr0_2, 593 tr0_3,
594 tr0_4, 595 tr0_5, 596 tr0_6, 597 tr0_7, 598 tr1_0, 599 tr1_1, 600 tr1_2, 601 tr1_3, 602 tr1_4, 603 tr1_5, 604 tr1_6, 605
tr1_7, 606 T_00_00_A, 607 T_00_00_B, 608 T_00_01_A, 609 T_00_01_B, 610 T_00_08_A, 611 T_00_08_B, 612 T_00_12_A, 613 T_00_12_B, 614
T_00_15_A, 615 T_00_15_B, 616 EEO0A, 617 EEO1A, 618 EEO2A, 619 EEO3A, 620 EEO0B, 621 EEO1B, 622 EEO2B, 623 EEO3B, 624 EEEE0A, 625
EEEE0B, 626 EEEE1A, 627 EEEE1B, 628 EEE0A, 629 EEE0B, 630 EEE1A, 631 EEE1B, 632 EEE3A, 633 EEE3B, 634 EEE2A, 635 EEE2B, 636 EE0A,
637 EE0B, 638 EE1A, 639 EE1B, 640 EE2A, 641 EE2B, 642 EE3A, 643 EE3B, 644 EE7A, 645 EE7B, 646 EE6A, 647 EE6B, 648 EE5A, 649 EE5B,
650 EE4A, 651 EE4B, 652 E0A, 653 E0B, 654 E1A, 655 E1B, 656 E2A, 657 E2B, 658 E3A, 659 E3B, 660 E4A, 661 E4B, 662 E5A, 663 E5B,
664 E6A, 665 E6B, 666 E7A, 667 E7B, 668 EFA, 669 EFB, 670 EEA, 671 EEB, 672 EDA, 673 EDB, 674 ECA, 675 ECB, 676 EBA, 677 EBB, 678
EAA, 679 EAB, 680 E9A, 681 E9B, 682 E8A, 683 E8B, 684 T10A, 685 T10B, 686 T11A, 687 T11B, 688 T12A, 689 T12B, 690 T13A, 691 T13B,
692 T14A, 693 T14B, 694 T15A, 695 T15B, 696 T16A, 697 T16B, 698 T17A, 699 T17B, 700 T18A, 701 T18B, 702 T19A, 703 T19B, 704 T1AA,
705 T1AB, 706 T1BA, 707 T1BB, 708 T1CA, 709 T1CB, 710 T1DA, 711 T1DB, 712 T1EA, 713 T1EB, 714 T1FA, 715 T1FB, 716 T2_00A, 717
T2_00B, 718 T2_01A, 719 T2_01B, 720 T2_02A, 721 T2_02B, 722 T2_03A, 723 T2_03B, 724 T2_04A, 725 T2_04B, 726 T2_05A, 727 T2_05B,
728 T2_06A, 729 T2_06B, 730 T2_07A, 731 T2_07B, 732 T2_08A, 733 T2_08B, 734 T2_09A, 735 T2_09B, 736 T2_10A, 737 T2_10B, 738
T2_11A, 739 T2_11B, 740 T2_12A, 741 T2_12B, 742 T2_13A, 743 T2_13B, 744 T2_14A, 745 T2_14B, 746 T2_15A, 747 T2_15B, 748 T2_31A,
749 T2_31B, 750 T2_30A, 751 T2_30B, 752 T2_29A, 753 T2_29B, 754 T2_28A, 755 T2_28B, 756 T2_27A, 757 T2_27B, 758 T2_26A, 759
T2_26B, 760 T2_25A, 761 T2_25B, 762 T2_24A, 763 T2_24B, 764 T2_23A, 765 T2_23B, 766 T2_22A, 767 T2_22B, 768 T2_21A, 769 T2_21B,
770 T2_20A, 771 T2_20B, 772 T2_19A, 773 T2_19B, 774 T2_18A, 775 T2_18B, 776 T2_17A, 777 T2_17B, 778 T2_16A, 779 T2_16B, 780
T3_00A, 781 T3_00B, 782 T3_01A, 783 T3_01B, 784 T3_02A, 785 T3_02B, 786 T3_03A, 787 T3_03B, 788 T3_04A, 789 T3_04B, 790 T3_05A,
791 T3_05B, 792 T3_06A, 793 T3_06B, 794 T3_07A, 795 T3_07B, 796 T3_08A, 797 T3_08B, 798 T3_09A, 799 T3_09B, 800 T3_10A, 801
T3_10B, 802 T3_11A, 803 T3_11B, 804 T3_12A, 805 T3_12B, 806 T3_13A, 807 T3_13B, 808 T3_14A, 809 T3_14B, 810 T3_15A, 811 T3_15B,
812 T3_16A, 813 T3_16B, 814 T3_17A, 815 T3_17B, 816 T3_18A, 817 T3_18B, 818 T3_19A, 819 T3_19B, 820 T3_20A, 821 T3_20B, 822
T3_21A, 823 T3_21B, 824 T3_22A, 825 T3_22B, 826 T3_23A, 827 T3_23B, 828 T3_24A, 829 T3_24B, 830 T3_25A, 831 T3_25B, 832 T3_26A,
833 T3_26B, 834 T3_27A, 835 T3_27B, 836 T3_28A, 837 T3_28B, 838 T3_29A, 839 T3_29B, 840 T3_30A, 841 T3_30B, 842 T3_31A, 843
T3_31B, 844 tr0_0, 845 tr0_1, 846 tr0_2, 847 tr0_3, 848 tr0_4, 849 tr0_5, 850 tr0_6, 851 tr0_7, 852 tr1_0, 853 tr1_1, 854 tr1_2,
855 tr1_3, 856 tr1_4, 857 tr1_5, 858 tr1_6, 859 tr1_7, 860 max_val, 861 min_val. -/


/-- source/common/vec/intrinsic_idct.cc:4283-4386. -/
def idct_32x32_quad_1 : List S := [
  .set 0 (.k32 0x002d002d),
  .set 1 (.k32 0x002b002c),
  .set 2 (.k32 0x0029002d),
  .set 3 (.k32 0x00170022),
  .set 4 (.k32 0x0022002c),
  .set 5 (.k32 0xfff9000f),
  .set 6 (.k32 0x002b002d),
  .set 7 (.k32 0x0017002b),
  .set 8 (.k32 0xffdefff9),
  .set 9 (.k32 0x000b0029),
  .set 10 (.k32 0xffd3ffe5),
  .set 11 (.k32 0xfffe0027),
  .set 12 (.k32 0xffdcffd7),
  .set 13 (.k32 0xfff10024),
  .set 14 (.k32 0xfff5ffd3),
  .set 15 (.k32 0xffe50022),
  .set 16 (.k32 0x0013ffd9),
  .set 17 (.k32 0xffdc001e),
  .set 18 (.k32 0x0029ffe9),
  .set 19 (.k32 0xffd5001b),
  .set 20 (.k32 0x002cfffe),
  .set 21 (.k32 0xffd30017),
  .set 22 (.k32 0x001b0013),
  .set 23 (.k32 0xffd40013),
  .set 24 (.k32 0xfffe0024),
  .set 25 (.k32 0xffd9000f),
  .set 26 (.k32 0xffe2002d),
  .set 27 (.k32 0xffe2000b),
  .set 28 (.k32 0xffd3002b),
  .set 29 (.k32 0xffed0007),
  .set 30 (.k32 0xffd9001e),
  .set 31 (.k32 0xfff90002),
  .set 32 (.k32 0xfff1000b),
  .set 33 (.k32 0x001d002b),
  .set 34 (.k32 0x00040028),
  .set 35 (.k32 0xffeb0023),
  .set 36 (.k32 0xffd8001d),
  .set 37 (.k32 0xffd30015),
  .set 38 (.k32 0xffdd000d),
  .set 39 (.k32 0xfff30004),
  .set 40 (.k32 0x0026002c),
  .set 41 (.k32 0xfff70026),
  .set 42 (.k32 0xffd40019),
  .set 43 (.k32 0xffe70009),
  .set 44 (.k32 0x00200020),
  .set 45 (.k32 0xffe00020),
  .set 46 (.k32 16),
  .set 47 (.k16 0),
  .set 48 (.ld 8 0),
  .set 52 (.ld 8 32),
  .set 56 (.ld 8 64),
  .set 60 (.ld 8 96),
  .set 64 (.ld 8 128),
  .set 68 (.ld 8 160),
  .set 72 (.ld 8 192),
  .set 76 (.ld 8 224),
  .set 304 (.op .lo16 (.r 52) (.r 60)),
  .set 305 (.op .hi16 (.r 52) (.r 60)),
  .set 306 (.op .lo16 (.r 68) (.r 76)),
  .set 307 (.op .hi16 (.r 68) (.r 76)),
  .set 308 (.op .lo16 (.r 56) (.r 72)),
  .set 309 (.op .hi16 (.r 56) (.r 72)),
  .set 310 (.op .lo16 (.r 64) (.r 47)),
  .set 311 (.op .hi16 (.r 64) (.r 47)),
  .set 312 (.op .lo16 (.r 48) (.r 47)),
  .set 313 (.op .hi16 (.r 48) (.r 47)),
  .set 314 (.op .add32 (.op .madd (.r 304) (.r 0)) (.op .madd (.r 306) (.r 1))),
  .set 315 (.op .add32 (.op .madd (.r 304) (.r 2)) (.op .madd (.r 306) (.r 3))),
  .set 316 (.op .add32 (.op .madd (.r 304) (.r 4)) (.op .madd (.r 306) (.r 5))),
  .set 317 (.op .add32 (.op .madd (.r 304) (.r 7)) (.op .madd (.r 306) (.r 8))),
  .set 318 (.op .add32 (.op .madd (.r 304) (.r 9)) (.op .madd (.r 306) (.r 10))),
  .set 319 (.op .add32 (.op .madd (.r 304) (.r 11)) (.op .madd (.r 306) (.r 12))),
  .set 320 (.op .add32 (.op .madd (.r 304) (.r 13)) (.op .madd (.r 306) (.r 14))),
  .set 321 (.op .add32 (.op .madd (.r 304) (.r 15)) (.op .madd (.r 306) (.r 16))),
  .set 322 (.op .add32 (.op .madd (.r 304) (.r 17)) (.op .madd (.r 306) (.r 18))),
  .set 323 (.op .add32 (.op .madd (.r 304) (.r 19)) (.op .madd (.r 306) (.r 20))),
  .set 324 (.op .add32 (.op .madd (.r 304) (.r 21)) (.op .madd (.r 306) (.r 22))),
  .set 325 (.op .add32 (.op .madd (.r 304) (.r 23)) (.op .madd (.r 306) (.r 24))),
  .set 326 (.op .add32 (.op .madd (.r 304) (.r 25)) (.op .madd (.r 306) (.r 26))),
  .set 327 (.op .add32 (.op .madd (.r 304) (.r 27)) (.op .madd (.r 306) (.r 28)))]

/-- source/common/vec/intrinsic_idct.cc:4387-4476. -/
def idct_32x32_quad_2 : List S := [
  .set 328 (.op .add32 (.op .madd (.r 304) (.r 29)) (.op .madd (.r 306) (.r 30))),
  .set 329 (.op .add32 (.op .madd (.r 304) (.r 31)) (.op .madd (.r 306) (.r 32))),
  .set 330 (.op .add32 (.op .madd (.r 305) (.r 0)) (.op .madd (.r 307) (.r 1))),
  .set 331 (.op .add32 (.op .madd (.r 305) (.r 2)) (.op .madd (.r 307) (.r 3))),
  .set 332 (.op .add32 (.op .madd (.r 305) (.r 4)) (.op .madd (.r 307) (.r 5))),
  .set 333 (.op .add32 (.op .madd (.r 305) (.r 7)) (.op .madd (.r 307) (.r 8))),
  .set 334 (.op .add32 (.op .madd (.r 305) (.r 9)) (.op .madd (.r 307) (.r 10))),
  .set 335 (.op .add32 (.op .madd (.r 305) (.r 11)) (.op .madd (.r 307) (.r 12))),
  .set 336 (.op .add32 (.op .madd (.r 305) (.r 13)) (.op .madd (.r 307) (.r 14))),
  .set 337 (.op .add32 (.op .madd (.r 305) (.r 15)) (.op .madd (.r 307) (.r 16))),
  .set 338 (.op .add32 (.op .madd (.r 305) (.r 17)) (.op .madd (.r 307) (.r 18))),
  .set 339 (.op .add32 (.op .madd (.r 305) (.r 19)) (.op .madd (.r 307) (.r 20))),
  .set 340 (.op .add32 (.op .madd (.r 305) (.r 21)) (.op .madd (.r 307) (.r 22))),
  .set 341 (.op .add32 (.op .madd (.r 305) (.r 23)) (.op .madd (.r 307) (.r 24))),
  .set 342 (.op .add32 (.op .madd (.r 305) (.r 25)) (.op .madd (.r 307) (.r 26))),
  .set 343 (.op .add32 (.op .madd (.r 305) (.r 27)) (.op .madd (.r 307) (.r 28))),
  .set 344 (.op .add32 (.op .madd (.r 305) (.r 29)) (.op .madd (.r 307) (.r 30))),
  .set 345 (.op .add32 (.op .madd (.r 305) (.r 31)) (.op .madd (.r 307) (.r 32))),
  .set 346 (.op .madd (.r 308) (.r 6)),
  .set 347 (.op .madd (.r 308) (.r 33)),
  .set 348 (.op .madd (.r 308) (.r 34)),
  .set 349 (.op .madd (.r 308) (.r 35)),
  .set 350 (.op .madd (.r 308) (.r 36)),
  .set 351 (.op .madd (.r 308) (.r 37)),
  .set 352 (.op .madd (.r 308) (.r 38)),
  .set 353 (.op .madd (.r 308) (.r 39)),
  .set 354 (.op .madd (.r 309) (.r 6)),
  .set 355 (.op .madd (.r 309) (.r 33)),
  .set 356 (.op .madd (.r 309) (.r 34)),
  .set 357 (.op .madd (.r 309) (.r 35)),
  .set 358 (.op .madd (.r 309) (.r 36)),
  .set 359 (.op .madd (.r 309) (.r 37)),
  .set 360 (.op .madd (.r 309) (.r 38)),
  .set 361 (.op .madd (.r 309) (.r 39)),
  .set 362 (.op .madd (.r 310) (.r 40)),
  .set 363 (.op .madd (.r 310) (.r 41)),
  .set 364 (.op .madd (.r 310) (.r 42)),
  .set 365 (.op .madd (.r 310) (.r 43)),
  .set 366 (.op .madd (.r 311) (.r 40)),
  .set 367 (.op .madd (.r 311) (.r 41)),
  .set 368 (.op .madd (.r 311) (.r 42)),
  .set 369 (.op .madd (.r 311) (.r 43)),
  .set 370 (.op .madd (.r 312) (.r 44)),
  .set 371 (.op .madd (.r 313) (.r 44)),
  .set 372 (.op .madd (.r 312) (.r 45)),
  .set 373 (.op .madd (.r 313) (.r 45)),
  .set 374 (.r 370),
  .set 375 (.r 371),
  .set 376 (.r 372),
  .set 377 (.r 373),
  .set 378 (.r 370),
  .set 379 (.r 371),
  .set 380 (.r 372),
  .set 381 (.r 373),
  .set 382 (.op .add32 (.r 374) (.r 362)),
  .set 383 (.op .add32 (.r 375) (.r 366)),
  .set 384 (.op .add32 (.r 376) (.r 363)),
  .set 385 (.op .add32 (.r 377) (.r 367)),
  .set 386 (.op .add32 (.r 380) (.r 364)),
  .set 387 (.op .add32 (.r 381) (.r 368)),
  .set 388 (.op .add32 (.r 378) (.r 365)),
  .set 389 (.op .add32 (.r 379) (.r 369)),
  .set 390 (.op .sub32 (.r 374) (.r 362)),
  .set 391 (.op .sub32 (.r 375) (.r 366)),
  .set 392 (.op .sub32 (.r 376) (.r 363)),
  .set 393 (.op .sub32 (.r 377) (.r 367)),
  .set 394 (.op .sub32 (.r 380) (.r 364)),
  .set 395 (.op .sub32 (.r 381) (.r 368)),
  .set 396 (.op .sub32 (.r 378) (.r 365)),
  .set 397 (.op .sub32 (.r 379) (.r 369)),
  .set 398 (.op .add32 (.r 382) (.r 346)),
  .set 399 (.op .add32 (.r 383) (.r 354)),
  .set 400 (.op .add32 (.r 384) (.r 347)),
  .set 401 (.op .add32 (.r 385) (.r 355)),
  .set 402 (.op .add32 (.r 386) (.r 348)),
  .set 403 (.op .add32 (.r 387) (.r 356)),
  .set 404 (.op .add32 (.r 388) (.r 349)),
  .set 405 (.op .add32 (.r 389) (.r 357)),
  .set 406 (.op .add32 (.r 396) (.r 350)),
  .set 407 (.op .add32 (.r 397) (.r 358))]

/-- source/common/vec/intrinsic_idct.cc:4477-4558. -/
def idct_32x32_quad_3 : List S := [
  .set 408 (.op .add32 (.r 394) (.r 351)),
  .set 409 (.op .add32 (.r 395) (.r 359)),
  .set 410 (.op .add32 (.r 392) (.r 352)),
  .set 411 (.op .add32 (.r 393) (.r 360)),
  .set 412 (.op .add32 (.r 390) (.r 353)),
  .set 413 (.op .add32 (.r 391) (.r 361)),
  .set 414 (.op .sub32 (.r 382) (.r 346)),
  .set 415 (.op .sub32 (.r 383) (.r 354)),
  .set 416 (.op .sub32 (.r 384) (.r 347)),
  .set 417 (.op .sub32 (.r 385) (.r 355)),
  .set 418 (.op .sub32 (.r 386) (.r 348)),
  .set 419 (.op .sub32 (.r 387) (.r 356)),
  .set 420 (.op .sub32 (.r 388) (.r 349)),
  .set 421 (.op .sub32 (.r 389) (.r 357)),
  .set 422 (.op .sub32 (.r 396) (.r 350)),
  .set 423 (.op .sub32 (.r 397) (.r 358)),
  .set 424 (.op .sub32 (.r 394) (.r 351)),
  .set 425 (.op .sub32 (.r 395) (.r 359)),
  .set 426 (.op .sub32 (.r 392) (.r 352)),
  .set 427 (.op .sub32 (.r 393) (.r 360)),
  .set 428 (.op .sub32 (.r 390) (.r 353)),
  .set 429 (.op .sub32 (.r 391) (.r 361)),
  .set 430 (.op .add32 (.r 398) (.r 46)),
  .set 431 (.op .add32 (.r 399) (.r 46)),
  .set 432 (.op .add32 (.r 400) (.r 46)),
  .set 433 (.op .add32 (.r 401) (.r 46)),
  .set 434 (.op .add32 (.r 402) (.r 46)),
  .set 435 (.op .add32 (.r 403) (.r 46)),
  .set 436 (.op .add32 (.r 404) (.r 46)),
  .set 437 (.op .add32 (.r 405) (.r 46)),
  .set 438 (.op .add32 (.r 406) (.r 46)),
  .set 439 (.op .add32 (.r 407) (.r 46)),
  .set 440 (.op .add32 (.r 408) (.r 46)),
  .set 441 (.op .add32 (.r 409) (.r 46)),
  .set 442 (.op .add32 (.r 410) (.r 46)),
  .set 443 (.op .add32 (.r 411) (.r 46)),
  .set 444 (.op .add32 (.r 412) (.r 46)),
  .set 445 (.op .add32 (.r 413) (.r 46)),
  .set 446 (.op .add32 (.r 428) (.r 46)),
  .set 447 (.op .add32 (.r 429) (.r 46)),
  .set 448 (.op .add32 (.r 426) (.r 46)),
  .set 449 (.op .add32 (.r 427) (.r 46)),
  .set 450 (.op .add32 (.r 424) (.r 46)),
  .set 451 (.op .add32 (.r 425) (.r 46)),
  .set 452 (.op .add32 (.r 422) (.r 46)),
  .set 453 (.op .add32 (.r 423) (.r 46)),
  .set 454 (.op .add32 (.r 420) (.r 46)),
  .set 455 (.op .add32 (.r 421) (.r 46)),
  .set 456 (.op .add32 (.r 418) (.r 46)),
  .set 457 (.op .add32 (.r 419) (.r 46)),
  .set 458 (.op .add32 (.r 416) (.r 46)),
  .set 459 (.op .add32 (.r 417) (.r 46)),
  .set 460 (.op .add32 (.r 414) (.r 46)),
  .set 461 (.op .add32 (.r 415) (.r 46)),
  .set 462 (.op .add32 (.r 430) (.r 314)),
  .set 463 (.op .add32 (.r 431) (.r 330)),
  .set 464 (.op .add32 (.r 432) (.r 315)),
  .set 465 (.op .add32 (.r 433) (.r 331)),
  .set 466 (.op .add32 (.r 434) (.r 316)),
  .set 467 (.op .add32 (.r 435) (.r 332)),
  .set 468 (.op .add32 (.r 436) (.r 317)),
  .set 469 (.op .add32 (.r 437) (.r 333)),
  .set 470 (.op .add32 (.r 438) (.r 318)),
  .set 471 (.op .add32 (.r 439) (.r 334)),
  .set 472 (.op .add32 (.r 440) (.r 319)),
  .set 473 (.op .add32 (.r 441) (.r 335)),
  .set 474 (.op .add32 (.r 442) (.r 320)),
  .set 475 (.op .add32 (.r 443) (.r 336)),
  .set 476 (.op .add32 (.r 444) (.r 321)),
  .set 477 (.op .add32 (.r 445) (.r 337)),
  .set 478 (.op .add32 (.r 446) (.r 322)),
  .set 479 (.op .add32 (.r 447) (.r 338)),
  .set 480 (.op .add32 (.r 448) (.r 323)),
  .set 481 (.op .add32 (.r 449) (.r 339)),
  .set 482 (.op .add32 (.r 450) (.r 324)),
  .set 483 (.op .add32 (.r 451) (.r 340)),
  .set 484 (.op .add32 (.r 452) (.r 325)),
  .set 485 (.op .add32 (.r 453) (.r 341)),
  .set 486 (.op .add32 (.r 454) (.r 326)),
  .set 487 (.op .add32 (.r 455) (.r 342))]

/-- source/common/vec/intrinsic_idct.cc:4559-4640. -/
def idct_32x32_quad_4 : List S := [
  .set 488 (.op .add32 (.r 456) (.r 327)),
  .set 489 (.op .add32 (.r 457) (.r 343)),
  .set 490 (.op .add32 (.r 458) (.r 328)),
  .set 491 (.op .add32 (.r 459) (.r 344)),
  .set 492 (.op .add32 (.r 460) (.r 329)),
  .set 493 (.op .add32 (.r 461) (.r 345)),
  .set 494 (.op .sub32 (.r 430) (.r 314)),
  .set 495 (.op .sub32 (.r 431) (.r 330)),
  .set 496 (.op .sub32 (.r 432) (.r 315)),
  .set 497 (.op .sub32 (.r 433) (.r 331)),
  .set 498 (.op .sub32 (.r 434) (.r 316)),
  .set 499 (.op .sub32 (.r 435) (.r 332)),
  .set 500 (.op .sub32 (.r 436) (.r 317)),
  .set 501 (.op .sub32 (.r 437) (.r 333)),
  .set 502 (.op .sub32 (.r 438) (.r 318)),
  .set 503 (.op .sub32 (.r 439) (.r 334)),
  .set 504 (.op .sub32 (.r 440) (.r 319)),
  .set 505 (.op .sub32 (.r 441) (.r 335)),
  .set 506 (.op .sub32 (.r 442) (.r 320)),
  .set 507 (.op .sub32 (.r 443) (.r 336)),
  .set 508 (.op .sub32 (.r 444) (.r 321)),
  .set 509 (.op .sub32 (.r 445) (.r 337)),
  .set 510 (.op .sub32 (.r 446) (.r 322)),
  .set 511 (.op .sub32 (.r 447) (.r 338)),
  .set 512 (.op .sub32 (.r 448) (.r 323)),
  .set 513 (.op .sub32 (.r 449) (.r 339)),
  .set 514 (.op .sub32 (.r 450) (.r 324)),
  .set 515 (.op .sub32 (.r 451) (.r 340)),
  .set 516 (.op .sub32 (.r 452) (.r 325)),
  .set 517 (.op .sub32 (.r 453) (.r 341)),
  .set 518 (.op .sub32 (.r 454) (.r 326)),
  .set 519 (.op .sub32 (.r 455) (.r 342)),
  .set 520 (.op .sub32 (.r 456) (.r 327)),
  .set 521 (.op .sub32 (.r 457) (.r 343)),
  .set 522 (.op .sub32 (.r 458) (.r 328)),
  .set 523 (.op .sub32 (.r 459) (.r 344)),
  .set 524 (.op .sub32 (.r 460) (.r 329)),
  .set 525 (.op .sub32 (.r 461) (.r 345)),
  .set 526 (.sra32 (.r 462) 5),
  .set 527 (.sra32 (.r 463) 5),
  .set 528 (.sra32 (.r 464) 5),
  .set 529 (.sra32 (.r 465) 5),
  .set 530 (.sra32 (.r 466) 5),
  .set 531 (.sra32 (.r 467) 5),
  .set 532 (.sra32 (.r 468) 5),
  .set 533 (.sra32 (.r 469) 5),
  .set 534 (.sra32 (.r 470) 5),
  .set 535 (.sra32 (.r 471) 5),
  .set 536 (.sra32 (.r 472) 5),
  .set 537 (.sra32 (.r 473) 5),
  .set 538 (.sra32 (.r 474) 5),
  .set 539 (.sra32 (.r 475) 5),
  .set 540 (.sra32 (.r 476) 5),
  .set 541 (.sra32 (.r 477) 5),
  .set 542 (.sra32 (.r 478) 5),
  .set 543 (.sra32 (.r 479) 5),
  .set 544 (.sra32 (.r 480) 5),
  .set 545 (.sra32 (.r 481) 5),
  .set 546 (.sra32 (.r 482) 5),
  .set 547 (.sra32 (.r 483) 5),
  .set 548 (.sra32 (.r 484) 5),
  .set 549 (.sra32 (.r 485) 5),
  .set 550 (.sra32 (.r 486) 5),
  .set 551 (.sra32 (.r 487) 5),
  .set 552 (.sra32 (.r 488) 5),
  .set 553 (.sra32 (.r 489) 5),
  .set 554 (.sra32 (.r 490) 5),
  .set 555 (.sra32 (.r 491) 5),
  .set 556 (.sra32 (.r 492) 5),
  .set 557 (.sra32 (.r 493) 5),
  .set 558 (.sra32 (.r 524) 5),
  .set 559 (.sra32 (.r 525) 5),
  .set 560 (.sra32 (.r 522) 5),
  .set 561 (.sra32 (.r 523) 5),
  .set 562 (.sra32 (.r 520) 5),
  .set 563 (.sra32 (.r 521) 5),
  .set 564 (.sra32 (.r 518) 5),
  .set 565 (.sra32 (.r 519) 5),
  .set 566 (.sra32 (.r 516) 5),
  .set 567 (.sra32 (.r 517) 5)]

/-- source/common/vec/intrinsic_idct.cc:4641-4740. -/
def idct_32x32_quad_5 (wl : Nat) : List S := [
  .set 568 (.sra32 (.r 514) 5),
  .set 569 (.sra32 (.r 515) 5),
  .set 570 (.sra32 (.r 512) 5),
  .set 571 (.sra32 (.r 513) 5),
  .set 572 (.sra32 (.r 510) 5),
  .set 573 (.sra32 (.r 511) 5),
  .set 574 (.sra32 (.r 508) 5),
  .set 575 (.sra32 (.r 509) 5),
  .set 576 (.sra32 (.r 506) 5),
  .set 577 (.sra32 (.r 507) 5),
  .set 578 (.sra32 (.r 504) 5),
  .set 579 (.sra32 (.r 505) 5),
  .set 580 (.sra32 (.r 502) 5),
  .set 581 (.sra32 (.r 503) 5),
  .set 582 (.sra32 (.r 500) 5),
  .set 583 (.sra32 (.r 501) 5),
  .set 584 (.sra32 (.r 498) 5),
  .set 585 (.sra32 (.r 499) 5),
  .set 586 (.sra32 (.r 496) 5),
  .set 587 (.sra32 (.r 497) 5),
  .set 588 (.sra32 (.r 494) 5),
  .set 589 (.sra32 (.r 495) 5),
  .set 176 (.op .packs (.r 526) (.r 527)),
  .set 180 (.op .packs (.r 528) (.r 529)),
  .set 184 (.op .packs (.r 530) (.r 531)),
  .set 188 (.op .packs (.r 532) (.r 533)),
  .set 192 (.op .packs (.r 534) (.r 535)),
  .set 196 (.op .packs (.r 536) (.r 537)),
  .set 200 (.op .packs (.r 538) (.r 539)),
  .set 204 (.op .packs (.r 540) (.r 541)),
  .set 208 (.op .packs (.r 542) (.r 543)),
  .set 212 (.op .packs (.r 544) (.r 545)),
  .set 216 (.op .packs (.r 546) (.r 547)),
  .set 220 (.op .packs (.r 548) (.r 549)),
  .set 224 (.op .packs (.r 550) (.r 551)),
  .set 228 (.op .packs (.r 552) (.r 553)),
  .set 232 (.op .packs (.r 554) (.r 555)),
  .set 236 (.op .packs (.r 556) (.r 557)),
  .set 240 (.op .packs (.r 558) (.r 559)),
  .set 244 (.op .packs (.r 560) (.r 561)),
  .set 248 (.op .packs (.r 562) (.r 563)),
  .set 252 (.op .packs (.r 564) (.r 565)),
  .set 256 (.op .packs (.r 566) (.r 567)),
  .set 260 (.op .packs (.r 568) (.r 569)),
  .set 264 (.op .packs (.r 570) (.r 571)),
  .set 268 (.op .packs (.r 572) (.r 573)),
  .set 272 (.op .packs (.r 574) (.r 575)),
  .set 276 (.op .packs (.r 576) (.r 577)),
  .set 280 (.op .packs (.r 578) (.r 579)),
  .set 284 (.op .packs (.r 580) (.r 581)),
  .set 288 (.op .packs (.r 582) (.r 583)),
  .set 292 (.op .packs (.r 584) (.r 585)),
  .set 296 (.op .packs (.r 586) (.r 587)),
  .set 300 (.op .packs (.r 588) (.r 589))] ++
  transpose8 590 598
    176 180 184 188 192 196 200 204
    48 52 56 60 64 68 72 76 ++
  transpose8 590 598
    208 212 216 220 224 228 232 236
    49 53 57 61 65 69 73 77 ++
  transpose8 590 598
    240 244 248 252 256 260 264 268
    50 54 58 62 66 70 74 78 ++
  transpose8 590 598
    272 276 280 284 288 292 296 300
    51 55 59 63 67 71 75 79 ++
  [
  .set 46 (.k32 (2 ^ (11 - wl)))]

/-- source/common/vec/intrinsic_idct.cc:4743-4839. -/
def idct_32x32_quad_6 (part : Nat) : List S := [
  .set 606 (.op .lo16 (.r (52 + part)) (.r (60 + part))),
  .set 607 (.op .hi16 (.r (52 + part)) (.r (60 + part))),
  .set 608 (.op .lo16 (.r (68 + part)) (.r (76 + part))),
  .set 609 (.op .hi16 (.r (68 + part)) (.r (76 + part))),
  .set 610 (.op .lo16 (.r (56 + part)) (.r (72 + part))),
  .set 611 (.op .hi16 (.r (56 + part)) (.r (72 + part))),
  .set 612 (.op .lo16 (.r (64 + part)) (.r 47)),
  .set 613 (.op .hi16 (.r (64 + part)) (.r 47)),
  .set 614 (.op .lo16 (.r (48 + part)) (.r 47)),
  .set 615 (.op .hi16 (.r (48 + part)) (.r 47)),
  .set 314 (.op .add32 (.op .madd (.r 606) (.r 0)) (.op .madd (.r 608) (.r 1))),
  .set 315 (.op .add32 (.op .madd (.r 606) (.r 2)) (.op .madd (.r 608) (.r 3))),
  .set 316 (.op .add32 (.op .madd (.r 606) (.r 4)) (.op .madd (.r 608) (.r 5))),
  .set 317 (.op .add32 (.op .madd (.r 606) (.r 7)) (.op .madd (.r 608) (.r 8))),
  .set 318 (.op .add32 (.op .madd (.r 606) (.r 9)) (.op .madd (.r 608) (.r 10))),
  .set 319 (.op .add32 (.op .madd (.r 606) (.r 11)) (.op .madd (.r 608) (.r 12))),
  .set 320 (.op .add32 (.op .madd (.r 606) (.r 13)) (.op .madd (.r 608) (.r 14))),
  .set 321 (.op .add32 (.op .madd (.r 606) (.r 15)) (.op .madd (.r 608) (.r 16))),
  .set 322 (.op .add32 (.op .madd (.r 606) (.r 17)) (.op .madd (.r 608) (.r 18))),
  .set 323 (.op .add32 (.op .madd (.r 606) (.r 19)) (.op .madd (.r 608) (.r 20))),
  .set 324 (.op .add32 (.op .madd (.r 606) (.r 21)) (.op .madd (.r 608) (.r 22))),
  .set 325 (.op .add32 (.op .madd (.r 606) (.r 23)) (.op .madd (.r 608) (.r 24))),
  .set 326 (.op .add32 (.op .madd (.r 606) (.r 25)) (.op .madd (.r 608) (.r 26))),
  .set 327 (.op .add32 (.op .madd (.r 606) (.r 27)) (.op .madd (.r 608) (.r 28))),
  .set 328 (.op .add32 (.op .madd (.r 606) (.r 29)) (.op .madd (.r 608) (.r 30))),
  .set 329 (.op .add32 (.op .madd (.r 606) (.r 31)) (.op .madd (.r 608) (.r 32))),
  .set 330 (.op .add32 (.op .madd (.r 607) (.r 0)) (.op .madd (.r 609) (.r 1))),
  .set 331 (.op .add32 (.op .madd (.r 607) (.r 2)) (.op .madd (.r 609) (.r 3))),
  .set 332 (.op .add32 (.op .madd (.r 607) (.r 4)) (.op .madd (.r 609) (.r 5))),
  .set 333 (.op .add32 (.op .madd (.r 607) (.r 7)) (.op .madd (.r 609) (.r 8))),
  .set 334 (.op .add32 (.op .madd (.r 607) (.r 9)) (.op .madd (.r 609) (.r 10))),
  .set 335 (.op .add32 (.op .madd (.r 607) (.r 11)) (.op .madd (.r 609) (.r 12))),
  .set 336 (.op .add32 (.op .madd (.r 607) (.r 13)) (.op .madd (.r 609) (.r 14))),
  .set 337 (.op .add32 (.op .madd (.r 607) (.r 15)) (.op .madd (.r 609) (.r 16))),
  .set 338 (.op .add32 (.op .madd (.r 607) (.r 17)) (.op .madd (.r 609) (.r 18))),
  .set 339 (.op .add32 (.op .madd (.r 607) (.r 19)) (.op .madd (.r 609) (.r 20))),
  .set 340 (.op .add32 (.op .madd (.r 607) (.r 21)) (.op .madd (.r 609) (.r 22))),
  .set 341 (.op .add32 (.op .madd (.r 607) (.r 23)) (.op .madd (.r 609) (.r 24))),
  .set 342 (.op .add32 (.op .madd (.r 607) (.r 25)) (.op .madd (.r 609) (.r 26))),
  .set 343 (.op .add32 (.op .madd (.r 607) (.r 27)) (.op .madd (.r 609) (.r 28))),
  .set 344 (.op .add32 (.op .madd (.r 607) (.r 29)) (.op .madd (.r 609) (.r 30))),
  .set 345 (.op .add32 (.op .madd (.r 607) (.r 31)) (.op .madd (.r 609) (.r 32))),
  .set 346 (.op .madd (.r 610) (.r 6)),
  .set 347 (.op .madd (.r 610) (.r 33)),
  .set 348 (.op .madd (.r 610) (.r 34)),
  .set 349 (.op .madd (.r 610) (.r 35)),
  .set 350 (.op .madd (.r 610) (.r 36)),
  .set 351 (.op .madd (.r 610) (.r 37)),
  .set 352 (.op .madd (.r 610) (.r 38)),
  .set 353 (.op .madd (.r 610) (.r 39)),
  .set 354 (.op .madd (.r 611) (.r 6)),
  .set 355 (.op .madd (.r 611) (.r 33)),
  .set 356 (.op .madd (.r 611) (.r 34)),
  .set 357 (.op .madd (.r 611) (.r 35)),
  .set 358 (.op .madd (.r 611) (.r 36)),
  .set 359 (.op .madd (.r 611) (.r 37)),
  .set 360 (.op .madd (.r 611) (.r 38)),
  .set 361 (.op .madd (.r 611) (.r 39)),
  .set 616 (.op .madd (.r 612) (.r 40)),
  .set 617 (.op .madd (.r 612) (.r 41)),
  .set 618 (.op .madd (.r 612) (.r 42)),
  .set 619 (.op .madd (.r 612) (.r 43)),
  .set 620 (.op .madd (.r 613) (.r 40)),
  .set 621 (.op .madd (.r 613) (.r 41)),
  .set 622 (.op .madd (.r 613) (.r 42)),
  .set 623 (.op .madd (.r 613) (.r 43)),
  .set 624 (.op .madd (.r 614) (.r 44)),
  .set 625 (.op .madd (.r 615) (.r 44)),
  .set 626 (.op .madd (.r 614) (.r 45)),
  .set 627 (.op .madd (.r 615) (.r 45)),
  .set 628 (.r 624),
  .set 629 (.r 625),
  .set 630 (.r 626),
  .set 631 (.r 627),
  .set 632 (.r 624),
  .set 633 (.r 625),
  .set 634 (.r 626),
  .set 635 (.r 627),
  .set 636 (.op .add32 (.r 628) (.r 616)),
  .set 637 (.op .add32 (.r 629) (.r 620))]

/-- source/common/vec/intrinsic_idct.cc:4840-4922. -/
def idct_32x32_quad_7 : List S := [
  .set 638 (.op .add32 (.r 630) (.r 617)),
  .set 639 (.op .add32 (.r 631) (.r 621)),
  .set 640 (.op .add32 (.r 634) (.r 618)),
  .set 641 (.op .add32 (.r 635) (.r 622)),
  .set 642 (.op .add32 (.r 632) (.r 619)),
  .set 643 (.op .add32 (.r 633) (.r 623)),
  .set 644 (.op .sub32 (.r 628) (.r 616)),
  .set 645 (.op .sub32 (.r 629) (.r 620)),
  .set 646 (.op .sub32 (.r 630) (.r 617)),
  .set 647 (.op .sub32 (.r 631) (.r 621)),
  .set 648 (.op .sub32 (.r 634) (.r 618)),
  .set 649 (.op .sub32 (.r 635) (.r 622)),
  .set 650 (.op .sub32 (.r 632) (.r 619)),
  .set 651 (.op .sub32 (.r 633) (.r 623)),
  .set 652 (.op .add32 (.r 636) (.r 346)),
  .set 653 (.op .add32 (.r 637) (.r 354)),
  .set 654 (.op .add32 (.r 638) (.r 347)),
  .set 655 (.op .add32 (.r 639) (.r 355)),
  .set 656 (.op .add32 (.r 640) (.r 348)),
  .set 657 (.op .add32 (.r 641) (.r 356)),
  .set 658 (.op .add32 (.r 642) (.r 349)),
  .set 659 (.op .add32 (.r 643) (.r 357)),
  .set 660 (.op .add32 (.r 650) (.r 350)),
  .set 661 (.op .add32 (.r 651) (.r 358)),
  .set 662 (.op .add32 (.r 648) (.r 351)),
  .set 663 (.op .add32 (.r 649) (.r 359)),
  .set 664 (.op .add32 (.r 646) (.r 352)),
  .set 665 (.op .add32 (.r 647) (.r 360)),
  .set 666 (.op .add32 (.r 644) (.r 353)),
  .set 667 (.op .add32 (.r 645) (.r 361)),
  .set 668 (.op .sub32 (.r 636) (.r 346)),
  .set 669 (.op .sub32 (.r 637) (.r 354)),
  .set 670 (.op .sub32 (.r 638) (.r 347)),
  .set 671 (.op .sub32 (.r 639) (.r 355)),
  .set 672 (.op .sub32 (.r 640) (.r 348)),
  .set 673 (.op .sub32 (.r 641) (.r 356)),
  .set 674 (.op .sub32 (.r 642) (.r 349)),
  .set 675 (.op .sub32 (.r 643) (.r 357)),
  .set 676 (.op .sub32 (.r 650) (.r 350)),
  .set 677 (.op .sub32 (.r 651) (.r 358)),
  .set 678 (.op .sub32 (.r 648) (.r 351)),
  .set 679 (.op .sub32 (.r 649) (.r 359)),
  .set 680 (.op .sub32 (.r 646) (.r 352)),
  .set 681 (.op .sub32 (.r 647) (.r 360)),
  .set 682 (.op .sub32 (.r 644) (.r 353)),
  .set 683 (.op .sub32 (.r 645) (.r 361)),
  .set 684 (.op .add32 (.r 652) (.r 46)),
  .set 685 (.op .add32 (.r 653) (.r 46)),
  .set 686 (.op .add32 (.r 654) (.r 46)),
  .set 687 (.op .add32 (.r 655) (.r 46)),
  .set 688 (.op .add32 (.r 656) (.r 46)),
  .set 689 (.op .add32 (.r 657) (.r 46)),
  .set 690 (.op .add32 (.r 658) (.r 46)),
  .set 691 (.op .add32 (.r 659) (.r 46)),
  .set 692 (.op .add32 (.r 660) (.r 46)),
  .set 693 (.op .add32 (.r 661) (.r 46)),
  .set 694 (.op .add32 (.r 662) (.r 46)),
  .set 695 (.op .add32 (.r 663) (.r 46)),
  .set 696 (.op .add32 (.r 664) (.r 46)),
  .set 697 (.op .add32 (.r 665) (.r 46)),
  .set 698 (.op .add32 (.r 666) (.r 46)),
  .set 699 (.op .add32 (.r 667) (.r 46)),
  .set 700 (.op .add32 (.r 682) (.r 46)),
  .set 701 (.op .add32 (.r 683) (.r 46)),
  .set 702 (.op .add32 (.r 680) (.r 46)),
  .set 703 (.op .add32 (.r 681) (.r 46)),
  .set 704 (.op .add32 (.r 678) (.r 46)),
  .set 705 (.op .add32 (.r 679) (.r 46)),
  .set 706 (.op .add32 (.r 676) (.r 46)),
  .set 707 (.op .add32 (.r 677) (.r 46)),
  .set 708 (.op .add32 (.r 674) (.r 46)),
  .set 709 (.op .add32 (.r 675) (.r 46)),
  .set 710 (.op .add32 (.r 672) (.r 46)),
  .set 711 (.op .add32 (.r 673) (.r 46)),
  .set 712 (.op .add32 (.r 670) (.r 46)),
  .set 713 (.op .add32 (.r 671) (.r 46)),
  .set 714 (.op .add32 (.r 668) (.r 46)),
  .set 715 (.op .add32 (.r 669) (.r 46)),
  .set 716 (.op .add32 (.r 684) (.r 314)),
  .set 717 (.op .add32 (.r 685) (.r 330))]

/-- source/common/vec/intrinsic_idct.cc:4923-5003. -/
def idct_32x32_quad_8 (wl : Nat) : List S := [
  .set 718 (.op .add32 (.r 686) (.r 315)),
  .set 719 (.op .add32 (.r 687) (.r 331)),
  .set 720 (.op .add32 (.r 688) (.r 316)),
  .set 721 (.op .add32 (.r 689) (.r 332)),
  .set 722 (.op .add32 (.r 690) (.r 317)),
  .set 723 (.op .add32 (.r 691) (.r 333)),
  .set 724 (.op .add32 (.r 692) (.r 318)),
  .set 725 (.op .add32 (.r 693) (.r 334)),
  .set 726 (.op .add32 (.r 694) (.r 319)),
  .set 727 (.op .add32 (.r 695) (.r 335)),
  .set 728 (.op .add32 (.r 696) (.r 320)),
  .set 729 (.op .add32 (.r 697) (.r 336)),
  .set 730 (.op .add32 (.r 698) (.r 321)),
  .set 731 (.op .add32 (.r 699) (.r 337)),
  .set 732 (.op .add32 (.r 700) (.r 322)),
  .set 733 (.op .add32 (.r 701) (.r 338)),
  .set 734 (.op .add32 (.r 702) (.r 323)),
  .set 735 (.op .add32 (.r 703) (.r 339)),
  .set 736 (.op .add32 (.r 704) (.r 324)),
  .set 737 (.op .add32 (.r 705) (.r 340)),
  .set 738 (.op .add32 (.r 706) (.r 325)),
  .set 739 (.op .add32 (.r 707) (.r 341)),
  .set 740 (.op .add32 (.r 708) (.r 326)),
  .set 741 (.op .add32 (.r 709) (.r 342)),
  .set 742 (.op .add32 (.r 710) (.r 327)),
  .set 743 (.op .add32 (.r 711) (.r 343)),
  .set 744 (.op .add32 (.r 712) (.r 328)),
  .set 745 (.op .add32 (.r 713) (.r 344)),
  .set 746 (.op .add32 (.r 714) (.r 329)),
  .set 747 (.op .add32 (.r 715) (.r 345)),
  .set 748 (.op .sub32 (.r 684) (.r 314)),
  .set 749 (.op .sub32 (.r 685) (.r 330)),
  .set 750 (.op .sub32 (.r 686) (.r 315)),
  .set 751 (.op .sub32 (.r 687) (.r 331)),
  .set 752 (.op .sub32 (.r 688) (.r 316)),
  .set 753 (.op .sub32 (.r 689) (.r 332)),
  .set 754 (.op .sub32 (.r 690) (.r 317)),
  .set 755 (.op .sub32 (.r 691) (.r 333)),
  .set 756 (.op .sub32 (.r 692) (.r 318)),
  .set 757 (.op .sub32 (.r 693) (.r 334)),
  .set 758 (.op .sub32 (.r 694) (.r 319)),
  .set 759 (.op .sub32 (.r 695) (.r 335)),
  .set 760 (.op .sub32 (.r 696) (.r 320)),
  .set 761 (.op .sub32 (.r 697) (.r 336)),
  .set 762 (.op .sub32 (.r 698) (.r 321)),
  .set 763 (.op .sub32 (.r 699) (.r 337)),
  .set 764 (.op .sub32 (.r 700) (.r 322)),
  .set 765 (.op .sub32 (.r 701) (.r 338)),
  .set 766 (.op .sub32 (.r 702) (.r 323)),
  .set 767 (.op .sub32 (.r 703) (.r 339)),
  .set 768 (.op .sub32 (.r 704) (.r 324)),
  .set 769 (.op .sub32 (.r 705) (.r 340)),
  .set 770 (.op .sub32 (.r 706) (.r 325)),
  .set 771 (.op .sub32 (.r 707) (.r 341)),
  .set 772 (.op .sub32 (.r 708) (.r 326)),
  .set 773 (.op .sub32 (.r 709) (.r 342)),
  .set 774 (.op .sub32 (.r 710) (.r 327)),
  .set 775 (.op .sub32 (.r 711) (.r 343)),
  .set 776 (.op .sub32 (.r 712) (.r 328)),
  .set 777 (.op .sub32 (.r 713) (.r 344)),
  .set 778 (.op .sub32 (.r 714) (.r 329)),
  .set 779 (.op .sub32 (.r 715) (.r 345)),
  .set 780 (.sra32 (.r 716) (12 - wl)),
  .set 781 (.sra32 (.r 717) (12 - wl)),
  .set 782 (.sra32 (.r 718) (12 - wl)),
  .set 783 (.sra32 (.r 719) (12 - wl)),
  .set 784 (.sra32 (.r 720) (12 - wl)),
  .set 785 (.sra32 (.r 721) (12 - wl)),
  .set 786 (.sra32 (.r 722) (12 - wl)),
  .set 787 (.sra32 (.r 723) (12 - wl)),
  .set 788 (.sra32 (.r 724) (12 - wl)),
  .set 789 (.sra32 (.r 725) (12 - wl)),
  .set 790 (.sra32 (.r 726) (12 - wl)),
  .set 791 (.sra32 (.r 727) (12 - wl)),
  .set 792 (.sra32 (.r 728) (12 - wl)),
  .set 793 (.sra32 (.r 729) (12 - wl)),
  .set 794 (.sra32 (.r 730) (12 - wl)),
  .set 795 (.sra32 (.r 731) (12 - wl)),
  .set 796 (.sra32 (.r 732) (12 - wl)),
  .set 797 (.sra32 (.r 733) (12 - wl))]

/-- source/common/vec/intrinsic_idct.cc:5004-5083. -/
def idct_32x32_quad_9 (wl : Nat) (part : Nat) : List S := [
  .set 798 (.sra32 (.r 734) (12 - wl)),
  .set 799 (.sra32 (.r 735) (12 - wl)),
  .set 800 (.sra32 (.r 736) (12 - wl)),
  .set 801 (.sra32 (.r 737) (12 - wl)),
  .set 802 (.sra32 (.r 738) (12 - wl)),
  .set 803 (.sra32 (.r 739) (12 - wl)),
  .set 804 (.sra32 (.r 740) (12 - wl)),
  .set 805 (.sra32 (.r 741) (12 - wl)),
  .set 806 (.sra32 (.r 742) (12 - wl)),
  .set 807 (.sra32 (.r 743) (12 - wl)),
  .set 808 (.sra32 (.r 744) (12 - wl)),
  .set 809 (.sra32 (.r 745) (12 - wl)),
  .set 810 (.sra32 (.r 746) (12 - wl)),
  .set 811 (.sra32 (.r 747) (12 - wl)),
  .set 812 (.sra32 (.r 778) (12 - wl)),
  .set 813 (.sra32 (.r 779) (12 - wl)),
  .set 814 (.sra32 (.r 776) (12 - wl)),
  .set 815 (.sra32 (.r 777) (12 - wl)),
  .set 816 (.sra32 (.r 774) (12 - wl)),
  .set 817 (.sra32 (.r 775) (12 - wl)),
  .set 818 (.sra32 (.r 772) (12 - wl)),
  .set 819 (.sra32 (.r 773) (12 - wl)),
  .set 820 (.sra32 (.r 770) (12 - wl)),
  .set 821 (.sra32 (.r 771) (12 - wl)),
  .set 822 (.sra32 (.r 768) (12 - wl)),
  .set 823 (.sra32 (.r 769) (12 - wl)),
  .set 824 (.sra32 (.r 766) (12 - wl)),
  .set 825 (.sra32 (.r 767) (12 - wl)),
  .set 826 (.sra32 (.r 764) (12 - wl)),
  .set 827 (.sra32 (.r 765) (12 - wl)),
  .set 828 (.sra32 (.r 762) (12 - wl)),
  .set 829 (.sra32 (.r 763) (12 - wl)),
  .set 830 (.sra32 (.r 760) (12 - wl)),
  .set 831 (.sra32 (.r 761) (12 - wl)),
  .set 832 (.sra32 (.r 758) (12 - wl)),
  .set 833 (.sra32 (.r 759) (12 - wl)),
  .set 834 (.sra32 (.r 756) (12 - wl)),
  .set 835 (.sra32 (.r 757) (12 - wl)),
  .set 836 (.sra32 (.r 754) (12 - wl)),
  .set 837 (.sra32 (.r 755) (12 - wl)),
  .set 838 (.sra32 (.r 752) (12 - wl)),
  .set 839 (.sra32 (.r 753) (12 - wl)),
  .set 840 (.sra32 (.r 750) (12 - wl)),
  .set 841 (.sra32 (.r 751) (12 - wl)),
  .set 842 (.sra32 (.r 748) (12 - wl)),
  .set 843 (.sra32 (.r 749) (12 - wl)),
  .set (176 + part) (.op .packs (.r 780) (.r 781)),
  .set (180 + part) (.op .packs (.r 782) (.r 783)),
  .set (184 + part) (.op .packs (.r 784) (.r 785)),
  .set (188 + part) (.op .packs (.r 786) (.r 787)),
  .set (192 + part) (.op .packs (.r 788) (.r 789)),
  .set (196 + part) (.op .packs (.r 790) (.r 791)),
  .set (200 + part) (.op .packs (.r 792) (.r 793)),
  .set (204 + part) (.op .packs (.r 794) (.r 795)),
  .set (208 + part) (.op .packs (.r 796) (.r 797)),
  .set (212 + part) (.op .packs (.r 798) (.r 799)),
  .set (216 + part) (.op .packs (.r 800) (.r 801)),
  .set (220 + part) (.op .packs (.r 802) (.r 803)),
  .set (224 + part) (.op .packs (.r 804) (.r 805)),
  .set (228 + part) (.op .packs (.r 806) (.r 807)),
  .set (232 + part) (.op .packs (.r 808) (.r 809)),
  .set (236 + part) (.op .packs (.r 810) (.r 811)),
  .set (240 + part) (.op .packs (.r 812) (.r 813)),
  .set (244 + part) (.op .packs (.r 814) (.r 815)),
  .set (248 + part) (.op .packs (.r 816) (.r 817)),
  .set (252 + part) (.op .packs (.r 818) (.r 819)),
  .set (256 + part) (.op .packs (.r 820) (.r 821)),
  .set (260 + part) (.op .packs (.r 822) (.r 823)),
  .set (264 + part) (.op .packs (.r 824) (.r 825)),
  .set (268 + part) (.op .packs (.r 826) (.r 827)),
  .set (272 + part) (.op .packs (.r 828) (.r 829)),
  .set (276 + part) (.op .packs (.r 830) (.r 831)),
  .set (280 + part) (.op .packs (.r 832) (.r 833)),
  .set (284 + part) (.op .packs (.r 834) (.r 835)),
  .set (288 + part) (.op .packs (.r 836) (.r 837)),
  .set (292 + part) (.op .packs (.r 838) (.r 839)),
  .set (296 + part) (.op .packs (.r 840) (.r 841)),
  .set (300 + part) (.op .packs (.r 842) (.r 843))]

/-- source/common/vec/intrinsic_idct.cc:5117-5143. -/
def idct_32x32_quad_10 (wl : Nat) : List S := transpose8 844 852
    176 180 184 188 192 196 200 204
    48 52 56 60 64 68 72 76 ++
  transpose8 844 852
    177 181 185 189 193 197 201 205
    80 84 88 92 96 100 104 108 ++
  transpose8 844 852
    178 182 186 190 194 198 202 206
    112 116 120 124 128 132 136 140 ++
  transpose8 844 852
    179 183 187 191 195 199 203 207
    144 148 152 156 160 164 168 172 ++
  transpose8 844 852
    208 212 216 220 224 228 232 236
    49 53 57 61 65 69 73 77 ++
  transpose8 844 852
    209 213 217 221 225 229 233 237
    81 85 89 93 97 101 105 109 ++
  transpose8 844 852
    210 214 218 222 226 230 234 238
    113 117 121 125 129 133 137 141 ++
  transpose8 844 852
    211 215 219 223 227 231 235 239
    145 149 153 157 161 165 169 173 ++
  transpose8 844 852
    240 244 248 252 256 260 264 268
    50 54 58 62 66 70 74 78 ++
  transpose8 844 852
    241 245 249 253 257 261 265 269
    82 86 90 94 98 102 106 110 ++
  transpose8 844 852
    242 246 250 254 258 262 266 270
    114 118 122 126 130 134 138 142 ++
  transpose8 844 852
    243 247 251 255 259 263 267 271
    146 150 154 158 162 166 170 174 ++
  transpose8 844 852
    272 276 280 284 288 292 296 300
    51 55 59 63 67 71 75 79 ++
  transpose8 844 852
    273 277 281 285 289 293 297 301
    83 87 91 95 99 103 107 111 ++
  transpose8 844 852
    274 278 282 286 290 294 298 302
    115 119 123 127 131 135 139 143 ++
  transpose8 844 852
    275 279 283 287 291 295 299 303
    147 151 155 159 163 167 171 175 ++
  [
  .set 860 (.k16 (255 + 256 * wl)),
  .set 861 (.k16 (-256 - 256 * wl))]

/-- source/common/vec/intrinsic_idct.cc:5147-5178. -/
def idct_32x32_quad_11 (k : Nat) : List S := [
  .set (48 + k) (.op .max16 (.op .min16 (.r (48 + k)) (.r 860)) (.r 861)),
  .set (52 + k) (.op .max16 (.op .min16 (.r (52 + k)) (.r 860)) (.r 861)),
  .set (56 + k) (.op .max16 (.op .min16 (.r (56 + k)) (.r 860)) (.r 861)),
  .set (60 + k) (.op .max16 (.op .min16 (.r (60 + k)) (.r 860)) (.r 861)),
  .set (64 + k) (.op .max16 (.op .min16 (.r (64 + k)) (.r 860)) (.r 861)),
  .set (68 + k) (.op .max16 (.op .min16 (.r (68 + k)) (.r 860)) (.r 861)),
  .set (72 + k) (.op .max16 (.op .min16 (.r (72 + k)) (.r 860)) (.r 861)),
  .set (76 + k) (.op .max16 (.op .min16 (.r (76 + k)) (.r 860)) (.r 861)),
  .set (80 + k) (.op .max16 (.op .min16 (.r (80 + k)) (.r 860)) (.r 861)),
  .set (84 + k) (.op .max16 (.op .min16 (.r (84 + k)) (.r 860)) (.r 861)),
  .set (88 + k) (.op .max16 (.op .min16 (.r (88 + k)) (.r 860)) (.r 861)),
  .set (92 + k) (.op .max16 (.op .min16 (.r (92 + k)) (.r 860)) (.r 861)),
  .set (96 + k) (.op .max16 (.op .min16 (.r (96 + k)) (.r 860)) (.r 861)),
  .set (100 + k) (.op .max16 (.op .min16 (.r (100 + k)) (.r 860)) (.r 861)),
  .set (104 + k) (.op .max16 (.op .min16 (.r (104 + k)) (.r 860)) (.r 861)),
  .set (108 + k) (.op .max16 (.op .min16 (.r (108 + k)) (.r 860)) (.r 861)),
  .set (112 + k) (.op .max16 (.op .min16 (.r (112 + k)) (.r 860)) (.r 861)),
  .set (116 + k) (.op .max16 (.op .min16 (.r (116 + k)) (.r 860)) (.r 861)),
  .set (120 + k) (.op .max16 (.op .min16 (.r (120 + k)) (.r 860)) (.r 861)),
  .set (124 + k) (.op .max16 (.op .min16 (.r (124 + k)) (.r 860)) (.r 861)),
  .set (128 + k) (.op .max16 (.op .min16 (.r (128 + k)) (.r 860)) (.r 861)),
  .set (132 + k) (.op .max16 (.op .min16 (.r (132 + k)) (.r 860)) (.r 861)),
  .set (136 + k) (.op .max16 (.op .min16 (.r (136 + k)) (.r 860)) (.r 861)),
  .set (140 + k) (.op .max16 (.op .min16 (.r (140 + k)) (.r 860)) (.r 861)),
  .set (144 + k) (.op .max16 (.op .min16 (.r (144 + k)) (.r 860)) (.r 861)),
  .set (148 + k) (.op .max16 (.op .min16 (.r (148 + k)) (.r 860)) (.r 861)),
  .set (152 + k) (.op .max16 (.op .min16 (.r (152 + k)) (.r 860)) (.r 861)),
  .set (156 + k) (.op .max16 (.op .min16 (.r (156 + k)) (.r 860)) (.r 861)),
  .set (160 + k) (.op .max16 (.op .min16 (.r (160 + k)) (.r 860)) (.r 861)),
  .set (164 + k) (.op .max16 (.op .min16 (.r (164 + k)) (.r 860)) (.r 861)),
  .set (168 + k) (.op .max16 (.op .min16 (.r (168 + k)) (.r 860)) (.r 861)),
  .set (172 + k) (.op .max16 (.op .min16 (.r (172 + k)) (.r 860)) (.r 861))]

/-- source/common/vec/intrinsic_idct.cc:5203-5206. -/
def idct_32x32_quad_12 (i : Nat) : List S := [
  .st 8 (16 * i) (.r (48 + 2 * i)),
  .st 8 (8 + 16 * i) (.r (49 + 2 * i)),
  .st 8 (32 + 16 * i) (.r (52 + 2 * i)),
  .st 8 (40 + 16 * i) (.r (53 + 2 * i)),
  .st 8 (64 + 16 * i) (.r (56 + 2 * i)),
  .st 8 (72 + 16 * i) (.r (57 + 2 * i)),
  .st 8 (96 + 16 * i) (.r (60 + 2 * i)),
  .st 8 (104 + 16 * i) (.r (61 + 2 * i)),
  .st 8 (128 + 16 * i) (.r (64 + 2 * i)),
  .st 8 (136 + 16 * i) (.r (65 + 2 * i)),
  .st 8 (160 + 16 * i) (.r (68 + 2 * i)),
  .st 8 (168 + 16 * i) (.r (69 + 2 * i)),
  .st 8 (192 + 16 * i) (.r (72 + 2 * i)),
  .st 8 (200 + 16 * i) (.r (73 + 2 * i)),
  .st 8 (224 + 16 * i) (.r (76 + 2 * i)),
  .st 8 (232 + 16 * i) (.r (77 + 2 * i)),
  .st 8 (256 + 16 * i) (.r (80 + 2 * i)),
  .st 8 (264 + 16 * i) (.r (81 + 2 * i)),
  .st 8 (288 + 16 * i) (.r (84 + 2 * i)),
  .st 8 (296 + 16 * i) (.r (85 + 2 * i)),
  .st 8 (320 + 16 * i) (.r (88 + 2 * i)),
  .st 8 (328 + 16 * i) (.r (89 + 2 * i)),
  .st 8 (352 + 16 * i) (.r (92 + 2 * i)),
  .st 8 (360 + 16 * i) (.r (93 + 2 * i)),
  .st 8 (384 + 16 * i) (.r (96 + 2 * i)),
  .st 8 (392 + 16 * i) (.r (97 + 2 * i)),
  .st 8 (416 + 16 * i) (.r (100 + 2 * i)),
  .st 8 (424 + 16 * i) (.r (101 + 2 * i)),
  .st 8 (448 + 16 * i) (.r (104 + 2 * i)),
  .st 8 (456 + 16 * i) (.r (105 + 2 * i)),
  .st 8 (480 + 16 * i) (.r (108 + 2 * i)),
  .st 8 (488 + 16 * i) (.r (109 + 2 * i)),
  .st 8 (512 + 16 * i) (.r (112 + 2 * i)),
  .st 8 (520 + 16 * i) (.r (113 + 2 * i)),
  .st 8 (544 + 16 * i) (.r (116 + 2 * i)),
  .st 8 (552 + 16 * i) (.r (117 + 2 * i)),
  .st 8 (576 + 16 * i) (.r (120 + 2 * i)),
  .st 8 (584 + 16 * i) (.r (121 + 2 * i)),
  .st 8 (608 + 16 * i) (.r (124 + 2 * i)),
  .st 8 (616 + 16 * i) (.r (125 + 2 * i)),
  .st 8 (640 + 16 * i) (.r (128 + 2 * i)),
  .st 8 (648 + 16 * i) (.r (129 + 2 * i)),
  .st 8 (672 + 16 * i) (.r (132 + 2 * i)),
  .st 8 (680 + 16 * i) (.r (133 + 2 * i)),
  .st 8 (704 + 16 * i) (.r (136 + 2 * i)),
  .st 8 (712 + 16 * i) (.r (137 + 2 * i)),
  .st 8 (736 + 16 * i) (.r (140 + 2 * i)),
  .st 8 (744 + 16 * i) (.r (141 + 2 * i)),
  .st 8 (768 + 16 * i) (.r (144 + 2 * i)),
  .st 8 (776 + 16 * i) (.r (145 + 2 * i)),
  .st 8 (800 + 16 * i) (.r (148 + 2 * i)),
  .st 8 (808 + 16 * i) (.r (149 + 2 * i)),
  .st 8 (832 + 16 * i) (.r (152 + 2 * i)),
  .st 8 (840 + 16 * i) (.r (153 + 2 * i)),
  .st 8 (864 + 16 * i) (.r (156 + 2 * i)),
  .st 8 (872 + 16 * i) (.r (157 + 2 * i)),
  .st 8 (896 + 16 * i) (.r (160 + 2 * i)),
  .st 8 (904 + 16 * i) (.r (161 + 2 * i)),
  .st 8 (928 + 16 * i) (.r (164 + 2 * i)),
  .st 8 (936 + 16 * i) (.r (165 + 2 * i)),
  .st 8 (960 + 16 * i) (.r (168 + 2 * i)),
  .st 8 (968 + 16 * i) (.r (169 + 2 * i)),
  .st 8 (992 + 16 * i) (.r (172 + 2 * i)),
  .st 8 (1000 + 16 * i) (.r (173 + 2 * i))]

/-- `idct_32x32_quad_sse128`, source/common/vec/intrinsic_idct.cc:4275. `wl` is the lowest bit of the argument `i_dst`. -/
def idct_32x32_quad (wl : Nat) : List S :=
  idct_32x32_quad_1 ++ idct_32x32_quad_2 ++ idct_32x32_quad_3 ++ idct_32x32_quad_4 ++ idct_32x32_quad_5 wl ++ (rep 4 fun part => idct_32x32_quad_6 part ++ idct_32x32_quad_7 ++ idct_32x32_quad_8 wl ++ idct_32x32_quad_9 wl part) ++ idct_32x32_quad_10 wl ++ (rep 4 fun k => idct_32x32_quad_11 k) ++ (rep 2 fun i => idct_32x32_quad_12 i)

end Davs2.Si
