import Verif.Model.SimdProg
/-
Vector versions (SSE and AVX2) of the inverse wavelet transforms.

The statements of the functions in the order of the text; loops with `rep`.  The numbers of the registers are given
at the head of each function.  Produced from the text of the functions by replacing each variable by its number and each intrinsic by its name
in Model/SimdProg.lean.
-/
namespace Davs2.Si

/-! ### `inv_wavelet_64x64_sse128`

Registers: 0-7 T00, 8-15 T01, 16-23 T02, 24-31 T03, 32-39 T04, 40-47 T05, 48-55 T06, 56-63 T07, 64-71 T08, 72-79 T09, 80-87 T10,
88-95 T11, 96-103 T12, 104-111 T13, 112-119 T14, 120-127 T15, 128-135 T16, 136-143 T17, 144-151 T18, 152-159 T19, 160-167 T20,
168-175 T21, 176-183 T22, 184-191 T23, 192-199 T24, 200-207 T25, 208-215 T26, 216-223 T27, 224-231 T28, 232-239 T29, 240-247 T30,
248-255 T31, 256-263 T32, 264-271 T33, 272-279 T34, 280-287 T35, 288-295 T36, 296-303 T37, 304-311 T38, 312-319 T39, 320-327 T40,
328-335 T41, 336-343 T42, 344-351 T43, 352-359 T44, 360-367 T45, 368-375 T46, 376-383 T47, 384-391 T48, 392-399 T49, 400-407 T50,
408-415 T51, 416-423 T52, 424-431 T53, 432-439 T54, 440-447 T55, 448-455 T56, 456-463 T57, 464-471 T58, 472-479 T59, 480-487 T60,
488-495 T61, 496-503 T62, 504-511 T63, 512-519 V00, 520-527 V01, 528-535 V02, 536-543 V03, 544-551 V04, 552-559 V05, 560-567 V06,
568-575 V07, 576-583 V08, 584-591 V09, 592-599 V10, 600-607 V11, 608-615 V12, 616-623 V13, 624-631 V14, 632-639 V15, 640-647 V16,
648-655 V17, 656-663 V18, 664-671 V19, 672-679 V20, 680-687 V21, 688-695 V22, 696-703 V23, 704-711 V24, 712-719 V25, 720-727 V26,
728-735 V27, 736-743 V28, 744-751 V29, 752-759 V30, 760-767 V31, 768-775 V32, 776-783 V33, 784-791 V34, 792-799 V35, 800-807 V36,
808-815 V37, 816-823 V38, 824-831 V39, 832-839 V40, 840-847 V41, 848-855 V42, 856-863 V43, 864-871 V44, 872-879 V45, 880-887 V46,
888-895 V47, 896-903 V48, 904-911 V49, 912-919 V50, 920-927 V51, 928-935 V52, 936-943 V53, 944-951 V54, 952-959 V55, 960-967 V56,
968-975 V57, 976-983 V58, 984-991 V59, 992-999 V60, 1000-1007 V61, 1008-1015 V62, 1016-1023 V63, 1024 tr0_0, 1025 tr0_1, 1026
tr0_2, 1027 tr0_3, 1028 tr0_4, 1029 tr0_5, 1030 tr0_6, 1031 tr0_7, 1032 tr1_0, 1033 tr1_1, 1034 tr1_2, 1035 tr1_3, 1036 tr1_4,
1037 tr1_5, 1038 tr1_6, 1039 tr1_7. -/


/-- source/common/vec/intrinsic_idct.cc:7129-7163. -/
def wavelet_64x64_1 (i : Nat) : List S := [
  .set i (.sra16 (.ld 8 (8 * i)) 1),
  .set (8 + i) (.sra16 (.ld 8 (32 + 8 * i)) 1),
  .set (16 + i) (.sra16 (.ld 8 (64 + 8 * i)) 1),
  .set (24 + i) (.sra16 (.ld 8 (96 + 8 * i)) 1),
  .set (32 + i) (.sra16 (.ld 8 (128 + 8 * i)) 1),
  .set (40 + i) (.sra16 (.ld 8 (160 + 8 * i)) 1),
  .set (48 + i) (.sra16 (.ld 8 (192 + 8 * i)) 1),
  .set (56 + i) (.sra16 (.ld 8 (224 + 8 * i)) 1),
  .set (64 + i) (.sra16 (.ld 8 (256 + 8 * i)) 1),
  .set (72 + i) (.sra16 (.ld 8 (288 + 8 * i)) 1),
  .set (80 + i) (.sra16 (.ld 8 (320 + 8 * i)) 1),
  .set (88 + i) (.sra16 (.ld 8 (352 + 8 * i)) 1),
  .set (96 + i) (.sra16 (.ld 8 (384 + 8 * i)) 1),
  .set (104 + i) (.sra16 (.ld 8 (416 + 8 * i)) 1),
  .set (112 + i) (.sra16 (.ld 8 (448 + 8 * i)) 1),
  .set (120 + i) (.sra16 (.ld 8 (480 + 8 * i)) 1),
  .set (128 + i) (.sra16 (.ld 8 (512 + 8 * i)) 1),
  .set (136 + i) (.sra16 (.ld 8 (544 + 8 * i)) 1),
  .set (144 + i) (.sra16 (.ld 8 (576 + 8 * i)) 1),
  .set (152 + i) (.sra16 (.ld 8 (608 + 8 * i)) 1),
  .set (160 + i) (.sra16 (.ld 8 (640 + 8 * i)) 1),
  .set (168 + i) (.sra16 (.ld 8 (672 + 8 * i)) 1),
  .set (176 + i) (.sra16 (.ld 8 (704 + 8 * i)) 1),
  .set (184 + i) (.sra16 (.ld 8 (736 + 8 * i)) 1),
  .set (192 + i) (.sra16 (.ld 8 (768 + 8 * i)) 1),
  .set (200 + i) (.sra16 (.ld 8 (800 + 8 * i)) 1),
  .set (208 + i) (.sra16 (.ld 8 (832 + 8 * i)) 1),
  .set (216 + i) (.sra16 (.ld 8 (864 + 8 * i)) 1),
  .set (224 + i) (.sra16 (.ld 8 (896 + 8 * i)) 1),
  .set (232 + i) (.sra16 (.ld 8 (928 + 8 * i)) 1),
  .set (240 + i) (.sra16 (.ld 8 (960 + 8 * i)) 1),
  .set (248 + i) (.sra16 (.ld 8 (992 + 8 * i)) 1)]

/-- source/common/vec/intrinsic_idct.cc:7168-7202. -/
def wavelet_64x64_2 (i : Nat) : List S := [
  .set (256 + i) (.sra16 (.op .add16 (.r i) (.r (8 + i))) 1),
  .set (264 + i) (.sra16 (.op .add16 (.r (8 + i)) (.r (16 + i))) 1),
  .set (272 + i) (.sra16 (.op .add16 (.r (16 + i)) (.r (24 + i))) 1),
  .set (280 + i) (.sra16 (.op .add16 (.r (24 + i)) (.r (32 + i))) 1),
  .set (288 + i) (.sra16 (.op .add16 (.r (32 + i)) (.r (40 + i))) 1),
  .set (296 + i) (.sra16 (.op .add16 (.r (40 + i)) (.r (48 + i))) 1),
  .set (304 + i) (.sra16 (.op .add16 (.r (48 + i)) (.r (56 + i))) 1),
  .set (312 + i) (.sra16 (.op .add16 (.r (56 + i)) (.r (64 + i))) 1),
  .set (320 + i) (.sra16 (.op .add16 (.r (64 + i)) (.r (72 + i))) 1),
  .set (328 + i) (.sra16 (.op .add16 (.r (72 + i)) (.r (80 + i))) 1),
  .set (336 + i) (.sra16 (.op .add16 (.r (80 + i)) (.r (88 + i))) 1),
  .set (344 + i) (.sra16 (.op .add16 (.r (88 + i)) (.r (96 + i))) 1),
  .set (352 + i) (.sra16 (.op .add16 (.r (96 + i)) (.r (104 + i))) 1),
  .set (360 + i) (.sra16 (.op .add16 (.r (104 + i)) (.r (112 + i))) 1),
  .set (368 + i) (.sra16 (.op .add16 (.r (112 + i)) (.r (120 + i))) 1),
  .set (376 + i) (.sra16 (.op .add16 (.r (120 + i)) (.r (128 + i))) 1),
  .set (384 + i) (.sra16 (.op .add16 (.r (128 + i)) (.r (136 + i))) 1),
  .set (392 + i) (.sra16 (.op .add16 (.r (136 + i)) (.r (144 + i))) 1),
  .set (400 + i) (.sra16 (.op .add16 (.r (144 + i)) (.r (152 + i))) 1),
  .set (408 + i) (.sra16 (.op .add16 (.r (152 + i)) (.r (160 + i))) 1),
  .set (416 + i) (.sra16 (.op .add16 (.r (160 + i)) (.r (168 + i))) 1),
  .set (424 + i) (.sra16 (.op .add16 (.r (168 + i)) (.r (176 + i))) 1),
  .set (432 + i) (.sra16 (.op .add16 (.r (176 + i)) (.r (184 + i))) 1),
  .set (440 + i) (.sra16 (.op .add16 (.r (184 + i)) (.r (192 + i))) 1),
  .set (448 + i) (.sra16 (.op .add16 (.r (192 + i)) (.r (200 + i))) 1),
  .set (456 + i) (.sra16 (.op .add16 (.r (200 + i)) (.r (208 + i))) 1),
  .set (464 + i) (.sra16 (.op .add16 (.r (208 + i)) (.r (216 + i))) 1),
  .set (472 + i) (.sra16 (.op .add16 (.r (216 + i)) (.r (224 + i))) 1),
  .set (480 + i) (.sra16 (.op .add16 (.r (224 + i)) (.r (232 + i))) 1),
  .set (488 + i) (.sra16 (.op .add16 (.r (232 + i)) (.r (240 + i))) 1),
  .set (496 + i) (.sra16 (.op .add16 (.r (240 + i)) (.r (248 + i))) 1),
  .set (504 + i) (.sra16 (.op .add16 (.r (248 + i)) (.r (248 + i))) 1)]

/-- source/common/vec/intrinsic_idct.cc:7207-7231. -/
def wavelet_64x64_3 : List S := transpose8 1024 1032
    0 256 8 264 16 272 24 280
    512 520 528 536 544 552 560 568 ++
  transpose8 1024 1032
    32 288 40 296 48 304 56 312
    513 521 529 537 545 553 561 569 ++
  transpose8 1024 1032
    1 257 9 265 17 273 25 281
    576 584 592 600 608 616 624 632 ++
  transpose8 1024 1032
    33 289 41 297 49 305 57 313
    577 585 593 601 609 617 625 633 ++
  transpose8 1024 1032
    2 258 10 266 18 274 26 282
    640 648 656 664 672 680 688 696 ++
  transpose8 1024 1032
    34 290 42 298 50 306 58 314
    641 649 657 665 673 681 689 697 ++
  transpose8 1024 1032
    3 259 11 267 19 275 27 283
    704 712 720 728 736 744 752 760 ++
  transpose8 1024 1032
    35 291 43 299 51 307 59 315
    705 713 721 729 737 745 753 761 ++
  transpose8 1024 1032
    64 320 72 328 80 336 88 344
    514 522 530 538 546 554 562 570 ++
  transpose8 1024 1032
    96 352 104 360 112 368 120 376
    515 523 531 539 547 555 563 571 ++
  transpose8 1024 1032
    65 321 73 329 81 337 89 345
    578 586 594 602 610 618 626 634 ++
  transpose8 1024 1032
    97 353 105 361 113 369 121 377
    579 587 595 603 611 619 627 635 ++
  transpose8 1024 1032
    66 322 74 330 82 338 90 346
    642 650 658 666 674 682 690 698 ++
  transpose8 1024 1032
    98 354 106 362 114 370 122 378
    643 651 659 667 675 683 691 699 ++
  transpose8 1024 1032
    67 323 75 331 83 339 91 347
    706 714 722 730 738 746 754 762 ++
  transpose8 1024 1032
    99 355 107 363 115 371 123 379
    707 715 723 731 739 747 755 763 ++
  transpose8 1024 1032
    128 384 136 392 144 400 152 408
    516 524 532 540 548 556 564 572 ++
  transpose8 1024 1032
    160 416 168 424 176 432 184 440
    517 525 533 541 549 557 565 573 ++
  transpose8 1024 1032
    129 385 137 393 145 401 153 409
    580 588 596 604 612 620 628 636 ++
  transpose8 1024 1032
    161 417 169 425 177 433 185 441
    581 589 597 605 613 621 629 637 ++
  transpose8 1024 1032
    130 386 138 394 146 402 154 410
    644 652 660 668 676 684 692 700 ++
  transpose8 1024 1032
    162 418 170 426 178 434 186 442
    645 653 661 669 677 685 693 701 ++
  transpose8 1024 1032
    131 387 139 395 147 403 155 411
    708 716 724 732 740 748 756 764 ++
  transpose8 1024 1032
    163 419 171 427 179 435 187 443
    709 717 725 733 741 749 757 765 ++
  transpose8 1024 1032
    192 448 200 456 208 464 216 472
    518 526 534 542 550 558 566 574 ++
  transpose8 1024 1032
    224 480 232 488 240 496 248 504
    519 527 535 543 551 559 567 575 ++
  transpose8 1024 1032
    193 449 201 457 209 465 217 473
    582 590 598 606 614 622 630 638 ++
  transpose8 1024 1032
    225 481 233 489 241 497 249 505
    583 591 599 607 615 623 631 639 ++
  transpose8 1024 1032
    194 450 202 458 210 466 218 474
    646 654 662 670 678 686 694 702 ++
  transpose8 1024 1032
    226 482 234 490 242 498 250 506
    647 655 663 671 679 687 695 703 ++
  transpose8 1024 1032
    195 451 203 459 211 467 219 475
    710 718 726 734 742 750 758 766 ++
  transpose8 1024 1032
    227 483 235 491 243 499 251 507
    711 719 727 735 743 751 759 767

/-- source/common/vec/intrinsic_idct.cc:7238-7270. -/
def wavelet_64x64_4 (i : Nat) : List S := [
  .set (768 + i) (.sra16 (.op .add16 (.r (512 + i)) (.r (520 + i))) 1),
  .set (776 + i) (.sra16 (.op .add16 (.r (520 + i)) (.r (528 + i))) 1),
  .set (784 + i) (.sra16 (.op .add16 (.r (528 + i)) (.r (536 + i))) 1),
  .set (792 + i) (.sra16 (.op .add16 (.r (536 + i)) (.r (544 + i))) 1),
  .set (800 + i) (.sra16 (.op .add16 (.r (544 + i)) (.r (552 + i))) 1),
  .set (808 + i) (.sra16 (.op .add16 (.r (552 + i)) (.r (560 + i))) 1),
  .set (816 + i) (.sra16 (.op .add16 (.r (560 + i)) (.r (568 + i))) 1),
  .set (824 + i) (.sra16 (.op .add16 (.r (568 + i)) (.r (576 + i))) 1),
  .set (832 + i) (.sra16 (.op .add16 (.r (576 + i)) (.r (584 + i))) 1),
  .set (840 + i) (.sra16 (.op .add16 (.r (584 + i)) (.r (592 + i))) 1),
  .set (848 + i) (.sra16 (.op .add16 (.r (592 + i)) (.r (600 + i))) 1),
  .set (856 + i) (.sra16 (.op .add16 (.r (600 + i)) (.r (608 + i))) 1),
  .set (864 + i) (.sra16 (.op .add16 (.r (608 + i)) (.r (616 + i))) 1),
  .set (872 + i) (.sra16 (.op .add16 (.r (616 + i)) (.r (624 + i))) 1),
  .set (880 + i) (.sra16 (.op .add16 (.r (624 + i)) (.r (632 + i))) 1),
  .set (888 + i) (.sra16 (.op .add16 (.r (632 + i)) (.r (640 + i))) 1),
  .set (896 + i) (.sra16 (.op .add16 (.r (640 + i)) (.r (648 + i))) 1),
  .set (904 + i) (.sra16 (.op .add16 (.r (648 + i)) (.r (656 + i))) 1),
  .set (912 + i) (.sra16 (.op .add16 (.r (656 + i)) (.r (664 + i))) 1),
  .set (920 + i) (.sra16 (.op .add16 (.r (664 + i)) (.r (672 + i))) 1),
  .set (928 + i) (.sra16 (.op .add16 (.r (672 + i)) (.r (680 + i))) 1),
  .set (936 + i) (.sra16 (.op .add16 (.r (680 + i)) (.r (688 + i))) 1),
  .set (944 + i) (.sra16 (.op .add16 (.r (688 + i)) (.r (696 + i))) 1),
  .set (952 + i) (.sra16 (.op .add16 (.r (696 + i)) (.r (704 + i))) 1),
  .set (960 + i) (.sra16 (.op .add16 (.r (704 + i)) (.r (712 + i))) 1),
  .set (968 + i) (.sra16 (.op .add16 (.r (712 + i)) (.r (720 + i))) 1),
  .set (976 + i) (.sra16 (.op .add16 (.r (720 + i)) (.r (728 + i))) 1),
  .set (984 + i) (.sra16 (.op .add16 (.r (728 + i)) (.r (736 + i))) 1),
  .set (992 + i) (.sra16 (.op .add16 (.r (736 + i)) (.r (744 + i))) 1),
  .set (1000 + i) (.sra16 (.op .add16 (.r (744 + i)) (.r (752 + i))) 1),
  .set (1008 + i) (.sra16 (.op .add16 (.r (752 + i)) (.r (760 + i))) 1),
  .set (1016 + i) (.sra16 (.op .add16 (.r (760 + i)) (.r (760 + i))) 1)]

/-- source/common/vec/intrinsic_idct.cc:7275-7319. -/
def wavelet_64x64_5 : List S := transpose8 1024 1032
    512 768 520 776 528 784 536 792
    0 8 16 24 32 40 48 56 ++
  transpose8 1024 1032
    544 800 552 808 560 816 568 824
    1 9 17 25 33 41 49 57 ++
  transpose8 1024 1032
    513 769 521 777 529 785 537 793
    64 72 80 88 96 104 112 120 ++
  transpose8 1024 1032
    545 801 553 809 561 817 569 825
    65 73 81 89 97 105 113 121 ++
  transpose8 1024 1032
    514 770 522 778 530 786 538 794
    128 136 144 152 160 168 176 184 ++
  transpose8 1024 1032
    546 802 554 810 562 818 570 826
    129 137 145 153 161 169 177 185 ++
  transpose8 1024 1032
    515 771 523 779 531 787 539 795
    192 200 208 216 224 232 240 248 ++
  transpose8 1024 1032
    547 803 555 811 563 819 571 827
    193 201 209 217 225 233 241 249 ++
  transpose8 1024 1032
    516 772 524 780 532 788 540 796
    256 264 272 280 288 296 304 312 ++
  transpose8 1024 1032
    548 804 556 812 564 820 572 828
    257 265 273 281 289 297 305 313 ++
  transpose8 1024 1032
    517 773 525 781 533 789 541 797
    320 328 336 344 352 360 368 376 ++
  transpose8 1024 1032
    549 805 557 813 565 821 573 829
    321 329 337 345 353 361 369 377 ++
  transpose8 1024 1032
    518 774 526 782 534 790 542 798
    384 392 400 408 416 424 432 440 ++
  transpose8 1024 1032
    550 806 558 814 566 822 574 830
    385 393 401 409 417 425 433 441 ++
  transpose8 1024 1032
    519 775 527 783 535 791 543 799
    448 456 464 472 480 488 496 504 ++
  transpose8 1024 1032
    551 807 559 815 567 823 575 831
    449 457 465 473 481 489 497 505 ++
  transpose8 1024 1032
    576 832 584 840 592 848 600 856
    2 10 18 26 34 42 50 58 ++
  transpose8 1024 1032
    608 864 616 872 624 880 632 888
    3 11 19 27 35 43 51 59 ++
  transpose8 1024 1032
    577 833 585 841 593 849 601 857
    66 74 82 90 98 106 114 122 ++
  transpose8 1024 1032
    609 865 617 873 625 881 633 889
    67 75 83 91 99 107 115 123 ++
  transpose8 1024 1032
    578 834 586 842 594 850 602 858
    130 138 146 154 162 170 178 186 ++
  transpose8 1024 1032
    610 866 618 874 626 882 634 890
    131 139 147 155 163 171 179 187 ++
  transpose8 1024 1032
    579 835 587 843 595 851 603 859
    194 202 210 218 226 234 242 250 ++
  transpose8 1024 1032
    611 867 619 875 627 883 635 891
    195 203 211 219 227 235 243 251 ++
  transpose8 1024 1032
    580 836 588 844 596 852 604 860
    258 266 274 282 290 298 306 314 ++
  transpose8 1024 1032
    612 868 620 876 628 884 636 892
    259 267 275 283 291 299 307 315 ++
  transpose8 1024 1032
    581 837 589 845 597 853 605 861
    322 330 338 346 354 362 370 378 ++
  transpose8 1024 1032
    613 869 621 877 629 885 637 893
    323 331 339 347 355 363 371 379 ++
  transpose8 1024 1032
    582 838 590 846 598 854 606 862
    386 394 402 410 418 426 434 442 ++
  transpose8 1024 1032
    614 870 622 878 630 886 638 894
    387 395 403 411 419 427 435 443 ++
  transpose8 1024 1032
    583 839 591 847 599 855 607 863
    450 458 466 474 482 490 498 506 ++
  transpose8 1024 1032
    615 871 623 879 631 887 639 895
    451 459 467 475 483 491 499 507 ++
  transpose8 1024 1032
    640 896 648 904 656 912 664 920
    4 12 20 28 36 44 52 60 ++
  transpose8 1024 1032
    672 928 680 936 688 944 696 952
    5 13 21 29 37 45 53 61 ++
  transpose8 1024 1032
    641 897 649 905 657 913 665 921
    68 76 84 92 100 108 116 124 ++
  transpose8 1024 1032
    673 929 681 937 689 945 697 953
    69 77 85 93 101 109 117 125 ++
  transpose8 1024 1032
    642 898 650 906 658 914 666 922
    132 140 148 156 164 172 180 188 ++
  transpose8 1024 1032
    674 930 682 938 690 946 698 954
    133 141 149 157 165 173 181 189 ++
  transpose8 1024 1032
    643 899 651 907 659 915 667 923
    196 204 212 220 228 236 244 252 ++
  transpose8 1024 1032
    675 931 683 939 691 947 699 955
    197 205 213 221 229 237 245 253 ++
  transpose8 1024 1032
    644 900 652 908 660 916 668 924
    260 268 276 284 292 300 308 316 ++
  transpose8 1024 1032
    676 932 684 940 692 948 700 956
    261 269 277 285 293 301 309 317 ++
  transpose8 1024 1032
    645 901 653 909 661 917 669 925
    324 332 340 348 356 364 372 380 ++
  transpose8 1024 1032
    677 933 685 941 693 949 701 957
    325 333 341 349 357 365 373 381 ++
  transpose8 1024 1032
    646 902 654 910 662 918 670 926
    388 396 404 412 420 428 436 444 ++
  transpose8 1024 1032
    678 934 686 942 694 950 702 958
    389 397 405 413 421 429 437 445 ++
  transpose8 1024 1032
    647 903 655 911 663 919 671 927
    452 460 468 476 484 492 500 508 ++
  transpose8 1024 1032
    679 935 687 943 695 951 703 959
    453 461 469 477 485 493 501 509 ++
  transpose8 1024 1032
    704 960 712 968 720 976 728 984
    6 14 22 30 38 46 54 62 ++
  transpose8 1024 1032
    736 992 744 1000 752 1008 760 1016
    7 15 23 31 39 47 55 63 ++
  transpose8 1024 1032
    705 961 713 969 721 977 729 985
    70 78 86 94 102 110 118 126 ++
  transpose8 1024 1032
    737 993 745 1001 753 1009 761 1017
    71 79 87 95 103 111 119 127 ++
  transpose8 1024 1032
    706 962 714 970 722 978 730 986
    134 142 150 158 166 174 182 190 ++
  transpose8 1024 1032
    738 994 746 1002 754 1010 762 1018
    135 143 151 159 167 175 183 191 ++
  transpose8 1024 1032
    707 963 715 971 723 979 731 987
    198 206 214 222 230 238 246 254 ++
  transpose8 1024 1032
    739 995 747 1003 755 1011 763 1019
    199 207 215 223 231 239 247 255 ++
  transpose8 1024 1032
    708 964 716 972 724 980 732 988
    262 270 278 286 294 302 310 318 ++
  transpose8 1024 1032
    740 996 748 1004 756 1012 764 1020
    263 271 279 287 295 303 311 319 ++
  transpose8 1024 1032
    709 965 717 973 725 981 733 989
    326 334 342 350 358 366 374 382 ++
  transpose8 1024 1032
    741 997 749 1005 757 1013 765 1021
    327 335 343 351 359 367 375 383 ++
  transpose8 1024 1032
    710 966 718 974 726 982 734 990
    390 398 406 414 422 430 438 446 ++
  transpose8 1024 1032
    742 998 750 1006 758 1014 766 1022
    391 399 407 415 423 431 439 447 ++
  transpose8 1024 1032
    711 967 719 975 727 983 735 991
    454 462 470 478 486 494 502 510 ++
  transpose8 1024 1032
    743 999 751 1007 759 1015 767 1023
    455 463 471 479 487 495 503 511

/-- source/common/vec/intrinsic_idct.cc:7325-7389. -/
def wavelet_64x64_6 (i : Nat) : List S := [
  .st 8 (8 * i) (.r i),
  .st 8 (64 + 8 * i) (.r (8 + i)),
  .st 8 (128 + 8 * i) (.r (16 + i)),
  .st 8 (192 + 8 * i) (.r (24 + i)),
  .st 8 (256 + 8 * i) (.r (32 + i)),
  .st 8 (320 + 8 * i) (.r (40 + i)),
  .st 8 (384 + 8 * i) (.r (48 + i)),
  .st 8 (448 + 8 * i) (.r (56 + i)),
  .st 8 (512 + 8 * i) (.r (64 + i)),
  .st 8 (576 + 8 * i) (.r (72 + i)),
  .st 8 (640 + 8 * i) (.r (80 + i)),
  .st 8 (704 + 8 * i) (.r (88 + i)),
  .st 8 (768 + 8 * i) (.r (96 + i)),
  .st 8 (832 + 8 * i) (.r (104 + i)),
  .st 8 (896 + 8 * i) (.r (112 + i)),
  .st 8 (960 + 8 * i) (.r (120 + i)),
  .st 8 (1024 + 8 * i) (.r (128 + i)),
  .st 8 (1088 + 8 * i) (.r (136 + i)),
  .st 8 (1152 + 8 * i) (.r (144 + i)),
  .st 8 (1216 + 8 * i) (.r (152 + i)),
  .st 8 (1280 + 8 * i) (.r (160 + i)),
  .st 8 (1344 + 8 * i) (.r (168 + i)),
  .st 8 (1408 + 8 * i) (.r (176 + i)),
  .st 8 (1472 + 8 * i) (.r (184 + i)),
  .st 8 (1536 + 8 * i) (.r (192 + i)),
  .st 8 (1600 + 8 * i) (.r (200 + i)),
  .st 8 (1664 + 8 * i) (.r (208 + i)),
  .st 8 (1728 + 8 * i) (.r (216 + i)),
  .st 8 (1792 + 8 * i) (.r (224 + i)),
  .st 8 (1856 + 8 * i) (.r (232 + i)),
  .st 8 (1920 + 8 * i) (.r (240 + i)),
  .st 8 (1984 + 8 * i) (.r (248 + i)),
  .st 8 (2048 + 8 * i) (.r (256 + i)),
  .st 8 (2112 + 8 * i) (.r (264 + i)),
  .st 8 (2176 + 8 * i) (.r (272 + i)),
  .st 8 (2240 + 8 * i) (.r (280 + i)),
  .st 8 (2304 + 8 * i) (.r (288 + i)),
  .st 8 (2368 + 8 * i) (.r (296 + i)),
  .st 8 (2432 + 8 * i) (.r (304 + i)),
  .st 8 (2496 + 8 * i) (.r (312 + i)),
  .st 8 (2560 + 8 * i) (.r (320 + i)),
  .st 8 (2624 + 8 * i) (.r (328 + i)),
  .st 8 (2688 + 8 * i) (.r (336 + i)),
  .st 8 (2752 + 8 * i) (.r (344 + i)),
  .st 8 (2816 + 8 * i) (.r (352 + i)),
  .st 8 (2880 + 8 * i) (.r (360 + i)),
  .st 8 (2944 + 8 * i) (.r (368 + i)),
  .st 8 (3008 + 8 * i) (.r (376 + i)),
  .st 8 (3072 + 8 * i) (.r (384 + i)),
  .st 8 (3136 + 8 * i) (.r (392 + i)),
  .st 8 (3200 + 8 * i) (.r (400 + i)),
  .st 8 (3264 + 8 * i) (.r (408 + i)),
  .st 8 (3328 + 8 * i) (.r (416 + i)),
  .st 8 (3392 + 8 * i) (.r (424 + i)),
  .st 8 (3456 + 8 * i) (.r (432 + i)),
  .st 8 (3520 + 8 * i) (.r (440 + i)),
  .st 8 (3584 + 8 * i) (.r (448 + i)),
  .st 8 (3648 + 8 * i) (.r (456 + i)),
  .st 8 (3712 + 8 * i) (.r (464 + i)),
  .st 8 (3776 + 8 * i) (.r (472 + i)),
  .st 8 (3840 + 8 * i) (.r (480 + i)),
  .st 8 (3904 + 8 * i) (.r (488 + i)),
  .st 8 (3968 + 8 * i) (.r (496 + i)),
  .st 8 (4032 + 8 * i) (.r (504 + i))]

/-- `inv_wavelet_64x64_sse128`, source/common/vec/intrinsic_idct.cc:7114. -/
def wavelet_64x64 : List S :=
  (rep 4 fun i => wavelet_64x64_1 i) ++ (rep 4 fun i => wavelet_64x64_2 i) ++ wavelet_64x64_3 ++ (rep 8 fun i => wavelet_64x64_4 i) ++ wavelet_64x64_5 ++ (rep 8 fun i => wavelet_64x64_6 i)

/-! ### `inv_wavelet_64x16_sse128`

Registers: 0-7 T00, 8-15 T01, 16-23 T02, 24-31 T03, 32-39 T04, 40-47 T05, 48-55 T06, 56-63 T07, 64-71 T08, 72-79 T09, 80-87 T10,
88-95 T11, 96-103 T12, 104-111 T13, 112-119 T14, 120-127 T15, 128-129 V00, 130-131 V01, 132-133 V02, 134-135 V03, 136-137 V04,
138-139 V05, 140-141 V06, 142-143 V07, 144-145 V08, 146-147 V09, 148-149 V10, 150-151 V11, 152-153 V12, 154-155 V13, 156-157 V14,
158-159 V15, 160-161 V16, 162-163 V17, 164-165 V18, 166-167 V19, 168-169 V20, 170-171 V21, 172-173 V22, 174-175 V23, 176-177 V24,
178-179 V25, 180-181 V26, 182-183 V27, 184-185 V28, 186-187 V29, 188-189 V30, 190-191 V31, 192-193 V32, 194-195 V33, 196-197 V34,
198-199 V35, 200-201 V36, 202-203 V37, 204-205 V38, 206-207 V39, 208-209 V40, 210-211 V41, 212-213 V42, 214-215 V43, 216-217 V44,
218-219 V45, 220-221 V46, 222-223 V47, 224-225 V48, 226-227 V49, 228-229 V50, 230-231 V51, 232-233 V52, 234-235 V53, 236-237 V54,
238-239 V55, 240-241 V56, 242-243 V57, 244-245 V58, 246-247 V59, 248-249 V60, 250-251 V61, 252-253 V62, 254-255 V63, 256 tr0_0,
257 tr0_1, 258 tr0_2, 259 tr0_3, 260 tr0_4, 261 tr0_5, 262 tr0_6, 263 tr0_7, 264 tr1_0, 265 tr1_1, 266 tr1_2, 267 tr1_3, 268
tr1_4, 269 tr1_5, 270 tr1_6, 271 tr1_7. -/


/-- source/common/vec/intrinsic_idct.cc:7410-7504. -/
def wavelet_64x16_1 : List S := [
  .set 0 (.sra16 (.ld 8 0) 1),
  .set 8 (.sra16 (.ld 8 32) 1),
  .set 16 (.sra16 (.ld 8 64) 1),
  .set 24 (.sra16 (.ld 8 96) 1),
  .set 32 (.sra16 (.ld 8 128) 1),
  .set 40 (.sra16 (.ld 8 160) 1),
  .set 48 (.sra16 (.ld 8 192) 1),
  .set 56 (.sra16 (.ld 8 224) 1),
  .set 1 (.sra16 (.ld 8 8) 1),
  .set 9 (.sra16 (.ld 8 40) 1),
  .set 17 (.sra16 (.ld 8 72) 1),
  .set 25 (.sra16 (.ld 8 104) 1),
  .set 33 (.sra16 (.ld 8 136) 1),
  .set 41 (.sra16 (.ld 8 168) 1),
  .set 49 (.sra16 (.ld 8 200) 1),
  .set 57 (.sra16 (.ld 8 232) 1),
  .set 2 (.sra16 (.ld 8 16) 1),
  .set 10 (.sra16 (.ld 8 48) 1),
  .set 18 (.sra16 (.ld 8 80) 1),
  .set 26 (.sra16 (.ld 8 112) 1),
  .set 34 (.sra16 (.ld 8 144) 1),
  .set 42 (.sra16 (.ld 8 176) 1),
  .set 50 (.sra16 (.ld 8 208) 1),
  .set 58 (.sra16 (.ld 8 240) 1),
  .set 3 (.sra16 (.ld 8 24) 1),
  .set 11 (.sra16 (.ld 8 56) 1),
  .set 19 (.sra16 (.ld 8 88) 1),
  .set 27 (.sra16 (.ld 8 120) 1),
  .set 35 (.sra16 (.ld 8 152) 1),
  .set 43 (.sra16 (.ld 8 184) 1),
  .set 51 (.sra16 (.ld 8 216) 1),
  .set 59 (.sra16 (.ld 8 248) 1),
  .set 64 (.sra16 (.op .add16 (.r 0) (.r 8)) 1),
  .set 72 (.sra16 (.op .add16 (.r 8) (.r 16)) 1),
  .set 80 (.sra16 (.op .add16 (.r 16) (.r 24)) 1),
  .set 88 (.sra16 (.op .add16 (.r 24) (.r 32)) 1),
  .set 96 (.sra16 (.op .add16 (.r 32) (.r 40)) 1),
  .set 104 (.sra16 (.op .add16 (.r 40) (.r 48)) 1),
  .set 112 (.sra16 (.op .add16 (.r 48) (.r 56)) 1),
  .set 120 (.sra16 (.op .add16 (.r 56) (.r 56)) 1),
  .set 65 (.sra16 (.op .add16 (.r 1) (.r 9)) 1),
  .set 73 (.sra16 (.op .add16 (.r 9) (.r 17)) 1),
  .set 81 (.sra16 (.op .add16 (.r 17) (.r 25)) 1),
  .set 89 (.sra16 (.op .add16 (.r 25) (.r 33)) 1),
  .set 97 (.sra16 (.op .add16 (.r 33) (.r 41)) 1),
  .set 105 (.sra16 (.op .add16 (.r 41) (.r 49)) 1),
  .set 113 (.sra16 (.op .add16 (.r 49) (.r 57)) 1),
  .set 121 (.sra16 (.op .add16 (.r 57) (.r 57)) 1),
  .set 66 (.sra16 (.op .add16 (.r 2) (.r 10)) 1),
  .set 74 (.sra16 (.op .add16 (.r 10) (.r 18)) 1),
  .set 82 (.sra16 (.op .add16 (.r 18) (.r 26)) 1),
  .set 90 (.sra16 (.op .add16 (.r 26) (.r 34)) 1),
  .set 98 (.sra16 (.op .add16 (.r 34) (.r 42)) 1),
  .set 106 (.sra16 (.op .add16 (.r 42) (.r 50)) 1),
  .set 114 (.sra16 (.op .add16 (.r 50) (.r 58)) 1),
  .set 122 (.sra16 (.op .add16 (.r 58) (.r 58)) 1),
  .set 67 (.sra16 (.op .add16 (.r 3) (.r 11)) 1),
  .set 75 (.sra16 (.op .add16 (.r 11) (.r 19)) 1),
  .set 83 (.sra16 (.op .add16 (.r 19) (.r 27)) 1),
  .set 91 (.sra16 (.op .add16 (.r 27) (.r 35)) 1),
  .set 99 (.sra16 (.op .add16 (.r 35) (.r 43)) 1),
  .set 107 (.sra16 (.op .add16 (.r 43) (.r 51)) 1),
  .set 115 (.sra16 (.op .add16 (.r 51) (.r 59)) 1),
  .set 123 (.sra16 (.op .add16 (.r 59) (.r 59)) 1)] ++
  transpose8 256 264
    0 64 8 72 16 80 24 88
    128 130 132 134 136 138 140 142 ++
  transpose8 256 264
    1 65 9 73 17 81 25 89
    144 146 148 150 152 154 156 158 ++
  transpose8 256 264
    2 66 10 74 18 82 26 90
    160 162 164 166 168 170 172 174 ++
  transpose8 256 264
    3 67 11 75 19 83 27 91
    176 178 180 182 184 186 188 190 ++
  transpose8 256 264
    32 96 40 104 48 112 56 120
    129 131 133 135 137 139 141 143 ++
  transpose8 256 264
    33 97 41 105 49 113 57 121
    145 147 149 151 153 155 157 159 ++
  transpose8 256 264
    34 98 42 106 50 114 58 122
    161 163 165 167 169 171 173 175 ++
  transpose8 256 264
    35 99 43 107 51 115 59 123
    177 179 181 183 185 187 189 191 ++
  [
  .set 192 (.sra16 (.op .add16 (.r 128) (.r 130)) 1),
  .set 194 (.sra16 (.op .add16 (.r 130) (.r 132)) 1),
  .set 196 (.sra16 (.op .add16 (.r 132) (.r 134)) 1),
  .set 198 (.sra16 (.op .add16 (.r 134) (.r 136)) 1),
  .set 200 (.sra16 (.op .add16 (.r 136) (.r 138)) 1),
  .set 202 (.sra16 (.op .add16 (.r 138) (.r 140)) 1),
  .set 204 (.sra16 (.op .add16 (.r 140) (.r 142)) 1),
  .set 206 (.sra16 (.op .add16 (.r 142) (.r 144)) 1)]

/-- source/common/vec/intrinsic_idct.cc:7505-7583. -/
def wavelet_64x16_2 : List S := [
  .set 208 (.sra16 (.op .add16 (.r 144) (.r 146)) 1),
  .set 210 (.sra16 (.op .add16 (.r 146) (.r 148)) 1),
  .set 212 (.sra16 (.op .add16 (.r 148) (.r 150)) 1),
  .set 214 (.sra16 (.op .add16 (.r 150) (.r 152)) 1),
  .set 216 (.sra16 (.op .add16 (.r 152) (.r 154)) 1),
  .set 218 (.sra16 (.op .add16 (.r 154) (.r 156)) 1),
  .set 220 (.sra16 (.op .add16 (.r 156) (.r 158)) 1),
  .set 222 (.sra16 (.op .add16 (.r 158) (.r 160)) 1),
  .set 224 (.sra16 (.op .add16 (.r 160) (.r 162)) 1),
  .set 226 (.sra16 (.op .add16 (.r 162) (.r 164)) 1),
  .set 228 (.sra16 (.op .add16 (.r 164) (.r 166)) 1),
  .set 230 (.sra16 (.op .add16 (.r 166) (.r 168)) 1),
  .set 232 (.sra16 (.op .add16 (.r 168) (.r 170)) 1),
  .set 234 (.sra16 (.op .add16 (.r 170) (.r 172)) 1),
  .set 236 (.sra16 (.op .add16 (.r 172) (.r 174)) 1),
  .set 238 (.sra16 (.op .add16 (.r 174) (.r 176)) 1),
  .set 240 (.sra16 (.op .add16 (.r 176) (.r 178)) 1),
  .set 242 (.sra16 (.op .add16 (.r 178) (.r 180)) 1),
  .set 244 (.sra16 (.op .add16 (.r 180) (.r 182)) 1),
  .set 246 (.sra16 (.op .add16 (.r 182) (.r 184)) 1),
  .set 248 (.sra16 (.op .add16 (.r 184) (.r 186)) 1),
  .set 250 (.sra16 (.op .add16 (.r 186) (.r 188)) 1),
  .set 252 (.sra16 (.op .add16 (.r 188) (.r 190)) 1),
  .set 254 (.sra16 (.op .add16 (.r 190) (.r 190)) 1),
  .set 193 (.sra16 (.op .add16 (.r 129) (.r 131)) 1),
  .set 195 (.sra16 (.op .add16 (.r 131) (.r 133)) 1),
  .set 197 (.sra16 (.op .add16 (.r 133) (.r 135)) 1),
  .set 199 (.sra16 (.op .add16 (.r 135) (.r 137)) 1),
  .set 201 (.sra16 (.op .add16 (.r 137) (.r 139)) 1),
  .set 203 (.sra16 (.op .add16 (.r 139) (.r 141)) 1),
  .set 205 (.sra16 (.op .add16 (.r 141) (.r 143)) 1),
  .set 207 (.sra16 (.op .add16 (.r 143) (.r 145)) 1),
  .set 209 (.sra16 (.op .add16 (.r 145) (.r 147)) 1),
  .set 211 (.sra16 (.op .add16 (.r 147) (.r 149)) 1),
  .set 213 (.sra16 (.op .add16 (.r 149) (.r 151)) 1),
  .set 215 (.sra16 (.op .add16 (.r 151) (.r 153)) 1),
  .set 217 (.sra16 (.op .add16 (.r 153) (.r 155)) 1),
  .set 219 (.sra16 (.op .add16 (.r 155) (.r 157)) 1),
  .set 221 (.sra16 (.op .add16 (.r 157) (.r 159)) 1),
  .set 223 (.sra16 (.op .add16 (.r 159) (.r 161)) 1),
  .set 225 (.sra16 (.op .add16 (.r 161) (.r 163)) 1),
  .set 227 (.sra16 (.op .add16 (.r 163) (.r 165)) 1),
  .set 229 (.sra16 (.op .add16 (.r 165) (.r 167)) 1),
  .set 231 (.sra16 (.op .add16 (.r 167) (.r 169)) 1),
  .set 233 (.sra16 (.op .add16 (.r 169) (.r 171)) 1),
  .set 235 (.sra16 (.op .add16 (.r 171) (.r 173)) 1),
  .set 237 (.sra16 (.op .add16 (.r 173) (.r 175)) 1),
  .set 239 (.sra16 (.op .add16 (.r 175) (.r 177)) 1),
  .set 241 (.sra16 (.op .add16 (.r 177) (.r 179)) 1),
  .set 243 (.sra16 (.op .add16 (.r 179) (.r 181)) 1),
  .set 245 (.sra16 (.op .add16 (.r 181) (.r 183)) 1),
  .set 247 (.sra16 (.op .add16 (.r 183) (.r 185)) 1),
  .set 249 (.sra16 (.op .add16 (.r 185) (.r 187)) 1),
  .set 251 (.sra16 (.op .add16 (.r 187) (.r 189)) 1),
  .set 253 (.sra16 (.op .add16 (.r 189) (.r 191)) 1),
  .set 255 (.sra16 (.op .add16 (.r 191) (.r 191)) 1)] ++
  transpose8 256 264
    128 192 130 194 132 196 134 198
    0 8 16 24 32 40 48 56 ++
  transpose8 256 264
    136 200 138 202 140 204 142 206
    1 9 17 25 33 41 49 57 ++
  transpose8 256 264
    144 208 146 210 148 212 150 214
    2 10 18 26 34 42 50 58 ++
  transpose8 256 264
    152 216 154 218 156 220 158 222
    3 11 19 27 35 43 51 59 ++
  transpose8 256 264
    160 224 162 226 164 228 166 230
    4 12 20 28 36 44 52 60 ++
  transpose8 256 264
    168 232 170 234 172 236 174 238
    5 13 21 29 37 45 53 61 ++
  transpose8 256 264
    176 240 178 242 180 244 182 246
    6 14 22 30 38 46 54 62 ++
  transpose8 256 264
    184 248 186 250 188 252 190 254
    7 15 23 31 39 47 55 63 ++
  transpose8 256 264
    129 193 131 195 133 197 135 199
    64 72 80 88 96 104 112 120 ++
  transpose8 256 264
    137 201 139 203 141 205 143 207
    65 73 81 89 97 105 113 121 ++
  transpose8 256 264
    145 209 147 211 149 213 151 215
    66 74 82 90 98 106 114 122 ++
  transpose8 256 264
    153 217 155 219 157 221 159 223
    67 75 83 91 99 107 115 123 ++
  transpose8 256 264
    161 225 163 227 165 229 167 231
    68 76 84 92 100 108 116 124 ++
  transpose8 256 264
    169 233 171 235 173 237 175 239
    69 77 85 93 101 109 117 125 ++
  transpose8 256 264
    177 241 179 243 181 245 183 247
    70 78 86 94 102 110 118 126 ++
  transpose8 256 264
    185 249 187 251 189 253 191 255
    71 79 87 95 103 111 119 127

/-- source/common/vec/intrinsic_idct.cc:7587-7602. -/
def wavelet_64x16_3 (i : Nat) : List S := [
  .st 8 (8 * i) (.r i),
  .st 8 (64 + 8 * i) (.r (8 + i)),
  .st 8 (128 + 8 * i) (.r (16 + i)),
  .st 8 (192 + 8 * i) (.r (24 + i)),
  .st 8 (256 + 8 * i) (.r (32 + i)),
  .st 8 (320 + 8 * i) (.r (40 + i)),
  .st 8 (384 + 8 * i) (.r (48 + i)),
  .st 8 (448 + 8 * i) (.r (56 + i)),
  .st 8 (512 + 8 * i) (.r (64 + i)),
  .st 8 (576 + 8 * i) (.r (72 + i)),
  .st 8 (640 + 8 * i) (.r (80 + i)),
  .st 8 (704 + 8 * i) (.r (88 + i)),
  .st 8 (768 + 8 * i) (.r (96 + i)),
  .st 8 (832 + 8 * i) (.r (104 + i)),
  .st 8 (896 + 8 * i) (.r (112 + i)),
  .st 8 (960 + 8 * i) (.r (120 + i))]

/-- `inv_wavelet_64x16_sse128`, source/common/vec/intrinsic_idct.cc:7396. -/
def wavelet_64x16 : List S :=
  wavelet_64x16_1 ++ wavelet_64x16_2 ++ (rep 8 fun i => wavelet_64x16_3 i)

/-! ### `inv_wavelet_16x64_sse128`

Registers: 0 S00, 1 S01, 2 S02, 3 S03, 4 S04, 5 S05, 6 S06, 7 S07, 8 S08, 9 S09, 10 S10, 11 S11, 12 S12, 13 S13, 14 S14, 15 S15,
16 S16, 17 S17, 18 S18, 19 S19, 20 S20, 21 S21, 22 S22, 23 S23, 24 S24, 25 S25, 26 S26, 27 S27, 28 S28, 29 S29, 30 S30, 31 S31, 32
S32, 33 S33, 34 S34, 35 S35, 36 S36, 37 S37, 38 S38, 39 S39, 40 S40, 41 S41, 42 S42, 43 S43, 44 S44, 45 S45, 46 S46, 47 S47, 48
S48, 49 S49, 50 S50, 51 S51, 52 S52, 53 S53, 54 S54, 55 S55, 56 S56, 57 S57, 58 S58, 59 S59, 60 S60, 61 S61, 62 S62, 63 S63, 64-71
T00, 72-79 T01, 80-87 T02, 88-95 T03, 96-103 T04, 104-111 T05, 112-119 T06, 120-127 T07, 128-135 T08, 136-143 T09, 144-151 T10,
152-159 T11, 160-167 T12, 168-175 T13, 176-183 T14, 184-191 T15, 192-193 V00, 194-195 V01, 196-197 V02, 198-199 V03, 200-201 V04,
202-203 V05, 204-205 V06, 206-207 V07, 208-209 V08, 210-211 V09, 212-213 V10, 214-215 V11, 216-217 V12, 218-219 V13, 220-221 V14,
222-223 V15, 224-225 V16, 226-227 V17, 228-229 V18, 230-231 V19, 232-233 V20, 234-235 V21, 236-237 V22, 238-239 V23, 240-241 V24,
242-243 V25, 244-245 V26, 246-247 V27, 248-249 V28, 250-251 V29, 252-253 V30, 254-255 V31, 256-257 V32, 258-259 V33, 260-261 V34,
262-263 V35, 264-265 V36, 266-267 V37, 268-269 V38, 270-271 V39, 272-273 V40, 274-275 V41, 276-277 V42, 278-279 V43, 280-281 V44,
282-283 V45, 284-285 V46, 286-287 V47, 288-289 V48, 290-291 V49, 292-293 V50, 294-295 V51, 296-297 V52, 298-299 V53, 300-301 V54,
302-303 V55, 304-305 V56, 306-307 V57, 308-309 V58, 310-311 V59, 312-313 V60, 314-315 V61, 316-317 V62, 318-319 V63, 320 tr0_0,
321 tr0_1, 322 tr0_2, 323 tr0_3, 324 tr0_4, 325 tr0_5, 326 tr0_6, 327 tr0_7, 328 tr1_0, 329 tr1_1, 330 tr1_2, 331 tr1_3, 332
tr1_4, 333 tr1_5, 334 tr1_6, 335 tr1_7. -/


/-- source/common/vec/intrinsic_idct.cc:7627-7703. -/
def wavelet_16x64_1 : List S := [
  .set 0 (.sra16 (.ld 8 0) 1),
  .set 1 (.sra16 (.ld 8 8) 1),
  .set 2 (.sra16 (.ld 8 16) 1),
  .set 3 (.sra16 (.ld 8 24) 1),
  .set 4 (.sra16 (.ld 8 32) 1),
  .set 5 (.sra16 (.ld 8 40) 1),
  .set 6 (.sra16 (.ld 8 48) 1),
  .set 7 (.sra16 (.ld 8 56) 1),
  .set 8 (.sra16 (.ld 8 64) 1),
  .set 9 (.sra16 (.ld 8 72) 1),
  .set 10 (.sra16 (.ld 8 80) 1),
  .set 11 (.sra16 (.ld 8 88) 1),
  .set 12 (.sra16 (.ld 8 96) 1),
  .set 13 (.sra16 (.ld 8 104) 1),
  .set 14 (.sra16 (.ld 8 112) 1),
  .set 15 (.sra16 (.ld 8 120) 1),
  .set 16 (.sra16 (.ld 8 128) 1),
  .set 17 (.sra16 (.ld 8 136) 1),
  .set 18 (.sra16 (.ld 8 144) 1),
  .set 19 (.sra16 (.ld 8 152) 1),
  .set 20 (.sra16 (.ld 8 160) 1),
  .set 21 (.sra16 (.ld 8 168) 1),
  .set 22 (.sra16 (.ld 8 176) 1),
  .set 23 (.sra16 (.ld 8 184) 1),
  .set 24 (.sra16 (.ld 8 192) 1),
  .set 25 (.sra16 (.ld 8 200) 1),
  .set 26 (.sra16 (.ld 8 208) 1),
  .set 27 (.sra16 (.ld 8 216) 1),
  .set 28 (.sra16 (.ld 8 224) 1),
  .set 29 (.sra16 (.ld 8 232) 1),
  .set 30 (.sra16 (.ld 8 240) 1),
  .set 31 (.sra16 (.ld 8 248) 1),
  .set 32 (.sra16 (.op .add16 (.r 0) (.r 1)) 1),
  .set 33 (.sra16 (.op .add16 (.r 1) (.r 2)) 1),
  .set 34 (.sra16 (.op .add16 (.r 2) (.r 3)) 1),
  .set 35 (.sra16 (.op .add16 (.r 3) (.r 4)) 1),
  .set 36 (.sra16 (.op .add16 (.r 4) (.r 5)) 1),
  .set 37 (.sra16 (.op .add16 (.r 5) (.r 6)) 1),
  .set 38 (.sra16 (.op .add16 (.r 6) (.r 7)) 1),
  .set 39 (.sra16 (.op .add16 (.r 7) (.r 8)) 1),
  .set 40 (.sra16 (.op .add16 (.r 8) (.r 9)) 1),
  .set 41 (.sra16 (.op .add16 (.r 9) (.r 10)) 1),
  .set 42 (.sra16 (.op .add16 (.r 10) (.r 11)) 1),
  .set 43 (.sra16 (.op .add16 (.r 11) (.r 12)) 1),
  .set 44 (.sra16 (.op .add16 (.r 12) (.r 13)) 1),
  .set 45 (.sra16 (.op .add16 (.r 13) (.r 14)) 1),
  .set 46 (.sra16 (.op .add16 (.r 14) (.r 15)) 1),
  .set 47 (.sra16 (.op .add16 (.r 15) (.r 16)) 1),
  .set 48 (.sra16 (.op .add16 (.r 16) (.r 17)) 1),
  .set 49 (.sra16 (.op .add16 (.r 17) (.r 18)) 1),
  .set 50 (.sra16 (.op .add16 (.r 18) (.r 19)) 1),
  .set 51 (.sra16 (.op .add16 (.r 19) (.r 20)) 1),
  .set 52 (.sra16 (.op .add16 (.r 20) (.r 21)) 1),
  .set 53 (.sra16 (.op .add16 (.r 21) (.r 22)) 1),
  .set 54 (.sra16 (.op .add16 (.r 22) (.r 23)) 1),
  .set 55 (.sra16 (.op .add16 (.r 23) (.r 24)) 1),
  .set 56 (.sra16 (.op .add16 (.r 24) (.r 25)) 1),
  .set 57 (.sra16 (.op .add16 (.r 25) (.r 26)) 1),
  .set 58 (.sra16 (.op .add16 (.r 26) (.r 27)) 1),
  .set 59 (.sra16 (.op .add16 (.r 27) (.r 28)) 1),
  .set 60 (.sra16 (.op .add16 (.r 28) (.r 29)) 1),
  .set 61 (.sra16 (.op .add16 (.r 29) (.r 30)) 1),
  .set 62 (.sra16 (.op .add16 (.r 30) (.r 31)) 1),
  .set 63 (.sra16 (.op .add16 (.r 31) (.r 31)) 1)] ++
  transpose8 320 328
    0 32 1 33 2 34 3 35
    64 72 80 88 96 104 112 120 ++
  transpose8 320 328
    4 36 5 37 6 38 7 39
    65 73 81 89 97 105 113 121 ++
  transpose8 320 328
    8 40 9 41 10 42 11 43
    66 74 82 90 98 106 114 122 ++
  transpose8 320 328
    12 44 13 45 14 46 15 47
    67 75 83 91 99 107 115 123 ++
  transpose8 320 328
    16 48 17 49 18 50 19 51
    68 76 84 92 100 108 116 124 ++
  transpose8 320 328
    20 52 21 53 22 54 23 55
    69 77 85 93 101 109 117 125 ++
  transpose8 320 328
    24 56 25 57 26 58 27 59
    70 78 86 94 102 110 118 126 ++
  transpose8 320 328
    28 60 29 61 30 62 31 63
    71 79 87 95 103 111 119 127

/-- source/common/vec/intrinsic_idct.cc:7707-7714. -/
def wavelet_16x64_2 (i : Nat) : List S := [
  .set (128 + i) (.sra16 (.op .add16 (.r (64 + i)) (.r (72 + i))) 1),
  .set (136 + i) (.sra16 (.op .add16 (.r (72 + i)) (.r (80 + i))) 1),
  .set (144 + i) (.sra16 (.op .add16 (.r (80 + i)) (.r (88 + i))) 1),
  .set (152 + i) (.sra16 (.op .add16 (.r (88 + i)) (.r (96 + i))) 1),
  .set (160 + i) (.sra16 (.op .add16 (.r (96 + i)) (.r (104 + i))) 1),
  .set (168 + i) (.sra16 (.op .add16 (.r (104 + i)) (.r (112 + i))) 1),
  .set (176 + i) (.sra16 (.op .add16 (.r (112 + i)) (.r (120 + i))) 1),
  .set (184 + i) (.sra16 (.op .add16 (.r (120 + i)) (.r (120 + i))) 1)]

/-- source/common/vec/intrinsic_idct.cc:7719-7735. -/
def wavelet_16x64_3 : List S := transpose8 320 328
    64 128 72 136 80 144 88 152
    192 194 196 198 200 202 204 206 ++
  transpose8 320 328
    65 129 73 137 81 145 89 153
    208 210 212 214 216 218 220 222 ++
  transpose8 320 328
    66 130 74 138 82 146 90 154
    224 226 228 230 232 234 236 238 ++
  transpose8 320 328
    67 131 75 139 83 147 91 155
    240 242 244 246 248 250 252 254 ++
  transpose8 320 328
    68 132 76 140 84 148 92 156
    256 258 260 262 264 266 268 270 ++
  transpose8 320 328
    69 133 77 141 85 149 93 157
    272 274 276 278 280 282 284 286 ++
  transpose8 320 328
    70 134 78 142 86 150 94 158
    288 290 292 294 296 298 300 302 ++
  transpose8 320 328
    71 135 79 143 87 151 95 159
    304 306 308 310 312 314 316 318 ++
  transpose8 320 328
    96 160 104 168 112 176 120 184
    193 195 197 199 201 203 205 207 ++
  transpose8 320 328
    97 161 105 169 113 177 121 185
    209 211 213 215 217 219 221 223 ++
  transpose8 320 328
    98 162 106 170 114 178 122 186
    225 227 229 231 233 235 237 239 ++
  transpose8 320 328
    99 163 107 171 115 179 123 187
    241 243 245 247 249 251 253 255 ++
  transpose8 320 328
    100 164 108 172 116 180 124 188
    257 259 261 263 265 267 269 271 ++
  transpose8 320 328
    101 165 109 173 117 181 125 189
    273 275 277 279 281 283 285 287 ++
  transpose8 320 328
    102 166 110 174 118 182 126 190
    289 291 293 295 297 299 301 303 ++
  transpose8 320 328
    103 167 111 175 119 183 127 191
    305 307 309 311 313 315 317 319

/-- source/common/vec/intrinsic_idct.cc:7740-7803. -/
def wavelet_16x64_4 (i : Nat) : List S := [
  .st 8 (8 * i) (.r (192 + i)),
  .st 8 (16 + 8 * i) (.r (194 + i)),
  .st 8 (32 + 8 * i) (.r (196 + i)),
  .st 8 (48 + 8 * i) (.r (198 + i)),
  .st 8 (64 + 8 * i) (.r (200 + i)),
  .st 8 (80 + 8 * i) (.r (202 + i)),
  .st 8 (96 + 8 * i) (.r (204 + i)),
  .st 8 (112 + 8 * i) (.r (206 + i)),
  .st 8 (128 + 8 * i) (.r (208 + i)),
  .st 8 (144 + 8 * i) (.r (210 + i)),
  .st 8 (160 + 8 * i) (.r (212 + i)),
  .st 8 (176 + 8 * i) (.r (214 + i)),
  .st 8 (192 + 8 * i) (.r (216 + i)),
  .st 8 (208 + 8 * i) (.r (218 + i)),
  .st 8 (224 + 8 * i) (.r (220 + i)),
  .st 8 (240 + 8 * i) (.r (222 + i)),
  .st 8 (256 + 8 * i) (.r (224 + i)),
  .st 8 (272 + 8 * i) (.r (226 + i)),
  .st 8 (288 + 8 * i) (.r (228 + i)),
  .st 8 (304 + 8 * i) (.r (230 + i)),
  .st 8 (320 + 8 * i) (.r (232 + i)),
  .st 8 (336 + 8 * i) (.r (234 + i)),
  .st 8 (352 + 8 * i) (.r (236 + i)),
  .st 8 (368 + 8 * i) (.r (238 + i)),
  .st 8 (384 + 8 * i) (.r (240 + i)),
  .st 8 (400 + 8 * i) (.r (242 + i)),
  .st 8 (416 + 8 * i) (.r (244 + i)),
  .st 8 (432 + 8 * i) (.r (246 + i)),
  .st 8 (448 + 8 * i) (.r (248 + i)),
  .st 8 (464 + 8 * i) (.r (250 + i)),
  .st 8 (480 + 8 * i) (.r (252 + i)),
  .st 8 (496 + 8 * i) (.r (254 + i)),
  .st 8 (512 + 8 * i) (.r (256 + i)),
  .st 8 (528 + 8 * i) (.r (258 + i)),
  .st 8 (544 + 8 * i) (.r (260 + i)),
  .st 8 (560 + 8 * i) (.r (262 + i)),
  .st 8 (576 + 8 * i) (.r (264 + i)),
  .st 8 (592 + 8 * i) (.r (266 + i)),
  .st 8 (608 + 8 * i) (.r (268 + i)),
  .st 8 (624 + 8 * i) (.r (270 + i)),
  .st 8 (640 + 8 * i) (.r (272 + i)),
  .st 8 (656 + 8 * i) (.r (274 + i)),
  .st 8 (672 + 8 * i) (.r (276 + i)),
  .st 8 (688 + 8 * i) (.r (278 + i)),
  .st 8 (704 + 8 * i) (.r (280 + i)),
  .st 8 (720 + 8 * i) (.r (282 + i)),
  .st 8 (736 + 8 * i) (.r (284 + i)),
  .st 8 (752 + 8 * i) (.r (286 + i)),
  .st 8 (768 + 8 * i) (.r (288 + i)),
  .st 8 (784 + 8 * i) (.r (290 + i)),
  .st 8 (800 + 8 * i) (.r (292 + i)),
  .st 8 (816 + 8 * i) (.r (294 + i)),
  .st 8 (832 + 8 * i) (.r (296 + i)),
  .st 8 (848 + 8 * i) (.r (298 + i)),
  .st 8 (864 + 8 * i) (.r (300 + i)),
  .st 8 (880 + 8 * i) (.r (302 + i)),
  .st 8 (896 + 8 * i) (.r (304 + i)),
  .st 8 (912 + 8 * i) (.r (306 + i)),
  .st 8 (928 + 8 * i) (.r (308 + i)),
  .st 8 (944 + 8 * i) (.r (310 + i)),
  .st 8 (960 + 8 * i) (.r (312 + i)),
  .st 8 (976 + 8 * i) (.r (314 + i)),
  .st 8 (992 + 8 * i) (.r (316 + i)),
  .st 8 (1008 + 8 * i) (.r (318 + i))]

/-- `inv_wavelet_16x64_sse128`, source/common/vec/intrinsic_idct.cc:7609. -/
def wavelet_16x64 : List S :=
  wavelet_16x64_1 ++ (rep 8 fun i => wavelet_16x64_2 i) ++ wavelet_16x64_3 ++ (rep 2 fun i => wavelet_16x64_4 i)

/-! ### `inv_wavelet_64x64_avx2`

Registers: 0 tr0_0, 1 tr0_1, 2 tr0_2, 3 tr0_3, 4 tr0_4, 5 tr0_5, 6 tr0_6, 7 tr0_7, 8 tr1_0, 9 tr1_1, 10 tr1_2, 11 tr1_3, 12 tr1_4,
13 tr1_5, 14 tr1_6, 15 tr1_7, 16 t0, 17 t1, 18 t2, 19 t3, 20 t4, 21 t5, 22 t6, 23 t7, 24 t8, 25 t9, 26 t10, 27 t11, 28 t12, 29
t13, 30 t14, 31 t15, 32-35 T00, 36-39 T01, 40-43 T02, 44-47 T03, 48-51 T04, 52-55 T05, 56-59 T06, 60-63 T07, 64-67 T08, 68-71 T09,
72-75 T10, 76-79 T11, 80-83 T12, 84-87 T13, 88-91 T14, 92-95 T15, 96-99 T16, 100-103 T17, 104-107 T18, 108-111 T19, 112-115 T20,
116-119 T21, 120-123 T22, 124-127 T23, 128-131 T24, 132-135 T25, 136-139 T26, 140-143 T27, 144-147 T28, 148-151 T29, 152-155 T30,
156-159 T31, 160-163 T32, 164-167 T33, 168-171 T34, 172-175 T35, 176-179 T36, 180-183 T37, 184-187 T38, 188-191 T39, 192-195 T40,
196-199 T41, 200-203 T42, 204-207 T43, 208-211 T44, 212-215 T45, 216-219 T46, 220-223 T47, 224-227 T48, 228-231 T49, 232-235 T50,
236-239 T51, 240-243 T52, 244-247 T53, 248-251 T54, 252-255 T55, 256-259 T56, 260-263 T57, 264-267 T58, 268-271 T59, 272-275 T60,
276-279 T61, 280-283 T62, 284-287 T63, 288-291 V00, 292-295 V01, 296-299 V02, 300-303 V03, 304-307 V04, 308-311 V05, 312-315 V06,
316-319 V07, 320-323 V08, 324-327 V09, 328-331 V10, 332-335 V11, 336-339 V12, 340-343 V13, 344-347 V14, 348-351 V15, 352-355 V16,
356-359 V17, 360-363 V18, 364-367 V19, 368-371 V20, 372-375 V21, 376-379 V22, 380-383 V23, 384-387 V24, 388-391 V25, 392-395 V26,
396-399 V27, 400-403 V28, 404-407 V29, 408-411 V30, 412-415 V31, 416-419 V32, 420-423 V33, 424-427 V34, 428-431 V35, 432-435 V36,
436-439 V37, 440-443 V38, 444-447 V39, 448-451 V40, 452-455 V41, 456-459 V42, 460-463 V43, 464-467 V44, 468-471 V45, 472-475 V46,
476-479 V47, 480-483 V48, 484-487 V49, 488-491 V50, 492-495 V51, 496-499 V52, 500-503 V53, 504-507 V54, 508-511 V55, 512-515 V56,
516-519 V57, 520-523 V58, 524-527 V59, 528-531 V60, 532-535 V61, 536-539 V62, 540-543 V63. -/


/-- source/common/vec/intrinsic_idct_avx2.cc:1923-1957. -/
def wavelet_64x64_avx2_1 (i : Nat) : List S := [
  .set (32 + i) (.sra16 (.ld 16 (16 * i)) 1),
  .set (36 + i) (.sra16 (.ld 16 (32 + 16 * i)) 1),
  .set (40 + i) (.sra16 (.ld 16 (64 + 16 * i)) 1),
  .set (44 + i) (.sra16 (.ld 16 (96 + 16 * i)) 1),
  .set (48 + i) (.sra16 (.ld 16 (128 + 16 * i)) 1),
  .set (52 + i) (.sra16 (.ld 16 (160 + 16 * i)) 1),
  .set (56 + i) (.sra16 (.ld 16 (192 + 16 * i)) 1),
  .set (60 + i) (.sra16 (.ld 16 (224 + 16 * i)) 1),
  .set (64 + i) (.sra16 (.ld 16 (256 + 16 * i)) 1),
  .set (68 + i) (.sra16 (.ld 16 (288 + 16 * i)) 1),
  .set (72 + i) (.sra16 (.ld 16 (320 + 16 * i)) 1),
  .set (76 + i) (.sra16 (.ld 16 (352 + 16 * i)) 1),
  .set (80 + i) (.sra16 (.ld 16 (384 + 16 * i)) 1),
  .set (84 + i) (.sra16 (.ld 16 (416 + 16 * i)) 1),
  .set (88 + i) (.sra16 (.ld 16 (448 + 16 * i)) 1),
  .set (92 + i) (.sra16 (.ld 16 (480 + 16 * i)) 1),
  .set (96 + i) (.sra16 (.ld 16 (512 + 16 * i)) 1),
  .set (100 + i) (.sra16 (.ld 16 (544 + 16 * i)) 1),
  .set (104 + i) (.sra16 (.ld 16 (576 + 16 * i)) 1),
  .set (108 + i) (.sra16 (.ld 16 (608 + 16 * i)) 1),
  .set (112 + i) (.sra16 (.ld 16 (640 + 16 * i)) 1),
  .set (116 + i) (.sra16 (.ld 16 (672 + 16 * i)) 1),
  .set (120 + i) (.sra16 (.ld 16 (704 + 16 * i)) 1),
  .set (124 + i) (.sra16 (.ld 16 (736 + 16 * i)) 1),
  .set (128 + i) (.sra16 (.ld 16 (768 + 16 * i)) 1),
  .set (132 + i) (.sra16 (.ld 16 (800 + 16 * i)) 1),
  .set (136 + i) (.sra16 (.ld 16 (832 + 16 * i)) 1),
  .set (140 + i) (.sra16 (.ld 16 (864 + 16 * i)) 1),
  .set (144 + i) (.sra16 (.ld 16 (896 + 16 * i)) 1),
  .set (148 + i) (.sra16 (.ld 16 (928 + 16 * i)) 1),
  .set (152 + i) (.sra16 (.ld 16 (960 + 16 * i)) 1),
  .set (156 + i) (.sra16 (.ld 16 (992 + 16 * i)) 1)]

/-- source/common/vec/intrinsic_idct_avx2.cc:1962-1996. -/
def wavelet_64x64_avx2_2 (i : Nat) : List S := [
  .set (160 + i) (.sra16 (.op .add16 (.r (32 + i)) (.r (36 + i))) 1),
  .set (164 + i) (.sra16 (.op .add16 (.r (36 + i)) (.r (40 + i))) 1),
  .set (168 + i) (.sra16 (.op .add16 (.r (40 + i)) (.r (44 + i))) 1),
  .set (172 + i) (.sra16 (.op .add16 (.r (44 + i)) (.r (48 + i))) 1),
  .set (176 + i) (.sra16 (.op .add16 (.r (48 + i)) (.r (52 + i))) 1),
  .set (180 + i) (.sra16 (.op .add16 (.r (52 + i)) (.r (56 + i))) 1),
  .set (184 + i) (.sra16 (.op .add16 (.r (56 + i)) (.r (60 + i))) 1),
  .set (188 + i) (.sra16 (.op .add16 (.r (60 + i)) (.r (64 + i))) 1),
  .set (192 + i) (.sra16 (.op .add16 (.r (64 + i)) (.r (68 + i))) 1),
  .set (196 + i) (.sra16 (.op .add16 (.r (68 + i)) (.r (72 + i))) 1),
  .set (200 + i) (.sra16 (.op .add16 (.r (72 + i)) (.r (76 + i))) 1),
  .set (204 + i) (.sra16 (.op .add16 (.r (76 + i)) (.r (80 + i))) 1),
  .set (208 + i) (.sra16 (.op .add16 (.r (80 + i)) (.r (84 + i))) 1),
  .set (212 + i) (.sra16 (.op .add16 (.r (84 + i)) (.r (88 + i))) 1),
  .set (216 + i) (.sra16 (.op .add16 (.r (88 + i)) (.r (92 + i))) 1),
  .set (220 + i) (.sra16 (.op .add16 (.r (92 + i)) (.r (96 + i))) 1),
  .set (224 + i) (.sra16 (.op .add16 (.r (96 + i)) (.r (100 + i))) 1),
  .set (228 + i) (.sra16 (.op .add16 (.r (100 + i)) (.r (104 + i))) 1),
  .set (232 + i) (.sra16 (.op .add16 (.r (104 + i)) (.r (108 + i))) 1),
  .set (236 + i) (.sra16 (.op .add16 (.r (108 + i)) (.r (112 + i))) 1),
  .set (240 + i) (.sra16 (.op .add16 (.r (112 + i)) (.r (116 + i))) 1),
  .set (244 + i) (.sra16 (.op .add16 (.r (116 + i)) (.r (120 + i))) 1),
  .set (248 + i) (.sra16 (.op .add16 (.r (120 + i)) (.r (124 + i))) 1),
  .set (252 + i) (.sra16 (.op .add16 (.r (124 + i)) (.r (128 + i))) 1),
  .set (256 + i) (.sra16 (.op .add16 (.r (128 + i)) (.r (132 + i))) 1),
  .set (260 + i) (.sra16 (.op .add16 (.r (132 + i)) (.r (136 + i))) 1),
  .set (264 + i) (.sra16 (.op .add16 (.r (136 + i)) (.r (140 + i))) 1),
  .set (268 + i) (.sra16 (.op .add16 (.r (140 + i)) (.r (144 + i))) 1),
  .set (272 + i) (.sra16 (.op .add16 (.r (144 + i)) (.r (148 + i))) 1),
  .set (276 + i) (.sra16 (.op .add16 (.r (148 + i)) (.r (152 + i))) 1),
  .set (280 + i) (.sra16 (.op .add16 (.r (152 + i)) (.r (156 + i))) 1),
  .set (284 + i) (.sra16 (.op .add16 (.r (156 + i)) (.r (156 + i))) 1)]

/-- source/common/vec/intrinsic_idct_avx2.cc:2001-2006. -/
def wavelet_64x64_avx2_3 : List S := transpose8 0 8
    32 160 36 164 40 168 44 172
    16 17 18 19 20 21 22 23 ++
  transpose8 0 8
    48 176 52 180 56 184 60 188
    24 25 26 27 28 29 30 31 ++
  [
  .set 288 (.op .perm20 (.r 16) (.r 24)),
  .set 292 (.op .perm20 (.r 17) (.r 25)),
  .set 296 (.op .perm20 (.r 18) (.r 26)),
  .set 300 (.op .perm20 (.r 19) (.r 27)),
  .set 304 (.op .perm20 (.r 20) (.r 28)),
  .set 308 (.op .perm20 (.r 21) (.r 29)),
  .set 312 (.op .perm20 (.r 22) (.r 30)),
  .set 316 (.op .perm20 (.r 23) (.r 31)),
  .set 320 (.op .perm31 (.r 16) (.r 24)),
  .set 324 (.op .perm31 (.r 17) (.r 25)),
  .set 328 (.op .perm31 (.r 18) (.r 26)),
  .set 332 (.op .perm31 (.r 19) (.r 27)),
  .set 336 (.op .perm31 (.r 20) (.r 28)),
  .set 340 (.op .perm31 (.r 21) (.r 29)),
  .set 344 (.op .perm31 (.r 22) (.r 30)),
  .set 348 (.op .perm31 (.r 23) (.r 31))] ++
  transpose8 0 8
    64 192 68 196 72 200 76 204
    16 17 18 19 20 21 22 23 ++
  transpose8 0 8
    80 208 84 212 88 216 92 220
    24 25 26 27 28 29 30 31 ++
  [
  .set 289 (.op .perm20 (.r 16) (.r 24)),
  .set 293 (.op .perm20 (.r 17) (.r 25)),
  .set 297 (.op .perm20 (.r 18) (.r 26)),
  .set 301 (.op .perm20 (.r 19) (.r 27)),
  .set 305 (.op .perm20 (.r 20) (.r 28)),
  .set 309 (.op .perm20 (.r 21) (.r 29)),
  .set 313 (.op .perm20 (.r 22) (.r 30)),
  .set 317 (.op .perm20 (.r 23) (.r 31)),
  .set 321 (.op .perm31 (.r 16) (.r 24)),
  .set 325 (.op .perm31 (.r 17) (.r 25)),
  .set 329 (.op .perm31 (.r 18) (.r 26)),
  .set 333 (.op .perm31 (.r 19) (.r 27)),
  .set 337 (.op .perm31 (.r 20) (.r 28)),
  .set 341 (.op .perm31 (.r 21) (.r 29)),
  .set 345 (.op .perm31 (.r 22) (.r 30)),
  .set 349 (.op .perm31 (.r 23) (.r 31))] ++
  transpose8 0 8
    96 224 100 228 104 232 108 236
    16 17 18 19 20 21 22 23 ++
  transpose8 0 8
    112 240 116 244 120 248 124 252
    24 25 26 27 28 29 30 31 ++
  [
  .set 290 (.op .perm20 (.r 16) (.r 24)),
  .set 294 (.op .perm20 (.r 17) (.r 25)),
  .set 298 (.op .perm20 (.r 18) (.r 26)),
  .set 302 (.op .perm20 (.r 19) (.r 27)),
  .set 306 (.op .perm20 (.r 20) (.r 28)),
  .set 310 (.op .perm20 (.r 21) (.r 29)),
  .set 314 (.op .perm20 (.r 22) (.r 30)),
  .set 318 (.op .perm20 (.r 23) (.r 31)),
  .set 322 (.op .perm31 (.r 16) (.r 24)),
  .set 326 (.op .perm31 (.r 17) (.r 25)),
  .set 330 (.op .perm31 (.r 18) (.r 26)),
  .set 334 (.op .perm31 (.r 19) (.r 27)),
  .set 338 (.op .perm31 (.r 20) (.r 28)),
  .set 342 (.op .perm31 (.r 21) (.r 29)),
  .set 346 (.op .perm31 (.r 22) (.r 30)),
  .set 350 (.op .perm31 (.r 23) (.r 31))] ++
  transpose8 0 8
    128 256 132 260 136 264 140 268
    16 17 18 19 20 21 22 23 ++
  transpose8 0 8
    144 272 148 276 152 280 156 284
    24 25 26 27 28 29 30 31 ++
  [
  .set 291 (.op .perm20 (.r 16) (.r 24)),
  .set 295 (.op .perm20 (.r 17) (.r 25)),
  .set 299 (.op .perm20 (.r 18) (.r 26)),
  .set 303 (.op .perm20 (.r 19) (.r 27)),
  .set 307 (.op .perm20 (.r 20) (.r 28)),
  .set 311 (.op .perm20 (.r 21) (.r 29)),
  .set 315 (.op .perm20 (.r 22) (.r 30)),
  .set 319 (.op .perm20 (.r 23) (.r 31)),
  .set 323 (.op .perm31 (.r 16) (.r 24)),
  .set 327 (.op .perm31 (.r 17) (.r 25)),
  .set 331 (.op .perm31 (.r 18) (.r 26)),
  .set 335 (.op .perm31 (.r 19) (.r 27)),
  .set 339 (.op .perm31 (.r 20) (.r 28)),
  .set 343 (.op .perm31 (.r 21) (.r 29)),
  .set 347 (.op .perm31 (.r 22) (.r 30)),
  .set 351 (.op .perm31 (.r 23) (.r 31))] ++
  transpose8 0 8
    33 161 37 165 41 169 45 173
    16 17 18 19 20 21 22 23 ++
  transpose8 0 8
    49 177 53 181 57 185 61 189
    24 25 26 27 28 29 30 31 ++
  [
  .set 352 (.op .perm20 (.r 16) (.r 24)),
  .set 356 (.op .perm20 (.r 17) (.r 25)),
  .set 360 (.op .perm20 (.r 18) (.r 26)),
  .set 364 (.op .perm20 (.r 19) (.r 27)),
  .set 368 (.op .perm20 (.r 20) (.r 28)),
  .set 372 (.op .perm20 (.r 21) (.r 29))]

/-- source/common/vec/intrinsic_idct_avx2.cc:2006-2009. -/
def wavelet_64x64_avx2_4 : List S := [
  .set 376 (.op .perm20 (.r 22) (.r 30)),
  .set 380 (.op .perm20 (.r 23) (.r 31)),
  .set 384 (.op .perm31 (.r 16) (.r 24)),
  .set 388 (.op .perm31 (.r 17) (.r 25)),
  .set 392 (.op .perm31 (.r 18) (.r 26)),
  .set 396 (.op .perm31 (.r 19) (.r 27)),
  .set 400 (.op .perm31 (.r 20) (.r 28)),
  .set 404 (.op .perm31 (.r 21) (.r 29)),
  .set 408 (.op .perm31 (.r 22) (.r 30)),
  .set 412 (.op .perm31 (.r 23) (.r 31))] ++
  transpose8 0 8
    65 193 69 197 73 201 77 205
    16 17 18 19 20 21 22 23 ++
  transpose8 0 8
    81 209 85 213 89 217 93 221
    24 25 26 27 28 29 30 31 ++
  [
  .set 353 (.op .perm20 (.r 16) (.r 24)),
  .set 357 (.op .perm20 (.r 17) (.r 25)),
  .set 361 (.op .perm20 (.r 18) (.r 26)),
  .set 365 (.op .perm20 (.r 19) (.r 27)),
  .set 369 (.op .perm20 (.r 20) (.r 28)),
  .set 373 (.op .perm20 (.r 21) (.r 29)),
  .set 377 (.op .perm20 (.r 22) (.r 30)),
  .set 381 (.op .perm20 (.r 23) (.r 31)),
  .set 385 (.op .perm31 (.r 16) (.r 24)),
  .set 389 (.op .perm31 (.r 17) (.r 25)),
  .set 393 (.op .perm31 (.r 18) (.r 26)),
  .set 397 (.op .perm31 (.r 19) (.r 27)),
  .set 401 (.op .perm31 (.r 20) (.r 28)),
  .set 405 (.op .perm31 (.r 21) (.r 29)),
  .set 409 (.op .perm31 (.r 22) (.r 30)),
  .set 413 (.op .perm31 (.r 23) (.r 31))] ++
  transpose8 0 8
    97 225 101 229 105 233 109 237
    16 17 18 19 20 21 22 23 ++
  transpose8 0 8
    113 241 117 245 121 249 125 253
    24 25 26 27 28 29 30 31 ++
  [
  .set 354 (.op .perm20 (.r 16) (.r 24)),
  .set 358 (.op .perm20 (.r 17) (.r 25)),
  .set 362 (.op .perm20 (.r 18) (.r 26)),
  .set 366 (.op .perm20 (.r 19) (.r 27)),
  .set 370 (.op .perm20 (.r 20) (.r 28)),
  .set 374 (.op .perm20 (.r 21) (.r 29)),
  .set 378 (.op .perm20 (.r 22) (.r 30)),
  .set 382 (.op .perm20 (.r 23) (.r 31)),
  .set 386 (.op .perm31 (.r 16) (.r 24)),
  .set 390 (.op .perm31 (.r 17) (.r 25)),
  .set 394 (.op .perm31 (.r 18) (.r 26)),
  .set 398 (.op .perm31 (.r 19) (.r 27)),
  .set 402 (.op .perm31 (.r 20) (.r 28)),
  .set 406 (.op .perm31 (.r 21) (.r 29)),
  .set 410 (.op .perm31 (.r 22) (.r 30)),
  .set 414 (.op .perm31 (.r 23) (.r 31))] ++
  transpose8 0 8
    129 257 133 261 137 265 141 269
    16 17 18 19 20 21 22 23 ++
  transpose8 0 8
    145 273 149 277 153 281 157 285
    24 25 26 27 28 29 30 31 ++
  [
  .set 355 (.op .perm20 (.r 16) (.r 24)),
  .set 359 (.op .perm20 (.r 17) (.r 25)),
  .set 363 (.op .perm20 (.r 18) (.r 26)),
  .set 367 (.op .perm20 (.r 19) (.r 27)),
  .set 371 (.op .perm20 (.r 20) (.r 28)),
  .set 375 (.op .perm20 (.r 21) (.r 29)),
  .set 379 (.op .perm20 (.r 22) (.r 30)),
  .set 383 (.op .perm20 (.r 23) (.r 31)),
  .set 387 (.op .perm31 (.r 16) (.r 24)),
  .set 391 (.op .perm31 (.r 17) (.r 25)),
  .set 395 (.op .perm31 (.r 18) (.r 26)),
  .set 399 (.op .perm31 (.r 19) (.r 27)),
  .set 403 (.op .perm31 (.r 20) (.r 28)),
  .set 407 (.op .perm31 (.r 21) (.r 29)),
  .set 411 (.op .perm31 (.r 22) (.r 30)),
  .set 415 (.op .perm31 (.r 23) (.r 31))]

/-- source/common/vec/intrinsic_idct_avx2.cc:2014-2046. -/
def wavelet_64x64_avx2_5 (i : Nat) : List S := [
  .set (416 + i) (.sra16 (.op .add16 (.r (288 + i)) (.r (292 + i))) 1),
  .set (420 + i) (.sra16 (.op .add16 (.r (292 + i)) (.r (296 + i))) 1),
  .set (424 + i) (.sra16 (.op .add16 (.r (296 + i)) (.r (300 + i))) 1),
  .set (428 + i) (.sra16 (.op .add16 (.r (300 + i)) (.r (304 + i))) 1),
  .set (432 + i) (.sra16 (.op .add16 (.r (304 + i)) (.r (308 + i))) 1),
  .set (436 + i) (.sra16 (.op .add16 (.r (308 + i)) (.r (312 + i))) 1),
  .set (440 + i) (.sra16 (.op .add16 (.r (312 + i)) (.r (316 + i))) 1),
  .set (444 + i) (.sra16 (.op .add16 (.r (316 + i)) (.r (320 + i))) 1),
  .set (448 + i) (.sra16 (.op .add16 (.r (320 + i)) (.r (324 + i))) 1),
  .set (452 + i) (.sra16 (.op .add16 (.r (324 + i)) (.r (328 + i))) 1),
  .set (456 + i) (.sra16 (.op .add16 (.r (328 + i)) (.r (332 + i))) 1),
  .set (460 + i) (.sra16 (.op .add16 (.r (332 + i)) (.r (336 + i))) 1),
  .set (464 + i) (.sra16 (.op .add16 (.r (336 + i)) (.r (340 + i))) 1),
  .set (468 + i) (.sra16 (.op .add16 (.r (340 + i)) (.r (344 + i))) 1),
  .set (472 + i) (.sra16 (.op .add16 (.r (344 + i)) (.r (348 + i))) 1),
  .set (476 + i) (.sra16 (.op .add16 (.r (348 + i)) (.r (352 + i))) 1),
  .set (480 + i) (.sra16 (.op .add16 (.r (352 + i)) (.r (356 + i))) 1),
  .set (484 + i) (.sra16 (.op .add16 (.r (356 + i)) (.r (360 + i))) 1),
  .set (488 + i) (.sra16 (.op .add16 (.r (360 + i)) (.r (364 + i))) 1),
  .set (492 + i) (.sra16 (.op .add16 (.r (364 + i)) (.r (368 + i))) 1),
  .set (496 + i) (.sra16 (.op .add16 (.r (368 + i)) (.r (372 + i))) 1),
  .set (500 + i) (.sra16 (.op .add16 (.r (372 + i)) (.r (376 + i))) 1),
  .set (504 + i) (.sra16 (.op .add16 (.r (376 + i)) (.r (380 + i))) 1),
  .set (508 + i) (.sra16 (.op .add16 (.r (380 + i)) (.r (384 + i))) 1),
  .set (512 + i) (.sra16 (.op .add16 (.r (384 + i)) (.r (388 + i))) 1),
  .set (516 + i) (.sra16 (.op .add16 (.r (388 + i)) (.r (392 + i))) 1),
  .set (520 + i) (.sra16 (.op .add16 (.r (392 + i)) (.r (396 + i))) 1),
  .set (524 + i) (.sra16 (.op .add16 (.r (396 + i)) (.r (400 + i))) 1),
  .set (528 + i) (.sra16 (.op .add16 (.r (400 + i)) (.r (404 + i))) 1),
  .set (532 + i) (.sra16 (.op .add16 (.r (404 + i)) (.r (408 + i))) 1),
  .set (536 + i) (.sra16 (.op .add16 (.r (408 + i)) (.r (412 + i))) 1),
  .set (540 + i) (.sra16 (.op .add16 (.r (412 + i)) (.r (412 + i))) 1)]

/-- source/common/vec/intrinsic_idct_avx2.cc:2051-2056. -/
def wavelet_64x64_avx2_6 : List S := transpose8 0 8
    288 416 292 420 296 424 300 428
    16 17 18 19 20 21 22 23 ++
  transpose8 0 8
    304 432 308 436 312 440 316 444
    24 25 26 27 28 29 30 31 ++
  [
  .set 32 (.op .perm20 (.r 16) (.r 24)),
  .set 36 (.op .perm20 (.r 17) (.r 25)),
  .set 40 (.op .perm20 (.r 18) (.r 26)),
  .set 44 (.op .perm20 (.r 19) (.r 27)),
  .set 48 (.op .perm20 (.r 20) (.r 28)),
  .set 52 (.op .perm20 (.r 21) (.r 29)),
  .set 56 (.op .perm20 (.r 22) (.r 30)),
  .set 60 (.op .perm20 (.r 23) (.r 31)),
  .set 64 (.op .perm31 (.r 16) (.r 24)),
  .set 68 (.op .perm31 (.r 17) (.r 25)),
  .set 72 (.op .perm31 (.r 18) (.r 26)),
  .set 76 (.op .perm31 (.r 19) (.r 27)),
  .set 80 (.op .perm31 (.r 20) (.r 28)),
  .set 84 (.op .perm31 (.r 21) (.r 29)),
  .set 88 (.op .perm31 (.r 22) (.r 30)),
  .set 92 (.op .perm31 (.r 23) (.r 31))] ++
  transpose8 0 8
    289 417 293 421 297 425 301 429
    16 17 18 19 20 21 22 23 ++
  transpose8 0 8
    305 433 309 437 313 441 317 445
    24 25 26 27 28 29 30 31 ++
  [
  .set 96 (.op .perm20 (.r 16) (.r 24)),
  .set 100 (.op .perm20 (.r 17) (.r 25)),
  .set 104 (.op .perm20 (.r 18) (.r 26)),
  .set 108 (.op .perm20 (.r 19) (.r 27)),
  .set 112 (.op .perm20 (.r 20) (.r 28)),
  .set 116 (.op .perm20 (.r 21) (.r 29)),
  .set 120 (.op .perm20 (.r 22) (.r 30)),
  .set 124 (.op .perm20 (.r 23) (.r 31)),
  .set 128 (.op .perm31 (.r 16) (.r 24)),
  .set 132 (.op .perm31 (.r 17) (.r 25)),
  .set 136 (.op .perm31 (.r 18) (.r 26)),
  .set 140 (.op .perm31 (.r 19) (.r 27)),
  .set 144 (.op .perm31 (.r 20) (.r 28)),
  .set 148 (.op .perm31 (.r 21) (.r 29)),
  .set 152 (.op .perm31 (.r 22) (.r 30)),
  .set 156 (.op .perm31 (.r 23) (.r 31))] ++
  transpose8 0 8
    290 418 294 422 298 426 302 430
    16 17 18 19 20 21 22 23 ++
  transpose8 0 8
    306 434 310 438 314 442 318 446
    24 25 26 27 28 29 30 31 ++
  [
  .set 160 (.op .perm20 (.r 16) (.r 24)),
  .set 164 (.op .perm20 (.r 17) (.r 25)),
  .set 168 (.op .perm20 (.r 18) (.r 26)),
  .set 172 (.op .perm20 (.r 19) (.r 27)),
  .set 176 (.op .perm20 (.r 20) (.r 28)),
  .set 180 (.op .perm20 (.r 21) (.r 29)),
  .set 184 (.op .perm20 (.r 22) (.r 30)),
  .set 188 (.op .perm20 (.r 23) (.r 31)),
  .set 192 (.op .perm31 (.r 16) (.r 24)),
  .set 196 (.op .perm31 (.r 17) (.r 25)),
  .set 200 (.op .perm31 (.r 18) (.r 26)),
  .set 204 (.op .perm31 (.r 19) (.r 27)),
  .set 208 (.op .perm31 (.r 20) (.r 28)),
  .set 212 (.op .perm31 (.r 21) (.r 29)),
  .set 216 (.op .perm31 (.r 22) (.r 30)),
  .set 220 (.op .perm31 (.r 23) (.r 31))] ++
  transpose8 0 8
    291 419 295 423 299 427 303 431
    16 17 18 19 20 21 22 23 ++
  transpose8 0 8
    307 435 311 439 315 443 319 447
    24 25 26 27 28 29 30 31 ++
  [
  .set 224 (.op .perm20 (.r 16) (.r 24)),
  .set 228 (.op .perm20 (.r 17) (.r 25)),
  .set 232 (.op .perm20 (.r 18) (.r 26)),
  .set 236 (.op .perm20 (.r 19) (.r 27)),
  .set 240 (.op .perm20 (.r 20) (.r 28)),
  .set 244 (.op .perm20 (.r 21) (.r 29)),
  .set 248 (.op .perm20 (.r 22) (.r 30)),
  .set 252 (.op .perm20 (.r 23) (.r 31)),
  .set 256 (.op .perm31 (.r 16) (.r 24)),
  .set 260 (.op .perm31 (.r 17) (.r 25)),
  .set 264 (.op .perm31 (.r 18) (.r 26)),
  .set 268 (.op .perm31 (.r 19) (.r 27)),
  .set 272 (.op .perm31 (.r 20) (.r 28)),
  .set 276 (.op .perm31 (.r 21) (.r 29)),
  .set 280 (.op .perm31 (.r 22) (.r 30)),
  .set 284 (.op .perm31 (.r 23) (.r 31))] ++
  transpose8 0 8
    320 448 324 452 328 456 332 460
    16 17 18 19 20 21 22 23 ++
  transpose8 0 8
    336 464 340 468 344 472 348 476
    24 25 26 27 28 29 30 31 ++
  [
  .set 33 (.op .perm20 (.r 16) (.r 24)),
  .set 37 (.op .perm20 (.r 17) (.r 25)),
  .set 41 (.op .perm20 (.r 18) (.r 26)),
  .set 45 (.op .perm20 (.r 19) (.r 27)),
  .set 49 (.op .perm20 (.r 20) (.r 28)),
  .set 53 (.op .perm20 (.r 21) (.r 29))]

/-- source/common/vec/intrinsic_idct_avx2.cc:2056-2061. -/
def wavelet_64x64_avx2_7 : List S := [
  .set 57 (.op .perm20 (.r 22) (.r 30)),
  .set 61 (.op .perm20 (.r 23) (.r 31)),
  .set 65 (.op .perm31 (.r 16) (.r 24)),
  .set 69 (.op .perm31 (.r 17) (.r 25)),
  .set 73 (.op .perm31 (.r 18) (.r 26)),
  .set 77 (.op .perm31 (.r 19) (.r 27)),
  .set 81 (.op .perm31 (.r 20) (.r 28)),
  .set 85 (.op .perm31 (.r 21) (.r 29)),
  .set 89 (.op .perm31 (.r 22) (.r 30)),
  .set 93 (.op .perm31 (.r 23) (.r 31))] ++
  transpose8 0 8
    321 449 325 453 329 457 333 461
    16 17 18 19 20 21 22 23 ++
  transpose8 0 8
    337 465 341 469 345 473 349 477
    24 25 26 27 28 29 30 31 ++
  [
  .set 97 (.op .perm20 (.r 16) (.r 24)),
  .set 101 (.op .perm20 (.r 17) (.r 25)),
  .set 105 (.op .perm20 (.r 18) (.r 26)),
  .set 109 (.op .perm20 (.r 19) (.r 27)),
  .set 113 (.op .perm20 (.r 20) (.r 28)),
  .set 117 (.op .perm20 (.r 21) (.r 29)),
  .set 121 (.op .perm20 (.r 22) (.r 30)),
  .set 125 (.op .perm20 (.r 23) (.r 31)),
  .set 129 (.op .perm31 (.r 16) (.r 24)),
  .set 133 (.op .perm31 (.r 17) (.r 25)),
  .set 137 (.op .perm31 (.r 18) (.r 26)),
  .set 141 (.op .perm31 (.r 19) (.r 27)),
  .set 145 (.op .perm31 (.r 20) (.r 28)),
  .set 149 (.op .perm31 (.r 21) (.r 29)),
  .set 153 (.op .perm31 (.r 22) (.r 30)),
  .set 157 (.op .perm31 (.r 23) (.r 31))] ++
  transpose8 0 8
    322 450 326 454 330 458 334 462
    16 17 18 19 20 21 22 23 ++
  transpose8 0 8
    338 466 342 470 346 474 350 478
    24 25 26 27 28 29 30 31 ++
  [
  .set 161 (.op .perm20 (.r 16) (.r 24)),
  .set 165 (.op .perm20 (.r 17) (.r 25)),
  .set 169 (.op .perm20 (.r 18) (.r 26)),
  .set 173 (.op .perm20 (.r 19) (.r 27)),
  .set 177 (.op .perm20 (.r 20) (.r 28)),
  .set 181 (.op .perm20 (.r 21) (.r 29)),
  .set 185 (.op .perm20 (.r 22) (.r 30)),
  .set 189 (.op .perm20 (.r 23) (.r 31)),
  .set 193 (.op .perm31 (.r 16) (.r 24)),
  .set 197 (.op .perm31 (.r 17) (.r 25)),
  .set 201 (.op .perm31 (.r 18) (.r 26)),
  .set 205 (.op .perm31 (.r 19) (.r 27)),
  .set 209 (.op .perm31 (.r 20) (.r 28)),
  .set 213 (.op .perm31 (.r 21) (.r 29)),
  .set 217 (.op .perm31 (.r 22) (.r 30)),
  .set 221 (.op .perm31 (.r 23) (.r 31))] ++
  transpose8 0 8
    323 451 327 455 331 459 335 463
    16 17 18 19 20 21 22 23 ++
  transpose8 0 8
    339 467 343 471 347 475 351 479
    24 25 26 27 28 29 30 31 ++
  [
  .set 225 (.op .perm20 (.r 16) (.r 24)),
  .set 229 (.op .perm20 (.r 17) (.r 25)),
  .set 233 (.op .perm20 (.r 18) (.r 26)),
  .set 237 (.op .perm20 (.r 19) (.r 27)),
  .set 241 (.op .perm20 (.r 20) (.r 28)),
  .set 245 (.op .perm20 (.r 21) (.r 29)),
  .set 249 (.op .perm20 (.r 22) (.r 30)),
  .set 253 (.op .perm20 (.r 23) (.r 31)),
  .set 257 (.op .perm31 (.r 16) (.r 24)),
  .set 261 (.op .perm31 (.r 17) (.r 25)),
  .set 265 (.op .perm31 (.r 18) (.r 26)),
  .set 269 (.op .perm31 (.r 19) (.r 27)),
  .set 273 (.op .perm31 (.r 20) (.r 28)),
  .set 277 (.op .perm31 (.r 21) (.r 29)),
  .set 281 (.op .perm31 (.r 22) (.r 30)),
  .set 285 (.op .perm31 (.r 23) (.r 31))] ++
  transpose8 0 8
    352 480 356 484 360 488 364 492
    16 17 18 19 20 21 22 23 ++
  transpose8 0 8
    368 496 372 500 376 504 380 508
    24 25 26 27 28 29 30 31 ++
  [
  .set 34 (.op .perm20 (.r 16) (.r 24)),
  .set 38 (.op .perm20 (.r 17) (.r 25)),
  .set 42 (.op .perm20 (.r 18) (.r 26)),
  .set 46 (.op .perm20 (.r 19) (.r 27)),
  .set 50 (.op .perm20 (.r 20) (.r 28)),
  .set 54 (.op .perm20 (.r 21) (.r 29)),
  .set 58 (.op .perm20 (.r 22) (.r 30)),
  .set 62 (.op .perm20 (.r 23) (.r 31)),
  .set 66 (.op .perm31 (.r 16) (.r 24)),
  .set 70 (.op .perm31 (.r 17) (.r 25)),
  .set 74 (.op .perm31 (.r 18) (.r 26)),
  .set 78 (.op .perm31 (.r 19) (.r 27)),
  .set 82 (.op .perm31 (.r 20) (.r 28)),
  .set 86 (.op .perm31 (.r 21) (.r 29))]

/-- source/common/vec/intrinsic_idct_avx2.cc:2061-2067. -/
def wavelet_64x64_avx2_8 : List S := [
  .set 90 (.op .perm31 (.r 22) (.r 30)),
  .set 94 (.op .perm31 (.r 23) (.r 31))] ++
  transpose8 0 8
    353 481 357 485 361 489 365 493
    16 17 18 19 20 21 22 23 ++
  transpose8 0 8
    369 497 373 501 377 505 381 509
    24 25 26 27 28 29 30 31 ++
  [
  .set 98 (.op .perm20 (.r 16) (.r 24)),
  .set 102 (.op .perm20 (.r 17) (.r 25)),
  .set 106 (.op .perm20 (.r 18) (.r 26)),
  .set 110 (.op .perm20 (.r 19) (.r 27)),
  .set 114 (.op .perm20 (.r 20) (.r 28)),
  .set 118 (.op .perm20 (.r 21) (.r 29)),
  .set 122 (.op .perm20 (.r 22) (.r 30)),
  .set 126 (.op .perm20 (.r 23) (.r 31)),
  .set 130 (.op .perm31 (.r 16) (.r 24)),
  .set 134 (.op .perm31 (.r 17) (.r 25)),
  .set 138 (.op .perm31 (.r 18) (.r 26)),
  .set 142 (.op .perm31 (.r 19) (.r 27)),
  .set 146 (.op .perm31 (.r 20) (.r 28)),
  .set 150 (.op .perm31 (.r 21) (.r 29)),
  .set 154 (.op .perm31 (.r 22) (.r 30)),
  .set 158 (.op .perm31 (.r 23) (.r 31))] ++
  transpose8 0 8
    354 482 358 486 362 490 366 494
    16 17 18 19 20 21 22 23 ++
  transpose8 0 8
    370 498 374 502 378 506 382 510
    24 25 26 27 28 29 30 31 ++
  [
  .set 162 (.op .perm20 (.r 16) (.r 24)),
  .set 166 (.op .perm20 (.r 17) (.r 25)),
  .set 170 (.op .perm20 (.r 18) (.r 26)),
  .set 174 (.op .perm20 (.r 19) (.r 27)),
  .set 178 (.op .perm20 (.r 20) (.r 28)),
  .set 182 (.op .perm20 (.r 21) (.r 29)),
  .set 186 (.op .perm20 (.r 22) (.r 30)),
  .set 190 (.op .perm20 (.r 23) (.r 31)),
  .set 194 (.op .perm31 (.r 16) (.r 24)),
  .set 198 (.op .perm31 (.r 17) (.r 25)),
  .set 202 (.op .perm31 (.r 18) (.r 26)),
  .set 206 (.op .perm31 (.r 19) (.r 27)),
  .set 210 (.op .perm31 (.r 20) (.r 28)),
  .set 214 (.op .perm31 (.r 21) (.r 29)),
  .set 218 (.op .perm31 (.r 22) (.r 30)),
  .set 222 (.op .perm31 (.r 23) (.r 31))] ++
  transpose8 0 8
    355 483 359 487 363 491 367 495
    16 17 18 19 20 21 22 23 ++
  transpose8 0 8
    371 499 375 503 379 507 383 511
    24 25 26 27 28 29 30 31 ++
  [
  .set 226 (.op .perm20 (.r 16) (.r 24)),
  .set 230 (.op .perm20 (.r 17) (.r 25)),
  .set 234 (.op .perm20 (.r 18) (.r 26)),
  .set 238 (.op .perm20 (.r 19) (.r 27)),
  .set 242 (.op .perm20 (.r 20) (.r 28)),
  .set 246 (.op .perm20 (.r 21) (.r 29)),
  .set 250 (.op .perm20 (.r 22) (.r 30)),
  .set 254 (.op .perm20 (.r 23) (.r 31)),
  .set 258 (.op .perm31 (.r 16) (.r 24)),
  .set 262 (.op .perm31 (.r 17) (.r 25)),
  .set 266 (.op .perm31 (.r 18) (.r 26)),
  .set 270 (.op .perm31 (.r 19) (.r 27)),
  .set 274 (.op .perm31 (.r 20) (.r 28)),
  .set 278 (.op .perm31 (.r 21) (.r 29)),
  .set 282 (.op .perm31 (.r 22) (.r 30)),
  .set 286 (.op .perm31 (.r 23) (.r 31))] ++
  transpose8 0 8
    384 512 388 516 392 520 396 524
    16 17 18 19 20 21 22 23 ++
  transpose8 0 8
    400 528 404 532 408 536 412 540
    24 25 26 27 28 29 30 31 ++
  [
  .set 35 (.op .perm20 (.r 16) (.r 24)),
  .set 39 (.op .perm20 (.r 17) (.r 25)),
  .set 43 (.op .perm20 (.r 18) (.r 26)),
  .set 47 (.op .perm20 (.r 19) (.r 27)),
  .set 51 (.op .perm20 (.r 20) (.r 28)),
  .set 55 (.op .perm20 (.r 21) (.r 29)),
  .set 59 (.op .perm20 (.r 22) (.r 30)),
  .set 63 (.op .perm20 (.r 23) (.r 31)),
  .set 67 (.op .perm31 (.r 16) (.r 24)),
  .set 71 (.op .perm31 (.r 17) (.r 25)),
  .set 75 (.op .perm31 (.r 18) (.r 26)),
  .set 79 (.op .perm31 (.r 19) (.r 27)),
  .set 83 (.op .perm31 (.r 20) (.r 28)),
  .set 87 (.op .perm31 (.r 21) (.r 29)),
  .set 91 (.op .perm31 (.r 22) (.r 30)),
  .set 95 (.op .perm31 (.r 23) (.r 31))] ++
  transpose8 0 8
    385 513 389 517 393 521 397 525
    16 17 18 19 20 21 22 23 ++
  transpose8 0 8
    401 529 405 533 409 537 413 541
    24 25 26 27 28 29 30 31 ++
  [
  .set 99 (.op .perm20 (.r 16) (.r 24)),
  .set 103 (.op .perm20 (.r 17) (.r 25)),
  .set 107 (.op .perm20 (.r 18) (.r 26)),
  .set 111 (.op .perm20 (.r 19) (.r 27))]

/-- source/common/vec/intrinsic_idct_avx2.cc:2067-2069. -/
def wavelet_64x64_avx2_9 : List S := [
  .set 115 (.op .perm20 (.r 20) (.r 28)),
  .set 119 (.op .perm20 (.r 21) (.r 29)),
  .set 123 (.op .perm20 (.r 22) (.r 30)),
  .set 127 (.op .perm20 (.r 23) (.r 31)),
  .set 131 (.op .perm31 (.r 16) (.r 24)),
  .set 135 (.op .perm31 (.r 17) (.r 25)),
  .set 139 (.op .perm31 (.r 18) (.r 26)),
  .set 143 (.op .perm31 (.r 19) (.r 27)),
  .set 147 (.op .perm31 (.r 20) (.r 28)),
  .set 151 (.op .perm31 (.r 21) (.r 29)),
  .set 155 (.op .perm31 (.r 22) (.r 30)),
  .set 159 (.op .perm31 (.r 23) (.r 31))] ++
  transpose8 0 8
    386 514 390 518 394 522 398 526
    16 17 18 19 20 21 22 23 ++
  transpose8 0 8
    402 530 406 534 410 538 414 542
    24 25 26 27 28 29 30 31 ++
  [
  .set 163 (.op .perm20 (.r 16) (.r 24)),
  .set 167 (.op .perm20 (.r 17) (.r 25)),
  .set 171 (.op .perm20 (.r 18) (.r 26)),
  .set 175 (.op .perm20 (.r 19) (.r 27)),
  .set 179 (.op .perm20 (.r 20) (.r 28)),
  .set 183 (.op .perm20 (.r 21) (.r 29)),
  .set 187 (.op .perm20 (.r 22) (.r 30)),
  .set 191 (.op .perm20 (.r 23) (.r 31)),
  .set 195 (.op .perm31 (.r 16) (.r 24)),
  .set 199 (.op .perm31 (.r 17) (.r 25)),
  .set 203 (.op .perm31 (.r 18) (.r 26)),
  .set 207 (.op .perm31 (.r 19) (.r 27)),
  .set 211 (.op .perm31 (.r 20) (.r 28)),
  .set 215 (.op .perm31 (.r 21) (.r 29)),
  .set 219 (.op .perm31 (.r 22) (.r 30)),
  .set 223 (.op .perm31 (.r 23) (.r 31))] ++
  transpose8 0 8
    387 515 391 519 395 523 399 527
    16 17 18 19 20 21 22 23 ++
  transpose8 0 8
    403 531 407 535 411 539 415 543
    24 25 26 27 28 29 30 31 ++
  [
  .set 227 (.op .perm20 (.r 16) (.r 24)),
  .set 231 (.op .perm20 (.r 17) (.r 25)),
  .set 235 (.op .perm20 (.r 18) (.r 26)),
  .set 239 (.op .perm20 (.r 19) (.r 27)),
  .set 243 (.op .perm20 (.r 20) (.r 28)),
  .set 247 (.op .perm20 (.r 21) (.r 29)),
  .set 251 (.op .perm20 (.r 22) (.r 30)),
  .set 255 (.op .perm20 (.r 23) (.r 31)),
  .set 259 (.op .perm31 (.r 16) (.r 24)),
  .set 263 (.op .perm31 (.r 17) (.r 25)),
  .set 267 (.op .perm31 (.r 18) (.r 26)),
  .set 271 (.op .perm31 (.r 19) (.r 27)),
  .set 275 (.op .perm31 (.r 20) (.r 28)),
  .set 279 (.op .perm31 (.r 21) (.r 29)),
  .set 283 (.op .perm31 (.r 22) (.r 30)),
  .set 287 (.op .perm31 (.r 23) (.r 31))]

/-- source/common/vec/intrinsic_idct_avx2.cc:2073-2137. -/
def wavelet_64x64_avx2_10 (i : Nat) : List S := [
  .st 16 (16 * i) (.r (32 + i)),
  .st 16 (64 + 16 * i) (.r (36 + i)),
  .st 16 (128 + 16 * i) (.r (40 + i)),
  .st 16 (192 + 16 * i) (.r (44 + i)),
  .st 16 (256 + 16 * i) (.r (48 + i)),
  .st 16 (320 + 16 * i) (.r (52 + i)),
  .st 16 (384 + 16 * i) (.r (56 + i)),
  .st 16 (448 + 16 * i) (.r (60 + i)),
  .st 16 (512 + 16 * i) (.r (64 + i)),
  .st 16 (576 + 16 * i) (.r (68 + i)),
  .st 16 (640 + 16 * i) (.r (72 + i)),
  .st 16 (704 + 16 * i) (.r (76 + i)),
  .st 16 (768 + 16 * i) (.r (80 + i)),
  .st 16 (832 + 16 * i) (.r (84 + i)),
  .st 16 (896 + 16 * i) (.r (88 + i)),
  .st 16 (960 + 16 * i) (.r (92 + i)),
  .st 16 (1024 + 16 * i) (.r (96 + i)),
  .st 16 (1088 + 16 * i) (.r (100 + i)),
  .st 16 (1152 + 16 * i) (.r (104 + i)),
  .st 16 (1216 + 16 * i) (.r (108 + i)),
  .st 16 (1280 + 16 * i) (.r (112 + i)),
  .st 16 (1344 + 16 * i) (.r (116 + i)),
  .st 16 (1408 + 16 * i) (.r (120 + i)),
  .st 16 (1472 + 16 * i) (.r (124 + i)),
  .st 16 (1536 + 16 * i) (.r (128 + i)),
  .st 16 (1600 + 16 * i) (.r (132 + i)),
  .st 16 (1664 + 16 * i) (.r (136 + i)),
  .st 16 (1728 + 16 * i) (.r (140 + i)),
  .st 16 (1792 + 16 * i) (.r (144 + i)),
  .st 16 (1856 + 16 * i) (.r (148 + i)),
  .st 16 (1920 + 16 * i) (.r (152 + i)),
  .st 16 (1984 + 16 * i) (.r (156 + i)),
  .st 16 (2048 + 16 * i) (.r (160 + i)),
  .st 16 (2112 + 16 * i) (.r (164 + i)),
  .st 16 (2176 + 16 * i) (.r (168 + i)),
  .st 16 (2240 + 16 * i) (.r (172 + i)),
  .st 16 (2304 + 16 * i) (.r (176 + i)),
  .st 16 (2368 + 16 * i) (.r (180 + i)),
  .st 16 (2432 + 16 * i) (.r (184 + i)),
  .st 16 (2496 + 16 * i) (.r (188 + i)),
  .st 16 (2560 + 16 * i) (.r (192 + i)),
  .st 16 (2624 + 16 * i) (.r (196 + i)),
  .st 16 (2688 + 16 * i) (.r (200 + i)),
  .st 16 (2752 + 16 * i) (.r (204 + i)),
  .st 16 (2816 + 16 * i) (.r (208 + i)),
  .st 16 (2880 + 16 * i) (.r (212 + i)),
  .st 16 (2944 + 16 * i) (.r (216 + i)),
  .st 16 (3008 + 16 * i) (.r (220 + i)),
  .st 16 (3072 + 16 * i) (.r (224 + i)),
  .st 16 (3136 + 16 * i) (.r (228 + i)),
  .st 16 (3200 + 16 * i) (.r (232 + i)),
  .st 16 (3264 + 16 * i) (.r (236 + i)),
  .st 16 (3328 + 16 * i) (.r (240 + i)),
  .st 16 (3392 + 16 * i) (.r (244 + i)),
  .st 16 (3456 + 16 * i) (.r (248 + i)),
  .st 16 (3520 + 16 * i) (.r (252 + i)),
  .st 16 (3584 + 16 * i) (.r (256 + i)),
  .st 16 (3648 + 16 * i) (.r (260 + i)),
  .st 16 (3712 + 16 * i) (.r (264 + i)),
  .st 16 (3776 + 16 * i) (.r (268 + i)),
  .st 16 (3840 + 16 * i) (.r (272 + i)),
  .st 16 (3904 + 16 * i) (.r (276 + i)),
  .st 16 (3968 + 16 * i) (.r (280 + i)),
  .st 16 (4032 + 16 * i) (.r (284 + i))]

/-- `inv_wavelet_64x64_avx2`, source/common/vec/intrinsic_idct_avx2.cc:1906. -/
def wavelet_64x64_avx2 : List S :=
  (rep 2 fun i => wavelet_64x64_avx2_1 i) ++ (rep 4 fun i => wavelet_64x64_avx2_2 i) ++ wavelet_64x64_avx2_3 ++ wavelet_64x64_avx2_4 ++ (rep 4 fun i => wavelet_64x64_avx2_5 i) ++ wavelet_64x64_avx2_6 ++ wavelet_64x64_avx2_7 ++ wavelet_64x64_avx2_8 ++ wavelet_64x64_avx2_9 ++ (rep 4 fun i => wavelet_64x64_avx2_10 i)

/-! ### `inv_wavelet_64x16_avx2`

Registers: 0 tr0_0, 1 tr0_1, 2 tr0_2, 3 tr0_3, 4 tr0_4, 5 tr0_5, 6 tr0_6, 7 tr0_7, 8 tr1_0, 9 tr1_1, 10 tr1_2, 11 tr1_3, 12 tr1_4,
13 tr1_5, 14 tr1_6, 15 tr1_7, 16 t0, 17 t1, 18 t2, 19 t3, 20 t4, 21 t5, 22 t6, 23 t7, 24 t8, 25 t9, 26 t10, 27 t11, 28 t12, 29
t13, 30 t14, 31 t15, 32-35 T00, 36-39 T01, 40-43 T02, 44-47 T03, 48-51 T04, 52-55 T05, 56-59 T06, 60-63 T07, 64-67 T08, 68-71 T09,
72-75 T10, 76-79 T11, 80-83 T12, 84-87 T13, 88-91 T14, 92-95 T15, 96 V00, 97 V01, 98 V02, 99 V03, 100 V04, 101 V05, 102 V06, 103
V07, 104 V08, 105 V09, 106 V10, 107 V11, 108 V12, 109 V13, 110 V14, 111 V15, 112 V16, 113 V17, 114 V18, 115 V19, 116 V20, 117 V21,
118 V22, 119 V23, 120 V24, 121 V25, 122 V26, 123 V27, 124 V28, 125 V29, 126 V30, 127 V31, 128 V32, 129 V33, 130 V34, 131 V35, 132
V36, 133 V37, 134 V38, 135 V39, 136 V40, 137 V41, 138 V42, 139 V43, 140 V44, 141 V45, 142 V46, 143 V47, 144 V48, 145 V49, 146 V50,
147 V51, 148 V52, 149 V53, 150 V54, 151 V55, 152 V56, 153 V57, 154 V58, 155 V59, 156 V60, 157 V61, 158 V62, 159 V63. -/


/-- source/common/vec/intrinsic_idct_avx2.cc:1578-1633. -/
def wavelet_64x16_avx2_1 : List S := [
  .set 32 (.sra16 (.ld 16 0) 1),
  .set 36 (.sra16 (.ld 16 32) 1),
  .set 40 (.sra16 (.ld 16 64) 1),
  .set 44 (.sra16 (.ld 16 96) 1),
  .set 48 (.sra16 (.ld 16 128) 1),
  .set 52 (.sra16 (.ld 16 160) 1),
  .set 56 (.sra16 (.ld 16 192) 1),
  .set 60 (.sra16 (.ld 16 224) 1),
  .set 33 (.sra16 (.ld 16 16) 1),
  .set 37 (.sra16 (.ld 16 48) 1),
  .set 41 (.sra16 (.ld 16 80) 1),
  .set 45 (.sra16 (.ld 16 112) 1),
  .set 49 (.sra16 (.ld 16 144) 1),
  .set 53 (.sra16 (.ld 16 176) 1),
  .set 57 (.sra16 (.ld 16 208) 1),
  .set 61 (.sra16 (.ld 16 240) 1),
  .set 64 (.sra16 (.op .add16 (.r 32) (.r 36)) 1),
  .set 68 (.sra16 (.op .add16 (.r 36) (.r 40)) 1),
  .set 72 (.sra16 (.op .add16 (.r 40) (.r 44)) 1),
  .set 76 (.sra16 (.op .add16 (.r 44) (.r 48)) 1),
  .set 80 (.sra16 (.op .add16 (.r 48) (.r 52)) 1),
  .set 84 (.sra16 (.op .add16 (.r 52) (.r 56)) 1),
  .set 88 (.sra16 (.op .add16 (.r 56) (.r 60)) 1),
  .set 92 (.sra16 (.op .add16 (.r 60) (.r 60)) 1),
  .set 65 (.sra16 (.op .add16 (.r 33) (.r 37)) 1),
  .set 69 (.sra16 (.op .add16 (.r 37) (.r 41)) 1),
  .set 73 (.sra16 (.op .add16 (.r 41) (.r 45)) 1),
  .set 77 (.sra16 (.op .add16 (.r 45) (.r 49)) 1),
  .set 81 (.sra16 (.op .add16 (.r 49) (.r 53)) 1),
  .set 85 (.sra16 (.op .add16 (.r 53) (.r 57)) 1),
  .set 89 (.sra16 (.op .add16 (.r 57) (.r 61)) 1),
  .set 93 (.sra16 (.op .add16 (.r 61) (.r 61)) 1)] ++
  transpose8 0 8
    32 64 36 68 40 72 44 76
    16 17 18 19 20 21 22 23 ++
  transpose8 0 8
    48 80 52 84 56 88 60 92
    24 25 26 27 28 29 30 31 ++
  [
  .set 96 (.op .perm20 (.r 16) (.r 24)),
  .set 97 (.op .perm20 (.r 17) (.r 25)),
  .set 98 (.op .perm20 (.r 18) (.r 26)),
  .set 99 (.op .perm20 (.r 19) (.r 27)),
  .set 100 (.op .perm20 (.r 20) (.r 28)),
  .set 101 (.op .perm20 (.r 21) (.r 29)),
  .set 102 (.op .perm20 (.r 22) (.r 30)),
  .set 103 (.op .perm20 (.r 23) (.r 31)),
  .set 104 (.op .perm31 (.r 16) (.r 24)),
  .set 105 (.op .perm31 (.r 17) (.r 25)),
  .set 106 (.op .perm31 (.r 18) (.r 26)),
  .set 107 (.op .perm31 (.r 19) (.r 27)),
  .set 108 (.op .perm31 (.r 20) (.r 28)),
  .set 109 (.op .perm31 (.r 21) (.r 29)),
  .set 110 (.op .perm31 (.r 22) (.r 30)),
  .set 111 (.op .perm31 (.r 23) (.r 31))] ++
  transpose8 0 8
    33 65 37 69 41 73 45 77
    16 17 18 19 20 21 22 23 ++
  transpose8 0 8
    49 81 53 85 57 89 61 93
    24 25 26 27 28 29 30 31 ++
  [
  .set 112 (.op .perm20 (.r 16) (.r 24)),
  .set 113 (.op .perm20 (.r 17) (.r 25)),
  .set 114 (.op .perm20 (.r 18) (.r 26)),
  .set 115 (.op .perm20 (.r 19) (.r 27)),
  .set 116 (.op .perm20 (.r 20) (.r 28)),
  .set 117 (.op .perm20 (.r 21) (.r 29)),
  .set 118 (.op .perm20 (.r 22) (.r 30)),
  .set 119 (.op .perm20 (.r 23) (.r 31)),
  .set 120 (.op .perm31 (.r 16) (.r 24)),
  .set 121 (.op .perm31 (.r 17) (.r 25)),
  .set 122 (.op .perm31 (.r 18) (.r 26)),
  .set 123 (.op .perm31 (.r 19) (.r 27)),
  .set 124 (.op .perm31 (.r 20) (.r 28)),
  .set 125 (.op .perm31 (.r 21) (.r 29)),
  .set 126 (.op .perm31 (.r 22) (.r 30)),
  .set 127 (.op .perm31 (.r 23) (.r 31)),
  .set 128 (.sra16 (.op .add16 (.r 96) (.r 97)) 1),
  .set 129 (.sra16 (.op .add16 (.r 97) (.r 98)) 1),
  .set 130 (.sra16 (.op .add16 (.r 98) (.r 99)) 1),
  .set 131 (.sra16 (.op .add16 (.r 99) (.r 100)) 1),
  .set 132 (.sra16 (.op .add16 (.r 100) (.r 101)) 1),
  .set 133 (.sra16 (.op .add16 (.r 101) (.r 102)) 1),
  .set 134 (.sra16 (.op .add16 (.r 102) (.r 103)) 1),
  .set 135 (.sra16 (.op .add16 (.r 103) (.r 104)) 1),
  .set 136 (.sra16 (.op .add16 (.r 104) (.r 105)) 1),
  .set 137 (.sra16 (.op .add16 (.r 105) (.r 106)) 1),
  .set 138 (.sra16 (.op .add16 (.r 106) (.r 107)) 1),
  .set 139 (.sra16 (.op .add16 (.r 107) (.r 108)) 1)]

/-- source/common/vec/intrinsic_idct_avx2.cc:1634-1661. -/
def wavelet_64x16_avx2_2 : List S := [
  .set 140 (.sra16 (.op .add16 (.r 108) (.r 109)) 1),
  .set 141 (.sra16 (.op .add16 (.r 109) (.r 110)) 1),
  .set 142 (.sra16 (.op .add16 (.r 110) (.r 111)) 1),
  .set 143 (.sra16 (.op .add16 (.r 111) (.r 112)) 1),
  .set 144 (.sra16 (.op .add16 (.r 112) (.r 113)) 1),
  .set 145 (.sra16 (.op .add16 (.r 113) (.r 114)) 1),
  .set 146 (.sra16 (.op .add16 (.r 114) (.r 115)) 1),
  .set 147 (.sra16 (.op .add16 (.r 115) (.r 116)) 1),
  .set 148 (.sra16 (.op .add16 (.r 116) (.r 117)) 1),
  .set 149 (.sra16 (.op .add16 (.r 117) (.r 118)) 1),
  .set 150 (.sra16 (.op .add16 (.r 118) (.r 119)) 1),
  .set 151 (.sra16 (.op .add16 (.r 119) (.r 120)) 1),
  .set 152 (.sra16 (.op .add16 (.r 120) (.r 121)) 1),
  .set 153 (.sra16 (.op .add16 (.r 121) (.r 122)) 1),
  .set 154 (.sra16 (.op .add16 (.r 122) (.r 123)) 1),
  .set 155 (.sra16 (.op .add16 (.r 123) (.r 124)) 1),
  .set 156 (.sra16 (.op .add16 (.r 124) (.r 125)) 1),
  .set 157 (.sra16 (.op .add16 (.r 125) (.r 126)) 1),
  .set 158 (.sra16 (.op .add16 (.r 126) (.r 127)) 1),
  .set 159 (.sra16 (.op .add16 (.r 127) (.r 127)) 1)] ++
  transpose8 0 8
    96 128 97 129 98 130 99 131
    16 17 18 19 20 21 22 23 ++
  transpose8 0 8
    100 132 101 133 102 134 103 135
    24 25 26 27 28 29 30 31 ++
  [
  .set 32 (.op .perm20 (.r 16) (.r 24)),
  .set 36 (.op .perm20 (.r 17) (.r 25)),
  .set 40 (.op .perm20 (.r 18) (.r 26)),
  .set 44 (.op .perm20 (.r 19) (.r 27)),
  .set 48 (.op .perm20 (.r 20) (.r 28)),
  .set 52 (.op .perm20 (.r 21) (.r 29)),
  .set 56 (.op .perm20 (.r 22) (.r 30)),
  .set 60 (.op .perm20 (.r 23) (.r 31)),
  .set 64 (.op .perm31 (.r 16) (.r 24)),
  .set 68 (.op .perm31 (.r 17) (.r 25)),
  .set 72 (.op .perm31 (.r 18) (.r 26)),
  .set 76 (.op .perm31 (.r 19) (.r 27)),
  .set 80 (.op .perm31 (.r 20) (.r 28)),
  .set 84 (.op .perm31 (.r 21) (.r 29)),
  .set 88 (.op .perm31 (.r 22) (.r 30)),
  .set 92 (.op .perm31 (.r 23) (.r 31))] ++
  transpose8 0 8
    104 136 105 137 106 138 107 139
    16 17 18 19 20 21 22 23 ++
  transpose8 0 8
    108 140 109 141 110 142 111 143
    24 25 26 27 28 29 30 31 ++
  [
  .set 33 (.op .perm20 (.r 16) (.r 24)),
  .set 37 (.op .perm20 (.r 17) (.r 25)),
  .set 41 (.op .perm20 (.r 18) (.r 26)),
  .set 45 (.op .perm20 (.r 19) (.r 27)),
  .set 49 (.op .perm20 (.r 20) (.r 28)),
  .set 53 (.op .perm20 (.r 21) (.r 29)),
  .set 57 (.op .perm20 (.r 22) (.r 30)),
  .set 61 (.op .perm20 (.r 23) (.r 31)),
  .set 65 (.op .perm31 (.r 16) (.r 24)),
  .set 69 (.op .perm31 (.r 17) (.r 25)),
  .set 73 (.op .perm31 (.r 18) (.r 26)),
  .set 77 (.op .perm31 (.r 19) (.r 27)),
  .set 81 (.op .perm31 (.r 20) (.r 28)),
  .set 85 (.op .perm31 (.r 21) (.r 29)),
  .set 89 (.op .perm31 (.r 22) (.r 30)),
  .set 93 (.op .perm31 (.r 23) (.r 31))] ++
  transpose8 0 8
    112 144 113 145 114 146 115 147
    16 17 18 19 20 21 22 23 ++
  transpose8 0 8
    116 148 117 149 118 150 119 151
    24 25 26 27 28 29 30 31 ++
  [
  .set 34 (.op .perm20 (.r 16) (.r 24)),
  .set 38 (.op .perm20 (.r 17) (.r 25)),
  .set 42 (.op .perm20 (.r 18) (.r 26)),
  .set 46 (.op .perm20 (.r 19) (.r 27)),
  .set 50 (.op .perm20 (.r 20) (.r 28)),
  .set 54 (.op .perm20 (.r 21) (.r 29)),
  .set 58 (.op .perm20 (.r 22) (.r 30)),
  .set 62 (.op .perm20 (.r 23) (.r 31)),
  .set 66 (.op .perm31 (.r 16) (.r 24)),
  .set 70 (.op .perm31 (.r 17) (.r 25)),
  .set 74 (.op .perm31 (.r 18) (.r 26)),
  .set 78 (.op .perm31 (.r 19) (.r 27)),
  .set 82 (.op .perm31 (.r 20) (.r 28)),
  .set 86 (.op .perm31 (.r 21) (.r 29)),
  .set 90 (.op .perm31 (.r 22) (.r 30)),
  .set 94 (.op .perm31 (.r 23) (.r 31))] ++
  transpose8 0 8
    120 152 121 153 122 154 123 155
    16 17 18 19 20 21 22 23 ++
  transpose8 0 8
    124 156 125 157 126 158 127 159
    24 25 26 27 28 29 30 31 ++
  [
  .set 35 (.op .perm20 (.r 16) (.r 24)),
  .set 39 (.op .perm20 (.r 17) (.r 25)),
  .set 43 (.op .perm20 (.r 18) (.r 26)),
  .set 47 (.op .perm20 (.r 19) (.r 27))]

/-- source/common/vec/intrinsic_idct_avx2.cc:1661-1661. -/
def wavelet_64x16_avx2_3 : List S := [
  .set 51 (.op .perm20 (.r 20) (.r 28)),
  .set 55 (.op .perm20 (.r 21) (.r 29)),
  .set 59 (.op .perm20 (.r 22) (.r 30)),
  .set 63 (.op .perm20 (.r 23) (.r 31)),
  .set 67 (.op .perm31 (.r 16) (.r 24)),
  .set 71 (.op .perm31 (.r 17) (.r 25)),
  .set 75 (.op .perm31 (.r 18) (.r 26)),
  .set 79 (.op .perm31 (.r 19) (.r 27)),
  .set 83 (.op .perm31 (.r 20) (.r 28)),
  .set 87 (.op .perm31 (.r 21) (.r 29)),
  .set 91 (.op .perm31 (.r 22) (.r 30)),
  .set 95 (.op .perm31 (.r 23) (.r 31))]

/-- source/common/vec/intrinsic_idct_avx2.cc:1665-1680. -/
def wavelet_64x16_avx2_4 (i : Nat) : List S := [
  .st 16 (16 * i) (.r (32 + i)),
  .st 16 (64 + 16 * i) (.r (36 + i)),
  .st 16 (128 + 16 * i) (.r (40 + i)),
  .st 16 (192 + 16 * i) (.r (44 + i)),
  .st 16 (256 + 16 * i) (.r (48 + i)),
  .st 16 (320 + 16 * i) (.r (52 + i)),
  .st 16 (384 + 16 * i) (.r (56 + i)),
  .st 16 (448 + 16 * i) (.r (60 + i)),
  .st 16 (512 + 16 * i) (.r (64 + i)),
  .st 16 (576 + 16 * i) (.r (68 + i)),
  .st 16 (640 + 16 * i) (.r (72 + i)),
  .st 16 (704 + 16 * i) (.r (76 + i)),
  .st 16 (768 + 16 * i) (.r (80 + i)),
  .st 16 (832 + 16 * i) (.r (84 + i)),
  .st 16 (896 + 16 * i) (.r (88 + i)),
  .st 16 (960 + 16 * i) (.r (92 + i))]

/-- `inv_wavelet_64x16_avx2`, source/common/vec/intrinsic_idct_avx2.cc:1562. -/
def wavelet_64x16_avx2 : List S :=
  wavelet_64x16_avx2_1 ++ wavelet_64x16_avx2_2 ++ wavelet_64x16_avx2_3 ++ (rep 4 fun i => wavelet_64x16_avx2_4 i)

/-! ### `inv_wavelet_16x64_avx2`

Registers: 0 tr0_0, 1 tr0_1, 2 tr0_2, 3 tr0_3, 4 tr0_4, 5 tr0_5, 6 tr0_6, 7 tr0_7, 8 tr1_0, 9 tr1_1, 10 tr1_2, 11 tr1_3, 12 tr1_4,
13 tr1_5, 14 tr1_6, 15 tr1_7, 16 t0, 17 t1, 18 t2, 19 t3, 20 t4, 21 t5, 22 t6, 23 t7, 24 t8, 25 t9, 26 t10, 27 t11, 28 t12, 29
t13, 30 t14, 31 t15, 32 S00, 33 S01, 34 S02, 35 S03, 36 S04, 37 S05, 38 S06, 39 S07, 40 S08, 41 S09, 42 S10, 43 S11, 44 S12, 45
S13, 46 S14, 47 S15, 48 S16, 49 S17, 50 S18, 51 S19, 52 S20, 53 S21, 54 S22, 55 S23, 56 S24, 57 S25, 58 S26, 59 S27, 60 S28, 61
S29, 62 S30, 63 S31, 64 S32, 65 S33, 66 S34, 67 S35, 68 S36, 69 S37, 70 S38, 71 S39, 72 S40, 73 S41, 74 S42, 75 S43, 76 S44, 77
S45, 78 S46, 79 S47, 80 S48, 81 S49, 82 S50, 83 S51, 84 S52, 85 S53, 86 S54, 87 S55, 88 S56, 89 S57, 90 S58, 91 S59, 92 S60, 93
S61, 94 S62, 95 S63, 96-103 TT00, 104-111 TT01, 112-119 TT02, 120-127 TT03, 128-135 TT04, 136-143 TT05, 144-151 TT06, 152-159
TT07, 160-163 T00, 164-167 T01, 168-171 T02, 172-175 T03, 176-179 T04, 180-183 T05, 184-187 T06, 188-191 T07, 192-195 T08, 196-199
T09, 200-203 T10, 204-207 T11, 208-211 T12, 212-215 T13, 216-219 T14, 220-223 T15, 224 V00, 225 V01, 226 V02, 227 V03, 228 V04,
229 V05, 230 V06, 231 V07, 232 V08, 233 V09, 234 V10, 235 V11, 236 V12, 237 V13, 238 V14, 239 V15, 240 V16, 241 V17, 242 V18, 243
V19, 244 V20, 245 V21, 246 V22, 247 V23, 248 V24, 249 V25, 250 V26, 251 V27, 252 V28, 253 V29, 254 V30, 255 V31, 256 V32, 257 V33,
258 V34, 259 V35, 260 V36, 261 V37, 262 V38, 263 V39, 264 V40, 265 V41, 266 V42, 267 V43, 268 V44, 269 V45, 270 V46, 271 V47, 272
V48, 273 V49, 274 V50, 275 V51, 276 V52, 277 V53, 278 V54, 279 V55, 280 V56, 281 V57, 282 V58, 283 V59, 284 V60, 285 V61, 286 V62,
287 V63. -/


/-- source/common/vec/intrinsic_idct_avx2.cc:1706-1791. -/
def wavelet_16x64_avx2_1 : List S := [
  .set 32 (.sra16 (.ld 16 0) 1),
  .set 33 (.sra16 (.ld 16 8) 1),
  .set 34 (.sra16 (.ld 16 16) 1),
  .set 35 (.sra16 (.ld 16 24) 1),
  .set 36 (.sra16 (.ld 16 32) 1),
  .set 37 (.sra16 (.ld 16 40) 1),
  .set 38 (.sra16 (.ld 16 48) 1),
  .set 39 (.sra16 (.ld 16 56) 1),
  .set 40 (.sra16 (.ld 16 64) 1),
  .set 41 (.sra16 (.ld 16 72) 1),
  .set 42 (.sra16 (.ld 16 80) 1),
  .set 43 (.sra16 (.ld 16 88) 1),
  .set 44 (.sra16 (.ld 16 96) 1),
  .set 45 (.sra16 (.ld 16 104) 1),
  .set 46 (.sra16 (.ld 16 112) 1),
  .set 47 (.sra16 (.ld 16 120) 1),
  .set 48 (.sra16 (.ld 16 128) 1),
  .set 49 (.sra16 (.ld 16 136) 1),
  .set 50 (.sra16 (.ld 16 144) 1),
  .set 51 (.sra16 (.ld 16 152) 1),
  .set 52 (.sra16 (.ld 16 160) 1),
  .set 53 (.sra16 (.ld 16 168) 1),
  .set 54 (.sra16 (.ld 16 176) 1),
  .set 55 (.sra16 (.ld 16 184) 1),
  .set 56 (.sra16 (.ld 16 192) 1),
  .set 57 (.sra16 (.ld 16 200) 1),
  .set 58 (.sra16 (.ld 16 208) 1),
  .set 59 (.sra16 (.ld 16 216) 1),
  .set 60 (.sra16 (.ld 16 224) 1),
  .set 61 (.sra16 (.ld 16 232) 1),
  .set 62 (.sra16 (.ld 16 240) 1),
  .set 63 (.sra16 (.ld 16 248) 1),
  .set 64 (.sra16 (.op .add16 (.r 32) (.r 33)) 1),
  .set 65 (.sra16 (.op .add16 (.r 33) (.r 34)) 1),
  .set 66 (.sra16 (.op .add16 (.r 34) (.r 35)) 1),
  .set 67 (.sra16 (.op .add16 (.r 35) (.r 36)) 1),
  .set 68 (.sra16 (.op .add16 (.r 36) (.r 37)) 1),
  .set 69 (.sra16 (.op .add16 (.r 37) (.r 38)) 1),
  .set 70 (.sra16 (.op .add16 (.r 38) (.r 39)) 1),
  .set 71 (.sra16 (.op .add16 (.r 39) (.r 40)) 1),
  .set 72 (.sra16 (.op .add16 (.r 40) (.r 41)) 1),
  .set 73 (.sra16 (.op .add16 (.r 41) (.r 42)) 1),
  .set 74 (.sra16 (.op .add16 (.r 42) (.r 43)) 1),
  .set 75 (.sra16 (.op .add16 (.r 43) (.r 44)) 1),
  .set 76 (.sra16 (.op .add16 (.r 44) (.r 45)) 1),
  .set 77 (.sra16 (.op .add16 (.r 45) (.r 46)) 1),
  .set 78 (.sra16 (.op .add16 (.r 46) (.r 47)) 1),
  .set 79 (.sra16 (.op .add16 (.r 47) (.r 48)) 1),
  .set 80 (.sra16 (.op .add16 (.r 48) (.r 49)) 1),
  .set 81 (.sra16 (.op .add16 (.r 49) (.r 50)) 1),
  .set 82 (.sra16 (.op .add16 (.r 50) (.r 51)) 1),
  .set 83 (.sra16 (.op .add16 (.r 51) (.r 52)) 1),
  .set 84 (.sra16 (.op .add16 (.r 52) (.r 53)) 1),
  .set 85 (.sra16 (.op .add16 (.r 53) (.r 54)) 1),
  .set 86 (.sra16 (.op .add16 (.r 54) (.r 55)) 1),
  .set 87 (.sra16 (.op .add16 (.r 55) (.r 56)) 1),
  .set 88 (.sra16 (.op .add16 (.r 56) (.r 57)) 1),
  .set 89 (.sra16 (.op .add16 (.r 57) (.r 58)) 1),
  .set 90 (.sra16 (.op .add16 (.r 58) (.r 59)) 1),
  .set 91 (.sra16 (.op .add16 (.r 59) (.r 60)) 1),
  .set 92 (.sra16 (.op .add16 (.r 60) (.r 61)) 1),
  .set 93 (.sra16 (.op .add16 (.r 61) (.r 62)) 1),
  .set 94 (.sra16 (.op .add16 (.r 62) (.r 63)) 1),
  .set 95 (.sra16 (.op .add16 (.r 63) (.r 63)) 1)] ++
  transpose8 0 8
    32 64 33 65 34 66 35 67
    96 104 112 120 128 136 144 152 ++
  transpose8 0 8
    36 68 37 69 38 70 39 71
    97 105 113 121 129 137 145 153 ++
  transpose8 0 8
    40 72 41 73 42 74 43 75
    98 106 114 122 130 138 146 154 ++
  transpose8 0 8
    44 76 45 77 46 78 47 79
    99 107 115 123 131 139 147 155 ++
  transpose8 0 8
    48 80 49 81 50 82 51 83
    100 108 116 124 132 140 148 156 ++
  transpose8 0 8
    52 84 53 85 54 86 55 87
    101 109 117 125 133 141 149 157 ++
  transpose8 0 8
    56 88 57 89 58 90 59 91
    102 110 118 126 134 142 150 158 ++
  transpose8 0 8
    60 92 61 93 62 94 63 95
    103 111 119 127 135 143 151 159 ++
  [
  .set 160 (.op .perm20 (.r 96) (.r 97)),
  .set 161 (.op .perm20 (.r 98) (.r 99)),
  .set 162 (.op .perm20 (.r 100) (.r 101)),
  .set 163 (.op .perm20 (.r 102) (.r 103)),
  .set 164 (.op .perm20 (.r 104) (.r 105)),
  .set 165 (.op .perm20 (.r 106) (.r 107)),
  .set 166 (.op .perm20 (.r 108) (.r 109)),
  .set 167 (.op .perm20 (.r 110) (.r 111))]

/-- source/common/vec/intrinsic_idct_avx2.cc:1792-1816. -/
def wavelet_16x64_avx2_2 : List S := [
  .set 168 (.op .perm20 (.r 112) (.r 113)),
  .set 169 (.op .perm20 (.r 114) (.r 115)),
  .set 170 (.op .perm20 (.r 116) (.r 117)),
  .set 171 (.op .perm20 (.r 118) (.r 119)),
  .set 172 (.op .perm20 (.r 120) (.r 121)),
  .set 173 (.op .perm20 (.r 122) (.r 123)),
  .set 174 (.op .perm20 (.r 124) (.r 125)),
  .set 175 (.op .perm20 (.r 126) (.r 127)),
  .set 176 (.op .perm20 (.r 128) (.r 129)),
  .set 177 (.op .perm20 (.r 130) (.r 131)),
  .set 178 (.op .perm20 (.r 132) (.r 133)),
  .set 179 (.op .perm20 (.r 134) (.r 135)),
  .set 180 (.op .perm20 (.r 136) (.r 137)),
  .set 181 (.op .perm20 (.r 138) (.r 139)),
  .set 182 (.op .perm20 (.r 140) (.r 141)),
  .set 183 (.op .perm20 (.r 142) (.r 143)),
  .set 184 (.op .perm20 (.r 144) (.r 145)),
  .set 185 (.op .perm20 (.r 146) (.r 147)),
  .set 186 (.op .perm20 (.r 148) (.r 149)),
  .set 187 (.op .perm20 (.r 150) (.r 151)),
  .set 188 (.op .perm20 (.r 152) (.r 153)),
  .set 189 (.op .perm20 (.r 154) (.r 155)),
  .set 190 (.op .perm20 (.r 156) (.r 157)),
  .set 191 (.op .perm20 (.r 158) (.r 159))]

/-- source/common/vec/intrinsic_idct_avx2.cc:1820-1827. -/
def wavelet_16x64_avx2_3 (i : Nat) : List S := [
  .set (192 + i) (.sra16 (.op .add16 (.r (160 + i)) (.r (164 + i))) 1),
  .set (196 + i) (.sra16 (.op .add16 (.r (164 + i)) (.r (168 + i))) 1),
  .set (200 + i) (.sra16 (.op .add16 (.r (168 + i)) (.r (172 + i))) 1),
  .set (204 + i) (.sra16 (.op .add16 (.r (172 + i)) (.r (176 + i))) 1),
  .set (208 + i) (.sra16 (.op .add16 (.r (176 + i)) (.r (180 + i))) 1),
  .set (212 + i) (.sra16 (.op .add16 (.r (180 + i)) (.r (184 + i))) 1),
  .set (216 + i) (.sra16 (.op .add16 (.r (184 + i)) (.r (188 + i))) 1),
  .set (220 + i) (.sra16 (.op .add16 (.r (188 + i)) (.r (188 + i))) 1)]

/-- source/common/vec/intrinsic_idct_avx2.cc:1832-1846. -/
def wavelet_16x64_avx2_4 : List S := transpose8 0 8
    160 192 164 196 168 200 172 204
    16 17 18 19 20 21 22 23 ++
  transpose8 0 8
    176 208 180 212 184 216 188 220
    24 25 26 27 28 29 30 31 ++
  [
  .set 224 (.op .perm20 (.r 16) (.r 24)),
  .set 225 (.op .perm20 (.r 17) (.r 25)),
  .set 226 (.op .perm20 (.r 18) (.r 26)),
  .set 227 (.op .perm20 (.r 19) (.r 27)),
  .set 228 (.op .perm20 (.r 20) (.r 28)),
  .set 229 (.op .perm20 (.r 21) (.r 29)),
  .set 230 (.op .perm20 (.r 22) (.r 30)),
  .set 231 (.op .perm20 (.r 23) (.r 31)),
  .set 232 (.op .perm31 (.r 16) (.r 24)),
  .set 233 (.op .perm31 (.r 17) (.r 25)),
  .set 234 (.op .perm31 (.r 18) (.r 26)),
  .set 235 (.op .perm31 (.r 19) (.r 27)),
  .set 236 (.op .perm31 (.r 20) (.r 28)),
  .set 237 (.op .perm31 (.r 21) (.r 29)),
  .set 238 (.op .perm31 (.r 22) (.r 30)),
  .set 239 (.op .perm31 (.r 23) (.r 31))] ++
  transpose8 0 8
    161 193 165 197 169 201 173 205
    16 17 18 19 20 21 22 23 ++
  transpose8 0 8
    177 209 181 213 185 217 189 221
    24 25 26 27 28 29 30 31 ++
  [
  .set 240 (.op .perm20 (.r 16) (.r 24)),
  .set 241 (.op .perm20 (.r 17) (.r 25)),
  .set 242 (.op .perm20 (.r 18) (.r 26)),
  .set 243 (.op .perm20 (.r 19) (.r 27)),
  .set 244 (.op .perm20 (.r 20) (.r 28)),
  .set 245 (.op .perm20 (.r 21) (.r 29)),
  .set 246 (.op .perm20 (.r 22) (.r 30)),
  .set 247 (.op .perm20 (.r 23) (.r 31)),
  .set 248 (.op .perm31 (.r 16) (.r 24)),
  .set 249 (.op .perm31 (.r 17) (.r 25)),
  .set 250 (.op .perm31 (.r 18) (.r 26)),
  .set 251 (.op .perm31 (.r 19) (.r 27)),
  .set 252 (.op .perm31 (.r 20) (.r 28)),
  .set 253 (.op .perm31 (.r 21) (.r 29)),
  .set 254 (.op .perm31 (.r 22) (.r 30)),
  .set 255 (.op .perm31 (.r 23) (.r 31))] ++
  transpose8 0 8
    162 194 166 198 170 202 174 206
    16 17 18 19 20 21 22 23 ++
  transpose8 0 8
    178 210 182 214 186 218 190 222
    24 25 26 27 28 29 30 31 ++
  [
  .set 256 (.op .perm20 (.r 16) (.r 24)),
  .set 257 (.op .perm20 (.r 17) (.r 25)),
  .set 258 (.op .perm20 (.r 18) (.r 26)),
  .set 259 (.op .perm20 (.r 19) (.r 27)),
  .set 260 (.op .perm20 (.r 20) (.r 28)),
  .set 261 (.op .perm20 (.r 21) (.r 29)),
  .set 262 (.op .perm20 (.r 22) (.r 30)),
  .set 263 (.op .perm20 (.r 23) (.r 31)),
  .set 264 (.op .perm31 (.r 16) (.r 24)),
  .set 265 (.op .perm31 (.r 17) (.r 25)),
  .set 266 (.op .perm31 (.r 18) (.r 26)),
  .set 267 (.op .perm31 (.r 19) (.r 27)),
  .set 268 (.op .perm31 (.r 20) (.r 28)),
  .set 269 (.op .perm31 (.r 21) (.r 29)),
  .set 270 (.op .perm31 (.r 22) (.r 30)),
  .set 271 (.op .perm31 (.r 23) (.r 31))] ++
  transpose8 0 8
    163 195 167 199 171 203 175 207
    16 17 18 19 20 21 22 23 ++
  transpose8 0 8
    179 211 183 215 187 219 191 223
    24 25 26 27 28 29 30 31 ++
  [
  .set 272 (.op .perm20 (.r 16) (.r 24)),
  .set 273 (.op .perm20 (.r 17) (.r 25)),
  .set 274 (.op .perm20 (.r 18) (.r 26)),
  .set 275 (.op .perm20 (.r 19) (.r 27)),
  .set 276 (.op .perm20 (.r 20) (.r 28)),
  .set 277 (.op .perm20 (.r 21) (.r 29)),
  .set 278 (.op .perm20 (.r 22) (.r 30)),
  .set 279 (.op .perm20 (.r 23) (.r 31)),
  .set 280 (.op .perm31 (.r 16) (.r 24)),
  .set 281 (.op .perm31 (.r 17) (.r 25)),
  .set 282 (.op .perm31 (.r 18) (.r 26)),
  .set 283 (.op .perm31 (.r 19) (.r 27)),
  .set 284 (.op .perm31 (.r 20) (.r 28)),
  .set 285 (.op .perm31 (.r 21) (.r 29)),
  .set 286 (.op .perm31 (.r 22) (.r 30)),
  .set 287 (.op .perm31 (.r 23) (.r 31)),
  .st 16 0 (.r 224),
  .st 16 16 (.r 225),
  .st 16 32 (.r 226),
  .st 16 48 (.r 227),
  .st 16 64 (.r 228),
  .st 16 80 (.r 229),
  .st 16 96 (.r 230),
  .st 16 112 (.r 231)]

/-- source/common/vec/intrinsic_idct_avx2.cc:1847-1902. -/
def wavelet_16x64_avx2_5 : List S := [
  .st 16 128 (.r 232),
  .st 16 144 (.r 233),
  .st 16 160 (.r 234),
  .st 16 176 (.r 235),
  .st 16 192 (.r 236),
  .st 16 208 (.r 237),
  .st 16 224 (.r 238),
  .st 16 240 (.r 239),
  .st 16 256 (.r 240),
  .st 16 272 (.r 241),
  .st 16 288 (.r 242),
  .st 16 304 (.r 243),
  .st 16 320 (.r 244),
  .st 16 336 (.r 245),
  .st 16 352 (.r 246),
  .st 16 368 (.r 247),
  .st 16 384 (.r 248),
  .st 16 400 (.r 249),
  .st 16 416 (.r 250),
  .st 16 432 (.r 251),
  .st 16 448 (.r 252),
  .st 16 464 (.r 253),
  .st 16 480 (.r 254),
  .st 16 496 (.r 255),
  .st 16 512 (.r 256),
  .st 16 528 (.r 257),
  .st 16 544 (.r 258),
  .st 16 560 (.r 259),
  .st 16 576 (.r 260),
  .st 16 592 (.r 261),
  .st 16 608 (.r 262),
  .st 16 624 (.r 263),
  .st 16 640 (.r 264),
  .st 16 656 (.r 265),
  .st 16 672 (.r 266),
  .st 16 688 (.r 267),
  .st 16 704 (.r 268),
  .st 16 720 (.r 269),
  .st 16 736 (.r 270),
  .st 16 752 (.r 271),
  .st 16 768 (.r 272),
  .st 16 784 (.r 273),
  .st 16 800 (.r 274),
  .st 16 816 (.r 275),
  .st 16 832 (.r 276),
  .st 16 848 (.r 277),
  .st 16 864 (.r 278),
  .st 16 880 (.r 279),
  .st 16 896 (.r 280),
  .st 16 912 (.r 281),
  .st 16 928 (.r 282),
  .st 16 944 (.r 283),
  .st 16 960 (.r 284),
  .st 16 976 (.r 285),
  .st 16 992 (.r 286),
  .st 16 1008 (.r 287)]

/-- `inv_wavelet_16x64_avx2`, source/common/vec/intrinsic_idct_avx2.cc:1685. -/
def wavelet_16x64_avx2 : List S :=
  wavelet_16x64_avx2_1 ++ wavelet_16x64_avx2_2 ++ (rep 4 fun i => wavelet_16x64_avx2_3 i) ++ wavelet_16x64_avx2_4 ++ wavelet_16x64_avx2_5

end Davs2.Si
