import Verif.Lemmas.SgTable.Ops
import Verif.Model.SgTable.T17

/-! Written by tools/gen_sgtable.py. Lines 6454 to 6891. -/

namespace Systre.Sg.Data
set_option maxRecDepth 1000000
set_option maxHeartbeats 0

noncomputable def s536 : Setting := ⟨chars! "Pn-3n:2", 3, t0, q! "24 0 0 0 0 24 0 0 0 0 24 0", trs! "0 241 10 242 103 278 92 286 28 898 508 899 493 900 502 458 27 496 901 505 457 514 902 903 25 243 98 244 104 316 93 321 395 904 538 905 539 906 540 460 396 541 907 542 459 543 908 909", gens! "395 1700880435319979619474575850800208193490919634115984828181108745515940872023732277485089706455178238296249625488928 40;241 6950291388432974399300651185952310096591862678560467374502853714922632270103609441270736628722897239799732877066753 3", words! ";1;1 1;0 1 0;0 0 1 0 0 1;0 0 1 0 0;1 0 0 1 0 0;1 1 0 0 1 0 0;0 0 0 0;1 0 0 0 0;1 1 0 0 0 0;0 1 1 0 1;0 1 1 0 0 0;0 0 1;1 0 0 1;1 1 0 0 1;0 0;0 1 1 0;1 0 1 1 0;0 0 1 1;1 0 0 1 1;1 1 0 0;0 1 0 0 0;1 0 0;0 0 0;1 0 0 0;1 1 0 0 0;0 1 0 0 0 0;0 1 1 0 0;1 0 1 1 0 0;0 0 1 1 0;1 0 0 1 1 0;0;1 0;1 1 0;0 1 0 0;0 1 1;1 0 1 1;1 1 0 1 1;0 1 0 0 1 1;1 0 1;0 1 1 0 0 0 0;0 0 1 0;1 0 0 1 0;1 1 0 0 1 0;0 1 0 0 1;0 1;1 1 0 1", false⟩
noncomputable def s537 : Setting := ⟨chars! "Pn-3n:1", 3, t166, q! "24 0 0 -6 0 24 0 -6 0 0 24 -6", trs! "0 11 2 12 29 269 26 270 28 41 485 668 486 669 487 416 27 488 670 489 415 490 671 34 88 237 65 238 67 294 62 295 544 824 545 825 546 826 547 436 548 549 827 550 435 551 828 829", gens! "544 1700880435319979619474575850800208193490919634115984828181108745515940872023732277485089706455178238296249625488928 40;11 6950291388432974399300651185952310096591862678560467374502853714922632270103609441270736628722897239799732877066753 3", words! ";1;1 1;0 1 0;0 0 1 0 0 1;0 0 1 0 0;1 0 0 1 0 0;1 1 0 0 1 0 0;0 0 0 0;1 0 0 0 0;1 1 0 0 0 0;0 1 1 0 1;0 1 1 0 0 0;0 0 1;1 0 0 1;1 1 0 0 1;0 0;0 1 1 0;1 0 1 1 0;0 0 1 1;1 0 0 1 1;1 1 0 0;0 1 0 0 0;1 0 0;0 0 0;1 0 0 0;1 1 0 0 0;0 1 0 0 0 0;0 1 1 0 0;1 0 1 1 0 0;0 0 1 1 0;1 0 0 1 1 0;0;1 0;1 1 0;0 1 0 0;0 1 1;1 0 1 1;1 1 0 1 1;0 1 0 0 1 1;1 0 1;0 1 1 0 0 0 0;0 0 1 0;1 0 0 1 0;1 1 0 0 1 0;0 1 0 0 1;0 1;1 1 0 1", false⟩
noncomputable def b240 : Block := ⟨s536, [⟨s537, nats! "32 1 0 0 0", nats! "32 1 0 0 0"⟩]⟩
noncomputable def s538 : Setting := ⟨chars! "Pm-3n", 3, t0, q! "24 0 0 0 0 24 0 0 0 0 24 0", trs! "0 228 2 229 29 285 26 286 28 672 485 673 486 674 487 458 27 488 675 489 457 490 676 677 25 332 50 333 1 323 6 321 395 910 532 911 533 912 534 460 396 535 913 536 459 537 914 915", gens! "395 1700880435319979619474575850800208193490919634115984828181108745515940872023732277485089706455178238296249625488928 40;228 6950291388432974399300651185952310096591862678560467374502853714922632270103609441270736628722897239799732877066753 3", words! ";1;1 1;0 1 0;0 0 1 0 0 1;0 0 1 0 0;1 0 0 1 0 0;1 1 0 0 1 0 0;0 0 0 0;1 0 0 0 0;1 1 0 0 0 0;0 1 1 0 1;0 1 1 0 0 0;0 0 1;1 0 0 1;1 1 0 0 1;0 0;0 1 1 0;1 0 1 1 0;0 0 1 1;1 0 0 1 1;1 1 0 0;0 1 0 0 0;1 0 0;0 0 0;1 0 0 0;1 1 0 0 0;0 1 0 0 0 0;0 1 1 0 0;1 0 1 1 0 0;0 0 1 1 0;1 0 0 1 1 0;0;1 0;1 1 0;0 1 0 0;0 1 1;1 0 1 1;1 1 0 1 1;0 1 0 0 1 1;1 0 1;0 1 1 0 0 0 0;0 0 1 0;1 0 0 1 0;1 1 0 0 1 0;0 1 0 0 1;0 1;1 1 0 1", false⟩
noncomputable def b241 : Block := ⟨s538, []⟩
noncomputable def s539 : Setting := ⟨chars! "Pn-3m:2", 3, t0, q! "24 0 0 0 0 24 0 0 0 0 24 0", trs! "0 248 10 249 103 308 92 270 28 680 508 691 493 700 502 416 27 496 702 505 415 514 696 687 25 250 98 251 104 322 93 13 395 916 538 917 539 918 540 428 396 541 919 542 427 543 920 921", gens! "395 1700880435319979619474575850800208193490919634115984828181108745515940872023732277485089706455178238296249625488928 40;248 6950291388432974399300651185952310096591862678560467374502853714922632270103609441270736628722897239799732877066753 3", words! ";1;1 1;0 1 0;0 0 1 0 0 1;0 0 1 0 0;1 0 0 1 0 0;1 1 0 0 1 0 0;0 0 0 0;1 0 0 0 0;1 1 0 0 0 0;0 1 1 0 1;0 1 1 0 0 0;0 0 1;1 0 0 1;1 1 0 0 1;0 0;0 1 1 0;1 0 1 1 0;0 0 1 1;1 0 0 1 1;1 1 0 0;0 1 0 0 0;1 0 0;0 0 0;1 0 0 0;1 1 0 0 0;0 1 0 0 0 0;0 1 1 0 0;1 0 1 1 0 0;0 0 1 1 0;1 0 0 1 1 0;0;1 0;1 1 0;0 1 0 0;0 1 1;1 0 1 1;1 1 0 1 1;0 1 0 0 1 1;1 0 1;0 1 1 0 0 0 0;0 0 1 0;1 0 0 1 0;1 1 0 0 1 0;0 1 0 0 1;0 1;1 1 0 1", false⟩
noncomputable def s540 : Setting := ⟨chars! "Pn-3m:1", 3, t252, q! "24 0 0 6 0 24 0 6 0 0 24 6", trs! "0 228 2 229 29 285 26 286 28 672 485 673 486 674 487 458 27 488 675 489 457 490 676 677 88 235 65 236 67 14 62 13 544 786 545 787 546 788 547 428 548 549 789 550 427 551 790 791", gens! "544 1700880435319979619474575850800208193490919634115984828181108745515940872023732277485089706455178238296249625488928 40;228 6950291388432974399300651185952310096591862678560467374502853714922632270103609441270736628722897239799732877066753 3", words! ";1;1 1;0 1 0;0 0 1 0 0 1;0 0 1 0 0;1 0 0 1 0 0;1 1 0 0 1 0 0;0 0 0 0;1 0 0 0 0;1 1 0 0 0 0;0 1 1 0 1;0 1 1 0 0 0;0 0 1;1 0 0 1;1 1 0 0 1;0 0;0 1 1 0;1 0 1 1 0;0 0 1 1;1 0 0 1 1;1 1 0 0;0 1 0 0 0;1 0 0;0 0 0;1 0 0 0;1 1 0 0 0;0 1 0 0 0 0;0 1 1 0 0;1 0 1 1 0 0;0 0 1 1 0;1 0 0 1 1 0;0;1 0;1 1 0;0 1 0 0;0 1 1;1 0 1 1;1 1 0 1 1;0 1 0 0 1 1;1 0 1;0 1 1 0 0 0 0;0 0 1 0;1 0 0 1 0;1 1 0 0 1 0;0 1 0 0 1;0 1;1 1 0 1", false⟩
noncomputable def b242 : Block := ⟨s539, [⟨s540, nats! "32 1 0 0 0", nats! "32 1 0 0 0"⟩]⟩
noncomputable def s541 : Setting := ⟨chars! "Fm-3m", 3, t0, q! "24 0 0 0 0 24 0 0 0 0 24 0", trs! "0 11 2 12 29 269 26 270 28 41 485 668 486 669 487 416 27 488 670 489 415 490 671 34 25 235 50 236 1 14 6 13 395 786 532 787 533 788 534 428 396 535 789 536 427 537 790 791 35 248 40 327 103 678 36 679 491 680 492 681 493 682 494 683 495 496 684 497 685 498 686 687 87 792 63 793 59 794 61 795 552 796 553 797 554 798 555 799 556 557 800 558 801 559 802 803 42 326 43 249 46 688 92 689 499 690 500 691 501 692 502 693 503 504 694 505 695 506 696 697 89 804 64 805 66 806 53 807 560 808 561 809 562 810 563 811 564 565 812 566 813 567 814 815 4 246 10 247 47 308 33 309 507 698 508 699 509 700 510 701 511 512 702 513 703 514 704 705 86 319 56 320 5 16 9 15 568 816 569 817 570 818 571 819 572 573 820 574 821 575 822 823", gens! "395 557752683612470332953622967413523823281557738556591814963296006586378046006806956736400393711024842916292163009002733464098335522144571105180050145994736413596513896796268911589907146188009400207306584011461628656095989271351129578051569368150161660571433338494931648547137259583841782915406555209086139706340156051975941275377326076848610135299388115360027367299810903454450618802819328582795247594924274345030958024958216973658842298351581375229581572947848736 40;327 1285684860617725108483961693626768688409035732623896318731920510574375486282344941677575996177104912421187149425912148438252045661884388189559958522271167227632337357979234276815344960262429938163929030895185926610959486935833324080290300820484960369564672843999353460088341298802245949744673585998595539709903887120101269593157580774812088029540872857229290528809208658650498716090159153902873401503527232186572974294731749478176346291661907157151028190737674291 97", words! ";1 1 0 1 1 1 0;1 1 0 1 0 0 1 0;1 1 0 0 1 0 0;1 0 1 0;1 0 0 1 1 0 0 0 0;0 1 0 1;1 0 1 1 1 0 0 1 0;0 0 0 0;0 1 0 0 1 1 0 0 0;0 0 1 0 1 0 0 0;1 1 0 0 1;1 0 1 0 0 0 0 0;1 0 0 1 1 0 0;1 0 1 1 0 1;1 1 0 1 0 1 0 0 1;0 0;1 0 1 0 0 0;1 0 0 1 1;0 1 0 1 0 0;1 0 0 1 1 1 0 1 0;0 0 1 0 1 0;1 1 0 0 1 0 0 0 0;0 1 0 0 1 1 0;0 0 0;0 1 0 0 1 1 0 0;0 0 1 0 1 0 0;1 1 0 0 1 0 0 0 0 0;1 0 1 0 0 0 0;1 0 0 1 1 0;0 1 0 1 0 0 0;1 0 0 1 1 1 0 1 0 0;0;0 1 0 0 1 1;0 0 1 0 1;1 1 0 0 1 0 0 0;1 0 1 0 0;1 1 1 0 1 1;0 1 0 1 0;1 0 0 1 1 1 0 1;0 0 0 0 0;1 0 1;1 0 0 1 1 0 0 0;1 0 1 1 0 1 0;1 0 1 1 1 0 0 1;1 1 0 1 0 0 1;1 1 0 0 1 0;1 1 0 1 1 1;0 0 1 0 0 1;1 1 1 0 1 0 0 1 0;0 1 1 1 0 1;1;0 1 1 0 0 0 0 0;1 0 1 0 1;0 1 0 0 1 1 1 0;1 1 0 1 0;0 0 1 0 0 1 0 0 0 0;1 0 0 1 0 1 0 0 0;1 1 1 0 0 1;1 0 0 0 0;0 1 1 0 0 0;0 0 1 1 1;0 1 1 0 1 0 1 0 0 0;1 1 0 1 0 0 0 0 0;0 0 1 0 0 1 0 0;0 1 1 0;1 0 1 0 1 0 0;0 1 1 0 1 0 1 0;1 1 0 1 0 0 0;0 1 1 1 0 1 0 0;1 0 0;1 0 0 1 0 1 0;0 0 1 0 0 1 0 0 0;1 0 0 1 0 1 0 0;0 1 1 1 0 1 0 0 0;1 0 0 0;0 1 1 0 0;1 0 1 0 1 0 0 0;0 1 1 0 1 0 1 0 0;1 1 0 1 0 0 0 0;0 0 1 0 0 1 0;1 0 0 1 0 1;0 1 1 1 0 1 0;1 0;0 1 1;1 0 1 0 1 0;0 1 1 0 1 0 1;1 1 0 1 0 0;1 1 1 0 1 1 1;0 1 1 0 0 0 0;0 0 1 1 1 0;0 1 0 0 1 1 1;1 1 0 1;1 1 1 0 0 1 0;1 0 0 0 0 0;1 1 1 0 1 0 0 1;1 0 0 1 0 0;1 1 1;1 0 1 1 1 0;1 0 1 0 0 1 0;0 1 1 1 0 0 1 0;0 1 0;0 0 1 1 0 0 0 0;0 1 1 0 1 0 0;1 0 0 1;1 1 1 0 0 0 0;1 0 0 1 0 1 0 1;0 1 1 1 0 1 0 0 1;1 0 1 0 1 0 0 1;0 1 0 0 0 0 0;0 0 1 1 0 0;0 1 1 0 1;1 0 0 1 0 0 0 0;0 0 1 1 1 0 1 0;0 1 0 0 0;0 0 1 1;0 1 1 0 1 0 0 0 0;1 0 1 1 1 0 0 0;1 0 1 0 0 1 0 0 0;1 1 1 0 0;1 0 0 1 0 0 0 0 0;1 1 1 0 0 0;1 0 1 1 1 0 0 0 0;1 0 1 0 0 1 0 0 0 0;0 0 1 1 1 0 1 0 0;0 1 0 0 0 0;0 0 1 1 0;0 1 1 0 1 0 0 0 0 0;1 0 0 1 0 0 0;1 1 1 0;1 0 1 1 1 0 0;1 0 1 0 0 1 0 0;0 0 1 1 1 0 1;0 1 0 0;1 1 0 1 1;0 1 1 0 1 0 0 0;1 0 0 1 0;0 1 1 1 0 0 1;0 1;0 0 1 1 0 0 0;0 1 1 0 1 0;1 0 1 1 1;1 0 1 0 0 1;0 1 0 1 0 1;0 1 0 0 1 0;0 0 1 0 0;1 1;0 1 1 1 0;1 1 0 1 0 1;0 1 0 1 0 0 1 0 0;1 1 1 0 1 0;1 0 1 1 0 0 0 0 0;0 1 0 0 1 0 0 0 0 0;0 0 1;1 1 0 0 0 0;0 0 1 0 1 0 1;1 0 0 1 1 1;0 1 0 1 0 0 1;1 1 1 0 1 0 0 0 0 0;1 0 1 1 0 0 0;0 1 0 0 1 0 0 0;1 1 0 1 0 1 0 0;1 0 1 1 0 1 0 1 0;1 1 1 0 1 0 0 0;1 0 1 1 0;1 1 0 0;0 1 1 1 0 0 0;0 0 1 0 0 0 0;0 1 0 0 1 0 0 0 0;0 0 1 0 0 0 0 0;1 1 0 0 0;0 1 1 1 0 0 0 0;1 1 0 1 0 1 0 0 0;1 0 1 1 0 1 0 1 0 0;1 1 1 0 1 0 0 0 0;1 0 1 1 0 0;0 1 0 0 1 0 0;0 0 1 0 0 0;1 1 0;0 1 1 1 0 0;1 1 0 1 0 1 0;1 0 1 1 0 1 0 1;1 1 1 0 1 0 0;1 0 1 1;0 1 0 0 1;1 0 0 1 1 1 0;0 1 0 1 0 0 1 0;1 1 1 0 1;1 0 1 1 0 0 0 0;1 1 0 0 0 0 0;0 1 1 1;0 0 1 0", false⟩
noncomputable def b243 : Block := ⟨s541, []⟩

noncomputable def items17 : List Item := [
  .block b240,
  .block b241,
  .block b242,
  .block b243]

theorem good17 : allB (Item.goodB lat) items17 = true := by decide +kernel

theorem text17 : Table.sgLines17 = (items17.flatMap Item.lines).map String.ofList := by krfl

end Systre.Sg.Data
