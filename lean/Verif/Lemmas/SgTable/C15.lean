import Verif.Lemmas.SgTable.Ops
import Verif.Model.SgTable.T15

/-! Written by tools/gen_sgtable.py. Lines 5721 to 6087. -/

namespace Systre.Sg.Data
set_option maxRecDepth 1000000
set_option maxHeartbeats 0

noncomputable def s523 : Setting := ⟨chars! "F432", 3, t0, q! "24 0 0 0 0 24 0 0 0 0 24 0", trs! "0 11 2 12 29 269 26 270 28 41 485 668 486 669 487 416 27 488 670 489 415 490 671 34 35 248 40 327 103 678 36 679 491 680 492 681 493 682 494 683 495 496 684 497 685 498 686 687 42 326 43 249 46 688 92 689 499 690 500 691 501 692 502 693 503 504 694 505 695 506 696 697 4 246 10 247 47 308 33 309 507 698 508 699 509 700 510 701 511 512 702 513 703 514 704 705", gens! "11 566094124080975515629662728408400785501615788494462408202940405106271321970098109524753586469745244838665188357469823640422049653889314105787204649030561672568132265802633201288626191112134424967957975631112479021733876709713969665 3;491 67018101451803976183436816312852165889995211214381766324575685877800922221225778770118077665544294875476691308241178888948305344316971621350599237751197044620850678531874533249084386393987077433987370248132660431847829392335318560 88", words! ";0;0 0;0 0 0;1 0 0 1 1;1 1 0 0 1 0;1 1 0 0 1;1 0 0 1 1 0;0 1 0 1 1;1 0 1 0 0 1;0 1 0 1 0 0 1;1 0 1 1;0 1 0 1 1 0 0;1 0 0 0 1 1;0 1 0 0 0 1 1;1 0 1 1 0 0;1 1 0 1 0 1;1 0 1 1 0 0 0;0 1 0 1 1 0 0 0;1 0 0 0 1 1 0;0 1 0 0 0 1 1 0;1 0 1 1 0;0 1 0 1 1 0;0 1 1 0 1 0 1;0 1 0 1;0 1 0 1 0;0 1 0 1 0 0;0 1 0 1 0 0 0;1 1 0 1 1 0;1 1 0 1 1;0 1 0 0 0 1;1 1 0 1 1 0 0;1;0 1 1 0 1 0;0 0 1;0 0 0 1 1 0 1 0;1 0 0;1 0 1 0 1 1 0;0 0 1 0 0;0 1 1 0 0 0 1 0;1 0 1 0 1 1;0 0 0 1 1 0 1;1 0 0 0;0 1 1 0 1;0 0 1 0 0 0;0 1 1 0 0 0 1;1 0;0 0 1 0;1 0 1 0;1 0 1 0 0;1 0 1 0 0 0;1 0 1;1 0 0 0 1 0;1 0 0 0 1;0 1 1 0 1 1;1 0 0 0 1 0 0;1 1 0 1 0;0 1;0 0 1 1 0 1 0;0 0 0 1;1 1 0 1 0 0 0;0 1 0 0;1 1 0 0 0 1 0;0 0 0 1 0 0;0 1 0;0 0 0 1 0 0 0;1 1 0 1;0 1 0 0 0;0 0 1 1 0 1;0 0 0 1 0;1 1 0 1 0 0;1 1 0 0 0 1;1 1 0 1 0 1 1;1 1 0 1 0 1 1 0;1 0 1 1 0 1;1 0 1 1 0 1 0;1 0 1 1 0 0 0 1;1 0 0 0 1 1 0 1 0;1 0 0 0 1 1 0 1;1 0 1 1 0 0 0 1 0;1 0 1 0 1;1 1 0 0 0;0 1 1 0 0 0;1 0 0 1 0;0 0 0 1 1 0;1 1 0;0 1 1 0;0 0 1 1 0;1 1;1 0 0 1;0 1 0 0 1;1 1 0 0;0 1 1 0 0;0 0 1 1;0 0 0 1 1;0 1 1", false⟩
noncomputable def b227 : Block := ⟨s523, []⟩
noncomputable def s524 : Setting := ⟨chars! "F4132", 3, t0, q! "24 0 0 0 0 24 0 0 0 0 24 0", trs! "0 706 40 707 29 708 36 709 28 710 492 711 486 712 494 713 27 504 714 513 715 490 716 717 35 718 719 343 103 357 720 346 491 721 722 723 493 724 725 726 495 529 727 728 729 498 730 731 42 732 221 733 46 734 123 735 499 736 737 738 501 739 740 741 503 742 743 744 745 506 746 747 4 748 127 749 47 750 117 751 507 752 526 753 509 754 755 756 511 757 758 759 760 514 761 762", gens! "706 273289087433668400987055069841320904819142183003510733651207094039940998845955192615735336211959923284617773395612794926331635800350785572900509229306364890346530723673374933702290255411431549642094499838322388240842036275308593665 3;28 359823138031733430017497807749056482835190786200464031075412089806151999320269904711367416397590937553455668776208831906709153836990232672770913490183154416866160126930494003246232714479573582076426881253571801450968792317317361160 16", words! ";0;0 0;0 0 0;1 0 0 0 1 0;1 1 0 1 1;0 1 1 0 1 1;1 1 0 1 1 0 0;1;0 1;0 0 1;0 0 0 1;0 0 0 1 1 0;1 1 0;0 1 1 0;0 0 1 1 0;1 1;1 0 0 1;0 1 0 0 1;1 1 0 0;0 1 0 0 0 1 1 0;0 0 0 1 0;0 1 0 1 1 0;0 1 1 0 1 0 1;0 1 0 1;0 1 0 1 0;0 1 0 1 0 0;0 1 0 1 0 0 0;1 0 1 1 0 0 0 1;1 1 0 0 1 0;1 0 0 0 1 1 0 1;1 0 0 1 1 0;0 1 0 1 1;1 1 0 0 0;0 1 0 1 0 0 1;1 0 0 1 0;1 1 0 1 0 0 0;0 1 0 0;1 1 0 0 0 1 0;0 0 0 1 0 0;0 1 0;0 0 0 1 0 0 0;1 1 0 1;0 1 0 0 0;0 0 1 0 0 0;0 0 1 1;1 0;0 0 1 0;1 0 1 0;1 0 1 0 0;1 0 1 0 0 0;1 0 1;1 0 0 1 1;1 0 0 0 1 1 0 1 0;1 1 0 0 1;1 0 1 1 0 0 0 1 0;1 0 1 0 1;1 0 1 0 0 1;0 1 1 0 0 0;1 0 1 1;1 0 0;1 0 1 0 1 1 0;0 0 1 0 0;0 1 1 0 0 0 1 0;1 0 1 0 1 1;0 0 0 1 1 0 1;1 0 0 0;0 1 1 0 1;0 0 1 1 0 1;1 0 1 1 0;1 1 0 1 0 0;1 1 0 0 0 1;1 1 0 1 0 1 1;1 1 0 1 0 1 1 0;1 0 1 1 0 1;1 0 1 1 0 1 0;1 1 0 1 1 0;1 0 0 0 1;0 1 0 0 0 1;1 0 0 0 1 0 0;1 1 0 1 0;0 1 1 0 1 0;0 0 1 1 0 1 0;0 0 0 1 1 0 1 0;0 1 0 1 1 0 0;1 0 0 0 1 1;0 1 0 0 0 1 1;1 0 1 1 0 0;1 1 0 1 0 1;1 0 1 1 0 0 0;0 1 0 1 1 0 0 0;1 0 0 0 1 1 0;0 1 1 0 0;0 1 1 0 0 0 1;0 0 0 1 1;0 1 1", false⟩
noncomputable def b228 : Block := ⟨s524, []⟩
noncomputable def s525 : Setting := ⟨chars! "I432", 3, t0, q! "24 0 0 0 0 24 0 0 0 0 24 0", trs! "0 11 2 12 29 269 26 270 28 41 485 668 486 669 487 416 27 488 670 489 415 490 671 34 38 228 45 229 49 285 39 286 515 672 516 673 517 674 518 458 519 520 675 521 457 522 676 677", gens! "515 1700880435319979619474575850800208193490919634115984828181108745515940872023732277485089706455178238296249625488928 40;11 6950291388432974399300651185952310096591862678560467374502853714922632270103609441270736628722897239799732877066753 3", words! ";1;1 1;0 1 0;0 0 1 0 0 1;0 0 1 0 0;1 0 0 1 0 0;1 1 0 0 1 0 0;0 0 0 0;1 0 0 0 0;1 1 0 0 0 0;0 1 1 0 1;0 1 1 0 0 0;0 0 1;1 0 0 1;1 1 0 0 1;0 0;0 1 1 0;1 0 1 1 0;0 0 1 1;1 0 0 1 1;1 1 0 0;0 1 0 0 0;1 0 0;0 0 0;1 0 0 0;1 1 0 0 0;0 1 0 0 0 0;0 1 1 0 0;1 0 1 1 0 0;0 0 1 1 0;1 0 0 1 1 0;0;1 0;1 1 0;0 1 0 0;0 1 1;1 0 1 1;1 1 0 1 1;0 1 0 0 1 1;1 0 1;0 1 1 0 0 0 0;0 0 1 0;1 0 0 1 0;1 1 0 0 1 0;0 1 0 0 1;0 1;1 1 0 1", false⟩
noncomputable def b229 : Block := ⟨s525, []⟩
noncomputable def s526 : Setting := ⟨chars! "P4332", 3, t0, q! "24 0 0 0 0 24 0 0 0 0 24 0", trs! "0 732 43 763 47 357 36 358 28 736 500 764 509 724 494 765 27 512 714 497 715 506 766 767", gens! "732 516459253409158932976266869344137366603898287132613214721 3;28 270965886331170371508180948578611548875042692972659086856 16", words! ";0;0 0;0 0 0;1 0 0 1 1;1 0 0 0 1;1 1 0 0 1;1 0 0 1 1 0;1;0 1;0 0 1;0 0 0 1;1 0 0;1 1 0;0 1 1 0;0 0 1 1 0;1 1;1 0 0 1;1 0 0 0;1 1 0 0;0 1 1 0 0;0 0 1 1;1 0;0 1 1", false⟩
noncomputable def b230 : Block := ⟨s526, []⟩
noncomputable def s527 : Setting := ⟨chars! "P4132", 3, t0, q! "24 0 0 0 0 24 0 0 0 0 24 0", trs! "0 334 43 335 47 768 36 362 28 769 500 770 509 771 494 772 27 512 773 497 774 506 775 776", gens! "334 516459253409158932976266869344137366603898287132613214721 3;28 270965886331170371508180948578611548875042692972659086856 16", words! ";0;0 0;0 0 0;1 0 0 1 1;1 0 0 0 1;1 1 0 0 1;1 0 0 1 1 0;1;0 1;0 0 1;0 0 0 1;1 0 0;1 1 0;0 1 1 0;0 0 1 1 0;1 1;1 0 0 1;1 0 0 0;1 1 0 0;0 1 1 0 0;0 0 1 1;1 0;0 1 1", false⟩
noncomputable def b231 : Block := ⟨s527, []⟩
noncomputable def s528 : Setting := ⟨chars! "I4132", 3, t0, q! "24 0 0 0 0 24 0 0 0 0 24 0", trs! "0 334 43 335 105 357 94 358 28 769 500 770 524 724 777 765 27 512 773 497 715 506 766 767 38 342 258 343 133 361 119 362 515 778 779 723 527 780 781 772 519 782 783 530 774 531 784 785", gens! "524 2021926372524666011607272978300364153264536527643745467736916912731961058772944455198298476357021521866344863115788 45;334 3241867275834513802493038066648143909361634044654463650862767586838077229113721162024346886382494719855206284329473 3", words! ";1;1 1;1 1 1;0 1 1 0 0;1 0 1 1 0 0;0 0 1 1 0;0 1 0 0 0 0;0 1 1 0 0 0;0 1 1 0 1;0 0 1 1 0 0;0 0 1 1 1;0;1 0;1 1 0;1 1 1 0;1 1 0 0;0 0 1 1;0 1 0 0 0;0 1 1 0;1 1 0 1;0 0;0 1 1 1;0 0 1 0;0 0 0;1 0 0 0;1 1 0 0 0;1 1 1 0 0 0;1 0 1 0;1 1 0 1 0;0 1 0 1;0 1 0;0 1 1;1 0 1 1;0 1 0 1 0;0 1 0 0;0 0 0 0;1 0 0 0 0;1 1 0 0 0 0;0 0 1;1 0 1 1 1;1 1 1 0 1;0 1;1 0 1;1 0 1 1 0;0 0 0 0 0;1 0 0;1 1 1 0 0", false⟩
noncomputable def b232 : Block := ⟨s528, []⟩
noncomputable def s529 : Setting := ⟨chars! "P-43m", 3, t0, q! "24 0 0 0 0 24 0 0 0 0 24 0", trs! "0 235 2 236 29 14 26 13 28 786 485 787 486 788 487 428 27 488 789 489 427 490 790 791", gens! "235 516459253409158932976266869344137366603898287132613214721 3;28 270965886331170371508180948578611548875042692972659086856 16", words! ";0;0 0;0 0 0;1 0 0 1 1;1 0 0 0 1;1 1 0 0 1;1 0 0 1 1 0;1;0 1;0 0 1;0 0 0 1;1 0 0;1 1 0;0 1 1 0;0 0 1 1 0;1 1;1 0 0 1;1 0 0 0;1 1 0 0;0 1 1 0 0;0 0 1 1;1 0;0 1 1", false⟩
noncomputable def b233 : Block := ⟨s529, []⟩

noncomputable def items15 : List Item := [
  .block b227,
  .block b228,
  .block b229,
  .block b230,
  .block b231,
  .block b232,
  .block b233]

theorem good15 : allB (Item.goodB lat) items15 = true := by decide +kernel

theorem text15 : Table.sgLines15 = (items15.flatMap Item.lines).map String.ofList := by krfl

end Systre.Sg.Data
