import Verif.Lemmas.SgTable.Ops
import Verif.Model.SgTable.T16

/-! Written by tools/gen_sgtable.py. Lines 6088 to 6453. -/

namespace Systre.Sg.Data
set_option maxRecDepth 1000000
set_option maxHeartbeats 0

noncomputable def s530 : Setting := ⟨chars! "F-43m", 3, t0, q! "24 0 0 0 0 24 0 0 0 0 24 0", trs! "0 235 2 236 29 14 26 13 28 786 485 787 486 788 487 428 27 488 789 489 427 490 790 791 35 792 40 793 103 794 36 795 491 796 492 797 493 798 494 799 495 496 800 497 801 498 802 803 42 804 43 805 46 806 92 807 499 808 500 809 501 810 502 811 503 504 812 505 813 506 814 815 4 319 10 320 47 16 33 15 507 816 508 817 509 818 510 819 511 512 820 513 821 514 822 823", gens! "235 566094124080975515629662728408400785501615788494462408202940405106271321970098109524753586469745244838665188357469823640422049653889314105787204649030561672568132265802633201288626191112134424967957975631112479021733876709713969665 3;491 67018101451803976183436816312852165889995211214381766324575685877800922221225778770118077665544294875476691308241178888948305344316971621350599237751197044620850678531874533249084386393987077433987370248132660431847829392335318560 88", words! ";0;0 0;0 0 0;1 0 0 1 1;1 1 0 0 1 0;1 1 0 0 1;1 0 0 1 1 0;0 1 0 1 1;1 0 1 0 0 1;0 1 0 1 0 0 1;1 0 1 1;0 1 0 1 1 0 0;1 0 0 0 1 1;0 1 0 0 0 1 1;1 0 1 1 0 0;1 1 0 1 0 1;1 0 1 1 0 0 0;0 1 0 1 1 0 0 0;1 0 0 0 1 1 0;0 1 0 0 0 1 1 0;1 0 1 1 0;0 1 0 1 1 0;0 1 1 0 1 0 1;0 1 0 1;0 1 0 1 0;0 1 0 1 0 0;0 1 0 1 0 0 0;1 1 0 1 1 0;1 1 0 1 1;0 1 0 0 0 1;1 1 0 1 1 0 0;1;0 1 1 0 1 0;0 0 1;0 0 0 1 1 0 1 0;1 0 0;1 0 1 0 1 1 0;0 0 1 0 0;0 1 1 0 0 0 1 0;1 0 1 0 1 1;0 0 0 1 1 0 1;1 0 0 0;0 1 1 0 1;0 0 1 0 0 0;0 1 1 0 0 0 1;1 0;0 0 1 0;1 0 1 0;1 0 1 0 0;1 0 1 0 0 0;1 0 1;1 0 0 0 1 0;1 0 0 0 1;0 1 1 0 1 1;1 0 0 0 1 0 0;1 1 0 1 0;0 1;0 0 1 1 0 1 0;0 0 0 1;1 1 0 1 0 0 0;0 1 0 0;1 1 0 0 0 1 0;0 0 0 1 0 0;0 1 0;0 0 0 1 0 0 0;1 1 0 1;0 1 0 0 0;0 0 1 1 0 1;0 0 0 1 0;1 1 0 1 0 0;1 1 0 0 0 1;1 1 0 1 0 1 1;1 1 0 1 0 1 1 0;1 0 1 1 0 1;1 0 1 1 0 1 0;1 0 1 1 0 0 0 1;1 0 0 0 1 1 0 1 0;1 0 0 0 1 1 0 1;1 0 1 1 0 0 0 1 0;1 0 1 0 1;1 1 0 0 0;0 1 1 0 0 0;1 0 0 1 0;0 0 0 1 1 0;1 1 0;0 1 1 0;0 0 1 1 0;1 1;1 0 0 1;0 1 0 0 1;1 1 0 0;0 1 1 0 0;0 0 1 1;0 0 0 1 1;0 1 1", false⟩
noncomputable def b234 : Block := ⟨s530, []⟩
noncomputable def s531 : Setting := ⟨chars! "I-43m", 3, t0, q! "24 0 0 0 0 24 0 0 0 0 24 0", trs! "0 235 2 236 29 14 26 13 28 786 485 787 486 788 487 428 27 488 789 489 427 490 790 791 38 237 45 238 49 294 39 295 515 824 516 825 517 826 518 436 519 520 827 521 435 522 828 829", gens! "515 1700880435319979619474575850800208193490919634115984828181108745515940872023732277485089706455178238296249625488928 40;235 6950291388432974399300651185952310096591862678560467374502853714922632270103609441270736628722897239799732877066753 3", words! ";1;1 1;0 1 0;0 0 1 0 0 1;0 0 1 0 0;1 0 0 1 0 0;1 1 0 0 1 0 0;0 0 0 0;1 0 0 0 0;1 1 0 0 0 0;0 1 1 0 1;0 1 1 0 0 0;0 0 1;1 0 0 1;1 1 0 0 1;0 0;0 1 1 0;1 0 1 1 0;0 0 1 1;1 0 0 1 1;1 1 0 0;0 1 0 0 0;1 0 0;0 0 0;1 0 0 0;1 1 0 0 0;0 1 0 0 0 0;0 1 1 0 0;1 0 1 1 0 0;0 0 1 1 0;1 0 0 1 1 0;0;1 0;1 1 0;0 1 0 0;0 1 1;1 0 1 1;1 1 0 1 1;0 1 0 0 1 1;1 0 1;0 1 1 0 0 0 0;0 0 1 0;1 0 0 1 0;1 1 0 0 1 0;0 1 0 0 1;0 1;1 1 0 1", false⟩
noncomputable def b235 : Block := ⟨s531, []⟩
noncomputable def s532 : Setting := ⟨chars! "P-43n", 3, t0, q! "24 0 0 0 0 24 0 0 0 0 24 0", trs! "0 237 2 238 29 294 26 295 28 824 485 825 486 826 487 436 27 488 827 489 435 490 828 829", gens! "237 516459253409158932976266869344137366603898287132613214721 3;28 270965886331170371508180948578611548875042692972659086856 16", words! ";0;0 0;0 0 0;1 0 0 1 1;1 0 0 0 1;1 1 0 0 1;1 0 0 1 1 0;1;0 1;0 0 1;0 0 0 1;1 0 0;1 1 0;0 1 1 0;0 0 1 1 0;1 1;1 0 0 1;1 0 0 0;1 1 0 0;0 1 1 0 0;0 0 1 1;1 0;0 1 1", false⟩
noncomputable def b236 : Block := ⟨s532, []⟩
noncomputable def s533 : Setting := ⟨chars! "F-43c", 3, t0, q! "24 0 0 0 0 24 0 0 0 0 24 0", trs! "0 830 10 831 29 832 33 833 28 834 508 835 486 836 510 837 27 496 838 505 839 490 840 829 35 237 127 841 103 294 117 842 491 824 526 843 493 826 755 844 495 845 846 847 435 498 848 849 42 850 125 238 46 851 119 295 499 852 853 825 501 854 781 436 503 529 855 856 857 506 858 859 4 860 861 862 47 863 164 864 507 865 866 867 509 868 869 870 511 871 827 744 872 514 828 873", gens! "830 419403995541128663187850613627345479225540280745630908433621150927934777236434139927328722515015233115061582479104986489648870711938257197515961190549384630946603624139572523039443062538790414660580426111151267099560605670151750145 3;486 80238734135386288068628167739383133574166286054993653553464865304108207756216672316558784390140253425630358683248129736723035591953083924874958667339714045784112339365020932555428926854239273165660310276815038965901850557888342540 21", words! ";0;0 0;0 0 0;0 1 0 1;1 0 1 0 0;0 1 0 1 0 0;1 0 1;0 1 0 1 1;1 0 1 0 0 1;0 1 0 1 0 0 1;1 0 1 1;1;0 1;0 0 1;0 0 0 1;1 1 0 1 0 1;1 0 1 1 0 0 0;0 1 0 1 1 0 0 0;1 0 0 0 1 1 0;0 0 1 0;1 1;1 0 0 0;0 0 1 0 0 0;1 1 0 1 1 0;1 1 0 1 1 0 0;0 1 0 0 0 1;1 1 0 1 1;1 0 0 1 1;1 0 1 1 0 0 0 1 0;1 1 0 0 1;1 0 0 0 1 1 0 1 0;1 0 0;0 1 1 0 0 0 1 0;0 0 1 0 0;1 0 1 0 1 1 0;0 1 0 1 1 0 0;0 0 1 1 0;0 1 0 0 0 1 1;1 1 0;0 0 0 1 1 0 1;1 0 1 0 1 1;1 0;0 1 1 0 0 0 1;0 1 0 0 0 1 1 0;0 0 0 1 0 0 0;0 1 0 1 1 0;0 1 1 0 1 0 1;0 1 1 0 1 1;1 0 0 0 1;1 0 0 0 1 0;1 0 0 0 1 0 0;1 0 0 0 1 1 0 1;1 1 0 0 1 0;1 0 1 1 0 0 0 1;1 0 0 1 1 0;1 1 0 0 0 1 0;0 1 0 0;1 1 0 1 0 0 0;0 0 0 1 0 0;0 1 1 0;1 0 0 0 1 1;0 0 0 1 1 0;1 0 1 1 0 0;0 1 0 0 0;0 0 0 1 0;1 1 0 0 0 1;0 1 0;0 1 0 0 1;0 1 1 0 1;0 1 1;0 0 0 1 1;1 0 1 1 0 1;1 0 1 1 0 1 0;1 1 0 1 0 1 1;1 1 0 1 0 1 1 0;1 0 1 0 0 0;0 1 0 1 0 0 0;1 0 1 0;0 1 0 1 0;0 1 1 0 0 0;1 0 0 1 0;1 0 1 0 1;1 1 0 0 0;0 0 1 1 0 1 0;0 0 0 1 1 0 1 0;1 1 0 1 0;0 1 1 0 1 0;0 0 1 1;1 1 0 0;0 1 1 0 0;1 0 0 1;1 1 0 1 0 0;1 0 1 1 0;0 0 1 1 0 1;1 1 0 1", false⟩
noncomputable def b237 : Block := ⟨s533, []⟩
noncomputable def s534 : Setting := ⟨chars! "I-43d", 3, t0, q! "24 0 0 0 0 24 0 0 0 0 24 0", trs! "0 874 99 875 105 876 36 877 28 878 523 879 524 880 494 881 27 525 882 497 883 506 884 885 38 886 127 887 133 888 137 889 515 890 526 891 527 892 528 893 519 529 894 530 895 531 896 897", gens! "523 5088197475290794097575150669479567700127369039620122591610903482110849450220016740363151902394772546001616835057418 43;874 6935861721768482800641667423570930647676516617641773075659228581202271857125510272745212145618564327040732377580033 3", words! ";1;1 1;1 1 1;1 0 1 0;1 1 0 1 0;0 0 1 1 0;0 1 0;1 1 0;0 0 1;0;1 0;1 1 0 1 1;0 1 0 0;0 1 1;1 0 1 1;1 1 0 1 1 0;1 1 0 0;0 0 1 0;0 0;1 0 0 0 0 0;1 0 1;1 1 0 1;0 1;0 0 0;1 0 0 0;1 1 0 0 0;0 0 1 0 0;0 1 1 0 0;1 0 1 1 0 0;0 1 0 1;1 0 1 0 1;1 1 0 0 0 0;0 0 1 0 0 0;0 0 0 0;1 0 0 0 0;0 1 0 1 0;1 0 1 0 1 0;0 1 1 0 0 0;0 1 1 0 1;0 0 1 1;0 1 1 0 1 1;0 1 0 1 0 1;0 0 0 0 0;1 0 0;0 1 1 0;1 0 1 1 0;0 1 0 0 0", false⟩
noncomputable def b238 : Block := ⟨s534, []⟩
noncomputable def s535 : Setting := ⟨chars! "Pm-3m", 3, t0, q! "24 0 0 0 0 24 0 0 0 0 24 0", trs! "0 11 2 12 29 269 26 270 28 41 485 668 486 669 487 416 27 488 670 489 415 490 671 34 25 235 50 236 1 14 6 13 395 786 532 787 533 788 534 428 396 535 789 536 427 537 790 791", gens! "395 1700880435319979619474575850800208193490919634115984828181108745515940872023732277485089706455178238296249625488928 40;11 6950291388432974399300651185952310096591862678560467374502853714922632270103609441270736628722897239799732877066753 3", words! ";1;1 1;0 1 0;0 0 1 0 0 1;0 0 1 0 0;1 0 0 1 0 0;1 1 0 0 1 0 0;0 0 0 0;1 0 0 0 0;1 1 0 0 0 0;0 1 1 0 1;0 1 1 0 0 0;0 0 1;1 0 0 1;1 1 0 0 1;0 0;0 1 1 0;1 0 1 1 0;0 0 1 1;1 0 0 1 1;1 1 0 0;0 1 0 0 0;1 0 0;0 0 0;1 0 0 0;1 1 0 0 0;0 1 0 0 0 0;0 1 1 0 0;1 0 1 1 0 0;0 0 1 1 0;1 0 0 1 1 0;0;1 0;1 1 0;0 1 0 0;0 1 1;1 0 1 1;1 1 0 1 1;0 1 0 0 1 1;1 0 1;0 1 1 0 0 0 0;0 0 1 0;1 0 0 1 0;1 1 0 0 1 0;0 1 0 0 1;0 1;1 1 0 1", false⟩
noncomputable def b239 : Block := ⟨s535, []⟩

noncomputable def items16 : List Item := [
  .block b234,
  .block b235,
  .block b236,
  .block b237,
  .block b238,
  .block b239]

theorem good16 : allB (Item.goodB lat) items16 = true := by decide +kernel

theorem text16 : Table.sgLines16 = (items16.flatMap Item.lines).map String.ofList := by krfl

end Systre.Sg.Data
