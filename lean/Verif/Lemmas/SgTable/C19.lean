import Verif.Lemmas.SgTable.Ops
import Verif.Model.SgTable.T19

/-! Written by tools/gen_sgtable.py. Lines 7085 to 7470. -/

namespace Systre.Sg.Data
set_option maxRecDepth 1000000
set_option maxHeartbeats 0

noncomputable def s543 : Setting := ⟨chars! "Fd-3m:2", 3, t0, q! "24 0 0 0 0 24 0 0 0 0 24 0", trs! "0 1001 202 1002 191 1003 204 270 28 1004 600 1005 577 1006 602 416 27 615 1007 592 685 581 1008 1009 25 1010 1011 1012 194 1013 1014 13 395 1015 1016 1017 583 1018 1019 428 396 1020 1021 1022 1023 587 1024 1025 35 1026 1027 1028 197 1029 1030 679 491 1031 1032 1033 589 1034 1035 683 495 1036 1037 1038 1039 593 1040 1041 87 1042 1043 1044 200 1045 1046 795 552 1047 1048 1049 595 1050 1051 799 556 1052 1053 586 427 599 1054 1055 42 1056 1057 1058 203 1059 1060 689 499 1061 1062 1063 601 1064 1065 693 503 1066 1067 1068 1069 605 1070 1071 89 1072 193 1073 206 1074 195 807 560 1075 582 1076 607 1077 584 811 564 1078 1079 1080 1081 611 1082 1083 4 1084 1085 1086 209 1087 1088 309 507 1089 1090 1091 613 1092 1093 701 511 1094 1095 1096 1097 617 1098 1099 86 1100 1101 1102 212 1103 1104 15 568 1105 1106 1107 619 1108 1109 819 572 585 1110 1111 1112 623 1113 1114", gens! "395 109349888534403998536383640851965193128736396150315373115957735986650536953440535843771558840026061815161643949732981789373023050757905599511979294173581384181788074834559483084499589197347998563262813318512525956189854635719262999775670667413606287033261206805184396972498950461997741337068083882335943617866365732925708915321402549633064153545147917494237304012351799831716582152166836521575125514458258959954220126238086239300854136232450919566205575767535136 40;1001 882402154444829174436849388009206982977023236864880720165522910350775663568735561406013753385836169399664326988565655346892444938387929168299711044541081531334142053132539418945928335120853751930315416348340873280162074348402413873639396518180899506093186637304660813144297414237834987597542281335230986743193334872456629046216440036956906457650128753978697653252541743270263330765911072359673936225910413087700766449443537805030212321738367059882632483438789121 3", words! ";1;1 1;0 1 0;0 0 1 1 0 1 1 0 0 0;0 1 1 0 0 0 1 0 0 0 0;0 0 0 1 1 0 1 1 0 0;1 0 0 0 1 1 0 1 1 0 0;0 0 0 0;1 0 0 0 0;1 1 0 0 0 0;0 1 1 0 1;0 0 1 1 0 1 1 0;0 1 1 0 0 0 1 0 0;0 0 0 1 1 0 1 1;1 0 0 0 1 1 0 1 1;0 0;1 1 0 0 1 1;0 1 0 0 0 1 1;0 0 1 1;0 1 0 0 1 1 0;1 0 0 0 1 1 0 1;0 0 0 0 1;1 1 0 0 0 0 1;0 0 0;0 0 0 1;0 0 0 1 1;0 0 0 0 1 0;0 1 0 0 0 1 1 0 1;0 1 0 0 0 1 1 0;1 1 0 1 1 0 0;1 1 0 1 1 0 0 0 1 0;0;0 0 0 1 0 0 0 0;0 0 0 1 1 0 0 0 0;0 0 0 0 1 1 0 1;0 1 0 0 0 1 0 0 0;1 0 0 0 0 1 1 0 0 0;1 1 0 1 1;0 1 1 0 1 1 0 0 0 1;1 0 1;0 1 1 0 0 0 0;0 1 1 0 0 0 1 0 0 0;1 0 0 1 0;1 0 0 1 0 0 0 1;0 1 1 0 1 1 0 0 0;0 1;0 1 0 0 0 0 1 1 0 0;1 0 0 0 0 1 0 0 0 0;0 0 0 1 0 0 0;0 0 0 1 0 0 0 1;1 1 0 0 0 1 0 0 0;0 1 0 0 0 1 0 0;1 0 0 1 0 0 1;1 0 0 1 0 0;1 0 0 1 0 0 0 1 0;1 0 0 0 0 1 0 0;0 0 0 1 0;0 1 1 0 1 1 0 0;1 1 0 0 0 1 0;0 1 0 0 0 1;1 0 1 1 0 0 0;1 0 0 1;0 1 0 0 1 1 0 0 0;1 0 0 0 0 1;0 1 1 0;0 0 1 0 0 0 0;1 1 0 1 1 0;1 1 0 1 1 0 0 0 1;0 0 0 0 1 0 0 1;0 1 1 0 0 0 0 1 0;0 0 1 0 0 0 1 1 0;1 0 0 0 0 1 0;1 0 0 0;1 0 0 0 1;1 0 0 0 1 1;0 0 1 1 0 1 1;0 0 1 1 0 1;0 0 1 1 0;0 1 0 0 1 1 0 0;1 0 0 0 0 1 1 0 1;1 0;1 0 0 0 1 0 0 0 0;0 1 1 0 0 0 0 1;0 0 0 0 1 0 0 0 1;0 0 1 0 0 0;0 0 0 1 0 0 1;0 1 0 0 1 1;1 0 0 0 0 1 0 0 0;0 0 0 0 1 1 0;1 0 1 1 0 0 0 0;0 0 0 1 1 0 1 1 0;1 0 0 0 1 1 0 1 1 0;0 1 0 0 1;1 1 0 0 0 1 0 0;1 1 0 0 0 0 1 0 0 0;0 1 0 0 0 0 1 0 0 0;1 1 0 0 0 0 1 0 0 0 0;1 0 0 0 1 0 0 0;0 0 0 0 1 0 0 0 0;0 0 1 0 0 1;0 0 1 0 0;0 0 1 0 0 0 1 0;1 1 0 0 1 0 0;0 1 0 0 0 0 1 0;1 1 0 0 0 0 1 0 0;1 0 0 0 1 0;0 0 0 0 1 0 0;0 1 1 0 0 0;0 0 1;1 1 0 1 1 0 0 0;1 1 0 0 1;0 1 0 0 0 0 1 1 0 1;0 1 0 0 0 1 0 0 0 0;1 0 1 1 0;1 0 0 1 0 0 0 0;1 0 0 1 1;1 1 0 0;0 1 0 0 0;1 0 0;0 1 0 0 0 0 1;0 1 0 0 0 0 1 1;0 1 1 0 1 1 0;0 1 0 0 0 0;1 1 0 0 1 1 0;1 0 1 1 0 0;1 0 1 1 0 0 0 1 0;1 1 0 0 1 1 0 1;0 1 0 0 0 0 1 0 0 0 0;0 0 1 0 0 0 1 1;0 0 0 1 0 0 0 1 0;0 1 0 0;0 0 0 0 1 1 0 0 0;1 0 1 1;0 0 0 1 1 0 1 1 0 0 0;1 1 0 0 1 0 0 0;0 1 0 0 0 0 1 0 0;0 0 1 1 0 1 1 0 0;0 0 1 0;0 0 1 1 0 0 0;1 0 0 1 1 0 0 0;0 0 0 1 1 0 0;0 0 0 0 1 0 0 0;0 0 0 1 0 0;1 1 0 0 0 1 1 0 0 0;0 1 0 0 0 0 1 1 0 0 0;0 0 0 1 1 0 0 0;1 0 0 0 1 1 0 0 0;0 0 0 0 1 1 0 0;1 0 0 0 0 1 1 0 0;0 0 1 1 0 0 0 0;1 0 0 1 1 0 0 0 0;1 1 0 0 0 1 1 0;0 1 0 0 0 0 1 1 0;0 0 0 1 1 0;1 0 0 0 1 1 0;0 0 0 0 1 1;1 0 0 0 0 1 1;0 0 1 1 0 0;1 0 0 1 1 0 0;1 0 1 1 0 0 0 0 1 0;0 0 0 0 1 0 0 0 1 0;0 1 1 0 0 0 1;1 0 1 1 0 0 0 1;1 1 0 0 1 0 0 0 0;0 1 1 0 1 1;1 1 0 0 0 1 1 0 1;0 0 0 1 1 0 1;1 1 0 0 0 1 1;1 1 0 0 0 0 1 0;1 1 0 0 0;1 1 0 0 0 1;0 1 1 0 0;0 1 1 0 0 0 1 0;1 0 0 1 1 0 1;1 0 0 1 1 0;1 0 1 1 0 0 0 0 1;0 0 1 1 0 0 0 1;1 1 0;1 1 0 0 0 1 0 0 0 0;0 1 1;1 0 0 0 0 1 0 0 0 1;1 0 0 1 0 0 0;1 0 0 0 1 0 0 1;1 1 0 0 0 1 1 0 0;0 1 0 0 0 1 0;1 0 0 0 0 1 1 0;0 0 1 0 0 0 1;1 1 0 0 1 0;1 0 0 0 1 0 0;1 0 0 0 1 1 0 0;1 1 0 1", false⟩
noncomputable def s544 : Setting := ⟨chars! "Fd-3m:1", 3, t214, q! "24 0 0 3 0 24 0 3 0 0 24 3", trs! "0 706 40 707 29 708 36 709 28 710 492 711 486 712 494 713 27 504 714 513 715 490 716 717 215 235 1115 251 149 14 1116 1117 624 786 1118 917 626 788 1119 1120 628 1121 1122 1123 427 631 1124 1125 35 718 719 343 103 357 720 346 491 721 722 723 493 724 725 726 495 529 727 728 729 498 730 731 216 792 157 1126 151 794 158 1127 632 796 625 1128 634 798 627 1129 636 1130 789 1131 801 639 790 1132 42 732 221 733 46 734 123 735 499 736 737 738 501 739 740 741 503 742 743 744 745 506 746 747 217 804 1133 236 153 806 1134 13 640 808 1135 787 642 810 1136 428 644 629 1137 1138 813 647 1139 1140 4 748 127 749 47 750 117 751 507 752 526 753 509 754 755 756 511 757 758 759 760 514 761 762 218 319 1141 1142 155 16 1143 1144 648 816 1145 1146 650 818 1147 1148 652 1149 1150 630 821 655 1151 791", gens! "624 1013217048629792824820135074128805529645658062210027180571094169172966375139201397827394361637576316490805604916452819063733822606842883508923225212264726511700385874855866979796774778403392436653609128588121891481514382852830557095907534605944140105282772304448043473777223711080127674639282230476006239821916039649220785192570196344650715744223348113232287143821029047567674851860725454840984473699466480801846135694742301257267721976423884265531155941484158496 40;706 426951581451892365154586733338642566765420808493703784055447085304466266592402118755064020004455256214140911534833031624966349647732372468579780919723142864744380972027942881735490763689422383700762094811160231579356193167164252560999961892554189799312389658966729770771392176979748572745563797863618322618133714732642083839579032011689554348403326618987845432692381548875317586215961721371377555199460624805614187708650465072600121354219658795477739847381352961 3", words! ";1;1 1;0 1 0;0 1 0 0 0 1 0 0;0 0 1 0 0;1 0 0 1 0 0;1 1 0 0 1 0 0;0 0 0 0;1 0 0 0 0;1 1 0 0 0 0;0 1 1 0 1;0 1 0 0 0 1;0 0 1;1 0 0 1;1 1 0 0 1;0 0;1 1 0 0 1 1;0 1 0 0 0 1 1;0 0 1 1;1 1 0 1 1 0 0 0 1;0 1 1 0 1 1;0 1 1 0 0 0 0 1 0;0 0 1 0 0 0 1 1 0;0 0 0;0 0 0 1;0 0 0 1 1;0 0 0 0 1 0;0 0 1 1 0 1 1;1 0 1 1 0 0;0 0 1 1 0;1 1 0 0 1 1 0 1;0;0 0 0 1 0 0 0 0;0 0 0 1 1 0 0 0 0;0 0 0 0 1 1 0 1;0 0 0 0 1 0 0 0 1;1 0 1 1;0 0 0 1 0 0 1;1 1 0 0 1 0 0 0;1 0 1;0 1 1 0 0 0 0;0 1 1 0 0 0 1 0 0 0;1 0 0 1 0;1 0 0 0 1 1 0 1 1 0;1 0 0 0 1 0 0;1 1 0 0 0 1 0 0;1 1 0 0 0 0 1 0 0 0;1 0 0 0 0 1 0 0 0 0;0 0 0 1 0 0 0;0 0 0 1 0 0 0 1;1 1 0 0 0 1 0 0 0;0 0 1 1 0 1 1 0 0 0;1 0 0 0 0 1 1 0 0;0 0 0 1 1 0 1 1 0 0;1 0 0 1 1 0 0 0 0;1 0 0 0 0 1 0 0;0 0 0 1 0;0 1 1 0 1 1 0 0;1 1 0 0 0 1 0;0 0 1 1 0 1 1 0;1 0 0 0 0 1 1;0 0 0 1 1 0 1 1;1 0 0 1 1 0 0;1 0 0 0 0 1;0 1 1 0;0 0 1 0 0 0 0;1 1 0 1 1 0;0 1 0 0 1 1 0;1 1 0 0;0 0 0 0 1;1 1 0 0 0 0 1;1 0 0 0 0 1 0;1 0 0 0;1 0 0 0 1;1 0 0 0 1 1;0 1 0 0 0 1 1 0 1;0 1 1 0 0 0 1 0;1 1 0 1 1 0 0;1 0 0 1 1 0;1 0 0 0 0 1 1 0 1;1 0;1 0 0 0 1 0 0 0 0;0 1 1 0 0 0 0 1;0 1 0 0 0 1 0 0 0;1 0 0 0 0 1 0 0 0 1;1 1 0 1 1;1 0 0 0 1 0 0 1;1 0 0 0 0 1 0 0 0;0 0 0 0 1 1 0;1 0 1 1 0 0 0 0;0 0 0 1 1 0 1 1 0;1 0 0 1 0 0 0 1;0 0 0 1 1 0 0;0 1;0 1 0 0 0 0 1 1 0 0;0 1 0 0 0 0 1 0 0 0;1 1 0 0 0 0 1 0 0 0 0;1 0 0 0 1 0 0 0;0 0 0 0 1 0 0 0 0;0 0 0 0 1 1 0 0;0 1 1 0 0 0 1 0 0 0 0;0 0 1 1 0 0 0 0;1 0 0 0 1 1 0 1 1 0 0;0 1 0 0 0 0 1 0;1 1 0 0 0 0 1 0 0;1 0 0 0 1 0;0 0 0 0 1 0 0;0 0 0 0 1 1;0 1 1 0 0 0 1 0 0;0 0 1 1 0 0;1 0 0 0 1 1 0 1 1;0 1 0 0 0 0 1 1 0 1;0 1 0 0 0 1 0 0 0 0;1 0 1 1 0;1 0 0 1 0 0 0 0;1 1 0 0 1 0 0 0 0;0 0 0 0 1 0 0 1;1 1 0 0 0 1 1 0 1;0 0 0 1 1 0 1;0 1 0 0 0 0 1;0 1 0 0 0 0 1 1;0 1 1 0 1 1 0;0 1 0 0 0 0;0 1 1 0 0;0 1 0 0 0 1 1 0;1 0 0 1 1 0 1;1 1 0 1 1 0 0 0 1 0;0 1 0 0 0 0 1 0 0 0 0;0 0 1 0 0 0 1 1;0 0 0 1 0 0 0 1 0;0 1 0 0;0 1 1;1 0 0 0 0 1 1 0 0 0;1 0 0 1 0 0 0;0 1 1 0 1 1 0 0 0 1;0 1 0 0 0 0 1 0 0;0 0 1 1 0 1 1 0 0;0 0 1 0;0 0 1 1 0 0 0;1 1 0 0 1 0;0 1 0 0 1;1 0 0 0 1 1 0 0;1 1 0 1;1 1 0 0 0 1 1 0 0 0;0 1 0 0 0 0 1 1 0 0 0;0 0 0 1 1 0 0 0;1 0 0 0 1 1 0 0 0;0 0 1 0 0 1;1 0 0 1 0 0 1;0 0 1 0 0 0 1 0;1 0 0 1 0 0 0 1 0;1 1 0 0 0 1 1 0;0 1 0 0 0 0 1 1 0;0 0 0 1 1 0;1 0 0 0 1 1 0;0 1 1 0 0 0;1 0 1 1 0 0 0;1 1 0 1 1 0 0 0;0 1 0 0 1 1 0 0 0;1 0 1 1 0 0 0 0 1 0;0 0 0 0 1 0 0 0 1 0;0 1 1 0 0 0 1;1 0 1 1 0 0 0 1;1 0 0 1 1;1 0 0 0 1 1 0 1;0 1 0 0 0;1 0 0;1 1 0 0 0 1 1;1 1 0 0 0 0 1 0;1 1 0 0 0;1 1 0 0 0 1;1 1 0 0 1 1 0;0 0 1 1 0 1;1 0 1 1 0 0 0 1 0;0 1 0 0 1 1 0 0;1 0 1 1 0 0 0 0 1;0 0 1 1 0 0 0 1;1 1 0;1 1 0 0 0 1 0 0 0 0;0 0 0 0 1 1 0 0 0;0 0 1 0 0 0;0 0 0 1 1 0 1 1 0 0 0;0 1 0 0 1 1;1 1 0 0 0 1 1 0 0;0 1 0 0 0 1 0;1 0 0 0 0 1 1 0;0 0 1 0 0 0 1;1 0 0 1 1 0 0 0;0 1 1 0 1 1 0 0 0;0 0 0 0 1 0 0 0;0 0 0 1 0 0", false⟩
noncomputable def b245 : Block := ⟨s543, [⟨s544, nats! "32 1 0 0 0", nats! "32 1 0 0 0"⟩]⟩

noncomputable def items19 : List Item := [
  .block b245]

theorem good19 : allB (Item.goodB lat) items19 = true := by decide +kernel

theorem text19 : Table.sgLines19 = (items19.flatMap Item.lines).map String.ofList := by krfl

end Systre.Sg.Data
