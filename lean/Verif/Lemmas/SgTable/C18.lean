import Verif.Lemmas.SgTable.Ops
import Verif.Model.SgTable.T18

/-! Written by tools/gen_sgtable.py. Lines 6892 to 7084. -/

namespace Systre.Sg.Data
set_option maxRecDepth 1000000
set_option maxHeartbeats 0

noncomputable def s542 : Setting := ⟨chars! "Fm-3c", 3, t0, q! "24 0 0 0 0 24 0 0 0 0 24 0", trs! "0 241 10 242 29 922 33 923 28 898 508 899 486 924 510 925 27 496 901 505 926 490 927 677 25 243 98 244 1 928 109 929 395 904 538 905 533 930 931 932 396 541 907 542 933 537 934 915 35 228 127 935 103 285 117 936 491 672 526 937 493 674 755 938 495 845 939 847 457 498 940 941 87 942 129 943 59 944 118 293 552 945 946 947 554 948 949 950 556 535 951 952 953 559 954 909 42 955 125 229 46 956 119 286 499 957 853 673 501 958 781 458 503 529 959 856 960 506 961 962 89 963 126 964 66 292 175 965 560 966 967 968 562 969 970 971 564 972 973 536 974 567 975 976 4 977 861 978 47 979 164 980 507 981 866 982 509 983 869 984 511 871 675 744 985 514 676 986 86 987 50 988 5 989 6 990 568 991 532 992 570 993 534 994 572 995 996 997 998 575 999 1000", gens! "395 1461619843707855948055960257591154401469202130877435985987568041883604797939924279063207310053998502526749474162310552593162630440937833551583235364078132398426728682958039546833902480062549973564894003994479583771661159236389865038650588193025792663596646876761056768700205715868038299015941546774313823108402602587047652924751025040466698347520556130384259492480449618284129781139821629407738844908437481915256518330398659366680615585012125466481973191089872416 40;922 1748731944239672446542555743219384930487802258205215389243768694674598804618965487061562322518652527548646271446915341620231015290491411038648744785198717540614249489469023524760447554787433309577274713717164307710579224293974773146290517709509189335064005485811835624114694490010852849404789427198476426376374329313081254185962484503133502181660203397456244942135411472205350684235948550096534002990593378160115653316570892087370816600569699048937096789786858501 149", words! ";1 1 0 1 0;0 1 0 0 1 0;0 1 1 0 1 0 0;1 0 1 0;1;1 1 0 1 0 1;1 0 1 0 0 1 0;0 0 0 0;1 1 0 1 0 0 0 0 0;0 1 0 0 1 0 0 0 0 0;0 1 1 0 1;1 0 1 0 0 0 0 0;1 0 0 0 0;1 0 0 1 1 1;0 1 1 1 0 1 0 0 1;0 0;0 0 1 0 0 1 0 0;1 0 1 1 0;1 0 0 1 0 0 0 0;1 0 0 1 0 1 0;0 0 1 0 1 0;0 0 1 0 0 0 0;0 1 0 0 1 1 0;0 0 0;1 1 0 1 0 0 0 0;0 1 0 0 1 0 0 0 0;0 1 1 0 1 0 0 0 0 0;1 0 1 0 0 0 0;1 0 0 0;1 1 0 1 0 1 0 0 0;1 0 1 0 0 1 0 0 0 0;0;1 1 0 1 0 0;0 1 0 0 1 0 0;0 1 1 0 1 0 0 0;1 0 1 0 0;1 0;1 1 0 1 0 1 0;1 0 1 0 0 1 0 0;0 0 0 0 0;1 1 1 0 1 1 1;1 0 1 1 0 0 0 0;1 0 0 1 0;1 1 1 0 1 0 0 1;1 1 0 1 0 0 1;0 0 1 0;1 1 0 1 1 1;0 1 1 0 0 0 0 0;1 1 0 1 1 1 0;0 1 1 1 0 0 1 0;0 0 1 0 0;0 0 1 0 0 1;1 0 0 1 1 0 0 0 0;1 0 0 1 0 0;0 1 0 1 0 0 1 0 0;0 1 1 0 0 0;0 1 0 0 1 1 0 0 0;1 0 1 0 1 0 0 1;0 0 1;0 0 1 0 0 1 0 0 0 0;1 0 0 1 1 0 0;1 0 0 1;0 1 0 1 0 0 1;0 1 1 0;1 0 1 0 0 0;1 1 1 0 0;1 1 0 1 0 1 0 0;1 0 0 1 1 1 0 1 0;0 1 1 0 1 0 1 0;0 1 1 0 1 0 0 0 0;1 1 0 1 0 0 0;0 1 1 0 0;0 1 0 0 1 1 0 0;0 0 1 1 1 0 1 0 0;0 0 1 0 0 0 0 0;0 0 1 0 0 1 0 0 0;1 0 0 1 1 0;1 0 0 1 0 0 0 0 0;1 0 1 1 0 1 0 1 0 0;0 1 1;0 1 0 0 1 1;0 0 1 1 1 0 1;0 0 1 0 0 0;0 0 1 0 0 1 0;1 1 1 0 1 1;1 0 0 1 0 0 0;1 0 1 1 0 1 0 1;0 1 1 0 0 0 0;1 0 1;0 1 0 1 0 1;1 0 0 1 1 1 0;1 0 1 1 1 0 0 1;0 1 0 0 1 1 1;0 1 1 0 1 0;1 1 0 1;0 0 1 1 0 0 0 0;0 1 1 1 0;0 1 0 0 1 1 1 0;1 1 0 0 1 0 0;1 0 1 1 1 0;1 0 1 1 0 0 0 0 0;0 1 1 1 0 1;1 0 1 1 1 0 0 1 0;0 0 1 1 0 0;0 0 1 0 1 0 1;0 1 1 0 1 0 1 0 0 0;1 1 0 0 1;1 0 0 1 0 1 0 1;1 0 1 1 0 0 0;1 1 1 0 0 1;1 1 0 1 0 1 0 0 1;0 0 1 1;1 1 1 0 1 0 0 0;1 0 0;0 1 0 1 0 0;1 0 1 1 0 1 0 1 0;0 0 1 1 1 0 1 0;1 0 1 0 1 0 0;0 1 0 0 0;0 0 1 1 0;0 1 1 1 0 0 0 0;0 1 1 0 1 0 1 0 0;1 1 0 0 1 0 0 0 0 0;1 0 1 1 1 0 0 0 0;1 0 1 1 0 0;0 1 1 1 0 1 0 0 0;1 0 0 1 1 1 0 1 0 0;1 1 0 1 1;0 1 1 1 0 0;0 1 1 0 1 0 1;1 1 0 0 1 0 0 0;1 0 1 1 1 0 0;1 0 1 1;0 1 1 1 0 1 0;1 0 0 1 1 1 0 1;0 0 1 1 0 0 0;1 1 1 0 1;1 0 0 0 0 0;1 0 1 1 0 1 0;0 1 0 1 0 0 1 0;0 1 1 1 0 0 1;0 0 1 1 1 0;0 1;1 1;0 1 0;1 1 0 1 0 0 1 0;1 0 1 0 1;1 1 1 0 1 0;1 1 1;0 1 0 1;1 1 1 0 1 0 0 1 0;1 1 0 0 0 0;0 1 0 0 0 0 0;0 0 1 0 1 0 0 0;0 0 1 1 1;1 1 1 0 1 0 0 0 0 0;1 1 1 0 0 0 0;1 0 1 1 0 1;1 0 0 1 0 1 0 0 0;1 1 0 0;1 0 1 1 1 0 0 0;1 0 0 1 1;0 1 1 1 0 1 0 0;1 0 1 0 0 1 0 0 0;0 1 0 0 1 0 0 0;1 1 0 0 1 0 0 0 0;0 1 1 1 0 0 0;1 1 0 0 0;0 1 0 0 0 0;0 0 1 0 1 0 0;1 0 1 0 1 0 0 0;1 1 1 0 1 0 0 0 0;1 1 1 0 0 0;0 1 0 1 0 0 0;1 0 0 1 0 1 0 0;1 1 0;0 1 0 0;0 0 1 0 1;1 0 1 0 1 0;1 1 1 0 1 0 0;1 1 1 0;0 1 0 1 0;1 0 0 1 0 1;1 1 0 0 0 0 0;1 0 1 1 1;1 0 0 1 1 0 0 0;1 1 1 0 0 1 0;1 0 1 0 0 1;0 1 0 0 1;1 1 0 0 1 0;0 1 1 1", false⟩
noncomputable def b244 : Block := ⟨s542, []⟩

noncomputable def items18 : List Item := [
  .block b244]

theorem good18 : allB (Item.goodB lat) items18 = true := by decide +kernel

theorem text18 : Table.sgLines18 = (items18.flatMap Item.lines).map String.ofList := by krfl

end Systre.Sg.Data
