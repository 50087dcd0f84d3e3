import Verif.Lemmas.SgTable.Ops
import Verif.Model.SgTable.T20

/-! Written by tools/gen_sgtable.py. Lines 7471 to 7856. -/

namespace Systre.Sg.Data
set_option maxRecDepth 1000000
set_option maxHeartbeats 0

noncomputable def s545 : Setting := ⟨chars! "Fd-3c:2", 3, t0, q! "24 0 0 0 0 24 0 0 0 0 24 0", trs! "0 1152 196 1153 191 1154 198 923 28 1155 588 1156 577 1157 590 925 27 603 1158 616 457 581 1159 1160 25 1161 1162 1163 194 1164 1165 929 395 1166 1167 1168 583 1169 1170 932 396 1171 1172 1173 459 587 1174 1175 35 1176 1177 1178 197 1179 1180 936 491 1181 1182 1183 589 1184 1185 938 495 1186 1187 1096 1188 593 1189 1190 87 1191 193 1192 200 1193 195 293 552 1194 582 1195 595 1196 584 950 556 1197 1198 1199 933 599 1200 1201 42 1202 1027 1203 203 1204 1030 286 499 1205 1032 1206 601 1207 1035 458 503 1208 1209 1210 1211 605 1212 1213 89 1214 1215 1216 206 1217 1218 965 560 1219 1220 1221 607 1222 1223 971 564 585 1224 1225 1226 611 1227 1228 4 1229 1230 1231 209 1232 1233 980 507 1234 1235 1236 613 1237 1238 984 511 1066 1239 1240 1241 617 1242 1243 86 1244 1245 1246 212 1247 1248 990 568 1249 1250 1251 619 1252 1253 994 572 1254 1255 586 1256 623 1257 1258", gens! "395 1013217048629792824820135074128805529645658062210027180571094169172966375139201397827394361637576316490805604916452819063733822606842883508923225212264726511700385874855866979796774778403392436653609128588121891481514382852830557095907534605944140105282772304448043473777223711080127674639282230476006239821916039649220785192570196344650715744223348113232287143821029047567674851860725454840984473699466480801846135694742301257267721976423884265531155941484158496 40;1152 426951581451892365154586733338642566765420808493703784055447085304466266592402118755064020004455256214140911534833031624966349647732372468579780919723142864744380972027942881735490763689422383700762094811160231579356193167164252560999961892554189799312389658966729770771392176979748572745563797863618322618133714732642083839579032011689554348403326618987845432692381548875317586215961721371377555199460624805614187708650465072600121354219658795477739847381352961 3", words! ";1;1 1;0 1 0;0 1 0 0 0 1 0 0;0 0 1 0 0;1 0 0 1 0 0;1 1 0 0 1 0 0;0 0 0 0;1 0 0 0 0;1 1 0 0 0 0;0 1 1 0 1;0 1 0 0 0 1;0 0 1;1 0 0 1;1 1 0 0 1;0 0;1 1 0 0 1 1;0 1 0 0 0 1 1;0 0 1 1;1 1 0 1 1 0 0 0 1;0 1 1 0 1 1;0 1 1 0 0 0 0 1 0;0 0 1 0 0 0 1 1 0;0 0 0;0 0 0 1;0 0 0 1 1;0 0 0 0 1 0;0 0 1 1 0 1 1;1 0 1 1 0 0;0 0 1 1 0;1 1 0 0 1 1 0 1;0;0 0 0 1 0 0 0 0;0 0 0 1 1 0 0 0 0;0 0 0 0 1 1 0 1;0 0 0 0 1 0 0 0 1;1 0 1 1;0 0 0 1 0 0 1;1 1 0 0 1 0 0 0;1 0 1;0 1 1 0 0 0 0;0 1 1 0 0 0 1 0 0 0;1 0 0 1 0;1 0 0 0 1 1 0 1 1 0;1 0 0 0 1 0 0;1 1 0 0 0 1 0 0;1 1 0 0 0 0 1 0 0 0;1 0 0 0 0 1 0 0 0 0;0 0 0 1 0 0 0;0 0 0 1 0 0 0 1;1 1 0 0 0 1 0 0 0;0 0 1 1 0 1 1 0 0 0;1 0 0 0 0 1 1 0 0;0 0 0 1 1 0 1 1 0 0;1 0 0 1 1 0 0 0 0;1 0 0 0 0 1 0 0;0 0 0 1 0;0 1 1 0 1 1 0 0;1 1 0 0 0 1 0;0 0 1 1 0 1 1 0;1 0 0 0 0 1 1;0 0 0 1 1 0 1 1;1 0 0 1 1 0 0;1 0 0 0 0 1;0 1 1 0;0 0 1 0 0 0 0;1 1 0 1 1 0;0 1 0 0 1 1 0;1 1 0 0;0 0 0 0 1;1 1 0 0 0 0 1;1 0 0 0 0 1 0;1 0 0 0;1 0 0 0 1;1 0 0 0 1 1;0 1 0 0 0 1 1 0 1;0 1 1 0 0 0 1 0;1 1 0 1 1 0 0;1 0 0 1 1 0;1 0 0 0 0 1 1 0 1;1 0;1 0 0 0 1 0 0 0 0;0 1 1 0 0 0 0 1;0 1 0 0 0 1 0 0 0;1 0 0 0 0 1 0 0 0 1;1 1 0 1 1;1 0 0 0 1 0 0 1;1 0 0 0 0 1 0 0 0;0 0 0 0 1 1 0;1 0 1 1 0 0 0 0;0 0 0 1 1 0 1 1 0;1 0 0 1 0 0 0 1;0 0 0 1 1 0 0;0 1;0 1 0 0 0 0 1 1 0 0;0 1 0 0 0 0 1 0 0 0;1 1 0 0 0 0 1 0 0 0 0;1 0 0 0 1 0 0 0;0 0 0 0 1 0 0 0 0;0 0 0 0 1 1 0 0;0 1 1 0 0 0 1 0 0 0 0;0 0 1 1 0 0 0 0;1 0 0 0 1 1 0 1 1 0 0;0 1 0 0 0 0 1 0;1 1 0 0 0 0 1 0 0;1 0 0 0 1 0;0 0 0 0 1 0 0;0 0 0 0 1 1;0 1 1 0 0 0 1 0 0;0 0 1 1 0 0;1 0 0 0 1 1 0 1 1;0 1 0 0 0 0 1 1 0 1;0 1 0 0 0 1 0 0 0 0;1 0 1 1 0;1 0 0 1 0 0 0 0;1 1 0 0 1 0 0 0 0;0 0 0 0 1 0 0 1;1 1 0 0 0 1 1 0 1;0 0 0 1 1 0 1;0 1 0 0 0 0 1;0 1 0 0 0 0 1 1;0 1 1 0 1 1 0;0 1 0 0 0 0;0 1 1 0 0;0 1 0 0 0 1 1 0;1 0 0 1 1 0 1;1 1 0 1 1 0 0 0 1 0;0 1 0 0 0 0 1 0 0 0 0;0 0 1 0 0 0 1 1;0 0 0 1 0 0 0 1 0;0 1 0 0;0 1 1;1 0 0 0 0 1 1 0 0 0;1 0 0 1 0 0 0;0 1 1 0 1 1 0 0 0 1;0 1 0 0 0 0 1 0 0;0 0 1 1 0 1 1 0 0;0 0 1 0;0 0 1 1 0 0 0;1 1 0 0 1 0;0 1 0 0 1;1 0 0 0 1 1 0 0;1 1 0 1;1 1 0 0 0 1 1 0 0 0;0 1 0 0 0 0 1 1 0 0 0;0 0 0 1 1 0 0 0;1 0 0 0 1 1 0 0 0;0 0 1 0 0 1;1 0 0 1 0 0 1;0 0 1 0 0 0 1 0;1 0 0 1 0 0 0 1 0;1 1 0 0 0 1 1 0;0 1 0 0 0 0 1 1 0;0 0 0 1 1 0;1 0 0 0 1 1 0;0 1 1 0 0 0;1 0 1 1 0 0 0;1 1 0 1 1 0 0 0;0 1 0 0 1 1 0 0 0;1 0 1 1 0 0 0 0 1 0;0 0 0 0 1 0 0 0 1 0;0 1 1 0 0 0 1;1 0 1 1 0 0 0 1;1 0 0 1 1;1 0 0 0 1 1 0 1;0 1 0 0 0;1 0 0;1 1 0 0 0 1 1;1 1 0 0 0 0 1 0;1 1 0 0 0;1 1 0 0 0 1;1 1 0 0 1 1 0;0 0 1 1 0 1;1 0 1 1 0 0 0 1 0;0 1 0 0 1 1 0 0;1 0 1 1 0 0 0 0 1;0 0 1 1 0 0 0 1;1 1 0;1 1 0 0 0 1 0 0 0 0;0 0 0 0 1 1 0 0 0;0 0 1 0 0 0;0 0 0 1 1 0 1 1 0 0 0;0 1 0 0 1 1;1 1 0 0 0 1 1 0 0;0 1 0 0 0 1 0;1 0 0 0 0 1 1 0;0 0 1 0 0 0 1;1 0 0 1 1 0 0 0;0 1 1 0 1 1 0 0 0;0 0 0 0 1 0 0 0;0 0 0 1 0 0", false⟩
noncomputable def s546 : Setting := ⟨chars! "Fd-3c:1", 3, t1259, q! "24 0 0 -3 0 24 0 -3 0 0 24 -3", trs! "0 706 40 707 29 708 36 709 28 710 492 711 486 712 494 713 27 504 714 513 715 490 716 717 1260 830 1261 240 1262 832 1263 317 1264 834 1265 1266 1267 836 1268 1269 1270 1271 1272 1273 839 1274 1275 976 35 718 719 343 103 357 720 346 491 721 722 723 493 724 725 726 495 529 727 728 729 498 730 731 1276 237 1277 831 1278 294 1279 833 1280 824 1281 835 1282 826 1283 837 1284 1285 973 1286 435 1287 975 1288 42 732 221 733 46 734 123 735 499 736 737 738 501 739 740 741 503 742 743 744 745 506 746 747 1289 850 1290 988 1291 851 1292 990 1293 852 1294 992 1295 854 1296 994 1297 1298 1299 1300 857 1301 1302 1303 4 748 127 749 47 750 117 751 507 752 526 753 509 754 755 756 511 757 758 759 760 514 761 762 1304 860 1305 1306 1307 863 1308 325 1309 865 1310 1311 1312 868 1313 1314 1315 1316 1317 1318 872 1319 1320 1321", gens! "1264 555994187192048093055132810068277714642086732163521428435038926451581709338241360772309907009038091660599700049871439656241012022195799597051326345699689915770507970504600428008668163161379911937714909412126649742127529905500182331208683330677008990717396506435151116603234502214579995327359514117588788183883364113806760750727194784847689625467077110679341056480633021313062963459069604035076901939330464929904767920589280322430537945234837109426959681979702816 136;706 1784497026306681731354564359642210029978323050251276307497819397183440820466188450017246219195558871174882265420599453031012896286855010524106494130344326227358685418657837453921182336098666869868081407105821581359240092517557295103486696480850802896923567527196052133882649729139692032932506271021915206178239373246420807193308780481626453122118700260392363117293682079353593141457882398279574785763692410942999502906093157960502363194744887300446582994307842561 3", words! ";1;1 1;1 1 1;0 1 0 0 0 1 0 0;0 0 1 1 0 1 0 0 0;0 1 1 1 0 0 1 0;0 1 1 0 1 1 1 0 0;1 0 1 0 0 0 0 0;1 1 0 1 0 0 0 0 0;0 1 1 0 1 1 0 0;0 1 0 0 0 0 0;0 0 1 1 0 1 1 0;0 0 1 0 1 0 1;1 0 0 1 0 1 0 1;0 1 0 0 1 0 0 0 1;0 0 1 0 1 0;0 1 1 1 0 1 0 0;0 1 1 1 0 0 0;1 0 1 1 1 0 0 0;1 0 0 1 1;1 1 0 1 0 1 0 0;1 1 1 0 0;1 0 0;1 0 1 0 0 0 0;1 0 0 0;1 0 0 0 1;1 0 0 0 1 1;0 1 1 0 1 0 1 0 0;0 1 1 1 0 0 0 0;1 1 0 1 1 0 0;1 0 0 1 1 0;0;1 1 0 1 0 0;0 1 0 0 1 0 0;0 1 1 0 1 0 0 0;0 1 1 1 0 1 0;1 0 1 1 0 1 0 1;1 0 0 1 0 0 0;1 1 1 0 1 1;1 0 1 1 0 1 0;1 1 1 0 1 1 1;0 0 1 1 0 1 0 0;1 0 0 1 0;0 1 1 0 1 1 1 0;1 1 0 0 0 0 0;1 0 1 0 0 1;1 0 0 0 0 0;1 0 1 0;1 0 1 0 1;1 1 1 0 1 0;0 1 1 0 1 0 0;0 1 1 1 0 1;0 0 1 0 0;1 0 1 1 1 0;1 1 0 0 1 0 0;0 0 0 0;1 0 0 1 0 1 0 0 0;1 1 0 0 0 0;1 0 0 0 1 1 0;0 1 0 0 0 1;1 0 1 1 0 0 0;1 0 0 1 1 0 1 0;1 1 1 0 1 1 0 0 0;0 1 0 1 0 0;0 1 1 0 1 0 1 0;1 0 1 1 0;0 0 0 1 0 0 1 0;1 0 0 0 1 0 0 1 0;0 1 0 0 1 0 0 0;0 1 1 0 1 0 0 0 0;1 0 1 0 1 0 0;0 0 0;0 0 0 1;0 0 0 1 1;0 1 0 0 0 0;0 0 1 1 0 1 1;1 0 1 1 0 0;0 0 1 1 0;1 1 0 0 1 1 0 1;1 0 1 0 0;1 0 0 1 0 1;1 1 0 1 0 1 0;1 1 1 0;0 1 1 0 1 0 1;0 0 1 0 0 0;1 1 0 1 1;1 1 0 1 1 1 0 0;1 1 0 1 0 0 1;0 1 0 0 0 1 0;0 0 1 0;0 0 1 0 0 0 1;1 1 0 0 1 0;1 1 1 0 1;0 1;0 0 0 1 0 0;0 1 0 1;1 1 0 1 0;1 1 0 1 0 1;0 1 0;0 0 1 0 0 1;0 1 1 1 0;1 0 0 1 0 0;1 1 0 1 1 1 0;0 0 1 0 1 0 0 0;1 0 0 0 0;0 0 0 1 1 0;1 1 1 0 0 0 0;0 1 1 0 0 0;0 0 1 1 0 1 0;1 1 0 1 1 0 0 0;0 1 1 0 1 1 1;1 0 1 0 0 0;0 1 1 0;0 1 1 0 0 0 1;1 1 0 1 1 0;1 1 1 0 1 1 0;1 1 0 0;0 1 0 0 0;1 1 0 1 0 0 0;0 0 1 0 1 0 0;1 1 0 1 0 0 0 0;1 1 0 0 0;1 1 0 0 0 1;1 1 0 0 1 1 0;0 0 1 1 0 1;1 0 1 1 1 0 0 0 0;1 1 1 0 1 1 0 0;0 1 0 1 0;1 0;1 1 1 0 1 0 0;1 0 1 0 0 1 0 0;0 1 1;0 1 1 1 0 0;0 0 0 1 0 0 1;0 1 0 0 1 1;0 0 0 0 0;0 1 1 0 0 0 0;0 1 1 1;0 1 1 1 0 0 1;1 1 0 1 1 1;1 0 0 0 1 0 0;0 1 1 0 1 0;1 1 0 1;1 1 0 1 0 0 1 0;1 1 1 0 1 0 0 1 0;0 1 0 0 1 0;1 0 1 0 0 1 0;0 1 1 0 0 0 0 0;1 0 1 1 0 0 0 0 0;0 0 1 0 0 0 1 0;1 0 0 1 0 0 0 1 0;1 0 1 1 0 1;0 0 0 1 0;1 0 0 0 1 0;0 1 1 0 1;1 1 1 0 0 1;0 0 1;1 0 0 1;1 1 0 0 1;0 0;1 1 0 0 1 1;0 0 1 0 0 0 0;0 0 1 1;1 1 0 1 1 1 0 0 0;0 1 1 0 1 1;1 0 1 0 0 1 0 0 0;1 0 0 1 0 1 0;0 1 0 1 0 0 0;1 0 0 1 0 1 0 0;0 1 1 0 1 1 0;1 1 1 0 0 0;0 1 1 0 0;0 0 1 0 0 0 0 0;1 0 0 1 1 0 1;1 1 0 1 1 1 0 0 0 0;0 0 1 0 1;1 0 1 0 1 0;1 1 0;0 1 0 0;0 0 1 0 0 1 0;1 0 1 1;1 0 1 1 1 0 0;1 0 0 0 1 0 0 1;1 0 1;1 1 1 0 0 1 0;1 0 1 1 0 0 0 0;1 0 1 1 1;1 0 0 1 0 0 0 1;0 1 0 0 1;0 1 0 1 0 1;1 1 1 0 1 0 0 1", false⟩
noncomputable def b246 : Block := ⟨s545, [⟨s546, nats! "80 1 0 0 0", nats! "80 1 0 0 0"⟩]⟩

noncomputable def items20 : List Item := [
  .block b246]

theorem good20 : allB (Item.goodB lat) items20 = true := by decide +kernel

theorem text20 : Table.sgLines20 = (items20.flatMap Item.lines).map String.ofList := by krfl

end Systre.Sg.Data
