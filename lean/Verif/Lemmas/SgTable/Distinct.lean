import Verif.Lemmas.SgTable.All
import Verif.Lemmas.SgDistinct

/-! Written by tools/gen_sgtable.py. The groups of the lookups in standard coordinates. -/

namespace Systre.Sg.Data
set_option maxRecDepth 1000000
set_option maxHeartbeats 0

/-- numbers for the groups of the lookups -/
noncomputable def sums : List Nat := nats! "5997952772443334030 10224238278597772066 9839849113967169918 8033086167094879202 17509208517567380302 17505343940031837238 21746873101383569662 22082227350396984162 38075984444464578878 14072375953602143270 28858031227846911390 35957184858374762330 14929945591243291486 37279266065406565146 28067877019361263398 26263879865426469770 61751131767707715342 107857889690849757783 39942855520718554231 85577623558279382163 83522196346415691387 32806908927296404327 36064166273926837531 35490373029315114151 136682584811073806431 37678731344616039847 15355857256698954763 87779505600010171267 197961963201577426683 238405532866403793423 90372661825270147867 10224238278597772067 37763585492166978823 243995171446195177799 33642202234869045963 7617582650187341231 274627049378506625155 90401764706862098195 79497522720160005271 104386317139814078731 20159694241315710215 37868174650997058299 70329326212961474011 47493257451518505951 43660315940795354479 25699085807461784147 70726758898469572487 57516785900155533699 26263879865426469771 20008594051279261083 29041082989997438811 19863995867088983403 92687442424331029071 98892709771966060539 439573823974872408947 21746873101383569663 98624873931873662815 41765492982162345087 452172371609034692871 82204601849109850427 40899146236055925147 39186489048738185499 17505343940031837239 24919713342098749075 48561725765923873175 173161097169872955571 28858031227846911391 62392913304447208283 83865546060411752659 120418993490198731607 47388519930140348995 50436974716016369567 84361495907287970227 22651671102008758223 33098166811925816935 127244203403499072299 45484303650104481819 81985048566003574139 40495833409322383935 92965523476621718683 448797196011727184751 64821182763526753707 50055644240637979911 20431327688340554859 239591958244700382423 241891085877155346803 82385063862143110375 42967557386036752747 38355934469310787559 40448364699431315271 60652011829947654547 16535134576687132175 221474499786089958535 17375225886553710727 43946169230737656675 41388440807948700755 45148170273095918863 18819434465710975251 39767352980452206759 251363196665836213343 31190981699378356547 35358414360792397699 27176534490569779859 122414743616836758191 91342735426767358419 15425875678707126195 56591597643115054095 88437245445927170319 8385210776738570375 111198854727173595215 14128889441425857211 18055047007321927495 13633867157228204379 235137689906703355487 12884839792014333319 28067877019361263399 49256231556826799187 138267856151747930755 86965253908536203047 265403677341651849351 35357858114928815299 21081269162037054403 100421594287163382563 452032045975928990399 31923569145400809951 99878512367002398431 45817517065519865727 50139847674902666663 40619471289677798775 97094229450441738371 42809563719704577655 79424639700434623815 53463384160810873119 49333519791369146895 35345590708591372867 48578898745751538595 88519140107836408407 219486435103108962323 22082227350396984163 64262870935517039987 101321429828760276843 24474900030297129327 89108296110637596107 15920651544472899015 86391055392999264439 18187644156208494023 17314835124039545147 46707989598742880143 115562454572039640759 125650101222162535375 37920024269481219059 93624346040788688151 139392287012287225011 61751131767707715343 40749203319386688231 21792501531761287063 246956933267942297743 90773176571016740003 62553445581083664423 14863073043892299579 40950911655254289091 76051090598771743903 48601540640279460307 103000017025394701435 43958703159144224599 25375947456809330467 41157880415378723843 43150134580069530791 45064745257332697991 175059290171198267751 90253474621216268103 503137238572739371287 38075984444464578879 52032924964419606363 82624255617173917763 32197075393193507219 24363977247465617579 21296134326223765491 93750291413732092915 46516031712853846167 14929945591243291487 5997952772443334031 28722746082086794627 46987410589404155979 14072375953602143271 83817426845487698255 41162268892212477155 22470720324710967011 466131148105737145443 433211604612411885511 53329912372861154751 46753024780787089143 64798906569958533351 72843418771233359879 49384613974217447375 19981748009602978339 897594392023454369499 95261057489441693443 41681967516247871287 20193682740195211095 7289581154897065331 28120749970510263187 54320908396454693399 32833910426869376871 22253447116909412611 915760484830952516163 44333268157683240907 45862690044243118903 79593364105864934779 23605418830543508219 149088741339593898175 12537133118713758159 45962135732894020451 72871575727199519591 89977471902673550559 85848799367706405771 126609271741524976803 51593217755452082103 158691373766993742067 34606503779562098795 63472259414220421411 12909595524745331379 34219649473086321083 37279266065406565147 55430468050016471271 38595757643866740591 37300008637949423779 64106983999628015723 79345686883496871035 33055144374376627727 27104822082435652827 23858916038458305351 865899841917911040571 43977037843958912819 44536255403906812623 44745541095364449959 116206272640288217167 47970686876967991675 53651609748352440979 429833684487147918971 64644938505395834855 111722170901722897599 846219985279052061563 189297602758634527767 53495514038174457403 77972160682728265987 157379635178222380643"

theorem std_ok : allB (fun l => stdOk l.o.s.tr.q l.o.s.trInv l.o.s.dim (nth b0 blocks l.block).c.ops) looks = true := by decide +kernel

theorem sums_eq : natsEq (looks.map (fun l => groupKey l (nth b0 blocks l.block).c.ops)) sums = true := by decide +kernel

theorem sums_nodup : nodup sums = true := by decide +kernel

end Systre.Sg.Data
