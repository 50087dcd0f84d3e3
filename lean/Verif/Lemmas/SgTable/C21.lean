import Verif.Lemmas.SgTable.Ops
import Verif.Model.SgTable.T21

/-! Written by tools/gen_sgtable.py. Lines 7857 to 8110. -/

namespace Systre.Sg.Data
set_option maxRecDepth 1000000
set_option maxHeartbeats 0

noncomputable def s547 : Setting := ⟨chars! "Im-3m", 3, t0, q! "24 0 0 0 0 24 0 0 0 0 24 0", trs! "0 11 2 12 29 269 26 270 28 41 485 668 486 669 487 416 27 488 670 489 415 490 671 34 25 235 50 236 1 14 6 13 395 786 532 787 533 788 534 428 396 535 789 536 427 537 790 791 38 228 45 229 49 285 39 286 515 672 516 673 517 674 518 458 519 520 675 521 457 522 676 677 88 237 65 238 67 294 62 295 544 824 545 825 546 826 547 436 548 549 827 550 435 551 828 829", gens! "395 359256801178996246329127072964617352761879637965759951950726908997860103476632204195128634885992090127417797148650395429957762029983442002485456421239752236570237070892252123594389556229454977773326764581338378359224035869100092960 40;11 566094124080975515629662728408400785501615788494462408202963683261704084749774392114967200322925021906815890648285257452382567718467959499583921459744315355910349370793944283550239801368835085732620012415136812145403564990203625985 3;38 286126517772113739005388238211989705839269850505597726841836211052736556970296664448892685142675884533004920640898419774915369519192972737531257058358469252199054662464718133676846061026959508104601602515577358619693761214138167600 48", words! ";1;1 1;0 1 0;0 0 1 0 0 1;0 0 1 0 0;1 0 0 1 0 0;1 1 0 0 1 0 0;0 0 0 0;1 0 0 0 0;1 1 0 0 0 0;0 1 1 0 1;0 1 1 0 0 0;0 0 1;1 0 0 1;1 1 0 0 1;0 0;0 1 1 0;1 0 1 1 0;0 0 1 1;1 0 0 1 1;1 1 0 0;0 1 0 0 0;1 0 0;0 0 0;1 0 0 0;1 1 0 0 0;0 1 0 0 0 0;0 1 1 0 0;1 0 1 1 0 0;0 0 1 1 0;1 0 0 1 1 0;0;1 0;1 1 0;0 1 0 0;0 1 1;1 0 1 1;1 1 0 1 1;0 1 0 0 1 1;1 0 1;0 1 1 0 0 0 0;0 0 1 0;1 0 0 1 0;1 1 0 0 1 0;0 1 0 0 1;0 1;1 1 0 1;2;2 1;2 1 1;2 0 1 0;2 0 0 1 0 0 1;2 0 0 1 0 0;2 1 0 0 1 0 0;2 1 1 0 0 1 0 0;2 0 0 0 0;2 1 0 0 0 0;2 1 1 0 0 0 0;2 0 1 1 0 1;2 0 1 1 0 0 0;2 0 0 1;2 1 0 0 1;2 1 1 0 0 1;2 0 0;2 0 1 1 0;2 1 0 1 1 0;2 0 0 1 1;2 1 0 0 1 1;2 1 1 0 0;2 0 1 0 0 0;2 1 0 0;2 0 0 0;2 1 0 0 0;2 1 1 0 0 0;2 0 1 0 0 0 0;2 0 1 1 0 0;2 1 0 1 1 0 0;2 0 0 1 1 0;2 1 0 0 1 1 0;2 0;2 1 0;2 1 1 0;2 0 1 0 0;2 0 1 1;2 1 0 1 1;2 1 1 0 1 1;2 0 1 0 0 1 1;2 1 0 1;2 0 1 1 0 0 0 0;2 0 0 1 0;2 1 0 0 1 0;2 1 1 0 0 1 0;2 0 1 0 0 1;2 0 1;2 1 1 0 1", false⟩
noncomputable def b247 : Block := ⟨s547, []⟩
noncomputable def s548 : Setting := ⟨chars! "Ia-3d", 3, t0, q! "24 0 0 0 0 24 0 0 0 0 24 0", trs! "0 334 43 335 105 357 94 358 28 769 500 770 524 724 777 765 27 512 773 497 715 506 766 767 25 338 110 339 106 359 95 360 395 1322 656 1323 663 1324 1325 1326 396 659 1327 660 1328 661 1329 1330 38 342 258 343 133 361 119 362 515 778 779 723 527 780 781 772 519 782 783 530 774 531 784 785 88 347 57 348 5 363 61 364 544 1331 1332 1333 570 1334 555 1335 548 1336 1337 666 883 667 1338 1339", gens! "524 226355863137925017837071207764679462073739493261291289111583294374537711030262336915512881603838727792068745996473117311712427682084641431539563735617946452379672013436586090488494891631537391963098575335090845127886322792503198220 69;334 566094124080709730120392209739015252348135582982791684153920973945225566298918010701871740285027765471580559963376854418956114202649147309949481115057055820197804100934906139146914885470246865091338565482372385776098428829705634305 3;25 432245867635709874078233366537872299275212063881286819654970018001348054547190583636931998385849224829352229288141616283745505625306159038853075337462548005210633723753459263749575097463942519083717692145857243588878900937266698520 24", words! ";1;1 1;1 1 1;0 1 1 0 0;1 0 1 1 0 0;0 0 1 1 0;2 0 1 2 0;2 0 1 2 1;0 1 1 0 1;0 0 1 1 0 0;0 0 1 1 1;0;1 0;1 1 0;1 1 1 0;1 1 0 0;0 0 1 1;2 0 1 2;0 1 1 0;1 1 0 1;0 0;0 1 1 1;0 0 1 0;2;2 1;2 1 1;2 1 1 1;1 2 0 1 0;1 2 1 0 1 0;0 1 2 0 1;0 1 2 0;0 1 2 1;1 2 0 1 1;0 1 2 0 1 0;0 1 2 0 0;2 0;2 1 0;2 1 1 0;0 0 1 2;2 1 1 0 0;2 0 0 1 1;0 1 2;1 2 0 1;2 1 1 0 1;2 0 0;1 2 0 0;2 0 0 1 0;0 0 0;2 1 2;2 1 2 1;2 1 2 1 1;1 0 1 0;1 1 0 1 0;0 1 0 1;0 1 0;0 1 1;1 0 1 1;0 1 0 1 0;0 1 0 0;0 0 0 0;2 1 2 0;2 1 2 1 0;0 0 1;1 0 1 1 1;1 1 1 0 1;0 1;1 0 1;1 0 1 1 0;0 0 0 0 0;1 0 0;1 1 1 0 0;2 0 0 0;1 2;1 2 1;1 2 1 1;2 1 0 1 0;2 1 1 0 1 0;2 0 1 0 1;2 0 1 0;2 0 1 1;2 1 0 1 1;2 0 1 0 1 0;2 0 1 0 0;2 0 0 0 0;1 2 0;1 2 1 0;2 0 0 1;1 2 1 0 0;0 0 1 2 1;2 0 1;2 1 0 1;1 2 1 0 1;2 0 0 0 0 0;2 1 0 0;0 0 1 2 0", false⟩
noncomputable def b248 : Block := ⟨s548, []⟩

noncomputable def items21 : List Item := [
  .block b247,
  .block b248,
  .nothing (chars! ""),
  .nothing (chars! ""),
  .nothing (chars! "# Short names for some of the settings."),
  .nothing (chars! ""),
  .alias_ (chars! "P2") (chars! "P121"),
  .alias_ (chars! "P21") (chars! "P1211"),
  .alias_ (chars! "C2") (chars! "C121"),
  .alias_ (chars! "A2") (chars! "A121"),
  .alias_ (chars! "I2") (chars! "I121"),
  .alias_ (chars! "Pm") (chars! "P1m1"),
  .alias_ (chars! "Pc") (chars! "P1c1"),
  .alias_ (chars! "Pn") (chars! "P1n1"),
  .alias_ (chars! "Pa") (chars! "P1a1"),
  .alias_ (chars! "Cm") (chars! "C1m1"),
  .alias_ (chars! "Am") (chars! "A1m1"),
  .alias_ (chars! "Im") (chars! "I1m1"),
  .alias_ (chars! "Cc") (chars! "C1c1"),
  .alias_ (chars! "An") (chars! "A1n1"),
  .alias_ (chars! "Ia") (chars! "I1a1"),
  .alias_ (chars! "Aa") (chars! "A1a1"),
  .alias_ (chars! "Cn") (chars! "C1n1"),
  .alias_ (chars! "Ic") (chars! "I1c1"),
  .alias_ (chars! "P2/m") (chars! "P12/m1"),
  .alias_ (chars! "P21/m") (chars! "P121/m1"),
  .alias_ (chars! "C2/m") (chars! "C12/m1"),
  .alias_ (chars! "A2/m") (chars! "A12/m1"),
  .alias_ (chars! "I2/m") (chars! "I12/m1"),
  .alias_ (chars! "P2/c") (chars! "P12/c1"),
  .alias_ (chars! "P2/n") (chars! "P12/n1"),
  .alias_ (chars! "P2/a") (chars! "P12/a1"),
  .alias_ (chars! "P21/c") (chars! "P121/c1"),
  .alias_ (chars! "P21/n") (chars! "P121/n1"),
  .alias_ (chars! "P21/a") (chars! "P121/a1"),
  .alias_ (chars! "C2/c") (chars! "C12/c1"),
  .alias_ (chars! "A2/n") (chars! "A12/n1"),
  .alias_ (chars! "I2/a") (chars! "I12/a1"),
  .alias_ (chars! "A2/a") (chars! "A12/a1"),
  .alias_ (chars! "C2/n") (chars! "C12/n1"),
  .alias_ (chars! "I2/c") (chars! "I12/c1"),
  .nothing (chars! ""),
  .alias_ (chars! "Pm3") (chars! "Pm-3"),
  .alias_ (chars! "Pn3") (chars! "Pn-3"),
  .alias_ (chars! "Fm3") (chars! "Fm-3"),
  .alias_ (chars! "Fd3") (chars! "Fd-3"),
  .alias_ (chars! "Im3") (chars! "Im-3"),
  .alias_ (chars! "Pa3") (chars! "Pa-3"),
  .alias_ (chars! "Ia3") (chars! "Ia-3"),
  .alias_ (chars! "Pm3m") (chars! "Pm-3m"),
  .alias_ (chars! "Pn3n") (chars! "Pn-3n"),
  .alias_ (chars! "Pm3n") (chars! "Pm-3n"),
  .alias_ (chars! "Pn3m") (chars! "Pn-3m"),
  .alias_ (chars! "Fm3m") (chars! "Fm-3m"),
  .alias_ (chars! "Fm3c") (chars! "Fm-3c"),
  .alias_ (chars! "Fd3m") (chars! "Fd-3m"),
  .alias_ (chars! "Fd3c") (chars! "Fd-3c"),
  .alias_ (chars! "Im3m") (chars! "Im-3m"),
  .alias_ (chars! "Ia3d") (chars! "Ia-3d"),
  .nothing (chars! ""),
  .nothing (chars! "# Lookup settings for use by the SpaceGroupFinder class."),
  .nothing (chars! "")]

theorem good21 : allB (Item.goodB lat) items21 = true := by decide +kernel

theorem text21 : Table.sgLines21 = (items21.flatMap Item.lines).map String.ofList := by krfl

end Systre.Sg.Data
