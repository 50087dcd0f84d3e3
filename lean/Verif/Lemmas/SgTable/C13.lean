import Verif.Lemmas.SgTable.Ops
import Verif.Model.SgTable.T13

/-! Written by tools/gen_sgtable.py. Lines 5070 to 5353. -/

namespace Systre.Sg.Data
set_option maxRecDepth 1000000
set_option maxHeartbeats 0

noncomputable def s508 : Setting := ⟨chars! "F23", 3, t0, q! "24 0 0 0 0 24 0 0 0 0 24 0", trs! "0 2 29 26 28 485 486 487 27 488 489 490 35 40 103 36 491 492 493 494 495 496 497 498 42 43 46 92 499 500 501 502 503 504 505 506 4 10 47 33 507 508 509 510 511 512 513 514", gens! "28 2162648502634786813996213803674210586378768899761757182621715778892121287230310851923666839005346526210775115564548 8;2 6799383491206552816996813801704075001551181987471374960656096097309580314632100391645272549621604856069990975209473 1;35 5407512545891954363558295330361018497552625720870812540152106082557217166404401391706682130796880648715125029473548 12", words! ";1;0 1 0 0;0 0 1 0;0;1 0;0 1;1 0 1;0 0;0 1 0;0 0 1;1 0 0;2;2 1;2 0 1 0 0;2 0 0 1 0;2 0;2 1 0;2 0 1;2 1 0 1;2 0 0;2 0 1 0;2 0 0 1;2 1 0 0;0 2 0 0;1 0 2 0 0;0 2 1 0 0;0 2 0 1 0;0 2;1 0 2;0 2 1;1 0 2 1;0 2 0;0 2 1 0;0 2 0 1;1 0 2 0;0 0 2 0;1 0 0 2 0;0 1 0 2 0;0 0 2 1 0;2 0 2;2 1 0 2;2 0 2 1;2 1 0 2 1;0 0 2;0 1 0 2;0 0 2 1;1 0 0 2", false⟩
noncomputable def b214 : Block := ⟨s508, []⟩
noncomputable def s509 : Setting := ⟨chars! "I23", 3, t0, q! "24 0 0 0 0 24 0 0 0 0 24 0", trs! "0 2 29 26 28 485 486 487 27 488 489 490 38 45 49 39 515 516 517 518 519 520 521 522", gens! "515 49136760775292724325118152268318953822405746917500981776 20;2 492418238369416967690932480909983732427799962446171668481 1", words! ";1;0 1 0 0 0 0 0;0 0 1 0 0 0 0;0 0 0 0;1 0 0 0 0;0 1 0 0 0;0 0 1 0 0;0 0;0 1 0;0 0 1;1 0 0;0 0 0;1 0 0 0;0 1 0 0;0 0 1 0;0;1 0;0 1;1 0 1;0 0 0 0 0;0 1 0 0 0 0;0 0 1 0 0 0;1 0 0 0 0 0", false⟩
noncomputable def b215 : Block := ⟨s509, []⟩
noncomputable def s510 : Setting := ⟨chars! "P213", 3, t0, q! "24 0 0 0 0 24 0 0 0 0 24 0", trs! "0 43 47 36 28 500 509 494 27 512 497 506", gens! "28 620193113357211589792957956 8;43 2486807837960626028247449601 1", words! ";1;0 1 0 0;0 0 1 0;0;1 0;0 1;1 0 1;0 0;0 1 0;0 0 1;1 0 0", false⟩
noncomputable def b216 : Block := ⟨s510, []⟩
noncomputable def s511 : Setting := ⟨chars! "I213", 3, t0, q! "24 0 0 0 0 24 0 0 0 0 24 0", trs! "0 99 105 36 28 523 524 494 27 525 497 506 38 127 133 137 515 526 527 528 519 529 530 531", gens! "523 73560553295796817017355193377249266143830549401485575941 22;99 198179076985146658915294833256620196916822884824941527041 1", words! ";1;1 0 0 1 0;0 0 1 0;1 0;0;1 0 1;0 1;1 0 1 0;1 0 0;0 0;1 0 0 1;0 0 0;1 0 0 0;0 1 0 0;1 0 1 0 0;1 0 0 0 0;0 0 0 0;1 0 1 0 0 0;0 1 0 0 0;0 0 1;0 1 0 1;0 0 0 0 0;0 1 0", false⟩
noncomputable def b217 : Block := ⟨s511, []⟩
noncomputable def s512 : Setting := ⟨chars! "Pm-3", 3, t0, q! "24 0 0 0 0 24 0 0 0 0 24 0", trs! "0 2 29 26 28 485 486 487 27 488 489 490 25 50 1 6 395 532 533 534 396 535 536 537", gens! "395 49136760775292724325118152268318953822405746917500981776 20;2 492418238369416967690932480909983732427799962446171668481 1", words! ";1;0 1 0 0 0 0 0;0 0 1 0 0 0 0;0 0 0 0;1 0 0 0 0;0 1 0 0 0;0 0 1 0 0;0 0;0 1 0;0 0 1;1 0 0;0 0 0;1 0 0 0;0 1 0 0;0 0 1 0;0;1 0;0 1;1 0 1;0 0 0 0 0;0 1 0 0 0 0;0 0 1 0 0 0;1 0 0 0 0 0", false⟩
noncomputable def b218 : Block := ⟨s512, []⟩
noncomputable def s513 : Setting := ⟨chars! "Pn-3:2", 3, t0, q! "24 0 0 0 0 24 0 0 0 0 24 0", trs! "0 10 103 92 28 508 493 502 27 496 505 514 25 98 104 93 395 538 539 540 396 541 542 543", gens! "395 49136760775292724325118152268318953822405746917500981776 20;10 492418238369416967690932480909983732427799962446171668481 1", words! ";1;0 1 0 0 0 0 0;0 0 1 0 0 0 0;0 0 0 0;1 0 0 0 0;0 1 0 0 0;0 0 1 0 0;0 0;0 1 0;0 0 1;1 0 0;0 0 0;1 0 0 0;0 1 0 0;0 0 1 0;0;1 0;0 1;1 0 1;0 0 0 0 0;0 1 0 0 0 0;0 0 1 0 0 0;1 0 0 0 0 0", false⟩
noncomputable def s514 : Setting := ⟨chars! "Pn-3:1", 3, t166, q! "24 0 0 -6 0 24 0 -6 0 0 24 -6", trs! "0 2 29 26 28 485 486 487 27 488 489 490 88 65 67 62 544 545 546 547 548 549 550 551", gens! "544 49136760775292724325118152268318953822405746917500981776 20;2 492418238369416967690932480909983732427799962446171668481 1", words! ";1;0 1 0 0 0 0 0;0 0 1 0 0 0 0;0 0 0 0;1 0 0 0 0;0 1 0 0 0;0 0 1 0 0;0 0;0 1 0;0 0 1;1 0 0;0 0 0;1 0 0 0;0 1 0 0;0 0 1 0;0;1 0;0 1;1 0 1;0 0 0 0 0;0 1 0 0 0 0;0 0 1 0 0 0;1 0 0 0 0 0", false⟩
noncomputable def b219 : Block := ⟨s513, [⟨s514, nats! "16 1 0 0 0", nats! "16 1 0 0 0"⟩]⟩
noncomputable def s515 : Setting := ⟨chars! "Fm-3", 3, t0, q! "24 0 0 0 0 24 0 0 0 0 24 0", trs! "0 2 29 26 28 485 486 487 27 488 489 490 25 50 1 6 395 532 533 534 396 535 536 537 35 40 103 36 491 492 493 494 495 496 497 498 87 63 59 61 552 553 554 555 556 557 558 559 42 43 46 92 499 500 501 502 503 504 505 506 89 64 66 53 560 561 562 563 564 565 566 567 4 10 47 33 507 508 509 510 511 512 513 514 86 56 5 9 568 569 570 571 572 573 574 575", gens! "395 158272364633237179784396296255854991415873027149043838697327536465596191693554901622168332588079156988324294957601779181015069245199431571466198316136462121508703535150515313538376963381341655175756745606737408073711118527981883920 20;2 560148050179375191200394238713553859710538364389744583939379631325524809902222076351357078750874579843732029771537753199348244807722449250641397495377017377779899818610732259621231343621713026468346347821313053473480310620858548225 1;35 432245867635709874078233366537872299275212063881286819654970018001348054547190583636931998385849224829352229288141616283745505625306159038853075337462548005210633723753459263749575097463942519083717692145857243588878900937266698520 24", words! ";1;0 1 0 0 0 0 0;0 0 1 0 0 0 0;0 0 0 0;1 0 0 0 0;0 1 0 0 0;0 0 1 0 0;0 0;0 1 0;0 0 1;1 0 0;0 0 0;1 0 0 0;0 1 0 0;0 0 1 0;0;1 0;0 1;1 0 1;0 0 0 0 0;0 1 0 0 0 0;0 0 1 0 0 0;1 0 0 0 0 0;2;2 1;2 0 1 0 0 0 0 0;2 0 0 1 0 0 0 0;2 0 0 0 0;2 1 0 0 0 0;2 0 1 0 0 0;2 0 0 1 0 0;2 0 0;2 0 1 0;2 0 0 1;2 1 0 0;2 0 0 0;2 1 0 0 0;2 0 1 0 0;2 0 0 1 0;2 0;2 1 0;2 0 1;2 1 0 1;2 0 0 0 0 0;2 0 1 0 0 0 0;2 0 0 1 0 0 0;2 1 0 0 0 0 0;0 2 0 0 0 0 0;1 0 2 0 0 0 0 0;0 2 1 0 0 0 0 0;0 2 0 1 0 0 0 0;0 2 0 0 0;1 0 2 0 0 0;0 2 1 0 0 0;0 2 0 1 0 0;0 2 0;0 2 1 0;0 2 0 1;1 0 2 0;0 2 0 0;1 0 2 0 0;0 2 1 0 0;0 2 0 1 0;0 2;1 0 2;0 2 1;1 0 2 1;0 2 0 0 0 0;0 2 1 0 0 0 0;0 2 0 1 0 0 0;1 0 2 0 0 0 0;0 0 2 0 0 0 0;1 0 0 2 0 0 0 0;0 1 0 2 0 0 0 0;0 0 2 1 0 0 0 0;0 0 2 0 0;1 0 0 2 0 0;0 1 0 2 0 0;0 0 2 1 0 0;0 0 2;0 1 0 2;0 0 2 1;1 0 0 2;0 0 2 0;1 0 0 2 0;0 1 0 2 0;0 0 2 1 0;2 0 2;2 1 0 2;2 0 2 1;2 1 0 2 1;0 0 2 0 0 0;0 1 0 2 0 0 0;0 0 2 1 0 0 0;1 0 0 2 0 0 0", false⟩
noncomputable def b220 : Block := ⟨s515, []⟩

noncomputable def items13 : List Item := [
  .block b214,
  .block b215,
  .block b216,
  .block b217,
  .block b218,
  .block b219,
  .block b220]

theorem good13 : allB (Item.goodB lat) items13 = true := by decide +kernel

theorem text13 : Table.sgLines13 = (items13.flatMap Item.lines).map String.ofList := by krfl

end Systre.Sg.Data
