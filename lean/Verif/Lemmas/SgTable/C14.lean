import Verif.Lemmas.SgTable.Ops
import Verif.Model.SgTable.T14

/-! Written by tools/gen_sgtable.py. Lines 5354 to 5720. -/

namespace Systre.Sg.Data
set_option maxRecDepth 1000000
set_option maxHeartbeats 0

noncomputable def s516 : Setting := ⟨chars! "Fd-3:2", 3, t0, q! "24 0 0 0 0 24 0 0 0 0 24 0", trs! "0 190 191 192 28 576 577 578 27 579 580 581 25 193 194 195 395 582 583 584 396 585 586 587 35 196 197 198 491 588 589 590 495 591 592 593 87 199 200 201 552 594 595 596 556 597 598 599 42 202 203 204 499 600 601 602 503 603 604 605 89 205 206 207 560 606 607 608 564 609 610 611 4 208 209 210 507 612 613 614 511 615 616 617 86 211 212 213 568 618 619 620 572 621 622 623", gens! "395 158272364633237179784396296255854991415873027149043838697327536465596191693554901622168332588079156988324294957601779181015069245199431571466198316136462121508703535150515313538376963381341655175756745606737408073711118527981883920 20;190 121790000588586785981858853741438935847689428662053701247559982457255710495000545059229947897224847626081731476318505349881034845499007677501563860625877751721849030019342793923000656628533661406234124679829754886341110207942426625 1", words! ";1;0 0 0 0 1 0 0;0 0 1 0 0 0 0;0 0 0 0;1 0 0 0 0;0 0 0 0 1;0 0 1 0 0;0 0;1 0 0 1;0 0 1;1 0 0;0 0 0;0 0 0 1;0 1 0 0;0 1 0 0 1;0;0 0 0 1 0 0 0 0;0 1;0 0 0 0 0 1 0 0;0 0 0 0 0;0 1 0 0 0 0;0 0 0 0 0 1;0 0 0 1 0 0;0 1 0 0 0 1 0 0;0 1 0 1 0 0 0 0;0 1 0 0 0 0 0;1 0 1 0 0 0 0 0;0 1 0 0 0 1;0 1 0 1 0 0;0 1 0 0 0;1 0 1 0 0 0;1 0 1 0 1;0 1 0;1 0 1 0;0 1 0 1;1 0 1 0 1 0;1 0 1 0 1 0 1;1 0 0 1 0;1 0 0 1 0 1;0 1 0 0 0 1 0 0 0;0 0 0 0 1 0 1 0 0;0 0 0 0 1 0 0 0;0 0 0 1 0 1 0 0 0;0 1 0 0 0 1 0;0 0 0 0 1 0;0 0 0 1 0 1 0;0 0 0 0 1 0 1;0 0 1 0 0 0 1 0;0 0 0 0 1 0 1 0;1 0 0 0 0 0 1 0;0 0 0 0 0 1 0;0 1 0 1 0 1 0;0 1 0 0 1 0 1;1 0 1 0 0 1 0;0 1 0 0 1 0;0 0 1 0 0 0 1 0 0 0;1 0 0 0 0 0 1 0 0 0;0 0 0 0 0 1 0 0 0;0 0 0 0 1 0 1 0 0 0;0 1 0 1 0 1;0 1 0 1 0;0 0 1 0 1;0 0 1 0;0 0 1 0 0 0 1 0 0;0 1 0 1 0 0 0 0 0;0 0 1 0 1 0 0 0 0;0 0 1 0 0 0 0 0;0 0 1 0 0 0 1;0 0 1 0 1 0 0;0 0 1 0 0 0;0 1 0 1 0 0 0;1 0 0 0 1 0 0 0;0 0 0 1 0 0 0;0 0 1 0 1 0 0 0;0 0 0 1 0 1 0 0;1 0 0 0 1 0;0 0 0 1 0;0 0 1 0 1 0;0 0 0 1 0 1;1 0 0 0 1 0 0 0 0 0;0 0 1 0 1 0 0 0 0 0;0 0 0 1 0 1 0 0 0 0;0 0 0 1 0 0 0 0 0;1 0 0 0 1;1 0 0 0;1 0 1 0 0 1;1 0 1 0 0;1 0 0 0 1 0 0 0 0;1 0;1 0 0 0 0 0 1 0 0;1 0 1;1 0 0 0 1 0 0;1 0 0 0 0 0 1;1 0 1 0 0 0 0;1 0 0 0 0 0", false⟩
noncomputable def s517 : Setting := ⟨chars! "Fd-3:1", 3, t214, q! "24 0 0 3 0 24 0 3 0 0 24 3", trs! "0 2 29 26 28 485 486 487 27 488 489 490 215 157 149 158 624 625 626 627 628 629 630 631 35 40 103 36 491 492 493 494 495 496 497 498 216 159 151 160 632 633 634 635 636 637 638 639 42 43 46 92 499 500 501 502 503 504 505 506 217 161 153 162 640 641 642 643 644 645 646 647 4 10 47 33 507 508 509 510 511 512 513 514 218 163 155 150 648 649 650 651 652 653 654 655", gens! "624 158272364633237179784396296255854991415873027149043838697327536465596191693554901622168332588079156988324294957601779181015069245199431571466198316136462121508703535150515313538376963381341655175756745606737408073711118527981883920 20;2 121790000588586785981858853741438935847689428662053701247559982457255710495000545059229947897224847626081731476318505349881034845499007677501563860625877751721849030019342793923000656628533661406234124679829754886341110207942426625 1", words! ";1;0 0 0 0 1 0 0;0 0 1 0 0 0 0;0 0 0 0;1 0 0 0 0;0 0 0 0 1;0 0 1 0 0;0 0;1 0 0 1;0 0 1;1 0 0;0 0 0;0 0 0 1;0 1 0 0;0 1 0 0 1;0;0 0 0 1 0 0 0 0;0 1;0 0 0 0 0 1 0 0;0 0 0 0 0;0 1 0 0 0 0;0 0 0 0 0 1;0 0 0 1 0 0;0 1 0 0 0 1 0 0;0 1 0 1 0 0 0 0;0 1 0 0 0 0 0;1 0 1 0 0 0 0 0;0 1 0 0 0 1;0 1 0 1 0 0;0 1 0 0 0;1 0 1 0 0 0;1 0 1 0 1;0 1 0;1 0 1 0;0 1 0 1;1 0 1 0 1 0;1 0 1 0 1 0 1;1 0 0 1 0;1 0 0 1 0 1;0 1 0 0 0 1 0 0 0;0 0 0 0 1 0 1 0 0;0 0 0 0 1 0 0 0;0 0 0 1 0 1 0 0 0;0 1 0 0 0 1 0;0 0 0 0 1 0;0 0 0 1 0 1 0;0 0 0 0 1 0 1;0 0 1 0 0 0 1 0;0 0 0 0 1 0 1 0;1 0 0 0 0 0 1 0;0 0 0 0 0 1 0;0 1 0 1 0 1 0;0 1 0 0 1 0 1;1 0 1 0 0 1 0;0 1 0 0 1 0;0 0 1 0 0 0 1 0 0 0;1 0 0 0 0 0 1 0 0 0;0 0 0 0 0 1 0 0 0;0 0 0 0 1 0 1 0 0 0;0 1 0 1 0 1;0 1 0 1 0;0 0 1 0 1;0 0 1 0;0 0 1 0 0 0 1 0 0;0 1 0 1 0 0 0 0 0;0 0 1 0 1 0 0 0 0;0 0 1 0 0 0 0 0;0 0 1 0 0 0 1;0 0 1 0 1 0 0;0 0 1 0 0 0;0 1 0 1 0 0 0;1 0 0 0 1 0 0 0;0 0 0 1 0 0 0;0 0 1 0 1 0 0 0;0 0 0 1 0 1 0 0;1 0 0 0 1 0;0 0 0 1 0;0 0 1 0 1 0;0 0 0 1 0 1;1 0 0 0 1 0 0 0 0 0;0 0 1 0 1 0 0 0 0 0;0 0 0 1 0 1 0 0 0 0;0 0 0 1 0 0 0 0 0;1 0 0 0 1;1 0 0 0;1 0 1 0 0 1;1 0 1 0 0;1 0 0 0 1 0 0 0 0;1 0;1 0 0 0 0 0 1 0 0;1 0 1;1 0 0 0 1 0 0;1 0 0 0 0 0 1;1 0 1 0 0 0 0;1 0 0 0 0 0", false⟩
noncomputable def b221 : Block := ⟨s516, [⟨s517, nats! "16 73 0 0 0", nats! "16 73 0 0 0"⟩]⟩
noncomputable def s518 : Setting := ⟨chars! "Im-3", 3, t0, q! "24 0 0 0 0 24 0 0 0 0 24 0", trs! "0 2 29 26 28 485 486 487 27 488 489 490 25 50 1 6 395 532 533 534 396 535 536 537 38 45 49 39 515 516 517 518 519 520 521 522 88 65 67 62 544 545 546 547 548 549 550 551", gens! "395 4016860558935703482809345102481094848433825494035171978847076642923862099426649266753202115694621548606913806275088 20;45 3090959378604719479370551204043499584602500644368744686026850054883702817223202600344768933428408533254207453206553 25", words! ";0 1 0 1 0 0 0 0;1 0 0 1 0 0 0 0;1 0 1 0 0 0 0 0;0 0 0 0;0 1 0 1 0 0;1 0 0 1 0 0;1 0 1 0 0 0;0 0;1 0 0 1;1 0 1 0;0 1 0 1;0 0 0;0 1 0 1 0;1 0 0 1 0;1 0 1 0 0;0;0 1 0 1 0 0 0 0 0;1 0 0 1 0 0 0 0 0;1 0 1;0 0 0 0 0;1 0 0 1 0 0 0;1 0 1 0 0 0 0;0 1 0 1 0 0 0;1 0 1 0 1 0 0 0 0;1;0 1 0 0 0 0 0;0 0 1 0 0 0 0;1 0 1 0 1 0 0;1 0 0 0 0;0 1 0 0 0;0 0 1 0 0;1 0 1 0 1;0 1 0;0 0 1;1 0 0;1 0 1 0 1 0;1 0 0 0;0 1 0 0;0 0 1 0;1 0 1 0 1 0 0 0 0 0;1 0;0 1;0 0 1 0 0 0 0 0;1 0 1 0 1 0 0 0;0 1 0 0 0 0;0 0 1 0 0 0;1 0 0 0 0 0", false⟩
noncomputable def b222 : Block := ⟨s518, []⟩
noncomputable def s519 : Setting := ⟨chars! "Pa-3", 3, t0, q! "24 0 0 0 0 24 0 0 0 0 24 0", trs! "0 43 47 36 28 500 509 494 27 512 497 506 25 110 113 107 395 656 657 658 396 659 660 661", gens! "395 49136760775292724325118152268318953822405746917500981776 20;43 492418238369416967690932480909983732427799962446171668481 1", words! ";1;0 1 0 0 0 0 0;0 0 1 0 0 0 0;0 0 0 0;1 0 0 0 0;0 1 0 0 0;0 0 1 0 0;0 0;0 1 0;0 0 1;1 0 0;0 0 0;1 0 0 0;0 1 0 0;0 0 1 0;0;1 0;0 1;1 0 1;0 0 0 0 0;0 1 0 0 0 0;0 0 1 0 0 0;1 0 0 0 0 0", false⟩
noncomputable def b223 : Block := ⟨s519, []⟩
noncomputable def s520 : Setting := ⟨chars! "Ia-3", 3, t0, q! "24 0 0 0 0 24 0 0 0 0 24 0", trs! "0 99 105 36 28 523 524 494 27 525 497 506 25 100 106 107 395 662 663 658 396 664 660 661 38 127 133 137 515 526 527 528 519 529 530 531 88 64 5 8 544 561 570 665 548 573 666 667", gens! "523 2315959243137907417332459558650282994538806004608227772547539502416953993369603691551144345000009799145890259011333 34;100 1251233133817786586985657378846700386496409958001830144314795817265946525108864063357978876247519062912940427381773 13", words! ";0 1 0 1 0;1 0 0 1 0;1 0 1 0 0 0 0 0;0 1 0 1 0 0;0;1 0 1;1 0 0 1 0 0;1 0 1 0;0 1 0 1 0 0 0;0 0;1 0 0 1;1 0 1 0 1 0;1;0 1 0 0 0 0 0;0 0 1 0;1 0;1 0 1 0 1 0 0;0 0 1 0 0;0 1;0 0 1 0 0 0;1 0 0;1 0 1 0 1 0 0 0;0 1 0 0 0 0;0 0 0;0 1 0 1 0 0 0 0;1 0 0 1 0 0 0 0;1 0 1 0 0;0 1 0 1 0 0 0 0 0;0 0 0 0;1 0 1 0 0 0;1 0 0 1 0 0 0 0 0;1 0 1 0 0 0 0;0 1 0 1;0 0 0 0 0;1 0 0 1 0 0 0;1 0 1 0 1 0 0 0 0;1 0 0 0;0 1 0 0;0 0 1 0 0 0 0;1 0 0 0 0;1 0 1 0 1 0 0 0 0 0;0 0 1 0 0 0 0 0;0 1 0 0 0;0 0 1;1 0 0 0 0 0;1 0 1 0 1;0 1 0", false⟩
noncomputable def b224 : Block := ⟨s520, []⟩
noncomputable def s521 : Setting := ⟨chars! "P432", 3, t0, q! "24 0 0 0 0 24 0 0 0 0 24 0", trs! "0 11 2 12 29 269 26 270 28 41 485 668 486 669 487 416 27 488 670 489 415 490 671 34", gens! "11 516459253409158932976266869344137366603898287132613214721 3;28 270965886331170371508180948578611548875042692972659086856 16", words! ";0;0 0;0 0 0;1 0 0 1 1;1 0 0 0 1;1 1 0 0 1;1 0 0 1 1 0;1;0 1;0 0 1;0 0 0 1;1 0 0;1 1 0;0 1 1 0;0 0 1 1 0;1 1;1 0 0 1;1 0 0 0;1 1 0 0;0 1 1 0 0;0 0 1 1;1 0;0 1 1", false⟩
noncomputable def b225 : Block := ⟨s521, []⟩
noncomputable def s522 : Setting := ⟨chars! "P4232", 3, t0, q! "24 0 0 0 0 24 0 0 0 0 24 0", trs! "0 228 2 229 29 285 26 286 28 672 485 673 486 674 487 458 27 488 675 489 457 490 676 677", gens! "228 516459253409158932976266869344137366603898287132613214721 3;28 270965886331170371508180948578611548875042692972659086856 16", words! ";0;0 0;0 0 0;1 0 0 1 1;1 0 0 0 1;1 1 0 0 1;1 0 0 1 1 0;1;0 1;0 0 1;0 0 0 1;1 0 0;1 1 0;0 1 1 0;0 0 1 1 0;1 1;1 0 0 1;1 0 0 0;1 1 0 0;0 1 1 0 0;0 0 1 1;1 0;0 1 1", false⟩
noncomputable def b226 : Block := ⟨s522, []⟩

noncomputable def items14 : List Item := [
  .block b221,
  .block b222,
  .block b223,
  .block b224,
  .block b225,
  .block b226]

theorem good14 : allB (Item.goodB lat) items14 = true := by decide +kernel

theorem text14 : Table.sgLines14 = (items14.flatMap Item.lines).map String.ofList := by krfl

end Systre.Sg.Data
