import Verif.Lemmas.SgTable.Ops
import Verif.Model.SgTable.T12

/-! Written by tools/gen_sgtable.py. Lines 4650 to 5069. -/

namespace Systre.Sg.Data
set_option maxRecDepth 1000000
set_option maxHeartbeats 0

noncomputable def s478 : Setting := ⟨chars! "R-3c:H", 3, t0, q! "24 0 0 0 0 24 0 0 0 0 24 0", trs! "0 17 18 278 441 442 25 387 388 316 443 444 380 381 382 445 446 447 389 390 391 448 449 450 383 384 385 451 452 453 392 393 394 454 455 456", gens! "387 29269514419768382230922685974931419029129511450488895403190658004463042550906984204295 8;445 60466462506591622890208102965218357239281540683415755106948184248782113782212227764495 15", words! ";0 0 0 0;0 0;1 0 1 0 1;1 0 1 0 1 0 0;1 0 1 0 0 0 1;0 0 0;0;0 0 0 0 0;1 0 1 0 1 0 0 0;0 1 0 1 0 1;1 0 1 0 1 0;0 1 0 1;0 1 0 0 0 1;0 1 0 1 0 0;1;1 0 0;0 0 1;0 1 0 1 0 0 0;0 1 0 1 0;0 1 0 0 0 1 0;1 0 0 0;0 0 1 0;1 0;1 0 1 0;1 0 0 0 1 0;1 0 1 0 0 0;0 1 0;0 1 0 0 0;0 0 0 1 0;1 0 0 0 1;1 0 1 0 0;1 0 1;0 0 0 1;0 1;0 1 0 0", false⟩
noncomputable def s479 : Setting := ⟨chars! "R-3c:R", 3, t386, q! "0 -24 24 0 24 0 24 0 -24 24 24 0", trs! "0 28 27 286 457 458 25 395 396 321 459 460", gens! "395 934518548172446436698753031 8;286 2176094994767838386747344131 3", words! ";0 0 0 0;0 0;1;1 0 0;0 0 1;0 0 0;0;1 0 1;1 0 0 0;0 1;1 0", false⟩
noncomputable def b185 : Block := ⟨s478, [⟨s479, nats! "7 3 12 12 12", nats! "7 3 0 0 0"⟩]⟩
noncomputable def s480 : Setting := ⟨chars! "P6", 3, t0, q! "24 0 0 0 0 24 0 0 0 0 24 0", trs! "0 24 17 2 18 23", gens! "24 21542142465 5", words! ";0;0 0;0 0 0;0 0 0 0;0 0 0 0 0", false⟩
noncomputable def b186 : Block := ⟨s480, []⟩
noncomputable def s481 : Setting := ⟨chars! "P61", 3, t0, q! "24 0 0 0 0 24 0 0 0 0 24 0", trs! "0 461 376 31 377 462", gens! "461 21542142465 5", words! ";0;0 0;0 0 0;0 0 0 0;0 0 0 0 0", false⟩
noncomputable def b187 : Block := ⟨s481, []⟩
noncomputable def s482 : Setting := ⟨chars! "P65", 3, t0, q! "24 0 0 0 0 24 0 0 0 0 24 0", trs! "0 463 378 31 379 464", gens! "463 21542142465 5", words! ";0;0 0;0 0 0;0 0 0 0;0 0 0 0 0", false⟩
noncomputable def b188 : Block := ⟨s482, []⟩
noncomputable def s483 : Setting := ⟨chars! "P62", 3, t0, q! "24 0 0 0 0 24 0 0 0 0 24 0", trs! "0 465 378 2 379 466", gens! "465 21542142465 5", words! ";0;0 0;0 0 0;0 0 0 0;0 0 0 0 0", false⟩
noncomputable def b189 : Block := ⟨s483, []⟩
noncomputable def s484 : Setting := ⟨chars! "P64", 3, t0, q! "24 0 0 0 0 24 0 0 0 0 24 0", trs! "0 467 376 2 377 468", gens! "467 21542142465 5", words! ";0;0 0;0 0 0;0 0 0 0;0 0 0 0 0", false⟩
noncomputable def b190 : Block := ⟨s484, []⟩
noncomputable def s485 : Setting := ⟨chars! "P63", 3, t0, q! "24 0 0 0 0 24 0 0 0 0 24 0", trs! "0 469 17 31 18 470", gens! "469 21542142465 5", words! ";0;0 0;0 0 0;0 0 0 0;0 0 0 0 0", false⟩
noncomputable def b191 : Block := ⟨s485, []⟩
noncomputable def s486 : Setting := ⟨chars! "P-6", 3, t0, q! "24 0 0 0 0 24 0 0 0 0 24 0", trs! "0 471 17 50 18 472", gens! "471 21542142465 5", words! ";0;0 0;0 0 0;0 0 0 0;0 0 0 0 0", false⟩
noncomputable def b192 : Block := ⟨s486, []⟩
noncomputable def s487 : Setting := ⟨chars! "P6/m", 3, t0, q! "24 0 0 0 0 24 0 0 0 0 24 0", trs! "0 24 17 2 18 23 25 471 387 50 388 472", gens! "24 1870255633207787791791096321 5;25 1552274956450190348444501766 6", words! ";0;0 0;0 0 0;0 0 0 0;0 0 0 0 0;1;1 0;1 0 0;1 0 0 0;1 0 0 0 0;1 0 0 0 0 0", false⟩
noncomputable def b193 : Block := ⟨s487, []⟩
noncomputable def s488 : Setting := ⟨chars! "P63/m", 3, t0, q! "24 0 0 0 0 24 0 0 0 0 24 0", trs! "0 469 17 31 18 470 25 473 387 84 388 474", gens! "469 1870255633207787791791096321 5;25 1552274956450190348444501766 6", words! ";0;0 0;0 0 0;0 0 0 0;0 0 0 0 0;1;1 0;1 0 0;1 0 0 0;1 0 0 0 0;1 0 0 0 0 0", false⟩
noncomputable def b194 : Block := ⟨s488, []⟩
noncomputable def s489 : Setting := ⟨chars! "P622", 3, t0, q! "24 0 0 0 0 24 0 0 0 0 24 0", trs! "0 24 17 2 18 23 270 400 397 269 398 399", gens! "24 1870255633207787791791096321 5;270 311917102707294932130466566 6", words! ";0;0 0;0 0 0;0 0 0 0;1 0 1;1;0 1;0 0 1;1 0 0 0;1 0 0;1 0", false⟩
noncomputable def b195 : Block := ⟨s489, []⟩
noncomputable def s490 : Setting := ⟨chars! "P6122", 3, t0, q! "24 0 0 0 0 24 0 0 0 0 24 0", trs! "0 461 376 31 377 462 475 400 476 477 438 407", gens! "461 1870255633207787791791096321 5;475 311917102707294932130466566 6", words! ";0;0 0;0 0 0;0 0 0 0;1 0 1;1;0 1;0 0 1;1 0 0 0;1 0 0;1 0", false⟩
noncomputable def b196 : Block := ⟨s490, []⟩
noncomputable def s491 : Setting := ⟨chars! "P6522", 3, t0, q! "24 0 0 0 0 24 0 0 0 0 24 0", trs! "0 463 378 31 379 464 478 400 479 480 438 403", gens! "463 1870255633207787791791096321 5;478 311917102707294932130466566 6", words! ";0;0 0;0 0 0;0 0 0 0;1 0 1;1;0 1;0 0 1;1 0 0 0;1 0 0;1 0", false⟩
noncomputable def b197 : Block := ⟨s491, []⟩
noncomputable def s492 : Setting := ⟨chars! "P6222", 3, t0, q! "24 0 0 0 0 24 0 0 0 0 24 0", trs! "0 465 378 2 379 466 401 400 481 480 398 403", gens! "465 1870255633207787791791096321 5;401 311917102707294932130466566 6", words! ";0;0 0;0 0 0;0 0 0 0;1 0 1;1;0 1;0 0 1;1 0 0 0;1 0 0;1 0", false⟩
noncomputable def b198 : Block := ⟨s492, []⟩
noncomputable def s493 : Setting := ⟨chars! "P6422", 3, t0, q! "24 0 0 0 0 24 0 0 0 0 24 0", trs! "0 467 376 2 377 468 405 400 482 477 398 407", gens! "467 1870255633207787791791096321 5;405 311917102707294932130466566 6", words! ";0;0 0;0 0 0;0 0 0 0;1 0 1;1;0 1;0 0 1;1 0 0 0;1 0 0;1 0", false⟩
noncomputable def b199 : Block := ⟨s493, []⟩
noncomputable def s494 : Setting := ⟨chars! "P6322", 3, t0, q! "24 0 0 0 0 24 0 0 0 0 24 0", trs! "0 469 17 31 18 470 277 400 437 269 438 399", gens! "469 1870255633207787791791096321 5;277 311917102707294932130466566 6", words! ";0;0 0;0 0 0;0 0 0 0;1 0 1;1;0 1;0 0 1;1 0 0 0;1 0 0;1 0", false⟩
noncomputable def b200 : Block := ⟨s494, []⟩
noncomputable def s495 : Setting := ⟨chars! "P6mm", 3, t0, q! "24 0 0 0 0 24 0 0 0 0 24 0", trs! "0 24 17 2 18 23 13 19 22 14 21 20", gens! "24 1870255633207787791791096321 5;13 311917102707294932130466566 6", words! ";0;0 0;0 0 0;0 0 0 0;1 0 1;1;0 1;0 0 1;1 0 0 0;1 0 0;1 0", false⟩
noncomputable def b201 : Block := ⟨s495, []⟩
noncomputable def s496 : Setting := ⟨chars! "P6cc", 3, t0, q! "24 0 0 0 0 24 0 0 0 0 24 0", trs! "0 24 17 2 18 23 293 418 419 292 420 417", gens! "24 1870255633207787791791096321 5;293 311917102707294932130466566 6", words! ";0;0 0;0 0 0;0 0 0 0;1 0 1;1;0 1;0 0 1;1 0 0 0;1 0 0;1 0", false⟩
noncomputable def b202 : Block := ⟨s496, []⟩
noncomputable def s497 : Setting := ⟨chars! "P63cm", 3, t0, q! "24 0 0 0 0 24 0 0 0 0 24 0", trs! "0 469 17 31 18 470 13 418 22 292 21 417", gens! "469 1870255633207787791791096321 5;13 311917102707294932130466566 6", words! ";0;0 0;0 0 0;0 0 0 0;1 0 1;1;0 1;0 0 1;1 0 0 0;1 0 0;1 0", false⟩
noncomputable def b203 : Block := ⟨s497, []⟩
noncomputable def s498 : Setting := ⟨chars! "P63mc", 3, t0, q! "24 0 0 0 0 24 0 0 0 0 24 0", trs! "0 469 17 31 18 470 293 19 419 14 420 20", gens! "469 1870255633207787791791096321 5;293 311917102707294932130466566 6", words! ";0;0 0;0 0 0;0 0 0 0;1 0 1;1;0 1;0 0 1;1 0 0 0;1 0 0;1 0", false⟩
noncomputable def b204 : Block := ⟨s498, []⟩
noncomputable def s499 : Setting := ⟨chars! "P-6m2", 3, t0, q! "24 0 0 0 0 24 0 0 0 0 24 0", trs! "0 471 17 50 18 472 270 19 397 14 398 20", gens! "471 1870255633207787791791096321 5;270 311917102707294932130466566 6", words! ";0;0 0;0 0 0;0 0 0 0;1 0 1;1;0 1;0 0 1;1 0 0 0;1 0 0;1 0", false⟩
noncomputable def b205 : Block := ⟨s499, []⟩
noncomputable def s500 : Setting := ⟨chars! "P-6c2", 3, t0, q! "24 0 0 0 0 24 0 0 0 0 24 0", trs! "0 483 17 139 18 484 270 418 397 292 398 417", gens! "483 1870255633207787791791096321 5;270 311917102707294932130466566 6", words! ";0;0 0;0 0 0;0 0 0 0;1 0 1;1;0 1;0 0 1;1 0 0 0;1 0 0;1 0", false⟩
noncomputable def b206 : Block := ⟨s500, []⟩
noncomputable def s501 : Setting := ⟨chars! "P-62m", 3, t0, q! "24 0 0 0 0 24 0 0 0 0 24 0", trs! "0 471 17 50 18 472 13 400 22 269 21 399", gens! "471 1870255633207787791791096321 5;13 311917102707294932130466566 6", words! ";0;0 0;0 0 0;0 0 0 0;1 0 1;1;0 1;0 0 1;1 0 0 0;1 0 0;1 0", false⟩
noncomputable def b207 : Block := ⟨s501, []⟩
noncomputable def s502 : Setting := ⟨chars! "P-62c", 3, t0, q! "24 0 0 0 0 24 0 0 0 0 24 0", trs! "0 483 17 139 18 484 293 400 419 269 420 399", gens! "483 1870255633207787791791096321 5;293 311917102707294932130466566 6", words! ";0;0 0;0 0 0;0 0 0 0;1 0 1;1;0 1;0 0 1;1 0 0 0;1 0 0;1 0", false⟩
noncomputable def b208 : Block := ⟨s502, []⟩
noncomputable def s503 : Setting := ⟨chars! "P6/mmm", 3, t0, q! "24 0 0 0 0 24 0 0 0 0 24 0", trs! "0 24 17 2 18 23 270 400 397 269 398 399 25 471 387 50 388 472 13 19 22 14 21 20", gens! "24 443569940092731118764116781575450149871780188353724613121 5;270 320105641745998197264748496322063940265800815377860135686 6;25 270680403937320305448605206353851180089785504226830322956 12", words! ";0;0 0;0 0 0;0 0 0 0;1 0 1;1;0 1;0 0 1;1 0 0 0;1 0 0;1 0;2;2 0;2 0 0;2 0 0 0;2 0 0 0 0;2 1 0 1;2 1;2 0 1;2 0 0 1;2 1 0 0 0;2 1 0 0;2 1 0", false⟩
noncomputable def b209 : Block := ⟨s503, []⟩
noncomputable def s504 : Setting := ⟨chars! "P6/mcc", 3, t0, q! "24 0 0 0 0 24 0 0 0 0 24 0", trs! "0 24 17 2 18 23 277 442 437 278 438 441 25 471 387 50 388 472 317 444 439 316 440 443", gens! "24 443569940092731118764116781575450149871780188353724613121 5;277 320105641745998197264748496322063940265800815377860135686 6;25 270680403937320305448605206353851180089785504226830322956 12", words! ";0;0 0;0 0 0;0 0 0 0;1 0 1;1;0 1;0 0 1;1 0 0 0;1 0 0;1 0;2;2 0;2 0 0;2 0 0 0;2 0 0 0 0;2 1 0 1;2 1;2 0 1;2 0 0 1;2 1 0 0 0;2 1 0 0;2 1 0", false⟩
noncomputable def b210 : Block := ⟨s504, []⟩
noncomputable def s505 : Setting := ⟨chars! "P63/mcm", 3, t0, q! "24 0 0 0 0 24 0 0 0 0 24 0", trs! "0 469 17 31 18 470 270 442 397 278 398 441 25 473 387 84 388 474 13 444 22 316 21 443", gens! "469 443569940092731118764116781575450149871780188353724613121 5;270 320105641745998197264748496322063940265800815377860135686 6;25 270680403937320305448605206353851180089785504226830322956 12", words! ";0;0 0;0 0 0;0 0 0 0;1 0 1;1;0 1;0 0 1;1 0 0 0;1 0 0;1 0;2;2 0;2 0 0;2 0 0 0;2 0 0 0 0;2 1 0 1;2 1;2 0 1;2 0 0 1;2 1 0 0 0;2 1 0 0;2 1 0", false⟩
noncomputable def b211 : Block := ⟨s505, []⟩
noncomputable def s506 : Setting := ⟨chars! "P63/mmc", 3, t0, q! "24 0 0 0 0 24 0 0 0 0 24 0", trs! "0 469 17 31 18 470 277 400 437 269 438 399 25 473 387 84 388 474 317 19 439 14 440 20", gens! "469 443569940092731118764116781575450149871780188353724613121 5;277 320105641745998197264748496322063940265800815377860135686 6;25 270680403937320305448605206353851180089785504226830322956 12", words! ";0;0 0;0 0 0;0 0 0 0;1 0 1;1;0 1;0 0 1;1 0 0 0;1 0 0;1 0;2;2 0;2 0 0;2 0 0 0;2 0 0 0 0;2 1 0 1;2 1;2 0 1;2 0 0 1;2 1 0 0 0;2 1 0 0;2 1 0", false⟩
noncomputable def b212 : Block := ⟨s506, []⟩
noncomputable def s507 : Setting := ⟨chars! "P23", 3, t0, q! "24 0 0 0 0 24 0 0 0 0 24 0", trs! "0 2 29 26 28 485 486 487 27 488 489 490", gens! "28 620193113357211589792957956 8;2 2486807837960626028247449601 1", words! ";1;0 1 0 0;0 0 1 0;0;1 0;0 1;1 0 1;0 0;0 1 0;0 0 1;1 0 0", false⟩
noncomputable def b213 : Block := ⟨s507, []⟩

noncomputable def items12 : List Item := [
  .block b185,
  .block b186,
  .block b187,
  .block b188,
  .block b189,
  .block b190,
  .block b191,
  .block b192,
  .block b193,
  .block b194,
  .block b195,
  .block b196,
  .block b197,
  .block b198,
  .block b199,
  .block b200,
  .block b201,
  .block b202,
  .block b203,
  .block b204,
  .block b205,
  .block b206,
  .block b207,
  .block b208,
  .block b209,
  .block b210,
  .block b211,
  .block b212,
  .block b213]

theorem good12 : allB (Item.goodB lat) items12 = true := by decide +kernel

theorem text12 : Table.sgLines12 = (items12.flatMap Item.lines).map String.ofList := by krfl

end Systre.Sg.Data
