import Verif.Lemmas.SgTable.Ops
import Verif.Model.SgTable.T11

/-! Written by tools/gen_sgtable.py. Lines 4209 to 4649. -/

namespace Systre.Sg.Data
set_option maxRecDepth 1000000
set_option maxHeartbeats 0

noncomputable def s444 : Setting := ⟨chars! "I41/amd:2", 3, t0, q! "24 0 0 0 0 24 0 0 0 0 24 0", trs! "0 334 43 335 29 336 92 337 25 338 110 339 1 340 93 341 38 342 258 343 49 344 345 346 88 347 57 348 67 349 138 350", gens! "334 5454353864746073763523039618006414270673438512798167159140899679052916523521 3;25 10442211630720833064043534504749304869921366533932581585147582885864128776456 8;29 11353946235522428792564743606119393713015624597516992923718038596208740927236 4", words! ";0;0 0;0 0 0;2;0 2;2 0 0;2 0;1;1 0;1 0 0;1 0 0 0;2 1;1 0 2;2 1 0 0;2 1 0;1 0 1 0 0 0;1 0 1;1 0 1 0;1 0 1 0 0;1 0 2 1 0;1 0 2 1;2 1 0 1 0;2 1 0 1;0 1 0 0 0;0 1;0 1 0;0 1 0 0;0 2 1 0;0 2 1;2 0 1 0;2 0 1", false⟩
noncomputable def s445 : Setting := ⟨chars! "I41/amd:1", 3, t351, q! "24 0 0 -12 0 24 0 6 0 0 24 3", trs! "0 230 45 231 287 285 288 270 263 235 264 265 1 352 353 354 38 232 233 234 289 290 291 286 266 237 267 268 67 298 355 356", gens! "230 5454353864746073763523039618006414270673438512798167159140899679052916523521 3;263 10442211630720833064043534504749304869921366533932581585147582885864128776456 8;287 11353946235522428792564743606119393713015624597516992923718038596208740927236 4", words! ";0;0 0;0 0 0;2;0 2;2 0 0;2 0;1;1 0;1 0 0;1 0 0 0;2 1;1 0 2;2 1 0 0;2 1 0;1 0 1 0 0 0;1 0 1;1 0 1 0;1 0 1 0 0;1 0 2 1 0;1 0 2 1;2 1 0 1 0;2 1 0 1;0 1 0 0 0;0 1;0 1 0;0 1 0 0;0 2 1 0;0 2 1;2 0 1 0;2 0 1", false⟩
noncomputable def b159 : Block := ⟨s444, [⟨s445, nats! "1 8 4 0 0 0", nats! "1 8 4 0 0 0"⟩]⟩
noncomputable def s446 : Setting := ⟨chars! "I41/acd:2", 3, t0, q! "24 0 0 0 0 24 0 0 0 0 24 0", trs! "0 334 43 335 105 357 94 358 25 338 110 339 106 359 95 360 38 342 258 343 133 361 119 362 88 347 57 348 5 363 61 364", gens! "334 5454353864746073763523039618006414270673438512798167159140899679052916523521 3;25 10442211630720833064043534504749304869921366533932581585147582885864128776456 8;105 11353946235522428792564743606119393713015624597516992923718038596208740927236 4", words! ";0;0 0;0 0 0;2;0 2;2 0 0;2 0;1;1 0;1 0 0;1 0 0 0;2 1;1 0 2;2 1 0 0;2 1 0;1 0 1 0 0 0;1 0 1;1 0 1 0;1 0 1 0 0;1 0 2 1 0;1 0 2 1;2 1 0 1 0;2 1 0 1;0 1 0 0 0;0 1;0 1 0;0 1 0 0;0 2 1 0;0 2 1;2 0 1 0;2 0 1", false⟩
noncomputable def s447 : Setting := ⟨chars! "I41/acd:1", 3, t365, q! "24 0 0 -12 0 24 0 6 0 0 24 -9", trs! "0 230 45 231 366 278 367 309 263 235 264 265 368 369 91 370 38 232 233 234 371 310 372 373 266 237 267 268 140 374 9 375", gens! "230 5454353864746073763523039618006414270673438512798167159140899679052916523521 3;263 10442211630720833064043534504749304869921366533932581585147582885864128776456 8;366 11353946235522428792564743606119393713015624597516992923718038596208740927236 4", words! ";0;0 0;0 0 0;2;0 2;2 0 0;2 0;1;1 0;1 0 0;1 0 0 0;2 1;1 0 2;2 1 0 0;2 1 0;1 0 1 0 0 0;1 0 1;1 0 1 0;1 0 1 0 0;1 0 2 1 0;1 0 2 1;2 1 0 1 0;2 1 0 1;0 1 0 0 0;0 1;0 1 0;0 1 0 0;0 2 1 0;0 2 1;2 0 1 0;2 0 1", false⟩
noncomputable def b160 : Block := ⟨s446, [⟨s447, nats! "1 8 20 0 0 0", nats! "1 8 20 0 0 0"⟩]⟩
noncomputable def s448 : Setting := ⟨chars! "P3", 3, t0, q! "24 0 0 0 0 24 0 0 0 0 24 0", trs! "0 17 18", gens! "17 513 2", words! ";0;0 0", false⟩
noncomputable def b161 : Block := ⟨s448, []⟩
noncomputable def s449 : Setting := ⟨chars! "P31", 3, t0, q! "24 0 0 0 0 24 0 0 0 0 24 0", trs! "0 376 377", gens! "376 513 2", words! ";0;0 0", false⟩
noncomputable def b162 : Block := ⟨s449, []⟩
noncomputable def s450 : Setting := ⟨chars! "P32", 3, t0, q! "24 0 0 0 0 24 0 0 0 0 24 0", trs! "0 378 379", gens! "378 513 2", words! ";0;0 0", false⟩
noncomputable def b163 : Block := ⟨s450, []⟩
noncomputable def s451 : Setting := ⟨chars! "R3:H", 3, t0, q! "24 0 0 0 0 24 0 0 0 0 24 0", trs! "0 17 18 380 381 382 383 384 385", gens! "17 111258898839474536961 2;380 36965554567715816451 6", words! ";0;0 0;1;1 0;1 0 0;1 1;1 1 0;1 1 0 0", false⟩
noncomputable def s452 : Setting := ⟨chars! "R3:R", 3, t386, q! "0 -24 24 0 24 0 24 0 -24 24 24 0", trs! "0 28 27", gens! "28 513 2", words! ";0;0 0", false⟩
noncomputable def b164 : Block := ⟨s451, [⟨s452, nats! "1 3 3 3", nats! "1 0 0 0 0"⟩]⟩
noncomputable def s453 : Setting := ⟨chars! "P-3", 3, t0, q! "24 0 0 0 0 24 0 0 0 0 24 0", trs! "0 17 18 25 387 388", gens! "387 8606909700 5", words! ";0 0 0 0;0 0;0 0 0;0;0 0 0 0 0", false⟩
noncomputable def b165 : Block := ⟨s453, []⟩
noncomputable def s454 : Setting := ⟨chars! "R-3:H", 3, t0, q! "24 0 0 0 0 24 0 0 0 0 24 0", trs! "0 17 18 25 387 388 380 381 382 389 390 391 383 384 385 392 393 394", gens! "387 525405326076473726884068421004645300897028 5;380 436926557215353749166973403347382805464838 12", words! ";0 0 0 0;0 0;0 0 0;0;0 0 0 0 0;1;1 0 0 0 0;1 0 0;1 0 0 0;1 0;1 0 0 0 0 0;1 1;0 1 0 0 0;0 1 0;0 1 0 0;0 1;0 1 0 0 0 0", false⟩
noncomputable def s455 : Setting := ⟨chars! "R-3:R", 3, t386, q! "0 -24 24 0 24 0 24 0 -24 24 24 0", trs! "0 28 27 25 395 396", gens! "395 8606909700 5", words! ";0 0 0 0;0 0;0 0 0;0;0 0 0 0 0", false⟩
noncomputable def b166 : Block := ⟨s454, [⟨s455, nats! "4 6 6 6", nats! "4 0 0 0 0"⟩]⟩
noncomputable def s456 : Setting := ⟨chars! "P312", 3, t0, q! "24 0 0 0 0 24 0 0 0 0 24 0", trs! "0 17 18 270 397 398", gens! "17 3320076829185 2;270 1108101825795 3", words! ";0;0 0;1;0 1;1 0", false⟩
noncomputable def b167 : Block := ⟨s456, []⟩
noncomputable def s457 : Setting := ⟨chars! "P321", 3, t0, q! "24 0 0 0 0 24 0 0 0 0 24 0", trs! "0 17 18 269 399 400", gens! "17 3320076829185 2;269 1108101825795 3", words! ";0;0 0;1;0 1;1 0", false⟩
noncomputable def b168 : Block := ⟨s457, []⟩
noncomputable def s458 : Setting := ⟨chars! "P3112", 3, t0, q! "24 0 0 0 0 24 0 0 0 0 24 0", trs! "0 376 377 401 397 402", gens! "376 3320076829185 2;401 1108101825795 3", words! ";0;0 0;1;0 1;1 0", false⟩
noncomputable def b169 : Block := ⟨s458, []⟩
noncomputable def s459 : Setting := ⟨chars! "P3121", 3, t0, q! "24 0 0 0 0 24 0 0 0 0 24 0", trs! "0 376 377 269 403 404", gens! "376 3320076829185 2;269 1108101825795 3", words! ";0;0 0;1;0 1;1 0", false⟩
noncomputable def b170 : Block := ⟨s459, []⟩
noncomputable def s460 : Setting := ⟨chars! "P3212", 3, t0, q! "24 0 0 0 0 24 0 0 0 0 24 0", trs! "0 378 379 405 397 406", gens! "378 3320076829185 2;405 1108101825795 3", words! ";0;0 0;1;0 1;1 0", false⟩
noncomputable def b171 : Block := ⟨s460, []⟩
noncomputable def s461 : Setting := ⟨chars! "P3221", 3, t0, q! "24 0 0 0 0 24 0 0 0 0 24 0", trs! "0 378 379 269 407 408", gens! "378 3320076829185 2;269 1108101825795 3", words! ";0;0 0;1;0 1;1 0", false⟩
noncomputable def b172 : Block := ⟨s461, []⟩
noncomputable def s462 : Setting := ⟨chars! "R32:H", 3, t0, q! "24 0 0 0 0 24 0 0 0 0 24 0", trs! "0 17 18 269 399 400 380 381 382 409 410 411 383 384 385 412 413 414", gens! "17 1312490419454541013924550018061303388570113 2;380 436926557215353749166973403347382805464838 12;269 612516287972456128467438682218917775279363 3", words! ";0;0 0;2;0 2;2 0;1;1 0;1 0 0;1 2;1 0 2;1 2 0;1 1;1 1 0;1 1 0 0;2 1;0 2 1;2 1 0", false⟩
noncomputable def s463 : Setting := ⟨chars! "R32:R", 3, t386, q! "0 -24 24 0 24 0 24 0 -24 24 24 0", trs! "0 28 27 270 415 416", gens! "28 3320076829185 2;270 1108101825795 3", words! ";0;0 0;1;0 1;1 0", false⟩
noncomputable def b173 : Block := ⟨s462, [⟨s463, nats! "1 3 6 6 6", nats! "1 0 3 0 0 0"⟩]⟩
noncomputable def s464 : Setting := ⟨chars! "P3m1", 3, t0, q! "24 0 0 0 0 24 0 0 0 0 24 0", trs! "0 17 18 14 20 19", gens! "17 3320076829185 2;14 1108101825795 3", words! ";0;0 0;1;0 1;1 0", false⟩
noncomputable def b174 : Block := ⟨s464, []⟩
noncomputable def s465 : Setting := ⟨chars! "P31m", 3, t0, q! "24 0 0 0 0 24 0 0 0 0 24 0", trs! "0 17 18 13 22 21", gens! "17 3320076829185 2;13 1108101825795 3", words! ";0;0 0;1;0 1;1 0", false⟩
noncomputable def b175 : Block := ⟨s465, []⟩
noncomputable def s466 : Setting := ⟨chars! "P3c1", 3, t0, q! "24 0 0 0 0 24 0 0 0 0 24 0", trs! "0 17 18 292 417 418", gens! "17 3320076829185 2;292 1108101825795 3", words! ";0;0 0;1;0 1;1 0", false⟩
noncomputable def b176 : Block := ⟨s466, []⟩
noncomputable def s467 : Setting := ⟨chars! "P31c", 3, t0, q! "24 0 0 0 0 24 0 0 0 0 24 0", trs! "0 17 18 293 419 420", gens! "17 3320076829185 2;293 1108101825795 3", words! ";0;0 0;1;0 1;1 0", false⟩
noncomputable def b177 : Block := ⟨s467, []⟩
noncomputable def s468 : Setting := ⟨chars! "R3m:H", 3, t0, q! "24 0 0 0 0 24 0 0 0 0 24 0", trs! "0 17 18 14 20 19 380 381 382 421 422 423 383 384 385 424 425 426", gens! "421 87792871536443330505716234971169705036553 15;17 1312490419454541013924550018061303388570113 2", words! ";1;1 1;0 0 0;1 0 0 0;0 1 0 0;0 0 0 0;1 0 0 0 0;0 1 0 0 0;0;1 0;0 1;0 0;1 0 0;0 1 0;0 0 0 0 0;1 0 0 0 0 0;0 1 0 0 0 0", false⟩
noncomputable def s469 : Setting := ⟨chars! "R3m:R", 3, t386, q! "0 -24 24 0 24 0 24 0 -24 24 24 0", trs! "0 28 27 13 427 428", gens! "28 3320076829185 2;13 1108101825795 3", words! ";0;0 0;1;0 1;1 0", false⟩
noncomputable def b178 : Block := ⟨s468, [⟨s469, nats! "1 3 6 6 6", nats! "3 1 0 0 0"⟩]⟩
noncomputable def s470 : Setting := ⟨chars! "R3c:H", 3, t0, q! "24 0 0 0 0 24 0 0 0 0 24 0", trs! "0 17 18 292 417 418 380 381 382 429 430 431 383 384 385 432 433 434", gens! "429 87792871536443330505716234971169705036553 15;17 1312490419454541013924550018061303388570113 2", words! ";1;1 1;0 0 0;1 0 0 0;0 1 0 0;0 0 0 0;1 0 0 0 0;0 1 0 0 0;0;1 0;0 1;0 0;1 0 0;0 1 0;0 0 0 0 0;1 0 0 0 0 0;0 1 0 0 0 0", false⟩
noncomputable def s471 : Setting := ⟨chars! "R3c:R", 3, t386, q! "0 -24 24 0 24 0 24 0 -24 24 24 0", trs! "0 28 27 295 435 436", gens! "28 3320076829185 2;295 1108101825795 3", words! ";0;0 0;1;0 1;1 0", false⟩
noncomputable def b179 : Block := ⟨s470, [⟨s471, nats! "1 3 6 6 6", nats! "3 1 0 0 0"⟩]⟩
noncomputable def s472 : Setting := ⟨chars! "P-31m", 3, t0, q! "24 0 0 0 0 24 0 0 0 0 24 0", trs! "0 17 18 270 397 398 25 387 388 13 22 21", gens! "387 934518548172446436698753031 8;270 2176094994767838386747344131 3", words! ";0 0 0 0;0 0;1;1 0 0;0 0 1;0 0 0;0;1 0 1;1 0 0 0;0 1;1 0", false⟩
noncomputable def b180 : Block := ⟨s472, []⟩
noncomputable def s473 : Setting := ⟨chars! "P-31c", 3, t0, q! "24 0 0 0 0 24 0 0 0 0 24 0", trs! "0 17 18 277 437 438 25 387 388 317 439 440", gens! "387 934518548172446436698753031 8;277 2176094994767838386747344131 3", words! ";0 0 0 0;0 0;1;1 0 0;0 0 1;0 0 0;0;1 0 1;1 0 0 0;0 1;1 0", false⟩
noncomputable def b181 : Block := ⟨s473, []⟩
noncomputable def s474 : Setting := ⟨chars! "P-3m1", 3, t0, q! "24 0 0 0 0 24 0 0 0 0 24 0", trs! "0 17 18 269 399 400 25 387 388 14 20 19", gens! "387 934518548172446436698753031 8;269 2176094994767838386747344131 3", words! ";0 0 0 0;0 0;1;1 0 0;0 0 1;0 0 0;0;1 0 1;1 0 0 0;0 1;1 0", false⟩
noncomputable def b182 : Block := ⟨s474, []⟩
noncomputable def s475 : Setting := ⟨chars! "P-3c1", 3, t0, q! "24 0 0 0 0 24 0 0 0 0 24 0", trs! "0 17 18 278 441 442 25 387 388 316 443 444", gens! "387 934518548172446436698753031 8;278 2176094994767838386747344131 3", words! ";0 0 0 0;0 0;1;1 0 0;0 0 1;0 0 0;0;1 0 1;1 0 0 0;0 1;1 0", false⟩
noncomputable def b183 : Block := ⟨s475, []⟩
noncomputable def s476 : Setting := ⟨chars! "R-3m:H", 3, t0, q! "24 0 0 0 0 24 0 0 0 0 24 0", trs! "0 17 18 269 399 400 25 387 388 14 20 19 380 381 382 409 410 411 389 390 391 421 422 423 383 384 385 412 413 414 392 393 394 424 425 426", gens! "387 29269514419768382230922685974931419029129511450488895403190658004463042550906984204295 8;409 60466462506591622890208102965218357239281540683415755106948184248782113782212227764495 15", words! ";0 0 0 0;0 0;1 0 1 0 1;1 0 1 0 1 0 0;1 0 1 0 0 0 1;0 0 0;0;0 0 0 0 0;1 0 1 0 1 0 0 0;0 1 0 1 0 1;1 0 1 0 1 0;0 1 0 1;0 1 0 0 0 1;0 1 0 1 0 0;1;1 0 0;0 0 1;0 1 0 1 0 0 0;0 1 0 1 0;0 1 0 0 0 1 0;1 0 0 0;0 0 1 0;1 0;1 0 1 0;1 0 0 0 1 0;1 0 1 0 0 0;0 1 0;0 1 0 0 0;0 0 0 1 0;1 0 0 0 1;1 0 1 0 0;1 0 1;0 0 0 1;0 1;0 1 0 0", false⟩
noncomputable def s477 : Setting := ⟨chars! "R-3m:R", 3, t386, q! "0 -24 24 0 24 0 24 0 -24 24 24 0", trs! "0 28 27 270 415 416 25 395 396 13 427 428", gens! "395 934518548172446436698753031 8;270 2176094994767838386747344131 3", words! ";0 0 0 0;0 0;1;1 0 0;0 0 1;0 0 0;0;1 0 1;1 0 0 0;0 1;1 0", false⟩
noncomputable def b184 : Block := ⟨s476, [⟨s477, nats! "7 3 12 12 12", nats! "7 3 0 0 0"⟩]⟩

noncomputable def items11 : List Item := [
  .block b159,
  .block b160,
  .block b161,
  .block b162,
  .block b163,
  .block b164,
  .block b165,
  .block b166,
  .block b167,
  .block b168,
  .block b169,
  .block b170,
  .block b171,
  .block b172,
  .block b173,
  .block b174,
  .block b175,
  .block b176,
  .block b177,
  .block b178,
  .block b179,
  .block b180,
  .block b181,
  .block b182,
  .block b183,
  .block b184]

theorem good11 : allB (Item.goodB lat) items11 = true := by decide +kernel

theorem text11 : Table.sgLines11 = (items11.flatMap Item.lines).map String.ofList := by krfl

end Systre.Sg.Data
