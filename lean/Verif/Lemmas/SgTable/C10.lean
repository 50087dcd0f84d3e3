import Verif.Lemmas.SgTable.Ops
import Verif.Model.SgTable.T10

/-! Written by tools/gen_sgtable.py. Lines 3803 to 4208. -/

namespace Systre.Sg.Data
set_option maxRecDepth 1000000
set_option maxHeartbeats 0

noncomputable def s422 : Setting := ⟨chars! "P4/nnc:2", 3, t0, q! "24 0 0 0 0 24 0 0 0 0 24 0", trs! "0 241 10 242 103 278 92 286 25 243 98 244 104 316 93 321", gens! "241 16028905388486802350658220295983399425 3;103 12015198675020832560991819147602429700 4;25 9335851481537165996061868750157777160 8", words! ";0;0 0;0 0 0;1;0 1;1 0 0;1 0;2;2 0;2 0 0;2 0 0 0;2 1;2 0 1;2 1 0 0;2 1 0", false⟩
noncomputable def s423 : Setting := ⟨chars! "P4/nnc:1", 3, t166, q! "24 0 0 -6 0 24 0 -6 0 0 24 -6", trs! "0 11 2 12 29 269 26 270 88 237 65 238 67 294 62 295", gens! "11 16028905388486802350658220295983399425 3;29 12015198675020832560991819147602429700 4;88 9335851481537165996061868750157777160 8", words! ";0;0 0;0 0 0;1;0 1;1 0 0;1 0;2;2 0;2 0 0;2 0 0 0;2 1;2 0 1;2 1 0 0;2 1 0", false⟩
noncomputable def b144 : Block := ⟨s422, [⟨s423, nats! "1 4 8 0 0 0", nats! "1 4 8 0 0 0"⟩]⟩
noncomputable def s424 : Setting := ⟨chars! "P4/mbm", 3, t0, q! "24 0 0 0 0 24 0 0 0 0 24 0", trs! "0 11 2 12 47 308 33 309 25 235 50 236 113 322 109 318", gens! "11 16028905388486802350658220295983399425 3;47 12015198675020832560991819147602429700 4;25 9335851481537165996061868750157777160 8", words! ";0;0 0;0 0 0;1;0 1;1 0 0;1 0;2;2 0;2 0 0;2 0 0 0;2 1;2 0 1;2 1 0 0;2 1 0", false⟩
noncomputable def b145 : Block := ⟨s424, []⟩
noncomputable def s425 : Setting := ⟨chars! "P4/mnc", 3, t0, q! "24 0 0 0 0 24 0 0 0 0 24 0", trs! "0 11 2 12 49 285 39 286 25 235 50 236 114 323 108 321", gens! "11 16028905388486802350658220295983399425 3;49 12015198675020832560991819147602429700 4;25 9335851481537165996061868750157777160 8", words! ";0;0 0;0 0 0;1;0 1;1 0 0;1 0;2;2 0;2 0 0;2 0 0 0;2 1;2 0 1;2 1 0 0;2 1 0", false⟩
noncomputable def b146 : Block := ⟨s425, []⟩
noncomputable def s426 : Setting := ⟨chars! "P4/nmm:2", 3, t0, q! "24 0 0 0 0 24 0 0 0 0 24 0", trs! "0 241 10 242 32 308 30 270 25 243 98 244 85 322 83 13", gens! "241 16028905388486802350658220295983399425 3;32 12015198675020832560991819147602429700 4;25 9335851481537165996061868750157777160 8", words! ";0;0 0;0 0 0;1;0 1;1 0 0;1 0;2;2 0;2 0 0;2 0 0 0;2 1;2 0 1;2 1 0 0;2 1 0", false⟩
noncomputable def s427 : Setting := ⟨chars! "P4/nmm:1", 3, t245, q! "24 0 0 -6 0 24 0 6 0 0 24 0", trs! "0 246 2 247 47 269 33 270 86 235 56 236 1 16 6 15", gens! "246 16028905388486802350658220295983399425 3;47 12015198675020832560991819147602429700 4;86 9335851481537165996061868750157777160 8", words! ";0;0 0;0 0 0;1;0 1;1 0 0;1 0;2;2 0;2 0 0;2 0 0 0;2 1;2 0 1;2 1 0 0;2 1 0", false⟩
noncomputable def b147 : Block := ⟨s426, [⟨s427, nats! "1 4 8 0 0 0", nats! "1 4 8 0 0 0"⟩]⟩
noncomputable def s428 : Setting := ⟨chars! "P4/ncc:2", 3, t0, q! "24 0 0 0 0 24 0 0 0 0 24 0", trs! "0 241 10 242 46 285 36 277 25 243 98 244 115 323 107 317", gens! "241 16028905388486802350658220295983399425 3;46 12015198675020832560991819147602429700 4;25 9335851481537165996061868750157777160 8", words! ";0;0 0;0 0 0;1;0 1;1 0 0;1 0;2;2 0;2 0 0;2 0 0 0;2 1;2 0 1;2 1 0 0;2 1 0", false⟩
noncomputable def s429 : Setting := ⟨chars! "P4/ncc:1", 3, t245, q! "24 0 0 -6 0 24 0 6 0 0 24 0", trs! "0 246 2 247 49 278 39 277 86 235 56 236 106 324 91 325", gens! "246 16028905388486802350658220295983399425 3;49 12015198675020832560991819147602429700 4;86 9335851481537165996061868750157777160 8", words! ";0;0 0;0 0 0;1;0 1;1 0 0;1 0;2;2 0;2 0 0;2 0 0 0;2 1;2 0 1;2 1 0 0;2 1 0", false⟩
noncomputable def b148 : Block := ⟨s428, [⟨s429, nats! "1 4 8 0 0 0", nats! "1 4 8 0 0 0"⟩]⟩
noncomputable def s430 : Setting := ⟨chars! "P42/mmc", 3, t0, q! "24 0 0 0 0 24 0 0 0 0 24 0", trs! "0 224 2 225 29 278 26 277 25 239 50 240 1 316 6 317", gens! "224 16028905388486802350658220295983399425 3;29 12015198675020832560991819147602429700 4;25 9335851481537165996061868750157777160 8", words! ";0;0 0;0 0 0;1;0 1;1 0 0;1 0;2;2 0;2 0 0;2 0 0 0;2 1;2 0 1;2 1 0 0;2 1 0", false⟩
noncomputable def b149 : Block := ⟨s430, []⟩
noncomputable def s431 : Setting := ⟨chars! "P42/mcm", 3, t0, q! "24 0 0 0 0 24 0 0 0 0 24 0", trs! "0 224 2 225 105 269 90 270 25 239 50 240 106 14 91 13", gens! "224 16028905388486802350658220295983399425 3;105 12015198675020832560991819147602429700 4;25 9335851481537165996061868750157777160 8", words! ";0;0 0;0 0 0;1;0 1;1 0 0;1 0;2;2 0;2 0 0;2 0 0 0;2 1;2 0 1;2 1 0 0;2 1 0", false⟩
noncomputable def b150 : Block := ⟨s431, []⟩
noncomputable def s432 : Setting := ⟨chars! "P42/nbc:2", 3, t0, q! "24 0 0 0 0 24 0 0 0 0 24 0", trs! "0 326 10 327 101 278 94 286 25 328 98 329 102 316 95 321", gens! "326 16028905388486802350658220295983399425 3;101 12015198675020832560991819147602429700 4;25 9335851481537165996061868750157777160 8", words! ";0;0 0;0 0 0;1;0 1;1 0 0;1 0;2;2 0;2 0 0;2 0 0 0;2 1;2 0 1;2 1 0 0;2 1 0", false⟩
noncomputable def s433 : Setting := ⟨chars! "P42/nbc:1", 3, t330, q! "24 0 0 -6 0 24 0 6 0 0 24 6", trs! "0 228 2 229 105 308 90 309 88 235 65 236 5 292 9 293", gens! "228 16028905388486802350658220295983399425 3;105 12015198675020832560991819147602429700 4;88 9335851481537165996061868750157777160 8", words! ";0;0 0;0 0 0;1;0 1;1 0 0;1 0;2;2 0;2 0 0;2 0 0 0;2 1;2 0 1;2 1 0 0;2 1 0", false⟩
noncomputable def b151 : Block := ⟨s432, [⟨s433, nats! "1 4 8 0 0 0", nats! "1 4 8 0 0 0"⟩]⟩
noncomputable def s434 : Setting := ⟨chars! "P42/nnm:2", 3, t0, q! "24 0 0 0 0 24 0 0 0 0 24 0", trs! "0 326 10 327 103 269 92 309 25 328 98 329 104 14 93 318", gens! "326 16028905388486802350658220295983399425 3;103 12015198675020832560991819147602429700 4;25 9335851481537165996061868750157777160 8", words! ";0;0 0;0 0 0;1;0 1;1 0 0;1 0;2;2 0;2 0 0;2 0 0 0;2 1;2 0 1;2 1 0 0;2 1 0", false⟩
noncomputable def s435 : Setting := ⟨chars! "P42/nnm:1", 3, t331, q! "24 0 0 -6 0 24 0 6 0 0 24 -6", trs! "0 228 2 229 29 285 26 286 88 235 65 236 67 14 62 13", gens! "228 16028905388486802350658220295983399425 3;29 12015198675020832560991819147602429700 4;88 9335851481537165996061868750157777160 8", words! ";0;0 0;0 0 0;1;0 1;1 0 0;1 0;2;2 0;2 0 0;2 0 0 0;2 1;2 0 1;2 1 0 0;2 1 0", false⟩
noncomputable def b152 : Block := ⟨s434, [⟨s435, nats! "1 4 8 0 0 0", nats! "1 4 8 0 0 0"⟩]⟩
noncomputable def s436 : Setting := ⟨chars! "P42/mbc", 3, t0, q! "24 0 0 0 0 24 0 0 0 0 24 0", trs! "0 224 2 225 47 285 33 286 25 239 50 240 113 323 109 321", gens! "224 16028905388486802350658220295983399425 3;47 12015198675020832560991819147602429700 4;25 9335851481537165996061868750157777160 8", words! ";0;0 0;0 0 0;1;0 1;1 0 0;1 0;2;2 0;2 0 0;2 0 0 0;2 1;2 0 1;2 1 0 0;2 1 0", false⟩
noncomputable def b153 : Block := ⟨s436, []⟩
noncomputable def s437 : Setting := ⟨chars! "P42/mnm", 3, t0, q! "24 0 0 0 0 24 0 0 0 0 24 0", trs! "0 228 2 229 49 269 39 270 25 332 50 333 114 14 108 13", gens! "228 16028905388486802350658220295983399425 3;49 12015198675020832560991819147602429700 4;25 9335851481537165996061868750157777160 8", words! ";0;0 0;0 0 0;1;0 1;1 0 0;1 0;2;2 0;2 0 0;2 0 0 0;2 1;2 0 1;2 1 0 0;2 1 0", false⟩
noncomputable def b154 : Block := ⟨s437, []⟩
noncomputable def s438 : Setting := ⟨chars! "P42/nmc:2", 3, t0, q! "24 0 0 0 0 24 0 0 0 0 24 0", trs! "0 326 10 327 32 285 30 277 25 328 98 329 85 323 83 317", gens! "326 16028905388486802350658220295983399425 3;32 12015198675020832560991819147602429700 4;25 9335851481537165996061868750157777160 8", words! ";0;0 0;0 0 0;1;0 1;1 0 0;1 0;2;2 0;2 0 0;2 0 0 0;2 1;2 0 1;2 1 0 0;2 1 0", false⟩
noncomputable def s439 : Setting := ⟨chars! "P42/nmc:1", 3, t330, q! "24 0 0 -6 0 24 0 6 0 0 24 6", trs! "0 228 2 229 49 269 39 270 88 235 65 236 1 294 6 295", gens! "228 16028905388486802350658220295983399425 3;49 12015198675020832560991819147602429700 4;88 9335851481537165996061868750157777160 8", words! ";0;0 0;0 0 0;1;0 1;1 0 0;1 0;2;2 0;2 0 0;2 0 0 0;2 1;2 0 1;2 1 0 0;2 1 0", false⟩
noncomputable def b155 : Block := ⟨s438, [⟨s439, nats! "1 4 8 0 0 0", nats! "1 4 8 0 0 0"⟩]⟩
noncomputable def s440 : Setting := ⟨chars! "P42/ncm:2", 3, t0, q! "24 0 0 0 0 24 0 0 0 0 24 0", trs! "0 326 10 327 46 308 36 270 25 328 98 329 115 322 107 13", gens! "326 16028905388486802350658220295983399425 3;46 12015198675020832560991819147602429700 4;25 9335851481537165996061868750157777160 8", words! ";0;0 0;0 0 0;1;0 1;1 0 0;1 0;2;2 0;2 0 0;2 0 0 0;2 1;2 0 1;2 1 0 0;2 1 0", false⟩
noncomputable def s441 : Setting := ⟨chars! "P42/ncm:1", 3, t331, q! "24 0 0 -6 0 24 0 6 0 0 24 -6", trs! "0 228 2 229 47 278 33 277 88 235 65 236 60 16 51 15", gens! "228 16028905388486802350658220295983399425 3;47 12015198675020832560991819147602429700 4;88 9335851481537165996061868750157777160 8", words! ";0;0 0;0 0 0;1;0 1;1 0 0;1 0;2;2 0;2 0 0;2 0 0 0;2 1;2 0 1;2 1 0 0;2 1 0", false⟩
noncomputable def b156 : Block := ⟨s440, [⟨s441, nats! "1 4 8 0 0 0", nats! "1 4 8 0 0 0"⟩]⟩
noncomputable def s442 : Setting := ⟨chars! "I4/mmm", 3, t0, q! "24 0 0 0 0 24 0 0 0 0 24 0", trs! "0 11 2 12 29 269 26 270 25 235 50 236 1 14 6 13 38 228 45 229 49 285 39 286 88 237 65 238 67 294 62 295", gens! "11 12719739856107089946568930333193942244891095791261662635841153840627256066561 3;29 11353946235522428792564743606119393713015624597516992923718038596208740927236 4;25 10442211630720833064043534504749304869921366533932581585147582885864128776456 8;38 6809518635040324971929803101472088575681370633994377158765812195969289294096 16", words! ";0;0 0;0 0 0;1;0 1;1 0 0;1 0;2;2 0;2 0 0;2 0 0 0;2 1;2 0 1;2 1 0 0;2 1 0;3;3 0;3 0 0;3 0 0 0;3 1;3 0 1;3 1 0 0;3 1 0;3 2;3 2 0;3 2 0 0;3 2 0 0 0;3 2 1;3 2 0 1;3 2 1 0 0;3 2 1 0", false⟩
noncomputable def b157 : Block := ⟨s442, []⟩
noncomputable def s443 : Setting := ⟨chars! "I4/mcm", 3, t0, q! "24 0 0 0 0 24 0 0 0 0 24 0", trs! "0 11 2 12 105 278 90 277 25 235 50 236 106 316 91 317 38 228 45 229 133 310 123 311 88 237 65 238 5 16 9 15", gens! "11 12719739856107089946568930333193942244891095791261662635841153840627256066561 3;105 11353946235522428792564743606119393713015624597516992923718038596208740927236 4;25 10442211630720833064043534504749304869921366533932581585147582885864128776456 8;38 6809518635040324971929803101472088575681370633994377158765812195969289294096 16", words! ";0;0 0;0 0 0;1;0 1;1 0 0;1 0;2;2 0;2 0 0;2 0 0 0;2 1;2 0 1;2 1 0 0;2 1 0;3;3 0;3 0 0;3 0 0 0;3 1;3 0 1;3 1 0 0;3 1 0;3 2;3 2 0;3 2 0 0;3 2 0 0 0;3 2 1;3 2 0 1;3 2 1 0 0;3 2 1 0", false⟩
noncomputable def b158 : Block := ⟨s443, []⟩

noncomputable def items10 : List Item := [
  .block b144,
  .block b145,
  .block b146,
  .block b147,
  .block b148,
  .block b149,
  .block b150,
  .block b151,
  .block b152,
  .block b153,
  .block b154,
  .block b155,
  .block b156,
  .block b157,
  .block b158]

theorem good10 : allB (Item.goodB lat) items10 = true := by decide +kernel

theorem text10 : Table.sgLines10 = (items10.flatMap Item.lines).map String.ofList := by krfl

end Systre.Sg.Data
