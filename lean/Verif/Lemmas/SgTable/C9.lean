import Verif.Lemmas.SgTable.Ops
import Verif.Model.SgTable.T9

/-! Written by tools/gen_sgtable.py. Lines 3367 to 3802. -/

namespace Systre.Sg.Data
set_option maxRecDepth 1000000
set_option maxHeartbeats 0

noncomputable def s386 : Setting := ⟨chars! "P4122", 3, t0, q! "24 0 0 0 0 24 0 0 0 0 24 0", trs! "0 222 31 223 105 271 26 272", gens! "222 290207319533486593 3;105 72623842610513668 4", words! ";0;0 0;0 0 0;1;0 1;1 0 0;1 0", false⟩
noncomputable def b109 : Block := ⟨s386, []⟩
noncomputable def s387 : Setting := ⟨chars! "P41212", 3, t0, q! "24 0 0 0 0 24 0 0 0 0 24 0", trs! "0 273 31 274 275 269 276 277", gens! "273 290207319533486593 3;275 72623842610513668 4", words! ";0;0 0;0 0 0;1;0 1;1 0 0;1 0", false⟩
noncomputable def b110 : Block := ⟨s387, []⟩
noncomputable def s388 : Setting := ⟨chars! "P4222", 3, t0, q! "24 0 0 0 0 24 0 0 0 0 24 0", trs! "0 224 2 225 29 278 26 277", gens! "224 290207319533486593 3;29 72623842610513668 4", words! ";0;0 0;0 0 0;1;0 1;1 0 0;1 0", false⟩
noncomputable def b111 : Block := ⟨s388, []⟩
noncomputable def s389 : Setting := ⟨chars! "P42212", 3, t0, q! "24 0 0 0 0 24 0 0 0 0 24 0", trs! "0 228 2 229 49 269 39 270", gens! "228 290207319533486593 3;49 72623842610513668 4", words! ";0;0 0;0 0 0;1;0 1;1 0 0;1 0", false⟩
noncomputable def b112 : Block := ⟨s389, []⟩
noncomputable def s390 : Setting := ⟨chars! "P4322", 3, t0, q! "24 0 0 0 0 24 0 0 0 0 24 0", trs! "0 226 31 227 105 279 26 280", gens! "226 290207319533486593 3;105 72623842610513668 4", words! ";0;0 0;0 0 0;1;0 1;1 0 0;1 0", false⟩
noncomputable def b113 : Block := ⟨s390, []⟩
noncomputable def s391 : Setting := ⟨chars! "P43212", 3, t0, q! "24 0 0 0 0 24 0 0 0 0 24 0", trs! "0 281 31 282 283 269 284 277", gens! "281 290207319533486593 3;283 72623842610513668 4", words! ";0;0 0;0 0 0;1;0 1;1 0 0;1 0", false⟩
noncomputable def b114 : Block := ⟨s391, []⟩
noncomputable def s392 : Setting := ⟨chars! "I422", 3, t0, q! "24 0 0 0 0 24 0 0 0 0 24 0", trs! "0 11 2 12 29 269 26 270 38 228 45 229 49 285 39 286", gens! "11 16028905388486802350658220295983399425 3;29 12015198675020832560991819147602429700 4;38 9335851481537165996061868750157777160 8", words! ";0;0 0;0 0 0;1;0 1;1 0 0;1 0;2;2 0;2 0 0;2 0 0 0;2 1;2 0 1;2 1 0 0;2 1 0", false⟩
noncomputable def b115 : Block := ⟨s392, []⟩
noncomputable def s393 : Setting := ⟨chars! "I4122", 3, t0, q! "24 0 0 0 0 24 0 0 0 0 24 0", trs! "0 230 45 231 287 285 288 270 38 232 233 234 289 290 291 286", gens! "230 16028905388486802350658220295983399425 3;287 12015198675020832560991819147602429700 4;38 9335851481537165996061868750157777160 8", words! ";0;0 0;0 0 0;1;0 1;1 0 0;1 0;2;2 0;2 0 0;2 0 0 0;2 1;2 0 1;2 1 0 0;2 1 0", false⟩
noncomputable def b116 : Block := ⟨s393, []⟩
noncomputable def s394 : Setting := ⟨chars! "P4mm", 3, t0, q! "24 0 0 0 0 24 0 0 0 0 24 0", trs! "0 11 2 12 1 14 6 13", gens! "11 290207319533486593 3;1 72623842610513668 4", words! ";0;0 0;0 0 0;1;0 1;1 0 0;1 0", false⟩
noncomputable def b117 : Block := ⟨s394, []⟩
noncomputable def s395 : Setting := ⟨chars! "P4bm", 3, t0, q! "24 0 0 0 0 24 0 0 0 0 24 0", trs! "0 11 2 12 5 16 9 15", gens! "11 290207319533486593 3;5 72623842610513668 4", words! ";0;0 0;0 0 0;1;0 1;1 0 0;1 0", false⟩
noncomputable def b118 : Block := ⟨s395, []⟩
noncomputable def s396 : Setting := ⟨chars! "P42cm", 3, t0, q! "24 0 0 0 0 24 0 0 0 0 24 0", trs! "0 224 2 225 60 14 51 13", gens! "224 290207319533486593 3;60 72623842610513668 4", words! ";0;0 0;0 0 0;1;0 1;1 0 0;1 0", false⟩
noncomputable def b119 : Block := ⟨s396, []⟩
noncomputable def s397 : Setting := ⟨chars! "P42nm", 3, t0, q! "24 0 0 0 0 24 0 0 0 0 24 0", trs! "0 228 2 229 67 14 62 13", gens! "228 290207319533486593 3;67 72623842610513668 4", words! ";0;0 0;0 0 0;1;0 1;1 0 0;1 0", false⟩
noncomputable def b120 : Block := ⟨s397, []⟩
noncomputable def s398 : Setting := ⟨chars! "P4cc", 3, t0, q! "24 0 0 0 0 24 0 0 0 0 24 0", trs! "0 11 2 12 60 292 51 293", gens! "11 290207319533486593 3;60 72623842610513668 4", words! ";0;0 0;0 0 0;1;0 1;1 0 0;1 0", false⟩
noncomputable def b121 : Block := ⟨s398, []⟩
noncomputable def s399 : Setting := ⟨chars! "P4nc", 3, t0, q! "24 0 0 0 0 24 0 0 0 0 24 0", trs! "0 11 2 12 67 294 62 295", gens! "11 290207319533486593 3;67 72623842610513668 4", words! ";0;0 0;0 0 0;1;0 1;1 0 0;1 0", false⟩
noncomputable def b122 : Block := ⟨s399, []⟩
noncomputable def s400 : Setting := ⟨chars! "P42mc", 3, t0, q! "24 0 0 0 0 24 0 0 0 0 24 0", trs! "0 224 2 225 1 292 6 293", gens! "224 290207319533486593 3;1 72623842610513668 4", words! ";0;0 0;0 0 0;1;0 1;1 0 0;1 0", false⟩
noncomputable def b123 : Block := ⟨s400, []⟩
noncomputable def s401 : Setting := ⟨chars! "P42bc", 3, t0, q! "24 0 0 0 0 24 0 0 0 0 24 0", trs! "0 224 2 225 5 294 9 295", gens! "224 290207319533486593 3;5 72623842610513668 4", words! ";0;0 0;0 0 0;1;0 1;1 0 0;1 0", false⟩
noncomputable def b124 : Block := ⟨s401, []⟩
noncomputable def s402 : Setting := ⟨chars! "I4mm", 3, t0, q! "24 0 0 0 0 24 0 0 0 0 24 0", trs! "0 11 2 12 1 14 6 13 38 228 45 229 67 294 62 295", gens! "11 16028905388486802350658220295983399425 3;1 12015198675020832560991819147602429700 4;38 9335851481537165996061868750157777160 8", words! ";0;0 0;0 0 0;1;0 1;1 0 0;1 0;2;2 0;2 0 0;2 0 0 0;2 1;2 0 1;2 1 0 0;2 1 0", false⟩
noncomputable def b125 : Block := ⟨s402, []⟩
noncomputable def s403 : Setting := ⟨chars! "I4cm", 3, t0, q! "24 0 0 0 0 24 0 0 0 0 24 0", trs! "0 11 2 12 60 292 51 293 38 228 45 229 81 296 73 297", gens! "11 16028905388486802350658220295983399425 3;60 12015198675020832560991819147602429700 4;38 9335851481537165996061868750157777160 8", words! ";0;0 0;0 0 0;1;0 1;1 0 0;1 0;2;2 0;2 0 0;2 0 0 0;2 1;2 0 1;2 1 0 0;2 1 0", false⟩
noncomputable def b126 : Block := ⟨s403, []⟩
noncomputable def s404 : Setting := ⟨chars! "I41md", 3, t0, q! "24 0 0 0 0 24 0 0 0 0 24 0", trs! "0 230 45 231 1 298 62 299 38 232 233 234 67 300 301 302", gens! "230 16028905388486802350658220295983399425 3;1 1381212446988758507471817128920092420 4", words! ";0;0 0;0 0 0;1;0 1;1 0 0;0 1 0 0;1 0 1 0;1 0 1 0 0;1 0 1 0 0 0;1 0 1;0 1 0;1 0 0 0;0 1 0 0 0;1 0", false⟩
noncomputable def b127 : Block := ⟨s404, []⟩
noncomputable def s405 : Setting := ⟨chars! "I41cd", 3, t0, q! "24 0 0 0 0 24 0 0 0 0 24 0", trs! "0 230 45 231 60 303 9 304 38 232 233 234 81 305 306 307", gens! "230 16028905388486802350658220295983399425 3;60 1381212446988758507471817128920092420 4", words! ";0;0 0;0 0 0;1;0 1;1 0 0;0 1 0 0;1 0 1 0;1 0 1 0 0;1 0 1 0 0 0;1 0 1;0 1 0;1 0 0 0;0 1 0 0 0;1 0", false⟩
noncomputable def b128 : Block := ⟨s405, []⟩
noncomputable def s406 : Setting := ⟨chars! "P-42m", 3, t0, q! "24 0 0 0 0 24 0 0 0 0 24 0", trs! "0 235 2 236 29 14 26 13", gens! "235 290207319533486593 3;29 72623842610513668 4", words! ";0;0 0;0 0 0;1;0 1;1 0 0;1 0", false⟩
noncomputable def b129 : Block := ⟨s406, []⟩
noncomputable def s407 : Setting := ⟨chars! "P-42c", 3, t0, q! "24 0 0 0 0 24 0 0 0 0 24 0", trs! "0 235 2 236 105 292 90 293", gens! "235 290207319533486593 3;105 72623842610513668 4", words! ";0;0 0;0 0 0;1;0 1;1 0 0;1 0", false⟩
noncomputable def b130 : Block := ⟨s407, []⟩
noncomputable def s408 : Setting := ⟨chars! "P-421m", 3, t0, q! "24 0 0 0 0 24 0 0 0 0 24 0", trs! "0 235 2 236 47 16 33 15", gens! "235 290207319533486593 3;47 72623842610513668 4", words! ";0;0 0;0 0 0;1;0 1;1 0 0;1 0", false⟩
noncomputable def b131 : Block := ⟨s408, []⟩
noncomputable def s409 : Setting := ⟨chars! "P-421c", 3, t0, q! "24 0 0 0 0 24 0 0 0 0 24 0", trs! "0 235 2 236 49 294 39 295", gens! "235 290207319533486593 3;49 72623842610513668 4", words! ";0;0 0;0 0 0;1;0 1;1 0 0;1 0", false⟩
noncomputable def b132 : Block := ⟨s409, []⟩
noncomputable def s410 : Setting := ⟨chars! "P-4m2", 3, t0, q! "24 0 0 0 0 24 0 0 0 0 24 0", trs! "0 235 2 236 1 269 6 270", gens! "235 290207319533486593 3;1 72623842610513668 4", words! ";0;0 0;0 0 0;1;0 1;1 0 0;1 0", false⟩
noncomputable def b133 : Block := ⟨s410, []⟩
noncomputable def s411 : Setting := ⟨chars! "P-4c2", 3, t0, q! "24 0 0 0 0 24 0 0 0 0 24 0", trs! "0 235 2 236 60 278 51 277", gens! "235 290207319533486593 3;60 72623842610513668 4", words! ";0;0 0;0 0 0;1;0 1;1 0 0;1 0", false⟩
noncomputable def b134 : Block := ⟨s411, []⟩
noncomputable def s412 : Setting := ⟨chars! "P-4b2", 3, t0, q! "24 0 0 0 0 24 0 0 0 0 24 0", trs! "0 235 2 236 5 308 9 309", gens! "235 290207319533486593 3;5 72623842610513668 4", words! ";0;0 0;0 0 0;1;0 1;1 0 0;1 0", false⟩
noncomputable def b135 : Block := ⟨s412, []⟩
noncomputable def s413 : Setting := ⟨chars! "P-4n2", 3, t0, q! "24 0 0 0 0 24 0 0 0 0 24 0", trs! "0 235 2 236 67 285 62 286", gens! "235 290207319533486593 3;67 72623842610513668 4", words! ";0;0 0;0 0 0;1;0 1;1 0 0;1 0", false⟩
noncomputable def b136 : Block := ⟨s413, []⟩
noncomputable def s414 : Setting := ⟨chars! "I-4m2", 3, t0, q! "24 0 0 0 0 24 0 0 0 0 24 0", trs! "0 235 2 236 1 269 6 270 38 237 45 238 67 285 62 286", gens! "235 16028905388486802350658220295983399425 3;1 12015198675020832560991819147602429700 4;38 9335851481537165996061868750157777160 8", words! ";0;0 0;0 0 0;1;0 1;1 0 0;1 0;2;2 0;2 0 0;2 0 0 0;2 1;2 0 1;2 1 0 0;2 1 0", false⟩
noncomputable def b137 : Block := ⟨s414, []⟩
noncomputable def s415 : Setting := ⟨chars! "I-4c2", 3, t0, q! "24 0 0 0 0 24 0 0 0 0 24 0", trs! "0 235 2 236 60 278 51 277 38 237 45 238 81 310 73 311", gens! "235 16028905388486802350658220295983399425 3;60 12015198675020832560991819147602429700 4;38 9335851481537165996061868750157777160 8", words! ";0;0 0;0 0 0;1;0 1;1 0 0;1 0;2;2 0;2 0 0;2 0 0 0;2 1;2 0 1;2 1 0 0;2 1 0", false⟩
noncomputable def b138 : Block := ⟨s415, []⟩
noncomputable def s416 : Setting := ⟨chars! "I-42m", 3, t0, q! "24 0 0 0 0 24 0 0 0 0 24 0", trs! "0 235 2 236 29 14 26 13 38 237 45 238 49 294 39 295", gens! "235 16028905388486802350658220295983399425 3;29 12015198675020832560991819147602429700 4;38 9335851481537165996061868750157777160 8", words! ";0;0 0;0 0 0;1;0 1;1 0 0;1 0;2;2 0;2 0 0;2 0 0 0;2 1;2 0 1;2 1 0 0;2 1 0", false⟩
noncomputable def b139 : Block := ⟨s416, []⟩
noncomputable def s417 : Setting := ⟨chars! "I-42d", 3, t0, q! "24 0 0 0 0 24 0 0 0 0 24 0", trs! "0 235 2 236 287 312 313 299 38 237 45 238 289 314 315 302", gens! "235 16028905388486802350658220295983399425 3;287 1381212446988758507471817128920092420 4", words! ";0;0 0;0 0 0;1;0 1;1 0 0;0 1 0 0;1 0 1 0;1 0 1 0 0;1 0 1 0 0 0;1 0 1;0 1 0;1 0 0 0;0 1 0 0 0;1 0", false⟩
noncomputable def b140 : Block := ⟨s417, []⟩
noncomputable def s418 : Setting := ⟨chars! "P4/mmm", 3, t0, q! "24 0 0 0 0 24 0 0 0 0 24 0", trs! "0 11 2 12 29 269 26 270 25 235 50 236 1 14 6 13", gens! "11 16028905388486802350658220295983399425 3;29 12015198675020832560991819147602429700 4;25 9335851481537165996061868750157777160 8", words! ";0;0 0;0 0 0;1;0 1;1 0 0;1 0;2;2 0;2 0 0;2 0 0 0;2 1;2 0 1;2 1 0 0;2 1 0", false⟩
noncomputable def b141 : Block := ⟨s418, []⟩
noncomputable def s419 : Setting := ⟨chars! "P4/mcc", 3, t0, q! "24 0 0 0 0 24 0 0 0 0 24 0", trs! "0 11 2 12 105 278 90 277 25 235 50 236 106 316 91 317", gens! "11 16028905388486802350658220295983399425 3;105 12015198675020832560991819147602429700 4;25 9335851481537165996061868750157777160 8", words! ";0;0 0;0 0 0;1;0 1;1 0 0;1 0;2;2 0;2 0 0;2 0 0 0;2 1;2 0 1;2 1 0 0;2 1 0", false⟩
noncomputable def b142 : Block := ⟨s419, []⟩
noncomputable def s420 : Setting := ⟨chars! "P4/nbm:2", 3, t0, q! "24 0 0 0 0 24 0 0 0 0 24 0", trs! "0 241 10 242 101 269 94 309 25 243 98 244 102 14 95 318", gens! "241 16028905388486802350658220295983399425 3;101 12015198675020832560991819147602429700 4;25 9335851481537165996061868750157777160 8", words! ";0;0 0;0 0 0;1;0 1;1 0 0;1 0;2;2 0;2 0 0;2 0 0 0;2 1;2 0 1;2 1 0 0;2 1 0", false⟩
noncomputable def s421 : Setting := ⟨chars! "P4/nbm:1", 3, t167, q! "24 0 0 -6 0 24 0 -6 0 0 24 0", trs! "0 11 2 12 29 269 26 270 86 319 56 320 5 16 9 15", gens! "11 16028905388486802350658220295983399425 3;29 12015198675020832560991819147602429700 4;86 9335851481537165996061868750157777160 8", words! ";0;0 0;0 0 0;1;0 1;1 0 0;1 0;2;2 0;2 0 0;2 0 0 0;2 1;2 0 1;2 1 0 0;2 1 0", false⟩
noncomputable def b143 : Block := ⟨s420, [⟨s421, nats! "1 4 8 0 0 0", nats! "1 4 8 0 0 0"⟩]⟩

noncomputable def items9 : List Item := [
  .block b109,
  .block b110,
  .block b111,
  .block b112,
  .block b113,
  .block b114,
  .block b115,
  .block b116,
  .block b117,
  .block b118,
  .block b119,
  .block b120,
  .block b121,
  .block b122,
  .block b123,
  .block b124,
  .block b125,
  .block b126,
  .block b127,
  .block b128,
  .block b129,
  .block b130,
  .block b131,
  .block b132,
  .block b133,
  .block b134,
  .block b135,
  .block b136,
  .block b137,
  .block b138,
  .block b139,
  .block b140,
  .block b141,
  .block b142,
  .block b143]

theorem good9 : allB (Item.goodB lat) items9 = true := by decide +kernel

theorem text9 : Table.sgLines9 = (items9.flatMap Item.lines).map String.ofList := by krfl

end Systre.Sg.Data
