import Verif.Lemmas.SgTable.Ops
import Verif.Model.SgTable.T8

/-! Written by tools/gen_sgtable.py. Lines 2922 to 3366. -/

namespace Systre.Sg.Data
set_option maxRecDepth 1000000
set_option maxHeartbeats 0

noncomputable def s353 : Setting := ⟨chars! "Fddd:2", 3, t0, q! "24 0 0 0 0 24 0 0 0 0 24 0", trs! "0 190 191 192 25 193 194 195 35 196 197 198 87 199 200 201 42 202 203 204 89 205 206 207 4 208 209 210 86 211 212 213", gens! "193 909926268492981183809438416913185259630319872832919345519368700302207681541 29;191 9534066097471688573016128253137714627361918088830076404896577255195935769346 2;190 2726272765487432981485107575928153666421238477727941446901073765763186360321 1", words! ";2;1;2 1;0 2;0;0 2 1;0 1;1 0 1 0 0 0;1 0 2 1 0;0 1 0 0 0;0 2 1 0;1 0 2 1;1 0 1;1 0 2;1 0;1 0 1 0;2 1 0 1 0;0 1 0;2 0 1 0;2 1 0 1;1 0 1 0 0;2 1 0;1 0 0 0;0 0;2 0 0;1 0 0;2 1 0 0;2 0;0 0 0;2 0 1;0 1 0 0", false⟩
noncomputable def s354 : Setting := ⟨chars! "Fddd:1", 3, t214, q! "24 0 0 3 0 24 0 3 0 0 24 3", trs! "0 2 29 26 215 157 149 158 35 40 103 36 216 159 151 160 42 43 46 92 217 161 153 162 4 10 47 33 218 163 155 150", gens! "157 909926268492981183809438416913185259630319872832919345519368700302207681541 29;29 9534066097471688573016128253137714627361918088830076404896577255195935769346 2;2 2726272765487432981485107575928153666421238477727941446901073765763186360321 1", words! ";2;1;2 1;0 2;0;0 2 1;0 1;1 0 1 0 0 0;1 0 2 1 0;0 1 0 0 0;0 2 1 0;1 0 2 1;1 0 1;1 0 2;1 0;1 0 1 0;2 1 0 1 0;0 1 0;2 0 1 0;2 1 0 1;1 0 1 0 0;2 1 0;1 0 0 0;0 0;2 0 0;1 0 0;2 1 0 0;2 0;0 0 0;2 0 1;0 1 0 0", false⟩
noncomputable def b88 : Block := ⟨s353, [⟨s354, nats! "29 10 25 0 0 0", nats! "29 10 25 0 0 0"⟩]⟩
noncomputable def s355 : Setting := ⟨chars! "Immm", 3, t0, q! "24 0 0 0 0 24 0 0 0 0 24 0", trs! "0 2 29 26 25 50 1 6 38 45 49 39 88 65 67 62", gens! "2 18687320815856387368178823909286805505 1;29 17342576855639742879858139805557719810 2;25 14673614102390417578512422760905835780 4;38 9335851481537165996061868750157777160 8", words! ";0;1;1 0;2;2 0;2 1;2 1 0;3;3 0;3 1;3 1 0;3 2;3 2 0;3 2 1;3 2 1 0", false⟩
noncomputable def b89 : Block := ⟨s355, []⟩
noncomputable def s356 : Setting := ⟨chars! "Ibam", 3, t0, q! "24 0 0 0 0 24 0 0 0 0 24 0", trs! "0 2 105 90 25 50 106 91 38 45 133 123 88 65 5 9", gens! "2 18687320815856387368178823909286805505 1;105 17342576855639742879858139805557719810 2;25 14673614102390417578512422760905835780 4;38 9335851481537165996061868750157777160 8", words! ";0;1;1 0;2;2 0;2 1;2 1 0;3;3 0;3 1;3 1 0;3 2;3 2 0;3 2 1;3 2 1 0", false⟩
noncomputable def s357 : Setting := ⟨chars! "Imcb", 3, t27, q! "0 0 24 0 24 0 0 0 0 24 0 0", trs! "0 96 29 94 25 97 1 95 38 125 49 119 88 63 67 61", gens! "96 18687320815856387368178823909286805505 1;29 17342576855639742879858139805557719810 2;25 14673614102390417578512422760905835780 4;38 9335851481537165996061868750157777160 8", words! ";0;1;1 0;2;2 0;2 1;2 1 0;3;3 0;3 1;3 1 0;3 2;3 2 0;3 2 1;3 2 1 0", false⟩
noncomputable def s358 : Setting := ⟨chars! "Icma", 3, t28, q! "0 24 0 0 0 0 24 0 24 0 0 0", trs! "0 99 101 26 25 100 102 6 38 127 136 39 88 64 66 62", gens! "99 18687320815856387368178823909286805505 1;101 17342576855639742879858139805557719810 2;25 14673614102390417578512422760905835780 4;38 9335851481537165996061868750157777160 8", words! ";0;1;1 0;2;2 0;2 1;2 1 0;3;3 0;3 1;3 1 0;3 2;3 2 0;3 2 1;3 2 1 0", false⟩
noncomputable def b90 : Block := ⟨s356, [⟨s357, nats! "3 1 4 8 0 0 0", nats! "2 3 4 8 0 0 0"⟩, ⟨s358, nats! "2 3 4 8 0 0 0", nats! "3 1 4 8 0 0 0"⟩]⟩
noncomputable def s359 : Setting := ⟨chars! "Ibca", 3, t0, q! "24 0 0 0 0 24 0 0 0 0 24 0", trs! "0 99 105 36 25 100 106 107 38 127 133 137 88 64 5 8", gens! "99 18687320815856387368178823909286805505 1;105 17342576855639742879858139805557719810 2;25 14673614102390417578512422760905835780 4;38 9335851481537165996061868750157777160 8", words! ";0;1;1 0;2;2 0;2 1;2 1 0;3;3 0;3 1;3 1 0;3 2;3 2 0;3 2 1;3 2 1 0", false⟩
noncomputable def s360 : Setting := ⟨chars! "Icab", 3, t219, q! "24 0 0 6 0 24 0 -6 0 0 24 6", trs! "0 96 101 33 25 97 102 109 38 125 136 220 88 63 66 51", gens! "96 18687320815856387368178823909286805505 1;101 17342576855639742879858139805557719810 2;25 14673614102390417578512422760905835780 4;38 9335851481537165996061868750157777160 8", words! ";0;1;1 0;2;2 0;2 1;2 1 0;3;3 0;3 1;3 1 0;3 2;3 2 0;3 2 1;3 2 1 0", false⟩
noncomputable def b91 : Block := ⟨s359, [⟨s360, nats! "1 2 12 8 0 0 0", nats! "1 2 12 8 0 0 0"⟩]⟩
noncomputable def s361 : Setting := ⟨chars! "Imma", 3, t0, q! "24 0 0 0 0 24 0 0 0 0 24 0", trs! "0 99 29 30 25 100 1 83 38 127 49 117 88 64 67 53", gens! "99 18687320815856387368178823909286805505 1;29 17342576855639742879858139805557719810 2;25 14673614102390417578512422760905835780 4;38 9335851481537165996061868750157777160 8", words! ";0;1;1 0;2;2 0;2 1;2 1 0;3;3 0;3 1;3 1 0;3 2;3 2 0;3 2 1;3 2 1 0", false⟩
noncomputable def s362 : Setting := ⟨chars! "Immb", 3, t219, q! "24 0 0 6 0 24 0 -6 0 0 24 6", trs! "0 96 32 26 25 97 85 6 38 125 131 39 88 63 59 62", gens! "96 18687320815856387368178823909286805505 1;32 17342576855639742879858139805557719810 2;25 14673614102390417578512422760905835780 4;38 9335851481537165996061868750157777160 8", words! ";0;1;1 0;2;2 0;2 1;2 1 0;3;3 0;3 1;3 1 0;3 2;3 2 0;3 2 1;3 2 1 0", false⟩
noncomputable def s363 : Setting := ⟨chars! "Ibmm", 3, t27, q! "0 0 24 0 24 0 0 0 0 24 0 0", trs! "0 31 105 26 25 84 106 6 38 221 133 39 88 56 5 62", gens! "31 18687320815856387368178823909286805505 1;105 17342576855639742879858139805557719810 2;25 14673614102390417578512422760905835780 4;38 9335851481537165996061868750157777160 8", words! ";0;1;1 0;2;2 0;2 1;2 1 0;3;3 0;3 1;3 1 0;3 2;3 2 0;3 2 1;3 2 1 0", false⟩
noncomputable def s364 : Setting := ⟨chars! "Icmm", 3, t34, q! "0 0 24 0 0 24 0 0 -24 0 0 0", trs! "0 2 101 30 25 50 102 83 38 45 136 117 88 65 66 53", gens! "2 18687320815856387368178823909286805505 1;101 17342576855639742879858139805557719810 2;25 14673614102390417578512422760905835780 4;38 9335851481537165996061868750157777160 8", words! ";0;1;1 0;2;2 0;2 1;2 1 0;3;3 0;3 1;3 1 0;3 2;3 2 0;3 2 1;3 2 1 0", false⟩
noncomputable def s365 : Setting := ⟨chars! "Imcm", 3, t28, q! "0 24 0 0 0 0 24 0 24 0 0 0", trs! "0 2 32 94 25 50 85 95 38 45 131 119 88 65 59 61", gens! "2 18687320815856387368178823909286805505 1;32 17342576855639742879858139805557719810 2;25 14673614102390417578512422760905835780 4;38 9335851481537165996061868750157777160 8", words! ";0;1;1 0;2;2 0;2 1;2 1 0;3;3 0;3 1;3 1 0;3 2;3 2 0;3 2 1;3 2 1 0", false⟩
noncomputable def s366 : Setting := ⟨chars! "Imam", 3, t41, q! "-24 0 0 0 0 0 24 0 0 24 0 0", trs! "0 31 29 90 25 84 1 91 38 221 49 123 88 56 67 9", gens! "31 18687320815856387368178823909286805505 1;29 17342576855639742879858139805557719810 2;25 14673614102390417578512422760905835780 4;38 9335851481537165996061868750157777160 8", words! ";0;1;1 0;2;2 0;2 1;2 1 0;3;3 0;3 1;3 1 0;3 2;3 2 0;3 2 1;3 2 1 0", false⟩
noncomputable def b92 : Block := ⟨s361, [⟨s362, nats! "1 10 12 8 0 0 0", nats! "1 10 12 8 0 0 0"⟩, ⟨s363, nats! "3 1 4 8 0 0 0", nats! "2 3 4 8 0 0 0"⟩, ⟨s364, nats! "2 1 4 8 0 0 0", nats! "2 1 4 8 0 0 0"⟩, ⟨s365, nats! "2 3 4 8 0 0 0", nats! "3 1 4 8 0 0 0"⟩, ⟨s366, nats! "3 2 4 8 0 0 0", nats! "3 2 4 8 0 0 0"⟩]⟩
noncomputable def s367 : Setting := ⟨chars! "P4", 3, t0, q! "24 0 0 0 0 24 0 0 0 0 24 0", trs! "0 11 2 12", gens! "11 197121 3", words! ";0;0 0;0 0 0", false⟩
noncomputable def b93 : Block := ⟨s367, []⟩
noncomputable def s368 : Setting := ⟨chars! "P41", 3, t0, q! "24 0 0 0 0 24 0 0 0 0 24 0", trs! "0 222 31 223", gens! "222 197121 3", words! ";0;0 0;0 0 0", false⟩
noncomputable def b94 : Block := ⟨s368, []⟩
noncomputable def s369 : Setting := ⟨chars! "P42", 3, t0, q! "24 0 0 0 0 24 0 0 0 0 24 0", trs! "0 224 2 225", gens! "224 197121 3", words! ";0;0 0;0 0 0", false⟩
noncomputable def b95 : Block := ⟨s369, []⟩
noncomputable def s370 : Setting := ⟨chars! "P43", 3, t0, q! "24 0 0 0 0 24 0 0 0 0 24 0", trs! "0 226 31 227", gens! "226 197121 3", words! ";0;0 0;0 0 0", false⟩
noncomputable def b96 : Block := ⟨s370, []⟩
noncomputable def s371 : Setting := ⟨chars! "I4", 3, t0, q! "24 0 0 0 0 24 0 0 0 0 24 0", trs! "0 11 2 12 38 228 45 229", gens! "11 290207319533486593 3;38 216736831696667908 4", words! ";0;0 0;0 0 0;1;1 0;1 0 0;1 0 0 0", false⟩
noncomputable def b97 : Block := ⟨s371, []⟩
noncomputable def s372 : Setting := ⟨chars! "I41", 3, t0, q! "24 0 0 0 0 24 0 0 0 0 24 0", trs! "0 230 45 231 38 232 233 234", gens! "230 290207319533486593 3;38 216736831696667908 4", words! ";0;0 0;0 0 0;1;1 0;1 0 0;1 0 0 0", false⟩
noncomputable def b98 : Block := ⟨s372, []⟩
noncomputable def s373 : Setting := ⟨chars! "P-4", 3, t0, q! "24 0 0 0 0 24 0 0 0 0 24 0", trs! "0 235 2 236", gens! "235 197121 3", words! ";0;0 0;0 0 0", false⟩
noncomputable def b99 : Block := ⟨s373, []⟩
noncomputable def s374 : Setting := ⟨chars! "I-4", 3, t0, q! "24 0 0 0 0 24 0 0 0 0 24 0", trs! "0 235 2 236 38 237 45 238", gens! "235 290207319533486593 3;38 216736831696667908 4", words! ";0;0 0;0 0 0;1;1 0;1 0 0;1 0 0 0", false⟩
noncomputable def b100 : Block := ⟨s374, []⟩
noncomputable def s375 : Setting := ⟨chars! "P4/m", 3, t0, q! "24 0 0 0 0 24 0 0 0 0 24 0", trs! "0 11 2 12 25 235 50 236", gens! "11 290207319533486593 3;25 216736831696667908 4", words! ";0;0 0;0 0 0;1;1 0;1 0 0;1 0 0 0", false⟩
noncomputable def b101 : Block := ⟨s375, []⟩
noncomputable def s376 : Setting := ⟨chars! "P42/m", 3, t0, q! "24 0 0 0 0 24 0 0 0 0 24 0", trs! "0 224 2 225 25 239 50 240", gens! "224 290207319533486593 3;25 216736831696667908 4", words! ";0;0 0;0 0 0;1;1 0;1 0 0;1 0 0 0", false⟩
noncomputable def b102 : Block := ⟨s376, []⟩
noncomputable def s377 : Setting := ⟨chars! "P4/n:2", 3, t0, q! "24 0 0 0 0 24 0 0 0 0 24 0", trs! "0 241 10 242 25 243 98 244", gens! "241 290207319533486593 3;25 216736831696667908 4", words! ";0;0 0;0 0 0;1;1 0;1 0 0;1 0 0 0", false⟩
noncomputable def s378 : Setting := ⟨chars! "P4/n:1", 3, t245, q! "24 0 0 -6 0 24 0 6 0 0 24 0", trs! "0 246 2 247 86 235 56 236", gens! "246 290207319533486593 3;86 216736831696667908 4", words! ";0;0 0;0 0 0;1;1 0;1 0 0;1 0 0 0", false⟩
noncomputable def b103 : Block := ⟨s377, [⟨s378, nats! "1 4 0 0 0", nats! "1 4 0 0 0"⟩]⟩
noncomputable def s379 : Setting := ⟨chars! "P42/n:2", 3, t0, q! "24 0 0 0 0 24 0 0 0 0 24 0", trs! "0 248 10 249 25 250 98 251", gens! "248 290207319533486593 3;25 216736831696667908 4", words! ";0;0 0;0 0 0;1;1 0;1 0 0;1 0 0 0", false⟩
noncomputable def s380 : Setting := ⟨chars! "P42/n:1", 3, t252, q! "24 0 0 6 0 24 0 6 0 0 24 6", trs! "0 228 2 229 88 235 65 236", gens! "228 290207319533486593 3;88 216736831696667908 4", words! ";0;0 0;0 0 0;1;1 0;1 0 0;1 0 0 0", false⟩
noncomputable def b104 : Block := ⟨s379, [⟨s380, nats! "1 4 0 0 0", nats! "1 4 0 0 0"⟩]⟩
noncomputable def s381 : Setting := ⟨chars! "I4/m", 3, t0, q! "24 0 0 0 0 24 0 0 0 0 24 0", trs! "0 11 2 12 25 235 50 236 38 228 45 229 88 237 65 238", gens! "11 16028905388486802350658220295983399425 3;25 14673614102390417578512422760905835780 4;38 9335851481537165996061868750157777160 8", words! ";0;0 0;0 0 0;1;1 0;1 0 0;1 0 0 0;2;2 0;2 0 0;2 0 0 0;2 1;2 1 0;2 1 0 0;2 1 0 0 0", false⟩
noncomputable def b105 : Block := ⟨s381, []⟩
noncomputable def s382 : Setting := ⟨chars! "I41/a:2", 3, t0, q! "24 0 0 0 0 24 0 0 0 0 24 0", trs! "0 253 43 254 25 255 110 256 38 257 258 259 88 260 57 261", gens! "253 5353380154237067419500148899314860545 3;25 14673614102390417578512422760905835780 4", words! ";0;0 0;0 0 0;1;1 0;1 0 0;1 0 0 0;1 0 1 0 0 0;1 0 1;1 0 1 0;1 0 1 0 0;0 1 0 0 0;0 1;0 1 0;0 1 0 0", false⟩
noncomputable def s383 : Setting := ⟨chars! "I41/a:1", 3, t262, q! "24 0 0 0 0 24 0 6 0 0 24 3", trs! "0 230 45 231 263 235 264 265 38 232 233 234 266 237 267 268", gens! "230 5353380154237067419500148899314860545 3;263 14673614102390417578512422760905835780 4", words! ";0;0 0;0 0 0;1;1 0;1 0 0;1 0 0 0;1 0 1 0 0 0;1 0 1;1 0 1 0;1 0 1 0 0;0 1 0 0 0;0 1;0 1 0;0 1 0 0", false⟩
noncomputable def b106 : Block := ⟨s382, [⟨s383, nats! "1 4 0 0 0", nats! "1 4 0 0 0"⟩]⟩
noncomputable def s384 : Setting := ⟨chars! "P422", 3, t0, q! "24 0 0 0 0 24 0 0 0 0 24 0", trs! "0 11 2 12 29 269 26 270", gens! "11 290207319533486593 3;29 72623842610513668 4", words! ";0;0 0;0 0 0;1;0 1;1 0 0;1 0", false⟩
noncomputable def b107 : Block := ⟨s384, []⟩
noncomputable def s385 : Setting := ⟨chars! "P4212", 3, t0, q! "24 0 0 0 0 24 0 0 0 0 24 0", trs! "0 246 2 247 47 269 33 270", gens! "246 290207319533486593 3;47 72623842610513668 4", words! ";0;0 0;0 0 0;1;0 1;1 0 0;1 0", false⟩
noncomputable def b108 : Block := ⟨s385, []⟩

noncomputable def items8 : List Item := [
  .block b88,
  .block b89,
  .block b90,
  .block b91,
  .block b92,
  .block b93,
  .block b94,
  .block b95,
  .block b96,
  .block b97,
  .block b98,
  .block b99,
  .block b100,
  .block b101,
  .block b102,
  .block b103,
  .block b104,
  .block b105,
  .block b106,
  .block b107,
  .block b108]

theorem good8 : allB (Item.goodB lat) items8 = true := by decide +kernel

theorem text8 : Table.sgLines8 = (items8.flatMap Item.lines).map String.ofList := by krfl

end Systre.Sg.Data
