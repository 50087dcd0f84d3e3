import Verif.Lemmas.SgTable.Ops
import Verif.Model.SgTable.T4

/-! Written by tools/gen_sgtable.py. Lines 1266 to 1691. -/

namespace Systre.Sg.Data
set_option maxRecDepth 1000000
set_option maxHeartbeats 0

noncomputable def s209 : Setting := ⟨chars! "Abm2", 3, t0, q! "24 0 0 0 0 24 0 0 0 0 24 0", trs! "0 2 3 138 35 40 140 141", gens! "2 434320308619640833 1;3 361421592464458498 2;35 216736831696667908 4", words! ";0;1;1 0;2;2 0;2 1;2 1 0", false⟩
noncomputable def s210 : Setting := ⟨chars! "Bma2", 3, t11, q! "0 24 0 0 -24 0 0 0 0 0 24 0", trs! "0 2 7 8 42 43 142 143", gens! "2 434320308619640833 1;7 361421592464458498 2;42 216736831696667908 4", words! ";0;1;1 0;2;2 0;2 1;2 1 0", false⟩
noncomputable def s211 : Setting := ⟨chars! "B2cm", 3, t27, q! "0 0 24 0 24 0 0 0 0 24 0 0", trs! "0 54 29 8 42 144 46 143", gens! "54 434320308619640833 1;29 361421592464458498 2;42 216736831696667908 4", words! ";0;1;1 0;2;2 0;2 1;2 1 0", false⟩
noncomputable def s212 : Setting := ⟨chars! "C2mb", 3, t34, q! "0 0 24 0 0 24 0 0 -24 0 0 0", trs! "0 54 29 8 4 145 47 146", gens! "54 434320308619640833 1;29 361421592464458498 2;4 216736831696667908 4", words! ";0;1;1 0;2;2 0;2 1;2 1 0", false⟩
noncomputable def s213 : Setting := ⟨chars! "Cm2a", 3, t28, q! "0 24 0 0 0 0 24 0 24 0 0 0", trs! "0 54 7 26 4 145 147 33", gens! "54 434320308619640833 1;7 361421592464458498 2;4 216736831696667908 4", words! ";0;1;1 0;2;2 0;2 1;2 1 0", false⟩
noncomputable def s214 : Setting := ⟨chars! "Ac2m", 3, t41, q! "-24 0 0 0 0 0 24 0 0 24 0 0", trs! "0 57 3 26 35 148 140 36", gens! "57 434320308619640833 1;3 361421592464458498 2;35 216736831696667908 4", words! ";0;1;1 0;2;2 0;2 1;2 1 0", false⟩
noncomputable def b57 : Block := ⟨s209, [⟨s210, nats! "1 3 4 0 0 0", nats! "1 3 4 0 0 0"⟩, ⟨s211, nats! "7 1 4 0 0 0", nats! "2 7 4 0 0 0"⟩, ⟨s212, nats! "6 1 4 0 0 0", nats! "2 5 4 0 0 0"⟩, ⟨s213, nats! "2 3 4 0 0 0", nats! "3 1 4 0 0 0"⟩, ⟨s214, nats! "7 6 4 0 0 0", nats! "3 6 4 0 0 0"⟩]⟩
noncomputable def s215 : Setting := ⟨chars! "Ama2", 3, t0, q! "24 0 0 0 0 24 0 0 0 0 24 0", trs! "0 2 7 8 35 40 67 62", gens! "2 434320308619640833 1;7 361421592464458498 2;35 216736831696667908 4", words! ";0;1;1 0;2;2 0;2 1;2 1 0", false⟩
noncomputable def s216 : Setting := ⟨chars! "Bbm2", 3, t11, q! "0 24 0 0 -24 0 0 0 0 0 24 0", trs! "0 2 3 138 42 43 67 62", gens! "2 434320308619640833 1;3 361421592464458498 2;42 216736831696667908 4", words! ";0;1;1 0;2;2 0;2 1;2 1 0", false⟩
noncomputable def s217 : Setting := ⟨chars! "B2mb", 3, t27, q! "0 0 24 0 24 0 0 0 0 24 0 0", trs! "0 57 29 138 42 65 46 62", gens! "57 434320308619640833 1;29 361421592464458498 2;42 216736831696667908 4", words! ";0;1;1 0;2;2 0;2 1;2 1 0", false⟩
noncomputable def s218 : Setting := ⟨chars! "C2cm", 3, t34, q! "0 0 24 0 0 24 0 0 -24 0 0 0", trs! "0 139 29 51 4 65 47 62", gens! "139 434320308619640833 1;29 361421592464458498 2;4 216736831696667908 4", words! ";0;1;1 0;2;2 0;2 1;2 1 0", false⟩
noncomputable def s219 : Setting := ⟨chars! "Cc2m", 3, t28, q! "0 24 0 0 0 0 24 0 24 0 0 0", trs! "0 139 60 26 4 65 67 33", gens! "139 434320308619640833 1;60 361421592464458498 2;4 216736831696667908 4", words! ";0;1;1 0;2;2 0;2 1;2 1 0", false⟩
noncomputable def s220 : Setting := ⟨chars! "Am2a", 3, t41, q! "-24 0 0 0 0 0 24 0 0 24 0 0", trs! "0 54 7 26 35 65 67 36", gens! "54 434320308619640833 1;7 361421592464458498 2;35 216736831696667908 4", words! ";0;1;1 0;2;2 0;2 1;2 1 0", false⟩
noncomputable def b58 : Block := ⟨s215, [⟨s216, nats! "1 3 4 0 0 0", nats! "1 3 4 0 0 0"⟩, ⟨s217, nats! "3 1 4 0 0 0", nats! "2 3 4 0 0 0"⟩, ⟨s218, nats! "2 1 4 0 0 0", nats! "2 1 4 0 0 0"⟩, ⟨s219, nats! "2 3 4 0 0 0", nats! "3 1 4 0 0 0"⟩, ⟨s220, nats! "3 2 4 0 0 0", nats! "3 2 4 0 0 0"⟩]⟩
noncomputable def s221 : Setting := ⟨chars! "Aba2", 3, t0, q! "24 0 0 0 0 24 0 0 0 0 24 0", trs! "0 2 5 9 35 40 82 69", gens! "2 434320308619640833 1;5 361421592464458498 2;35 216736831696667908 4", words! ";0;1;1 0;2;2 0;2 1;2 1 0", false⟩
noncomputable def s222 : Setting := ⟨chars! "Bba2", 3, t11, q! "0 24 0 0 -24 0 0 0 0 0 24 0", trs! "0 2 5 9 42 43 79 71", gens! "2 434320308619640833 1;5 361421592464458498 2;42 216736831696667908 4", words! ";0;1;1 0;2;2 0;2 1;2 1 0", false⟩
noncomputable def s223 : Setting := ⟨chars! "B2cb", 3, t27, q! "0 0 24 0 24 0 0 0 0 24 0 0", trs! "0 56 29 9 42 75 46 71", gens! "56 434320308619640833 1;29 361421592464458498 2;42 216736831696667908 4", words! ";0;1;1 0;2;2 0;2 1;2 1 0", false⟩
noncomputable def s224 : Setting := ⟨chars! "C2cb", 3, t34, q! "0 0 24 0 0 24 0 0 -24 0 0 0", trs! "0 64 29 53 4 75 47 71", gens! "64 434320308619640833 1;29 361421592464458498 2;4 216736831696667908 4", words! ";0;1;1 0;2;2 0;2 1;2 1 0", false⟩
noncomputable def s225 : Setting := ⟨chars! "Cc2a", 3, t28, q! "0 24 0 0 0 0 24 0 24 0 0 0", trs! "0 64 66 26 4 75 79 33", gens! "64 434320308619640833 1;66 361421592464458498 2;4 216736831696667908 4", words! ";0;1;1 0;2;2 0;2 1;2 1 0", false⟩
noncomputable def s226 : Setting := ⟨chars! "Ac2a", 3, t41, q! "-24 0 0 0 0 0 24 0 0 24 0 0", trs! "0 56 5 26 35 77 82 36", gens! "56 434320308619640833 1;5 361421592464458498 2;35 216736831696667908 4", words! ";0;1;1 0;2;2 0;2 1;2 1 0", false⟩
noncomputable def b59 : Block := ⟨s221, [⟨s222, nats! "1 3 4 0 0 0", nats! "1 3 4 0 0 0"⟩, ⟨s223, nats! "7 1 4 0 0 0", nats! "2 7 4 0 0 0"⟩, ⟨s224, nats! "6 1 4 0 0 0", nats! "2 5 4 0 0 0"⟩, ⟨s225, nats! "2 3 4 0 0 0", nats! "3 1 4 0 0 0"⟩, ⟨s226, nats! "7 6 4 0 0 0", nats! "3 6 4 0 0 0"⟩]⟩
noncomputable def s227 : Setting := ⟨chars! "Fmm2", 3, t0, q! "24 0 0 0 0 24 0 0 0 0 24 0", trs! "0 2 1 6 35 40 59 61 42 43 66 53 4 10 5 9", gens! "2 18687320815856387368178823909286805505 1;1 17342576855639742879858139805557719810 2;35 14673614102390417578512422760905835780 4;42 9335851481537165996061868750157777160 8", words! ";0;1;1 0;2;2 0;2 1;2 1 0;3;3 0;3 1;3 1 0;3 2;3 2 0;3 2 1;3 2 1 0", false⟩
noncomputable def s228 : Setting := ⟨chars! "F2mm", 3, t27, q! "0 0 24 0 24 0 0 0 0 24 0 0", trs! "0 50 29 6 35 63 103 61 42 64 46 53 4 56 47 9", gens! "50 18687320815856387368178823909286805505 1;29 17342576855639742879858139805557719810 2;35 14673614102390417578512422760905835780 4;42 9335851481537165996061868750157777160 8", words! ";0;1;1 0;2;2 0;2 1;2 1 0;3;3 0;3 1;3 1 0;3 2;3 2 0;3 2 1;3 2 1 0", false⟩
noncomputable def s229 : Setting := ⟨chars! "Fm2m", 3, t28, q! "0 24 0 0 0 0 24 0 24 0 0 0", trs! "0 50 1 26 35 63 59 36 42 64 66 92 4 56 5 33", gens! "50 18687320815856387368178823909286805505 1;1 17342576855639742879858139805557719810 2;35 14673614102390417578512422760905835780 4;42 9335851481537165996061868750157777160 8", words! ";0;1;1 0;2;2 0;2 1;2 1 0;3;3 0;3 1;3 1 0;3 2;3 2 0;3 2 1;3 2 1 0", false⟩
noncomputable def b60 : Block := ⟨s227, [⟨s228, nats! "3 1 12 4 0 0 0", nats! "2 3 8 12 0 0 0"⟩, ⟨s229, nats! "2 3 8 12 0 0 0", nats! "3 1 12 4 0 0 0"⟩]⟩
noncomputable def s230 : Setting := ⟨chars! "Fdd2", 3, t0, q! "24 0 0 0 0 24 0 0 0 0 24 0", trs! "0 2 149 150 35 40 151 152 42 43 153 154 4 10 155 156", gens! "149 6687740310539969501885579709879947010 6;2 18687320815856387368178823909286805505 1", words! ";1;0;1 0;0 0;1 0 0;0 0 0;1 0 0 0;1 0 1 0;0 1 0;1 0 1 0 0;0 1 0 0;1 0 1 0 0 0;0 1 0 0 0;1 0 1;0 1", false⟩
noncomputable def s231 : Setting := ⟨chars! "F2dd", 3, t27, q! "0 0 24 0 24 0 0 0 0 24 0 0", trs! "0 157 29 158 35 159 103 160 42 161 46 162 4 163 47 150", gens! "157 2736341476284194144824974839826811905 13;29 12025583744099623710024292754780063490 2", words! ";0;1;0 1;1 0 1 0 0 0;1 0 1;0 1 0 0 0;1 0;1 0 1 0;1 0 1 0 0;0 1 0;1 0 0 0;0 0;0 0 0;1 0 0;0 1 0 0", false⟩
noncomputable def s232 : Setting := ⟨chars! "Fd2d", 3, t28, q! "0 24 0 0 0 0 24 0 24 0 0 0", trs! "0 157 149 33 35 159 151 117 42 161 153 119 4 163 155 164", gens! "157 2736341476284194144824974839826811905 13;149 1370909458276641766483270076043889410 6", words! ";0;1;0 1;1 1;1 1 0;0 1 0;1 0 0 0;1 1 0 0;1 1 0 0 0;0 1 0 0 0;1 0;0 0;0 0 0;1 0 0;0 1 0 0", false⟩
noncomputable def b61 : Block := ⟨s230, [⟨s231, nats! "15 1 0 0 0", nats! "3 2 0 0 0"⟩, ⟨s232, nats! "2 15 0 0 0", nats! "1 15 0 0 0"⟩]⟩
noncomputable def s233 : Setting := ⟨chars! "Imm2", 3, t0, q! "24 0 0 0 0 24 0 0 0 0 24 0", trs! "0 2 1 6 38 45 67 62", gens! "2 434320308619640833 1;1 361421592464458498 2;38 216736831696667908 4", words! ";0;1;1 0;2;2 0;2 1;2 1 0", false⟩
noncomputable def s234 : Setting := ⟨chars! "I2mm", 3, t27, q! "0 0 24 0 24 0 0 0 0 24 0 0", trs! "0 50 29 6 38 65 49 62", gens! "50 434320308619640833 1;29 361421592464458498 2;38 216736831696667908 4", words! ";0;1;1 0;2;2 0;2 1;2 1 0", false⟩
noncomputable def s235 : Setting := ⟨chars! "Im2m", 3, t28, q! "0 24 0 0 0 0 24 0 24 0 0 0", trs! "0 50 1 26 38 65 67 39", gens! "50 434320308619640833 1;1 361421592464458498 2;38 216736831696667908 4", words! ";0;1;1 0;2;2 0;2 1;2 1 0", false⟩
noncomputable def b62 : Block := ⟨s233, [⟨s234, nats! "3 1 4 0 0 0", nats! "2 3 4 0 0 0"⟩, ⟨s235, nats! "2 3 4 0 0 0", nats! "3 1 4 0 0 0"⟩]⟩
noncomputable def s236 : Setting := ⟨chars! "Iba2", 3, t0, q! "24 0 0 0 0 24 0 0 0 0 24 0", trs! "0 2 60 51 38 45 81 73", gens! "2 434320308619640833 1;60 361421592464458498 2;38 216736831696667908 4", words! ";0;1;1 0;2;2 0;2 1;2 1 0", false⟩
noncomputable def s237 : Setting := ⟨chars! "I2cb", 3, t27, q! "0 0 24 0 24 0 0 0 0 24 0 0", trs! "0 54 29 8 38 75 49 71", gens! "54 434320308619640833 1;29 361421592464458498 2;38 216736831696667908 4", words! ";0;1;1 0;2;2 0;2 1;2 1 0", false⟩
noncomputable def s238 : Setting := ⟨chars! "Ic2a", 3, t28, q! "0 24 0 0 0 0 24 0 24 0 0 0", trs! "0 57 3 26 38 77 82 39", gens! "57 434320308619640833 1;3 361421592464458498 2;38 216736831696667908 4", words! ";0;1;1 0;2;2 0;2 1;2 1 0", false⟩
noncomputable def b63 : Block := ⟨s236, [⟨s237, nats! "3 1 4 0 0 0", nats! "2 3 4 0 0 0"⟩, ⟨s238, nats! "2 3 4 0 0 0", nats! "3 1 4 0 0 0"⟩]⟩
noncomputable def s239 : Setting := ⟨chars! "Ima2", 3, t0, q! "24 0 0 0 0 24 0 0 0 0 24 0", trs! "0 2 7 8 38 45 79 71", gens! "2 434320308619640833 1;7 361421592464458498 2;38 216736831696667908 4", words! ";0;1;1 0;2;2 0;2 1;2 1 0", false⟩
noncomputable def s240 : Setting := ⟨chars! "Ibm2", 3, t11, q! "0 24 0 0 -24 0 0 0 0 0 24 0", trs! "0 2 3 138 38 45 82 69", gens! "2 434320308619640833 1;3 361421592464458498 2;38 216736831696667908 4", words! ";0;1;1 0;2;2 0;2 1;2 1 0", false⟩
noncomputable def s241 : Setting := ⟨chars! "I2mb", 3, t27, q! "0 0 24 0 24 0 0 0 0 24 0 0", trs! "0 57 29 138 38 77 49 69", gens! "57 434320308619640833 1;29 361421592464458498 2;38 216736831696667908 4", words! ";0;1;1 0;2;2 0;2 1;2 1 0", false⟩
noncomputable def s242 : Setting := ⟨chars! "I2cm", 3, t34, q! "0 0 24 0 0 24 0 0 -24 0 0 0", trs! "0 139 29 51 38 165 49 73", gens! "139 434320308619640833 1;29 361421592464458498 2;38 216736831696667908 4", words! ";0;1;1 0;2;2 0;2 1;2 1 0", false⟩
noncomputable def s243 : Setting := ⟨chars! "Ic2m", 3, t28, q! "0 24 0 0 0 0 24 0 24 0 0 0", trs! "0 139 60 26 38 165 81 39", gens! "139 434320308619640833 1;60 361421592464458498 2;38 216736831696667908 4", words! ";0;1;1 0;2;2 0;2 1;2 1 0", false⟩
noncomputable def s244 : Setting := ⟨chars! "Im2a", 3, t41, q! "-24 0 0 0 0 0 24 0 0 24 0 0", trs! "0 54 7 26 38 75 79 39", gens! "54 434320308619640833 1;7 361421592464458498 2;38 216736831696667908 4", words! ";0;1;1 0;2;2 0;2 1;2 1 0", false⟩
noncomputable def b64 : Block := ⟨s239, [⟨s240, nats! "1 3 4 0 0 0", nats! "1 3 4 0 0 0"⟩, ⟨s241, nats! "3 1 4 0 0 0", nats! "2 3 4 0 0 0"⟩, ⟨s242, nats! "2 1 4 0 0 0", nats! "2 1 4 0 0 0"⟩, ⟨s243, nats! "2 3 4 0 0 0", nats! "3 1 4 0 0 0"⟩, ⟨s244, nats! "3 2 4 0 0 0", nats! "3 2 4 0 0 0"⟩]⟩
noncomputable def s245 : Setting := ⟨chars! "Pmmm", 3, t0, q! "24 0 0 0 0 24 0 0 0 0 24 0", trs! "0 2 29 26 25 50 1 6", gens! "2 434320308619640833 1;29 361421592464458498 2;25 216736831696667908 4", words! ";0;1;1 0;2;2 0;2 1;2 1 0", false⟩
noncomputable def b65 : Block := ⟨s245, []⟩
noncomputable def s246 : Setting := ⟨chars! "Pnnn:2", 3, t0, q! "24 0 0 0 0 24 0 0 0 0 24 0", trs! "0 10 103 92 25 98 104 93", gens! "10 434320308619640833 1;103 361421592464458498 2;25 216736831696667908 4", words! ";0;1;1 0;2;2 0;2 1;2 1 0", false⟩
noncomputable def s247 : Setting := ⟨chars! "Pnnn:1", 3, t166, q! "24 0 0 -6 0 24 0 -6 0 0 24 -6", trs! "0 2 29 26 88 65 67 62", gens! "2 434320308619640833 1;29 361421592464458498 2;88 216736831696667908 4", words! ";0;1;1 0;2;2 0;2 1;2 1 0", false⟩
noncomputable def b66 : Block := ⟨s246, [⟨s247, nats! "1 2 4 0 0 0", nats! "1 2 4 0 0 0"⟩]⟩
noncomputable def s248 : Setting := ⟨chars! "Pccm", 3, t0, q! "24 0 0 0 0 24 0 0 0 0 24 0", trs! "0 2 105 90 25 50 106 91", gens! "2 434320308619640833 1;105 361421592464458498 2;25 216736831696667908 4", words! ";0;1;1 0;2;2 0;2 1;2 1 0", false⟩
noncomputable def s249 : Setting := ⟨chars! "Pmaa", 3, t27, q! "0 0 24 0 24 0 0 0 0 24 0 0", trs! "0 96 29 94 25 97 1 95", gens! "96 434320308619640833 1;29 361421592464458498 2;25 216736831696667908 4", words! ";0;1;1 0;2;2 0;2 1;2 1 0", false⟩
noncomputable def s250 : Setting := ⟨chars! "Pbmb", 3, t28, q! "0 24 0 0 0 0 24 0 24 0 0 0", trs! "0 99 101 26 25 100 102 6", gens! "99 434320308619640833 1;101 361421592464458498 2;25 216736831696667908 4", words! ";0;1;1 0;2;2 0;2 1;2 1 0", false⟩
noncomputable def b67 : Block := ⟨s248, [⟨s249, nats! "3 1 4 0 0 0", nats! "2 3 4 0 0 0"⟩, ⟨s250, nats! "2 3 4 0 0 0", nats! "3 1 4 0 0 0"⟩]⟩

noncomputable def items4 : List Item := [
  .block b57,
  .block b58,
  .block b59,
  .block b60,
  .block b61,
  .block b62,
  .block b63,
  .block b64,
  .block b65,
  .block b66,
  .block b67]

theorem good4 : allB (Item.goodB lat) items4 = true := by decide +kernel

theorem text4 : Table.sgLines4 = (items4.flatMap Item.lines).map String.ofList := by krfl

end Systre.Sg.Data
