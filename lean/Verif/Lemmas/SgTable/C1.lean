import Verif.Lemmas.SgTable.Ops
import Verif.Model.SgTable.T1

/-! Written by tools/gen_sgtable.py. Lines 1 to 401. -/

namespace Systre.Sg.Data
set_option maxRecDepth 1000000
set_option maxHeartbeats 0

noncomputable def s0 : Setting := ⟨chars! "op1", 1, t0, q! "24 0 0 0 0 24 0 0 0 0 24 0", trs! "0", gens! "", words! "", false⟩
noncomputable def b0 : Block := ⟨s0, []⟩
noncomputable def s1 : Setting := ⟨chars! "opm", 1, t0, q! "24 0 0 0 0 24 0 0 0 0 24 0", trs! "0 1", gens! "1 1 1", words! ";0", true⟩
noncomputable def b1 : Block := ⟨s1, []⟩
noncomputable def s2 : Setting := ⟨chars! "p1", 2, t0, q! "24 0 0 0 0 24 0 0 0 0 24 0", trs! "0", gens! "", words! "", false⟩
noncomputable def b2 : Block := ⟨s2, []⟩
noncomputable def s3 : Setting := ⟨chars! "p2", 2, t0, q! "24 0 0 0 0 24 0 0 0 0 24 0", trs! "0 2", gens! "2 1 1", words! ";0", false⟩
noncomputable def b3 : Block := ⟨s3, []⟩
noncomputable def s4 : Setting := ⟨chars! "pm", 2, t0, q! "24 0 0 0 0 24 0 0 0 0 24 0", trs! "0 1", gens! "1 1 1", words! ";0", false⟩
noncomputable def b4 : Block := ⟨s4, []⟩
noncomputable def s5 : Setting := ⟨chars! "pg", 2, t0, q! "24 0 0 0 0 24 0 0 0 0 24 0", trs! "0 3", gens! "3 1 1", words! ";0", false⟩
noncomputable def b5 : Block := ⟨s5, []⟩
noncomputable def s6 : Setting := ⟨chars! "cm", 2, t0, q! "24 0 0 0 0 24 0 0 0 0 24 0", trs! "0 1 4 5", gens! "1 33751041 1;4 16777986 2", words! ";0;1;1 0", false⟩
noncomputable def b6 : Block := ⟨s6, []⟩
noncomputable def s7 : Setting := ⟨chars! "p2mm", 2, t0, q! "24 0 0 0 0 24 0 0 0 0 24 0", trs! "0 2 1 6", gens! "2 33751041 1;1 16777986 2", words! ";0;1;1 0", false⟩
noncomputable def b7 : Block := ⟨s7, []⟩
noncomputable def s8 : Setting := ⟨chars! "p2mg", 2, t0, q! "24 0 0 0 0 24 0 0 0 0 24 0", trs! "0 2 7 8", gens! "2 33751041 1;7 16777986 2", words! ";0;1;1 0", false⟩
noncomputable def b8 : Block := ⟨s8, []⟩
noncomputable def s9 : Setting := ⟨chars! "p2gg", 2, t0, q! "24 0 0 0 0 24 0 0 0 0 24 0", trs! "0 2 5 9", gens! "2 33751041 1;5 16777986 2", words! ";0;1;1 0", false⟩
noncomputable def b9 : Block := ⟨s9, []⟩
noncomputable def s10 : Setting := ⟨chars! "c2mm", 2, t0, q! "24 0 0 0 0 24 0 0 0 0 24 0", trs! "0 2 1 6 4 10 5 9", gens! "2 434320308619640833 1;1 361421592464458498 2;4 216736831696667908 4", words! ";0;1;1 0;2;2 0;2 1;2 1 0", false⟩
noncomputable def b10 : Block := ⟨s10, []⟩
noncomputable def s11 : Setting := ⟨chars! "p4", 2, t0, q! "24 0 0 0 0 24 0 0 0 0 24 0", trs! "0 2 11 12", gens! "11 66306 3", words! ";0 0;0;0 0 0", false⟩
noncomputable def b11 : Block := ⟨s11, []⟩
noncomputable def s12 : Setting := ⟨chars! "p4mm", 2, t0, q! "24 0 0 0 0 24 0 0 0 0 24 0", trs! "0 2 11 12 1 6 13 14", gens! "11 361420497231086338 3;1 216736831696667908 4", words! ";0 0;0;0 0 0;1;1 0 0;1 0;0 1", false⟩
noncomputable def b12 : Block := ⟨s12, []⟩
noncomputable def s13 : Setting := ⟨chars! "p4gm", 2, t0, q! "24 0 0 0 0 24 0 0 0 0 24 0", trs! "0 2 11 12 5 9 15 16", gens! "11 361420497231086338 3;5 216736831696667908 4", words! ";0 0;0;0 0 0;1;1 0 0;1 0;0 1", false⟩
noncomputable def b13 : Block := ⟨s13, []⟩
noncomputable def s14 : Setting := ⟨chars! "p3", 2, t0, q! "24 0 0 0 0 24 0 0 0 0 24 0", trs! "0 17 18", gens! "17 513 2", words! ";0;0 0", false⟩
noncomputable def b14 : Block := ⟨s14, []⟩
noncomputable def s15 : Setting := ⟨chars! "p3m1", 2, t0, q! "24 0 0 0 0 24 0 0 0 0 24 0", trs! "0 17 18 14 19 20", gens! "17 4411015299585 2;14 2203318551555 3", words! ";0;0 0;1;1 0;0 1", false⟩
noncomputable def b15 : Block := ⟨s15, []⟩
noncomputable def s16 : Setting := ⟨chars! "p31m", 2, t0, q! "24 0 0 0 0 24 0 0 0 0 24 0", trs! "0 17 18 13 21 22", gens! "17 4411015299585 2;13 2203318551555 3", words! ";0;0 0;1;1 0;0 1", false⟩
noncomputable def b16 : Block := ⟨s16, []⟩
noncomputable def s17 : Setting := ⟨chars! "p6", 2, t0, q! "24 0 0 0 0 24 0 0 0 0 24 0", trs! "0 17 18 2 23 24", gens! "23 8606909700 5", words! ";0 0 0 0;0 0;0 0 0;0;0 0 0 0 0", false⟩
noncomputable def b17 : Block := ⟨s17, []⟩
noncomputable def s18 : Setting := ⟨chars! "p6mm", 2, t0, q! "24 0 0 0 0 24 0 0 0 0 24 0", trs! "0 17 18 2 23 24 14 19 20 13 21 22", gens! "23 2173686587718021530071008516 5;14 1552274956450190348444501766 6", words! ";0 0 0 0;0 0;0 0 0;0;1 0 1;1;0 0 1;1 0 0;1 0 0 0;1 0;0 1", false⟩
noncomputable def b18 : Block := ⟨s18, []⟩
noncomputable def s19 : Setting := ⟨chars! "P1", 3, t0, q! "24 0 0 0 0 24 0 0 0 0 24 0", trs! "0", gens! "", words! "", false⟩
noncomputable def b19 : Block := ⟨s19, []⟩
noncomputable def s20 : Setting := ⟨chars! "P-1", 3, t0, q! "24 0 0 0 0 24 0 0 0 0 24 0", trs! "0 25", gens! "25 1 1", words! ";0", false⟩
noncomputable def b20 : Block := ⟨s20, []⟩
noncomputable def s21 : Setting := ⟨chars! "P121", 3, t0, q! "24 0 0 0 0 24 0 0 0 0 24 0", trs! "0 26", gens! "26 1 1", words! ";0", false⟩
noncomputable def s22 : Setting := ⟨chars! "P112", 3, t27, q! "0 0 24 0 24 0 0 0 0 24 0 0", trs! "0 2", gens! "2 1 1", words! ";0", false⟩
noncomputable def s23 : Setting := ⟨chars! "P211", 3, t28, q! "0 24 0 0 0 0 24 0 24 0 0 0", trs! "0 29", gens! "29 1 1", words! ";0", false⟩
noncomputable def b21 : Block := ⟨s21, [⟨s22, nats! "1 0 0 0", nats! "1 0 0 0"⟩, ⟨s23, nats! "1 0 0 0", nats! "1 0 0 0"⟩]⟩
noncomputable def s24 : Setting := ⟨chars! "P1211", 3, t0, q! "24 0 0 0 0 24 0 0 0 0 24 0", trs! "0 30", gens! "30 1 1", words! ";0", false⟩
noncomputable def s25 : Setting := ⟨chars! "P1121", 3, t27, q! "0 0 24 0 24 0 0 0 0 24 0 0", trs! "0 31", gens! "31 1 1", words! ";0", false⟩
noncomputable def s26 : Setting := ⟨chars! "P2111", 3, t28, q! "0 24 0 0 0 0 24 0 24 0 0 0", trs! "0 32", gens! "32 1 1", words! ";0", false⟩
noncomputable def b22 : Block := ⟨s24, [⟨s25, nats! "1 0 0 0", nats! "1 0 0 0"⟩, ⟨s26, nats! "1 0 0 0", nats! "1 0 0 0"⟩]⟩
noncomputable def s27 : Setting := ⟨chars! "C121", 3, t0, q! "24 0 0 0 0 24 0 0 0 0 24 0", trs! "0 26 4 33", gens! "26 33751041 1;4 16777986 2", words! ";0;1;1 0", false⟩
noncomputable def s28 : Setting := ⟨chars! "A121", 3, t34, q! "0 0 24 0 0 24 0 0 -24 0 0 0", trs! "0 26 35 36", gens! "26 33751041 1;35 16777986 2", words! ";0;1;1 0", false⟩
noncomputable def s29 : Setting := ⟨chars! "I121", 3, t37, q! "24 0 0 0 0 24 0 0 -24 0 24 0", trs! "0 26 38 39", gens! "26 33751041 1;38 16777986 2", words! ";0;1;1 0", false⟩
noncomputable def s30 : Setting := ⟨chars! "A112", 3, t27, q! "0 0 24 0 24 0 0 0 0 24 0 0", trs! "0 2 35 40", gens! "2 33751041 1;35 16777986 2", words! ";0;1;1 0", false⟩
noncomputable def s31 : Setting := ⟨chars! "B112", 3, t41, q! "-24 0 0 0 0 0 24 0 0 24 0 0", trs! "0 2 42 43", gens! "2 33751041 1;42 16777986 2", words! ";0;1;1 0", false⟩
noncomputable def s32 : Setting := ⟨chars! "I112", 3, t44, q! "-24 0 24 0 24 0 0 0 0 24 0 0", trs! "0 2 38 45", gens! "2 33751041 1;38 16777986 2", words! ";0;1;1 0", false⟩
noncomputable def s33 : Setting := ⟨chars! "B211", 3, t28, q! "0 24 0 0 0 0 24 0 24 0 0 0", trs! "0 29 42 46", gens! "29 33751041 1;42 16777986 2", words! ";0;1;1 0", false⟩
noncomputable def s34 : Setting := ⟨chars! "C211", 3, t11, q! "0 24 0 0 -24 0 0 0 0 0 24 0", trs! "0 29 4 47", gens! "29 33751041 1;4 16777986 2", words! ";0;1;1 0", false⟩
noncomputable def s35 : Setting := ⟨chars! "I211", 3, t48, q! "0 24 0 0 -24 0 24 0 24 0 0 0", trs! "0 29 38 49", gens! "29 33751041 1;38 16777986 2", words! ";0;1;1 0", false⟩
noncomputable def b23 : Block := ⟨s27, [⟨s28, nats! "1 2 0 0 0", nats! "1 2 0 0 0"⟩, ⟨s29, nats! "1 2 0 0 0", nats! "1 2 0 0 0"⟩, ⟨s30, nats! "1 2 0 0 0", nats! "1 2 0 0 0"⟩, ⟨s31, nats! "1 2 0 0 0", nats! "1 2 0 0 0"⟩, ⟨s32, nats! "1 2 0 0 0", nats! "1 2 0 0 0"⟩, ⟨s33, nats! "1 2 0 0 0", nats! "1 2 0 0 0"⟩, ⟨s34, nats! "1 2 0 0 0", nats! "1 2 0 0 0"⟩, ⟨s35, nats! "1 2 0 0 0", nats! "1 2 0 0 0"⟩]⟩
noncomputable def s36 : Setting := ⟨chars! "P1m1", 3, t0, q! "24 0 0 0 0 24 0 0 0 0 24 0", trs! "0 6", gens! "6 1 1", words! ";0", false⟩
noncomputable def s37 : Setting := ⟨chars! "P11m", 3, t27, q! "0 0 24 0 24 0 0 0 0 24 0 0", trs! "0 50", gens! "50 1 1", words! ";0", false⟩
noncomputable def s38 : Setting := ⟨chars! "Pm11", 3, t28, q! "0 24 0 0 0 0 24 0 24 0 0 0", trs! "0 1", gens! "1 1 1", words! ";0", false⟩
noncomputable def b24 : Block := ⟨s36, [⟨s37, nats! "1 0 0 0", nats! "1 0 0 0"⟩, ⟨s38, nats! "1 0 0 0", nats! "1 0 0 0"⟩]⟩
noncomputable def s39 : Setting := ⟨chars! "P1c1", 3, t0, q! "24 0 0 0 0 24 0 0 0 0 24 0", trs! "0 51", gens! "51 1 1", words! ";0", false⟩
noncomputable def s40 : Setting := ⟨chars! "P1n1", 3, t52, q! "24 0 -24 0 0 24 0 0 0 0 24 0", trs! "0 53", gens! "53 1 1", words! ";0", false⟩
noncomputable def s41 : Setting := ⟨chars! "P1a1", 3, t34, q! "0 0 24 0 0 24 0 0 -24 0 0 0", trs! "0 8", gens! "8 1 1", words! ";0", false⟩
noncomputable def s42 : Setting := ⟨chars! "P11a", 3, t27, q! "0 0 24 0 24 0 0 0 0 24 0 0", trs! "0 54", gens! "54 1 1", words! ";0", false⟩
noncomputable def s43 : Setting := ⟨chars! "P11n", 3, t55, q! "0 0 24 0 24 0 -24 0 0 24 0 0", trs! "0 56", gens! "56 1 1", words! ";0", false⟩
noncomputable def s44 : Setting := ⟨chars! "P11b", 3, t41, q! "-24 0 0 0 0 0 24 0 0 24 0 0", trs! "0 57", gens! "57 1 1", words! ";0", false⟩
noncomputable def s45 : Setting := ⟨chars! "Pb11", 3, t28, q! "0 24 0 0 0 0 24 0 24 0 0 0", trs! "0 3", gens! "3 1 1", words! ";0", false⟩
noncomputable def s46 : Setting := ⟨chars! "Pn11", 3, t58, q! "0 24 0 0 0 0 24 0 24 0 -24 0", trs! "0 59", gens! "59 1 1", words! ";0", false⟩
noncomputable def s47 : Setting := ⟨chars! "Pc11", 3, t11, q! "0 24 0 0 -24 0 0 0 0 0 24 0", trs! "0 60", gens! "60 1 1", words! ";0", false⟩
noncomputable def b25 : Block := ⟨s39, [⟨s40, nats! "1 0 0 0", nats! "1 0 0 0"⟩, ⟨s41, nats! "1 0 0 0", nats! "1 0 0 0"⟩, ⟨s42, nats! "1 0 0 0", nats! "1 0 0 0"⟩, ⟨s43, nats! "1 0 0 0", nats! "1 0 0 0"⟩, ⟨s44, nats! "1 0 0 0", nats! "1 0 0 0"⟩, ⟨s45, nats! "1 0 0 0", nats! "1 0 0 0"⟩, ⟨s46, nats! "1 0 0 0", nats! "1 0 0 0"⟩, ⟨s47, nats! "1 0 0 0", nats! "1 0 0 0"⟩]⟩
noncomputable def s48 : Setting := ⟨chars! "C1m1", 3, t0, q! "24 0 0 0 0 24 0 0 0 0 24 0", trs! "0 6 4 9", gens! "6 33751041 1;4 16777986 2", words! ";0;1;1 0", false⟩
noncomputable def s49 : Setting := ⟨chars! "A1m1", 3, t34, q! "0 0 24 0 0 24 0 0 -24 0 0 0", trs! "0 6 35 61", gens! "6 33751041 1;35 16777986 2", words! ";0;1;1 0", false⟩
noncomputable def s50 : Setting := ⟨chars! "I1m1", 3, t37, q! "24 0 0 0 0 24 0 0 -24 0 24 0", trs! "0 6 38 62", gens! "6 33751041 1;38 16777986 2", words! ";0;1;1 0", false⟩
noncomputable def s51 : Setting := ⟨chars! "A11m", 3, t27, q! "0 0 24 0 24 0 0 0 0 24 0 0", trs! "0 50 35 63", gens! "50 33751041 1;35 16777986 2", words! ";0;1;1 0", false⟩
noncomputable def s52 : Setting := ⟨chars! "B11m", 3, t41, q! "-24 0 0 0 0 0 24 0 0 24 0 0", trs! "0 50 42 64", gens! "50 33751041 1;42 16777986 2", words! ";0;1;1 0", false⟩
noncomputable def s53 : Setting := ⟨chars! "I11m", 3, t44, q! "-24 0 24 0 24 0 0 0 0 24 0 0", trs! "0 50 38 65", gens! "50 33751041 1;38 16777986 2", words! ";0;1;1 0", false⟩
noncomputable def s54 : Setting := ⟨chars! "Bm11", 3, t28, q! "0 24 0 0 0 0 24 0 24 0 0 0", trs! "0 1 42 66", gens! "1 33751041 1;42 16777986 2", words! ";0;1;1 0", false⟩
noncomputable def s55 : Setting := ⟨chars! "Cm11", 3, t11, q! "0 24 0 0 -24 0 0 0 0 0 24 0", trs! "0 1 4 5", gens! "1 33751041 1;4 16777986 2", words! ";0;1;1 0", false⟩
noncomputable def s56 : Setting := ⟨chars! "Im11", 3, t48, q! "0 24 0 0 -24 0 24 0 24 0 0 0", trs! "0 1 38 67", gens! "1 33751041 1;38 16777986 2", words! ";0;1;1 0", false⟩
noncomputable def b26 : Block := ⟨s48, [⟨s49, nats! "1 2 0 0 0", nats! "1 2 0 0 0"⟩, ⟨s50, nats! "1 2 0 0 0", nats! "1 2 0 0 0"⟩, ⟨s51, nats! "1 2 0 0 0", nats! "1 2 0 0 0"⟩, ⟨s52, nats! "1 2 0 0 0", nats! "1 2 0 0 0"⟩, ⟨s53, nats! "1 2 0 0 0", nats! "1 2 0 0 0"⟩, ⟨s54, nats! "1 2 0 0 0", nats! "1 2 0 0 0"⟩, ⟨s55, nats! "1 2 0 0 0", nats! "1 2 0 0 0"⟩, ⟨s56, nats! "1 2 0 0 0", nats! "1 2 0 0 0"⟩]⟩
noncomputable def s57 : Setting := ⟨chars! "C1c1", 3, t0, q! "24 0 0 0 0 24 0 0 0 0 24 0", trs! "0 51 4 62", gens! "51 33751041 1;4 16777986 2", words! ";0;1;1 0", false⟩
noncomputable def s58 : Setting := ⟨chars! "A1n1", 3, t68, q! "0 0 24 0 0 24 0 0 -24 0 24 0", trs! "0 9 35 69", gens! "9 33751041 1;35 16777986 2", words! ";0;1;1 0", false⟩
noncomputable def s59 : Setting := ⟨chars! "I1a1", 3, t70, q! "24 0 24 0 0 24 0 0 -24 0 0 0", trs! "0 8 38 71", gens! "8 33751041 1;38 16777986 2", words! ";0;1;1 0", false⟩
noncomputable def s60 : Setting := ⟨chars! "A1a1", 3, t34, q! "0 0 24 0 0 24 0 0 -24 0 0 0", trs! "0 8 35 62", gens! "8 33751041 1;35 16777986 2", words! ";0;1;1 0", false⟩
noncomputable def s61 : Setting := ⟨chars! "C1n1", 3, t72, q! "24 0 0 6 0 24 0 6 0 0 24 0", trs! "0 53 4 71", gens! "53 33751041 1;4 16777986 2", words! ";0;1;1 0", false⟩
noncomputable def s62 : Setting := ⟨chars! "I1c1", 3, t37, q! "24 0 0 0 0 24 0 0 -24 0 24 0", trs! "0 51 38 73", gens! "51 33751041 1;38 16777986 2", words! ";0;1;1 0", false⟩
noncomputable def s63 : Setting := ⟨chars! "A11a", 3, t27, q! "0 0 24 0 24 0 0 0 0 24 0 0", trs! "0 54 35 65", gens! "54 33751041 1;35 16777986 2", words! ";0;1;1 0", false⟩
noncomputable def s64 : Setting := ⟨chars! "B11n", 3, t74, q! "-24 0 24 0 0 0 24 0 0 24 0 0", trs! "0 56 42 75", gens! "56 33751041 1;42 16777986 2", words! ";0;1;1 0", false⟩
noncomputable def s65 : Setting := ⟨chars! "I11b", 3, t76, q! "-24 0 0 0 24 0 24 0 0 24 0 0", trs! "0 57 38 77", gens! "57 33751041 1;38 16777986 2", words! ";0;1;1 0", false⟩
noncomputable def s66 : Setting := ⟨chars! "B11b", 3, t41, q! "-24 0 0 0 0 0 24 0 0 24 0 0", trs! "0 57 42 65", gens! "57 33751041 1;42 16777986 2", words! ";0;1;1 0", false⟩
noncomputable def s67 : Setting := ⟨chars! "A11n", 3, t55, q! "0 0 24 0 24 0 -24 0 0 24 0 0", trs! "0 56 35 77", gens! "56 33751041 1;35 16777986 2", words! ";0;1;1 0", false⟩
noncomputable def s68 : Setting := ⟨chars! "I11a", 3, t44, q! "-24 0 24 0 24 0 0 0 0 24 0 0", trs! "0 54 38 75", gens! "54 33751041 1;38 16777986 2", words! ";0;1;1 0", false⟩
noncomputable def s69 : Setting := ⟨chars! "Bb11", 3, t28, q! "0 24 0 0 0 0 24 0 24 0 0 0", trs! "0 3 42 67", gens! "3 33751041 1;42 16777986 2", words! ";0;1;1 0", false⟩
noncomputable def s70 : Setting := ⟨chars! "Cn11", 3, t78, q! "0 24 0 0 -24 0 24 0 0 0 24 0", trs! "0 66 4 79", gens! "66 33751041 1;4 16777986 2", words! ";0;1;1 0", false⟩
noncomputable def s71 : Setting := ⟨chars! "Ic11", 3, t80, q! "0 24 0 0 -24 0 0 0 24 0 24 0", trs! "0 60 38 81", gens! "60 33751041 1;38 16777986 2", words! ";0;1;1 0", false⟩
noncomputable def s72 : Setting := ⟨chars! "Cc11", 3, t11, q! "0 24 0 0 -24 0 0 0 0 0 24 0", trs! "0 60 4 67", gens! "60 33751041 1;4 16777986 2", words! ";0;1;1 0", false⟩
noncomputable def s73 : Setting := ⟨chars! "Bn11", 3, t58, q! "0 24 0 0 0 0 24 0 24 0 -24 0", trs! "0 5 42 79", gens! "5 33751041 1;42 16777986 2", words! ";0;1;1 0", false⟩
noncomputable def s74 : Setting := ⟨chars! "Ib11", 3, t48, q! "0 24 0 0 -24 0 24 0 24 0 0 0", trs! "0 3 38 82", gens! "3 33751041 1;38 16777986 2", words! ";0;1;1 0", false⟩
noncomputable def b27 : Block := ⟨s57, [⟨s58, nats! "3 2 0 0 0", nats! "3 2 0 0 0"⟩, ⟨s59, nats! "1 2 0 0 0", nats! "1 2 0 0 0"⟩, ⟨s60, nats! "1 2 0 0 0", nats! "1 2 0 0 0"⟩, ⟨s61, nats! "3 2 0 0 0", nats! "3 2 0 0 0"⟩, ⟨s62, nats! "1 2 0 0 0", nats! "1 2 0 0 0"⟩, ⟨s63, nats! "1 2 0 0 0", nats! "1 2 0 0 0"⟩, ⟨s64, nats! "1 2 0 0 0", nats! "1 2 0 0 0"⟩, ⟨s65, nats! "1 2 0 0 0", nats! "1 2 0 0 0"⟩, ⟨s66, nats! "1 2 0 0 0", nats! "1 2 0 0 0"⟩, ⟨s67, nats! "1 2 0 0 0", nats! "1 2 0 0 0"⟩, ⟨s68, nats! "1 2 0 0 0", nats! "1 2 0 0 0"⟩, ⟨s69, nats! "1 2 0 0 0", nats! "1 2 0 0 0"⟩, ⟨s70, nats! "3 2 0 0 0", nats! "3 2 0 0 0"⟩, ⟨s71, nats! "1 2 0 0 0", nats! "1 2 0 0 0"⟩, ⟨s72, nats! "1 2 0 0 0", nats! "1 2 0 0 0"⟩, ⟨s73, nats! "3 2 0 0 0", nats! "3 2 0 0 0"⟩, ⟨s74, nats! "1 2 0 0 0", nats! "1 2 0 0 0"⟩]⟩
noncomputable def s75 : Setting := ⟨chars! "P12/m1", 3, t0, q! "24 0 0 0 0 24 0 0 0 0 24 0", trs! "0 26 25 6", gens! "26 33751041 1;25 16777986 2", words! ";0;1;1 0", false⟩
noncomputable def s76 : Setting := ⟨chars! "P112/m", 3, t27, q! "0 0 24 0 24 0 0 0 0 24 0 0", trs! "0 2 25 50", gens! "2 33751041 1;25 16777986 2", words! ";0;1;1 0", false⟩
noncomputable def s77 : Setting := ⟨chars! "P2/m11", 3, t28, q! "0 24 0 0 0 0 24 0 24 0 0 0", trs! "0 29 25 1", gens! "29 33751041 1;25 16777986 2", words! ";0;1;1 0", false⟩
noncomputable def b28 : Block := ⟨s75, [⟨s76, nats! "1 2 0 0 0", nats! "1 2 0 0 0"⟩, ⟨s77, nats! "1 2 0 0 0", nats! "1 2 0 0 0"⟩]⟩
noncomputable def s78 : Setting := ⟨chars! "P121/m1", 3, t0, q! "24 0 0 0 0 24 0 0 0 0 24 0", trs! "0 30 25 83", gens! "30 33751041 1;25 16777986 2", words! ";0;1;1 0", false⟩
noncomputable def s79 : Setting := ⟨chars! "P1121/m", 3, t27, q! "0 0 24 0 24 0 0 0 0 24 0 0", trs! "0 31 25 84", gens! "31 33751041 1;25 16777986 2", words! ";0;1;1 0", false⟩
noncomputable def s80 : Setting := ⟨chars! "P21/m11", 3, t28, q! "0 24 0 0 0 0 24 0 24 0 0 0", trs! "0 32 25 85", gens! "32 33751041 1;25 16777986 2", words! ";0;1;1 0", false⟩
noncomputable def b29 : Block := ⟨s78, [⟨s79, nats! "1 2 0 0 0", nats! "1 2 0 0 0"⟩, ⟨s80, nats! "1 2 0 0 0", nats! "1 2 0 0 0"⟩]⟩

noncomputable def items1 : List Item := [
  .nothing (chars! "#"),
  .nothing (chars! "#   Copyright 2005 Olaf Delgado-Friedrichs"),
  .nothing (chars! "#"),
  .nothing (chars! "#   Licensed under the Apache License, Version 2.0 (the \"License\");"),
  .nothing (chars! "#   you may not use this file except in compliance with the License."),
  .nothing (chars! "#   You may obtain a copy of the License at"),
  .nothing (chars! "#"),
  .nothing (chars! "#       http://www.apache.org/licenses/LICENSE-2.0"),
  .nothing (chars! "#"),
  .nothing (chars! "#   Unless required by applicable law or agreed to in writing, software"),
  .nothing (chars! "#   distributed under the License is distributed on an \"AS IS\" BASIS,"),
  .nothing (chars! "#   WITHOUT WARRANTIES OR CONDITIONS OF ANY KIND, either express or implied."),
  .nothing (chars! "#   See the License for the specific language governing permissions and"),
  .nothing (chars! "#   limitations under the License."),
  .nothing (chars! "#"),
  .nothing (chars! ""),
  .nothing (chars! "# The table of 1-dimensional space groups"),
  .nothing (chars! ""),
  .block b0,
  .block b1,
  .nothing (chars! ""),
  .nothing (chars! ""),
  .nothing (chars! "# The table of 2-dimensional space groups, aka plane groups, aka wallpaper groups."),
  .nothing (chars! ""),
  .block b2,
  .block b3,
  .block b4,
  .block b5,
  .block b6,
  .block b7,
  .block b8,
  .block b9,
  .block b10,
  .block b11,
  .block b12,
  .block b13,
  .block b14,
  .block b15,
  .block b16,
  .block b17,
  .block b18,
  .nothing (chars! ""),
  .nothing (chars! ""),
  .nothing (chars! "# The table of conventional 3-dimensional space group settings."),
  .nothing (chars! ""),
  .block b19,
  .block b20,
  .block b21,
  .block b22,
  .block b23,
  .block b24,
  .block b25,
  .block b26,
  .block b27,
  .block b28,
  .block b29]

theorem good1 : allB (Item.goodB lat) items1 = true := by decide +kernel

theorem text1 : Table.sgLines1 = (items1.flatMap Item.lines).map String.ofList := by krfl

end Systre.Sg.Data
