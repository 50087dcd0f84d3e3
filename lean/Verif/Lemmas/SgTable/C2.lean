import Verif.Lemmas.SgTable.Ops
import Verif.Model.SgTable.T2

/-! Written by tools/gen_sgtable.py. Lines 402 to 845. -/

namespace Systre.Sg.Data
set_option maxRecDepth 1000000
set_option maxHeartbeats 0

noncomputable def s81 : Setting := ⟨chars! "C12/m1", 3, t0, q! "24 0 0 0 0 24 0 0 0 0 24 0", trs! "0 26 25 6 4 33 86 9", gens! "26 434320308619640833 1;25 361421592464458498 2;4 216736831696667908 4", words! ";0;1;1 0;2;2 0;2 1;2 1 0", false⟩
noncomputable def s82 : Setting := ⟨chars! "A12/m1", 3, t34, q! "0 0 24 0 0 24 0 0 -24 0 0 0", trs! "0 26 25 6 35 36 87 61", gens! "26 434320308619640833 1;25 361421592464458498 2;35 216736831696667908 4", words! ";0;1;1 0;2;2 0;2 1;2 1 0", false⟩
noncomputable def s83 : Setting := ⟨chars! "I12/m1", 3, t37, q! "24 0 0 0 0 24 0 0 -24 0 24 0", trs! "0 26 25 6 38 39 88 62", gens! "26 434320308619640833 1;25 361421592464458498 2;38 216736831696667908 4", words! ";0;1;1 0;2;2 0;2 1;2 1 0", false⟩
noncomputable def s84 : Setting := ⟨chars! "A112/m", 3, t27, q! "0 0 24 0 24 0 0 0 0 24 0 0", trs! "0 2 25 50 35 40 87 63", gens! "2 434320308619640833 1;25 361421592464458498 2;35 216736831696667908 4", words! ";0;1;1 0;2;2 0;2 1;2 1 0", false⟩
noncomputable def s85 : Setting := ⟨chars! "B112/m", 3, t41, q! "-24 0 0 0 0 0 24 0 0 24 0 0", trs! "0 2 25 50 42 43 89 64", gens! "2 434320308619640833 1;25 361421592464458498 2;42 216736831696667908 4", words! ";0;1;1 0;2;2 0;2 1;2 1 0", false⟩
noncomputable def s86 : Setting := ⟨chars! "I112/m", 3, t44, q! "-24 0 24 0 24 0 0 0 0 24 0 0", trs! "0 2 25 50 38 45 88 65", gens! "2 434320308619640833 1;25 361421592464458498 2;38 216736831696667908 4", words! ";0;1;1 0;2;2 0;2 1;2 1 0", false⟩
noncomputable def s87 : Setting := ⟨chars! "B2/m11", 3, t28, q! "0 24 0 0 0 0 24 0 24 0 0 0", trs! "0 29 25 1 42 46 89 66", gens! "29 434320308619640833 1;25 361421592464458498 2;42 216736831696667908 4", words! ";0;1;1 0;2;2 0;2 1;2 1 0", false⟩
noncomputable def s88 : Setting := ⟨chars! "C2/m11", 3, t11, q! "0 24 0 0 -24 0 0 0 0 0 24 0", trs! "0 29 25 1 4 47 86 5", gens! "29 434320308619640833 1;25 361421592464458498 2;4 216736831696667908 4", words! ";0;1;1 0;2;2 0;2 1;2 1 0", false⟩
noncomputable def s89 : Setting := ⟨chars! "I2/m11", 3, t48, q! "0 24 0 0 -24 0 24 0 24 0 0 0", trs! "0 29 25 1 38 49 88 67", gens! "29 434320308619640833 1;25 361421592464458498 2;38 216736831696667908 4", words! ";0;1;1 0;2;2 0;2 1;2 1 0", false⟩
noncomputable def b30 : Block := ⟨s81, [⟨s82, nats! "1 2 4 0 0 0", nats! "1 2 4 0 0 0"⟩, ⟨s83, nats! "1 2 4 0 0 0", nats! "1 2 4 0 0 0"⟩, ⟨s84, nats! "1 2 4 0 0 0", nats! "1 2 4 0 0 0"⟩, ⟨s85, nats! "1 2 4 0 0 0", nats! "1 2 4 0 0 0"⟩, ⟨s86, nats! "1 2 4 0 0 0", nats! "1 2 4 0 0 0"⟩, ⟨s87, nats! "1 2 4 0 0 0", nats! "1 2 4 0 0 0"⟩, ⟨s88, nats! "1 2 4 0 0 0", nats! "1 2 4 0 0 0"⟩, ⟨s89, nats! "1 2 4 0 0 0", nats! "1 2 4 0 0 0"⟩]⟩
noncomputable def s90 : Setting := ⟨chars! "P12/c1", 3, t0, q! "24 0 0 0 0 24 0 0 0 0 24 0", trs! "0 90 25 91", gens! "90 33751041 1;25 16777986 2", words! ";0;1;1 0", false⟩
noncomputable def s91 : Setting := ⟨chars! "P12/n1", 3, t52, q! "24 0 -24 0 0 24 0 0 0 0 24 0", trs! "0 92 25 93", gens! "92 33751041 1;25 16777986 2", words! ";0;1;1 0", false⟩
noncomputable def s92 : Setting := ⟨chars! "P12/a1", 3, t34, q! "0 0 24 0 0 24 0 0 -24 0 0 0", trs! "0 94 25 95", gens! "94 33751041 1;25 16777986 2", words! ";0;1;1 0", false⟩
noncomputable def s93 : Setting := ⟨chars! "P112/a", 3, t27, q! "0 0 24 0 24 0 0 0 0 24 0 0", trs! "0 96 25 97", gens! "96 33751041 1;25 16777986 2", words! ";0;1;1 0", false⟩
noncomputable def s94 : Setting := ⟨chars! "P112/n", 3, t55, q! "0 0 24 0 24 0 -24 0 0 24 0 0", trs! "0 10 25 98", gens! "10 33751041 1;25 16777986 2", words! ";0;1;1 0", false⟩
noncomputable def s95 : Setting := ⟨chars! "P112/b", 3, t41, q! "-24 0 0 0 0 0 24 0 0 24 0 0", trs! "0 99 25 100", gens! "99 33751041 1;25 16777986 2", words! ";0;1;1 0", false⟩
noncomputable def s96 : Setting := ⟨chars! "P2/b11", 3, t28, q! "0 24 0 0 0 0 24 0 24 0 0 0", trs! "0 101 25 102", gens! "101 33751041 1;25 16777986 2", words! ";0;1;1 0", false⟩
noncomputable def s97 : Setting := ⟨chars! "P2/n11", 3, t58, q! "0 24 0 0 0 0 24 0 24 0 -24 0", trs! "0 103 25 104", gens! "103 33751041 1;25 16777986 2", words! ";0;1;1 0", false⟩
noncomputable def s98 : Setting := ⟨chars! "P2/c11", 3, t11, q! "0 24 0 0 -24 0 0 0 0 0 24 0", trs! "0 105 25 106", gens! "105 33751041 1;25 16777986 2", words! ";0;1;1 0", false⟩
noncomputable def b31 : Block := ⟨s90, [⟨s91, nats! "1 2 0 0 0", nats! "1 2 0 0 0"⟩, ⟨s92, nats! "1 2 0 0 0", nats! "1 2 0 0 0"⟩, ⟨s93, nats! "1 2 0 0 0", nats! "1 2 0 0 0"⟩, ⟨s94, nats! "1 2 0 0 0", nats! "1 2 0 0 0"⟩, ⟨s95, nats! "1 2 0 0 0", nats! "1 2 0 0 0"⟩, ⟨s96, nats! "1 2 0 0 0", nats! "1 2 0 0 0"⟩, ⟨s97, nats! "1 2 0 0 0", nats! "1 2 0 0 0"⟩, ⟨s98, nats! "1 2 0 0 0", nats! "1 2 0 0 0"⟩]⟩
noncomputable def s99 : Setting := ⟨chars! "P121/c1", 3, t0, q! "24 0 0 0 0 24 0 0 0 0 24 0", trs! "0 36 25 107", gens! "36 33751041 1;25 16777986 2", words! ";0;1;1 0", false⟩
noncomputable def s100 : Setting := ⟨chars! "P121/n1", 3, t52, q! "24 0 -24 0 0 24 0 0 0 0 24 0", trs! "0 39 25 108", gens! "39 33751041 1;25 16777986 2", words! ";0;1;1 0", false⟩
noncomputable def s101 : Setting := ⟨chars! "P121/a1", 3, t34, q! "0 0 24 0 0 24 0 0 -24 0 0 0", trs! "0 33 25 109", gens! "33 33751041 1;25 16777986 2", words! ";0;1;1 0", false⟩
noncomputable def s102 : Setting := ⟨chars! "P1121/a", 3, t27, q! "0 0 24 0 24 0 0 0 0 24 0 0", trs! "0 43 25 110", gens! "43 33751041 1;25 16777986 2", words! ";0;1;1 0", false⟩
noncomputable def s103 : Setting := ⟨chars! "P1121/n", 3, t55, q! "0 0 24 0 24 0 -24 0 0 24 0 0", trs! "0 45 25 111", gens! "45 33751041 1;25 16777986 2", words! ";0;1;1 0", false⟩
noncomputable def s104 : Setting := ⟨chars! "P1121/b", 3, t41, q! "-24 0 0 0 0 0 24 0 0 24 0 0", trs! "0 40 25 112", gens! "40 33751041 1;25 16777986 2", words! ";0;1;1 0", false⟩
noncomputable def s105 : Setting := ⟨chars! "P21/b11", 3, t28, q! "0 24 0 0 0 0 24 0 24 0 0 0", trs! "0 47 25 113", gens! "47 33751041 1;25 16777986 2", words! ";0;1;1 0", false⟩
noncomputable def s106 : Setting := ⟨chars! "P21/n11", 3, t58, q! "0 24 0 0 0 0 24 0 24 0 -24 0", trs! "0 49 25 114", gens! "49 33751041 1;25 16777986 2", words! ";0;1;1 0", false⟩
noncomputable def s107 : Setting := ⟨chars! "P21/c11", 3, t11, q! "0 24 0 0 -24 0 0 0 0 0 24 0", trs! "0 46 25 115", gens! "46 33751041 1;25 16777986 2", words! ";0;1;1 0", false⟩
noncomputable def b32 : Block := ⟨s99, [⟨s100, nats! "1 2 0 0 0", nats! "1 2 0 0 0"⟩, ⟨s101, nats! "1 2 0 0 0", nats! "1 2 0 0 0"⟩, ⟨s102, nats! "1 2 0 0 0", nats! "1 2 0 0 0"⟩, ⟨s103, nats! "1 2 0 0 0", nats! "1 2 0 0 0"⟩, ⟨s104, nats! "1 2 0 0 0", nats! "1 2 0 0 0"⟩, ⟨s105, nats! "1 2 0 0 0", nats! "1 2 0 0 0"⟩, ⟨s106, nats! "1 2 0 0 0", nats! "1 2 0 0 0"⟩, ⟨s107, nats! "1 2 0 0 0", nats! "1 2 0 0 0"⟩]⟩
noncomputable def s108 : Setting := ⟨chars! "C12/c1", 3, t0, q! "24 0 0 0 0 24 0 0 0 0 24 0", trs! "0 90 25 91 4 39 86 116", gens! "90 434320308619640833 1;25 361421592464458498 2;4 216736831696667908 4", words! ";0;1;1 0;2;2 0;2 1;2 1 0", false⟩
noncomputable def s109 : Setting := ⟨chars! "A12/n1", 3, t68, q! "0 0 24 0 0 24 0 0 -24 0 24 0", trs! "0 33 25 109 35 117 87 118", gens! "33 434320308619640833 1;25 361421592464458498 2;35 216736831696667908 4", words! ";0;1;1 0;2;2 0;2 1;2 1 0", false⟩
noncomputable def s110 : Setting := ⟨chars! "I12/a1", 3, t70, q! "24 0 24 0 0 24 0 0 -24 0 0 0", trs! "0 94 25 95 38 119 88 61", gens! "94 434320308619640833 1;25 361421592464458498 2;38 216736831696667908 4", words! ";0;1;1 0;2;2 0;2 1;2 1 0", false⟩
noncomputable def s111 : Setting := ⟨chars! "A12/a1", 3, t34, q! "0 0 24 0 0 24 0 0 -24 0 0 0", trs! "0 94 25 95 35 39 87 120", gens! "94 434320308619640833 1;25 361421592464458498 2;35 216736831696667908 4", words! ";0;1;1 0;2;2 0;2 1;2 1 0", false⟩
noncomputable def s112 : Setting := ⟨chars! "C12/n1", 3, t121, q! "24 0 0 6 0 24 0 -6 0 0 24 0", trs! "0 92 25 93 4 119 86 122", gens! "92 434320308619640833 1;25 361421592464458498 2;4 216736831696667908 4", words! ";0;1;1 0;2;2 0;2 1;2 1 0", false⟩
noncomputable def s113 : Setting := ⟨chars! "I12/c1", 3, t37, q! "24 0 0 0 0 24 0 0 -24 0 24 0", trs! "0 90 25 91 38 123 88 9", gens! "90 434320308619640833 1;25 361421592464458498 2;38 216736831696667908 4", words! ";0;1;1 0;2;2 0;2 1;2 1 0", false⟩
noncomputable def s114 : Setting := ⟨chars! "A112/a", 3, t27, q! "0 0 24 0 24 0 0 0 0 24 0 0", trs! "0 96 25 97 35 45 87 124", gens! "96 434320308619640833 1;25 361421592464458498 2;35 216736831696667908 4", words! ";0;1;1 0;2;2 0;2 1;2 1 0", false⟩
noncomputable def s115 : Setting := ⟨chars! "B112/n", 3, t74, q! "-24 0 24 0 0 0 24 0 0 24 0 0", trs! "0 10 25 98 42 125 89 126", gens! "10 434320308619640833 1;25 361421592464458498 2;42 216736831696667908 4", words! ";0;1;1 0;2;2 0;2 1;2 1 0", false⟩
noncomputable def s116 : Setting := ⟨chars! "I112/b", 3, t76, q! "-24 0 0 0 24 0 24 0 0 24 0 0", trs! "0 99 25 100 38 127 88 64", gens! "99 434320308619640833 1;25 361421592464458498 2;38 216736831696667908 4", words! ";0;1;1 0;2;2 0;2 1;2 1 0", false⟩
noncomputable def s117 : Setting := ⟨chars! "B112/b", 3, t41, q! "-24 0 0 0 0 0 24 0 0 24 0 0", trs! "0 99 25 100 42 45 89 128", gens! "99 434320308619640833 1;25 361421592464458498 2;42 216736831696667908 4", words! ";0;1;1 0;2;2 0;2 1;2 1 0", false⟩
noncomputable def s118 : Setting := ⟨chars! "A112/n", 3, t55, q! "0 0 24 0 24 0 -24 0 0 24 0 0", trs! "0 10 25 98 35 127 87 129", gens! "10 434320308619640833 1;25 361421592464458498 2;35 216736831696667908 4", words! ";0;1;1 0;2;2 0;2 1;2 1 0", false⟩
noncomputable def s119 : Setting := ⟨chars! "I112/a", 3, t44, q! "-24 0 24 0 24 0 0 0 0 24 0 0", trs! "0 96 25 97 38 125 88 63", gens! "96 434320308619640833 1;25 361421592464458498 2;38 216736831696667908 4", words! ";0;1;1 0;2;2 0;2 1;2 1 0", false⟩
noncomputable def s120 : Setting := ⟨chars! "B2/b11", 3, t28, q! "0 24 0 0 0 0 24 0 24 0 0 0", trs! "0 101 25 102 42 49 89 130", gens! "101 434320308619640833 1;25 361421592464458498 2;42 216736831696667908 4", words! ";0;1;1 0;2;2 0;2 1;2 1 0", false⟩
noncomputable def s121 : Setting := ⟨chars! "C2/n11", 3, t78, q! "0 24 0 0 -24 0 24 0 0 0 24 0", trs! "0 46 25 115 4 131 86 132", gens! "46 434320308619640833 1;25 361421592464458498 2;4 216736831696667908 4", words! ";0;1;1 0;2;2 0;2 1;2 1 0", false⟩
noncomputable def s122 : Setting := ⟨chars! "I2/c11", 3, t80, q! "0 24 0 0 -24 0 0 0 24 0 24 0", trs! "0 105 25 106 38 133 88 5", gens! "105 434320308619640833 1;25 361421592464458498 2;38 216736831696667908 4", words! ";0;1;1 0;2;2 0;2 1;2 1 0", false⟩
noncomputable def s123 : Setting := ⟨chars! "C2/c11", 3, t11, q! "0 24 0 0 -24 0 0 0 0 0 24 0", trs! "0 105 25 106 4 49 86 134", gens! "105 434320308619640833 1;25 361421592464458498 2;4 216736831696667908 4", words! ";0;1;1 0;2;2 0;2 1;2 1 0", false⟩
noncomputable def s124 : Setting := ⟨chars! "B2/n11", 3, t58, q! "0 24 0 0 0 0 24 0 24 0 -24 0", trs! "0 47 25 113 42 131 89 135", gens! "47 434320308619640833 1;25 361421592464458498 2;42 216736831696667908 4", words! ";0;1;1 0;2;2 0;2 1;2 1 0", false⟩
noncomputable def s125 : Setting := ⟨chars! "I2/b11", 3, t48, q! "0 24 0 0 -24 0 24 0 24 0 0 0", trs! "0 101 25 102 38 136 88 66", gens! "101 434320308619640833 1;25 361421592464458498 2;38 216736831696667908 4", words! ";0;1;1 0;2;2 0;2 1;2 1 0", false⟩
noncomputable def b33 : Block := ⟨s108, [⟨s109, nats! "5 2 4 0 0 0", nats! "5 2 4 0 0 0"⟩, ⟨s110, nats! "1 2 4 0 0 0", nats! "1 2 4 0 0 0"⟩, ⟨s111, nats! "1 2 4 0 0 0", nats! "1 2 4 0 0 0"⟩, ⟨s112, nats! "1 6 4 0 0 0", nats! "1 6 4 0 0 0"⟩, ⟨s113, nats! "1 2 4 0 0 0", nats! "1 2 4 0 0 0"⟩, ⟨s114, nats! "1 2 4 0 0 0", nats! "1 2 4 0 0 0"⟩, ⟨s115, nats! "1 2 4 0 0 0", nats! "1 2 4 0 0 0"⟩, ⟨s116, nats! "1 2 4 0 0 0", nats! "1 2 4 0 0 0"⟩, ⟨s117, nats! "1 2 4 0 0 0", nats! "1 2 4 0 0 0"⟩, ⟨s118, nats! "1 2 4 0 0 0", nats! "1 2 4 0 0 0"⟩, ⟨s119, nats! "1 2 4 0 0 0", nats! "1 2 4 0 0 0"⟩, ⟨s120, nats! "1 2 4 0 0 0", nats! "1 2 4 0 0 0"⟩, ⟨s121, nats! "5 2 4 0 0 0", nats! "5 2 4 0 0 0"⟩, ⟨s122, nats! "1 2 4 0 0 0", nats! "1 2 4 0 0 0"⟩, ⟨s123, nats! "1 2 4 0 0 0", nats! "1 2 4 0 0 0"⟩, ⟨s124, nats! "5 2 4 0 0 0", nats! "5 2 4 0 0 0"⟩, ⟨s125, nats! "1 2 4 0 0 0", nats! "1 2 4 0 0 0"⟩]⟩
noncomputable def s126 : Setting := ⟨chars! "P222", 3, t0, q! "24 0 0 0 0 24 0 0 0 0 24 0", trs! "0 2 29 26", gens! "2 33751041 1;29 16777986 2", words! ";0;1;1 0", false⟩
noncomputable def b34 : Block := ⟨s126, []⟩
noncomputable def s127 : Setting := ⟨chars! "P2221", 3, t0, q! "24 0 0 0 0 24 0 0 0 0 24 0", trs! "0 31 29 90", gens! "31 33751041 1;29 16777986 2", words! ";0;1;1 0", false⟩
noncomputable def s128 : Setting := ⟨chars! "P2122", 3, t27, q! "0 0 24 0 24 0 0 0 0 24 0 0", trs! "0 96 32 26", gens! "96 33751041 1;32 16777986 2", words! ";0;1;1 0", false⟩
noncomputable def s129 : Setting := ⟨chars! "P2212", 3, t28, q! "0 24 0 0 0 0 24 0 24 0 0 0", trs! "0 2 101 30", gens! "2 33751041 1;101 16777986 2", words! ";0;1;1 0", false⟩
noncomputable def b35 : Block := ⟨s127, [⟨s128, nats! "3 1 0 0 0", nats! "2 3 0 0 0"⟩, ⟨s129, nats! "2 3 0 0 0", nats! "3 1 0 0 0"⟩]⟩
noncomputable def s130 : Setting := ⟨chars! "P21212", 3, t0, q! "24 0 0 0 0 24 0 0 0 0 24 0", trs! "0 2 47 33", gens! "2 33751041 1;47 16777986 2", words! ";0;1;1 0", false⟩
noncomputable def s131 : Setting := ⟨chars! "P22121", 3, t27, q! "0 0 24 0 24 0 0 0 0 24 0 0", trs! "0 40 29 36", gens! "40 33751041 1;29 16777986 2", words! ";0;1;1 0", false⟩
noncomputable def s132 : Setting := ⟨chars! "P21221", 3, t28, q! "0 24 0 0 0 0 24 0 24 0 0 0", trs! "0 43 46 26", gens! "43 33751041 1;46 16777986 2", words! ";0;1;1 0", false⟩
noncomputable def b36 : Block := ⟨s130, [⟨s131, nats! "3 1 0 0 0", nats! "2 3 0 0 0"⟩, ⟨s132, nats! "2 3 0 0 0", nats! "3 1 0 0 0"⟩]⟩
noncomputable def s133 : Setting := ⟨chars! "P212121", 3, t0, q! "24 0 0 0 0 24 0 0 0 0 24 0", trs! "0 43 47 36", gens! "43 33751041 1;47 16777986 2", words! ";0;1;1 0", false⟩
noncomputable def b37 : Block := ⟨s133, []⟩
noncomputable def s134 : Setting := ⟨chars! "C2221", 3, t0, q! "24 0 0 0 0 24 0 0 0 0 24 0", trs! "0 31 29 90 4 45 47 39", gens! "31 434320308619640833 1;29 361421592464458498 2;4 216736831696667908 4", words! ";0;1;1 0;2;2 0;2 1;2 1 0", false⟩
noncomputable def s135 : Setting := ⟨chars! "A2122", 3, t27, q! "0 0 24 0 24 0 0 0 0 24 0 0", trs! "0 96 32 26 35 45 49 36", gens! "96 434320308619640833 1;32 361421592464458498 2;35 216736831696667908 4", words! ";0;1;1 0;2;2 0;2 1;2 1 0", false⟩
noncomputable def s136 : Setting := ⟨chars! "B2212", 3, t28, q! "0 24 0 0 0 0 24 0 24 0 0 0", trs! "0 2 101 30 42 43 49 39", gens! "2 434320308619640833 1;101 361421592464458498 2;42 216736831696667908 4", words! ";0;1;1 0;2;2 0;2 1;2 1 0", false⟩
noncomputable def b38 : Block := ⟨s134, [⟨s135, nats! "3 1 4 0 0 0", nats! "2 3 4 0 0 0"⟩, ⟨s136, nats! "2 3 4 0 0 0", nats! "3 1 4 0 0 0"⟩]⟩
noncomputable def s137 : Setting := ⟨chars! "C222", 3, t0, q! "24 0 0 0 0 24 0 0 0 0 24 0", trs! "0 2 29 26 4 10 47 33", gens! "2 434320308619640833 1;29 361421592464458498 2;4 216736831696667908 4", words! ";0;1;1 0;2;2 0;2 1;2 1 0", false⟩
noncomputable def s138 : Setting := ⟨chars! "A222", 3, t27, q! "0 0 24 0 24 0 0 0 0 24 0 0", trs! "0 2 29 26 35 40 103 36", gens! "2 434320308619640833 1;29 361421592464458498 2;35 216736831696667908 4", words! ";0;1;1 0;2;2 0;2 1;2 1 0", false⟩
noncomputable def s139 : Setting := ⟨chars! "B222", 3, t28, q! "0 24 0 0 0 0 24 0 24 0 0 0", trs! "0 2 29 26 42 43 46 92", gens! "2 434320308619640833 1;29 361421592464458498 2;42 216736831696667908 4", words! ";0;1;1 0;2;2 0;2 1;2 1 0", false⟩
noncomputable def b39 : Block := ⟨s137, [⟨s138, nats! "3 1 4 0 0 0", nats! "2 3 4 0 0 0"⟩, ⟨s139, nats! "2 3 4 0 0 0", nats! "3 1 4 0 0 0"⟩]⟩
noncomputable def s140 : Setting := ⟨chars! "F222", 3, t0, q! "24 0 0 0 0 24 0 0 0 0 24 0", trs! "0 2 29 26 35 40 103 36 42 43 46 92 4 10 47 33", gens! "2 18687320815856387368178823909286805505 1;29 17342576855639742879858139805557719810 2;35 14673614102390417578512422760905835780 4;42 9335851481537165996061868750157777160 8", words! ";0;1;1 0;2;2 0;2 1;2 1 0;3;3 0;3 1;3 1 0;3 2;3 2 0;3 2 1;3 2 1 0", false⟩
noncomputable def b40 : Block := ⟨s140, []⟩

noncomputable def items2 : List Item := [
  .block b30,
  .block b31,
  .block b32,
  .block b33,
  .block b34,
  .block b35,
  .block b36,
  .block b37,
  .block b38,
  .block b39,
  .block b40]

theorem good2 : allB (Item.goodB lat) items2 = true := by decide +kernel

theorem text2 : Table.sgLines2 = (items2.flatMap Item.lines).map String.ofList := by krfl

end Systre.Sg.Data
