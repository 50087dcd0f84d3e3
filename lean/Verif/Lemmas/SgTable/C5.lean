import Verif.Lemmas.SgTable.Ops
import Verif.Model.SgTable.T5

/-! Written by tools/gen_sgtable.py. Lines 1692 to 2096. -/

namespace Systre.Sg.Data
set_option maxRecDepth 1000000
set_option maxHeartbeats 0

noncomputable def s251 : Setting := ⟨chars! "Pban:2", 3, t0, q! "24 0 0 0 0 24 0 0 0 0 24 0", trs! "0 10 101 94 25 98 102 95", gens! "10 434320308619640833 1;101 361421592464458498 2;25 216736831696667908 4", words! ";0;1;1 0;2;2 0;2 1;2 1 0", false⟩
noncomputable def s252 : Setting := ⟨chars! "Pban:1", 3, t167, q! "24 0 0 -6 0 24 0 -6 0 0 24 0", trs! "0 2 29 26 86 56 5 9", gens! "2 434320308619640833 1;29 361421592464458498 2;86 216736831696667908 4", words! ";0;1;1 0;2;2 0;2 1;2 1 0", false⟩
noncomputable def s253 : Setting := ⟨chars! "Pncb:1", 3, t168, q! "0 0 24 0 24 0 0 -6 0 24 0 -6", trs! "0 2 29 26 87 63 59 61", gens! "2 434320308619640833 1;29 361421592464458498 2;87 216736831696667908 4", words! ";0;1;1 0;2;2 0;2 1;2 1 0", false⟩
noncomputable def s254 : Setting := ⟨chars! "Pncb:2", 3, t27, q! "0 0 24 0 24 0 0 0 0 24 0 0", trs! "0 99 103 90 25 100 104 91", gens! "99 434320308619640833 1;103 361421592464458498 2;25 216736831696667908 4", words! ";0;1;1 0;2;2 0;2 1;2 1 0", false⟩
noncomputable def s255 : Setting := ⟨chars! "Pcna:1", 3, t169, q! "0 24 0 -6 0 0 24 0 24 0 0 -6", trs! "0 2 29 26 89 64 66 53", gens! "2 434320308619640833 1;29 361421592464458498 2;89 216736831696667908 4", words! ";0;1;1 0;2;2 0;2 1;2 1 0", false⟩
noncomputable def s256 : Setting := ⟨chars! "Pcna:2", 3, t28, q! "0 24 0 0 0 0 24 0 24 0 0 0", trs! "0 96 105 92 25 97 106 93", gens! "96 434320308619640833 1;105 361421592464458498 2;25 216736831696667908 4", words! ";0;1;1 0;2;2 0;2 1;2 1 0", false⟩
noncomputable def b68 : Block := ⟨s251, [⟨s252, nats! "1 2 4 0 0 0", nats! "1 2 4 0 0 0"⟩, ⟨s253, nats! "3 1 4 0 0 0", nats! "2 3 4 0 0 0"⟩, ⟨s254, nats! "3 1 4 0 0 0", nats! "2 3 4 0 0 0"⟩, ⟨s255, nats! "2 3 4 0 0 0", nats! "3 1 4 0 0 0"⟩, ⟨s256, nats! "2 3 4 0 0 0", nats! "3 1 4 0 0 0"⟩]⟩
noncomputable def s257 : Setting := ⟨chars! "Pmma", 3, t0, q! "24 0 0 0 0 24 0 0 0 0 24 0", trs! "0 96 32 26 25 97 85 6", gens! "96 434320308619640833 1;32 361421592464458498 2;25 216736831696667908 4", words! ";0;1;1 0;2;2 0;2 1;2 1 0", false⟩
noncomputable def s258 : Setting := ⟨chars! "Pmmb", 3, t11, q! "0 24 0 0 -24 0 0 0 0 0 24 0", trs! "0 99 29 30 25 100 1 83", gens! "99 434320308619640833 1;29 361421592464458498 2;25 216736831696667908 4", words! ";0;1;1 0;2;2 0;2 1;2 1 0", false⟩
noncomputable def s259 : Setting := ⟨chars! "Pbmm", 3, t27, q! "0 0 24 0 24 0 0 0 0 24 0 0", trs! "0 2 101 30 25 50 102 83", gens! "2 434320308619640833 1;101 361421592464458498 2;25 216736831696667908 4", words! ";0;1;1 0;2;2 0;2 1;2 1 0", false⟩
noncomputable def s260 : Setting := ⟨chars! "Pcmm", 3, t34, q! "0 0 24 0 0 24 0 0 -24 0 0 0", trs! "0 31 105 26 25 84 106 6", gens! "31 434320308619640833 1;105 361421592464458498 2;25 216736831696667908 4", words! ";0;1;1 0;2;2 0;2 1;2 1 0", false⟩
noncomputable def s261 : Setting := ⟨chars! "Pmcm", 3, t28, q! "0 24 0 0 0 0 24 0 24 0 0 0", trs! "0 31 29 90 25 84 1 91", gens! "31 434320308619640833 1;29 361421592464458498 2;25 216736831696667908 4", words! ";0;1;1 0;2;2 0;2 1;2 1 0", false⟩
noncomputable def s262 : Setting := ⟨chars! "Pmam", 3, t41, q! "-24 0 0 0 0 0 24 0 0 24 0 0", trs! "0 2 32 94 25 50 85 95", gens! "2 434320308619640833 1;32 361421592464458498 2;25 216736831696667908 4", words! ";0;1;1 0;2;2 0;2 1;2 1 0", false⟩
noncomputable def b69 : Block := ⟨s257, [⟨s258, nats! "1 3 4 0 0 0", nats! "1 3 4 0 0 0"⟩, ⟨s259, nats! "3 1 4 0 0 0", nats! "2 3 4 0 0 0"⟩, ⟨s260, nats! "2 1 4 0 0 0", nats! "2 1 4 0 0 0"⟩, ⟨s261, nats! "2 3 4 0 0 0", nats! "3 1 4 0 0 0"⟩, ⟨s262, nats! "3 2 4 0 0 0", nats! "3 2 4 0 0 0"⟩]⟩
noncomputable def s263 : Setting := ⟨chars! "Pnna", 3, t0, q! "24 0 0 0 0 24 0 0 0 0 24 0", trs! "0 96 103 39 25 97 104 108", gens! "96 434320308619640833 1;103 361421592464458498 2;25 216736831696667908 4", words! ";0;1;1 0;2;2 0;2 1;2 1 0", false⟩
noncomputable def s264 : Setting := ⟨chars! "Pnnb", 3, t11, q! "0 24 0 0 -24 0 0 0 0 0 24 0", trs! "0 99 49 92 25 100 114 93", gens! "99 434320308619640833 1;49 361421592464458498 2;25 216736831696667908 4", words! ";0;1;1 0;2;2 0;2 1;2 1 0", false⟩
noncomputable def s265 : Setting := ⟨chars! "Pbnn", 3, t27, q! "0 0 24 0 24 0 0 0 0 24 0 0", trs! "0 45 101 92 25 111 102 93", gens! "45 434320308619640833 1;101 361421592464458498 2;25 216736831696667908 4", words! ";0;1;1 0;2;2 0;2 1;2 1 0", false⟩
noncomputable def s266 : Setting := ⟨chars! "Pcnn", 3, t34, q! "0 0 24 0 0 24 0 0 -24 0 0 0", trs! "0 10 105 39 25 98 106 108", gens! "10 434320308619640833 1;105 361421592464458498 2;25 216736831696667908 4", words! ";0;1;1 0;2;2 0;2 1;2 1 0", false⟩
noncomputable def s267 : Setting := ⟨chars! "Pncn", 3, t28, q! "0 24 0 0 0 0 24 0 24 0 0 0", trs! "0 10 49 90 25 98 114 91", gens! "10 434320308619640833 1;49 361421592464458498 2;25 216736831696667908 4", words! ";0;1;1 0;2;2 0;2 1;2 1 0", false⟩
noncomputable def s268 : Setting := ⟨chars! "Pnan", 3, t41, q! "-24 0 0 0 0 0 24 0 0 24 0 0", trs! "0 45 103 94 25 111 104 95", gens! "45 434320308619640833 1;103 361421592464458498 2;25 216736831696667908 4", words! ";0;1;1 0;2;2 0;2 1;2 1 0", false⟩
noncomputable def b70 : Block := ⟨s263, [⟨s264, nats! "1 3 4 0 0 0", nats! "1 3 4 0 0 0"⟩, ⟨s265, nats! "3 1 4 0 0 0", nats! "2 3 4 0 0 0"⟩, ⟨s266, nats! "2 1 4 0 0 0", nats! "2 1 4 0 0 0"⟩, ⟨s267, nats! "2 3 4 0 0 0", nats! "3 1 4 0 0 0"⟩, ⟨s268, nats! "3 2 4 0 0 0", nats! "3 2 4 0 0 0"⟩]⟩
noncomputable def s269 : Setting := ⟨chars! "Pmna", 3, t0, q! "24 0 0 0 0 24 0 0 0 0 24 0", trs! "0 43 29 92 25 110 1 93", gens! "43 434320308619640833 1;29 361421592464458498 2;25 216736831696667908 4", words! ";0;1;1 0;2;2 0;2 1;2 1 0", false⟩
noncomputable def s270 : Setting := ⟨chars! "Pnmb", 3, t11, q! "0 24 0 0 -24 0 0 0 0 0 24 0", trs! "0 40 103 26 25 112 104 6", gens! "40 434320308619640833 1;103 361421592464458498 2;25 216736831696667908 4", words! ";0;1;1 0;2;2 0;2 1;2 1 0", false⟩
noncomputable def s271 : Setting := ⟨chars! "Pbmn", 3, t27, q! "0 0 24 0 24 0 0 0 0 24 0 0", trs! "0 10 47 26 25 98 113 6", gens! "10 434320308619640833 1;47 361421592464458498 2;25 216736831696667908 4", words! ";0;1;1 0;2;2 0;2 1;2 1 0", false⟩
noncomputable def s272 : Setting := ⟨chars! "Pcnm", 3, t34, q! "0 0 24 0 0 24 0 0 -24 0 0 0", trs! "0 2 46 92 25 50 115 93", gens! "2 434320308619640833 1;46 361421592464458498 2;25 216736831696667908 4", words! ";0;1;1 0;2;2 0;2 1;2 1 0", false⟩
noncomputable def s273 : Setting := ⟨chars! "Pncm", 3, t28, q! "0 24 0 0 0 0 24 0 24 0 0 0", trs! "0 2 103 36 25 50 104 107", gens! "2 434320308619640833 1;103 361421592464458498 2;25 216736831696667908 4", words! ";0;1;1 0;2;2 0;2 1;2 1 0", false⟩
noncomputable def s274 : Setting := ⟨chars! "Pman", 3, t41, q! "-24 0 0 0 0 0 24 0 0 24 0 0", trs! "0 10 29 33 25 98 1 109", gens! "10 434320308619640833 1;29 361421592464458498 2;25 216736831696667908 4", words! ";0;1;1 0;2;2 0;2 1;2 1 0", false⟩
noncomputable def b71 : Block := ⟨s269, [⟨s270, nats! "1 3 4 0 0 0", nats! "1 3 4 0 0 0"⟩, ⟨s271, nats! "3 1 4 0 0 0", nats! "2 3 4 0 0 0"⟩, ⟨s272, nats! "2 1 4 0 0 0", nats! "2 1 4 0 0 0"⟩, ⟨s273, nats! "2 3 4 0 0 0", nats! "3 1 4 0 0 0"⟩, ⟨s274, nats! "3 2 4 0 0 0", nats! "3 2 4 0 0 0"⟩]⟩
noncomputable def s275 : Setting := ⟨chars! "Pcca", 3, t0, q! "24 0 0 0 0 24 0 0 0 0 24 0", trs! "0 96 46 90 25 97 115 91", gens! "96 434320308619640833 1;46 361421592464458498 2;25 216736831696667908 4", words! ";0;1;1 0;2;2 0;2 1;2 1 0", false⟩
noncomputable def s276 : Setting := ⟨chars! "Pccb", 3, t11, q! "0 24 0 0 -24 0 0 0 0 0 24 0", trs! "0 99 105 36 25 100 106 107", gens! "99 434320308619640833 1;105 361421592464458498 2;25 216736831696667908 4", words! ";0;1;1 0;2;2 0;2 1;2 1 0", false⟩
noncomputable def s277 : Setting := ⟨chars! "Pbaa", 3, t27, q! "0 0 24 0 24 0 0 0 0 24 0 0", trs! "0 96 101 33 25 97 102 109", gens! "96 434320308619640833 1;101 361421592464458498 2;25 216736831696667908 4", words! ";0;1;1 0;2;2 0;2 1;2 1 0", false⟩
noncomputable def s278 : Setting := ⟨chars! "Pcaa", 3, t34, q! "0 0 24 0 0 24 0 0 -24 0 0 0", trs! "0 43 105 94 25 110 106 95", gens! "43 434320308619640833 1;105 361421592464458498 2;25 216736831696667908 4", words! ";0;1;1 0;2;2 0;2 1;2 1 0", false⟩
noncomputable def s279 : Setting := ⟨chars! "Pbcb", 3, t28, q! "0 24 0 0 0 0 24 0 24 0 0 0", trs! "0 40 101 90 25 112 102 91", gens! "40 434320308619640833 1;101 361421592464458498 2;25 216736831696667908 4", words! ";0;1;1 0;2;2 0;2 1;2 1 0", false⟩
noncomputable def s280 : Setting := ⟨chars! "Pbab", 3, t41, q! "-24 0 0 0 0 0 24 0 0 24 0 0", trs! "0 99 47 94 25 100 113 95", gens! "99 434320308619640833 1;47 361421592464458498 2;25 216736831696667908 4", words! ";0;1;1 0;2;2 0;2 1;2 1 0", false⟩
noncomputable def b72 : Block := ⟨s275, [⟨s276, nats! "1 3 4 0 0 0", nats! "1 3 4 0 0 0"⟩, ⟨s277, nats! "3 1 4 0 0 0", nats! "2 3 4 0 0 0"⟩, ⟨s278, nats! "2 1 4 0 0 0", nats! "2 1 4 0 0 0"⟩, ⟨s279, nats! "2 3 4 0 0 0", nats! "3 1 4 0 0 0"⟩, ⟨s280, nats! "3 2 4 0 0 0", nats! "3 2 4 0 0 0"⟩]⟩
noncomputable def s281 : Setting := ⟨chars! "Pbam", 3, t0, q! "24 0 0 0 0 24 0 0 0 0 24 0", trs! "0 2 47 33 25 50 113 109", gens! "2 434320308619640833 1;47 361421592464458498 2;25 216736831696667908 4", words! ";0;1;1 0;2;2 0;2 1;2 1 0", false⟩
noncomputable def s282 : Setting := ⟨chars! "Pmcb", 3, t27, q! "0 0 24 0 24 0 0 0 0 24 0 0", trs! "0 40 29 36 25 112 1 107", gens! "40 434320308619640833 1;29 361421592464458498 2;25 216736831696667908 4", words! ";0;1;1 0;2;2 0;2 1;2 1 0", false⟩
noncomputable def s283 : Setting := ⟨chars! "Pcma", 3, t28, q! "0 24 0 0 0 0 24 0 24 0 0 0", trs! "0 43 46 26 25 110 115 6", gens! "43 434320308619640833 1;46 361421592464458498 2;25 216736831696667908 4", words! ";0;1;1 0;2;2 0;2 1;2 1 0", false⟩
noncomputable def b73 : Block := ⟨s281, [⟨s282, nats! "3 1 4 0 0 0", nats! "2 3 4 0 0 0"⟩, ⟨s283, nats! "2 3 4 0 0 0", nats! "3 1 4 0 0 0"⟩]⟩
noncomputable def s284 : Setting := ⟨chars! "Pccn", 3, t0, q! "24 0 0 0 0 24 0 0 0 0 24 0", trs! "0 10 46 36 25 98 115 107", gens! "10 434320308619640833 1;46 361421592464458498 2;25 216736831696667908 4", words! ";0;1;1 0;2;2 0;2 1;2 1 0", false⟩
noncomputable def s285 : Setting := ⟨chars! "Pnaa", 3, t27, q! "0 0 24 0 24 0 0 0 0 24 0 0", trs! "0 43 103 33 25 110 104 109", gens! "43 434320308619640833 1;103 361421592464458498 2;25 216736831696667908 4", words! ";0;1;1 0;2;2 0;2 1;2 1 0", false⟩
noncomputable def s286 : Setting := ⟨chars! "Pbnb", 3, t28, q! "0 24 0 0 0 0 24 0 24 0 0 0", trs! "0 40 47 92 25 112 113 93", gens! "40 434320308619640833 1;47 361421592464458498 2;25 216736831696667908 4", words! ";0;1;1 0;2;2 0;2 1;2 1 0", false⟩
noncomputable def b74 : Block := ⟨s284, [⟨s285, nats! "3 1 4 0 0 0", nats! "2 3 4 0 0 0"⟩, ⟨s286, nats! "2 3 4 0 0 0", nats! "3 1 4 0 0 0"⟩]⟩
noncomputable def s287 : Setting := ⟨chars! "Pbcm", 3, t0, q! "24 0 0 0 0 24 0 0 0 0 24 0", trs! "0 31 101 36 25 84 102 107", gens! "31 434320308619640833 1;101 361421592464458498 2;25 216736831696667908 4", words! ";0;1;1 0;2;2 0;2 1;2 1 0", false⟩
noncomputable def s288 : Setting := ⟨chars! "Pcam", 3, t11, q! "0 24 0 0 -24 0 0 0 0 0 24 0", trs! "0 31 46 94 25 84 115 95", gens! "31 434320308619640833 1;46 361421592464458498 2;25 216736831696667908 4", words! ";0;1;1 0;2;2 0;2 1;2 1 0", false⟩
noncomputable def s289 : Setting := ⟨chars! "Pmca", 3, t27, q! "0 0 24 0 24 0 0 0 0 24 0 0", trs! "0 43 32 90 25 110 85 91", gens! "43 434320308619640833 1;32 361421592464458498 2;25 216736831696667908 4", words! ";0;1;1 0;2;2 0;2 1;2 1 0", false⟩
noncomputable def s290 : Setting := ⟨chars! "Pmab", 3, t34, q! "0 0 24 0 0 24 0 0 -24 0 0 0", trs! "0 99 32 33 25 100 85 109", gens! "99 434320308619640833 1;32 361421592464458498 2;25 216736831696667908 4", words! ";0;1;1 0;2;2 0;2 1;2 1 0", false⟩
noncomputable def s291 : Setting := ⟨chars! "Pbma", 3, t28, q! "0 24 0 0 0 0 24 0 24 0 0 0", trs! "0 96 47 30 25 97 113 83", gens! "96 434320308619640833 1;47 361421592464458498 2;25 216736831696667908 4", words! ";0;1;1 0;2;2 0;2 1;2 1 0", false⟩
noncomputable def s292 : Setting := ⟨chars! "Pcmb", 3, t41, q! "-24 0 0 0 0 0 24 0 0 24 0 0", trs! "0 40 105 30 25 112 106 83", gens! "40 434320308619640833 1;105 361421592464458498 2;25 216736831696667908 4", words! ";0;1;1 0;2;2 0;2 1;2 1 0", false⟩
noncomputable def b75 : Block := ⟨s287, [⟨s288, nats! "1 3 4 0 0 0", nats! "1 3 4 0 0 0"⟩, ⟨s289, nats! "3 1 4 0 0 0", nats! "2 3 4 0 0 0"⟩, ⟨s290, nats! "2 1 4 0 0 0", nats! "2 1 4 0 0 0"⟩, ⟨s291, nats! "2 3 4 0 0 0", nats! "3 1 4 0 0 0"⟩, ⟨s292, nats! "3 2 4 0 0 0", nats! "3 2 4 0 0 0"⟩]⟩
noncomputable def s293 : Setting := ⟨chars! "Pnnm", 3, t0, q! "24 0 0 0 0 24 0 0 0 0 24 0", trs! "0 2 49 39 25 50 114 108", gens! "2 434320308619640833 1;49 361421592464458498 2;25 216736831696667908 4", words! ";0;1;1 0;2;2 0;2 1;2 1 0", false⟩
noncomputable def s294 : Setting := ⟨chars! "Pmnn", 3, t27, q! "0 0 24 0 24 0 0 0 0 24 0 0", trs! "0 45 29 39 25 111 1 108", gens! "45 434320308619640833 1;29 361421592464458498 2;25 216736831696667908 4", words! ";0;1;1 0;2;2 0;2 1;2 1 0", false⟩
noncomputable def s295 : Setting := ⟨chars! "Pnmn", 3, t28, q! "0 24 0 0 0 0 24 0 24 0 0 0", trs! "0 45 49 26 25 111 114 6", gens! "45 434320308619640833 1;49 361421592464458498 2;25 216736831696667908 4", words! ";0;1;1 0;2;2 0;2 1;2 1 0", false⟩
noncomputable def b76 : Block := ⟨s293, [⟨s294, nats! "3 1 4 0 0 0", nats! "2 3 4 0 0 0"⟩, ⟨s295, nats! "2 3 4 0 0 0", nats! "3 1 4 0 0 0"⟩]⟩

noncomputable def items5 : List Item := [
  .block b68,
  .block b69,
  .block b70,
  .block b71,
  .block b72,
  .block b73,
  .block b74,
  .block b75,
  .block b76]

theorem good5 : allB (Item.goodB lat) items5 = true := by decide +kernel

theorem text5 : Table.sgLines5 = (items5.flatMap Item.lines).map String.ofList := by krfl

end Systre.Sg.Data
