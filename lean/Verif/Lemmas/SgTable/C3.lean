import Verif.Lemmas.SgTable.Ops
import Verif.Model.SgTable.T3

/-! Written by tools/gen_sgtable.py. Lines 846 to 1265. -/

namespace Systre.Sg.Data
set_option maxRecDepth 1000000
set_option maxHeartbeats 0

noncomputable def s141 : Setting := ⟨chars! "I222", 3, t0, q! "24 0 0 0 0 24 0 0 0 0 24 0", trs! "0 2 29 26 38 45 49 39", gens! "2 434320308619640833 1;29 361421592464458498 2;38 216736831696667908 4", words! ";0;1;1 0;2;2 0;2 1;2 1 0", false⟩
noncomputable def b41 : Block := ⟨s141, []⟩
noncomputable def s142 : Setting := ⟨chars! "I212121", 3, t0, q! "24 0 0 0 0 24 0 0 0 0 24 0", trs! "0 99 105 36 38 127 133 137", gens! "99 434320308619640833 1;105 361421592464458498 2;38 216736831696667908 4", words! ";0;1;1 0;2;2 0;2 1;2 1 0", false⟩
noncomputable def b42 : Block := ⟨s142, []⟩
noncomputable def s143 : Setting := ⟨chars! "Pmm2", 3, t0, q! "24 0 0 0 0 24 0 0 0 0 24 0", trs! "0 2 1 6", gens! "2 33751041 1;1 16777986 2", words! ";0;1;1 0", false⟩
noncomputable def s144 : Setting := ⟨chars! "P2mm", 3, t27, q! "0 0 24 0 24 0 0 0 0 24 0 0", trs! "0 50 29 6", gens! "50 33751041 1;29 16777986 2", words! ";0;1;1 0", false⟩
noncomputable def s145 : Setting := ⟨chars! "Pm2m", 3, t28, q! "0 24 0 0 0 0 24 0 24 0 0 0", trs! "0 50 1 26", gens! "50 33751041 1;1 16777986 2", words! ";0;1;1 0", false⟩
noncomputable def b43 : Block := ⟨s143, [⟨s144, nats! "3 1 0 0 0", nats! "2 3 0 0 0"⟩, ⟨s145, nats! "2 3 0 0 0", nats! "3 1 0 0 0"⟩]⟩
noncomputable def s146 : Setting := ⟨chars! "Pmc21", 3, t0, q! "24 0 0 0 0 24 0 0 0 0 24 0", trs! "0 31 1 51", gens! "31 33751041 1;1 16777986 2", words! ";0;1;1 0", false⟩
noncomputable def s147 : Setting := ⟨chars! "Pcm21", 3, t11, q! "0 24 0 0 -24 0 0 0 0 0 24 0", trs! "0 31 60 6", gens! "31 33751041 1;60 16777986 2", words! ";0;1;1 0", false⟩
noncomputable def s148 : Setting := ⟨chars! "P21ma", 3, t27, q! "0 0 24 0 24 0 0 0 0 24 0 0", trs! "0 54 32 6", gens! "54 33751041 1;32 16777986 2", words! ";0;1;1 0", false⟩
noncomputable def s149 : Setting := ⟨chars! "P21am", 3, t34, q! "0 0 24 0 0 24 0 0 -24 0 0 0", trs! "0 50 32 8", gens! "50 33751041 1;32 16777986 2", words! ";0;1;1 0", false⟩
noncomputable def s150 : Setting := ⟨chars! "Pb21m", 3, t28, q! "0 24 0 0 0 0 24 0 24 0 0 0", trs! "0 50 3 30", gens! "50 33751041 1;3 16777986 2", words! ";0;1;1 0", false⟩
noncomputable def s151 : Setting := ⟨chars! "Pm21b", 3, t41, q! "-24 0 0 0 0 0 24 0 0 24 0 0", trs! "0 57 1 30", gens! "57 33751041 1;1 16777986 2", words! ";0;1;1 0", false⟩
noncomputable def b44 : Block := ⟨s146, [⟨s147, nats! "1 3 0 0 0", nats! "1 3 0 0 0"⟩, ⟨s148, nats! "3 1 0 0 0", nats! "2 3 0 0 0"⟩, ⟨s149, nats! "2 1 0 0 0", nats! "2 1 0 0 0"⟩, ⟨s150, nats! "2 3 0 0 0", nats! "3 1 0 0 0"⟩, ⟨s151, nats! "3 2 0 0 0", nats! "3 2 0 0 0"⟩]⟩
noncomputable def s152 : Setting := ⟨chars! "Pcc2", 3, t0, q! "24 0 0 0 0 24 0 0 0 0 24 0", trs! "0 2 60 51", gens! "2 33751041 1;60 16777986 2", words! ";0;1;1 0", false⟩
noncomputable def s153 : Setting := ⟨chars! "P2aa", 3, t27, q! "0 0 24 0 24 0 0 0 0 24 0 0", trs! "0 54 29 8", gens! "54 33751041 1;29 16777986 2", words! ";0;1;1 0", false⟩
noncomputable def s154 : Setting := ⟨chars! "Pb2b", 3, t28, q! "0 24 0 0 0 0 24 0 24 0 0 0", trs! "0 57 3 26", gens! "57 33751041 1;3 16777986 2", words! ";0;1;1 0", false⟩
noncomputable def b45 : Block := ⟨s152, [⟨s153, nats! "3 1 0 0 0", nats! "2 3 0 0 0"⟩, ⟨s154, nats! "2 3 0 0 0", nats! "3 1 0 0 0"⟩]⟩
noncomputable def s155 : Setting := ⟨chars! "Pma2", 3, t0, q! "24 0 0 0 0 24 0 0 0 0 24 0", trs! "0 2 7 8", gens! "2 33751041 1;7 16777986 2", words! ";0;1;1 0", false⟩
noncomputable def s156 : Setting := ⟨chars! "Pbm2", 3, t11, q! "0 24 0 0 -24 0 0 0 0 0 24 0", trs! "0 2 3 138", gens! "2 33751041 1;3 16777986 2", words! ";0;1;1 0", false⟩
noncomputable def s157 : Setting := ⟨chars! "P2mb", 3, t27, q! "0 0 24 0 24 0 0 0 0 24 0 0", trs! "0 57 29 138", gens! "57 33751041 1;29 16777986 2", words! ";0;1;1 0", false⟩
noncomputable def s158 : Setting := ⟨chars! "P2cm", 3, t34, q! "0 0 24 0 0 24 0 0 -24 0 0 0", trs! "0 139 29 51", gens! "139 33751041 1;29 16777986 2", words! ";0;1;1 0", false⟩
noncomputable def s159 : Setting := ⟨chars! "Pc2m", 3, t28, q! "0 24 0 0 0 0 24 0 24 0 0 0", trs! "0 139 60 26", gens! "139 33751041 1;60 16777986 2", words! ";0;1;1 0", false⟩
noncomputable def s160 : Setting := ⟨chars! "Pm2a", 3, t41, q! "-24 0 0 0 0 0 24 0 0 24 0 0", trs! "0 54 7 26", gens! "54 33751041 1;7 16777986 2", words! ";0;1;1 0", false⟩
noncomputable def b46 : Block := ⟨s155, [⟨s156, nats! "1 3 0 0 0", nats! "1 3 0 0 0"⟩, ⟨s157, nats! "3 1 0 0 0", nats! "2 3 0 0 0"⟩, ⟨s158, nats! "2 1 0 0 0", nats! "2 1 0 0 0"⟩, ⟨s159, nats! "2 3 0 0 0", nats! "3 1 0 0 0"⟩, ⟨s160, nats! "3 2 0 0 0", nats! "3 2 0 0 0"⟩]⟩
noncomputable def s161 : Setting := ⟨chars! "Pca21", 3, t0, q! "24 0 0 0 0 24 0 0 0 0 24 0", trs! "0 31 66 8", gens! "31 33751041 1;66 16777986 2", words! ";0;1;1 0", false⟩
noncomputable def s162 : Setting := ⟨chars! "Pbc21", 3, t11, q! "0 24 0 0 -24 0 0 0 0 0 24 0", trs! "0 31 3 61", gens! "31 33751041 1;3 16777986 2", words! ";0;1;1 0", false⟩
noncomputable def s163 : Setting := ⟨chars! "P21ab", 3, t27, q! "0 0 24 0 24 0 0 0 0 24 0 0", trs! "0 57 32 9", gens! "57 33751041 1;32 16777986 2", words! ";0;1;1 0", false⟩
noncomputable def s164 : Setting := ⟨chars! "P21ca", 3, t34, q! "0 0 24 0 0 24 0 0 -24 0 0 0", trs! "0 64 32 51", gens! "64 33751041 1;32 16777986 2", words! ";0;1;1 0", false⟩
noncomputable def s165 : Setting := ⟨chars! "Pc21b", 3, t28, q! "0 24 0 0 0 0 24 0 24 0 0 0", trs! "0 63 60 30", gens! "63 33751041 1;60 16777986 2", words! ";0;1;1 0", false⟩
noncomputable def s166 : Setting := ⟨chars! "Pb21a", 3, t41, q! "-24 0 0 0 0 0 24 0 0 24 0 0", trs! "0 54 5 30", gens! "54 33751041 1;5 16777986 2", words! ";0;1;1 0", false⟩
noncomputable def b47 : Block := ⟨s161, [⟨s162, nats! "1 3 0 0 0", nats! "1 3 0 0 0"⟩, ⟨s163, nats! "3 1 0 0 0", nats! "2 3 0 0 0"⟩, ⟨s164, nats! "2 1 0 0 0", nats! "2 1 0 0 0"⟩, ⟨s165, nats! "2 3 0 0 0", nats! "3 1 0 0 0"⟩, ⟨s166, nats! "3 2 0 0 0", nats! "3 2 0 0 0"⟩]⟩
noncomputable def s167 : Setting := ⟨chars! "Pnc2", 3, t0, q! "24 0 0 0 0 24 0 0 0 0 24 0", trs! "0 2 59 61", gens! "2 33751041 1;59 16777986 2", words! ";0;1;1 0", false⟩
noncomputable def s168 : Setting := ⟨chars! "Pcn2", 3, t11, q! "0 24 0 0 -24 0 0 0 0 0 24 0", trs! "0 2 66 53", gens! "2 33751041 1;66 16777986 2", words! ";0;1;1 0", false⟩
noncomputable def s169 : Setting := ⟨chars! "P2na", 3, t27, q! "0 0 24 0 24 0 0 0 0 24 0 0", trs! "0 64 29 53", gens! "64 33751041 1;29 16777986 2", words! ";0;1;1 0", false⟩
noncomputable def s170 : Setting := ⟨chars! "P2an", 3, t34, q! "0 0 24 0 0 24 0 0 -24 0 0 0", trs! "0 56 29 9", gens! "56 33751041 1;29 16777986 2", words! ";0;1;1 0", false⟩
noncomputable def s171 : Setting := ⟨chars! "Pb2n", 3, t28, q! "0 24 0 0 0 0 24 0 24 0 0 0", trs! "0 56 5 26", gens! "56 33751041 1;5 16777986 2", words! ";0;1;1 0", false⟩
noncomputable def s172 : Setting := ⟨chars! "Pn2b", 3, t41, q! "-24 0 0 0 0 0 24 0 0 24 0 0", trs! "0 63 59 26", gens! "63 33751041 1;59 16777986 2", words! ";0;1;1 0", false⟩
noncomputable def b48 : Block := ⟨s167, [⟨s168, nats! "1 3 0 0 0", nats! "1 3 0 0 0"⟩, ⟨s169, nats! "3 1 0 0 0", nats! "2 3 0 0 0"⟩, ⟨s170, nats! "2 1 0 0 0", nats! "2 1 0 0 0"⟩, ⟨s171, nats! "2 3 0 0 0", nats! "3 1 0 0 0"⟩, ⟨s172, nats! "3 2 0 0 0", nats! "3 2 0 0 0"⟩]⟩
noncomputable def s173 : Setting := ⟨chars! "Pmn21", 3, t0, q! "24 0 0 0 0 24 0 0 0 0 24 0", trs! "0 43 1 53", gens! "43 33751041 1;1 16777986 2", words! ";0;1;1 0", false⟩
noncomputable def s174 : Setting := ⟨chars! "Pnm21", 3, t11, q! "0 24 0 0 -24 0 0 0 0 0 24 0", trs! "0 40 59 6", gens! "40 33751041 1;59 16777986 2", words! ";0;1;1 0", false⟩
noncomputable def s175 : Setting := ⟨chars! "P21mn", 3, t27, q! "0 0 24 0 24 0 0 0 0 24 0 0", trs! "0 56 47 6", gens! "56 33751041 1;47 16777986 2", words! ";0;1;1 0", false⟩
noncomputable def s176 : Setting := ⟨chars! "P21nm", 3, t34, q! "0 0 24 0 0 24 0 0 -24 0 0 0", trs! "0 50 46 53", gens! "50 33751041 1;46 16777986 2", words! ";0;1;1 0", false⟩
noncomputable def s177 : Setting := ⟨chars! "Pn21m", 3, t28, q! "0 24 0 0 0 0 24 0 24 0 0 0", trs! "0 50 59 36", gens! "50 33751041 1;59 16777986 2", words! ";0;1;1 0", false⟩
noncomputable def s178 : Setting := ⟨chars! "Pm21n", 3, t41, q! "-24 0 0 0 0 0 24 0 0 24 0 0", trs! "0 56 1 33", gens! "56 33751041 1;1 16777986 2", words! ";0;1;1 0", false⟩
noncomputable def b49 : Block := ⟨s173, [⟨s174, nats! "1 3 0 0 0", nats! "1 3 0 0 0"⟩, ⟨s175, nats! "3 1 0 0 0", nats! "2 3 0 0 0"⟩, ⟨s176, nats! "2 1 0 0 0", nats! "2 1 0 0 0"⟩, ⟨s177, nats! "2 3 0 0 0", nats! "3 1 0 0 0"⟩, ⟨s178, nats! "3 2 0 0 0", nats! "3 2 0 0 0"⟩]⟩
noncomputable def s179 : Setting := ⟨chars! "Pba2", 3, t0, q! "24 0 0 0 0 24 0 0 0 0 24 0", trs! "0 2 5 9", gens! "2 33751041 1;5 16777986 2", words! ";0;1;1 0", false⟩
noncomputable def s180 : Setting := ⟨chars! "P2cb", 3, t27, q! "0 0 24 0 24 0 0 0 0 24 0 0", trs! "0 63 29 61", gens! "63 33751041 1;29 16777986 2", words! ";0;1;1 0", false⟩
noncomputable def s181 : Setting := ⟨chars! "Pc2a", 3, t28, q! "0 24 0 0 0 0 24 0 24 0 0 0", trs! "0 64 66 26", gens! "64 33751041 1;66 16777986 2", words! ";0;1;1 0", false⟩
noncomputable def b50 : Block := ⟨s179, [⟨s180, nats! "3 1 0 0 0", nats! "2 3 0 0 0"⟩, ⟨s181, nats! "2 3 0 0 0", nats! "3 1 0 0 0"⟩]⟩
noncomputable def s182 : Setting := ⟨chars! "Pna21", 3, t0, q! "24 0 0 0 0 24 0 0 0 0 24 0", trs! "0 31 67 9", gens! "31 33751041 1;67 16777986 2", words! ";0;1;1 0", false⟩
noncomputable def s183 : Setting := ⟨chars! "Pbn21", 3, t11, q! "0 24 0 0 -24 0 0 0 0 0 24 0", trs! "0 31 5 62", gens! "31 33751041 1;5 16777986 2", words! ";0;1;1 0", false⟩
noncomputable def s184 : Setting := ⟨chars! "P21nb", 3, t27, q! "0 0 24 0 24 0 0 0 0 24 0 0", trs! "0 63 32 62", gens! "63 33751041 1;32 16777986 2", words! ";0;1;1 0", false⟩
noncomputable def s185 : Setting := ⟨chars! "P21cn", 3, t34, q! "0 0 24 0 0 24 0 0 -24 0 0 0", trs! "0 65 32 61", gens! "65 33751041 1;32 16777986 2", words! ";0;1;1 0", false⟩
noncomputable def s186 : Setting := ⟨chars! "Pc21n", 3, t28, q! "0 24 0 0 0 0 24 0 24 0 0 0", trs! "0 65 66 30", gens! "65 33751041 1;66 16777986 2", words! ";0;1;1 0", false⟩
noncomputable def s187 : Setting := ⟨chars! "Pn21a", 3, t41, q! "-24 0 0 0 0 0 24 0 0 24 0 0", trs! "0 64 67 30", gens! "64 33751041 1;67 16777986 2", words! ";0;1;1 0", false⟩
noncomputable def b51 : Block := ⟨s182, [⟨s183, nats! "1 3 0 0 0", nats! "1 3 0 0 0"⟩, ⟨s184, nats! "3 1 0 0 0", nats! "2 3 0 0 0"⟩, ⟨s185, nats! "2 1 0 0 0", nats! "2 1 0 0 0"⟩, ⟨s186, nats! "2 3 0 0 0", nats! "3 1 0 0 0"⟩, ⟨s187, nats! "3 2 0 0 0", nats! "3 2 0 0 0"⟩]⟩
noncomputable def s188 : Setting := ⟨chars! "Pnn2", 3, t0, q! "24 0 0 0 0 24 0 0 0 0 24 0", trs! "0 2 67 62", gens! "2 33751041 1;67 16777986 2", words! ";0;1;1 0", false⟩
noncomputable def s189 : Setting := ⟨chars! "P2nn", 3, t27, q! "0 0 24 0 24 0 0 0 0 24 0 0", trs! "0 65 29 62", gens! "65 33751041 1;29 16777986 2", words! ";0;1;1 0", false⟩
noncomputable def s190 : Setting := ⟨chars! "Pn2n", 3, t28, q! "0 24 0 0 0 0 24 0 24 0 0 0", trs! "0 65 67 26", gens! "65 33751041 1;67 16777986 2", words! ";0;1;1 0", false⟩
noncomputable def b52 : Block := ⟨s188, [⟨s189, nats! "3 1 0 0 0", nats! "2 3 0 0 0"⟩, ⟨s190, nats! "2 3 0 0 0", nats! "3 1 0 0 0"⟩]⟩
noncomputable def s191 : Setting := ⟨chars! "Cmm2", 3, t0, q! "24 0 0 0 0 24 0 0 0 0 24 0", trs! "0 2 1 6 4 10 5 9", gens! "2 434320308619640833 1;1 361421592464458498 2;4 216736831696667908 4", words! ";0;1;1 0;2;2 0;2 1;2 1 0", false⟩
noncomputable def s192 : Setting := ⟨chars! "A2mm", 3, t27, q! "0 0 24 0 24 0 0 0 0 24 0 0", trs! "0 50 29 6 35 63 103 61", gens! "50 434320308619640833 1;29 361421592464458498 2;35 216736831696667908 4", words! ";0;1;1 0;2;2 0;2 1;2 1 0", false⟩
noncomputable def s193 : Setting := ⟨chars! "Bm2m", 3, t28, q! "0 24 0 0 0 0 24 0 24 0 0 0", trs! "0 50 1 26 42 64 66 92", gens! "50 434320308619640833 1;1 361421592464458498 2;42 216736831696667908 4", words! ";0;1;1 0;2;2 0;2 1;2 1 0", false⟩
noncomputable def b53 : Block := ⟨s191, [⟨s192, nats! "3 1 4 0 0 0", nats! "2 3 4 0 0 0"⟩, ⟨s193, nats! "2 3 4 0 0 0", nats! "3 1 4 0 0 0"⟩]⟩
noncomputable def s194 : Setting := ⟨chars! "Cmc21", 3, t0, q! "24 0 0 0 0 24 0 0 0 0 24 0", trs! "0 31 1 51 4 45 5 62", gens! "31 434320308619640833 1;1 361421592464458498 2;4 216736831696667908 4", words! ";0;1;1 0;2;2 0;2 1;2 1 0", false⟩
noncomputable def s195 : Setting := ⟨chars! "Ccm21", 3, t11, q! "0 24 0 0 -24 0 0 0 0 0 24 0", trs! "0 31 60 6 4 45 67 9", gens! "31 434320308619640833 1;60 361421592464458498 2;4 216736831696667908 4", words! ";0;1;1 0;2;2 0;2 1;2 1 0", false⟩
noncomputable def s196 : Setting := ⟨chars! "A21ma", 3, t27, q! "0 0 24 0 24 0 0 0 0 24 0 0", trs! "0 54 32 6 35 65 49 61", gens! "54 434320308619640833 1;32 361421592464458498 2;35 216736831696667908 4", words! ";0;1;1 0;2;2 0;2 1;2 1 0", false⟩
noncomputable def s197 : Setting := ⟨chars! "A21am", 3, t34, q! "0 0 24 0 0 24 0 0 -24 0 0 0", trs! "0 50 32 8 35 63 49 62", gens! "50 434320308619640833 1;32 361421592464458498 2;35 216736831696667908 4", words! ";0;1;1 0;2;2 0;2 1;2 1 0", false⟩
noncomputable def s198 : Setting := ⟨chars! "Bb21m", 3, t28, q! "0 24 0 0 0 0 24 0 24 0 0 0", trs! "0 50 3 30 42 64 67 39", gens! "50 434320308619640833 1;3 361421592464458498 2;42 216736831696667908 4", words! ";0;1;1 0;2;2 0;2 1;2 1 0", false⟩
noncomputable def s199 : Setting := ⟨chars! "Bm21b", 3, t41, q! "-24 0 0 0 0 0 24 0 0 24 0 0", trs! "0 57 1 30 42 65 66 39", gens! "57 434320308619640833 1;1 361421592464458498 2;42 216736831696667908 4", words! ";0;1;1 0;2;2 0;2 1;2 1 0", false⟩
noncomputable def b54 : Block := ⟨s194, [⟨s195, nats! "1 3 4 0 0 0", nats! "1 3 4 0 0 0"⟩, ⟨s196, nats! "3 1 4 0 0 0", nats! "2 3 4 0 0 0"⟩, ⟨s197, nats! "2 1 4 0 0 0", nats! "2 1 4 0 0 0"⟩, ⟨s198, nats! "2 3 4 0 0 0", nats! "3 1 4 0 0 0"⟩, ⟨s199, nats! "3 2 4 0 0 0", nats! "3 2 4 0 0 0"⟩]⟩
noncomputable def s200 : Setting := ⟨chars! "Ccc2", 3, t0, q! "24 0 0 0 0 24 0 0 0 0 24 0", trs! "0 2 60 51 4 10 67 62", gens! "2 434320308619640833 1;60 361421592464458498 2;4 216736831696667908 4", words! ";0;1;1 0;2;2 0;2 1;2 1 0", false⟩
noncomputable def s201 : Setting := ⟨chars! "A2aa", 3, t27, q! "0 0 24 0 24 0 0 0 0 24 0 0", trs! "0 54 29 8 35 65 103 62", gens! "54 434320308619640833 1;29 361421592464458498 2;35 216736831696667908 4", words! ";0;1;1 0;2;2 0;2 1;2 1 0", false⟩
noncomputable def s202 : Setting := ⟨chars! "Bb2b", 3, t28, q! "0 24 0 0 0 0 24 0 24 0 0 0", trs! "0 57 3 26 42 65 67 92", gens! "57 434320308619640833 1;3 361421592464458498 2;42 216736831696667908 4", words! ";0;1;1 0;2;2 0;2 1;2 1 0", false⟩
noncomputable def b55 : Block := ⟨s200, [⟨s201, nats! "3 1 4 0 0 0", nats! "2 3 4 0 0 0"⟩, ⟨s202, nats! "2 3 4 0 0 0", nats! "3 1 4 0 0 0"⟩]⟩
noncomputable def s203 : Setting := ⟨chars! "Amm2", 3, t0, q! "24 0 0 0 0 24 0 0 0 0 24 0", trs! "0 2 1 6 35 40 59 61", gens! "2 434320308619640833 1;1 361421592464458498 2;35 216736831696667908 4", words! ";0;1;1 0;2;2 0;2 1;2 1 0", false⟩
noncomputable def s204 : Setting := ⟨chars! "Bmm2", 3, t11, q! "0 24 0 0 -24 0 0 0 0 0 24 0", trs! "0 2 1 6 42 43 66 53", gens! "2 434320308619640833 1;1 361421592464458498 2;42 216736831696667908 4", words! ";0;1;1 0;2;2 0;2 1;2 1 0", false⟩
noncomputable def s205 : Setting := ⟨chars! "B2mm", 3, t27, q! "0 0 24 0 24 0 0 0 0 24 0 0", trs! "0 50 29 6 42 64 46 53", gens! "50 434320308619640833 1;29 361421592464458498 2;42 216736831696667908 4", words! ";0;1;1 0;2;2 0;2 1;2 1 0", false⟩
noncomputable def s206 : Setting := ⟨chars! "C2mm", 3, t34, q! "0 0 24 0 0 24 0 0 -24 0 0 0", trs! "0 50 29 6 4 56 47 9", gens! "50 434320308619640833 1;29 361421592464458498 2;4 216736831696667908 4", words! ";0;1;1 0;2;2 0;2 1;2 1 0", false⟩
noncomputable def s207 : Setting := ⟨chars! "Cm2m", 3, t28, q! "0 24 0 0 0 0 24 0 24 0 0 0", trs! "0 50 1 26 4 56 5 33", gens! "50 434320308619640833 1;1 361421592464458498 2;4 216736831696667908 4", words! ";0;1;1 0;2;2 0;2 1;2 1 0", false⟩
noncomputable def s208 : Setting := ⟨chars! "Am2m", 3, t41, q! "-24 0 0 0 0 0 24 0 0 24 0 0", trs! "0 50 1 26 35 63 59 36", gens! "50 434320308619640833 1;1 361421592464458498 2;35 216736831696667908 4", words! ";0;1;1 0;2;2 0;2 1;2 1 0", false⟩
noncomputable def b56 : Block := ⟨s203, [⟨s204, nats! "1 3 4 0 0 0", nats! "1 3 4 0 0 0"⟩, ⟨s205, nats! "3 1 4 0 0 0", nats! "2 3 4 0 0 0"⟩, ⟨s206, nats! "2 1 4 0 0 0", nats! "2 1 4 0 0 0"⟩, ⟨s207, nats! "2 3 4 0 0 0", nats! "3 1 4 0 0 0"⟩, ⟨s208, nats! "3 2 4 0 0 0", nats! "3 2 4 0 0 0"⟩]⟩

noncomputable def items3 : List Item := [
  .block b41,
  .block b42,
  .block b43,
  .block b44,
  .block b45,
  .block b46,
  .block b47,
  .block b48,
  .block b49,
  .block b50,
  .block b51,
  .block b52,
  .block b53,
  .block b54,
  .block b55,
  .block b56]

theorem good3 : allB (Item.goodB lat) items3 = true := by decide +kernel

theorem text3 : Table.sgLines3 = (items3.flatMap Item.lines).map String.ofList := by krfl

end Systre.Sg.Data
