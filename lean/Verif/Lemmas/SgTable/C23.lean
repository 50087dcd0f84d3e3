import Verif.Lemmas.SgTable.Ops
import Verif.Model.SgTable.T23

/-! Written by tools/gen_sgtable.py. Lines 8129 to 8358. -/

namespace Systre.Sg.Data
set_option maxRecDepth 1000000
set_option maxHeartbeats 0

noncomputable def l17 : Look := ⟨chars! "P-43n", .cubic, .primitive, nat! "236", ⟨⟨chars! "", 3, t219, q! "24 0 0 6 0 24 0 -6 0 0 24 6", trs! "0", gens! "", words! "", false⟩, nats! "0 0 0", nats! "0 0 0"⟩⟩
noncomputable def l18 : Look := ⟨chars! "P42cm", .tetragonal, .primitive, nat! "119", ⟨⟨chars! "", 3, t0, q! "24 0 0 0 0 24 0 0 0 0 24 0", trs! "0", gens! "", words! "", false⟩, nats! "0 0 0", nats! "0 0 0"⟩⟩
noncomputable def l19 : Look := ⟨chars! "I41cd", .tetragonal, .bodyCentered, nat! "128", ⟨⟨chars! "", 3, t0, q! "24 0 0 0 0 24 0 0 0 0 24 0", trs! "0 38", gens! "38 1 1", words! ";0", false⟩, nats! "1 0 0 0", nats! "1 0 0 0"⟩⟩
noncomputable def l20 : Look := ⟨chars! "P4/mcc", .tetragonal, .primitive, nat! "142", ⟨⟨chars! "", 3, t1340, q! "24 0 0 0 0 24 0 0 0 0 24 6", trs! "0", gens! "", words! "", false⟩, nats! "0 0 0", nats! "0 0 0"⟩⟩
noncomputable def l21 : Look := ⟨chars! "P64", .hexagonal, .primitive, nat! "190", ⟨⟨chars! "", 3, t0, q! "24 0 0 0 0 24 0 0 0 0 24 0", trs! "0", gens! "", words! "", false⟩, nats! "0 0 0", nats! "0 0 0"⟩⟩
noncomputable def l22 : Look := ⟨chars! "C12/c1", .monoclinic, .aFaceCentered, nat! "33", ⟨⟨chars! "", 3, t1341, q! "0 24 0 0 0 0 -24 0 -24 0 0 6", trs! "0 4", gens! "4 1 1", words! ";0", false⟩, nats! "1 0 0 0", nats! "1 0 0 0"⟩⟩
noncomputable def l23 : Look := ⟨chars! "P-31c", .trigonal, .primitive, nat! "181", ⟨⟨chars! "", 3, t1342, q! "0 24 0 0 -24 24 0 0 0 0 24 6", trs! "0", gens! "", words! "", false⟩, nats! "0 0 0", nats! "0 0 0"⟩⟩
noncomputable def l24 : Look := ⟨chars! "I41/amd:2", .tetragonal, .bodyCentered, nat! "159", ⟨⟨chars! "", 3, t1343, q! "24 0 0 6 0 24 0 0 0 0 24 0", trs! "0 38", gens! "38 1 1", words! ";0", false⟩, nats! "1 0 0 0", nats! "1 0 0 0"⟩⟩
noncomputable def l25 : Look := ⟨chars! "P4bm", .tetragonal, .primitive, nat! "118", ⟨⟨chars! "", 3, t121, q! "24 0 0 6 0 24 0 -6 0 0 24 0", trs! "0", gens! "", words! "", false⟩, nats! "0 0 0", nats! "0 0 0"⟩⟩
noncomputable def l26 : Look := ⟨chars! "P3212", .trigonal, .primitive, nat! "171", ⟨⟨chars! "", 3, t1344, q! "0 24 0 0 -24 24 0 0 0 0 24 4", trs! "0", gens! "", words! "", false⟩, nats! "0 0 0", nats! "0 0 0"⟩⟩
noncomputable def l27 : Look := ⟨chars! "P42/ncm:2", .tetragonal, .primitive, nat! "156", ⟨⟨chars! "", 3, t1345, q! "0 -24 0 0 24 0 0 0 0 0 24 6", trs! "0", gens! "", words! "", false⟩, nats! "0 0 0", nats! "0 0 0"⟩⟩
noncomputable def l28 : Look := ⟨chars! "R-3m:H", .trigonal, .rhombohedral, nat! "184", ⟨⟨chars! "", 3, t17, q! "-24 24 0 0 -24 0 0 0 0 0 24 0", trs! "0 380 383", gens! "380 513 2", words! ";0;0 0", false⟩, nats! "2 0 0 0", nats! "2 0 0 0"⟩⟩
noncomputable def l29 : Look := ⟨chars! "Pn-3m:2", .cubic, .primitive, nat! "242", ⟨⟨chars! "", 3, t331, q! "24 0 0 -6 0 24 0 6 0 0 24 -6", trs! "0", gens! "", words! "", false⟩, nats! "0 0 0", nats! "0 0 0"⟩⟩
noncomputable def l30 : Look := ⟨chars! "Immm", .orthorhombic, .bodyCentered, nat! "89", ⟨⟨chars! "", 3, t0, q! "24 0 0 0 0 24 0 0 0 0 24 0", trs! "0 38", gens! "38 1 1", words! ";0", false⟩, nats! "1 0 0 0", nats! "1 0 0 0"⟩⟩
noncomputable def l31 : Look := ⟨chars! "P121", .monoclinic, .primitive, nat! "21", ⟨⟨chars! "", 3, t669, q! "24 0 0 0 0 0 -24 0 0 24 0 0", trs! "0", gens! "", words! "", false⟩, nats! "0 0 0", nats! "0 0 0"⟩⟩
noncomputable def l32 : Look := ⟨chars! "Pmmm", .orthorhombic, .primitive, nat! "65", ⟨⟨chars! "", 3, t0, q! "24 0 0 0 0 24 0 0 0 0 24 0", trs! "0", gens! "", words! "", false⟩, nats! "0 0 0", nats! "0 0 0"⟩⟩
noncomputable def l33 : Look := ⟨chars! "I-43m", .cubic, .bodyCentered, nat! "235", ⟨⟨chars! "", 3, t0, q! "24 0 0 0 0 24 0 0 0 0 24 0", trs! "0 38", gens! "38 1 1", words! ";0", false⟩, nats! "1 0 0 0", nats! "1 0 0 0"⟩⟩
noncomputable def l34 : Look := ⟨chars! "P3c1", .trigonal, .primitive, nat! "176", ⟨⟨chars! "", 3, t17, q! "-24 24 0 0 -24 0 0 0 0 0 24 0", trs! "0", gens! "", words! "", false⟩, nats! "0 0 0", nats! "0 0 0"⟩⟩
noncomputable def l35 : Look := ⟨chars! "P1211", .monoclinic, .primitive, nat! "22", ⟨⟨chars! "", 3, t669, q! "24 0 0 0 0 0 -24 0 0 24 0 0", trs! "0", gens! "", words! "", false⟩, nats! "0 0 0", nats! "0 0 0"⟩⟩
noncomputable def l36 : Look := ⟨chars! "Pn-3n:2", .cubic, .primitive, nat! "240", ⟨⟨chars! "", 3, t252, q! "24 0 0 6 0 24 0 6 0 0 24 6", trs! "0", gens! "", words! "", false⟩, nats! "0 0 0", nats! "0 0 0"⟩⟩
noncomputable def l37 : Look := ⟨chars! "I-4c2", .tetragonal, .bodyCentered, nat! "138", ⟨⟨chars! "", 3, t279, q! "0 24 0 0 24 0 0 0 0 0 -24 6", trs! "0 38", gens! "38 1 1", words! ";0", false⟩, nats! "1 0 0 0", nats! "1 0 0 0"⟩⟩
noncomputable def l38 : Look := ⟨chars! "P42/mcm", .tetragonal, .primitive, nat! "150", ⟨⟨chars! "", 3, t1340, q! "24 0 0 0 0 24 0 0 0 0 24 6", trs! "0", gens! "", words! "", false⟩, nats! "0 0 0", nats! "0 0 0"⟩⟩
noncomputable def l39 : Look := ⟨chars! "R3c:H", .trigonal, .rhombohedral, nat! "179", ⟨⟨chars! "", 3, t17, q! "-24 24 0 0 -24 0 0 0 0 0 24 0", trs! "0 380 383", gens! "380 513 2", words! ";0;0 0", false⟩, nats! "2 0 0 0", nats! "2 0 0 0"⟩⟩
noncomputable def l40 : Look := ⟨chars! "P121/c1", .monoclinic, .primitive, nat! "32", ⟨⟨chars! "", 3, t1346, q! "24 0 0 0 0 0 -24 0 0 24 0 6", trs! "0", gens! "", words! "", false⟩, nats! "0 0 0", nats! "0 0 0"⟩⟩
noncomputable def l41 : Look := ⟨chars! "P-6", .hexagonal, .primitive, nat! "192", ⟨⟨chars! "", 3, t0, q! "24 0 0 0 0 24 0 0 0 0 24 0", trs! "0", gens! "", words! "", false⟩, nats! "0 0 0", nats! "0 0 0"⟩⟩
noncomputable def l42 : Look := ⟨chars! "P4/mbm", .tetragonal, .primitive, nat! "145", ⟨⟨chars! "", 3, t72, q! "24 0 0 6 0 24 0 6 0 0 24 0", trs! "0", gens! "", words! "", false⟩, nats! "0 0 0", nats! "0 0 0"⟩⟩
noncomputable def l43 : Look := ⟨chars! "P42bc", .tetragonal, .primitive, nat! "124", ⟨⟨chars! "", 3, t121, q! "24 0 0 6 0 24 0 -6 0 0 24 0", trs! "0", gens! "", words! "", false⟩, nats! "0 0 0", nats! "0 0 0"⟩⟩
noncomputable def l44 : Look := ⟨chars! "Aba2", .orthorhombic, .cFaceCentered, nat! "59", ⟨⟨chars! "", 3, t27, q! "0 0 24 0 24 0 0 0 0 24 0 0", trs! "0 35", gens! "35 1 1", words! ";0", false⟩, nats! "1 0 0 0", nats! "1 0 0 0"⟩⟩
noncomputable def l45 : Look := ⟨chars! "P12/c1", .monoclinic, .primitive, nat! "31", ⟨⟨chars! "", 3, t1346, q! "24 0 0 0 0 0 -24 0 0 24 0 6", trs! "0", gens! "", words! "", false⟩, nats! "0 0 0", nats! "0 0 0"⟩⟩
noncomputable def l46 : Look := ⟨chars! "P4/mnc", .tetragonal, .primitive, nat! "146", ⟨⟨chars! "", 3, t252, q! "24 0 0 6 0 24 0 6 0 0 24 6", trs! "0", gens! "", words! "", false⟩, nats! "0 0 0", nats! "0 0 0"⟩⟩
noncomputable def l47 : Look := ⟨chars! "P6422", .hexagonal, .primitive, nat! "199", ⟨⟨chars! "", 3, t1344, q! "0 24 0 0 -24 24 0 0 0 0 24 4", trs! "0", gens! "", words! "", false⟩, nats! "0 0 0", nats! "0 0 0"⟩⟩
noncomputable def l48 : Look := ⟨chars! "P6", .hexagonal, .primitive, nat! "186", ⟨⟨chars! "", 3, t0, q! "24 0 0 0 0 24 0 0 0 0 24 0", trs! "0", gens! "", words! "", false⟩, nats! "0 0 0", nats! "0 0 0"⟩⟩
noncomputable def l49 : Look := ⟨chars! "C1m1", .monoclinic, .aFaceCentered, nat! "26", ⟨⟨chars! "", 3, t28, q! "0 24 0 0 0 0 24 0 24 0 0 0", trs! "0 4", gens! "4 1 1", words! ";0", false⟩, nats! "1 0 0 0", nats! "1 0 0 0"⟩⟩
noncomputable def l50 : Look := ⟨chars! "P-4m2", .tetragonal, .primitive, nat! "133", ⟨⟨chars! "", 3, t269, q! "0 24 0 0 24 0 0 0 0 0 -24 0", trs! "0", gens! "", words! "", false⟩, nats! "0 0 0", nats! "0 0 0"⟩⟩
noncomputable def l51 : Look := ⟨chars! "P3112", .trigonal, .primitive, nat! "169", ⟨⟨chars! "", 3, t1347, q! "0 24 0 0 -24 24 0 0 0 0 24 8", trs! "0", gens! "", words! "", false⟩, nats! "0 0 0", nats! "0 0 0"⟩⟩
noncomputable def l52 : Look := ⟨chars! "Ibca", .orthorhombic, .bodyCentered, nat! "91", ⟨⟨chars! "", 3, t1348, q! "24 0 0 0 0 24 0 6 0 0 24 6", trs! "0 38", gens! "38 1 1", words! ";0", false⟩, nats! "1 0 0 0", nats! "1 0 0 0"⟩⟩
noncomputable def l53 : Look := ⟨chars! "P63/mcm", .hexagonal, .primitive, nat! "211", ⟨⟨chars! "", 3, t24, q! "0 24 0 0 -24 24 0 0 0 0 24 0", trs! "0", gens! "", words! "", false⟩, nats! "0 0 0", nats! "0 0 0"⟩⟩
noncomputable def l54 : Look := ⟨chars! "Fm-3", .cubic, .faceCentered, nat! "220", ⟨⟨chars! "", 3, t0, q! "24 0 0 0 0 24 0 0 0 0 24 0", trs! "0 35 42 4", gens! "35 33751041 1;42 16777986 2", words! ";0;1;1 0", false⟩, nats! "1 2 0 0 0", nats! "1 2 0 0 0"⟩⟩
noncomputable def l55 : Look := ⟨chars! "Pma2", .orthorhombic, .primitive, nat! "46", ⟨⟨chars! "", 3, t0, q! "24 0 0 0 0 24 0 0 0 0 24 0", trs! "0", gens! "", words! "", false⟩, nats! "0 0 0", nats! "0 0 0"⟩⟩
noncomputable def l56 : Look := ⟨chars! "R32:H", .trigonal, .rhombohedral, nat! "173", ⟨⟨chars! "", 3, t17, q! "-24 24 0 0 -24 0 0 0 0 0 24 0", trs! "0 380 383", gens! "380 513 2", words! ";0;0 0", false⟩, nats! "2 0 0 0", nats! "2 0 0 0"⟩⟩
noncomputable def l57 : Look := ⟨chars! "Pmna", .orthorhombic, .primitive, nat! "71", ⟨⟨chars! "", 3, t1343, q! "24 0 0 6 0 24 0 0 0 0 24 0", trs! "0", gens! "", words! "", false⟩, nats! "0 0 0", nats! "0 0 0"⟩⟩
noncomputable def l58 : Look := ⟨chars! "F-43m", .cubic, .faceCentered, nat! "234", ⟨⟨chars! "", 3, t0, q! "24 0 0 0 0 24 0 0 0 0 24 0", trs! "0 35 42 4", gens! "35 33751041 1;42 16777986 2", words! ";0;1;1 0", false⟩, nats! "1 2 0 0 0", nats! "1 2 0 0 0"⟩⟩
noncomputable def l59 : Look := ⟨chars! "P4/ncc:2", .tetragonal, .primitive, nat! "148", ⟨⟨chars! "", 3, t1345, q! "0 -24 0 0 24 0 0 0 0 0 24 6", trs! "0", gens! "", words! "", false⟩, nats! "0 0 0", nats! "0 0 0"⟩⟩
noncomputable def l60 : Look := ⟨chars! "P-4b2", .tetragonal, .primitive, nat! "135", ⟨⟨chars! "", 3, t1349, q! "0 24 0 6 24 0 0 18 0 0 -24 0", trs! "0", gens! "", words! "", false⟩, nats! "0 0 0", nats! "0 0 0"⟩⟩
noncomputable def l61 : Look := ⟨chars! "P42/m", .tetragonal, .primitive, nat! "102", ⟨⟨chars! "", 3, t0, q! "24 0 0 0 0 24 0 0 0 0 24 0", trs! "0", gens! "", words! "", false⟩, nats! "0 0 0", nats! "0 0 0"⟩⟩
noncomputable def l62 : Look := ⟨chars! "Pmm2", .orthorhombic, .primitive, nat! "43", ⟨⟨chars! "", 3, t0, q! "24 0 0 0 0 24 0 0 0 0 24 0", trs! "0", gens! "", words! "", false⟩, nats! "0 0 0", nats! "0 0 0"⟩⟩
noncomputable def l63 : Look := ⟨chars! "Pca21", .orthorhombic, .primitive, nat! "47", ⟨⟨chars! "", 3, t0, q! "24 0 0 0 0 24 0 0 0 0 24 0", trs! "0", gens! "", words! "", false⟩, nats! "0 0 0", nats! "0 0 0"⟩⟩
noncomputable def l64 : Look := ⟨chars! "Imm2", .orthorhombic, .bodyCentered, nat! "62", ⟨⟨chars! "", 3, t0, q! "24 0 0 0 0 24 0 0 0 0 24 0", trs! "0 38", gens! "38 1 1", words! ";0", false⟩, nats! "1 0 0 0", nats! "1 0 0 0"⟩⟩
noncomputable def l65 : Look := ⟨chars! "I41/acd:2", .tetragonal, .bodyCentered, nat! "160", ⟨⟨chars! "", 3, t1350, q! "-24 0 0 6 0 -24 0 0 0 0 24 6", trs! "0 38", gens! "38 1 1", words! ";0", false⟩, nats! "1 0 0 0", nats! "1 0 0 0"⟩⟩
noncomputable def l66 : Look := ⟨chars! "P4mm", .tetragonal, .primitive, nat! "117", ⟨⟨chars! "", 3, t0, q! "24 0 0 0 0 24 0 0 0 0 24 0", trs! "0", gens! "", words! "", false⟩, nats! "0 0 0", nats! "0 0 0"⟩⟩
noncomputable def l67 : Look := ⟨chars! "P6/m", .hexagonal, .primitive, nat! "193", ⟨⟨chars! "", 3, t0, q! "24 0 0 0 0 24 0 0 0 0 24 0", trs! "0", gens! "", words! "", false⟩, nats! "0 0 0", nats! "0 0 0"⟩⟩
noncomputable def l68 : Look := ⟨chars! "P42/nbc:2", .tetragonal, .primitive, nat! "151", ⟨⟨chars! "", 3, t72, q! "24 0 0 6 0 24 0 6 0 0 24 0", trs! "0", gens! "", words! "", false⟩, nats! "0 0 0", nats! "0 0 0"⟩⟩
noncomputable def l69 : Look := ⟨chars! "P-43m", .cubic, .primitive, nat! "233", ⟨⟨chars! "", 3, t0, q! "24 0 0 0 0 24 0 0 0 0 24 0", trs! "0", gens! "", words! "", false⟩, nats! "0 0 0", nats! "0 0 0"⟩⟩
noncomputable def l70 : Look := ⟨chars! "P42212", .tetragonal, .primitive, nat! "112", ⟨⟨chars! "", 3, t1351, q! "24 0 0 18 0 24 0 6 0 0 24 6", trs! "0", gens! "", words! "", false⟩, nats! "0 0 0", nats! "0 0 0"⟩⟩
noncomputable def l71 : Look := ⟨chars! "Iba2", .orthorhombic, .bodyCentered, nat! "63", ⟨⟨chars! "", 3, t0, q! "24 0 0 0 0 24 0 0 0 0 24 0", trs! "0 38", gens! "38 1 1", words! ";0", false⟩, nats! "1 0 0 0", nats! "1 0 0 0"⟩⟩
noncomputable def l72 : Look := ⟨chars! "I422", .tetragonal, .bodyCentered, nat! "115", ⟨⟨chars! "", 3, t12, q! "0 -24 0 0 24 0 0 0 0 0 24 0", trs! "0 38", gens! "38 1 1", words! ";0", false⟩, nats! "1 0 0 0", nats! "1 0 0 0"⟩⟩
noncomputable def l73 : Look := ⟨chars! "P222", .orthorhombic, .primitive, nat! "34", ⟨⟨chars! "", 3, t0, q! "24 0 0 0 0 24 0 0 0 0 24 0", trs! "0", gens! "", words! "", false⟩, nats! "0 0 0", nats! "0 0 0"⟩⟩
noncomputable def l74 : Look := ⟨chars! "P6522", .hexagonal, .primitive, nat! "197", ⟨⟨chars! "", 3, t1352, q! "0 24 0 0 -24 24 0 0 0 0 24 2", trs! "0", gens! "", words! "", false⟩, nats! "0 0 0", nats! "0 0 0"⟩⟩
noncomputable def l75 : Look := ⟨chars! "I213", .cubic, .bodyCentered, nat! "217", ⟨⟨chars! "", 3, t0, q! "24 0 0 0 0 24 0 0 0 0 24 0", trs! "0 38", gens! "38 1 1", words! ";0", false⟩, nats! "1 0 0 0", nats! "1 0 0 0"⟩⟩
noncomputable def l76 : Look := ⟨chars! "P4222", .tetragonal, .primitive, nat! "111", ⟨⟨chars! "", 3, t0, q! "24 0 0 0 0 24 0 0 0 0 24 0", trs! "0", gens! "", words! "", false⟩, nats! "0 0 0", nats! "0 0 0"⟩⟩
noncomputable def l77 : Look := ⟨chars! "I4122", .tetragonal, .bodyCentered, nat! "116", ⟨⟨chars! "", 3, t1353, q! "24 0 0 -6 0 24 0 6 0 0 24 3", trs! "0 38", gens! "38 1 1", words! ";0", false⟩, nats! "1 0 0 0", nats! "1 0 0 0"⟩⟩
noncomputable def l78 : Look := ⟨chars! "P4122", .tetragonal, .primitive, nat! "109", ⟨⟨chars! "", 3, t1340, q! "24 0 0 0 0 24 0 0 0 0 24 6", trs! "0", gens! "", words! "", false⟩, nats! "0 0 0", nats! "0 0 0"⟩⟩
noncomputable def l79 : Look := ⟨chars! "Cmma", .orthorhombic, .cFaceCentered, nat! "85", ⟨⟨chars! "", 3, t1343, q! "24 0 0 6 0 24 0 0 0 0 24 0", trs! "0 4", gens! "4 1 1", words! ";0", false⟩, nats! "1 0 0 0", nats! "1 0 0 0"⟩⟩
noncomputable def l80 : Look := ⟨chars! "F432", .cubic, .faceCentered, nat! "227", ⟨⟨chars! "", 3, t0, q! "24 0 0 0 0 24 0 0 0 0 24 0", trs! "0 35 42 4", gens! "35 33751041 1;42 16777986 2", words! ";0;1;1 0", false⟩, nats! "1 2 0 0 0", nats! "1 2 0 0 0"⟩⟩
noncomputable def l81 : Look := ⟨chars! "P23", .cubic, .primitive, nat! "213", ⟨⟨chars! "", 3, t0, q! "24 0 0 0 0 24 0 0 0 0 24 0", trs! "0", gens! "", words! "", false⟩, nats! "0 0 0", nats! "0 0 0"⟩⟩
noncomputable def l82 : Look := ⟨chars! "Pnna", .orthorhombic, .primitive, nat! "70", ⟨⟨chars! "", 3, t1354, q! "24 0 0 6 0 24 0 0 0 0 24 6", trs! "0", gens! "", words! "", false⟩, nats! "0 0 0", nats! "0 0 0"⟩⟩
noncomputable def l83 : Look := ⟨chars! "P3121", .trigonal, .primitive, nat! "170", ⟨⟨chars! "", 3, t17, q! "-24 24 0 0 -24 0 0 0 0 0 24 0", trs! "0", gens! "", words! "", false⟩, nats! "0 0 0", nats! "0 0 0"⟩⟩
noncomputable def l84 : Look := ⟨chars! "Pm-3n", .cubic, .primitive, nat! "241", ⟨⟨chars! "", 3, t1355, q! "24 0 0 0 0 24 0 12 0 0 24 0", trs! "0", gens! "", words! "", false⟩, nats! "0 0 0", nats! "0 0 0"⟩⟩
noncomputable def l85 : Look := ⟨chars! "Pm-3m", .cubic, .primitive, nat! "239", ⟨⟨chars! "", 3, t0, q! "24 0 0 0 0 24 0 0 0 0 24 0", trs! "0", gens! "", words! "", false⟩, nats! "0 0 0", nats! "0 0 0"⟩⟩
noncomputable def l86 : Look := ⟨chars! "F222", .orthorhombic, .faceCentered, nat! "40", ⟨⟨chars! "", 3, t0, q! "24 0 0 0 0 24 0 0 0 0 24 0", trs! "0 35 42 4", gens! "35 33751041 1;42 16777986 2", words! ";0;1;1 0", false⟩, nats! "1 2 0 0 0", nats! "1 2 0 0 0"⟩⟩
noncomputable def l87 : Look := ⟨chars! "P6222", .hexagonal, .primitive, nat! "198", ⟨⟨chars! "", 3, t1347, q! "0 24 0 0 -24 24 0 0 0 0 24 8", trs! "0", gens! "", words! "", false⟩, nats! "0 0 0", nats! "0 0 0"⟩⟩
noncomputable def l88 : Look := ⟨chars! "Amm2", .orthorhombic, .cFaceCentered, nat! "56", ⟨⟨chars! "", 3, t27, q! "0 0 24 0 24 0 0 0 0 24 0 0", trs! "0 35", gens! "35 1 1", words! ";0", false⟩, nats! "1 0 0 0", nats! "1 0 0 0"⟩⟩
noncomputable def l89 : Look := ⟨chars! "Pban:2", .orthorhombic, .primitive, nat! "68", ⟨⟨chars! "", 3, t72, q! "24 0 0 6 0 24 0 6 0 0 24 0", trs! "0", gens! "", words! "", false⟩, nats! "0 0 0", nats! "0 0 0"⟩⟩
noncomputable def l90 : Look := ⟨chars! "P4/mmm", .tetragonal, .primitive, nat! "141", ⟨⟨chars! "", 3, t0, q! "24 0 0 0 0 24 0 0 0 0 24 0", trs! "0", gens! "", words! "", false⟩, nats! "0 0 0", nats! "0 0 0"⟩⟩
noncomputable def l91 : Look := ⟨chars! "P43", .tetragonal, .primitive, nat! "96", ⟨⟨chars! "", 3, t0, q! "24 0 0 0 0 24 0 0 0 0 24 0", trs! "0", gens! "", words! "", false⟩, nats! "0 0 0", nats! "0 0 0"⟩⟩
noncomputable def l92 : Look := ⟨chars! "F23", .cubic, .faceCentered, nat! "214", ⟨⟨chars! "", 3, t0, q! "24 0 0 0 0 24 0 0 0 0 24 0", trs! "0 35 42 4", gens! "35 33751041 1;42 16777986 2", words! ";0;1;1 0", false⟩, nats! "1 2 0 0 0", nats! "1 2 0 0 0"⟩⟩
noncomputable def l93 : Look := ⟨chars! "Pmc21", .orthorhombic, .primitive, nat! "44", ⟨⟨chars! "", 3, t0, q! "24 0 0 0 0 24 0 0 0 0 24 0", trs! "0", gens! "", words! "", false⟩, nats! "0 0 0", nats! "0 0 0"⟩⟩
noncomputable def l94 : Look := ⟨chars! "P622", .hexagonal, .primitive, nat! "195", ⟨⟨chars! "", 3, t24, q! "0 24 0 0 -24 24 0 0 0 0 24 0", trs! "0", gens! "", words! "", false⟩, nats! "0 0 0", nats! "0 0 0"⟩⟩
noncomputable def l95 : Look := ⟨chars! "P42nm", .tetragonal, .primitive, nat! "120", ⟨⟨chars! "", 3, t72, q! "24 0 0 6 0 24 0 6 0 0 24 0", trs! "0", gens! "", words! "", false⟩, nats! "0 0 0", nats! "0 0 0"⟩⟩
noncomputable def l96 : Look := ⟨chars! "P-31m", .trigonal, .primitive, nat! "180", ⟨⟨chars! "", 3, t24, q! "0 24 0 0 -24 24 0 0 0 0 24 0", trs! "0", gens! "", words! "", false⟩, nats! "0 0 0", nats! "0 0 0"⟩⟩
noncomputable def l97 : Look := ⟨chars! "P312", .trigonal, .primitive, nat! "167", ⟨⟨chars! "", 3, t24, q! "0 24 0 0 -24 24 0 0 0 0 24 0", trs! "0", gens! "", words! "", false⟩, nats! "0 0 0", nats! "0 0 0"⟩⟩
noncomputable def l98 : Look := ⟨chars! "I41", .tetragonal, .bodyCentered, nat! "98", ⟨⟨chars! "", 3, t245, q! "24 0 0 -6 0 24 0 6 0 0 24 0", trs! "0 38", gens! "38 1 1", words! ";0", false⟩, nats! "1 0 0 0", nats! "1 0 0 0"⟩⟩
noncomputable def l99 : Look := ⟨chars! "I4132", .cubic, .bodyCentered, nat! "232", ⟨⟨chars! "", 3, t1356, q! "24 0 0 -6 0 24 0 12 0 0 24 -6", trs! "0 38", gens! "38 1 1", words! ";0", false⟩, nats! "1 0 0 0", nats! "1 0 0 0"⟩⟩
noncomputable def l100 : Look := ⟨chars! "C12/m1", .monoclinic, .aFaceCentered, nat! "30", ⟨⟨chars! "", 3, t28, q! "0 24 0 0 0 0 24 0 24 0 0 0", trs! "0 4", gens! "4 1 1", words! ";0", false⟩, nats! "1 0 0 0", nats! "1 0 0 0"⟩⟩
noncomputable def l101 : Look := ⟨chars! "P4nc", .tetragonal, .primitive, nat! "122", ⟨⟨chars! "", 3, t121, q! "24 0 0 6 0 24 0 -6 0 0 24 0", trs! "0", gens! "", words! "", false⟩, nats! "0 0 0", nats! "0 0 0"⟩⟩
noncomputable def l102 : Look := ⟨chars! "Pnn2", .orthorhombic, .primitive, nat! "52", ⟨⟨chars! "", 3, t0, q! "24 0 0 0 0 24 0 0 0 0 24 0", trs! "0", gens! "", words! "", false⟩, nats! "0 0 0", nats! "0 0 0"⟩⟩
noncomputable def l103 : Look := ⟨chars! "P4232", .cubic, .primitive, nat! "226", ⟨⟨chars! "", 3, t1355, q! "24 0 0 0 0 24 0 12 0 0 24 0", trs! "0", gens! "", words! "", false⟩, nats! "0 0 0", nats! "0 0 0"⟩⟩
noncomputable def l104 : Look := ⟨chars! "P42/mbc", .tetragonal, .primitive, nat! "153", ⟨⟨chars! "", 3, t72, q! "24 0 0 6 0 24 0 6 0 0 24 0", trs! "0", gens! "", words! "", false⟩, nats! "0 0 0", nats! "0 0 0"⟩⟩
noncomputable def l105 : Look := ⟨chars! "P-4", .tetragonal, .primitive, nat! "99", ⟨⟨chars! "", 3, t29, q! "24 0 0 0 0 -24 0 0 0 0 -24 0", trs! "0", gens! "", words! "", false⟩, nats! "0 0 0", nats! "0 0 0"⟩⟩
noncomputable def l106 : Look := ⟨chars! "R3:H", .trigonal, .rhombohedral, nat! "164", ⟨⟨chars! "", 3, t0, q! "24 0 0 0 0 24 0 0 0 0 24 0", trs! "0 380 383", gens! "380 513 2", words! ";0;0 0", false⟩, nats! "2 0 0 0", nats! "2 0 0 0"⟩⟩
noncomputable def l107 : Look := ⟨chars! "Ibam", .orthorhombic, .bodyCentered, nat! "90", ⟨⟨chars! "", 3, t1340, q! "24 0 0 0 0 24 0 0 0 0 24 6", trs! "0 38", gens! "38 1 1", words! ";0", false⟩, nats! "1 0 0 0", nats! "1 0 0 0"⟩⟩
noncomputable def l108 : Look := ⟨chars! "P32", .trigonal, .primitive, nat! "163", ⟨⟨chars! "", 3, t24, q! "0 24 0 0 -24 24 0 0 0 0 24 0", trs! "0", gens! "", words! "", false⟩, nats! "0 0 0", nats! "0 0 0"⟩⟩
noncomputable def l109 : Look := ⟨chars! "R3m:H", .trigonal, .rhombohedral, nat! "178", ⟨⟨chars! "", 3, t17, q! "-24 24 0 0 -24 0 0 0 0 0 24 0", trs! "0 380 383", gens! "380 513 2", words! ";0;0 0", false⟩, nats! "2 0 0 0", nats! "2 0 0 0"⟩⟩
noncomputable def l110 : Look := ⟨chars! "P31", .trigonal, .primitive, nat! "162", ⟨⟨chars! "", 3, t24, q! "0 24 0 0 -24 24 0 0 0 0 24 0", trs! "0", gens! "", words! "", false⟩, nats! "0 0 0", nats! "0 0 0"⟩⟩
noncomputable def l111 : Look := ⟨chars! "P12/m1", .monoclinic, .primitive, nat! "28", ⟨⟨chars! "", 3, t669, q! "24 0 0 0 0 0 -24 0 0 24 0 0", trs! "0", gens! "", words! "", false⟩, nats! "0 0 0", nats! "0 0 0"⟩⟩
noncomputable def l112 : Look := ⟨chars! "P3221", .trigonal, .primitive, nat! "172", ⟨⟨chars! "", 3, t17, q! "-24 24 0 0 -24 0 0 0 0 0 24 0", trs! "0", gens! "", words! "", false⟩, nats! "0 0 0", nats! "0 0 0"⟩⟩
noncomputable def l113 : Look := ⟨chars! "Ia-3", .cubic, .bodyCentered, nat! "224", ⟨⟨chars! "", 3, t0, q! "24 0 0 0 0 24 0 0 0 0 24 0", trs! "0 38", gens! "38 1 1", words! ";0", false⟩, nats! "1 0 0 0", nats! "1 0 0 0"⟩⟩
noncomputable def l114 : Look := ⟨chars! "Pmn21", .orthorhombic, .primitive, nat! "49", ⟨⟨chars! "", 3, t1343, q! "24 0 0 6 0 24 0 0 0 0 24 0", trs! "0", gens! "", words! "", false⟩, nats! "0 0 0", nats! "0 0 0"⟩⟩
noncomputable def l115 : Look := ⟨chars! "P31m", .trigonal, .primitive, nat! "175", ⟨⟨chars! "", 3, t24, q! "0 24 0 0 -24 24 0 0 0 0 24 0", trs! "0", gens! "", words! "", false⟩, nats! "0 0 0", nats! "0 0 0"⟩⟩
noncomputable def l116 : Look := ⟨chars! "C2221", .orthorhombic, .cFaceCentered, nat! "38", ⟨⟨chars! "", 3, t0, q! "24 0 0 0 0 24 0 0 0 0 24 0", trs! "0 4", gens! "4 1 1", words! ";0", false⟩, nats! "1 0 0 0", nats! "1 0 0 0"⟩⟩
noncomputable def l117 : Look := ⟨chars! "Pn-3:2", .cubic, .primitive, nat! "219", ⟨⟨chars! "", 3, t252, q! "24 0 0 6 0 24 0 6 0 0 24 6", trs! "0", gens! "", words! "", false⟩, nats! "0 0 0", nats! "0 0 0"⟩⟩
noncomputable def l118 : Look := ⟨chars! "I41/a:2", .tetragonal, .bodyCentered, nat! "106", ⟨⟨chars! "", 3, t1357, q! "0 -24 0 6 24 0 0 12 0 0 24 0", trs! "0 38", gens! "38 1 1", words! ";0", false⟩, nats! "1 0 0 0", nats! "1 0 0 0"⟩⟩
noncomputable def l119 : Look := ⟨chars! "I432", .cubic, .bodyCentered, nat! "229", ⟨⟨chars! "", 3, t0, q! "24 0 0 0 0 24 0 0 0 0 24 0", trs! "0 38", gens! "38 1 1", words! ";0", false⟩, nats! "1 0 0 0", nats! "1 0 0 0"⟩⟩
noncomputable def l120 : Look := ⟨chars! "P-42m", .tetragonal, .primitive, nat! "129", ⟨⟨chars! "", 3, t29, q! "24 0 0 0 0 -24 0 0 0 0 -24 0", trs! "0", gens! "", words! "", false⟩, nats! "0 0 0", nats! "0 0 0"⟩⟩
noncomputable def l121 : Look := ⟨chars! "Pnc2", .orthorhombic, .primitive, nat! "48", ⟨⟨chars! "", 3, t0, q! "24 0 0 0 0 24 0 0 0 0 24 0", trs! "0", gens! "", words! "", false⟩, nats! "0 0 0", nats! "0 0 0"⟩⟩
noncomputable def l122 : Look := ⟨chars! "Imma", .orthorhombic, .bodyCentered, nat! "92", ⟨⟨chars! "", 3, t1358, q! "24 0 0 0 0 24 0 6 0 0 24 0", trs! "0 38", gens! "38 1 1", words! ";0", false⟩, nats! "1 0 0 0", nats! "1 0 0 0"⟩⟩
noncomputable def l123 : Look := ⟨chars! "F-43c", .cubic, .faceCentered, nat! "237", ⟨⟨chars! "", 3, t1359, q! "24 0 0 0 0 24 0 -12 0 0 24 0", trs! "0 35 42 4", gens! "35 33751041 1;42 16777986 2", words! ";0;1;1 0", false⟩, nats! "1 2 0 0 0", nats! "1 2 0 0 0"⟩⟩
noncomputable def l124 : Look := ⟨chars! "Pbcm", .orthorhombic, .primitive, nat! "75", ⟨⟨chars! "", 3, t0, q! "24 0 0 0 0 24 0 0 0 0 24 0", trs! "0", gens! "", words! "", false⟩, nats! "0 0 0", nats! "0 0 0"⟩⟩
noncomputable def l125 : Look := ⟨chars! "P63/mmc", .hexagonal, .primitive, nat! "212", ⟨⟨chars! "", 3, t1342, q! "0 24 0 0 -24 24 0 0 0 0 24 6", trs! "0", gens! "", words! "", false⟩, nats! "0 0 0", nats! "0 0 0"⟩⟩
noncomputable def l126 : Look := ⟨chars! "Pbca", .orthorhombic, .primitive, nat! "79", ⟨⟨chars! "", 3, t1343, q! "24 0 0 6 0 24 0 0 0 0 24 0", trs! "0", gens! "", words! "", false⟩, nats! "0 0 0", nats! "0 0 0"⟩⟩
noncomputable def l127 : Look := ⟨chars! "Ccc2", .orthorhombic, .cFaceCentered, nat! "55", ⟨⟨chars! "", 3, t0, q! "24 0 0 0 0 24 0 0 0 0 24 0", trs! "0 4", gens! "4 1 1", words! ";0", false⟩, nats! "1 0 0 0", nats! "1 0 0 0"⟩⟩
noncomputable def l128 : Look := ⟨chars! "P-4n2", .tetragonal, .primitive, nat! "136", ⟨⟨chars! "", 3, t1360, q! "0 24 0 6 24 0 0 18 0 0 -24 6", trs! "0", gens! "", words! "", false⟩, nats! "0 0 0", nats! "0 0 0"⟩⟩
noncomputable def l129 : Look := ⟨chars! "I4cm", .tetragonal, .bodyCentered, nat! "126", ⟨⟨chars! "", 3, t12, q! "0 -24 0 0 24 0 0 0 0 0 24 0", trs! "0 38", gens! "38 1 1", words! ";0", false⟩, nats! "1 0 0 0", nats! "1 0 0 0"⟩⟩
noncomputable def l130 : Look := ⟨chars! "P6122", .hexagonal, .primitive, nat! "196", ⟨⟨chars! "", 3, t1361, q! "0 24 0 0 -24 24 0 0 0 0 24 10", trs! "0", gens! "", words! "", false⟩, nats! "0 0 0", nats! "0 0 0"⟩⟩
noncomputable def l131 : Look := ⟨chars! "Cmmm", .orthorhombic, .cFaceCentered, nat! "83", ⟨⟨chars! "", 3, t0, q! "24 0 0 0 0 24 0 0 0 0 24 0", trs! "0 4", gens! "4 1 1", words! ";0", false⟩, nats! "1 0 0 0", nats! "1 0 0 0"⟩⟩
noncomputable def l132 : Look := ⟨chars! "P-6c2", .hexagonal, .primitive, nat! "206", ⟨⟨chars! "", 3, t24, q! "0 24 0 0 -24 24 0 0 0 0 24 0", trs! "0", gens! "", words! "", false⟩, nats! "0 0 0", nats! "0 0 0"⟩⟩
noncomputable def l133 : Look := ⟨chars! "I222", .orthorhombic, .bodyCentered, nat! "41", ⟨⟨chars! "", 3, t0, q! "24 0 0 0 0 24 0 0 0 0 24 0", trs! "0 38", gens! "38 1 1", words! ";0", false⟩, nats! "1 0 0 0", nats! "1 0 0 0"⟩⟩
noncomputable def l134 : Look := ⟨chars! "P42/n:2", .tetragonal, .primitive, nat! "104", ⟨⟨chars! "", 3, t1362, q! "0 -24 0 -6 24 0 0 6 0 0 24 0", trs! "0", gens! "", words! "", false⟩, nats! "0 0 0", nats! "0 0 0"⟩⟩
noncomputable def l135 : Look := ⟨chars! "Pnnn:2", .orthorhombic, .primitive, nat! "66", ⟨⟨chars! "", 3, t252, q! "24 0 0 6 0 24 0 6 0 0 24 6", trs! "0", gens! "", words! "", false⟩, nats! "0 0 0", nats! "0 0 0"⟩⟩
noncomputable def l136 : Look := ⟨chars! "Cmca", .orthorhombic, .cFaceCentered, nat! "82", ⟨⟨chars! "", 3, t1343, q! "24 0 0 6 0 24 0 0 0 0 24 0", trs! "0 4", gens! "4 1 1", words! ";0", false⟩, nats! "1 0 0 0", nats! "1 0 0 0"⟩⟩
noncomputable def l137 : Look := ⟨chars! "I-43d", .cubic, .bodyCentered, nat! "238", ⟨⟨chars! "", 3, t1363, q! "24 0 0 3 0 24 0 -3 0 0 24 3", trs! "0 38", gens! "38 1 1", words! ";0", false⟩, nats! "1 0 0 0", nats! "1 0 0 0"⟩⟩
noncomputable def l138 : Look := ⟨chars! "Pba2", .orthorhombic, .primitive, nat! "50", ⟨⟨chars! "", 3, t0, q! "24 0 0 0 0 24 0 0 0 0 24 0", trs! "0", gens! "", words! "", false⟩, nats! "0 0 0", nats! "0 0 0"⟩⟩
noncomputable def l139 : Look := ⟨chars! "P-3m1", .trigonal, .primitive, nat! "182", ⟨⟨chars! "", 3, t17, q! "-24 24 0 0 -24 0 0 0 0 0 24 0", trs! "0", gens! "", words! "", false⟩, nats! "0 0 0", nats! "0 0 0"⟩⟩
noncomputable def l140 : Look := ⟨chars! "R-3:H", .trigonal, .rhombohedral, nat! "166", ⟨⟨chars! "", 3, t0, q! "24 0 0 0 0 24 0 0 0 0 24 0", trs! "0 380 383", gens! "380 513 2", words! ";0;0 0", false⟩, nats! "2 0 0 0", nats! "2 0 0 0"⟩⟩
noncomputable def l141 : Look := ⟨chars! "Pcc2", .orthorhombic, .primitive, nat! "45", ⟨⟨chars! "", 3, t0, q! "24 0 0 0 0 24 0 0 0 0 24 0", trs! "0", gens! "", words! "", false⟩, nats! "0 0 0", nats! "0 0 0"⟩⟩
noncomputable def l142 : Look := ⟨chars! "Cmcm", .orthorhombic, .cFaceCentered, nat! "81", ⟨⟨chars! "", 3, t0, q! "24 0 0 0 0 24 0 0 0 0 24 0", trs! "0 4", gens! "4 1 1", words! ";0", false⟩, nats! "1 0 0 0", nats! "1 0 0 0"⟩⟩
noncomputable def l143 : Look := ⟨chars! "C121", .monoclinic, .aFaceCentered, nat! "23", ⟨⟨chars! "", 3, t28, q! "0 24 0 0 0 0 24 0 24 0 0 0", trs! "0 4", gens! "4 1 1", words! ";0", false⟩, nats! "1 0 0 0", nats! "1 0 0 0"⟩⟩
noncomputable def l144 : Look := ⟨chars! "Ccca:2", .orthorhombic, .cFaceCentered, nat! "86", ⟨⟨chars! "", 3, t1354, q! "24 0 0 6 0 24 0 0 0 0 24 6", trs! "0 4", gens! "4 1 1", words! ";0", false⟩, nats! "1 0 0 0", nats! "1 0 0 0"⟩⟩
noncomputable def l145 : Look := ⟨chars! "P42", .tetragonal, .primitive, nat! "95", ⟨⟨chars! "", 3, t0, q! "24 0 0 0 0 24 0 0 0 0 24 0", trs! "0", gens! "", words! "", false⟩, nats! "0 0 0", nats! "0 0 0"⟩⟩
noncomputable def l146 : Look := ⟨chars! "P41", .tetragonal, .primitive, nat! "94", ⟨⟨chars! "", 3, t0, q! "24 0 0 0 0 24 0 0 0 0 24 0", trs! "0", gens! "", words! "", false⟩, nats! "0 0 0", nats! "0 0 0"⟩⟩
noncomputable def l147 : Look := ⟨chars! "Ima2", .orthorhombic, .bodyCentered, nat! "64", ⟨⟨chars! "", 3, t0, q! "24 0 0 0 0 24 0 0 0 0 24 0", trs! "0 38", gens! "38 1 1", words! ";0", false⟩, nats! "1 0 0 0", nats! "1 0 0 0"⟩⟩
noncomputable def l148 : Look := ⟨chars! "P6/mmm", .hexagonal, .primitive, nat! "209", ⟨⟨chars! "", 3, t24, q! "0 24 0 0 -24 24 0 0 0 0 24 0", trs! "0", gens! "", words! "", false⟩, nats! "0 0 0", nats! "0 0 0"⟩⟩
noncomputable def l149 : Look := ⟨chars! "P4132", .cubic, .primitive, nat! "231", ⟨⟨chars! "", 3, t1356, q! "24 0 0 -6 0 24 0 12 0 0 24 -6", trs! "0", gens! "", words! "", false⟩, nats! "0 0 0", nats! "0 0 0"⟩⟩
noncomputable def l150 : Look := ⟨chars! "P6322", .hexagonal, .primitive, nat! "200", ⟨⟨chars! "", 3, t1342, q! "0 24 0 0 -24 24 0 0 0 0 24 6", trs! "0", gens! "", words! "", false⟩, nats! "0 0 0", nats! "0 0 0"⟩⟩
noncomputable def l151 : Look := ⟨chars! "P42/nnm:2", .tetragonal, .primitive, nat! "152", ⟨⟨chars! "", 3, t252, q! "24 0 0 6 0 24 0 6 0 0 24 6", trs! "0", gens! "", words! "", false⟩, nats! "0 0 0", nats! "0 0 0"⟩⟩
noncomputable def l152 : Look := ⟨chars! "P432", .cubic, .primitive, nat! "225", ⟨⟨chars! "", 3, t0, q! "24 0 0 0 0 24 0 0 0 0 24 0", trs! "0", gens! "", words! "", false⟩, nats! "0 0 0", nats! "0 0 0"⟩⟩
noncomputable def l153 : Look := ⟨chars! "P6mm", .hexagonal, .primitive, nat! "201", ⟨⟨chars! "", 3, t24, q! "0 24 0 0 -24 24 0 0 0 0 24 0", trs! "0", gens! "", words! "", false⟩, nats! "0 0 0", nats! "0 0 0"⟩⟩
noncomputable def l154 : Look := ⟨chars! "I-4", .tetragonal, .bodyCentered, nat! "100", ⟨⟨chars! "", 3, t270, q! "0 -24 0 0 -24 0 0 0 0 0 -24 0", trs! "0 38", gens! "38 1 1", words! ";0", false⟩, nats! "1 0 0 0", nats! "1 0 0 0"⟩⟩
noncomputable def l155 : Look := ⟨chars! "C1c1", .monoclinic, .aFaceCentered, nat! "27", ⟨⟨chars! "", 3, t28, q! "0 24 0 0 0 0 24 0 24 0 0 0", trs! "0 4", gens! "4 1 1", words! ";0", false⟩, nats! "1 0 0 0", nats! "1 0 0 0"⟩⟩
noncomputable def l156 : Look := ⟨chars! "Im-3", .cubic, .bodyCentered, nat! "222", ⟨⟨chars! "", 3, t0, q! "24 0 0 0 0 24 0 0 0 0 24 0", trs! "0 38", gens! "38 1 1", words! ";0", false⟩, nats! "1 0 0 0", nats! "1 0 0 0"⟩⟩
noncomputable def l157 : Look := ⟨chars! "I41md", .tetragonal, .bodyCentered, nat! "127", ⟨⟨chars! "", 3, t0, q! "24 0 0 0 0 24 0 0 0 0 24 0", trs! "0 38", gens! "38 1 1", words! ";0", false⟩, nats! "1 0 0 0", nats! "1 0 0 0"⟩⟩
noncomputable def l158 : Look := ⟨chars! "P4/nmm:2", .tetragonal, .primitive, nat! "147", ⟨⟨chars! "", 3, t12, q! "0 -24 0 0 24 0 0 0 0 0 24 0", trs! "0", gens! "", words! "", false⟩, nats! "0 0 0", nats! "0 0 0"⟩⟩
noncomputable def l159 : Look := ⟨chars! "P1c1", .monoclinic, .primitive, nat! "25", ⟨⟨chars! "", 3, t669, q! "24 0 0 0 0 0 -24 0 0 24 0 0", trs! "0", gens! "", words! "", false⟩, nats! "0 0 0", nats! "0 0 0"⟩⟩
noncomputable def l160 : Look := ⟨chars! "P43212", .tetragonal, .primitive, nat! "114", ⟨⟨chars! "", 3, t1364, q! "0 -24 0 -6 24 0 0 6 0 0 24 3", trs! "0", gens! "", words! "", false⟩, nats! "0 0 0", nats! "0 0 0"⟩⟩
noncomputable def l161 : Look := ⟨chars! "P42/mnm", .tetragonal, .primitive, nat! "154", ⟨⟨chars! "", 3, t1351, q! "24 0 0 18 0 24 0 6 0 0 24 6", trs! "0", gens! "", words! "", false⟩, nats! "0 0 0", nats! "0 0 0"⟩⟩
noncomputable def l162 : Look := ⟨chars! "Pccn", .orthorhombic, .primitive, nat! "74", ⟨⟨chars! "", 3, t252, q! "24 0 0 6 0 24 0 6 0 0 24 6", trs! "0", gens! "", words! "", false⟩, nats! "0 0 0", nats! "0 0 0"⟩⟩
noncomputable def l163 : Look := ⟨chars! "P4332", .cubic, .primitive, nat! "230", ⟨⟨chars! "", 3, t1365, q! "24 0 0 6 0 24 0 12 0 0 24 6", trs! "0", gens! "", words! "", false⟩, nats! "0 0 0", nats! "0 0 0"⟩⟩
noncomputable def l164 : Look := ⟨chars! "Pccm", .orthorhombic, .primitive, nat! "67", ⟨⟨chars! "", 3, t1340, q! "24 0 0 0 0 24 0 0 0 0 24 6", trs! "0", gens! "", words! "", false⟩, nats! "0 0 0", nats! "0 0 0"⟩⟩
noncomputable def l165 : Look := ⟨chars! "P21212", .orthorhombic, .primitive, nat! "36", ⟨⟨chars! "", 3, t0, q! "24 0 0 0 0 24 0 0 0 0 24 0", trs! "0", gens! "", words! "", false⟩, nats! "0 0 0", nats! "0 0 0"⟩⟩
noncomputable def l166 : Look := ⟨chars! "Cmc21", .orthorhombic, .cFaceCentered, nat! "54", ⟨⟨chars! "", 3, t0, q! "24 0 0 0 0 24 0 0 0 0 24 0", trs! "0 4", gens! "4 1 1", words! ";0", false⟩, nats! "1 0 0 0", nats! "1 0 0 0"⟩⟩
noncomputable def l167 : Look := ⟨chars! "Pcca", .orthorhombic, .primitive, nat! "72", ⟨⟨chars! "", 3, t1354, q! "24 0 0 6 0 24 0 0 0 0 24 6", trs! "0", gens! "", words! "", false⟩, nats! "0 0 0", nats! "0 0 0"⟩⟩
noncomputable def l168 : Look := ⟨chars! "Pbam", .orthorhombic, .primitive, nat! "73", ⟨⟨chars! "", 3, t0, q! "24 0 0 0 0 24 0 0 0 0 24 0", trs! "0", gens! "", words! "", false⟩, nats! "0 0 0", nats! "0 0 0"⟩⟩
noncomputable def l169 : Look := ⟨chars! "I4/mcm", .tetragonal, .bodyCentered, nat! "158", ⟨⟨chars! "", 3, t1340, q! "24 0 0 0 0 24 0 0 0 0 24 6", trs! "0 38", gens! "38 1 1", words! ";0", false⟩, nats! "1 0 0 0", nats! "1 0 0 0"⟩⟩
noncomputable def l170 : Look := ⟨chars! "I-42d", .tetragonal, .bodyCentered, nat! "140", ⟨⟨chars! "", 3, t1366, q! "24 0 0 6 0 -24 0 6 0 0 -24 3", trs! "0 38", gens! "38 1 1", words! ";0", false⟩, nats! "1 0 0 0", nats! "1 0 0 0"⟩⟩
noncomputable def l171 : Look := ⟨chars! "Im-3m", .cubic, .bodyCentered, nat! "247", ⟨⟨chars! "", 3, t0, q! "24 0 0 0 0 24 0 0 0 0 24 0", trs! "0 38", gens! "38 1 1", words! ";0", false⟩, nats! "1 0 0 0", nats! "1 0 0 0"⟩⟩
noncomputable def l172 : Look := ⟨chars! "Cmm2", .orthorhombic, .cFaceCentered, nat! "53", ⟨⟨chars! "", 3, t0, q! "24 0 0 0 0 24 0 0 0 0 24 0", trs! "0 4", gens! "4 1 1", words! ";0", false⟩, nats! "1 0 0 0", nats! "1 0 0 0"⟩⟩
noncomputable def l173 : Look := ⟨chars! "P-42c", .tetragonal, .primitive, nat! "130", ⟨⟨chars! "", 3, t1367, q! "24 0 0 0 0 -24 0 0 0 0 -24 6", trs! "0", gens! "", words! "", false⟩, nats! "0 0 0", nats! "0 0 0"⟩⟩
noncomputable def l174 : Look := ⟨chars! "I-42m", .tetragonal, .bodyCentered, nat! "139", ⟨⟨chars! "", 3, t26, q! "-24 0 0 0 0 24 0 0 0 0 -24 0", trs! "0 38", gens! "38 1 1", words! ";0", false⟩, nats! "1 0 0 0", nats! "1 0 0 0"⟩⟩
noncomputable def l175 : Look := ⟨chars! "P4/n:2", .tetragonal, .primitive, nat! "103", ⟨⟨chars! "", 3, t72, q! "24 0 0 6 0 24 0 6 0 0 24 0", trs! "0", gens! "", words! "", false⟩, nats! "0 0 0", nats! "0 0 0"⟩⟩
noncomputable def l176 : Look := ⟨chars! "P212121", .orthorhombic, .primitive, nat! "37", ⟨⟨chars! "", 3, t1343, q! "24 0 0 6 0 24 0 0 0 0 24 0", trs! "0", gens! "", words! "", false⟩, nats! "0 0 0", nats! "0 0 0"⟩⟩
noncomputable def l177 : Look := ⟨chars! "Pna21", .orthorhombic, .primitive, nat! "51", ⟨⟨chars! "", 3, t0, q! "24 0 0 0 0 24 0 0 0 0 24 0", trs! "0", gens! "", words! "", false⟩, nats! "0 0 0", nats! "0 0 0"⟩⟩
noncomputable def l178 : Look := ⟨chars! "Cccm", .orthorhombic, .cFaceCentered, nat! "84", ⟨⟨chars! "", 3, t1340, q! "24 0 0 0 0 24 0 0 0 0 24 6", trs! "0 4", gens! "4 1 1", words! ";0", false⟩, nats! "1 0 0 0", nats! "1 0 0 0"⟩⟩
noncomputable def l179 : Look := ⟨chars! "C222", .orthorhombic, .cFaceCentered, nat! "39", ⟨⟨chars! "", 3, t0, q! "24 0 0 0 0 24 0 0 0 0 24 0", trs! "0 4", gens! "4 1 1", words! ";0", false⟩, nats! "1 0 0 0", nats! "1 0 0 0"⟩⟩
noncomputable def l180 : Look := ⟨chars! "P3", .trigonal, .primitive, nat! "161", ⟨⟨chars! "", 3, t24, q! "0 24 0 0 -24 24 0 0 0 0 24 0", trs! "0", gens! "", words! "", false⟩, nats! "0 0 0", nats! "0 0 0"⟩⟩
noncomputable def l181 : Look := ⟨chars! "P1", .triclinic, .primitive, nat! "19", ⟨⟨chars! "", 3, t671, q! "0 0 24 0 0 -24 0 0 24 0 0 0", trs! "0", gens! "", words! "", false⟩, nats! "0 0 0", nats! "0 0 0"⟩⟩
noncomputable def l182 : Look := ⟨chars! "P321", .trigonal, .primitive, nat! "168", ⟨⟨chars! "", 3, t17, q! "-24 24 0 0 -24 0 0 0 0 0 24 0", trs! "0", gens! "", words! "", false⟩, nats! "0 0 0", nats! "0 0 0"⟩⟩
noncomputable def l183 : Look := ⟨chars! "P-421c", .tetragonal, .primitive, nat! "132", ⟨⟨chars! "", 3, t1368, q! "0 -24 0 -6 -24 0 0 6 0 0 -24 6", trs! "0", gens! "", words! "", false⟩, nats! "0 0 0", nats! "0 0 0"⟩⟩
noncomputable def l184 : Look := ⟨chars! "P4", .tetragonal, .primitive, nat! "93", ⟨⟨chars! "", 3, t0, q! "24 0 0 0 0 24 0 0 0 0 24 0", trs! "0", gens! "", words! "", false⟩, nats! "0 0 0", nats! "0 0 0"⟩⟩
noncomputable def l185 : Look := ⟨chars! "P42/nmc:2", .tetragonal, .primitive, nat! "155", ⟨⟨chars! "", 3, t12, q! "0 -24 0 0 24 0 0 0 0 0 24 0", trs! "0", gens! "", words! "", false⟩, nats! "0 0 0", nats! "0 0 0"⟩⟩
noncomputable def l186 : Look := ⟨chars! "P-421m", .tetragonal, .primitive, nat! "131", ⟨⟨chars! "", 3, t1369, q! "0 -24 0 -6 -24 0 0 6 0 0 -24 0", trs! "0", gens! "", words! "", false⟩, nats! "0 0 0", nats! "0 0 0"⟩⟩
noncomputable def l187 : Look := ⟨chars! "P63", .hexagonal, .primitive, nat! "191", ⟨⟨chars! "", 3, t0, q! "24 0 0 0 0 24 0 0 0 0 24 0", trs! "0", gens! "", words! "", false⟩, nats! "0 0 0", nats! "0 0 0"⟩⟩
noncomputable def l188 : Look := ⟨chars! "Ia-3d", .cubic, .bodyCentered, nat! "248", ⟨⟨chars! "", 3, t1356, q! "24 0 0 -6 0 24 0 12 0 0 24 -6", trs! "0 38", gens! "38 1 1", words! ";0", false⟩, nats! "1 0 0 0", nats! "1 0 0 0"⟩⟩
noncomputable def l189 : Look := ⟨chars! "Fd-3:2", .cubic, .faceCentered, nat! "221", ⟨⟨chars! "", 3, t214, q! "24 0 0 3 0 24 0 3 0 0 24 3", trs! "0 35 42 4", gens! "35 33751041 1;42 16777986 2", words! ";0;1;1 0", false⟩, nats! "1 2 0 0 0", nats! "1 2 0 0 0"⟩⟩
noncomputable def l190 : Look := ⟨chars! "P-62c", .hexagonal, .primitive, nat! "208", ⟨⟨chars! "", 3, t0, q! "24 0 0 0 0 24 0 0 0 0 24 0", trs! "0", gens! "", words! "", false⟩, nats! "0 0 0", nats! "0 0 0"⟩⟩
noncomputable def l191 : Look := ⟨chars! "P4322", .tetragonal, .primitive, nat! "113", ⟨⟨chars! "", 3, t1340, q! "24 0 0 0 0 24 0 0 0 0 24 6", trs! "0", gens! "", words! "", false⟩, nats! "0 0 0", nats! "0 0 0"⟩⟩
noncomputable def l192 : Look := ⟨chars! "P-62m", .hexagonal, .primitive, nat! "207", ⟨⟨chars! "", 3, t0, q! "24 0 0 0 0 24 0 0 0 0 24 0", trs! "0", gens! "", words! "", false⟩, nats! "0 0 0", nats! "0 0 0"⟩⟩
noncomputable def l193 : Look := ⟨chars! "P4/nbm:2", .tetragonal, .primitive, nat! "143", ⟨⟨chars! "", 3, t72, q! "24 0 0 6 0 24 0 6 0 0 24 0", trs! "0", gens! "", words! "", false⟩, nats! "0 0 0", nats! "0 0 0"⟩⟩
noncomputable def l194 : Look := ⟨chars! "Pnnm", .orthorhombic, .primitive, nat! "76", ⟨⟨chars! "", 3, t1340, q! "24 0 0 0 0 24 0 0 0 0 24 6", trs! "0", gens! "", words! "", false⟩, nats! "0 0 0", nats! "0 0 0"⟩⟩
noncomputable def l195 : Look := ⟨chars! "P61", .hexagonal, .primitive, nat! "187", ⟨⟨chars! "", 3, t0, q! "24 0 0 0 0 24 0 0 0 0 24 0", trs! "0", gens! "", words! "", false⟩, nats! "0 0 0", nats! "0 0 0"⟩⟩
noncomputable def l196 : Look := ⟨chars! "Fm-3m", .cubic, .faceCentered, nat! "243", ⟨⟨chars! "", 3, t0, q! "24 0 0 0 0 24 0 0 0 0 24 0", trs! "0 35 42 4", gens! "35 33751041 1;42 16777986 2", words! ";0;1;1 0", false⟩, nats! "1 2 0 0 0", nats! "1 2 0 0 0"⟩⟩
noncomputable def l197 : Look := ⟨chars! "P6/mcc", .hexagonal, .primitive, nat! "210", ⟨⟨chars! "", 3, t1342, q! "0 24 0 0 -24 24 0 0 0 0 24 6", trs! "0", gens! "", words! "", false⟩, nats! "0 0 0", nats! "0 0 0"⟩⟩
noncomputable def l198 : Look := ⟨chars! "P42mc", .tetragonal, .primitive, nat! "123", ⟨⟨chars! "", 3, t0, q! "24 0 0 0 0 24 0 0 0 0 24 0", trs! "0", gens! "", words! "", false⟩, nats! "0 0 0", nats! "0 0 0"⟩⟩
noncomputable def l199 : Look := ⟨chars! "P65", .hexagonal, .primitive, nat! "188", ⟨⟨chars! "", 3, t0, q! "24 0 0 0 0 24 0 0 0 0 24 0", trs! "0", gens! "", words! "", false⟩, nats! "0 0 0", nats! "0 0 0"⟩⟩
noncomputable def l200 : Look := ⟨chars! "P-1", .triclinic, .primitive, nat! "20", ⟨⟨chars! "", 3, t671, q! "0 0 24 0 0 -24 0 0 24 0 0 0", trs! "0", gens! "", words! "", false⟩, nats! "0 0 0", nats! "0 0 0"⟩⟩
noncomputable def l201 : Look := ⟨chars! "P-3", .trigonal, .primitive, nat! "165", ⟨⟨chars! "", 3, t24, q! "0 24 0 0 -24 24 0 0 0 0 24 0", trs! "0", gens! "", words! "", false⟩, nats! "0 0 0", nats! "0 0 0"⟩⟩
noncomputable def l202 : Look := ⟨chars! "P63cm", .hexagonal, .primitive, nat! "203", ⟨⟨chars! "", 3, t24, q! "0 24 0 0 -24 24 0 0 0 0 24 0", trs! "0", gens! "", words! "", false⟩, nats! "0 0 0", nats! "0 0 0"⟩⟩
noncomputable def l203 : Look := ⟨chars! "P422", .tetragonal, .primitive, nat! "107", ⟨⟨chars! "", 3, t0, q! "24 0 0 0 0 24 0 0 0 0 24 0", trs! "0", gens! "", words! "", false⟩, nats! "0 0 0", nats! "0 0 0"⟩⟩
noncomputable def l204 : Look := ⟨chars! "P62", .hexagonal, .primitive, nat! "189", ⟨⟨chars! "", 3, t0, q! "24 0 0 0 0 24 0 0 0 0 24 0", trs! "0", gens! "", words! "", false⟩, nats! "0 0 0", nats! "0 0 0"⟩⟩
noncomputable def l205 : Look := ⟨chars! "Fm-3c", .cubic, .faceCentered, nat! "244", ⟨⟨chars! "", 3, t252, q! "24 0 0 6 0 24 0 6 0 0 24 6", trs! "0 35 42 4", gens! "35 33751041 1;42 16777986 2", words! ";0;1;1 0", false⟩, nats! "1 2 0 0 0", nats! "1 2 0 0 0"⟩⟩
noncomputable def l206 : Look := ⟨chars! "P41212", .tetragonal, .primitive, nat! "110", ⟨⟨chars! "", 3, t1370, q! "24 0 0 18 0 24 0 6 0 0 24 9", trs! "0", gens! "", words! "", false⟩, nats! "0 0 0", nats! "0 0 0"⟩⟩
noncomputable def l207 : Look := ⟨chars! "Ama2", .orthorhombic, .cFaceCentered, nat! "58", ⟨⟨chars! "", 3, t27, q! "0 0 24 0 24 0 0 0 0 24 0 0", trs! "0 35", gens! "35 1 1", words! ";0", false⟩, nats! "1 0 0 0", nats! "1 0 0 0"⟩⟩
noncomputable def l208 : Look := ⟨chars! "I-4m2", .tetragonal, .bodyCentered, nat! "137", ⟨⟨chars! "", 3, t29, q! "24 0 0 0 0 -24 0 0 0 0 -24 0", trs! "0 38", gens! "38 1 1", words! ";0", false⟩, nats! "1 0 0 0", nats! "1 0 0 0"⟩⟩
noncomputable def l209 : Look := ⟨chars! "P31c", .trigonal, .primitive, nat! "177", ⟨⟨chars! "", 3, t24, q! "0 24 0 0 -24 24 0 0 0 0 24 0", trs! "0", gens! "", words! "", false⟩, nats! "0 0 0", nats! "0 0 0"⟩⟩
noncomputable def l210 : Look := ⟨chars! "Fddd:2", .orthorhombic, .faceCentered, nat! "88", ⟨⟨chars! "", 3, t214, q! "24 0 0 3 0 24 0 3 0 0 24 3", trs! "0 35 42 4", gens! "35 33751041 1;42 16777986 2", words! ";0;1;1 0", false⟩, nats! "1 2 0 0 0", nats! "1 2 0 0 0"⟩⟩
noncomputable def l211 : Look := ⟨chars! "P1m1", .monoclinic, .primitive, nat! "24", ⟨⟨chars! "", 3, t669, q! "24 0 0 0 0 0 -24 0 0 24 0 0", trs! "0", gens! "", words! "", false⟩, nats! "0 0 0", nats! "0 0 0"⟩⟩
noncomputable def l212 : Look := ⟨chars! "Pnma", .orthorhombic, .primitive, nat! "80", ⟨⟨chars! "", 3, t1354, q! "24 0 0 6 0 24 0 0 0 0 24 6", trs! "0", gens! "", words! "", false⟩, nats! "0 0 0", nats! "0 0 0"⟩⟩
noncomputable def l213 : Look := ⟨chars! "Fmm2", .orthorhombic, .faceCentered, nat! "60", ⟨⟨chars! "", 3, t0, q! "24 0 0 0 0 24 0 0 0 0 24 0", trs! "0 35 42 4", gens! "35 33751041 1;42 16777986 2", words! ";0;1;1 0", false⟩, nats! "1 2 0 0 0", nats! "1 2 0 0 0"⟩⟩
noncomputable def l214 : Look := ⟨chars! "P42/mmc", .tetragonal, .primitive, nat! "149", ⟨⟨chars! "", 3, t0, q! "24 0 0 0 0 24 0 0 0 0 24 0", trs! "0", gens! "", words! "", false⟩, nats! "0 0 0", nats! "0 0 0"⟩⟩
noncomputable def l215 : Look := ⟨chars! "I4mm", .tetragonal, .bodyCentered, nat! "125", ⟨⟨chars! "", 3, t12, q! "0 -24 0 0 24 0 0 0 0 0 24 0", trs! "0 38", gens! "38 1 1", words! ";0", false⟩, nats! "1 0 0 0", nats! "1 0 0 0"⟩⟩
noncomputable def l216 : Look := ⟨chars! "I23", .cubic, .bodyCentered, nat! "215", ⟨⟨chars! "", 3, t0, q! "24 0 0 0 0 24 0 0 0 0 24 0", trs! "0 38", gens! "38 1 1", words! ";0", false⟩, nats! "1 0 0 0", nats! "1 0 0 0"⟩⟩
noncomputable def l217 : Look := ⟨chars! "P63/m", .hexagonal, .primitive, nat! "194", ⟨⟨chars! "", 3, t0, q! "24 0 0 0 0 24 0 0 0 0 24 0", trs! "0", gens! "", words! "", false⟩, nats! "0 0 0", nats! "0 0 0"⟩⟩
noncomputable def l218 : Look := ⟨chars! "I4/mmm", .tetragonal, .bodyCentered, nat! "157", ⟨⟨chars! "", 3, t12, q! "0 -24 0 0 24 0 0 0 0 0 24 0", trs! "0 38", gens! "38 1 1", words! ";0", false⟩, nats! "1 0 0 0", nats! "1 0 0 0"⟩⟩
noncomputable def l219 : Look := ⟨chars! "Pmma", .orthorhombic, .primitive, nat! "69", ⟨⟨chars! "", 3, t1343, q! "24 0 0 6 0 24 0 0 0 0 24 0", trs! "0", gens! "", words! "", false⟩, nats! "0 0 0", nats! "0 0 0"⟩⟩
noncomputable def l220 : Look := ⟨chars! "P213", .cubic, .primitive, nat! "216", ⟨⟨chars! "", 3, t252, q! "24 0 0 6 0 24 0 6 0 0 24 6", trs! "0", gens! "", words! "", false⟩, nats! "0 0 0", nats! "0 0 0"⟩⟩
noncomputable def l221 : Look := ⟨chars! "P121/m1", .monoclinic, .primitive, nat! "29", ⟨⟨chars! "", 3, t669, q! "24 0 0 0 0 0 -24 0 0 24 0 0", trs! "0", gens! "", words! "", false⟩, nats! "0 0 0", nats! "0 0 0"⟩⟩
noncomputable def l222 : Look := ⟨chars! "P4212", .tetragonal, .primitive, nat! "108", ⟨⟨chars! "", 3, t1371, q! "24 0 0 18 0 24 0 6 0 0 24 0", trs! "0", gens! "", words! "", false⟩, nats! "0 0 0", nats! "0 0 0"⟩⟩
noncomputable def l223 : Look := ⟨chars! "P3m1", .trigonal, .primitive, nat! "174", ⟨⟨chars! "", 3, t17, q! "-24 24 0 0 -24 0 0 0 0 0 24 0", trs! "0", gens! "", words! "", false⟩, nats! "0 0 0", nats! "0 0 0"⟩⟩
noncomputable def l224 : Look := ⟨chars! "P-3c1", .trigonal, .primitive, nat! "183", ⟨⟨chars! "", 3, t1372, q! "-24 24 0 0 -24 0 0 0 0 0 24 6", trs! "0", gens! "", words! "", false⟩, nats! "0 0 0", nats! "0 0 0"⟩⟩
noncomputable def l225 : Look := ⟨chars! "Pmmn:2", .orthorhombic, .primitive, nat! "77", ⟨⟨chars! "", 3, t72, q! "24 0 0 6 0 24 0 6 0 0 24 0", trs! "0", gens! "", words! "", false⟩, nats! "0 0 0", nats! "0 0 0"⟩⟩
noncomputable def l226 : Look := ⟨chars! "Abm2", .orthorhombic, .cFaceCentered, nat! "57", ⟨⟨chars! "", 3, t27, q! "0 0 24 0 24 0 0 0 0 24 0 0", trs! "0 35", gens! "35 1 1", words! ";0", false⟩, nats! "1 0 0 0", nats! "1 0 0 0"⟩⟩
noncomputable def l227 : Look := ⟨chars! "P-6m2", .hexagonal, .primitive, nat! "205", ⟨⟨chars! "", 3, t24, q! "0 24 0 0 -24 24 0 0 0 0 24 0", trs! "0", gens! "", words! "", false⟩, nats! "0 0 0", nats! "0 0 0"⟩⟩
noncomputable def l228 : Look := ⟨chars! "P4/nnc:2", .tetragonal, .primitive, nat! "144", ⟨⟨chars! "", 3, t252, q! "24 0 0 6 0 24 0 6 0 0 24 6", trs! "0", gens! "", words! "", false⟩, nats! "0 0 0", nats! "0 0 0"⟩⟩
noncomputable def l229 : Look := ⟨chars! "Pbcn", .orthorhombic, .primitive, nat! "78", ⟨⟨chars! "", 3, t72, q! "24 0 0 6 0 24 0 6 0 0 24 0", trs! "0", gens! "", words! "", false⟩, nats! "0 0 0", nats! "0 0 0"⟩⟩
noncomputable def l230 : Look := ⟨chars! "P4/m", .tetragonal, .primitive, nat! "101", ⟨⟨chars! "", 3, t0, q! "24 0 0 0 0 24 0 0 0 0 24 0", trs! "0", gens! "", words! "", false⟩, nats! "0 0 0", nats! "0 0 0"⟩⟩
noncomputable def l231 : Look := ⟨chars! "P2221", .orthorhombic, .primitive, nat! "35", ⟨⟨chars! "", 3, t0, q! "24 0 0 0 0 24 0 0 0 0 24 0", trs! "0", gens! "", words! "", false⟩, nats! "0 0 0", nats! "0 0 0"⟩⟩
noncomputable def l232 : Look := ⟨chars! "Fd-3m:2", .cubic, .faceCentered, nat! "245", ⟨⟨chars! "", 3, t1373, q! "24 0 0 -3 0 24 0 3 0 0 24 -3", trs! "0 35 42 4", gens! "35 33751041 1;42 16777986 2", words! ";0;1;1 0", false⟩, nats! "1 2 0 0 0", nats! "1 2 0 0 0"⟩⟩
noncomputable def l233 : Look := ⟨chars! "P-4c2", .tetragonal, .primitive, nat! "134", ⟨⟨chars! "", 3, t279, q! "0 24 0 0 24 0 0 0 0 0 -24 6", trs! "0", gens! "", words! "", false⟩, nats! "0 0 0", nats! "0 0 0"⟩⟩
noncomputable def l234 : Look := ⟨chars! "P4cc", .tetragonal, .primitive, nat! "121", ⟨⟨chars! "", 3, t0, q! "24 0 0 0 0 24 0 0 0 0 24 0", trs! "0", gens! "", words! "", false⟩, nats! "0 0 0", nats! "0 0 0"⟩⟩
noncomputable def l235 : Look := ⟨chars! "I4", .tetragonal, .bodyCentered, nat! "97", ⟨⟨chars! "", 3, t12, q! "0 -24 0 0 24 0 0 0 0 0 24 0", trs! "0 38", gens! "38 1 1", words! ";0", false⟩, nats! "1 0 0 0", nats! "1 0 0 0"⟩⟩
noncomputable def l236 : Look := ⟨chars! "Pa-3", .cubic, .primitive, nat! "223", ⟨⟨chars! "", 3, t252, q! "24 0 0 6 0 24 0 6 0 0 24 6", trs! "0", gens! "", words! "", false⟩, nats! "0 0 0", nats! "0 0 0"⟩⟩
noncomputable def l237 : Look := ⟨chars! "I212121", .orthorhombic, .bodyCentered, nat! "42", ⟨⟨chars! "", 3, t1348, q! "24 0 0 0 0 24 0 6 0 0 24 6", trs! "0 38", gens! "38 1 1", words! ";0", false⟩, nats! "1 0 0 0", nats! "1 0 0 0"⟩⟩
noncomputable def l238 : Look := ⟨chars! "P6cc", .hexagonal, .primitive, nat! "202", ⟨⟨chars! "", 3, t24, q! "0 24 0 0 -24 24 0 0 0 0 24 0", trs! "0", gens! "", words! "", false⟩, nats! "0 0 0", nats! "0 0 0"⟩⟩
noncomputable def l239 : Look := ⟨chars! "F4132", .cubic, .faceCentered, nat! "228", ⟨⟨chars! "", 3, t1358, q! "24 0 0 0 0 24 0 6 0 0 24 0", trs! "0 35 42 4", gens! "35 33751041 1;42 16777986 2", words! ";0;1;1 0", false⟩, nats! "1 2 0 0 0", nats! "1 2 0 0 0"⟩⟩
noncomputable def l240 : Look := ⟨chars! "Fdd2", .orthorhombic, .faceCentered, nat! "61", ⟨⟨chars! "", 3, t0, q! "24 0 0 0 0 24 0 0 0 0 24 0", trs! "0 35 42 4", gens! "35 33751041 1;42 16777986 2", words! ";0;1;1 0", false⟩, nats! "1 2 0 0 0", nats! "1 2 0 0 0"⟩⟩
noncomputable def l241 : Look := ⟨chars! "Pm-3", .cubic, .primitive, nat! "218", ⟨⟨chars! "", 3, t0, q! "24 0 0 0 0 24 0 0 0 0 24 0", trs! "0", gens! "", words! "", false⟩, nats! "0 0 0", nats! "0 0 0"⟩⟩
noncomputable def l242 : Look := ⟨chars! "Fd-3c:2", .cubic, .faceCentered, nat! "246", ⟨⟨chars! "", 3, t1374, q! "24 0 0 3 0 24 0 9 0 0 24 3", trs! "0 35 42 4", gens! "35 33751041 1;42 16777986 2", words! ";0;1;1 0", false⟩, nats! "1 2 0 0 0", nats! "1 2 0 0 0"⟩⟩
noncomputable def l243 : Look := ⟨chars! "R-3c:H", .trigonal, .rhombohedral, nat! "185", ⟨⟨chars! "", 3, t0, q! "24 0 0 0 0 24 0 0 0 0 24 0", trs! "0 380 383", gens! "380 513 2", words! ";0;0 0", false⟩, nats! "2 0 0 0", nats! "2 0 0 0"⟩⟩
noncomputable def l244 : Look := ⟨chars! "P63mc", .hexagonal, .primitive, nat! "204", ⟨⟨chars! "", 3, t24, q! "0 24 0 0 -24 24 0 0 0 0 24 0", trs! "0", gens! "", words! "", false⟩, nats! "0 0 0", nats! "0 0 0"⟩⟩
noncomputable def l245 : Look := ⟨chars! "I4/m", .tetragonal, .bodyCentered, nat! "105", ⟨⟨chars! "", 3, t12, q! "0 -24 0 0 24 0 0 0 0 0 24 0", trs! "0 38", gens! "38 1 1", words! ";0", false⟩, nats! "1 0 0 0", nats! "1 0 0 0"⟩⟩
noncomputable def l246 : Look := ⟨chars! "Fmmm", .orthorhombic, .faceCentered, nat! "87", ⟨⟨chars! "", 3, t0, q! "24 0 0 0 0 24 0 0 0 0 24 0", trs! "0 35 42 4", gens! "35 33751041 1;42 16777986 2", words! ";0;1;1 0", false⟩, nats! "1 2 0 0 0", nats! "1 2 0 0 0"⟩⟩

noncomputable def items23 : List Item := [
  .look l17,
  .look l18,
  .look l19,
  .look l20,
  .look l21,
  .look l22,
  .look l23,
  .look l24,
  .look l25,
  .look l26,
  .look l27,
  .look l28,
  .look l29,
  .look l30,
  .look l31,
  .look l32,
  .look l33,
  .look l34,
  .look l35,
  .look l36,
  .look l37,
  .look l38,
  .look l39,
  .look l40,
  .look l41,
  .look l42,
  .look l43,
  .look l44,
  .look l45,
  .look l46,
  .look l47,
  .look l48,
  .look l49,
  .look l50,
  .look l51,
  .look l52,
  .look l53,
  .look l54,
  .look l55,
  .look l56,
  .look l57,
  .look l58,
  .look l59,
  .look l60,
  .look l61,
  .look l62,
  .look l63,
  .look l64,
  .look l65,
  .look l66,
  .look l67,
  .look l68,
  .look l69,
  .look l70,
  .look l71,
  .look l72,
  .look l73,
  .look l74,
  .look l75,
  .look l76,
  .look l77,
  .look l78,
  .look l79,
  .look l80,
  .look l81,
  .look l82,
  .look l83,
  .look l84,
  .look l85,
  .look l86,
  .look l87,
  .look l88,
  .look l89,
  .look l90,
  .look l91,
  .look l92,
  .look l93,
  .look l94,
  .look l95,
  .look l96,
  .look l97,
  .look l98,
  .look l99,
  .look l100,
  .look l101,
  .look l102,
  .look l103,
  .look l104,
  .look l105,
  .look l106,
  .look l107,
  .look l108,
  .look l109,
  .look l110,
  .look l111,
  .look l112,
  .look l113,
  .look l114,
  .look l115,
  .look l116,
  .look l117,
  .look l118,
  .look l119,
  .look l120,
  .look l121,
  .look l122,
  .look l123,
  .look l124,
  .look l125,
  .look l126,
  .look l127,
  .look l128,
  .look l129,
  .look l130,
  .look l131,
  .look l132,
  .look l133,
  .look l134,
  .look l135,
  .look l136,
  .look l137,
  .look l138,
  .look l139,
  .look l140,
  .look l141,
  .look l142,
  .look l143,
  .look l144,
  .look l145,
  .look l146,
  .look l147,
  .look l148,
  .look l149,
  .look l150,
  .look l151,
  .look l152,
  .look l153,
  .look l154,
  .look l155,
  .look l156,
  .look l157,
  .look l158,
  .look l159,
  .look l160,
  .look l161,
  .look l162,
  .look l163,
  .look l164,
  .look l165,
  .look l166,
  .look l167,
  .look l168,
  .look l169,
  .look l170,
  .look l171,
  .look l172,
  .look l173,
  .look l174,
  .look l175,
  .look l176,
  .look l177,
  .look l178,
  .look l179,
  .look l180,
  .look l181,
  .look l182,
  .look l183,
  .look l184,
  .look l185,
  .look l186,
  .look l187,
  .look l188,
  .look l189,
  .look l190,
  .look l191,
  .look l192,
  .look l193,
  .look l194,
  .look l195,
  .look l196,
  .look l197,
  .look l198,
  .look l199,
  .look l200,
  .look l201,
  .look l202,
  .look l203,
  .look l204,
  .look l205,
  .look l206,
  .look l207,
  .look l208,
  .look l209,
  .look l210,
  .look l211,
  .look l212,
  .look l213,
  .look l214,
  .look l215,
  .look l216,
  .look l217,
  .look l218,
  .look l219,
  .look l220,
  .look l221,
  .look l222,
  .look l223,
  .look l224,
  .look l225,
  .look l226,
  .look l227,
  .look l228,
  .look l229,
  .look l230,
  .look l231,
  .look l232,
  .look l233,
  .look l234,
  .look l235,
  .look l236,
  .look l237,
  .look l238,
  .look l239,
  .look l240,
  .look l241,
  .look l242,
  .look l243,
  .look l244,
  .look l245,
  .look l246]

theorem good23 : allB (Item.goodB lat) items23 = true := by decide +kernel

theorem text23 : Table.sgLines23 = (items23.flatMap Item.lines).map String.ofList := by krfl

end Systre.Sg.Data
