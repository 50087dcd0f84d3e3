import Verif.Lemmas.SgTable.Ops
import Verif.Model.SgTable.T22

/-! Written by tools/gen_sgtable.py. Lines 8111 to 8128. -/

namespace Systre.Sg.Data
set_option maxRecDepth 1000000
set_option maxHeartbeats 0

noncomputable def l0 : Look := ⟨chars! "p1", .oblique, .primitive2d, nat! "2", ⟨⟨chars! "", 2, t0, q! "24 0 0 0 0 24 0 0 0 0 24 0", trs! "0", gens! "", words! "", false⟩, nats! "0 0", nats! "0 0"⟩⟩
noncomputable def l1 : Look := ⟨chars! "p2", .oblique, .primitive2d, nat! "3", ⟨⟨chars! "", 2, t0, q! "24 0 0 0 0 24 0 0 0 0 24 0", trs! "0", gens! "", words! "", false⟩, nats! "0 0", nats! "0 0"⟩⟩
noncomputable def l2 : Look := ⟨chars! "pm", .rectangular, .primitive2d, nat! "4", ⟨⟨chars! "", 2, t0, q! "24 0 0 0 0 24 0 0 0 0 24 0", trs! "0", gens! "", words! "", false⟩, nats! "0 0", nats! "0 0"⟩⟩
noncomputable def l3 : Look := ⟨chars! "pg", .rectangular, .primitive2d, nat! "5", ⟨⟨chars! "", 2, t0, q! "24 0 0 0 0 24 0 0 0 0 24 0", trs! "0", gens! "", words! "", false⟩, nats! "0 0", nats! "0 0"⟩⟩
noncomputable def l4 : Look := ⟨chars! "cm", .rectangular, .centered2d, nat! "6", ⟨⟨chars! "", 2, t0, q! "24 0 0 0 0 24 0 0 0 0 24 0", trs! "0 4", gens! "4 1 1", words! ";0", false⟩, nats! "1 0 0", nats! "1 0 0"⟩⟩
noncomputable def l5 : Look := ⟨chars! "p2mm", .rectangular, .primitive2d, nat! "7", ⟨⟨chars! "", 2, t0, q! "24 0 0 0 0 24 0 0 0 0 24 0", trs! "0", gens! "", words! "", false⟩, nats! "0 0", nats! "0 0"⟩⟩
noncomputable def l6 : Look := ⟨chars! "p2mg", .rectangular, .primitive2d, nat! "8", ⟨⟨chars! "", 2, t0, q! "24 0 0 0 0 24 0 0 0 0 24 0", trs! "0", gens! "", words! "", false⟩, nats! "0 0", nats! "0 0"⟩⟩
noncomputable def l7 : Look := ⟨chars! "p2gg", .rectangular, .primitive2d, nat! "9", ⟨⟨chars! "", 2, t0, q! "24 0 0 0 0 24 0 0 0 0 24 0", trs! "0", gens! "", words! "", false⟩, nats! "0 0", nats! "0 0"⟩⟩
noncomputable def l8 : Look := ⟨chars! "c2mm", .rectangular, .centered2d, nat! "10", ⟨⟨chars! "", 2, t0, q! "24 0 0 0 0 24 0 0 0 0 24 0", trs! "0 4", gens! "4 1 1", words! ";0", false⟩, nats! "1 0 0", nats! "1 0 0"⟩⟩
noncomputable def l9 : Look := ⟨chars! "p4", .square, .primitive2d, nat! "11", ⟨⟨chars! "", 2, t0, q! "24 0 0 0 0 24 0 0 0 0 24 0", trs! "0", gens! "", words! "", false⟩, nats! "0 0", nats! "0 0"⟩⟩
noncomputable def l10 : Look := ⟨chars! "p4mm", .square, .primitive2d, nat! "12", ⟨⟨chars! "", 2, t0, q! "24 0 0 0 0 24 0 0 0 0 24 0", trs! "0", gens! "", words! "", false⟩, nats! "0 0", nats! "0 0"⟩⟩
noncomputable def l11 : Look := ⟨chars! "p4gm", .square, .primitive2d, nat! "13", ⟨⟨chars! "", 2, t0, q! "24 0 0 0 0 24 0 0 0 0 24 0", trs! "0", gens! "", words! "", false⟩, nats! "0 0", nats! "0 0"⟩⟩
noncomputable def l12 : Look := ⟨chars! "p3", .hexagonal, .primitive2d, nat! "14", ⟨⟨chars! "", 2, t0, q! "24 0 0 0 0 24 0 0 0 0 24 0", trs! "0", gens! "", words! "", false⟩, nats! "0 0", nats! "0 0"⟩⟩
noncomputable def l13 : Look := ⟨chars! "p3m1", .hexagonal, .primitive2d, nat! "15", ⟨⟨chars! "", 2, t0, q! "24 0 0 0 0 24 0 0 0 0 24 0", trs! "0", gens! "", words! "", false⟩, nats! "0 0", nats! "0 0"⟩⟩
noncomputable def l14 : Look := ⟨chars! "p31m", .hexagonal, .primitive2d, nat! "16", ⟨⟨chars! "", 2, t0, q! "24 0 0 0 0 24 0 0 0 0 24 0", trs! "0", gens! "", words! "", false⟩, nats! "0 0", nats! "0 0"⟩⟩
noncomputable def l15 : Look := ⟨chars! "p6", .hexagonal, .primitive2d, nat! "17", ⟨⟨chars! "", 2, t0, q! "24 0 0 0 0 24 0 0 0 0 24 0", trs! "0", gens! "", words! "", false⟩, nats! "0 0", nats! "0 0"⟩⟩
noncomputable def l16 : Look := ⟨chars! "p6mm", .hexagonal, .primitive2d, nat! "18", ⟨⟨chars! "", 2, t0, q! "24 0 0 0 0 24 0 0 0 0 24 0", trs! "0", gens! "", words! "", false⟩, nats! "0 0", nats! "0 0"⟩⟩

noncomputable def items22 : List Item := [
  .look l0,
  .look l1,
  .look l2,
  .look l3,
  .look l4,
  .look l5,
  .look l6,
  .look l7,
  .look l8,
  .look l9,
  .look l10,
  .look l11,
  .look l12,
  .look l13,
  .look l14,
  .look l15,
  .look l16,
  .nothing (chars! "")]

theorem good22 : allB (Item.goodB lat) items22 = true := by decide +kernel

theorem text22 : Table.sgLines22 = (items22.flatMap Item.lines).map String.ofList := by krfl

end Systre.Sg.Data
