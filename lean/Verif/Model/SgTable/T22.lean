/-! Written by tools/gen_sgtable.py. Lines 8111 to 8128 of src/data/sgtable.data. -/

namespace Systre.Table
set_option maxRecDepth 100000

/-- lines 8111 to 8128 of src/data/sgtable.data -/
def sgLines22 : List String := [
  "lookup p1 oblique p x,y",
  "lookup p2 oblique p x,y",
  "lookup pm rectangular p x,y",
  "lookup pg rectangular p x,y",
  "lookup cm rectangular c x,y",
  "lookup p2mm rectangular p x,y",
  "lookup p2mg rectangular p x,y",
  "lookup p2gg rectangular p x,y",
  "lookup c2mm rectangular c x,y",
  "lookup p4 square p x,y",
  "lookup p4mm square p x,y",
  "lookup p4gm square p x,y",
  "lookup p3 hexagonal p x,y",
  "lookup p3m1 hexagonal p x,y",
  "lookup p31m hexagonal p x,y",
  "lookup p6 hexagonal p x,y",
  "lookup p6mm hexagonal p x,y",
  ""]

end Systre.Table
