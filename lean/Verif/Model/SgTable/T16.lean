/-! Written by tools/gen_sgtable.py. Lines 6088 to 6453 of src/data/sgtable.data. -/

namespace Systre.Table
set_option maxRecDepth 100000

/-- lines 6088 to 6453 of src/data/sgtable.data -/
def sgLines16 : List String := [
  "F-43m x,y,z",
  "    x,y,z",
  "    y,-x,-z",
  "    -x,-y,z",
  "    -y,x,-z",
  "    x,-y,-z",
  "    -y,-x,z",
  "    -x,y,-z",
  "    y,x,z",
  "    z,x,y",
  "    x,-z,-y",
  "    -z,-x,y",
  "    -x,z,-y",
  "    z,-x,-y",
  "    -x,-z,y",
  "    -z,x,-y",
  "    x,z,y",
  "    y,z,x",
  "    y,-z,-x",
  "    -z,-y,x",
  "    -y,z,-x",
  "    z,y,x",
  "    -y,-z,x",
  "    -z,y,-x",
  "    z,-y,-x",
  "    x,y+1/2,z+1/2",
  "    y,-x+1/2,-z+1/2",
  "    -x,-y+1/2,z+1/2",
  "    -y,x+1/2,-z+1/2",
  "    x,-y+1/2,-z+1/2",
  "    -y,-x+1/2,z+1/2",
  "    -x,y+1/2,-z+1/2",
  "    y,x+1/2,z+1/2",
  "    z,x+1/2,y+1/2",
  "    x,-z+1/2,-y+1/2",
  "    -z,-x+1/2,y+1/2",
  "    -x,z+1/2,-y+1/2",
  "    z,-x+1/2,-y+1/2",
  "    -x,-z+1/2,y+1/2",
  "    -z,x+1/2,-y+1/2",
  "    x,z+1/2,y+1/2",
  "    y,z+1/2,x+1/2",
  "    y,-z+1/2,-x+1/2",
  "    -z,-y+1/2,x+1/2",
  "    -y,z+1/2,-x+1/2",
  "    z,y+1/2,x+1/2",
  "    -y,-z+1/2,x+1/2",
  "    -z,y+1/2,-x+1/2",
  "    z,-y+1/2,-x+1/2",
  "    x+1/2,y,z+1/2",
  "    y+1/2,-x,-z+1/2",
  "    -x+1/2,-y,z+1/2",
  "    -y+1/2,x,-z+1/2",
  "    x+1/2,-y,-z+1/2",
  "    -y+1/2,-x,z+1/2",
  "    -x+1/2,y,-z+1/2",
  "    y+1/2,x,z+1/2",
  "    z+1/2,x,y+1/2",
  "    x+1/2,-z,-y+1/2",
  "    -z+1/2,-x,y+1/2",
  "    -x+1/2,z,-y+1/2",
  "    z+1/2,-x,-y+1/2",
  "    -x+1/2,-z,y+1/2",
  "    -z+1/2,x,-y+1/2",
  "    x+1/2,z,y+1/2",
  "    y+1/2,z,x+1/2",
  "    y+1/2,-z,-x+1/2",
  "    -z+1/2,-y,x+1/2",
  "    -y+1/2,z,-x+1/2",
  "    z+1/2,y,x+1/2",
  "    -y+1/2,-z,x+1/2",
  "    -z+1/2,y,-x+1/2",
  "    z+1/2,-y,-x+1/2",
  "    x+1/2,y+1/2,z",
  "    y+1/2,-x+1/2,-z",
  "    -x+1/2,-y+1/2,z",
  "    -y+1/2,x+1/2,-z",
  "    x+1/2,-y+1/2,-z",
  "    -y+1/2,-x+1/2,z",
  "    -x+1/2,y+1/2,-z",
  "    y+1/2,x+1/2,z",
  "    z+1/2,x+1/2,y",
  "    x+1/2,-z+1/2,-y",
  "    -z+1/2,-x+1/2,y",
  "    -x+1/2,z+1/2,-y",
  "    z+1/2,-x+1/2,-y",
  "    -x+1/2,-z+1/2,y",
  "    -z+1/2,x+1/2,-y",
  "    x+1/2,z+1/2,y",
  "    y+1/2,z+1/2,x",
  "    y+1/2,-z+1/2,-x",
  "    -z+1/2,-y+1/2,x",
  "    -y+1/2,z+1/2,-x",
  "    z+1/2,y+1/2,x",
  "    -y+1/2,-z+1/2,x",
  "    -z+1/2,y+1/2,-x",
  "    z+1/2,-y+1/2,-x",
  "I-43m x,y,z",
  "    x,y,z",
  "    y,-x,-z",
  "    -x,-y,z",
  "    -y,x,-z",
  "    x,-y,-z",
  "    -y,-x,z",
  "    -x,y,-z",
  "    y,x,z",
  "    z,x,y",
  "    x,-z,-y",
  "    -z,-x,y",
  "    -x,z,-y",
  "    z,-x,-y",
  "    -x,-z,y",
  "    -z,x,-y",
  "    x,z,y",
  "    y,z,x",
  "    y,-z,-x",
  "    -z,-y,x",
  "    -y,z,-x",
  "    z,y,x",
  "    -y,-z,x",
  "    -z,y,-x",
  "    z,-y,-x",
  "    x+1/2,y+1/2,z+1/2",
  "    y+1/2,-x+1/2,-z+1/2",
  "    -x+1/2,-y+1/2,z+1/2",
  "    -y+1/2,x+1/2,-z+1/2",
  "    x+1/2,-y+1/2,-z+1/2",
  "    -y+1/2,-x+1/2,z+1/2",
  "    -x+1/2,y+1/2,-z+1/2",
  "    y+1/2,x+1/2,z+1/2",
  "    z+1/2,x+1/2,y+1/2",
  "    x+1/2,-z+1/2,-y+1/2",
  "    -z+1/2,-x+1/2,y+1/2",
  "    -x+1/2,z+1/2,-y+1/2",
  "    z+1/2,-x+1/2,-y+1/2",
  "    -x+1/2,-z+1/2,y+1/2",
  "    -z+1/2,x+1/2,-y+1/2",
  "    x+1/2,z+1/2,y+1/2",
  "    y+1/2,z+1/2,x+1/2",
  "    y+1/2,-z+1/2,-x+1/2",
  "    -z+1/2,-y+1/2,x+1/2",
  "    -y+1/2,z+1/2,-x+1/2",
  "    z+1/2,y+1/2,x+1/2",
  "    -y+1/2,-z+1/2,x+1/2",
  "    -z+1/2,y+1/2,-x+1/2",
  "    z+1/2,-y+1/2,-x+1/2",
  "P-43n x,y,z",
  "    x,y,z",
  "    y+1/2,-x+1/2,-z+1/2",
  "    -x,-y,z",
  "    -y+1/2,x+1/2,-z+1/2",
  "    x,-y,-z",
  "    -y+1/2,-x+1/2,z+1/2",
  "    -x,y,-z",
  "    y+1/2,x+1/2,z+1/2",
  "    z,x,y",
  "    x+1/2,-z+1/2,-y+1/2",
  "    -z,-x,y",
  "    -x+1/2,z+1/2,-y+1/2",
  "    z,-x,-y",
  "    -x+1/2,-z+1/2,y+1/2",
  "    -z,x,-y",
  "    x+1/2,z+1/2,y+1/2",
  "    y,z,x",
  "    y,-z,-x",
  "    -z+1/2,-y+1/2,x+1/2",
  "    -y,z,-x",
  "    z+1/2,y+1/2,x+1/2",
  "    -y,-z,x",
  "    -z+1/2,y+1/2,-x+1/2",
  "    z+1/2,-y+1/2,-x+1/2",
  "F-43c x,y,z",
  "    x,y,z",
  "    y+1/2,-x,-z",
  "    -x+1/2,-y+1/2,z",
  "    -y,x+1/2,-z",
  "    x,-y,-z",
  "    -y+1/2,-x,z",
  "    -x+1/2,y+1/2,-z",
  "    y,x+1/2,z",
  "    z,x,y",
  "    x+1/2,-z,-y",
  "    -z+1/2,-x+1/2,y",
  "    -x,z+1/2,-y",
  "    z,-x,-y",
  "    -x+1/2,-z,y",
  "    -z+1/2,x+1/2,-y",
  "    x,z+1/2,y",
  "    y,z,x",
  "    y,-z+1/2,-x+1/2",
  "    -z,-y,x+1/2",
  "    -y+1/2,z,-x+1/2",
  "    z+1/2,y,x",
  "    -y,-z,x",
  "    -z,y,-x+1/2",
  "    z+1/2,-y+1/2,-x+1/2",
  "    x,y+1/2,z+1/2",
  "    y+1/2,-x+1/2,-z+1/2",
  "    -x+1/2,-y+1,z+1/2",
  "    -y,x+1,-z+1/2",
  "    x,-y+1/2,-z+1/2",
  "    -y+1/2,-x+1/2,z+1/2",
  "    -x+1/2,y+1,-z+1/2",
  "    y,x+1,z+1/2",
  "    z,x+1/2,y+1/2",
  "    x+1/2,-z+1/2,-y+1/2",
  "    -z+1/2,-x+1,y+1/2",
  "    -x,z+1,-y+1/2",
  "    z,-x+1/2,-y+1/2",
  "    -x+1/2,-z+1/2,y+1/2",
  "    -z+1/2,x+1,-y+1/2",
  "    x,z+1,y+1/2",
  "    y,z+1/2,x+1/2",
  "    y,-z+1,-x+1",
  "    -z,-y+1/2,x+1",
  "    -y+1/2,z+1/2,-x+1",
  "    z+1/2,y+1/2,x+1/2",
  "    -y,-z+1/2,x+1/2",
  "    -z,y+1/2,-x+1",
  "    z+1/2,-y+1,-x+1",
  "    x+1/2,y,z+1/2",
  "    y+1,-x,-z+1/2",
  "    -x+1,-y+1/2,z+1/2",
  "    -y+1/2,x+1/2,-z+1/2",
  "    x+1/2,-y,-z+1/2",
  "    -y+1,-x,z+1/2",
  "    -x+1,y+1/2,-z+1/2",
  "    y+1/2,x+1/2,z+1/2",
  "    z+1/2,x,y+1/2",
  "    x+1,-z,-y+1/2",
  "    -z+1,-x+1/2,y+1/2",
  "    -x+1/2,z+1/2,-y+1/2",
  "    z+1/2,-x,-y+1/2",
  "    -x+1,-z,y+1/2",
  "    -z+1,x+1/2,-y+1/2",
  "    x+1/2,z+1/2,y+1/2",
  "    y+1/2,z,x+1/2",
  "    y+1/2,-z+1/2,-x+1",
  "    -z+1/2,-y,x+1",
  "    -y+1,z,-x+1",
  "    z+1,y,x+1/2",
  "    -y+1/2,-z,x+1/2",
  "    -z+1/2,y,-x+1",
  "    z+1,-y+1/2,-x+1",
  "    x+1/2,y+1/2,z",
  "    y+1,-x+1/2,-z",
  "    -x+1,-y+1,z",
  "    -y+1/2,x+1,-z",
  "    x+1/2,-y+1/2,-z",
  "    -y+1,-x+1/2,z",
  "    -x+1,y+1,-z",
  "    y+1/2,x+1,z",
  "    z+1/2,x+1/2,y",
  "    x+1,-z+1/2,-y",
  "    -z+1,-x+1,y",
  "    -x+1/2,z+1,-y",
  "    z+1/2,-x+1/2,-y",
  "    -x+1,-z+1/2,y",
  "    -z+1,x+1,-y",
  "    x+1/2,z+1,y",
  "    y+1/2,z+1/2,x",
  "    y+1/2,-z+1,-x+1/2",
  "    -z+1/2,-y+1/2,x+1/2",
  "    -y+1,z+1/2,-x+1/2",
  "    z+1,y+1/2,x",
  "    -y+1/2,-z+1/2,x",
  "    -z+1/2,y+1/2,-x+1/2",
  "    z+1,-y+1,-x+1/2",
  "I-43d x,y,z",
  "    x,y,z",
  "    y+1/4,-x+3/4,-z+1/4",
  "    -x,-y+1/2,z",
  "    -y+3/4,x+3/4,-z+1/4",
  "    x,-y,-z+1/2",
  "    -y+1/4,-x+3/4,z+3/4",
  "    -x,y+1/2,-z+1/2",
  "    y+3/4,x+3/4,z+3/4",
  "    z,x,y",
  "    x+1/4,-z+3/4,-y+1/4",
  "    -z,-x+1/2,y",
  "    -x+3/4,z+3/4,-y+1/4",
  "    z,-x,-y+1/2",
  "    -x+1/4,-z+3/4,y+3/4",
  "    -z,x+1/2,-y+1/2",
  "    x+3/4,z+3/4,y+3/4",
  "    y,z,x",
  "    y,-z,-x+1/2",
  "    -z+1/4,-y+3/4,x+3/4",
  "    -y,z+1/2,-x+1/2",
  "    z+1/4,y+1/4,x+1/4",
  "    -y+1/2,-z,x+1/2",
  "    -z+1/4,y+1/4,-x+3/4",
  "    z+3/4,-y+1/4,-x+3/4",
  "    x+1/2,y+1/2,z+1/2",
  "    y+3/4,-x+5/4,-z+3/4",
  "    -x+1/2,-y+1,z+1/2",
  "    -y+5/4,x+5/4,-z+3/4",
  "    x+1/2,-y+1/2,-z+1",
  "    -y+3/4,-x+5/4,z+5/4",
  "    -x+1/2,y+1,-z+1",
  "    y+5/4,x+5/4,z+5/4",
  "    z+1/2,x+1/2,y+1/2",
  "    x+3/4,-z+5/4,-y+3/4",
  "    -z+1/2,-x+1,y+1/2",
  "    -x+5/4,z+5/4,-y+3/4",
  "    z+1/2,-x+1/2,-y+1",
  "    -x+3/4,-z+5/4,y+5/4",
  "    -z+1/2,x+1,-y+1",
  "    x+5/4,z+5/4,y+5/4",
  "    y+1/2,z+1/2,x+1/2",
  "    y+1/2,-z+1/2,-x+1",
  "    -z+3/4,-y+5/4,x+5/4",
  "    -y+1/2,z+1,-x+1",
  "    z+3/4,y+3/4,x+3/4",
  "    -y+1,-z+1/2,x+1",
  "    -z+3/4,y+3/4,-x+5/4",
  "    z+5/4,-y+3/4,-x+5/4",
  "Pm-3m x,y,z",
  "    x,y,z",
  "    -y,x,z",
  "    -x,-y,z",
  "    y,-x,z",
  "    x,-y,-z",
  "    y,x,-z",
  "    -x,y,-z",
  "    -y,-x,-z",
  "    z,x,y",
  "    -x,z,y",
  "    -z,-x,y",
  "    x,-z,y",
  "    z,-x,-y",
  "    x,z,-y",
  "    -z,x,-y",
  "    -x,-z,-y",
  "    y,z,x",
  "    y,-z,-x",
  "    z,y,-x",
  "    -y,z,-x",
  "    -z,-y,-x",
  "    -y,-z,x",
  "    z,-y,x",
  "    -z,y,x",
  "    -x,-y,-z",
  "    y,-x,-z",
  "    x,y,-z",
  "    -y,x,-z",
  "    -x,y,z",
  "    -y,-x,z",
  "    x,-y,z",
  "    y,x,z",
  "    -z,-x,-y",
  "    x,-z,-y",
  "    z,x,-y",
  "    -x,z,-y",
  "    -z,x,y",
  "    -x,-z,y",
  "    z,-x,y",
  "    x,z,y",
  "    -y,-z,-x",
  "    -y,z,x",
  "    -z,-y,x",
  "    y,-z,x",
  "    z,y,x",
  "    y,z,-x",
  "    -z,y,-x",
  "    z,-y,-x"]

end Systre.Table
