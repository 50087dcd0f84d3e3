/-! Written by tools/gen_sgtable.py. Lines 5721 to 6087 of src/data/sgtable.data. -/

namespace Systre.Table
set_option maxRecDepth 100000

/-- lines 5721 to 6087 of src/data/sgtable.data -/
def sgLines15 : List String := [
  "F432 x,y,z",
  "    x,y,z",
  "    -y,x,z",
  "    -x,-y,z",
  "    y,-x,z",
  "    x,-y,-z",
  "    y,x,-z",
  "    -x,y,-z",
  "    -y,-x,-z",
  "    z,x,y",
  "    -x,z,y",
  "    -z,-x,y",
  "    x,-z,y",
  "    z,-x,-y",
  "    x,z,-y",
  "    -z,x,-y",
  "    -x,-z,-y",
  "    y,z,x",
  "    y,-z,-x",
  "    z,y,-x",
  "    -y,z,-x",
  "    -z,-y,-x",
  "    -y,-z,x",
  "    z,-y,x",
  "    -z,y,x",
  "    x,y+1/2,z+1/2",
  "    -y,x+1/2,z+1/2",
  "    -x,-y+1/2,z+1/2",
  "    y,-x+1/2,z+1/2",
  "    x,-y+1/2,-z+1/2",
  "    y,x+1/2,-z+1/2",
  "    -x,y+1/2,-z+1/2",
  "    -y,-x+1/2,-z+1/2",
  "    z,x+1/2,y+1/2",
  "    -x,z+1/2,y+1/2",
  "    -z,-x+1/2,y+1/2",
  "    x,-z+1/2,y+1/2",
  "    z,-x+1/2,-y+1/2",
  "    x,z+1/2,-y+1/2",
  "    -z,x+1/2,-y+1/2",
  "    -x,-z+1/2,-y+1/2",
  "    y,z+1/2,x+1/2",
  "    y,-z+1/2,-x+1/2",
  "    z,y+1/2,-x+1/2",
  "    -y,z+1/2,-x+1/2",
  "    -z,-y+1/2,-x+1/2",
  "    -y,-z+1/2,x+1/2",
  "    z,-y+1/2,x+1/2",
  "    -z,y+1/2,x+1/2",
  "    x+1/2,y,z+1/2",
  "    -y+1/2,x,z+1/2",
  "    -x+1/2,-y,z+1/2",
  "    y+1/2,-x,z+1/2",
  "    x+1/2,-y,-z+1/2",
  "    y+1/2,x,-z+1/2",
  "    -x+1/2,y,-z+1/2",
  "    -y+1/2,-x,-z+1/2",
  "    z+1/2,x,y+1/2",
  "    -x+1/2,z,y+1/2",
  "    -z+1/2,-x,y+1/2",
  "    x+1/2,-z,y+1/2",
  "    z+1/2,-x,-y+1/2",
  "    x+1/2,z,-y+1/2",
  "    -z+1/2,x,-y+1/2",
  "    -x+1/2,-z,-y+1/2",
  "    y+1/2,z,x+1/2",
  "    y+1/2,-z,-x+1/2",
  "    z+1/2,y,-x+1/2",
  "    -y+1/2,z,-x+1/2",
  "    -z+1/2,-y,-x+1/2",
  "    -y+1/2,-z,x+1/2",
  "    z+1/2,-y,x+1/2",
  "    -z+1/2,y,x+1/2",
  "    x+1/2,y+1/2,z",
  "    -y+1/2,x+1/2,z",
  "    -x+1/2,-y+1/2,z",
  "    y+1/2,-x+1/2,z",
  "    x+1/2,-y+1/2,-z",
  "    y+1/2,x+1/2,-z",
  "    -x+1/2,y+1/2,-z",
  "    -y+1/2,-x+1/2,-z",
  "    z+1/2,x+1/2,y",
  "    -x+1/2,z+1/2,y",
  "    -z+1/2,-x+1/2,y",
  "    x+1/2,-z+1/2,y",
  "    z+1/2,-x+1/2,-y",
  "    x+1/2,z+1/2,-y",
  "    -z+1/2,x+1/2,-y",
  "    -x+1/2,-z+1/2,-y",
  "    y+1/2,z+1/2,x",
  "    y+1/2,-z+1/2,-x",
  "    z+1/2,y+1/2,-x",
  "    -y+1/2,z+1/2,-x",
  "    -z+1/2,-y+1/2,-x",
  "    -y+1/2,-z+1/2,x",
  "    z+1/2,-y+1/2,x",
  "    -z+1/2,y+1/2,x",
  "F4132 x,y,z",
  "    x,y,z",
  "    -y+1/4,x+1/4,z+1/4",
  "    -x,-y+1/2,z+1/2",
  "    y+3/4,-x+1/4,z+3/4",
  "    x,-y,-z",
  "    y+1/4,x+1/4,-z+1/4",
  "    -x,y+1/2,-z+1/2",
  "    -y+3/4,-x+1/4,-z+3/4",
  "    z,x,y",
  "    -x+1/4,z+1/4,y+1/4",
  "    -z,-x+1/2,y+1/2",
  "    x+3/4,-z+1/4,y+3/4",
  "    z,-x,-y",
  "    x+1/4,z+1/4,-y+1/4",
  "    -z,x+1/2,-y+1/2",
  "    -x+3/4,-z+1/4,-y+3/4",
  "    y,z,x",
  "    y+1/2,-z,-x+1/2",
  "    z+1/4,y+3/4,-x+3/4",
  "    -y+1/2,z+1/2,-x",
  "    -z+1/4,-y+1/4,-x+1/4",
  "    -y,-z,x",
  "    z+1/4,-y+3/4,x+3/4",
  "    -z+3/4,y+3/4,x+1/4",
  "    x,y+1/2,z+1/2",
  "    -y+1/4,x+3/4,z+3/4",
  "    -x,-y+1,z+1",
  "    y+3/4,-x+3/4,z+5/4",
  "    x,-y+1/2,-z+1/2",
  "    y+1/4,x+3/4,-z+3/4",
  "    -x,y+1,-z+1",
  "    -y+3/4,-x+3/4,-z+5/4",
  "    z,x+1/2,y+1/2",
  "    -x+1/4,z+3/4,y+3/4",
  "    -z,-x+1,y+1",
  "    x+3/4,-z+3/4,y+5/4",
  "    z,-x+1/2,-y+1/2",
  "    x+1/4,z+3/4,-y+3/4",
  "    -z,x+1,-y+1",
  "    -x+3/4,-z+3/4,-y+5/4",
  "    y,z+1/2,x+1/2",
  "    y+1/2,-z+1/2,-x+1",
  "    z+1/4,y+5/4,-x+5/4",
  "    -y+1/2,z+1,-x+1/2",
  "    -z+1/4,-y+3/4,-x+3/4",
  "    -y,-z+1/2,x+1/2",
  "    z+1/4,-y+5/4,x+5/4",
  "    -z+3/4,y+5/4,x+3/4",
  "    x+1/2,y,z+1/2",
  "    -y+3/4,x+1/4,z+3/4",
  "    -x+1/2,-y+1/2,z+1",
  "    y+5/4,-x+1/4,z+5/4",
  "    x+1/2,-y,-z+1/2",
  "    y+3/4,x+1/4,-z+3/4",
  "    -x+1/2,y+1/2,-z+1",
  "    -y+5/4,-x+1/4,-z+5/4",
  "    z+1/2,x,y+1/2",
  "    -x+3/4,z+1/4,y+3/4",
  "    -z+1/2,-x+1/2,y+1",
  "    x+5/4,-z+1/4,y+5/4",
  "    z+1/2,-x,-y+1/2",
  "    x+3/4,z+1/4,-y+3/4",
  "    -z+1/2,x+1/2,-y+1",
  "    -x+5/4,-z+1/4,-y+5/4",
  "    y+1/2,z,x+1/2",
  "    y+1,-z,-x+1",
  "    z+3/4,y+3/4,-x+5/4",
  "    -y+1,z+1/2,-x+1/2",
  "    -z+3/4,-y+1/4,-x+3/4",
  "    -y+1/2,-z,x+1/2",
  "    z+3/4,-y+3/4,x+5/4",
  "    -z+5/4,y+3/4,x+3/4",
  "    x+1/2,y+1/2,z",
  "    -y+3/4,x+3/4,z+1/4",
  "    -x+1/2,-y+1,z+1/2",
  "    y+5/4,-x+3/4,z+3/4",
  "    x+1/2,-y+1/2,-z",
  "    y+3/4,x+3/4,-z+1/4",
  "    -x+1/2,y+1,-z+1/2",
  "    -y+5/4,-x+3/4,-z+3/4",
  "    z+1/2,x+1/2,y",
  "    -x+3/4,z+3/4,y+1/4",
  "    -z+1/2,-x+1,y+1/2",
  "    x+5/4,-z+3/4,y+3/4",
  "    z+1/2,-x+1/2,-y",
  "    x+3/4,z+3/4,-y+1/4",
  "    -z+1/2,x+1,-y+1/2",
  "    -x+5/4,-z+3/4,-y+3/4",
  "    y+1/2,z+1/2,x",
  "    y+1,-z+1/2,-x+1/2",
  "    z+3/4,y+5/4,-x+3/4",
  "    -y+1,z+1,-x",
  "    -z+3/4,-y+3/4,-x+1/4",
  "    -y+1/2,-z+1/2,x",
  "    z+3/4,-y+5/4,x+3/4",
  "    -z+5/4,y+5/4,x+1/4",
  "I432 x,y,z",
  "    x,y,z",
  "    -y,x,z",
  "    -x,-y,z",
  "    y,-x,z",
  "    x,-y,-z",
  "    y,x,-z",
  "    -x,y,-z",
  "    -y,-x,-z",
  "    z,x,y",
  "    -x,z,y",
  "    -z,-x,y",
  "    x,-z,y",
  "    z,-x,-y",
  "    x,z,-y",
  "    -z,x,-y",
  "    -x,-z,-y",
  "    y,z,x",
  "    y,-z,-x",
  "    z,y,-x",
  "    -y,z,-x",
  "    -z,-y,-x",
  "    -y,-z,x",
  "    z,-y,x",
  "    -z,y,x",
  "    x+1/2,y+1/2,z+1/2",
  "    -y+1/2,x+1/2,z+1/2",
  "    -x+1/2,-y+1/2,z+1/2",
  "    y+1/2,-x+1/2,z+1/2",
  "    x+1/2,-y+1/2,-z+1/2",
  "    y+1/2,x+1/2,-z+1/2",
  "    -x+1/2,y+1/2,-z+1/2",
  "    -y+1/2,-x+1/2,-z+1/2",
  "    z+1/2,x+1/2,y+1/2",
  "    -x+1/2,z+1/2,y+1/2",
  "    -z+1/2,-x+1/2,y+1/2",
  "    x+1/2,-z+1/2,y+1/2",
  "    z+1/2,-x+1/2,-y+1/2",
  "    x+1/2,z+1/2,-y+1/2",
  "    -z+1/2,x+1/2,-y+1/2",
  "    -x+1/2,-z+1/2,-y+1/2",
  "    y+1/2,z+1/2,x+1/2",
  "    y+1/2,-z+1/2,-x+1/2",
  "    z+1/2,y+1/2,-x+1/2",
  "    -y+1/2,z+1/2,-x+1/2",
  "    -z+1/2,-y+1/2,-x+1/2",
  "    -y+1/2,-z+1/2,x+1/2",
  "    z+1/2,-y+1/2,x+1/2",
  "    -z+1/2,y+1/2,x+1/2",
  "P4332 x,y,z",
  "    x,y,z",
  "    -y+3/4,x+1/4,z+3/4",
  "    -x+1/2,-y,z+1/2",
  "    y+3/4,-x+3/4,z+1/4",
  "    x+1/2,-y+1/2,-z",
  "    y+1/4,x+3/4,-z+3/4",
  "    -x,y+1/2,-z+1/2",
  "    -y+1/4,-x+1/4,-z+1/4",
  "    z,x,y",
  "    -x+3/4,z+1/4,y+3/4",
  "    -z+1/2,-x,y+1/2",
  "    x+3/4,-z+3/4,y+1/4",
  "    z+1/2,-x+1/2,-y",
  "    x+1/4,z+3/4,-y+3/4",
  "    -z,x+1/2,-y+1/2",
  "    -x+1/4,-z+1/4,-y+1/4",
  "    y,z,x",
  "    y+1/2,-z+1/2,-x",
  "    z+1/4,y+3/4,-x+3/4",
  "    -y,z+1/2,-x+1/2",
  "    -z+1/4,-y+1/4,-x+1/4",
  "    -y+1/2,-z,x+1/2",
  "    z+3/4,-y+3/4,x+1/4",
  "    -z+3/4,y+1/4,x+3/4",
  "P4132 x,y,z",
  "    x,y,z",
  "    -y+1/4,x+3/4,z+1/4",
  "    -x+1/2,-y,z+1/2",
  "    y+1/4,-x+1/4,z+3/4",
  "    x+1/2,-y+1/2,-z",
  "    y+3/4,x+1/4,-z+1/4",
  "    -x,y+1/2,-z+1/2",
  "    -y+3/4,-x+3/4,-z+3/4",
  "    z,x,y",
  "    -x+1/4,z+3/4,y+1/4",
  "    -z+1/2,-x,y+1/2",
  "    x+1/4,-z+1/4,y+3/4",
  "    z+1/2,-x+1/2,-y",
  "    x+3/4,z+1/4,-y+1/4",
  "    -z,x+1/2,-y+1/2",
  "    -x+3/4,-z+3/4,-y+3/4",
  "    y,z,x",
  "    y+1/2,-z+1/2,-x",
  "    z+3/4,y+1/4,-x+1/4",
  "    -y,z+1/2,-x+1/2",
  "    -z+3/4,-y+3/4,-x+3/4",
  "    -y+1/2,-z,x+1/2",
  "    z+1/4,-y+1/4,x+3/4",
  "    -z+1/4,y+3/4,x+1/4",
  "I4132 x,y,z",
  "    x,y,z",
  "    -y+1/4,x+3/4,z+1/4",
  "    -x+1/2,-y,z+1/2",
  "    y+1/4,-x+1/4,z+3/4",
  "    x,-y,-z+1/2",
  "    y+1/4,x+3/4,-z+3/4",
  "    -x+1/2,y,-z",
  "    -y+1/4,-x+1/4,-z+1/4",
  "    z,x,y",
  "    -x+1/4,z+3/4,y+1/4",
  "    -z+1/2,-x,y+1/2",
  "    x+1/4,-z+1/4,y+3/4",
  "    z,-x,-y+1/2",
  "    x+1/4,z+3/4,-y+3/4",
  "    -z+1/2,x,-y",
  "    -x+1/4,-z+1/4,-y+1/4",
  "    y,z,x",
  "    y+1/2,-z+1/2,-x",
  "    z+3/4,y+1/4,-x+1/4",
  "    -y,z+1/2,-x+1/2",
  "    -z+1/4,-y+1/4,-x+1/4",
  "    -y+1/2,-z,x+1/2",
  "    z+3/4,-y+3/4,x+1/4",
  "    -z+3/4,y+1/4,x+3/4",
  "    x+1/2,y+1/2,z+1/2",
  "    -y+3/4,x+5/4,z+3/4",
  "    -x+1,-y+1/2,z+1",
  "    y+3/4,-x+3/4,z+5/4",
  "    x+1/2,-y+1/2,-z+1",
  "    y+3/4,x+5/4,-z+5/4",
  "    -x+1,y+1/2,-z+1/2",
  "    -y+3/4,-x+3/4,-z+3/4",
  "    z+1/2,x+1/2,y+1/2",
  "    -x+3/4,z+5/4,y+3/4",
  "    -z+1,-x+1/2,y+1",
  "    x+3/4,-z+3/4,y+5/4",
  "    z+1/2,-x+1/2,-y+1",
  "    x+3/4,z+5/4,-y+5/4",
  "    -z+1,x+1/2,-y+1/2",
  "    -x+3/4,-z+3/4,-y+3/4",
  "    y+1/2,z+1/2,x+1/2",
  "    y+1,-z+1,-x+1/2",
  "    z+5/4,y+3/4,-x+3/4",
  "    -y+1/2,z+1,-x+1",
  "    -z+3/4,-y+3/4,-x+3/4",
  "    -y+1,-z+1/2,x+1",
  "    z+5/4,-y+5/4,x+3/4",
  "    -z+5/4,y+3/4,x+5/4",
  "P-43m x,y,z",
  "    x,y,z",
  "    y,-x,-z",
  "    -x,-y,z",
  "    -y,x,-z",
  "    x,-y,-z",
  "    -y,-x,z",
  "    -x,y,-z",
  "    y,x,z",
  "    z,x,y",
  "    x,-z,-y",
  "    -z,-x,y",
  "    -x,z,-y",
  "    z,-x,-y",
  "    -x,-z,y",
  "    -z,x,-y",
  "    x,z,y",
  "    y,z,x",
  "    y,-z,-x",
  "    -z,-y,x",
  "    -y,z,-x",
  "    z,y,x",
  "    -y,-z,x",
  "    -z,y,-x",
  "    z,-y,-x"]

end Systre.Table
