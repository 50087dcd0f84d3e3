/-! Written by tools/gen_sgtable.py. Lines 5070 to 5353 of src/data/sgtable.data. -/

namespace Systre.Table
set_option maxRecDepth 100000

/-- lines 5070 to 5353 of src/data/sgtable.data -/
def sgLines13 : List String := [
  "F23 x,y,z",
  "    x,y,z",
  "    -x,-y,z",
  "    x,-y,-z",
  "    -x,y,-z",
  "    z,x,y",
  "    -z,-x,y",
  "    z,-x,-y",
  "    -z,x,-y",
  "    y,z,x",
  "    y,-z,-x",
  "    -y,z,-x",
  "    -y,-z,x",
  "    x,y+1/2,z+1/2",
  "    -x,-y+1/2,z+1/2",
  "    x,-y+1/2,-z+1/2",
  "    -x,y+1/2,-z+1/2",
  "    z,x+1/2,y+1/2",
  "    -z,-x+1/2,y+1/2",
  "    z,-x+1/2,-y+1/2",
  "    -z,x+1/2,-y+1/2",
  "    y,z+1/2,x+1/2",
  "    y,-z+1/2,-x+1/2",
  "    -y,z+1/2,-x+1/2",
  "    -y,-z+1/2,x+1/2",
  "    x+1/2,y,z+1/2",
  "    -x+1/2,-y,z+1/2",
  "    x+1/2,-y,-z+1/2",
  "    -x+1/2,y,-z+1/2",
  "    z+1/2,x,y+1/2",
  "    -z+1/2,-x,y+1/2",
  "    z+1/2,-x,-y+1/2",
  "    -z+1/2,x,-y+1/2",
  "    y+1/2,z,x+1/2",
  "    y+1/2,-z,-x+1/2",
  "    -y+1/2,z,-x+1/2",
  "    -y+1/2,-z,x+1/2",
  "    x+1/2,y+1/2,z",
  "    -x+1/2,-y+1/2,z",
  "    x+1/2,-y+1/2,-z",
  "    -x+1/2,y+1/2,-z",
  "    z+1/2,x+1/2,y",
  "    -z+1/2,-x+1/2,y",
  "    z+1/2,-x+1/2,-y",
  "    -z+1/2,x+1/2,-y",
  "    y+1/2,z+1/2,x",
  "    y+1/2,-z+1/2,-x",
  "    -y+1/2,z+1/2,-x",
  "    -y+1/2,-z+1/2,x",
  "I23 x,y,z",
  "    x,y,z",
  "    -x,-y,z",
  "    x,-y,-z",
  "    -x,y,-z",
  "    z,x,y",
  "    -z,-x,y",
  "    z,-x,-y",
  "    -z,x,-y",
  "    y,z,x",
  "    y,-z,-x",
  "    -y,z,-x",
  "    -y,-z,x",
  "    x+1/2,y+1/2,z+1/2",
  "    -x+1/2,-y+1/2,z+1/2",
  "    x+1/2,-y+1/2,-z+1/2",
  "    -x+1/2,y+1/2,-z+1/2",
  "    z+1/2,x+1/2,y+1/2",
  "    -z+1/2,-x+1/2,y+1/2",
  "    z+1/2,-x+1/2,-y+1/2",
  "    -z+1/2,x+1/2,-y+1/2",
  "    y+1/2,z+1/2,x+1/2",
  "    y+1/2,-z+1/2,-x+1/2",
  "    -y+1/2,z+1/2,-x+1/2",
  "    -y+1/2,-z+1/2,x+1/2",
  "P213 x,y,z",
  "    x,y,z",
  "    -x+1/2,-y,z+1/2",
  "    x+1/2,-y+1/2,-z",
  "    -x,y+1/2,-z+1/2",
  "    z,x,y",
  "    -z+1/2,-x,y+1/2",
  "    z+1/2,-x+1/2,-y",
  "    -z,x+1/2,-y+1/2",
  "    y,z,x",
  "    y+1/2,-z+1/2,-x",
  "    -y,z+1/2,-x+1/2",
  "    -y+1/2,-z,x+1/2",
  "I213 x,y,z",
  "    x,y,z",
  "    -x,-y+1/2,z",
  "    x,-y,-z+1/2",
  "    -x,y+1/2,-z+1/2",
  "    z,x,y",
  "    -z,-x+1/2,y",
  "    z,-x,-y+1/2",
  "    -z,x+1/2,-y+1/2",
  "    y,z,x",
  "    y,-z,-x+1/2",
  "    -y,z+1/2,-x+1/2",
  "    -y+1/2,-z,x+1/2",
  "    x+1/2,y+1/2,z+1/2",
  "    -x+1/2,-y+1,z+1/2",
  "    x+1/2,-y+1/2,-z+1",
  "    -x+1/2,y+1,-z+1",
  "    z+1/2,x+1/2,y+1/2",
  "    -z+1/2,-x+1,y+1/2",
  "    z+1/2,-x+1/2,-y+1",
  "    -z+1/2,x+1,-y+1",
  "    y+1/2,z+1/2,x+1/2",
  "    y+1/2,-z+1/2,-x+1",
  "    -y+1/2,z+1,-x+1",
  "    -y+1,-z+1/2,x+1",
  "Pm-3 x,y,z",
  "    x,y,z",
  "    -x,-y,z",
  "    x,-y,-z",
  "    -x,y,-z",
  "    z,x,y",
  "    -z,-x,y",
  "    z,-x,-y",
  "    -z,x,-y",
  "    y,z,x",
  "    y,-z,-x",
  "    -y,z,-x",
  "    -y,-z,x",
  "    -x,-y,-z",
  "    x,y,-z",
  "    -x,y,z",
  "    x,-y,z",
  "    -z,-x,-y",
  "    z,x,-y",
  "    -z,x,y",
  "    z,-x,y",
  "    -y,-z,-x",
  "    -y,z,x",
  "    y,-z,x",
  "    y,z,-x",
  "Pn-3:2 x,y,z",
  "    x,y,z",
  "    -x+1/2,-y+1/2,z",
  "    x,-y+1/2,-z+1/2",
  "    -x+1/2,y,-z+1/2",
  "    z,x,y",
  "    -z+1/2,-x+1/2,y",
  "    z,-x+1/2,-y+1/2",
  "    -z+1/2,x,-y+1/2",
  "    y,z,x",
  "    y,-z+1/2,-x+1/2",
  "    -y+1/2,z,-x+1/2",
  "    -y+1/2,-z+1/2,x",
  "    -x,-y,-z",
  "    x-1/2,y-1/2,-z",
  "    -x,y-1/2,z-1/2",
  "    x-1/2,-y,z-1/2",
  "    -z,-x,-y",
  "    z-1/2,x-1/2,-y",
  "    -z,x-1/2,y-1/2",
  "    z-1/2,-x,y-1/2",
  "    -y,-z,-x",
  "    -y,z-1/2,x-1/2",
  "    y-1/2,-z,x-1/2",
  "    y-1/2,z-1/2,-x",
  "Pn-3:1 x+1/4,y+1/4,z+1/4",
  "    x,y,z",
  "    -x,-y,z",
  "    x,-y,-z",
  "    -x,y,-z",
  "    z,x,y",
  "    -z,-x,y",
  "    z,-x,-y",
  "    -z,x,-y",
  "    y,z,x",
  "    y,-z,-x",
  "    -y,z,-x",
  "    -y,-z,x",
  "    -x+1/2,-y+1/2,-z+1/2",
  "    x+1/2,y+1/2,-z+1/2",
  "    -x+1/2,y+1/2,z+1/2",
  "    x+1/2,-y+1/2,z+1/2",
  "    -z+1/2,-x+1/2,-y+1/2",
  "    z+1/2,x+1/2,-y+1/2",
  "    -z+1/2,x+1/2,y+1/2",
  "    z+1/2,-x+1/2,y+1/2",
  "    -y+1/2,-z+1/2,-x+1/2",
  "    -y+1/2,z+1/2,x+1/2",
  "    y+1/2,-z+1/2,x+1/2",
  "    y+1/2,z+1/2,-x+1/2",
  "Fm-3 x,y,z",
  "    x,y,z",
  "    -x,-y,z",
  "    x,-y,-z",
  "    -x,y,-z",
  "    z,x,y",
  "    -z,-x,y",
  "    z,-x,-y",
  "    -z,x,-y",
  "    y,z,x",
  "    y,-z,-x",
  "    -y,z,-x",
  "    -y,-z,x",
  "    -x,-y,-z",
  "    x,y,-z",
  "    -x,y,z",
  "    x,-y,z",
  "    -z,-x,-y",
  "    z,x,-y",
  "    -z,x,y",
  "    z,-x,y",
  "    -y,-z,-x",
  "    -y,z,x",
  "    y,-z,x",
  "    y,z,-x",
  "    x,y+1/2,z+1/2",
  "    -x,-y+1/2,z+1/2",
  "    x,-y+1/2,-z+1/2",
  "    -x,y+1/2,-z+1/2",
  "    z,x+1/2,y+1/2",
  "    -z,-x+1/2,y+1/2",
  "    z,-x+1/2,-y+1/2",
  "    -z,x+1/2,-y+1/2",
  "    y,z+1/2,x+1/2",
  "    y,-z+1/2,-x+1/2",
  "    -y,z+1/2,-x+1/2",
  "    -y,-z+1/2,x+1/2",
  "    -x,-y+1/2,-z+1/2",
  "    x,y+1/2,-z+1/2",
  "    -x,y+1/2,z+1/2",
  "    x,-y+1/2,z+1/2",
  "    -z,-x+1/2,-y+1/2",
  "    z,x+1/2,-y+1/2",
  "    -z,x+1/2,y+1/2",
  "    z,-x+1/2,y+1/2",
  "    -y,-z+1/2,-x+1/2",
  "    -y,z+1/2,x+1/2",
  "    y,-z+1/2,x+1/2",
  "    y,z+1/2,-x+1/2",
  "    x+1/2,y,z+1/2",
  "    -x+1/2,-y,z+1/2",
  "    x+1/2,-y,-z+1/2",
  "    -x+1/2,y,-z+1/2",
  "    z+1/2,x,y+1/2",
  "    -z+1/2,-x,y+1/2",
  "    z+1/2,-x,-y+1/2",
  "    -z+1/2,x,-y+1/2",
  "    y+1/2,z,x+1/2",
  "    y+1/2,-z,-x+1/2",
  "    -y+1/2,z,-x+1/2",
  "    -y+1/2,-z,x+1/2",
  "    -x+1/2,-y,-z+1/2",
  "    x+1/2,y,-z+1/2",
  "    -x+1/2,y,z+1/2",
  "    x+1/2,-y,z+1/2",
  "    -z+1/2,-x,-y+1/2",
  "    z+1/2,x,-y+1/2",
  "    -z+1/2,x,y+1/2",
  "    z+1/2,-x,y+1/2",
  "    -y+1/2,-z,-x+1/2",
  "    -y+1/2,z,x+1/2",
  "    y+1/2,-z,x+1/2",
  "    y+1/2,z,-x+1/2",
  "    x+1/2,y+1/2,z",
  "    -x+1/2,-y+1/2,z",
  "    x+1/2,-y+1/2,-z",
  "    -x+1/2,y+1/2,-z",
  "    z+1/2,x+1/2,y",
  "    -z+1/2,-x+1/2,y",
  "    z+1/2,-x+1/2,-y",
  "    -z+1/2,x+1/2,-y",
  "    y+1/2,z+1/2,x",
  "    y+1/2,-z+1/2,-x",
  "    -y+1/2,z+1/2,-x",
  "    -y+1/2,-z+1/2,x",
  "    -x+1/2,-y+1/2,-z",
  "    x+1/2,y+1/2,-z",
  "    -x+1/2,y+1/2,z",
  "    x+1/2,-y+1/2,z",
  "    -z+1/2,-x+1/2,-y",
  "    z+1/2,x+1/2,-y",
  "    -z+1/2,x+1/2,y",
  "    z+1/2,-x+1/2,y",
  "    -y+1/2,-z+1/2,-x",
  "    -y+1/2,z+1/2,x",
  "    y+1/2,-z+1/2,x",
  "    y+1/2,z+1/2,-x"]

end Systre.Table
