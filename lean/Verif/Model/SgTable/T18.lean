/-! Written by tools/gen_sgtable.py. Lines 6892 to 7084 of src/data/sgtable.data. -/

namespace Systre.Table
set_option maxRecDepth 100000

/-- lines 6892 to 7084 of src/data/sgtable.data -/
def sgLines18 : List String := [
  "Fm-3c x,y,z",
  "    x,y,z",
  "    -y+1/2,x,z",
  "    -x+1/2,-y+1/2,z",
  "    y,-x+1/2,z",
  "    x,-y,-z",
  "    y+1/2,x,-z",
  "    -x+1/2,y+1/2,-z",
  "    -y,-x+1/2,-z",
  "    z,x,y",
  "    -x+1/2,z,y",
  "    -z+1/2,-x+1/2,y",
  "    x,-z+1/2,y",
  "    z,-x,-y",
  "    x+1/2,z,-y",
  "    -z+1/2,x+1/2,-y",
  "    -x,-z+1/2,-y",
  "    y,z,x",
  "    y,-z+1/2,-x+1/2",
  "    z,y,-x+1/2",
  "    -y+1/2,z,-x+1/2",
  "    -z+1/2,-y,-x",
  "    -y,-z,x",
  "    z,-y,x+1/2",
  "    -z+1/2,y+1/2,x+1/2",
  "    -x,-y,-z",
  "    y-1/2,-x,-z",
  "    x-1/2,y-1/2,-z",
  "    -y,x-1/2,-z",
  "    -x,y,z",
  "    -y-1/2,-x,z",
  "    x-1/2,-y-1/2,z",
  "    y,x-1/2,z",
  "    -z,-x,-y",
  "    x-1/2,-z,-y",
  "    z-1/2,x-1/2,-y",
  "    -x,z-1/2,-y",
  "    -z,x,y",
  "    -x-1/2,-z,y",
  "    z-1/2,-x-1/2,y",
  "    x,z-1/2,y",
  "    -y,-z,-x",
  "    -y,z-1/2,x-1/2",
  "    -z,-y,x-1/2",
  "    y-1/2,-z,x-1/2",
  "    z-1/2,y,x",
  "    y,z,-x",
  "    -z,y,-x-1/2",
  "    z-1/2,-y-1/2,-x-1/2",
  "    x,y+1/2,z+1/2",
  "    -y+1/2,x+1/2,z+1/2",
  "    -x+1/2,-y+1,z+1/2",
  "    y,-x+1,z+1/2",
  "    x,-y+1/2,-z+1/2",
  "    y+1/2,x+1/2,-z+1/2",
  "    -x+1/2,y+1,-z+1/2",
  "    -y,-x+1,-z+1/2",
  "    z,x+1/2,y+1/2",
  "    -x+1/2,z+1/2,y+1/2",
  "    -z+1/2,-x+1,y+1/2",
  "    x,-z+1,y+1/2",
  "    z,-x+1/2,-y+1/2",
  "    x+1/2,z+1/2,-y+1/2",
  "    -z+1/2,x+1,-y+1/2",
  "    -x,-z+1,-y+1/2",
  "    y,z+1/2,x+1/2",
  "    y,-z+1,-x+1",
  "    z,y+1/2,-x+1",
  "    -y+1/2,z+1/2,-x+1",
  "    -z+1/2,-y+1/2,-x+1/2",
  "    -y,-z+1/2,x+1/2",
  "    z,-y+1/2,x+1",
  "    -z+1/2,y+1,x+1",
  "    -x,-y+1/2,-z+1/2",
  "    y-1/2,-x+1/2,-z+1/2",
  "    x-1/2,y,-z+1/2",
  "    -y,x,-z+1/2",
  "    -x,y+1/2,z+1/2",
  "    -y-1/2,-x+1/2,z+1/2",
  "    x-1/2,-y,z+1/2",
  "    y,x,z+1/2",
  "    -z,-x+1/2,-y+1/2",
  "    x-1/2,-z+1/2,-y+1/2",
  "    z-1/2,x,-y+1/2",
  "    -x,z,-y+1/2",
  "    -z,x+1/2,y+1/2",
  "    -x-1/2,-z+1/2,y+1/2",
  "    z-1/2,-x,y+1/2",
  "    x,z,y+1/2",
  "    -y,-z+1/2,-x+1/2",
  "    -y,z,x",
  "    -z,-y+1/2,x",
  "    y-1/2,-z+1/2,x",
  "    z-1/2,y+1/2,x+1/2",
  "    y,z+1/2,-x+1/2",
  "    -z,y+1/2,-x",
  "    z-1/2,-y,-x",
  "    x+1/2,y,z+1/2",
  "    -y+1,x,z+1/2",
  "    -x+1,-y+1/2,z+1/2",
  "    y+1/2,-x+1/2,z+1/2",
  "    x+1/2,-y,-z+1/2",
  "    y+1,x,-z+1/2",
  "    -x+1,y+1/2,-z+1/2",
  "    -y+1/2,-x+1/2,-z+1/2",
  "    z+1/2,x,y+1/2",
  "    -x+1,z,y+1/2",
  "    -z+1,-x+1/2,y+1/2",
  "    x+1/2,-z+1/2,y+1/2",
  "    z+1/2,-x,-y+1/2",
  "    x+1,z,-y+1/2",
  "    -z+1,x+1/2,-y+1/2",
  "    -x+1/2,-z+1/2,-y+1/2",
  "    y+1/2,z,x+1/2",
  "    y+1/2,-z+1/2,-x+1",
  "    z+1/2,y,-x+1",
  "    -y+1,z,-x+1",
  "    -z+1,-y,-x+1/2",
  "    -y+1/2,-z,x+1/2",
  "    z+1/2,-y,x+1",
  "    -z+1,y+1/2,x+1",
  "    -x+1/2,-y,-z+1/2",
  "    y,-x,-z+1/2",
  "    x,y-1/2,-z+1/2",
  "    -y+1/2,x-1/2,-z+1/2",
  "    -x+1/2,y,z+1/2",
  "    -y,-x,z+1/2",
  "    x,-y-1/2,z+1/2",
  "    y+1/2,x-1/2,z+1/2",
  "    -z+1/2,-x,-y+1/2",
  "    x,-z,-y+1/2",
  "    z,x-1/2,-y+1/2",
  "    -x+1/2,z-1/2,-y+1/2",
  "    -z+1/2,x,y+1/2",
  "    -x,-z,y+1/2",
  "    z,-x-1/2,y+1/2",
  "    x+1/2,z-1/2,y+1/2",
  "    -y+1/2,-z,-x+1/2",
  "    -y+1/2,z-1/2,x",
  "    -z+1/2,-y,x",
  "    y,-z,x",
  "    z,y,x+1/2",
  "    y+1/2,z,-x+1/2",
  "    -z+1/2,y,-x",
  "    z,-y-1/2,-x",
  "    x+1/2,y+1/2,z",
  "    -y+1,x+1/2,z",
  "    -x+1,-y+1,z",
  "    y+1/2,-x+1,z",
  "    x+1/2,-y+1/2,-z",
  "    y+1,x+1/2,-z",
  "    -x+1,y+1,-z",
  "    -y+1/2,-x+1,-z",
  "    z+1/2,x+1/2,y",
  "    -x+1,z+1/2,y",
  "    -z+1,-x+1,y",
  "    x+1/2,-z+1,y",
  "    z+1/2,-x+1/2,-y",
  "    x+1,z+1/2,-y",
  "    -z+1,x+1,-y",
  "    -x+1/2,-z+1,-y",
  "    y+1/2,z+1/2,x",
  "    y+1/2,-z+1,-x+1/2",
  "    z+1/2,y+1/2,-x+1/2",
  "    -y+1,z+1/2,-x+1/2",
  "    -z+1,-y+1/2,-x",
  "    -y+1/2,-z+1/2,x",
  "    z+1/2,-y+1/2,x+1/2",
  "    -z+1,y+1,x+1/2",
  "    -x+1/2,-y+1/2,-z",
  "    y,-x+1/2,-z",
  "    x,y,-z",
  "    -y+1/2,x,-z",
  "    -x+1/2,y+1/2,z",
  "    -y,-x+1/2,z",
  "    x,-y,z",
  "    y+1/2,x,z",
  "    -z+1/2,-x+1/2,-y",
  "    x,-z+1/2,-y",
  "    z,x,-y",
  "    -x+1/2,z,-y",
  "    -z+1/2,x+1/2,y",
  "    -x,-z+1/2,y",
  "    z,-x,y",
  "    x+1/2,z,y",
  "    -y+1/2,-z+1/2,-x",
  "    -y+1/2,z,x-1/2",
  "    -z+1/2,-y+1/2,x-1/2",
  "    y,-z+1/2,x-1/2",
  "    z,y+1/2,x",
  "    y+1/2,z+1/2,-x",
  "    -z+1/2,y+1/2,-x-1/2",
  "    z,-y,-x-1/2"]

end Systre.Table
