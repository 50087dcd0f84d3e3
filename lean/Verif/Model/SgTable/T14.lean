/-! Written by tools/gen_sgtable.py. Lines 5354 to 5720 of src/data/sgtable.data. -/

namespace Systre.Table
set_option maxRecDepth 100000

/-- lines 5354 to 5720 of src/data/sgtable.data -/
def sgLines14 : List String := [
  "Fd-3:2 x,y,z",
  "    x,y,z",
  "    -x+1/4,-y+1/4,z",
  "    x,-y+1/4,-z+1/4",
  "    -x+1/4,y,-z+1/4",
  "    z,x,y",
  "    -z+1/4,-x+1/4,y",
  "    z,-x+1/4,-y+1/4",
  "    -z+1/4,x,-y+1/4",
  "    y,z,x",
  "    y,-z+1/4,-x+1/4",
  "    -y+1/4,z,-x+1/4",
  "    -y+1/4,-z+1/4,x",
  "    -x,-y,-z",
  "    x-1/4,y-1/4,-z",
  "    -x,y-1/4,z-1/4",
  "    x-1/4,-y,z-1/4",
  "    -z,-x,-y",
  "    z-1/4,x-1/4,-y",
  "    -z,x-1/4,y-1/4",
  "    z-1/4,-x,y-1/4",
  "    -y,-z,-x",
  "    -y,z-1/4,x-1/4",
  "    y-1/4,-z,x-1/4",
  "    y-1/4,z-1/4,-x",
  "    x,y+1/2,z+1/2",
  "    -x+1/4,-y+3/4,z+1/2",
  "    x,-y+3/4,-z+3/4",
  "    -x+1/4,y+1/2,-z+3/4",
  "    z,x+1/2,y+1/2",
  "    -z+1/4,-x+3/4,y+1/2",
  "    z,-x+3/4,-y+3/4",
  "    -z+1/4,x+1/2,-y+3/4",
  "    y,z+1/2,x+1/2",
  "    y,-z+3/4,-x+3/4",
  "    -y+1/4,z+1/2,-x+3/4",
  "    -y+1/4,-z+3/4,x+1/2",
  "    -x,-y+1/2,-z+1/2",
  "    x-1/4,y+1/4,-z+1/2",
  "    -x,y+1/4,z+1/4",
  "    x-1/4,-y+1/2,z+1/4",
  "    -z,-x+1/2,-y+1/2",
  "    z-1/4,x+1/4,-y+1/2",
  "    -z,x+1/4,y+1/4",
  "    z-1/4,-x+1/2,y+1/4",
  "    -y,-z+1/2,-x+1/2",
  "    -y,z+1/4,x+1/4",
  "    y-1/4,-z+1/2,x+1/4",
  "    y-1/4,z+1/4,-x+1/2",
  "    x+1/2,y,z+1/2",
  "    -x+3/4,-y+1/4,z+1/2",
  "    x+1/2,-y+1/4,-z+3/4",
  "    -x+3/4,y,-z+3/4",
  "    z+1/2,x,y+1/2",
  "    -z+3/4,-x+1/4,y+1/2",
  "    z+1/2,-x+1/4,-y+3/4",
  "    -z+3/4,x,-y+3/4",
  "    y+1/2,z,x+1/2",
  "    y+1/2,-z+1/4,-x+3/4",
  "    -y+3/4,z,-x+3/4",
  "    -y+3/4,-z+1/4,x+1/2",
  "    -x+1/2,-y,-z+1/2",
  "    x+1/4,y-1/4,-z+1/2",
  "    -x+1/2,y-1/4,z+1/4",
  "    x+1/4,-y,z+1/4",
  "    -z+1/2,-x,-y+1/2",
  "    z+1/4,x-1/4,-y+1/2",
  "    -z+1/2,x-1/4,y+1/4",
  "    z+1/4,-x,y+1/4",
  "    -y+1/2,-z,-x+1/2",
  "    -y+1/2,z-1/4,x+1/4",
  "    y+1/4,-z,x+1/4",
  "    y+1/4,z-1/4,-x+1/2",
  "    x+1/2,y+1/2,z",
  "    -x+3/4,-y+3/4,z",
  "    x+1/2,-y+3/4,-z+1/4",
  "    -x+3/4,y+1/2,-z+1/4",
  "    z+1/2,x+1/2,y",
  "    -z+3/4,-x+3/4,y",
  "    z+1/2,-x+3/4,-y+1/4",
  "    -z+3/4,x+1/2,-y+1/4",
  "    y+1/2,z+1/2,x",
  "    y+1/2,-z+3/4,-x+1/4",
  "    -y+3/4,z+1/2,-x+1/4",
  "    -y+3/4,-z+3/4,x",
  "    -x+1/2,-y+1/2,-z",
  "    x+1/4,y+1/4,-z",
  "    -x+1/2,y+1/4,z-1/4",
  "    x+1/4,-y+1/2,z-1/4",
  "    -z+1/2,-x+1/2,-y",
  "    z+1/4,x+1/4,-y",
  "    -z+1/2,x+1/4,y-1/4",
  "    z+1/4,-x+1/2,y-1/4",
  "    -y+1/2,-z+1/2,-x",
  "    -y+1/2,z+1/4,x-1/4",
  "    y+1/4,-z+1/2,x-1/4",
  "    y+1/4,z+1/4,-x",
  "Fd-3:1 x-1/8,y-1/8,z-1/8",
  "    x,y,z",
  "    -x,-y,z",
  "    x,-y,-z",
  "    -x,y,-z",
  "    z,x,y",
  "    -z,-x,y",
  "    z,-x,-y",
  "    -z,x,-y",
  "    y,z,x",
  "    y,-z,-x",
  "    -y,z,-x",
  "    -y,-z,x",
  "    -x+1/4,-y+1/4,-z+1/4",
  "    x+1/4,y+1/4,-z+1/4",
  "    -x+1/4,y+1/4,z+1/4",
  "    x+1/4,-y+1/4,z+1/4",
  "    -z+1/4,-x+1/4,-y+1/4",
  "    z+1/4,x+1/4,-y+1/4",
  "    -z+1/4,x+1/4,y+1/4",
  "    z+1/4,-x+1/4,y+1/4",
  "    -y+1/4,-z+1/4,-x+1/4",
  "    -y+1/4,z+1/4,x+1/4",
  "    y+1/4,-z+1/4,x+1/4",
  "    y+1/4,z+1/4,-x+1/4",
  "    x,y+1/2,z+1/2",
  "    -x,-y+1/2,z+1/2",
  "    x,-y+1/2,-z+1/2",
  "    -x,y+1/2,-z+1/2",
  "    z,x+1/2,y+1/2",
  "    -z,-x+1/2,y+1/2",
  "    z,-x+1/2,-y+1/2",
  "    -z,x+1/2,-y+1/2",
  "    y,z+1/2,x+1/2",
  "    y,-z+1/2,-x+1/2",
  "    -y,z+1/2,-x+1/2",
  "    -y,-z+1/2,x+1/2",
  "    -x+1/4,-y+3/4,-z+3/4",
  "    x+1/4,y+3/4,-z+3/4",
  "    -x+1/4,y+3/4,z+3/4",
  "    x+1/4,-y+3/4,z+3/4",
  "    -z+1/4,-x+3/4,-y+3/4",
  "    z+1/4,x+3/4,-y+3/4",
  "    -z+1/4,x+3/4,y+3/4",
  "    z+1/4,-x+3/4,y+3/4",
  "    -y+1/4,-z+3/4,-x+3/4",
  "    -y+1/4,z+3/4,x+3/4",
  "    y+1/4,-z+3/4,x+3/4",
  "    y+1/4,z+3/4,-x+3/4",
  "    x+1/2,y,z+1/2",
  "    -x+1/2,-y,z+1/2",
  "    x+1/2,-y,-z+1/2",
  "    -x+1/2,y,-z+1/2",
  "    z+1/2,x,y+1/2",
  "    -z+1/2,-x,y+1/2",
  "    z+1/2,-x,-y+1/2",
  "    -z+1/2,x,-y+1/2",
  "    y+1/2,z,x+1/2",
  "    y+1/2,-z,-x+1/2",
  "    -y+1/2,z,-x+1/2",
  "    -y+1/2,-z,x+1/2",
  "    -x+3/4,-y+1/4,-z+3/4",
  "    x+3/4,y+1/4,-z+3/4",
  "    -x+3/4,y+1/4,z+3/4",
  "    x+3/4,-y+1/4,z+3/4",
  "    -z+3/4,-x+1/4,-y+3/4",
  "    z+3/4,x+1/4,-y+3/4",
  "    -z+3/4,x+1/4,y+3/4",
  "    z+3/4,-x+1/4,y+3/4",
  "    -y+3/4,-z+1/4,-x+3/4",
  "    -y+3/4,z+1/4,x+3/4",
  "    y+3/4,-z+1/4,x+3/4",
  "    y+3/4,z+1/4,-x+3/4",
  "    x+1/2,y+1/2,z",
  "    -x+1/2,-y+1/2,z",
  "    x+1/2,-y+1/2,-z",
  "    -x+1/2,y+1/2,-z",
  "    z+1/2,x+1/2,y",
  "    -z+1/2,-x+1/2,y",
  "    z+1/2,-x+1/2,-y",
  "    -z+1/2,x+1/2,-y",
  "    y+1/2,z+1/2,x",
  "    y+1/2,-z+1/2,-x",
  "    -y+1/2,z+1/2,-x",
  "    -y+1/2,-z+1/2,x",
  "    -x+3/4,-y+3/4,-z+1/4",
  "    x+3/4,y+3/4,-z+1/4",
  "    -x+3/4,y+3/4,z+1/4",
  "    x+3/4,-y+3/4,z+1/4",
  "    -z+3/4,-x+3/4,-y+1/4",
  "    z+3/4,x+3/4,-y+1/4",
  "    -z+3/4,x+3/4,y+1/4",
  "    z+3/4,-x+3/4,y+1/4",
  "    -y+3/4,-z+3/4,-x+1/4",
  "    -y+3/4,z+3/4,x+1/4",
  "    y+3/4,-z+3/4,x+1/4",
  "    y+3/4,z+3/4,-x+1/4",
  "Im-3 x,y,z",
  "    x,y,z",
  "    -x,-y,z",
  "    x,-y,-z",
  "    -x,y,-z",
  "    z,x,y",
  "    -z,-x,y",
  "    z,-x,-y",
  "    -z,x,-y",
  "    y,z,x",
  "    y,-z,-x",
  "    -y,z,-x",
  "    -y,-z,x",
  "    -x,-y,-z",
  "    x,y,-z",
  "    -x,y,z",
  "    x,-y,z",
  "    -z,-x,-y",
  "    z,x,-y",
  "    -z,x,y",
  "    z,-x,y",
  "    -y,-z,-x",
  "    -y,z,x",
  "    y,-z,x",
  "    y,z,-x",
  "    x+1/2,y+1/2,z+1/2",
  "    -x+1/2,-y+1/2,z+1/2",
  "    x+1/2,-y+1/2,-z+1/2",
  "    -x+1/2,y+1/2,-z+1/2",
  "    z+1/2,x+1/2,y+1/2",
  "    -z+1/2,-x+1/2,y+1/2",
  "    z+1/2,-x+1/2,-y+1/2",
  "    -z+1/2,x+1/2,-y+1/2",
  "    y+1/2,z+1/2,x+1/2",
  "    y+1/2,-z+1/2,-x+1/2",
  "    -y+1/2,z+1/2,-x+1/2",
  "    -y+1/2,-z+1/2,x+1/2",
  "    -x+1/2,-y+1/2,-z+1/2",
  "    x+1/2,y+1/2,-z+1/2",
  "    -x+1/2,y+1/2,z+1/2",
  "    x+1/2,-y+1/2,z+1/2",
  "    -z+1/2,-x+1/2,-y+1/2",
  "    z+1/2,x+1/2,-y+1/2",
  "    -z+1/2,x+1/2,y+1/2",
  "    z+1/2,-x+1/2,y+1/2",
  "    -y+1/2,-z+1/2,-x+1/2",
  "    -y+1/2,z+1/2,x+1/2",
  "    y+1/2,-z+1/2,x+1/2",
  "    y+1/2,z+1/2,-x+1/2",
  "Pa-3 x,y,z",
  "    x,y,z",
  "    -x+1/2,-y,z+1/2",
  "    x+1/2,-y+1/2,-z",
  "    -x,y+1/2,-z+1/2",
  "    z,x,y",
  "    -z+1/2,-x,y+1/2",
  "    z+1/2,-x+1/2,-y",
  "    -z,x+1/2,-y+1/2",
  "    y,z,x",
  "    y+1/2,-z+1/2,-x",
  "    -y,z+1/2,-x+1/2",
  "    -y+1/2,-z,x+1/2",
  "    -x,-y,-z",
  "    x-1/2,y,-z-1/2",
  "    -x-1/2,y-1/2,z",
  "    x,-y-1/2,z-1/2",
  "    -z,-x,-y",
  "    z-1/2,x,-y-1/2",
  "    -z-1/2,x-1/2,y",
  "    z,-x-1/2,y-1/2",
  "    -y,-z,-x",
  "    -y-1/2,z-1/2,x",
  "    y,-z-1/2,x-1/2",
  "    y-1/2,z,-x-1/2",
  "Ia-3 x,y,z",
  "    x,y,z",
  "    -x,-y+1/2,z",
  "    x,-y,-z+1/2",
  "    -x,y+1/2,-z+1/2",
  "    z,x,y",
  "    -z,-x+1/2,y",
  "    z,-x,-y+1/2",
  "    -z,x+1/2,-y+1/2",
  "    y,z,x",
  "    y,-z,-x+1/2",
  "    -y,z+1/2,-x+1/2",
  "    -y+1/2,-z,x+1/2",
  "    -x,-y,-z",
  "    x,y-1/2,-z",
  "    -x,y,z-1/2",
  "    x,-y-1/2,z-1/2",
  "    -z,-x,-y",
  "    z,x-1/2,-y",
  "    -z,x,y-1/2",
  "    z,-x-1/2,y-1/2",
  "    -y,-z,-x",
  "    -y,z,x-1/2",
  "    y,-z-1/2,x-1/2",
  "    y-1/2,z,-x-1/2",
  "    x+1/2,y+1/2,z+1/2",
  "    -x+1/2,-y+1,z+1/2",
  "    x+1/2,-y+1/2,-z+1",
  "    -x+1/2,y+1,-z+1",
  "    z+1/2,x+1/2,y+1/2",
  "    -z+1/2,-x+1,y+1/2",
  "    z+1/2,-x+1/2,-y+1",
  "    -z+1/2,x+1,-y+1",
  "    y+1/2,z+1/2,x+1/2",
  "    y+1/2,-z+1/2,-x+1",
  "    -y+1/2,z+1,-x+1",
  "    -y+1,-z+1/2,x+1",
  "    -x+1/2,-y+1/2,-z+1/2",
  "    x+1/2,y,-z+1/2",
  "    -x+1/2,y+1/2,z",
  "    x+1/2,-y,z",
  "    -z+1/2,-x+1/2,-y+1/2",
  "    z+1/2,x,-y+1/2",
  "    -z+1/2,x+1/2,y",
  "    z+1/2,-x,y",
  "    -y+1/2,-z+1/2,-x+1/2",
  "    -y+1/2,z+1/2,x",
  "    y+1/2,-z,x",
  "    y,z+1/2,-x",
  "P432 x,y,z",
  "    x,y,z",
  "    -y,x,z",
  "    -x,-y,z",
  "    y,-x,z",
  "    x,-y,-z",
  "    y,x,-z",
  "    -x,y,-z",
  "    -y,-x,-z",
  "    z,x,y",
  "    -x,z,y",
  "    -z,-x,y",
  "    x,-z,y",
  "    z,-x,-y",
  "    x,z,-y",
  "    -z,x,-y",
  "    -x,-z,-y",
  "    y,z,x",
  "    y,-z,-x",
  "    z,y,-x",
  "    -y,z,-x",
  "    -z,-y,-x",
  "    -y,-z,x",
  "    z,-y,x",
  "    -z,y,x",
  "P4232 x,y,z",
  "    x,y,z",
  "    -y+1/2,x+1/2,z+1/2",
  "    -x,-y,z",
  "    y+1/2,-x+1/2,z+1/2",
  "    x,-y,-z",
  "    y+1/2,x+1/2,-z+1/2",
  "    -x,y,-z",
  "    -y+1/2,-x+1/2,-z+1/2",
  "    z,x,y",
  "    -x+1/2,z+1/2,y+1/2",
  "    -z,-x,y",
  "    x+1/2,-z+1/2,y+1/2",
  "    z,-x,-y",
  "    x+1/2,z+1/2,-y+1/2",
  "    -z,x,-y",
  "    -x+1/2,-z+1/2,-y+1/2",
  "    y,z,x",
  "    y,-z,-x",
  "    z+1/2,y+1/2,-x+1/2",
  "    -y,z,-x",
  "    -z+1/2,-y+1/2,-x+1/2",
  "    -y,-z,x",
  "    z+1/2,-y+1/2,x+1/2",
  "    -z+1/2,y+1/2,x+1/2"]

end Systre.Table
