/-! Written by tools/gen_sgtable.py. Lines 7085 to 7470 of src/data/sgtable.data. -/

namespace Systre.Table
set_option maxRecDepth 100000

/-- lines 7085 to 7470 of src/data/sgtable.data -/
def sgLines19 : List String := [
  "Fd-3m:2 x,y,z",
  "    x,y,z",
  "    -y,x+1/4,z+1/4",
  "    -x+3/4,-y+1/4,z+1/2",
  "    y+3/4,-x,z+3/4",
  "    x,-y+1/4,-z+1/4",
  "    y+3/4,x+1/4,-z+1/2",
  "    -x+3/4,y,-z+3/4",
  "    -y,-x,-z",
  "    z,x,y",
  "    -x,z+1/4,y+1/4",
  "    -z+3/4,-x+1/4,y+1/2",
  "    x+3/4,-z,y+3/4",
  "    z,-x+1/4,-y+1/4",
  "    x+3/4,z+1/4,-y+1/2",
  "    -z+3/4,x,-y+3/4",
  "    -x,-z,-y",
  "    y,z,x",
  "    y+1/2,-z+3/4,-x+1/4",
  "    z+1/4,y+3/4,-x+1/2",
  "    -y+1/4,z+1/2,-x+3/4",
  "    -z,-y+1/2,-x+1/2",
  "    -y+1/4,-z+1/4,x",
  "    z+1/4,-y,x+1/4",
  "    -z+1/2,y+1/4,x+3/4",
  "    -x,-y,-z",
  "    y,-x-1/4,-z-1/4",
  "    x-3/4,y-1/4,-z-1/2",
  "    -y-3/4,x,-z-3/4",
  "    -x,y-1/4,z-1/4",
  "    -y-3/4,-x-1/4,z-1/2",
  "    x-3/4,-y,z-3/4",
  "    y,x,z",
  "    -z,-x,-y",
  "    x,-z-1/4,-y-1/4",
  "    z-3/4,x-1/4,-y-1/2",
  "    -x-3/4,z,-y-3/4",
  "    -z,x-1/4,y-1/4",
  "    -x-3/4,-z-1/4,y-1/2",
  "    z-3/4,-x,y-3/4",
  "    x,z,y",
  "    -y,-z,-x",
  "    -y-1/2,z-3/4,x-1/4",
  "    -z-1/4,-y-3/4,x-1/2",
  "    y-1/4,-z-1/2,x-3/4",
  "    z,y-1/2,x-1/2",
  "    y-1/4,z-1/4,-x",
  "    -z-1/4,y,-x-1/4",
  "    z-1/2,-y-1/4,-x-3/4",
  "    x,y+1/2,z+1/2",
  "    -y,x+3/4,z+3/4",
  "    -x+3/4,-y+3/4,z+1",
  "    y+3/4,-x+1/2,z+5/4",
  "    x,-y+3/4,-z+3/4",
  "    y+3/4,x+3/4,-z+1",
  "    -x+3/4,y+1/2,-z+5/4",
  "    -y,-x+1/2,-z+1/2",
  "    z,x+1/2,y+1/2",
  "    -x,z+3/4,y+3/4",
  "    -z+3/4,-x+3/4,y+1",
  "    x+3/4,-z+1/2,y+5/4",
  "    z,-x+3/4,-y+3/4",
  "    x+3/4,z+3/4,-y+1",
  "    -z+3/4,x+1/2,-y+5/4",
  "    -x,-z+1/2,-y+1/2",
  "    y,z+1/2,x+1/2",
  "    y+1/2,-z+5/4,-x+3/4",
  "    z+1/4,y+5/4,-x+1",
  "    -y+1/4,z+1,-x+5/4",
  "    -z,-y+1,-x+1",
  "    -y+1/4,-z+3/4,x+1/2",
  "    z+1/4,-y+1/2,x+3/4",
  "    -z+1/2,y+3/4,x+5/4",
  "    -x,-y+1/2,-z+1/2",
  "    y,-x+1/4,-z+1/4",
  "    x-3/4,y+1/4,-z",
  "    -y-3/4,x+1/2,-z-1/4",
  "    -x,y+1/4,z+1/4",
  "    -y-3/4,-x+1/4,z",
  "    x-3/4,-y+1/2,z-1/4",
  "    y,x+1/2,z+1/2",
  "    -z,-x+1/2,-y+1/2",
  "    x,-z+1/4,-y+1/4",
  "    z-3/4,x+1/4,-y",
  "    -x-3/4,z+1/2,-y-1/4",
  "    -z,x+1/4,y+1/4",
  "    -x-3/4,-z+1/4,y",
  "    z-3/4,-x+1/2,y-1/4",
  "    x,z+1/2,y+1/2",
  "    -y,-z+1/2,-x+1/2",
  "    -y-1/2,z-1/4,x+1/4",
  "    -z-1/4,-y-1/4,x",
  "    y-1/4,-z,x-1/4",
  "    z,y,x",
  "    y-1/4,z+1/4,-x+1/2",
  "    -z-1/4,y+1/2,-x+1/4",
  "    z-1/2,-y+1/4,-x-1/4",
  "    x+1/2,y,z+1/2",
  "    -y+1/2,x+1/4,z+3/4",
  "    -x+5/4,-y+1/4,z+1",
  "    y+5/4,-x,z+5/4",
  "    x+1/2,-y+1/4,-z+3/4",
  "    y+5/4,x+1/4,-z+1",
  "    -x+5/4,y,-z+5/4",
  "    -y+1/2,-x,-z+1/2",
  "    z+1/2,x,y+1/2",
  "    -x+1/2,z+1/4,y+3/4",
  "    -z+5/4,-x+1/4,y+1",
  "    x+5/4,-z,y+5/4",
  "    z+1/2,-x+1/4,-y+3/4",
  "    x+5/4,z+1/4,-y+1",
  "    -z+5/4,x,-y+5/4",
  "    -x+1/2,-z,-y+1/2",
  "    y+1/2,z,x+1/2",
  "    y+1,-z+3/4,-x+3/4",
  "    z+3/4,y+3/4,-x+1",
  "    -y+3/4,z+1/2,-x+5/4",
  "    -z+1/2,-y+1/2,-x+1",
  "    -y+3/4,-z+1/4,x+1/2",
  "    z+3/4,-y,x+3/4",
  "    -z+1,y+1/4,x+5/4",
  "    -x+1/2,-y,-z+1/2",
  "    y+1/2,-x-1/4,-z+1/4",
  "    x-1/4,y-1/4,-z",
  "    -y-1/4,x,-z-1/4",
  "    -x+1/2,y-1/4,z+1/4",
  "    -y-1/4,-x-1/4,z",
  "    x-1/4,-y,z-1/4",
  "    y+1/2,x,z+1/2",
  "    -z+1/2,-x,-y+1/2",
  "    x+1/2,-z-1/4,-y+1/4",
  "    z-1/4,x-1/4,-y",
  "    -x-1/4,z,-y-1/4",
  "    -z+1/2,x-1/4,y+1/4",
  "    -x-1/4,-z-1/4,y",
  "    z-1/4,-x,y-1/4",
  "    x+1/2,z,y+1/2",
  "    -y+1/2,-z,-x+1/2",
  "    -y,z-3/4,x+1/4",
  "    -z+1/4,-y-3/4,x",
  "    y+1/4,-z-1/2,x-1/4",
  "    z+1/2,y-1/2,x",
  "    y+1/4,z-1/4,-x+1/2",
  "    -z+1/4,y,-x+1/4",
  "    z,-y-1/4,-x-1/4",
  "    x+1/2,y+1/2,z",
  "    -y+1/2,x+3/4,z+1/4",
  "    -x+5/4,-y+3/4,z+1/2",
  "    y+5/4,-x+1/2,z+3/4",
  "    x+1/2,-y+3/4,-z+1/4",
  "    y+5/4,x+3/4,-z+1/2",
  "    -x+5/4,y+1/2,-z+3/4",
  "    -y+1/2,-x+1/2,-z",
  "    z+1/2,x+1/2,y",
  "    -x+1/2,z+3/4,y+1/4",
  "    -z+5/4,-x+3/4,y+1/2",
  "    x+5/4,-z+1/2,y+3/4",
  "    z+1/2,-x+3/4,-y+1/4",
  "    x+5/4,z+3/4,-y+1/2",
  "    -z+5/4,x+1/2,-y+3/4",
  "    -x+1/2,-z+1/2,-y",
  "    y+1/2,z+1/2,x",
  "    y+1,-z+5/4,-x+1/4",
  "    z+3/4,y+5/4,-x+1/2",
  "    -y+3/4,z+1,-x+3/4",
  "    -z+1/2,-y+1,-x+1/2",
  "    -y+3/4,-z+3/4,x",
  "    z+3/4,-y+1/2,x+1/4",
  "    -z+1,y+3/4,x+3/4",
  "    -x+1/2,-y+1/2,-z",
  "    y+1/2,-x+1/4,-z-1/4",
  "    x-1/4,y+1/4,-z-1/2",
  "    -y-1/4,x+1/2,-z-3/4",
  "    -x+1/2,y+1/4,z-1/4",
  "    -y-1/4,-x+1/4,z-1/2",
  "    x-1/4,-y+1/2,z-3/4",
  "    y+1/2,x+1/2,z",
  "    -z+1/2,-x+1/2,-y",
  "    x+1/2,-z+1/4,-y-1/4",
  "    z-1/4,x+1/4,-y-1/2",
  "    -x-1/4,z+1/2,-y-3/4",
  "    -z+1/2,x+1/4,y-1/4",
  "    -x-1/4,-z+1/4,y-1/2",
  "    z-1/4,-x+1/2,y-3/4",
  "    x+1/2,z+1/2,y",
  "    -y+1/2,-z+1/2,-x",
  "    -y,z-1/4,x-1/4",
  "    -z+1/4,-y-1/4,x-1/2",
  "    y+1/4,-z,x-3/4",
  "    z+1/2,y,x-1/2",
  "    y+1/4,z+1/4,-x",
  "    -z+1/4,y+1/2,-x-1/4",
  "    z,-y+1/4,-x-3/4",
  "Fd-3m:1 x-1/8,y-1/8,z-1/8",
  "    x,y,z",
  "    -y+1/4,x+1/4,z+1/4",
  "    -x,-y+1/2,z+1/2",
  "    y+3/4,-x+1/4,z+3/4",
  "    x,-y,-z",
  "    y+1/4,x+1/4,-z+1/4",
  "    -x,y+1/2,-z+1/2",
  "    -y+3/4,-x+1/4,-z+3/4",
  "    z,x,y",
  "    -x+1/4,z+1/4,y+1/4",
  "    -z,-x+1/2,y+1/2",
  "    x+3/4,-z+1/4,y+3/4",
  "    z,-x,-y",
  "    x+1/4,z+1/4,-y+1/4",
  "    -z,x+1/2,-y+1/2",
  "    -x+3/4,-z+1/4,-y+3/4",
  "    y,z,x",
  "    y+1/2,-z,-x+1/2",
  "    z+1/4,y+3/4,-x+3/4",
  "    -y+1/2,z+1/2,-x",
  "    -z+1/4,-y+1/4,-x+1/4",
  "    -y,-z,x",
  "    z+1/4,-y+3/4,x+3/4",
  "    -z+3/4,y+3/4,x+1/4",
  "    -x+1/4,-y+1/4,-z+1/4",
  "    y,-x,-z",
  "    x+1/4,y-1/4,-z-1/4",
  "    -y-1/2,x,-z-1/2",
  "    -x+1/4,y+1/4,z+1/4",
  "    -y,-x,z",
  "    x+1/4,-y-1/4,z-1/4",
  "    y-1/2,x,z-1/2",
  "    -z+1/4,-x+1/4,-y+1/4",
  "    x,-z,-y",
  "    z+1/4,x-1/4,-y-1/4",
  "    -x-1/2,z,-y-1/2",
  "    -z+1/4,x+1/4,y+1/4",
  "    -x,-z,y",
  "    z+1/4,-x-1/4,y-1/4",
  "    x-1/2,z,y-1/2",
  "    -y+1/4,-z+1/4,-x+1/4",
  "    -y-1/4,z+1/4,x-1/4",
  "    -z,-y-1/2,x-1/2",
  "    y-1/4,-z-1/4,x+1/4",
  "    z,y,x",
  "    y+1/4,z+1/4,-x+1/4",
  "    -z,y-1/2,-x-1/2",
  "    z-1/2,-y-1/2,-x",
  "    x,y+1/2,z+1/2",
  "    -y+1/4,x+3/4,z+3/4",
  "    -x,-y+1,z+1",
  "    y+3/4,-x+3/4,z+5/4",
  "    x,-y+1/2,-z+1/2",
  "    y+1/4,x+3/4,-z+3/4",
  "    -x,y+1,-z+1",
  "    -y+3/4,-x+3/4,-z+5/4",
  "    z,x+1/2,y+1/2",
  "    -x+1/4,z+3/4,y+3/4",
  "    -z,-x+1,y+1",
  "    x+3/4,-z+3/4,y+5/4",
  "    z,-x+1/2,-y+1/2",
  "    x+1/4,z+3/4,-y+3/4",
  "    -z,x+1,-y+1",
  "    -x+3/4,-z+3/4,-y+5/4",
  "    y,z+1/2,x+1/2",
  "    y+1/2,-z+1/2,-x+1",
  "    z+1/4,y+5/4,-x+5/4",
  "    -y+1/2,z+1,-x+1/2",
  "    -z+1/4,-y+3/4,-x+3/4",
  "    -y,-z+1/2,x+1/2",
  "    z+1/4,-y+5/4,x+5/4",
  "    -z+3/4,y+5/4,x+3/4",
  "    -x+1/4,-y+3/4,-z+3/4",
  "    y,-x+1/2,-z+1/2",
  "    x+1/4,y+1/4,-z+1/4",
  "    -y-1/2,x+1/2,-z",
  "    -x+1/4,y+3/4,z+3/4",
  "    -y,-x+1/2,z+1/2",
  "    x+1/4,-y+1/4,z+1/4",
  "    y-1/2,x+1/2,z",
  "    -z+1/4,-x+3/4,-y+3/4",
  "    x,-z+1/2,-y+1/2",
  "    z+1/4,x+1/4,-y+1/4",
  "    -x-1/2,z+1/2,-y",
  "    -z+1/4,x+3/4,y+3/4",
  "    -x,-z+1/2,y+1/2",
  "    z+1/4,-x+1/4,y+1/4",
  "    x-1/2,z+1/2,y",
  "    -y+1/4,-z+3/4,-x+3/4",
  "    -y-1/4,z+3/4,x+1/4",
  "    -z,-y,x",
  "    y-1/4,-z+1/4,x+3/4",
  "    z,y+1/2,x+1/2",
  "    y+1/4,z+3/4,-x+3/4",
  "    -z,y,-x",
  "    z-1/2,-y,-x+1/2",
  "    x+1/2,y,z+1/2",
  "    -y+3/4,x+1/4,z+3/4",
  "    -x+1/2,-y+1/2,z+1",
  "    y+5/4,-x+1/4,z+5/4",
  "    x+1/2,-y,-z+1/2",
  "    y+3/4,x+1/4,-z+3/4",
  "    -x+1/2,y+1/2,-z+1",
  "    -y+5/4,-x+1/4,-z+5/4",
  "    z+1/2,x,y+1/2",
  "    -x+3/4,z+1/4,y+3/4",
  "    -z+1/2,-x+1/2,y+1",
  "    x+5/4,-z+1/4,y+5/4",
  "    z+1/2,-x,-y+1/2",
  "    x+3/4,z+1/4,-y+3/4",
  "    -z+1/2,x+1/2,-y+1",
  "    -x+5/4,-z+1/4,-y+5/4",
  "    y+1/2,z,x+1/2",
  "    y+1,-z,-x+1",
  "    z+3/4,y+3/4,-x+5/4",
  "    -y+1,z+1/2,-x+1/2",
  "    -z+3/4,-y+1/4,-x+3/4",
  "    -y+1/2,-z,x+1/2",
  "    z+3/4,-y+3/4,x+5/4",
  "    -z+5/4,y+3/4,x+3/4",
  "    -x+3/4,-y+1/4,-z+3/4",
  "    y+1/2,-x,-z+1/2",
  "    x+3/4,y-1/4,-z+1/4",
  "    -y,x,-z",
  "    -x+3/4,y+1/4,z+3/4",
  "    -y+1/2,-x,z+1/2",
  "    x+3/4,-y-1/4,z+1/4",
  "    y,x,z",
  "    -z+3/4,-x+1/4,-y+3/4",
  "    x+1/2,-z,-y+1/2",
  "    z+3/4,x-1/4,-y+1/4",
  "    -x,z,-y",
  "    -z+3/4,x+1/4,y+3/4",
  "    -x+1/2,-z,y+1/2",
  "    z+3/4,-x-1/4,y+1/4",
  "    x,z,y",
  "    -y+3/4,-z+1/4,-x+3/4",
  "    -y+1/4,z+1/4,x+1/4",
  "    -z+1/2,-y-1/2,x",
  "    y+1/4,-z-1/4,x+3/4",
  "    z+1/2,y,x+1/2",
  "    y+3/4,z+1/4,-x+3/4",
  "    -z+1/2,y-1/2,-x",
  "    z,-y-1/2,-x+1/2",
  "    x+1/2,y+1/2,z",
  "    -y+3/4,x+3/4,z+1/4",
  "    -x+1/2,-y+1,z+1/2",
  "    y+5/4,-x+3/4,z+3/4",
  "    x+1/2,-y+1/2,-z",
  "    y+3/4,x+3/4,-z+1/4",
  "    -x+1/2,y+1,-z+1/2",
  "    -y+5/4,-x+3/4,-z+3/4",
  "    z+1/2,x+1/2,y",
  "    -x+3/4,z+3/4,y+1/4",
  "    -z+1/2,-x+1,y+1/2",
  "    x+5/4,-z+3/4,y+3/4",
  "    z+1/2,-x+1/2,-y",
  "    x+3/4,z+3/4,-y+1/4",
  "    -z+1/2,x+1,-y+1/2",
  "    -x+5/4,-z+3/4,-y+3/4",
  "    y+1/2,z+1/2,x",
  "    y+1,-z+1/2,-x+1/2",
  "    z+3/4,y+5/4,-x+3/4",
  "    -y+1,z+1,-x",
  "    -z+3/4,-y+3/4,-x+1/4",
  "    -y+1/2,-z+1/2,x",
  "    z+3/4,-y+5/4,x+3/4",
  "    -z+5/4,y+5/4,x+1/4",
  "    -x+3/4,-y+3/4,-z+1/4",
  "    y+1/2,-x+1/2,-z",
  "    x+3/4,y+1/4,-z-1/4",
  "    -y,x+1/2,-z-1/2",
  "    -x+3/4,y+3/4,z+1/4",
  "    -y+1/2,-x+1/2,z",
  "    x+3/4,-y+1/4,z-1/4",
  "    y,x+1/2,z-1/2",
  "    -z+3/4,-x+3/4,-y+1/4",
  "    x+1/2,-z+1/2,-y",
  "    z+3/4,x+1/4,-y-1/4",
  "    -x,z+1/2,-y-1/2",
  "    -z+3/4,x+3/4,y+1/4",
  "    -x+1/2,-z+1/2,y",
  "    z+3/4,-x+1/4,y-1/4",
  "    x,z+1/2,y-1/2",
  "    -y+3/4,-z+3/4,-x+1/4",
  "    -y+1/4,z+3/4,x-1/4",
  "    -z+1/2,-y,x-1/2",
  "    y+1/4,-z+1/4,x+1/4",
  "    z+1/2,y+1/2,x",
  "    y+3/4,z+3/4,-x+1/4",
  "    -z+1/2,y,-x-1/2",
  "    z,-y,-x"]

end Systre.Table
