/-! Written by tools/gen_sgtable.py. Lines 6454 to 6891 of src/data/sgtable.data. -/

namespace Systre.Table
set_option maxRecDepth 100000

/-- lines 6454 to 6891 of src/data/sgtable.data -/
def sgLines17 : List String := [
  "Pn-3n:2 x,y,z",
  "    x,y,z",
  "    -y+1/2,x,z",
  "    -x+1/2,-y+1/2,z",
  "    y,-x+1/2,z",
  "    x,-y+1/2,-z+1/2",
  "    y,x,-z+1/2",
  "    -x+1/2,y,-z+1/2",
  "    -y+1/2,-x+1/2,-z+1/2",
  "    z,x,y",
  "    -x+1/2,z,y",
  "    -z+1/2,-x+1/2,y",
  "    x,-z+1/2,y",
  "    z,-x+1/2,-y+1/2",
  "    x,z,-y+1/2",
  "    -z+1/2,x,-y+1/2",
  "    -x+1/2,-z+1/2,-y+1/2",
  "    y,z,x",
  "    y,-z+1/2,-x+1/2",
  "    z,y,-x+1/2",
  "    -y+1/2,z,-x+1/2",
  "    -z+1/2,-y+1/2,-x+1/2",
  "    -y+1/2,-z+1/2,x",
  "    z,-y+1/2,x",
  "    -z+1/2,y,x",
  "    -x,-y,-z",
  "    y-1/2,-x,-z",
  "    x-1/2,y-1/2,-z",
  "    -y,x-1/2,-z",
  "    -x,y-1/2,z-1/2",
  "    -y,-x,z-1/2",
  "    x-1/2,-y,z-1/2",
  "    y-1/2,x-1/2,z-1/2",
  "    -z,-x,-y",
  "    x-1/2,-z,-y",
  "    z-1/2,x-1/2,-y",
  "    -x,z-1/2,-y",
  "    -z,x-1/2,y-1/2",
  "    -x,-z,y-1/2",
  "    z-1/2,-x,y-1/2",
  "    x-1/2,z-1/2,y-1/2",
  "    -y,-z,-x",
  "    -y,z-1/2,x-1/2",
  "    -z,-y,x-1/2",
  "    y-1/2,-z,x-1/2",
  "    z-1/2,y-1/2,x-1/2",
  "    y-1/2,z-1/2,-x",
  "    -z,y-1/2,-x",
  "    z-1/2,-y,-x",
  "Pn-3n:1 x+1/4,y+1/4,z+1/4",
  "    x,y,z",
  "    -y,x,z",
  "    -x,-y,z",
  "    y,-x,z",
  "    x,-y,-z",
  "    y,x,-z",
  "    -x,y,-z",
  "    -y,-x,-z",
  "    z,x,y",
  "    -x,z,y",
  "    -z,-x,y",
  "    x,-z,y",
  "    z,-x,-y",
  "    x,z,-y",
  "    -z,x,-y",
  "    -x,-z,-y",
  "    y,z,x",
  "    y,-z,-x",
  "    z,y,-x",
  "    -y,z,-x",
  "    -z,-y,-x",
  "    -y,-z,x",
  "    z,-y,x",
  "    -z,y,x",
  "    -x+1/2,-y+1/2,-z+1/2",
  "    y+1/2,-x+1/2,-z+1/2",
  "    x+1/2,y+1/2,-z+1/2",
  "    -y+1/2,x+1/2,-z+1/2",
  "    -x+1/2,y+1/2,z+1/2",
  "    -y+1/2,-x+1/2,z+1/2",
  "    x+1/2,-y+1/2,z+1/2",
  "    y+1/2,x+1/2,z+1/2",
  "    -z+1/2,-x+1/2,-y+1/2",
  "    x+1/2,-z+1/2,-y+1/2",
  "    z+1/2,x+1/2,-y+1/2",
  "    -x+1/2,z+1/2,-y+1/2",
  "    -z+1/2,x+1/2,y+1/2",
  "    -x+1/2,-z+1/2,y+1/2",
  "    z+1/2,-x+1/2,y+1/2",
  "    x+1/2,z+1/2,y+1/2",
  "    -y+1/2,-z+1/2,-x+1/2",
  "    -y+1/2,z+1/2,x+1/2",
  "    -z+1/2,-y+1/2,x+1/2",
  "    y+1/2,-z+1/2,x+1/2",
  "    z+1/2,y+1/2,x+1/2",
  "    y+1/2,z+1/2,-x+1/2",
  "    -z+1/2,y+1/2,-x+1/2",
  "    z+1/2,-y+1/2,-x+1/2",
  "Pm-3n x,y,z",
  "    x,y,z",
  "    -y+1/2,x+1/2,z+1/2",
  "    -x,-y,z",
  "    y+1/2,-x+1/2,z+1/2",
  "    x,-y,-z",
  "    y+1/2,x+1/2,-z+1/2",
  "    -x,y,-z",
  "    -y+1/2,-x+1/2,-z+1/2",
  "    z,x,y",
  "    -x+1/2,z+1/2,y+1/2",
  "    -z,-x,y",
  "    x+1/2,-z+1/2,y+1/2",
  "    z,-x,-y",
  "    x+1/2,z+1/2,-y+1/2",
  "    -z,x,-y",
  "    -x+1/2,-z+1/2,-y+1/2",
  "    y,z,x",
  "    y,-z,-x",
  "    z+1/2,y+1/2,-x+1/2",
  "    -y,z,-x",
  "    -z+1/2,-y+1/2,-x+1/2",
  "    -y,-z,x",
  "    z+1/2,-y+1/2,x+1/2",
  "    -z+1/2,y+1/2,x+1/2",
  "    -x,-y,-z",
  "    y-1/2,-x-1/2,-z-1/2",
  "    x,y,-z",
  "    -y-1/2,x-1/2,-z-1/2",
  "    -x,y,z",
  "    -y-1/2,-x-1/2,z-1/2",
  "    x,-y,z",
  "    y-1/2,x-1/2,z-1/2",
  "    -z,-x,-y",
  "    x-1/2,-z-1/2,-y-1/2",
  "    z,x,-y",
  "    -x-1/2,z-1/2,-y-1/2",
  "    -z,x,y",
  "    -x-1/2,-z-1/2,y-1/2",
  "    z,-x,y",
  "    x-1/2,z-1/2,y-1/2",
  "    -y,-z,-x",
  "    -y,z,x",
  "    -z-1/2,-y-1/2,x-1/2",
  "    y,-z,x",
  "    z-1/2,y-1/2,x-1/2",
  "    y,z,-x",
  "    -z-1/2,y-1/2,-x-1/2",
  "    z-1/2,-y-1/2,-x-1/2",
  "Pn-3m:2 x,y,z",
  "    x,y,z",
  "    -y,x+1/2,z+1/2",
  "    -x+1/2,-y+1/2,z",
  "    y+1/2,-x,z+1/2",
  "    x,-y+1/2,-z+1/2",
  "    y+1/2,x+1/2,-z",
  "    -x+1/2,y,-z+1/2",
  "    -y,-x,-z",
  "    z,x,y",
  "    -x,z+1/2,y+1/2",
  "    -z+1/2,-x+1/2,y",
  "    x+1/2,-z,y+1/2",
  "    z,-x+1/2,-y+1/2",
  "    x+1/2,z+1/2,-y",
  "    -z+1/2,x,-y+1/2",
  "    -x,-z,-y",
  "    y,z,x",
  "    y,-z+1/2,-x+1/2",
  "    z+1/2,y+1/2,-x",
  "    -y+1/2,z,-x+1/2",
  "    -z,-y,-x",
  "    -y+1/2,-z+1/2,x",
  "    z+1/2,-y,x+1/2",
  "    -z,y+1/2,x+1/2",
  "    -x,-y,-z",
  "    y,-x-1/2,-z-1/2",
  "    x-1/2,y-1/2,-z",
  "    -y-1/2,x,-z-1/2",
  "    -x,y-1/2,z-1/2",
  "    -y-1/2,-x-1/2,z",
  "    x-1/2,-y,z-1/2",
  "    y,x,z",
  "    -z,-x,-y",
  "    x,-z-1/2,-y-1/2",
  "    z-1/2,x-1/2,-y",
  "    -x-1/2,z,-y-1/2",
  "    -z,x-1/2,y-1/2",
  "    -x-1/2,-z-1/2,y",
  "    z-1/2,-x,y-1/2",
  "    x,z,y",
  "    -y,-z,-x",
  "    -y,z-1/2,x-1/2",
  "    -z-1/2,-y-1/2,x",
  "    y-1/2,-z,x-1/2",
  "    z,y,x",
  "    y-1/2,z-1/2,-x",
  "    -z-1/2,y,-x-1/2",
  "    z,-y-1/2,-x-1/2",
  "Pn-3m:1 x-1/4,y-1/4,z-1/4",
  "    x,y,z",
  "    -y+1/2,x+1/2,z+1/2",
  "    -x,-y,z",
  "    y+1/2,-x+1/2,z+1/2",
  "    x,-y,-z",
  "    y+1/2,x+1/2,-z+1/2",
  "    -x,y,-z",
  "    -y+1/2,-x+1/2,-z+1/2",
  "    z,x,y",
  "    -x+1/2,z+1/2,y+1/2",
  "    -z,-x,y",
  "    x+1/2,-z+1/2,y+1/2",
  "    z,-x,-y",
  "    x+1/2,z+1/2,-y+1/2",
  "    -z,x,-y",
  "    -x+1/2,-z+1/2,-y+1/2",
  "    y,z,x",
  "    y,-z,-x",
  "    z+1/2,y+1/2,-x+1/2",
  "    -y,z,-x",
  "    -z+1/2,-y+1/2,-x+1/2",
  "    -y,-z,x",
  "    z+1/2,-y+1/2,x+1/2",
  "    -z+1/2,y+1/2,x+1/2",
  "    -x+1/2,-y+1/2,-z+1/2",
  "    y,-x,-z",
  "    x+1/2,y+1/2,-z+1/2",
  "    -y,x,-z",
  "    -x+1/2,y+1/2,z+1/2",
  "    -y,-x,z",
  "    x+1/2,-y+1/2,z+1/2",
  "    y,x,z",
  "    -z+1/2,-x+1/2,-y+1/2",
  "    x,-z,-y",
  "    z+1/2,x+1/2,-y+1/2",
  "    -x,z,-y",
  "    -z+1/2,x+1/2,y+1/2",
  "    -x,-z,y",
  "    z+1/2,-x+1/2,y+1/2",
  "    x,z,y",
  "    -y+1/2,-z+1/2,-x+1/2",
  "    -y+1/2,z+1/2,x+1/2",
  "    -z,-y,x",
  "    y+1/2,-z+1/2,x+1/2",
  "    z,y,x",
  "    y+1/2,z+1/2,-x+1/2",
  "    -z,y,-x",
  "    z,-y,-x",
  "Fm-3m x,y,z",
  "    x,y,z",
  "    -y,x,z",
  "    -x,-y,z",
  "    y,-x,z",
  "    x,-y,-z",
  "    y,x,-z",
  "    -x,y,-z",
  "    -y,-x,-z",
  "    z,x,y",
  "    -x,z,y",
  "    -z,-x,y",
  "    x,-z,y",
  "    z,-x,-y",
  "    x,z,-y",
  "    -z,x,-y",
  "    -x,-z,-y",
  "    y,z,x",
  "    y,-z,-x",
  "    z,y,-x",
  "    -y,z,-x",
  "    -z,-y,-x",
  "    -y,-z,x",
  "    z,-y,x",
  "    -z,y,x",
  "    -x,-y,-z",
  "    y,-x,-z",
  "    x,y,-z",
  "    -y,x,-z",
  "    -x,y,z",
  "    -y,-x,z",
  "    x,-y,z",
  "    y,x,z",
  "    -z,-x,-y",
  "    x,-z,-y",
  "    z,x,-y",
  "    -x,z,-y",
  "    -z,x,y",
  "    -x,-z,y",
  "    z,-x,y",
  "    x,z,y",
  "    -y,-z,-x",
  "    -y,z,x",
  "    -z,-y,x",
  "    y,-z,x",
  "    z,y,x",
  "    y,z,-x",
  "    -z,y,-x",
  "    z,-y,-x",
  "    x,y+1/2,z+1/2",
  "    -y,x+1/2,z+1/2",
  "    -x,-y+1/2,z+1/2",
  "    y,-x+1/2,z+1/2",
  "    x,-y+1/2,-z+1/2",
  "    y,x+1/2,-z+1/2",
  "    -x,y+1/2,-z+1/2",
  "    -y,-x+1/2,-z+1/2",
  "    z,x+1/2,y+1/2",
  "    -x,z+1/2,y+1/2",
  "    -z,-x+1/2,y+1/2",
  "    x,-z+1/2,y+1/2",
  "    z,-x+1/2,-y+1/2",
  "    x,z+1/2,-y+1/2",
  "    -z,x+1/2,-y+1/2",
  "    -x,-z+1/2,-y+1/2",
  "    y,z+1/2,x+1/2",
  "    y,-z+1/2,-x+1/2",
  "    z,y+1/2,-x+1/2",
  "    -y,z+1/2,-x+1/2",
  "    -z,-y+1/2,-x+1/2",
  "    -y,-z+1/2,x+1/2",
  "    z,-y+1/2,x+1/2",
  "    -z,y+1/2,x+1/2",
  "    -x,-y+1/2,-z+1/2",
  "    y,-x+1/2,-z+1/2",
  "    x,y+1/2,-z+1/2",
  "    -y,x+1/2,-z+1/2",
  "    -x,y+1/2,z+1/2",
  "    -y,-x+1/2,z+1/2",
  "    x,-y+1/2,z+1/2",
  "    y,x+1/2,z+1/2",
  "    -z,-x+1/2,-y+1/2",
  "    x,-z+1/2,-y+1/2",
  "    z,x+1/2,-y+1/2",
  "    -x,z+1/2,-y+1/2",
  "    -z,x+1/2,y+1/2",
  "    -x,-z+1/2,y+1/2",
  "    z,-x+1/2,y+1/2",
  "    x,z+1/2,y+1/2",
  "    -y,-z+1/2,-x+1/2",
  "    -y,z+1/2,x+1/2",
  "    -z,-y+1/2,x+1/2",
  "    y,-z+1/2,x+1/2",
  "    z,y+1/2,x+1/2",
  "    y,z+1/2,-x+1/2",
  "    -z,y+1/2,-x+1/2",
  "    z,-y+1/2,-x+1/2",
  "    x+1/2,y,z+1/2",
  "    -y+1/2,x,z+1/2",
  "    -x+1/2,-y,z+1/2",
  "    y+1/2,-x,z+1/2",
  "    x+1/2,-y,-z+1/2",
  "    y+1/2,x,-z+1/2",
  "    -x+1/2,y,-z+1/2",
  "    -y+1/2,-x,-z+1/2",
  "    z+1/2,x,y+1/2",
  "    -x+1/2,z,y+1/2",
  "    -z+1/2,-x,y+1/2",
  "    x+1/2,-z,y+1/2",
  "    z+1/2,-x,-y+1/2",
  "    x+1/2,z,-y+1/2",
  "    -z+1/2,x,-y+1/2",
  "    -x+1/2,-z,-y+1/2",
  "    y+1/2,z,x+1/2",
  "    y+1/2,-z,-x+1/2",
  "    z+1/2,y,-x+1/2",
  "    -y+1/2,z,-x+1/2",
  "    -z+1/2,-y,-x+1/2",
  "    -y+1/2,-z,x+1/2",
  "    z+1/2,-y,x+1/2",
  "    -z+1/2,y,x+1/2",
  "    -x+1/2,-y,-z+1/2",
  "    y+1/2,-x,-z+1/2",
  "    x+1/2,y,-z+1/2",
  "    -y+1/2,x,-z+1/2",
  "    -x+1/2,y,z+1/2",
  "    -y+1/2,-x,z+1/2",
  "    x+1/2,-y,z+1/2",
  "    y+1/2,x,z+1/2",
  "    -z+1/2,-x,-y+1/2",
  "    x+1/2,-z,-y+1/2",
  "    z+1/2,x,-y+1/2",
  "    -x+1/2,z,-y+1/2",
  "    -z+1/2,x,y+1/2",
  "    -x+1/2,-z,y+1/2",
  "    z+1/2,-x,y+1/2",
  "    x+1/2,z,y+1/2",
  "    -y+1/2,-z,-x+1/2",
  "    -y+1/2,z,x+1/2",
  "    -z+1/2,-y,x+1/2",
  "    y+1/2,-z,x+1/2",
  "    z+1/2,y,x+1/2",
  "    y+1/2,z,-x+1/2",
  "    -z+1/2,y,-x+1/2",
  "    z+1/2,-y,-x+1/2",
  "    x+1/2,y+1/2,z",
  "    -y+1/2,x+1/2,z",
  "    -x+1/2,-y+1/2,z",
  "    y+1/2,-x+1/2,z",
  "    x+1/2,-y+1/2,-z",
  "    y+1/2,x+1/2,-z",
  "    -x+1/2,y+1/2,-z",
  "    -y+1/2,-x+1/2,-z",
  "    z+1/2,x+1/2,y",
  "    -x+1/2,z+1/2,y",
  "    -z+1/2,-x+1/2,y",
  "    x+1/2,-z+1/2,y",
  "    z+1/2,-x+1/2,-y",
  "    x+1/2,z+1/2,-y",
  "    -z+1/2,x+1/2,-y",
  "    -x+1/2,-z+1/2,-y",
  "    y+1/2,z+1/2,x",
  "    y+1/2,-z+1/2,-x",
  "    z+1/2,y+1/2,-x",
  "    -y+1/2,z+1/2,-x",
  "    -z+1/2,-y+1/2,-x",
  "    -y+1/2,-z+1/2,x",
  "    z+1/2,-y+1/2,x",
  "    -z+1/2,y+1/2,x",
  "    -x+1/2,-y+1/2,-z",
  "    y+1/2,-x+1/2,-z",
  "    x+1/2,y+1/2,-z",
  "    -y+1/2,x+1/2,-z",
  "    -x+1/2,y+1/2,z",
  "    -y+1/2,-x+1/2,z",
  "    x+1/2,-y+1/2,z",
  "    y+1/2,x+1/2,z",
  "    -z+1/2,-x+1/2,-y",
  "    x+1/2,-z+1/2,-y",
  "    z+1/2,x+1/2,-y",
  "    -x+1/2,z+1/2,-y",
  "    -z+1/2,x+1/2,y",
  "    -x+1/2,-z+1/2,y",
  "    z+1/2,-x+1/2,y",
  "    x+1/2,z+1/2,y",
  "    -y+1/2,-z+1/2,-x",
  "    -y+1/2,z+1/2,x",
  "    -z+1/2,-y+1/2,x",
  "    y+1/2,-z+1/2,x",
  "    z+1/2,y+1/2,x",
  "    y+1/2,z+1/2,-x",
  "    -z+1/2,y+1/2,-x",
  "    z+1/2,-y+1/2,-x"]

end Systre.Table
