/-! Written by tools/gen_sgtable.py. Lines 4209 to 4649 of src/data/sgtable.data. -/

namespace Systre.Table
set_option maxRecDepth 100000

/-- lines 4209 to 4649 of src/data/sgtable.data -/
def sgLines11 : List String := [
  "I41/amd:2 x,y,z",
  "    x,y,z",
  "    -y+1/4,x+3/4,z+1/4",
  "    -x+1/2,-y,z+1/2",
  "    y+1/4,-x+1/4,z+3/4",
  "    x,-y,-z",
  "    y+1/4,x+3/4,-z+1/4",
  "    -x+1/2,y,-z+1/2",
  "    -y+1/4,-x+1/4,-z+3/4",
  "    -x,-y,-z",
  "    y-1/4,-x-3/4,-z-1/4",
  "    x-1/2,y,-z-1/2",
  "    -y-1/4,x-1/4,-z-3/4",
  "    -x,y,z",
  "    -y-1/4,-x-3/4,z-1/4",
  "    x-1/2,-y,z-1/2",
  "    y-1/4,x-1/4,z-3/4",
  "    x+1/2,y+1/2,z+1/2",
  "    -y+3/4,x+5/4,z+3/4",
  "    -x+1,-y+1/2,z+1",
  "    y+3/4,-x+3/4,z+5/4",
  "    x+1/2,-y+1/2,-z+1/2",
  "    y+3/4,x+5/4,-z+3/4",
  "    -x+1,y+1/2,-z+1",
  "    -y+3/4,-x+3/4,-z+5/4",
  "    -x+1/2,-y+1/2,-z+1/2",
  "    y+1/4,-x-1/4,-z+1/4",
  "    x,y+1/2,-z",
  "    -y+1/4,x+1/4,-z-1/4",
  "    -x+1/2,y+1/2,z+1/2",
  "    -y+1/4,-x-1/4,z+1/4",
  "    x,-y+1/2,z",
  "    y+1/4,x+1/4,z-1/4",
  "I41/amd:1 x+1/2,y-1/4,z-1/8",
  "    x,y,z",
  "    -y,x+1/2,z+1/4",
  "    -x+1/2,-y+1/2,z+1/2",
  "    y+1/2,-x,z+3/4",
  "    x,-y+1/2,-z+1/4",
  "    y+1/2,x+1/2,-z+1/2",
  "    -x+1/2,y,-z+3/4",
  "    -y,-x,-z",
  "    -x,-y+1/2,-z+1/4",
  "    y,-x,-z",
  "    x-1/2,y,-z-1/4",
  "    -y-1/2,x+1/2,-z-1/2",
  "    -x,y,z",
  "    -y-1/2,-x,z-1/4",
  "    x-1/2,-y+1/2,z-1/2",
  "    y,x+1/2,z+1/4",
  "    x+1/2,y+1/2,z+1/2",
  "    -y+1/2,x+1,z+3/4",
  "    -x+1,-y+1,z+1",
  "    y+1,-x+1/2,z+5/4",
  "    x+1/2,-y+1,-z+3/4",
  "    y+1,x+1,-z+1",
  "    -x+1,y+1/2,-z+5/4",
  "    -y+1/2,-x+1/2,-z+1/2",
  "    -x+1/2,-y+1,-z+3/4",
  "    y+1/2,-x+1/2,-z+1/2",
  "    x,y+1/2,-z+1/4",
  "    -y,x+1,-z",
  "    -x+1/2,y+1/2,z+1/2",
  "    -y,-x+1/2,z+1/4",
  "    x,-y+1,z",
  "    y+1/2,x+1,z+3/4",
  "I41/acd:2 x,y,z",
  "    x,y,z",
  "    -y+1/4,x+3/4,z+1/4",
  "    -x+1/2,-y,z+1/2",
  "    y+1/4,-x+1/4,z+3/4",
  "    x,-y,-z+1/2",
  "    y+1/4,x+3/4,-z+3/4",
  "    -x+1/2,y,-z",
  "    -y+1/4,-x+1/4,-z+1/4",
  "    -x,-y,-z",
  "    y-1/4,-x-3/4,-z-1/4",
  "    x-1/2,y,-z-1/2",
  "    -y-1/4,x-1/4,-z-3/4",
  "    -x,y,z-1/2",
  "    -y-1/4,-x-3/4,z-3/4",
  "    x-1/2,-y,z",
  "    y-1/4,x-1/4,z-1/4",
  "    x+1/2,y+1/2,z+1/2",
  "    -y+3/4,x+5/4,z+3/4",
  "    -x+1,-y+1/2,z+1",
  "    y+3/4,-x+3/4,z+5/4",
  "    x+1/2,-y+1/2,-z+1",
  "    y+3/4,x+5/4,-z+5/4",
  "    -x+1,y+1/2,-z+1/2",
  "    -y+3/4,-x+3/4,-z+3/4",
  "    -x+1/2,-y+1/2,-z+1/2",
  "    y+1/4,-x-1/4,-z+1/4",
  "    x,y+1/2,-z",
  "    -y+1/4,x+1/4,-z-1/4",
  "    -x+1/2,y+1/2,z",
  "    -y+1/4,-x-1/4,z-1/4",
  "    x,-y+1/2,z+1/2",
  "    y+1/4,x+1/4,z+1/4",
  "I41/acd:1 x+1/2,y-1/4,z+3/8",
  "    x,y,z",
  "    -y,x+1/2,z+1/4",
  "    -x+1/2,-y+1/2,z+1/2",
  "    y+1/2,-x,z+3/4",
  "    x+1/2,-y,-z+1/4",
  "    y,x,-z+1/2",
  "    -x,y+1/2,-z+3/4",
  "    -y+1/2,-x+1/2,-z",
  "    -x,-y+1/2,-z+1/4",
  "    y,-x,-z",
  "    x-1/2,y,-z-1/4",
  "    -y-1/2,x+1/2,-z-1/2",
  "    -x-1/2,y+1/2,z",
  "    -y,-x+1/2,z-1/4",
  "    x,-y,z-1/2",
  "    y-1/2,x,z+1/4",
  "    x+1/2,y+1/2,z+1/2",
  "    -y+1/2,x+1,z+3/4",
  "    -x+1,-y+1,z+1",
  "    y+1,-x+1/2,z+5/4",
  "    x+1,-y+1/2,-z+3/4",
  "    y+1/2,x+1/2,-z+1",
  "    -x+1/2,y+1,-z+5/4",
  "    -y+1,-x+1,-z+1/2",
  "    -x+1/2,-y+1,-z+3/4",
  "    y+1/2,-x+1/2,-z+1/2",
  "    x,y+1/2,-z+1/4",
  "    -y,x+1,-z",
  "    -x,y+1,z+1/2",
  "    -y+1/2,-x+1,z+1/4",
  "    x+1/2,-y+1/2,z",
  "    y,x+1/2,z+3/4",
  "P3 x,y,z",
  "    x,y,z",
  "    -y,x-y,z",
  "    -x+y,-x,z",
  "P31 x,y,z",
  "    x,y,z",
  "    -y,x-y,z+1/3",
  "    -x+y,-x,z+2/3",
  "P32 x,y,z",
  "    x,y,z",
  "    -y,x-y,z+2/3",
  "    -x+y,-x,z+1/3",
  "R3:H x,y,z",
  "    x,y,z",
  "    -y,x-y,z",
  "    -x+y,-x,z",
  "    x+2/3,y+1/3,z+1/3",
  "    -y+2/3,x-y+1/3,z+1/3",
  "    -x+y+2/3,-x+1/3,z+1/3",
  "    x+1/3,y+2/3,z+2/3",
  "    -y+1/3,x-y+2/3,z+2/3",
  "    -x+y+1/3,-x+2/3,z+2/3",
  "R3:R -1/3*x+2/3*y-1/3*z,-2/3*x+1/3*y+1/3*z,1/3*x+1/3*y+1/3*z",
  "    x,y,z",
  "    z,x,y",
  "    y,z,x",
  "P-3 x,y,z",
  "    x,y,z",
  "    -y,x-y,z",
  "    -x+y,-x,z",
  "    -x,-y,-z",
  "    y,-x+y,-z",
  "    x-y,x,-z",
  "R-3:H x,y,z",
  "    x,y,z",
  "    -y,x-y,z",
  "    -x+y,-x,z",
  "    -x,-y,-z",
  "    y,-x+y,-z",
  "    x-y,x,-z",
  "    x+2/3,y+1/3,z+1/3",
  "    -y+2/3,x-y+1/3,z+1/3",
  "    -x+y+2/3,-x+1/3,z+1/3",
  "    -x+2/3,-y+1/3,-z+1/3",
  "    y+2/3,-x+y+1/3,-z+1/3",
  "    x-y+2/3,x+1/3,-z+1/3",
  "    x+1/3,y+2/3,z+2/3",
  "    -y+1/3,x-y+2/3,z+2/3",
  "    -x+y+1/3,-x+2/3,z+2/3",
  "    -x+1/3,-y+2/3,-z+2/3",
  "    y+1/3,-x+y+2/3,-z+2/3",
  "    x-y+1/3,x+2/3,-z+2/3",
  "R-3:R -1/3*x+2/3*y-1/3*z,-2/3*x+1/3*y+1/3*z,1/3*x+1/3*y+1/3*z",
  "    x,y,z",
  "    z,x,y",
  "    y,z,x",
  "    -x,-y,-z",
  "    -z,-x,-y",
  "    -y,-z,-x",
  "P312 x,y,z",
  "    x,y,z",
  "    -y,x-y,z",
  "    -x+y,-x,z",
  "    -y,-x,-z",
  "    x,x-y,-z",
  "    -x+y,y,-z",
  "P321 x,y,z",
  "    x,y,z",
  "    -y,x-y,z",
  "    -x+y,-x,z",
  "    y,x,-z",
  "    -x,-x+y,-z",
  "    x-y,-y,-z",
  "P3112 x,y,z",
  "    x,y,z",
  "    -y,x-y,z+1/3",
  "    -x+y,-x,z+2/3",
  "    -y,-x,-z+2/3",
  "    x,x-y,-z",
  "    -x+y,y,-z+1/3",
  "P3121 x,y,z",
  "    x,y,z",
  "    -y,x-y,z+1/3",
  "    -x+y,-x,z+2/3",
  "    y,x,-z",
  "    -x,-x+y,-z+1/3",
  "    x-y,-y,-z+2/3",
  "P3212 x,y,z",
  "    x,y,z",
  "    -y,x-y,z+2/3",
  "    -x+y,-x,z+1/3",
  "    -y,-x,-z+1/3",
  "    x,x-y,-z",
  "    -x+y,y,-z+2/3",
  "P3221 x,y,z",
  "    x,y,z",
  "    -y,x-y,z+2/3",
  "    -x+y,-x,z+1/3",
  "    y,x,-z",
  "    -x,-x+y,-z+2/3",
  "    x-y,-y,-z+1/3",
  "R32:H x,y,z",
  "    x,y,z",
  "    -y,x-y,z",
  "    -x+y,-x,z",
  "    y,x,-z",
  "    -x,-x+y,-z",
  "    x-y,-y,-z",
  "    x+2/3,y+1/3,z+1/3",
  "    -y+2/3,x-y+1/3,z+1/3",
  "    -x+y+2/3,-x+1/3,z+1/3",
  "    y+2/3,x+1/3,-z+1/3",
  "    -x+2/3,-x+y+1/3,-z+1/3",
  "    x-y+2/3,-y+1/3,-z+1/3",
  "    x+1/3,y+2/3,z+2/3",
  "    -y+1/3,x-y+2/3,z+2/3",
  "    -x+y+1/3,-x+2/3,z+2/3",
  "    y+1/3,x+2/3,-z+2/3",
  "    -x+1/3,-x+y+2/3,-z+2/3",
  "    x-y+1/3,-y+2/3,-z+2/3",
  "R32:R -1/3*x+2/3*y-1/3*z,-2/3*x+1/3*y+1/3*z,1/3*x+1/3*y+1/3*z",
  "    x,y,z",
  "    z,x,y",
  "    y,z,x",
  "    -y,-x,-z",
  "    -z,-y,-x",
  "    -x,-z,-y",
  "P3m1 x,y,z",
  "    x,y,z",
  "    -y,x-y,z",
  "    -x+y,-x,z",
  "    -y,-x,z",
  "    x,x-y,z",
  "    -x+y,y,z",
  "P31m x,y,z",
  "    x,y,z",
  "    -y,x-y,z",
  "    -x+y,-x,z",
  "    y,x,z",
  "    -x,-x+y,z",
  "    x-y,-y,z",
  "P3c1 x,y,z",
  "    x,y,z",
  "    -y,x-y,z",
  "    -x+y,-x,z",
  "    -y,-x,z+1/2",
  "    x,x-y,z+1/2",
  "    -x+y,y,z+1/2",
  "P31c x,y,z",
  "    x,y,z",
  "    -y,x-y,z",
  "    -x+y,-x,z",
  "    y,x,z+1/2",
  "    -x,-x+y,z+1/2",
  "    x-y,-y,z+1/2",
  "R3m:H x,y,z",
  "    x,y,z",
  "    -y,x-y,z",
  "    -x+y,-x,z",
  "    -y,-x,z",
  "    x,x-y,z",
  "    -x+y,y,z",
  "    x+2/3,y+1/3,z+1/3",
  "    -y+2/3,x-y+1/3,z+1/3",
  "    -x+y+2/3,-x+1/3,z+1/3",
  "    -y+2/3,-x+1/3,z+1/3",
  "    x+2/3,x-y+1/3,z+1/3",
  "    -x+y+2/3,y+1/3,z+1/3",
  "    x+1/3,y+2/3,z+2/3",
  "    -y+1/3,x-y+2/3,z+2/3",
  "    -x+y+1/3,-x+2/3,z+2/3",
  "    -y+1/3,-x+2/3,z+2/3",
  "    x+1/3,x-y+2/3,z+2/3",
  "    -x+y+1/3,y+2/3,z+2/3",
  "R3m:R -1/3*x+2/3*y-1/3*z,-2/3*x+1/3*y+1/3*z,1/3*x+1/3*y+1/3*z",
  "    x,y,z",
  "    z,x,y",
  "    y,z,x",
  "    y,x,z",
  "    z,y,x",
  "    x,z,y",
  "R3c:H x,y,z",
  "    x,y,z",
  "    -y,x-y,z",
  "    -x+y,-x,z",
  "    -y,-x,z+1/2",
  "    x,x-y,z+1/2",
  "    -x+y,y,z+1/2",
  "    x+2/3,y+1/3,z+1/3",
  "    -y+2/3,x-y+1/3,z+1/3",
  "    -x+y+2/3,-x+1/3,z+1/3",
  "    -y+2/3,-x+1/3,z+5/6",
  "    x+2/3,x-y+1/3,z+5/6",
  "    -x+y+2/3,y+1/3,z+5/6",
  "    x+1/3,y+2/3,z+2/3",
  "    -y+1/3,x-y+2/3,z+2/3",
  "    -x+y+1/3,-x+2/3,z+2/3",
  "    -y+1/3,-x+2/3,z+7/6",
  "    x+1/3,x-y+2/3,z+7/6",
  "    -x+y+1/3,y+2/3,z+7/6",
  "R3c:R -1/3*x+2/3*y-1/3*z,-2/3*x+1/3*y+1/3*z,1/3*x+1/3*y+1/3*z",
  "    x,y,z",
  "    z,x,y",
  "    y,z,x",
  "    y+1/2,x+1/2,z+1/2",
  "    z+1/2,y+1/2,x+1/2",
  "    x+1/2,z+1/2,y+1/2",
  "P-31m x,y,z",
  "    x,y,z",
  "    -y,x-y,z",
  "    -x+y,-x,z",
  "    -y,-x,-z",
  "    x,x-y,-z",
  "    -x+y,y,-z",
  "    -x,-y,-z",
  "    y,-x+y,-z",
  "    x-y,x,-z",
  "    y,x,z",
  "    -x,-x+y,z",
  "    x-y,-y,z",
  "P-31c x,y,z",
  "    x,y,z",
  "    -y,x-y,z",
  "    -x+y,-x,z",
  "    -y,-x,-z+1/2",
  "    x,x-y,-z+1/2",
  "    -x+y,y,-z+1/2",
  "    -x,-y,-z",
  "    y,-x+y,-z",
  "    x-y,x,-z",
  "    y,x,z-1/2",
  "    -x,-x+y,z-1/2",
  "    x-y,-y,z-1/2",
  "P-3m1 x,y,z",
  "    x,y,z",
  "    -y,x-y,z",
  "    -x+y,-x,z",
  "    y,x,-z",
  "    -x,-x+y,-z",
  "    x-y,-y,-z",
  "    -x,-y,-z",
  "    y,-x+y,-z",
  "    x-y,x,-z",
  "    -y,-x,z",
  "    x,x-y,z",
  "    -x+y,y,z",
  "P-3c1 x,y,z",
  "    x,y,z",
  "    -y,x-y,z",
  "    -x+y,-x,z",
  "    y,x,-z+1/2",
  "    -x,-x+y,-z+1/2",
  "    x-y,-y,-z+1/2",
  "    -x,-y,-z",
  "    y,-x+y,-z",
  "    x-y,x,-z",
  "    -y,-x,z-1/2",
  "    x,x-y,z-1/2",
  "    -x+y,y,z-1/2",
  "R-3m:H x,y,z",
  "    x,y,z",
  "    -y,x-y,z",
  "    -x+y,-x,z",
  "    y,x,-z",
  "    -x,-x+y,-z",
  "    x-y,-y,-z",
  "    -x,-y,-z",
  "    y,-x+y,-z",
  "    x-y,x,-z",
  "    -y,-x,z",
  "    x,x-y,z",
  "    -x+y,y,z",
  "    x+2/3,y+1/3,z+1/3",
  "    -y+2/3,x-y+1/3,z+1/3",
  "    -x+y+2/3,-x+1/3,z+1/3",
  "    y+2/3,x+1/3,-z+1/3",
  "    -x+2/3,-x+y+1/3,-z+1/3",
  "    x-y+2/3,-y+1/3,-z+1/3",
  "    -x+2/3,-y+1/3,-z+1/3",
  "    y+2/3,-x+y+1/3,-z+1/3",
  "    x-y+2/3,x+1/3,-z+1/3",
  "    -y+2/3,-x+1/3,z+1/3",
  "    x+2/3,x-y+1/3,z+1/3",
  "    -x+y+2/3,y+1/3,z+1/3",
  "    x+1/3,y+2/3,z+2/3",
  "    -y+1/3,x-y+2/3,z+2/3",
  "    -x+y+1/3,-x+2/3,z+2/3",
  "    y+1/3,x+2/3,-z+2/3",
  "    -x+1/3,-x+y+2/3,-z+2/3",
  "    x-y+1/3,-y+2/3,-z+2/3",
  "    -x+1/3,-y+2/3,-z+2/3",
  "    y+1/3,-x+y+2/3,-z+2/3",
  "    x-y+1/3,x+2/3,-z+2/3",
  "    -y+1/3,-x+2/3,z+2/3",
  "    x+1/3,x-y+2/3,z+2/3",
  "    -x+y+1/3,y+2/3,z+2/3",
  "R-3m:R -1/3*x+2/3*y-1/3*z,-2/3*x+1/3*y+1/3*z,1/3*x+1/3*y+1/3*z",
  "    x,y,z",
  "    z,x,y",
  "    y,z,x",
  "    -y,-x,-z",
  "    -z,-y,-x",
  "    -x,-z,-y",
  "    -x,-y,-z",
  "    -z,-x,-y",
  "    -y,-z,-x",
  "    y,x,z",
  "    z,y,x",
  "    x,z,y"]

end Systre.Table
