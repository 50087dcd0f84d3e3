/-! Written by tools/gen_sgtable.py. Lines 4650 to 5069 of src/data/sgtable.data. -/

namespace Systre.Table
set_option maxRecDepth 100000

/-- lines 4650 to 5069 of src/data/sgtable.data -/
def sgLines12 : List String := [
  "R-3c:H x,y,z",
  "    x,y,z",
  "    -y,x-y,z",
  "    -x+y,-x,z",
  "    y,x,-z+1/2",
  "    -x,-x+y,-z+1/2",
  "    x-y,-y,-z+1/2",
  "    -x,-y,-z",
  "    y,-x+y,-z",
  "    x-y,x,-z",
  "    -y,-x,z-1/2",
  "    x,x-y,z-1/2",
  "    -x+y,y,z-1/2",
  "    x+2/3,y+1/3,z+1/3",
  "    -y+2/3,x-y+1/3,z+1/3",
  "    -x+y+2/3,-x+1/3,z+1/3",
  "    y+2/3,x+1/3,-z+5/6",
  "    -x+2/3,-x+y+1/3,-z+5/6",
  "    x-y+2/3,-y+1/3,-z+5/6",
  "    -x+2/3,-y+1/3,-z+1/3",
  "    y+2/3,-x+y+1/3,-z+1/3",
  "    x-y+2/3,x+1/3,-z+1/3",
  "    -y+2/3,-x+1/3,z-1/6",
  "    x+2/3,x-y+1/3,z-1/6",
  "    -x+y+2/3,y+1/3,z-1/6",
  "    x+1/3,y+2/3,z+2/3",
  "    -y+1/3,x-y+2/3,z+2/3",
  "    -x+y+1/3,-x+2/3,z+2/3",
  "    y+1/3,x+2/3,-z+7/6",
  "    -x+1/3,-x+y+2/3,-z+7/6",
  "    x-y+1/3,-y+2/3,-z+7/6",
  "    -x+1/3,-y+2/3,-z+2/3",
  "    y+1/3,-x+y+2/3,-z+2/3",
  "    x-y+1/3,x+2/3,-z+2/3",
  "    -y+1/3,-x+2/3,z+1/6",
  "    x+1/3,x-y+2/3,z+1/6",
  "    -x+y+1/3,y+2/3,z+1/6",
  "R-3c:R -1/3*x+2/3*y-1/3*z,-2/3*x+1/3*y+1/3*z,1/3*x+1/3*y+1/3*z",
  "    x,y,z",
  "    z,x,y",
  "    y,z,x",
  "    -y+1/2,-x+1/2,-z+1/2",
  "    -z+1/2,-y+1/2,-x+1/2",
  "    -x+1/2,-z+1/2,-y+1/2",
  "    -x,-y,-z",
  "    -z,-x,-y",
  "    -y,-z,-x",
  "    y-1/2,x-1/2,z-1/2",
  "    z-1/2,y-1/2,x-1/2",
  "    x-1/2,z-1/2,y-1/2",
  "P6 x,y,z",
  "    x,y,z",
  "    x-y,x,z",
  "    -y,x-y,z",
  "    -x,-y,z",
  "    -x+y,-x,z",
  "    y,-x+y,z",
  "P61 x,y,z",
  "    x,y,z",
  "    x-y,x,z+1/6",
  "    -y,x-y,z+1/3",
  "    -x,-y,z+1/2",
  "    -x+y,-x,z+2/3",
  "    y,-x+y,z+5/6",
  "P65 x,y,z",
  "    x,y,z",
  "    x-y,x,z+5/6",
  "    -y,x-y,z+2/3",
  "    -x,-y,z+1/2",
  "    -x+y,-x,z+1/3",
  "    y,-x+y,z+1/6",
  "P62 x,y,z",
  "    x,y,z",
  "    x-y,x,z+1/3",
  "    -y,x-y,z+2/3",
  "    -x,-y,z",
  "    -x+y,-x,z+1/3",
  "    y,-x+y,z+2/3",
  "P64 x,y,z",
  "    x,y,z",
  "    x-y,x,z+2/3",
  "    -y,x-y,z+1/3",
  "    -x,-y,z",
  "    -x+y,-x,z+2/3",
  "    y,-x+y,z+1/3",
  "P63 x,y,z",
  "    x,y,z",
  "    x-y,x,z+1/2",
  "    -y,x-y,z",
  "    -x,-y,z+1/2",
  "    -x+y,-x,z",
  "    y,-x+y,z+1/2",
  "P-6 x,y,z",
  "    x,y,z",
  "    -x+y,-x,-z",
  "    -y,x-y,z",
  "    x,y,-z",
  "    -x+y,-x,z",
  "    -y,x-y,-z",
  "P6/m x,y,z",
  "    x,y,z",
  "    x-y,x,z",
  "    -y,x-y,z",
  "    -x,-y,z",
  "    -x+y,-x,z",
  "    y,-x+y,z",
  "    -x,-y,-z",
  "    -x+y,-x,-z",
  "    y,-x+y,-z",
  "    x,y,-z",
  "    x-y,x,-z",
  "    -y,x-y,-z",
  "P63/m x,y,z",
  "    x,y,z",
  "    x-y,x,z+1/2",
  "    -y,x-y,z",
  "    -x,-y,z+1/2",
  "    -x+y,-x,z",
  "    y,-x+y,z+1/2",
  "    -x,-y,-z",
  "    -x+y,-x,-z-1/2",
  "    y,-x+y,-z",
  "    x,y,-z-1/2",
  "    x-y,x,-z",
  "    -y,x-y,-z-1/2",
  "P622 x,y,z",
  "    x,y,z",
  "    x-y,x,z",
  "    -y,x-y,z",
  "    -x,-y,z",
  "    -x+y,-x,z",
  "    y,-x+y,z",
  "    -y,-x,-z",
  "    x-y,-y,-z",
  "    x,x-y,-z",
  "    y,x,-z",
  "    -x+y,y,-z",
  "    -x,-x+y,-z",
  "P6122 x,y,z",
  "    x,y,z",
  "    x-y,x,z+1/6",
  "    -y,x-y,z+1/3",
  "    -x,-y,z+1/2",
  "    -x+y,-x,z+2/3",
  "    y,-x+y,z+5/6",
  "    -y,-x,-z+5/6",
  "    x-y,-y,-z",
  "    x,x-y,-z+1/6",
  "    y,x,-z+1/3",
  "    -x+y,y,-z+1/2",
  "    -x,-x+y,-z+2/3",
  "P6522 x,y,z",
  "    x,y,z",
  "    x-y,x,z+5/6",
  "    -y,x-y,z+2/3",
  "    -x,-y,z+1/2",
  "    -x+y,-x,z+1/3",
  "    y,-x+y,z+1/6",
  "    -y,-x,-z+1/6",
  "    x-y,-y,-z",
  "    x,x-y,-z+5/6",
  "    y,x,-z+2/3",
  "    -x+y,y,-z+1/2",
  "    -x,-x+y,-z+1/3",
  "P6222 x,y,z",
  "    x,y,z",
  "    x-y,x,z+1/3",
  "    -y,x-y,z+2/3",
  "    -x,-y,z",
  "    -x+y,-x,z+1/3",
  "    y,-x+y,z+2/3",
  "    -y,-x,-z+2/3",
  "    x-y,-y,-z",
  "    x,x-y,-z+1/3",
  "    y,x,-z+2/3",
  "    -x+y,y,-z",
  "    -x,-x+y,-z+1/3",
  "P6422 x,y,z",
  "    x,y,z",
  "    x-y,x,z+2/3",
  "    -y,x-y,z+1/3",
  "    -x,-y,z",
  "    -x+y,-x,z+2/3",
  "    y,-x+y,z+1/3",
  "    -y,-x,-z+1/3",
  "    x-y,-y,-z",
  "    x,x-y,-z+2/3",
  "    y,x,-z+1/3",
  "    -x+y,y,-z",
  "    -x,-x+y,-z+2/3",
  "P6322 x,y,z",
  "    x,y,z",
  "    x-y,x,z+1/2",
  "    -y,x-y,z",
  "    -x,-y,z+1/2",
  "    -x+y,-x,z",
  "    y,-x+y,z+1/2",
  "    -y,-x,-z+1/2",
  "    x-y,-y,-z",
  "    x,x-y,-z+1/2",
  "    y,x,-z",
  "    -x+y,y,-z+1/2",
  "    -x,-x+y,-z",
  "P6mm x,y,z",
  "    x,y,z",
  "    x-y,x,z",
  "    -y,x-y,z",
  "    -x,-y,z",
  "    -x+y,-x,z",
  "    y,-x+y,z",
  "    y,x,z",
  "    -x+y,y,z",
  "    -x,-x+y,z",
  "    -y,-x,z",
  "    x-y,-y,z",
  "    x,x-y,z",
  "P6cc x,y,z",
  "    x,y,z",
  "    x-y,x,z",
  "    -y,x-y,z",
  "    -x,-y,z",
  "    -x+y,-x,z",
  "    y,-x+y,z",
  "    y,x,z+1/2",
  "    -x+y,y,z+1/2",
  "    -x,-x+y,z+1/2",
  "    -y,-x,z+1/2",
  "    x-y,-y,z+1/2",
  "    x,x-y,z+1/2",
  "P63cm x,y,z",
  "    x,y,z",
  "    x-y,x,z+1/2",
  "    -y,x-y,z",
  "    -x,-y,z+1/2",
  "    -x+y,-x,z",
  "    y,-x+y,z+1/2",
  "    y,x,z",
  "    -x+y,y,z+1/2",
  "    -x,-x+y,z",
  "    -y,-x,z+1/2",
  "    x-y,-y,z",
  "    x,x-y,z+1/2",
  "P63mc x,y,z",
  "    x,y,z",
  "    x-y,x,z+1/2",
  "    -y,x-y,z",
  "    -x,-y,z+1/2",
  "    -x+y,-x,z",
  "    y,-x+y,z+1/2",
  "    y,x,z+1/2",
  "    -x+y,y,z",
  "    -x,-x+y,z+1/2",
  "    -y,-x,z",
  "    x-y,-y,z+1/2",
  "    x,x-y,z",
  "P-6m2 x,y,z",
  "    x,y,z",
  "    -x+y,-x,-z",
  "    -y,x-y,z",
  "    x,y,-z",
  "    -x+y,-x,z",
  "    -y,x-y,-z",
  "    -y,-x,-z",
  "    -x+y,y,z",
  "    x,x-y,-z",
  "    -y,-x,z",
  "    -x+y,y,-z",
  "    x,x-y,z",
  "P-6c2 x,y,z",
  "    x,y,z",
  "    -x+y,-x,-z+1/2",
  "    -y,x-y,z",
  "    x,y,-z+1/2",
  "    -x+y,-x,z",
  "    -y,x-y,-z+1/2",
  "    -y,-x,-z",
  "    -x+y,y,z+1/2",
  "    x,x-y,-z",
  "    -y,-x,z+1/2",
  "    -x+y,y,-z",
  "    x,x-y,z+1/2",
  "P-62m x,y,z",
  "    x,y,z",
  "    -x+y,-x,-z",
  "    -y,x-y,z",
  "    x,y,-z",
  "    -x+y,-x,z",
  "    -y,x-y,-z",
  "    y,x,z",
  "    x-y,-y,-z",
  "    -x,-x+y,z",
  "    y,x,-z",
  "    x-y,-y,z",
  "    -x,-x+y,-z",
  "P-62c x,y,z",
  "    x,y,z",
  "    -x+y,-x,-z+1/2",
  "    -y,x-y,z",
  "    x,y,-z+1/2",
  "    -x+y,-x,z",
  "    -y,x-y,-z+1/2",
  "    y,x,z+1/2",
  "    x-y,-y,-z",
  "    -x,-x+y,z+1/2",
  "    y,x,-z",
  "    x-y,-y,z+1/2",
  "    -x,-x+y,-z",
  "P6/mmm x,y,z",
  "    x,y,z",
  "    x-y,x,z",
  "    -y,x-y,z",
  "    -x,-y,z",
  "    -x+y,-x,z",
  "    y,-x+y,z",
  "    -y,-x,-z",
  "    x-y,-y,-z",
  "    x,x-y,-z",
  "    y,x,-z",
  "    -x+y,y,-z",
  "    -x,-x+y,-z",
  "    -x,-y,-z",
  "    -x+y,-x,-z",
  "    y,-x+y,-z",
  "    x,y,-z",
  "    x-y,x,-z",
  "    -y,x-y,-z",
  "    y,x,z",
  "    -x+y,y,z",
  "    -x,-x+y,z",
  "    -y,-x,z",
  "    x-y,-y,z",
  "    x,x-y,z",
  "P6/mcc x,y,z",
  "    x,y,z",
  "    x-y,x,z",
  "    -y,x-y,z",
  "    -x,-y,z",
  "    -x+y,-x,z",
  "    y,-x+y,z",
  "    -y,-x,-z+1/2",
  "    x-y,-y,-z+1/2",
  "    x,x-y,-z+1/2",
  "    y,x,-z+1/2",
  "    -x+y,y,-z+1/2",
  "    -x,-x+y,-z+1/2",
  "    -x,-y,-z",
  "    -x+y,-x,-z",
  "    y,-x+y,-z",
  "    x,y,-z",
  "    x-y,x,-z",
  "    -y,x-y,-z",
  "    y,x,z-1/2",
  "    -x+y,y,z-1/2",
  "    -x,-x+y,z-1/2",
  "    -y,-x,z-1/2",
  "    x-y,-y,z-1/2",
  "    x,x-y,z-1/2",
  "P63/mcm x,y,z",
  "    x,y,z",
  "    x-y,x,z+1/2",
  "    -y,x-y,z",
  "    -x,-y,z+1/2",
  "    -x+y,-x,z",
  "    y,-x+y,z+1/2",
  "    -y,-x,-z",
  "    x-y,-y,-z+1/2",
  "    x,x-y,-z",
  "    y,x,-z+1/2",
  "    -x+y,y,-z",
  "    -x,-x+y,-z+1/2",
  "    -x,-y,-z",
  "    -x+y,-x,-z-1/2",
  "    y,-x+y,-z",
  "    x,y,-z-1/2",
  "    x-y,x,-z",
  "    -y,x-y,-z-1/2",
  "    y,x,z",
  "    -x+y,y,z-1/2",
  "    -x,-x+y,z",
  "    -y,-x,z-1/2",
  "    x-y,-y,z",
  "    x,x-y,z-1/2",
  "P63/mmc x,y,z",
  "    x,y,z",
  "    x-y,x,z+1/2",
  "    -y,x-y,z",
  "    -x,-y,z+1/2",
  "    -x+y,-x,z",
  "    y,-x+y,z+1/2",
  "    -y,-x,-z+1/2",
  "    x-y,-y,-z",
  "    x,x-y,-z+1/2",
  "    y,x,-z",
  "    -x+y,y,-z+1/2",
  "    -x,-x+y,-z",
  "    -x,-y,-z",
  "    -x+y,-x,-z-1/2",
  "    y,-x+y,-z",
  "    x,y,-z-1/2",
  "    x-y,x,-z",
  "    -y,x-y,-z-1/2",
  "    y,x,z-1/2",
  "    -x+y,y,z",
  "    -x,-x+y,z-1/2",
  "    -y,-x,z",
  "    x-y,-y,z-1/2",
  "    x,x-y,z",
  "P23 x,y,z",
  "    x,y,z",
  "    -x,-y,z",
  "    x,-y,-z",
  "    -x,y,-z",
  "    z,x,y",
  "    -z,-x,y",
  "    z,-x,-y",
  "    -z,x,-y",
  "    y,z,x",
  "    y,-z,-x",
  "    -y,z,-x",
  "    -y,-z,x"]

end Systre.Table
