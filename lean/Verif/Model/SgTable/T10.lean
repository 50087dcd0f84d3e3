/-! Written by tools/gen_sgtable.py. Lines 3803 to 4208 of src/data/sgtable.data. -/

namespace Systre.Table
set_option maxRecDepth 100000

/-- lines 3803 to 4208 of src/data/sgtable.data -/
def sgLines10 : List String := [
  "P4/nnc:2 x,y,z",
  "    x,y,z",
  "    -y+1/2,x,z",
  "    -x+1/2,-y+1/2,z",
  "    y,-x+1/2,z",
  "    x,-y+1/2,-z+1/2",
  "    y,x,-z+1/2",
  "    -x+1/2,y,-z+1/2",
  "    -y+1/2,-x+1/2,-z+1/2",
  "    -x,-y,-z",
  "    y-1/2,-x,-z",
  "    x-1/2,y-1/2,-z",
  "    -y,x-1/2,-z",
  "    -x,y-1/2,z-1/2",
  "    -y,-x,z-1/2",
  "    x-1/2,-y,z-1/2",
  "    y-1/2,x-1/2,z-1/2",
  "P4/nnc:1 x+1/4,y+1/4,z+1/4",
  "    x,y,z",
  "    -y,x,z",
  "    -x,-y,z",
  "    y,-x,z",
  "    x,-y,-z",
  "    y,x,-z",
  "    -x,y,-z",
  "    -y,-x,-z",
  "    -x+1/2,-y+1/2,-z+1/2",
  "    y+1/2,-x+1/2,-z+1/2",
  "    x+1/2,y+1/2,-z+1/2",
  "    -y+1/2,x+1/2,-z+1/2",
  "    -x+1/2,y+1/2,z+1/2",
  "    -y+1/2,-x+1/2,z+1/2",
  "    x+1/2,-y+1/2,z+1/2",
  "    y+1/2,x+1/2,z+1/2",
  "P4/mbm x,y,z",
  "    x,y,z",
  "    -y,x,z",
  "    -x,-y,z",
  "    y,-x,z",
  "    x+1/2,-y+1/2,-z",
  "    y+1/2,x+1/2,-z",
  "    -x+1/2,y+1/2,-z",
  "    -y+1/2,-x+1/2,-z",
  "    -x,-y,-z",
  "    y,-x,-z",
  "    x,y,-z",
  "    -y,x,-z",
  "    -x-1/2,y-1/2,z",
  "    -y-1/2,-x-1/2,z",
  "    x-1/2,-y-1/2,z",
  "    y-1/2,x-1/2,z",
  "P4/mnc x,y,z",
  "    x,y,z",
  "    -y,x,z",
  "    -x,-y,z",
  "    y,-x,z",
  "    x+1/2,-y+1/2,-z+1/2",
  "    y+1/2,x+1/2,-z+1/2",
  "    -x+1/2,y+1/2,-z+1/2",
  "    -y+1/2,-x+1/2,-z+1/2",
  "    -x,-y,-z",
  "    y,-x,-z",
  "    x,y,-z",
  "    -y,x,-z",
  "    -x-1/2,y-1/2,z-1/2",
  "    -y-1/2,-x-1/2,z-1/2",
  "    x-1/2,-y-1/2,z-1/2",
  "    y-1/2,x-1/2,z-1/2",
  "P4/nmm:2 x,y,z",
  "    x,y,z",
  "    -y+1/2,x,z",
  "    -x+1/2,-y+1/2,z",
  "    y,-x+1/2,z",
  "    x+1/2,-y,-z",
  "    y+1/2,x+1/2,-z",
  "    -x,y+1/2,-z",
  "    -y,-x,-z",
  "    -x,-y,-z",
  "    y-1/2,-x,-z",
  "    x-1/2,y-1/2,-z",
  "    -y,x-1/2,-z",
  "    -x-1/2,y,z",
  "    -y-1/2,-x-1/2,z",
  "    x,-y-1/2,z",
  "    y,x,z",
  "P4/nmm:1 x+1/4,y-1/4,z",
  "    x,y,z",
  "    -y+1/2,x+1/2,z",
  "    -x,-y,z",
  "    y+1/2,-x+1/2,z",
  "    x+1/2,-y+1/2,-z",
  "    y,x,-z",
  "    -x+1/2,y+1/2,-z",
  "    -y,-x,-z",
  "    -x+1/2,-y+1/2,-z",
  "    y,-x,-z",
  "    x+1/2,y+1/2,-z",
  "    -y,x,-z",
  "    -x,y,z",
  "    -y+1/2,-x+1/2,z",
  "    x,-y,z",
  "    y+1/2,x+1/2,z",
  "P4/ncc:2 x,y,z",
  "    x,y,z",
  "    -y+1/2,x,z",
  "    -x+1/2,-y+1/2,z",
  "    y,-x+1/2,z",
  "    x+1/2,-y,-z+1/2",
  "    y+1/2,x+1/2,-z+1/2",
  "    -x,y+1/2,-z+1/2",
  "    -y,-x,-z+1/2",
  "    -x,-y,-z",
  "    y-1/2,-x,-z",
  "    x-1/2,y-1/2,-z",
  "    -y,x-1/2,-z",
  "    -x-1/2,y,z-1/2",
  "    -y-1/2,-x-1/2,z-1/2",
  "    x,-y-1/2,z-1/2",
  "    y,x,z-1/2",
  "P4/ncc:1 x+1/4,y-1/4,z",
  "    x,y,z",
  "    -y+1/2,x+1/2,z",
  "    -x,-y,z",
  "    y+1/2,-x+1/2,z",
  "    x+1/2,-y+1/2,-z+1/2",
  "    y,x,-z+1/2",
  "    -x+1/2,y+1/2,-z+1/2",
  "    -y,-x,-z+1/2",
  "    -x+1/2,-y+1/2,-z",
  "    y,-x,-z",
  "    x+1/2,y+1/2,-z",
  "    -y,x,-z",
  "    -x,y,z-1/2",
  "    -y+1/2,-x+1/2,z-1/2",
  "    x,-y,z-1/2",
  "    y+1/2,x+1/2,z-1/2",
  "P42/mmc x,y,z",
  "    x,y,z",
  "    -y,x,z+1/2",
  "    -x,-y,z",
  "    y,-x,z+1/2",
  "    x,-y,-z",
  "    y,x,-z+1/2",
  "    -x,y,-z",
  "    -y,-x,-z+1/2",
  "    -x,-y,-z",
  "    y,-x,-z-1/2",
  "    x,y,-z",
  "    -y,x,-z-1/2",
  "    -x,y,z",
  "    -y,-x,z-1/2",
  "    x,-y,z",
  "    y,x,z-1/2",
  "P42/mcm x,y,z",
  "    x,y,z",
  "    -y,x,z+1/2",
  "    -x,-y,z",
  "    y,-x,z+1/2",
  "    x,-y,-z+1/2",
  "    y,x,-z",
  "    -x,y,-z+1/2",
  "    -y,-x,-z",
  "    -x,-y,-z",
  "    y,-x,-z-1/2",
  "    x,y,-z",
  "    -y,x,-z-1/2",
  "    -x,y,z-1/2",
  "    -y,-x,z",
  "    x,-y,z-1/2",
  "    y,x,z",
  "P42/nbc:2 x,y,z",
  "    x,y,z",
  "    -y+1/2,x,z+1/2",
  "    -x+1/2,-y+1/2,z",
  "    y,-x+1/2,z+1/2",
  "    x,-y+1/2,-z",
  "    y,x,-z+1/2",
  "    -x+1/2,y,-z",
  "    -y+1/2,-x+1/2,-z+1/2",
  "    -x,-y,-z",
  "    y-1/2,-x,-z-1/2",
  "    x-1/2,y-1/2,-z",
  "    -y,x-1/2,-z-1/2",
  "    -x,y-1/2,z",
  "    -y,-x,z-1/2",
  "    x-1/2,-y,z",
  "    y-1/2,x-1/2,z-1/2",
  "P42/nbc:1 x+1/4,y-1/4,z-1/4",
  "    x,y,z",
  "    -y+1/2,x+1/2,z+1/2",
  "    -x,-y,z",
  "    y+1/2,-x+1/2,z+1/2",
  "    x,-y,-z+1/2",
  "    y+1/2,x+1/2,-z",
  "    -x,y,-z+1/2",
  "    -y+1/2,-x+1/2,-z",
  "    -x+1/2,-y+1/2,-z+1/2",
  "    y,-x,-z",
  "    x+1/2,y+1/2,-z+1/2",
  "    -y,x,-z",
  "    -x+1/2,y+1/2,z",
  "    -y,-x,z+1/2",
  "    x+1/2,-y+1/2,z",
  "    y,x,z+1/2",
  "P42/nnm:2 x,y,z",
  "    x,y,z",
  "    -y+1/2,x,z+1/2",
  "    -x+1/2,-y+1/2,z",
  "    y,-x+1/2,z+1/2",
  "    x,-y+1/2,-z+1/2",
  "    y,x,-z",
  "    -x+1/2,y,-z+1/2",
  "    -y+1/2,-x+1/2,-z",
  "    -x,-y,-z",
  "    y-1/2,-x,-z-1/2",
  "    x-1/2,y-1/2,-z",
  "    -y,x-1/2,-z-1/2",
  "    -x,y-1/2,z-1/2",
  "    -y,-x,z",
  "    x-1/2,-y,z-1/2",
  "    y-1/2,x-1/2,z",
  "P42/nnm:1 x+1/4,y-1/4,z+1/4",
  "    x,y,z",
  "    -y+1/2,x+1/2,z+1/2",
  "    -x,-y,z",
  "    y+1/2,-x+1/2,z+1/2",
  "    x,-y,-z",
  "    y+1/2,x+1/2,-z+1/2",
  "    -x,y,-z",
  "    -y+1/2,-x+1/2,-z+1/2",
  "    -x+1/2,-y+1/2,-z+1/2",
  "    y,-x,-z",
  "    x+1/2,y+1/2,-z+1/2",
  "    -y,x,-z",
  "    -x+1/2,y+1/2,z+1/2",
  "    -y,-x,z",
  "    x+1/2,-y+1/2,z+1/2",
  "    y,x,z",
  "P42/mbc x,y,z",
  "    x,y,z",
  "    -y,x,z+1/2",
  "    -x,-y,z",
  "    y,-x,z+1/2",
  "    x+1/2,-y+1/2,-z",
  "    y+1/2,x+1/2,-z+1/2",
  "    -x+1/2,y+1/2,-z",
  "    -y+1/2,-x+1/2,-z+1/2",
  "    -x,-y,-z",
  "    y,-x,-z-1/2",
  "    x,y,-z",
  "    -y,x,-z-1/2",
  "    -x-1/2,y-1/2,z",
  "    -y-1/2,-x-1/2,z-1/2",
  "    x-1/2,-y-1/2,z",
  "    y-1/2,x-1/2,z-1/2",
  "P42/mnm x,y,z",
  "    x,y,z",
  "    -y+1/2,x+1/2,z+1/2",
  "    -x,-y,z",
  "    y+1/2,-x+1/2,z+1/2",
  "    x+1/2,-y+1/2,-z+1/2",
  "    y,x,-z",
  "    -x+1/2,y+1/2,-z+1/2",
  "    -y,-x,-z",
  "    -x,-y,-z",
  "    y-1/2,-x-1/2,-z-1/2",
  "    x,y,-z",
  "    -y-1/2,x-1/2,-z-1/2",
  "    -x-1/2,y-1/2,z-1/2",
  "    -y,-x,z",
  "    x-1/2,-y-1/2,z-1/2",
  "    y,x,z",
  "P42/nmc:2 x,y,z",
  "    x,y,z",
  "    -y+1/2,x,z+1/2",
  "    -x+1/2,-y+1/2,z",
  "    y,-x+1/2,z+1/2",
  "    x+1/2,-y,-z",
  "    y+1/2,x+1/2,-z+1/2",
  "    -x,y+1/2,-z",
  "    -y,-x,-z+1/2",
  "    -x,-y,-z",
  "    y-1/2,-x,-z-1/2",
  "    x-1/2,y-1/2,-z",
  "    -y,x-1/2,-z-1/2",
  "    -x-1/2,y,z",
  "    -y-1/2,-x-1/2,z-1/2",
  "    x,-y-1/2,z",
  "    y,x,z-1/2",
  "P42/nmc:1 x+1/4,y-1/4,z-1/4",
  "    x,y,z",
  "    -y+1/2,x+1/2,z+1/2",
  "    -x,-y,z",
  "    y+1/2,-x+1/2,z+1/2",
  "    x+1/2,-y+1/2,-z+1/2",
  "    y,x,-z",
  "    -x+1/2,y+1/2,-z+1/2",
  "    -y,-x,-z",
  "    -x+1/2,-y+1/2,-z+1/2",
  "    y,-x,-z",
  "    x+1/2,y+1/2,-z+1/2",
  "    -y,x,-z",
  "    -x,y,z",
  "    -y+1/2,-x+1/2,z+1/2",
  "    x,-y,z",
  "    y+1/2,x+1/2,z+1/2",
  "P42/ncm:2 x,y,z",
  "    x,y,z",
  "    -y+1/2,x,z+1/2",
  "    -x+1/2,-y+1/2,z",
  "    y,-x+1/2,z+1/2",
  "    x+1/2,-y,-z+1/2",
  "    y+1/2,x+1/2,-z",
  "    -x,y+1/2,-z+1/2",
  "    -y,-x,-z",
  "    -x,-y,-z",
  "    y-1/2,-x,-z-1/2",
  "    x-1/2,y-1/2,-z",
  "    -y,x-1/2,-z-1/2",
  "    -x-1/2,y,z-1/2",
  "    -y-1/2,-x-1/2,z",
  "    x,-y-1/2,z-1/2",
  "    y,x,z",
  "P42/ncm:1 x+1/4,y-1/4,z+1/4",
  "    x,y,z",
  "    -y+1/2,x+1/2,z+1/2",
  "    -x,-y,z",
  "    y+1/2,-x+1/2,z+1/2",
  "    x+1/2,-y+1/2,-z",
  "    y,x,-z+1/2",
  "    -x+1/2,y+1/2,-z",
  "    -y,-x,-z+1/2",
  "    -x+1/2,-y+1/2,-z+1/2",
  "    y,-x,-z",
  "    x+1/2,y+1/2,-z+1/2",
  "    -y,x,-z",
  "    -x,y,z+1/2",
  "    -y+1/2,-x+1/2,z",
  "    x,-y,z+1/2",
  "    y+1/2,x+1/2,z",
  "I4/mmm x,y,z",
  "    x,y,z",
  "    -y,x,z",
  "    -x,-y,z",
  "    y,-x,z",
  "    x,-y,-z",
  "    y,x,-z",
  "    -x,y,-z",
  "    -y,-x,-z",
  "    -x,-y,-z",
  "    y,-x,-z",
  "    x,y,-z",
  "    -y,x,-z",
  "    -x,y,z",
  "    -y,-x,z",
  "    x,-y,z",
  "    y,x,z",
  "    x+1/2,y+1/2,z+1/2",
  "    -y+1/2,x+1/2,z+1/2",
  "    -x+1/2,-y+1/2,z+1/2",
  "    y+1/2,-x+1/2,z+1/2",
  "    x+1/2,-y+1/2,-z+1/2",
  "    y+1/2,x+1/2,-z+1/2",
  "    -x+1/2,y+1/2,-z+1/2",
  "    -y+1/2,-x+1/2,-z+1/2",
  "    -x+1/2,-y+1/2,-z+1/2",
  "    y+1/2,-x+1/2,-z+1/2",
  "    x+1/2,y+1/2,-z+1/2",
  "    -y+1/2,x+1/2,-z+1/2",
  "    -x+1/2,y+1/2,z+1/2",
  "    -y+1/2,-x+1/2,z+1/2",
  "    x+1/2,-y+1/2,z+1/2",
  "    y+1/2,x+1/2,z+1/2",
  "I4/mcm x,y,z",
  "    x,y,z",
  "    -y,x,z",
  "    -x,-y,z",
  "    y,-x,z",
  "    x,-y,-z+1/2",
  "    y,x,-z+1/2",
  "    -x,y,-z+1/2",
  "    -y,-x,-z+1/2",
  "    -x,-y,-z",
  "    y,-x,-z",
  "    x,y,-z",
  "    -y,x,-z",
  "    -x,y,z-1/2",
  "    -y,-x,z-1/2",
  "    x,-y,z-1/2",
  "    y,x,z-1/2",
  "    x+1/2,y+1/2,z+1/2",
  "    -y+1/2,x+1/2,z+1/2",
  "    -x+1/2,-y+1/2,z+1/2",
  "    y+1/2,-x+1/2,z+1/2",
  "    x+1/2,-y+1/2,-z+1",
  "    y+1/2,x+1/2,-z+1",
  "    -x+1/2,y+1/2,-z+1",
  "    -y+1/2,-x+1/2,-z+1",
  "    -x+1/2,-y+1/2,-z+1/2",
  "    y+1/2,-x+1/2,-z+1/2",
  "    x+1/2,y+1/2,-z+1/2",
  "    -y+1/2,x+1/2,-z+1/2",
  "    -x+1/2,y+1/2,z",
  "    -y+1/2,-x+1/2,z",
  "    x+1/2,-y+1/2,z",
  "    y+1/2,x+1/2,z"]

end Systre.Table
