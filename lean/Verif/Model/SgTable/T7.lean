/-! Written by tools/gen_sgtable.py. Lines 2532 to 2921 of src/data/sgtable.data. -/

namespace Systre.Table
set_option maxRecDepth 100000

/-- lines 2532 to 2921 of src/data/sgtable.data -/
def sgLines7 : List String := [
  "Cccm x,y,z",
  "    x,y,z",
  "    -x,-y,z",
  "    x,-y,-z+1/2",
  "    -x,y,-z+1/2",
  "    -x,-y,-z",
  "    x,y,-z",
  "    -x,y,z-1/2",
  "    x,-y,z-1/2",
  "    x+1/2,y+1/2,z",
  "    -x+1/2,-y+1/2,z",
  "    x+1/2,-y+1/2,-z+1/2",
  "    -x+1/2,y+1/2,-z+1/2",
  "    -x+1/2,-y+1/2,-z",
  "    x+1/2,y+1/2,-z",
  "    -x+1/2,y+1/2,z-1/2",
  "    x+1/2,-y+1/2,z-1/2",
  "Amaa y,z,x",
  "    x,y,z",
  "    -x+1/2,-y,z",
  "    x,-y,-z",
  "    -x+1/2,y,-z",
  "    -x,-y,-z",
  "    x-1/2,y,-z",
  "    -x,y,z",
  "    x-1/2,-y,z",
  "    x,y+1/2,z+1/2",
  "    -x+1/2,-y+1/2,z+1/2",
  "    x,-y+1/2,-z+1/2",
  "    -x+1/2,y+1/2,-z+1/2",
  "    -x,-y+1/2,-z+1/2",
  "    x-1/2,y+1/2,-z+1/2",
  "    -x,y+1/2,z+1/2",
  "    x-1/2,-y+1/2,z+1/2",
  "Bbmb z,x,y",
  "    x,y,z",
  "    -x,-y+1/2,z",
  "    x,-y+1/2,-z",
  "    -x,y,-z",
  "    -x,-y,-z",
  "    x,y-1/2,-z",
  "    -x,y-1/2,z",
  "    x,-y,z",
  "    x+1/2,y,z+1/2",
  "    -x+1/2,-y+1/2,z+1/2",
  "    x+1/2,-y+1/2,-z+1/2",
  "    -x+1/2,y,-z+1/2",
  "    -x+1/2,-y,-z+1/2",
  "    x+1/2,y-1/2,-z+1/2",
  "    -x+1/2,y-1/2,z+1/2",
  "    x+1/2,-y,z+1/2",
  "Cmma x,y,z",
  "    x,y,z",
  "    -x+1/2,-y,z",
  "    x,-y,-z",
  "    -x+1/2,y,-z",
  "    -x,-y,-z",
  "    x-1/2,y,-z",
  "    -x,y,z",
  "    x-1/2,-y,z",
  "    x+1/2,y+1/2,z",
  "    -x+1,-y+1/2,z",
  "    x+1/2,-y+1/2,-z",
  "    -x+1,y+1/2,-z",
  "    -x+1/2,-y+1/2,-z",
  "    x,y+1/2,-z",
  "    -x+1/2,y+1/2,z",
  "    x,-y+1/2,z",
  "Cmmb x-1/4,y-1/4,z",
  "    x,y,z",
  "    -x+1/2,-y,z",
  "    x+1/2,-y,-z",
  "    -x,y,-z",
  "    -x,-y,-z",
  "    x-1/2,y,-z",
  "    -x-1/2,y,z",
  "    x,-y,z",
  "    x+1/2,y+1/2,z",
  "    -x+1,-y+1/2,z",
  "    x+1,-y+1/2,-z",
  "    -x+1/2,y+1/2,-z",
  "    -x+1/2,-y+1/2,-z",
  "    x,y+1/2,-z",
  "    -x,y+1/2,z",
  "    x+1/2,-y+1/2,z",
  "Abmm y,z,x",
  "    x,y,z",
  "    -x,-y+1/2,z",
  "    x,-y+1/2,-z",
  "    -x,y,-z",
  "    -x,-y,-z",
  "    x,y-1/2,-z",
  "    -x,y-1/2,z",
  "    x,-y,z",
  "    x,y+1/2,z+1/2",
  "    -x,-y+1,z+1/2",
  "    x,-y+1,-z+1/2",
  "    -x,y+1/2,-z+1/2",
  "    -x,-y+1/2,-z+1/2",
  "    x,y,-z+1/2",
  "    -x,y,z+1/2",
  "    x,-y+1/2,z+1/2",
  "Acmm -z,y,x",
  "    x,y,z",
  "    -x,-y,z",
  "    x,-y+1/2,-z",
  "    -x,y+1/2,-z",
  "    -x,-y,-z",
  "    x,y,-z",
  "    -x,y-1/2,z",
  "    x,-y-1/2,z",
  "    x,y+1/2,z+1/2",
  "    -x,-y+1/2,z+1/2",
  "    x,-y+1,-z+1/2",
  "    -x,y+1,-z+1/2",
  "    -x,-y+1/2,-z+1/2",
  "    x,y+1/2,-z+1/2",
  "    -x,y,z+1/2",
  "    x,-y,z+1/2",
  "Bmcm z,x,y",
  "    x,y,z",
  "    -x,-y,z",
  "    x+1/2,-y,-z",
  "    -x+1/2,y,-z",
  "    -x,-y,-z",
  "    x,y,-z",
  "    -x-1/2,y,z",
  "    x-1/2,-y,z",
  "    x+1/2,y,z+1/2",
  "    -x+1/2,-y,z+1/2",
  "    x+1,-y,-z+1/2",
  "    -x+1,y,-z+1/2",
  "    -x+1/2,-y,-z+1/2",
  "    x+1/2,y,-z+1/2",
  "    -x,y,z+1/2",
  "    x,-y,z+1/2",
  "Bmam -x,z,y",
  "    x,y,z",
  "    -x+1/2,-y,z",
  "    x,-y,-z",
  "    -x+1/2,y,-z",
  "    -x,-y,-z",
  "    x-1/2,y,-z",
  "    -x,y,z",
  "    x-1/2,-y,z",
  "    x+1/2,y,z+1/2",
  "    -x+1,-y,z+1/2",
  "    x+1/2,-y,-z+1/2",
  "    -x+1,y,-z+1/2",
  "    -x+1/2,-y,-z+1/2",
  "    x,y,-z+1/2",
  "    -x+1/2,y,z+1/2",
  "    x,-y,z+1/2",
  "Ccca:2 x,y,z",
  "    x,y,z",
  "    -x+1/2,-y,z",
  "    x+1/2,-y,-z+1/2",
  "    -x,y,-z+1/2",
  "    -x,-y,-z",
  "    x-1/2,y,-z",
  "    -x-1/2,y,z-1/2",
  "    x,-y,z-1/2",
  "    x+1/2,y+1/2,z",
  "    -x+1,-y+1/2,z",
  "    x+1,-y+1/2,-z+1/2",
  "    -x+1/2,y+1/2,-z+1/2",
  "    -x+1/2,-y+1/2,-z",
  "    x,y+1/2,-z",
  "    -x,y+1/2,z-1/2",
  "    x+1/2,-y+1/2,z-1/2",
  "Ccca:1 x+1/2,y+1/4,z-1/4",
  "    x,y,z",
  "    -x,-y,z",
  "    x,-y,-z",
  "    -x,y,-z",
  "    -x+1/2,-y,-z+1/2",
  "    x+1/2,y,-z+1/2",
  "    -x+1/2,y,z+1/2",
  "    x+1/2,-y,z+1/2",
  "    x+1/2,y+1/2,z",
  "    -x+1/2,-y+1/2,z",
  "    x+1/2,-y+1/2,-z",
  "    -x+1/2,y+1/2,-z",
  "    -x+1,-y+1/2,-z+1/2",
  "    x+1,y+1/2,-z+1/2",
  "    -x+1,y+1/2,z+1/2",
  "    x+1,-y+1/2,z+1/2",
  "Cccb:1 x+1/2,y+1/4,z-1/4",
  "    x,y,z",
  "    -x,-y,z",
  "    x,-y,-z",
  "    -x,y,-z",
  "    -x+1/2,-y,-z+1/2",
  "    x+1/2,y,-z+1/2",
  "    -x+1/2,y,z+1/2",
  "    x+1/2,-y,z+1/2",
  "    x+1/2,y+1/2,z",
  "    -x+1/2,-y+1/2,z",
  "    x+1/2,-y+1/2,-z",
  "    -x+1/2,y+1/2,-z",
  "    -x+1,-y+1/2,-z+1/2",
  "    x+1,y+1/2,-z+1/2",
  "    -x+1,y+1/2,z+1/2",
  "    x+1,-y+1/2,z+1/2",
  "Cccb:2 x+1/4,y+1/4,z",
  "    x,y,z",
  "    -x+1/2,-y,z",
  "    x,-y,-z+1/2",
  "    -x+1/2,y,-z+1/2",
  "    -x,-y,-z",
  "    x-1/2,y,-z",
  "    -x,y,z-1/2",
  "    x-1/2,-y,z-1/2",
  "    x+1/2,y+1/2,z",
  "    -x+1,-y+1/2,z",
  "    x+1/2,-y+1/2,-z+1/2",
  "    -x+1,y+1/2,-z+1/2",
  "    -x+1/2,-y+1/2,-z",
  "    x,y+1/2,-z",
  "    -x+1/2,y+1/2,z-1/2",
  "    x,-y+1/2,z-1/2",
  "Abaa:1 y+1/2,z+1/4,x-1/4",
  "    x,y,z",
  "    -x,-y,z",
  "    x,-y,-z",
  "    -x,y,-z",
  "    -x+1/2,-y+1/2,-z",
  "    x+1/2,y+1/2,-z",
  "    -x+1/2,y+1/2,z",
  "    x+1/2,-y+1/2,z",
  "    x,y+1/2,z+1/2",
  "    -x,-y+1/2,z+1/2",
  "    x,-y+1/2,-z+1/2",
  "    -x,y+1/2,-z+1/2",
  "    -x+1/2,-y+1,-z+1/2",
  "    x+1/2,y+1,-z+1/2",
  "    -x+1/2,y+1,z+1/2",
  "    x+1/2,-y+1,z+1/2",
  "Abaa:2 y,z,x",
  "    x,y,z",
  "    -x+1/2,-y,z",
  "    x,-y+1/2,-z",
  "    -x+1/2,y+1/2,-z",
  "    -x,-y,-z",
  "    x-1/2,y,-z",
  "    -x,y-1/2,z",
  "    x-1/2,-y-1/2,z",
  "    x,y+1/2,z+1/2",
  "    -x+1/2,-y+1/2,z+1/2",
  "    x,-y+1,-z+1/2",
  "    -x+1/2,y+1,-z+1/2",
  "    -x,-y+1/2,-z+1/2",
  "    x-1/2,y+1/2,-z+1/2",
  "    -x,y,z+1/2",
  "    x-1/2,-y,z+1/2",
  "Acaa:1 y+1/2,z+1/4,x-1/4",
  "    x,y,z",
  "    -x,-y,z",
  "    x,-y,-z",
  "    -x,y,-z",
  "    -x+1/2,-y+1/2,-z",
  "    x+1/2,y+1/2,-z",
  "    -x+1/2,y+1/2,z",
  "    x+1/2,-y+1/2,z",
  "    x,y+1/2,z+1/2",
  "    -x,-y+1/2,z+1/2",
  "    x,-y+1/2,-z+1/2",
  "    -x,y+1/2,-z+1/2",
  "    -x+1/2,-y+1,-z+1/2",
  "    x+1/2,y+1,-z+1/2",
  "    -x+1/2,y+1,z+1/2",
  "    x+1/2,-y+1,z+1/2",
  "Acaa:2 -z,y,x",
  "    x,y,z",
  "    -x+1/2,-y+1/2,z",
  "    x,-y+1/2,-z",
  "    -x+1/2,y,-z",
  "    -x,-y,-z",
  "    x-1/2,y-1/2,-z",
  "    -x,y-1/2,z",
  "    x-1/2,-y,z",
  "    x,y+1/2,z+1/2",
  "    -x+1/2,-y+1,z+1/2",
  "    x,-y+1,-z+1/2",
  "    -x+1/2,y+1/2,-z+1/2",
  "    -x,-y+1/2,-z+1/2",
  "    x-1/2,y,-z+1/2",
  "    -x,y,z+1/2",
  "    x-1/2,-y+1/2,z+1/2",
  "Bbcb:1 z+1/2,x+1/4,y-1/4",
  "    x,y,z",
  "    -x,-y,z",
  "    x,-y,-z",
  "    -x,y,-z",
  "    -x+1/2,-y+1/2,-z",
  "    x+1/2,y+1/2,-z",
  "    -x+1/2,y+1/2,z",
  "    x+1/2,-y+1/2,z",
  "    x+1/2,y,z+1/2",
  "    -x+1/2,-y,z+1/2",
  "    x+1/2,-y,-z+1/2",
  "    -x+1/2,y,-z+1/2",
  "    -x+1,-y+1/2,-z+1/2",
  "    x+1,y+1/2,-z+1/2",
  "    -x+1,y+1/2,z+1/2",
  "    x+1,-y+1/2,z+1/2",
  "Bbcb:2 z,x,y",
  "    x,y,z",
  "    -x+1/2,-y+1/2,z",
  "    x,-y+1/2,-z",
  "    -x+1/2,y,-z",
  "    -x,-y,-z",
  "    x-1/2,y-1/2,-z",
  "    -x,y-1/2,z",
  "    x-1/2,-y,z",
  "    x+1/2,y,z+1/2",
  "    -x+1,-y+1/2,z+1/2",
  "    x+1/2,-y+1/2,-z+1/2",
  "    -x+1,y,-z+1/2",
  "    -x+1/2,-y,-z+1/2",
  "    x,y-1/2,-z+1/2",
  "    -x+1/2,y-1/2,z+1/2",
  "    x,-y,z+1/2",
  "Bbab:1 z+1/2,x+1/4,y-1/4",
  "    x,y,z",
  "    -x,-y,z",
  "    x,-y,-z",
  "    -x,y,-z",
  "    -x+1/2,-y+1/2,-z",
  "    x+1/2,y+1/2,-z",
  "    -x+1/2,y+1/2,z",
  "    x+1/2,-y+1/2,z",
  "    x+1/2,y,z+1/2",
  "    -x+1/2,-y,z+1/2",
  "    x+1/2,-y,-z+1/2",
  "    -x+1/2,y,-z+1/2",
  "    -x+1,-y+1/2,-z+1/2",
  "    x+1,y+1/2,-z+1/2",
  "    -x+1,y+1/2,z+1/2",
  "    x+1,-y+1/2,z+1/2",
  "Bbab:2 -x,z,y",
  "    x,y,z",
  "    -x,-y+1/2,z",
  "    x+1/2,-y+1/2,-z",
  "    -x+1/2,y,-z",
  "    -x,-y,-z",
  "    x,y-1/2,-z",
  "    -x-1/2,y-1/2,z",
  "    x-1/2,-y,z",
  "    x+1/2,y,z+1/2",
  "    -x+1/2,-y+1/2,z+1/2",
  "    x+1,-y+1/2,-z+1/2",
  "    -x+1,y,-z+1/2",
  "    -x+1/2,-y,-z+1/2",
  "    x+1/2,y-1/2,-z+1/2",
  "    -x,y-1/2,z+1/2",
  "    x,-y,z+1/2",
  "Fmmm x,y,z",
  "    x,y,z",
  "    -x,-y,z",
  "    x,-y,-z",
  "    -x,y,-z",
  "    -x,-y,-z",
  "    x,y,-z",
  "    -x,y,z",
  "    x,-y,z",
  "    x,y+1/2,z+1/2",
  "    -x,-y+1/2,z+1/2",
  "    x,-y+1/2,-z+1/2",
  "    -x,y+1/2,-z+1/2",
  "    -x,-y+1/2,-z+1/2",
  "    x,y+1/2,-z+1/2",
  "    -x,y+1/2,z+1/2",
  "    x,-y+1/2,z+1/2",
  "    x+1/2,y,z+1/2",
  "    -x+1/2,-y,z+1/2",
  "    x+1/2,-y,-z+1/2",
  "    -x+1/2,y,-z+1/2",
  "    -x+1/2,-y,-z+1/2",
  "    x+1/2,y,-z+1/2",
  "    -x+1/2,y,z+1/2",
  "    x+1/2,-y,z+1/2",
  "    x+1/2,y+1/2,z",
  "    -x+1/2,-y+1/2,z",
  "    x+1/2,-y+1/2,-z",
  "    -x+1/2,y+1/2,-z",
  "    -x+1/2,-y+1/2,-z",
  "    x+1/2,y+1/2,-z",
  "    -x+1/2,y+1/2,z",
  "    x+1/2,-y+1/2,z"]

end Systre.Table
