/-! Written by tools/gen_sgtable.py. Lines 2922 to 3366 of src/data/sgtable.data. -/

namespace Systre.Table
set_option maxRecDepth 100000

/-- lines 2922 to 3366 of src/data/sgtable.data -/
def sgLines8 : List String := [
  "Fddd:2 x,y,z",
  "    x,y,z",
  "    -x+1/4,-y+1/4,z",
  "    x,-y+1/4,-z+1/4",
  "    -x+1/4,y,-z+1/4",
  "    -x,-y,-z",
  "    x-1/4,y-1/4,-z",
  "    -x,y-1/4,z-1/4",
  "    x-1/4,-y,z-1/4",
  "    x,y+1/2,z+1/2",
  "    -x+1/4,-y+3/4,z+1/2",
  "    x,-y+3/4,-z+3/4",
  "    -x+1/4,y+1/2,-z+3/4",
  "    -x,-y+1/2,-z+1/2",
  "    x-1/4,y+1/4,-z+1/2",
  "    -x,y+1/4,z+1/4",
  "    x-1/4,-y+1/2,z+1/4",
  "    x+1/2,y,z+1/2",
  "    -x+3/4,-y+1/4,z+1/2",
  "    x+1/2,-y+1/4,-z+3/4",
  "    -x+3/4,y,-z+3/4",
  "    -x+1/2,-y,-z+1/2",
  "    x+1/4,y-1/4,-z+1/2",
  "    -x+1/2,y-1/4,z+1/4",
  "    x+1/4,-y,z+1/4",
  "    x+1/2,y+1/2,z",
  "    -x+3/4,-y+3/4,z",
  "    x+1/2,-y+3/4,-z+1/4",
  "    -x+3/4,y+1/2,-z+1/4",
  "    -x+1/2,-y+1/2,-z",
  "    x+1/4,y+1/4,-z",
  "    -x+1/2,y+1/4,z-1/4",
  "    x+1/4,-y+1/2,z-1/4",
  "Fddd:1 x-1/8,y-1/8,z-1/8",
  "    x,y,z",
  "    -x,-y,z",
  "    x,-y,-z",
  "    -x,y,-z",
  "    -x+1/4,-y+1/4,-z+1/4",
  "    x+1/4,y+1/4,-z+1/4",
  "    -x+1/4,y+1/4,z+1/4",
  "    x+1/4,-y+1/4,z+1/4",
  "    x,y+1/2,z+1/2",
  "    -x,-y+1/2,z+1/2",
  "    x,-y+1/2,-z+1/2",
  "    -x,y+1/2,-z+1/2",
  "    -x+1/4,-y+3/4,-z+3/4",
  "    x+1/4,y+3/4,-z+3/4",
  "    -x+1/4,y+3/4,z+3/4",
  "    x+1/4,-y+3/4,z+3/4",
  "    x+1/2,y,z+1/2",
  "    -x+1/2,-y,z+1/2",
  "    x+1/2,-y,-z+1/2",
  "    -x+1/2,y,-z+1/2",
  "    -x+3/4,-y+1/4,-z+3/4",
  "    x+3/4,y+1/4,-z+3/4",
  "    -x+3/4,y+1/4,z+3/4",
  "    x+3/4,-y+1/4,z+3/4",
  "    x+1/2,y+1/2,z",
  "    -x+1/2,-y+1/2,z",
  "    x+1/2,-y+1/2,-z",
  "    -x+1/2,y+1/2,-z",
  "    -x+3/4,-y+3/4,-z+1/4",
  "    x+3/4,y+3/4,-z+1/4",
  "    -x+3/4,y+3/4,z+1/4",
  "    x+3/4,-y+3/4,z+1/4",
  "Immm x,y,z",
  "    x,y,z",
  "    -x,-y,z",
  "    x,-y,-z",
  "    -x,y,-z",
  "    -x,-y,-z",
  "    x,y,-z",
  "    -x,y,z",
  "    x,-y,z",
  "    x+1/2,y+1/2,z+1/2",
  "    -x+1/2,-y+1/2,z+1/2",
  "    x+1/2,-y+1/2,-z+1/2",
  "    -x+1/2,y+1/2,-z+1/2",
  "    -x+1/2,-y+1/2,-z+1/2",
  "    x+1/2,y+1/2,-z+1/2",
  "    -x+1/2,y+1/2,z+1/2",
  "    x+1/2,-y+1/2,z+1/2",
  "Ibam x,y,z",
  "    x,y,z",
  "    -x,-y,z",
  "    x,-y,-z+1/2",
  "    -x,y,-z+1/2",
  "    -x,-y,-z",
  "    x,y,-z",
  "    -x,y,z-1/2",
  "    x,-y,z-1/2",
  "    x+1/2,y+1/2,z+1/2",
  "    -x+1/2,-y+1/2,z+1/2",
  "    x+1/2,-y+1/2,-z+1",
  "    -x+1/2,y+1/2,-z+1",
  "    -x+1/2,-y+1/2,-z+1/2",
  "    x+1/2,y+1/2,-z+1/2",
  "    -x+1/2,y+1/2,z",
  "    x+1/2,-y+1/2,z",
  "Imcb y,z,x",
  "    x,y,z",
  "    -x+1/2,-y,z",
  "    x,-y,-z",
  "    -x+1/2,y,-z",
  "    -x,-y,-z",
  "    x-1/2,y,-z",
  "    -x,y,z",
  "    x-1/2,-y,z",
  "    x+1/2,y+1/2,z+1/2",
  "    -x+1,-y+1/2,z+1/2",
  "    x+1/2,-y+1/2,-z+1/2",
  "    -x+1,y+1/2,-z+1/2",
  "    -x+1/2,-y+1/2,-z+1/2",
  "    x,y+1/2,-z+1/2",
  "    -x+1/2,y+1/2,z+1/2",
  "    x,-y+1/2,z+1/2",
  "Icma z,x,y",
  "    x,y,z",
  "    -x,-y+1/2,z",
  "    x,-y+1/2,-z",
  "    -x,y,-z",
  "    -x,-y,-z",
  "    x,y-1/2,-z",
  "    -x,y-1/2,z",
  "    x,-y,z",
  "    x+1/2,y+1/2,z+1/2",
  "    -x+1/2,-y+1,z+1/2",
  "    x+1/2,-y+1,-z+1/2",
  "    -x+1/2,y+1/2,-z+1/2",
  "    -x+1/2,-y+1/2,-z+1/2",
  "    x+1/2,y,-z+1/2",
  "    -x+1/2,y,z+1/2",
  "    x+1/2,-y+1/2,z+1/2",
  "Ibca x,y,z",
  "    x,y,z",
  "    -x,-y+1/2,z",
  "    x,-y,-z+1/2",
  "    -x,y+1/2,-z+1/2",
  "    -x,-y,-z",
  "    x,y-1/2,-z",
  "    -x,y,z-1/2",
  "    x,-y-1/2,z-1/2",
  "    x+1/2,y+1/2,z+1/2",
  "    -x+1/2,-y+1,z+1/2",
  "    x+1/2,-y+1/2,-z+1",
  "    -x+1/2,y+1,-z+1",
  "    -x+1/2,-y+1/2,-z+1/2",
  "    x+1/2,y,-z+1/2",
  "    -x+1/2,y+1/2,z",
  "    x+1/2,-y,z",
  "Icab x-1/4,y+1/4,z-1/4",
  "    x,y,z",
  "    -x+1/2,-y,z",
  "    x,-y+1/2,-z",
  "    -x+1/2,y+1/2,-z",
  "    -x,-y,-z",
  "    x-1/2,y,-z",
  "    -x,y-1/2,z",
  "    x-1/2,-y-1/2,z",
  "    x+1/2,y+1/2,z+1/2",
  "    -x+1,-y+1/2,z+1/2",
  "    x+1/2,-y+1,-z+1/2",
  "    -x+1,y+1,-z+1/2",
  "    -x+1/2,-y+1/2,-z+1/2",
  "    x,y+1/2,-z+1/2",
  "    -x+1/2,y,z+1/2",
  "    x,-y,z+1/2",
  "Imma x,y,z",
  "    x,y,z",
  "    -x,-y+1/2,z",
  "    x,-y,-z",
  "    -x,y+1/2,-z",
  "    -x,-y,-z",
  "    x,y-1/2,-z",
  "    -x,y,z",
  "    x,-y-1/2,z",
  "    x+1/2,y+1/2,z+1/2",
  "    -x+1/2,-y+1,z+1/2",
  "    x+1/2,-y+1/2,-z+1/2",
  "    -x+1/2,y+1,-z+1/2",
  "    -x+1/2,-y+1/2,-z+1/2",
  "    x+1/2,y,-z+1/2",
  "    -x+1/2,y+1/2,z+1/2",
  "    x+1/2,-y,z+1/2",
  "Immb x-1/4,y+1/4,z-1/4",
  "    x,y,z",
  "    -x+1/2,-y,z",
  "    x+1/2,-y,-z",
  "    -x,y,-z",
  "    -x,-y,-z",
  "    x-1/2,y,-z",
  "    -x-1/2,y,z",
  "    x,-y,z",
  "    x+1/2,y+1/2,z+1/2",
  "    -x+1,-y+1/2,z+1/2",
  "    x+1,-y+1/2,-z+1/2",
  "    -x+1/2,y+1/2,-z+1/2",
  "    -x+1/2,-y+1/2,-z+1/2",
  "    x,y+1/2,-z+1/2",
  "    -x,y+1/2,z+1/2",
  "    x+1/2,-y+1/2,z+1/2",
  "Ibmm y,z,x",
  "    x,y,z",
  "    -x,-y,z+1/2",
  "    x,-y,-z+1/2",
  "    -x,y,-z",
  "    -x,-y,-z",
  "    x,y,-z-1/2",
  "    -x,y,z-1/2",
  "    x,-y,z",
  "    x+1/2,y+1/2,z+1/2",
  "    -x+1/2,-y+1/2,z+1",
  "    x+1/2,-y+1/2,-z+1",
  "    -x+1/2,y+1/2,-z+1/2",
  "    -x+1/2,-y+1/2,-z+1/2",
  "    x+1/2,y+1/2,-z",
  "    -x+1/2,y+1/2,z",
  "    x+1/2,-y+1/2,z+1/2",
  "Icmm -z,y,x",
  "    x,y,z",
  "    -x,-y,z",
  "    x,-y+1/2,-z",
  "    -x,y+1/2,-z",
  "    -x,-y,-z",
  "    x,y,-z",
  "    -x,y-1/2,z",
  "    x,-y-1/2,z",
  "    x+1/2,y+1/2,z+1/2",
  "    -x+1/2,-y+1/2,z+1/2",
  "    x+1/2,-y+1,-z+1/2",
  "    -x+1/2,y+1,-z+1/2",
  "    -x+1/2,-y+1/2,-z+1/2",
  "    x+1/2,y+1/2,-z+1/2",
  "    -x+1/2,y,z+1/2",
  "    x+1/2,-y,z+1/2",
  "Imcm z,x,y",
  "    x,y,z",
  "    -x,-y,z",
  "    x+1/2,-y,-z",
  "    -x+1/2,y,-z",
  "    -x,-y,-z",
  "    x,y,-z",
  "    -x-1/2,y,z",
  "    x-1/2,-y,z",
  "    x+1/2,y+1/2,z+1/2",
  "    -x+1/2,-y+1/2,z+1/2",
  "    x+1,-y+1/2,-z+1/2",
  "    -x+1,y+1/2,-z+1/2",
  "    -x+1/2,-y+1/2,-z+1/2",
  "    x+1/2,y+1/2,-z+1/2",
  "    -x,y+1/2,z+1/2",
  "    x,-y+1/2,z+1/2",
  "Imam -x,z,y",
  "    x,y,z",
  "    -x,-y,z+1/2",
  "    x,-y,-z",
  "    -x,y,-z+1/2",
  "    -x,-y,-z",
  "    x,y,-z-1/2",
  "    -x,y,z",
  "    x,-y,z-1/2",
  "    x+1/2,y+1/2,z+1/2",
  "    -x+1/2,-y+1/2,z+1",
  "    x+1/2,-y+1/2,-z+1/2",
  "    -x+1/2,y+1/2,-z+1",
  "    -x+1/2,-y+1/2,-z+1/2",
  "    x+1/2,y+1/2,-z",
  "    -x+1/2,y+1/2,z+1/2",
  "    x+1/2,-y+1/2,z",
  "P4 x,y,z",
  "    x,y,z",
  "    -y,x,z",
  "    -x,-y,z",
  "    y,-x,z",
  "P41 x,y,z",
  "    x,y,z",
  "    -y,x,z+1/4",
  "    -x,-y,z+1/2",
  "    y,-x,z+3/4",
  "P42 x,y,z",
  "    x,y,z",
  "    -y,x,z+1/2",
  "    -x,-y,z",
  "    y,-x,z+1/2",
  "P43 x,y,z",
  "    x,y,z",
  "    -y,x,z+3/4",
  "    -x,-y,z+1/2",
  "    y,-x,z+1/4",
  "I4 x,y,z",
  "    x,y,z",
  "    -y,x,z",
  "    -x,-y,z",
  "    y,-x,z",
  "    x+1/2,y+1/2,z+1/2",
  "    -y+1/2,x+1/2,z+1/2",
  "    -x+1/2,-y+1/2,z+1/2",
  "    y+1/2,-x+1/2,z+1/2",
  "I41 x,y,z",
  "    x,y,z",
  "    -y,x+1/2,z+1/4",
  "    -x+1/2,-y+1/2,z+1/2",
  "    y+1/2,-x,z+3/4",
  "    x+1/2,y+1/2,z+1/2",
  "    -y+1/2,x+1,z+3/4",
  "    -x+1,-y+1,z+1",
  "    y+1,-x+1/2,z+5/4",
  "P-4 x,y,z",
  "    x,y,z",
  "    y,-x,-z",
  "    -x,-y,z",
  "    -y,x,-z",
  "I-4 x,y,z",
  "    x,y,z",
  "    y,-x,-z",
  "    -x,-y,z",
  "    -y,x,-z",
  "    x+1/2,y+1/2,z+1/2",
  "    y+1/2,-x+1/2,-z+1/2",
  "    -x+1/2,-y+1/2,z+1/2",
  "    -y+1/2,x+1/2,-z+1/2",
  "P4/m x,y,z",
  "    x,y,z",
  "    -y,x,z",
  "    -x,-y,z",
  "    y,-x,z",
  "    -x,-y,-z",
  "    y,-x,-z",
  "    x,y,-z",
  "    -y,x,-z",
  "P42/m x,y,z",
  "    x,y,z",
  "    -y,x,z+1/2",
  "    -x,-y,z",
  "    y,-x,z+1/2",
  "    -x,-y,-z",
  "    y,-x,-z-1/2",
  "    x,y,-z",
  "    -y,x,-z-1/2",
  "P4/n:2 x,y,z",
  "    x,y,z",
  "    -y+1/2,x,z",
  "    -x+1/2,-y+1/2,z",
  "    y,-x+1/2,z",
  "    -x,-y,-z",
  "    y-1/2,-x,-z",
  "    x-1/2,y-1/2,-z",
  "    -y,x-1/2,-z",
  "P4/n:1 x+1/4,y-1/4,z",
  "    x,y,z",
  "    -y+1/2,x+1/2,z",
  "    -x,-y,z",
  "    y+1/2,-x+1/2,z",
  "    -x+1/2,-y+1/2,-z",
  "    y,-x,-z",
  "    x+1/2,y+1/2,-z",
  "    -y,x,-z",
  "P42/n:2 x,y,z",
  "    x,y,z",
  "    -y,x+1/2,z+1/2",
  "    -x+1/2,-y+1/2,z",
  "    y+1/2,-x,z+1/2",
  "    -x,-y,-z",
  "    y,-x-1/2,-z-1/2",
  "    x-1/2,y-1/2,-z",
  "    -y-1/2,x,-z-1/2",
  "P42/n:1 x-1/4,y-1/4,z-1/4",
  "    x,y,z",
  "    -y+1/2,x+1/2,z+1/2",
  "    -x,-y,z",
  "    y+1/2,-x+1/2,z+1/2",
  "    -x+1/2,-y+1/2,-z+1/2",
  "    y,-x,-z",
  "    x+1/2,y+1/2,-z+1/2",
  "    -y,x,-z",
  "I4/m x,y,z",
  "    x,y,z",
  "    -y,x,z",
  "    -x,-y,z",
  "    y,-x,z",
  "    -x,-y,-z",
  "    y,-x,-z",
  "    x,y,-z",
  "    -y,x,-z",
  "    x+1/2,y+1/2,z+1/2",
  "    -y+1/2,x+1/2,z+1/2",
  "    -x+1/2,-y+1/2,z+1/2",
  "    y+1/2,-x+1/2,z+1/2",
  "    -x+1/2,-y+1/2,-z+1/2",
  "    y+1/2,-x+1/2,-z+1/2",
  "    x+1/2,y+1/2,-z+1/2",
  "    -y+1/2,x+1/2,-z+1/2",
  "I41/a:2 x,y,z",
  "    x,y,z",
  "    -y+3/4,x+1/4,z+1/4",
  "    -x+1/2,-y,z+1/2",
  "    y+3/4,-x+3/4,z+3/4",
  "    -x,-y,-z",
  "    y-3/4,-x-1/4,-z-1/4",
  "    x-1/2,y,-z-1/2",
  "    -y-3/4,x-3/4,-z-3/4",
  "    x+1/2,y+1/2,z+1/2",
  "    -y+5/4,x+3/4,z+3/4",
  "    -x+1,-y+1/2,z+1",
  "    y+5/4,-x+5/4,z+5/4",
  "    -x+1/2,-y+1/2,-z+1/2",
  "    y-1/4,-x+1/4,-z+1/4",
  "    x,y+1/2,-z",
  "    -y-1/4,x-1/4,-z-1/4",
  "I41/a:1 x,y-1/4,z-1/8",
  "    x,y,z",
  "    -y,x+1/2,z+1/4",
  "    -x+1/2,-y+1/2,z+1/2",
  "    y+1/2,-x,z+3/4",
  "    -x,-y+1/2,-z+1/4",
  "    y,-x,-z",
  "    x-1/2,y,-z-1/4",
  "    -y-1/2,x+1/2,-z-1/2",
  "    x+1/2,y+1/2,z+1/2",
  "    -y+1/2,x+1,z+3/4",
  "    -x+1,-y+1,z+1",
  "    y+1,-x+1/2,z+5/4",
  "    -x+1/2,-y+1,-z+3/4",
  "    y+1/2,-x+1/2,-z+1/2",
  "    x,y+1/2,-z+1/4",
  "    -y,x+1,-z",
  "P422 x,y,z",
  "    x,y,z",
  "    -y,x,z",
  "    -x,-y,z",
  "    y,-x,z",
  "    x,-y,-z",
  "    y,x,-z",
  "    -x,y,-z",
  "    -y,-x,-z",
  "P4212 x,y,z",
  "    x,y,z",
  "    -y+1/2,x+1/2,z",
  "    -x,-y,z",
  "    y+1/2,-x+1/2,z",
  "    x+1/2,-y+1/2,-z",
  "    y,x,-z",
  "    -x+1/2,y+1/2,-z",
  "    -y,-x,-z"]

end Systre.Table
