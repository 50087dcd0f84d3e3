/-! Written by tools/gen_sgtable.py. Lines 3367 to 3802 of src/data/sgtable.data. -/

namespace Systre.Table
set_option maxRecDepth 100000

/-- lines 3367 to 3802 of src/data/sgtable.data -/
def sgLines9 : List String := [
  "P4122 x,y,z",
  "    x,y,z",
  "    -y,x,z+1/4",
  "    -x,-y,z+1/2",
  "    y,-x,z+3/4",
  "    x,-y,-z+1/2",
  "    y,x,-z+3/4",
  "    -x,y,-z",
  "    -y,-x,-z+1/4",
  "P41212 x,y,z",
  "    x,y,z",
  "    -y+1/2,x+1/2,z+1/4",
  "    -x,-y,z+1/2",
  "    y+1/2,-x+1/2,z+3/4",
  "    x+1/2,-y+1/2,-z+3/4",
  "    y,x,-z",
  "    -x+1/2,y+1/2,-z+1/4",
  "    -y,-x,-z+1/2",
  "P4222 x,y,z",
  "    x,y,z",
  "    -y,x,z+1/2",
  "    -x,-y,z",
  "    y,-x,z+1/2",
  "    x,-y,-z",
  "    y,x,-z+1/2",
  "    -x,y,-z",
  "    -y,-x,-z+1/2",
  "P42212 x,y,z",
  "    x,y,z",
  "    -y+1/2,x+1/2,z+1/2",
  "    -x,-y,z",
  "    y+1/2,-x+1/2,z+1/2",
  "    x+1/2,-y+1/2,-z+1/2",
  "    y,x,-z",
  "    -x+1/2,y+1/2,-z+1/2",
  "    -y,-x,-z",
  "P4322 x,y,z",
  "    x,y,z",
  "    -y,x,z+3/4",
  "    -x,-y,z+1/2",
  "    y,-x,z+1/4",
  "    x,-y,-z+1/2",
  "    y,x,-z+1/4",
  "    -x,y,-z",
  "    -y,-x,-z+3/4",
  "P43212 x,y,z",
  "    x,y,z",
  "    -y+1/2,x+1/2,z+3/4",
  "    -x,-y,z+1/2",
  "    y+1/2,-x+1/2,z+1/4",
  "    x+1/2,-y+1/2,-z+1/4",
  "    y,x,-z",
  "    -x+1/2,y+1/2,-z+3/4",
  "    -y,-x,-z+1/2",
  "I422 x,y,z",
  "    x,y,z",
  "    -y,x,z",
  "    -x,-y,z",
  "    y,-x,z",
  "    x,-y,-z",
  "    y,x,-z",
  "    -x,y,-z",
  "    -y,-x,-z",
  "    x+1/2,y+1/2,z+1/2",
  "    -y+1/2,x+1/2,z+1/2",
  "    -x+1/2,-y+1/2,z+1/2",
  "    y+1/2,-x+1/2,z+1/2",
  "    x+1/2,-y+1/2,-z+1/2",
  "    y+1/2,x+1/2,-z+1/2",
  "    -x+1/2,y+1/2,-z+1/2",
  "    -y+1/2,-x+1/2,-z+1/2",
  "I4122 x,y,z",
  "    x,y,z",
  "    -y,x+1/2,z+1/4",
  "    -x+1/2,-y+1/2,z+1/2",
  "    y+1/2,-x,z+3/4",
  "    x,-y+1/2,-z+1/4",
  "    y+1/2,x+1/2,-z+1/2",
  "    -x+1/2,y,-z+3/4",
  "    -y,-x,-z",
  "    x+1/2,y+1/2,z+1/2",
  "    -y+1/2,x+1,z+3/4",
  "    -x+1,-y+1,z+1",
  "    y+1,-x+1/2,z+5/4",
  "    x+1/2,-y+1,-z+3/4",
  "    y+1,x+1,-z+1",
  "    -x+1,y+1/2,-z+5/4",
  "    -y+1/2,-x+1/2,-z+1/2",
  "P4mm x,y,z",
  "    x,y,z",
  "    -y,x,z",
  "    -x,-y,z",
  "    y,-x,z",
  "    -x,y,z",
  "    -y,-x,z",
  "    x,-y,z",
  "    y,x,z",
  "P4bm x,y,z",
  "    x,y,z",
  "    -y,x,z",
  "    -x,-y,z",
  "    y,-x,z",
  "    -x+1/2,y+1/2,z",
  "    -y+1/2,-x+1/2,z",
  "    x+1/2,-y+1/2,z",
  "    y+1/2,x+1/2,z",
  "P42cm x,y,z",
  "    x,y,z",
  "    -y,x,z+1/2",
  "    -x,-y,z",
  "    y,-x,z+1/2",
  "    -x,y,z+1/2",
  "    -y,-x,z",
  "    x,-y,z+1/2",
  "    y,x,z",
  "P42nm x,y,z",
  "    x,y,z",
  "    -y+1/2,x+1/2,z+1/2",
  "    -x,-y,z",
  "    y+1/2,-x+1/2,z+1/2",
  "    -x+1/2,y+1/2,z+1/2",
  "    -y,-x,z",
  "    x+1/2,-y+1/2,z+1/2",
  "    y,x,z",
  "P4cc x,y,z",
  "    x,y,z",
  "    -y,x,z",
  "    -x,-y,z",
  "    y,-x,z",
  "    -x,y,z+1/2",
  "    -y,-x,z+1/2",
  "    x,-y,z+1/2",
  "    y,x,z+1/2",
  "P4nc x,y,z",
  "    x,y,z",
  "    -y,x,z",
  "    -x,-y,z",
  "    y,-x,z",
  "    -x+1/2,y+1/2,z+1/2",
  "    -y+1/2,-x+1/2,z+1/2",
  "    x+1/2,-y+1/2,z+1/2",
  "    y+1/2,x+1/2,z+1/2",
  "P42mc x,y,z",
  "    x,y,z",
  "    -y,x,z+1/2",
  "    -x,-y,z",
  "    y,-x,z+1/2",
  "    -x,y,z",
  "    -y,-x,z+1/2",
  "    x,-y,z",
  "    y,x,z+1/2",
  "P42bc x,y,z",
  "    x,y,z",
  "    -y,x,z+1/2",
  "    -x,-y,z",
  "    y,-x,z+1/2",
  "    -x+1/2,y+1/2,z",
  "    -y+1/2,-x+1/2,z+1/2",
  "    x+1/2,-y+1/2,z",
  "    y+1/2,x+1/2,z+1/2",
  "I4mm x,y,z",
  "    x,y,z",
  "    -y,x,z",
  "    -x,-y,z",
  "    y,-x,z",
  "    -x,y,z",
  "    -y,-x,z",
  "    x,-y,z",
  "    y,x,z",
  "    x+1/2,y+1/2,z+1/2",
  "    -y+1/2,x+1/2,z+1/2",
  "    -x+1/2,-y+1/2,z+1/2",
  "    y+1/2,-x+1/2,z+1/2",
  "    -x+1/2,y+1/2,z+1/2",
  "    -y+1/2,-x+1/2,z+1/2",
  "    x+1/2,-y+1/2,z+1/2",
  "    y+1/2,x+1/2,z+1/2",
  "I4cm x,y,z",
  "    x,y,z",
  "    -y,x,z",
  "    -x,-y,z",
  "    y,-x,z",
  "    -x,y,z+1/2",
  "    -y,-x,z+1/2",
  "    x,-y,z+1/2",
  "    y,x,z+1/2",
  "    x+1/2,y+1/2,z+1/2",
  "    -y+1/2,x+1/2,z+1/2",
  "    -x+1/2,-y+1/2,z+1/2",
  "    y+1/2,-x+1/2,z+1/2",
  "    -x+1/2,y+1/2,z+1",
  "    -y+1/2,-x+1/2,z+1",
  "    x+1/2,-y+1/2,z+1",
  "    y+1/2,x+1/2,z+1",
  "I41md x,y,z",
  "    x,y,z",
  "    -y,x+1/2,z+1/4",
  "    -x+1/2,-y+1/2,z+1/2",
  "    y+1/2,-x,z+3/4",
  "    -x,y,z",
  "    -y,-x+1/2,z+1/4",
  "    x+1/2,-y+1/2,z+1/2",
  "    y+1/2,x,z+3/4",
  "    x+1/2,y+1/2,z+1/2",
  "    -y+1/2,x+1,z+3/4",
  "    -x+1,-y+1,z+1",
  "    y+1,-x+1/2,z+5/4",
  "    -x+1/2,y+1/2,z+1/2",
  "    -y+1/2,-x+1,z+3/4",
  "    x+1,-y+1,z+1",
  "    y+1,x+1/2,z+5/4",
  "I41cd x,y,z",
  "    x,y,z",
  "    -y,x+1/2,z+1/4",
  "    -x+1/2,-y+1/2,z+1/2",
  "    y+1/2,-x,z+3/4",
  "    -x,y,z+1/2",
  "    -y,-x+1/2,z+3/4",
  "    x+1/2,-y+1/2,z",
  "    y+1/2,x,z+1/4",
  "    x+1/2,y+1/2,z+1/2",
  "    -y+1/2,x+1,z+3/4",
  "    -x+1,-y+1,z+1",
  "    y+1,-x+1/2,z+5/4",
  "    -x+1/2,y+1/2,z+1",
  "    -y+1/2,-x+1,z+5/4",
  "    x+1,-y+1,z+1/2",
  "    y+1,x+1/2,z+3/4",
  "P-42m x,y,z",
  "    x,y,z",
  "    y,-x,-z",
  "    -x,-y,z",
  "    -y,x,-z",
  "    x,-y,-z",
  "    -y,-x,z",
  "    -x,y,-z",
  "    y,x,z",
  "P-42c x,y,z",
  "    x,y,z",
  "    y,-x,-z",
  "    -x,-y,z",
  "    -y,x,-z",
  "    x,-y,-z+1/2",
  "    -y,-x,z+1/2",
  "    -x,y,-z+1/2",
  "    y,x,z+1/2",
  "P-421m x,y,z",
  "    x,y,z",
  "    y,-x,-z",
  "    -x,-y,z",
  "    -y,x,-z",
  "    x+1/2,-y+1/2,-z",
  "    -y+1/2,-x+1/2,z",
  "    -x+1/2,y+1/2,-z",
  "    y+1/2,x+1/2,z",
  "P-421c x,y,z",
  "    x,y,z",
  "    y,-x,-z",
  "    -x,-y,z",
  "    -y,x,-z",
  "    x+1/2,-y+1/2,-z+1/2",
  "    -y+1/2,-x+1/2,z+1/2",
  "    -x+1/2,y+1/2,-z+1/2",
  "    y+1/2,x+1/2,z+1/2",
  "P-4m2 x,y,z",
  "    x,y,z",
  "    y,-x,-z",
  "    -x,-y,z",
  "    -y,x,-z",
  "    -x,y,z",
  "    y,x,-z",
  "    x,-y,z",
  "    -y,-x,-z",
  "P-4c2 x,y,z",
  "    x,y,z",
  "    y,-x,-z",
  "    -x,-y,z",
  "    -y,x,-z",
  "    -x,y,z+1/2",
  "    y,x,-z+1/2",
  "    x,-y,z+1/2",
  "    -y,-x,-z+1/2",
  "P-4b2 x,y,z",
  "    x,y,z",
  "    y,-x,-z",
  "    -x,-y,z",
  "    -y,x,-z",
  "    -x+1/2,y+1/2,z",
  "    y+1/2,x+1/2,-z",
  "    x+1/2,-y+1/2,z",
  "    -y+1/2,-x+1/2,-z",
  "P-4n2 x,y,z",
  "    x,y,z",
  "    y,-x,-z",
  "    -x,-y,z",
  "    -y,x,-z",
  "    -x+1/2,y+1/2,z+1/2",
  "    y+1/2,x+1/2,-z+1/2",
  "    x+1/2,-y+1/2,z+1/2",
  "    -y+1/2,-x+1/2,-z+1/2",
  "I-4m2 x,y,z",
  "    x,y,z",
  "    y,-x,-z",
  "    -x,-y,z",
  "    -y,x,-z",
  "    -x,y,z",
  "    y,x,-z",
  "    x,-y,z",
  "    -y,-x,-z",
  "    x+1/2,y+1/2,z+1/2",
  "    y+1/2,-x+1/2,-z+1/2",
  "    -x+1/2,-y+1/2,z+1/2",
  "    -y+1/2,x+1/2,-z+1/2",
  "    -x+1/2,y+1/2,z+1/2",
  "    y+1/2,x+1/2,-z+1/2",
  "    x+1/2,-y+1/2,z+1/2",
  "    -y+1/2,-x+1/2,-z+1/2",
  "I-4c2 x,y,z",
  "    x,y,z",
  "    y,-x,-z",
  "    -x,-y,z",
  "    -y,x,-z",
  "    -x,y,z+1/2",
  "    y,x,-z+1/2",
  "    x,-y,z+1/2",
  "    -y,-x,-z+1/2",
  "    x+1/2,y+1/2,z+1/2",
  "    y+1/2,-x+1/2,-z+1/2",
  "    -x+1/2,-y+1/2,z+1/2",
  "    -y+1/2,x+1/2,-z+1/2",
  "    -x+1/2,y+1/2,z+1",
  "    y+1/2,x+1/2,-z+1",
  "    x+1/2,-y+1/2,z+1",
  "    -y+1/2,-x+1/2,-z+1",
  "I-42m x,y,z",
  "    x,y,z",
  "    y,-x,-z",
  "    -x,-y,z",
  "    -y,x,-z",
  "    x,-y,-z",
  "    -y,-x,z",
  "    -x,y,-z",
  "    y,x,z",
  "    x+1/2,y+1/2,z+1/2",
  "    y+1/2,-x+1/2,-z+1/2",
  "    -x+1/2,-y+1/2,z+1/2",
  "    -y+1/2,x+1/2,-z+1/2",
  "    x+1/2,-y+1/2,-z+1/2",
  "    -y+1/2,-x+1/2,z+1/2",
  "    -x+1/2,y+1/2,-z+1/2",
  "    y+1/2,x+1/2,z+1/2",
  "I-42d x,y,z",
  "    x,y,z",
  "    y,-x,-z",
  "    -x,-y,z",
  "    -y,x,-z",
  "    x,-y+1/2,-z+1/4",
  "    -y+1/2,-x,z+3/4",
  "    -x,y+1/2,-z+1/4",
  "    y+1/2,x,z+3/4",
  "    x+1/2,y+1/2,z+1/2",
  "    y+1/2,-x+1/2,-z+1/2",
  "    -x+1/2,-y+1/2,z+1/2",
  "    -y+1/2,x+1/2,-z+1/2",
  "    x+1/2,-y+1,-z+3/4",
  "    -y+1,-x+1/2,z+5/4",
  "    -x+1/2,y+1,-z+3/4",
  "    y+1,x+1/2,z+5/4",
  "P4/mmm x,y,z",
  "    x,y,z",
  "    -y,x,z",
  "    -x,-y,z",
  "    y,-x,z",
  "    x,-y,-z",
  "    y,x,-z",
  "    -x,y,-z",
  "    -y,-x,-z",
  "    -x,-y,-z",
  "    y,-x,-z",
  "    x,y,-z",
  "    -y,x,-z",
  "    -x,y,z",
  "    -y,-x,z",
  "    x,-y,z",
  "    y,x,z",
  "P4/mcc x,y,z",
  "    x,y,z",
  "    -y,x,z",
  "    -x,-y,z",
  "    y,-x,z",
  "    x,-y,-z+1/2",
  "    y,x,-z+1/2",
  "    -x,y,-z+1/2",
  "    -y,-x,-z+1/2",
  "    -x,-y,-z",
  "    y,-x,-z",
  "    x,y,-z",
  "    -y,x,-z",
  "    -x,y,z-1/2",
  "    -y,-x,z-1/2",
  "    x,-y,z-1/2",
  "    y,x,z-1/2",
  "P4/nbm:2 x,y,z",
  "    x,y,z",
  "    -y+1/2,x,z",
  "    -x+1/2,-y+1/2,z",
  "    y,-x+1/2,z",
  "    x,-y+1/2,-z",
  "    y,x,-z",
  "    -x+1/2,y,-z",
  "    -y+1/2,-x+1/2,-z",
  "    -x,-y,-z",
  "    y-1/2,-x,-z",
  "    x-1/2,y-1/2,-z",
  "    -y,x-1/2,-z",
  "    -x,y-1/2,z",
  "    -y,-x,z",
  "    x-1/2,-y,z",
  "    y-1/2,x-1/2,z",
  "P4/nbm:1 x+1/4,y+1/4,z",
  "    x,y,z",
  "    -y,x,z",
  "    -x,-y,z",
  "    y,-x,z",
  "    x,-y,-z",
  "    y,x,-z",
  "    -x,y,-z",
  "    -y,-x,-z",
  "    -x+1/2,-y+1/2,-z",
  "    y+1/2,-x+1/2,-z",
  "    x+1/2,y+1/2,-z",
  "    -y+1/2,x+1/2,-z",
  "    -x+1/2,y+1/2,z",
  "    -y+1/2,-x+1/2,z",
  "    x+1/2,-y+1/2,z",
  "    y+1/2,x+1/2,z"]

end Systre.Table
