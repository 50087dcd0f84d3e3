/-! Written by tools/gen_sgtable.py. Lines 1266 to 1691 of src/data/sgtable.data. -/

namespace Systre.Table
set_option maxRecDepth 100000

/-- lines 1266 to 1691 of src/data/sgtable.data -/
def sgLines4 : List String := [
  "Abm2 x,y,z",
  "    x,y,z",
  "    -x,-y,z",
  "    -x,y+1/2,z",
  "    x,-y+1/2,z",
  "    x,y+1/2,z+1/2",
  "    -x,-y+1/2,z+1/2",
  "    -x,y+1,z+1/2",
  "    x,-y+1,z+1/2",
  "Bma2 -y,x,z",
  "    x,y,z",
  "    -x,-y,z",
  "    -x+1/2,y,z",
  "    x+1/2,-y,z",
  "    x+1/2,y,z+1/2",
  "    -x+1/2,-y,z+1/2",
  "    -x+1,y,z+1/2",
  "    x+1,-y,z+1/2",
  "B2cm y,z,x",
  "    x,y,z",
  "    x+1/2,y,-z",
  "    x,-y,-z",
  "    x+1/2,-y,z",
  "    x+1/2,y,z+1/2",
  "    x+1,y,-z+1/2",
  "    x+1/2,-y,-z+1/2",
  "    x+1,-y,z+1/2",
  "C2mb -z,y,x",
  "    x,y,z",
  "    x+1/2,y,-z",
  "    x,-y,-z",
  "    x+1/2,-y,z",
  "    x+1/2,y+1/2,z",
  "    x+1,y+1/2,-z",
  "    x+1/2,-y+1/2,-z",
  "    x+1,-y+1/2,z",
  "Cm2a z,x,y",
  "    x,y,z",
  "    x+1/2,y,-z",
  "    -x+1/2,y,z",
  "    -x,y,-z",
  "    x+1/2,y+1/2,z",
  "    x+1,y+1/2,-z",
  "    -x+1,y+1/2,z",
  "    -x+1/2,y+1/2,-z",
  "Ac2m -x,z,y",
  "    x,y,z",
  "    x,y+1/2,-z",
  "    -x,y+1/2,z",
  "    -x,y,-z",
  "    x,y+1/2,z+1/2",
  "    x,y+1,-z+1/2",
  "    -x,y+1,z+1/2",
  "    -x,y+1/2,-z+1/2",
  "Ama2 x,y,z",
  "    x,y,z",
  "    -x,-y,z",
  "    -x+1/2,y,z",
  "    x+1/2,-y,z",
  "    x,y+1/2,z+1/2",
  "    -x,-y+1/2,z+1/2",
  "    -x+1/2,y+1/2,z+1/2",
  "    x+1/2,-y+1/2,z+1/2",
  "Bbm2 -y,x,z",
  "    x,y,z",
  "    -x,-y,z",
  "    -x,y+1/2,z",
  "    x,-y+1/2,z",
  "    x+1/2,y,z+1/2",
  "    -x+1/2,-y,z+1/2",
  "    -x+1/2,y+1/2,z+1/2",
  "    x+1/2,-y+1/2,z+1/2",
  "B2mb y,z,x",
  "    x,y,z",
  "    x,y+1/2,-z",
  "    x,-y,-z",
  "    x,-y+1/2,z",
  "    x+1/2,y,z+1/2",
  "    x+1/2,y+1/2,-z+1/2",
  "    x+1/2,-y,-z+1/2",
  "    x+1/2,-y+1/2,z+1/2",
  "C2cm -z,y,x",
  "    x,y,z",
  "    x,y,-z+1/2",
  "    x,-y,-z",
  "    x,-y,z+1/2",
  "    x+1/2,y+1/2,z",
  "    x+1/2,y+1/2,-z+1/2",
  "    x+1/2,-y+1/2,-z",
  "    x+1/2,-y+1/2,z+1/2",
  "Cc2m z,x,y",
  "    x,y,z",
  "    x,y,-z+1/2",
  "    -x,y,z+1/2",
  "    -x,y,-z",
  "    x+1/2,y+1/2,z",
  "    x+1/2,y+1/2,-z+1/2",
  "    -x+1/2,y+1/2,z+1/2",
  "    -x+1/2,y+1/2,-z",
  "Am2a -x,z,y",
  "    x,y,z",
  "    x+1/2,y,-z",
  "    -x+1/2,y,z",
  "    -x,y,-z",
  "    x,y+1/2,z+1/2",
  "    x+1/2,y+1/2,-z+1/2",
  "    -x+1/2,y+1/2,z+1/2",
  "    -x,y+1/2,-z+1/2",
  "Aba2 x,y,z",
  "    x,y,z",
  "    -x,-y,z",
  "    -x+1/2,y+1/2,z",
  "    x+1/2,-y+1/2,z",
  "    x,y+1/2,z+1/2",
  "    -x,-y+1/2,z+1/2",
  "    -x+1/2,y+1,z+1/2",
  "    x+1/2,-y+1,z+1/2",
  "Bba2 -y,x,z",
  "    x,y,z",
  "    -x,-y,z",
  "    -x+1/2,y+1/2,z",
  "    x+1/2,-y+1/2,z",
  "    x+1/2,y,z+1/2",
  "    -x+1/2,-y,z+1/2",
  "    -x+1,y+1/2,z+1/2",
  "    x+1,-y+1/2,z+1/2",
  "B2cb y,z,x",
  "    x,y,z",
  "    x+1/2,y+1/2,-z",
  "    x,-y,-z",
  "    x+1/2,-y+1/2,z",
  "    x+1/2,y,z+1/2",
  "    x+1,y+1/2,-z+1/2",
  "    x+1/2,-y,-z+1/2",
  "    x+1,-y+1/2,z+1/2",
  "C2cb -z,y,x",
  "    x,y,z",
  "    x+1/2,y,-z+1/2",
  "    x,-y,-z",
  "    x+1/2,-y,z+1/2",
  "    x+1/2,y+1/2,z",
  "    x+1,y+1/2,-z+1/2",
  "    x+1/2,-y+1/2,-z",
  "    x+1,-y+1/2,z+1/2",
  "Cc2a z,x,y",
  "    x,y,z",
  "    x+1/2,y,-z+1/2",
  "    -x+1/2,y,z+1/2",
  "    -x,y,-z",
  "    x+1/2,y+1/2,z",
  "    x+1,y+1/2,-z+1/2",
  "    -x+1,y+1/2,z+1/2",
  "    -x+1/2,y+1/2,-z",
  "Ac2a -x,z,y",
  "    x,y,z",
  "    x+1/2,y+1/2,-z",
  "    -x+1/2,y+1/2,z",
  "    -x,y,-z",
  "    x,y+1/2,z+1/2",
  "    x+1/2,y+1,-z+1/2",
  "    -x+1/2,y+1,z+1/2",
  "    -x,y+1/2,-z+1/2",
  "Fmm2 x,y,z",
  "    x,y,z",
  "    -x,-y,z",
  "    -x,y,z",
  "    x,-y,z",
  "    x,y+1/2,z+1/2",
  "    -x,-y+1/2,z+1/2",
  "    -x,y+1/2,z+1/2",
  "    x,-y+1/2,z+1/2",
  "    x+1/2,y,z+1/2",
  "    -x+1/2,-y,z+1/2",
  "    -x+1/2,y,z+1/2",
  "    x+1/2,-y,z+1/2",
  "    x+1/2,y+1/2,z",
  "    -x+1/2,-y+1/2,z",
  "    -x+1/2,y+1/2,z",
  "    x+1/2,-y+1/2,z",
  "F2mm y,z,x",
  "    x,y,z",
  "    x,y,-z",
  "    x,-y,-z",
  "    x,-y,z",
  "    x,y+1/2,z+1/2",
  "    x,y+1/2,-z+1/2",
  "    x,-y+1/2,-z+1/2",
  "    x,-y+1/2,z+1/2",
  "    x+1/2,y,z+1/2",
  "    x+1/2,y,-z+1/2",
  "    x+1/2,-y,-z+1/2",
  "    x+1/2,-y,z+1/2",
  "    x+1/2,y+1/2,z",
  "    x+1/2,y+1/2,-z",
  "    x+1/2,-y+1/2,-z",
  "    x+1/2,-y+1/2,z",
  "Fm2m z,x,y",
  "    x,y,z",
  "    x,y,-z",
  "    -x,y,z",
  "    -x,y,-z",
  "    x,y+1/2,z+1/2",
  "    x,y+1/2,-z+1/2",
  "    -x,y+1/2,z+1/2",
  "    -x,y+1/2,-z+1/2",
  "    x+1/2,y,z+1/2",
  "    x+1/2,y,-z+1/2",
  "    -x+1/2,y,z+1/2",
  "    -x+1/2,y,-z+1/2",
  "    x+1/2,y+1/2,z",
  "    x+1/2,y+1/2,-z",
  "    -x+1/2,y+1/2,z",
  "    -x+1/2,y+1/2,-z",
  "Fdd2 x,y,z",
  "    x,y,z",
  "    -x,-y,z",
  "    -x+1/4,y+1/4,z+1/4",
  "    x+3/4,-y+3/4,z+1/4",
  "    x,y+1/2,z+1/2",
  "    -x,-y+1/2,z+1/2",
  "    -x+1/4,y+3/4,z+3/4",
  "    x+3/4,-y+5/4,z+3/4",
  "    x+1/2,y,z+1/2",
  "    -x+1/2,-y,z+1/2",
  "    -x+3/4,y+1/4,z+3/4",
  "    x+5/4,-y+3/4,z+3/4",
  "    x+1/2,y+1/2,z",
  "    -x+1/2,-y+1/2,z",
  "    -x+3/4,y+3/4,z+1/4",
  "    x+5/4,-y+5/4,z+1/4",
  "F2dd y,z,x",
  "    x,y,z",
  "    x+1/4,y+1/4,-z+1/4",
  "    x,-y,-z",
  "    x+1/4,-y+1/4,z+1/4",
  "    x,y+1/2,z+1/2",
  "    x+1/4,y+3/4,-z+3/4",
  "    x,-y+1/2,-z+1/2",
  "    x+1/4,-y+3/4,z+3/4",
  "    x+1/2,y,z+1/2",
  "    x+3/4,y+1/4,-z+3/4",
  "    x+1/2,-y,-z+1/2",
  "    x+3/4,-y+1/4,z+3/4",
  "    x+1/2,y+1/2,z",
  "    x+3/4,y+3/4,-z+1/4",
  "    x+1/2,-y+1/2,-z",
  "    x+3/4,-y+3/4,z+1/4",
  "Fd2d z,x,y",
  "    x,y,z",
  "    x+1/4,y+1/4,-z+1/4",
  "    -x+1/4,y+1/4,z+1/4",
  "    -x+1/2,y+1/2,-z",
  "    x,y+1/2,z+1/2",
  "    x+1/4,y+3/4,-z+3/4",
  "    -x+1/4,y+3/4,z+3/4",
  "    -x+1/2,y+1,-z+1/2",
  "    x+1/2,y,z+1/2",
  "    x+3/4,y+1/4,-z+3/4",
  "    -x+3/4,y+1/4,z+3/4",
  "    -x+1,y+1/2,-z+1/2",
  "    x+1/2,y+1/2,z",
  "    x+3/4,y+3/4,-z+1/4",
  "    -x+3/4,y+3/4,z+1/4",
  "    -x+1,y+1,-z",
  "Imm2 x,y,z",
  "    x,y,z",
  "    -x,-y,z",
  "    -x,y,z",
  "    x,-y,z",
  "    x+1/2,y+1/2,z+1/2",
  "    -x+1/2,-y+1/2,z+1/2",
  "    -x+1/2,y+1/2,z+1/2",
  "    x+1/2,-y+1/2,z+1/2",
  "I2mm y,z,x",
  "    x,y,z",
  "    x,y,-z",
  "    x,-y,-z",
  "    x,-y,z",
  "    x+1/2,y+1/2,z+1/2",
  "    x+1/2,y+1/2,-z+1/2",
  "    x+1/2,-y+1/2,-z+1/2",
  "    x+1/2,-y+1/2,z+1/2",
  "Im2m z,x,y",
  "    x,y,z",
  "    x,y,-z",
  "    -x,y,z",
  "    -x,y,-z",
  "    x+1/2,y+1/2,z+1/2",
  "    x+1/2,y+1/2,-z+1/2",
  "    -x+1/2,y+1/2,z+1/2",
  "    -x+1/2,y+1/2,-z+1/2",
  "Iba2 x,y,z",
  "    x,y,z",
  "    -x,-y,z",
  "    -x,y,z+1/2",
  "    x,-y,z+1/2",
  "    x+1/2,y+1/2,z+1/2",
  "    -x+1/2,-y+1/2,z+1/2",
  "    -x+1/2,y+1/2,z+1",
  "    x+1/2,-y+1/2,z+1",
  "I2cb y,z,x",
  "    x,y,z",
  "    x+1/2,y,-z",
  "    x,-y,-z",
  "    x+1/2,-y,z",
  "    x+1/2,y+1/2,z+1/2",
  "    x+1,y+1/2,-z+1/2",
  "    x+1/2,-y+1/2,-z+1/2",
  "    x+1,-y+1/2,z+1/2",
  "Ic2a z,x,y",
  "    x,y,z",
  "    x,y+1/2,-z",
  "    -x,y+1/2,z",
  "    -x,y,-z",
  "    x+1/2,y+1/2,z+1/2",
  "    x+1/2,y+1,-z+1/2",
  "    -x+1/2,y+1,z+1/2",
  "    -x+1/2,y+1/2,-z+1/2",
  "Ima2 x,y,z",
  "    x,y,z",
  "    -x,-y,z",
  "    -x+1/2,y,z",
  "    x+1/2,-y,z",
  "    x+1/2,y+1/2,z+1/2",
  "    -x+1/2,-y+1/2,z+1/2",
  "    -x+1,y+1/2,z+1/2",
  "    x+1,-y+1/2,z+1/2",
  "Ibm2 -y,x,z",
  "    x,y,z",
  "    -x,-y,z",
  "    -x,y+1/2,z",
  "    x,-y+1/2,z",
  "    x+1/2,y+1/2,z+1/2",
  "    -x+1/2,-y+1/2,z+1/2",
  "    -x+1/2,y+1,z+1/2",
  "    x+1/2,-y+1,z+1/2",
  "I2mb y,z,x",
  "    x,y,z",
  "    x,y+1/2,-z",
  "    x,-y,-z",
  "    x,-y+1/2,z",
  "    x+1/2,y+1/2,z+1/2",
  "    x+1/2,y+1,-z+1/2",
  "    x+1/2,-y+1/2,-z+1/2",
  "    x+1/2,-y+1,z+1/2",
  "I2cm -z,y,x",
  "    x,y,z",
  "    x,y,-z+1/2",
  "    x,-y,-z",
  "    x,-y,z+1/2",
  "    x+1/2,y+1/2,z+1/2",
  "    x+1/2,y+1/2,-z+1",
  "    x+1/2,-y+1/2,-z+1/2",
  "    x+1/2,-y+1/2,z+1",
  "Ic2m z,x,y",
  "    x,y,z",
  "    x,y,-z+1/2",
  "    -x,y,z+1/2",
  "    -x,y,-z",
  "    x+1/2,y+1/2,z+1/2",
  "    x+1/2,y+1/2,-z+1",
  "    -x+1/2,y+1/2,z+1",
  "    -x+1/2,y+1/2,-z+1/2",
  "Im2a -x,z,y",
  "    x,y,z",
  "    x+1/2,y,-z",
  "    -x+1/2,y,z",
  "    -x,y,-z",
  "    x+1/2,y+1/2,z+1/2",
  "    x+1,y+1/2,-z+1/2",
  "    -x+1,y+1/2,z+1/2",
  "    -x+1/2,y+1/2,-z+1/2",
  "Pmmm x,y,z",
  "    x,y,z",
  "    -x,-y,z",
  "    x,-y,-z",
  "    -x,y,-z",
  "    -x,-y,-z",
  "    x,y,-z",
  "    -x,y,z",
  "    x,-y,z",
  "Pnnn:2 x,y,z",
  "    x,y,z",
  "    -x+1/2,-y+1/2,z",
  "    x,-y+1/2,-z+1/2",
  "    -x+1/2,y,-z+1/2",
  "    -x,-y,-z",
  "    x-1/2,y-1/2,-z",
  "    -x,y-1/2,z-1/2",
  "    x-1/2,-y,z-1/2",
  "Pnnn:1 x+1/4,y+1/4,z+1/4",
  "    x,y,z",
  "    -x,-y,z",
  "    x,-y,-z",
  "    -x,y,-z",
  "    -x+1/2,-y+1/2,-z+1/2",
  "    x+1/2,y+1/2,-z+1/2",
  "    -x+1/2,y+1/2,z+1/2",
  "    x+1/2,-y+1/2,z+1/2",
  "Pccm x,y,z",
  "    x,y,z",
  "    -x,-y,z",
  "    x,-y,-z+1/2",
  "    -x,y,-z+1/2",
  "    -x,-y,-z",
  "    x,y,-z",
  "    -x,y,z-1/2",
  "    x,-y,z-1/2",
  "Pmaa y,z,x",
  "    x,y,z",
  "    -x+1/2,-y,z",
  "    x,-y,-z",
  "    -x+1/2,y,-z",
  "    -x,-y,-z",
  "    x-1/2,y,-z",
  "    -x,y,z",
  "    x-1/2,-y,z",
  "Pbmb z,x,y",
  "    x,y,z",
  "    -x,-y+1/2,z",
  "    x,-y+1/2,-z",
  "    -x,y,-z",
  "    -x,-y,-z",
  "    x,y-1/2,-z",
  "    -x,y-1/2,z",
  "    x,-y,z"]

end Systre.Table
