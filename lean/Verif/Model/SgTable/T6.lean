/-! Written by tools/gen_sgtable.py. Lines 2097 to 2531 of src/data/sgtable.data. -/

namespace Systre.Table
set_option maxRecDepth 100000

/-- lines 2097 to 2531 of src/data/sgtable.data -/
def sgLines6 : List String := [
  "Pmmn:2 x,y,z",
  "    x,y,z",
  "    -x+1/2,-y+1/2,z",
  "    x+1/2,-y,-z",
  "    -x,y+1/2,-z",
  "    -x,-y,-z",
  "    x-1/2,y-1/2,-z",
  "    -x-1/2,y,z",
  "    x,-y-1/2,z",
  "Pmmn:1 x+1/4,y+1/4,z",
  "    x,y,z",
  "    -x,-y,z",
  "    x+1/2,-y+1/2,-z",
  "    -x+1/2,y+1/2,-z",
  "    -x+1/2,-y+1/2,-z",
  "    x+1/2,y+1/2,-z",
  "    -x,y,z",
  "    x,-y,z",
  "Pnmm:1 y+1/4,z+1/4,x",
  "    x,y,z",
  "    -x,-y+1/2,z+1/2",
  "    x,-y,-z",
  "    -x,y+1/2,-z+1/2",
  "    -x,-y+1/2,-z+1/2",
  "    x,y,-z",
  "    -x,y+1/2,z+1/2",
  "    x,-y,z",
  "Pnmm:2 y,z,x",
  "    x,y,z",
  "    -x,-y,z+1/2",
  "    x,-y+1/2,-z+1/2",
  "    -x,y+1/2,-z",
  "    -x,-y,-z",
  "    x,y,-z-1/2",
  "    -x,y-1/2,z-1/2",
  "    x,-y-1/2,z",
  "Pmnm:1 z+1/4,x+1/4,y",
  "    x,y,z",
  "    -x+1/2,-y,z+1/2",
  "    x+1/2,-y,-z+1/2",
  "    -x,y,-z",
  "    -x+1/2,-y,-z+1/2",
  "    x,y,-z",
  "    -x,y,z",
  "    x+1/2,-y,z+1/2",
  "Pmnm:2 z,x,y",
  "    x,y,z",
  "    -x,-y,z+1/2",
  "    x+1/2,-y,-z",
  "    -x+1/2,y,-z+1/2",
  "    -x,-y,-z",
  "    x,y,-z-1/2",
  "    -x-1/2,y,z",
  "    x-1/2,-y,z-1/2",
  "Pbcn x,y,z",
  "    x,y,z",
  "    -x+1/2,-y+1/2,z+1/2",
  "    x+1/2,-y+1/2,-z",
  "    -x,y,-z+1/2",
  "    -x,-y,-z",
  "    x-1/2,y-1/2,-z-1/2",
  "    -x-1/2,y-1/2,z",
  "    x,-y,z-1/2",
  "Pcan -y,x,z",
  "    x,y,z",
  "    -x+1/2,-y+1/2,z+1/2",
  "    x,-y,-z+1/2",
  "    -x+1/2,y+1/2,-z",
  "    -x,-y,-z",
  "    x-1/2,y-1/2,-z-1/2",
  "    -x,y,z-1/2",
  "    x-1/2,-y-1/2,z",
  "Pnca y,z,x",
  "    x,y,z",
  "    -x+1/2,-y,z",
  "    x+1/2,-y+1/2,-z+1/2",
  "    -x,y+1/2,-z+1/2",
  "    -x,-y,-z",
  "    x-1/2,y,-z",
  "    -x-1/2,y-1/2,z-1/2",
  "    x,-y-1/2,z-1/2",
  "Pnab -z,y,x",
  "    x,y,z",
  "    -x,-y+1/2,z+1/2",
  "    x+1/2,-y+1/2,-z+1/2",
  "    -x+1/2,y,-z",
  "    -x,-y,-z",
  "    x,y-1/2,-z-1/2",
  "    -x-1/2,y-1/2,z-1/2",
  "    x-1/2,-y,z",
  "Pbna z,x,y",
  "    x,y,z",
  "    -x+1/2,-y,z+1/2",
  "    x,-y+1/2,-z",
  "    -x+1/2,y+1/2,-z+1/2",
  "    -x,-y,-z",
  "    x-1/2,y,-z-1/2",
  "    -x,y-1/2,z",
  "    x-1/2,-y-1/2,z-1/2",
  "Pcnb -x,z,y",
  "    x,y,z",
  "    -x,-y+1/2,z",
  "    x+1/2,-y,-z+1/2",
  "    -x+1/2,y+1/2,-z+1/2",
  "    -x,-y,-z",
  "    x,y-1/2,-z",
  "    -x-1/2,y,z-1/2",
  "    x-1/2,-y-1/2,z-1/2",
  "Pbca x,y,z",
  "    x,y,z",
  "    -x+1/2,-y,z+1/2",
  "    x+1/2,-y+1/2,-z",
  "    -x,y+1/2,-z+1/2",
  "    -x,-y,-z",
  "    x-1/2,y,-z-1/2",
  "    -x-1/2,y-1/2,z",
  "    x,-y-1/2,z-1/2",
  "Pcab -z,y,x",
  "    x,y,z",
  "    -x,-y+1/2,z+1/2",
  "    x+1/2,-y,-z+1/2",
  "    -x+1/2,y+1/2,-z",
  "    -x,-y,-z",
  "    x,y-1/2,-z-1/2",
  "    -x-1/2,y,z-1/2",
  "    x-1/2,-y-1/2,z",
  "Pnma x,y,z",
  "    x,y,z",
  "    -x+1/2,-y,z+1/2",
  "    x+1/2,-y+1/2,-z+1/2",
  "    -x,y+1/2,-z",
  "    -x,-y,-z",
  "    x-1/2,y,-z-1/2",
  "    -x-1/2,y-1/2,z-1/2",
  "    x,-y-1/2,z",
  "Pmnb -y,x,z",
  "    x,y,z",
  "    -x,-y+1/2,z+1/2",
  "    x+1/2,-y,-z",
  "    -x+1/2,y+1/2,-z+1/2",
  "    -x,-y,-z",
  "    x,y-1/2,-z-1/2",
  "    -x-1/2,y,z",
  "    x-1/2,-y-1/2,z-1/2",
  "Pbnm y,z,x",
  "    x,y,z",
  "    -x,-y,z+1/2",
  "    x+1/2,-y+1/2,-z",
  "    -x+1/2,y+1/2,-z+1/2",
  "    -x,-y,-z",
  "    x,y,-z-1/2",
  "    -x-1/2,y-1/2,z",
  "    x-1/2,-y-1/2,z-1/2",
  "Pcmn -z,y,x",
  "    x,y,z",
  "    -x+1/2,-y+1/2,z+1/2",
  "    x+1/2,-y,-z+1/2",
  "    -x,y+1/2,-z",
  "    -x,-y,-z",
  "    x-1/2,y-1/2,-z-1/2",
  "    -x-1/2,y,z-1/2",
  "    x,-y-1/2,z",
  "Pmcn z,x,y",
  "    x,y,z",
  "    -x+1/2,-y+1/2,z+1/2",
  "    x+1/2,-y,-z",
  "    -x,y+1/2,-z+1/2",
  "    -x,-y,-z",
  "    x-1/2,y-1/2,-z-1/2",
  "    -x-1/2,y,z",
  "    x,-y-1/2,z-1/2",
  "Pnam -x,z,y",
  "    x,y,z",
  "    -x,-y,z+1/2",
  "    x+1/2,-y+1/2,-z+1/2",
  "    -x+1/2,y+1/2,-z",
  "    -x,-y,-z",
  "    x,y,-z-1/2",
  "    -x-1/2,y-1/2,z-1/2",
  "    x-1/2,-y-1/2,z",
  "Cmcm x,y,z",
  "    x,y,z",
  "    -x,-y,z+1/2",
  "    x,-y,-z",
  "    -x,y,-z+1/2",
  "    -x,-y,-z",
  "    x,y,-z-1/2",
  "    -x,y,z",
  "    x,-y,z-1/2",
  "    x+1/2,y+1/2,z",
  "    -x+1/2,-y+1/2,z+1/2",
  "    x+1/2,-y+1/2,-z",
  "    -x+1/2,y+1/2,-z+1/2",
  "    -x+1/2,-y+1/2,-z",
  "    x+1/2,y+1/2,-z-1/2",
  "    -x+1/2,y+1/2,z",
  "    x+1/2,-y+1/2,z-1/2",
  "Ccmm -y,x,z",
  "    x,y,z",
  "    -x,-y,z+1/2",
  "    x,-y,-z+1/2",
  "    -x,y,-z",
  "    -x,-y,-z",
  "    x,y,-z-1/2",
  "    -x,y,z-1/2",
  "    x,-y,z",
  "    x+1/2,y+1/2,z",
  "    -x+1/2,-y+1/2,z+1/2",
  "    x+1/2,-y+1/2,-z+1/2",
  "    -x+1/2,y+1/2,-z",
  "    -x+1/2,-y+1/2,-z",
  "    x+1/2,y+1/2,-z-1/2",
  "    -x+1/2,y+1/2,z-1/2",
  "    x+1/2,-y+1/2,z",
  "Amma y,z,x",
  "    x,y,z",
  "    -x+1/2,-y,z",
  "    x+1/2,-y,-z",
  "    -x,y,-z",
  "    -x,-y,-z",
  "    x-1/2,y,-z",
  "    -x-1/2,y,z",
  "    x,-y,z",
  "    x,y+1/2,z+1/2",
  "    -x+1/2,-y+1/2,z+1/2",
  "    x+1/2,-y+1/2,-z+1/2",
  "    -x,y+1/2,-z+1/2",
  "    -x,-y+1/2,-z+1/2",
  "    x-1/2,y+1/2,-z+1/2",
  "    -x-1/2,y+1/2,z+1/2",
  "    x,-y+1/2,z+1/2",
  "Amam -z,y,x",
  "    x,y,z",
  "    -x,-y,z",
  "    x+1/2,-y,-z",
  "    -x+1/2,y,-z",
  "    -x,-y,-z",
  "    x,y,-z",
  "    -x-1/2,y,z",
  "    x-1/2,-y,z",
  "    x,y+1/2,z+1/2",
  "    -x,-y+1/2,z+1/2",
  "    x+1/2,-y+1/2,-z+1/2",
  "    -x+1/2,y+1/2,-z+1/2",
  "    -x,-y+1/2,-z+1/2",
  "    x,y+1/2,-z+1/2",
  "    -x-1/2,y+1/2,z+1/2",
  "    x-1/2,-y+1/2,z+1/2",
  "Bbmm z,x,y",
  "    x,y,z",
  "    -x,-y,z",
  "    x,-y+1/2,-z",
  "    -x,y+1/2,-z",
  "    -x,-y,-z",
  "    x,y,-z",
  "    -x,y-1/2,z",
  "    x,-y-1/2,z",
  "    x+1/2,y,z+1/2",
  "    -x+1/2,-y,z+1/2",
  "    x+1/2,-y+1/2,-z+1/2",
  "    -x+1/2,y+1/2,-z+1/2",
  "    -x+1/2,-y,-z+1/2",
  "    x+1/2,y,-z+1/2",
  "    -x+1/2,y-1/2,z+1/2",
  "    x+1/2,-y-1/2,z+1/2",
  "Bmmb -x,z,y",
  "    x,y,z",
  "    -x,-y+1/2,z",
  "    x,-y,-z",
  "    -x,y+1/2,-z",
  "    -x,-y,-z",
  "    x,y-1/2,-z",
  "    -x,y,z",
  "    x,-y-1/2,z",
  "    x+1/2,y,z+1/2",
  "    -x+1/2,-y+1/2,z+1/2",
  "    x+1/2,-y,-z+1/2",
  "    -x+1/2,y+1/2,-z+1/2",
  "    -x+1/2,-y,-z+1/2",
  "    x+1/2,y-1/2,-z+1/2",
  "    -x+1/2,y,z+1/2",
  "    x+1/2,-y-1/2,z+1/2",
  "Cmca x,y,z",
  "    x,y,z",
  "    -x+1/2,-y,z+1/2",
  "    x,-y,-z",
  "    -x+1/2,y,-z+1/2",
  "    -x,-y,-z",
  "    x-1/2,y,-z-1/2",
  "    -x,y,z",
  "    x-1/2,-y,z-1/2",
  "    x+1/2,y+1/2,z",
  "    -x+1,-y+1/2,z+1/2",
  "    x+1/2,-y+1/2,-z",
  "    -x+1,y+1/2,-z+1/2",
  "    -x+1/2,-y+1/2,-z",
  "    x,y+1/2,-z-1/2",
  "    -x+1/2,y+1/2,z",
  "    x,-y+1/2,z-1/2",
  "Ccmb -y,x,z",
  "    x,y,z",
  "    -x+1/2,-y,z+1/2",
  "    x+1/2,-y,-z+1/2",
  "    -x,y,-z",
  "    -x,-y,-z",
  "    x-1/2,y,-z-1/2",
  "    -x-1/2,y,z-1/2",
  "    x,-y,z",
  "    x+1/2,y+1/2,z",
  "    -x+1,-y+1/2,z+1/2",
  "    x+1,-y+1/2,-z+1/2",
  "    -x+1/2,y+1/2,-z",
  "    -x+1/2,-y+1/2,-z",
  "    x,y+1/2,-z-1/2",
  "    -x,y+1/2,z-1/2",
  "    x+1/2,-y+1/2,z",
  "Abma y,z,x",
  "    x,y,z",
  "    -x+1/2,-y+1/2,z",
  "    x+1/2,-y+1/2,-z",
  "    -x,y,-z",
  "    -x,-y,-z",
  "    x-1/2,y-1/2,-z",
  "    -x-1/2,y-1/2,z",
  "    x,-y,z",
  "    x,y+1/2,z+1/2",
  "    -x+1/2,-y+1,z+1/2",
  "    x+1/2,-y+1,-z+1/2",
  "    -x,y+1/2,-z+1/2",
  "    -x,-y+1/2,-z+1/2",
  "    x-1/2,y,-z+1/2",
  "    -x-1/2,y,z+1/2",
  "    x,-y+1/2,z+1/2",
  "Acam -z,y,x",
  "    x,y,z",
  "    -x,-y,z",
  "    x+1/2,-y+1/2,-z",
  "    -x+1/2,y+1/2,-z",
  "    -x,-y,-z",
  "    x,y,-z",
  "    -x-1/2,y-1/2,z",
  "    x-1/2,-y-1/2,z",
  "    x,y+1/2,z+1/2",
  "    -x,-y+1/2,z+1/2",
  "    x+1/2,-y+1,-z+1/2",
  "    -x+1/2,y+1,-z+1/2",
  "    -x,-y+1/2,-z+1/2",
  "    x,y+1/2,-z+1/2",
  "    -x-1/2,y,z+1/2",
  "    x-1/2,-y,z+1/2",
  "Bbcm z,x,y",
  "    x,y,z",
  "    -x,-y,z",
  "    x+1/2,-y+1/2,-z",
  "    -x+1/2,y+1/2,-z",
  "    -x,-y,-z",
  "    x,y,-z",
  "    -x-1/2,y-1/2,z",
  "    x-1/2,-y-1/2,z",
  "    x+1/2,y,z+1/2",
  "    -x+1/2,-y,z+1/2",
  "    x+1,-y+1/2,-z+1/2",
  "    -x+1,y+1/2,-z+1/2",
  "    -x+1/2,-y,-z+1/2",
  "    x+1/2,y,-z+1/2",
  "    -x,y-1/2,z+1/2",
  "    x,-y-1/2,z+1/2",
  "Bmab -x,z,y",
  "    x,y,z",
  "    -x+1/2,-y+1/2,z",
  "    x,-y,-z",
  "    -x+1/2,y+1/2,-z",
  "    -x,-y,-z",
  "    x-1/2,y-1/2,-z",
  "    -x,y,z",
  "    x-1/2,-y-1/2,z",
  "    x+1/2,y,z+1/2",
  "    -x+1,-y+1/2,z+1/2",
  "    x+1/2,-y,-z+1/2",
  "    -x+1,y+1/2,-z+1/2",
  "    -x+1/2,-y,-z+1/2",
  "    x,y-1/2,-z+1/2",
  "    -x+1/2,y,z+1/2",
  "    x,-y-1/2,z+1/2",
  "Cmmm x,y,z",
  "    x,y,z",
  "    -x,-y,z",
  "    x,-y,-z",
  "    -x,y,-z",
  "    -x,-y,-z",
  "    x,y,-z",
  "    -x,y,z",
  "    x,-y,z",
  "    x+1/2,y+1/2,z",
  "    -x+1/2,-y+1/2,z",
  "    x+1/2,-y+1/2,-z",
  "    -x+1/2,y+1/2,-z",
  "    -x+1/2,-y+1/2,-z",
  "    x+1/2,y+1/2,-z",
  "    -x+1/2,y+1/2,z",
  "    x+1/2,-y+1/2,z",
  "Ammm y,z,x",
  "    x,y,z",
  "    -x,-y,z",
  "    x,-y,-z",
  "    -x,y,-z",
  "    -x,-y,-z",
  "    x,y,-z",
  "    -x,y,z",
  "    x,-y,z",
  "    x,y+1/2,z+1/2",
  "    -x,-y+1/2,z+1/2",
  "    x,-y+1/2,-z+1/2",
  "    -x,y+1/2,-z+1/2",
  "    -x,-y+1/2,-z+1/2",
  "    x,y+1/2,-z+1/2",
  "    -x,y+1/2,z+1/2",
  "    x,-y+1/2,z+1/2",
  "Bmmm z,x,y",
  "    x,y,z",
  "    -x,-y,z",
  "    x,-y,-z",
  "    -x,y,-z",
  "    -x,-y,-z",
  "    x,y,-z",
  "    -x,y,z",
  "    x,-y,z",
  "    x+1/2,y,z+1/2",
  "    -x+1/2,-y,z+1/2",
  "    x+1/2,-y,-z+1/2",
  "    -x+1/2,y,-z+1/2",
  "    -x+1/2,-y,-z+1/2",
  "    x+1/2,y,-z+1/2",
  "    -x+1/2,y,z+1/2",
  "    x+1/2,-y,z+1/2"]

end Systre.Table
