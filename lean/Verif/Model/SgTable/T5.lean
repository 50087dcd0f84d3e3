/-! Written by tools/gen_sgtable.py. Lines 1692 to 2096 of src/data/sgtable.data. -/

namespace Systre.Table
set_option maxRecDepth 100000

/-- lines 1692 to 2096 of src/data/sgtable.data -/
def sgLines5 : List String := [
  "Pban:2 x,y,z",
  "    x,y,z",
  "    -x+1/2,-y+1/2,z",
  "    x,-y+1/2,-z",
  "    -x+1/2,y,-z",
  "    -x,-y,-z",
  "    x-1/2,y-1/2,-z",
  "    -x,y-1/2,z",
  "    x-1/2,-y,z",
  "Pban:1 x+1/4,y+1/4,z",
  "    x,y,z",
  "    -x,-y,z",
  "    x,-y,-z",
  "    -x,y,-z",
  "    -x+1/2,-y+1/2,-z",
  "    x+1/2,y+1/2,-z",
  "    -x+1/2,y+1/2,z",
  "    x+1/2,-y+1/2,z",
  "Pncb:1 y+1/4,z+1/4,x",
  "    x,y,z",
  "    -x,-y,z",
  "    x,-y,-z",
  "    -x,y,-z",
  "    -x,-y+1/2,-z+1/2",
  "    x,y+1/2,-z+1/2",
  "    -x,y+1/2,z+1/2",
  "    x,-y+1/2,z+1/2",
  "Pncb:2 y,z,x",
  "    x,y,z",
  "    -x,-y+1/2,z",
  "    x,-y+1/2,-z+1/2",
  "    -x,y,-z+1/2",
  "    -x,-y,-z",
  "    x,y-1/2,-z",
  "    -x,y-1/2,z-1/2",
  "    x,-y,z-1/2",
  "Pcna:1 z+1/4,x+1/4,y",
  "    x,y,z",
  "    -x,-y,z",
  "    x,-y,-z",
  "    -x,y,-z",
  "    -x+1/2,-y,-z+1/2",
  "    x+1/2,y,-z+1/2",
  "    -x+1/2,y,z+1/2",
  "    x+1/2,-y,z+1/2",
  "Pcna:2 z,x,y",
  "    x,y,z",
  "    -x+1/2,-y,z",
  "    x,-y,-z+1/2",
  "    -x+1/2,y,-z+1/2",
  "    -x,-y,-z",
  "    x-1/2,y,-z",
  "    -x,y,z-1/2",
  "    x-1/2,-y,z-1/2",
  "Pmma x,y,z",
  "    x,y,z",
  "    -x+1/2,-y,z",
  "    x+1/2,-y,-z",
  "    -x,y,-z",
  "    -x,-y,-z",
  "    x-1/2,y,-z",
  "    -x-1/2,y,z",
  "    x,-y,z",
  "Pmmb -y,x,z",
  "    x,y,z",
  "    -x,-y+1/2,z",
  "    x,-y,-z",
  "    -x,y+1/2,-z",
  "    -x,-y,-z",
  "    x,y-1/2,-z",
  "    -x,y,z",
  "    x,-y-1/2,z",
  "Pbmm y,z,x",
  "    x,y,z",
  "    -x,-y,z",
  "    x,-y+1/2,-z",
  "    -x,y+1/2,-z",
  "    -x,-y,-z",
  "    x,y,-z",
  "    -x,y-1/2,z",
  "    x,-y-1/2,z",
  "Pcmm -z,y,x",
  "    x,y,z",
  "    -x,-y,z+1/2",
  "    x,-y,-z+1/2",
  "    -x,y,-z",
  "    -x,-y,-z",
  "    x,y,-z-1/2",
  "    -x,y,z-1/2",
  "    x,-y,z",
  "Pmcm z,x,y",
  "    x,y,z",
  "    -x,-y,z+1/2",
  "    x,-y,-z",
  "    -x,y,-z+1/2",
  "    -x,-y,-z",
  "    x,y,-z-1/2",
  "    -x,y,z",
  "    x,-y,z-1/2",
  "Pmam -x,z,y",
  "    x,y,z",
  "    -x,-y,z",
  "    x+1/2,-y,-z",
  "    -x+1/2,y,-z",
  "    -x,-y,-z",
  "    x,y,-z",
  "    -x-1/2,y,z",
  "    x-1/2,-y,z",
  "Pnna x,y,z",
  "    x,y,z",
  "    -x+1/2,-y,z",
  "    x,-y+1/2,-z+1/2",
  "    -x+1/2,y+1/2,-z+1/2",
  "    -x,-y,-z",
  "    x-1/2,y,-z",
  "    -x,y-1/2,z-1/2",
  "    x-1/2,-y-1/2,z-1/2",
  "Pnnb -y,x,z",
  "    x,y,z",
  "    -x,-y+1/2,z",
  "    x+1/2,-y+1/2,-z+1/2",
  "    -x+1/2,y,-z+1/2",
  "    -x,-y,-z",
  "    x,y-1/2,-z",
  "    -x-1/2,y-1/2,z-1/2",
  "    x-1/2,-y,z-1/2",
  "Pbnn y,z,x",
  "    x,y,z",
  "    -x+1/2,-y+1/2,z+1/2",
  "    x,-y+1/2,-z",
  "    -x+1/2,y,-z+1/2",
  "    -x,-y,-z",
  "    x-1/2,y-1/2,-z-1/2",
  "    -x,y-1/2,z",
  "    x-1/2,-y,z-1/2",
  "Pcnn -z,y,x",
  "    x,y,z",
  "    -x+1/2,-y+1/2,z",
  "    x,-y,-z+1/2",
  "    -x+1/2,y+1/2,-z+1/2",
  "    -x,-y,-z",
  "    x-1/2,y-1/2,-z",
  "    -x,y,z-1/2",
  "    x-1/2,-y-1/2,z-1/2",
  "Pncn z,x,y",
  "    x,y,z",
  "    -x+1/2,-y+1/2,z",
  "    x+1/2,-y+1/2,-z+1/2",
  "    -x,y,-z+1/2",
  "    -x,-y,-z",
  "    x-1/2,y-1/2,-z",
  "    -x-1/2,y-1/2,z-1/2",
  "    x,-y,z-1/2",
  "Pnan -x,z,y",
  "    x,y,z",
  "    -x+1/2,-y+1/2,z+1/2",
  "    x,-y+1/2,-z+1/2",
  "    -x+1/2,y,-z",
  "    -x,-y,-z",
  "    x-1/2,y-1/2,-z-1/2",
  "    -x,y-1/2,z-1/2",
  "    x-1/2,-y,z",
  "Pmna x,y,z",
  "    x,y,z",
  "    -x+1/2,-y,z+1/2",
  "    x,-y,-z",
  "    -x+1/2,y,-z+1/2",
  "    -x,-y,-z",
  "    x-1/2,y,-z-1/2",
  "    -x,y,z",
  "    x-1/2,-y,z-1/2",
  "Pnmb -y,x,z",
  "    x,y,z",
  "    -x,-y+1/2,z+1/2",
  "    x,-y+1/2,-z+1/2",
  "    -x,y,-z",
  "    -x,-y,-z",
  "    x,y-1/2,-z-1/2",
  "    -x,y-1/2,z-1/2",
  "    x,-y,z",
  "Pbmn y,z,x",
  "    x,y,z",
  "    -x+1/2,-y+1/2,z",
  "    x+1/2,-y+1/2,-z",
  "    -x,y,-z",
  "    -x,-y,-z",
  "    x-1/2,y-1/2,-z",
  "    -x-1/2,y-1/2,z",
  "    x,-y,z",
  "Pcnm -z,y,x",
  "    x,y,z",
  "    -x,-y,z",
  "    x+1/2,-y,-z+1/2",
  "    -x+1/2,y,-z+1/2",
  "    -x,-y,-z",
  "    x,y,-z",
  "    -x-1/2,y,z-1/2",
  "    x-1/2,-y,z-1/2",
  "Pncm z,x,y",
  "    x,y,z",
  "    -x,-y,z",
  "    x,-y+1/2,-z+1/2",
  "    -x,y+1/2,-z+1/2",
  "    -x,-y,-z",
  "    x,y,-z",
  "    -x,y-1/2,z-1/2",
  "    x,-y-1/2,z-1/2",
  "Pman -x,z,y",
  "    x,y,z",
  "    -x+1/2,-y+1/2,z",
  "    x,-y,-z",
  "    -x+1/2,y+1/2,-z",
  "    -x,-y,-z",
  "    x-1/2,y-1/2,-z",
  "    -x,y,z",
  "    x-1/2,-y-1/2,z",
  "Pcca x,y,z",
  "    x,y,z",
  "    -x+1/2,-y,z",
  "    x+1/2,-y,-z+1/2",
  "    -x,y,-z+1/2",
  "    -x,-y,-z",
  "    x-1/2,y,-z",
  "    -x-1/2,y,z-1/2",
  "    x,-y,z-1/2",
  "Pccb -y,x,z",
  "    x,y,z",
  "    -x,-y+1/2,z",
  "    x,-y,-z+1/2",
  "    -x,y+1/2,-z+1/2",
  "    -x,-y,-z",
  "    x,y-1/2,-z",
  "    -x,y,z-1/2",
  "    x,-y-1/2,z-1/2",
  "Pbaa y,z,x",
  "    x,y,z",
  "    -x+1/2,-y,z",
  "    x,-y+1/2,-z",
  "    -x+1/2,y+1/2,-z",
  "    -x,-y,-z",
  "    x-1/2,y,-z",
  "    -x,y-1/2,z",
  "    x-1/2,-y-1/2,z",
  "Pcaa -z,y,x",
  "    x,y,z",
  "    -x+1/2,-y,z+1/2",
  "    x,-y,-z+1/2",
  "    -x+1/2,y,-z",
  "    -x,-y,-z",
  "    x-1/2,y,-z-1/2",
  "    -x,y,z-1/2",
  "    x-1/2,-y,z",
  "Pbcb z,x,y",
  "    x,y,z",
  "    -x,-y+1/2,z+1/2",
  "    x,-y+1/2,-z",
  "    -x,y,-z+1/2",
  "    -x,-y,-z",
  "    x,y-1/2,-z-1/2",
  "    -x,y-1/2,z",
  "    x,-y,z-1/2",
  "Pbab -x,z,y",
  "    x,y,z",
  "    -x,-y+1/2,z",
  "    x+1/2,-y+1/2,-z",
  "    -x+1/2,y,-z",
  "    -x,-y,-z",
  "    x,y-1/2,-z",
  "    -x-1/2,y-1/2,z",
  "    x-1/2,-y,z",
  "Pbam x,y,z",
  "    x,y,z",
  "    -x,-y,z",
  "    x+1/2,-y+1/2,-z",
  "    -x+1/2,y+1/2,-z",
  "    -x,-y,-z",
  "    x,y,-z",
  "    -x-1/2,y-1/2,z",
  "    x-1/2,-y-1/2,z",
  "Pmcb y,z,x",
  "    x,y,z",
  "    -x,-y+1/2,z+1/2",
  "    x,-y,-z",
  "    -x,y+1/2,-z+1/2",
  "    -x,-y,-z",
  "    x,y-1/2,-z-1/2",
  "    -x,y,z",
  "    x,-y-1/2,z-1/2",
  "Pcma z,x,y",
  "    x,y,z",
  "    -x+1/2,-y,z+1/2",
  "    x+1/2,-y,-z+1/2",
  "    -x,y,-z",
  "    -x,-y,-z",
  "    x-1/2,y,-z-1/2",
  "    -x-1/2,y,z-1/2",
  "    x,-y,z",
  "Pccn x,y,z",
  "    x,y,z",
  "    -x+1/2,-y+1/2,z",
  "    x+1/2,-y,-z+1/2",
  "    -x,y+1/2,-z+1/2",
  "    -x,-y,-z",
  "    x-1/2,y-1/2,-z",
  "    -x-1/2,y,z-1/2",
  "    x,-y-1/2,z-1/2",
  "Pnaa y,z,x",
  "    x,y,z",
  "    -x+1/2,-y,z+1/2",
  "    x,-y+1/2,-z+1/2",
  "    -x+1/2,y+1/2,-z",
  "    -x,-y,-z",
  "    x-1/2,y,-z-1/2",
  "    -x,y-1/2,z-1/2",
  "    x-1/2,-y-1/2,z",
  "Pbnb z,x,y",
  "    x,y,z",
  "    -x,-y+1/2,z+1/2",
  "    x+1/2,-y+1/2,-z",
  "    -x+1/2,y,-z+1/2",
  "    -x,-y,-z",
  "    x,y-1/2,-z-1/2",
  "    -x-1/2,y-1/2,z",
  "    x-1/2,-y,z-1/2",
  "Pbcm x,y,z",
  "    x,y,z",
  "    -x,-y,z+1/2",
  "    x,-y+1/2,-z",
  "    -x,y+1/2,-z+1/2",
  "    -x,-y,-z",
  "    x,y,-z-1/2",
  "    -x,y-1/2,z",
  "    x,-y-1/2,z-1/2",
  "Pcam -y,x,z",
  "    x,y,z",
  "    -x,-y,z+1/2",
  "    x+1/2,-y,-z+1/2",
  "    -x+1/2,y,-z",
  "    -x,-y,-z",
  "    x,y,-z-1/2",
  "    -x-1/2,y,z-1/2",
  "    x-1/2,-y,z",
  "Pmca y,z,x",
  "    x,y,z",
  "    -x+1/2,-y,z+1/2",
  "    x+1/2,-y,-z",
  "    -x,y,-z+1/2",
  "    -x,-y,-z",
  "    x-1/2,y,-z-1/2",
  "    -x-1/2,y,z",
  "    x,-y,z-1/2",
  "Pmab -z,y,x",
  "    x,y,z",
  "    -x,-y+1/2,z",
  "    x+1/2,-y,-z",
  "    -x+1/2,y+1/2,-z",
  "    -x,-y,-z",
  "    x,y-1/2,-z",
  "    -x-1/2,y,z",
  "    x-1/2,-y-1/2,z",
  "Pbma z,x,y",
  "    x,y,z",
  "    -x+1/2,-y,z",
  "    x+1/2,-y+1/2,-z",
  "    -x,y+1/2,-z",
  "    -x,-y,-z",
  "    x-1/2,y,-z",
  "    -x-1/2,y-1/2,z",
  "    x,-y-1/2,z",
  "Pcmb -x,z,y",
  "    x,y,z",
  "    -x,-y+1/2,z+1/2",
  "    x,-y,-z+1/2",
  "    -x,y+1/2,-z",
  "    -x,-y,-z",
  "    x,y-1/2,-z-1/2",
  "    -x,y,z-1/2",
  "    x,-y-1/2,z",
  "Pnnm x,y,z",
  "    x,y,z",
  "    -x,-y,z",
  "    x+1/2,-y+1/2,-z+1/2",
  "    -x+1/2,y+1/2,-z+1/2",
  "    -x,-y,-z",
  "    x,y,-z",
  "    -x-1/2,y-1/2,z-1/2",
  "    x-1/2,-y-1/2,z-1/2",
  "Pmnn y,z,x",
  "    x,y,z",
  "    -x+1/2,-y+1/2,z+1/2",
  "    x,-y,-z",
  "    -x+1/2,y+1/2,-z+1/2",
  "    -x,-y,-z",
  "    x-1/2,y-1/2,-z-1/2",
  "    -x,y,z",
  "    x-1/2,-y-1/2,z-1/2",
  "Pnmn z,x,y",
  "    x,y,z",
  "    -x+1/2,-y+1/2,z+1/2",
  "    x+1/2,-y+1/2,-z+1/2",
  "    -x,y,-z",
  "    -x,-y,-z",
  "    x-1/2,y-1/2,-z-1/2",
  "    -x-1/2,y-1/2,z-1/2",
  "    x,-y,z"]

end Systre.Table
