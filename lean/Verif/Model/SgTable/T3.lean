/-! Written by tools/gen_sgtable.py. Lines 846 to 1265 of src/data/sgtable.data. -/

namespace Systre.Table
set_option maxRecDepth 100000

/-- lines 846 to 1265 of src/data/sgtable.data -/
def sgLines3 : List String := [
  "I222 x,y,z",
  "    x,y,z",
  "    -x,-y,z",
  "    x,-y,-z",
  "    -x,y,-z",
  "    x+1/2,y+1/2,z+1/2",
  "    -x+1/2,-y+1/2,z+1/2",
  "    x+1/2,-y+1/2,-z+1/2",
  "    -x+1/2,y+1/2,-z+1/2",
  "I212121 x,y,z",
  "    x,y,z",
  "    -x,-y+1/2,z",
  "    x,-y,-z+1/2",
  "    -x,y+1/2,-z+1/2",
  "    x+1/2,y+1/2,z+1/2",
  "    -x+1/2,-y+1,z+1/2",
  "    x+1/2,-y+1/2,-z+1",
  "    -x+1/2,y+1,-z+1",
  "Pmm2 x,y,z",
  "    x,y,z",
  "    -x,-y,z",
  "    -x,y,z",
  "    x,-y,z",
  "P2mm y,z,x",
  "    x,y,z",
  "    x,y,-z",
  "    x,-y,-z",
  "    x,-y,z",
  "Pm2m z,x,y",
  "    x,y,z",
  "    x,y,-z",
  "    -x,y,z",
  "    -x,y,-z",
  "Pmc21 x,y,z",
  "    x,y,z",
  "    -x,-y,z+1/2",
  "    -x,y,z",
  "    x,-y,z+1/2",
  "Pcm21 -y,x,z",
  "    x,y,z",
  "    -x,-y,z+1/2",
  "    -x,y,z+1/2",
  "    x,-y,z",
  "P21ma y,z,x",
  "    x,y,z",
  "    x+1/2,y,-z",
  "    x+1/2,-y,-z",
  "    x,-y,z",
  "P21am -z,y,x",
  "    x,y,z",
  "    x,y,-z",
  "    x+1/2,-y,-z",
  "    x+1/2,-y,z",
  "Pb21m z,x,y",
  "    x,y,z",
  "    x,y,-z",
  "    -x,y+1/2,z",
  "    -x,y+1/2,-z",
  "Pm21b -x,z,y",
  "    x,y,z",
  "    x,y+1/2,-z",
  "    -x,y,z",
  "    -x,y+1/2,-z",
  "Pcc2 x,y,z",
  "    x,y,z",
  "    -x,-y,z",
  "    -x,y,z+1/2",
  "    x,-y,z+1/2",
  "P2aa y,z,x",
  "    x,y,z",
  "    x+1/2,y,-z",
  "    x,-y,-z",
  "    x+1/2,-y,z",
  "Pb2b z,x,y",
  "    x,y,z",
  "    x,y+1/2,-z",
  "    -x,y+1/2,z",
  "    -x,y,-z",
  "Pma2 x,y,z",
  "    x,y,z",
  "    -x,-y,z",
  "    -x+1/2,y,z",
  "    x+1/2,-y,z",
  "Pbm2 -y,x,z",
  "    x,y,z",
  "    -x,-y,z",
  "    -x,y+1/2,z",
  "    x,-y+1/2,z",
  "P2mb y,z,x",
  "    x,y,z",
  "    x,y+1/2,-z",
  "    x,-y,-z",
  "    x,-y+1/2,z",
  "P2cm -z,y,x",
  "    x,y,z",
  "    x,y,-z+1/2",
  "    x,-y,-z",
  "    x,-y,z+1/2",
  "Pc2m z,x,y",
  "    x,y,z",
  "    x,y,-z+1/2",
  "    -x,y,z+1/2",
  "    -x,y,-z",
  "Pm2a -x,z,y",
  "    x,y,z",
  "    x+1/2,y,-z",
  "    -x+1/2,y,z",
  "    -x,y,-z",
  "Pca21 x,y,z",
  "    x,y,z",
  "    -x,-y,z+1/2",
  "    -x+1/2,y,z+1/2",
  "    x+1/2,-y,z",
  "Pbc21 -y,x,z",
  "    x,y,z",
  "    -x,-y,z+1/2",
  "    -x,y+1/2,z",
  "    x,-y+1/2,z+1/2",
  "P21ab y,z,x",
  "    x,y,z",
  "    x,y+1/2,-z",
  "    x+1/2,-y,-z",
  "    x+1/2,-y+1/2,z",
  "P21ca -z,y,x",
  "    x,y,z",
  "    x+1/2,y,-z+1/2",
  "    x+1/2,-y,-z",
  "    x,-y,z+1/2",
  "Pc21b z,x,y",
  "    x,y,z",
  "    x,y+1/2,-z+1/2",
  "    -x,y,z+1/2",
  "    -x,y+1/2,-z",
  "Pb21a -x,z,y",
  "    x,y,z",
  "    x+1/2,y,-z",
  "    -x+1/2,y+1/2,z",
  "    -x,y+1/2,-z",
  "Pnc2 x,y,z",
  "    x,y,z",
  "    -x,-y,z",
  "    -x,y+1/2,z+1/2",
  "    x,-y+1/2,z+1/2",
  "Pcn2 -y,x,z",
  "    x,y,z",
  "    -x,-y,z",
  "    -x+1/2,y,z+1/2",
  "    x+1/2,-y,z+1/2",
  "P2na y,z,x",
  "    x,y,z",
  "    x+1/2,y,-z+1/2",
  "    x,-y,-z",
  "    x+1/2,-y,z+1/2",
  "P2an -z,y,x",
  "    x,y,z",
  "    x+1/2,y+1/2,-z",
  "    x,-y,-z",
  "    x+1/2,-y+1/2,z",
  "Pb2n z,x,y",
  "    x,y,z",
  "    x+1/2,y+1/2,-z",
  "    -x+1/2,y+1/2,z",
  "    -x,y,-z",
  "Pn2b -x,z,y",
  "    x,y,z",
  "    x,y+1/2,-z+1/2",
  "    -x,y+1/2,z+1/2",
  "    -x,y,-z",
  "Pmn21 x,y,z",
  "    x,y,z",
  "    -x+1/2,-y,z+1/2",
  "    -x,y,z",
  "    x+1/2,-y,z+1/2",
  "Pnm21 -y,x,z",
  "    x,y,z",
  "    -x,-y+1/2,z+1/2",
  "    -x,y+1/2,z+1/2",
  "    x,-y,z",
  "P21mn y,z,x",
  "    x,y,z",
  "    x+1/2,y+1/2,-z",
  "    x+1/2,-y+1/2,-z",
  "    x,-y,z",
  "P21nm -z,y,x",
  "    x,y,z",
  "    x,y,-z",
  "    x+1/2,-y,-z+1/2",
  "    x+1/2,-y,z+1/2",
  "Pn21m z,x,y",
  "    x,y,z",
  "    x,y,-z",
  "    -x,y+1/2,z+1/2",
  "    -x,y+1/2,-z+1/2",
  "Pm21n -x,z,y",
  "    x,y,z",
  "    x+1/2,y+1/2,-z",
  "    -x,y,z",
  "    -x+1/2,y+1/2,-z",
  "Pba2 x,y,z",
  "    x,y,z",
  "    -x,-y,z",
  "    -x+1/2,y+1/2,z",
  "    x+1/2,-y+1/2,z",
  "P2cb y,z,x",
  "    x,y,z",
  "    x,y+1/2,-z+1/2",
  "    x,-y,-z",
  "    x,-y+1/2,z+1/2",
  "Pc2a z,x,y",
  "    x,y,z",
  "    x+1/2,y,-z+1/2",
  "    -x+1/2,y,z+1/2",
  "    -x,y,-z",
  "Pna21 x,y,z",
  "    x,y,z",
  "    -x,-y,z+1/2",
  "    -x+1/2,y+1/2,z+1/2",
  "    x+1/2,-y+1/2,z",
  "Pbn21 -y,x,z",
  "    x,y,z",
  "    -x,-y,z+1/2",
  "    -x+1/2,y+1/2,z",
  "    x+1/2,-y+1/2,z+1/2",
  "P21nb y,z,x",
  "    x,y,z",
  "    x,y+1/2,-z+1/2",
  "    x+1/2,-y,-z",
  "    x+1/2,-y+1/2,z+1/2",
  "P21cn -z,y,x",
  "    x,y,z",
  "    x+1/2,y+1/2,-z+1/2",
  "    x+1/2,-y,-z",
  "    x,-y+1/2,z+1/2",
  "Pc21n z,x,y",
  "    x,y,z",
  "    x+1/2,y+1/2,-z+1/2",
  "    -x+1/2,y,z+1/2",
  "    -x,y+1/2,-z",
  "Pn21a -x,z,y",
  "    x,y,z",
  "    x+1/2,y,-z+1/2",
  "    -x+1/2,y+1/2,z+1/2",
  "    -x,y+1/2,-z",
  "Pnn2 x,y,z",
  "    x,y,z",
  "    -x,-y,z",
  "    -x+1/2,y+1/2,z+1/2",
  "    x+1/2,-y+1/2,z+1/2",
  "P2nn y,z,x",
  "    x,y,z",
  "    x+1/2,y+1/2,-z+1/2",
  "    x,-y,-z",
  "    x+1/2,-y+1/2,z+1/2",
  "Pn2n z,x,y",
  "    x,y,z",
  "    x+1/2,y+1/2,-z+1/2",
  "    -x+1/2,y+1/2,z+1/2",
  "    -x,y,-z",
  "Cmm2 x,y,z",
  "    x,y,z",
  "    -x,-y,z",
  "    -x,y,z",
  "    x,-y,z",
  "    x+1/2,y+1/2,z",
  "    -x+1/2,-y+1/2,z",
  "    -x+1/2,y+1/2,z",
  "    x+1/2,-y+1/2,z",
  "A2mm y,z,x",
  "    x,y,z",
  "    x,y,-z",
  "    x,-y,-z",
  "    x,-y,z",
  "    x,y+1/2,z+1/2",
  "    x,y+1/2,-z+1/2",
  "    x,-y+1/2,-z+1/2",
  "    x,-y+1/2,z+1/2",
  "Bm2m z,x,y",
  "    x,y,z",
  "    x,y,-z",
  "    -x,y,z",
  "    -x,y,-z",
  "    x+1/2,y,z+1/2",
  "    x+1/2,y,-z+1/2",
  "    -x+1/2,y,z+1/2",
  "    -x+1/2,y,-z+1/2",
  "Cmc21 x,y,z",
  "    x,y,z",
  "    -x,-y,z+1/2",
  "    -x,y,z",
  "    x,-y,z+1/2",
  "    x+1/2,y+1/2,z",
  "    -x+1/2,-y+1/2,z+1/2",
  "    -x+1/2,y+1/2,z",
  "    x+1/2,-y+1/2,z+1/2",
  "Ccm21 -y,x,z",
  "    x,y,z",
  "    -x,-y,z+1/2",
  "    -x,y,z+1/2",
  "    x,-y,z",
  "    x+1/2,y+1/2,z",
  "    -x+1/2,-y+1/2,z+1/2",
  "    -x+1/2,y+1/2,z+1/2",
  "    x+1/2,-y+1/2,z",
  "A21ma y,z,x",
  "    x,y,z",
  "    x+1/2,y,-z",
  "    x+1/2,-y,-z",
  "    x,-y,z",
  "    x,y+1/2,z+1/2",
  "    x+1/2,y+1/2,-z+1/2",
  "    x+1/2,-y+1/2,-z+1/2",
  "    x,-y+1/2,z+1/2",
  "A21am -z,y,x",
  "    x,y,z",
  "    x,y,-z",
  "    x+1/2,-y,-z",
  "    x+1/2,-y,z",
  "    x,y+1/2,z+1/2",
  "    x,y+1/2,-z+1/2",
  "    x+1/2,-y+1/2,-z+1/2",
  "    x+1/2,-y+1/2,z+1/2",
  "Bb21m z,x,y",
  "    x,y,z",
  "    x,y,-z",
  "    -x,y+1/2,z",
  "    -x,y+1/2,-z",
  "    x+1/2,y,z+1/2",
  "    x+1/2,y,-z+1/2",
  "    -x+1/2,y+1/2,z+1/2",
  "    -x+1/2,y+1/2,-z+1/2",
  "Bm21b -x,z,y",
  "    x,y,z",
  "    x,y+1/2,-z",
  "    -x,y,z",
  "    -x,y+1/2,-z",
  "    x+1/2,y,z+1/2",
  "    x+1/2,y+1/2,-z+1/2",
  "    -x+1/2,y,z+1/2",
  "    -x+1/2,y+1/2,-z+1/2",
  "Ccc2 x,y,z",
  "    x,y,z",
  "    -x,-y,z",
  "    -x,y,z+1/2",
  "    x,-y,z+1/2",
  "    x+1/2,y+1/2,z",
  "    -x+1/2,-y+1/2,z",
  "    -x+1/2,y+1/2,z+1/2",
  "    x+1/2,-y+1/2,z+1/2",
  "A2aa y,z,x",
  "    x,y,z",
  "    x+1/2,y,-z",
  "    x,-y,-z",
  "    x+1/2,-y,z",
  "    x,y+1/2,z+1/2",
  "    x+1/2,y+1/2,-z+1/2",
  "    x,-y+1/2,-z+1/2",
  "    x+1/2,-y+1/2,z+1/2",
  "Bb2b z,x,y",
  "    x,y,z",
  "    x,y+1/2,-z",
  "    -x,y+1/2,z",
  "    -x,y,-z",
  "    x+1/2,y,z+1/2",
  "    x+1/2,y+1/2,-z+1/2",
  "    -x+1/2,y+1/2,z+1/2",
  "    -x+1/2,y,-z+1/2",
  "Amm2 x,y,z",
  "    x,y,z",
  "    -x,-y,z",
  "    -x,y,z",
  "    x,-y,z",
  "    x,y+1/2,z+1/2",
  "    -x,-y+1/2,z+1/2",
  "    -x,y+1/2,z+1/2",
  "    x,-y+1/2,z+1/2",
  "Bmm2 -y,x,z",
  "    x,y,z",
  "    -x,-y,z",
  "    -x,y,z",
  "    x,-y,z",
  "    x+1/2,y,z+1/2",
  "    -x+1/2,-y,z+1/2",
  "    -x+1/2,y,z+1/2",
  "    x+1/2,-y,z+1/2",
  "B2mm y,z,x",
  "    x,y,z",
  "    x,y,-z",
  "    x,-y,-z",
  "    x,-y,z",
  "    x+1/2,y,z+1/2",
  "    x+1/2,y,-z+1/2",
  "    x+1/2,-y,-z+1/2",
  "    x+1/2,-y,z+1/2",
  "C2mm -z,y,x",
  "    x,y,z",
  "    x,y,-z",
  "    x,-y,-z",
  "    x,-y,z",
  "    x+1/2,y+1/2,z",
  "    x+1/2,y+1/2,-z",
  "    x+1/2,-y+1/2,-z",
  "    x+1/2,-y+1/2,z",
  "Cm2m z,x,y",
  "    x,y,z",
  "    x,y,-z",
  "    -x,y,z",
  "    -x,y,-z",
  "    x+1/2,y+1/2,z",
  "    x+1/2,y+1/2,-z",
  "    -x+1/2,y+1/2,z",
  "    -x+1/2,y+1/2,-z",
  "Am2m -x,z,y",
  "    x,y,z",
  "    x,y,-z",
  "    -x,y,z",
  "    -x,y,-z",
  "    x,y+1/2,z+1/2",
  "    x,y+1/2,-z+1/2",
  "    -x,y+1/2,z+1/2",
  "    -x,y+1/2,-z+1/2"]

end Systre.Table
