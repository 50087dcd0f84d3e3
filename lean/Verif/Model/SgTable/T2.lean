/-! Written by tools/gen_sgtable.py. Lines 402 to 845 of src/data/sgtable.data. -/

namespace Systre.Table
set_option maxRecDepth 100000

/-- lines 402 to 845 of src/data/sgtable.data -/
def sgLines2 : List String := [
  "C12/m1 x,y,z",
  "    x,y,z",
  "    -x,y,-z",
  "    -x,-y,-z",
  "    x,-y,z",
  "    x+1/2,y+1/2,z",
  "    -x+1/2,y+1/2,-z",
  "    -x+1/2,-y+1/2,-z",
  "    x+1/2,-y+1/2,z",
  "A12/m1 -z,y,x",
  "    x,y,z",
  "    -x,y,-z",
  "    -x,-y,-z",
  "    x,-y,z",
  "    x,y+1/2,z+1/2",
  "    -x,y+1/2,-z+1/2",
  "    -x,-y+1/2,-z+1/2",
  "    x,-y+1/2,z+1/2",
  "I12/m1 x,y,x+z",
  "    x,y,z",
  "    -x,y,-z",
  "    -x,-y,-z",
  "    x,-y,z",
  "    x+1/2,y+1/2,z+1/2",
  "    -x+1/2,y+1/2,-z+1/2",
  "    -x+1/2,-y+1/2,-z+1/2",
  "    x+1/2,-y+1/2,z+1/2",
  "A112/m y,z,x",
  "    x,y,z",
  "    -x,-y,z",
  "    -x,-y,-z",
  "    x,y,-z",
  "    x,y+1/2,z+1/2",
  "    -x,-y+1/2,z+1/2",
  "    -x,-y+1/2,-z+1/2",
  "    x,y+1/2,-z+1/2",
  "B112/m -x,z,y",
  "    x,y,z",
  "    -x,-y,z",
  "    -x,-y,-z",
  "    x,y,-z",
  "    x+1/2,y,z+1/2",
  "    -x+1/2,-y,z+1/2",
  "    -x+1/2,-y,-z+1/2",
  "    x+1/2,y,-z+1/2",
  "I112/m y,z,x+y",
  "    x,y,z",
  "    -x,-y,z",
  "    -x,-y,-z",
  "    x,y,-z",
  "    x+1/2,y+1/2,z+1/2",
  "    -x+1/2,-y+1/2,z+1/2",
  "    -x+1/2,-y+1/2,-z+1/2",
  "    x+1/2,y+1/2,-z+1/2",
  "B2/m11 z,x,y",
  "    x,y,z",
  "    x,-y,-z",
  "    -x,-y,-z",
  "    -x,y,z",
  "    x+1/2,y,z+1/2",
  "    x+1/2,-y,-z+1/2",
  "    -x+1/2,-y,-z+1/2",
  "    -x+1/2,y,z+1/2",
  "C2/m11 -y,x,z",
  "    x,y,z",
  "    x,-y,-z",
  "    -x,-y,-z",
  "    -x,y,z",
  "    x+1/2,y+1/2,z",
  "    x+1/2,-y+1/2,-z",
  "    -x+1/2,-y+1/2,-z",
  "    -x+1/2,y+1/2,z",
  "I2/m11 z,x,y+z",
  "    x,y,z",
  "    x,-y,-z",
  "    -x,-y,-z",
  "    -x,y,z",
  "    x+1/2,y+1/2,z+1/2",
  "    x+1/2,-y+1/2,-z+1/2",
  "    -x+1/2,-y+1/2,-z+1/2",
  "    -x+1/2,y+1/2,z+1/2",
  "P12/c1 x,y,z",
  "    x,y,z",
  "    -x,y,-z+1/2",
  "    -x,-y,-z",
  "    x,-y,z-1/2",
  "P12/n1 x+z,y,z",
  "    x,y,z",
  "    -x+1/2,y,-z+1/2",
  "    -x,-y,-z",
  "    x-1/2,-y,z-1/2",
  "P12/a1 -z,y,x",
  "    x,y,z",
  "    -x+1/2,y,-z",
  "    -x,-y,-z",
  "    x-1/2,-y,z",
  "P112/a y,z,x",
  "    x,y,z",
  "    -x+1/2,-y,z",
  "    -x,-y,-z",
  "    x-1/2,y,-z",
  "P112/n x+y,z,x",
  "    x,y,z",
  "    -x+1/2,-y+1/2,z",
  "    -x,-y,-z",
  "    x-1/2,y-1/2,-z",
  "P112/b -x,z,y",
  "    x,y,z",
  "    -x,-y+1/2,z",
  "    -x,-y,-z",
  "    x,y-1/2,-z",
  "P2/b11 z,x,y",
  "    x,y,z",
  "    x,-y+1/2,-z",
  "    -x,-y,-z",
  "    -x,y-1/2,z",
  "P2/n11 y+z,x,y",
  "    x,y,z",
  "    x,-y+1/2,-z+1/2",
  "    -x,-y,-z",
  "    -x,y-1/2,z-1/2",
  "P2/c11 -y,x,z",
  "    x,y,z",
  "    x,-y,-z+1/2",
  "    -x,-y,-z",
  "    -x,y,z-1/2",
  "P121/c1 x,y,z",
  "    x,y,z",
  "    -x,y+1/2,-z+1/2",
  "    -x,-y,-z",
  "    x,-y-1/2,z-1/2",
  "P121/n1 x+z,y,z",
  "    x,y,z",
  "    -x+1/2,y+1/2,-z+1/2",
  "    -x,-y,-z",
  "    x-1/2,-y-1/2,z-1/2",
  "P121/a1 -z,y,x",
  "    x,y,z",
  "    -x+1/2,y+1/2,-z",
  "    -x,-y,-z",
  "    x-1/2,-y-1/2,z",
  "P1121/a y,z,x",
  "    x,y,z",
  "    -x+1/2,-y,z+1/2",
  "    -x,-y,-z",
  "    x-1/2,y,-z-1/2",
  "P1121/n x+y,z,x",
  "    x,y,z",
  "    -x+1/2,-y+1/2,z+1/2",
  "    -x,-y,-z",
  "    x-1/2,y-1/2,-z-1/2",
  "P1121/b -x,z,y",
  "    x,y,z",
  "    -x,-y+1/2,z+1/2",
  "    -x,-y,-z",
  "    x,y-1/2,-z-1/2",
  "P21/b11 z,x,y",
  "    x,y,z",
  "    x+1/2,-y+1/2,-z",
  "    -x,-y,-z",
  "    -x-1/2,y-1/2,z",
  "P21/n11 y+z,x,y",
  "    x,y,z",
  "    x+1/2,-y+1/2,-z+1/2",
  "    -x,-y,-z",
  "    -x-1/2,y-1/2,z-1/2",
  "P21/c11 -y,x,z",
  "    x,y,z",
  "    x+1/2,-y,-z+1/2",
  "    -x,-y,-z",
  "    -x-1/2,y,z-1/2",
  "C12/c1 x,y,z",
  "    x,y,z",
  "    -x,y,-z+1/2",
  "    -x,-y,-z",
  "    x,-y,z-1/2",
  "    x+1/2,y+1/2,z",
  "    -x+1/2,y+1/2,-z+1/2",
  "    -x+1/2,-y+1/2,-z",
  "    x+1/2,-y+1/2,z-1/2",
  "A12/n1 x-z,y,x",
  "    x,y,z",
  "    -x+1/2,y+1/2,-z",
  "    -x,-y,-z",
  "    x-1/2,-y-1/2,z",
  "    x,y+1/2,z+1/2",
  "    -x+1/2,y+1,-z+1/2",
  "    -x,-y+1/2,-z+1/2",
  "    x-1/2,-y,z+1/2",
  "I12/a1 -z,y,x+z",
  "    x,y,z",
  "    -x+1/2,y,-z",
  "    -x,-y,-z",
  "    x-1/2,-y,z",
  "    x+1/2,y+1/2,z+1/2",
  "    -x+1,y+1/2,-z+1/2",
  "    -x+1/2,-y+1/2,-z+1/2",
  "    x,-y+1/2,z+1/2",
  "A12/a1 -z,y,x",
  "    x,y,z",
  "    -x+1/2,y,-z",
  "    -x,-y,-z",
  "    x-1/2,-y,z",
  "    x,y+1/2,z+1/2",
  "    -x+1/2,y+1/2,-z+1/2",
  "    -x,-y+1/2,-z+1/2",
  "    x-1/2,-y+1/2,z+1/2",
  "C12/n1 x-1/4,y+1/4,z",
  "    x,y,z",
  "    -x+1/2,y,-z+1/2",
  "    -x,-y,-z",
  "    x-1/2,-y,z-1/2",
  "    x+1/2,y+1/2,z",
  "    -x+1,y+1/2,-z+1/2",
  "    -x+1/2,-y+1/2,-z",
  "    x,-y+1/2,z-1/2",
  "I12/c1 x,y,x+z",
  "    x,y,z",
  "    -x,y,-z+1/2",
  "    -x,-y,-z",
  "    x,-y,z-1/2",
  "    x+1/2,y+1/2,z+1/2",
  "    -x+1/2,y+1/2,-z+1",
  "    -x+1/2,-y+1/2,-z+1/2",
  "    x+1/2,-y+1/2,z",
  "A112/a y,z,x",
  "    x,y,z",
  "    -x+1/2,-y,z",
  "    -x,-y,-z",
  "    x-1/2,y,-z",
  "    x,y+1/2,z+1/2",
  "    -x+1/2,-y+1/2,z+1/2",
  "    -x,-y+1/2,-z+1/2",
  "    x-1/2,y+1/2,-z+1/2",
  "B112/n -x+y,z,y",
  "    x,y,z",
  "    -x+1/2,-y+1/2,z",
  "    -x,-y,-z",
  "    x-1/2,y-1/2,-z",
  "    x+1/2,y,z+1/2",
  "    -x+1,-y+1/2,z+1/2",
  "    -x+1/2,-y,-z+1/2",
  "    x,y-1/2,-z+1/2",
  "I112/b -x,z,x+y",
  "    x,y,z",
  "    -x,-y+1/2,z",
  "    -x,-y,-z",
  "    x,y-1/2,-z",
  "    x+1/2,y+1/2,z+1/2",
  "    -x+1/2,-y+1,z+1/2",
  "    -x+1/2,-y+1/2,-z+1/2",
  "    x+1/2,y,-z+1/2",
  "B112/b -x,z,y",
  "    x,y,z",
  "    -x,-y+1/2,z",
  "    -x,-y,-z",
  "    x,y-1/2,-z",
  "    x+1/2,y,z+1/2",
  "    -x+1/2,-y+1/2,z+1/2",
  "    -x+1/2,-y,-z+1/2",
  "    x+1/2,y-1/2,-z+1/2",
  "A112/n x+y,z,x",
  "    x,y,z",
  "    -x+1/2,-y+1/2,z",
  "    -x,-y,-z",
  "    x-1/2,y-1/2,-z",
  "    x,y+1/2,z+1/2",
  "    -x+1/2,-y+1,z+1/2",
  "    -x,-y+1/2,-z+1/2",
  "    x-1/2,y,-z+1/2",
  "I112/a y,z,x+y",
  "    x,y,z",
  "    -x+1/2,-y,z",
  "    -x,-y,-z",
  "    x-1/2,y,-z",
  "    x+1/2,y+1/2,z+1/2",
  "    -x+1,-y+1/2,z+1/2",
  "    -x+1/2,-y+1/2,-z+1/2",
  "    x,y+1/2,-z+1/2",
  "B2/b11 z,x,y",
  "    x,y,z",
  "    x,-y+1/2,-z",
  "    -x,-y,-z",
  "    -x,y-1/2,z",
  "    x+1/2,y,z+1/2",
  "    x+1/2,-y+1/2,-z+1/2",
  "    -x+1/2,-y,-z+1/2",
  "    -x+1/2,y-1/2,z+1/2",
  "C2/n11 -y+z,x,z",
  "    x,y,z",
  "    x+1/2,-y,-z+1/2",
  "    -x,-y,-z",
  "    -x-1/2,y,z-1/2",
  "    x+1/2,y+1/2,z",
  "    x+1,-y+1/2,-z+1/2",
  "    -x+1/2,-y+1/2,-z",
  "    -x,y+1/2,z-1/2",
  "I2/c11 -y,x,y+z",
  "    x,y,z",
  "    x,-y,-z+1/2",
  "    -x,-y,-z",
  "    -x,y,z-1/2",
  "    x+1/2,y+1/2,z+1/2",
  "    x+1/2,-y+1/2,-z+1",
  "    -x+1/2,-y+1/2,-z+1/2",
  "    -x+1/2,y+1/2,z",
  "C2/c11 -y,x,z",
  "    x,y,z",
  "    x,-y,-z+1/2",
  "    -x,-y,-z",
  "    -x,y,z-1/2",
  "    x+1/2,y+1/2,z",
  "    x+1/2,-y+1/2,-z+1/2",
  "    -x+1/2,-y+1/2,-z",
  "    -x+1/2,y+1/2,z-1/2",
  "B2/n11 y+z,x,y",
  "    x,y,z",
  "    x+1/2,-y+1/2,-z",
  "    -x,-y,-z",
  "    -x-1/2,y-1/2,z",
  "    x+1/2,y,z+1/2",
  "    x+1,-y+1/2,-z+1/2",
  "    -x+1/2,-y,-z+1/2",
  "    -x,y-1/2,z+1/2",
  "I2/b11 z,x,y+z",
  "    x,y,z",
  "    x,-y+1/2,-z",
  "    -x,-y,-z",
  "    -x,y-1/2,z",
  "    x+1/2,y+1/2,z+1/2",
  "    x+1/2,-y+1,-z+1/2",
  "    -x+1/2,-y+1/2,-z+1/2",
  "    -x+1/2,y,z+1/2",
  "P222 x,y,z",
  "    x,y,z",
  "    -x,-y,z",
  "    x,-y,-z",
  "    -x,y,-z",
  "P2221 x,y,z",
  "    x,y,z",
  "    -x,-y,z+1/2",
  "    x,-y,-z",
  "    -x,y,-z+1/2",
  "P2122 y,z,x",
  "    x,y,z",
  "    -x+1/2,-y,z",
  "    x+1/2,-y,-z",
  "    -x,y,-z",
  "P2212 z,x,y",
  "    x,y,z",
  "    -x,-y,z",
  "    x,-y+1/2,-z",
  "    -x,y+1/2,-z",
  "P21212 x,y,z",
  "    x,y,z",
  "    -x,-y,z",
  "    x+1/2,-y+1/2,-z",
  "    -x+1/2,y+1/2,-z",
  "P22121 y,z,x",
  "    x,y,z",
  "    -x,-y+1/2,z+1/2",
  "    x,-y,-z",
  "    -x,y+1/2,-z+1/2",
  "P21221 z,x,y",
  "    x,y,z",
  "    -x+1/2,-y,z+1/2",
  "    x+1/2,-y,-z+1/2",
  "    -x,y,-z",
  "P212121 x,y,z",
  "    x,y,z",
  "    -x+1/2,-y,z+1/2",
  "    x+1/2,-y+1/2,-z",
  "    -x,y+1/2,-z+1/2",
  "C2221 x,y,z",
  "    x,y,z",
  "    -x,-y,z+1/2",
  "    x,-y,-z",
  "    -x,y,-z+1/2",
  "    x+1/2,y+1/2,z",
  "    -x+1/2,-y+1/2,z+1/2",
  "    x+1/2,-y+1/2,-z",
  "    -x+1/2,y+1/2,-z+1/2",
  "A2122 y,z,x",
  "    x,y,z",
  "    -x+1/2,-y,z",
  "    x+1/2,-y,-z",
  "    -x,y,-z",
  "    x,y+1/2,z+1/2",
  "    -x+1/2,-y+1/2,z+1/2",
  "    x+1/2,-y+1/2,-z+1/2",
  "    -x,y+1/2,-z+1/2",
  "B2212 z,x,y",
  "    x,y,z",
  "    -x,-y,z",
  "    x,-y+1/2,-z",
  "    -x,y+1/2,-z",
  "    x+1/2,y,z+1/2",
  "    -x+1/2,-y,z+1/2",
  "    x+1/2,-y+1/2,-z+1/2",
  "    -x+1/2,y+1/2,-z+1/2",
  "C222 x,y,z",
  "    x,y,z",
  "    -x,-y,z",
  "    x,-y,-z",
  "    -x,y,-z",
  "    x+1/2,y+1/2,z",
  "    -x+1/2,-y+1/2,z",
  "    x+1/2,-y+1/2,-z",
  "    -x+1/2,y+1/2,-z",
  "A222 y,z,x",
  "    x,y,z",
  "    -x,-y,z",
  "    x,-y,-z",
  "    -x,y,-z",
  "    x,y+1/2,z+1/2",
  "    -x,-y+1/2,z+1/2",
  "    x,-y+1/2,-z+1/2",
  "    -x,y+1/2,-z+1/2",
  "B222 z,x,y",
  "    x,y,z",
  "    -x,-y,z",
  "    x,-y,-z",
  "    -x,y,-z",
  "    x+1/2,y,z+1/2",
  "    -x+1/2,-y,z+1/2",
  "    x+1/2,-y,-z+1/2",
  "    -x+1/2,y,-z+1/2",
  "F222 x,y,z",
  "    x,y,z",
  "    -x,-y,z",
  "    x,-y,-z",
  "    -x,y,-z",
  "    x,y+1/2,z+1/2",
  "    -x,-y+1/2,z+1/2",
  "    x,-y+1/2,-z+1/2",
  "    -x,y+1/2,-z+1/2",
  "    x+1/2,y,z+1/2",
  "    -x+1/2,-y,z+1/2",
  "    x+1/2,-y,-z+1/2",
  "    -x+1/2,y,-z+1/2",
  "    x+1/2,y+1/2,z",
  "    -x+1/2,-y+1/2,z",
  "    x+1/2,-y+1/2,-z",
  "    -x+1/2,y+1/2,-z"]

end Systre.Table
