/-! Written by tools/gen_sgtable.py. Lines 7857 to 8110 of src/data/sgtable.data. -/

namespace Systre.Table
set_option maxRecDepth 100000

/-- lines 7857 to 8110 of src/data/sgtable.data -/
def sgLines21 : List String := [
  "Im-3m x,y,z",
  "    x,y,z",
  "    -y,x,z",
  "    -x,-y,z",
  "    y,-x,z",
  "    x,-y,-z",
  "    y,x,-z",
  "    -x,y,-z",
  "    -y,-x,-z",
  "    z,x,y",
  "    -x,z,y",
  "    -z,-x,y",
  "    x,-z,y",
  "    z,-x,-y",
  "    x,z,-y",
  "    -z,x,-y",
  "    -x,-z,-y",
  "    y,z,x",
  "    y,-z,-x",
  "    z,y,-x",
  "    -y,z,-x",
  "    -z,-y,-x",
  "    -y,-z,x",
  "    z,-y,x",
  "    -z,y,x",
  "    -x,-y,-z",
  "    y,-x,-z",
  "    x,y,-z",
  "    -y,x,-z",
  "    -x,y,z",
  "    -y,-x,z",
  "    x,-y,z",
  "    y,x,z",
  "    -z,-x,-y",
  "    x,-z,-y",
  "    z,x,-y",
  "    -x,z,-y",
  "    -z,x,y",
  "    -x,-z,y",
  "    z,-x,y",
  "    x,z,y",
  "    -y,-z,-x",
  "    -y,z,x",
  "    -z,-y,x",
  "    y,-z,x",
  "    z,y,x",
  "    y,z,-x",
  "    -z,y,-x",
  "    z,-y,-x",
  "    x+1/2,y+1/2,z+1/2",
  "    -y+1/2,x+1/2,z+1/2",
  "    -x+1/2,-y+1/2,z+1/2",
  "    y+1/2,-x+1/2,z+1/2",
  "    x+1/2,-y+1/2,-z+1/2",
  "    y+1/2,x+1/2,-z+1/2",
  "    -x+1/2,y+1/2,-z+1/2",
  "    -y+1/2,-x+1/2,-z+1/2",
  "    z+1/2,x+1/2,y+1/2",
  "    -x+1/2,z+1/2,y+1/2",
  "    -z+1/2,-x+1/2,y+1/2",
  "    x+1/2,-z+1/2,y+1/2",
  "    z+1/2,-x+1/2,-y+1/2",
  "    x+1/2,z+1/2,-y+1/2",
  "    -z+1/2,x+1/2,-y+1/2",
  "    -x+1/2,-z+1/2,-y+1/2",
  "    y+1/2,z+1/2,x+1/2",
  "    y+1/2,-z+1/2,-x+1/2",
  "    z+1/2,y+1/2,-x+1/2",
  "    -y+1/2,z+1/2,-x+1/2",
  "    -z+1/2,-y+1/2,-x+1/2",
  "    -y+1/2,-z+1/2,x+1/2",
  "    z+1/2,-y+1/2,x+1/2",
  "    -z+1/2,y+1/2,x+1/2",
  "    -x+1/2,-y+1/2,-z+1/2",
  "    y+1/2,-x+1/2,-z+1/2",
  "    x+1/2,y+1/2,-z+1/2",
  "    -y+1/2,x+1/2,-z+1/2",
  "    -x+1/2,y+1/2,z+1/2",
  "    -y+1/2,-x+1/2,z+1/2",
  "    x+1/2,-y+1/2,z+1/2",
  "    y+1/2,x+1/2,z+1/2",
  "    -z+1/2,-x+1/2,-y+1/2",
  "    x+1/2,-z+1/2,-y+1/2",
  "    z+1/2,x+1/2,-y+1/2",
  "    -x+1/2,z+1/2,-y+1/2",
  "    -z+1/2,x+1/2,y+1/2",
  "    -x+1/2,-z+1/2,y+1/2",
  "    z+1/2,-x+1/2,y+1/2",
  "    x+1/2,z+1/2,y+1/2",
  "    -y+1/2,-z+1/2,-x+1/2",
  "    -y+1/2,z+1/2,x+1/2",
  "    -z+1/2,-y+1/2,x+1/2",
  "    y+1/2,-z+1/2,x+1/2",
  "    z+1/2,y+1/2,x+1/2",
  "    y+1/2,z+1/2,-x+1/2",
  "    -z+1/2,y+1/2,-x+1/2",
  "    z+1/2,-y+1/2,-x+1/2",
  "Ia-3d x,y,z",
  "    x,y,z",
  "    -y+1/4,x+3/4,z+1/4",
  "    -x+1/2,-y,z+1/2",
  "    y+1/4,-x+1/4,z+3/4",
  "    x,-y,-z+1/2",
  "    y+1/4,x+3/4,-z+3/4",
  "    -x+1/2,y,-z",
  "    -y+1/4,-x+1/4,-z+1/4",
  "    z,x,y",
  "    -x+1/4,z+3/4,y+1/4",
  "    -z+1/2,-x,y+1/2",
  "    x+1/4,-z+1/4,y+3/4",
  "    z,-x,-y+1/2",
  "    x+1/4,z+3/4,-y+3/4",
  "    -z+1/2,x,-y",
  "    -x+1/4,-z+1/4,-y+1/4",
  "    y,z,x",
  "    y+1/2,-z+1/2,-x",
  "    z+3/4,y+1/4,-x+1/4",
  "    -y,z+1/2,-x+1/2",
  "    -z+1/4,-y+1/4,-x+1/4",
  "    -y+1/2,-z,x+1/2",
  "    z+3/4,-y+3/4,x+1/4",
  "    -z+3/4,y+1/4,x+3/4",
  "    -x,-y,-z",
  "    y-1/4,-x-3/4,-z-1/4",
  "    x-1/2,y,-z-1/2",
  "    -y-1/4,x-1/4,-z-3/4",
  "    -x,y,z-1/2",
  "    -y-1/4,-x-3/4,z-3/4",
  "    x-1/2,-y,z",
  "    y-1/4,x-1/4,z-1/4",
  "    -z,-x,-y",
  "    x-1/4,-z-3/4,-y-1/4",
  "    z-1/2,x,-y-1/2",
  "    -x-1/4,z-1/4,-y-3/4",
  "    -z,x,y-1/2",
  "    -x-1/4,-z-3/4,y-3/4",
  "    z-1/2,-x,y",
  "    x-1/4,z-1/4,y-1/4",
  "    -y,-z,-x",
  "    -y-1/2,z-1/2,x",
  "    -z-3/4,-y-1/4,x-1/4",
  "    y,-z-1/2,x-1/2",
  "    z-1/4,y-1/4,x-1/4",
  "    y-1/2,z,-x-1/2",
  "    -z-3/4,y-3/4,-x-1/4",
  "    z-3/4,-y-1/4,-x-3/4",
  "    x+1/2,y+1/2,z+1/2",
  "    -y+3/4,x+5/4,z+3/4",
  "    -x+1,-y+1/2,z+1",
  "    y+3/4,-x+3/4,z+5/4",
  "    x+1/2,-y+1/2,-z+1",
  "    y+3/4,x+5/4,-z+5/4",
  "    -x+1,y+1/2,-z+1/2",
  "    -y+3/4,-x+3/4,-z+3/4",
  "    z+1/2,x+1/2,y+1/2",
  "    -x+3/4,z+5/4,y+3/4",
  "    -z+1,-x+1/2,y+1",
  "    x+3/4,-z+3/4,y+5/4",
  "    z+1/2,-x+1/2,-y+1",
  "    x+3/4,z+5/4,-y+5/4",
  "    -z+1,x+1/2,-y+1/2",
  "    -x+3/4,-z+3/4,-y+3/4",
  "    y+1/2,z+1/2,x+1/2",
  "    y+1,-z+1,-x+1/2",
  "    z+5/4,y+3/4,-x+3/4",
  "    -y+1/2,z+1,-x+1",
  "    -z+3/4,-y+3/4,-x+3/4",
  "    -y+1,-z+1/2,x+1",
  "    z+5/4,-y+5/4,x+3/4",
  "    -z+5/4,y+3/4,x+5/4",
  "    -x+1/2,-y+1/2,-z+1/2",
  "    y+1/4,-x-1/4,-z+1/4",
  "    x,y+1/2,-z",
  "    -y+1/4,x+1/4,-z-1/4",
  "    -x+1/2,y+1/2,z",
  "    -y+1/4,-x-1/4,z-1/4",
  "    x,-y+1/2,z+1/2",
  "    y+1/4,x+1/4,z+1/4",
  "    -z+1/2,-x+1/2,-y+1/2",
  "    x+1/4,-z-1/4,-y+1/4",
  "    z,x+1/2,-y",
  "    -x+1/4,z+1/4,-y-1/4",
  "    -z+1/2,x+1/2,y",
  "    -x+1/4,-z-1/4,y-1/4",
  "    z,-x+1/2,y+1/2",
  "    x+1/4,z+1/4,y+1/4",
  "    -y+1/2,-z+1/2,-x+1/2",
  "    -y,z,x+1/2",
  "    -z-1/4,-y+1/4,x+1/4",
  "    y+1/2,-z,x",
  "    z+1/4,y+1/4,x+1/4",
  "    y,z+1/2,-x",
  "    -z-1/4,y-1/4,-x+1/4",
  "    z-1/4,-y+1/4,-x-1/4",
  "",
  "",
  "# Short names for some of the settings.",
  "",
  "alias P2 P121",
  "alias P21 P1211",
  "alias C2 C121",
  "alias A2 A121",
  "alias I2 I121",
  "alias Pm P1m1",
  "alias Pc P1c1",
  "alias Pn P1n1",
  "alias Pa P1a1",
  "alias Cm C1m1",
  "alias Am A1m1",
  "alias Im I1m1",
  "alias Cc C1c1",
  "alias An A1n1",
  "alias Ia I1a1",
  "alias Aa A1a1",
  "alias Cn C1n1",
  "alias Ic I1c1",
  "alias P2/m P12/m1",
  "alias P21/m P121/m1",
  "alias C2/m C12/m1",
  "alias A2/m A12/m1",
  "alias I2/m I12/m1",
  "alias P2/c P12/c1",
  "alias P2/n P12/n1",
  "alias P2/a P12/a1",
  "alias P21/c P121/c1",
  "alias P21/n P121/n1",
  "alias P21/a P121/a1",
  "alias C2/c C12/c1",
  "alias A2/n A12/n1",
  "alias I2/a I12/a1",
  "alias A2/a A12/a1",
  "alias C2/n C12/n1",
  "alias I2/c I12/c1",
  "",
  "alias Pm3 Pm-3",
  "alias Pn3 Pn-3",
  "alias Fm3 Fm-3",
  "alias Fd3 Fd-3",
  "alias Im3 Im-3",
  "alias Pa3 Pa-3",
  "alias Ia3 Ia-3",
  "alias Pm3m Pm-3m",
  "alias Pn3n Pn-3n",
  "alias Pm3n Pm-3n",
  "alias Pn3m Pn-3m",
  "alias Fm3m Fm-3m",
  "alias Fm3c Fm-3c",
  "alias Fd3m Fd-3m",
  "alias Fd3c Fd-3c",
  "alias Im3m Im-3m",
  "alias Ia3d Ia-3d",
  "",
  "# Lookup settings for use by the SpaceGroupFinder class.",
  ""]

end Systre.Table
