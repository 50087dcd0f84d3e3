/-! Written by tools/gen_sgtable.py. Lines 1 to 401 of src/data/sgtable.data. -/

namespace Systre.Table
set_option maxRecDepth 100000

/-- lines 1 to 401 of src/data/sgtable.data -/
def sgLines1 : List String := [
  "#",
  "#   Copyright 2005 Olaf Delgado-Friedrichs",
  "#",
  "#   Licensed under the Apache License, Version 2.0 (the \"License\");",
  "#   you may not use this file except in compliance with the License.",
  "#   You may obtain a copy of the License at",
  "#",
  "#       http://www.apache.org/licenses/LICENSE-2.0",
  "#",
  "#   Unless required by applicable law or agreed to in writing, software",
  "#   distributed under the License is distributed on an \"AS IS\" BASIS,",
  "#   WITHOUT WARRANTIES OR CONDITIONS OF ANY KIND, either express or implied.",
  "#   See the License for the specific language governing permissions and",
  "#   limitations under the License.",
  "#",
  "",
  "# The table of 1-dimensional space groups",
  "",
  "op1 x",
  "    x",
  "opm x",
  "    x",
  "   -x",
  "",
  "",
  "# The table of 2-dimensional space groups, aka plane groups, aka wallpaper groups.",
  "",
  "p1 x,y",
  "    x,y",
  "p2 x,y",
  "    x,y",
  "    -x,-y",
  "pm x,y",
  "    x,y",
  "    -x,y",
  "pg x,y",
  "    x,y",
  "    -x,y+1/2",
  "cm x,y",
  "    x,y",
  "    -x,y",
  "    x+1/2,y+1/2",
  "    -x+1/2,y+1/2",
  "p2mm x,y",
  "    x,y",
  "    -x,-y",
  "    -x,y",
  "    x,-y",
  "p2mg x,y",
  "    x,y",
  "    -x,-y",
  "    -x+1/2,y",
  "    x+1/2,-y",
  "p2gg x,y",
  "    x,y",
  "    -x,-y",
  "    -x+1/2,y+1/2",
  "    x+1/2,-y+1/2",
  "c2mm x,y",
  "    x,y",
  "    -x,-y",
  "    -x,y",
  "    x,-y",
  "    x+1/2,y+1/2",
  "    -x+1/2,-y+1/2",
  "    -x+1/2,y+1/2",
  "    x+1/2,-y+1/2",
  "p4 x,y",
  "    x,y",
  "    -x,-y",
  "    -y,x",
  "    y,-x",
  "p4mm x,y",
  "    x,y",
  "    -x,-y",
  "    -y,x",
  "    y,-x",
  "    -x,y",
  "    x,-y",
  "    y,x",
  "    -y,-x",
  "p4gm x,y",
  "    x,y",
  "    -x,-y",
  "    -y,x",
  "    y,-x",
  "    -x+1/2,y+1/2",
  "    x+1/2,-y+1/2",
  "    y+1/2,x+1/2",
  "    -y+1/2,-x+1/2",
  "p3 x,y",
  "    x,y",
  "    -y,x-y",
  "    -x+y,-x",
  "p3m1 x,y",
  "    x,y",
  "    -y,x-y",
  "    -x+y,-x",
  "    -y,-x",
  "    -x+y,y",
  "    x,x-y",
  "p31m x,y",
  "    x,y",
  "    -y,x-y",
  "    -x+y,-x",
  "    y,x",
  "    x-y,-y",
  "    -x,-x+y",
  "p6 x,y",
  "    x,y",
  "    -y,x-y",
  "    -x+y,-x",
  "    -x,-y",
  "    y,-x+y",
  "    x-y,x",
  "p6mm x,y",
  "    x,y",
  "    -y,x-y",
  "    -x+y,-x",
  "    -x,-y",
  "    y,-x+y",
  "    x-y,x",
  "    -y,-x",
  "    -x+y,y",
  "    x,x-y",
  "    y,x",
  "    x-y,-y",
  "    -x,-x+y",
  "",
  "",
  "# The table of conventional 3-dimensional space group settings.",
  "",
  "P1 x,y,z",
  "    x,y,z",
  "P-1 x,y,z",
  "    x,y,z",
  "    -x,-y,-z",
  "P121 x,y,z",
  "    x,y,z",
  "    -x,y,-z",
  "P112 y,z,x",
  "    x,y,z",
  "    -x,-y,z",
  "P211 z,x,y",
  "    x,y,z",
  "    x,-y,-z",
  "P1211 x,y,z",
  "    x,y,z",
  "    -x,y+1/2,-z",
  "P1121 y,z,x",
  "    x,y,z",
  "    -x,-y,z+1/2",
  "P2111 z,x,y",
  "    x,y,z",
  "    x+1/2,-y,-z",
  "C121 x,y,z",
  "    x,y,z",
  "    -x,y,-z",
  "    x+1/2,y+1/2,z",
  "    -x+1/2,y+1/2,-z",
  "A121 -z,y,x",
  "    x,y,z",
  "    -x,y,-z",
  "    x,y+1/2,z+1/2",
  "    -x,y+1/2,-z+1/2",
  "I121 x,y,x+z",
  "    x,y,z",
  "    -x,y,-z",
  "    x+1/2,y+1/2,z+1/2",
  "    -x+1/2,y+1/2,-z+1/2",
  "A112 y,z,x",
  "    x,y,z",
  "    -x,-y,z",
  "    x,y+1/2,z+1/2",
  "    -x,-y+1/2,z+1/2",
  "B112 -x,z,y",
  "    x,y,z",
  "    -x,-y,z",
  "    x+1/2,y,z+1/2",
  "    -x+1/2,-y,z+1/2",
  "I112 y,z,x+y",
  "    x,y,z",
  "    -x,-y,z",
  "    x+1/2,y+1/2,z+1/2",
  "    -x+1/2,-y+1/2,z+1/2",
  "B211 z,x,y",
  "    x,y,z",
  "    x,-y,-z",
  "    x+1/2,y,z+1/2",
  "    x+1/2,-y,-z+1/2",
  "C211 -y,x,z",
  "    x,y,z",
  "    x,-y,-z",
  "    x+1/2,y+1/2,z",
  "    x+1/2,-y+1/2,-z",
  "I211 z,x,y+z",
  "    x,y,z",
  "    x,-y,-z",
  "    x+1/2,y+1/2,z+1/2",
  "    x+1/2,-y+1/2,-z+1/2",
  "P1m1 x,y,z",
  "    x,y,z",
  "    x,-y,z",
  "P11m y,z,x",
  "    x,y,z",
  "    x,y,-z",
  "Pm11 z,x,y",
  "    x,y,z",
  "    -x,y,z",
  "P1c1 x,y,z",
  "    x,y,z",
  "    x,-y,z+1/2",
  "P1n1 x+z,y,z",
  "    x,y,z",
  "    x+1/2,-y,z+1/2",
  "P1a1 -z,y,x",
  "    x,y,z",
  "    x+1/2,-y,z",
  "P11a y,z,x",
  "    x,y,z",
  "    x+1/2,y,-z",
  "P11n x+y,z,x",
  "    x,y,z",
  "    x+1/2,y+1/2,-z",
  "P11b -x,z,y",
  "    x,y,z",
  "    x,y+1/2,-z",
  "Pb11 z,x,y",
  "    x,y,z",
  "    -x,y+1/2,z",
  "Pn11 y+z,x,y",
  "    x,y,z",
  "    -x,y+1/2,z+1/2",
  "Pc11 -y,x,z",
  "    x,y,z",
  "    -x,y,z+1/2",
  "C1m1 x,y,z",
  "    x,y,z",
  "    x,-y,z",
  "    x+1/2,y+1/2,z",
  "    x+1/2,-y+1/2,z",
  "A1m1 -z,y,x",
  "    x,y,z",
  "    x,-y,z",
  "    x,y+1/2,z+1/2",
  "    x,-y+1/2,z+1/2",
  "I1m1 x,y,x+z",
  "    x,y,z",
  "    x,-y,z",
  "    x+1/2,y+1/2,z+1/2",
  "    x+1/2,-y+1/2,z+1/2",
  "A11m y,z,x",
  "    x,y,z",
  "    x,y,-z",
  "    x,y+1/2,z+1/2",
  "    x,y+1/2,-z+1/2",
  "B11m -x,z,y",
  "    x,y,z",
  "    x,y,-z",
  "    x+1/2,y,z+1/2",
  "    x+1/2,y,-z+1/2",
  "I11m y,z,x+y",
  "    x,y,z",
  "    x,y,-z",
  "    x+1/2,y+1/2,z+1/2",
  "    x+1/2,y+1/2,-z+1/2",
  "Bm11 z,x,y",
  "    x,y,z",
  "    -x,y,z",
  "    x+1/2,y,z+1/2",
  "    -x+1/2,y,z+1/2",
  "Cm11 -y,x,z",
  "    x,y,z",
  "    -x,y,z",
  "    x+1/2,y+1/2,z",
  "    -x+1/2,y+1/2,z",
  "Im11 z,x,y+z",
  "    x,y,z",
  "    -x,y,z",
  "    x+1/2,y+1/2,z+1/2",
  "    -x+1/2,y+1/2,z+1/2",
  "C1c1 x,y,z",
  "    x,y,z",
  "    x,-y,z+1/2",
  "    x+1/2,y+1/2,z",
  "    x+1/2,-y+1/2,z+1/2",
  "A1n1 x-z,y,x",
  "    x,y,z",
  "    x+1/2,-y+1/2,z",
  "    x,y+1/2,z+1/2",
  "    x+1/2,-y+1,z+1/2",
  "I1a1 -z,y,x+z",
  "    x,y,z",
  "    x+1/2,-y,z",
  "    x+1/2,y+1/2,z+1/2",
  "    x+1,-y+1/2,z+1/2",
  "A1a1 -z,y,x",
  "    x,y,z",
  "    x+1/2,-y,z",
  "    x,y+1/2,z+1/2",
  "    x+1/2,-y+1/2,z+1/2",
  "C1n1 x-1/4,y-1/4,z",
  "    x,y,z",
  "    x+1/2,-y,z+1/2",
  "    x+1/2,y+1/2,z",
  "    x+1,-y+1/2,z+1/2",
  "I1c1 x,y,x+z",
  "    x,y,z",
  "    x,-y,z+1/2",
  "    x+1/2,y+1/2,z+1/2",
  "    x+1/2,-y+1/2,z+1",
  "A11a y,z,x",
  "    x,y,z",
  "    x+1/2,y,-z",
  "    x,y+1/2,z+1/2",
  "    x+1/2,y+1/2,-z+1/2",
  "B11n -x+y,z,y",
  "    x,y,z",
  "    x+1/2,y+1/2,-z",
  "    x+1/2,y,z+1/2",
  "    x+1,y+1/2,-z+1/2",
  "I11b -x,z,x+y",
  "    x,y,z",
  "    x,y+1/2,-z",
  "    x+1/2,y+1/2,z+1/2",
  "    x+1/2,y+1,-z+1/2",
  "B11b -x,z,y",
  "    x,y,z",
  "    x,y+1/2,-z",
  "    x+1/2,y,z+1/2",
  "    x+1/2,y+1/2,-z+1/2",
  "A11n x+y,z,x",
  "    x,y,z",
  "    x+1/2,y+1/2,-z",
  "    x,y+1/2,z+1/2",
  "    x+1/2,y+1,-z+1/2",
  "I11a y,z,x+y",
  "    x,y,z",
  "    x+1/2,y,-z",
  "    x+1/2,y+1/2,z+1/2",
  "    x+1,y+1/2,-z+1/2",
  "Bb11 z,x,y",
  "    x,y,z",
  "    -x,y+1/2,z",
  "    x+1/2,y,z+1/2",
  "    -x+1/2,y+1/2,z+1/2",
  "Cn11 -y+z,x,z",
  "    x,y,z",
  "    -x+1/2,y,z+1/2",
  "    x+1/2,y+1/2,z",
  "    -x+1,y+1/2,z+1/2",
  "Ic11 -y,x,y+z",
  "    x,y,z",
  "    -x,y,z+1/2",
  "    x+1/2,y+1/2,z+1/2",
  "    -x+1/2,y+1/2,z+1",
  "Cc11 -y,x,z",
  "    x,y,z",
  "    -x,y,z+1/2",
  "    x+1/2,y+1/2,z",
  "    -x+1/2,y+1/2,z+1/2",
  "Bn11 y+z,x,y",
  "    x,y,z",
  "    -x+1/2,y+1/2,z",
  "    x+1/2,y,z+1/2",
  "    -x+1,y+1/2,z+1/2",
  "Ib11 z,x,y+z",
  "    x,y,z",
  "    -x,y+1/2,z",
  "    x+1/2,y+1/2,z+1/2",
  "    -x+1/2,y+1,z+1/2",
  "P12/m1 x,y,z",
  "    x,y,z",
  "    -x,y,-z",
  "    -x,-y,-z",
  "    x,-y,z",
  "P112/m y,z,x",
  "    x,y,z",
  "    -x,-y,z",
  "    -x,-y,-z",
  "    x,y,-z",
  "P2/m11 z,x,y",
  "    x,y,z",
  "    x,-y,-z",
  "    -x,-y,-z",
  "    -x,y,z",
  "P121/m1 x,y,z",
  "    x,y,z",
  "    -x,y+1/2,-z",
  "    -x,-y,-z",
  "    x,-y-1/2,z",
  "P1121/m y,z,x",
  "    x,y,z",
  "    -x,-y,z+1/2",
  "    -x,-y,-z",
  "    x,y,-z-1/2",
  "P21/m11 z,x,y",
  "    x,y,z",
  "    x+1/2,-y,-z",
  "    -x,-y,-z",
  "    -x-1/2,y,z"]

end Systre.Table
