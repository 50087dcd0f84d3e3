import Verif.Model.SgTable.T1
import Verif.Model.SgTable.T2
import Verif.Model.SgTable.T3
import Verif.Model.SgTable.T4
import Verif.Model.SgTable.T5
import Verif.Model.SgTable.T6
import Verif.Model.SgTable.T7
import Verif.Model.SgTable.T8
import Verif.Model.SgTable.T9
import Verif.Model.SgTable.T10
import Verif.Model.SgTable.T11
import Verif.Model.SgTable.T12
import Verif.Model.SgTable.T13
import Verif.Model.SgTable.T14
import Verif.Model.SgTable.T15
import Verif.Model.SgTable.T16
import Verif.Model.SgTable.T17
import Verif.Model.SgTable.T18
import Verif.Model.SgTable.T19
import Verif.Model.SgTable.T20
import Verif.Model.SgTable.T21
import Verif.Model.SgTable.T22
import Verif.Model.SgTable.T23

/-! Written by tools/gen_sgtable.py. The shipped table of space groups. -/

/-! The text is the file `src/data/sgtable.data`, as `BufRead::lines` yields it (the file has CR LF line ends, which are removed). -/

namespace Systre.Table

/-- the lines of src/data/sgtable.data (1-8358) -/
def sgTable : List (List Char) := (sgLines1 ++ sgLines2 ++ sgLines3 ++ sgLines4 ++ sgLines5 ++ sgLines6 ++ sgLines7 ++ sgLines8 ++ sgLines9 ++ sgLines10 ++ sgLines11 ++ sgLines12 ++ sgLines13 ++ sgLines14 ++ sgLines15 ++ sgLines16 ++ sgLines17 ++ sgLines18 ++ sgLines19 ++ sgLines20 ++ sgLines21 ++ sgLines22 ++ sgLines23).map String.toList

end Systre.Table
