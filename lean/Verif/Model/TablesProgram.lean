import Verif.Model.Report
import Verif.Model.SgTable

/-!
# Model of the demonstration program for the table of space groups (examples/read_spacegroup_tables.rs)
-/

namespace Systre
namespace Report
open Table

/-- `TABLES` (examples/read_spacegroup_tables.rs:6-12): the table of the file, read when it is first used; `unwrap`
panics if there is none. `lower` is `str::to_lowercase`. -/
def shippedTables (lower : List Char → List Char) : Outcome Tables := do
  unwrap (← parseTable lower (sgTable.map some))

/-- `print!("{}\n\n", settings.get(name).unwrap())` (examples/read_spacegroup_tables.rs:20-22). A panic inside `Display`
is modelled without the part of the text that was written before it. -/
def printSetting (T : Tables) (name : List Char) : Print Unit := do
  let e ← call (unwrap (mapGet T.settings name))
  let t ← call e.text
  say (t ++ ['\n', '\n'])

/-- `println!("{} -> {}", name, alias.get(name).unwrap_or(&not_found))` (examples/read_spacegroup_tables.rs:24-27). -/
def printAlias (T : Tables) (name : List Char) : Print Unit :=
  sayln (name ++ " -> ".toList ++ (mapGet T.alias_ name).getD "<not found>".toList)

/-- `print!("{}\n\n", lookup[i])` (examples/read_spacegroup_tables.rs:32). -/
def printLookup (T : Tables) (i : Nat) : Print Unit := do
  let l ← call (vecGet T.lookup i)
  let t ← call l.text
  say (t ++ ['\n', '\n'])

/-- `main` (examples/read_spacegroup_tables.rs:15-34). -/
def tablesMain (lower : List Char → List Char) : Print Unit := do
  let T ← call (shippedTables lower)
  printSetting T "c2mm".toList
  printSetting T "R3:R".toList
  printSetting T "P4132".toList
  forEach ["Pm3".toList, "A2/a".toList, "XYZ".toList] (printAlias T)
  sayln []
  sayln []
  forEach [10, 20, 30] (printLookup T)

end Report
end Systre
