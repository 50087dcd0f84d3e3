import Verif.Props.Partitions
import Verif.Props.Matrices
import Verif.Props.LinearAlgebra
import Verif.Props.ModularSolver
import Verif.Props.PGraphs
import Verif.Props.Geometry
import Verif.Props.Lattices
import Verif.Props.ReducedUnique
import Verif.Props.Symmetries
import Verif.Props.Translations
import Verif.Props.SpaceGroups
import Verif.Props.Finder
import Verif.Props.Parsing
import Verif.Props.Cgd
import Verif.Props.Table
import Verif.Props.CgdLine
import Verif.Props.Normalized
import Verif.Props.PrimitiveSetting
import Verif.Props.Representatives
import Verif.Props.Display
import Verif.Props.HashAut
import Verif.Props.HashOrder
import Verif.Props.ReportOrder
import Verif.Props.Energy
import Verif.Props.Growth
import Verif.Props.OrbitSizes
import Verif.Props.PointGroup
import Verif.Props.InfiniteSymmetry
import Verif.Props.Hierarchy
import Verif.Props.MachineInt
import Verif.Props.MachineGraph
import Verif.Props.FloatLinear
import Verif.Props.FloatSteps
import Verif.Props.FloatPlacement
import Verif.Props.Tolerance
import Verif.Props.SgTable
import Verif.Props.SgSystem
import Verif.Props.SgDistinct
import Verif.Props.Isomorphism
import Verif.Props.Report
import Verif.Props.SgDisplay
import Verif.Tests.Arithmetic
import Verif.Props.CgdEdit
import Verif.Tests.Geometry
import Verif.Tests.SpaceGroups
import Verif.Tests.Io
import Verif.Tests.Graphs
import Verif.Tests.GraphsThree
import Verif.Props.RowLattice
import Verif.Props.MatrixAgreement
