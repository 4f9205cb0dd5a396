import Verif.Props.Utils
import Verif.Props.Load
import Verif.Props.Decomp
import Verif.Props.Zam
import Verif.Props.Mpi
import Verif.Props.Text
import Verif.Props.Calc
import Verif.Props.Split
import Verif.Props.Transform
import Verif.Props.Collapse
import Verif.Props.Refine
import Verif.Props.Orient
import Verif.Props.Geom
import Verif.Props.Drops
import Verif.Props.Remesh
import Verif.Props.Convert
import Verif.Props.Files
import Verif.Props.Crys
import Verif.Model.DropsFile
import Verif.Spec.DropsFile
import Verif.Proofs.DropsFile
import Verif.Proofs.DropsFile2
import Verif.Props.DropsFile
import Verif.Model.Json
import Verif.Model.SplitMain
import Verif.Spec.SplitMain
import Verif.Props.SplitMain
import Verif.Model.RemeshMain
import Verif.Spec.RemeshMain
import Verif.Props.RemeshMain
import Verif.Model.Import
import Verif.Spec.Import
import Verif.Proofs.Import
import Verif.Props.Import
import Verif.Model.Predicates
import Verif.Spec.Predicates
import Verif.Proofs.Predicates
import Verif.Props.Predicates
import Verif.Model.Refine
import Verif.Spec.Refine
import Verif.Proofs.Refine
import Verif.Proofs.Refine2
import Verif.Proofs.Refine3
import Verif.Proofs.Refine4
import Verif.Proofs.Refine5
import Verif.Props.RefineMain
import Verif.Model.CrysMain
import Verif.Props.CrysMain
import Verif.Model.Arrays
import Verif.Props.Arrays
import Verif.Model.Laws
import Verif.Proofs.Laws
import Verif.Props.Laws
import Verif.Spec.Session
import Verif.Proofs.Session
import Verif.Props.Session
import Verif.Spec.Again
import Verif.Proofs.Again
import Verif.Proofs.AgainDivide
import Verif.Proofs.AgainBorder
import Verif.Proofs.AgainInner
import Verif.Proofs.AgainOutcome
import Verif.Props.Again
import Verif.Model.Csv
import Verif.Spec.Csv
import Verif.Proofs.Csv
import Verif.Props.Csv
import Verif.Model.Smooth
import Verif.Proofs.Smooth
import Verif.Props.Smooth
import Verif.Model.UnitTest
import Verif.Spec.UnitTest
import Verif.Proofs.UnitTest
import Verif.Props.UnitTest
import Verif.Model.Swim
import Verif.Props.Swim
import Verif.Props.Conformance
import Verif.Proofs.Placed
import Verif.Proofs.Rename
import Verif.Proofs.AnyBorder2
import Verif.Proofs.AnyInner2
import Verif.Proofs.AnyOutcome
import Verif.Props.AgainTwo
import Verif.Spec.Pieces
import Verif.Proofs.Pieces
import Verif.Proofs.Pieces2
import Verif.Proofs.Around
import Verif.Proofs.ShrinkPieces
import Verif.Props.Pieces
import Verif.Spec.Forget
import Verif.Proofs.Sim
import Verif.Proofs.Sim2
import Verif.Proofs.Sim3
import Verif.Props.Forget
import Verif.Spec.Area
import Verif.Proofs.Area
import Verif.Props.Area
import Verif.Proofs.AreaRefine
import Verif.Spec.Cut
import Verif.Proofs.Cut
import Verif.Proofs.CutLoad
import Verif.Props.Cut
import Verif.Model.Left
import Verif.Spec.Left
import Verif.Proofs.Left
import Verif.Proofs.Left2
import Verif.Proofs.Left3
import Verif.Props.Left
import Verif.Model.Stream
import Verif.Spec.Stream
import Verif.Proofs.Stream
import Verif.Proofs.Stream2
import Verif.Props.Stream
import Verif.Model.Broken
import Verif.Spec.Broken
import Verif.Proofs.Broken
import Verif.Props.Broken
import Verif.Model.Shrink
import Verif.Proofs.Shrink
import Verif.Proofs.FlipJoined
import Verif.Props.Shrink
import Verif.Spec.Cry
import Verif.Proofs.Cry
import Verif.Props.Cry
import Verif.Spec.Missing
import Verif.Proofs.Missing
import Verif.Props.Missing
import Verif.Props.Border
import Verif.Model.Double
import Verif.Spec.Double
import Verif.Proofs.Double
import Verif.Proofs.DoubleText
import Verif.Proofs.DoubleKey
import Verif.Props.Double
import Verif.Spec.FloatText
import Verif.Proofs.FloatText
import Verif.Proofs.DoubleRound
import Verif.Proofs.SciText
import Verif.Model.DoubleAdd
import Verif.Proofs.DoubleAdd
import Verif.Props.DoubleSum
import Verif.Model.DoubleMul
import Verif.Proofs.DoubleMul
import Verif.Props.EdgesLine
import Verif.Model.PrintInfo
import Verif.Proofs.PrintInfo
import Verif.Props.PrintInfo
import Verif.Proofs.HierNames
import Verif.Props.HierNames
import Verif.Model.Cases
import Verif.Spec.Cases
import Verif.Proofs.Cases
import Verif.Proofs.Cases2
import Verif.Proofs.Cases3
import Verif.Props.Cases
import Verif.Props.RefineTouch
import Verif.Proofs.Root
import Verif.Props.CutZones
import Verif.Spec.Order
import Verif.Proofs.Order
import Verif.Props.Order
import Verif.Model.Adjacent
import Verif.Props.Adjacent
import Verif.Spec.Normals
import Verif.Proofs.Normals
import Verif.Props.Normals
import Verif.Spec.Heights
import Verif.Proofs.Heights
import Verif.Props.Heights
import Verif.Spec.BestCut
import Verif.Proofs.BestCut
import Verif.Props.BestCut
import Verif.Spec.Drag
import Verif.Proofs.Drag
import Verif.Props.Drag
import Verif.Proofs.HierSizes
import Verif.Props.HierSizes
import Verif.Props.HierCut
import Verif.Proofs.HierRefine
import Verif.Props.HierRefine
import Verif.Props.Star
import Verif.Proofs.HierOrder
import Verif.Props.HierOrder
