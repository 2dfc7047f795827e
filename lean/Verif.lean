import Verif.Props.Index
import Verif.Props.Tables
import Verif.Props.WignerD
import Verif.Props.Representation
import Verif.Props.SWSH
import Verif.Props.Modes
import Verif.Props.ModesArith
import Verif.Props.ModesOperators
import Verif.Props.Conversions
import Verif.Props.Recursions
import Verif.Props.Grid
import Verif.Props.Wigner3j
import Verif.Props.Multiplication
import Verif.Props.ModesHeap
import Verif.Props.ModesOut
import Verif.Props.WignerH
import Verif.Props.Lie
import Verif.Props.NearPoles
import Verif.Props.Int64
import Verif.Props.Rounded
import Verif.Props.Pipeline
import Verif.Props.Unnormalised
import Verif.Props.GridModes
import Verif.Props.Pickle
import Verif.Props.Unfinished
import Verif.Props.AllRotors
import Verif.Props.FloatError
import Verif.Props.FloatErrorY
import Verif.Props.Leading
import Verif.Props.UfuncMethods
import Verif.Props.FloatErrorM
import Verif.Props.SetItem
import Verif.Props.Views
import Verif.Props.RawInput
import Verif.Props.IndexRounding
import Verif.Model.FloatIEEE
import Verif.Lemmas.IEEE
import Verif.Lemmas.IEEED
import Verif.Lemmas.IEEEE
import Verif.Lemmas.IEEER
import Verif.Props.FloatIEEE
import Verif.Props.Beyond
import Verif.Model.PowersFloat
import Verif.Lemmas.PowersErr
import Verif.Props.PowersFloat
import Verif.Model.Compare
import Verif.Props.Compare
import Verif.Spec.Sphere
import Verif.Lemmas.Sphere
import Verif.Props.Sphere
import Verif.Spec.Coordinates
import Verif.Props.Coordinates
import Verif.Model.Threads
import Verif.Props.Threads
import Verif.Lemmas.Sampling
import Verif.Props.Sampling
import Verif.Model.ModesFloat
import Verif.Lemmas.ModesFloat
import Verif.Props.ModesFloat
import Verif.Model.SWSHIEEE
import Verif.Lemmas.IEEEY
import Verif.Lemmas.IEEEYR
import Verif.Lemmas.IEEEYV
import Verif.Props.FloatIEEEY
import Verif.Model.ConvFloat
import Verif.Props.ConvFloat
import Verif.Model.MultFloat
import Verif.Props.MultFloat
import Verif.Props.MultFnFloat
import Verif.Lemmas.IEEEM
import Verif.Props.FloatIEEEM
import Verif.Model.Wigner3jFloat
import Verif.Lemmas.W3FloatSafe
import Verif.Lemmas.W3FloatNorm
import Verif.Lemmas.W3FloatFinish
import Verif.Lemmas.W3FloatZero
import Verif.Props.W3Float
import Verif.Model.TablesFloat
import Verif.Props.TablesFloat
import Verif.Model.ExprFloat
import Verif.Spec.Expr
import Verif.Props.DivFloat
import Verif.Props.ExprFloat
import Verif.Model.WignerHFloat
import Verif.Props.HFloat
import Verif.Props.ConvIncomplete
import Verif.Model.HLayout
import Verif.Props.HColumns
import Verif.Examples.Basics
import Verif.Examples.Objects
import Verif.Examples.Recursions
import Verif.Examples.More
import Verif.Examples.Later
import Verif.Examples.Last
import Verif.Props.ShippedTables
import Verif.Props.ShippedDouble
import Verif.Props.Rotation
import Verif.Props.ProductAlgebra
import Verif.Props.Adjoint
import Verif.Examples.Recent
import Verif.Props.NormBounds
import Verif.Props.Image
import Verif.Props.Domain
import Verif.Props.Energy
import Verif.Props.Faithful
import Verif.Props.Character
import Verif.Props.Schur
import Verif.Props.Antipode
import Verif.Props.Reflection
import Verif.Props.Symmetry
