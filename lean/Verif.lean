import Verif.Props.Load
import Verif.Props.Beam
import Verif.Props.Solvers
import Verif.Props.Material
import Verif.Props.AS4100
import Verif.Props.Tension
import Verif.Props.Utilisation
import Verif.Props.Scaling
import Verif.Props.S7
import Verif.Props.S5
import Verif.Props.S6
import Verif.Props.Torsion
import Verif.Props.Effective
import Verif.Props.Units
import Verif.Props.S6Cache
import Verif.Props.Memory
import Verif.Props.Objects
import Verif.Props.LoadSingle
import Verif.Props.Combination
import Verif.Props.S5More
import Verif.Props.MaterialEq
import Verif.Props.Defaults
import Verif.Props.Assembly
import Verif.Props.Peak
import Verif.Props.Worse
import Verif.Props.Mesh
import Verif.Props.Rounding
import Verif.Props.Cases
import Verif.Props.Safe
import Verif.Props.UtilRound
import Verif.Props.Grid
import Verif.Props.Capacity
import Verif.Props.Sound
import Verif.Props.Preset
import Verif.Props.Segment
import Verif.Props.Interp
import Verif.Props.Sharing
import Verif.Props.Points
import Verif.Props.Required
import Verif.Lemmas.Slope
import Verif.Lemmas.Yield
import Verif.Props.Yield
import Verif.Model.Calls
import Verif.Props.Pins
import Verif.Props.Web
import Verif.Props.Files
import Verif.Props.Plate
import Verif.Props.BendingRound
import Verif.Props.WebRound
import Verif.Props.ColumnRound
import Verif.Lemmas.S6Labels
import Verif.Spec.S6Labels
import Verif.Props.S6Labels
import Verif.Model.RoundedTorsion
import Verif.Spec.RoundedTorsion
import Verif.Lemmas.TorsionRound
import Verif.Lemmas.TorsionRound2
import Verif.Props.TorsionRound
import Verif.Props.TorsionMono
import Verif.Model.Repr
import Verif.Spec.Repr
import Verif.Lemmas.Repr
import Verif.Props.Repr
import Verif.Model.S6Threads
import Verif.Spec.S6Threads
import Verif.Lemmas.S6Threads
import Verif.Props.S6Threads
import Verif.Lemmas.S6ThreadsOwn
import Verif.Props.S6ThreadsOwn
import Verif.Spec.Slopes
import Verif.Props.Secant
import Verif.Props.EffectiveRound
import Verif.Props.MemberRound
import Verif.Props.Ieee
import Verif.Props.Unsymmetric
import Verif.Props.PySum
import Verif.Conformance.LoadCase
import Verif.Conformance.Beam
import Verif.Conformance.Material
import Verif.Conformance.AS4100
import Verif.Conformance.Utilisation
import Verif.Conformance.Utility
import Verif.Conformance.S7
import Verif.Conformance.S5
import Verif.Conformance.S6
import Verif.Conformance.S6Member
import Verif.Conformance.Sheets
import Verif.Props.UnsymRound
import Verif.Props.UnsymMember
import Verif.Props.IntLoads
import Verif.Props.LoadRow
import Verif.Props.Retyped
import Verif.Props.RetypedSafe
import Verif.Props.Special
import Verif.Props.Arrays
import Verif.Props.Axes
import Verif.Props.Overflow
import Verif.Props.Superpose
import Verif.Props.Stable
import Verif.Props.Local
import Verif.Props.Columns
import Verif.Props.CombineRound
import Verif.Props.UnitChange
import Verif.Props.Governs
import Verif.Spec.Again
import Verif.Lemmas.Again
import Verif.Props.Again
import Verif.Spec.Spaced
import Verif.Lemmas.Linspace64
import Verif.Props.Spaced
import Verif.Spec.Divided
import Verif.Lemmas.Divided
import Verif.Props.Divided
import Verif.Spec.Unloaded
import Verif.Props.Unloaded
import Verif.Spec.Euler
import Verif.Props.Euler
import Verif.Spec.Anywhere
import Verif.Lemmas.Anywhere
import Verif.Props.Anywhere
import Verif.Model.Complex
import Verif.Model.ComplexUnsym
import Verif.Spec.Complex
import Verif.Props.Complex
import Verif.Props.ComplexUnsym
import Verif.Model.Solvers64
import Verif.Spec.Solvers64
import Verif.Lemmas.Solvers64
import Verif.Props.Solvers64
import Verif.Props.Secant64
import Verif.Lemmas.UtilWide
import Verif.Lemmas.UtilHuge
import Verif.Spec.UtilWide
import Verif.Props.UtilWide
import Verif.Model.Util64
import Verif.Lemmas.Util64
import Verif.Spec.Util64
import Verif.Props.Util64
import Verif.Spec.Sound64
import Verif.Props.Sound64
import Verif.Model.Full64
import Verif.Spec.Full64
import Verif.Lemmas.Full64
import Verif.Props.Full64
import Verif.Spec.Written
import Verif.Props.Written
import Verif.Props.Counts
import Verif.Spec.Literal
import Verif.Props.Literal
import Verif.Lemmas.AnyLength
import Verif.Props.AnyLength
import Verif.Props.UnknownCase
import Verif.Props.CacheSize
import Verif.Props.CacheDrop
import Verif.Spec.Turned
import Verif.Props.Turned
import Verif.FloatWide
import Verif.Spec.Scales
import Verif.Props.PowerUnits
import Verif.Spec.MonoRound
import Verif.Props.MonoRound
import Verif.Spec.OrderRound
import Verif.Props.OrderRound
import Verif.Spec.PowerFormulas
import Verif.Props.PowerFormulas
import Verif.Spec.Reversal
import Verif.Props.Reversal
import Verif.Model.WeldSum
import Verif.Spec.Compensated
import Verif.Lemmas.TwoSum
import Verif.Props.Compensated
import Verif.Spec.OneByOne
import Verif.Lemmas.OneByOne
import Verif.Props.OneByOne
import Verif.Lemmas.Together
import Verif.Props.Together
import Verif.Spec.TogetherLoads
import Verif.Lemmas.TogetherLoads
import Verif.Props.TogetherLoads
import Verif.Lemmas.Relist
import Verif.Props.Relist
