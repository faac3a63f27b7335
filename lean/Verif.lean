import Verif.Model.Lib
import Verif.Tests
import Verif.UnitTests
import Verif.Field.Bytes
import Verif.Field.MulW
import Verif.Scalar.Bytes
import Verif.Curve.Tables
import Verif.Curve.Comb
import Verif.Curve.DoubleMul
import Verif.Properties.Layers
import Verif.Properties.Checked
import Verif.Properties.SameKey
import Verif.Properties.Exceptions
import Verif.Properties.DecoderCount
import Verif.Properties.Instances
import Verif.Properties.Interop
import Verif.Properties.Vectors
import Verif.Properties.Unused
import Verif.Properties.Leak
import Verif.Properties.Cases
import Verif.Properties.Limits
import Verif.Properties.Binding
import Verif.Properties.Count
import Verif.Properties.Debug
import Verif.Properties.Forgery
import Verif.Properties.Cofactor
import Verif.Properties.Search
import Verif.Properties.History
import Verif.Properties.MoreVectors
import Verif.Properties.RfcVectors
import Verif.Properties.Repaired
import Verif.Properties.Masked
import Verif.Properties.RepairSet
import Verif.Properties.Cost
import Verif.Properties.Exact
import Verif.Properties.Threads
import Verif.Properties.Substitution
import Verif.Properties.LibraryForger
import Verif.Properties.OneRepair
import Verif.Properties.AllKeys
import Verif.Properties.Strong
import Verif.Properties.Rarely
import Verif.Properties.Refinement
import Verif.Properties.Distinct
import Verif.Properties.ManyUsers
import Verif.Properties.Trace
import Verif.Properties.AsIs
import Verif.Properties.NonPoint
import Verif.Properties.Observer
import Verif.Properties.Owner
import Verif.Properties.Hidden
import Verif.Properties.Equality
import Verif.Properties.WeakKeys
import Verif.Properties.Aliases
import Verif.Properties.RarelyMany
import Verif.Properties.WeakStarts
import Verif.Properties.Platform
import Verif.Properties.Line
import Verif.Properties.KeySet
import Verif.Properties.Panics
import Verif.Properties.Fault
import Verif.Properties.Child
import Verif.Properties.FaultChance
import Verif.Properties.ChildChance
import Verif.Properties.Descendant
