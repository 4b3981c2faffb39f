import Verif.Model.Reader
import Verif.Props.Types
import Verif.Props.WriteStream
import Verif.Props.ReadStream
import Verif.Props.RoundTrip
import Verif.Props.Sections
import Verif.Props.Protocol
import Verif.Props.WrongType
import Verif.Props.Containers
import Verif.Props.Order
import Verif.Props.Graph
import Verif.Props.Dynamic
import Verif.Props.Tables
import Verif.Props.Entities
import Verif.Props.SectionEnds
import Verif.Props.ThreadMap
import Verif.Props.Validator
import Verif.Props.Sha
import Verif.Props.Loader
import Verif.Props.Packet
import Verif.Props.VaryingHeap
import Verif.Props.HostileEntity
import Verif.Props.Memory
import Verif.Props.Encoding
import Verif.Props.InPlace
import Verif.Props.Storing
import Verif.Props.AppendOnly
import Verif.Props.ReaderHistory
import Verif.Props.Layout
import Verif.Props.Sequence
import Verif.Props.TableCalls
import Verif.Props.NullSections
import Verif.Props.TypeTable
import Verif.Props.File
import Verif.Props.GraphCalls
import Verif.Props.AfterFailure
import Verif.Props.Loads
import Verif.Props.Refs
import Verif.Props.StreamHeap
import Verif.Props.AnyBlock
import Verif.Props.Foreign
import Verif.Props.Views
import Verif.Props.Uninitialised
import Verif.Props.Debug
import Verif.Props.Exact
import Verif.Props.GenFiles
import Verif.Props.ShaHeap
import Verif.Props.CopyFailure
import Verif.Props.TableHeap
import Verif.Props.Generator
import Verif.Props.GraphCost
import Verif.Props.OtherClass
import Verif.Props.Overloads
import Verif.Props.Limits
import Verif.Props.DynText
import Verif.Props.CombText
import Verif.Props.HeadText
import Verif.Props.VaryingFail
