import Verif.Props.Ints
import Verif.Props.Bits
import Verif.Props.Parser
import Verif.Props.Numbering
import Verif.Props.Reader
import Verif.Props.File
import Verif.Props.Listing
import Verif.Props.Headers
import Verif.Props.Simple
import Verif.Props.Bitmap
import Verif.Props.EndToEnd
import Verif.Props.RunLength
import Verif.Props.Complex
import Verif.Props.Jpeg
import Verif.Props.Grid
import Verif.Props.LatLon
import Verif.Props.Gaussian
import Verif.Props.Projected
import Verif.Props.Tables
import Verif.Props.ParamCodes
import Verif.Props.Cli
import Verif.Props.DecodeCmd
import Verif.Props.Views
import Verif.Props.InfoInspect
import Verif.Props.RefTime
import Verif.Props.Opening
import Verif.Props.SinglePrecision
import Verif.Props.SingleEdges
import Verif.Lemmas.Spacing
import Verif.Props.LatLonSingle
import Verif.Props.Count
import Verif.Props.GridOutcome
import Verif.Props.Panics
import Verif.Props.GaussianReal
import Verif.Props.Texts
import Verif.Props.RunLengthOutcome
import Verif.Props.ComplexOutcome
import Verif.Props.DecodeOutcome
import Verif.Props.AnyReader
import Verif.Props.DoublePrecision
import Verif.Model.Session
import Verif.Spec.Session
import Verif.Props.Sessions
import Verif.Spec.Export
import Verif.Props.Export
import Verif.Model.CliText
import Verif.Props.Output
import Verif.Props.GridCalls
import Verif.Props.LatLonEdges
import Verif.Props.Concat
import Verif.Props.Locality
import Verif.Props.DataSections
import Verif.Props.Cost
import Verif.Props.Fields
import Verif.Props.FieldsSingle
import Verif.Props.ReleaseOpen
import Verif.Props.ReleaseDecode
import Verif.Props.ReleaseGrid
import Verif.Conformance.Parser
import Verif.Conformance.Unit
import Verif.Conformance.Files
import Verif.Conformance.Commands
import Verif.Props.Memory
import Verif.Props.ReleaseCli
import Verif.Props.GaussianDouble
import Verif.Props.Narrow
import Verif.Props.Demo
import Verif.Model.NarrowDecode
import Verif.Lemmas.NarrowDecode
import Verif.Props.NarrowDecode
import Verif.Model.Examples
import Verif.Props.Examples
import Verif.Model.Program
import Verif.Props.Program
import Verif.Props.NarrowRelease
import Verif.Props.NarrowReleaseDecode
import Verif.Model.DemoWasm
import Verif.Props.DemoWasm
import Verif.Model.Messages
import Verif.Lemmas.Messages
import Verif.Props.Messages
import Verif.Props.ReleaseProgram
import Verif.Props.ReleaseMessages
