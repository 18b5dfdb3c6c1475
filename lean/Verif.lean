import Verif.Props.Fragmentizer
import Verif.Props.Sequence
import Verif.CoreLemmas
import Verif.PartsLemmas
import Verif.FetchNameLemmas
import Verif.SearchLemmas
import Verif.CommandRT
import Verif.BodyRT
import Verif.Local
import Verif.ResponsePost
import Verif.DataRT
import Verif.Props.Stability
import Verif.Props.RoundTrip
import Verif.Props.Fragments
import Verif.Utils
import Verif.Types
import Verif.Props.Strings
import Verif.ConstructorsSpec
import Verif.Props.Constructors
import Verif.NamesSpec
import Verif.Props.Names
import Verif.TagGen
import Verif.Props.Tags
import Verif.NumbersSpec
import Verif.Props.Numbers
import Verif.DatesSpec
import Verif.Props.Dates
import Verif.RecursionSpec
import Verif.Props.Recursion
import Verif.CaseSpec
import Verif.CaseLemmas
import Verif.CaseCommand
import Verif.Props.Case
import Verif.SeqText
import Verif.SeqTextSpec
import Verif.Props.SeqText
import Verif.FramingSpec
import Verif.Framing
import Verif.FramingCommand
import Verif.Props.Framing
import Verif.FramingQuoted
import Verif.HandshakeSpec
import Verif.Props.Handshake
import Verif.CaseResponseSpec
import Verif.CaseResponse
import Verif.Props.CaseResponse
import Verif.FramingData
import Verif.FramingText
import Verif.FramingServer
import Verif.Props.FramingServer
import Verif.Base64Spec
import Verif.Props.Base64
import Verif.ThreadDisplay
import Verif.Props.ThreadDisplay
import Verif.Debug
import Verif.Props.Secrets
import Verif.GrammarSpec
import Verif.GrammarLemmas
import Verif.GrammarParts
import Verif.GrammarSearch
import Verif.GrammarCommand
import Verif.Props.Grammar
import Verif.GrammarServerSpec
import Verif.GrammarServerParts
import Verif.GrammarServerLine
import Verif.GrammarServerBody
import Verif.GrammarServerStructure
import Verif.GrammarServerFetch
import Verif.GrammarServerData
import Verif.GrammarServerResponse
import Verif.Props.GrammarServer
import Verif.Server
import Verif.SessionSpec
import Verif.SessionLemmas
import Verif.SessionPlan
import Verif.Props.Session
import Verif.Serde
import Verif.SerdeTypes
import Verif.SerdeSpec
import Verif.SerdeLemmas
import Verif.SerdeLaws
import Verif.SerdeLawsResponse
import Verif.SerdeWF
import Verif.Props.Serde
import Verif.Viewer
import Verif.ViewerSpec
import Verif.ViewerLemmas
import Verif.Props.Viewer
import Verif.Printing
import Verif.PrintingSpec
import Verif.Props.Printing
import Verif.ExtTypes
import Verif.Props.Constructors2
import Verif.Props.Constructors3
import Verif.ConformanceDecode
import Verif.ConformanceParts
import Verif.Fuzz
import Verif.FuzzLemmas
import Verif.Props.Fuzz
import Verif.Stream
import Verif.StreamSpec
import Verif.Props.Stream
import Verif.FeaturesSpec
import Verif.Features
import Verif.FeaturesServer
import Verif.Props.Features
import Verif.Arbitrary
import Verif.ArbitrarySpec
import Verif.ArbitraryLemmas
import Verif.ArbitraryReach
import Verif.ArbitraryTypical
import Verif.Props.Arbitrary
import Verif.Props.Coverage
import Verif.RustBytesSpec
import Verif.Props.RustBytes
import Verif.Size
import Verif.SizeParts
import Verif.SizeCommand
import Verif.SizeResponse
import Verif.Props.Size
import Verif.QuirksSpec
import Verif.Props.Quirks
import Verif.MemorySpec
import Verif.Memory
import Verif.MemoryResponse
import Verif.Props.Memory
import Verif.ReorderSpec
import Verif.Reorder
import Verif.ReorderTypes
import Verif.Props.Reorder
import Verif.WorkSpec
import Verif.Props.Work
import Verif.TimedNom
import Verif.TimedCommand
import Verif.TimedResponse
import Verif.TimedBound
import Verif.TimedInst
import Verif.TimedAmor
import Verif.TimedBoundCommand
import Verif.TimedBoundResponse
import Verif.TimedErase
import Verif.TimedEraseCommand
import Verif.TimedEraseResponse
import Verif.Props.Time
import Verif.Kinds
import Verif.Props.Kinds
import Verif.Props.Liveness
import Verif.Wire
import Verif.Utf8
import Verif.Props.Wire
import Verif.Panics
import Verif.Props.Panics
import Verif.FragPanics
import Verif.Props.FragPanics
