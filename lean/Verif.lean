import Verif.Props.Acceptance
import Verif.Props.Checked
import Verif.Props.Client
import Verif.Props.Components
import Verif.Props.Compose
import Verif.Props.Depth
import Verif.Props.DepthLeast
import Verif.Props.Equal
import Verif.Props.File
import Verif.Props.FileOrder
import Verif.Props.Filter
import Verif.Props.Foreign
import Verif.Props.Format
import Verif.Props.Grammar
import Verif.Props.Iterators
import Verif.Props.Kinds
import Verif.Props.Language
import Verif.Props.LetterCase
import Verif.Props.Maps
import Verif.Props.Memory
import Verif.Props.Order
import Verif.Props.Parser
import Verif.Props.Plain
import Verif.Props.Platform
import Verif.Props.Print
import Verif.Props.Provided
import Verif.Props.Release
import Verif.Props.Retrieve
import Verif.Props.Slices
import Verif.Props.SortedLists
import Verif.Props.Sorting
import Verif.Props.Source
import Verif.Props.SourceConst
import Verif.Props.SourceItems
import Verif.Props.SourceKinds
import Verif.Props.SourceMaps
import Verif.Props.SourceMore
import Verif.Props.SourceRest
import Verif.Props.SourceSpec
import Verif.Props.SourceValid
import Verif.Props.SourceWalk
import Verif.Props.SourceWork
import Verif.Props.Total
import Verif.Props.Types
import Verif.Props.Validity
import Verif.Props.Work
import Verif.Conformance.Api
import Verif.Conformance.Tags
import Verif.Repair.Components
import Verif.Repair.Compare
import Verif.Tight.Determined
import Verif.Tight.Decoder
import Verif.Tight.Slices
import Verif.Tight.Derives
import Verif.Source.Langtag
import Verif.Source.Parsed.Extension
import Verif.Source.Parsed.Extlang
import Verif.Source.Parsed.Grammar
import Verif.Source.Parsed.Grandfathered
import Verif.Source.Parsed.Language
import Verif.Source.Parsed.Lib
import Verif.Source.Parsed.Normal
import Verif.Source.Parsed.Primary
import Verif.Source.Parsed.PrivateUse
import Verif.Source.Parsed.PrivateUseAlias
import Verif.Source.Parsed.Region
import Verif.Source.Parsed.Script
import Verif.Source.Parsed.Utils
import Verif.Source.Parsed.Variant
import Verif.Source.Refine.Automata
import Verif.Source.Refine.Compare
import Verif.Source.Refine.Globals
import Verif.Source.Refine.Grandfathered
import Verif.Source.Refine.Iterators
import Verif.Source.Refine.Lib
import Verif.Source.Refine.Macro
import Verif.Source.Refine.Newtypes
import Verif.Source.Refine.Normal
import Verif.Source.Refine.Parts
import Verif.Source.Refine.Segments
import Verif.Source.Refine.Singleton
import Verif.Source.Refine.Utils
import Verif.Audit
