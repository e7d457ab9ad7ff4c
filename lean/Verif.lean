import Verif.Bits
import Verif.Res
import Verif.BitBuffer
import Verif.BitBufferLemmas
import Verif.BitWriter
import Verif.BitWriterLemmas
import Verif.Golomb
import Verif.Prog
import Verif.Logic
import Verif.Auto
import Verif.Types.Basic
import Verif.Model.Basic
import Verif.Codecs.Basic
import Verif.Spec.Codes
import Verif.Spec.Cursor
import Verif.Spec.NonSymmetric
import Verif.Spec.Syntax1
import Verif.Props.Reader
import Verif.Props.Writer
import Verif.Props.Headers
import Verif.Types.Sets
import Verif.Model.Sps
import Verif.Spec.Syntax2
import Verif.Codecs.Sps
import Verif.Props.Sps
import Verif.Model.Pps
import Verif.Spec.Syntax3
import Verif.Codecs.Pps
import Verif.Props.Pps
import Verif.Loop
import Verif.Types.Slice
import Verif.Model.RefPic
import Verif.Spec.Syntax4
import Verif.Codecs.RefPic
import Verif.Props.RefPic
import Verif.Types.Store
import Verif.Model.Slice
import Verif.Spec.Syntax5
import Verif.Codecs.Slice
import Verif.Props.Slice
import Verif.Model.Subset
import Verif.Spec.Syntax6
import Verif.Codecs.Subset
import Verif.Props.Subset
import Verif.Types.Scalable
import Verif.Model.Scalable
import Verif.Spec.Syntax7
import Verif.Codecs.Scalable
import Verif.Props.Scalable
import Verif.Model.Bytes
import Verif.Spec.Bytes
import Verif.EscapeLemmas
import Verif.SplitLemmas
import Verif.Props.Escape
import Verif.Props.Split
import Verif.Model.Checksum
import Verif.Spec.Checksum
import Verif.ChecksumLemmas
import Verif.Props.Checksum
import Verif.Types.Nal
import Verif.Model.Nal
import Verif.NalLemmas
import Verif.Model.Rtp
import Verif.RtpLemmas
import Verif.Spec.Nal
import Verif.Props.Nal
import Verif.Props.Length
import Verif.Props.Reach
import Verif.Conformance
import Verif.Props.Prefix
import Verif.Props.Stream
import Verif.Props.Rtp
import Verif.Props.StapA
import Verif.Model.Dump
import Verif.Spec.Dump
import Verif.DumpLemmas
import Verif.DumpParsed
import Verif.Props.Dump
import Verif.Spec.Modes
import Verif.Modes
import Verif.Props.Modes
import Verif.Props.ModesRtp
import Verif.Model.Common
import Verif.Spec.Common
import Verif.Props.Common
import Verif.Count
import Verif.CountLayer
import Verif.Spec.Counter
import Verif.Props.Counter
import Verif.Model.Tool
import Verif.Model.ToolArgs
import Verif.Spec.Tool
import Verif.Spec.ToolArgs
import Verif.ToolLemmas
import Verif.Props.Tool
import Verif.Props.ToolArgs
import Verif.Spec.DumpItems
import Verif.DumpShown
import Verif.DumpUnits
import Verif.DumpRead
import Verif.DumpGood
import Verif.Props.DumpValues
import Verif.Model.Framerate
import Verif.Spec.Rounding
import Verif.Rounding
import Verif.Props.Framerate
import Verif.Model.FloatLen
import Verif.Spec.FloatLen
import Verif.Props.FloatLen
import Verif.Model.Work
import Verif.Work
import Verif.WorkParsers
import Verif.WorkUnits
import Verif.Props.Work
import Verif.Spec.Malformed
import Verif.Codecs.Malformed
import Verif.Props.Malformed
import Verif.Model.Threads
import Verif.Spec.Threads
import Verif.ThreadLemmas
import Verif.Props.Threads
import Verif.Spec.State
import Verif.Props.State
import Verif.Props.StateRtp
import Verif.Spec.Pieces
import Verif.Props.Pieces
import Verif.Spec.StoreRtp
import Verif.Props.StoreRtp
import Verif.Spec.Remux
import Verif.Props.Remux
import Verif.ShiftLemmas
import Verif.Spec.Loss
import Verif.Props.Loss
import Verif.Spec.Size
import Verif.SizeLemmas
import Verif.Props.Size
import Verif.Spec.Provenance
import Verif.Props.Provenance
import Verif.Model.Heap
import Verif.Spec.Heap
import Verif.Props.Heap
import Verif.Spec.Options
import Verif.Props.Options
import Verif.Props.Beginning
import Verif.Spec.Handmade
import Verif.Handmade
import Verif.Model.Handmade
import Verif.Props.Handmade
import Verif.Model.Fuzz
import Verif.Props.Fuzz
import Verif.Model.SplitScript
import Verif.Spec.SplitScript
import Verif.ScriptLemmas
import Verif.ScriptRead
import Verif.ScriptCuts
import Verif.Props.SplitScript
import Verif.Model.DpbScript
import Verif.DpbText
import Verif.Spec.DpbScript
import Verif.DpbRead
import Verif.DpbSim
import Verif.Props.DpbScript
import Verif.Model.SummaryScript
import Verif.SummaryText
import Verif.Spec.SummaryScript
import Verif.SummaryRead
import Verif.SummaryUnit
import Verif.SummaryStream
import Verif.Props.SummaryScript
import Verif.Spec.Names
import Verif.Props.Gaps
import Verif.Props.CutOff
import Verif.Props.Damage
import Verif.Props.Reorder
import Verif.Props.LossSizes
import Verif.Model.Converter
import Verif.Spec.Converter
import Verif.Props.Converter
import Verif.Spec.Csv
import Verif.Props.DpbTable
import Verif.Model.SummaryTable
import Verif.Spec.SummaryTable
import Verif.Props.SummaryTable
import Verif.Model.ConverterFiles
import Verif.Props.ConverterFiles
import Verif.Props.BeginningSps
import Verif.Props.BeginningLists
import Verif.Props.BeginningScalable
import Verif.Props.FragmentSps
import Verif.Props.CutOffMore
import Verif.Props.ConverterNames
import Verif.Props.ToolContents
