import Verif.Hex.Table
import Verif.Hex.Lemmas
import Verif.Ihex.Model
import Verif.Ihex.Total
import Verif.Ihex.SegSpec
import Verif.Ihex.Offsets
import Verif.Ihex.Spec
import Verif.Ihex.Lines
import Verif.Ihex.Encode
import Verif.Ihex.More
import Verif.Ihex.Props
import Verif.Ihex.Props2
import Verif.Ihex.Props3
import Verif.Srec.Model
import Verif.Srec.Spec
import Verif.Srec.Lemmas
import Verif.Srec.Props
import Verif.Srec.Props2
import Verif.Conc.Pipeline
import Verif.Conc.FanIn
import Verif.Conc.ReadCal
import Verif.Conc.Props
import Verif.Conc.Collect
import Verif.Conc.CollectOrder
import Verif.A2l.Tokenizer
import Verif.A2l.Lexer
import Verif.A2l.TokSpec
import Verif.A2l.TokLemmas
import Verif.A2l.TokProps
import Verif.A2l.Tokens
import Verif.A2l.PNames
import Verif.A2l.Lang
import Verif.A2l.Parsers
import Verif.A2l.Run
import Verif.A2l.Analysis
import Verif.A2l.BlockSpec
import Verif.A2l.Stable
import Verif.A2l.Checked
import Verif.A2l.ParseProps
import Verif.A2l.Decl
import Verif.A2l.Decls
import Verif.A2l.Numbers
import Verif.A2l.Template
import Verif.A2l.TmplSound
import Verif.A2l.BlockSound
import Verif.A2l.ShapeSound
import Verif.A2l.ObjProps
import Verif.A2l.ObjProps2
import Verif.A2l.IntProps
import Verif.A2l.TabProps
import Verif.A2l.Loose
import Verif.A2l.LooseTab
import Verif.A2l.LooseProps
import Verif.A2l.LooseMore
import Verif.A2l.LooseProps2
import Verif.A2l.Module
import Verif.A2l.ModLemmas
import Verif.A2l.ModSpec
import Verif.A2l.ModSeq
import Verif.A2l.ModProps
import Verif.A2l.ModPar
import Verif.A2l.ModProps2
import Verif.A2l.ModExamples
import Verif.A2l.ModLast
import Verif.A2l.ModIff
import Verif.A2l.ModEvery
import Verif.A2l.Shared
import Verif.A2l.File
import Verif.A2l.FileProps
import Verif.A2l.KwSpec
import Verif.A2l.KwProps
import Verif.A2l.KwProps2
import Verif.A2l.Odd
import Verif.A2l.OddProps
import Verif.A2l.Marks
import Verif.A2l.Parts
import Verif.A2l.Flat
import Verif.Calib.Model
import Verif.Calib.Spec
import Verif.Calib.Props
import Verif.Calib.Props2
import Verif.Calib.Props3
import Verif.Calib.Props4
import Verif.Calib.Props5
import Verif.Calib.Link
import Verif.Calib.LinkProps
import Verif.Calib.LinkTab
import Verif.Calib.LinkConv
import Verif.Calib.RatExact
import Verif.Calib.LinkRat
import Verif.Calib.LinkConst
import Verif.Calib.LinkLayout
import Verif.A2l.Print
import Verif.A2l.PrintProps
import Verif.A2l.PrintFile
import Verif.A2l.PrintText
import Verif.A2l.PrintOrder
import Verif.Calib.FncValues
import Verif.Ihex.Exact
import Verif.Ihex.ExactSpec
import Verif.Ihex.ExactProps
import Verif.Ihex.IffProps
import Verif.Srec.FormatIff
import Verif.A2l.Local
import Verif.A2l.Origin
import Verif.A2l.OriginProps
import Verif.A2l.TokClean
import Verif.Ihex.TextProps
import Verif.Srec.TextProps
import Verif.Srec.CpuProps
import Verif.A2l.PrintOddProps
import Verif.Calib.Walk
import Verif.Calib.Record
import Verif.A2l.Layout
import Verif.A2l.LayoutOne
import Verif.Conc.EndToEnd
import Verif.Conc.Locks
import Verif.Conc.HexRun
import Verif.Conc.HexRunInst
import Verif.Conc.HexRunProps
import Verif.A2l.Oracle
import Verif.Conc.A2lRun
import Verif.Conc.A2lRunProps
import Verif.Conc.A2lRunAll
import Verif.Conc.Whole
import Verif.Conc.WholeProps
import Verif.Conc.WholeExact
import Verif.Conc.LogFile
import Verif.Conc.LeakIff
import Verif.Conc.LeftoverIff
import Verif.Srec.HeaderIff
import Verif.Conc.FormatIff
import Verif.Conc.Leftover
import Verif.A2l.TokReading
import Verif.A2l.TokExact
import Verif.A2l.TokCpu
import Verif.A2l.WhiteSpace
import Verif.A2l.PartsOdd
import Verif.A2l.PartsRest
import Verif.A2l.PrintOrderAll
import Verif.Calib.Float64Claims
import Verif.Calib.Float64More
import Verif.Calib.ParseFloat
import Verif.Calib.ParseFloatProps
import Verif.Calib.LinkFloat
import Verif.A2l.Utf8
import Verif.A2l.Utf8Lemmas
import Verif.A2l.Utf8Lex
import Verif.A2l.Utf8Props
import Verif.A2l.Utf16Props
import Verif.Conc.Race
import Verif.Conc.RacePipe
import Verif.Conc.RaceCheck
import Verif.Conc.RaceLitmus
import Verif.Conc.RaceHex
import Verif.Conc.RaceHexProofs
import Verif.Conc.RaceHexProps
import Verif.Conc.RaceA2l
import Verif.Conc.RaceA2lProofs
import Verif.Conc.RaceA2lProps
import Verif.Conc.RaceLift
import Verif.Conc.RaceWhole
import Verif.Conc.RaceWholeProofs
import Verif.Conc.RaceWholeParts
import Verif.Conc.RaceWholeRun
import Verif.Conc.RaceWholeProps
import Verif.A2l.GoType
import Verif.A2l.GoTypes
import Verif.A2l.Typed
import Verif.A2l.TypedSound
import Verif.A2l.TypedMt
import Verif.A2l.HashMap
import Verif.A2l.HashMapProps
import Verif.Calib.Exact
import Verif.Calib.Float64Rat
import Verif.Conc.FirstErr
import Verif.Ihex.CountProps
import Verif.Srec.CountProps
import Verif.A2l.TokLost
import Verif.A2l.TokVerbatim
import Verif.A2l.Missing
import Verif.A2l.Ignored
import Verif.A2l.HexInts
import Verif.A2l.Cost
import Verif.Conc.HexBound
import Verif.Conc.A2lBound
import Verif.Conc.WholeBound
import Verif.A2l.TokCost
import Verif.A2l.TokCostProps
import Verif.Srec.SizeProps
import Verif.A2l.ModFile
import Verif.A2l.IgnoredOdd
import Verif.Ihex.VisitProps
import Verif.Ihex.JoinIff
import Verif.A2l.RenameProps
import Verif.A2l.RenameText
import Verif.Ihex.Relocate
import Verif.Ihex.Values
import Verif.Ihex.Chunks
import Verif.Ihex.Blanks
import Verif.Ihex.MixedEnds
import Verif.Ihex.Stray
import Verif.Ihex.Cut
import Verif.A2l.Truncated
import Verif.Conc.WholeCut
import Verif.Ihex.Unread
import Verif.Ihex.Transpose
import Verif.A2l.Balance
import Verif.Ihex.Overlap
import Verif.Ihex.Fate
import Verif.Calib.Float64Mono
import Verif.Calib.Lossless
import Verif.Axioms
