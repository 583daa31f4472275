import Verif.Base.Res
import Verif.Base.Hash
import Verif.Narsese.Tables
import Verif.Nal.Arith
import Verif.Nal.Truth
import Verif.Nal.Lemmas
import Verif.Nal.Ieee
import Verif.Nal.Special
import Verif.Nal.Errors
import Verif.Props.Boolean
import Verif.Props.TruthFns
import Verif.Props.Tables
import Verif.Sentence.Evidence
import Verif.Sentence.Stamp
import Verif.Sentence.EvidenceLemmas
import Verif.Props.Evidence
import Verif.Props.Stamps
import Verif.Narsese.Term
import Verif.Narsese.Terms
import Verif.Narsese.Compound
import Verif.Narsese.TermsLemmas
import Verif.Narsese.Closure
import Verif.Narsese.Good
import Verif.Narsese.LeafHash
import Verif.Narsese.Shape
import Verif.Narsese.EqLemmas
import Verif.Narsese.LtLemmas
import Verif.Narsese.Interval
import Verif.Props.TermEq
import Verif.Narsese.SetOps
import Verif.Narsese.Fuel
import Verif.Props.TermSets
import Verif.Narsese.CompoundLemmas
import Verif.Narsese.Keep
import Verif.Narsese.Flat
import Verif.Props.Compounds
import Verif.Narsese.CacheLemmas
import Verif.Narsese.Normalize
import Verif.Props.Caches
import Verif.Narsese.IndexVar
import Verif.Narsese.IndexVarLemmas
import Verif.Props.IndexVars
import Verif.Narsese.Heap
import Verif.Props.Cloning
import Verif.Interp.Store
import Verif.Interp.StoreLemmas
import Verif.Interp.World
import Verif.Interp.WorldLemmas
import Verif.Props.Dictionary
import Verif.Props.Interning
import Verif.Interp.Print
import Verif.Interp.Tree
import Verif.Interp.PrintLemmas
import Verif.Interp.ColorLemmas
import Verif.Interp.Faithful
import Verif.Interp.Numbers
import Verif.Interp.Sentences
import Verif.Props.Printing
import Verif.Parser.Types
import Verif.Parser.Tables
import Verif.Parser.TablesRaw
import Verif.Parser.Driver
import Verif.Parser.BufLemmas
import Verif.Parser.LexLemmas
import Verif.Parser.Grammar
import Verif.Parser.LR
import Verif.Parser.Pure
import Verif.Parser.Run
import Verif.Parser.Certs
import Verif.Parser.Checks
import Verif.Parser.DriverLemmas
import Verif.Parser.Regex
import Verif.Parser.Ebnf
import Verif.Parser.EbnfLemmas
import Verif.Parser.EbnfCerts
import Verif.Parser.EbnfChecks
import Verif.Parser.Height
import Verif.Parser.HeightCerts
import Verif.Parser.HeightChecks
import Verif.Parser.Main
import Verif.Parser.Actions
import Verif.Parser.ActionTypes
import Verif.Parser.Session
import Verif.Parser.Syn
import Verif.Parser.Numbering
import Verif.Parser.TaskLemmas
import Verif.Narsese.Relabel
import Verif.Parser.Renaming
import Verif.Parser.Sugar
import Verif.Props.Parsing
import Verif.Props.Actions
import Verif.Props.Variables
import Verif.Props.Sugar
import Verif.Parser.Ranges
import Verif.Props.Ranges
import Verif.Parser.Built
import Verif.Props.Parsed
import Verif.Parser.Complete
import Verif.Parser.ItemCerts
import Verif.Parser.ItemChecks
import Verif.Parser.LexSure
import Verif.Parser.LexChecks
import Verif.Parser.EbnfComplete
import Verif.Parser.Tokens
import Verif.Props.Complete
import Verif.Parser.Unparse
import Verif.Narsese.Steady
import Verif.Parser.Reread
import Verif.Props.RoundTrip
import Verif.Parser.Line
import Verif.Parser.LineBuild
import Verif.Parser.Stamps
import Verif.Props.Lines
import Verif.Props.Readings
import Verif.Narsese.Weight
import Verif.Parser.Accounts
import Verif.Parser.Mentions
import Verif.Props.Handles
import Verif.Props.Symbols
import Verif.Parser.Printed
import Verif.Parser.TaskText
import Verif.Props.Tasks
import Verif.Props.Ieee
import Verif.Props.Special
import Verif.Props.Errors
import Verif.Parser.Memory
import Verif.Parser.MemoryLemmas
import Verif.Parser.MemorySim
import Verif.Props.Ownership
import Verif.Parser.NodesSim
import Verif.Props.TreeMemory
import Verif.Narsese.Keyed
import Verif.Parser.Numerals
import Verif.Narsese.Within
import Verif.Narsese.Mingled
import Verif.Parser.Progress
import Verif.Parser.Mingle
import Verif.Narsese.Frames
import Verif.Parser.Akin
import Verif.Parser.Simple
import Verif.Props.Progress
import Verif.Parser.Again
import Verif.Parser.Kept
import Verif.Props.Again
import Verif.Parser.Carets
import Verif.Parser.Calls
import Verif.Parser.Shown
import Verif.Props.Shown
import Verif.Parser.Left
import Verif.Parser.Life
import Verif.Props.Life
import Verif.Parser.Origin
import Verif.Parser.Echo
import Verif.Props.Echo
import Verif.Interp.Repr
import Verif.Props.Python
import Verif.Parser.Python
import Verif.Props.PyParse
import Verif.Parser.OpenCerts
import Verif.Parser.Opens
import Verif.Props.Openings
import Verif.Parser.Generate
import Verif.Props.Generate
import Verif.Props.Dump
import Verif.Props.Shared
import Verif.Props.Iterator
import Verif.Parser.Demo
import Verif.Props.Demo
import Verif.Props.DemoMain
import Verif.Parser.Reads
import Verif.Props.Reads
import Verif.Parser.CloneTest
import Verif.Props.CloneTest
import Verif.Parser.Files
import Verif.Props.Files
import Verif.Narsese.Nearly
import Verif.Parser.Legible
import Verif.Props.Legible
import Verif.Props.Examples1
import Verif.Props.Examples2
import Verif.Props.Examples3
import Verif.Props.Examples4
import Verif.Props.Examples
import Verif.Parser.Stdin
import Verif.Props.Stdin
import Verif.Nal.PyValues
import Verif.Props.PyValues
import Verif.Parser.Several
import Verif.Props.Several
import Verif.Nal.PyRepr
import Verif.Props.PyRepr
import Verif.Parser.Retry
import Verif.Props.Retry
import Verif.Parser.Delay
import Verif.Parser.Eager
import Verif.Parser.Skip
import Verif.Parser.SkipTotal
import Verif.Props.Delay
import Verif.Props.InRange
import Verif.Props.DelayTask
import Verif.Props.LateTense
import Verif.Parser.IntDelay
import Verif.Props.DelayInt
import Verif.Props.ManyIds
import Verif.Parser.NestTrees
import Verif.Parser.NestCerts
import Verif.Parser.NestChecks
import Verif.Props.TooDeep
import Verif.Props.DeepLines
