import Verif.Model.Res
import Verif.Model.Basic
import Verif.Model.Parsers
import Verif.Model.Combinators
import Verif.Model.Ascii
import Verif.Lemmas.Res
import Verif.Lemmas.Basic
import Verif.Props.Monad
import Verif.Props.Parsers
import Verif.Props.Choice
import Verif.Spec.Repeat
import Verif.Spec.Till
import Verif.Lemmas.Repeat
import Verif.Lemmas.Till
import Verif.Props.Repeat
import Verif.Spec.SepBy
import Verif.Lemmas.SepBy
import Verif.Props.Till
import Verif.Props.SepBy
import Verif.Lemmas.SizeHint
import Verif.Props.Collections
import Verif.Spec.Built
import Verif.Lemmas.Built
import Verif.Lemmas.Ext
import Verif.Lemmas.Terminate
import Verif.Props.Built
import Verif.Props.Terminate
import Verif.Spec.Ascii
import Verif.Lemmas.Ascii
import Verif.Props.Ascii
import Verif.Model.Buffer
import Verif.Model.Stream
import Verif.Spec.Buffer
import Verif.Spec.Slice
import Verif.Lemmas.Buffer
import Verif.Lemmas.Script
import Verif.Lemmas.Slice
import Verif.Props.Buffer
import Verif.Props.Slice
import Verif.Props.Data
import Verif.Spec.Source
import Verif.Lemmas.Source
import Verif.Props.Source
import Verif.Props.Limited
import Verif.Spec.Retry
import Verif.Lemmas.Retry
import Verif.Lemmas.Mono
import Verif.Props.Retry
import Verif.Model.Macro
import Verif.Spec.Macro
import Verif.Lemmas.Macro
import Verif.Props.Macro
import Verif.Props.Meaning
import Verif.Spec.Productive
import Verif.Lemmas.Productive
import Verif.Props.Productive
import Verif.Spec.Records
import Verif.Lemmas.Records
import Verif.Props.Records
import Verif.Model.Http
import Verif.Spec.Http
import Verif.Lemmas.Http
import Verif.Lemmas.Main
import Verif.Props.Http
import Verif.Spec.Unroll
import Verif.Lemmas.Unroll
import Verif.Props.Unroll
import Verif.Model.Closures
import Verif.Spec.Closures
import Verif.Lemmas.Closures
import Verif.Props.Closures
import Verif.Spec.Vec
import Verif.Lemmas.Vec
import Verif.Props.Vec
import Verif.Model.Derived
import Verif.Spec.Derived
import Verif.Lemmas.Derived
import Verif.Props.Derived
import Verif.Spec.Twins
import Verif.Lemmas.Twins
import Verif.Props.Twins
import Verif.Props.Laws
import Verif.Spec.Runs
import Verif.Lemmas.Runs
import Verif.Props.Runs
import Verif.Spec.Manual
import Verif.Lemmas.Manual
import Verif.Props.Manual
import Verif.Spec.Foreign
import Verif.Props.Foreign
import Verif.Spec.Safe
import Verif.Lemmas.Safe
import Verif.Props.Safe
import Verif.Lemmas.Release
import Verif.Props.Release
import Verif.Model.Docs
import Verif.Spec.Docs
import Verif.Lemmas.Docs
import Verif.Props.Docs
import Verif.Spec.Adapters
import Verif.Lemmas.Adapters
import Verif.Props.Adapters
import Verif.Tests.Run
import Verif.Tests.Parsers
import Verif.Tests.Combinators
import Verif.Tests.Bounded
import Verif.Tests.ByHand
import Verif.Tests.Source
import Verif.Tests.Docs
import Verif.Tests.MacroRun
import Verif.Tests.Macro
import Verif.Model.Unwind
import Verif.Spec.Unwind
import Verif.Lemmas.Unwind
import Verif.Props.Unwind
import Verif.Model.Programs
import Verif.Spec.Programs
import Verif.Lemmas.Programs
import Verif.Props.Programs
import Verif.Props.Bench
import Verif.Spec.End
import Verif.Props.End
import Verif.Spec.Patient
import Verif.Props.Patient
import Verif.Spec.Memory
import Verif.Lemmas.Memory
import Verif.Props.Memory
import Verif.Props.Degenerate
import Verif.Spec.Recursive
import Verif.Lemmas.Recursive
import Verif.Lemmas.Guarded
import Verif.Props.Recursive
import Verif.Spec.Peg
import Verif.Lemmas.Peg
import Verif.Props.Peg
import Verif.Props.Items
import Verif.Props.Early
import Verif.Spec.Mirror
import Verif.Lemmas.Mirror
import Verif.Props.Mirror
import Verif.Model.Fmt
import Verif.Model.Compare
import Verif.Spec.Fmt
import Verif.Spec.Compare
import Verif.Lemmas.Fmt
import Verif.Lemmas.Compare
import Verif.Props.Fmt
import Verif.Props.Compare
import Verif.Props.Dialogue
import Verif.Props.Std
import Verif.Props.Float
import Verif.Props.ZeroSized
import Verif.Spec.WellFormed
import Verif.Lemmas.WellFormed
import Verif.Props.WellFormed
import Verif.Spec.Values
import Verif.Props.GrammarStream
import Verif.Spec.Rules
import Verif.Lemmas.Rules
import Verif.Props.Rules
import Verif.Spec.Work
import Verif.Lemmas.Work
import Verif.Props.Work
import Verif.Spec.Printed
import Verif.Lemmas.Printed
import Verif.Props.Printed
import Verif.Props.PrintedPrograms
import Verif.Model.Clone
import Verif.Props.Clone
import Verif.Model.Hygiene
import Verif.Props.Hygiene
import Verif.Spec.Predictive
import Verif.Lemmas.Predictive
import Verif.Props.Predictive
import Verif.Rust.Syntax
import Verif.Rust.Text
import Verif.Rust.Eval
import Verif.Rust.Encode
import Verif.Rust.Lemmas
import Verif.Rust.Parsers
import Verif.Rust.Scan
import Verif.Rust.Results
import Verif.Rust.Ascii
import Verif.Rust.Loops
import Verif.Rust.Skip
import Verif.Rust.Cells
import Verif.Rust.Many
import Verif.Rust.Till
import Verif.Rust.Repeat
import Verif.Props.RustText
import Verif.Props.RustBuffers
import Verif.Props.RustStreams
import Verif.Rust.MacroTop
import Verif.Props.RustMacro
import Verif.Rust.Rest
import Verif.Props.RustRest
import Verif.Rust.Http
import Verif.Rust.HttpMain
import Verif.Rust.HttpUp
import Verif.Spec.HttpSyntax
import Verif.Props.RustHttp
import Verif.Model.Convert
import Verif.Spec.Convert
import Verif.Lemmas.Convert
import Verif.Props.Convert
import Verif.Model.Machine
import Verif.Spec.Filling
import Verif.Lemmas.Machine
import Verif.Props.Filling
import Verif.Spec.Own
import Verif.Lemmas.Own
import Verif.Props.Own
import Verif.Model.Numeric
import Verif.Spec.Numeric
import Verif.Lemmas.Numeric
import Verif.Props.Numeric
import Verif.Model.Live
import Verif.Spec.Live
import Verif.Lemmas.Live
import Verif.Props.Live
import Verif.Spec.Limit
import Verif.Lemmas.Limit
import Verif.Props.Limit
import Verif.Model.Look
import Verif.Spec.Look
import Verif.Lemmas.Look
import Verif.Props.Look
import Verif.Model.StdTake
import Verif.Lemmas.StdTake
import Verif.Props.StdTake
import Verif.Model.StdText
import Verif.Props.StdText
