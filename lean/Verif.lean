import Verif.Basic
import Verif.Models
import Verif.Trace
import Verif.Spec.Trace
import Verif.Lemmas.Trace
import Verif.Lemmas.RustKinds
import Verif.Props.Trace
import Verif.Spec.Project
import Verif.Props.Trace2
import Verif.Aggregator
import Verif.Spec.Aggregator
import Verif.Lemmas.Aggregator
import Verif.Props.Aggregator
import Verif.Regex
import Verif.Lemmas.Regex
import Verif.Location
import Verif.Lemmas.Location
import Verif.Spec.Location
import Verif.Props.Location
import Verif.Markdown
import Verif.Spec.Markdown
import Verif.Lemmas.MdRegex
import Verif.Lemmas.Md
import Verif.Lemmas.MdSpec
import Verif.Lemmas.MdRun
import Verif.Props.Markdown
import Verif.Spec.MdWriter
import Verif.Lemmas.MdWriter
import Verif.Lemmas.MdSection
import Verif.Props.Markdown2
import Verif.Utf8
import Verif.Reader
import Verif.Lemmas.Reader
import Verif.Path
import Verif.MonoReq
import Verif.Spec.MonoReq
import Verif.Lemmas.MonoReq
import Verif.Props.MonoReq
import Verif.RustParser
import Verif.Spec.Rust
import Verif.Lemmas.Rust
import Verif.Props.Rust
import Verif.Props.Rust2
import Verif.Json
import Verif.Formatters
import Verif.Spec.Formatters
import Verif.Lemmas.Formatters
import Verif.Props.Formatters
import Verif.JsonRead
import Verif.Lemmas.Json
import Verif.Props.Json
import Verif.Controller
import Verif.Spec.Controller
import Verif.Lemmas.Controller
import Verif.Props.Controller
import Verif.Props.Jobs
import Verif.Spec.Files
import Verif.Props.Files
import Verif.Spec.Input
import Verif.Props.Input
import Verif.Spec.Whole
import Verif.Props.Whole
import Verif.Spec.Path
import Verif.Lemmas.Path
import Verif.Spec.Document
import Verif.Props.Document
import Verif.Spec.Report
import Verif.Props.Report
import Verif.Spec.Json
import Verif.ConfigRead
import Verif.Spec.Config
import Verif.Props.Config
import Verif.Props.JsonRead
import Verif.Spec.Output
import Verif.Props.Output
import Verif.Props.Utf8
import Verif.Spec.Run
import Verif.Props.Run
import Verif.Spec.Rerun
import Verif.Props.Rerun
import Verif.Props.Unrelated
import Verif.Lemmas.RegexAgree
import Verif.Props.Unicode
import Verif.Spec.Doc
import Verif.Props.Doc
import Verif.Cli
import Verif.Spec.Cli
import Verif.Props.Cli
import Verif.Spec.Reimport
import Verif.Props.Reimport
import Verif.Spec.TagsRead
import Verif.Props.TagsRead
import Verif.Spec.Doc2
import Verif.Props.Doc2
import Verif.Spec.Meta
import Verif.Props.Meta
import Verif.Props.Meta2
import Verif.Log
import Verif.Spec.Log
import Verif.Props.Log
import Verif.Props.Log2
import Verif.Props.Log3
import Verif.Spec.Chars
import Verif.Props.Chars
import Verif.Spec.Log2
import Verif.Props.Log4
import Verif.Props.Problems
import Verif.Props.Order
import Verif.Stdout
import Verif.Spec.Stdout
import Verif.Props.Stdout
import Verif.Spec.Version
import Verif.Props.Version
import Verif.Spec.Patterns
import Verif.Props.Patterns
import Verif.Spec.Crlf
import Verif.Props.Crlf
import Verif.Spec.Places
import Verif.Spec.Moved
import Verif.Props.Places
import Verif.Props.Moved
import Verif.Spec.Marks
import Verif.Props.Marks
import Verif.Spec.Shuffled
import Verif.Props.Shuffled
import Verif.Props.Shuffled2
import Verif.Props.Shuffled3
import Verif.Spec.Grown
import Verif.Spec.Links
import Verif.Props.Grown
import Verif.Props.Links
import Verif.Spec.Titles
import Verif.Props.Replaced
import Verif.Props.Titles
import Verif.Spec.Edited
import Verif.Props.Edited
import Verif.Spec.Formats
import Verif.Props.Formats
import Verif.Spec.LogText
import Verif.Props.LogText
import Verif.Props.Removed
import Verif.Spec.Removed
import Verif.Spec.Repaired
import Verif.Props.Repaired
import Verif.Spec.Inserted
import Verif.Props.Inserted
import Verif.Spec.Leads
import Verif.Props.Leads
import Verif.Props.Subheading
import Verif.Spec.Renamed
import Verif.Props.Renamed
import Verif.Props.ArtefactNames
import Verif.Props.Sides
import Verif.Props.Asked
import Verif.Props.Parts
import Verif.Props.Divided
import Verif.Props.Settings
import Verif.Props.Split
import Verif.Props.EndToEnd
import Verif.Props.Crash
import Verif.Props.CrashLog
import Verif.Props.LateError
import Verif.Props.Toml
import Verif.Props.Glob
import Verif.Props.RustText
import Verif.Props.JsonLayout
import Verif.Props.TwoLayers
import Verif.Props.Reworded
import Verif.Props.CodeTree
import Verif.Props.ProjectReport
import Verif.Props.TextProject
import Verif.Props.ListText
import Verif.Props.AnyReport
import Verif.Props.AnyMarkdown
import Verif.Props.AnyJson
import Verif.Props.RunLeaves
import Verif.Test.Data
import Verif.Test.Unit
import Verif.Test.Repo
