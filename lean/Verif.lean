import Verif.Model.Lib
import Verif.Model.Display
import Verif.Props.Total
import Verif.Props.Accept
import Verif.Props.Errors
import Verif.Props.Operands
import Verif.Props.RoundTrip32
import Verif.Props.RoundTrip16
import Verif.Props.Stream
import Verif.Props.Display
import Verif.Props.Expand
import Verif.Props.Release
import Verif.Props.Parsers
import Verif.Props.Programs
import Verif.Props.Derive
import Verif.Props.DebugPretty
import Verif.Props.Sink
import Verif.Props.Assembly
import Verif.Props.Memory
import Verif.Props.Helpers
import Verif.Props.HelpersRelease
import Verif.Source.Helpers
import Verif.Source.Display
import Verif.Source.Faithful
import Verif.Props.Source
import Verif.Source.FileCodes
import Verif.Source.Tokens
import Verif.Source.Parsed
import Verif.Source.Declared
import Verif.Props.SourceText
import Verif.Source.Spelling
import Verif.Source.Derived
import Verif.Props.Derived
import Verif.Props.Listing
import Verif.Tests.Crate
import Verif.Props.Complete
import Verif.Spec.DocText
import Verif.Props.DocText
import Verif.Model.Flags
import Verif.Spec.FlagsText
import Verif.Props.Flags
import Verif.Props.FlagsDerived
import Verif.Spec.AsmExact
import Verif.Props.AssemblyExact
import Verif.Props.Target
import Verif.Props.Resync
import Verif.Model.TestHelpers
import Verif.Props.TestHelpers
import Verif.Source.Mono
import Verif.Source.TestProgram
import Verif.Props.SourceTests
import Verif.Model.OldOpcode
import Verif.Spec.OldOpcode
import Verif.Props.OldOpcode
import Verif.Source.Branches
import Verif.Source.Avoid
import Verif.Source.Dead
import Verif.Source.Reach
import Verif.Source.Reach1
import Verif.Source.Reach2
import Verif.Source.Reach3
import Verif.Props.Dead
import Verif.Source.Holes
import Verif.Source.Coverage
import Verif.Source.Coverage1
import Verif.Source.Coverage2
import Verif.Source.Coverage3
import Verif.Source.Coverage4
import Verif.Props.Coverage
import Verif.Source.DocRead
import Verif.Source.Reading
import Verif.Props.DocExamples
import Verif.Source.OldText
import Verif.Source.OldRead
import Verif.Props.OldText
import Verif.Spec.ErrorDoc
import Verif.Props.ErrorDoc
import Verif.Spec.Unsupported
import Verif.Source.ReadmeText
import Verif.Props.Unsupported
import Verif.Props.Lengths
import Verif.Source.Steps
import Verif.Source.Small
import Verif.Source.StepsBound
import Verif.Source.StepsMono
import Verif.Source.Work
import Verif.Props.Work
import Verif.Source.Typing
import Verif.Source.Signatures
import Verif.Source.TypingSound
import Verif.Source.Typed
import Verif.Source.Headers
import Verif.Source.Heads
import Verif.Props.Typed
import Verif.Spec.Count
import Verif.Lemmas.Count
import Verif.Lemmas.CountIsa
import Verif.Props.Count
import Verif.Source.Scope
import Verif.Source.Places
import Verif.Source.NamesRead
import Verif.Source.NamesCovered
import Verif.Source.NamesPublic
import Verif.Source.Scopes
import Verif.Props.Scope
import Verif.Props.Public
import Verif.Source.Grammar
import Verif.Source.GrammarSound
import Verif.Source.GrammarComplete
import Verif.Source.Items
import Verif.Source.ItemsSound
import Verif.Source.ItemsComplete
import Verif.Props.Grammar
import Verif.Source.Lexical
import Verif.Source.Lexed
import Verif.Props.Lexical
import Verif.Source.Formats
import Verif.Source.Annotate
import Verif.Source.Static
import Verif.Source.Annotated
import Verif.Source.Elaborate
import Verif.Source.ElaborateSound
import Verif.Source.Explicit
import Verif.Props.Elaborated
import Verif.Source.Client
import Verif.Source.ClientNames
import Verif.Props.DocTests
import Verif.Props.Clients
import Verif.Props.CountErrors
import Verif.Props.CanonWords
import Verif.Props.CountValues
import Verif.Props.CountTexts
import Verif.Props.CountPrograms
import Verif.Props.CountBoth
import Verif.Props.CountFailures
import Verif.Props.CountCopies
import Verif.Props.CountMemories
