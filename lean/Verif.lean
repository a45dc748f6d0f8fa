import Verif.Model.UnicodeLength
import Verif.Model.StringTo
import Verif.Lemmas.Compose
import Verif.Props.Utf8
import Verif.Props.Convert
import Verif.Props.Safety
import Verif.Props.Predicate
import Verif.Props.Validate
import Verif.Props.Length
import Verif.Props.LengthExact
import Verif.Props.Count
import Verif.Props.SplitJoin
import Verif.Props.Trim
import Verif.Props.CodePage
import Verif.Props.Unicode
import Verif.Props.ToLower
import Verif.Props.Wide
import Verif.Props.Exact
import Verif.Props.WideIs
import Verif.Props.LowerText
import Verif.Model.Defaults
import Verif.Props.Truncate
import Verif.Props.Pieces
import Verif.Props.Defaults
import Verif.Model.MkTestData
import Verif.Spec.TestData
import Verif.Spec.Order
import Verif.Lemmas.Order
import Verif.Lemmas.Find
import Verif.Lemmas.Malformed
import Verif.Props.MkTestData
import Verif.Props.Order
import Verif.Props.Find
import Verif.Props.Ascii
import Verif.Props.Size
import Verif.Props.LowerAcross
import Verif.Props.LowerExact
import Verif.Model.PredicateObjects
import Verif.Spec.History
import Verif.Spec.Same
import Verif.Props.Distinct
import Verif.Props.Equality
import Verif.Props.History
import Verif.Spec.AsciiCase
import Verif.Props.Caseless
import Verif.Props.CodePageMore
import Verif.Props.Classes
import Verif.Props.PiecesValid
import Verif.Model.MkTestDataMain
import Verif.Props.MkTestDataMain
import Verif.Spec.Program
import Verif.Lemmas.Program
import Verif.Props.Program
import Verif.Props.Versions
import Verif.Model.Cxx.Source
import Verif.Lemmas.Cxx.All
import Verif.Props.Source
import Verif.Lemmas.Cpp.Text
import Verif.Lemmas.Cpp.Decode
import Verif.Lemmas.Cpp.Predicate
import Verif.Lemmas.Cpp.Loops
import Verif.Lemmas.Cpp.Validate
import Verif.Lemmas.Cpp.ValidateUtf8
import Verif.Lemmas.Cpp.Convert
import Verif.Lemmas.Cpp.Length
import Verif.Lemmas.Cpp.CodePage
import Verif.Lemmas.Cpp.Lower
import Verif.Lemmas.Cpp.Api
import Verif.Model.Cpp.Values
import Verif.Model.Cpp.Link
import Verif.Spec.Library
import Verif.Lemmas.Cpp.Link
import Verif.Lemmas.Cpp.TextAttr
import Verif.Lemmas.Cpp.Returns
import Verif.Props.Text
import Verif.Props.TextDefined
import Verif.Props.TextExact
import Verif.Props.TextMain
import Verif.Spec.Built
import Verif.Props.TextPredicate
import Verif.Lemmas.Cpp.Trim
import Verif.Lemmas.Cpp.Split
import Verif.Lemmas.Cpp.Join
import Verif.Lemmas.Cpp.Wide
import Verif.Props.TextMore
import Verif.Props.TextWide
import Verif.Lemmas.Cpp.ReturnsWide
import Verif.Props.TextWideMain
import Verif.Props.TextRest
import Verif.Props.TextPieces
import Verif.Spec.TextHistory
import Verif.Props.TextHistory
import Verif.Model.Cpp.SourceWindows
import Verif.Model.Cpp.AstWindows
import Verif.Lemmas.Cpp.Order
import Verif.Lemmas.Cpp.Windows
import Verif.Lemmas.Cpp.WindowsCalls
import Verif.Lemmas.Cpp.WindowsNever
import Verif.Spec.LibraryWindows
import Verif.Props.TextWindows
import Verif.Props.TextWindowsMain
import Verif.Model.Tool.Source
import Verif.Model.Tool.Parse
import Verif.Model.Tool.Sem
import Verif.Model.Tool.Ast
import Verif.Model.Tool.Link
import Verif.Lemmas.Tool.Text
import Verif.Lemmas.Tool.Process
import Verif.Lemmas.Tool.Main
import Verif.Lemmas.Tool.Order
import Verif.Spec.Tool
import Verif.Props.Tool
import Verif.Spec.Pointer
import Verif.Props.AsciiOnly
import Verif.Props.TextPointers
import Verif.Spec.Writes
import Verif.Lemmas.Cpp.Writes
import Verif.Spec.Threads
import Verif.Lemmas.Threads
import Verif.Props.Threads
import Verif.Props.ToolRoom
import Verif.Spec.ProgramText
import Verif.Props.ProgramText
import Verif.Spec.Early
import Verif.Lemmas.Cpp.Early
import Verif.Props.Early
import Verif.Spec.EarlyWindows
import Verif.Lemmas.Cpp.EarlyWindows
import Verif.Props.EarlyWindows
import Verif.Spec.Results
import Verif.Lemmas.Cpp.Results
import Verif.Props.Results
import Verif.Spec.Shallow
import Verif.Lemmas.Cpp.Shallow
import Verif.Props.Shallow
import Verif.Spec.ShallowWindows
import Verif.Lemmas.Cpp.ShallowWindows
import Verif.Props.ShallowWindows
import Verif.Spec.Unsequenced
import Verif.Lemmas.Cpp.Unsequenced
import Verif.Props.Unsequenced
import Verif.Spec.Shared
import Verif.Lemmas.Cpp.Shared
import Verif.Props.Shared
