import Verif.Matcher.Props
import Verif.Matcher.NumericProps
import Verif.Matcher.ReportProps
import Verif.Str.Props
import Verif.Pattern.Props
import Verif.Misc.Props
import Verif.Diff.Props
import Verif.Memory.Props2
import Verif.Memory.Examples
import Verif.Mock.Props
import Verif.Link.Props
import Verif.Stub.Props
import Verif.Shared.Props
import Verif.Libc.Props
import Verif.Runner.Props
import Verif.Runner.Sort
import Verif.Runner.LastOrder
import Verif.Filter.Props
import Verif.CaseRun.Props
import Verif.Cli.Props
import Verif.Cli.Usage
import Verif.Cli.UsageProps
import Verif.Json.MatchProps
import Verif.Json.LexProps
import Verif.Json.ExprProps
import Verif.Json.SyntaxProps
import Verif.Json.SelectProps
import Verif.Json.DualProps
import Verif.Memcmp.Props
import Verif.Sock.Props
import Verif.Dns.Props
import Verif.Stdio.Props
import Verif.Layout.Props
import Verif.Catch.Props
import Verif.Nm.Props
import Verif.Listing.Props
import Verif.MemDiff.Props
import Verif.FailTree.Props
import Verif.Split.Props
import Verif.Abbrev.Props
import Verif.Color.Props
import Verif.Junit.Props
import Verif.Console.Props
import Verif.Message.Props
import Verif.TextDiff.Props
import Verif.MemText.Props
import Verif.Lookup.Props
import Verif.Lookup.Making
import Verif.Lookup.MakingProps
import Verif.Stringify.Props
import Verif.Backtrace.Props
import Verif.Json.JeProps
import Verif.Json.DumpProps
import Verif.Attrs.Props
import Verif.Scope.Props
import Verif.SuiteFn.Props
import Verif.SuiteFn.Names
import Verif.SuiteFn.Global
import Verif.SuiteFn.GlobalProps
import Verif.Lifetime.Props
import Verif.MockText.Props
import Verif.Hooks.Props
import Verif.Addr.Props
import Verif.Json.SimProps
import Verif.Json.MarkProps
import Verif.Follow.Props
import Verif.Macro.Props
import Verif.Typed.AuxProps
import Verif.Thrown.Props
import Verif.TypeName.Props
import Verif.TypeName.Equal
import Verif.Timer.Props
import Verif.Ptr.Props
import Verif.Expect.Props
import Verif.Expect.TimesModel
import Verif.Expect.TimesSpec
import Verif.Expect.TimesLemmas
import Verif.Expect.TimesProps
import Verif.Nest.Props
import Verif.Nest.FreeProps
import Verif.Amount.Props
import Verif.Whole.Props
import Verif.Around.Props
import Verif.Debug.Props
import Verif.Printer.Props
import Verif.Calls.Props
import Verif.Screen.Props
import Verif.Memory.Peak
import Verif.Count.Props
import Verif.Round.Props
import Verif.Round.Order
import Verif.Macro.Equal
import Verif.Macro.Repeat
import Verif.Macro.Last
import Verif.Macro.Mocker
import Verif.Macro.MockerSpec
import Verif.Macro.RepeatProps
import Verif.Macro.FirstOf
import Verif.Macro.FirstSpec
import Verif.Macro.First
import Verif.Macro.FirstProps
import Verif.Inet.Model
import Verif.Inet.Spec
import Verif.Inet.Lemmas
import Verif.Inet.Props
