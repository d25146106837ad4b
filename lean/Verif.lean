import Verif.Basic
import Verif.CodeSink.Model
import Verif.CodeSink.Spec
import Verif.CodeSink.Props
import Verif.CodeBlock.Model
import Verif.CodeBlock.Spec
import Verif.CodeBlock.Props
import Verif.Params.Model
import Verif.Params.Props
import Verif.DeclScope.Model
import Verif.DeclScope.Props
import Verif.CType.Tokenizer
import Verif.CType.TokSpec
import Verif.CType.TokProps
import Verif.CType.Model
import Verif.CType.Spec
import Verif.CType.ReorderProps
import Verif.CType.ParseProps
import Verif.CType.RenderProps
import Verif.CType.Props
import Verif.CType.TraitsProps
import Verif.PyDict
import Verif.Matcher.Model
import Verif.Matcher.Props
import Verif.Utils.Model
import Verif.Utils.Props
import Verif.Overload.Counter
import Verif.Overload.CounterProps
import Verif.Overload.Model
import Verif.Overload.Props
import Verif.Module.Model
import Verif.Module.Lemmas
import Verif.Module.Props
import Verif.Module.Types
import Verif.Module.Gen
import Verif.Module.GenProps
import Verif.CppClass.Hierarchy
import Verif.CppClass.Classes
import Verif.CppClass.Inherit
import Verif.CppClass.Methods
import Verif.CppClass.Abstract
import Verif.CppClass.HelperProps
import Verif.CppClass.Operators
import Verif.Runtime.TypeMap
import Verif.Runtime.Lifetime
import Verif.Runtime.LifetimeProps
import Verif.Runtime.RegistryProps
import Verif.Runtime.Custodian
import Verif.Runtime.CustodianProps
import Verif.Wrapper.Flow
import Verif.Wrapper.FlowProps
import Verif.Wrapper.IntRange
import Verif.Wrapper.IntRangeProps
import Verif.Wrapper.Forward
import Verif.Wrapper.ForwardFlow
import Verif.Wrapper.StringProps
import Verif.Wrapper.Texts
import Verif.Wrapper.Unblock
import Verif.Wrapper.ValueProps
import Verif.Wrapper.Values
import Verif.Wrapper.Reverse
import Verif.Wrapper.ReverseProps
import Verif.Wrapper.Exec
import Verif.Wrapper.ExecProps
import Verif.Wrapper.Flags
import Verif.Wrapper.ReverseExec
import Verif.Names.Model
import Verif.Names.Props
import Verif.Container.Model
import Verif.Container.Props
import Verif.Container.Memory
import Verif.Container.Extra
import Verif.Slots.Layout
import Verif.Slots.LayoutProps
import Verif.Slots.Assembly
import Verif.Slots.Sequence
import Verif.Slots.MethodTable
import Verif.CppClass.StructLayout
import Verif.Wrapper.Proxy
import Verif.Wrapper.Errors
import Verif.Exceptions.Props
import Verif.Exceptions.Order
import Verif.CppClass.Reexport
import Verif.Attributes.Model
import Verif.Attributes.Props
import Verif.Attributes.Access
import Verif.Attributes.Symbols
import Verif.Handlers.Args
import Verif.Handlers.ArgsProps
import Verif.Handlers.Callback
import Verif.Handlers.CallbackProps
import Verif.Wrapper.Contract
import Verif.Wrapper.Desc
import Verif.Wrapper.DescProps
import Verif.Wrapper.DescExec
import Verif.Wrapper.DescGen
import Verif.Parser.Schedule
import Verif.Parser.ScheduleProps
import Verif.Parser.Annotations
import Verif.Parser.AnnotationsProps
import Verif.Parser.Pygen
import Verif.Parser.PygenProps
import Verif.Parser.PygenLines
import Verif.Parser.PygenLineProps
import Verif.Parser.PygenCalls
import Verif.Parser.PygenRoundTrip
import Verif.Parser.Lookup
import Verif.Parser.Members
import Verif.Parser.Replay
import Verif.Parser.ReplayProps
import Verif.Parser.ReplayText
import Verif.Parser.ScriptReplay
import Verif.Parser.Structure
import Verif.Parser.StructureProps
import Verif.Parser.NotesProps
import Verif.Parser.NotesMethods
import Verif.Parser.NotesClasses
import Verif.Parser.MemberProps
import Verif.Parser.ClassMembers
import Verif.Handlers.Returns
import Verif.Handlers.ReturnsProps
import Verif.Handlers.ReturnsWrap
import Verif.Handlers.Result
import Verif.Handlers.ResultProps
import Verif.Wrapper.Converter
import Verif.Wrapper.ConverterCode
import Verif.Wrapper.ConverterCls
import Verif.Wrapper.ConverterProps
import Verif.Wrapper.ConverterC96
import Verif.Wrapper.ConverterOnce
import Verif.CppClass.Construct
import Verif.CppClass.ConstructProps
import Verif.CppClass.ConstructTypes
import Verif.CppClass.Copy
import Verif.CppClass.CopyProps
import Verif.Handlers.ArgsDesc
import Verif.Wrapper.Ledger
import Verif.Wrapper.LedgerProps
import Verif.Runtime.Dispatch
import Verif.Runtime.DispatchProps
import Verif.Register.Model
import Verif.Register.Props
import Verif.Register.Types
import Verif.Exchange.Model
import Verif.Exchange.Body
import Verif.Exchange.Props
import Verif.Exchange.C102
import Verif.Exchange.MixedModel
import Verif.Exchange.MixedSpec
import Verif.Exchange.MixedRuns
import Verif.Exchange.MixedProps
import Verif.Exchange.MixedExact
import Verif.Exchange.C103
import Verif.Exchange.MixedGenerated
import Verif.Imports.Model
import Verif.Imports.Props
import Verif.Imports.Shared
import Verif.Imports.Bases
import Verif.CppClass.HelperCode
import Verif.CppClass.HelperCodeProps
import Verif.CppClass.HelperComplete
import Verif.CppClass.HelperDistinct
import Verif.ClassIter.Model
import Verif.ClassIter.Props
import Verif.ClassIter.Runs
import Verif.ClassIter.C107
import Verif.ClassIter.Owner
import Verif.ClassIter.Generated
import Verif.Wrapper.ProxyRelease
import Verif.Runtime.VirtualCalls
import Verif.Exceptions.Ctor
import Verif.CppClass.Clone
import Verif.Runtime.Shared
import Verif.Docs.Model
import Verif.Docs.Props
import Verif.CppClass.Arithmetic
import Verif.Bindings.Model
import Verif.Bindings.Props
import Verif.Bindings.C113
import Verif.Attributes.Static
import Verif.Attributes.StaticProps
import Verif.Attributes.StaticHistory
import Verif.Attributes.StaticC114
import Verif.Overrides.Model
import Verif.Overrides.Props
import Verif.Overrides.C115
import Verif.Sections.Model
import Verif.Sections.Spec
import Verif.Sections.Props
import Verif.Sections.Steps
import Verif.Sections.Whole
import Verif.Sections.Count
import Verif.Sections.C116
import Verif.Collector.Model
import Verif.Collector.Spec
import Verif.Collector.Props
import Verif.Collector.Steps
import Verif.Collector.C117
import Verif.Parser.Templates
import Verif.Parser.TemplatesProps
import Verif.Parser.Sinks
import Verif.Parser.SinksProps
import Verif.Parser.Location
import Verif.Parser.LocationProps
import Verif.Parser.Containers
import Verif.Parser.ContainersProps
import Verif.Parser.ClassNotes
import Verif.Parser.ClassNotesProps
import Verif.Overload.Custom
import Verif.Overload.CustomProps
import Verif.Runtime.Str
import Verif.Runtime.StrProps
import Verif.Parser.Throws
import Verif.Parser.ThrowsProps
import Verif.CppClass.FunctionMethods
import Verif.CppClass.FunctionMethodsProps
import Verif.Wrapper.Trial
import Verif.Wrapper.TrialProps
import Verif.Wrapper.TrialOverride
import Verif.Wrapper.TrialOverrideProps
import Verif.Wrapper.TrialOverloads
import Verif.Wrapper.TrialOverloadsProps
import Verif.Wrapper.TrialConstructors
import Verif.Wrapper.TrialConstructorsProps
import Verif.Wrapper.TrialFlagsProps
import Verif.Wrapper.TrialSteadyProps
import Verif.Wrapper.TrialCallsProps
