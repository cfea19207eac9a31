import Verif.Data.All
import Verif.Data.F01
import Verif.Data.F05
import Verif.Data.F09
import Verif.Data.F13
import Verif.Lib.Args
import Verif.Lib.Calculus
import Verif.Lib.ClosedForm
import Verif.Lib.Congr
import Verif.Lib.Demo
import Verif.Lib.NameCode
import Verif.Lib.Pw92
import Verif.Lib.Smooth
import Verif.Lib.Solo
import Verif.Lib.Tree
import Verif.Model.Build
import Verif.Model.Docs
import Verif.Model.Experimental
import Verif.Model.Formula
import Verif.Model.Functionals
import Verif.Model.Gen
import Verif.Model.Helpers
import Verif.Model.Impl
import Verif.Model.Libxc
import Verif.Model.MapleTemplate
import Verif.Model.Module
import Verif.Model.Record
import Verif.Model.RhoArgs
import Verif.Model.Tests
import Verif.Model.Wrap
import Verif.Norm.Base
import Verif.Norm.Check
import Verif.Norm.Check2
import Verif.Norm.Clamp
import Verif.Norm.Core
import Verif.Norm.Exists
import Verif.Norm.Float
import Verif.Norm.FloatLemmas
import Verif.Norm.Hints
import Verif.Norm.HintsFull
import Verif.Norm.HintsMore
import Verif.Norm.HintsSound
import Verif.Norm.Hom
import Verif.Norm.Interval
import Verif.Norm.IntervalSound
import Verif.Norm.Overflow
import Verif.Norm.Published
import Verif.Norm.Pw92
import Verif.Norm.Regular
import Verif.Norm.RegularHints
import Verif.Norm.Rel
import Verif.Norm.Rounding
import Verif.Norm.Sound
import Verif.Norm.Static
import Verif.Norm.Untied
import Verif.Props.Accurate
import Verif.Props.ApiLiterature
import Verif.Props.ApiScaling
import Verif.Props.ApiSpin
import Verif.Props.ApiSpinShipped
import Verif.Props.Asymmetric
import Verif.Props.Build
import Verif.Props.Clamp1
import Verif.Props.Clamp2
import Verif.Props.Clamp3
import Verif.Props.Clamp4
import Verif.Props.Classification
import Verif.Props.ClosedShell1
import Verif.Props.ClosedShell2
import Verif.Props.ClosedShell3
import Verif.Props.ClosedShell4
import Verif.Props.ClosedShellAll
import Verif.Props.Constraints
import Verif.Props.CubeRoot
import Verif.Props.Decided
import Verif.Props.Defined1
import Verif.Props.Defined2
import Verif.Props.Defined3
import Verif.Props.Defined4
import Verif.Props.DefinedHints1
import Verif.Props.DefinedHints2
import Verif.Props.DefinedHints3
import Verif.Props.DefinedHints4
import Verif.Props.Docs
import Verif.Props.Domains
import Verif.Props.Exchange1
import Verif.Props.Exchange2
import Verif.Props.Exchange3
import Verif.Props.Exchange4
import Verif.Props.ExchangeAll
import Verif.Props.Experimental
import Verif.Props.Flat
import Verif.Props.Float1
import Verif.Props.Float2
import Verif.Props.Float3
import Verif.Props.Float4
import Verif.Props.Float5
import Verif.Props.Float6
import Verif.Props.FullScaling
import Verif.Props.GetP
import Verif.Props.Helpers
import Verif.Props.Invariance
import Verif.Props.Kinetic
import Verif.Props.Libxc
import Verif.Props.LitForms
import Verif.Props.Literature
import Verif.Props.LiteratureBounds
import Verif.Props.MapleTemplate
import Verif.Props.Mixtures
import Verif.Props.Module
import Verif.Props.NotExchange
import Verif.Props.NotExchangeForms
import Verif.Props.Numerals
import Verif.Props.OneSpin1
import Verif.Props.OneSpin2
import Verif.Props.OneSpinHinted
import Verif.Props.Overflow
import Verif.Props.Published
import Verif.Props.PublishedForms
import Verif.Props.Record
import Verif.Props.Regular
import Verif.Props.RegularHinted
import Verif.Props.Rewrite
import Verif.Props.Rounded
import Verif.Props.RoundedForms
import Verif.Props.Sanitise
import Verif.Props.Screening
import Verif.Props.Smooth
import Verif.Props.SmoothAbove
import Verif.Props.SpinFlip1
import Verif.Props.SpinFlip2
import Verif.Props.SpinFlip3
import Verif.Props.SpinFlip4
import Verif.Props.SpinFlipAll
import Verif.Props.Static1
import Verif.Props.Static2
import Verif.Props.Static3
import Verif.Props.Static4
import Verif.Props.StaticAll
import Verif.Props.Tests
import Verif.Props.Undefined
import Verif.Props.Undefined2
import Verif.Props.Untied1
import Verif.Props.Untied2
import Verif.Props.UpToLiterals
import Verif.Props.Validation
import Verif.Props.Values
import Verif.Props.Wpbeh
import Verif.Props.Wrap
import Verif.Props.WrapFile
import Verif.Props.Wrapper
import Verif.Props.ZetaBelowOne
import Verif.Py.Ast
import Verif.Py.Elab
import Verif.Py.Err
import Verif.Py.KernelRfl
import Verif.Py.Parse
import Verif.Py.Sem
import Verif.Spec.Api
import Verif.Spec.Clamp
import Verif.Spec.Density
import Verif.Spec.Docs
import Verif.Spec.Float
import Verif.Spec.Formula
import Verif.Spec.Literature
import Verif.Spec.Overflow
import Verif.Spec.Published
import Verif.Spec.PySource
import Verif.Spec.Record
import Verif.Spec.Rewrite
import Verif.Spec.Rounding
import Verif.Spec.Scaling
import Verif.Spec.Smooth
import Verif.Spec.Strict
import Verif.Spec.Tests
import Verif.Spec.Tree
import Verif.Spec.Untied
import Verif.Spec.Wrap
import Verif.Text.PostProcess
