import Verif.Manifest
import Verif.Token
import Verif.Ast
import Verif.Error
import Verif.Parser
import Verif.ParseUtils
import Verif.ParseType
import Verif.ParseFn
import Verif.ParseImpl
import Verif.Parse
import Verif.Print
import Verif.Edit
import Verif.Spec.Angle
import Verif.Spec.WellFormed
import Verif.Spec.Tok
import Verif.Spec.Discriminant
import Verif.Lemmas.Basic
import Verif.Lemmas.Stuff
import Verif.Lemmas.Good
import Verif.Lemmas.GoodLoops
import Verif.Lemmas.GoodRec
import Verif.Lemmas.Fix
import Verif.Lemmas.Path
import Verif.Lemmas.Discr
import Verif.Props.Total
import Verif.Props.Cut
import Verif.Props.Lists
import Verif.Props.Errors
import Verif.Lemmas.Reparse
import Verif.Lemmas.ReparseType
import Verif.Lemmas.ReparseFn
import Verif.Lemmas.ReparseImpl
import Verif.Lemmas.ReparseItem
import Verif.Lemmas.Edited
import Verif.Props.RoundTrip
import Verif.Props.Builders
import Verif.Spec.Edits
import Verif.Spec.Parsed
import Verif.Spec.Nodes
import Verif.Debug
import Verif.Lemmas.Edits
import Verif.Lemmas.Invert
import Verif.Lemmas.InvertFields
import Verif.Lemmas.InvertFn
import Verif.Lemmas.InvertImpl
import Verif.Lemmas.InvertItem
import Verif.Lemmas.Strip
import Verif.Props.Quote
import Verif.Spec.Relabel
import Verif.Lemmas.Relabel
import Verif.Lemmas.RelabelType
import Verif.Lemmas.RelabelItem
import Verif.Lemmas.RelabelPrint
import Verif.Props.Relabel
import Verif.Lemmas.Nodes
import Verif.Lemmas.Debug
import Verif.Props.Named
import Verif.Props.Nodes
import Verif.Spec.Kind
import Verif.Lemmas.Dispatch
import Verif.Spec.Grammar
import Verif.Lemmas.Grammar
import Verif.Lemmas.GrammarFields
import Verif.Lemmas.GrammarFn
import Verif.Lemmas.GrammarImpl
import Verif.Lemmas.GrammarItem
import Verif.Lemmas.GrammarErr
import Verif.Props.Grammar
import Verif.Props.Kinds
import Verif.Props.Discriminants
import Verif.Spec.Body
import Verif.Props.Bodies
import Verif.Spec.Macro
import Verif.Props.Macros
import Verif.Spec.Path
import Verif.Props.Paths
import Verif.Spec.Constant
import Verif.Props.Constants
import Verif.Spec.Feature
import Verif.Lemmas.Feature
import Verif.Props.Generics
import Verif.Lemmas.FeatureFn
import Verif.Lemmas.FeatureBlock
import Verif.Props.Params
import Verif.Props.Aliases
import Verif.Lemmas.FeatureWhere
import Verif.Props.Where
import Verif.Lemmas.FeatureTuple
import Verif.Props.Tuples
import Verif.Props.Groups
import Verif.Conformance
import Verif.DocTests
import Verif.Lemmas.FeatureFront
import Verif.Props.Derive
import Verif.Props.Independent
import Verif.Spec.Rewrite
import Verif.Lemmas.Rewrite
import Verif.Props.Rewrite
import Verif.Spec.Exact
import Verif.Lemmas.Exact
import Verif.Props.Exact
import Verif.Spec.Outline
import Verif.Props.Spans
import Verif.Spec.Panics
import Verif.Lemmas.Panics
import Verif.Props.Panics
import Verif.Spec.Viable
import Verif.Lemmas.Viable
import Verif.Props.Viable
import Verif.Spec.Places
import Verif.Lemmas.RelabelDebug
import Verif.Props.Places
import Verif.Spec.Revise
import Verif.Lemmas.Revise
import Verif.Props.Revise
import Verif.Spec.Join
import Verif.Props.Join
import Verif.Spec.Parts
import Verif.Props.Parts
import Verif.Spec.Shown
import Verif.Lemmas.Tree
import Verif.Lemmas.Shown
import Verif.Lemmas.Flat
import Verif.Props.Shown
import Verif.Spec.Rust
import Verif.Lemmas.RustType
import Verif.Lemmas.RustPart
import Verif.Lemmas.RustItem
import Verif.Props.Rust
import Verif.Spec.Declared
import Verif.Lemmas.DeclaredFlat
import Verif.Lemmas.Declared
import Verif.Props.Declared
import Verif.Spec.RustPath
import Verif.Lemmas.RustPath
import Verif.Props.RustPath
import Verif.Spec.DeclaredEdit
import Verif.Lemmas.RustFlat
import Verif.Lemmas.DeriveRust
import Verif.Props.DeriveRust
import Verif.Spec.RustRead
import Verif.Lemmas.DeclaredRust
import Verif.Lemmas.RustDeclared
import Verif.Props.RustRead
import Verif.Spec.Built
import Verif.Lemmas.Built
import Verif.Lemmas.BuiltShape
import Verif.Props.Built
import Verif.Spec.Attributes
import Verif.Lemmas.Attributes
import Verif.Props.Attributes
import Verif.Spec.Retype
import Verif.Props.Retype
import Verif.Stream
import Verif.Spec.Stream
import Verif.Lemmas.Stream
import Verif.Props.Stream
import Verif.Spec.Runs
import Verif.Lemmas.Runs
import Verif.Lemmas.Replace
import Verif.Lemmas.ReplaceTokens
import Verif.Props.Runs
import Verif.Count
import Verif.Spec.Size
import Verif.Lemmas.Count
import Verif.Lemmas.Cost
import Verif.Lemmas.Costs
import Verif.Lemmas.CostTypes
import Verif.Lemmas.CostItems
import Verif.Lemmas.CostRec
import Verif.Props.Cost
import Verif.Props.Reports
import Verif.Props.Inserted
import Verif.Spec.Spacing
import Verif.Props.Spacing
import Verif.Spec.Origin
import Verif.Props.Origin
import Verif.Names
import Verif.Props.Names
import Verif.Props.Skeleton
import Verif.Spec.RustFull
import Verif.Lemmas.RustFull
import Verif.Lemmas.RustFront
import Verif.Lemmas.RustRule
import Verif.Props.RustFull
import Verif.Props.Context
import Verif.Machine
import Verif.Spec.Machine
import Verif.Lemmas.Machine
import Verif.Lemmas.MachineFns
import Verif.Lemmas.MachineRec
import Verif.Lemmas.MachinePath
import Verif.Lemmas.MachineOverflow
import Verif.Lemmas.MachineEnds
import Verif.Props.Machine
import Verif.Spec.Calls
import Verif.Lemmas.Calls
import Verif.Props.Calls
import Verif.Spec.Sites
import Verif.Lemmas.Sites
import Verif.Props.Sites
import Verif.Spec.PathText
import Verif.Props.PathText
import Verif.Props.PathSpacing
import Verif.Spec.Ends
import Verif.Props.Ends
import Verif.Props.AttrText
import Verif.Props.PlainEnum
import Verif.Spec.DeriveInput
import Verif.Props.DeriveInput
import Verif.Props.Fragments
import Verif.Props.Sequences
import Verif.Spec.KindInput
import Verif.Lemmas.KindInput
import Verif.Props.KindInput
import Verif.Spec.MemberItem
import Verif.Lemmas.MemberItem
import Verif.Props.MemberItem
import Verif.Lemmas.GenericRust
import Verif.Lemmas.ArrowRust
import Verif.Lemmas.Level
import Verif.Props.GenericRust
import Verif.Lemmas.LevelItem
import Verif.Props.Level
import Verif.Spec.Texts
import Verif.Lemmas.Texts
import Verif.Props.Texts
import Verif.Props.CutItems
import Verif.Props.EditExact
import Verif.Props.DeriveExact
import Verif.Props.RewriteExact
import Verif.Props.FrontExact
import Verif.Props.FunctionEdit
import Verif.Props.FieldPush
import Verif.Props.BlockEdit
import Verif.Props.ConstantEdit
import Verif.Audit
