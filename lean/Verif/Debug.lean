import Verif.Print
import Verif.Error
import Verif.Parser

/-!
# `Debug` and `Display` formatting

Model of the `Debug` implementations of `/repo/src/types.rs:864-1073`, `/repo/src/punctuated.rs:87-95` and
`/repo/src/error.rs:164-184`, of the derived ones, and of those of `proc_macro2` and `core::fmt` that they call.
-/

namespace Venial

/-! ## What is written -/

/-- The calls that a `Debug` implementation makes on its `Formatter`.  A text in `core::fmt`'s vocabulary, rendered by
`Doc.render` (e.g. `/repo/src/types.rs:872-876`, `/repo/src/types.rs:932-945`). -/
inductive Doc where
  /-- `f.write_str(s)` -/
  | text (s : String)
  /-- `unreachable!()`, `/repo/src/types.rs:982` -/
  | unreachable
  /-- `s`, followed by something -/
  | label (s : String) (d : Doc)
  /-- `f.debug_struct(name)`, with a `label` for each field -/
  | struct (name : String) (fields : List Doc)
  /-- `f.debug_tuple(name)` -/
  | tuple (name : String) (fields : List Doc)
  /-- `f.debug_list()` -/
  | list (entries : List Doc)
deriving Repr, Inhabited

/-- A field of a `debug_struct`. -/
def Doc.field (name : String) (value : Doc) : Doc := .label (name ++ ": ") value

mutual
/-- The text that `{:#?}` gives (`core::fmt::builders`, as called at e.g. `/repo/src/types.rs:872-876`).  `pad` is the indentation; `PadAdapter` inserts it after each newline, also in text. -/
def Doc.render (pad : String) : Doc → String
  | .text s => String.ofList (s.toList.flatMap fun c => if c = '\n' then '\n' :: pad.toList else [c])
  | .unreachable => ""
  | .label s d => s ++ d.render pad
  | .struct name [] => name
  | .struct name fields => name ++ " {\n" ++ Doc.renderL (pad ++ "    ") fields ++ pad ++ "}"
  | .tuple name [] => name
  | .tuple name fields => name ++ "(\n" ++ Doc.renderL (pad ++ "    ") fields ++ pad ++ ")"
  | .list [] => "[]"
  | .list entries => "[\n" ++ Doc.renderL (pad ++ "    ") entries ++ pad ++ "]"
/-- The lines of a block, each with a comma (`list.entry(..)`, `/repo/src/types.rs:874`). -/
def Doc.renderL (pad : String) : List Doc → String
  | [] => ""
  | d :: ds => pad ++ d.render pad ++ ",\n" ++ Doc.renderL pad ds
end

mutual
/-- The text that `{:?}` gives (`core::fmt::builders`, as called at e.g. `/repo/src/types.rs:872-876`).  A tuple with one field and without a name ends with a comma. -/
def Doc.oneLine : Doc → String
  | .text s => s
  | .unreachable => ""
  | .label s d => s ++ d.oneLine
  | .struct name [] => name
  | .struct name fields => name ++ " { " ++ Doc.oneLineL fields ++ " }"
  | .tuple name [] => name
  | .tuple name [field] => name ++ "(" ++ field.oneLine ++ (if name.isEmpty then ",)" else ")")
  | .tuple name fields => name ++ "(" ++ Doc.oneLineL fields ++ ")"
  | .list entries => "[" ++ Doc.oneLineL entries ++ "]"
/-- The parts, with a comma between two of them (`list.entry(..)`, `/repo/src/types.rs:874`). -/
def Doc.oneLineL : List Doc → String
  | [] => ""
  | [d] => d.oneLine
  | d :: ds => d.oneLine ++ ", " ++ Doc.oneLineL ds
end

mutual
/-- Whether an `unreachable!()` (`/repo/src/types.rs:982`) is reached.  Every part is written, so one anywhere is reached. -/
def Doc.panics : Doc → Bool
  | .text _ => false
  | .unreachable => true
  | .label _ d => d.panics
  | .struct _ fields => Doc.panicsL fields
  | .tuple _ fields => Doc.panicsL fields
  | .list entries => Doc.panicsL entries
/-- The same for several (`/repo/src/types.rs:982`). -/
def Doc.panicsL : List Doc → Bool
  | [] => false
  | d :: ds => d.panics || Doc.panicsL ds
end

/-! ## Tokens -/

/-- The opening delimiter, as `Display for Group` of `proc_macro2` writes it (called at `/repo/src/parse.rs:64-67`). -/
def Delim.opening : Delim → String
  | .paren => "("
  | .brace => "{ "
  | .bracket => "["
  | .none => ""

/-- The closing delimiter (see `Delim.opening`, `/repo/src/parse.rs:64-67`). -/
def Delim.closing : Delim → String
  | .paren => ")"
  | .brace => "}"
  | .bracket => "]"
  | .none => ""

mutual
/-- `TokenTree::to_string()` (used at `/repo/src/types.rs:883-885`, `/repo/src/types.rs:974`). -/
def TT.display : TT → String
  | .group d stream _ =>
    d.opening ++ TT.displayL stream ++ (if d = .brace && !stream.isEmpty then " " else "") ++ d.closing
  | .ident i => i.sym
  | .punct p => String.singleton p.ch
  | .lit l => l.repr
/-- `TokenStream::to_string()` (`/repo/src/parse.rs:64-67`): a space between tokens, except after a joint punctuation character. -/
def TT.displayL : List TT → String
  | [] => ""
  | [t] => t.display
  | t :: ts => t.display ++ (match t with | .punct p => if p.spacing = .joint then "" else " " | _ => " ") ++ TT.displayL ts
end

/-- How `Debug` for characters and strings writes a character (`char::escape_debug`, called by `Debug for str`, e.g. at `/repo/src/error.rs:180-184`).
Simplification: characters that cannot be printed are not escaped. -/
def escapeChar (quote c : Char) : List Char :=
  if c = '\\' || c = quote then ['\\', c]
  else if c = '\n' then ['\\', 'n']
  else if c = '\r' then ['\\', 'r']
  else if c = '\t' then ['\\', 't']
  else if c = '\x00' then ['\\', '0']
  else [c]

/-- `Debug for String` (derived implementations, e.g. `/repo/src/error.rs:180-184`). -/
def debugString (s : String) : Doc := .text (String.ofList (['"'] ++ s.toList.flatMap (escapeChar '"') ++ ['"']))

/-- `Debug for char` (within `Debug for Punct`, called at e.g. `/repo/src/types.rs:934`). -/
def debugChar (c : Char) : Doc := .text (String.ofList (['\''] ++ escapeChar '\'' c ++ ['\'']))

/-- `Debug for Spacing` of `proc_macro2` (within `Debug for Punct`, called at e.g. `/repo/src/types.rs:934`). -/
def Spacing.debug : Spacing → Doc
  | .alone => .text "Alone"
  | .joint => .text "Joint"

/-- `Debug for Delimiter` of `proc_macro2` (within `Debug for Group`, called at `/repo/src/types.rs:882`). -/
def Delim.debug : Delim → Doc
  | .paren => .text "Parenthesis"
  | .brace => .text "Brace"
  | .bracket => .text "Bracket"
  | .none => .text "None"

/-- `Debug for Punct` of `proc_macro2`, called at e.g. `/repo/src/types.rs:934` (without spans, as in the recorded snapshots). -/
def Punct.debug (self : Punct) : Doc := .struct "Punct" [.field "char" (debugChar self.ch), .field "spacing" self.spacing.debug]

/-- `Debug for Ident` of `proc_macro2`, called at e.g. `/repo/src/types.rs:908`. -/
def Ident.debug (self : Ident) : Doc := .tuple "Ident" [.text self.sym]

/-- `Debug for Literal` of `proc_macro2` (derived implementations, e.g. `/repo/src/types.rs:393-401`). -/
def Lit.debug (self : Lit) : Doc := .struct "Literal" [.field "lit" (.text self.repr)]

mutual
/-- `Debug for TokenTree` of `proc_macro2`, called at e.g. `/repo/src/types.rs:882`. -/
def TT.debug : TT → Doc
  | .group d stream _ => .struct "Group" [.field "delimiter" d.debug, .field "stream" (.label "TokenStream " (.list (TT.debugL stream)))]
  | .ident i => .struct "Ident" [.field "sym" (.text i.sym)]
  | .punct p => p.debug
  | .lit l => l.debug
/-- The tokens of a stream (within `Debug for Group`, `/repo/src/types.rs:882`). -/
def TT.debugL : List TT → List Doc
  | [] => []
  | t :: ts => t.debug :: TT.debugL ts
end

/-- `Debug for Group` of `proc_macro2` (derived implementations, e.g. `/repo/src/types.rs:372-387`). -/
def Group.debug (self : Group) : Doc := self.tt.debug

/-- `Debug for TokenRef`, `/repo/src/types.rs:879-888` -/
def TT.debugRef (self : TT) : Doc :=
  match self with
  | .group .. => self.debug
  | .ident _ => .text self.display
  | .punct _ => .text ("\"" ++ self.display ++ "\"")
  | .lit _ => .text self.display

/-- `format_debug_tokens`, `/repo/src/types.rs:868-877` -/
def debugTokens (tokens : List TT) : Doc := .list (tokens.map TT.debugRef)

/-! ## Helpers -/

/-- `Debug for Option` (e.g. `/repo/src/types.rs:906`). -/
def debugOption {α : Type} (f : α → Doc) : Option α → Doc
  | none => .text "None"
  | some x => .tuple "Some" [f x]

/-- `Debug for [Punct; 2]` (derived implementations, e.g. `/repo/src/types.rs:372-387`). -/
def debugPair (x : Punct × Punct) : Doc := .list [x.1.debug, x.2.debug]

/-- `Debug for Punctuated`, `/repo/src/punctuated.rs:87-95` -/
def Punctuated.debug {α : Type} (f : α → Doc) (self : Punctuated α) : Doc := .list (self.inner.map fun x => f x.1)

/-- `Debug for Vec` (e.g. `/repo/src/types.rs:905`). -/
def debugList {α : Type} (f : α → Doc) (xs : List α) : Doc := .list (xs.map f)

/-! ## The syntax tree -/

/-- `/repo/src/types.rs:1064-1073` -/
def GroupSpan.debug (self : GroupSpan) : Doc :=
  match self.delimiter with
  | .paren => .text "()"
  | .brace => .text "{}"
  | .bracket => .text "[]"
  | .none => .text "Ø"

/-- `/repo/src/types.rs:949-969` -/
def AttributeValue.debug : AttributeValue → Doc
  | .group tk_group value => .tuple "Group" [.list (value.map TT.debugRef), tk_group.debug]
  | .equals tk_equals value => .tuple "Equals" [.list (value.map TT.debugRef), tk_equals.debug]
  | .empty => .text "Empty"

/-- `/repo/src/types.rs:930-947` -/
def Attribute.debug (self : Attribute) : Doc :=
  .struct "Attribute" ([.field "tk_hash" self.tk_hash.debug] ++ (self.tk_bang.toList.map fun p => .field "tk_bang" p.debug) ++
    [.field "tk_brackets" self.tk_brackets.debug, .field "path" (.list (self.path.map TT.debugRef)), .field "value" self.value.debug])

/-- `/repo/src/types.rs:971-985` -/
def VisMarker.debug (self : VisMarker) : Doc :=
  match self.tk_token2 with
  | none => .text self.tk_token1.display
  | some (.group _ stream _) => .tuple self.tk_token1.display (stream.map TT.debugRef)
  | some _ => .unreachable

/-- `/repo/src/types.rs:1019-1023` -/
def GenericBound.debug (self : GenericBound) : Doc := debugTokens self.tokens

/-- `/repo/src/types.rs:1007-1017` -/
def GenericParam.debug (self : GenericParam) : Doc :=
  .struct "GenericParam" ((self.tk_prefix.toList.map fun t => .field "tk_prefix" (debugString t.display)) ++
    [.field "name" (debugString self.name.sym), .field "bound" (debugOption GenericBound.debug self.bound)])

/-- `/repo/src/types.rs:1001-1005` -/
def GenericParamList.debug (self : GenericParamList) : Doc := self.params.debug GenericParam.debug

/-- `/repo/src/types.rs:1052-1056` -/
def TypeExpr.debug (self : TypeExpr) : Doc := debugTokens self.tokens

/-- `/repo/src/types.rs:1058-1062` -/
def ValueExpr.debug (self : ValueExpr) : Doc := debugTokens self.tokens

/-- Derived, `/repo/src/types.rs:630-634`. -/
def Lifetime.debug (self : Lifetime) : Doc := .struct "Lifetime" [.field "tk_apostrophe" self.tk_apostrophe.debug, .field "name" self.name.debug]

/-- Derived, `/repo/src/types.rs:599-615`. -/
def GenericArg.debug : GenericArg → Doc
  | .lifetime l => .struct "Lifetime" [.field "lifetime" l.debug]
  | .binding ident tk_equals ty =>
    .struct "Binding" [.field "ident" ident.debug, .field "tk_equals" tk_equals.debug, .field "ty" ty.debug]
  | .typeOrConst expr => .struct "TypeOrConst" [.field "expr" expr.debug]

/-- `/repo/src/types.rs:1025-1034` -/
def GenericArgList.debug (self : GenericArgList) : Doc :=
  .struct "GenericArgList" ((self.tk_turbofish_colons.toList.map fun _ => .field "tk_turbofish_colons" (debugString "::")) ++
    [.field "args" (self.args.debug GenericArg.debug)])

/-- `/repo/src/types.rs:987-999` -/
def PathSegment.debug (self : PathSegment) : Doc :=
  .struct "PathSegment" ((self.tk_separator_colons.toList.map fun _ => .field "tk_separator_colons" (debugString "::")) ++
    [.field "ident" self.ident.debug] ++ (self.generic_args.toList.map fun args => .field "generic_args" args.debug))

/-- Derived, `/repo/src/types.rs:687-691`. -/
def Path.debug (self : Path) : Doc := .struct "Path" [.field "segments" (debugList PathSegment.debug self.segments)]

/-- `/repo/src/types.rs:1042-1050` -/
def WhereClausePredicate.debug (self : WhereClausePredicate) : Doc := .list (self.toTokens.map TT.debugRef)

/-- `/repo/src/types.rs:1036-1040` -/
def WhereClause.debug (self : WhereClause) : Doc := self.items.debug WhereClausePredicate.debug

/-- The fields that most derived implementations start with (e.g. `/repo/src/types.rs:905-906`). -/
def debugFront (attributes : List Attribute) (vis_marker : Option VisMarker) : List Doc :=
  [.field "attributes" (debugList Attribute.debug attributes), .field "vis_marker" (debugOption VisMarker.debug vis_marker)]

/-- Derived, `/repo/src/types.rs:457-462`. -/
def TupleField.debug (self : TupleField) : Doc :=
  .struct "TupleField" (debugFront self.attributes self.vis_marker ++ [.field "ty" self.ty.debug])

/-- Derived, `/repo/src/types.rs:474-481`. -/
def NamedField.debug (self : NamedField) : Doc :=
  .struct "NamedField" (debugFront self.attributes self.vis_marker ++
    [.field "name" self.name.debug, .field "tk_colon" self.tk_colon.debug, .field "ty" self.ty.debug])

/-- `/repo/src/types.rs:890-894` -/
def TupleFields.debug (self : TupleFields) : Doc := self.fields.debug TupleField.debug

/-- `/repo/src/types.rs:896-900` -/
def NamedFields.debug (self : NamedFields) : Doc := self.fields.debug NamedField.debug

/-- Derived, `/repo/src/types.rs:98-103`. -/
def Fields.debug : Fields → Doc
  | .unit => .text "Unit"
  | .tuple fields => .tuple "Tuple" [fields.debug]
  | .named fields => .tuple "Named" [fields.debug]

/-- Derived, `/repo/src/types.rs:736-740`. -/
def EnumVariantValue.debug (self : EnumVariantValue) : Doc :=
  .struct "EnumVariantValue" [.field "tk_equal" self.tk_equal.debug, .field "value" self.value.debug]

/-- Derived, `/repo/src/types.rs:146-155`. -/
def EnumVariant.debug (self : EnumVariant) : Doc :=
  .struct "EnumVariant" (debugFront self.attributes self.vis_marker ++
    [.field "name" self.name.debug, .field "fields" self.fields.debug, .field "value" (debugOption EnumVariantValue.debug self.value)])

/-- Derived, `/repo/src/types.rs:85-95`. -/
def Struct.debug (self : Struct) : Doc :=
  .struct "Struct" (debugFront self.attributes self.vis_marker ++
    [.field "tk_struct" self.tk_struct.debug, .field "name" self.name.debug,
     .field "generic_params" (debugOption GenericParamList.debug self.generic_params),
     .field "where_clause" (debugOption WhereClause.debug self.where_clause), .field "fields" self.fields.debug,
     .field "tk_semicolon" (debugOption Punct.debug self.tk_semicolon)])

/-- `/repo/src/types.rs:902-914` -/
def Enum.debug (self : Enum) : Doc :=
  .struct "Enum" (debugFront self.attributes self.vis_marker ++
    [.field "tk_enum" self.tk_enum.debug, .field "name" self.name.debug,
     .field "generic_params" (debugOption GenericParamList.debug self.generic_params),
     .field "where_clauses" (debugOption WhereClause.debug self.where_clause), .field "variants" (self.variants.debug EnumVariant.debug)])

/-- `/repo/src/types.rs:916-928` -/
def Union.debug (self : Union) : Doc :=
  .struct "Union" (debugFront self.attributes self.vis_marker ++
    [.field "tk_union" self.tk_union.debug, .field "name" self.name.debug,
     .field "generic_params" (debugOption GenericParamList.debug self.generic_params),
     .field "where_clauses" (debugOption WhereClause.debug self.where_clause), .field "fields" self.fields.debug])

/-- Derived, `/repo/src/types.rs:393-401`. -/
def FnQualifiers.debug (self : FnQualifiers) : Doc :=
  .struct "FnQualifiers"
    [.field "tk_default" (debugOption Ident.debug self.tk_default), .field "tk_const" (debugOption Ident.debug self.tk_const),
     .field "tk_async" (debugOption Ident.debug self.tk_async), .field "tk_unsafe" (debugOption Ident.debug self.tk_unsafe),
     .field "tk_extern" (debugOption Ident.debug self.tk_extern), .field "extern_abi" (debugOption Lit.debug self.extern_abi)]

/-- Derived, `/repo/src/types.rs:425-436`. -/
def FnReceiverParam.debug (self : FnReceiverParam) : Doc :=
  .struct "FnReceiverParam"
    [.field "attributes" (debugList Attribute.debug self.attributes), .field "tk_ref" (debugOption Punct.debug self.tk_ref),
     .field "lifetime" (debugOption Lifetime.debug self.lifetime), .field "tk_mut" (debugOption Ident.debug self.tk_mut),
     .field "tk_self" self.tk_self.debug]

/-- Derived, `/repo/src/types.rs:445-452`. -/
def FnTypedParam.debug (self : FnTypedParam) : Doc :=
  .struct "FnTypedParam"
    [.field "attributes" (debugList Attribute.debug self.attributes), .field "tk_mut" (debugOption Ident.debug self.tk_mut),
     .field "name" self.name.debug, .field "tk_colon" self.tk_colon.debug, .field "ty" self.ty.debug]

/-- Derived, `/repo/src/types.rs:413-417`. -/
def FnParam.debug : FnParam → Doc
  | .receiver p => .tuple "Receiver" [p.debug]
  | .typed p => .tuple "Typed" [p.debug]

/-- Derived, `/repo/src/types.rs:372-387`. -/
def Function.debug (self : Function) : Doc :=
  .struct "Function" (debugFront self.attributes self.vis_marker ++
    [.field "qualifiers" self.qualifiers.debug, .field "tk_fn_keyword" self.tk_fn_keyword.debug, .field "name" self.name.debug,
     .field "generic_params" (debugOption GenericParamList.debug self.generic_params), .field "tk_params_parens" self.tk_params_parens.debug,
     .field "params" (self.params.debug FnParam.debug), .field "where_clause" (debugOption WhereClause.debug self.where_clause),
     .field "tk_return_arrow" (debugOption debugPair self.tk_return_arrow), .field "return_ty" (debugOption TypeExpr.debug self.return_ty),
     .field "tk_semicolon" (debugOption Punct.debug self.tk_semicolon), .field "body" (debugOption Group.debug self.body)])

/-- Derived, `/repo/src/types.rs:313-329`. -/
def Constant.debug (self : Constant) : Doc :=
  .struct "Constant" (debugFront self.attributes self.vis_marker ++
    [.field "tk_const_or_static" self.tk_const_or_static.debug, .field "tk_mut" (debugOption Ident.debug self.tk_mut),
     .field "name" self.name.debug, .field "tk_colon" self.tk_colon.debug, .field "ty" self.ty.debug,
     .field "tk_equals" (debugOption Punct.debug self.tk_equals), .field "initializer" (debugOption ValueExpr.debug self.initializer),
     .field "tk_semicolon" self.tk_semicolon.debug])

/-- Derived, `/repo/src/types.rs:348-358`. -/
def TypeAlias.debug (self : TypeAlias) : Doc :=
  .struct "TypeAlias" (debugFront self.attributes self.vis_marker ++
    [.field "tk_type" self.tk_type.debug, .field "name" self.name.debug, .field "bound" (debugOption GenericBound.debug self.bound),
     .field "tk_equals" (debugOption Punct.debug self.tk_equals), .field "initializer_ty" (debugOption TypeExpr.debug self.initializer_ty),
     .field "tk_semicolon" self.tk_semicolon.debug])

/-- Derived, `/repo/src/types.rs:713-723`. -/
def UseDeclaration.debug (self : UseDeclaration) : Doc :=
  .struct "UseDeclaration" (debugFront self.attributes self.vis_marker ++
    [.field "tk_use" self.tk_use.debug, .field "import_tree" self.import_tree.debug, .field "tk_semicolon" self.tk_semicolon.debug])

/-- Derived, `/repo/src/types.rs:763-781`. -/
def Macro.debug (self : Macro) : Doc :=
  .struct "Macro"
    [.field "attributes" (debugList Attribute.debug self.attributes), .field "name" self.name.debug, .field "tk_bang" self.tk_bang.debug,
     .field "tk_declared_name" (debugOption Ident.debug self.tk_declared_name), .field "tk_braces_or_parens" self.tk_braces_or_parens.debug,
     .field "inner_tokens" (debugList TT.debug self.inner_tokens), .field "tk_semicolon" (debugOption Punct.debug self.tk_semicolon)]

/-- Derived, `/repo/src/types.rs:243-250` and `/repo/src/types.rs:289-296`. -/
def ImplMember.debug : ImplMember → Doc
  | .assocFunction f => .tuple "AssocFunction" [f.debug]
  | .assocConstant c => .tuple "AssocConstant" [c.debug]
  | .assocType t => .tuple "AssocType" [t.debug]
  | .macro m => .tuple "Macro" [m.debug]

/-- Derived, `/repo/src/types.rs:225-238`. -/
def Trait.debug (self : Trait) : Doc :=
  .struct "Trait" (debugFront self.attributes self.vis_marker ++
    [.field "tk_unsafe" (debugOption Ident.debug self.tk_unsafe), .field "tk_trait" self.tk_trait.debug, .field "name" self.name.debug,
     .field "generic_params" (debugOption GenericParamList.debug self.generic_params), .field "bound" (debugOption GenericBound.debug self.bound),
     .field "where_clause" (debugOption WhereClause.debug self.where_clause), .field "tk_braces" self.tk_braces.debug,
     .field "inner_attributes" (debugList Attribute.debug self.inner_attributes), .field "body_items" (debugList ImplMember.debug self.body_items)])

/-- Derived, `/repo/src/types.rs:271-284`. -/
def Impl.debug (self : Impl) : Doc :=
  .struct "Impl"
    [.field "attributes" (debugList Attribute.debug self.attributes), .field "tk_unsafe" (debugOption Ident.debug self.tk_unsafe),
     .field "tk_impl" self.tk_impl.debug, .field "impl_generic_params" (debugOption GenericParamList.debug self.impl_generic_params),
     .field "trait_ty" (debugOption TypeExpr.debug self.trait_ty), .field "tk_for" (debugOption Ident.debug self.tk_for),
     .field "self_ty" self.self_ty.debug, .field "where_clause" (debugOption WhereClause.debug self.where_clause),
     .field "tk_braces" self.tk_braces.debug, .field "inner_attributes" (debugList Attribute.debug self.inner_attributes),
     .field "body_items" (debugList ImplMember.debug self.body_items)]

/-- Derived, `/repo/src/types.rs:798-819`. -/
def ExternBlock.debug (self : ExternBlock) : Doc :=
  .struct "ExternBlock" (debugFront self.attributes self.vis_marker ++
    [.field "tk_unsafe" (debugOption Ident.debug self.tk_unsafe), .field "tk_extern" self.tk_extern.debug,
     .field "extern_abi" (debugOption Lit.debug self.extern_abi), .field "tk_braces" self.tk_braces.debug,
     .field "inner_attributes" (debugList Attribute.debug self.inner_attributes), .field "body_items" (debugList ImplMember.debug self.body_items)])

/-- Derived, `/repo/src/types.rs:832-852`. -/
def ExternCrate.debug (self : ExternCrate) : Doc :=
  .struct "ExternCrate" (debugFront self.attributes self.vis_marker ++
    [.field "tk_extern" self.tk_extern.debug, .field "tk_crate" self.tk_crate.debug, .field "name" self.name.debug,
     .field "tk_as" (debugOption Ident.debug self.tk_as), .field "alias" (debugOption Ident.debug self.alias),
     .field "tk_underscore" (debugOption Ident.debug self.tk_underscore), .field "tk_semicolon" self.tk_semicolon.debug])

/-- Derived, `/repo/src/types.rs:168-188`, given the members. -/
def Module.debug (self : Module) (members : List Doc) : Doc :=
  .struct "Module" (debugFront self.attributes self.vis_marker ++
    [.field "tk_unsafe" (debugOption Ident.debug self.tk_unsafe), .field "tk_mod" self.tk_mod.debug, .field "name" self.name.debug,
     .field "tk_semicolon" (debugOption Punct.debug self.tk_semicolon), .field "tk_braces" (debugOption GroupSpan.debug self.tk_braces),
     .field "inner_attributes" (debugList Attribute.debug self.inner_attributes), .field "members" (.list members)])

mutual
/-- Derived, `/repo/src/types.rs:29-70`. -/
def Item.debug : Item → Doc
  | .struct s => .tuple "Struct" [s.debug]
  | .enum e => .tuple "Enum" [e.debug]
  | .union u => .tuple "Union" [u.debug]
  | .module m members => .tuple "Module" [m.debug (Item.debugL members)]
  | .trait t => .tuple "Trait" [t.debug]
  | .impl i => .tuple "Impl" [i.debug]
  | .typeAlias t => .tuple "TypeAlias" [t.debug]
  | .function f => .tuple "Function" [f.debug]
  | .constant c => .tuple "Constant" [c.debug]
  | .useDeclaration u => .tuple "UseDeclaration" [u.debug]
  | .macro m => .tuple "Macro" [m.debug]
  | .externBlock b => .tuple "ExternBlock" [b.debug]
  | .externCrate c => .tuple "ExternCrate" [c.debug]
/-- The members of a module (within the derived implementation, `/repo/src/types.rs:168-188`). -/
def Item.debugL : List Item → List Doc
  | [] => []
  | i :: is => i.debug :: Item.debugL is
end

/-- `/repo/src/error.rs:180-184` -/
def ErrorMessage.debug (self : ErrorMessage) : Doc := debugString self.message

/-- `/repo/src/error.rs:164-178` -/
def Error.debug (self : Error) : Doc :=
  match self.messages with
  | [m] => .tuple "Error" [m.debug]
  | ms => .tuple "Error" [debugList ErrorMessage.debug ms]

/-- `Debug for Result`, for the results of `/repo/src/parse.rs:59-71` (as in the snapshots of `/repo/src/tests.rs`). -/
def debugResult {α : Type} (f : α → Doc) : Except Error α → Doc
  | .ok x => .tuple "Ok" [f x]
  | .error e => .tuple "Err" [e.debug]

/-- What `{:#?}` of a value gives (as in the snapshots of `/repo/src/tests.rs`). -/
def Doc.pretty (self : Doc) : String := self.render ""

end Venial
