import Verif.Ast

/-!
# Printing

Model of the `quote::ToTokens` implementations, `/repo/src/types.rs:1077-1688`.  `x.to_tokens(&mut tokens)`
appends to `tokens`; the model returns the appended tokens.
-/

namespace Venial

/-- `ToTokens for Option<T>` (from the `quote` crate, used e.g. at `/repo/src/types.rs:1112`). -/
def optTokens {α : Type} (f : α → List TT) : Option α → List TT
  | none => []
  | some a => f a

/-- `self.tk_xxx.to_tokens(tokens)` for an `Option<Ident>` (e.g. `/repo/src/types.rs:1189`). -/
def optIdent : Option Ident → List TT := optTokens (fun i => [.ident i])

/-- `self.tk_xxx.to_tokens(tokens)` for an `Option<Punct>` (e.g. `/repo/src/types.rs:1123`). -/
def optPunct : Option Punct → List TT := optTokens (fun p => [.punct p])

/-- `Option<Literal>` (`/repo/src/types.rs:1360`). -/
def optLit : Option Lit → List TT := optTokens (fun l => [.lit l])

/-- `Option<[Punct; 2]>` (`/repo/src/types.rs:1336-1339`, `1474-1477`). -/
def optPunct2 : Option (Punct × Punct) → List TT := optTokens (fun p => [.punct p.1, .punct p.2])

/-- `GroupSpan::quote_with`, `/repo/src/types.rs:1077-1085` -/
def GroupSpan.quote_with (self : GroupSpan) (inner : List TT) : List TT :=
  [(Group.mk' self.delimiter inner self.span).tt]

/-- `/repo/src/types.rs:1436-1455` -/
def AttributeValue.toTokens : AttributeValue → List TT
  | .group tk_group value => tk_group.quote_with value
  | .equals tk_equals value => .punct tk_equals :: value
  | .empty => []

/-- `/repo/src/types.rs:1419-1434` -/
def Attribute.toTokens (self : Attribute) : List TT :=
  [.punct self.tk_hash] ++ optPunct self.tk_bang ++
    self.tk_brackets.quote_with (self.path ++ self.value.toTokens)

/-- `for attribute in &self.attributes { attribute.to_tokens(tokens); }` (e.g. `/repo/src/types.rs:1109-1111`) -/
def attrsTokens (attributes : List Attribute) : List TT := attributes.flatMap Attribute.toTokens

/-- `/repo/src/types.rs:1457-1462` -/
def VisMarker.toTokens (self : VisMarker) : List TT :=
  [self.tk_token1] ++ optTokens (fun t => [t]) self.tk_token2

/-- `self.vis_marker.to_tokens(tokens)` (e.g. `/repo/src/types.rs:1112`) -/
def visTokens : Option VisMarker → List TT := optTokens VisMarker.toTokens

/-- `/repo/src/types.rs:1500-1507` -/
def GenericBound.toTokens (self : GenericBound) : List TT := .punct self.tk_colon :: self.tokens

/-- `/repo/src/types.rs:1492-1498` -/
def GenericParam.toTokens (self : GenericParam) : List TT :=
  optTokens (fun t => [t]) self.tk_prefix ++ [.ident self.name] ++ optTokens GenericBound.toTokens self.bound

/-- `/repo/src/types.rs:1484-1490` -/
def GenericParamList.toTokens (self : GenericParamList) : List TT :=
  [.punct self.tk_l_bracket] ++ self.params.toTokens GenericParam.toTokens ++ [.punct self.tk_r_bracket]

/-- `/repo/src/types.rs:1582-1588` -/
def TypeExpr.toTokens (self : TypeExpr) : List TT := self.tokens

/-- `/repo/src/types.rs:1590-1596` -/
def ValueExpr.toTokens (self : ValueExpr) : List TT := self.tokens

/-- `/repo/src/types.rs:1559-1564` -/
def Lifetime.toTokens (self : Lifetime) : List TT := [.punct self.tk_apostrophe, .ident self.name]

/-- `/repo/src/types.rs:1521-1541` -/
def GenericArg.toTokens : GenericArg → List TT
  | .lifetime lt => lt.toTokens
  | .binding ident tk_equals ty => [.ident ident, .punct tk_equals] ++ ty.toTokens
  | .typeOrConst expr => expr.toTokens

/-- `/repo/src/types.rs:1509-1519` -/
def GenericArgList.toTokens (self : GenericArgList) : List TT :=
  optPunct2 self.tk_turbofish_colons ++ [.punct self.tk_l_bracket] ++
    self.args.toTokens GenericArg.toTokens ++ [.punct self.tk_r_bracket]

/-- `/repo/src/types.rs:1472-1482` -/
def PathSegment.toTokens (self : PathSegment) : List TT :=
  optPunct2 self.tk_separator_colons ++ [.ident self.ident] ++ optTokens GenericArgList.toTokens self.generic_args

/-- `/repo/src/types.rs:1464-1470` -/
def Path.toTokens (self : Path) : List TT := self.segments.flatMap PathSegment.toTokens

/-- `/repo/src/types.rs:1573-1580` -/
def WhereClausePredicate.toTokens (self : WhereClausePredicate) : List TT :=
  self.left_side ++ self.bound.toTokens

/-- `/repo/src/types.rs:1566-1571` -/
def WhereClause.toTokens (self : WhereClause) : List TT :=
  [.ident self.tk_where] ++ self.items.toTokens WhereClausePredicate.toTokens

/-- `self.generic_params.to_tokens(tokens)` (e.g. `/repo/src/types.rs:1115`) -/
def genericsTokens : Option GenericParamList → List TT := optTokens GenericParamList.toTokens

/-- `self.where_clause.to_tokens(tokens)` (e.g. `/repo/src/types.rs:1118`) -/
def whereTokens : Option WhereClause → List TT := optTokens WhereClause.toTokens

/-- `/repo/src/types.rs:1397-1405` -/
def TupleField.toTokens (self : TupleField) : List TT :=
  attrsTokens self.attributes ++ visTokens self.vis_marker ++ self.ty.toTokens

/-- `/repo/src/types.rs:1407-1417` -/
def NamedField.toTokens (self : NamedField) : List TT :=
  attrsTokens self.attributes ++ visTokens self.vis_marker ++ [.ident self.name, .punct self.tk_colon] ++
    self.ty.toTokens

/-- `/repo/src/types.rs:1138-1144` -/
def TupleFields.toTokens (self : TupleFields) : List TT :=
  self.tk_parens.quote_with (self.fields.toTokens TupleField.toTokens)

/-- `/repo/src/types.rs:1146-1152` -/
def NamedFields.toTokens (self : NamedFields) : List TT :=
  self.tk_braces.quote_with (self.fields.toTokens NamedField.toTokens)

/-- `/repo/src/types.rs:1128-1136` -/
def Fields.toTokens : Fields → List TT
  | .unit => []
  | .tuple fields => fields.toTokens
  | .named fields => fields.toTokens

/-- `/repo/src/types.rs:1610-1615` -/
def EnumVariantValue.toTokens (self : EnumVariantValue) : List TT := [.punct self.tk_equal, self.value]

/-- `/repo/src/types.rs:1170-1180` -/
def EnumVariant.toTokens (self : EnumVariant) : List TT :=
  attrsTokens self.attributes ++ visTokens self.vis_marker ++ [.ident self.name] ++ self.fields.toTokens ++
    optTokens EnumVariantValue.toTokens self.value

/-- `/repo/src/types.rs:1107-1126` -/
def Struct.toTokens (self : Struct) : List TT :=
  attrsTokens self.attributes ++ visTokens self.vis_marker ++ [.ident self.tk_struct, .ident self.name] ++
    genericsTokens self.generic_params ++
    match self.fields with
    | .named _ => whereTokens self.where_clause ++ self.fields.toTokens
    | _ => self.fields.toTokens ++ whereTokens self.where_clause ++ optPunct self.tk_semicolon

/-- `/repo/src/types.rs:1154-1168` -/
def Enum.toTokens (self : Enum) : List TT :=
  attrsTokens self.attributes ++ visTokens self.vis_marker ++ [.ident self.tk_enum, .ident self.name] ++
    genericsTokens self.generic_params ++ whereTokens self.where_clause ++
    self.tk_braces.quote_with (self.variants.toTokens EnumVariant.toTokens)

/-- `/repo/src/types.rs:1214-1226` -/
def Union.toTokens (self : Union) : List TT :=
  attrsTokens self.attributes ++ visTokens self.vis_marker ++ [.ident self.tk_union, .ident self.name] ++
    genericsTokens self.generic_params ++ whereTokens self.where_clause ++ self.fields.toTokens

/-- `/repo/src/types.rs:1182-1197` -/
def Constant.toTokens (self : Constant) : List TT :=
  attrsTokens self.attributes ++ visTokens self.vis_marker ++ [.ident self.tk_const_or_static] ++
    optIdent self.tk_mut ++ [.ident self.name, .punct self.tk_colon] ++ self.ty.toTokens ++
    optPunct self.tk_equals ++ optTokens ValueExpr.toTokens self.initializer ++ [.punct self.tk_semicolon]

/-- `/repo/src/types.rs:1199-1212` -/
def TypeAlias.toTokens (self : TypeAlias) : List TT :=
  attrsTokens self.attributes ++ visTokens self.vis_marker ++ [.ident self.tk_type, .ident self.name] ++
    optTokens GenericBound.toTokens self.bound ++ optPunct self.tk_equals ++
    optTokens TypeExpr.toTokens self.initializer_ty ++ [.punct self.tk_semicolon]

/-- `/repo/src/types.rs:1353-1362` -/
def FnQualifiers.toTokens (self : FnQualifiers) : List TT :=
  optIdent self.tk_default ++ optIdent self.tk_const ++ optIdent self.tk_async ++ optIdent self.tk_unsafe ++
    optIdent self.tk_extern ++ optLit self.extern_abi

/-- `/repo/src/types.rs:1373-1383` -/
def FnReceiverParam.toTokens (self : FnReceiverParam) : List TT :=
  attrsTokens self.attributes ++ optPunct self.tk_ref ++ optTokens Lifetime.toTokens self.lifetime ++
    optIdent self.tk_mut ++ [.ident self.tk_self]

/-- `/repo/src/types.rs:1385-1395` -/
def FnTypedParam.toTokens (self : FnTypedParam) : List TT :=
  attrsTokens self.attributes ++ optIdent self.tk_mut ++ [.ident self.name, .punct self.tk_colon] ++
    self.ty.toTokens

/-- `/repo/src/types.rs:1364-1371` -/
def FnParam.toTokens : FnParam → List TT
  | .receiver param => param.toTokens
  | .typed param => param.toTokens

/-- `/repo/src/types.rs:1323-1351`.  Both the body and the semicolon are printed if both are present. -/
def Function.toTokens (self : Function) : List TT :=
  attrsTokens self.attributes ++ visTokens self.vis_marker ++ self.qualifiers.toTokens ++
    [.ident self.tk_fn_keyword, .ident self.name] ++ genericsTokens self.generic_params ++
    self.tk_params_parens.quote_with (self.params.toTokens FnParam.toTokens) ++
    optPunct2 self.tk_return_arrow ++ optTokens TypeExpr.toTokens self.return_ty ++
    whereTokens self.where_clause ++ optTokens (fun g => [g.tt]) self.body ++ optPunct self.tk_semicolon

/-- `/repo/src/types.rs:1617-1630` -/
def Macro.toTokens (self : Macro) : List TT :=
  attrsTokens self.attributes ++ [.ident self.name, .punct self.tk_bang] ++ optIdent self.tk_declared_name ++
    self.tk_braces_or_parens.quote_with self.inner_tokens ++ optPunct self.tk_semicolon

/-- `/repo/src/types.rs:1301-1310` and `/repo/src/types.rs:1312-1321` -/
def ImplMember.toTokens : ImplMember → List TT
  | .assocFunction function => function.toTokens
  | .assocConstant constant => constant.toTokens
  | .assocType assoc_ty => assoc_ty.toTokens
  | .macro macro_ => macro_.toTokens

/-- `/repo/src/types.rs:1253-1275` -/
def Trait.toTokens (self : Trait) : List TT :=
  attrsTokens self.attributes ++ visTokens self.vis_marker ++ optIdent self.tk_unsafe ++
    [.ident self.tk_trait, .ident self.name] ++ genericsTokens self.generic_params ++
    optTokens GenericBound.toTokens self.bound ++ whereTokens self.where_clause ++
    self.tk_braces.quote_with
      (attrsTokens self.inner_attributes ++ self.body_items.flatMap ImplMember.toTokens)

/-- `/repo/src/types.rs:1277-1299` -/
def Impl.toTokens (self : Impl) : List TT :=
  attrsTokens self.attributes ++ optIdent self.tk_unsafe ++ [.ident self.tk_impl] ++
    genericsTokens self.impl_generic_params ++ optTokens TypeExpr.toTokens self.trait_ty ++
    optIdent self.tk_for ++ self.self_ty.toTokens ++ whereTokens self.where_clause ++
    self.tk_braces.quote_with
      (attrsTokens self.inner_attributes ++ self.body_items.flatMap ImplMember.toTokens)

/-- `/repo/src/types.rs:1598-1608` -/
def UseDeclaration.toTokens (self : UseDeclaration) : List TT :=
  attrsTokens self.attributes ++ visTokens self.vis_marker ++ [.ident self.tk_use] ++
    self.import_tree.toTokens ++ [.punct self.tk_semicolon]

/-- `/repo/src/types.rs:1632-1650` -/
def ExternBlock.toTokens (self : ExternBlock) : List TT :=
  attrsTokens self.attributes ++ visTokens self.vis_marker ++ optIdent self.tk_unsafe ++
    [.ident self.tk_extern] ++ optLit self.extern_abi ++
    self.tk_braces.quote_with
      (attrsTokens self.inner_attributes ++ self.body_items.flatMap ImplMember.toTokens)

/-- `/repo/src/types.rs:1652-1666` -/
def ExternCrate.toTokens (self : ExternCrate) : List TT :=
  attrsTokens self.attributes ++ visTokens self.vis_marker ++
    [.ident self.tk_extern, .ident self.tk_crate, .ident self.name] ++ optIdent self.tk_as ++
    optIdent self.alias ++ optIdent self.tk_underscore ++ [.punct self.tk_semicolon]

/-- The part of `ToTokens for Module` before the members, `/repo/src/types.rs:1230-1236`. -/
def Module.headTokens (self : Module) : List TT :=
  attrsTokens self.attributes ++ visTokens self.vis_marker ++ optIdent self.tk_unsafe ++
    [.ident self.tk_mod, .ident self.name]

/-- `ToTokens for Module` given the printed members, `/repo/src/types.rs:1228-1251`. -/
def Module.toTokens (self : Module) (members : List TT) : List TT :=
  self.headTokens ++
    match self.tk_semicolon with
    | some tk_semicolon => [.punct tk_semicolon]
    | none =>
      match self.tk_braces with
      | some tk_braces => tk_braces.quote_with (attrsTokens self.inner_attributes ++ members)
      | none => []

mutual
/-- `/repo/src/types.rs:1087-1105` -/
def Item.toTokens : Item → List TT
  | .struct s => s.toTokens
  | .enum e => e.toTokens
  | .union u => u.toTokens
  | .module m members => m.toTokens (Item.toTokensL members)
  | .trait t => t.toTokens
  | .impl i => i.toTokens
  | .typeAlias t => t.toTokens
  | .function f => f.toTokens
  | .constant c => c.toTokens
  | .useDeclaration u => u.toTokens
  | .macro m => m.toTokens
  | .externBlock b => b.toTokens
  | .externCrate c => c.toTokens
/-- `for token in &self.members { token.to_tokens(tokens); }`, `/repo/src/types.rs:1245-1247` -/
def Item.toTokensL : List Item → List TT
  | [] => []
  | i :: is => Item.toTokens i ++ Item.toTokensL is
end

/-! ## Defaults -/

/-- `/repo/src/types.rs:1670-1678` -/
def GenericParamList.default : GenericParamList :=
  { tk_l_bracket := Punct.new '<' .alone, params := Punctuated.new, tk_r_bracket := Punct.new '>' .alone }

/-- `/repo/src/types.rs:1680-1688` -/
def WhereClause.default : WhereClause :=
  { tk_where := Ident.new "where", items := Punctuated.new }

end Venial
