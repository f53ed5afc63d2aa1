#!/usr/bin/env python3
"""Writes /verif/properties.jsonl (kept as a script so the list is easy to extend)."""
import json, os, sys
sys.path.insert(0, os.path.dirname(os.path.abspath(__file__)))
from why import WHY
P=[]
def p(title, statement, quantifier, why, anchors):
    i="C%02d"%(len(P)+1)
    P.append(dict(id=i, title=title, statement=statement, quantifier=quantifier, why_tests_cant=WHY.get(i, why), anchors=anchors))

INF="The space of token streams is infinite and nested; unit tests exercise about a hundred literals."
p("Quoting a parsed item gives back the input",
  "If parse_item(ts) returns Ok(item), then item.to_token_stream() is the same token sequence as ts: same tokens, order, delimiters, punctuation spacing and spans (Group::span() for groups). So two inputs that are read as the same item have the same tokens.",
  "every token stream ts accepted by parse_item, every item kind, any nesting", INF,
  ["src/parse.rs: parse_item", "src/types.rs: impl ToTokens for *"])
p("Parsing a quoted well-formed item gives back the item",
  "For every Item whose parts are in the places Rust's grammar puts them (a decidable well-formedness condition), parse_item(item.to_token_stream()) returns Ok of exactly that Item, including every span, spacing and trailing-comma flag.",
  "every well-formed Item value, any nesting of modules and any list lengths", INF,
  ["src/parse.rs: parse_item, consume_item", "src/types.rs: impl ToTokens for Item"])
p("Parse-quote is idempotent",
  "If parse_item(ts) = Ok(item), then parsing item.to_token_stream() succeeds and quoting the result again gives the same tokens as quoting item.",
  "every accepted token stream", INF, ["src/parse.rs: parse_item", "src/types.rs: ToTokens"])
p("Parsing always terminates",
  "parse_item and consume_item return or panic on every finite token stream: every parsing loop consumes at least one token per iteration and recursion only enters strictly nested groups.",
  "every token stream, every nesting depth", "A hang would only show on the particular input that triggers it.",
  ["src/parse.rs", "src/parse_mod.rs: parse_mod", "src/parse_impl.rs: parse_impl_body", "src/parse_type.rs", "src/parse_utils.rs"])
p("No internal unreachable!() is ever hit",
  "For every token stream (without 2^31 `<` in one stream on a machine, see C90), if parse_item, consume_item, TypeExpr::as_path or WhereClausePredicate::parse panics, the panic is one of the input-rejection panics; none of the unreachable!() arms in the parser is executed.",
  "every token stream", "Requires all paths of the parser to be covered.",
  ["src/parse_utils.rs: consume_stuff_until, consume_attributes_with_inner", "src/parse_fn.rs: consume_fn"])
p("consume_item takes a non-empty prefix and leaves the rest untouched",
  "When consume_item returns (Ok or Err), the tokens left in the iterator are a proper suffix of the tokens that were there before, unmodified.",
  "every token stream and every outcome that is not a panic", INF, ["src/parse.rs: consume_item"])
p("consume_item does not depend on tokens it has not reached",
  "If consume_item on ts returns and leaves at least one token, then on ts followed by any further tokens it returns the same value and leaves the same tokens followed by the further ones.",
  "every token stream and every continuation", INF, ["src/parse.rs: consume_item"])
p("parse_item = consume_item + nothing left",
  "parse_item(ts) returns r iff consume_item on ts returns r and leaves no token; if consume_item returns (Ok or Err) but leaves tokens, parse_item panics reporting exactly those tokens.",
  "every token stream", INF, ["src/parse.rs: parse_item"])
p("Err only for complex enum discriminants, located at the value",
  "parse_item returns Err only for an enum declaration in which some variant's discriminant value is followed by something other than a comma or the end; the error holds exactly one message whose span is the span of the first token of that value.",
  "every token stream for which parse_item returns Err", INF,
  ["src/parse_type.rs: consume_enum_discriminant, parse_enum_variants", "src/parse.rs: consume_item"])
p("Single-token discriminants are always accepted",
  "A variant whose discriminant is one token tree (literal, identifier, or a group in any delimiter) is accepted and that token is its value; two or more token trees before the next comma give Err, never a wrong value.",
  "every discriminant token sequence and every surrounding variant list", INF, ["src/parse_type.rs: consume_enum_discriminant", "README.md"])
p("The item kind is determined by the first keyword",
  "After outer attributes and visibility, the first identifier decides the Item variant: struct/enum/union/mod/trait/impl/static/use/type give Struct/Enum/Union/Module/Trait/Impl/Constant/UseDeclaration/TypeAlias respectively, fn gives Function, and an identifier that is none of the item keywords can only give Macro.",
  "every accepted token stream", INF, ["src/parse.rs: consume_item", "src/parse_impl.rs: consume_either_fn_type_const_static_impl"])
p("Ambiguous prefixes are resolved with full rollback",
  "For const/unsafe/extern/default/async prefixes the parser first tries a function; when it is not a function, the item that is returned is the one obtained by parsing from the original position (nothing consumed by the attempt is lost): const NAME gives a Constant, unsafe trait/impl/mod give Trait/Impl/Module with the unsafe token recorded, extern crate and extern blocks give ExternCrate / ExternBlock.",
  "every token stream starting with such a prefix", INF, ["src/parse_fn.rs: consume_fn", "src/parse_impl.rs: consume_either_fn_type_const_static_impl"])
p("Type text is cut exactly at the first top-level separator",
  "A type/bound/expression run ends exactly at the first token that is a separator for its context outside angle brackets, or just before an unmatched closing angle bracket, or at the end; a '>' directly after '-' never counts as a bracket; the captured tokens followed by the remaining tokens are the input.",
  "every token stream and every separator set", INF, ["src/parse_utils.rs: consume_stuff_until"])
p("Fields are the comma-separated segments of the body",
  "For any list of fields whose types are non-empty, angle-balanced and free of top-level commas, a struct, union or enum-variant body made of those fields separated by commas (with or without a trailing comma) parses to exactly those fields in order, with their attributes, visibility, names and types.",
  "every list of fields of any length", INF, ["src/parse_type.rs: parse_tuple_fields, parse_named_fields, consume_field_type"])
p("field_names, field_tokens and field_types agree",
  "For every struct, field_names(), field_tokens() and field_types() have one entry per declared field, in declaration order: for named fields the names, for tuple fields the decimal indices 0..n, for unit structs nothing; all names of a tuple struct are distinct.",
  "every Struct value", INF, ["src/types_edition.rs: Struct::field_names, field_tokens, field_types"])
p("Generic parameters are partitioned by kind",
  "For every parsed struct, enum or union, each generic parameter is exactly one of lifetime / type / const, so get_lifetime_params, get_type_params and get_const_params together return every declared parameter exactly once, each in declaration order.  The same holds of declarations made in any other way whose parameters are each of one kind, as those from the builder calls are; with_param adds its parameter to what the accessor of its kind returns, a lifetime at the front and others at the end, and to nothing else.",
  "every parsed declaration; every declaration whose parameters are of one kind each, and every parameter added to it", INF, ["src/types_edition.rs: get_lifetime_params, get_type_params, get_const_params, GenericParam::is_*"])
p("with_param keeps lifetimes first and everything else in order",
  "with_param puts a lifetime parameter first and any other parameter last, keeps all existing parameters in their order, creates a '<...>' list when there was none, and keeps 'all lifetimes before all other parameters' invariant over any sequence of calls.",
  "every declaration and every sequence of with_param calls", INF, ["src/types_edition.rs: GenericParamList::with_param, implement_common_methods"])
p("Edited declarations still parse to themselves",
  "If a well-formed struct, enum or union is edited with with_param or with_where_predicate (any number of times, well-formed arguments), quoting it gives a stream that parse_item accepts and that yields exactly the edited declaration: no missing or doubled comma. It does so exactly if all the arguments are well formed; a predicate that WhereClausePredicate::parse returned is well formed exactly if its bound has no comma, braces or semicolon outside of angle brackets, its angle brackets match, and it does not begin with braces or a semicolon.",
  "every well-formed declaration and every edit sequence", INF, ["src/types_edition.rs: with_param, with_where_predicate", "src/punctuated.rs: push, insert"])
p("with_where_predicate appends exactly one predicate",
  "with_where_predicate keeps all existing predicates in order, appends the new one last and creates the where clause if absent; nothing else of the declaration changes.",
  "every declaration and every sequence of calls", INF, ["src/types_edition.rs: with_where_predicate, WhereClause::with_predicate"])
p("create_derive_where_clause adds one bound per type parameter",
  "create_derive_where_clause(tr) contains all the predicates of the declaration's where clause plus, for each type parameter in order and for nothing else (no lifetime, no const), the predicate 'Name: tr'; it is well formed whenever the original clause is.",
  "every declaration and every derived trait token stream", INF, ["src/types_edition.rs: create_derive_where_clause"])
p("Inline generic arguments name every parameter once",
  "Quoting as_inline_args() gives '<' then, for each parameter in order, its name (with the apostrophe for lifetimes, without bound and without const) and a comma, then '>'; to_owned_args() never panics for a parsed parameter list and denotes the same arguments: a lifetime argument for each lifetime, a type argument with the name for each other parameter.",
  "every parsed generic parameter list", INF, ["src/types.rs: ToTokens for InlineGenericArgs", "src/types_edition.rs: to_owned_args"])
p("Punctuated behaves like a list with separators",
  "After any sequence of push and insert, items() is the list obtained by the same list operations, len() is its length, punct() yields one comma per item minus the skipped last one, and quoting alternates items and commas, with a trailing comma iff the last pushed item carried one. As a slice, the list has every item with the comma it was given or else the default one.",
  "every history of push/insert calls on any item type", "A history-quantified data structure property.", ["src/punctuated.rs"])
p("Punctuated::insert panics exactly when out of range",
  "insert(index, ..) panics iff index > len(); otherwise the new item is at index, earlier items keep their index and later ones move by one.",
  "every Punctuated value and index", INF, ["src/punctuated.rs: insert"])
p("Visibility markers are pub, pub(...) or crate",
  "Every visibility marker in a parsed item is 'pub', 'pub' followed by a parenthesised group, or 'crate'; so formatting it with Debug never hits its unreachable!().",
  "every parsed item, at every nesting level", INF, ["src/parse_utils.rs: consume_vis_marker", "src/types.rs: Debug for VisMarker"])
p("Every token field holds the token it is named after",
  "In every parsed item each tk_* field holds the corresponding keyword or punctuation (tk_struct is 'struct', tk_colon is ':', commas are ',', brackets have the documented delimiter ...), and the mutually exclusive fields are so (module ';' vs '{}', function body vs ';', trait_ty iff tk_for, alias iff as, type initializer iff '=').",
  "every parsed item, at every nesting level", INF, ["src/types.rs", "src/parse*.rs"])
p("as_path returns the tokens of the type",
  "If TypeExpr::as_path returns Some(path), quoting the path gives back the type's tokens (or the contents of the single invisible group wrapping them).",
  "every TypeExpr", INF, ["src/types_edition.rs: as_path", "src/parse_utils.rs: consume_path", "src/parse_type.rs: consume_generic_args"])
p("as_path recognises every path",
  "For every well-formed Path value (optional leading '::', identifiers, optional generic argument lists with or without turbofish), as_path on its tokens, bare or wrapped in an invisible group, returns exactly that path.",
  "every well-formed Path of any length", INF, ["src/types_edition.rs: as_path, unwrap_invisible_group", "src/parse_utils.rs: consume_path, consume_colon2"])
p("Attribute accessors",
  "get_single_path_segment returns the identifier iff the attribute path contains exactly one identifier, and get_value_tokens returns exactly the tokens inside the group or after '='. For the attributes of an accepted item this is what is written: the item starts with one #[..] per attribute, in order, whose contents are words and colons (the path), and then nothing, '=' and the value tokens, or a group with the value tokens, which determines both; the single segment is the only word of that path.",
  "every Attribute; every attribute of every accepted item", INF, ["src/types_edition.rs: get_single_path_segment, get_value_tokens"])
p("Combined errors are all reported, in order",
  "For any sequence of Error constructions and combine calls, to_compile_error() is the concatenation, in order, of one compile_error!{\"message\"} invocation per message. Each is located at the span or tokens its message was created for; span() and Display are the location and text of the first message, and an error about the tokens of an item is where the item is.",
  "every history of new/new_at_span/new_at_tokens/combine", "History-quantified.", ["src/error.rs"])
p("Errors are never empty",
  "Every Error obtainable from the public API has at least one message, so span(), Display and to_compile_error() never index out of bounds, and Display and span() always refer to the first message, whatever is combined later.",
  "every history of constructor/combine calls", "History-quantified.", ["src/error.rs: span, combine, Display"])
p("static mut declarations parse",
  "A declaration 'static mut NAME: T = value;' parses to a Constant with tk_mut set and name NAME (documented in Constant and listed as an example input).",
  "every name, type and value", INF, ["src/parse_impl.rs: parse_const_or_static", "src/types.rs: Constant"])
p("Generic bounds may contain function arrows",
  "A generic parameter bound containing a top-level '->' (e.g. F: Fn(A) -> B) is captured whole.",
  "every generic parameter list with such a bound", INF, ["src/parse_type.rs: consume_bound, consume_generic_params", "src/parse_utils.rs: consume_stuff_until"])
p("Constant initialisers may contain any expression",
  "A const/static item with an initialiser expression parses and the initialiser is exactly the tokens between '=' and ';' (README: venial accepts any syntactically valid declaration).",
  "every initialiser token sequence", INF, ["src/parse_impl.rs: parse_const_or_static", "src/parse_utils.rs: consume_stuff_until"])
p("Generic parameters may have defaults",
  "A type parameter with a default, 'T = U' or 'T: B = U', is accepted in a generic parameter list.",
  "every generic parameter list", INF, ["src/parse_type.rs: consume_bound"])
p("Type aliases may have generic parameters",
  "'type Name<...> = ...;' parses to a TypeAlias.",
  "every type alias", INF, ["src/parse_impl.rs: consume_ty_definition"])
p("Typed self parameters are recognised",
  "A parameter 'self: T' is recognised as a typed parameter (documented in FnReceiverParam).",
  "every type T", INF, ["src/parse_fn.rs: parse_fn_params", "src/types.rs: FnReceiverParam"])
p("Tuple fields: visibility is separated from the type",
  "For a tuple field the visibility marker is only what precedes the type: 'pub (A, B)' has visibility pub and type (A, B), 'crate::X' has no visibility and type crate::X.",
  "every tuple field", INF, ["src/parse_utils.rs: consume_vis_marker", "src/parse_type.rs: parse_tuple_fields"])
p("Where predicates split at the bound colon",
  "Each predicate 'L: B' of a where clause is split so that left_side = L and the bound tokens = B.",
  "every where clause", INF, ["src/parse_type.rs: consume_where_clause", "src/types_edition.rs: WhereClausePredicate::parse"])
p("Function parameters keep all their tokens",
  "Every token of a function's parameter list is represented in the parsed parameters.",
  "every parameter list", INF, ["src/parse_fn.rs: parse_fn_params"])
p("Module members are the items of its body, in order",
  "For a module with a body, the members are the items obtained by repeatedly calling consume_item on the body after the inner attributes, in order, until the body is exhausted; members parse in a module exactly as they do at top level.",
  "every module, any number of members, any nesting", INF, ["src/parse_mod.rs: parse_mod"])
p("Complex discriminants are reported as errors at any depth",
  "An enum with a complex discriminant makes parse_item return Err also when the enum is inside a module.",
  "every module nesting", INF, ["src/parse_mod.rs: parse_mod"])
p("is_c_enum and get_single_type",
  "is_c_enum() is true iff no variant has fields; get_single_type() is Some(f) iff the variant has exactly one tuple field f. For an accepted enum, is_c_enum() is true iff in the source no word between the braces at its end, other than pub, is directly followed by {..} or (..), as long as no variant is named pub.",
  "every Enum / EnumVariant; every accepted enum", INF, ["src/types_edition.rs: is_c_enum, is_empty_variant, get_single_type"])
p("Item accessors agree with the variant",
  "attributes(), generic_params(), name() and the as_*() methods return the corresponding component of the variant (exactly one as_*() is Some); replacing the attributes through attributes_mut changes only the attribute prefix of the quoted item, and the quoted item always starts with its attributes. The name of a parsed item is the word after its keyword in the source, and Constant::is_static() tells whether that keyword is static or const; constants in impl blocks and traits are never static. A parsed struct, enum, union, trait, function or impl block has generic parameters if and only if < stands at the place for them in the source (after the name; after the word impl), and other items have none.",
  "every Item", INF, ["src/types_edition.rs: impl Item", "src/types.rs: Constant::is_static"])
p("span() locates the item",
  "Without span joining, span() of any node is the span of its first token (call_site when it has none); with joining it is the join of the first and last token's spans.",
  "every node and any behaviour of Span::join", INF, ["src/types_edition.rs: implement_span", "src/lib.rs"])
p("Builder-made generic parameters look like parsed ones",
  "GenericParam::lifetime/bounded_lifetime/ty/bounded_ty/const_param produce a parameter of the named kind which, quoted in a parameter list, is the token sequence the source spelling would give (including the joint spacing of the lifetime apostrophe).",
  "every name and bound", INF, ["src/types_edition.rs: GenericParam::*"])
p("Macro items",
  "name!(...); , name!{...} and macro_rules! n {...} parse to a Macro whose inner_tokens are exactly the tokens of the group; the parenthesised form requires the semicolon, the braced form leaves a following semicolon alone.",
  "every macro invocation", INF, ["src/parse_fn.rs: consume_macro_inner"])
p("Groups rebuilt from GroupSpan",
  "Rebuilding a group from its GroupSpan and its original contents gives the original group (delimiter, contents and span information).",
  "every group", INF, ["src/types.rs: GroupSpan, quote_with", "src/types_edition.rs: GroupSpan::new"])
p("Inner and outer attributes are kept apart",
  "In parsed modules, traits, impls and extern blocks, inner_attributes all have tk_bang and are exactly the leading #![..] attributes of the body; attributes of items, members, fields, variants and parameters never have tk_bang.",
  "every parsed item, at every nesting level", INF, ["src/parse_utils.rs: consume_attributes_with_inner"])
p("Impl and trait bodies only hold supported members",
  "If an impl or trait parses, every member of its body is a function, a const (never a static), a type or a macro; extern blocks additionally allow statics.",
  "every parsed impl/trait/extern block", INF, ["src/parse_impl.rs: parse_impl_body"])
p("Attribute contents are fully represented",
  "All tokens inside the brackets of an attribute are represented in its path and value.",
  "every attribute", INF, ["src/parse_utils.rs: consume_attributes_with_inner"])
p("Parsing depends only on the grammar",
  "Consistently renaming identifiers that are not keywords, replacing literals, replacing punctuation characters that are not part of the item grammar, making joint punctuation alone and moving spans changes the outcome of parsing, quoting, as_path (here spacing has to stay) and WhereClausePredicate::parse only by the same change: the same shape, the same decisions, the same panic.",
  "every token stream and every such change", INF, ["src/parse.rs: parse_item", "src/types.rs: ToTokens", "src/types_edition.rs: TypeExpr::as_path, WhereClausePredicate::parse"])
p("Attributes and visibility are the ones written before the keyword",
  "An accepted item starts with its outer attributes, one after the other, then its visibility, then a word; attributes() has one entry per written attribute, in order, with the written '#', brackets, path and value, and vis_marker is the written visibility (impls and macros have no such field).",
  "every token stream that consume_item accepts", INF, ["src/parse.rs: consume_item", "src/parse_utils.rs: consume_outer_attributes, consume_vis_marker"])
p("The accepted language is a context-free grammar",
  "parse_item returns Ok(item) exactly for the texts that the documented rules derive for that item, Err exactly for enums whose first unreadable variant has a discriminant of several tokens, and panics on every other input; the rules are unambiguous; consume_item takes exactly the longest such text.",
  "every token stream", INF, ["src/parse.rs: parse_item, consume_item", "src/parse_type.rs", "src/parse_fn.rs", "src/parse_impl.rs", "src/parse_mod.rs", "src/parse_extern.rs"])
p("Generic parameters and the rest of a declaration are independent",
  "Exchanging the generic parameter list of a struct, enum, union, trait, impl or function for any other legal list, or none, changes nothing in the result but generic_params: the same item otherwise, the same reported error, or a panic in both cases.",
  "every such declaration and every two parameter lists", INF, ["src/parse_type.rs: consume_generic_params", "src/parse.rs", "src/parse_fn.rs", "src/parse_impl.rs"])
p("Parameter lists and the rest of a function are independent",
  "Exchanging the parameter list of a function for any other legal list changes nothing in the result but params: the same function otherwise, or a panic in both cases.",
  "every function and every two parameter lists", INF, ["src/parse_fn.rs: parse_fn_params, consume_fn"])
p("Where clauses and the rest of a declaration are independent",
  "Writing, leaving out or exchanging the where clause of a struct, enum, union, trait, impl or function changes nothing in the result but where_clause: the same declaration otherwise, the same reported error, or a panic in both cases.",
  "every such declaration and every two where clauses", INF, ["src/parse_type.rs: consume_where_clause", "src/parse.rs", "src/parse_fn.rs", "src/parse_impl.rs"])
p("What a derive macro writes is read back",
  "For every item returned by the parser, the impl that a derive macro builds from its generic_params, get_inline_generic_args and create_derive_where_clause around a trait, with well-formed members, parses again and is exactly that impl, with the item's name and arguments as its self type. It does so exactly if the item is not named `where` and the trait text is complete wherever it is written: before `for`, and as a bound if there is a type parameter.",
  "every parsed struct, enum or union, every trait text and every list of members", INF, ["src/types_edition.rs: create_derive_where_clause, get_inline_generic_args, as_inline_args", "src/parse_impl.rs: parse_impl"])
p("Attributes and visibility and the rest of an item are independent",
  "Exchanging the attributes and the visibility written before an item for any others, or none, changes nothing in the result but these: the same item otherwise, the same reported error, or the same panic. An item that is read back from its tokens is read back with other attributes and another visibility exactly if these are well formed, and a tuple struct whose fields are all made `pub` exactly if none of their types begins with parentheses.",
  "every token stream and every two lists of attributes and visibilities", INF, ["src/parse.rs: consume_item", "src/parse_utils.rs: consume_outer_attributes, consume_vis_marker"])
p("Bodies and heads of items are independent",
  "The text between the braces of an item may be exchanged for that of another item of the same sort (fields, variants, members, items): the result is the first item with the other's body. Function bodies and macro arguments may be exchanged for any tokens whatever.",
  "every two accepted items; every body of a function or macro", INF, ["src/parse.rs", "src/parse_fn.rs: consume_fn", "src/parse_impl.rs", "src/parse_mod.rs", "src/parse_utils.rs: consume_macro"])
p("Items with rewritten types are read back",
  "If every type of a well-formed item, or of a parsed item (but for the exceptions of C03), (of fields, parameters, results, constants, aliases and impl heads, at every depth) is rewritten by a function that gives types (`&T`, `Option<T>`, an invisible group around T, ...), quoting the item and parsing it gives the item with the rewritten types and otherwise the same. One text can take the place of every type of every item exactly if it is not empty, its angle brackets match, it has none of `,` `;` `=` `where` `for` and braces outside of them, and it does not begin with `#`, `<`, `pub`, `crate` or parentheses.",
  "every well-formed or parsed item and every such function", INF, ["src/types.rs: ToTokens", "src/parse.rs: parse_item", "src/parse_utils.rs: consume_stuff_until"])
p("Fragments of declarative macros are read like their contents",
  "When the compiler passes on a visibility, a type or the contents of an attribute that a declarative macro matched as a fragment, that is, as a group without delimiters, the item is parsed as if its contents were written there, and as_path sees through the group.",
  "every item with such fragments", INF, ["src/parse_utils.rs: consume_vis_marker, consume_stuff_until", "src/types_edition.rs: TypeExpr::as_path, unwrap_invisible_group"])
p("Exactly the well-formed items survive quoting",
  "Parsing the tokens of an item gives that item back exactly if it is well formed; and of the items that parsing returns, it can be said exactly which come back when they are quoted and parsed again.",
  "every item and list of items, built by hand or parsed", INF, ["src/types.rs: ToTokens", "src/parse.rs: parse_item, consume_item"])
p("span() of an item is the place of its source",
  "At the top level, a parsed item consists of the very tokens it was read from, each at its place and each group with the span of the group it was read from, so that span() is the span from the first token written to the last. The exceptions are exactly those of quoting: a visibility before an impl or macro, the semicolon after named fields, a static named `mut`. Where spans cannot be joined, span() is that of the first token (after such a visibility).",
  "every token stream that is parsed and every way of joining spans", INF, ["src/types_edition.rs: Item::span", "src/types.rs: ToTokens, GroupSpan"])
p("Panic messages say what is true of the input",
  "Whenever parsing panics, the message is about a place in the input: the end of the stream, or of the contents of a group in it, from some token on. What the message says was expected is not there; what it quotes as found are the very tokens, with their spans, that come next there; where it says that the input ends, there is nothing left. With leftover tokens, exactly these are reported. The only assertion that can fail is the one against `const mut`, and the error of a declaration in a module is that of an enum in it. Not so for two messages: \"found end-of-stream\" for a missing type is also reported before an unmatched `>`, and \"unsupported impl item\" quotes the token after the item it is about.",
  "every token stream on which parse_item, consume_item or WhereClausePredicate::parse panics", INF, ["src/parse.rs: parse_item, consume_item", "src/parse_utils.rs: parse_any_ident, parse_ident, parse_punct", "src/parse_type.rs", "src/parse_fn.rs", "src/parse_impl.rs", "src/parse_mod.rs", "src/parse_extern.rs"])
p("Input that panics is unfinished, or one token is to blame",
  "Whenever parse_item panics, one of two things holds. Either the tokens are the beginning of an item: some tokens can be added after which parse_item returns one. Then the message is true of the end of the input, and quotes no token except a lone name there. Or there is exactly one token to blame: what comes before it can still be completed, but with it parse_item panics whatever comes after, and always with the same message; only when the token comes after a whole declaration does the message list all that is left over. So a message that quotes a token other than a name does not change when tokens are added.",
  "every token stream on which parse_item panics, and everything that could be added to it", INF, ["src/parse.rs: parse_item, consume_item", "src/parse_utils.rs: consume_stuff_until, consume_attributes, consume_vis_marker", "src/parse_type.rs", "src/parse_fn.rs", "src/parse_impl.rs", "src/parse_mod.rs", "src/parse_extern.rs"])
p("What is shown does not depend on where tokens are",
  "Parsing the same tokens at other places of the source has the same outcome. Both times an item or an error is returned, and their {:?} and {:#?} texts are the same, or both times parsing panics, with the same message about the same tokens. So does as_path. Snapshots of parsed items therefore do not change when the source is moved or reformatted.",
  "every two token streams that differ in spans only", INF, ["src/types.rs: Debug implementations", "src/punctuated.rs: Debug", "src/error.rs: Debug", "src/parse.rs: parse_item", "src/types_edition.rs: TypeExpr::as_path"])
p("Revised items are read back",
  "A macro may take a parsed item (but for the exceptions of C03: a static named mut, a macro named pub, crate or where) and, at any depth, remove, reorder, repeat or add attributes, fields, variants, parameters, generic parameters, where predicates and members, rename things, and change visibilities, through the public fields, the slices of Punctuated and its push and insert. What it then quotes is parsed as exactly the revised item: the same elements in the same order with the same printed commas. Nothing is lost, merged or moved.",
  "every token stream that parses, and every revision of the item it is parsed as", INF, ["src/punctuated.rs: Punctuated, Deref, DerefMut", "src/types.rs: ToTokens implementations", "src/parse.rs: parse_item"])
p("Bodies and files can be written one after the other",
  "A file is a sequence of items read by repeated consume_item. Such files can be concatenated: the items of the whole are those of the first part followed by those of the second, and a file can always be cut into pieces that parse_item parses as the same items, one by one. In the same way what is inside the braces of two structs, unions, enums, traits, impls, extern blocks or modules, or in two parameter lists, can be written in one body: the fields, variants, members, items or parameters of the result are those of the first, unchanged, followed by those of the second.",
  "every two token streams that are files, every two items with bodies of the same sort", INF, ["src/parse.rs: consume_item, parse_item", "src/parse_mod.rs: parse_mod", "src/parse_impl.rs: parse_impl_body", "src/parse_type.rs: parse_named_fields, parse_enum_variants", "src/parse_fn.rs: parse_fn_params"])
p("span() of every part of a parsed item is the place of its source",
  "For each part of a parsed item that can be asked for its span() (attributes and their values, visibilities, generic parameter lists, parameters, bounds, where clauses, predicates, fields, field lists, variants, discriminants, types, functions, structs, enums and unions, at every depth), there is a stretch of consecutive tokens in the source, possibly within groups, that are the tokens of the part, and span() goes from the first of these to the last. Each item in a module is what parse_item makes of a stretch of tokens within the module, and its span() is the place of that. A part without tokens, such as the fields of a unit struct, is at the call site. Only InlineGenericArgs are never anywhere in the source: their brackets are new.",
  "every token stream that is parsed as an item, every part of the item, every Span::join", INF, ["src/types_edition.rs: implement_span, InlineGenericArgs::span", "src/types.rs: ToTokens impls", "src/parse.rs: parse_item, consume_item"])
p("What can be told from the {:#?} text of an item",
  "Two parsed items whose source has no line break within a token have the same {:#?} text if and only if they agree in everything that is shown: everything except places, the commas of lists, delimiters and words that are always the same, and, for the tokens of types, values, bounds, predicates, attributes and visibilities outside of groups, whether they are joined to the next and whether they are words, characters or literals. So the text tells the kind of the item, its name, the names of its generic parameters, the number of its attributes, and so on, and nothing within one part of the item can be mistaken for a part of its own. The same holds for paths. The text of an error tells its messages, whatever characters they are made of, and the text of a result tells whether it is an item or an error. The {:?} text has the same characters, with other spaces, line breaks and commas, and is one line.",
  "every two token streams that are parsed as items, every two types that are read as paths", INF, ["src/types.rs: Debug impls, format_debug_tokens, TokenRef", "src/punctuated.rs: Debug for Punctuated", "src/error.rs: Debug for Error"])
p("Rust declarations are accepted",
  "Every item that the grammar of the Rust Reference allows is parsed, without a panic and without an error, and quoting the result gives back its tokens, except for items with one of the constructs that venial does not read: attributes before generic parameters, defaults of generic parameters without a bound, `->` in bounds of generic parameters, tuple fields with `pub` and a type in parentheses, discriminants of more than one token, `static mut`, values with unmatched `<` or `>`, generic type aliases, `self: Type`, patterns, bare types and `...` as parameters, `safe` and qualified statics, macros with `[]` or with a path in place of items, implementations without parameters for a type that starts with `<`, implementations with a visibility (which is read but not given back), and brace macros as types where `{` ends a type. The types, bounds, paths, where clauses, attributes, visibilities and bodies may be of any size and depth.",
  "every token stream that the grammar of Rust items, with these exceptions, derives, with any spacing and places", INF, ["src/parse.rs: parse_item, consume_item", "src/parse_type.rs", "src/parse_fn.rs", "src/parse_impl.rs", "src/parse_mod.rs", "src/parse_utils.rs"])
p("Rust declarations are read as they are meant",
  "What parse_item returns for a Rust item has the parts that the item declares: the kind of item, the attributes, the visibility, the name, each generic parameter with its kind, name and bound, each where predicate, each field with its attributes, visibility, name and type, each variant with its fields and value, each function parameter, the qualifiers, return type and body, the type and value of a constant, the bound and type of an alias, the supertraits, the trait and the type of an impl, the members of traits, impls and extern blocks, and the items of a module, nested to any depth; all in the order in which they are written. In particular a comma, colon, `=` or `for` within a type never ends it, and no text declares two different things. Left out, besides the constructs listed in C71, are tuple fields with a type that starts with `crate` (C37) and impls with another word `for`, outside of angle brackets, in the trait or in the type of an inherent impl, which are misread.",
  "every declaration, that is every choice of parts of a Rust item, and every token stream that is a way to write it", INF, ["src/parse.rs: parse_item, consume_item", "src/parse_type.rs", "src/parse_fn.rs", "src/parse_impl.rs", "src/parse_mod.rs", "src/parse_utils.rs", "src/types.rs"])
p("as_path on the types of Rust",
  "TypeExpr::as_path tells paths from other types. For a Rust path - names separated by `::`, perhaps with a leading `::`, each perhaps with generic arguments `<..>` or `::<..>` that are lifetimes, types, values, bindings `Name = Type` or bounds `Name: Bounds` - it returns a path with exactly these segments and arguments, in order and of these kinds, which prints as it was written; also when the path is in an invisible group. For every other Rust type - references, pointers, tuples, arrays, `!`, function pointers, qualified paths, macros, `impl` and `dyn` types, paths with `(..) -> ..` - it returns None, and does not panic. Not claimed, because false: types that start with `for<..>` or `use<..>`, `impl ::a::B` and `dyn ::a::B` (read as paths), and generic arguments that are bounds starting with a lifetime (panic); and a `::` counts as one only with the spacing it has before a name.",
  "every choice of segments and arguments and every way to write them; every Rust type (of any depth) outside of the exceptions", INF, ["src/types_edition.rs: TypeExpr::as_path", "src/parse_utils.rs: consume_path, consume_colon2", "src/parse_type.rs: consume_generic_args, parse_generic_arg"])
p("What is written from a Rust declaration is Rust",
  "Code that a macro writes from a parsed Rust declaration is Rust again, and means what was intended. (1) Every Rust item quotes to Rust with the same parts. (2) A Rust struct, enum or union after with_param, with any Rust parameter (in particular those of the constructors GenericParam::ty, lifetime, bounded_ty, bounded_lifetime, const_param), quotes to a Rust declaration that differs only in that parameter: a lifetime first, anything else last. (3) After with_where_predicate with any Rust predicate it quotes to a Rust declaration that differs only in that predicate, at the end of the where clause. (4) `impl #generic_params #trait for #name #inline_generic_args #derive_where_clause { .. }` is a Rust implementation of the trait for `Name<'a, T, N,>`, with all parameters of the declaration, under the predicates of the declaration and `T: Trait` for each type parameter `T`. Each of these is parsed again, with exactly these parts.",
  "every Rust item, struct, enum or union, of any size and depth; every Rust parameter, predicate, path of a trait, body", INF, ["src/types_edition.rs: with_param, with_where_predicate, get_inline_generic_args, create_derive_where_clause, GenericParam::ty, lifetime, bounded_ty, bounded_lifetime, const_param", "src/types.rs: ToTokens for Struct, Enum, Union, GenericParamList, WhereClause, InlineGenericArgs", "src/parse.rs: parse_item"])
p("Every Rust item outside two exceptions is read as meant, and everything quoted, edited or derived from it is a Rust item again",
  "Take the grammar of Rust items (as for C71), without tuple fields that start with the word crate and without impls that have `for` outside of angle brackets before or after their own. Every text of this grammar declares exactly one thing; parse_item accepts it and returns just that; quoting the result gives a text of the grammar again; and if the result is a struct, enum or union, then so do with_param, with_where_predicate (for parameters and predicates of the grammar) and the usual derive template.",
  "all token lists of the grammar (all sizes and nestings), all generic parameters, predicates, traits and impl bodies of the grammar", INF, ["src/parse.rs: parse_item", "src/types.rs: ToTokens impls", "src/types_edition.rs: with_param, with_where_predicate, create_derive_where_clause"])
p("An item all of whose parts are Rust, however it was built or edited, is quoted to a Rust item and read back; and what is read from Rust is made of Rust parts",
  "Call an item built from Rust if its keywords and signs are the right ones, its lists are separated by commas, and each of its types, bounds, attributes, names, values and so on is quoted to a text of the Rust grammar (with the exceptions of C75). Every such item, whether parsed, edited through its public fields or put together by hand, is quoted to a Rust item, and parse_item reads the quoted tokens as an item with the same parts. Conversely parse_item returns such an item for every Rust item, and, if no token was dropped or added, only for these. Hence edits that put in Rust parts (push, insert, rearranged slices, new attributes, new generic parameters, with_param, with_where_predicate, new fields, variants, members and module items), in any number, lead from Rust items to Rust items.",
  "all values of the type Item (all kinds, sizes, nestings of modules), all token lists of the grammar", INF, ["src/parse.rs: parse_item", "src/types.rs: Item and all public fields, ToTokens impls", "src/types_edition.rs: attributes_mut, generic_params_mut, with_param, with_where_predicate", "src/punctuated.rs: push, insert"])
p("Taking attributes out of an item at every depth, or adding others, gives an item that is read back exactly; Rust stays Rust",
  "An attribute macro may remove, reorder, replace or add attributes on an item and on its fields, variants, parameters, members, nested items, and items nested in these. Whatever parse_item returned (but for the exceptions of C03), with its outer and inner attributes changed in this way at every depth, is quoted to tokens which parse_item reads as exactly that changed item. If only attributes are filtered out, exactly those to be kept remain, in their order, nothing else changes, and doing it again changes nothing. If the source was a Rust item (C75), so is what is quoted.",
  "all token lists that are read, all functions from lists of attributes to lists of attributes that keep old ones or bring in well-formed (for Rust: Rust) ones, all nestings", INF, ["src/parse.rs: parse_item", "src/types.rs: attributes and inner_attributes fields, ToTokens impls", "src/parse_utils.rs: consume_outer_attributes, consume_inner_attributes"])
p("Other Rust types in place of the types of a Rust item give a Rust item, which is read back with them",
  "A macro may write another type, made from it, in place of each type of fields, parameters, results, constants and statics of a parsed Rust item, at every depth: Option<T>, ::std::sync::Arc<T>, &'a mut T, *const T, [T], a fragment, always the same type, or several of these one after the other. Exactly these types change, each as intended, and nothing else. What is quoted is again a Rust item (C75), declares the parts of the changed item, and is read as an item with just these parts.",
  "all Rust items, all functions on token lists that take Rust types to Rust types (also where a brace would end them) and do not put `crate` or a parenthesis in front, all nestings", INF, ["src/parse.rs: parse_item", "src/types.rs: TypeExpr, ToTokens impls", "src/parse_utils.rs: consume_stuff_until"])
p("Quoting gives exactly the tokens of an item unless a literal has a sign, and such an item is not read back",
  "A token stream cannot hold a literal with a sign, such as Literal::i32_unsuffixed(-1): appending it appends a minus and a literal without sign. Items parsed from a stream have no such literal, at any depth, so the stream they are quoted to has exactly the tokens of their parts; this stays so after adding generic parameters and predicates without such literals, and the names of fields and inline arguments never have one. A well-formed item built by hand is read back from the stream it is quoted to if and only if it has no literal with a sign; with one, it is read back with the minus and the rest of the literal apart, as a different item, if and only if the literal is not the discriminant of a variant or the name of an ABI; `enum E { A = -1 }` is not even accepted. as_path, which makes a stream of the type's tokens, is affected in the same way: not at all for types without such literals, and otherwise the path has the literals split.",
  "all token streams, all items including those built by hand, any number of added parameters and predicates", INF, ["src/types.rs: ToTokens impls", "src/parse.rs: parse_item, consume_item", "src/types_edition.rs: with_param, with_where_predicate, Struct::field_tokens", "src/parse_utils.rs: tokens_from_slice"])
p("Rewriting the uninterpreted tokens of an item gives an item that is read back",
  "Take an item that is well formed or was parsed (but for the exceptions of C03), and rewrite all the tokens in it that venial does not interpret, at every depth: types, bounds, both sides of where predicates, initialisers, function bodies, arguments of attributes and macros, use trees. If the rewriting keeps non-empty runs non-empty, does not put in a token that would end a run, keeps angle brackets matched and does not put a misleading token first, then quoting the new item and parsing it gives exactly the new item. This covers the usual rewritings of attribute macros: giving all tokens another span, renaming an identifier (to anything but pub, crate, where, for), replacing an identifier such as Self by a fragment, everywhere. Replacing literals in the parts, apart from discriminants and names of ABIs, is replacing them in the quoted tokens.",
  "all well-formed items and all parsed items, all rewritings that satisfy the four conditions, all identifiers, replacements and spans", INF, ["src/parse.rs: parse_item", "src/types.rs: ToTokens impls, TypeExpr, ValueExpr, GenericBound, WhereClausePredicate, AttributeValue, Function::body, Macro::inner_tokens"])
p("Parsing is linear in operations and quadratic in copied tokens",
  "Whatever it returns, parse_item asks its token iterators for tokens, clones them, puts them back and makes them at most 64 n + 113 times altogether, where n is the number of tokens at every depth; so it terminates, and nesting or look-ahead never makes it exponential. consume_item does fewer than 64 such operations for each token that it takes, however much comes after the item. The tokens copied by cloning and making iterators are at most (64 n + 113) n. Reading a whole file item by item with consume_item takes at most 64 n operations and copies at most 64 n n tokens, however many items there are. This square is reached: a module with k functions has 4 k + 3 tokens and copies at least 2 k (k + 1) of them. The same holds, with smaller constants, for WhereClausePredicate::parse and TypeExpr::as_path.",
  "all token streams, whether accepted, rejected or panicking", INF, ["src/parse.rs: parse_item, consume_item", "src/parse_utils.rs: consume_colon2, consume_attributes_with_inner, consume_stuff_until", "src/parse_fn.rs: consume_fn, consume_macro", "src/parse_type.rs: consume_generic_args", "src/types_edition.rs: WhereClausePredicate::parse, TypeExpr::as_path"])
p("Reported errors are items and do not disturb what they are emitted with",
  "For every history of error constructions and combine calls, to_compile_error() is a sequence of Rust items, read by venial as one compile_error macro for each message, in order, with the literal of the message as its body. It may be emitted before or after any items, or at the end of the body of a trait, impl, extern block or module: everything else is read as without it. parse_item reads it as an item if and only if there is exactly one message, as in the errors that parse_item returns itself, and panics at the second message otherwise. Two errors for which the same is emitted have the same messages at the same places.",
  "every history of new/new_at_span/new_at_tokens/combine, all sequences of items, all items with a body", INF, ["src/error.rs: Error::to_compile_error, ErrorMessage::to_compile_error, Error::combine", "src/parse.rs: parse_item, consume_item", "src/parse_fn.rs: consume_macro"])
p("The editing calls put their tokens in one place and leave the rest of the text alone",
  "Compare the tokens of a struct, enum or union before and after an editing call. with_param writes <p> after the name if there are no generic parameters; otherwise a lifetime is written right after the <, with a comma if other parameters follow, and anything else right before the >, after a comma if one is missing. with_where_predicate writes where p before the body (after the fields of struct S(..)), or the predicate at the end of the where clause that is there, after a comma if one is missing. All other tokens stay the same, in the same order, with their spans; the commas that are put into parsed declarations are plain ones. Over any sequence of calls no token is lost. Adding a parameter and adding a predicate commute. get_inline_generic_args writes the new parameter in the same place.",
  "all structs, enums and unions, parsed or built, all parameters and predicates, all sequences of calls", INF, ["src/types_edition.rs: with_param, with_where_predicate, GenericParamList::with_param, WhereClause::with_predicate, get_inline_generic_args", "src/punctuated.rs: push, insert, ToTokens for Punctuated", "src/types.rs: ToTokens for Struct, Enum, Union"])
p("Parsing does not depend on spacing",
  "Punctuation characters are joint or alone. Streams that differ in this only, at any depth, are treated alike by parse_item and WhereClausePredicate::parse: both are read, and the items differ in the spacing of the tokens in them only and are quoted as streams that differ in spacing only; or both are refused with the same error; or both make the parser panic, with messages that differ in spacing only. In particular - > is read as ->. Only as_path looks at spacing: a::b is a path of two segments and a: :b is no path.",
  "all pairs of token streams that differ in spacing only", INF, ["src/parse.rs: parse_item", "src/parse_utils.rs: parse_punct", "src/parse_utils.rs: consume_colon2, consume_path", "src/types_edition.rs: WhereClausePredicate::parse", "src/types_edition.rs: TypeExpr::as_path"])
p("No token is made up",
  "Every token of a parsed item, at any depth, was copied from the input with its text, spacing and span (groups: delimiter and span), except for commas that were missing in the input. Every token of a declaration that was parsed and then edited with any sequence of with_param and with_where_predicate calls, of its inline generic arguments and of the where clause made for a derived trait was copied from the input, an argument of a call or the trait, or is one of a plain , < > : or where at the call site. Parameters made by the constructors of GenericParam hold the name, the given tokens and only ' : and const besides. Paths are made of tokens of the type. Reported errors hold compile_error, ! and the text of a message, at the places of the message. In particular venial makes up no identifiers but where, const and compile_error, so names keep their hygiene.",
  "all token streams, all sequences of editing calls and all arguments, all traits, all errors", INF, ["src/parse.rs: parse_item, consume_item", "src/types.rs: ToTokens, InlineGenericArgs", "src/types_edition.rs: with_param, with_where_predicate, create_derive_where_clause, GenericParam, TypeExpr::as_path", "src/error.rs: to_compile_error"])
p("Names: which are refused, and that no others are made",
  "GenericParam::lifetime, bounded_lifetime, ty, bounded_ty and const_param return if and only if the name is an identifier; otherwise they panic, in particular for a lifetime with its apostrophe, for raw names (r#type), for the empty name and for the numbers that field_names gives for tuple structs. If all tokens of the input and of the arguments exist (identifiers are spelled as such, punctuation has one of the known characters), so do all tokens of parsed items, of edited declarations, of inline arguments, of where clauses for a trait, of constructed parameters and of reported errors: no other call of venial can panic in Ident::new or Punct::new.",
  "all names, all token streams, all sequences of editing calls, all tables of identifier characters that agree with ASCII", INF, ["src/types_edition.rs: GenericParam::lifetime, bounded_lifetime, ty, bounded_ty, const_param, Struct::field_names", "src/error.rs: to_compile_error", "src/types.rs: WhereClause::default"])
p("The derive macro shown in the documentation",
  "The macro my_derive of the documentation of Error, whatever its author does with structs, panics exactly when parse_item does. On every Rust item it returns: for a struct what its author returns, or the report of the error its author returns; for everything else exactly one compile_error at the place of the whole item as it stood in the input; for an enum with an unsupported value, exactly one compile_error at that value. What it returns for a Rust item is a sequence of Rust items if what its author returns is, in particular if its author writes an impl with InlineGenericArgs and create_derive_where_clause.",
  "all token streams, all Rust items, all functions from structs to tokens or an error, all ways of joining spans", INF, ["src/error.rs: Error (documentation), new_at_span, to_compile_error", "src/parse.rs: parse_item", "src/types_edition.rs: Item::span, get_inline_generic_args, create_derive_where_clause"])
p("The README's rule of thumb",
  "Every Rust item that compiles under #[cfg(FALSE)] is parsed without panicking; the one exception are enums with values of several tokens, for which there is an error that says so. This is proved for Rust without twenty listed constructs, and it is proved false for each of these: there is an item that uses this construct and none of the others on which the parser panics. For enums the exception is proved as documented, for any expressions as values, if the enum is not in a module; in a module the parser panics. A twenty-first construct, an implementation with a visibility, is parsed but the visibility is not given back.",
  "all token lists in the grammar of Rust items of the Reference, nested to any depth; all of the listed constructs", INF, ["README.md: the rule of thumb", "src/parse.rs: parse_item, consume_item", "src/parse_type.rs: parse_enum_variants"])
p("Members can be exchanged at any depth without effect on anything else",
  "In a file that is read, any run of consecutive items, at the top level or between members of a module at any depth of modules, has a text of its own there: this part of the input is read as exactly these items when given to the parser alone. Replacing it by the text of any other items gives a file that is read as the same items with the other ones in this place; all other items, and the attributes, names and spans of the modules around, are what they were. Either run may be empty, so items can be removed and added in this way. The same holds for runs of members of traits, impls and extern blocks, wherever they are. The one condition, which is necessary, is that neither the new items nor those after them start with a macro called `where`.",
  "every file, every path through its nested modules, every run of items or of block members at the end of the path, and every text of items or members put in its place", INF, ["src/parse.rs:consume_item", "src/parse.rs:parse_item", "src/parse_mod.rs:parse_mod", "src/parse_impl.rs:parse_impl", "src/parse_impl.rs:parse_trait", "src/parse_extern.rs:parse_extern_block"])
p("The parser as it runs: iterators, loops and an i32 counter",
  "With the iterators of the code (a stream and a slot for the token peeked at), its loops and recursion without any bound, and its 32-bit counter of open angle brackets, parsing an item, a where predicate or the path of a type ends for every input, in debug and in release builds, whatever the number of tokens. For every input in which no stream, the whole one or one in a group, has 2^31 or more `<` (those in groups within it not counted), however many tokens there are, it gives what the model that all other properties are about gives, the same in both builds; the counter does not overflow and no unreachable!() is reached. When an item is read from an iterator it makes no difference whether the caller has peeked at it, and the iterator is left at the token after the item. In a debug build, whatever the number of tokens, the run gives what the model gives unless the counter overflows (which is then the panic), and no unreachable!() is reached. The limit is needed: for `use` followed by 2^31 or more `<`, whatever comes after, a debug build panics with an overflow and a release build reaches an unreachable!().",
  "every token stream without 2^31 `<` in one stream, every state of the iterator, both builds; every token stream for termination and for debug builds; for the overflow every stream that starts with `use` and 2^31 or more `<`", INF, ["src/parse.rs:parse_item", "src/parse.rs:consume_item", "src/parse_utils.rs:consume_stuff_until", "src/parse_utils.rs:TokenIter", "src/types_edition.rs:WhereClausePredicate::parse", "src/types_edition.rs:TypeExpr::as_path"])
p("How deep calls nest",
  "The functions that parse items call each other for the members of modules and blocks, so that the stack they need depends on the input. With room for n such calls at the same time, parsing runs out of room or does what it does with unlimited room. It runs out exactly if the item that is read needs more than n calls: one for an item, one more than the member that needs most for a module, two for a trait, impl or extern block with members, and one for an input that is answered with an error. One more call than groups are nested in the input is always enough, whatever the length of the input and of its lists; and n modules nested in each other need n + 1 calls, so that a crate with deep nesting can exhaust the stack.",
  "every token stream and every limit on the number of nested calls", INF, ["src/parse.rs:consume_item", "src/parse_mod.rs:parse_mod", "src/parse_impl.rs:parse_impl", "src/parse_impl.rs:parse_trait", "src/parse_impl.rs:consume_either_fn_type_const_static_impl", "src/parse_extern.rs:parse_extern_block"])
p("No token is moved or doubled, and quoting does not blow up",
  "Written one after the other with those inside groups after the group, the tokens of a parsed item are tokens of the input in the same order, none of them twice, except for commas that were missing in the input and the mut of static mut:, of which there are at most as many as the input has places for them. Without such places the text of the item is left when some tokens of the input are crossed out, and none is crossed out unless the input has a place where quoting drops tokens (after the group in an attribute, a visibility before impl or a macro, a reference or lifetime before a typed parameter, a semicolon after the braces of a struct). No token but these is there more often than in the input; quoting gives at most as many tokens more than the input as there are such places, and at most twice as many as the input.",
  "all token streams that parse_item or consume_item accepts", INF, ["src/types.rs: ToTokens impls", "src/parse.rs: parse_item, consume_item", "src/punctuated.rs: Punctuated::push"])
p("For every type it is known whether as_path returns a path, returns none or panics",
  "TypeExpr::as_path returns a given path exactly on the texts of that path: its own tokens, bare or as the one invisible group that makes up the type, where one more comma may stand before a `>` that comes right after a comma or after its `<`. A text is the text of one well-formed path only, and the tokens of the path returned are those of the type if and only if there is no such extra comma. as_path panics exactly on the types that begin with whole segments and then have generic arguments that cannot be read: a `<` without its `>`, an argument that starts with an apostrophe and is not a lifetime, or a comma in the place of an argument with no `>` after it. On all other types it returns none.",
  "every type expression (any sequence of token trees, nested without bound) and every path value", INF, ["src/types_edition.rs: TypeExpr::as_path", "src/parse_utils.rs: consume_path, consume_colon2", "src/parse_type.rs: consume_generic_args, parse_generic_arg, consume_lifetime"])
p("How every accepted item begins and ends",
  "Whatever parse_item does not refuse begins with `#` or a word, and its last token is given by the kind of the item: the `;` that is recorded in it (constants, type aliases, use and extern crate declarations, functions without a body, structs, modules and macros that have one), or else a group in braces; only tuple structs may end with their group in parentheses. Errors are only reported for texts that end with a group in braces. The same holds for what consume_item takes from the front of a stream, except for a tuple struct with a where clause and no `;` that is followed by a group in braces. So parse_item panics on every input that ends with anything else, such as the invisible group of a fragment that a macro by example was given (a block for the body of a function, an item), whatever is in it, and consume_item panics on every input that begins with a group; while as the value of a constant an invisible group is accepted whatever is in it.",
  "every sequence of token trees, nested without bound, with every content of the groups", INF, ["src/parse.rs: parse_item, consume_item", "src/parse_fn.rs: consume_fn, consume_macro", "src/parse_impl.rs: parse_const_or_static"])
p("What a derive macro is given is parsed, but for six constructs",
  "Take every struct, enum or union of the Rust grammar, with its attributes and visibility: these are the items that the compiler hands to derive macros. If it uses none of six constructs (attributes on a generic parameter; a default of a type parameter without bounds; a return type in a bound between angle brackets; a tuple field whose type is in parentheses after pub; a tuple field whose type begins with crate; a type macro in braces in a where clause), then parse_item does not panic. It returns a struct or union with the same tokens as the source. It returns an enum with the same tokens, or, if a variant has a value of more than one token tree, possibly the error that says so instead. Of the constructs in which Rust goes beyond what the parser follows, only these seven can occur in such an item. For each of the six there is a struct with that construct alone on which parse_item panics, and for the last there is a unit struct that is silently read as a struct with named fields.",
  "every text of the grammar of structs, enums and unions, of any length and nesting, and every choice of constructs", INF, ["src/parse.rs: parse_item", "src/parse_type.rs: consume_generic_params, consume_where_clause, parse_tuple_fields, parse_enum_variants", "src/parse_utils.rs: consume_vis_marker"])
p("For each kind of item, the constructs that cannot be parsed in it",
  "For each of the thirteen kinds of item there is a list of Rust constructs (out of the 21 in which Rust goes beyond what the parser follows). An item of that kind, with its attributes and visibility, that has none of the constructs of its list is parsed by parse_item without a panic or an error, as an item of that kind, and quoting the result gives back its tokens, whatever else of Rust is in it. No list can be shortened: for each kind and each construct of its list there is an item of that kind, with that construct and no other of the 21, on which parse_item panics; only for the value of an enum variant there is an error instead, and for the visibility of an implementation the item is parsed but the visibility is not given back. The lists: for use declarations and extern crates none; for unions attributes, plain defaults and return types in generic parameters, and type macros in braces; for structs these, and tuple fields with parenthesised types after pub or types beginning with crate; for enums these, and long values; for functions those of unions, and typed self, patterns, variadic parameters, types without names, and safe; for constants and statics values with angle brackets, safety words and static mut; for type aliases generic parameters and a where clause before the type; for macros square brackets, paths, and the names default and union; for traits those of functions, type aliases, macros, and values with angle brackets; for extern blocks these and static mut; for implementations those of traits, and types beginning with a qualified path, and a visibility; for modules all.",
  "every kind of item, every text of the grammar of that kind, of any length and nesting, and every choice of constructs", INF, ["src/parse.rs: parse_item, consume_item", "src/parse_type.rs: consume_bound, consume_generic_params, consume_where_clause, parse_tuple_fields, parse_enum_variants", "src/parse_fn.rs: consume_fn_qualifiers, parse_fn_params, consume_fn_return, consume_fn, consume_macro", "src/parse_impl.rs: consume_either_fn_type_const_static_impl, parse_const_or_static, consume_ty_definition, parse_impl_body, parse_impl, parse_trait"])
p("Members of a block are read as items are",
  "What is in the braces of a trait, an implementation or an extern block (after its inner attributes) is read exactly if it consists of texts, one after the other, each of which parse_item, given that text alone, reads as a function, constant, static, type alias or macro; the members are then these declarations, field by field the same, in this order. There are three differences: a static may only be in an extern block; a macro may not have a visibility, which parse_item drops; and a macro may be named struct, enum, union, mod, trait, impl or use, which parse_item panics on. If something in the block is none of these, as a struct, or static mut, the whole block panics, whatever comes after it.",
  "every block with any members, every text in the braces of one, of any length and nesting", INF, ["src/parse_impl.rs: parse_impl_body, consume_either_fn_type_const_static_impl, parse_impl, parse_trait", "src/parse_extern.rs: parse_extern_block", "src/parse.rs: parse_item, consume_item"])
p("The generic parameters of an accepted declaration are those written, and none is silently dropped",
  "If a struct, enum, union, trait, impl block or function whose generic parameters are ones of the Rust Reference (with attributes, defaults, bounds, lifetimes and constants) is read at all, then none of these parameters has attributes, a default without a bound, or a `->` outside of angle brackets and groups, and the generic_params of the result are the list written, from `<` up to the `>` that closes it. Every such declaration with an attribute on a parameter, with a default without a bound, or with an arrow in a bound is refused by a panic, whatever follows, and not misread.",
  "all token streams that start with attributes, a visibility and the head of a declaration and go on with any generic parameter list of the Reference, whatever comes after it", INF, ["src/parse_type.rs: consume_generic_params, consume_bound", "src/parse.rs: parse_item"])
p("The angle brackets of an accepted declaration match",
  "In a declaration that parse_item accepts, or rejects with an Error, each `>` outside of groups that is not part of an arrow `->` closes a `<` that comes before it; a `>` that closes nothing is always refused by a panic, wherever it is. In the end as many are closed as opened, with one exception: one more may be opened if the `>` that closes the generic parameters of the declaration comes directly after a `-`.",
  "all token streams for which parse_item returns, and all of their prefixes", INF, ["src/parse_utils.rs: consume_stuff_until", "src/parse_type.rs: consume_generic_params, consume_bound, consume_where_clause", "src/parse_impl.rs: consume_ty_definition", "src/parse.rs: parse_item"])
p("The angle brackets of each type, bound and value of a parsed item match, so that it can be written between angle brackets",
  "In every type, bound, where predicate, value and `use` tree of an item that was parsed, at every depth, each `>` outside of groups that is not part of an arrow closes a `<` of the same text, and each `<` is closed, except in the type of the last field or parameter of a list without a comma after it. A type that is no such exception and does not end in `-` can be written between the angle brackets of another one: `type A = B<ty>;` and `struct N { f: B<ty> }` are read with the whole of `B<ty>`. The exceptions are real: `struct S { a: A<u8 }` is accepted.",
  "all token streams for which parse_item or consume_item returns an item, and all the types, bounds and values in it", INF, ["src/parse_utils.rs: consume_stuff_until", "src/parse.rs: parse_item", "src/parse_type.rs: consume_field_type", "src/types.rs: TypeExpr, GenericBound, ValueExpr, WhereClausePredicate"])
p("A file can be cut into items in one way only",
  "If parse_item does not refuse some tokens, and does not refuse them with more tokens after them either, then the first are a struct with fields and without a semicolon, and what is added is one `;`, or, for a tuple struct without a where clause, a where clause and `;`; the result is the same struct with these, and all such texts are accepted. consume_item takes as much as it can: what it takes, with any number of the next tokens, is refused. So two ways to cut the same tokens into pieces that parse_item accepts one by one are the same, if no piece begins with the word `where`. That condition is needed: `struct S(u8) where! {} static X: u8;` is accepted as one item, and so are its three parts.",
  "all token streams and all ways to cut them into any number of pieces", INF, ["src/parse.rs: parse_item, consume_item", "src/parse_type.rs: consume_where_clause"])
p("Exactly these changes of a function are read back",
  "Take a function that is the same when quoted and parsed. It may be renamed, and the qualifiers default, const, async, unsafe and extern be added or taken away, and it is still read back, exactly if there is no ABI without extern. It may be given another result type exactly if the angle brackets of this match and there are no braces, `where` or semicolon outside of them; or none. It may be given any braces as its body, or a semicolon. A parameter `name: T` may be inserted first exactly if the name is neither `self` nor `mut` and T is not empty, has no comma outside of angle brackets, closes none that it does not open, and, if there are other parameters, closes all that it opens; a receiver always.",
  "all functions that are read back, all names, qualifiers, types, bodies and parameters", INF, ["src/types.rs: Function, ToTokens", "src/parse_fn.rs: parse_fn_params, consume_fn_return, consume_fn", "src/punctuated.rs: insert"])
p("Exactly these fields and variants can be added",
  "Pushing a field `name: T` on the named fields of a struct or union that is read back from its tokens gives one that is read back exactly if the types of the fields it had are complete (the last may have had an unclosed `<`, as in `struct S { a: A<B }`, and a field after it would become part of its type), the name is not `pub` or `crate`, and T is not empty, has no comma outside of angle brackets and closes none that it does not open. For a tuple struct there is no name, and T must not begin with `#`, `pub` or `crate`. For a parameter pushed to a function the conditions are the same, with a name other than `self` and `mut`. Pushing a variant on an enum that is read back gives one that is read back exactly if the variant is well formed, which for one without fields, with or without a value, means that it is not named `pub` or `crate`.",
  "all structs, unions and enums that are read back, all names, types, variants", INF, ["src/punctuated.rs: push, ToTokens", "src/parse_type.rs: parse_named_fields, parse_enum_variants, consume_field_type", "src/types.rs: NamedField, EnumVariant"])
p("Exactly these members can be put into a block",
  "Take an impl, trait or extern block that is read back from its tokens, and give it other members. It is read back exactly if it is with each of them alone: members do not depend on their number, order or neighbours. Which members these are does not depend on the block, except that statics are for extern blocks: they are the functions, constants and associated types that are read back as items of their own, and macros (at least those that are read back as items; inside a block a macro may also be named like a word that begins an item). A module with braces is read back with other items exactly if each of these is read back alone and no tuple struct that has neither a semicolon nor a where clause comes just before a macro named `where`. The same holds for files, items quoted one after the other; so two files that are read back can be joined unless the last item of the one and the first of the other are such a pair.",
  "all blocks that are read back and all lists of members", INF, ["src/parse_impl.rs: parse_impl, parse_impl_body, parse_trait, consume_either_fn_type_const_static_impl", "src/types.rs: Impl, Trait, ExternBlock, ToTokens"])
p("Exactly these changes of constants, aliases, imports and heads of implementations are read back",
  "Take an item that is read back from its tokens. A constant or static may be given another type exactly if the angle brackets of this match and there is no `=` or `;` outside of them; another value exactly if it is not empty, its angle brackets match (so `a < b` is not a value) and there is no `;` outside of them; or none. It may be made a static or a constant and renamed, except to `mut`, and a constant not to `fn`, `async`, `unsafe` or `extern`. An alias may be given another type and an import another tree exactly if angle brackets match and there is no `;` outside of them. An implementation may be made one of a trait T exactly if the angle brackets of T match, there are no braces, `for` or `where` outside of them, and T does not begin with `<` when there are no generic parameters. A trait may be given other supertraits exactly if their angle brackets match and there are no braces or `where` outside of them; a macro may be given any arguments, and another name exactly if this is not a word that begins an item or a visibility.",
  "all such items that are read back, all types, values, names, trees and traits", INF, ["src/parse_impl.rs: parse_const_or_static, consume_ty_definition, parse_impl", "src/parse_mod.rs: parse_use_declaration", "src/types.rs: Constant, TypeAlias, UseDeclaration, Impl, ToTokens"])
with open("/verif/properties.jsonl","w") as f:
    for x in P: f.write(json.dumps(x)+"\n")
print(len(P))
