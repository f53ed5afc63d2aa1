#!/usr/bin/env python3
"""Writes /verif/MANIFEST.json.  One call per property; theorem names are exact Lean names."""
import json
claims = []
def m(prop, status, theorems, note=""):
    claims.append({"property": prop, "status": status, "theorems": ["Venial." + t for t in theorems], "note": note})

m("C04", "proved", ["C04.consume_item_terminates", "C04.parse_item_terminates", "C04.as_path_terminates", "C04.recursion_equation", "C04.recursion_fuel_irrelevant", "C04.loop_fuel_irrelevant", "C04.every_loop_consumes"])
m("C05", "proved", ["C05.consume_item_no_unreachable", "C05.parse_item_no_unreachable", "C05.as_path_no_unreachable", "C05.predicate_parse_no_unreachable"])
m("C06", "proved", ["C06.consume_item_takes_prefix"])
m("C07", "proved", ["C07.consume_item_stable", "C07.consume_item_lookahead_one", "C07.lookahead_needed"])
m("C08", "proved", ["C08.parse_item_iff", "C08.parse_item_trailing", "C08.parse_item_panic"])
m("C09", "proved", ["C09.err_only_for_complex_discriminants"])
m("C13", "proved", ["C13.run_iff", "C13.run_total", "C13.run_must_iff", "C13.run_must_panics", "C13.arrow_neutral"])
m("C22", "proved", ["C22.behaves_like_list", "C22.number_of_commas", "C22.slice"])
m("C23", "proved", ["C23.insert_panics_iff", "C23.insert_items"])
m("C29", "proved", ["C29.all_reported_in_order", "C29.first_shown", "C29.at_tokens_span"])
m("C30", "proved", ["C30.never_empty", "C30.span_and_display_defined", "C30.first_message_stays"])

m("C02", "proved", ["C02.parse_quote", "C02.consume_quote", "C02.consume_quote_not_struct", "C02.consume_quote_all", "C02.quote_injective"])
m("C14", "proved", ["C14.tuple_struct", "C14.named_struct", "C14.union_fields", "C14.enum_variants"])
m("C15", "proved", ["C15.unit", "C15.named", "C15.tuple", "C15.tuple_distinct", "C15.same_length"])
m("C17", "proved", ["C17.with_param_order", "C17.with_param_rest", "C17.with_params", "C17.with_params_rest", "C17.lifetimes_stay_first"])
m("C18", "proved", ["C18.edited_parses_to_itself", "C18.edited_iff", "C18.parsed_predicate_ok", "C18.with_parsed_predicate", "C18.built_param_ok", "C18.with_bounded_ty", "C18.semicolon_needed"], "A tuple struct must end with a semicolon, as in Rust; semicolon_needed shows why.")
m("C19", "proved", ["C19.with_where_predicate_appends", "C19.with_where_predicate_rest", "C19.with_where_predicates", "C19.with_where_predicates_rest"])
m("C20", "proved", ["C20.predicates", "C20.keeps_predicates", "C20.where_keyword", "C20.well_formed", "C20.set_iff"])
m("C21", "proved", ["C21.inline_args", "C21.to_owned_args_panics_iff", "C21.to_owned_args_same", "C21.to_owned_args_kinds"])
m("C28", "proved", ["C28.single_path_segment", "C28.value_tokens", "C28.declared", "C28.text_unique"])
m("C42", "proved", ["C42.is_c_enum_iff", "C42.get_single_type_iff", "C42.declared"])
m("C43", "proved", ["C43.exactly_one", "C43.as_iff", "C43.attributes_prefix", "C43.name_is_token", "C43.name_declared", "C43.name_none_iff", "C43.static_declared", "C43.members_not_static", "C43.generics_declared", "C43.generics_part", "C43.no_generics"])
m("C44", "proved", ["C44.quote_ne_nil", "C44.quote_two", "C44.span_no_join", "C44.span_join", "C44.span_empty", "C44.span_one", "C44.span_any"])
m("C45", "partial", ["C45.spelling_false", "C45.spelling_partial", "C45.kinds", "C45.is_methods", "C45.well_formed"], "False of the code for bounded_lifetime: its apostrophe has Alone spacing (spelling_false).")

m("C01", "partial", ["C01.counterexample_attributeTail", "C01.counterexample_visibility", "C01.counterexample_reference", "C01.counterexample_commaAfterSelf", "C01.counterexample_commaAfterFields", "C01.counterexample_semicolon", "C01.counterexample_mutTwice", "C01.quote_parse_partial", "C01.quote_consume_partial", "C01.quote_places_partial", "C01.quote_parse_iff_partial", "C01.quote_parse_same_partial", "C01.parse_injective_partial", "C01.counterexample_injective", "C01.quote_parse_grammar_partial"], "False of the code in seven places (counterexamples). Proved: exactly the declarations of the grammar are given back; all other input is quoted up to these listed deviations, each at a site of the named shape of its own.")
m("C03", "partial", ["C03.counterexample", "C03.counterexample_static", "C03.parse_quote_parse_partial", "C03.parse_quote_fixed_partial"], "False of the code for `pub crate!{}` and `static mut: T;` (counterexamples). C62.again_iff says exactly for which parsed items it holds.")
m("C51", "proved", ["C51.parse_item_relabel", "C51.quote_relabel", "C51.as_path_relabel", "C51.predicate_relabel"])

m("C16", "proved", ["C16.exactly_one_kind", "C16.struct_params", "C16.enum_params", "C16.union_params", "C16.built_kind", "C16.any_params", "C16.added"])
m("C24", "proved", ["C24.visibility_shape", "C24.debug_panics_iff", "C24.debug_ok"])
m("C25", "proved", ["C25.token_fields", "C25.group_fields", "C25.exclusive_fields"])
m("C49", "proved", ["C49.impl_members", "C49.trait_members", "C49.extern_members", "C49.extern_static"])
m("C11", "proved", ["C11.kind_by_keyword", "C11.accepted_head"])
m("C12", "proved", ["C12.kind_by_prefix", "C12.one_head", "C12.unsafe_trait", "C12.unsafe_impl", "C12.unsafe_mod",
  "C12.const_as_static", "C12.prefixed_fn", "C12.extern_block", "C12.extern_crate"])
m("C10", "proved", ["C10.single_token_kept", "C10.complex_value_rejected", "C10.values_as_written"])
m("C40", "proved", ["C40.module_iff", "C40.members_of_body", "C40.items_unique"])
m("C41", "partial", ["C41.error_in_module_panics", "C41.not_reported_in_modules", "C41.top_level_partial"], "False of the code: inside a module the error becomes a panic, at any depth.")
m("C48", "proved", ["C48.bang_iff_inner", "C48.inner_are_leading"])
m("C50", "partial", ["C50.contents_iff", "C50.tail_ignored", "C50.not_fully_represented", "C50.represented_partial"], "False of the code: tokens after a group in an attribute are dropped; everything else is represented.")
m("C52", "proved", ["C52.front", "C52.vis_dropped"])
m("C46", "proved", ["C46.macro_iff", "C46.macro_or_panic", "C46.panics", "C46.body_kept"])
m("C26", "partial", ["C26.tokens", "C26.exact_partial", "C26.exact_iff", "C26.not_exact"], "False of the code: a superfluous comma just before the closing '>' is dropped. C26.tokens says that nothing else is, and C26.exact_iff when that happens.")
m("C27", "partial", ["C27.recognised_partial", "C27.recognised_iff", "C27.no_panic", "C27.panics_iff", "C27.joint_colon", "C27.spacing", "C27.wf_iff", "C27.not_all_recognised"], "False of the code: a '::' is recognised only if its second colon is not joined to the next token, so that the turbofish of source text is not. C27.spacing says for every path, with its '::' spaced in any way, whether it is recognised.")

m("C31", "partial", ["C31.static_partial", "C31.static_mut_panics", "C31.mut_is_name", "C31.not_parsed", "C33.constant_iff"],
  "False of the code as documented: every item that starts with static mut NAME panics (static_mut_panics, for all attributes, visibilities and continuations), because the mut token is peeked but not consumed. tk_mut, when set, is always the name (mut_is_name). Statics without mut parse (static_partial).")
m("C33", "partial", ["C33.constant_iff", "C33.initializer_partial", "C33.rejected", "C33.not_all", "C33.outcomes", "C33.unopened", "C33.swallows", "C33.swallowed"],
  "constant_iff characterises constants exactly. For a value without ; it parses with exactly that value iff its angle brackets match (initializer_partial); otherwise it panics (rejected), e.g. 1 << 3, so the property is false for values with comparison and shift operators. Within a module or block it is worse: if a later constant has the matching angle bracket, everything in between is silently taken for the value (swallows; outcomes: these are all the cases; unopened: a > that closes nothing always panics; swallowed for a module with three items, read as one).")
m("C53", "proved", ["C53.parse_iff", "C53.consume_iff", "C53.error_iff", "C53.panics_iff", "C53.unambiguous", "C53.no_overlap"],
  "The rules are Spec/Grammar.lean, which does not mention the parser.")
m("C32", "partial", ["C32.arrow_panics", "C32.no_arrow", "C32.counterexample", "C32.captured_partial"],
  "False of the code: a function arrow outside of angle brackets ends the list of parameters, and the declaration panics (arrow_panics, for every declaration). Bounds without one are captured whole.")
m("C34", "partial", ["C34.unexpected_panics", "C34.default_panics", "C34.counterexample", "C34.bounded_partial"],
  "False of the code: a default of a parameter without a bound panics in every declaration. With a bound the default is accepted and is part of the bound.")
m("C54", "proved", ["C54.generics_independent"])
m("C35", "partial", ["C35.generics_panic", "C35.member_generics", "C35.counterexample", "C35.alias_partial"],
  "False of the code: an alias with anything but ':', '=' or ';' after its name panics (generics_panic), and no impl or trait has one as a member (member_generics). alias_partial characterises the accepted aliases exactly.")
m("C36", "partial", ["C36.typed_self_panics", "C36.method_typed_self", "C36.never_typed", "C36.counterexample", "C36.recognised_partial"],
  "False of the code: 'self: T' panics in every function and method, and no parsed typed parameter is named self. Proved for all other names.")
m("C39", "partial", ["C39.reference_dropped", "C39.counterexample", "C39.represented_partial"],
  "False of the code: '&' and a lifetime before a named parameter are read and dropped (reference_dropped, for every function). Lists without that are fully represented.")
m("C55", "proved", ["C55.params_independent"])
m("C38", "partial", ["C38.first_colon", "C38.early_split", "C38.counterexample", "C38.no_colon", "C38.split_partial", "C38.parse_split"],
  "False of the code: a predicate is split at its first colon, so 'T::Item: B' has T on the left (early_split, for every declaration). Predicates without a colon on the left are split as written; WhereClausePredicate::parse is characterised exactly by parse_split.")
m("C56", "proved", ["C56.where_independent", "C56.where_exchange"])
m("C37", "partial", ["C37.tuple_type_panics", "C37.counterexample_pub", "C37.first_words", "C37.group_taken", "C37.crate_taken", "C37.counterexample_crate", "C37.separated_partial"],
  "False of the code: 'pub (A, B)' panics in every struct and enum, a group after pub and a leading crate are always taken as visibility. separated_partial covers every other field.")
m("C47", "partial", ["C47.rebuilt", "C47.rebuilt_iff", "C47.printed_spans", "C47.spans_lost", "C47.counterexample", "C47.rebuilt_partial"],
  "False of the code: the spans of the two delimiters are replaced by the span of the group. Delimiter, contents and the span of the group are kept.")

m("C57", "proved", ["C57.derive_parses", "C57.derive_parses_iff", "C57.without_type_params", "C57.self_type"])
m("C58", "proved", ["C58.front_independent", "C58.front_added", "C58.front_iff", "C58.pub_fields_iff", "C58.attributes_withFront"])
m("C59", "proved", ["C59.bodies_exchange", "C59.function_body", "C59.function_declared", "C59.macro_braces", "C59.macro_parens"])
m("C60", "proved", ["C60.rewritten", "C60.stands_iff", "C60.parsed_rewritten", "C60.fragment_change", "C60.reference_change", "C60.applied_change"])
m("C61", "partial", ["C61.type_fragments_partial", "C61.fragment_path", "C61.nested_fragment", "C61.vis_fragment_panics", "C61.counterexample", "C61.tuple_vis_fragment", "C61.named_vis_fragment", "C61.variant_vis_fragment", "C61.item_vis_fragment", "C61.attribute_fragment"], "Proved for types; false of the code for visibilities: before an item, a named field or a variant such a group panics, before a tuple field it becomes part of the type. False also for the contents of attributes: the path of such an attribute is empty. as_path sees through one such group, not two.")
m("C62", "proved", ["C62.survives_iff", "C62.all_survive_iff", "C62.again_iff", "C62.same_again_iff", "C62.reads_as_other"], "The items that do not come back are characterised, and one is given whose tokens are read as a different item.")
m("C63", "proved", ["C63.top_level", "C63.same_outline", "C63.span_source", "C63.first_span", "C63.first_span_after", "C63.not_vis", "C63.not_semicolon"], "Spans are places given by the compiler; joining is any function of two places.")
m("C64", "partial", ["C64.explained_partial", "C64.consume_explained_partial", "C64.predicate_explained", "C64.quoted", "C64.assertion", "C64.in_mod", "C64.not_end_of_stream", "C64.not_the_item", "C64.nothing_named"], "The two messages that are not true are shown as counterexamples. The text of each message is modelled with the tokens it quotes, not their {:?} text.")
m("C65", "proved", ["C65.blame", "C65.only_one", "C65.unfinished_message", "C65.quoting_final"], "Tokens can be added only at the end of the input, not inside a group: a group is one token.")
m("C66", "proved", ["C66.moved", "C66.path_moved", "C66.item_debug"], "As in the recorded snapshots, proc_macro2 is taken to print tokens without spans.")
m("C67", "proved", ["C67.tidy_same", "C67.pushed_tidy", "C67.tidy_quoted", "C67.revised", "C67.parsed_revised", "C67.again", "C67.rearranged", "C67.slice_permuted", "C67.fields_rearranged", "C67.variants_rearranged", "C67.members_rearranged"], "Revisions are defined in Spec/Revise.lean. New names must not be words such as pub, self or fn; new elements must be well formed; moved fields must have types whose angle brackets match; tuple structs in modules must have their semicolon.")
m("C68", "proved", ["C68.file_split", "C68.files_joined", "C68.file_pieces", "C68.pieces_file", "C68.bodies_joined", "C68.params_joined", "C68.where_macro"], "Lists must be empty or end with a comma before another element is added, and the second block has no inner attributes (Spec/Join.lean). A second part may not start with a macro called where: after a tuple struct without ; this word is taken for its where clause (where_macro).")
m("C69", "proved", ["C69.consumed", "C69.located", "C69.items_located", "C69.inline_args"], "Spec/Parts.lean lists the parts and says what a place is. The tokens are compared at their top level (outline): what is inside the groups of a part may differ from the source as described by C31-C39. For items in modules the tokens that quoting leaves out (C63.Complete) are the same as for C63.")
m("C70", "proved", ["C70.item_iff", "C70.flat_of", "C70.same_text_iff", "C70.path_iff", "C70.told", "C70.error_iff", "C70.result_iff", "C70.one_line_same", "C70.one_line"], "Spec/Shown.lean says what is shown. With a line break within a token the text is ambiguous (example in Props/Shown.lean). Characters that cannot be printed are not escaped in the model.")
m("C71", "proved", ["C71.accepted", "C71.rejected"], "Spec/Rust.lean is the grammar, written after the Reference without reference to venial. C71.rejected shows for each construct that is left out an item with it that is not read.")
m("C72", "proved", ["C72.read", "C72.unambiguous"], "Spec/Declared.lean has the declarations, how they are written (the grammar of C71 with names for its parts), and the same parts of a parsed item.")
m("C73", "partial", ["C73.path", "C73.unambiguous", "C73.other_partial", "C73.path_iff_partial", "C73.misread", "C73.panics"], "Spec/RustPath.lean says how a path is written, with names for its parts, using the grammar of types of C71 for the arguments, and collects the same parts from the returned Path. Paths are read in full; for other types the exceptions are shown with witnesses (misread, panics).")
m("C74", "proved", ["C74.quote", "C74.with_param", "C74.with_param_read", "C74.with_where_predicate", "C74.with_where_predicate_read", "C74.derive", "C74.derive_read"], "The grammar is the one of C72 (Spec/Declared.lean); Spec/DeclaredEdit.lean says what the edits and the derived implementation are meant to declare. The path of the trait must not have the word `for` outside of angle brackets. An example shows that defaults of parameters are written into the implementation, which the compiler does not take.")
m("C75", "proved", ["C75.declares", "C75.rust", "C75.read", "C75.quote", "C75.param_text", "C75.with_param", "C75.with_where_predicate", "C75.derive"], "C72 and C74 speak of declarations and their texts; here the hypothesis and the conclusion are membership in a grammar only. The two exceptions are shown to be accepted and misread by examples.")
m("C76", "proved", ["C76.quote", "C76.reread", "C76.parsed", "C76.exact", "C76.accepted_iff", "C76.push", "C76.insert", "C76.rearranged", "C76.mapped", "C76.attrs_iff", "C76.set_attributes", "C76.attributes", "C76.attributes_removed", "C76.set_generic_params", "C76.param_added", "C76.predicate_added", "C76.with_param", "C76.with_where_predicate", "C76.field_added", "C76.variant_added", "C76.members", "C76.items_iff", "C76.items"], "okItem in Spec/Built.lean is a predicate on the fields of items alone; it does not mention the parser and does not say that the parts fit together, which is what the theorems show.")
m("C77", "proved", ["C77.filtered", "C77.bare_same", "C77.changed", "C77.removed", "C77.removed_again", "C77.inner_iff", "C77.built", "C77.rust", "C77.rust_reread"], "The hypothesis plainItem of changed excludes the three exceptions of C03; rust_reread shows that it holds of all Rust items.")
m("C78", "proved", ["C78.types", "C78.compose", "C78.same", "C78.built", "C78.rust", "C78.reread", "C78.change_compose", "C78.change_reference", "C78.change_pointer", "C78.change_wrapped", "C78.change_group", "C78.change_constant"], "Unlike C60, which is about any tokens that look like a type to venial, this is about the grammar of Rust types. Impl heads and type aliases keep their types.")
m("C79", "proved", ["C79.sign", "C79.same_iff", "C79.stream", "C79.parsed", "C79.consumed", "C79.reread_iff", "C79.signed_lost", "C79.signed_value", "C79.split_read", "C79.split_iff", "C79.split_change", "C79.with_param", "C79.with_where_predicate", "C79.edited", "C79.span", "C79.inline_args", "C79.field_tokens", "C79.path_same", "C79.path_split"], "The other properties are about the appended tokens (toTokens); by this property these are the tokens of the stream for everything parsed from a stream.")
m("C80", "proved", ["C80.runs", "C80.compose", "C80.same", "C80.rewritten", "C80.parsed_rewritten", "C80.replaced", "C80.respanned", "C80.substituted", "C80.fragment_stands", "C80.ident_stands", "C80.where_does_not", "C80.literals"], "Generalises C60 (types only, but more kinds of rewriting) to everything venial does not interpret. Parsed items: as in C03, no static named mut and no macro named pub, crate or where; semicolons after the braces of structs are not quoted.")
m("C81", "proved", ["C81.parse_item_linear", "C81.parse_item_quadratic", "C81.consume_item_linear", "C81.consume_item_always", "C81.consume_item_copies", "C81.file_linear", "C81.predicate_linear", "C81.as_path_linear", "C81.quadratic_reached", "C81.counts_parse_item", "C81.counts_consume_item", "C81.counts_predicate", "C81.counts_as_path"], "Count.lean is the parser with the counts; counts_* prove that it returns what the parser of the other properties returns. Copies of single tokens (peek().cloned()) and of the attributes (attributes.clone(), parse_impl.rs:138 and 177) are not counted.")
m("C82", "proved", ["C82.items", "C82.items_before", "C82.items_after", "C82.in_body", "C82.parse_iff", "C82.parse_more", "C82.returned", "C82.same_iff", "C82.rust"], "strLit is what Literal::string does to a text, which is proc_macro2's; same_iff assumes that different texts have different literals.")
m("C83", "proved", ["C83.param_of_none", "C83.lifetime_of_some", "C83.other_of_some", "C83.predicate_of_none", "C83.predicate_of_some", "C83.separators_wf", "C83.separators_parsed", "C83.kept", "C83.commute", "C83.inline_args"], "C17 and C19 say the same about the syntax tree; this is about the text that a macro emits.")
m("C84", "proved", ["C84.parse", "C84.predicate", "C84.alone", "C84.path_spaced"], "The relation Respaced is given on its own in Spec/Spacing.lean; that the items differ in spacing only is said by making all spacing alone in both (Relabel.item with Spec.unspaced).")
m("C85", "proved", ["C85.parsed", "C85.consumed", "C85.edited", "C85.written_inline", "C85.written_where", "C85.built", "C85.path", "C85.reported"], "Occurs (a token anywhere in a stream) and Copied are in Spec/Origin.lean. The other direction, that nothing is lost, is C01 and C83.")
m("C86", "proved", ["C86.constructors", "C86.apostrophe", "C86.raw", "C86.empty", "C86.number", "C86.tuple_fields", "C86.parsed", "C86.written", "C86.constructed", "C86.reported"], "The check in Ident::new is code of proc_macro2; Names.lean models it, with the Unicode tables as a parameter.")
m("C87", "proved", ["C87.panics", "C87.rust", "C87.discriminant", "C87.items", "C87.derives"], "The function of the author is a parameter. Rust.Item and Rust.Item' are the grammars of C71 and C75.")
m("C88", "partial", ["C88.rust_iff", "C88.more", "C88.rule_partial", "C88.enum_partial", "C88.exceptions", "C88.visibility_lost", "C88.rule_false"], "Spec/RustFull.lean is the grammar of the Reference with a switch for each construct that C71 leaves out; expressions and patterns are larger sets than in Rust, which makes the proved parts stronger and does not matter for the exceptions, which are concrete. Missing: the rule is false of the code (rule_false).")
m("C89", "proved", ["C89.filled", "C89.found", "C89.replaced", "C89.item_replaced", "C89.members_replaced", "C89.nested_members_replaced"], "At (Spec/Context.lean) relates a place in the text to a place in the list of items. The exception is C68.where_macro.")
m("C90", "proved", ["C90.parse_item_runs", "C90.consume_item_runs", "C90.predicate_runs", "C90.as_path_runs", "C90.ends", "C90.consume_item_ends", "C90.predicate_ends", "C90.as_path_ends", "C90.no_overflow", "C90.no_unreachable", "C90.builds_agree", "C90.debug_parse_item", "C90.debug_consume_item", "C90.debug_predicate", "C90.debug_as_path", "C90.debug_no_unreachable", "C90.overflow_debug", "C90.overflow_release", "C90.builds_disagree"], "Machine.lean is the parser a second time, in a monad with a Peekable, faults and possible non-termination (partial_fixpoint). Fits and Left are in Spec/Machine.lean.")
m("C91", "proved", ["C91.within_agrees", "C91.limit_reached", "C91.limit_reached_err", "C91.nesting_suffices", "C91.calls_le_nesting", "C91.nested_modules"], "recN n (Parse.lean) is the parser with room for n calls; callsItem and parse_item_within are in Spec/Calls.lean. The size of a stack frame is not modelled.")
m("C92", "proved", ["C92.not_doubled", "C92.not_doubled_consumed", "C92.crossed_out", "C92.all_kept", "C92.count_le", "C92.growth", "C92.growth_twice"], "heads (all tokens of a stream in the order of writing), sites (places for a deviation) and Thinned are in Spec/Sites.lean.")
m("C93", "proved", ["C26.text_iff", "C26.text_unique", "C26.exact_iff", "C27.panics_iff", "C27.none_iff"], "")
m("C94", "proved", ["C94.last_token", "C94.taken_last", "C94.error_last", "C94.first_token", "C94.other_end_panics", "C94.fragment_at_end_panics", "C94.parens_at_end", "C94.group_first_panics", "C94.value_fragment"], "")
m("C95", "proved", ["C95.no_panic", "C95.structs", "C95.unions", "C95.enums", "C95.seven", "C95.needed", "C95.misread"], "The general claim without the exceptions is false of the code: C95.needed and C95.misread.")
m("C96", "proved", ["C96.read", "C96.needed", "C96.complex", "C96.lost"], "The claim without the exceptions is false of the code: C96.needed, C96.complex, C96.lost.")
m("C97", "proved", ["C97.members_iff", "C97.read", "C97.block_iff", "C97.stops", "C97.static_mut"], "")
m("C98", "proved", ["C98.exact", "C98.refused"], "Generic parameters as in Spec/RustFull.lean (the grammar of the Reference).")
m("C99", "proved", ["C99.closes", "C99.stray", "C99.matched", "C99.balanced", "C99.balanced_of_no_arrow", "C99.taken", "C99.exception"], "Angle brackets are counted as in Spec/Angle.lean, in the tokens of the declaration outside of groups, not inside them. The exception is shown by `struct S<T: A ->;`.")
m("C100", "proved", ["C100.even", "C100.even_consumed", "C100.exception", "C100.alias_of", "C100.field_of", "C100.dash_needed", "C100.match_needed"], "The texts of an item are listed in Spec/Texts.lean, brackets counted as in Spec/Angle.lean.")
m("C101", "proved", ["C101.longer", "C101.longer_iff", "C101.longest", "C101.not_longer", "C101.unique", "C101.ambiguous"], "Pieces are inputs on which parse_item returns, an item or an Error.")
m("C102", "proved", ["C102.qualifiers_iff", "C102.result_iff", "C102.body_iff", "C102.param_iff", "C102.receiver"], "Both directions: what does not meet the condition is not read back.")
m("C103", "proved", ["C103.struct_iff", "C103.tuple_iff", "C103.param_iff", "C103.union_iff", "C103.enum_iff"], "Both directions: what does not meet the condition is not read back.")
m("C104", "proved", ["C104.one_by_one", "C104.any_block", "C104.member_iff", "C104.filled", "C104.module_iff", "C104.file_iff", "C104.files_iff"], "Both directions: other members are not read back.")
m("C105", "proved", ["C105.constant_iff", "C105.kind_iff", "C105.alias_iff", "C105.use_iff", "C105.impl_iff", "C105.trait_iff", "C105.macro_iff"], "Both directions: what does not meet the condition is not read back.")
claims.sort(key=lambda c: int(c["property"][1:]))
json.dump({"claims": claims}, open("/verif/MANIFEST.json", "w"), indent=1)

# The names for Lean: `Verif/Audit.lean` checks that each is a theorem.
with open("/verif/lean/Verif/Manifest.lean", "w") as f:
    f.write("/-!\n# The theorems of MANIFEST.json\n\nGenerated by `tools/mkmanifest.py`.  `Verif/Audit.lean` checks that each is a theorem.\n-/\n\n")
    f.write("/-- The theorems that MANIFEST.json names. -/\ndef Venial.manifest : List Lean.Name := [\n")
    f.write(",\n".join("  `" + t for t in sorted({t for c in claims for t in c["theorems"]})))
    f.write("]\n")
