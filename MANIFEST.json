{
 "claims": [
  {
   "property": "C01",
   "status": "partial",
   "theorems": [
    "Venial.C01.counterexample_attributeTail",
    "Venial.C01.counterexample_visibility",
    "Venial.C01.counterexample_reference",
    "Venial.C01.counterexample_commaAfterSelf",
    "Venial.C01.counterexample_commaAfterFields",
    "Venial.C01.counterexample_semicolon",
    "Venial.C01.counterexample_mutTwice",
    "Venial.C01.quote_parse_partial",
    "Venial.C01.quote_consume_partial",
    "Venial.C01.quote_places_partial",
    "Venial.C01.quote_parse_iff_partial",
    "Venial.C01.quote_parse_same_partial",
    "Venial.C01.parse_injective_partial",
    "Venial.C01.counterexample_injective",
    "Venial.C01.quote_parse_grammar_partial"
   ],
   "note": "False of the code in seven places (counterexamples). Proved: exactly the declarations of the grammar are given back; all other input is quoted up to these listed deviations, each at a site of the named shape of its own."
  },
  {
   "property": "C02",
   "status": "proved",
   "theorems": [
    "Venial.C02.parse_quote",
    "Venial.C02.consume_quote",
    "Venial.C02.consume_quote_not_struct",
    "Venial.C02.consume_quote_all",
    "Venial.C02.quote_injective"
   ],
   "note": ""
  },
  {
   "property": "C03",
   "status": "partial",
   "theorems": [
    "Venial.C03.counterexample",
    "Venial.C03.counterexample_static",
    "Venial.C03.parse_quote_parse_partial",
    "Venial.C03.parse_quote_fixed_partial"
   ],
   "note": "False of the code for `pub crate!{}` and `static mut: T;` (counterexamples). C62.again_iff says exactly for which parsed items it holds."
  },
  {
   "property": "C04",
   "status": "proved",
   "theorems": [
    "Venial.C04.consume_item_terminates",
    "Venial.C04.parse_item_terminates",
    "Venial.C04.as_path_terminates",
    "Venial.C04.recursion_equation",
    "Venial.C04.recursion_fuel_irrelevant",
    "Venial.C04.loop_fuel_irrelevant",
    "Venial.C04.every_loop_consumes"
   ],
   "note": ""
  },
  {
   "property": "C05",
   "status": "proved",
   "theorems": [
    "Venial.C05.consume_item_no_unreachable",
    "Venial.C05.parse_item_no_unreachable",
    "Venial.C05.as_path_no_unreachable",
    "Venial.C05.predicate_parse_no_unreachable"
   ],
   "note": ""
  },
  {
   "property": "C06",
   "status": "proved",
   "theorems": [
    "Venial.C06.consume_item_takes_prefix"
   ],
   "note": ""
  },
  {
   "property": "C07",
   "status": "proved",
   "theorems": [
    "Venial.C07.consume_item_stable",
    "Venial.C07.consume_item_lookahead_one",
    "Venial.C07.lookahead_needed"
   ],
   "note": ""
  },
  {
   "property": "C08",
   "status": "proved",
   "theorems": [
    "Venial.C08.parse_item_iff",
    "Venial.C08.parse_item_trailing",
    "Venial.C08.parse_item_panic"
   ],
   "note": ""
  },
  {
   "property": "C09",
   "status": "proved",
   "theorems": [
    "Venial.C09.err_only_for_complex_discriminants"
   ],
   "note": ""
  },
  {
   "property": "C10",
   "status": "proved",
   "theorems": [
    "Venial.C10.single_token_kept",
    "Venial.C10.complex_value_rejected",
    "Venial.C10.values_as_written"
   ],
   "note": ""
  },
  {
   "property": "C11",
   "status": "proved",
   "theorems": [
    "Venial.C11.kind_by_keyword",
    "Venial.C11.accepted_head"
   ],
   "note": ""
  },
  {
   "property": "C12",
   "status": "proved",
   "theorems": [
    "Venial.C12.kind_by_prefix",
    "Venial.C12.one_head",
    "Venial.C12.unsafe_trait",
    "Venial.C12.unsafe_impl",
    "Venial.C12.unsafe_mod",
    "Venial.C12.const_as_static",
    "Venial.C12.prefixed_fn",
    "Venial.C12.extern_block",
    "Venial.C12.extern_crate"
   ],
   "note": ""
  },
  {
   "property": "C13",
   "status": "proved",
   "theorems": [
    "Venial.C13.run_iff",
    "Venial.C13.run_total",
    "Venial.C13.run_must_iff",
    "Venial.C13.run_must_panics",
    "Venial.C13.arrow_neutral"
   ],
   "note": ""
  },
  {
   "property": "C14",
   "status": "proved",
   "theorems": [
    "Venial.C14.tuple_struct",
    "Venial.C14.named_struct",
    "Venial.C14.union_fields",
    "Venial.C14.enum_variants"
   ],
   "note": ""
  },
  {
   "property": "C15",
   "status": "proved",
   "theorems": [
    "Venial.C15.unit",
    "Venial.C15.named",
    "Venial.C15.tuple",
    "Venial.C15.tuple_distinct",
    "Venial.C15.same_length"
   ],
   "note": ""
  },
  {
   "property": "C16",
   "status": "proved",
   "theorems": [
    "Venial.C16.exactly_one_kind",
    "Venial.C16.struct_params",
    "Venial.C16.enum_params",
    "Venial.C16.union_params",
    "Venial.C16.built_kind",
    "Venial.C16.any_params",
    "Venial.C16.added"
   ],
   "note": ""
  },
  {
   "property": "C17",
   "status": "proved",
   "theorems": [
    "Venial.C17.with_param_order",
    "Venial.C17.with_param_rest",
    "Venial.C17.with_params",
    "Venial.C17.with_params_rest",
    "Venial.C17.lifetimes_stay_first"
   ],
   "note": ""
  },
  {
   "property": "C18",
   "status": "proved",
   "theorems": [
    "Venial.C18.edited_parses_to_itself",
    "Venial.C18.edited_iff",
    "Venial.C18.parsed_predicate_ok",
    "Venial.C18.with_parsed_predicate",
    "Venial.C18.built_param_ok",
    "Venial.C18.with_bounded_ty",
    "Venial.C18.semicolon_needed"
   ],
   "note": "A tuple struct must end with a semicolon, as in Rust; semicolon_needed shows why."
  },
  {
   "property": "C19",
   "status": "proved",
   "theorems": [
    "Venial.C19.with_where_predicate_appends",
    "Venial.C19.with_where_predicate_rest",
    "Venial.C19.with_where_predicates",
    "Venial.C19.with_where_predicates_rest"
   ],
   "note": ""
  },
  {
   "property": "C20",
   "status": "proved",
   "theorems": [
    "Venial.C20.predicates",
    "Venial.C20.keeps_predicates",
    "Venial.C20.where_keyword",
    "Venial.C20.well_formed",
    "Venial.C20.set_iff"
   ],
   "note": ""
  },
  {
   "property": "C21",
   "status": "proved",
   "theorems": [
    "Venial.C21.inline_args",
    "Venial.C21.to_owned_args_panics_iff",
    "Venial.C21.to_owned_args_same",
    "Venial.C21.to_owned_args_kinds"
   ],
   "note": ""
  },
  {
   "property": "C22",
   "status": "proved",
   "theorems": [
    "Venial.C22.behaves_like_list",
    "Venial.C22.number_of_commas",
    "Venial.C22.slice"
   ],
   "note": ""
  },
  {
   "property": "C23",
   "status": "proved",
   "theorems": [
    "Venial.C23.insert_panics_iff",
    "Venial.C23.insert_items"
   ],
   "note": ""
  },
  {
   "property": "C24",
   "status": "proved",
   "theorems": [
    "Venial.C24.visibility_shape",
    "Venial.C24.debug_panics_iff",
    "Venial.C24.debug_ok"
   ],
   "note": ""
  },
  {
   "property": "C25",
   "status": "proved",
   "theorems": [
    "Venial.C25.token_fields",
    "Venial.C25.group_fields",
    "Venial.C25.exclusive_fields"
   ],
   "note": ""
  },
  {
   "property": "C26",
   "status": "partial",
   "theorems": [
    "Venial.C26.tokens",
    "Venial.C26.exact_partial",
    "Venial.C26.exact_iff",
    "Venial.C26.not_exact"
   ],
   "note": "False of the code: a superfluous comma just before the closing '>' is dropped. C26.tokens says that nothing else is, and C26.exact_iff when that happens."
  },
  {
   "property": "C27",
   "status": "partial",
   "theorems": [
    "Venial.C27.recognised_partial",
    "Venial.C27.recognised_iff",
    "Venial.C27.no_panic",
    "Venial.C27.panics_iff",
    "Venial.C27.joint_colon",
    "Venial.C27.spacing",
    "Venial.C27.wf_iff",
    "Venial.C27.not_all_recognised"
   ],
   "note": "False of the code: a '::' is recognised only if its second colon is not joined to the next token, so that the turbofish of source text is not. C27.spacing says for every path, with its '::' spaced in any way, whether it is recognised."
  },
  {
   "property": "C28",
   "status": "proved",
   "theorems": [
    "Venial.C28.single_path_segment",
    "Venial.C28.value_tokens",
    "Venial.C28.declared",
    "Venial.C28.text_unique"
   ],
   "note": ""
  },
  {
   "property": "C29",
   "status": "proved",
   "theorems": [
    "Venial.C29.all_reported_in_order",
    "Venial.C29.first_shown",
    "Venial.C29.at_tokens_span"
   ],
   "note": ""
  },
  {
   "property": "C30",
   "status": "proved",
   "theorems": [
    "Venial.C30.never_empty",
    "Venial.C30.span_and_display_defined",
    "Venial.C30.first_message_stays"
   ],
   "note": ""
  },
  {
   "property": "C31",
   "status": "partial",
   "theorems": [
    "Venial.C31.static_partial",
    "Venial.C31.static_mut_panics",
    "Venial.C31.mut_is_name",
    "Venial.C31.not_parsed",
    "Venial.C33.constant_iff"
   ],
   "note": "False of the code as documented: every item that starts with static mut NAME panics (static_mut_panics, for all attributes, visibilities and continuations), because the mut token is peeked but not consumed. tk_mut, when set, is always the name (mut_is_name). Statics without mut parse (static_partial)."
  },
  {
   "property": "C32",
   "status": "partial",
   "theorems": [
    "Venial.C32.arrow_panics",
    "Venial.C32.no_arrow",
    "Venial.C32.counterexample",
    "Venial.C32.captured_partial"
   ],
   "note": "False of the code: a function arrow outside of angle brackets ends the list of parameters, and the declaration panics (arrow_panics, for every declaration). Bounds without one are captured whole."
  },
  {
   "property": "C33",
   "status": "partial",
   "theorems": [
    "Venial.C33.constant_iff",
    "Venial.C33.initializer_partial",
    "Venial.C33.rejected",
    "Venial.C33.not_all",
    "Venial.C33.outcomes",
    "Venial.C33.unopened",
    "Venial.C33.swallows",
    "Venial.C33.swallowed"
   ],
   "note": "constant_iff characterises constants exactly. For a value without ; it parses with exactly that value iff its angle brackets match (initializer_partial); otherwise it panics (rejected), e.g. 1 << 3, so the property is false for values with comparison and shift operators. Within a module or block it is worse: if a later constant has the matching angle bracket, everything in between is silently taken for the value (swallows; outcomes: these are all the cases; unopened: a > that closes nothing always panics; swallowed for a module with three items, read as one)."
  },
  {
   "property": "C34",
   "status": "partial",
   "theorems": [
    "Venial.C34.unexpected_panics",
    "Venial.C34.default_panics",
    "Venial.C34.counterexample",
    "Venial.C34.bounded_partial"
   ],
   "note": "False of the code: a default of a parameter without a bound panics in every declaration. With a bound the default is accepted and is part of the bound."
  },
  {
   "property": "C35",
   "status": "partial",
   "theorems": [
    "Venial.C35.generics_panic",
    "Venial.C35.member_generics",
    "Venial.C35.counterexample",
    "Venial.C35.alias_partial"
   ],
   "note": "False of the code: an alias with anything but ':', '=' or ';' after its name panics (generics_panic), and no impl or trait has one as a member (member_generics). alias_partial characterises the accepted aliases exactly."
  },
  {
   "property": "C36",
   "status": "partial",
   "theorems": [
    "Venial.C36.typed_self_panics",
    "Venial.C36.method_typed_self",
    "Venial.C36.never_typed",
    "Venial.C36.counterexample",
    "Venial.C36.recognised_partial"
   ],
   "note": "False of the code: 'self: T' panics in every function and method, and no parsed typed parameter is named self. Proved for all other names."
  },
  {
   "property": "C37",
   "status": "partial",
   "theorems": [
    "Venial.C37.tuple_type_panics",
    "Venial.C37.counterexample_pub",
    "Venial.C37.first_words",
    "Venial.C37.group_taken",
    "Venial.C37.crate_taken",
    "Venial.C37.counterexample_crate",
    "Venial.C37.separated_partial"
   ],
   "note": "False of the code: 'pub (A, B)' panics in every struct and enum, a group after pub and a leading crate are always taken as visibility. separated_partial covers every other field."
  },
  {
   "property": "C38",
   "status": "partial",
   "theorems": [
    "Venial.C38.first_colon",
    "Venial.C38.early_split",
    "Venial.C38.counterexample",
    "Venial.C38.no_colon",
    "Venial.C38.split_partial",
    "Venial.C38.parse_split"
   ],
   "note": "False of the code: a predicate is split at its first colon, so 'T::Item: B' has T on the left (early_split, for every declaration). Predicates without a colon on the left are split as written; WhereClausePredicate::parse is characterised exactly by parse_split."
  },
  {
   "property": "C39",
   "status": "partial",
   "theorems": [
    "Venial.C39.reference_dropped",
    "Venial.C39.counterexample",
    "Venial.C39.represented_partial"
   ],
   "note": "False of the code: '&' and a lifetime before a named parameter are read and dropped (reference_dropped, for every function). Lists without that are fully represented."
  },
  {
   "property": "C40",
   "status": "proved",
   "theorems": [
    "Venial.C40.module_iff",
    "Venial.C40.members_of_body",
    "Venial.C40.items_unique"
   ],
   "note": ""
  },
  {
   "property": "C41",
   "status": "partial",
   "theorems": [
    "Venial.C41.error_in_module_panics",
    "Venial.C41.not_reported_in_modules",
    "Venial.C41.top_level_partial"
   ],
   "note": "False of the code: inside a module the error becomes a panic, at any depth."
  },
  {
   "property": "C42",
   "status": "proved",
   "theorems": [
    "Venial.C42.is_c_enum_iff",
    "Venial.C42.get_single_type_iff",
    "Venial.C42.declared"
   ],
   "note": ""
  },
  {
   "property": "C43",
   "status": "proved",
   "theorems": [
    "Venial.C43.exactly_one",
    "Venial.C43.as_iff",
    "Venial.C43.attributes_prefix",
    "Venial.C43.name_is_token",
    "Venial.C43.name_declared",
    "Venial.C43.name_none_iff",
    "Venial.C43.static_declared",
    "Venial.C43.members_not_static",
    "Venial.C43.generics_declared",
    "Venial.C43.generics_part",
    "Venial.C43.no_generics"
   ],
   "note": ""
  },
  {
   "property": "C44",
   "status": "proved",
   "theorems": [
    "Venial.C44.quote_ne_nil",
    "Venial.C44.quote_two",
    "Venial.C44.span_no_join",
    "Venial.C44.span_join",
    "Venial.C44.span_empty",
    "Venial.C44.span_one",
    "Venial.C44.span_any"
   ],
   "note": ""
  },
  {
   "property": "C45",
   "status": "partial",
   "theorems": [
    "Venial.C45.spelling_false",
    "Venial.C45.spelling_partial",
    "Venial.C45.kinds",
    "Venial.C45.is_methods",
    "Venial.C45.well_formed"
   ],
   "note": "False of the code for bounded_lifetime: its apostrophe has Alone spacing (spelling_false)."
  },
  {
   "property": "C46",
   "status": "proved",
   "theorems": [
    "Venial.C46.macro_iff",
    "Venial.C46.macro_or_panic",
    "Venial.C46.panics",
    "Venial.C46.body_kept"
   ],
   "note": ""
  },
  {
   "property": "C47",
   "status": "partial",
   "theorems": [
    "Venial.C47.rebuilt",
    "Venial.C47.rebuilt_iff",
    "Venial.C47.printed_spans",
    "Venial.C47.spans_lost",
    "Venial.C47.counterexample",
    "Venial.C47.rebuilt_partial"
   ],
   "note": "False of the code: the spans of the two delimiters are replaced by the span of the group. Delimiter, contents and the span of the group are kept."
  },
  {
   "property": "C48",
   "status": "proved",
   "theorems": [
    "Venial.C48.bang_iff_inner",
    "Venial.C48.inner_are_leading"
   ],
   "note": ""
  },
  {
   "property": "C49",
   "status": "proved",
   "theorems": [
    "Venial.C49.impl_members",
    "Venial.C49.trait_members",
    "Venial.C49.extern_members",
    "Venial.C49.extern_static"
   ],
   "note": ""
  },
  {
   "property": "C50",
   "status": "partial",
   "theorems": [
    "Venial.C50.contents_iff",
    "Venial.C50.tail_ignored",
    "Venial.C50.not_fully_represented",
    "Venial.C50.represented_partial"
   ],
   "note": "False of the code: tokens after a group in an attribute are dropped; everything else is represented."
  },
  {
   "property": "C51",
   "status": "proved",
   "theorems": [
    "Venial.C51.parse_item_relabel",
    "Venial.C51.quote_relabel",
    "Venial.C51.as_path_relabel",
    "Venial.C51.predicate_relabel"
   ],
   "note": ""
  },
  {
   "property": "C52",
   "status": "proved",
   "theorems": [
    "Venial.C52.front",
    "Venial.C52.vis_dropped"
   ],
   "note": ""
  },
  {
   "property": "C53",
   "status": "proved",
   "theorems": [
    "Venial.C53.parse_iff",
    "Venial.C53.consume_iff",
    "Venial.C53.error_iff",
    "Venial.C53.panics_iff",
    "Venial.C53.unambiguous",
    "Venial.C53.no_overlap"
   ],
   "note": "The rules are Spec/Grammar.lean, which does not mention the parser."
  },
  {
   "property": "C54",
   "status": "proved",
   "theorems": [
    "Venial.C54.generics_independent"
   ],
   "note": ""
  },
  {
   "property": "C55",
   "status": "proved",
   "theorems": [
    "Venial.C55.params_independent"
   ],
   "note": ""
  },
  {
   "property": "C56",
   "status": "proved",
   "theorems": [
    "Venial.C56.where_independent",
    "Venial.C56.where_exchange"
   ],
   "note": ""
  },
  {
   "property": "C57",
   "status": "proved",
   "theorems": [
    "Venial.C57.derive_parses",
    "Venial.C57.derive_parses_iff",
    "Venial.C57.without_type_params",
    "Venial.C57.self_type"
   ],
   "note": ""
  },
  {
   "property": "C58",
   "status": "proved",
   "theorems": [
    "Venial.C58.front_independent",
    "Venial.C58.front_added",
    "Venial.C58.front_iff",
    "Venial.C58.pub_fields_iff",
    "Venial.C58.attributes_withFront"
   ],
   "note": ""
  },
  {
   "property": "C59",
   "status": "proved",
   "theorems": [
    "Venial.C59.bodies_exchange",
    "Venial.C59.function_body",
    "Venial.C59.function_declared",
    "Venial.C59.macro_braces",
    "Venial.C59.macro_parens"
   ],
   "note": ""
  },
  {
   "property": "C60",
   "status": "proved",
   "theorems": [
    "Venial.C60.rewritten",
    "Venial.C60.stands_iff",
    "Venial.C60.parsed_rewritten",
    "Venial.C60.fragment_change",
    "Venial.C60.reference_change",
    "Venial.C60.applied_change"
   ],
   "note": ""
  },
  {
   "property": "C61",
   "status": "partial",
   "theorems": [
    "Venial.C61.type_fragments_partial",
    "Venial.C61.fragment_path",
    "Venial.C61.nested_fragment",
    "Venial.C61.vis_fragment_panics",
    "Venial.C61.counterexample",
    "Venial.C61.tuple_vis_fragment",
    "Venial.C61.named_vis_fragment",
    "Venial.C61.variant_vis_fragment",
    "Venial.C61.item_vis_fragment",
    "Venial.C61.attribute_fragment"
   ],
   "note": "Proved for types; false of the code for visibilities: before an item, a named field or a variant such a group panics, before a tuple field it becomes part of the type. False also for the contents of attributes: the path of such an attribute is empty. as_path sees through one such group, not two."
  },
  {
   "property": "C62",
   "status": "proved",
   "theorems": [
    "Venial.C62.survives_iff",
    "Venial.C62.all_survive_iff",
    "Venial.C62.again_iff",
    "Venial.C62.same_again_iff",
    "Venial.C62.reads_as_other"
   ],
   "note": "The items that do not come back are characterised, and one is given whose tokens are read as a different item."
  },
  {
   "property": "C63",
   "status": "proved",
   "theorems": [
    "Venial.C63.top_level",
    "Venial.C63.same_outline",
    "Venial.C63.span_source",
    "Venial.C63.first_span",
    "Venial.C63.first_span_after",
    "Venial.C63.not_vis",
    "Venial.C63.not_semicolon"
   ],
   "note": "Spans are places given by the compiler; joining is any function of two places."
  },
  {
   "property": "C64",
   "status": "partial",
   "theorems": [
    "Venial.C64.explained_partial",
    "Venial.C64.consume_explained_partial",
    "Venial.C64.predicate_explained",
    "Venial.C64.quoted",
    "Venial.C64.assertion",
    "Venial.C64.in_mod",
    "Venial.C64.not_end_of_stream",
    "Venial.C64.not_the_item",
    "Venial.C64.nothing_named"
   ],
   "note": "The two messages that are not true are shown as counterexamples. The text of each message is modelled with the tokens it quotes, not their {:?} text."
  },
  {
   "property": "C65",
   "status": "proved",
   "theorems": [
    "Venial.C65.blame",
    "Venial.C65.only_one",
    "Venial.C65.unfinished_message",
    "Venial.C65.quoting_final"
   ],
   "note": "Tokens can be added only at the end of the input, not inside a group: a group is one token."
  },
  {
   "property": "C66",
   "status": "proved",
   "theorems": [
    "Venial.C66.moved",
    "Venial.C66.path_moved",
    "Venial.C66.item_debug"
   ],
   "note": "As in the recorded snapshots, proc_macro2 is taken to print tokens without spans."
  },
  {
   "property": "C67",
   "status": "proved",
   "theorems": [
    "Venial.C67.tidy_same",
    "Venial.C67.pushed_tidy",
    "Venial.C67.tidy_quoted",
    "Venial.C67.revised",
    "Venial.C67.parsed_revised",
    "Venial.C67.again",
    "Venial.C67.rearranged",
    "Venial.C67.slice_permuted",
    "Venial.C67.fields_rearranged",
    "Venial.C67.variants_rearranged",
    "Venial.C67.members_rearranged"
   ],
   "note": "Revisions are defined in Spec/Revise.lean. New names must not be words such as pub, self or fn; new elements must be well formed; moved fields must have types whose angle brackets match; tuple structs in modules must have their semicolon."
  },
  {
   "property": "C68",
   "status": "proved",
   "theorems": [
    "Venial.C68.file_split",
    "Venial.C68.files_joined",
    "Venial.C68.file_pieces",
    "Venial.C68.pieces_file",
    "Venial.C68.bodies_joined",
    "Venial.C68.params_joined",
    "Venial.C68.where_macro"
   ],
   "note": "Lists must be empty or end with a comma before another element is added, and the second block has no inner attributes (Spec/Join.lean). A second part may not start with a macro called where: after a tuple struct without ; this word is taken for its where clause (where_macro)."
  },
  {
   "property": "C69",
   "status": "proved",
   "theorems": [
    "Venial.C69.consumed",
    "Venial.C69.located",
    "Venial.C69.items_located",
    "Venial.C69.inline_args"
   ],
   "note": "Spec/Parts.lean lists the parts and says what a place is. The tokens are compared at their top level (outline): what is inside the groups of a part may differ from the source as described by C31-C39. For items in modules the tokens that quoting leaves out (C63.Complete) are the same as for C63."
  },
  {
   "property": "C70",
   "status": "proved",
   "theorems": [
    "Venial.C70.item_iff",
    "Venial.C70.flat_of",
    "Venial.C70.same_text_iff",
    "Venial.C70.path_iff",
    "Venial.C70.told",
    "Venial.C70.error_iff",
    "Venial.C70.result_iff",
    "Venial.C70.one_line_same",
    "Venial.C70.one_line"
   ],
   "note": "Spec/Shown.lean says what is shown. With a line break within a token the text is ambiguous (example in Props/Shown.lean). Characters that cannot be printed are not escaped in the model."
  },
  {
   "property": "C71",
   "status": "proved",
   "theorems": [
    "Venial.C71.accepted",
    "Venial.C71.rejected"
   ],
   "note": "Spec/Rust.lean is the grammar, written after the Reference without reference to venial. C71.rejected shows for each construct that is left out an item with it that is not read."
  },
  {
   "property": "C72",
   "status": "proved",
   "theorems": [
    "Venial.C72.read",
    "Venial.C72.unambiguous"
   ],
   "note": "Spec/Declared.lean has the declarations, how they are written (the grammar of C71 with names for its parts), and the same parts of a parsed item."
  },
  {
   "property": "C73",
   "status": "partial",
   "theorems": [
    "Venial.C73.path",
    "Venial.C73.unambiguous",
    "Venial.C73.other_partial",
    "Venial.C73.path_iff_partial",
    "Venial.C73.misread",
    "Venial.C73.panics"
   ],
   "note": "Spec/RustPath.lean says how a path is written, with names for its parts, using the grammar of types of C71 for the arguments, and collects the same parts from the returned Path. Paths are read in full; for other types the exceptions are shown with witnesses (misread, panics)."
  },
  {
   "property": "C74",
   "status": "proved",
   "theorems": [
    "Venial.C74.quote",
    "Venial.C74.with_param",
    "Venial.C74.with_param_read",
    "Venial.C74.with_where_predicate",
    "Venial.C74.with_where_predicate_read",
    "Venial.C74.derive",
    "Venial.C74.derive_read"
   ],
   "note": "The grammar is the one of C72 (Spec/Declared.lean); Spec/DeclaredEdit.lean says what the edits and the derived implementation are meant to declare. The path of the trait must not have the word `for` outside of angle brackets. An example shows that defaults of parameters are written into the implementation, which the compiler does not take."
  },
  {
   "property": "C75",
   "status": "proved",
   "theorems": [
    "Venial.C75.declares",
    "Venial.C75.rust",
    "Venial.C75.read",
    "Venial.C75.quote",
    "Venial.C75.param_text",
    "Venial.C75.with_param",
    "Venial.C75.with_where_predicate",
    "Venial.C75.derive"
   ],
   "note": "C72 and C74 speak of declarations and their texts; here the hypothesis and the conclusion are membership in a grammar only. The two exceptions are shown to be accepted and misread by examples."
  },
  {
   "property": "C76",
   "status": "proved",
   "theorems": [
    "Venial.C76.quote",
    "Venial.C76.reread",
    "Venial.C76.parsed",
    "Venial.C76.exact",
    "Venial.C76.accepted_iff",
    "Venial.C76.push",
    "Venial.C76.insert",
    "Venial.C76.rearranged",
    "Venial.C76.mapped",
    "Venial.C76.attrs_iff",
    "Venial.C76.set_attributes",
    "Venial.C76.attributes",
    "Venial.C76.attributes_removed",
    "Venial.C76.set_generic_params",
    "Venial.C76.param_added",
    "Venial.C76.predicate_added",
    "Venial.C76.with_param",
    "Venial.C76.with_where_predicate",
    "Venial.C76.field_added",
    "Venial.C76.variant_added",
    "Venial.C76.members",
    "Venial.C76.items_iff",
    "Venial.C76.items"
   ],
   "note": "okItem in Spec/Built.lean is a predicate on the fields of items alone; it does not mention the parser and does not say that the parts fit together, which is what the theorems show."
  },
  {
   "property": "C77",
   "status": "proved",
   "theorems": [
    "Venial.C77.filtered",
    "Venial.C77.bare_same",
    "Venial.C77.changed",
    "Venial.C77.removed",
    "Venial.C77.removed_again",
    "Venial.C77.inner_iff",
    "Venial.C77.built",
    "Venial.C77.rust",
    "Venial.C77.rust_reread"
   ],
   "note": "The hypothesis plainItem of changed excludes the three exceptions of C03; rust_reread shows that it holds of all Rust items."
  },
  {
   "property": "C78",
   "status": "proved",
   "theorems": [
    "Venial.C78.types",
    "Venial.C78.compose",
    "Venial.C78.same",
    "Venial.C78.built",
    "Venial.C78.rust",
    "Venial.C78.reread",
    "Venial.C78.change_compose",
    "Venial.C78.change_reference",
    "Venial.C78.change_pointer",
    "Venial.C78.change_wrapped",
    "Venial.C78.change_group",
    "Venial.C78.change_constant"
   ],
   "note": "Unlike C60, which is about any tokens that look like a type to venial, this is about the grammar of Rust types. Impl heads and type aliases keep their types."
  },
  {
   "property": "C79",
   "status": "proved",
   "theorems": [
    "Venial.C79.sign",
    "Venial.C79.same_iff",
    "Venial.C79.stream",
    "Venial.C79.parsed",
    "Venial.C79.consumed",
    "Venial.C79.reread_iff",
    "Venial.C79.signed_lost",
    "Venial.C79.signed_value",
    "Venial.C79.split_read",
    "Venial.C79.split_iff",
    "Venial.C79.split_change",
    "Venial.C79.with_param",
    "Venial.C79.with_where_predicate",
    "Venial.C79.edited",
    "Venial.C79.span",
    "Venial.C79.inline_args",
    "Venial.C79.field_tokens",
    "Venial.C79.path_same",
    "Venial.C79.path_split"
   ],
   "note": "The other properties are about the appended tokens (toTokens); by this property these are the tokens of the stream for everything parsed from a stream."
  },
  {
   "property": "C80",
   "status": "proved",
   "theorems": [
    "Venial.C80.runs",
    "Venial.C80.compose",
    "Venial.C80.same",
    "Venial.C80.rewritten",
    "Venial.C80.parsed_rewritten",
    "Venial.C80.replaced",
    "Venial.C80.respanned",
    "Venial.C80.substituted",
    "Venial.C80.fragment_stands",
    "Venial.C80.ident_stands",
    "Venial.C80.where_does_not",
    "Venial.C80.literals"
   ],
   "note": "Generalises C60 (types only, but more kinds of rewriting) to everything venial does not interpret. Parsed items: as in C03, no static named mut and no macro named pub, crate or where; semicolons after the braces of structs are not quoted."
  },
  {
   "property": "C81",
   "status": "proved",
   "theorems": [
    "Venial.C81.parse_item_linear",
    "Venial.C81.parse_item_quadratic",
    "Venial.C81.consume_item_linear",
    "Venial.C81.consume_item_always",
    "Venial.C81.consume_item_copies",
    "Venial.C81.file_linear",
    "Venial.C81.predicate_linear",
    "Venial.C81.as_path_linear",
    "Venial.C81.quadratic_reached",
    "Venial.C81.counts_parse_item",
    "Venial.C81.counts_consume_item",
    "Venial.C81.counts_predicate",
    "Venial.C81.counts_as_path"
   ],
   "note": "Count.lean is the parser with the counts; counts_* prove that it returns what the parser of the other properties returns. Copies of single tokens (peek().cloned()) and of the attributes (attributes.clone(), parse_impl.rs:138 and 177) are not counted."
  },
  {
   "property": "C82",
   "status": "proved",
   "theorems": [
    "Venial.C82.items",
    "Venial.C82.items_before",
    "Venial.C82.items_after",
    "Venial.C82.in_body",
    "Venial.C82.parse_iff",
    "Venial.C82.parse_more",
    "Venial.C82.returned",
    "Venial.C82.same_iff",
    "Venial.C82.rust"
   ],
   "note": "strLit is what Literal::string does to a text, which is proc_macro2's; same_iff assumes that different texts have different literals."
  },
  {
   "property": "C83",
   "status": "proved",
   "theorems": [
    "Venial.C83.param_of_none",
    "Venial.C83.lifetime_of_some",
    "Venial.C83.other_of_some",
    "Venial.C83.predicate_of_none",
    "Venial.C83.predicate_of_some",
    "Venial.C83.separators_wf",
    "Venial.C83.separators_parsed",
    "Venial.C83.kept",
    "Venial.C83.commute",
    "Venial.C83.inline_args"
   ],
   "note": "C17 and C19 say the same about the syntax tree; this is about the text that a macro emits."
  },
  {
   "property": "C84",
   "status": "proved",
   "theorems": [
    "Venial.C84.parse",
    "Venial.C84.predicate",
    "Venial.C84.alone",
    "Venial.C84.path_spaced"
   ],
   "note": "The relation Respaced is given on its own in Spec/Spacing.lean; that the items differ in spacing only is said by making all spacing alone in both (Relabel.item with Spec.unspaced)."
  },
  {
   "property": "C85",
   "status": "proved",
   "theorems": [
    "Venial.C85.parsed",
    "Venial.C85.consumed",
    "Venial.C85.edited",
    "Venial.C85.written_inline",
    "Venial.C85.written_where",
    "Venial.C85.built",
    "Venial.C85.path",
    "Venial.C85.reported"
   ],
   "note": "Occurs (a token anywhere in a stream) and Copied are in Spec/Origin.lean. The other direction, that nothing is lost, is C01 and C83."
  },
  {
   "property": "C86",
   "status": "proved",
   "theorems": [
    "Venial.C86.constructors",
    "Venial.C86.apostrophe",
    "Venial.C86.raw",
    "Venial.C86.empty",
    "Venial.C86.number",
    "Venial.C86.tuple_fields",
    "Venial.C86.parsed",
    "Venial.C86.written",
    "Venial.C86.constructed",
    "Venial.C86.reported"
   ],
   "note": "The check in Ident::new is code of proc_macro2; Names.lean models it, with the Unicode tables as a parameter."
  },
  {
   "property": "C87",
   "status": "proved",
   "theorems": [
    "Venial.C87.panics",
    "Venial.C87.rust",
    "Venial.C87.discriminant",
    "Venial.C87.items",
    "Venial.C87.derives"
   ],
   "note": "The function of the author is a parameter. Rust.Item and Rust.Item' are the grammars of C71 and C75."
  },
  {
   "property": "C88",
   "status": "partial",
   "theorems": [
    "Venial.C88.rust_iff",
    "Venial.C88.more",
    "Venial.C88.rule_partial",
    "Venial.C88.enum_partial",
    "Venial.C88.exceptions",
    "Venial.C88.visibility_lost",
    "Venial.C88.rule_false"
   ],
   "note": "Spec/RustFull.lean is the grammar of the Reference with a switch for each construct that C71 leaves out; expressions and patterns are larger sets than in Rust, which makes the proved parts stronger and does not matter for the exceptions, which are concrete. Missing: the rule is false of the code (rule_false)."
  },
  {
   "property": "C89",
   "status": "proved",
   "theorems": [
    "Venial.C89.filled",
    "Venial.C89.found",
    "Venial.C89.replaced",
    "Venial.C89.item_replaced",
    "Venial.C89.members_replaced",
    "Venial.C89.nested_members_replaced"
   ],
   "note": "At (Spec/Context.lean) relates a place in the text to a place in the list of items. The exception is C68.where_macro."
  },
  {
   "property": "C90",
   "status": "proved",
   "theorems": [
    "Venial.C90.parse_item_runs",
    "Venial.C90.consume_item_runs",
    "Venial.C90.predicate_runs",
    "Venial.C90.as_path_runs",
    "Venial.C90.ends",
    "Venial.C90.consume_item_ends",
    "Venial.C90.predicate_ends",
    "Venial.C90.as_path_ends",
    "Venial.C90.no_overflow",
    "Venial.C90.no_unreachable",
    "Venial.C90.builds_agree",
    "Venial.C90.debug_parse_item",
    "Venial.C90.debug_consume_item",
    "Venial.C90.debug_predicate",
    "Venial.C90.debug_as_path",
    "Venial.C90.debug_no_unreachable",
    "Venial.C90.overflow_debug",
    "Venial.C90.overflow_release",
    "Venial.C90.builds_disagree"
   ],
   "note": "Machine.lean is the parser a second time, in a monad with a Peekable, faults and possible non-termination (partial_fixpoint). Fits and Left are in Spec/Machine.lean."
  },
  {
   "property": "C91",
   "status": "proved",
   "theorems": [
    "Venial.C91.within_agrees",
    "Venial.C91.limit_reached",
    "Venial.C91.limit_reached_err",
    "Venial.C91.nesting_suffices",
    "Venial.C91.calls_le_nesting",
    "Venial.C91.nested_modules"
   ],
   "note": "recN n (Parse.lean) is the parser with room for n calls; callsItem and parse_item_within are in Spec/Calls.lean. The size of a stack frame is not modelled."
  },
  {
   "property": "C92",
   "status": "proved",
   "theorems": [
    "Venial.C92.not_doubled",
    "Venial.C92.not_doubled_consumed",
    "Venial.C92.crossed_out",
    "Venial.C92.all_kept",
    "Venial.C92.count_le",
    "Venial.C92.growth",
    "Venial.C92.growth_twice"
   ],
   "note": "heads (all tokens of a stream in the order of writing), sites (places for a deviation) and Thinned are in Spec/Sites.lean."
  },
  {
   "property": "C93",
   "status": "proved",
   "theorems": [
    "Venial.C26.text_iff",
    "Venial.C26.text_unique",
    "Venial.C26.exact_iff",
    "Venial.C27.panics_iff",
    "Venial.C27.none_iff"
   ],
   "note": ""
  },
  {
   "property": "C94",
   "status": "proved",
   "theorems": [
    "Venial.C94.last_token",
    "Venial.C94.taken_last",
    "Venial.C94.error_last",
    "Venial.C94.first_token",
    "Venial.C94.other_end_panics",
    "Venial.C94.fragment_at_end_panics",
    "Venial.C94.parens_at_end",
    "Venial.C94.group_first_panics",
    "Venial.C94.value_fragment"
   ],
   "note": ""
  },
  {
   "property": "C95",
   "status": "proved",
   "theorems": [
    "Venial.C95.no_panic",
    "Venial.C95.structs",
    "Venial.C95.unions",
    "Venial.C95.enums",
    "Venial.C95.seven",
    "Venial.C95.needed",
    "Venial.C95.misread"
   ],
   "note": "The general claim without the exceptions is false of the code: C95.needed and C95.misread."
  },
  {
   "property": "C96",
   "status": "proved",
   "theorems": [
    "Venial.C96.read",
    "Venial.C96.needed",
    "Venial.C96.complex",
    "Venial.C96.lost"
   ],
   "note": "The claim without the exceptions is false of the code: C96.needed, C96.complex, C96.lost."
  },
  {
   "property": "C97",
   "status": "proved",
   "theorems": [
    "Venial.C97.members_iff",
    "Venial.C97.read",
    "Venial.C97.block_iff",
    "Venial.C97.stops",
    "Venial.C97.static_mut"
   ],
   "note": ""
  },
  {
   "property": "C98",
   "status": "proved",
   "theorems": [
    "Venial.C98.exact",
    "Venial.C98.refused"
   ],
   "note": "Generic parameters as in Spec/RustFull.lean (the grammar of the Reference)."
  },
  {
   "property": "C99",
   "status": "proved",
   "theorems": [
    "Venial.C99.closes",
    "Venial.C99.stray",
    "Venial.C99.matched",
    "Venial.C99.balanced",
    "Venial.C99.balanced_of_no_arrow",
    "Venial.C99.taken",
    "Venial.C99.exception"
   ],
   "note": "Angle brackets are counted as in Spec/Angle.lean, in the tokens of the declaration outside of groups, not inside them. The exception is shown by `struct S<T: A ->;`."
  },
  {
   "property": "C100",
   "status": "proved",
   "theorems": [
    "Venial.C100.even",
    "Venial.C100.even_consumed",
    "Venial.C100.exception",
    "Venial.C100.alias_of",
    "Venial.C100.field_of",
    "Venial.C100.dash_needed",
    "Venial.C100.match_needed"
   ],
   "note": "The texts of an item are listed in Spec/Texts.lean, brackets counted as in Spec/Angle.lean."
  },
  {
   "property": "C101",
   "status": "proved",
   "theorems": [
    "Venial.C101.longer",
    "Venial.C101.longer_iff",
    "Venial.C101.longest",
    "Venial.C101.not_longer",
    "Venial.C101.unique",
    "Venial.C101.ambiguous"
   ],
   "note": "Pieces are inputs on which parse_item returns, an item or an Error."
  },
  {
   "property": "C102",
   "status": "proved",
   "theorems": [
    "Venial.C102.qualifiers_iff",
    "Venial.C102.result_iff",
    "Venial.C102.body_iff",
    "Venial.C102.param_iff",
    "Venial.C102.receiver"
   ],
   "note": "Both directions: what does not meet the condition is not read back."
  },
  {
   "property": "C103",
   "status": "proved",
   "theorems": [
    "Venial.C103.struct_iff",
    "Venial.C103.tuple_iff",
    "Venial.C103.param_iff",
    "Venial.C103.union_iff",
    "Venial.C103.enum_iff"
   ],
   "note": "Both directions: what does not meet the condition is not read back."
  },
  {
   "property": "C104",
   "status": "proved",
   "theorems": [
    "Venial.C104.one_by_one",
    "Venial.C104.any_block",
    "Venial.C104.member_iff",
    "Venial.C104.filled",
    "Venial.C104.module_iff",
    "Venial.C104.file_iff",
    "Venial.C104.files_iff"
   ],
   "note": "Both directions: other members are not read back."
  },
  {
   "property": "C105",
   "status": "proved",
   "theorems": [
    "Venial.C105.constant_iff",
    "Venial.C105.kind_iff",
    "Venial.C105.alias_iff",
    "Venial.C105.use_iff",
    "Venial.C105.impl_iff",
    "Venial.C105.trait_iff",
    "Venial.C105.macro_iff"
   ],
   "note": "Both directions: what does not meet the condition is not read back."
  }
 ]
}