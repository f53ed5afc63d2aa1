/-!
# The theorems of MANIFEST.json

Generated by `tools/mkmanifest.py`.  `Verif/Audit.lean` checks that each is a theorem.
-/

/-- The theorems that MANIFEST.json names. -/
def Venial.manifest : List Lean.Name := [
  `Venial.C01.counterexample_attributeTail,
  `Venial.C01.counterexample_commaAfterFields,
  `Venial.C01.counterexample_commaAfterSelf,
  `Venial.C01.counterexample_injective,
  `Venial.C01.counterexample_mutTwice,
  `Venial.C01.counterexample_reference,
  `Venial.C01.counterexample_semicolon,
  `Venial.C01.counterexample_visibility,
  `Venial.C01.parse_injective_partial,
  `Venial.C01.quote_consume_partial,
  `Venial.C01.quote_parse_grammar_partial,
  `Venial.C01.quote_parse_iff_partial,
  `Venial.C01.quote_parse_partial,
  `Venial.C01.quote_parse_same_partial,
  `Venial.C01.quote_places_partial,
  `Venial.C02.consume_quote,
  `Venial.C02.consume_quote_all,
  `Venial.C02.consume_quote_not_struct,
  `Venial.C02.parse_quote,
  `Venial.C02.quote_injective,
  `Venial.C03.counterexample,
  `Venial.C03.counterexample_static,
  `Venial.C03.parse_quote_fixed_partial,
  `Venial.C03.parse_quote_parse_partial,
  `Venial.C04.as_path_terminates,
  `Venial.C04.consume_item_terminates,
  `Venial.C04.every_loop_consumes,
  `Venial.C04.loop_fuel_irrelevant,
  `Venial.C04.parse_item_terminates,
  `Venial.C04.recursion_equation,
  `Venial.C04.recursion_fuel_irrelevant,
  `Venial.C05.as_path_no_unreachable,
  `Venial.C05.consume_item_no_unreachable,
  `Venial.C05.parse_item_no_unreachable,
  `Venial.C05.predicate_parse_no_unreachable,
  `Venial.C06.consume_item_takes_prefix,
  `Venial.C07.consume_item_lookahead_one,
  `Venial.C07.consume_item_stable,
  `Venial.C07.lookahead_needed,
  `Venial.C08.parse_item_iff,
  `Venial.C08.parse_item_panic,
  `Venial.C08.parse_item_trailing,
  `Venial.C09.err_only_for_complex_discriminants,
  `Venial.C10.complex_value_rejected,
  `Venial.C10.single_token_kept,
  `Venial.C10.values_as_written,
  `Venial.C100.alias_of,
  `Venial.C100.dash_needed,
  `Venial.C100.even,
  `Venial.C100.even_consumed,
  `Venial.C100.exception,
  `Venial.C100.field_of,
  `Venial.C100.match_needed,
  `Venial.C101.ambiguous,
  `Venial.C101.longer,
  `Venial.C101.longer_iff,
  `Venial.C101.longest,
  `Venial.C101.not_longer,
  `Venial.C101.unique,
  `Venial.C102.body_iff,
  `Venial.C102.param_iff,
  `Venial.C102.qualifiers_iff,
  `Venial.C102.receiver,
  `Venial.C102.result_iff,
  `Venial.C103.enum_iff,
  `Venial.C103.param_iff,
  `Venial.C103.struct_iff,
  `Venial.C103.tuple_iff,
  `Venial.C103.union_iff,
  `Venial.C104.any_block,
  `Venial.C104.file_iff,
  `Venial.C104.files_iff,
  `Venial.C104.filled,
  `Venial.C104.member_iff,
  `Venial.C104.module_iff,
  `Venial.C104.one_by_one,
  `Venial.C105.alias_iff,
  `Venial.C105.constant_iff,
  `Venial.C105.impl_iff,
  `Venial.C105.kind_iff,
  `Venial.C105.macro_iff,
  `Venial.C105.trait_iff,
  `Venial.C105.use_iff,
  `Venial.C11.accepted_head,
  `Venial.C11.kind_by_keyword,
  `Venial.C12.const_as_static,
  `Venial.C12.extern_block,
  `Venial.C12.extern_crate,
  `Venial.C12.kind_by_prefix,
  `Venial.C12.one_head,
  `Venial.C12.prefixed_fn,
  `Venial.C12.unsafe_impl,
  `Venial.C12.unsafe_mod,
  `Venial.C12.unsafe_trait,
  `Venial.C13.arrow_neutral,
  `Venial.C13.run_iff,
  `Venial.C13.run_must_iff,
  `Venial.C13.run_must_panics,
  `Venial.C13.run_total,
  `Venial.C14.enum_variants,
  `Venial.C14.named_struct,
  `Venial.C14.tuple_struct,
  `Venial.C14.union_fields,
  `Venial.C15.named,
  `Venial.C15.same_length,
  `Venial.C15.tuple,
  `Venial.C15.tuple_distinct,
  `Venial.C15.unit,
  `Venial.C16.added,
  `Venial.C16.any_params,
  `Venial.C16.built_kind,
  `Venial.C16.enum_params,
  `Venial.C16.exactly_one_kind,
  `Venial.C16.struct_params,
  `Venial.C16.union_params,
  `Venial.C17.lifetimes_stay_first,
  `Venial.C17.with_param_order,
  `Venial.C17.with_param_rest,
  `Venial.C17.with_params,
  `Venial.C17.with_params_rest,
  `Venial.C18.built_param_ok,
  `Venial.C18.edited_iff,
  `Venial.C18.edited_parses_to_itself,
  `Venial.C18.parsed_predicate_ok,
  `Venial.C18.semicolon_needed,
  `Venial.C18.with_bounded_ty,
  `Venial.C18.with_parsed_predicate,
  `Venial.C19.with_where_predicate_appends,
  `Venial.C19.with_where_predicate_rest,
  `Venial.C19.with_where_predicates,
  `Venial.C19.with_where_predicates_rest,
  `Venial.C20.keeps_predicates,
  `Venial.C20.predicates,
  `Venial.C20.set_iff,
  `Venial.C20.well_formed,
  `Venial.C20.where_keyword,
  `Venial.C21.inline_args,
  `Venial.C21.to_owned_args_kinds,
  `Venial.C21.to_owned_args_panics_iff,
  `Venial.C21.to_owned_args_same,
  `Venial.C22.behaves_like_list,
  `Venial.C22.number_of_commas,
  `Venial.C22.slice,
  `Venial.C23.insert_items,
  `Venial.C23.insert_panics_iff,
  `Venial.C24.debug_ok,
  `Venial.C24.debug_panics_iff,
  `Venial.C24.visibility_shape,
  `Venial.C25.exclusive_fields,
  `Venial.C25.group_fields,
  `Venial.C25.token_fields,
  `Venial.C26.exact_iff,
  `Venial.C26.exact_partial,
  `Venial.C26.not_exact,
  `Venial.C26.text_iff,
  `Venial.C26.text_unique,
  `Venial.C26.tokens,
  `Venial.C27.joint_colon,
  `Venial.C27.no_panic,
  `Venial.C27.none_iff,
  `Venial.C27.not_all_recognised,
  `Venial.C27.panics_iff,
  `Venial.C27.recognised_iff,
  `Venial.C27.recognised_partial,
  `Venial.C27.spacing,
  `Venial.C27.wf_iff,
  `Venial.C28.declared,
  `Venial.C28.single_path_segment,
  `Venial.C28.text_unique,
  `Venial.C28.value_tokens,
  `Venial.C29.all_reported_in_order,
  `Venial.C29.at_tokens_span,
  `Venial.C29.first_shown,
  `Venial.C30.first_message_stays,
  `Venial.C30.never_empty,
  `Venial.C30.span_and_display_defined,
  `Venial.C31.mut_is_name,
  `Venial.C31.not_parsed,
  `Venial.C31.static_mut_panics,
  `Venial.C31.static_partial,
  `Venial.C32.arrow_panics,
  `Venial.C32.captured_partial,
  `Venial.C32.counterexample,
  `Venial.C32.no_arrow,
  `Venial.C33.constant_iff,
  `Venial.C33.initializer_partial,
  `Venial.C33.not_all,
  `Venial.C33.outcomes,
  `Venial.C33.rejected,
  `Venial.C33.swallowed,
  `Venial.C33.swallows,
  `Venial.C33.unopened,
  `Venial.C34.bounded_partial,
  `Venial.C34.counterexample,
  `Venial.C34.default_panics,
  `Venial.C34.unexpected_panics,
  `Venial.C35.alias_partial,
  `Venial.C35.counterexample,
  `Venial.C35.generics_panic,
  `Venial.C35.member_generics,
  `Venial.C36.counterexample,
  `Venial.C36.method_typed_self,
  `Venial.C36.never_typed,
  `Venial.C36.recognised_partial,
  `Venial.C36.typed_self_panics,
  `Venial.C37.counterexample_crate,
  `Venial.C37.counterexample_pub,
  `Venial.C37.crate_taken,
  `Venial.C37.first_words,
  `Venial.C37.group_taken,
  `Venial.C37.separated_partial,
  `Venial.C37.tuple_type_panics,
  `Venial.C38.counterexample,
  `Venial.C38.early_split,
  `Venial.C38.first_colon,
  `Venial.C38.no_colon,
  `Venial.C38.parse_split,
  `Venial.C38.split_partial,
  `Venial.C39.counterexample,
  `Venial.C39.reference_dropped,
  `Venial.C39.represented_partial,
  `Venial.C40.items_unique,
  `Venial.C40.members_of_body,
  `Venial.C40.module_iff,
  `Venial.C41.error_in_module_panics,
  `Venial.C41.not_reported_in_modules,
  `Venial.C41.top_level_partial,
  `Venial.C42.declared,
  `Venial.C42.get_single_type_iff,
  `Venial.C42.is_c_enum_iff,
  `Venial.C43.as_iff,
  `Venial.C43.attributes_prefix,
  `Venial.C43.exactly_one,
  `Venial.C43.generics_declared,
  `Venial.C43.generics_part,
  `Venial.C43.members_not_static,
  `Venial.C43.name_declared,
  `Venial.C43.name_is_token,
  `Venial.C43.name_none_iff,
  `Venial.C43.no_generics,
  `Venial.C43.static_declared,
  `Venial.C44.quote_ne_nil,
  `Venial.C44.quote_two,
  `Venial.C44.span_any,
  `Venial.C44.span_empty,
  `Venial.C44.span_join,
  `Venial.C44.span_no_join,
  `Venial.C44.span_one,
  `Venial.C45.is_methods,
  `Venial.C45.kinds,
  `Venial.C45.spelling_false,
  `Venial.C45.spelling_partial,
  `Venial.C45.well_formed,
  `Venial.C46.body_kept,
  `Venial.C46.macro_iff,
  `Venial.C46.macro_or_panic,
  `Venial.C46.panics,
  `Venial.C47.counterexample,
  `Venial.C47.printed_spans,
  `Venial.C47.rebuilt,
  `Venial.C47.rebuilt_iff,
  `Venial.C47.rebuilt_partial,
  `Venial.C47.spans_lost,
  `Venial.C48.bang_iff_inner,
  `Venial.C48.inner_are_leading,
  `Venial.C49.extern_members,
  `Venial.C49.extern_static,
  `Venial.C49.impl_members,
  `Venial.C49.trait_members,
  `Venial.C50.contents_iff,
  `Venial.C50.not_fully_represented,
  `Venial.C50.represented_partial,
  `Venial.C50.tail_ignored,
  `Venial.C51.as_path_relabel,
  `Venial.C51.parse_item_relabel,
  `Venial.C51.predicate_relabel,
  `Venial.C51.quote_relabel,
  `Venial.C52.front,
  `Venial.C52.vis_dropped,
  `Venial.C53.consume_iff,
  `Venial.C53.error_iff,
  `Venial.C53.no_overlap,
  `Venial.C53.panics_iff,
  `Venial.C53.parse_iff,
  `Venial.C53.unambiguous,
  `Venial.C54.generics_independent,
  `Venial.C55.params_independent,
  `Venial.C56.where_exchange,
  `Venial.C56.where_independent,
  `Venial.C57.derive_parses,
  `Venial.C57.derive_parses_iff,
  `Venial.C57.self_type,
  `Venial.C57.without_type_params,
  `Venial.C58.attributes_withFront,
  `Venial.C58.front_added,
  `Venial.C58.front_iff,
  `Venial.C58.front_independent,
  `Venial.C58.pub_fields_iff,
  `Venial.C59.bodies_exchange,
  `Venial.C59.function_body,
  `Venial.C59.function_declared,
  `Venial.C59.macro_braces,
  `Venial.C59.macro_parens,
  `Venial.C60.applied_change,
  `Venial.C60.fragment_change,
  `Venial.C60.parsed_rewritten,
  `Venial.C60.reference_change,
  `Venial.C60.rewritten,
  `Venial.C60.stands_iff,
  `Venial.C61.attribute_fragment,
  `Venial.C61.counterexample,
  `Venial.C61.fragment_path,
  `Venial.C61.item_vis_fragment,
  `Venial.C61.named_vis_fragment,
  `Venial.C61.nested_fragment,
  `Venial.C61.tuple_vis_fragment,
  `Venial.C61.type_fragments_partial,
  `Venial.C61.variant_vis_fragment,
  `Venial.C61.vis_fragment_panics,
  `Venial.C62.again_iff,
  `Venial.C62.all_survive_iff,
  `Venial.C62.reads_as_other,
  `Venial.C62.same_again_iff,
  `Venial.C62.survives_iff,
  `Venial.C63.first_span,
  `Venial.C63.first_span_after,
  `Venial.C63.not_semicolon,
  `Venial.C63.not_vis,
  `Venial.C63.same_outline,
  `Venial.C63.span_source,
  `Venial.C63.top_level,
  `Venial.C64.assertion,
  `Venial.C64.consume_explained_partial,
  `Venial.C64.explained_partial,
  `Venial.C64.in_mod,
  `Venial.C64.not_end_of_stream,
  `Venial.C64.not_the_item,
  `Venial.C64.nothing_named,
  `Venial.C64.predicate_explained,
  `Venial.C64.quoted,
  `Venial.C65.blame,
  `Venial.C65.only_one,
  `Venial.C65.quoting_final,
  `Venial.C65.unfinished_message,
  `Venial.C66.item_debug,
  `Venial.C66.moved,
  `Venial.C66.path_moved,
  `Venial.C67.again,
  `Venial.C67.fields_rearranged,
  `Venial.C67.members_rearranged,
  `Venial.C67.parsed_revised,
  `Venial.C67.pushed_tidy,
  `Venial.C67.rearranged,
  `Venial.C67.revised,
  `Venial.C67.slice_permuted,
  `Venial.C67.tidy_quoted,
  `Venial.C67.tidy_same,
  `Venial.C67.variants_rearranged,
  `Venial.C68.bodies_joined,
  `Venial.C68.file_pieces,
  `Venial.C68.file_split,
  `Venial.C68.files_joined,
  `Venial.C68.params_joined,
  `Venial.C68.pieces_file,
  `Venial.C68.where_macro,
  `Venial.C69.consumed,
  `Venial.C69.inline_args,
  `Venial.C69.items_located,
  `Venial.C69.located,
  `Venial.C70.error_iff,
  `Venial.C70.flat_of,
  `Venial.C70.item_iff,
  `Venial.C70.one_line,
  `Venial.C70.one_line_same,
  `Venial.C70.path_iff,
  `Venial.C70.result_iff,
  `Venial.C70.same_text_iff,
  `Venial.C70.told,
  `Venial.C71.accepted,
  `Venial.C71.rejected,
  `Venial.C72.read,
  `Venial.C72.unambiguous,
  `Venial.C73.misread,
  `Venial.C73.other_partial,
  `Venial.C73.panics,
  `Venial.C73.path,
  `Venial.C73.path_iff_partial,
  `Venial.C73.unambiguous,
  `Venial.C74.derive,
  `Venial.C74.derive_read,
  `Venial.C74.quote,
  `Venial.C74.with_param,
  `Venial.C74.with_param_read,
  `Venial.C74.with_where_predicate,
  `Venial.C74.with_where_predicate_read,
  `Venial.C75.declares,
  `Venial.C75.derive,
  `Venial.C75.param_text,
  `Venial.C75.quote,
  `Venial.C75.read,
  `Venial.C75.rust,
  `Venial.C75.with_param,
  `Venial.C75.with_where_predicate,
  `Venial.C76.accepted_iff,
  `Venial.C76.attributes,
  `Venial.C76.attributes_removed,
  `Venial.C76.attrs_iff,
  `Venial.C76.exact,
  `Venial.C76.field_added,
  `Venial.C76.insert,
  `Venial.C76.items,
  `Venial.C76.items_iff,
  `Venial.C76.mapped,
  `Venial.C76.members,
  `Venial.C76.param_added,
  `Venial.C76.parsed,
  `Venial.C76.predicate_added,
  `Venial.C76.push,
  `Venial.C76.quote,
  `Venial.C76.rearranged,
  `Venial.C76.reread,
  `Venial.C76.set_attributes,
  `Venial.C76.set_generic_params,
  `Venial.C76.variant_added,
  `Venial.C76.with_param,
  `Venial.C76.with_where_predicate,
  `Venial.C77.bare_same,
  `Venial.C77.built,
  `Venial.C77.changed,
  `Venial.C77.filtered,
  `Venial.C77.inner_iff,
  `Venial.C77.removed,
  `Venial.C77.removed_again,
  `Venial.C77.rust,
  `Venial.C77.rust_reread,
  `Venial.C78.built,
  `Venial.C78.change_compose,
  `Venial.C78.change_constant,
  `Venial.C78.change_group,
  `Venial.C78.change_pointer,
  `Venial.C78.change_reference,
  `Venial.C78.change_wrapped,
  `Venial.C78.compose,
  `Venial.C78.reread,
  `Venial.C78.rust,
  `Venial.C78.same,
  `Venial.C78.types,
  `Venial.C79.consumed,
  `Venial.C79.edited,
  `Venial.C79.field_tokens,
  `Venial.C79.inline_args,
  `Venial.C79.parsed,
  `Venial.C79.path_same,
  `Venial.C79.path_split,
  `Venial.C79.reread_iff,
  `Venial.C79.same_iff,
  `Venial.C79.sign,
  `Venial.C79.signed_lost,
  `Venial.C79.signed_value,
  `Venial.C79.span,
  `Venial.C79.split_change,
  `Venial.C79.split_iff,
  `Venial.C79.split_read,
  `Venial.C79.stream,
  `Venial.C79.with_param,
  `Venial.C79.with_where_predicate,
  `Venial.C80.compose,
  `Venial.C80.fragment_stands,
  `Venial.C80.ident_stands,
  `Venial.C80.literals,
  `Venial.C80.parsed_rewritten,
  `Venial.C80.replaced,
  `Venial.C80.respanned,
  `Venial.C80.rewritten,
  `Venial.C80.runs,
  `Venial.C80.same,
  `Venial.C80.substituted,
  `Venial.C80.where_does_not,
  `Venial.C81.as_path_linear,
  `Venial.C81.consume_item_always,
  `Venial.C81.consume_item_copies,
  `Venial.C81.consume_item_linear,
  `Venial.C81.counts_as_path,
  `Venial.C81.counts_consume_item,
  `Venial.C81.counts_parse_item,
  `Venial.C81.counts_predicate,
  `Venial.C81.file_linear,
  `Venial.C81.parse_item_linear,
  `Venial.C81.parse_item_quadratic,
  `Venial.C81.predicate_linear,
  `Venial.C81.quadratic_reached,
  `Venial.C82.in_body,
  `Venial.C82.items,
  `Venial.C82.items_after,
  `Venial.C82.items_before,
  `Venial.C82.parse_iff,
  `Venial.C82.parse_more,
  `Venial.C82.returned,
  `Venial.C82.rust,
  `Venial.C82.same_iff,
  `Venial.C83.commute,
  `Venial.C83.inline_args,
  `Venial.C83.kept,
  `Venial.C83.lifetime_of_some,
  `Venial.C83.other_of_some,
  `Venial.C83.param_of_none,
  `Venial.C83.predicate_of_none,
  `Venial.C83.predicate_of_some,
  `Venial.C83.separators_parsed,
  `Venial.C83.separators_wf,
  `Venial.C84.alone,
  `Venial.C84.parse,
  `Venial.C84.path_spaced,
  `Venial.C84.predicate,
  `Venial.C85.built,
  `Venial.C85.consumed,
  `Venial.C85.edited,
  `Venial.C85.parsed,
  `Venial.C85.path,
  `Venial.C85.reported,
  `Venial.C85.written_inline,
  `Venial.C85.written_where,
  `Venial.C86.apostrophe,
  `Venial.C86.constructed,
  `Venial.C86.constructors,
  `Venial.C86.empty,
  `Venial.C86.number,
  `Venial.C86.parsed,
  `Venial.C86.raw,
  `Venial.C86.reported,
  `Venial.C86.tuple_fields,
  `Venial.C86.written,
  `Venial.C87.derives,
  `Venial.C87.discriminant,
  `Venial.C87.items,
  `Venial.C87.panics,
  `Venial.C87.rust,
  `Venial.C88.enum_partial,
  `Venial.C88.exceptions,
  `Venial.C88.more,
  `Venial.C88.rule_false,
  `Venial.C88.rule_partial,
  `Venial.C88.rust_iff,
  `Venial.C88.visibility_lost,
  `Venial.C89.filled,
  `Venial.C89.found,
  `Venial.C89.item_replaced,
  `Venial.C89.members_replaced,
  `Venial.C89.nested_members_replaced,
  `Venial.C89.replaced,
  `Venial.C90.as_path_ends,
  `Venial.C90.as_path_runs,
  `Venial.C90.builds_agree,
  `Venial.C90.builds_disagree,
  `Venial.C90.consume_item_ends,
  `Venial.C90.consume_item_runs,
  `Venial.C90.debug_as_path,
  `Venial.C90.debug_consume_item,
  `Venial.C90.debug_no_unreachable,
  `Venial.C90.debug_parse_item,
  `Venial.C90.debug_predicate,
  `Venial.C90.ends,
  `Venial.C90.no_overflow,
  `Venial.C90.no_unreachable,
  `Venial.C90.overflow_debug,
  `Venial.C90.overflow_release,
  `Venial.C90.parse_item_runs,
  `Venial.C90.predicate_ends,
  `Venial.C90.predicate_runs,
  `Venial.C91.calls_le_nesting,
  `Venial.C91.limit_reached,
  `Venial.C91.limit_reached_err,
  `Venial.C91.nested_modules,
  `Venial.C91.nesting_suffices,
  `Venial.C91.within_agrees,
  `Venial.C92.all_kept,
  `Venial.C92.count_le,
  `Venial.C92.crossed_out,
  `Venial.C92.growth,
  `Venial.C92.growth_twice,
  `Venial.C92.not_doubled,
  `Venial.C92.not_doubled_consumed,
  `Venial.C94.error_last,
  `Venial.C94.first_token,
  `Venial.C94.fragment_at_end_panics,
  `Venial.C94.group_first_panics,
  `Venial.C94.last_token,
  `Venial.C94.other_end_panics,
  `Venial.C94.parens_at_end,
  `Venial.C94.taken_last,
  `Venial.C94.value_fragment,
  `Venial.C95.enums,
  `Venial.C95.misread,
  `Venial.C95.needed,
  `Venial.C95.no_panic,
  `Venial.C95.seven,
  `Venial.C95.structs,
  `Venial.C95.unions,
  `Venial.C96.complex,
  `Venial.C96.lost,
  `Venial.C96.needed,
  `Venial.C96.read,
  `Venial.C97.block_iff,
  `Venial.C97.members_iff,
  `Venial.C97.read,
  `Venial.C97.static_mut,
  `Venial.C97.stops,
  `Venial.C98.exact,
  `Venial.C98.refused,
  `Venial.C99.balanced,
  `Venial.C99.balanced_of_no_arrow,
  `Venial.C99.closes,
  `Venial.C99.exception,
  `Venial.C99.matched,
  `Venial.C99.stray,
  `Venial.C99.taken]
