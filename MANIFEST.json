{
 "claims": [
  {
   "property": "C01",
   "status": "proved",
   "theorems": [
    "Verif.C01_snql_string_literal_contained",
    "Verif.C01_snql_string_literal_contained_any_mode",
    "Verif.C01_snql_string_literal_prefix_free"
   ],
   "note": ""
  },
  {
   "property": "C02",
   "status": "proved",
   "theorems": [
    "Verif.C02_literal_is_one_token",
    "Verif.C02_token_read_back_iff",
    "Verif.C02_filter_value_read_back_iff"
   ],
   "note": ""
  },
  {
   "property": "C03",
   "status": "proved",
   "theorems": [
    "Verif.C03_reads_back",
    "Verif.C03_injective",
    "Verif.C03_total"
   ],
   "note": ""
  },
  {
   "property": "C04",
   "status": "proved",
   "theorems": [
    "Verif.C04_denotes_instant",
    "Verif.C04_succeeds_iff",
    "Verif.C04_same_text_iff",
    "Verif.C04_naive_fields",
    "Verif.C04_date_fields"
   ],
   "note": ""
  },
  {
   "property": "C05",
   "status": "proved",
   "theorems": [
    "Verif.C05_plain_literal_no_newline"
   ],
   "note": ""
  },
  {
   "property": "C06",
   "status": "proved",
   "theorems": [
    "Verif.C06_bytes_literal_is_string_literal",
    "Verif.C06_invalid_bytes_raise",
    "Verif.C06_bytes_literal_iff"
   ],
   "note": ""
  },
  {
   "property": "C07",
   "status": "proved",
   "theorems": [
    "Verif.C07_limit_accepts_iff",
    "Verif.C07_limit_rejects",
    "Verif.C07_offset_accepts_iff",
    "Verif.C07_offset_rejects",
    "Verif.C07_granularity_accepts_iff",
    "Verif.C07_granularity_rejects",
    "Verif.C07_totals_extrapolate_accept_iff",
    "Verif.C07_totals_extrapolate_reject",
    "Verif.C07_limitby_accepts_iff",
    "Verif.C07_limitby_rejects"
   ],
   "note": ""
  },
  {
   "property": "C08",
   "status": "proved",
   "theorems": [
    "Verif.C08_column_accepts_iff",
    "Verif.C08_column_rejects",
    "Verif.C08_column_subscript"
   ],
   "note": ""
  },
  {
   "property": "C09",
   "status": "proved",
   "theorems": [
    "Verif.C09_aliased_accepts_iff",
    "Verif.C09_function_names",
    "Verif.C09_alias_safe",
    "Verif.C09_identifier_accepts_iff",
    "Verif.C09_lambda_accepts_iff",
    "Verif.C09_entity_storage_names",
    "Verif.C09_entity_storage_accept"
   ],
   "note": ""
  },
  {
   "property": "C10",
   "status": "proved",
   "theorems": [
    "Verif.C10_condition_sequence_exact",
    "Verif.C10_function_params_exact"
   ],
   "note": ""
  },
  {
   "property": "C11",
   "status": "proved",
   "theorems": [
    "Verif.C11_condition_accepts_iff",
    "Verif.C11_condition_rejects",
    "Verif.C11_boolean_accepts_iff",
    "Verif.C11_boolean_rejects"
   ],
   "note": ""
  },
  {
   "property": "C12",
   "status": "proved",
   "theorems": [
    "Verif.C12_join_accepts_iff",
    "Verif.C12_join_rejects",
    "Verif.C12_order_independent"
   ],
   "note": ""
  },
  {
   "property": "C13",
   "status": "partial",
   "theorems": [
    "Verif.C13_built_stay_valid_partial",
    "Verif.C13_mismatch_rejected",
    "Verif.C13_query_checks_only_combination_partial",
    "Verif.C13_violated_by_subscripted_columns"
   ],
   "note": "False as stated: a subscripted column on an entity whose data model lacks the part before the bracket constructs and then fails its own validate (C13_violated_by_subscripted_columns). Proved for everything else, and the excluded case is shown to always fail."
  },
  {
   "property": "C14",
   "status": "proved",
   "theorems": [
    "Verif.C14_print",
    "Verif.C14_serialize"
   ],
   "note": ""
  },
  {
   "property": "C15",
   "status": "proved",
   "theorems": [
    "Verif.C15_column_text",
    "Verif.C15_join_query",
    "Verif.C15_join_entities",
    "Verif.C15_plain_query",
    "Verif.C15_no_leak",
    "Verif.C15_join_like_plain",
    "Verif.C15_subquery_like_plain"
   ],
   "note": ""
  },
  {
   "property": "C16",
   "status": "partial",
   "theorems": [
    "Verif.C16_condition_partial",
    "Verif.C16_clause_partial",
    "Verif.C16_fails_for_function_names"
   ],
   "note": "False as stated: a function may be named 'a IS NULL OR f' and then captures the neighbouring condition (C16_fails_for_function_names). Proved for every condition tree in which function names, entity aliases and relationship names contain no spaces, quotes, parentheses and brackets."
  },
  {
   "property": "C17",
   "status": "proved",
   "theorems": [
    "Verif.C17_no_memory",
    "Verif.C17_reused_printer",
    "Verif.C17_reused_printer_after_failure"
   ],
   "note": ""
  },
  {
   "property": "C18",
   "status": "proved",
   "theorems": [
    "Verif.C18_invalid_raises",
    "Verif.C18_print_iff",
    "Verif.C18_valid_serialises",
    "Verif.C18_print_raises",
    "Verif.C18_serialize_raises",
    "Verif.C18_expression_raises"
   ],
   "note": ""
  },
  {
   "property": "C19",
   "status": "proved",
   "theorems": [
    "Verif.C19_print_serialize",
    "Verif.C19_other_lines"
   ],
   "note": ""
  },
  {
   "property": "C20",
   "status": "proved",
   "theorems": [
    "Verif.C20_entity",
    "Verif.C20_storage",
    "Verif.C20_accepts_iff"
   ],
   "note": ""
  },
  {
   "property": "C21",
   "status": "proved",
   "theorems": [
    "Verif.C21_setter_effect",
    "Verif.C21_setters_commute",
    "Verif.C21_last_write_wins",
    "Verif.C21_sequences",
    "Verif.C21_set_match_effect"
   ],
   "note": ""
  },
  {
   "property": "C22",
   "status": "proved",
   "theorems": [
    "Verif.C22_subqueries_valid"
   ],
   "note": ""
  },
  {
   "property": "C23",
   "status": "proved",
   "theorems": [
    "Verif.C23_validated_complete"
   ],
   "note": ""
  },
  {
   "property": "C24",
   "status": "proved",
   "theorems": [
    "Verif.C24_finder_exact",
    "Verif.C24_query_search_exact",
    "Verif.C24_finder_total",
    "Verif.C24_query_search_total"
   ],
   "note": ""
  },
  {
   "property": "C25",
   "status": "proved",
   "theorems": [
    "Verif.C25_outer_columns_are_outputs",
    "Verif.C25_outer_columns_exact"
   ],
   "note": ""
  },
  {
   "property": "C26",
   "status": "proved",
   "theorems": [
    "Verif.C26_join_columns_exact",
    "Verif.C26_join_columns_sound"
   ],
   "note": ""
  },
  {
   "property": "C27",
   "status": "proved",
   "theorems": [
    "Verif.C27_columns_in_model",
    "Verif.C27_columns_exact"
   ],
   "note": ""
  },
  {
   "property": "C28",
   "status": "proved",
   "theorems": [
    "Verif.C28_required_exact",
    "Verif.C28_no_where",
    "Verif.C28_rows_satisfy"
   ],
   "note": ""
  },
  {
   "property": "C29",
   "status": "proved",
   "theorems": [
    "Verif.C29_same_meaning",
    "Verif.C29_columns_same_meaning",
    "Verif.C29_query_same_meaning",
    "Verif.C29_proviso_needed"
   ],
   "note": ""
  },
  {
   "property": "C30",
   "status": "proved",
   "theorems": [
    "Verif.C30_total_and_none_iff",
    "Verif.C30_shape",
    "Verif.C30_valid",
    "Verif.C30_idempotent"
   ],
   "note": ""
  },
  {
   "property": "C31",
   "status": "proved",
   "theorems": [
    "Verif.C31_plain_name",
    "Verif.C31_legacy_name",
    "Verif.C31_expression",
    "Verif.C31_column_in_function"
   ],
   "note": ""
  },
  {
   "property": "C32",
   "status": "proved",
   "theorems": [
    "Verif.C32_metric_iff",
    "Verif.C32_timeseries_iff",
    "Verif.C32_scope_iff",
    "Verif.C32_metric_setters",
    "Verif.C32_timeseries_setters",
    "Verif.C32_scope_setter",
    "Verif.C32_made_valid"
   ],
   "note": ""
  },
  {
   "property": "C33",
   "status": "proved",
   "theorems": [
    "Verif.C33_rollup_iff"
   ],
   "note": ""
  },
  {
   "property": "C34",
   "status": "proved",
   "theorems": [
    "Verif.C34_validate_iff"
   ],
   "note": ""
  },
  {
   "property": "C35",
   "status": "proved",
   "theorems": [
    "Verif.C35_validate_iff",
    "Verif.C35_missing"
   ],
   "note": ""
  },
  {
   "property": "C36",
   "status": "proved",
   "theorems": [
    "Verif.C36_context",
    "Verif.C36_injective",
    "Verif.C36_prints_iff",
    "Verif.C36_valid_but_not_printable"
   ],
   "note": ""
  },
  {
   "property": "C37",
   "status": "partial",
   "theorems": [
    "Verif.C37_negation_visible",
    "Verif.C37_same_text_same_comparison_partial",
    "Verif.C37_filters_same_text_partial",
    "Verif.C37_fails_for_other_operators",
    "Verif.C37_reads_back_partial",
    "Verif.C37_filters_read_back_partial",
    "Verif.C37_same_text_same_scalars_partial"
   ],
   "note": "False as stated: only the negated operators are marked, so =, >, <, >=, <=, IS NULL and LIKE print alike (C37_fails_for_other_operators). Proved: the text shows whether the comparison was negated, for all conditions; for filters on columns with scalar operands (numbers, strings, dates, lists, ...) and any operators a separate reader finds the names, values, negations and grouping again; and, among =, != with scalars and IN, NOT IN with sequences, equal texts mean the same comparison."
  },
  {
   "property": "C38",
   "status": "partial",
   "theorems": [
    "Verif.C38_round_trip_partial",
    "Verif.C38_same_text_same_normal_form_partial",
    "Verif.C38_second_round_trip_partial",
    "Verif.C38_fails_for_filtered_negation",
    "Verif.C38_fails_for_exponents",
    "Verif.C38_fails_for_quoted_formula_parameters",
    "Verif.C38_fails_for_backticks",
    "Verif.C38_fails_for_backslashes"
   ],
   "note": "False as stated: queries that the parser itself produces are printed so that they are not read back (C38_fails_for_filtered_negation, _exponents, _quoted_formula_parameters, _backticks, _backslashes). Proved for every tree in the relation NormalForm: printing succeeds, parsing gives the normal form, equal texts mean equal normal forms, and a second round trip changes nothing."
  },
  {
   "property": "C39",
   "status": "proved",
   "theorems": [
    "Verif.C39_precedence_and_associativity",
    "Verif.C39_reading_unique",
    "Verif.C39_operands"
   ],
   "note": ""
  },
  {
   "property": "C40",
   "status": "partial",
   "theorems": [
    "Verif.C40_filters_of_calls_partial",
    "Verif.C40_filters_of_expressions_partial",
    "Verif.C40_filters_of_metrics_partial",
    "Verif.C40_chains_anywhere_partial",
    "Verif.C40_groups_cut_at_or",
    "Verif.C40_fails_for_keys_that_begin_with_and"
   ],
   "note": "Proved for chains of any length and nesting with the joints comma, and/AND, or/OR and blanks. Filters joined by blanks alone whose second key begins with and/AND are excluded: the code misreads them (C40_fails_for_keys_that_begin_with_and)."
  },
  {
   "property": "C41",
   "status": "proved",
   "theorems": [
    "Verif.C41_parser_terminates",
    "Verif.C41_rules_terminate",
    "Verif.C41_syntax_error_iff"
   ],
   "note": ""
  },
  {
   "property": "C42",
   "status": "proved",
   "theorems": [
    "Verif.C42_looking_is_harmless",
    "Verif.C42_same_every_time",
    "Verif.C42_only_the_query_changes",
    "Verif.C42_print_differs_after_serialize"
   ],
   "note": ""
  },
  {
   "property": "C43",
   "status": "proved",
   "theorems": [
    "Verif.C43_validate_iff",
    "Verif.C43_error",
    "Verif.C43_to_dict",
    "Verif.C43_no_override"
   ],
   "note": ""
  },
  {
   "property": "C44",
   "status": "proved",
   "theorems": [
    "Verif.C44_validate_iff",
    "Verif.C44_to_dict",
    "Verif.C44_succeeds_iff",
    "Verif.C44_keys",
    "Verif.C44_only_the_query_changes",
    "Verif.C44_same_every_time"
   ],
   "note": ""
  },
  {
   "property": "C45",
   "status": "proved",
   "theorems": [
    "Verif.C45_validate_iff",
    "Verif.C45_serialize_iff",
    "Verif.C45_error"
   ],
   "note": ""
  },
  {
   "property": "C46",
   "status": "proved",
   "theorems": [
    "Verif.C46_decodes",
    "Verif.C46_serializes_iff",
    "Verif.C46_error",
    "Verif.C46_injective",
    "Verif.C46_print",
    "Verif.C46_printable",
    "Verif.C46_snql",
    "Verif.C46_not_a_number_is_sent"
   ],
   "note": ""
  },
  {
   "property": "C47",
   "status": "proved",
   "theorems": [
    "Verif.C47_where_iff",
    "Verif.C47_request"
   ],
   "note": ""
  },
  {
   "property": "C48",
   "status": "partial",
   "theorems": [
    "Verif.C48_conversion_again_partial",
    "Verif.C48_body_kept_iff",
    "Verif.C48_settles",
    "Verif.C48_fails_for_dashed_lists"
   ],
   "note": "False as stated: json_to_snql edits orderby lists of the caller, so a second conversion loses the descending order (C48_fails_for_dashed_lists). Proved: the body is kept exactly if no orderby item is a list with a leading dash, and after one conversion it settles."
  },
  {
   "property": "C49",
   "status": "proved",
   "theorems": [
    "Verif.C49_expression_iff",
    "Verif.C49_expression_unique"
   ],
   "note": ""
  },
  {
   "property": "C50",
   "status": "proved",
   "theorems": [
    "Verif.C50_scalar_iff",
    "Verif.C50_datetime_iff",
    "Verif.C50_condition_value"
   ],
   "note": ""
  },
  {
   "property": "C51",
   "status": "proved",
   "theorems": [
    "Verif.C51_validate_and_print",
    "Verif.C51_serialize_text",
    "Verif.C51_serialize_object",
    "Verif.C51_same_meaning",
    "Verif.C51_text_and_object_differ"
   ],
   "note": ""
  },
  {
   "property": "C52",
   "status": "proved",
   "theorems": [
    "Verif.C52_parsed_well_formed",
    "Verif.C52_parsed_validate_iff"
   ],
   "note": ""
  },
  {
   "property": "C53",
   "status": "proved",
   "theorems": [
    "Verif.C53_object_setters",
    "Verif.C53_number_setters"
   ],
   "note": ""
  },
  {
   "property": "C54",
   "status": "proved",
   "theorems": [
    "Verif.C54_setter_iff",
    "Verif.C54_setter_error",
    "Verif.C54_set_match_iff"
   ],
   "note": ""
  },
  {
   "property": "C55",
   "status": "proved",
   "theorems": [
    "Verif.C55_request_iff",
    "Verif.C55_request_unique"
   ],
   "note": ""
  },
  {
   "property": "C56",
   "status": "partial",
   "theorems": [
    "Verif.C56_reads_partial",
    "Verif.C56_same_text_partial",
    "Verif.C56_fails_for_function_names",
    "Verif.C56_fails_for_column_names"
   ],
   "note": "False as stated: a function name may contain commas and parentheses, so one argument can look like two (C56_fails_for_function_names), and a column may be called NULL (C56_fails_for_column_names). Proved for expressions whose function names and entity aliases have no blank, comma or parenthesis; for the second part also no column is named like a constant and no function array, tuple or toDateTime, every function has parameters, and every AliasedExpression has an alias."
  },
  {
   "property": "C57",
   "status": "partial",
   "theorems": [
    "Verif.C57_reads_partial",
    "Verif.C57_same_text_partial",
    "Verif.C57_fails_for_function_names"
   ],
   "note": "False as stated: a function may be named `ff() BY gg`, so a query without groupby can print like one with groupby (C57_fails_for_function_names). Proved for queries whose clauses hold what they are for and whose function names, entity aliases and relationship names have no blank, comma, quote, bracket or parenthesis; for the second part also the naming provisos of C56."
  },
  {
   "property": "C58",
   "status": "proved",
   "theorems": [
    "Verif.C58_failures",
    "Verif.C58_only_scalar",
    "Verif.C58_column_error",
    "Verif.C58_assertion_error"
   ],
   "note": ""
  },
  {
   "property": "C59",
   "status": "proved",
   "theorems": [
    "Verif.C59_expressions",
    "Verif.C59_functions",
    "Verif.C59_conditions",
    "Verif.C59_metrics",
    "Verif.C59_metrics_setters",
    "Verif.C59_rollup",
    "Verif.C59_formula",
    "Verif.C59_metrics_query",
    "Verif.C59_delete",
    "Verif.C59_request",
    "Verif.C59_query"
   ],
   "note": ""
  },
  {
   "property": "C60",
   "status": "proved",
   "theorems": [
    "Verif.C60_set_parameters",
    "Verif.C60_set_filters",
    "Verif.C60_set_groupby",
    "Verif.C60_regroup",
    "Verif.C60_stays_valid"
   ],
   "note": ""
  },
  {
   "property": "C61",
   "status": "proved",
   "theorems": [
    "Verif.C61_decodes",
    "Verif.C61_prints_iff",
    "Verif.C61_str_decodes",
    "Verif.C61_str",
    "Verif.C61_printable",
    "Verif.C61_same_context",
    "Verif.C61_valid_without_text"
   ],
   "note": ""
  },
  {
   "property": "C62",
   "status": "proved",
   "theorems": [
    "Verif.C62_nearest_unique",
    "Verif.C62_printed",
    "Verif.C62_printed_zero",
    "Verif.C62_read",
    "Verif.C62_parsed"
   ],
   "note": ""
  },
  {
   "property": "C63",
   "status": "proved",
   "theorems": [
    "Verif.C63_reflexive",
    "Verif.C63_symmetric",
    "Verif.C63_transitive",
    "Verif.C63_not_transitive",
    "Verif.C63_curried_alias_ignored",
    "Verif.C63_prints_alike"
   ],
   "note": ""
  },
  {
   "property": "C64",
   "status": "proved",
   "theorems": [
    "Verif.C64_equal_hashes",
    "Verif.C64_hashable",
    "Verif.C64_curried_alias_hashed"
   ],
   "note": ""
  },
  {
   "property": "C65",
   "status": "proved",
   "theorems": [
    "Verif.C65_error",
    "Verif.C65_succeeds_iff",
    "Verif.C65_parsed",
    "Verif.C65_printed_iff",
    "Verif.C65_serialize",
    "Verif.C65_serialize_only"
   ],
   "note": ""
  },
  {
   "property": "C66",
   "status": "partial",
   "theorems": [
    "Verif.C66_parsed_round_trip_partial",
    "Verif.C66_same_partial",
    "Verif.C66_fails_for_operator_names",
    "Verif.C66_fails_for_string_operands",
    "Verif.C66_fails_for_quoted_parameters",
    "Verif.C66_fails_for_backticks",
    "Verif.C66_fails_for_exponents",
    "Verif.C66_fails_for_backslashes",
    "Verif.C66_fails_for_filtered_negation"
   ],
   "note": "False as stated: seven kinds of parsed queries are printed so that they are not read back (the C66_fails_for_… theorems). Proved for every parsed query without parts of these kinds."
  },
  {
   "property": "C67",
   "status": "proved",
   "theorems": [
    "Verif.C67_text",
    "Verif.C67_valid_iff",
    "Verif.C67_rejected",
    "Verif.C67_print",
    "Verif.C67_serialize",
    "Verif.C67_serialize_one",
    "Verif.C67_serialize_differs"
   ],
   "note": "data models in the match, in columns and in subqueries; C67_serialize_differs shows why serialize needs its hypothesis"
  },
  {
   "property": "C68",
   "status": "proved",
   "theorems": [
    "Verif.C68_denotes",
    "Verif.C68_names_occur",
    "Verif.C68_arguments_dropped",
    "Verif.C68_columns_in_mri"
   ],
   "note": "all accepted texts, also those with bare metrics; C68_arguments_dropped and C68_columns_in_mri show two surprising readings"
  },
  {
   "property": "C69",
   "status": "proved",
   "theorems": [
    "Verif.C69_query_valid",
    "Verif.C69_outcome",
    "Verif.C69_early_dates_overflow"
   ],
   "note": "the hypothesis PlainBody is about the body only; C69_early_dates_overflow shows that its bound on dates is needed"
  },
  {
   "property": "C70",
   "status": "proved",
   "theorems": [
    "Verif.C70_reflexive",
    "Verif.C70_symmetric",
    "Verif.C70_transitive",
    "Verif.C70_interchangeable",
    "Verif.C70_equal_hashes",
    "Verif.C70_hashable"
   ],
   "note": "the provisos are needed: the examples beside C63 and C70 show equal values and queries with different texts without them"
  },
  {
   "property": "C71",
   "status": "proved",
   "theorems": [
    "Verif.C71_printed",
    "Verif.C71_sent",
    "Verif.C71_sent_text",
    "Verif.C71_same_text"
   ],
   "note": "the queries that MQL can express as printed are those of C38 (NormalForm) and, for texts, C66 (Survives); outside of them the theorems on failures there apply"
  },
  {
   "property": "C72",
   "status": "proved",
   "theorems": [
    "Verif.C72_envelope",
    "Verif.C72_snql",
    "Verif.C72_snql_same_text",
    "Verif.C72_where_means_the_same",
    "Verif.C72_delete"
   ],
   "note": "for SnQL the queries are those of C57 (ReadableQuery, UnambiguousQuery)"
  },
  {
   "property": "C73",
   "status": "proved",
   "theorems": [
    "Verif.C73_reflexive",
    "Verif.C73_symmetric",
    "Verif.C73_transitive",
    "Verif.C73_interchangeable",
    "Verif.C73_equal_hashes",
    "Verif.C73_formula_unhashable"
   ],
   "note": "the provisos are needed: an example shows equal metrics queries (1 and 1.0) that are sent as different texts"
  },
  {
   "property": "C74",
   "status": "proved",
   "theorems": [
    "Verif.C74_reflexive",
    "Verif.C74_symmetric",
    "Verif.C74_transitive",
    "Verif.C74_validate",
    "Verif.C74_interchangeable",
    "Verif.C74_deletion_errors_differ",
    "Verif.C74_flags_differ"
   ],
   "note": "the provisos are needed: C74_flags_differ and C74_deletion_errors_differ are the witnesses"
  },
  {
   "property": "C75",
   "status": "proved",
   "theorems": [
    "Verif.C75_values",
    "Verif.C75_queries",
    "Verif.C75_objects",
    "Verif.C75_metrics",
    "Verif.C75_requests"
   ],
   "note": "Exact: the equality of the model is equivalent to an independent specification for all pairs (dictionaries without repeated keys)."
  },
  {
   "property": "C76",
   "status": "proved",
   "theorems": [
    "Verif.C76_query",
    "Verif.C76_request",
    "Verif.C76_equal_sides"
   ],
   "note": "For readable, unambiguous queries (the provisos of C57) and left-hand sides of which equal ones have the same value (derived for plain ones)."
  },
  {
   "property": "C77",
   "status": "proved",
   "theorems": [
    "Verif.C77_converted",
    "Verif.C77_sent"
   ],
   "note": "Conversion without provisos; the end-to-end theorem has the provisos of C76 on the converted query."
  },
  {
   "property": "C78",
   "status": "proved",
   "theorems": [
    "Verif.C78_delete",
    "Verif.C78_delete_distinct",
    "Verif.C78_entity",
    "Verif.C78_entity_distinct",
    "Verif.C78_storage",
    "Verif.C78_storage_distinct"
   ],
   "note": "The alias of an entity is written unescaped, so reading it back needs an alias without quotes, backslashes and line ends; that different entities have different texts does not."
  },
  {
   "property": "C79",
   "status": "proved",
   "theorems": [
    "Verif.C79_expression",
    "Verif.C79_failures",
    "Verif.C79_convertible",
    "Verif.C79_not_announced"
   ],
   "note": "The docstring says that an invalid body raises one of three exceptions; this holds for bodies of the right shape apart from InvalidEntityError. C79_not_announced has bodies of the wrong shape for seven other exceptions."
  },
  {
   "property": "C80",
   "status": "proved",
   "theorems": [
    "Verif.C80_results",
    "Verif.C80_object",
    "Verif.C80_afterwards",
    "Verif.C80_progress",
    "Verif.C80_alone"
   ],
   "note": "An attribute read or assignment is indivisible, as in CPython; the caller uses the set_* methods, which make new objects, and does not assign fields. The result of print and str is taken before its conversion to JSON (C61)."
  },
  {
   "property": "C81",
   "status": "proved",
   "theorems": [
    "Verif.C81_as_value",
    "Verif.C81_total",
    "Verif.C81_changes",
    "Verif.C81_other_body",
    "Verif.C81_no_dashes",
    "Verif.C81_in_turn",
    "Verif.C81_seen",
    "Verif.C81_fails_for_lists_in_two_places"
   ],
   "note": "Lists under tenant_ids are not followed. A body that contains itself cannot be read to any depth and is left out."
  },
  {
   "property": "C82",
   "status": "proved",
   "theorems": [
    "Verif.C82_join",
    "Verif.C82_validate_model",
    "Verif.C82_validate",
    "Verif.C82_serialize",
    "Verif.C82_required_model",
    "Verif.C82_required",
    "Verif.C82_flags",
    "Verif.C82_needs_join_check"
   ],
   "note": "The texts of errors are not modelled; that of a missing condition on the time column lists its operators in the order of a set."
  },
  {
   "property": "C83",
   "status": "proved",
   "theorems": [
    "Verif.C83_expression",
    "Verif.C83_serialize",
    "Verif.C83_one_line",
    "Verif.C83_print_lines",
    "Verif.C83_name_with_line_break"
   ],
   "note": "The converse, that every name with a line break breaks the line, is not claimed: some names are not printed (aliases outside joins)."
  },
  {
   "property": "C84",
   "status": "proved",
   "theorems": [
    "Verif.C84_rows",
    "Verif.C84_spares",
    "Verif.C84_storage_not_sent",
    "Verif.C84_string_accepted"
   ],
   "note": "For conditions that are sequences, as the type says; a string is accepted as well and sent as a string (C84_string_accepted)."
  },
  {
   "property": "C85",
   "status": "proved",
   "theorems": [
    "Verif.C85_same_class",
    "Verif.C85_match",
    "Verif.C85_required",
    "Verif.C85_no_where",
    "Verif.C85_required_stable",
    "Verif.C85_join",
    "Verif.C85_delete",
    "Verif.C85_flags",
    "Verif.C85_ops_unstable"
   ],
   "note": "Every message is tied to what must be true of the query; the order of the two operators in the time message is shown to depend on the hash seed."
  },
  {
   "property": "C86",
   "status": "proved",
   "theorems": [
    "Verif.C86_same_outcome",
    "Verif.C86_mql_linear",
    "Verif.C86_parse_tree"
   ],
   "note": "The count is of evaluations of expressions, not of the steps inside a regular expression, and repeated lookups in the cache are not counted."
  },
  {
   "property": "C87",
   "status": "proved",
   "theorems": [
    "Verif.C87_expression",
    "Verif.C87_print",
    "Verif.C87_serialize",
    "Verif.C87_keeps",
    "Verif.C87_validate",
    "Verif.C87_filters",
    "Verif.C87_metrics",
    "Verif.C87_merging_depends_on_values"
   ],
   "note": "The replacement is by value: equal literals are replaced alike. To compare two queries in which the same literal is replaced differently at two places, start from a third one with different values at these places. Limits, offsets and names are not values here. That merging depends on the values of function parameters is C87_merging_depends_on_values. Plain parameters of formulas and the parameters of their aggregates are printed with str, without quotes, and are not covered."
  },
  {
   "property": "C88",
   "status": "partial",
   "theorems": [
    "Verif.C88_expression",
    "Verif.C88_query",
    "Verif.C88_text_of_a_built_query_partial",
    "Verif.C88_tuples",
    "Verif.C88_violated_by_nested_lists"
   ],
   "note": "False as stated for lists inside nested expressions: after the list of an And inside an Or was emptied the query is still serialised (C88_violated_by_nested_lists). Proved: what each validate() rechecks, for all queries and changes; that the query is one that can be built if nested expressions hold no lists; that tuples are safe. A list that comes to contain itself is not modelled."
  },
  {
   "property": "C89",
   "status": "proved",
   "theorems": [
    "Verif.C89_same_class",
    "Verif.C89_same_class_join",
    "Verif.C89_message",
    "Verif.C89_one_reason",
    "Verif.C89_accepted",
    "Verif.C89_column_quoted",
    "Verif.C89_function_named",
    "Verif.C89_join",
    "Verif.C89_class_text"
   ],
   "note": "Exception class and full text for twenty constructors, as an iff with the first thing wrong; joins separately because their check follows the order of a set. Texts of values that Python prints through foreign code are left open."
  },
  {
   "property": "C90",
   "status": "proved",
   "theorems": [
    "Verif.C90_same_class",
    "Verif.C90_same_class_setters",
    "Verif.C90_same_class_validate",
    "Verif.C90_accepted",
    "Verif.C90_metric",
    "Verif.C90_timeseries",
    "Verif.C90_timeseries_setters",
    "Verif.C90_rollup",
    "Verif.C90_scope",
    "Verif.C90_formula",
    "Verif.C90_formula_setters",
    "Verif.C90_query_setters",
    "Verif.C90_option_setters",
    "Verif.C90_validate",
    "Verif.C90_valid_setters",
    "Verif.C90_message_given"
   ],
   "note": "Exception class and full text as an iff with the first unmet demand. Formulas whose fields are in order are assumed typed as annotated (as in C34). Texts of Python's TypeError and of str() of metrics objects are left open; the words of the MQL parser are those of C93."
  },
  {
   "property": "C91",
   "status": "proved",
   "theorems": [
    "Verif.C91_same_class",
    "Verif.C91_new",
    "Verif.C91_set_match",
    "Verif.C91_setters",
    "Verif.C91_validate",
    "Verif.C91_validate_own",
    "Verif.C91_inner",
    "Verif.C91_message_given",
    "Verif.C91_first",
    "Verif.C91_exact",
    "Verif.C91_lost_select",
    "Verif.C91_lost_groupby",
    "Verif.C91_totals_added"
   ],
   "note": "Setters and match: exact class and text, as an iff with the first unmet demand. Validation: the text is true of the query; for queries made with objects of the SDK the first fault in a fixed order is reported (which of several columns that do not fit the match is named depends on set order and is left open). Texts of exceptions raised by clauses that are no SDK objects are left open."
  },
  {
   "property": "C92",
   "status": "proved",
   "theorems": [
    "Verif.C92_same_class",
    "Verif.C92_delete",
    "Verif.C92_flags",
    "Verif.C92_request",
    "Verif.C92_deletion",
    "Verif.C92_metrics",
    "Verif.C92_query",
    "Verif.C92_head_first",
    "Verif.C92_dataset_replaced"
   ],
   "note": "Exception class and full text as an iff with the first unmet demand of head, query and flags. Metrics queries: under the typing hypothesis of C90; queries: for those made of objects of the SDK, which of several columns that do not fit the match is named is left open."
  },
  {
   "property": "C93",
   "status": "proved",
   "theorems": [
    "Verif.C93_same_class",
    "Verif.C93_faults",
    "Verif.C93_first",
    "Verif.C93_syntax",
    "Verif.C93_message_given",
    "Verif.C93_not_accused",
    "Verif.C93_in_metrics_query"
   ],
   "note": "Class and full text of every exception of parse_mql; the syntax error as an iff, the other faults as necessary patterns of the text."
  },
  {
   "property": "C94",
   "status": "proved",
   "theorems": [
    "Verif.C94_same_class",
    "Verif.C94_invalid",
    "Verif.C94_print",
    "Verif.C94_mappings",
    "Verif.C94_string",
    "Verif.C94_serialize",
    "Verif.C94_context"
   ],
   "note": "Messages of print and serialize; for serialize of timeseries and formulas the statement is about exceptions with a message of the SDK."
  },
  {
   "property": "C95",
   "status": "proved",
   "theorems": [
    "Verif.C95_same_class",
    "Verif.C95_same_class_query",
    "Verif.C95_invalid",
    "Verif.C95_deletion",
    "Verif.C95_string",
    "Verif.C95_metrics",
    "Verif.C95_query",
    "Verif.C95_json"
   ],
   "note": "Messages of to_dict, serialize and print; exact lists of demands for deletions and MQL strings, necessary conditions for the rest."
  },
  {
   "property": "C96",
   "status": "proved",
   "theorems": [
    "Verif.C96_clause",
    "Verif.C96_bound",
    "Verif.C96_extras",
    "Verif.C96_same_class",
    "Verif.C96_said",
    "Verif.C96_shape",
    "Verif.C96_entity",
    "Verif.C96_date",
    "Verif.C96_extra",
    "Verif.C96_nothing_selected"
   ],
   "note": "What can be said, for every body; the exact text for one fault in an otherwise convertible body; which constructor speaks for a clause, and in which order."
  },
  {
   "property": "C97",
   "status": "proved",
   "theorems": [
    "Verif.C97_found",
    "Verif.C97_class",
    "Verif.C97_no_conditions",
    "Verif.C97_unhashable",
    "Verif.C97_columns",
    "Verif.C97_returns"
   ],
   "note": "What a search that returns has found, and when a search returns; equal objects of a set are not merged in the model."
  }
 ]
}