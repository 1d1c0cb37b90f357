{
 "claims": [
  {
   "property": "C01",
   "status": "partial",
   "theorems": [
    "Treeno.Props.C01_round_trip_partial",
    "Treeno.Props.C01_exact",
    "Treeno.Props.C01_read_print_read",
    "Treeno.Props.C01_format_stable",
    "Treeno.Props.C01_text_determines",
    "Treeno.Props.C01_read_valid",
    "Treeno.Props.C01_negative_scale_fails",
    "Treeno.Props.C01_negative_length_fails",
    "Treeno.Props.C01_empty_row_fails"
   ],
   "note": "Proved exactly (iff): round trip holds for a valid type iff no length/scale is negative and no ROW is empty; the library lets one construct the exceptions (witnesses)."
  },
  {
   "property": "C02",
   "status": "proved",
   "theorems": [
    "Treeno.Props.C02_construction",
    "Treeno.Props.C02_name_supported",
    "Treeno.Props.C02_name_refused",
    "Treeno.Props.C02_unknown_parameter_refused",
    "Treeno.Props.C02_case_insensitive",
    "Treeno.Props.C02_rebuild",
    "Treeno.Props.C02_valid"
   ],
   "note": "Exact characterisation of construction (iff), name case-insensitivity, rebuild, validity at depth. A bool passed where an int is declared is outside the model."
  },
  {
   "property": "C03",
   "status": "proved",
   "theorems": [
    "Treeno.Props.C03_order_irrelevant",
    "Treeno.Props.C03_order_irrelevant_text"
   ],
   "note": "Keys distinct, as in any dict."
  },
  {
   "property": "C04",
   "status": "proved",
   "theorems": [
    "Treeno.Props.C04_arithmetic_symmetric"
   ],
   "note": "Success and result are symmetric; the exception class may differ between orders."
  },
  {
   "property": "C05",
   "status": "proved",
   "theorems": [
    "Treeno.Props.C05_arithmetic_covers",
    "Treeno.Props.C05_failure"
   ],
   "note": "Values as rationals; approximate types compared by significand bits."
  },
  {
   "property": "C06",
   "status": "proved",
   "theorems": [
    "Treeno.Props.C06_equal_types",
    "Treeno.Props.C06_integral_wider"
   ],
   "note": ""
  },
  {
   "property": "C07",
   "status": "partial",
   "theorems": [
    "Treeno.Props.C07_supertype_upper_bound_partial",
    "Treeno.Props.C07_unknown_witness",
    "Treeno.Props.C07_varchar_witness"
   ],
   "note": "False of the code for same-named types (result is the unknown type) and for long VARCHAR with CHAR; proved otherwise, witnesses proved."
  },
  {
   "property": "C08",
   "status": "proved",
   "theorems": [
    "Treeno.Props.C08_supertype_symmetric",
    "Treeno.Props.C08_supertype_idempotent"
   ],
   "note": "Full."
  },
  {
   "property": "C09",
   "status": "partial",
   "theorems": [
    "Treeno.Props.C09_supertype_loses_parameters",
    "Treeno.Props.C09_witness",
    "Treeno.Props.C09_same_named_partial",
    "Treeno.Props.C09_times_raise"
   ],
   "note": "False of the code for every instance of common_supertype (proved); the widening used by arithmetic typing is proved for decimals, varchars, chars; times always raise (proved)."
  },
  {
   "property": "C10",
   "status": "partial",
   "theorems": [
    "Treeno.Props.C10_integer_choice",
    "Treeno.Props.C10_integer_held_partial",
    "Treeno.Props.C10_overflow_witness"
   ],
   "note": "Choice proved exactly; 'holds' proved for 64-bit values, false beyond (witness)."
  },
  {
   "property": "C11",
   "status": "partial",
   "theorems": [
    "Treeno.Props.C11_decimal_held_partial",
    "Treeno.Props.C11_raises",
    "Treeno.Props.C11_exponent_witness",
    "Treeno.Props.C11_fraction_witness"
   ],
   "note": "Proved for plain notation; false for texts with exponents (witnesses)."
  },
  {
   "property": "C12",
   "status": "proved",
   "theorems": [
    "Treeno.Props.C12_idempotent",
    "Treeno.Props.C12_wrap_iff",
    "Treeno.Props.C12_scalars_wrap"
   ],
   "note": ""
  },
  {
   "property": "C13",
   "status": "partial",
   "theorems": [
    "Treeno.Props.C13_readable_partial",
    "Treeno.Props.C13_comment_false",
    "Treeno.Props.C13_interval_false",
    "Treeno.Props.C13_row_of_one_false",
    "Treeno.Props.C13_decimal_without_point_false",
    "Treeno.Props.C13_variable_false",
    "Treeno.Props.C13_types_forgotten",
    "Treeno.Props.C13_list_of_query_false",
    "Treeno.Props.C13_round_trip_partial",
    "Treeno.Props.C13_exact_partial",
    "Treeno.Props.C13_text_determines_tree_partial",
    "Treeno.Props.C13_reached",
    "Treeno.Props.C13_identified"
   ],
   "note": "Any depth, both modes, all node kinds, for trees that are Tidy and Fit (decidable conditions on names, numbers and operand positions) up to stated identifications. False otherwise; one witness theorem per kind of failure (comments, intervals, one-column rows, integral decimals, variables, forgotten types, lists holding a query)."
  },
  {
   "property": "C14",
   "status": "partial",
   "theorems": [
    "Treeno.Props.C14_round_trip_partial",
    "Treeno.Props.C14_queries_partial",
    "Treeno.Props.C14_text_partial",
    "Treeno.Props.C14_query_text_partial",
    "Treeno.Props.C14_reached",
    "Treeno.Props.C14_query_reached",
    "Treeno.Props.C14_meaning_example",
    "Treeno.Props.C14_quote_false",
    "Treeno.Props.C14_distinct_false",
    "Treeno.Props.C14_limit_zero_false"
   ],
   "note": "Proved for every model of SQL values and every environment: the printed text of every tidy tree and query, in both modes, reads as a parse tree with the same meaning, and the tree read back has the same meaning. Missing: trees outside Tidy/Fits/Rows; C14_quote_false, C14_distinct_false and C14_limit_zero_false show the full claim is false."
  },
  {
   "property": "C15",
   "status": "partial",
   "theorems": [
    "Treeno.Props.C15_operator_operands_partial",
    "Treeno.Props.C15_not_operand_partial",
    "Treeno.Props.C15_sign_operand_partial",
    "Treeno.Props.C15_isnull_operand_partial",
    "Treeno.Props.C15_between_operands_partial",
    "Treeno.Props.C15_in_operand_partial",
    "Treeno.Props.C15_in_query_operand_partial",
    "Treeno.Props.C15_like_operands_partial",
    "Treeno.Props.C15_operator_kept_partial",
    "Treeno.Props.C15_not_kept_partial",
    "Treeno.Props.C15_isnull_kept_partial",
    "Treeno.Props.C15_reached",
    "Treeno.Props.C15_distinct_regroups",
    "Treeno.Props.C15_subscript_regroups",
    "Treeno.Props.C15_lambda_regroups",
    "Treeno.Props.C15_comparison_unreadable",
    "Treeno.Props.C15_predicate_unreadable",
    "Treeno.Props.C15_distinct_unreadable"
   ],
   "note": "For every operator and operand: the operand is wrapped exactly when the rank table asks for it, and left bare operands bind at least as tightly as the grammar needs, except the listed forgotten parentheses (comparison chains, predicates over comparisons, DISTINCT FROM operands), each with a proved witness."
  },
  {
   "property": "C16",
   "status": "partial",
   "theorems": [
    "Treeno.Props.C16_expression_partial",
    "Treeno.Props.C16_query_partial",
    "Treeno.Props.C16_reached",
    "Treeno.Props.C16_query_reached",
    "Treeno.Props.C16_comparison_false",
    "Treeno.Props.C16_predicate_false",
    "Treeno.Props.C16_double_negation_false",
    "Treeno.Props.C16_minus_zero_false",
    "Treeno.Props.C16_pretty_false",
    "Treeno.Props.C16_variable_false"
   ],
   "note": "Proved for every tidy, fitting and stable tree (Spec/Tidy, Spec/Fits, Spec/Stable), in both modes and with every indentation. The C16_*_false theorems show a tree of each excluded kind whose second text differs; the second text of C16_comparison_false cannot even be read. Missing: trees outside Tidy/Fits, of which C13/C27 show that they are not read back at all."
  },
  {
   "property": "C17",
   "status": "partial",
   "theorems": [
    "Treeno.Props.C17_expression_tokens_partial",
    "Treeno.Props.C17_query_tokens_partial",
    "Treeno.Props.C17_comment",
    "Treeno.Props.C17_line_break"
   ],
   "note": "All tidy trees, any two option values. False for -(-x), whose text starts a comment, and for literals with line breaks (witnesses)."
  },
  {
   "property": "C18",
   "status": "proved",
   "theorems": [
    "Treeno.Props.C18_expression",
    "Treeno.Props.C18_query",
    "Treeno.Props.C18_relation",
    "Treeno.Props.C18_indentation",
    "Treeno.Props.C18_query_indentation",
    "Treeno.Props.C18_indentation_reached"
   ],
   "note": "All node kinds, any depth. A line break is any character at which str.splitlines breaks; the hypothesis covers every name and literal text in the tree."
  },
  {
   "property": "C19",
   "status": "proved",
   "theorems": [
    "Treeno.Props.C19_join_keeps_content",
    "Treeno.Props.C19_default_single_row"
   ],
   "note": ""
  },
  {
   "property": "C20",
   "status": "proved",
   "theorems": [
    "Treeno.Props.C20_rows_fit",
    "Treeno.Props.C20_layout_unique"
   ],
   "note": ""
  },
  {
   "property": "C21",
   "status": "proved",
   "theorems": [
    "Treeno.Props.C21_entries",
    "Treeno.Props.C21_update",
    "Treeno.Props.C21_default_text",
    "Treeno.Props.C21_pretty_text",
    "Treeno.Props.C21_river_text"
   ],
   "note": ""
  },
  {
   "property": "C22",
   "status": "partial",
   "theorems": [
    "Treeno.Props.C22_pad_partial",
    "Treeno.Props.C22_indentBy_lines",
    "Treeno.Props.C22_pad_loses_text"
   ],
   "note": "Proved for text whose only line break is newline and which does not end in one; false otherwise (witness)."
  },
  {
   "property": "C23",
   "status": "partial",
   "theorems": [
    "Treeno.Props.C23_quoted_name_partial",
    "Treeno.Props.C23_quote_breaks_name"
   ],
   "note": "Names without double quotes; false otherwise (witness)."
  },
  {
   "property": "C24",
   "status": "partial",
   "theorems": [
    "Treeno.Props.C24_quoted_string_partial",
    "Treeno.Props.C24_literal_text",
    "Treeno.Props.C24_quote_breaks_string"
   ],
   "note": "Strings without single quotes; false otherwise (witness)."
  },
  {
   "property": "C25",
   "status": "partial",
   "theorems": [
    "Treeno.Props.C25_parts_partial",
    "Treeno.Props.C25_injective_partial",
    "Treeno.Props.C25_columns_partial",
    "Treeno.Props.C25_tables_partial",
    "Treeno.Props.C25_quotes_confuse"
   ],
   "note": "Names without double quotes, non-empty qualifiers; false otherwise (witness)."
  },
  {
   "property": "C26",
   "status": "partial",
   "theorems": [
    "Treeno.Props.C26_denotes_partial",
    "Treeno.Props.C26_predicates",
    "Treeno.Props.C26_isnull_text",
    "Treeno.Props.C26_between_text",
    "Treeno.Props.C26_in_text",
    "Treeno.Props.C26_in_query_text",
    "Treeno.Props.C26_like_text",
    "Treeno.Props.C26_distinct_text",
    "Treeno.Props.C26_eq_text",
    "Treeno.Props.C26_ne_text",
    "Treeno.Props.C26_reached",
    "Treeno.Props.C26_example"
   ],
   "note": "The texts of all negated predicates are proved for arbitrary operands and options; that the text denotes the three-valued negation is proved for tidy operands."
  },
  {
   "property": "C27",
   "status": "partial",
   "theorems": [
    "Treeno.Props.C27_readable_partial",
    "Treeno.Props.C27_text_determines_tree_partial",
    "Treeno.Props.C27_set_operations_refused",
    "Treeno.Props.C27_union_refused",
    "Treeno.Props.C27_union_refused_reached",
    "Treeno.Props.C27_set_operation_false",
    "Treeno.Props.C27_nested_parentheses_false",
    "Treeno.Props.C27_aliased_join_false",
    "Treeno.Props.C27_fetch_first_dropped",
    "Treeno.Props.C27_distinct_dropped",
    "Treeno.Props.C27_trailing_text_ignored",
    "Treeno.Props.C27_round_trip_partial",
    "Treeno.Props.C27_exact_partial",
    "Treeno.Props.C27_reached"
   ],
   "note": "Whole queries, any depth, both modes, under the same conditions. False for every printed set operation (C27_set_operations_refused: none is read back; C27_union_refused: AttributeError), nested parentheses, aliased joins (witnesses); FETCH FIRST, COUNT(DISTINCT) and trailing text are dropped silently by the reader (witnesses)."
  },
  {
   "property": "C28",
   "status": "partial",
   "theorems": [
    "Treeno.Props.C28_limit_partial",
    "Treeno.Props.C28_offset_partial",
    "Treeno.Props.C28_zero_lost",
    "Treeno.Props.C28_set_operation_loses_all"
   ],
   "note": "Full claim is false: LIMIT 0 / OFFSET 0 are not printed (C28_zero_lost) and a set operation prints none of its own clauses (C28_set_operation_loses_all). Proved for non-zero values on SELECT, TABLE and VALUES queries."
  },
  {
   "property": "C29",
   "status": "partial",
   "theorems": [
    "Treeno.Props.C29_clauses_partial"
   ],
   "note": "Full clause list and layout for SELECT, TABLE and VALUES queries. Partial because LIMIT 0 and OFFSET 0 are set but not printed (C28_zero_lost). Set operations print no clauses (C28, C30)."
  },
  {
   "property": "C30",
   "status": "partial",
   "theorems": [
    "Treeno.Props.C30_text",
    "Treeno.Props.C30_quantifier",
    "Treeno.Props.C30_union_single",
    "Treeno.Props.C30_union_type_partial",
    "Treeno.Props.C30_column_count_unchecked"
   ],
   "note": "Text and quantifier proved; typing proved for unions of equal column counts and for sides that are no rows, column counts are not compared (C30_column_count_unchecked), INTERSECT/EXCEPT have unknown type."
  },
  {
   "property": "C31",
   "status": "partial",
   "theorems": [
    "Treeno.Props.C31_config_partial",
    "Treeno.Props.C31_meaningless_accepted"
   ],
   "note": "The code refuses only part of the meaningless configurations: cross+natural and criteria-less joins are accepted (witness)."
  },
  {
   "property": "C32",
   "status": "partial",
   "theorems": [
    "Treeno.Props.C32_constructed",
    "Treeno.Props.C32_parts",
    "Treeno.Props.C32_round_trip_partial",
    "Treeno.Props.C32_long_names_truncated"
   ],
   "note": "Longer names are truncated instead of refused (proved); the rest proved for names without double quotes."
  },
  {
   "property": "C33",
   "status": "partial",
   "theorems": [
    "Treeno.Props.C33_merge",
    "Treeno.Props.C33_contains",
    "Treeno.Props.C33_right_identity",
    "Treeno.Props.C33_left_identity_partial",
    "Treeno.Props.C33_left_identity_fails",
    "Treeno.Props.C33_idempotent",
    "Treeno.Props.C33_associative",
    "Treeno.Props.C33_succeeds",
    "Treeno.Props.C33_distinct_subqueries_merged",
    "Treeno.Props.C33_mixed_sources_raise"
   ],
   "note": "Exact description of the merged columns; idempotence, associativity and containment on success; success condition. False: empty schema is not a left identity when a column is repeated; columns of two subqueries are taken for equal; a subquery column against a table column of the same name raises (all proved)."
  },
  {
   "property": "C34",
   "status": "proved",
   "theorems": [
    "Treeno.Props.C34_found",
    "Treeno.Props.C34_ambiguous",
    "Treeno.Props.C34_missing",
    "Treeno.Props.C34_everywhere"
   ],
   "note": "Unique match, ambiguity, no match, and every reference at any depth of a resolved expression."
  },
  {
   "property": "C35",
   "status": "partial",
   "theorems": [
    "Treeno.Props.C35_found_partial",
    "Treeno.Props.C35_unknown_table",
    "Treeno.Props.C35_two_columns_raise",
    "Treeno.Props.C35_name_ignored"
   ],
   "note": "False of the code for tables with more than one column (raises) and the name is not compared (both proved)."
  },
  {
   "property": "C36",
   "status": "partial",
   "theorems": [
    "Treeno.Props.C36_star_type",
    "Treeno.Props.C36_select_partial",
    "Treeno.Props.C36_no_from",
    "Treeno.Props.C36_query",
    "Treeno.Props.C36_star_not_expanded"
   ],
   "note": "Proved for any select list; a star counts as one unnamed column of row type instead of being expanded (witness)."
  },
  {
   "property": "C37",
   "status": "partial",
   "theorems": [
    "Treeno.Props.C37_subquery_closed",
    "Treeno.Props.C37_from_subquery_closed",
    "Treeno.Props.C37_output_only",
    "Treeno.Props.C37_with_visible_partial",
    "Treeno.Props.C37_table_in_scope",
    "Treeno.Props.C37_table_not_in_scope",
    "Treeno.Props.C37_with_not_visible_to_later",
    "Treeno.Props.C37_with_not_visible_in_subquery",
    "Treeno.Props.C37_with_not_visible_in_union",
    "Treeno.Props.C37_expression_subquery_leaks"
   ],
   "note": "FROM subqueries closed, output only, WITH visible to the body. False of the code: definitions do not see earlier ones, subqueries and set operation sides do not see the WITH clause, subqueries inside expressions see the columns around them (witnesses)."
  },
  {
   "property": "C38",
   "status": "proved",
   "theorems": [
    "Treeno.Props.C38_alias",
    "Treeno.Props.C38_columns",
    "Treeno.Props.C38_too_few"
   ],
   "note": "Exact columns with and without a column list; too short a list raises."
  },
  {
   "property": "C39",
   "status": "partial",
   "theorems": [
    "Treeno.Props.C39_reflexive",
    "Treeno.Props.C39_symmetric",
    "Treeno.Props.C39_transitive",
    "Treeno.Props.C39_structure_partial",
    "Treeno.Props.C39_expression_objects",
    "Treeno.Props.C39_query_objects",
    "Treeno.Props.C39_relation_objects",
    "Treeno.Props.C39_class",
    "Treeno.Props.C39_structure_reached",
    "Treeno.Props.C39_operator_false",
    "Treeno.Props.C39_function_false",
    "Treeno.Props.C39_set_false",
    "Treeno.Props.C39_order_false",
    "Treeno.Props.C39_value_false"
   ],
   "note": "Equivalence is proved for all nodes (window dicts with distinct keys, as in Python). That equal nodes are identical is false (C39_*_false: operator, function, set operation, order of named windows, value of constants) and proved for nodes of the same shape (Spec/Identity.lean). Objects are in Verif/Object.lean; a table that is the source of its own remembered columns is a cyclic object, on which asdict does not return, and is outside the model."
  },
  {
   "property": "C40",
   "status": "partial",
   "theorems": [
    "Treeno.Props.C40_binds_partial",
    "Treeno.Props.C40_duplicate_inputs",
    "Treeno.Props.C40_no_column_left",
    "Treeno.Props.C40_nested",
    "Treeno.Props.C40_exact",
    "Treeno.Props.C40_table_raises"
   ],
   "note": "C40_exact gives the result for every input list and expression. The claim is false for expressions that contain a table, for which building always raises (C40_exact, C40_table_raises)."
  },
  {
   "property": "C41",
   "status": "partial",
   "theorems": [
    "Treeno.Props.C41_text",
    "Treeno.Props.C41_kept_partial",
    "Treeno.Props.C41_own",
    "Treeno.Props.C41_words",
    "Treeno.Props.C41_star",
    "Treeno.Props.C41_reached",
    "Treeno.Props.C41_swapped",
    "Treeno.Props.C41_distinct_lost",
    "Treeno.Props.C41_own_reached",
    "Treeno.Props.C41_own_fails"
   ],
   "note": "For every text that is a call (any spelling, any arguments). The swapped APPROX_PERCENTILE arguments (C41_swapped) are a defect of the code; DISTINCT in front of the arguments is dropped (C41_distinct_lost). Functions with a syntax of their own are reachable by a quoted name; C41_own says what such calls are read as. The arguments LISTAGG, NORMALIZE and the time functions would take beyond the first are not modelled there."
  },
  {
   "property": "C42",
   "status": "partial",
   "theorems": [
    "Treeno.Props.C42_unknown",
    "Treeno.Props.C42_char_length_partial",
    "Treeno.Props.C42_unbounded_varchar_counts_one",
    "Treeno.Props.C42_varchar",
    "Treeno.Props.C42_varbinary",
    "Treeno.Props.C42_array_partial",
    "Treeno.Props.C42_element_supertype_lost",
    "Treeno.Props.C42_depths"
   ],
   "note": "CHAR with unbounded VARCHAR counts one character; array element supertypes are lost (witnesses)."
  },
  {
   "property": "C43",
   "status": "partial",
   "theorems": [
    "Treeno.Props.C43_if_condition",
    "Treeno.Props.C43_types",
    "Treeno.Props.C43_coalesce_same",
    "Treeno.Props.C43_case_first_branch",
    "Treeno.Props.C43_coalesce_unknown_raises",
    "Treeno.Props.C43_case_partial"
   ],
   "note": "CASE takes the type of its first branch only; COALESCE of unknown operands raises (witnesses)."
  },
  {
   "property": "C44",
   "status": "partial",
   "theorems": [
    "Treeno.Props.C44_text",
    "Treeno.Props.C44_distinct",
    "Treeno.Props.C44_reading",
    "Treeno.Props.C44_recovered_partial",
    "Treeno.Props.C44_reached"
   ],
   "note": "C44_text: the exact suffix in every mode; C44_distinct: different directions/null orders never print alike; C44_reading: every way of writing a term is read as the right term. Missing: terms whose value is itself not read back (see C13)."
  },
  {
   "property": "C45",
   "status": "partial",
   "theorems": [
    "Treeno.Props.C45_recovered_partial",
    "Treeno.Props.C45_reached",
    "Treeno.Props.C45_row_lost",
    "Treeno.Props.C45_subquery_lost"
   ],
   "note": "Printed GROUP BY reads back. Missing: values not read back (C13) and a grouping set made of one row constructor, which prints like a set of several values (C45_row_lost proves the confusion), or of one query, which loses its parentheses (C45_subquery_lost)."
  },
  {
   "property": "C46",
   "status": "partial",
   "theorems": [
    "Treeno.Props.C46_text",
    "Treeno.Props.C46_recovered_partial",
    "Treeno.Props.C46_reached",
    "Treeno.Props.C46_over_name",
    "Treeno.Props.C46_parent_clash"
   ],
   "note": "C46_text: parent, partition, order, frame in order, in every mode. Missing: values not read back (C13), parent names that are keywords; a parent called RANGE makes printing fail (C46_parent_clash)."
  },
  {
   "property": "C47",
   "status": "partial",
   "theorems": [
    "Treeno.Props.C47_reading_partial",
    "Treeno.Props.C47_reached",
    "Treeno.Props.C47_sign_reached",
    "Treeno.Props.C47_printed_without_quotes",
    "Treeno.Props.C47_unreadable"
   ],
   "note": "Reading proved (sign, value, units). Printing omits the quotes, so the printed text of a whole-number interval never parses: proved for all such intervals."
  },
  {
   "property": "C48",
   "status": "partial",
   "theorems": [
    "Treeno.Props.C48_value",
    "Treeno.Props.C48_accepted",
    "Treeno.Props.C48_negative_partial",
    "Treeno.Props.C48_long_negative_false",
    "Treeno.Props.C48_too_long_refused",
    "Treeno.Props.C48_reached"
   ],
   "note": "Proved for unsigned decimals; a minus sign rounds values of more than 28 digits (witness), proved up to 28 digits."
  },
  {
   "property": "C49",
   "status": "partial",
   "theorems": [
    "Treeno.Props.C49_children_partial",
    "Treeno.Props.C49_traversal_partial",
    "Treeno.Props.C49_closed",
    "Treeno.Props.C49_at_most_once",
    "Treeno.Props.C49_dispatch_partial",
    "Treeno.Props.C49_returns",
    "Treeno.Props.C49_qdigest_false",
    "Treeno.Props.C49_select_false",
    "Treeno.Props.C49_orderby_false",
    "Treeno.Props.C49_aggregate_false",
    "Treeno.Props.C49_listagg_false",
    "Treeno.Props.C49_cross_join_false",
    "Treeno.Props.C49_lambda_false",
    "Treeno.Props.C49_traversal_reached",
    "Treeno.Props.C49_traversal_join"
   ],
   "note": "Children are nodes held by attributes, lists and dict values; data types do not count. Exactly once for the classes in Spec.covered, at most once for all; the other classes leave children out or hand over something else (witnesses proved for all their instances). Whole-tree traversal follows for trees of covered nodes."
  },
  {
   "property": "C50",
   "status": "partial",
   "theorems": [
    "Treeno.Props.C50_meaning_expression",
    "Treeno.Props.C50_meaning_query",
    "Treeno.Props.C50_expression",
    "Treeno.Props.C50_expressions",
    "Treeno.Props.C50_query",
    "Treeno.Props.C50_body",
    "Treeno.Props.C50_from",
    "Treeno.Props.C50_with",
    "Treeno.Props.C50_named",
    "Treeno.Props.C50_relation",
    "Treeno.Props.C50_empty_partial",
    "Treeno.Props.C50_star_empty"
   ],
   "note": "Expressions, queries, relations, WITH clauses at any depth. Empty schema: unchanged except stars, which get the empty row type (witness)."
  },
  {
   "property": "C51",
   "status": "proved",
   "theorems": [
    "Treeno.Props.C51_text",
    "Treeno.Props.C51_type",
    "Treeno.Props.C51_read_back",
    "Treeno.Props.C51_reached"
   ],
   "note": "Text, type and read-back, all precisions."
  },
  {
   "property": "C52",
   "status": "proved",
   "theorems": [
    "Treeno.Props.C52_lossless",
    "Treeno.Props.C52_tokens_nonempty",
    "Treeno.Props.C52_longest_match",
    "Treeno.Props.C52_deterministic",
    "Treeno.Props.C52_keywords",
    "Treeno.Props.C52_operators",
    "Treeno.Props.C52_classes"
   ],
   "note": ""
  },
  {
   "property": "C53",
   "status": "proved",
   "theorems": [
    "Treeno.Props.C53_expression_complete_cased",
    "Treeno.Props.C53_query_complete_cased",
    "Treeno.Props.C53_expression_sound",
    "Treeno.Props.C53_query_sound",
    "Treeno.Props.C53_comparison_operands",
    "Treeno.Props.C53_left_associative",
    "Treeno.Props.C53_expression_complete",
    "Treeno.Props.C53_query_complete",
    "Treeno.Props.C53_unambiguous",
    "Treeno.Props.C53_unambiguous_queries",
    "Treeno.Props.C53_expression_complete_reached",
    "Treeno.Props.C53_expression_sound_reached",
    "Treeno.Props.C53_query_sound_reached",
    "Treeno.Props.C53_types_sound",
    "Treeno.Props.C53_type_text_sound",
    "Treeno.Props.C53_type_text_complete_consumption"
   ],
   "note": "Types, expressions and queries: whatever is accepted is a derivation of the written grammar with exactly the tokens of the text, precedence and associativity included; plain derivations (every form of expression, query and relation, with keywords in upper case, names that are none of the special words, and types as they are printed) are found and are unambiguous; reserved words other than DISTINCT may also be in lower case. Error recovery of the parser generator is outside the model: a text that is not derivable is an error."
  },
  {
   "property": "C54",
   "status": "partial",
   "theorems": [
    "Treeno.Props.C54_text",
    "Treeno.Props.C54_pow_text",
    "Treeno.Props.C54_builds",
    "Treeno.Props.C54_reflected_meaning",
    "Treeno.Props.C54_literal_left_raises",
    "Treeno.Props.C54_node_partial",
    "Treeno.Props.C54_unary"
   ],
   "note": "Reflected arithmetic and logic with a literal on the left raises (witness); everything else proved."
  },
  {
   "property": "C55",
   "status": "partial",
   "theorems": [
    "Treeno.Props.C55_fraction_digits",
    "Treeno.Props.C55_no_fraction",
    "Treeno.Props.C55_time_type_partial",
    "Treeno.Props.C55_time_whole_partial",
    "Treeno.Props.C55_timestamp_precision_lost",
    "Treeno.Props.C55_timestamp_false",
    "Treeno.Props.C55_zone_false"
   ],
   "note": "TIME literals proved exactly. False for TIMESTAMP, whose inferred precision is lost for every text (C55_timestamp_precision_lost, C55_timestamp_false), and for offsets without a blank in front (C55_zone_false)."
  },
  {
   "property": "C56",
   "status": "partial",
   "theorems": [
    "Treeno.Props.C56_printed_partial",
    "Treeno.Props.C56_query_partial",
    "Treeno.Props.C56_relation_partial",
    "Treeno.Props.C56_same_for_all_options",
    "Treeno.Props.C56_printed_is_printable",
    "Treeno.Props.C56_normalize_false",
    "Treeno.Props.C56_window_false",
    "Treeno.Props.C56_window_reached",
    "Treeno.Props.C56_indentation_false"
   ],
   "note": "Exact characterisation on accepted trees (iff): with indentation below 80, sql returns text exactly if the tree contains no NORMALIZE and no window whose parent is named like the first word of one of its clauses. The excluded cases are proved to raise: C56_normalize_false, C56_window_false, C56_indentation_false."
  },
  {
   "property": "C57",
   "status": "partial",
   "theorems": [
    "Treeno.Props.C57_expression_partial",
    "Treeno.Props.C57_query_partial",
    "Treeno.Props.C57_same_partial",
    "Treeno.Props.C57_expression_reached",
    "Treeno.Props.C57_query_reached",
    "Treeno.Props.C57_quoted_name_false",
    "Treeno.Props.C57_quoted_string_false",
    "Treeno.Props.C57_quotes_stripped_false",
    "Treeno.Props.C57_parentheses_false",
    "Treeno.Props.C57_distinct_false",
    "Treeno.Props.C57_percentile_false",
    "Treeno.Props.C57_quoted_word_false",
    "Treeno.Props.C57_window_false",
    "Treeno.Props.C57_interval_false",
    "Treeno.Props.C57_decimal_false",
    "Treeno.Props.C57_fetch_false",
    "Treeno.Props.C57_all_columns_false",
    "Treeno.Props.C57_long_name_false",
    "Treeno.Props.C57_double_parentheses_false",
    "Treeno.Props.C57_exists_false",
    "Treeno.Props.C57_case_operand_false",
    "Treeno.Props.C57_window_names_false",
    "Treeno.Props.C57_zone_false",
    "Treeno.Props.C57_zone_dropped",
    "Treeno.Props.C57_quantified_refused",
    "Treeno.Props.C57_binary_false",
    "Treeno.Props.C57_zone_reached"
   ],
   "note": "Proved for every accepted text, every model and environment, provided the parse tree is kept (Spec/Kept.lean: none of the constructs the visitor is known to change or drop). The C57_*_false theorems show, in the term model, a text of each excluded kind whose tree has another meaning. Double literals are constants of the double that Python holds. Unicode string literals are included when every escape has four digits."
  },
  {
   "property": "C58",
   "status": "proved",
   "theorems": [
    "Treeno.Props.C58_expression",
    "Treeno.Props.C58_expressions",
    "Treeno.Props.C58_query",
    "Treeno.Props.C58_body",
    "Treeno.Props.C58_from",
    "Treeno.Props.C58_with",
    "Treeno.Props.C58_named",
    "Treeno.Props.C58_relation",
    "Treeno.Props.C58_reached"
   ],
   "note": ""
  },
  {
   "property": "C59",
   "status": "partial",
   "theorems": [
    "Treeno.Props.C59_resolving_keeps_text",
    "Treeno.Props.C59_resolving_keeps_text_expression",
    "Treeno.Props.C59_query",
    "Treeno.Props.C59_query_again_partial",
    "Treeno.Props.C59_expression_again_partial",
    "Treeno.Props.C59_type_again_partial",
    "Treeno.Props.C59_reached",
    "Treeno.Props.C59_refused"
   ],
   "note": "C59_query is exact (iff). Formatting again: proved for query trees in the round-trip fragment of C27 that are read back exactly, for stable expressions (C16) and readable types (C01); outside those fragments printing itself is not faithful (see C13, C16, C27). C59_refused: a VALUES query cannot be formatted, because its resolution raises."
  },
  {
   "property": "C60",
   "status": "partial",
   "theorems": [
    "Treeno.Props.C60_columns",
    "Treeno.Props.C60_listing_partial",
    "Treeno.Props.C60_reached",
    "Treeno.Props.C60_unnamed_false"
   ],
   "note": "C60_columns is exact (iff), C60_listing_partial covers named columns of known type. False for unnamed columns, which are listed under the name None (C60_unnamed_false)."
  },
  {
   "property": "C61",
   "status": "partial",
   "theorems": [
    "Treeno.Props.C61_clauses_partial",
    "Treeno.Props.C61_none",
    "Treeno.Props.C61_case_partial",
    "Treeno.Props.C61_unsupported",
    "Treeno.Props.C61_reached",
    "Treeno.Props.C61_where_false",
    "Treeno.Props.C61_from_false",
    "Treeno.Props.C61_parentheses_false"
   ],
   "note": "Exact (iff) for every accepted SELECT. Partial because the claim is false in two cases, which the statement names: a WHERE, HAVING or CASE operand of a form without visitor method (binary literals, EXISTS, POSITION, SUBSTRING, EXTRACT, TRIM, GROUPING) is dropped (C61_where_false), and so is a FROM that is a query in more than one pair of parentheses (C61_from_false)."
  },
  {
   "property": "C62",
   "status": "partial",
   "theorems": [
    "Treeno.Props.C62_constants_expression",
    "Treeno.Props.C62_constants_query",
    "Treeno.Props.C62_typed_expression",
    "Treeno.Props.C62_typed_query",
    "Treeno.Props.C62_query",
    "Treeno.Props.C62_query_total",
    "Treeno.Props.C62_expression",
    "Treeno.Props.C62_expression_total",
    "Treeno.Props.C62_type_false",
    "Treeno.Props.C62_type_reached",
    "Treeno.Props.C62_nodes_query",
    "Treeno.Props.C62_nodes_expression",
    "Treeno.Props.C62_choices",
    "Treeno.Props.C62_sort_key",
    "Treeno.Props.C62_window_false",
    "Treeno.Props.C62_determines_expression_partial",
    "Treeno.Props.C62_determines_query_partial",
    "Treeno.Props.C62_same_picture_query",
    "Treeno.Props.C62_same_picture_expression",
    "Treeno.Props.C62_untyped_false",
    "Treeno.Props.C62_reached",
    "Treeno.Props.C62_same_picture_reached"
   ],
   "note": "C62_query, C62_expression: exact (iff). C62_same_picture_query and _expression hold for all inputs; for trees built by hand C62_determines_* need constants of a type of their kind (C62_untyped_false). False for types, for which the command always fails (C62_type_false), and for the class of named windows (C62_window_false). nltk's drawing of the tree is not modelled."
  },
  {
   "property": "C63",
   "status": "partial",
   "theorems": [
    "Treeno.Props.C63_tests",
    "Treeno.Props.C63_predicates",
    "Treeno.Props.C63_predicates_build",
    "Treeno.Props.C63_interval",
    "Treeno.Props.C63_current",
    "Treeno.Props.C63_arithmetic_agree",
    "Treeno.Props.C63_difference_partial",
    "Treeno.Props.C63_difference_builds",
    "Treeno.Props.C63_difference_raises",
    "Treeno.Props.C63_containers",
    "Treeno.Props.C63_select",
    "Treeno.Props.C63_values",
    "Treeno.Props.C63_reached"
   ],
   "note": "C63_difference_partial needs that the difference can be built: two TIMESTAMPs, or two TIMEs, of different precision or zone raise (C63_difference_raises), because get_arithmetic_type does."
  },
  {
   "property": "C64",
   "status": "partial",
   "theorems": [
    "Treeno.Props.C64_scalar_partial",
    "Treeno.Props.C64_aggregate_partial",
    "Treeno.Props.C64_containers",
    "Treeno.Props.C64_extrema",
    "Treeno.Props.C64_extrema_count_false",
    "Treeno.Props.C64_sum_false",
    "Treeno.Props.C64_unixtime_false",
    "Treeno.Props.C64_statistics_unknown",
    "Treeno.Props.C64_kurtosis_refused",
    "Treeno.Props.C64_reached"
   ],
   "note": "False for FROM_UNIXTIME of a number and the one-column statistics (UNKNOWN), SUM of a narrow integer, MAX/MIN/MAX_BY/MIN_BY with a count, and KURTOSIS, which cannot be built with its one argument; all shown."
  },
  {
   "property": "C65",
   "status": "proved",
   "theorems": [
    "Treeno.Props.C65_chain",
    "Treeno.Props.C65_ordered",
    "Treeno.Props.C65_reached",
    "Treeno.Props.C65_precedence"
   ],
   "note": "Chains of any length of SELECT, TABLE and VALUES operands that can be read back, with any operations and quantifiers; the grouping is compared with a separate left-to-right definition. Operands in parentheses are refused by the visitor (C27_set_operations_refused)."
  },
  {
   "property": "C66",
   "status": "partial",
   "theorems": [
    "Treeno.Props.C66_expression_accepted",
    "Treeno.Props.C66_query_accepted",
    "Treeno.Props.C66_expression_reserved_partial",
    "Treeno.Props.C66_query_reserved_partial",
    "Treeno.Props.C66_expression_partial",
    "Treeno.Props.C66_query_partial",
    "Treeno.Props.C66_type_partial",
    "Treeno.Props.C66_distinct_lower",
    "Treeno.Props.C66_limit_all_lower",
    "Treeno.Props.C66_sample_lower",
    "Treeno.Props.C66_interval_lower",
    "Treeno.Props.C66_interval_value_lower",
    "Treeno.Props.C66_name_case"
   ],
   "note": "Acceptance never depends on case. The tree does not depend on the case of reserved words other than DISTINCT, nor on any keyword that is not used as a name, interval field, quantifier, LIMIT ALL or sampling method; for types, on any word but interval fields. False in general: distinct, limit all, tablesample bernoulli and interval fields in lower case raise (witnesses)."
  },
  {
   "property": "C67",
   "status": "partial",
   "theorems": [
    "Treeno.Props.C67_join_partial",
    "Treeno.Props.C67_join_disjoint",
    "Treeno.Props.C67_using_not_joined",
    "Treeno.Props.C67_join_kind",
    "Treeno.Props.C67_sample",
    "Treeno.Props.C67_lateral",
    "Treeno.Props.C67_unnest_partial",
    "Treeno.Props.C67_ordinality_missing",
    "Treeno.Props.C67_unnest_map",
    "Treeno.Props.C67_set",
    "Treeno.Props.C67_table",
    "Treeno.Props.C67_table_order",
    "Treeno.Props.C67_values_raise"
   ],
   "note": "Column order and names proved for all relations. False of the code: a join drops columns of its right side that equal one of its left side (C33_distinct_subqueries_merged), USING columns appear twice, WITH ORDINALITY adds no column, a map gives one column of unknown type, VALUES raises (witnesses)."
  },
  {
   "property": "C68",
   "status": "proved",
   "theorems": [
    "Treeno.Props.C68_white_space",
    "Treeno.Props.C68_tokens",
    "Treeno.Props.C68_comments",
    "Treeno.Props.C68_minus_comment",
    "Treeno.Props.C68_open_quote"
   ],
   "note": "White space for all texts; comments for texts without unknown characters, with no line comment directly after a minus sign or brace (witnesses show that both conditions are needed)."
  },
  {
   "property": "C69",
   "status": "partial",
   "theorems": [
    "Treeno.Props.C69_exact_partial",
    "Treeno.Props.C69_unique",
    "Treeno.Props.C69_in_context",
    "Treeno.Props.C69_time_zone",
    "Treeno.Props.C69_array_of",
    "Treeno.Props.C69_precision_limit",
    "Treeno.Props.C69_named_field_fails",
    "Treeno.Props.C69_named_field_word_fails",
    "Treeno.Props.C69_alias_fails",
    "Treeno.Props.C69_lower_case_interval_fails",
    "Treeno.Props.C69_extra_parameter"
   ],
   "note": "Exact for all texts. False of the code: named fields of a row, INT and DEC and intervals in lower case are refused; parameters beyond those of a type are ignored (witnesses)."
  },
  {
   "property": "C70",
   "status": "partial",
   "theorems": [
    "Treeno.Props.C70_read_partial",
    "Treeno.Props.C70_uescape_partial",
    "Treeno.Props.C70_exact",
    "Treeno.Props.C70_plain",
    "Treeno.Props.C70_six_digits_fails",
    "Treeno.Props.C70_six_digits_reached",
    "Treeno.Props.C70_doubled_fails",
    "Treeno.Props.C70_doubled_reached",
    "Treeno.Props.C70_backslash_false",
    "Treeno.Props.C70_empty_escape_rejected",
    "Treeno.Props.C70_python_escapes",
    "Treeno.Props.C70_quote_unprintable"
   ],
   "note": "Read correctly for every text whose escapes have four digits and that has no other backslash or quote; with the default escape character these are exactly the texts without quotes that are accepted. False of the code: escapes with six digits and a doubled escape character are refused, with UESCAPE a backslash is taken for a Python escape, and a literal that stands for a quote gives a tree whose text cannot be read (witnesses)."
  },
  {
   "property": "C71",
   "status": "partial",
   "theorems": [
    "Treeno.Props.C71_unique",
    "Treeno.Props.C71_value_partial",
    "Treeno.Props.C71_overflow",
    "Treeno.Props.C71_never",
    "Treeno.Props.C71_point_false",
    "Treeno.Props.C71_large_unreadable",
    "Treeno.Props.C71_small_unreadable",
    "Treeno.Props.C71_infinity_false",
    "Treeno.Props.C71_text"
   ],
   "note": "Value, overflow and the printed digits are proved for every double literal. That the printed text is read back as the same constant is false of the code for every double literal (C71_never): from 0.0001 to 1e16 it is read as a DECIMAL, outside it cannot be read (exponents are printed with a lower-case e), and infinity is printed as a column name."
  },
  {
   "property": "C72",
   "status": "proved",
   "theorems": [
    "Treeno.Props.C72_cast",
    "Treeno.Props.C72_subscript",
    "Treeno.Props.C72_row",
    "Treeno.Props.C72_case",
    "Treeno.Props.C72_parenthesised",
    "Treeno.Props.C72_operator",
    "Treeno.Props.C72_not_distinct",
    "Treeno.Props.C72_concat",
    "Treeno.Props.C72_like",
    "Treeno.Props.C72_not_like",
    "Treeno.Props.C72_not",
    "Treeno.Props.C72_minus",
    "Treeno.Props.C72_plus",
    "Treeno.Props.C72_is_null",
    "Treeno.Props.C72_is_not_null",
    "Treeno.Props.C72_between",
    "Treeno.Props.C72_in",
    "Treeno.Props.C72_array",
    "Treeno.Props.C72_call",
    "Treeno.Props.C72_aggregate",
    "Treeno.Props.C72_in_query",
    "Treeno.Props.C72_select",
    "Treeno.Props.C72_parentheses_needed",
    "Treeno.Props.C72_line_end_needed",
    "Treeno.Props.C72_converse_false",
    "Treeno.Props.C72_query",
    "Treeno.Props.C72_query_read",
    "Treeno.Props.C72_with",
    "Treeno.Props.C72_union_operands_false",
    "Treeno.Props.C72_qualified_star_false",
    "Treeno.Props.C72_parens_false",
    "Treeno.Props.C72_rollup_false",
    "Treeno.Props.C72_catalog_false",
    "Treeno.Props.C72_windows_false",
    "Treeno.Props.C72_values_false",
    "Treeno.Props.C72_window",
    "Treeno.Props.C72_star"
   ],
   "note": "Parts are expressions other than a subquery already in parentheses, or queries read to the end of their text; names are those without a double quote. Operands of set operations stand without parentheses, since a query in parentheses is no operand in this code (C72_union_operands_false), and the constructors must accept them. That the parentheses and the line end are needed, and that the converse is false, is proved too."
  },
  {
   "property": "C73",
   "status": "partial",
   "theorems": [
    "Treeno.Props.C73_deterministic",
    "Treeno.Props.C73_terminates",
    "Treeno.Props.C73_attributes",
    "Treeno.Props.C73_text",
    "Treeno.Props.C73_query_text",
    "Treeno.Props.C73_query_meaning",
    "Treeno.Props.C73_others",
    "Treeno.Props.C73_local",
    "Treeno.Props.C73_order",
    "Treeno.Props.C73_unshared_partial",
    "Treeno.Props.C73_twice",
    "Treeno.Props.C73_shared_exact",
    "Treeno.Props.C73_shared_twice",
    "Treeno.Props.C73_own_reached",
    "Treeno.Props.C73_shared_table_false",
    "Treeno.Props.C73_shared_reached",
    "Treeno.Props.C73_not_undone"
   ],
   "note": "Everything but the last sentence is proved for every heap. The last sentence is proved when no object is used at two places (with exceptions), and with any sharing exactly if each object has one resolution (C73_shared_exact). It is false of the code otherwise: a table used twice remembers columns (C73_shared_table_false)."
  },
  {
   "property": "C74",
   "status": "partial",
   "theorems": [
    "Treeno.Props.C74_select_partial",
    "Treeno.Props.C74_set_never",
    "Treeno.Props.C74_set_stale_false",
    "Treeno.Props.C74_select_reached",
    "Treeno.Props.C74_unnest",
    "Treeno.Props.C74_unnest_reached",
    "Treeno.Props.C74_no_from",
    "Treeno.Props.C74_table",
    "Treeno.Props.C74_table_reached"
   ],
   "note": "Proved for SELECT. False of the code for set operations, which keep the data_type they were built with, and for TABLE t, which is UNKNOWN; VALUES cannot be resolved (C67)."
  },
  {
   "property": "C75",
   "status": "partial",
   "theorems": [
    "Treeno.Props.C75_construct",
    "Treeno.Props.C75_text",
    "Treeno.Props.C75_zone",
    "Treeno.Props.C75_others",
    "Treeno.Props.C75_added",
    "Treeno.Props.C75_unchanged",
    "Treeno.Props.C75_again",
    "Treeno.Props.C75_shared_exact",
    "Treeno.Props.C75_dict_kept_false",
    "Treeno.Props.C75_shared_false",
    "Treeno.Props.C75_no_arguments",
    "Treeno.Props.C75_builder",
    "Treeno.Props.C75_builder_others",
    "Treeno.Props.C75_builders",
    "Treeno.Props.C75_builders_reached"
   ],
   "note": "The constructor writes the defaults into the caller's dict and keeps that dict (C75_dict_kept_false), so two types built from one dict change each other and may stop printing (C75_shared_false). C75_unchanged and C75_shared_exact say exactly when this is harmless (iff). What is built (C75_construct, iff), its text (C75_text), independence of types with different dicts (C75_others, C75_again) and the builder functions in every sequence of calls (C75_builder, C75_builders) are proved in full."
  },
  {
   "property": "C76",
   "status": "proved",
   "theorems": [
    "Treeno.Props.C76_expression",
    "Treeno.Props.C76_query",
    "Treeno.Props.C76_parts",
    "Treeno.Props.C76_printed",
    "Treeno.Props.C76_expression_printed",
    "Treeno.Props.C76_format",
    "Treeno.Props.C76_reached",
    "Treeno.Props.C76_normalize_read",
    "Treeno.Props.C76_refused"
   ],
   "note": "C76_expression, C76_query and C76_parts for all texts; C76_printed and C76_format are equivalences. C76_normalize_read shows a text that is read and never printed."
  },
  {
   "property": "C77",
   "status": "partial",
   "theorems": [
    "Treeno.Props.C77_picture_partial",
    "Treeno.Props.C77_words",
    "Treeno.Props.C77_drawn",
    "Treeno.Props.C77_drawn_exact",
    "Treeno.Props.C77_unmatched",
    "Treeno.Props.C77_expression_partial",
    "Treeno.Props.C77_type_partial",
    "Treeno.Props.C77_query_partial",
    "Treeno.Props.C77_string_false",
    "Treeno.Props.C77_parentheses_false"
   ],
   "note": "False with parentheses: they are never shown (C77_parentheses_false, for all trees), and '(' is accepted as an expression but no parse tree of it can be drawn (C77_string_false). C77_drawn_exact says exactly when a tree is drawn, C77_unmatched when ValueError is raised, C77_words that nothing but parentheses and white space is lost, C77_picture_partial that the picture is the parse tree when there are no parentheses. C77_expression_partial, C77_type_partial and C77_query_partial: accepted texts are drawn unless a string or quoted name holds parentheses that do not match. pretty_print is not modelled."
  }
 ]
}
