{
 "claims": [
  {
   "property": "C01",
   "status": "proved",
   "theorems": [
    "Verif.Filter.C01_filter_text",
    "Verif.Filter.C01_filter_placeholders",
    "Verif.Filter.C01_operator_words"
   ],
   "note": "All call sequences, nesting depths, values and positions; exact panic condition past $65535."
  },
  {
   "property": "C02",
   "status": "proved",
   "theorems": [
    "Verif.Filter.C02_values_not_in_text"
   ],
   "note": "Column value converters must themselves not turn values into a different nil/bool/other shape (ConvertersOK)."
  },
  {
   "property": "C03",
   "status": "proved",
   "theorems": [
    "Verif.Filter.C03_parens_nested"
   ],
   "note": "FQL inputs, if any, must have nested parentheses and run without error."
  },
  {
   "property": "C04",
   "status": "proved",
   "theorems": [
    "Verif.Filter.C04_where_grammatical",
    "Verif.Filter.C04_not_grammatical_trailing_connective",
    "Verif.Filter.C04_not_grammatical_nil_operator",
    "Verif.Filter.C04_not_grammatical_empty_group",
    "Verif.Filter.C04_not_valid_empty_in"
   ],
   "note": "Grammar under the usage rules; concrete malformed outputs outside of them, and `IN ()` inside of them."
  },
  {
   "property": "C05",
   "status": "proved",
   "theorems": [
    "Verif.Filter.C05_count_filter",
    "Verif.Filter.C05_count_filter_where"
   ],
   "note": ""
  },
  {
   "property": "C06",
   "status": "proved",
   "theorems": [
    "Verif.Filter.C06_limit_offset"
   ],
   "note": ""
  },
  {
   "property": "C07",
   "status": "proved",
   "theorems": [
    "Verif.Filter.C07_page",
    "Verif.Filter.C07_pages_partition",
    "Verif.Filter.C07_not_page_before_limit",
    "Verif.Filter.C07_not_page_overflow"
   ],
   "note": "int64 wrap-around modelled; witnesses for the two misuses named in the property."
  },
  {
   "property": "C08",
   "status": "proved",
   "theorems": [
    "Verif.Filter.C08_sort_effect",
    "Verif.Filter.C08_sort_error",
    "Verif.Filter.C08_sort_columns",
    "Verif.Filter.split_spec"
   ],
   "note": ""
  },
  {
   "property": "C09",
   "status": "proved",
   "theorems": [
    "Verif.Filter.C09_fql_vetted_columns",
    "Verif.Filter.C09_fql_unknown_key",
    "Verif.Filter.C02_values_not_in_text"
   ],
   "note": "Token stream is an input: the tokenizer is external code."
  },
  {
   "property": "C10",
   "status": "proved",
   "theorems": [
    "Verif.Filter.C10_fql_shape",
    "Verif.Filter.C10_not_fql_shape_unmapped"
   ],
   "note": ""
  },
  {
   "property": "C11",
   "status": "proved",
   "theorems": [
    "Verif.Filter.C11_tsquery",
    "Verif.Filter.C11_trimSpace",
    "Verif.Filter.C11_isSpace",
    "Verif.Filter.split_spec"
   ],
   "note": "White space restricted to unicode.IsSpace below U+0100."
  },
  {
   "property": "C12",
   "status": "proved",
   "theorems": [
    "Verif.C12_in_value_list",
    "Verif.C12_in_value_list_nonpositive",
    "Verif.C12_in_value_list_panics",
    "Verif.C12_in_value_list_concat"
   ],
   "note": ""
  },
  {
   "property": "C13",
   "status": "proved",
   "theorems": [
    "Verif.Pgsql.C13_strings",
    "Verif.Pgsql.C13_bytes"
   ],
   "note": ""
  },
  {
   "property": "C14",
   "status": "proved",
   "theorems": [
    "Verif.Pgsql.C14_bytes",
    "Verif.Pgsql.C14_strings"
   ],
   "note": "arrayIn specifies the server's array_in for one dimension."
  },
  {
   "property": "C15",
   "status": "proved",
   "theorems": [
    "Verif.Pgsql.C15_scan_partial",
    "Verif.Pgsql.C15_strings_partial",
    "Verif.Pgsql.C15_single",
    "Verif.Pgsql.C15_not_scan",
    "Verif.Pgsql.C15_server_consistent"
   ],
   "note": "Holds for lists whose unquoted elements do not start with N (the property's exception); the failing case is C15_not_scan."
  },
  {
   "property": "C16",
   "status": "proved",
   "theorems": [
    "Verif.Pgsql.C16_map",
    "Verif.Pgsql.C16_nil",
    "Verif.Pgsql.C16_ptrMap_partial",
    "Verif.Pgsql.C16_ptrMap_exact_partial",
    "Verif.Pgsql.C16_not_ptrMap",
    "Verif.Pgsql.C16_server_in",
    "Verif.Pgsql.C16_server_in_map",
    "Verif.Pgsql.C16_server_out_partial",
    "Verif.Pgsql.C16_server_out_map"
   ],
   "note": "Association lists in any order. The stated exception (empty string comes back as NULL) is C16_not_ptrMap; also the server-side meaning."
  },
  {
   "property": "C17",
   "status": "proved",
   "theorems": [
    "Verif.Pgsql.C17_maps",
    "Verif.Pgsql.C17_ptrMaps_partial",
    "Verif.Pgsql.C17_not_ptrMaps",
    "Verif.Pgsql.C17_server_in",
    "Verif.Pgsql.C17_server_out_partial"
   ],
   "note": "As C16 for arrays."
  },
  {
   "property": "C18",
   "status": "proved",
   "theorems": [
    "Verif.Pgsql.C18_round_trip",
    "Verif.Pgsql.C18_no_wrap_partial",
    "Verif.Pgsql.C18_out_of_range_partial",
    "Verif.Pgsql.C18_not_numeric",
    "Verif.Pgsql.C18_not_narrow",
    "Verif.Pgsql.C18_server_in",
    "Verif.Pgsql.C18_server_out",
    "Verif.Pgsql.C18_null_elem"
   ],
   "note": "All 142 rows of the integer scanner table; exceptions of the statement are C18_not_numeric and C18_not_narrow."
  },
  {
   "property": "C19",
   "status": "proved",
   "theorems": [
    "Verif.Pgsql.C19_bool",
    "Verif.Pgsql.C19_bit",
    "Verif.Pgsql.C19_bit_uint",
    "Verif.Pgsql.C19_server_in",
    "Verif.Pgsql.C19_server_out",
    "Verif.Pgsql.C19_not_null"
   ],
   "note": ""
  },
  {
   "property": "C20",
   "status": "proved",
   "theorems": [
    "Verif.Pgsql.C20_int",
    "Verif.Pgsql.C20_int_server",
    "Verif.Pgsql.C20_bools",
    "Verif.Pgsql.C20_uint8s",
    "Verif.Pgsql.C20_uint8s_01",
    "Verif.Pgsql.C20_arr_bools",
    "Verif.Pgsql.C20_arr_uint8s",
    "Verif.Pgsql.C20_arr_strings",
    "Verif.Pgsql.C20_arr_ints",
    "Verif.Pgsql.C20_arr_server"
   ],
   "note": ""
  },
  {
   "property": "C21",
   "status": "proved",
   "theorems": [
    "Verif.Pgsql.C21_round_trip",
    "Verif.Pgsql.C21_server_in",
    "Verif.Pgsql.C21_server_out",
    "Verif.Pgsql.C21_server_null"
   ],
   "note": ""
  },
  {
   "property": "C22",
   "status": "proved",
   "theorems": [
    "Verif.Pgsql.C22_length",
    "Verif.Pgsql.C22_dashes",
    "Verif.Pgsql.C22_round_trip",
    "Verif.Pgsql.C22_arr",
    "Verif.Pgsql.C22_short",
    "Verif.Pgsql.C22_not_strict",
    "Verif.Pgsql.C22_texts"
   ],
   "note": ""
  },
  {
   "property": "C23",
   "status": "proved",
   "theorems": [
    "Verif.Pgsql.C23_bytes",
    "Verif.Pgsql.C23_dropped",
    "Verif.Pgsql.C23_only_dropped",
    "Verif.Pgsql.C23_string",
    "Verif.Pgsql.C23_server_in_partial",
    "Verif.Pgsql.C23_not_server_braces",
    "Verif.Pgsql.C23_server_out",
    "Verif.Pgsql.C23_not_null"
   ],
   "note": ""
  },
  {
   "property": "C24",
   "status": "proved",
   "theorems": [
    "Verif.Pgsql.C24_point",
    "Verif.Pgsql.C24_lseg",
    "Verif.Pgsql.C24_line",
    "Verif.Pgsql.C24_path_partial",
    "Verif.Pgsql.C24_polygon_partial",
    "Verif.Pgsql.C24_not_empty",
    "Verif.Pgsql.C24_not_closed",
    "Verif.Pgsql.C24_box_server",
    "Verif.Pgsql.C24_not_box",
    "Verif.Pgsql.C24_box_arr",
    "Verif.Pgsql.C24_box_arr_text",
    "Verif.Pgsql.C24_point_arr",
    "Verif.Pgsql.C24_lseg_arr",
    "Verif.Pgsql.C24_line_arr",
    "Verif.Pgsql.C24_path_arr_partial",
    "Verif.Pgsql.C24_polygon_arr_partial",
    "Verif.Pgsql.C24_not_arr_empty",
    "Verif.Pgsql.C24_point_arr_server",
    "Verif.Pgsql.C24_lseg_arr_server",
    "Verif.Pgsql.C24_line_arr_server",
    "Verif.Pgsql.C24_path_arr_server_partial",
    "Verif.Pgsql.C24_polygon_arr_server_partial",
    "Verif.Pgsql.intCodec_ok",
    "Verif.Pgsql.C80_geo"
   ],
   "note": "Number formatting is a parameter with three stated assumptions (NumCodec.OK), satisfied by decimal integers and, as C80_geo shows, by the float64 numbers as package strconv writes and reads them."
  },
  {
   "property": "C25",
   "status": "proved",
   "theorems": [
    "Verif.Pgsql.C25_vector",
    "Verif.Pgsql.C25_vector_server_out",
    "Verif.Pgsql.C25_vector_server_in",
    "Verif.Pgsql.C25_arr_partial",
    "Verif.Pgsql.C25_arr_server_in_partial",
    "Verif.Pgsql.C25_arr_server_scan_partial",
    "Verif.Pgsql.C25_arr_server_out_partial",
    "Verif.Pgsql.C25_not_empty",
    "Verif.Pgsql.C25_not_server_single",
    "Verif.Pgsql.C25_not_server_empty",
    "Verif.Pgsql.C25_not_server_null"
   ],
   "note": ""
  },
  {
   "property": "C26",
   "status": "proved",
   "theorems": [
    "Verif.Pgsql.C26_round_trip",
    "Verif.Pgsql.C26_server_partial",
    "Verif.Pgsql.C26_not_equal_bounds",
    "Verif.Pgsql.C26_server_reversed",
    "Verif.Pgsql.C26_not_unbounded",
    "Verif.Pgsql.C26_not_null",
    "Verif.Pgsql.C26_arr",
    "Verif.Pgsql.C26_arr_server_in",
    "Verif.Pgsql.C26_arr_server_out_partial",
    "Verif.Pgsql.C26_not_arr_empty",
    "Verif.Pgsql.C26_not_arr_null",
    "Verif.Pgsql.C26_arr_not_reset",
    "Verif.Pgsql.C26_quoted_elems"
   ],
   "note": ""
  },
  {
   "property": "C27",
   "status": "proved",
   "theorems": [
    "Verif.Pgsql.C27_iff",
    "Verif.Pgsql.C27_resets_partial",
    "Verif.Pgsql.C27_zero_partial",
    "Verif.Pgsql.C27_not_keeps",
    "Verif.Pgsql.C27_not_resets",
    "Verif.Pgsql.C27_rows_partial",
    "Verif.Pgsql.C27_not_rows",
    "Verif.Pgsql.C27_not_unknown",
    "Verif.Pgsql.C27_frames",
    "Verif.Pgsql.C27_strings"
   ],
   "note": "Table of 230 scanners; exactly which ones reset (C27_iff)."
  },
  {
   "property": "C28",
   "status": "proved",
   "theorems": [
    "Verif.Analysis.C28_rel_ident",
    "Verif.Analysis.C28_reject",
    "Verif.Analysis.C28_unique"
   ],
   "note": "The regular expressions are modelled with a derivative matcher proved to accept exactly their language."
  },
  {
   "property": "C29",
   "status": "proved",
   "theorems": [
    "Verif.Analysis.C29_col_ident",
    "Verif.Analysis.C29_reject",
    "Verif.Analysis.C29_col_idents",
    "Verif.Analysis.C29_col_idents_err",
    "Verif.Analysis.C29_col_ident_list",
    "Verif.Analysis.C29_contains"
   ],
   "note": ""
  },
  {
   "property": "C30",
   "status": "proved",
   "theorems": [
    "Verif.Analysis.C30_accept",
    "Verif.Analysis.C30_resolve",
    "Verif.Analysis.C30_redeclare",
    "Verif.Analysis.C30_column"
   ],
   "note": ""
  },
  {
   "property": "C31",
   "status": "proved",
   "theorems": [
    "Verif.Analysis.C31_symbol",
    "Verif.Analysis.C31_word",
    "Verif.Analysis.C31_symbol_quant",
    "Verif.Analysis.C31_word_quant",
    "Verif.Analysis.C31_lhs",
    "Verif.Analysis.C31_pad",
    "Verif.Analysis.C31_table",
    "Verif.Analysis.C31_spelling",
    "Verif.Analysis.C31_not_asymmetric",
    "Verif.Analysis.C31_classes"
   ],
   "note": "Operands free of operator characters and operator words. The two betweenasym predicates cannot be written (C31_not_asymmetric)."
  },
  {
   "property": "C32",
   "status": "proved",
   "theorems": [
    "Verif.Analysis.C32_alternates",
    "Verif.Analysis.C32_linked",
    "Verif.Analysis.C32_connectives",
    "Verif.Analysis.C32_bad_bool",
    "Verif.Analysis.C32_not_stray",
    "Verif.Analysis.C32_not_stray_wf"
   ],
   "note": "The exception of the statement is C32_not_stray."
  },
  {
   "property": "C33",
   "status": "proved",
   "theorems": [
    "Verif.Analysis.C33_rows",
    "Verif.Analysis.C33_results",
    "Verif.Analysis.C33_order"
   ],
   "note": ""
  },
  {
   "property": "C34",
   "status": "proved",
   "theorems": [
    "Verif.Analysis.C34_not_enforced",
    "Verif.Generator.C34_restricted_partial",
    "Verif.Generator.C34_restricted_slice",
    "Verif.Generator.C34_example",
    "Verif.Generator.C34_not_delete",
    "Verif.Generator.C34_not_empty_where",
    "Verif.Generator.C34_not_keyless"
   ],
   "note": "The exceptions of the statement are the four witnesses."
  },
  {
   "property": "C35",
   "status": "proved",
   "theorems": [
    "Verif.Analysis.C35_on_conflict",
    "Verif.Analysis.C35_not_action"
   ],
   "note": ""
  },
  {
   "property": "C36",
   "status": "proved",
   "theorems": [
    "Verif.Analysis.C36_iff",
    "Verif.Analysis.C36_sound",
    "Verif.Analysis.C36_complete_partial",
    "Verif.Analysis.C36_not_unqualified"
   ],
   "note": "The exception of the statement is C36_not_unqualified."
  },
  {
   "property": "C37",
   "status": "proved",
   "theorems": [
    "Verif.Analysis.C37_last_mention",
    "Verif.Analysis.C37_default",
    "Verif.Analysis.C37_panic",
    "Verif.Analysis.C37_abbreviations",
    "Verif.Analysis.C37_only"
   ],
   "note": ""
  },
  {
   "property": "C38",
   "status": "proved",
   "theorems": [
    "Verif.Analysis.C38_key",
    "Verif.Analysis.C38_own_tag",
    "Verif.Analysis.C38_node_tag",
    "Verif.Analysis.C38_options",
    "Verif.Analysis.C38_hidden",
    "Verif.Analysis.C38_distinct_names",
    "Verif.Analysis.C38_distinct_tags",
    "Verif.Analysis.C38_not_overlap",
    "Verif.Analysis.C38_not_distinct"
   ],
   "note": ""
  },
  {
   "property": "C39",
   "status": "proved",
   "theorems": [
    "Verif.Generator.C39_arguments",
    "Verif.Generator.C39_insert",
    "Verif.Generator.C39_update",
    "Verif.Generator.C39_delete",
    "Verif.Generator.C39_select",
    "Verif.Generator.C39_count",
    "Verif.Generator.C39_exists",
    "Verif.Generator.C39_no_panic",
    "Verif.Generator.C39_argument",
    "Verif.Generator.C39_written",
    "Verif.Generator.C39_bound",
    "Verif.Generator.C39_lists",
    "Verif.Generator.C39_used",
    "Verif.Generator.C39_connectives",
    "Verif.Generator.C39_group",
    "Verif.Generator.C39_field",
    "Verif.Generator.C39_column",
    "Verif.Generator.C39_operators",
    "Verif.Generator.C39_limits",
    "Verif.Generator.C39_pkeys",
    "Verif.Generator.C39_pkey",
    "Verif.Generator.C39_example",
    "Verif.Generator.C39_example_select",
    "Verif.Generator.C39_not_default_key",
    "Verif.Generator.C39_not_column_in",
    "Verif.Generator.C39_not_count_limit",
    "Verif.Generator.C39_not_no_panic"
   ],
   "note": "Stated for queries that passed the modelled analyzer and type checker; the exceptions of the statement are the four witnesses."
  },
  {
   "property": "C40",
   "status": "proved",
   "theorems": [
    "Verif.Generator.C40_arguments",
    "Verif.Generator.C40_placeholders",
    "Verif.Generator.C40_static",
    "Verif.Generator.C40_example",
    "Verif.Generator.C40_not_valid_empty",
    "Verif.Generator.C40_not_column_in"
   ],
   "note": "The exceptions of the statement are the two witnesses."
  },
  {
   "property": "C41",
   "status": "proved",
   "theorems": [
    "Verif.Generator.C41_record_arguments",
    "Verif.Generator.C41_arguments",
    "Verif.Generator.C41_text",
    "Verif.Generator.C41_bound",
    "Verif.Generator.C41_insert",
    "Verif.Generator.C41_update",
    "Verif.Generator.C41_keys",
    "Verif.Generator.C41_too_many",
    "Verif.Generator.C41_example",
    "Verif.Generator.C41_example_update",
    "Verif.Generator.C41_not_empty",
    "Verif.Generator.C41_not_update_default",
    "Verif.Generator.C41_not_without_columns"
   ],
   "note": "The exceptions of the statement are C41_too_many and the three witnesses."
  },
  {
   "property": "C42",
   "status": "proved",
   "theorems": [
    "Verif.Generator.C42_fields",
    "Verif.Generator.C42_count",
    "Verif.Generator.C42_record",
    "Verif.Generator.C42_call",
    "Verif.Generator.C42_loop",
    "Verif.Generator.C42_rows",
    "Verif.Generator.C42_example",
    "Verif.Generator.C42_example_result",
    "Verif.Generator.C42_example_count",
    "Verif.Generator.C42_not_slice_update",
    "Verif.Generator.C42_not_array",
    "Verif.Generator.C42_not_unread",
    "Verif.Generator.C42_not_ignore"
   ],
   "note": "The exceptions of the statement are the four witnesses."
  },
  {
   "property": "C43",
   "status": "proved",
   "theorems": [
    "Verif.Generator.C43_paths",
    "Verif.Generator.C43_answer",
    "Verif.Generator.C43_unnamed",
    "Verif.Generator.C43_names_partial",
    "Verif.Generator.C43_declaration",
    "Verif.Generator.C43_not_numbered",
    "Verif.Generator.C43_example",
    "Verif.Generator.C43_example_names"
   ],
   "note": "Names are distinct unless a requested name is another one followed by digits; witness for that case."
  },
  {
   "property": "C44",
   "status": "proved",
   "theorems": [
    "Verif.Generator.C44_unique",
    "Verif.Generator.C44_first",
    "Verif.Generator.C44_fields",
    "Verif.Generator.C44_entries",
    "Verif.Generator.C44_versions",
    "Verif.Generator.C44_fql",
    "Verif.Generator.C44_sort",
    "Verif.Generator.C44_example",
    "Verif.Generator.C44_example_v2"
   ],
   "note": ""
  },
  {
   "property": "C45",
   "status": "proved",
   "theorems": [
    "Verif.Generator.C45_rendered",
    "Verif.Generator.C45_between_partial",
    "Verif.Generator.C45_not_negated",
    "Verif.Generator.C45_symmetric_partial",
    "Verif.Generator.C45_not_negated_query",
    "Verif.Generator.C45_not_symmetric",
    "Verif.Generator.C45_example"
   ],
   "note": "The property states what each predicate is rendered as; the wrong meanings are C45_not_negated (every world), C45_not_negated_query and C45_not_symmetric (accepted queries)."
  },
  {
   "property": "C46",
   "status": "proved",
   "theorems": [
    "Verif.Postgres.C46_conflict_columns",
    "Verif.Postgres.C46_refused",
    "Verif.Postgres.C46_not_repeated",
    "Verif.Postgres.C46_not_included"
   ],
   "note": "Stated with the exceptions C46_not_repeated and C46_not_included."
  },
  {
   "property": "C47",
   "status": "proved",
   "theorems": [
    "Verif.Postgres.C47_index_expr",
    "Verif.Postgres.C47_plain_prefix",
    "Verif.Postgres.C47_not_escaped_end",
    "Verif.Postgres.C47_not_identifier"
   ],
   "note": ""
  },
  {
   "property": "C48",
   "status": "proved",
   "theorems": [
    "Verif.Postgres.C48_field_condition",
    "Verif.Postgres.C48_converter",
    "Verif.Postgres.C48_query",
    "Verif.Postgres.C48_not_converter"
   ],
   "note": ""
  },
  {
   "property": "C49",
   "status": "proved",
   "theorems": [
    "Verif.Postgres.C49_writes",
    "Verif.Postgres.C49_writes_complete",
    "Verif.Postgres.C49_no_writes",
    "Verif.Postgres.C49_reads",
    "Verif.Postgres.C49_reads_complete",
    "Verif.Postgres.C49_not_nested",
    "Verif.Postgres.C49_not_read_no_write"
   ],
   "note": "The exceptions of the statement are C49_not_nested and C49_not_read_no_write."
  },
  {
   "property": "C50",
   "status": "proved",
   "theorems": [
    "Verif.Config.C50_option",
    "Verif.Config.C50_string",
    "Verif.Config.C50_bool",
    "Verif.Config.C50_slice",
    "Verif.Config.C50_argType_partial",
    "Verif.Config.C50_converters",
    "Verif.Config.C50_no_flag",
    "Verif.Config.C50_keys",
    "Verif.Config.C50_flags",
    "Verif.Config.C50_valid",
    "Verif.Config.C50_file",
    "Verif.Config.C50_no_file",
    "Verif.Config.C50_not_argType",
    "Verif.Config.C50_not_pkgName",
    "Verif.Config.C50_not_nearest",
    "Verif.Config.C50_not_deterministic"
   ],
   "note": "JSON values are the model's input, not their bytes. C50_argType_partial gives the exact pointer flag, including the exception of the statement."
  },
  {
   "property": "C51",
   "status": "proved",
   "theorems": [
    "Verif.Config.C51_type_text",
    "Verif.Config.C51_type_round",
    "Verif.Config.C51_type",
    "Verif.Config.C51_type_again",
    "Verif.Config.C51_type_refused",
    "Verif.Config.C51_not_receiver",
    "Verif.Config.C51_not_dot",
    "Verif.Config.C51_not_star",
    "Verif.Config.C51_object",
    "Verif.Config.C51_object_text",
    "Verif.Config.C51_object_no_panic",
    "Verif.Config.C51_not_object"
   ],
   "note": ""
  },
  {
   "property": "C52",
   "status": "proved",
   "theorems": [
    "Verif.Command.C52_valid",
    "Verif.Command.C52_accepted",
    "Verif.Command.C52_name",
    "Verif.Command.C52_same_name",
    "Verif.Command.C52_distinct_partial",
    "Verif.Command.C52_own_partial",
    "Verif.Command.C52_own_char",
    "Verif.Command.C52_dir",
    "Verif.Command.C52_paths_partial",
    "Verif.Command.C52_inputs_partial",
    "Verif.Command.C52_not_own",
    "Verif.Command.C52_not_distinct",
    "Verif.Command.C52_not_dirs",
    "Verif.Command.C52_not_inputs"
   ],
   "note": "The _partial theorems assume what the statement asks of the format; C52_same_name and C52_name are exact for every format."
  },
  {
   "property": "C53",
   "status": "proved",
   "theorems": [
    "Verif.Command.C53_nothing",
    "Verif.Command.C53_target",
    "Verif.Command.C53_only_outputs",
    "Verif.Command.C53_success",
    "Verif.Command.C53_write_failure",
    "Verif.Command.C53_not_format",
    "Verif.Command.C53_not_stale"
   ],
   "note": ""
  },
  {
   "property": "C54",
   "status": "proved",
   "theorems": [
    "Verif.Analysis.C54_where",
    "Verif.Analysis.C54_not_between_column"
   ],
   "note": "The exception of the statement is C54_not_between_column."
  },
  {
   "property": "C55",
   "status": "proved",
   "theorems": [
    "Verif.Analysis.C55_sound",
    "Verif.Analysis.C55_connectives",
    "Verif.Analysis.splitSemi_join"
   ],
   "note": ""
  },
  {
   "property": "C56",
   "status": "proved",
   "theorems": [
    "Verif.Analysis.C56_kinds",
    "Verif.Analysis.C56_sound",
    "Verif.Analysis.C56_not_second_join"
   ],
   "note": "The exception of the statement is C56_not_second_join."
  },
  {
   "property": "C57",
   "status": "proved",
   "theorems": [
    "Verif.Analysis.C57_columns",
    "Verif.Analysis.C57_not_default"
   ],
   "note": "The exception of the statement is C57_not_default."
  },
  {
   "property": "C58",
   "status": "proved",
   "theorems": [
    "Verif.Analysis.C58_qualifiers",
    "Verif.Analysis.C58_not_cache"
   ],
   "note": "The exception of the statement is C58_not_cache."
  },
  {
   "property": "C59",
   "status": "proved",
   "theorems": [
    "Verif.Postgres.C59_valuers",
    "Verif.Postgres.C59_scanners",
    "Verif.Postgres.C59_not_inet",
    "Verif.Postgres.C59_lookup"
   ],
   "note": "The exception of the statement is C59_not_inet."
  },
  {
   "property": "C60",
   "status": "proved",
   "theorems": [
    "Verif.Postgres.C60_write_partial",
    "Verif.Postgres.C60_read_partial",
    "Verif.Postgres.C60_not_pointer",
    "Verif.Postgres.C60_not_named",
    "Verif.Postgres.C60_not_inet"
   ],
   "note": "The exceptions of the statement are the three witnesses."
  },
  {
   "property": "C61",
   "status": "proved",
   "theorems": [
    "Verif.Generator.C61_default",
    "Verif.Generator.C61_example",
    "Verif.Generator.C61_not_with_in"
   ],
   "note": "The exception of the statement is C61_not_with_in."
  },
  {
   "property": "C62",
   "status": "proved",
   "theorems": [
    "Verif.Generator.C62_once",
    "Verif.Generator.C62_set_partial",
    "Verif.Generator.C62_parents_first_partial",
    "Verif.Generator.C62_example",
    "Verif.Generator.C62_not_collision",
    "Verif.Generator.C62_not_input"
   ],
   "note": "The exceptions of the statement are the two witnesses."
  },
  {
   "property": "C63",
   "status": "proved",
   "theorems": [
    "Verif.Generator.C63_methods",
    "Verif.Generator.C63_condition",
    "Verif.Generator.C63_names_partial",
    "Verif.Generator.C63_imported",
    "Verif.Generator.C63_example",
    "Verif.Generator.C63_not_init",
    "Verif.Generator.C63_not_concat",
    "Verif.Generator.C63_not_local",
    "Verif.Generator.C63_not_renamed",
    "Verif.Generator.C63_not_converted"
   ],
   "note": "The exceptions of the statement are the five witnesses."
  },
  {
   "property": "C64",
   "status": "proved",
   "theorems": [
    "Verif.Generator.C64_where_partial",
    "Verif.Generator.C64_meaning_partial",
    "Verif.Generator.C64_pkeys",
    "Verif.Generator.C64_joins_partial",
    "Verif.Generator.C64_example",
    "Verif.Generator.C64_example_join",
    "Verif.Generator.C64_example_pkeys",
    "Verif.Generator.C64_not_function_in",
    "Verif.Generator.C64_not_empty_group",
    "Verif.Generator.C64_not_column_range",
    "Verif.Generator.C64_not_column_in"
   ],
   "note": "The _partial theorems assume that none of the exceptions of the statement applies; each exception has its witness."
  },
  {
   "property": "C65",
   "status": "proved",
   "theorems": [
    "Verif.Command.C65_found",
    "Verif.Command.C65_nonempty",
    "Verif.Command.C65_panic",
    "Verif.Command.C65_filter",
    "Verif.Command.C65_name_partial",
    "Verif.Command.C65_not_name"
   ],
   "note": "The loader's packages are the input."
  },
  {
   "property": "C66",
   "status": "proved",
   "theorems": [
    "Verif.Generator.C66_read",
    "Verif.Generator.C66_no_null_partial",
    "Verif.Generator.C66_write",
    "Verif.Generator.C66_write_zero",
    "Verif.Generator.C66_round_trip_partial",
    "Verif.Generator.C66_example",
    "Verif.Generator.C66_example_tags",
    "Verif.Generator.C66_example_round_trip",
    "Verif.Generator.C66_not_round_trip",
    "Verif.Generator.C66_not_tables",
    "Verif.Generator.C66_not_outer_join",
    "Verif.Generator.C66_not_line",
    "Verif.Generator.C66_literals_partial",
    "Verif.Generator.C66_not_lseg",
    "Verif.Generator.C66_not_number_type",
    "Verif.Generator.C66_not_found",
    "Verif.Generator.C66_not_option"
   ],
   "note": "The meaning of literals and casts is a parameter; casts between a parameter and its column's type are taken as identities where written."
  },
  {
   "property": "C67",
   "status": "proved",
   "theorems": [
    "Verif.Generator.C67_arguments_partial",
    "Verif.Generator.C67_own_arguments",
    "Verif.Generator.C67_bound_partial",
    "Verif.Generator.C67_numbers",
    "Verif.Generator.C67_place_partial",
    "Verif.Generator.C67_text",
    "Verif.Generator.C67_example",
    "Verif.Generator.C67_example_select",
    "Verif.Generator.C67_example_returning",
    "Verif.Generator.C67_not_limit",
    "Verif.Generator.C67_not_count_limit",
    "Verif.Generator.C67_not_single",
    "Verif.Generator.C67_not_order",
    "Verif.Generator.C67_not_returning"
   ],
   "note": "The filter's text and parameters are the input; C67_numbers links the numbering to the filter package."
  },
  {
   "property": "C68",
   "status": "proved",
   "theorems": [
    "Verif.Generator.C68_returned",
    "Verif.Generator.C68_performed",
    "Verif.Generator.C68_told",
    "Verif.Generator.C68_after_scan",
    "Verif.Generator.C68_kept",
    "Verif.Generator.C68_closed",
    "Verif.Generator.C68_affected",
    "Verif.Generator.C68_rows",
    "Verif.Generator.C68_affected_exec",
    "Verif.Generator.C68_count_partial",
    "Verif.Generator.C68_kind",
    "Verif.Generator.C68_context",
    "Verif.Generator.C68_example",
    "Verif.Generator.C68_example_iter",
    "Verif.Generator.C68_example_affected",
    "Verif.Generator.C68_not_info",
    "Verif.Generator.C68_not_uniform",
    "Verif.Generator.C68_not_count",
    "Verif.Generator.C68_not_all_or_nothing"
   ],
   "note": "The connection is any pattern of failing calls; iterators and handlers are opaque functions."
  },
  {
   "property": "C69",
   "status": "proved",
   "theorems": [
    "Verif.Generator.C69_own_name",
    "Verif.Generator.C69_first_name",
    "Verif.Generator.C69_asked_partial",
    "Verif.Generator.C69_fixed",
    "Verif.Generator.C69_used_partial",
    "Verif.Generator.C69_idle",
    "Verif.Generator.C69_file_partial",
    "Verif.Generator.C69_default",
    "Verif.Generator.C69_file_default_partial",
    "Verif.Generator.C69_example",
    "Verif.Generator.C69_example_names",
    "Verif.Generator.C69_example_batch",
    "Verif.Generator.C69_example_handler",
    "Verif.Generator.C69_not_used",
    "Verif.Generator.C69_not_imported_in",
    "Verif.Generator.C69_not_imported_info",
    "Verif.Generator.C69_not_fixed",
    "Verif.Generator.C69_not_cache",
    "Verif.Generator.C69_not_named",
    "Verif.Generator.C69_not_last_element"
   ],
   "note": "The partial theorems carry the conditions on names that the statement names; the names that packages declare are a parameter."
  },
  {
   "property": "C70",
   "status": "proved",
   "theorems": [
    "Verif.Typesutil.C70_scanner_sound",
    "Verif.Typesutil.C70_scanner_complete_partial",
    "Verif.Typesutil.C70_valuer_sound",
    "Verif.Typesutil.C70_valuer_complete_partial",
    "Verif.Typesutil.C70_jsonMarshaler_sound",
    "Verif.Typesutil.C70_jsonMarshaler_complete_partial",
    "Verif.Typesutil.C70_jsonUnmarshaler_sound_partial",
    "Verif.Typesutil.C70_jsonUnmarshaler_complete_partial",
    "Verif.Typesutil.C70_xml_sound",
    "Verif.Typesutil.C70_xml_complete_partial",
    "Verif.Typesutil.C70_afterScanner_sound",
    "Verif.Typesutil.C70_errorHandler_sound",
    "Verif.Typesutil.C70_errorInfoHandler_sound",
    "Verif.Typesutil.C70_hooks_complete_partial",
    "Verif.Typesutil.C70_not_interface",
    "Verif.Typesutil.C70_conn_sound",
    "Verif.Typesutil.C70_conn_complete_partial",
    "Verif.Typesutil.C70_conn_total",
    "Verif.Typesutil.C70_filterConstructor_sound",
    "Verif.Typesutil.C70_filterConstructor_complete_partial",
    "Verif.Typesutil.C70_total_partial",
    "Verif.Typesutil.C70_example",
    "Verif.Typesutil.C70_not_promoted",
    "Verif.Typesutil.C70_not_promoted_others",
    "Verif.Typesutil.C70_not_handler_interface",
    "Verif.Typesutil.C70_not_documented",
    "Verif.Typesutil.C70_not_alias",
    "Verif.Typesutil.C70_not_variadic",
    "Verif.Typesutil.C70_not_value",
    "Verif.Typesutil.C70_not_path",
    "Verif.Typesutil.C70_not_total"
   ],
   "note": "The partial theorems carry the exceptions that the statement names."
  },
  {
   "property": "C71",
   "status": "proved",
   "theorems": [
    "Verif.Config.C71_accepted",
    "Verif.Config.C71_total_partial",
    "Verif.Config.C71_callable_partial",
    "Verif.Config.C71_name",
    "Verif.Config.C71_import",
    "Verif.Config.C71_example",
    "Verif.Config.C71_not_callable",
    "Verif.Config.C71_not_all",
    "Verif.Config.C71_not_total"
   ],
   "note": "packages.Load is any function."
  },
  {
   "property": "C72",
   "status": "proved",
   "theorems": [
    "Verif.Analysis.C72_runs_partial",
    "Verif.Analysis.C72_order_partial",
    "Verif.Analysis.C72_one_package",
    "Verif.Analysis.C72_text",
    "Verif.Analysis.C72_text_example",
    "Verif.Analysis.C72_example",
    "Verif.Analysis.C72_not_imported",
    "Verif.Analysis.C72_not_qualified"
   ],
   "note": "The partial theorems carry the conditions that the statement names."
  },
  {
   "property": "C73",
   "status": "proved",
   "theorems": [
    "Verif.Pgsql.C73_round_trip_partial",
    "Verif.Pgsql.C73_exact_partial",
    "Verif.Pgsql.C73_scan_date",
    "Verif.Pgsql.C73_scan_time",
    "Verif.Pgsql.C73_scan_timestamp",
    "Verif.Pgsql.C73_scan_timestamptz",
    "Verif.Pgsql.C73_scan_timetz",
    "Verif.Pgsql.C73_scan_infinity",
    "Verif.Pgsql.C73_write_date_partial",
    "Verif.Pgsql.C73_write_time_partial",
    "Verif.Pgsql.C73_write_timestamp_partial",
    "Verif.Pgsql.C73_write_timetz_partial",
    "Verif.Pgsql.C73_write_timestamptz_partial",
    "Verif.Pgsql.C73_example",
    "Verif.Pgsql.C73_not_micro",
    "Verif.Pgsql.C73_not_offset",
    "Verif.Pgsql.C73_not_timetz",
    "Verif.Pgsql.C73_not_years"
   ],
   "note": "Go's package time is modelled for the five layouts."
  },
  {
   "property": "C74",
   "status": "proved",
   "theorems": [
    "Verif.Pgsql.C74_arr",
    "Verif.Pgsql.C74_arr_server_in",
    "Verif.Pgsql.C74_date_server_partial",
    "Verif.Pgsql.C74_time_server_partial",
    "Verif.Pgsql.C74_timetz_server_partial",
    "Verif.Pgsql.C74_null_elem",
    "Verif.Pgsql.C74_stamp_arr",
    "Verif.Pgsql.C74_stamp_server_in",
    "Verif.Pgsql.C74_stamp_server_partial",
    "Verif.Pgsql.C74_range",
    "Verif.Pgsql.C74_range_server_in",
    "Verif.Pgsql.C74_range_server_partial",
    "Verif.Pgsql.C74_not_empty",
    "Verif.Pgsql.C74_range_null",
    "Verif.Pgsql.C74_daterange",
    "Verif.Pgsql.C74_daterange_server_in",
    "Verif.Pgsql.C74_daterange_server_partial",
    "Verif.Pgsql.C74_not_daterange",
    "Verif.Pgsql.C74_example_zero",
    "Verif.Pgsql.C74_range_arr",
    "Verif.Pgsql.C74_range_arr_server_in",
    "Verif.Pgsql.C74_range_arr_server_partial",
    "Verif.Pgsql.C74_not_range_arr",
    "Verif.Pgsql.C74_daterange_arr",
    "Verif.Pgsql.C74_daterange_arr_server_in",
    "Verif.Pgsql.C74_daterange_arr_server_partial",
    "Verif.Pgsql.C74_not_daterange_arr",
    "Verif.Pgsql.C74_strings"
   ],
   "note": "The partial theorems are about elements that C73 can read."
  },
  {
   "property": "C75",
   "status": "proved",
   "theorems": [
    "Verif.Pgsql.C75_vector_text",
    "Verif.Pgsql.C75_vector_null",
    "Verif.Pgsql.C75_vector_round_trip",
    "Verif.Pgsql.C75_vector_back",
    "Verif.Pgsql.C75_vector_server",
    "Verif.Pgsql.C75_not_vector_server",
    "Verif.Pgsql.C75_arr_text",
    "Verif.Pgsql.C75_arr_read",
    "Verif.Pgsql.C75_arr_round_trip",
    "Verif.Pgsql.C75_not_arr_round_trip",
    "Verif.Pgsql.C75_arr_server_in_partial",
    "Verif.Pgsql.C75_not_arr_server_in",
    "Verif.Pgsql.C75_arr_server_out_partial",
    "Verif.Pgsql.C75_not_arr_server_out",
    "Verif.Pgsql.C75_query_text",
    "Verif.Pgsql.C75_query_strings_partial",
    "Verif.Pgsql.C75_query_bytes_read",
    "Verif.Pgsql.C75_query_bytes",
    "Verif.Pgsql.C75_not_query_bytes",
    "Verif.Pgsql.C75_query_server_in_partial",
    "Verif.Pgsql.C75_not_query_server_in",
    "Verif.Pgsql.C75_query_server_out",
    "Verif.Pgsql.C75_json_round_trip",
    "Verif.Pgsql.C75_json_server",
    "Verif.Pgsql.C75_char_byte",
    "Verif.Pgsql.C75_char_rune",
    "Verif.Pgsql.C75_not_char_mixed"
   ],
   "note": "The partial theorems are about elements that need no escape."
  },
  {
   "property": "C76",
   "status": "proved",
   "theorems": [
    "Verif.Pgsql.C76_text_partial",
    "Verif.Pgsql.C76_server_in_partial",
    "Verif.Pgsql.C76_not_text",
    "Verif.Pgsql.C76_scan_near_partial",
    "Verif.Pgsql.C76_scan_quarters_partial",
    "Verif.Pgsql.C76_not_scan",
    "Verif.Pgsql.C76_server_text",
    "Verif.Pgsql.C76_server_err",
    "Verif.Pgsql.C76_null",
    "Verif.Pgsql.C76_arr_partial",
    "Verif.Pgsql.C76_arr_server_in_partial",
    "Verif.Pgsql.C76_arr_server",
    "Verif.Pgsql.C76_arr_null",
    "Verif.Pgsql.C76_example"
   ],
   "note": "The partial theorems are about amounts below 100*2^46 cents; beyond the claim is false by the shown value."
  },
  {
   "property": "C77",
   "status": "proved",
   "theorems": [
    "Verif.Pgsql.C77_ip_text",
    "Verif.Pgsql.C77_ip_round_trip",
    "Verif.Pgsql.C77_ip_exact",
    "Verif.Pgsql.C77_ip_server",
    "Verif.Pgsql.C77_ip_null",
    "Verif.Pgsql.C77_net_text",
    "Verif.Pgsql.C77_net_round_trip",
    "Verif.Pgsql.C77_cidr_server",
    "Verif.Pgsql.C77_inet_server",
    "Verif.Pgsql.C77_inet_server_addr",
    "Verif.Pgsql.C77_net_null",
    "Verif.Pgsql.C77_ip_arr_server",
    "Verif.Pgsql.C77_net_arr_server",
    "Verif.Pgsql.C77_cidr_arr_server",
    "Verif.Pgsql.C77_net_arr_in",
    "Verif.Pgsql.C77_net_arr_round_trip",
    "Verif.Pgsql.C77_ip_arr_in",
    "Verif.Pgsql.C77_ip_arr_round_trip",
    "Verif.Pgsql.C77_arr_null",
    "Verif.Pgsql.C77_not_inet_host",
    "Verif.Pgsql.C77_not_inet_back",
    "Verif.Pgsql.C77_not_inet_error",
    "Verif.Pgsql.C77_example",
    "Verif.Pgsql.C77_example_net",
    "Verif.Pgsql.C77_example_bad"
   ],
   "note": "A network is one as Go's parser makes it: the address has the length of the mask and is no IPv4 address in 16 bytes."
  },
  {
   "property": "C78",
   "status": "proved",
   "theorems": [
    "Verif.Pgsql.C78_text",
    "Verif.Pgsql.C78_server",
    "Verif.Pgsql.C78_round_trip",
    "Verif.Pgsql.C78_null",
    "Verif.Pgsql.C78_arr_in",
    "Verif.Pgsql.C78_arr_server",
    "Verif.Pgsql.C78_arr_round_trip",
    "Verif.Pgsql.C78_arr_null",
    "Verif.Pgsql.C78_example"
   ],
   "note": ""
  },
  {
   "property": "C79",
   "status": "proved",
   "theorems": [
    "Verif.Errors.C79_analysis",
    "Verif.Errors.C79_target",
    "Verif.Errors.C79_value",
    "Verif.Errors.C79_postgres",
    "Verif.Errors.C79_checker",
    "Verif.Errors.C79_query",
    "Verif.Errors.C79_filter",
    "Verif.Errors.C79_column",
    "Verif.Errors.C79_types",
    "Verif.Errors.C79_not_message",
    "Verif.Errors.C79_not_open",
    "Verif.Errors.C79_not_type",
    "Verif.Errors.C79_not_list",
    "Verif.Errors.C79_not_list_case",
    "Verif.Errors.C79_example",
    "Verif.Errors.C79_example_query",
    "Verif.Errors.C79_text_analysis",
    "Verif.Errors.C79_text_postgres"
   ],
   "note": "Which FieldMap entry an error belongs to is a parameter. cmd/gosql prints errors with %v, so that the panic of Error is printed by fmt in place of the message."
  },
  {
   "property": "C80",
   "status": "proved",
   "theorems": [
    "Verif.Pgsql.C80_scan",
    "Verif.Pgsql.C80_value",
    "Verif.Pgsql.C80_round_trip",
    "Verif.Pgsql.C80_parse",
    "Verif.Pgsql.C80_server_in",
    "Verif.Pgsql.C80_shortest",
    "Verif.Pgsql.C80_float8_float32",
    "Verif.Pgsql.C80_float4_float64_in",
    "Verif.Pgsql.C80_float4_float64",
    "Verif.Pgsql.C80_range",
    "Verif.Pgsql.C80_numeric_in",
    "Verif.Pgsql.C80_numeric_out",
    "Verif.Pgsql.C80_numeric",
    "Verif.Pgsql.C80_numeric_scan",
    "Verif.Pgsql.C80_null",
    "Verif.Pgsql.C80_geo",
    "Verif.Pgsql.C80_not_float4_in",
    "Verif.Pgsql.C80_not_float4_range",
    "Verif.Pgsql.C80_not_float4_scan",
    "Verif.Pgsql.C80_not_float8_scan",
    "Verif.Pgsql.C80_not_numeric_zero",
    "Verif.Pgsql.C80_not_numeric_inf",
    "Verif.Pgsql.C80_example",
    "Verif.Pgsql.C80_texts",
    "Verif.Pgsql.round_nearest",
    "Verif.Pgsql.nearest_iff"
   ],
   "note": "Numeric without infinities, as before PostgreSQL 14. Exponents of more than five digits in the text of the server are left out. NaN is one value."
  },
  {
   "property": "C81",
   "status": "proved",
   "theorems": [
    "Verif.Generator.C81_select_partial",
    "Verif.Generator.C81_count_partial",
    "Verif.Generator.C81_exists_partial",
    "Verif.Generator.C81_insert",
    "Verif.Generator.C81_update_partial",
    "Verif.Generator.C81_update_alone_partial",
    "Verif.Generator.C81_delete_partial",
    "Verif.Generator.C81_delete_alone_partial",
    "Verif.Generator.C81_key",
    "Verif.Generator.C81_columns",
    "Verif.Generator.C81_round_trip_partial",
    "Verif.Generator.C81_batch_insert_partial",
    "Verif.Generator.C81_batch_update_partial",
    "Verif.Generator.C81_not_count_offset",
    "Verif.Generator.C81_not_count_order",
    "Verif.Generator.C81_not_add",
    "Verif.Generator.C81_not_nullempty",
    "Verif.Generator.C81_not_twice",
    "Verif.Generator.C81_not_join_target",
    "Verif.Generator.C81_not_alias",
    "Verif.Generator.C81_not_unqualified",
    "Verif.Generator.C81_example_select",
    "Verif.Generator.C81_example_join",
    "Verif.Generator.C81_example_count",
    "Verif.Generator.C81_example_exists",
    "Verif.Generator.C81_example_insert",
    "Verif.Generator.C81_example_upsert",
    "Verif.Generator.C81_example_update",
    "Verif.Generator.C81_example_delete",
    "Verif.Generator.C81_example_batch_insert",
    "Verif.Generator.C81_example_batch_update"
   ],
   "note": "The statement says the exceptions, which are shown by the theorems named not. The database is a specification: values of any type, casts and operators are parameters; constraints other than the index named by ON CONFLICT are left out, and so is the error for a row that one DO UPDATE would change twice. An update with a slice: casts to the type of the column change no value. Queries with a filter are left out here (C67)."
  },
  {
   "property": "C82",
   "status": "proved",
   "theorems": [
    "Verif.Conform.C82_refused",
    "Verif.Conform.C82_accepted",
    "Verif.Conform.C82_filter_refused",
    "Verif.Conform.C82_filter_accepted",
    "Verif.Conform.C82_literals",
    "Verif.Conform.C82_cases"
   ],
   "note": "The inputs and the expected values are generated from the test files by tools/conform.py, which is trusted to read them; of the expected errors the code is compared."
  },
  {
   "property": "C83",
   "status": "proved",
   "theorems": [
    "Verif.Conform.C83_queries",
    "Verif.Conform.C83_filters",
    "Verif.Conform.C83_cases"
   ],
   "note": "The inputs, the tables and the expected errors are generated from the test files by tools/conform.py and tools/pgcat.py, which are trusted to read them; the rows of the system catalogs are a specification. Of the expected errors the code is compared."
  },
  {
   "property": "C84",
   "status": "proved",
   "theorems": [
    "Verif.Conform.C84_delete",
    "Verif.Conform.C84_select",
    "Verif.Conform.C84_insert",
    "Verif.Conform.C84_update",
    "Verif.Conform.C84_filter",
    "Verif.Conform.C84_pgsql",
    "Verif.Conform.C84_delete_cases",
    "Verif.Conform.C84_select_cases",
    "Verif.Conform.C84_insert_cases",
    "Verif.Conform.C84_update_cases",
    "Verif.Conform.C84_filter_cases",
    "Verif.Conform.C84_pgsql_cases",
    "Verif.Generator.Print.C84_imports",
    "Verif.Generator.Print.C84_imports_example"
   ],
   "note": "The inputs and the expected files are translated by tools/conform.py, which is trusted to read them. Blanks are not compared, and imports are compared in the order that go/format gives them."
  },
  {
   "property": "C85",
   "status": "proved",
   "theorems": [
    "Verif.Pgsql.C85_value",
    "Verif.Pgsql.C85_round",
    "Verif.Pgsql.C85_round_text",
    "Verif.Pgsql.C85_ignored",
    "Verif.Pgsql.C85_not_null",
    "Verif.Pgsql.C85_not_string",
    "Verif.Pgsql.C85_not_xml",
    "Verif.Pgsql.C85_any",
    "Verif.Pgsql.C85_bit"
   ],
   "note": "encoding/json and encoding/xml are parameters."
  },
  {
   "property": "C86",
   "status": "proved",
   "theorems": [
    "Verif.Conform.FilterTest.C86_filter",
    "Verif.Conform.FilterTest.C86_tsquery",
    "Verif.Conform.FilterTest.C86_cases"
   ],
   "note": "The tokens of the FQL texts are specified; the tokenizer is external."
  },
  {
   "property": "C87",
   "status": "proved",
   "theorems": [
    "Verif.Generator.Lex.C87_stmt",
    "Verif.Generator.Lex.C87_tail",
    "Verif.Generator.Lex.C87_accepted",
    "Verif.Generator.Lex.C87_records",
    "Verif.Generator.Lex.C87_filter",
    "Verif.Generator.Lex.C87_example",
    "Verif.Generator.Lex.C87_example_comment",
    "Verif.Generator.Lex.C87_relation_partial",
    "Verif.Generator.Lex.C87_example_relation",
    "Verif.Generator.Lex.C87_not_relation",
    "Verif.Generator.Lex.C87_not_alias",
    "Verif.Generator.Lex.C87_not_distinct",
    "Verif.Generator.Lex.C87_filter_text",
    "Verif.Generator.Lex.C87_filtered",
    "Verif.Generator.Lex.C87_filter_example",
    "Verif.Generator.Lex.C87_filter_op",
    "Verif.Generator.Lex.C87_filter_columns",
    "Verif.Generator.Lex.C87_filter_column_partial",
    "Verif.Generator.Lex.C87_filter_column_quoted",
    "Verif.Generator.Lex.C87_not_filter_column",
    "Verif.Generator.Lex.C87_filter_columns_example"
   ],
   "note": "The statement includes the exceptions about upper-case letters and reserved words. The scanner is specified with the simplifications listed in SpecLex."
  },
  {
   "property": "C88",
   "status": "proved",
   "theorems": [
    "Verif.Conform.TypesTest.C88_types",
    "Verif.Conform.TypesTest.C88_methods",
    "Verif.Conform.TypesTest.C88_directives",
    "Verif.Conform.TypesTest.C88_cases",
    "Verif.Conform.TypesTest.C88_time"
   ],
   "note": ""
  },
  {
   "property": "C89",
   "status": "proved",
   "theorems": [
    "Verif.Generator.Gram.C89_accepted",
    "Verif.Generator.Gram.C89_records",
    "Verif.Generator.Gram.C89_stmt",
    "Verif.Generator.Gram.C89_rows",
    "Verif.Generator.Gram.C89_example",
    "Verif.Generator.Gram.C89_example_records",
    "Verif.Generator.Gram.C89_not_join",
    "Verif.Generator.Gram.C89_not_nested",
    "Verif.Generator.Gram.C89_not_quantifier",
    "Verif.Generator.Gram.C89_not_one_column",
    "Verif.Generator.Gram.C89_not_columns",
    "Verif.Generator.Gram.C89_not_in",
    "Verif.Generator.Gram.C89_not_alias",
    "Verif.Generator.Gram.C89_not_empty_list",
    "Verif.Generator.Gram.C89_not_many",
    "Verif.Generator.Gram.C89_not_literal"
   ],
   "note": "the requirements are the structure InfoFits (PropsGram7) and, for the values, Filled (PropsGram9); statements with a filter are not covered"
  },
  {
   "property": "C90",
   "status": "proved",
   "theorems": [
    "Verif.Generator.Gram.C90_filtered",
    "Verif.Generator.Gram.C90_where",
    "Verif.Generator.Gram.C90_stmt",
    "Verif.Generator.Gram.C90_meant",
    "Verif.Generator.Gram.C90_meant_unique",
    "Verif.Generator.Gram.C90_example",
    "Verif.Generator.Gram.C90_example_update",
    "Verif.Generator.Gram.C90_example_calls",
    "Verif.Generator.Gram.C90_example_meant",
    "Verif.Generator.Gram.C90_not_sortable",
    "Verif.Generator.Gram.C90_not_place",
    "Verif.Generator.Gram.C90_not_usage",
    "Verif.Generator.Gram.C90_not_fql_grouped",
    "Verif.Generator.Gram.C90_not_operator"
   ],
   "note": "the requirements on the statement are those of C89 (InfoFits, Filled)"
  },
  {
   "property": "C91",
   "status": "proved",
   "theorems": [
    "Verif.Filter.C91_joined",
    "Verif.Filter.C91_text",
    "Verif.Filter.C91_grammatical",
    "Verif.Filter.C91_example",
    "Verif.Filter.C91_not_fql_grouped"
   ],
   "note": ""
  },
  {
   "property": "C92",
   "status": "proved",
   "theorems": [
    "Verif.Analysis.C92_directive",
    "Verif.Analysis.C92_name",
    "Verif.Analysis.C92_panic",
    "Verif.Analysis.C92_filter",
    "Verif.Analysis.C92_ignored",
    "Verif.Analysis.C92_example",
    "Verif.Analysis.C92_not_error",
    "Verif.Analysis.C92_not_own"
   ],
   "note": ""
  },
  {
   "property": "C93",
   "status": "proved",
   "theorems": [
    "Verif.Generator.Gram.C93_selected",
    "Verif.Generator.Gram.C93_calls",
    "Verif.Generator.Gram.C93_tree",
    "Verif.Generator.Gram.C93_unique",
    "Verif.Generator.Gram.C93_guard",
    "Verif.Generator.Gram.C93_example",
    "Verif.Generator.Gram.C93_example_tree",
    "Verif.Generator.Gram.C93_example_guard",
    "Verif.Generator.Gram.C93_not_guarded"
   ],
   "note": "the requirements on the statement are those of C90; operators, casts and comparisons of the database are arbitrary functions"
  },
  {
   "property": "C94",
   "status": "proved",
   "theorems": [
    "Verif.Generator.Gram.C94_where_partial",
    "Verif.Generator.Gram.C94_keys",
    "Verif.Generator.Gram.C94_joins_partial",
    "Verif.Generator.Gram.C94_about",
    "Verif.Generator.Gram.C94_fits",
    "Verif.Generator.Gram.C94_example",
    "Verif.Generator.Gram.C94_example_asked",
    "Verif.Generator.Gram.C94_not_function_in"
   ],
   "note": "partial for the exceptions of C64, which are part of the statement; the requirements on the texts are those of C89; literals are not of the form $1; a cast of a parameter gives the value itself"
  },
  {
   "property": "C95",
   "status": "proved",
   "theorems": [
    "Verif.Generator.Gram.C95_tree",
    "Verif.Generator.Gram.C95_select_partial",
    "Verif.Generator.Gram.C95_insert",
    "Verif.Generator.Gram.C95_update_partial",
    "Verif.Generator.Gram.C95_update_from_partial",
    "Verif.Generator.Gram.C95_delete_partial",
    "Verif.Generator.Gram.C95_count_partial",
    "Verif.Generator.Gram.C95_exists_partial",
    "Verif.Generator.Gram.C95_insert_many",
    "Verif.Generator.Gram.C95_update_many_partial",
    "Verif.Generator.Gram.C95_example_select",
    "Verif.Generator.Gram.C95_example_update",
    "Verif.Generator.Gram.C95_example_insert",
    "Verif.Generator.Gram.C95_example_delete",
    "Verif.Generator.Gram.C95_example_insert_many",
    "Verif.Generator.Gram.C95_example_update_many",
    "Verif.Generator.Gram.C95_not_capital"
   ],
   "note": "partial for the exceptions of C64 and C81, which are part of the statement; Sent and SentRows list the requirements: those of C89 on the texts, lower case of what is not quoted, literals that are no parameters, casts in conditions that keep values"
  },
  {
   "property": "C96",
   "status": "proved",
   "theorems": [
    "Verif.Generator.Gram.C96_select_partial",
    "Verif.Generator.Gram.C96_count_partial",
    "Verif.Generator.Gram.C96_exists_partial",
    "Verif.Generator.Gram.C96_update_partial",
    "Verif.Generator.Gram.C96_update_from_partial",
    "Verif.Generator.Gram.C96_delete_partial",
    "Verif.Generator.Gram.C96_delete_using_partial",
    "Verif.Generator.Gram.C96_calls",
    "Verif.Generator.Gram.C96_guard",
    "Verif.Generator.Gram.C96_every",
    "Verif.Generator.Gram.C96_example_select",
    "Verif.Generator.Gram.C96_example_delete",
    "Verif.Generator.Gram.C96_example_update"
   ],
   "note": "partial for the exceptions that are part of the statement; SentFiltered lists the requirements: those of C90 on texts and calls, those of C67 on the place of the filter, lower case of what is not quoted"
  },
  {
   "property": "C97",
   "status": "proved",
   "theorems": [
    "Verif.Conform.Codec.C97_values",
    "Verif.Conform.Codec.C97_texts",
    "Verif.Conform.Codec.C97_cases",
    "Verif.Conform.Codec.C97_fails"
   ],
   "note": ""
  },
  {
   "property": "C98",
   "status": "proved",
   "theorems": [
    "Verif.Generator.C98_given",
    "Verif.Generator.C98_last",
    "Verif.Generator.C98_again",
    "Verif.Generator.C98_values",
    "Verif.Generator.C98_none",
    "Verif.Generator.C98_unchecked",
    "Verif.Generator.C98_quoting",
    "Verif.Generator.C98_quoting_example",
    "Verif.Generator.C98_loaded",
    "Verif.Generator.C98_first_version",
    "Verif.Generator.C98_not_pointer",
    "Verif.Generator.C98_not_untyped",
    "Verif.Generator.C98_not_func"
   ],
   "note": ""
  },
  {
   "property": "C99",
   "status": "proved",
   "theorems": [
    "Verif.Analysis.C99_query",
    "Verif.Analysis.C99_filter",
    "Verif.Postgres.C99_check",
    "Verif.Postgres.C99_check_filter",
    "Verif.Generator.C99_generate",
    "Verif.Generator.C99_tool",
    "Verif.Generator.C99_only_structs",
    "Verif.Generator.C99_example",
    "Verif.Generator.C99_not_relation",
    "Verif.Generator.C99_not_option",
    "Verif.Generator.C99_not_error",
    "Verif.Generator.C99_not_struct",
    "Verif.Generator.C99_not_name",
    "Verif.Generator.C99_not_catalog"
   ],
   "note": ""
  },
  {
   "property": "C100",
   "status": "proved",
   "theorems": [
    "Verif.Pgsql.C100_pairs",
    "Verif.Pgsql.C100_checked",
    "Verif.Pgsql.C100_int_names",
    "Verif.Pgsql.C100_one_sided",
    "Verif.Pgsql.C100_example",
    "Verif.Pgsql.C100_not_box",
    "Verif.Pgsql.C100_not_inet_arrays",
    "Verif.Pgsql.C100_not_narrow"
   ],
   "note": ""
  },
  {
   "property": "C101",
   "status": "proved",
   "theorems": [
    "Verif.Pgsql.C101_field",
    "Verif.Pgsql.C101_queries",
    "Verif.Pgsql.C101_trip",
    "Verif.Pgsql.C101_any",
    "Verif.Pgsql.C101_example",
    "Verif.Pgsql.C101_raw",
    "Verif.Pgsql.C101_lone",
    "Verif.Pgsql.C101_not_json",
    "Verif.Pgsql.C101_not_xml",
    "Verif.Pgsql.C101_not_any"
   ],
   "note": ""
  },
  {
   "property": "C102",
   "status": "proved",
   "theorems": [
    "Verif.Generator.C102_field_write",
    "Verif.Generator.C102_field_read",
    "Verif.Generator.C102_cond",
    "Verif.Generator.C102_args",
    "Verif.Generator.C102_pkeys",
    "Verif.Generator.C102_scan",
    "Verif.Generator.C102_example",
    "Verif.Generator.C102_kinds",
    "Verif.Generator.C102_not_pkey",
    "Verif.Generator.C102_not_list",
    "Verif.Generator.C102_not_time"
   ],
   "note": ""
  },
  {
   "property": "C103",
   "status": "proved",
   "theorems": [
    "Verif.Analysis.C103_swap",
    "Verif.Analysis.C103_reorder",
    "Verif.Analysis.C103_order",
    "Verif.Analysis.C103_join_first",
    "Verif.Analysis.C103_conflict",
    "Verif.Analysis.C103_between",
    "Verif.Analysis.C103_filter",
    "Verif.Analysis.C103_example",
    "Verif.Analysis.C103_not_join",
    "Verif.Analysis.C103_not_repeated",
    "Verif.Analysis.C103_not_filter"
   ],
   "note": ""
  },
  {
   "property": "C104",
   "status": "proved",
   "theorems": [
    "Verif.Postgres.C104_types",
    "Verif.Postgres.C104_operators",
    "Verif.Postgres.C104_casts",
    "Verif.Postgres.C104_like_pg",
    "Verif.Postgres.C104_like_any_pg",
    "Verif.Postgres.C104_functions",
    "Verif.Postgres.C104_key",
    "Verif.Postgres.C104_unknown",
    "Verif.Postgres.C104_refused",
    "Verif.Postgres.C104_errors",
    "Verif.Postgres.C104_relation",
    "Verif.Postgres.C104_cache",
    "Verif.Postgres.C104_no_crash",
    "Verif.Postgres.C104_consistent",
    "Verif.Postgres.C104_example",
    "Verif.Postgres.C104_example_rest",
    "Verif.Postgres.C104_not_search_path",
    "Verif.Postgres.C104_not_literal",
    "Verif.Postgres.C104_not_visible_operator",
    "Verif.Postgres.C104_not_visible_function",
    "Verif.Postgres.C104_not_upgrade",
    "Verif.Postgres.C104_not_default_argument",
    "Verif.Postgres.C104_not_aggregate",
    "Verif.Postgres.C104_not_identity",
    "Verif.Postgres.C104_not_deferrable"
   ],
   "note": ""
  },
  {
   "property": "C105",
   "status": "proved",
   "theorems": [
    "Verif.Generator.C105_scope",
    "Verif.Generator.C105_qualified",
    "Verif.Generator.C105_unqualified",
    "Verif.Generator.C105_select_on",
    "Verif.Generator.C105_from_on",
    "Verif.Generator.C105_single",
    "Verif.Generator.C105_assigned",
    "Verif.Generator.C105_example",
    "Verif.Generator.C105_example_assigned",
    "Verif.Generator.C105_not_output",
    "Verif.Generator.C105_not_where",
    "Verif.Generator.C105_not_target",
    "Verif.Generator.C105_not_upper",
    "Verif.Generator.C105_not_case",
    "Verif.Generator.C105_not_captured"
   ],
   "note": ""
  },
  {
   "property": "C106",
   "status": "proved",
   "theorems": [
    "Verif.Generator.Scoped.C106_text",
    "Verif.Generator.Scoped.C106_declared",
    "Verif.Generator.Scoped.C106_used",
    "Verif.Generator.Scoped.C106_returns",
    "Verif.Generator.Scoped.C106_const",
    "Verif.Generator.Scoped.C106_var",
    "Verif.Generator.Scoped.C106_packages",
    "Verif.Generator.Scoped.C106_visible",
    "Verif.Generator.Scoped.C106_predeclared",
    "Verif.Generator.Scoped.C106_example",
    "Verif.Generator.Scoped.C106_example_const",
    "Verif.Generator.Scoped.C106_example_batch",
    "Verif.Generator.Scoped.C106_not_array",
    "Verif.Generator.Scoped.C106_not_unread",
    "Verif.Generator.Scoped.C106_not_in",
    "Verif.Generator.Scoped.C106_not_visible"
   ],
   "note": ""
  },
  {
   "property": "C107",
   "status": "proved",
   "theorems": [
    "Verif.Generator.Scoped.C107_text",
    "Verif.Generator.Scoped.C107_coexist",
    "Verif.Generator.Scoped.C107_identifiers",
    "Verif.Generator.Scoped.C107_example",
    "Verif.Generator.Scoped.C107_not_exec",
    "Verif.Generator.Scoped.C107_not_field",
    "Verif.Generator.Scoped.C107_not_identifier"
   ],
   "note": ""
  },
  {
   "property": "C108",
   "status": "proved",
   "theorems": [
    "Verif.Generator.Scoped.C108_analysed",
    "Verif.Generator.Scoped.C108_output",
    "Verif.Generator.Scoped.C108_input",
    "Verif.Generator.Scoped.C108_example",
    "Verif.Generator.Scoped.C108_example_typed",
    "Verif.Generator.Scoped.C108_example_visit",
    "Verif.Generator.Scoped.C108_not_array",
    "Verif.Generator.Scoped.C108_not_method",
    "Verif.Generator.Scoped.C108_not_blank"
   ],
   "note": ""
  },
  {
   "property": "C109",
   "status": "proved",
   "theorems": [
    "Verif.Generator.Scoped.C109_scan",
    "Verif.Generator.Scoped.C109_write",
    "Verif.Generator.Scoped.C109_args",
    "Verif.Generator.Scoped.C109_count",
    "Verif.Generator.Scoped.C109_example",
    "Verif.Generator.Scoped.C109_example_leads",
    "Verif.Generator.Scoped.C109_example_count",
    "Verif.Generator.Scoped.C109_not_new",
    "Verif.Generator.Scoped.C109_not_exported"
   ],
   "note": ""
  },
  {
   "property": "C110",
   "status": "proved",
   "theorems": [
    "Verif.Generator.Scoped.C110_where",
    "Verif.Generator.Scoped.C110_lists",
    "Verif.Generator.Scoped.C110_limit",
    "Verif.Generator.Scoped.C110_fields",
    "Verif.Generator.Scoped.C110_values",
    "Verif.Generator.Scoped.C110_args",
    "Verif.Generator.Scoped.C110_example",
    "Verif.Generator.Scoped.C110_example_typed",
    "Verif.Generator.Scoped.C110_example_args",
    "Verif.Generator.Scoped.C110_imported",
    "Verif.Generator.Scoped.C110_example_imported",
    "Verif.Generator.Scoped.C110_not_blank",
    "Verif.Generator.Scoped.C110_not_exported"
   ],
   "note": ""
  }
 ]
}