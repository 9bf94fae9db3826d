{"claims": [
 {"property": "C01", "status": "proved", "theorems": ["Verif.Props.C01_unique_answer", "Verif.Props.C01_bounded_depth", "Verif.Props.C01_functions_unique"], "note": "Whole grammar modelled. Stack depth of the machine is not modelled."},
 {"property": "C02", "status": "proved", "theorems": ["Verif.C02_partition"], "note": "Every successful parse lays the text out as optional blanks and pipe, then one contiguous segment per returned command in order, each read by the command parser, separated by pipes and blanks, then blanks."},
 {"property": "C03", "status": "partial", "theorems": ["Verif.C03_trailing_partial", "Verif.C03_leading_blanks_partial", "Verif.C03_leading_pipe_partial", "Verif.C03_second_pipe_rejected", "Verif.C03_trailing_blank_changes_query"], "note": "Leading blanks and a leading pipe never change the result (a second leading pipe is rejected). Trailing blanks do change it: C03_trailing_blank_changes_query. C03_trailing_partial: they are harmless after every query text of the grammar of C69. Missing: a characterisation of all queries for which trailing blanks are harmless."},
 {"property": "C04", "status": "partial", "theorems": ["Verif.Props.C04_later_stage_partial", "Verif.C04_stage_partial", "Verif.C04_query_partial", "Verif.C04_fallback_keeps_case"], "note": "Proved for the first stage of a query, for the command parser at any stage, and for every later stage after a query in documented form (C04_later_stage_partial). When the named command does not accept its arguments the text falls back to an implicit search and keeps its case: C04_fallback_keeps_case."},
 {"property": "C05", "status": "proved", "theorems": ["Verif.C05_constant", "Verif.C05_only_integers", "Verif.C05_head", "Verif.C05_decimal", "Verif.C05_limits"], "note": "Exact value in range in both directions, for constants (minus sign) and counts (either sign); out-of-range digits become a name, never another integer. C05_limits shows that a plus sign is not accepted in expressions."},
 {"property": "C06", "status": "partial", "theorems": ["Verif.C06_constant_partial", "Verif.C06_time", "Verif.C06_literal_partial", "Verif.C06_leading_blank_lost", "Verif.C06_quoted_time", "Verif.C06_empty_strings_merge"], "note": "A quoted text without outer blanks that is not itself a quoted text or a time expression is kept verbatim (constants and literals). Negations: outer blanks are trimmed, a quoted relative time becomes a time, adjacent empty strings merge. C06_time: exactly the texts of Spec/Values: SnapText are read as times."},
 {"property": "C07", "status": "partial", "theorems": ["Verif.Props.C07_reserved_only_when_quoted", "Verif.Props.C07_no_reserved_names", "Verif.Props.C07_token", "Verif.Props.C07_option_keys", "Verif.Props.C07_quoted", "Verif.Props.C07_term", "Verif.Props.C07_reserved_stops", "Verif.Props.C07_like_in"], "note": "Proved for the whole grammar: a name of a parsed query that is a reserved word in any casing stands between quotes in the query (C07_reserved_only_when_quoted), so a query without quotes has no such name (C07_no_reserved_names); option keys and tokens are never reserved; a whole reserved word never starts a bare identifier. The only exception is the free text of TERM(..), which the code keeps as a field (C07_term). Consequence proved: like and in cannot be called (C07_like_in)."},
 {"property": "C08", "status": "partial", "theorems": ["Verif.C08_eval_partial", "Verif.C08_search_partial", "Verif.C08_or_before_and", "Verif.C08_not_after_comparison", "Verif.C08_where_partial", "Verif.C08_search_where_disagree"], "note": "Complete reading of operator expressions over dotted fields, integers, quoted texts, words with stars, time spans, IN lists, calls, TERM and parentheses: * / then + - then . then comparisons then NOT then OR then AND. The documented order (NOT tightest, AND before OR) is refuted: C08_or_before_and, C08_not_after_comparison. In where, AND does bind tighter than OR. C08_where_partial covers comparisons of fields with constants and calls, IN lists, calls, NOT, AND, OR, conditions side by side and parentheses in where."},
 {"property": "C09", "status": "partial", "theorems": ["Verif.C09_groups_right", "Verif.C09_chain_groups_right", "Verif.C09_single_partial", "Verif.C09_minus_and_divide_refuted"], "note": "Refuted: operators of one level group to the right for all operands and all chain lengths (C09_groups_right, C09_chain_groups_right, C09_minus_and_divide_refuted). Only a single operation agrees with the property (C09_single_partial)."},
 {"property": "C10", "status": "proved", "theorems": ["Verif.C10_parentheses", "Verif.C10_parentheses_search"], "note": "Every tree of fields, 64-bit integers and binary operators printed with full parentheses is read back as itself, in eval and in search."},
 {"property": "C11", "status": "partial", "theorems": ["Verif.C11_values_partial", "Verif.C11_last_value", "Verif.C11_permuted", "Verif.C11_makeresults", "Verif.C11_wrong_type_becomes_search"], "note": "For the 17 commands that begin with options, written with names, integers, t/f, quoted texts and time spans as values: the last value counts, permutations do not matter, defaults and types are as tabled. A wrong type does not fail the query; the stage becomes an implicit search (C11_wrong_type_becomes_search). map's option is not covered."},
 {"property": "C12", "status": "proved", "theorems": ["Verif.C12_layout", "Verif.C12_plain", "Verif.C12_single_backtick"], "note": "The detected chunks and suffix are exactly a layout of the text as plain text and backtick calls (C12_layout); plain text is returned whole; a single backtick is an error."},
 {"property": "C13", "status": "partial", "theorems": ["Verif.C13_positional_partial", "Verif.C13_resubstituted", "Verif.C13_escapes_interpreted", "Verif.C13_letters", "Verif.C13_numbers", "Verif.C13_other_characters", "Verif.C13_octal_call", "Verif.C13_touching"], "note": "Literal simultaneous substitution of positional arguments when placeholders are separated and arguments contain no backslash or dollar. Refuted in general: arguments are substituted again (C13_resubstituted), backslashes interpreted (C13_escapes_interpreted), touching placeholders (C13_touching). The escapes are given in full: C13_letters, C13_numbers (octal numbers, the group 0, a backslash at the end is an error) and, for every argument, C13_other_characters; an argument can even spell a macro call with octal escapes (C13_octal_call)."},
 {"property": "C14", "status": "proved", "theorems": ["Verif.Props.C14_fold", "Verif.Props.C14_append", "Verif.Props.C14_failure", "Verif.Props.C14_prefix_failure"], "note": "Fold law, append law, and failure of any command fails the render."},
 {"property": "C15", "status": "proved", "theorems": ["Verif.Props.C15_unsupported_reported"], "note": "Any position, nested inside join and multisearch, both modes."},
 {"property": "C16", "status": "proved", "theorems": ["Verif.Props.C16_runtime_accepts_more", "Verif.Props.C16_strict"], "note": "Simulation between the two modes over all commands and functions; C16_strict shows the inclusion is proper."},
 {"property": "C17", "status": "proved", "theorems": ["Verif.Props.C17_columns", "Verif.Props.C17_no_runtime_function", "Verif.Props.C17_standalone", "Verif.Props.C17_render"], "note": "No runtime node, one expression, and no column calls a runtime function, in every standalone program."},
 {"property": "C18", "status": "proved", "theorems": ["Verif.Props.C18_names_distinct", "Verif.Props.C18_assigned_occurs"], "note": "All names assigned in one program are pairwise different, for every pipeline and mode, and occur in the text."},
 {"property": "C19", "status": "partial", "theorems": ["Verif.Props.C19_scope_partial", "Verif.Props.C19_mixed_fails", "Verif.Props.C19_subsearch_fails"], "note": "C19_scope_partial proves scope, one-line statements, increasing numbers for plain queries whose runtime commands are in front; C19_mixed_fails and C19_subsearch_fails prove that the claim is false otherwise (statements are written into argument lists)."},
 {"property": "C20", "status": "partial", "theorems": ["Verif.Props.C20_deterministic_partial", "Verif.Props.C20_order_matters", "Verif.Props.C20_order_matters_query"], "note": "Deterministic whenever no search names two different indexes; the HashSet iteration order is a parameter, and C20_order_matters shows it changes the text for two."},
 {"property": "C21", "status": "partial", "theorems": ["Verif.Props.C21_meaning_partial", "Verif.Props.C21_where_partial", "Verif.Props.C21_eval_partial", "Verif.Props.C21_where_query_partial", "Verif.Props.C21_eval_query_partial", "Verif.Props.C21_truth_literals_undefined"], "note": "Proved for all expressions of the fragment `Frag` (fields, numbers, strings, comparisons, arithmetic, AND, OR, NOT, IN, wildcards, conditional functions, and now the mathematical and text functions of C71), all rows and all choices of primitive operations, from query text to value. Missing: the literals true and false (false: C21_truth_literals_undefined), time spans, calls in the runtime modes, functions outside C71_functions_partial."},
 {"property": "C22", "status": "partial", "theorems": ["Verif.Props.C22_where_partial", "Verif.Props.C22_lower_case_fails", "Verif.Props.C22_queries"], "note": "where accepts any letter case (for all conditions of CondOr). eval and search keep the lower-case words, refuted for all field pairs by C22_lower_case_fails."},
 {"property": "C23", "status": "partial", "theorems": ["Verif.Props.C23_text_reads_as_tree_partial", "Verif.Props.C23_same_text_same_tree_partial", "Verif.Props.C23_negation_loses_its_operand", "Verif.Props.C23_negation_loses_its_alias", "Verif.Props.C23_cast_of_negation_is_misread", "Verif.Props.C23_cast_of_negation_query"], "note": "Every printed tree without a negation under a method call is read back by the Python reader to the same tree; a negation that receives a method or an alias is misread (witnesses)."},
 {"property": "C24", "status": "partial", "theorems": ["Verif.Props.C24_string_constant_exact", "Verif.Props.C24_in_element_exact", "Verif.Props.C24_string_constant_partial", "Verif.Props.C24_comparison_partial", "Verif.Props.C24_constant_becomes_code", "Verif.Props.C24_backslash_is_reinterpreted"], "note": "String constants without the enclosing quote, backslash and line ends are kept exactly (C24_*_exact is an iff); any other constant is refuted."},
 {"property": "C25", "status": "partial", "theorems": ["Verif.Props.C25_in_list_partial", "Verif.Props.C25_empty_list_is_true", "Verif.Props.C25_empty_list_queries"], "note": "Non-empty lists of plain values: true exactly when some element's test is true. The empty list is refuted (always true)."},
 {"property": "C26", "status": "partial", "theorems": ["Verif.Props.C26_wildcard_partial", "Verif.Props.C26_underscore_is_special"], "note": "Patterns without %, _, quotes and backslashes: true exactly for the texts obtained by replacing each * (inductive Glob). _ is refuted."},
 {"property": "C27", "status": "partial", "theorems": ["Verif.Props.C27_search_filter_partial", "Verif.Props.C27_quoted_term_partial", "Verif.Props.C27_empty_term", "Verif.Props.C27_runtime_bare_term"], "note": "Boolean structure and bare terms in the standalone search; empty quoted terms and runtime bare terms are refuted."},
 {"property": "C28", "status": "proved", "theorems": ["Verif.Props.C28_index_split", "Verif.Props.C28_misplaced_index_fails"], "note": "Standalone translation: the required index tests decide the tables, the rest keeps its truth; misplaced ones fail."},
 {"property": "C29", "status": "partial", "theorems": ["Verif.Props.C29_narrows_partial", "Verif.Props.C29_index_forgets", "Verif.Props.C29_index_replaces"], "note": "Narrowing proved for searches without an index; refuted (frame replaced) when an index is named mid-pipeline."},
 {"property": "C30", "status": "partial", "theorems": ["Verif.Props.C30_split_partial", "Verif.Props.C30_runtime_splits_differ", "Verif.Props.C30_assign_partial"], "note": "Standalone assignments in order; splitting `a, b` into two evals is refuted for the runtime mode text."},
 {"property": "C31", "status": "partial", "theorems": ["Verif.Props.C31_simultaneous_partial", "Verif.Props.C31_swap_fails"], "note": "Equal to simultaneous renaming when no target is a later source; swap refuted."},
 {"property": "C32", "status": "partial", "theorems": ["Verif.Props.C32_keep_partial", "Verif.Props.C32_minus_is_plus", "Verif.Props.C32_minus_fails"], "note": "Field lists kept in order; `fields -` is refuted (treated as `+`)."},
 {"property": "C33", "status": "partial", "theorems": ["Verif.Props.C33_head_partial", "Verif.Props.C33_head_count_partial", "Verif.Props.C33_head_strict_agrees", "Verif.Props.C33_tail", "Verif.Props.C33_sort_partial", "Verif.Props.C33_top_partial", "Verif.Props.C33_negative_not_rejected", "Verif.Props.C33_negative_queries"], "note": "head/tail/sort/top limits; negative limits wrap to 2^64-n and are not rejected."},
 {"property": "C34", "status": "proved", "theorems": ["Verif.Props.C34_sort_keys"], "note": "All keys, directions and conversions in order."},
 {"property": "C35", "status": "partial", "theorems": ["Verif.Props.C35_standalone_partial", "Verif.Props.C35_runtime_partial", "Verif.Props.C35_runtime_collision"], "note": "Standalone names and grouping; runtime keyword collision refuted."},
 {"property": "C36", "status": "partial", "theorems": ["Verif.Props.C36_top_rare_partial", "Verif.Props.C36_by_replaces_fields", "Verif.Props.C36_showcount_ignored", "Verif.Props.C36_count_name_ignored"], "note": "Proved without BY and with the default, shown count column; the rest is refuted for all inputs."},
 {"property": "C37", "status": "partial", "theorems": ["Verif.Props.C37_lookup_partial", "Verif.Props.C37_never_reads"], "note": "Refuted for all inputs: the lookup table is never read. What remains: rows kept, OUTPUTNEW rejected."},
 {"property": "C38", "status": "partial", "theorems": ["Verif.Props.C38_fillnull_partial", "Verif.Props.C38_list_ignored"], "note": "No field list, or runtime mode; a list without the runtime library is ignored."},
 {"property": "C39", "status": "partial", "theorems": ["Verif.Props.C39_bin_partial", "Verif.Props.C39_other_field", "Verif.Props.C39_without_span", "Verif.Props.C39_other_field_query"], "note": "Only a field named `n` is bucketed; every other field refuted."},
 {"property": "C40", "status": "partial", "theorems": ["Verif.Props.C40_join_partial", "Verif.Props.C40_rejects", "Verif.Props.C40_overwrite_ignored", "Verif.Props.C40_overwrite_query", "Verif.Props.C40_no_panic"], "note": "Sides, kind, condition and absence of panics proved for every join; \"rejects options it cannot honour\" fails for `overwrite`, which is ignored (C40_overwrite_ignored)."},
 {"property": "C41", "status": "partial", "theorems": ["Verif.Props.C41_rows_partial", "Verif.Props.C41_multisearch_partial", "Verif.Props.C41_forgets_input", "Verif.Props.C41_succeeds", "Verif.Props.C41_standalone_text", "Verif.Props.C41_runtime_text_broken"], "note": "Proved on frames in every mode and on text in standalone mode; C41_rows_partial: for two or more searches of the fragment of C75 followed by commands of the fragment, the program computes the events of all the searches, each with the fields it has, from the text of the program. False with the runtime: the rendered text nests assignments inside an argument list (C41_runtime_text_broken)."},
 {"property": "C42", "status": "partial", "theorems": ["Verif.C42_refused_partial", "Verif.C42_piecewise_partial", "Verif.C42_same_text_partial", "Verif.C42_percent_before_directive", "Verif.C42_replaced_again", "Verif.C42_percent_fails", "Verif.C42_literal_refused", "Verif.C42_unlisted_is_kept", "Verif.C42_neighbours_merge", "Verif.C42_letters_become_fields", "Verif.C42_wrong_fields", "Verif.C42_fails", "Verif.C42_queries"], "note": "Piece by piece translation proved for formats of listed directives and literal characters (C42_piecewise_partial), refusal proved for every format containing a directive without pattern (C42_refused_partial), and equality of the printed text for every moment on the directives whose patterns are right (C42_same_text_partial). The full property fails: %% before a letter (C42_fails, C42_percent_before_directive, C42_replaced_again), unlisted directives are kept (C42_unlisted_is_kept), neighbouring fields merge, literal letters become fields, nine patterns print something else (C42_wrong_fields)."},
 {"property": "C43", "status": "partial", "theorems": ["Verif.Props.C43_case_partial", "Verif.Props.C43_validate_partial", "Verif.Props.C43_odd_rejected", "Verif.Props.C43_validate_skips_unknown", "Verif.Props.C43_runtime_accepts_odd"], "note": "First true (case) or first false (validate) branch for every list of pairs in the fragment, without runtime; odd and empty argument lists are rejected for all arguments. validate passes over an unknown condition (refuted); with the runtime nothing is checked (refuted)."},
 {"property": "C44", "status": "partial", "theorems": ["Verif.Props.C44_mvindex_partial", "Verif.Props.C44_negative_position_is_null", "Verif.Props.C44_negative_end_fails", "Verif.Props.C44_last_elements_fail", "Verif.Props.C44_queries"], "note": "Non-negative positions for every array; the three kinds of negative positions are refuted for every array."},
 {"property": "C45", "status": "proved", "theorems": ["Verif.Props.C45_alias_only_on_top", "Verif.Props.C45_operands_unaliased", "Verif.Props.C45_statements_unaliased", "Verif.Props.C45_strip_idempotent", "Verif.Props.C45_realias", "Verif.Props.C45_call_name"], "note": "All expressions, both modes. C45_call_name adds which name a call carries."},
 {"property": "C46", "status": "partial", "theorems": ["Verif.C46_every_argument_used_partial", "Verif.C46_first_argument_used_partial", "Verif.C46_arity_partial", "Verif.C46_arity_convert_partial", "Verif.C46_stats_arity_partial", "Verif.C46_count_arity_partial", "Verif.C46_stats_every_argument_used_partial", "Verif.C46_unknown_passed_partial", "Verif.C46_runtime_passed_partial", "Verif.C46_extra_arguments_ignored", "Verif.C46_runtime_unchecked"], "note": "Proved: exact arity for every fixed-arity eval and aggregate function, every argument part of the result for all functions outside a list of six, unknown functions passed through with name and all arguments. The full property fails: mvindex, mvzip, relative_time, earliest_time and latest_time ignore extra arguments (C46_extra_arguments_ignored) and nothing is checked when the runtime is used (C46_runtime_unchecked)."},
 {"property": "C47", "status": "proved", "theorems": ["Verif.C47_unit", "Verif.C47_constant", "Verif.C47_span"], "note": "The unit read is that of the longest accepted spelling the text begins with, in any casing; as an operand the whole number-and-unit word is read as that span."},
 {"property": "C48", "status": "partial", "theorems": ["Verif.Props.C48_runtime_search_partial", "Verif.Props.C48_duplicate_keyword"], "note": "Each condition is passed exactly once, in query order; a keyword given twice is refuted."},
 {"property": "C49", "status": "partial", "theorems": ["Verif.Props.C49_table_partial", "Verif.Props.C49_single_node", "Verif.Props.C49_root_dropped"], "note": "Model with root and longer node path; other spellings refuted."},
 {"property": "C50", "status": "proved", "theorems": ["Verif.Props.C50_one_column_per_group"], "note": "The regex parser is a parameter; groups are specified independently on the pattern tree."},
 {"property": "C51", "status": "proved", "theorems": ["Verif.Props.C51_format_fallback", "Verif.Props.C51_unformatted"], "note": "The formatter is a parameter that may fail."},
 {"property": "C52", "status": "proved", "theorems": ["Verif.Props.C52_parsed_shape"], "note": "Shape predicates in Spec/Shape.lean, proved for every nonterminal by induction on nesting depth."},
 {"property": "C53", "status": "partial", "theorems": ["Verif.C53_operand_partial", "Verif.C53_keyword_splits_word", "Verif.C53_not_splits", "Verif.C53_and_splits"], "note": "Names beginning with a keyword's letters are read whole as operands of search expressions; elsewhere keywords split longer words: C53_not_splits and C53_and_splits for all conditions of where, C53_keyword_splits_word."},
 {"property": "C54", "status": "partial", "theorems": ["Verif.C54_fixpoint", "Verif.C54_self_reference", "Verif.C54_no_calls_left_partial"], "note": "The result is a fixed point of one round (C54_fixpoint) and has no backtick when definitions and arguments have none (and no argument spells one as the octal escape \\140, which C13_octal_call shows to matter). A macro defined by itself is returned unexpanded (C54_self_reference)."},
 {"property": "C55", "status": "partial", "theorems": ["Verif.C55_plain_partial", "Verif.C55_outer_blanks", "Verif.C55_trailing_pipe_lost"], "note": "Unchanged when it has no outer blanks and no trailing pipe; trailing pipes are removed (C55_trailing_pipe_lost). Outer white space, by Python's table of white space, is removed (C55_outer_blanks)."},
 {"property": "C56", "status": "partial", "theorems": ["Verif.C56_missing_arguments_accepted", "Verif.C56_count_partial", "Verif.C56_unknown_name_ignored"], "note": "Counts are checked when at least one positional argument is given; calls without arguments and misspelt names are accepted (C56_missing_arguments_accepted, C56_unknown_name_ignored)."},
 {"property": "C57", "status": "partial", "theorems": ["Verif.C57_lookup_outputnew", "Verif.C57_tstats_prefix", "Verif.C57_reserved_functions", "Verif.C57_forms_refused", "Verif.C57_top_limit", "Verif.C57_limit_rejected", "Verif.C57_join_type", "Verif.C57_join_type_rejected"], "note": "Refuted.  For all continuations, top limit= is never a top command and join type= with a reserved word never a join; in no parsed query, at any depth, is there a lookup with OUTPUTNEW, a tstats with BY PREFIX, or a call of in, like or lookup with arguments (C57_lookup_outputnew, C57_tstats_prefix, C57_reserved_functions); C57_forms_refused lists further documented forms that are refused, with the nearest accepted ones. What can be written is covered by C11 and C69."},
 {"property": "C58", "status": "proved", "theorems": ["Verif.Props.C58_words_written", "Verif.Props.C58_characters"], "note": "parse_texts walks the whole grammar; C58_words_written and C58_characters are instances."},
 {"property": "C59", "status": "partial", "theorems": ["Verif.Props.C59_reads_partial", "Verif.Props.C59_standalone_partial", "Verif.Props.C59_keywords_fail", "Verif.Props.C59_quotes_fail", "Verif.Props.C59_undefined_fail"], "note": "C59_reads_partial and C59_standalone_partial: plain queries (Spec/Plain) of all translated commands, in all modes; the _fails theorems prove the claim false for the excluded queries."},
 {"property": "C60", "status": "partial", "theorems": ["Verif.Props.C60_concat_fails"], "note": "The claim is false for all field names: C60_concat_fails proves that the output is read as attribute access."},
 {"property": "C61", "status": "partial", "theorems": ["Verif.Props.C61_library_call_raises", "Verif.Props.C61_second_argument_raises", "Verif.Props.C61_tostring_raises", "Verif.Props.C61_library_call_succeeds_partial", "Verif.Props.C61_plain_values", "Verif.Props.C61_truth_raises"], "note": "The claim is false: C61_library_call_raises and C61_second_argument_raises prove, for all arguments, that the listed functions raise. C61_library_call_succeeds_partial proves success for nested expressions over the functions for which both versions agree (Spec/Runtime: Shared). Functions that are neither in Shared nor in the lists (e.g. with literal-only parameters) are modelled but not classified. printf, tonumber and log always raise, and C61_tostring_raises: tostring of one argument does. C61_plain_values: the same functions work when Python code passes them numbers and texts instead of columns. C61_truth_raises: the code of a truth value raises."},
 {"property": "C62", "status": "partial", "theorems": ["Verif.Props.C62_same_column_partial", "Verif.Props.C62_bit_and_is_null", "Verif.Props.C62_case_is_no_column", "Verif.Props.C62_validate_partial", "Verif.Props.C62_validate_raises"], "note": "C62_same_column_partial for expressions over the shared functions (Spec/Runtime: Shared), all nestings. False in general: C62_bit_and_is_null (bit functions give a null column), C62_case_is_no_column. C62_validate_partial: validate of wrapper objects is the standalone column; C62_validate_raises: with a plain column among the arguments it raises."},
 {"property": "C63", "status": "partial", "theorems": ["Verif.Props.C63_operand_raises", "Verif.Props.C63_right_operand_raises", "Verif.Props.C63_negation_raises", "Verif.Props.C63_where_raises", "Verif.Props.C63_where_partial"], "note": "False: C63_operand_raises, C63_right_operand_raises, C63_negation_raises, C63_where_raises prove, for all shared calls that return a wrapper object, that operators and where raise. C63_where_partial covers conditions whose value is a column."},
 {"property": "C64", "status": "partial", "theorems": ["Verif.Props.C64_first_raises", "Verif.Props.C64_repeated_raises", "Verif.Props.C64_df_raises", "Verif.Props.C64_name_raises", "Verif.Props.C64_eval_partial"], "note": "C64_eval_partial: after other commands, right-hand sides over the shared functions (Spec/Runtime: Shared), different names that are names of Python keyword arguments and not `df`. False otherwise: C64_first_raises, C64_repeated_raises, C64_df_raises, C64_name_raises (e.g. `eval a.b=1`)."},
 {"property": "C65", "status": "partial", "theorems": ["Verif.Props.C65_source_first", "Verif.Props.C65_source_only", "Verif.Props.C65_filter_partial", "Verif.Props.C65_index_partial", "Verif.Props.C65_first_raises", "Verif.Props.C65_repeated_raises", "Verif.Props.C65_name_raises", "Verif.Props.C65_index_ignored", "Verif.Props.C65_word_is_column", "Verif.Props.C65_special_dropped", "Verif.Props.C65_special_first"], "note": "C65_filter_partial and C65_index_partial for comparisons, IN lists, AND/OR/NOT and a leading index. False: C65_first_raises (no index, delivered settings), C65_repeated_raises, C65_name_raises, C65_index_ignored, C65_word_is_column, C65_special_dropped, C65_special_first (the special fields of a first search are looked up in other columns). C65_source_first, C65_source_only: without an index the delivered settings read the table named after source and sourcetype, the plain translation reads main."},
 {"property": "C66", "status": "partial", "theorems": ["Verif.Props.C66_all_or_nothing", "Verif.Props.C66_missing_raises", "Verif.Props.C66_count_raises", "Verif.Props.C66_label_raises", "Verif.Props.C66_first_raises", "Verif.Props.C66_distinct_count_differs", "Verif.Props.C66_stats_partial"], "note": "C66_all_or_nothing: where the library may be used stats is translated with it or not at all. C66_stats_partial for the statistics in Spec/Runtime: sharedStats, any BY list. False: C66_missing_raises (sum, list, stdevp, numbered percentiles), C66_count_raises, C66_label_raises, C66_first_raises, C66_distinct_count_differs."},
 {"property": "C67", "status": "partial", "theorems": ["Verif.Props.C67_data_model_raises", "Verif.Props.C67_fillnull_first_raises", "Verif.Props.C67_tstats_late_raises", "Verif.Props.C67_tstats_prefix_lost", "Verif.Props.C67_fillnull_partial", "Verif.Props.C67_tstats_partial", "Verif.Props.C67_tstats_node", "Verif.Props.C67_fillnull_values_partial", "Verif.Props.C67_tstats_fill_ignored", "Verif.Props.C67_tstats_fill_partial", "Verif.Props.C67_tstats_fill_query_partial"], "note": "C67_fillnull_partial, C67_fillnull_values_partial (the values written), C67_tstats_partial, C67_tstats_fill_partial (fillnull_value, for count), C67_tstats_fill_query_partial (fillnull_value with shared statistics, filter and BY list: what where and stats compute from the filled table). False: C67_data_model_raises, C67_fillnull_first_raises, C67_tstats_late_raises, C67_tstats_prefix_lost, C67_tstats_node, C67_tstats_fill_ignored (fillnull_value without the library). Missing: statistics and filters outside the shared ones."},
 {"property": "C68", "status": "partial", "theorems": ["Verif.Props.C68_query_partial", "Verif.Props.C68_delivered_partial", "Verif.Props.C68_multisearch_partial", "Verif.Props.C68_multisearch_order"], "note": "C68_query_partial and C68_delivered_partial: all pipelines of shared commands (Spec/Runtime: SharedQuery, 17 commands), rows compared under every lawful interpretation of Spark. The general claim is false by C61-C67. C68_multisearch_partial: the same for the expression of a multisearch of such queries followed by shared commands, C68_multisearch_order: the rows keep the order of the searches."},
 {"property": "C69", "status": "partial", "theorems": ["Verif.C69_read_partial", "Verif.C69_unambiguous_partial"], "note": "C69_read_partial and C69_unambiguous_partial: all queries of the grammar Spec.QueryText, which has every command, nested brackets and the quoted search of map. Missing: the documented forms that the code refuses (C53, C57), which the grammar leaves out."},
 {"property": "C70", "status": "partial", "theorems": ["Verif.C70_address6", "Verif.C70_address6_letters", "Verif.C70_decimal", "Verif.C70_address", "Verif.C70_only_decimals", "Verif.C70_eval", "Verif.C70_network", "Verif.C70_not_numbers", "Verif.C70_network_unequal", "Verif.C70_address_range"], "note": "C70_decimal, C70_address, C70_address6 (eight groups of decimal digits with colons), C70_only_decimals (an equivalence with `C70_decimal`), C70_eval (the value of the generated column), C70_network (equality with a network, as a whole query). Missing, because false: a plus sign, missing digits and exponents (C70_not_numbers), `!=` with a network (C70_network_unequal), numbers above 255 in addresses (C70_address_range), addresses of eight groups with letters, which are taken for column names (C70_address6_letters)."},
 {"property": "C71", "status": "partial", "theorems": ["Verif.Props.C71_functions_partial", "Verif.Props.C71_primitives_partial", "Verif.Props.C71_optional_arguments_refused", "Verif.Props.C71_conversions_refused", "Verif.Props.C71_refused_queries", "Verif.Props.C71_log_is_swapped", "Verif.Props.C71_log_query", "Verif.Props.C71_sum_is_an_aggregate", "Verif.Props.C71_tostring_partial", "Verif.Props.C71_tostring_truth_values", "Verif.Props.C71_replace_takes_names", "Verif.Props.C71_replace_escapes", "Verif.Props.C71_split_delimiter_is_a_pattern", "Verif.Props.C71_avg_and_random"], "note": "C71_functions_partial: every call in `FragPrim` (functions of one and two arguments, max and min of two or more, round, substr, shifts with whole numbers, replace with texts Python reads as they stand), arguments arbitrary expressions of the C21 fragment. Missing, because false: optional and further arguments (C71_optional_arguments_refused, C71_conversions_refused), log (C71_log_is_swapped), sum (C71_sum_is_an_aggregate), tostring of truth values, replace with fields or backslashes, split at characters with a meaning in patterns, avg and random. Not modelled: JSON, multivalue and time functions; PySpark's and SPL's regular expressions and LIKE patterns are taken to be the same primitive."},
 {"property": "C72", "status": "partial", "theorems": ["Verif.Props.C72_memk_partial", "Verif.Props.C72_memk_unit_required", "Verif.Props.C72_memk_eval_partial", "Verif.Props.C72_rmunit_partial", "Verif.Props.C72_rmunit_other_text", "Verif.Props.C72_rmcomma_partial", "Verif.Props.C72_ctime_partial", "Verif.Props.C72_ctime_refused", "Verif.Props.C72_other_names", "Verif.Props.C72_command", "Verif.Props.C72_required_refused", "Verif.Props.C72_rows", "Verif.Props.C72_split"], "note": "C72_command, C72_rows, C72_split: the command for all lists and all preceding commands. C72_memk_partial, C72_rmunit_partial, C72_rmcomma_partial, C72_ctime_partial: the value computed by the generated text for all numbers, under the usual meaning of the Spark primitives (`Usual`, satisfied by `plainSem_usual`). Missing, because false: memk without a unit is null although the source's own comment gives it as an example (C72_memk_unit_required); rmunit is null when any character that is no letter, digit or underscore follows (C72_rmunit_other_text); auto, dur2sec, mktime, mstime, none and num are passed on to functions PySpark does not have, and so is every name in capitals (C72_other_names); nothing is generated when the library is required (C72_required_refused). Not modelled: how Spark makes a time of a number for date_format; wildcards in field names."},
 {"property": "C73", "status": "partial", "theorems": ["Verif.Props.C73_expression_partial", "Verif.Props.C73_where_partial", "Verif.Props.C73_eval_partial"], "note": "C73_expression_partial: all expressions `plainE` in every mode, every function, text of both renderings, both the names read and the value (eval_local: the value of any Python expression depends only on the columns it reads). C73_where_partial, C73_eval_partial: the whole program of where and of eval with one assignment. Missing: names that need quoting in Python (outside `plainE`); the other commands (C75 states for its commands that every column read exists). Columns a library function of the runtime reads by itself are not part of this."},
 {"property": "C74", "status": "partial", "theorems": ["Verif.Props.C74_search_partial", "Verif.Props.C74_search_not_partial", "Verif.Props.C74_search_nots_partial", "Verif.Props.C74_query_partial", "Verif.Props.C74_word_is_a_column", "Verif.Props.C74_word_query", "Verif.Props.C74_not_drops_rows", "Verif.Props.C74_not_query", "Verif.Props.C74_letter_case"], "note": "C74_search_partial: all conditions `SearchFrag false` (comparisons with numbers, quoted texts and patterns, IN, AND, OR), every row and meaning of the comparisons; C74_query_partial the same from the text of a query written as in C69; C74_search_not_partial: with NOT, on rows where every comparison is decided; C74_search_nots_partial: it is enough that those under NOT are. Missing, because false: an unquoted word is read as the name of another field, for all names (C74_word_is_a_column, C74_word_query); NOT drops the rows that lack the field (C74_not_drops_rows, C74_not_query); texts are compared with letter case (C74_letter_case). Bare terms: C27; index=: C28."},
 {"property": "C75", "status": "partial", "theorems": ["Verif.Props.C75_rows_partial", "Verif.Props.C75_text_partial", "Verif.Props.C75_null_group", "Verif.Props.C75_internal_fields", "Verif.Props.C75_aggregate_names", "Verif.Props.C75_unknown_field", "Verif.Props.C75_rename_onto", "Verif.Props.C75_missing_key"], "note": "C75_rows_partial: every query of search (with NOT, on rows where the comparisons under NOT are decided, `NotsDecided` in `Definite`), where, eval, rename, fields, table, head, sort and stats in any order and number (`fitsQuery`), every table, every meaning of the primitives, from the text of the generated program as read by a Python reader of its own; C75_text_partial the same from the text of the query (C69). Missing: rows tied in a sort, first/last/mode and head without a sort, whose result Spark does not fix; two or more index= in one search; the other commands (C36-C41, C64-C68 describe their rows one by one). Missing, because false: events without the BY field make a group (C75_null_group), fields drops _time and _raw (C75_internal_fields), sum(x) is called sum (C75_aggregate_names), a field no event has is an error (C75_unknown_field), rename onto a field that is there (C75_rename_onto), sort puts events without the field first (C75_missing_key)."},
 {"property": "C76", "status": "partial", "theorems": ["Verif.Props.C76_stats_partial", "Verif.Props.C76_ordered_partial", "Verif.Props.C76_values_partial", "Verif.Props.C76_upperperc_partial", "Verif.Props.C76_median_partial", "Verif.Props.C76_earliest_partial", "Verif.Props.C76_range_refused", "Verif.Props.C76_median_even", "Verif.Props.C76_exactperc_between", "Verif.Props.C76_perc_unknown", "Verif.Props.C76_list_all", "Verif.Props.C76_time_any_event", "Verif.Props.C76_count_eval", "Verif.Props.C76_library_partial"], "note": "C76_stats_partial: avg, mean, count, dc, distinct_count, max, min, stdev, stdevp, sum, sumsq, var, varp, any number of them in one command with any BY fields, on rows in any order, from the text of the program; C76_ordered_partial: first, last and list of at most 100 values if Spark has the rows in the order of the events; C76_values_partial: the set; C76_upperperc_partial: upperperc0 to upperperc100; C76_median_partial: median of an odd number of values; C76_earliest_partial: earliest and latest if Spark keeps the order of the sorted table in the groups; C76_library_partial: the aggregates the runtime library builds for avg, mean, max, min, stdev, var, varp and range. False: C76_range_refused (an aggregate of an aggregate), C76_median_even, C76_exactperc_between, C76_perc_unknown (perc95 and p95), C76_list_all (more than 100 values), C76_time_any_event (earliest_time and latest_time of events without the field), C76_count_eval. Missing: mode, rate, estdc (an approximation in both languages), values of other kinds than numbers, the order of values, which Spark does not fix."},
 {"property": "C77", "status": "partial", "theorems": ["Verif.Props.C77_total_partial", "Verif.Props.C77_all_fields", "Verif.Props.C77_options_ignored"], "note": "C77_total_partial: for any non-empty list of fields the field written has the exact sum of the numeric ones on every row, from the text of the program, for any operations that add numbers; everything else stays as it is. False: C77_all_fields (without a list the program writes 0), C77_options_ignored (row, col, label and labelfield make no difference). Inside longer queries: C75_rows_partial."},
 {"property": "C78", "status": "partial", "theorems": ["Verif.Props.C78_path_partial", "Verif.Props.C78_index_lost", "Verif.Props.C78_index_wrong", "Verif.Props.C78_without_path", "Verif.Props.C78_option_order"], "note": "C78_path_partial: paths of keys, any input and output field, from the text of the program. False: C78_index_lost (for every path without brackets no step of the path Spark follows leads into an array), C78_index_wrong (`a{0}.b` and `a{}.b`), C78_without_path (read as a search for the word spath), C78_option_order. Inside longer queries: C75_rows_partial."},
 {"property": "C79", "status": "partial", "theorems": ["Verif.Props.C79_made_partial", "Verif.Props.C79_then_partial", "Verif.Props.C79_extra_column", "Verif.Props.C79_group_refused"], "note": "C79_made_partial: for every count from 0 and without a server group, the rows without the column `id` are the events SPL makes, with these columns, from the text of the program; C79_then_partial: following commands of the fragment of C75 compute what SPL describes for events with the additional field. False: C79_extra_column (`id` is a column in every case), C79_group_refused (the name of a server group is an undefined variable of Python)."},
 {"property": "C80", "status": "partial", "theorems": ["Verif.Props.C80_regex_partial", "Verif.Props.C80_regex_fails"], "note": "C80_regex_partial: the program read back names the field, the pattern and the sense of the command, for every pattern that can stand in a raw literal, and with the pattern as a column the rows kept would be SPL's. False: C80_regex_fails (the pattern is handed over as a text, which `regexp_like` takes for the name of a column: no rows, as soon as there is a row to test)."},
 {"property": "C81", "status": "partial", "theorems": ["Verif.Props.C81_rex_partial", "Verif.Props.C81_no_match_lost", "Verif.Props.C81_java_names", "Verif.Props.C81_unnamed_group", "Verif.Props.C81_same_field"], "note": "C81_rex_partial: patterns of the modelled part Java reads too, all of whose groups have a name, different from each other and from the field, on rows that match, if the external parser numbers the groups from left to right; from the text of the program. False: C81_no_match_lost, C81_java_names (underscores and `(?P<`), C81_unnamed_group, C81_same_field. Patterns outside Spec/Pattern (alternatives, nested groups, counted repetition) are not modelled."},
 {"property": "C82", "status": "partial", "theorems": ["Verif.Props.C82_calls_partial", "Verif.Props.C82_top_fails", "Verif.Props.C82_calls_fail"], "note": "C82_calls_partial: every plain query with functions out of the lists the translation knows (`okQuery`), read back from the text: the program is one expression, every call in it fits a signature, and it is a data frame, or a list after a final `tail`. False: C82_top_fails (every query that ends with `top` or `rare` calls `F.count()` without its argument), C82_calls_fail (commands after `tail`, `true` and `false`, functions passed on by name such as `perc95`, `sparkline` or `num`, the server group of makeresults). Whether the columns named exist and values have the right SQL types is not part of the statement."},
 {"property": "C83", "status": "partial", "theorems": ["Verif.Props.C83_long_prefix", "Verif.Props.C83_function_partial", "Verif.Props.C83_library_fails", "Verif.Props.C83_sql_fails", "Verif.Props.C83_list_fails"], "note": "C83_function_partial: the function of the library, given address and network in this order, is right for all IPv4 addresses and networks. False everywhere it is used: C83_library_fails (network taken for the name of a column, arguments swapped), C83_sql_fails (function not registered, arguments swapped), C83_list_fails (IN compares texts). IPv6 is a parameter. C83_long_prefix: a prefix longer than 32 holds no IPv4 address."},
 {"property": "C84", "status": "partial", "theorems": ["Verif.Props.C84_mask_missing", "Verif.Props.C84_prefix_partial", "Verif.Props.C84_library_missing"], "note": "C84_prefix_partial: right when the number of leading ones is given instead of the mask. False: C84_mask_missing (every mask of four numbers gives a missing value), C84_library_missing (so every query of this kind gives a missing value in every row). There is no translation without the library."},
 {"property": "C85", "status": "partial", "theorems": ["Verif.Props.C85_relative_partial", "Verif.Props.C85_week_fails", "Verif.Props.C85_refused", "Verif.Props.C85_documented_refused", "Verif.Props.C85_now_raises"], "note": "C85_relative_partial for all specifiers that snap to seconds, minutes, hours, days or months, with the calendar of months as a parameter, in a time zone without changes of the clock. False: C85_week_fails (snapping to weeks is wrong at every time), C85_refused with C85_documented_refused (specifiers without an at sign, years, quarters, week days, `+d@d`), C85_now_raises (with the library the time must not itself be computed by the library)."},
 {"property": "C86", "status": "partial", "theorems": ["Verif.Props.C86_library_rows_partial", "Verif.Props.C86_text_partial"], "note": "C86_library_rows_partial: for the queries of C75 (rows without the library) that are made of the commands and functions of C68 (alike with the library), for any settings of the library that look up the index as the table of that name; C86_text_partial from the text and with the settings as delivered. Missing: the queries outside these fragments, for which C61-C67 and C75 show where the claim is false."},
 {"property": "C87", "status": "partial", "theorems": ["Verif.Props.C87_join_partial", "Verif.Props.C87_too_many", "Verif.Props.C87_ambiguous"], "note": "C87_join_partial: search and subsearch in the fragment of C75, types inner and left, no other common fields than those joined on, at most one match for an event: the pairs of rows are the events described. Refuted beyond: with several matches, or with outer (which cannot be written in a query, C57, but is in the tree), there are more rows than described (C87_too_many); every field joined on is there twice afterwards, so it cannot be used by its name (C87_ambiguous)."},
 {"property": "C88", "status": "partial", "theorems": ["Verif.Props.C88_mvcount_partial", "Verif.Props.C88_mvcount_single_fails", "Verif.Props.C88_mvappend_partial", "Verif.Props.C88_mvappend_fails", "Verif.Props.C88_split_partial", "Verif.Props.C88_split_fails", "Verif.Props.C88_mvzip_partial", "Verif.Props.C88_mvzip_lengths_fail"], "note": "C88_mvcount_partial (arrays that are not empty), C88_mvappend_partial (arrays only), C88_split_partial (delimiters without characters that mean something in a regular expression; the result is the one list of pieces, pieces_unique), C88_mvzip_partial (equally many values in arrays; the whole call is read, with the lambda expression in it). Refuted beyond: C88_mvcount_single_fails (a single value is an error, an empty array counts 0), C88_mvappend_fails (single values are run together into one text, a missing one makes all missing), C88_split_fails (delimiters `.` and `|`), C88_mvzip_lengths_fail (as many pairs as the longer list has, and a single value is an error)."},
 {"property": "C89", "status": "partial", "theorems": ["Verif.Props.C89_relative_refused", "Verif.Props.C89_number_is_compared", "Verif.Props.C89_comparisons_partial"], "note": "Refuted for all bounds. C89_relative_refused: a search with a time relative to now or a span anywhere in its condition is not translated in any mode and state, and neither is a query that contains it. C89_number_is_compared: with a number of seconds, a column `earliest` or `latest` is compared instead of `_time`. C89_comparisons_partial: what does hold, the range written with comparisons of `_time` keeps the events the bounds describe."},
 {"property": "C90", "status": "partial", "theorems": ["Verif.Props.C90_command_partial", "Verif.Props.C90_unknown_is_a_search", "Verif.Props.C90_arguments_fail", "Verif.Props.C90_unsupported_not_reported", "Verif.Props.C90_empty_eval"], "note": "C90_command_partial: a stage in the form of a command is read as this command after every query. Refuted beyond: C90_unknown_is_a_search (every list of plain words that does not begin with the name of a command, after every query, becomes a filter that removes the events without these words), C90_arguments_fail (the same for `tail abc`, `table`, `regex abc`, `mvexpand f`, whose names are those of commands). C90_unsupported_not_reported: `inputlookup \"users.csv\"`, `collect` and `map x` become searches instead of being reported; C90_empty_eval: `eval` without an assignment is accepted."},
 {"property": "C91", "status": "partial", "theorems": ["Verif.Props.C91_refused_partial", "Verif.Props.C91_ignored", "Verif.Props.C91_ignored_queries", "Verif.Props.C91_unknown_option", "Verif.Props.C91_unknown_option_queries"], "note": "C91_refused_partial: no query with prestats, local, append or include_reduced_buckets of tstats, mode=sed or max_match other than 1 of rex, max other than 1 of join, useother of top and rare, or OUTPUTNEW of lookup is translated. Refuted for the others: C91_ignored (setting the ignored options of all commands of a query, also of its sub-searches, to their defaults does not change the program: addtotals, bin, fields -, head, join, rare, rex, stats, top and, without the library, datamodel, fillnull and tstats) with C91_ignored_queries, and C91_unknown_option (every option that does not exist is dropped, for the fourteen commands whose arguments begin with options) with C91_unknown_option_queries (top and join too)."},
 {"property": "C92", "status": "partial", "theorems": ["Verif.Props.C92_kept_partial", "Verif.Props.C92_kept_not_partial", "Verif.Props.C92_terms_partial", "Verif.Props.C92_query_partial", "Verif.Props.C92_part_of_a_word", "Verif.Props.C92_underscore", "Verif.Props.C92_percent", "Verif.Props.C92_queries"], "note": "C92_kept_partial and C92_kept_not_partial: for all conditions of the fragment (terms without %, _, quotes and backslashes) the filter keeps exactly the events in which the texts occur, in any letter case (ASCII); NOT on events on which the comparisons are decided. C92_terms_partial and C92_query_partial: hence without NOT no event described is lost, and none is kept wrongly unless a term is a part of a longer one in it. Refuted in general: C92_part_of_a_word (for every word and every following letter or digit), C92_underscore (for every word with an underscore), C92_percent (for every phrase with a percent sign at its end), C92_queries."},
 {"property": "C93", "status": "partial", "theorems": ["Verif.Props.C93_where_partial", "Verif.Props.C93_eval_partial", "Verif.Props.C93_dot_fails", "Verif.Props.C93_letter_case_fails", "Verif.Props.C93_spath_query"], "note": "C93_where_partial, C93_eval_partial: for names without dots, backquotes and asterisks, on tables with columns whose names differ in more than letter case, every reference read from the program is the field of that name (the rows of longer queries under the same conditions: C75). Refuted for the others: C93_dot_fails (all names with a dot, which the grammar admits unquoted: refused, or a column of that table or a part of another column; resolution after a name of the table, as in table.column, is in the specification), C93_letter_case_fails (all pairs of columns that differ in letter case), C93_spath_query (the columns spath makes by itself cannot be referred to afterwards)."},
 {"property": "C94", "status": "partial", "theorems": ["Verif.Props.C94_rows_partial", "Verif.Props.C94_text_partial", "Verif.Props.C94_index_fails", "Verif.Props.C94_null_group", "Verif.Props.C94_conditions_fail"], "note": "C94_rows_partial, C94_text_partial: standalone program, comparisons of fields with values, patterns and IN lists joined with AND, OR and NOT (on events where the comparisons under NOT are decided), functions and names as in C75, any following commands as in C75. Refuted outside: C94_index_fails (every tstats without a data model is refused), C94_null_group (events without the field grouped by are counted), C94_conditions_fail (bounds on the time become fields; bare terms, conditions after a node name and relative times are not read). Functions outside C75 are missing."},
 {"property": "C95", "status": "partial", "theorems": ["Verif.Props.C95_comparison_partial", "Verif.Props.C95_word_is_a_text", "Verif.Props.C95_word_query", "Verif.Props.C95_sides", "Verif.Props.C95_one_comparison", "Verif.Props.C95_refused"], "note": "C95_comparison_partial: a field on the left and a number, quoted text or call on the right. Refuted outside: C95_word_is_a_text (every word on the right is a text, and what the program keeps instead), C95_sides, C95_one_comparison (in no query whatsoever has a comparison of `where` a field on the right or an expression on the left), C95_refused."},
 {"property": "C96", "status": "partial", "theorems": ["Verif.Props.C96_text_columns_partial", "Verif.Props.C96_number_stays_null", "Verif.Props.C96_list_ignored", "Verif.Props.C96_query"], "note": "C96_text_columns_partial: after every query of C75, without a list, on tables whose columns are all texts, from the text of the program. Refuted for the others: C96_number_stays_null (the value is always handed over as a text, and Spark passes over columns of other types: for all queries, values and columns), C96_list_ignored (with a list the other columns are filled too). With the library: C67."},
 {"property": "C97", "status": "partial", "theorems": ["Verif.Props.C97_blanks_partial", "Verif.Props.C97_minus_divide_fail", "Verif.Props.C97_times_refused", "Verif.Props.C97_numbers", "Verif.Props.C97_forms"], "note": "C97_blanks_partial: with blanks on both sides, and `+` with or without, for all operands of the grammar of C08, from the text of the query to the value computed by the program. Refuted without blanks, for all texts of names and numbers joined by - and / (C97_minus_divide_fail: the program copies a column of that name) and by * (C97_times_refused: the query is rejected in every mode)."},
 {"property": "C98", "status": "partial", "theorems": ["Verif.Props.C98_value_partial", "Verif.Props.C98_lambda_fails", "Verif.Props.C98_others_kept", "Verif.Props.C98_empty"], "note": "C98_others_kept: no other variable is changed, for every cell, and a dry run changes none. C98_value_partial: for plain queries (C59) the variable gets the value of the program run by itself, in every notebook, if the program has no lambda expression or the notebook has the function module as F. C98_lambda_fails: a program with a lambda expression (mvzip without the runtime) fails in every notebook without F. C98_empty: an empty search gives None."},
 {"property": "C99", "status": "partial", "theorems": ["Verif.Props.C99_one_index_partial", "Verif.Props.C99_two_indexes_fail", "Verif.Props.C99_pattern_fails", "Verif.Props.C99_not_index_fails", "Verif.Props.C99_list_fails"], "note": "C99_one_index_partial: with one index=name on the conjunctive spine the program gives exactly the events, of all indexes, on which the whole condition is true. Refuted for two different indexes (C99_two_indexes_fail: no event is described, both tables are read, for all conditions of the fragment), patterns (C99_pattern_fails: a table named like the pattern is read), NOT (C99_not_index_fails) and IN (C99_list_fails): only `main` is read. Under OR and with != the search is refused (C28_misplaced_index_fails)."},
 {"property": "C100", "status": "partial", "theorems": ["Verif.Props.C100_shows_partial", "Verif.Props.C100_stale_program", "Verif.Props.C100_imports_partial", "Verif.Props.C100_undefined_name"], "note": "C100_shows_partial: for all event sequences the program, tree, marks and log after the last event, against convert_spl_to_pyspark. Refuted: a text that cannot be parsed leaves the program of an earlier text shown, unmarked and copied as it is (C100_stale_program, for all sequences). C100_imports_partial: names of the shown program, for plain queries (C59) with both switches on and a formatter that keeps the program; missing for the standalone switch, where C59_standalone_partial and C17 bound the names; refuted for comparisons with true (C100_undefined_name)."},
 {"property": "C101", "status": "partial", "theorems": ["Verif.C101_exponential", "Verif.C101_refused", "Verif.C101_exponential_accepted", "Verif.C101_no_polynomial", "Verif.C101_linear_partial", "Verif.C101_linear_eval_partial"], "note": "Refuted: C101_exponential: at least 2^n calls on search, n times `NOT (`, and any text that closes no parenthesis (refused, C101_refused). C101_exponential_accepted: at least 2^n calls on the accepted query of n+1 nested multisearch with a single search; so no polynomial bounds the calls, not even on accepted queries (C101_no_polynomial). C101_linear_partial and C101_linear_eval_partial: at most one call for each character and one more for search and eval of every expression written as C08 describes. Missing: a bound for other commands. Work inside the parts of the grammar that do not recurse is not counted."},
 {"property": "C102", "status": "partial", "theorems": ["Verif.C102_unbounded", "Verif.C102_length_partial"], "note": "Refuted: C102_unbounded: for every depth an accepted query of length 2k+8 needs deeper calls (a field in k pairs of parentheses). C102_length_partial: depth length+1 is enough for every text. Rust frames and the size of the stack are not modelled."},
 {"property": "C103", "status": "partial", "theorems": ["Verif.Props.C103_exponential", "Verif.Props.C103_no_polynomial", "Verif.Props.C103_column_partial", "Verif.Props.C103_quadratic_partial"], "note": "Refuted for standalone programs: C103_exponential: the accepted query `eval x=memk(memk(...a...))` of length 6n+8 gives a program of at least 4^n characters, because memk writes its argument four times; so no polynomial bounds the length (C103_no_polynomial). C103_column_partial: every translated column is at most 100 times as long as its expression (exprLen) with the library, and without it unless memk is called. C103_quadratic_partial: programs of all queries in documented form, searches in brackets included, are at most 6000 times the square of the query's length and 19 more; with the library whatever they call, standalone without a call of memk. Of the external parser of regular expressions it is assumed that it finds no more groups than the expression has characters, with names no longer (GroupsFit). Missing: accepted queries that are not in documented form."},
 {"property": "C104", "status": "partial", "theorems": ["Verif.Props.C104_linear", "Verif.Props.C104_depth_partial", "Verif.Props.C104_library_partial", "Verif.Props.C104_exponential", "Verif.Props.C104_no_polynomial"], "note": "Holds without the library and with the library alone: C104_linear (each part at most once). Refuted where the library may be used (the default): C104_exponential: the accepted query `eval x=relative_time(...relative_time(a,\"@d\")...,\"@d\")` of length 20n+8 translates its innermost field 2^n times, because the attempt with the library translates all arguments and fails, and the plain translation translates them again; C104_no_polynomial. C104_library_partial: nothing is repeated when the library alone can translate the expression; C104_depth_partial: in every case at most parts * 2^(nesting of calls)."},
 {"property": "C105", "status": "partial", "theorems": ["Verif.C105_ends_partial", "Verif.C105_self_reference", "Verif.C105_mutual"], "note": "C105_ends_partial: when the definitions can be ranked (each calls only macros of lower rank, without arguments) the arguments contain no backtick (nor \\140), and the first round succeeds, the expansion ends for every large enough limit with a text without calls. Refuted for circular definitions, for every limit: C105_self_reference (a definition that calls its own macro after some text), C105_mutual (two macros defined by each other); the check `final_query == code` only catches a macro defined as exactly its own call. Missing: definitions that call macros with arguments."},
 {"property": "C106", "status": "partial", "theorems": ["Verif.C106_registry", "Verif.C106_folder_partial", "Verif.C106_star", "Verif.C106_star_call", "Verif.C106_ambiguous", "Verif.C106_not_a_file", "Verif.C106_combined", "Verif.C106_failure_ends", "Verif.C106_undefined"], "note": "C106_registry, C106_combined, C106_undefined in full; C106_folder_partial for names without a star. Refuted for names with a star, which macro names may contain: the name is used as a file pattern, so `s*` returns any single macro whose name starts with s (C106_star, C106_star_call). Two files with the name are an error (C106_ambiguous), and such an error ends the search even if a later loader has the macro (C106_failure_ends). Folders and unreadable files with the name (C106_not_a_file). Names with `/`, `\\\\` or `**` are a parameter of the model."},
 {"property": "C107", "status": "partial", "theorems": ["Verif.C107_result", "Verif.C107_first_partial", "Verif.C107_stale"], "note": "C107_result determines every result after any lookups: the definition returned first for the name, else what the folder holds. So it holds until the name has been found once (C107_first_partial; misses are not kept) and is refuted afterwards (C107_stale)."},
 {"property": "C108", "status": "partial", "theorems": ["Verif.Props.C108_table", "Verif.Props.C108_rename", "Verif.Props.C108_others", "Verif.Props.C108_new_name_partial"], "note": "C108_new_name_partial: the new name of rename. Refuted for names of existing fields: in table and fields the quotes become part of the names and the program fails on every table without such columns, for all lists with a quoted name (C108_table); rename leaves every such table unchanged, for all names (C108_rename); BY gives text that is not Python, a search compares a text, sort and mvexpand are refused, eval writes a column with quotes in its name (C108_others, witnesses)."},
 {"property": "C109", "status": "partial", "theorems": ["Verif.Props.C109_expressions", "Verif.Props.C109_queries_partial", "Verif.Props.C109_accepted_partial", "Verif.Props.C109_t_and_f", "Verif.Props.C109_names_in_texts", "Verif.Props.C109_function_names"], "note": "C109_expressions: all expressions with no field in the place of a text, all modes. C109_queries_partial, C109_accepted_partial: all queries of addtotals, convert, datamodel, eval, fields, fillnull, head, makeresults, multisearch, rare, regex, rename, sort, spath with output, stats without spans, table, tail, top, tstats without spans, where and searches for an index, in all modes; with the library, where fields become names of arguments, the names of the other arguments of commands.stats and commands.tstats are kept too. Refuted for the parser: t and f are truth values and cannot be assigned, renamed or grouped by (C109_t_and_f); outside the conditions names become texts or parts of other names (C109_names_in_texts); the condition on function names is needed (C109_function_names). Missing, because they build names and texts from names or take words for values: bin, rex, spath without output, join, lookup, and searches for more than an index."},
 {"property": "C110", "status": "partial", "theorems": ["Verif.Props.C110_after_pipe_partial", "Verif.Props.C110_nothing_after", "Verif.Props.C110_context_partial", "Verif.Props.C110_bare_command"], "note": "C110_after_pipe_partial: every query in documented form (PipeText) and every text after it that begins with neither a blank nor a bar, accepted or refused. C110_context_partial: acceptance does not depend on what stands before the pipe. C110_nothing_after: a query that ends in a pipe is refused. Refuted without the condition on the form: a command without arguments directly before the bar is read as a search for its name (C110_bare_command). Missing: queries that are accepted but not in documented form."},
 {"property": "C111", "status": "partial", "theorems": ["Verif.Props.C111_stage_partial", "Verif.Props.C111_subsearches", "Verif.Props.C111_class_tells", "Verif.Props.C111_tail", "Verif.Props.C111_expressions", "Verif.Props.C111_constant_tells", "Verif.Props.C111_start_time"], "note": "False for six commands: after any query in documented form, a stage written with the name of a command has its class in the module exactly when the name is none of datamodel, rare, spath, tail, top and tstats (C111_stage_partial; concrete query in C111_tail). Commands with sub-searches and searches have theirs (C111_subsearches). Of the expressions exactly the time and search modifiers lack theirs (C111_expressions, C111_start_time). Different commands and constants have different classes (C111_class_tells, C111_constant_tells). Missing: stages that are accepted but not in documented form."},
 {"property": "C112", "status": "partial", "theorems": ["Verif.Props.C112_keyword_partial", "Verif.Props.C112_panics", "Verif.Props.C112_reads_short", "Verif.Props.C112_week", "Verif.Props.C112_unit"], "note": "Proved for every ASCII keyword on every text without the Kelvin sign (U+212A), and for every keyword without the letter k on every text (C112_keyword_partial, C112_unit), for a byte-exact model of tag_no_case in which char::to_lowercase is a parameter. False otherwise: a Kelvin sign for a k in the last two places of a keyword panics (C112_panics; for the time unit week, whatever follows: C112_week), for an earlier k the last two letters stay unread (C112_reads_short). Missing: the parsers around the keyword, which are modelled with ASCII letters only."},
 {"property": "C113", "status": "partial", "theorems": ["Verif.Props.C113_value_partial", "Verif.Props.C113_reserved_last", "Verif.Props.C113_reserved_first", "Verif.Props.C113_cut"], "note": "C113_value_partial: every field and every value whose words are names and not reserved. False for reserved words: with a reserved word as the last or the first word of the value the query is refused, for each word of the table (C113_reserved_last, C113_reserved_first: host=example.in, host=mail.by, host=search.example); in the condition of tstats the value is cut before `or` and `and`, which are read as operators (C113_cut). Missing: words that begin with digits."}
]}
