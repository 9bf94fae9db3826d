# Design

Formal model of `spl_transpiler` (the Rust crate in `/repo/src` plus `python/spl_transpiler/macros.py`,
`python/spl_transpiler/utils.py` and the runtime library `python/spl_transpiler/runtime`) in Lean 4, and machine-checked proofs of the properties in `properties.jsonl`.

## Approach

* Text is `List Char` (`Str`).  A Rust `&str`/`String` is its list of Unicode scalar values.
* `Result`/`Option` stay data.  Errors carry no message (`Option.none`); a panic is a separate value where it can occur
  (`Outcome.panic`, only in `join`; see "Panics").
* A nom parser `&str -> IResult<&str, T>` is a function `Str → Option (Str × T)` returning the remaining input and the
  value.  nom's `Err::Error` is `none`; no parser of the crate uses `cut`, so `Err::Failure` never occurs.
* Recursive nonterminals (expressions, sub-searches) are tied by a fuel-indexed family whose limit is proved to be
  independent of the fuel (`Spl/Fix.lean`, property C01).  Every parser carries, by construction, proofs that it returns
  a suffix of its input and that its recursive calls are made on strictly shorter input (`P R g c α` in `Nom/Core.lean`).
* The PySpark tree, its renderer and all command and function translations are plain total functions.
* External calls are parameters: the regular-expression parser (`Ext.parseRe`), the iteration order of a `HashSet`
  (`Ext.order`, assumed to be a permutation where that matters: `Arranges`) and the formatter (`fmt`).
* Every property is stated against a separate specification in `Spec/*` (or at the head of its `Props` file), not against
  helpers of the model.  Beside the theorems stand `example`s that meet their hypotheses.
* When the code violates a property the negation is proved, with the offending query as witness or for a whole class of
  queries, and a `_partial` theorem covers what does hold.

## Layout (`lean/Verif`)

| directory | content |
|---|---|
| `Basic/`, `Nom/` | text utilities; nom 7 combinators |
| `Spl/` | SPL syntax tree (`Ast`), lexer, grammar of expressions and of all commands (`Lexer`, `Grammar`), fixpoint (`Fix`), decidable equality (`Eq`), macros (`Macros`) |
| `Py/` | PySpark tree, aliases, renderer |
| `Tr/` | expressions (`Expr`), functions (`Funcs`), commands and pipeline driver (`Commands`), time formats (`Utils`), regex groups (`Regex`) |
| `Rt/` | the Python runtime library: wrapper objects, eval and stats functions (`Library`), commands and the execution of generated frames (`Commands`) |
| `Spec/` | independent specifications, see below |
| `Lemmas/` | proof machinery |
| `Props/` | the property theorems with examples and negations |
| `Tests/` | the repository's 76 active query-to-text tests (`generates`, `generates_runtime`), evaluated in the model and compared up to layout and quote style as the repository does (`Repo`); 190 assertions of its parser unit tests (`Parser`); 42 examples for its tests of macro detection, expression translation, search condition splitting, eval functions and the renderer (`Units`). Not included: `get_groups` (the regular expression parser is a parameter), `filename` (unused code), `format_python_code` (external formatter). `Parser` was transcribed by a script from the Rust text, with the expected values of the Rust tests; as a check on the transcription, negating all 190 claims made all 190 fail, and altering the expected text in the 161 claims that have one made all 161 fail |

### Specifications

* `Spec/Python` a reader for Python expressions, written from the language reference (tokens, escapes, precedence,
  keyword arguments).  It reads a fragment of Python; that it reads this fragment as Python does is part of the trusted base.
* `Spec/Program` programs of assignments and a final expression, scope of variables, and the program a frame stands for.
* `Spec/Tree` the Python tree of a column expression.
* `Spec/Meaning`, `Spec/Logical`, `Spec/Fragment` values of SPL expressions and of PySpark columns (three-valued logic,
  primitive operations as parameters), and the fragment for which they are compared.
* `Spec/Table` rows and frames: what `select`, `where`, `withColumn`, `join`, `union`, `limit` ... do to a table.
* `Spec/Plain` the queries whose output is claimed to be readable Python.
* `Spec/Runtime` the expressions and commands for which the generated code with and without the runtime library is claimed
  to do the same, and the lists of library functions that cannot be called.
* `Spec/Options`, `Spec/Written`, `Spec/Texts`, `Spec/Shape`, `Spec/TimeFormat` option tables, written forms of
  expressions, texts of a syntax tree, well-formed trees, strftime and Java time patterns.
* `Spec/Rows`, `Spec/RowsFragment` the rows an SPL query describes and the rows a PySpark program, read from its text,
  computes; the queries for which they are compared.  `Spec/Multi` (`multisearch`) and `Spec/Join` (`join`) add to them.  `Spec/Mv`: fields with
  several values and arrays.  `Spec/Terms`: searches with bare terms.  `Spec/ColumnNames`: how Spark finds a column.
* `Spec/Built` the rows of a frame the runtime library has built.
* `Spec/Stats`, `Spec/Convert`, `Spec/Net`, `Spec/Time`, `Spec/JsonPath`, `Spec/Pattern` statistics, conversions, network
  addresses, times, JSON paths and the part of regular expressions that is used.
* `Spec/Types` types of the PySpark interface.  `Spec/Query`, `Spec/Values` written forms of queries and constants.

### Lemma modules

`Run`/`Lexers`/`Numbers`/`Ladder` compute parsers on given texts; `Ensures`/`Shape` prove invariants of results over the
whole grammar; `From`/`Texts`/`TextsCmd` trace every text of a result to the query; `Clean`/`Funcs`/`Only`/`Frag`/`Meaning`
are about the translation; `Python`/`Reads`/`Program`/`ProgText` prove the reader correct on rendered text; `Plain*` prove
that plain queries give readable programs.  `Library*` evaluate generated library calls and compare them with the plain translation.

## Property by property

"partial" means: the full statement is kept in view, the theorem with suffix `_partial` covers the part named in the note, and where the
code violates the statement there is a theorem that proves the negation (a concrete witness, or for all inputs of a class).

### C01 Parsing always terminates with one answer (proved)

* Modelled: the whole grammar
* Proof: fuel independence of the fixpoint and its unfolding equation
* Result: Whole grammar modelled. Stack depth of the machine is not modelled.
* Theorems: `C01_unique_answer`, `C01_bounded_depth`, `C01_functions_unique`

### C02 A successful parse accounts for the whole text (proved)

* Modelled: `pipeline` and the command parser
* Proof: induction over the separated list
* Result: Every successful parse lays the text out as optional blanks and pipe, then one contiguous segment per returned command in order, each read by the command parser, separated by pipes and blanks, then blanks.
* Theorems: `C02_partition`

### C03 Surrounding whitespace and a leading pipe are irrelevant (partial)

* Modelled: `pipeline`, `ws`
* Proof: computation of the parser on the extended text; witnesses
* Result: Leading blanks and a leading pipe never change the result (a second leading pipe is rejected). Trailing blanks do change it: C03_trailing_blank_changes_query. C03_trailing_partial: they are harmless after every query text of the grammar of C69. Missing: a characterisation of all queries for which trailing blanks are harmless.
* Theorems: `C03_trailing_partial`, `C03_leading_blanks_partial`, `C03_leading_pipe_partial`, `C03_second_pipe_rejected`, `C03_trailing_blank_changes_query`

### C04 Command names are case-insensitive (partial)

* Modelled: `match_name` and all command grammars
* Proof: case-fold lemma on `tag_no_case`
* Result: Proved for the first stage of a query, for the command parser at any stage, and for every later stage after a query in documented form (C04_later_stage_partial). When the named command does not accept its arguments the text falls back to an implicit search and keeps its case: C04_fallback_keeps_case.
* Theorems: `C04_later_stage_partial`, `C04_stage_partial`, `C04_query_partial`, `C04_fallback_keeps_case`

### C05 Integer literals are read exactly (proved)

* Modelled: `int`, `double`, `constant`, counts of head/tail/sort
* Proof: induction on digits, in both directions
* Result: Exact value in range in both directions, for constants (minus sign) and counts (either sign); out-of-range digits become a name, never another integer. C05_limits shows that a plus sign is not accepted in expressions.
* Theorems: `C05_constant`, `C05_only_integers`, `C05_head`, `C05_decimal`, `C05_limits`

### C06 Quoted strings are preserved verbatim (partial)

* Modelled: `double_quoted`, `single_quoted`, `constant`, `literal`
* Proof: scan induction; witnesses
* Result: A quoted text without outer blanks that is not itself a quoted text or a time expression is kept verbatim (constants and literals). Negations: outer blanks are trimmed, a quoted relative time becomes a time, adjacent empty strings merge. C06_time: exactly the texts of Spec/Values: SnapText are read as times.
* Theorems: `C06_constant_partial`, `C06_time`, `C06_literal_partial`, `C06_leading_blank_lost`, `C06_quoted_time`, `C06_empty_strings_merge`

### C07 Reserved words are never field names (partial)

* Modelled: `token`, `field`, all name positions
* Proof: provenance framework over the whole grammar
* Result: Proved for the whole grammar: a name of a parsed query that is a reserved word in any casing stands between quotes in the query (C07_reserved_only_when_quoted), so a query without quotes has no such name (C07_no_reserved_names); option keys and tokens are never reserved; a whole reserved word never starts a bare identifier. The only exception is the free text of TERM(..), which the code keeps as a field (C07_term). Consequence proved: like and in cannot be called (C07_like_in).
* Theorems: `C07_reserved_only_when_quoted`, `C07_no_reserved_names`, `C07_token`, `C07_option_keys`, `C07_quoted`, `C07_term`, `C07_reserved_stops`, `C07_like_in`

### C08 Documented operator precedence (partial)

* Modelled: the expression ladders of eval, search and where
* Proof: computation of the ladder on written expressions
* Result: Complete reading of operator expressions over dotted fields, integers, quoted texts, words with stars, time spans, IN lists, calls, TERM and parentheses: * / then + - then . then comparisons then NOT then OR then AND. The documented order (NOT tightest, AND before OR) is refuted: C08_or_before_and, C08_not_after_comparison. In where, AND does bind tighter than OR. C08_where_partial covers comparisons of fields with constants and calls, IN lists, calls, NOT, AND, OR, conditions side by side and parentheses in where.
* Theorems: `C08_eval_partial`, `C08_search_partial`, `C08_or_before_and`, `C08_not_after_comparison`, `C08_where_partial`, `C08_search_where_disagree`

### C09 Subtraction and division associate to the left (partial)

* Modelled: the expression ladder
* Proof: same; the negation is proved for all chains
* Result: Refuted: operators of one level group to the right for all operands and all chain lengths (C09_groups_right, C09_chain_groups_right, C09_minus_and_divide_refuted). Only a single operation agrees with the property (C09_single_partial).
* Theorems: `C09_groups_right`, `C09_chain_groups_right`, `C09_single_partial`, `C09_minus_and_divide_refuted`

### C10 Explicit parentheses always win (proved)

* Modelled: the expression ladder
* Proof: printer/parser round trip by structural induction
* Result: Every tree of fields, 64-bit integers and binary operators printed with full parentheses is read back as itself, in eval and in search.
* Theorems: `C10_parentheses`, `C10_parentheses_search`

### C11 Command options: last value wins, order otherwise irrelevant (partial)

* Modelled: the options map of 17 commands
* Proof: list induction on written options
* Result: For the 17 commands that begin with options, written with names, integers, t/f, quoted texts and time spans as values: the last value counts, permutations do not matter, defaults and types are as tabled. A wrong type does not fail the query; the stage becomes an implicit search (C11_wrong_type_becomes_search). map's option is not covered.
* Theorems: `C11_values_partial`, `C11_last_value`, `C11_permuted`, `C11_makeresults`, `C11_wrong_type_becomes_search`

### C12 Macro detection loses nothing (proved)

* Modelled: `spl_macros`
* Proof: induction over `many0`
* Result: The detected chunks and suffix are exactly a layout of the text as plain text and backtick calls (C12_layout); plain text is returned whole; a single backtick is an error.
* Theorems: `C12_layout`, `C12_plain`, `C12_single_backtick`

### C13 Macro arguments are substituted simultaneously and literally (partial)

* Modelled: `substitute_macros` (Python `re` semantics for the two patterns used)
* Proof: scan induction; witnesses
* Result: Literal simultaneous substitution of positional arguments when placeholders are separated and arguments contain no backslash or dollar. Refuted in general: arguments are substituted again (C13_resubstituted), backslashes interpreted (C13_escapes_interpreted), touching placeholders (C13_touching). The escapes are given in full: C13_letters, C13_numbers (octal numbers, the group 0, a backslash at the end is an error) and, for every argument, C13_other_characters; an argument can even spell a macro call with octal escapes (C13_octal_call).
* Theorems: `C13_positional_partial`, `C13_resubstituted`, `C13_escapes_interpreted`, `C13_letters`, `C13_numbers`, `C13_other_characters`, `C13_octal_call`, `C13_touching`

### C14 Pipelines compose (proved)

* Modelled: pipeline driver
* Proof: fold laws
* Result: Fold law, append law, and failure of any command fails the render.
* Theorems: `C14_fold`, `C14_append`, `C14_failure`, `C14_prefix_failure`

### C15 Unsupported commands are always reported (proved)

* Modelled: pipeline driver, all commands
* Proof: case analysis, mutual induction with sub-searches
* Result: Any position, nested inside join and multisearch, both modes.
* Theorems: `C15_unsupported_reported`

### C16 Allowing the runtime never loses a translation (proved)

* Modelled: the whole translation
* Proof: simulation between the modes
* Result: Simulation between the two modes over all commands and functions; C16_strict shows the inclusion is proper.
* Theorems: `C16_runtime_accepts_more`, `C16_strict`

### C17 Standalone output never uses the runtime library (proved)

* Modelled: the whole translation
* Proof: invariant: no runtime node
* Result: No runtime node, one expression, and no column calls a runtime function, in every standalone program.
* Theorems: `C17_columns`, `C17_no_runtime_function`, `C17_standalone`, `C17_render`

### C18 Generated data-frame names are unique (proved)

* Modelled: name counter
* Proof: invariant: names grow with the counter
* Result: All names assigned in one program are pairwise different, for every pipeline and mode, and occur in the text.
* Theorems: `C18_names_distinct`, `C18_assigned_occurs`

### C19 Every data-frame variable is assigned before it is used (partial)

* Modelled: renderer, all commands
* Proof: program tree of every frame, reader of programs, induction over pipelines
* Result: C19_scope_partial proves scope, one-line statements, increasing numbers for plain queries whose runtime commands are in front; C19_mixed_fails and C19_subsearch_fails prove that the claim is false otherwise (statements are written into argument lists).
* Theorems: `C19_scope_partial`, `C19_mixed_fails`, `C19_subsearch_fails`

### C20 Rendering is deterministic (partial)

* Modelled: search
* Proof: iteration order as a parameter
* Result: Deterministic whenever no search names two different indexes; the HashSet iteration order is a parameter, and C20_order_matters shows it changes the text for two.
* Theorems: `C20_deterministic_partial`, `C20_order_matters`, `C20_order_matters_query`

### C21 Boolean and comparison expressions keep their meaning (partial)

* Modelled: expression translation, renderer
* Proof: text is read back and evaluated; induction over expressions
* Result: Proved for all expressions of the fragment `Frag` (fields, numbers, strings, comparisons, arithmetic, AND, OR, NOT, IN, wildcards, conditional functions, and now the mathematical and text functions of C71), all rows and all choices of primitive operations, from query text to value. Missing: the literals true and false (false: C21_truth_literals_undefined), time spans, calls in the runtime modes, functions outside C71_functions_partial.
* Theorems: `C21_meaning_partial`, `C21_where_partial`, `C21_eval_partial`, `C21_where_query_partial`, `C21_eval_query_partial`, `C21_truth_literals_undefined`

### C22 Operator spelling does not matter (partial)

* Modelled: operator map
* Proof: witnesses, general negation, and the `where` grammar
* Result: where accepts any letter case (for all conditions of CondOr). eval and search keep the lower-case words, refuted for all field pairs by C22_lower_case_fails.
* Theorems: `C22_where_partial`, `C22_lower_case_fails`, `C22_queries`

### C23 The rendered column text has exactly one reading (partial)

* Modelled: renderer
* Proof: round trip through the independent reader
* Result: Every printed tree without a negation under a method call is read back by the Python reader to the same tree; a negation that receives a method or an alias is misread (witnesses).
* Theorems: `C23_text_reads_as_tree_partial`, `C23_same_text_same_tree_partial`, `C23_negation_loses_its_operand`, `C23_negation_loses_its_alias`, `C23_cast_of_negation_is_misread`, `C23_cast_of_negation_query`

### C24 String constants cannot escape their Python literal (partial)

* Modelled: constants in the renderer
* Proof: exact characterisation of readable constants
* Result: String constants without the enclosing quote, backslash and line ends are kept exactly (C24_*_exact is an iff); any other constant is refuted.
* Theorems: `C24_string_constant_exact`, `C24_in_element_exact`, `C24_string_constant_partial`, `C24_comparison_partial`, `C24_constant_becomes_code`, `C24_backslash_is_reinterpreted`

### C25 IN lists are disjunctions (partial)

* Modelled: IN
* Proof: semantic induction
* Result: Non-empty lists of plain values: true exactly when some element's test is true. The empty list is refuted (always true).
* Theorems: `C25_in_list_partial`, `C25_empty_list_is_true`, `C25_empty_list_queries`

### C26 Wildcards mean any substring (partial)

* Modelled: wildcards
* Proof: equivalence of two matchers
* Result: Patterns without %, _, quotes and backslashes: true exactly for the texts obtained by replacing each * (inductive Glob). _ is refuted.
* Theorems: `C26_wildcard_partial`, `C26_underscore_is_special`

### C27 Bare search terms look in the raw event, structure is kept (partial)

* Modelled: `into_search_expr`
* Proof: induction
* Result: Boolean structure and bare terms in the standalone search; empty quoted terms and runtime bare terms are refuted.
* Theorems: `C27_search_filter_partial`, `C27_quoted_term_partial`, `C27_empty_term`, `C27_runtime_bare_term`

### C28 index= selection splits off without changing the rest of the condition (proved)

* Modelled: `split_conditions`
* Proof: semantic induction
* Result: Standalone translation: the required index tests decide the tables, the rest keeps its truth; misplaced ones fail.
* Theorems: `C28_index_split`, `C28_misplaced_index_fails`

### C29 A later search only narrows (partial)

* Modelled: search
* Proof: table semantics
* Result: Narrowing proved for searches without an index; refuted (frame replaced) when an index is named mid-pipeline.
* Theorems: `C29_narrows_partial`, `C29_index_forgets`, `C29_index_replaces`

### C30 eval assigns in order (partial)

* Modelled: eval
* Proof: fold laws and table semantics
* Result: Standalone assignments in order; splitting `a, b` into two evals is refuted for the runtime mode text.
* Theorems: `C30_split_partial`, `C30_runtime_splits_differ`, `C30_assign_partial`

### C31 rename renames simultaneously (partial)

* Modelled: rename
* Proof: table semantics
* Result: Equal to simultaneous renaming when no target is a later source; swap refuted.
* Theorems: `C31_simultaneous_partial`, `C31_swap_fails`

### C32 fields - removes, fields + keeps (partial)

* Modelled: fields, table
* Proof: table semantics
* Result: Field lists kept in order; `fields -` is refuted (treated as `+`).
* Theorems: `C32_keep_partial`, `C32_minus_is_plus`, `C32_minus_fails`

### C33 Row limits are exactly the number asked for (partial)

* Modelled: head, tail, top, sort
* Proof: arithmetic and table semantics
* Result: head/tail/sort/top limits; negative limits wrap to 2^64-n and are not rejected.
* Theorems: `C33_head_partial`, `C33_head_count_partial`, `C33_head_strict_agrees`, `C33_tail`, `C33_sort_partial`, `C33_top_partial`, `C33_negative_not_rejected`, `C33_negative_queries`

### C34 sort keeps key order and direction (proved)

* Modelled: sort
* Proof: list induction
* Result: All keys, directions and conversions in order.
* Theorems: `C34_sort_keys`

### C35 stats columns: one per function, named as asked (partial)

* Modelled: stats
* Proof: list induction
* Result: Standalone names and grouping; runtime keyword collision refuted.
* Theorems: `C35_standalone_partial`, `C35_runtime_partial`, `C35_runtime_collision`

### C36 top and rare count the listed fields (partial)

* Modelled: top, rare
* Proof: case analysis
* Result: Proved without BY and with the default, shown count column; the rest is refuted for all inputs.
* Theorems: `C36_top_rare_partial`, `C36_by_replaces_fields`, `C36_showcount_ignored`, `C36_count_name_ignored`

### C37 lookup adds the looked-up columns (partial)

* Modelled: lookup
* Proof: negation for all inputs
* Result: Refuted for all inputs: the lookup table is never read. What remains: rows kept, OUTPUTNEW rejected.
* Theorems: `C37_lookup_partial`, `C37_never_reads`

### C38 fillnull touches only the listed fields (partial)

* Modelled: fillnull
* Proof: table semantics
* Result: No field list, or runtime mode; a list without the runtime library is ignored.
* Theorems: `C38_fillnull_partial`, `C38_list_ignored`

### C39 bin buckets the field it is given (partial)

* Modelled: bin
* Proof: negation for all other fields
* Result: Only a field named `n` is bucketed; every other field refuted.
* Theorems: `C39_bin_partial`, `C39_other_field`, `C39_without_span`, `C39_other_field_query`

### C40 join matches on every listed field (partial)

* Modelled: join
* Proof: list induction, panic explicit, shape invariant of the parser
* Result: Sides, kind, condition and absence of panics proved for every join; "rejects options it cannot honour" fails for `overwrite`, which is ignored (C40_overwrite_ignored).
* Theorems: `C40_join_partial`, `C40_rejects`, `C40_overwrite_ignored`, `C40_overwrite_query`, `C40_no_panic`

### C41 multisearch unions all of its searches (partial)

* Modelled: multisearch
* Proof: list induction, on frames and on text; rows: Spec/Multi.lean `splTogether` against `unionByName` in Spec/Rows.lean
* Result: Proved on frames in every mode and on text in standalone mode; C41_rows_partial: for two or more searches of the fragment of C75 followed by commands of the fragment, the program computes the events of all the searches, each with the fields it has, from the text of the program. False with the runtime: the rendered text nests assignments inside an argument list (C41_runtime_text_broken).
* Theorems: `C41_rows_partial`, `C41_multisearch_partial`, `C41_forgets_input`, `C41_succeeds`, `C41_standalone_text`, `C41_runtime_text_broken`

### C42 Time formats are translated directive by directive (partial)

* Modelled: `convert_time_format`
* Proof: scan induction; printing of moments specified for both notations
* Result: Piece by piece translation proved for formats of listed directives and literal characters (C42_piecewise_partial), refusal proved for every format containing a directive without pattern (C42_refused_partial), and equality of the printed text for every moment on the directives whose patterns are right (C42_same_text_partial). The full property fails: %% before a letter (C42_fails, C42_percent_before_directive, C42_replaced_again), unlisted directives are kept (C42_unlisted_is_kept), neighbouring fields merge, literal letters become fields, nine patterns print something else (C42_wrong_fields).
* Theorems: `C42_refused_partial`, `C42_piecewise_partial`, `C42_same_text_partial`, `C42_percent_before_directive`, `C42_replaced_again`, `C42_percent_fails`, `C42_literal_refused`, `C42_unlisted_is_kept`, `C42_neighbours_merge`, `C42_letters_become_fields`, `C42_wrong_fields`, `C42_fails`, `C42_queries`

### C43 case and validate pick the first matching branch (partial)

* Modelled: case, validate
* Proof: semantic induction over pairs
* Result: First true (case) or first false (validate) branch for every list of pairs in the fragment, without runtime; odd and empty argument lists are rejected for all arguments. validate passes over an unknown condition (refuted); with the runtime nothing is checked (refuted).
* Theorems: `C43_case_partial`, `C43_validate_partial`, `C43_odd_rejected`, `C43_validate_skips_unknown`, `C43_runtime_accepts_odd`

### C44 mvindex selects the indexed values (partial)

* Modelled: mvindex
* Proof: array semantics
* Result: Non-negative positions for every array; the three kinds of negative positions are refuted for every array.
* Theorems: `C44_mvindex_partial`, `C44_negative_position_is_null`, `C44_negative_end_fails`, `C44_last_elements_fail`, `C44_queries`

### C45 Aliases never nest and the outermost wins (proved)

* Modelled: alias handling
* Proof: invariant
* Result: All expressions, both modes. C45_call_name adds which name a call carries.
* Theorems: `C45_alias_only_on_top`, `C45_operands_unaliased`, `C45_statements_unaliased`, `C45_strip_idempotent`, `C45_realias`, `C45_call_name`

### C46 No argument of a function is silently ignored (partial)

* Modelled: function tables
* Proof: case analysis over the tables; occurrence relation
* Result: Proved: exact arity for every fixed-arity eval and aggregate function, every argument part of the result for all functions outside a list of six, unknown functions passed through with name and all arguments. The full property fails: mvindex, mvzip, relative_time, earliest_time and latest_time ignore extra arguments (C46_extra_arguments_ignored) and nothing is checked when the runtime is used (C46_runtime_unchecked).
* Theorems: `C46_every_argument_used_partial`, `C46_first_argument_used_partial`, `C46_arity_partial`, `C46_arity_convert_partial`, `C46_stats_arity_partial`, `C46_count_arity_partial`, `C46_stats_every_argument_used_partial`, `C46_unknown_passed_partial`, `C46_runtime_passed_partial`, `C46_extra_arguments_ignored`, `C46_runtime_unchecked`

### C47 Time units are recognised by their longest spelling (proved)

* Modelled: time units
* Proof: case analysis, longest match
* Result: The unit read is that of the longest accepted spelling the text begins with, in any casing; as an operand the whole number-and-unit word is read as that span.
* Theorems: `C47_unit`, `C47_constant`, `C47_span`

### C48 Search keyword arguments of the runtime call are valid and faithful (partial)

* Modelled: search with the runtime
* Proof: list induction
* Result: Each condition is passed exactly once, in query order; a keyword given twice is refuted.
* Theorems: `C48_runtime_search_partial`, `C48_duplicate_keyword`

### C49 Data-model names are complete (partial)

* Modelled: datamodel
* Proof: case analysis
* Result: Model with root and longer node path; other spellings refuted.
* Theorems: `C49_table_partial`, `C49_single_node`, `C49_root_dropped`

### C50 Every named capture group becomes a column (proved)

* Modelled: rex
* Proof: induction over groups
* Result: The regex parser is a parameter; groups are specified independently on the pattern tree.
* Theorems: `C50_one_column_per_group`

### C51 Formatting never loses the program (proved)

* Modelled: formatting fallback
* Proof: case analysis with the formatter as a parameter
* Result: The formatter is a parameter that may fail.
* Theorems: `C51_format_fallback`, `C51_unformatted`

### C52 A parsed query is well formed everywhere (proved)

* Modelled: the whole grammar
* Proof: invariant framework (`Ensures`, `Shape`)
* Result: Shape predicates in Spec/Shape.lean, proved for every nonterminal by induction on nesting depth.
* Theorems: `C52_parsed_shape`

### C53 Keywords are recognised only as whole words (partial)

* Modelled: keyword operators
* Proof: computation of the ladder
* Result: Names beginning with a keyword's letters are read whole as operands of search expressions; elsewhere keywords split longer words: C53_not_splits and C53_and_splits for all conditions of where, C53_keyword_splits_word.
* Theorems: `C53_operand_partial`, `C53_keyword_splits_word`, `C53_not_splits`, `C53_and_splits`

### C54 Macro expansion leaves no macro calls (partial)

* Modelled: `substitute_macros` rounds
* Proof: fixed point argument
* Result: The result is a fixed point of one round (C54_fixpoint) and has no backtick when definitions and arguments have none (and no argument spells one as the octal escape \140, which C13_octal_call shows to matter). A macro defined by itself is returned unexpanded (C54_self_reference).
* Theorems: `C54_fixpoint`, `C54_self_reference`, `C54_no_calls_left_partial`

### C55 Text without macro calls is unchanged by macro expansion (partial)

* Modelled: macro body clean-up
* Proof: text lemmas
* Result: Unchanged when it has no outer blanks and no trailing pipe; trailing pipes are removed (C55_trailing_pipe_lost). Outer white space, by Python's table of white space, is removed (C55_outer_blanks).
* Theorems: `C55_plain_partial`, `C55_outer_blanks`, `C55_trailing_pipe_lost`

### C56 Macro arguments are checked against the definition (partial)

* Modelled: argument counts
* Proof: case analysis
* Result: Counts are checked when at least one positional argument is given; calls without arguments and misspelt names are accepted (C56_missing_arguments_accepted, C56_unknown_name_ignored).
* Theorems: `C56_missing_arguments_accepted`, `C56_count_partial`, `C56_unknown_name_ignored`

### C57 Documented options and forms can be written (partial)

* Modelled: options of top, rare, join
* Proof: negation for all continuations; facts about every command of a parsed query, at any depth (Lemmas/Shape.lean, Lemmas/Every.lean); kernel evaluation for the list of refused forms
* Result: Refuted.  For all continuations, top limit= is never a top command and join type= with a reserved word never a join; in no parsed query, at any depth, is there a lookup with OUTPUTNEW, a tstats with BY PREFIX, or a call of in, like or lookup with arguments (C57_lookup_outputnew, C57_tstats_prefix, C57_reserved_functions); C57_forms_refused lists further documented forms that are refused, with the nearest accepted ones. What can be written is covered by C11 and C69.
* Theorems: `C57_lookup_outputnew`, `C57_tstats_prefix`, `C57_reserved_functions`, `C57_forms_refused`, `C57_top_limit`, `C57_limit_rejected`, `C57_join_type`, `C57_join_type_rejected`

### C58 Words come from the query (proved)

* Modelled: the whole grammar
* Proof: provenance framework
* Result: parse_texts walks the whole grammar; C58_words_written and C58_characters are instances.
* Theorems: `C58_words_written`, `C58_characters`

### C59 The generated program is readable Python (partial)

* Modelled: renderer, all commands
* Proof: as C19
* Result: C59_reads_partial and C59_standalone_partial: plain queries (Spec/Plain) of all translated commands, in all modes; the _fails theorems prove the claim false for the excluded queries.
* Theorems: `C59_reads_partial`, `C59_standalone_partial`, `C59_keywords_fail`, `C59_quotes_fail`, `C59_undefined_fail`

### C60 The concatenation operator concatenates (partial)

* Modelled: binary operators, renderer
* Proof: computation of the reader on the rendered text
* Result: The claim is false for all field names: C60_concat_fails proves that the output is read as attribute access.
* Theorems: `C60_concat_fails`

### C61 Calls of the runtime library succeed (partial)

* Modelled: runtime/base.py, runtime/functions/eval.py, translation of calls
* Proof: evaluation of the generated expression in the model of the library; induction on Shared
* Result: The claim is false: C61_library_call_raises and C61_second_argument_raises prove, for all arguments, that the listed functions raise. C61_library_call_succeeds_partial proves success for nested expressions over the functions for which both versions agree (Spec/Runtime: Shared). Functions that are neither in Shared nor in the lists (e.g. with literal-only parameters) are modelled but not classified. printf, tonumber and log always raise, and C61_tostring_raises: tostring of one argument does. C61_plain_values: the same functions work when Python code passes them numbers and texts instead of columns. C61_truth_raises: the code of a truth value raises.
* Theorems: `C61_library_call_raises`, `C61_second_argument_raises`, `C61_tostring_raises`, `C61_library_call_succeeds_partial`, `C61_plain_values`, `C61_truth_raises`

### C62 Both modes build the same column (partial)

* Modelled: as C61, both translations
* Proof: induction on Shared, per-function agreement of the two tables
* Result: C62_same_column_partial for expressions over the shared functions (Spec/Runtime: Shared), all nestings. False in general: C62_bit_and_is_null (bit functions give a null column), C62_case_is_no_column. C62_validate_partial: validate of wrapper objects is the standalone column; C62_validate_raises: with a plain column among the arguments it raises.
* Theorems: `C62_same_column_partial`, `C62_bit_and_is_null`, `C62_case_is_no_column`, `C62_validate_partial`, `C62_validate_raises`

### C63 Results of library calls can be used like columns (partial)

* Modelled: as C61, PySpark operators on wrapper objects
* Proof: as C62
* Result: False: C63_operand_raises, C63_right_operand_raises, C63_negation_raises, C63_where_raises prove, for all shared calls that return a wrapper object, that operators and where raise. C63_where_partial covers conditions whose value is a column.
* Theorems: `C63_operand_raises`, `C63_right_operand_raises`, `C63_negation_raises`, `C63_where_raises`, `C63_where_partial`

### C64 eval with the library makes the same rows (partial)

* Modelled: runtime/commands/eval.py, cmd_eval both translations
* Proof: evaluation of the library call (Rt/Commands), induction on the assignments; rows compared by SameRows
* Result: C64_eval_partial: after other commands, right-hand sides over the shared functions (Spec/Runtime: Shared), different names that are names of Python keyword arguments and not `df`. False otherwise: C64_first_raises, C64_repeated_raises, C64_df_raises, C64_name_raises (e.g. `eval a.b=1`).
* Theorems: `C64_first_raises`, `C64_repeated_raises`, `C64_df_raises`, `C64_name_raises`, `C64_eval_partial`

### C65 search with the library keeps the same rows (partial)

* Modelled: runtime/commands/search.py, config.py, cmd_search both translations
* Proof: conjunction of the library's conditions is a permutation of the plain one; induction on the condition
* Result: C65_filter_partial and C65_index_partial for comparisons, IN lists, AND/OR/NOT and a leading index. False: C65_first_raises (no index, delivered settings), C65_repeated_raises, C65_name_raises, C65_index_ignored, C65_word_is_column, C65_special_dropped, C65_special_first (the special fields of a first search are looked up in other columns). C65_source_first, C65_source_only: without an index the delivered settings read the table named after source and sourcetype, the plain translation reads main.
* Theorems: `C65_source_first`, `C65_source_only`, `C65_filter_partial`, `C65_index_partial`, `C65_first_raises`, `C65_repeated_raises`, `C65_name_raises`, `C65_index_ignored`, `C65_word_is_column`, `C65_special_dropped`, `C65_special_first`

### C66 stats with the library computes the same groups (partial)

* Modelled: runtime/commands/stats.py, functions/stats.py, cmd_stats both translations
* Proof: induction on the list of statistics; per-statistic agreement of the two tables
* Result: C66_all_or_nothing: where the library may be used stats is translated with it or not at all. C66_stats_partial for the statistics in Spec/Runtime: sharedStats, any BY list. False: C66_missing_raises (sum, list, stdevp, numbered percentiles), C66_count_raises, C66_label_raises, C66_first_raises, C66_distinct_count_differs.
* Theorems: `C66_all_or_nothing`, `C66_missing_raises`, `C66_count_raises`, `C66_label_raises`, `C66_first_raises`, `C66_distinct_count_differs`, `C66_stats_partial`

### C67 datamodel, tstats and fillnull run with the library (partial)

* Modelled: runtime/commands/{data_model,tstats,fill_null}.py and their translations
* Proof: evaluation of the library call; induction on the field list
* Result: C67_fillnull_partial, C67_fillnull_values_partial (the values written), C67_tstats_partial, C67_tstats_fill_partial (fillnull_value, for count), C67_tstats_fill_query_partial (fillnull_value with shared statistics, filter and BY list: what where and stats compute from the filled table). False: C67_data_model_raises, C67_fillnull_first_raises, C67_tstats_late_raises, C67_tstats_prefix_lost, C67_tstats_node, C67_tstats_fill_ignored (fillnull_value without the library). Missing: statistics and filters outside the shared ones.
* Theorems: `C67_data_model_raises`, `C67_fillnull_first_raises`, `C67_tstats_late_raises`, `C67_tstats_prefix_lost`, `C67_fillnull_partial`, `C67_tstats_partial`, `C67_tstats_node`, `C67_fillnull_values_partial`, `C67_tstats_fill_ignored`, `C67_tstats_fill_partial`, `C67_tstats_fill_query_partial`

### C68 Whole queries give the same rows with and without the library (partial)

* Modelled: all modelled commands in both modes
* Proof: induction on the pipeline with C64-C66 per command
* Result: C68_query_partial and C68_delivered_partial: all pipelines of shared commands (Spec/Runtime: SharedQuery, 17 commands), rows compared under every lawful interpretation of Spark. The general claim is false by C61-C67. C68_multisearch_partial: the same for the expression of a multisearch of such queries followed by shared commands, C68_multisearch_order: the rows keep the order of the searches.
* Theorems: `C68_query_partial`, `C68_delivered_partial`, `C68_multisearch_partial`, `C68_multisearch_order`

### C69 A query in documented form is read as the commands written (partial)

* Modelled: all command parsers of src/commands/*/spl.rs, the pipeline, searches in brackets, the quoted search of map, the implicit search
* Proof: separate grammar Spec/Query.lean; one reading lemma per command (Lemmas/Bodies*.lean), mutual induction over commands, pipelines, bracketed searches and quoted queries
* Result: C69_read_partial and C69_unambiguous_partial: all queries of the grammar Spec.QueryText, which has every command, nested brackets and the quoted search of map. Missing: the documented forms that the code refuses (C53, C57), which the grammar leaves out.
* Theorems: `C69_read_partial`, `C69_unambiguous_partial`

### C70 Decimal numbers and network addresses are read exactly (partial)

* Modelled: double, ipv4_addr, ipv4_cidr, literal, constant, the comparison with a network
* Proof: DottedText in Spec/Values.lean is the separate description; reading lemmas in Lemmas/Dotted.lean; converse by inversion of the twelve alternatives; values through C21
* Result: C70_decimal, C70_address, C70_address6 (eight groups of decimal digits with colons), C70_only_decimals (an equivalence with `C70_decimal`), C70_eval (the value of the generated column), C70_network (equality with a network, as a whole query). Missing, because false: a plus sign, missing digits and exponents (C70_not_numbers), `!=` with a network (C70_network_unequal), numbers above 255 in addresses (C70_address_range), addresses of eight groups with letters, which are taken for column names (C70_address6_letters).
* Theorems: `C70_address6`, `C70_address6_letters`, `C70_decimal`, `C70_address`, `C70_only_decimals`, `C70_eval`, `C70_network`, `C70_not_numbers`, `C70_network_unequal`, `C70_address_range`

### C71 Evaluation functions compute the documented function (partial)

* Modelled: the eval function table evalTable, function_transform!, argument conversion
* Proof: Spec/Meaning.lean gives both languages' functions over shared primitives; Lemmas/Prim.lean shows call by call that the generated column applies the same primitive; C71_functions_partial follows from the C21 induction
* Result: C71_functions_partial: every call in `FragPrim` (functions of one and two arguments, max and min of two or more, round, substr, shifts with whole numbers, replace with texts Python reads as they stand), arguments arbitrary expressions of the C21 fragment. Missing, because false: optional and further arguments (C71_optional_arguments_refused, C71_conversions_refused), log (C71_log_is_swapped), sum (C71_sum_is_an_aggregate), tostring of truth values, replace with fields or backslashes, split at characters with a meaning in patterns, avg and random. Not modelled: JSON, multivalue and time functions; PySpark's and SPL's regular expressions and LIKE patterns are taken to be the same primitive.
* Theorems: `C71_functions_partial`, `C71_primitives_partial`, `C71_optional_arguments_refused`, `C71_conversions_refused`, `C71_refused_queries`, `C71_log_is_swapped`, `C71_log_query`, `C71_sum_is_an_aggregate`, `C71_tostring_partial`, `C71_tostring_truth_values`, `C71_replace_takes_names`, `C71_replace_escapes`, `C71_split_delimiter_is_a_pattern`, `C71_avg_and_random`

### C72 convert applies the documented conversions (partial)

* Modelled: convert_fn and shared.rs (memk, rmunit, rmcomma, ctime), cmd_convert, date formats (C42)
* Proof: Lemmas/Pattern.lean proves what the matcher of Spec/Pattern.lean accepts (a match is found exactly when the text fits) and which groups it returns; C72_* combine it with the value lemmas of C21 and the table of C42
* Result: C72_command, C72_rows, C72_split: the command for all lists and all preceding commands. C72_memk_partial, C72_rmunit_partial, C72_rmcomma_partial, C72_ctime_partial: the value computed by the generated text for all numbers, under the usual meaning of the Spark primitives (`Usual`, satisfied by `plainSem_usual`). Missing, because false: memk without a unit is null although the source's own comment gives it as an example (C72_memk_unit_required); rmunit is null when any character that is no letter, digit or underscore follows (C72_rmunit_other_text); auto, dur2sec, mktime, mstime, none and num are passed on to functions PySpark does not have, and so is every name in capitals (C72_other_names); nothing is generated when the library is required (C72_required_refused). Not modelled: how Spark makes a time of a number for date_format; wildcards in field names.
* Theorems: `C72_memk_partial`, `C72_memk_unit_required`, `C72_memk_eval_partial`, `C72_rmunit_partial`, `C72_rmunit_other_text`, `C72_rmcomma_partial`, `C72_ctime_partial`, `C72_ctime_refused`, `C72_other_names`, `C72_command`, `C72_required_refused`, `C72_rows`, `C72_split`

### C73 Translated expressions read only the columns the expression names (partial)

* Modelled: exprTr with all functions (Tr/Funcs.lean, Tr/Expr.lean), whereTr, evalStandalone
* Proof: Lemmas/Within.lean: every column in the tree of a translation comes from a field of the expression (induction over the expression, through every entry of the function tables); Props/ColumnsRead.lean: evaluation of a Python expression depends only on the columns it reads
* Result: C73_expression_partial: all expressions `plainE` in every mode, every function, text of both renderings, both the names read and the value (eval_local: the value of any Python expression depends only on the columns it reads). C73_where_partial, C73_eval_partial: the whole program of where and of eval with one assignment. Missing: names that need quoting in Python (outside `plainE`); the other commands (C75 states for its commands that every column read exists). Columns a library function of the runtime reads by itself are not part of this.
* Theorems: `C73_expression_partial`, `C73_where_partial`, `C73_eval_partial`

### C74 A search keeps the events its condition describes (partial)

* Modelled: searchStandalone, splitConditions, intoSearch, exprTr
* Proof: Spec/Rows.lean `splSearch` (two-valued) against the three-valued value of the generated text; Lemmas/SearchFrag.lean relates the two by induction over the condition, C21/C25/C26 give the value of the text
* Result: C74_search_partial: all conditions `SearchFrag false` (comparisons with numbers, quoted texts and patterns, IN, AND, OR), every row and meaning of the comparisons; C74_query_partial the same from the text of a query written as in C69; C74_search_not_partial: with NOT, on rows where every comparison is decided; C74_search_nots_partial: it is enough that those under NOT are. Missing, because false: an unquoted word is read as the name of another field, for all names (C74_word_is_a_column, C74_word_query); NOT drops the rows that lack the field (C74_not_drops_rows, C74_not_query); texts are compared with letter case (C74_letter_case). Bare terms: C27; index=: C28.
* Theorems: `C74_search_partial`, `C74_search_not_partial`, `C74_search_nots_partial`, `C74_query_partial`, `C74_word_is_a_column`, `C74_word_query`, `C74_not_drops_rows`, `C74_not_query`, `C74_letter_case`

### C75 A translated query computes the rows it describes (partial)

* Modelled: renderPipeline, pipelineTr and the standalone translations of search, where, eval, rename, fields, table, head, sort, stats
* Proof: Spec/Rows.lean: rows of an SPL query (`splQuery`) and rows of a PySpark program (`textRows`, from its text), with the primitives as parameters; Lemmas/RowSteps.lean: one command changes the tree of the program so that its rows follow; Props/QueryRows.lean: induction over the pipeline, then the reading of the printed program (C59)
* Result: C75_rows_partial: every query of search (with NOT, on rows where the comparisons under NOT are decided, `NotsDecided` in `Definite`), where, eval, rename, fields, table, head, sort and stats in any order and number (`fitsQuery`), every table, every meaning of the primitives, from the text of the generated program as read by a Python reader of its own; C75_text_partial the same from the text of the query (C69). Missing: rows tied in a sort, first/last/mode and head without a sort, whose result Spark does not fix; two or more index= in one search; the other commands (C36-C41, C64-C68 describe their rows one by one). Missing, because false: events without the BY field make a group (C75_null_group), fields drops _time and _raw (C75_internal_fields), sum(x) is called sum (C75_aggregate_names), a field no event has is an error (C75_unknown_field), rename onto a field that is there (C75_rename_onto), sort puts events without the field first (C75_missing_key).
* Theorems: `C75_rows_partial`, `C75_text_partial`, `C75_null_group`, `C75_internal_fields`, `C75_aggregate_names`, `C75_unknown_field`, `C75_rename_onto`, `C75_missing_key`

### C76 Statistics functions compute the documented statistic (partial)

* Modelled: statsFn, statsTable, percentileSpec, statsStandalone; libStats of the runtime library
* Proof: Spec/Stats.lean: documented statistics of exact numbers (`splStats`, `IsEarliest`, …) and aggregate functions of Spark evaluated on the rows of a group (`sparkStat`), from the tree read back from the text; Lemmas/Statistics.lean: the statistics do not depend on the order; percentile names and their decimal texts are checked for all numbers from 0 to 100
* Result: C76_stats_partial: avg, mean, count, dc, distinct_count, max, min, stdev, stdevp, sum, sumsq, var, varp, any number of them in one command with any BY fields, on rows in any order, from the text of the program; C76_ordered_partial: first, last and list of at most 100 values if Spark has the rows in the order of the events; C76_values_partial: the set; C76_upperperc_partial: upperperc0 to upperperc100; C76_median_partial: median of an odd number of values; C76_earliest_partial: earliest and latest if Spark keeps the order of the sorted table in the groups; C76_library_partial: the aggregates the runtime library builds for avg, mean, max, min, stdev, var, varp and range. False: C76_range_refused (an aggregate of an aggregate), C76_median_even, C76_exactperc_between, C76_perc_unknown (perc95 and p95), C76_list_all (more than 100 values), C76_time_any_event (earliest_time and latest_time of events without the field), C76_count_eval. Missing: mode, rate, estdc (an approximation in both languages), values of other kinds than numbers, the order of values, which Spark does not fix.
* Theorems: `C76_stats_partial`, `C76_ordered_partial`, `C76_values_partial`, `C76_upperperc_partial`, `C76_median_partial`, `C76_earliest_partial`, `C76_range_refused`, `C76_median_even`, `C76_exactperc_between`, `C76_perc_unknown`, `C76_list_all`, `C76_time_any_event`, `C76_count_eval`, `C76_library_partial`

### C77 addtotals writes the sum of the numeric fields (partial)

* Modelled: addTotalsTr
* Proof: Spec/Rows.lean `splTotal` (values that are numbers, added one after the other), evaluated on the tree read back from the text; `AddsNumbers` says what is assumed of number conversion and addition, `addSem` has it
* Result: C77_total_partial: for any non-empty list of fields the field written has the exact sum of the numeric ones on every row, from the text of the program, for any operations that add numbers; everything else stays as it is. False: C77_all_fields (without a list the program writes 0), C77_options_ignored (row, col, label and labelfield make no difference). Inside longer queries: C75_rows_partial.
* Theorems: `C77_total_partial`, `C77_all_fields`, `C77_options_ignored`

### C78 spath extracts what the path leads to (partial)

* Modelled: spathTr, spath parser
* Proof: Spec/JsonPath.lean: steps of an SPL path and of a Spark path; the tree read back from the text calls `get_json_object` with the path, which is followed step by step
* Result: C78_path_partial: paths of keys, any input and output field, from the text of the program. False: C78_index_lost (for every path without brackets no step of the path Spark follows leads into an array), C78_index_wrong (`a{0}.b` and `a{}.b`), C78_without_path (read as a search for the word spath), C78_option_order. Inside longer queries: C75_rows_partial.
* Theorems: `C78_path_partial`, `C78_index_lost`, `C78_index_wrong`, `C78_without_path`, `C78_option_order`

### C79 makeresults makes the events asked for (partial)

* Modelled: makeResultsTr
* Proof: Spec/Rows.lean `splMade` and `spark.range` as rows with a column `id`
* Result: C79_made_partial: for every count from 0 and without a server group, the rows without the column `id` are the events SPL makes, with these columns, from the text of the program; C79_then_partial: following commands of the fragment of C75 compute what SPL describes for events with the additional field. False: C79_extra_column (`id` is a column in every case), C79_group_refused (the name of a server group is an undefined variable of Python).
* Theorems: `C79_made_partial`, `C79_then_partial`, `C79_extra_column`, `C79_group_refused`

### C80 regex keeps the events that match (partial)

* Modelled: regexTr
* Proof: the tree read back from the text; `where` with `regexp_like` of two columns in Spec/Meaning.lean
* Result: C80_regex_partial: the program read back names the field, the pattern and the sense of the command, for every pattern that can stand in a raw literal, and with the pattern as a column the rows kept would be SPL's. False: C80_regex_fails (the pattern is handed over as a text, which `regexp_like` takes for the name of a column: no rows, as soon as there is a row to test).
* Theorems: `C80_regex_partial`, `C80_regex_fails`

### C81 rex extracts the named groups (partial)

* Modelled: rexTr, groupsOf
* Proof: Spec/Pattern.lean: patterns with named groups, in the two syntaxes, and their first match; `regexp_extract` by number against the fields by name
* Result: C81_rex_partial: patterns of the modelled part Java reads too, all of whose groups have a name, different from each other and from the field, on rows that match, if the external parser numbers the groups from left to right; from the text of the program. False: C81_no_match_lost, C81_java_names (underscores and `(?P<`), C81_unnamed_group, C81_same_field. Patterns outside Spec/Pattern (alternatives, nested groups, counted repetition) are not modelled.
* Theorems: `C81_rex_partial`, `C81_no_match_lost`, `C81_java_names`, `C81_unnamed_group`, `C81_same_field`

### C82 The generated program only makes calls PySpark admits (partial)

* Modelled: renderPipeline without the runtime: all commands, evalFnBare, statsFnBare, exprTr
* Proof: Spec/Types.lean: kinds of Python values and the signatures of the PySpark functions, column and data frame methods in use; `typeOf` checks the tree read back from the text. Signatures are the annotated ones of PySpark 4 (classic PySpark additionally refuses a column as the base of `F.log`)
* Result: C82_calls_partial: every plain query with functions out of the lists the translation knows (`okQuery`), read back from the text: the program is one expression, every call in it fits a signature, and it is a data frame, or a list after a final `tail`. False: C82_top_fails (every query that ends with `top` or `rare` calls `F.count()` without its argument), C82_calls_fail (commands after `tail`, `true` and `false`, functions passed on by name such as `perc95`, `sparkline` or `num`, the server group of makeresults). Whether the columns named exist and values have the right SQL types is not part of the statement.
* Theorems: `C82_calls_partial`, `C82_top_fails`, `C82_calls_fail`

### C83 cidrmatch tells whether an address is in a network (partial)

* Modelled: runtime/udfs/__init__.py cidr_match with the parts of Python's ipaddress it uses for IPv4 (IPv6 is a parameter), runtime eval.cidrmatch, eval cidrmatch and comparison with a network
* Proof: arithmetic of bits: agreement of the first bits against equality of the masked numbers; reading the texts back; the SQL text is read by a small reader in Spec/Net.lean
* Result: C83_function_partial: the function of the library, given address and network in this order, is right for all IPv4 addresses and networks. False everywhere it is used: C83_library_fails (network taken for the name of a column, arguments swapped), C83_sql_fails (function not registered, arguments swapped), C83_list_fails (IN compares texts). IPv6 is a parameter. C83_long_prefix: a prefix longer than 32 holds no IPv4 address.
* Theorems: `C83_long_prefix`, `C83_function_partial`, `C83_library_fails`, `C83_sql_fails`, `C83_list_fails`

### C84 ipmask applies the mask (partial)

* Modelled: runtime/udfs/__init__.py ipmask, runtime eval.ipmask
* Proof: a text with a dot is not a whole number; bits as in C83
* Result: C84_prefix_partial: right when the number of leading ones is given instead of the mask. False: C84_mask_missing (every mask of four numbers gives a missing value), C84_library_missing (so every query of this kind gives a missing value in every row). There is no translation without the library.
* Theorems: `C84_mask_missing`, `C84_prefix_partial`, `C84_library_missing`

### C85 relative_time computes the time its specifier stands for (partial)

* Modelled: relative_time without the library (to_timestamp, date_trunc, INTERVAL), time specifiers in the parser, the library's signature of relative_time
* Proof: Spec/Time.lean: the specifier by `Latest beginning of the unit`, Spark's functions on seconds, SQL intervals read from their text; the parser of specifiers is characterised in both directions (Lemmas/Snap.lean)
* Result: C85_relative_partial for all specifiers that snap to seconds, minutes, hours, days or months, with the calendar of months as a parameter, in a time zone without changes of the clock. False: C85_week_fails (snapping to weeks is wrong at every time), C85_refused with C85_documented_refused (specifiers without an at sign, years, quarters, week days, `+d@d`), C85_now_raises (with the library the time must not itself be computed by the library).
* Theorems: `C85_relative_partial`, `C85_week_fails`, `C85_refused`, `C85_documented_refused`, `C85_now_raises`

### C86 With the runtime library allowed, a query computes the rows it describes (partial)

* Modelled: translation with the library allowed, the library's commands run on the translated program (Rt/), the frames they build
* Proof: Lemmas/LibraryCmd.lean is generic in a relation between the frames built with and without the library that the commands preserve; Lemmas/BuiltRows.lean gives the relation `has the rows of`, on the reading of frames as PySpark programs of C75
* Result: C86_library_rows_partial: for the queries of C75 (rows without the library) that are made of the commands and functions of C68 (alike with the library), for any settings of the library that look up the index as the table of that name; C86_text_partial from the text and with the settings as delivered. Missing: the queries outside these fragments, for which C61-C67 and C75 show where the claim is false.
* Theorems: `C86_library_rows_partial`, `C86_text_partial`

### C87 A query that ends with join computes the rows it describes (partial)

* Modelled: translation of join and of both searches, text of the program, its rows (Spec/Join.lean: the method `join` of a data frame with aliases, as pairs of rows)
* Proof: the condition by induction over the fields (three-valued `&`), the rows by the theorem of C75 for both searches, which gives them up to order; numbers of rows by comparing the sums over the events of the search
* Result: C87_join_partial: search and subsearch in the fragment of C75, types inner and left, no other common fields than those joined on, at most one match for an event: the pairs of rows are the events described. Refuted beyond: with several matches, or with outer (which cannot be written in a query, C57, but is in the tree), there are more rows than described (C87_too_many); every field joined on is there twice afterwards, so it cannot be used by its name (C87_ambiguous).
* Theorems: `C87_join_partial`, `C87_too_many`, `C87_ambiguous`

### C88 mvcount, mvappend, mvzip and split compute the documented values (partial)

* Modelled: translation of the four functions, text of the column and its value (Spec/Mv.lean: arrays, `size`, `concat`, `split`, `zip_with`)
* Proof: the text is read back, then the value by cases; the pieces by induction over the text, the pairs by induction over the lists
* Result: C88_mvcount_partial (arrays that are not empty), C88_mvappend_partial (arrays only), C88_split_partial (delimiters without characters that mean something in a regular expression; the result is the one list of pieces, pieces_unique), C88_mvzip_partial (equally many values in arrays; the whole call is read, with the lambda expression in it). Refuted beyond: C88_mvcount_single_fails (a single value is an error, an empty array counts 0), C88_mvappend_fails (single values are run together into one text, a missing one makes all missing), C88_split_fails (delimiters `.` and `|`), C88_mvzip_lengths_fail (as many pairs as the longer list has, and a single value is an error).
* Theorems: `C88_mvcount_partial`, `C88_mvcount_single_fails`, `C88_mvappend_partial`, `C88_mvappend_fails`, `C88_split_partial`, `C88_split_fails`, `C88_mvzip_partial`, `C88_mvzip_lengths_fail`

### C89 Time bounds in a search restrict the time of the events (partial)

* Modelled: translation of `search` in both modes; meaning of bounds in Spec/Rows.lean (`splSearch`)
* Proof: induction over the condition: what has a time in it has no translation, and neither splitting off the indexes nor splitting at AND loses it; for numbers by computation for all integers
* Result: Refuted for all bounds. C89_relative_refused: a search with a time relative to now or a span anywhere in its condition is not translated in any mode and state, and neither is a query that contains it. C89_number_is_compared: with a number of seconds, a column `earliest` or `latest` is compared instead of `_time`. C89_comparisons_partial: what does hold, the range written with comparisons of `_time` keeps the events the bounds describe.
* Theorems: `C89_relative_refused`, `C89_number_is_compared`, `C89_comparisons_partial`

### C90 A stage that is not a command is refused (partial)

* Modelled: grammar of queries (Spec/Query.lean), parser and translation of a search
* Proof: the text is derived in the grammar, which the parser reads (C69); text of the filter by induction over the words
* Result: C90_command_partial: a stage in the form of a command is read as this command after every query. Refuted beyond: C90_unknown_is_a_search (every list of plain words that does not begin with the name of a command, after every query, becomes a filter that removes the events without these words), C90_arguments_fail (the same for `tail abc`, `table`, `regex abc`, `mvexpand f`, whose names are those of commands). C90_unsupported_not_reported: `inputlookup "users.csv"`, `collect` and `map x` become searches instead of being reported; C90_empty_eval: `eval` without an assignment is accepted.
* Theorems: `C90_command_partial`, `C90_unknown_is_a_search`, `C90_arguments_fail`, `C90_unsupported_not_reported`, `C90_empty_eval`

### C91 No option of a command is silently ignored (partial)

* Modelled: all translators with options; grammar of the options (Spec/Options.lean, Spec/Query.lean) and the parser
* Proof: by cases over the commands; for whole queries by induction over the commands and their sub-searches; unknown options by derivations in the grammar, which the parser reads (C69)
* Result: C91_refused_partial: no query with prestats, local, append or include_reduced_buckets of tstats, mode=sed or max_match other than 1 of rex, max other than 1 of join, useother of top and rare, or OUTPUTNEW of lookup is translated. Refuted for the others: C91_ignored (setting the ignored options of all commands of a query, also of its sub-searches, to their defaults does not change the program: addtotals, bin, fields -, head, join, rare, rex, stats, top and, without the library, datamodel, fillnull and tstats) with C91_ignored_queries, and C91_unknown_option (every option that does not exist is dropped, for the fourteen commands whose arguments begin with options) with C91_unknown_option_queries (top and join too).
* Theorems: `C91_refused_partial`, `C91_ignored`, `C91_ignored_queries`, `C91_unknown_option`, `C91_unknown_option_queries`

### C92 A bare term of a search stands for the events that have it as a term (partial)

* Modelled: search command and rewriting of conditions (Tr/Expr.lean searchRw); filter read from its text and evaluated, `ilike` in Spec/Meaning.lean; terms and segmentation in Spec/Terms.lean
* Proof: by induction over the condition, with the meaning of a pattern `%w%` by induction over pattern and text
* Result: C92_kept_partial and C92_kept_not_partial: for all conditions of the fragment (terms without %, _, quotes and backslashes) the filter keeps exactly the events in which the texts occur, in any letter case (ASCII); NOT on events on which the comparisons are decided. C92_terms_partial and C92_query_partial: hence without NOT no event described is lost, and none is kept wrongly unless a term is a part of a longer one in it. Refuted in general: C92_part_of_a_word (for every word and every following letter or digit), C92_underscore (for every word with an underscore), C92_percent (for every phrase with a percent sign at its end), C92_queries.
* Theorems: `C92_kept_partial`, `C92_kept_not_partial`, `C92_terms_partial`, `C92_query_partial`, `C92_part_of_a_word`, `C92_underscore`, `C92_percent`, `C92_queries`

### C93 A column reference of the generated program is the field of that name (partial)

* Modelled: translation of fields; program text read back (Spec/Program.lean); resolution of names by Spark in Spec/ColumnNames.lean
* Proof: C73 with the splitting of names by induction over the text
* Result: C93_where_partial, C93_eval_partial: for names without dots, backquotes and asterisks, on tables with columns whose names differ in more than letter case, every reference read from the program is the field of that name (the rows of longer queries under the same conditions: C75). Refuted for the others: C93_dot_fails (all names with a dot, which the grammar admits unquoted: refused, or a column of that table or a part of another column; resolution after a name of the table, as in table.column, is in the specification), C93_letter_case_fails (all pairs of columns that differ in letter case), C93_spath_query (the columns spath makes by itself cannot be referred to afterwards).
* Theorems: `C93_where_partial`, `C93_eval_partial`, `C93_dot_fails`, `C93_letter_case_fails`, `C93_spath_query`

### C94 tstats computes the statistics of the events of the dataset on which its condition holds (partial)

* Modelled: tstats and datamodel in the standalone translation; rows of programs (Spec/Rows.lean); meaning of tstats in Spec/TStats.lean
* Proof: the program is the one of the table with `where` and `stats`, then the steps of C75
* Result: C94_rows_partial, C94_text_partial: standalone program, comparisons of fields with values, patterns and IN lists joined with AND, OR and NOT (on events where the comparisons under NOT are decided), functions and names as in C75, any following commands as in C75. Refuted outside: C94_index_fails (every tstats without a data model is refused), C94_null_group (events without the field grouped by are counted), C94_conditions_fail (bounds on the time become fields; bare terms, conditions after a node name and relative times are not read). Functions outside C75 are missing.
* Theorems: `C94_rows_partial`, `C94_text_partial`, `C94_index_fails`, `C94_null_group`, `C94_conditions_fail`

### C95 where compares the values of the expressions on both sides (partial)

* Modelled: `where` and logical expressions in the grammar; the translation of conditions; shape of parsed conditions in Spec/Shape.lean (CondShape)
* Proof: reading as in C08; every parse result has the shape, by induction over the grammar; the value of the condition as in C21
* Result: C95_comparison_partial: a field on the left and a number, quoted text or call on the right. Refuted outside: C95_word_is_a_text (every word on the right is a text, and what the program keeps instead), C95_sides, C95_one_comparison (in no query whatsoever has a comparison of `where` a field on the right or an expression on the left), C95_refused.
* Theorems: `C95_comparison_partial`, `C95_word_is_a_text`, `C95_word_query`, `C95_sides`, `C95_one_comparison`, `C95_refused`

### C96 fillnull leaves no missing value in the fields it fills, and changes nothing else (partial)

* Modelled: fillnull in the standalone translation; `fillna` of typed columns and `fillnull` of events in Spec/FillNull.lean
* Proof: the program is the one of C75 with `fillna` of a text, read back from the text; the rows of both compared
* Result: C96_text_columns_partial: after every query of C75, without a list, on tables whose columns are all texts, from the text of the program. Refuted for the others: C96_number_stays_null (the value is always handed over as a text, and Spark passes over columns of other types: for all queries, values and columns), C96_list_ignored (with a list the other columns are filled too). With the library: C67.
* Theorems: `C96_text_columns_partial`, `C96_number_stays_null`, `C96_list_ignored`, `C96_query`

### C97 Arithmetic operators are recognised with or without blanks around them (partial)

* Modelled: constants and expressions as in C08; the texts `Tight` in Props/Tight.lean
* Proof: the lexers are run on any such text: no number, time or address reads all of it, so it is one field or one pattern, and every level of the ladder passes it up
* Result: C97_blanks_partial: with blanks on both sides, and `+` with or without, for all operands of the grammar of C08, from the text of the query to the value computed by the program. Refuted without blanks, for all texts of names and numbers joined by - and / (C97_minus_divide_fail: the program copies a column of that name) and by * (C97_times_refused: the query is rejected in every mode).
* Theorems: `C97_blanks_partial`, `C97_minus_divide_fail`, `C97_times_refused`, `C97_numbers`, `C97_forms`

### C98 A %%spl cell binds one notebook variable to the value of the generated program (partial)

* Modelled: `splMagic` and `execWithReturn` (Rt/Magic); what Python computes is `Spec/PyRun`, with any objects, names looked up by Python's rules (parameters, then the block, then globals; inside a lambda not the block)
* Proof: the value of an expression depends on the values of its variables and of those inside lambda expressions; generated programs have all the first in scope (C59), and of the second only `F`
* Result: C98_others_kept: no other variable is changed, for every cell, and a dry run changes none. C98_value_partial: for plain queries (C59) the variable gets the value of the program run by itself, in every notebook, if the program has no lambda expression or the notebook has the function module as F. C98_lambda_fails: a program with a lambda expression (mvzip without the runtime) fails in every notebook without F. C98_empty: an empty search gives None.
* Theorems: `C98_value_partial`, `C98_lambda_fails`, `C98_others_kept`, `C98_empty`

### C99 A search gives the events of the indexes its condition selects (partial)

* Modelled: `selected` (Spec/Indexes): the events of an index on which the condition is true when the field `index` holds its name
* Proof: a condition of the fragment is true of an event of index `j` iff its other terms are and `j` is every index it names (induction); with C75 this is what the program computes. The refutations use C28 for the tables read
* Result: C99_one_index_partial: with one index=name on the conjunctive spine the program gives exactly the events, of all indexes, on which the whole condition is true. Refuted for two different indexes (C99_two_indexes_fail: no event is described, both tables are read, for all conditions of the fragment), patterns (C99_pattern_fails: a table named like the pattern is read), NOT (C99_not_index_fails) and IN (C99_list_fails): only `main` is read. Under OR and with != the search is refused (C28_misplaced_index_fails).
* Theorems: `C99_one_index_partial`, `C99_two_indexes_fail`, `C99_pattern_fails`, `C99_not_index_fails`, `C99_list_fails`

### C100 The interactive translator shows the translation of the text in its editor (partial)

* Modelled: `Live` (Rt/Live): the state of the application and its handlers; `ReadsAs` (Spec/Imports): import lines and a program
* Proof: every handler ends with an update, which determines what is shown; the names by C59
* Result: C100_shows_partial: for all event sequences the program, tree, marks and log after the last event, against convert_spl_to_pyspark. Refuted: a text that cannot be parsed leaves the program of an earlier text shown, unmarked and copied as it is (C100_stale_program, for all sequences). C100_imports_partial: names of the shown program, for plain queries (C59) with both switches on and a formatter that keeps the program; missing for the standalone switch, where C59_standalone_partial and C17 bound the names; refuted for comparisons with true (C100_undefined_name).
* Theorems: `C100_shows_partial`, `C100_stale_program`, `C100_imports_partial`, `C100_undefined_name`

### C101 The work of parsing is bounded by a polynomial in the length of the query (partial)

* Modelled: `Counted`, `Count.gram` (Spl/Counted, Spl/Calls): the grammar again with the number of recursive calls, the parser inside being that of the grammar by definition (`gram_p`)
* Proof: induction on the number of `NOT (`; for the bound, induction on `Written` beside the proof of C08
* Result: Refuted: C101_exponential: at least 2^n calls on search, n times `NOT (`, and any text that closes no parenthesis (refused, C101_refused). C101_exponential_accepted: at least 2^n calls on the accepted query of n+1 nested multisearch with a single search; so no polynomial bounds the calls, not even on accepted queries (C101_no_polynomial). C101_linear_partial and C101_linear_eval_partial: at most one call for each character and one more for search and eval of every expression written as C08 describes. Missing: a bound for other commands. Work inside the parts of the grammar that do not recurse is not counted.
* Theorems: `C101_exponential`, `C101_refused`, `C101_exponential_accepted`, `C101_no_polynomial`, `C101_linear_partial`, `C101_linear_eval_partial`

### C102 Parsing does not recurse deeper for longer queries (partial)

* Modelled: `level`, `levelFrom` (Spl/Grammar, Spl/Fix)
* Proof: induction on the number of parentheses; C01 for the bound
* Result: Refuted: C102_unbounded: for every depth an accepted query of length 2k+8 needs deeper calls (a field in k pairs of parentheses). C102_length_partial: depth length+1 is enough for every text. Rust frames and the size of the stack are not modelled.
* Theorems: `C102_unbounded`, `C102_length_partial`

### C103 The length of a program is bounded by a polynomial in the length of its query (partial)

* Modelled: `renderPipeline`, `exprTr`, `memkFn` (Tr); `exprLen`, `noCall`, `withoutCall` (Spec/Size)
* Proof: lower bound: induction on the nesting; upper bound: a size of columns that bounds their text, every entry of the function table shown linear, induction on expressions and on `QueryText`
* Result: Refuted for standalone programs: C103_exponential: the accepted query `eval x=memk(memk(...a...))` of length 6n+8 gives a program of at least 4^n characters, because memk writes its argument four times; so no polynomial bounds the length (C103_no_polynomial). C103_column_partial: every translated column is at most 100 times as long as its expression (exprLen) with the library, and without it unless memk is called. C103_quadratic_partial: programs of all queries in documented form, searches in brackets included, are at most 6000 times the square of the query's length and 19 more; with the library whatever they call, standalone without a call of memk. Of the external parser of regular expressions it is assumed that it finds no more groups than the expression has characters, with names no longer (GroupsFit). Missing: accepted queries that are not in documented form.
* Theorems: `C103_exponential`, `C103_no_polynomial`, `C103_column_partial`, `C103_quadratic_partial`

### C104 Every part of an expression is translated a bounded number of times (partial)

* Modelled: `exprCost` (Tr/Work.lean), which follows `exprTr` and counts the calls of to_spark_expr; copying of expressions is not counted
* Proof: induction on expressions; the family is read through `QueryText`
* Result: Holds without the library and with the library alone: C104_linear (each part at most once). Refuted where the library may be used (the default): C104_exponential: the accepted query `eval x=relative_time(...relative_time(a,"@d")...,"@d")` of length 20n+8 translates its innermost field 2^n times, because the attempt with the library translates all arguments and fails, and the plain translation translates them again; C104_no_polynomial. C104_library_partial: nothing is repeated when the library alone can translate the expression; C104_depth_partial: in every case at most parts * 2^(nesting of calls).
* Theorems: `C104_linear`, `C104_depth_partial`, `C104_library_partial`, `C104_exponential`, `C104_no_polynomial`

### C105 Macro expansion ends (partial)

* Modelled: `substituteMacros` (Spl/Macros.lean) with the recursion limit as fuel; `MText` describes texts with calls, `Ranked` definitions that are not circular
* Proof: induction on the rank; for circular definitions induction on the limit
* Result: C105_ends_partial: when the definitions can be ranked (each calls only macros of lower rank, without arguments) the arguments contain no backtick (nor \140), and the first round succeeds, the expansion ends for every large enough limit with a text without calls. Refuted for circular definitions, for every limit: C105_self_reference (a definition that calls its own macro after some text), C105_mutual (two macros defined by each other); the check `final_query == code` only catches a macro defined as exactly its own call. Missing: definitions that call macros with arguments.
* Theorems: `C105_ends_partial`, `C105_self_reference`, `C105_mutual`

### C106 A macro call is replaced by the definition stored under its name (partial)

* Modelled: `Registry`, `folderLoader`, `combinedLoader` (Spl/Loaders.lean); a folder is a list of entries, reading and validating a file a value of the entry
* Proof: induction on the registrations, the list of loaders and the pattern
* Result: C106_registry, C106_combined, C106_undefined in full; C106_folder_partial for names without a star. Refuted for names with a star, which macro names may contain: the name is used as a file pattern, so `s*` returns any single macro whose name starts with s (C106_star, C106_star_call). Two files with the name are an error (C106_ambiguous), and such an error ends the search even if a later loader has the macro (C106_failure_ends). Folders and unreadable files with the name (C106_not_a_file). Names with `/`, `\\` or `**` are a parameter of the model.
* Theorems: `C106_registry`, `C106_folder_partial`, `C106_star`, `C106_star_call`, `C106_ambiguous`, `C106_not_a_file`, `C106_combined`, `C106_failure_ends`, `C106_undefined`

### C107 A changed macro file is used from then on (partial)

* Modelled: `cachedLookup`, `cachedRun` (Spl/Loaders.lean): the cache of functools.cache keeps results and not exceptions
* Proof: induction on the past lookups
* Result: C107_result determines every result after any lookups: the definition returned first for the name, else what the folder holds. So it holds until the name has been found once (C107_first_partial; misses are not kept) and is refuted afterwards (C107_stale).
* Theorems: `C107_result`, `C107_first_partial`, `C107_stale`

### C108 A field name in double quotes is the name between the quotes (partial)

* Modelled: `field` (Spl/Lexer.lean) and the commands table, fields, rename; `FieldWritten` says how a name may be written and what it stands for
* Proof: the lists of fields are read item by item as in C69; the program is read back and run on all tables (C75)
* Result: C108_new_name_partial: the new name of rename. Refuted for names of existing fields: in table and fields the quotes become part of the names and the program fails on every table without such columns, for all lists with a quoted name (C108_table); rename leaves every such table unchanged, for all names (C108_rename); BY gives text that is not Python, a search compares a text, sort and mvexpand are refused, eval writes a column with quotes in its name (C108_others, witnesses).
* Theorems: `C108_table`, `C108_rename`, `C108_others`, `C108_new_name_partial`

### C109 Names of fields are opaque to the translation (partial)

* Modelled: `exprTr`, the tables of functions and the standalone commands; `renE`, `renCmd`, `renP`, `renDF` (Spec/Renaming.lean) give queries and programs other names
* Proof: one lemma per entry of the tables and per command: the translation commutes with the renaming; induction on expressions and on the list of commands
* Result: C109_expressions: all expressions with no field in the place of a text, all modes. C109_queries_partial, C109_accepted_partial: all queries of addtotals, convert, datamodel, eval, fields, fillnull, head, makeresults, multisearch, rare, regex, rename, sort, spath with output, stats without spans, table, tail, top, tstats without spans, where and searches for an index, in all modes; with the library, where fields become names of arguments, the names of the other arguments of commands.stats and commands.tstats are kept too. Refuted for the parser: t and f are truth values and cannot be assigned, renamed or grouped by (C109_t_and_f); outside the conditions names become texts or parts of other names (C109_names_in_texts); the condition on function names is needed (C109_function_names). Missing, because they build names and texts from names or take words for values: bin, rex, spath without output, join, lookup, and searches for more than an index.
* Theorems: `C109_expressions`, `C109_queries_partial`, `C109_accepted_partial`, `C109_t_and_f`, `C109_names_in_texts`, `C109_function_names`

### C110 The text after a pipe is read by itself (partial)

* Modelled: `pipeline`, `command` and the loop of `separated_list0`; the form of queries of Spec/Query.lean
* Proof: each stage of a query in documented form is read up to the bar whatever follows it (`CmdGood.read`); induction on the stages, and the loop does not depend on its fuel (`loop_fuel`)
* Result: C110_after_pipe_partial: every query in documented form (PipeText) and every text after it that begins with neither a blank nor a bar, accepted or refused. C110_context_partial: acceptance does not depend on what stands before the pipe. C110_nothing_after: a query that ends in a pipe is refused. Refuted without the condition on the form: a command without arguments directly before the bar is read as a search for its name (C110_bare_command). Missing: queries that are accepted but not in documented form.
* Theorems: `C110_after_pipe_partial`, `C110_nothing_after`, `C110_context_partial`, `C110_bare_command`

### C111 The module `ast` has the class of every command of a parsed query (partial)

* Modelled: the list of classes of spl/python.rs:142-205 and the class of the value of each variant of `Command` (Spl/PyClasses.lean); attributes and constructors are not modelled
* Proof: cases on how a stage is written (`Body`), and C90_command_partial for the query around it
* Result: False for six commands: after any query in documented form, a stage written with the name of a command has its class in the module exactly when the name is none of datamodel, rare, spath, tail, top and tstats (C111_stage_partial; concrete query in C111_tail). Commands with sub-searches and searches have theirs (C111_subsearches). Of the expressions exactly the time and search modifiers lack theirs (C111_expressions, C111_start_time). Different commands and constants have different classes (C111_class_tells, C111_constant_tells). Missing: stages that are accepted but not in documented form.
* Theorems: `C111_stage_partial`, `C111_subsearches`, `C111_class_tells`, `C111_tail`, `C111_expressions`, `C111_constant_tells`, `C111_start_time`

### C112 Recognising a keyword never panics (partial)

* Modelled: `tag_no_case` of nom 7.1 with lengths in bytes and with the panic of `str::split_at` (Nom/Bytes.lean); `char::to_lowercase` is a parameter with three facts (`RustLower`)
* Proof: induction on the keyword and the text; a common prefix is ASCII when no Kelvin sign is matched, so bytes and characters agree
* Result: Proved for every ASCII keyword on every text without the Kelvin sign (U+212A), and for every keyword without the letter k on every text (C112_keyword_partial, C112_unit), for a byte-exact model of tag_no_case in which char::to_lowercase is a parameter. False otherwise: a Kelvin sign for a k in the last two places of a keyword panics (C112_panics; for the time unit week, whatever follows: C112_week), for an earlier k the last two letters stay unread (C112_reads_short). Missing: the parsers around the keyword, which are modelled with ASCII letters only.
* Theorems: `C112_keyword_partial`, `C112_panics`, `C112_reads_short`, `C112_week`, `C112_unit`

### C113 A value of words with dots between them is read as one value (partial)

* Modelled: `token`, `string`, `literal`, `constant` and the terms of `search` and of the condition of `tstats`
* Proof: the comparison is in documented form (`Written`), so C69_read_partial reads it; the refusals by evaluation for each reserved word
* Result: C113_value_partial: every field and every value whose words are names and not reserved. False for reserved words: with a reserved word as the last or the first word of the value the query is refused, for each word of the table (C113_reserved_last, C113_reserved_first: host=example.in, host=mail.by, host=search.example); in the condition of tstats the value is cut before `or` and `and`, which are read as operators (C113_cut). Missing: words that begin with digits.
* Theorems: `C113_value_partial`, `C113_reserved_last`, `C113_reserved_first`, `C113_cut`

## Axioms of the property theorems

Output of `#print axioms` for the theorems named in `MANIFEST.json`.  No other axioms occur.

* **Classical.choice, Quot.sound, propext** (278): `C01_unique_answer`, `C01_bounded_depth`, `C01_functions_unique`, `C02_partition`, `C03_trailing_partial`, `C03_leading_blanks_partial`, `C03_leading_pipe_partial`, `C04_later_stage_partial`, `C04_query_partial`, `C05_head`, `C08_eval_partial`, `C08_search_partial`, `C08_or_before_and`, `C08_not_after_comparison`, `C08_where_partial`, `C09_groups_right`, `C09_chain_groups_right`, `C09_single_partial`, `C09_minus_and_divide_refuted`, `C10_parentheses`, `C10_parentheses_search`, `C11_values_partial`, `C11_last_value`, `C11_permuted`, `C11_makeresults`, `C13_positional_partial`, `C17_columns`, `C17_no_runtime_function`, `C19_scope_partial`, `C21_meaning_partial`, `C21_where_partial`, `C21_eval_partial`, `C21_where_query_partial`, `C21_eval_query_partial`, `C21_truth_literals_undefined`, `C22_where_partial`, `C22_lower_case_fails`, `C23_text_reads_as_tree_partial`, `C23_same_text_same_tree_partial`, `C23_cast_of_negation_is_misread`, `C23_cast_of_negation_query`, `C24_string_constant_partial`, `C24_comparison_partial`, `C24_constant_becomes_code`, `C24_backslash_is_reinterpreted`, `C25_in_list_partial`, `C25_empty_list_is_true`, `C26_wildcard_partial`, `C26_underscore_is_special`, `C27_search_filter_partial`, `C29_index_forgets`, `C33_sort_partial`, `C40_no_panic`, `C41_rows_partial`, `C41_multisearch_partial`, `C41_succeeds`, `C41_standalone_text`, `C42_piecewise_partial`, `C42_same_text_partial`, `C43_case_partial`, `C43_validate_partial`, `C43_validate_skips_unknown`, `C44_mvindex_partial`, `C44_negative_position_is_null`, `C44_negative_end_fails`, `C44_last_elements_fail`, `C45_alias_only_on_top`, `C45_operands_unaliased`, `C45_statements_unaliased`, `C45_realias`, `C46_every_argument_used_partial`, `C46_arity_convert_partial`, `C48_runtime_search_partial`, `C52_parsed_shape`, `C53_operand_partial`, `C53_not_splits`, `C53_and_splits`, `C55_plain_partial`, `C55_outer_blanks`, `C57_lookup_outputnew`, `C57_tstats_prefix`, `C57_reserved_functions`, `C57_top_limit`, `C57_join_type`, `C59_reads_partial`, `C59_standalone_partial`, `C60_concat_fails`, `C61_library_call_succeeds_partial`, `C62_same_column_partial`, `C62_bit_and_is_null`, `C62_case_is_no_column`, `C62_validate_partial`, `C62_validate_raises`, `C63_operand_raises`, `C63_right_operand_raises`, `C63_negation_raises`, `C63_where_raises`, `C63_where_partial`, `C64_name_raises`, `C64_eval_partial`, `C65_index_partial`, `C65_first_raises`, `C65_name_raises`, `C65_index_ignored`, `C66_all_or_nothing`, `C66_missing_raises`, `C66_count_raises`, `C66_label_raises`, `C66_first_raises`, `C66_distinct_count_differs`, `C66_stats_partial`, `C67_tstats_late_raises`, `C67_tstats_prefix_lost`, `C67_tstats_partial`, `C67_fillnull_values_partial`, `C67_tstats_fill_partial`, `C67_tstats_fill_query_partial`, `C68_query_partial`, `C68_delivered_partial`, `C68_multisearch_partial`, `C69_read_partial`, `C69_unambiguous_partial`, `C70_address6`, `C70_eval`, `C70_network`, `C71_functions_partial`, `C71_primitives_partial`, `C71_log_is_swapped`, `C71_log_query`, `C71_sum_is_an_aggregate`, `C71_tostring_partial`, `C71_tostring_truth_values`, `C71_replace_escapes`, `C71_avg_and_random`, `C72_memk_partial`, `C72_memk_unit_required`, `C72_memk_eval_partial`, `C72_rmunit_partial`, `C72_rmunit_other_text`, `C72_rmcomma_partial`, `C72_ctime_partial`, `C72_ctime_refused`, `C73_expression_partial`, `C73_where_partial`, `C73_eval_partial`, `C74_search_partial`, `C74_search_not_partial`, `C74_search_nots_partial`, `C74_query_partial`, `C74_word_is_a_column`, `C74_word_query`, `C74_not_drops_rows`, `C74_not_query`, `C74_letter_case`, `C75_rows_partial`, `C75_text_partial`, `C75_null_group`, `C75_internal_fields`, `C75_aggregate_names`, `C75_unknown_field`, `C75_rename_onto`, `C75_missing_key`, `C76_stats_partial`, `C76_ordered_partial`, `C76_values_partial`, `C76_upperperc_partial`, `C76_median_partial`, `C76_earliest_partial`, `C76_range_refused`, `C76_median_even`, `C76_exactperc_between`, `C76_perc_unknown`, `C76_list_all`, `C76_time_any_event`, `C76_count_eval`, `C76_library_partial`, `C77_total_partial`, `C77_all_fields`, `C78_path_partial`, `C79_made_partial`, `C79_then_partial`, `C80_regex_partial`, `C80_regex_fails`, `C81_rex_partial`, `C81_no_match_lost`, `C81_java_names`, `C81_unnamed_group`, `C81_same_field`, `C82_calls_partial`, `C82_top_fails`, `C83_function_partial`, `C86_library_rows_partial`, `C86_text_partial`, `C87_join_partial`, `C87_too_many`, `C87_ambiguous`, `C88_mvcount_partial`, `C88_mvcount_single_fails`, `C88_mvappend_partial`, `C88_mvappend_fails`, `C88_split_partial`, `C88_split_fails`, `C88_mvzip_partial`, `C88_mvzip_lengths_fail`, `C89_number_is_compared`, `C89_comparisons_partial`, `C90_command_partial`, `C90_unknown_is_a_search`, `C91_unknown_option`, `C92_kept_partial`, `C92_kept_not_partial`, `C92_terms_partial`, `C92_query_partial`, `C92_part_of_a_word`, `C92_underscore`, `C92_percent`, `C93_where_partial`, `C93_eval_partial`, `C93_dot_fails`, `C93_letter_case_fails`, `C93_spath_query`, `C94_rows_partial`, `C94_text_partial`, `C94_null_group`, `C95_comparison_partial`, `C95_word_is_a_text`, `C95_word_query`, `C95_sides`, `C95_one_comparison`, `C96_text_columns_partial`, `C96_number_stays_null`, `C96_list_ignored`, `C97_blanks_partial`, `C97_minus_divide_fail`, `C97_times_refused`, `C97_numbers`, `C98_value_partial`, `C98_lambda_fails`, `C99_one_index_partial`, `C99_two_indexes_fail`, `C99_pattern_fails`, `C99_not_index_fails`, `C99_list_fails`, `C100_imports_partial`, `C101_exponential`, `C101_refused`, `C101_exponential_accepted`, `C101_no_polynomial`, `C101_linear_partial`, `C101_linear_eval_partial`, `C102_unbounded`, `C102_length_partial`, `C103_exponential`, `C103_no_polynomial`, `C103_column_partial`, `C103_quadratic_partial`, `C104_library_partial`, `C104_exponential`, `C104_no_polynomial`, `C106_registry`, `C106_folder_partial`, `C106_star`, `C106_not_a_file`, `C107_result`, `C107_first_partial`, `C107_stale`, `C108_table`, `C108_rename`, `C108_new_name_partial`, `C109_expressions`, `C109_queries_partial`, `C109_accepted_partial`, `C110_after_pipe_partial`, `C110_nothing_after`, `C110_context_partial`, `C111_stage_partial`, `C111_tail`, `C113_value_partial`
* **Quot.sound, propext** (191): `C03_second_pipe_rejected`, `C03_trailing_blank_changes_query`, `C04_stage_partial`, `C04_fallback_keeps_case`, `C05_constant`, `C05_only_integers`, `C05_decimal`, `C05_limits`, `C06_constant_partial`, `C06_time`, `C06_literal_partial`, `C06_leading_blank_lost`, `C06_quoted_time`, `C06_empty_strings_merge`, `C07_reserved_only_when_quoted`, `C07_no_reserved_names`, `C07_token`, `C07_option_keys`, `C07_quoted`, `C07_term`, `C07_reserved_stops`, `C07_like_in`, `C08_search_where_disagree`, `C11_wrong_type_becomes_search`, `C12_layout`, `C12_plain`, `C12_single_backtick`, `C13_other_characters`, `C13_octal_call`, `C14_append`, `C14_failure`, `C14_prefix_failure`, `C16_runtime_accepts_more`, `C17_standalone`, `C17_render`, `C18_names_distinct`, `C18_assigned_occurs`, `C19_mixed_fails`, `C19_subsearch_fails`, `C20_deterministic_partial`, `C20_order_matters_query`, `C22_queries`, `C24_string_constant_exact`, `C24_in_element_exact`, `C25_empty_list_queries`, `C27_empty_term`, `C27_runtime_bare_term`, `C28_index_split`, `C28_misplaced_index_fails`, `C29_narrows_partial`, `C29_index_replaces`, `C30_split_partial`, `C30_assign_partial`, `C31_simultaneous_partial`, `C32_keep_partial`, `C33_head_partial`, `C33_head_count_partial`, `C33_tail`, `C33_negative_not_rejected`, `C33_negative_queries`, `C34_sort_keys`, `C35_standalone_partial`, `C35_runtime_partial`, `C35_runtime_collision`, `C36_count_name_ignored`, `C37_never_reads`, `C39_other_field`, `C39_without_span`, `C39_other_field_query`, `C40_overwrite_query`, `C41_runtime_text_broken`, `C42_refused_partial`, `C42_percent_before_directive`, `C42_literal_refused`, `C42_unlisted_is_kept`, `C42_queries`, `C43_odd_rejected`, `C43_runtime_accepts_odd`, `C44_queries`, `C45_call_name`, `C46_first_argument_used_partial`, `C46_arity_partial`, `C46_stats_arity_partial`, `C46_count_arity_partial`, `C46_stats_every_argument_used_partial`, `C46_extra_arguments_ignored`, `C46_runtime_unchecked`, `C47_unit`, `C47_constant`, `C47_span`, `C48_duplicate_keyword`, `C49_single_node`, `C49_root_dropped`, `C50_one_column_per_group`, `C53_keyword_splits_word`, `C54_fixpoint`, `C54_self_reference`, `C54_no_calls_left_partial`, `C55_trailing_pipe_lost`, `C56_missing_arguments_accepted`, `C57_forms_refused`, `C57_limit_rejected`, `C57_join_type_rejected`, `C58_words_written`, `C58_characters`, `C59_keywords_fail`, `C59_quotes_fail`, `C59_undefined_fail`, `C61_library_call_raises`, `C61_second_argument_raises`, `C61_tostring_raises`, `C61_plain_values`, `C64_repeated_raises`, `C65_source_first`, `C65_source_only`, `C65_filter_partial`, `C65_repeated_raises`, `C65_word_is_column`, `C65_special_first`, `C67_fillnull_partial`, `C67_tstats_node`, `C70_address6_letters`, `C70_decimal`, `C70_address`, `C70_only_decimals`, `C70_not_numbers`, `C70_network_unequal`, `C70_address_range`, `C71_optional_arguments_refused`, `C71_conversions_refused`, `C71_refused_queries`, `C72_command`, `C72_required_refused`, `C72_rows`, `C72_split`, `C78_index_lost`, `C78_index_wrong`, `C78_without_path`, `C78_option_order`, `C79_extra_column`, `C79_group_refused`, `C82_calls_fail`, `C83_long_prefix`, `C83_sql_fails`, `C83_list_fails`, `C84_prefix_partial`, `C84_library_missing`, `C85_relative_partial`, `C85_week_fails`, `C85_refused`, `C85_documented_refused`, `C85_now_raises`, `C89_relative_refused`, `C90_arguments_fail`, `C90_unsupported_not_reported`, `C90_empty_eval`, `C91_refused_partial`, `C91_ignored_queries`, `C91_unknown_option_queries`, `C92_queries`, `C94_conditions_fail`, `C95_refused`, `C96_query`, `C97_forms`, `C98_others_kept`, `C100_shows_partial`, `C100_stale_program`, `C100_undefined_name`, `C104_linear`, `C104_depth_partial`, `C105_ends_partial`, `C105_self_reference`, `C105_mutual`, `C106_star_call`, `C106_ambiguous`, `C106_combined`, `C106_undefined`, `C108_others`, `C109_t_and_f`, `C109_names_in_texts`, `C110_bare_command`, `C111_expressions`, `C111_start_time`, `C112_keyword_partial`, `C112_panics`, `C112_reads_short`, `C112_week`, `C112_unit`, `C113_reserved_last`, `C113_reserved_first`, `C113_cut`
* **propext** (62): `C13_resubstituted`, `C13_escapes_interpreted`, `C13_letters`, `C13_numbers`, `C13_touching`, `C14_fold`, `C15_unsupported_reported`, `C16_strict`, `C20_order_matters`, `C23_negation_loses_its_operand`, `C23_negation_loses_its_alias`, `C27_quoted_term_partial`, `C30_runtime_splits_differ`, `C31_swap_fails`, `C32_minus_is_plus`, `C32_minus_fails`, `C33_head_strict_agrees`, `C33_top_partial`, `C36_top_rare_partial`, `C36_by_replaces_fields`, `C36_showcount_ignored`, `C37_lookup_partial`, `C38_fillnull_partial`, `C38_list_ignored`, `C39_bin_partial`, `C40_join_partial`, `C40_rejects`, `C40_overwrite_ignored`, `C41_forgets_input`, `C42_percent_fails`, `C42_neighbours_merge`, `C42_letters_become_fields`, `C42_wrong_fields`, `C42_fails`, `C45_strip_idempotent`, `C46_unknown_passed_partial`, `C46_runtime_passed_partial`, `C49_table_partial`, `C51_format_fallback`, `C51_unformatted`, `C56_count_partial`, `C56_unknown_name_ignored`, `C61_truth_raises`, `C64_first_raises`, `C64_df_raises`, `C65_special_dropped`, `C67_data_model_raises`, `C67_fillnull_first_raises`, `C67_tstats_fill_ignored`, `C68_multisearch_order`, `C71_replace_takes_names`, `C71_split_delimiter_is_a_pattern`, `C72_other_names`, `C77_options_ignored`, `C83_library_fails`, `C84_mask_missing`, `C91_ignored`, `C94_index_fails`, `C98_empty`, `C106_failure_ends`, `C109_function_names`, `C111_subsearches`
* **none** (3): `C42_replaced_again`, `C111_class_tells`, `C111_constant_tells`

## Disagreements between the code and the properties

Each entry is proved in the theorem named.

Parsing
* Trailing blanks change the query (`C03_trailing_blank_changes_query`); a second leading pipe is rejected.
* A known command whose arguments do not parse silently becomes an implicit search (`C04_fallback_keeps_case`,
  `C11_wrong_type_becomes_search`).
* Outer blanks of quoted strings are trimmed, a quoted relative time becomes a time, adjacent empty strings merge (C06).
* OR binds tighter than AND, and NOT weaker than comparison, in `eval` and `search`; `where` differs from both (C08).
* `-`, `/` and all operators of one level group to the right: `a-b-c` is `a-(b-c)` (C09).
* Keywords split longer words (`C53_keyword_splits_word`); `like(..)` and `in(..)` can never be called (`C07_like_in`).
* A stage that begins with `top limit=` is never a `top` command, and `join type=` with a reserved word (`inner`, `outer`) is
  never a `join`; `type=left` works (C57).

Macros
* Arguments are substituted again inside arguments, backslashes are interpreted, trailing pipes are lost, missing
  arguments and unknown names are accepted, self-reference is returned unexpanded (C13, C54, C55, C56).

Translation
* Runtime commands after standalone ones, and sub-searches with runtime commands, give text that is not Python
  (C19, C41, C59); so do keywords as names, doubled keywords and quotes in strings (C24, C48, C59).
* Negation under a method call is printed without parentheses: `~a.cast(..)` (C23).
* `true`/`false` become undefined names (C21, C59); lower-case `and`/`or` are kept (C22); `a . b` is read as attribute
  access (C60).
* `IN ()` is always true (C25); `_` and `%` in wildcards are special (C26).
* `search index=x` in the middle of a pipeline and `multisearch` discard their input (C29, C41).
* `fields -` keeps instead of removing (C32); `rename a as b, b as a` is not a swap (C31); negative counts wrap around
  (C33); `showcount` and `countfield` of `top` are not honoured and its BY list replaces the fields (C36); `lookup` never reads the table (C37); `fillnull`
  ignores its list (C38); `bin` only works for a field named `n` (C39); `join overwrite=` is ignored (C40).
* Time formats: `%%`, unlisted directives, neighbours, literal letters and nine wrong patterns (C42).
* `validate` passes over unknown conditions (C43); negative `mvindex` positions (C44); ignored extra arguments (C46);
  data model paths (C49).
* `log(x, b)` has its arguments swapped, `sum(..)` in `eval` is an aggregate, arguments documented as optional
  have to be given or are refused, `tostring` of a truth value gives `true`, `replace` takes names of fields as texts, and
  `split` takes its delimiter as a pattern (C71).
* `memk` needs the unit that is documented as optional; `rmunit` gives nothing for `10 MB` or `50%`; six documented
  conversions are handed to functions PySpark does not have (C72).
* `search method=GET` compares the column `method` with a column `GET`; `search NOT status=200` drops the events without a
  status; `search method="get"` does not find `GET` (C74).
* `stats count by host` makes a group of the events without a host; `fields host` drops `_time`; `stats sum(x)` names its
  column `sum`; `where isnull(a)` on a table without a column `a` is an error; `rename a AS b` where `b` is there leaves two
  columns `b`; `sort n` puts the events without `n` first (C75).
* `search index=web host=www1` reads the column `_host` with the library and the columns `host` and `www1` without it (C65);
  `tstats fillnull_value=0` is ignored without the library (C67).
* `stats range(x)` is an aggregate of an aggregate, which Spark refuses; `median` of an even number of values is the lower of
  the two in the middle; `exactperc50` may be no value at all; `perc95`, `p95` and `count(eval(…))` call functions that do not
  exist; `list` is not cut off at 100 values; `earliest_time(x)` counts events without `x` (C76).
* `addtotals` without fields writes 0, and ignores `row`, `col`, `label` and `labelfield` (C77).  `spath` hands `{0}` and `{}` to
  Spark, which takes them for parts of keys; `spath` alone is a word search; `spath path=… output=…` is refused (C78).
* `makeresults` adds a column `id`; its server group is an undefined variable (C79).  `regex` hands its pattern to a function that
  takes it for the name of a column (C80).  `rex` empties fields where nothing matches, makes columns of groups without
  names, and hands names with underscores and `(?P<n>` to Java, which refuses them (C81).
* `top` and `rare` call `F.count()` without its argument and so always raise; `tail` makes a list, on which no further command can
  be called; `true` and `false` are undefined names of Python; names of functions the translation does not know are passed on,
  among them the documented `perc95`, `p95`, `sparkline` and the conversions of `convert` (C82).
* `cidrmatch` never holds: with the library the network is taken for the name of a column and the arguments reach the function in
  the wrong order; without it the SQL text calls `cidr_match`, which nothing registers, in the same wrong order; `ip IN (net)`
  compares the text (C83).
* `ipmask` reads its mask as a whole number, so that each documented mask gives a missing value (C84).
* With the library `tonumber`, `printf`, `log` and `tostring` of one argument always raise: literals are handed to functions that
  only take columns (C61).
* `relative_time` that snaps to weeks goes back to Monday instead of Sunday, so its result is always wrong; specifiers without an at
  sign (`-1d`), with years, quarters or week days and `+d@d` are refused, or raise with the library; with the library
  `relative_time(now(), "@d")` raises (C85).

Runtime library
* Nineteen eval functions cannot be called with columns (parameters annotated `int`, `str`, `list` ...), and `log`,
  `round`, `max`, `min` not with two arguments (C61); the bit functions give a null column and `case` an object that is no
  column (C62).
* The wrapper objects that most library functions return have no operators, so `f(x) = 1`, `NOT f(x)`, `f(x) + 1` and
  `where f(x)` raise when the library is allowed (C63).
* `eval`, `stats`, `fillnull`, and `search` without an index, raise as the first command; so do an assignment or required
  value given twice, and field names or labels that Python does not take as keywords, such as `a.b` (C64-C67).
* With the library a later `index=` is ignored, a bare word is a boolean column, and a test of `host`, `source` etc. is
  dropped (C65).
* `sum`, `list`, `stdevp`, `percentile95` and `count(x)` raise in `stats`; `dc` is approximate with the library and exact
  without (C66).
* `datamodel` always raises, `tstats` raises after other commands and loses PREFIX; for a node name without a dot the plain
  translation reads a table whose name ends in a dot (C67).
* An IPv6 address with a letter in it is no address to the reader, because groups are read as decimal numbers: in `search`
  the condition `src=2001:db8::1` compares with a column of that name, while `src=1080:0:0:0:0:0:0:1` compares with the
  text (C70).
* `join` pairs an event with all matching events of the subsearch, not with one (`max=1`), and its `outer` is a full outer join
  where SPL's is a left one, so there can be more rows than described (C87_too_many).  After it there are two columns of every
  common name, the fields joined on among them: `... | join id [...] | table id` fails in Spark as ambiguous (C87_ambiguous).
- Multivalue functions assume arrays.  `mvcount(x)` is an error in Spark if `x` has a single value, and `mvappend(a, b)` with
  single values is one text, `a` followed by `b`, and missing if one of them is (C88_mvcount_single_fails, C88_mvappend_fails).
  The delimiter of `split` is used as a regular expression: `split(ip, ".")` has only empty pieces and `split(x, "|")` the single
  characters (C88_split_fails).  `mvzip` fills up the shorter field instead of stopping at its end (C88_mvzip_lengths_fail).
- Time bounds of a search are treated as fields: with `earliest=1600000000` a column `earliest` is compared, which leaves no
  events, and with a relative time such as `earliest=-24h` or `earliest="-1d@d"` no query is translated (C89_number_is_compared,
  C89_relative_refused).
- A stage with an unknown or misspelt command is no error: `index=web | transaction id` keeps the events that have the words
  "transaction" and "id" in them.  So does a known command if what follows is not in its form, as in `tail abc` or `table`
  (C90_unknown_is_a_search, C90_arguments_fail).
- Options without a translation are refused by `tstats`, `rex`, `join`, `top` and `rare` only in part, others have no effect: for
  example `row=false` of `addtotals`, `bins` of `bin`, `delim` of `stats`, `showcount=false` of `top` (C91_ignored).  Options that
  do not exist are accepted: `top limi=1 x` and `makeresults cuont=5` mean `top x` and `makeresults` (C91_unknown_option).
- A bare term is looked for as a part of the text of the event instead of as a term (C92_part_of_a_word), and `_` and `%` in it are
  wildcards of SQL (C92_underscore, C92_percent): `search 404` keeps `4045`, `search user_id` keeps `userXid`.
- Field names with a dot are written into column references as they are, where Spark takes the dot for the access to a part of a structure
  (C93_dot_fails); `spath user.name | search user.name=5` is refused by Spark (C93_spath_query).
- `tstats` without a data model (`tstats count where index=web`) is refused without the library (C94_index_fails); with one, `earliest=5` is
  taken for a field and bare terms are not read (C94_conditions_fail).
- `where src=dest` compares the field `src` with the text `dest` (C95_word_is_a_text, for all words), while `search src=dest` compares two fields
  (C74_word_is_a_column): exactly reversed.  `where` never reads anything but a field on the left of a comparison (C95_sides), so `where len(x)>5` and
  `where a+b>3` are refused (C95_refused).
- In `where` the letters NOT and AND are split off any longer word (C53_not_splits, C53_and_splits, for all conditions): `where notes=5` is NOT es=5.
- `fillnull` without the library fills columns of texts only: `fillna("0")` passes over numbers (C96_number_stays_null).
- Without blanks `a-b` and `bytes/1024` are fields of that name, and `a*b` is a pattern that is refused (C97).
- `index=a index=b` gives the events of both indexes, `index=web*` reads a table of that name, and `NOT index=a` and `index IN (a, b)`
  read `main` only (C99).
- A refused query can take exponential time: every `NOT (` is tried in two ways, each of which parses the rest of the text again,
  so `search NOT (NOT (NOT (…` of 300 characters makes more than `10^17` calls before it is refused (C101).
- An accepted query can, too: `multisearch` with a single search in brackets is parsed once for `multisearch`, which wants two, and again as a
  search for the word `multisearch`, so nested ones double the work at each level (C101).
- The parser nests its calls as deep as the parentheses of the query, so an accepted query can need any amount of stack (C102); in
  Rust a stack overflow aborts the Python process.
- `memk` writes its argument four times into the program, so nested calls of it make a standalone program exponentially longer than
  the query: `eval x=memk(memk(…))` with 30 calls is 188 characters and its program more than `10^18` (C103).
- Where the library may be used, a call it cannot do is translated twice, with everything inside it: `relative_time` nested 30 deep takes more than
  `10^9` translations (C104).
- A first search with `source` and `sourcetype` but no index reads the table `<source>_<sourcetype>_silver` with the library and `main` without it (C65).
- A macro whose definition calls it again after some text, or two macros defined by each other, make substitute_macros recurse until Python's limit;
  the guard only recognises a text that does not change (C105).
- FolderMacroLoader uses the name of the macro as a file pattern: `` `s*` `` returns whatever single macro starts with `s` (C106).
- FolderMacroLoader keeps the first definition it read for a name; a changed file is not seen (C107).
- A field name in double quotes keeps the quotes: `table "a b"` and `fields "a b"` fail, `rename "a b" AS c` does nothing, `BY "a b"` gives text that is
  not Python (C108).
- Fields named `t` or `f` cannot be used: `eval z=t` assigns a truth value (and the program has `F.lit(true)`, which is not Python's `True`), `eval t=1`,
  `rename t as z` and `stats count by f` are refused (C109).
- A command without arguments directly before a bar is read as a search for its name: `addtotals|table x` searches for the text `addtotals`, while
  `addtotals |table x` adds the totals (C110).
- The classes of `datamodel`, `rare`, `spath`, `tail`, `top` and `tstats` are not registered in the module `ast`, though queries with these commands
  parse (C111).
- A Kelvin sign (U+212A) in the place of the `k` of `week` or `weeks` makes the parser panic instead of refusing or reading the text: nom compares
  `to_lowercase` and then splits after the number of bytes of the keyword, inside the character (C112).
- `search host=example.in` is refused, as is every unquoted dotted value with a reserved word as its first or last word; in the condition of `tstats`,
  `host=a.or source=b` is the host `a.` or the source `b` (C113).
- In the interactive translator a text that cannot be parsed leaves the program of an earlier text in its pane, unmarked, and it is
  this program that is copied (C100).
- A `%%spl --no-use-runtime` cell with `mvzip` raises unless the notebook itself has imported the function module as `F`: the lambda
  expression is run with the notebook's variables as globals and cannot see the `F` the magic provides as a local (C98_lambda_fails).

## Panics

Sites in `/repo/src` outside tests that could panic, and why they do or do not.  Only the `join` site is a panic value in the
model (`panicsC`); the others were ruled out by reading, except where a theorem is named.

| site | verdict |
|---|---|
| `cmd_join/pyspark.rs:48` `join_as_binaries(..).unwrap()` | panics for an empty field list; the grammar never produces one: `C40_no_panic`, for every parsed query |
| `cmd_search/spl.rs:46`, `spl/parser.rs:1302,1312,1324` `combine_all_expressions(..).unwrap()` | the lists come from `separated_list1` and are not empty |
| `spl/parser.rs:97,108` | guarded by `verify` |
| `spl/parser.rs:611` | digits, a dot and digits always parse as `f64` |
| `spl/parser.rs:705` | `all_consuming` leaves no text; no parser uses `cut` or a streaming combinator |
| `cmd_search/pyspark.rs:142` | the same names are matched just before |
| `cmd_search/pyspark.rs:189` | guarded by `!indices.is_empty()` |
| `functions/eval_fns.rs:251-312` indexing and `unwrap` in `case`, `validate` | guarded by the parity and `is_some` checks |
| `functions/eval_fns.rs:578-605` in `avg`, `max`, `min` | guarded by `!mapped_args.is_empty()` |
| `functions/mod.rs:78-102` argument indexing | guarded by `ensure!` |
| `functions/stat_fns.rs:119`, `pyspark/transpiler/utils.rs:7-15` indexing | guarded by the match on the length |
| `pyspark/ast.rs:104,128,143,161` | the conversion is `Into`, which cannot fail |
| `pyspark/ast.rs:974` | guarded by the length check |
| `pyspark/transpiler/expr.rs:223-226` | constant patterns; the slice is cut at ASCII quotes |
| `cmd_head/pyspark.rs:35-44`, `functions/eval_fns.rs:520` `i64` sums | wrap in a release build, which is what is modelled; a debug build panics on overflow |

The conversion of a negative limit with `as u64` wraps and does not panic (C33).  Stack overflow for deeply nested input
(C102 shows that the depth is not bounded) and panics inside dependencies (`nom` apart from C112, `regex-syntax`, `pyo3`) are not modelled.

## Trusted base

* Lean's kernel (4.33.0), checked again by replaying the compiled modules.
* The axioms `propext`, `Quot.sound` and `Classical.choice`, per theorem as listed above.  No axioms are added; there is
  no `sorry`, `native_decide` or `bv_decide`.  `decide +kernel` is used for concrete witnesses and finite tables only.
* The faithfulness of the definitions in `Nom`, `Spl`, `Py`, `Tr` to the cited source lines (reading, plus the
  repository's own expected outputs in `Tests/`), and of the specifications to SPL, Python and Spark.
* For the runtime library (`Rt`): how pydantic's `validate_call` converts and rejects arguments, and that columns and `F`
  functions raise when given a wrapper object; both are written out at the head of `Rt/Library.lean` and
  `Rt/Commands.lean`.
* For the comparison of rows (C64-C68) Spark is any interpretation of `Spec/Table: Spark` that is `Lawful`: a conjunction
  `&` holds when both sides do, `True` holds, and grouping by a column is grouping by its name.

## What is modelled and what is not

Modelled: `src/spl/parser.rs`, `src/spl/operators.rs`, `src/spl/ast.rs`, `src/spl/macros.rs`, every
`src/commands/cmd_*/spl.rs` and `pyspark.rs`, `src/commands/regex_utils.rs`, `stats_utils.rs`, `src/functions/*.rs`,
`src/pyspark/*.rs` and `src/pyspark/transpiler/*.rs`, `src/lib.rs: render_pyspark`, `python/spl_transpiler/macros.py`,
`python/spl_transpiler/utils.py`, `live_translator.py`, `python/spl_transpiler/runtime` (`base.py`, `config.py`, `utils.py`, `magic.py`,
`functions/*.py`, `commands/*.py`).  A command whose `pyspark.rs` only reports an error is modelled as that error.

Simplified or left out:
* The running time and the stack of the parser, apart from the number of its recursive calls (C101) and how deep they nest (C102).
* `f64` rounding and printing: a floating literal is kept as its digits.
* Case folding in `tag_no_case` is ASCII.  nom compares `char::to_lowercase`, under which the Kelvin sign (U+212A) also
  equals `k`.  C112 shows with a byte-exact model that the two agree on all texts without that character; on texts with it
  the other theorems say nothing about the code.
* In `runtime/utils.py` and `magic.py`: `ast.parse` (a parameter that reads generated programs by the rules of `Spec/Python`), the display
  of the code, `argparse`.
* The `black` formatter (a parameter), pyo3 glue, logging, error messages.
* Spark itself: the generated program is interpreted by the small specifications of `Spec/Meaning` and `Spec/Table`.  In
  `Spec/Meaning` a reference `F.col('n')` has the value of the field `n`; C93 says for which names Spark agrees.
* In `live_translator.py`: the widgets and the drawing of the syntax tree.  `__main__.py`, and the attributes and constructors in `src/spl/python.rs` (the names of the Python classes are modelled, C111).
* `src/spl/to_spl.rs` (commented out in the source), `src/spl/utils.rs` (test helpers), `src/commands/_sample`.

## Mutation tests

`seeded/LOG.jsonl` records, for each wrong variant of a definition, the edit, the claim it breaks, the theorems whose proofs
fail, and what was tightened when none did.  The mutants are built in a scratch copy; failing proofs are replaced by
`sorry` there so that all affected theorems are found, not only the first.
