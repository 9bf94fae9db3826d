{"id": "C01", "title": "Parsing always terminates with one answer", "statement": "For every text, parse(text) either returns one pipeline or raises an error; it never loops forever, and the answer is the unique solution of the recursive grammar (expressions inside calls inside sub-searches inside quoted searches, to any depth).", "quantifier": "every string, every nesting depth", "why_tests_cant": "Non-termination or dependence on recursion depth only shows on unboundedly nested inputs; tests sample a handful of shallow ones.", "anchors": ["src/lib.rs: parse", "src/spl/parser.rs: expr_base, expr3..expr9_with_whitespace, sub_search, pipeline, quoted_search, logical_expression"]}
{"id": "C02", "title": "A successful parse accounts for the whole text", "statement": "If parse(text) succeeds, the text is exactly: optional leading pipe, then one contiguous segment per returned command, in order, separated by pipes and whitespace, then whitespace. Nothing is skipped, reordered or read twice.", "quantifier": "every string that parses", "why_tests_cant": "Silent truncation depends on where an arbitrary suffix starts; tests only check texts they expect to parse.", "anchors": ["src/lib.rs: parse", "src/spl/parser.rs: pipeline, command", "src/commands/spl.rs: SplCommand"]}
{"id": "C03", "title": "Surrounding whitespace and a leading pipe are irrelevant", "statement": "Adding whitespace before or after a query, or a leading '|', does not change the parsed pipeline.", "quantifier": "every query text, every run of whitespace", "why_tests_cant": "The parser must agree with itself on infinitely many padded variants of every text.", "anchors": ["src/spl/parser.rs: pipeline, ws"]}
{"id": "C04", "title": "Command names are case-insensitive", "statement": "Changing the ASCII letter case of a command keyword at the start of a pipeline stage does not change which command is parsed or its contents.", "quantifier": "every command keyword, every casing, every argument text", "why_tests_cant": "2^n casings times every argument text.", "anchors": ["src/commands/spl.rs: match_name", "src/spl/parser.rs: command"]}
{"id": "C05", "title": "Integer literals are read exactly", "statement": "The decimal text of every integer n with |n| <= 2^63-1 (with its minus sign when negative; counts also take a plus sign) is read as exactly n, and digits beyond the 64-bit range are never read as some other integer.", "quantifier": "all integers and all digit strings", "why_tests_cant": "The domain is 2^64 values plus all longer digit strings; overflow sits on a boundary tests rarely hit.", "anchors": ["src/spl/parser.rs: int, constant"]}
{"id": "C06", "title": "Quoted strings are preserved verbatim", "statement": "The text between double quotes in a query becomes the string constant unchanged.", "quantifier": "every string content", "why_tests_cant": "Whitespace, escape and wildcard handling interact for contents no test lists.", "anchors": ["src/spl/parser.rs: double_quoted, _double_quoted_content, str_value, constant"]}
{"id": "C07", "title": "Reserved words are never field names", "statement": "No bare (unquoted) identifier returned by the parser as a field, function name or option key is one of the reserved words, in any letter case.", "quantifier": "every text, every reserved word, every casing", "why_tests_cant": "Requires all casings of ~60 words in every grammar position.", "anchors": ["src/spl/parser.rs: _is_not_reserved_word, token, field"]}
{"id": "C08", "title": "Documented operator precedence", "statement": "In eval/where/search expressions NOT, * and /, + and -, concatenation, comparison, AND, OR bind in this order, tightest first (the table in the source comment), so `a AND b OR c` means `(a AND b) OR c`.", "quantifier": "all operands and all operator sequences", "why_tests_cant": "The grammar admits unboundedly many operator sequences.", "anchors": ["src/spl/parser.rs: expr3..expr9_no_whitespace (comment 961-970)", "src/spl/operators.rs: PRECEDENCE"]}
{"id": "C09", "title": "Subtraction and division associate to the left", "statement": "`a - b - c` means `(a - b) - c` and `a / b / c` means `(a / b) / c` in the parsed expression.", "quantifier": "all operands, all chain lengths", "why_tests_cant": "Chains of any length with any operands.", "anchors": ["src/spl/parser.rs: expr3, expr4"]}
{"id": "C10", "title": "Explicit parentheses always win", "statement": "Printing any expression tree built from fields, integers and binary operators with full parentheses and parsing it again gives back the same tree.", "quantifier": "every expression tree", "why_tests_cant": "Infinite family of trees; parser backtracking makes each nesting a new case.", "anchors": ["src/spl/parser.rs: expr_base, expr, parenthesized, call"]}
{"id": "C11", "title": "Command options: last value wins, order otherwise irrelevant", "statement": "When an option key is repeated the last value is used; permuting options with distinct keys does not change the parsed command; missing keys give the documented default; a value of the wrong type makes the parse of that command fail rather than fall back to the default.", "quantifier": "every option list", "why_tests_cant": "All permutations and repetitions of key/value lists.", "anchors": ["src/spl/ast.rs: ParsedCommandOptions", "src/spl/parser.rs: command_options", "src/commands/spl.rs: match_options"]}
{"id": "C12", "title": "Macro detection loses nothing", "statement": "When detect_macros(text) succeeds, the returned prefixes, macro call texts and suffix concatenate back to the input, no prefix or suffix contains a backtick, and a text without backticks is returned whole with no macro calls.", "quantifier": "every text", "why_tests_cant": "Any text, with any number of macro calls.", "anchors": ["src/spl/macros.rs: spl_macros", "src/lib.rs: detect_macros"]}
{"id": "C13", "title": "Macro arguments are substituted simultaneously and literally", "statement": "substitute_macros replaces each $name$ of the definition by the given argument text, without re-interpreting text that came from another argument and without interpreting escapes in it.", "quantifier": "every macro definition and argument texts", "why_tests_cant": "Argument texts are arbitrary, including ones that contain $other$ or backslashes.", "anchors": ["python/spl_transpiler/macros.py: substitute_macros"]}
{"id": "C14", "title": "Pipelines compose", "statement": "The code rendered for a pipeline is the result of applying each command, in order, to the data frame of the commands before it: transforming A followed by B equals transforming A and then continuing with B; a failure of any command fails the whole render and no partial code is returned.", "quantifier": "all pipelines of all lengths, both modes", "why_tests_cant": "All ways of splitting all pipelines.", "anchors": ["src/pyspark/transpiler/mod.rs: TransformedPipeline::transform, PipelineTransformer", "src/lib.rs: render_pyspark"]}
{"id": "C15", "title": "Unsupported commands are always reported", "statement": "A pipeline containing a command that has no translation (collect, dedup, eventstats, format, inputlookup, map, mvcombine, mvexpand, return, streamstats) at any position or inside any sub-search that is translated makes render_pyspark fail, in both modes; it is never dropped silently.", "quantifier": "all pipelines, all positions", "why_tests_cant": "All pipelines around the unsupported command.", "anchors": ["src/commands/cmd_*/pyspark.rs", "src/pyspark/transpiler/mod.rs"]}
{"id": "C16", "title": "Allowing the runtime never loses a translation", "statement": "If a pipeline renders with allow_runtime=False then it also renders with allow_runtime=True.", "quantifier": "all pipelines", "why_tests_cant": "Relates two whole runs for every pipeline.", "anchors": ["src/pyspark/transpiler/mod.rs: transform", "src/functions/eval_fns.rs: eval_fn", "src/functions/stat_fns.rs: stats_fn"]}
{"id": "C17", "title": "Standalone output never uses the runtime library", "statement": "With allow_runtime=False the generated program is one expression with no assignments: no data frame produced by a runtime command and no `df_N` name occurs anywhere in it.", "quantifier": "all pipelines", "why_tests_cant": "All pipelines, including nested sub-searches.", "anchors": ["src/pyspark/base.rs: RuntimeSelection", "src/pyspark/ast.rs: DataFrame", "src/functions/*.rs"]}
{"id": "C18", "title": "Generated data-frame names are unique", "statement": "All `df_N` variables assigned by one rendered program are pairwise different, including those created inside sub-searches and those skipped by a failed runtime attempt.", "quantifier": "all pipelines in runtime-allowed mode", "why_tests_cant": "Depends on the shared counter across every nesting and every fallback history.", "anchors": ["src/pyspark/ast.rs: generate_unique_name, DataFrame::runtime", "src/pyspark/base.rs: PysparkTranspileContext"]}
{"id": "C19", "title": "Every data-frame variable is assigned before it is used", "statement": "In a rendered runtime-mode program every statement is one line `df_N = commands.f(...)`, and each `df_N` mentioned in a statement or in the final expression was assigned by an earlier statement.", "quantifier": "all pipelines in runtime-allowed mode", "why_tests_cant": "Any mixture of runtime and standalone commands in any order.", "anchors": ["src/pyspark/ast.rs: DataFrame::to_spark_query", "src/pyspark/base.rs: PythonCode"]}
{"id": "C20", "title": "Rendering is deterministic", "statement": "Rendering the same pipeline twice gives the same program.", "quantifier": "all pipelines, all hash-iteration orders", "why_tests_cant": "Hash-set iteration order varies per process; a test run sees one order.", "anchors": ["src/commands/cmd_search/pyspark.rs: split_conditions, transform_standalone"]}
{"id": "C21", "title": "Boolean and comparison expressions keep their meaning", "statement": "For every expression of fields, constants, comparisons, arithmetic, AND, OR, NOT and IN that is translated, the column expression evaluates, on every row, to the same value as the source expression.", "quantifier": "all expressions, all rows", "why_tests_cant": "Semantic equality over every tree and every row.", "anchors": ["src/pyspark/transpiler/expr.rs: to_spark_expr", "src/pyspark/transpiler/utils.rs: join_as_binaries"]}
{"id": "C22", "title": "Operator spelling does not matter", "statement": "Operators written in lower case (and, or, not) or as `::` mean the same as AND, OR, NOT and `=` in the generated code.", "quantifier": "all expressions, all spellings the parser accepts", "why_tests_cant": "All casings at all positions of all trees.", "anchors": ["src/pyspark/transpiler/expr.rs: SIMPLE_OP_MAP", "src/spl/operators.rs: pattern"]}
{"id": "C23", "title": "The rendered column text has exactly one reading", "statement": "Reading the rendered Python text of a column expression back with Python's precedence rules gives the expression tree that was rendered; distinct trees never render to the same text.", "quantifier": "all column expression trees", "why_tests_cant": "Every tree and every operator context.", "anchors": ["src/pyspark/ast.rs: ToSparkQuery for ColumnLike, ToSparkQuery for Expr"]}
{"id": "C24", "title": "String constants cannot escape their Python literal", "statement": "A string constant of the query appears in the generated code as a Python string literal whose value is that constant.", "quantifier": "all string constants", "why_tests_cant": "Any content, including quotes, backslashes and newlines.", "anchors": ["src/pyspark/ast.rs: PyLiteral::from, ColumnLike::to_spark_query", "src/pyspark/transpiler/expr.rs"]}
{"id": "C25", "title": "IN lists are disjunctions", "statement": "`f IN (v1, ..., vn)` is true of a row exactly when f equals (or, for a wildcard, matches) at least one vi; with an empty list it is never true.", "quantifier": "all fields, all value lists, all rows", "why_tests_cant": "All list lengths and contents.", "anchors": ["src/pyspark/transpiler/expr.rs: FieldIn"]}
{"id": "C26", "title": "Wildcards mean any substring", "statement": "`f = \"p\"` with `*` in p is true of exactly the strings obtained from p by replacing each `*` by any text, all other characters standing for themselves.", "quantifier": "all patterns, all strings", "why_tests_cant": "All pattern/string pairs.", "anchors": ["src/pyspark/transpiler/expr.rs: wildcard rhs"]}
{"id": "C27", "title": "Bare search terms look in the raw event, structure is kept", "statement": "In a search, a bare term becomes a case-insensitive containment test on `_raw`, comparisons stay comparisons, and AND/OR/NOT structure is unchanged; the rewrite leaves no bare term at a Boolean position and applying it to already rewritten conditions changes nothing.", "quantifier": "all search conditions", "why_tests_cant": "All Boolean trees.", "anchors": ["src/pyspark/transpiler/expr.rs: into_search_expr, _strip_quotes"]}
{"id": "C28", "title": "index= selection splits off without changing the rest of the condition", "statement": "For a search that is translated standalone, the tables read are exactly the index= values on the conjunctive spine, and the remaining filter is equivalent, on every row, to the original condition with those index tests taken as true; an index= test under OR is always an error.", "quantifier": "all search conditions, all rows", "why_tests_cant": "All trees and rows.", "anchors": ["src/commands/cmd_search/pyspark.rs: split_conditions, transform_standalone"]}
{"id": "C29", "title": "A later search only narrows", "statement": "A search command in the middle of a pipeline filters the rows produced by the previous commands; it never replaces them.", "quantifier": "all pipelines", "why_tests_cant": "Every prefix and every condition.", "anchors": ["src/commands/cmd_search/pyspark.rs: transform_standalone"]}
{"id": "C30", "title": "eval assigns in order", "statement": "`eval a=e1, b=e2` gives the same program as `eval a=e1 | eval b=e2`; each assignment adds or replaces exactly its column and no alias given inside the expression leaks into the column name.", "quantifier": "all assignment lists", "why_tests_cant": "All lists and all splits.", "anchors": ["src/commands/cmd_eval/pyspark.rs", "src/pyspark/ast.rs: with_column"]}
{"id": "C31", "title": "rename renames simultaneously", "statement": "`rename a AS x, b AS y` gives every listed field its new name based on the names before the command.", "quantifier": "all rename lists, all schemas", "why_tests_cant": "All lists, including swaps and chains.", "anchors": ["src/commands/cmd_rename/pyspark.rs"]}
{"id": "C32", "title": "fields - removes, fields + keeps", "statement": "`fields + list` keeps exactly the listed fields in order; `fields - list` keeps exactly the others.", "quantifier": "all field lists and schemas", "why_tests_cant": "All lists.", "anchors": ["src/commands/cmd_fields/pyspark.rs", "src/commands/cmd_fields/spl.rs"]}
{"id": "C33", "title": "Row limits are exactly the number asked for", "statement": "head N / tail N / top N / sort N limit the result to N rows for every N >= 0 and reject negative N; `head count<N` and `head count<=M` with M=N-1 agree.", "quantifier": "all 64-bit integers", "why_tests_cant": "Boundary and negative values of a 64-bit range.", "anchors": ["src/commands/cmd_head/pyspark.rs", "src/commands/cmd_tail/pyspark.rs", "src/commands/cmd_top/pyspark.rs", "src/commands/cmd_sort/pyspark.rs"]}
{"id": "C34", "title": "sort keeps key order and direction", "statement": "The generated ordering lists the sort keys in query order, descending exactly for keys marked '-', or, with a trailing `desc`, with all directions inverted.", "quantifier": "all key lists", "why_tests_cant": "All lists of keys and signs.", "anchors": ["src/commands/cmd_sort/pyspark.rs", "src/commands/cmd_sort/spl.rs"]}
{"id": "C35", "title": "stats columns: one per function, named as asked", "statement": "stats produces exactly one aggregate column per listed function, in order, named by its AS alias when given, and groups by exactly the BY fields.", "quantifier": "all function lists and BY lists", "why_tests_cant": "All lists and nestings of aliases.", "anchors": ["src/commands/cmd_stats/pyspark.rs", "src/functions/stat_fns.rs: stats_fn", "src/commands/stats_utils.rs"]}
{"id": "C36", "title": "top and rare count the listed fields", "statement": "top/rare group by the listed fields together with the BY fields, the ordering and the percentage refer to the count column under its configured name, and showcount/showperc decide exactly which columns appear.", "quantifier": "all options and field lists", "why_tests_cant": "All combinations of options.", "anchors": ["src/commands/cmd_top/pyspark.rs", "src/commands/cmd_rare/pyspark.rs"]}
{"id": "C37", "title": "lookup adds the looked-up columns", "statement": "The program for `lookup t keys OUTPUT cols` reads table t, joins it on the keys and adds the output columns.", "quantifier": "all lookup commands", "why_tests_cant": "All key and output lists.", "anchors": ["src/commands/cmd_lookup/pyspark.rs", "src/commands/cmd_lookup/spl.rs: lookup_output"]}
{"id": "C38", "title": "fillnull touches only the listed fields", "statement": "`fillnull value=v f1 f2` replaces nulls only in f1, f2; without a list it applies to all fields.", "quantifier": "all values and field lists", "why_tests_cant": "All lists.", "anchors": ["src/commands/cmd_fill_null/pyspark.rs"]}
{"id": "C39", "title": "bin buckets the field it is given", "statement": "`bin span=S f [AS g]` buckets the values of f and stores the bucket in g (or f).", "quantifier": "all fields, spans and aliases", "why_tests_cant": "All field names.", "anchors": ["src/commands/cmd_bin/pyspark.rs"]}
{"id": "C40", "title": "join matches on every listed field", "statement": "`join f1,...,fn [sub]` requires equality on every listed field and only on those, with the join kind asked for, keeps the left and right data in place, and rejects options it cannot honour; it never panics on a parsed query.", "quantifier": "all field lists, sub-searches and options", "why_tests_cant": "All lists; panic freedom.", "anchors": ["src/commands/cmd_join/pyspark.rs", "src/commands/cmd_join/spl.rs"]}
{"id": "C41", "title": "multisearch unions all of its searches", "statement": "The program for multisearch is the union of exactly its sub-searches, each once, in order, each translated as if it stood alone.", "quantifier": "all lists of sub-searches", "why_tests_cant": "All list lengths.", "anchors": ["src/commands/cmd_multi_search/pyspark.rs"]}
{"id": "C42", "title": "Time formats are translated directive by directive", "statement": "A strftime-style format is translated by replacing each directive by its Spark pattern independently of its neighbours, `%%` becoming a literal percent sign; a directive without equivalent is always rejected.", "quantifier": "all format strings", "why_tests_cant": "All format strings; sequential replacement interacts across directives.", "anchors": ["src/pyspark/transpiler/utils.rs: convert_time_format, CONVERSIONS"]}
{"id": "C43", "title": "case and validate pick the first matching branch", "statement": "The column for case(c1,v1,...,cn,vn) evaluates to the vi of the first true ci and to null if none is true; validate gives the vi of the first ci that is not true; an odd or empty argument list is rejected.", "quantifier": "all argument lists, all rows", "why_tests_cant": "All list lengths and truth assignments.", "anchors": ["src/functions/eval_fns.rs: case, validate, if"]}
{"id": "C44", "title": "mvindex selects the indexed values", "statement": "mvindex(x, start[, end]) denotes the element at start, or the elements from start to end inclusive, with negative positions counting from the end.", "quantifier": "all arrays and index pairs", "why_tests_cant": "All index pairs including negative and boundary ones.", "anchors": ["src/functions/eval_fns.rs: mvindex"]}
{"id": "C45", "title": "Aliases never nest and the outermost wins", "statement": "No translated expression contains an alias below its top; stripping aliases is idempotent; re-aliasing replaces the name; operators, filters and assignments never carry an alias of an operand.", "quantifier": "all expressions", "why_tests_cant": "All trees.", "anchors": ["src/pyspark/alias.rs", "src/pyspark/ast.rs: constructors", "src/functions/mod.rs: function_transform"]}
{"id": "C46", "title": "No argument of a function is silently ignored", "statement": "A call to a function with a fixed number of parameters fails unless exactly that many arguments are given, and a function the tool does not know is passed through with its name and all arguments in order.", "quantifier": "all functions and argument lists", "why_tests_cant": "All arities of all functions.", "anchors": ["src/functions/mod.rs: function_args, function_transform", "src/functions/eval_fns.rs: eval_fn_bare"]}
{"id": "C47", "title": "Time units are recognised by their longest spelling", "statement": "A number followed by any accepted unit spelling is read as that number of exactly that unit; no unit spelling is cut short in favour of a shorter one (5mon is months, not minutes).", "quantifier": "all numbers and unit spellings, any following text", "why_tests_cant": "All spellings, casings and continuations.", "anchors": ["src/spl/parser.rs: time_unit, time_span, constant"]}
{"id": "C48", "title": "Search keyword arguments of the runtime call are valid and faithful", "statement": "The runtime form of a search passes every conjunct of the condition exactly once, as a positional or keyword argument, and no keyword twice.", "quantifier": "all search conditions", "why_tests_cant": "All conjunct lists.", "anchors": ["src/commands/cmd_search/pyspark.rs: transform_for_runtime, break_down_ands"]}
{"id": "C49", "title": "Data-model names are complete", "statement": "The table read by datamodel/tstats for a node is named by the data model and the full node path.", "quantifier": "all model and node names", "why_tests_cant": "All names.", "anchors": ["src/commands/cmd_data_model/pyspark.rs"]}
{"id": "C50", "title": "Every named capture group becomes a column", "statement": "rex in extraction mode adds exactly one column per capture group of the pattern, in order, extracting that group's index from the configured field, and changes nothing else.", "quantifier": "all patterns and group lists", "why_tests_cant": "All group nestings.", "anchors": ["src/commands/cmd_rex/pyspark.rs", "src/commands/regex_utils.rs: get_groups"]}
{"id": "C51", "title": "Formatting never loses the program", "statement": "With format_code=True the returned text is either the formatter's output or exactly the unformatted program; a formatter failure never makes render fail.", "quantifier": "all programs, all formatter behaviours including failures", "why_tests_cant": "All failure modes of an external formatter.", "anchors": ["src/lib.rs: render_pyspark", "src/format_python.rs: safe_format_python_code"]}
{"id": "C52", "title": "A parsed query is well formed everywhere", "statement": "Every command of a pipeline returned by parse, at any depth of sub-searches, has the arguments it needs (join, table, fields, rename, sort, stats, tstats and top have a non-empty list, multisearch has at least two searches) and every expression in it is built only from the documented operators, from constants in the 64-bit range, and from constants in IN lists; no internal-only node (null, bare option pair, aliased field) occurs.", "quantifier": "every query text that parses, every command and expression in it", "why_tests_cant": "Holds for every text the grammar accepts, at every nesting depth.", "anchors": ["src/spl/parser.rs: pipeline, command, expr", "src/commands/cmd_*/spl.rs", "src/commands/cmd_join/pyspark.rs: unwrap"]}
{"id": "C53", "title": "Keywords are recognised only as whole words", "statement": "NOT, AND and OR are recognised in a condition only as whole words: a field whose name begins with the letters of a keyword (notes, android, orders) is read as that field.", "quantifier": "all names, all conditions", "why_tests_cant": "Tests use a handful of field names; the defect shows only for names that happen to begin with a keyword.", "anchors": ["src/spl/parser.rs:1077-1114", "src/spl/parser.rs:1299-1331"]}
{"id": "C54", "title": "Macro expansion leaves no macro calls", "statement": "The text returned by substitute_macros contains no macro call any more: every call, also one produced by expanding another, has been replaced by its definition.", "quantifier": "all texts, all macro tables, any nesting of calls", "why_tests_cant": "Depends on every combination of definitions, including definitions that call other macros or themselves.", "anchors": ["src/spl/macros.rs: substitute_macros", "python/spl_transpiler/macros.py: substitute_macros"]}
{"id": "C55", "title": "Text without macro calls is unchanged by macro expansion", "statement": "substitute_macros returns a text that contains no macro call unchanged.", "quantifier": "all texts without a backtick, all macro tables", "why_tests_cant": "Universal over texts.", "anchors": ["python/spl_transpiler/macros.py: substitute_macros"]}
{"id": "C56", "title": "Macro arguments are checked against the definition", "statement": "A macro call is expanded only when it supplies exactly the arguments its definition declares: a wrong number of arguments or an unknown argument name is an error.", "quantifier": "all definitions and all calls", "why_tests_cant": "All combinations of declared and supplied arguments.", "anchors": ["python/spl_transpiler/macros.py: substitute_macros"]}
{"id": "C57", "title": "Documented options and forms can be written", "statement": "Every option and form the commands document can be given in a query: top and rare accept limit=N (documented as the same as N), join accepts the documented types inner, outer and left, lookup accepts OUTPUTNEW, tstats accepts BY PREFIX(field), the documented functions in, like and lookup can be called, and fields, options and names may be given in the documented order and spelling.", "quantifier": "all queries, at any depth; all texts after the option", "why_tests_cant": "A universal claim over what may follow; the failure comes from an unrelated reserved-word list.", "anchors": ["src/commands/cmd_top/spl.rs:66-69", "src/commands/cmd_rare/spl.rs:66-69", "src/commands/cmd_join/spl.rs", "src/spl/parser.rs: _is_not_reserved_word", "src/commands/cmd_lookup/spl.rs: lookup_output", "src/commands/cmd_t_stats/spl.rs", "src/functions/eval_fns.rs:276-285"]}
{"id": "C58", "title": "Words come from the query", "statement": "Every field, function, alias and data set name in a parsed query, and every other text in it (string values, options, time units, operators), was written in the query text, or in a search quoted inside it, or is one of a fixed list of defaults; in particular no character appears in a name that is not in the query or in that list.", "quantifier": "all query texts, all commands, all depths of sub-search", "why_tests_cant": "Universal over texts and over every place of the grammar where a text is kept.", "anchors": ["src/spl/parser.rs: token, field, double_quoted, single_quoted, unescape in map search", "src/commands/*/spl.rs: defaults"]}
{"id": "C59", "title": "The generated program is readable Python", "statement": "The text render_pyspark returns parses as a Python program made of assignments `df_N = commands.f(...)`, one on each line, followed by one expression; without the runtime library it is a single expression, and it refers only to spark, F, functions, commands and Python's constants.", "quantifier": "all pipelines, both modes", "why_tests_cant": "Every expression, command and order of commands; the failures need particular combinations (a runtime command after a standalone one after a runtime one, sub-searches, keywords as names).", "anchors": ["src/pyspark/ast.rs: to_spark_query", "src/pyspark/base.rs: PythonCode", "src/commands/*/pyspark.rs"]}
{"id": "C60", "title": "The concatenation operator concatenates", "statement": "An expression `a . b` is translated to a Python expression that concatenates the two columns (F.concat or an equivalent), never to attribute access.", "quantifier": "all field names", "why_tests_cant": "Universal over names; the output looks like the query, so tests comparing text accept it.", "anchors": ["src/spl/operators.rs:46 Concatenate", "src/pyspark/transpiler/expr.rs:11-16,61-66", "src/pyspark/ast.rs:220-259"]}
{"id": "C61", "title": "Calls of the runtime library succeed", "statement": "When the runtime library is allowed or required, every library call `functions.eval.f(...)` that the transpiler generates for an eval function it accepts evaluates without raising: the library has a function of that name, and its parameters accept the columns that the generated code passes.", "quantifier": "all eval functions and all arguments", "why_tests_cant": "The library is in Python and the generator in Rust; the two are only run together in a few end-to-end tests, and each function needs a test with a column argument.", "anchors": ["python/spl_transpiler/runtime/functions/eval.py", "python/spl_transpiler/runtime/base.py: enforce_types", "src/functions/eval_fns.rs"]}
{"id": "C62", "title": "Both modes build the same column", "statement": "An expression translated with the runtime library allowed evaluates to the same PySpark column as its translation without the library.", "quantifier": "all expressions", "why_tests_cant": "Universal over expressions; needs the comparison of two implementations, one in Rust and one in Python, of each function in each nesting.", "anchors": ["python/spl_transpiler/runtime/functions/eval.py", "src/functions/eval_fns.rs", "src/pyspark/transpiler/expr.rs:18-184"]}
{"id": "C63", "title": "Results of library calls can be used like columns", "statement": "In code generated with the runtime library allowed, the result of a library call can be an operand of an operator or the condition of `where`, wherever the query has it there.", "quantifier": "all expressions with a library call as an operand or condition", "why_tests_cant": "Universal over nestings; the failure is a Python exception when the generated code runs, which text comparison does not see.", "anchors": ["python/spl_transpiler/runtime/base.py:18-50 Expr", "src/pyspark/transpiler/expr.rs:61-72", "src/commands/cmd_where/pyspark.rs"]}
{"id": "C64", "title": "eval with the library makes the same rows", "statement": "An `eval` command translated with the runtime library allowed runs without an exception and makes the same rows as its translation without the library, on any frame before it and as the first command.", "quantifier": "all eval commands, all frames before them, all interpretations of Spark's tables and functions", "why_tests_cant": "Universal over assignments and pipelines; text comparison does not show that the generated program raises, and the end-to-end tests use few field names.", "anchors": ["python/spl_transpiler/runtime/commands/eval.py", "src/commands/cmd_eval/pyspark.rs:20-54", "src/pyspark/ast.rs:777-816"]}
{"id": "C65", "title": "search with the library keeps the same rows", "statement": "A `search` command translated with the runtime library allowed runs without an exception, reads the same tables and keeps the same rows as its translation without the library.", "quantifier": "all search conditions, all frames before them, all interpretations of Spark", "why_tests_cant": "Universal over conditions; the library combines positional and keyword conditions in another order and treats some names specially, which needs a case for every name and position.", "anchors": ["python/spl_transpiler/runtime/commands/search.py", "src/commands/cmd_search/pyspark.rs", "python/spl_transpiler/runtime/config.py"]}
{"id": "C66", "title": "stats with the library computes the same groups", "statement": "A `stats` command translated with the runtime library allowed runs without an exception and computes the same aggregates per group as its translation without the library.", "quantifier": "all lists of statistics with all labels, all BY lists, all frames before, all interpretations of Spark", "why_tests_cant": "Universal over lists of statistics and labels; each statistic is implemented once in Rust and once in Python, and some only in one of them.", "anchors": ["python/spl_transpiler/runtime/commands/stats.py", "python/spl_transpiler/runtime/functions/stats.py", "src/commands/cmd_stats/pyspark.rs:50-116", "src/functions/stat_fns.rs"]}
{"id": "C67", "title": "datamodel, tstats and fillnull run with the library", "statement": "The commands `datamodel`, `tstats` and `fillnull` translated with the runtime library allowed run without an exception; `tstats` computes the same rows as its plain translation, and `fillnull` with a field list changes the listed columns only.", "quantifier": "all options, field lists, data models, node names, statistics, and all frames before", "why_tests_cant": "Universal over options and positions in the query; the calls raise only when the generated Python program runs.", "anchors": ["python/spl_transpiler/runtime/commands/data_model.py", "python/spl_transpiler/runtime/commands/tstats.py", "python/spl_transpiler/runtime/commands/fill_null.py", "src/commands/cmd_t_stats/pyspark.rs", "src/commands/cmd_data_model/pyspark.rs", "src/commands/cmd_fill_null/pyspark.rs"]}
{"id": "C68", "title": "Whole queries give the same rows with and without the library", "statement": "For every query that both modes translate, the program generated with the runtime library allowed runs without an exception and computes the same rows as the program generated without it.", "quantifier": "all queries, of any length, all interpretations of Spark", "why_tests_cant": "Universal over pipelines; the effects of library and plain commands interact through the frame passed on, and no test runs both programs on the same data.", "anchors": ["python/spl_transpiler/runtime/", "src/pyspark/base.rs: RuntimeSelection", "src/commands/*/pyspark.rs"]}
{"id": "C69", "title": "A query in documented form is read as the commands written", "statement": "Every query written as the documentation of its commands says \u2014 command names and keywords in any letter case, options in any order with or without blanks around the equals sign, arguments, pipes, searches in brackets, an implicit first search \u2014 is accepted by parse, and the result is exactly the list of commands written, with every option value, argument and default in its place.  So no text is the documented form of two different queries.", "quantifier": "all queries of any length and nesting, all names, constants and expressions in them, all blanks between the words", "why_tests_cant": "Each command parser is tried in turn on the same text and gives up silently; a query is misread as soon as an earlier alternative, an over-greedy keyword or a swallowed blank takes a different path, and the combinations of commands, options, arguments and separators cannot be enumerated.", "anchors": ["src/spl/parser.rs: command, pipeline, query", "src/commands/*/spl.rs"]}
{"id": "C70", "title": "Decimal numbers and network addresses are read exactly", "statement": "Every decimal number in a query (a sign or none, digits, a point, digits) is read as exactly the number written, and the generated column has exactly that value; every text of four numbers with dots is read as an address and, with a slash and a number after it, as a network; nothing else is read as a decimal number.  A field compared with a network is tested for membership in that network, whatever the comparison.", "quantifier": "all digit strings of any length, both signs, all addresses and network lengths, all texts that follow", "why_tests_cant": "The constant reader tries twelve readings on the same text in a fixed order; any of the earlier ones (address, time span, wildcard, field with dots) can take a number away, and the value depends on digit strings of unbounded length.", "anchors": ["src/spl/parser.rs: double, ipv4_addr, ipv4_cidr, literal, constant", "src/pyspark/transpiler/expr.rs: Binary arm", "src/pyspark/transpiler/expr.rs: constants"]}
{"id": "C71", "title": "Evaluation functions compute the documented function", "statement": "A call of an evaluation function computes, on every row, the function the documentation gives for that name, applied to the values of the arguments in the order written, for every documented number of arguments.", "quantifier": "all calls of the mathematical, trigonometric, bitwise, hash, comparison, conversion and text functions, all arguments (nested expressions included), all rows, all interpretations of the primitive functions", "why_tests_cant": "Each of some sixty functions is mapped to a PySpark function with its own name, argument order and kinds of arguments; whether the arguments end up in the right places is a statement about all expressions that can stand there.", "anchors": ["src/functions/eval_fns.rs: eval_fn_bare", "src/functions/mod.rs: function_transform!"]}
{"id": "C72", "title": "convert applies the documented conversions", "statement": "`convert` writes, for each conversion in the order given, the converted value to the column named with AS or else to the field itself and leaves other columns alone: ctime prints the time with the given format, memk gives kilobytes for a number with an optional unit k, m or g, rmunit gives the number at the front of the text, rmcomma takes the commas out, and the other documented conversions do what is documented for them.", "quantifier": "all lists of conversions, fields, formats and values of the fields, all commands before", "why_tests_cant": "What the generated regular expressions do to a value depends on the whole text of the value; the tests only compare the generated code with a fixed string.", "anchors": ["src/functions/convert_fns.rs: convert_fn", "src/functions/shared.rs: ctime, memk, rmunit, rmcomma", "src/commands/cmd_convert/pyspark.rs"]}
{"id": "C73", "title": "Translated expressions read only the columns the expression names", "statement": "Every column the code generated for an SPL expression reads with F.col is a field the expression names; so two rows that agree on those fields give the same value, whatever other columns there are.", "quantifier": "all expressions with names that need no quoting, all modes, all rows and all interpretations of the primitive functions", "why_tests_cant": "An argument given as a text where a column is expected, or the reverse, makes a column of a word that is none; whether this happens somewhere depends on the expression and on the function it stands in.", "anchors": ["src/pyspark/transpiler/expr.rs", "src/functions/eval_fns.rs", "src/functions/mod.rs: function_transform!", "src/functions/shared.rs"]}
{"id": "C74", "title": "A search keeps the events its condition describes", "statement": "The generated filter of a search keeps a row exactly when the condition of the search is true of it: fields are compared with the values written, quoted or not, patterns and IN lists match as written, AND and OR combine, and NOT keeps every event on which the condition is not true, including events that lack the field.", "quantifier": "all search conditions, all rows, all interpretations of the primitive comparisons", "why_tests_cant": "The tests compare generated code with fixed strings; whether the rows are the same is a statement about all rows, and the repository's own tests expect the column comparison generated for an unquoted word.", "anchors": ["src/commands/cmd_search/pyspark.rs", "src/commands/cmd_search/spl.rs", "src/pyspark/transpiler/expr.rs", "src/commands/cmd_search/pyspark.rs: split_conditions"]}
{"id": "C75", "title": "A translated query computes the rows it describes", "statement": "Running the generated PySpark program on a table gives the columns and the rows the SPL query describes: each command of the pipeline acts on the rows the commands before it give, searches and where keep the rows their condition is true of, eval and rename change columns, fields and table choose them, sort orders, head cuts off, and stats gives one row for each group with the aggregates of the group under the names SPL gives them.", "quantifier": "all queries, all tables, all rows, all interpretations of the primitive comparisons, functions and aggregates", "why_tests_cant": "The tests compare generated code with fixed strings and never run it; whether commands compose to the rows the query describes is a statement about all tables and about all pipelines.", "anchors": ["src/pyspark/transpiler/pipeline.rs", "src/commands/cmd_search/pyspark.rs", "src/commands/cmd_where/pyspark.rs", "src/commands/cmd_eval/pyspark.rs", "src/commands/cmd_rename/pyspark.rs", "src/commands/cmd_fields/pyspark.rs", "src/commands/cmd_table/pyspark.rs", "src/commands/cmd_head/pyspark.rs", "src/commands/cmd_sort/pyspark.rs", "src/commands/cmd_stats/pyspark.rs", "src/functions/stat_fns.rs"]}
{"id": "C76", "title": "Statistics functions compute the documented statistic", "statement": "In `stats f(x)` every documented function f computes, on every group of events, the statistic it is documented to compute from the values of x in the events that have the field: average, number, number of different values, maximum, minimum, median, range, sum, sum of squares, sample and population variance and standard deviation, percentiles, first and last value, the value of the earliest and of the latest event and their times, the list and the set of values.", "quantifier": "all groups of events, all fields, all documented functions, whatever order Spark has the rows of a group in", "why_tests_cant": "The tests compare the text of the generated call with a fixed string; whether the PySpark function called computes the documented statistic is a statement about all lists of values.", "anchors": ["src/functions/stat_fns.rs", "src/commands/cmd_stats/pyspark.rs", "python/spl_transpiler/runtime/functions/stats.py"]}
{"id": "C77", "title": "addtotals writes the sum of the numeric fields", "statement": "The program generated for `addtotals` gives every event one more field, with the given name (`Total` by default), whose value is the sum of those of the listed fields that are numbers, of all numeric fields if none is listed; `row=false` adds no field, `col=true` adds an event with the totals of the columns, with the given label.", "quantifier": "all lists of fields, all field names, all options, all rows", "why_tests_cant": "The tests compare the generated text for two queries; what the sum of guarded columns is on every row, with fields missing or not numeric, is a statement about all events.", "anchors": ["src/commands/cmd_add_totals/pyspark.rs", "src/commands/cmd_add_totals/spl.rs"]}
{"id": "C78", "title": "spath extracts what the path leads to", "statement": "The program generated for `spath` gives every event one more field, named by `output` or by the path, with the part of the JSON text in the input field the path leads to: keys are separated by dots, `{n}` is an element of an array and `{}` all of them; without a path all fields are extracted; options can be given in any order.", "quantifier": "all paths, all input and output fields, all rows", "why_tests_cant": "Whether a path of SPL and the JSON path Spark is given lead to the same place depends on the two path languages, for all paths.", "anchors": ["src/commands/cmd_s_path/pyspark.rs", "src/commands/cmd_s_path/spl.rs"]}
{"id": "C79", "title": "makeresults makes the events asked for", "statement": "A query that starts with `makeresults` starts with as many events as `count` says (1 by default), which have the current time in `_time` and, with `annotate=true`, the fields `_raw`, `host`, `source`, `sourcetype` (empty), `splunk_server` and `splunk_server_group`, and no other fields.", "quantifier": "all counts, all options, all commands that follow", "why_tests_cant": "The tests compare the text for a few options; the rows for every count and the columns for every combination of options are not computed by any test.", "anchors": ["src/commands/cmd_make_results/pyspark.rs", "src/commands/cmd_make_results/spl.rs"]}
{"id": "C80", "title": "regex keeps the events that match", "statement": "The program generated for `regex` keeps the events whose field (`_raw` if none is named) matches the pattern, or, with `!=`, those whose field does not.", "quantifier": "all fields, patterns, rows", "why_tests_cant": "The tests compare the generated text with a fixed one; that PySpark takes the pattern for the name of a column is not visible in the text.", "anchors": ["src/commands/cmd_regex/pyspark.rs", "src/commands/cmd_regex/spl.rs"]}
{"id": "C81", "title": "rex extracts the named groups", "statement": "The program generated for `rex` gives every event whose field matches the pattern the named groups of the first match as fields, and leaves the events that do not match as they are.", "quantifier": "all patterns, fields and rows", "why_tests_cant": "One test compares the generated text for one pattern; which columns and values result for other patterns, and for rows that do not match, is a statement about all patterns and texts.", "anchors": ["src/commands/cmd_rex/pyspark.rs", "src/commands/cmd_rex/spl.rs", "src/commands/regex_utils.rs"]}
{"id": "C82", "title": "The generated program only makes calls PySpark admits", "statement": "A program generated without the runtime library uses only functions PySpark has and only methods of the objects they are called on, with a number and kinds of arguments their signatures admit, so that running it raises no AttributeError, NameError or TypeError; its value is a data frame.", "quantifier": "all queries the translation accepts", "why_tests_cant": "The tests compare texts; they never run them for the queries in question, and cannot run them for all queries.", "anchors": ["src/functions/eval_fns.rs", "src/functions/stat_fns.rs", "src/pyspark/transpiler/expr.rs", "src/commands"]}
{"id": "C83", "title": "cidrmatch tells whether an address is in a network", "statement": "The condition cidrmatch(\"net/len\", ip), and equally ip=net/len and ip IN (net/len) in a search, holds in exactly the rows whose ip is an address that has the first len bits of net.", "quantifier": "all IPv4 addresses, networks and lengths up to 32, with and without the runtime library", "why_tests_cant": "There are 2^64 pairs of addresses and networks for each length; the tests compare the text of two programs and never run one.", "anchors": ["src/functions/eval_fns.rs", "src/pyspark/transpiler/expr.rs", "python/spl_transpiler/runtime/functions/eval.py", "python/spl_transpiler/runtime/udfs/__init__.py"]}
{"id": "C84", "title": "ipmask applies the mask", "statement": "ipmask(mask, ip) is the address that has the bits of ip where the mask has ones and zeros elsewhere.", "quantifier": "all IPv4 addresses and masks", "why_tests_cant": "The documented masks are addresses such as 255.255.255.0; the tests never run the function.", "anchors": ["src/functions/eval_fns.rs", "python/spl_transpiler/runtime/functions/eval.py", "python/spl_transpiler/runtime/udfs/__init__.py"]}
{"id": "C85", "title": "relative_time computes the time its specifier stands for", "statement": "relative_time(t, \"[amount]@unit[amount]\") is the time reached from t by going the first amount, back to the beginning of the unit (weeks begin on Sunday), and going the second amount; every documented specifier is accepted.", "quantifier": "all times, all specifiers: amounts up to 2^63 with any sign, all spellings of the units in any casing", "why_tests_cant": "Times and amounts are unbounded, and the tests compare the text of two programs without computing a time.", "anchors": ["src/functions/eval_fns.rs", "src/spl/parser.rs", "python/spl_transpiler/runtime/functions/eval.py", "python/spl_transpiler/runtime/functions/utils.py"]}
{"id": "C86", "title": "With the runtime library allowed, a query computes the rows it describes", "statement": "Translating a query with allow_runtime=True gives a program that runs and whose final data frame has the columns and rows the SPL query describes, in the order described where there is one.", "quantifier": "all queries, tables, semantics of the primitive operations and orders in which the groups of an aggregation come", "why_tests_cant": "Queries and tables are unbounded; the tests compare the text of the program and run the library on a few tables of their own.", "anchors": ["src/pyspark/transpiler/mod.rs", "src/commands", "python/spl_transpiler/runtime/commands", "python/spl_transpiler/runtime/base.py"]}
{"id": "C87", "title": "A query that ends with join computes the rows it describes", "statement": "The program for a search followed by `join f1,...,fn [sub]` computes, on all tables, the events SPL describes: each event of the search with the fields of the event of the subsearch that agrees with it in all of f1,...,fn (and in the order of time asked for with usetime); events without a match are left out with inner and kept with left and outer. Afterwards every field can be used by its name.", "quantifier": "all searches, subsearches, options of join, tables, semantics of the primitive operations", "why_tests_cant": "Tables and searches are unbounded; the tests compare the text of one join and never run it.", "anchors": ["src/commands/cmd_join/pyspark.rs", "src/pyspark/transpiler/utils.rs", "src/pyspark/ast.rs"]}
{"id": "C88", "title": "mvcount, mvappend, mvzip and split compute the documented values", "statement": "For a field with any number of values, the column translated from mvcount counts them, the one from mvappend has the values of all its arguments, the one from mvzip has the pairs of first values, second values and so on joined by the delimiter (a comma if none is given), and the one from split has the pieces of the text between the occurrences of the delimiter.", "quantifier": "all argument expressions, delimiters and values", "why_tests_cant": "Values and delimiters are unbounded; the tests compare the text of one call of each and never evaluate it.", "anchors": ["src/functions/eval_fns.rs:495-564"]}
{"id": "C89", "title": "Time bounds in a search restrict the time of the events", "statement": "earliest and latest in a search are not fields: with a number of seconds or a time relative to now, the events kept are those whose _time is not before earliest and is before latest.", "quantifier": "all searches with such bounds, all positions in the query, both modes, all rows", "why_tests_cant": "No test evaluates a filter, and relative times can be written in unboundedly many ways.", "anchors": ["src/commands/cmd_search/pyspark.rs:16-203", "src/pyspark/transpiler/expr.rs:18-184"]}
{"id": "C90", "title": "A stage that is not a command is refused", "statement": "Every stage after a pipe begins with the name of a command and goes on in the form of this command; otherwise parsing fails, instead of giving the stage another meaning.", "quantifier": "all queries, all stages put after them", "why_tests_cant": "The texts that are not commands are unbounded; the tests parse what is a command.", "anchors": ["src/commands/mod.rs", "src/spl/parser.rs"]}
{"id": "C91", "title": "No option of a command is silently ignored", "statement": "An option written with a command either takes part in the translation or makes the translation fail; an option the command does not have makes parsing fail.", "quantifier": "all commands with options, all values, all positions in the query, all modes", "why_tests_cant": "Every test writes options that are translated; that another one has no effect shows only when queries with and without it are compared, for all values and commands.", "anchors": ["src/commands/*/pyspark.rs", "src/commands/*/spl.rs", "src/spl/ast.rs:337-417"]}
{"id": "C92", "title": "A bare term of a search stands for the events that have it as a term", "statement": "A search with bare words, quoted phrases and numbers, combined with comparisons, AND, OR and NOT, is translated to a filter that keeps exactly the events in whose raw text the words stand as terms, that is in any letter case and bounded by characters other than letters and digits.", "quantifier": "all words, phrases and numbers, all conditions built from them and from comparisons, all events", "why_tests_cant": "The tests compare the generated text only; which events the filter keeps depends on the text of the event and on what characters of the term mean in a pattern of SQL.", "anchors": ["src/pyspark/transpiler/expr.rs:187-236", "src/commands/search/pyspark.rs"]}
{"id": "C93", "title": "A column reference of the generated program is the field of that name", "statement": "Wherever the generated program refers to a column for a field of the query, Spark resolves the reference to the column whose name is the name of that field, on every table that has such a column.", "quantifier": "all field names, all tables with that column, all expressions in where and eval", "why_tests_cant": "The tests compare the text of references, not what Spark takes them for, which depends on the other columns of the table and on the characters of the name.", "anchors": ["src/pyspark/transpiler/expr.rs:24-34", "src/pyspark/ast.rs", "src/commands/cmd_s_path/pyspark.rs"]}
{"id": "C94", "title": "tstats computes the statistics of the events of the dataset on which its condition holds", "statement": "The program generated for a query that begins with `tstats` computes, on every table, the statistics asked for over exactly those events of the dataset named after FROM on which the condition after WHERE is true, one row for each combination of the fields after BY, and the following commands work on these rows.", "quantifier": "all conditions, functions, fields to group by, datasets, tables and following commands", "why_tests_cant": "The tests compare the text of the program for a few queries; which rows are counted depends on the data, and on all conditions and groupings.", "anchors": ["src/commands/cmd_t_stats/pyspark.rs:88-159", "src/commands/cmd_data_model/pyspark.rs:34-69", "src/commands/stats_utils.rs"]}
{"id": "C95", "title": "where compares the values of the expressions on both sides", "statement": "The condition of `where` is an eval expression: both sides of a comparison may be any expression, and an unquoted word on either side is the field of that name, so `where a=b` keeps the rows on which the two fields have the same value.", "quantifier": "all fields, comparisons, words and expressions", "why_tests_cant": "The tests of `where` compare fields with numbers and quoted texts only; that a field, a sum or a call on the other side is never read is a statement about all texts.", "anchors": ["src/commands/cmd_where/spl.rs", "src/spl/parser.rs:1225-1346"]}
{"id": "C96", "title": "fillnull leaves no missing value in the fields it fills, and changes nothing else", "statement": "The program generated for a query that ends with `fillnull` replaces, on every table, every missing value of the listed fields (of all fields if none are listed) by the value given, and leaves all other values as they are.", "quantifier": "all queries in front, tables, types of columns, values and lists of fields", "why_tests_cant": "The tests compare the text `fillna(\"0\")`; which values it replaces depends on the types of the columns of the table.", "anchors": ["src/commands/cmd_fill_null/pyspark.rs:24-36", "src/commands/cmd_fill_null/spl.rs:42-62"]}
{"id": "C97", "title": "Arithmetic operators are recognised with or without blanks around them", "statement": "`eval x=A op B` with op one of + - * / is read as the operation of A and B whether or not there are blanks around the operator, and the new column holds its value.", "quantifier": "all target fields, operands, operators and blanks", "why_tests_cant": "Each test fixes one layout; the characters - / * are also characters of names, and which reading wins depends on the characters on both sides.", "anchors": ["src/spl/parser.rs:410-430", "src/spl/parser.rs:621-656", "src/spl/parser.rs:986-1020"]}
{"id": "C98", "title": "A %%spl cell binds one notebook variable to the value of the generated program", "statement": "After a `%%spl` cell the notebook variable named by --var-name (df by default) is bound to the value the generated program has when it is run by itself with the session and the modules of the library; no other variable of the notebook is changed, none influences the value, and a dry run changes nothing.", "quantifier": "all cells, options and notebooks (assignments of values to variables)", "why_tests_cant": "The repository has no test of the magic; a test runs a cell in one notebook, and which names leak in or out depends on the names the notebook happens to have and on where the generated code looks them up.", "anchors": ["python/spl_transpiler/runtime/magic.py:17-79", "python/spl_transpiler/runtime/utils.py:9-24"]}
{"id": "C99", "title": "A search gives the events of the indexes its condition selects", "statement": "The index an event is in is a field of the event: the program generated for a search gives the events of all indexes on which the condition, with its tests of `index` (=, patterns, lists, NOT), is true, and no others.", "quantifier": "all conditions of the fragment of C75, indexes, and contents of the indexes", "why_tests_cant": "The tests compare generated text; that `index=a index=b` is the union of two tables looks right until the condition is evaluated on events of all indexes.", "anchors": ["src/commands/cmd_search/pyspark.rs:9-63", "src/commands/cmd_search/pyspark.rs:174-204"]}
{"id": "C100", "title": "The interactive translator shows the translation of the text in its editor", "statement": "After any sequence of edits and switches the interactive translator shows the translation of the text in the editor with the chosen options, exactly what convert_spl_to_pyspark returns; a pane that shows something else is marked. With imports asked for, the program shown uses only names that its import lines or its own assignments define, apart from the session and Python's constants.", "quantifier": "all sequences of edits and switches, all texts, parsers and formatters", "why_tests_cant": "The application is not tested at all; the state left behind by a failed update shows only in a sequence of several events.", "anchors": ["python/spl_transpiler/live_translator.py:158-193", "python/spl_transpiler/live_translator.py:136-156"]}
{"id": "C101", "title": "The work of parsing is bounded by a polynomial in the length of the query", "statement": "The number of calls of the parser's recursive functions that parse makes on a text, accepted or refused, is bounded by a polynomial in the length of the text.", "quantifier": "all texts", "why_tests_cant": "Tests use short queries that are accepted; the repeated work shows on nested texts that are refused, and no number of measurements bounds all texts.", "anchors": ["src/spl/parser.rs:1061-1075", "src/spl/parser.rs:83-88", "src/lib.rs:18-24"]}
{"id": "C102", "title": "Parsing does not recurse deeper for longer queries", "statement": "There is a depth of nested calls of the parser's functions that is enough for every query, so that a fixed stack is enough to parse any query.", "quantifier": "all depths, all texts", "why_tests_cant": "A test shows that one query fits on the stack of the machine that runs it.", "anchors": ["src/spl/parser.rs:972-984", "src/spl/parser.rs:83-88", "src/lib.rs:18-24"]}
{"id": "C103", "title": "The length of a program is bounded by a polynomial in the length of its query", "statement": "The program that convert_spl_to_pyspark returns for a query is at most as long as some fixed polynomial in the length of the query, with and without the runtime library.", "quantifier": "all accepted queries, both modes", "why_tests_cant": "Tests compare programs of short queries; a part of the query that is written out several times grows only with nesting, and no finite set of queries bounds all of them.", "anchors": ["src/functions/shared.rs:14-28", "src/functions/eval_fns.rs:172-186", "src/pyspark/transpiler/expr.rs:18-184"]}
{"id": "C104", "title": "Every part of an expression is translated a bounded number of times", "statement": "The number of calls of to_spark_expr that translating an expression of a query makes is bounded by a polynomial in the length of the query, whichever way the runtime library is selected.", "quantifier": "all expressions, all three selections of the runtime library", "why_tests_cant": "Tests look at the result of the translation, which does not show how often a part was translated; the repetition doubles with each nested call and is invisible in the shallow expressions that are tested.", "anchors": ["src/functions/eval_fns.rs:174-214", "src/functions/mod.rs:69-137", "src/pyspark/transpiler/expr.rs:18-184"]}
{"id": "C105", "title": "Macro expansion ends", "statement": "substitute_macros returns or reports a cause in the definitions after finitely many rounds; when no definition leads back to itself it returns a text without macro calls, and a circular definition does not make it recurse until Python's limit.", "quantifier": "all texts, all macro tables, any limit on the recursion", "why_tests_cant": "A test of a circular definition would not end, and the number of rounds depends on how definitions use each other, which is unbounded.", "anchors": ["python/spl_transpiler/macros.py:84-142"]}
{"id": "C106", "title": "A macro call is replaced by the definition stored under its name", "statement": "RegistryMacroLoader returns the definition registered last under exactly the given name, FolderMacroLoader that of the only file with that name and suffix below the folder, CombinedMacroLoader that of the first of its loaders that has one, or else of the fallback; a name that no loader has is an error.", "quantifier": "all names, registries, folders, lists of loaders", "why_tests_cant": "Universal over names (including names with characters that have a meaning in file patterns) and over the contents of folders.", "anchors": ["python/spl_transpiler/macros.py:26-81"]}
{"id": "C107", "title": "A changed macro file is used from then on", "statement": "A lookup of FolderMacroLoader returns the definition that the folder holds at the time of the lookup, also when the name has been looked up before.", "quantifier": "all sequences of lookups and changes of the folder", "why_tests_cant": "Needs every interleaving of changes and lookups; tests look each macro up in an unchanging folder.", "anchors": ["python/spl_transpiler/macros.py:43-61"]}
{"id": "C108", "title": "A field name in double quotes is the name between the quotes", "statement": "In the commands that take fields, a name written between double quotes stands for the field with the name between them, as SPL needs for names with blanks: `table \"a b\"` selects the column `a b`, `rename \"a b\" AS c` renames it, `... BY \"a b\"` groups by it.", "quantifier": "all names without quotes, backslashes and line ends; all lists of fields; all tables", "why_tests_cant": "Universal over names and tables; the tests only quote new names, which are handled differently from the names of existing fields.", "anchors": ["src/spl/parser.rs:505-526", "src/commands/cmd_table/spl.rs", "src/commands/cmd_rename/spl.rs"]}
{"id": "C109", "title": "Names of fields are opaque to the translation", "statement": "Giving the fields of a query other names gives the same program with the other names: the translation looks at no name, so no name of a field changes whether a query is translated or what it becomes. Names of functions and the names the translation writes itself (`_time`, `_raw`, `count`, ...) are kept.", "quantifier": "all renamings of fields (also ones that identify fields) that keep those names; all expressions in all runtime modes; all queries of the commands that take fields as names", "why_tests_cant": "Relates two runs of the translator for every query and every function on names; tests use a fixed handful of names and cannot show that none is special.", "anchors": ["src/pyspark/transpiler/expr.rs:18-184", "src/functions/eval_fns.rs:174-693", "src/functions/stat_fns.rs:67-280", "src/commands/cmd_stats/pyspark.rs:79-116", "src/spl/parser.rs:505-526"]}
{"id": "C110", "title": "The text after a pipe is read by itself", "statement": "Putting `| text` after a query gives a query exactly when the text by itself is one, and the stages are those of the query followed by those of the text: no stage changes how the text after it is read, and nothing after a stage changes the stage.", "quantifier": "all queries and all texts (accepted or not) after them; any blanks around the pipe", "why_tests_cant": "Quantifies over all pairs of a query and any text, also texts that are refused; the parser backtracks over the whole rest of the input, so reading a stage could in principle depend on everything that follows.", "anchors": ["src/spl/parser.rs:1265-1273", "src/spl/parser.rs:1207-1250"]}
{"id": "C111", "title": "The module `ast` has the class of every command of a parsed query", "statement": "For every query that `parse` accepts, the class of the value inside each command of the result (`type(command._0)`) is one of the classes of the module `spl_transpiler.ast`, under its name.", "quantifier": "all accepted queries, all their commands", "why_tests_cant": "Quantifies over every command in every form; the tests compare commands of a few kinds, and a class that was never registered is only seen by a program that names it.", "anchors": ["src/spl/python.rs:142-205", "src/spl/ast.rs:617-656"]}
{"id": "C112", "title": "Recognising a keyword never panics", "statement": "On every text, a keyword of the language (a command name, an option, a time unit) is either accepted, and then exactly the letters of the keyword in some letter case are consumed, or refused with an ordinary error; it never makes the program panic.", "quantifier": "all keywords and all texts, with any Unicode characters", "why_tests_cant": "Quantifies over all Unicode texts at every keyword; the exceptions need one particular character outside ASCII whose lower case is an ASCII letter.", "anchors": ["src/spl/parser.rs:139-191", "src/spl/parser.rs:1300-1420"]}
{"id": "C113", "title": "A value of words with dots between them is read as one value", "statement": "In `search field=value`, a value that is written without quotes as words with dots between them (the name of a host or of a file) is read as that one value, whatever the words are.", "quantifier": "all field names and all dotted values, with any number of words", "why_tests_cant": "Quantifies over all words of a value; whether a value is accepted depends on a table of reserved words that has nothing to do with values, and the tests use values without them.", "anchors": ["src/spl/parser.rs:411-419", "src/spl/parser.rs:528-533", "src/spl/parser.rs:618-656", "src/spl/parser.rs:1316-1331"]}
