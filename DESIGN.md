# Formal model of treeno in Lean 4

Treeno builds Trino SQL query trees, prints them (`.sql(opts)`), reads SQL text back (ANTLR grammar and `ConvertVisitor`),
gives data types to expressions and resolves column references. The model is a shallow executable one: one Lean definition
per Python function, Python exceptions as values of `Except Err`, text as `List Char` (`Str`). Every definition cites the file
and lines it models.

## Modules

| module | models |
|---|---|
| `Py` | the Python string operations used (`join`, `splitlines`, `rjust`, `upper`, `str(int)`, ...), exceptions |
| `Printer` | `treeno/util.py`, `treeno/printer.py` |
| `Types`, `Conversions`, `Inference` | `treeno/datatypes/{types,builder,conversions,inference}.py` |
| `Ast`, `Typing`, `Sql` | the node classes of `expression.py`, `relation.py`, `window.py`, `groupby.py`, `orderby.py`, `functions/*.py`; their constructors; their `sql` methods |
| `Lexer`, `Tokens` | the lexer rules of `SqlBase.g4` |
| `TypeParse`, `Cst`, `Parse`, `Parser` | the parser rules of `SqlBase.g4`; the parser is the least fixed point of one step function, so nesting is unbounded |
| `Convert` | `treeno/builder/convert.py` |
| `Unicode` | `visitUnicodeStringLiteral` and the Python codecs it uses |
| `Double` | `visitDoubleLiteral`: Python's `float` of a text and its `str`, with integers; compared with CPython on 3100 literals, without differences |
| `Walk`, `Schema` | `Lambda.from_generic_expr`, `resolve_fields`, `Schema`, `Relation.resolve` |
| `TypeObjects` | `DataType.__attrs_post_init__` on dicts that types may share, the builder functions |
| `Heap` | `Relation.resolve` again, on objects that refer to each other and are assigned to |
| `Cli` | the commands `format` and `schema` of treeno/cli.py |
| `Tree` | the command `tree` of treeno/cli.py, without nltk's drawing |
| `Object`, `Visit` | `Sql.equals` (`attr.asdict` and `==`), the `visit` methods |
| `Conformance` | no theorem: runs the model on the project's own statement files and compares with the expected outputs |
| `ConformanceReader` | no theorem: 249 kernel-checked comparisons of the reader with the trees expected by tests/convert/*.py (the two tests whose text lacks a closing parenthesis are left out) |
| `ConformanceNodes` | no theorem: 115 kernel-checked comparisons with the values expected by tests/test_expression.py, test_relations.py, test_printer.py, test_datatypes.py, test_datatypes_resolve.py |
| `ConformanceDocs` | no theorem: 39 kernel-checked comparisons with the outputs shown in README.md and in the docstrings of treeno/base.py, expression.py, relation.py (where the README shows an older layout, what the code prints instead) |
| `Spec/*` | the specifications used in the statements |
| `Lemmas/*` | helper lemmas; `*Eqs` hold the defining equations of the mutual functions, by `rfl` |
| `Props/*` | the property theorems with concrete cases beside them |

## Trusted base

- Lean's kernel (4.33.0). No axiom is added; the theorems depend on `propext`, `Classical.choice` and `Quot.sound` at most
  (`#print axioms`). No `sorry`, `admit`, `native_decide`, `bv_decide`, `implemented_by`, `unsafe`.
- The tactic `krfl` (`Lemmas/Krfl`) proposes `Eq.refl` without elaborator checks; the kernel checks it like any other term.
- The specifications in `Spec/*` and the statements in `Props/*` mean what their comments say.
- The definitions in `Verif/*.lean` behave like the cited Python code. This was done by reading; the code was never run. The
  conformance file and the concrete cases beside the theorems test it.

What the model leaves out or simplifies:

- **Errors of ANTLR.** ANTLR reports a syntax error on stderr and goes on with a repaired tree. The model answers
  `Err.syntax` for every text outside the grammar. What a user gets for such texts is not modelled.
- **Look-ahead of ANTLR.** The parser takes the choices ANTLR makes on texts of the language; the simplifications about
  unquoted non-reserved words are listed in the header of `Parse.lean`.
- **Grammar.** Statements other than queries, and the alternatives listed in the header of `Cst.lean`, which the visitor does
  not support either unless stated there.
- **Visits that return `None`.** For parse trees without a visitor method the visitor returns `None`. Where the code then drops
  a clause or raises, the model does the same; where `None` would end up inside of a tree the model answers `Err.noneValue`.
- **Values.** `bool` where an `int` is declared, unpaired surrogates, `\N{...}` in Unicode literals, floats other than by their `repr`, arithmetic on floats, annotations that
  Python does not enforce, a `data_type=` keyword on classes that compute it.
- **None and empty lists.** One `[]` stands for both; the code tests truth only.
- **Sharing and mutation.** Trees are values, except in `Heap`: there relations are objects, `resolve` assigns to them, and one
  object may be used at several places (C73, C74); and in `TypeObjects`, where types keep the dict
  they are given (C75). Values are not objects there, so a query that is both a relation and part
  of a value counts as two. A table that is the source of its own remembered columns (a cyclic object) is outside.
- **Exceptions.** Which exception comes first when several apply is not always the same (`Walk.lean`); recursion limits and
  memory are not modelled.
- **Libraries.** `Trees.toStringTree` of antlr4 and `Tree.fromstring` of nltk (C77) are not in the sandbox; they are modelled
  after their published source. Which rules the generated parser nests is left open there: C77 holds for every tree over the
  tokens. Drawing (`pretty_print`) and typer are not modelled.
- **Semantics.** Trino itself is not modelled. "Meaning" in C14, C26, C57 is compositional denotation in an arbitrary
  `Model` of operators, so it says that the same operators are applied to the same operands in the same order.

## Property by property

Every theorem is in the namespace `Treeno.Props`; the file is `lean/Verif/Props/<file>.lean`. A theorem whose name ends in
`_partial` covers part of the claim; `*_false`, `*_lost`, `*_fails`, `*witness` and the like prove that the rest of the claim is
false of the code, most of them for every instance of the pattern and some on one concrete tree.

### C01 Type text round trip (partial)

For every data type that can be built, parsing its printed text with type_from_sql gives back an equal data type. *For every constructible DataType, of any nesting depth and any parameter values.*

- Model and proof: `Ty.sql` (Types) against `typeFromSql` = lexer + `TypeParse` + visitor. Induction on the type: the text lexes to a known token list, the type parser returns the expected tree on it, the visitor rebuilds the type.
- `TypeTextProps`: `C01_round_trip_partial`, `C01_exact`, `C01_read_print_read`, `C01_format_stable`, `C01_text_determines`, `C01_read_valid`, `C01_negative_scale_fails`, `C01_negative_length_fails`, `C01_empty_row_fails`
- Coverage: Proved exactly (iff): round trip holds for a valid type iff no length/scale is negative and no ROW is empty; the library lets one construct the exceptions (witnesses).

### C02 Only valid types exist (proved)

Building a DataType either raises or yields a type whose name is one of the supported names, whose parameters are exactly the declared ones for that name (defaults filled in), and whose values satisfy the declared range checks; the name is case-insensitive and rebuilding a type from its own name and parameters gives an equal type. *For every type name string and every parameter dictionary.*

- Model and proof: `mkType` models the constructor on an arbitrary name and parameter list. Case analysis per declared name; `Ty.Valid` (Spec/TypeSpec) is stated without the model's checks.
- `TypeProps`: `C02_construction`, `C02_name_supported`, `C02_name_refused`, `C02_unknown_parameter_refused`, `C02_case_insensitive`, `C02_rebuild`, `C02_valid`
- Coverage: Exact characterisation of construction (iff), name case-insensitivity, rebuild, validity at depth. A bool passed where an int is declared is outside the model.

### C03 Parameter order is irrelevant (proved)

The order in which type parameters are supplied affects neither whether construction succeeds, nor the resulting type, nor its printed text. *For every type name and every permutation of every parameter dictionary.*

- Model and proof: `mkType` on permuted parameter lists: lookup depends only on the key set (permutation invariance of dict lookup).
- `TypeProps`: `C03_order_irrelevant`, `C03_order_irrelevant_text`
- Coverage: Keys distinct, as in any dict.

### C04 Arithmetic typing is symmetric (proved)

The result type of an arithmetic operator does not depend on operand order, and neither does whether typing raises. *For every pair of data types.*

- Model and proof: `arithmeticType` (Conversions); case analysis over the pairs of type shapes.
- `ConversionProps`: `C04_arithmetic_symmetric`
- Coverage: Success and result are symmetric; the exception class may differ between orders.

### C05 Arithmetic typing loses no numeric range (proved)

When both operands have numeric types and typing succeeds, the result type can represent every value of both operand types (integral digits, fractional digits, or an approximate type). *For every pair of numeric types, including all decimal precisions and scales.*

- Model and proof: The same; ranges as sets of rationals in Spec/Numeric, containment proved by arithmetic on powers of ten and two.
- `ConversionProps`: `C05_arithmetic_covers`, `C05_failure`
- Coverage: Values as rationals; approximate types compared by significand bits.

### C06 Arithmetic typing of equal types (proved)

Combining a type with itself returns that same type and never raises; the result for two integral types is the wider of the two. *For every data type; every pair of integral types.*

- Model and proof: The same, on equal arguments and on integral types.
- `ConversionProps`: `C06_equal_types`, `C06_integral_wider`

### C07 Common supertype is an upper bound (partial)

common_supertype(a, b) either raises or returns a type to which both a and b can be widened, for types of one family. *For every pair of data types.*

- Model and proof: `commonSupertype` (Conversions); order of types stated in Spec/Widening.
- `ConversionProps`: `C07_supertype_upper_bound_partial`, `C07_unknown_witness`, `C07_varchar_witness`
- Coverage: False of the code for same-named types (result is the unknown type) and for long VARCHAR with CHAR; proved otherwise, witnesses proved.

### C08 Common supertype is symmetric and idempotent (proved)

common_supertype(a, b) equals common_supertype(b, a) (including failure), and common_supertype(a, a) is a. *For every pair of data types.*

- Model and proof: The same, symmetric and idempotent by case analysis.
- `ConversionProps`: `C08_supertype_symmetric`, `C08_supertype_idempotent`
- Coverage: Full.

### C09 Common supertype of same-named types (partial)

For two types that share a name and differ only in parameters (two decimals, two varchars, two arrays ...) the common supertype is the parameter-wise widening and is never the unknown type. *For every pair of same-named types.*

- Model and proof: The same, restricted to one type name.
- `ConversionProps`: `C09_supertype_loses_parameters`, `C09_witness`, `C09_same_named_partial`, `C09_times_raise`
- Coverage: False of the code for every instance of common_supertype (proved); the widening used by arithmetic typing is proved for decimals, varchars, chars; times always raise (proved).

### C10 Integer literals get a type that holds them (partial)

An integer literal is INTEGER exactly when it fits in 32 signed bits, otherwise BIGINT, and the chosen type can hold the value. *For every Python integer.*

- Model and proof: `inferType` on integers (Inference); the choice is compared with the ranges of Spec/Numeric.
- `InferenceProps`: `C10_integer_choice`, `C10_integer_held_partial`, `C10_overflow_witness`
- Coverage: Choice proved exactly; 'holds' proved for 64-bit values, false beyond (witness).

### C11 Decimal literals get a sufficient precision and scale (partial)

The type inferred for a Decimal has at least as many integral digits and fractional digits as the value has, or inference raises. *For every finite Decimal.*

- Model and proof: `inferDecimal` on the digits, exponent and sign of a `Decimal`; value and capacity in Spec/Numeric.
- `InferenceProps`: `C11_decimal_held_partial`, `C11_raises`, `C11_exponent_witness`, `C11_fraction_witness`
- Coverage: Proved for plain notation; false for texts with exponents (witnesses).

### C12 Literal wrapping is idempotent (proved)

Wrapping a value that is already a tree node returns it unchanged, wrapping a scalar gives a typed literal, and containers are refused; wrapping twice equals wrapping once. *For every input value.*

- Model and proof: `wrapLiteral` (Typing): case analysis on what Python may pass.
- `NodeProps`: `C12_idempotent`, `C12_wrap_iff`, `C12_scalars_wrap`

### C13 Expression text round trip (partial)

Printing an expression and parsing the text gives the same expression up to the documented identifications (NOT of an equality becomes an inequality, a minus sign on a numeric literal becomes a negative literal, types of columns are forgotten). *For every expression tree of the printable fragment, any depth, in both print modes.*

- Model and proof: `Expr.sql` (Sql) against `expressionFromSql` = Lexer + Parser + Convert. Three inductions over the tree: printed text lexes to the yield of an explicit parse tree (`tx_expr`), the parser returns that parse tree (`pl_expr`), the visitor turns it into the tree (`cv_expr`). `Tidy`/`Fits` (Spec) say which trees; `reread` which tree comes back.
- `ReadableProps`: `C13_readable_partial`
- `RoundTripLimits`: `C13_comment_false`, `C13_interval_false`, `C13_row_of_one_false`, `C13_decimal_without_point_false`, `C13_variable_false`, `C13_types_forgotten`, `C13_list_of_query_false`
- `RoundTripProps`: `C13_round_trip_partial`, `C13_exact_partial`, `C13_text_determines_tree_partial`, `C13_reached`, `C13_identified`
- Coverage: Any depth, both modes, all node kinds, for trees that are Tidy and Fit (decidable conditions on names, numbers and operand positions) up to stated identifications. False otherwise; one witness theorem per kind of failure (comments, intervals, one-column rows, integral decimals, variables, forgotten types, lists holding a query).

### C14 Printing preserves meaning (partial)

Evaluating the expression obtained by printing and re-parsing gives the same value as evaluating the original tree, under SQL three-valued logic, whatever the operators and columns denote. *For every printable expression, every interpretation of columns and operators.*

- Model and proof: Denotational semantics of trees (Spec/Meaning) and, separately, of parse trees (Spec/SqlMeaning), both parametric in a `Model`; the denotation of the parse tree of the printed text equals that of the tree, by induction (`cm_expr`, `rm_Expr`, `mm_Expr`).
- `MeaningProps`: `C14_round_trip_partial`, `C14_queries_partial`, `C14_text_partial`, `C14_query_text_partial`, `C14_reached`, `C14_query_reached`, `C14_meaning_example`, `C14_quote_false`, `C14_distinct_false`, `C14_limit_zero_false`
- Coverage: Proved for every model of SQL values and every environment: the printed text of every tidy tree and query, in both modes, reads as a parse tree with the same meaning, and the tree read back has the same meaning. Missing: trees outside Tidy/Fits/Rows; C14_quote_false, C14_distinct_false and C14_limit_zero_false show the full claim is false.

### C15 Parentheses are emitted whenever precedence requires them (partial)

For every operator pair, an operand whose operator binds weaker is wrapped in parentheses, so the parser never regroups operands. *For every ordered pair of operator classes and both operand positions, every operand.*

- Model and proof: `pemdas` and the `to_string` methods. Required ranks are written down from the grammar in Spec/Grouping; each operand position is compared with them, and the reader is shown to group the printed text as the tree does.
- `GroupingProps`: `C15_operator_operands_partial`, `C15_not_operand_partial`, `C15_sign_operand_partial`, `C15_isnull_operand_partial`, `C15_between_operands_partial`, `C15_in_operand_partial`, `C15_in_query_operand_partial`, `C15_like_operands_partial`, `C15_operator_kept_partial`, `C15_not_kept_partial`, `C15_isnull_kept_partial`, `C15_reached`
- `RoundTripLimits`: `C15_distinct_regroups`, `C15_subscript_regroups`, `C15_lambda_regroups`, `C15_comparison_unreadable`, `C15_predicate_unreadable`, `C15_distinct_unreadable`
- Coverage: For every operator and operand: the operand is wrapped exactly when the rank table asks for it, and left bare operands bind at least as tightly as the grammar needs, except the listed forgotten parentheses (comparison chains, predicates over comparisons, DISTINCT FROM operands), each with a proved witness.

### C16 Formatting is stable (partial)

Printing, parsing and printing again gives the same text as printing once. *For every printable expression and query, both modes.*

- Model and proof: Reading back gives `reread e` (C13, C27); a separate induction (`st_Expr`) shows that `reread e` prints the same text.
- `StableProps`: `C16_expression_partial`, `C16_query_partial`, `C16_reached`, `C16_query_reached`, `C16_comparison_false`, `C16_predicate_false`, `C16_double_negation_false`, `C16_minus_zero_false`, `C16_pretty_false`, `C16_variable_false`
- Coverage: Proved for every tidy, fitting and stable tree (Spec/Tidy, Spec/Fits, Spec/Stable), in both modes and with every indentation. The C16_*_false theorems show a tree of each excluded kind whose second text differs; the second text of C16_comparison_false cannot even be read. Missing: trees outside Tidy/Fits, of which C13/C27 show that they are not read back at all.

### C17 Pretty and default printing agree (partial)

Pretty-printed and default-printed text of one tree consist of the same tokens in the same order; they differ only in whitespace between tokens. *For every tree whose names and string literals contain no line break, every indent width below the wrap limit.*

- Model and proof: Both texts lex to the same token list, from `tx_expr`, whose right-hand side does not depend on the options.
- `TokenProps`: `C17_expression_tokens_partial`, `C17_query_tokens_partial`, `C17_comment`, `C17_line_break`
- Coverage: All tidy trees, any two option values. False for -(-x), whose text starts a comment, and for literals with line breaks (witnesses).

### C18 Default printing is one line (proved)

Text printed in default mode contains no line break unless a name or string literal of the tree does. *For every tree.*

- Model and proof: No printed piece contains a character at which Python's `splitlines` breaks; induction over the tree (`nb_*`).
- `OneLineProps`: `C18_expression`, `C18_query`, `C18_relation`
- `StableProps`: `C18_indentation`, `C18_query_indentation`, `C18_indentation_reached`
- Coverage: All node kinds, any depth. A line break is any character at which str.splitlines breaks; the hypothesis covers every name and literal text in the tree.

### C19 Wrapping a list keeps its content (proved)

A comma-joined list contains exactly the given items in order with exactly one comma between neighbours; in pretty mode the only other characters are line breaks placed after a comma. *For every list of strings, every width and indentation.*

- Model and proof: `joinLoop` (Printer): induction on the list with the current length generalised.
- `PrinterProps`: `C19_join_keeps_content`, `C19_default_single_row`

### C20 Wrapped lines fit (proved)

In pretty mode no wrapped line of a joined list is longer than the available width unless it holds a single item, and breaks are made only when the next item does not fit. *For every list of single-line strings, every width and indentation below it.*

- Model and proof: The same loop; the greedy layout is characterised in Spec/Layout and shown to be the only one.
- `PrinterProps`: `C20_rows_fit`, `C20_layout_unique`

### C21 Statement printing keeps clause order and rejects duplicate keywords (proved)

Clauses are printed in the order they were added, each keyword once; adding the same keyword twice raises; in pretty mode keywords are right-aligned to one column and continuation lines are indented past it. *For every sequence of keyword/text pairs.*

- Model and proof: `addEntries`, `updateEntries`, `stmtString`: invariant that the keys are distinct and in order.
- `PrinterProps`: `C21_entries`, `C21_update`, `C21_default_text`, `C21_pretty_text`, `C21_river_text`

### C22 Indentation only adds leading spaces (partial)

Padding a block of text keeps its first line, and prefixes every other line with exactly the given number of spaces, changing no other character. *For every string and indent.*

- Model and proof: `pad`/`splitlines`: induction on the text; `linesOf` in Spec/Layout is the independent notion of line.
- `PrinterProps`: `C22_pad_partial`, `C22_indentBy_lines`, `C22_pad_loses_text`
- Coverage: Proved for text whose only line break is newline and which does not end in one; false otherwise (witness).

### C23 Identifiers survive quoting (partial)

A column, table or alias name printed by the library is read back by the parser as that same name, whatever characters it contains. *For every name string.*

- Model and proof: `quoteIdent` against the lexer rule QUOTED_IDENTIFIER and the visitor.
- `NameProps`: `C23_quoted_name_partial`, `C23_quote_breaks_name`
- Coverage: Names without double quotes; false otherwise (witness).

### C24 String literals survive quoting (partial)

A string literal printed by the library is read back as that same string, whatever characters it contains. *For every string.*

- Model and proof: `quoteLit` against the lexer rule STRING and the visitor.
- `NameProps`: `C24_quoted_string_partial`, `C24_literal_text`, `C24_quote_breaks_string`
- Coverage: Strings without single quotes; false otherwise (witness).

### C25 Qualified names are unambiguous (partial)

Two different (catalog, schema, table) triples or (table, column) pairs never print to the same text, and the parser recovers the parts. *For every tuple of names.*

- Model and proof: `chainIdents` against the lexer: the token list determines the parts.
- `NameProps`: `C25_parts_partial`, `C25_injective_partial`, `C25_columns_partial`, `C25_tables_partial`, `C25_quotes_confuse`
- Coverage: Names without double quotes, non-empty qualifiers; false otherwise (witness).

### C26 Negation rewrites are exact (partial)

Each rewritten negation (IS NOT NULL, NOT LIKE, NOT IN, NOT BETWEEN, IS NOT DISTINCT FROM, <> and =) denotes the three-valued negation of the original predicate, in both modes. *For every negated predicate with arbitrary operands.*

- Model and proof: Texts of `sqlN true` for every negatable class; that they denote the negation follows from C14 with Spec/Negation, Kleene logic.
- `MeaningProps`: `C26_denotes_partial`, `C26_predicates`, `C26_isnull_text`, `C26_between_text`, `C26_in_text`, `C26_in_query_text`, `C26_like_text`, `C26_distinct_text`, `C26_eq_text`, `C26_ne_text`, `C26_reached`, `C26_example`
- Coverage: The texts of all negated predicates are proved for arbitrary operands and options; that the text denotes the three-valued negation is proved for tidy operands.

### C27 Query text round trip (partial)

Printing a query and parsing the text gives back the same query. *For every query of the printable fragment: any nesting of subqueries, joins, grouping, ordering, windows, both modes.*

- Model and proof: As C13 with `Query`, `Rel`, `Win`, `GroupBy` (`tx_query`, `pl_query`, `cv_query`).
- `ReadableProps`: `C27_readable_partial`, `C27_text_determines_tree_partial`
- `RoundTripLimits`: `C27_set_operations_refused`, `C27_union_refused`, `C27_union_refused_reached`, `C27_set_operation_false`, `C27_nested_parentheses_false`, `C27_aliased_join_false`, `C27_fetch_first_dropped`, `C27_distinct_dropped`, `C27_trailing_text_ignored`
- `RoundTripProps`: `C27_round_trip_partial`, `C27_exact_partial`, `C27_reached`
- Coverage: Whole queries, any depth, both modes, under the same conditions. False for every printed set operation (C27_set_operations_refused: none is read back; C27_union_refused: AttributeError), nested parentheses, aliased joins (witnesses); FETCH FIRST, COUNT(DISTINCT) and trailing text are dropped silently by the reader (witnesses).

### C28 Limits and offsets are not lost (partial)

A LIMIT, OFFSET or ORDER BY set on a query appears in its printed text with the same value. *For every query object and every limit/offset value.*

- Model and proof: `Query.sql`: inversion of the entry list (uses C29).
- `QueryProps`: `C28_limit_partial`, `C28_offset_partial`, `C28_zero_lost`, `C28_set_operation_loses_all`
- Coverage: Full claim is false: LIMIT 0 / OFFSET 0 are not printed (C28_zero_lost) and a set operation prints none of its own clauses (C28_set_operation_loses_all). Proved for non-zero values on SELECT, TABLE and VALUES queries.

### C29 Clauses print in SQL order (partial)

The clauses of a printed SELECT appear in the order WITH, SELECT, FROM, WHERE, GROUP BY, HAVING, WINDOW, ORDER BY, OFFSET, LIMIT, each at most once and present exactly when set. *For every select query.*

- Model and proof: `Query.sql` against the clause list of Spec/QueryText: the entries are exactly the set clauses, in order.
- `QueryProps`: `C29_clauses_partial`
- Coverage: Full clause list and layout for SELECT, TABLE and VALUES queries. Partial because LIMIT 0 and OFFSET 0 are set but not printed (C28_zero_lost). Set operations print no clauses (C28, C30).

### C30 Set operations keep their operands and quantifier (partial)

A printed UNION/INTERSECT/EXCEPT contains both operands in order, parenthesised, with the right keyword and quantifier; INTERSECT and EXCEPT refuse anything but DISTINCT; the row type of a union is computed column by column from its operands. *For every pair of queries, both quantifiers, both modes.*

- Model and proof: `QBody.sql` on `.set` and `setQueryType`.
- `QueryProps`: `C30_text`, `C30_quantifier`, `C30_union_single`, `C30_union_type_partial`, `C30_column_count_unchecked`
- Coverage: Text and quantifier proved; typing proved for unions of equal column counts and for sides that are no rows, column counts are not compared (C30_column_count_unchecked), INTERSECT/EXCEPT have unknown type.

### C31 Only meaningful joins exist (partial)

A join configuration can be built exactly when a natural join has no criteria, a cross join has neither, and every other join has exactly one of natural or criteria; every join that can be built can be printed. *For every join type, natural flag and criteria.*

- Model and proof: `joinConfigOk` (Typing) against the grammar's join forms.
- `NodeProps`: `C31_config_partial`, `C31_meaningless_accepted`
- Coverage: The code refuses only part of the meaningless configurations: cross+natural and criteria-less joins are accepted (witness).

### C32 Table references keep their parts (partial)

A dotted table name of one to three parts becomes a table with the corresponding catalog, schema and name; a catalog without a schema is refused; longer names are refused. *For every list of name parts.*

- Model and proof: `tableFromQualifiers` (Typing) and `TableRef.sql`.
- `NameProps`: `C32_constructed`, `C32_parts`, `C32_round_trip_partial`, `C32_long_names_truncated`
- Coverage: Longer names are truncated instead of refused (proved); the rest proved for names without double quotes.

### C33 Schema merge laws (partial)

Merging schemas keeps the left columns first and in order, adds each right column not already present, unites relation names, has the empty schema as identity and is idempotent and associative. *For every schema.*

- Model and proof: `Schema.merge` (Schema) against a declarative description of columns (Spec/Schemas).
- `SchemaProps`: `C33_merge`, `C33_contains`, `C33_right_identity`, `C33_left_identity_partial`, `C33_left_identity_fails`, `C33_idempotent`, `C33_associative`, `C33_succeeds`, `C33_distinct_subqueries_merged`, `C33_mixed_sources_raise`
- Coverage: Exact description of the merged columns; idempotence, associativity and containment on success; success condition. False: empty schema is not a left identity when a column is repeated; columns of two subqueries are taken for equal; a subquery column against a table column of the same name raises (all proved).

### C34 Unqualified columns resolve to the unique match (proved)

Resolving an unqualified column against the visible schema gives it the type of the one column of that name; with several candidates it raises; with none it is left unchanged. *For every schema and every column name.*

- Model and proof: `makeField` on an unqualified name, and `walkExpr` for every reference at any depth.
- `SchemaProps`: `C34_found`, `C34_ambiguous`, `C34_missing`, `C34_everywhere`
- Coverage: Unique match, ambiguity, no match, and every reference at any depth of a resolved expression.

### C35 Qualified columns resolve within their table (partial)

Resolving table.column gives the type of that column in that table. *For every schema, table and column.*

- Model and proof: `makeField` on a qualified name.
- `SchemaProps`: `C35_found_partial`, `C35_unknown_table`, `C35_two_columns_raise`, `C35_name_ignored`
- Coverage: False of the code for tables with more than one column (raises) and the name is not compared (both proved).

### C36 Select output schema (partial)

The schema of a resolved SELECT has one column per select item, in order, with the item's name and type, stars expanded to the columns in scope. *For every select list and every source schema.*

- Model and proof: `Query.resolve` on SELECT.
- `SchemaProps`: `C36_star_type`, `C36_select_partial`, `C36_no_from`, `C36_query`, `C36_star_not_expanded`
- Coverage: Proved for any select list; a star counts as one unnamed column of row type instead of being expanded (witness).

### C37 Scopes do not leak (partial)

Columns of an inner subquery are visible outside only through that subquery's own output; common table expressions are visible to later ones and to the body only. *For every nesting of queries.*

- Model and proof: `Query.resolve`, `Rel.resolve`: non-interference, two outer schemas give the same result.
- `SchemaProps`: `C37_subquery_closed`, `C37_from_subquery_closed`, `C37_output_only`, `C37_with_visible_partial`, `C37_table_in_scope`, `C37_table_not_in_scope`, `C37_with_not_visible_to_later`, `C37_with_not_visible_in_subquery`, `C37_with_not_visible_in_union`, `C37_expression_subquery_leaks`
- Coverage: FROM subqueries closed, output only, WITH visible to the body. False of the code: definitions do not see earlier ones, subqueries and set operation sides do not see the WITH clause, subqueries inside expressions see the columns around them (witnesses).

### C38 Relation aliases rename columns (proved)

Resolving an aliased relation gives the source's columns with the alias names in order, tied to the alias. *For every relation, alias and alias list.*

- Model and proof: `Named.resolve`.
- `SchemaProps`: `C38_alias`, `C38_columns`, `C38_too_few`
- Coverage: Exact columns with and without a column list; too short a list raises.

### C39 Tree equality is an equivalence (partial)

equals is reflexive, symmetric and transitive, and holds exactly for structurally identical trees. *For every pair and triple of trees.*

- Model and proof: `Obj` (Object) is the Python object of a tree, `pyEq` Python's `==`, `asdict` the recursive conversion. Reflexive, symmetric, transitive by induction on objects; structure by injectivity of `Expr.obj` up to Spec/Identity.
- `EqualityProps`: `C39_reflexive`, `C39_symmetric`, `C39_transitive`, `C39_structure_partial`, `C39_expression_objects`, `C39_query_objects`, `C39_relation_objects`, `C39_class`, `C39_structure_reached`, `C39_operator_false`, `C39_function_false`, `C39_set_false`, `C39_order_false`, `C39_value_false`
- Coverage: Equivalence is proved for all nodes (window dicts with distinct keys, as in Python). That equal nodes are identical is false (C39_*_false: operator, function, set operation, order of named windows, value of constants) and proved for nodes of the same shape (Spec/Identity.lean). Objects are in Verif/Object.lean; a table that is the source of its own remembered columns is a cyclic object, on which asdict does not return, and is outside the model.

### C40 Lambda construction binds exactly its inputs (partial)

Building a lambda from a generic expression turns every unqualified column whose name is an input into a bound variable and changes nothing else; duplicate inputs are refused; nested lambdas shadow. *For every expression and input list.*

- Model and proof: `lambdaOf` (Schema, Walk): exact result as a tree map (Spec/TreeMap).
- `SchemaProps`: `C40_binds_partial`, `C40_duplicate_inputs`, `C40_no_column_left`, `C40_nested`, `C40_exact`, `C40_table_raises`
- Coverage: C40_exact gives the result for every input list and expression. The claim is false for expressions that contain a table, for which building always raises (C40_exact, C40_table_raises).

### C41 Function calls keep their arguments (partial)

A call parsed from SQL and printed again has the same function name and the same arguments in the same order. *For every registered function, every legal argument list.*

- Model and proof: Call texts for every function name; reading by C53 and `Convert`. Calls of the functions with a syntax of their own by quoted names: `specialOf` against Spec/Calls (`SpecialCall`).
- `CallProps`: `C41_text`, `C41_kept_partial`, `C41_own`, `C41_words`, `C41_star`, `C41_reached`, `C41_swapped`, `C41_distinct_lost`, `C41_own_reached`, `C41_own_fails`
- Coverage: For every text that is a call (any spelling, any arguments). The swapped APPROX_PERCENTILE arguments (C41_swapped) are a defect of the code; DISTINCT in front of the arguments is dropped (C41_distinct_lost). Functions with a syntax of their own are reachable by a quoted name; C41_own says what such calls are read as. The arguments LISTAGG, NORMALIZE and the time functions would take beyond the first are not modelled there.

### C42 Concatenation typing (partial)

The type of a concatenation is unknown if any operand is unknown; char length is the sum of lengths; array concatenation keeps element supertypes and depth. *For every list of operand types.*

- Model and proof: `concatType` (Typing).
- `NodeProps`: `C42_unknown`, `C42_char_length_partial`, `C42_unbounded_varchar_counts_one`, `C42_varchar`, `C42_varbinary`, `C42_array_partial`, `C42_element_supertype_lost`
- `OperatorTypeProps`: `C42_depths`
- Coverage: CHAR with unbounded VARCHAR counts one character; array element supertypes are lost (witnesses).

### C43 Conditional typing (partial)

IF, COALESCE, NULLIF, TRY and CASE take their type from their result operands by common supertype and never from their conditions. *For every operand list.*

- Model and proof: `fnType`, `firstType` (Typing).
- `NodeProps`: `C43_if_condition`, `C43_types`, `C43_coalesce_same`, `C43_case_first_branch`, `C43_coalesce_unknown_raises`, `C43_case_partial`
- Coverage: CASE takes the type of its first branch only; COALESCE of unknown operands raises (witnesses).

### C44 Order terms print minimally and exactly (partial)

An order term prints ASC and NULLS LAST implicitly and everything else explicitly, and the parser recovers exactly the same term. *For every term.*

- Model and proof: `Ord.sql`, and reading of the rule `sortItem`.
- `ClauseProps`: `C44_text`, `C44_distinct`, `C44_reading`, `C44_recovered_partial`, `C44_reached`
- Coverage: C44_text: the exact suffix in every mode; C44_distinct: different directions/null orders never print alike; C44_reading: every way of writing a term is read as the right term. Missing: terms whose value is itself not read back (see C13).

### C45 Grouping prints exactly (partial)

GROUP BY with sets, cubes and rollups prints so that the parser recovers the same grouping. *For every grouping.*

- Model and proof: `GroupBy.sql`, reading of `groupBy`.
- `ClauseProps`: `C45_recovered_partial`, `C45_reached`, `C45_row_lost`, `C45_subquery_lost`
- Coverage: Printed GROUP BY reads back. Missing: values not read back (C13) and a grouping set made of one row constructor, which prints like a set of several values (C45_row_lost proves the confusion), or of one query, which loses its parentheses (C45_subquery_lost).

### C46 Windows print exactly (partial)

A window specification prints its parent, partition, order and frame in order, and the parser recovers the same window. *For every window.*

- Model and proof: `Win.sql` against Spec/Clauses; reading of `over`.
- `ClauseProps`: `C46_text`, `C46_recovered_partial`, `C46_reached`, `C46_over_name`, `C46_parent_clash`
- Coverage: C46_text: parent, partition, order, frame in order, in every mode. Missing: values not read back (C13), parent names that are keywords; a parent called RANGE makes printing fail (C46_parent_clash).

### C47 Interval literals keep sign and unit (partial)

Parsing an interval literal keeps value, sign and units; printing gives text that parses to the same interval. *For every interval literal.*

- Model and proof: The visitor on interval parse trees (Convert) and `Expr.sql` on intervals.
- `LiteralProps`: `C47_reading_partial`, `C47_reached`, `C47_sign_reached`, `C47_printed_without_quotes`, `C47_unreadable`
- Coverage: Reading proved (sign, value, units). Printing omits the quotes, so the printed text of a whole-number interval never parses: proved for all such intervals.

### C48 Decimal literals keep their value (partial)

Parsing a decimal literal gives exactly the written value. *For every decimal literal, any number of digits.*

- Model and proof: `Dec` (digits, exponent, sign), the visitor on decimal literals, `Dec.negate` with the 28-digit context.
- `LiteralProps`: `C48_value`, `C48_accepted`, `C48_negative_partial`, `C48_long_negative_false`, `C48_too_long_refused`, `C48_reached`
- Coverage: Proved for unsigned decimals; a minus sign rounds values of more than 28 digits (witness), proved up to 28 digits.

### C49 Visitors reach every child (partial)

Visiting a node hands every child node to the visitor exactly once. *For every node class.*

- Model and proof: `Obj.visit` (Visit) runs the `visit` methods as step programs; `children` (Spec/Children) looks at the attributes. Every class by cases, whole trees by induction on depth.
- `VisitProps`: `C49_children_partial`, `C49_traversal_partial`, `C49_closed`, `C49_at_most_once`, `C49_dispatch_partial`, `C49_returns`, `C49_qdigest_false`, `C49_select_false`, `C49_orderby_false`, `C49_aggregate_false`, `C49_listagg_false`, `C49_cross_join_false`, `C49_lambda_false`, `C49_traversal_reached`, `C49_traversal_join`
- Coverage: Children are nodes held by attributes, lists and dict values; data types do not count. Exactly once for the classes in Spec.covered, at most once for all; the other classes leave children out or hand over something else (witnesses proved for all their instances). Whole-tree traversal follows for trees of covered nodes.

### C50 Resolving preserves everything but types (partial)

Resolving fields in a tree changes only the data types of columns and computed types; shape, operators, names and literals are untouched, and resolving against an empty schema changes nothing. *For every tree and schema.*

- Model and proof: `resolveFields` and `Query.resolve` are a tree map that changes types only (Spec/TreeMap, Spec/Columns), by induction.
- `ResolveProps`: `C50_meaning_expression`, `C50_meaning_query`
- `SchemaProps`: `C50_expression`, `C50_expressions`, `C50_query`, `C50_body`, `C50_from`, `C50_with`, `C50_named`, `C50_relation`, `C50_empty_partial`, `C50_star_empty`
- Coverage: Expressions, queries, relations, WITH clauses at any depth. Empty schema: unchanged except stars, which get the empty row type (witness).

### C51 Current-time functions keep precision (proved)

CURRENT_TIME, CURRENT_TIMESTAMP, LOCALTIME and LOCALTIMESTAMP print their precision exactly when it differs from the default, and parse back to the same precision and type. *For every precision.*

- Model and proof: `curTimeText`, `curTimeType`, reader.
- `LiteralProps`: `C51_text`, `C51_type`, `C51_read_back`, `C51_reached`
- Coverage: Text, type and read-back, all precisions.

### C52 Lexing is total and lossless (proved)

Tokenising any text consumes every character and the token texts, with skipped whitespace and comments, spell the input. *For every text.*

- Model and proof: `lexOne`/`lex` (Lexer) against the rules stated as languages in Spec/LexSpec; induction on the text.
- `LexerProps`: `C52_lossless`, `C52_tokens_nonempty`, `C52_longest_match`, `C52_deterministic`, `C52_keywords`, `C52_operators`, `C52_classes`

### C53 Parsing is sound (proved)

If a text parses as an expression or type, the parse tree's leaves are exactly the tokens of the text. *For every token sequence.*

- Model and proof: `P`, the least fixed point of the parser step, against the derivation relation of Spec/Grammar (`Wf`, `yield`): soundness by induction on fuel, completeness on plain derivations by induction on the tree.
- `CasingProps`: `C53_expression_complete_cased`, `C53_query_complete_cased`
- `ParseProps`: `C53_expression_sound`, `C53_query_sound`, `C53_comparison_operands`, `C53_left_associative`, `C53_expression_complete`, `C53_query_complete`, `C53_unambiguous`, `C53_unambiguous_queries`, `C53_expression_complete_reached`, `C53_expression_sound_reached`, `C53_query_sound_reached`
- `TypeTextProps`: `C53_types_sound`, `C53_type_text_sound`, `C53_type_text_complete_consumption`
- Coverage: Types, expressions and queries: whatever is accepted is a derivation of the written grammar with exactly the tokens of the text, precedence and associativity included; plain derivations (every form of expression, query and relation, with keywords in upper case, names that are none of the special words, and types as they are printed) are found and are unambiguous; reserved words other than DISTINCT may also be in lower case. Error recovery of the parser generator is outside the model: a text that is not derivable is an error.

### C54 Python operators build the expected nodes (partial)

a + b, 1 + a, a < b and so on build the node of the corresponding SQL operator with operands in source order, literals wrapped. *For every pair of operands.*

- Model and proof: `pyBinary`, `pyReflected`, `pyUnary`.
- `NodeProps`: `C54_text`, `C54_pow_text`, `C54_builds`, `C54_reflected_meaning`, `C54_literal_left_raises`, `C54_node_partial`, `C54_unary`
- Coverage: Reflected arithmetic and logic with a literal on the left raises (witness); everything else proved.

### C55 Inferred time precision is the number of fraction digits (partial)

A TIME or TIMESTAMP typed literal gets as precision the number of digits after the decimal point of its text. *For every literal text.*

- Model and proof: `inferTimelikePrecision` on the text of the constructor.
- `NodeProps`: `C55_fraction_digits`, `C55_no_fraction`, `C55_time_type_partial`, `C55_time_whole_partial`, `C55_timestamp_precision_lost`, `C55_timestamp_false`, `C55_zone_false`
- Coverage: TIME literals proved exactly. False for TIMESTAMP, whose inferred precision is lost for every text (C55_timestamp_precision_lost, C55_timestamp_false), and for offsets without a blank in front (C55_zone_false).

### C56 Every constructed tree can be printed (partial)

A tree that its constructors accept can be printed: sql returns text and does not raise. *For every tree, both modes, every indentation.*

- Model and proof: `Expr.sqlN` and `Expr.check` by one mutual induction in each direction; `Printable` (Spec) names the two excluded kinds of node.
- `PrintableProps`: `C56_printed_partial`, `C56_query_partial`, `C56_relation_partial`, `C56_same_for_all_options`, `C56_printed_is_printable`, `C56_normalize_false`, `C56_window_false`, `C56_window_reached`, `C56_indentation_false`
- Coverage: Exact characterisation on accepted trees (iff): with indentation below 80, sql returns text exactly if the tree contains no NORMALIZE and no window whose parent is named like the first word of one of its clauses. The excluded cases are proved to raise: C56_normalize_false, C56_window_false, C56_indentation_false.

### C57 Reading SQL preserves its meaning (partial)

The tree that expression_from_sql or query_from_sql returns for a text denotes the same value, in every environment, as the text does under the rules of SQL. *For every text that the parser accepts, written by hand or printed; every interpretation of columns, tables and functions.*

- Model and proof: The visitor `CE.conv` (Convert) from parse trees to trees preserves the meaning of Spec/SqlMeaning, for every parse tree that is `kept`; by induction on the parse tree (`cm_*`).
- `ReadingProps`: `C57_expression_partial`, `C57_query_partial`, `C57_same_partial`, `C57_expression_reached`, `C57_query_reached`, `C57_quoted_name_false`, `C57_quoted_string_false`, `C57_quotes_stripped_false`, `C57_parentheses_false`, `C57_distinct_false`, `C57_percentile_false`, `C57_quoted_word_false`, `C57_window_false`, `C57_interval_false`, `C57_decimal_false`, `C57_fetch_false`, `C57_all_columns_false`, `C57_long_name_false`, `C57_double_parentheses_false`, `C57_exists_false`, `C57_case_operand_false`, `C57_window_names_false`, `C57_zone_false`, `C57_zone_dropped`, `C57_quantified_refused`, `C57_binary_false`, `C57_zone_reached`
- Coverage: Proved for every accepted text, every model and environment, provided the parse tree is kept (Spec/Kept.lean: none of the constructs the visitor is known to change or drop). The C57_*_false theorems show, in the term model, a text of each excluded kind whose tree has another meaning. Double literals are constants of the double that Python holds. Unicode string literals are included when every escape has four digits.

### C58 Resolving twice changes nothing (proved)

Resolving a query, relation or expression that has already been resolved against the same schema returns the same output columns and leaves the tree as it is. *For every query, relation and expression that resolves; every schema.*

- Model and proof: `Query.resolve` (Schema) returns the changed tree and its columns; generated mutual induction for `resolve_fields` (Lemmas/WalkIdem), then mutual induction over queries and relations.
- `ResolveProps`: `C58_expression`, `C58_expressions`, `C58_query`, `C58_body`, `C58_from`, `C58_with`, `C58_named`, `C58_relation`, `C58_reached`

### C59 The format command only changes layout (partial)

treeno format prints the pretty text of what was read: resolving the query beforehand adds nothing to the text, and formatting the formatted text prints it again. *For every input text.*

- Model and proof: `formatCommand` (Cli); printing ignores the types that resolution fills in (generated induction, Lemmas/Forgets) and C50, C16, C27 give the rest.
- `CliProps`: `C59_resolving_keeps_text`, `C59_resolving_keeps_text_expression`, `C59_query`, `C59_query_again_partial`, `C59_expression_again_partial`, `C59_type_again_partial`, `C59_reached`, `C59_refused`
- Coverage: C59_query is exact (iff). Formatting again: proved for query trees in the round-trip fragment of C27 that are read back exactly, for stable expressions (C16) and readable types (C01); outside those fragments printing itself is not faithful (see C13, C16, C27). C59_refused: a VALUES query cannot be formatted, because its resolution raises.

### C60 The schema command lists the output columns (partial)

treeno schema prints one line per output column of the query, in order, with its name and type, and says so when a column has no name. *For every input text.*

- Model and proof: `schemaCommand` (Cli) against `Lists` (Spec/Listing), with C58 for the second resolution.
- `CliProps`: `C60_columns`, `C60_listing_partial`, `C60_reached`, `C60_unnamed_false`
- Coverage: C60_columns is exact (iff), C60_listing_partial covers named columns of known type. False for unnamed columns, which are listed under the name None (C60_unnamed_false).

### C61 Reading keeps the clauses of a query (partial)

The tree that query_from_sql returns for a SELECT has the clauses that are written: as many items, a FROM, WHERE or HAVING exactly when there is one, DISTINCT, as many grouping elements, the directions of ORDER BY, the offset, the limit and as many common table expressions; likewise the operand, branches and ELSE of a CASE. *For every text that the parser accepts.*

- Model and proof: inversion of `CQ.conv` on arbitrary parse trees, against the clauses as written (Spec/Written); which sub-trees are read as `None` is characterised exactly.
- `WrittenProps`: `C61_clauses_partial`, `C61_none`, `C61_case_partial`, `C61_unsupported`, `C61_reached`, `C61_where_false`, `C61_from_false`, `C61_parentheses_false`
- Coverage: Exact (iff) for every accepted SELECT. Partial because the claim is false in two cases, which the statement names: a WHERE, HAVING or CASE operand of a form without visitor method (binary literals, EXISTS, POSITION, SUBSTRING, EXTRACT, TRIM, GROUPING) is dropped (C61_where_false), and so is a FROM that is a query in more than one pair of parentheses (C61_from_false).

### C62 The tree command shows the whole tree (partial)

treeno tree shows every node of what was read, under the name of its class, and leaves out nothing that matters: two inputs that are displayed alike are formatted alike. It shows something for every input that can be read. *For every input text; every tree.*

- Model and proof: `treeCommand` (Tree); generated mutual inductions show that every node of an object is in its picture (Lemmas/TreeOk, TreeShown) and that the picture determines the tree (Lemmas/TreeInj, TextInj); every constant that is read has a type of its kind (Lemmas/ConvLits).
- `TreeProps`: `C62_constants_expression`, `C62_constants_query`, `C62_typed_expression`, `C62_typed_query`, `C62_query`, `C62_query_total`, `C62_expression`, `C62_expression_total`, `C62_type_false`, `C62_type_reached`, `C62_nodes_query`, `C62_nodes_expression`, `C62_choices`, `C62_sort_key`, `C62_window_false`, `C62_determines_expression_partial`, `C62_determines_query_partial`, `C62_same_picture_query`, `C62_same_picture_expression`, `C62_untyped_false`, `C62_reached`, `C62_same_picture_reached`
- Coverage: C62_query, C62_expression: exact (iff). C62_same_picture_query and _expression hold for all inputs; for trees built by hand C62_determines_* need constants of a type of their kind (C62_untyped_false). False for types, for which the command always fails (C62_type_false), and for the class of named windows (C62_window_false). nltk's drawing of the tree is not modelled.

### C63 Operators have the type of their result (partial)

Comparisons, logical operators and predicates are BOOLEAN and can be built over any operands; the arithmetic operators agree on whether a node can be built and on its type; the difference of two dates, timestamps or times is an INTERVAL DAY TO SECOND; a sign keeps the type; arrays, rows, casts, SELECT and VALUES take their types from their contents. *For every operator and operands of every type.*

- Model and proof: `binType`, `Expr.check`, `QBody.check` (Typing) case by case, against names of types and, for C42, an inductive depth of arrays.
- `OperatorTypeProps`: `C63_tests`, `C63_predicates`, `C63_predicates_build`, `C63_interval`, `C63_current`, `C63_arithmetic_agree`, `C63_difference_partial`, `C63_difference_builds`, `C63_difference_raises`, `C63_containers`, `C63_select`, `C63_values`, `C63_reached`
- Coverage: C63_difference_partial needs that the difference can be built: two TIMESTAMPs, or two TIMEs, of different precision or zone raise (C63_difference_raises), because get_arithmetic_type does.

### C64 Calls have the documented result type (partial)

The data type of a function call is the result type that the Trino documentation gives for that function, whatever the arguments, ORDER BY, FILTER or window. *For every registered function, every legal argument list.*

- Model and proof: `fnType`, `aggType` (Typing) against a table of documented results by SQL name (Spec/ResultTypes).
- `ResultTypeProps`: `C64_scalar_partial`, `C64_aggregate_partial`, `C64_containers`, `C64_extrema`, `C64_extrema_count_false`, `C64_sum_false`, `C64_unixtime_false`, `C64_statistics_unknown`, `C64_kurtosis_refused`, `C64_reached`
- Coverage: False for FROM_UNIXTIME of a number and the one-column statistics (UNKNOWN), SUM of a narrow integer, MAX/MIN/MAX_BY/MIN_BY with a count, and KURTOSIS, which cannot be built with its one argument; all shown.

### C65 Chains of set operations group as in SQL (proved)

q0 UNION q1 INTERSECT q2 EXCEPT q3 … is read with every INTERSECT before every UNION and EXCEPT and otherwise from left to right; an operation is DISTINCT unless ALL is written; ORDER BY after the last operand orders the whole chain. *For chains of every length, of every operations, quantifiers and operands.*

- Model and proof: `pQTerm`, `pQLoop` (Parse) and `CQT.conv` (Convert) on chains of arbitrary length, against a left-to-right grouping with a waiting operation (Spec/SetChain), by completeness of the parser (C53).
- `SetProps`: `C65_chain`, `C65_ordered`, `C65_reached`, `C65_precedence`
- Coverage: Chains of any length of SELECT, TABLE and VALUES operands that can be read back, with any operations and quantifiers; the grouping is compared with a separate left-to-right definition. Operands in parentheses are refused by the visitor (C27_set_operations_refused).

### C66 The case of keywords does not matter (partial)

Writing keywords of a text in lower instead of upper case, or the other way round, does not change whether the text is accepted nor the tree that expression_from_sql, query_from_sql or type_from_sql returns. *For every text and every choice of keywords whose case is changed.*

- Model and proof: the parser commutes with every change of tokens that keeps keywords up to case (Lemmas/Respell*, by induction along the fixed point of Parser), and so does the conversion, for fixed `spelled` words (Spec/Casing, Lemmas/ConvRespell); two texts are images of one token list with marked keywords (Lemmas/Marks).
- `CasingProps`: `C66_expression_accepted`, `C66_query_accepted`, `C66_expression_reserved_partial`, `C66_query_reserved_partial`, `C66_expression_partial`, `C66_query_partial`, `C66_type_partial`, `C66_distinct_lower`, `C66_limit_all_lower`, `C66_sample_lower`, `C66_interval_lower`, `C66_interval_value_lower`, `C66_name_case`
- Coverage: Acceptance never depends on case. The tree does not depend on the case of reserved words other than DISTINCT, nor on any keyword that is not used as a name, interval field, quantifier, LIMIT ALL or sampling method; for types, on any word but interval fields. False in general: distinct, limit all, tablesample bernoulli and interval fields in lower case raise (witnesses).

### C67 Schemas of joins and other relations (partial)

The schema of a resolved join has the columns of the left side followed by those of the right side, columns of USING once; a sample or LATERAL has the columns of what it contains; UNNEST has one column per array with the type of its elements, two for a map, and one more with ORDINALITY; a set operation has the names and types of its left side; TABLE t has the columns of t; VALUES has one unnamed column per value. *For every relation and every schema around it.*

- Model and proof: `Rel.resolve`, `Query.resolve` (Schema), inverted case by case, on top of C33.
- `RelationProps`: `C67_join_partial`, `C67_join_disjoint`, `C67_using_not_joined`, `C67_join_kind`, `C67_sample`, `C67_lateral`, `C67_unnest_partial`, `C67_ordinality_missing`, `C67_unnest_map`, `C67_set`, `C67_table`, `C67_table_order`, `C67_values_raise`
- Coverage: Column order and names proved for all relations. False of the code: a join drops columns of its right side that equal one of its left side (C33_distinct_subqueries_merged), USING columns appear twice, WITH ORDINALITY adds no column, a map gives one column of unknown type, VALUES raises (witnesses).

### C68 White space and comments do not matter (proved)

Replacing the white space between tokens by other white space never changes what expression_from_sql, query_from_sql or type_from_sql returns or raises. Nor does writing white space and comments, in any amount, between the tokens of a text without unknown characters, as long as no line comment directly follows a minus sign or an opening brace. *For every text, every choice of white space and comments at every place.*

- Model and proof: `toks` (Lexer) against Spec/Gaps: by C52 the lexer is the longest-match rule, and no rule matches a token together with part of the gap after it (Lemmas/Gaps); for white space alone, a longer match in the new text gives one in the old text (Lemmas/Relaid).
- `LayoutProps`: `C68_white_space`, `C68_tokens`, `C68_comments`, `C68_minus_comment`, `C68_open_quote`
- Coverage: White space for all texts; comments for texts without unknown characters, with no line comment directly after a minus sign or brace (witnesses show that both conditions are needed).

### C69 Ways of writing a data type (partial)

type_from_sql returns a type exactly for the documented ways of writing it: its name in any spelling, quoted or not, with its parameters or their defaults, TIME and TIMESTAMP with or without precision and time zone, DOUBLE PRECISION, the two intervals, ROW, MAP, ARRAY(t) and t ARRAY, nested to any depth; every other text is refused. The same holds for the type in a CAST. *For every text and every type.*

- Model and proof: `pType`, `CTy.conv` (TypeParse) and `mkType` (Types) against an inductive list of spellings (Spec/TypeSpelling): one direction from soundness of the parser (C53), the other by completeness of the parser on every spelling.
- `SpellingProps`: `C69_exact_partial`, `C69_unique`, `C69_in_context`, `C69_time_zone`, `C69_array_of`, `C69_precision_limit`, `C69_named_field_fails`, `C69_named_field_word_fails`, `C69_alias_fails`, `C69_lower_case_interval_fails`, `C69_extra_parameter`
- Coverage: Exact for all texts. False of the code: named fields of a row, INT and DEC and intervals in lower case are refused; parameters beyond those of a type are ignored (witnesses).

### C70 Unicode string literals (partial)

U&'...' is read as the string it stands for: a character stands for itself, the escape character followed by four hexadecimal digits, or by a plus sign and six, stands for the character with that number, twice the escape character for itself; the escape character is the backslash unless UESCAPE names another. The type is VARCHAR with the length of that string. Any other use of the escape character is refused. *For every text between the quotes, every escape character.*

- Model and proof: `unicodeText` (Unicode: strip, replace, the codecs raw_unicode_escape and unicode_escape) against Spec/UnicodeSpec by induction over the text; the literals with four digits are all that is accepted (C70_exact), and for them the meaning of C57 is kept. C70_python_escapes says by a separate relation (Spec/PyEscape) what becomes of the other backslashes: the letter escapes, octal numbers and unknown escapes of Python's codec, for texts of any length.
- `UnicodeProps`: `C70_read_partial`, `C70_uescape_partial`, `C70_exact`, `C70_plain`, `C70_six_digits_fails`, `C70_six_digits_reached`, `C70_doubled_fails`, `C70_doubled_reached`, `C70_backslash_false`, `C70_empty_escape_rejected`, `C70_python_escapes`, `C70_quote_unprintable`
- Coverage: Read correctly for every text whose escapes have four digits and that has no other backslash or quote; with the default escape character these are exactly the texts without quotes that are accepted. False of the code: escapes with six digits and a doubled escape character are refused, with UESCAPE a backslash is taken for a Python escape, and a literal that stands for a quote gives a tree whose text cannot be read (witnesses).

### C71 Double literals keep their value (partial)

A double literal is read as a DOUBLE constant whose value is the binary64 number nearest to the number written, ties to even, and infinity from the overflow threshold on; it is printed with the shortest digits that stand for the same number, in a text that is read back as the same constant. *For every double literal: any digits, any exponent.*

- Model and proof: `floatOf` and `F64.str` (Double: CPython's `float` and `str` with integers) against IEEE rounding and shortest decimals over the rationals (Spec/DoubleSpec): rounding by the position of the last bit, uniqueness of the rounding, and that what is rounded to a number is an interval (Lemmas/Double); the text of a literal through the lexer (Lemmas/DoubleLex).
- `DoubleProps`: `C71_unique`, `C71_value_partial`, `C71_overflow`, `C71_never`, `C71_point_false`, `C71_large_unreadable`, `C71_small_unreadable`, `C71_infinity_false`, `C71_text`
- Coverage: Value, overflow and the printed digits are proved for every double literal. That the printed text is read back as the same constant is false of the code for every double literal (C71_never): from 0.0001 to 1e16 it is read as a DECIMAL, outside it cannot be read (exponents are printed with a lower-case e), and infinity is printed as a column name.

### C72 Reading composes (proved)

Expressions that a user has as text can be put together as text: if s and t are read as a and b, then (s) op (t), each closing parenthesis on a new line, is read as the node of op over a and b; likewise for NOT, signs, IS NULL, LIKE, BETWEEN, IN, ARRAY, calls, casts, CASE, subscripts, rows, subqueries, and for whole queries: SELECT lists with new names, joins, samples, WHERE, GROUP BY, HAVING, WINDOW, TABLE, VALUES, set operations from left to right with INTERSECT first, ORDER BY, OFFSET, LIMIT and WITH, every clause where it was written. Nothing inside a part reaches outside its parentheses, be it an operator, a keyword, a comment or a line end. *For every pair or list of texts, of any length and nesting, every operator, and queries with any number of items, joins, operands, keys and named queries.*

- Model and proof: `expressionFromSql` and `queryFromSql` against texts in parentheses (Spec/Compose): what a parser reads to the end of a text it reads in the same way before a closing parenthesis (Lemmas/Extend, ExtendMore), since accepted texts have balanced parentheses (BalanceWf, Scan) and their tokens do not join with a line end (CleanWf, LexClean). Whole queries (Spec/ComposeQuery: `*`, `(t).*` with or without column names, items with names; tables with schema and catalog, queries, UNNEST and LATERAL with names and column names, TABLESAMPLE; ON, USING, NATURAL and CROSS joins, nested in parentheses to any depth; WHERE, GROUP BY with sets, ROLLUP, CUBE and GROUPING SETS, HAVING, WINDOW; TABLE and VALUES; set operations, ORDER BY, OFFSET, LIMIT, WITH with column names): each clause is read up to the words that may follow it, by induction over the lists of items, joins, keys, windows, operands and named queries (Lemmas/ComposeQuery). Window names have to differ, since the later one replaces the earlier (C72_windows_false). Only joins may stand in parentheses of their own, since a query in two pairs of them is lost with the FROM (C72_parens_false); ROLLUP and CUBE need an operand (C72_rollup_false), a table in a catalog needs a schema that is not empty (C72_catalog_false), rows need a common type (C72_values_false), and `(t.r).*` keeps only the last name (C72_qualified_star_false). Aggregate calls with sort keys, FILTER, IGNORE or RESPECT NULLS and OVER, with a parent, partitions, order and frame: C72_window, C72_star (Spec/ComposeWindow).
- `ComposeMoreProps`: `C72_cast`, `C72_subscript`, `C72_row`, `C72_case`
- `ComposeProps`: `C72_parenthesised`, `C72_operator`, `C72_not_distinct`, `C72_concat`, `C72_like`, `C72_not_like`, `C72_not`, `C72_minus`, `C72_plus`, `C72_is_null`, `C72_is_not_null`, `C72_between`, `C72_in`, `C72_array`, `C72_call`, `C72_aggregate`, `C72_in_query`, `C72_select`, `C72_parentheses_needed`, `C72_line_end_needed`, `C72_converse_false`
- `ComposeQueryProps`: `C72_query`, `C72_query_read`, `C72_with`, `C72_union_operands_false`, `C72_qualified_star_false`, `C72_parens_false`, `C72_rollup_false`, `C72_catalog_false`, `C72_windows_false`, `C72_values_false`
- `ComposeWindowProps`: `C72_window`, `C72_star`
- Coverage: Parts are expressions other than a subquery already in parentheses, or queries read to the end of their text; names are those without a double quote. Operands of set operations stand without parentheses, since a query in parentheses is no operand in this code (C72_union_operands_false), and the constructors must accept them. That the parentheses and the line end are needed, and that the converse is false, is proved too.

### C73 Resolving objects in place (partial)

resolve assigns to attributes of the relation objects it meets. For objects that refer to each other in any way: the call has one outcome; it ends whenever the objects form a finite tree; whether it returns or raises, every relation of the program prints as before and means what it meant; objects that the relation does not use are left alone, and relations without common objects can be resolved in either order. The answer is the one for the tree of the objects, whichever objects are used at several places. *For every heap of objects, with any sharing, every schema.*

- Model and proof: `resolveAt` (Heap: relations as objects with references, assignments kept on exceptions), with no bound on the depth by `Resolves`; unfolding of objects to trees (Spec/Objects). Invariants over executions (Lemmas/HeapKept, HeapLocal), termination by the depth of the tree (HeapTree), refinement of the tree model `Rel.resolve` when nothing is shared (HeapRefine) and, with sharing, for every mixture of resolved and unresolved objects (HeapShared). C73_shared_table_false shows that the refinement fails for a shared table.
- `InPlaceProps`: `C73_deterministic`, `C73_terminates`, `C73_attributes`, `C73_text`, `C73_query_text`, `C73_query_meaning`, `C73_others`, `C73_local`, `C73_order`, `C73_unshared_partial`, `C73_twice`, `C73_shared_exact`, `C73_shared_twice`, `C73_own_reached`, `C73_shared_table_false`, `C73_shared_reached`, `C73_not_undone`
- Coverage: Everything but the last sentence is proved for every heap. The last sentence is proved when no object is used at two places (with exceptions), and with any sharing exactly if each object has one resolution (C73_shared_exact). It is false of the code otherwise: a table used twice remembers columns (C73_shared_table_false).

### C74 data_type of a resolved query (partial)

Once a query is resolved, its attribute data_type is the type of its only column or the row of the types of its columns. *For every query, every schema, any sharing of objects.*

- Model and proof: The last assignment of an execution of `resolveAt`, for any heap; set operations never assign (C74_set_never).
- `InPlaceProps`: `C74_select_partial`, `C74_set_never`, `C74_set_stale_false`, `C74_select_reached`, `C74_unnest`, `C74_unnest_reached`, `C74_no_from`, `C74_table`, `C74_table_reached`
- Coverage: Proved for SELECT. False of the code for set operations, which keep the data_type they were built with, and for TABLE t, which is UNKNOWN; VALUES cannot be resolved (C67).

### C75 Data types as objects (partial)

Building a data type from a name and a dict of parameters gives the type with those parameters and the defaults of the others, which prints as that type; building it leaves the dict and every other type alone. The builder functions (varchar(), decimal(), timestamp(), ...) give the type they are named after, in any sequence of calls. *For every name, every dict, any sharing of dicts between types, every sequence of calls.*

- Model and proof: A heap of dicts: `newType` writes into the dict it is given, so `C75_unchanged` and `C75_shared_exact` say exactly when that is harmless; the builder functions by induction on the sequence of calls, each with its own dict. `C75_zone`: a time type prints by what its dict holds at that moment.
- `TypeObjectProps`: `C75_construct`, `C75_text`, `C75_zone`, `C75_others`, `C75_added`, `C75_unchanged`, `C75_again`, `C75_shared_exact`, `C75_dict_kept_false`, `C75_shared_false`, `C75_no_arguments`, `C75_builder`, `C75_builder_others`, `C75_builders`, `C75_builders_reached`
- Coverage: The constructor writes the defaults into the caller's dict and keeps that dict (C75_dict_kept_false), so two types built from one dict change each other and may stop printing (C75_shared_false). C75_unchanged and C75_shared_exact say exactly when this is harmless (iff). What is built (C75_construct, iff), its text (C75_text), independence of types with different dicts (C75_others, C75_again) and the builder functions in every sequence of calls (C75_builder, C75_builders) are proved in full.

### C76 What is read is valid (proved)

Whatever expression_from_sql or query_from_sql returns could have been built by hand: every node in it passes the checks of its constructor, at least one column is selected, and all conditions, windows, sort keys and named queries have data types. It is printed unless a NORMALIZE or a window whose parent is named like one of its clauses occurs in it, and the format command succeeds on exactly the printable queries that can be read and resolved. *For every text that is accepted.*

- Model and proof: Mutual induction over the parse tree: most visits end in a constructor; parentheses, subqueries, sort keys, named queries and the attributes set afterwards are followed one by one. Printing by C56.
- `ReadValidProps`: `C76_expression`, `C76_query`, `C76_parts`, `C76_printed`, `C76_expression_printed`, `C76_format`, `C76_reached`, `C76_normalize_read`, `C76_refused`
- Coverage: C76_expression, C76_query and C76_parts for all texts; C76_printed and C76_format are equivalences. C76_normalize_read shows a text that is read and never printed.

### C77 The antlr-tree command draws the parse tree (partial)

treeno antlr-tree shows any text that is accepted as a tree whose inner nodes are the rules of the grammar and whose leaves are the tokens of the text, from left to right; it never fails on such a text. *For every accepted text and every parse tree over its tokens.*

- Model and proof: `toStringTree` and `Tree.fromstring` as functions on arbitrary trees of rules over tokens; the scanner and the stack machine by induction on the text, the depth of parentheses as the invariant; that accepted tokens are balanced is taken from C53.
- `AntlrTreeProps`: `C77_picture_partial`, `C77_words`, `C77_drawn`, `C77_drawn_exact`, `C77_unmatched`, `C77_expression_partial`, `C77_type_partial`, `C77_query_partial`, `C77_string_false`, `C77_parentheses_false`
- Coverage: False with parentheses: they are never shown (C77_parentheses_false, for all trees), and '(' is accepted as an expression but no parse tree of it can be drawn (C77_string_false). C77_drawn_exact says exactly when a tree is drawn, C77_unmatched when ValueError is raised, C77_words that nothing but parentheses and white space is lost, C77_picture_partial that the picture is the parse tree when there are no parentheses. C77_expression_partial, C77_type_partial and C77_query_partial: accepted texts are drawn unless a string or quoted name holds parentheses that do not match. pretty_print is not modelled.

## Disagreements between the code and the claims

Each has a proved witness under the property in brackets, unless marked as found by reading only.

1. Quotes inside names and strings are not escaped [C23, C24, C14, C57].
2. `common_supertype` throws away the result for types of the same name and returns the unknown type [C07, C09].
3. `common_timestamp` and `common_time` always raise [C09].
4. An unbounded VARCHAR beside a CHAR counts as one character [C07, C42].
5. LIMIT 0 and OFFSET 0 are not printed; a set operation prints none of its own WITH, ORDER BY, OFFSET, LIMIT [C28].
6. INTERSECT and EXCEPT have the unknown type; UNION does not compare column counts [C30].
7. The visitor lacks `visitSubquery`, so a query in parentheses becomes `None`: printed set operations are never read back,
   `FROM ((SELECT ...))` drops the FROM clause [C27, C57].
8. `IS DISTINCT FROM` is missing from the precedence table; subscripts, LIKE escapes, lambdas and scalar subqueries get no
   parentheses; `(a = b) = c` and `(a = b) IS NULL` print unreadable text [C15, C16].
9. `-(-x)` prints `--x`, a comment [C13, C17].
10. Parenthesised subexpressions are printed in default mode inside pretty text; `NOT (a <> b)` too [C16].
11. `pad` changes literals that contain line breaks [C17, C22].
12. `equals` ignores the classes of nested nodes, the order of dicts and the class of numbers [C39].
13. Qualified lookup compares only the table [C35]; a star is one column [C36].
14. CTE definitions do not see earlier ones; subqueries do not see the WITH clause; expression subqueries see the columns
    around them [C37].
15. `Schema.merge` takes columns of two subqueries for equal and raises on mixed sources [C33].
16. `ValuesQuery.resolve` raises, `TableQuery` has the unknown type, `attr.evolve` on a `Table` raises [C40].
17. Column aliases of named queries lack parentheses; joins under an alias lack parentheses [C27].
18. Intervals print without quotes [C47]; UNNEST ... WITH ORDINALITY prints one character per word (modelled in `Sql.lean`);
    NORMALIZE cannot be printed [C56].
19. `COUNT(DISTINCT x)` drops DISTINCT, FETCH FIRST is dropped, trailing text is ignored [C27].
20. APPROX_PERCENTILE swaps its arguments [C41, C57].
21. Decimal literals beyond 28 digits are rounded under a minus sign [C48]; decimals without a fraction print as integers [C13].
22. Integers beyond 64 bits are BIGINT [C10]; texts with exponents give wrong precisions [C11].
23. TIMESTAMP literals lose their inferred precision; a TIME offset without a blank counts as fraction digits [C55].
24. `visit`: aggregates skip ORDER BY, FILTER and OVER, SELECT hands over its list, QDIGEST_AGG raises, a cross join hands
    over `None`, there is no `visit_Variable` [C49].
25. A window whose parent is named like one of its clauses cannot be printed [C46, C56]; neither can anything from
    indentation 80 on [C56].
26. Names of four and more parts lose the leading ones [C32]; `a.b.*` loses `a` [C57].
27. A reflected operator with a literal on the left raises [C54]; cross and natural joins can be combined [C31].
28. COALESCE of unknown operands raises; CASE has the type of its first branch [C43].
29. A grouping set of one row prints like a set of two values, and one of a query prints without parentheses [C45]; IN with a list holding one query prints like IN with a
    query [C13].
30. `treeno schema` lists a column without a name under the name `None` (it tests the field instead of its name) [C60];
    `treeno format` fails on VALUES queries [C59].
31. Binary literals, EXISTS, POSITION, SUBSTRING, EXTRACT, TRIM and GROUPING have no visitor method and are read as `None`: as a WHERE, a HAVING, the
    operand of a CASE or the ESCAPE of a LIKE they disappear without an error [C57, C61]. `(SELECT 1)` as a whole is read as `None`,
    with a LIMIT behind it an error [C61].
32. `treeno tree type` fails for every type: the picture of a type is a string [C62]. A named window is displayed without its
    class [C62].
33. Types of calls (C63, C64). The difference of two timestamps, or times, of different precision raises instead of being an
    interval. SUM of an INTEGER is typed INTEGER (Trino: BIGINT); MAX(x, n) and its kin are typed as one value instead of an
    array; FROM_UNIXTIME of a number and SKEWNESS, STDDEV*, VAR* are UNKNOWN; KURTOSIS demands two arguments.
34. `v AT TIME ZONE INTERVAL …` is read as the interval alone, whatever `v` is (C57_zone_false, C57_zone_dropped): there is no
    visitor method, and the inherited one returns what the last child gives. With a string for the zone the result is a Python
    string and not a tree, which the model marks as unmodelled. Comparisons with ALL, SOME or ANY rows are refused.
35. Some keywords are only understood in upper case although the grammar has both spellings (C66): `distinct` and `all` as
    quantifiers raise KeyError (convert.py 326), `limit all` raises AssertionError (282-289), `bernoulli` and `system` raise
    KeyError (1087), and the fields of intervals raise AssertionError when the type is computed (C66_distinct_lower,
    C66_limit_all_lower, C66_sample_lower, C66_interval_lower, C66_interval_value_lower).
36. Schemas of relations (C67): a column of USING appears twice, UNNEST … WITH ORDINALITY has no column for the ordinal and
    UNNEST of a map has one column, resolving VALUES raises TypeError.
37. Spellings of types (C69): ROW(x BIGINT), INT, DEC and intervals in lower case are refused; BIGINT(3) is read as BIGINT.
38. Unicode string literals (C70): `\+01F600` and a doubled escape character are refused; in a literal with UESCAPE a
    backslash is taken for the start of a Python escape; U&'\0027' gives a tree that is printed as `'''`.
39. Double literals (C71): `1E0` is printed as `1.0`, which is a DECIMAL; `1E16` and `1E-5` are printed as `1e+16` and
    `1e-05`, which cannot be read; `1E999` is printed as `inf`, the name of a column.
40. Sharing (C73): one `Table` object used inside a query with `WITH` and outside of it remembers the columns of the common
    table expression, so the outside has columns it should not have.
41. `data_type` after resolving (C74): a set operation keeps the type it was built with (UNKNOWN for columns of tables), and
    `TABLE t` is UNKNOWN even when the columns of t are known, since the test in `_compute_data_type` is the wrong way round.
42. README.md: the pretty texts of the join and the window examples (lines 94-95 and 105-110) and the tree of `treeno tree` (lines 60-75) are not what the code prints: joins and windows are broken into lines differently, attributes with default values are left out, lists are nodes (`ConformanceDocs`).
43. Data types as objects (C75): `DataType(name, parameters)` writes the defaults into the dict it is given and keeps it, so
    after `d = {}; DataType("VARCHAR", d); DataType("CHAR", d)` the first type prints as VARCHAR(1), and after
    `DataType("TIME", d)` it cannot be printed.
44. The command `antlr-tree` (C77) writes the parse tree with parentheses and reads it back, so the parentheses of the text
    become nodes without a name or named after the next token, a string with a space becomes two leaves, and a string such as
    `'('` raises ValueError.
45. A call of a quoted name such as `"current_user"()` is read as the word CURRENT_USER, and `"listagg"(a ORDER BY b)` as
    LISTAGG with WITHIN GROUP [C41, C57].

## Testing the theorems

`seeded/LOG.jsonl` records edits to the model as realistic bugs would make them: what was edited, the claim broken, which
theorems failed to build, and which were tightened because they did not.
