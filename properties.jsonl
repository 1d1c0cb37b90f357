{"id": "C01", "title": "Type text round trip", "statement": "For every data type that can be built, parsing its printed text with type_from_sql gives back an equal data type.", "quantifier": "every constructible DataType, of any nesting depth and any parameter values", "why_tests_cant": "types nest without bound and take arbitrary integers; tests try a dozen", "anchors": ["treeno/datatypes/types.py:DataType.sql", "treeno/builder/convert.py:visitGenericType", "treeno/builder/convert.py:type_from_sql"]}
{"id": "C02", "title": "Only valid types exist", "statement": "Building a DataType either raises or yields a type whose name is one of the supported names, whose parameters are exactly the declared ones for that name (defaults filled in), and whose values satisfy the declared range checks; the name is case-insensitive and rebuilding a type from its own name and parameters gives an equal type.", "quantifier": "every type name string and every parameter dictionary", "why_tests_cant": "all strings and all dictionaries of values", "anchors": ["treeno/datatypes/types.py:DataType.__attrs_post_init__", "treeno/datatypes/types.py:FIELDS"]}
{"id": "C03", "title": "Parameter order is irrelevant", "statement": "The order in which type parameters are supplied affects neither whether construction succeeds, nor the resulting type, nor its printed text.", "quantifier": "every type name and every permutation of every parameter dictionary", "why_tests_cant": "all permutations of all dictionaries", "anchors": ["treeno/datatypes/types.py:DataType"]}
{"id": "C04", "title": "Arithmetic typing is symmetric", "statement": "The result type of an arithmetic operator does not depend on operand order, and neither does whether typing raises.", "quantifier": "every pair of data types", "why_tests_cant": "infinitely many pairs of parametrised nested types", "anchors": ["treeno/datatypes/conversions.py:get_arithmetic_type"]}
{"id": "C05", "title": "Arithmetic typing loses no numeric range", "statement": "When both operands have numeric types and typing succeeds, the result type can represent every value of both operand types (integral digits, fractional digits, or an approximate type).", "quantifier": "every pair of numeric types, including all decimal precisions and scales", "why_tests_cant": "the decimal grid is large and mixes with integral and floating types", "anchors": ["treeno/datatypes/conversions.py:get_arithmetic_type", "treeno/datatypes/conversions.py:common_decimal", "treeno/datatypes/conversions.py:common_numeric"]}
{"id": "C06", "title": "Arithmetic typing of equal types", "statement": "Combining a type with itself returns that same type and never raises; the result for two integral types is the wider of the two.", "quantifier": "every data type; every pair of integral types", "why_tests_cant": "all nested types", "anchors": ["treeno/datatypes/conversions.py:get_arithmetic_type", "treeno/datatypes/conversions.py:common_integral"]}
{"id": "C07", "title": "Common supertype is an upper bound", "statement": "common_supertype(a, b) either raises or returns a type to which both a and b can be widened, for types of one family.", "quantifier": "every pair of data types", "why_tests_cant": "infinitely many pairs", "anchors": ["treeno/datatypes/conversions.py:common_supertype"]}
{"id": "C08", "title": "Common supertype is symmetric and idempotent", "statement": "common_supertype(a, b) equals common_supertype(b, a) (including failure), and common_supertype(a, a) is a.", "quantifier": "every pair of data types", "why_tests_cant": "infinitely many pairs", "anchors": ["treeno/datatypes/conversions.py:common_supertype"]}
{"id": "C09", "title": "Common supertype of same-named types", "statement": "For two types that share a name and differ only in parameters (two decimals, two varchars, two arrays ...) the common supertype is the parameter-wise widening and is never the unknown type.", "quantifier": "every pair of same-named types", "why_tests_cant": "all parameter pairs", "anchors": ["treeno/datatypes/conversions.py:common_supertype", "treeno/datatypes/conversions.py:common_same_type"]}
{"id": "C10", "title": "Integer literals get a type that holds them", "statement": "An integer literal is INTEGER exactly when it fits in 32 signed bits, otherwise BIGINT, and the chosen type can hold the value.", "quantifier": "every Python integer", "why_tests_cant": "boundary behaviour over unbounded integers", "anchors": ["treeno/datatypes/inference.py:infer_integral"]}
{"id": "C11", "title": "Decimal literals get a sufficient precision and scale", "statement": "The type inferred for a Decimal has at least as many integral digits and fractional digits as the value has, or inference raises.", "quantifier": "every finite Decimal", "why_tests_cant": "all digit strings, signs and exponents", "anchors": ["treeno/datatypes/inference.py:infer_decimal"]}
{"id": "C12", "title": "Literal wrapping is idempotent", "statement": "Wrapping a value that is already a tree node returns it unchanged, wrapping a scalar gives a typed literal, and containers are refused; wrapping twice equals wrapping once.", "quantifier": "every input value", "why_tests_cant": "all values", "anchors": ["treeno/expression.py:wrap_literal"]}
{"id": "C13", "title": "Expression text round trip", "statement": "Printing an expression and parsing the text gives the same expression up to the documented identifications (NOT of an equality becomes an inequality, a minus sign on a numeric literal becomes a negative literal, types of columns are forgotten).", "quantifier": "every expression tree of the printable fragment, any depth, in both print modes", "why_tests_cant": "expression trees are unbounded; precedence bugs appear only in specific nestings", "anchors": ["treeno/expression.py:pemdas_str", "treeno/expression.py:OPERATOR_PRECEDENCE", "treeno/builder/convert.py:ConvertVisitor", "treeno/grammar/SqlBase.g4:booleanExpression"]}
{"id": "C14", "title": "Printing preserves meaning", "statement": "Evaluating the expression obtained by printing and re-parsing gives the same value as evaluating the original tree, under SQL three-valued logic, whatever the operators and columns denote.", "quantifier": "every printable expression, every interpretation of columns and operators", "why_tests_cant": "all trees and all databases", "anchors": ["treeno/expression.py:pemdas_str", "treeno/expression.py:Not.sql"]}
{"id": "C15", "title": "Parentheses are emitted whenever precedence requires them", "statement": "For every operator pair, an operand whose operator binds weaker is wrapped in parentheses, so the parser never regroups operands.", "quantifier": "every ordered pair of operator classes and both operand positions, every operand", "why_tests_cant": "operand trees are unbounded", "anchors": ["treeno/expression.py:pemdas_str", "treeno/expression.py:OPERATOR_PRECEDENCE"]}
{"id": "C16", "title": "Formatting is stable", "statement": "Printing, parsing and printing again gives the same text as printing once.", "quantifier": "every printable expression and query, both modes", "why_tests_cant": "all trees", "anchors": ["treeno/expression.py", "treeno/relation.py", "treeno/builder/convert.py"]}
{"id": "C17", "title": "Pretty and default printing agree", "statement": "Pretty-printed and default-printed text of one tree consist of the same tokens in the same order; they differ only in whitespace between tokens.", "quantifier": "every tree whose names and string literals contain no line break, every indent width below the wrap limit", "why_tests_cant": "all trees and widths", "anchors": ["treeno/printer.py", "treeno/expression.py", "treeno/relation.py"]}
{"id": "C18", "title": "Default printing is one line", "statement": "Text printed in default mode contains no line break unless a name or string literal of the tree does.", "quantifier": "every tree", "why_tests_cant": "all trees", "anchors": ["treeno/printer.py:StatementPrinter.to_string", "treeno/printer.py:JoinPrinter.to_string"]}
{"id": "C19", "title": "Wrapping a list keeps its content", "statement": "A comma-joined list contains exactly the given items in order with exactly one comma between neighbours; in pretty mode the only other characters are line breaks placed after a comma.", "quantifier": "every list of strings, every width and indentation", "why_tests_cant": "all lists and lengths", "anchors": ["treeno/printer.py:JoinPrinter.to_string", "treeno/printer.py:join_stmts"]}
{"id": "C20", "title": "Wrapped lines fit", "statement": "In pretty mode no wrapped line of a joined list is longer than the available width unless it holds a single item, and breaks are made only when the next item does not fit.", "quantifier": "every list of single-line strings, every width and indentation below it", "why_tests_cant": "boundary arithmetic over all length combinations", "anchors": ["treeno/printer.py:JoinPrinter.to_string"]}
{"id": "C21", "title": "Statement printing keeps clause order and rejects duplicate keywords", "statement": "Clauses are printed in the order they were added, each keyword once; adding the same keyword twice raises; in pretty mode keywords are right-aligned to one column and continuation lines are indented past it.", "quantifier": "every sequence of keyword/text pairs", "why_tests_cant": "all sequences", "anchors": ["treeno/printer.py:StatementPrinter.add_entry", "treeno/printer.py:StatementPrinter.to_string"]}
{"id": "C22", "title": "Indentation only adds leading spaces", "statement": "Padding a block of text keeps its first line, and prefixes every other line with exactly the given number of spaces, changing no other character.", "quantifier": "every string and indent", "why_tests_cant": "all strings, including all line-break characters", "anchors": ["treeno/printer.py:pad"]}
{"id": "C23", "title": "Identifiers survive quoting", "statement": "A column, table or alias name printed by the library is read back by the parser as that same name, whatever characters it contains.", "quantifier": "every name string", "why_tests_cant": "all strings; breaks exactly on quote characters", "anchors": ["treeno/util.py:quote_identifier", "treeno/builder/convert.py:visitQuotedIdentifier"]}
{"id": "C24", "title": "String literals survive quoting", "statement": "A string literal printed by the library is read back as that same string, whatever characters it contains.", "quantifier": "every string", "why_tests_cant": "all strings; breaks exactly on quote characters", "anchors": ["treeno/util.py:quote_literal", "treeno/builder/convert.py:visitBasicStringLiteral"]}
{"id": "C25", "title": "Qualified names are unambiguous", "statement": "Two different (catalog, schema, table) triples or (table, column) pairs never print to the same text, and the parser recovers the parts.", "quantifier": "every tuple of names", "why_tests_cant": "all strings", "anchors": ["treeno/util.py:chain_identifiers", "treeno/builder/convert.py:table_from_qualifiers"]}
{"id": "C26", "title": "Negation rewrites are exact", "statement": "Each rewritten negation (IS NOT NULL, NOT LIKE, NOT IN, NOT BETWEEN, IS NOT DISTINCT FROM, <> and =) denotes the three-valued negation of the original predicate, in both modes.", "quantifier": "every negated predicate with arbitrary operands", "why_tests_cant": "all operand trees and values including NULL", "anchors": ["treeno/expression.py:Not.sql"]}
{"id": "C27", "title": "Query text round trip", "statement": "Printing a query and parsing the text gives back the same query.", "quantifier": "every query of the printable fragment: any nesting of subqueries, joins, grouping, ordering, windows, both modes", "why_tests_cant": "queries are unbounded trees", "anchors": ["treeno/relation.py:SelectQuery.sql", "treeno/builder/convert.py:visitQuerySpecification"]}
{"id": "C28", "title": "Limits and offsets are not lost", "statement": "A LIMIT, OFFSET or ORDER BY set on a query appears in its printed text with the same value.", "quantifier": "every query object and every limit/offset value", "why_tests_cant": "all values including zero, all query classes", "anchors": ["treeno/relation.py:Query._constraint_string_builder", "treeno/relation.py:SetQuery._to_string"]}
{"id": "C29", "title": "Clauses print in SQL order", "statement": "The clauses of a printed SELECT appear in the order WITH, SELECT, FROM, WHERE, GROUP BY, HAVING, WINDOW, ORDER BY, OFFSET, LIMIT, each at most once and present exactly when set.", "quantifier": "every select query", "why_tests_cant": "2^9 combinations of clauses times arbitrary contents", "anchors": ["treeno/relation.py:SelectQuery.sql"]}
{"id": "C30", "title": "Set operations keep their operands and quantifier", "statement": "A printed UNION/INTERSECT/EXCEPT contains both operands in order, parenthesised, with the right keyword and quantifier; INTERSECT and EXCEPT refuse anything but DISTINCT; the row type of a union is computed column by column from its operands.", "quantifier": "every pair of queries, both quantifiers, both modes", "why_tests_cant": "all operand queries", "anchors": ["treeno/relation.py:SetQuery", "treeno/relation.py:IntersectQuery", "treeno/relation.py:ExceptQuery"]}
{"id": "C31", "title": "Only meaningful joins exist", "statement": "A join configuration can be built exactly when a natural join has no criteria, a cross join has neither, and every other join has exactly one of natural or criteria; every join that can be built can be printed.", "quantifier": "every join type, natural flag and criteria", "why_tests_cant": "interaction of three fields with arbitrary criteria", "anchors": ["treeno/relation.py:JoinConfig"]}
{"id": "C32", "title": "Table references keep their parts", "statement": "A dotted table name of one to three parts becomes a table with the corresponding catalog, schema and name; a catalog without a schema is refused; longer names are refused.", "quantifier": "every list of name parts", "why_tests_cant": "all lists of all lengths", "anchors": ["treeno/builder/convert.py:table_from_qualifiers", "treeno/relation.py:Table"]}
{"id": "C33", "title": "Schema merge laws", "statement": "Merging schemas keeps the left columns first and in order, adds each right column not already present, unites relation names, has the empty schema as identity and is idempotent and associative.", "quantifier": "every schema", "why_tests_cant": "all lists of columns", "anchors": ["treeno/relation.py:Schema.merge"]}
{"id": "C34", "title": "Unqualified columns resolve to the unique match", "statement": "Resolving an unqualified column against the visible schema gives it the type of the one column of that name; with several candidates it raises; with none it is left unchanged.", "quantifier": "every schema and every column name", "why_tests_cant": "all schemas", "anchors": ["treeno/datatypes/resolve.py:_make_field"]}
{"id": "C35", "title": "Qualified columns resolve within their table", "statement": "Resolving table.column gives the type of that column in that table.", "quantifier": "every schema, table and column", "why_tests_cant": "all schemas", "anchors": ["treeno/datatypes/resolve.py:_make_field"]}
{"id": "C36", "title": "Select output schema", "statement": "The schema of a resolved SELECT has one column per select item, in order, with the item's name and type, stars expanded to the columns in scope.", "quantifier": "every select list and every source schema", "why_tests_cant": "all select lists", "anchors": ["treeno/relation.py:SelectQuery.resolve", "treeno/datatypes/resolve.py:_make_star"]}
{"id": "C37", "title": "Scopes do not leak", "statement": "Columns of an inner subquery are visible outside only through that subquery's own output; common table expressions are visible to later ones and to the body only.", "quantifier": "every nesting of queries", "why_tests_cant": "all nestings", "anchors": ["treeno/relation.py:Query._resolve_with", "treeno/relation.py:maybe_prune_schema"]}
{"id": "C38", "title": "Relation aliases rename columns", "statement": "Resolving an aliased relation gives the source's columns with the alias names in order, tied to the alias.", "quantifier": "every relation, alias and alias list", "why_tests_cant": "all schemas and alias lists", "anchors": ["treeno/relation.py:AliasedRelation.resolve"]}
{"id": "C39", "title": "Tree equality is an equivalence", "statement": "equals is reflexive, symmetric and transitive, and holds exactly for structurally identical trees.", "quantifier": "every pair and triple of trees", "why_tests_cant": "all trees", "anchors": ["treeno/base.py:Sql.equals"]}
{"id": "C40", "title": "Lambda construction binds exactly its inputs", "statement": "Building a lambda from a generic expression turns every unqualified column whose name is an input into a bound variable and changes nothing else; duplicate inputs are refused; nested lambdas shadow.", "quantifier": "every expression and input list", "why_tests_cant": "all trees", "anchors": ["treeno/expression.py:Lambda.from_generic_expr"]}
{"id": "C41", "title": "Function calls keep their arguments", "statement": "A call parsed from SQL and printed again has the same function name and the same arguments in the same order.", "quantifier": "every registered function, every legal argument list", "why_tests_cant": "dozens of functions times arbitrary argument trees", "anchors": ["treeno/functions/base.py:Function.to_string", "treeno/builder/convert.py:visitFunctionCall"]}
{"id": "C42", "title": "Concatenation typing", "statement": "The type of a concatenation is unknown if any operand is unknown; char length is the sum of lengths; array concatenation keeps element supertypes and depth.", "quantifier": "every list of operand types", "why_tests_cant": "all lists of all types", "anchors": ["treeno/functions/common.py:Concatenate"]}
{"id": "C43", "title": "Conditional typing", "statement": "IF, COALESCE, NULLIF, TRY and CASE take their type from their result operands by common supertype and never from their conditions.", "quantifier": "every operand list", "why_tests_cant": "all operand types", "anchors": ["treeno/functions/conditional.py", "treeno/expression.py:Case"]}
{"id": "C44", "title": "Order terms print minimally and exactly", "statement": "An order term prints ASC and NULLS LAST implicitly and everything else explicitly, and the parser recovers exactly the same term.", "quantifier": "every term", "why_tests_cant": "all value expressions", "anchors": ["treeno/orderby.py:OrderTerm.sql", "treeno/builder/convert.py:visitSortItem"]}
{"id": "C45", "title": "Grouping prints exactly", "statement": "GROUP BY with sets, cubes and rollups prints so that the parser recovers the same grouping.", "quantifier": "every grouping", "why_tests_cant": "unbounded nested lists", "anchors": ["treeno/groupby.py", "treeno/builder/convert.py:visitGroupBy"]}
{"id": "C46", "title": "Windows print exactly", "statement": "A window specification prints its parent, partition, order and frame in order, and the parser recovers the same window.", "quantifier": "every window", "why_tests_cant": "all contents", "anchors": ["treeno/window.py:Window.sql", "treeno/builder/convert.py:visitWindowSpecification"]}
{"id": "C47", "title": "Interval literals keep sign and unit", "statement": "Parsing an interval literal keeps value, sign and units; printing gives text that parses to the same interval.", "quantifier": "every interval literal", "why_tests_cant": "all digit strings, signs and unit pairs", "anchors": ["treeno/builder/convert.py:visitInterval", "treeno/expression.py:Interval"]}
{"id": "C48", "title": "Decimal literals keep their value", "statement": "Parsing a decimal literal gives exactly the written value.", "quantifier": "every decimal literal, any number of digits", "why_tests_cant": "all digit strings; context rounding shows only beyond 28 digits", "anchors": ["treeno/builder/convert.py:visitDecimalLiteral"]}
{"id": "C49", "title": "Visitors reach every child", "statement": "Visiting a node hands every child node to the visitor exactly once.", "quantifier": "every node class", "why_tests_cant": "all trees", "anchors": ["treeno/base.py:Sql.visit", "treeno/visitor.py:TreenoVisitor"]}
{"id": "C50", "title": "Resolving preserves everything but types", "statement": "Resolving fields in a tree changes only the data types of columns and computed types; shape, operators, names and literals are untouched, and resolving against an empty schema changes nothing.", "quantifier": "every tree and schema", "why_tests_cant": "all trees", "anchors": ["treeno/datatypes/resolve.py:resolve_fields"]}
{"id": "C51", "title": "Current-time functions keep precision", "statement": "CURRENT_TIME, CURRENT_TIMESTAMP, LOCALTIME and LOCALTIMESTAMP print their precision exactly when it differs from the default, and parse back to the same precision and type.", "quantifier": "every precision", "why_tests_cant": "all integers", "anchors": ["treeno/functions/datetime.py:ParametrizedDateTimeFunction", "treeno/builder/convert.py:visitSpecialDateTimeFunction"]}
{"id": "C52", "title": "Lexing is total and lossless", "statement": "Tokenising any text consumes every character and the token texts, with skipped whitespace and comments, spell the input.", "quantifier": "every text", "why_tests_cant": "all texts", "anchors": ["treeno/grammar/SqlBase.g4", "treeno/grammar/parse.py:AST"]}
{"id": "C53", "title": "Parsing is sound", "statement": "If a text parses as an expression or type, the parse tree's leaves are exactly the tokens of the text.", "quantifier": "every token sequence", "why_tests_cant": "all token sequences", "anchors": ["treeno/grammar/SqlBase.g4"]}
{"id": "C54", "title": "Python operators build the expected nodes", "statement": "a + b, 1 + a, a < b and so on build the node of the corresponding SQL operator with operands in source order, literals wrapped.", "quantifier": "every pair of operands", "why_tests_cant": "all operand trees", "anchors": ["treeno/expression.py:Value"]}
{"id": "C55", "title": "Inferred time precision is the number of fraction digits", "statement": "A TIME or TIMESTAMP typed literal gets as precision the number of digits after the decimal point of its text.", "quantifier": "every literal text", "why_tests_cant": "all texts", "anchors": ["treeno/datatypes/inference.py:infer_timelike_precision", "treeno/expression.py:TypeConstructor"]}
{"id": "C56", "title": "Every constructed tree can be printed", "statement": "A tree that its constructors accept can be printed: sql returns text and does not raise.", "quantifier": "every tree, both modes, every indentation", "why_tests_cant": "all trees; a constructor argument that only breaks the printer is easily missed", "anchors": ["treeno/base.py:Sql.sql", "treeno/printer.py:pad"]}
{"id": "C57", "title": "Reading SQL preserves its meaning", "statement": "The tree that expression_from_sql or query_from_sql returns for a text denotes the same value, in every environment, as the text does under the rules of SQL.", "quantifier": "every text that the parser accepts, written by hand or printed; every interpretation of columns, tables and functions", "why_tests_cant": "all texts; all data", "anchors": ["treeno/builder/convert.py:ConvertVisitor", "treeno/builder/convert.py:expression_from_sql", "treeno/builder/convert.py:query_from_sql"]}
{"id": "C58", "title": "Resolving twice changes nothing", "statement": "Resolving a query, relation or expression that has already been resolved against the same schema returns the same output columns and leaves the tree as it is.", "quantifier": "every query, relation and expression that resolves; every schema", "why_tests_cant": "all trees and schemas; the command line resolves its query twice", "anchors": ["treeno/relation.py:SelectQuery.resolve", "treeno/relation.py:Join.resolve", "treeno/datatypes/resolve.py:resolve_fields"]}
{"id": "C59", "title": "The format command only changes layout", "statement": "treeno format prints the pretty text of what was read: resolving the query beforehand adds nothing to the text, and formatting the formatted text prints it again.", "quantifier": "every input text", "why_tests_cant": "all texts", "anchors": ["treeno/cli.py:format", "treeno/cli.py:get_sql_object"]}
{"id": "C60", "title": "The schema command lists the output columns", "statement": "treeno schema prints one line per output column of the query, in order, with its name and type, and says so when a column has no name.", "quantifier": "every input text", "why_tests_cant": "all texts", "anchors": ["treeno/cli.py:schema"]}
{"id": "C61", "title": "Reading keeps the clauses of a query", "statement": "The tree that query_from_sql returns for a SELECT has the clauses that are written: as many items, a FROM, WHERE or HAVING exactly when there is one, DISTINCT, as many grouping elements, the directions of ORDER BY, the offset, the limit and as many common table expressions; likewise the operand, branches and ELSE of a CASE.", "quantifier": "every text that the parser accepts", "why_tests_cant": "all texts; a clause that is silently dropped still gives a valid query", "anchors": ["treeno/builder/convert.py:ConvertVisitor.visitQuerySpecification", "treeno/builder/convert.py:ConvertVisitor.visitQueryNoWith", "treeno/builder/convert.py:ConvertVisitor.visitQuery"]}
{"id": "C62", "title": "The tree command shows the whole tree", "statement": "treeno tree shows every node of what was read, under the name of its class, and leaves out nothing that matters: two inputs that are displayed alike are formatted alike. It shows something for every input that can be read.", "quantifier": "every input text; every tree", "why_tests_cant": "all trees; a node or an attribute that is left out of the picture goes unnoticed", "anchors": ["treeno/cli.py:tree", "treeno/cli.py:treeify", "treeno/cli.py:_should_skip"]}
{"id": "C63", "title": "Operators have the type of their result", "statement": "Comparisons, logical operators and predicates are BOOLEAN and can be built over any operands; the arithmetic operators agree on whether a node can be built and on its type; the difference of two dates, timestamps or times is an INTERVAL DAY TO SECOND; a sign keeps the type; arrays, rows, casts, SELECT and VALUES take their types from their contents.", "quantifier": "every operator and operands of every type", "why_tests_cant": "all pairs of operand types and all operand trees", "anchors": ["treeno/expression.py:Minus", "treeno/expression.py:BinaryExpression", "treeno/relation.py:SelectQuery", "treeno/relation.py:ValuesQuery"]}
{"id": "C64", "title": "Calls have the documented result type", "statement": "The data type of a function call is the result type that the Trino documentation gives for that function, whatever the arguments, ORDER BY, FILTER or window.", "quantifier": "every registered function, every legal argument list", "why_tests_cant": "dozens of functions times all argument types", "anchors": ["treeno/functions/aggregate.py", "treeno/functions/datetime.py", "treeno/functions/string.py"]}
{"id": "C65", "title": "Chains of set operations group as in SQL", "statement": "q0 UNION q1 INTERSECT q2 EXCEPT q3 \u2026 is read with every INTERSECT before every UNION and EXCEPT and otherwise from left to right; an operation is DISTINCT unless ALL is written; ORDER BY after the last operand orders the whole chain.", "quantifier": "chains of every length, of every operations, quantifiers and operands", "why_tests_cant": "all lengths and all sequences of operations", "anchors": ["treeno/builder/convert.py:ConvertVisitor.visitSetOperation", "treeno/grammar/SqlBase.g4:queryTerm"]}
{"id": "C66", "title": "The case of keywords does not matter", "statement": "Writing keywords of a text in lower instead of upper case, or the other way round, does not change whether the text is accepted nor the tree that expression_from_sql, query_from_sql or type_from_sql returns.", "quantifier": "every text and every choice of keywords whose case is changed", "why_tests_cant": "all texts times all subsets of their keywords", "anchors": ["treeno/grammar/SqlBase.g4", "treeno/builder/convert.py:ConvertVisitor.visitSetQuantifier", "treeno/builder/convert.py:ConvertVisitor.visitLimitRowCount", "treeno/builder/convert.py:ConvertVisitor.visitSampleType", "treeno/builder/convert.py:ConvertVisitor.visitIntervalField"]}
{"id": "C67", "title": "Schemas of joins and other relations", "statement": "The schema of a resolved join has the columns of the left side followed by those of the right side, columns of USING once; a sample or LATERAL has the columns of what it contains; UNNEST has one column per array with the type of its elements, two for a map, and one more with ORDINALITY; a set operation has the names and types of its left side; TABLE t has the columns of t; VALUES has one unnamed column per value.", "quantifier": "every relation and every schema around it", "why_tests_cant": "all nestings of relations", "anchors": ["treeno/relation.py:Join.resolve", "treeno/relation.py:Unnest.resolve", "treeno/relation.py:TableSample.resolve", "treeno/relation.py:Lateral.resolve", "treeno/relation.py:SetQuery.resolve", "treeno/relation.py:TableQuery.resolve", "treeno/relation.py:ValuesQuery.resolve"]}
{"id": "C68", "title": "White space and comments do not matter", "statement": "Replacing the white space between tokens by other white space never changes what expression_from_sql, query_from_sql or type_from_sql returns or raises. Nor does writing white space and comments, in any amount, between the tokens of a text without unknown characters, as long as no line comment directly follows a minus sign or an opening brace.", "quantifier": "every text, every choice of white space and comments at every place", "why_tests_cant": "all texts times all layouts; an unexpected joining of two tokens shows only in particular combinations", "anchors": ["treeno/grammar/SqlBase.g4:WS", "treeno/grammar/SqlBase.g4:SIMPLE_COMMENT", "treeno/grammar/SqlBase.g4:BRACKETED_COMMENT", "treeno/grammar/parse.py:AST"]}
{"id": "C69", "title": "Ways of writing a data type", "statement": "type_from_sql returns a type exactly for the documented ways of writing it: its name in any spelling, quoted or not, with its parameters or their defaults, TIME and TIMESTAMP with or without precision and time zone, DOUBLE PRECISION, the two intervals, ROW, MAP, ARRAY(t) and t ARRAY, nested to any depth; every other text is refused. The same holds for the type in a CAST.", "quantifier": "every text and every type", "why_tests_cant": "all texts; all nestings of types; a zone or parameter that is lost still gives a valid type", "anchors": ["treeno/builder/convert.py:ConvertVisitor.visitDateTimeType", "treeno/builder/convert.py:ConvertVisitor.visitGenericType", "treeno/builder/convert.py:ConvertVisitor.visitArrayType", "treeno/builder/convert.py:ConvertVisitor.visitRowType", "treeno/datatypes/types.py:DataType"]}
{"id": "C70", "title": "Unicode string literals", "statement": "U&'...' is read as the string it stands for: a character stands for itself, the escape character followed by four hexadecimal digits, or by a plus sign and six, stands for the character with that number, twice the escape character for itself; the escape character is the backslash unless UESCAPE names another. The type is VARCHAR with the length of that string. Any other use of the escape character is refused.", "quantifier": "every text between the quotes, every escape character", "why_tests_cant": "all texts times all escape characters; the tests have one literal", "anchors": ["treeno/builder/convert.py:ConvertVisitor.visitUnicodeStringLiteral", "treeno/grammar/SqlBase.g4:UNICODE_STRING"]}
{"id": "C71", "title": "Double literals keep their value", "statement": "A double literal is read as a DOUBLE constant whose value is the binary64 number nearest to the number written, ties to even, and infinity from the overflow threshold on; it is printed with the shortest digits that stand for the same number, in a text that is read back as the same constant.", "quantifier": "every double literal: any digits, any exponent", "why_tests_cant": "all digit strings and exponents; rounding and the switch to an exponent show only at particular values", "anchors": ["treeno/builder/convert.py:ConvertVisitor.visitDoubleLiteral", "treeno/expression.py:Literal.sql", "treeno/grammar/SqlBase.g4:DOUBLE_VALUE"]}
{"id": "C72", "title": "Reading composes", "statement": "Expressions that a user has as text can be put together as text: if s and t are read as a and b, then (s) op (t), each closing parenthesis on a new line, is read as the node of op over a and b; likewise for NOT, signs, IS NULL, LIKE, BETWEEN, IN, ARRAY, calls, casts, CASE, subscripts, rows, subqueries, and for whole queries: SELECT lists with new names, joins, samples, WHERE, GROUP BY, HAVING, WINDOW, TABLE, VALUES, set operations from left to right with INTERSECT first, ORDER BY, OFFSET, LIMIT and WITH, every clause where it was written. Nothing inside a part reaches outside its parentheses, be it an operator, a keyword, a comment or a line end.", "quantifier": "every pair or list of texts, of any length and nesting, every operator, and queries with any number of items, joins, operands, keys and named queries", "why_tests_cant": "all texts; a part that captures a neighbour shows only for particular pairs", "anchors": ["treeno/builder/convert.py:expression_from_sql", "treeno/builder/convert.py:ConvertVisitor.visitParenthesizedExpression", "treeno/builder/convert.py:ConvertVisitor.visitSubqueryExpression", "treeno/grammar/SqlBase.g4:primaryExpression"]}
{"id": "C73", "title": "Resolving objects in place", "statement": "resolve assigns to attributes of the relation objects it meets. For objects that refer to each other in any way: the call has one outcome; it ends whenever the objects form a finite tree; whether it returns or raises, every relation of the program prints as before and means what it meant; objects that the relation does not use are left alone, and relations without common objects can be resolved in either order. The answer is the one for the tree of the objects, whichever objects are used at several places.", "quantifier": "every heap of objects, with any sharing, every schema", "why_tests_cant": "all ways in which objects can share parts; the tests never use one object twice", "anchors": ["treeno/relation.py:SelectQuery.resolve", "treeno/relation.py:Table.resolve", "treeno/relation.py:Unnest.resolve", "treeno/relation.py:TableQuery.resolve"]}
{"id": "C74", "title": "data_type of a resolved query", "statement": "Once a query is resolved, its attribute data_type is the type of its only column or the row of the types of its columns.", "quantifier": "every query, every schema, any sharing of objects", "why_tests_cant": "all queries; a stale attribute shows only when the types were unknown at construction", "anchors": ["treeno/relation.py:SelectQuery.resolve", "treeno/relation.py:SetQuery.resolve", "treeno/relation.py:TableQuery.resolve"]}
{"id": "C75", "title": "Data types as objects", "statement": "Building a data type from a name and a dict of parameters gives the type with those parameters and the defaults of the others, which prints as that type; building it leaves the dict and every other type alone. The builder functions (varchar(), decimal(), timestamp(), ...) give the type they are named after, in any sequence of calls.", "quantifier": "every name, every dict, any sharing of dicts between types, every sequence of calls", "why_tests_cant": "all orders of construction; an object that is changed by a later one shows only in particular orders", "anchors": ["treeno/datatypes/types.py:DataType", "treeno/datatypes/builder.py"]}
{"id": "C76", "title": "What is read is valid", "statement": "Whatever expression_from_sql or query_from_sql returns could have been built by hand: every node in it passes the checks of its constructor, at least one column is selected, and all conditions, windows, sort keys and named queries have data types. It is printed unless a NORMALIZE or a window whose parent is named like one of its clauses occurs in it, and the format command succeeds on exactly the printable queries that can be read and resolved.", "quantifier": "every text that is accepted", "why_tests_cant": "all texts; the visitor sets ORDER BY, LIMIT and WITH after construction and passes subqueries on without building a node", "anchors": ["treeno/builder/convert.py:ConvertVisitor", "treeno/builder/convert.py:query_from_sql", "treeno/builder/convert.py:expression_from_sql", "treeno/cli.py:format"]}
{"id": "C77", "title": "The antlr-tree command draws the parse tree", "statement": "treeno antlr-tree shows any text that is accepted as a tree whose inner nodes are the rules of the grammar and whose leaves are the tokens of the text, from left to right; it never fails on such a text.", "quantifier": "every accepted text and every parse tree over its tokens", "why_tests_cant": "all trees times all texts of tokens; the tree is written as a text with parentheses and read back, which only matters for tokens that hold parentheses or white space", "anchors": ["treeno/cli.py:antlr_tree", "treeno/grammar/parse.py:tree", "treeno/grammar/parse.py:AST"]}
