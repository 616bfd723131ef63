{"id": "C01", "title": "Filter placeholders match params", "statement": "Whatever sequence of calls built a filter, ToSQL(pos) returns SQL text whose ordinal placeholders are exactly $pos+1, $pos+2, ..., $pos+k, each once, left to right, and a params slice of exactly k values where the i-th value is the value supplied for the i-th parameterised predicate.", "quantifier": "every sequence (including arbitrarily nested And/Or callbacks) of filter.Constructor calls, every argument value, every start position whose last placeholder is within the 65535 table", "why_tests_cant": "Tests fix a handful of call sequences and start positions; an off-by-one that only shows for IN lists after nested groups, or for non-zero pos, is not sampled.", "anchors": ["filter/filter.go: sqlBinary.write, sqlTextSearch.write, filter.ToSQL", "filter/convenience.go: sqlIn.write, sqlAny.write", "gosql.go: OrdinalParameters"]}
{"id": "C02", "title": "Filter values never reach the SQL text", "statement": "The SQL text produced by a filter does not depend on the values being compared (only on whether a value is nil/true/false/other and on the length of IN lists): two call sequences that differ only in values yield byte-identical SQL and differ only in params.", "quantifier": "every pair of call sequences equal up to parameter values", "why_tests_cant": "SQL injection safety is a statement about all values; tests check a few benign literals.", "anchors": ["filter/filter.go: Constructor.Col, Constructor.TextSearch, filter.ToSQL", "filter/convenience.go"]}
{"id": "C03", "title": "Filter WHERE clause has balanced parentheses", "statement": "In the WHERE clause built through the Constructor's methods every opening parenthesis written by And/Or nesting is closed, in properly nested order.", "quantifier": "every call sequence with nesting of any depth", "why_tests_cant": "Depth and interleaving are unbounded.", "anchors": ["filter/filter.go: Constructor.And, Constructor.Or, sqlLParen, sqlRParen"]}
{"id": "C04", "title": "Filter WHERE clause is a well-formed boolean expression", "statement": "If every And(nil)/Or(nil) is followed by a predicate, every nested group adds at least one predicate, and nil/bool values are only compared with = or <>, then the WHERE clause is a grammatical boolean expression: predicates and parenthesised groups separated by exactly one AND/OR, nothing dangling. Outside those usage rules malformed clauses are actually produced (dangling AND / OR, empty parentheses).", "quantifier": "every call sequence obeying the stated usage rules, every nesting depth", "why_tests_cant": "The set of call sequences is infinite; the failure depends on the last emitted node in each context.", "anchors": ["filter/filter.go: Constructor.canAndOr, Col, And, Or, TextSearch"]}
{"id": "C05", "title": "CountFilter agrees with Filter on rows selected", "statement": "For the same Constructor state, CountFilter().ToSQL(pos) returns exactly the WHERE part of Filter().ToSQL(pos) with the same params, and nothing of ORDER BY, LIMIT or OFFSET; Filter().ToSQL(pos) is that text followed only by ORDER BY/LIMIT/OFFSET text without placeholders.", "quantifier": "every constructor state reachable by any call sequence, every pos", "why_tests_cant": "Total counts shown to users must agree with pages for every filter, not just the tested ones.", "anchors": ["filter/filter.go: filter.ToSQL, countFilter.ToSQL, Constructor.CountFilter"]}
{"id": "C06", "title": "Limit and Offset: last positive value wins", "statement": "The LIMIT (OFFSET) clause is present iff some Limit (Offset) call had a positive argument, and shows the last positive argument given; non-positive arguments never change anything.", "quantifier": "every sequence of Limit/Offset calls interleaved with any WHERE/ORDER BY calls, every int64 argument", "why_tests_cant": "Histories of calls are unbounded.", "anchors": ["filter/filter.go: Constructor.Limit, Constructor.Offset, filter.ToSQL"]}
{"id": "C07", "title": "Page addresses disjoint consecutive windows", "statement": "After Limit(n), n>0, Page(p), p>0, selects rows [n*(p-1), n*p): pages partition the result, for every page whose offset fits in int64. Calling Page before Limit, or a page whose offset overflows int64, silently yields the wrong window.", "quantifier": "every limit and page number (64-bit), every interleaving with other calls", "why_tests_cant": "Overflow and call order are corner points of a 2^128 input space.", "anchors": ["filter/filter.go: Constructor.Page, Constructor.Limit, filter.ToSQL"]}
{"id": "C08", "title": "UnmarshalSort yields exactly the mapped keys in order", "statement": "UnmarshalSort(str) appends to ORDER BY exactly the comma separated keys that are in the column map, in order, with DESC iff prefixed by '-', using the mapped column name and never the raw key; in strict mode it fails with the first unknown key, otherwise unknown and empty items are skipped.", "quantifier": "every input string, every column map, strict or not", "why_tests_cant": "Input strings are attacker controlled and unbounded.", "anchors": ["filter/filter.go: Constructor.UnmarshalSort, Constructor.OrderByV2"]}
{"id": "C09", "title": "FQL input can only reach vetted columns", "statement": "After UnmarshalFQL on any token stream, every column that appears in the WHERE clause comes from the column map, every value appears only in params, and in strict mode the first rule with an unmapped key stops processing with an unknown-key error.", "quantifier": "every token stream, every column map, strict or not", "why_tests_cant": "FQL text is user input; security needs all strings.", "anchors": ["filter/filter.go: Constructor.UnmarshalFQL"]}
{"id": "C10", "title": "FQL input with a grammatical token stream yields a grammatical WHERE", "statement": "If the token stream is a grammatical boolean expression over rules whose keys are all mapped and whose nil/bool comparisons use = or <>, the WHERE clause has the same shape (same connectives, same grouping). Non-strict mode with an unmapped key breaks this: connectives are left dangling.", "quantifier": "every grammatical token stream of any size", "why_tests_cant": "Expression trees are unbounded.", "anchors": ["filter/filter.go: Constructor.UnmarshalFQL, Constructor.Col"]}
{"id": "C11", "title": "Text search query construction", "statement": "The text-search parameter is the list of non-empty space separated terms of the trimmed input, each suffixed with ':*', joined with ' & '; it is empty iff the input is blank.", "quantifier": "every input string", "why_tests_cant": "Unbounded strings, multiple consecutive blanks, blank-only input.", "anchors": ["filter/filter.go: toTSQuery, Constructor.TextSearch"]}
{"id": "C12", "title": "IN value lists", "statement": "InValueList(num,pos) is the comma separated list of the num consecutive placeholders $pos+1..$pos+num (empty for num<=0), and lists for adjacent ranges concatenate.", "quantifier": "every num and pos within the placeholder table", "why_tests_cant": "All sizes and offsets.", "anchors": ["gosql.go: InValueList, OrdinalParameters"]}
{"id": "C13", "title": "text[] Value/Scan round trip", "statement": "Scanning the text[] literal produced from any list of strings gives back the same list of strings, for every byte content (quotes, backslashes, commas, braces, control characters, empty strings) and NULL elements for [][]byte; nil stays nil and empty stays empty.", "quantifier": "every list of byte strings of any length", "why_tests_cant": "Escaping bugs hide at specific byte combinations and positions.", "anchors": ["pgsql/textarr.go", "pgsql/varchararr.go", "pgsql/convert_util.go: pgAppendQuote1, pgParseStringArray"]}
{"id": "C14", "title": "text[] literals mean the intended list to the server", "statement": "Reading the produced text[] literal by PostgreSQL's own array input rules (array_in: double quoted elements, backslash escapes, bare NULL) gives exactly the list of strings that was passed in.", "quantifier": "every list of byte strings", "why_tests_cant": "Data corruption or injection of elements must be impossible for all contents.", "anchors": ["pgsql/textarr.go: textArrayFromStringSlice.Value, textArrayFromByteSliceSlice.Value", "pgsql/convert_util.go: pgAppendQuote1"]}
{"id": "C15", "title": "text[] scanning agrees with the server's output format", "statement": "Scanning the text PostgreSQL's array output rules (array_out: quote when empty, equal to NULL, or containing special characters) produce for any list of strings/NULLs gives back that list. It holds when no unquoted element starts with NULL; an element such as NULLABLE is scanned as two elements.", "quantifier": "every list of strings and NULLs the server may hold", "why_tests_cant": "The failing contents (a value having NULL as proper prefix) are not in the tests.", "anchors": ["pgsql/convert_util.go: pgParseStringArray", "pgsql/textarr.go: textArrayToStringSlice.Scan, textArrayToByteSliceSlice.Scan"]}
{"id": "C16", "title": "hstore Value/Scan round trip", "statement": "Scanning the hstore literal produced from any string map yields the same map, whatever order the map is iterated in. For maps with nullable values it holds except that a present empty string comes back as NULL.", "quantifier": "every finite map with arbitrary byte keys and values, every map iteration order", "why_tests_cant": "Map iteration order is random per run; contents unbounded.", "anchors": ["pgsql/hstore.go", "pgsql/convert_util.go: pgparsehstore, pgAppendQuote1"]}
{"id": "C17", "title": "hstore[] Value/Scan round trip", "statement": "Scanning the hstore[] literal produced from any list of string maps (nil maps as NULL) yields the same list, for every iteration order and every key/value content (doubly escaped). For nullable values a present empty string comes back as NULL.", "quantifier": "every list of finite maps, every iteration order", "why_tests_cant": "Double escaping must be right for every byte at every depth.", "anchors": ["pgsql/hstorearr.go", "pgsql/convert_util.go: pgparsehstorearr, pgAppendQuote2"]}
{"id": "C18", "title": "Integer array round trip with range checks", "statement": "Scanning the literal produced from any slice of integers of a given width gives back the slice; scanning an element outside the destination width is an error, never a wrapped value. It fails for the scanners of numeric arrays (they parse 64 bits and convert, wrapping) and for the ones that parse fewer bits than the destination has.", "quantifier": "every slice of intN/uintN values, every decimal element text", "why_tests_cant": "All values of all widths and any slice length.", "anchors": ["pgsql/int2arr.go", "pgsql/int4arr.go", "pgsql/int8arr.go", "pgsql/convert_util.go: pgParseCommaArray"]}
{"id": "C19", "title": "boolean[] and bit[] round trip", "statement": "Scanning the literal produced from any []bool (boolean[] and bit[]) gives the same slice; for bit[] from []uint8/[]uint every non-zero value comes back as 1.", "quantifier": "every slice", "why_tests_cant": "Unbounded slices.", "anchors": ["pgsql/boolarr.go", "pgsql/bitarr.go", "pgsql/convert_util.go: pgParseCommaArray"]}
{"id": "C20", "title": "varbit and varbit[] round trip", "statement": "varbit and varbit[] of []bool round trip for every content including nil and empty inner slices; uint8 slices round trip when every element is 0 or 1. The int64 form round trips as text, but a negative number produces text that is not a bit string at all.", "quantifier": "every (list of) bit slice(s), every int64", "why_tests_cant": "Unbounded content.", "anchors": ["pgsql/varbit.go", "pgsql/varbitarr.go"]}
{"id": "C21", "title": "bytea[] round trip", "statement": "Scanning the bytea[] literal produced from any list of byte strings gives back the list, and the literal means that list to the server. A NULL element in the scanned array makes the scanner panic.", "quantifier": "every list of byte strings; every server array with or without NULLs", "why_tests_cant": "All byte contents, including empty, and NULL placement.", "anchors": ["pgsql/byteaarr.go", "pgsql/convert_util.go: pgParseCommaArray"]}
{"id": "C22", "title": "uuid and uuid[] round trip", "statement": "Parsing the formatted uuid of any 16 bytes gives the same 16 bytes, the text always is 36 characters with dashes at 8,13,18,23, and uuid[] round trips for any list. A text of less than 24 bytes is never accepted; the parser does not look at the separators, fills missing trailing digits with zeros, and panics instead of returning an error on short or overlong texts.", "quantifier": "all 2^128 uuids, all lists of them, all input texts", "why_tests_cant": "2^128 values.", "anchors": ["pgsql/uuid.go", "pgsql/uuidarr.go", "pgsql/convert_util.go: pgFormatUUID, pgParseUUID"]}
{"id": "C23", "title": "char[] round trip", "statement": "Scanning the char[] literal produced from any byte slice gives back the slice, provided it has no backspace or bell characters; those are silently dropped, and a slice with only those yields the malformed literal '}'.", "quantifier": "every byte slice", "why_tests_cant": "The dropped characters are two specific byte values.", "anchors": ["pgsql/chararr.go", "pgsql/convert_util.go: pgparsearray2, pgparsearray3"]}
{"id": "C24", "title": "Geometric types round trip", "statement": "For point, lseg, line, path, polygon (coordinates as opaque number texts) and their arrays, and for box[], scanning the produced literal gives back the same coordinates, for lists of any length. It fails for an empty non-nil path or polygon (becomes NULL / nil), for the closed flag of a path, and for box, whose own literal makes the box scanner panic; the server's form of a box is scanned correctly.", "quantifier": "every coordinate list, every array length, every number text free of delimiters", "why_tests_cant": "Unbounded lists; each parser has its own index arithmetic.", "anchors": ["pgsql/point.go", "pgsql/pointarr.go", "pgsql/lseg.go", "pgsql/lsegarr.go", "pgsql/box.go", "pgsql/boxarr.go", "pgsql/path.go", "pgsql/patharr.go", "pgsql/polygon.go", "pgsql/polygonarr.go", "pgsql/line.go", "pgsql/linearr.go", "pgsql/convert_util.go"]}
{"id": "C25", "title": "int2vector and int2vector[] round trip", "statement": "Scanning the produced int2vector text gives back the slice; int2vector[] round trips for lists of non-empty vectors in the quoted form and fails for the forms where the parser mis-advances.", "quantifier": "every list of lists of int16", "why_tests_cant": "Nested unbounded lists; parser bug depends on element count and quoting.", "anchors": ["pgsql/int2vector.go", "pgsql/int2vectorarr.go", "pgsql/convert_util.go: pgParseVector, pgParseVectorArray"]}
{"id": "C26", "title": "Integer range round trip", "statement": "Scanning the server's canonical form of the range produced from a pair of integers yields the pair; unbounded and empty ranges and NULL elements are where the scanners lose information or panic.", "quantifier": "every pair of bounds, every range text", "why_tests_cant": "64-bit pairs.", "anchors": ["pgsql/int4range.go", "pgsql/int8range.go", "pgsql/int4rangearr.go", "pgsql/convert_util.go: pgParseRange"]}
{"id": "C27", "title": "Scanning NULL resets the destination", "statement": "Scanning SQL NULL leaves the destination in a state independent of what it held before. This holds for the scanners that assign nil and fails for those that return without assigning (stale value from a previous row survives).", "quantifier": "every scanner in the table, every prior destination value", "why_tests_cant": "Depends on history of the destination variable.", "anchors": ["pgsql/hstore.go", "pgsql/uuid.go", "pgsql/varbit.go", "pgsql/chararr.go", "pgsql/textarr.go"]}
{"id": "C28", "title": "Relation identifiers parse uniquely", "statement": "A tag value '[qualifier.]name[:alias]' built from valid identifier parts parses back to exactly those parts; anything not of that form is rejected.", "quantifier": "every string", "why_tests_cant": "Strings are unbounded.", "anchors": ["internal/analysis/analysis.go: parseRelIdent, rxRelIdent"]}
{"id": "C29", "title": "Column identifiers parse uniquely and only with known qualifiers", "statement": "'[qualifier.]name' parses back to its parts iff it is well-formed, not reserved, and its qualifier names a declared relation; otherwise an error is reported.", "quantifier": "every string, every set of declared relations", "why_tests_cant": "Strings are unbounded.", "anchors": ["internal/analysis/analysis.go: parseColIdent, parseColIdents, parseColIdentList, isColIdent"]}
{"id": "C30", "title": "Relation names and aliases are unambiguous", "statement": "In every accepted query each alias, and each unaliased name, is declared once: a column qualifier resolves to exactly one relation, and a redeclaration is always rejected.", "quantifier": "every sequence of relation declarations", "why_tests_cant": "Histories of declarations.", "anchors": ["internal/analysis/analysis.go: addToRelSpace"]}
{"id": "C31", "title": "Predicate expressions split correctly", "statement": "A tag expression 'lhs op rhs' / 'lhs op quantifier rhs' / 'lhs' over each comparison operator splits into exactly these parts, longest operator first; surrounding blanks are irrelevant. The two betweenasym predicates can never be written: their words are missing from the list of operator words.", "quantifier": "every lhs and rhs text free of operator characters, every operator, every quantifier", "why_tests_cant": "Unbounded operand text; operator prefixes overlap (<, <=, <>; !, !=, !~, !~*).", "anchors": ["internal/analysis/analysis.go: parsePredicateExpr", "internal/analysis/enums.go: stringToPredicate, predicateAdjectives"]}
{"id": "C32", "title": "Where structs become alternating condition lists", "statement": "In every accepted where struct, at every nesting level, conditions and AND/OR connectives strictly alternate, beginning and ending with a condition; the connective before a condition is OR iff its bool tag says so. A blank field with a non-Column type and an sql tag breaks the alternation.", "quantifier": "every where struct of any size and depth", "why_tests_cant": "Recursive unbounded input.", "anchors": ["internal/analysis/analysis.go: analyzeWhereStruct"]}
{"id": "C33", "title": "At most one row-selecting clause per query", "statement": "Every accepted query has at most one of where struct, filter, all directive; updates of slices have none; at most one of Return, Result, RowsAffected; and inserts have none of the row selecting clauses, independent of field order.", "quantifier": "every query struct, every order of its fields", "why_tests_cant": "All field orders and combinations.", "anchors": ["internal/analysis/analysis.go: analyzeWhereStruct, analyzeFilterField, analyzeAllDirective, analyzeReturnDirective, analyzeResultField, analyzeRowsAffectedField"]}
{"id": "C34", "title": "No unqualified mass update or delete without All", "statement": "The SQL generated for an accepted Delete or Update restricts the rows it touches by a condition if the struct has a where struct with items, a relation record with primary key fields (update) or a slice of such records. It is unrestricted with the All directive. The analyzer does not require All otherwise: a Delete with neither where struct, filter nor All is accepted and generates an unconditional DELETE; the same for an empty where struct; an Update of a record without primary key fields generates a WHERE clause without a condition.", "quantifier": "every accepted query struct", "why_tests_cant": "The dangerous case is an omission, which tests of present features do not exercise.", "anchors": ["internal/analysis/analysis.go: analyzeQueryStruct", "internal/generator/generator.go", "gosql.go: All"]}
{"id": "C35", "title": "ON CONFLICT target and action", "statement": "Every accepted on-conflict struct has at most one conflict target and at most one action, and DO UPDATE always has a target; that an action is present is documented but not enforced.", "quantifier": "every on-conflict struct, every field order", "why_tests_cant": "All orders and combinations.", "anchors": ["internal/analysis/analysis.go: analyzeOnConflictStruct and its directives"]}
{"id": "C36", "title": "Join condition left-hand side", "statement": "An accepted join condition's left column is unqualified or qualified by the joined relation's alias (or name, if not aliased), and every such condition is accepted. The check rejects the unqualified column of an unaliased relation.", "quantifier": "every relation identifier and column identifier", "why_tests_cant": "Operator precedence mistake visible only for one of four presence combinations.", "anchors": ["internal/analysis/analysis.go: analyzeJoinStructJoinDirective"]}
{"id": "C37", "title": "Field mode options", "statement": "The select/filter/insert/update/not-null permissions of a field are determined by the last option mentioning each of them, default allowed; ro/wo/xf/nn are the documented abbreviations; an empty option panics.", "quantifier": "every list of tag options", "why_tests_cant": "Unbounded option lists; order matters.", "anchors": ["internal/analysis/fieldmode.go: parseFieldMode"]}
{"id": "C38", "title": "Filter column keys", "statement": "The public key of a filter column is the separator-joined path of field names (or of the non-empty values of a tag, where a '-' anywhere on the path hides the field), or just the last of them; the settings come from the configuration or from the nearest fck tag, which also cuts the path if it is on a parent. Distinct paths give distinct keys if no part contains the first character of the (non-empty) separator, no tag on the path is missing and no fck tag is involved; without any one of these conditions, keys can collide.", "quantifier": "every selector path, separator and tag configuration", "why_tests_cant": "Unbounded nesting.", "anchors": ["internal/analysis/analysis.go: parseFilterColumnKey, joinFieldName, joinFieldTag"]}
{"id": "C39", "title": "Generated placeholders match generated arguments", "statement": "In the generated Exec method, placeholder $i in the SQL statement is bound to the i-th argument and each refers to the same field, for every combination of written columns, where conditions, primary keys, limit and offset; the operators, connectives and groups are those of the query description, and the generator panics exactly if an update or delete has a join struct without Relation. Exceptions, each with a witness: a primary key written as DEFAULT in an update by primary key; IN with a column instead of a field; a count query with a limit field, whose argument has no placeholder.", "quantifier": "every query description", "why_tests_cant": "Combinatorial number of clause combinations; an off-by-one writes the wrong column.", "anchors": ["internal/generator/generator.go: makeParamSpec, buildQueryInput*, makeSQL*"]}
{"id": "C40", "title": "Slice arguments of IN predicates", "statement": "With IN predicates, the run-time argument list is the static arguments followed by the elements of each slice in order, and the placeholders generated at run time for slice k address exactly its elements, for all slice lengths. An empty slice gives `IN ()`, which is not SQL; an IN with a column makes the argument list too short and the method panics.", "quantifier": "every number of IN predicates and every combination of slice lengths (including empty)", "why_tests_cant": "Lengths are run-time values.", "anchors": ["internal/generator/generator.go: buildQueryStringForSliceArgs", "gosql.go: InValueList"]}
{"id": "C41", "title": "Batch insert/update rows and arguments", "statement": "For inserting or updating a slice of n>0 records with at least one written column, the run-time VALUES list has n rows, row i's j-th placeholder addresses the j-th field of record i, DEFAULT columns consume no argument, the text ends without a dangling comma, and the method panics iff more than 65535 arguments are needed. Exceptions: for an empty slice the last character of the static statement is cut off; in a slice update a DEFAULT column has no value in the rows, so these have fewer values than the column list; without written columns a row is an unopened parenthesis.", "quantifier": "every number of records and columns, every set of DEFAULT columns", "why_tests_cant": "Record counts are run-time values.", "anchors": ["internal/generator/generator.go: buildQueryStringForSliceInsertOrUpdate"]}
{"id": "C42", "title": "Scan destinations match returned columns", "statement": "For every accepted query a returned row has as many values as there are Scan destinations; the i-th value is the column of the i-th field that is read (NULL possibly replaced), this is a field of the output record, and it is scanned into that field of the record: the query field itself for a single record, the i-th record of the input if a slice is inserted, or a variable declared for the row, which is then appended or given to the iterator, in the order of the rows. Exec, QueryRow and Query are called for no output, a single output, and several rows. Exceptions: a slice update has destinations but no RETURNING clause; an array is neither indexed nor is a variable declared; if no field can be read rows are still expected and the appended variable is not declared; with ON CONFLICT DO NOTHING the returned rows are stored in the wrong records.", "quantifier": "every accepted query struct, every field list incl. nested ones, every number of rows", "why_tests_cant": "Unbounded structs.", "anchors": ["internal/generator/generator.go: buildQueryOutput*, makeSQL*"]}
{"id": "C43", "title": "Import names in a generated file are unique", "statement": "For every sequence of requests each requested package is imported exactly once, nothing else is, the name a request is answered with is the name of that package in the file, imports without an explicit name keep the requested name, and the declaration lists each import once in three groups. The names are pairwise distinct provided that no requested name is another requested name followed by digits; otherwise two imports may get the same name (foo1, foo, foo).", "quantifier": "every sequence of imports requested while generating a file", "why_tests_cant": "Histories of requests.", "anchors": ["internal/generator/generator.go: addimport"]}
{"id": "C44", "title": "Filter column map keys are unique", "statement": "The generated column map contains each key once, the first field with a key wins, and fields without a key never appear; the fields are exactly those of the record that are not excluded from filters and name a column of the relation, and every entry denotes that column qualified with the relation's alias. In the second version of filters, and only there, an entry also has the converter configured for the field's type and says whether the column may be NULL. Hence whatever filter expression or sort string is given to a filter of the type, only such columns are compared or ordered by.", "quantifier": "every accepted filter type, every filter expression and sort string", "why_tests_cant": "Unbounded field lists.", "anchors": ["internal/generator/generator.go: buildFilterColumnMap"]}
{"id": "C45", "title": "BETWEEN keeps its meaning, its negated and symmetric forms lose it", "statement": "For every between condition that passes the type check the condition of the WHERE clause is `column BETWEEN lower AND upper`, whatever the predicate: for isbetween it is for every row true, false or unknown just as the tag asks; for notbetween it is true exactly for the rows for which the tag asks for false, and conversely; for isbetweensym it agrees with the tag as long as the value does not lie in the range from the upper to the lower bound. Accepted queries exist for which NOT BETWEEN and BETWEEN SYMMETRIC select the wrong rows.", "quantifier": "every between condition", "why_tests_cant": "Only plain BETWEEN is in the tests.", "anchors": ["internal/generator/generator.go: makeSQLBetweenPredicate", "internal/analysis/analysis.go: analyzeWhereStruct"]}
{"id": "C46", "title": "Conflict target columns match an index exactly", "statement": "If no index repeats a column, a column-list conflict target is accepted exactly if some unique or primary index has exactly these columns, in any order; the first such index becomes the target. Exceptions, with witnesses: an index that repeats a column, and an index with INCLUDE columns, which count as key columns.", "quantifier": "every index key vector and column list", "why_tests_cant": "Lists of any length, with duplicates.", "anchors": ["internal/postgres/postgres.go: matchNumbers, typeCheckQueryOnConflictStruct"]}
{"id": "C47", "title": "Index expression extraction", "statement": "From an index definition, the text between the parentheses following USING method is extracted, for any nesting of parentheses and any quoted string not ending in an escaped quote. Exceptions, with witnesses: a string that ends in an escaped quote, and a quoted identifier with a parenthesis.", "quantifier": "every index definition text", "why_tests_cant": "Unbounded nesting and quoting.", "anchors": ["internal/postgres/postgres.go: parseIndexExpr"]}
{"id": "C48", "title": "Type-check verdicts do not depend on map iteration order", "statement": "Whether a comparison, and a whole query, type-checks, and with which error, is independent of the (random) iteration order over the operator map; the chosen value converter is too whenever an entry without converter matches. Otherwise it is not (witness).", "quantifier": "every iteration order of every operator map", "why_tests_cant": "Map iteration order is randomised by the runtime: a schedule property.", "anchors": ["internal/postgres/postgres.go: typeCheckFieldConditional"]}
{"id": "C49", "title": "Read-only and write-only fields", "statement": "A field that may not be inserted (updated) is never written unless forced, a write-only field is never read unless forced, every permitted field with a column is, fields keep their order, and all of them go to columns of the target relation. Exceptions, with witnesses: nested fields under a read-only parent are still written; a field that is neither readable nor writable is read.", "quantifier": "every field list, mode, force list and query kind", "why_tests_cant": "Combinatorial.", "anchors": ["internal/postgres/postgres.go: skipFieldInsert, skipFieldUpdate, skipFieldRead", "internal/analysis/fieldmode.go"]}
{"id": "C50", "title": "Configuration precedence", "statement": "At most one configuration file is read: the one named by -config, else the one in the nearest directory from the working directory up that has a .git directory. A string option has the value of its last flag, else of the first key of the file that is not null, else the default. A boolean option likewise, a flag without a value counting as absent. A list option has all its flag values that are not empty, else the first list of the file that is not empty, else nothing. The method argument type has the name and package of its last flag, else of the first text in the file, else the default. Converters come from the file only, as does the method name. Each option has the documented key, in upper or lower case, and flag. A configuration is accepted exactly if it names a database, its output format is one that C52 accepts, the filter key tag is an identifier or empty and the separator has at most one byte; only the format is changed. Exceptions, each with a witness: the argument type stays a pointer if an earlier flag named one, and keeps the default's package name; a configuration file nearer than the repository's root is passed over; of the two file names in one directory the order of the listing decides.", "quantifier": "every list of flags and every file", "why_tests_cant": "Histories of configuration sources.", "anchors": ["internal/config/types.go", "internal/config/config.go: ParseFlags, ParseFile, examineDir, Validate"]}
{"id": "C51", "title": "Go types and objects: textual round trip", "statement": "A Go type that is set from a text shows that text, and the text of a type, set on an empty value, gives the same type, if the name has no dot and the path does not begin with '*'; a text without a dot is refused. A value that is already a pointer stays one. An object identifier is accepted exactly if it is a path of two or more characters (letters, digits, '_', and inside it '.' and '/') and an identifier, joined by a dot; it shows the text it was set from and never panics. A path with a hyphen is refused, because the regular expression has a range where a hyphen was meant.", "quantifier": "every text, package path, name, pointer flag and previous value", "why_tests_cant": "Unbounded strings.", "anchors": ["internal/config/types.go: GoType.Set, GoType.String, ObjectIdent.Set, ObjectIdent.String"]}
{"id": "C52", "title": "Output files are distinct from inputs and from each other", "statement": "Validation accepts exactly the formats with one verb %s and no other '%', and puts %s before a format without one. The output of n.go is n in place of the verb, ending in .go once. If three or more characters follow the verb and the format has no '/', then different inputs have different outputs, next to their inputs, and a file is its own output exactly for %s.go. Exceptions, each with a witness: the accepted formats '', %s, .go and %s.go overwrite the source; gen_%s gives user.go and user.go.go the same output; ../%s_gen gives files of sibling directories the same output; an input named like an output (user_gosql.go) is overwritten by the default format.", "quantifier": "every file name and every accepted output name format", "why_tests_cant": "All names and formats.", "anchors": ["internal/command/command.go: outFilePath", "internal/config/config.go: Validate"]}
{"id": "C53", "title": "No file is written unless everything was generated", "statement": "If opening the database, loading, searching, analysing, type checking or generating fails or panics, for any type of any file, no file is created or changed and the run fails. A run that succeeds has written the formatted code of every file with a target, generated from all its types in order, and touched no other file. If writing a file fails, the outputs before it are written, those after it are untouched, and its own is missing, unless it could not be created or not be removed. So code that cannot be formatted destroys the previous output, and the output of a file that has no targets any more stays.", "quantifier": "every program (analysis, checker, generator and formatter are parameters), every failure point, every state of the disk", "why_tests_cant": "Crash/failure points.", "anchors": ["internal/command/command.go: Run, writeOutFile"]}
{"id": "C54", "title": "Accepted where conditions are sound", "statement": "Every condition of an accepted where struct, at any depth, has a predicate that fits it: fields are never compared by a unary predicate, a quantifier occurs only with a quantifiable predicate and (for fields) a slice or array, list predicates only with a slice or array field, range predicates in between structs, and a column condition lacks its right-hand side exactly when its predicate is unary; a right-hand side that is present is not empty. A Column directive however accepts a range or list predicate with a single right-hand side.", "quantifier": "every where struct of any size and depth", "why_tests_cant": "The parser, the predicate table and the checks interact over unbounded inputs.", "anchors": ["internal/analysis/analysis.go: analyzeWhereStruct", "internal/analysis/enums.go"]}
{"id": "C55", "title": "Join conditions are sound and connected as written", "statement": "Every condition of an accepted join directive is sound as in C54 and its left side passed the check of C36; the conditions are those of the tag, in order, with OR between the parts of one tag value separated by ';' and AND between tag values.", "quantifier": "every join directive", "why_tests_cant": "Unbounded tags.", "anchors": ["internal/analysis/analysis.go: analyzeJoinStructJoinDirective"]}
{"id": "C56", "title": "Clauses fit the kind of query", "statement": "In every accepted query struct limit, offset, order-by and Optional occur only in selects, Default and Force only in inserts and updates, Override and on-conflict only in inserts, All only in updates and deletes, Return only in writes, and the join struct is named join in selects, from in updates, using in deletes; and the on-conflict, join and where parts of the query as a whole satisfy C35, C36, C54 and C55. A second join struct is not rejected: it replaces the first.", "quantifier": "every query struct, every order of its fields", "why_tests_cant": "All combinations of clauses and orders.", "anchors": ["internal/analysis/analysis.go: analyzeQueryStruct and the functions it dispatches to"]}
{"id": "C57", "title": "Listed columns belong to the records", "statement": "Every column listed by Return, Force or Optional in an accepted query is the column of a field of the records. Columns listed by Default are not checked by the analyzer.", "quantifier": "every query struct", "why_tests_cant": "Unbounded lists and records.", "anchors": ["internal/analysis/analysis.go: analyzeReturnDirective, analyzeForceDirective, analyzeOptionalDirective, analyzeDefaultDirective"]}
{"id": "C58", "title": "No dangling qualifiers", "statement": "In an accepted query, the qualifier of every column in where, join, order-by, Return, Force, Optional and Default clauses is a relation the query declares. This does not extend to the columns of the record type: because analysed types are cached, a type accepted for one query is accepted for the next although the qualifier is undeclared there, so acceptance depends on what was analysed before.", "quantifier": "every query struct; every sequence of analysed queries", "why_tests_cant": "State shared between analyses of different targets.", "anchors": ["internal/analysis/analysis.go: parseColIdent, addToRelSpace, analyzeRelType, relTypeCache"]}
{"id": "C59", "title": "The compatibility table names converters that exist and fit", "statement": "Every non-empty valuer (scanner) of every row of the compatibility table is a function of package pgsql that gives a driver.Valuer (sql.Scanner) and takes a value of (a pointer to) the row's Go type; no key has two rows. Exception, with witness: the scanners of the two inet[] rows for []net.IP and []net.IPNet.", "quantifier": "every row of the table (about 460)", "why_tests_cant": "The table holds names as text; a wrong one only shows when code generated for that very combination is compiled.", "anchors": ["internal/postgres/compatibility.go: init_oid2literal", "pgsql/*.go: exported constructors"]}
{"id": "C60", "title": "Generated converter calls are well typed", "statement": "For every field and column accepted by the type checker, the converter called on the field's value (address) takes exactly the field's Go type, provided the type is neither a pointer nor a named basic type (for reading: nor any named type), and is not []net.IP or []net.IPNet read from inet[]. The provisos are needed (witnesses).", "quantifier": "every Go type, column type, type modifier and catalog", "why_tests_cant": "Unbounded set of Go types; would need compiling generated code for each.", "anchors": ["internal/postgres/postgres.go: typeCheckFieldRead, typeCheckFieldWrite, typeCompatibility", "internal/analysis/analysis.go: GenericLiteral", "internal/generator/generator.go: addConverterCallExpr"]}
{"id": "C61", "title": "Defaults of limit and offset fields", "statement": "A limit (offset) field that is zero when the method is called stands for the number in its tag, any other value for itself. It fails with an IN predicate in the query: the argument list is built before the default is assigned, so LIMIT 0 is sent.", "quantifier": "every select with limit and offset fields, every value of the fields", "why_tests_cant": "The order of the generated statements matters only for a combination of clauses.", "anchors": ["internal/generator/generator.go: buildQueryLimitOffsetFallback, buildQueryCode, buildQueryStringForSliceArgs"]}
{"id": "C62", "title": "Pointers on the way to scanned fields are initialised", "statement": "Unless the record was given by the caller (insert, update), every pointer on the way to a field that is scanned is set to a new value before the Scan, after all pointers on the way to it, and no pointer is set twice nor any other. Exception: pointers whose selectors are equal when written without dots (A.BC and AB.C) are not told apart, the second stays nil and the generated method panics.", "quantifier": "every list of read fields with arbitrarily nested selectors", "why_tests_cant": "The nesting of record types is unbounded.", "anchors": ["internal/generator/generator.go: buildQueryOutputInitFields"]}
{"id": "C63", "title": "The methods of a generated filter type", "statement": "A filter type gets Init, And, Or and one method for each filterable field without a reserved name. The method of a field compares the column of that field, and nothing else, with its argument as it is; an argument of an imported named type is written with the name its package has in the file. The names of the methods are distinct unless a field is named Init, And or Or or the concatenated names of nested fields coincide; an argument type of the own package, or one nested in a pointer, slice or map whose package was renamed, is written with a wrong package name; a value that must be converted (JSON) is passed unconverted.", "quantifier": "every accepted filter type", "why_tests_cant": "Field lists, nesting and package names are unbounded.", "anchors": ["internal/generator/generator.go: buildFilterMethodsForColumns, buildFilterMethodInit, buildFilterMethodBoolOp", "internal/analysis/types.go: ImportedTypes"]}
{"id": "C64", "title": "Conditions mean what the tags ask for", "statement": "For an accepted query over one record or a select, the WHERE clause of the generated code, with the parameters replaced by the fields they stand for, is for every row true, false or unknown just as the where struct asks: some group of conditions between ORs is satisfied, each by the column, function, operator, quantifier and field (or column or literal) of its tag, nested structs by themselves. An update without where struct requires every primary key column to equal the field of the record for it. The joined tables are those of the join struct in order, each with its type of join and with a condition that means what its tag says, AND binding more tightly than OR. Exceptions: a function is not applied to the elements of an IN list; a nested struct without conditions is rendered as `()`; a Column directive with a range predicate is rendered as the bare column; a Column directive with a list predicate makes the code range over a field without a name; negated and symmetric ranges are C45; stray blank fields are C32.", "quantifier": "every accepted query, every database (operators, functions, null), every row and values of the fields", "why_tests_cant": "The tests compare generated text for some queries; what the clause means for a row is never evaluated.", "anchors": ["internal/generator/generator.go: buildSQLWhereClause, buildSQLTableJoinSlice, makeSQLBoolValueExprList", "internal/postgres/postgres.go: typeCheckQueryWhereStruct, typeCheckQueryJoinStruct"]}
{"id": "C65", "title": "Which types become targets", "statement": "A type becomes a target exactly if it is declared at package level, by a spec whose name begins with Select, Insert, Update, Delete or Filter in any case, in a file that passes the filter, and neither the declaration's nor the spec's documentation contains gosql:ignore. A file passes if it is one of the input files or matches one of the regular expressions, or if none are given. Every file in the result has a target and every package a file. The search panics exactly if a package has more syntax trees than files. Exception: a name with the letter U+017F for 's' is found, but the analysis then panics.", "quantifier": "every list of loaded packages, every filter", "why_tests_cant": "Unbounded programs.", "anchors": ["internal/search/search.go: Search", "internal/config/config.go: FileFilterFunc"]}
{"id": "C66", "title": "NULL in columns and zero values in fields", "statement": "What is scanned into a field is the value of its column (as text for a uuid whose NULL is replaced); in place of NULL it is the tag's coalesce literal, or else the zero value of the column's type (for a uuid the empty string), exactly if the tag says coalesce or the column is one of an ordinary table without NOT NULL and the field is neither a pointer, nor a Scanner, nor scanned through one. What is written is the argument, or NULL if the column is one of an ordinary table without NOT NULL, the field is neither a pointer nor a Valuer nor passed through one, and the argument is that zero value. So a field without a coalesce literal reads back what it wrote. Exceptions: columns of views, materialized views, partitioned and foreign tables are never taken as nullable; nor are those of a table joined by an outer join; types without zero value (line) are not replaced; the zero value of lseg is not a literal; NULLIF($1, 0) makes the parameter of a bigint or double precision column an integer; a coalesce literal other than the zero value changes what is read back; a written zero value is not found by `column = zero`; any option that begins with coalesce counts.", "quantifier": "every accepted query, every field read or written, every database state and argument", "why_tests_cant": "The tests compare the generated text; that NULLIF and COALESCE are inverse for every type of column and field is a statement about values.", "anchors": ["internal/generator/generator.go: addCoalesceCallExpr, addNULLIFCallExpr", "internal/postgres/types.go: NeedsCOALESCE, NeedsNULLIF, ZeroValueLiteral", "internal/postgres/oid/types.go: TypeToZeroValue"]}
{"id": "C67", "title": "Filters and the statements they extend", "statement": "For an accepted query with a filter field the generated code asks the filter for SQL with parameters numbered after the n arguments of the statement, appends it to the statement, then the parenthesis that an open EXISTS lacks, then the RETURNING clause of an update. If the query is an update, or has no arguments of its own, the arguments sent are those of the statement followed by those of the filter, so that each placeholder of either is bound to its value. Only an update, or a query with a limit or offset field, has arguments of its own. The filter follows a statement that a WHERE clause can follow, except exactly if the statement is a select with ORDER BY, LIMIT (also that of a single record) or OFFSET, or a delete that returns columns. Exceptions: a select, count or exists with a limit or offset field sends only the filter's arguments while the numbers are shifted; the excepted statements have ORDER BY, LIMIT, OFFSET or RETURNING before WHERE.", "quantifier": "every accepted query with a filter, every filter text and parameters", "why_tests_cant": "The filter is known only at run time; the tests compare the generated code for two or three queries and never the combined text.", "anchors": ["internal/generator/generator.go: buildQueryStringForFilter, buildQueryFilterParams, buildSQLUpdateStatement, buildSQLSelectExistsStatement", "filter/filter.go: ToSQL"]}
{"id": "C68", "title": "Errors of a generated method", "statement": "A generated method makes its calls (Exec and RowsAffected; QueryRow with Scan; or Query, a Scan per row, each followed by the iterator's visit, and Err) in order up to the first that fails. It returns that call's error, or what the handler makes of it, and tells the handler once; if nothing fails it returns nil, or what the handler makes of nil if it is told. A plain handler is told of success except by Exec with a RowsAffected field and by a single record with AfterScan. AfterScan is called for exactly the rows whose scan succeeded, before the row is kept or visited; the rows are closed last, exactly if Query succeeded; the RowsAffected field is set exactly if nothing fails, to the number converted to its type. The call is the Context variant exactly if the query or the configuration names a context; the kind reported is that of the statement. Exceptions: an info handler is told of nil by Exec without RowsAffected, against its documentation; a number of affected rows that does not fit a small integer type wraps; rows scanned before a failure stay in the output.", "quantifier": "every accepted query, every pattern of failing calls, every number of rows, every handler", "why_tests_cant": "Failures at each call of each of the result shapes, with each of the handlers; the repository compares generated text and never runs it against a failing connection.", "anchors": ["internal/generator/generator.go: buildQueryCallExec, buildQueryCallQueryRow, buildQueryCallQuery, buildQueryResultRowsAffected, buildQueryResultRowScan, buildQueryResultRowsScan", "gosql.go: ErrorHandler, ErrorInfoHandler"]}
{"id": "C69", "title": "References to packages resolve", "statement": "Every package name that the code of a generated file refers to means the package it should: it is imported, under that name, and no other import has the name. This holds if the names asked for are those the packages declare, none is another followed by digits, no other package is named pgsql, gosql or context, and the file imports gosql (it does with the default argument type and a query). Every import is referred to, except for the package of a record that is scanned into by value and is neither in a slice nor passed to an iterator. Exceptions, each shown by a file: that unused import; an IN list or an info handler with another argument type (gosql is not imported); an argument type of another package named pgsql; a converter in a package whose name is not the last element of its path; a record type first met in a query of another package, with which a package imports itself; a nested pointer to a struct without name, which is set to new().", "quantifier": "every list of accepted queries and filters written to one file, every configuration of argument type and context", "why_tests_cant": "Files whose records, argument types and converters come from packages with clashing names; the repository's tests compare a few files that import one or two packages.", "anchors": ["internal/generator/generator.go: Write, addimport, buildQueryCode, buildQueryOutputInitRoot, buildQueryOutputInitFields, buildFilterColumnMap"]}
{"id": "C70", "title": "Recognition of methods and interfaces", "statement": "A type that the analyzer takes for a sql.Scanner, driver.Valuer, json or xml marshaler or unmarshaler, gosql.AfterScanner, ErrorHandler, ErrorInfoHandler, FilterConstructor or gosql.Conn has the methods of that interface, with the same parameters and results; and a type that declares these methods itself is recognised, if its method types are written without aliases. The test for gosql.Conn never panics. Exceptions, each shown by a type: methods promoted from an embedded field are not seen; an interface type is never an after-scanner or error handler; a method UnmarshalJSON(...byte) is taken for UnmarshalJSON([]byte); a Value method with a pointer receiver counts for the value type; gosql types are known by a suffix of their path; parameter types that are aliases are not recognised; FilterConstructor as documented lacks InitV2, which the test demands; and the tests for ErrorInfoHandler, the xml interfaces and FilterConstructor panic if the method of that name has a parameter type built from error.", "quantifier": "every named type with declared, promoted and interface methods of any signature", "why_tests_cant": "Decides whether a converter or a hook is generated; the repository tests each predicate on a few types.", "anchors": ["internal/typesutil/predicates.go: ImplementsGosqlConn, ImplementsGosqlFilterConstructor, ImplementsAfterScanner, ImplementsErrorHandler, ImplementsErrorInfoHandler, ImplementsScanner, ImplementsValuer, ImplementsJSONMarshaler, ImplementsJSONUnmarshaler, ImplementsXMLMarshaler, ImplementsXMLUnmarshaler"]}
{"id": "C71", "title": "Type of the method argument", "statement": "The argument type of a validated configuration is gosql.Conn, by its text, or a type declared, not as an alias, in the package that its path loads, and has the methods of gosql.Conn; then the package name in the configuration is the one that the package declares, and so is the name gosql otherwise. The generated methods can make their calls on an argument of that type, unless it is a pointer to an interface type, which is accepted. An alias of a connection type and a struct that embeds one are refused. The check does not panic unless the path loads no package at all.", "quantifier": "every configuration, every outcome of loading packages", "why_tests_cant": "A wrong argument type gives code that does not compile; the repository has a test of a few types.", "anchors": ["internal/config/config.go: Validate, checkMethodArgumentType", "internal/config/types.go: GoType"]}
{"id": "C72", "title": "The cache of record types", "statement": "The analyzer keeps what it found out about a record type under the text of the type, in a cache that lasts for the whole run. Analysed one after the other, the targets give what each gives by itself, with the same first error, if types of the same text are the same, if each record type has the same imported parts seen from every package with targets, and if no column of a record type has a qualifier; then the order of the targets changes nothing but the order of the results. In one package the second condition holds. Exceptions, each shown by targets: a type that is used in its own package and in another one, where the first target decides whether the unexported columns are there; a type with a qualified column, where the second target is accepted or not depending on the order.", "quantifier": "every list of targets", "why_tests_cant": "Results that depend on the order of the files are hard to find by tests; no test of the repository is about the cache.", "anchors": ["internal/analysis/analysis.go: analyzeRelType, Run"]}
{"id": "C73", "title": "Texts of dates and times", "statement": "The layouts with which the pgsql types write and read date, time, timetz, timestamp and timestamptz: what was written is read back, as far as the layout has a place for it, which is milliseconds, and whole hours (timestamptz) or minutes (timetz) of the offset; the server reads the same date, time and offset. A text of the server is read as exactly the value it stands for, or is an error; the errors are infinity, years before 1 and after 9999, 24:00:00, offsets of timestamptz that are not whole hours, and offsets of timetz that are whole hours. Exceptions, shown by values: microseconds are lost; half an hour of an offset is lost, so that another instant is written; a timetz with whole hours cannot be read after the server stored it; years before 1.", "quantifier": "every time; every value of the server", "why_tests_cant": "The tests use a handful of times with whole hours and no microseconds.", "anchors": ["pgsql/convert_util.go: dateLayout, timeLayout, timetzLayout, timestampLayout, timestamptzLayout", "pgsql/datearr.go", "pgsql/timearr.go", "pgsql/timetzarr.go", "pgsql/timestamparr.go", "pgsql/timestamptzarr.go"]}
{"id": "C74", "title": "Arrays and ranges of dates and times", "statement": "For date[], time[], timetz[], timestamp[], timestamptz[], tsrange, tstzrange, daterange and the arrays of these ranges: what was written is read back, as far as C73 keeps the times; the server reads the same elements and bounds; an array or range of the server with readable elements is read element by element, bound by bound. Exceptions: a NULL element is an error in date[], time[] and timetz[], the zero time in timestamp[] and timestamptz[], a panic in arrays of ranges; a missing bound is read as the zero time, is a panic inside tsrange[] and tstzrange[], and only daterange writes the zero time as no bound, also when it was the bound 0001-01-01; the empty range is read like the range without bounds, and is left out of arrays; whether a bound belongs to the range is lost; NULL for daterange[] leaves the destination. Strings: a date is read only from a time value.", "quantifier": "every slice of times, every pair of times, every array and range of the server with readable elements", "why_tests_cant": "The combinations of NULL, missing bounds, empty ranges and times.", "anchors": ["pgsql/datearr.go", "pgsql/timestamparr.go", "pgsql/timestamptzarr.go", "pgsql/tsrange.go", "pgsql/tstzrange.go", "pgsql/tsrangearr.go", "pgsql/tstzrangearr.go", "pgsql/daterange.go", "pgsql/daterangearr.go", "pgsql/date.go", "pgsql/convert_util.go: pgParseRange, pgParseQuotedStringArray, pgParseCommaArray"]}
{"id": "C75", "title": "Text search values, json[], xml[], characters", "statement": "tsvector: the text is the elements with spaces between them; it is scanned as the same slice exactly if no element has a space and the slice is not one empty element; a scanned text is written back unchanged; the server's text is scanned lexeme by lexeme exactly if no word has a space. tsvector[]: without quotes and spaces in the elements the slice is scanned as it was written exactly if NULL occurs only at the end and no vector is one empty element; the server reads the elements as written if none has a double quote or a backslash; the server's text is scanned lexeme by lexeme if no vector is a single lexeme, NULL occurs only at the end, and no word has a space, double quote or backslash. tsquery[]: elements without double quotes and backslashes are scanned as they were written and read the same by the server; NULL is scanned as an empty element and, into [][]byte, four bytes that start with N as nil. The computed buffer sizes of these valuers are exact, so no write is out of range. json[] and xml[] are scanned as written for every value, and the server reads the same elements. A byte and a rune are scanned as they were written; NULL and the empty text leave the destination. Exceptions, shown by values: NULL before another vector adds an empty vector; a last vector of one lexeme is scanned as many vectors; quotes are not escaped.", "quantifier": "every slice of elements, every text, every tsvector of the server", "why_tests_cant": "The tests have one or two simple values for each type and never a NULL followed by a vector.", "anchors": ["pgsql/tsvector.go", "pgsql/tsvectorarr.go", "pgsql/tsqueryarr.go", "pgsql/jsonarr.go", "pgsql/xmlarr.go", "pgsql/char.go", "pgsql/convert_util.go: pgParseVector, pgParseVectorArray, pgParseStringArray"]}
{"id": "C76", "title": "money and money[]", "statement": "Numbers of cents with less than 100*2^46 in magnitude are written with the right dollars and cents, alone and in arrays, and the server reads the same amount. A scanned amount is the amount or one cent nearer to zero, and is exact for multiples of 25 cents. The server's text is the valuer's text for amounts from zero up to 1000 dollars; it cannot be scanned for any other amount. The server's text of a money[] is scanned exactly if each element is such an amount and none is NULL. NULL leaves the destination of a scalar, makes a slice nil; an empty text panics. Exceptions, shown by values: 7036874417766401 cents are written as another amount; below a dollar 29, 57 and 58 cents, and no others, are scanned as one cent less.", "quantifier": "every number of cents, every slice of them; every array of the server", "why_tests_cant": "The tests convert two amounts. The division and multiplication by 100 in float64 and the thousands separator are where money is lost.", "anchors": ["pgsql/money.go", "pgsql/moneyarr.go"]}
{"id": "C77", "title": "inet, cidr and their arrays", "statement": "An IP of 4 or 16 bytes is written as a text of its address (RFC 4291; an IPv4 address in 16 bytes as IPv4), alone and in arrays, and is scanned as the same address in 16 bytes. A network whose mask is a prefix is written as its address and prefix length; without bits behind the prefix it is scanned as it was written, as inet and as cidr, alone and in arrays. Any text of the server for a cidr is scanned as the network. An inet is scanned into an IP exactly if the prefix is the whole address, otherwise as nil without an error; into a network it is scanned with the bits behind the prefix cleared, so exactly if it is a network, and without a mask if the prefix is the whole address, which is then written as <nil>. Arrays of the server are scanned element by element; NULL in inet[] becomes nil, in cidr[] it is an error. NULL leaves the destination of a scalar and makes a slice nil. Exceptions, shown by values: 192.168.0.1/24 loses its host; 10.0.0.1 cannot be written back; text that is no address is scanned as nil.", "quantifier": "every IP and network, every slice of them; every text of the server for an inet or cidr, also with mixed IPv6 notation; every array of those", "why_tests_cant": "The tests convert two networks. Which texts lose information silently is decided by package net, not by the codecs' own code.", "anchors": ["pgsql/inet.go", "pgsql/inetarr.go", "pgsql/cidr.go", "pgsql/cidrarr.go"]}
{"id": "C78", "title": "macaddr, macaddr8 and their arrays", "statement": "A hardware address is written as the server writes it. A text of the server is scanned as the address exactly if it has 6, 8 or 20 bytes and is an error otherwise. An array of the server is scanned as its elements if all have such a length and none is NULL, and is an error otherwise. What was written is scanned as it was written. NULL leaves the destination of a scalar and makes a slice nil.", "quantifier": "every sequence of bytes; every array of them without an empty element", "why_tests_cant": "The tests convert one address. Lengths and NULL elements are the cases that they leave out.", "anchors": ["pgsql/macaddr.go", "pgsql/macaddrarr.go", "pgsql/macaddr8.go", "pgsql/macaddr8arr.go"]}
{"id": "C79", "title": "Errors can be reported", "statement": "Every error of package analysis has a message, which begins with the file and line of the field, names the target type (but for badJoinConditionLHS and columnFieldUnknown) and quotes the wrong value where one value of a tag is wrong. Every code with which Check refuses a query or a filter is raised with the data that its message shows, so that the error has a message, which begins with the file and line of the field; for an unknown column it gives the column and the relation that was searched, for incompatible types the column, its type and that of the field. Exceptions, shown: no error of the connection, of loading the catalog or of loading the parts of a relation has a message (the template asks the value, not the pointer, for Error, so Error panics), nor has the error that the type of a column is not in the catalog (a number is given to a function of strings); and where a list is compared with a column whose type has no array type, such as an enum, the message is the same whatever the column is.", "quantifier": "every error value of package analysis; every error that the type checker raises, for every catalog, query and filter, with nonempty names of columns", "why_tests_cant": "The tests look at the codes of errors; hardly any executes the template of its message. A message that cannot be made is seen only when the error occurs.", "anchors": ["internal/analysis/error.go", "internal/postgres/errors.go", "internal/postgres/postgres.go"]}
{"id": "C80", "title": "Arrays of floats", "statement": "A []float32 written for a float4[] or a float8[], and a []float64 written for a float8[], is read by the server element by element as the same values (numbers with their sign, also zero, infinities, NaN), and every text by which the server denotes those values is scanned as them; a slice is scanned as it was written. A number is written without exponent, with the fewest digits of which it is the nearest number of its size, and among the decimals with as many digits the nearest. Nil slices are NULL, empty ones are empty arrays; a NULL element is an error, and so is a number too large for the size. A text that is neither a decimal number nor a name of an infinity or of NaN is refused as a syntax error. For numeric[] the decimal is stored as written and is read back as the number; any numeric is scanned as the nearest number. Exceptions, shown: a float64 that is no float32 number is stored in a float4[] as another number, or is refused if it is too large or too small; a number that a float4[] holds exactly is not scanned into []float64 as that number (the server writes the digits that tell it from other float4 numbers); negative zero comes back from numeric[] as zero, infinities are refused. A consequence: what C24 assumes about the text of coordinates is true of float64.", "quantifier": "every slice of float32 or float64 values and every text the server can write for them", "why_tests_cant": "float32 and float64 arrays pass through decimal text in both directions; the number of digits and the size at which the text is read decide whether values change silently.", "anchors": ["pgsql/float4arr.go", "pgsql/float8arr.go", "pgsql/numericarr.go: NumericArrayFromFloat32Slice to NumericArrayToFloat64Slice"]}
{"id": "C81", "title": "What statements do to the tables", "statement": "Carried out by a server with tables of rows, a generated statement does what the query struct says. A select leaves the tables alone and returns, in the order that OrderBy asks for (NULL last unless asked otherwise, also in descending order), from the offset on and at most up to the limit (1 for a single record), for each row of the relation with its joined tables that the where struct asks for, the columns of the fields, NULL replaced where a field cannot take it; a count returns how many rows are asked for; [not] exists returns whether there are [none] in the window. An insert adds one row: each column of a written field has the value of the field, the default if that is asked for, or NULL for the value that stands for NULL in a field that cannot say NULL; other columns have their defaults; if it is in conflict, nothing happens or the named columns of the conflicting row are taken from it. An update changes these columns in the rows asked for, or in those whose primary key is that of the record, and no others; a delete removes the rows asked for and no others; returned are the added, changed or removed rows. What was written is read back. A slice of records is inserted one after the other; an update with a slice changes the rows with the keys of the records to these records. Exceptions, shown, besides those of C64 and C66: a count with an offset returns no row, and one with an order is refused; the tag options add and nullempty change nothing; two fields with the same column are accepted although the column is then named twice; the condition of a table joined in an update may be about the changed table, which the server refuses; an update with a slice of a relation with the alias x, or without alias, is accepted although its names are ambiguous.", "quantifier": "every accepted query struct outside the exceptions, every content of the tables and every value of the fields", "why_tests_cant": "Tests compare the text of statements with expected text and run none against the contents of tables; whether the clauses together select, change and return the right rows needs a meaning for statements.", "anchors": ["internal/generator/generator.go: buildSQLInsertStatement, buildSQLUpdateStatement, buildSQLSelectStatement, buildSQLDeleteStatement, buildSQLSelectCountStatement, buildSQLSelectExistsStatement", "internal/postgres/postgres.go: Check", "internal/analysis/analysis.go: analyzeQueryStruct"]}
{"id": "C82", "title": "The analysis conforms to the tests of the project", "statement": "Each query and filter struct of the project's own analysis tests is analysed as the test expects: the 127 query structs and 7 filter structs that are expected to be refused are refused with the expected error code, and the 56 query structs and the filter struct that are expected to be accepted have the expected description in all its parts: relation, fields with selectors, types, tags and column names, conditions, joins, limits, orders, conflict clauses and lists of columns. The 73 types of TestTypeinfo_string have the expected texts.", "quantifier": "the 191 structs and 73 types of internal/analysis/analysis_test.go", "why_tests_cant": "The tests are what the authors say the analysis should do; that the model does all of it is also the check that the model is of this code.", "anchors": ["internal/analysis/analysis.go: Run, analyzeQueryStruct, analyzeFilterStruct", "internal/analysis/types.go"]}
{"id": "C83", "title": "The checker conforms to the tests of the project", "statement": "Each query and filter struct of the project's own tests of the checker is, in the database of these tests, judged as the test expects: the nine query structs that are expected to be accepted are accepted, and the other 47 query structs and the 5 filter structs pass the analysis and are refused with the expected error.", "quantifier": "the 61 structs of internal/postgres/postgres_test.go in the database made by internal/postgres/testing.go", "why_tests_cant": "The tests need a running server and check one result each; that the model gives all of them is also the check that the model is of this code.", "anchors": ["internal/postgres/postgres.go: Check", "internal/postgres/testing.go"]}
{"id": "C84", "title": "The generated files conform to the tests of the project", "statement": "Each of the 143 input files of the project's own tests of the generator passes the analysis and, in the database of these tests, the checker, and the file that the generator makes of the result under the options of the test is the expected one: the same characters in the same order, apart from blanks that do not separate two words.", "quantifier": "the 143 pairs of files in internal/testdata/generator that internal/generator/generator_test.go lists", "why_tests_cant": "This is the whole path from the Go types to the text of the output; the tests need a running server. That the model gives all of the texts is also the check that the model is of this code.", "anchors": ["internal/generator/generator.go: Write", "internal/analysis/analysis.go: Run", "internal/postgres/postgres.go: Check"]}
{"id": "C85", "title": "Documents and values passed through", "statement": "The converter for json and xml writes NULL for the nil interface and for nothing else; for any other value it writes what Marshal gives or passes on its error. If Unmarshal undoes Marshal a document that was written is read again from the bytes that the driver hands over, also when the server writes it in another way that reads the same. Any source other than bytes is ignored without an error: a string and NULL leave the destination as it was. A pointer that is nil is therefore not NULL: it is the document null in json, and the empty text in xml, which cannot be read. A destination of type interface{} gets the source itself; a bool is written as the bit 1 or 0.", "quantifier": "all coders (what encoding/json or encoding/xml do for a type), values, destinations and sources", "why_tests_cant": "Documents are handled by two small functions whose cases for nil, strings and NULL differ from all other converters.", "anchors": ["pgsql/json.go: Value, Scan", "pgsql/xml.go: Value, Scan", "pgsql/any.go: Scan", "pgsql/bit.go: Value"]}
{"id": "C86", "title": "The filter behaves as the project's tests expect", "statement": "Each of the 35 cases of TestFilter gives the expected error, or the expected text and the expected parameters with their Go types; each of the five cases of Test_toTSQuery gives the expected text.", "quantifier": "all cases of filter/filter_test.go", "why_tests_cant": "The tests are the authors' own statement of what a filter does; they check the model, not only the code.", "anchors": ["filter/filter_test.go: TestFilter, Test_toTSQuery", "filter/filter.go: UnmarshalFQL, UnmarshalSort, ToSQL", "filter/convenience.go: ColAnyInts, ColInStrings"]}
{"id": "C87", "title": "The generated statement is read as the tokens that are meant", "statement": "If the texts that are copied from tags and from the catalog (literals, coalesce values, type names, index predicates) are each made of whole tokens, then the statement that is generated for an accepted query, as it is sent - with the placeholders of IN lists, with one row for each record, with the text of a filter - is divided by PostgreSQL's scanner into exactly the tokens that are meant: every column and relation name is one quoted identifier, no two neighbours merge, no quote is left open and no comment begins. Every name in an accepted query is an identifier, so this needs no assumption on the names. The relation that the checker looks up is the one that is named in the statement exactly when its name has no upper-case letters; aliases are words that the database folds and may reserve. The text of a filter is made of whole tokens, whatever calls built it, if the columns and operators passed to it are; the columns that a generated filter type passes are. Without the option to quote identifiers a filter means the column that was checked exactly when its name has no upper-case letters.", "quantifier": "all accepted queries, catalogs, run-time values and numbers of records", "why_tests_cant": "A statement that is divided differently than meant is refused by the database or, worse, means something else.", "anchors": ["internal/generator/generator.go: buildQuerySQLString, makeSQLBoolValueExprList", "internal/analysis/analysis.go: parseColIdent, parseRelIdent", "internal/postgres/postgres.go: loadRelation, typeOfLiteral", "gosql.go: InValueList", "filter/filter.go: ToSQL, Col"]}
{"id": "C88", "title": "The predicates on types answer as the project's tests expect", "statement": "Each of the 86 cases of the tests of package typesutil (19 predicates and GetDirectiveName) has the expected answer. IsTime holds exactly of the named type time.Time and of the named struct types that embed it directly and not by a pointer.", "quantifier": "all cases of internal/typesutil/*_test.go; all types", "why_tests_cant": "These predicates decide which fields are directives, which types need no converter, and which query types are rejected.", "anchors": ["internal/typesutil/predicates_test.go: TestIsError, TestImplementsScanner, TestImplementsGosqlConn", "internal/typesutil/utils_test.go: TestGetDirectiveName", "internal/typesutil/predicates.go: IsTime"]}
{"id": "C89", "title": "The generated statement is parsed as the tree that is meant", "statement": "PostgreSQL's grammar for the statements that are generated (SELECT, INSERT, UPDATE, DELETE with joins, conditions, ON CONFLICT, RETURNING, VALUES) is written down as a parser on tokens, with the precedence of its operators. The text of the statement generated for an accepted query is parsed, completely, as the tree meant by the query: the columns, values, tables, joins with their conditions, the condition with AND before OR and the nested structs as groups, the order, limit and offset; for slices of records, one row for each record. Required is only what is listed: aliases, qualifiers, functions, types, literals and index expressions that can stand where they are put, conditions for every join but a cross join, a condition in every nested struct, quantifiers with operators that can have one, at least one column to insert and two to update, no empty list. Where one of these fails an accepted query exists whose statement is refused, or read as something else.", "quantifier": "all accepted queries without a filter, all values", "why_tests_cant": "The query struct describes a statement; the text must not only be readable but mean that statement. The exceptions are structs that the checks let through and that fail at run time.", "anchors": ["internal/generator/generator.go: buildQuerySQLString, buildSQLWhereClause, buildSQLTableJoinSlice, buildSQLUpdateStatement, buildSQLInsertStatement, makeSQLBoolValueExprList", "internal/postgres/postgres.go: typeOfLiteral", "internal/analysis/enums.go: CanQuantify"]}
{"id": "C90", "title": "A statement with a filter is parsed as the tree that is meant", "statement": "The text of the statement of an accepted query with a filter is the generated text followed by what the filter adds. By PostgreSQL's grammar (C89) the whole is parsed as the tree meant: the tree of the query, whose condition is the one asked for by the calls made on the filter (C91: AND before OR, And(func) and Or(func) as groups, the parameters numbered from after those of the statement), with the order, limit and offset of the filter. The meaning of a condition is unique. Required is: the usage rules of C04, columns and operators that are such, no empty IN list, and that the query has no clause that comes after WHERE (order, limit or offset of a select; columns returned by a delete; order, limit or offset of the filter for an update or delete). Where one of these fails an accepted query exists whose statement is refused or means something else.", "quantifier": "all accepted queries with a filter, all values, all sequences of calls made on the filter", "why_tests_cant": "What a filter is for: the rows that the caller asks for, and no others. The exceptions are queries that are accepted and fail when they are run, or select other rows.", "anchors": ["internal/generator/generator.go: buildQueryStringForFilter, buildQueryFilterParams", "filter/filter.go: filter.ToSQL, Constructor.Col, Constructor.And, Constructor.Or, Constructor.UnmarshalFQL"]}
{"id": "C91", "title": "The condition of a filter is the conjunction or disjunction of what its calls ask for", "statement": "Each call made on a filter asks for a predicate, a group (And(func), Or(func)) or the rules of an FQL text, and joins it to what comes before with AND, unless Or() was called immediately before or the call is Or(func). Under the usage rules of C04 the WHERE clause is exactly the predicates so asked for, in order, with these connectives and with one pair of parentheses around every group; it is a well-formed expression unless nothing was asked for. What UnmarshalFQL adds is not put in parentheses: its OR takes apart the condition that was there before it.", "quantifier": "all sequences of calls, nested to any depth", "why_tests_cant": "The description of what a filter does is by the call, without its automaton of pending connectives.", "anchors": ["filter/filter.go: Constructor.Col, Constructor.TextSearch, Constructor.And, Constructor.Or, Constructor.UnmarshalFQL"]}
{"id": "C92", "title": "Only gosql's own types are directives, and other fields have no effect", "statement": "A type is taken for the directive of a name exactly if it is a named struct type with that name and the one field _isdir, in a package whose path ends in github.com/frk/gosql; for a filter exactly if it is named Filter in such a package. A field of a query struct without rel tag that is no directive (with the name _), has none of the known names, and is no filter, error handler or context, has no effect on the query that is found or the error that is reported, wherever it stands. A field of the predeclared type error, whatever its name, makes the analyzer panic; and since only the end of the path is compared, packages other than vendored copies are taken for gosql.", "quantifier": "all types, all query structs, all fields", "why_tests_cant": "Users put fields of their own into query structs; that these do not change the statement is a statement about all types and all positions.", "anchors": ["internal/typesutil/utils.go: GetDirectiveName", "internal/typesutil/predicates.go: IsDirective", "internal/analysis/analysis.go: analyzeQueryStruct, analyzeQueryStructField, isFilterType"]}
{"id": "C93", "title": "A statement with a filter selects the rows that the calls ask for", "statement": "For a row and given values the conditions of a filter are true, false or unknown: some of what is between the ORs has all its conditions true, a group counting as one condition. The condition of the statement that PostgreSQL reads (C90) has, for every row and with the values that are sent (those of the query followed by those of the filter), exactly this truth value; if the calls ask for nothing there is no condition. If outside of groups nothing is joined by OR, and FQL is only used inside groups, every row that is selected satisfies each of the conditions, whatever the groups and the FQL contain. For FQL outside of a group this is false.", "quantifier": "all accepted queries with a filter, all sequences of calls, all rows and values, all operators and comparisons of the database", "why_tests_cant": "Programs rely on the condition they put first, for example on a tenant, to hold for all the rows that are returned, also when the rest comes from the request.", "anchors": ["filter/filter.go: filter.ToSQL, Constructor.Col, Constructor.And, Constructor.Or, Constructor.UnmarshalFQL", "internal/generator/generator.go: buildQueryStringForFilter, buildQueryFilterParams"]}
{"id": "C94", "title": "The statement that is sent selects the rows that the where struct asks for", "statement": "For every row of the database, the WHERE condition of the statement as PostgreSQL reads it from the text that is sent, with the parameters that are sent, is true, false or unknown exactly as the where struct says of this row with the values that the fields of the query have: the conditions between ORs all hold for some of the groups, nested structs are conditions by themselves, the elements of a slice after IN are those of the field. The condition of an update of a record without where struct is that the key of the row is that of the record, and every join is on the condition of its directive. Exceptions are those of C64 (a function with IN, an empty group, negated and symmetric ranges, columns compared by IN or BETWEEN) and the requirements of C89.", "quantifier": "all accepted queries with a where struct, a join struct or a key, all values of the fields, all rows, all operators and functions of the database", "why_tests_cant": "This is what the program is for: what is written in tags decides which rows are read, changed and deleted; a parenthesis, a precedence or a number of a parameter that is wrong anywhere on the way from the tags to the text would change that.", "anchors": ["internal/generator/generator.go: buildSQLWhereClause, buildSQLTableJoinSlice, makeSQLBoolValueExprList, makeSQLBetweenPredicate, buildQueryStringForSliceArgs", "gosql.go: InValueList, OrdinalParameters"]}
{"id": "C95", "title": "What the statement that is sent does to the tables is what the query asks for", "statement": "PostgreSQL, which is given the text and the parameters that an accepted query sends, does to the tables what the query asks for: a select returns the rows that join and where struct ask for, in the order, from the offset on and within the limit that are asked for; a count and an EXISTS tell how many they are and whether there are any; an insert adds the row of the record or does what OnConflict says; an update changes the rows asked for to the record and a delete removes them, and both return them as the fields read them. With a slice of records an insert adds the rows of all records in their order, and an update changes each row that has the primary key of a record to that record, and no other. The effect is that of the tree that PostgreSQL parses from the text. Exceptions are those of C81 and of C89, and names that are not in lower case: schemas and qualifiers are written without quotes, so that PostgreSQL reads them in lower case, while tables and columns are quoted.", "quantifier": "all accepted queries without filter, all values of their fields and records, all tables, all databases that read numbers as numbers", "why_tests_cant": "It joins the chain from the tags to the tables: that the generated code means the right statement (C81) is of use only if PostgreSQL reads the text that is sent as this statement, with the parameters in their places.", "anchors": ["internal/generator/generator.go: buildSQLInsertStatement, buildSQLUpdateStatement, buildSQLSelectStatement, buildSQLDeleteStatement, buildSQLSelectCountStatement, buildSQLSelectExistsStatement, buildSQLWhereClause, buildSQLOnConflictClause, buildSQLLimitClause, buildSQLOffsetClause, buildSQLOrderClause"]}
{"id": "C96", "title": "What a statement with a filter does to the tables is what the calls on the filter ask for", "statement": "PostgreSQL, which is given the text and the parameters that an accepted query with a filter sends, does to the tables what the query and the calls on the filter ask for: a select returns those rows of the joined tables for which the conditions of the calls are true, in the order, from the offset on and within the limit of the calls; an EXISTS tells whether there are any; an update changes those rows to the record and returns them, a delete removes them, and no other row is touched. Without FQL the conditions are the calls one after the other, with AND before OR and groups in parentheses; if all are linked by AND, no call can make the statement touch a row for which another is not true. Calls that add no condition ask for every row. Exceptions: those of C67 and C90 (queries that leave no place for the filter; filters with order or limit in an UPDATE or DELETE); a count applies limit and offset of the filter to the one row that it returns, and is rejected if the filter has an order.", "quantifier": "all accepted queries with a filter, all calls used as C04 requires, all values, all tables, all databases that read numbers as numbers", "why_tests_cant": "It joins the chain from the calls of the user of the library to the tables: an update or delete with a filter must not touch rows that were not asked for, whatever the parameters and the statement before the filter are.", "anchors": ["filter/filter.go: Constructor.ToSQL, Constructor.Col, Constructor.And, Constructor.Or, Constructor.Limit, Constructor.Offset", "internal/generator/generator.go: buildSQLUpdateStatement, buildSQLSelectStatement, buildSQLDeleteStatement, buildSQLSelectCountStatement, buildSQLSelectExistsStatement"]}
{"id": "C97", "title": "The codecs convert as the project's tests expect", "statement": "In every case of the tests of package pgsql that has a valuer and a scanner of the package, the server accepts the text that the valuer gives for the input, and the scanner makes the expected output of the text that the server sends back; NULL is scanned as the expected output. What is assumed of the server (input and output of the types) agrees with the cases of the same tests in which a text goes in and a text comes out.", "quantifier": "606 cases with a valuer or a scanner and 431 texts of 76 tests, of 1276 cases in 91 files (not: types without codec, values that the driver alone converts, documents, times whose offset depends on a zone database)", "why_tests_cant": "The theorems about codecs speak of a model; the tests are what the authors of the code ran against a server. A model that disagreed with them would be a model of something else.", "anchors": ["pgsql/convert_test.go: testlist2.execute", "pgsql/textarr.go: TextArrayFromStringSlice", "pgsql/int4arr.go: Int4ArrayFromIntSlice", "pgsql/hstore.go: HStoreFromStringMap", "pgsql/box.go: BoxFromFloat64Array2Array2"]}
{"id": "C98", "title": "Which function converts the values of a filter", "statement": "In a filter of the second version the values given for a key are converted by the function of the last entry of filter_value_converters for the type of the key's field, and are left as they are if there is no entry; in the first version they are left as they are. Types are told apart by path and name: no two types share an entry. It fails for pointers to a configured type, which have no entry, and for entries without a type, which are taken for every unnamed type; an entry without a function is accepted and asks for a function without a name. Paths of one character or with a hyphen cannot be configured; nothing checks that types and functions exist.", "quantifier": "every configuration that is loaded, every filter type, every key", "why_tests_cant": "A converter that is applied to values of another type, or not at all, changes what a filter selects without any error.", "anchors": ["internal/analysis/analysis.go: AnalyzeFilterValueConverters", "internal/analysis/types.go: FilterValueConverter", "internal/generator/generator.go: buildFilterColumnMap", "internal/config/config.go: FilterValueConverter"]}
{"id": "C99", "title": "When the tool crashes", "statement": "The analysis, the type checker and the generator end without a crash for every target that is a struct whose name holds no letter \u017f, whose types are all declared in packages and whose sql tags have no empty option, checked against a catalog that holds the element types of its array types and the types of literals and has no index definition that ends in a quote; except that an update or delete with a From or Using struct without a Relation directive crashes the generator. Each of these conditions is needed: a tag such as sql:\"id,\", a field of type error, a target that is no struct, a name such as \u017felectUsers and each of the three faults of a catalog crash the tool.", "quantifier": "every struct type without recursion, every catalog, queries and filters, analysis to generation", "why_tests_cant": "A crash of a code generator tells its user nothing about the mistake in the input, and ends the whole run, including all other targets.", "anchors": ["internal/analysis/analysis.go: Run", "internal/analysis/analysis.go: analyzeQueryStruct", "internal/analysis/analysis.go: analyzeFilterStruct", "internal/analysis/fieldmode.go: parseFieldMode", "internal/postgres/postgres.go: Check", "internal/postgres/postgres.go: parseIndexExpr", "internal/postgres/postgres.go: typeCheckComparison", "internal/generator/generator.go: buildQueryCode", "internal/command/command.go: Run"]}
{"id": "C100", "title": "The converters that the checker pairs belong together", "statement": "For every row of the compatibility table that names a valuer and a scanner, and so for every pair that the type checker finds for a column and a field, the scanner reads the text that the valuer wrote back to the value that was written, whatever the destination held before, for the values that the text can carry. Five pairs are exceptions in the table: the scanner for a box panics on the text of its valuer, the two rows for arrays of addresses name the valuer in the place of the scanner, and JSON and XML name one function for both. Six pairs for integers refuse numbers that both types hold. Eight rows name only one converter.", "quantifier": "every row of the compatibility table, every value in the domain of its pair, every earlier content of the destination", "why_tests_cant": "The checker chooses the two converters of a field independently by their names; a wrong name in the table is found by no compiler and corrupts or loses the data of every field of that type.", "anchors": ["internal/postgres/compatibility.go: init_oid2literal", "internal/postgres/postgres.go: typeCompatibility", "pgsql/int4rangearr.go: Int4RangeArrayFromInt64Array2Slice", "pgsql/box.go: BoxFromFloat64Array2Array2", "pgsql/inetarr.go: InetArrayFromIPSlice"]}
{"id": "C101", "title": "A column written by one query is read by another with the converter that belongs to the first", "statement": "If an accepted query writes a column through a field, and an accepted query reads that column through a field of the same type, then the converters in the generated code belong together: the type of the field converts itself in one direction, or both are the function for JSON or XML documents, or both are absent because the field holds the text of the document, or both stand in one row of the compatibility table (and then the round trip of C100 holds for it). Exceptions: a string or byte slice type that has only one of the methods to marshal and unmarshal is converted in one direction only, and an interface{} written to a column of type xml is read as whatever the driver returns. An interface{} cannot be written to other columns than documents.", "quantifier": "every catalog, every two accepted queries, every field written by the one and read by the other with the same column and type", "why_tests_cant": "The converters for writing and reading are chosen by two functions that test their cases in a different order; where they disagree, a program reads back something else than it stored.", "anchors": ["internal/postgres/postgres.go: typeCheckFieldRead", "internal/postgres/postgres.go: typeCheckFieldWrite", "internal/postgres/postgres.go: typeCompatibility", "internal/postgres/compatibility.go: init_oid2literal"]}
{"id": "C102", "title": "What is passed or scanned without a converter is something database/sql deals with", "statement": "In the code generated for an accepted query, every argument for a field that is written or compared in the where struct is a call of a converter on the field, or the field itself; in the latter case its Go type is one that database/sql passes to the driver: a basic type, a slice of bytes, time.Time, a type with a Value method, or a pointer to or a type defined as one of these. Likewise every destination of Scan is a converter on the address of a field or the address of a field of a type that database/sql scans into. Exceptions: the key of an update that is not itself written is passed without the converter that the checker found; the elements of a list compared with isin or notin are passed one by one without conversion; and a type Time of any package that is called time is taken for time.Time.", "quantifier": "every catalog, every accepted query, every argument and destination in the generated code", "why_tests_cant": "A value of another type is refused by database/sql or the driver when the statement is run; the checker is there to find this before.", "anchors": ["internal/postgres/postgres.go: typeCheckFieldRead", "internal/postgres/postgres.go: typeCheckFieldWrite", "internal/postgres/postgres.go: typeCheckFieldConditional", "internal/generator/generator.go: buildQueryInputSourceFields", "internal/generator/generator.go: buildQueryInputPKeyFields", "internal/generator/generator.go: buildQueryInputFieldConditional"]}
{"id": "C103", "title": "The order of the fields of a query struct", "statement": "Two neighbouring fields of an accepted query struct may be exchanged, and the query is still accepted and is the same one, unless the first of them is a join struct or both are the same directive among OrderBy, Override, Default, Force, Optional or both are on-conflict structs. So without a join struct and without repeated directives any order of the fields gives the same query, and the join struct may always be put first. The order of the directives of an on-conflict struct and of the two fields of a between struct is irrelevant. In a filter struct two neighbouring fields may be exchanged unless the first holds the records or both are TextSearch directives. Exceptions: a clause that mentions a joined relation is rejected before the join struct; of two of the named directives the last counts and nothing is reported; a TextSearch directive with a qualifier is rejected before the field with the records, which queries look up first.", "quantifier": "every query struct and filter struct, every pair of neighbouring fields, every permutation of the fields", "why_tests_cant": "In Go the order of struct fields carries no meaning; a reader does not expect that moving a field changes the statement.", "anchors": ["internal/analysis/analysis.go: analyzeQueryStruct", "internal/analysis/analysis.go: analyzeFilterStruct", "internal/analysis/analysis.go: analyzeOnConflictStruct", "internal/analysis/analysis.go: addToRelSpace", "internal/analysis/analysis.go: parseColIdent"]}
{"id": "C104", "title": "The catalog that the checker works with is what the database has", "statement": "The checker knows a type exactly if the system catalogs have it, it is visible and not a pseudo type; an operator, and a cast with its context, exactly if they have it; and under a name the functions of one argument that they have under it, unless the name is `pg` and more or any character, `pg` and more. A relation is unknown exactly if `to_regclass` does not know its name, and refused exactly if one of its columns is of a type that is not known; otherwise it is loaded with its kind, with all columns that are not dropped, in their order, with name, type, modifier, NOT NULL, default and whether they are in the primary key, with its constraints and its indexes, whose keys are read as the numbers that the server sent. Relations that are kept for later query structs do not change an answer. Exceptions: a column off the search path makes the whole relation unusable and a literal of such a type crashes the checker; operators and functions off the search path, aggregates, and deferrable constraints as conflict targets are accepted; functions such as `upgrade`, functions whose further arguments have defaults, and the defaults of identity columns are not known.", "quantifier": "every content of the system catalogs that keeps their keys, every name, every sequence of requests", "why_tests_cant": "All checks of queries against the database are checks against what was loaded; they mean something only if that is what the database has.", "anchors": ["internal/postgres/postgres.go: loadCatalog", "internal/postgres/postgres.go: loadRelation", "internal/postgres/postgres.go: Scan"]}
{"id": "C105", "title": "Every name in a generated statement refers to a column of the database", "statement": "In the statement of an accepted query the relations in scope are the target and the relations joined to it, no two with the same name. If none of these names has upper-case letters, then a qualified column of the output, a condition or the order refers, by the rules of PostgreSQL, to the relation that has this name, and this relation has the column. A column without qualifier is one of the target; it refers to it unless a joined relation has a column of the same name. A qualified column in the condition of a join refers to the relation of this name, which is the one that is joined or stands before it; in a select a column without qualifier is one of these relations, and refers to it if no other has the column. Without joins every column refers to the target. Every column that is assigned by INSERT, UPDATE or ON CONFLICT DO UPDATE is one of the target. Exceptions, where the database refuses what the tool accepts: the output of a target without alias joined with a relation that has a column of the same name; columns without qualifier in a condition of such a query; the target in the condition of a join of an UPDATE or DELETE; a relation without alias whose name has upper-case letters, used as a qualifier; aliases that differ only in case. In the condition of a join of an UPDATE or DELETE a column without qualifier can be checked as one of the target and be one of another relation for the database.", "quantifier": "every query struct that the analysis and the checker accept, every catalog", "why_tests_cant": "The tool checks queries against the database so that the statements do not fail at run time; a name that the checker and the database understand differently defeats this.", "anchors": ["internal/postgres/postgres.go: findColumn", "internal/postgres/postgres.go: typeCheckQueryJoinStruct", "internal/generator/generator.go: buildQuerySQLString"]}
{"id": "C106", "title": "The variables of a generated method are declared, used and do not hide what it needs", "statement": "In the method of an accepted query every variable that is used is the receiver, a parameter, or declared before in the block or one around it. Every := declares at least one variable that is new in its block, no variable is declared twice in a block, and every variable that is declared is used. The method ends with a return statement. If the query string is declared as a constant, its value has no variables or calls and the method does not assign to it; otherwise it is declared as a variable. The packages it uses are gosql, pgsql and those of the types of the records; none of them is hidden by a variable unless the package of a type has the name of one, and no variable has the name of a predeclared function or type that the method uses. Exceptions, where the tool accepts the query and the method does not compile: the rows of a query are scanned into an array, or no field of the records may be read (a variable is used that is not declared); [NOT] IN is used with a column (there is no slice to take the length of); the records are of a package that has the name of a variable, such as rows.", "quantifier": "every query struct that the analysis and the checker accept, with [NOT] IN used with fields only and, if rows are scanned, into records with readable fields that are not in an array; every configuration and list of imports", "why_tests_cant": "Go refuses to compile a file with a variable that is not declared or not used; one such method breaks the whole package.", "anchors": ["internal/generator/generator.go: buildQueryStringForSliceInsertOrUpdate", "internal/generator/generator.go: buildQueryResultRowsScan", "internal/generator/generator.go: buildQueryOutputInitRoot"]}
{"id": "C107", "title": "The declarations of the generated files of a package do not clash", "statement": "A generated file consists of its header and, for each query, one method and, for each filter type, a variable and its methods. For the targets of a package, types with different names, these declarations can stand beside each other and the fields of the types exactly if the configured name of the query method is not the name of a field of a query struct, and for every filter type the methods for the columns have different names, none of its methods has the name of a field of the type, none for a column is named Init, And or Or, and the package does not use the name of the column map otherwise. What is declared has identifiers for names, if the names of types and fields and the configured name are identifiers. Exceptions, where the tool accepts what Go refuses: a field of a query struct named like the method; a field of the records named like the field that holds the filter; a configured method name that is not an identifier.", "quantifier": "every list of targets with different names, every configuration, all names and fields of the package", "why_tests_cant": "Go refuses a package in which a method is declared twice or has the name of a field.", "anchors": ["internal/generator/generator.go: buildQueryCode", "internal/generator/generator.go: buildFilterCode", "internal/generator/generator.go: buildFilterColumnMap"]}
{"id": "C108", "title": "The statements about records in a generated method are well typed", "statement": "What the analysis records about the relation and result field of a query (slice, array, pointer, iterator, base type) agrees with the Go type of that field, whatever has been analysed before, as long as different types have different texts. So the statements of the generated method that create a record, scan into its fields, call AfterScan, append the record or pass it to the iterator are well typed by the rules of Go, and so are those that read the fields of records to insert. Exceptions, where the tool accepts what Go refuses: records in an array, whose fields are read from the array itself; a field of a named pointer type, on which AfterScan cannot be called; a relation field named `_`.", "quantifier": "every accepted query struct with any fields, any cache built from types with different texts", "why_tests_cant": "Generated code that mixes up pointers, slices and values does not compile.", "anchors": ["internal/analysis/analysis.go: analyzeRelType", "internal/generator/generator.go: buildQueryOutputInitRoot", "internal/generator/generator.go: buildQueryResultRowsScan"]}
{"id": "C109", "title": "The fields that a generated method selects exist", "statement": "For every accepted query the fields that the generated method scans into or reads the values of are fields of the struct type of its records, reached through fields of struct types or of pointers to structs, none of them blank. Where a pointer on the way is set first, it is a field of pointer type, and what is made with new is the named type that it points to. What is given to Scan are the addresses of these fields, selected from the variable that is scanned into; a count goes into an integer field of the query struct and the result of a test for existence into a boolean field. This holds also for types found in the cache, as long as different types have different texts. Exceptions, where the tool accepts what Go refuses: a pointer to a struct type without a name is set to new(); unexported fields of a struct of another package are left out by the analysis, but not if the struct is behind a pointer.", "quantifier": "every accepted query struct with any fields, any record type however nested, any cache built from types with different texts", "why_tests_cant": "Each shape of nested records gives other selectors; one wrong selector keeps the generated package from compiling.", "anchors": ["internal/analysis/analysis.go: analyzeFieldInfoList", "internal/analysis/analysis.go: analyzeTypeInfo", "internal/generator/generator.go: buildQueryOutputInitFields"]}
{"id": "C110", "title": "The fields of the query struct that a generated method refers to exist", "statement": "For every accepted query the arguments that come from its where struct are selectors from the receiver q, each naming a non-blank field of the struct that the selectors before lead to, or a function of package pgsql of such a selector. The arguments that come from the records are such selectors, too, starting at the relation field or, for a slice, at the variable that ranges over it (records in arrays and blank relation fields are left to C108). The lists that are spread over several parameters are such fields and are slices or arrays. The limit and the offset that are arguments are integer fields of the query struct; the filter, the context, the error handler and the number of rows are fields of the query struct of the type that the method needs. Exceptions, where the tool accepts what Go refuses: conditions may be nested in a blank field, so that the method refers to q.Where._.Id; whether unexported fields of a nested struct can be used is decided by the package of the outermost struct. If that is of another package, all conditions come from exported fields, at every depth, and the bounds of ranges from fields that are exported or of a struct that is not of another package.", "quantifier": "every accepted query struct with any fields; the where struct nested to any depth, with ranges and lists (for the lists: no list predicate in a Column directive)", "why_tests_cant": "Each shape of the where struct gives other selectors; one that names no field keeps the generated package from compiling.", "anchors": ["internal/analysis/analysis.go: analyzeWhereStruct", "internal/analysis/analysis.go: analyzeLimitFieldOrDirective", "internal/generator/generator.go: buildQueryInputWhereStruct"]}
