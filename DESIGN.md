# Formal model of frk/gosql: design

The model lives in `lean/Verif/`. Each area has

* `Model*.lean`: executable definitions, one per Go function (or loop), each citing `file:lines` of /repo;
* `Spec*.lean`: small specifications written without reference to the model (grammars, server formats, splitting functions);
* `Lemmas*.lean`: helper lemmas;
* `Props*.lean`: the property theorems (named `Cnn_...`), each followed by a concrete non-trivial `example` meeting its hypotheses.

Naming: `Cnn_xxx` full statement; `Cnn_xxx_partial` proves part of the property (the missing part is stated in its doc comment); `Cnn_not_xxx` is a machine-checked counterexample: the code violates the full statement.

## Conventions of the model

* A Go byte string is `List Char` (`Bytes`); a byte is represented by the character with that code. All code modelled this way only compares bytes with ASCII constants and copies them, so theorems over all `List Char` include all byte strings. UTF-8 decoding (`range` over strings) is only modelled where stated.
* A loop index `i` into a slice `a` is represented by the remaining suffix `a[i:]`; slices `a[n:i]` by the accumulated bytes. Index out of range (a Go panic) is an explicit result (`Res.panic`), never a default value.
* Go errors are values (`Res.err`), nil slices/pointers are an explicit `Option.none` where the code distinguishes them.
* Go maps are association lists in an arbitrary order; random iteration order = theorem for every order.
* `int64` arithmetic is `BitVec 64`/`Int` with wrap-around where overflow matters, `Nat`/`Int` elsewhere (noted at the definition).

## Trusted base

* Lean 4.33.0 kernel. Axioms allowed: `propext`, `Classical.choice`, `Quot.sound` (see the axiom table at the end; checked with `#print axioms`).
* The reading of the Go source: model definitions were written by hand from /repo and cite it. Nothing was executed.
* For the theorems of `Conform` only: `tools/conform.py`, `tools/gosrc.py` and `tools/pgcat.py`, which translate the Go types and the expected values of the project's test files into Lean terms (run `python3 tools/conform.py /repo lean/Verif/Conform`; the written files are committed).
* External code is assumed, not modelled: the `fql` tokenizer (an arbitrary token list), `tagutil` (an arbitrary tag), `go/types`, `go/ast`/`frk/ast` printing, PostgreSQL itself (its array input/output rules are specified in `Spec` files from the PostgreSQL documentation), `strconv`, `encoding/hex`, `strings` (re-implemented in the model with the documented behaviour), floating point formatting (opaque texts).

## Plan per property

* **C01 Filter placeholders match params** — model: `Verif/Filter`. Constructor as a state machine over an inductive type of API calls (nesting = a nested call list); ToSQL as the sequential writer with a position counter and an explicit out-of-range panic. Spec: rendering of a *template* (text pieces and holes) at a position. Proof: induction over the node list; invariant p = pos + params written.
* **C02 Filter values never reach the SQL text** — model: `Verif/Filter`. Noninterference: relation `SameShape` on call lists; induction over calls and nodes.
* **C03 Filter WHERE clause has balanced parentheses** — model: `Verif/Filter`. Depth function over emitted nodes; induction over nested calls.
* **C04 Filter WHERE clause is a well-formed boolean expression** — model: `Verif/Filter`. Independent grammar of boolean expressions over node kinds; induction over usage-rule-respecting call lists; `decide` witnesses for the malformed outputs outside the rules.
* **C05 CountFilter agrees with Filter on rows selected** — model: `Verif/Filter`. Direct equation between both ToSQL functions, for all states.
* **C06 Limit and Offset: last positive value wins** — model: `Verif/Filter`. Induction over call lists against a `last positive argument` specification.
* **C07 Page addresses disjoint consecutive windows** — model: `Verif/Filter`. Int64 arithmetic modelled with BitVec 64 (wrap-around matters); division/modulo lemma for windows; witnesses for overflow and call order.
* **C08 UnmarshalSort yields exactly the mapped keys in order** — model: `Verif/Filter`. Loop over the byte string; spec = split on commas; induction.
* **C09 FQL input can only reach vetted columns** — model: `Verif/Filter`. Token stream is an external input (fql package not in the repository): theorem over all token lists.
* **C10 FQL input with a grammatical token stream yields a grammatical WHERE** — model: `Verif/Filter`. Grammar of C04 on token streams; induction over the grammar derivation.
* **C11 Text search query construction** — model: `Verif/Filter`. Spec = filter/map/intercalate over split; induction.
* **C12 IN value lists** — model: `Verif/Gosql`. Loop vs `List.range` map/intercalate specification.
* **C13 text[] Value/Scan round trip** — model: `Verif/Pgsql`. Suffix-recursive model of the writer and the parser; induction over the element list and bytes.
* **C14 text[] literals mean the intended list to the server** — model: `Verif/Pgsql`. Independent specification `PgArray.arrayIn` of the server's array reader.
* **C15 text[] scanning agrees with the server's output format** — model: `Verif/Pgsql`. Independent specification `PgArray.arrayOut`; induction, plus `decide` witness NULLABLE.
* **C16 hstore Value/Scan round trip** — model: `Verif/Pgsql`. Map as association list in arbitrary order (= iteration order); round trip as list equality hence for every order.
* **C17 hstore[] Value/Scan round trip** — model: `Verif/Pgsql`. As C16 with the double-escaping writer/parser.
* **C18 Integer array round trip with range checks** — model: `Verif/Pgsql`. strconv.FormatInt/ParseInt modelled; round trip for decimal text; range check by bit size.
* **C19 boolean[] and bit[] round trip** — model: `Verif/Pgsql`. Element-wise on top of the comma array round trip.
* **C20 varbit and varbit[] round trip** — model: `Verif/Pgsql`. As C19; negative int64 witness.
* **C21 bytea[] round trip** — model: `Verif/Pgsql`. hex encode/decode modelled on bytes; NULL panic explicit.
* **C22 uuid and uuid[] round trip** — model: `Verif/Pgsql`. hex on 16 byte lists; slicing out of range = panic result.
* **C23 char[] round trip** — model: `Verif/Pgsql`. Byte writer and pgparsearray2; witness for dropped bytes.
* **C24 Geometric types round trip** — model: `Verif/Pgsql`. Number texts opaque (no delimiter characters); parser loops per type. Floats themselves are not modelled.
* **C25 int2vector and int2vector[] round trip** — model: `Verif/Pgsql`. Vectors of number texts.
* **C26 Integer range round trip** — model: `Verif/Pgsql`. Range text parser; integer bounds.
* **C27 Scanning NULL resets the destination** — model: `Verif/Pgsql`. Scanners as functions from previous destination to new destination; table of scanners.
* **C28 Relation identifiers parse uniquely** — model: `Verif/Analysis`. Regular expressions as explicit character-class recognisers; LastIndexByte splitting.
* **C29 Column identifiers parse uniquely and only with known qualifiers** — model: `Verif/Analysis`. As C28 with the relation space as a parameter.
* **C30 Relation names and aliases are unambiguous** — model: `Verif/Analysis`. State machine over declarations; invariant of unique keys.
* **C31 Predicate expressions split correctly** — model: `Verif/Analysis`. Scanner over the expression; theorem per operator over all operands.
* **C32 Where structs become alternating condition lists** — model: `Verif/Analysis`. Recursive where-struct description; mutual induction.
* **C33 At most one row-selecting clause per query** — model: `Verif/Analysis`. State machine over fields; invariant by induction over field lists.
* **C34 No unqualified mass update or delete without All** — model: `Verif/Analysis+Generator`. Analyzer model + statement builder; negation by witness, positive part as partial.
* **C35 ON CONFLICT target and action** — model: `Verif/Analysis`. State machine; invariant.
* **C36 Join condition left-hand side** — model: `Verif/Analysis`. Decision logic over presence combinations.
* **C37 Field mode options** — model: `Verif/Analysis`. Bit operations on 5 flags; spec = last mentioning option.
* **C38 Filter column keys** — model: `Verif/Analysis`. String joins; injectivity by cancellation.
* **C39 Generated placeholders match generated arguments** — model: `Verif/Generator`. Parameter allocator (makeParamSpec with its pointer-keyed map) and argument collector modelled separately; theorem relates both lists.
* **C40 Slice arguments of IN predicates** — model: `Verif/Generator`. Run-time semantics of the emitted loop modelled; arithmetic on prefix sums.
* **C41 Batch insert/update rows and arguments** — model: `Verif/Generator`. Run-time semantics of the emitted loop; nested induction.
* **C42 Scan destinations match selected columns** — model: `Verif/Generator`. Both lists derived from the same analysis result; proven equal field-wise.
* **C43 Import names in a generated file are unique** — model: `Verif/Generator`. State machine over import requests; invariant of distinct local names; witness.
* **C44 Filter column map keys are unique** — model: `Verif/Generator`. Fold with seen-set vs `dedup by first key` specification.
* **C45 Between predicates keep their meaning** — model: `Verif/Generator`. Rendering function; witness for NOT BETWEEN.
* **C46 Conflict target columns match an index exactly** — model: `Verif/Postgres`. matchNumbers vs List.Perm.
* **C47 Index expression extraction** — model: `Verif/Postgres`. Scanner loop with explicit panic; spec = balanced text grammar.
* **C48 Type-check verdicts do not depend on map iteration order** — model: `Verif/Postgres`. Fold over an arbitrary permutation of the map entries.
* **C49 Read-only and write-only fields** — model: `Verif/Postgres`. Decision functions over modes; induction over field lists.
* **C50 Configuration precedence** — model: `Verif/Config`. Setters as state machine; induction over source lists.
* **C51 Go type configuration round trip** — model: `Verif/Config`. String functions.
* **C52 Output files are distinct from inputs and from each other** — model: `Verif/Command`. String functions; validity predicate of formats.
* **C53 No file is written unless everything was generated** — model: `Verif/Command`. Run as a two phase state machine over an abstract file system with failure points.

## Plan for the properties added later

* **C54 Accepted where conditions are sound** — model: `Verif/Analysis/Where`. Invariant of accepted condition lists: operand, operator and right-hand side fit; induction along the analyzer's recursion.
* **C55 Join conditions are sound and connected as written** — model: `Verif/Analysis/Query`. The join directive's text as a list of conditions and connectives; induction over the expressions.
* **C56 Clauses fit the kind of query** — model: `Verif/Analysis/Query`. State machine over the fields of the query struct; an invariant relating each clause to the kind of query.
* **C57 Listed columns belong to the records** — model: `Verif/Analysis/Query`. Each listed column is a column of the record type; witness for Default.
* **C58 No dangling qualifiers** — model: `Verif/Analysis/Query`. Every qualifier in the result is a key of the relation space; the cache of record types is the exception.
* **C59 The compatibility table names converters that exist and fit** — model: `Verif/Postgres/Tables`. The compatibility table and the exported functions of pgsql, transcribed; decided by the kernel.
* **C60 Generated converter calls are well typed** — model: `Verif/Postgres/Check`. The literal by which a converter is chosen denotes the field's type; witnesses for pointers and named bytes.
* **C61 Defaults of limit and offset fields** — model: `Verif/Generator/Run`. The run-time value of limit and offset after the default assignment.
* **C62 Pointers on the way to scanned fields are initialised** — model: `Verif/Generator/Output`. Every pointer on the path of a scanned field is set before it is used; witness: paths with equal concatenation.
* **C63 The methods of a generated filter type** — model: `Verif/Generator/FilterGen`. Methods per column: name, condition, argument type.
* **C64 Conditions mean what the tags ask for** — model: `Verif/Generator/Sem`. Three-valued meaning of conditions; the meaning of the WHERE clause equals that of the where struct, in every world.
* **C65 Which types become targets** — model: `Verif/Command`. Membership in the search result; the loader's packages are the input.
* **C66 NULL in columns and zero values in fields** — model: `Verif/Generator/Gen`. A value semantics for parameters, columns, casts, COALESCE and NULLIF; case analysis on the field's and the column's kind.
* **C67 Filters and the statements they extend** — model: `Verif/Generator/Run`. The sent arguments with a filter; case analysis on the kind of statement; the filter's numbering is C01.
* **C68 Errors of a generated method** — model: `Verif/Generator/Errors`. The statements after the parameters, run against a connection with faults; induction over the rows.
* **C69 References to packages resolve** — model: `Verif/Generator/Quals`. The places that write a package name or ask for an import, in their order; invariant of `addimport` about the first package of a name.
* **C70 Recognition of methods and interfaces** — model: `Verif/Typesutil/Model`, with a type as its lists of declared, promoted and interface methods. The interfaces are stated apart, as method names with signatures, and compared up to aliases.
* **C71 Type of the method argument** — model: `Verif/Config/Model` (`checkArgType`), where loading packages is a parameter; from C70.
* **C72 The cache of record types** — model: `Verif/Analysis/Types`, `Query`. Invariant: every cached entry is what the analysis of the type by itself yields, for all targets. Witnesses: two packages; a qualified column.
* **C73 Texts of dates and times** — model: `Verif/Pgsql/Time` (Go's time layouts, of which only the used parts); the server's texts in `SpecTime`, written independently. Digit lemmas, then one lemma per part of a layout.
* **C74 Arrays and ranges of dates and times** — model: `Verif/Pgsql/Time`. C73 per element; the element parsers' lemmas of C21 and C26. Witnesses for NULL, missing bounds, empty ranges.
* **C75 Text search values, json[], xml[], characters** — model: `Verif/Pgsql/Search`; the server's text of a tsvector in `SpecSearch`. The parsers' lemmas of C13-C15 and C25; the buffer of computed size is shown to be filled exactly.
* **C76 money and money[]** — model: `Verif/Pgsql/Money` (float64 as a whole number of units of 2^-1074, with exact rounding); the server's money texts in `SpecMoney`. An error bound of half a unit in the last place for division and multiplication; the parsers' lemmas of C13.
* **C77 inet, cidr and their arrays** — model: `Verif/Pgsql/Net` (the parsers and printers of packages net and net/netip of Go 1.23 without zones); the server's texts are relations in `SpecNet`, wide enough for both notations of IPv6. Parsers are shown to read every text of the relation; Go's text is shown to be one of them; masks by their value as a number.
* **C78 macaddr, macaddr8 and their arrays** — model: `Verif/Pgsql/Net`; the server's text in `SpecNet`. Induction over the bytes.
* **C79 Errors can be reported** — model: `Verif/Errors`: the templates are taken from the source as values of a type `Tmpl` with an executor `Tmpl.run` for the subset of text/template that occurs. A check `Tmpl.fine` of a template without executing it is shown to imply that the execution succeeds; it is evaluated for each code. `Raised` lists the places of postgres.go at which errors are made.
* **C80 Arrays of floats** — model: `Pgsql/Floats.lean`: magnitudes of float32 and float64 as whole numbers of units of 2^-1074; AppendFloat with 'f', -1 tries one digit more each time until the decimal is read back; ParseFloat reads the decimal exactly and rounds once. Spec: `Pgsql/SpecFloat.lean` says which number is the nearest to a quotient, ties to even, without saying how to find it; rounding is proved to find it, and the search to find the fewest digits.
* **C81 What statements do to the tables** — spec: `Generator/Db.lean` gives statements a meaning: tables are functions to lists of rows, statements are relations between tables before, tables after and rows returned. What is asked for is said in terms of the query struct (`PropsDb.lean`), with the meaning of conditions of C64 and of NULL of C66; the two are proved equal by the specification of the statements of C39 and C41. Examples run on the database `shop`.
* **C82 The analysis conforms to the tests of the project** — spec: the structs and the expected values are translated from the Go text of the test files by `tools/conform.py` into `Conform/{Types,BadCases,OkCases}.lean`; the theorems evaluate the model on each.
* **C83 The checker conforms to the tests of the project** — spec: the structs and the expected errors (`Conform/CheckCases.lean`) and the tables (`Conform/TestCat.lean`) are translated from the Go and SQL text by `tools/conform.py` and `tools/pgcat.py`; the rows of pg_type, pg_operator, pg_cast and pg_proc that the tests need are written down in `tools/pgcat.py` from the PostgreSQL documentation. The theorems evaluate the model on each.
* **C84 The generated files conform to the tests of the project** — model: `Verif/Generator/Print` (the text of a file, from the trees, imports and statements that the other modules of `Generator` describe); spec: the input structs and the lines of the expected files are translated by `tools/conform.py` (`Conform/Gold*.lean`). The theorems evaluate the model of analysis, checker, generator and text on each.
* **C85 Documents and values passed through** — model: `Verif/Pgsql/Doc`; encoding/json and encoding/xml are parameters, with two small instances for the witnesses (json for *bool, xml for a pointer to an empty struct, as the packages behave).
* **C86 The filter behaves as the project's tests expect** — model: `Verif/Filter/Model`; `Verif/Conform/FilterBase` says what a test does, with a specification of the external FQL tokenizer for the texts of the tests; the cases are written by `tools/filtercases.py` into `Verif/Conform/FilterCases` and evaluated by the kernel.
* **C87 The generated statement is read as the tokens that are meant** — specification of PostgreSQL's scanner: `Verif/Generator/SpecLex`; the tokens that are meant by each node of the generated statement: `Verif/Generator/Toks`; theorems: `Verif/Generator/PropsLex` (any plain statement), `Verif/Analysis/PropsNamed` (names in accepted queries are identifiers), `Verif/Generator/PropsLex2` to `PropsLex4` (through checker and generator), examples and counterexamples in `PropsLex5`, filters in `PropsLex6` and `PropsLex7`.
* **C88 The predicates on types answer as the project's tests expect** — model: `Verif/Typesutil/Model`, `Verif/Typesutil/Time`, `Verif/Analysis/Types`; the cases are written by `tools/typescases.py` into `Verif/Conform/TypesCases` and evaluated by the kernel.
* **C89 The generated statement is parsed as the tree that is meant** — specification: `Verif/Generator/SpecGram` (the parser), `Verif/Generator/Trees` (the trees that are meant, and what is required); `C89_stmt` and `C89_rows` for statements, `generate_gram` for what the checks found, `C89_accepted` and `C89_records` with C87 for the text that is sent.
* **C90 A statement with a filter is parsed as the tree that is meant** — specification: `Verif/Generator/FilterTrees` (predicates, conditions, the statement with the parts of the filter) on top of that of C89; `C90_meant` and `C90_meant_unique` for conditions, `C90_stmt` for statements, `C90_where` with C91 for calls, `C90_filtered` for what the checks found, with C88 for the text.
* **C91 The condition of a filter is the conjunction or disjunction of what its calls ask for** — specification: `Verif/Filter/Conditions`; by induction on the calls, following the state of the automaton.
* **C92 Only gosql's own types are directives, and other fields have no effect** — characterisation of the predicates by cases on the type; the loops skip a foreign field.
* **C93 A statement with a filter selects the rows that the calls ask for** — specification: `Verif/Generator/FilterMeaning` (truth of calls, of clauses and of trees); induction on the reading of C90 for trees, on the calls for `C93_calls`; `C93_guard` by uniqueness.
* **C94 The statement that is sent selects the rows that the where struct asks for** — specification: `Verif/Generator/TreeMeaning` (value and truth of a tree, given a row and parameters); induction on conditions relates the tree of C89 to the meaning of C64; the parameters by C39 and C40.
* **C95 What the statement that is sent does to the tables is what the query asks for** — specification: `Verif/Generator/TreeDb` (what a parsed statement does to tables, names are resolved from tokens); the tree of C89 is shown, clause by clause, to do what the statement of C81 does.
* **C96 What a statement with a filter does to the tables is what the calls on the filter ask for** — specification: `Verif/Generator/TreeFilterDb` (a row of joined tables as the conditions of a filter see it, the order that calls ask for); the condition of the tree of C90 is shown to be what C93 says of the calls, the rest of the statement to do what C95 says.
* **C97 The codecs convert as the project's tests expect** — the cases are transcribed by tools/pgsqlcases.py into `Verif/Conform/PgCases1` to `PgCases4`, the server is `Verif/Conform/PgServer` (on top of the `Spec` files of `Pgsql`); every file of tests is evaluated.
* **C98 Which function converts the values of a filter** — `Verif/Generator/Converters` models the map, `PropsConverters` proves that its value for a key is that of the last entry with the key's path and name (the last dot of a key separates the two), and that the decoder gives entries of that form. `C98_quoting` is the other setting that the code of filters depends on.
* **C99 When the tool crashes** — For every function of the analysis and the checker a lemma `…_np` says that it does not end in `panic`, given what is known of its arguments: `Verif/Analysis/PropsCrash` (types reach structs where the walk descends, named types have packages), `Verif/Postgres/PropsCrash` (columns loaded from a catalog have known element types; accepted conditions have a right-hand side, by C33/C57). `Verif/Generator/Tool` models the dispatch for one target, `Verif/Generator/PropsCrash` puts the parts together.
* **C100 The converters that the checker pairs belong together** — `Verif/Pgsql/Pairs` lists the exported functions in pairs with the model of what they write and read and the values that are expected to survive; `Verif/Pgsql/PropsPairs` proves the round trip for each from the theorems on the codecs (C13-C26, C73-C80) and decides that the names of every row of `compTable` are in the list or in the list of exceptions.
* **C101 A column written by one query is read by another with the converter that belongs to the first** — `Verif/Pgsql/PropsBothWays` compares `writeConv` and `readConv` case by case (`C101_field`), lifts the result to the reads and writes of two accepted queries (`C101_queries`), and joins it with C100 (`C101_trip`).
* **C102 What is passed or scanned without a converter is something database/sql deals with** — `Verif/Generator/Driver` says which Go types database/sql deals with (a specification taken from the documentation of `driver.DefaultParameterConverter` and `Rows.Scan`; values of type uint64 above 2^63, which are refused at run time, are not told apart); `Verif/Generator/PropsDriver` decides which literals of the compatibility table have no converter, inverts the literals of types, and follows the fields through checker and generator.
* **C103 The order of the fields of a query struct** — `Verif/Analysis/PropsOrder` shows that everything accepted with some relations in scope is accepted with more, says what each field adds to the query and which parts of the state this depends on, and exchanges two such additions; `Verif/Analysis/PropsOrder2` does the same for on-conflict, between and filter structs.
* **C104 The catalog that the checker works with is what the database has** — `Verif/Postgres/Load` has the system catalogs as data, the SELECT statements as functions on them (with LIKE, LEFT JOIN and ORDER BY), and the maps that are filled from the rows. `Verif/Postgres/PropsLoad` compares what is found in the maps with the rows, `PropsLoad2` does so for relations and derives from the catalogs what C39 and C99 take for granted, `PropsLoad3` evaluates a database.
* **C105 Every name in a generated statement refers to a column of the database** — `Verif/Generator/Scope` lists the columns of a statement with the relations in scope at each and says what they refer to, after PostgreSQL's parser. `Verif/Analysis/PropsScope` proves that the names of the relations are unique, `PropsScope2` of the generator that the checker finds every column in a relation of the scope, `PropsScope` and `PropsScope3` that the generator puts the same columns in the statement, and `PropsScope4` puts these together and has the exceptions.
* **C106 The variables of a generated method are declared, used and do not hide what it needs** — `Verif/Generator/GoScope` builds the statements of a method as a tree of blocks, with the variables and packages that each declares and uses, and says what Go asks of such a tree. `PropsGoScope` proves that the text of the tree is the text of the method, `PropsGoScope2` and `PropsGoScope3` what it declares and uses given what is known about the code, `PropsGoScope4` that this is known of every accepted query, `PropsGoScope5` deals with packages and `PropsGoScope6` has examples and exceptions. `PropsGoScope7` deals with constant query strings.
* **C107 The declarations of the generated files of a package do not clash** — `Verif/Generator/GoDecls` lists the declarations of a file and says when the declarations of a package can stand together. `PropsGoDecls` proves that the text of a file consists of these declarations and when they clash, `PropsGoDecls2` that the names are identifiers, with an example and the exceptions.
* **C108 The statements about records in a generated method are well typed** — `Verif/Generator/GoTypes` states the rules of Go for assignments, selectors, calls and append, as far as records are concerned. `PropsGoTypes` proves that the analysis of a relation type agrees with the Go type, also through the cache, `PropsGoTypes2` carries this to the analysed query, `PropsGoTypes3` to the statements of the method; `PropsGoTypes4` has examples and the exceptions.
* **C109 The fields that a generated method selects exist** — `Verif/Generator/GoTypes` says when selectors lead to a field. `PropsGoFields` proves that those found by the analysis do, `PropsGoFields2` carries this to the fields that a method scans into or writes and to the pointers that it sets, with examples and the exceptions. `PropsGoQuery5` adds the arguments of Scan and the results of counts and tests for existence.
* **C110 The fields of the query struct that a generated method refers to exist** — `Verif/Generator/PropsGoQuery` gives the types of selectors and proves that the conditions of a where struct come from its fields, `PropsGoQuery2` carries this through the checker and walks over the fields of the query struct, `PropsGoQuery3` states the theorems, with examples and the exceptions, `PropsGoQuery4` adds the arguments that come from the records, `PropsGoQuery6` treats where structs of other packages.

## What is modelled

| Go code | model | how |
|---|---|---|
| filter/filter.go, filter/convenience.go | `Filter/Model` | all of it; the fql tokenizer is an input |
| gosql.go | `Gosql/Model` | OrdinalParameters and InValueList; the directive types have no behaviour |
| pgsql: textarr, hstore, hstorearr, boolarr, bitarr, varbit, varbitarr, byteaarr, uuid, uuidarr, chararr | `Pgsql` | `Value` and `Scan` with their parsers in convert_util.go |
| pgsql: int2arr, int4arr, int8arr, numericarr, int2vector, int2vectorarr, int4range, int8range, numrange and their arrays | `Pgsql/Ints` | one generic definition per shape and a table of the types |
| pgsql: point, line, lseg, box, path, polygon and their arrays | `Pgsql/Geo` | number texts are opaque |
| pgsql: date, time, timetz, timestamp, timestamptz, tsrange, tstzrange, daterange and their arrays | `Pgsql/Time` | Go's package time: formatting and parsing with the five layouts (Go 1.23) |
| pgsql: tsvector, tsvector[], tsquery[], json[], xml[], char and bpchar | `Pgsql/Search` | utf8.DecodeRune is Lean's decoder; runes that are no scalar values are left out |
| pgsql: money, money[] | `Pgsql/Money` | float64 operations exactly; ParseFloat for plain decimal numbers only; a float64 out of range becomes the least int64 as on amd64 |
| pgsql: inet, cidr, macaddr, macaddr8 and their arrays | `Pgsql/Net` | with what they use of net and net/netip as in Go 1.23; no zones; sources other than text and NULL are left out |
| messages of errors: internal/analysis/error.go, internal/postgres/errors.go, postgres.go:118-163 and the places at which errors are made | `Errors/*` | text/template for the constructs that occur; colours as in the source; the names that the database has for a relation and the fields of the source are parameters |
| pgsql: float4arr.go, float8arr.go, numericarr.go:621-720 with strconv.AppendFloat and ParseFloat for 32 and 64 bits | `Pgsql/Floats` | ParseFloat without hexadecimal numbers and without underscores between digits; the algorithms of package strconv are replaced by exact arithmetic: the decimal with the fewest digits is found by trying, ParseFloat rounds the exact quotient once |
| pgsql: json, xml, any, bit | `Pgsql/Doc` | encoding/json and encoding/xml are parameters |
| pgsql: all 230 `Scan` methods, for NULL only | `Pgsql/Nulls` | a table |
| pgsql: the exported functions that make the converters, in the pairs of the compatibility table | `Pgsql/Pairs` | a table of names, each with the models of its two converters |
| internal/analysis/analysis.go, enums.go, fieldmode.go, types.go | `Analysis` | query and filter structs, where structs, joins, on conflict, directives, record types, identifiers, expressions, modes, filter keys; errors by code |
| internal/postgres/postgres.go, types.go, enums.go, compatibility.go, oid/types.go | `Postgres` | the type checker over a catalog that is data; the tables are transcribed; `Load`: the queries that fill the catalog from the system catalogs, the cache of relations |
| internal/generator/generator.go | `Generator` | the SQL trees, arguments, slices, batch loops, outputs, error handling, imports and references to them, filter types, and the text of the file (`Print`); the meaning of the run-time part of a method in `Run` and `Errors`; conditions get a meaning in `Sem` |
| internal/config/config.go, types.go, cmd/gosql/main.go | `Config/Model` | options, flags, file, search for the file, validation of the textual options and of the argument type |
| internal/typesutil/predicates.go | `Typesutil/Model` | which methods a type must have to count as an implementation |
| internal/command/command.go, internal/search/search.go | `Command/Model`, `Generator/Tool` | file names, search, the run over a disk with faults |

## What is not modelled

* The database: connections, the tables behind the system catalogs (their rows are data in `Postgres/Load`, the functions `to_regclass`, `pg_typeof`, `pg_get_indexdef`, `pg_get_expr` and `…_is_visible` are part of the data), the query of the server version, the order in which a Go map is walked, and what PostgreSQL does with a statement, apart from the input and output formats in `Spec` files, from its scanner (`Generator/SpecLex`), its grammar for the statements that are generated (`Generator/SpecGram`), the truth of conditions (`Generator/Sem`, `Generator/FilterMeaning`, with arbitrary operators) and from the effect of statements on tables in `Generator/Db`, and of statements as the grammar reads them in `Generator/TreeMeaning`, `Generator/TreeDb` and `Generator/TreeFilterDb`, which is a specification: no constraints other than the index named by ON CONFLICT, no triggers, no types. How names are resolved is specified in `Generator/Scope`, without system columns, whole rows, and the preference of ORDER BY for output names.
* go/packages, go/types, go/ast, go/format, reflect-like struct tag parsing (tagutil), the printers of github.com/frk/ast (`Generator/Print` gives the text of each node as the test files of /repo show it, without the blanks, and PostgreSQL's syntax for the few SQL nodes that do not occur there). Generated Go code is represented by the trees the generator builds, and by the meaning of the statements of the method body in `Generator/Run`; it is not parsed or type checked as Go, apart from the rules for the scope, declaration and use of variables in a method body, which `Generator/GoScope` states, and those for the names of methods and package variables in `Generator/GoDecls` and for the types of records in `Generator/GoTypes`.
* The usage text (internal/command/usage.go); how files and lines of fields are found.
* internal/config: packages.Load (a parameter of the model), the database ping, compilation of regular expressions.
* internal/typesutil: IsTime (unused). The model of the analyzer has the predicates' results as fields of its types; `Typesutil/Model` models the predicates themselves.

Simplifications are stated at the head of each model file. The most important: strings.ToLower and unicode.IsSpace are restricted to ASCII and Latin-1; a struct type is a finite tree, so recursive types, for which the analyzer does not terminate, are left out; Go maps are lists.

## Testing the theorems

`seeded/LOG.jsonl` lists every edit tried on a scratch copy of the model, with the theorems that stopped to hold. An edit with `"built": true` survived: either it does not change the behaviour (then the entry says so), or the theorems were tightened afterwards and the edit was tried again.


## Where the code departs from what one would expect

Each line is a machine-checked theorem, a witness or a general statement, with its comment. The statement of the property in `properties.jsonl` names the exception.

* `C04_not_grammatical_trailing_connective`: Outside the usage rules: a trailing `Or(nil)` dangles.
* `C04_not_grammatical_nil_operator`: Outside the usage rules: comparing nil with an operator other than = and <> dangles.
* `C04_not_grammatical_empty_group`: Outside the usage rules: an empty group gives empty parentheses.
* `C04_not_valid_empty_in`: Within the usage rules, an empty IN list gives `IN ()`, which is no valid SQL.
* `C07_not_page_before_limit`: Page before Limit is silently lost: page 3 of 10 rows reads the first 10 rows.
* `C07_not_page_overflow`: An overflowing page silently reads from the start.
* `C10_not_fql_shape_unmapped`: Non-strict mode with an unmapped key leaves the connective dangling.
* `C15_not_scan`: It fails: the server's text for the one element array `{NULLABLE}` is scanned as two elements, NULL and ABLE.
* `C16_not_ptrMap`: It fails for nullable values: a present empty string is scanned as NULL.
* `C17_not_ptrMaps`: It fails for nullable values: a present empty string is scanned as NULL.
* `C18_not_numeric`: It fails for the six numeric[] scanners in `wrapping`: each of them stores a wrapped number for some text.
* `C18_not_narrow`: It fails for `int8ArrayToUintSlice`: it turns down 2^32, which the column and the destination hold.
* `C19_not_null`: A NULL element cannot be told from false.
* `C22_not_strict`: the accepted texts are not only the uuids: the separators are not looked at, missing digits at the end become zeros; too many digits panic.
* `C23_not_server_braces`: with a brace the literal is rejected by the server or read as something else.
* `C23_not_null`: a NULL element becomes the four characters of the word.
* `C24_not_empty`: It fails for an empty path or polygon: it becomes NULL, and so nil.
* `C24_not_closed`: It fails for closed paths: the scanner gives the same points as for the open path, from which the valuer makes the open path.
* `C24_not_box`: It fails for the literal the box valuer produces, which has parentheses around it: the scanner panics for every box.
* `C24_not_arr_empty`: It fails for an empty path or polygon in an array: the literal has a lone closing delimiter for it, and it is scanned to nil.
* `C25_not_empty`: It fails for an empty vector: only one quote is written for it. The server does not accept the literal, nor does any of the scanners.
* `C25_not_server_single`: It fails for what the server sends for a vector of one number, which has no quotes: the number is followed by a vector of its digits from the second one.
* `C25_not_server_empty`: It fails for what the server sends for an empty vector.
* `C25_not_server_null`: It fails for what the server sends for a NULL that is not the last element.
* `C26_not_equal_bounds`: It fails for equal bounds: the server stores the empty range and the scanners give 0 and 0.
* `C26_not_unbounded`: It fails for unbounded ranges: a missing bound is scanned as 0, and so as a different range.
* `C26_not_null`: NULL leaves what the destination held.
* `C26_not_arr_empty`: It fails for empty ranges in an array: they are left out, so later ranges change position.
* `C26_not_arr_null`: It fails for a NULL in an array: the scanner panics.
* `C27_not_keeps`: It fails for the 105 scanners in the list: they leave the value of the row before.
* `C27_not_rows`: It fails over rows: with any other scanner a row with NULL shows the value of the row before.
* `C27_not_unknown`: a value of a type `srcbytes` does not know counts as NULL; it is not an error.
* `C31_not_asymmetric`: The two ASYMMETRIC predicates cannot be written: their words are not in the list of adjectives, and the whole expression is taken for a column.
* `C32_not_stray`: It fails with a blank field that is no Column directive: two connectives follow each other, or a connective ends the list.
* `C34_not_enforced`: the analyzer accepts a delete with neither where struct nor filter nor All directive, and an update of a single record of a type without primary key information.
* `C34_not_delete`: A delete without where struct, filter and All deletes everything; so does one of a record.
* `C34_not_empty_where`: So does one with an empty where struct.
* `C34_not_keyless`: An update of a record without primary key has a WHERE clause without condition.
* `C35_not_action`: that there is an action is not checked.
* `C36_not_unqualified`: It fails for an unqualified column of a relation without alias: it is rejected.
* `C38_not_overlap`: C38 needs the first character: with the separator `__`, which occurs in none of the names, the fields `x_ . b` and `x . _b` get the same key.
* `C38_not_distinct`: It fails with an empty separator, with base keys, when a tag is missing on the path, and for equal tails below two fields with an `fck` tag of their own.
* `C39_not_default_key`: An update by primary key that sets the key to DEFAULT: the WHERE clause takes a parameter for which there is no argument.
* `C39_not_column_in`: A column compared with an array column by IN: the list is taken from the field of the where struct without a name, and a parameter is lost.
* `C39_not_count_limit`: A count with a limit field: the limit is passed but not used.
* `C39_not_no_panic`: An update or delete with joins but without a table to join them to: the generator panics.
* `C40_not_valid_empty`: An empty slice gives an empty list, and so the statement `x IN ()`, which is not SQL.
* `C40_not_column_in`: With a column compared by IN the arguments do not fit into `params`, and the method panics.
* `C41_not_empty`: Without records the last character of the static statement is lost, and what follows the rows is appended to that.
* `C41_not_update_default`: An update that sets a column to DEFAULT has fewer values than columns.
* `C41_not_without_columns`: If no field is written the rows are only closing parentheses.
* `C42_not_slice_update`: An update of a slice has destinations and calls Query, but no RETURNING clause.
* `C42_not_array`: An array is neither indexed nor is a record declared for the row: `&q.Users.Id`, and `append(q.Users, v)`.
* `C42_not_unread`: If no field may be read the statement returns nothing but the method still expects rows, and appends a variable that is not declared to a destination that is not set.
* `C42_not_ignore`: The rows returned by an insert that ignores conflicts are not those of the records they are stored in: if the first of two records is in conflict the row of the second is stored in the first.
* `C43_not_numbered`: A package that is named like a renamed one and was added before it: two imports have the same name.
* `C45_not_negated`: For NOT BETWEEN and NOT BETWEEN ASYMMETRIC it is the opposite: for every row for which the condition asked for is true it is false, and conversely.
* `C45_not_negated_query`: `u.age notbetween` with 10 and 20 asks for rows whose age is not between; for age 7 the clause is false, for age 15 it is true.
* `C45_not_symmetric`: `u.age isbetweensym` with 20 and 10 asks for the ages from 10 to 20; no age satisfies the clause.
* `C46_not_repeated`: Only one inclusion is checked: the index on `(a, a)` is taken for the target `(a, b)`.
* `C46_not_included`: The numbers of an index include the columns that are merely stored in it: the unique index on `(a)` that also stores `b` is refused for the target `(a)`, and accepted for `(a, b)`, which then becomes the target `(a)`.
* `C47_not_escaped_end`: A quoted text that ends in an escaped quote is not seen to end: the rest of the definition up to its last character becomes part of the expression, or the program crashes.
* `C47_not_identifier`: Parentheses in quoted identifiers are counted.
* `C48_not_converter`: The hypothesis of `C48_converter` is needed: with converters only, the first operator wins.
* `C49_not_nested`: Only the mode of the field itself counts for writing: the field of a struct marked read-only is read-only for the analyzer, and written.
* `C49_not_read_no_write`: A field that may be neither read nor written is not "write-only", and is read.
* `C50_not_argType`: An earlier flag is not forgotten: the last one names a type that is no pointer.
* `C50_not_pkgName`: Nor does the type get another package name: that of the default stays.
* `C50_not_nearest`: A file in the working directory is not read if the repository begins further up: the nearest configuration file is passed over.
* `C50_not_deterministic`: With two files in the directory the order of the listing decides.
* `C51_not_receiver`: Set on a pointer type, the text of another type gives a pointer.
* `C51_not_dot`: A name with a dot is not read back.
* `C51_not_star`: Nor is a path that begins with `*`.
* `C51_not_object`: A path with a hyphen is refused: the class in the regular expression has a range where a hyphen was meant. So is a path of one letter.
* `C52_not_own`: Accepted formats with which every file is overwritten by its own output.
* `C52_not_distinct`: An accepted format with which two files of a directory have the same output.
* `C52_not_dirs`: One with which two files of different directories have the same output.
* `C52_not_inputs`: With the default format an input may be the output of another.
* `C53_not_format`: Code that cannot be formatted destroys the output of the run before, after others were already replaced.
* `C53_not_stale`: A run without targets in a file leaves its old output in place.
* `C54_not_between_column`: A Column directive with a range or a list predicate and one right-hand side is accepted.
* `C56_not_second_join`: A second join struct replaces the first without an error; the relations of the first stay declared.
* `C57_not_default`: columns named by Default are not checked; those named by Force are.
* `C58_not_cache`: C58 does not extend to the columns of the records: a type analysed for one query is reused for the next without checking its qualifiers, which the second query alone would reject.
* `C59_not_inet`: The two rows name the function for writing, which gives no sql.Scanner.
* `C60_not_pointer`: For a pointer the converter of the type that it points to is chosen.
* `C60_not_named`: For a named byte the converter of `byte` is chosen.
* `C60_not_inet`: A slice of `net.IP` is read with the function for writing.
* `C61_not_with_in`: With an IN list the default comes too late: the arguments already hold the zero, and the statement is run with LIMIT 0.
* `C62_not_collision`: `A.BC` and `AB.C` are not told apart: the second is not set although it leads to a field that is scanned, so the method dereferences nil.
* `C62_not_input`: Nothing is set in a record that was given by the caller: there the columns of an insert are returned through whatever pointers the caller has set.
* `C63_not_init`: A field named `Init`: the type has two methods of that name.
* `C63_not_concat`: Fields whose paths have the same concatenation.
* `C63_not_local`: An argument whose type is declared in the package of the filter type is written with the name of that package, which is not imported.
* `C63_not_renamed`: A pointer to a type of a package whose import was renamed: the type is written with the original name, which is that of another package.
* `C63_not_converted`: A value that the database only takes in converted form: the method passes it as it is.
* `C64_not_function_in`: A function is applied to the column only, not to the elements of an IN list.
* `C64_not_empty_group`: A nested struct without conditions is rendered as `()`, which is no condition.
* `C64_not_column_range`: A Column directive with BETWEEN (and one right-hand side) is rendered as the left-hand column alone.
* `C64_not_column_in`: A Column directive with IN is accepted with an array column; the code then ranges over a field without a name, and counts a parameter too few.
* `C65_not_name`: A name with the letter `ſ` is found, but the analysis knows no such query: it panics.
* `C66_not_round_trip`: With `coalesce('anon')` an empty name that is written is read back as `anon`.
* `C66_not_tables`: The columns of a view, of a materialized view, of a partitioned table and of a foreign table are taken to be not NULL, although they may be: NULL is scanned into a string.
* `C66_not_outer_join`: In `users AS u RIGHT JOIN posts AS p` the columns of users are NULL for posts without a user; a NOT NULL column is read as it is into an int.
* `C66_not_line`: The type `line` has no zero value: a nullable column is read as it is into a string, even if the tag says `coalesce`.
* `C66_not_lseg`: `COALESCE(name, [(0,0),(0,0)]::lseg)` is generated, which is not SQL.
* `C66_not_number_type`: In `NULLIF($1, 0)::bigint` the parameter is an integer, in `NULLIF($1, 0)::double precision` too: a large value or a fraction is refused.
* `C66_not_found`: A user written with an empty name is not found by `WHERE u.name = $1` with the empty string: the column is NULL and the condition is unknown.
* `C66_not_option`: Any option that begins with `coalesce` counts.
* `C67_not_limit`: A select with a filter and a limit field: LIMIT $1 comes first, then WHERE age > $2, and the only argument is that of the filter.
* `C67_not_count_limit`: A count with a filter and a limit field, which its statement does not use: WHERE age > $2 with one argument.
* `C67_not_single`: A select of one record: LIMIT 1 comes before the WHERE of the filter.
* `C67_not_order`: A select with an order: ORDER BY comes before the WHERE of the filter.
* `C67_not_returning`: A delete that returns columns: RETURNING comes before the WHERE of the filter.
* `C68_not_info`: An info handler is told of a nil error by a statement without output, and the method returns what it makes of it, although the documentation speaks of errors that occurred.
* `C68_not_uniform`: The same handler is not told of success if the query has a RowsAffected field, or output.
* `C68_not_count`: 300 rows are stored as 44 in a RowsAffected field of type int8 or uint8.
* `C68_not_all_or_nothing`: Rows scanned before the failure stay in the output.
* `C69_not_used`: A method that scans into a record of another package that is not behind a pointer imports the package and does not refer to it: the file does not compile.
* `C69_not_imported_in`: With another type of the argument an IN list refers to package gosql, which is not imported.
* `C69_not_imported_info`: So does the code that tells an info handler.
* `C69_not_fixed`: With an argument type of another package named pgsql the converters are looked for there, and the import of the right one, named pgsql1, is not used.
* `C69_not_cache`: What was found out about a record type for a query of one package is used for the next package: there the type is taken for an imported one, and the package imports itself.
* `C69_not_named`: A nested pointer to a struct without name is set to `new()`.
* `C69_not_last_element`: A converter of filter values is asked for by path; the last element of the path is written although the package may have another name.
* `C70_not_interface`: An interface is never taken for a hook.
* `C70_not_promoted`: `struct{ *sql.DB }` is a connection and is refused: its methods are promoted.
* `C70_not_promoted_others`: A type that embeds a scanner and valuer, or a handler of errors, is not seen to be one.
* `C70_not_handler_interface`: The interface gosql.ErrorHandler itself is not taken for a handler.
* `C70_not_documented`: The interface gosql.FilterConstructor itself is not taken for a filter constructor: it has no InitV2.
* `C70_not_alias`: `type E = error; func (T) HandleError(E) E`.
* `C70_not_variadic`: `func (*T) UnmarshalJSON(...byte) error` is taken for the method of json.Unmarshaler.
* `C70_not_value`: `func (*T) Value() (driver.Value, error)`: the type counts as a valuer although only the pointer is one.
* `C70_not_path`: ErrorInfo of another package whose path ends like gosql's.
* `C70_not_total`: A parameter of type error, `*error` or `map[string]error` where a type of some package is expected makes the predicate panic.
* `C71_not_callable`: A pointer to an interface is accepted; nothing can be called on it.
* `C71_not_all`: An alias of a connection type is refused, and a struct that embeds one.
* `C71_not_total`: A path that matches no package makes the check panic.
* `C72_not_imported`: A type that is used in its own package and in another: the package that comes first decides for both whether the unexported column is there.
* `C72_not_qualified`: A type with a qualified column: the second query is accepted or not depending on the order.
* `C73_not_micro`: Microseconds that the server sent are not sent back.
* `C73_not_offset`: Half past ten in India is written as half past ten one time zone further west: half an hour later. And what the server writes in that zone cannot be read.
* `C73_not_timetz`: A time with time zone that was written is read back, but not once the server has written it.
* `C73_not_years`: Years that do not have four digits.
* `C74_not_empty`: The empty range becomes two zero times, like the range without bounds; written again, these are bounds of the year 1.
* `C74_not_daterange`: The bound 0001-01-01 of the server comes back as no bound; so does the empty range.
* `C74_not_range_arr`: An element of a tsrange[] or tstzrange[] without a bound, or NULL, is a panic; an empty range is left out.
* `C74_not_daterange_arr`: A NULL in a daterange[] is a panic; an empty range is left out.
* `C75_not_vector_server`: A lexeme of two words is scanned as two elements, neither of which is a lexeme.
* `C75_not_arr_round_trip`: A NULL that is not the last element brings in an empty vector; a quote ends the vector; a space splits an element.
* `C75_not_arr_server_in`: With a double quote in an element the literal is malformed, with a backslash it is another value.
* `C75_not_arr_server_out`: A last vector of one lexeme, which the server does not put in quotes, is scanned as many vectors: every end of its text.
* `C75_not_query_bytes`: NULL is scanned as an empty element, and `'N'` is not what makes an element NULL.
* `C75_not_query_server_in`: The query `'it"s'` makes the literal malformed.
* `C75_not_char_mixed`: A rune outside of ASCII is not scanned into a byte.
* `C76_not_text`: From 100 * 2^46 cents on an amount can be written as another one.
* `C76_not_scan`: The amounts below a dollar that are scanned wrongly: 29, 57 and 58 cents lose a cent.
* `C77_not_inet_host`: , a case: the host 192.168.0.1 in 192.168.0.0/24 is lost.
* `C77_not_inet_back`: , a case: an inet without a prefix cannot be written back.
* `C77_not_inet_error`: , a case: text that is no address is scanned as nil; a nil IP in an array is written as text that is no address, whereas alone it is NULL.
* `C79_not_list`: **C79 (no list type).** If the type of a column has no array type, so that a list of values of a field cannot be compared with it, the message is the same whatever the column is: it gives neither the column nor its type.
* `C79_not_list_case`: It is refused, with a message that gives neither the column nor its type.
* `C79_not_message`: **C79 (no message).** The errors of the connection, of loading the catalog and of loading a relation other than that it does not exist have no message: `Error` panics.
* `C79_not_open`: **C79 (no message), the cases.** A database that cannot be reached (postgres.go:59-61), whatever the reason; and a table with a column whose type is not in the catalog.
* `C80_not_float4_in`: A float64 that is no float32 number is stored in a float4[] as another number.
* `C80_not_float4_range`: The server refuses float64 numbers that are too large or too small for a float4[].
* `C80_not_float4_scan`: A number that is stored exactly in a float4[] is not scanned into a []float64 as that number: the server writes as many digits as tell it from other float4 numbers.
* `C80_not_float8_scan`: A float8[] that holds a number too large for a float32 is an error for a []float32.
* `C80_not_numeric_zero`: Negative zero comes back from a numeric[] as zero.
* `C80_not_numeric_inf`: Infinities are not read as numbers of a numeric[] (PostgreSQL before version 14, which have no infinities).
* `C81_not_count_offset`: A count with an offset returns nothing: the offset is that of the single row with the number.
* `C81_not_count_order`: A count in an order is not carried out.
* `C81_not_add`: The option `add` of a tag changes nothing: the column is set to the value of the field.
* `C81_not_nullempty`: Nor does the option `nullempty`: the value 0 of a field that says NULL by itself is stored as it is.
* `C81_not_twice`: Two fields with the same column are accepted; the statement names the column twice, which is an error.
* `C81_not_join_target`: The condition of a table joined to the other tables of an update may be about the changed table, although the statement cannot refer to it there.
* `C81_not_alias`: An update with a slice of a table called `x` is accepted, although that is what the statement calls the records: `UPDATE users AS x .. FROM (VALUES ..) AS x .. WHERE x.id = x.id`.
* `C81_not_unqualified`: Without alias the column of the key is not qualified, and could be that of the table or of the records: `UPDATE users .. FROM (VALUES ..) AS x .. WHERE id = x.id`.
* `C85_not_null`: A pointer that is nil is not NULL but the JSON null, which is read as nil.
* `C85_not_string`: A document that arrives as a string is not read: the destination keeps what it had, without an error.
* `C85_not_xml`: A pointer that is nil is the empty text in a column of type xml, and this text cannot be read.
* `C87_not_relation`: With upper-case letters in its name another relation is checked than the one that the statement names: the query `rel:"Users:u"` is accepted if there is a relation `users`, and the statement reads `"Users"`, which need not exist.
* `C87_not_alias`: A reserved word is accepted as alias, without quotes in the statement: `rel:"users:user"` gives `FROM "users" AS user`, which the database refuses.
* `C87_not_distinct`: Aliases that differ in case are different to the analysis, which refuses to declare an alias twice, but not in the statement: `rel:"users:u"` with the join `posts:U` is accepted, and the statement has the alias `u` twice.
* `C87_not_filter_column`: A column with upper-case letters is found by the checker, but the filter names another: `u.firstName` is `u.firstname`.
* `C89_not_join`: A LEFT JOIN without conditions is accepted, and so is a CROSS JOIN with conditions: PostgreSQL refuses both.
* `C89_not_nested`: A nested struct without conditions is accepted and becomes `()`.
* `C89_not_quantifier`: A quantifier is accepted with IS DISTINCT FROM (enums.go:394 allows it with every binary operator and every pattern), with which PostgreSQL knows none.
* `C89_not_one_column`: An update that sets one column becomes `SET ("name") = (…)`; since version 10 PostgreSQL asks for ROW in front of the value then.
* `C89_not_columns`: A record without columns to be written is accepted: the lists of columns and values of the INSERT and the UPDATE are empty.
* `C89_not_in`: IN with a column is accepted: the list is empty.
* `C89_not_alias`: An alias that is a reserved word is accepted.
* `C89_not_empty_list`: With an empty slice the list after IN is empty, which PostgreSQL refuses.
* `C89_not_many`: An update of many records with another table is accepted, but there is no comma between the table and the values.
* `C89_not_literal`: A literal is put into the statement as it is: with `true OR true`, which is one for the checks (postgres.go:2036 asks the database for its type), the one condition becomes two, and every row is selected.
* `C90_not_sortable`: A filter with an order or a limit is refused by PostgreSQL in an UPDATE and in a DELETE.
* `C90_not_place`: A filter with a condition is refused in a select of one record (after its LIMIT), in a select with an order, and in a delete that returns columns.
* `C90_not_usage`: Outside the usage rules of C04, or with an empty IN list, the statement is refused.
* `C90_not_fql_grouped`: What UnmarshalFQL adds is not grouped (see C91): this select of the rows with an id above 1 selects, for the given FQL, all the rows with the name $3, whatever their id.
* `C90_not_operator`: The operator of `Col` is put into the statement as it is: with one that is no operator, the condition means something else.
* `C91_not_fql_grouped`: What UnmarshalFQL adds is not put in parentheses: with an OR in it, the conditions that the program asked for before it no longer hold for all the rows that are selected. The condition on the tenant here is joined to the first rule only.
* `C92_not_error`: A query struct with a field of type `error`, whatever its name, makes the analyzer panic: the package of that type is nil.
* `C92_not_own`: The path of the package is only compared at its end, so another package's type may be a directive.
* `C93_not_guarded`: Outside of a group FQL can widen the condition: a row is selected that does not satisfy the condition with which the program began.
* `C94_not_function_in`: The condition that PostgreSQL reads is not always the one that is asked for: the function of a tag is not applied to the values of an IN (generator.go:1349-1370).
* `C95_not_capital`: A table with a capital letter is accepted without alias, and its columns as `Items.id`. The table is quoted, the qualifier of the column is not: PostgreSQL reads it as `items`, and there is no table with that name in the statement. The item with the id 5 is asked for, and is not found (PostgreSQL reports an error).
* `C98_not_pointer`: The last entry for the type is used, and none for a predeclared type. A pointer to the type, the usual type for a column that may be NULL, has no converter: it has no name.
* `C98_not_untyped`: An entry without a type is accepted, and is taken for all types without a name: integers, pointers and slices alike.
* `C98_not_func`: An entry without a function is accepted: the code asks for a function without a name, of a package with an empty path.
* `C99_not_relation`: An update with a From struct without a Relation directive.
* `C99_not_option`: A comma at the end of a tag, `sql:"id,"`, crashes the tool.
* `C99_not_error`: So does a field of type `error`, in the target or in its records.
* `C99_not_struct`: A target that is no struct: `type FilterFunc func()`.
* `C99_not_name`: A name with the letter `ſ`.
* `C99_not_catalog`: The catalog without the type of the elements of a column, without that of a literal, and with an index whose definition ends in a quote.
* `C100_not_box`: does not hold for a box: the text that `BoxFromFloat64Array2Array2` writes makes `BoxToFloat64Array2Array2` panic, for every box. (PostgreSQL prints a box without the outer parentheses, and that text is read.)
* `C100_not_inet_arrays`: does not hold for arrays of addresses: the table has the valuer's name where the scanner's should be, and that function makes no scanner.
* `C100_not_narrow`: does not hold for the pairs in `narrowPairs`: there is a number that both types hold, that is written and that the scanner refuses.
* `C101_not_json`: does not hold for a string type that has `MarshalJSON` but not `UnmarshalJSON`: an insert writes the document that the method makes, and a select reads the text of that document, quotes included, into the field. The other way round, the text of the field is written as it is and read as a document.
* `C101_not_xml`: does not hold for a string type that has one of the two methods for XML.
* `C101_not_any`: does not hold for an `interface{}` and a column of type xml: it is written as a document, and read as what the driver returns.
* `C102_not_pkey`: does not hold for the key of an update that is not itself written: the field is passed without the converter that the checker found for it. The update of a record whose key is a `[16]byte` fails, as soon as the field is marked read-only.
* `C102_not_list`: does not hold for the elements of a list: the converter that the checker found is one for the whole list, and the elements are passed one by one as they are.
* `C102_not_time`: does not hold for a type `Time` of another package that is called `time`: the table is searched by the name of the package, not by its path.
* `C103_not_join`: A where struct that mentions a joined relation is rejected if it comes before the join struct.
* `C103_not_repeated`: Of two OrderBy directives the last one counts; nothing is reported.
* `C103_not_filter`: A TextSearch directive with a qualifier is rejected if it comes before the field with the records, which is not looked up first as it is for queries.
* `C104_not_search_path`: One column of a type that is not on the search path, and nothing can be generated for the relation, even by those who never name the column: `events` has a column `id`, whose type is known.
* `C104_not_literal`: A literal of such a type crashes the checker: its type is not in the catalog.
* `C104_not_visible_operator`: An operator that is not on the search path is taken for one that can be used: the query does not look at `pg_operator_is_visible`.
* `C104_not_visible_function`: Nor does it for functions.
* `C104_not_upgrade`: A function `upgrade` is unknown: the pattern `'_pg_%'` is meant for names that begin with `_pg_`, but `_` stands for any character.
* `C104_not_default_argument`: A function that can be called with one argument, because the second has a default, is unknown.
* `C104_not_aggregate`: An aggregate is taken for a function that can be used in a condition, which the database refuses.
* `C104_not_identity`: An identity column is refused where its default is asked for: the database keeps its default elsewhere.
* `C104_not_deferrable`: A deferrable constraint is accepted as the target of a conflict, which the database refuses.
* `C105_not_output`: The output of a select whose target has no alias is not qualified: joined with a relation that has a column of the same name, the statement is refused by the database.
* `C105_not_where`: A column without qualifier in a condition is looked up in the target only; the database finds it in every relation that is joined too.
* `C105_not_target`: The condition of a join in the FROM or USING list of an update or delete may name the target, which the database does not see there.
* `C105_not_upper`: The name of a relation is written with quotes and a qualifier without: a relation without an alias whose name has upper-case letters cannot be named by its qualifier.
* `C105_not_case`: Two aliases that differ only in case are different for the tool and equal for the database.
* `C105_not_captured`: In the condition of a join of an update or delete a column without qualifier that the checker finds in the target, here `users.id`, is for the database one of another relation, here `posts.id`.
* `C106_not_array`: A select into an array is accepted, and its method appends a variable `v` that is not declared.
* `C106_not_unread`: So does the method of a delete that is to return records of which no field may be read.
* `C106_not_in`: IN with a column in the condition of a join is accepted; the length of nothing is taken.
* `C106_not_visible`: Records of a package named `rows` are accepted: in the loop over the rows the name of the package is that of the variable.
* `C107_not_exec`: A field of a query struct may have the name of the method, here `Exec`: Go refuses the method.
* `C107_not_field`: A field of the records may have the name of the field with the filter, which is often an embedded one: then the filter type has a field and a method with this name.
* `C107_not_identifier`: The configured name of the query method is not looked at: it need not be an identifier.
* `C108_not_array`: An insert of an array of records is accepted: the values are read from the fields of the array, which has none.
* `C108_not_method`: A field of a named pointer type is accepted, and AfterScan is called on it: Go does not find the method.
* `C108_not_blank`: A blank relation field is accepted in a select: the method refers to `q._`, which Go refuses.
* `C109_not_new`: A field that points to a struct type without a name is accepted: the method sets it to `new()`, which Go refuses.
* `C109_not_exported`: The analysis leaves out the unexported fields of structs of other packages, which the generated code may not use, but not if they are behind a pointer: the method refers to the field `id` of a struct of package m.
* `C110_not_blank`: Conditions may be nested in a blank field: the method refers to `q.Where._.Id`, which Go refuses.
* `C110_not_exported`: Whether the unexported fields of a nested struct can be used is decided by the type of the outermost struct: the method refers to the field `id` of a struct of another package, which Go refuses.

## Axioms

`#print axioms` for the 1052 theorems of `MANIFEST.json`:

| axioms | theorems |
|---|---|
| Quot.sound, propext | 495 |
| Classical.choice, Quot.sound, propext | 381 |
| propext | 132 |
| none | 44 |

Per property (union over its theorems):

* Classical.choice, Quot.sound, propext: C01, C02, C04, C07, C09, C11, C12, C16, C18, C20, C23, C24, C25, C26, C28, C29, C30, C31, C34, C36, C37, C39, C40, C41, C43, C46, C49, C50, C51, C52, C54, C55, C56, C57, C58, C61, C64, C65, C67, C68, C69, C72, C73, C74, C75, C76, C77, C78, C79, C80, C81, C87, C89, C90, C91, C93, C94, C95, C96, C97, C98, C99, C100, C101, C102, C104, C105, C106, C107, C108, C109, C110
* Quot.sound, propext: C03, C05, C06, C08, C10, C13, C14, C15, C17, C19, C21, C22, C32, C33, C35, C38, C42, C44, C45, C47, C48, C53, C59, C60, C62, C63, C66, C70, C71, C82, C83, C84, C85, C86, C88, C92, C103
* propext: C27
