# Formal model of zeldovich/go-rpcgen — design

The subject is the generator (`main.go`, `scan.go`, `xdr.y`, `out.go`), the run-time library
(`xdr/*.go`), the RPC client and server (`rfc1057/client.go`, `rfc1057/server.go`) and the two shipped
generated packages (`rfc1057`, `rfc1813`).  Properties are in `properties.jsonl` (C01–C74), theorems in
`lean/Verif/Props/*.lean`; the theorems of property Cnn are those whose names start with `Cnn_`.
`MANIFEST.json` is generated from them (`tools/mkmanifest.py`).

## 1. What is modelled

All paths under `lean/Verif/`.  Every definition that models code cites file and lines in `/repo`.

| Module | Models | Simplifications |
|---|---|---|
| `Xdr/Lib` | `xdr/lib.go`, `xdr/helper.go`, `xdr/types.go` | a call is a function from state and pointee to state and pointee; error texts reduced to their kind; `int` has 64 bits |
| `Gen/Ast` | the structs of `out.go` built by `xdr.y` | a literal is its value, not its spelling (but see `Text/Spells`) |
| `Gen/Go` | semantics of the part of Go that `out.go` prints: block scopes and shadowing, interior pointers, `make`, `range`-like loops, `switch`, method calls, panics | call depth is bounded by `fuel`, theorems say "for every large enough fuel"; data is a finite tree (pointers are owned: sharing is not observable through codecs; cyclic data is not representable) |
| `Gen/Out`, `Gen/Prog` | `out.go`, from abstract syntax to trees of that language; wrappers and registration tables | identifiers are ASCII |
| `Text/Emit` | `out.go` again, as the printed text, character for character | — |
| `Text/Scan`, `Text/Lex` | `go/scanner` (as used twice: on the specification and on the output) and `scan.go` | ASCII; strings without escapes; anything outside the modelled part is `none` |
| `Text/XdrGrammar`, `Text/XdrParse` | the rules of `xdr.y` as derivations with the values of their actions; a parser | the automaton is in `Lang/Lr` (C62) |
| `Tool/Main` | `main`, `refmt`: all file operations, each of which may fail; deferred removals | no links, nobody else changes the files during the run, the process is not killed, `Close` does nothing |
| `Inst/*Data` | `prot.x`, `types.go`, `xdr.go` of both packages as trees | transcribed by `tools/transcribe.py`; not trusted, since `Inst/Read*` proves that they are what the text says |
| `Inst/Text*` | the same six files, character for character | `tools/embed.py` is trusted to copy |
| `Rpc/Msg` | the RPC message types of `rfc1057/types.go`, `xdr.go` as used by client and server | `Rpc/MsgLink` proves that these functions are the generated methods |
| `Rpc/Server`, `Rpc/Stream` | `server.go`: table, `handleReqErr`, record loop over arbitrary chunks | no nil, panicking or diverging handlers |
| `Rpc/Machine` | `server.go` with any number of connections: read loops, goroutines, buffer pool, shared handler state | see the head of the file: handler actions are atomic steps, handlers do not write to the request buffer |
| `Rpc/Slices` | aliasing of decoded `[]byte` with the request buffer | what C35 needs |
| `Rpc/Client`, `Rpc/Shared` | `client.go`, used by one goroutine / by several at once | in `Shared` the statements of `Call` are the atomic steps |
| `Rpc/Wrapper` | running the generated wrappers and tables on the server | a handler's methods take and return values |
| `Lang/Files`, `Lang/Lex`, `Lang/Parse`, `Lang/Ast`, `Lang/Read` | the text of `xdr/lib.go`, `helper.go`, `types.go`, `rfc1057/client.go`, `server.go` (and `rfc1057/types.go`, `xdr.go`), and what it parses to | `tools/embedgo.py` is trusted to copy; `Ast` (written by `tools/mkast.py`) is not, since `Read` proves that it is what the text parses to |
| `Lang/Sem`, `Lang/Prog` | what these files do when run: heap, interior pointers, slices with shared arrays and spare capacity, maps, `defer`, `goto`, `range`, method and interface calls, panics (deferred calls run, memory is kept), `os.Exit` | see the head of `Sem`: `int` is unbounded, names of types are kept only where they matter, goroutines and the standard library are parameters |
| `Lang/*Spec`, `LibScalar`, `LibBytes`, `LibVar`, `Obj` | no model: proofs that the text does what `Xdr/Lib`, `Rpc/Msg`, `Rpc/Client`, `Rpc/Server`, `Rpc/Stream` say | — |
| `Lang/DemoNet` | no code: a concrete transport, pool and application, to show that the assumptions of C53–C57 can be met | — |
| `Lang/GenFiles`, `GenAst`, `GenRead`, `GenProg` | the text of `out.go`, `scan.go`, `main.go`, `xdr.y`, and what it parses to | as for `Lang/Files` |
| `Lang/Yacc`, `Tree` | the rules of `xdr.y` as data and its actions as Go functions; derivations and the order in which a parser runs their actions | the automaton is in `Lang/Lr` |
| `Lang/Lr`, `XdrTable`, `XdrLr` | the loop of the parser that goyacc generates, over tables; LALR(1) tables for `xdr.y` (`tools/mklalr.py`), checked in Lean | goyacc's own tables are not in the repository; error recovery (no rule of `xdr.y` uses it) |
| `Lang/YaccRun` | the same loop with the values on the stack, calling `Lex`, `Error` and the actions as the text has them; it reads a token only if the state needs one | a new variable for the value of each token (goyacc uses one); the limit over bounds on steps |
| `Lang/Runs`, `YaccMono`, `YaccSim`, `YaccParse`, `YaccDoes` | no model: proofs that this parser does what the derivation's actions do, and so what C61 asks of a parser | — |
| `Lang/Pure`, `PureSim` | no code: the semantics without pointers, and a proof that it gives what `Lang/Sem` gives | — |
| `Lang/Mono`, `Actions`, `Rules`, `Derive` | no model: proofs that the text of `xdr.y` builds and prints what `Text/XdrGrammar` and `Text/Emit` say | — |
| `Lang/ToolExt` | what is outside `main.go`: flags, files, `go/scanner`, `go/format`, the generated parser | those of `Tool/Main`; names of files are ASCII |
| `Lang/Ends`, `RefmtSpec`, `MainSpec` | no model: proofs that the text of `main.go` does what `Tool/Main` says | — |
| `Lang/Out*`, `GenFacts` | no model: proofs that the text of `out.go` prints what `Text/Emit` says | `fmt.Sprintf`, `fmt.Fprintf` for `%s`, `strings.ToUpper` of one ASCII letter |
| `Lang/GenCode` | the Go that the generator prints, as syntax trees of `Lang/Syntax` | `Lang/GenShipped` proves that `rfc1057`, read from its files, has these declarations |
| `Lang/GenRep`, `GenSim`, `GenBlock`, `GenPtr`, `GenArr`, `GenUnion`, `GenThm`, `GenMeth`, `GenLink`, `GenConst`, `GenPkg`, `GenBuf` | no model: proofs that this text, run by `Lang/Sem`, does what `Gen/Go` and `codec` say | — |
| `Lang/GoTr`, `GoRead`, `GoStmt`, `GoDecl`, `GoLex`, `GoLow`, `GoPlain`, `GoPkg` | no model: proofs that `Lang/Lex` and `Lang/Parse` read what `Text/GoSyn` says is Go (on the fragment the generator prints) as the corresponding trees | — |
| `Lang/WrapCode` | the wrapper methods that the generator prints (out.go:399-429), as syntax trees | — |
| `Lang/Static` | conversions that Go makes from the declared types of local variables | only what generated code has: `x.m(…)` as a statement and `&x` in a `return`, for a variable declared in the body of the function by `var x T`; `Lang/Sem` has no types for values that are not structures, so `(*T)(&x)` is written instead |
| `Lang/WrapSpec`, `WrapText` | no model: proofs that the wrappers decode, call the handler and return what it returned | — |
| `Lang/RegsSpec` | no model: proof that a registration function returns the table of the version, with bound wrapper methods | — |

Not modelled: `example/*` (they use the client and an empty table), `fuzz_test.go` except the fuzz
target functions (C49), `xdr_test.go`, `Makefile`, timing, memory limits, the Go scheduler beyond
"any order", data races in the sense of the Go memory model (a race on `Client.xid` is taken as an
interleaving of its reads and writes).

### Specifications (not models of code)

`Spec/Bytes` (big-endian numbers, padding), `Spec/Rfc4506` (wire images as a relation between values and
byte strings, independent of `XdrState`), `Spec/GoRep` (which Go values stand for which XDR values),
`Spec/Rpc` (RFC 1057 messages and record marks as byte strings), `Spec/GoStatic` (static rules of Go),
`Text/GoSyn` (syntax of Go), `Text/Layout` (ways of writing a specification down).

## 2. How it fits together

1. *Compiler correctness.*  `Gen/Compile`, `CompileThm`: running a generated method in the semantics of
   `Gen/Go` is the pointer-free function `codec` of the type's syntax tree (induction over the syntax;
   loops by induction on the count; method calls by induction on fuel).
2. *Refinement.*  `Gen/Encode`, `Decode`, `Fill`: `codec` encodes exactly the images of `Spec/Rfc4506` and
   accepts exactly these (mutual induction over the syntax, then over nested names).  C09–C20 follow.
3. *Text.*  `Text/EmitXdr` … `EmitSpec`: the text printed by `out.go` is one and only one Go file, and this
   file, read back (`GoLower`), is the tree of `Gen/Out` (C46).  With the parser for specifications (C45)
   and the file protocol (C43) this gives whole runs of the tool (C47).
4. *Static rules.*  `Gen/StaticThm`, `StaticPkg`: the trees satisfy `Spec/GoStatic` (C48).
5. *RPC.*  `Rpc/*Lemmas`, `MachineInv`, `Linear`, `Progress`: sequential facts about one request, lifted to
   all executions of the concurrent machine by invariants; linearization by moving each request to its
   single action.
6. *Text of the library, client and server.*  `Lang/*`: total-correctness reasoning (`wp`) about the text of
   the hand-written files.  For each function: started in any memory that represents the arguments of the
   hand-written model, it ends without panic in memory that represents the model's results, and it has
   changed nothing else.  So what is proved about the models holds of the text (C53–C57).
7. *Text of the generator.*  `out.go` does not use pointers, so its text can be run by computing values
   (`Lang/Pure`; `PureSim` proves by induction over programs that this is what `Lang/Sem` gives).
   `Lang/OutType`, `OutXdr`, `OutEmit`: by mutual induction over the syntax of specifications, its functions
   return and print what `Text/Emit` says (C58).  `Lang/Rules`, `Derive`: by induction over derivations of
   the grammar read from the text of `xdr.y`, its actions build values that stand for what `Text/XdrGrammar`
   derives and pass them on (C59); fuel is made uniform by `Lang/Mono`.  `Lang/LexSpec`, `LexAll`: case by
   case through the switches of `Lex` (C60).  `Lang/World`: a program run with two meanings of what is
   outside of it that correspond does the same with both.  `Lang/Stops`: rules for runs that panic.
8. *Both.*  The Go files that the text of the generator writes are read by the same lexer and parser that read the
   files of the project, and the package that is read does what RFC 4506 says of the specification (C65).

### `supported` and `compilable`

`Gen/Supported.supported` is a decidable predicate on specifications used by the codec theorems.  It asks
for: generation succeeds; distinct names after capitalisation; constants spelled with an upper-case
initial; no constant or type called like a local variable of generated code; no nested inline variable
arrays (C22), no fixed-length arrays of non-opaque elements (C23); labels that resolve and fit the
discriminant's type; types of finite size.  `Gen/Checks.compilable` adds what the Go compiler checks.
Both hold for the shipped specifications (C25_supported, C48_shipped), and for the examples of
`Props/Demo`, which the non-vacuity examples use.

## 3. Properties: model, proof, status

All 65 are proved; where the code violates what one would expect, the property states the behaviour it
has and the theorem is a witness or a family of witnesses ("defect" below).

| | Modelled by | Proved by |
|---|---|---|
| C01–C06 | `Xdr/Lib` | direct computation against `Spec/Bytes` |
| C07, C08 | `Xdr/Lib`, `Gen/Go` | induction over syntax and fuel |
| C09–C11, C14–C17 | generated methods | corollaries of C12/C13 and prefix-freeness of the RFC relation |
| C12, C13 | generated methods | refinement in both directions (step 1 and 2 above) |
| C18 | generated methods | typing invariant + bound on fuel |
| C19, C20 | unions | case analysis on labels; C20 defect: undeclared discriminants accepted |
| C21 | optionals | fresh: from C13; defect: stale pointer (witness) |
| C22 | nested inline arrays | defect: generated program run in the model (two witnesses) |
| C23 | fixed arrays | defect, for every specification that contains one: no derivation in `Spec/GoStatic` |
| C24 | generator | induction: fails iff one of five constructs occurs |
| C25 | shipped files | kernel computation on the complete texts |
| C26 | `XdrVarArray`, arrays | direct; defect: allocation of announced size (family) |
| C27–C30 | `Rpc/Server` | case analysis of `handleReqErr`, induction over registrations |
| C31, C32 | `Rpc/Stream`, client | induction over chunks; record splitting against `Spec/Rpc` |
| C33–C35 | `Rpc/Machine` | invariants over all executions; linearization; C35 hazard: family of executions |
| C36–C38 | `Rpc/Client` | case analysis against `Spec/Rpc`; counter arithmetic |
| C39 | client + server + generated program | composition of C12/C13, C28, C31, C36, C37, C40 |
| C40 | `emitProg` | induction over the definition; defects: large ids, unnamed argument types |
| C41, C42 | `handleReqErr` | defects, for all requests concerned |
| C43 | `Tool/Main` | all failure points; defects after the output was opened (witnesses) |
| C44 | `i`, `emitConst`, `emitEnum` | strings; defects: collisions (witnesses) |
| C45 | scanner, grammar, parser | unambiguous grammar; parser sound and complete; print/scan/parse round trip for every layout |
| C46 | `Text/Emit` | unique parse of Go syntax, and reading back |
| C47 | everything in the tool | composition |
| C48 | `Spec/GoStatic` | induction over syntax; witnesses for each exclusion |
| C49 | fuzz targets | from C13–C15 |
| C50 | generated decoders | fuel bound; family of linked lists |
| C51 | `Rpc/Shared` | invariant over all interleavings; defects: concrete schedules |
| C52 | `Rpc/Machine` | invariant; families of executions |
| C53 | text of `xdr/*.go` | `Lang/Lib*`, `TypesSpec` with C01–C06 |
| C54 | text of `client.go` | `Lang/CallSpec` with C36, C37 |
| C55 | text of `server.go` | `Lang/ServeSpec`, `RunSpec` with C28, C29 |
| C56 | text of `server.go` | `Lang/SeqSpec` with C31 |
| C57 | both texts | C54, C56 with C39 |
| C58 | text of `out.go` | `Lang/OutType`, `OutXdr`, `OutEmit`, `OutRun`: induction over the syntax, symbolic execution of each function |
| C59 | text of `xdr.y` | `Lang/Yacc` (reader), `Actions`, `Rules` (one lemma per rule), `Derive` (induction over derivations, both ways) |
| C60 | text of `scan.go` | `Lang/LexSpec` (symbolic execution, one lemma per kind of token), `LexAll` (induction over the tokens) |
| C61 | text of `main.go`, `Lang/ToolExt` | `Lang/Ends` (a logic for runs that return, panic or exit), `RefmtSpec`, `MainSpec` (symbolic execution of each way through `main`) with C43 |
| C62 | text of `xdr.y`, `Lang/Lr` | a checker for tables, proved: soundness by an invariant of the stack, completeness by induction over derivations, termination by a potential; the tables are run through it by the kernel |
| C63 | text of `main.go`, `scan.go`, `out.go`, `xdr.y`, `Lang/YaccRun` | `Lang/YaccParse`: simulation of the automaton of C62, with C59, C60; then C61 and C47 |
| C64 | text that the generator prints (`Lang/GenCode`), text of `xdr/*.go` | `Lang/GenSim` … `GenPkg`: the text of each statement does what `Gen/Go` says, on values in memory (`GenRep`), by induction over the syntax, then over nested calls; with C53, C12–C16 |
| C65 | the same as C63 and C64; `readFile` (`Lang/Lex`, `Lang/Parse`) on the output files | `Lang/GoLex`: `Lang/Lex` finds the tokens of `Text/Scan`; `GoRead`, `GoStmt`, `GoDecl`: `Lang/Parse` reads the tokens of the syntax of `Text/GoSyn`, by induction over it; `GoLow`, `GoPlain`, `GoPkg`: what `GoLower` finds in it is what C64 needs; then C63, C48, C64. For `rfc1813`: the files of the repository (C48_rfc1813, as text) instead of a run |
| C66 | `Lang/WrapCode` (read from the files by `GoPkg`), `Lang/Static`, `Lang/Sem`; the handler is any `Ext.ext` | `GoPkg`: the wrappers are read as `WrapCode` says; `WrapText`: which wrapper a procedure has, with its conversions; `WrapSpec`: symbolic run of its body, with the decoding of C64 for `in.Xdr(args)` and the handler as a specification `Method` in terms of values; uniqueness of images (C17) |
| C67 | texts of `xdr`, `rfc1057` and of a generated package among the other packages of the program (`Lang/Prog`: `Others`); the user's object is any `Ext.ext` that does what a model does (`Object`) | `RegsSpec`: symbolic run of the registration function; a wrapper with the object behind it is a handler in the sense of C55 (`wrapper_handles`, from `WrapSpec`); the wrapper struct is added to the memory of the application (`Beside`); C56 for the connection, C40 for the numbers and what the handlers do |
| C68 | as C67, on both sides; the client's variables are cells of its memory (`ArgVar`, `ResVar`) | pointers to variables of generated types satisfy `Writes` and `Receives` (`writes_arg`, `receives_res`, from `callOK_text` and the fuel bound of `codecN_decode`); `C57_exchange` with the registrations of `C67_regs`, for any memory invariant of the server; values by `arg_encodes`, `res_decodes` of C39 |
| C69 | as C68, for a list of calls (`Site`); the calls in terms of values are `Executes` of C39 | `one_call` as C68, with what `CallEnd` says of the rest of the client's memory, so that later calls find their variables (`Site.At.later`); induction over the calls (`calls_text`); the server by `serverMain_spec` on the stream of the requests |
| C70 | as C57 and C68, for a call of a program, version or procedure that the server does not have, or whose arguments the handler finds wrong (`CannotServe`, `NotThere`) | the server by C28 (`CannotServe.answered`) and `serverMain_spec`; the client by `Call_spec` and what `parseReply` makes of the reply (`parseReply_refusal`); generated packages by C67 (`NotThere.cannot`) |
| C71 | as C56, with any calls of `RegisterMany` and `Register` (`serverOf`) | induction on the calls with `RegisterMany_spec` and `Register_spec` (`execAll_spec`), then as C56; `Responses` goes by the last registration of a procedure |
| C72 | as C67 and C71, for any list of versions of generated packages (`Service`) | each registration function by `regs_at`; a handler that is right beside one wrapper is right beside all of them (`handles_among`); then C71 |
| C73 | as C68, with the server of C72 (`RemoteTo`) | as C57 with `serverOf_spec` (`exchangeOf`); the registration that is found is that of the service (`lastReg_table`, `lastReg_before`); the client by C68 (`Calling.site`) |
| C74 | as C70, with the server of C72 (`Absent`, `UnservedBy`) | as C70 with `serverOf_spec` (`failureOf`); what no service has is not registered, and what a service has is (`Absent.cannot`) |

## 4. Defects and hazards found (each with a theorem unless marked †)

Generated code and library
* Variable arrays nested inline: the inner `for i` captures the outer index; wrong bytes or panic (C22).
* `T name[n]`, T not opaque, never compiles (C23).
* Decoding an absent optional leaves the old pointer in place (C21_stale); unselected union arms too.
* Undeclared discriminants are accepted (C20); padding content and non-canonical booleans too (C02, C13).
* A variable array without maximum allocates the announced number of elements before any element is
  read (C26_array_alloc); a linked list costs one nested call per element: 8n+8 bytes drive the decoder n
  calls deep (C50_recursion), and Go kills a process that exceeds its stack limit.
* A constant called `__arraysz` used as a maximum resolves to the local variable† (excluded by
  `supported`).

RPC
* Record marks are wrong for messages of 2^31 bytes and more (C32).
* No reply at all if the result cannot be encoded (C41), or for undecodable calls (C29_silent).
* PROG_MISMATCH and RPC_MISMATCH always announce 0..0 (C42).
* A handler that returns a result together with an error gets its result appended after GARBAGE_ARGS
  (C29_disorderly).
* One `Write` per reply without lock: if the transport can split writes, replies interleave (C33_torn).
* Opaque arguments alias the pooled buffer: kept data changes after the handler returned (C35).
* A connection closed between mark and body is reported like an orderly end (C31_eof_ambiguous).
* Four bytes make the server allocate up to 2^31-1 bytes; goroutines are unbounded (C52).
* `Client` has no lock: two goroutines can get each other's result, both with nil error (C51_swapped);
  transaction ids wrap after 2^32 calls (C38_wraps).
* After "fragments not supported" the client's stream is out of step†; bytes after the result are
  ignored (C37_result).

Generator
* Names that differ in the case of the first letter collide (C44_collision); labels and sizes are spelled
  differently from definitions of constants (C44_label, C44_enum).
* Programs with primitive argument or result types and program numbers from 2^32 on give code that does
  not compile (C40_*); so do the cases of C48_names, C48_consts, C48_files.
* `type` and `map` are accepted as names and printed raw (C46_raw_type).
* A newline can end a declaration where a semicolon is missing, or break one that is complete
  (C45_newline_supplied, C45_newline_refused): the Go scanner inserts semicolons.
* Errors of `Fprintf` and `Close` are ignored: truncated output counts as success (C43_silent);
  the output file is rewritten in place (C43_destroyed); with `-t` one file may be replaced and the
  other not (C43_half); a left-over temporary file blocks all later runs (C43_stale); `-t out.tmp`
  loses the file (C43_alias).

## 5. Trusted base

* The Lean 4.33 kernel.  No axioms of our own, no `sorry`, `native_decide`, `bv_decide`,
  `implemented_by`, `unsafe`.  Concrete computations use `decide +kernel`
  or `kernel_rfl` (kernel reduction only).
* That the definitions of section 1 say what the cited lines of Go do, and that `Gen/Go`, `Text/Scan`,
  `Text/GoSyn`, `Spec/GoStatic` say what the Go language does on the fragment used.
* The specifications of section 1 as statements of what users want.
* `tools/embed.py`, `tools/embedgo.py`: copy files of the repository into Lean literals.
* For C53–C61 and C63–C74 instead of the hand-written models: that `Lang/Lex` and `Lang/Parse` read Go and that
  `Lang/Sem` says what it does, on the fragment these files use.
* goyacc: that the tables it makes of `xdr.y` pass the check of `Lang/Lr` (then C62 and C63 apply), and that its
  loop is that of `Lang/Lr` and `Lang/YaccRun`.  For C59: that the actions, as functions of their own (`Lang/Yacc`), are what goyacc makes
  of them as clauses of one switch.
* `format.Source`: accepts syntactically valid Go and keeps its meaning (a hypothesis of C47, C63 and C65).
* `go/scanner`: finds the tokens that `Text/Scan` finds (a hypothesis of C63 and C65).
* `io.ReadFull`, `sync.Pool`, maps and slices of Go as described in the models that use them.

## 6. Mutation tests

`seeded/LOG.jsonl` has one line per wrong program tried: the definition edited, the edit, the claim it
breaks, which theorems failed, and which were tightened because nothing failed.

## 7. Axioms of each theorem

Generated by `tools/axioms.py` (`#print axioms`).

<!-- axioms -->
* none: C27_sequence
* propext: C45_derives, C45_newline_refused, C45_newline_supplied, C45_refused
* propext, Quot.sound: C01_u32_encode, C01_s32_encode, C01_u64_encode, C01_s64_encode, C01_u32_any, C01_short, C02_encode, C02_short, C04_encode, C07_library, C19_values, C26_bytes, C27_prog, C27_vers, C31_eof_ambiguous, C33_torn, C33_not_serial, C36_client, C38_counter, C40_shipped, C45_unambiguous, C45_only, C45_injective, C45_parse, C51_distinct, C51_swapped, C51_mismatch
* propext, Classical.choice, Quot.sound: C01_u32_decode, C01_s32_decode, C01_u64_decode, C01_s64_decode, C02_decode, C03_encode, C03_decode, C03_accepts, C04_decode, C04_accepts, C05_encode, C05_decode, C05_accepts, C06_encode_refuses, C06_decode_refuses, C06_decode_bound, C07_generated, C08_append_only, C09_prefix, C10_truncated, C11_encode_aligned, C11_decode_aligned, C12_encode, C13_accepts, C13_refuses, C13_success, C14_round_trip, C15_stable, C16_unmodified, C17_prefix_free, C18_total, C19_union, C20_undeclared, C21_fresh, C21_stale, C22_wrong_bytes, C22_panics, C23_fixed, C23_element, C23_exception, C24_refuses, C25_rfc1057, C25_rfc1813, C25_supported, C25_rfc1057_text, C25_rfc1813_text, C26_array_alloc, C27_lookup, C28_classify, C29_reply, C29_silent, C29_disorderly, C30_invocations, C30_faithful, C31_records, C31_decomposition, C31_chunking, C31_online, C32_client, C32_server, C33_outcome, C33_output, C33_quiescent, C33_classify, C33_silent, C33_reply, C33_progress, C33_linear, C34_exclusive, C34_contents, C34_requests, C35_reused, C35_kept, C35_slices, C36_sent, C36_refused, C37_success, C37_result, C37_untouched, C38_xid, C38_distinct, C38_wraps, C39_exchange, C39_call, C39_session, C40_returns, C40_argument, C40_wrapper, C40_table, C40_large, C40_unnamed_arg, C40_unnamed_result, C41_no_reply, C42_ranges, C43_outcomes, C43_failure, C43_success, C43_touches, C43_destroyed, C43_half, C43_silent, C43_alias, C43_stale, C44_injective, C44_collision, C44_exported, C44_size, C44_label, C44_enum, C45_text, C45_text_unique, C45_writable, C46_text, C46_two, C46_panics, C46_raw_type, C47_succeeds, C47_output, C47_refuses, C48_compiles, C48_text, C48_shipped, C48_names, C48_consts, C48_files, C49_fuzz, C49_shipped, C50_decode, C50_recursion, C51_reply, C52_bounds, C52_alloc, C52_goroutines, C53_program, C53_encode, C53_decode, C53_short, C53_string_encode, C53_string_decode, C53_bytes_encode, C53_bytes_decode, C53_array_encode, C53_array_decode, C54_sent, C54_refused, C54_success, C54_untouched, C54_new, C55_request, C56_connection, C57_exchange, C58_program, C58_prints, C59_program, C59_derives, C59_runs, C60_token, C60_end, C60_codes, C60_file, C61_main, C61_failure, C61_success, C61_touches, C62_tables, C62_parses, C62_accepts, C62_unique, C63_succeeds, C63_output, C63_rejects, C63_refuses, C63_unknown, C63_touches, C64_encode, C64_accepts, C64_refuses, C64_new, C64_rfc1057, C65_package, C65_new, C65_encode, C65_accepts, C65_refuses, C65_rfc1813_files, C65_rfc1813_encode, C65_rfc1813_accepts, C65_rfc1813_refuses, C66_void, C66_calls, C66_refuses, C66_files, C66_rfc1813, C66_rfc1057, C67_regs, C67_connection, C67_files, C68_call, C68_files, C69_session, C69_files, C70_failure, C70_call, C70_files, C71_connection, C72_connection, C72_files, C73_call, C74_call
<!-- end -->
