{
 "claims": [
  {
   "property": "C01",
   "status": "proved",
   "theorems": [
    "Verif.Props.C01_u32_encode",
    "Verif.Props.C01_s32_encode",
    "Verif.Props.C01_u64_encode",
    "Verif.Props.C01_s64_encode",
    "Verif.Props.C01_u32_decode",
    "Verif.Props.C01_s32_decode",
    "Verif.Props.C01_u64_decode",
    "Verif.Props.C01_s64_decode",
    "Verif.Props.C01_u32_any",
    "Verif.Props.C01_short"
   ],
   "note": ""
  },
  {
   "property": "C02",
   "status": "proved",
   "theorems": [
    "Verif.Props.C02_encode",
    "Verif.Props.C02_decode",
    "Verif.Props.C02_short"
   ],
   "note": ""
  },
  {
   "property": "C03",
   "status": "proved",
   "theorems": [
    "Verif.Props.C03_encode",
    "Verif.Props.C03_decode",
    "Verif.Props.C03_accepts"
   ],
   "note": ""
  },
  {
   "property": "C04",
   "status": "proved",
   "theorems": [
    "Verif.Props.C04_encode",
    "Verif.Props.C04_decode",
    "Verif.Props.C04_accepts"
   ],
   "note": ""
  },
  {
   "property": "C05",
   "status": "proved",
   "theorems": [
    "Verif.Props.C05_encode",
    "Verif.Props.C05_decode",
    "Verif.Props.C05_accepts"
   ],
   "note": ""
  },
  {
   "property": "C06",
   "status": "proved",
   "theorems": [
    "Verif.Props.C06_encode_refuses",
    "Verif.Props.C06_decode_refuses",
    "Verif.Props.C06_decode_bound"
   ],
   "note": ""
  },
  {
   "property": "C07",
   "status": "proved",
   "theorems": [
    "Verif.Props.C07_generated",
    "Verif.Props.C07_library"
   ],
   "note": "library operations (C07_library) and every generated method (C07_generated)"
  },
  {
   "property": "C08",
   "status": "proved",
   "theorems": [
    "Verif.Props.C08_append_only"
   ],
   "note": ""
  },
  {
   "property": "C09",
   "status": "proved",
   "theorems": [
    "Verif.Props.C09_prefix"
   ],
   "note": ""
  },
  {
   "property": "C10",
   "status": "proved",
   "theorems": [
    "Verif.Props.C10_truncated"
   ],
   "note": ""
  },
  {
   "property": "C11",
   "status": "proved",
   "theorems": [
    "Verif.Props.C11_encode_aligned",
    "Verif.Props.C11_decode_aligned"
   ],
   "note": ""
  },
  {
   "property": "C12",
   "status": "proved",
   "theorems": [
    "Verif.Props.C12_encode"
   ],
   "note": "for specifications accepted by the decidable check `supported`"
  },
  {
   "property": "C13",
   "status": "proved",
   "theorems": [
    "Verif.Props.C13_accepts",
    "Verif.Props.C13_refuses",
    "Verif.Props.C13_success"
   ],
   "note": "both directions: every wire image is accepted, everything else refused"
  },
  {
   "property": "C14",
   "status": "proved",
   "theorems": [
    "Verif.Props.C14_round_trip"
   ],
   "note": ""
  },
  {
   "property": "C15",
   "status": "proved",
   "theorems": [
    "Verif.Props.C15_stable"
   ],
   "note": ""
  },
  {
   "property": "C16",
   "status": "proved",
   "theorems": [
    "Verif.Props.C16_unmodified"
   ],
   "note": ""
  },
  {
   "property": "C17",
   "status": "proved",
   "theorems": [
    "Verif.Props.C17_prefix_free"
   ],
   "note": ""
  },
  {
   "property": "C18",
   "status": "proved",
   "theorems": [
    "Verif.Props.C18_total"
   ],
   "note": ""
  },
  {
   "property": "C19",
   "status": "proved",
   "theorems": [
    "Verif.Props.C19_union",
    "Verif.Props.C19_values"
   ],
   "note": ""
  },
  {
   "property": "C20",
   "status": "proved",
   "theorems": [
    "Verif.Props.C20_undeclared"
   ],
   "note": "the code accepts what RFC 4506 calls an error; stated as the behaviour it has"
  },
  {
   "property": "C21",
   "status": "proved",
   "theorems": [
    "Verif.Props.C21_fresh",
    "Verif.Props.C21_stale"
   ],
   "note": "C21_stale is a concrete witness of the defect; C21_fresh the positive part"
  },
  {
   "property": "C22",
   "status": "proved",
   "theorems": [
    "Verif.Props.C22_wrong_bytes",
    "Verif.Props.C22_panics"
   ],
   "note": "the property is a defect: two concrete witnesses; the positive part is C12-C18 for supported specifications"
  },
  {
   "property": "C23",
   "status": "proved",
   "theorems": [
    "Verif.Props.C23_fixed",
    "Verif.Props.C23_element",
    "Verif.Props.C23_exception"
   ],
   "note": "the property is a defect; C23_exception shows that the exception is one"
  },
  {
   "property": "C24",
   "status": "proved",
   "theorems": [
    "Verif.Props.C24_refuses"
   ],
   "note": ""
  },
  {
   "property": "C25",
   "status": "proved",
   "theorems": [
    "Verif.Props.C25_rfc1057",
    "Verif.Props.C25_rfc1813",
    "Verif.Props.C25_supported",
    "Verif.Props.C25_rfc1057_text",
    "Verif.Props.C25_rfc1813_text"
   ],
   "note": "the files prot.x, types.go, xdr.go of both packages are embedded character for character (tools/embed.py, trusted to copy) and read by the scanners and parsers of the model; the comparison is computed by the kernel"
  },
  {
   "property": "C26",
   "status": "proved",
   "theorems": [
    "Verif.Props.C26_bytes",
    "Verif.Props.C26_array_alloc"
   ],
   "note": ""
  },
  {
   "property": "C27",
   "status": "proved",
   "theorems": [
    "Verif.Props.C27_lookup",
    "Verif.Props.C27_prog",
    "Verif.Props.C27_vers",
    "Verif.Props.C27_sequence"
   ],
   "note": ""
  },
  {
   "property": "C28",
   "status": "proved",
   "theorems": [
    "Verif.Props.C28_classify"
   ],
   "note": ""
  },
  {
   "property": "C29",
   "status": "proved",
   "theorems": [
    "Verif.Props.C29_reply",
    "Verif.Props.C29_silent",
    "Verif.Props.C29_disorderly"
   ],
   "note": ""
  },
  {
   "property": "C30",
   "status": "proved",
   "theorems": [
    "Verif.Props.C30_invocations",
    "Verif.Props.C30_faithful"
   ],
   "note": ""
  },
  {
   "property": "C31",
   "status": "proved",
   "theorems": [
    "Verif.Props.C31_records",
    "Verif.Props.C31_decomposition",
    "Verif.Props.C31_chunking",
    "Verif.Props.C31_online",
    "Verif.Props.C31_eof_ambiguous"
   ],
   "note": ""
  },
  {
   "property": "C32",
   "status": "proved",
   "theorems": [
    "Verif.Props.C32_client",
    "Verif.Props.C32_server"
   ],
   "note": ""
  },
  {
   "property": "C33",
   "status": "proved",
   "theorems": [
    "Verif.Props.C33_outcome",
    "Verif.Props.C33_output",
    "Verif.Props.C33_quiescent",
    "Verif.Props.C33_classify",
    "Verif.Props.C33_silent",
    "Verif.Props.C33_reply",
    "Verif.Props.C33_progress",
    "Verif.Props.C33_linear",
    "Verif.Props.C33_torn",
    "Verif.Props.C33_not_serial"
   ],
   "note": "for transports that take each Write as a unit (C33_torn: needed); linearizability for handlers with one atomic action (C33_not_serial: needed)"
  },
  {
   "property": "C34",
   "status": "proved",
   "theorems": [
    "Verif.Props.C34_exclusive",
    "Verif.Props.C34_contents",
    "Verif.Props.C34_requests"
   ],
   "note": "sync.Pool may return any element or none, or drop elements, at any time"
  },
  {
   "property": "C35",
   "status": "proved",
   "theorems": [
    "Verif.Props.C35_reused",
    "Verif.Props.C35_kept",
    "Verif.Props.C35_slices"
   ],
   "note": "the property is a hazard: C35_kept is an execution for every pair of calls"
  },
  {
   "property": "C36",
   "status": "proved",
   "theorems": [
    "Verif.Props.C36_sent",
    "Verif.Props.C36_refused",
    "Verif.Props.C36_client"
   ],
   "note": ""
  },
  {
   "property": "C37",
   "status": "proved",
   "theorems": [
    "Verif.Props.C37_success",
    "Verif.Props.C37_result",
    "Verif.Props.C37_untouched"
   ],
   "note": ""
  },
  {
   "property": "C38",
   "status": "proved",
   "theorems": [
    "Verif.Props.C38_counter",
    "Verif.Props.C38_xid",
    "Verif.Props.C38_distinct",
    "Verif.Props.C38_wraps"
   ],
   "note": ""
  },
  {
   "property": "C39",
   "status": "proved",
   "theorems": [
    "Verif.Props.C39_exchange",
    "Verif.Props.C39_call",
    "Verif.Props.C39_session"
   ],
   "note": ""
  },
  {
   "property": "C40",
   "status": "proved",
   "theorems": [
    "Verif.Props.C40_returns",
    "Verif.Props.C40_argument",
    "Verif.Props.C40_wrapper",
    "Verif.Props.C40_table",
    "Verif.Props.C40_large",
    "Verif.Props.C40_unnamed_arg",
    "Verif.Props.C40_unnamed_result",
    "Verif.Props.C40_shipped"
   ],
   "note": ""
  },
  {
   "property": "C41",
   "status": "proved",
   "theorems": [
    "Verif.Props.C41_no_reply"
   ],
   "note": ""
  },
  {
   "property": "C42",
   "status": "proved",
   "theorems": [
    "Verif.Props.C42_ranges"
   ],
   "note": ""
  },
  {
   "property": "C43",
   "status": "proved",
   "theorems": [
    "Verif.Props.C43_outcomes",
    "Verif.Props.C43_failure",
    "Verif.Props.C43_success",
    "Verif.Props.C43_touches",
    "Verif.Props.C43_destroyed",
    "Verif.Props.C43_half",
    "Verif.Props.C43_silent",
    "Verif.Props.C43_alias",
    "Verif.Props.C43_stale"
   ],
   "note": "for runs whose temporary files can be removed and whose file names differ; failures after the output file was opened are described by C43_outcomes, with witnesses C43_destroyed, C43_half, C43_silent, C43_alias"
  },
  {
   "property": "C44",
   "status": "proved",
   "theorems": [
    "Verif.Props.C44_injective",
    "Verif.Props.C44_collision",
    "Verif.Props.C44_exported",
    "Verif.Props.C44_size",
    "Verif.Props.C44_label",
    "Verif.Props.C44_enum"
   ],
   "note": "C44_collision, C44_label, C44_enum are witnesses of what the mapping does not guarantee"
  },
  {
   "property": "C45",
   "status": "proved",
   "theorems": [
    "Verif.Props.C45_unambiguous",
    "Verif.Props.C45_derives",
    "Verif.Props.C45_only",
    "Verif.Props.C45_injective",
    "Verif.Props.C45_parse",
    "Verif.Props.C45_text",
    "Verif.Props.C45_text_unique",
    "Verif.Props.C45_writable",
    "Verif.Props.C45_newline_refused",
    "Verif.Props.C45_newline_supplied",
    "Verif.Props.C45_refused"
   ],
   "note": "the grammar xdr.y as derivations, a parser proved equivalent to it (that goyacc's tables implement the grammar is trusted), and the scanner of go/scanner with scan.go as functions on text; C45_newline_refused, C45_newline_supplied, C45_refused are witnesses of what is refused or supplied"
  },
  {
   "property": "C46",
   "status": "proved",
   "theorems": [
    "Verif.Props.C46_text",
    "Verif.Props.C46_two",
    "Verif.Props.C46_panics",
    "Verif.Props.C46_raw_type"
   ],
   "note": "C46_raw_type is a witness that the condition on `type` and `map` is needed; that format.Source keeps the meaning of what it formats is trusted"
  },
  {
   "property": "C47",
   "status": "proved",
   "theorems": [
    "Verif.Props.C47_succeeds",
    "Verif.Props.C47_output",
    "Verif.Props.C47_refuses"
   ],
   "note": "assuming format.Source accepts syntactically valid Go and keeps its meaning, that goyacc's parser implements the grammar, and that no Fprintf is cut short (C43_silent)"
  },
  {
   "property": "C48",
   "status": "proved",
   "theorems": [
    "Verif.Props.C48_compiles",
    "Verif.Props.C48_text",
    "Verif.Props.C48_shipped",
    "Verif.Props.C48_names",
    "Verif.Props.C48_consts",
    "Verif.Props.C48_files"
   ],
   "note": "the static rules are a specification of the fragment of Go that is printed (Verif.Spec.GoStatic); C48_names, C48_consts, C48_files are witnesses of what the check has to exclude"
  },
  {
   "property": "C49",
   "status": "proved",
   "theorems": [
    "Verif.Props.C49_fuzz",
    "Verif.Props.C49_shipped"
   ],
   "note": ""
  },
  {
   "property": "C50",
   "status": "proved",
   "theorems": [
    "Verif.Props.C50_decode",
    "Verif.Props.C50_recursion"
   ],
   "note": ""
  },
  {
   "property": "C51",
   "status": "proved",
   "theorems": [
    "Verif.Props.C51_reply",
    "Verif.Props.C51_distinct",
    "Verif.Props.C51_swapped",
    "Verif.Props.C51_mismatch"
   ],
   "note": "statements of Call are taken as atomic (a data race on the uint32 counter itself has no semantics in Go); C51_swapped and C51_mismatch are concrete executions with the model of the server"
  },
  {
   "property": "C52",
   "status": "proved",
   "theorems": [
    "Verif.Props.C52_bounds",
    "Verif.Props.C52_alloc",
    "Verif.Props.C52_goroutines"
   ],
   "note": "C52_alloc and C52_goroutines are families of executions showing that there is no smaller bound"
  },
  {
   "property": "C53",
   "status": "proved",
   "theorems": [
    "Verif.Props.C53_program",
    "Verif.Props.C53_encode",
    "Verif.Props.C53_decode",
    "Verif.Props.C53_short",
    "Verif.Props.C53_string_encode",
    "Verif.Props.C53_string_decode",
    "Verif.Props.C53_bytes_encode",
    "Verif.Props.C53_bytes_decode",
    "Verif.Props.C53_array_encode",
    "Verif.Props.C53_array_decode"
   ],
   "note": "the program has packages xdr and rfc1057 and any others (Others, Lang/Prog); the files are embedded character for character (tools/embedgo.py, trusted to copy), read by a parser for the fragment of Go they use, and run by the semantics Verif.Lang.Sem, which are trusted to be Go's"
  },
  {
   "property": "C54",
   "status": "proved",
   "theorems": [
    "Verif.Props.C54_sent",
    "Verif.Props.C54_refused",
    "Verif.Props.C54_success",
    "Verif.Props.C54_untouched",
    "Verif.Props.C54_new"
   ],
   "note": "the transport, and the Xdr methods of the arguments and results, are parameters (any that satisfy Transport, Writes and Receives; the types of xdr/types.go and the generated types do)"
  },
  {
   "property": "C55",
   "status": "proved",
   "theorems": [
    "Verif.Props.C55_request"
   ],
   "note": "handlers, transport, pool and stderr are parameters (any that satisfy Handles, Transport, App, Back); a concrete instance is in Verif.Lang.DemoNet"
  },
  {
   "property": "C56",
   "status": "proved",
   "theorems": [
    "Verif.Props.C56_connection"
   ],
   "note": "goroutines are run when they are started; for all schedules see C33, about the hand-written model"
  },
  {
   "property": "C57",
   "status": "proved",
   "theorems": [
    "Verif.Props.C57_exchange"
   ],
   "note": ""
  },
  {
   "property": "C58",
   "status": "proved",
   "theorems": [
    "Verif.Props.C58_program",
    "Verif.Props.C58_prints"
   ],
   "note": "fmt.Fprintf and the two flags out.go reads are parameters with the meaning given in Verif.Lang.OutRun (one call, one write); values stand for definitions by IsDefn"
  },
  {
   "property": "C59",
   "status": "proved",
   "theorems": [
    "Verif.Props.C59_program",
    "Verif.Props.C59_derives",
    "Verif.Props.C59_runs"
   ],
   "note": "the automaton that goyacc generates is not part of this claim (C62, C63 have it): here the actions of a derivation run in the order of reductions; Lang/Yacc says what the actions are as Go"
  },
  {
   "property": "C60",
   "status": "proved",
   "theorems": [
    "Verif.Props.C60_token",
    "Verif.Props.C60_end",
    "Verif.Props.C60_codes",
    "Verif.Props.C60_file"
   ],
   "note": "go/scanner is a parameter: any function that says what Scan returns in a state of the world; IsTok is how tokens of Go are named by go/token"
  },
  {
   "property": "C61",
   "status": "proved",
   "theorems": [
    "Verif.Props.C61_main",
    "Verif.Props.C61_failure",
    "Verif.Props.C61_success",
    "Verif.Props.C61_touches"
   ],
   "note": "the system, go/format and the generated parser are parameters; of the parser it is assumed that it does some sequence of writes and then returns or panics (Does); names of files are ASCII"
  },
  {
   "property": "C62",
   "status": "proved",
   "theorems": [
    "Verif.Props.C62_tables",
    "Verif.Props.C62_parses",
    "Verif.Props.C62_accepts",
    "Verif.Props.C62_unique"
   ],
   "note": "goyacc's tables are not in the repository: the theorems are about all tables that pass Lr.valid; xdrLr is one such set, so the check can be passed"
  },
  {
   "property": "C63",
   "status": "proved",
   "theorems": [
    "Verif.Props.C63_succeeds",
    "Verif.Props.C63_output",
    "Verif.Props.C63_rejects",
    "Verif.Props.C63_refuses",
    "Verif.Props.C63_unknown",
    "Verif.Props.C63_touches"
   ],
   "note": "go/scanner, go/format and the system are parameters, with Scans and FormatsGo as assumptions; type and map as raw names are excluded (rawOk), as in C46; os.Remove does not fail and the file names are distinct, as in C43; no short write (C43 has those); yyParser is the limit of runs with a bound on steps, Lang/YaccRun"
  },
  {
   "property": "C64",
   "status": "proved",
   "theorems": [
    "Verif.Props.C64_encode",
    "Verif.Props.C64_accepts",
    "Verif.Props.C64_refuses",
    "Verif.Props.C64_new",
    "Verif.Props.C64_rfc1057"
   ],
   "note": "that calls may be nested deep enough and loops run long enough is assumed (Returns, Ext.loops); memory is unlimited; IsText says that the declarations are there as syntax trees (proved of the files of rfc1057)"
  },
  {
   "property": "C65",
   "status": "proved",
   "theorems": [
    "Verif.Props.C65_package",
    "Verif.Props.C65_new",
    "Verif.Props.C65_encode",
    "Verif.Props.C65_accepts",
    "Verif.Props.C65_refuses",
    "Verif.Props.C65_rfc1813_files",
    "Verif.Props.C65_rfc1813_encode",
    "Verif.Props.C65_rfc1813_accepts",
    "Verif.Props.C65_rfc1813_refuses"
   ],
   "note": "the conditions of C63 and C48 (SpecFile); the package is not called xdr, because Lang/Sem tells packages apart by name; -c is one of the Go integer types named in constTypes; GoLower was made to refuse a second wrapper type in a version"
  },
  {
   "property": "C66",
   "status": "proved",
   "theorems": [
    "Verif.Props.C66_void",
    "Verif.Props.C66_calls",
    "Verif.Props.C66_refuses",
    "Verif.Props.C66_files",
    "Verif.Props.C66_rfc1813",
    "Verif.Props.C66_rfc1057"
   ],
   "note": "conversions that Go makes from the types of variables ((*T)(&x) for in.Xdr(args) and for &out as an interface value) are written into the package by typedPkg (Lang/Static); the handler is outside of the program (Ext.ext) and is taken not to change the wrapper's own variables, to which it has no pointers"
  },
  {
   "property": "C67",
   "status": "proved",
   "theorems": [
    "Verif.Props.C67_regs",
    "Verif.Props.C67_connection",
    "Verif.Props.C67_files"
   ],
   "note": "the user's object is outside of the program (Ext.ext); Object says that its methods do what a model hi does, with results whose types unfold at most d times and that fit into a record (Small); the generated package is one of the packages besides xdr and rfc1057, and has the conversions of typedPkg written into it; requests are handled one at a time (atOnce)"
  },
  {
   "property": "C68",
   "status": "proved",
   "theorems": [
    "Verif.Props.C68_call",
    "Verif.Props.C68_files"
   ],
   "note": "client and server are the same program in two worlds; the result variable has no pointers to other memory when the call starts (a new variable has none), and is apart from the argument and the client; the server is asked to handle one request and then the end of the connection, requests being handled one at a time (atOnce); conditions on object and package as in C67; a result that is not within its bounds is not covered here (C67 says what is answered)"
  },
  {
   "property": "C69",
   "status": "proved",
   "theorems": [
    "Verif.Props.C69_session",
    "Verif.Props.C69_files"
   ],
   "note": "as C68; the variables of one call are apart from those of the others; what is said of a result variable is said of the moment its call returns; the first n requests need fewer rounds of Run than the bound on loops (Ext.loops), and each request is shorter than 2^32 bytes"
  },
  {
   "property": "C70",
   "status": "proved",
   "theorems": [
    "Verif.Props.C70_failure",
    "Verif.Props.C70_call",
    "Verif.Props.C70_files"
   ],
   "note": "as C57 and C68; a version without procedures is not registered at all, so C70_call asks for one procedure at least; which handlers are run is said by the state that the server ends in"
  },
  {
   "property": "C71",
   "status": "proved",
   "theorems": [
    "Verif.Props.C71_connection"
   ],
   "note": "as C56 (requests are handled one at a time, handlers as Handles says); the calls of the registration functions are made one after the other before Run, and the slices they are given exist before the server is made"
  },
  {
   "property": "C72",
   "status": "proved",
   "theorems": [
    "Verif.Props.C72_connection",
    "Verif.Props.C72_files"
   ],
   "note": "conditions on objects and packages as in C67; the registration functions are called before MakeServer; the objects have one state together, of which each model hi says what its methods do"
  },
  {
   "property": "C73",
   "status": "proved",
   "theorems": [
    "Verif.Props.C73_call"
   ],
   "note": "conditions as in C68 and C72; the concrete case has two packages with the same numbers, of which the one registered last is called"
  },
  {
   "property": "C74",
   "status": "proved",
   "theorems": [
    "Verif.Props.C74_call"
   ],
   "note": "conditions as in C70 and C72; client and server are the same program, of which the client's package is any generated one"
  }
 ]
}