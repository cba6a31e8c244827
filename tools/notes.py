NOTES.update({
"C25": "transcriptions made by tools/transcribe.py (trusted: the script); equality computed by the kernel",
"C22": "the property is a defect: two concrete witnesses; the positive part is C12-C18 for supported specifications",
"C07": "library operations (C07_library) and every generated method (C07_generated)",
"C12": "for specifications accepted by the decidable check `supported`",
"C13": "both directions: every wire image is accepted, everything else refused",
"C20": "the code accepts what RFC 4506 calls an error; stated as the behaviour it has",
"C21": "C21_stale is a concrete witness of the defect; C21_fresh the positive part",
})
NOTES.update({
"C33": "for transports that take each Write as a unit (C33_torn: needed); linearizability for handlers with one atomic action (C33_not_serial: needed)",
"C34": "sync.Pool may return any element or none, or drop elements, at any time",
"C35": "the property is a hazard: C35_kept is an execution for every pair of calls",
})
NOTES.update({
"C43": "for runs whose temporary files can be removed and whose file names differ; failures after the output file was opened are described by C43_outcomes, with witnesses C43_destroyed, C43_half, C43_silent, C43_alias",
"C44": "C44_collision, C44_label, C44_enum are witnesses of what the mapping does not guarantee",
})
NOTES.update({
"C45": "the grammar xdr.y as derivations, a parser proved equivalent to it (that goyacc's tables implement the grammar is trusted), and the scanner of go/scanner with scan.go as functions on text; C45_newline_refused, C45_newline_supplied, C45_refused are witnesses of what is refused or supplied",
})
NOTES.update({
"C46": "C46_raw_type is a witness that the condition on `type` and `map` is needed; that format.Source keeps the meaning of what it formats is trusted",
})
NOTES.update({
"C25": "the files prot.x, types.go, xdr.go of both packages are embedded character for character (tools/embed.py, trusted to copy) and read by the scanners and parsers of the model; the comparison is computed by the kernel",
"C47": "assuming format.Source accepts syntactically valid Go and keeps its meaning, that goyacc's parser implements the grammar, and that no Fprintf is cut short (C43_silent)",
})
NOTES.update({
"C23": "the property is a defect; C23_exception shows that the exception is one",
"C48": "the static rules are a specification of the fragment of Go that is printed (Verif.Spec.GoStatic); C48_names, C48_consts, C48_files are witnesses of what the check has to exclude",
})
NOTES.update({
"C51": "statements of Call are taken as atomic (a data race on the uint32 counter itself has no semantics in Go); C51_swapped and C51_mismatch are concrete executions with the model of the server",
"C52": "C52_alloc and C52_goroutines are families of executions showing that there is no smaller bound",
})
NOTES.update({
"C53": "the program has packages xdr and rfc1057 and any others (Others, Lang/Prog); the files are embedded character for character (tools/embedgo.py, trusted to copy), read by a parser for the fragment of Go they use, and run by the semantics Verif.Lang.Sem, which are trusted to be Go's",
"C54": "the transport, and the Xdr methods of the arguments and results, are parameters (any that satisfy Transport, Writes and Receives; the types of xdr/types.go and the generated types do)",
"C55": "handlers, transport, pool and stderr are parameters (any that satisfy Handles, Transport, App, Back); a concrete instance is in Verif.Lang.DemoNet",
"C56": "goroutines are run when they are started; for all schedules see C33, about the hand-written model",
"C58": "fmt.Fprintf and the two flags out.go reads are parameters with the meaning given in Verif.Lang.OutRun (one call, one write); values stand for definitions by IsDefn",
"C59": "the automaton that goyacc generates is not part of this claim (C62, C63 have it): here the actions of a derivation run in the order of reductions; Lang/Yacc says what the actions are as Go",
})
NOTES.update({
"C60": "go/scanner is a parameter: any function that says what Scan returns in a state of the world; IsTok is how tokens of Go are named by go/token",
"C61": "the system, go/format and the generated parser are parameters; of the parser it is assumed that it does some sequence of writes and then returns or panics (Does); names of files are ASCII",
"C62": "goyacc's tables are not in the repository: the theorems are about all tables that pass Lr.valid; xdrLr is one such set, so the check can be passed",
"C63": "go/scanner, go/format and the system are parameters, with Scans and FormatsGo as assumptions; type and map as raw names are excluded (rawOk), as in C46; os.Remove does not fail and the file names are distinct, as in C43; no short write (C43 has those); yyParser is the limit of runs with a bound on steps, Lang/YaccRun",
"C64": "that calls may be nested deep enough and loops run long enough is assumed (Returns, Ext.loops); memory is unlimited; IsText says that the declarations are there as syntax trees (proved of the files of rfc1057)",
"C66": "conversions that Go makes from the types of variables ((*T)(&x) for in.Xdr(args) and for &out as an interface value) are written into the package by typedPkg (Lang/Static); the handler is outside of the program (Ext.ext) and is taken not to change the wrapper's own variables, to which it has no pointers",
"C67": "the user's object is outside of the program (Ext.ext); Object says that its methods do what a model hi does, with results whose types unfold at most d times and that fit into a record (Small); the generated package is one of the packages besides xdr and rfc1057, and has the conversions of typedPkg written into it; requests are handled one at a time (atOnce)",
"C68": "client and server are the same program in two worlds; the result variable has no pointers to other memory when the call starts (a new variable has none), and is apart from the argument and the client; the server is asked to handle one request and then the end of the connection, requests being handled one at a time (atOnce); conditions on object and package as in C67; a result that is not within its bounds is not covered here (C67 says what is answered)",
"C69": "as C68; the variables of one call are apart from those of the others; what is said of a result variable is said of the moment its call returns; the first n requests need fewer rounds of Run than the bound on loops (Ext.loops), and each request is shorter than 2^32 bytes",
"C70": "as C57 and C68; a version without procedures is not registered at all, so C70_call asks for one procedure at least; which handlers are run is said by the state that the server ends in",
"C71": "as C56 (requests are handled one at a time, handlers as Handles says); the calls of the registration functions are made one after the other before Run, and the slices they are given exist before the server is made",
"C72": "conditions on objects and packages as in C67; the registration functions are called before MakeServer; the objects have one state together, of which each model hi says what its methods do",
"C73": "conditions as in C68 and C72; the concrete case has two packages with the same numbers, of which the one registered last is called",
"C74": "conditions as in C70 and C72; client and server are the same program, of which the client's package is any generated one",
"C65": "the conditions of C63 and C48 (SpecFile); the package is not called xdr, because Lang/Sem tells packages apart by name; -c is one of the Go integer types named in constTypes; GoLower was made to refuse a second wrapper type in a version",
})
