{"id": "C01", "title": "Integers travel as RFC 4506 big-endian and round-trip", "statement": "Encoding an int32/uint32/int64/uint64 appends exactly its 4- or 8-byte big-endian two's-complement image to whatever the writer held; decoding those bytes in front of any trailing data returns the same number, leaves exactly the trailing data, and reports no error.", "quantifier": "every integer value, every prior writer content, every trailing input", "why_tests_cant": "2^32 and 2^64 values times arbitrary buffer contexts; a test samples a handful", "anchors": ["xdr/lib.go: XdrS32, XdrU32, XdrS64, XdrU64, xdrRW"]}
{"id": "C02", "title": "Booleans encode canonically and decode leniently", "statement": "Encoding a bool appends the 4-byte word 0 or 1; decoding any 4-byte word yields false exactly when the word is 0, consumes four bytes and reports no error.", "quantifier": "both booleans, all 2^32 input words, every context", "why_tests_cant": "the lenient decode ranges over all 2^32 words", "anchors": ["xdr/lib.go: XdrBool"]}
{"id": "C03", "title": "Variable-length opaque data: wire image and round-trip", "statement": "Encoding a byte slice within its bound appends length word, the bytes, and zero padding to a multiple of four; decoding that image before any trailing data returns the same bytes, leaves exactly the trailing data, and reports no error.", "quantifier": "every byte slice shorter than 2^32, every bound it respects, every context", "why_tests_cant": "unbounded lengths; padding bugs show only at particular residues/lengths", "anchors": ["xdr/lib.go: XdrVarArray, xdrR, xdrRW"]}
{"id": "C04", "title": "Strings: wire image and round-trip", "statement": "Same as C03 for strings (arbitrary bytes).", "quantifier": "every string shorter than 2^32 bytes, every bound it respects, every context", "why_tests_cant": "unbounded lengths and contents", "anchors": ["xdr/lib.go: XdrString"]}
{"id": "C05", "title": "Fixed-length opaque data: wire image and round-trip", "statement": "Encoding a fixed-size byte array appends its bytes and zero padding to a multiple of four and leaves the array unchanged; decoding into an array of the same size returns those bytes whatever the target held.", "quantifier": "every array size and content, every target content, every context", "why_tests_cant": "array size is a parameter of the specification", "anchors": ["xdr/lib.go: XdrArray"]}
{"id": "C06", "title": "Declared maximum lengths are enforced in both directions", "statement": "An opaque or string longer than its declared maximum (or than 2^32-1) is refused by the encoder with an error and nothing is written; a length word above the maximum is refused by the decoder with an error; no successful decode ever delivers a value longer than its maximum.", "quantifier": "every maximum, every value, every input byte string", "why_tests_cant": "bound and input range over all numbers and byte strings", "anchors": ["xdr/lib.go: XdrVarArray, XdrString"]}
{"id": "C07", "title": "Errors are sticky", "statement": "Once an XdrState carries an error, no library call and no generated Xdr method changes the buffer, the error or the value it is given.", "quantifier": "every library operation, every type of every accepted specification, every state in error, every value", "why_tests_cant": "quantifies over all operation sequences after any failure point and all generated types", "anchors": ["xdr/lib.go: all Xdr* functions", "out.go: goXdr"]}
{"id": "C08", "title": "Encoding only appends", "statement": "Whatever was in the writer before an encode call is still there, unchanged and first, afterwards, whether or not the call fails.", "quantifier": "every generated type, every value, every prior content", "why_tests_cant": "universally quantified over values and contents, including failing ones", "anchors": ["xdr/lib.go: xdrRW", "out.go: goXdr"]}
{"id": "C09", "title": "Decoding consumes a prefix and ignores what follows", "statement": "A successful decode consumes some prefix p of its input and leaves exactly the rest; the value and the consumed prefix are the same for any other continuation of p.", "quantifier": "every generated type, every input, every continuation", "why_tests_cant": "infinitely many continuations", "anchors": ["xdr/lib.go: xdrRW, xdrR", "out.go: goXdr"]}
{"id": "C10", "title": "Truncated messages are rejected", "statement": "If a decode succeeds consuming p, decoding any proper prefix of p (with nothing after it) reports an error.", "quantifier": "every generated type, every successful input, every cut point", "why_tests_cant": "all cut points of all messages", "anchors": ["xdr/lib.go: xdrRW, xdrR", "out.go: goXdr"]}
{"id": "C11", "title": "Everything on the wire is four-byte aligned", "statement": "The number of bytes a successful encode appends, and a successful decode consumes, is a multiple of four.", "quantifier": "every generated type, every value, every input", "why_tests_cant": "must hold for every composite type", "anchors": ["xdr/lib.go", "out.go: goXdr"]}
{"id": "C12", "title": "Generated encoders implement RFC 4506", "statement": "For every specification the generator supports, each generated type's encoder, run on a well-typed value, succeeds with exactly the RFC 4506 image of the value, or reports an error when the value has none (a bound is exceeded).", "quantifier": "every supported specification, every type in it (including recursive ones), every well-typed value", "why_tests_cant": "quantifies over all specifications and values, not only the two shipped ones", "anchors": ["out.go: goXdr methods, emitTypedef, emitStruct, emitUnion, emitEnum", "xdr/lib.go"]}
{"id": "C13", "title": "Generated decoders accept exactly the wire images", "statement": "For every supported specification, decoding into a fresh (zero) value succeeds exactly when the input starts with a wire image of some value (booleans: any non-zero word is true; padding bytes are ignored), and delivers that value with the unselected union arms left zero.", "quantifier": "every supported specification, every type, every input byte string", "why_tests_cant": "all inputs, well-formed or not", "anchors": ["out.go: goXdr methods", "xdr/lib.go"]}
{"id": "C14", "title": "Encode/decode round-trip for generated types", "statement": "Decoding the encoding of any well-typed encodable value into a fresh value of its type succeeds, leaves any trailing data, and returns the value up to what is not on the wire (unselected union arms are zero, nil slices become empty).", "quantifier": "every supported specification, type and value", "why_tests_cant": "all values of all types, recursive lists of any length", "anchors": ["out.go", "xdr/helper.go: EncodeBuf, DecodeBuf"]}
{"id": "C15", "title": "Decode-encode-decode is stable", "statement": "If a decode into a fresh value succeeds then encoding the result succeeds, and decoding that encoding into a fresh value gives an identical value (the property the repository's fuzz tests sample).", "quantifier": "every supported specification, type, and input byte string", "why_tests_cant": "the fuzzers sample it for two types; it is claimed for every input and type", "anchors": ["rfc1057/fuzz_test.go", "rfc1813/fuzz_test.go", "out.go"]}
{"id": "C16", "title": "Encoding does not modify the value", "statement": "Running a generated encoder leaves the value it encodes exactly as it was, on success and on failure.", "quantifier": "every supported specification, type, value, writer state", "why_tests_cant": "the same generated method also writes through the pointer when decoding", "anchors": ["out.go: goXdr", "xdr/lib.go"]}
{"id": "C17", "title": "Encoding is injective and prefix-free", "statement": "If the encodings of two encodable values of one type are related by prefix, then they are equal and the values agree on everything that is on the wire.", "quantifier": "every supported specification, type, pair of values", "why_tests_cant": "pairs of values of all types", "anchors": ["out.go", "xdr/lib.go"]}
{"id": "C18", "title": "Generated code never panics and always finishes", "statement": "Decoding any byte string into a well-typed value, and encoding any well-typed finite value, ends normally (with or without a reported error): no index out of range, no nil dereference, no endless recursion.", "quantifier": "every supported specification, type, input byte string and value", "why_tests_cant": "must hold for every hostile input and every recursive type", "anchors": ["out.go: goXdr", "xdr/lib.go"]}
{"id": "C19", "title": "Unions put exactly the selected arm on the wire", "statement": "A union is encoded as its discriminant followed by the arm whose label list contains it, else the default arm if there is one, else nothing; all labels of one arm behave alike.", "quantifier": "every union with any number of arms and labels, every discriminant value", "why_tests_cant": "fallthrough chains of any length; every 32-bit discriminant", "anchors": ["out.go: typeUnion.goXdr", "rfc1813/xdr.go: Createhow3.Xdr, Mknoddata3.Xdr"]}
{"id": "C20", "title": "An undeclared discriminant is not an error", "statement": "A union without default whose discriminant matches no label encodes and decodes as the bare discriminant without error (RFC 4506 calls this an error; README lists enum validation as TODO).", "quantifier": "every union without default, every unlisted discriminant", "why_tests_cant": "a deviation that holds for all unlisted values", "anchors": ["out.go: typeUnion.goXdr", "README.md"]}
{"id": "C21", "title": "Decoding into a used value keeps stale data", "statement": "Decoding an absent optional does not clear the pointer in the target: decoding into a value that was used before can deliver data that was not in the message. Decoding into a fresh value cannot.", "quantifier": "existence of such a target and message; freshness result for every message", "why_tests_cant": "shows the failure of a property users may assume", "anchors": ["out.go: declTypePtr.goXdr", "rfc1057/xdr.go: Pmaplist.Xdr"]}
{"id": "C22", "title": "Inline nested variable arrays are miscompiled", "statement": "A specification with a variable-length array of an inline struct that itself contains a variable-length array yields a decoder that does not round-trip, because the inner loop variable captures the outer index; specifications without such nesting are unaffected.", "quantifier": "existence of a specification and value; all specifications without nesting", "why_tests_cant": "the shipped specifications do not contain the pattern", "anchors": ["out.go: declTypeVarArray.goXdr"]}
{"id": "C23", "title": "Fixed-length arrays of non-opaque elements are not usable", "statement": "A specification with a declaration `T name[n]` (T not opaque), at any depth of any definition, yields a package that the Go compiler refuses, for every n and every T except inline structures without content: the code dereferences an element that is not a pointer.", "quantifier": "every specification, every place of the array in it, every element type and size", "why_tests_cant": "no shipped specification uses the construct", "anchors": ["out.go: declTypeArray.goXdr"]}
{"id": "C24", "title": "The generator refuses exactly the unsupported types", "statement": "Generation aborts exactly for specifications whose codec would need float, double, quadruple, an inline enum, or a void union discriminant; it never emits a codec that silently skips such a field.", "quantifier": "every specification", "why_tests_cant": "all nestings of types", "anchors": ["out.go: typeFloat, typeDouble, typeQuadruple, typeEnum, typeUnion goXdr"]}
{"id": "C25", "title": "Shipped generated code is what the generator produces", "statement": "The checked-in rfc1057/xdr.go and rfc1813/xdr.go codecs are, statement for statement, the generator's output for the checked-in prot.x files.", "quantifier": "every type and every statement of both files", "why_tests_cant": "a complete comparison of two finite artefacts through the generator model", "anchors": ["rfc1057/xdr.go", "rfc1057/prot.x", "rfc1813/xdr.go", "rfc1813/prot.x", "out.go"]}
{"id": "C26", "title": "Memory for opaque data and strings is bounded by the input", "statement": "Decoding an opaque or string never creates a value larger than the bytes actually present; a variable array without a declared maximum, in contrast, allocates the announced count before checking that the data is there.", "quantifier": "every input; existence for arrays", "why_tests_cant": "ranges over every hostile length word", "anchors": ["xdr/lib.go: xdrR", "out.go: declTypeVarArray.goXdr", "rfc1813/xdr.go: Mountres3_ok.Xdr"]}
{"id": "C27", "title": "Handler table: last registration wins, others untouched", "statement": "After any sequence of Register/RegisterMany calls, the handler for (prog,vers,proc) is the one last registered for that triple; a program or version counts as known exactly if something was registered under it.", "quantifier": "every sequence of registrations, every triple", "why_tests_cant": "all histories", "anchors": ["rfc1057/server.go: Register, RegisterMany"]}
{"id": "C28", "title": "The server classifies every call correctly", "statement": "For every decodable CALL: rpcvers\u22602 gives MSG_DENIED/RPC_MISMATCH; otherwise unknown program gives PROG_UNAVAIL, unknown version PROG_MISMATCH, unknown procedure PROC_UNAVAIL, handler error GARBAGE_ARGS, else SUCCESS followed by the handler's result.", "quantifier": "every registration history, every call message, every handler", "why_tests_cant": "all combinations of history, header and handler outcome", "anchors": ["rfc1057/server.go: handleReqErr"]}
{"id": "C29", "title": "Replies are matched to calls", "statement": "Whatever is written for a request decodes as one REPLY message with the request's xid; nothing is written for input that is not a decodable CALL.", "quantifier": "every request byte string", "why_tests_cant": "all byte strings including hostile ones", "anchors": ["rfc1057/server.go: handleReqErr"]}
{"id": "C30", "title": "Handlers run only for calls addressed to them, once, on the argument bytes", "statement": "Processing one request invokes a handler at most once, only when rpcvers is 2 and the triple is registered, and hands it exactly the bytes following the call header.", "quantifier": "every request, every table", "why_tests_cant": "all requests and tables", "anchors": ["rfc1057/server.go: handleReqErr"]}
{"id": "C31", "title": "The server's reader splits the stream into records regardless of chunking", "statement": "However the transport cuts the byte stream into pieces, the sequence of requests handled is the sequence of complete records in the stream up to the first non-final fragment or the end; an incomplete record is never handled.", "quantifier": "every byte stream, every chunking", "why_tests_cant": "all segmentations of all streams", "anchors": ["rfc1057/server.go: Run"]}
{"id": "C32", "title": "Reply and request records carry a correct record mark", "statement": "Each message shorter than 2^31 bytes is written as a single last-fragment record whose mark gives its exact length; from 2^31 bytes on the mark is wrong.", "quantifier": "every message; every length", "why_tests_cant": "the failure needs 2 GiB messages", "anchors": ["rfc1057/server.go: handleReqErr", "rfc1057/client.go: Call"]}
{"id": "C33", "title": "Concurrent requests produce whole replies, one per call", "statement": "For every interleaving of the request goroutines of any number of connections, each connection's output is a concatenation of complete reply records, and at quiescence these are, up to order, exactly the replies to the requests read from that connection.", "quantifier": "every schedule, every number of connections and requests", "why_tests_cant": "all interleavings", "anchors": ["rfc1057/server.go: Run, handleReq"]}
{"id": "C34", "title": "Request buffers are never shared between live requests", "statement": "For every interleaving, a buffer handed out by the pool belongs to one request until that request has finished, so each request is processed on exactly the bytes that were read for it.", "quantifier": "every schedule and every pool behaviour (any element, or none, may be returned)", "why_tests_cant": "races show only under particular interleavings", "anchors": ["rfc1057/server.go: getReqBuf, putReqBuf, Run, handleReq"]}
{"id": "C35", "title": "Argument data must not be kept after the handler returns", "statement": "Opaque arguments alias the pooled request buffer: there is a schedule in which bytes retained by a handler change after it returned.", "quantifier": "existence of a schedule", "why_tests_cant": "needs the pool to recycle a buffer at the right moment", "anchors": ["rfc1057/server.go: putReqBuf", "xdr/lib.go: xdrR"]}
{"id": "C36", "title": "What a client call puts on the wire", "statement": "Call writes one record: the call header with a fresh xid, rpcvers 2, the client's program and version, the given procedure, credentials and verifier, followed by the encoded arguments; if the header or arguments cannot be encoded it writes nothing and returns an error.", "quantifier": "every client state, procedure, credential, argument", "why_tests_cant": "all values", "anchors": ["rfc1057/client.go: Call"]}
{"id": "C37", "title": "A client call succeeds only on the matching successful reply", "statement": "Call returns nil exactly when the next record is a decodable REPLY with this call's xid, MSG_ACCEPTED and SUCCESS, whose remaining bytes decode as the result; the result is that decoded value.", "quantifier": "every byte stream the server may send", "why_tests_cant": "all hostile replies", "anchors": ["rfc1057/client.go: Call"]}
{"id": "C38", "title": "Transaction ids do not repeat within 2^32 calls", "statement": "The n-th call of a client uses xid n mod 2^32; two calls fewer than 2^32 apart use different xids, whatever the outcomes of the calls.", "quantifier": "every number of calls and all outcomes", "why_tests_cant": "2^32 calls", "anchors": ["rfc1057/client.go: MakeClient, Call"]}
{"id": "C39", "title": "Client and server agree end to end", "statement": "A client call, sent to a server that registered a generated program, returns exactly the handler's result for the given arguments (up to what is on the wire), for every procedure of the program, and leaves the connection in step for the next call.", "quantifier": "every program definition, handler, argument and result within bounds, every sequence of calls", "why_tests_cant": "composes all layers for all values", "anchors": ["rfc1057/client.go", "rfc1057/server.go", "out.go: emitProg"]}
{"id": "C40", "title": "Generated registration tables route to the right method", "statement": "For every program definition, the generated table has one entry per procedure, with the declared program, version and procedure numbers and the wrapper that decodes the declared argument type, calls the method of that name and returns the declared result; on undecodable arguments the method is not called.", "quantifier": "every program definition", "why_tests_cant": "all definitions", "anchors": ["out.go: emitProg", "rfc1057/xdr.go: PMAP_PROG_PMAP_VERS_regs", "rfc1813/xdr.go: NFS_PROGRAM_NFS_V3_regs"]}
{"id": "C41", "title": "A call whose result cannot be encoded gets no reply", "statement": "If a handler returns a result that violates a declared bound, the server writes nothing for the call.", "quantifier": "every such call", "why_tests_cant": "a liveness hole that holds for all such results", "anchors": ["rfc1057/server.go: handleReqErr"]}
{"id": "C42", "title": "Version-mismatch replies do not carry the supported range", "statement": "PROG_MISMATCH and RPC_MISMATCH replies always announce the range 0..0, whatever versions are registered.", "quantifier": "every table and every mismatching call", "why_tests_cant": "deviation from RFC 1057 for all tables", "anchors": ["rfc1057/server.go: handleReqErr"]}
{"id": "C43", "title": "Generator failures leave the output files alone", "statement": "If reading, parsing or generating fails (the process panics or exits), existing output files are unchanged and the temporary files created by this run are gone.", "quantifier": "every failure point up to the final write", "why_tests_cant": "all crash points of the generator's file protocol", "anchors": ["main.go: main, refmt"]}
{"id": "C44", "title": "Identifier mapping", "statement": "Distinct specification identifiers map to distinct Go identifiers unless they differ only in the case of the first letter; references to constants resolve to their definition only if the constant's name starts with an upper-case letter or is used as a size.", "quantifier": "all identifiers", "why_tests_cant": "all pairs of names", "anchors": ["out.go: i, emitConst, emitEnum"]}
{"id": "C45", "title": "Parsing a specification recovers its structure", "statement": "For every specification AST, the token sequence of its concrete syntax parses back to exactly that AST.", "quantifier": "every specification of any size and nesting", "why_tests_cant": "all specifications", "anchors": ["xdr.y", "scan.go: Lex"]}
{"id": "C46", "title": "The generated text is Go and says what the generator's data structures say", "statement": "For every specification file the generator reads, what it prints \u2014 in one file or in two, whatever the spelling of the literals \u2014 is a syntactically valid Go file, can be parsed in only one way, and that parse declares exactly the constants, types, methods, interfaces, wrappers and registration tables of the specification (operator precedence, automatic semicolons and token boundaries included), provided no constant or size is called `type` or `map`.", "quantifier": "every specification text of any size and nesting, all names, all spellings of literals, all flags", "why_tests_cant": "printf-style generation: precedence and token boundaries depend on unbounded nesting", "anchors": ["out.go", "main.go: main (headers)", "xdr.y", "scan.go: Lex"]}
{"id": "C47", "title": "A run of the generator either produces the package of the specification or changes nothing", "statement": "For every specification file that can be read: if all types have codecs, the run succeeds unless a system call fails, and afterwards the output file (or both files, with -t) is Go that declares exactly the program of the specification; if some type has no codec, the run fails and all files are as before.", "quantifier": "every input file, all flags, all previous contents of the file system", "why_tests_cant": "composes parser, printer, formatter and file protocol for all inputs", "anchors": ["main.go: main, refmt", "out.go", "xdr.y", "scan.go: Lex"]}
{"id": "C48", "title": "The generated package compiles", "statement": "For every specification that passes a decidable check on names, types and ranges of constants, labels, and arguments of procedures, the generated Go package satisfies the static rules of Go: scopes, types of all expressions and statements, conversions, constant ranges, duplicate labels and declarations, unused variables and imports, finite types, method sets. Each kind of check is needed: otherwise there are specifications that the generator accepts and whose package Go refuses.", "quantifier": "every specification, all flags", "why_tests_cant": "the rules interact over unbounded nesting and all names", "anchors": ["out.go", "main.go: main (headers)"]}
{"id": "C49", "title": "The fuzz targets cannot fail", "statement": "On every input the repository's fuzz targets return without panicking: whatever decodes into a fresh value encodes without an error, and decoding the result into another fresh value gives a deeply equal value. The same holds for the corresponding target of every type of every supported specification.", "quantifier": "all byte strings, all types of all supported specifications", "why_tests_cant": "fuzzing samples finitely many of infinitely many inputs", "anchors": ["rfc1057/fuzz_test.go", "rfc1813/fuzz_test.go", "xdr/helper.go", "generated Xdr methods"]}
{"id": "C50", "title": "Recursion depth of the generated decoders", "statement": "Decoding a message of n bytes into a fresh value nests at most (n/4+1)*(T+1) method calls for a package with T types; and for linked lists the depth really grows linearly: for every n there is a message of 8n+8 bytes (a list of groups of an NFS export) that decodes without error but not with n nested calls.", "quantifier": "all messages, all types of all supported specifications", "why_tests_cant": "needs messages of unbounded size; exceeding the stack limit kills the process", "anchors": ["out.go: typeptr.emitXdr", "rfc1813/xdr.go: Groups3.Xdr"]}
{"id": "C51", "title": "Several goroutines using one client", "statement": "However the calls interleave, one that returns nil has read a whole record that is a successful reply with the transaction id the call used, and its result is what that reply says. Fewer than 2^32 calls use different ids if the increment of the counter and the copy into the request are not interrupted by other calls. Client has no lock, so they can be: then two calls may return each other's results, both with a nil error; and even with different ids both calls may fail although the server answered both.", "quantifier": "all interleavings of the statements of Call for any number of calls; all servers", "why_tests_cant": "races appear only under particular schedules", "anchors": ["rfc1057/client.go: Client, Call"]}
{"id": "C52", "title": "What peers can make the server allocate", "statement": "Every request buffer is shorter than 2^31 bytes and at most one is allocated per record mark received; each of these sizes is reached with four bytes from one peer, and the number of goroutines is not bounded: N empty records (4N bytes) may leave N of them running.", "quantifier": "all executions with any number of connections, all inputs, all schedules", "why_tests_cant": "a bound over all executions, and families of executions of unbounded size", "anchors": ["rfc1057/server.go: getReqBuf, Run"]}
{"id": "C53", "title": "The text of the library does what RFC 4506 says", "statement": "xdr/lib.go, xdr/helper.go and xdr/types.go, as the text reads: EncodeBuf of a value of a type of types.go gives its RFC 4506 encoding and changes no memory; DecodeBuf of bytes that begin with an encoding sets the variable to the value and changes nothing else; on too few bytes there is an error and the variable keeps its value. XdrString, XdrVarArray and XdrArray write and read exactly the RFC's images within the maximum and report an error otherwise. None of these calls panics.", "quantifier": "all values, all buffers, all memory contents and all shapes of slices (offset, length, spare capacity)", "why_tests_cant": "aliasing, spare capacity and all inputs", "anchors": ["xdr/lib.go", "xdr/helper.go", "xdr/types.go"]}
{"id": "C54", "title": "The text of Client.Call", "statement": "rfc1057/client.go, as the text reads: a call makes one write, the framed version 2 call message with the next transaction id, or none at all if something cannot be encoded; it returns nil exactly if the next record is the successful reply with that id and the result decodes; then the result variable has the decoded value and the stream is just behind the record; otherwise the variable is not touched. Nothing but the client, the arguments and the result changes, and there is no panic.", "quantifier": "all clients, argument and result objects, transports, input streams in all pieces, memory contents", "why_tests_cant": "all inputs and all ways the transport may cut them", "anchors": ["rfc1057/client.go: MakeClient, Call", "rfc1057/xdr.go"]}
{"id": "C55", "title": "The text of handleReq", "statement": "rfc1057/server.go, as the text reads: for a server with any list of registrations, handleReq writes for each request the response RFC 1057 prescribes (the last registration of a triple counts), or nothing if the request is not a call or the result cannot be encoded; the handler runs at most once; no memory changes except that of the application, the request buffer and new memory; there is no panic.", "quantifier": "all requests of less than 2^31 bytes (those of Run are), registrations, handlers (that return a result or an error), application states, and programs with any other packages", "why_tests_cant": "all byte strings and all tables", "anchors": ["rfc1057/server.go: handleReq, handleReqErr, putReqBuf"]}
{"id": "C56", "title": "The text of MakeServer, RegisterMany and Run", "statement": "rfc1057/server.go, as the text reads: on any byte stream, in any pieces, a server whose requests are handled one after the other comes to an end, returns an error that tells how the stream ended, and has written the responses to the records of the stream in order; handlers have seen the requests in this order.", "quantifier": "all byte streams, registrations, handlers, pool behaviours", "why_tests_cant": "streams of unbounded length", "anchors": ["rfc1057/server.go"]}
{"id": "C57", "title": "The texts of client and server together", "statement": "For any registered handler whose result can be encoded: what Call writes makes the server, however the bytes are cut, run the handler once on the argument bytes, write one reply and return io.EOF at the end; Call given that reply, however cut and whatever follows, returns nil exactly if the handler's result bytes decode, and the result variable has that value.", "quantifier": "all programs, handlers, arguments, results, cuttings", "why_tests_cant": "two programs and a network over all inputs", "anchors": ["rfc1057/client.go", "rfc1057/server.go", "rfc1057/xdr.go", "xdr/lib.go"]}
{"id": "C58", "title": "The text of out.go", "statement": "out.go, as the text reads: each of emitConst, emitTypedef, emitEnum, emitStruct, emitUnion, emitProg, given values that stand for a definition, ends and has written to the two output files, write by write, exactly the text the model prints for the definition (whose meaning as Go is C46), with literals spelled as in the specification; no memory changes. It panics exactly where the model says.", "quantifier": "all definitions of the XDR language, nested to any depth; all memory contents that represent them; both flags", "why_tests_cant": "recursion over all syntax trees, with line by line output", "anchors": ["out.go"]}
{"id": "C59", "title": "The text of xdr.y", "statement": "xdr.y, as the text reads: its rules derive a sequence of scanned tokens exactly if the model's grammar (C45) derives a specification from it, and running the actions, as the text gives them, in the order of any derivation writes to the two output files, write by write, exactly the text the model prints for that specification, or panics exactly where the model says.", "quantifier": "all token sequences with any spelling of literals, all derivations of them, both flags, all starting memory", "why_tests_cant": "an equivalence of two grammars, over all derivation trees, whose actions build and append to shared slices", "anchors": ["xdr.y", "out.go"]}
{"id": "C60", "title": "The text of Lex", "statement": "scan.go, as the text reads: each call of Lex takes one token from the scanner and returns the number that xdr.y gives to the terminal the model says, with identifiers and constants in lval.str and nothing else changed, or panics exactly if the model refuses the token; at the end of the file it returns 0, which no terminal has. Called until then it gives the terminals of the whole file in order.", "quantifier": "all tokens go/scanner may return, with any spelling, all memory contents, debug flag on or off, files of any length", "why_tests_cant": "all tokens in all states, and sequences of unbounded length", "anchors": ["scan.go: Lex", "xdr.y: %token"]}
{"id": "C61", "title": "The text of main and refmt", "statement": "main.go, as the text reads: whatever call of the system fails, main returns, panics or exits exactly as the model of C43 says, deferred calls included, and leaves exactly the files the model says. Hence: if anything goes wrong before an output file is opened, all files are as before and the run does not report success; after success the outputs hold the formatted generated text and nothing else differs; no other file is ever touched.", "quantifier": "all file systems, arguments, failures of each call of the system, parsers with any sequence of writes that return or panic", "why_tests_cant": "combinations of failing system calls with deferred calls and panics", "anchors": ["main.go"]}
{"id": "C62", "title": "The automaton for xdr.y", "statement": "A parser that works as goyacc's does, with any tables that pass a check against the rules of xdr.y (and there are such tables), comes to an end on every sequence of tokens, accepts exactly the sequences the rules derive, and has reduced exactly as the derivation says. A sequence has at most one derivation. Scanned tokens are accepted exactly if they are those of a specification.", "quantifier": "all tables that pass the check, all sequences of tokens", "why_tests_cant": "token sequences of unbounded length and nesting, accepted and refused; termination", "anchors": ["xdr.y"]}
{"id": "C63", "title": "The text of the whole generator", "statement": "main.go, scan.go, out.go and the actions of xdr.y, as the text reads, with goyacc's automaton over any tables that pass the check of C62: for a specification file in the language, without a type that has no codec, the run succeeds unless a call of the system fails; after success the output files are Go, in one way, and declare exactly the program of the model; for a file that is not in the language, has a token the scanner does not know, or has a type without codec, the run does not succeed and all files are as before; no other file is ever touched.", "quantifier": "all specification files, file systems, arguments and flags, failures of each call of the system, tables that pass the check", "why_tests_cant": "the whole program over files of unbounded length, with panics in the middle of parsing and partial writes", "anchors": ["main.go", "scan.go", "out.go", "xdr.y"]}
{"id": "C64", "title": "The text of generated packages", "statement": "A program that has package xdr, as its text reads, and a package with the declarations the generator prints for a specification, as Go text: xdr.EncodeBuf(&v) of a variable of a generated type returns the RFC 4506 image of the value and no error if all bounds are respected, and an error otherwise; xdr.DecodeBuf(data, &v) into a new variable makes v stand for x and returns no error if data begins with an image of the value x, and returns an error if data begins with no image of a value of the type. Nothing panics, every call ends, no memory but v changes, and nothing outside of the program is called. rfc1057, as read from its files, is such a package.", "quantifier": "all specifications that compile, all types, values in any place of any memory, byte sequences, other packages in the program and other declarations in the package", "why_tests_cant": "programs in text over unbounded specifications, with recursion through generated methods and loops up to 2^32-1", "anchors": ["out.go", "xdr/lib.go", "xdr/helper.go", "rfc1057/types.go", "rfc1057/xdr.go"]}
{"id": "C65", "title": "From the text of the generator to the behaviour of what it writes", "statement": "The text of the generator (main.go, scan.go, out.go, xdr.y) runs on a specification file and succeeds: then the files it leaves, read as Go, are a package of the name that was asked for, and in a program of that package, package xdr as its text reads, and any others, xdr.EncodeBuf(&v) and xdr.DecodeBuf(data, &v) for a variable of any type of the specification do what RFC 4506 says of the specification in the file: images of values, nothing else accepted, an error for what exceeds a bound, no panic, nothing else changed. The files of rfc1813 in the repository, read as Go, are such a package for rfc1813/prot.x: they do what RFC 4506 says of its types.", "quantifier": "all specification files for which the generated package compiles, one or two output files, all types and values, byte sequences, memory contents, other packages", "why_tests_cant": "it relates a run of one program on unbounded input to all runs of the program it writes", "anchors": ["main.go", "scan.go", "out.go", "xdr.y", "xdr/lib.go", "xdr/helper.go", "rfc1813/types.go", "rfc1813/xdr.go", "rfc1813/prot.x"]}
{"id": "C66", "title": "The text of the wrapper methods", "statement": "In a program of package xdr, as its text reads, and of a package with the declarations the generator prints for a specification (such are the files that the text of the generator leaves, and the files of rfc1057 and rfc1813): the wrapper method of a procedure, given an XdrState that reads bytes beginning with an image of a value x of the argument's type, calls the method of the handler once, with a Go value of that type that stands for x, and returns a pointer to a new variable that has what the method returned (to an xdr.Void if the procedure has no result) and nil; the wrapper of a procedure without argument does so whatever the bytes are. If the bytes begin with no image of a value of the type, the wrapper returns nil and an error, and the handler is not called. The wrapper changes no memory but the reader.", "quantifier": "all specifications that compile, all procedures, handlers (any function of the state outside of the program and memory), byte sequences, memory contents, other packages", "why_tests_cant": "programs in text over unbounded specifications and arbitrary handlers and inputs", "anchors": ["out.go:399-429", "xdr/lib.go", "xdr/helper.go", "rfc1057/xdr.go", "rfc1813/xdr.go"]}
{"id": "C67", "title": "A server with a generated package, as text", "statement": "In a program of packages xdr and rfc1057, as their texts read, and a generated package (and others): the registration function of a version of a program, called with the user's object, returns one registration for each procedure, in order, with the numbers of the specification, whose handlers are the wrappers. With what it returns, MakeServer, RegisterMany and Run, as their texts read, on a connection that delivers any bytes, each request being handled before the next is read: Run comes to an end, its error tells how the stream ended, and what is written are the replies of RFC 1057 to the records of the stream, in order. A call of one of the procedures whose parameters begin with an image of a value of the argument's type calls the method of the user's object once, with a Go value that stands for that value, and is answered with the image of the value the method returned; if there is no such value, the method is not called and GARBAGE_ARGS is answered; what is not a call is not answered. Nothing panics.", "quantifier": "all specifications that compile, all versions of programs, objects with any state, memory and results, byte streams in any pieces", "why_tests_cant": "programs in text over unbounded specifications, arbitrary objects and unbounded streams; the three packages together", "anchors": ["out.go:381-443", "rfc1057/server.go", "xdr/lib.go", "xdr/helper.go", "rfc1057/xdr.go"]}
{"id": "C68", "title": "A remote procedure call, as text", "statement": "A client and a server, each a program of packages xdr and rfc1057, as their texts read, and of the same generated package. The client has a variable of the argument's type of a procedure, whose value stands for an XDR value x within all bounds (an xdr.Void if there is no argument), a variable of the result's type without old data, and a Client with the numbers of the program and version; it executes Call with their addresses. The server is as in C67. Then there are bytes req and rep: Call writes req, whatever it will receive; the server that receives req, in any pieces, and then the end of the connection, calls the method of the user's object once, with a Go value that stands for x, writes rep, leaves the state that the method left, and returns io.EOF; and Call, when it receives rep in any pieces and anything after it, returns nil, its result variable then has a value that stands for the same XDR value as what the method returned, and what came after rep is not consumed. Nothing panics.", "quantifier": "all specifications that compile, all procedures of versions with distinct procedure numbers, all arguments and results that fit into a record, objects with any state and memory, bytes in any pieces", "why_tests_cant": "both ends run unbounded text over unbounded values and memory; what matters is that the two agree for every specification", "anchors": ["rfc1057/client.go", "rfc1057/server.go", "out.go:381-443", "xdr/lib.go", "xdr/helper.go", "rfc1057/xdr.go"]}
{"id": "C69", "title": "Several remote procedure calls over one connection, as text", "statement": "As C68, for a client that executes Call several times over one connection, for any procedures of one version, with variables that are apart from each other. There are requests and replies, one for each call. A server that receives the first n requests, in any pieces, and then the end of the connection, calls the methods of the user's object for the first n calls, in order, each once and each with a Go value that stands for the client's argument, ends in the state that they leave, and writes the first n replies. The client, on a connection that delivers the replies in any pieces and anything after them, and that can be written to, writes the requests in order; every call returns nil; when it does, its result variable has a value that stands for the same XDR value as what the method returned; and what follows the replies is not consumed.", "quantifier": "all specifications that compile, all sequences of calls of procedures of versions with distinct procedure numbers, all arguments and results that fit into records, objects with any state and memory, bytes in any pieces", "why_tests_cant": "unbounded sequences of calls, run by text on both ends, over unbounded values and memory", "anchors": ["rfc1057/client.go", "rfc1057/server.go", "out.go:381-443", "xdr/lib.go", "xdr/helper.go", "rfc1057/xdr.go"]}
{"id": "C70", "title": "A remote procedure call that the server cannot serve, as text", "statement": "Client and server as text (C57, C68). If the server has no registration for the program of a call, or none for its version, or none for its procedure, or if the handler reports that the arguments are wrong, then there are bytes req and rep: Call writes req, whatever it will receive; the server that receives req, in any pieces, and then the end of the connection, runs no handler (but the one that reports the error), writes rep, and returns io.EOF; and Call, when it receives rep in any pieces and anything after it, returns the error accept_stat 1, 2, 3 or 4 respectively, its result variable has the value it had, what came after rep is not consumed, the client has the next transaction id and is otherwise as before, and no memory changes but that of the client, the arguments and the result. With a generated package: a client of any numbers, calling a procedure of any program of the specification, at a server of a version that does not have it. Nothing panics.", "quantifier": "all registrations, handlers, program, version and procedure numbers, arguments that fit into a record, memory, bytes in any pieces; all specifications that compile", "why_tests_cant": "both ends run unbounded text over unbounded values and memory; tests try one wrong number", "anchors": ["rfc1057/client.go:76-108", "rfc1057/server.go", "out.go:381-443", "xdr/lib.go", "rfc1057/xdr.go"]}
{"id": "C71", "title": "Servers made by any sequence of registrations, as text", "statement": "A program makes a server with MakeServer, calls RegisterMany and Register on it any number of times, in any order, and then Run, all as their texts read, on a connection that delivers any bytes, each request being handled before the next is read. Run comes to an end, its error tells how the stream ended, and what is written are the replies of RFC 1057 to the records of the stream, in order, for all the registrations together: no call loses what an earlier one registered, but for a registration of the same program, version and procedure, which it replaces. Nothing panics.", "quantifier": "all sequences of calls of Register and RegisterMany, tables, handlers, states and memory, byte streams in any pieces", "why_tests_cant": "unbounded sequences of registrations and unbounded streams; package rfc1057's own users register once", "anchors": ["rfc1057/server.go:42-67", "rfc1057/server.go"]}
{"id": "C72", "title": "A server with several versions, programs and generated packages, as text", "statement": "In a program of packages xdr and rfc1057, as their texts read, and any generated packages: the registration functions of any versions of any programs of these packages are called, each with a user's object, then MakeServer, RegisterMany with what each returned, and Run, on a connection that delivers any bytes, each request being handled before the next is read. Run comes to an end, its error tells how the stream ended, and what is written are the replies of RFC 1057 to the records of the stream, in order. A call of a procedure of any of the versions calls the method of that version's object, as C67 says, and not that of another; if two of them have the same program, version and procedure numbers, the later one is called. The wrappers and tables of the versions do not disturb each other or the application's memory. Nothing panics.", "quantifier": "all lists of versions of programs of specifications that compile, objects with any common state, memory and results, byte streams in any pieces", "why_tests_cant": "unboundedly many generated packages, arbitrary objects that share memory, and unbounded streams; the shipped packages have one test server each", "anchors": ["out.go:381-443", "rfc1057/server.go", "xdr/lib.go", "xdr/helper.go", "rfc1057/xdr.go", "rfc1813/xdr.go"]}
{"id": "C73", "title": "A remote procedure call to a server with several services, as text", "statement": "As C68, but the server is that of C72, with any versions of any programs of any generated packages, and the client calls a procedure of one of them, with the types of its package and with a Client that has its numbers. If no version that is registered after it has the same program and version number, then there are bytes req and rep: Call writes req, whatever it will receive; the server that receives req, in any pieces, and then the end of the connection, calls the method of that version's object once, with a Go value that stands for the client's argument, writes rep, leaves the state that the method left, and returns io.EOF; and Call, when it receives rep in any pieces and anything after it, returns nil, its result variable then has a value that stands for the same XDR value as what the method returned, and what came after rep is not consumed. Nothing panics.", "quantifier": "all lists of versions of programs of specifications that compile, all procedures of versions with distinct procedure numbers, all arguments and results that fit into a record, objects with any common state and memory, bytes in any pieces", "why_tests_cant": "both ends run unbounded text over unbounded values and memory and unboundedly many packages; tests have a server with one version", "anchors": ["rfc1057/client.go", "rfc1057/server.go", "out.go:381-443", "xdr/lib.go", "xdr/helper.go", "rfc1057/xdr.go"]}
{"id": "C74", "title": "A remote procedure call that a server with several services does not have, as text", "statement": "As C70, but the server is that of C72, with any versions of any programs of any generated packages, and the client calls a procedure of any generated package with a Client of any numbers. If none of the versions that have procedures is of the client's program, or some are but none has its version, or some have but none has the procedure, then there are bytes req and rep: Call writes req, whatever it will receive; the server that receives req, in any pieces, and then the end of the connection, calls no method, writes rep, leaves the state as it was, and returns io.EOF; and Call, when it receives rep in any pieces and anything after it, returns the error accept_stat 1, 2 or 3 respectively, its result variable has the value it had, what came after rep is not consumed, the client has the next transaction id and is otherwise as before, and no memory changes but that of the client, the arguments and the result. Nothing panics.", "quantifier": "all lists of versions of programs of specifications that compile, all program, version and procedure numbers, all arguments that fit into a record, objects with any common state and memory, bytes in any pieces", "why_tests_cant": "both ends run unbounded text over unbounded values and memory and unboundedly many packages; whether a version or a program is missing depends on all registrations together", "anchors": ["rfc1057/client.go:76-108", "rfc1057/server.go", "out.go:381-443", "xdr/lib.go", "rfc1057/xdr.go"]}
