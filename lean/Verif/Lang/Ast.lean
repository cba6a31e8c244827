/-
The syntax trees of Go files of /repo.  Written by tools/mkast.py; that they are what the texts read as
is proved in Verif.Lang.Read.
-/
import Verif.Lang.Syntax

namespace Verif.Lang

/-- xdr/lib.go: MakeReader -/
def lib_MakeReader : Func :=
{ recv := none,
  name := "MakeReader",
  params := [("buf", Ty.slice (Ty.name "byte"))],
  results := [("", Ty.ptr (Ty.name "XdrState"))],
  body := [Stmt.ret
             [Expr.un
                "&"
                (Expr.lit
                  (Ty.name "XdrState")
                  ["err", "reader", "buf"]
                  [Expr.id "nil", Expr.id "true", Expr.id "buf"])]] }

/-- xdr/lib.go: MakeWriter -/
def lib_MakeWriter : Func :=
{ recv := none,
  name := "MakeWriter",
  params := [("buf", Ty.slice (Ty.name "byte"))],
  results := [("", Ty.ptr (Ty.name "XdrState"))],
  body := [Stmt.ret
             [Expr.un
                "&"
                (Expr.lit
                  (Ty.name "XdrState")
                  ["err", "reader", "buf"]
                  [Expr.id "nil", Expr.id "false", Expr.id "buf"])]] }

/-- xdr/lib.go: XdrState_WriteBuf -/
def lib_XdrState_WriteBuf : Func :=
{ recv := some ("xs", Ty.ptr (Ty.name "XdrState")),
  name := "WriteBuf",
  params := [],
  results := [("", Ty.slice (Ty.name "byte"))],
  body := [Stmt.ret [Expr.sel (Expr.id "xs") "buf"]] }

/-- xdr/lib.go: XdrState_EncodingSetSize -/
def lib_XdrState_EncodingSetSize : Func :=
{ recv := some ("xs", Ty.ptr (Ty.name "XdrState")),
  name := "EncodingSetSize",
  params := [("arraysz", Ty.ptr (Ty.name "uint32")), ("len", Ty.name "int")],
  results := [],
  body := [Stmt.ite
             (Expr.bin
               "!="
               (Expr.sel (Expr.id "xs") "err")
               (Expr.id "nil"))
             [Stmt.ret []]
             [],
           Stmt.ite
             (Expr.sel (Expr.id "xs") "reader")
             [Stmt.ret []]
             [],
           Stmt.ite
             (Expr.bin
               ">"
               (Expr.id "len")
               (Expr.sel (Expr.id "math") "MaxUint32"))
             [Stmt.expr
                (Expr.call
                  (Expr.sel (Expr.id "xs") "SetError")
                  [Expr.str "length too large"]
                  false),
              Stmt.ret []]
             [],
           Stmt.assign
             [Expr.un "*" (Expr.id "arraysz")]
             [Expr.call (Expr.id "uint32") [Expr.id "len"] false]] }

/-- xdr/lib.go: XdrState_Encoding -/
def lib_XdrState_Encoding : Func :=
{ recv := some ("xs", Ty.ptr (Ty.name "XdrState")),
  name := "Encoding",
  params := [],
  results := [("", Ty.name "bool")],
  body := [Stmt.ret
             [Expr.bin
                "&&"
                (Expr.bin
                  "=="
                  (Expr.sel (Expr.id "xs") "err")
                  (Expr.id "nil"))
                (Expr.bin
                  "=="
                  (Expr.sel (Expr.id "xs") "reader")
                  (Expr.id "false"))]] }

/-- xdr/lib.go: XdrState_Decoding -/
def lib_XdrState_Decoding : Func :=
{ recv := some ("xs", Ty.ptr (Ty.name "XdrState")),
  name := "Decoding",
  params := [],
  results := [("", Ty.name "bool")],
  body := [Stmt.ret
             [Expr.bin
                "&&"
                (Expr.bin
                  "=="
                  (Expr.sel (Expr.id "xs") "err")
                  (Expr.id "nil"))
                (Expr.bin
                  "=="
                  (Expr.sel (Expr.id "xs") "reader")
                  (Expr.id "true"))]] }

/-- xdr/lib.go: XdrState_SetError -/
def lib_XdrState_SetError : Func :=
{ recv := some ("xs", Ty.ptr (Ty.name "XdrState")),
  name := "SetError",
  params := [("s", Ty.name "string")],
  results := [],
  body := [Stmt.assign
             [Expr.sel (Expr.id "xs") "err"]
             [Expr.call
                (Expr.sel (Expr.id "errors") "New")
                [Expr.id "s"]
                false]] }

/-- xdr/lib.go: XdrState_Error -/
def lib_XdrState_Error : Func :=
{ recv := some ("xs", Ty.ptr (Ty.name "XdrState")),
  name := "Error",
  params := [],
  results := [("", Ty.name "error")],
  body := [Stmt.ret [Expr.sel (Expr.id "xs") "err"]] }

/-- xdr/lib.go: xdrRW -/
def lib_xdrRW : Func :=
{ recv := none,
  name := "xdrRW",
  params := [("xs", Ty.ptr (Ty.name "XdrState")),
             ("v", Ty.slice (Ty.name "byte"))],
  results := [],
  body := [Stmt.ite
             (Expr.bin
               "!="
               (Expr.sel (Expr.id "xs") "err")
               (Expr.id "nil"))
             [Stmt.ret []]
             [],
           Stmt.ite
             (Expr.sel (Expr.id "xs") "reader")
             [Stmt.define
                ["n"]
                [Expr.call
                   (Expr.id "copy")
                   [Expr.id "v", Expr.sel (Expr.id "xs") "buf"]
                   false],
              Stmt.assign
                [Expr.sel (Expr.id "xs") "buf"]
                [Expr.slc
                   (Expr.sel (Expr.id "xs") "buf")
                   (some (Expr.id "n"))
                   none
                   none],
              Stmt.ite
                (Expr.bin
                  "<"
                  (Expr.id "n")
                  (Expr.call (Expr.id "len") [Expr.id "v"] false))
                [Stmt.assign
                   [Expr.sel (Expr.id "xs") "err"]
                   [Expr.call
                      (Expr.sel (Expr.id "fmt") "Errorf")
                      [Expr.str "Not enough bytes: wanted %d, got %d",
                       Expr.call (Expr.id "len") [Expr.id "v"] false,
                       Expr.id "n"]
                      false]]
                []]
             [Stmt.assign
                [Expr.sel (Expr.id "xs") "buf"]
                [Expr.call
                   (Expr.id "append")
                   [Expr.sel (Expr.id "xs") "buf", Expr.id "v"]
                   true]]] }

/-- xdr/lib.go: xdrR -/
def lib_xdrR : Func :=
{ recv := none,
  name := "xdrR",
  params := [("xs", Ty.ptr (Ty.name "XdrState")), ("n", Ty.name "int")],
  results := [("", Ty.slice (Ty.name "byte"))],
  body := [Stmt.ite
             (Expr.bin
               "<"
               (Expr.call
                 (Expr.id "len")
                 [Expr.sel (Expr.id "xs") "buf"]
                 false)
               (Expr.id "n"))
             [Stmt.assign
                [Expr.sel (Expr.id "xs") "err"]
                [Expr.call
                   (Expr.sel (Expr.id "fmt") "Errorf")
                   [Expr.str "Not enough bytes: wanted %d, have %d",
                    Expr.id "n",
                    Expr.call
                      (Expr.id "len")
                      [Expr.sel (Expr.id "xs") "buf"]
                      false]
                   false]]
             [],
           Stmt.ite
             (Expr.bin
               "!="
               (Expr.sel (Expr.id "xs") "err")
               (Expr.id "nil"))
             [Stmt.ret [Expr.id "nil"]]
             [],
           Stmt.define
             ["res"]
             [Expr.slc
                (Expr.sel (Expr.id "xs") "buf")
                none
                (some (Expr.id "n"))
                (some (Expr.id "n"))],
           Stmt.assign
             [Expr.sel (Expr.id "xs") "buf"]
             [Expr.slc
                (Expr.sel (Expr.id "xs") "buf")
                (some (Expr.id "n"))
                none
                none],
           Stmt.ret [Expr.id "res"]] }

/-- xdr/lib.go: XdrBool -/
def lib_XdrBool : Func :=
{ recv := none,
  name := "XdrBool",
  params := [("xs", Ty.ptr (Ty.name "XdrState")),
             ("v", Ty.ptr (Ty.name "bool"))],
  results := [],
  body := [Stmt.ite
             (Expr.bin
               "!="
               (Expr.sel (Expr.id "xs") "err")
               (Expr.id "nil"))
             [Stmt.ret []]
             [],
           Stmt.var ["buf"] (Ty.arr 4 (Ty.name "byte")),
           Stmt.ite
             (Expr.call (Expr.sel (Expr.id "xs") "Encoding") [] false)
             [Stmt.ite
                (Expr.un "*" (Expr.id "v"))
                [Stmt.expr
                   (Expr.call
                     (Expr.sel
                       (Expr.sel (Expr.id "binary") "BigEndian")
                       "PutUint32")
                     [Expr.slc (Expr.id "buf") none none none, Expr.int 1]
                     false)]
                [Stmt.expr
                   (Expr.call
                     (Expr.sel
                       (Expr.sel (Expr.id "binary") "BigEndian")
                       "PutUint32")
                     [Expr.slc (Expr.id "buf") none none none, Expr.int 0]
                     false)]]
             [],
           Stmt.expr
             (Expr.call
               (Expr.id "xdrRW")
               [Expr.id "xs", Expr.slc (Expr.id "buf") none none none]
               false),
           Stmt.ite
             (Expr.call (Expr.sel (Expr.id "xs") "Decoding") [] false)
             [Stmt.define
                ["r"]
                [Expr.call
                   (Expr.sel
                     (Expr.sel (Expr.id "binary") "BigEndian")
                     "Uint32")
                   [Expr.slc (Expr.id "buf") none none none]
                   false],
              Stmt.ite
                (Expr.bin "==" (Expr.id "r") (Expr.int 0))
                [Stmt.assign
                   [Expr.un "*" (Expr.id "v")]
                   [Expr.id "false"]]
                [Stmt.assign
                   [Expr.un "*" (Expr.id "v")]
                   [Expr.id "true"]]]
             []] }

/-- xdr/lib.go: XdrS32 -/
def lib_XdrS32 : Func :=
{ recv := none,
  name := "XdrS32",
  params := [("xs", Ty.ptr (Ty.name "XdrState")),
             ("v", Ty.ptr (Ty.name "int32"))],
  results := [],
  body := [Stmt.ite
             (Expr.bin
               "!="
               (Expr.sel (Expr.id "xs") "err")
               (Expr.id "nil"))
             [Stmt.ret []]
             [],
           Stmt.var ["buf"] (Ty.arr 4 (Ty.name "byte")),
           Stmt.ite
             (Expr.call (Expr.sel (Expr.id "xs") "Encoding") [] false)
             [Stmt.expr
                (Expr.call
                  (Expr.sel
                    (Expr.sel (Expr.id "binary") "BigEndian")
                    "PutUint32")
                  [Expr.slc (Expr.id "buf") none none none,
                   Expr.call
                     (Expr.id "uint32")
                     [Expr.un "*" (Expr.id "v")]
                     false]
                  false)]
             [],
           Stmt.expr
             (Expr.call
               (Expr.id "xdrRW")
               [Expr.id "xs", Expr.slc (Expr.id "buf") none none none]
               false),
           Stmt.ite
             (Expr.call (Expr.sel (Expr.id "xs") "Decoding") [] false)
             [Stmt.assign
                [Expr.un "*" (Expr.id "v")]
                [Expr.call
                   (Expr.id "int32")
                   [Expr.call
                      (Expr.sel
                        (Expr.sel (Expr.id "binary") "BigEndian")
                        "Uint32")
                      [Expr.slc (Expr.id "buf") none none none]
                      false]
                   false]]
             []] }

/-- xdr/lib.go: XdrU32 -/
def lib_XdrU32 : Func :=
{ recv := none,
  name := "XdrU32",
  params := [("xs", Ty.ptr (Ty.name "XdrState")),
             ("v", Ty.ptr (Ty.name "uint32"))],
  results := [],
  body := [Stmt.ite
             (Expr.bin
               "!="
               (Expr.sel (Expr.id "xs") "err")
               (Expr.id "nil"))
             [Stmt.ret []]
             [],
           Stmt.var ["buf"] (Ty.arr 4 (Ty.name "byte")),
           Stmt.ite
             (Expr.call (Expr.sel (Expr.id "xs") "Encoding") [] false)
             [Stmt.expr
                (Expr.call
                  (Expr.sel
                    (Expr.sel (Expr.id "binary") "BigEndian")
                    "PutUint32")
                  [Expr.slc (Expr.id "buf") none none none,
                   Expr.un "*" (Expr.id "v")]
                  false)]
             [],
           Stmt.expr
             (Expr.call
               (Expr.id "xdrRW")
               [Expr.id "xs", Expr.slc (Expr.id "buf") none none none]
               false),
           Stmt.ite
             (Expr.call (Expr.sel (Expr.id "xs") "Decoding") [] false)
             [Stmt.assign
                [Expr.un "*" (Expr.id "v")]
                [Expr.call
                   (Expr.sel
                     (Expr.sel (Expr.id "binary") "BigEndian")
                     "Uint32")
                   [Expr.slc (Expr.id "buf") none none none]
                   false]]
             []] }

/-- xdr/lib.go: XdrS64 -/
def lib_XdrS64 : Func :=
{ recv := none,
  name := "XdrS64",
  params := [("xs", Ty.ptr (Ty.name "XdrState")),
             ("v", Ty.ptr (Ty.name "int64"))],
  results := [],
  body := [Stmt.ite
             (Expr.bin
               "!="
               (Expr.sel (Expr.id "xs") "err")
               (Expr.id "nil"))
             [Stmt.ret []]
             [],
           Stmt.var ["buf"] (Ty.arr 8 (Ty.name "byte")),
           Stmt.ite
             (Expr.call (Expr.sel (Expr.id "xs") "Encoding") [] false)
             [Stmt.expr
                (Expr.call
                  (Expr.sel
                    (Expr.sel (Expr.id "binary") "BigEndian")
                    "PutUint64")
                  [Expr.slc (Expr.id "buf") none none none,
                   Expr.call
                     (Expr.id "uint64")
                     [Expr.un "*" (Expr.id "v")]
                     false]
                  false)]
             [],
           Stmt.expr
             (Expr.call
               (Expr.id "xdrRW")
               [Expr.id "xs", Expr.slc (Expr.id "buf") none none none]
               false),
           Stmt.ite
             (Expr.call (Expr.sel (Expr.id "xs") "Decoding") [] false)
             [Stmt.assign
                [Expr.un "*" (Expr.id "v")]
                [Expr.call
                   (Expr.id "int64")
                   [Expr.call
                      (Expr.sel
                        (Expr.sel (Expr.id "binary") "BigEndian")
                        "Uint64")
                      [Expr.slc (Expr.id "buf") none none none]
                      false]
                   false]]
             []] }

/-- xdr/lib.go: XdrU64 -/
def lib_XdrU64 : Func :=
{ recv := none,
  name := "XdrU64",
  params := [("xs", Ty.ptr (Ty.name "XdrState")),
             ("v", Ty.ptr (Ty.name "uint64"))],
  results := [],
  body := [Stmt.ite
             (Expr.bin
               "!="
               (Expr.sel (Expr.id "xs") "err")
               (Expr.id "nil"))
             [Stmt.ret []]
             [],
           Stmt.var ["buf"] (Ty.arr 8 (Ty.name "byte")),
           Stmt.ite
             (Expr.call (Expr.sel (Expr.id "xs") "Encoding") [] false)
             [Stmt.expr
                (Expr.call
                  (Expr.sel
                    (Expr.sel (Expr.id "binary") "BigEndian")
                    "PutUint64")
                  [Expr.slc (Expr.id "buf") none none none,
                   Expr.un "*" (Expr.id "v")]
                  false)]
             [],
           Stmt.expr
             (Expr.call
               (Expr.id "xdrRW")
               [Expr.id "xs", Expr.slc (Expr.id "buf") none none none]
               false),
           Stmt.ite
             (Expr.call (Expr.sel (Expr.id "xs") "Decoding") [] false)
             [Stmt.assign
                [Expr.un "*" (Expr.id "v")]
                [Expr.call
                   (Expr.sel
                     (Expr.sel (Expr.id "binary") "BigEndian")
                     "Uint64")
                   [Expr.slc (Expr.id "buf") none none none]
                   false]]
             []] }

/-- xdr/lib.go: XdrVarArray -/
def lib_XdrVarArray : Func :=
{ recv := none,
  name := "XdrVarArray",
  params := [("xs", Ty.ptr (Ty.name "XdrState")),
             ("maxlen", Ty.name "int"),
             ("v", Ty.ptr (Ty.slice (Ty.name "byte")))],
  results := [],
  body := [Stmt.ite
             (Expr.bin
               "!="
               (Expr.sel (Expr.id "xs") "err")
               (Expr.id "nil"))
             [Stmt.ret []]
             [],
           Stmt.ite
             (Expr.call (Expr.sel (Expr.id "xs") "Encoding") [] false)
             [Stmt.ite
                (Expr.bin
                  "||"
                  (Expr.bin
                    ">"
                    (Expr.call
                      (Expr.id "len")
                      [Expr.un "*" (Expr.id "v")]
                      false)
                    (Expr.sel (Expr.id "math") "MaxUint32"))
                  (Expr.bin
                    "&&"
                    (Expr.bin ">=" (Expr.id "maxlen") (Expr.int 0))
                    (Expr.bin
                      ">"
                      (Expr.call
                        (Expr.id "len")
                        [Expr.un "*" (Expr.id "v")]
                        false)
                      (Expr.id "maxlen"))))
                [Stmt.expr
                   (Expr.call
                     (Expr.sel (Expr.id "xs") "SetError")
                     [Expr.str "var array too large"]
                     false),
                 Stmt.ret []]
                [],
              Stmt.var ["szbuf"] (Ty.arr 4 (Ty.name "byte")),
              Stmt.expr
                (Expr.call
                  (Expr.sel
                    (Expr.sel (Expr.id "binary") "BigEndian")
                    "PutUint32")
                  [Expr.slc (Expr.id "szbuf") none none none,
                   Expr.call
                     (Expr.id "uint32")
                     [Expr.call
                        (Expr.id "len")
                        [Expr.un "*" (Expr.id "v")]
                        false]
                     false]
                  false),
              Stmt.expr
                (Expr.call
                  (Expr.id "xdrRW")
                  [Expr.id "xs", Expr.slc (Expr.id "szbuf") none none none]
                  false),
              Stmt.expr
                (Expr.call
                  (Expr.id "xdrRW")
                  [Expr.id "xs", Expr.un "*" (Expr.id "v")]
                  false)]
             [Stmt.var ["szbuf"] (Ty.arr 4 (Ty.name "byte")),
              Stmt.expr
                (Expr.call
                  (Expr.id "xdrRW")
                  [Expr.id "xs", Expr.slc (Expr.id "szbuf") none none none]
                  false),
              Stmt.define
                ["sz32"]
                [Expr.call
                   (Expr.sel
                     (Expr.sel (Expr.id "binary") "BigEndian")
                     "Uint32")
                   [Expr.slc (Expr.id "szbuf") none none none]
                   false],
              Stmt.define
                ["sz"]
                [Expr.call (Expr.id "int") [Expr.id "sz32"] false],
              Stmt.ite
                (Expr.bin
                  "||"
                  (Expr.bin
                    "&&"
                    (Expr.bin ">=" (Expr.id "maxlen") (Expr.int 0))
                    (Expr.bin ">" (Expr.id "sz") (Expr.id "maxlen")))
                  (Expr.bin "<" (Expr.id "sz") (Expr.int 0)))
                [Stmt.expr
                   (Expr.call
                     (Expr.sel (Expr.id "xs") "SetError")
                     [Expr.str "var array too large"]
                     false),
                 Stmt.ret []]
                [],
              Stmt.assign
                [Expr.un "*" (Expr.id "v")]
                [Expr.call
                   (Expr.id "xdrR")
                   [Expr.id "xs", Expr.id "sz"]
                   false]],
           Stmt.ite
             (Expr.bin
               "!="
               (Expr.bin
                 "%"
                 (Expr.call
                   (Expr.id "len")
                   [Expr.un "*" (Expr.id "v")]
                   false)
                 (Expr.int 4))
               (Expr.int 0))
             [Stmt.expr
                (Expr.call
                  (Expr.id "xdrRW")
                  [Expr.id "xs",
                   Expr.call
                     (Expr.id "make")
                     [Expr.ty (Ty.slice (Ty.name "byte")),
                      Expr.bin
                        "%"
                        (Expr.bin
                          "-"
                          (Expr.int 4)
                          (Expr.bin
                            "%"
                            (Expr.call
                              (Expr.id "len")
                              [Expr.un "*" (Expr.id "v")]
                              false)
                            (Expr.int 4)))
                        (Expr.int 4)]
                     false]
                  false)]
             []] }

/-- xdr/lib.go: XdrArray -/
def lib_XdrArray : Func :=
{ recv := none,
  name := "XdrArray",
  params := [("xs", Ty.ptr (Ty.name "XdrState")),
             ("v", Ty.slice (Ty.name "byte"))],
  results := [],
  body := [Stmt.ite
             (Expr.bin
               "!="
               (Expr.sel (Expr.id "xs") "err")
               (Expr.id "nil"))
             [Stmt.ret []]
             [],
           Stmt.expr
             (Expr.call
               (Expr.id "xdrRW")
               [Expr.id "xs", Expr.id "v"]
               false),
           Stmt.ite
             (Expr.bin
               "!="
               (Expr.bin
                 "%"
                 (Expr.call (Expr.id "len") [Expr.id "v"] false)
                 (Expr.int 4))
               (Expr.int 0))
             [Stmt.expr
                (Expr.call
                  (Expr.id "xdrRW")
                  [Expr.id "xs",
                   Expr.call
                     (Expr.id "make")
                     [Expr.ty (Ty.slice (Ty.name "byte")),
                      Expr.bin
                        "%"
                        (Expr.bin
                          "-"
                          (Expr.int 4)
                          (Expr.bin
                            "%"
                            (Expr.call (Expr.id "len") [Expr.id "v"] false)
                            (Expr.int 4)))
                        (Expr.int 4)]
                     false]
                  false)]
             []] }

/-- xdr/lib.go: XdrString -/
def lib_XdrString : Func :=
{ recv := none,
  name := "XdrString",
  params := [("xs", Ty.ptr (Ty.name "XdrState")),
             ("maxlen", Ty.name "int"),
             ("v", Ty.ptr (Ty.name "string"))],
  results := [],
  body := [Stmt.ite
             (Expr.bin
               "!="
               (Expr.sel (Expr.id "xs") "err")
               (Expr.id "nil"))
             [Stmt.ret []]
             [],
           Stmt.ite
             (Expr.call (Expr.sel (Expr.id "xs") "Encoding") [] false)
             [Stmt.ite
                (Expr.bin
                  "||"
                  (Expr.bin
                    ">"
                    (Expr.call
                      (Expr.id "len")
                      [Expr.un "*" (Expr.id "v")]
                      false)
                    (Expr.sel (Expr.id "math") "MaxUint32"))
                  (Expr.bin
                    "&&"
                    (Expr.bin ">=" (Expr.id "maxlen") (Expr.int 0))
                    (Expr.bin
                      ">"
                      (Expr.call
                        (Expr.id "len")
                        [Expr.un "*" (Expr.id "v")]
                        false)
                      (Expr.id "maxlen"))))
                [Stmt.expr
                   (Expr.call
                     (Expr.sel (Expr.id "xs") "SetError")
                     [Expr.str "string too large"]
                     false),
                 Stmt.ret []]
                [],
              Stmt.var ["szbuf"] (Ty.arr 4 (Ty.name "byte")),
              Stmt.expr
                (Expr.call
                  (Expr.sel
                    (Expr.sel (Expr.id "binary") "BigEndian")
                    "PutUint32")
                  [Expr.slc (Expr.id "szbuf") none none none,
                   Expr.call
                     (Expr.id "uint32")
                     [Expr.call
                        (Expr.id "len")
                        [Expr.un "*" (Expr.id "v")]
                        false]
                     false]
                  false),
              Stmt.expr
                (Expr.call
                  (Expr.id "xdrRW")
                  [Expr.id "xs", Expr.slc (Expr.id "szbuf") none none none]
                  false),
              Stmt.expr
                (Expr.call
                  (Expr.id "xdrRW")
                  [Expr.id "xs",
                   Expr.call
                     (Expr.ty (Ty.slice (Ty.name "byte")))
                     [Expr.un "*" (Expr.id "v")]
                     false]
                  false),
              Stmt.expr
                (Expr.call
                  (Expr.id "xdrRW")
                  [Expr.id "xs",
                   Expr.call
                     (Expr.id "make")
                     [Expr.ty (Ty.slice (Ty.name "byte")),
                      Expr.bin
                        "%"
                        (Expr.bin
                          "-"
                          (Expr.int 4)
                          (Expr.bin
                            "%"
                            (Expr.call
                              (Expr.id "len")
                              [Expr.un "*" (Expr.id "v")]
                              false)
                            (Expr.int 4)))
                        (Expr.int 4)]
                     false]
                  false)]
             [Stmt.var ["szbuf"] (Ty.arr 4 (Ty.name "byte")),
              Stmt.expr
                (Expr.call
                  (Expr.id "xdrRW")
                  [Expr.id "xs", Expr.slc (Expr.id "szbuf") none none none]
                  false),
              Stmt.define
                ["sz32"]
                [Expr.call
                   (Expr.sel
                     (Expr.sel (Expr.id "binary") "BigEndian")
                     "Uint32")
                   [Expr.slc (Expr.id "szbuf") none none none]
                   false],
              Stmt.define
                ["sz"]
                [Expr.call (Expr.id "int") [Expr.id "sz32"] false],
              Stmt.ite
                (Expr.bin
                  "||"
                  (Expr.bin
                    "&&"
                    (Expr.bin ">=" (Expr.id "maxlen") (Expr.int 0))
                    (Expr.bin ">" (Expr.id "sz") (Expr.id "maxlen")))
                  (Expr.bin "<" (Expr.id "sz") (Expr.int 0)))
                [Stmt.expr
                   (Expr.call
                     (Expr.sel (Expr.id "xs") "SetError")
                     [Expr.str "string too large"]
                     false),
                 Stmt.ret []]
                [],
              Stmt.define
                ["buf"]
                [Expr.call
                   (Expr.id "xdrR")
                   [Expr.id "xs", Expr.id "sz"]
                   false],
              Stmt.assign
                [Expr.un "*" (Expr.id "v")]
                [Expr.call (Expr.id "string") [Expr.id "buf"] false],
              Stmt.expr
                (Expr.call
                  (Expr.id "xdrRW")
                  [Expr.id "xs",
                   Expr.call
                     (Expr.id "make")
                     [Expr.ty (Ty.slice (Ty.name "byte")),
                      Expr.bin
                        "%"
                        (Expr.bin
                          "-"
                          (Expr.int 4)
                          (Expr.bin
                            "%"
                            (Expr.call
                              (Expr.id "len")
                              [Expr.un "*" (Expr.id "v")]
                              false)
                            (Expr.int 4)))
                        (Expr.int 4)]
                     false]
                  false)]] }

/-- xdr/lib.go -/
def libFile : File := ⟨"xdr", ["encoding/binary", "errors", "fmt", "math"], [
  Top.typ
  "XdrState"
  (Ty.struct
    [("err", Ty.name "error"),
     ("reader", Ty.name "bool"),
     ("buf", Ty.slice (Ty.name "byte"))]),
  .func lib_MakeReader,
  .func lib_MakeWriter,
  .func lib_XdrState_WriteBuf,
  .func lib_XdrState_EncodingSetSize,
  .func lib_XdrState_Encoding,
  .func lib_XdrState_Decoding,
  .func lib_XdrState_SetError,
  .func lib_XdrState_Error,
  .func lib_xdrRW,
  .func lib_xdrR,
  .func lib_XdrBool,
  .func lib_XdrS32,
  .func lib_XdrU32,
  .func lib_XdrS64,
  .func lib_XdrU64,
  .func lib_XdrVarArray,
  .func lib_XdrArray,
  .func lib_XdrString
]⟩

/-- xdr/helper.go: EncodeBuf -/
def helper_EncodeBuf : Func :=
{ recv := none,
  name := "EncodeBuf",
  params := [("v", Ty.name "Xdrable")],
  results := [("res", Ty.slice (Ty.name "byte")), ("err", Ty.name "error")],
  body := [Stmt.define
             ["x"]
             [Expr.call (Expr.id "MakeWriter") [Expr.id "nil"] false],
           Stmt.expr
             (Expr.call
               (Expr.sel (Expr.id "v") "Xdr")
               [Expr.id "x"]
               false),
           Stmt.ret
             [Expr.call (Expr.sel (Expr.id "x") "WriteBuf") [] false,
              Expr.call (Expr.sel (Expr.id "x") "Error") [] false]] }

/-- xdr/helper.go: DecodeBuf -/
def helper_DecodeBuf : Func :=
{ recv := none,
  name := "DecodeBuf",
  params := [("buf", Ty.slice (Ty.name "byte")), ("v", Ty.name "Xdrable")],
  results := [("", Ty.name "error")],
  body := [Stmt.define
             ["x"]
             [Expr.call (Expr.id "MakeReader") [Expr.id "buf"] false],
           Stmt.expr
             (Expr.call
               (Expr.sel (Expr.id "v") "Xdr")
               [Expr.id "x"]
               false),
           Stmt.ret
             [Expr.call (Expr.sel (Expr.id "x") "Error") [] false]] }

/-- xdr/helper.go -/
def helperFile : File := ⟨"xdr", [], [
  .func helper_EncodeBuf,
  .func helper_DecodeBuf
]⟩

/-- xdr/types.go: Bool_Xdr -/
def types_Bool_Xdr : Func :=
{ recv := some ("v", Ty.ptr (Ty.name "Bool")),
  name := "Xdr",
  params := [("xs", Ty.ptr (Ty.name "XdrState"))],
  results := [],
  body := [Stmt.expr
             (Expr.call
               (Expr.id "XdrBool")
               [Expr.id "xs",
                Expr.call
                  (Expr.un "*" (Expr.id "bool"))
                  [Expr.id "v"]
                  false]
               false)] }

/-- xdr/types.go: Uint32_Xdr -/
def types_Uint32_Xdr : Func :=
{ recv := some ("v", Ty.ptr (Ty.name "Uint32")),
  name := "Xdr",
  params := [("xs", Ty.ptr (Ty.name "XdrState"))],
  results := [],
  body := [Stmt.expr
             (Expr.call
               (Expr.id "XdrU32")
               [Expr.id "xs",
                Expr.call
                  (Expr.un "*" (Expr.id "uint32"))
                  [Expr.id "v"]
                  false]
               false)] }

/-- xdr/types.go: Int32_Xdr -/
def types_Int32_Xdr : Func :=
{ recv := some ("v", Ty.ptr (Ty.name "Int32")),
  name := "Xdr",
  params := [("xs", Ty.ptr (Ty.name "XdrState"))],
  results := [],
  body := [Stmt.expr
             (Expr.call
               (Expr.id "XdrS32")
               [Expr.id "xs",
                Expr.call
                  (Expr.un "*" (Expr.id "int32"))
                  [Expr.id "v"]
                  false]
               false)] }

/-- xdr/types.go: Uint64_Xdr -/
def types_Uint64_Xdr : Func :=
{ recv := some ("v", Ty.ptr (Ty.name "Uint64")),
  name := "Xdr",
  params := [("xs", Ty.ptr (Ty.name "XdrState"))],
  results := [],
  body := [Stmt.expr
             (Expr.call
               (Expr.id "XdrU64")
               [Expr.id "xs",
                Expr.call
                  (Expr.un "*" (Expr.id "uint64"))
                  [Expr.id "v"]
                  false]
               false)] }

/-- xdr/types.go: Int64_Xdr -/
def types_Int64_Xdr : Func :=
{ recv := some ("v", Ty.ptr (Ty.name "Int64")),
  name := "Xdr",
  params := [("xs", Ty.ptr (Ty.name "XdrState"))],
  results := [],
  body := [Stmt.expr
             (Expr.call
               (Expr.id "XdrS64")
               [Expr.id "xs",
                Expr.call
                  (Expr.un "*" (Expr.id "int64"))
                  [Expr.id "v"]
                  false]
               false)] }

/-- xdr/types.go: Void_Xdr -/
def types_Void_Xdr : Func :=
{ recv := some ("v", Ty.ptr (Ty.name "Void")),
  name := "Xdr",
  params := [("xs", Ty.ptr (Ty.name "XdrState"))],
  results := [],
  body := [] }

/-- xdr/types.go -/
def typesFile : File := ⟨"xdr", [], [
  Top.typ "Xdrable" (Ty.iface),
  Top.typ "Bool" (Ty.name "bool"),
  Top.typ "Uint32" (Ty.name "uint32"),
  Top.typ "Int32" (Ty.name "int32"),
  Top.typ "Uint64" (Ty.name "uint64"),
  Top.typ "Int64" (Ty.name "int64"),
  Top.typ "Void" (Ty.struct []),
  Top.const "TRUE" (some (Ty.name "Bool")) (Expr.id "true"),
  Top.const "FALSE" (some (Ty.name "Bool")) (Expr.id "false"),
  .func types_Bool_Xdr,
  .func types_Uint32_Xdr,
  .func types_Int32_Xdr,
  .func types_Uint64_Xdr,
  .func types_Int64_Xdr,
  .func types_Void_Xdr,
  Top.typ
  "ProcRegistration"
  (Ty.struct
    [("Prog", Ty.name "uint32"),
     ("Vers", Ty.name "uint32"),
     ("Proc", Ty.name "uint32"),
     ("Handler",
      Ty.func
        [("args", Ty.ptr (Ty.name "XdrState"))]
        [("res", Ty.name "Xdrable"), ("err", Ty.name "error")])])
]⟩

/-- rfc1057/client.go: MakeClient -/
def client_MakeClient : Func :=
{ recv := none,
  name := "MakeClient",
  params := [("rw", Ty.qual "io" "ReadWriter"),
             ("prog", Ty.name "uint32"),
             ("vers", Ty.name "uint32")],
  results := [("", Ty.ptr (Ty.name "Client"))],
  body := [Stmt.ret
             [Expr.un
                "&"
                (Expr.lit
                  (Ty.name "Client")
                  ["rw", "xid", "prog", "vers"]
                  [Expr.id "rw",
                   Expr.int 0,
                   Expr.id "prog",
                   Expr.id "vers"])]] }

/-- rfc1057/client.go: Client_Call -/
def client_Client_Call : Func :=
{ recv := some ("c", Ty.ptr (Ty.name "Client")),
  name := "Call",
  params := [("proc", Ty.name "uint32"),
             ("cred", Ty.name "Opaque_auth"),
             ("verf", Ty.name "Opaque_auth"),
             ("args", Ty.qual "xdr" "Xdrable"),
             ("resp", Ty.qual "xdr" "Xdrable")],
  results := [("", Ty.name "error")],
  body := [Stmt.inc (Expr.sel (Expr.id "c") "xid"),
           Stmt.var ["req"] (Ty.name "Rpc_msg"),
           Stmt.assign
             [Expr.sel (Expr.id "req") "Xid"]
             [Expr.sel (Expr.id "c") "xid"],
           Stmt.assign
             [Expr.sel (Expr.sel (Expr.id "req") "Body") "Mtype"]
             [Expr.id "CALL"],
           Stmt.assign
             [Expr.sel
                (Expr.sel (Expr.sel (Expr.id "req") "Body") "Cbody")
                "Rpcvers"]
             [Expr.int 2],
           Stmt.assign
             [Expr.sel
                (Expr.sel (Expr.sel (Expr.id "req") "Body") "Cbody")
                "Prog"]
             [Expr.sel (Expr.id "c") "prog"],
           Stmt.assign
             [Expr.sel
                (Expr.sel (Expr.sel (Expr.id "req") "Body") "Cbody")
                "Vers"]
             [Expr.sel (Expr.id "c") "vers"],
           Stmt.assign
             [Expr.sel
                (Expr.sel (Expr.sel (Expr.id "req") "Body") "Cbody")
                "Proc"]
             [Expr.id "proc"],
           Stmt.assign
             [Expr.sel
                (Expr.sel (Expr.sel (Expr.id "req") "Body") "Cbody")
                "Cred"]
             [Expr.id "cred"],
           Stmt.assign
             [Expr.sel
                (Expr.sel (Expr.sel (Expr.id "req") "Body") "Cbody")
                "Verf"]
             [Expr.id "verf"],
           Stmt.define
             ["wr"]
             [Expr.call
                (Expr.sel (Expr.id "xdr") "MakeWriter")
                [Expr.id "nil"]
                false],
           Stmt.expr
             (Expr.call
               (Expr.sel (Expr.id "req") "Xdr")
               [Expr.id "wr"]
               false),
           Stmt.define
             ["err"]
             [Expr.call (Expr.sel (Expr.id "wr") "Error") [] false],
           Stmt.ite
             (Expr.bin "!=" (Expr.id "err") (Expr.id "nil"))
             [Stmt.ret [Expr.id "err"]]
             [],
           Stmt.expr
             (Expr.call
               (Expr.sel (Expr.id "args") "Xdr")
               [Expr.id "wr"]
               false),
           Stmt.assign
             [Expr.id "err"]
             [Expr.call (Expr.sel (Expr.id "wr") "Error") [] false],
           Stmt.ite
             (Expr.bin "!=" (Expr.id "err") (Expr.id "nil"))
             [Stmt.ret [Expr.id "err"]]
             [],
           Stmt.define
             ["wbuf"]
             [Expr.call (Expr.sel (Expr.id "wr") "WriteBuf") [] false],
           Stmt.var ["hdr"] (Ty.arr 4 (Ty.name "byte")),
           Stmt.expr
             (Expr.call
               (Expr.sel
                 (Expr.sel (Expr.id "binary") "BigEndian")
                 "PutUint32")
               [Expr.slc (Expr.id "hdr") none none none,
                Expr.bin
                  "|"
                  (Expr.bin "<<" (Expr.int 1) (Expr.int 31))
                  (Expr.call
                    (Expr.id "uint32")
                    [Expr.call (Expr.id "len") [Expr.id "wbuf"] false]
                    false)]
               false),
           Stmt.assign
             [Expr.id "_", Expr.id "err"]
             [Expr.call
                (Expr.sel (Expr.sel (Expr.id "c") "rw") "Write")
                [Expr.call
                   (Expr.id "append")
                   [Expr.slc (Expr.id "hdr") none none none, Expr.id "wbuf"]
                   true]
                false],
           Stmt.ite
             (Expr.bin "!=" (Expr.id "err") (Expr.id "nil"))
             [Stmt.ret [Expr.id "err"]]
             [],
           Stmt.assign
             [Expr.id "_", Expr.id "err"]
             [Expr.call
                (Expr.sel (Expr.id "io") "ReadFull")
                [Expr.sel (Expr.id "c") "rw",
                 Expr.slc (Expr.id "hdr") none none none]
                false],
           Stmt.ite
             (Expr.bin "!=" (Expr.id "err") (Expr.id "nil"))
             [Stmt.ret [Expr.id "err"]]
             [],
           Stmt.define
             ["hlen"]
             [Expr.call
                (Expr.sel (Expr.sel (Expr.id "binary") "BigEndian") "Uint32")
                [Expr.slc (Expr.id "hdr") none none none]
                false],
           Stmt.ite
             (Expr.bin
               "=="
               (Expr.bin
                 "&"
                 (Expr.id "hlen")
                 (Expr.bin "<<" (Expr.int 1) (Expr.int 31)))
               (Expr.int 0))
             [Stmt.ret
                [Expr.call
                   (Expr.sel (Expr.id "fmt") "Errorf")
                   [Expr.str "fragments not supported"]
                   false]]
             [],
           Stmt.define
             ["buf"]
             [Expr.call
                (Expr.id "make")
                [Expr.ty (Ty.slice (Ty.name "byte")),
                 Expr.bin "&" (Expr.id "hlen") (Expr.int 2147483647)]
                false],
           Stmt.assign
             [Expr.id "_", Expr.id "err"]
             [Expr.call
                (Expr.sel (Expr.id "io") "ReadFull")
                [Expr.sel (Expr.id "c") "rw", Expr.id "buf"]
                false],
           Stmt.ite
             (Expr.bin "!=" (Expr.id "err") (Expr.id "nil"))
             [Stmt.ret [Expr.id "err"]]
             [],
           Stmt.define
             ["rd"]
             [Expr.call
                (Expr.sel (Expr.id "xdr") "MakeReader")
                [Expr.id "buf"]
                false],
           Stmt.var ["res"] (Ty.name "Rpc_msg"),
           Stmt.expr
             (Expr.call
               (Expr.sel (Expr.id "res") "Xdr")
               [Expr.id "rd"]
               false),
           Stmt.assign
             [Expr.id "err"]
             [Expr.call (Expr.sel (Expr.id "rd") "Error") [] false],
           Stmt.ite
             (Expr.bin "!=" (Expr.id "err") (Expr.id "nil"))
             [Stmt.ret [Expr.id "err"]]
             [],
           Stmt.ite
             (Expr.bin
               "!="
               (Expr.sel (Expr.id "res") "Xid")
               (Expr.sel (Expr.id "req") "Xid"))
             [Stmt.ret
                [Expr.call
                   (Expr.sel (Expr.id "fmt") "Errorf")
                   [Expr.str "xid mismatch: %d != %d",
                    Expr.sel (Expr.id "res") "Xid",
                    Expr.sel (Expr.id "req") "Xid"]
                   false]]
             [],
           Stmt.ite
             (Expr.bin
               "!="
               (Expr.sel (Expr.sel (Expr.id "res") "Body") "Mtype")
               (Expr.id "REPLY"))
             [Stmt.ret
                [Expr.call
                   (Expr.sel (Expr.id "fmt") "Errorf")
                   [Expr.str "expected REPLY, got %d",
                    Expr.sel (Expr.sel (Expr.id "res") "Body") "Mtype"]
                   false]]
             [],
           Stmt.ite
             (Expr.bin
               "!="
               (Expr.sel
                 (Expr.sel (Expr.sel (Expr.id "res") "Body") "Rbody")
                 "Stat")
               (Expr.id "MSG_ACCEPTED"))
             [Stmt.ret
                [Expr.call
                   (Expr.sel (Expr.id "fmt") "Errorf")
                   [Expr.str "MSG_DENIED stat %d",
                    Expr.sel
                      (Expr.sel
                        (Expr.sel (Expr.sel (Expr.id "res") "Body") "Rbody")
                        "Rreply")
                      "Stat"]
                   false]]
             [],
           Stmt.ite
             (Expr.bin
               "!="
               (Expr.sel
                 (Expr.sel
                   (Expr.sel
                     (Expr.sel (Expr.sel (Expr.id "res") "Body") "Rbody")
                     "Areply")
                   "Reply_data")
                 "Stat")
               (Expr.id "SUCCESS"))
             [Stmt.ret
                [Expr.call
                   (Expr.sel (Expr.id "fmt") "Errorf")
                   [Expr.str "accept_stat %d",
                    Expr.sel
                      (Expr.sel
                        (Expr.sel
                          (Expr.sel
                            (Expr.sel (Expr.id "res") "Body")
                            "Rbody")
                          "Areply")
                        "Reply_data")
                      "Stat"]
                   false]]
             [],
           Stmt.expr
             (Expr.call
               (Expr.sel (Expr.id "resp") "Xdr")
               [Expr.id "rd"]
               false),
           Stmt.assign
             [Expr.id "err"]
             [Expr.call (Expr.sel (Expr.id "rd") "Error") [] false],
           Stmt.ite
             (Expr.bin "!=" (Expr.id "err") (Expr.id "nil"))
             [Stmt.ret [Expr.id "err"]]
             [],
           Stmt.ret [Expr.id "nil"]] }

/-- rfc1057/client.go -/
def clientFile : File := ⟨"rfc1057", ["encoding/binary", "fmt", "io", "github.com/zeldovich/go-rpcgen/xdr"], [
  Top.typ
  "Client"
  (Ty.struct
    [("rw", Ty.qual "io" "ReadWriter"),
     ("xid", Ty.name "uint32"),
     ("prog", Ty.name "uint32"),
     ("vers", Ty.name "uint32")]),
  .func client_MakeClient,
  .func client_Client_Call
]⟩

/-- rfc1057/server.go: getReqBuf -/
def server_getReqBuf : Func :=
{ recv := none,
  name := "getReqBuf",
  params := [("buflen", Ty.name "int")],
  results := [("", Ty.slice (Ty.name "byte"))],
  body := [Stmt.define
             ["bufi"]
             [Expr.call (Expr.sel (Expr.id "reqBufPool") "Get") [] false],
           Stmt.ite
             (Expr.bin "!=" (Expr.id "bufi") (Expr.id "nil"))
             [Stmt.define
                ["buf"]
                [Expr.assert
                   (Expr.id "bufi")
                   (Ty.slice (Ty.name "byte"))],
              Stmt.ite
                (Expr.bin
                  "<="
                  (Expr.id "buflen")
                  (Expr.call (Expr.id "cap") [Expr.id "buf"] false))
                [Stmt.ret
                   [Expr.slc
                      (Expr.id "buf")
                      none
                      (some (Expr.id "buflen"))
                      none]]
                []]
             [],
           Stmt.ret
             [Expr.call
                (Expr.id "make")
                [Expr.ty (Ty.slice (Ty.name "byte")),
                 Expr.id "buflen"]
                false]] }

/-- rfc1057/server.go: putReqBuf -/
def server_putReqBuf : Func :=
{ recv := none,
  name := "putReqBuf",
  params := [("s", Ty.slice (Ty.name "byte"))],
  results := [],
  body := [Stmt.expr
             (Expr.call
               (Expr.sel (Expr.id "reqBufPool") "Put")
               [Expr.id "s"]
               false)] }

/-- rfc1057/server.go: MakeServer -/
def server_MakeServer : Func :=
{ recv := none,
  name := "MakeServer",
  params := [],
  results := [("", Ty.ptr (Ty.name "Server"))],
  body := [Stmt.ret
             [Expr.un
                "&"
                (Expr.lit
                  (Ty.name "Server")
                  ["handlers"]
                  [Expr.call
                     (Expr.id "make")
                     [Expr.ty
                        (Ty.map
                          (Ty.name "uint32")
                          (Ty.map
                            (Ty.name "uint32")
                            (Ty.map
                              (Ty.name "uint32")
                              (Ty.name "ProcHandler"))))]
                     false])]] }

/-- rfc1057/server.go: Server_Register -/
def server_Server_Register : Func :=
{ recv := some ("s", Ty.ptr (Ty.name "Server")),
  name := "Register",
  params := [("prog", Ty.name "uint32"),
             ("vers", Ty.name "uint32"),
             ("proc", Ty.name "uint32"),
             ("handler", Ty.name "ProcHandler")],
  results := [],
  body := [Stmt.define
             ["_", "progok"]
             [Expr.idx
                (Expr.sel (Expr.id "s") "handlers")
                (Expr.id "prog")],
           Stmt.ite
             (Expr.un "!" (Expr.id "progok"))
             [Stmt.assign
                [Expr.idx
                   (Expr.sel (Expr.id "s") "handlers")
                   (Expr.id "prog")]
                [Expr.call
                   (Expr.id "make")
                   [Expr.ty
                      (Ty.map
                        (Ty.name "uint32")
                        (Ty.map (Ty.name "uint32") (Ty.name "ProcHandler")))]
                   false]]
             [],
           Stmt.define
             ["_", "versok"]
             [Expr.idx
                (Expr.idx
                  (Expr.sel (Expr.id "s") "handlers")
                  (Expr.id "prog"))
                (Expr.id "vers")],
           Stmt.ite
             (Expr.un "!" (Expr.id "versok"))
             [Stmt.assign
                [Expr.idx
                   (Expr.idx
                     (Expr.sel (Expr.id "s") "handlers")
                     (Expr.id "prog"))
                   (Expr.id "vers")]
                [Expr.call
                   (Expr.id "make")
                   [Expr.ty
                      (Ty.map (Ty.name "uint32") (Ty.name "ProcHandler"))]
                   false]]
             [],
           Stmt.assign
             [Expr.idx
                (Expr.idx
                  (Expr.idx
                    (Expr.sel (Expr.id "s") "handlers")
                    (Expr.id "prog"))
                  (Expr.id "vers"))
                (Expr.id "proc")]
             [Expr.id "handler"]] }

/-- rfc1057/server.go: Server_RegisterMany -/
def server_Server_RegisterMany : Func :=
{ recv := some ("s", Ty.ptr (Ty.name "Server")),
  name := "RegisterMany",
  params := [("regs", Ty.slice (Ty.qual "xdr" "ProcRegistration"))],
  results := [],
  body := [Stmt.range
             "_"
             "r"
             (Expr.id "regs")
             [Stmt.expr
                (Expr.call
                  (Expr.sel (Expr.id "s") "Register")
                  [Expr.sel (Expr.id "r") "Prog",
                   Expr.sel (Expr.id "r") "Vers",
                   Expr.sel (Expr.id "r") "Proc",
                   Expr.sel (Expr.id "r") "Handler"]
                  false)]] }

/-- rfc1057/server.go: Server_Run -/
def server_Server_Run : Func :=
{ recv := some ("s", Ty.ptr (Ty.name "Server")),
  name := "Run",
  params := [("rw", Ty.qual "io" "ReadWriter")],
  results := [("", Ty.name "error")],
  body := [Stmt.define
             ["sc"]
             [Expr.un
                "&"
                (Expr.lit
                  (Ty.name "serverConn")
                  ["s", "rw"]
                  [Expr.id "s", Expr.id "rw"])],
           Stmt.forever
             [Stmt.var ["hdr"] (Ty.arr 4 (Ty.name "byte")),
              Stmt.define
                ["_", "err"]
                [Expr.call
                   (Expr.sel (Expr.id "io") "ReadFull")
                   [Expr.sel (Expr.id "sc") "rw",
                    Expr.slc (Expr.id "hdr") none none none]
                   false],
              Stmt.ite
                (Expr.bin "!=" (Expr.id "err") (Expr.id "nil"))
                [Stmt.ret [Expr.id "err"]]
                [],
              Stmt.define
                ["hlen"]
                [Expr.call
                   (Expr.sel
                     (Expr.sel (Expr.id "binary") "BigEndian")
                     "Uint32")
                   [Expr.slc (Expr.id "hdr") none none none]
                   false],
              Stmt.ite
                (Expr.bin
                  "=="
                  (Expr.bin
                    "&"
                    (Expr.id "hlen")
                    (Expr.bin "<<" (Expr.int 1) (Expr.int 31)))
                  (Expr.int 0))
                [Stmt.ret
                   [Expr.call
                      (Expr.sel (Expr.id "fmt") "Errorf")
                      [Expr.str "fragments not supported"]
                      false]]
                [],
              Stmt.define
                ["buflen"]
                [Expr.call
                   (Expr.id "int")
                   [Expr.bin "&" (Expr.id "hlen") (Expr.int 2147483647)]
                   false],
              Stmt.define
                ["buf"]
                [Expr.call (Expr.id "getReqBuf") [Expr.id "buflen"] false],
              Stmt.assign
                [Expr.id "_", Expr.id "err"]
                [Expr.call
                   (Expr.sel (Expr.id "io") "ReadFull")
                   [Expr.sel (Expr.id "sc") "rw", Expr.id "buf"]
                   false],
              Stmt.ite
                (Expr.bin "!=" (Expr.id "err") (Expr.id "nil"))
                [Stmt.ret [Expr.id "err"]]
                [],
              Stmt.go
                (Expr.call
                  (Expr.sel (Expr.id "sc") "handleReq")
                  [Expr.id "buf"]
                  false)]] }

/-- rfc1057/server.go: serverConn_handleReq -/
def server_serverConn_handleReq : Func :=
{ recv := some ("sc", Ty.ptr (Ty.name "serverConn")),
  name := "handleReq",
  params := [("buf", Ty.slice (Ty.name "byte"))],
  results := [],
  body := [Stmt.defer
             (Expr.call (Expr.id "putReqBuf") [Expr.id "buf"] false),
           Stmt.define
             ["err"]
             [Expr.call
                (Expr.sel (Expr.id "sc") "handleReqErr")
                [Expr.id "buf"]
                false],
           Stmt.ite
             (Expr.bin "!=" (Expr.id "err") (Expr.id "nil"))
             [Stmt.expr
                (Expr.call
                  (Expr.sel (Expr.id "fmt") "Fprintf")
                  [Expr.sel (Expr.id "os") "Stderr",
                   Expr.str "%v\n",
                   Expr.id "err"]
                  false)]
             []] }

/-- rfc1057/server.go: serverConn_handleReqErr -/
def server_serverConn_handleReqErr : Func :=
{ recv := some ("sc", Ty.ptr (Ty.name "serverConn")),
  name := "handleReqErr",
  params := [("buf", Ty.slice (Ty.name "byte"))],
  results := [("", Ty.name "error")],
  body := [Stmt.define
             ["rd"]
             [Expr.call
                (Expr.sel (Expr.id "xdr") "MakeReader")
                [Expr.id "buf"]
                false],
           Stmt.var ["req"] (Ty.name "Rpc_msg"),
           Stmt.expr
             (Expr.call
               (Expr.sel (Expr.id "req") "Xdr")
               [Expr.id "rd"]
               false),
           Stmt.define
             ["err"]
             [Expr.call (Expr.sel (Expr.id "rd") "Error") [] false],
           Stmt.ite
             (Expr.bin "!=" (Expr.id "err") (Expr.id "nil"))
             [Stmt.ret [Expr.id "err"]]
             [],
           Stmt.ite
             (Expr.bin
               "!="
               (Expr.sel (Expr.sel (Expr.id "req") "Body") "Mtype")
               (Expr.id "CALL"))
             [Stmt.ret
                [Expr.call
                   (Expr.sel (Expr.id "fmt") "Errorf")
                   [Expr.str "request mtype %d != CALL",
                    Expr.sel (Expr.sel (Expr.id "req") "Body") "Mtype"]
                   false]]
             [],
           Stmt.var ["res"] (Ty.name "Rpc_msg"),
           Stmt.var ["resdata"] (Ty.qual "xdr" "Xdrable"),
           Stmt.assign
             [Expr.sel (Expr.id "res") "Xid"]
             [Expr.sel (Expr.id "req") "Xid"],
           Stmt.assign
             [Expr.sel (Expr.sel (Expr.id "res") "Body") "Mtype"]
             [Expr.id "REPLY"],
           Stmt.ite
             (Expr.bin
               "!="
               (Expr.sel
                 (Expr.sel (Expr.sel (Expr.id "req") "Body") "Cbody")
                 "Rpcvers")
               (Expr.int 2))
             [Stmt.assign
                [Expr.sel
                   (Expr.sel (Expr.sel (Expr.id "res") "Body") "Rbody")
                   "Stat"]
                [Expr.id "MSG_DENIED"],
              Stmt.assign
                [Expr.sel
                   (Expr.sel
                     (Expr.sel (Expr.sel (Expr.id "res") "Body") "Rbody")
                     "Rreply")
                   "Stat"]
                [Expr.id "RPC_MISMATCH"]]
             [Stmt.assign
                [Expr.sel
                   (Expr.sel (Expr.sel (Expr.id "res") "Body") "Rbody")
                   "Stat"]
                [Expr.id "MSG_ACCEPTED"],
              Stmt.define
                ["vermap", "progok"]
                [Expr.idx
                   (Expr.sel (Expr.sel (Expr.id "sc") "s") "handlers")
                   (Expr.sel
                     (Expr.sel (Expr.sel (Expr.id "req") "Body") "Cbody")
                     "Prog")],
              Stmt.ite
                (Expr.un "!" (Expr.id "progok"))
                [Stmt.assign
                   [Expr.sel
                      (Expr.sel
                        (Expr.sel
                          (Expr.sel
                            (Expr.sel (Expr.id "res") "Body")
                            "Rbody")
                          "Areply")
                        "Reply_data")
                      "Stat"]
                   [Expr.id "PROG_UNAVAIL"],
                 Stmt.goto "reply"]
                [],
              Stmt.define
                ["procmap", "verok"]
                [Expr.idx
                   (Expr.id "vermap")
                   (Expr.sel
                     (Expr.sel (Expr.sel (Expr.id "req") "Body") "Cbody")
                     "Vers")],
              Stmt.ite
                (Expr.un "!" (Expr.id "verok"))
                [Stmt.assign
                   [Expr.sel
                      (Expr.sel
                        (Expr.sel
                          (Expr.sel
                            (Expr.sel (Expr.id "res") "Body")
                            "Rbody")
                          "Areply")
                        "Reply_data")
                      "Stat"]
                   [Expr.id "PROG_MISMATCH"],
                 Stmt.goto "reply"]
                [],
              Stmt.define
                ["h", "procok"]
                [Expr.idx
                   (Expr.id "procmap")
                   (Expr.sel
                     (Expr.sel (Expr.sel (Expr.id "req") "Body") "Cbody")
                     "Proc")],
              Stmt.ite
                (Expr.un "!" (Expr.id "procok"))
                [Stmt.assign
                   [Expr.sel
                      (Expr.sel
                        (Expr.sel
                          (Expr.sel
                            (Expr.sel (Expr.id "res") "Body")
                            "Rbody")
                          "Areply")
                        "Reply_data")
                      "Stat"]
                   [Expr.id "PROC_UNAVAIL"],
                 Stmt.goto "reply"]
                [],
              Stmt.assign
                [Expr.id "resdata", Expr.id "err"]
                [Expr.call (Expr.id "h") [Expr.id "rd"] false],
              Stmt.ite
                (Expr.bin "!=" (Expr.id "err") (Expr.id "nil"))
                [Stmt.assign
                   [Expr.sel
                      (Expr.sel
                        (Expr.sel
                          (Expr.sel
                            (Expr.sel (Expr.id "res") "Body")
                            "Rbody")
                          "Areply")
                        "Reply_data")
                      "Stat"]
                   [Expr.id "GARBAGE_ARGS"],
                 Stmt.goto "reply"]
                [],
              Stmt.assign
                [Expr.sel
                   (Expr.sel
                     (Expr.sel
                       (Expr.sel (Expr.sel (Expr.id "res") "Body") "Rbody")
                       "Areply")
                     "Reply_data")
                   "Stat"]
                [Expr.id "SUCCESS"]],
           Stmt.label "reply",
           Stmt.var ["reserveLen"] (Ty.arr 4 (Ty.name "byte")),
           Stmt.define
             ["wr"]
             [Expr.call
                (Expr.sel (Expr.id "xdr") "MakeWriter")
                [Expr.slc (Expr.id "reserveLen") none none none]
                false],
           Stmt.expr
             (Expr.call
               (Expr.sel (Expr.id "res") "Xdr")
               [Expr.id "wr"]
               false),
           Stmt.assign
             [Expr.id "err"]
             [Expr.call (Expr.sel (Expr.id "wr") "Error") [] false],
           Stmt.ite
             (Expr.bin "!=" (Expr.id "err") (Expr.id "nil"))
             [Stmt.ret [Expr.id "err"]]
             [],
           Stmt.ite
             (Expr.bin "!=" (Expr.id "resdata") (Expr.id "nil"))
             [Stmt.expr
                (Expr.call
                  (Expr.sel (Expr.id "resdata") "Xdr")
                  [Expr.id "wr"]
                  false),
              Stmt.assign
                [Expr.id "err"]
                [Expr.call (Expr.sel (Expr.id "wr") "Error") [] false],
              Stmt.ite
                (Expr.bin "!=" (Expr.id "err") (Expr.id "nil"))
                [Stmt.ret [Expr.id "err"]]
                []]
             [],
           Stmt.define
             ["wbuf"]
             [Expr.call (Expr.sel (Expr.id "wr") "WriteBuf") [] false],
           Stmt.expr
             (Expr.call
               (Expr.sel
                 (Expr.sel (Expr.id "binary") "BigEndian")
                 "PutUint32")
               [Expr.slc
                  (Expr.id "wbuf")
                  (some (Expr.int 0))
                  (some (Expr.int 4))
                  none,
                Expr.bin
                  "|"
                  (Expr.bin "<<" (Expr.int 1) (Expr.int 31))
                  (Expr.call
                    (Expr.id "uint32")
                    [Expr.bin
                       "-"
                       (Expr.call (Expr.id "len") [Expr.id "wbuf"] false)
                       (Expr.int 4)]
                    false)]
               false),
           Stmt.assign
             [Expr.id "_", Expr.id "err"]
             [Expr.call
                (Expr.sel (Expr.sel (Expr.id "sc") "rw") "Write")
                [Expr.id "wbuf"]
                false],
           Stmt.ret [Expr.id "err"]] }

/-- rfc1057/server.go -/
def serverFile : File := ⟨"rfc1057", ["encoding/binary", "fmt", "io", "os", "sync", "github.com/zeldovich/go-rpcgen/xdr"], [
  Top.var "reqBufPool" (Ty.qual "sync" "Pool"),
  .func server_getReqBuf,
  .func server_putReqBuf,
  Top.typ
  "ProcHandler"
  (Ty.func
    [("args", Ty.ptr (Ty.qual "xdr" "XdrState"))]
    [("res", Ty.qual "xdr" "Xdrable"), ("err", Ty.name "error")]),
  Top.typ
  "Server"
  (Ty.struct
    [("handlers",
      Ty.map
        (Ty.name "uint32")
        (Ty.map
          (Ty.name "uint32")
          (Ty.map (Ty.name "uint32") (Ty.name "ProcHandler"))))]),
  Top.typ
  "serverConn"
  (Ty.struct
    [("s", Ty.ptr (Ty.name "Server")), ("rw", Ty.qual "io" "ReadWriter")]),
  .func server_MakeServer,
  .func server_Server_Register,
  .func server_Server_RegisterMany,
  .func server_Server_Run,
  .func server_serverConn_handleReq,
  .func server_serverConn_handleReqErr
]⟩

/-- rfc1057/types.go -/
def rpcTypesFile : File := ⟨"rfc1057", [], [
  Top.typ "Auth_flavor" (Ty.name "uint32"),
  Top.const "AUTH_NONE" (some (Ty.name "Auth_flavor")) (Expr.int 0),
  Top.const "AUTH_UNIX" (some (Ty.name "Auth_flavor")) (Expr.int 1),
  Top.const "AUTH_SHORT" (some (Ty.name "Auth_flavor")) (Expr.int 2),
  Top.const "AUTH_DES" (some (Ty.name "Auth_flavor")) (Expr.int 3),
  Top.typ
  "Opaque_auth"
  (Ty.struct
    [("Flavor", Ty.name "Auth_flavor"),
     ("Body", Ty.slice (Ty.name "byte"))]),
  Top.typ "Msg_type" (Ty.name "uint32"),
  Top.const "CALL" (some (Ty.name "Msg_type")) (Expr.int 0),
  Top.const "REPLY" (some (Ty.name "Msg_type")) (Expr.int 1),
  Top.typ "Reply_stat" (Ty.name "uint32"),
  Top.const "MSG_ACCEPTED" (some (Ty.name "Reply_stat")) (Expr.int 0),
  Top.const "MSG_DENIED" (some (Ty.name "Reply_stat")) (Expr.int 1),
  Top.typ "Accept_stat" (Ty.name "uint32"),
  Top.const "SUCCESS" (some (Ty.name "Accept_stat")) (Expr.int 0),
  Top.const "PROG_UNAVAIL" (some (Ty.name "Accept_stat")) (Expr.int 1),
  Top.const "PROG_MISMATCH" (some (Ty.name "Accept_stat")) (Expr.int 2),
  Top.const "PROC_UNAVAIL" (some (Ty.name "Accept_stat")) (Expr.int 3),
  Top.const "GARBAGE_ARGS" (some (Ty.name "Accept_stat")) (Expr.int 4),
  Top.typ "Reject_stat" (Ty.name "uint32"),
  Top.const "RPC_MISMATCH" (some (Ty.name "Reject_stat")) (Expr.int 0),
  Top.const "AUTH_ERROR" (some (Ty.name "Reject_stat")) (Expr.int 1),
  Top.typ "Auth_stat" (Ty.name "uint32"),
  Top.const "AUTH_BADCRED" (some (Ty.name "Auth_stat")) (Expr.int 1),
  Top.const "AUTH_REJECTEDCRED" (some (Ty.name "Auth_stat")) (Expr.int 2),
  Top.const "AUTH_BADVERF" (some (Ty.name "Auth_stat")) (Expr.int 3),
  Top.const "AUTH_REJECTEDVERF" (some (Ty.name "Auth_stat")) (Expr.int 4),
  Top.const "AUTH_TOOWEAK" (some (Ty.name "Auth_stat")) (Expr.int 5),
  Top.typ
  "Rpc_msg"
  (Ty.struct
    [("Xid", Ty.name "uint32"),
     ("Body",
      Ty.struct
        [("Mtype", Ty.name "Msg_type"),
         ("Cbody", Ty.name "Call_body"),
         ("Rbody", Ty.name "Reply_body")])]),
  Top.typ
  "Call_body"
  (Ty.struct
    [("Rpcvers", Ty.name "uint32"),
     ("Prog", Ty.name "uint32"),
     ("Vers", Ty.name "uint32"),
     ("Proc", Ty.name "uint32"),
     ("Cred", Ty.name "Opaque_auth"),
     ("Verf", Ty.name "Opaque_auth")]),
  Top.typ
  "Reply_body"
  (Ty.struct
    [("Stat", Ty.name "Reply_stat"),
     ("Areply", Ty.name "Accepted_reply"),
     ("Rreply", Ty.name "Rejected_reply")]),
  Top.typ
  "Accepted_reply"
  (Ty.struct
    [("Verf", Ty.name "Opaque_auth"),
     ("Reply_data",
      Ty.struct
        [("Stat", Ty.name "Accept_stat"),
         ("Results", Ty.arr 0 (Ty.name "byte")),
         ("Mismatch_info",
          Ty.struct
            [("Low", Ty.name "uint32"), ("High", Ty.name "uint32")])])]),
  Top.typ
  "Rejected_reply"
  (Ty.struct
    [("Stat", Ty.name "Reject_stat"),
     ("Mismatch_info",
      Ty.struct [("Low", Ty.name "uint32"), ("High", Ty.name "uint32")]),
     ("Astat", Ty.name "Auth_stat")]),
  Top.typ
  "Auth_unix"
  (Ty.struct
    [("Stamp", Ty.name "uint32"),
     ("Machinename", Ty.name "string"),
     ("Uid", Ty.name "uint32"),
     ("Gid", Ty.name "uint32"),
     ("Gids", Ty.slice (Ty.name "uint32"))]),
  Top.const "PMAP_PORT" (some (Ty.name "uint32")) (Expr.int 111),
  Top.typ
  "Mapping"
  (Ty.struct
    [("Prog", Ty.name "uint32"),
     ("Vers", Ty.name "uint32"),
     ("Prot", Ty.name "uint32"),
     ("Port", Ty.name "uint32")]),
  Top.const "IPPROTO_TCP" (some (Ty.name "uint32")) (Expr.int 6),
  Top.const "IPPROTO_UDP" (some (Ty.name "uint32")) (Expr.int 17),
  Top.typ
  "Pmaplist"
  (Ty.struct [("P", Ty.ptr (Ty.name "Pmaplistelem"))]),
  Top.typ
  "Pmaplistelem"
  (Ty.struct [("Map", Ty.name "Mapping"), ("Next", Ty.name "Pmaplist")]),
  Top.typ
  "Call_args"
  (Ty.struct
    [("Prog", Ty.name "uint32"),
     ("Vers", Ty.name "uint32"),
     ("Proc", Ty.name "uint32"),
     ("Args", Ty.slice (Ty.name "byte"))]),
  Top.typ
  "Call_result"
  (Ty.struct
    [("Port", Ty.name "uint32"), ("Res", Ty.slice (Ty.name "byte"))]),
  Top.typ "Uint32" (Ty.name "uint32"),
  Top.typ "Xbool" (Ty.name "bool"),
  Top.const "PMAP_PROG" (some (Ty.name "uint32")) (Expr.int 100000),
  Top.const "PMAP_VERS" (some (Ty.name "uint32")) (Expr.int 2),
  Top.const "PMAPPROC_NULL" (some (Ty.name "uint32")) (Expr.int 0),
  Top.const "PMAPPROC_SET" (some (Ty.name "uint32")) (Expr.int 1),
  Top.const "PMAPPROC_UNSET" (some (Ty.name "uint32")) (Expr.int 2),
  Top.const "PMAPPROC_GETPORT" (some (Ty.name "uint32")) (Expr.int 3),
  Top.const "PMAPPROC_DUMP" (some (Ty.name "uint32")) (Expr.int 4),
  Top.const "PMAPPROC_CALLIT" (some (Ty.name "uint32")) (Expr.int 5)
]⟩

/-- rfc1057/xdr.go: Auth_flavor_Xdr -/
def rpcXdr_Auth_flavor_Xdr : Func :=
{ recv := some ("v", Ty.ptr (Ty.name "Auth_flavor")),
  name := "Xdr",
  params := [("xs", Ty.ptr (Ty.qual "xdr" "XdrState"))],
  results := [],
  body := [Stmt.expr
             (Expr.call
               (Expr.sel (Expr.id "xdr") "XdrU32")
               [Expr.id "xs",
                Expr.call
                  (Expr.un "*" (Expr.id "uint32"))
                  [Expr.id "v"]
                  false]
               false)] }

/-- rfc1057/xdr.go: Opaque_auth_Xdr -/
def rpcXdr_Opaque_auth_Xdr : Func :=
{ recv := some ("v", Ty.ptr (Ty.name "Opaque_auth")),
  name := "Xdr",
  params := [("xs", Ty.ptr (Ty.qual "xdr" "XdrState"))],
  results := [],
  body := [Stmt.expr
             (Expr.call
               (Expr.sel
                 (Expr.call
                   (Expr.un "*" (Expr.id "Auth_flavor"))
                   [Expr.un "&" (Expr.sel (Expr.id "v") "Flavor")]
                   false)
                 "Xdr")
               [Expr.id "xs"]
               false),
           Stmt.expr
             (Expr.call
               (Expr.sel (Expr.id "xdr") "XdrVarArray")
               [Expr.id "xs",
                Expr.call (Expr.id "int") [Expr.int 400] false,
                Expr.call
                  (Expr.un
                    "*"
                    (Expr.ty (Ty.slice (Ty.name "byte"))))
                  [Expr.un "&" (Expr.sel (Expr.id "v") "Body")]
                  false]
               false)] }

/-- rfc1057/xdr.go: Msg_type_Xdr -/
def rpcXdr_Msg_type_Xdr : Func :=
{ recv := some ("v", Ty.ptr (Ty.name "Msg_type")),
  name := "Xdr",
  params := [("xs", Ty.ptr (Ty.qual "xdr" "XdrState"))],
  results := [],
  body := [Stmt.expr
             (Expr.call
               (Expr.sel (Expr.id "xdr") "XdrU32")
               [Expr.id "xs",
                Expr.call
                  (Expr.un "*" (Expr.id "uint32"))
                  [Expr.id "v"]
                  false]
               false)] }

/-- rfc1057/xdr.go: Reply_stat_Xdr -/
def rpcXdr_Reply_stat_Xdr : Func :=
{ recv := some ("v", Ty.ptr (Ty.name "Reply_stat")),
  name := "Xdr",
  params := [("xs", Ty.ptr (Ty.qual "xdr" "XdrState"))],
  results := [],
  body := [Stmt.expr
             (Expr.call
               (Expr.sel (Expr.id "xdr") "XdrU32")
               [Expr.id "xs",
                Expr.call
                  (Expr.un "*" (Expr.id "uint32"))
                  [Expr.id "v"]
                  false]
               false)] }

/-- rfc1057/xdr.go: Accept_stat_Xdr -/
def rpcXdr_Accept_stat_Xdr : Func :=
{ recv := some ("v", Ty.ptr (Ty.name "Accept_stat")),
  name := "Xdr",
  params := [("xs", Ty.ptr (Ty.qual "xdr" "XdrState"))],
  results := [],
  body := [Stmt.expr
             (Expr.call
               (Expr.sel (Expr.id "xdr") "XdrU32")
               [Expr.id "xs",
                Expr.call
                  (Expr.un "*" (Expr.id "uint32"))
                  [Expr.id "v"]
                  false]
               false)] }

/-- rfc1057/xdr.go: Reject_stat_Xdr -/
def rpcXdr_Reject_stat_Xdr : Func :=
{ recv := some ("v", Ty.ptr (Ty.name "Reject_stat")),
  name := "Xdr",
  params := [("xs", Ty.ptr (Ty.qual "xdr" "XdrState"))],
  results := [],
  body := [Stmt.expr
             (Expr.call
               (Expr.sel (Expr.id "xdr") "XdrU32")
               [Expr.id "xs",
                Expr.call
                  (Expr.un "*" (Expr.id "uint32"))
                  [Expr.id "v"]
                  false]
               false)] }

/-- rfc1057/xdr.go: Auth_stat_Xdr -/
def rpcXdr_Auth_stat_Xdr : Func :=
{ recv := some ("v", Ty.ptr (Ty.name "Auth_stat")),
  name := "Xdr",
  params := [("xs", Ty.ptr (Ty.qual "xdr" "XdrState"))],
  results := [],
  body := [Stmt.expr
             (Expr.call
               (Expr.sel (Expr.id "xdr") "XdrU32")
               [Expr.id "xs",
                Expr.call
                  (Expr.un "*" (Expr.id "uint32"))
                  [Expr.id "v"]
                  false]
               false)] }

/-- rfc1057/xdr.go: Rpc_msg_Xdr -/
def rpcXdr_Rpc_msg_Xdr : Func :=
{ recv := some ("v", Ty.ptr (Ty.name "Rpc_msg")),
  name := "Xdr",
  params := [("xs", Ty.ptr (Ty.qual "xdr" "XdrState"))],
  results := [],
  body := [Stmt.expr
             (Expr.call
               (Expr.sel (Expr.id "xdr") "XdrU32")
               [Expr.id "xs",
                Expr.call
                  (Expr.un "*" (Expr.id "uint32"))
                  [Expr.un "&" (Expr.sel (Expr.id "v") "Xid")]
                  false]
               false),
           Stmt.expr
             (Expr.call
               (Expr.sel
                 (Expr.call
                   (Expr.un "*" (Expr.id "Msg_type"))
                   [Expr.un
                      "&"
                      (Expr.sel
                        (Expr.un "&" (Expr.sel (Expr.id "v") "Body"))
                        "Mtype")]
                   false)
                 "Xdr")
               [Expr.id "xs"]
               false),
           Stmt.switch
             (Expr.sel
               (Expr.un "&" (Expr.sel (Expr.id "v") "Body"))
               "Mtype")
             [[Expr.id "CALL"], [Expr.id "REPLY"]]
             [[Stmt.expr
                 (Expr.call
                   (Expr.sel
                     (Expr.call
                       (Expr.un "*" (Expr.id "Call_body"))
                       [Expr.un
                          "&"
                          (Expr.sel
                            (Expr.un "&" (Expr.sel (Expr.id "v") "Body"))
                            "Cbody")]
                       false)
                     "Xdr")
                   [Expr.id "xs"]
                   false)],
              [Stmt.expr
                 (Expr.call
                   (Expr.sel
                     (Expr.call
                       (Expr.un "*" (Expr.id "Reply_body"))
                       [Expr.un
                          "&"
                          (Expr.sel
                            (Expr.un "&" (Expr.sel (Expr.id "v") "Body"))
                            "Rbody")]
                       false)
                     "Xdr")
                   [Expr.id "xs"]
                   false)]]] }

/-- rfc1057/xdr.go: Call_body_Xdr -/
def rpcXdr_Call_body_Xdr : Func :=
{ recv := some ("v", Ty.ptr (Ty.name "Call_body")),
  name := "Xdr",
  params := [("xs", Ty.ptr (Ty.qual "xdr" "XdrState"))],
  results := [],
  body := [Stmt.expr
             (Expr.call
               (Expr.sel (Expr.id "xdr") "XdrU32")
               [Expr.id "xs",
                Expr.call
                  (Expr.un "*" (Expr.id "uint32"))
                  [Expr.un "&" (Expr.sel (Expr.id "v") "Rpcvers")]
                  false]
               false),
           Stmt.expr
             (Expr.call
               (Expr.sel (Expr.id "xdr") "XdrU32")
               [Expr.id "xs",
                Expr.call
                  (Expr.un "*" (Expr.id "uint32"))
                  [Expr.un "&" (Expr.sel (Expr.id "v") "Prog")]
                  false]
               false),
           Stmt.expr
             (Expr.call
               (Expr.sel (Expr.id "xdr") "XdrU32")
               [Expr.id "xs",
                Expr.call
                  (Expr.un "*" (Expr.id "uint32"))
                  [Expr.un "&" (Expr.sel (Expr.id "v") "Vers")]
                  false]
               false),
           Stmt.expr
             (Expr.call
               (Expr.sel (Expr.id "xdr") "XdrU32")
               [Expr.id "xs",
                Expr.call
                  (Expr.un "*" (Expr.id "uint32"))
                  [Expr.un "&" (Expr.sel (Expr.id "v") "Proc")]
                  false]
               false),
           Stmt.expr
             (Expr.call
               (Expr.sel
                 (Expr.call
                   (Expr.un "*" (Expr.id "Opaque_auth"))
                   [Expr.un "&" (Expr.sel (Expr.id "v") "Cred")]
                   false)
                 "Xdr")
               [Expr.id "xs"]
               false),
           Stmt.expr
             (Expr.call
               (Expr.sel
                 (Expr.call
                   (Expr.un "*" (Expr.id "Opaque_auth"))
                   [Expr.un "&" (Expr.sel (Expr.id "v") "Verf")]
                   false)
                 "Xdr")
               [Expr.id "xs"]
               false)] }

/-- rfc1057/xdr.go: Reply_body_Xdr -/
def rpcXdr_Reply_body_Xdr : Func :=
{ recv := some ("v", Ty.ptr (Ty.name "Reply_body")),
  name := "Xdr",
  params := [("xs", Ty.ptr (Ty.qual "xdr" "XdrState"))],
  results := [],
  body := [Stmt.expr
             (Expr.call
               (Expr.sel
                 (Expr.call
                   (Expr.un "*" (Expr.id "Reply_stat"))
                   [Expr.un "&" (Expr.sel (Expr.id "v") "Stat")]
                   false)
                 "Xdr")
               [Expr.id "xs"]
               false),
           Stmt.switch
             (Expr.sel (Expr.id "v") "Stat")
             [[Expr.id "MSG_ACCEPTED"], [Expr.id "MSG_DENIED"]]
             [[Stmt.expr
                 (Expr.call
                   (Expr.sel
                     (Expr.call
                       (Expr.un "*" (Expr.id "Accepted_reply"))
                       [Expr.un "&" (Expr.sel (Expr.id "v") "Areply")]
                       false)
                     "Xdr")
                   [Expr.id "xs"]
                   false)],
              [Stmt.expr
                 (Expr.call
                   (Expr.sel
                     (Expr.call
                       (Expr.un "*" (Expr.id "Rejected_reply"))
                       [Expr.un "&" (Expr.sel (Expr.id "v") "Rreply")]
                       false)
                     "Xdr")
                   [Expr.id "xs"]
                   false)]]] }

/-- rfc1057/xdr.go: Accepted_reply_Xdr -/
def rpcXdr_Accepted_reply_Xdr : Func :=
{ recv := some ("v", Ty.ptr (Ty.name "Accepted_reply")),
  name := "Xdr",
  params := [("xs", Ty.ptr (Ty.qual "xdr" "XdrState"))],
  results := [],
  body := [Stmt.expr
             (Expr.call
               (Expr.sel
                 (Expr.call
                   (Expr.un "*" (Expr.id "Opaque_auth"))
                   [Expr.un "&" (Expr.sel (Expr.id "v") "Verf")]
                   false)
                 "Xdr")
               [Expr.id "xs"]
               false),
           Stmt.expr
             (Expr.call
               (Expr.sel
                 (Expr.call
                   (Expr.un "*" (Expr.id "Accept_stat"))
                   [Expr.un
                      "&"
                      (Expr.sel
                        (Expr.un "&" (Expr.sel (Expr.id "v") "Reply_data"))
                        "Stat")]
                   false)
                 "Xdr")
               [Expr.id "xs"]
               false),
           Stmt.switch
             (Expr.sel
               (Expr.un "&" (Expr.sel (Expr.id "v") "Reply_data"))
               "Stat")
             [[Expr.id "SUCCESS"], [Expr.id "PROG_MISMATCH"], []]
             [[Stmt.expr
                 (Expr.call
                   (Expr.sel (Expr.id "xdr") "XdrArray")
                   [Expr.id "xs",
                    Expr.slc
                      (Expr.un
                        "*"
                        (Expr.un
                          "&"
                          (Expr.sel
                            (Expr.un
                              "&"
                              (Expr.sel (Expr.id "v") "Reply_data"))
                            "Results")))
                      none
                      none
                      none]
                   false)],
              [Stmt.expr
                 (Expr.call
                   (Expr.sel (Expr.id "xdr") "XdrU32")
                   [Expr.id "xs",
                    Expr.call
                      (Expr.un "*" (Expr.id "uint32"))
                      [Expr.un
                         "&"
                         (Expr.sel
                           (Expr.un
                             "&"
                             (Expr.sel
                               (Expr.un
                                 "&"
                                 (Expr.sel (Expr.id "v") "Reply_data"))
                               "Mismatch_info"))
                           "Low")]
                      false]
                   false),
               Stmt.expr
                 (Expr.call
                   (Expr.sel (Expr.id "xdr") "XdrU32")
                   [Expr.id "xs",
                    Expr.call
                      (Expr.un "*" (Expr.id "uint32"))
                      [Expr.un
                         "&"
                         (Expr.sel
                           (Expr.un
                             "&"
                             (Expr.sel
                               (Expr.un
                                 "&"
                                 (Expr.sel (Expr.id "v") "Reply_data"))
                               "Mismatch_info"))
                           "High")]
                      false]
                   false)],
              []]] }

/-- rfc1057/xdr.go: Rejected_reply_Xdr -/
def rpcXdr_Rejected_reply_Xdr : Func :=
{ recv := some ("v", Ty.ptr (Ty.name "Rejected_reply")),
  name := "Xdr",
  params := [("xs", Ty.ptr (Ty.qual "xdr" "XdrState"))],
  results := [],
  body := [Stmt.expr
             (Expr.call
               (Expr.sel
                 (Expr.call
                   (Expr.un "*" (Expr.id "Reject_stat"))
                   [Expr.un "&" (Expr.sel (Expr.id "v") "Stat")]
                   false)
                 "Xdr")
               [Expr.id "xs"]
               false),
           Stmt.switch
             (Expr.sel (Expr.id "v") "Stat")
             [[Expr.id "RPC_MISMATCH"], [Expr.id "AUTH_ERROR"]]
             [[Stmt.expr
                 (Expr.call
                   (Expr.sel (Expr.id "xdr") "XdrU32")
                   [Expr.id "xs",
                    Expr.call
                      (Expr.un "*" (Expr.id "uint32"))
                      [Expr.un
                         "&"
                         (Expr.sel
                           (Expr.un
                             "&"
                             (Expr.sel (Expr.id "v") "Mismatch_info"))
                           "Low")]
                      false]
                   false),
               Stmt.expr
                 (Expr.call
                   (Expr.sel (Expr.id "xdr") "XdrU32")
                   [Expr.id "xs",
                    Expr.call
                      (Expr.un "*" (Expr.id "uint32"))
                      [Expr.un
                         "&"
                         (Expr.sel
                           (Expr.un
                             "&"
                             (Expr.sel (Expr.id "v") "Mismatch_info"))
                           "High")]
                      false]
                   false)],
              [Stmt.expr
                 (Expr.call
                   (Expr.sel
                     (Expr.call
                       (Expr.un "*" (Expr.id "Auth_stat"))
                       [Expr.un "&" (Expr.sel (Expr.id "v") "Astat")]
                       false)
                     "Xdr")
                   [Expr.id "xs"]
                   false)]]] }

/-- rfc1057/xdr.go: Auth_unix_Xdr -/
def rpcXdr_Auth_unix_Xdr : Func :=
{ recv := some ("v", Ty.ptr (Ty.name "Auth_unix")),
  name := "Xdr",
  params := [("xs", Ty.ptr (Ty.qual "xdr" "XdrState"))],
  results := [],
  body := [Stmt.expr
             (Expr.call
               (Expr.sel (Expr.id "xdr") "XdrU32")
               [Expr.id "xs",
                Expr.call
                  (Expr.un "*" (Expr.id "uint32"))
                  [Expr.un "&" (Expr.sel (Expr.id "v") "Stamp")]
                  false]
               false),
           Stmt.expr
             (Expr.call
               (Expr.sel (Expr.id "xdr") "XdrString")
               [Expr.id "xs",
                Expr.call (Expr.id "int") [Expr.int 255] false,
                Expr.call
                  (Expr.un "*" (Expr.id "string"))
                  [Expr.un "&" (Expr.sel (Expr.id "v") "Machinename")]
                  false]
               false),
           Stmt.expr
             (Expr.call
               (Expr.sel (Expr.id "xdr") "XdrU32")
               [Expr.id "xs",
                Expr.call
                  (Expr.un "*" (Expr.id "uint32"))
                  [Expr.un "&" (Expr.sel (Expr.id "v") "Uid")]
                  false]
               false),
           Stmt.expr
             (Expr.call
               (Expr.sel (Expr.id "xdr") "XdrU32")
               [Expr.id "xs",
                Expr.call
                  (Expr.un "*" (Expr.id "uint32"))
                  [Expr.un "&" (Expr.sel (Expr.id "v") "Gid")]
                  false]
               false),
           Stmt.block
             [Stmt.var ["__arraysz"] (Ty.name "uint32"),
              Stmt.expr
                (Expr.call
                  (Expr.sel (Expr.id "xs") "EncodingSetSize")
                  [Expr.un "&" (Expr.id "__arraysz"),
                   Expr.call
                     (Expr.id "len")
                     [Expr.un
                        "*"
                        (Expr.un "&" (Expr.sel (Expr.id "v") "Gids"))]
                     false]
                  false),
              Stmt.expr
                (Expr.call
                  (Expr.sel (Expr.id "xdr") "XdrU32")
                  [Expr.id "xs",
                   Expr.call
                     (Expr.un "*" (Expr.id "uint32"))
                     [Expr.un "&" (Expr.id "__arraysz")]
                     false]
                  false),
              Stmt.ite
                (Expr.bin ">" (Expr.id "__arraysz") (Expr.int 16))
                [Stmt.expr
                   (Expr.call
                     (Expr.sel (Expr.id "xs") "SetError")
                     [Expr.str "array too large"]
                     false)]
                [Stmt.ite
                   (Expr.call (Expr.sel (Expr.id "xs") "Decoding") [] false)
                   [Stmt.assign
                      [Expr.un
                         "*"
                         (Expr.un "&" (Expr.sel (Expr.id "v") "Gids"))]
                      [Expr.call
                         (Expr.id "make")
                         [Expr.ty (Ty.slice (Ty.name "uint32")),
                          Expr.id "__arraysz"]
                         false]]
                   [],
                 Stmt.loop
                   (Stmt.define
                     ["i"]
                     [Expr.call (Expr.id "uint64") [Expr.int 0] false])
                   (Expr.bin
                     "<"
                     (Expr.id "i")
                     (Expr.call
                       (Expr.id "uint64")
                       [Expr.id "__arraysz"]
                       false))
                   (Stmt.inc (Expr.id "i"))
                   [Stmt.expr
                      (Expr.call
                        (Expr.sel (Expr.id "xdr") "XdrU32")
                        [Expr.id "xs",
                         Expr.call
                           (Expr.un "*" (Expr.id "uint32"))
                           [Expr.un
                              "&"
                              (Expr.idx
                                (Expr.un
                                  "*"
                                  (Expr.un
                                    "&"
                                    (Expr.sel (Expr.id "v") "Gids")))
                                (Expr.id "i"))]
                           false]
                        false)]]]] }

/-- rfc1057/xdr.go: Mapping_Xdr -/
def rpcXdr_Mapping_Xdr : Func :=
{ recv := some ("v", Ty.ptr (Ty.name "Mapping")),
  name := "Xdr",
  params := [("xs", Ty.ptr (Ty.qual "xdr" "XdrState"))],
  results := [],
  body := [Stmt.expr
             (Expr.call
               (Expr.sel (Expr.id "xdr") "XdrU32")
               [Expr.id "xs",
                Expr.call
                  (Expr.un "*" (Expr.id "uint32"))
                  [Expr.un "&" (Expr.sel (Expr.id "v") "Prog")]
                  false]
               false),
           Stmt.expr
             (Expr.call
               (Expr.sel (Expr.id "xdr") "XdrU32")
               [Expr.id "xs",
                Expr.call
                  (Expr.un "*" (Expr.id "uint32"))
                  [Expr.un "&" (Expr.sel (Expr.id "v") "Vers")]
                  false]
               false),
           Stmt.expr
             (Expr.call
               (Expr.sel (Expr.id "xdr") "XdrU32")
               [Expr.id "xs",
                Expr.call
                  (Expr.un "*" (Expr.id "uint32"))
                  [Expr.un "&" (Expr.sel (Expr.id "v") "Prot")]
                  false]
               false),
           Stmt.expr
             (Expr.call
               (Expr.sel (Expr.id "xdr") "XdrU32")
               [Expr.id "xs",
                Expr.call
                  (Expr.un "*" (Expr.id "uint32"))
                  [Expr.un "&" (Expr.sel (Expr.id "v") "Port")]
                  false]
               false)] }

/-- rfc1057/xdr.go: Pmaplist_Xdr -/
def rpcXdr_Pmaplist_Xdr : Func :=
{ recv := some ("v", Ty.ptr (Ty.name "Pmaplist")),
  name := "Xdr",
  params := [("xs", Ty.ptr (Ty.qual "xdr" "XdrState"))],
  results := [],
  body := [Stmt.ite
             (Expr.call (Expr.sel (Expr.id "xs") "Encoding") [] false)
             [Stmt.define
                ["opted"]
                [Expr.bin
                   "!="
                   (Expr.un
                     "*"
                     (Expr.un "&" (Expr.sel (Expr.id "v") "P")))
                   (Expr.id "nil")],
              Stmt.expr
                (Expr.call
                  (Expr.sel (Expr.id "xdr") "XdrBool")
                  [Expr.id "xs",
                   Expr.call
                     (Expr.un "*" (Expr.id "bool"))
                     [Expr.un "&" (Expr.id "opted")]
                     false]
                  false),
              Stmt.ite
                (Expr.id "opted")
                [Stmt.expr
                   (Expr.call
                     (Expr.sel
                       (Expr.call
                         (Expr.un "*" (Expr.id "Pmaplistelem"))
                         [Expr.un
                            "*"
                            (Expr.un "&" (Expr.sel (Expr.id "v") "P"))]
                         false)
                       "Xdr")
                     [Expr.id "xs"]
                     false)]
                []]
             [],
           Stmt.ite
             (Expr.call (Expr.sel (Expr.id "xs") "Decoding") [] false)
             [Stmt.var ["opted"] (Ty.name "bool"),
              Stmt.expr
                (Expr.call
                  (Expr.sel (Expr.id "xdr") "XdrBool")
                  [Expr.id "xs",
                   Expr.call
                     (Expr.un "*" (Expr.id "bool"))
                     [Expr.un "&" (Expr.id "opted")]
                     false]
                  false),
              Stmt.ite
                (Expr.id "opted")
                [Stmt.assign
                   [Expr.un
                      "*"
                      (Expr.un "&" (Expr.sel (Expr.id "v") "P"))]
                   [Expr.call
                      (Expr.id "new")
                      [Expr.id "Pmaplistelem"]
                      false],
                 Stmt.expr
                   (Expr.call
                     (Expr.sel
                       (Expr.call
                         (Expr.un "*" (Expr.id "Pmaplistelem"))
                         [Expr.un
                            "*"
                            (Expr.un "&" (Expr.sel (Expr.id "v") "P"))]
                         false)
                       "Xdr")
                     [Expr.id "xs"]
                     false)]
                []]
             []] }

/-- rfc1057/xdr.go: Pmaplistelem_Xdr -/
def rpcXdr_Pmaplistelem_Xdr : Func :=
{ recv := some ("v", Ty.ptr (Ty.name "Pmaplistelem")),
  name := "Xdr",
  params := [("xs", Ty.ptr (Ty.qual "xdr" "XdrState"))],
  results := [],
  body := [Stmt.expr
             (Expr.call
               (Expr.sel
                 (Expr.call
                   (Expr.un "*" (Expr.id "Mapping"))
                   [Expr.un "&" (Expr.sel (Expr.id "v") "Map")]
                   false)
                 "Xdr")
               [Expr.id "xs"]
               false),
           Stmt.expr
             (Expr.call
               (Expr.sel
                 (Expr.call
                   (Expr.un "*" (Expr.id "Pmaplist"))
                   [Expr.un "&" (Expr.sel (Expr.id "v") "Next")]
                   false)
                 "Xdr")
               [Expr.id "xs"]
               false)] }

/-- rfc1057/xdr.go: Call_args_Xdr -/
def rpcXdr_Call_args_Xdr : Func :=
{ recv := some ("v", Ty.ptr (Ty.name "Call_args")),
  name := "Xdr",
  params := [("xs", Ty.ptr (Ty.qual "xdr" "XdrState"))],
  results := [],
  body := [Stmt.expr
             (Expr.call
               (Expr.sel (Expr.id "xdr") "XdrU32")
               [Expr.id "xs",
                Expr.call
                  (Expr.un "*" (Expr.id "uint32"))
                  [Expr.un "&" (Expr.sel (Expr.id "v") "Prog")]
                  false]
               false),
           Stmt.expr
             (Expr.call
               (Expr.sel (Expr.id "xdr") "XdrU32")
               [Expr.id "xs",
                Expr.call
                  (Expr.un "*" (Expr.id "uint32"))
                  [Expr.un "&" (Expr.sel (Expr.id "v") "Vers")]
                  false]
               false),
           Stmt.expr
             (Expr.call
               (Expr.sel (Expr.id "xdr") "XdrU32")
               [Expr.id "xs",
                Expr.call
                  (Expr.un "*" (Expr.id "uint32"))
                  [Expr.un "&" (Expr.sel (Expr.id "v") "Proc")]
                  false]
               false),
           Stmt.expr
             (Expr.call
               (Expr.sel (Expr.id "xdr") "XdrVarArray")
               [Expr.id "xs",
                Expr.call
                  (Expr.id "int")
                  [Expr.un "-" (Expr.int 1)]
                  false,
                Expr.call
                  (Expr.un
                    "*"
                    (Expr.ty (Ty.slice (Ty.name "byte"))))
                  [Expr.un "&" (Expr.sel (Expr.id "v") "Args")]
                  false]
               false)] }

/-- rfc1057/xdr.go: Call_result_Xdr -/
def rpcXdr_Call_result_Xdr : Func :=
{ recv := some ("v", Ty.ptr (Ty.name "Call_result")),
  name := "Xdr",
  params := [("xs", Ty.ptr (Ty.qual "xdr" "XdrState"))],
  results := [],
  body := [Stmt.expr
             (Expr.call
               (Expr.sel (Expr.id "xdr") "XdrU32")
               [Expr.id "xs",
                Expr.call
                  (Expr.un "*" (Expr.id "uint32"))
                  [Expr.un "&" (Expr.sel (Expr.id "v") "Port")]
                  false]
               false),
           Stmt.expr
             (Expr.call
               (Expr.sel (Expr.id "xdr") "XdrVarArray")
               [Expr.id "xs",
                Expr.call
                  (Expr.id "int")
                  [Expr.un "-" (Expr.int 1)]
                  false,
                Expr.call
                  (Expr.un
                    "*"
                    (Expr.ty (Ty.slice (Ty.name "byte"))))
                  [Expr.un "&" (Expr.sel (Expr.id "v") "Res")]
                  false]
               false)] }

/-- rfc1057/xdr.go: Uint32_Xdr -/
def rpcXdr_Uint32_Xdr : Func :=
{ recv := some ("v", Ty.ptr (Ty.name "Uint32")),
  name := "Xdr",
  params := [("xs", Ty.ptr (Ty.qual "xdr" "XdrState"))],
  results := [],
  body := [Stmt.expr
             (Expr.call
               (Expr.sel (Expr.id "xdr") "XdrU32")
               [Expr.id "xs",
                Expr.call
                  (Expr.un "*" (Expr.id "uint32"))
                  [Expr.id "v"]
                  false]
               false)] }

/-- rfc1057/xdr.go: Xbool_Xdr -/
def rpcXdr_Xbool_Xdr : Func :=
{ recv := some ("v", Ty.ptr (Ty.name "Xbool")),
  name := "Xdr",
  params := [("xs", Ty.ptr (Ty.qual "xdr" "XdrState"))],
  results := [],
  body := [Stmt.expr
             (Expr.call
               (Expr.sel (Expr.id "xdr") "XdrBool")
               [Expr.id "xs",
                Expr.call
                  (Expr.un "*" (Expr.id "bool"))
                  [Expr.id "v"]
                  false]
               false)] }

/-- rfc1057/xdr.go: PMAP_PROG_PMAP_VERS_handler_wrapper_PMAPPROC_NULL -/
def rpcXdr_PMAP_PROG_PMAP_VERS_handler_wrapper_PMAPPROC_NULL : Func :=
{ recv := some ("w", Ty.ptr (Ty.name "PMAP_PROG_PMAP_VERS_handler_wrapper")),
  name := "PMAPPROC_NULL",
  params := [("args", Ty.ptr (Ty.qual "xdr" "XdrState"))],
  results := [("res", Ty.qual "xdr" "Xdrable"), ("err", Ty.name "error")],
  body := [Stmt.var ["out"] (Ty.qual "xdr" "Void"),
           Stmt.expr
             (Expr.call
               (Expr.sel (Expr.sel (Expr.id "w") "h") "PMAPPROC_NULL")
               []
               false),
           Stmt.ret
             [Expr.un "&" (Expr.id "out"), Expr.id "nil"]] }

/-- rfc1057/xdr.go: PMAP_PROG_PMAP_VERS_handler_wrapper_PMAPPROC_SET -/
def rpcXdr_PMAP_PROG_PMAP_VERS_handler_wrapper_PMAPPROC_SET : Func :=
{ recv := some ("w", Ty.ptr (Ty.name "PMAP_PROG_PMAP_VERS_handler_wrapper")),
  name := "PMAPPROC_SET",
  params := [("args", Ty.ptr (Ty.qual "xdr" "XdrState"))],
  results := [("res", Ty.qual "xdr" "Xdrable"), ("err", Ty.name "error")],
  body := [Stmt.var ["in"] (Ty.name "Mapping"),
           Stmt.expr
             (Expr.call
               (Expr.sel (Expr.id "in") "Xdr")
               [Expr.id "args"]
               false),
           Stmt.assign
             [Expr.id "err"]
             [Expr.call (Expr.sel (Expr.id "args") "Error") [] false],
           Stmt.ite
             (Expr.bin "!=" (Expr.id "err") (Expr.id "nil"))
             [Stmt.ret []]
             [],
           Stmt.var ["out"] (Ty.name "Xbool"),
           Stmt.assign
             [Expr.id "out"]
             [Expr.call
                (Expr.sel (Expr.sel (Expr.id "w") "h") "PMAPPROC_SET")
                [Expr.id "in"]
                false],
           Stmt.ret
             [Expr.un "&" (Expr.id "out"), Expr.id "nil"]] }

/-- rfc1057/xdr.go: PMAP_PROG_PMAP_VERS_handler_wrapper_PMAPPROC_UNSET -/
def rpcXdr_PMAP_PROG_PMAP_VERS_handler_wrapper_PMAPPROC_UNSET : Func :=
{ recv := some ("w", Ty.ptr (Ty.name "PMAP_PROG_PMAP_VERS_handler_wrapper")),
  name := "PMAPPROC_UNSET",
  params := [("args", Ty.ptr (Ty.qual "xdr" "XdrState"))],
  results := [("res", Ty.qual "xdr" "Xdrable"), ("err", Ty.name "error")],
  body := [Stmt.var ["in"] (Ty.name "Mapping"),
           Stmt.expr
             (Expr.call
               (Expr.sel (Expr.id "in") "Xdr")
               [Expr.id "args"]
               false),
           Stmt.assign
             [Expr.id "err"]
             [Expr.call (Expr.sel (Expr.id "args") "Error") [] false],
           Stmt.ite
             (Expr.bin "!=" (Expr.id "err") (Expr.id "nil"))
             [Stmt.ret []]
             [],
           Stmt.var ["out"] (Ty.name "Xbool"),
           Stmt.assign
             [Expr.id "out"]
             [Expr.call
                (Expr.sel (Expr.sel (Expr.id "w") "h") "PMAPPROC_UNSET")
                [Expr.id "in"]
                false],
           Stmt.ret
             [Expr.un "&" (Expr.id "out"), Expr.id "nil"]] }

/-- rfc1057/xdr.go: PMAP_PROG_PMAP_VERS_handler_wrapper_PMAPPROC_GETPORT -/
def rpcXdr_PMAP_PROG_PMAP_VERS_handler_wrapper_PMAPPROC_GETPORT : Func :=
{ recv := some ("w", Ty.ptr (Ty.name "PMAP_PROG_PMAP_VERS_handler_wrapper")),
  name := "PMAPPROC_GETPORT",
  params := [("args", Ty.ptr (Ty.qual "xdr" "XdrState"))],
  results := [("res", Ty.qual "xdr" "Xdrable"), ("err", Ty.name "error")],
  body := [Stmt.var ["in"] (Ty.name "Mapping"),
           Stmt.expr
             (Expr.call
               (Expr.sel (Expr.id "in") "Xdr")
               [Expr.id "args"]
               false),
           Stmt.assign
             [Expr.id "err"]
             [Expr.call (Expr.sel (Expr.id "args") "Error") [] false],
           Stmt.ite
             (Expr.bin "!=" (Expr.id "err") (Expr.id "nil"))
             [Stmt.ret []]
             [],
           Stmt.var ["out"] (Ty.name "Uint32"),
           Stmt.assign
             [Expr.id "out"]
             [Expr.call
                (Expr.sel (Expr.sel (Expr.id "w") "h") "PMAPPROC_GETPORT")
                [Expr.id "in"]
                false],
           Stmt.ret
             [Expr.un "&" (Expr.id "out"), Expr.id "nil"]] }

/-- rfc1057/xdr.go: PMAP_PROG_PMAP_VERS_handler_wrapper_PMAPPROC_DUMP -/
def rpcXdr_PMAP_PROG_PMAP_VERS_handler_wrapper_PMAPPROC_DUMP : Func :=
{ recv := some ("w", Ty.ptr (Ty.name "PMAP_PROG_PMAP_VERS_handler_wrapper")),
  name := "PMAPPROC_DUMP",
  params := [("args", Ty.ptr (Ty.qual "xdr" "XdrState"))],
  results := [("res", Ty.qual "xdr" "Xdrable"), ("err", Ty.name "error")],
  body := [Stmt.var ["out"] (Ty.name "Pmaplist"),
           Stmt.assign
             [Expr.id "out"]
             [Expr.call
                (Expr.sel (Expr.sel (Expr.id "w") "h") "PMAPPROC_DUMP")
                []
                false],
           Stmt.ret
             [Expr.un "&" (Expr.id "out"), Expr.id "nil"]] }

/-- rfc1057/xdr.go: PMAP_PROG_PMAP_VERS_handler_wrapper_PMAPPROC_CALLIT -/
def rpcXdr_PMAP_PROG_PMAP_VERS_handler_wrapper_PMAPPROC_CALLIT : Func :=
{ recv := some ("w", Ty.ptr (Ty.name "PMAP_PROG_PMAP_VERS_handler_wrapper")),
  name := "PMAPPROC_CALLIT",
  params := [("args", Ty.ptr (Ty.qual "xdr" "XdrState"))],
  results := [("res", Ty.qual "xdr" "Xdrable"), ("err", Ty.name "error")],
  body := [Stmt.var ["in"] (Ty.name "Call_args"),
           Stmt.expr
             (Expr.call
               (Expr.sel (Expr.id "in") "Xdr")
               [Expr.id "args"]
               false),
           Stmt.assign
             [Expr.id "err"]
             [Expr.call (Expr.sel (Expr.id "args") "Error") [] false],
           Stmt.ite
             (Expr.bin "!=" (Expr.id "err") (Expr.id "nil"))
             [Stmt.ret []]
             [],
           Stmt.var ["out"] (Ty.name "Call_result"),
           Stmt.assign
             [Expr.id "out"]
             [Expr.call
                (Expr.sel (Expr.sel (Expr.id "w") "h") "PMAPPROC_CALLIT")
                [Expr.id "in"]
                false],
           Stmt.ret
             [Expr.un "&" (Expr.id "out"), Expr.id "nil"]] }

/-- rfc1057/xdr.go: PMAP_PROG_PMAP_VERS_regs -/
def rpcXdr_PMAP_PROG_PMAP_VERS_regs : Func :=
{ recv := none,
  name := "PMAP_PROG_PMAP_VERS_regs",
  params := [("h", Ty.name "PMAP_PROG_PMAP_VERS_handler")],
  results := [("", Ty.slice (Ty.qual "xdr" "ProcRegistration"))],
  body := [Stmt.define
             ["w"]
             [Expr.un
                "&"
                (Expr.lit
                  (Ty.name "PMAP_PROG_PMAP_VERS_handler_wrapper")
                  [""]
                  [Expr.id "h"])],
           Stmt.ret
             [Expr.lit
                (Ty.slice (Ty.qual "xdr" "ProcRegistration"))
                ["", "", "", "", "", ""]
                [Expr.lit
                   (Ty.qual "xdr" "ProcRegistration")
                   ["Prog", "Vers", "Proc", "Handler"]
                   [Expr.id "PMAP_PROG",
                    Expr.id "PMAP_VERS",
                    Expr.id "PMAPPROC_NULL",
                    Expr.sel (Expr.id "w") "PMAPPROC_NULL"],
                 Expr.lit
                   (Ty.qual "xdr" "ProcRegistration")
                   ["Prog", "Vers", "Proc", "Handler"]
                   [Expr.id "PMAP_PROG",
                    Expr.id "PMAP_VERS",
                    Expr.id "PMAPPROC_SET",
                    Expr.sel (Expr.id "w") "PMAPPROC_SET"],
                 Expr.lit
                   (Ty.qual "xdr" "ProcRegistration")
                   ["Prog", "Vers", "Proc", "Handler"]
                   [Expr.id "PMAP_PROG",
                    Expr.id "PMAP_VERS",
                    Expr.id "PMAPPROC_UNSET",
                    Expr.sel (Expr.id "w") "PMAPPROC_UNSET"],
                 Expr.lit
                   (Ty.qual "xdr" "ProcRegistration")
                   ["Prog", "Vers", "Proc", "Handler"]
                   [Expr.id "PMAP_PROG",
                    Expr.id "PMAP_VERS",
                    Expr.id "PMAPPROC_GETPORT",
                    Expr.sel (Expr.id "w") "PMAPPROC_GETPORT"],
                 Expr.lit
                   (Ty.qual "xdr" "ProcRegistration")
                   ["Prog", "Vers", "Proc", "Handler"]
                   [Expr.id "PMAP_PROG",
                    Expr.id "PMAP_VERS",
                    Expr.id "PMAPPROC_DUMP",
                    Expr.sel (Expr.id "w") "PMAPPROC_DUMP"],
                 Expr.lit
                   (Ty.qual "xdr" "ProcRegistration")
                   ["Prog", "Vers", "Proc", "Handler"]
                   [Expr.id "PMAP_PROG",
                    Expr.id "PMAP_VERS",
                    Expr.id "PMAPPROC_CALLIT",
                    Expr.sel (Expr.id "w") "PMAPPROC_CALLIT"]]]] }

/-- rfc1057/xdr.go -/
def rpcXdrFile : File := ⟨"rfc1057", ["github.com/zeldovich/go-rpcgen/xdr"], [
  .func rpcXdr_Auth_flavor_Xdr,
  .func rpcXdr_Opaque_auth_Xdr,
  .func rpcXdr_Msg_type_Xdr,
  .func rpcXdr_Reply_stat_Xdr,
  .func rpcXdr_Accept_stat_Xdr,
  .func rpcXdr_Reject_stat_Xdr,
  .func rpcXdr_Auth_stat_Xdr,
  .func rpcXdr_Rpc_msg_Xdr,
  .func rpcXdr_Call_body_Xdr,
  .func rpcXdr_Reply_body_Xdr,
  .func rpcXdr_Accepted_reply_Xdr,
  .func rpcXdr_Rejected_reply_Xdr,
  .func rpcXdr_Auth_unix_Xdr,
  .func rpcXdr_Mapping_Xdr,
  .func rpcXdr_Pmaplist_Xdr,
  .func rpcXdr_Pmaplistelem_Xdr,
  .func rpcXdr_Call_args_Xdr,
  .func rpcXdr_Call_result_Xdr,
  .func rpcXdr_Uint32_Xdr,
  .func rpcXdr_Xbool_Xdr,
  Top.typ "PMAP_PROG_PMAP_VERS_handler" (Ty.iface),
  Top.typ
  "PMAP_PROG_PMAP_VERS_handler_wrapper"
  (Ty.struct [("h", Ty.name "PMAP_PROG_PMAP_VERS_handler")]),
  .func rpcXdr_PMAP_PROG_PMAP_VERS_handler_wrapper_PMAPPROC_NULL,
  .func rpcXdr_PMAP_PROG_PMAP_VERS_handler_wrapper_PMAPPROC_SET,
  .func rpcXdr_PMAP_PROG_PMAP_VERS_handler_wrapper_PMAPPROC_UNSET,
  .func rpcXdr_PMAP_PROG_PMAP_VERS_handler_wrapper_PMAPPROC_GETPORT,
  .func rpcXdr_PMAP_PROG_PMAP_VERS_handler_wrapper_PMAPPROC_DUMP,
  .func rpcXdr_PMAP_PROG_PMAP_VERS_handler_wrapper_PMAPPROC_CALLIT,
  .func rpcXdr_PMAP_PROG_PMAP_VERS_regs
]⟩

end Verif.Lang
