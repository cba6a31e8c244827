/-
The syntax trees of Go files of /repo.  Written by tools/mkast.py; that they are what the texts read as
is proved in Verif.Lang.Read.
-/
import Verif.Lang.Yacc

namespace Verif.Lang

/-- out.go: i -/
def out_i : Func :=
{ recv := none,
  name := "i",
  params := [("ident", Ty.name "string")],
  results := [("", Ty.name "string")],
  body := [Stmt.switch
             (Expr.id "ident")
             [[Expr.str "TRUE"], [Expr.str "FALSE"], []]
             [[Stmt.ret [Expr.str "true"]],
              [Stmt.ret [Expr.str "false"]],
              [Stmt.ret
                 [Expr.bin
                    "+"
                    (Expr.call
                      (Expr.sel (Expr.id "strings") "ToUpper")
                      [Expr.slc
                         (Expr.id "ident")
                         none
                         (some (Expr.int 1))
                         none]
                      false)
                    (Expr.slc
                      (Expr.id "ident")
                      (some (Expr.int 1))
                      none
                      none)]]]] }

/-- out.go: declTypeTypespec_goType -/
def out_declTypeTypespec_goType : Func :=
{ recv := some ("t", Ty.name "declTypeTypespec"),
  name := "goType",
  params := [],
  results := [("", Ty.name "string")],
  body := [Stmt.ret
             [Expr.call
                (Expr.sel (Expr.sel (Expr.id "t") "t") "goType")
                []
                false]] }

/-- out.go: declTypeTypespec_goXdr -/
def out_declTypeTypespec_goXdr : Func :=
{ recv := some ("t", Ty.name "declTypeTypespec"),
  name := "goXdr",
  params := [("valPtr", Ty.name "string")],
  results := [("", Ty.name "string")],
  body := [Stmt.ret
             [Expr.call
                (Expr.sel (Expr.sel (Expr.id "t") "t") "goXdr")
                [Expr.id "valPtr"]
                false]] }

/-- out.go: declTypeArray_goType -/
def out_declTypeArray_goType : Func :=
{ recv := some ("t", Ty.name "declTypeArray"),
  name := "goType",
  params := [],
  results := [("", Ty.name "string")],
  body := [Stmt.ret
             [Expr.call
                (Expr.sel (Expr.id "fmt") "Sprintf")
                [Expr.str "[%s]%s",
                 Expr.sel (Expr.id "t") "sz",
                 Expr.call
                   (Expr.sel (Expr.sel (Expr.id "t") "t") "goType")
                   []
                   false]
                false]] }

/-- out.go: declTypeArray_goXdr -/
def out_declTypeArray_goXdr : Func :=
{ recv := some ("t", Ty.name "declTypeArray"),
  name := "goXdr",
  params := [("valPtr", Ty.name "string")],
  results := [("", Ty.name "string")],
  body := [Stmt.var ["res"] (Ty.name "string"),
           Stmt.assign
             [Expr.id "res"]
             [Expr.bin
                "+"
                (Expr.id "res")
                (Expr.call
                  (Expr.sel (Expr.id "fmt") "Sprintf")
                  [Expr.str "for i := 0; i < %s; i++ {\n",
                   Expr.sel (Expr.id "t") "sz"]
                  false)],
           Stmt.assign
             [Expr.id "res"]
             [Expr.bin
                "+"
                (Expr.id "res")
                (Expr.call
                  (Expr.sel (Expr.id "fmt") "Sprintf")
                  [Expr.str "%s\n",
                   Expr.call
                     (Expr.sel (Expr.sel (Expr.id "t") "t") "goXdr")
                     [Expr.call
                        (Expr.sel (Expr.id "fmt") "Sprintf")
                        [Expr.str "&(*(%s)[i])", Expr.id "valPtr"]
                        false]
                     false]
                  false)],
           Stmt.assign
             [Expr.id "res"]
             [Expr.bin
                "+"
                (Expr.id "res")
                (Expr.call
                  (Expr.sel (Expr.id "fmt") "Sprintf")
                  [Expr.str "}\n"]
                  false)],
           Stmt.ret [Expr.id "res"]] }

/-- out.go: declTypeVarArray_goType -/
def out_declTypeVarArray_goType : Func :=
{ recv := some ("t", Ty.name "declTypeVarArray"),
  name := "goType",
  params := [],
  results := [("", Ty.name "string")],
  body := [Stmt.ret
             [Expr.call
                (Expr.sel (Expr.id "fmt") "Sprintf")
                [Expr.str "[]%s",
                 Expr.call
                   (Expr.sel (Expr.sel (Expr.id "t") "t") "goType")
                   []
                   false]
                false]] }

/-- out.go: declTypeVarArray_goXdr -/
def out_declTypeVarArray_goXdr : Func :=
{ recv := some ("t", Ty.name "declTypeVarArray"),
  name := "goXdr",
  params := [("valPtr", Ty.name "string")],
  results := [("", Ty.name "string")],
  body := [Stmt.var ["res"] (Ty.name "string"),
           Stmt.assign
             [Expr.id "res"]
             [Expr.bin
                "+"
                (Expr.id "res")
                (Expr.call
                  (Expr.sel (Expr.id "fmt") "Sprintf")
                  [Expr.str "{\n"]
                  false)],
           Stmt.assign
             [Expr.id "res"]
             [Expr.bin
                "+"
                (Expr.id "res")
                (Expr.call
                  (Expr.sel (Expr.id "fmt") "Sprintf")
                  [Expr.str "var __arraysz uint32\n"]
                  false)],
           Stmt.assign
             [Expr.id "res"]
             [Expr.bin
                "+"
                (Expr.id "res")
                (Expr.call
                  (Expr.sel (Expr.id "fmt") "Sprintf")
                  [Expr.str "xs.EncodingSetSize(&__arraysz, len(*%s));\n",
                   Expr.id "valPtr"]
                  false)],
           Stmt.assign
             [Expr.id "res"]
             [Expr.bin
                "+"
                (Expr.id "res")
                (Expr.call
                  (Expr.sel (Expr.id "fmt") "Sprintf")
                  [Expr.str "%s\n",
                   Expr.call
                     (Expr.sel
                       (Expr.lit (Ty.name "typeInt") [""] [Expr.id "true"])
                       "goXdr")
                     [Expr.str "&__arraysz"]
                     false]
                  false)],
           Stmt.ite
             (Expr.bin
               "!="
               (Expr.sel (Expr.id "t") "sz")
               (Expr.str ""))
             [Stmt.assign
                [Expr.id "res"]
                [Expr.bin
                   "+"
                   (Expr.id "res")
                   (Expr.call
                     (Expr.sel (Expr.id "fmt") "Sprintf")
                     [Expr.str "if __arraysz > %s { xs.SetError(\"array too large\") } else {\n",
                      Expr.sel (Expr.id "t") "sz"]
                     false)]]
             [],
           Stmt.assign
             [Expr.id "res"]
             [Expr.bin
                "+"
                (Expr.id "res")
                (Expr.call
                  (Expr.sel (Expr.id "fmt") "Sprintf")
                  [Expr.str "if xs.Decoding() { *%s = make([]%s, __arraysz); }\n",
                   Expr.id "valPtr",
                   Expr.call
                     (Expr.sel (Expr.sel (Expr.id "t") "t") "goType")
                     []
                     false]
                  false)],
           Stmt.assign
             [Expr.id "res"]
             [Expr.bin
                "+"
                (Expr.id "res")
                (Expr.call
                  (Expr.sel (Expr.id "fmt") "Sprintf")
                  [Expr.str "for i := uint64(0); i < uint64(__arraysz); i++ {\n"]
                  false)],
           Stmt.assign
             [Expr.id "res"]
             [Expr.bin
                "+"
                (Expr.id "res")
                (Expr.call
                  (Expr.sel (Expr.id "fmt") "Sprintf")
                  [Expr.str "%s\n",
                   Expr.call
                     (Expr.sel (Expr.sel (Expr.id "t") "t") "goXdr")
                     [Expr.call
                        (Expr.sel (Expr.id "fmt") "Sprintf")
                        [Expr.str "&((*(%s))[i])", Expr.id "valPtr"]
                        false]
                     false]
                  false)],
           Stmt.assign
             [Expr.id "res"]
             [Expr.bin
                "+"
                (Expr.id "res")
                (Expr.call
                  (Expr.sel (Expr.id "fmt") "Sprintf")
                  [Expr.str "}\n"]
                  false)],
           Stmt.ite
             (Expr.bin
               "!="
               (Expr.sel (Expr.id "t") "sz")
               (Expr.str ""))
             [Stmt.assign
                [Expr.id "res"]
                [Expr.bin
                   "+"
                   (Expr.id "res")
                   (Expr.call
                     (Expr.sel (Expr.id "fmt") "Sprintf")
                     [Expr.str "}\n"]
                     false)]]
             [],
           Stmt.assign
             [Expr.id "res"]
             [Expr.bin
                "+"
                (Expr.id "res")
                (Expr.call
                  (Expr.sel (Expr.id "fmt") "Sprintf")
                  [Expr.str "}\n"]
                  false)],
           Stmt.ret [Expr.id "res"]] }

/-- out.go: declTypeOpaqueArray_goType -/
def out_declTypeOpaqueArray_goType : Func :=
{ recv := some ("t", Ty.name "declTypeOpaqueArray"),
  name := "goType",
  params := [],
  results := [("", Ty.name "string")],
  body := [Stmt.ret
             [Expr.call
                (Expr.sel (Expr.id "fmt") "Sprintf")
                [Expr.str "[%s]byte", Expr.sel (Expr.id "t") "sz"]
                false]] }

/-- out.go: declTypeOpaqueArray_goXdr -/
def out_declTypeOpaqueArray_goXdr : Func :=
{ recv := some ("t", Ty.name "declTypeOpaqueArray"),
  name := "goXdr",
  params := [("valPtr", Ty.name "string")],
  results := [("", Ty.name "string")],
  body := [Stmt.ret
             [Expr.call
                (Expr.sel (Expr.id "fmt") "Sprintf")
                [Expr.str "xdr.XdrArray(xs, (*%s)[:]);\n", Expr.id "valPtr"]
                false]] }

/-- out.go: declTypeOpaqueVarArray_goType -/
def out_declTypeOpaqueVarArray_goType : Func :=
{ recv := some ("t", Ty.name "declTypeOpaqueVarArray"),
  name := "goType",
  params := [],
  results := [("", Ty.name "string")],
  body := [Stmt.ret [Expr.str "[]byte"]] }

/-- out.go: declTypeOpaqueVarArray_goXdr -/
def out_declTypeOpaqueVarArray_goXdr : Func :=
{ recv := some ("t", Ty.name "declTypeOpaqueVarArray"),
  name := "goXdr",
  params := [("valPtr", Ty.name "string")],
  results := [("", Ty.name "string")],
  body := [Stmt.define ["sz"] [Expr.sel (Expr.id "t") "sz"],
           Stmt.ite
             (Expr.bin "==" (Expr.id "sz") (Expr.str ""))
             [Stmt.assign [Expr.id "sz"] [Expr.str "-1"]]
             [],
           Stmt.ret
             [Expr.call
                (Expr.sel (Expr.id "fmt") "Sprintf")
                [Expr.str "xdr.XdrVarArray(xs, int(%s), (*[]byte)(%s));\n",
                 Expr.id "sz",
                 Expr.id "valPtr"]
                false]] }

/-- out.go: declTypeString_goType -/
def out_declTypeString_goType : Func :=
{ recv := some ("t", Ty.name "declTypeString"),
  name := "goType",
  params := [],
  results := [("", Ty.name "string")],
  body := [Stmt.ret [Expr.str "string"]] }

/-- out.go: declTypeString_goXdr -/
def out_declTypeString_goXdr : Func :=
{ recv := some ("t", Ty.name "declTypeString"),
  name := "goXdr",
  params := [("valPtr", Ty.name "string")],
  results := [("", Ty.name "string")],
  body := [Stmt.define ["sz"] [Expr.sel (Expr.id "t") "sz"],
           Stmt.ite
             (Expr.bin "==" (Expr.id "sz") (Expr.str ""))
             [Stmt.assign [Expr.id "sz"] [Expr.str "-1"]]
             [],
           Stmt.ret
             [Expr.call
                (Expr.sel (Expr.id "fmt") "Sprintf")
                [Expr.str "xdr.XdrString(xs, int(%s), (*string)(%s));\n",
                 Expr.id "sz",
                 Expr.id "valPtr"]
                false]] }

/-- out.go: declTypePtr_goType -/
def out_declTypePtr_goType : Func :=
{ recv := some ("t", Ty.name "declTypePtr"),
  name := "goType",
  params := [],
  results := [("", Ty.name "string")],
  body := [Stmt.ret
             [Expr.call
                (Expr.sel (Expr.id "fmt") "Sprintf")
                [Expr.str "*%s",
                 Expr.call
                   (Expr.sel (Expr.sel (Expr.id "t") "t") "goType")
                   []
                   false]
                false]] }

/-- out.go: declTypePtr_goXdr -/
def out_declTypePtr_goXdr : Func :=
{ recv := some ("t", Ty.name "declTypePtr"),
  name := "goXdr",
  params := [("valPtr", Ty.name "string")],
  results := [("", Ty.name "string")],
  body := [Stmt.var ["res"] (Ty.name "string"),
           Stmt.assign
             [Expr.id "res"]
             [Expr.bin
                "+"
                (Expr.id "res")
                (Expr.call
                  (Expr.sel (Expr.id "fmt") "Sprintf")
                  [Expr.str "if xs.Encoding() {\n"]
                  false)],
           Stmt.assign
             [Expr.id "res"]
             [Expr.bin
                "+"
                (Expr.id "res")
                (Expr.call
                  (Expr.sel (Expr.id "fmt") "Sprintf")
                  [Expr.str "opted := *(%s) != nil\n", Expr.id "valPtr"]
                  false)],
           Stmt.assign
             [Expr.id "res"]
             [Expr.bin
                "+"
                (Expr.id "res")
                (Expr.call
                  (Expr.sel (Expr.lit (Ty.name "typeBool") [] []) "goXdr")
                  [Expr.str "&opted"]
                  false)],
           Stmt.assign
             [Expr.id "res"]
             [Expr.bin
                "+"
                (Expr.id "res")
                (Expr.call
                  (Expr.sel (Expr.id "fmt") "Sprintf")
                  [Expr.str "if opted {\n"]
                  false)],
           Stmt.assign
             [Expr.id "res"]
             [Expr.bin
                "+"
                (Expr.id "res")
                (Expr.call
                  (Expr.sel (Expr.sel (Expr.id "t") "t") "goXdr")
                  [Expr.call
                     (Expr.sel (Expr.id "fmt") "Sprintf")
                     [Expr.str "*(%s)", Expr.id "valPtr"]
                     false]
                  false)],
           Stmt.assign
             [Expr.id "res"]
             [Expr.bin
                "+"
                (Expr.id "res")
                (Expr.call
                  (Expr.sel (Expr.id "fmt") "Sprintf")
                  [Expr.str "}\n"]
                  false)],
           Stmt.assign
             [Expr.id "res"]
             [Expr.bin
                "+"
                (Expr.id "res")
                (Expr.call
                  (Expr.sel (Expr.id "fmt") "Sprintf")
                  [Expr.str "}\n"]
                  false)],
           Stmt.assign
             [Expr.id "res"]
             [Expr.bin
                "+"
                (Expr.id "res")
                (Expr.call
                  (Expr.sel (Expr.id "fmt") "Sprintf")
                  [Expr.str "if xs.Decoding() {\n"]
                  false)],
           Stmt.assign
             [Expr.id "res"]
             [Expr.bin
                "+"
                (Expr.id "res")
                (Expr.call
                  (Expr.sel (Expr.id "fmt") "Sprintf")
                  [Expr.str "var opted bool\n"]
                  false)],
           Stmt.assign
             [Expr.id "res"]
             [Expr.bin
                "+"
                (Expr.id "res")
                (Expr.call
                  (Expr.sel (Expr.lit (Ty.name "typeBool") [] []) "goXdr")
                  [Expr.str "&opted"]
                  false)],
           Stmt.assign
             [Expr.id "res"]
             [Expr.bin
                "+"
                (Expr.id "res")
                (Expr.call
                  (Expr.sel (Expr.id "fmt") "Sprintf")
                  [Expr.str "if opted {\n"]
                  false)],
           Stmt.assign
             [Expr.id "res"]
             [Expr.bin
                "+"
                (Expr.id "res")
                (Expr.call
                  (Expr.sel (Expr.id "fmt") "Sprintf")
                  [Expr.str "*(%s) = new(%s)\n",
                   Expr.id "valPtr",
                   Expr.call
                     (Expr.sel (Expr.sel (Expr.id "t") "t") "goType")
                     []
                     false]
                  false)],
           Stmt.assign
             [Expr.id "res"]
             [Expr.bin
                "+"
                (Expr.id "res")
                (Expr.call
                  (Expr.sel (Expr.sel (Expr.id "t") "t") "goXdr")
                  [Expr.call
                     (Expr.sel (Expr.id "fmt") "Sprintf")
                     [Expr.str "*(%s)", Expr.id "valPtr"]
                     false]
                  false)],
           Stmt.assign
             [Expr.id "res"]
             [Expr.bin
                "+"
                (Expr.id "res")
                (Expr.call
                  (Expr.sel (Expr.id "fmt") "Sprintf")
                  [Expr.str "}\n"]
                  false)],
           Stmt.assign
             [Expr.id "res"]
             [Expr.bin
                "+"
                (Expr.id "res")
                (Expr.call
                  (Expr.sel (Expr.id "fmt") "Sprintf")
                  [Expr.str "}\n"]
                  false)],
           Stmt.ret [Expr.id "res"]] }

/-- out.go: typespecOpt_maybeGoType -/
def out_typespecOpt_maybeGoType : Func :=
{ recv := some ("t", Ty.name "typespecOpt"),
  name := "maybeGoType",
  params := [],
  results := [("", Ty.name "string")],
  body := [Stmt.ite
             (Expr.sel (Expr.id "t") "isVoid")
             [Stmt.ret [Expr.str ""]]
             [],
           Stmt.ret
             [Expr.call
                (Expr.sel (Expr.sel (Expr.id "t") "t") "goType")
                []
                false]] }

/-- out.go: typeInt_goType -/
def out_typeInt_goType : Func :=
{ recv := some ("t", Ty.name "typeInt"),
  name := "goType",
  params := [],
  results := [("", Ty.name "string")],
  body := [Stmt.ite
             (Expr.sel (Expr.id "t") "unsig")
             [Stmt.ret [Expr.str "uint32"]]
             [Stmt.ret [Expr.str "int32"]]] }

/-- out.go: typeInt_goXdr -/
def out_typeInt_goXdr : Func :=
{ recv := some ("t", Ty.name "typeInt"),
  name := "goXdr",
  params := [("valPtr", Ty.name "string")],
  results := [("", Ty.name "string")],
  body := [Stmt.ite
             (Expr.sel (Expr.id "t") "unsig")
             [Stmt.ret
                [Expr.call
                   (Expr.sel (Expr.id "fmt") "Sprintf")
                   [Expr.str "xdr.XdrU32(xs, (*uint32)(%s));\n", Expr.id "valPtr"]
                   false]]
             [Stmt.ret
                [Expr.call
                   (Expr.sel (Expr.id "fmt") "Sprintf")
                   [Expr.str "xdr.XdrS32(xs, (*int32)(%s));\n", Expr.id "valPtr"]
                   false]]] }

/-- out.go: typeHyper_goType -/
def out_typeHyper_goType : Func :=
{ recv := some ("t", Ty.name "typeHyper"),
  name := "goType",
  params := [],
  results := [("", Ty.name "string")],
  body := [Stmt.ite
             (Expr.sel (Expr.id "t") "unsig")
             [Stmt.ret [Expr.str "uint64"]]
             [Stmt.ret [Expr.str "int64"]]] }

/-- out.go: typeHyper_goXdr -/
def out_typeHyper_goXdr : Func :=
{ recv := some ("t", Ty.name "typeHyper"),
  name := "goXdr",
  params := [("valPtr", Ty.name "string")],
  results := [("", Ty.name "string")],
  body := [Stmt.ite
             (Expr.sel (Expr.id "t") "unsig")
             [Stmt.ret
                [Expr.call
                   (Expr.sel (Expr.id "fmt") "Sprintf")
                   [Expr.str "xdr.XdrU64(xs, (*uint64)(%s));\n", Expr.id "valPtr"]
                   false]]
             [Stmt.ret
                [Expr.call
                   (Expr.sel (Expr.id "fmt") "Sprintf")
                   [Expr.str "xdr.XdrS64(xs, (*int64)(%s));\n", Expr.id "valPtr"]
                   false]]] }

/-- out.go: typeFloat_goType -/
def out_typeFloat_goType : Func :=
{ recv := some ("t", Ty.name "typeFloat"),
  name := "goType",
  params := [],
  results := [("", Ty.name "string")],
  body := [Stmt.ret [Expr.str "float32"]] }

/-- out.go: typeFloat_goXdr -/
def out_typeFloat_goXdr : Func :=
{ recv := some ("t", Ty.name "typeFloat"),
  name := "goXdr",
  params := [("valPtr", Ty.name "string")],
  results := [("", Ty.name "string")],
  body := [Stmt.expr
             (Expr.call (Expr.id "panic") [Expr.str "x"] false)] }

/-- out.go: typeDouble_goType -/
def out_typeDouble_goType : Func :=
{ recv := some ("t", Ty.name "typeDouble"),
  name := "goType",
  params := [],
  results := [("", Ty.name "string")],
  body := [Stmt.ret [Expr.str "float64"]] }

/-- out.go: typeDouble_goXdr -/
def out_typeDouble_goXdr : Func :=
{ recv := some ("t", Ty.name "typeDouble"),
  name := "goXdr",
  params := [("valPtr", Ty.name "string")],
  results := [("", Ty.name "string")],
  body := [Stmt.expr
             (Expr.call (Expr.id "panic") [Expr.str "x"] false)] }

/-- out.go: typeQuadruple_goType -/
def out_typeQuadruple_goType : Func :=
{ recv := some ("t", Ty.name "typeQuadruple"),
  name := "goType",
  params := [],
  results := [("", Ty.name "string")],
  body := [Stmt.expr
             (Expr.call (Expr.id "panic") [Expr.str "quadruple"] false)] }

/-- out.go: typeQuadruple_goXdr -/
def out_typeQuadruple_goXdr : Func :=
{ recv := some ("t", Ty.name "typeQuadruple"),
  name := "goXdr",
  params := [("valPtr", Ty.name "string")],
  results := [("", Ty.name "string")],
  body := [Stmt.expr
             (Expr.call (Expr.id "panic") [Expr.str "x"] false)] }

/-- out.go: typeBool_goType -/
def out_typeBool_goType : Func :=
{ recv := some ("t", Ty.name "typeBool"),
  name := "goType",
  params := [],
  results := [("", Ty.name "string")],
  body := [Stmt.ret [Expr.str "bool"]] }

/-- out.go: typeBool_goXdr -/
def out_typeBool_goXdr : Func :=
{ recv := some ("t", Ty.name "typeBool"),
  name := "goXdr",
  params := [("valPtr", Ty.name "string")],
  results := [("", Ty.name "string")],
  body := [Stmt.ret
             [Expr.call
                (Expr.sel (Expr.id "fmt") "Sprintf")
                [Expr.str "xdr.XdrBool(xs, (*bool)(%s));\n", Expr.id "valPtr"]
                false]] }

/-- out.go: typeEnum_goType -/
def out_typeEnum_goType : Func :=
{ recv := some ("t", Ty.name "typeEnum"),
  name := "goType",
  params := [],
  results := [("", Ty.name "string")],
  body := [Stmt.ret [Expr.str "int32"]] }

/-- out.go: typeEnum_goXdr -/
def out_typeEnum_goXdr : Func :=
{ recv := some ("t", Ty.name "typeEnum"),
  name := "goXdr",
  params := [("valPtr", Ty.name "string")],
  results := [("", Ty.name "string")],
  body := [Stmt.expr
             (Expr.call (Expr.id "panic") [Expr.str "x"] false)] }

/-- out.go: declToNameGotype -/
def out_declToNameGotype : Func :=
{ recv := none,
  name := "declToNameGotype",
  params := [("d", Ty.name "decl")],
  results := [("", Ty.name "string")],
  body := [Stmt.tswitch
             "v"
             (Expr.id "d")
             [[Ty.name "declName"]]
             [[Stmt.ret
                 [Expr.call
                    (Expr.sel (Expr.id "fmt") "Sprintf")
                    [Expr.str "%s %s;",
                     Expr.call
                       (Expr.id "i")
                       [Expr.sel (Expr.id "v") "n"]
                       false,
                     Expr.call
                       (Expr.sel (Expr.sel (Expr.id "v") "t") "goType")
                       []
                       false]
                    false]]],
           Stmt.ret [Expr.str ""]] }

/-- out.go: typeStruct_goType -/
def out_typeStruct_goType : Func :=
{ recv := some ("t", Ty.name "typeStruct"),
  name := "goType",
  params := [],
  results := [("", Ty.name "string")],
  body := [Stmt.define ["res"] [Expr.str "struct { "],
           Stmt.range
             "_"
             "i"
             (Expr.sel (Expr.id "t") "items")
             [Stmt.assign
                [Expr.id "res"]
                [Expr.bin
                   "+"
                   (Expr.id "res")
                   (Expr.call
                     (Expr.id "declToNameGotype")
                     [Expr.id "i"]
                     false)]],
           Stmt.assign
             [Expr.id "res"]
             [Expr.bin "+" (Expr.id "res") (Expr.str "}")],
           Stmt.ret [Expr.id "res"]] }

/-- out.go: typeStruct_goXdr -/
def out_typeStruct_goXdr : Func :=
{ recv := some ("t", Ty.name "typeStruct"),
  name := "goXdr",
  params := [("valPtr", Ty.name "string")],
  results := [("", Ty.name "string")],
  body := [Stmt.var ["res"] (Ty.name "string"),
           Stmt.range
             "_"
             "v"
             (Expr.sel (Expr.id "t") "items")
             [Stmt.tswitch
                "v"
                (Expr.id "v")
                [[Ty.name "declName"]]
                [[Stmt.assign
                    [Expr.id "res"]
                    [Expr.bin
                       "+"
                       (Expr.id "res")
                       (Expr.call
                         (Expr.sel (Expr.sel (Expr.id "v") "t") "goXdr")
                         [Expr.call
                            (Expr.sel (Expr.id "fmt") "Sprintf")
                            [Expr.str "&((%s).%s)",
                             Expr.id "valPtr",
                             Expr.call
                               (Expr.id "i")
                               [Expr.sel (Expr.id "v") "n"]
                               false]
                            false]
                         false)]]]],
           Stmt.ret [Expr.id "res"]] }

/-- out.go: typeUnion_goType -/
def out_typeUnion_goType : Func :=
{ recv := some ("t", Ty.name "typeUnion"),
  name := "goType",
  params := [],
  results := [("", Ty.name "string")],
  body := [Stmt.define ["res"] [Expr.str "struct { "],
           Stmt.assign
             [Expr.id "res"]
             [Expr.bin
                "+"
                (Expr.id "res")
                (Expr.call
                  (Expr.id "declToNameGotype")
                  [Expr.sel (Expr.id "t") "switchDecl"]
                  false)],
           Stmt.range
             "_"
             "i"
             (Expr.sel (Expr.sel (Expr.id "t") "cases") "cases")
             [Stmt.assign
                [Expr.id "res"]
                [Expr.bin
                   "+"
                   (Expr.id "res")
                   (Expr.call
                     (Expr.id "declToNameGotype")
                     [Expr.sel (Expr.id "i") "body"]
                     false)]],
           Stmt.ite
             (Expr.bin
               "!="
               (Expr.sel (Expr.sel (Expr.id "t") "cases") "def")
               (Expr.id "nil"))
             [Stmt.assign
                [Expr.id "res"]
                [Expr.bin
                   "+"
                   (Expr.id "res")
                   (Expr.call
                     (Expr.id "declToNameGotype")
                     [Expr.sel (Expr.sel (Expr.id "t") "cases") "def"]
                     false)]]
             [],
           Stmt.assign
             [Expr.id "res"]
             [Expr.bin "+" (Expr.id "res") (Expr.str "}")],
           Stmt.ret [Expr.id "res"]] }

/-- out.go: typeUnion_goXdr -/
def out_typeUnion_goXdr : Func :=
{ recv := some ("t", Ty.name "typeUnion"),
  name := "goXdr",
  params := [("valPtr", Ty.name "string")],
  results := [("", Ty.name "string")],
  body := [Stmt.var ["res"] (Ty.name "string"),
           Stmt.var ["switchName"] (Ty.name "string"),
           Stmt.tswitch
             "v"
             (Expr.sel (Expr.id "t") "switchDecl")
             [[Ty.name "declVoid"], [Ty.name "declName"]]
             [[Stmt.expr
                 (Expr.call
                   (Expr.id "panic")
                   [Expr.str "void union switch"]
                   false)],
              [Stmt.assign
                 [Expr.id "switchName"]
                 [Expr.call
                    (Expr.sel (Expr.id "fmt") "Sprintf")
                    [Expr.str "(%s).%s",
                     Expr.id "valPtr",
                     Expr.call
                       (Expr.id "i")
                       [Expr.sel (Expr.id "v") "n"]
                       false]
                    false],
               Stmt.assign
                 [Expr.id "res"]
                 [Expr.bin
                    "+"
                    (Expr.id "res")
                    (Expr.call
                      (Expr.sel (Expr.sel (Expr.id "v") "t") "goXdr")
                      [Expr.call
                         (Expr.sel (Expr.id "fmt") "Sprintf")
                         [Expr.str "&(%s)", Expr.id "switchName"]
                         false]
                      false)]]],
           Stmt.assign
             [Expr.id "res"]
             [Expr.bin
                "+"
                (Expr.id "res")
                (Expr.call
                  (Expr.sel (Expr.id "fmt") "Sprintf")
                  [Expr.str "switch %s {\n", Expr.id "switchName"]
                  false)],
           Stmt.range
             "_"
             "c"
             (Expr.sel (Expr.sel (Expr.id "t") "cases") "cases")
             [Stmt.range
                "idx"
                "cval"
                (Expr.sel (Expr.id "c") "cases")
                [Stmt.assign
                   [Expr.id "res"]
                   [Expr.bin
                      "+"
                      (Expr.id "res")
                      (Expr.call
                        (Expr.sel (Expr.id "fmt") "Sprintf")
                        [Expr.str "case %s:\n",
                         Expr.call (Expr.id "i") [Expr.id "cval"] false]
                        false)],
                 Stmt.ite
                   (Expr.bin
                     "!="
                     (Expr.id "idx")
                     (Expr.bin
                       "-"
                       (Expr.call
                         (Expr.id "len")
                         [Expr.sel (Expr.id "c") "cases"]
                         false)
                       (Expr.int 1)))
                   [Stmt.assign
                      [Expr.id "res"]
                      [Expr.bin
                         "+"
                         (Expr.id "res")
                         (Expr.str "fallthrough\n")]]
                   []],
              Stmt.tswitch
                "v"
                (Expr.sel (Expr.id "c") "body")
                [[Ty.name "declName"]]
                [[Stmt.assign
                    [Expr.id "res"]
                    [Expr.bin
                       "+"
                       (Expr.id "res")
                       (Expr.call
                         (Expr.sel (Expr.sel (Expr.id "v") "t") "goXdr")
                         [Expr.call
                            (Expr.sel (Expr.id "fmt") "Sprintf")
                            [Expr.str "&((%s).%s)",
                             Expr.id "valPtr",
                             Expr.call
                               (Expr.id "i")
                               [Expr.sel (Expr.id "v") "n"]
                               false]
                            false]
                         false)]]]],
           Stmt.ite
             (Expr.bin
               "!="
               (Expr.sel (Expr.sel (Expr.id "t") "cases") "def")
               (Expr.id "nil"))
             [Stmt.assign
                [Expr.id "res"]
                [Expr.bin "+" (Expr.id "res") (Expr.str "default:\n")],
              Stmt.tswitch
                "v"
                (Expr.sel (Expr.sel (Expr.id "t") "cases") "def")
                [[Ty.name "declName"]]
                [[Stmt.assign
                    [Expr.id "res"]
                    [Expr.bin
                       "+"
                       (Expr.id "res")
                       (Expr.call
                         (Expr.sel (Expr.sel (Expr.id "v") "t") "goXdr")
                         [Expr.call
                            (Expr.sel (Expr.id "fmt") "Sprintf")
                            [Expr.str "&((%s).%s)",
                             Expr.id "valPtr",
                             Expr.call
                               (Expr.id "i")
                               [Expr.sel (Expr.id "v") "n"]
                               false]
                            false]
                         false)]]]]
             [],
           Stmt.assign
             [Expr.id "res"]
             [Expr.bin "+" (Expr.id "res") (Expr.str "}\n")],
           Stmt.ret [Expr.id "res"]] }

/-- out.go: typeIdent_goType -/
def out_typeIdent_goType : Func :=
{ recv := some ("t", Ty.name "typeIdent"),
  name := "goType",
  params := [],
  results := [("", Ty.name "string")],
  body := [Stmt.ret
             [Expr.call
                (Expr.id "i")
                [Expr.sel (Expr.id "t") "n"]
                false]] }

/-- out.go: typeIdent_goXdr -/
def out_typeIdent_goXdr : Func :=
{ recv := some ("t", Ty.name "typeIdent"),
  name := "goXdr",
  params := [("valPtr", Ty.name "string")],
  results := [("", Ty.name "string")],
  body := [Stmt.ret
             [Expr.call
                (Expr.sel (Expr.id "fmt") "Sprintf")
                [Expr.str "(*%s)(%s).Xdr(xs);\n",
                 Expr.call
                   (Expr.id "i")
                   [Expr.sel (Expr.id "t") "n"]
                   false,
                 Expr.id "valPtr"]
                false]] }

/-- out.go: emitProg -/
def out_emitProg : Func :=
{ recv := none,
  name := "emitProg",
  params := [("d", Ty.name "progDef")],
  results := [],
  body := [Stmt.expr
             (Expr.call
               (Expr.sel (Expr.id "fmt") "Fprintf")
               [Expr.id "tout",
                Expr.str "const %s uint32 = %s\n",
                Expr.call
                  (Expr.id "i")
                  [Expr.sel (Expr.id "d") "name"]
                  false,
                Expr.sel (Expr.id "d") "id"]
               false),
           Stmt.range
             "_"
             "v"
             (Expr.sel (Expr.id "d") "vers")
             [Stmt.expr
                (Expr.call
                  (Expr.sel (Expr.id "fmt") "Fprintf")
                  [Expr.id "tout",
                   Expr.str "const %s uint32 = %s\n",
                   Expr.call
                     (Expr.id "i")
                     [Expr.sel (Expr.id "v") "name"]
                     false,
                   Expr.sel (Expr.id "v") "id"]
                  false),
              Stmt.range
                "_"
                "c"
                (Expr.sel (Expr.id "v") "calls")
                [Stmt.expr
                   (Expr.call
                     (Expr.sel (Expr.id "fmt") "Fprintf")
                     [Expr.id "tout",
                      Expr.str "const %s uint32 = %s\n",
                      Expr.call
                        (Expr.id "i")
                        [Expr.sel (Expr.id "c") "name"]
                        false,
                      Expr.sel (Expr.id "c") "id"]
                     false)],
              Stmt.expr
                (Expr.call
                  (Expr.sel (Expr.id "fmt") "Fprintf")
                  [Expr.id "out",
                   Expr.str "type %s_%s_handler interface {\n",
                   Expr.call
                     (Expr.id "i")
                     [Expr.sel (Expr.id "d") "name"]
                     false,
                   Expr.call
                     (Expr.id "i")
                     [Expr.sel (Expr.id "v") "name"]
                     false]
                  false),
              Stmt.range
                "_"
                "c"
                (Expr.sel (Expr.id "v") "calls")
                [Stmt.expr
                   (Expr.call
                     (Expr.sel (Expr.id "fmt") "Fprintf")
                     [Expr.id "out",
                      Expr.str "%s(%s) %s\n",
                      Expr.call
                        (Expr.id "i")
                        [Expr.sel (Expr.id "c") "name"]
                        false,
                      Expr.call
                        (Expr.sel
                          (Expr.sel (Expr.id "c") "arg")
                          "maybeGoType")
                        []
                        false,
                      Expr.call
                        (Expr.sel
                          (Expr.sel (Expr.id "c") "res")
                          "maybeGoType")
                        []
                        false]
                     false)],
              Stmt.expr
                (Expr.call
                  (Expr.sel (Expr.id "fmt") "Fprintf")
                  [Expr.id "out", Expr.str "}\n"]
                  false),
              Stmt.expr
                (Expr.call
                  (Expr.sel (Expr.id "fmt") "Fprintf")
                  [Expr.id "out",
                   Expr.str "type %s_%s_handler_wrapper struct {\n",
                   Expr.call
                     (Expr.id "i")
                     [Expr.sel (Expr.id "d") "name"]
                     false,
                   Expr.call
                     (Expr.id "i")
                     [Expr.sel (Expr.id "v") "name"]
                     false]
                  false),
              Stmt.expr
                (Expr.call
                  (Expr.sel (Expr.id "fmt") "Fprintf")
                  [Expr.id "out",
                   Expr.str "h %s_%s_handler\n",
                   Expr.call
                     (Expr.id "i")
                     [Expr.sel (Expr.id "d") "name"]
                     false,
                   Expr.call
                     (Expr.id "i")
                     [Expr.sel (Expr.id "v") "name"]
                     false]
                  false),
              Stmt.expr
                (Expr.call
                  (Expr.sel (Expr.id "fmt") "Fprintf")
                  [Expr.id "out", Expr.str "}\n"]
                  false),
              Stmt.range
                "_"
                "c"
                (Expr.sel (Expr.id "v") "calls")
                [Stmt.expr
                   (Expr.call
                     (Expr.sel (Expr.id "fmt") "Fprintf")
                     [Expr.id "out",
                      Expr.str
                        "func (w *%s_%s_handler_wrapper) %s(args *xdr.XdrState) (res xdr.Xdrable, err error) {\n",
                      Expr.call
                        (Expr.id "i")
                        [Expr.sel (Expr.id "d") "name"]
                        false,
                      Expr.call
                        (Expr.id "i")
                        [Expr.sel (Expr.id "v") "name"]
                        false,
                      Expr.call
                        (Expr.id "i")
                        [Expr.sel (Expr.id "c") "name"]
                        false]
                     false),
                 Stmt.ite
                   (Expr.un
                     "!"
                     (Expr.sel (Expr.sel (Expr.id "c") "arg") "isVoid"))
                   [Stmt.expr
                      (Expr.call
                        (Expr.sel (Expr.id "fmt") "Fprintf")
                        [Expr.id "out",
                         Expr.str "var in %s\n",
                         Expr.call
                           (Expr.sel
                             (Expr.sel (Expr.sel (Expr.id "c") "arg") "t")
                             "goType")
                           []
                           false]
                        false),
                    Stmt.expr
                      (Expr.call
                        (Expr.sel (Expr.id "fmt") "Fprintf")
                        [Expr.id "out", Expr.str "in.Xdr(args)\n"]
                        false),
                    Stmt.expr
                      (Expr.call
                        (Expr.sel (Expr.id "fmt") "Fprintf")
                        [Expr.id "out", Expr.str "err = args.Error()\n"]
                        false),
                    Stmt.expr
                      (Expr.call
                        (Expr.sel (Expr.id "fmt") "Fprintf")
                        [Expr.id "out", Expr.str "if err != nil { return }\n"]
                        false)]
                   [],
                 Stmt.ite
                   (Expr.un
                     "!"
                     (Expr.sel (Expr.sel (Expr.id "c") "res") "isVoid"))
                   [Stmt.expr
                      (Expr.call
                        (Expr.sel (Expr.id "fmt") "Fprintf")
                        [Expr.id "out",
                         Expr.str "var out %s\n",
                         Expr.call
                           (Expr.sel
                             (Expr.sel (Expr.sel (Expr.id "c") "res") "t")
                             "goType")
                           []
                           false]
                        false)]
                   [Stmt.expr
                      (Expr.call
                        (Expr.sel (Expr.id "fmt") "Fprintf")
                        [Expr.id "out", Expr.str "var out xdr.Void\n"]
                        false)],
                 Stmt.ite
                   (Expr.un
                     "!"
                     (Expr.sel (Expr.sel (Expr.id "c") "res") "isVoid"))
                   [Stmt.expr
                      (Expr.call
                        (Expr.sel (Expr.id "fmt") "Fprintf")
                        [Expr.id "out", Expr.str "out = "]
                        false)]
                   [],
                 Stmt.expr
                   (Expr.call
                     (Expr.sel (Expr.id "fmt") "Fprintf")
                     [Expr.id "out",
                      Expr.str "w.h.%s(",
                      Expr.call
                        (Expr.id "i")
                        [Expr.sel (Expr.id "c") "name"]
                        false]
                     false),
                 Stmt.ite
                   (Expr.un
                     "!"
                     (Expr.sel (Expr.sel (Expr.id "c") "arg") "isVoid"))
                   [Stmt.expr
                      (Expr.call
                        (Expr.sel (Expr.id "fmt") "Fprintf")
                        [Expr.id "out", Expr.str "in"]
                        false)]
                   [],
                 Stmt.expr
                   (Expr.call
                     (Expr.sel (Expr.id "fmt") "Fprintf")
                     [Expr.id "out", Expr.str ")\n"]
                     false),
                 Stmt.expr
                   (Expr.call
                     (Expr.sel (Expr.id "fmt") "Fprintf")
                     [Expr.id "out", Expr.str "return &out, nil"]
                     false),
                 Stmt.expr
                   (Expr.call
                     (Expr.sel (Expr.id "fmt") "Fprintf")
                     [Expr.id "out", Expr.str "}\n"]
                     false)],
              Stmt.expr
                (Expr.call
                  (Expr.sel (Expr.id "fmt") "Fprintf")
                  [Expr.id "out",
                   Expr.str "func %s_%s_regs(h %s_%s_handler) []xdr.ProcRegistration {\n",
                   Expr.call
                     (Expr.id "i")
                     [Expr.sel (Expr.id "d") "name"]
                     false,
                   Expr.call
                     (Expr.id "i")
                     [Expr.sel (Expr.id "v") "name"]
                     false,
                   Expr.call
                     (Expr.id "i")
                     [Expr.sel (Expr.id "d") "name"]
                     false,
                   Expr.call
                     (Expr.id "i")
                     [Expr.sel (Expr.id "v") "name"]
                     false]
                  false),
              Stmt.expr
                (Expr.call
                  (Expr.sel (Expr.id "fmt") "Fprintf")
                  [Expr.id "out",
                   Expr.str "w := &%s_%s_handler_wrapper{h}\n",
                   Expr.call
                     (Expr.id "i")
                     [Expr.sel (Expr.id "d") "name"]
                     false,
                   Expr.call
                     (Expr.id "i")
                     [Expr.sel (Expr.id "v") "name"]
                     false]
                  false),
              Stmt.expr
                (Expr.call
                  (Expr.sel (Expr.id "fmt") "Fprintf")
                  [Expr.id "out", Expr.str "return []xdr.ProcRegistration{\n"]
                  false),
              Stmt.range
                "_"
                "c"
                (Expr.sel (Expr.id "v") "calls")
                [Stmt.expr
                   (Expr.call
                     (Expr.sel (Expr.id "fmt") "Fprintf")
                     [Expr.id "out", Expr.str "xdr.ProcRegistration{\n"]
                     false),
                 Stmt.expr
                   (Expr.call
                     (Expr.sel (Expr.id "fmt") "Fprintf")
                     [Expr.id "out",
                      Expr.str "Prog: %s,\n",
                      Expr.call
                        (Expr.id "i")
                        [Expr.sel (Expr.id "d") "name"]
                        false]
                     false),
                 Stmt.expr
                   (Expr.call
                     (Expr.sel (Expr.id "fmt") "Fprintf")
                     [Expr.id "out",
                      Expr.str "Vers: %s,\n",
                      Expr.call
                        (Expr.id "i")
                        [Expr.sel (Expr.id "v") "name"]
                        false]
                     false),
                 Stmt.expr
                   (Expr.call
                     (Expr.sel (Expr.id "fmt") "Fprintf")
                     [Expr.id "out",
                      Expr.str "Proc: %s,\n",
                      Expr.call
                        (Expr.id "i")
                        [Expr.sel (Expr.id "c") "name"]
                        false]
                     false),
                 Stmt.expr
                   (Expr.call
                     (Expr.sel (Expr.id "fmt") "Fprintf")
                     [Expr.id "out",
                      Expr.str "Handler: w.%s,\n",
                      Expr.call
                        (Expr.id "i")
                        [Expr.sel (Expr.id "c") "name"]
                        false]
                     false),
                 Stmt.expr
                   (Expr.call
                     (Expr.sel (Expr.id "fmt") "Fprintf")
                     [Expr.id "out", Expr.str "},\n"]
                     false)],
              Stmt.expr
                (Expr.call
                  (Expr.sel (Expr.id "fmt") "Fprintf")
                  [Expr.id "out", Expr.str "}\n"]
                  false),
              Stmt.expr
                (Expr.call
                  (Expr.sel (Expr.id "fmt") "Fprintf")
                  [Expr.id "out", Expr.str "}\n"]
                  false)]] }

/-- out.go: emitConst -/
def out_emitConst : Func :=
{ recv := none,
  name := "emitConst",
  params := [("ident", Ty.name "string"), ("val", Ty.name "string")],
  results := [],
  body := [Stmt.expr
             (Expr.call
               (Expr.sel (Expr.id "fmt") "Fprintf")
               [Expr.id "tout",
                Expr.str "const %s %s = %s\n",
                Expr.id "ident",
                Expr.un "*" (Expr.id "constTypeFlag"),
                Expr.id "val"]
               false)] }

/-- out.go: emitTypedef -/
def out_emitTypedef : Func :=
{ recv := none,
  name := "emitTypedef",
  params := [("val", Ty.name "decl")],
  results := [],
  body := [Stmt.tswitch
             "v"
             (Expr.id "val")
             [[Ty.name "declName"]]
             [[Stmt.define
                 ["goType"]
                 [Expr.call
                    (Expr.sel (Expr.sel (Expr.id "v") "t") "goType")
                    []
                    false],
               Stmt.define ["goRef"] [Expr.str "v"],
               Stmt.tswitch
                 ""
                 (Expr.sel (Expr.id "v") "t")
                 [[Ty.name "declTypePtr"]]
                 [[Stmt.assign
                     [Expr.id "goType"]
                     [Expr.call
                        (Expr.sel (Expr.id "fmt") "Sprintf")
                        [Expr.str "struct { P %s }", Expr.id "goType"]
                        false],
                   Stmt.assign [Expr.id "goRef"] [Expr.str "&v.P"]]],
               Stmt.expr
                 (Expr.call
                   (Expr.sel (Expr.id "fmt") "Fprintf")
                   [Expr.id "tout",
                    Expr.str "type %s %s\n",
                    Expr.call
                      (Expr.id "i")
                      [Expr.sel (Expr.id "v") "n"]
                      false,
                    Expr.id "goType"]
                   false),
               Stmt.expr
                 (Expr.call
                   (Expr.sel (Expr.id "fmt") "Fprintf")
                   [Expr.id "out",
                    Expr.str "func (v *%s) Xdr(xs *xdr.XdrState) {\n",
                    Expr.call
                      (Expr.id "i")
                      [Expr.sel (Expr.id "v") "n"]
                      false]
                   false),
               Stmt.expr
                 (Expr.call
                   (Expr.sel (Expr.id "fmt") "Fprintf")
                   [Expr.id "out",
                    Expr.str "%s",
                    Expr.call
                      (Expr.sel (Expr.sel (Expr.id "v") "t") "goXdr")
                      [Expr.id "goRef"]
                      false]
                   false),
               Stmt.expr
                 (Expr.call
                   (Expr.sel (Expr.id "fmt") "Fprintf")
                   [Expr.id "out", Expr.str "}\n"]
                   false)]]] }

/-- out.go: emitEnum -/
def out_emitEnum : Func :=
{ recv := none,
  name := "emitEnum",
  params := [("ident", Ty.name "string"),
             ("val", Ty.slice (Ty.name "enumItem"))],
  results := [],
  body := [Stmt.define ["t"] [Expr.str "int32"],
           Stmt.ite
             (Expr.un "*" (Expr.id "unsignedEnumFlag"))
             [Stmt.assign [Expr.id "t"] [Expr.str "uint32"]]
             [],
           Stmt.expr
             (Expr.call
               (Expr.sel (Expr.id "fmt") "Fprintf")
               [Expr.id "tout",
                Expr.str "type %s %s\n",
                Expr.call (Expr.id "i") [Expr.id "ident"] false,
                Expr.id "t"]
               false),
           Stmt.expr
             (Expr.call
               (Expr.sel (Expr.id "fmt") "Fprintf")
               [Expr.id "out",
                Expr.str "func (v *%s) Xdr(xs *xdr.XdrState) {\n",
                Expr.call (Expr.id "i") [Expr.id "ident"] false]
               false),
           Stmt.expr
             (Expr.call
               (Expr.sel (Expr.id "fmt") "Fprintf")
               [Expr.id "out",
                Expr.str "%s",
                Expr.call
                  (Expr.sel
                    (Expr.lit
                      (Ty.name "typeInt")
                      [""]
                      [Expr.un "*" (Expr.id "unsignedEnumFlag")])
                    "goXdr")
                  [Expr.str "v"]
                  false]
               false),
           Stmt.expr
             (Expr.call
               (Expr.sel (Expr.id "fmt") "Fprintf")
               [Expr.id "out", Expr.str "}\n"]
               false),
           Stmt.range
             "_"
             "v"
             (Expr.id "val")
             [Stmt.expr
                (Expr.call
                  (Expr.sel (Expr.id "fmt") "Fprintf")
                  [Expr.id "tout",
                   Expr.str "const %s %s = %s\n",
                   Expr.call
                     (Expr.id "i")
                     [Expr.sel (Expr.id "v") "name"]
                     false,
                   Expr.call (Expr.id "i") [Expr.id "ident"] false,
                   Expr.sel (Expr.id "v") "val"]
                  false)]] }

/-- out.go: emitStruct -/
def out_emitStruct : Func :=
{ recv := none,
  name := "emitStruct",
  params := [("ident", Ty.name "string"),
             ("val", Ty.slice (Ty.name "decl"))],
  results := [],
  body := [Stmt.expr
             (Expr.call
               (Expr.sel (Expr.id "fmt") "Fprintf")
               [Expr.id "tout",
                Expr.str "type %s struct {\n",
                Expr.call (Expr.id "i") [Expr.id "ident"] false]
               false),
           Stmt.range
             "_"
             "v"
             (Expr.id "val")
             [Stmt.tswitch
                "v"
                (Expr.id "v")
                [[Ty.name "declName"]]
                [[Stmt.expr
                    (Expr.call
                      (Expr.sel (Expr.id "fmt") "Fprintf")
                      [Expr.id "tout",
                       Expr.str "  %s %s;\n",
                       Expr.call
                         (Expr.id "i")
                         [Expr.sel (Expr.id "v") "n"]
                         false,
                       Expr.call
                         (Expr.sel (Expr.sel (Expr.id "v") "t") "goType")
                         []
                         false]
                      false)]]],
           Stmt.expr
             (Expr.call
               (Expr.sel (Expr.id "fmt") "Fprintf")
               [Expr.id "tout", Expr.str "}\n"]
               false),
           Stmt.expr
             (Expr.call
               (Expr.sel (Expr.id "fmt") "Fprintf")
               [Expr.id "out",
                Expr.str "func (v *%s) Xdr(xs *xdr.XdrState) {\n",
                Expr.call (Expr.id "i") [Expr.id "ident"] false]
               false),
           Stmt.expr
             (Expr.call
               (Expr.sel (Expr.id "fmt") "Fprintf")
               [Expr.id "out",
                Expr.str "%s",
                Expr.call
                  (Expr.sel
                    (Expr.lit (Ty.name "typeStruct") [""] [Expr.id "val"])
                    "goXdr")
                  [Expr.str "v"]
                  false]
               false),
           Stmt.expr
             (Expr.call
               (Expr.sel (Expr.id "fmt") "Fprintf")
               [Expr.id "out", Expr.str "}\n"]
               false)] }

/-- out.go: emitUnion -/
def out_emitUnion : Func :=
{ recv := none,
  name := "emitUnion",
  params := [("ident", Ty.name "string"), ("val", Ty.name "typeUnion")],
  results := [],
  body := [Stmt.expr
             (Expr.call
               (Expr.sel (Expr.id "fmt") "Fprintf")
               [Expr.id "tout",
                Expr.str "type %s %s\n",
                Expr.call (Expr.id "i") [Expr.id "ident"] false,
                Expr.call (Expr.sel (Expr.id "val") "goType") [] false]
               false),
           Stmt.expr
             (Expr.call
               (Expr.sel (Expr.id "fmt") "Fprintf")
               [Expr.id "out",
                Expr.str "func (v *%s) Xdr(xs *xdr.XdrState) {\n",
                Expr.call (Expr.id "i") [Expr.id "ident"] false]
               false),
           Stmt.expr
             (Expr.call
               (Expr.sel (Expr.id "fmt") "Fprintf")
               [Expr.id "out",
                Expr.str "%s",
                Expr.call
                  (Expr.sel (Expr.id "val") "goXdr")
                  [Expr.str "v"]
                  false]
               false),
           Stmt.expr
             (Expr.call
               (Expr.sel (Expr.id "fmt") "Fprintf")
               [Expr.id "out", Expr.str "}\n"]
               false)] }

/-- out.go -/
def outFile : File := ⟨"main", ["fmt", "strings"], [
  .func out_i,
  Top.typ "decl" (Ty.iface),
  Top.typ "declVoid" (Ty.struct []),
  Top.typ
  "declName"
  (Ty.struct [("t", Ty.name "declType"), ("n", Ty.name "string")]),
  Top.typ "declType" (Ty.iface),
  Top.typ "declTypeTypespec" (Ty.struct [("t", Ty.name "typespec")]),
  .func out_declTypeTypespec_goType,
  .func out_declTypeTypespec_goXdr,
  Top.typ
  "declTypeArray"
  (Ty.struct [("t", Ty.name "typespec"), ("sz", Ty.name "string")]),
  .func out_declTypeArray_goType,
  .func out_declTypeArray_goXdr,
  Top.typ
  "declTypeVarArray"
  (Ty.struct [("t", Ty.name "typespec"), ("sz", Ty.name "string")]),
  .func out_declTypeVarArray_goType,
  .func out_declTypeVarArray_goXdr,
  Top.typ "declTypeOpaqueArray" (Ty.struct [("sz", Ty.name "string")]),
  .func out_declTypeOpaqueArray_goType,
  .func out_declTypeOpaqueArray_goXdr,
  Top.typ "declTypeOpaqueVarArray" (Ty.struct [("sz", Ty.name "string")]),
  .func out_declTypeOpaqueVarArray_goType,
  .func out_declTypeOpaqueVarArray_goXdr,
  Top.typ "declTypeString" (Ty.struct [("sz", Ty.name "string")]),
  .func out_declTypeString_goType,
  .func out_declTypeString_goXdr,
  Top.typ "declTypePtr" (Ty.struct [("t", Ty.name "typespec")]),
  .func out_declTypePtr_goType,
  .func out_declTypePtr_goXdr,
  Top.typ "typespec" (Ty.iface),
  Top.typ
  "typespecOpt"
  (Ty.struct [("isVoid", Ty.name "bool"), ("t", Ty.name "typespec")]),
  .func out_typespecOpt_maybeGoType,
  Top.typ "typeInt" (Ty.struct [("unsig", Ty.name "bool")]),
  .func out_typeInt_goType,
  .func out_typeInt_goXdr,
  Top.typ "typeHyper" (Ty.struct [("unsig", Ty.name "bool")]),
  .func out_typeHyper_goType,
  .func out_typeHyper_goXdr,
  Top.typ "typeFloat" (Ty.struct []),
  .func out_typeFloat_goType,
  .func out_typeFloat_goXdr,
  Top.typ "typeDouble" (Ty.struct []),
  .func out_typeDouble_goType,
  .func out_typeDouble_goXdr,
  Top.typ "typeQuadruple" (Ty.struct []),
  .func out_typeQuadruple_goType,
  .func out_typeQuadruple_goXdr,
  Top.typ "typeBool" (Ty.struct []),
  .func out_typeBool_goType,
  .func out_typeBool_goXdr,
  Top.typ
  "typeEnum"
  (Ty.struct [("items", Ty.slice (Ty.name "enumItem"))]),
  .func out_typeEnum_goType,
  .func out_typeEnum_goXdr,
  .func out_declToNameGotype,
  Top.typ
  "typeStruct"
  (Ty.struct [("items", Ty.slice (Ty.name "decl"))]),
  .func out_typeStruct_goType,
  .func out_typeStruct_goXdr,
  Top.typ
  "typeUnion"
  (Ty.struct
    [("switchDecl", Ty.name "decl"), ("cases", Ty.name "unionCasesDef")]),
  .func out_typeUnion_goType,
  .func out_typeUnion_goXdr,
  Top.typ "typeIdent" (Ty.struct [("n", Ty.name "string")]),
  .func out_typeIdent_goType,
  .func out_typeIdent_goXdr,
  Top.typ
  "enumItem"
  (Ty.struct [("name", Ty.name "string"), ("val", Ty.name "string")]),
  Top.typ
  "unionCasesDef"
  (Ty.struct
    [("cases", Ty.slice (Ty.name "unionCaseDecl")),
     ("def", Ty.name "decl")]),
  Top.typ
  "unionCaseDecl"
  (Ty.struct
    [("cases", Ty.slice (Ty.name "string")), ("body", Ty.name "decl")]),
  Top.typ
  "progCall"
  (Ty.struct
    [("name", Ty.name "string"),
     ("arg", Ty.name "typespecOpt"),
     ("res", Ty.name "typespecOpt"),
     ("id", Ty.name "string")]),
  Top.typ
  "progVer"
  (Ty.struct
    [("name", Ty.name "string"),
     ("calls", Ty.slice (Ty.name "progCall")),
     ("id", Ty.name "string")]),
  Top.typ
  "progDef"
  (Ty.struct
    [("name", Ty.name "string"),
     ("vers", Ty.slice (Ty.name "progVer")),
     ("id", Ty.name "string")]),
  .func out_emitProg,
  .func out_emitConst,
  .func out_emitTypedef,
  .func out_emitEnum,
  .func out_emitStruct,
  .func out_emitUnion
]⟩

/-- scan.go: lexer_Lex -/
def scan_lexer_Lex : Func :=
{ recv := some ("l", Ty.ptr (Ty.name "lexer")),
  name := "Lex",
  params := [("lval", Ty.ptr (Ty.name "xdrSymType"))],
  results := [("", Ty.name "int")],
  body := [Stmt.define
             ["pos", "tok", "lit"]
             [Expr.call
                (Expr.sel (Expr.sel (Expr.id "l") "s") "Scan")
                []
                false],
           Stmt.ite
             (Expr.bin
               "=="
               (Expr.id "tok")
               (Expr.sel (Expr.id "token") "EOF"))
             [Stmt.ret [Expr.id "eof"]]
             [],
           Stmt.ite
             (Expr.un "*" (Expr.id "debugFlag"))
             [Stmt.expr
                (Expr.call
                  (Expr.sel (Expr.id "fmt") "Printf")
                  [Expr.str "pos=%v, tok=%v, lit=%v\n",
                   Expr.id "pos",
                   Expr.id "tok",
                   Expr.id "lit"]
                  false)]
             [],
           Stmt.switch
             (Expr.id "tok")
             [[Expr.sel (Expr.id "token") "CONST"],
              [Expr.sel (Expr.id "token") "STRUCT"],
              [Expr.sel (Expr.id "token") "TYPE"],
              [Expr.sel (Expr.id "token") "SWITCH"],
              [Expr.sel (Expr.id "token") "CASE"],
              [Expr.sel (Expr.id "token") "DEFAULT"],
              [Expr.sel (Expr.id "token") "MAP"],
              [Expr.sel (Expr.id "token") "IDENT"],
              [Expr.sel (Expr.id "token") "ASSIGN"],
              [Expr.sel (Expr.id "token") "SEMICOLON"],
              [Expr.sel (Expr.id "token") "COLON"],
              [Expr.sel (Expr.id "token") "LSS"],
              [Expr.sel (Expr.id "token") "GTR"],
              [Expr.sel (Expr.id "token") "LBRACK"],
              [Expr.sel (Expr.id "token") "RBRACK"],
              [Expr.sel (Expr.id "token") "LBRACE"],
              [Expr.sel (Expr.id "token") "RBRACE"],
              [Expr.sel (Expr.id "token") "COMMA"],
              [Expr.sel (Expr.id "token") "LPAREN"],
              [Expr.sel (Expr.id "token") "RPAREN"],
              [Expr.sel (Expr.id "token") "MUL"],
              [Expr.sel (Expr.id "token") "INT"],
              []]
             [[Stmt.ret [Expr.id "KWCONST"]],
              [Stmt.ret [Expr.id "KWSTRUCT"]],
              [Stmt.assign
                 [Expr.sel (Expr.id "lval") "str"]
                 [Expr.str "type"],
               Stmt.ret [Expr.id "IDENT"]],
              [Stmt.ret [Expr.id "KWSWITCH"]],
              [Stmt.ret [Expr.id "KWCASE"]],
              [Stmt.ret [Expr.id "KWDEFAULT"]],
              [Stmt.assign
                 [Expr.sel (Expr.id "lval") "str"]
                 [Expr.str "map"],
               Stmt.ret [Expr.id "IDENT"]],
              [Stmt.switch
                 (Expr.id "lit")
                 [[Expr.str "typedef"],
                  [Expr.str "enum"],
                  [Expr.str "union"],
                  [Expr.str "void"],
                  [Expr.str "string"],
                  [Expr.str "opaque"],
                  [Expr.str "unsigned"],
                  [Expr.str "int"],
                  [Expr.str "hyper"],
                  [Expr.str "float"],
                  [Expr.str "double"],
                  [Expr.str "quadruple"],
                  [Expr.str "bool"],
                  [Expr.str "program"],
                  [Expr.str "version"],
                  []]
                 [[Stmt.ret [Expr.id "KWTYPEDEF"]],
                  [Stmt.ret [Expr.id "KWENUM"]],
                  [Stmt.ret [Expr.id "KWUNION"]],
                  [Stmt.ret [Expr.id "KWVOID"]],
                  [Stmt.ret [Expr.id "KWSTRING"]],
                  [Stmt.ret [Expr.id "KWOPAQUE"]],
                  [Stmt.ret [Expr.id "KWUNSIGNED"]],
                  [Stmt.ret [Expr.id "KWINT"]],
                  [Stmt.ret [Expr.id "KWHYPER"]],
                  [Stmt.ret [Expr.id "KWFLOAT"]],
                  [Stmt.ret [Expr.id "KWDOUBLE"]],
                  [Stmt.ret [Expr.id "KWQUADRUPLE"]],
                  [Stmt.ret [Expr.id "KWBOOL"]],
                  [Stmt.ret [Expr.id "KWPROGRAM"]],
                  [Stmt.ret [Expr.id "KWVERSION"]],
                  [Stmt.assign
                     [Expr.sel (Expr.id "lval") "str"]
                     [Expr.id "lit"],
                   Stmt.ret [Expr.id "IDENT"]]]],
              [Stmt.ret [Expr.int 61]],
              [Stmt.ret [Expr.int 59]],
              [Stmt.ret [Expr.int 58]],
              [Stmt.ret [Expr.int 60]],
              [Stmt.ret [Expr.int 62]],
              [Stmt.ret [Expr.int 91]],
              [Stmt.ret [Expr.int 93]],
              [Stmt.ret [Expr.int 123]],
              [Stmt.ret [Expr.int 125]],
              [Stmt.ret [Expr.int 44]],
              [Stmt.ret [Expr.int 40]],
              [Stmt.ret [Expr.int 41]],
              [Stmt.ret [Expr.int 42]],
              [Stmt.assign
                 [Expr.sel (Expr.id "lval") "str"]
                 [Expr.id "lit"],
               Stmt.ret [Expr.id "CONST"]],
              [Stmt.expr
                 (Expr.call
                   (Expr.sel (Expr.id "fmt") "Printf")
                   [Expr.str "NOT HANDLED: pos=%v, tok=%v, lit=%v\n",
                    Expr.id "pos",
                    Expr.id "tok",
                    Expr.id "lit"]
                   false),
               Stmt.expr
                 (Expr.call
                   (Expr.id "panic")
                   [Expr.str "token not handled"]
                   false)]]] }

/-- scan.go: lexer_Error -/
def scan_lexer_Error : Func :=
{ recv := some ("l", Ty.ptr (Ty.name "lexer")),
  name := "Error",
  params := [("e", Ty.name "string")],
  results := [],
  body := [Stmt.expr
             (Expr.call (Expr.id "panic") [Expr.id "e"] false)] }

/-- scan.go -/
def scanFile : File := ⟨"main", ["fmt", "go/scanner", "go/token"], [
  Top.typ "lexer" (Ty.struct [("s", Ty.qual "scanner" "Scanner")]),
  Top.const "eof" none (Expr.int 0),
  .func scan_lexer_Lex,
  .func scan_lexer_Error
]⟩

/-- main.go: main -/
def main_main : Func :=
{ recv := none,
  name := "main",
  params := [],
  results := [],
  body := [Stmt.expr
             (Expr.call (Expr.sel (Expr.id "flag") "Parse") [] false),
           Stmt.ite
             (Expr.bin
               "=="
               (Expr.un "*" (Expr.id "inputFile"))
               (Expr.str ""))
             [Stmt.expr
                (Expr.call
                  (Expr.sel (Expr.id "fmt") "Fprintf")
                  [Expr.sel (Expr.id "os") "Stderr",
                   Expr.str "Must specify input file (-i)\n"]
                  false),
              Stmt.expr
                (Expr.call
                  (Expr.sel (Expr.id "os") "Exit")
                  [Expr.int 1]
                  false)]
             [],
           Stmt.ite
             (Expr.bin
               "=="
               (Expr.un "*" (Expr.id "outputFile"))
               (Expr.str ""))
             [Stmt.expr
                (Expr.call
                  (Expr.sel (Expr.id "fmt") "Fprintf")
                  [Expr.sel (Expr.id "os") "Stderr",
                   Expr.str "Must specify output file (-o)\n"]
                  false),
              Stmt.expr
                (Expr.call
                  (Expr.sel (Expr.id "os") "Exit")
                  [Expr.int 1]
                  false)]
             [],
           Stmt.define
             ["src", "err"]
             [Expr.call
                (Expr.sel (Expr.id "ioutil") "ReadFile")
                [Expr.un "*" (Expr.id "inputFile")]
                false],
           Stmt.ite
             (Expr.bin "!=" (Expr.id "err") (Expr.id "nil"))
             [Stmt.expr
                (Expr.call (Expr.id "panic") [Expr.id "err"] false)]
             [],
           Stmt.define
             ["fset"]
             [Expr.call (Expr.sel (Expr.id "token") "NewFileSet") [] false],
           Stmt.define
             ["f"]
             [Expr.call
                (Expr.sel (Expr.id "fset") "AddFile")
                [Expr.un "*" (Expr.id "inputFile"),
                 Expr.un "-" (Expr.int 1),
                 Expr.call (Expr.id "len") [Expr.id "src"] false]
                false],
           Stmt.var ["l"] (Ty.name "lexer"),
           Stmt.expr
             (Expr.call
               (Expr.sel (Expr.sel (Expr.id "l") "s") "Init")
               [Expr.id "f",
                Expr.id "src",
                Expr.id "nil",
                Expr.int 0]
               false),
           Stmt.define
             ["outTmp"]
             [Expr.bin
                "+"
                (Expr.un "*" (Expr.id "outputFile"))
                (Expr.str ".tmp")],
           Stmt.define
             ["outf", "err"]
             [Expr.call
                (Expr.sel (Expr.id "os") "OpenFile")
                [Expr.id "outTmp",
                 Expr.bin
                   "|"
                   (Expr.bin
                     "|"
                     (Expr.bin
                       "|"
                       (Expr.sel (Expr.id "os") "O_WRONLY")
                       (Expr.sel (Expr.id "os") "O_EXCL"))
                     (Expr.sel (Expr.id "os") "O_CREATE"))
                   (Expr.sel (Expr.id "os") "O_TRUNC"),
                 Expr.int 438]
                false],
           Stmt.ite
             (Expr.bin "!=" (Expr.id "err") (Expr.id "nil"))
             [Stmt.expr
                (Expr.call (Expr.id "panic") [Expr.id "err"] false)]
             [],
           Stmt.defer
             (Expr.call
               (Expr.sel (Expr.id "os") "Remove")
               [Expr.id "outTmp"]
               false),
           Stmt.assign [Expr.id "out"] [Expr.id "outf"],
           Stmt.expr
             (Expr.call
               (Expr.sel (Expr.id "fmt") "Fprintf")
               [Expr.id "out",
                Expr.str "package %s\n",
                Expr.un "*" (Expr.id "outputPackage")]
               false),
           Stmt.expr
             (Expr.call
               (Expr.sel (Expr.id "fmt") "Fprintf")
               [Expr.id "out",
                Expr.str "import \"github.com/zeldovich/go-rpcgen/xdr\"\n"]
               false),
           Stmt.var ["toutTmp"] (Ty.name "string"),
           Stmt.var ["toutf"] (Ty.ptr (Ty.qual "os" "File")),
           Stmt.ite
             (Expr.bin
               "!="
               (Expr.un "*" (Expr.id "typesFile"))
               (Expr.str ""))
             [Stmt.assign
                [Expr.id "toutTmp"]
                [Expr.bin
                   "+"
                   (Expr.un "*" (Expr.id "typesFile"))
                   (Expr.str ".tmp")],
              Stmt.assign
                [Expr.id "toutf", Expr.id "err"]
                [Expr.call
                   (Expr.sel (Expr.id "os") "OpenFile")
                   [Expr.id "toutTmp",
                    Expr.bin
                      "|"
                      (Expr.bin
                        "|"
                        (Expr.bin
                          "|"
                          (Expr.sel (Expr.id "os") "O_WRONLY")
                          (Expr.sel (Expr.id "os") "O_EXCL"))
                        (Expr.sel (Expr.id "os") "O_CREATE"))
                      (Expr.sel (Expr.id "os") "O_TRUNC"),
                    Expr.int 438]
                   false],
              Stmt.ite
                (Expr.bin "!=" (Expr.id "err") (Expr.id "nil"))
                [Stmt.expr
                   (Expr.call (Expr.id "panic") [Expr.id "err"] false)]
                [],
              Stmt.defer
                (Expr.call
                  (Expr.sel (Expr.id "os") "Remove")
                  [Expr.id "toutTmp"]
                  false),
              Stmt.assign [Expr.id "tout"] [Expr.id "toutf"],
              Stmt.expr
                (Expr.call
                  (Expr.sel (Expr.id "fmt") "Fprintf")
                  [Expr.id "tout",
                   Expr.str "package %s\n",
                   Expr.un "*" (Expr.id "outputPackage")]
                  false)]
             [Stmt.assign [Expr.id "tout"] [Expr.id "outf"]],
           Stmt.expr
             (Expr.call
               (Expr.id "xdrParse")
               [Expr.un "&" (Expr.id "l")]
               false),
           Stmt.expr
             (Expr.call (Expr.sel (Expr.id "outf") "Close") [] false),
           Stmt.expr
             (Expr.call
               (Expr.id "refmt")
               [Expr.id "outTmp", Expr.un "*" (Expr.id "outputFile")]
               false),
           Stmt.ite
             (Expr.bin
               "!="
               (Expr.un "*" (Expr.id "typesFile"))
               (Expr.str ""))
             [Stmt.expr
                (Expr.call (Expr.sel (Expr.id "toutf") "Close") [] false),
              Stmt.expr
                (Expr.call
                  (Expr.id "refmt")
                  [Expr.id "toutTmp", Expr.un "*" (Expr.id "typesFile")]
                  false)]
             []] }

/-- main.go: refmt -/
def main_refmt : Func :=
{ recv := none,
  name := "refmt",
  params := [("infile", Ty.name "string"), ("outfile", Ty.name "string")],
  results := [],
  body := [Stmt.define
             ["buf", "err"]
             [Expr.call
                (Expr.sel (Expr.id "ioutil") "ReadFile")
                [Expr.id "infile"]
                false],
           Stmt.ite
             (Expr.bin "!=" (Expr.id "err") (Expr.id "nil"))
             [Stmt.expr
                (Expr.call (Expr.id "panic") [Expr.id "err"] false)]
             [],
           Stmt.assign
             [Expr.id "buf", Expr.id "err"]
             [Expr.call
                (Expr.sel (Expr.id "format") "Source")
                [Expr.id "buf"]
                false],
           Stmt.ite
             (Expr.bin "!=" (Expr.id "err") (Expr.id "nil"))
             [Stmt.expr
                (Expr.call (Expr.id "panic") [Expr.id "err"] false)]
             [],
           Stmt.assign
             [Expr.id "err"]
             [Expr.call
                (Expr.sel (Expr.id "ioutil") "WriteFile")
                [Expr.id "outfile", Expr.id "buf", Expr.int 438]
                false],
           Stmt.ite
             (Expr.bin "!=" (Expr.id "err") (Expr.id "nil"))
             [Stmt.expr
                (Expr.call (Expr.id "panic") [Expr.id "err"] false)]
             []] }

/-- main.go -/
def mainFile : File := ⟨"main", ["flag", "fmt", "go/format", "go/token", "io", "io/ioutil", "os"], [
  Top.init
  "inputFile"
  (Expr.call
    (Expr.sel (Expr.id "flag") "String")
    [Expr.str "i", Expr.str "", Expr.str "Input file (.x)"]
    false),
  Top.init
  "outputFile"
  (Expr.call
    (Expr.sel (Expr.id "flag") "String")
    [Expr.str "o", Expr.str "", Expr.str "Output file (.go)"]
    false),
  Top.init
  "outputPackage"
  (Expr.call
    (Expr.sel (Expr.id "flag") "String")
    [Expr.str "p", Expr.str "main", Expr.str "Output package name"]
    false),
  Top.init
  "typesFile"
  (Expr.call
    (Expr.sel (Expr.id "flag") "String")
    [Expr.str "t",
     Expr.str "",
     Expr.str "Output file for separate type definitions (optional"]
    false),
  Top.init
  "debugFlag"
  (Expr.call
    (Expr.sel (Expr.id "flag") "Bool")
    [Expr.str "d", Expr.id "false", Expr.str "Debug parsing"]
    false),
  Top.init
  "unsignedEnumFlag"
  (Expr.call
    (Expr.sel (Expr.id "flag") "Bool")
    [Expr.str "unsigned-enum",
     Expr.id "false",
     Expr.str "Unsigned integer enum types"]
    false),
  Top.init
  "constTypeFlag"
  (Expr.call
    (Expr.sel (Expr.id "flag") "String")
    [Expr.str "const-type",
     Expr.str "",
     Expr.str "Optional type for const definitions"]
    false),
  Top.var "out" (Ty.qual "io" "Writer"),
  Top.var "tout" (Ty.qual "io" "Writer"),
  .func main_main,
  .func main_refmt
]⟩

/-- what goyacc makes of xdr.y: xdrAct6 -/
def yacc_xdrAct6 : Func :=
{ recv := none,
  name := "xdrAct6",
  params := [("xdrD1", Ty.name "typespec"), ("xdrD2", Ty.name "string")],
  results := [("", Ty.name "decl")],
  body := [Stmt.ret
             [Expr.lit
                (Ty.name "declName")
                ["", ""]
                [Expr.lit
                   (Ty.name "declTypeTypespec")
                   [""]
                   [Expr.id "xdrD1"],
                 Expr.id "xdrD2"]]] }

/-- what goyacc makes of xdr.y: xdrAct7 -/
def yacc_xdrAct7 : Func :=
{ recv := none,
  name := "xdrAct7",
  params := [("xdrD1", Ty.name "typespec"),
             ("xdrD2", Ty.name "string"),
             ("xdrD4", Ty.name "string")],
  results := [("", Ty.name "decl")],
  body := [Stmt.ret
             [Expr.lit
                (Ty.name "declName")
                ["", ""]
                [Expr.lit
                   (Ty.name "declTypeArray")
                   ["", ""]
                   [Expr.id "xdrD1", Expr.id "xdrD4"],
                 Expr.id "xdrD2"]]] }

/-- what goyacc makes of xdr.y: xdrAct8 -/
def yacc_xdrAct8 : Func :=
{ recv := none,
  name := "xdrAct8",
  params := [("xdrD1", Ty.name "typespec"),
             ("xdrD2", Ty.name "string"),
             ("xdrD3", Ty.name "string")],
  results := [("", Ty.name "decl")],
  body := [Stmt.ret
             [Expr.lit
                (Ty.name "declName")
                ["", ""]
                [Expr.lit
                   (Ty.name "declTypeVarArray")
                   ["", ""]
                   [Expr.id "xdrD1", Expr.id "xdrD3"],
                 Expr.id "xdrD2"]]] }

/-- what goyacc makes of xdr.y: xdrAct9 -/
def yacc_xdrAct9 : Func :=
{ recv := none,
  name := "xdrAct9",
  params := [("xdrD2", Ty.name "string"), ("xdrD4", Ty.name "string")],
  results := [("", Ty.name "decl")],
  body := [Stmt.ret
             [Expr.lit
                (Ty.name "declName")
                ["", ""]
                [Expr.lit
                   (Ty.name "declTypeOpaqueArray")
                   [""]
                   [Expr.id "xdrD4"],
                 Expr.id "xdrD2"]]] }

/-- what goyacc makes of xdr.y: xdrAct10 -/
def yacc_xdrAct10 : Func :=
{ recv := none,
  name := "xdrAct10",
  params := [("xdrD2", Ty.name "string"), ("xdrD3", Ty.name "string")],
  results := [("", Ty.name "decl")],
  body := [Stmt.ret
             [Expr.lit
                (Ty.name "declName")
                ["", ""]
                [Expr.lit
                   (Ty.name "declTypeOpaqueVarArray")
                   [""]
                   [Expr.id "xdrD3"],
                 Expr.id "xdrD2"]]] }

/-- what goyacc makes of xdr.y: xdrAct11 -/
def yacc_xdrAct11 : Func :=
{ recv := none,
  name := "xdrAct11",
  params := [("xdrD2", Ty.name "string"), ("xdrD3", Ty.name "string")],
  results := [("", Ty.name "decl")],
  body := [Stmt.ret
             [Expr.lit
                (Ty.name "declName")
                ["", ""]
                [Expr.lit (Ty.name "declTypeString") [""] [Expr.id "xdrD3"],
                 Expr.id "xdrD2"]]] }

/-- what goyacc makes of xdr.y: xdrAct12 -/
def yacc_xdrAct12 : Func :=
{ recv := none,
  name := "xdrAct12",
  params := [("xdrD1", Ty.name "typespec"), ("xdrD3", Ty.name "string")],
  results := [("", Ty.name "decl")],
  body := [Stmt.ret
             [Expr.lit
                (Ty.name "declName")
                ["", ""]
                [Expr.lit (Ty.name "declTypePtr") [""] [Expr.id "xdrD1"],
                 Expr.id "xdrD3"]]] }

/-- what goyacc makes of xdr.y: xdrAct13 -/
def yacc_xdrAct13 : Func :=
{ recv := none,
  name := "xdrAct13",
  params := [],
  results := [("", Ty.name "decl")],
  body := [Stmt.ret [Expr.lit (Ty.name "declVoid") [] []]] }

/-- what goyacc makes of xdr.y: xdrAct14 -/
def yacc_xdrAct14 : Func :=
{ recv := none,
  name := "xdrAct14",
  params := [],
  results := [("", Ty.name "string")],
  body := [Stmt.ret [Expr.str ""]] }

/-- what goyacc makes of xdr.y: xdrAct15 -/
def yacc_xdrAct15 : Func :=
{ recv := none,
  name := "xdrAct15",
  params := [("xdrD2", Ty.name "string")],
  results := [("", Ty.name "string")],
  body := [Stmt.ret [Expr.id "xdrD2"]] }

/-- what goyacc makes of xdr.y: xdrAct16 -/
def yacc_xdrAct16 : Func :=
{ recv := none,
  name := "xdrAct16",
  params := [("xdrD1", Ty.name "string")],
  results := [("", Ty.name "string")],
  body := [Stmt.ret [Expr.id "xdrD1"]] }

/-- what goyacc makes of xdr.y: xdrAct17 -/
def yacc_xdrAct17 : Func :=
{ recv := none,
  name := "xdrAct17",
  params := [("xdrD1", Ty.name "string")],
  results := [("", Ty.name "string")],
  body := [Stmt.ret [Expr.id "xdrD1"]] }

/-- what goyacc makes of xdr.y: xdrAct18 -/
def yacc_xdrAct18 : Func :=
{ recv := none,
  name := "xdrAct18",
  params := [("xdrD1", Ty.name "bool")],
  results := [("", Ty.name "typespec")],
  body := [Stmt.ret
             [Expr.lit (Ty.name "typeInt") [""] [Expr.id "xdrD1"]]] }

/-- what goyacc makes of xdr.y: xdrAct19 -/
def yacc_xdrAct19 : Func :=
{ recv := none,
  name := "xdrAct19",
  params := [("xdrD1", Ty.name "bool")],
  results := [("", Ty.name "typespec")],
  body := [Stmt.ret
             [Expr.lit (Ty.name "typeHyper") [""] [Expr.id "xdrD1"]]] }

/-- what goyacc makes of xdr.y: xdrAct20 -/
def yacc_xdrAct20 : Func :=
{ recv := none,
  name := "xdrAct20",
  params := [],
  results := [("", Ty.name "typespec")],
  body := [Stmt.ret [Expr.lit (Ty.name "typeFloat") [] []]] }

/-- what goyacc makes of xdr.y: xdrAct21 -/
def yacc_xdrAct21 : Func :=
{ recv := none,
  name := "xdrAct21",
  params := [],
  results := [("", Ty.name "typespec")],
  body := [Stmt.ret [Expr.lit (Ty.name "typeDouble") [] []]] }

/-- what goyacc makes of xdr.y: xdrAct22 -/
def yacc_xdrAct22 : Func :=
{ recv := none,
  name := "xdrAct22",
  params := [],
  results := [("", Ty.name "typespec")],
  body := [Stmt.ret [Expr.lit (Ty.name "typeQuadruple") [] []]] }

/-- what goyacc makes of xdr.y: xdrAct23 -/
def yacc_xdrAct23 : Func :=
{ recv := none,
  name := "xdrAct23",
  params := [],
  results := [("", Ty.name "typespec")],
  body := [Stmt.ret [Expr.lit (Ty.name "typeBool") [] []]] }

/-- what goyacc makes of xdr.y: xdrAct24 -/
def yacc_xdrAct24 : Func :=
{ recv := none,
  name := "xdrAct24",
  params := [("xdrD1", Ty.name "typespec")],
  results := [("", Ty.name "typespec")],
  body := [Stmt.ret [Expr.id "xdrD1"]] }

/-- what goyacc makes of xdr.y: xdrAct25 -/
def yacc_xdrAct25 : Func :=
{ recv := none,
  name := "xdrAct25",
  params := [("xdrD1", Ty.name "typespec")],
  results := [("", Ty.name "typespec")],
  body := [Stmt.ret [Expr.id "xdrD1"]] }

/-- what goyacc makes of xdr.y: xdrAct26 -/
def yacc_xdrAct26 : Func :=
{ recv := none,
  name := "xdrAct26",
  params := [("xdrD1", Ty.name "typespec")],
  results := [("", Ty.name "typespec")],
  body := [Stmt.ret [Expr.id "xdrD1"]] }

/-- what goyacc makes of xdr.y: xdrAct27 -/
def yacc_xdrAct27 : Func :=
{ recv := none,
  name := "xdrAct27",
  params := [("xdrD1", Ty.name "string")],
  results := [("", Ty.name "typespec")],
  body := [Stmt.ret
             [Expr.lit (Ty.name "typeIdent") [""] [Expr.id "xdrD1"]]] }

/-- what goyacc makes of xdr.y: xdrAct28 -/
def yacc_xdrAct28 : Func :=
{ recv := none,
  name := "xdrAct28",
  params := [],
  results := [("", Ty.name "bool")],
  body := [Stmt.ret [Expr.id "false"]] }

/-- what goyacc makes of xdr.y: xdrAct29 -/
def yacc_xdrAct29 : Func :=
{ recv := none,
  name := "xdrAct29",
  params := [],
  results := [("", Ty.name "bool")],
  body := [Stmt.ret [Expr.id "true"]] }

/-- what goyacc makes of xdr.y: xdrAct30 -/
def yacc_xdrAct30 : Func :=
{ recv := none,
  name := "xdrAct30",
  params := [("xdrD2", Ty.slice (Ty.name "enumItem"))],
  results := [("", Ty.name "typespec")],
  body := [Stmt.ret
             [Expr.lit (Ty.name "typeEnum") [""] [Expr.id "xdrD2"]]] }

/-- what goyacc makes of xdr.y: xdrAct31 -/
def yacc_xdrAct31 : Func :=
{ recv := none,
  name := "xdrAct31",
  params := [("xdrD2", Ty.slice (Ty.name "enumItem"))],
  results := [("", Ty.slice (Ty.name "enumItem"))],
  body := [Stmt.ret [Expr.id "xdrD2"]] }

/-- what goyacc makes of xdr.y: xdrAct32 -/
def yacc_xdrAct32 : Func :=
{ recv := none,
  name := "xdrAct32",
  params := [("xdrD1", Ty.name "enumItem")],
  results := [("", Ty.slice (Ty.name "enumItem"))],
  body := [Stmt.ret
             [Expr.lit
                (Ty.slice (Ty.name "enumItem"))
                [""]
                [Expr.id "xdrD1"]]] }

/-- what goyacc makes of xdr.y: xdrAct33 -/
def yacc_xdrAct33 : Func :=
{ recv := none,
  name := "xdrAct33",
  params := [("xdrD1", Ty.slice (Ty.name "enumItem")),
             ("xdrD3", Ty.name "enumItem")],
  results := [("", Ty.slice (Ty.name "enumItem"))],
  body := [Stmt.ret
             [Expr.call
                (Expr.id "append")
                [Expr.id "xdrD1", Expr.id "xdrD3"]
                false]] }

/-- what goyacc makes of xdr.y: xdrAct34 -/
def yacc_xdrAct34 : Func :=
{ recv := none,
  name := "xdrAct34",
  params := [("xdrD1", Ty.name "string"), ("xdrD3", Ty.name "string")],
  results := [("", Ty.name "enumItem")],
  body := [Stmt.ret
             [Expr.lit
                (Ty.name "enumItem")
                ["", ""]
                [Expr.id "xdrD1", Expr.id "xdrD3"]]] }

/-- what goyacc makes of xdr.y: xdrAct35 -/
def yacc_xdrAct35 : Func :=
{ recv := none,
  name := "xdrAct35",
  params := [("xdrD2", Ty.slice (Ty.name "decl"))],
  results := [("", Ty.name "typespec")],
  body := [Stmt.ret
             [Expr.lit (Ty.name "typeStruct") [""] [Expr.id "xdrD2"]]] }

/-- what goyacc makes of xdr.y: xdrAct36 -/
def yacc_xdrAct36 : Func :=
{ recv := none,
  name := "xdrAct36",
  params := [("xdrD2", Ty.slice (Ty.name "decl"))],
  results := [("", Ty.slice (Ty.name "decl"))],
  body := [Stmt.ret [Expr.id "xdrD2"]] }

/-- what goyacc makes of xdr.y: xdrAct37 -/
def yacc_xdrAct37 : Func :=
{ recv := none,
  name := "xdrAct37",
  params := [],
  results := [("", Ty.slice (Ty.name "decl"))],
  body := [Stmt.ret [Expr.id "nil"]] }

/-- what goyacc makes of xdr.y: xdrAct38 -/
def yacc_xdrAct38 : Func :=
{ recv := none,
  name := "xdrAct38",
  params := [("xdrD1", Ty.slice (Ty.name "decl")),
             ("xdrD2", Ty.name "decl")],
  results := [("", Ty.slice (Ty.name "decl"))],
  body := [Stmt.ret
             [Expr.call
                (Expr.id "append")
                [Expr.id "xdrD1", Expr.id "xdrD2"]
                false]] }

/-- what goyacc makes of xdr.y: xdrAct39 -/
def yacc_xdrAct39 : Func :=
{ recv := none,
  name := "xdrAct39",
  params := [("xdrD2", Ty.name "typeUnion")],
  results := [("", Ty.name "typespec")],
  body := [Stmt.ret [Expr.id "xdrD2"]] }

/-- what goyacc makes of xdr.y: xdrAct40 -/
def yacc_xdrAct40 : Func :=
{ recv := none,
  name := "xdrAct40",
  params := [("xdrD3", Ty.name "decl"), ("xdrD6", Ty.name "unionCasesDef")],
  results := [("", Ty.name "typeUnion")],
  body := [Stmt.ret
             [Expr.lit
                (Ty.name "typeUnion")
                ["switchDecl", "cases"]
                [Expr.id "xdrD3", Expr.id "xdrD6"]]] }

/-- what goyacc makes of xdr.y: xdrAct41 -/
def yacc_xdrAct41 : Func :=
{ recv := none,
  name := "xdrAct41",
  params := [("xdrD1", Ty.slice (Ty.name "unionCaseDecl"))],
  results := [("", Ty.name "unionCasesDef")],
  body := [Stmt.ret
             [Expr.lit
                (Ty.name "unionCasesDef")
                ["", ""]
                [Expr.id "xdrD1", Expr.id "nil"]]] }

/-- what goyacc makes of xdr.y: xdrAct42 -/
def yacc_xdrAct42 : Func :=
{ recv := none,
  name := "xdrAct42",
  params := [("xdrD1", Ty.slice (Ty.name "unionCaseDecl")),
             ("xdrD4", Ty.name "decl")],
  results := [("", Ty.name "unionCasesDef")],
  body := [Stmt.ret
             [Expr.lit
                (Ty.name "unionCasesDef")
                ["", ""]
                [Expr.id "xdrD1", Expr.id "xdrD4"]]] }

/-- what goyacc makes of xdr.y: xdrAct43 -/
def yacc_xdrAct43 : Func :=
{ recv := none,
  name := "xdrAct43",
  params := [],
  results := [("", Ty.slice (Ty.name "unionCaseDecl"))],
  body := [Stmt.ret [Expr.id "nil"]] }

/-- what goyacc makes of xdr.y: xdrAct44 -/
def yacc_xdrAct44 : Func :=
{ recv := none,
  name := "xdrAct44",
  params := [("xdrD1", Ty.slice (Ty.name "unionCaseDecl")),
             ("xdrD2", Ty.name "unionCaseDecl")],
  results := [("", Ty.slice (Ty.name "unionCaseDecl"))],
  body := [Stmt.ret
             [Expr.call
                (Expr.id "append")
                [Expr.id "xdrD1", Expr.id "xdrD2"]
                false]] }

/-- what goyacc makes of xdr.y: xdrAct45 -/
def yacc_xdrAct45 : Func :=
{ recv := none,
  name := "xdrAct45",
  params := [("xdrD1", Ty.slice (Ty.name "string")),
             ("xdrD2", Ty.name "decl")],
  results := [("", Ty.name "unionCaseDecl")],
  body := [Stmt.ret
             [Expr.lit
                (Ty.name "unionCaseDecl")
                ["", ""]
                [Expr.id "xdrD1", Expr.id "xdrD2"]]] }

/-- what goyacc makes of xdr.y: xdrAct46 -/
def yacc_xdrAct46 : Func :=
{ recv := none,
  name := "xdrAct46",
  params := [("xdrD2", Ty.name "string")],
  results := [("", Ty.slice (Ty.name "string"))],
  body := [Stmt.ret
             [Expr.lit
                (Ty.slice (Ty.name "string"))
                [""]
                [Expr.id "xdrD2"]]] }

/-- what goyacc makes of xdr.y: xdrAct47 -/
def yacc_xdrAct47 : Func :=
{ recv := none,
  name := "xdrAct47",
  params := [("xdrD1", Ty.slice (Ty.name "string")),
             ("xdrD3", Ty.name "string")],
  results := [("", Ty.slice (Ty.name "string"))],
  body := [Stmt.ret
             [Expr.call
                (Expr.id "append")
                [Expr.id "xdrD1", Expr.id "xdrD3"]
                false]] }

/-- what goyacc makes of xdr.y: xdrAct48 -/
def yacc_xdrAct48 : Func :=
{ recv := none,
  name := "xdrAct48",
  params := [("xdrD2", Ty.name "string"), ("xdrD4", Ty.name "string")],
  results := [],
  body := [Stmt.expr
             (Expr.call
               (Expr.id "emitConst")
               [Expr.id "xdrD2", Expr.id "xdrD4"]
               false)] }

/-- what goyacc makes of xdr.y: xdrAct49 -/
def yacc_xdrAct49 : Func :=
{ recv := none,
  name := "xdrAct49",
  params := [("xdrD2", Ty.name "decl")],
  results := [],
  body := [Stmt.expr
             (Expr.call (Expr.id "emitTypedef") [Expr.id "xdrD2"] false)] }

/-- what goyacc makes of xdr.y: xdrAct50 -/
def yacc_xdrAct50 : Func :=
{ recv := none,
  name := "xdrAct50",
  params := [("xdrD2", Ty.name "string"),
             ("xdrD3", Ty.slice (Ty.name "enumItem"))],
  results := [],
  body := [Stmt.expr
             (Expr.call
               (Expr.id "emitEnum")
               [Expr.id "xdrD2", Expr.id "xdrD3"]
               false)] }

/-- what goyacc makes of xdr.y: xdrAct51 -/
def yacc_xdrAct51 : Func :=
{ recv := none,
  name := "xdrAct51",
  params := [("xdrD2", Ty.name "string"),
             ("xdrD3", Ty.slice (Ty.name "decl"))],
  results := [],
  body := [Stmt.expr
             (Expr.call
               (Expr.id "emitStruct")
               [Expr.id "xdrD2", Expr.id "xdrD3"]
               false)] }

/-- what goyacc makes of xdr.y: xdrAct52 -/
def yacc_xdrAct52 : Func :=
{ recv := none,
  name := "xdrAct52",
  params := [("xdrD2", Ty.name "string"), ("xdrD3", Ty.name "typeUnion")],
  results := [],
  body := [Stmt.expr
             (Expr.call
               (Expr.id "emitUnion")
               [Expr.id "xdrD2", Expr.id "xdrD3"]
               false)] }

/-- what goyacc makes of xdr.y: xdrAct53 -/
def yacc_xdrAct53 : Func :=
{ recv := none,
  name := "xdrAct53",
  params := [("xdrD2", Ty.name "string"),
             ("xdrD4", Ty.slice (Ty.name "progVer")),
             ("xdrD7", Ty.name "string")],
  results := [],
  body := [Stmt.expr
             (Expr.call
               (Expr.id "emitProg")
               [Expr.lit
                  (Ty.name "progDef")
                  ["", "", ""]
                  [Expr.id "xdrD2", Expr.id "xdrD4", Expr.id "xdrD7"]]
               false)] }

/-- what goyacc makes of xdr.y: xdrAct54 -/
def yacc_xdrAct54 : Func :=
{ recv := none,
  name := "xdrAct54",
  params := [],
  results := [("", Ty.slice (Ty.name "progVer"))],
  body := [Stmt.ret [Expr.id "nil"]] }

/-- what goyacc makes of xdr.y: xdrAct55 -/
def yacc_xdrAct55 : Func :=
{ recv := none,
  name := "xdrAct55",
  params := [("xdrD1", Ty.slice (Ty.name "progVer")),
             ("xdrD2", Ty.name "progVer")],
  results := [("", Ty.slice (Ty.name "progVer"))],
  body := [Stmt.ret
             [Expr.call
                (Expr.id "append")
                [Expr.id "xdrD1", Expr.id "xdrD2"]
                false]] }

/-- what goyacc makes of xdr.y: xdrAct56 -/
def yacc_xdrAct56 : Func :=
{ recv := none,
  name := "xdrAct56",
  params := [("xdrD2", Ty.name "string"),
             ("xdrD4", Ty.slice (Ty.name "progCall")),
             ("xdrD7", Ty.name "string")],
  results := [("", Ty.name "progVer")],
  body := [Stmt.ret
             [Expr.lit
                (Ty.name "progVer")
                ["", "", ""]
                [Expr.id "xdrD2", Expr.id "xdrD4", Expr.id "xdrD7"]]] }

/-- what goyacc makes of xdr.y: xdrAct57 -/
def yacc_xdrAct57 : Func :=
{ recv := none,
  name := "xdrAct57",
  params := [],
  results := [("", Ty.slice (Ty.name "progCall"))],
  body := [Stmt.ret [Expr.id "nil"]] }

/-- what goyacc makes of xdr.y: xdrAct58 -/
def yacc_xdrAct58 : Func :=
{ recv := none,
  name := "xdrAct58",
  params := [("xdrD1", Ty.slice (Ty.name "progCall")),
             ("xdrD2", Ty.name "progCall")],
  results := [("", Ty.slice (Ty.name "progCall"))],
  body := [Stmt.ret
             [Expr.call
                (Expr.id "append")
                [Expr.id "xdrD1", Expr.id "xdrD2"]
                false]] }

/-- what goyacc makes of xdr.y: xdrAct59 -/
def yacc_xdrAct59 : Func :=
{ recv := none,
  name := "xdrAct59",
  params := [("xdrD1", Ty.name "typespecOpt"),
             ("xdrD2", Ty.name "string"),
             ("xdrD4", Ty.name "typespecOpt"),
             ("xdrD7", Ty.name "string")],
  results := [("", Ty.name "progCall")],
  body := [Stmt.ret
             [Expr.lit
                (Ty.name "progCall")
                ["", "", "", ""]
                [Expr.id "xdrD2",
                 Expr.id "xdrD4",
                 Expr.id "xdrD1",
                 Expr.id "xdrD7"]]] }

/-- what goyacc makes of xdr.y: xdrAct60 -/
def yacc_xdrAct60 : Func :=
{ recv := none,
  name := "xdrAct60",
  params := [],
  results := [("", Ty.name "typespecOpt")],
  body := [Stmt.ret
             [Expr.lit
                (Ty.name "typespecOpt")
                ["isVoid"]
                [Expr.id "true"]]] }

/-- what goyacc makes of xdr.y: xdrAct61 -/
def yacc_xdrAct61 : Func :=
{ recv := none,
  name := "xdrAct61",
  params := [("xdrD1", Ty.name "typespec")],
  results := [("", Ty.name "typespecOpt")],
  body := [Stmt.ret
             [Expr.lit
                (Ty.name "typespecOpt")
                ["isVoid", "t"]
                [Expr.id "false", Expr.id "xdrD1"]]] }

/-- what goyacc makes of xdr.y -/
def yaccFile : File := ⟨"main", [], [
  Top.typ
  "xdrSymType"
  (Ty.struct
    [("yys", Ty.name "int"),
     ("decl", Ty.name "decl"),
     ("typespec", Ty.name "typespec"),
     ("str", Ty.name "string"),
     ("bool", Ty.name "bool"),
     ("enumItem", Ty.name "enumItem"),
     ("enumItems", Ty.slice (Ty.name "enumItem")),
     ("decls", Ty.slice (Ty.name "decl")),
     ("typeUnion", Ty.name "typeUnion"),
     ("unionCasesDef", Ty.name "unionCasesDef"),
     ("unionCaseDecls", Ty.slice (Ty.name "unionCaseDecl")),
     ("unionCaseDecl", Ty.name "unionCaseDecl"),
     ("strs", Ty.slice (Ty.name "string")),
     ("progCall", Ty.name "progCall"),
     ("progCalls", Ty.slice (Ty.name "progCall")),
     ("progVer", Ty.name "progVer"),
     ("progVers", Ty.slice (Ty.name "progVer")),
     ("typespecOpt", Ty.name "typespecOpt")]),
  Top.const "KWCONST" none (Expr.int 57346),
  Top.const "KWTYPEDEF" none (Expr.int 57347),
  Top.const "KWENUM" none (Expr.int 57348),
  Top.const "KWSTRUCT" none (Expr.int 57349),
  Top.const "KWUNION" none (Expr.int 57350),
  Top.const "KWSWITCH" none (Expr.int 57351),
  Top.const "KWCASE" none (Expr.int 57352),
  Top.const "KWDEFAULT" none (Expr.int 57353),
  Top.const "KWVOID" none (Expr.int 57354),
  Top.const "KWOPAQUE" none (Expr.int 57355),
  Top.const "KWSTRING" none (Expr.int 57356),
  Top.const "KWUNSIGNED" none (Expr.int 57357),
  Top.const "KWINT" none (Expr.int 57358),
  Top.const "KWHYPER" none (Expr.int 57359),
  Top.const "KWFLOAT" none (Expr.int 57360),
  Top.const "KWDOUBLE" none (Expr.int 57361),
  Top.const "KWQUADRUPLE" none (Expr.int 57362),
  Top.const "KWBOOL" none (Expr.int 57363),
  Top.const "KWPROGRAM" none (Expr.int 57364),
  Top.const "KWVERSION" none (Expr.int 57365),
  Top.const "CONST" none (Expr.int 57366),
  Top.const "IDENT" none (Expr.int 57367),
  .func yacc_xdrAct6,
  .func yacc_xdrAct7,
  .func yacc_xdrAct8,
  .func yacc_xdrAct9,
  .func yacc_xdrAct10,
  .func yacc_xdrAct11,
  .func yacc_xdrAct12,
  .func yacc_xdrAct13,
  .func yacc_xdrAct14,
  .func yacc_xdrAct15,
  .func yacc_xdrAct16,
  .func yacc_xdrAct17,
  .func yacc_xdrAct18,
  .func yacc_xdrAct19,
  .func yacc_xdrAct20,
  .func yacc_xdrAct21,
  .func yacc_xdrAct22,
  .func yacc_xdrAct23,
  .func yacc_xdrAct24,
  .func yacc_xdrAct25,
  .func yacc_xdrAct26,
  .func yacc_xdrAct27,
  .func yacc_xdrAct28,
  .func yacc_xdrAct29,
  .func yacc_xdrAct30,
  .func yacc_xdrAct31,
  .func yacc_xdrAct32,
  .func yacc_xdrAct33,
  .func yacc_xdrAct34,
  .func yacc_xdrAct35,
  .func yacc_xdrAct36,
  .func yacc_xdrAct37,
  .func yacc_xdrAct38,
  .func yacc_xdrAct39,
  .func yacc_xdrAct40,
  .func yacc_xdrAct41,
  .func yacc_xdrAct42,
  .func yacc_xdrAct43,
  .func yacc_xdrAct44,
  .func yacc_xdrAct45,
  .func yacc_xdrAct46,
  .func yacc_xdrAct47,
  .func yacc_xdrAct48,
  .func yacc_xdrAct49,
  .func yacc_xdrAct50,
  .func yacc_xdrAct51,
  .func yacc_xdrAct52,
  .func yacc_xdrAct53,
  .func yacc_xdrAct54,
  .func yacc_xdrAct55,
  .func yacc_xdrAct56,
  .func yacc_xdrAct57,
  .func yacc_xdrAct58,
  .func yacc_xdrAct59,
  .func yacc_xdrAct60,
  .func yacc_xdrAct61
]⟩

/-- xdr.y: the rules -/
def xdrGrammar : Grammar :=
{ rules := [{ lhs := "spec", rhs := [], act := false },
            { lhs := "spec", rhs := ["spec", "defn"], act := false },
            { lhs := "defn", rhs := ["typedef"], act := false },
            { lhs := "defn", rhs := ["constdef"], act := false },
            { lhs := "defn", rhs := ["progdef"], act := false },
            { lhs := "decl", rhs := ["typespec", "IDENT"], act := true },
            { lhs := "decl", rhs := ["typespec", "IDENT", "'['", "val", "']'"], act := true },
            { lhs := "decl", rhs := ["typespec", "IDENT", "varlen"], act := true },
            { lhs := "decl", rhs := ["KWOPAQUE", "IDENT", "'['", "val", "']'"], act := true },
            { lhs := "decl", rhs := ["KWOPAQUE", "IDENT", "varlen"], act := true },
            { lhs := "decl", rhs := ["KWSTRING", "IDENT", "varlen"], act := true },
            { lhs := "decl", rhs := ["typespec", "'*'", "IDENT"], act := true },
            { lhs := "decl", rhs := ["KWVOID"], act := true },
            { lhs := "varlen", rhs := ["'<'", "'>'"], act := true },
            { lhs := "varlen", rhs := ["'<'", "val", "'>'"], act := true },
            { lhs := "val", rhs := ["CONST"], act := true },
            { lhs := "val", rhs := ["IDENT"], act := true },
            { lhs := "typespec", rhs := ["maybeunsig", "KWINT"], act := true },
            { lhs := "typespec", rhs := ["maybeunsig", "KWHYPER"], act := true },
            { lhs := "typespec", rhs := ["KWFLOAT"], act := true },
            { lhs := "typespec", rhs := ["KWDOUBLE"], act := true },
            { lhs := "typespec", rhs := ["KWQUADRUPLE"], act := true },
            { lhs := "typespec", rhs := ["KWBOOL"], act := true },
            { lhs := "typespec", rhs := ["enumtypespec"], act := true },
            { lhs := "typespec", rhs := ["structtypespec"], act := true },
            { lhs := "typespec", rhs := ["uniontypespec"], act := true },
            { lhs := "typespec", rhs := ["IDENT"], act := true },
            { lhs := "maybeunsig", rhs := [], act := true },
            { lhs := "maybeunsig", rhs := ["KWUNSIGNED"], act := true },
            { lhs := "enumtypespec", rhs := ["KWENUM", "enumbody"], act := true },
            { lhs := "enumbody", rhs := ["'{'", "enumitems", "'}'"], act := true },
            { lhs := "enumitems", rhs := ["enumitem"], act := true },
            { lhs := "enumitems", rhs := ["enumitems", "','", "enumitem"], act := true },
            { lhs := "enumitem", rhs := ["IDENT", "'='", "val"], act := true },
            { lhs := "structtypespec", rhs := ["KWSTRUCT", "structbody"], act := true },
            { lhs := "structbody", rhs := ["'{'", "structdecls", "'}'"], act := true },
            { lhs := "structdecls", rhs := [], act := true },
            { lhs := "structdecls", rhs := ["structdecls", "decl", "';'"], act := true },
            { lhs := "uniontypespec", rhs := ["KWUNION", "unionbody"], act := true },
            { lhs := "unionbody",
              rhs := ["KWSWITCH", "'('", "decl", "')'", "'{'", "unioncasesdef", "'}'"],
              act := true },
            { lhs := "unioncasesdef", rhs := ["unioncases"], act := true },
            { lhs := "unioncasesdef", rhs := ["unioncases", "KWDEFAULT", "':'", "decl", "';'"], act := true },
            { lhs := "unioncases", rhs := [], act := true },
            { lhs := "unioncases", rhs := ["unioncases", "unioncase"], act := true },
            { lhs := "unioncase", rhs := ["caselist", "decl", "';'"], act := true },
            { lhs := "caselist", rhs := ["KWCASE", "val", "':'"], act := true },
            { lhs := "caselist", rhs := ["caselist", "KWCASE", "val", "':'"], act := true },
            { lhs := "constdef", rhs := ["KWCONST", "IDENT", "'='", "CONST", "';'"], act := true },
            { lhs := "typedef", rhs := ["KWTYPEDEF", "decl", "';'"], act := true },
            { lhs := "typedef", rhs := ["KWENUM", "IDENT", "enumbody", "';'"], act := true },
            { lhs := "typedef", rhs := ["KWSTRUCT", "IDENT", "structbody", "';'"], act := true },
            { lhs := "typedef", rhs := ["KWUNION", "IDENT", "unionbody", "';'"], act := true },
            { lhs := "progdef",
              rhs := ["KWPROGRAM", "IDENT", "'{'", "progvers", "'}'", "'='", "CONST", "';'"],
              act := true },
            { lhs := "progvers", rhs := [], act := true },
            { lhs := "progvers", rhs := ["progvers", "progver"], act := true },
            { lhs := "progver",
              rhs := ["KWVERSION", "IDENT", "'{'", "progcalls", "'}'", "'='", "CONST", "';'"],
              act := true },
            { lhs := "progcalls", rhs := [], act := true },
            { lhs := "progcalls", rhs := ["progcalls", "progcall"], act := true },
            { lhs := "progcall",
              rhs := ["typespecopt", "IDENT", "'('", "typespecopt", "')'", "'='", "CONST", "';'"],
              act := true },
            { lhs := "typespecopt", rhs := ["KWVOID"], act := true },
            { lhs := "typespecopt", rhs := ["typespec"], act := true }],
  tagged := ["CONST", "IDENT", "decl", "typespec", "enumtypespec", "structtypespec", "uniontypespec", "val",
             "varlen", "maybeunsig", "enumitem", "enumbody", "enumitems", "structbody", "structdecls",
             "unionbody", "unioncasesdef", "unioncases", "unioncase", "caselist", "progcall", "progcalls",
             "progvers", "progver", "typespecopt"] }

end Verif.Lang
