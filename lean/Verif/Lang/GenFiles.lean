/-
Hand-written Go files of /repo, character for character.  Written by tools/embedgo.py.
-/
import Verif.Text.Scan

namespace Verif.Lang
open Verif.Text (Text)

/-- out.go -/
def outText : List Text := [
  t!"package main\n",
  t!"\n",
  t!"import (\n",
  t!"\t\"fmt\"\n",
  t!"\t\"strings\"\n",
  t!")\n",
  t!"\n",
  t!"func i(ident string) string {\n",
  t!"\tswitch ident {\n",
  t!"\tcase \"TRUE\":\n",
  t!"\t\treturn \"true\"\n",
  t!"\tcase \"FALSE\":\n",
  t!"\t\treturn \"false\"\n",
  t!"\tdefault:\n",
  t!"\t\treturn strings.ToUpper(ident[:1]) + ident[1:]\n",
  t!"\t}\n",
  t!"}\n",
  t!"\n",
  t!"type decl interface{}\n",
  t!"\n",
  t!"type declVoid struct {\n",
  t!"}\n",
  t!"\n",
  t!"type declName struct {\n",
  t!"\tt declType\n",
  t!"\tn string\n",
  t!"}\n",
  t!"\n",
  t!"type declType interface {\n",
  t!"\tgoType() string\n",
  t!"\tgoXdr(valPtr string) string\n",
  t!"}\n",
  t!"\n",
  t!"type declTypeTypespec struct {\n",
  t!"\tt typespec\n",
  t!"}\n",
  t!"\n",
  t!"func (t declTypeTypespec) goType() string {\n",
  t!"\treturn t.t.goType()\n",
  t!"}\n",
  t!"\n",
  t!"func (t declTypeTypespec) goXdr(valPtr string) string {\n",
  t!"\treturn t.t.goXdr(valPtr)\n",
  t!"}\n",
  t!"\n",
  t!"type declTypeArray struct {\n",
  t!"\tt  typespec\n",
  t!"\tsz string\n",
  t!"}\n",
  t!"\n",
  t!"func (t declTypeArray) goType() string {\n",
  t!"\treturn fmt.Sprintf(\"[%s]%s\", t.sz, t.t.goType())\n",
  t!"}\n",
  t!"\n",
  t!"func (t declTypeArray) goXdr(valPtr string) string {\n",
  t!"\tvar res string\n",
  t!"\tres += fmt.Sprintf(\"for i := 0; i < %s; i++ {\\n\", t.sz)\n",
  t!"\tres += fmt.Sprintf(\"%s\\n\", t.t.goXdr(fmt.Sprintf(\"&(*(%s)[i])\", valPtr)))\n",
  t!"\tres += fmt.Sprintf(\"}\\n\")\n",
  t!"\treturn res\n",
  t!"}\n",
  t!"\n",
  t!"type declTypeVarArray struct {\n",
  t!"\tt  typespec\n",
  t!"\tsz string\n",
  t!"}\n",
  t!"\n",
  t!"func (t declTypeVarArray) goType() string {\n",
  t!"\treturn fmt.Sprintf(\"[]%s\", t.t.goType())\n",
  t!"}\n",
  t!"\n",
  t!"func (t declTypeVarArray) goXdr(valPtr string) string {\n",
  t!"\tvar res string\n",
  t!"\tres += fmt.Sprintf(\"{\\n\")\n",
  t!"\tres += fmt.Sprintf(\"var __arraysz uint32\\n\")\n",
  t!"\tres += fmt.Sprintf(\"xs.EncodingSetSize(&__arraysz, len(*%s));\\n\", valPtr)\n",
  t!"\tres += fmt.Sprintf(\"%s\\n\", typeInt{true}.goXdr(\"&__arraysz\"))\n",
  t!"\tif t.sz != \"\" {\n",
  t!"\t\tres += fmt.Sprintf(\"if __arraysz > %s { xs.SetError(\\\"array too large\\\") } else {\\n\", t.sz)\n",
  t!"\t}\n",
  t!"\tres += fmt.Sprintf(\"if xs.Decoding() { *%s = make([]%s, __arraysz); }\\n\", valPtr, t.t.goType())\n",
  t!"\tres += fmt.Sprintf(\"for i := uint64(0); i < uint64(__arraysz); i++ {\\n\")\n",
  t!"\tres += fmt.Sprintf(\"%s\\n\", t.t.goXdr(fmt.Sprintf(\"&((*(%s))[i])\", valPtr)))\n",
  t!"\tres += fmt.Sprintf(\"}\\n\")\n",
  t!"\tif t.sz != \"\" {\n",
  t!"\t\tres += fmt.Sprintf(\"}\\n\")\n",
  t!"\t}\n",
  t!"\tres += fmt.Sprintf(\"}\\n\")\n",
  t!"\treturn res\n",
  t!"}\n",
  t!"\n",
  t!"type declTypeOpaqueArray struct {\n",
  t!"\tsz string\n",
  t!"}\n",
  t!"\n",
  t!"func (t declTypeOpaqueArray) goType() string {\n",
  t!"\treturn fmt.Sprintf(\"[%s]byte\", t.sz)\n",
  t!"}\n",
  t!"\n",
  t!"func (t declTypeOpaqueArray) goXdr(valPtr string) string {\n",
  t!"\treturn fmt.Sprintf(\"xdr.XdrArray(xs, (*%s)[:]);\\n\", valPtr)\n",
  t!"}\n",
  t!"\n",
  t!"type declTypeOpaqueVarArray struct {\n",
  t!"\tsz string\n",
  t!"}\n",
  t!"\n",
  t!"func (t declTypeOpaqueVarArray) goType() string {\n",
  t!"\treturn \"[]byte\"\n",
  t!"}\n",
  t!"\n",
  t!"func (t declTypeOpaqueVarArray) goXdr(valPtr string) string {\n",
  t!"\tsz := t.sz\n",
  t!"\tif sz == \"\" {\n",
  t!"\t\tsz = \"-1\"\n",
  t!"\t}\n",
  t!"\treturn fmt.Sprintf(\"xdr.XdrVarArray(xs, int(%s), (*[]byte)(%s));\\n\", sz, valPtr)\n",
  t!"}\n",
  t!"\n",
  t!"type declTypeString struct {\n",
  t!"\tsz string\n",
  t!"}\n",
  t!"\n",
  t!"func (t declTypeString) goType() string {\n",
  t!"\treturn \"string\"\n",
  t!"}\n",
  t!"\n",
  t!"func (t declTypeString) goXdr(valPtr string) string {\n",
  t!"\tsz := t.sz\n",
  t!"\tif sz == \"\" {\n",
  t!"\t\tsz = \"-1\"\n",
  t!"\t}\n",
  t!"\treturn fmt.Sprintf(\"xdr.XdrString(xs, int(%s), (*string)(%s));\\n\", sz, valPtr)\n",
  t!"}\n",
  t!"\n",
  t!"type declTypePtr struct {\n",
  t!"\tt typespec\n",
  t!"}\n",
  t!"\n",
  t!"func (t declTypePtr) goType() string {\n",
  t!"\treturn fmt.Sprintf(\"*%s\", t.t.goType())\n",
  t!"}\n",
  t!"\n",
  t!"func (t declTypePtr) goXdr(valPtr string) string {\n",
  t!"\tvar res string\n",
  t!"\tres += fmt.Sprintf(\"if xs.Encoding() {\\n\")\n",
  t!"\tres += fmt.Sprintf(\"opted := *(%s) != nil\\n\", valPtr)\n",
  t!"\tres += typeBool{}.goXdr(\"&opted\")\n",
  t!"\tres += fmt.Sprintf(\"if opted {\\n\")\n",
  t!"\tres += t.t.goXdr(fmt.Sprintf(\"*(%s)\", valPtr))\n",
  t!"\tres += fmt.Sprintf(\"}\\n\")\n",
  t!"\tres += fmt.Sprintf(\"}\\n\")\n",
  t!"\n",
  t!"\tres += fmt.Sprintf(\"if xs.Decoding() {\\n\")\n",
  t!"\tres += fmt.Sprintf(\"var opted bool\\n\")\n",
  t!"\tres += typeBool{}.goXdr(\"&opted\")\n",
  t!"\tres += fmt.Sprintf(\"if opted {\\n\")\n",
  t!"\tres += fmt.Sprintf(\"*(%s) = new(%s)\\n\", valPtr, t.t.goType())\n",
  t!"\tres += t.t.goXdr(fmt.Sprintf(\"*(%s)\", valPtr))\n",
  t!"\tres += fmt.Sprintf(\"}\\n\")\n",
  t!"\tres += fmt.Sprintf(\"}\\n\")\n",
  t!"\treturn res\n",
  t!"}\n",
  t!"\n",
  t!"type typespec interface {\n",
  t!"\tgoType() string\n",
  t!"\tgoXdr(valPtr string) string\n",
  t!"}\n",
  t!"\n",
  t!"type typespecOpt struct {\n",
  t!"\tisVoid bool\n",
  t!"\tt      typespec\n",
  t!"}\n",
  t!"\n",
  t!"func (t typespecOpt) maybeGoType() string {\n",
  t!"\tif t.isVoid {\n",
  t!"\t\treturn \"\"\n",
  t!"\t}\n",
  t!"\n",
  t!"\treturn t.t.goType()\n",
  t!"}\n",
  t!"\n",
  t!"type typeInt struct {\n",
  t!"\tunsig bool\n",
  t!"}\n",
  t!"\n",
  t!"func (t typeInt) goType() string {\n",
  t!"\tif t.unsig {\n",
  t!"\t\treturn \"uint32\"\n",
  t!"\t} else {\n",
  t!"\t\treturn \"int32\"\n",
  t!"\t}\n",
  t!"}\n",
  t!"\n",
  t!"func (t typeInt) goXdr(valPtr string) string {\n",
  t!"\tif t.unsig {\n",
  t!"\t\treturn fmt.Sprintf(\"xdr.XdrU32(xs, (*uint32)(%s));\\n\", valPtr)\n",
  t!"\t} else {\n",
  t!"\t\treturn fmt.Sprintf(\"xdr.XdrS32(xs, (*int32)(%s));\\n\", valPtr)\n",
  t!"\t}\n",
  t!"}\n",
  t!"\n",
  t!"type typeHyper struct {\n",
  t!"\tunsig bool\n",
  t!"}\n",
  t!"\n",
  t!"func (t typeHyper) goType() string {\n",
  t!"\tif t.unsig {\n",
  t!"\t\treturn \"uint64\"\n",
  t!"\t} else {\n",
  t!"\t\treturn \"int64\"\n",
  t!"\t}\n",
  t!"}\n",
  t!"\n",
  t!"func (t typeHyper) goXdr(valPtr string) string {\n",
  t!"\tif t.unsig {\n",
  t!"\t\treturn fmt.Sprintf(\"xdr.XdrU64(xs, (*uint64)(%s));\\n\", valPtr)\n",
  t!"\t} else {\n",
  t!"\t\treturn fmt.Sprintf(\"xdr.XdrS64(xs, (*int64)(%s));\\n\", valPtr)\n",
  t!"\t}\n",
  t!"}\n",
  t!"\n",
  t!"type typeFloat struct{}\n",
  t!"\n",
  t!"func (t typeFloat) goType() string             { return \"float32\" }\n",
  t!"func (t typeFloat) goXdr(valPtr string) string { panic(\"x\") }\n",
  t!"\n",
  t!"type typeDouble struct{}\n",
  t!"\n",
  t!"func (t typeDouble) goType() string             { return \"float64\" }\n",
  t!"func (t typeDouble) goXdr(valPtr string) string { panic(\"x\") }\n",
  t!"\n",
  t!"type typeQuadruple struct{}\n",
  t!"\n",
  t!"func (t typeQuadruple) goType() string             { panic(\"quadruple\") }\n",
  t!"func (t typeQuadruple) goXdr(valPtr string) string { panic(\"x\") }\n",
  t!"\n",
  t!"type typeBool struct{}\n",
  t!"\n",
  t!"func (t typeBool) goType() string { return \"bool\" }\n",
  t!"func (t typeBool) goXdr(valPtr string) string {\n",
  t!"\treturn fmt.Sprintf(\"xdr.XdrBool(xs, (*bool)(%s));\\n\", valPtr)\n",
  t!"}\n",
  t!"\n",
  t!"type typeEnum struct {\n",
  t!"\titems []enumItem\n",
  t!"}\n",
  t!"\n",
  t!"func (t typeEnum) goType() string             { return \"int32\" }\n",
  t!"func (t typeEnum) goXdr(valPtr string) string { panic(\"x\") }\n",
  t!"\n",
  t!"func declToNameGotype(d decl) string {\n",
  t!"\tswitch v := d.(type) {\n",
  t!"\tcase declName:\n",
  t!"\t\treturn fmt.Sprintf(\"%s %s;\", i(v.n), v.t.goType())\n",
  t!"\t}\n",
  t!"\n",
  t!"\treturn \"\"\n",
  t!"}\n",
  t!"\n",
  t!"type typeStruct struct {\n",
  t!"\titems []decl\n",
  t!"}\n",
  t!"\n",
  t!"func (t typeStruct) goType() string {\n",
  t!"\tres := \"struct { \"\n",
  t!"\tfor _, i := range t.items {\n",
  t!"\t\tres += declToNameGotype(i)\n",
  t!"\t}\n",
  t!"\tres += \"}\"\n",
  t!"\treturn res\n",
  t!"}\n",
  t!"\n",
  t!"func (t typeStruct) goXdr(valPtr string) string {\n",
  t!"\tvar res string\n",
  t!"\tfor _, v := range t.items {\n",
  t!"\t\tswitch v := v.(type) {\n",
  t!"\t\tcase declName:\n",
  t!"\t\t\tres += v.t.goXdr(fmt.Sprintf(\"&((%s).%s)\", valPtr, i(v.n)))\n",
  t!"\t\t}\n",
  t!"\t}\n",
  t!"\treturn res\n",
  t!"}\n",
  t!"\n",
  t!"type typeUnion struct {\n",
  t!"\tswitchDecl decl\n",
  t!"\tcases      unionCasesDef\n",
  t!"}\n",
  t!"\n",
  t!"func (t typeUnion) goType() string {\n",
  t!"\tres := \"struct { \"\n",
  t!"\tres += declToNameGotype(t.switchDecl)\n",
  t!"\tfor _, i := range t.cases.cases {\n",
  t!"\t\tres += declToNameGotype(i.body)\n",
  t!"\t}\n",
  t!"\tif t.cases.def != nil {\n",
  t!"\t\tres += declToNameGotype(t.cases.def)\n",
  t!"\t}\n",
  t!"\tres += \"}\"\n",
  t!"\treturn res\n",
  t!"}\n",
  t!"\n",
  t!"func (t typeUnion) goXdr(valPtr string) string {\n",
  t!"\tvar res string\n",
  t!"\tvar switchName string\n",
  t!"\tswitch v := t.switchDecl.(type) {\n",
  t!"\tcase declVoid:\n",
  t!"\t\tpanic(\"void union switch\")\n",
  t!"\tcase declName:\n",
  t!"\t\tswitchName = fmt.Sprintf(\"(%s).%s\", valPtr, i(v.n))\n",
  t!"\t\tres += v.t.goXdr(fmt.Sprintf(\"&(%s)\", switchName))\n",
  t!"\t}\n",
  t!"\tres += fmt.Sprintf(\"switch %s {\\n\", switchName)\n",
  t!"\tfor _, c := range t.cases.cases {\n",
  t!"\t\tfor idx, cval := range c.cases {\n",
  t!"\t\t\tres += fmt.Sprintf(\"case %s:\\n\", i(cval))\n",
  t!"\t\t\tif idx != len(c.cases)-1 {\n",
  t!"\t\t\t\tres += \"fallthrough\\n\"\n",
  t!"\t\t\t}\n",
  t!"\t\t}\n",
  t!"\t\tswitch v := c.body.(type) {\n",
  t!"\t\tcase declName:\n",
  t!"\t\t\tres += v.t.goXdr(fmt.Sprintf(\"&((%s).%s)\", valPtr, i(v.n)))\n",
  t!"\t\t}\n",
  t!"\t}\n",
  t!"\tif t.cases.def != nil {\n",
  t!"\t\tres += \"default:\\n\"\n",
  t!"\t\tswitch v := t.cases.def.(type) {\n",
  t!"\t\tcase declName:\n",
  t!"\t\t\tres += v.t.goXdr(fmt.Sprintf(\"&((%s).%s)\", valPtr, i(v.n)))\n",
  t!"\t\t}\n",
  t!"\t}\n",
  t!"\tres += \"}\\n\"\n",
  t!"\treturn res\n",
  t!"}\n",
  t!"\n",
  t!"type typeIdent struct {\n",
  t!"\tn string\n",
  t!"}\n",
  t!"\n",
  t!"func (t typeIdent) goType() string { return i(t.n) }\n",
  t!"func (t typeIdent) goXdr(valPtr string) string {\n",
  t!"\treturn fmt.Sprintf(\"(*%s)(%s).Xdr(xs);\\n\", i(t.n), valPtr)\n",
  t!"}\n",
  t!"\n",
  t!"type enumItem struct {\n",
  t!"\tname string\n",
  t!"\tval  string\n",
  t!"}\n",
  t!"\n",
  t!"type unionCasesDef struct {\n",
  t!"\tcases []unionCaseDecl\n",
  t!"\tdef   decl\n",
  t!"}\n",
  t!"\n",
  t!"type unionCaseDecl struct {\n",
  t!"\tcases []string\n",
  t!"\tbody  decl\n",
  t!"}\n",
  t!"\n",
  t!"type progCall struct {\n",
  t!"\tname string\n",
  t!"\targ  typespecOpt\n",
  t!"\tres  typespecOpt\n",
  t!"\tid   string\n",
  t!"}\n",
  t!"\n",
  t!"type progVer struct {\n",
  t!"\tname  string\n",
  t!"\tcalls []progCall\n",
  t!"\tid    string\n",
  t!"}\n",
  t!"\n",
  t!"type progDef struct {\n",
  t!"\tname string\n",
  t!"\tvers []progVer\n",
  t!"\tid   string\n",
  t!"}\n",
  t!"\n",
  t!"func emitProg(d progDef) {\n",
  t!"\tfmt.Fprintf(tout, \"const %s uint32 = %s\\n\", i(d.name), d.id)\n",
  t!"\tfor _, v := range d.vers {\n",
  t!"\t\tfmt.Fprintf(tout, \"const %s uint32 = %s\\n\", i(v.name), v.id)\n",
  t!"\n",
  t!"\t\tfor _, c := range v.calls {\n",
  t!"\t\t\tfmt.Fprintf(tout, \"const %s uint32 = %s\\n\", i(c.name), c.id)\n",
  t!"\t\t}\n",
  t!"\n",
  t!"\t\tfmt.Fprintf(out, \"type %s_%s_handler interface {\\n\", i(d.name), i(v.name))\n",
  t!"\t\tfor _, c := range v.calls {\n",
  t!"\t\t\tfmt.Fprintf(out, \"%s(%s) %s\\n\", i(c.name), c.arg.maybeGoType(), c.res.maybeGoType())\n",
  t!"\t\t}\n",
  t!"\t\tfmt.Fprintf(out, \"}\\n\")\n",
  t!"\n",
  t!"\t\tfmt.Fprintf(out, \"type %s_%s_handler_wrapper struct {\\n\", i(d.name), i(v.name))\n",
  t!"\t\tfmt.Fprintf(out, \"h %s_%s_handler\\n\", i(d.name), i(v.name))\n",
  t!"\t\tfmt.Fprintf(out, \"}\\n\")\n",
  t!"\n",
  t!"\t\tfor _, c := range v.calls {\n",
  t!"\t\t\tfmt.Fprintf(out, \"func (w *%s_%s_handler_wrapper) %s(args *xdr.XdrState) (res xdr.Xdrable, err error) {\\n\",\n",
  t!"\t\t\t\ti(d.name), i(v.name), i(c.name))\n",
  t!"\t\t\tif !c.arg.isVoid {\n",
  t!"\t\t\t\tfmt.Fprintf(out, \"var in %s\\n\", c.arg.t.goType())\n",
  t!"\t\t\t\tfmt.Fprintf(out, \"in.Xdr(args)\\n\")\n",
  t!"\t\t\t\tfmt.Fprintf(out, \"err = args.Error()\\n\")\n",
  t!"\t\t\t\tfmt.Fprintf(out, \"if err != nil { return }\\n\")\n",
  t!"\t\t\t}\n",
  t!"\n",
  t!"\t\t\tif !c.res.isVoid {\n",
  t!"\t\t\t\tfmt.Fprintf(out, \"var out %s\\n\", c.res.t.goType())\n",
  t!"\t\t\t} else {\n",
  t!"\t\t\t\tfmt.Fprintf(out, \"var out xdr.Void\\n\")\n",
  t!"\t\t\t}\n",
  t!"\n",
  t!"\t\t\tif !c.res.isVoid {\n",
  t!"\t\t\t\tfmt.Fprintf(out, \"out = \")\n",
  t!"\t\t\t}\n",
  t!"\t\t\tfmt.Fprintf(out, \"w.h.%s(\", i(c.name))\n",
  t!"\t\t\tif !c.arg.isVoid {\n",
  t!"\t\t\t\tfmt.Fprintf(out, \"in\")\n",
  t!"\t\t\t}\n",
  t!"\t\t\tfmt.Fprintf(out, \")\\n\")\n",
  t!"\n",
  t!"\t\t\tfmt.Fprintf(out, \"return &out, nil\")\n",
  t!"\t\t\tfmt.Fprintf(out, \"}\\n\")\n",
  t!"\t\t}\n",
  t!"\n",
  t!"\t\tfmt.Fprintf(out, \"func %s_%s_regs(h %s_%s_handler) []xdr.ProcRegistration {\\n\", i(d.name), i(v.name), i(d.name), i(v.name))\n",
  t!"\t\tfmt.Fprintf(out, \"w := &%s_%s_handler_wrapper{h}\\n\", i(d.name), i(v.name))\n",
  t!"\t\tfmt.Fprintf(out, \"return []xdr.ProcRegistration{\\n\")\n",
  t!"\t\tfor _, c := range v.calls {\n",
  t!"\t\t\tfmt.Fprintf(out, \"xdr.ProcRegistration{\\n\")\n",
  t!"\t\t\tfmt.Fprintf(out, \"Prog: %s,\\n\", i(d.name))\n",
  t!"\t\t\tfmt.Fprintf(out, \"Vers: %s,\\n\", i(v.name))\n",
  t!"\t\t\tfmt.Fprintf(out, \"Proc: %s,\\n\", i(c.name))\n",
  t!"\t\t\tfmt.Fprintf(out, \"Handler: w.%s,\\n\", i(c.name))\n",
  t!"\t\t\tfmt.Fprintf(out, \"},\\n\")\n",
  t!"\t\t}\n",
  t!"\t\tfmt.Fprintf(out, \"}\\n\")\n",
  t!"\t\tfmt.Fprintf(out, \"}\\n\")\n",
  t!"\t}\n",
  t!"}\n",
  t!"\n",
  t!"func emitConst(ident string, val string) {\n",
  t!"\tfmt.Fprintf(tout, \"const %s %s = %s\\n\", ident, *constTypeFlag, val)\n",
  t!"}\n",
  t!"\n",
  t!"func emitTypedef(val decl) {\n",
  t!"\tswitch v := val.(type) {\n",
  t!"\tcase declName:\n",
  t!"\t\t// Pointers get wrapped in an extra level of struct at\n",
  t!"\t\t// the top level, so that we can define a pointer receiver\n",
  t!"\t\t// on them.\n",
  t!"\t\tgoType := v.t.goType()\n",
  t!"\t\tgoRef := \"v\"\n",
  t!"\t\tswitch v.t.(type) {\n",
  t!"\t\tcase declTypePtr:\n",
  t!"\t\t\tgoType = fmt.Sprintf(\"struct { P %s }\", goType)\n",
  t!"\t\t\tgoRef = \"&v.P\"\n",
  t!"\t\t}\n",
  t!"\n",
  t!"\t\tfmt.Fprintf(tout, \"type %s %s\\n\", i(v.n), goType)\n",
  t!"\n",
  t!"\t\tfmt.Fprintf(out, \"func (v *%s) Xdr(xs *xdr.XdrState) {\\n\", i(v.n))\n",
  t!"\t\tfmt.Fprintf(out, \"%s\", v.t.goXdr(goRef))\n",
  t!"\t\tfmt.Fprintf(out, \"}\\n\")\n",
  t!"\t}\n",
  t!"}\n",
  t!"\n",
  t!"func emitEnum(ident string, val []enumItem) {\n",
  t!"\tt := \"int32\"\n",
  t!"\tif *unsignedEnumFlag {\n",
  t!"\t\tt = \"uint32\"\n",
  t!"\t}\n",
  t!"\n",
  t!"\tfmt.Fprintf(tout, \"type %s %s\\n\", i(ident), t)\n",
  t!"\n",
  t!"\tfmt.Fprintf(out, \"func (v *%s) Xdr(xs *xdr.XdrState) {\\n\", i(ident))\n",
  t!"\tfmt.Fprintf(out, \"%s\", typeInt{*unsignedEnumFlag}.goXdr(\"v\"))\n",
  t!"\tfmt.Fprintf(out, \"}\\n\")\n",
  t!"\n",
  t!"\tfor _, v := range val {\n",
  t!"\t\tfmt.Fprintf(tout, \"const %s %s = %s\\n\", i(v.name), i(ident), v.val)\n",
  t!"\t}\n",
  t!"}\n",
  t!"\n",
  t!"func emitStruct(ident string, val []decl) {\n",
  t!"\tfmt.Fprintf(tout, \"type %s struct {\\n\", i(ident))\n",
  t!"\tfor _, v := range val {\n",
  t!"\t\tswitch v := v.(type) {\n",
  t!"\t\tcase declName:\n",
  t!"\t\t\tfmt.Fprintf(tout, \"  %s %s;\\n\", i(v.n), v.t.goType())\n",
  t!"\t\t}\n",
  t!"\t}\n",
  t!"\tfmt.Fprintf(tout, \"}\\n\")\n",
  t!"\n",
  t!"\tfmt.Fprintf(out, \"func (v *%s) Xdr(xs *xdr.XdrState) {\\n\", i(ident))\n",
  t!"\tfmt.Fprintf(out, \"%s\", typeStruct{val}.goXdr(\"v\"))\n",
  t!"\tfmt.Fprintf(out, \"}\\n\")\n",
  t!"}\n",
  t!"\n",
  t!"func emitUnion(ident string, val typeUnion) {\n",
  t!"\tfmt.Fprintf(tout, \"type %s %s\\n\", i(ident), val.goType())\n",
  t!"\n",
  t!"\tfmt.Fprintf(out, \"func (v *%s) Xdr(xs *xdr.XdrState) {\\n\", i(ident))\n",
  t!"\tfmt.Fprintf(out, \"%s\", val.goXdr(\"v\"))\n",
  t!"\tfmt.Fprintf(out, \"}\\n\")\n",
  t!"}\n"]

/-- scan.go -/
def scanText : List Text := [
  t!"package main\n",
  t!"\n",
  t!"//go:generate goyacc -o xdr.go -p xdr xdr.y\n",
  t!"\n",
  t!"import (\n",
  t!"\t\"fmt\"\n",
  t!"\t\"go/scanner\"\n",
  t!"\t\"go/token\"\n",
  t!")\n",
  t!"\n",
  t!"type lexer struct {\n",
  t!"\ts scanner.Scanner\n",
  t!"}\n",
  t!"\n",
  t!"const eof = 0\n",
  t!"\n",
  t!"func (l *lexer) Lex(lval *xdrSymType) int {\n",
  t!"\tpos, tok, lit := l.s.Scan()\n",
  t!"\tif tok == token.EOF {\n",
  t!"\t\treturn eof\n",
  t!"\t}\n",
  t!"\n",
  t!"\tif *debugFlag {\n",
  t!"\t\tfmt.Printf(\"pos=%v, tok=%v, lit=%v\\n\", pos, tok, lit)\n",
  t!"\t}\n",
  t!"\n",
  t!"\tswitch tok {\n",
  t!"\tcase token.CONST:\n",
  t!"\t\treturn KWCONST\n",
  t!"\n",
  t!"\tcase token.STRUCT:\n",
  t!"\t\treturn KWSTRUCT\n",
  t!"\n",
  t!"\tcase token.TYPE:\n",
  t!"\t\tlval.str = \"type\"\n",
  t!"\t\treturn IDENT\n",
  t!"\n",
  t!"\tcase token.SWITCH:\n",
  t!"\t\treturn KWSWITCH\n",
  t!"\n",
  t!"\tcase token.CASE:\n",
  t!"\t\treturn KWCASE\n",
  t!"\n",
  t!"\tcase token.DEFAULT:\n",
  t!"\t\treturn KWDEFAULT\n",
  t!"\n",
  t!"\tcase token.MAP:\n",
  t!"\t\tlval.str = \"map\"\n",
  t!"\t\treturn IDENT\n",
  t!"\n",
  t!"\tcase token.IDENT:\n",
  t!"\t\tswitch lit {\n",
  t!"\t\tcase \"typedef\":\n",
  t!"\t\t\treturn KWTYPEDEF\n",
  t!"\n",
  t!"\t\tcase \"enum\":\n",
  t!"\t\t\treturn KWENUM\n",
  t!"\n",
  t!"\t\tcase \"union\":\n",
  t!"\t\t\treturn KWUNION\n",
  t!"\n",
  t!"\t\tcase \"void\":\n",
  t!"\t\t\treturn KWVOID\n",
  t!"\n",
  t!"\t\tcase \"string\":\n",
  t!"\t\t\treturn KWSTRING\n",
  t!"\n",
  t!"\t\tcase \"opaque\":\n",
  t!"\t\t\treturn KWOPAQUE\n",
  t!"\n",
  t!"\t\tcase \"unsigned\":\n",
  t!"\t\t\treturn KWUNSIGNED\n",
  t!"\n",
  t!"\t\tcase \"int\":\n",
  t!"\t\t\treturn KWINT\n",
  t!"\n",
  t!"\t\tcase \"hyper\":\n",
  t!"\t\t\treturn KWHYPER\n",
  t!"\n",
  t!"\t\tcase \"float\":\n",
  t!"\t\t\treturn KWFLOAT\n",
  t!"\n",
  t!"\t\tcase \"double\":\n",
  t!"\t\t\treturn KWDOUBLE\n",
  t!"\n",
  t!"\t\tcase \"quadruple\":\n",
  t!"\t\t\treturn KWQUADRUPLE\n",
  t!"\n",
  t!"\t\tcase \"bool\":\n",
  t!"\t\t\treturn KWBOOL\n",
  t!"\n",
  t!"\t\tcase \"program\":\n",
  t!"\t\t\treturn KWPROGRAM\n",
  t!"\n",
  t!"\t\tcase \"version\":\n",
  t!"\t\t\treturn KWVERSION\n",
  t!"\n",
  t!"\t\tdefault:\n",
  t!"\t\t\tlval.str = lit\n",
  t!"\t\t\treturn IDENT\n",
  t!"\t\t}\n",
  t!"\n",
  t!"\tcase token.ASSIGN:\n",
  t!"\t\treturn '='\n",
  t!"\n",
  t!"\tcase token.SEMICOLON:\n",
  t!"\t\treturn ';'\n",
  t!"\n",
  t!"\tcase token.COLON:\n",
  t!"\t\treturn ':'\n",
  t!"\n",
  t!"\tcase token.LSS:\n",
  t!"\t\treturn '<'\n",
  t!"\n",
  t!"\tcase token.GTR:\n",
  t!"\t\treturn '>'\n",
  t!"\n",
  t!"\tcase token.LBRACK:\n",
  t!"\t\treturn '['\n",
  t!"\n",
  t!"\tcase token.RBRACK:\n",
  t!"\t\treturn ']'\n",
  t!"\n",
  t!"\tcase token.LBRACE:\n",
  t!"\t\treturn '{'\n",
  t!"\n",
  t!"\tcase token.RBRACE:\n",
  t!"\t\treturn '}'\n",
  t!"\n",
  t!"\tcase token.COMMA:\n",
  t!"\t\treturn ','\n",
  t!"\n",
  t!"\tcase token.LPAREN:\n",
  t!"\t\treturn '('\n",
  t!"\n",
  t!"\tcase token.RPAREN:\n",
  t!"\t\treturn ')'\n",
  t!"\n",
  t!"\tcase token.MUL:\n",
  t!"\t\treturn '*'\n",
  t!"\n",
  t!"\tcase token.INT:\n",
  t!"\t\tlval.str = lit\n",
  t!"\t\treturn CONST\n",
  t!"\n",
  t!"\tdefault:\n",
  t!"\t\tfmt.Printf(\"NOT HANDLED: pos=%v, tok=%v, lit=%v\\n\", pos, tok, lit)\n",
  t!"\t\tpanic(\"token not handled\")\n",
  t!"\t}\n",
  t!"}\n",
  t!"\n",
  t!"func (l *lexer) Error(e string) {\n",
  t!"\tpanic(e)\n",
  t!"}\n"]

/-- main.go -/
def mainText : List Text := [
  t!"package main\n",
  t!"\n",
  t!"import (\n",
  t!"\t\"flag\"\n",
  t!"\t\"fmt\"\n",
  t!"\t\"go/format\"\n",
  t!"\t\"go/token\"\n",
  t!"\t\"io\"\n",
  t!"\t\"io/ioutil\"\n",
  t!"\t\"os\"\n",
  t!")\n",
  t!"\n",
  t!"var inputFile = flag.String(\"i\", \"\", \"Input file (.x)\")\n",
  t!"var outputFile = flag.String(\"o\", \"\", \"Output file (.go)\")\n",
  t!"var outputPackage = flag.String(\"p\", \"main\", \"Output package name\")\n",
  t!"var typesFile = flag.String(\"t\", \"\", \"Output file for separate type definitions (optional\")\n",
  t!"var debugFlag = flag.Bool(\"d\", false, \"Debug parsing\")\n",
  t!"var unsignedEnumFlag = flag.Bool(\"unsigned-enum\", false, \"Unsigned integer enum types\")\n",
  t!"var constTypeFlag = flag.String(\"const-type\", \"\", \"Optional type for const definitions\")\n",
  t!"\n",
  t!"var out io.Writer\n",
  t!"var tout io.Writer\n",
  t!"\n",
  t!"func main() {\n",
  t!"\tflag.Parse()\n",
  t!"\n",
  t!"\tif *inputFile == \"\" {\n",
  t!"\t\tfmt.Fprintf(os.Stderr, \"Must specify input file (-i)\\n\")\n",
  t!"\t\tos.Exit(1)\n",
  t!"\t}\n",
  t!"\n",
  t!"\tif *outputFile == \"\" {\n",
  t!"\t\tfmt.Fprintf(os.Stderr, \"Must specify output file (-o)\\n\")\n",
  t!"\t\tos.Exit(1)\n",
  t!"\t}\n",
  t!"\n",
  t!"\tsrc, err := ioutil.ReadFile(*inputFile)\n",
  t!"\tif err != nil {\n",
  t!"\t\tpanic(err)\n",
  t!"\t}\n",
  t!"\n",
  t!"\tfset := token.NewFileSet()\n",
  t!"\tf := fset.AddFile(*inputFile, -1, len(src))\n",
  t!"\n",
  t!"\tvar l lexer\n",
  t!"\tl.s.Init(f, src, nil, 0)\n",
  t!"\n",
  t!"\toutTmp := *outputFile + \".tmp\"\n",
  t!"\toutf, err := os.OpenFile(outTmp, os.O_WRONLY|os.O_EXCL|os.O_CREATE|os.O_TRUNC, 0666)\n",
  t!"\tif err != nil {\n",
  t!"\t\tpanic(err)\n",
  t!"\t}\n",
  t!"\n",
  t!"\tdefer os.Remove(outTmp)\n",
  t!"\tout = outf\n",
  t!"\n",
  t!"\tfmt.Fprintf(out, \"package %s\\n\", *outputPackage)\n",
  t!"\tfmt.Fprintf(out, \"import \\\"github.com/zeldovich/go-rpcgen/xdr\\\"\\n\")\n",
  t!"\n",
  t!"\tvar toutTmp string\n",
  t!"\tvar toutf *os.File\n",
  t!"\tif *typesFile != \"\" {\n",
  t!"\t\ttoutTmp = *typesFile + \".tmp\"\n",
  t!"\t\ttoutf, err = os.OpenFile(toutTmp, os.O_WRONLY|os.O_EXCL|os.O_CREATE|os.O_TRUNC, 0666)\n",
  t!"\t\tif err != nil {\n",
  t!"\t\t\tpanic(err)\n",
  t!"\t\t}\n",
  t!"\n",
  t!"\t\tdefer os.Remove(toutTmp)\n",
  t!"\t\ttout = toutf\n",
  t!"\n",
  t!"\t\tfmt.Fprintf(tout, \"package %s\\n\", *outputPackage)\n",
  t!"\t} else {\n",
  t!"\t\ttout = outf\n",
  t!"\t}\n",
  t!"\n",
  t!"\txdrParse(&l)\n",
  t!"\toutf.Close()\n",
  t!"\trefmt(outTmp, *outputFile)\n",
  t!"\n",
  t!"\tif *typesFile != \"\" {\n",
  t!"\t\ttoutf.Close()\n",
  t!"\t\trefmt(toutTmp, *typesFile)\n",
  t!"\t}\n",
  t!"}\n",
  t!"\n",
  t!"func refmt(infile string, outfile string) {\n",
  t!"\tbuf, err := ioutil.ReadFile(infile)\n",
  t!"\tif err != nil {\n",
  t!"\t\tpanic(err)\n",
  t!"\t}\n",
  t!"\n",
  t!"\tbuf, err = format.Source(buf)\n",
  t!"\tif err != nil {\n",
  t!"\t\tpanic(err)\n",
  t!"\t}\n",
  t!"\n",
  t!"\terr = ioutil.WriteFile(outfile, buf, 0666)\n",
  t!"\tif err != nil {\n",
  t!"\t\tpanic(err)\n",
  t!"\t}\n",
  t!"}\n"]

/-- xdr.y -/
def yaccText : List Text := [
  t!"%{\n",
  t!"package main\n",
  t!"%}\n",
  t!"\n",
  t!"%union {\n",
  t!"  decl decl;\n",
  t!"  typespec typespec;\n",
  t!"  str string;\n",
  t!"  bool bool;\n",
  t!"  enumItem enumItem;\n",
  t!"  enumItems []enumItem;\n",
  t!"  decls []decl;\n",
  t!"  typeUnion typeUnion;\n",
  t!"  unionCasesDef unionCasesDef;\n",
  t!"  unionCaseDecls []unionCaseDecl;\n",
  t!"  unionCaseDecl unionCaseDecl;\n",
  t!"  strs []string;\n",
  t!"  progCall progCall;\n",
  t!"  progCalls []progCall;\n",
  t!"  progVer progVer;\n",
  t!"  progVers []progVer;\n",
  t!"  typespecOpt typespecOpt;\n",
  t!"}\n",
  t!"\n",
  t!"%token KWCONST\n",
  t!"%token KWTYPEDEF\n",
  t!"%token KWENUM\n",
  t!"%token KWSTRUCT\n",
  t!"%token KWUNION\n",
  t!"%token KWSWITCH\n",
  t!"%token KWCASE\n",
  t!"%token KWDEFAULT\n",
  t!"%token KWVOID\n",
  t!"%token KWOPAQUE\n",
  t!"%token KWSTRING\n",
  t!"%token KWUNSIGNED\n",
  t!"%token KWINT\n",
  t!"%token KWHYPER\n",
  t!"%token KWFLOAT\n",
  t!"%token KWDOUBLE\n",
  t!"%token KWQUADRUPLE\n",
  t!"%token KWBOOL\n",
  t!"%token KWPROGRAM\n",
  t!"%token KWVERSION\n",
  t!"%token <str> CONST\n",
  t!"%token <str> IDENT\n",
  t!"%token '='\n",
  t!"%token ';'\n",
  t!"%token '<'\n",
  t!"%token '>'\n",
  t!"%token '['\n",
  t!"%token ']'\n",
  t!"%token '{'\n",
  t!"%token '}'\n",
  t!"%token ','\n",
  t!"%token ':'\n",
  t!"%token '*'\n",
  t!"\n",
  t!"%type <decl> decl\n",
  t!"%type <typespec> typespec enumtypespec structtypespec uniontypespec\n",
  t!"%type <str> val varlen\n",
  t!"%type <bool> maybeunsig\n",
  t!"%type <enumItem> enumitem\n",
  t!"%type <enumItems> enumbody enumitems\n",
  t!"%type <decls> structbody structdecls\n",
  t!"%type <typeUnion> unionbody\n",
  t!"%type <unionCasesDef> unioncasesdef\n",
  t!"%type <unionCaseDecls> unioncases\n",
  t!"%type <unionCaseDecl> unioncase\n",
  t!"%type <strs> caselist\n",
  t!"%type <progCall> progcall\n",
  t!"%type <progCalls> progcalls\n",
  t!"%type <progVers> progvers\n",
  t!"%type <progVer> progver\n",
  t!"%type <typespecOpt> typespecopt\n",
  t!"\n",
  t!"%%\n",
  t!"\n",
  t!"spec: | spec defn\n",
  t!"\n",
  t!"defn: typedef | constdef | progdef\n",
  t!"\n",
  t!"decl: typespec IDENT\n",
  t!"  { $$ = declName{declTypeTypespec{$1}, $2} }\n",
  t!"| typespec IDENT '[' val ']'\n",
  t!"  { $$ = declName{declTypeArray{$1, $4}, $2} }\n",
  t!"| typespec IDENT varlen\n",
  t!"  { $$ = declName{declTypeVarArray{$1, $3}, $2} }\n",
  t!"| KWOPAQUE IDENT '[' val ']'\n",
  t!"  { $$ = declName{declTypeOpaqueArray{$4}, $2} }\n",
  t!"| KWOPAQUE IDENT varlen\n",
  t!"  { $$ = declName{declTypeOpaqueVarArray{$3}, $2} }\n",
  t!"| KWSTRING IDENT varlen\n",
  t!"  { $$ = declName{declTypeString{$3}, $2} }\n",
  t!"| typespec '*' IDENT\n",
  t!"  { $$ = declName{declTypePtr{$1}, $3} }\n",
  t!"| KWVOID\n",
  t!"  { $$ = declVoid{} }\n",
  t!"\n",
  t!"varlen: '<' '>'\n",
  t!"  { $$ = \"\" }\n",
  t!"| '<' val '>'\n",
  t!"  { $$ = $2 }\n",
  t!"\n",
  t!"val: CONST\n",
  t!"  { $$ = $1 }\n",
  t!"| IDENT\n",
  t!"  { $$ = $1 }\n",
  t!"\n",
  t!"typespec: maybeunsig KWINT\n",
  t!"  { $$ = typeInt{$1} }\n",
  t!"| maybeunsig KWHYPER\n",
  t!"  { $$ = typeHyper{$1} }\n",
  t!"| KWFLOAT\n",
  t!"  { $$ = typeFloat{} }\n",
  t!"| KWDOUBLE\n",
  t!"  { $$ = typeDouble{} }\n",
  t!"| KWQUADRUPLE\n",
  t!"  { $$ = typeQuadruple{} }\n",
  t!"| KWBOOL\n",
  t!"  { $$ = typeBool{} }\n",
  t!"| enumtypespec\n",
  t!"  { $$ = $1 }\n",
  t!"| structtypespec\n",
  t!"  { $$ = $1 }\n",
  t!"| uniontypespec\n",
  t!"  { $$ = $1 }\n",
  t!"| IDENT\n",
  t!"  { $$ = typeIdent{$1} }\n",
  t!"\n",
  t!"maybeunsig: { $$ = false } | KWUNSIGNED { $$ = true }\n",
  t!"\n",
  t!"enumtypespec: KWENUM enumbody\n",
  t!"  { $$ = typeEnum{$2} }\n",
  t!"\n",
  t!"enumbody: '{' enumitems '}'\n",
  t!"  { $$ = $2 }\n",
  t!"\n",
  t!"enumitems: enumitem\n",
  t!"  { $$ = []enumItem{$1} }\n",
  t!"| enumitems ',' enumitem\n",
  t!"  { $$ = append($1, $3) }\n",
  t!"\n",
  t!"enumitem: IDENT '=' val\n",
  t!"  { $$ = enumItem{$1, $3} }\n",
  t!"\n",
  t!"structtypespec: KWSTRUCT structbody\n",
  t!"  { $$ = typeStruct{$2} }\n",
  t!"\n",
  t!"structbody: '{' structdecls '}'\n",
  t!"  { $$ = $2 }\n",
  t!"\n",
  t!"structdecls: { $$ = nil } | structdecls decl ';'\n",
  t!"  { $$ = append($1, $2) }\n",
  t!"\n",
  t!"uniontypespec: KWUNION unionbody\n",
  t!"  { $$ = $2 }\n",
  t!"\n",
  t!"unionbody: KWSWITCH '(' decl ')' '{' unioncasesdef '}'\n",
  t!"  { $$ = typeUnion{switchDecl: $3, cases: $6} }\n",
  t!"\n",
  t!"unioncasesdef: unioncases\n",
  t!"  { $$ = unionCasesDef{$1, nil} }\n",
  t!"| unioncases KWDEFAULT ':' decl ';'\n",
  t!"  { $$ = unionCasesDef{$1, $4} }\n",
  t!"\n",
  t!"unioncases: { $$ = nil } | unioncases unioncase\n",
  t!"  { $$ = append($1, $2) }\n",
  t!"\n",
  t!"unioncase: caselist decl ';'\n",
  t!"  { $$ = unionCaseDecl{$1, $2} }\n",
  t!"\n",
  t!"caselist: KWCASE val ':'\n",
  t!"  { $$ = []string{$2} }\n",
  t!"| caselist KWCASE val ':'\n",
  t!"  { $$ = append($1, $3) }\n",
  t!"\n",
  t!"constdef: KWCONST IDENT '=' CONST ';'\n",
  t!"  { emitConst($2, $4) }\n",
  t!"\n",
  t!"typedef: KWTYPEDEF decl ';'\n",
  t!"  { emitTypedef($2) }\n",
  t!"| KWENUM IDENT enumbody ';'\n",
  t!"  { emitEnum($2, $3) }\n",
  t!"| KWSTRUCT IDENT structbody ';'\n",
  t!"  { emitStruct($2, $3) }\n",
  t!"| KWUNION IDENT unionbody ';'\n",
  t!"  { emitUnion($2, $3) }\n",
  t!"\n",
  t!"progdef: KWPROGRAM IDENT '{' progvers '}' '=' CONST ';'\n",
  t!"  { emitProg(progDef{$2, $4, $7}) }\n",
  t!"\n",
  t!"progvers: { $$ = nil } | progvers progver\n",
  t!"  { $$ = append($1, $2) }\n",
  t!"\n",
  t!"progver: KWVERSION IDENT '{' progcalls '}' '=' CONST ';'\n",
  t!"  { $$ = progVer{$2, $4, $7} }\n",
  t!"\n",
  t!"progcalls: { $$ = nil } | progcalls progcall\n",
  t!"  { $$ = append($1, $2) }\n",
  t!"\n",
  t!"progcall: typespecopt IDENT '(' typespecopt ')' '=' CONST ';'\n",
  t!"  { $$ = progCall{$2, $4, $1, $7} }\n",
  t!"\n",
  t!"typespecopt: KWVOID\n",
  t!"  { $$ = typespecOpt{ isVoid: true } }\n",
  t!"| typespec\n",
  t!"  { $$ = typespecOpt{ isVoid: false, t: $1 } }\n",
  t!"\n",
  t!"%%\n",
  t!"\n"]

end Verif.Lang
