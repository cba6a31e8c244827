/-
What the names used in out.go stand for, and the parts of its formats.  Written by tools/mkgenfacts.py; every
line is checked by the kernel.
-/
import Verif.Lang.GenProg
import Verif.Lang.GenAttr

namespace Verif.Lang
open Verif.Text

@[gen_simp] theorem find_out_i : genProg.find (.fn "main" "i") = some ("main", out_i) := by kernel_rfl
@[gen_simp] theorem isType_main_i : isType genProg "main" "i" = false := by kernel_rfl
@[gen_simp] theorem find_out_declTypeTypespec_goType : genProg.find (.meth "main.declTypeTypespec" "goType") = some ("main", out_declTypeTypespec_goType) := by kernel_rfl
@[gen_simp] theorem byval_out_declTypeTypespec_goType : byValue genProg "main.declTypeTypespec" "goType" = true := by kernel_rfl
@[gen_simp] theorem find_out_declTypeTypespec_goXdr : genProg.find (.meth "main.declTypeTypespec" "goXdr") = some ("main", out_declTypeTypespec_goXdr) := by kernel_rfl
@[gen_simp] theorem byval_out_declTypeTypespec_goXdr : byValue genProg "main.declTypeTypespec" "goXdr" = true := by kernel_rfl
@[gen_simp] theorem find_out_declTypeArray_goType : genProg.find (.meth "main.declTypeArray" "goType") = some ("main", out_declTypeArray_goType) := by kernel_rfl
@[gen_simp] theorem byval_out_declTypeArray_goType : byValue genProg "main.declTypeArray" "goType" = true := by kernel_rfl
@[gen_simp] theorem find_out_declTypeArray_goXdr : genProg.find (.meth "main.declTypeArray" "goXdr") = some ("main", out_declTypeArray_goXdr) := by kernel_rfl
@[gen_simp] theorem byval_out_declTypeArray_goXdr : byValue genProg "main.declTypeArray" "goXdr" = true := by kernel_rfl
@[gen_simp] theorem find_out_declTypeVarArray_goType : genProg.find (.meth "main.declTypeVarArray" "goType") = some ("main", out_declTypeVarArray_goType) := by kernel_rfl
@[gen_simp] theorem byval_out_declTypeVarArray_goType : byValue genProg "main.declTypeVarArray" "goType" = true := by kernel_rfl
@[gen_simp] theorem find_out_declTypeVarArray_goXdr : genProg.find (.meth "main.declTypeVarArray" "goXdr") = some ("main", out_declTypeVarArray_goXdr) := by kernel_rfl
@[gen_simp] theorem byval_out_declTypeVarArray_goXdr : byValue genProg "main.declTypeVarArray" "goXdr" = true := by kernel_rfl
@[gen_simp] theorem find_out_declTypeOpaqueArray_goType : genProg.find (.meth "main.declTypeOpaqueArray" "goType") = some ("main", out_declTypeOpaqueArray_goType) := by kernel_rfl
@[gen_simp] theorem byval_out_declTypeOpaqueArray_goType : byValue genProg "main.declTypeOpaqueArray" "goType" = true := by kernel_rfl
@[gen_simp] theorem find_out_declTypeOpaqueArray_goXdr : genProg.find (.meth "main.declTypeOpaqueArray" "goXdr") = some ("main", out_declTypeOpaqueArray_goXdr) := by kernel_rfl
@[gen_simp] theorem byval_out_declTypeOpaqueArray_goXdr : byValue genProg "main.declTypeOpaqueArray" "goXdr" = true := by kernel_rfl
@[gen_simp] theorem find_out_declTypeOpaqueVarArray_goType : genProg.find (.meth "main.declTypeOpaqueVarArray" "goType") = some ("main", out_declTypeOpaqueVarArray_goType) := by kernel_rfl
@[gen_simp] theorem byval_out_declTypeOpaqueVarArray_goType : byValue genProg "main.declTypeOpaqueVarArray" "goType" = true := by kernel_rfl
@[gen_simp] theorem find_out_declTypeOpaqueVarArray_goXdr : genProg.find (.meth "main.declTypeOpaqueVarArray" "goXdr") = some ("main", out_declTypeOpaqueVarArray_goXdr) := by kernel_rfl
@[gen_simp] theorem byval_out_declTypeOpaqueVarArray_goXdr : byValue genProg "main.declTypeOpaqueVarArray" "goXdr" = true := by kernel_rfl
@[gen_simp] theorem find_out_declTypeString_goType : genProg.find (.meth "main.declTypeString" "goType") = some ("main", out_declTypeString_goType) := by kernel_rfl
@[gen_simp] theorem byval_out_declTypeString_goType : byValue genProg "main.declTypeString" "goType" = true := by kernel_rfl
@[gen_simp] theorem find_out_declTypeString_goXdr : genProg.find (.meth "main.declTypeString" "goXdr") = some ("main", out_declTypeString_goXdr) := by kernel_rfl
@[gen_simp] theorem byval_out_declTypeString_goXdr : byValue genProg "main.declTypeString" "goXdr" = true := by kernel_rfl
@[gen_simp] theorem find_out_declTypePtr_goType : genProg.find (.meth "main.declTypePtr" "goType") = some ("main", out_declTypePtr_goType) := by kernel_rfl
@[gen_simp] theorem byval_out_declTypePtr_goType : byValue genProg "main.declTypePtr" "goType" = true := by kernel_rfl
@[gen_simp] theorem find_out_declTypePtr_goXdr : genProg.find (.meth "main.declTypePtr" "goXdr") = some ("main", out_declTypePtr_goXdr) := by kernel_rfl
@[gen_simp] theorem byval_out_declTypePtr_goXdr : byValue genProg "main.declTypePtr" "goXdr" = true := by kernel_rfl
@[gen_simp] theorem find_out_typespecOpt_maybeGoType : genProg.find (.meth "main.typespecOpt" "maybeGoType") = some ("main", out_typespecOpt_maybeGoType) := by kernel_rfl
@[gen_simp] theorem byval_out_typespecOpt_maybeGoType : byValue genProg "main.typespecOpt" "maybeGoType" = true := by kernel_rfl
@[gen_simp] theorem find_out_typeInt_goType : genProg.find (.meth "main.typeInt" "goType") = some ("main", out_typeInt_goType) := by kernel_rfl
@[gen_simp] theorem byval_out_typeInt_goType : byValue genProg "main.typeInt" "goType" = true := by kernel_rfl
@[gen_simp] theorem find_out_typeInt_goXdr : genProg.find (.meth "main.typeInt" "goXdr") = some ("main", out_typeInt_goXdr) := by kernel_rfl
@[gen_simp] theorem byval_out_typeInt_goXdr : byValue genProg "main.typeInt" "goXdr" = true := by kernel_rfl
@[gen_simp] theorem find_out_typeHyper_goType : genProg.find (.meth "main.typeHyper" "goType") = some ("main", out_typeHyper_goType) := by kernel_rfl
@[gen_simp] theorem byval_out_typeHyper_goType : byValue genProg "main.typeHyper" "goType" = true := by kernel_rfl
@[gen_simp] theorem find_out_typeHyper_goXdr : genProg.find (.meth "main.typeHyper" "goXdr") = some ("main", out_typeHyper_goXdr) := by kernel_rfl
@[gen_simp] theorem byval_out_typeHyper_goXdr : byValue genProg "main.typeHyper" "goXdr" = true := by kernel_rfl
@[gen_simp] theorem find_out_typeFloat_goType : genProg.find (.meth "main.typeFloat" "goType") = some ("main", out_typeFloat_goType) := by kernel_rfl
@[gen_simp] theorem byval_out_typeFloat_goType : byValue genProg "main.typeFloat" "goType" = true := by kernel_rfl
@[gen_simp] theorem find_out_typeFloat_goXdr : genProg.find (.meth "main.typeFloat" "goXdr") = some ("main", out_typeFloat_goXdr) := by kernel_rfl
@[gen_simp] theorem byval_out_typeFloat_goXdr : byValue genProg "main.typeFloat" "goXdr" = true := by kernel_rfl
@[gen_simp] theorem find_out_typeDouble_goType : genProg.find (.meth "main.typeDouble" "goType") = some ("main", out_typeDouble_goType) := by kernel_rfl
@[gen_simp] theorem byval_out_typeDouble_goType : byValue genProg "main.typeDouble" "goType" = true := by kernel_rfl
@[gen_simp] theorem find_out_typeDouble_goXdr : genProg.find (.meth "main.typeDouble" "goXdr") = some ("main", out_typeDouble_goXdr) := by kernel_rfl
@[gen_simp] theorem byval_out_typeDouble_goXdr : byValue genProg "main.typeDouble" "goXdr" = true := by kernel_rfl
@[gen_simp] theorem find_out_typeQuadruple_goType : genProg.find (.meth "main.typeQuadruple" "goType") = some ("main", out_typeQuadruple_goType) := by kernel_rfl
@[gen_simp] theorem byval_out_typeQuadruple_goType : byValue genProg "main.typeQuadruple" "goType" = true := by kernel_rfl
@[gen_simp] theorem find_out_typeQuadruple_goXdr : genProg.find (.meth "main.typeQuadruple" "goXdr") = some ("main", out_typeQuadruple_goXdr) := by kernel_rfl
@[gen_simp] theorem byval_out_typeQuadruple_goXdr : byValue genProg "main.typeQuadruple" "goXdr" = true := by kernel_rfl
@[gen_simp] theorem find_out_typeBool_goType : genProg.find (.meth "main.typeBool" "goType") = some ("main", out_typeBool_goType) := by kernel_rfl
@[gen_simp] theorem byval_out_typeBool_goType : byValue genProg "main.typeBool" "goType" = true := by kernel_rfl
@[gen_simp] theorem find_out_typeBool_goXdr : genProg.find (.meth "main.typeBool" "goXdr") = some ("main", out_typeBool_goXdr) := by kernel_rfl
@[gen_simp] theorem byval_out_typeBool_goXdr : byValue genProg "main.typeBool" "goXdr" = true := by kernel_rfl
@[gen_simp] theorem find_out_typeEnum_goType : genProg.find (.meth "main.typeEnum" "goType") = some ("main", out_typeEnum_goType) := by kernel_rfl
@[gen_simp] theorem byval_out_typeEnum_goType : byValue genProg "main.typeEnum" "goType" = true := by kernel_rfl
@[gen_simp] theorem find_out_typeEnum_goXdr : genProg.find (.meth "main.typeEnum" "goXdr") = some ("main", out_typeEnum_goXdr) := by kernel_rfl
@[gen_simp] theorem byval_out_typeEnum_goXdr : byValue genProg "main.typeEnum" "goXdr" = true := by kernel_rfl
@[gen_simp] theorem find_out_declToNameGotype : genProg.find (.fn "main" "declToNameGotype") = some ("main", out_declToNameGotype) := by kernel_rfl
@[gen_simp] theorem isType_main_declToNameGotype : isType genProg "main" "declToNameGotype" = false := by kernel_rfl
@[gen_simp] theorem find_out_typeStruct_goType : genProg.find (.meth "main.typeStruct" "goType") = some ("main", out_typeStruct_goType) := by kernel_rfl
@[gen_simp] theorem byval_out_typeStruct_goType : byValue genProg "main.typeStruct" "goType" = true := by kernel_rfl
@[gen_simp] theorem find_out_typeStruct_goXdr : genProg.find (.meth "main.typeStruct" "goXdr") = some ("main", out_typeStruct_goXdr) := by kernel_rfl
@[gen_simp] theorem byval_out_typeStruct_goXdr : byValue genProg "main.typeStruct" "goXdr" = true := by kernel_rfl
@[gen_simp] theorem find_out_typeUnion_goType : genProg.find (.meth "main.typeUnion" "goType") = some ("main", out_typeUnion_goType) := by kernel_rfl
@[gen_simp] theorem byval_out_typeUnion_goType : byValue genProg "main.typeUnion" "goType" = true := by kernel_rfl
@[gen_simp] theorem find_out_typeUnion_goXdr : genProg.find (.meth "main.typeUnion" "goXdr") = some ("main", out_typeUnion_goXdr) := by kernel_rfl
@[gen_simp] theorem byval_out_typeUnion_goXdr : byValue genProg "main.typeUnion" "goXdr" = true := by kernel_rfl
@[gen_simp] theorem find_out_typeIdent_goType : genProg.find (.meth "main.typeIdent" "goType") = some ("main", out_typeIdent_goType) := by kernel_rfl
@[gen_simp] theorem byval_out_typeIdent_goType : byValue genProg "main.typeIdent" "goType" = true := by kernel_rfl
@[gen_simp] theorem find_out_typeIdent_goXdr : genProg.find (.meth "main.typeIdent" "goXdr") = some ("main", out_typeIdent_goXdr) := by kernel_rfl
@[gen_simp] theorem byval_out_typeIdent_goXdr : byValue genProg "main.typeIdent" "goXdr" = true := by kernel_rfl
@[gen_simp] theorem find_out_emitProg : genProg.find (.fn "main" "emitProg") = some ("main", out_emitProg) := by kernel_rfl
@[gen_simp] theorem isType_main_emitProg : isType genProg "main" "emitProg" = false := by kernel_rfl
@[gen_simp] theorem find_out_emitConst : genProg.find (.fn "main" "emitConst") = some ("main", out_emitConst) := by kernel_rfl
@[gen_simp] theorem isType_main_emitConst : isType genProg "main" "emitConst" = false := by kernel_rfl
@[gen_simp] theorem find_out_emitTypedef : genProg.find (.fn "main" "emitTypedef") = some ("main", out_emitTypedef) := by kernel_rfl
@[gen_simp] theorem isType_main_emitTypedef : isType genProg "main" "emitTypedef" = false := by kernel_rfl
@[gen_simp] theorem find_out_emitEnum : genProg.find (.fn "main" "emitEnum") = some ("main", out_emitEnum) := by kernel_rfl
@[gen_simp] theorem isType_main_emitEnum : isType genProg "main" "emitEnum" = false := by kernel_rfl
@[gen_simp] theorem find_out_emitStruct : genProg.find (.fn "main" "emitStruct") = some ("main", out_emitStruct) := by kernel_rfl
@[gen_simp] theorem isType_main_emitStruct : isType genProg "main" "emitStruct" = false := by kernel_rfl
@[gen_simp] theorem find_out_emitUnion : genProg.find (.fn "main" "emitUnion") = some ("main", out_emitUnion) := by kernel_rfl
@[gen_simp] theorem isType_main_emitUnion : isType genProg "main" "emitUnion" = false := by kernel_rfl
@[gen_simp] theorem find_yacc_xdrAct6 : genProg.find (.fn "main" "xdrAct6") = some ("main", yacc_xdrAct6) := by kernel_rfl
@[gen_simp] theorem isType_main_xdrAct6 : isType genProg "main" "xdrAct6" = false := by kernel_rfl
@[gen_simp] theorem find_yacc_xdrAct7 : genProg.find (.fn "main" "xdrAct7") = some ("main", yacc_xdrAct7) := by kernel_rfl
@[gen_simp] theorem isType_main_xdrAct7 : isType genProg "main" "xdrAct7" = false := by kernel_rfl
@[gen_simp] theorem find_yacc_xdrAct8 : genProg.find (.fn "main" "xdrAct8") = some ("main", yacc_xdrAct8) := by kernel_rfl
@[gen_simp] theorem isType_main_xdrAct8 : isType genProg "main" "xdrAct8" = false := by kernel_rfl
@[gen_simp] theorem find_yacc_xdrAct9 : genProg.find (.fn "main" "xdrAct9") = some ("main", yacc_xdrAct9) := by kernel_rfl
@[gen_simp] theorem isType_main_xdrAct9 : isType genProg "main" "xdrAct9" = false := by kernel_rfl
@[gen_simp] theorem find_yacc_xdrAct10 : genProg.find (.fn "main" "xdrAct10") = some ("main", yacc_xdrAct10) := by kernel_rfl
@[gen_simp] theorem isType_main_xdrAct10 : isType genProg "main" "xdrAct10" = false := by kernel_rfl
@[gen_simp] theorem find_yacc_xdrAct11 : genProg.find (.fn "main" "xdrAct11") = some ("main", yacc_xdrAct11) := by kernel_rfl
@[gen_simp] theorem isType_main_xdrAct11 : isType genProg "main" "xdrAct11" = false := by kernel_rfl
@[gen_simp] theorem find_yacc_xdrAct12 : genProg.find (.fn "main" "xdrAct12") = some ("main", yacc_xdrAct12) := by kernel_rfl
@[gen_simp] theorem isType_main_xdrAct12 : isType genProg "main" "xdrAct12" = false := by kernel_rfl
@[gen_simp] theorem find_yacc_xdrAct13 : genProg.find (.fn "main" "xdrAct13") = some ("main", yacc_xdrAct13) := by kernel_rfl
@[gen_simp] theorem isType_main_xdrAct13 : isType genProg "main" "xdrAct13" = false := by kernel_rfl
@[gen_simp] theorem find_yacc_xdrAct14 : genProg.find (.fn "main" "xdrAct14") = some ("main", yacc_xdrAct14) := by kernel_rfl
@[gen_simp] theorem isType_main_xdrAct14 : isType genProg "main" "xdrAct14" = false := by kernel_rfl
@[gen_simp] theorem find_yacc_xdrAct15 : genProg.find (.fn "main" "xdrAct15") = some ("main", yacc_xdrAct15) := by kernel_rfl
@[gen_simp] theorem isType_main_xdrAct15 : isType genProg "main" "xdrAct15" = false := by kernel_rfl
@[gen_simp] theorem find_yacc_xdrAct16 : genProg.find (.fn "main" "xdrAct16") = some ("main", yacc_xdrAct16) := by kernel_rfl
@[gen_simp] theorem isType_main_xdrAct16 : isType genProg "main" "xdrAct16" = false := by kernel_rfl
@[gen_simp] theorem find_yacc_xdrAct17 : genProg.find (.fn "main" "xdrAct17") = some ("main", yacc_xdrAct17) := by kernel_rfl
@[gen_simp] theorem isType_main_xdrAct17 : isType genProg "main" "xdrAct17" = false := by kernel_rfl
@[gen_simp] theorem find_yacc_xdrAct18 : genProg.find (.fn "main" "xdrAct18") = some ("main", yacc_xdrAct18) := by kernel_rfl
@[gen_simp] theorem isType_main_xdrAct18 : isType genProg "main" "xdrAct18" = false := by kernel_rfl
@[gen_simp] theorem find_yacc_xdrAct19 : genProg.find (.fn "main" "xdrAct19") = some ("main", yacc_xdrAct19) := by kernel_rfl
@[gen_simp] theorem isType_main_xdrAct19 : isType genProg "main" "xdrAct19" = false := by kernel_rfl
@[gen_simp] theorem find_yacc_xdrAct20 : genProg.find (.fn "main" "xdrAct20") = some ("main", yacc_xdrAct20) := by kernel_rfl
@[gen_simp] theorem isType_main_xdrAct20 : isType genProg "main" "xdrAct20" = false := by kernel_rfl
@[gen_simp] theorem find_yacc_xdrAct21 : genProg.find (.fn "main" "xdrAct21") = some ("main", yacc_xdrAct21) := by kernel_rfl
@[gen_simp] theorem isType_main_xdrAct21 : isType genProg "main" "xdrAct21" = false := by kernel_rfl
@[gen_simp] theorem find_yacc_xdrAct22 : genProg.find (.fn "main" "xdrAct22") = some ("main", yacc_xdrAct22) := by kernel_rfl
@[gen_simp] theorem isType_main_xdrAct22 : isType genProg "main" "xdrAct22" = false := by kernel_rfl
@[gen_simp] theorem find_yacc_xdrAct23 : genProg.find (.fn "main" "xdrAct23") = some ("main", yacc_xdrAct23) := by kernel_rfl
@[gen_simp] theorem isType_main_xdrAct23 : isType genProg "main" "xdrAct23" = false := by kernel_rfl
@[gen_simp] theorem find_yacc_xdrAct24 : genProg.find (.fn "main" "xdrAct24") = some ("main", yacc_xdrAct24) := by kernel_rfl
@[gen_simp] theorem isType_main_xdrAct24 : isType genProg "main" "xdrAct24" = false := by kernel_rfl
@[gen_simp] theorem find_yacc_xdrAct25 : genProg.find (.fn "main" "xdrAct25") = some ("main", yacc_xdrAct25) := by kernel_rfl
@[gen_simp] theorem isType_main_xdrAct25 : isType genProg "main" "xdrAct25" = false := by kernel_rfl
@[gen_simp] theorem find_yacc_xdrAct26 : genProg.find (.fn "main" "xdrAct26") = some ("main", yacc_xdrAct26) := by kernel_rfl
@[gen_simp] theorem isType_main_xdrAct26 : isType genProg "main" "xdrAct26" = false := by kernel_rfl
@[gen_simp] theorem find_yacc_xdrAct27 : genProg.find (.fn "main" "xdrAct27") = some ("main", yacc_xdrAct27) := by kernel_rfl
@[gen_simp] theorem isType_main_xdrAct27 : isType genProg "main" "xdrAct27" = false := by kernel_rfl
@[gen_simp] theorem find_yacc_xdrAct28 : genProg.find (.fn "main" "xdrAct28") = some ("main", yacc_xdrAct28) := by kernel_rfl
@[gen_simp] theorem isType_main_xdrAct28 : isType genProg "main" "xdrAct28" = false := by kernel_rfl
@[gen_simp] theorem find_yacc_xdrAct29 : genProg.find (.fn "main" "xdrAct29") = some ("main", yacc_xdrAct29) := by kernel_rfl
@[gen_simp] theorem isType_main_xdrAct29 : isType genProg "main" "xdrAct29" = false := by kernel_rfl
@[gen_simp] theorem find_yacc_xdrAct30 : genProg.find (.fn "main" "xdrAct30") = some ("main", yacc_xdrAct30) := by kernel_rfl
@[gen_simp] theorem isType_main_xdrAct30 : isType genProg "main" "xdrAct30" = false := by kernel_rfl
@[gen_simp] theorem find_yacc_xdrAct31 : genProg.find (.fn "main" "xdrAct31") = some ("main", yacc_xdrAct31) := by kernel_rfl
@[gen_simp] theorem isType_main_xdrAct31 : isType genProg "main" "xdrAct31" = false := by kernel_rfl
@[gen_simp] theorem find_yacc_xdrAct32 : genProg.find (.fn "main" "xdrAct32") = some ("main", yacc_xdrAct32) := by kernel_rfl
@[gen_simp] theorem isType_main_xdrAct32 : isType genProg "main" "xdrAct32" = false := by kernel_rfl
@[gen_simp] theorem find_yacc_xdrAct33 : genProg.find (.fn "main" "xdrAct33") = some ("main", yacc_xdrAct33) := by kernel_rfl
@[gen_simp] theorem isType_main_xdrAct33 : isType genProg "main" "xdrAct33" = false := by kernel_rfl
@[gen_simp] theorem find_yacc_xdrAct34 : genProg.find (.fn "main" "xdrAct34") = some ("main", yacc_xdrAct34) := by kernel_rfl
@[gen_simp] theorem isType_main_xdrAct34 : isType genProg "main" "xdrAct34" = false := by kernel_rfl
@[gen_simp] theorem find_yacc_xdrAct35 : genProg.find (.fn "main" "xdrAct35") = some ("main", yacc_xdrAct35) := by kernel_rfl
@[gen_simp] theorem isType_main_xdrAct35 : isType genProg "main" "xdrAct35" = false := by kernel_rfl
@[gen_simp] theorem find_yacc_xdrAct36 : genProg.find (.fn "main" "xdrAct36") = some ("main", yacc_xdrAct36) := by kernel_rfl
@[gen_simp] theorem isType_main_xdrAct36 : isType genProg "main" "xdrAct36" = false := by kernel_rfl
@[gen_simp] theorem find_yacc_xdrAct37 : genProg.find (.fn "main" "xdrAct37") = some ("main", yacc_xdrAct37) := by kernel_rfl
@[gen_simp] theorem isType_main_xdrAct37 : isType genProg "main" "xdrAct37" = false := by kernel_rfl
@[gen_simp] theorem find_yacc_xdrAct38 : genProg.find (.fn "main" "xdrAct38") = some ("main", yacc_xdrAct38) := by kernel_rfl
@[gen_simp] theorem isType_main_xdrAct38 : isType genProg "main" "xdrAct38" = false := by kernel_rfl
@[gen_simp] theorem find_yacc_xdrAct39 : genProg.find (.fn "main" "xdrAct39") = some ("main", yacc_xdrAct39) := by kernel_rfl
@[gen_simp] theorem isType_main_xdrAct39 : isType genProg "main" "xdrAct39" = false := by kernel_rfl
@[gen_simp] theorem find_yacc_xdrAct40 : genProg.find (.fn "main" "xdrAct40") = some ("main", yacc_xdrAct40) := by kernel_rfl
@[gen_simp] theorem isType_main_xdrAct40 : isType genProg "main" "xdrAct40" = false := by kernel_rfl
@[gen_simp] theorem find_yacc_xdrAct41 : genProg.find (.fn "main" "xdrAct41") = some ("main", yacc_xdrAct41) := by kernel_rfl
@[gen_simp] theorem isType_main_xdrAct41 : isType genProg "main" "xdrAct41" = false := by kernel_rfl
@[gen_simp] theorem find_yacc_xdrAct42 : genProg.find (.fn "main" "xdrAct42") = some ("main", yacc_xdrAct42) := by kernel_rfl
@[gen_simp] theorem isType_main_xdrAct42 : isType genProg "main" "xdrAct42" = false := by kernel_rfl
@[gen_simp] theorem find_yacc_xdrAct43 : genProg.find (.fn "main" "xdrAct43") = some ("main", yacc_xdrAct43) := by kernel_rfl
@[gen_simp] theorem isType_main_xdrAct43 : isType genProg "main" "xdrAct43" = false := by kernel_rfl
@[gen_simp] theorem find_yacc_xdrAct44 : genProg.find (.fn "main" "xdrAct44") = some ("main", yacc_xdrAct44) := by kernel_rfl
@[gen_simp] theorem isType_main_xdrAct44 : isType genProg "main" "xdrAct44" = false := by kernel_rfl
@[gen_simp] theorem find_yacc_xdrAct45 : genProg.find (.fn "main" "xdrAct45") = some ("main", yacc_xdrAct45) := by kernel_rfl
@[gen_simp] theorem isType_main_xdrAct45 : isType genProg "main" "xdrAct45" = false := by kernel_rfl
@[gen_simp] theorem find_yacc_xdrAct46 : genProg.find (.fn "main" "xdrAct46") = some ("main", yacc_xdrAct46) := by kernel_rfl
@[gen_simp] theorem isType_main_xdrAct46 : isType genProg "main" "xdrAct46" = false := by kernel_rfl
@[gen_simp] theorem find_yacc_xdrAct47 : genProg.find (.fn "main" "xdrAct47") = some ("main", yacc_xdrAct47) := by kernel_rfl
@[gen_simp] theorem isType_main_xdrAct47 : isType genProg "main" "xdrAct47" = false := by kernel_rfl
@[gen_simp] theorem find_yacc_xdrAct48 : genProg.find (.fn "main" "xdrAct48") = some ("main", yacc_xdrAct48) := by kernel_rfl
@[gen_simp] theorem isType_main_xdrAct48 : isType genProg "main" "xdrAct48" = false := by kernel_rfl
@[gen_simp] theorem find_yacc_xdrAct49 : genProg.find (.fn "main" "xdrAct49") = some ("main", yacc_xdrAct49) := by kernel_rfl
@[gen_simp] theorem isType_main_xdrAct49 : isType genProg "main" "xdrAct49" = false := by kernel_rfl
@[gen_simp] theorem find_yacc_xdrAct50 : genProg.find (.fn "main" "xdrAct50") = some ("main", yacc_xdrAct50) := by kernel_rfl
@[gen_simp] theorem isType_main_xdrAct50 : isType genProg "main" "xdrAct50" = false := by kernel_rfl
@[gen_simp] theorem find_yacc_xdrAct51 : genProg.find (.fn "main" "xdrAct51") = some ("main", yacc_xdrAct51) := by kernel_rfl
@[gen_simp] theorem isType_main_xdrAct51 : isType genProg "main" "xdrAct51" = false := by kernel_rfl
@[gen_simp] theorem find_yacc_xdrAct52 : genProg.find (.fn "main" "xdrAct52") = some ("main", yacc_xdrAct52) := by kernel_rfl
@[gen_simp] theorem isType_main_xdrAct52 : isType genProg "main" "xdrAct52" = false := by kernel_rfl
@[gen_simp] theorem find_yacc_xdrAct53 : genProg.find (.fn "main" "xdrAct53") = some ("main", yacc_xdrAct53) := by kernel_rfl
@[gen_simp] theorem isType_main_xdrAct53 : isType genProg "main" "xdrAct53" = false := by kernel_rfl
@[gen_simp] theorem find_yacc_xdrAct54 : genProg.find (.fn "main" "xdrAct54") = some ("main", yacc_xdrAct54) := by kernel_rfl
@[gen_simp] theorem isType_main_xdrAct54 : isType genProg "main" "xdrAct54" = false := by kernel_rfl
@[gen_simp] theorem find_yacc_xdrAct55 : genProg.find (.fn "main" "xdrAct55") = some ("main", yacc_xdrAct55) := by kernel_rfl
@[gen_simp] theorem isType_main_xdrAct55 : isType genProg "main" "xdrAct55" = false := by kernel_rfl
@[gen_simp] theorem find_yacc_xdrAct56 : genProg.find (.fn "main" "xdrAct56") = some ("main", yacc_xdrAct56) := by kernel_rfl
@[gen_simp] theorem isType_main_xdrAct56 : isType genProg "main" "xdrAct56" = false := by kernel_rfl
@[gen_simp] theorem find_yacc_xdrAct57 : genProg.find (.fn "main" "xdrAct57") = some ("main", yacc_xdrAct57) := by kernel_rfl
@[gen_simp] theorem isType_main_xdrAct57 : isType genProg "main" "xdrAct57" = false := by kernel_rfl
@[gen_simp] theorem find_yacc_xdrAct58 : genProg.find (.fn "main" "xdrAct58") = some ("main", yacc_xdrAct58) := by kernel_rfl
@[gen_simp] theorem isType_main_xdrAct58 : isType genProg "main" "xdrAct58" = false := by kernel_rfl
@[gen_simp] theorem find_yacc_xdrAct59 : genProg.find (.fn "main" "xdrAct59") = some ("main", yacc_xdrAct59) := by kernel_rfl
@[gen_simp] theorem isType_main_xdrAct59 : isType genProg "main" "xdrAct59" = false := by kernel_rfl
@[gen_simp] theorem find_yacc_xdrAct60 : genProg.find (.fn "main" "xdrAct60") = some ("main", yacc_xdrAct60) := by kernel_rfl
@[gen_simp] theorem isType_main_xdrAct60 : isType genProg "main" "xdrAct60" = false := by kernel_rfl
@[gen_simp] theorem find_yacc_xdrAct61 : genProg.find (.fn "main" "xdrAct61") = some ("main", yacc_xdrAct61) := by kernel_rfl
@[gen_simp] theorem isType_main_xdrAct61 : isType genProg "main" "xdrAct61" = false := by kernel_rfl
@[gen_simp] theorem zero_main_string : genProg.zero "main" (.name "string") = some (.str []) := by kernel_rfl
@[gen_simp] theorem zero_main_bool : genProg.zero "main" (.name "bool") = some (.bool false) := by kernel_rfl
@[gen_simp] theorem zero_main_decl : genProg.zero "main" (.name "decl") = some (.nil) := by kernel_rfl
@[gen_simp] theorem zero_main_typespec : genProg.zero "main" (.name "typespec") = some (.nil) := by kernel_rfl
@[gen_simp] theorem zero_main_declType : genProg.zero "main" (.name "declType") = some (.nil) := by kernel_rfl
@[gen_simp] theorem zero_main_declVoid : genProg.zero "main" (.name "declVoid") = some (.struct "main.declVoid" []) := by kernel_rfl
@[gen_simp] theorem zero_main_declName : genProg.zero "main" (.name "declName") = some (.struct "main.declName" [("t", .nil), ("n", .str [])]) := by kernel_rfl
@[gen_simp] theorem zero_main_declTypeTypespec : genProg.zero "main" (.name "declTypeTypespec") = some (.struct "main.declTypeTypespec" [("t", .nil)]) := by kernel_rfl
@[gen_simp] theorem zero_main_declTypeArray : genProg.zero "main" (.name "declTypeArray") = some (.struct "main.declTypeArray" [("t", .nil), ("sz", .str [])]) := by kernel_rfl
@[gen_simp] theorem zero_main_declTypeVarArray : genProg.zero "main" (.name "declTypeVarArray") = some (.struct "main.declTypeVarArray" [("t", .nil), ("sz", .str [])]) := by kernel_rfl
@[gen_simp] theorem zero_main_declTypeOpaqueArray : genProg.zero "main" (.name "declTypeOpaqueArray") = some (.struct "main.declTypeOpaqueArray" [("sz", .str [])]) := by kernel_rfl
@[gen_simp] theorem zero_main_declTypeOpaqueVarArray : genProg.zero "main" (.name "declTypeOpaqueVarArray") = some (.struct "main.declTypeOpaqueVarArray" [("sz", .str [])]) := by kernel_rfl
@[gen_simp] theorem zero_main_declTypeString : genProg.zero "main" (.name "declTypeString") = some (.struct "main.declTypeString" [("sz", .str [])]) := by kernel_rfl
@[gen_simp] theorem zero_main_declTypePtr : genProg.zero "main" (.name "declTypePtr") = some (.struct "main.declTypePtr" [("t", .nil)]) := by kernel_rfl
@[gen_simp] theorem zero_main_typespecOpt : genProg.zero "main" (.name "typespecOpt") = some (.struct "main.typespecOpt" [("isVoid", .bool false), ("t", .nil)]) := by kernel_rfl
@[gen_simp] theorem zero_main_typeInt : genProg.zero "main" (.name "typeInt") = some (.struct "main.typeInt" [("unsig", .bool false)]) := by kernel_rfl
@[gen_simp] theorem zero_main_typeHyper : genProg.zero "main" (.name "typeHyper") = some (.struct "main.typeHyper" [("unsig", .bool false)]) := by kernel_rfl
@[gen_simp] theorem zero_main_typeFloat : genProg.zero "main" (.name "typeFloat") = some (.struct "main.typeFloat" []) := by kernel_rfl
@[gen_simp] theorem zero_main_typeDouble : genProg.zero "main" (.name "typeDouble") = some (.struct "main.typeDouble" []) := by kernel_rfl
@[gen_simp] theorem zero_main_typeQuadruple : genProg.zero "main" (.name "typeQuadruple") = some (.struct "main.typeQuadruple" []) := by kernel_rfl
@[gen_simp] theorem zero_main_typeBool : genProg.zero "main" (.name "typeBool") = some (.struct "main.typeBool" []) := by kernel_rfl
@[gen_simp] theorem zero_main_typeEnum : genProg.zero "main" (.name "typeEnum") = some (.struct "main.typeEnum" [("items", .nil)]) := by kernel_rfl
@[gen_simp] theorem zero_main_typeStruct : genProg.zero "main" (.name "typeStruct") = some (.struct "main.typeStruct" [("items", .nil)]) := by kernel_rfl
@[gen_simp] theorem zero_main_unionCasesDef : genProg.zero "main" (.name "unionCasesDef") = some (.struct "main.unionCasesDef" [("cases", .nil), ("def", .nil)]) := by kernel_rfl
@[gen_simp] theorem zero_main_typeUnion : genProg.zero "main" (.name "typeUnion") = some (.struct "main.typeUnion" [("switchDecl", .nil), ("cases", .struct "main.unionCasesDef" [("cases", .nil), ("def", .nil)])]) := by kernel_rfl
@[gen_simp] theorem zero_main_typeIdent : genProg.zero "main" (.name "typeIdent") = some (.struct "main.typeIdent" [("n", .str [])]) := by kernel_rfl
@[gen_simp] theorem zero_main_enumItem : genProg.zero "main" (.name "enumItem") = some (.struct "main.enumItem" [("name", .str []), ("val", .str [])]) := by kernel_rfl
@[gen_simp] theorem zero_main_unionCaseDecl : genProg.zero "main" (.name "unionCaseDecl") = some (.struct "main.unionCaseDecl" [("cases", .nil), ("body", .nil)]) := by kernel_rfl
@[gen_simp] theorem zero_main_progCall : genProg.zero "main" (.name "progCall") = some (.struct "main.progCall" [("name", .str []), ("arg", .struct "main.typespecOpt" [("isVoid", .bool false), ("t", .nil)]), ("res", .struct "main.typespecOpt" [("isVoid", .bool false), ("t", .nil)]), ("id", .str [])]) := by kernel_rfl
@[gen_simp] theorem zero_main_progVer : genProg.zero "main" (.name "progVer") = some (.struct "main.progVer" [("name", .str []), ("calls", .nil), ("id", .str [])]) := by kernel_rfl
@[gen_simp] theorem zero_main_progDef : genProg.zero "main" (.name "progDef") = some (.struct "main.progDef" [("name", .str []), ("vers", .nil), ("id", .str [])]) := by kernel_rfl
@[gen_simp] theorem zero_main_slice_enumItem : genProg.zero "main" (.slice (.name "enumItem")) = some .nil := by kernel_rfl
@[gen_simp] theorem zero_main_slice_decl : genProg.zero "main" (.slice (.name "decl")) = some .nil := by kernel_rfl
@[gen_simp] theorem zero_main_slice_unionCaseDecl : genProg.zero "main" (.slice (.name "unionCaseDecl")) = some .nil := by kernel_rfl
@[gen_simp] theorem zero_main_slice_string : genProg.zero "main" (.slice (.name "string")) = some .nil := by kernel_rfl
@[gen_simp] theorem zero_main_slice_progCall : genProg.zero "main" (.slice (.name "progCall")) = some .nil := by kernel_rfl
@[gen_simp] theorem zero_main_slice_progVer : genProg.zero "main" (.slice (.name "progVer")) = some .nil := by kernel_rfl
@[gen_simp] theorem import_main_fmt : isImport genProg "main" "fmt" = true := by kernel_rfl
@[gen_simp] theorem pkg_gen_fmt : (genProg.pkg "fmt").isNone = true := by kernel_rfl
@[gen_simp] theorem import_main_strings : isImport genProg "main" "strings" = true := by kernel_rfl
@[gen_simp] theorem pkg_gen_strings : (genProg.pkg "strings").isNone = true := by kernel_rfl
@[gen_simp] theorem isVar_main_out : isVar genProg "main" "out" = true := by kernel_rfl
@[gen_simp] theorem import_main_out : isImport genProg "main" "out" = false := by kernel_rfl
@[gen_simp] theorem isVar_main_tout : isVar genProg "main" "tout" = true := by kernel_rfl
@[gen_simp] theorem import_main_tout : isImport genProg "main" "tout" = false := by kernel_rfl
@[gen_simp] theorem isVar_main_constTypeFlag : isVar genProg "main" "constTypeFlag" = true := by kernel_rfl
@[gen_simp] theorem import_main_constTypeFlag : isImport genProg "main" "constTypeFlag" = false := by kernel_rfl
@[gen_simp] theorem isVar_main_unsignedEnumFlag : isVar genProg "main" "unsignedEnumFlag" = true := by kernel_rfl
@[gen_simp] theorem import_main_unsignedEnumFlag : isImport genProg "main" "unsignedEnumFlag" = false := by kernel_rfl
@[gen_simp] theorem const_main_out : genProg.const "main" "out" = none := by kernel_rfl
@[gen_simp] theorem const_main_tout : genProg.const "main" "tout" = none := by kernel_rfl
@[gen_simp] theorem const_main_constTypeFlag : genProg.const "main" "constTypeFlag" = none := by kernel_rfl
@[gen_simp] theorem const_main_unsignedEnumFlag : genProg.const "main" "unsignedEnumFlag" = none := by kernel_rfl
@[gen_simp] theorem const_main_nil : genProg.const "main" "nil" = none := by kernel_rfl
@[gen_simp] theorem const_main_true : genProg.const "main" "true" = none := by kernel_rfl
@[gen_simp] theorem const_main_false : genProg.const "main" "false" = none := by kernel_rfl
@[gen_simp] theorem str_0 : strBytes "TRUE" = ub t!"TRUE" := by kernel_rfl
@[gen_simp] theorem str_1 : strBytes "FALSE" = ub t!"FALSE" := by kernel_rfl
@[gen_simp] theorem str_2 : strBytes "true" = ub t!"true" := by kernel_rfl
@[gen_simp] theorem str_3 : strBytes "false" = ub t!"false" := by kernel_rfl
@[gen_simp] theorem str_4 : strBytes "&__arraysz" = ub t!"&__arraysz" := by kernel_rfl
@[gen_simp] theorem str_5 : strBytes "" = ub t!"" := by kernel_rfl
@[gen_simp] theorem str_6 : strBytes "[]byte" = ub t!"[]byte" := by kernel_rfl
@[gen_simp] theorem str_7 : strBytes "-1" = ub t!"-1" := by kernel_rfl
@[gen_simp] theorem str_8 : strBytes "string" = ub t!"string" := by kernel_rfl
@[gen_simp] theorem str_9 : strBytes "&opted" = ub t!"&opted" := by kernel_rfl
@[gen_simp] theorem str_10 : strBytes "uint32" = ub t!"uint32" := by kernel_rfl
@[gen_simp] theorem str_11 : strBytes "int32" = ub t!"int32" := by kernel_rfl
@[gen_simp] theorem str_12 : strBytes "uint64" = ub t!"uint64" := by kernel_rfl
@[gen_simp] theorem str_13 : strBytes "int64" = ub t!"int64" := by kernel_rfl
@[gen_simp] theorem str_14 : strBytes "float32" = ub t!"float32" := by kernel_rfl
@[gen_simp] theorem str_15 : strBytes "x" = ub t!"x" := by kernel_rfl
@[gen_simp] theorem str_16 : strBytes "float64" = ub t!"float64" := by kernel_rfl
@[gen_simp] theorem str_17 : strBytes "quadruple" = ub t!"quadruple" := by kernel_rfl
@[gen_simp] theorem str_18 : strBytes "bool" = ub t!"bool" := by kernel_rfl
@[gen_simp] theorem str_19 : strBytes "struct { " = ub t!"struct { " := by kernel_rfl
@[gen_simp] theorem str_20 : strBytes "}" = ub t!"}" := by kernel_rfl
@[gen_simp] theorem str_21 : strBytes "void union switch" = ub t!"void union switch" := by kernel_rfl
@[gen_simp] theorem str_22 : strBytes "fallthrough\n" = ub t!"fallthrough\n" := by kernel_rfl
@[gen_simp] theorem str_23 : strBytes "default:\n" = ub t!"default:\n" := by kernel_rfl
@[gen_simp] theorem str_24 : strBytes "v" = ub t!"v" := by kernel_rfl
@[gen_simp] theorem str_25 : strBytes "&v.P" = ub t!"&v.P" := by kernel_rfl
@[gen_simp] theorem fmt_0 : pieces (strBytes "[%s]%s") = some [ub t!"[", ub t!"]", ub t!""] := by kernel_rfl
@[gen_simp] theorem fmt_1 : pieces (strBytes "for i := 0; i < %s; i++ {\n") = some [ub t!"for i := 0; i < ", ub t!"; i++ {\n"] := by kernel_rfl
@[gen_simp] theorem fmt_2 : pieces (strBytes "%s\n") = some [ub t!"", ub t!"\n"] := by kernel_rfl
@[gen_simp] theorem fmt_3 : pieces (strBytes "&(*(%s)[i])") = some [ub t!"&(*(", ub t!")[i])"] := by kernel_rfl
@[gen_simp] theorem fmt_4 : pieces (strBytes "}\n") = some [ub t!"}\n"] := by kernel_rfl
@[gen_simp] theorem fmt_5 : pieces (strBytes "[]%s") = some [ub t!"[]", ub t!""] := by kernel_rfl
@[gen_simp] theorem fmt_6 : pieces (strBytes "{\n") = some [ub t!"{\n"] := by kernel_rfl
@[gen_simp] theorem fmt_7 : pieces (strBytes "var __arraysz uint32\n") = some [ub t!"var __arraysz uint32\n"] := by kernel_rfl
@[gen_simp] theorem fmt_8 : pieces (strBytes "xs.EncodingSetSize(&__arraysz, len(*%s));\n") = some [ub t!"xs.EncodingSetSize(&__arraysz, len(*", ub t!"));\n"] := by kernel_rfl
@[gen_simp] theorem fmt_9 : pieces (strBytes "if __arraysz > %s { xs.SetError(\"array too large\") } else {\n") = some [ub t!"if __arraysz > ", ub t!" { xs.SetError(\"array too large\") } else {\n"] := by kernel_rfl
@[gen_simp] theorem fmt_10 : pieces (strBytes "if xs.Decoding() { *%s = make([]%s, __arraysz); }\n") = some [ub t!"if xs.Decoding() { *", ub t!" = make([]", ub t!", __arraysz); }\n"] := by kernel_rfl
@[gen_simp] theorem fmt_11 : pieces (strBytes "for i := uint64(0); i < uint64(__arraysz); i++ {\n") = some [ub t!"for i := uint64(0); i < uint64(__arraysz); i++ {\n"] := by kernel_rfl
@[gen_simp] theorem fmt_12 : pieces (strBytes "&((*(%s))[i])") = some [ub t!"&((*(", ub t!"))[i])"] := by kernel_rfl
@[gen_simp] theorem fmt_13 : pieces (strBytes "[%s]byte") = some [ub t!"[", ub t!"]byte"] := by kernel_rfl
@[gen_simp] theorem fmt_14 : pieces (strBytes "xdr.XdrArray(xs, (*%s)[:]);\n") = some [ub t!"xdr.XdrArray(xs, (*", ub t!")[:]);\n"] := by kernel_rfl
@[gen_simp] theorem fmt_15 : pieces (strBytes "xdr.XdrVarArray(xs, int(%s), (*[]byte)(%s));\n") = some [ub t!"xdr.XdrVarArray(xs, int(", ub t!"), (*[]byte)(", ub t!"));\n"] := by kernel_rfl
@[gen_simp] theorem fmt_16 : pieces (strBytes "xdr.XdrString(xs, int(%s), (*string)(%s));\n") = some [ub t!"xdr.XdrString(xs, int(", ub t!"), (*string)(", ub t!"));\n"] := by kernel_rfl
@[gen_simp] theorem fmt_17 : pieces (strBytes "*%s") = some [ub t!"*", ub t!""] := by kernel_rfl
@[gen_simp] theorem fmt_18 : pieces (strBytes "if xs.Encoding() {\n") = some [ub t!"if xs.Encoding() {\n"] := by kernel_rfl
@[gen_simp] theorem fmt_19 : pieces (strBytes "opted := *(%s) != nil\n") = some [ub t!"opted := *(", ub t!") != nil\n"] := by kernel_rfl
@[gen_simp] theorem fmt_20 : pieces (strBytes "if opted {\n") = some [ub t!"if opted {\n"] := by kernel_rfl
@[gen_simp] theorem fmt_21 : pieces (strBytes "*(%s)") = some [ub t!"*(", ub t!")"] := by kernel_rfl
@[gen_simp] theorem fmt_22 : pieces (strBytes "if xs.Decoding() {\n") = some [ub t!"if xs.Decoding() {\n"] := by kernel_rfl
@[gen_simp] theorem fmt_23 : pieces (strBytes "var opted bool\n") = some [ub t!"var opted bool\n"] := by kernel_rfl
@[gen_simp] theorem fmt_24 : pieces (strBytes "*(%s) = new(%s)\n") = some [ub t!"*(", ub t!") = new(", ub t!")\n"] := by kernel_rfl
@[gen_simp] theorem fmt_25 : pieces (strBytes "xdr.XdrU32(xs, (*uint32)(%s));\n") = some [ub t!"xdr.XdrU32(xs, (*uint32)(", ub t!"));\n"] := by kernel_rfl
@[gen_simp] theorem fmt_26 : pieces (strBytes "xdr.XdrS32(xs, (*int32)(%s));\n") = some [ub t!"xdr.XdrS32(xs, (*int32)(", ub t!"));\n"] := by kernel_rfl
@[gen_simp] theorem fmt_27 : pieces (strBytes "xdr.XdrU64(xs, (*uint64)(%s));\n") = some [ub t!"xdr.XdrU64(xs, (*uint64)(", ub t!"));\n"] := by kernel_rfl
@[gen_simp] theorem fmt_28 : pieces (strBytes "xdr.XdrS64(xs, (*int64)(%s));\n") = some [ub t!"xdr.XdrS64(xs, (*int64)(", ub t!"));\n"] := by kernel_rfl
@[gen_simp] theorem fmt_29 : pieces (strBytes "xdr.XdrBool(xs, (*bool)(%s));\n") = some [ub t!"xdr.XdrBool(xs, (*bool)(", ub t!"));\n"] := by kernel_rfl
@[gen_simp] theorem fmt_30 : pieces (strBytes "%s %s;") = some [ub t!"", ub t!" ", ub t!";"] := by kernel_rfl
@[gen_simp] theorem fmt_31 : pieces (strBytes "&((%s).%s)") = some [ub t!"&((", ub t!").", ub t!")"] := by kernel_rfl
@[gen_simp] theorem fmt_32 : pieces (strBytes "(%s).%s") = some [ub t!"(", ub t!").", ub t!""] := by kernel_rfl
@[gen_simp] theorem fmt_33 : pieces (strBytes "&(%s)") = some [ub t!"&(", ub t!")"] := by kernel_rfl
@[gen_simp] theorem fmt_34 : pieces (strBytes "switch %s {\n") = some [ub t!"switch ", ub t!" {\n"] := by kernel_rfl
@[gen_simp] theorem fmt_35 : pieces (strBytes "case %s:\n") = some [ub t!"case ", ub t!":\n"] := by kernel_rfl
@[gen_simp] theorem fmt_36 : pieces (strBytes "(*%s)(%s).Xdr(xs);\n") = some [ub t!"(*", ub t!")(", ub t!").Xdr(xs);\n"] := by kernel_rfl
@[gen_simp] theorem fmt_37 : pieces (strBytes "const %s uint32 = %s\n") = some [ub t!"const ", ub t!" uint32 = ", ub t!"\n"] := by kernel_rfl
@[gen_simp] theorem fmt_38 : pieces (strBytes "type %s_%s_handler interface {\n") = some [ub t!"type ", ub t!"_", ub t!"_handler interface {\n"] := by kernel_rfl
@[gen_simp] theorem fmt_39 : pieces (strBytes "%s(%s) %s\n") = some [ub t!"", ub t!"(", ub t!") ", ub t!"\n"] := by kernel_rfl
@[gen_simp] theorem fmt_40 : pieces (strBytes "type %s_%s_handler_wrapper struct {\n") = some [ub t!"type ", ub t!"_", ub t!"_handler_wrapper struct {\n"] := by kernel_rfl
@[gen_simp] theorem fmt_41 : pieces (strBytes "h %s_%s_handler\n") = some [ub t!"h ", ub t!"_", ub t!"_handler\n"] := by kernel_rfl
@[gen_simp] theorem fmt_42 : pieces (strBytes "func (w *%s_%s_handler_wrapper) %s(args *xdr.XdrState) (res xdr.Xdrable, err error) {\n") = some [ub t!"func (w *", ub t!"_", ub t!"_handler_wrapper) ", ub t!"(args *xdr.XdrState) (res xdr.Xdrable, err error) {\n"] := by kernel_rfl
@[gen_simp] theorem fmt_43 : pieces (strBytes "var in %s\n") = some [ub t!"var in ", ub t!"\n"] := by kernel_rfl
@[gen_simp] theorem fmt_44 : pieces (strBytes "in.Xdr(args)\n") = some [ub t!"in.Xdr(args)\n"] := by kernel_rfl
@[gen_simp] theorem fmt_45 : pieces (strBytes "err = args.Error()\n") = some [ub t!"err = args.Error()\n"] := by kernel_rfl
@[gen_simp] theorem fmt_46 : pieces (strBytes "if err != nil { return }\n") = some [ub t!"if err != nil { return }\n"] := by kernel_rfl
@[gen_simp] theorem fmt_47 : pieces (strBytes "var out %s\n") = some [ub t!"var out ", ub t!"\n"] := by kernel_rfl
@[gen_simp] theorem fmt_48 : pieces (strBytes "var out xdr.Void\n") = some [ub t!"var out xdr.Void\n"] := by kernel_rfl
@[gen_simp] theorem fmt_49 : pieces (strBytes "out = ") = some [ub t!"out = "] := by kernel_rfl
@[gen_simp] theorem fmt_50 : pieces (strBytes "w.h.%s(") = some [ub t!"w.h.", ub t!"("] := by kernel_rfl
@[gen_simp] theorem fmt_51 : pieces (strBytes "in") = some [ub t!"in"] := by kernel_rfl
@[gen_simp] theorem fmt_52 : pieces (strBytes ")\n") = some [ub t!")\n"] := by kernel_rfl
@[gen_simp] theorem fmt_53 : pieces (strBytes "return &out, nil") = some [ub t!"return &out, nil"] := by kernel_rfl
@[gen_simp] theorem fmt_54 : pieces (strBytes "func %s_%s_regs(h %s_%s_handler) []xdr.ProcRegistration {\n") = some [ub t!"func ", ub t!"_", ub t!"_regs(h ", ub t!"_", ub t!"_handler) []xdr.ProcRegistration {\n"] := by kernel_rfl
@[gen_simp] theorem fmt_55 : pieces (strBytes "w := &%s_%s_handler_wrapper{h}\n") = some [ub t!"w := &", ub t!"_", ub t!"_handler_wrapper{h}\n"] := by kernel_rfl
@[gen_simp] theorem fmt_56 : pieces (strBytes "return []xdr.ProcRegistration{\n") = some [ub t!"return []xdr.ProcRegistration{\n"] := by kernel_rfl
@[gen_simp] theorem fmt_57 : pieces (strBytes "xdr.ProcRegistration{\n") = some [ub t!"xdr.ProcRegistration{\n"] := by kernel_rfl
@[gen_simp] theorem fmt_58 : pieces (strBytes "Prog: %s,\n") = some [ub t!"Prog: ", ub t!",\n"] := by kernel_rfl
@[gen_simp] theorem fmt_59 : pieces (strBytes "Vers: %s,\n") = some [ub t!"Vers: ", ub t!",\n"] := by kernel_rfl
@[gen_simp] theorem fmt_60 : pieces (strBytes "Proc: %s,\n") = some [ub t!"Proc: ", ub t!",\n"] := by kernel_rfl
@[gen_simp] theorem fmt_61 : pieces (strBytes "Handler: w.%s,\n") = some [ub t!"Handler: w.", ub t!",\n"] := by kernel_rfl
@[gen_simp] theorem fmt_62 : pieces (strBytes "},\n") = some [ub t!"},\n"] := by kernel_rfl
@[gen_simp] theorem fmt_63 : pieces (strBytes "const %s %s = %s\n") = some [ub t!"const ", ub t!" ", ub t!" = ", ub t!"\n"] := by kernel_rfl
@[gen_simp] theorem fmt_64 : pieces (strBytes "struct { P %s }") = some [ub t!"struct { P ", ub t!" }"] := by kernel_rfl
@[gen_simp] theorem fmt_65 : pieces (strBytes "type %s %s\n") = some [ub t!"type ", ub t!" ", ub t!"\n"] := by kernel_rfl
@[gen_simp] theorem fmt_66 : pieces (strBytes "func (v *%s) Xdr(xs *xdr.XdrState) {\n") = some [ub t!"func (v *", ub t!") Xdr(xs *xdr.XdrState) {\n"] := by kernel_rfl
@[gen_simp] theorem fmt_67 : pieces (strBytes "%s") = some [ub t!"", ub t!""] := by kernel_rfl
@[gen_simp] theorem fmt_68 : pieces (strBytes "type %s struct {\n") = some [ub t!"type ", ub t!" struct {\n"] := by kernel_rfl
@[gen_simp] theorem fmt_69 : pieces (strBytes "  %s %s;\n") = some [ub t!"  ", ub t!" ", ub t!";\n"] := by kernel_rfl

end Verif.Lang
