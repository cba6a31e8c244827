/-
What the names used in the files stand for.  Written by tools/mkfacts.py; every line is checked by the kernel.
-/
import Verif.Lang.Prog
import Verif.Lang.Read

namespace Verif.Lang

theorem find_lib_MakeReader {Ps : Prog} : Prog.find (xdrPkg :: Ps) (.fn "xdr" "MakeReader") = some ("xdr", lib_MakeReader) := by kernel_rfl
theorem find_lib_MakeWriter {Ps : Prog} : Prog.find (xdrPkg :: Ps) (.fn "xdr" "MakeWriter") = some ("xdr", lib_MakeWriter) := by kernel_rfl
theorem find_lib_XdrState_WriteBuf {Ps : Prog} : Prog.find (xdrPkg :: Ps) (.meth "xdr.XdrState" "WriteBuf") = some ("xdr", lib_XdrState_WriteBuf) := by kernel_rfl
theorem byval_lib_XdrState_WriteBuf {Ps : Prog} : byValue (xdrPkg :: Ps) "xdr.XdrState" "WriteBuf" = false := by kernel_rfl
theorem find_lib_XdrState_EncodingSetSize {Ps : Prog} : Prog.find (xdrPkg :: Ps) (.meth "xdr.XdrState" "EncodingSetSize") = some ("xdr", lib_XdrState_EncodingSetSize) := by kernel_rfl
theorem byval_lib_XdrState_EncodingSetSize {Ps : Prog} : byValue (xdrPkg :: Ps) "xdr.XdrState" "EncodingSetSize" = false := by kernel_rfl
theorem find_lib_XdrState_Encoding {Ps : Prog} : Prog.find (xdrPkg :: Ps) (.meth "xdr.XdrState" "Encoding") = some ("xdr", lib_XdrState_Encoding) := by kernel_rfl
theorem byval_lib_XdrState_Encoding {Ps : Prog} : byValue (xdrPkg :: Ps) "xdr.XdrState" "Encoding" = false := by kernel_rfl
theorem find_lib_XdrState_Decoding {Ps : Prog} : Prog.find (xdrPkg :: Ps) (.meth "xdr.XdrState" "Decoding") = some ("xdr", lib_XdrState_Decoding) := by kernel_rfl
theorem byval_lib_XdrState_Decoding {Ps : Prog} : byValue (xdrPkg :: Ps) "xdr.XdrState" "Decoding" = false := by kernel_rfl
theorem find_lib_XdrState_SetError {Ps : Prog} : Prog.find (xdrPkg :: Ps) (.meth "xdr.XdrState" "SetError") = some ("xdr", lib_XdrState_SetError) := by kernel_rfl
theorem byval_lib_XdrState_SetError {Ps : Prog} : byValue (xdrPkg :: Ps) "xdr.XdrState" "SetError" = false := by kernel_rfl
theorem find_lib_XdrState_Error {Ps : Prog} : Prog.find (xdrPkg :: Ps) (.meth "xdr.XdrState" "Error") = some ("xdr", lib_XdrState_Error) := by kernel_rfl
theorem byval_lib_XdrState_Error {Ps : Prog} : byValue (xdrPkg :: Ps) "xdr.XdrState" "Error" = false := by kernel_rfl
theorem find_lib_xdrRW {Ps : Prog} : Prog.find (xdrPkg :: Ps) (.fn "xdr" "xdrRW") = some ("xdr", lib_xdrRW) := by kernel_rfl
theorem find_lib_xdrR {Ps : Prog} : Prog.find (xdrPkg :: Ps) (.fn "xdr" "xdrR") = some ("xdr", lib_xdrR) := by kernel_rfl
theorem find_lib_XdrBool {Ps : Prog} : Prog.find (xdrPkg :: Ps) (.fn "xdr" "XdrBool") = some ("xdr", lib_XdrBool) := by kernel_rfl
theorem find_lib_XdrS32 {Ps : Prog} : Prog.find (xdrPkg :: Ps) (.fn "xdr" "XdrS32") = some ("xdr", lib_XdrS32) := by kernel_rfl
theorem find_lib_XdrU32 {Ps : Prog} : Prog.find (xdrPkg :: Ps) (.fn "xdr" "XdrU32") = some ("xdr", lib_XdrU32) := by kernel_rfl
theorem find_lib_XdrS64 {Ps : Prog} : Prog.find (xdrPkg :: Ps) (.fn "xdr" "XdrS64") = some ("xdr", lib_XdrS64) := by kernel_rfl
theorem find_lib_XdrU64 {Ps : Prog} : Prog.find (xdrPkg :: Ps) (.fn "xdr" "XdrU64") = some ("xdr", lib_XdrU64) := by kernel_rfl
theorem find_lib_XdrVarArray {Ps : Prog} : Prog.find (xdrPkg :: Ps) (.fn "xdr" "XdrVarArray") = some ("xdr", lib_XdrVarArray) := by kernel_rfl
theorem find_lib_XdrArray {Ps : Prog} : Prog.find (xdrPkg :: Ps) (.fn "xdr" "XdrArray") = some ("xdr", lib_XdrArray) := by kernel_rfl
theorem find_lib_XdrString {Ps : Prog} : Prog.find (xdrPkg :: Ps) (.fn "xdr" "XdrString") = some ("xdr", lib_XdrString) := by kernel_rfl
theorem find_helper_EncodeBuf {Ps : Prog} : Prog.find (xdrPkg :: Ps) (.fn "xdr" "EncodeBuf") = some ("xdr", helper_EncodeBuf) := by kernel_rfl
theorem find_helper_DecodeBuf {Ps : Prog} : Prog.find (xdrPkg :: Ps) (.fn "xdr" "DecodeBuf") = some ("xdr", helper_DecodeBuf) := by kernel_rfl
theorem find_types_Bool_Xdr {Ps : Prog} : Prog.find (xdrPkg :: Ps) (.meth "xdr.Bool" "Xdr") = some ("xdr", types_Bool_Xdr) := by kernel_rfl
theorem byval_types_Bool_Xdr {Ps : Prog} : byValue (xdrPkg :: Ps) "xdr.Bool" "Xdr" = false := by kernel_rfl
theorem find_types_Uint32_Xdr {Ps : Prog} : Prog.find (xdrPkg :: Ps) (.meth "xdr.Uint32" "Xdr") = some ("xdr", types_Uint32_Xdr) := by kernel_rfl
theorem byval_types_Uint32_Xdr {Ps : Prog} : byValue (xdrPkg :: Ps) "xdr.Uint32" "Xdr" = false := by kernel_rfl
theorem find_types_Int32_Xdr {Ps : Prog} : Prog.find (xdrPkg :: Ps) (.meth "xdr.Int32" "Xdr") = some ("xdr", types_Int32_Xdr) := by kernel_rfl
theorem byval_types_Int32_Xdr {Ps : Prog} : byValue (xdrPkg :: Ps) "xdr.Int32" "Xdr" = false := by kernel_rfl
theorem find_types_Uint64_Xdr {Ps : Prog} : Prog.find (xdrPkg :: Ps) (.meth "xdr.Uint64" "Xdr") = some ("xdr", types_Uint64_Xdr) := by kernel_rfl
theorem byval_types_Uint64_Xdr {Ps : Prog} : byValue (xdrPkg :: Ps) "xdr.Uint64" "Xdr" = false := by kernel_rfl
theorem find_types_Int64_Xdr {Ps : Prog} : Prog.find (xdrPkg :: Ps) (.meth "xdr.Int64" "Xdr") = some ("xdr", types_Int64_Xdr) := by kernel_rfl
theorem byval_types_Int64_Xdr {Ps : Prog} : byValue (xdrPkg :: Ps) "xdr.Int64" "Xdr" = false := by kernel_rfl
theorem find_types_Void_Xdr {Ps : Prog} : Prog.find (xdrPkg :: Ps) (.meth "xdr.Void" "Xdr") = some ("xdr", types_Void_Xdr) := by kernel_rfl
theorem byval_types_Void_Xdr {Ps : Prog} : byValue (xdrPkg :: Ps) "xdr.Void" "Xdr" = false := by kernel_rfl
theorem find_client_MakeClient [Others] : goProg.find (.fn "rfc1057" "MakeClient") = some ("rfc1057", client_MakeClient) := by kernel_rfl
theorem find_client_Client_Call [Others] : goProg.find (.meth "rfc1057.Client" "Call") = some ("rfc1057", client_Client_Call) := by kernel_rfl
theorem byval_client_Client_Call [Others] : byValue goProg "rfc1057.Client" "Call" = false := by kernel_rfl
theorem find_server_getReqBuf [Others] : goProg.find (.fn "rfc1057" "getReqBuf") = some ("rfc1057", server_getReqBuf) := by kernel_rfl
theorem find_server_putReqBuf [Others] : goProg.find (.fn "rfc1057" "putReqBuf") = some ("rfc1057", server_putReqBuf) := by kernel_rfl
theorem find_server_MakeServer [Others] : goProg.find (.fn "rfc1057" "MakeServer") = some ("rfc1057", server_MakeServer) := by kernel_rfl
theorem find_server_Server_Register [Others] : goProg.find (.meth "rfc1057.Server" "Register") = some ("rfc1057", server_Server_Register) := by kernel_rfl
theorem byval_server_Server_Register [Others] : byValue goProg "rfc1057.Server" "Register" = false := by kernel_rfl
theorem find_server_Server_RegisterMany [Others] : goProg.find (.meth "rfc1057.Server" "RegisterMany") = some ("rfc1057", server_Server_RegisterMany) := by kernel_rfl
theorem byval_server_Server_RegisterMany [Others] : byValue goProg "rfc1057.Server" "RegisterMany" = false := by kernel_rfl
theorem find_server_Server_Run [Others] : goProg.find (.meth "rfc1057.Server" "Run") = some ("rfc1057", server_Server_Run) := by kernel_rfl
theorem byval_server_Server_Run [Others] : byValue goProg "rfc1057.Server" "Run" = false := by kernel_rfl
theorem find_server_serverConn_handleReq [Others] : goProg.find (.meth "rfc1057.serverConn" "handleReq") = some ("rfc1057", server_serverConn_handleReq) := by kernel_rfl
theorem byval_server_serverConn_handleReq [Others] : byValue goProg "rfc1057.serverConn" "handleReq" = false := by kernel_rfl
theorem find_server_serverConn_handleReqErr [Others] : goProg.find (.meth "rfc1057.serverConn" "handleReqErr") = some ("rfc1057", server_serverConn_handleReqErr) := by kernel_rfl
theorem byval_server_serverConn_handleReqErr [Others] : byValue goProg "rfc1057.serverConn" "handleReqErr" = false := by kernel_rfl
theorem find_rpcXdr_Auth_flavor_Xdr [Others] : goProg.find (.meth "rfc1057.Auth_flavor" "Xdr") = some ("rfc1057", rpcXdr_Auth_flavor_Xdr) := by kernel_rfl
theorem byval_rpcXdr_Auth_flavor_Xdr [Others] : byValue goProg "rfc1057.Auth_flavor" "Xdr" = false := by kernel_rfl
theorem find_rpcXdr_Opaque_auth_Xdr [Others] : goProg.find (.meth "rfc1057.Opaque_auth" "Xdr") = some ("rfc1057", rpcXdr_Opaque_auth_Xdr) := by kernel_rfl
theorem byval_rpcXdr_Opaque_auth_Xdr [Others] : byValue goProg "rfc1057.Opaque_auth" "Xdr" = false := by kernel_rfl
theorem find_rpcXdr_Msg_type_Xdr [Others] : goProg.find (.meth "rfc1057.Msg_type" "Xdr") = some ("rfc1057", rpcXdr_Msg_type_Xdr) := by kernel_rfl
theorem byval_rpcXdr_Msg_type_Xdr [Others] : byValue goProg "rfc1057.Msg_type" "Xdr" = false := by kernel_rfl
theorem find_rpcXdr_Reply_stat_Xdr [Others] : goProg.find (.meth "rfc1057.Reply_stat" "Xdr") = some ("rfc1057", rpcXdr_Reply_stat_Xdr) := by kernel_rfl
theorem byval_rpcXdr_Reply_stat_Xdr [Others] : byValue goProg "rfc1057.Reply_stat" "Xdr" = false := by kernel_rfl
theorem find_rpcXdr_Accept_stat_Xdr [Others] : goProg.find (.meth "rfc1057.Accept_stat" "Xdr") = some ("rfc1057", rpcXdr_Accept_stat_Xdr) := by kernel_rfl
theorem byval_rpcXdr_Accept_stat_Xdr [Others] : byValue goProg "rfc1057.Accept_stat" "Xdr" = false := by kernel_rfl
theorem find_rpcXdr_Reject_stat_Xdr [Others] : goProg.find (.meth "rfc1057.Reject_stat" "Xdr") = some ("rfc1057", rpcXdr_Reject_stat_Xdr) := by kernel_rfl
theorem byval_rpcXdr_Reject_stat_Xdr [Others] : byValue goProg "rfc1057.Reject_stat" "Xdr" = false := by kernel_rfl
theorem find_rpcXdr_Auth_stat_Xdr [Others] : goProg.find (.meth "rfc1057.Auth_stat" "Xdr") = some ("rfc1057", rpcXdr_Auth_stat_Xdr) := by kernel_rfl
theorem byval_rpcXdr_Auth_stat_Xdr [Others] : byValue goProg "rfc1057.Auth_stat" "Xdr" = false := by kernel_rfl
theorem find_rpcXdr_Rpc_msg_Xdr [Others] : goProg.find (.meth "rfc1057.Rpc_msg" "Xdr") = some ("rfc1057", rpcXdr_Rpc_msg_Xdr) := by kernel_rfl
theorem byval_rpcXdr_Rpc_msg_Xdr [Others] : byValue goProg "rfc1057.Rpc_msg" "Xdr" = false := by kernel_rfl
theorem find_rpcXdr_Call_body_Xdr [Others] : goProg.find (.meth "rfc1057.Call_body" "Xdr") = some ("rfc1057", rpcXdr_Call_body_Xdr) := by kernel_rfl
theorem byval_rpcXdr_Call_body_Xdr [Others] : byValue goProg "rfc1057.Call_body" "Xdr" = false := by kernel_rfl
theorem find_rpcXdr_Reply_body_Xdr [Others] : goProg.find (.meth "rfc1057.Reply_body" "Xdr") = some ("rfc1057", rpcXdr_Reply_body_Xdr) := by kernel_rfl
theorem byval_rpcXdr_Reply_body_Xdr [Others] : byValue goProg "rfc1057.Reply_body" "Xdr" = false := by kernel_rfl
theorem find_rpcXdr_Accepted_reply_Xdr [Others] : goProg.find (.meth "rfc1057.Accepted_reply" "Xdr") = some ("rfc1057", rpcXdr_Accepted_reply_Xdr) := by kernel_rfl
theorem byval_rpcXdr_Accepted_reply_Xdr [Others] : byValue goProg "rfc1057.Accepted_reply" "Xdr" = false := by kernel_rfl
theorem find_rpcXdr_Rejected_reply_Xdr [Others] : goProg.find (.meth "rfc1057.Rejected_reply" "Xdr") = some ("rfc1057", rpcXdr_Rejected_reply_Xdr) := by kernel_rfl
theorem byval_rpcXdr_Rejected_reply_Xdr [Others] : byValue goProg "rfc1057.Rejected_reply" "Xdr" = false := by kernel_rfl
theorem find_rpcXdr_Auth_unix_Xdr [Others] : goProg.find (.meth "rfc1057.Auth_unix" "Xdr") = some ("rfc1057", rpcXdr_Auth_unix_Xdr) := by kernel_rfl
theorem byval_rpcXdr_Auth_unix_Xdr [Others] : byValue goProg "rfc1057.Auth_unix" "Xdr" = false := by kernel_rfl
theorem find_rpcXdr_Mapping_Xdr [Others] : goProg.find (.meth "rfc1057.Mapping" "Xdr") = some ("rfc1057", rpcXdr_Mapping_Xdr) := by kernel_rfl
theorem byval_rpcXdr_Mapping_Xdr [Others] : byValue goProg "rfc1057.Mapping" "Xdr" = false := by kernel_rfl
theorem find_rpcXdr_Pmaplist_Xdr [Others] : goProg.find (.meth "rfc1057.Pmaplist" "Xdr") = some ("rfc1057", rpcXdr_Pmaplist_Xdr) := by kernel_rfl
theorem byval_rpcXdr_Pmaplist_Xdr [Others] : byValue goProg "rfc1057.Pmaplist" "Xdr" = false := by kernel_rfl
theorem find_rpcXdr_Pmaplistelem_Xdr [Others] : goProg.find (.meth "rfc1057.Pmaplistelem" "Xdr") = some ("rfc1057", rpcXdr_Pmaplistelem_Xdr) := by kernel_rfl
theorem byval_rpcXdr_Pmaplistelem_Xdr [Others] : byValue goProg "rfc1057.Pmaplistelem" "Xdr" = false := by kernel_rfl
theorem find_rpcXdr_Call_args_Xdr [Others] : goProg.find (.meth "rfc1057.Call_args" "Xdr") = some ("rfc1057", rpcXdr_Call_args_Xdr) := by kernel_rfl
theorem byval_rpcXdr_Call_args_Xdr [Others] : byValue goProg "rfc1057.Call_args" "Xdr" = false := by kernel_rfl
theorem find_rpcXdr_Call_result_Xdr [Others] : goProg.find (.meth "rfc1057.Call_result" "Xdr") = some ("rfc1057", rpcXdr_Call_result_Xdr) := by kernel_rfl
theorem byval_rpcXdr_Call_result_Xdr [Others] : byValue goProg "rfc1057.Call_result" "Xdr" = false := by kernel_rfl
theorem find_rpcXdr_Uint32_Xdr [Others] : goProg.find (.meth "rfc1057.Uint32" "Xdr") = some ("rfc1057", rpcXdr_Uint32_Xdr) := by kernel_rfl
theorem byval_rpcXdr_Uint32_Xdr [Others] : byValue goProg "rfc1057.Uint32" "Xdr" = false := by kernel_rfl
theorem find_rpcXdr_Xbool_Xdr [Others] : goProg.find (.meth "rfc1057.Xbool" "Xdr") = some ("rfc1057", rpcXdr_Xbool_Xdr) := by kernel_rfl
theorem byval_rpcXdr_Xbool_Xdr [Others] : byValue goProg "rfc1057.Xbool" "Xdr" = false := by kernel_rfl
theorem find_rpcXdr_PMAP_PROG_PMAP_VERS_handler_wrapper_PMAPPROC_NULL [Others] : goProg.find (.meth "rfc1057.PMAP_PROG_PMAP_VERS_handler_wrapper" "PMAPPROC_NULL") = some ("rfc1057", rpcXdr_PMAP_PROG_PMAP_VERS_handler_wrapper_PMAPPROC_NULL) := by kernel_rfl
theorem byval_rpcXdr_PMAP_PROG_PMAP_VERS_handler_wrapper_PMAPPROC_NULL [Others] : byValue goProg "rfc1057.PMAP_PROG_PMAP_VERS_handler_wrapper" "PMAPPROC_NULL" = false := by kernel_rfl
theorem find_rpcXdr_PMAP_PROG_PMAP_VERS_handler_wrapper_PMAPPROC_SET [Others] : goProg.find (.meth "rfc1057.PMAP_PROG_PMAP_VERS_handler_wrapper" "PMAPPROC_SET") = some ("rfc1057", rpcXdr_PMAP_PROG_PMAP_VERS_handler_wrapper_PMAPPROC_SET) := by kernel_rfl
theorem byval_rpcXdr_PMAP_PROG_PMAP_VERS_handler_wrapper_PMAPPROC_SET [Others] : byValue goProg "rfc1057.PMAP_PROG_PMAP_VERS_handler_wrapper" "PMAPPROC_SET" = false := by kernel_rfl
theorem find_rpcXdr_PMAP_PROG_PMAP_VERS_handler_wrapper_PMAPPROC_UNSET [Others] : goProg.find (.meth "rfc1057.PMAP_PROG_PMAP_VERS_handler_wrapper" "PMAPPROC_UNSET") = some ("rfc1057", rpcXdr_PMAP_PROG_PMAP_VERS_handler_wrapper_PMAPPROC_UNSET) := by kernel_rfl
theorem byval_rpcXdr_PMAP_PROG_PMAP_VERS_handler_wrapper_PMAPPROC_UNSET [Others] : byValue goProg "rfc1057.PMAP_PROG_PMAP_VERS_handler_wrapper" "PMAPPROC_UNSET" = false := by kernel_rfl
theorem find_rpcXdr_PMAP_PROG_PMAP_VERS_handler_wrapper_PMAPPROC_GETPORT [Others] : goProg.find (.meth "rfc1057.PMAP_PROG_PMAP_VERS_handler_wrapper" "PMAPPROC_GETPORT") = some ("rfc1057", rpcXdr_PMAP_PROG_PMAP_VERS_handler_wrapper_PMAPPROC_GETPORT) := by kernel_rfl
theorem byval_rpcXdr_PMAP_PROG_PMAP_VERS_handler_wrapper_PMAPPROC_GETPORT [Others] : byValue goProg "rfc1057.PMAP_PROG_PMAP_VERS_handler_wrapper" "PMAPPROC_GETPORT" = false := by kernel_rfl
theorem find_rpcXdr_PMAP_PROG_PMAP_VERS_handler_wrapper_PMAPPROC_DUMP [Others] : goProg.find (.meth "rfc1057.PMAP_PROG_PMAP_VERS_handler_wrapper" "PMAPPROC_DUMP") = some ("rfc1057", rpcXdr_PMAP_PROG_PMAP_VERS_handler_wrapper_PMAPPROC_DUMP) := by kernel_rfl
theorem byval_rpcXdr_PMAP_PROG_PMAP_VERS_handler_wrapper_PMAPPROC_DUMP [Others] : byValue goProg "rfc1057.PMAP_PROG_PMAP_VERS_handler_wrapper" "PMAPPROC_DUMP" = false := by kernel_rfl
theorem find_rpcXdr_PMAP_PROG_PMAP_VERS_handler_wrapper_PMAPPROC_CALLIT [Others] : goProg.find (.meth "rfc1057.PMAP_PROG_PMAP_VERS_handler_wrapper" "PMAPPROC_CALLIT") = some ("rfc1057", rpcXdr_PMAP_PROG_PMAP_VERS_handler_wrapper_PMAPPROC_CALLIT) := by kernel_rfl
theorem byval_rpcXdr_PMAP_PROG_PMAP_VERS_handler_wrapper_PMAPPROC_CALLIT [Others] : byValue goProg "rfc1057.PMAP_PROG_PMAP_VERS_handler_wrapper" "PMAPPROC_CALLIT" = false := by kernel_rfl
theorem find_rpcXdr_PMAP_PROG_PMAP_VERS_regs [Others] : goProg.find (.fn "rfc1057" "PMAP_PROG_PMAP_VERS_regs") = some ("rfc1057", rpcXdr_PMAP_PROG_PMAP_VERS_regs) := by kernel_rfl
theorem const_xdr_nil {Ps : Prog} : Prog.const (xdrPkg :: Ps) "xdr" "nil" = none := by kernel_rfl
theorem const_xdr_true {Ps : Prog} : Prog.const (xdrPkg :: Ps) "xdr" "true" = none := by kernel_rfl
theorem const_xdr_false {Ps : Prog} : Prog.const (xdrPkg :: Ps) "xdr" "false" = none := by kernel_rfl
theorem const_rfc1057_nil [Others] : goProg.const "rfc1057" "nil" = none := by kernel_rfl
theorem const_rfc1057_true [Others] : goProg.const "rfc1057" "true" = none := by kernel_rfl
theorem const_rfc1057_false [Others] : goProg.const "rfc1057" "false" = none := by kernel_rfl
theorem const_rfc1057_AUTH_NONE [Others] : goProg.const "rfc1057" "AUTH_NONE" = some (.u32 0) := by kernel_rfl
theorem const_rfc1057_AUTH_UNIX [Others] : goProg.const "rfc1057" "AUTH_UNIX" = some (.u32 1) := by kernel_rfl
theorem const_rfc1057_AUTH_SHORT [Others] : goProg.const "rfc1057" "AUTH_SHORT" = some (.u32 2) := by kernel_rfl
theorem const_rfc1057_AUTH_DES [Others] : goProg.const "rfc1057" "AUTH_DES" = some (.u32 3) := by kernel_rfl
theorem const_rfc1057_CALL [Others] : goProg.const "rfc1057" "CALL" = some (.u32 0) := by kernel_rfl
theorem const_rfc1057_REPLY [Others] : goProg.const "rfc1057" "REPLY" = some (.u32 1) := by kernel_rfl
theorem const_rfc1057_MSG_ACCEPTED [Others] : goProg.const "rfc1057" "MSG_ACCEPTED" = some (.u32 0) := by kernel_rfl
theorem const_rfc1057_MSG_DENIED [Others] : goProg.const "rfc1057" "MSG_DENIED" = some (.u32 1) := by kernel_rfl
theorem const_rfc1057_SUCCESS [Others] : goProg.const "rfc1057" "SUCCESS" = some (.u32 0) := by kernel_rfl
theorem const_rfc1057_PROG_UNAVAIL [Others] : goProg.const "rfc1057" "PROG_UNAVAIL" = some (.u32 1) := by kernel_rfl
theorem const_rfc1057_PROG_MISMATCH [Others] : goProg.const "rfc1057" "PROG_MISMATCH" = some (.u32 2) := by kernel_rfl
theorem const_rfc1057_PROC_UNAVAIL [Others] : goProg.const "rfc1057" "PROC_UNAVAIL" = some (.u32 3) := by kernel_rfl
theorem const_rfc1057_GARBAGE_ARGS [Others] : goProg.const "rfc1057" "GARBAGE_ARGS" = some (.u32 4) := by kernel_rfl
theorem const_rfc1057_RPC_MISMATCH [Others] : goProg.const "rfc1057" "RPC_MISMATCH" = some (.u32 0) := by kernel_rfl
theorem const_rfc1057_AUTH_ERROR [Others] : goProg.const "rfc1057" "AUTH_ERROR" = some (.u32 1) := by kernel_rfl
theorem const_rfc1057_AUTH_BADCRED [Others] : goProg.const "rfc1057" "AUTH_BADCRED" = some (.u32 1) := by kernel_rfl
theorem const_rfc1057_AUTH_REJECTEDCRED [Others] : goProg.const "rfc1057" "AUTH_REJECTEDCRED" = some (.u32 2) := by kernel_rfl
theorem const_rfc1057_AUTH_BADVERF [Others] : goProg.const "rfc1057" "AUTH_BADVERF" = some (.u32 3) := by kernel_rfl
theorem const_rfc1057_AUTH_REJECTEDVERF [Others] : goProg.const "rfc1057" "AUTH_REJECTEDVERF" = some (.u32 4) := by kernel_rfl
theorem const_rfc1057_AUTH_TOOWEAK [Others] : goProg.const "rfc1057" "AUTH_TOOWEAK" = some (.u32 5) := by kernel_rfl
theorem const_rfc1057_PMAP_PORT [Others] : goProg.const "rfc1057" "PMAP_PORT" = some (.u32 111) := by kernel_rfl
theorem const_rfc1057_IPPROTO_TCP [Others] : goProg.const "rfc1057" "IPPROTO_TCP" = some (.u32 6) := by kernel_rfl
theorem const_rfc1057_IPPROTO_UDP [Others] : goProg.const "rfc1057" "IPPROTO_UDP" = some (.u32 17) := by kernel_rfl
theorem const_rfc1057_PMAP_PROG [Others] : goProg.const "rfc1057" "PMAP_PROG" = some (.u32 100000) := by kernel_rfl
theorem const_rfc1057_PMAP_VERS [Others] : goProg.const "rfc1057" "PMAP_VERS" = some (.u32 2) := by kernel_rfl
theorem const_rfc1057_PMAPPROC_NULL [Others] : goProg.const "rfc1057" "PMAPPROC_NULL" = some (.u32 0) := by kernel_rfl
theorem const_rfc1057_PMAPPROC_SET [Others] : goProg.const "rfc1057" "PMAPPROC_SET" = some (.u32 1) := by kernel_rfl
theorem const_rfc1057_PMAPPROC_UNSET [Others] : goProg.const "rfc1057" "PMAPPROC_UNSET" = some (.u32 2) := by kernel_rfl
theorem const_rfc1057_PMAPPROC_GETPORT [Others] : goProg.const "rfc1057" "PMAPPROC_GETPORT" = some (.u32 3) := by kernel_rfl
theorem const_rfc1057_PMAPPROC_DUMP [Others] : goProg.const "rfc1057" "PMAPPROC_DUMP" = some (.u32 4) := by kernel_rfl
theorem const_rfc1057_PMAPPROC_CALLIT [Others] : goProg.const "rfc1057" "PMAPPROC_CALLIT" = some (.u32 5) := by kernel_rfl
theorem import_xdr_binary {Ps : Prog} : isImport (xdrPkg :: Ps) "xdr" "binary" = true := by kernel_rfl
theorem import_xdr_errors {Ps : Prog} : isImport (xdrPkg :: Ps) "xdr" "errors" = true := by kernel_rfl
theorem import_xdr_fmt {Ps : Prog} : isImport (xdrPkg :: Ps) "xdr" "fmt" = true := by kernel_rfl
theorem import_xdr_math {Ps : Prog} : isImport (xdrPkg :: Ps) "xdr" "math" = true := by kernel_rfl
theorem import_rfc1057_binary [Others] : isImport goProg "rfc1057" "binary" = true := by kernel_rfl
theorem import_rfc1057_fmt [Others] : isImport goProg "rfc1057" "fmt" = true := by kernel_rfl
theorem import_rfc1057_io [Others] : isImport goProg "rfc1057" "io" = true := by kernel_rfl
theorem import_rfc1057_os [Others] : isImport goProg "rfc1057" "os" = true := by kernel_rfl
theorem import_rfc1057_sync [Others] : isImport goProg "rfc1057" "sync" = true := by kernel_rfl
theorem import_rfc1057_xdr [Others] : isImport goProg "rfc1057" "xdr" = true := by kernel_rfl
theorem isType_xdr_int {Ps : Prog} : isType (xdrPkg :: Ps) "xdr" "int" = true := by kernel_rfl
theorem isType_xdr_uint32 {Ps : Prog} : isType (xdrPkg :: Ps) "xdr" "uint32" = true := by kernel_rfl
theorem isType_xdr_int32 {Ps : Prog} : isType (xdrPkg :: Ps) "xdr" "int32" = true := by kernel_rfl
theorem isType_xdr_uint64 {Ps : Prog} : isType (xdrPkg :: Ps) "xdr" "uint64" = true := by kernel_rfl
theorem isType_xdr_int64 {Ps : Prog} : isType (xdrPkg :: Ps) "xdr" "int64" = true := by kernel_rfl
theorem isType_xdr_bool {Ps : Prog} : isType (xdrPkg :: Ps) "xdr" "bool" = true := by kernel_rfl
theorem isType_rfc1057_int [Others] : isType goProg "rfc1057" "int" = true := by kernel_rfl
theorem isType_rfc1057_uint32 [Others] : isType goProg "rfc1057" "uint32" = true := by kernel_rfl
theorem isType_rfc1057_int32 [Others] : isType goProg "rfc1057" "int32" = true := by kernel_rfl
theorem isType_rfc1057_uint64 [Others] : isType goProg "rfc1057" "uint64" = true := by kernel_rfl
theorem isType_rfc1057_int64 [Others] : isType goProg "rfc1057" "int64" = true := by kernel_rfl
theorem isType_rfc1057_bool [Others] : isType goProg "rfc1057" "bool" = true := by kernel_rfl
theorem isType_xdr_MakeReader {Ps : Prog} : isType (xdrPkg :: Ps) "xdr" "MakeReader" = false := by kernel_rfl
theorem isType_xdr_MakeWriter {Ps : Prog} : isType (xdrPkg :: Ps) "xdr" "MakeWriter" = false := by kernel_rfl
theorem isType_xdr_xdrRW {Ps : Prog} : isType (xdrPkg :: Ps) "xdr" "xdrRW" = false := by kernel_rfl
theorem isType_xdr_xdrR {Ps : Prog} : isType (xdrPkg :: Ps) "xdr" "xdrR" = false := by kernel_rfl
theorem isType_xdr_XdrBool {Ps : Prog} : isType (xdrPkg :: Ps) "xdr" "XdrBool" = false := by kernel_rfl
theorem isType_xdr_XdrS32 {Ps : Prog} : isType (xdrPkg :: Ps) "xdr" "XdrS32" = false := by kernel_rfl
theorem isType_xdr_XdrU32 {Ps : Prog} : isType (xdrPkg :: Ps) "xdr" "XdrU32" = false := by kernel_rfl
theorem isType_xdr_XdrS64 {Ps : Prog} : isType (xdrPkg :: Ps) "xdr" "XdrS64" = false := by kernel_rfl
theorem isType_xdr_XdrU64 {Ps : Prog} : isType (xdrPkg :: Ps) "xdr" "XdrU64" = false := by kernel_rfl
theorem isType_xdr_XdrVarArray {Ps : Prog} : isType (xdrPkg :: Ps) "xdr" "XdrVarArray" = false := by kernel_rfl
theorem isType_xdr_XdrArray {Ps : Prog} : isType (xdrPkg :: Ps) "xdr" "XdrArray" = false := by kernel_rfl
theorem isType_xdr_XdrString {Ps : Prog} : isType (xdrPkg :: Ps) "xdr" "XdrString" = false := by kernel_rfl
theorem isType_xdr_EncodeBuf {Ps : Prog} : isType (xdrPkg :: Ps) "xdr" "EncodeBuf" = false := by kernel_rfl
theorem isType_xdr_DecodeBuf {Ps : Prog} : isType (xdrPkg :: Ps) "xdr" "DecodeBuf" = false := by kernel_rfl
theorem isType_rfc1057_MakeClient [Others] : isType goProg "rfc1057" "MakeClient" = false := by kernel_rfl
theorem isType_rfc1057_getReqBuf [Others] : isType goProg "rfc1057" "getReqBuf" = false := by kernel_rfl
theorem isType_rfc1057_putReqBuf [Others] : isType goProg "rfc1057" "putReqBuf" = false := by kernel_rfl
theorem isType_rfc1057_MakeServer [Others] : isType goProg "rfc1057" "MakeServer" = false := by kernel_rfl
theorem isType_rfc1057_PMAP_PROG_PMAP_VERS_regs [Others] : isType goProg "rfc1057" "PMAP_PROG_PMAP_VERS_regs" = false := by kernel_rfl
theorem isType_xdr_Xdrable {Ps : Prog} : isType (xdrPkg :: Ps) "xdr" "Xdrable" = true := by kernel_rfl
theorem isType_xdr_Bool {Ps : Prog} : isType (xdrPkg :: Ps) "xdr" "Bool" = true := by kernel_rfl
theorem isType_xdr_Uint32 {Ps : Prog} : isType (xdrPkg :: Ps) "xdr" "Uint32" = true := by kernel_rfl
theorem isType_xdr_Int32 {Ps : Prog} : isType (xdrPkg :: Ps) "xdr" "Int32" = true := by kernel_rfl
theorem isType_xdr_Uint64 {Ps : Prog} : isType (xdrPkg :: Ps) "xdr" "Uint64" = true := by kernel_rfl
theorem isType_xdr_Int64 {Ps : Prog} : isType (xdrPkg :: Ps) "xdr" "Int64" = true := by kernel_rfl
theorem isType_xdr_Void {Ps : Prog} : isType (xdrPkg :: Ps) "xdr" "Void" = true := by kernel_rfl
theorem isType_rfc1057_Auth_flavor [Others] : isType goProg "rfc1057" "Auth_flavor" = true := by kernel_rfl
theorem isType_rfc1057_Msg_type [Others] : isType goProg "rfc1057" "Msg_type" = true := by kernel_rfl
theorem isType_rfc1057_Reply_stat [Others] : isType goProg "rfc1057" "Reply_stat" = true := by kernel_rfl
theorem isType_rfc1057_Accept_stat [Others] : isType goProg "rfc1057" "Accept_stat" = true := by kernel_rfl
theorem isType_rfc1057_Reject_stat [Others] : isType goProg "rfc1057" "Reject_stat" = true := by kernel_rfl
theorem isType_rfc1057_Auth_stat [Others] : isType goProg "rfc1057" "Auth_stat" = true := by kernel_rfl
theorem isType_rfc1057_Xbool [Others] : isType goProg "rfc1057" "Xbool" = true := by kernel_rfl
theorem isType_rfc1057_PMAP_PROG_PMAP_VERS_handler [Others] : isType goProg "rfc1057" "PMAP_PROG_PMAP_VERS_handler" = true := by kernel_rfl
theorem pkg_xdr {Ps : Prog} : (Prog.pkg (xdrPkg :: Ps) "xdr").isNone = false := by kernel_rfl
theorem pkg_rfc1057 [Others] : (goProg.pkg "rfc1057").isNone = false := by kernel_rfl
theorem const_rfc1057_reqBufPool [Others] : goProg.const "rfc1057" "reqBufPool" = none := by kernel_rfl
theorem isVar_rfc1057_reqBufPool [Others] : isVar goProg "rfc1057" "reqBufPool" = true := by kernel_rfl
theorem zero_xdr_int {Ps : Prog} : Prog.zero (xdrPkg :: Ps) "xdr" (.name "int") = some (.int 0) := by kernel_rfl
theorem zero_xdr_uint32 {Ps : Prog} : Prog.zero (xdrPkg :: Ps) "xdr" (.name "uint32") = some (.u32 0) := by kernel_rfl
theorem zero_xdr_int32 {Ps : Prog} : Prog.zero (xdrPkg :: Ps) "xdr" (.name "int32") = some (.i32 0) := by kernel_rfl
theorem zero_xdr_uint64 {Ps : Prog} : Prog.zero (xdrPkg :: Ps) "xdr" (.name "uint64") = some (.u64 0) := by kernel_rfl
theorem zero_xdr_int64 {Ps : Prog} : Prog.zero (xdrPkg :: Ps) "xdr" (.name "int64") = some (.i64 0) := by kernel_rfl
theorem zero_xdr_bool {Ps : Prog} : Prog.zero (xdrPkg :: Ps) "xdr" (.name "bool") = some (.bool false) := by kernel_rfl
theorem zero_xdr_string {Ps : Prog} : Prog.zero (xdrPkg :: Ps) "xdr" (.name "string") = some (.str []) := by kernel_rfl
theorem zero_xdr_error {Ps : Prog} : Prog.zero (xdrPkg :: Ps) "xdr" (.name "error") = some (.nil) := by kernel_rfl
theorem zero_rfc1057_int [Others] : goProg.zero "rfc1057" (.name "int") = some (.int 0) := by kernel_rfl
theorem zero_rfc1057_uint32 [Others] : goProg.zero "rfc1057" (.name "uint32") = some (.u32 0) := by kernel_rfl
theorem zero_rfc1057_int32 [Others] : goProg.zero "rfc1057" (.name "int32") = some (.i32 0) := by kernel_rfl
theorem zero_rfc1057_uint64 [Others] : goProg.zero "rfc1057" (.name "uint64") = some (.u64 0) := by kernel_rfl
theorem zero_rfc1057_int64 [Others] : goProg.zero "rfc1057" (.name "int64") = some (.i64 0) := by kernel_rfl
theorem zero_rfc1057_bool [Others] : goProg.zero "rfc1057" (.name "bool") = some (.bool false) := by kernel_rfl
theorem zero_rfc1057_string [Others] : goProg.zero "rfc1057" (.name "string") = some (.str []) := by kernel_rfl
theorem zero_rfc1057_error [Others] : goProg.zero "rfc1057" (.name "error") = some (.nil) := by kernel_rfl

theorem zero_ptr {P : Prog} (p : String) (t : Ty) : P.zero p (.ptr t) = some .nil := rfl
theorem zero_slice {P : Prog} (p : String) (t : Ty) : P.zero p (.slice t) = some .nil := rfl
theorem zero_arr4 {P : Prog} (p : String) : P.zero p (.arr 4 (.name "byte")) = some (.bytes [0, 0, 0, 0]) := rfl
theorem zero_arr8 {P : Prog} (p : String) : P.zero p (.arr 8 (.name "byte")) = some (.bytes [0, 0, 0, 0, 0, 0, 0, 0]) := rfl
theorem zero_XdrState {Ps : Prog} : Prog.zero (xdrPkg :: Ps) "xdr" (.name "XdrState") =
    some (.struct "xdr.XdrState" [("err", .nil), ("reader", .bool false), ("buf", .nil)]) := by kernel_rfl
theorem zero_Opaque_auth [Others] : goProg.zero "rfc1057" (.name "Opaque_auth") =
    some (.struct "rfc1057.Opaque_auth" [("Flavor", .u32 0), ("Body", .nil)]) := by kernel_rfl
theorem zero_Server [Others] : goProg.zero "rfc1057" (.name "Server") =
    some (.struct "rfc1057.Server" [("handlers", .nil)]) := by kernel_rfl
theorem pkg_eq_io [Others] : goProg.pkg "io" = none := by
  have h : goProg.pkg "io" = Others.ps.pkg "io" := by kernel_rfl
  rw [h, Others.io]
theorem pkg_eq_fmt [Others] : goProg.pkg "fmt" = none := by
  have h : goProg.pkg "fmt" = Others.ps.pkg "fmt" := by kernel_rfl
  rw [h, Others.fmt]
theorem pkg_eq_os [Others] : goProg.pkg "os" = none := by
  have h : goProg.pkg "os" = Others.ps.pkg "os" := by kernel_rfl
  rw [h, Others.os]
theorem pkg_io [Others] : (goProg.pkg "io").isNone = true := by rw [pkg_eq_io]; rfl
theorem pkg_fmt [Others] : (goProg.pkg "fmt").isNone = true := by rw [pkg_eq_fmt]; rfl
theorem zeroN_io [Others] (k : Nat) (p n : String) : zeroN goProg (k + 1) p (.qual "io" n) = some .nil := by
  simp only [zeroN, pkg_eq_io, Option.isNone_none, if_true, foreign]
  exact congrArg some (if_neg (by rintro ⟨h, -⟩; exact absurd h (by decide)))
theorem zero_ReadWriter [Others] : goProg.zero "rfc1057" (.qual "io" "ReadWriter") = some .nil := by
  rw [Prog.zero, Prog.fuel]
  exact zeroN_io _ _ _
theorem zero_rpc_struct [Others] {n : String} {fs : List (String × Ty)} {vs : List (String × V)} (h : rpcPkg.types.lookup n = some (.struct fs))
    (hn : n ∉ ["int", "uint32", "int32", "uint64", "int64", "bool", "string", "error"])
    (hv : ∀ k, (fs.mapM fun f => (zeroN goProg (k + 1) "rfc1057" f.2).map (f.1, ·)) = some vs) :
    goProg.zero "rfc1057" (.name n) = some (.struct ("rfc1057" ++ "." ++ n) vs) := by
  have hp : goProg.pkg "rfc1057" = some rpcPkg := by kernel_rfl
  obtain ⟨F, hF⟩ : ∃ F, goProg.fuel (.name n) = F + 2 := ⟨goProg.fuel (.name n) - 2, by rw [Prog.fuel]; omega⟩
  rw [Prog.zero, hF]
  simp only [List.mem_cons, List.not_mem_nil, or_false, not_or] at hn
  obtain ⟨a1, a2, a3, a4, a5, a6, a7, a8⟩ := hn
  rw [zeroN]
  simp only [a1, a2, a3, a4, a5, a6, a7, a8, if_false, hp, bind, Option.bind, h] at hv ⊢
  rw [hv F]
  rfl
theorem zero_Client [Others] : goProg.zero "rfc1057" (.name "Client") =
    some (.struct "rfc1057.Client" [("rw", .nil), ("xid", .u32 0), ("prog", .u32 0), ("vers", .u32 0)]) := by
  refine zero_rpc_struct (fs := [("rw", .qual "io" "ReadWriter"), ("xid", .name "uint32"), ("prog", .name "uint32"), ("vers", .name "uint32")])
    (by kernel_rfl) (by decide) fun k => ?_
  simp only [List.mapM_cons, zeroN_io, Option.map_some, bind, Option.bind]
  rfl
theorem zero_serverConn [Others] : goProg.zero "rfc1057" (.name "serverConn") =
    some (.struct "rfc1057.serverConn" [("s", .nil), ("rw", .nil)]) := by
  refine zero_rpc_struct (fs := [("s", .ptr (.name "Server")), ("rw", .qual "io" "ReadWriter")]) (by kernel_rfl) (by decide) fun k => ?_
  simp only [List.mapM_cons, zeroN_io, Option.map_some, bind, Option.bind]
  rfl
theorem zero_Xdrable [Others] : goProg.zero "rfc1057" (.qual "xdr" "Xdrable") = some .nil := by kernel_rfl
theorem zero_xdr_Xdrable {Ps : Prog} : Prog.zero (xdrPkg :: Ps) "xdr" (.name "Xdrable") = some .nil := by kernel_rfl
theorem zero_ProcHandler [Others] : goProg.zero "rfc1057" (.name "ProcHandler") = some .nil := by kernel_rfl
theorem zero_Rpc_msg [Others] : goProg.zero "rfc1057" (.name "Rpc_msg") =
    some (.struct "rfc1057.Rpc_msg" [("Xid", .u32 0), ("Body", .struct "" [("Mtype", .u32 0),
      ("Cbody", .struct "rfc1057.Call_body" [("Rpcvers", .u32 0), ("Prog", .u32 0), ("Vers", .u32 0), ("Proc", .u32 0),
        ("Cred", .struct "rfc1057.Opaque_auth" [("Flavor", .u32 0), ("Body", .nil)]),
        ("Verf", .struct "rfc1057.Opaque_auth" [("Flavor", .u32 0), ("Body", .nil)])]),
      ("Rbody", .struct "rfc1057.Reply_body" [("Stat", .u32 0),
        ("Areply", .struct "rfc1057.Accepted_reply" [("Verf", .struct "rfc1057.Opaque_auth" [("Flavor", .u32 0), ("Body", .nil)]),
          ("Reply_data", .struct "" [("Stat", .u32 0), ("Results", .bytes []),
            ("Mismatch_info", .struct "" [("Low", .u32 0), ("High", .u32 0)])])]),
        ("Rreply", .struct "rfc1057.Rejected_reply" [("Stat", .u32 0),
          ("Mismatch_info", .struct "" [("Low", .u32 0), ("High", .u32 0)]), ("Astat", .u32 0)])])])]) := by kernel_rfl

end Verif.Lang
