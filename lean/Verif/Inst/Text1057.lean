/-
The files rfc1057/prot.x, types.go and xdr.go, character for character.  Written by tools/embed.py.
-/
import Verif.Text.Scan

namespace Verif.Inst.Rfc1057
open Verif.Text

def protText0 : List (List Text) := [
  [t!"enum auth_flavor {\n"],
  [t!"   AUTH_NONE       = 0,\n"],
  [t!"   AUTH_UNIX       = 1,\n"],
  [t!"   AUTH_SHORT      = 2,\n"],
  [t!"   AUTH_DES        = 3 };\n"],
  [t!"\n"],
  [t!"struct opaque_auth {\n"],
  [t!"   auth_flavor flavor;\n"],
  [t!"   opaque body<400>;\n"],
  [t!"};\n"],
  [t!"\n"],
  [t!"enum msg_type {\n"],
  [t!"   CALL  = 0,\n"],
  [t!"   REPLY = 1 };\n"],
  [t!"\n"],
  [t!"enum reply_stat {\n"],
  [t!"   MSG_ACCEPTED = 0,\n"],
  [t!"   MSG_DENIED   = 1 };\n"],
  [t!"\n"],
  [t!"\n"],
  [t!"enum accept_stat {\n"],
  [t!"   SUCCESS       = 0, /* RPC executed successfully       */\n"],
  [t!"   PROG_UNAVAIL  = 1, /* remote hasn't exported program  */\n"],
  [t!"   PROG_MISMATCH = 2, /* remote can't support version #  */\n"],
  [t!"   PROC_UNAVAIL  = 3, /* program can't support procedure */\n"],
  [t!"   GARBAGE_ARGS  = 4  /* procedure can't decode params   */ };\n"],
  [t!"\n"],
  [t!"enum reject_stat {\n"],
  [t!"   RPC_MISMATCH = 0, /* RPC version number != 2          */\n"],
  [t!"   AUTH_ERROR = 1    /* remote can't authenticate caller */ };\n"],
  [t!"\n"],
  [t!"enum auth_stat {\n"],
  [t!"   AUTH_BADCRED      = 1,  /* bad credential (seal broken)     */\n"],
  [t!"   AUTH_REJECTEDCRED = 2,  /* client must begin new session    */\n"],
  [t!"   AUTH_BADVERF      = 3,  /* bad verifier (seal broken)       */\n"],
  [t!"   AUTH_REJECTEDVERF = 4,  /* verifier expired or replayed     */\n"],
  [t!"   AUTH_TOOWEAK      = 5   /* rejected for security reasons    */ };\n"],
  [t!"\n"],
  [t!"struct rpc_msg {\n"],
  [t!"   unsigned int xid;\n"]]

def protText1 : List (List Text) := [
  [t!"   union switch (msg_type mtype) {\n"],
  [t!"   case CALL:\n"],
  [t!"      call_body cbody;\n"],
  [t!"   case REPLY:\n"],
  [t!"      reply_body rbody;\n"],
  [t!"   } body;\n"],
  [t!"};\n"],
  [t!"\n"],
  [t!"struct call_body {\n"],
  [t!"   unsigned int rpcvers;       /* must be equal to two (2) */\n"],
  [t!"   unsigned int prog;\n"],
  [t!"   unsigned int vers;\n"],
  [t!"   unsigned int proc;\n"],
  [t!"   opaque_auth  cred;\n"],
  [t!"   opaque_auth  verf;\n"],
  [t!"   /* procedure specific parameters start here */\n"],
  [t!"};\n"],
  [t!"\n"],
  [t!"\n"],
  [t!"union reply_body switch (reply_stat stat) {\n"],
  [t!"case MSG_ACCEPTED:\n"],
  [t!"   accepted_reply areply;\n"],
  [t!"case MSG_DENIED:\n"],
  [t!"   rejected_reply rreply;\n"],
  [t!"};\n"],
  [t!"\n"],
  [t!"struct accepted_reply {\n"],
  [t!"   opaque_auth verf;\n"],
  [t!"   union switch (accept_stat stat) {\n"],
  [t!"   case SUCCESS:\n"],
  [t!"      opaque results[0];\n"],
  [t!"      /*\n       * procedure-specific results start here\n       */\n"],
  [t!"   case PROG_MISMATCH:\n"],
  [t!"      struct {\n"],
  [t!"         unsigned int low;\n"],
  [t!"         unsigned int high;\n"],
  [t!"      } mismatch_info;\n"],
  [t!"   default:\n"],
  [t!"      /*\n       * Void.  Cases include PROG_UNAVAIL, PROC_UNAVAIL,\n       * GARBAGE_ARGS, and SYSTEM_ERR.\n       */\n"],
  [t!"      void;\n"]]

def protText2 : List (List Text) := [
  [t!"   } reply_data;\n"],
  [t!"};\n"],
  [t!"\n"],
  [t!"\n"],
  [t!"union rejected_reply switch (reject_stat stat) {\n"],
  [t!"case RPC_MISMATCH:\n"],
  [t!"   struct {\n"],
  [t!"      unsigned int low;\n"],
  [t!"      unsigned int high;\n"],
  [t!"   } mismatch_info;\n"],
  [t!"case AUTH_ERROR:\n"],
  [t!"   auth_stat astat;\n"],
  [t!"};\n"],
  [t!"\n"],
  [t!"\n"],
  [t!"struct auth_unix {\n"],
  [t!"   unsigned int stamp;\n"],
  [t!"   string machinename<255>;\n"],
  [t!"   unsigned int uid;\n"],
  [t!"   unsigned int gid;\n"],
  [t!"   unsigned int gids<16>;\n"],
  [t!"};\n"],
  [t!"\n"],
  [t!"\n"],
  [t!"const PMAP_PORT = 111;      /* portmapper port number */\n"],
  [t!"\n"],
  [t!"struct mapping {\n"],
  [t!"   unsigned int prog;\n"],
  [t!"   unsigned int vers;\n"],
  [t!"   unsigned int prot;\n"],
  [t!"   unsigned int port;\n"],
  [t!"};\n"],
  [t!"\n"],
  [t!"const IPPROTO_TCP = 6;      /* protocol number for TCP/IP */\n"],
  [t!"const IPPROTO_UDP = 17;     /* protocol number for UDP/IP */\n"],
  [t!"\n"],
  [t!"typedef pmaplistelem *pmaplist;\n"],
  [t!"\n"],
  [t!"struct pmaplistelem {\n"],
  [t!"   mapping map;\n"]]

def protText3 : List (List Text) := [
  [t!"   pmaplist next;\n"],
  [t!"};\n"],
  [t!"\n"],
  [t!"struct call_args {\n"],
  [t!"   unsigned int prog;\n"],
  [t!"   unsigned int vers;\n"],
  [t!"   unsigned int proc;\n"],
  [t!"   opaque args<>;\n"],
  [t!"};\n"],
  [t!"\n"],
  [t!"struct call_result {\n"],
  [t!"   unsigned int port;\n"],
  [t!"   opaque res<>;\n"],
  [t!"};\n"],
  [t!"\n"],
  [t!"typedef unsigned int uint32;\n"],
  [t!"typedef bool xbool;\n"],
  [t!"\n"],
  [t!"program PMAP_PROG {\n"],
  [t!"   version PMAP_VERS {\n"],
  [t!"      void PMAPPROC_NULL(void)                = 0;\n"],
  [t!"      xbool PMAPPROC_SET(mapping)             = 1;\n"],
  [t!"      xbool PMAPPROC_UNSET(mapping)           = 2;\n"],
  [t!"      uint32 PMAPPROC_GETPORT(mapping)        = 3;\n"],
  [t!"      pmaplist PMAPPROC_DUMP(void)            = 4;\n"],
  [t!"      call_result PMAPPROC_CALLIT(call_args)  = 5;\n"],
  [t!"   } = 2;\n"],
  [t!"} = 100000;\n"]]

/-- rfc1057/prot.x -/
def protText : List (List Text) := protText0 ++ protText1 ++ protText2 ++ protText3

def typesText0 : List (List Text) := [
  [t!"package rfc1057\n",
   t!"\n"],
  [t!"type Auth_flavor uint32\n",
   t!"\n"],
  [t!"const AUTH_NONE Auth_flavor = 0\n"],
  [t!"const AUTH_UNIX Auth_flavor = 1\n"],
  [t!"const AUTH_SHORT Auth_flavor = 2\n"],
  [t!"const AUTH_DES Auth_flavor = 3\n",
   t!"\n"],
  [t!"type Opaque_auth struct {\n",
   t!"\tFlavor Auth_flavor\n",
   t!"\tBody   []byte\n",
   t!"}\n"],
  [t!"type Msg_type uint32\n",
   t!"\n"],
  [t!"const CALL Msg_type = 0\n"],
  [t!"const REPLY Msg_type = 1\n",
   t!"\n"],
  [t!"type Reply_stat uint32\n",
   t!"\n"],
  [t!"const MSG_ACCEPTED Reply_stat = 0\n"],
  [t!"const MSG_DENIED Reply_stat = 1\n",
   t!"\n"],
  [t!"type Accept_stat uint32\n",
   t!"\n"],
  [t!"const SUCCESS Accept_stat = 0\n"],
  [t!"const PROG_UNAVAIL Accept_stat = 1\n"],
  [t!"const PROG_MISMATCH Accept_stat = 2\n"],
  [t!"const PROC_UNAVAIL Accept_stat = 3\n"],
  [t!"const GARBAGE_ARGS Accept_stat = 4\n",
   t!"\n"],
  [t!"type Reject_stat uint32\n",
   t!"\n"],
  [t!"const RPC_MISMATCH Reject_stat = 0\n"],
  [t!"const AUTH_ERROR Reject_stat = 1\n",
   t!"\n"],
  [t!"type Auth_stat uint32\n",
   t!"\n"],
  [t!"const AUTH_BADCRED Auth_stat = 1\n"],
  [t!"const AUTH_REJECTEDCRED Auth_stat = 2\n"],
  [t!"const AUTH_BADVERF Auth_stat = 3\n"],
  [t!"const AUTH_REJECTEDVERF Auth_stat = 4\n"],
  [t!"const AUTH_TOOWEAK Auth_stat = 5\n",
   t!"\n"],
  [t!"type Rpc_msg struct {\n",
   t!"\tXid  uint32\n",
   t!"\tBody struct {\n",
   t!"\t\tMtype Msg_type\n",
   t!"\t\tCbody Call_body\n",
   t!"\t\tRbody Reply_body\n",
   t!"\t}\n",
   t!"}\n"],
  [t!"type Call_body struct {\n",
   t!"\tRpcvers uint32\n",
   t!"\tProg    uint32\n",
   t!"\tVers    uint32\n",
   t!"\tProc    uint32\n",
   t!"\tCred    Opaque_auth\n",
   t!"\tVerf    Opaque_auth\n",
   t!"}\n"],
  [t!"type Reply_body struct {\n",
   t!"\tStat   Reply_stat\n",
   t!"\tAreply Accepted_reply\n",
   t!"\tRreply Rejected_reply\n",
   t!"}\n"],
  [t!"type Accepted_reply struct {\n",
   t!"\tVerf       Opaque_auth\n",
   t!"\tReply_data struct {\n",
   t!"\t\tStat          Accept_stat\n",
   t!"\t\tResults       [0]byte\n",
   t!"\t\tMismatch_info struct {\n",
   t!"\t\t\tLow  uint32\n",
   t!"\t\t\tHigh uint32\n",
   t!"\t\t}\n",
   t!"\t}\n",
   t!"}\n"],
  [t!"type Rejected_reply struct {\n",
   t!"\tStat          Reject_stat\n",
   t!"\tMismatch_info struct {\n",
   t!"\t\tLow  uint32\n",
   t!"\t\tHigh uint32\n",
   t!"\t}\n",
   t!"\tAstat Auth_stat\n",
   t!"}\n"],
  [t!"type Auth_unix struct {\n",
   t!"\tStamp       uint32\n",
   t!"\tMachinename string\n",
   t!"\tUid         uint32\n",
   t!"\tGid         uint32\n",
   t!"\tGids        []uint32\n",
   t!"}\n",
   t!"\n"],
  [t!"const PMAP_PORT uint32 = 111\n",
   t!"\n"],
  [t!"type Mapping struct {\n",
   t!"\tProg uint32\n",
   t!"\tVers uint32\n",
   t!"\tProt uint32\n",
   t!"\tPort uint32\n",
   t!"}\n",
   t!"\n"],
  [t!"const IPPROTO_TCP uint32 = 6\n"],
  [t!"const IPPROTO_UDP uint32 = 17\n",
   t!"\n"],
  [t!"type Pmaplist struct{ P *Pmaplistelem }\n"],
  [t!"type Pmaplistelem struct {\n",
   t!"\tMap  Mapping\n",
   t!"\tNext Pmaplist\n",
   t!"}\n"]]

def typesText1 : List (List Text) := [
  [t!"type Call_args struct {\n",
   t!"\tProg uint32\n",
   t!"\tVers uint32\n",
   t!"\tProc uint32\n",
   t!"\tArgs []byte\n",
   t!"}\n"],
  [t!"type Call_result struct {\n",
   t!"\tPort uint32\n",
   t!"\tRes  []byte\n",
   t!"}\n"],
  [t!"type Uint32 uint32\n"],
  [t!"type Xbool bool\n",
   t!"\n"],
  [t!"const PMAP_PROG uint32 = 100000\n"],
  [t!"const PMAP_VERS uint32 = 2\n"],
  [t!"const PMAPPROC_NULL uint32 = 0\n"],
  [t!"const PMAPPROC_SET uint32 = 1\n"],
  [t!"const PMAPPROC_UNSET uint32 = 2\n"],
  [t!"const PMAPPROC_GETPORT uint32 = 3\n"],
  [t!"const PMAPPROC_DUMP uint32 = 4\n"],
  [t!"const PMAPPROC_CALLIT uint32 = 5\n"]]

/-- rfc1057/types.go -/
def typesText : List (List Text) := typesText0 ++ typesText1

def codeText0 : List (List Text) := [
  [t!"package rfc1057\n",
   t!"\n"],
  [t!"import \"github.com/zeldovich/go-rpcgen/xdr\"\n",
   t!"\n"],
  [t!"func (v *Auth_flavor) Xdr(xs *xdr.XdrState) {\n",
   t!"\txdr.XdrU32(xs, (*uint32)(v))\n",
   t!"}\n"],
  [t!"func (v *Opaque_auth) Xdr(xs *xdr.XdrState) {\n",
   t!"\t(*Auth_flavor)(&((v).Flavor)).Xdr(xs)\n",
   t!"\txdr.XdrVarArray(xs, int(400), (*[]byte)(&((v).Body)))\n",
   t!"}\n"],
  [t!"func (v *Msg_type) Xdr(xs *xdr.XdrState) {\n",
   t!"\txdr.XdrU32(xs, (*uint32)(v))\n",
   t!"}\n"],
  [t!"func (v *Reply_stat) Xdr(xs *xdr.XdrState) {\n",
   t!"\txdr.XdrU32(xs, (*uint32)(v))\n",
   t!"}\n"],
  [t!"func (v *Accept_stat) Xdr(xs *xdr.XdrState) {\n",
   t!"\txdr.XdrU32(xs, (*uint32)(v))\n",
   t!"}\n"],
  [t!"func (v *Reject_stat) Xdr(xs *xdr.XdrState) {\n",
   t!"\txdr.XdrU32(xs, (*uint32)(v))\n",
   t!"}\n"],
  [t!"func (v *Auth_stat) Xdr(xs *xdr.XdrState) {\n",
   t!"\txdr.XdrU32(xs, (*uint32)(v))\n",
   t!"}\n"],
  [t!"func (v *Rpc_msg) Xdr(xs *xdr.XdrState) {\n",
   t!"\txdr.XdrU32(xs, (*uint32)(&((v).Xid)))\n",
   t!"\t(*Msg_type)(&((&((v).Body)).Mtype)).Xdr(xs)\n",
   t!"\tswitch (&((v).Body)).Mtype {\n",
   t!"\tcase CALL:\n",
   t!"\t\t(*Call_body)(&((&((v).Body)).Cbody)).Xdr(xs)\n",
   t!"\tcase REPLY:\n",
   t!"\t\t(*Reply_body)(&((&((v).Body)).Rbody)).Xdr(xs)\n",
   t!"\t}\n",
   t!"}\n"],
  [t!"func (v *Call_body) Xdr(xs *xdr.XdrState) {\n",
   t!"\txdr.XdrU32(xs, (*uint32)(&((v).Rpcvers)))\n",
   t!"\txdr.XdrU32(xs, (*uint32)(&((v).Prog)))\n",
   t!"\txdr.XdrU32(xs, (*uint32)(&((v).Vers)))\n",
   t!"\txdr.XdrU32(xs, (*uint32)(&((v).Proc)))\n",
   t!"\t(*Opaque_auth)(&((v).Cred)).Xdr(xs)\n",
   t!"\t(*Opaque_auth)(&((v).Verf)).Xdr(xs)\n",
   t!"}\n"],
  [t!"func (v *Reply_body) Xdr(xs *xdr.XdrState) {\n",
   t!"\t(*Reply_stat)(&((v).Stat)).Xdr(xs)\n",
   t!"\tswitch (v).Stat {\n",
   t!"\tcase MSG_ACCEPTED:\n",
   t!"\t\t(*Accepted_reply)(&((v).Areply)).Xdr(xs)\n",
   t!"\tcase MSG_DENIED:\n",
   t!"\t\t(*Rejected_reply)(&((v).Rreply)).Xdr(xs)\n",
   t!"\t}\n",
   t!"}\n"],
  [t!"func (v *Accepted_reply) Xdr(xs *xdr.XdrState) {\n",
   t!"\t(*Opaque_auth)(&((v).Verf)).Xdr(xs)\n",
   t!"\t(*Accept_stat)(&((&((v).Reply_data)).Stat)).Xdr(xs)\n",
   t!"\tswitch (&((v).Reply_data)).Stat {\n",
   t!"\tcase SUCCESS:\n",
   t!"\t\txdr.XdrArray(xs, (*&((&((v).Reply_data)).Results))[:])\n",
   t!"\tcase PROG_MISMATCH:\n",
   t!"\t\txdr.XdrU32(xs, (*uint32)(&((&((&((v).Reply_data)).Mismatch_info)).Low)))\n",
   t!"\t\txdr.XdrU32(xs, (*uint32)(&((&((&((v).Reply_data)).Mismatch_info)).High)))\n",
   t!"\tdefault:\n",
   t!"\t}\n",
   t!"}\n"],
  [t!"func (v *Rejected_reply) Xdr(xs *xdr.XdrState) {\n",
   t!"\t(*Reject_stat)(&((v).Stat)).Xdr(xs)\n",
   t!"\tswitch (v).Stat {\n",
   t!"\tcase RPC_MISMATCH:\n",
   t!"\t\txdr.XdrU32(xs, (*uint32)(&((&((v).Mismatch_info)).Low)))\n",
   t!"\t\txdr.XdrU32(xs, (*uint32)(&((&((v).Mismatch_info)).High)))\n",
   t!"\tcase AUTH_ERROR:\n",
   t!"\t\t(*Auth_stat)(&((v).Astat)).Xdr(xs)\n",
   t!"\t}\n",
   t!"}\n"],
  [t!"func (v *Auth_unix) Xdr(xs *xdr.XdrState) {\n",
   t!"\txdr.XdrU32(xs, (*uint32)(&((v).Stamp)))\n",
   t!"\txdr.XdrString(xs, int(255), (*string)(&((v).Machinename)))\n",
   t!"\txdr.XdrU32(xs, (*uint32)(&((v).Uid)))\n",
   t!"\txdr.XdrU32(xs, (*uint32)(&((v).Gid)))\n",
   t!"\t{\n",
   t!"\t\tvar __arraysz uint32\n",
   t!"\t\txs.EncodingSetSize(&__arraysz, len(*&((v).Gids)))\n",
   t!"\t\txdr.XdrU32(xs, (*uint32)(&__arraysz))\n",
   t!"\n",
   t!"\t\tif __arraysz > 16 {\n",
   t!"\t\t\txs.SetError(\"array too large\")\n",
   t!"\t\t} else {\n",
   t!"\t\t\tif xs.Decoding() {\n",
   t!"\t\t\t\t*&((v).Gids) = make([]uint32, __arraysz)\n",
   t!"\t\t\t}\n",
   t!"\t\t\tfor i := uint64(0); i < uint64(__arraysz); i++ {\n",
   t!"\t\t\t\txdr.XdrU32(xs, (*uint32)(&((*(&((v).Gids)))[i])))\n",
   t!"\n",
   t!"\t\t\t}\n",
   t!"\t\t}\n",
   t!"\t}\n",
   t!"}\n"],
  [t!"func (v *Mapping) Xdr(xs *xdr.XdrState) {\n",
   t!"\txdr.XdrU32(xs, (*uint32)(&((v).Prog)))\n",
   t!"\txdr.XdrU32(xs, (*uint32)(&((v).Vers)))\n",
   t!"\txdr.XdrU32(xs, (*uint32)(&((v).Prot)))\n",
   t!"\txdr.XdrU32(xs, (*uint32)(&((v).Port)))\n",
   t!"}\n"],
  [t!"func (v *Pmaplist) Xdr(xs *xdr.XdrState) {\n",
   t!"\tif xs.Encoding() {\n",
   t!"\t\topted := *(&v.P) != nil\n",
   t!"\t\txdr.XdrBool(xs, (*bool)(&opted))\n",
   t!"\t\tif opted {\n",
   t!"\t\t\t(*Pmaplistelem)(*(&v.P)).Xdr(xs)\n",
   t!"\t\t}\n",
   t!"\t}\n",
   t!"\tif xs.Decoding() {\n",
   t!"\t\tvar opted bool\n",
   t!"\t\txdr.XdrBool(xs, (*bool)(&opted))\n",
   t!"\t\tif opted {\n",
   t!"\t\t\t*(&v.P) = new(Pmaplistelem)\n",
   t!"\t\t\t(*Pmaplistelem)(*(&v.P)).Xdr(xs)\n",
   t!"\t\t}\n",
   t!"\t}\n",
   t!"}\n"],
  [t!"func (v *Pmaplistelem) Xdr(xs *xdr.XdrState) {\n",
   t!"\t(*Mapping)(&((v).Map)).Xdr(xs)\n",
   t!"\t(*Pmaplist)(&((v).Next)).Xdr(xs)\n",
   t!"}\n"],
  [t!"func (v *Call_args) Xdr(xs *xdr.XdrState) {\n",
   t!"\txdr.XdrU32(xs, (*uint32)(&((v).Prog)))\n",
   t!"\txdr.XdrU32(xs, (*uint32)(&((v).Vers)))\n",
   t!"\txdr.XdrU32(xs, (*uint32)(&((v).Proc)))\n",
   t!"\txdr.XdrVarArray(xs, int(-1), (*[]byte)(&((v).Args)))\n",
   t!"}\n"],
  [t!"func (v *Call_result) Xdr(xs *xdr.XdrState) {\n",
   t!"\txdr.XdrU32(xs, (*uint32)(&((v).Port)))\n",
   t!"\txdr.XdrVarArray(xs, int(-1), (*[]byte)(&((v).Res)))\n",
   t!"}\n"],
  [t!"func (v *Uint32) Xdr(xs *xdr.XdrState) {\n",
   t!"\txdr.XdrU32(xs, (*uint32)(v))\n",
   t!"}\n"],
  [t!"func (v *Xbool) Xdr(xs *xdr.XdrState) {\n",
   t!"\txdr.XdrBool(xs, (*bool)(v))\n",
   t!"}\n",
   t!"\n"],
  [t!"type PMAP_PROG_PMAP_VERS_handler interface {\n",
   t!"\tPMAPPROC_NULL()\n",
   t!"\tPMAPPROC_SET(Mapping) Xbool\n",
   t!"\tPMAPPROC_UNSET(Mapping) Xbool\n",
   t!"\tPMAPPROC_GETPORT(Mapping) Uint32\n",
   t!"\tPMAPPROC_DUMP() Pmaplist\n",
   t!"\tPMAPPROC_CALLIT(Call_args) Call_result\n",
   t!"}\n"],
  [t!"type PMAP_PROG_PMAP_VERS_handler_wrapper struct {\n",
   t!"\th PMAP_PROG_PMAP_VERS_handler\n",
   t!"}\n",
   t!"\n"],
  [t!"func (w *PMAP_PROG_PMAP_VERS_handler_wrapper) PMAPPROC_NULL(args *xdr.XdrState) (res xdr.Xdrable, err error) {\n",
   t!"\tvar out xdr.Void\n",
   t!"\tw.h.PMAPPROC_NULL()\n",
   t!"\treturn &out, nil\n",
   t!"}\n"],
  [t!"func (w *PMAP_PROG_PMAP_VERS_handler_wrapper) PMAPPROC_SET(args *xdr.XdrState) (res xdr.Xdrable, err error) {\n",
   t!"\tvar in Mapping\n",
   t!"\tin.Xdr(args)\n",
   t!"\terr = args.Error()\n",
   t!"\tif err != nil {\n",
   t!"\t\treturn\n",
   t!"\t}\n",
   t!"\tvar out Xbool\n",
   t!"\tout = w.h.PMAPPROC_SET(in)\n",
   t!"\treturn &out, nil\n",
   t!"}\n"],
  [t!"func (w *PMAP_PROG_PMAP_VERS_handler_wrapper) PMAPPROC_UNSET(args *xdr.XdrState) (res xdr.Xdrable, err error) {\n",
   t!"\tvar in Mapping\n",
   t!"\tin.Xdr(args)\n",
   t!"\terr = args.Error()\n",
   t!"\tif err != nil {\n",
   t!"\t\treturn\n",
   t!"\t}\n",
   t!"\tvar out Xbool\n",
   t!"\tout = w.h.PMAPPROC_UNSET(in)\n",
   t!"\treturn &out, nil\n",
   t!"}\n"],
  [t!"func (w *PMAP_PROG_PMAP_VERS_handler_wrapper) PMAPPROC_GETPORT(args *xdr.XdrState) (res xdr.Xdrable, err error) {\n",
   t!"\tvar in Mapping\n",
   t!"\tin.Xdr(args)\n",
   t!"\terr = args.Error()\n",
   t!"\tif err != nil {\n",
   t!"\t\treturn\n",
   t!"\t}\n",
   t!"\tvar out Uint32\n",
   t!"\tout = w.h.PMAPPROC_GETPORT(in)\n",
   t!"\treturn &out, nil\n",
   t!"}\n"],
  [t!"func (w *PMAP_PROG_PMAP_VERS_handler_wrapper) PMAPPROC_DUMP(args *xdr.XdrState) (res xdr.Xdrable, err error) {\n",
   t!"\tvar out Pmaplist\n",
   t!"\tout = w.h.PMAPPROC_DUMP()\n",
   t!"\treturn &out, nil\n",
   t!"}\n"],
  [t!"func (w *PMAP_PROG_PMAP_VERS_handler_wrapper) PMAPPROC_CALLIT(args *xdr.XdrState) (res xdr.Xdrable, err error) {\n",
   t!"\tvar in Call_args\n",
   t!"\tin.Xdr(args)\n",
   t!"\terr = args.Error()\n",
   t!"\tif err != nil {\n",
   t!"\t\treturn\n",
   t!"\t}\n",
   t!"\tvar out Call_result\n",
   t!"\tout = w.h.PMAPPROC_CALLIT(in)\n",
   t!"\treturn &out, nil\n",
   t!"}\n"],
  [t!"func PMAP_PROG_PMAP_VERS_regs(h PMAP_PROG_PMAP_VERS_handler) []xdr.ProcRegistration {\n",
   t!"\tw := &PMAP_PROG_PMAP_VERS_handler_wrapper{h}\n",
   t!"\treturn []xdr.ProcRegistration{\n",
   t!"\t\txdr.ProcRegistration{\n",
   t!"\t\t\tProg:    PMAP_PROG,\n",
   t!"\t\t\tVers:    PMAP_VERS,\n",
   t!"\t\t\tProc:    PMAPPROC_NULL,\n",
   t!"\t\t\tHandler: w.PMAPPROC_NULL,\n",
   t!"\t\t},\n",
   t!"\t\txdr.ProcRegistration{\n",
   t!"\t\t\tProg:    PMAP_PROG,\n",
   t!"\t\t\tVers:    PMAP_VERS,\n",
   t!"\t\t\tProc:    PMAPPROC_SET,\n",
   t!"\t\t\tHandler: w.PMAPPROC_SET,\n",
   t!"\t\t},\n",
   t!"\t\txdr.ProcRegistration{\n",
   t!"\t\t\tProg:    PMAP_PROG,\n",
   t!"\t\t\tVers:    PMAP_VERS,\n",
   t!"\t\t\tProc:    PMAPPROC_UNSET,\n",
   t!"\t\t\tHandler: w.PMAPPROC_UNSET,\n",
   t!"\t\t},\n",
   t!"\t\txdr.ProcRegistration{\n",
   t!"\t\t\tProg:    PMAP_PROG,\n",
   t!"\t\t\tVers:    PMAP_VERS,\n",
   t!"\t\t\tProc:    PMAPPROC_GETPORT,\n",
   t!"\t\t\tHandler: w.PMAPPROC_GETPORT,\n",
   t!"\t\t},\n",
   t!"\t\txdr.ProcRegistration{\n",
   t!"\t\t\tProg:    PMAP_PROG,\n",
   t!"\t\t\tVers:    PMAP_VERS,\n",
   t!"\t\t\tProc:    PMAPPROC_DUMP,\n",
   t!"\t\t\tHandler: w.PMAPPROC_DUMP,\n",
   t!"\t\t},\n",
   t!"\t\txdr.ProcRegistration{\n",
   t!"\t\t\tProg:    PMAP_PROG,\n",
   t!"\t\t\tVers:    PMAP_VERS,\n",
   t!"\t\t\tProc:    PMAPPROC_CALLIT,\n",
   t!"\t\t\tHandler: w.PMAPPROC_CALLIT,\n",
   t!"\t\t},\n",
   t!"\t}\n",
   t!"}\n"]]

/-- rfc1057/xdr.go -/
def codeText : List (List Text) := codeText0

end Verif.Inst.Rfc1057
