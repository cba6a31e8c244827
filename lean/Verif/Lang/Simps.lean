/-
`go_run`: running programs of Verif.Lang symbolically by rewriting.
-/
import Verif.Lang.Attr
import Verif.Lang.Wp
import Verif.Lang.Facts

namespace Verif.Lang
variable {ω : Type}

attribute [go_sim ↓]
  wp_pure wp_bind wp_stop wp_ite wp_some wp_load wp_storeRaw wp_store wp_alloc wp_arrayOf wp_bytesOf_nil
  wp_bytesOf_str wp_bytesOf_slice wp_one wp_evalId wp_id wp_int wp_str wp_evalMember wp_field_ptr
  wp_field_struct wp_sel wp_idx_map wp_slc wp_call_id wp_call_be wp_call_sel wp_recv_struct wp_recv_ptr wp_recv_obj wp_recv_glob wp_recv wp_call_ptr wp_call_ty
  wp_ref_lit wp_ref wp_deref_ptr wp_loadAt_ptr wp_star wp_not wp_and wp_or wp_bin wp_lit wp_lit_slice wp_mval wp_assert wp_addr_id wp_addr_sel
  wp_addr_star wp_args_nil wp_args_cons wp_bound_none wp_bound_some wp_natV_int wp_natV_const wp_natV_u32
  wp_len_nil wp_len_slice wp_len_str wp_cap_nil wp_cap_slice wp_newSlice wp_copy_slice wp_copy_nil
  wp_append_nil wp_append_slice wp_sliceV_nil wp_sliceV_slice wp_sliceV_ptr wp_make_bytes wp_make_map wp_putBytes
  wp_be_put32 wp_be_put64 wp_be_get32 wp_be_get64 wp_b_len wp_b_cap wp_b_copy wp_b_append wp_b_string
  wp_conv_name wp_conv_bytes_str wp_conv_bytes_slice wp_conv_bytes_nil wp_conv_ptr wp_conv_ptr_qual wp_conv_ptr_slice wp_neg
  wp_errors_new wp_errorf wp_callPkg wp_meth_ptr wp_meth_ptr0 wp_meth_obj wp_meth_glob wp_val_fn wp_val_bound wp_val_obj
  wp_s_expr wp_s_define wp_s_assign wp_s_inc wp_s_var wp_s_ite wp_s_forever wp_s_range wp_s_switch wp_s_ret
  wp_s_goto wp_s_label wp_s_go wp_s_defer wp_s_block wp_execs_nil wp_execs_next wp_execs_ret wp_execs_goto
  wp_nth_zero wp_nth_succ wp_rhs_one wp_rhs_nil wp_rhs_two wp_rhs_call wp_rhs_idx wp_assign_nil
  wp_assign_cons wp_to_idx wp_to_blank wp_to_id wp_to_sel wp_to_star wp_declare wp_define wp_defineAll_nil
  wp_defineAll_cons wp_declareAll_nil wp_declareAll_cons wp_lookup_map wp_lookup_nil wp_update_map
  wp_any_nil wp_any_cons wp_choose_nil wp_choose_default wp_choose_cons wp_callee_id wp_callee_sel
  wp_bindParams_nil wp_bindParams_cons wp_bindResults_nil wp_bindResults_cons wp_results_nil wp_results_cons
  wp_named_nil wp_named_cons wp_defers_nil wp_defers_cons wp_finish_ret0 wp_finish_ret wp_finish_next

attribute [go_sim]
  const_xdr_nil const_xdr_true const_xdr_false const_rfc1057_nil const_rfc1057_true const_rfc1057_false
  const_rfc1057_AUTH_NONE const_rfc1057_AUTH_UNIX const_rfc1057_AUTH_SHORT const_rfc1057_AUTH_DES
  const_rfc1057_CALL const_rfc1057_REPLY const_rfc1057_MSG_ACCEPTED const_rfc1057_MSG_DENIED
  const_rfc1057_SUCCESS const_rfc1057_PROG_UNAVAIL const_rfc1057_PROG_MISMATCH const_rfc1057_PROC_UNAVAIL
  const_rfc1057_GARBAGE_ARGS const_rfc1057_RPC_MISMATCH const_rfc1057_AUTH_ERROR const_rfc1057_AUTH_BADCRED
  const_rfc1057_AUTH_REJECTEDCRED const_rfc1057_AUTH_BADVERF const_rfc1057_AUTH_REJECTEDVERF
  const_rfc1057_AUTH_TOOWEAK const_rfc1057_PMAP_PORT const_rfc1057_IPPROTO_TCP const_rfc1057_IPPROTO_UDP
  const_rfc1057_PMAP_PROG const_rfc1057_PMAP_VERS const_rfc1057_PMAPPROC_NULL const_rfc1057_PMAPPROC_SET
  const_rfc1057_PMAPPROC_UNSET const_rfc1057_PMAPPROC_GETPORT const_rfc1057_PMAPPROC_DUMP
  const_rfc1057_PMAPPROC_CALLIT import_xdr_binary import_xdr_errors import_xdr_fmt import_xdr_math
  import_rfc1057_binary import_rfc1057_fmt import_rfc1057_io import_rfc1057_os import_rfc1057_sync
  import_rfc1057_xdr isType_xdr_int isType_xdr_uint32 isType_xdr_int32 isType_xdr_uint64 isType_xdr_int64
  isType_xdr_bool isType_rfc1057_int isType_rfc1057_uint32 isType_rfc1057_int32 isType_rfc1057_uint64
  isType_rfc1057_int64 isType_rfc1057_bool isType_xdr_MakeReader isType_xdr_MakeWriter isType_xdr_xdrRW
  isType_xdr_xdrR isType_xdr_XdrBool isType_xdr_XdrS32 isType_xdr_XdrU32 isType_xdr_XdrS64 isType_xdr_XdrU64
  isType_xdr_XdrVarArray isType_xdr_XdrArray isType_xdr_XdrString isType_xdr_EncodeBuf isType_xdr_DecodeBuf
  isType_rfc1057_MakeClient isType_rfc1057_getReqBuf isType_rfc1057_putReqBuf isType_rfc1057_MakeServer
  isType_rfc1057_PMAP_PROG_PMAP_VERS_regs isType_xdr_Xdrable isType_xdr_Bool isType_xdr_Uint32
  isType_xdr_Int32 isType_xdr_Uint64 isType_xdr_Int64 isType_xdr_Void isType_rfc1057_Auth_flavor
  isType_rfc1057_Msg_type isType_rfc1057_Reply_stat isType_rfc1057_Accept_stat isType_rfc1057_Reject_stat
  isType_rfc1057_Auth_stat isType_rfc1057_Xbool isType_rfc1057_PMAP_PROG_PMAP_VERS_handler pkg_xdr
  pkg_rfc1057 pkg_io pkg_fmt isVar_rfc1057_reqBufPool zero_xdr_int zero_xdr_uint32 zero_xdr_int32
  zero_xdr_uint64 zero_xdr_int64 zero_xdr_bool zero_xdr_string zero_xdr_error zero_rfc1057_int
  zero_rfc1057_uint32 zero_rfc1057_int32 zero_rfc1057_uint64 zero_rfc1057_int64 zero_rfc1057_bool
  zero_rfc1057_string zero_rfc1057_error zero_ptr zero_slice zero_arr4 zero_arr8 zero_XdrState zero_Opaque_auth zero_Client
  zero_Server zero_serverConn zero_ReadWriter zero_Xdrable zero_xdr_Xdrable zero_ProcHandler zero_Rpc_msg const_rfc1057_reqBufPool

attribute [go_sim]
  byval_lib_XdrState_WriteBuf byval_lib_XdrState_EncodingSetSize byval_lib_XdrState_Encoding
  byval_lib_XdrState_Decoding byval_lib_XdrState_SetError byval_lib_XdrState_Error byval_types_Bool_Xdr
  byval_types_Uint32_Xdr byval_types_Int32_Xdr byval_types_Uint64_Xdr byval_types_Int64_Xdr
  byval_types_Void_Xdr byval_client_Client_Call byval_server_Server_Register
  byval_server_Server_RegisterMany byval_server_Server_Run byval_server_serverConn_handleReq
  byval_server_serverConn_handleReqErr byval_rpcXdr_Auth_flavor_Xdr byval_rpcXdr_Opaque_auth_Xdr
  byval_rpcXdr_Msg_type_Xdr byval_rpcXdr_Reply_stat_Xdr byval_rpcXdr_Accept_stat_Xdr
  byval_rpcXdr_Reject_stat_Xdr byval_rpcXdr_Auth_stat_Xdr byval_rpcXdr_Rpc_msg_Xdr
  byval_rpcXdr_Call_body_Xdr byval_rpcXdr_Reply_body_Xdr byval_rpcXdr_Accepted_reply_Xdr
  byval_rpcXdr_Rejected_reply_Xdr byval_rpcXdr_Auth_unix_Xdr byval_rpcXdr_Mapping_Xdr
  byval_rpcXdr_Pmaplist_Xdr byval_rpcXdr_Pmaplistelem_Xdr byval_rpcXdr_Call_args_Xdr
  byval_rpcXdr_Call_result_Xdr byval_rpcXdr_Uint32_Xdr byval_rpcXdr_Xbool_Xdr
  byval_rpcXdr_PMAP_PROG_PMAP_VERS_handler_wrapper_PMAPPROC_NULL
  byval_rpcXdr_PMAP_PROG_PMAP_VERS_handler_wrapper_PMAPPROC_SET
  byval_rpcXdr_PMAP_PROG_PMAP_VERS_handler_wrapper_PMAPPROC_UNSET
  byval_rpcXdr_PMAP_PROG_PMAP_VERS_handler_wrapper_PMAPPROC_GETPORT
  byval_rpcXdr_PMAP_PROG_PMAP_VERS_handler_wrapper_PMAPPROC_DUMP
  byval_rpcXdr_PMAP_PROG_PMAP_VERS_handler_wrapper_PMAPPROC_CALLIT

/-! ### Environments and fields -/

@[go_sim] theorem find_nil (x : String) : Env.find [] x = none := rfl
@[go_sim] theorem find_cons (s : List (String × Nat)) (ρ : Env) (x : String) :
    Env.find (s :: ρ) x = match s.lookup x with | some i => some i | none => Env.find ρ x := by
  simp only [Env.find, List.findSome?_cons]
  cases s.lookup x <;> rfl
@[go_sim] theorem lookup_nil {α : Type} (x : String) : ([] : List (String × α)).lookup x = none := rfl
@[go_sim] theorem lookup_cons {α : Type} (x y : String) (v : α) (l : List (String × α)) :
    ((y, v) :: l).lookup x = if x = y then some v else l.lookup x := by
  simp only [List.lookup_cons]
  by_cases h : x = y
  · simp [h]
  · have : (x == y) = false := by simp [h]
    simp [h, this]
@[go_sim] theorem at_nil (v : V) : v.at [] = some v := by cases v <;> rfl
@[go_sim] theorem at_cons (T : String) (fs : List (String × V)) (f : String) (p : List String) :
    (V.struct T fs).at (f :: p) = match fs.lookup f with | some v => v.at p | none => none := by
  simp only [V.at, V.field]
  cases fs.lookup f <;> rfl
@[go_sim] theorem put_nil (w v : V) : V.put w v [] = some w := by cases v <;> rfl
@[go_sim] theorem put_cons (w : V) (T : String) (fs : List (String × V)) (f : String) (p : List String) :
    V.put w (V.struct T fs) (f :: p) =
      match fs.lookup f with
      | some v => (match V.put w v p with | some v' => some (.struct T (setFld f v' fs)) | none => none)
      | none => none := by
  simp only [V.put]
  cases h : fs.lookup f with
  | none => rfl
  | some v => simp only [Option.bind_eq_bind, Option.bind_some]; cases V.put w v p <;> rfl
theorem at_vals (l : List V) (f : String) (p : List String) :
    (V.vals l).at (f :: p) = match l[f.length]? with | some v => v.at p | none => none := by
  simp only [V.at, V.field]
  cases l[f.length]? <;> rfl
theorem put_vals (w : V) (l : List V) (f : String) (p : List String) :
    V.put w (V.vals l) (f :: p) =
      match l[f.length]? with
      | some v => (match V.put w v p with | some v' => some (.vals (l.set f.length v')) | none => none)
      | none => none := by
  simp only [V.put]
  cases h : l[f.length]? with
  | none => rfl
  | some v => simp only [Option.bind_eq_bind, Option.bind_some]; cases V.put w v p <;> rfl
@[go_sim] theorem setFld_cons (f g : String) (v w : V) (fs : List (String × V)) :
    setFld f v ((g, w) :: fs) = if g = f then (g, v) :: fs else (g, w) :: setFld f v fs := rfl

attribute [go_sim] newArg Func.args Loc.field setFields V.field pkgName isBE notLit sliceTy fieldNames tyOf builtins afterLabel
  Option.isSome Option.map Option.getD
  List.length_cons List.length_nil List.headD List.cons_append List.nil_append List.append_nil
  Nat.zero_add Nat.add_zero Nat.sub_zero Bool.false_eq_true Bool.true_eq_false
  if_true if_false ite_true ite_false and_self and_true true_and and_false false_and or_true true_or or_false false_or
  not_true_eq_false not_false_eq_true ne_eq Bool.not_true Bool.not_false Bool.and_true Bool.true_and Bool.and_false
  Bool.false_and Option.bind_some Option.bind_none Option.pure_def Option.bind_eq_bind
  beq_self_eq_true decide_eq_true_eq Int.toNat_natCast List.isEmpty_nil List.isEmpty_cons

@[go_sim] theorem true_beq_false : (true == false) = false := rfl
@[go_sim] theorem false_beq_true : (false == true) = false := rfl
@[go_sim] theorem contains_cons (x y : String) (l : List String) :
    (y :: l).contains x = if x = y then true else l.contains x := by
  by_cases h : x = y
  · simp [h]
  · simp [h]
@[go_sim] theorem contains_nil (x : String) : ([] : List String).contains x = false := rfl

/-! ### Untyped constants -/

@[go_sim] theorem coerce_nil (v : V) : coerce .nil v = v := by cases v <;> rfl
@[go_sim] theorem coerce_bool (b : Bool) (v : V) : coerce (.bool b) v = v := by cases v <;> rfl
@[go_sim] theorem coerce_string (s) (v : V) : coerce (.str s) v = v := by cases v <;> rfl
@[go_sim] theorem coerce_slice (s) (v : V) : coerce (.slice s) v = v := by cases v <;> rfl
@[go_sim] theorem coerce_ptr (T l) (v : V) : coerce (.ptr T l) v = v := by cases v <;> rfl
@[go_sim] theorem coerce_struct (T l) (v : V) : coerce (.struct T l) v = v := by cases v <;> rfl
@[go_sim] theorem coerce_err (T l) (v : V) : coerce (.err T l) v = v := by cases v <;> rfl
@[go_sim] theorem coerce_map (i) (v : V) : coerce (.map i) v = v := by cases v <;> rfl
@[go_sim] theorem coerce_obj (i) (v : V) : coerce (.obj i) v = v := by cases v <;> rfl
@[go_sim] theorem coerce_bytes (b) (v : V) : coerce (.bytes b) v = v := by cases v <;> rfl
@[go_sim] theorem coerce_const (n) (v : V) : coerce (.const n) v = v := by cases v <;> rfl
@[go_sim] theorem coerce_glob (n) (v : V) : coerce (.glob n) v = v := by cases v <;> rfl
@[go_sim] theorem coerce_fn (n) (v : V) : coerce (.fn n) v = v := by cases v <;> rfl
@[go_sim] theorem to_nil (v : V) : coerce v .nil = .nil := by cases v <;> rfl
@[go_sim] theorem to_int (v : V) (n) : coerce v (.int n) = .int n := by cases v <;> rfl
@[go_sim] theorem to_u32 (v : V) (n) : coerce v (.u32 n) = .u32 n := by cases v <;> rfl
@[go_sim] theorem to_i32 (v : V) (n) : coerce v (.i32 n) = .i32 n := by cases v <;> rfl
@[go_sim] theorem to_u64 (v : V) (n) : coerce v (.u64 n) = .u64 n := by cases v <;> rfl
@[go_sim] theorem to_i64 (v : V) (n) : coerce v (.i64 n) = .i64 n := by cases v <;> rfl
@[go_sim] theorem to_bool (v : V) (n) : coerce v (.bool n) = .bool n := by cases v <;> rfl
@[go_sim] theorem to_str (v : V) (n) : coerce v (.str n) = .str n := by cases v <;> rfl
@[go_sim] theorem to_ptr (v : V) (T l) : coerce v (.ptr T l) = .ptr T l := by cases v <;> rfl
@[go_sim] theorem to_slice (v : V) (n) : coerce v (.slice n) = .slice n := by cases v <;> rfl
@[go_sim] theorem to_struct (v : V) (T n) : coerce v (.struct T n) = .struct T n := by cases v <;> rfl
@[go_sim] theorem to_err (v : V) (m n) : coerce v (.err m n) = .err m n := by cases v <;> rfl
@[go_sim] theorem to_obj (v : V) (n) : coerce v (.obj n) = .obj n := by cases v <;> rfl
@[go_sim] theorem to_map (v : V) (n) : coerce v (.map n) = .map n := by cases v <;> rfl
@[go_sim] theorem to_fn (v : V) (n) : coerce v (.fn n) = .fn n := by cases v <;> rfl
@[go_sim] theorem to_glob (v : V) (n) : coerce v (.glob n) = .glob n := by cases v <;> rfl
@[go_sim] theorem int_const (m n : Int) : coerce (.int m) (.const n) = .int n := rfl
@[go_sim] theorem u32_const (m : UInt32) (n : Int) : coerce (.u32 m) (.const n) = .u32 (UInt32.ofInt n) := rfl
@[go_sim] theorem i32_const (m : Int32) (n : Int) : coerce (.i32 m) (.const n) = .i32 (Int32.ofInt n) := rfl
@[go_sim] theorem u64_const (m : UInt64) (n : Int) : coerce (.u64 m) (.const n) = .u64 (UInt64.ofInt n) := rfl
@[go_sim] theorem i64_const (m : Int64) (n : Int) : coerce (.i64 m) (.const n) = .i64 (Int64.ofInt n) := rfl

/-! ### Operators -/

@[go_sim] theorem binop_eq (a b : V) : binop "==" a b = (eqV (coerce b a) (coerce a b)).map .bool := rfl
@[go_sim] theorem binop_ne (a b : V) :
    binop "!=" a b = (eqV (coerce b a) (coerce a b)).map fun r => .bool (!r) := rfl
@[go_sim] theorem binop_lt (a b : V) : binop "<" a b = (ltV (coerce b a) (coerce a b)).map .bool := rfl
@[go_sim] theorem binop_gt (a b : V) : binop ">" a b = (ltV (coerce a b) (coerce b a)).map .bool := rfl
@[go_sim] theorem binop_le (a b : V) :
    binop "<=" a b = (ltV (coerce a b) (coerce b a)).map fun r => .bool (!r) := rfl
@[go_sim] theorem binop_ge (a b : V) :
    binop ">=" a b = (ltV (coerce b a) (coerce a b)).map fun r => .bool (!r) := rfl
@[go_sim] theorem binop_add (a b : V) : binop "+" a b = arith "+" (coerce b a) (coerce a b) := rfl
@[go_sim] theorem binop_sub (a b : V) : binop "-" a b = arith "-" (coerce b a) (coerce a b) := rfl
@[go_sim] theorem binop_mod (a b : V) : binop "%" a b = arith "%" (coerce b a) (coerce a b) := rfl
@[go_sim] theorem binop_and (a b : V) : binop "&" a b = arith "&" (coerce b a) (coerce a b) := rfl
@[go_sim] theorem binop_or (a b : V) : binop "|" a b = arith "|" (coerce b a) (coerce a b) := rfl
@[go_sim] theorem binop_shl (a b : V) : binop "<<" a b = arith "<<" (coerce b a) (coerce a b) := rfl

attribute [go_sim] eqV ltV arith convert

/-! ### Memory -/

attribute [go_sim] heap_set_same heap_push_same heap_push_eq heap_set_ne heap_push_ne next_set next_push world_set world_push
  defers_set defers_push heap_deferring next_deferring world_deferring defers_deferring

/-- The same memory in another world. -/
def St.to (st : St ω) (w : ω) : St ω := { st with world := w }

@[go_sim] theorem heap_to (st : St ω) (w : ω) : (st.to w).heap = st.heap := rfl
@[go_sim] theorem next_to (st : St ω) (w : ω) : (st.to w).next = st.next := rfl
@[go_sim] theorem defers_to (st : St ω) (w : ω) : (st.to w).defers = st.defers := rfl
@[go_sim] theorem world_to (st : St ω) (w : ω) : (st.to w).world = w := rfl

theorem wp_eq {α : Type} {m m' : M ω α} {Q : α → St ω → Prop} {st : St ω} (h : m = m') : wp m Q st = wp m' Q st := by
  rw [h]

open Lean Meta Simp in
/-- Simplifies one argument of an application. -/
def simpArg (e : Lean.Expr) (i : Nat) : SimpM (Option Simp.Result) := do
  let args := e.getAppArgs
  let d := args[i]!
  let r ← simp d
  if r.expr == d then return none
  let e' := mkAppN e.getAppFn (args.set! i r.expr)
  match r.proof? with
  | none => return some { expr := e' }
  | some h =>
    let f ← withLocalDeclD `d (← inferType d) fun x => mkLambdaFVars #[x] (mkAppN e.getAppFn (args.set! i x))
    return some { expr := e', proof? := ← mkCongrArg f h }

open Lean Meta Simp in
/-- Where no rule applies, the program is simplified, but not what comes after it; of a case distinction only
what it depends on. -/
simproc_decl wpStuck (_) := fun e => do
  if e.isAppOfArity ``wp 5 then
    match ← simpArg e 2 with
    | none => return .done { expr := e }
    | some r => return .visit r
  if e.isAppOfArity ``ite 5 then
    unless (e.getArg! 0).isProp do return .continue
    let c := e.getArg! 1
    let r ← simp c
    if r.expr.isTrue then return .visit { expr := e.getArg! 3, proof? := mkApp6 (mkConst ``ite_cond_eq_true [Lean.Level.one]) (e.getArg! 0) (e.getArg! 1) (e.getArg! 2) (e.getArg! 3) (e.getArg! 4) (← r.getProof) }
    if r.expr.isFalse then return .visit { expr := e.getArg! 4, proof? := mkApp6 (mkConst ``ite_cond_eq_false [Lean.Level.one]) (e.getArg! 0) (e.getArg! 1) (e.getArg! 2) (e.getArg! 3) (e.getArg! 4) (← r.getProof) }
    let c := r.expr
    if let some h ← (← getMethods).discharge? c then
      let h ← mkEqTrans (← r.getProof) (← mkEqTrue h)
      return .visit { expr := e.getArg! 3, proof? := mkApp6 (mkConst ``ite_cond_eq_true [Lean.Level.one]) (e.getArg! 0) (e.getArg! 1) (e.getArg! 2) (e.getArg! 3) (e.getArg! 4) h }
    if let some h ← (← getMethods).discharge? (mkNot c) then
      let h ← mkEqTrans (← r.getProof) (← mkEqFalse h)
      return .visit { expr := e.getArg! 4, proof? := mkApp6 (mkConst ``ite_cond_eq_false [Lean.Level.one]) (e.getArg! 0) (e.getArg! 1) (e.getArg! 2) (e.getArg! 3) (e.getArg! 4) h }
    return .done { expr := e }
  let some info ← matchMatcherApp? e (alsoCasesOn := false) | return .continue
  unless info.discrs.size == 1 && info.remaining.size == 0 do return .continue
  unless (← inferType e).isProp do return .continue
  match ← reduceMatcher? e with
  | .reduced e' => return .visit { expr := e' }
  | _ =>
  match ← simpArg e (info.params.size + 1) with
  | none => return .done { expr := e }
  | some r =>
    match ← reduceMatcher? r.expr with
    | .reduced e' => return .visit { r with expr := e' }
    | _ => return .done r

theorem isBE_id (x : String) : isBE (.id x) = false := (rfl)
theorem isBE_sel (x f : String) : isBE (.sel (.id x) f) = (x == "binary" && f == "BigEndian") := (rfl)
theorem isBE_sel' (e : Expr) (f g : String) : isBE (.sel (.sel e f) g) = false := (rfl)
theorem isBE_call (e : Expr) (args : List Expr) (s : Bool) : isBE (.call e args s) = false := (rfl)
theorem notLit_id (x : String) : notLit (.id x) = true := (rfl)
theorem notLit_sel (e : Expr) (f : String) : notLit (.sel e f) = true := (rfl)
theorem notLit_un (op : String) (e : Expr) : notLit (.un op e) = true := (rfl)
theorem notLit_call (e : Expr) (args : List Expr) (s : Bool) : notLit (.call e args s) = true := (rfl)

/-- Different cells. -/
macro "go_ne" : tactic =>
  `(tactic| first
    | omega
    | assumption
    | (simp only [next_set, next_push, next_deferring, next_to, ne_eq, String.reduceEq, not_false_eq_true]; done)
    | (simp only [isBE_id, isBE_sel, isBE_sel', isBE_call, notLit_id, notLit_sel, notLit_un, notLit_call, String.reduceBEq, Bool.and_false, Bool.false_and, Bool.and_true]; done)
    | (simp only [next_set, next_push, next_deferring, next_to, ne_eq]; omega))

/-- Running a program as far as it is determined. -/
syntax "go_run" (" [" Lean.Parser.Tactic.simpLemma,* "]")? : tactic
macro_rules
  | `(tactic| go_run) => `(tactic| simp (disch := go_ne) only [go_sim, ↓reduceIte, String.reduceEq, String.reduceNe, String.reduceBEq, String.reduceAppend, reduceCtorEq, ↓wpStuck])
  | `(tactic| go_run [$ls,*]) => `(tactic| simp (disch := go_ne) only [go_sim, ↓reduceIte, String.reduceEq, String.reduceNe, String.reduceBEq, String.reduceAppend, reduceCtorEq, ↓wpStuck, $ls,*])

end Verif.Lang
