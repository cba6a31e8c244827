/-
`refmt` of main.go, as read from the file.
-/
import Verif.Lang.ToolExt
import Verif.Lang.Ends
import Verif.Lang.Obj

namespace Verif.Lang
open Verif.Tool
set_option linter.unusedSimpArgs false

theorem find_refmt : genProg.find (.fn "main" "refmt") = some ("main", main_refmt) := by kernel_rfl
theorem find_main : genProg.find (.fn "main" "main") = some ("main", main_main) := by kernel_rfl
theorem find_xdrParse : genProg.find (.fn "main" "xdrParse") = none := by kernel_rfl
theorem import_ioutil : isImport genProg "main" "ioutil" = true := by kernel_rfl
theorem import_format : isImport genProg "main" "format" = true := by kernel_rfl
theorem import_os : isImport genProg "main" "os" = true := by kernel_rfl
theorem import_flag : isImport genProg "main" "flag" = true := by kernel_rfl
theorem pkg_ioutil : (genProg.pkg "ioutil").isNone = true := by kernel_rfl
theorem pkg_format : (genProg.pkg "format").isNone = true := by kernel_rfl
theorem pkg_os : (genProg.pkg "os").isNone = true := by kernel_rfl
theorem pkg_flag : (genProg.pkg "flag").isNone = true := by kernel_rfl
theorem pkg_token : (genProg.pkg "token").isNone = true := by kernel_rfl
theorem zero_string : genProg.zero "main" (.name "string") = some (.str []) := by kernel_rfl

theorem const_nil : genProg.const "main" "nil" = none := by kernel_rfl

/-! ### The world after a call -/

theorem didRead_fs (g : TW) : (g.didRead).fs = g.fs := rfl
theorem didRead_out (g : TW) : (g.didRead).out = g.out := rfl
theorem didRead_tout (g : TW) : (g.didRead).tout = g.tout := rfl
theorem didRead_opened (g : TW) : (g.didRead).opened = g.opened := rfl
theorem didRead_reads (g : TW) : (g.didRead).reads = g.reads + 1 := rfl
theorem didRead_opens (g : TW) : (g.didRead).opens = g.opens := rfl
theorem didRead_writes (g : TW) : (g.didRead).writes = g.writes := rfl
theorem didRead_prints (g : TW) : (g.didRead).prints = g.prints := rfl
theorem didRead_toks (g : TW) : (g.didRead).toks = g.toks := rfl
theorem didOpen_fs (g : TW) : (g.didOpen).fs = g.fs := rfl
theorem didOpen_out (g : TW) : (g.didOpen).out = g.out := rfl
theorem didOpen_tout (g : TW) : (g.didOpen).tout = g.tout := rfl
theorem didOpen_opened (g : TW) : (g.didOpen).opened = g.opened := rfl
theorem didOpen_reads (g : TW) : (g.didOpen).reads = g.reads := rfl
theorem didOpen_opens (g : TW) : (g.didOpen).opens = g.opens + 1 := rfl
theorem didOpen_writes (g : TW) : (g.didOpen).writes = g.writes := rfl
theorem didOpen_prints (g : TW) : (g.didOpen).prints = g.prints := rfl
theorem didOpen_toks (g : TW) : (g.didOpen).toks = g.toks := rfl
theorem created_fs (g : TW) (p : Path) (fs : FS) : (g.created p fs).fs = fs := rfl
theorem created_out (g : TW) (p : Path) (fs : FS) : (g.created p fs).out = g.out := rfl
theorem created_tout (g : TW) (p : Path) (fs : FS) : (g.created p fs).tout = g.tout := rfl
theorem created_opened (g : TW) (p : Path) (fs : FS) : (g.created p fs).opened = g.opened ++ [p] := rfl
theorem created_reads (g : TW) (p : Path) (fs : FS) : (g.created p fs).reads = g.reads := rfl
theorem created_opens (g : TW) (p : Path) (fs : FS) : (g.created p fs).opens = g.opens + 1 := rfl
theorem created_writes (g : TW) (p : Path) (fs : FS) : (g.created p fs).writes = g.writes := rfl
theorem created_prints (g : TW) (p : Path) (fs : FS) : (g.created p fs).prints = g.prints := rfl
theorem created_toks (g : TW) (p : Path) (fs : FS) : (g.created p fs).toks = g.toks := rfl
theorem removed_fs (g : TW) (fs : FS) : (g.removed fs).fs = fs := rfl
theorem removed_out (g : TW) (fs : FS) : (g.removed fs).out = g.out := rfl
theorem removed_tout (g : TW) (fs : FS) : (g.removed fs).tout = g.tout := rfl
theorem removed_opened (g : TW) (fs : FS) : (g.removed fs).opened = g.opened := rfl
theorem removed_reads (g : TW) (fs : FS) : (g.removed fs).reads = g.reads := rfl
theorem removed_opens (g : TW) (fs : FS) : (g.removed fs).opens = g.opens := rfl
theorem removed_writes (g : TW) (fs : FS) : (g.removed fs).writes = g.writes := rfl
theorem removed_prints (g : TW) (fs : FS) : (g.removed fs).prints = g.prints := rfl
theorem removed_toks (g : TW) (fs : FS) : (g.removed fs).toks = g.toks := rfl
theorem wrote_fs (g : TW) (fs : FS) : (g.wrote fs).fs = fs := rfl
theorem wrote_out (g : TW) (fs : FS) : (g.wrote fs).out = g.out := rfl
theorem wrote_tout (g : TW) (fs : FS) : (g.wrote fs).tout = g.tout := rfl
theorem wrote_opened (g : TW) (fs : FS) : (g.wrote fs).opened = g.opened := rfl
theorem wrote_reads (g : TW) (fs : FS) : (g.wrote fs).reads = g.reads := rfl
theorem wrote_opens (g : TW) (fs : FS) : (g.wrote fs).opens = g.opens := rfl
theorem wrote_writes (g : TW) (fs : FS) : (g.wrote fs).writes = g.writes + 1 := rfl
theorem wrote_prints (g : TW) (fs : FS) : (g.wrote fs).prints = g.prints := rfl
theorem wrote_toks (g : TW) (fs : FS) : (g.wrote fs).toks = g.toks := rfl
theorem printed_fs (g : TW) (fs : FS) : (g.printed fs).fs = fs := rfl
theorem printed_out (g : TW) (fs : FS) : (g.printed fs).out = g.out := rfl
theorem printed_tout (g : TW) (fs : FS) : (g.printed fs).tout = g.tout := rfl
theorem printed_opened (g : TW) (fs : FS) : (g.printed fs).opened = g.opened := rfl
theorem printed_reads (g : TW) (fs : FS) : (g.printed fs).reads = g.reads := rfl
theorem printed_opens (g : TW) (fs : FS) : (g.printed fs).opens = g.opens := rfl
theorem printed_writes (g : TW) (fs : FS) : (g.printed fs).writes = g.writes := rfl
theorem printed_prints (g : TW) (fs : FS) : (g.printed fs).prints = g.prints + 1 := rfl
theorem printed_toks (g : TW) (fs : FS) : (g.printed fs).toks = g.toks := rfl
theorem setOut_fs (g : TW) (v : V) : (g.setOut v).fs = g.fs := rfl
theorem setOut_out (g : TW) (v : V) : (g.setOut v).out = v := rfl
theorem setOut_tout (g : TW) (v : V) : (g.setOut v).tout = g.tout := rfl
theorem setOut_opened (g : TW) (v : V) : (g.setOut v).opened = g.opened := rfl
theorem setOut_reads (g : TW) (v : V) : (g.setOut v).reads = g.reads := rfl
theorem setOut_opens (g : TW) (v : V) : (g.setOut v).opens = g.opens := rfl
theorem setOut_writes (g : TW) (v : V) : (g.setOut v).writes = g.writes := rfl
theorem setOut_prints (g : TW) (v : V) : (g.setOut v).prints = g.prints := rfl
theorem setOut_toks (g : TW) (v : V) : (g.setOut v).toks = g.toks := rfl
theorem setTout_fs (g : TW) (v : V) : (g.setTout v).fs = g.fs := rfl
theorem setTout_out (g : TW) (v : V) : (g.setTout v).out = g.out := rfl
theorem setTout_tout (g : TW) (v : V) : (g.setTout v).tout = v := rfl
theorem setTout_opened (g : TW) (v : V) : (g.setTout v).opened = g.opened := rfl
theorem setTout_reads (g : TW) (v : V) : (g.setTout v).reads = g.reads := rfl
theorem setTout_opens (g : TW) (v : V) : (g.setTout v).opens = g.opens := rfl
theorem setTout_writes (g : TW) (v : V) : (g.setTout v).writes = g.writes := rfl
theorem setTout_prints (g : TW) (v : V) : (g.setTout v).prints = g.prints := rfl
theorem setTout_toks (g : TW) (v : V) : (g.setTout v).toks = g.toks := rfl
theorem init_fs (g : TW) (ts : List Scanned) : (g.init ts).fs = g.fs := rfl
theorem init_out (g : TW) (ts : List Scanned) : (g.init ts).out = g.out := rfl
theorem init_tout (g : TW) (ts : List Scanned) : (g.init ts).tout = g.tout := rfl
theorem init_opened (g : TW) (ts : List Scanned) : (g.init ts).opened = g.opened := rfl
theorem init_reads (g : TW) (ts : List Scanned) : (g.init ts).reads = g.reads := rfl
theorem init_opens (g : TW) (ts : List Scanned) : (g.init ts).opens = g.opens := rfl
theorem init_writes (g : TW) (ts : List Scanned) : (g.init ts).writes = g.writes := rfl
theorem init_prints (g : TW) (ts : List Scanned) : (g.init ts).prints = g.prints := rfl
theorem init_toks (g : TW) (ts : List Scanned) : (g.init ts).toks = ts := rfl

theorem start_fs (fs : FS) : (TW.start fs).fs = fs := rfl
theorem start_out (fs : FS) : (TW.start fs).out = .nil := rfl
theorem start_tout (fs : FS) : (TW.start fs).tout = .nil := rfl
theorem start_opened (fs : FS) : (TW.start fs).opened = [] := rfl
theorem start_reads (fs : FS) : (TW.start fs).reads = 0 := rfl
theorem start_opens (fs : FS) : (TW.start fs).opens = 0 := rfl
theorem start_writes (fs : FS) : (TW.start fs).writes = 0 := rfl
theorem start_prints (fs : FS) : (TW.start fs).prints = 0 := rfl
theorem start_toks (fs : FS) : (TW.start fs).toks = [] := rfl

attribute [go_sim] start_fs start_out start_tout start_opened start_reads start_opens start_writes start_prints start_toks didRead_fs didRead_out didRead_tout didRead_opened didRead_reads didRead_opens didRead_writes didRead_prints didRead_toks didOpen_fs didOpen_out didOpen_tout didOpen_opened didOpen_reads didOpen_opens didOpen_writes didOpen_prints didOpen_toks created_fs created_out created_tout created_opened created_reads created_opens created_writes created_prints created_toks removed_fs removed_out removed_tout removed_opened removed_reads removed_opens removed_writes removed_prints removed_toks wrote_fs wrote_out wrote_tout wrote_opened wrote_reads wrote_opens wrote_writes wrote_prints wrote_toks printed_fs printed_out printed_tout printed_opened printed_reads printed_opens printed_writes printed_prints printed_toks setOut_fs setOut_out setOut_tout setOut_opened setOut_reads setOut_opens setOut_writes setOut_prints setOut_toks setTout_fs setTout_out setTout_tout setTout_opened setTout_reads setTout_opens setTout_writes setTout_prints setTout_toks init_fs init_out init_tout init_opened init_reads init_opens init_writes init_prints init_toks

section
variable {sys : Sys} {fl : ToolFlags} {parse : List V → M TW (List V)} {grow : Nat → Nat → Nat} {loops : Nat}

theorem ext_read (args : List V) : (toolExt sys fl parse grow loops).ext "ioutil.ReadFile" args = doRead sys args := rfl
theorem ext_write (args : List V) : (toolExt sys fl parse grow loops).ext "ioutil.WriteFile" args = doWrite sys args := rfl
theorem ext_format (args : List V) : (toolExt sys fl parse grow loops).ext "format.Source" args = doFormat sys args := rfl

theorem wp_read (p : List UInt8) (st : St TW) (Q : List V → St TW → Prop) : wp (doRead sys [.str p]) Q st =
    match Tool.readFile st.world.fs (pathOf p) (sys.readFails st.world.reads) with
    | none => Q [.nil, sysErr] (st.to st.world.didRead)
    | some c => Q [.slice ⟨⟨st.next, []⟩, 0, c.length, c.length⟩, .nil]
        ((st.to st.world.didRead).push (.bytes c)) := by
  unfold doRead wp
  simp only
  cases Tool.readFile st.world.fs (pathOf p) (sys.readFails st.world.reads) <;> rfl

theorem wp_write (p : List UInt8) (v : V) (st : St TW) (Q : List V → St TW → Prop) : wp (doWrite sys [.str p, v, .const (438 : Nat)]) Q st =
    wp (bytesOf v) (fun b st => Q [if (Tool.writeFile st.world.fs (pathOf p) b (sys.write st.world.writes)).2 then .nil else sysErr]
      (st.to (st.world.wrote (Tool.writeFile st.world.fs (pathOf p) b (sys.write st.world.writes)).1))) st := by
  unfold doWrite
  rw [wp_bind]
  rfl

theorem wp_format (v : V) (st : St TW) (Q : List V → St TW → Prop) : wp (doFormat sys [v]) Q st =
    wp (bytesOf v) (fun b st => match sys.format b with
      | some c => Q [.slice ⟨⟨st.next, []⟩, 0, c.length, c.length⟩, .nil] (st.push (.bytes c))
      | none => Q [.nil, sysErr] st) st := by
  unfold doFormat
  rw [wp_bind]
  congr
  funext b st
  cases sys.format b <;> rfl

/-- `if err != nil { panic(err) }` -/
def errCheck : Stmt :=
  .ite (.bin "!=" (.id "err") (.id "nil")) [.expr (.call (.id "panic") [.id "err"] false)] []

theorem dies_check {S : Sem TW} {ρ : Env} {rest : List Stmt} {st : St TW} {Q : St TW → Prop} {i : Nat}
    (hS : S.prog = genProg) (hρ : ρ.find "err" = some i) (hn : ρ.find "nil" = none) (hp : ρ.find "panic" = none)
    (he : st.heap i = sysErr) (hq : Q st) :
    dies (execs S "main" (errCheck :: rest) ρ .next) .panic Q st := by
  have e1 : evalM S "main" ρ (.bin "!=" (.id "err") (.id "nil")) st = .ok ([.bool true], st) := by
    have : wp (evalM S "main" ρ (.bin "!=" (.id "err") (.id "nil"))) (fun r s => r = [.bool true] ∧ s = st) st := by
      go_run [hρ, hn, hp, he, sysErr, hS, const_nil]
    obtain ⟨_, _, e, rfl, rfl⟩ := wp_iff.mp this
    exact e
  have e2 : evalArgs S "main" ([] :: ρ) [.id "err"] st = .ok ([sysErr], st) := by
    have : wp (evalArgs S "main" ([] :: ρ) [.id "err"]) (fun r s => r = [sysErr] ∧ s = st) st := by
      go_run [hρ, hn, hp, he, sysErr, hS, const_nil]
    obtain ⟨_, _, e, rfl, rfl⟩ := wp_iff.mp this
    exact e
  refine dies_head ?_
  unfold errCheck
  rw [exec]
  refine dies_bind (wp_iff.mpr ⟨.bool true, st, ok_bind e1 rfl, ?_⟩)
  refine dies_left (dies_head ?_)
  rw [exec]
  refine dies_left ?_
  have hp' : Env.find ([] :: ρ) "panic" = none := hp
  have : evalM S "main" ([] :: ρ) (.call (.id "panic") [.id "err"] false) st = .error (.panic, st) := by
    rw [evalM]
    · simp only [hp']
      rw [if_neg (by decide), if_neg (by decide)]
      exact ok_bind e2 rfl
    · exact fun _ _ h => nomatch h
  exact ⟨st, this, hq⟩

macro "main_run" "[" ls:Lean.Parser.Tactic.simpLemma,* "]" : tactic => `(tactic|
  go_run [zero_string, import_ioutil, import_format, pkg_ioutil, pkg_format, ext_read, ext_write, ext_format, wp_read,
    wp_format, wp_write, const_nil, List.drop_zero, List.take_length, $ls,*])

theorem refmt_ok (k : Nat) (a b : List UInt8) (st : St TW) (c d : Content)
    (hc : Tool.readFile st.world.fs (pathOf a) (sys.readFails st.world.reads) = some c) (hd : sys.format c = some d)
    (hw : (Tool.writeFile st.world.fs (pathOf b) d (sys.write st.world.writes)).2 = true) :
    wp (callN genProg (toolExt sys fl parse grow loops) (k + 1) (.fn "main" "refmt") [.str a, .str b]) (fun r s => r = [] ∧
      Leaves (st.world.didRead.wrote (Tool.writeFile st.world.fs (pathOf b) d (sys.write st.world.writes)).1) st s) st := by
  rw [wp_callN _ _ _ _ _ _ _ _ _ find_refmt, wp_callFunc, main_refmt]
  main_run [hc, hd, hw]
  exact ⟨rfl, by go_run; omega, rfl, fun j hj => by go_run⟩

theorem refmt_unread (k : Nat) (a b : List UInt8) (st : St TW)
    (hc : Tool.readFile st.world.fs (pathOf a) (sys.readFails st.world.reads) = none) :
    dies (callN genProg (toolExt sys fl parse grow loops) (k + 1) (.fn "main" "refmt") [.str a, .str b]) .panic (fun s =>
      Leaves st.world.didRead st s) st := by
  refine dies_callN find_refmt (dies_callFunc (dies_body ?_))
  rw [main_refmt]
  main_run []
  refine dies_next ?_
  main_run [hc]
  refine dies_check rfl rfl rfl rfl (by go_run <;> rfl) ?_
  go_run
  exact ⟨rfl, by go_run; omega, rfl, fun j hj => by go_run⟩

theorem refmt_unformatted (k : Nat) (a b : List UInt8) (st : St TW) (c : Content)
    (hc : Tool.readFile st.world.fs (pathOf a) (sys.readFails st.world.reads) = some c) (hd : sys.format c = none) :
    dies (callN genProg (toolExt sys fl parse grow loops) (k + 1) (.fn "main" "refmt") [.str a, .str b]) .panic (fun s =>
      Leaves st.world.didRead st s) st := by
  refine dies_callN find_refmt (dies_callFunc (dies_body ?_))
  rw [main_refmt]
  main_run []
  refine dies_next ?_
  main_run [hc]
  refine dies_next ?_
  main_run []
  refine dies_next ?_
  main_run [hd]
  refine dies_check rfl rfl rfl rfl (by go_run <;> rfl) ?_
  go_run
  exact ⟨rfl, by go_run; omega, rfl, fun j hj => by go_run⟩

theorem refmt_unwritten (k : Nat) (a b : List UInt8) (st : St TW) (c d : Content)
    (hc : Tool.readFile st.world.fs (pathOf a) (sys.readFails st.world.reads) = some c) (hd : sys.format c = some d)
    (hw : (Tool.writeFile st.world.fs (pathOf b) d (sys.write st.world.writes)).2 = false) :
    dies (callN genProg (toolExt sys fl parse grow loops) (k + 1) (.fn "main" "refmt") [.str a, .str b]) .panic (fun s =>
      Leaves (st.world.didRead.wrote (Tool.writeFile st.world.fs (pathOf b) d (sys.write st.world.writes)).1) st s) st := by
  refine dies_callN find_refmt (dies_callFunc (dies_body ?_))
  rw [main_refmt]
  main_run []
  refine dies_next ?_
  main_run [hc]
  refine dies_next ?_
  main_run []
  refine dies_next ?_
  main_run [hd]
  refine dies_next ?_
  main_run []
  refine dies_next ?_
  main_run [hw]
  refine dies_check rfl rfl rfl rfl (by go_run <;> rfl) ?_
  go_run
  exact ⟨rfl, by go_run; omega, rfl, fun j hj => by go_run⟩


theorem refmt_spec (k : Nat) (a b : List UInt8) (st : St TW) (w : World) (hw : w.format = sys.format) :
    ends (callN genProg (toolExt sys fl parse grow loops) (k + 1) (.fn "main" "refmt") [.str a, .str b]) (fun r s =>
      r = (if (Tool.refmt w st.world.fs (pathOf a) (pathOf b) (sys.readFails st.world.reads) (sys.write st.world.writes)).2 then .ok [] else .error .panic) ∧
      s.world.fs = (Tool.refmt w st.world.fs (pathOf a) (pathOf b) (sys.readFails st.world.reads) (sys.write st.world.writes)).1 ∧
      s.world.reads = st.world.reads + 1 ∧ (r = .ok [] → s.world.writes = st.world.writes + 1) ∧ Leaves s.world st s) st := by
  unfold Tool.refmt
  cases hc : Tool.readFile st.world.fs (pathOf a) (sys.readFails st.world.reads) with
  | none =>
    refine ends_dies (dies_mono (refmt_unread k a b st hc) fun s h => ?_)
    obtain ⟨h1, h2, h3, h4⟩ := h
    exact ⟨rfl, by rw [h1]; rfl, by rw [h1]; rfl, (fun h => nomatch h), rfl, h2, h3, h4⟩
  | some c =>
    simp only [hw]
    cases hd : sys.format c with
    | none =>
      refine ends_dies (dies_mono (refmt_unformatted k a b st c hc hd) fun s h => ?_)
      obtain ⟨h1, h2, h3, h4⟩ := h
      exact ⟨rfl, by rw [h1]; rfl, by rw [h1]; rfl, (fun h => nomatch h), rfl, h2, h3, h4⟩
    | some d =>
      simp only
      cases hw : (Tool.writeFile st.world.fs (pathOf b) d (sys.write st.world.writes)).2 with
      | false =>
        refine ends_dies (dies_mono (refmt_unwritten k a b st c d hc hd hw) fun s h => ?_)
        obtain ⟨h1, h2, h3, h4⟩ := h
        exact ⟨rfl, by rw [h1]; rfl, by rw [h1]; rfl, (fun h => nomatch h), rfl, h2, h3, h4⟩
      | true =>
        refine ends_wp (wp_mono (refmt_ok k a b st c d hc hd hw) fun r s h => ?_)
        obtain ⟨rfl, h1, h2, h3, h4⟩ := h
        exact ⟨rfl, by rw [h1]; rfl, by rw [h1]; rfl, fun _ => by rw [h1]; rfl, rfl, h2, h3, h4⟩

end

end Verif.Lang
