/-
The method bodies printed by out.go, read as Go.
-/
import Verif.Text.EmitType

namespace Verif.Text
open Verif.Gen

/-! ### Statement lists -/

def GSs.append : GSs → GSs → GSs
  | .nil, c => c
  | .last s, c => .cons s c
  | .cons s b, c => .cons s (b.append c)

theorem gSs_append : ∀ {a : GSs}, a.closed = true → ∀ b, gSs (a.append b) = gSs a ++ gSs b
  | .nil, _, _ => rfl
  | .last _, h, _ => by cases h
  | .cons s a, h, b => by
    simp only [GSs.append, gSs, gSs_append (a := a) h b, List.append_assoc, List.cons_append]

theorem wSs_append : ∀ (a b : GSs), wSs (a.append b) = (wSs a && wSs b)
  | .nil, _ => rfl
  | .last s, b => rfl
  | .cons s a, b => by simp only [GSs.append, wSs, wSs_append a b, Bool.and_assoc]

theorem closed_append : ∀ {a b : GSs}, a.closed = true → b.closed = true → (a.append b).closed = true
  | .nil, _, _, h => h
  | .last _, _, h, _ => by cases h
  | .cons s a, _, h, h' => closed_append (a := a) h h'

theorem lowSs_append : ∀ {a b : GSs} {x y : Stmts}, lowSs a = some x → lowSs b = some y →
    lowSs (a.append b) = some (x ++ y)
  | .nil, b, x, y, h, h' => by
    cases h; exact h'
  | .last s, b, x, y, h, h' => by
    simp only [lowSs] at h
    cases hs : lowS s with
    | none => rw [hs] at h; cases h
    | some z =>
      rw [hs] at h; cases h
      simp only [GSs.append, lowSs, hs, h']; rfl
  | .cons s a, b, x, y, h, h' => by
    simp only [lowSs] at h
    cases hs : lowS s with
    | none => rw [hs] at h; cases h
    | some z =>
      rw [hs] at h
      cases ha : lowSs a with
      | none => rw [ha] at h; cases h
      | some l =>
        rw [ha] at h; cases h
        simp only [GSs.append, lowSs, hs, lowSs_append ha h']; rfl

theorem lowBody_of : ∀ {b : GSs} {x : Stmts}, lowSs b = some x → lowBody b = some (x, false)
  | .nil, x, h => by cases h; rfl
  | .last s, x, h => by
    simp only [lowSs] at h
    cases hs : lowS s with
    | none => rw [hs] at h; cases h
    | some z =>
      rw [hs] at h; cases h
      cases s <;> first | (cases hs; done) | simp only [lowBody, hs]
  | .cons s b, x, h => by
    simp only [lowSs] at h
    cases hs : lowS s with
    | none => rw [hs] at h; cases h
    | some z =>
      rw [hs] at h
      cases hb : lowSs b with
      | none => rw [hb] at h; cases h
      | some l =>
        rw [hb] at h; cases h
        have ih := lowBody_of hb
        cases s <;> first | (cases hs; done) | simp only [lowBody, hs, ih]

/-- The text `X` is the statements `ss`. -/
structure StmtsOk (X : Text) (b : GSs) (ss : Stmts) : Prop where
  closed : b.closed = true
  w : wSs b = true
  scan : Scans ⟨.idle, false⟩ X (gSs b) ⟨.idle, false⟩
  low : lowSs b = some ss

def RS (X : Text) (ss : Stmts) : Prop := ∃ b, StmtsOk X b ss

theorem RS.nil : RS [] .nil := ⟨.nil, rfl, rfl, .nil _, rfl⟩

theorem RS.append {X Y : Text} {a b : Stmts} (hX : RS X a) (hY : RS Y b) : RS (X ++ Y) (a ++ b) := by
  obtain ⟨c, h1, h2, h3, h4⟩ := hX
  obtain ⟨d, g1, g2, g3, g4⟩ := hY
  refine ⟨c.append d, closed_append h1 g1, ?_, ?_, lowSs_append h4 g4⟩
  · rw [wSs_append, h2, g2]; rfl
  · rw [gSs_append h1]; exact h3.append g3

theorem RS.one {X : Text} {s : GS} {x : Stmt} (hs : Scans ⟨.idle, false⟩ X (gS s ++ [.semi]) ⟨.idle, false⟩)
    (hw : wS s = true) (hl : lowS s = some x) : RS X (.cons x .nil) := by
  refine ⟨.cons s .nil, rfl, ?_, ?_, ?_⟩
  · simp only [wSs, hw]; rfl
  · exact hs
  · simp only [lowSs, hl]

theorem RS.two {X Y : Text} {s s' : Stmt} (h : RS X (.cons s .nil)) (h' : RS Y (.cons s' .nil)) :
    RS (X ++ Y) (.cons s (.cons s' .nil)) := h.append h'

theorem RS.cons {X Y : Text} {s : Stmt} {b : Stmts} (h : RS X (.cons s .nil)) (h' : RS Y b) :
    RS (X ++ Y) (.cons s b) := h.append h'

/-- An empty line. -/
theorem RS.line {X : Text} {a : Stmts} (h : RS X a) : RS (X ++ t!"\n") a := by
  obtain ⟨b, h1, h2, h3, h4⟩ := h
  refine ⟨b, h1, h2, ?_, h4⟩
  have := h3.append (scF% "\n")
  rw [List.append_nil] at this
  exact this

/-! ### Pointers -/

/-- The text `P` is the pointer expression `p`. -/
structure Ptr (P : Text) (e : GE) (p : Ex) : Prop where
  frag : FragE P (gE e)
  w : wE .unary false e = true
  low : lowEx e = some p
  hd : Hd 42 P

theorem Ptr.we {P e p} (h : Ptr P e p) : wE .expr false e = true := wE_expr h.w

theorem ptr_recv : Ptr t!"v" (.id t!"v") .recv where
  frag := Word.frag ⟨⟨_, _, rfl, rfl, rfl⟩, rfl⟩
  w := rfl
  low := rfl
  hd := ⟨_, _, rfl, by decide, by decide⟩

theorem ptr_field {P e p n} (h : Ptr P e p) (hn : isName n = true) :
    Ptr (fieldTxt P n) (.addr (.paren (.sel (.paren e) (iTxt n)))) (fieldPtr p (i n)) where
  frag := (((h.frag.pre (scA% "&((")).midOp (word_i hn).frag ((word_i hn).hd (by simp)) (scT% ").") rfl).suf
    (scT% ")") rfl).cast (by flat)
  w := by simp only [wE, h.we]; rfl
  low := by simp only [lowEx, h.low]; simp only [iTxt, name_codes]; rfl
  hd := ⟨_, _, rfl, by decide, by decide⟩

theorem ptr_elem {P e p} (h : Ptr P e p) :
    Ptr (t!"&((*(" ++ P ++ t!"))[i])") (.addr (.paren (.idx (.paren (.star (.paren e))) (.id t!"i")))) (elemPtr p) where
  frag := ((h.frag.pre (scA% "&((*(")).suf (scT% "))[i])") rfl).cast (by flat)
  w := by simp only [wE, h.we]; rfl
  low := by simp only [lowEx, h.low]; rfl
  hd := ⟨_, _, rfl, by decide, by decide⟩

theorem ptr_fixedElem {P e p} (h : Ptr P e p) :
    Ptr (t!"&(*(" ++ P ++ t!")[i])") (.addr (.paren (.star (.idx (.paren e) (.id t!"i"))))) (fixedElemPtr p) where
  frag := ((h.frag.pre (scA% "&(*(")).suf (scT% ")[i])") rfl).cast (by flat)
  w := by simp only [wE, h.we]; rfl
  low := by simp only [lowEx, h.low]; rfl
  hd := ⟨_, _, rfl, by decide, by decide⟩

theorem ptr_deref {P e p} (h : Ptr P e p) : Ptr (t!"*(" ++ P ++ t!")") (.star (.paren e)) (.deref p) where
  frag := ((h.frag.pre (scA% "*(")).suf (scT% ")") rfl).cast (by flat)
  w := by simp only [wE, h.we]; rfl
  low := by simp only [lowEx, h.low]
  hd := ⟨_, _, rfl, by decide, by decide⟩

theorem ptr_arraysz : Ptr t!"&__arraysz" (.addr (.id t!"__arraysz")) (.addr (.var arraysz)) where
  frag := FragE.op 38 (X := t!"__arraysz") (Word.frag ⟨⟨_, _, rfl, rfl, rfl⟩, rfl⟩) ⟨_, _, rfl, by decide, by decide⟩
    (fun _ => rfl)
  w := rfl
  low := rfl
  hd := ⟨_, _, rfl, by decide, by decide⟩

theorem ptr_opted : Ptr t!"&opted" (.addr (.id t!"opted")) (.addr (.var opted)) where
  frag := FragE.op 38 (X := t!"opted") (Word.frag ⟨⟨_, _, rfl, rfl, rfl⟩, rfl⟩) ⟨_, _, rfl, by decide, by decide⟩
    (fun _ => rfl)
  w := rfl
  low := rfl
  hd := ⟨_, _, rfl, by decide, by decide⟩

theorem ptr_typedef : Ptr t!"&v.P" (.addr (.sel (.id t!"v") t!"P")) (.addr (.field .recv "P")) where
  frag := by
    have hv : Word t!"v" := ⟨⟨_, _, rfl, rfl, rfl⟩, rfl⟩
    have hP : Word t!"P" := ⟨⟨_, _, rfl, rfl, rfl⟩, rfl⟩
    intro b c Y us st h1 h2 h3
    have a1 : Scans ⟨.idle, b⟩ t!"&v." [.op .and, .ident t!"v"] ⟨.op 46, true⟩ := by cases b <;> rfl
    have a2 := Hd.scans (o := 46) ((hP.hd (by simp)).append _) rfl rfl (hP.frag false c Y us st h1 h2 h3) true
    exact a1.append a2
  w := rfl
  low := rfl
  hd := ⟨_, _, rfl, by decide, by decide⟩

/-! ### Statements -/

/-- Evaluates `lowS`. -/
macro "lows" : tactic => `(tactic| simp [lowS, lowCall, lowCall2, lowCall3, lowAssign, isId, isXdr, isXs, convPtr,
  lowMax, isBytes, isByte, *])

theorem rs_u32 {P e p} (h : Ptr P e p) : RS (xInt true P) (.cons (.xdrU32 p) .nil) := by
  refine RS.one (s := .expr (.call (.sel (.id t!"xdr") t!"XdrU32") (.cons (.id t!"xs") (.last
    (.call (.paren (.star (.id t!"uint32"))) (.last e)))))) ?_ ?_ ?_
  · exact ((h.frag.pre (scA% "xdr.XdrU32(xs, (*uint32)(")).to (scT% "));\n") rfl false).cast (by flat)
  · simp [wS, wE, wArgs, h.we]
  · have := h.low; lows

theorem rs_s32 {P e p} (h : Ptr P e p) : RS (xInt false P) (.cons (.xdrS32 p) .nil) := by
  refine RS.one (s := .expr (.call (.sel (.id t!"xdr") t!"XdrS32") (.cons (.id t!"xs") (.last
    (.call (.paren (.star (.id t!"int32"))) (.last e)))))) ?_ ?_ ?_
  · exact ((h.frag.pre (scA% "xdr.XdrS32(xs, (*int32)(")).to (scT% "));\n") rfl false).cast (by flat)
  · simp [wS, wE, wArgs, h.we]
  · have := h.low; lows

theorem rs_u64 {P e p} (h : Ptr P e p) :
    RS (t!"xdr.XdrU64(xs, (*uint64)(" ++ P ++ t!"));\n") (.cons (.xdrU64 p) .nil) := by
  refine RS.one (s := .expr (.call (.sel (.id t!"xdr") t!"XdrU64") (.cons (.id t!"xs") (.last
    (.call (.paren (.star (.id t!"uint64"))) (.last e)))))) ?_ ?_ ?_
  · exact ((h.frag.pre (scA% "xdr.XdrU64(xs, (*uint64)(")).to (scT% "));\n") rfl false).cast (by flat)
  · simp [wS, wE, wArgs, h.we]
  · have := h.low; lows

theorem rs_s64 {P e p} (h : Ptr P e p) :
    RS (t!"xdr.XdrS64(xs, (*int64)(" ++ P ++ t!"));\n") (.cons (.xdrS64 p) .nil) := by
  refine RS.one (s := .expr (.call (.sel (.id t!"xdr") t!"XdrS64") (.cons (.id t!"xs") (.last
    (.call (.paren (.star (.id t!"int64"))) (.last e)))))) ?_ ?_ ?_
  · exact ((h.frag.pre (scA% "xdr.XdrS64(xs, (*int64)(")).to (scT% "));\n") rfl false).cast (by flat)
  · simp [wS, wE, wArgs, h.we]
  · have := h.low; lows

theorem rs_bool {P e p} (h : Ptr P e p) : RS (xBool P) (.cons (.xdrBool p) .nil) := by
  refine RS.one (s := .expr (.call (.sel (.id t!"xdr") t!"XdrBool") (.cons (.id t!"xs") (.last
    (.call (.paren (.star (.id t!"bool"))) (.last e)))))) ?_ ?_ ?_
  · exact ((h.frag.pre (scA% "xdr.XdrBool(xs, (*bool)(")).to (scT% "));\n") rfl false).cast (by flat)
  · simp [wS, wE, wArgs, h.we]
  · have := h.low; lows

theorem rs_call {P e p n} (h : Ptr P e p) (hn : isName n = true) :
    RS (t!"(*" ++ iTxt n ++ t!")(" ++ P ++ t!").Xdr(xs);\n") (.cons (.callXdr (i n) p) .nil) := by
  refine RS.one (s := .expr (.call (.sel (.call (.paren (.star (.id (iTxt n)))) (.last e)) t!"Xdr")
    (.last (.id t!"xs")))) ?_ ?_ ?_
  · exact ((((word_i hn).frag.preOp ((word_i hn).hd (by simp)) (scA% "(*")).mid h.frag (scT% ")(") rfl).to
      (scT% ").Xdr(xs);\n") rfl false).cast (by flat)
  · simp [wS, wE, wArgs, h.we]
  · have := h.low
    have hc : name (iTxt n) = i n := by simp only [iTxt, name_codes]
    lows

theorem rs_array {P e p} (h : Ptr P e p) :
    RS (t!"xdr.XdrArray(xs, (*" ++ P ++ t!")[:]);\n") (.cons (.xdrArray p) .nil) := by
  refine RS.one (s := .expr (.call (.sel (.id t!"xdr") t!"XdrArray") (.cons (.id t!"xs") (.last
    (.slc (.paren (.star e))))))) ?_ ?_ ?_
  · exact ((h.frag.preOp h.hd (scA% "xdr.XdrArray(xs, (*")).to (scT% ")[:]);\n") rfl false).cast (by flat)
  · simp [wS, wE, wArgs, h.w]
  · have := h.low; lows

/-- The argument of `int(…)`. -/
def szGE : Option Val → GE
  | none => .neg (.int 1)
  | some v => vGE v

theorem frag_sz {sz : Option Val} (h : sz.all rawVal = true) : FragE (szTxt sz) (gE (szGE sz)) := by
  cases sz with
  | none =>
    intro b c Y us st h1 h2 h3
    have a1 : Scans ⟨.idle, b⟩ t!"-1" [.op .sub] ⟨.num t!"1", false⟩ := by cases b <;> rfl
    exact a1.append ((Pend.num false (acc := t!"1") (n := 1) rfl).scans h1 h2 h3)
  | some v => exact frag_val h

theorem wE_szGE (sz : Option Val) : wE .expr false (szGE sz) = true := by
  cases sz with
  | none => rfl
  | some v => exact wE_vGE v false

theorem lowMax_szGE (sz : Option Val) : lowMax (.call (.id t!"int") (.last (szGE sz))) = some sz := by
  cases sz with
  | none => rfl
  | some v => cases v <;> simp [szGE, vGE, lowMax, isId, name_codes]

theorem rs_varArray {P e p sz} (h : Ptr P e p) (hs : sz.all rawVal = true) :
    RS (t!"xdr.XdrVarArray(xs, int(" ++ szTxt sz ++ t!"), (*[]byte)(" ++ P ++ t!"));\n")
      (.cons (.xdrVarArray sz p) .nil) := by
  refine RS.one (s := .expr (.call (.sel (.id t!"xdr") t!"XdrVarArray") (.cons (.id t!"xs") (.cons
    (.call (.id t!"int") (.last (szGE sz))) (.last
    (.call (.paren (.star (.slice (.id t!"byte")))) (.last e))))))) ?_ ?_ ?_
  · exact ((((frag_sz hs).pre (scA% "xdr.XdrVarArray(xs, int(")).mid h.frag (scT% "), (*[]byte)(") rfl).to
      (scT% "));\n") rfl false).cast (by flat)
  · simp [wS, wE, wArgs, h.we, wE_szGE]
  · have := h.low
    have hm := lowMax_szGE sz
    simp [lowS, lowCall, lowCall3, isId, hm, convPtr, isXdr, isBytes, isByte, this]

theorem rs_string {P e p sz} (h : Ptr P e p) (hs : sz.all rawVal = true) :
    RS (t!"xdr.XdrString(xs, int(" ++ szTxt sz ++ t!"), (*string)(" ++ P ++ t!"));\n")
      (.cons (.xdrString sz p) .nil) := by
  refine RS.one (s := .expr (.call (.sel (.id t!"xdr") t!"XdrString") (.cons (.id t!"xs") (.cons
    (.call (.id t!"int") (.last (szGE sz))) (.last
    (.call (.paren (.star (.id t!"string"))) (.last e))))))) ?_ ?_ ?_
  · exact ((((frag_sz hs).pre (scA% "xdr.XdrString(xs, int(")).mid h.frag (scT% "), (*string)(") rfl).to
      (scT% "));\n") rfl false).cast (by flat)
  · simp [wS, wE, wArgs, h.we, wE_szGE]
  · have := h.low
    have hm := lowMax_szGE sz
    simp [lowS, lowCall, lowCall3, isId, hm, convPtr, isXdr, isBytes, this]

theorem rs_varU32 : RS t!"var __arraysz uint32\n" (.cons (.varU32 arraysz) .nil) :=
  RS.one (s := .var t!"__arraysz" (.id t!"uint32")) (scF% "var __arraysz uint32\n") rfl rfl

theorem rs_varBool : RS t!"var opted bool\n" (.cons (.varBool opted) .nil) :=
  RS.one (s := .var t!"opted" (.id t!"bool")) (scF% "var opted bool\n") rfl rfl

theorem rs_setSize {P e p} (h : Ptr P e p) :
    RS (t!"xs.EncodingSetSize(&__arraysz, len(*" ++ P ++ t!"));\n") (.cons (.encSetSize arraysz p) .nil) := by
  refine RS.one (s := .expr (.call (.sel (.id t!"xs") t!"EncodingSetSize") (.cons (.addr (.id t!"__arraysz"))
    (.last (.call (.id t!"len") (.last (.star e))))))) ?_ ?_ ?_
  · exact ((h.frag.preOp h.hd (scA% "xs.EncodingSetSize(&__arraysz, len(*")).to (scT% "));\n") rfl false).cast
      (by flat)
  · simp [wS, wE, wArgs, h.w]
  · have := h.low
    have hn : name t!"__arraysz" = arraysz := rfl
    lows

theorem rs_notNil {P e p} (h : Ptr P e p) :
    RS (t!"opted := *(" ++ P ++ t!") != nil\n") (.cons (.defNotNil opted p) .nil) := by
  refine RS.one (s := .define t!"opted" (.bin .neq (.star (.paren e)) (.id t!"nil"))) ?_ ?_ ?_
  · exact ((h.frag.pre (scA% "opted := *(")).to (scT% ") != nil\n") rfl false).cast (by flat)
  · simp [wS, wE, isCmp, h.we]
  · have := h.low
    have hn : name t!"opted" = opted := rfl
    simp [lowS, isId, lowEx, this, hn]

theorem rs_make {P e p X g} (h : Ptr P e p) (ht : RTS X g) :
    RS (t!"if xs.Decoding() { *" ++ P ++ t!" = make([]" ++ X ++ t!", __arraysz); }\n")
      (.cons (.ifDecoding (.cons (.assignMake p g arraysz) .nil)) .nil) := by
  obtain ⟨t, ht⟩ := ht
  refine RS.one (s := .ifThen (.call (.sel (.id t!"xs") t!"Decoding") .nil) (.cons (.assign (.star e)
    (.call (.id t!"make") (.cons (.slice t) (.last (.id t!"__arraysz"))))) .nil)) ?_ ?_ ?_
  · exact (((h.frag.preOp h.hd (scA% "if xs.Decoding() { *")).mid ht.frag (scT% " = make([]") rfl).to
      (scT% ", __arraysz); }\n") rfl false).cast (by flat)
  · simp [wS, wSs, wE, wArgs, h.w, ht.w]
  · have := h.low
    have := ht.low
    have hn : name t!"__arraysz" = arraysz := rfl
    simp [lowS, lowSs, isXs, lowAssign, isId, *]

theorem rs_new {P e p X g} (h : Ptr P e p) (ht : RTS X g) :
    RS (t!"*(" ++ P ++ t!") = new(" ++ X ++ t!")\n") (.cons (.assignNew p g) .nil) := by
  obtain ⟨t, ht⟩ := ht
  refine RS.one (s := .assign (.star (.paren e)) (.call (.id t!"new") (.last t))) ?_ ?_ ?_
  · exact (((h.frag.pre (scA% "*(")).mid ht.frag (scT% ") = new(") rfl).to
      (scT% ")\n") rfl false).cast (by flat)
  · simp [wS, wE, wArgs, h.we, wE_expr' ht.wp]
  · have := h.low
    have := ht.low
    simp [lowS, lowAssign, lowEx, isId, *]

theorem rs_block {X b} (h : RS X b) : RS (t!"{\n" ++ X ++ t!"}\n") (.cons (.block b) .nil) := by
  obtain ⟨c, h1, h2, h3, h4⟩ := h
  refine RS.one (s := .block c) ?_ ?_ ?_
  · exact (((scF% "{\n").append h3).append (scF% "}\n")).cast (by flat)
  · simp [wS, h2]
  · simp [lowS, h4]

theorem rs_ifOpted {X b} (h : RS X b) : RS (t!"if opted {\n" ++ X ++ t!"}\n") (.cons (.ifVar opted b) .nil) := by
  obtain ⟨c, h1, h2, h3, h4⟩ := h
  refine RS.one (s := .ifThen (.id t!"opted") c) ?_ ?_ ?_
  · exact (((scF% "if opted {\n").append h3).append (scF% "}\n")).cast (by flat)
  · simp [wS, wE, h2]
  · have hn : name t!"opted" = opted := rfl
    simp [lowS, h4, hn]

theorem rs_ifEncoding {X b} (h : RS X b) :
    RS (t!"if xs.Encoding() {\n" ++ X ++ t!"}\n") (.cons (.ifEncoding b) .nil) := by
  obtain ⟨c, h1, h2, h3, h4⟩ := h
  refine RS.one (s := .ifThen (.call (.sel (.id t!"xs") t!"Encoding") .nil) c) ?_ ?_ ?_
  · exact (((scF% "if xs.Encoding() {\n").append h3).append (scF% "}\n")).cast (by flat)
  · simp [wS, wE, wArgs, h2]
  · simp [lowS, isXs, h4]

theorem rs_ifDecoding {X b} (h : RS X b) :
    RS (t!"if xs.Decoding() {\n" ++ X ++ t!"}\n") (.cons (.ifDecoding b) .nil) := by
  obtain ⟨c, h1, h2, h3, h4⟩ := h
  refine RS.one (s := .ifThen (.call (.sel (.id t!"xs") t!"Decoding") .nil) c) ?_ ?_ ?_
  · exact (((scF% "if xs.Decoding() {\n").append h3).append (scF% "}\n")).cast (by flat)
  · simp [wS, wE, wArgs, h2]
  · simp [lowS, isXs, h4]

theorem rs_ifGt {X b m} (h : RS X b) (hm : rawVal m = true) :
    RS (t!"if __arraysz > " ++ vTxt m ++ t!" { xs.SetError(\"array too large\") } else {\n" ++ X ++ t!"}\n")
      (.cons (.ifGt arraysz m b) .nil) := by
  obtain ⟨c, h1, h2, h3, h4⟩ := h
  refine RS.one (s := .ifElse (.bin .gtr (.id t!"__arraysz") (vGE m)) (.last (.expr (.call
    (.sel (.id t!"xs") t!"SetError") (.last (.str t!"array too large"))))) c) ?_ ?_ ?_
  · exact (((((frag_val hm).pre (scA% "if __arraysz > ")).to
      (scT% " { xs.SetError(\"array too large\") } else {\n") rfl false).append h3).append (scF% "}\n")).cast
      (by flat)
  · simp [wS, wSs, wE, wArgs, isCmp, h2, wE_vGE']
  · have hn : name t!"__arraysz" = arraysz := rfl
    simp [lowS, isTooLarge, isXs, lowVal_vGE, h4, hn]

theorem rs_forU64 {X b} (h : RS X b) :
    RS (t!"for i := uint64(0); i < uint64(__arraysz); i++ {\n" ++ X ++ t!"}\n")
      (.cons (.forU64 iVar arraysz b) .nil) := by
  obtain ⟨c, h1, h2, h3, h4⟩ := h
  refine RS.one (s := .forInc t!"i" (.call (.id t!"uint64") (.last (.int 0))) (.bin .lss (.id t!"i")
    (.call (.id t!"uint64") (.last (.id t!"__arraysz")))) t!"i" c) ?_ ?_ ?_
  · exact (((scF% "for i := uint64(0); i < uint64(__arraysz); i++ {\n").append h3).append (scF% "}\n")).cast (by flat)
  · simp [wS, wE, wArgs, isCmp, h2]
  · have hn : name t!"__arraysz" = arraysz := rfl
    have hi : name t!"i" = iVar := rfl
    simp [lowS, convU64, isId, h4, hn, hi]

theorem rs_forInt {X b m} (h : RS X b) (hm : rawVal m = true) :
    RS (t!"for i := 0; i < " ++ vTxt m ++ t!"; i++ {\n" ++ X ++ t!"}\n") (.cons (.forInt iVar m b) .nil) := by
  obtain ⟨c, h1, h2, h3, h4⟩ := h
  refine RS.one (s := .forInc t!"i" (.int 0) (.bin .lss (.id t!"i") (vGE m)) t!"i" c) ?_ ?_ ?_
  · exact (((((frag_val hm).pre (scA% "for i := 0; i < ")).to (scT% "; i++ {\n") rfl false).append h3).append
      (scF% "}\n")).cast (by flat)
  · simp [wS, wE, isCmp, h2, wE_vGE']
  · have hi : name t!"i" = iVar := rfl
    simp [lowS, lowVal_vGE, h4, hi]

/-! ### Switches -/

/-- The text `X` is the clauses `cs`. -/
def RC (X : Text) (cs : GoCases) : Prop :=
  ∃ c : GCs, wCs c = true ∧ Scans ⟨.idle, false⟩ X (gCs c) ⟨.idle, false⟩ ∧ lowCs c = some cs

theorem rc_nil : RC [] .nil := ⟨.nil, rfl, .nil _, rfl⟩

theorem rc_dflt {X b} (h : RS X b) : RC (t!"default:\n" ++ X) (.dflt b) := by
  obtain ⟨c, h1, h2, h3, h4⟩ := h
  refine ⟨.default c .nil, ?_, ?_, ?_⟩
  · simp [wCs, h1, h2]
  · exact ((scF% "default:\n").append h3).cast (by flat)
  · simp [lowCs, h4]

theorem rc_labels {X Y b cs} (h : RS X b) (hc : RC Y cs) : ∀ (ls : List Val) (l : Val), labelOk l = true →
    ls.all labelOk = true → RC (labelTxt l ls ++ X ++ Y) (goLabels l ls b cs)
  | [], l, hl, _ => by
    obtain ⟨c, h1, h2, h3, h4⟩ := h
    obtain ⟨d, g1, g2, g3⟩ := hc
    refine ⟨.case (vGE (iVal l)) c d, ?_, ?_, ?_⟩
    · simp [wCs, wE_vGE, h1, h2, g1]
    · exact ((((((frag_label hl).pre (scA% "case ")).to (scT% ":\n") rfl false).append h3).append g2)).cast (by flat)
    · simp [lowCs, lowVal_vGE, lowBody_of h4, g3, goLabels]
  | l' :: ls, l, hl, hls => by
    simp only [List.all_cons, Bool.and_eq_true] at hls
    obtain ⟨d, g1, g2, g3⟩ := rc_labels h hc ls l' hls.1 hls.2
    refine ⟨.case (vGE (iVal l)) (.cons .fall .nil) d, ?_, ?_, ?_⟩
    · simp [wCs, wE_vGE, wSs, wS, GSs.closed, g1]
    · have := ((((frag_label hl).pre (scA% "case ")).to (scT% ":\n") rfl false).append (scF% "fallthrough\n")).append g2
      simp only [labelTxt, List.append_assoc] at this ⊢
      exact this.cast (by flat)
    · simp [lowCs, lowVal_vGE, lowBody, g3, goLabels]

theorem rs_switch {P e p n Y cs} (h : Ptr P e p) (hn : isName n = true) (hc : RC Y cs) :
    RS (t!"switch " ++ (t!"(" ++ P ++ t!")." ++ iTxt n) ++ t!" {\n" ++ Y ++ t!"}\n")
      (.cons (.switch (.field p (i n)) cs) .nil) := by
  obtain ⟨d, g1, g2, g3⟩ := hc
  refine RS.one (s := .switch (.sel (.paren e) (iTxt n)) d) ?_ ?_ ?_
  · have := (((((h.frag.pre (scA% "(")).midOp (word_i hn).frag ((word_i hn).hd (by simp)) (scT% ").") rfl).pre
      (scA% "switch ")).to (scT% " {\n") rfl false).append g2).append (scF% "}\n")
    exact this.cast (by flat)
  · simp [wS, wE, h.we, g1]
  · have hc : name (iTxt n) = i n := by simp only [iTxt, name_codes]
    simp [lowS, lowEx, h.low, g3, hc]

/-! ### All of goXdr -/

theorem rs_checkMax {X b} {sz : Option Val} (h : RS X b) (hs : sz.all rawVal = true) :
    RS (maxTxt sz X) (checkMax sz b) := by
  cases sz with
  | none => exact h
  | some m => exact rs_ifGt h hs

mutual
theorem x_typespec : ∀ (t : Typespec), nTypespec t = true → ∀ {P e p}, Ptr P e p →
    OptRel RS (xTypespec t P) (t.goXdr p)
  | .int true, _, _, _, _, h => rs_u32 h
  | .int false, _, _, _, _, h => rs_s32 h
  | .hyper true, _, _, _, _, h => rs_u64 h
  | .hyper false, _, _, _, _, h => rs_s64 h
  | .float, _, _, _, _, _ => trivial
  | .double, _, _, _, _, _ => trivial
  | .quadruple, _, _, _, _, _ => trivial
  | .bool, _, _, _, _, h => rs_bool h
  | .enum _, _, _, _, _, _ => trivial
  | .struct ds, hn, _, _, _, h => x_decls ds hn h
  | .union .void cs, _, _, _, _, _ => trivial
  | .union (.name t n) cs, hn, P, e, p, h => by
    simp only [nTypespec, nDecl, Bool.and_eq_true] at hn
    have hf : Ptr (t!"&(" ++ (t!"(" ++ P ++ t!")." ++ iTxt n) ++ t!")")
        (.addr (.paren (.sel (.paren e) (iTxt n)))) (fieldPtr p (i n)) := by
      have := ptr_field h hn.1.2
      simp only [fieldTxt, List.append_assoc, List.cons_append, List.nil_append] at this ⊢
      exact this
    have ht := x_declType t hn.1.1 hf
    have hc := x_cases cs hn.2 h
    simp only [xTypespec, Typespec.goXdr]
    cases ha : xDeclType t (t!"&(" ++ (t!"(" ++ P ++ t!")." ++ iTxt n) ++ t!")") <;>
      cases hb : t.goXdr (fieldPtr p (i n)) <;> rw [ha, hb] at ht <;> first | exact ht.elim | trivial | skip
    cases ha' : xCases cs P <;> cases hb' : cs.goXdr p <;> rw [ha', hb'] at hc <;>
      first | exact hc.elim | trivial | skip
    have := RS.append ht (rs_switch h hn.1.2 hc)
    simp only [← List.append_assoc] at this ⊢
    exact this
  | .ident n, hn, _, _, _, h => rs_call h hn
theorem x_declType : ∀ (t : DeclType), nDeclType t = true → ∀ {P e p}, Ptr P e p →
    OptRel RS (xDeclType t P) (t.goXdr p)
  | .typespec t, hn, _, _, _, h => x_typespec t hn h
  | .array t sz, hn, P, e, p, h => by
    simp only [nDeclType, Bool.and_eq_true] at hn
    have ht := x_typespec t hn.1 (ptr_fixedElem h)
    simp only [xDeclType, DeclType.goXdr]
    cases ha : xTypespec t (t!"&(*(" ++ P ++ t!")[i])") <;>
      cases hb : t.goXdr (fixedElemPtr p) <;> rw [ha, hb] at ht <;> first | exact ht.elim | trivial | skip
    exact rs_forInt (RS.line ht) hn.2
  | .varArray t sz, hn, P, e, p, h => by
    simp only [nDeclType, Bool.and_eq_true] at hn
    have ht := x_typespec t hn.1 (ptr_elem h)
    have hg := ty_typespec t hn.1
    simp only [xDeclType, DeclType.goXdr]
    cases ha' : tTypespec t <;> cases hb' : t.goType <;> rw [ha', hb'] at hg <;> first | exact hg.elim | skip
    · cases t.goXdr (elemPtr p) <;> trivial
    cases ha : xTypespec t (t!"&((*(" ++ P ++ t!"))[i])") <;>
      cases hb : t.goXdr (elemPtr p) <;> rw [ha, hb] at ht <;> first | exact ht.elim | trivial | skip
    have hbody := (rs_make h hg).two (rs_forU64 (RS.line ht))
    have hm := rs_checkMax hbody hn.2
    have hm := rs_block ((rs_varU32.cons ((rs_setSize h).cons ((RS.line (rs_u32 ptr_arraysz)).cons hm))))
    show RS _ _
    simp only [List.append_assoc] at hm ⊢
    exact hm
  | .opaqueArray _, _, _, _, _, h => rs_array h
  | .opaqueVarArray _, hn, _, _, _, h => rs_varArray h hn
  | .string _, hn, _, _, _, h => rs_string h hn
  | .ptr t, hn, P, e, p, h => by
    have ht := x_typespec t hn (ptr_deref h)
    have hg := ty_typespec t hn
    simp only [xDeclType, DeclType.goXdr]
    cases ha' : tTypespec t <;> cases hb' : t.goType <;> rw [ha', hb'] at hg <;> first | exact hg.elim | skip
    · cases t.goXdr (.deref p) <;> trivial
    cases ha : xTypespec t (t!"*(" ++ P ++ t!")") <;>
      cases hb : t.goXdr (.deref p) <;> rw [ha, hb] at ht <;> first | exact ht.elim | trivial | skip
    have henc := rs_ifEncoding ((rs_notNil h).cons ((rs_bool ptr_opted).cons (rs_ifOpted ht)))
    have hdec := rs_ifDecoding (rs_varBool.cons ((rs_bool ptr_opted).cons (rs_ifOpted ((rs_new h hg).cons ht))))
    have := henc.two hdec
    show RS _ _
    simp only [List.append_assoc] at this ⊢
    exact this
theorem x_decl : ∀ (d : Decl), nDecl d = true → ∀ {P e p}, Ptr P e p → OptRel RS (xDecl d P) (d.goXdr p)
  | .void, _, _, _, _, _ => RS.nil
  | .name t n, hn, _, _, _, h => by
    simp only [nDecl, Bool.and_eq_true] at hn
    exact x_declType t hn.1 (ptr_field h hn.2)
theorem x_decls : ∀ (ds : Decls), nDecls ds = true → ∀ {P e p}, Ptr P e p → OptRel RS (xDecls ds P) (ds.goXdr p)
  | .nil, _, _, _, _, _ => RS.nil
  | .cons d ds, hn, P, e, p, h => by
    simp only [nDecls, Bool.and_eq_true] at hn
    have hd := x_decl d hn.1 h
    have hs := x_decls ds hn.2 h
    simp only [xDecls, Decls.goXdr]
    cases ha : xDecl d P <;> cases hb : d.goXdr p <;> rw [ha, hb] at hd <;> first | exact hd.elim | trivial | skip
    cases ha' : xDecls ds P <;> cases hb' : ds.goXdr p <;> rw [ha', hb'] at hs <;> first | exact hs.elim | trivial | skip
    exact RS.append hd hs
theorem x_cases : ∀ (cs : Cases), nCases cs = true → ∀ {P e p}, Ptr P e p → OptRel RC (xCases cs P) (cs.goXdr p)
  | .nil, _, _, _, _, _ => rc_nil
  | .dflt d, hn, P, e, p, h => by
    have hd := x_decl d hn h
    simp only [xCases, Cases.goXdr]
    cases ha : xDecl d P <;> cases hb : d.goXdr p <;> rw [ha, hb] at hd <;> first | exact hd.elim | trivial | skip
    exact rc_dflt hd
  | .cons l ls d cs, hn, P, e, p, h => by
    simp only [nCases, Bool.and_eq_true] at hn
    have hd := x_decl d hn.1.2 h
    have hs := x_cases cs hn.2 h
    simp only [xCases, Cases.goXdr]
    cases ha : xDecl d P <;> cases hb : d.goXdr p <;> rw [ha, hb] at hd <;> first | exact hd.elim | trivial | skip
    cases ha' : xCases cs P <;> cases hb' : cs.goXdr p <;> rw [ha', hb'] at hs <;> first | exact hs.elim | trivial | skip
    exact rc_labels hd hs ls l hn.1.1.1 hn.1.1.2
end

end Verif.Text
