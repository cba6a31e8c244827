/-
Two readers of Go: Verif.Text.GoSyn describes the syntax of the files that the generator prints, and
Verif.Lang.Parse reads the files of the project for the semantics in Verif.Lang.Sem.  What the second makes of
a file that is described by a tree of the first.
-/
import Verif.Lang.Parse
import Verif.Text.GoSyn

namespace Verif.Lang.Rd
open Verif.Text (Text GE GArgs GElts GFs GS GSs GCs GRes GMeth GD GFile gE gArgs gElts gFs gS gSs gCs gPs gRes gOpt gMeth gRecv gD gFile
  wE wArgs wElts wFs wS wSs wCs wOpt wRes wD wFile)

/-! ### Tokens -/

def opL : Verif.Text.Op → List Nat
  | .lparen => t!"("
  | .rparen => t!")"
  | .lbrack => t!"["
  | .rbrack => t!"]"
  | .lbrace => t!"{"
  | .rbrace => t!"}"
  | .comma => t!","
  | .period => t!"."
  | .colon => t!":"
  | .define => t!":="
  | .assign => t!"="
  | .neq => t!"!="
  | .inc => t!"++"
  | .dec => t!"--"
  | .sub => t!"-"
  | .and => t!"&"
  | .mul => t!"*"
  | .lss => t!"<"
  | .gtr => t!">"

def tokL : Verif.Text.Tok → Tok
  | .ident s => .id s
  | .kw s => .kw s
  | .int n => .int n
  | .str s => .str s
  | .op o => .op (opL o)
  | .semi => .op t!";"

abbrev toks (ts : List Verif.Text.Tok) : Toks := ts.map tokL

/-! ### Expressions and types -/

/-- An array type. -/
def trArr : GE → Ty → Ty
  | .int n, t => .arr n t
  | .id c, t => .arrc (name c) t
  | _, t => t

mutual
def trT : GE → Ty
  | .id s => .name (name s)
  | .sel (.id p) s => .qual (name p) (name s)
  | .star t => .ptr (trT t)
  | .slice t => .slice (trT t)
  | .array n t => trArr n (trT t)
  | .struct fs => .struct (trFs fs)
  | _ => .iface
def trFs : GFs → List (String × Ty)
  | .nil => []
  | .last f t => [(name f, trT t)]
  | .cons f t fs => (name f, trT t) :: trFs fs
end

mutual
def trE : GE → Expr
  | .id s => .id (name s)
  | .int n => .int n
  | .str s => .str (name s)
  | .paren e => trE e
  | .sel e f => .sel (trE e) (name f)
  | .idx e i => .idx (trE e) (trE i)
  | .slc e => .slc (trE e) none none none
  | .call e as => .call (trE e) (trArgs as) false
  | .lit t es => .lit (trT t) ((trElts es).map (·.1)) ((trElts es).map (·.2))
  | .star e => .un "*" (trE e)
  | .addr e => .un "&" (trE e)
  | .neg e => .un "-" (trE e)
  | .bin o a b => .bin (name (opL o)) (trE a) (trE b)
  | .slice t => .ty (.slice (trT t))
  | .array n t => .ty (trArr n (trT t))
  | .struct fs => .ty (.struct (trFs fs))
def trArgs : GArgs → List Expr
  | .nil => []
  | .last e => [trE e]
  | .cons e as => trE e :: trArgs as
def trElts : GElts → List (String × Expr)
  | .nil => []
  | .last e => [("", trE e)]
  | .cons e es => ("", trE e) :: trElts es
  | .lastKey k e => [(name k, trE e)]
  | .consKey k e es => (name k, trE e) :: trElts es
end

def isSize : GE → Bool
  | .int _ => true
  | .id _ => true
  | _ => false

def argsNil : GArgs → Bool
  | .nil => true
  | _ => false

mutual
/-- The part of the syntax that Verif.Lang.Parse reads: no comma after the last argument of a call; the size of an
array is a number or a name. -/
def okE : GE → Bool
  | .id _ => true
  | .int _ => true
  | .str _ => true
  | .paren e => okE e
  | .sel e _ => okE e
  | .idx e i => okE e && okE i
  | .slc e => okE e
  | .call e as => okE e && okArgs as
  | .lit t es => okE t && okElts es
  | .star e => okE e
  | .addr e => okE e
  | .neg e => okE e
  | .bin o a b => Verif.Text.isCmp o && okE a && okE b
  | .slice t => okE t
  | .array n t => isSize n && okE t
  | .struct fs => okFs fs
def okArgs : GArgs → Bool
  | .nil => true
  | .last e => okE e
  | .cons e as => okE e && !argsNil as && okArgs as
def okElts : GElts → Bool
  | .nil => true
  | .last e => okE e
  | .cons e es => okE e && okElts es
  | .lastKey _ e => okE e
  | .consKey _ e es => okE e && okElts es
def okFs : GFs → Bool
  | .nil => true
  | .last _ t => okE t
  | .cons _ t fs => okE t && okFs fs
end

/-! ### What may follow -/

/-- After an operand. -/
def stops (lits : Bool) : Toks → Bool
  | .op o :: _ => o == t!")" || o == t!"]" || o == t!":" || o == t!"," || o == t!";" || o == t!"}" || o == t!"=" || o == t!":=" ||
      o == t!"++" || o == t!"!=" || o == t!"<" || o == t!">" || (o == t!"{" && !lits)
  | _ => false

/-- After an expression. -/
def ends (lits : Bool) : Toks → Bool
  | .op o :: _ => o == t!")" || o == t!"]" || o == t!":" || o == t!"," || o == t!";" || o == t!"}" || o == t!"=" || o == t!":=" ||
      o == t!"++" || (o == t!"{" && !lits)
  | _ => false

theorem ends_stops {lits : Bool} {ts : Toks} (h : ends lits ts = true) : stops lits ts = true := by
  cases ts with
  | nil => cases h
  | cons t ts =>
    cases t <;> try (cases h; done)
    rename_i o
    simp only [ends, stops, Bool.or_eq_true] at h ⊢
    rcases h with (((((((((h | h) | h) | h) | h) | h) | h) | h) | h) | h) <;> simp [h]

theorem stops_dot {lits : Bool} {ts : Toks} (h : stops lits ts = true) : isOp t!"." ts = false := by
  cases ts with
  | nil => cases h
  | cons t ts =>
    cases t <;> try (cases h; done)
    rename_i o
    simp only [isOp, beq_eq_false_iff_ne, ne_eq]
    rintro rfl
    revert h
    cases lits <;> simp [stops]

theorem pPostfix_stop {lits : Bool} {ts : Toks} (h : stops lits ts = true) (e : Expr) {n : Nat} (hn : 0 < n) :
    pPostfix n lits e ts = some (e, ts) := by
  obtain ⟨n, rfl⟩ : ∃ m, n = m + 1 := ⟨n - 1, by omega⟩
  cases ts with
  | nil => cases h
  | cons t ts =>
    cases t <;> try (cases h; done)
    rename_i o
    simp only [stops, Bool.or_eq_true, Bool.and_eq_true, beq_iff_eq, Bool.not_eq_true'] at h
    rcases h with ((((((((((((rfl | rfl) | rfl) | rfl) | rfl) | rfl) | rfl) | rfl) | rfl) | rfl) | rfl) | rfl) | ⟨rfl, rfl⟩) <;>
      simp [pPostfix]

theorem pBin_stop {lits : Bool} {ts : Toks} (h : ends lits ts = true) (p : Nat) (e : Expr) {n : Nat} (hn : 0 < n) :
    pBin n lits p e ts = some (e, ts) := by
  obtain ⟨n, rfl⟩ : ∃ m, n = m + 1 := ⟨n - 1, by omega⟩
  cases ts with
  | nil => cases h
  | cons t ts =>
    cases t <;> try (cases h; done)
    rename_i o
    simp only [ends, Bool.or_eq_true, Bool.and_eq_true, beq_iff_eq, Bool.not_eq_true'] at h
    rcases h with (((((((((rfl | rfl) | rfl) | rfl) | rfl) | rfl) | rfl) | rfl) | rfl) | ⟨rfl, rfl⟩) <;>
      simp [pBin, prec]

end Verif.Lang.Rd
