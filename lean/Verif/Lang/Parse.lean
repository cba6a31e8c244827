/-
A parser for the part of Go of Verif.Lang.Syntax (The Go Programming Language Specification).  The first
argument of the functions bounds the depth of recursion.
-/
import Verif.Lang.Syntax
import Verif.Lang.Lex

namespace Verif.Lang
open Verif.Text (Text)

/-- The string of some character codes. -/
def name (s : Text) : String := String.ofList (s.map Char.ofNat)

abbrev Toks := List Tok

/-- Parsers. -/
abbrev Ps (α : Type) := Toks → Option (α × Toks)

def isOp (o : Text) : Toks → Bool
  | .op p :: _ => p == o
  | _ => false

def isKw (o : Text) : Toks → Bool
  | .kw p :: _ => p == o
  | _ => false

/-- An operator or sign that must be there. -/
def op (o : Text) : Ps Unit
  | .op p :: r => if p == o then some ((), r) else none
  | _ => none

def kw (o : Text) : Ps Unit
  | .kw p :: r => if p == o then some ((), r) else none
  | _ => none

def ident : Ps String
  | .id s :: r => some (name s, r)
  | _ => none

/-- One or more, separated by commas. -/
def sep {α : Type} (p : Ps α) : Nat → Ps (List α)
  | 0, _ => none
  | n + 1, ts => do
    let (a, ts) ← p ts
    if isOp t!"," ts then do
      let (_, ts) ← op t!"," ts
      let (as, ts) ← sep p n ts
      pure (a :: as, ts)
    else pure ([a], ts)

/-- Parameters: `x, y T` gives both the type. -/
def group : List (Option String × Ty) → Option (List (String × Ty))
  | [] => some []
  | (some x, t) :: r => do pure ((x, t) :: (← group r))
  | (none, .name x) :: r => do
    let r ← group r
    match r with
    | (_, t) :: _ => pure ((x, t) :: r)
    | [] => none
  | _ => none

def params (l : List (Option String × Ty)) : Option (List (String × Ty)) :=
  if l.any fun p => p.1.isSome then group l else some (l.map fun p => ("", p.2))

mutual
def pTy : Nat → Ps Ty
  | 0, _ => none
  | n + 1, ts =>
    match ts with
    | .id s :: .op o :: .id f :: r =>
      if o == t!"." then some (.qual (name s) (name f), r) else some (.name (name s), .op o :: .id f :: r)
    | .id s :: r => some (.name (name s), r)
    | .op o :: r =>
      if o == t!"*" then do
        let (t, r) ← pTy n r
        pure (.ptr t, r)
      else if o == t!"(" then do
        let (t, r) ← pTy n r
        let (_, r) ← op t!")" r
        pure (t, r)
      else if o == t!"[" then
        match r with
        | .int k :: r => do
          let (_, r) ← op t!"]" r
          let (t, r) ← pTy n r
          pure (.arr k t, r)
        | .id c :: r => do
          let (_, r) ← op t!"]" r
          let (t, r) ← pTy n r
          pure (.arrc (name c) t, r)
        | r => do
          let (_, r) ← op t!"]" r
          let (t, r) ← pTy n r
          pure (.slice t, r)
      else none
    | .kw k :: r =>
      if k == t!"map" then do
        let (_, r) ← op t!"[" r
        let (a, r) ← pTy n r
        let (_, r) ← op t!"]" r
        let (b, r) ← pTy n r
        pure (.map a b, r)
      else if k == t!"func" then do
        let ((ps, rs), r) ← pSig n r
        pure (.func ps rs, r)
      else if k == t!"struct" then do
        let (_, r) ← op t!"{" r
        let (fs, r) ← pFields n r
        pure (.struct fs, r)
      else if k == t!"interface" then do
        let (_, r) ← op t!"{" r
        let (_, r) ← pMethods n r
        pure (.iface, r)
      else none
    | _ => none

/-- The fields of a structure, with the closing brace. -/
def pFields : Nat → Ps (List (String × Ty))
  | 0, _ => none
  | n + 1, ts =>
    if isOp t!"}" ts then do
      let (_, r) ← op t!"}" ts
      pure ([], r)
    else do
      let (xs, r) ← sep ident n ts
      let (t, r) ← pTy n r
      let r := if isOp t!";" r then r.drop 1 else r
      let (fs, r) ← pFields n r
      pure (xs.map (·, t) ++ fs, r)

/-- The methods of an interface, with the closing brace. -/
def pMethods : Nat → Ps Unit
  | 0, _ => none
  | n + 1, ts =>
    if isOp t!"}" ts then do
      let (_, r) ← op t!"}" ts
      pure ((), r)
    else do
      let (_, r) ← ident ts
      let (_, r) ← pSig n r
      let r := if isOp t!";" r then r.drop 1 else r
      pMethods n r

/-- A parameter list with its parentheses. -/
def pParams : Nat → Ps (List (Option String × Ty))
  | 0, _ => none
  | n + 1, ts => do
    let (_, r) ← op t!"(" ts
    if isOp t!")" r then
      pure ([], r.drop 1)
    else
      let (ps, r) ← sep (pParam n) n r
      let (_, r) ← op t!")" r
      pure (ps, r)

/-- `x T`, or `T`, or an `x` whose type follows later. -/
def pParam : Nat → Ps (Option String × Ty)
  | 0, _ => none
  | n + 1, ts =>
    match ts with
    | .id x :: r =>
      if isOp t!"," r || isOp t!")" r || isOp t!"." r then do
        let (t, r) ← pTy n ts
        pure ((none, t), r)
      else do
        let (t, r) ← pTy n r
        pure ((some (name x), t), r)
    | ts => do
      let (t, r) ← pTy n ts
      pure ((none, t), r)

/-- Parameters and results. -/
def pSig : Nat → Ps (List (String × Ty) × List (String × Ty))
  | 0, _ => none
  | n + 1, ts => do
    let (ps, r) ← pParams n ts
    let ps ← params ps
    if isOp t!"(" r then do
      let (rs, r) ← pParams n r
      let rs ← params rs
      pure ((ps, rs), r)
    else if isOp t!"{" r || isOp t!";" r || isOp t!")" r || isOp t!"," r then
      pure ((ps, []), r)
    else do
      let (t, r) ← pTy n r
      pure ((ps, [("", t)]), r)
end

/-- How strongly binary operators bind. -/
def prec (o : Text) : Nat :=
  if o == t!"||" then 1
  else if o == t!"&&" then 2
  else if o == t!"==" || o == t!"!=" || o == t!"<" || o == t!"<=" || o == t!">" || o == t!">=" then 3
  else if o == t!"+" || o == t!"-" || o == t!"|" || o == t!"^" then 4
  else if o == t!"*" || o == t!"/" || o == t!"%" || o == t!"<<" || o == t!">>" || o == t!"&" || o == t!"&^" then 5
  else 0

/-- An expression that may be a type of a composite literal. -/
def litType : Expr → Option Ty
  | .id s => some (.name s)
  | .sel (.id p) s => some (.qual p s)
  | .ty t => some t
  | _ => none

mutual
/-- An expression of operators that bind stronger than `p`.  `lits`: composite literals of the form
`T{...}` may occur (not so in the header of a statement). -/
def pExpr : Nat → Bool → Nat → Ps Expr
  | 0, _, _, _ => none
  | n + 1, lits, p, ts => do
    let (a, ts) ← pUnary n lits ts
    pBin n lits p a ts

/-- The operators after the operand `a`. -/
def pBin : Nat → Bool → Nat → Expr → Ps Expr
  | 0, _, _, _, _ => none
  | n + 1, lits, p, a, ts =>
    match ts with
    | .op o :: r =>
      if Nat.blt p (prec o) then do
        let (b, r) ← pExpr n lits (prec o) r
        pBin n lits p (.bin (name o) a b) r
      else some (a, ts)
    | _ => some (a, ts)

def pUnary : Nat → Bool → Ps Expr
  | 0, _, _ => none
  | n + 1, lits, ts =>
    match ts with
    | .op o :: r =>
      if o == t!"-" || o == t!"!" || o == t!"*" || o == t!"&" || o == t!"^" then do
        let (e, r) ← pUnary n lits r
        pure (.un (name o) e, r)
      else pPrimary n lits ts
    | _ => pPrimary n lits ts

def pPrimary : Nat → Bool → Ps Expr
  | 0, _, _ => none
  | n + 1, lits, ts =>
    match ts with
    | .int k :: r => pPostfix n lits (.int k) r
    | .str s :: r => pPostfix n lits (.str (name s)) r
    | .id s :: r => pPostfix n lits (.id (name s)) r
    | .op o :: r =>
      if o == t!"(" then do
        let (e, r) ← pExpr n true 0 r
        let (_, r) ← op t!")" r
        pPostfix n lits e r
      else do
        let (t, r) ← pTy n ts
        pPostfix n lits (.ty t) r
    | _ => do
      let (t, r) ← pTy n ts
      pPostfix n lits (.ty t) r

def pPostfix : Nat → Bool → Expr → Ps Expr
  | 0, _, _, _ => none
  | n + 1, lits, e, ts =>
    match ts with
    | .op o :: r =>
      if o == t!"." then
        match r with
        | .id f :: r => pPostfix n lits (.sel e (name f)) r
        | r =>
          if isKw t!"type" (r.drop 1) then some (e, ts)
          else do
            let (_, r) ← op t!"(" r
            let (t, r) ← pTy n r
            let (_, r) ← op t!")" r
            pPostfix n lits (.assert e t) r
      else if o == t!"(" then
        if isOp t!")" r then pPostfix n lits (.call e [] false) (r.drop 1)
        else do
          let (as, r) ← sep (pExpr n true 0) n r
          if isOp t!"..." r then do
            let (_, r) ← op t!"..." r
            let (_, r) ← op t!")" r
            pPostfix n lits (.call e as true) r
          else do
            let (_, r) ← op t!")" r
            pPostfix n lits (.call e as false) r
      else if o == t!"[" then
        if isOp t!":" r then do
          let (hi, mx, r) ← pBounds n (r.drop 1)
          pPostfix n lits (.slc e none hi mx) r
        else do
          let (i, r) ← pExpr n true 0 r
          if isOp t!":" r then do
            let (hi, mx, r) ← pBounds n (r.drop 1)
            pPostfix n lits (.slc e (some i) hi mx) r
          else do
            let (_, r) ← op t!"]" r
            pPostfix n lits (.idx e i) r
      else if o == t!"{" then
        match lits, litType e with
        | true, some t => do
          let (es, r) ← pElems n r
          pPostfix n lits (.lit t (es.map (·.1)) (es.map (·.2))) r
        | _, _ => some (e, ts)
      else some (e, ts)
    | _ => some (e, ts)

/-- The rest of `[lo:hi:max]` after the first colon. -/
def pBounds : Nat → Toks → Option (Option Expr × Option Expr × Toks)
  | 0, _ => none
  | n + 1, ts =>
    if isOp t!"]" ts then some (none, none, ts.drop 1)
    else do
      let (hi, r) ← pExpr n true 0 ts
      if isOp t!":" r then do
        let (mx, r) ← pExpr n true 0 (r.drop 1)
        let (_, r) ← op t!"]" r
        pure (some hi, some mx, r)
      else do
        let (_, r) ← op t!"]" r
        pure (some hi, none, r)

/-- The elements of a composite literal, with the closing brace. -/
def pElems : Nat → Ps (List (String × Expr))
  | 0, _ => none
  | n + 1, ts =>
    if isOp t!"}" ts then some ([], ts.drop 1)
    else
      match ts with
      | .id f :: .op o :: r =>
        if o == t!":" then do
          let (e, r) ← pExpr n true 0 r
          let r := if isOp t!"," r then r.drop 1 else r
          let (es, r) ← pElems n r
          pure ((name f, e) :: es, r)
        else pElem n ts
      | _ => pElem n ts

def pElem : Nat → Ps (List (String × Expr))
  | 0, _ => none
  | n + 1, ts => do
    let (e, r) ← pExpr n true 0 ts
    let r := if isOp t!"," r then r.drop 1 else r
    let (es, r) ← pElems n r
    pure (("", e) :: es, r)
end

/-- A statement that is expressions, an assignment or a declaration `:=`. -/
def pSimple (n : Nat) (lits : Bool) : Ps Stmt := fun ts => do
  let (ls, r) ← sep (pExpr n lits 0) n ts
  if isOp t!":=" r then do
    let (es, r) ← sep (pExpr n lits 0) n (r.drop 1)
    let xs ← ls.mapM fun e => match e with | .id x => some x | _ => none
    pure (.define xs es, r)
  else if isOp t!"=" r then do
    let (es, r) ← sep (pExpr n lits 0) n (r.drop 1)
    pure (.assign ls es, r)
  else if isOp t!"+=" r then
    match ls with
    | [a] => do
      let (e, r) ← pExpr n lits 0 (r.drop 1)
      pure (.assign [a] [.bin "+" a e], r)
    | _ => none
  else
    match ls with
    | [e] => if isOp t!"++" r then pure (.inc e, r.drop 1) else pure (.expr e, r)
    | _ => none

/-- `x :=` after `switch`. -/
def switchVar : Toks → String × Toks
  | .id x :: .op o :: r => if o == t!":=" then (name x, r) else ("", .id x :: .op o :: r)
  | ts => ("", ts)

mutual
/-- A statement, without the semicolon after it. -/
def pStmt : Nat → Ps Stmt
  | 0, _ => none
  | n + 1, ts =>
    match ts with
    | .kw k :: r =>
      if k == t!"var" then do
        let (xs, r) ← sep ident n r
        let (t, r) ← pTy n r
        pure (.var xs t, r)
      else if k == t!"return" then
        if isOp t!";" r || isOp t!"}" r then pure (.ret [], r)
        else do
          let (es, r) ← sep (pExpr n true 0) n r
          pure (.ret es, r)
      else if k == t!"if" then pIf n r
      else if k == t!"for" then pFor n r
      else if k == t!"switch" then do
        let (x, r) := switchVar r
        let (e, r) ← pExpr n false 0 r
        if isOp t!"." r then do
          let (_, r) ← op t!"." r
          let (_, r) ← op t!"(" r
          let (_, r) ← kw t!"type" r
          let (_, r) ← op t!")" r
          let (_, r) ← op t!"{" r
          let (cs, r) ← pTClauses n r
          pure (.tswitch x e (cs.map (·.1)) (cs.map (·.2)), r)
        else if x == "" then do
          let (_, r) ← op t!"{" r
          let (cs, r) ← pClauses n r
          pure (.switch e (cs.map (·.1)) (cs.map (·.2)), r)
        else none
      else if k == t!"goto" then do
        let (l, r) ← ident r
        pure (.goto l, r)
      else if k == t!"go" then do
        let (e, r) ← pExpr n true 0 r
        pure (.go e, r)
      else if k == t!"defer" then do
        let (e, r) ← pExpr n true 0 r
        pure (.defer e, r)
      else none
    | .id l :: .op o :: r =>
      if o == t!":" then some (.label (name l), r) else pSimple n true ts
    | .op o :: _ =>
      if o == t!"{" then do
        let (b, r) ← pBlock n ts
        pure (.block b, r)
      else pSimple n true ts
    | _ => pSimple n true ts

/-- After `if`. -/
def pIf : Nat → Ps Stmt
  | 0, _ => none
  | n + 1, ts => do
    let (c, r) ← pExpr n false 0 ts
    let (a, r) ← pBlock n r
    if isKw t!"else" r then
      match r.drop 1 with
      | .kw k :: r => do
        if k == t!"if" then do
          let (s, r) ← pIf n r
          pure (.ite c a [s], r)
        else none
      | r => do
        let (b, r) ← pBlock n r
        pure (.ite c a b, r)
    else pure (.ite c a [], r)

/-- After `for`. -/
def pFor : Nat → Ps Stmt
  | 0, _ => none
  | n + 1, ts =>
    if isOp t!"{" ts then do
      let (b, r) ← pBlock n ts
      pure (.forever b, r)
    else
      match ts with
      | .id k :: .op c :: .id v :: .op d :: .kw w :: r =>
        if c == t!"," && d == t!":=" && w == t!"range" then do
          let (e, r) ← pExpr n false 0 r
          let (b, r) ← pBlock n r
          pure (.range (name k) (name v) e b, r)
        else none
      | _ => do
        let (i, r) ← pSimple n false ts
        let (_, r) ← op t!";" r
        let (c, r) ← pExpr n false 0 r
        let (_, r) ← op t!";" r
        let (p, r) ← pSimple n false r
        let (b, r) ← pBlock n r
        pure (.loop i c p b, r)

/-- The clauses of a `switch`, with the closing brace.  A clause that is only `fallthrough` is one with the next. -/
def pClauses : Nat → Ps (List (List Expr × List Stmt))
  | 0, _ => none
  | n + 1, ts =>
    if isOp t!"}" ts then some ([], ts.drop 1)
    else if isKw t!"case" ts then do
      let (es, r) ← sep (pExpr n true 0) n (ts.drop 1)
      let (_, r) ← op t!":" r
      if isKw t!"fallthrough" r then do
        let (_, r) ← op t!";" (r.drop 1)
        let (cs, r) ← pClauses n r
        match cs with
        | (e :: es', b) :: cs => pure ((es ++ e :: es', b) :: cs, r)
        | _ => none
      else do
        let (b, r) ← pStmts n r
        let (cs, r) ← pClauses n r
        pure ((es, b) :: cs, r)
    else do
      let (_, r) ← kw t!"default" ts
      let (_, r) ← op t!":" r
      let (b, r) ← pStmts n r
      let (cs, r) ← pClauses n r
      pure (([], b) :: cs, r)

/-- The clauses of a type switch. -/
def pTClauses : Nat → Ps (List (List Ty × List Stmt))
  | 0, _ => none
  | n + 1, ts =>
    if isOp t!"}" ts then some ([], ts.drop 1)
    else if isKw t!"case" ts then do
      let (es, r) ← sep (pTy n) n (ts.drop 1)
      let (_, r) ← op t!":" r
      let (b, r) ← pStmts n r
      let (cs, r) ← pTClauses n r
      pure ((es, b) :: cs, r)
    else do
      let (_, r) ← kw t!"default" ts
      let (_, r) ← op t!":" r
      let (b, r) ← pStmts n r
      let (cs, r) ← pTClauses n r
      pure (([], b) :: cs, r)

def pBlock : Nat → Ps (List Stmt)
  | 0, _ => none
  | n + 1, ts => do
    let (_, r) ← op t!"{" ts
    let (b, r) ← pStmts n r
    let (_, r) ← op t!"}" r
    pure (b, r)

/-- Statements up to a closing brace or the next clause. -/
def pStmts : Nat → Ps (List Stmt)
  | 0, _ => none
  | n + 1, ts =>
    if isOp t!"}" ts || isKw t!"case" ts || isKw t!"default" ts then some ([], ts)
    else do
      let (s, r) ← pStmt n ts
      match s with
      | .label _ => do
        let (b, r) ← pStmts n r
        pure (s :: b, r)
      | _ =>
        if isOp t!"}" r then pure ([s], r)
        else do
          let (_, r) ← op t!";" r
          let (b, r) ← pStmts n r
          pure (s :: b, r)
end

/-- A top-level declaration, without the semicolon after it. -/
def pTop (n : Nat) : Ps Top := fun ts =>
  match ts with
  | .kw k :: r =>
    if k == t!"type" then do
      let (x, r) ← ident r
      let (t, r) ← pTy n r
      pure (.typ x t, r)
    else if k == t!"const" then do
      let (x, r) ← ident r
      if isOp t!"=" r then do
        let (e, r) ← pExpr n true 0 (r.drop 1)
        pure (.const x none e, r)
      else do
        let (t, r) ← pTy n r
        let (_, r) ← op t!"=" r
        let (e, r) ← pExpr n true 0 r
        pure (.const x (some t) e, r)
    else if k == t!"var" then do
      let (x, r) ← ident r
      if isOp t!"=" r then do
        let (e, r) ← pExpr n true 0 (r.drop 1)
        pure (.init x e, r)
      else do
        let (t, r) ← pTy n r
        pure (.var x t, r)
    else if k == t!"func" then do
      let (recv, r) ← (if isOp t!"(" r then do
          let (ps, r) ← pParams n r
          match ps with
          | [(some x, t)] => pure (some (x, t), r)
          | _ => none
        else some (none, r))
      let (f, r) ← ident r
      let ((ps, rs), r) ← pSig n r
      let (b, r) ← pBlock n r
      pure (.func ⟨recv, f, ps, rs, b⟩, r)
    else none
  | _ => none

def pTops (n : Nat) : Nat → Ps (List Top)
  | 0, _ => none
  | _ + 1, [] => some ([], [])
  | k + 1, ts => do
    let (d, r) ← pTop n ts
    let (_, r) ← op t!";" r
    let (ds, r) ← pTops n k r
    pure (d :: ds, r)

/-- The paths in an import declaration, with the closing parenthesis. -/
def pPaths : Nat → Ps (List String)
  | 0, _ => none
  | n + 1, ts =>
    match ts with
    | .str s :: r => do
      let (_, r) ← op t!";" r
      let (ps, r) ← pPaths n r
      pure (name s :: ps, r)
    | r => do
      let (_, r) ← op t!")" r
      pure ([], r)

def pImports : Nat → Ps (List String)
  | 0, _ => none
  | n + 1, ts =>
    if isKw t!"import" ts then
      match ts.drop 1 with
      | .str s :: r => do
        let (_, r) ← op t!";" r
        let (ps, r) ← pImports n r
        pure (name s :: ps, r)
      | r => do
        let (_, r) ← op t!"(" r
        let (ps, r) ← pPaths n r
        let (_, r) ← op t!";" r
        let (qs, r) ← pImports n r
        pure (ps ++ qs, r)
    else some ([], ts)

/-- A whole file. -/
def pFile (ts : Toks) : Option File := do
  let n := 8 * ts.length + 8
  let (_, r) ← kw t!"package" ts
  let (p, r) ← ident r
  let (_, r) ← op t!";" r
  let (is, r) ← pImports n r
  let (ds, r) ← pTops n n r
  if r.isEmpty then pure ⟨p, is, ds⟩ else none

/-- Reading the text of a Go file. -/
def readFile (t : Text) : Option File := do pFile (← lex t)

end Verif.Lang
