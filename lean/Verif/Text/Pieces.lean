/-
Reading files given in pieces, for texts that are too long to be evaluated at once.
-/
import Verif.Text.GoFile
import Verif.Text.GoLower
import Verif.Text.Lex

namespace Verif.Text
open Verif.Gen

/-- Lines at whose ends the scanner is between tokens. -/
def scanLines : List Text → Option (List Tok)
  | [] => some []
  | l :: ls =>
    match run ⟨.idle, false⟩ l with
    | some (ts, ⟨.idle, false⟩) =>
      match scanLines ls with
      | some us => some (ts ++ us)
      | none => none
    | _ => none

theorem scanLines_scans : ∀ {ls ts}, scanLines ls = some ts → Scans ⟨.idle, false⟩ ls.flatten ts ⟨.idle, false⟩
  | [], _, h => by cases h; exact Scans.nil _
  | l :: ls, ts, h => by
    simp only [scanLines] at h
    split at h
    · rename_i us hr
      split at h
      · rename_i vs hv
        cases h
        rw [List.flatten_cons]
        exact Scans.append hr (scanLines_scans hv)
      · cases h
    · cases h

/-! ### Specifications -/

/-- The terminals of lines. -/
def lexLines : List (List Text) → Option (List XTok)
  | [] => some []
  | p :: ps =>
    match scanLines p with
    | some ts =>
      match lexAll ts with
      | some xs =>
        match lexLines ps with
        | some ys => some (xs ++ ys)
        | none => none
      | none => none
    | none => none

theorem lexLines_lex : ∀ {ps xs}, lexLines ps = some xs →
    ∃ ts, Scans ⟨.idle, false⟩ ps.flatten.flatten ts ⟨.idle, false⟩ ∧ lexAll ts = some xs
  | [], _, h => by cases h; exact ⟨[], Scans.nil _, rfl⟩
  | p :: ps, xs, h => by
    simp only [lexLines] at h
    split at h
    · rename_i ts hs
      split at h
      · rename_i xs hx
        split at h
        · rename_i ys hy
          cases h
          obtain ⟨us, h1, h2⟩ := lexLines_lex hy
          refine ⟨ts ++ us, ?_, ?_⟩
          · rw [List.flatten_cons, List.flatten_append]
            exact Scans.append (scanLines_scans hs) h1
          · rw [lexAll_append, hx, h2]
        · cases h
      · cases h
    · cases h

/-- A file is read as the specification whose tokens it has. -/
theorem read_pieces {ps : List (List Text)} {s : Spec} (h : lexLines ps = some (pSpec s)) (hok : okSpec s = true) :
    readSpec ps.flatten.flatten = some s := by
  obtain ⟨ts, h1, h2⟩ := lexLines_lex h
  have h3 := h1.scan (us := []) rfl
  rw [List.append_nil] at h3
  simp only [readSpec, h3, h2]
  exact (parseXdr_iff _ _).mpr (dSpec s hok)

/-! ### Go files -/

/-- The declaration with these tokens. -/
def declOf (n : Nat) (ts : List Tok) : Option GD :=
  match pD n ts with
  | some (d, _) => if decide (gD d ++ [.semi] = ts) && wD d then some d else none
  | none => none

theorem declOf_eq {n ts d} (h : declOf n ts = some d) : gD d ++ [.semi] = ts ∧ wD d = true := by
  unfold declOf at h
  split at h
  · split at h
    · rename_i hc
      cases h
      simpa using hc
    · cases h
  · cases h

/-- The declarations in the pieces, added one after the other. -/
def lowPieces (n : Nat) : Low → List (List Text) → Option Low
  | st, [] => some st
  | st, p :: ps =>
    match scanLines p with
    | some ts =>
      match declOf n ts with
      | some d =>
        match lowD st d with
        | some st' => lowPieces n st' ps
        | none => none
      | none => none
    | none => none

theorem lowPieces_eq {n : Nat} : ∀ {ps st st'}, lowPieces n st ps = some st' →
    ∃ ds : List GD, Scans ⟨.idle, false⟩ ps.flatten.flatten (ds.flatMap fun d => gD d ++ [.semi]) ⟨.idle, false⟩ ∧
      ds.all wD = true ∧ lowDs st ds = some st'
  | [], _, _, h => by cases h; exact ⟨[], Scans.nil _, rfl, rfl⟩
  | p :: ps, st, st', h => by
    simp only [lowPieces] at h
    split at h
    · rename_i ts hs
      split at h
      · rename_i d hd
        split at h
        · rename_i st1 h1
          obtain ⟨ds, a, b, c⟩ := lowPieces_eq h
          obtain ⟨e, f⟩ := declOf_eq hd
          refine ⟨d :: ds, ?_, ?_, ?_⟩
          · rw [List.flatten_cons, List.flatten_append, List.flatMap_cons, e]
            exact Scans.append (scanLines_scans hs) a
          · rw [List.all_cons, f, b]; rfl
          · simp only [lowDs, h1, c]
        · cases h
      · cases h
    · cases h

/-- Two files in pieces: the first piece is the package clause, in the second file followed by an import. -/
def lowPieces2 (n : Nat) (types code : List (List Text)) : Option (List Nat × GoProg × List GoVers) :=
  match types, code with
  | p :: ps, q :: i :: qs =>
    match scanLines p, scanLines q, scanLines i with
    | some [.kw k1, .ident a, .semi], some [.kw k2, .ident b, .semi], some [.kw k3, .str path, .semi] =>
      if k1 = t!"package" ∧ k2 = t!"package" ∧ k3 = t!"import" ∧ path = xdrPath ∧ a = b then
        match lowPieces n ⟨.empty, [], none⟩ ps with
        | some ⟨g, [], none⟩ =>
          match lowPieces n ⟨g, [], none⟩ qs with
          | some ⟨g, vs, none⟩ => some (a, g, vs)
          | _ => none
        | _ => none
      else none
    | _, _, _ => none
  | _, _ => none

theorem lowPieces2_eq {n types code a g vs} (h : lowPieces2 n types code = some (a, g, vs)) :
    ∃ ft fc, IsGo types.flatten.flatten ft ∧ IsGo code.flatten.flatten fc ∧ ft.pkg = a ∧ fc.pkg = a ∧
      lowFiles ft fc = some (g, vs) := by
  unfold lowPieces2 at h
  split at h
  · rename_i p ps q i qs
    split at h
    · rename_i k1 a' k2 b' k3 path h1 h2 h3
      split at h
      · rename_i hk
        obtain ⟨e1, e2, e3, e4, rfl⟩ := hk
        split at h
        · rename_i g1 h4
          split at h
          · rename_i g2 vs2 h5
            cases h
            obtain ⟨ds, x1, x2, x3⟩ := lowPieces_eq h4
            obtain ⟨es, y1, y2, y3⟩ := lowPieces_eq h5
            refine ⟨⟨a, [], ds⟩, ⟨a, [xdrPath], es⟩, ⟨?_, x2⟩, ⟨?_, y2⟩, rfl, rfl, ?_⟩
            · have := ((scanLines_scans h1).append x1).scan (us := []) rfl
              rw [List.flatten_cons, List.flatten_append, this, e1]
              simp [gFile, kwPackage]
            · have := ((scanLines_scans h2).append ((scanLines_scans h3).append y1)).scan (us := []) rfl
              rw [List.flatten_cons, List.flatten_append, List.flatten_cons, List.flatten_append, this, e2, e3, e4]
              simp [gFile, kwPackage, kwImport]
            · simp only [lowFiles, and_self, if_true, x3, y3]
          · cases h
        · cases h
      · cases h
    · cases h
  · cases h

end Verif.Text
