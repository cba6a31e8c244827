/-
A specification used to show that the hypotheses of the property theorems can be met.  In concrete
syntax:

    const MAX = 3;
    enum kind { A = 0, B = 1, C = 2 };
    struct node { int val; node *next; };
    union arm switch (kind k) { case A: case B: string s<MAX>; case C: node n; default: void; };
    struct top { arm arms<>; opaque id[5]; bool flag; hyper big; opaque data<MAX>; };
    union bare switch (kind k) { case A: int x; };
-/
import Verif.Gen.Run
import Verif.Gen.DecEq

namespace Verif.Demo
open Verif.Gen Verif.Spec Verif.Xdr

def fl : Flags := ⟨true, "uint32"⟩

def spec : Gen.Spec :=
  [ .const "MAX" 3,
    .enum "kind" [⟨"A", .lit 0⟩, ⟨"B", .lit 1⟩, ⟨"C", .lit 2⟩],
    .struct "node" (.cons (.name (.typespec (.int false)) "val")
      (.cons (.name (.ptr (.ident "node")) "next") .nil)),
    .union "arm" (.name (.typespec (.ident "kind")) "k")
      (.cons (.ident "A") [.ident "B"] (.name (.string (some (.ident "MAX"))) "s")
      (.cons (.ident "C") [] (.name (.typespec (.ident "node")) "n") (.dflt .void))),
    .struct "top" (.cons (.name (.varArray (.ident "arm") none) "arms")
      (.cons (.name (.opaqueArray (.lit 5)) "id")
      (.cons (.name (.typespec .bool) "flag")
      (.cons (.name (.typespec (.hyper false)) "big")
      (.cons (.name (.opaqueVarArray (some (.ident "MAX"))) "data") .nil))))),
    .union "bare" (.name (.typespec (.ident "kind")) "k")
      (.cons (.ident "A") [] (.name (.typespec (.int false)) "x") .nil) ]

theorem generates : (generate fl spec).isSome = true := by decide +kernel

def prog : GoProg := (generate fl spec).get generates

theorem gen : generate fl spec = some prog := by simp [prog]

theorem supp : supported fl spec = true := by decide +kernel

/-- The meaning of names in `spec`. -/
def env : Env := envOf fl.unsignedEnum spec

/-- A value of type `top`: three arms (label `B`; label `C` with a two-element list; default). -/
def topVal : GoVal :=
  .struct [
    ("Arms", .slice (some [
      .struct [("K", .u32 1), ("S", .str [104, 105]),
        ("N", .struct [("Val", .i32 0), ("Next", .ptr none)])],
      .struct [("K", .u32 2), ("S", .str []),
        ("N", .struct [("Val", .i32 (-1)), ("Next", .ptr (some
          (.struct [("Val", .i32 5), ("Next", .ptr none)])))])],
      .struct [("K", .u32 9), ("S", .str []), ("N", .struct [("Val", .i32 0), ("Next", .ptr none)])]])),
    ("Id", .barr [1, 2, 3, 4, 5]),
    ("Flag", .bool true),
    ("Big", .i64 (-7)),
    ("Data", .bytes (some [9, 8]))]

def topX : XVal :=
  .struct [
    .array [.union (.uint 1) (.string [104, 105]),
      .union (.uint 2) (.struct [.int (-1), .opt (some (.struct [.int 5, .opt none]))]),
      .union (.uint 9) .void],
    .opaque [1, 2, 3, 4, 5], .bool true, .hyper (-7), .vopaque [9, 8]]

def topBytes : List UInt8 :=
  [0, 0, 0, 3, 0, 0, 0, 1, 0, 0, 0, 2, 104, 105, 0, 0, 0, 0, 0, 2, 255, 255, 255, 255, 0, 0, 0, 1,
   0, 0, 0, 5, 0, 0, 0, 0, 0, 0, 0, 9, 1, 2, 3, 4, 5, 0, 0, 0, 0, 0, 0, 1, 255, 255, 255, 255, 255,
   255, 255, 249, 0, 0, 0, 2, 9, 8, 0, 0]

def topZero : GoVal :=
  .struct [("Arms", .slice none), ("Id", .barr [0, 0, 0, 0, 0]), ("Flag", .bool false),
    ("Big", .i64 0), ("Data", .bytes none)]

theorem topZero_eq : prog.zeroNamed "Top" = some topZero := by decide +kernel

theorem topZero_typed : Typed env "top" topZero ∧ Clean env "top" topZero := by
  obtain ⟨z, h1, h2⟩ := zero_fresh (n := "top") gen supp (by decide +kernel)
  have h3 : prog.zeroNamed (i "top") = some topZero := topZero_eq
  rw [h3] at h1
  cases h1
  exact h2

theorem top_decodes : Runs prog "Top" (makeReader topBytes) topZero (makeReader []) topVal :=
  runs_of_codecN gen supp (k := 10) (by decide +kernel)

theorem top_encodes : Runs prog "Top" (makeWriter []) topVal (makeWriter topBytes) topVal :=
  runs_of_codecN gen supp (k := 10) (by decide +kernel)

theorem topVal_typed : Typed env "top" topVal :=
  typed_of_run gen supp (n := "top") topZero_typed.1 top_decodes

theorem topVal_denotes : Denotes env "top" topVal topX := ⟨10, by decide +kernel⟩

theorem topX_value : IsValue env "top" topX :=
  isValue_of_run gen supp topVal_typed topVal_denotes top_encodes rfl

theorem topX_enc : enc topX = topBytes := by decide +kernel

end Verif.Demo
