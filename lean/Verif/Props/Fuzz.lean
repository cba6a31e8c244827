/-
PROPERTIES C49, C50: the fuzz targets of both packages; depth of recursion of the generated decoders.
-/
import Verif.Props.Shipped
import Verif.Gen.Mono

namespace Verif.Props
open Verif.Xdr Verif.Spec Verif.Gen Verif.Inst

/-! ### C49 the fuzz targets

`FuzzDecodeEncode` (rfc1057/fuzz_test.go:34-51, rfc1813/fuzz_test.go:29-46) decodes the data into a
fresh value `x`; if that succeeds it encodes `x`, panics if that fails, decodes the result into a
second fresh value `y` (ignoring the error), and panics unless `reflect.DeepEqual(x, y)`.

`DeepEqual` of two values of the generated types is equality of the values of the model: both
distinguish nil slices from empty ones and nil pointers from others, and both look through pointers. -/

/-- `FuzzDecodeEncode` for the type `T` with zero value `z` returns on `data`. -/
def FuzzReturns (g : GoProg) (T : Ident) (z : GoVal) (data : List UInt8) : Prop :=
  (∃ x e, DecodeBuf g T data z x (some e)) ∨
  ∃ x res err, DecodeBuf g T data z x none ∧ EncodeBuf g T x res none ∧ DecodeBuf g T res z x err

/-- It panics. -/
def FuzzPanics (g : GoProg) (T : Ident) (z : GoVal) (data : List UInt8) : Prop :=
  ∃ x, DecodeBuf g T data z x none ∧
    ((∃ res e, EncodeBuf g T x res (some e)) ∨
      ∃ res y err, EncodeBuf g T x res none ∧ DecodeBuf g T res z y err ∧ x ≠ y)

theorem DecodeBuf.unique {g : GoProg} {T : Ident} {b : List UInt8} {z v v' : GoVal} {e e' : Option XErr}
    (h : DecodeBuf g T b z v e) (h' : DecodeBuf g T b z v' e') : v = v' ∧ e = e' := by
  obtain ⟨xs, h, rfl⟩ := h
  obtain ⟨xs', h', rfl⟩ := h'
  obtain ⟨rfl, rfl⟩ := h.unique h'
  exact ⟨rfl, rfl⟩

theorem EncodeBuf.unique {g : GoProg} {T : Ident} {b b' : List UInt8} {v : GoVal} {e e' : Option XErr}
    (h : EncodeBuf g T v b e) (h' : EncodeBuf g T v b' e') : b = b' ∧ e = e' := by
  obtain ⟨xs, u, h, rfl, rfl⟩ := h
  obtain ⟨xs', u', h', rfl, rfl⟩ := h'
  obtain ⟨rfl, rfl⟩ := h.unique h'
  exact ⟨rfl, rfl⟩

/-- For every supported specification and every type of it, the fuzz target returns on all data and
never panics. -/
theorem C49_fuzz {fl : Flags} {s : Gen.Spec} {g : GoProg} (hg : generate fl s = some g)
    (hs : supported fl s = true) {n : Ident} {z : GoVal} (hz : g.zeroNamed (i n) = some z)
    (hn : (envOf fl.unsignedEnum s).typeOf n ≠ none) (data : List UInt8) :
    FuzzReturns g (i n) z data ∧ ¬ FuzzPanics g (i n) z data := by
  have ret : FuzzReturns g (i n) z data := by
    obtain ⟨z', h1, hzt, hzc⟩ := zero_fresh (n := n) hg hs (Option.isSome_iff_ne_none.mpr hn)
    rw [hz] at h1; cases h1
    obtain ⟨xs', x, h, _⟩ := C18_total hg hs hzt (makeReader data)
    cases he : xs'.err with
    | some e => exact .inl ⟨x, e, xs', h, he.symm⟩
    | none =>
      obtain ⟨res, h1, h2⟩ := C15_stable hg hs hz hn ⟨xs', h, he.symm⟩
      exact .inr ⟨x, res, none, ⟨xs', h, he.symm⟩, h1, h2⟩
  refine ⟨ret, ?_⟩
  rintro ⟨x, hd, hp⟩
  rcases ret with ⟨x', e, h⟩ | ⟨x', res, err, h1, h2, h3⟩
  · cases (DecodeBuf.unique hd h).2
  · obtain ⟨rfl, _⟩ := DecodeBuf.unique hd h1
    rcases hp with ⟨res', e, h4⟩ | ⟨res', y, err', h4, h5, hne⟩
    · cases (EncodeBuf.unique h2 h4).2
    · obtain ⟨rfl, _⟩ := EncodeBuf.unique h2 h4
      exact hne (DecodeBuf.unique h3 h5).1

/-- The two targets that are checked in. -/
theorem C49_shipped (data : List UInt8) :
    (∃ z, Rfc1057.prog.zeroNamed "Rpc_msg" = some z ∧ FuzzReturns Rfc1057.prog "Rpc_msg" z data ∧
      ¬ FuzzPanics Rfc1057.prog "Rpc_msg" z data) ∧
    (∃ z, Rfc1813.prog.zeroNamed "READDIRPLUS3res" = some z ∧
      FuzzReturns Rfc1813.prog "READDIRPLUS3res" z data ∧
      ¬ FuzzPanics Rfc1813.prog "READDIRPLUS3res" z data) := by
  constructor
  · obtain ⟨z, h1, _⟩ := zero_fresh (n := "rpc_msg") Rfc1057.gen Rfc1057.supp (by decide +kernel)
    have hi : i "rpc_msg" = "Rpc_msg" := by decide +kernel
    have := C49_fuzz Rfc1057.gen Rfc1057.supp h1 (by decide +kernel) data
    rw [hi] at h1 this
    exact ⟨z, h1, this⟩
  · obtain ⟨z, h1, _⟩ := zero_fresh (n := "READDIRPLUS3res") Rfc1813.gen Rfc1813.supp (by decide +kernel)
    have hi : i "READDIRPLUS3res" = "READDIRPLUS3res" := by decide +kernel
    have := C49_fuzz Rfc1813.gen Rfc1813.supp h1 (by decide +kernel) data
    rw [hi] at h1 this
    exact ⟨z, h1, this⟩

-- data on which the target gets past the first decode: a message of the undeclared kind 2
example : ∃ z x, Rfc1057.prog.zeroNamed "Rpc_msg" = some z ∧
    DecodeBuf Rfc1057.prog "Rpc_msg" [0, 0, 0, 1, 0, 0, 0, 2] z x none :=
  ⟨(Rfc1057.prog.zeroNamed "Rpc_msg").get (by decide +kernel),
    (match Rfc1057.prog.runXdr 9 "Rpc_msg" (makeReader [0, 0, 0, 1, 0, 0, 0, 2])
      ((Rfc1057.prog.zeroNamed "Rpc_msg").get (by decide +kernel)) with
      | .ok (_, x) => x
      | .error _ => .bool false),
    by simp, makeReader [], Runs.of_fuel (k := 9) (by decide +kernel), rfl⟩

/-! ### C50 depth of recursion -/

/-- The method `Xdr` of `T` finishes with at most `d` method calls nested in each other. -/
def WithinDepth (g : GoProg) (T : Ident) (d : Nat) (xs : XdrState) (v : GoVal) : Prop :=
  ∃ r, g.runXdr d T xs v = .ok r

/-- Decoding `b` into a fresh value nests at most `⌊|b|/4⌋ + 1` times the number of types of the
package (plus one) calls. -/
theorem C50_decode {fl : Flags} {s : Gen.Spec} {g : GoProg} (hg : generate fl s = some g)
    (hs : supported fl s = true) {n : Ident} {z : GoVal} (hz : g.zeroNamed (i n) = some z)
    (hn : (envOf fl.unsignedEnum s).typeOf n ≠ none) (b : List UInt8) :
    WithinDepth g (i n) ((b.length / 4 + 1) * (g.types.length + 1)) (makeReader b) z := by
  obtain ⟨z', h1, h2, h3⟩ := zeroNamed_ok (link hg hs) n (Option.isSome_iff_ne_none.mpr hn)
  rw [hz] at h1; cases h1
  have hF : g.depth + b.length / 4 * g.depth ≤ (b.length / 4 + 1) * (g.types.length + 1) := by
    simp only [GoProg.depth, Nat.add_mul]; omega
  rcases codecN_decode (link hg hs) hF h2 with ⟨x, p, r, v', _, _, _, h4, _⟩ | ⟨xs', v', h4, _⟩
  · exact ⟨_, runXdr_of_codecN (methods_link hg hs) _ _ _ _ _ h4⟩
  · exact ⟨_, runXdr_of_codecN (methods_link hg hs) _ _ _ _ _ h4⟩

-- for instance READDIRPLUS3 replies of an NFS server
example (z : GoVal) (hz : Rfc1813.prog.zeroNamed (i "READDIRPLUS3res") = some z) (b : List UInt8) :
    WithinDepth Rfc1813.prog (i "READDIRPLUS3res") ((b.length / 4 + 1) * (Rfc1813.prog.types.length + 1))
      (makeReader b) z :=
  C50_decode Rfc1813.gen Rfc1813.supp hz (by decide +kernel) b

/-! The bound is of the right order: a linked list, such as the groups of an NFS export, is decoded
with one nested call for each element. -/

/-- The method of `Groups3` (rfc1813/xdr.go:1321-1338), from the shipped package. -/
theorem groups_method : Rfc1813.prog.methods.lookup "Groups3" = some
    (.cons (.callXdr "Name3" (.addr (.field .recv "Gr_name")))
    (.cons (.ifEncoding
      (.cons (.defNotNil "opted" (.addr (.field .recv "Gr_next")))
      (.cons (.xdrBool (.addr (.var "opted")))
      (.cons (.ifVar "opted"
        (.cons (.callXdr "Groups3" (.deref (.addr (.field .recv "Gr_next")))) .nil)) .nil))))
    (.cons (.ifDecoding
      (.cons (.varBool "opted")
      (.cons (.xdrBool (.addr (.var "opted")))
      (.cons (.ifVar "opted"
        (.cons (.assignNew (.addr (.field .recv "Gr_next")) (.named "Groups3"))
        (.cons (.callXdr "Groups3" (.deref (.addr (.field .recv "Gr_next")))) .nil))) .nil)))) .nil))) := by
  decide +kernel

theorem name_method : Rfc1813.prog.methods.lookup "Name3" = some
    (.cons (.xdrString (some (.ident "MNTNAMLEN3")) .recv) .nil) := by decide +kernel

theorem name_max : Rfc1813.prog.const (.ident "MNTNAMLEN3") = some 255 := by decide +kernel

/-- `var g Groups3`. -/
def groupsZero : GoVal := .struct [("Gr_name", .str []), ("Gr_next", .ptr none)]

theorem groups_zero : Rfc1813.prog.zero (.named "Groups3") = some groupsZero := by decide +kernel

/-- `n` elements with empty names, each announcing another one. -/
def groupsImage : Nat → List UInt8 → List UInt8
  | 0, rest => rest
  | n + 1, rest => [0, 0, 0, 0] ++ ([0, 0, 0, 1] ++ groupsImage n rest)

theorem name_run (k : Nat) (rest : List UInt8) :
    Rfc1813.prog.runXdr (k + 1) "Name3" (makeReader (0 :: 0 :: 0 :: 0 :: rest)) (.str []) =
      .ok (makeReader rest, .str []) := by
  have h := string_reader [] [] rest (some 255) [] (by decide) (by decide)
  have hb : be 4 ([] : List UInt8).length = [0, 0, 0, 0] := by decide
  have h : xdrString (makeReader (0 :: 0 :: 0 :: 0 :: rest)) (Int.ofNat 255) [] = (makeReader rest, []) := by
    rw [hb] at h; exact h
  simp only [GoProg.runXdr, name_method, execs, exec, maxOf, name_max, orStuck, withPtr, evalPtr, evalEx, St.load,
    bind, Except.bind, pure, Except.pure, Option.map_some, loadPath, libString, h, St.store, storePath]

theorem groups_deep (rest : List UInt8) : ∀ k n, k ≤ n →
    Rfc1813.prog.runXdr k "Groups3" (makeReader (groupsImage n rest)) groupsZero = .error .fuel
  | 0, _, _ => rfl
  | k + 1, 0, h => by omega
  | k + 1, n + 1, h => by
    have ih := groups_deep rest k n (by omega)
    have hbool := bool_reader [0, 0, 0, 1] (groupsImage n rest) false rfl
    have hb : decide (beVal [0, 0, 0, 1] ≠ 0) = true := by decide
    simp only [List.cons_append, List.nil_append, hb] at hbool
    simp only [groupsZero] at ih
    cases k with
    | zero =>
      simp [GoProg.runXdr, groups_method, execs, exec, withPtr, evalPtr, evalEx, St.load, groupsZero,
        bind, Except.bind, pure, Except.pure, Loc.step, loadPath, child, getField]
    | succ k =>
      rw [GoProg.runXdr, groups_method, groupsImage]
      simp [execs, exec, withPtr, evalPtr, evalEx, St.load, groupsZero,
        bind, Except.bind, pure, Except.pure, Loc.step, loadPath, child, getField, name_run, St.store,
        storePath, setChild, setField, encoding_reader, decoding_reader, St.push, libBool, hbool, orStuck,
        groups_zero, ih, List.lookup]

/-- For every `n`, the message that consists of a list of `n + 1` groups (`8 * n + 8` bytes) decodes
without an error, and not with fewer than `n + 1` nested calls.  (A Go program whose stack exceeds its
limit dies, whatever its handlers do.) -/
theorem C50_recursion (n : Nat) :
    ∃ b z v, b.length = 8 * n + 8 ∧ Rfc1813.prog.zeroNamed "Groups3" = some z ∧
      DecodeBuf Rfc1813.prog "Groups3" b z v none ∧
      ∀ d, d ≤ n → ¬ WithinDepth Rfc1813.prog "Groups3" d (makeReader b) z := by
  have hz : Rfc1813.prog.zeroNamed "Groups3" = some groupsZero := by decide +kernel
  have hi : i "groups3" = "Groups3" := by decide +kernel
  have hlen : ∀ n, (groupsImage n [0, 0, 0, 0, 0, 0, 0, 0]).length = 8 * n + 8 := by
    intro n
    induction n with
    | zero => rfl
    | succ n ih => simp only [groupsImage, List.length_append, ih, List.length_cons, List.length_nil]; omega
  have hval : ∀ n, ∃ x, IsValue (envOf fl.unsignedEnum Rfc1813.spec) "groups3" x ∧
      Reads x (groupsImage n [0, 0, 0, 0, 0, 0, 0, 0]) := by
    have h1 : (envOf fl.unsignedEnum Rfc1813.spec).typeOf "groups3" = some (.typespec (.struct
        (.cons (.name (.typespec (.ident "name3")) "gr_name")
          (.cons (.name (.ptr (.ident "groups3")) "gr_next") .nil)))) := by decide +kernel
    have h2 : (envOf fl.unsignedEnum Rfc1813.spec).typeOf "name3" = some (.string (some (.ident "MNTNAMLEN3"))) := by
      decide +kernel
    have h3 : (envOf fl.unsignedEnum Rfc1813.spec).max (some (.ident "MNTNAMLEN3")) = some (some 255) := by
      decide +kernel
    have hname : IsValue (envOf fl.unsignedEnum Rfc1813.spec) "name3" (.string []) := by
      rw [isValue_iff h2]; exact ⟨[], some 255, h3, by decide, rfl⟩
    intro n
    induction n with
    | zero =>
      refine ⟨.struct [.string [], .opt none], ?_, ?_⟩
      · rw [isValue_iff h1]
        exact ⟨_, ⟨_, _, hname, ⟨_, _, ⟨none, by simp, rfl⟩, rfl, rfl⟩, rfl⟩, rfl⟩
      · exact ⟨[0, 0, 0, 0], [0, 0, 0, 0], ⟨[], rfl, rfl⟩, ⟨[0, 0, 0, 0], [], rfl, rfl, rfl⟩, rfl⟩
    | succ n ih =>
      obtain ⟨x, hx, hr⟩ := ih
      refine ⟨.struct [.string [], .opt (some x)], ?_, ?_⟩
      · rw [isValue_iff h1]
        exact ⟨_, ⟨_, _, hname, ⟨_, _, ⟨some x, by rintro y ⟨⟩; exact hx, rfl⟩, rfl, rfl⟩, rfl⟩, rfl⟩
      · exact ⟨[0, 0, 0, 0], _, ⟨[], rfl, rfl⟩, ⟨_, [], ⟨[0, 0, 0, 1], _, rfl, by decide, hr, rfl⟩, rfl,
          (List.append_nil _).symm⟩, rfl⟩
  obtain ⟨x, hx, hr⟩ := hval n
  obtain ⟨v', h1, _⟩ := C13_accepts Rfc1813.gen Rfc1813.supp (hi ▸ hz) hx hr []
  rw [hi, List.append_nil] at h1
  refine ⟨_, groupsZero, v', hlen n, hz, ⟨_, h1, rfl⟩, fun d hd => ?_⟩
  rintro ⟨r, h⟩
  rw [groups_deep _ d n hd] at h
  cases h

end Verif.Props
