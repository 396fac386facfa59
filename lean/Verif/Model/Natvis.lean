import Verif.Model.Version
import Verif.Model.Instance

/-!
# The debugger visualizers (include/tiny_optional.natvis)

The visualizers read raw memory; `none`: the optional is not classified as empty or engaged (no matching visualizer, an
expression that cannot be evaluated, or the fallback that shows the raw storage).
-/

namespace Verif.Model

/-- The debugger reads `n` bytes as a little endian unsigned number. (the expressions in tiny_optional.natvis:75-131) -/
def readLE (b : Nat → Option Byte) (off : Nat) : Nat → Option Nat
  | 0 => some 0
  | n + 1 => match b off, readLE b (off + 1) n with
    | some x, some r => some (x.toNat + 256 * r)
    | _, _ => none

/-- `Expression="... == literal"` on `n` bytes. (tiny_optional.natvis:75-131) -/
def litEq (b : Nat → Option Byte) (off n literal : Nat) : Option Bool := (readLE b off n).map (· == literal)

/-- `$T2` of `InplaceDecompositionViaMemPtr<$T1, $T2>`: the debugger shows a member pointer as the offset of the member.
(tiny_optional.natvis:84-91, 104-111, 124-131) -/
def natvisOffset {V : Type} (S : Sem V) : DecompSel → Nat
  | .viaMember p => S.offset p.cls p.idx
  | _ => 0

/-- Types whose `==` the debugger can evaluate itself. (tiny_optional.natvis:196-212) -/
def natvisComparable : Kind → Bool
  | .cls _ => false
  | .memPtr _ => false
  | _ => true

/-- What the visualizers say about an optional of type `s` with storage `st` (`true`: empty).

* natvis:50-58: `DecompositionForSeparateFlag`, `SeparateFlagManipulator`.
* natvis:75-91: `optional_flag_manipulator<bool, void>`, whole payload and member.
* natvis:95-111: `double`. natvis:115-131: `float`.
* natvis:151-166, 174-190: any other `optional_flag_manipulator<*, void>`: the expression is only valid for pointers that
  can be dereferenced (`deref`, i.e. not for `void*`).
* natvis:196-212: any other manipulator: `== valueToIndicateEmpty`, which exists in `AssignmentFlagManipulator` only. The
  debugger evaluates `==` of built-in types like the compiled program (`S.eq`), and no overloaded `==`.
* natvis:216-222: fallback.

The names of all visualizers contain the inline namespace (`ns`). -/
def natvis {V : Type} (ns : List Char) (version : Nat) (P : Prog) (S : Sem V) (deref : Nat → Bool) (s : Selected) (c : Config V)
    (st : Storage V) : Option Bool :=
  if inlineNamespace version P.set = ns then
    match s.decomp, s.manip with
    | .separate, .separate => (readLE st.bytes (S.extent s.payload.kind).size 1).map (· != 0)
    | .separate, _ => none
    | _, .separate => none
    | d, .registered t =>
      let off := natvisOffset S d
      if t = Kind.plain .bool then litEq st.bytes off 1 0xfe
      else if t = Kind.plain (.flt 1) then litEq st.bytes off 8 0x7ff8fedcba987654
      else if t = Kind.plain (.flt 0) then litEq st.bytes off 4 0x7fedcba9
      else match t.kind with
        | .ptr id =>
          if deref id then
            if (S.extent t.kind).size = 4 then litEq st.bytes off 4 (0xffffffff - 8)
            else litEq st.bytes off 8 (0xffff800000000000 - 1)
          else none
        | _ => none
    | _, .assign t k =>
      if natvisComparable t.kind then
        match c.readFlag st, convertSentinel P.dm t.kind k with
        | .ok f, some v => some (S.eq t.kind f (S.const t.kind v))
        | _, _ => none
      else none
    | _, .custom _ => none
  else none

end Verif.Model
