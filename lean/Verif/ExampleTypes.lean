import Verif.Props.Integral
import Verif.Model.Instance
import Verif.Lemmas.Layout

/-!
# A concrete program for the examples about template selection and layouts

x64 Linux with the class `struct S { char c; double d; bool b; char* p; };` (class 7), a class 9 with a user
specialisation of `optional_flag_manipulator` and an empty class 8. Nothing here is used in a proof of a property.
-/

namespace Verif.Examples
open Verif Verif.Model Verif.Spec

/-- Macro settings of the examples. -/
def exSettings : Settings := ⟨false, false, false, .x64⟩

def exProg (s : Settings) : Prog where
  dm := Props.lp64
  set := s
  shortRank := 2
  longRank := 4
  llongRank := 5
  full t := if t = Kind.plain (.cls 9) then some 1 else none
  partials _ := []
  manipNoexcept _ := true
  eqNoexcept _ := true
  payloadOK _ := true

def exChar : Kind := .int ⟨1, true, 1⟩
def exShort : Kind := .int ⟨2, true, 0⟩
def exUShort : Kind := .int ⟨2, false, 0⟩
def exInt : Kind := .int ⟨3, true, 0⟩
def exUnsigned : Kind := .int ⟨3, false, 0⟩

/-- The members of class 7. -/
def exMembers : List QTy := [exChar.plain, (Kind.flt 1).plain, Kind.bool.plain, (Kind.ptr 0).plain]

def exScalarExtent : Kind → Extent
  | .flt 0 => ⟨4, 4⟩
  | .flt _ => ⟨8, 8⟩
  | .ptr _ => ⟨8, 8⟩
  | .int ⟨3, _, _⟩ => ⟨4, 4⟩
  | _ => ⟨1, 1⟩

def exExtent : Kind → Extent
  | .cls c => if c = 7 then classExtent (exMembers.map fun t => exScalarExtent t.kind) else ⟨1, 1⟩
  | k => exScalarExtent k

/-- A value is the sequence of the values of its members; that of a scalar is component 0. -/
abbrev ExVal := Nat → BitVec 64

def exScalarRepr (k : Kind) (v : ExVal) : Nat → Option Byte := reprLE (exScalarExtent k).size (v 0)

def exSem : Sem ExVal where
  extent := exExtent
  repr k v := match k with
    | .cls c => if c = 7 then classRepr (exMembers.zipIdx.map fun m => (exScalarExtent m.1.kind,
        exScalarRepr m.1.kind fun _ => v m.2)) else fun _ => none
    | k => exScalarRepr k v
  members c := if c = 7 then exMembers else []
  get _ k v := fun _ => v k
  eq _ a b := a 0 == b 0
  const _ c := fun _ => BitVec.ofInt 64 c
  user _ := (fun v => v 0 == 99#64, fun _ => 99#64)

theorem exScalar_ok (k : Kind) : (exScalarExtent k).OK := by
  unfold exScalarExtent
  split <;> exact ⟨by decide, by decide, by decide⟩

theorem exSem_lawful (s : Settings) (h : s.arch = .x64) : exSem.Lawful (exProg s) where
  ok k := by
    show (exExtent k).OK
    unfold exExtent
    split
    · rename_i c
      by_cases hc : c = 7
      · rw [if_pos hc]; exact classExtent_ok _
      · rw [if_neg hc]; exact ⟨by decide, by decide, by decide⟩
    · exact exScalar_ok _
  clsExtent c := by
    show exExtent (.cls c) = _
    simp only [exExtent, Sem.memberExtents, exSem]
    by_cases h : c = 7
    · simp only [h, if_true]; rfl
    · simp only [if_neg h]; decide
  clsRepr c v := by
    simp only [exSem]
    by_cases h : c = 7
    · simp only [h, if_true]; rfl
    · simp only [if_neg h]; rfl
  bool := rfl
  float := rfl
  double := rfl
  ptr64 _ _ := rfl
  ptr32 h2 := by
    have : s.arch = .x86 := h2
    rw [h] at this
    simp at this

end Verif.Examples
