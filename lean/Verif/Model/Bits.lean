import Verif.Model.Flag
import Verif.Spec.IEEE754

/-!
# Exploited unused bit patterns: `SentinelForExploitingUnusedBits` (optional.h:398-506)
-/

namespace Verif.Model

/-- Object representation of a `W`-bit value in `n` bytes; x86 and x64 are little endian. (the bytes that `memcpy` writes in
optional.h:739-748) -/
def reprLE {W : Nat} (n : Nat) (v : BitVec W) (i : Nat) : Option Byte :=
  if i < n then some (v.extractLsb' (8 * i) 8) else none

/-- The bytes of `valueToIndicateEmpty`, optional.h:713, as seen by `memcmp`/`memcpy`. -/
def bytesLE {W : Nat} (n : Nat) (v : BitVec W) : List Byte :=
  (List.range n).map fun i => v.extractLsb' (8 * i) 8

/-- `SentinelForExploitingUnusedBits<bool>::value`, optional.h:426. -/
def sentinelBool : BitVec 8 := 0xfe
/-- `SentinelForExploitingUnusedBits<double>::value`, optional.h:437. -/
def sentinelDouble : BitVec 64 := 0x7ff8fedcba987654
/-- `SentinelForExploitingUnusedBits<float>::value`, optional.h:451. -/
def sentinelFloat : BitVec 32 := 0x7fedcba9
/-- `SentinelForExploitingUnusedBits<T*>::value` on x64, optional.h:492. -/
def sentinelPtr64 : BitVec 64 := 0xffff800000000000 - 1
/-- `SentinelForExploitingUnusedBits<T*>::value` on x86, optional.h:497. -/
def sentinelPtr32 : BitVec 32 := 0xffffffff - 8

/-- A payload of `n` bytes whose values are the `8 * n`-bit patterns, stored in place with
`MemcpyAndCmpFlagManipulator<T, SentinelForExploitingUnusedBits<T>>` (optional.h:883-889). -/
def patternCfg {W : Nat} (n : Nat) (sentinel : BitVec W) (ndebug : Bool) : Config (BitVec W) :=
  ⟨n, reprLE n, .inplace, .memcpy (bytesLE n sentinel), ndebug⟩

/-- `tiny::optional<double>` (optional.h:431-440, 883-889) -/
def doubleCfg (ndebug : Bool) : Config (BitVec 64) := patternCfg 8 sentinelDouble ndebug
/-- `tiny::optional<float>` (optional.h:443-454, 883-889) -/
def floatCfg (ndebug : Bool) : Config (BitVec 32) := patternCfg 4 sentinelFloat ndebug
/-- `tiny::optional<T*>` on x64 (optional.h:459-492, 883-889) -/
def ptr64Cfg (ndebug : Bool) : Config (BitVec 64) := patternCfg 8 sentinelPtr64 ndebug
/-- `tiny::optional<T*>` on x86 (optional.h:459-489, 493-497, 883-889) -/
def ptr32Cfg (ndebug : Bool) : Config (BitVec 32) := patternCfg 4 sentinelPtr32 ndebug

/-- `tiny::optional<double, sentinel>` (C++20) or `optional_sentinel_via_type<double, ...>`: `AssignmentFlagManipulator`
with the built-in `==` of `double`. (optional.h:818-830, 1934-1952) -/
def doubleSentinelCfg (sentinel : BitVec 64) (ndebug : Bool) : Config (BitVec 64) :=
  ⟨8, reprLE 8, .inplace, .assign sentinel (Spec.Fmt.eq Spec.binary64), ndebug⟩

/-- A `bool` is one byte with value 0 or 1 (x86/x64 ABIs). (optional.h:419-428) -/
def boolRepr (b : Bool) (i : Nat) : Option Byte := if i = 0 then some (if b then 1 else 0) else none

/-- `tiny::optional<bool>` (optional.h:419-428, 883-889) -/
def boolCfg (ndebug : Bool) : Config Bool := ⟨1, boolRepr, .inplace, .memcpy (bytesLE 1 sentinelBool), ndebug⟩

end Verif.Model
