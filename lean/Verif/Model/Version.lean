import Verif.Model.Select

/-!
# The inline namespace (optional.h:55, 106-130)

Preprocessor tokens are lists of characters.
-/

namespace Verif.Model

/-- `TINY_OPTIONAL_VERSION` is a decimal literal (optional.h:55), made of major, minor and patch version (50-54). -/
def versionNumber (major minor patch : Nat) : Nat := major * 100000 + minor * 100 + patch

/-- The spelling of the literal. (optional.h:55, 123-126) -/
def versionToken (v : Nat) : List Char := Nat.toDigits 10 v

/-- `TINY_OPTIONAL_UNUSED_BITS_NS_PART`, optional.h:106-110. -/
def unusedBitsNsPart (s : Settings) : List Char := if s.noBits then ['n', 'o', 'B', 'i', 't'] else ['b', 'i', 't']

/-- `TINY_OPTIONAL_MEMBER_NS_PART`, optional.h:112-116. -/
def memberNsPart (s : Settings) : List Char := if s.noMem then ['n', 'o', 'M', 'e', 'm'] else ['m', 'e', 'm']

/-- `TINY_OPTIONAL_CONCAT_NS_IMPL(a, b, c)`, optional.h:118: `tiny##a##_##b##_##c`. -/
def concatNs (a b c : List Char) : List Char := ['t', 'i', 'n', 'y'] ++ a ++ ['_'] ++ b ++ ['_'] ++ c

/-- The name of the inline namespace, optional.h:123-128. -/
def inlineNamespace (version : Nat) (s : Settings) : List Char :=
  concatNs (versionToken version) (unusedBitsNsPart s) (memberNsPart s)

end Verif.Model
