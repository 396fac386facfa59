import Verif.Spec.Preprocessor
import Verif.Model.Version
import Verif.Spec.Overload

/-!
# The two headers before preprocessing

The directives of `optional.h` and `optional_flag_manipulator_fwd.h`. The program text between them is cut into pieces (`Piece`), such
that a piece is either completely there or not. The macro of optional.h:2398-2431 is only used to write down the comparison
operators; they count as pieces.
-/

namespace Verif.Model.Pre
open Verif.Spec

/-- Pieces of the program text, with their lines in optional.h. -/
inductive Piece where
  /-- `template <class PayloadType, class Enable = void> struct optional_flag_manipulator;`, 151-155; in the other header 36-42 -/
  | declareManip
  /-- 162-180: `UseDefaultType`, `UseDefaultValue`, declaration of `optional`, `NoCustomInplaceFlagManipulator` -/
  | basics
  /-- 217-220: the primary template `optional_flag_manipulator` -/
  | primaryManip
  /-- 230-269: `sentinel_flag_manipulator`, `is_tiny_optional_v` -/
  | sentinelManip
  /-- 277-408 -/
  | helpers
  /-- 419-489: `SentinelForExploitingUnusedBits` for `bool`, floating point types, pointers -/
  | bitSentinels
  /-- 492 -/
  | pointerSentinel64
  /-- 495-496 -/
  | pointerSentinel32
  /-- 501-506 -/
  | pointerSentinelSize
  /-- 510-608: storages and two decompositions -/
  | storages
  /-- 613-646: `InplaceDecompositionViaMemPtr` -/
  | viaMember
  /-- 650-719: `SeparateFlagManipulator`, first lines of `MemcpyAndCmpFlagManipulator` -/
  | manipulators
  /-- 721: the check without cv-qualifiers, for old gcc -/
  | copyableNoCv
  /-- 723 -/
  | copyable
  /-- 726-851 -/
  | manipulatorsEnd
  /-- 867-870: `SentinelForExploitingUnusedBitsIsKnown` -/
  | bitsKnown
  /-- 872: the same, always false -/
  | bitsUnknown
  /-- 883-889: `optional_flag_manipulator` for the types with unused bits -/
  | bitsManip
  /-- 893-899: `HasCustomInplaceFlagManipulator` -/
  | hasCustom
  /-- 908-1816 -/
  | impl
  /-- 1818-1836: `or_else` of `TinyOptionalImpl` -/
  | implOrElse
  /-- 1838-1858 -/
  | implEnd
  /-- 1867-1986, 1994-2007, 2023-2051, 2059-2080, 2088-2132: `SelectDecomposition` and the like; the number counts these parts -/
  | select (k : Fin 5)
  /-- 1988-1989, 2009-2013, 2053-2054, 2082-2083: the decomposition of the four specialisations with a member pointer -/
  | memberDecomposition (k : Fin 4)
  /-- 1991-1992, 2015-2021, 2056-2057, 2085-2086: the same with a separate bool -/
  | separateDecomposition (k : Fin 4)
  /-- 2141-2156 -/
  | viaType
  /-- 2165-2249 -/
  | optional
  /-- 2251-2269: `or_else` of `optional` -/
  | optionalOrElse
  /-- 2271-2396 -/
  | optionalEnd
  /-- 2437-2451, 2482-2490, 2527-2534, 2571-2578, 2615-2622, 2659-2666: operators between optionals; and `optional == nullopt` -/
  | between (op : RelOp)
  /-- 2453-2457, 2492-2502, 2536-2546, 2580-2590, 2624-2634, 2668-2678: operators with `nullopt` -/
  | withNullopt (op : RelOp)
  /-- 2460-2475, 2505-2520, 2549-2564, 2593-2608, 2637-2652, 2681-2696: operators with values -/
  | withValue (op : RelOp)
  /-- 2703-2736: `<=>` between optionals -/
  | spaceship
  /-- 2738-2744: `<=>` for gcc -/
  | spaceshipGcc
  /-- 2747-2764: `<=>` with `nullopt` and values -/
  | spaceshipEnd
  /-- 2775-2809: `std::hash` -/
  | hash
deriving DecidableEq

/-- Identifiers. (optional.h:1-270) -/
inductive Name where
  /-- `__cplusplus` -/
  | cplusplus
  /-- `_MSVC_LANG` -/
  | msvcLang
  /-- `__x86_64__` -/
  | x86_64
  /-- `_M_X64` -/
  | mX64
  /-- `i386` -/
  | i386
  /-- `__i386__` -/
  | i386__
  /-- `__i386` -/
  | __i386
  /-- `_M_IX86` -/
  | mIX86
  /-- `__cpp_lib_three_way_comparison` -/
  | libThreeWay
  /-- `__clang__` -/
  | clang
  /-- `__GNUC__` -/
  | gnuc
  /-- `__GNUG__` -/
  | gnug
  /-- `__cpp_concepts` -/
  | cppConcepts
  /-- `__cpp_lib_concepts` -/
  | libConcepts
  /-- `TINY_OPTIONAL_USE_SEPARATE_BOOL_INSTEAD_OF_UB_TRICKS` -/
  | ubTricks
  /-- `TINY_OPTIONAL_USE_SEPARATE_BOOL_INSTEAD_OF_UNUSED_BITS` -/
  | unusedBits
  /-- `TINY_OPTIONAL_USE_SEPARATE_BOOL_INSTEAD_OF_MEMBER` -/
  | member
  /-- `TINY_OPTIONAL_VERSION` -/
  | version
  /-- `TINY_OPTIONAL_CPP20` -/
  | cpp20
  /-- `TINY_OPTIONAL_x64` -/
  | x64
  /-- `TINY_OPTIONAL_x86` -/
  | x86
  /-- `TINY_OPTIONAL_ENABLE_THREEWAY_COMPARISON` -/
  | threeway
  /-- `TINY_OPTIONAL_GCC_WORKAROUND_CWG2445` -/
  | workaround
  /-- `TINY_OPTIONAL_ENABLE_ORELSE` -/
  | orElse
  /-- `TINY_OPTIONAL_UNUSED_BITS_NS_PART` -/
  | bitsPart
  /-- `TINY_OPTIONAL_MEMBER_NS_PART` -/
  | memPart
  /-- `TINY_OPTIONAL_CONCAT_NS_IMPL` -/
  | concatImpl
  /-- `TINY_OPTIONAL_CONCAT_NS` -/
  | concat
  /-- `TINY_OPTIONAL_INLINE_NS_BEGIN` -/
  | nsBegin
  /-- `TINY_OPTIONAL_INLINE_NS_END` -/
  | nsEnd
  /-- `TINY_OPTIONAL_FLAG_MANIPULATOR_ALREADY_DECLARED` -/
  | declared
  /-- `TINY_OPTIONAL_IMPL_COMPARE_BETWEEN_OPTIONALS` -/
  | compareMacro
  | bit | noBit | mem | noMem | tiny
  /-- `_` -/
  | underscore
  /-- `inline namespace` -/
  | inlineNamespace
  /-- a piece of the library -/
  | piece (p : Piece)
  /-- the user's specialisation of `optional_flag_manipulator` with this number -/
  | userSpecialisation (k : Nat)
  /-- anything else -/
  | other (k : Nat)
deriving DecidableEq

/-- Spelling of the identifiers that are operands of `##`. (optional.h:106-130) -/
def spell : Name → List Char
  | .bit => ['b', 'i', 't']
  | .noBit => ['n', 'o', 'B', 'i', 't']
  | .mem => ['m', 'e', 'm']
  | .noMem => ['n', 'o', 'M', 'e', 'm']
  | .tiny => ['t', 'i', 'n', 'y']
  | .underscore => ['_']
  | _ => []

section
open Dir Cond

/-- `#define n` (e.g. optional.h:63) -/
def flag (n : Name) : Dir Name := .define n (.obj [])

/-- A line of program text that consists of the piece. (e.g. optional.h:174-213) -/
def piece (p : Piece) : Dir Name := .text [.id (.piece p)]

/-- `TINY_OPTIONAL_INLINE_NS_BEGIN` (optional.h:123-128) -/
def nsBegin : Dir Name := .text [.id .nsBegin]
/-- `TINY_OPTIONAL_INLINE_NS_END` (optional.h:130) -/
def nsEnd : Dir Name := .text [.id .nsEnd]

/-- `#ifdef n` (e.g. optional.h:77) -/
def ifdef (n : Name) (t e : Dir Name) : Dir Name := .cond (.defined n) t e
/-- `#ifndef n` (e.g. optional.h:79) -/
def ifndef (n : Name) (t e : Dir Name) : Dir Name := .cond (.not (.defined n)) t e

/-- optional.h:58-60 -/
def languageCheck : Dir Name :=
  .cond (.and (.or (.not (.defined .cplusplus)) (.lt .cplusplus 201703)) (.or (.not (.defined .msvcLang)) (.lt .msvcLang 201703)))
    .error .nothing

/-- optional.h:62-64 -/
def cpp20Macro : Dir Name :=
  .cond (.or (.and (.defined .cplusplus) (.ge .cplusplus 202002)) (.and (.defined .msvcLang) (.ge .msvcLang 202002)))
    (flag .cpp20) .nothing

/-- optional.h:67-71 -/
def archMacros : Dir Name :=
  .cond (.or (.defined .x86_64) (.defined .mX64)) (flag .x64)
    (.cond (.or (.or (.or (.defined .i386) (.defined .i386__)) (.defined .__i386)) (.defined .mIX86)) (flag .x86) .nothing)

/-- optional.h:77-86 -/
def ubTricksMacros : Dir Name :=
  ifdef .ubTricks (.seq (ifndef .unusedBits (flag .unusedBits) .nothing) (ifndef .member (flag .member) .nothing)) .nothing

/-- optional.h:88-98 -/
def threewayMacros : Dir Name :=
  ifdef .libThreeWay
    (.seq (flag .threeway)
      (.cond (.and (.not (.defined .clang)) (.or (.defined .gnuc) (.defined .gnug))) (flag .workaround) .nothing))
    .nothing

/-- optional.h:100-103 -/
def orElseMacro : Dir Name :=
  .cond (.and (.defined .cppConcepts) (.defined .libConcepts)) (flag .orElse) .nothing

/-- optional.h:106-116 -/
def partMacros : Dir Name := .seq
  (ifdef .unusedBits (.define .bitsPart (.obj [.id .noBit])) (.define .bitsPart (.obj [.id .bit])))
  (ifdef .member (.define .memPart (.obj [.id .noMem])) (.define .memPart (.obj [.id .mem])))

/-- optional.h:118-130 -/
def namespaceMacros : Dir Name := .block [
  .define .concatImpl (.fn [[.tok (.id .tiny), .param 0, .tok (.id .underscore), .param 1, .tok (.id .underscore), .param 2]]),
  .define .concat (.fn [[.tok (.id .concatImpl)], [.tok .lparen], [.param 0], [.tok .comma], [.param 1], [.tok .comma], [.param 2],
    [.tok .rparen]]),
  .define .nsBegin (.obj [.id .inlineNamespace, .id .concat, .lparen, .id .version, .comma, .id .bitsPart, .comma, .id .memPart,
    .rparen, .lbrace]),
  .define .nsEnd (.obj [.rbrace])]

/-- optional.h:55-130: the macros. -/
def macroPart (version : Nat) : Dir Name := .block [
  .define .version (.obj [.num version]),
  languageCheck, cpp20Macro, archMacros, ubTricksMacros, threewayMacros, orElseMacro, partMacros, namespaceMacros]

/-- optional.h:149-156; optional_flag_manipulator_fwd.h as a whole (1-44) is the same text. -/
def declaration : Dir Name := ifndef .declared (.seq (flag .declared) (piece .declareManip)) .nothing

/-- optional.h:159-271 -/
def firstPart : Dir Name := .block [
  nsBegin, piece .basics, nsEnd, piece .primaryManip, nsBegin, piece .sentinelManip, nsEnd]

/-- `#if !defined(TINY_OPTIONAL_x86) && !defined(TINY_OPTIONAL_x64)` `#error`, optional.h:414-416, 627-629. -/
def archError : Dir Name := .cond (.and (.not (.defined .x86)) (.not (.defined .x64))) .error .nothing

/-- optional.h:411-507 -/
def bitsPartText : Dir Name :=
  ifndef .unusedBits
    (.block [archError, piece .bitSentinels,
      ifdef .x64 (piece .pointerSentinel64) (ifdef .x86 (piece .pointerSentinel32) .error),                 -- 490-500
      piece .pointerSentinelSize])
    .nothing

/-- optional.h:611-647 -/
def memberPartText : Dir Name := ifndef .member (.seq archError (piece .viaMember)) .nothing

/-- optional.h:720-724 -/
def copyableText : Dir Name :=
  .cond (.and (.and (.defined .gnug) (.not (.defined .clang))) (.le .gnuc 9)) (piece .copyableNoCv) (piece .copyable)

/-- optional.h:274-900 -/
def secondPart : Dir Name := .block [
  nsBegin, piece .helpers, bitsPartText, piece .storages, memberPartText, piece .manipulators, copyableText, piece .manipulatorsEnd,
  nsEnd,
  nsBegin, ifndef .unusedBits (piece .bitsKnown) (piece .bitsUnknown), nsEnd,                               -- 866-873
  piece .bitsManip,
  nsBegin, piece .hasCustom, nsEnd]

/-- optional.h:1987-1993, 2008-2022, 2052-2058, 2081-2087 -/
def memberChoice (k : Fin 4) : Dir Name :=
  ifndef .member (piece (.memberDecomposition k)) (piece (.separateDecomposition k))

/-- optional.h:903-2158 -/
def thirdPart : Dir Name := .block [
  nsBegin, piece .impl, ifdef .orElse (piece .implOrElse) .nothing, piece .implEnd, nsEnd,
  nsBegin, piece (.select 0), memberChoice 0, piece (.select 1), memberChoice 1, piece (.select 2), memberChoice 2, piece (.select 3),
  memberChoice 3, piece (.select 4), nsEnd,
  nsBegin, piece .viaType, nsEnd]

/-- One comparison operator, e.g. optional.h:2437-2475. -/
def comparison (op : RelOp) : Dir Name := .block [
  piece (.between op),
  .cond (.or (.not (.defined .threeway)) (.defined .workaround)) (piece (.withNullopt op)) .nothing,
  piece (.withValue op)]

/-- optional.h:2702-2766 -/
def spaceshipText : Dir Name :=
  ifdef .threeway
    (.block [piece .spaceship, ifdef .workaround (piece .spaceshipGcc) .nothing, piece .spaceshipEnd])
    .nothing

/-- optional.h:2161-2397 -/
def fourthPart : Dir Name := .block [
  nsBegin, piece .optional, ifdef .orElse (piece .optionalOrElse) .nothing, piece .optionalEnd]

/-- optional.h:2432-2809 -/
def fifthPart : Dir Name := .block [
  comparison .eq, comparison .ne, comparison .lt, comparison .le, comparison .gt, comparison .ge,
  spaceshipText, nsEnd, piece .hash]

/-- `optional.h` of the version; 100301 in the repository (line 55). The `#include`s of standard headers (33-40) define only macros of
the implementation, which are there from the beginning in the model. The directives 133-140 and 2811-2814 concern warnings. -/
def optionalH (version : Nat) : Dir Name := .block [
  macroPart version, declaration, firstPart, secondPart, thirdPart, fourthPart,
  .define .compareMacro (.fn []),                                                                           -- 2398-2431
  fifthPart]

/-- `optional_flag_manipulator_fwd.h` -/
def fwdH : Dir Name := declaration

end

/-- File number 0 is `optional_flag_manipulator_fwd.h`, which has an include guard; `k + 1` is the k-th copy of `optional.h`, which has
`#pragma once` (line 1); all copies have the given versions. -/
def files (version : Nat → Nat) : Nat → Dir Name
  | 0 => fwdH
  | k + 1 => optionalH (version k)

/-- `#pragma once`. (optional.h:1) -/
def once : Nat → Bool
  | 0 => false
  | _ + 1 => true

end Verif.Model.Pre
