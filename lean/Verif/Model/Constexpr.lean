import Verif.Spec.Constexpr
import Verif.Model.Flag

/-!
# Which functions are `constexpr`, and the state of an optional before its constructor runs

The functions of the library with their `constexpr` specifiers and the functions that they call, on each path. To the advantage of the library: `assert` is
disabled; functions of the user and of the payload, the standard library's `forward`, `move`, `invoke`, `addressof` and manipulators of the user count as usable in constant expressions. Not
declared `constexpr` in any edition up to C++23: `std::memcpy`, `std::memcmp` and placement new.
-/

namespace Verif.Model.Constexpr
open Verif Verif.Model Verif.Spec.Constexpr

/-- The functions. (optional.h:233-2804) -/
inductive Fn where
  /-- functions of the user, and of the standard library as above (called in optional.h:731-2804) -/
  | user
  /-- (optional.h:731, 745) -/
  | memcmp
  /-- (optional.h:731, 745) -/
  | memcpy
  /-- (optional.h:240, 840, 1062, 1067, 1096, 1101) -/
  | placementNew
  -- helpers for the selection of types
  | isTinyOptionalHelper | isIntegralInRange | convertSentinel
  -- decompositions
  | decompFlag | decompPayload
  -- manipulators of the library
  | sepIsEmpty | sepInit | sepInvalidate
  | cmpIsEmpty | cmpInit | cmpInvalidate
  | asgIsEmpty | asgInit | asgInvalidate
  | sentIsEmpty | sentInit | sentInvalidate
  -- StorageBase
  | sbCtor | sbCtorInPlace | sbCtorFunction | sbDtor | hasValue | flag | flagConst | payload | payloadConst | destroyPayload
  | constructPayload | constructFromFunction | assignValue | sbReset
  -- bases for the special member functions
  | moveCtorBase | copyCtorBase | moveAssignBase | copyAssignBase
  -- TinyOptionalImpl and optional
  | defaultCtor | copyCtor | moveCtor | copyAssign | moveAssign | dtor
  | nulloptCtor | inPlaceCtor | functionCtor | convertingCtor | assignNullopt | assignConverting | emplace | operatorBool | arrow | deref
  | value | valueOr | swap | andThen | transform | orElse
  -- free functions
  | freeSwap | compareOptionals | compareNullopt | compareNulloptConstant | compareValue | threeWay | hash | makeOptional
deriving DecidableEq, Repr

/-- The flag manipulator. (optional.h:230-247, 680-850; manipulators of the user: 217-220, 2318) -/
inductive ManipKind where
  | separate | memcpy | assign | sentinel | user
deriving DecidableEq, Repr

/-- `FlagManipulator::is_empty`. (optional.h:995) -/
def isEmptyFn : ManipKind → Fn
  | .separate => .sepIsEmpty
  | .memcpy => .cmpIsEmpty
  | .assign => .asgIsEmpty
  | .sentinel => .sentIsEmpty
  | .user => .user

/-- `FlagManipulator::init_empty_flag`. (optional.h:957, 965, 973, 1034, 1140) -/
def initFn : ManipKind → Fn
  | .separate => .sepInit
  | .memcpy => .cmpInit
  | .assign => .asgInit
  | .sentinel => .sentInit
  | .user => .user

/-- `FlagManipulator::invalidate_empty_flag`. (optional.h:1053, 1088) -/
def invalidateFn : ManipKind → Fn
  | .separate => .sepInvalidate
  | .memcpy => .cmpInvalidate
  | .assign => .asgInvalidate
  | .sentinel => .sentInvalidate
  | .user => .user

/-- The `constexpr` specifiers: 253, 259, 355, 775; 578-604, 637, 642; 1682-1837, 2253, 2263. Defaulted functions (1441-1446, 2211-2216, and 1173-1386 for the bases) are
`constexpr` if the functions that they call allow it. (optional.h:233-2804) -/
def isConstexpr : Fn → Bool
  | .user => true
  | .isTinyOptionalHelper | .isIntegralInRange | .convertSentinel => true
  | .decompFlag | .decompPayload => true
  | .andThen | .transform | .orElse => true
  | .defaultCtor | .copyCtor | .moveCtor | .copyAssign | .moveAssign | .dtor => true
  | _ => false

/-- The calls on each path. (lines of optional.h at each case) -/
def executions (k : ManipKind) : Fn → List (List Fn)
  | .user | .memcmp | .memcpy | .placementNew => [[]]
  | .isTinyOptionalHelper => [[]]                                             -- 253-262
  | .isIntegralInRange => [[]]                                                -- 355-380
  | .convertSentinel => [[.isIntegralInRange], []]                            -- 775-812
  | .decompFlag | .decompPayload => [[]]                                      -- 578-586, 599-607, 637-645
  | .sepIsEmpty | .sepInit | .sepInvalidate => [[]]                           -- 682-700
  | .cmpIsEmpty => [[.memcmp]]                                                -- 729-737
  | .cmpInit => [[.memcpy]]                                                   -- 739-749
  | .cmpInvalidate => [[]]                                                    -- 751-758
  | .asgIsEmpty => [[.user]]                                                  -- 818-830
  | .asgInit => [[.placementNew]]                                             -- 832-842
  | .asgInvalidate => [[.user]]                                               -- 844-849
  | .sentIsEmpty => [[.user]]                                                 -- 233-236
  | .sentInit => [[.placementNew]]                                            -- 238-241
  | .sentInvalidate => [[.user]]                                              -- 243-246
  | .sbCtor => [[.flag, initFn k]]                                            -- 955-959
  | .sbCtorInPlace => [[.flag, initFn k, .constructPayload]]                  -- 962-967
  | .sbCtorFunction => [[.flag, initFn k, .constructFromFunction]]            -- 970-975
  | .sbDtor => [[.hasValue], [.hasValue, .destroyPayload]]                    -- 978-983
  | .hasValue => [[.flagConst, isEmptyFn k]]                                  -- 993-996
  | .flag => [[.decompFlag]]                                                  -- 998-1001
  | .flagConst => [[.flag]]                                                   -- 1003-1006
  | .payload => [[.decompPayload]]                                            -- 1008-1011
  | .payloadConst => [[.payload]]                                             -- 1013-1016
  | .destroyPayload => [[.payload, .user]]                                    -- 1018-1021
  | .constructPayload | .constructFromFunction =>                             -- 1043-1080, 1082-1114
    [[.flag, invalidateFn k, .payload, .user, .placementNew]]
  | .assignValue => [[.hasValue, .payload, .user], [.hasValue, .constructPayload]]             -- 1117-1133
  | .sbReset => [[.hasValue], [.hasValue, .destroyPayload, .flag, initFn k]]                   -- 1136-1143
  | .moveCtorBase => [[.sbCtor, .hasValue], [.sbCtor, .hasValue, .payload, .constructPayload]]           -- 1179-1194
  | .copyCtorBase => [[.sbCtor, .hasValue], [.sbCtor, .hasValue, .payloadConst, .constructPayload]]      -- 1236-1248
  | .moveAssignBase => [[.hasValue, .payload, .assignValue], [.hasValue, .sbReset]]                      -- 1293-1308
  | .copyAssignBase => [[.hasValue, .payloadConst, .assignValue], [.hasValue, .sbReset]]                 -- 1353-1364
  | .defaultCtor => [[.sbCtor]]                                               -- 1441, 2211
  | .copyCtor => [[.copyCtorBase]]                                            -- 1442, 2212
  | .moveCtor => [[.moveCtorBase]]                                            -- 1443, 2213
  | .copyAssign => [[.copyAssignBase]]                                        -- 1444, 2214
  | .moveAssign => [[.moveAssignBase]]                                        -- 1445, 2215
  | .dtor => [[.sbDtor]]                                                      -- 1446, 2216
  | .nulloptCtor => [[.defaultCtor]]                                          -- 1449-1452
  | .inPlaceCtor => [[.sbCtorInPlace]]                                        -- 1455-1469
  | .functionCtor => [[.sbCtorFunction]]                                      -- 1473-1477
  | .convertingCtor => [[.sbCtorInPlace]]                                     -- 1481-1496
  | .assignNullopt => [[.sbReset]]                                            -- 1517-1521, 2233-2237
  | .assignConverting => [[.assignValue]]                                     -- 1524-1529, 2240-2247
  | .emplace => [[.sbReset, .constructPayload, .payload]]                     -- 1532-1552
  | .operatorBool => [[.hasValue]]                                            -- 1555-1558
  | .arrow => [[.payload], [.payloadConst]]                                   -- 1561-1571
  | .deref => [[.payload], [.payloadConst]]                                   -- 1574-1596
  | .value => [[.hasValue, .payload], [.hasValue, .payloadConst], [.hasValue, .user]]          -- 1599-1629
  | .valueOr => [[.hasValue, .payload, .user], [.hasValue, .payloadConst, .user], [.hasValue, .user]]    -- 1632-1653
  | .swap => [[.hasValue, .hasValue, .payload, .payload, .user], [.hasValue, .hasValue],       -- 1656-1678
      [.hasValue, .hasValue, .payload, .constructPayload, .sbReset]]
  | .andThen => [[.hasValue, .deref, .user], [.hasValue, .user]]              -- 1682-1731
  | .transform => [[.hasValue, .deref, .functionCtor], [.hasValue, .defaultCtor]]              -- 1734-1814
  | .orElse => [[.hasValue, .copyCtor], [.hasValue, .moveCtor], [.hasValue, .user]]            -- 1817-1838, 2252-2271
  | .freeSwap => [[.swap]]                                                    -- 1843-1855
  | .compareOptionals => [[.hasValue, .hasValue], [.hasValue, .hasValue, .deref, .deref, .user]]         -- 2398-2432, 2437-2696
  | .compareNullopt => [[.hasValue]]                                          -- 2447-2457, 2493-2502, 2543-2546, 2581-2584, 2625-2628, 2675-2678
  | .compareNulloptConstant => [[]]                                           -- 2537-2540, 2587-2590, 2631-2634, 2669-2672
  | .compareValue => [[.hasValue], [.hasValue, .deref, .user]]                -- 2461-2476, 2506-2521 and so on until 2696
  | .threeWay => [[.hasValue, .hasValue], [.hasValue, .hasValue, .deref, .deref, .user], [.hasValue], [.hasValue, .deref, .user]] -- 2714-2764
  | .hash => [[.hasValue], [.hasValue, .deref, .user]]                        -- 2786-2789, 2801-2804
  | .makeOptional => [[.convertingCtor], [.inPlaceCtor]]                      -- 2279-2311

/-- The library. (optional.h:233-2804) -/
def functions (k : ManipKind) : Functions Fn := ⟨isConstexpr, executions k⟩

/-- `StorageBase` has a destructor that is user-provided and not `constexpr` (optional.h:978-983), constructors that are not `constexpr` (955-975, and the bases 1173-1386), and private data.
The library's optional has it as base, so the same holds for `TinyOptionalImpl` (1391). The storage is a union with such constructors as well (526-527, 542-543). -/
def optionalClass : Class where
  aggregate := false
  constexprCtor := false
  trivialDtor := false
  constexprDtor := false
  membersLiteral := false

/-- Initialisation of an optional with static storage duration by its default constructor. (optional.h:955-959, 1441, 2211) -/
noncomputable def staticInit (k : ManipKind) : StaticInit :=
  open Classical in if (functions k).Usable .defaultCtor then .constant else .zeroThenDynamic

/-- The storage after zero-initialisation ([dcl.init]): all bytes are zero, including the separate flag, and the first member of the
union, a scalar, is zero. (the types in optional.h:517-547) -/
def zeroed {V : Type} (c : Config V) (zero : V) : Storage V :=
  { bytes := fun _ => some 0#8, payload := none, flag := match c.manip with | .separate => none | _ => some ⟨0, some zero⟩ }

end Verif.Model.Constexpr
