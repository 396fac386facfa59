import Verif.Lemmas.Reachable

/-!
# Concrete payload types and configurations

Used by the non-vacuity examples next to the theorems. Nothing here is used in a proof of a property.
-/

namespace Verif.Examples
open Verif Verif.Model

/-- Operations of a one-byte scalar (e.g. `unsigned char`); the user state counts nothing. -/
def scalarOps {V G : Type} : Ops V G where
  copyCtor v g := (.ok v, g)
  moveCtor v g := (.ok v, v, g)
  copyAssign _ s g := (none, s, g)
  moveAssign _ s g := (none, s, s, g)
  selfCopyAssign v g := (none, v, g)
  selfMoveAssign v g := (none, v, g)
  swap a b g := (none, b, a, g)
  selfSwap v g := (none, v, g)
  dtor _ g := g
  nothrowCopyCtor := true
  nothrowMoveCtor := true
  nothrowMoveAssign := true
  nothrowSwap := true

theorem scalarOps_lawful {V G : Type} : (scalarOps : Ops V G).Lawful :=
  ⟨fun _ v _ => ⟨v, rfl⟩, fun _ v _ => ⟨v, rfl⟩, fun _ _ _ _ => rfl, fun _ _ _ => rfl, fun _ _ _ _ => rfl,
    fun _ _ _ => rfl⟩

/-- A class that logs its special operations in the user state, leaves 0 behind when moved from, and throws when the
value 13 is copied. -/
def loggingOps : Ops (BitVec 8) (List String) where
  copyCtor v g := if v = 13#8 then (.error (.user 13), g ++ ["copy!"]) else (.ok v, g ++ ["copy"])
  moveCtor v g := (.ok v, 0#8, g ++ ["move"])
  copyAssign d s g := if s = 13#8 then (some (.user 13), d, g ++ ["copy=!"]) else (none, s, g ++ ["copy="])
  moveAssign _ s g := (none, s, 0#8, g ++ ["move="])
  selfCopyAssign v g := (none, v, g ++ ["selfcopy="])
  selfMoveAssign v g := (none, v, g ++ ["selfmove="])
  swap a b g := (none, b, a, g ++ ["swap"])
  selfSwap v g := (none, v, g ++ ["selfswap"])
  dtor _ g := g ++ ["dtor"]
  nothrowCopyCtor := false
  nothrowMoveCtor := true
  nothrowMoveAssign := true
  nothrowSwap := true

theorem loggingOps_lawful : loggingOps.Lawful :=
  ⟨fun h => by simp [loggingOps] at h, fun _ v _ => ⟨v, rfl⟩, fun _ _ _ _ => rfl, fun _ _ _ => rfl,
    fun _ _ _ _ => rfl, fun _ _ _ => rfl⟩

/-- A class without noexcept operations: moving the value 99 throws (after the source was already modified). -/
def throwingOps : Ops (BitVec 8) (List String) where
  copyCtor v g := if v = 13#8 then (.error (.user 13), g ++ ["copy!"]) else (.ok v, g ++ ["copy"])
  moveCtor v g := if v = 99#8 then (.error (.user 99), 98#8, g ++ ["move!"]) else (.ok v, 0#8, g ++ ["move"])
  copyAssign d s g := if s = 13#8 then (some (.user 13), d + 1, g ++ ["copy=!"]) else (none, s, g ++ ["copy="])
  moveAssign d s g := if s = 99#8 then (some (.user 99), d + 1, 98#8, g ++ ["move=!"]) else (none, s, 0#8, g ++ ["move="])
  selfCopyAssign v g := (none, v, g ++ ["selfcopy="])
  selfMoveAssign v g := (none, v, g ++ ["selfmove="])
  swap a b g := if a = 99#8 then (some (.user 99), a, b, g ++ ["swap!"]) else (none, b, a, g ++ ["swap"])
  selfSwap v g := (none, v, g ++ ["selfswap"])
  dtor _ g := g ++ ["dtor"]
  nothrowCopyCtor := false
  nothrowMoveCtor := false
  nothrowMoveAssign := false
  nothrowSwap := false

theorem throwingOps_lawful : throwingOps.Lawful := by
  constructor <;> intro h <;> simp [throwingOps] at h

/-- Object representation of a one-byte type. -/
def byteRepr (v : BitVec 8) (i : Nat) : Option Byte := if i = 0 then some v else none

/-- One-byte payload with separate flag. -/
def sepCfg (ndebug : Bool) : Config (BitVec 8) := ⟨1, byteRepr, .separate, .separate, ndebug⟩

/-- One-byte payload, empty state = byte pattern 0xfe. -/
def patCfg (ndebug : Bool) : Config (BitVec 8) := ⟨1, byteRepr, .inplace, .memcpy [0xfe#8], ndebug⟩

/-- One-byte payload, sentinel value 42. -/
def sentCfg (ndebug : Bool) : Config (BitVec 8) := ⟨1, byteRepr, .inplace, .assign 42#8 (· == ·), ndebug⟩

/-- One-byte payload, custom manipulator: empty iff the value is at least 200. -/
def customCfg (ndebug : Bool) : Config (BitVec 8) := ⟨1, byteRepr, .inplace, .custom (fun v => 200 ≤ v.toNat) 201#8, ndebug⟩

/-- A two-byte payload (low and high byte); the flag is the high byte, with sentinel 7. -/
def memCfg (ndebug : Bool) : Config (BitVec 8) :=
  ⟨2, fun v i => if i = 0 then some 0x55#8 else if i = 1 then some v else none,
    .viaMember ⟨1, 1, byteRepr, id⟩, .assign 7#8 (· == ·), ndebug⟩

theorem sepCfg_wf (b : Bool) : (sepCfg b).WF where
  fits := Or.inl ⟨rfl, rfl⟩
  inside := by simp [sepCfg, Config.loc]
  bytes := by intro v i hi; simp [sepCfg, Config.loc]
  sentinelFits := by intro s h; simp [sepCfg] at h
  assignRefl := by intro s e h; simp [sepCfg] at h
  customRefl := by intro s e h; simp [sepCfg] at h

theorem patCfg_wf (b : Bool) : (patCfg b).WF where
  fits := Or.inr ⟨by simp [patCfg], by simp [patCfg]⟩
  inside := by simp [patCfg, Config.loc]
  bytes := by intro v i hi; simp [patCfg, Config.loc]
  sentinelFits := by rintro s ⟨⟩; simp [Config.loc, patCfg]
  assignRefl := by intro s e h; simp [patCfg] at h
  customRefl := by intro s e h; simp [patCfg] at h

theorem sentCfg_wf (b : Bool) : (sentCfg b).WF where
  fits := Or.inr ⟨by simp [sentCfg], by simp [sentCfg]⟩
  inside := by simp [sentCfg, Config.loc]
  bytes := by intro v i hi; simp [sentCfg, Config.loc]
  sentinelFits := by intro s h; simp [sentCfg] at h
  assignRefl := by rintro s e ⟨⟩; rfl
  customRefl := by intro s e h; simp [sentCfg] at h

theorem customCfg_wf (b : Bool) : (customCfg b).WF where
  fits := Or.inr ⟨by simp [customCfg], by simp [customCfg]⟩
  inside := by simp [customCfg, Config.loc]
  bytes := by intro v i hi; simp [customCfg, Config.loc]
  sentinelFits := by intro s h; simp [customCfg] at h
  assignRefl := by intro s e h; simp [customCfg] at h
  customRefl := by rintro s e ⟨⟩; rfl

theorem memCfg_wf (b : Bool) : (memCfg b).WF where
  fits := Or.inr ⟨by simp [memCfg], by simp [memCfg]⟩
  inside := by simp [memCfg, Config.loc]
  bytes := by
    intro v i hi
    have : i = 0 := by simp [memCfg, Config.loc] at hi; exact hi
    subst this; rfl
  sentinelFits := by intro s h; simp [memCfg] at h
  assignRefl := by rintro s e ⟨⟩; rfl
  customRefl := by intro s e h; simp [memCfg] at h

/-- Variables 0-9 have a separate flag, 10-19 the byte pattern, 20-29 the sentinel, 30-39 the custom manipulator, all
others the member flag. -/
def env (G : Type) (o : Ops (BitVec 8) G) (ndebug : Bool) : Env (BitVec 8) G := fun x =>
  ⟨if x < 10 then sepCfg ndebug else if x < 20 then patCfg ndebug else if x < 30 then sentCfg ndebug
   else if x < 40 then customCfg ndebug else memCfg ndebug, o⟩

theorem env_wf {G : Type} {o : Ops (BitVec 8) G} (ho : o.Lawful) (b : Bool) : EnvWF (env G o b) where
  cfg z := by
    simp only [env]
    split
    · exact sepCfg_wf b
    split
    · exact patCfg_wf b
    split
    · exact sentCfg_wf b
    split
    · exact customCfg_wf b
    · exact memCfg_wf b
  ops _ := ho

/-- A constructor argument that yields `v`. -/
def lit {G : Type} (v : BitVec 8) : Arg (BitVec 8) G := .ext true fun g => (.ok v, g)

/-- A constructor argument that throws. -/
def boom {G : Type} : Arg (BitVec 8) G := .ext false fun g => (.error (.user 1), g)

theorem lit_lawful {G : Type} (v : BitVec 8) : ArgLawful (lit v : Arg (BitVec 8) G) := fun _ _ => ⟨v, rfl⟩
theorem boom_lawful {G : Type} : ArgLawful (boom : Arg (BitVec 8) G) := fun h => by simp at h

/-! ### A reachable world with optionals in various states -/

/-- Variables 20, 22, 24 (sentinel 42) hold 5, 13, 99; 21 and 23 are empty; 10 (bit pattern) holds 9; 0 (separate flag)
holds 42; 1 is empty. -/
def exHist : List (Op (BitVec 8) (List String)) :=
  [.ctorInPlace 20 (lit 5#8), .ctorDefault 21, .ctorInPlace 22 (lit 13#8), .ctorDefault 23, .ctorInPlace 24 (lit 99#8),
   .ctorInPlace 10 (lit 9#8), .ctorInPlace 0 (lit 42#8), .ctorDefault 1]

abbrev exEnv : Env (BitVec 8) (List String) := env _ throwingOps false
theorem exEnv_wf : EnvWF exEnv := env_wf throwingOps_lawful false

def exWorld : World (BitVec 8) (List String) := (run exEnv exHist (.init [])).2

/-- What `std::optional` makes of the history: the results of the calls and the final state. -/
def exSpec : List (Spec.SRes (Obs (BitVec 8))) × Spec.SWorld (BitVec 8) (List String) :=
  (Spec.specRun (fun x => (exEnv x).ops) exHist (.init [])).getD ([], .init [])

theorem ex_legal : Legal exEnv [] exHist exSpec.1 exSpec.2 := by
  refine ⟨?_, rfl, ?_, ?_⟩
  · intro op hop
    simp only [exHist, List.mem_cons, List.not_mem_nil, or_false] at hop
    rcases hop with rfl | rfl | rfl | rfl | rfl | rfl | rfl | rfl <;> first | exact trivial | exact lit_lawful _
  · intro p hp
    change p ∈ [(20, 5#8), (22, 13#8), (24, 99#8), (10, 9#8), (0, 42#8)] at hp
    simp only [List.mem_cons, List.not_mem_nil, or_false] at hp
    rcases hp with rfl | rfl | rfl | rfl | rfl <;>
      simp [Config.Storable, env, sentCfg, patCfg, sepCfg, Config.loc, byteRepr]
  · rintro ⟨op, r⟩ hp
    have hop := (List.of_mem_zip hp).1
    simp only [exHist, List.mem_cons, List.not_mem_nil, or_false] at hop
    rcases hop with rfl | rfl | rfl | rfl | rfl | rfl | rfl | rfl <;> trivial

theorem ex_reach : Reach exEnv exWorld := .of_legal exEnv_wf ex_legal

theorem ex20 : Holds exEnv 20 5#8 exWorld := ⟨rfl, rfl⟩
theorem ex21 : IsEmpty exEnv 21 exWorld := rfl
theorem ex22 : Holds exEnv 22 13#8 exWorld := ⟨rfl, rfl⟩
theorem ex23 : IsEmpty exEnv 23 exWorld := rfl
theorem ex24 : Holds exEnv 24 99#8 exWorld := ⟨rfl, rfl⟩
theorem ex10 : Holds exEnv 10 9#8 exWorld := ⟨rfl, rfl⟩
theorem ex0 : Holds exEnv 0 42#8 exWorld := ⟨rfl, rfl⟩
theorem ex1 : IsEmpty exEnv 1 exWorld := rfl
theorem ex25 : Absent 25 exWorld := rfl
theorem ex2 : Absent 2 exWorld := rfl
theorem ex_user : exWorld.user = [] := rfl

theorem ex_storable {v : BitVec 8} (h : v ≠ 42#8) (x : Nat) (hx : 20 ≤ x ∧ x < 30) : (exEnv x).cfg.Storable v := by
  have h1 : ¬ x < 10 := by omega
  have h2 : ¬ x < 20 := by omega
  simp [Config.Storable, env, h1, h2, hx.2, sentCfg, Config.loc, h]

/-- The same with scalar payloads: 20 holds 5, 21 is empty. -/
def exWorldS : World (BitVec 8) Unit := (run (env Unit scalarOps false) [.ctorInPlace 20 (lit 5#8), .ctorDefault 21] (.init ())).2

theorem exS_reach : Reach (env Unit scalarOps false) exWorldS := by
  refine .of_legal (env_wf scalarOps_lawful false) ⟨?_, rfl, ?_, ?_⟩
  · intro op hop
    simp only [List.mem_cons, List.not_mem_nil, or_false] at hop
    rcases hop with rfl | rfl <;> first | exact trivial | exact lit_lawful _
  · intro p hp
    simp [Spec.SWorld.init] at hp
    subst hp
    simp [Config.Storable, env, sentCfg, Config.loc]
  · intro p hp
    simp at hp
    rcases hp with rfl | rfl <;> trivial

end Verif.Examples
