/-!
# The operations of the flag type that the flag manipulators execute, and the checks at compile time

The other files take the empty flag of `AssignmentFlagManipulator` and `sentinel_flag_manipulator` as something that can always be
written and compared. Here the flag is an object of a class type whose copy constructor, `==`, assignment and destructor are
functions of the user, which may throw.
-/

namespace Verif.Model.FlagOps

/-- A function of the user: whether it is declared `noexcept`, and what it does (`none`: it throws). (called in optional.h:230-247,
818-849) -/
structure UserFn (A B G : Type) where
  nothrow : Bool
  run : A → G → Option B × G

/-- What the language guarantees for a `noexcept` function: no exception leaves it. (for the functions called in optional.h:230-247,
818-849) -/
def UserFn.Lawful {A B G : Type} (f : UserFn A B G) : Prop := f.nothrow → ∀ a g, (f.run a g).1.isSome

/-- The type of the flag. The functions that it need not have are optional. (the type in optional.h:230, 765, 920) -/
structure FlagType (F G : Type) where
  eq : Option (UserFn (F × F) Bool G)
  copy : Option (UserFn F F G)
  assign : Option (UserFn (F × F) F G)
  dtor : UserFn F Unit G
  triviallyCopyable : Bool
  trivial : Bool
  size : Nat

/-- `noexcept` functions do not throw, and the destructor does not (the requirement Cpp17Destructible, optional.h:951-953). -/
structure FlagType.Lawful {F G : Type} (T : FlagType F G) : Prop where
  eq : ∀ f, T.eq = some f → f.Lawful
  copy : ∀ f, T.copy = some f → f.Lawful
  assign : ∀ f, T.assign = some f → f.Lawful
  dtor : ∀ f g, (T.dtor.run f g).1.isSome

/-- The flag manipulators: optional.h:680-701 (`separate`), 709-759 (`memcpy`: the bytes of the sentinel and whether a flag has
these), 765-850 (`assignment`), 230-247 (`sentinelFlag`), and those of users (`custom`). -/
inductive Manip (F G : Type) where
  | separate
  | memcpy (sentinelSize : Nat) (sentinel : F) (hasBits : F → Bool)
  | assignment (sentinel : F)
  | sentinelFlag (sentinel : F)
  | custom (isEmpty : UserFn F Bool G) (init : UserFn Unit F G) (invalidate : UserFn F Unit G)

/-- The functions of a manipulator of the user. (the functions called in optional.h:957-1139) -/
def Manip.Lawful {F G : Type} : Manip F G → Prop
  | .custom e i d => e.Lawful ∧ i.Lawful ∧ d.Lawful
  | _ => True

/-- What happens when code is executed: a result, an exception, `std::terminate`, or the program does not compile (a function that
does not exist is called), so that nothing happens. (outcomes of optional.h:230-247, 818-849) -/
inductive Out (A : Type) where
  | ok (a : A)
  | throw
  | terminate
  | illFormed
deriving DecidableEq

/-- Calling a function of the user. (in optional.h:230-247, 818-849) -/
def call {A B G : Type} (f : UserFn A B G) (a : A) (g : G) : Out B × G :=
  match f.run a g with
  | (some b, g) => (.ok b, g)
  | (none, g) => (if f.nothrow then .terminate else .throw, g)

/-- Calling a function that might not exist. (in optional.h:230-247, 818-849) -/
def call? {A B G : Type} (f : Option (UserFn A B G)) (a : A) (g : G) : Out B × G :=
  match f with
  | some f => call f a g
  | none => (.illFormed, g)

/-- The body of a function declared `noexcept`. (optional.h:233, 238, 243, 818, 832, 844) -/
def noexceptFn {A G : Type} (r : Out A × G) : Out A × G :=
  match r with
  | (.throw, g) => (.terminate, g)
  | r => r

/-- Sequencing. (statement sequences in optional.h:230-247, 818-849) -/
def andThen {A B G : Type} (r : Out A × G) (k : A → G → Out B × G) : Out B × G :=
  match r with
  | (.ok a, g) => k a g
  | (.throw, g) => (.throw, g)
  | (.terminate, g) => (.terminate, g)
  | (.illFormed, g) => (.illFormed, g)

section
variable {F G : Type} (T : FlagType F G)

/-- `noexcept(f(..))` for a function that might not exist (a hard error if it does not). (optional.h:823, 837) -/
def isNothrow {A B G : Type} (f : Option (UserFn A B G)) : Bool :=
  match f with
  | some f => f.nothrow
  | none => false

/-- The checks at compile time: the `static_assert`s of `StorageBase` (optional.h:929-943) on the three functions, which the
manipulators of the library pass because they declare them `noexcept`; those of `MemcpyAndCmpFlagManipulator` (714-726), of
`AssignmentFlagManipulator::is_empty` (822-824) and `init_empty_flag` (836-838); and that every function which is called exists
(829, 840-841, 235, 240). The types of sentinel and flag agree here; see Model/Integral.lean for the conversion. -/
def accepts : Manip F G → Bool
  | .separate => true
  | .memcpy n _ _ => decide (n ≤ T.size) && T.triviallyCopyable && T.trivial
  | .assignment _ => isNothrow T.eq && isNothrow T.assign && T.copy.isSome
  | .sentinelFlag _ => T.eq.isSome && T.copy.isSome
  | .custom e i d => e.nothrow && i.nothrow && d.nothrow

/-- The memory of an optional as seen here: the flag object, if there is one. `separate` has a `bool` next to it. (the memory that
optional.h:238, 832 get) -/
structure St (F G : Type) where
  obj : Option F
  sep : Bool
  user : G

/-- `is_empty`, optional.h:682-685, 729-737, 818-830, 233-236. Without an object in the memory nothing can be compared; the claims of
the other files (C02) show that this does not happen, here the result is `true`. -/
def isEmpty (m : Manip F G) (st : St F G) : Out Bool × St F G :=
  match m, st.obj with
  | .separate, _ => (.ok st.sep, st)
  | _, none => (.ok true, st)
  | .memcpy _ _ b, some f => (.ok (b f), st)
  | .assignment s, some f => let (r, g) := noexceptFn (call? T.eq (f, s) st.user); (r, { st with user := g })
  | .sentinelFlag s, some f => let (r, g) := noexceptFn (call? T.eq (f, s) st.user); (r, { st with user := g })
  | .custom e _ _, some f => let (r, g) := call e f st.user; (r, { st with user := g })

/-- Create an object from the outcome of a constructor. (optional.h:240, 840-841) -/
def place (st : St F G) (r : Out F × G) : Out Unit × St F G :=
  match r with
  | (.ok f, g) => (.ok (), { st with obj := some f, user := g })
  | (.throw, g) => (.throw, { st with obj := none, user := g })
  | (.terminate, g) => (.terminate, { st with obj := none, user := g })
  | (.illFormed, g) => (.illFormed, { st with obj := none, user := g })

/-- `init_empty_flag`, optional.h:687-693, 739-749, 832-842 (a copy construction, not an assignment), 238-241. -/
def initEmptyFlag (m : Manip F G) (st : St F G) : Out Unit × St F G :=
  match m with
  | .separate => (.ok (), { st with sep := true })
  | .memcpy _ s _ => (.ok (), { st with obj := some s })
  | .assignment s => noexceptFn (place st (call? T.copy s st.user))
  | .sentinelFlag s => noexceptFn (place st (call? T.copy s st.user))
  | .custom _ i _ => place st (call i () st.user)

/-- Running a destructor. (optional.h:245, 848) -/
def destroy (d : UserFn F Unit G) (st : St F G) : Out Unit × St F G :=
  match st.obj with
  | some f => let (r, g) := call d f st.user; (r, { st with obj := none, user := g })
  | none => (.ok (), st)

/-- `invalidate_empty_flag`, optional.h:695-700, 751-758, 844-849, 243-246. -/
def invalidateEmptyFlag (m : Manip F G) (st : St F G) : Out Unit × St F G :=
  match m with
  | .separate => (.ok (), { st with sep := false })
  | .memcpy _ _ _ => noexceptFn (destroy T.dtor st)
  | .assignment _ => noexceptFn (destroy T.dtor st)
  | .sentinelFlag _ => noexceptFn (destroy T.dtor st)
  | .custom _ _ d => destroy d st

/-- `has_value`, optional.h:993-996. -/
def hasValue (m : Manip F G) (st : St F G) : Out Bool × St F G :=
  noexceptFn (andThen (isEmpty T m st) fun b st => (.ok (!b), st))

/-- `StorageBase()`, optional.h:955-959. Of the asserts here and below only the evaluation of `has_value` is modelled, which may
terminate; that they hold is a part of C02. -/
def defaultCtor (m : Manip F G) (st : St F G) : Out Unit × St F G :=
  noexceptFn (andThen (initEmptyFlag T m st) fun _ st => andThen (hasValue T m st) fun _ st => (.ok (), st))

/-- `reset`, optional.h:1136-1143. `DestroyPayload` (1018-1021) runs the destructor of the payload, which for the in-place
manipulators is the object the flag is (part of). -/
def reset (m : Manip F G) (st : St F G) : Out Unit × St F G :=
  noexceptFn (andThen (hasValue T m st) fun b st =>
    if b then
      andThen (noexceptFn (destroy T.dtor st)) fun _ st => andThen (initEmptyFlag T m st) fun _ st =>
        andThen (hasValue T m st) fun _ st => (.ok (), st)
    else (.ok (), st))

/-- `ConstructPayload`, optional.h:1043-1080: `ctor` is the constructor of the payload, yielding the flag inside of it. If it throws,
the destructor of `InitializeIsEmptyFlagScope` (1031-1036) sets the flag again; as every destructor it is `noexcept`. -/
def constructPayload (m : Manip F G) (ctor : UserFn Unit F G) (st : St F G) : Out Unit × St F G :=
  let body : Out Unit × St F G :=
    andThen (hasValue T m st) fun _ st => andThen (invalidateEmptyFlag T m st) fun _ st =>
      andThen (match place st (call ctor () st.user) with
        | (.throw, st) =>
            if ctor.nothrow then (.throw, st)
            else match noexceptFn (initEmptyFlag T m st) with
              | (.ok _, st) => (.throw, st)
              | r => r
        | r => r) fun _ st => andThen (hasValue T m st) fun _ st => (.ok (), st)
  if ctor.nothrow then noexceptFn body else body

end
end Verif.Model.FlagOps
