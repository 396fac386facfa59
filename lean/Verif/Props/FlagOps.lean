import Verif.Model.FlagOps

/-! # C63: setting the empty state is always possible -/

namespace Verif.Props
open Verif.Model.FlagOps
section
variable {F G : Type} {T : FlagType F G} {m : Manip F G}

/-- Entering the empty state (by default construction, `reset`, or after a constructor of the payload has thrown) does not end the
program. -/
def NeverTerminates (T : FlagType F G) (m : Manip F G) : Prop :=
  ∀ st, (defaultCtor T m st).1 ≠ .terminate ∧ (reset T m st).1 ≠ .terminate ∧
    ∀ ctor : UserFn Unit F G, ctor.Lawful → (constructPayload T m ctor st).1 ≠ .terminate

/-- The claim: whatever the library accepts never terminates. -/
def C63_claim : Prop :=
  ∀ (F G : Type) (T : FlagType F G) (m : Manip F G), T.Lawful → m.Lawful → accepts T m = true → NeverTerminates T m

/-- What would have to be checked: the functions that are executed are `noexcept`. -/
def Needs (T : FlagType F G) : Manip F G → Prop
  | .assignment _ => ∃ e c, T.eq = some e ∧ e.nothrow ∧ T.copy = some c ∧ c.nothrow
  | .sentinelFlag _ => ∃ e c, T.eq = some e ∧ e.nothrow ∧ T.copy = some c ∧ c.nothrow
  | .custom e i d => e.nothrow ∧ i.nothrow ∧ d.nothrow
  | _ => True

/-! ### Steps -/

private theorem call_nothrow {A B : Type} {f : UserFn A B G} (hf : ∀ a g, (f.run a g).1.isSome) (a : A) (g : G) :
    ∃ b g', f.run a g = (some b, g') ∧ call f a g = (.ok b, g') := by
  have := hf a g
  rcases h : f.run a g with ⟨_ | b, g'⟩
  · rw [h] at this; simp at this
  · exact ⟨b, g', rfl, by simp [call, h]⟩

private theorem isEmpty_ok (hT : T.Lawful) (hm : m.Lawful) (hn : Needs T m) (st : St F G) :
    ∃ b g, isEmpty T m st = (.ok b, { st with user := g }) := by
  rcases st with ⟨_ | f, sep, g⟩
  · cases m <;> exact ⟨_, g, rfl⟩
  · cases m with
    | separate => exact ⟨_, g, rfl⟩
    | memcpy n s b => exact ⟨_, g, rfl⟩
    | assignment s =>
      obtain ⟨e, c, h1, h2, _, _⟩ := hn
      obtain ⟨b, g', _, h⟩ := call_nothrow (hT.eq e h1 h2) (f, s) g
      exact ⟨b, g', by simp [isEmpty, call?, h1, h, noexceptFn]⟩
    | sentinelFlag s =>
      obtain ⟨e, c, h1, h2, _, _⟩ := hn
      obtain ⟨b, g', _, h⟩ := call_nothrow (hT.eq e h1 h2) (f, s) g
      exact ⟨b, g', by simp [isEmpty, call?, h1, h, noexceptFn]⟩
    | custom e i d =>
      obtain ⟨b, g', _, h⟩ := call_nothrow (hm.1 hn.1) f g
      exact ⟨b, g', by simp [isEmpty, h]⟩

private theorem hasValue_ok (hT : T.Lawful) (hm : m.Lawful) (hn : Needs T m) (st : St F G) :
    ∃ b g, hasValue T m st = (.ok b, { st with user := g }) := by
  obtain ⟨b, g, h⟩ := isEmpty_ok hT hm hn st
  exact ⟨!b, g, by simp [hasValue, h, andThen, noexceptFn]⟩

private theorem init_ok (hT : T.Lawful) (hm : m.Lawful) (hn : Needs T m) (st : St F G) :
    ∃ st', initEmptyFlag T m st = (.ok (), st') := by
  cases m with
  | separate => exact ⟨_, rfl⟩
  | memcpy n s b => exact ⟨_, rfl⟩
  | assignment s =>
    obtain ⟨e, c, _, _, h1, h2⟩ := hn
    obtain ⟨f, g', _, h⟩ := call_nothrow (hT.copy c h1 h2) s st.user
    exact ⟨_, by simp [initEmptyFlag, call?, h1, h, noexceptFn, place]; rfl⟩
  | sentinelFlag s =>
    obtain ⟨e, c, _, _, h1, h2⟩ := hn
    obtain ⟨f, g', _, h⟩ := call_nothrow (hT.copy c h1 h2) s st.user
    exact ⟨_, by simp [initEmptyFlag, call?, h1, h, noexceptFn, place]; rfl⟩
  | custom e i d =>
    obtain ⟨f, g', _, h⟩ := call_nothrow (hm.2.1 hn.2.1) () st.user
    exact ⟨_, by simp [initEmptyFlag, h, place]; rfl⟩

private theorem destroy_ok {d : UserFn F Unit G} (hd : ∀ f g, (d.run f g).1.isSome) (st : St F G) :
    ∃ g, destroy d st = (.ok (), { st with obj := none, user := g }) := by
  rcases st with ⟨_ | f, sep, g⟩
  · exact ⟨g, rfl⟩
  · obtain ⟨_, g', _, h⟩ := call_nothrow hd f g
    exact ⟨g', by simp [destroy, h]⟩

private theorem invalidate_ok (hT : T.Lawful) (hm : m.Lawful) (hn : Needs T m) (st : St F G) :
    ∃ st', invalidateEmptyFlag T m st = (.ok (), st') := by
  cases m with
  | separate => exact ⟨_, rfl⟩
  | memcpy | assignment | sentinelFlag =>
    obtain ⟨g, h⟩ := destroy_ok hT.dtor st
    exact ⟨_, by simp [invalidateEmptyFlag, h, noexceptFn]; rfl⟩
  | custom e i d =>
    obtain ⟨g, h⟩ := destroy_ok (hm.2.2 hn.2.2) st
    exact ⟨_, by simp [invalidateEmptyFlag, h]; rfl⟩

private theorem defaultCtor_ok (hT : T.Lawful) (hm : m.Lawful) (hn : Needs T m) (st : St F G) :
    ∃ st1 g, initEmptyFlag T m st = (.ok (), st1) ∧ defaultCtor T m st = (.ok (), { st1 with user := g }) := by
  obtain ⟨st1, h1⟩ := init_ok hT hm hn st
  obtain ⟨b, g, h2⟩ := hasValue_ok hT hm hn st1
  exact ⟨st1, g, h1, by simp [defaultCtor, h1, h2, andThen, noexceptFn]⟩

private theorem reset_ok (hT : T.Lawful) (hm : m.Lawful) (hn : Needs T m) (st : St F G) :
    (∃ g, hasValue T m st = (.ok false, { st with user := g }) ∧ reset T m st = (.ok (), { st with user := g })) ∨
    ∃ st0 st1 g, initEmptyFlag T m st0 = (.ok (), st1) ∧ reset T m st = (.ok (), { st1 with user := g }) := by
  obtain ⟨b, g, h1⟩ := hasValue_ok hT hm hn st
  cases b with
  | false => exact .inl ⟨g, h1, by simp [reset, h1, andThen, noexceptFn]⟩
  | true =>
    obtain ⟨g2, h2⟩ := destroy_ok hT.dtor { st with user := g }
    obtain ⟨st3, h3⟩ := init_ok hT hm hn { st with obj := none, user := g2 }
    obtain ⟨b, g4, h4⟩ := hasValue_ok hT hm hn st3
    exact .inr ⟨_, st3, g4, h3, by simp [reset, h1, h2, h3, h4, andThen, noexceptFn]⟩

private theorem construct_ok (hT : T.Lawful) (hm : m.Lawful) (hn : Needs T m) {ctor : UserFn Unit F G} (hc : ctor.Lawful)
    (st : St F G) :
    (∃ (f : F) (st1 : St F G) (g : G), st1.obj = some f ∧ constructPayload T m ctor st = (.ok (), { st1 with user := g })) ∨
    ∃ st0 st1, ctor.nothrow = false ∧ initEmptyFlag T m st0 = (.ok (), st1) ∧ constructPayload T m ctor st = (.throw, st1) := by
  obtain ⟨b, g, h1⟩ := hasValue_ok hT hm hn st
  obtain ⟨st2, h2⟩ := invalidate_ok hT hm hn { st with user := g }
  rcases hr : ctor.run () st2.user with ⟨_ | f, g3⟩
  · have hnt : ctor.nothrow = false := by
      cases hx : ctor.nothrow
      · rfl
      · have := hc hx () st2.user; rw [hr] at this; simp at this
    obtain ⟨st4, h4⟩ := init_ok hT hm hn { st2 with obj := none, user := g3 }
    exact .inr ⟨_, st4, hnt, h4, by simp [constructPayload, h1, h2, call, hr, place, hnt, h4, andThen, noexceptFn]⟩
  · obtain ⟨b, g4, h4⟩ := hasValue_ok hT hm hn { st2 with obj := some f, user := g3 }
    refine .inl ⟨f, { st2 with obj := some f, user := g3 }, g4, rfl, ?_⟩
    cases hx : ctor.nothrow <;> simp [constructPayload, h1, h2, call, hr, place, hx, h4, andThen, noexceptFn]

/-! ### The claim -/

/-- C63, for flag types whose copy constructor (and, for `sentinel_flag_manipulator`, `==`) is `noexcept`. Missing: the library
also accepts other types, for which the claim is false (`C63_false`). -/
theorem C63_partial (hT : T.Lawful) (hm : m.Lawful) (hn : Needs T m) : NeverTerminates T m := by
  intro st
  refine ⟨?_, ?_, fun ctor hc => ?_⟩
  · obtain ⟨_, _, _, h⟩ := defaultCtor_ok hT hm hn st
    rw [h]; simp
  · obtain ⟨_, _, h⟩ | ⟨_, _, _, _, h⟩ := reset_ok hT hm hn st <;> rw [h] <;> simp
  · obtain ⟨_, _, _, _, h⟩ | ⟨_, _, _, _, h⟩ := construct_ok hT hm hn hc st <;> rw [h] <;> simp

/-- What the checks of the library guarantee, and for which manipulators it suffices. -/
theorem C63_checked (h : accepts T m = true) :
    (∀ s, m ≠ .sentinelFlag s) → (∀ s, m = .assignment s → ∃ c, T.copy = some c ∧ c.nothrow) → Needs T m := by
  intro h1 h2
  cases m with
  | separate | memcpy => trivial
  | assignment s =>
    obtain ⟨c, h3, h4⟩ := h2 s rfl
    simp only [accepts, Bool.and_eq_true] at h
    rcases he : T.eq with _ | e
    · simp [he, isNothrow] at h
    · exact ⟨e, c, he, by simpa [he, isNothrow] using h.1.1, h3, h4⟩
  | sentinelFlag s => exact absurd rfl (h1 s)
  | custom e i d => simpa [Needs, accepts, and_assoc] using h

/-- Bit patterns are written by `memcpy` only if this is allowed (the type is trivially copyable), if no constructor is bypassed (it is
trivial), and if they fit into the flag. Then, all bytes that are written belong to the flag. -/
theorem C63_pattern {n : Nat} {s : F} {b : F → Bool} (h : accepts T (.memcpy n s b) = true) :
    T.triviallyCopyable = true ∧ T.trivial = true ∧ ∀ i, i < n → i < T.size := by
  simp only [accepts, Bool.and_eq_true, decide_eq_true_eq] at h
  exact ⟨h.1.2, h.2, fun i hi => Nat.lt_of_lt_of_le hi h.1.1⟩

/-- The flag that `init_empty_flag` creates is seen as empty, and `==` does not depend on anything but the operands. -/
structure Detects (T : FlagType F G) (m : Manip F G) : Prop where
  bits : ∀ n s b, m = .memcpy n s b → b s = true
  eq : ∀ s, m = .assignment s ∨ m = .sentinelFlag s → ∀ e c, T.eq = some e → T.copy = some c →
    ∀ g f g' h, c.run s g = (some f, g') → (e.run (f, s) h).1 = some true
  custom : ∀ e i d, m = .custom e i d → ∀ g f g' h, i.run () g = (some f, g') → (e.run f h).1 = some true
  stable : ∀ st g b g1, hasValue T m st = (.ok b, { st with user := g1 }) → ∃ g2, hasValue T m { st with user := g } = (.ok b, { st with user := g2 })

private theorem init_empty (hT : T.Lawful) (hm : m.Lawful) (hn : Needs T m) (hd : Detects T m) {st st' : St F G}
    (h : initEmptyFlag T m st = (.ok (), st')) (g : G) : (hasValue T m { st' with user := g }).1 = .ok false := by
  cases m with
  | separate =>
    simp [initEmptyFlag] at h
    subst h
    rfl
  | memcpy n s b =>
    simp [initEmptyFlag] at h
    subst h
    simp [hasValue, isEmpty, hd.bits n s b rfl, andThen, noexceptFn]
  | assignment s =>
    obtain ⟨e, c, he, he', hc, hc'⟩ := hn
    obtain ⟨f, g', h1, h2⟩ := call_nothrow (hT.copy c hc hc') s st.user
    simp [initEmptyFlag, call?, hc, h2, place, noexceptFn] at h
    subst h
    have h3 := hd.eq s (.inl rfl) e c he hc _ _ _ g h1
    rcases h4 : e.run (f, s) g with ⟨r, g4⟩
    rw [h4] at h3
    simp only at h3
    subst h3
    simp [hasValue, isEmpty, call?, he, call, h4, andThen, noexceptFn]
  | sentinelFlag s =>
    obtain ⟨e, c, he, he', hc, hc'⟩ := hn
    obtain ⟨f, g', h1, h2⟩ := call_nothrow (hT.copy c hc hc') s st.user
    simp [initEmptyFlag, call?, hc, h2, place, noexceptFn] at h
    subst h
    have h3 := hd.eq s (.inr rfl) e c he hc _ _ _ g h1
    rcases h4 : e.run (f, s) g with ⟨r, g4⟩
    rw [h4] at h3
    simp only at h3
    subst h3
    simp [hasValue, isEmpty, call?, he, call, h4, andThen, noexceptFn]
  | custom e i d =>
    obtain ⟨f, g', h1, h2⟩ := call_nothrow (hm.2.1 hn.2.1) () st.user
    simp [initEmptyFlag, h2, place] at h
    subst h
    have h3 := hd.custom e i d rfl _ _ _ g h1
    rcases h4 : e.run f g with ⟨r, g4⟩
    rw [h4] at h3
    simp only at h3
    subst h3
    simp [hasValue, isEmpty, call, h4, andThen, noexceptFn]

/-- C63, the state reached: default construction and `reset` complete, and leave an empty optional; if a constructor of the payload
throws, its exception is passed on and the optional is empty. Same limitation as `C63_partial`. -/
theorem C63_empty_partial (hT : T.Lawful) (hm : m.Lawful) (hn : Needs T m) (hd : Detects T m) (st : St F G) :
    (∃ st', defaultCtor T m st = (.ok (), st') ∧ (hasValue T m st').1 = .ok false) ∧
    (∃ st', reset T m st = (.ok (), st') ∧ (hasValue T m st').1 = .ok false) ∧
    ∀ ctor : UserFn Unit F G, ctor.Lawful →
      (∃ st', constructPayload T m ctor st = (.ok (), st') ∧ st'.obj.isSome) ∨
      ∃ st', constructPayload T m ctor st = (.throw, st') ∧ (hasValue T m st').1 = .ok false := by
  refine ⟨?_, ?_, fun ctor hc => ?_⟩
  · obtain ⟨st1, g, h1, h2⟩ := defaultCtor_ok hT hm hn st
    exact ⟨_, h2, init_empty hT hm hn hd h1 g⟩
  · obtain ⟨g, h1, h2⟩ | ⟨st0, st1, g, h1, h2⟩ := reset_ok hT hm hn st
    · obtain ⟨g2, h3⟩ := hd.stable st g false g h1
      exact ⟨_, h2, by rw [h3]⟩
    · exact ⟨_, h2, init_empty hT hm hn hd h1 g⟩
  · obtain ⟨f, st1, g, h1, h2⟩ | ⟨st0, st1, _, h1, h2⟩ := construct_ok hT hm hn hc st
    · exact .inl ⟨_, h2, by simp [h1]⟩
    · exact .inr ⟨_, h2, init_empty hT hm hn hd h1 st1.user⟩

end

/-! ### Witnesses -/

/-- A function that does not throw. -/
def quiet {A B G : Type} (nt : Bool) (f : A → B) : UserFn A B G := ⟨nt, fun a g => (some (f a), g)⟩

/-- A function that throws while the user state, the memory that is left, is 0. -/
def allocating {A B : Type} (f : A → B) : UserFn A B Nat :=
  ⟨false, fun a g => match g with | 0 => (none, 0) | g + 1 => (some (f a), g)⟩

/-- A flag type with `noexcept` comparison and assignment. Its copy constructor allocates memory. -/
def allocFlag : FlagType Nat Nat :=
  ⟨some (quiet true fun p => p.1 == p.2), some (allocating id), some (quiet true (·.2)), quiet true fun _ => (), false, false, 8⟩

/-- A flag type with a `noexcept` copy constructor, and a comparison that may throw. -/
def throwingEq : FlagType Nat Nat :=
  ⟨some (allocating fun p => p.1 == p.2), some (quiet true id), some (quiet true (·.2)), quiet true fun _ => (), false, false, 8⟩

/-- A flag type that cannot be assigned (it has a `const` member), but copied and compared without exceptions. -/
def constFlag : FlagType Nat Nat :=
  ⟨some (quiet true fun p => p.1 == p.2), some (quiet true id), none, quiet true fun _ => (), false, false, 8⟩

private theorem quiet_lawful {A B G : Type} (nt : Bool) (f : A → B) : (quiet nt f : UserFn A B G).Lawful := fun _ _ _ => rfl
private theorem allocating_lawful {A B : Type} (f : A → B) : (allocating f).Lawful := fun h => by simp [allocating] at h

private theorem allocFlag_lawful : allocFlag.Lawful :=
  ⟨by rintro f ⟨⟩; exact quiet_lawful _ _, by rintro f ⟨⟩; exact allocating_lawful _, by rintro f ⟨⟩; exact quiet_lawful _ _,
    fun _ _ => rfl⟩
private theorem throwingEq_lawful : throwingEq.Lawful :=
  ⟨by rintro f ⟨⟩; exact allocating_lawful _, by rintro f ⟨⟩; exact quiet_lawful _ _, by rintro f ⟨⟩; exact quiet_lawful _ _,
    fun _ _ => rfl⟩
private theorem constFlag_lawful : constFlag.Lawful :=
  ⟨by rintro f ⟨⟩; exact quiet_lawful _ _, by rintro f ⟨⟩; exact quiet_lawful _ _, nofun, fun _ _ => rfl⟩

/-- A `float` with a pattern of four bytes; with eight bytes it is rejected. -/
example : accepts (⟨none, none, none, quiet true fun _ => (), true, true, 4⟩ : FlagType Nat Unit) (.memcpy 4 0 (· == 0)) = true ∧
    accepts (⟨none, none, none, quiet true fun _ => (), true, true, 4⟩ : FlagType Nat Unit) (.memcpy 8 0 (· == 0)) = false := by decide

/-- C63 is false: `AssignmentFlagManipulator::init_empty_flag` checks the assignment of the flag type (optional.h:836-838), but executes
its copy constructor (840-841). An engaged optional whose `reset` cannot copy the sentinel ends the program, as does default
construction. `sentinel_flag_manipulator` (230-247) declares its functions `noexcept` without any check. -/
theorem C63_false : ¬ C63_claim ∧
    (accepts allocFlag (.assignment 7) = true ∧
      (hasValue allocFlag (.assignment 7) ⟨some 3, false, 0⟩).1 = .ok true ∧
      (reset allocFlag (.assignment 7) ⟨some 3, false, 0⟩).1 = .terminate ∧
      (defaultCtor allocFlag (.assignment 7) ⟨none, false, 0⟩).1 = .terminate ∧
      (constructPayload allocFlag (.assignment 7) ⟨false, fun _ g => (none, g)⟩ ⟨some 7, false, 0⟩).1 = .terminate) ∧
    (accepts allocFlag (.sentinelFlag 7) = true ∧ (defaultCtor allocFlag (.sentinelFlag 7) ⟨none, false, 0⟩).1 = .terminate) ∧
    (accepts throwingEq (.sentinelFlag 7) = true ∧ (hasValue throwingEq (.sentinelFlag 7) ⟨some 3, false, 0⟩).1 = .terminate) := by
  refine ⟨fun h => ?_, by decide, by decide, by decide⟩
  exact (h Nat Nat allocFlag (.assignment 7) allocFlag_lawful trivial (by decide) ⟨none, false, 0⟩).1 (by decide)

/-- The check of the assignment is not only insufficient, it also rejects types for which nothing can go wrong. -/
theorem C63_needless : accepts constFlag (.assignment 7) = false ∧ NeverTerminates constFlag (.assignment 7) :=
  ⟨by decide, C63_partial constFlag_lawful trivial ⟨_, _, rfl, rfl, rfl, rfl⟩⟩

/-! ### The conditions are the weakest ones -/

/-- Two types with the same declarations. -/
def SameFn {A B G : Type} (f f' : Option (UserFn A B G)) : Prop := f.map (·.nothrow) = f'.map (·.nothrow)

/-- Two types with the same declarations. -/
def SameDecl {F G : Type} (T T' : FlagType F G) : Prop :=
  SameFn T.eq T'.eq ∧ SameFn T.copy T'.copy ∧ SameFn T.assign T'.assign ∧ T.dtor.nothrow = T'.dtor.nothrow ∧
    T.triviallyCopyable = T'.triviallyCopyable ∧ T.trivial = T'.trivial ∧ T.size = T'.size

/-- A function with the same declaration, that throws if it may. -/
private def worst {A B G : Type} (b : B) (f : UserFn A B G) : UserFn A B G :=
  ⟨f.nothrow, fun _ g => (if f.nothrow then some b else none, g)⟩

private theorem worst_lawful {A B G : Type} (b : B) (f : UserFn A B G) : (worst b f).Lawful := by
  intro h a g
  have h' : f.nothrow = true := h
  simp [worst, h']

private def worstType {F G : Type} (s : F) (T : FlagType F G) : FlagType F G :=
  ⟨T.eq.map (worst true), T.copy.map (worst s), T.assign.map (worst s), ⟨T.dtor.nothrow, fun _ g => (some (), g)⟩, T.triviallyCopyable,
    T.trivial, T.size⟩

private theorem worst_same {A B G : Type} (b : B) (f : Option (UserFn A B G)) : SameFn f (f.map (worst b)) := by
  cases f <;> rfl

private theorem worstType_lawful {F G : Type} (s : F) (T : FlagType F G) : (worstType s T).Lawful := by
  refine ⟨?_, ?_, ?_, fun _ _ => rfl⟩
  all_goals
    intro f hf
    simp only [worstType, Option.map_eq_some_iff] at hf
    obtain ⟨a, _, rfl⟩ := hf
    exact worst_lawful _ _

/-- C63. Among the accepted types exactly those which meet `Needs` never terminate, if all that is known of a type is what it
declares. -/
theorem C63_exact {F G : Type} [Inhabited G] (T : FlagType F G) (m : Manip F G) (hm : m.Lawful) (ha : accepts T m = true) :
    (∀ T', SameDecl T T' → T'.Lawful → NeverTerminates T' m) ↔ Needs T m := by
  constructor
  · intro h
    have key : ∀ s : F, m = .assignment s ∨ m = .sentinelFlag s → T.eq.isSome → T.copy.isSome → Needs T m := by
      intro s hs h1 h2
      obtain ⟨e, he⟩ := Option.isSome_iff_exists.1 h1
      obtain ⟨c, hc⟩ := Option.isSome_iff_exists.1 h2
      have ht := (h (worstType s T) ⟨worst_same _ _, worst_same _ _, worst_same _ _, rfl, rfl, rfl, rfl⟩ (worstType_lawful s T)
        ⟨none, false, default⟩).1
      cases hen : e.nothrow <;> cases hcn : c.nothrow
      all_goals first
        | (exfalso
           apply ht
           rcases hs with rfl | rfl <;>
             simp [defaultCtor, initEmptyFlag, worstType, call?, hc, he, call, worst, hcn, hen, place, noexceptFn, andThen, hasValue, isEmpty]
           done)
        | (rcases hs with rfl | rfl <;> exact ⟨e, c, he, hen, hc, hcn⟩)
    cases m with
    | separate | memcpy => trivial
    | assignment s =>
      simp only [accepts, Bool.and_eq_true] at ha
      refine key s (.inl rfl) ?_ ha.2
      rcases he : T.eq with _ | e
      · simp [he, isNothrow] at ha
      · rfl
    | sentinelFlag s =>
      simp only [accepts, Bool.and_eq_true] at ha
      exact key s (.inr rfl) ha.1 ha.2
    | custom e i d => simpa [Needs, accepts, and_assoc] using ha
  · intro hn T' hs hT'
    refine C63_partial hT' hm ?_
    have same : ∀ {A B : Type} {f f' : Option (UserFn A B G)} {a}, SameFn f f' → f = some a → a.nothrow = true →
        ∃ a', f' = some a' ∧ a'.nothrow = true := by
      intro A B f f' a h1 h2 h3
      subst h2
      rcases f' with _ | a'
      · simp [SameFn] at h1
      · exact ⟨a', rfl, by simpa [SameFn, h3] using h1.symm⟩
    cases m with
    | separate | memcpy => trivial
    | assignment | sentinelFlag =>
      obtain ⟨e, c, h1, h2, h3, h4⟩ := hn
      obtain ⟨e', h5, h6⟩ := same hs.1 h1 h2
      obtain ⟨c', h7, h8⟩ := same hs.2.1 h3 h4
      exact ⟨e', c', h5, h6, h7, h8⟩
    | custom e i d => exact hn

/-- `C63_partial` and `C63_empty_partial` apply to: a class with `noexcept` functions and a sentinel; an exception of the constructor
passes through and leaves an empty optional. -/
private theorem constFlag_hyps : constFlag.Lawful ∧ Needs constFlag (.assignment 7) ∧ Detects constFlag (.assignment 7) ∧
    (reset constFlag (.assignment 7) ⟨some 3, false, 0⟩).1 = .ok () ∧
    (constructPayload constFlag (.assignment 7) ⟨false, fun _ g => (none, g)⟩ ⟨some 7, false, 0⟩).1 = .throw ∧
    (constructPayload constFlag (.assignment 7) ⟨false, fun _ g => (some 5, g)⟩ ⟨some 7, false, 0⟩).2.obj = some 5 := by
  refine ⟨constFlag_lawful, ⟨_, _, rfl, rfl, rfl, rfl⟩, ⟨nofun, ?_, nofun, ?_⟩, by decide, by decide, by decide⟩
  · rintro s (h | h) e c he hc g f g' h' hr
    · cases he; cases hc; cases hr
      simp [quiet]
    · cases h
  · rintro ⟨_ | f, sep, u⟩ g b g1 h
    · simp [hasValue, isEmpty, andThen, noexceptFn] at h ⊢
      exact h.1
    · simp [hasValue, isEmpty, call?, constFlag, call, quiet, andThen, noexceptFn] at h ⊢
      exact h.1

example := C63_partial constFlag_hyps.1 (m := .assignment 7) trivial constFlag_hyps.2.1
example := C63_empty_partial constFlag_hyps.1 (m := .assignment 7) trivial constFlag_hyps.2.1 constFlag_hyps.2.2.1 ⟨some 3, false, 0⟩
example := C63_checked (T := (⟨some (quiet true fun p => p.1 == p.2), some (quiet true id), some (quiet true (·.2)), quiet true fun _ => (), false, false, 8⟩ :
  FlagType Nat Nat)) (m := .assignment 7) (by decide) nofun fun _ _ => ⟨_, rfl, rfl⟩
example := C63_pattern (T := (⟨none, none, none, quiet true fun _ => (), true, true, 4⟩ : FlagType Nat Unit)) (n := 4) (s := 0) (b := (· == 0)) (by decide)
example := C63_exact allocFlag (.assignment 7) trivial (by decide)

/-- `C63_exact` applies to accepted types of both kinds. -/
example : accepts allocFlag (.assignment 7) = true ∧ ¬ Needs allocFlag (.assignment 7) ∧
    accepts (⟨some (quiet true fun p => p.1 == p.2), some (quiet true id), some (quiet true (·.2)), quiet true fun _ => (), true, true, 8⟩ :
      FlagType Nat Nat) (.sentinelFlag 7) = true := by
  refine ⟨by decide, ?_, by decide⟩
  rintro ⟨e, c, _, _, h, h'⟩
  simp only [allocFlag, Option.some.injEq] at h
  subst h
  simp [allocating] at h'

end Verif.Props
