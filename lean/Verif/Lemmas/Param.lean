import Verif.Spec.History

/-!
Helper lemmas: the specification is parametric in the payload type and in the user state. Related payload operations, arguments
and start states give related results and final states.
-/

namespace Verif.Spec

/-- Both empty, or both with related values. -/
def ORel {α β : Type} (r : α → β → Prop) : Option α → Option β → Prop
  | none, none => True
  | some a, some b => r a b
  | _, _ => False

/-- Same exception, or related results. -/
def ERel {α β : Type} (r : α → β → Prop) : Except Exn α → Except Exn β → Prop
  | .error e, .error e' => e = e'
  | .ok a, .ok b => r a b
  | _, _ => False

def SResRel {α β : Type} (r : α → β → Prop) : SRes α → SRes β → Prop
  | .ok a, .ok b => r a b
  | .throw e, .throw e' => e = e'
  | .undef, .undef => True
  | _, _ => False

def ObsRel {V₁ V₂ : Type} (r : V₁ → V₂ → Prop) : Obs V₁ → Obs V₂ → Prop
  | .unit, .unit => True
  | .bool b, .bool b' => b = b'
  | .val v, .val v' => r v v'
  | _, _ => False

/-- Element by element. -/
def LRel {α β : Type} (r : α → β → Prop) : List α → List β → Prop
  | [], [] => True
  | a :: as, b :: bs => r a b ∧ LRel r as bs
  | _, _ => False

theorem LRel.append {α β : Type} {r : α → β → Prop} {a₁ a₂ : List α} {b₁ b₂ : List β} (h₁ : LRel r a₁ b₁) (h₂ : LRel r a₂ b₂) :
    LRel r (a₁ ++ a₂) (b₁ ++ b₂) := by
  induction a₁ generalizing b₁ with
  | nil => cases b₁ with
    | nil => exact h₂
    | cons b bs => exact absurd h₁ id
  | cons a as ih => cases b₁ with
    | nil => exact absurd h₁ id
    | cons b bs => exact ⟨h₁.1, ih h₁.2⟩

theorem LRel.left {α β : Type} {r : α → β → Prop} {as : List α} {bs : List β} (h : LRel r as bs) {a : α} (ha : a ∈ as) :
    ∃ b ∈ bs, r a b := by
  induction as generalizing bs with
  | nil => simp at ha
  | cons x xs ih => cases bs with
    | nil => exact absurd h id
    | cons b bs =>
      rcases List.mem_cons.1 ha with rfl | ha
      · exact ⟨b, by simp, h.1⟩
      · obtain ⟨b', hb, hr⟩ := ih h.2 ha
        exact ⟨b', by simp [hb], hr⟩

section
variable {V₁ V₂ G₁ G₂ : Type} (RV : V₁ → V₂ → Prop) (RG : G₁ → G₂ → Prop)

structure RelW (w₁ : SWorld V₁ G₁) (w₂ : SWorld V₂ G₂) : Prop where
  vars : ∀ x, ORel (ORel RV) (w₁.vars x) (w₂.vars x)
  user : RG w₁.user w₂.user
  trace : LRel (fun p q => p.1 = q.1 ∧ RV p.2 q.2) w₁.trace w₂.trace

/-- Related user functions, by shape of their result. -/
def RelFn {α β : Type} (Ra : α → β → Prop) (f₁ : G₁ → α × G₁) (f₂ : G₂ → β × G₂) : Prop :=
  ∀ g₁ g₂, RG g₁ g₂ → Ra (f₁ g₁).1 (f₂ g₂).1 ∧ RG (f₁ g₁).2 (f₂ g₂).2

def RelCtor (f₁ : G₁ → Except Exn V₁ × G₁) (f₂ : G₂ → Except Exn V₂ × G₂) : Prop := RelFn RG (ERel RV) f₁ f₂

def RelModify (f₁ : V₁ → G₁ → Option Exn × V₁ × G₁) (f₂ : V₂ → G₂ → Option Exn × V₂ × G₂) : Prop :=
  ∀ v₁ v₂ g₁ g₂, RV v₁ v₂ → RG g₁ g₂ →
    (f₁ v₁ g₁).1 = (f₂ v₂ g₂).1 ∧ RV (f₁ v₁ g₁).2.1 (f₂ v₂ g₂).2.1 ∧ RG (f₁ v₁ g₁).2.2 (f₂ v₂ g₂).2.2

def RelModify2 (f₁ : V₁ → V₁ → G₁ → Option Exn × V₁ × V₁ × G₁) (f₂ : V₂ → V₂ → G₂ → Option Exn × V₂ × V₂ × G₂) : Prop :=
  ∀ v₁ v₂ s₁ s₂ g₁ g₂, RV v₁ v₂ → RV s₁ s₂ → RG g₁ g₂ →
    (f₁ v₁ s₁ g₁).1 = (f₂ v₂ s₂ g₂).1 ∧ RV (f₁ v₁ s₁ g₁).2.1 (f₂ v₂ s₂ g₂).2.1 ∧
    RV (f₁ v₁ s₁ g₁).2.2.1 (f₂ v₂ s₂ g₂).2.2.1 ∧ RG (f₁ v₁ s₁ g₁).2.2.2 (f₂ v₂ s₂ g₂).2.2.2

/-- Callables that receive a payload and return a result. -/
def RelCall {α β : Type} (Ra : α → β → Prop) (f₁ : V₁ → G₁ → Except Exn α × V₁ × G₁)
    (f₂ : V₂ → G₂ → Except Exn β × V₂ × G₂) : Prop :=
  ∀ v₁ v₂ g₁ g₂, RV v₁ v₂ → RG g₁ g₂ →
    ERel Ra (f₁ v₁ g₁).1 (f₂ v₂ g₂).1 ∧ RV (f₁ v₁ g₁).2.1 (f₂ v₂ g₂).2.1 ∧ RG (f₁ v₁ g₁).2.2 (f₂ v₂ g₂).2.2

/-- The payload operations, except `swap`. -/
structure RelOpsNoSwap (o₁ : Ops V₁ G₁) (o₂ : Ops V₂ G₂) : Prop where
  copyCtor : ∀ v₁ v₂, RV v₁ v₂ → RelCtor RV RG (o₁.copyCtor v₁) (o₂.copyCtor v₂)
  moveCtor : RelCall RV RG RV o₁.moveCtor o₂.moveCtor
  copyAssign : ∀ v₁ v₂ s₁ s₂ g₁ g₂, RV v₁ v₂ → RV s₁ s₂ → RG g₁ g₂ →
    (o₁.copyAssign v₁ s₁ g₁).1 = (o₂.copyAssign v₂ s₂ g₂).1 ∧ RV (o₁.copyAssign v₁ s₁ g₁).2.1 (o₂.copyAssign v₂ s₂ g₂).2.1 ∧
    RG (o₁.copyAssign v₁ s₁ g₁).2.2 (o₂.copyAssign v₂ s₂ g₂).2.2
  moveAssign : RelModify2 RV RG o₁.moveAssign o₂.moveAssign
  selfCopyAssign : RelModify RV RG o₁.selfCopyAssign o₂.selfCopyAssign
  selfMoveAssign : RelModify RV RG o₁.selfMoveAssign o₂.selfMoveAssign
  dtor : ∀ v₁ v₂ g₁ g₂, RV v₁ v₂ → RG g₁ g₂ → RG (o₁.dtor v₁ g₁) (o₂.dtor v₂ g₂)

structure RelSwap (o₁ : Ops V₁ G₁) (o₂ : Ops V₂ G₂) : Prop where
  swap : RelModify2 RV RG o₁.swap o₂.swap
  selfSwap : RelModify RV RG o₁.selfSwap o₂.selfSwap

def RelArg : Arg V₁ G₁ → Arg V₂ G₂ → Prop
  | .ext _ c₁, .ext _ c₂ => RelCtor RV RG c₁ c₂
  | .copyOf y, .copyOf y' => y = y'
  | .moveOf y, .moveOf y' => y = y'
  | _, _ => False

def RelAArg : AArg V₁ G₁ → AArg V₂ G₂ → Prop
  | .ext f₁ _ c₁, .ext f₂ _ c₂ => RelModify RV RG f₁ f₂ ∧ RelCtor RV RG c₁ c₂
  | .copyOf y, .copyOf y' => y = y'
  | .moveOf y, .moveOf y' => y = y'
  | _, _ => False

/-- The same call, with related arguments and callables. -/
def CallRel : Op V₁ G₁ → Op V₂ G₂ → Prop
  | .ctorDefault x, .ctorDefault x' => x = x'
  | .ctorInPlace x a, .ctorInPlace x' a' => x = x' ∧ RelArg RV RG a a'
  | .ctorCopy x y, .ctorCopy x' y' => x = x' ∧ y = y'
  | .ctorMove x y, .ctorMove x' y' => x = x' ∧ y = y'
  | .dtor x, .dtor x' => x = x'
  | .reset x, .reset x' => x = x'
  | .assignNullopt x, .assignNullopt x' => x = x'
  | .assignVal x a, .assignVal x' a' => x = x' ∧ RelAArg RV RG a a'
  | .assignScalar x t a, .assignScalar x' t' a' => x = x' ∧ t = t' ∧ RelArg RV RG a a'
  | .assignCopy x y, .assignCopy x' y' => x = x' ∧ y = y'
  | .assignMove x y, .assignMove x' y' => x = x' ∧ y = y'
  | .emplace x a, .emplace x' a' => x = x' ∧ RelArg RV RG a a'
  | .swap x y, .swap x' y' => x = x' ∧ y = y'
  | .hasValue x, .hasValue x' => x = x'
  | .deref x, .deref x' => x = x'
  | .value x, .value x' => x = x'
  | .valueOr rv x d, .valueOr rv' x' d' => rv = rv' ∧ x = x' ∧ RelCtor RV RG d d'
  | .modify x f, .modify x' f' => x = x' ∧ RelModify RV RG f f'
  | .andThen x d f, .andThen x' d' f' => x = x' ∧ d = d' ∧ RelCall RV RG (ORel RV) f f'
  | .transform nt x d f, .transform nt' x' d' f' => nt = nt' ∧ x = x' ∧ d = d' ∧ RelCall RV RG RV f f'
  | .orElse rv x d f, .orElse rv' x' d' f' => rv = rv' ∧ x = x' ∧ d = d' ∧ RelFn RG (ERel (ORel RV)) f f'
  | _, _ => False

/-- Related programs. -/
def RelM {α β : Type} (Ra : α → β → Prop) (m₁ : SM V₁ G₁ α) (m₂ : SM V₂ G₂ β) : Prop :=
  ∀ w₁ w₂, RelW RV RG w₁ w₂ → SResRel Ra (m₁ w₁).1 (m₂ w₂).1 ∧ RelW RV RG (m₁ w₁).2 (m₂ w₂).2

end

section
variable {V₁ V₂ G₁ G₂ α₁ α₂ β₁ β₂ : Type} {RV : V₁ → V₂ → Prop} {RG : G₁ → G₂ → Prop} {Ra : α₁ → α₂ → Prop} {Rb : β₁ → β₂ → Prop}

theorem RelM.pure {a₁ : α₁} {a₂ : α₂} (h : Ra a₁ a₂) : RelM RV RG Ra (SM.pure a₁) (SM.pure a₂) := fun _ _ hw => ⟨h, hw⟩

theorem RelM.bind {m₁ : SM V₁ G₁ α₁} {m₂ : SM V₂ G₂ α₂} {f₁ : α₁ → SM V₁ G₁ β₁} {f₂ : α₂ → SM V₂ G₂ β₂} (hm : RelM RV RG Ra m₁ m₂)
    (hf : ∀ a₁ a₂, Ra a₁ a₂ → RelM RV RG Rb (f₁ a₁) (f₂ a₂)) : RelM RV RG Rb (m₁ >>= f₁) (m₂ >>= f₂) := by
  intro w₁ w₂ hw
  obtain ⟨h1, h2⟩ := hm w₁ w₂ hw
  show SResRel Rb (SM.bind m₁ f₁ w₁).1 (SM.bind m₂ f₂ w₂).1 ∧ RelW RV RG (SM.bind m₁ f₁ w₁).2 (SM.bind m₂ f₂ w₂).2
  unfold SM.bind
  rcases e1 : m₁ w₁ with ⟨a₁ | e₁ | _, w₁'⟩ <;> rcases e2 : m₂ w₂ with ⟨a₂ | e₂ | _, w₂'⟩ <;> rw [e1, e2] at h1 h2 <;>
    first
      | exact hf _ _ h1 _ _ h2
      | exact ⟨h1, h2⟩
      | exact absurd h1 id

theorem RelM.undef : RelM RV RG Ra undef undef := fun _ _ hw => ⟨trivial, hw⟩
theorem RelM.throw (e : Exn) : RelM RV RG Ra (throw e) (throw e) := fun _ _ hw => ⟨rfl, hw⟩

theorem RelM.user {f₁ : G₁ → Except Exn α₁ × G₁} {f₂ : G₂ → Except Exn α₂ × G₂} (hf : RelFn RG (ERel Ra) f₁ f₂) :
    RelM RV RG Ra (Spec.user f₁) (Spec.user f₂) := by
  intro w₁ w₂ hw
  obtain ⟨h1, h2⟩ := hf _ _ hw.user
  unfold Spec.user
  rcases e1 : f₁ w₁.user with ⟨a₁ | e₁, g₁⟩ <;> rcases e2 : f₂ w₂.user with ⟨a₂ | e₂, g₂⟩ <;> rw [e1, e2] at h1 h2 <;>
    first
      | exact ⟨h1, hw.vars, h2, hw.trace⟩
      | exact absurd h1 id

theorem RelW.upd {w₁ : SWorld V₁ G₁} {w₂ : SWorld V₂ G₂} (hw : RelW RV RG w₁ w₂) (x : Nat) {a b} (h : ORel (ORel RV) a b) :
    ∀ z, ORel (ORel RV) ((fun z => if z = x then a else w₁.vars z) z) ((fun z => if z = x then b else w₂.vars z) z) := by
  intro z
  dsimp only
  split
  · exact h
  · exact hw.vars z

theorem RelM.put (x : Nat) {v₁ : V₁} {v₂ : V₂} (h : RV v₁ v₂) : RelM RV RG (fun _ _ => True) (put x v₁) (put x v₂) :=
  fun _ _ hw => ⟨trivial, hw.upd x (a := some (some v₁)) (b := some (some v₂)) h, hw.user, hw.trace.append ⟨⟨rfl, h⟩, trivial⟩⟩

theorem RelM.setEmpty (x : Nat) : RelM RV RG (fun _ _ => True) (setEmpty x) (setEmpty x) :=
  fun _ _ hw => ⟨trivial, hw.upd x (a := some none) (b := some none) trivial, hw.user, hw.trace⟩

theorem RelM.remove (x : Nat) : RelM RV RG (fun _ _ => True) (remove x) (remove x) :=
  fun _ _ hw => ⟨trivial, hw.upd x (a := none) (b := none) trivial, hw.user, hw.trace⟩

theorem RelM.get (x : Nat) : RelM RV RG (ORel RV) (get x) (get x) := by
  intro w₁ w₂ hw
  have := hw.vars x
  unfold Spec.get
  rcases h1 : w₁.vars x with _ | a <;> rcases h2 : w₂.vars x with _ | b <;> rw [h1, h2] at this
  · exact ⟨trivial, hw⟩
  · exact absurd this id
  · exact absurd this id
  · exact ⟨this, hw⟩

theorem RelM.getVal (x : Nat) : RelM RV RG RV (getVal x) (getVal x) := by
  intro w₁ w₂ hw
  have := hw.vars x
  unfold Spec.getVal
  rcases h1 : w₁.vars x with _ | _ | a <;> rcases h2 : w₂.vars x with _ | _ | b <;> rw [h1, h2] at this <;>
    first
      | exact ⟨trivial, hw⟩
      | exact ⟨this, hw⟩
      | exact absurd this id

theorem RelM.fresh (x : Nat) : RelM RV RG (fun _ _ => True) (fresh x) (fresh x) := by
  intro w₁ w₂ hw
  have := hw.vars x
  unfold Spec.fresh
  rcases h1 : w₁.vars x with _ | a <;> rcases h2 : w₂.vars x with _ | b <;> rw [h1, h2] at this <;>
    first
      | exact ⟨trivial, hw⟩
      | exact absurd this id

theorem RelM.check (e : Option Exn) : RelM RV RG (fun _ _ => True) (check e) (check e) := by
  cases e
  · exact .pure trivial
  · exact .throw _

variable {o₁ : Ops V₁ G₁} {o₂ : Ops V₂ G₂}

theorem RelM.argVal (ho : RelOpsNoSwap RV RG o₁ o₂) {a₁ : Arg V₁ G₁} {a₂ : Arg V₂ G₂} (ha : RelArg RV RG a₁ a₂) :
    RelM RV RG RV (argVal o₁ a₁) (argVal o₂ a₂) := by
  cases a₁ with
  | ext nt c => cases a₂ with
    | ext nt' c' => exact .user ha
    | _ => exact absurd ha id
  | copyOf y => cases a₂ with
    | copyOf y' =>
      cases ha
      exact .bind (.getVal y) fun v₁ v₂ hv => .user (ho.copyCtor _ _ hv)
    | _ => exact absurd ha id
  | moveOf y => cases a₂ with
    | moveOf y' =>
      cases ha
      intro w₁ w₂ hw
      have := hw.vars y
      simp only [Spec.argVal]
      rcases h1 : w₁.vars y with _ | _ | a <;> rcases h2 : w₂.vars y with _ | _ | b <;> rw [h1, h2] at this <;>
        first
          | exact ⟨trivial, hw⟩
          | exact absurd this id
          | skip
      obtain ⟨k1, k2, k3⟩ := ho.moveCtor a b _ _ this hw.user
      have hu := fun (z : Nat) => hw.upd y (a := some (some (o₁.moveCtor a w₁.user).2.1)) (b := some (some (o₂.moveCtor b w₂.user).2.1)) k2 z
      have ht := hw.trace.append (a₂ := [(y, (o₁.moveCtor a w₁.user).2.1)]) (b₂ := [(y, (o₂.moveCtor b w₂.user).2.1)]) ⟨⟨rfl, k2⟩, trivial⟩
      rcases e1 : o₁.moveCtor a w₁.user with ⟨r₁ | r₁, v₁, g₁⟩ <;> rcases e2 : o₂.moveCtor b w₂.user with ⟨r₂ | r₂, v₂, g₂⟩ <;>
        rw [e1, e2] at k1 k2 k3 ht hu <;> simp only [e1, e2] <;>
        first
          | exact absurd k1 id
          | exact ⟨k1, hu, k3, ht⟩
    | _ => exact absurd ha id

theorem RelM.init (ho : RelOpsNoSwap RV RG o₁ o₂) (x : Nat) {a₁ : Arg V₁ G₁} {a₂ : Arg V₂ G₂} (ha : RelArg RV RG a₁ a₂) :
    RelM RV RG (fun _ _ => True) (init o₁ x a₁) (init o₂ x a₂) :=
  .bind (.argVal ho ha) fun _ _ hv => .put x hv

theorem RelM.destroyVal (ho : RelOpsNoSwap RV RG o₁ o₂) (x : Nat) :
    RelM RV RG (fun _ _ => True) (destroyVal o₁ x) (destroyVal o₂ x) := by
  intro w₁ w₂ hw
  have := hw.vars x
  unfold Spec.destroyVal
  rcases h1 : w₁.vars x with _ | _ | a <;> rcases h2 : w₂.vars x with _ | _ | b <;> rw [h1, h2] at this <;>
    first
      | exact ⟨trivial, hw⟩
      | exact ⟨trivial, hw.upd x (a := some none) (b := some none) trivial, ho.dtor _ _ _ _ this hw.user, hw.trace⟩
      | exact absurd this id

theorem RelM.ctorDefault (x : Nat) : RelM RV RG (fun _ _ => True) (ctorDefault x) (ctorDefault x) :=
  .bind (.fresh x) fun _ _ _ => .setEmpty x

theorem RelM.ctorInPlace (ho : RelOpsNoSwap RV RG o₁ o₂) (x : Nat) {a₁ : Arg V₁ G₁} {a₂ : Arg V₂ G₂} (ha : RelArg RV RG a₁ a₂) :
    RelM RV RG (fun _ _ => True) (ctorInPlace o₁ x a₁) (ctorInPlace o₂ x a₂) :=
  .bind (.fresh x) fun _ _ _ => .bind (.argVal ho ha) fun _ _ hv => .put x hv

theorem RelM.ctorCopy (ho : RelOpsNoSwap RV RG o₁ o₂) (x y : Nat) : RelM RV RG (fun _ _ => True) (ctorCopy o₁ x y) (ctorCopy o₂ x y) :=
  .bind (.fresh x) fun _ _ _ => .bind (.get y) fun c₁ c₂ hc => by
    cases c₁ <;> cases c₂
    · exact .setEmpty x
    · exact absurd hc id
    · exact absurd hc id
    · exact .bind (.argVal ho rfl) fun _ _ hv => .put x hv

theorem RelM.ctorMove (ho : RelOpsNoSwap RV RG o₁ o₂) (x y : Nat) : RelM RV RG (fun _ _ => True) (ctorMove o₁ x y) (ctorMove o₂ x y) :=
  .bind (.fresh x) fun _ _ _ => .bind (.get y) fun c₁ c₂ hc => by
    cases c₁ <;> cases c₂
    · exact .setEmpty x
    · exact absurd hc id
    · exact absurd hc id
    · exact .bind (.argVal ho rfl) fun _ _ hv => .put x hv

theorem RelM.dtor (ho : RelOpsNoSwap RV RG o₁ o₂) (x : Nat) : RelM RV RG (fun _ _ => True) (dtor o₁ x) (dtor o₂ x) :=
  .bind (.get x) fun c₁ c₂ hc => by
    cases c₁ <;> cases c₂
    · exact .remove x
    · exact absurd hc id
    · exact absurd hc id
    · exact .bind (.destroyVal ho x) fun _ _ _ => .remove x

theorem RelM.reset (ho : RelOpsNoSwap RV RG o₁ o₂) (x : Nat) : RelM RV RG (fun _ _ => True) (reset o₁ x) (reset o₂ x) :=
  .bind (.get x) fun c₁ c₂ hc => by
    cases c₁ <;> cases c₂
    · exact .pure trivial
    · exact absurd hc id
    · exact absurd hc id
    · exact .destroyVal ho x

/-- A user function that modifies one payload. -/
theorem RelM.userModify {f₁ : G₁ → Option Exn × V₁ × G₁} {f₂ : G₂ → Option Exn × V₂ × G₂}
    (hf : ∀ g₁ g₂, RG g₁ g₂ → (f₁ g₁).1 = (f₂ g₂).1 ∧ RV (f₁ g₁).2.1 (f₂ g₂).2.1 ∧ RG (f₁ g₁).2.2 (f₂ g₂).2.2) (x : Nat) :
    RelM RV RG (fun _ _ => True)
      (do let (e, v') ← Spec.user (fun g => let (e, v', g') := f₁ g; (.ok (e, v'), g')); Spec.put x v'; Spec.check e)
      (do let (e, v') ← Spec.user (fun g => let (e, v', g') := f₂ g; (.ok (e, v'), g')); Spec.put x v'; Spec.check e) := by
  refine RelM.bind (Ra := fun p q => p.1 = q.1 ∧ RV p.2 q.2) (.user fun g₁ g₂ hg => ?_) fun p q h => ?_
  · exact ⟨⟨(hf _ _ hg).1, (hf _ _ hg).2.1⟩, (hf _ _ hg).2.2⟩
  · obtain ⟨e, v⟩ := p
    obtain ⟨e', v'⟩ := q
    obtain ⟨rfl, hv⟩ := h
    exact .bind (.put x hv) fun _ _ _ => .check e

/-- A user function that modifies two payloads. -/
theorem RelM.userModify2 {f₁ : G₁ → Option Exn × V₁ × V₁ × G₁} {f₂ : G₂ → Option Exn × V₂ × V₂ × G₂}
    (hf : ∀ g₁ g₂, RG g₁ g₂ → (f₁ g₁).1 = (f₂ g₂).1 ∧ RV (f₁ g₁).2.1 (f₂ g₂).2.1 ∧ RV (f₁ g₁).2.2.1 (f₂ g₂).2.2.1 ∧
      RG (f₁ g₁).2.2.2 (f₂ g₂).2.2.2) (x y : Nat) :
    RelM RV RG (fun _ _ => True)
      (do let (e, v', s') ← Spec.user (fun g => let (e, v', s', g') := f₁ g; (.ok (e, v', s'), g'))
          Spec.put x v'; Spec.put y s'; Spec.check e)
      (do let (e, v', s') ← Spec.user (fun g => let (e, v', s', g') := f₂ g; (.ok (e, v', s'), g'))
          Spec.put x v'; Spec.put y s'; Spec.check e) := by
  refine RelM.bind (Ra := fun p q => p.1 = q.1 ∧ RV p.2.1 q.2.1 ∧ RV p.2.2 q.2.2) (.user fun g₁ g₂ hg => ?_) fun p q h => ?_
  · exact ⟨⟨(hf _ _ hg).1, (hf _ _ hg).2.1, (hf _ _ hg).2.2.1⟩, (hf _ _ hg).2.2.2⟩
  · obtain ⟨e, v, s⟩ := p
    obtain ⟨e', v', s'⟩ := q
    obtain ⟨rfl, hv, hs⟩ := h
    exact .bind (.put x hv) fun _ _ _ => .bind (.put y hs) fun _ _ _ => .check e

theorem RelM.payloadAssign (ho : RelOpsNoSwap RV RG o₁ o₂) (x : Nat) {a₁ : AArg V₁ G₁} {a₂ : AArg V₂ G₂} (ha : RelAArg RV RG a₁ a₂) :
    RelM RV RG (fun _ _ => True) (payloadAssign o₁ x a₁) (payloadAssign o₂ x a₂) := by
  cases a₁ with
  | ext f nt c => cases a₂ with
    | ext f' nt' c' => exact .bind (.getVal x) fun v₁ v₂ hv => .userModify (fun g₁ g₂ hg => ha.1 v₁ v₂ g₁ g₂ hv hg) x
    | _ => exact absurd ha id
  | copyOf y => cases a₂ with
    | copyOf y' =>
      cases ha
      refine .bind (.getVal x) fun v₁ v₂ hv => .bind (.getVal y) fun s₁ s₂ hs => ?_
      refine .userModify (f₁ := fun g => if x = y then o₁.selfCopyAssign v₁ g else o₁.copyAssign v₁ s₁ g)
        (f₂ := fun g => if x = y then o₂.selfCopyAssign v₂ g else o₂.copyAssign v₂ s₂ g) (fun g₁ g₂ hg => ?_) x
      split
      · exact ho.selfCopyAssign _ _ _ _ hv hg
      · exact ho.copyAssign _ _ _ _ _ _ hv hs hg
    | _ => exact absurd ha id
  | moveOf y => cases a₂ with
    | moveOf y' =>
      cases ha
      refine .bind (.getVal x) fun v₁ v₂ hv => .bind (.getVal y) fun s₁ s₂ hs => ?_
      dsimp only
      split
      · exact .userModify (fun g₁ g₂ hg => ho.selfMoveAssign _ _ _ _ hv hg) x
      · exact .userModify2 (fun g₁ g₂ hg => ho.moveAssign _ _ _ _ _ _ hv hs hg) x y
    | _ => exact absurd ha id

theorem RelAArg.toArg {a₁ : AArg V₁ G₁} {a₂ : AArg V₂ G₂} (ha : RelAArg RV RG a₁ a₂) : RelArg RV RG a₁.toArg a₂.toArg := by
  cases a₁ <;> cases a₂ <;> first | exact ha.2 | exact ha | exact absurd ha id

theorem RelM.assignVal (ho : RelOpsNoSwap RV RG o₁ o₂) (x : Nat) {a₁ : AArg V₁ G₁} {a₂ : AArg V₂ G₂} (ha : RelAArg RV RG a₁ a₂) :
    RelM RV RG (fun _ _ => True) (assignVal o₁ x a₁) (assignVal o₂ x a₂) :=
  .bind (.get x) fun c₁ c₂ hc => by
    cases c₁ <;> cases c₂
    · exact .init ho x ha.toArg
    · exact absurd hc id
    · exact absurd hc id
    · exact .payloadAssign ho x ha

theorem RelM.assignCopy (ho : RelOpsNoSwap RV RG o₁ o₂) (x y : Nat) :
    RelM RV RG (fun _ _ => True) (assignCopy o₁ x y) (assignCopy o₂ x y) :=
  .bind (.get x) fun c₁ c₂ hc => .bind (.get y) fun d₁ d₂ hd => by
    cases c₁ <;> cases c₂ <;> cases d₁ <;> cases d₂ <;>
      first
        | exact absurd hc id
        | exact absurd hd id
        | exact .pure trivial
        | exact .init ho x rfl
        | exact .destroyVal ho x
        | exact .payloadAssign ho x rfl

theorem RelM.assignMove (ho : RelOpsNoSwap RV RG o₁ o₂) (x y : Nat) :
    RelM RV RG (fun _ _ => True) (assignMove o₁ x y) (assignMove o₂ x y) :=
  .bind (.get x) fun c₁ c₂ hc => .bind (.get y) fun d₁ d₂ hd => by
    cases c₁ <;> cases c₂ <;> cases d₁ <;> cases d₂ <;>
      first
        | exact absurd hc id
        | exact absurd hd id
        | exact .pure trivial
        | exact .init ho x rfl
        | exact .destroyVal ho x
        | exact .payloadAssign ho x rfl

theorem RelM.emplace (ho : RelOpsNoSwap RV RG o₁ o₂) (x : Nat) {a₁ : Arg V₁ G₁} {a₂ : Arg V₂ G₂} (ha : RelArg RV RG a₁ a₂) :
    RelM RV RG RV (emplace o₁ x a₁) (emplace o₂ x a₂) :=
  .bind (.reset ho x) fun _ _ _ => .bind (.init ho x ha) fun _ _ _ => .getVal x

theorem RelM.onThrow {m₁ : SM V₁ G₁ α₁} {m₂ : SM V₂ G₂ α₂} {h₁ : SM V₁ G₁ Unit} {h₂ : SM V₂ G₂ Unit} (hm : RelM RV RG Ra m₁ m₂)
    (hh : RelM RV RG (fun _ _ => True) h₁ h₂) : RelM RV RG Ra (onThrow m₁ h₁) (onThrow m₂ h₂) := by
  intro w₁ w₂ hw
  obtain ⟨k1, k2⟩ := hm w₁ w₂ hw
  unfold Spec.onThrow
  rcases e1 : m₁ w₁ with ⟨a₁ | e₁ | _, w₁'⟩ <;> rcases e2 : m₂ w₂ with ⟨a₂ | e₂ | _, w₂'⟩ <;> rw [e1, e2] at k1 k2 <;>
    first
      | exact absurd k1 id
      | exact ⟨k1, k2⟩
      | skip
  obtain ⟨j1, j2⟩ := hh w₁' w₂' k2
  dsimp only at k1 ⊢
  rcases f1 : h₁ w₁' with ⟨a₁ | e₁' | _, w₁''⟩ <;> rcases f2 : h₂ w₂' with ⟨a₂ | e₂' | _, w₂''⟩ <;> rw [f1, f2] at j1 j2 <;>
    first
      | exact absurd j1 id
      | exact ⟨k1, j2⟩
      | exact ⟨trivial, j2⟩

theorem RelM.assignViaTemp {p₁ : Ops V₁ G₁} {p₂ : Ops V₂ G₂} (ho : RelOpsNoSwap RV RG o₁ o₂) (hp : RelOpsNoSwap RV RG p₁ p₂) (x t : Nat)
    {a₁ : Arg V₁ G₁} {a₂ : Arg V₂ G₂} (ha : RelArg RV RG a₁ a₂) :
    RelM RV RG (fun _ _ => True) (assignViaTemp o₁ p₁ x t a₁) (assignViaTemp o₂ p₂ x t a₂) :=
  .bind (.ctorInPlace hp t ha) fun _ _ _ => .bind (.onThrow (.assignMove ho x t) (.dtor hp t)) fun _ _ _ => .dtor hp t

theorem RelM.swap (ho : RelOpsNoSwap RV RG o₁ o₂) (hs : RelSwap RV RG o₁ o₂) (x y : Nat) :
    RelM RV RG (fun _ _ => True) (swap o₁ x y) (swap o₂ x y) :=
  .bind (.get x) fun c₁ c₂ hc => .bind (.get y) fun d₁ d₂ hd => by
    cases c₁ <;> cases c₂ <;> cases d₁ <;> cases d₂ <;>
      first
        | exact absurd hc id
        | exact absurd hd id
        | exact .pure trivial
        | exact .bind (.init ho x rfl) fun _ _ _ => .destroyVal ho y
        | exact .bind (.init ho y rfl) fun _ _ _ => .destroyVal ho x
        | skip
    dsimp only
    split
    · exact .userModify (fun g₁ g₂ hg => hs.selfSwap _ _ _ _ hc hg) x
    · exact .userModify2 (fun g₁ g₂ hg => hs.swap _ _ _ _ _ _ hc hd hg) x y

theorem RelM.hasValue (x : Nat) : RelM RV RG Eq (hasValue x) (hasValue x) :=
  .bind (.get x) fun c₁ c₂ hc => by
    cases c₁ <;> cases c₂ <;> first | exact absurd hc id | exact .pure rfl

theorem RelM.value (x : Nat) : RelM RV RG RV (value x) (value x) :=
  .bind (.get x) fun c₁ c₂ hc => by
    cases c₁ <;> cases c₂ <;> first | exact absurd hc id | exact .throw _ | exact .pure hc

theorem relArg_self (rv : Bool) (x : Nat) :
    RelArg RV RG (if rv then .moveOf x else .copyOf x : Arg V₁ G₁) (if rv then .moveOf x else .copyOf x : Arg V₂ G₂) := by
  cases rv <;> rfl

theorem RelM.valueOr (ho : RelOpsNoSwap RV RG o₁ o₂) (rv : Bool) (x : Nat) {d₁ : G₁ → Except Exn V₁ × G₁} {d₂ : G₂ → Except Exn V₂ × G₂}
    (hd : RelCtor RV RG d₁ d₂) : RelM RV RG RV (valueOr o₁ rv x d₁) (valueOr o₂ rv x d₂) :=
  .bind (.get x) fun c₁ c₂ hc => by
    cases c₁ <;> cases c₂
    · exact .user hd
    · exact absurd hc id
    · exact absurd hc id
    · exact .argVal ho (relArg_self rv x)

theorem RelM.modify (x : Nat) {f₁ : V₁ → G₁ → Option Exn × V₁ × G₁} {f₂ : V₂ → G₂ → Option Exn × V₂ × G₂} (hf : RelModify RV RG f₁ f₂) :
    RelM RV RG (fun _ _ => True) (modify x f₁) (modify x f₂) :=
  .bind (.getVal x) fun v₁ v₂ hv => .userModify (fun g₁ g₂ hg => hf v₁ v₂ g₁ g₂ hv hg) x

/-- Calling a callable with the payload. -/
theorem RelM.userCall {f₁ : G₁ → Except Exn α₁ × V₁ × G₁} {f₂ : G₂ → Except Exn α₂ × V₂ × G₂}
    (hf : ∀ g₁ g₂, RG g₁ g₂ → ERel Ra (f₁ g₁).1 (f₂ g₂).1 ∧ RV (f₁ g₁).2.1 (f₂ g₂).2.1 ∧ RG (f₁ g₁).2.2 (f₂ g₂).2.2) :
    RelM RV RG (fun p q => ERel Ra p.1 q.1 ∧ RV p.2 q.2)
      (Spec.user (fun g => let (r, v', g') := f₁ g; (.ok (r, v'), g')))
      (Spec.user (fun g => let (r, v', g') := f₂ g; (.ok (r, v'), g'))) :=
  .user fun _ _ hg => ⟨⟨(hf _ _ hg).1, (hf _ _ hg).2.1⟩, (hf _ _ hg).2.2⟩

theorem RelM.andThen (x d : Nat) {f₁ : V₁ → G₁ → Except Exn (Option V₁) × V₁ × G₁} {f₂ : V₂ → G₂ → Except Exn (Option V₂) × V₂ × G₂}
    (hf : RelCall RV RG (ORel RV) f₁ f₂) : RelM RV RG (fun _ _ => True) (andThen x d f₁) (andThen x d f₂) :=
  .bind (.fresh d) fun _ _ _ => .bind (.get x) fun c₁ c₂ hc => by
    cases c₁ <;> cases c₂
    · exact .setEmpty d
    · exact absurd hc id
    · exact absurd hc id
    · refine .bind (.userCall fun g₁ g₂ hg => hf _ _ g₁ g₂ hc hg) fun p q h => .bind (.put x h.2) fun _ _ _ => ?_
      rcases p with ⟨e | (_ | u), v⟩ <;> rcases q with ⟨e' | (_ | u'), v'⟩ <;>
        first
          | exact absurd h.1 id
          | (cases (h.1 : e = e'); exact .throw e)
          | exact .setEmpty d
          | exact .put d h.1

theorem RelM.transform (x d : Nat) {f₁ : V₁ → G₁ → Except Exn V₁ × V₁ × G₁} {f₂ : V₂ → G₂ → Except Exn V₂ × V₂ × G₂}
    (hf : RelCall RV RG RV f₁ f₂) : RelM RV RG (fun _ _ => True) (transform x d f₁) (transform x d f₂) :=
  .bind (.fresh d) fun _ _ _ => .bind (.get x) fun c₁ c₂ hc => by
    cases c₁ <;> cases c₂
    · exact .setEmpty d
    · exact absurd hc id
    · exact absurd hc id
    · refine .bind (.userCall fun g₁ g₂ hg => hf _ _ g₁ g₂ hc hg) fun p q h => .bind (.put x h.2) fun _ _ _ => ?_
      rcases p with ⟨e | u, v⟩ <;> rcases q with ⟨e' | u', v'⟩ <;>
        first
          | exact absurd h.1 id
          | (cases (h.1 : e = e'); exact .throw e)
          | exact .put d h.1

theorem RelM.orElse (ho : RelOpsNoSwap RV RG o₁ o₂) (rv : Bool) (x d : Nat) {f₁ : G₁ → Except Exn (Option V₁) × G₁}
    {f₂ : G₂ → Except Exn (Option V₂) × G₂} (hf : RelFn RG (ERel (ORel RV)) f₁ f₂) :
    RelM RV RG (fun _ _ => True) (orElse o₁ rv x d f₁) (orElse o₂ rv x d f₂) :=
  .bind (.fresh d) fun _ _ _ => .bind (.get x) fun c₁ c₂ hc => by
    cases c₁ <;> cases c₂
    · exact .bind (.user hf) fun p q h => by
        cases p <;> cases q <;>
          first
            | exact absurd h id
            | exact .setEmpty d
            | exact .put d h
    · exact absurd hc id
    · exact absurd hc id
    · exact .bind (.argVal ho (relArg_self rv x)) fun _ _ hv => .put d hv

theorem RelM.res {m₁ : SM V₁ G₁ α₁} {m₂ : SM V₂ G₂ α₂} (hm : RelM RV RG Ra m₁ m₂) {f₁ : α₁ → Obs V₁} {f₂ : α₂ → Obs V₂}
    (hf : ∀ a₁ a₂, Ra a₁ a₂ → ObsRel RV (f₁ a₁) (f₂ a₂)) :
    RelM RV RG (ObsRel RV) (m₁ >>= fun a => SM.pure (f₁ a)) (m₂ >>= fun a => SM.pure (f₂ a)) :=
  .bind hm fun _ _ h => .pure (hf _ _ h)

/-- Whether a call uses the payload's `swap`. -/
def isSwap {V G : Type} : Op V G → Bool
  | .swap _ _ => true
  | _ => false

variable {ops₁ : Nat → Ops V₁ G₁} {ops₂ : Nat → Ops V₂ G₂}

theorem relM_specOp (ho : ∀ x, RelOpsNoSwap RV RG (ops₁ x) (ops₂ x)) {op₁ : Op V₁ G₁} {op₂ : Op V₂ G₂}
    (hs : isSwap op₁ = true → ∀ x, RelSwap RV RG (ops₁ x) (ops₂ x)) (h : CallRel RV RG op₁ op₂) :
    RelM RV RG (ObsRel RV) (specOp ops₁ op₁) (specOp ops₂ op₂) := by
  cases op₁ <;> cases op₂ <;> first | exact absurd h id | skip
  case ctorDefault => cases h; exact .res (.ctorDefault _) fun _ _ _ => trivial
  case ctorInPlace => obtain ⟨rfl, ha⟩ := h; exact .res (.ctorInPlace (ho _) _ ha) fun _ _ _ => trivial
  case ctorCopy => obtain ⟨rfl, rfl⟩ := h; exact .res (.ctorCopy (ho _) _ _) fun _ _ _ => trivial
  case ctorMove => obtain ⟨rfl, rfl⟩ := h; exact .res (.ctorMove (ho _) _ _) fun _ _ _ => trivial
  case dtor => cases h; exact .res (.dtor (ho _) _) fun _ _ _ => trivial
  case reset => cases h; exact .res (.reset (ho _) _) fun _ _ _ => trivial
  case assignNullopt => cases h; exact .res (.reset (ho _) _) fun _ _ _ => trivial
  case assignVal => obtain ⟨rfl, ha⟩ := h; exact .res (.assignVal (ho _) _ ha) fun _ _ _ => trivial
  case assignScalar => obtain ⟨rfl, rfl, ha⟩ := h; exact .res (.assignViaTemp (ho _) (ho _) _ _ ha) fun _ _ _ => trivial
  case assignCopy => obtain ⟨rfl, rfl⟩ := h; exact .res (.assignCopy (ho _) _ _) fun _ _ _ => trivial
  case assignMove => obtain ⟨rfl, rfl⟩ := h; exact .res (.assignMove (ho _) _ _) fun _ _ _ => trivial
  case emplace => obtain ⟨rfl, ha⟩ := h; exact .res (.emplace (ho _) _ ha) fun _ _ h => h
  case swap => obtain ⟨rfl, rfl⟩ := h; exact .res (.swap (ho _) (hs rfl _) _ _) fun _ _ _ => trivial
  case hasValue => cases h; exact .res (.hasValue _) fun _ _ h => h
  case deref => cases h; exact .res (.getVal _) fun _ _ h => h
  case value => cases h; exact .res (.value _) fun _ _ h => h
  case valueOr => obtain ⟨rfl, rfl, hd⟩ := h; exact .res (.valueOr (ho _) _ _ hd) fun _ _ h => h
  case modify => obtain ⟨rfl, hf⟩ := h; exact .res (.modify _ hf) fun _ _ _ => trivial
  case andThen => obtain ⟨rfl, rfl, hf⟩ := h; exact .res (.andThen _ _ hf) fun _ _ _ => trivial
  case transform => obtain ⟨rfl, rfl, rfl, hf⟩ := h; exact .res (.transform _ _ hf) fun _ _ _ => trivial
  case orElse => obtain ⟨rfl, rfl, rfl, hf⟩ := h; exact .res (.orElse (ho _) _ _ _ hf) fun _ _ _ => trivial

/-- Histories. If one side has a meaning, then so does the other, with related results. -/
theorem relM_specRun (ho : ∀ x, RelOpsNoSwap RV RG (ops₁ x) (ops₂ x)) {h₁ : List (Op V₁ G₁)} {h₂ : List (Op V₂ G₂)}
    (hs : (∀ x, RelSwap RV RG (ops₁ x) (ops₂ x)) ∨ ∀ op ∈ h₁, isSwap op = false) (h : LRel (CallRel RV RG) h₁ h₂)
    {w₁ : SWorld V₁ G₁} {w₂ : SWorld V₂ G₂} (hw : RelW RV RG w₁ w₂) {rs₂ w₂'} (hr : specRun ops₂ h₂ w₂ = some (rs₂, w₂')) :
    ∃ rs₁ w₁', specRun ops₁ h₁ w₁ = some (rs₁, w₁') ∧ LRel (SResRel (ObsRel RV)) rs₁ rs₂ ∧ RelW RV RG w₁' w₂' := by
  induction h₁ generalizing h₂ w₁ w₂ rs₂ with
  | nil => cases h₂ with
    | nil =>
      simp only [specRun, Option.some.injEq, Prod.mk.injEq] at hr
      obtain ⟨rfl, rfl⟩ := hr
      exact ⟨[], w₁, rfl, trivial, hw⟩
    | cons _ _ => exact absurd h id
  | cons op₁ t₁ ih => cases h₂ with
    | nil => exact absurd h id
    | cons op₂ t₂ =>
      have hs' : isSwap op₁ = true → ∀ x, RelSwap RV RG (ops₁ x) (ops₂ x) := by
        intro hsw
        rcases hs with hs | hs
        · exact hs
        · have := hs op₁ (by simp)
          rw [hsw] at this
          cases this
      have hs'' : (∀ x, RelSwap RV RG (ops₁ x) (ops₂ x)) ∨ ∀ op ∈ t₁, isSwap op = false :=
        hs.imp id fun hs op hop => hs op (by simp [hop])
      obtain ⟨k1, k2⟩ := relM_specOp ho hs' h.1 w₁ w₂ hw
      simp only [specRun] at hr ⊢
      rcases e1 : specOp ops₁ op₁ w₁ with ⟨a₁ | e₁ | _, w₁'⟩ <;> rcases e2 : specOp ops₂ op₂ w₂ with ⟨a₂ | e₂ | _, w₂''⟩ <;>
        rw [e1, e2] at k1 k2 <;> simp only [e2] at hr <;>
        first
          | exact absurd k1 id
          | exact absurd hr (by simp)
          | skip
      all_goals
        rcases hr' : specRun ops₂ t₂ w₂'' with _ | ⟨rs', w'⟩ <;> simp only [hr'] at hr
        · simp at hr
        · simp only [Option.some.injEq, Prod.mk.injEq] at hr
          obtain ⟨rfl, rfl⟩ := hr
          obtain ⟨rs₁, w₃, q1, q2, q3⟩ := ih hs'' h.2 k2 hr'
          simp only [q1]
          exact ⟨_, _, rfl, ⟨k1, q2⟩, q3⟩

theorem relW_init {g₁ : G₁} {g₂ : G₂} (h : RG g₁ g₂) : RelW RV RG (.init g₁) (.init g₂) := ⟨fun _ => trivial, h, trivial⟩

end

end Verif.Spec
