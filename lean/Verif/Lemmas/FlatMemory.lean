import Verif.Lemmas.Traverse
import Verif.Spec.FlatMemory

/-! Helper lemmas: in one memory the library code does what it does with separate memories. -/

namespace Verif.Model
open Verif.Props (extent)
open Verif.Spec (OwnByte ShareByte Agrees)

section
variable {V G α β : Type} {Γ : Env V G} {pos : Placement} {bad : Nat → Nat → Prop}

theorem occupied_eq (c : Config V) : c.occupied = extent c := rfl

theorem flat_andThen (p : Steps.M V G α) (k : Res α → Steps.M V G β) (f : FlatWorld V G) :
    (p.andThen k).flat Γ pos bad f = (k (p.flat Γ pos bad f).1).flat Γ pos bad (p.flat Γ pos bad f).2 := by
  induction p generalizing f with
  | done r => rfl
  | read x k ih => exact ih _ _
  | write x c k ih => exact ih _
  | fresh k ih => exact ih _ _
  | event e k ih => exact ih _
  | user h k ih => exact ih _ _

theorem store_clash {f : FlatWorld V G} (h : f.clash) (x : Nat) (c : Option (Storage V)) : (f.store Γ pos bad x c).clash := by
  unfold FlatWorld.store
  cases c with
  | none => exact h
  | some s => cases f.objs x with
    | none => exact .inl h
    | some o => exact h

theorem flat_clash {f : FlatWorld V G} (h : f.clash) (p : Steps.M V G α) : (p.flat Γ pos bad f).2.clash := by
  induction p generalizing f with
  | done r => exact h
  | read x k ih => exact ih _ h
  | write x c k ih => exact ih (store_clash h _ _)
  | fresh k ih => exact ih _ h
  | event e k ih => exact ih h
  | user g k ih => exact ih _ h

/-- Programs that use only optionals of which no two may clash. -/
theorem flat_no_clash {R W E : Nat → Prop} (hW : ∀ x, W x → E x) (hd : ∀ x y, W x → E y → y ≠ x → ¬ bad x y) {p : Steps.M V G α}
    (hp : Fits R W p) {f : FlatWorld V G} (hf : ∀ y, (f.objs y).isSome → E y) (hc : ¬ f.clash) : ¬ (p.flat Γ pos bad f).2.clash := by
  induction p generalizing f with
  | done r => exact hc
  | read x k ih => exact ih _ (hp.2 _) hf hc
  | fresh k ih => exact ih _ (hp _) hf hc
  | event e k ih => exact ih hp hf hc
  | user g k ih => exact ih _ (hp _) hf hc
  | write x c k ih =>
    have hx := hW x hp.1
    refine ih hp.2 ?_ ?_
    · intro y hy
      have hobj : (f.store Γ pos bad x c).objs y = if y = x then c.map fun s => (s.payload, s.flag) else f.objs y := by
        unfold FlatWorld.store
        cases c with
        | none => rfl
        | some s => cases f.objs x <;> rfl
      rw [hobj] at hy
      split at hy
      · rename_i e; rw [e]; exact hx
      · exact hf y hy
    · unfold FlatWorld.store
      cases c with
      | none => exact hc
      | some s => cases f.objs x with
        | none =>
          rintro (h | ⟨y, hy, he, hb⟩)
          · exact hc h
          · exact hd x y hp.1 (hf y he) hy hb
        | some o => exact hc

/-- In one memory `p` does what `q` does with separate memories, unless two optionals clash, and changes only bytes of optionals in
`W`. -/
def FlatSim (Γ : Env V G) (pos : Placement) (W : Nat → Prop) {α : Type} (p q : Steps.M V G α) (f : FlatWorld V G) (w : World V G) : Prop :=
  (p.flat Γ pos (ShareByte Γ pos) f).2.clash ∨
  ((p.flat Γ pos (ShareByte Γ pos) f).1 = (q.exec w).1 ∧ Agrees Γ pos (p.flat Γ pos (ShareByte Γ pos) f).2 (q.exec w).2 ∧
    ∀ a, (∀ x, W x → ¬ OwnByte Γ pos x a) → (p.flat Γ pos (ShareByte Γ pos) f).2.bytes a = f.bytes a)

/-- `p` does the same in one memory. -/
def Flatly (Γ : Env V G) (pos : Placement) (W : Nat → Prop) {α : Type} (p : Steps.M V G α) : Prop :=
  ∀ f w, Agrees Γ pos f w → FlatSim Γ pos W p p f w

namespace Flatly
variable {W : Nat → Prop} {x : Nat}

theorem done (r : Res α) : Flatly Γ pos W (.done r : Steps.M V G α) := fun _ _ h => .inr ⟨rfl, h, fun _ _ => rfl⟩

theorem andThen {p : Steps.M V G α} {k : Res α → Steps.M V G β} (hp : Flatly Γ pos W p) (hk : ∀ r, Flatly Γ pos W (k r)) :
    Flatly Γ pos W (p.andThen k) := by
  intro f w h
  unfold FlatSim
  rw [flat_andThen, exec_andThen]
  rcases hp f w h with hc | ⟨h1, h2, h3⟩
  · exact .inl (flat_clash hc _)
  · rw [h1]
    rcases hk _ _ _ h2 with hc | ⟨h4, h5, h6⟩
    · exact .inl hc
    · exact .inr ⟨h4, h5, fun a ha => (h6 a ha).trans (h3 a ha)⟩

theorem sim_user {f : FlatWorld V G} {w : World V G} (h : Agrees Γ pos f w) (g : G → G) {k k' : G → Steps.M V G α}
    (hk : Agrees Γ pos { f with user := g f.user } { w with user := g w.user } →
      FlatSim Γ pos W (k w.user) (k' w.user) { f with user := g f.user } { w with user := g w.user }) :
    FlatSim Γ pos W (.user g k) (.user g k') f w := by
  have := hk ⟨h.objs, h.bytes, h.apart, h.nextObj, h.log, congrArg g h.user⟩
  unfold FlatSim at this ⊢
  simp only [Steps.M.flat, Steps.M.exec]
  rw [h.user] at this ⊢
  exact this

theorem sim_fresh {f : FlatWorld V G} {w : World V G} (h : Agrees Γ pos f w) {k k' : Nat → Steps.M V G α}
    (hk : Agrees Γ pos { f with nextObj := f.nextObj + 1 } { w with nextObj := w.nextObj + 1 } →
      FlatSim Γ pos W (k w.nextObj) (k' w.nextObj) { f with nextObj := f.nextObj + 1 } { w with nextObj := w.nextObj + 1 }) :
    FlatSim Γ pos W (.fresh k) (.fresh k') f w := by
  have := hk ⟨h.objs, h.bytes, h.apart, congrArg (· + 1) h.nextObj, h.log, h.user⟩
  unfold FlatSim at this ⊢
  simp only [Steps.M.flat, Steps.M.exec]
  rw [h.nextObj] at this ⊢
  exact this

theorem user (g : G → G) {k : G → Steps.M V G α} (hk : ∀ g, Flatly Γ pos W (k g)) : Flatly Γ pos W (.user g k) :=
  fun _ _ h => sim_user h g fun h' => hk _ _ _ h'

theorem event (e : Event) {k : Steps.M V G α} (hk : Flatly Γ pos W k) : Flatly Γ pos W (.event e k) := fun f w h =>
  hk { f with log := f.log ++ [e] } { w with log := w.log ++ [e] }
    ⟨h.objs, h.bytes, h.apart, h.nextObj, congrArg (· ++ [e]) h.log, h.user⟩

/-- Two views of an optional that differ only in what does not belong to it. -/
structure Alike (c : Config V) (s t : Storage V) : Prop where
  payload : s.payload = t.payload
  flag : s.flag = t.flag
  bytes : ∀ j, j < extent c → s.bytes j = t.bytes j

/-- Reading: the program gets another view of the optional, but the same optional. -/
theorem read {k : Option (Storage V) → Steps.M V G α} (hn : Flatly Γ pos W (k none))
    (hs : ∀ s t f w, Agrees Γ pos f w → f.look pos x = some s → w.mem x = some t → Alike (Γ x).cfg s t →
      FlatSim Γ pos W (k (some s)) (k (some t)) f w) : Flatly Γ pos W (.read x k) := by
  intro f w h
  have ho := h.objs x
  show FlatSim Γ pos W (k (f.look pos x)) (k (w.mem x)) f w
  rcases hm : w.mem x with _ | t
  · have hl : f.look pos x = none := by unfold FlatWorld.look; rw [ho, hm]; rfl
    rw [hl]
    exact hn f w h
  · have hl : f.look pos x = some ⟨fun j => f.bytes (pos x + j), t.payload, t.flag⟩ := by unfold FlatWorld.look; rw [ho, hm]; rfl
    rw [hl]
    exact hs _ t f w h hl hm ⟨rfl, rfl, fun j hj => h.bytes x t hm j hj⟩

/-- Writing bytes that belong to an existing optional. -/
theorem stored {f : FlatWorld V G} {w : World V G} (h : Agrees Γ pos f w) {s t s' t' : Storage V} (hl : f.look pos x = some s)
    (hm : w.mem x = some t) (ha : Alike (Γ x).cfg s t) (hp : s'.payload = t'.payload) (hf : s'.flag = t'.flag) {off n : Nat}
    {g : Nat → Option Byte} (hs : s'.bytes = fill s.bytes off n g) (ht : t'.bytes = fill t.bytes off n g)
    (hle : off + n ≤ extent (Γ x).cfg) :
    Agrees Γ pos (f.store Γ pos (ShareByte Γ pos) x (some s')) { w with mem := fun z => if z = x then some t' else w.mem z } ∧
    ∀ a, ¬ OwnByte Γ pos x a → (f.store Γ pos (ShareByte Γ pos) x (some s')).bytes a = f.bytes a := by
  obtain ⟨o, ho, hs0⟩ : ∃ o, f.objs x = some o ∧ s = ⟨fun j => f.bytes (pos x + j), o.1, o.2⟩ := by
    unfold FlatWorld.look at hl
    rcases e : f.objs x with _ | o
    · rw [e] at hl; cases hl
    · rw [e] at hl; exact ⟨o, rfl, (Option.some.inj hl).symm⟩
  have hb : (f.store Γ pos (ShareByte Γ pos) x (some s')).bytes = fun a => if pos x ≤ a then s'.bytes (a - pos x) else f.bytes a := by
    unfold FlatWorld.store; rw [ho]
  have hobj : (f.store Γ pos (ShareByte Γ pos) x (some s')).objs = fun z => if z = x then some (s'.payload, s'.flag) else f.objs z := by
    unfold FlatWorld.store; rw [ho]; rfl
  have hout : ∀ a, ¬ OwnByte Γ pos x a → (f.store Γ pos (ShareByte Γ pos) x (some s')).bytes a = f.bytes a := by
    intro a hna
    rw [hb]
    dsimp only
    split
    · rename_i hle'
      rw [hs]
      unfold fill
      rw [if_neg (by
        intro hc
        exact hna ⟨hle', by omega⟩), hs0]
      show f.bytes (pos x + (a - pos x)) = _
      rw [Nat.add_sub_cancel' hle']
    · rfl
  refine ⟨⟨?_, ?_, ?_, ?_, ?_, ?_⟩, hout⟩
  · intro z
    rw [hobj]
    dsimp only
    split
    · simp [hp, hf]
    · exact h.objs z
  · intro z u hu j hj
    dsimp only at hu
    by_cases hz : z = x
    · subst hz
      rw [if_pos rfl] at hu
      cases hu
      rw [hb]
      dsimp only
      rw [if_pos (Nat.le_add_right _ _), Nat.add_sub_cancel_left, hs, ht]
      unfold fill
      split
      · rfl
      · exact ha.bytes j hj
    · rw [if_neg hz] at hu
      rw [hout _ fun hr => h.apart z x hz (by rw [hu]; rfl) (by rw [hm]; rfl) ⟨_, ⟨Nat.le_add_right _ _, by omega⟩, hr⟩]
      exact h.bytes z u hu j hj
  · intro y z hyz hy hz
    refine h.apart y z hyz ?_ ?_
    · dsimp only at hy
      split at hy
      · rename_i e; rw [e, hm]; rfl
      · exact hy
    · dsimp only at hz
      split at hz
      · rename_i e; rw [e, hm]; rfl
      · exact hz
  · unfold FlatWorld.store; rw [ho]; exact h.nextObj
  · unfold FlatWorld.store; rw [ho]; exact h.log
  · unfold FlatWorld.store; rw [ho]; exact h.user

/-- Writing, and what follows. -/
theorem sim_write {f : FlatWorld V G} {w : World V G} (h : Agrees Γ pos f w) (hx : W x) {s t s' t' : Storage V}
    (hl : f.look pos x = some s) (hm : w.mem x = some t) (ha : Alike (Γ x).cfg s t) (hp : s'.payload = t'.payload) (hf : s'.flag = t'.flag)
    {off n : Nat} {g : Nat → Option Byte} (hs : s'.bytes = fill s.bytes off n g) (ht : t'.bytes = fill t.bytes off n g)
    (hle : off + n ≤ extent (Γ x).cfg) {k : Steps.M V G α} (hk : Flatly Γ pos W k) :
    FlatSim Γ pos W (.write x (some s') k) (.write x (some t') k) f w := by
  obtain ⟨h1, h2⟩ := stored h hl hm ha hp hf hs ht hle
  rcases hk _ _ h1 with hc | ⟨h3, h4, h5⟩
  · exact .inl hc
  · exact .inr ⟨h3, h4, fun a hna => (h5 a hna).trans (h2 a (hna x hx))⟩

theorem allocate (hx : W x) : Flatly Γ pos W (Steps.allocate x : Steps.M V G Unit) := by
  intro f w h
  have ho := h.objs x
  unfold Steps.allocate
  show FlatSim Γ pos W (match f.look pos x with | none => _ | some _ => _) (match w.mem x with | none => _ | some _ => _) f w
  rcases hm : w.mem x with _ | t
  · have ho' : f.objs x = none := by rw [ho, hm]; rfl
    have hl : f.look pos x = none := by unfold FlatWorld.look; rw [ho']; rfl
    rw [hl]
    show FlatSim Γ pos W (.write x (some .raw) (.done (.ok ()))) (.write x (some .raw) (.done (.ok ()))) f w
    have hb : (f.store Γ pos (ShareByte Γ pos) x (some .raw)).bytes =
        fun a => if pos x ≤ a ∧ a < pos x + (Γ x).cfg.occupied then none else f.bytes a := by
      unfold FlatWorld.store; rw [ho']; rfl
    have hobj : (f.store Γ pos (ShareByte Γ pos) x (some .raw)).objs = fun z => if z = x then some (none, none) else f.objs z := by
      unfold FlatWorld.store; rw [ho']; rfl
    have hcl : (f.store Γ pos (ShareByte Γ pos) x (some .raw)).clash = (f.clash ∨ ∃ y, y ≠ x ∧ (f.objs y).isSome ∧ ShareByte Γ pos x y) := by
      unfold FlatWorld.store; rw [ho']
    by_cases hc : ∃ y, y ≠ x ∧ (f.objs y).isSome ∧ ShareByte Γ pos x y
    · left
      show (f.store Γ pos (ShareByte Γ pos) x (some .raw)).clash
      rw [hcl]
      exact .inr hc
    · have hno : ∀ y, y ≠ x → (w.mem y).isSome → ¬ ShareByte Γ pos x y := fun y hy he ho2 =>
        hc ⟨y, hy, by rw [h.objs y]; simpa using he, ho2⟩
      have hout : ∀ a, ¬ OwnByte Γ pos x a → (f.store Γ pos (ShareByte Γ pos) x (some .raw)).bytes a = f.bytes a := by
        intro a hna
        rw [hb]
        exact if_neg hna
      refine .inr ⟨rfl, ⟨?_, ?_, ?_, ?_, ?_, ?_⟩, fun a hna => hout a (hna x hx)⟩
      · intro z
        show (f.store Γ pos (ShareByte Γ pos) x (some .raw)).objs z = Option.map _ (if z = x then some .raw else w.mem z)
        rw [hobj]
        dsimp only
        split
        · rfl
        · exact h.objs z
      · intro z u hu j hj
        replace hu : (if z = x then some .raw else w.mem z) = some u := hu
        show (f.store Γ pos (ShareByte Γ pos) x (some .raw)).bytes _ = _
        by_cases hz : z = x
        · subst hz
          rw [if_pos rfl] at hu
          cases hu
          rw [hb]
          exact if_pos ⟨Nat.le_add_right _ _, by rw [occupied_eq]; omega⟩
        · rw [if_neg hz] at hu
          rw [hout _ fun hr => hno z hz (by rw [hu]; rfl) ⟨_, hr, ⟨Nat.le_add_right _ _, by omega⟩⟩]
          exact h.bytes z u hu j hj
      · intro y z hyz hy hz
        replace hy : (if y = x then some .raw else w.mem y).isSome := hy
        replace hz : (if z = x then some .raw else w.mem z).isSome := hz
        by_cases ey : y = x
        · rw [if_neg (fun e => hyz (ey.trans e.symm))] at hz
          rw [ey]
          exact hno z (fun e => hyz (ey.trans e.symm)) hz
        · rw [if_neg ey] at hy
          by_cases ez : z = x
          · rw [ez]
            exact fun ⟨a, h1, h2⟩ => hno y ey hy ⟨a, h2, h1⟩
          · rw [if_neg ez] at hz
            exact h.apart y z hyz hy hz
      · show (f.store Γ pos (ShareByte Γ pos) x (some .raw)).nextObj = _
        unfold FlatWorld.store; rw [ho']; exact h.nextObj
      · show (f.store Γ pos (ShareByte Γ pos) x (some .raw)).log = _
        unfold FlatWorld.store; rw [ho']; exact h.log
      · show (f.store Γ pos (ShareByte Γ pos) x (some .raw)).user = _
        unfold FlatWorld.store; rw [ho']; exact h.user
  · have hl : f.look pos x = some ⟨fun j => f.bytes (pos x + j), t.payload, t.flag⟩ := by unfold FlatWorld.look; rw [ho, hm]; rfl
    rw [hl]
    exact done _ f w h

theorem sim_end {f : FlatWorld V G} {w : World V G} (h : Agrees Γ pos f w) {k : Steps.M V G α} (hk : Flatly Γ pos W k) :
    FlatSim Γ pos W (.write x none k) (.write x none k) f w := by
  refine hk (f.store Γ pos (ShareByte Γ pos) x none) { w with mem := fun z => if z = x then none else w.mem z } ⟨?_, ?_, ?_, h.nextObj, h.log, h.user⟩
  · intro z
    show (if z = x then none else f.objs z) = Option.map _ (if z = x then none else w.mem z)
    split
    · rfl
    · exact h.objs z
  · intro z u hu j hj
    dsimp only at hu
    split at hu
    · cases hu
    · exact h.bytes z u hu j hj
  · intro y z hyz hy hz
    dsimp only at hy hz
    split at hy
    · cases hy
    · split at hz
      · cases hz
      · exact h.apart y z hyz hy hz

theorem release : Flatly Γ pos W (Steps.release x : Steps.M V G Unit) := by
  refine read (done _) fun s t f w h hl hm ha => ?_
  rcases s with ⟨sb, sp, sf⟩
  rcases t with ⟨tb, tp, tf⟩
  obtain ⟨e1, e2, _⟩ := ha
  dsimp only at e1 e2
  subst e1 e2
  refine sim_end h ?_
  rcases sp with _ | p <;> rcases sf with _ | q
  · exact done _
  · exact event _ (done _)
  · exact event _ (done _)
  · exact event _ (event _ (done _))

private theorem size_le (c : Config V) : c.size ≤ extent c := by
  unfold extent; split <;> omega

theorem hasValue (hΓ : ∀ x, (Γ x).cfg.WF) : Flatly Γ pos W (Steps.hasValue Γ x) := by
  refine read (done _) fun s t f w h hl hm ha => ?_
  have e := Props.C46_reads (hΓ x) ha.payload ha.flag ha.bytes
  show FlatSim Γ pos W (Steps.liftE ((Γ x).cfg.isEmpty s) >>= fun e => Pure.pure (!e)) (Steps.liftE ((Γ x).cfg.isEmpty t) >>= fun e => Pure.pure (!e)) f w
  rw [e]
  cases (Γ x).cfg.isEmpty t <;> exact done _ f w h

theorem getPayload : Flatly Γ pos W (Steps.getPayload x : Steps.M V G V) := by
  refine read (done _) fun s t f w h hl hm ha => ?_
  show FlatSim Γ pos W (match s.payload with | some p => Pure.pure p.val | none => Steps.ubM .noObject)
    (match t.payload with | some p => Pure.pure p.val | none => Steps.ubM .noObject) f w
  rw [ha.payload]
  cases t.payload <;> exact done _ f w h

theorem setPayload (hx : W x) (v : V) : Flatly Γ pos W (Steps.setPayload (Γ x).cfg x v : Steps.M V G Unit) := by
  refine read (done _) fun s t f w h hl hm ha => ?_
  rcases s with ⟨sb, sp, sf⟩
  rcases t with ⟨tb, tp, tf⟩
  have e1 := ha.payload
  have e2 := ha.flag
  dsimp only at e1 e2
  subst e1 e2
  rcases sp with _ | p
  · exact done _ f w h
  · exact sim_write h hx hl hm ha (by rfl) (by rfl) (by rfl) (by rfl) (by rw [Nat.zero_add]; exact size_le _) (done _)

theorem newPayload (hx : W x) (v : V) : Flatly Γ pos W (Steps.newPayload (Γ x).cfg x v : Steps.M V G Unit) := by
  refine read (done _) fun s t f w h hl hm ha => ?_
  rcases s with ⟨sb, sp, sf⟩
  rcases t with ⟨tb, tp, tf⟩
  have e1 := ha.payload
  have e2 := ha.flag
  dsimp only at e1 e2
  subst e1 e2
  rcases sp with _ | p
  · rcases sf with _ | q
    · exact sim_fresh h fun h' =>
        sim_write h' hx hl hm ha (by rfl) (by rfl) (by rfl) (by rfl) (by rw [Nat.zero_add]; exact size_le _) (event _ (done _))
    · exact done _ f w h
  · exact done _ f w h

theorem destroy (hx : W x) (d : V → G → G) : Flatly Γ pos W (Steps.destroyPayload (Γ x).cfg d x) := by
  refine read (done _) fun s t f w h hl hm ha => ?_
  rcases s with ⟨sb, sp, sf⟩
  rcases t with ⟨tb, tp, tf⟩
  have e1 := ha.payload
  have e2 := ha.flag
  dsimp only at e1 e2
  subst e1 e2
  rcases sp with _ | p
  · exact done _ f w h
  · exact sim_user h _ fun h' =>
      sim_write (off := 0) (n := (Γ x).cfg.size) (g := fun _ => none) h' hx hl hm ha (by rfl) (by rfl) (by rfl) (by rfl) (by rw [Nat.zero_add]; exact size_le _) (event _ (done _))

theorem invalidate (hΓ : ∀ x, (Γ x).cfg.WF) (hx : W x) (d : V → G → G) : Flatly Γ pos W (Steps.invalidateEmptyFlag (Γ x).cfg d x) := by
  have hd := destroy (Γ := Γ) (pos := pos) (W := W) hx d
  unfold Steps.invalidateEmptyFlag
  refine read (done _) fun s t f w h hl hm ha => ?_
  have hin := (hΓ x).inside
  have hs := size_le (Γ x).cfg
  have hfit := (hΓ x).fits
  rcases s with ⟨sb, sp, sf⟩
  rcases t with ⟨tb, tp, tf⟩
  have e1 := ha.payload
  have e2 := ha.flag
  dsimp only at e1 e2
  subst e1 e2
  generalize hmp : (Γ x).cfg.manip = m
  generalize (Γ x).cfg.decomp = dc at hd ⊢
  cases m with
  | separate =>
    refine sim_write (off := (Γ x).cfg.size) (n := 1) (g := fun _ => some 0#8) h hx hl hm ha (by rfl) (by rfl) (by rfl) (by rfl) ?_ (done _)
    rcases hfit with ⟨hd, _⟩ | ⟨_, hd⟩
    · simp [extent, hd]
    · exact absurd hmp hd
  | _ =>
    rcases sf with _ | q
    · rcases sp with _ | p
      · exact done _ f w h
      · cases dc
        · exact done _ f w h
        · exact hd f w h
        · exact done _ f w h
    · exact sim_write (off := (Γ x).cfg.loc.off) (n := (Γ x).cfg.loc.size) (g := fun _ => none) h hx hl hm ha (by rfl) (by rfl) (by rfl) (by rfl)
        (by omega) (event _ (done _))

/-- `init_empty_flag` does the same to both views. -/
private theorem initFlag_alike {c : Config V} (hc : c.WF) (id : Nat) {s t : Storage V} (hp : s.payload = t.payload) (hf : s.flag = t.flag) :
    (∃ k, c.initFlag id s = .error k ∧ c.initFlag id t = .error k) ∨
    ∃ s' t' b off n g, c.initFlag id s = .ok (s', b) ∧ c.initFlag id t = .ok (t', b) ∧ s'.payload = t'.payload ∧ s'.flag = t'.flag ∧
      s'.bytes = fill s.bytes off n g ∧ t'.bytes = fill t.bytes off n g ∧ off + n ≤ extent c := by
  have hs := size_le c
  rcases s with ⟨sb, sp, sf⟩
  rcases t with ⟨tb, tp, tf⟩
  dsimp only at hp hf
  subst hp hf
  unfold Config.initFlag
  cases hmp : c.manip with
  | separate =>
    refine .inr ⟨_, _, _, _, 1, fun _ => some 1#8, rfl, rfl, rfl, rfl, rfl, rfl, ?_⟩
    rcases hc.fits with ⟨hd, _⟩ | ⟨_, hd⟩
    · simp [extent, hd]
    · exact absurd hmp hd
  | memcpy sent =>
    dsimp only
    by_cases h1 : sp.isSome ∨ sf.isSome
    · exact .inl ⟨_, if_pos h1, if_pos h1⟩
    · by_cases h2 : c.size < c.loc.off + sent.length
      · exact .inl ⟨_, by rw [if_neg h1, if_pos h2], by rw [if_neg h1, if_pos h2]⟩
      · simp only [if_neg h1, if_neg h2]
        exact .inr ⟨_, _, _, c.loc.off, sent.length, _, rfl, rfl, rfl, rfl, rfl, rfl, by omega⟩
  | assign sv eq =>
    dsimp only
    by_cases h1 : sp.isSome ∨ sf.isSome
    · exact .inl ⟨_, if_pos h1, if_pos h1⟩
    · by_cases h2 : c.size < c.loc.off + c.loc.size
      · exact .inl ⟨_, by rw [if_neg h1, if_pos h2], by rw [if_neg h1, if_pos h2]⟩
      · simp only [if_neg h1, if_neg h2]
        exact .inr ⟨_, _, _, c.loc.off, c.loc.size, _, rfl, rfl, rfl, rfl, rfl, rfl, by omega⟩
  | custom p ev =>
    dsimp only
    by_cases h1 : sp.isSome ∨ sf.isSome
    · exact .inl ⟨_, if_pos h1, if_pos h1⟩
    · by_cases h2 : c.size < c.loc.off + c.loc.size
      · exact .inl ⟨_, by rw [if_neg h1, if_pos h2], by rw [if_neg h1, if_pos h2]⟩
      · simp only [if_neg h1, if_neg h2]
        exact .inr ⟨_, _, _, c.loc.off, c.loc.size, _, rfl, rfl, rfl, rfl, rfl, rfl, by omega⟩

theorem initEmptyFlag (hΓ : ∀ x, (Γ x).cfg.WF) (hx : W x) : Flatly Γ pos W (Steps.initEmptyFlag (Γ x).cfg x : Steps.M V G Unit) := by
  refine read (done _) fun s t f w h hl hm ha => ?_
  refine sim_fresh h fun h' => ?_
  show FlatSim Γ pos W
    (Steps.liftE ((Γ x).cfg.initFlag w.nextObj s) >>= fun r => Steps.writeStorage x r.1 >>= fun _ =>
      if r.2 then Steps.emit (.flagInit w.nextObj) else Pure.pure ())
    (Steps.liftE ((Γ x).cfg.initFlag w.nextObj t) >>= fun r => Steps.writeStorage x r.1 >>= fun _ =>
      if r.2 then Steps.emit (.flagInit w.nextObj) else Pure.pure ()) _ _
  rcases initFlag_alike (hΓ x) w.nextObj ha.payload ha.flag with ⟨k, e1, e2⟩ | ⟨s', t', b, off, n, g, e1, e2, h1, h2, h3, h4, h5⟩
  · rw [e1, e2]
    exact done _ _ _ h'
  · rw [e1, e2]
    cases b
    · exact sim_write h' hx hl hm ha h1 h2 h3 h4 h5 (done _)
    · exact sim_write h' hx hl hm ha h1 h2 h3 h4 h5 (event _ (done _))

/-- All library code. -/
theorem traverse (hΓ : ∀ x, (Γ x).cfg.WF) (R : Nat → Prop) : Traverse Γ R W (Flatly Γ pos W) where
  done r := done r
  andThen h h' := andThen h h'
  user g _ h := user g h
  hasValue _ := hasValue hΓ
  getPayload _ := getPayload
  setPayload hx v := setPayload hx v
  newPayload hx v := newPayload hx v
  destroy hx := destroy hx _
  invalidate hx := invalidate hΓ hx _
  initEmptyFlag hx := initEmptyFlag hΓ hx
  allocate hx := allocate hx
  release _ := release

end Flatly
end
end Verif.Model
