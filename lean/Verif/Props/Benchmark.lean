import Verif.Lemmas.Benchmark
import Verif.Props.Bits
import Verif.Props.ProvenanceReentrant

/-!
# C90: the benchmark measures the same work
-/

namespace Verif.Props
open Verif Verif.Model Verif.Model.Benchmark Verif.Spec Verif.Spec.Benchmark
open Verif.Examples (scalarOps scalarOps_lawful)

variable {V G : Type}

/-- C90. What the program does with `std::optional`: for every payload type with the operations of a scalar, in particular `double`. The
result is the number of missing coordinates and the total; all optionals are gone afterwards. -/
theorem C90_std (b : Basis V G) (modulo n m : Nat) (g : G) (lim : Re.Limits) :
    let rs := (drawRows b.rng b.ofNat modulo n g).1
    let end_ := specProg (fun _ => scalarOps) lim [] (tester b modulo n m) (.init g)
    end_.1 = .ok (missing rs, total (b.ofNat 0) b.add b.mul rs m) ∧ end_.2.vars = (fun _ => none) ∧
      end_.2.user = (drawRows b.rng b.ofNat modulo n g).2 := by
  obtain ⟨tr, h⟩ := runs_tester (lim := lim) (b := b) (modulo := modulo) (n := n) (m := m) (g := g) []
  dsimp only
  rw [SWorld.init, h]
  exact ⟨rfl, rfl, rfl⟩

/-! ### No reserved value is stored -/

section
variable {b : Basis V G} {D : V → Prop} {α : Type} {Q : α → Prop}

private abbrev K (D : V → Prop) {α : Type} (p : Verif.Prog V G α) (Q : α → Prop) : Prop := p.Keeps (fun _ => scalarOps) (fun _ => D) Q

private theorem keeps_copy : KeepsCopy (scalarOps : Ops V G) D D :=
  ⟨fun _ _ _ h e => by cases e; exact h, fun _ _ _ _ h => h, fun _ _ h => h⟩
private theorem keeps_move : KeepsMove (scalarOps : Ops V G) D D :=
  ⟨fun _ _ _ h e => by cases e; exact h, fun _ _ h => h, fun _ _ _ _ h => ⟨h, h⟩, fun _ _ h => h⟩

private theorem keeps_use {op : Op V G} {k : Obs V → Verif.Prog V G α} (h : OpKeeps (fun _ => scalarOps) (fun _ => D) op)
    (hk : ∀ o, ResultIn (fun _ => scalarOps) (fun _ => D) op (.ok o) → K D (k o) Q) : K D (use op k) Q :=
  ⟨h, fun r hr => by
    cases r with
    | ok o => exact hk o hr
    | error e => exact nofun⟩

private theorem keeps_ret {a : α} (h : Q a) : K D (.ret (.ok a) : Verif.Prog V G α) Q := fun _ e => by cases e; exact h

private theorem keeps_stmt {op : Op V G} {k : Verif.Prog V G α} (h : OpKeeps (fun _ => scalarOps) (fun _ => D) op) (hk : K D k Q) : K D (stmt op k) Q :=
  keeps_use h fun _ _ => hk

private theorem keeps_generate (ho : ∀ n, D (b.ofNat n)) {modulo x : Nat} {k : Verif.Prog V G α} (hk : K D k Q) : K D (generate b modulo x k) Q := by
  intro g
  show K D (if (b.rng g).1 % modulo = 0 then _ else _) Q
  split
  · exact keeps_stmt trivial hk
  · refine ⟨fun a ha => by cases ha; exact ho _, fun r => ?_⟩
    cases r with
    | ok _ => exact hk
    | error e => exact nofun

private theorem keeps_count {x nulls : Nat} {k : Nat → Verif.Prog V G α} (hk : ∀ n, K D (k n) Q) : K D (countIfEmpty x nulls k) Q :=
  keeps_use trivial fun o _ => by cases o <;> exact hk _

private theorem keeps_fill (ho : ∀ n, D (b.ofNat n)) {modulo : Nat} {k : Nat → Verif.Prog V G α} (hk : ∀ n, K D (k n) Q) :
    ∀ n i nulls, K D (fill b modulo n i nulls k) Q
  | 0, _, nulls => hk nulls
  | n + 1, i, nulls => by
    refine keeps_generate ho (keeps_generate ho (keeps_generate ho (keeps_stmt keeps_copy (keeps_stmt keeps_copy (keeps_stmt keeps_copy
      (keeps_stmt trivial (keeps_stmt keeps_move (keeps_stmt keeps_move (keeps_stmt keeps_move (keeps_stmt keeps_move
      (keeps_stmt trivial (keeps_stmt trivial (keeps_stmt trivial (keeps_stmt trivial ?_))))))))))))))
    exact keeps_count fun _ => keeps_count fun _ => keeps_count fun _ =>
      keeps_stmt trivial (keeps_stmt trivial (keeps_stmt trivial (keeps_fill ho hk n _ _)))

private theorem keeps_orZero (ho : ∀ n, D (b.ofNat n)) {x : Nat} {k : V → Verif.Prog V G α} (hk : ∀ v, D v → K D (k v) Q) : K D (orZero b x k) Q := by
  refine keeps_use nofun fun o h => ?_
  cases o with
  | val v =>
    rcases h v rfl with ⟨g, hg⟩ | ⟨u, g, hu, hg⟩
    · cases hg; exact hk _ (ho 0)
    · cases hg; exact hk _ hu
  | _ => exact hk _ (ho 0)

private theorem keeps_emplaceLength (ho : ∀ n, D (b.ofNat n)) (ha : ∀ u v, D u → D v → D (b.add u v)) (hm : ∀ u v, D u → D v → D (b.mul u v))
    {i : Nat} {k : Verif.Prog V G α} (hk : K D k Q) : K D (emplaceLength b i k) Q :=
  keeps_orZero ho fun _ hx => keeps_orZero ho fun _ hy => keeps_orZero ho fun _ hz =>
    keeps_stmt (fun _ _ h => by cases h; exact ha _ _ (ha _ _ (hm _ _ hx hx) (hm _ _ hy hy)) (hm _ _ hz hz)) hk

private theorem keeps_ifHas {x : Nat} {yes no : Verif.Prog V G α} (h1 : K D yes Q) (h2 : K D no Q) : K D (ifHas x yes no) Q :=
  keeps_use trivial fun o _ => by
    cases o with
    | bool c => cases c <;> assumption
    | _ => exact h2

private theorem keeps_lengths (ho : ∀ n, D (b.ofNat n)) (ha : ∀ u v, D u → D v → D (b.add u v)) (hm : ∀ u v, D u → D v → D (b.mul u v))
    {k : Verif.Prog V G α} (hk : K D k Q) : ∀ n i, K D (lengths b n i k) Q
  | 0, _ => hk
  | n + 1, i =>
    have next := keeps_lengths ho ha hm hk n (i + 1)
    have e := keeps_emplaceLength (i := i) ho ha hm next
    keeps_ifHas e (keeps_ifHas e (keeps_ifHas e next))

private theorem keeps_sum (ho : ∀ n, D (b.ofNat n)) (ha : ∀ u v, D u → D v → D (b.add u v)) {k : V → Verif.Prog V G α}
    (hk : ∀ t, D t → K D (k t) Q) : ∀ n i t, D t → K D (sum b n i t k) Q
  | 0, _, t, ht => hk t ht
  | n + 1, i, _, ht => keeps_orZero ho fun _ hl => keeps_sum ho ha hk n (i + 1) _ (ha _ _ ht hl)

private theorem keeps_iterations (ho : ∀ n, D (b.ofNat n)) (ha : ∀ u v, D u → D v → D (b.add u v)) (hm : ∀ u v, D u → D v → D (b.mul u v))
    {n : Nat} {k : V → Verif.Prog V G α} (hk : ∀ t, D t → K D (k t) Q) : ∀ m t, D t → K D (iterations b n m t k) Q
  | 0, t, ht => hk t ht
  | m + 1, _, ht => keeps_lengths ho ha hm (keeps_sum ho ha (fun _ hs => keeps_iterations ho ha hm hk m _ (ha _ _ ht hs)) n 0 _ (ho 0)) n 0

private theorem keeps_clear {k : Verif.Prog V G α} (hk : K D k Q) : ∀ n i, K D (clear n i k) Q
  | 0, _ => hk
  | n + 1, i => keeps_stmt trivial (keeps_stmt trivial (keeps_stmt trivial (keeps_stmt trivial (keeps_clear hk n (i + 1)))))

/-- C90. If conversions from integers make values of a set, and sums and products of such values are in it, then all values that the program
stores, and the total, are in it. -/
theorem C90_keeps (ho : ∀ n, D (b.ofNat n)) (ha : ∀ u v, D u → D v → D (b.add u v)) (hm : ∀ u v, D u → D v → D (b.mul u v)) (modulo n m : Nat) :
    (tester b modulo n m).Keeps (fun _ => scalarOps) (fun _ => D) fun r => D r.2 :=
  keeps_fill ho (fun _ => keeps_iterations ho ha hm (fun t ht => keeps_clear (keeps_ret (a := (_, t)) (Q := fun r => D r.2) ht) n 0) m _ (ho 0)) n 0 0

end

/-! ### The two halves -/

private theorem ok_use {Γ : Env V G} {α : Type} {op : Op V G} {k : Obs V → Verif.Prog V G α} (h : OpOK Γ op) (hk : ∀ o, ProgOK Γ (k o)) :
    ProgOK Γ (use op k) :=
  ⟨h, fun r => by
    cases r with
    | ok o => exact hk o
    | error e => exact trivial⟩

section
variable {α : Type} {Γ : Env V G} {b : Basis V G} (hΓ : ∀ x y, Γ x = Γ y)

private theorem ok_ret {r : Except Exn α} : ProgOK Γ (.ret r : Verif.Prog V G α) := trivial

private theorem ok_stmt {op : Op V G} {k : Verif.Prog V G α} (h : OpOK Γ op) (hk : ProgOK Γ k) : ProgOK Γ (stmt op k) := ok_use h fun _ => hk

private theorem ok_generate {modulo x : Nat} {k : Verif.Prog V G α} (hk : ProgOK Γ k) : ProgOK Γ (generate b modulo x k) := by
  intro g
  dsimp only
  split
  · exact ok_stmt trivial hk
  · refine ⟨trivial, fun r => ?_⟩
    cases r with
    | ok _ => exact hk
    | error e => exact trivial

private theorem ok_count {x nulls : Nat} {k : Nat → Verif.Prog V G α} (hk : ∀ n, ProgOK Γ (k n)) : ProgOK Γ (countIfEmpty x nulls k) :=
  ok_use trivial fun o => by cases o <;> exact hk _

include hΓ in
private theorem ok_fill {modulo : Nat} {k : Nat → Verif.Prog V G α} (hk : ∀ n, ProgOK Γ (k n)) : ∀ n i nulls, ProgOK Γ (fill b modulo n i nulls k)
  | 0, _, nulls => hk nulls
  | n + 1, i, nulls => by
    have c : ∀ x y, OpOK Γ (.ctorCopy x y) := fun x y => by first | exact hΓ x y | exact trivial | simp [OpOK, hΓ x y]
    have d : ∀ x y, OpOK Γ (.ctorMove x y) := fun x y => by first | exact hΓ x y | exact trivial | simp [OpOK, hΓ x y]
    refine ok_generate (ok_generate (ok_generate (ok_stmt (c _ _) (ok_stmt (c _ _) (ok_stmt (c _ _)
      (ok_stmt trivial (ok_stmt (d _ _) (ok_stmt (d _ _) (ok_stmt (d _ _) (ok_stmt (d _ _)
      (ok_stmt trivial (ok_stmt trivial (ok_stmt trivial (ok_stmt trivial ?_))))))))))))))
    exact ok_count fun _ => ok_count fun _ => ok_count fun _ => ok_stmt trivial (ok_stmt trivial (ok_stmt trivial (ok_fill hk n _ _)))

private theorem ok_orZero {x : Nat} {k : V → Verif.Prog V G α} (hk : ∀ v, ProgOK Γ (k v)) : ProgOK Γ (orZero b x k) :=
  ok_use trivial fun o => by cases o <;> exact hk _

private theorem ok_emplaceLength {i : Nat} {k : Verif.Prog V G α} (hk : ProgOK Γ k) : ProgOK Γ (emplaceLength b i k) :=
  ok_orZero fun _ => ok_orZero fun _ => ok_orZero fun _ => ok_stmt (fun _ _ => ⟨_, rfl⟩) hk

private theorem ok_ifHas {x : Nat} {yes no : Verif.Prog V G α} (h1 : ProgOK Γ yes) (h2 : ProgOK Γ no) : ProgOK Γ (ifHas x yes no) :=
  ok_use trivial fun o => by
    cases o with
    | bool c => cases c <;> assumption
    | _ => exact h2

private theorem ok_lengths {k : Verif.Prog V G α} (hk : ProgOK Γ k) : ∀ n i, ProgOK Γ (lengths b n i k)
  | 0, _ => hk
  | n + 1, i =>
    have next := ok_lengths hk n (i + 1)
    have e := ok_emplaceLength (b := b) (i := i) next
    ok_ifHas e (ok_ifHas e (ok_ifHas e next))

private theorem ok_sum {k : V → Verif.Prog V G α} (hk : ∀ t, ProgOK Γ (k t)) : ∀ n i t, ProgOK Γ (sum b n i t k)
  | 0, _, t => hk t
  | n + 1, i, _ => ok_orZero fun _ => ok_sum hk n (i + 1) _

private theorem ok_iterations {n : Nat} {k : V → Verif.Prog V G α} (hk : ∀ t, ProgOK Γ (k t)) : ∀ m t, ProgOK Γ (iterations b n m t k)
  | 0, t => hk t
  | m + 1, _ => ok_lengths (ok_sum (fun _ => ok_iterations hk m _) n 0 _) n 0

private theorem ok_clear {k : Verif.Prog V G α} (hk : ProgOK Γ k) : ∀ n i, ProgOK Γ (clear n i k)
  | 0, _ => hk
  | n + 1, i => ok_stmt trivial (ok_stmt trivial (ok_stmt trivial (ok_stmt trivial (ok_clear hk n (i + 1)))))

include hΓ in
private theorem ok_tester (modulo n m : Nat) : ProgOK Γ (tester b modulo n m) :=
  ok_fill hΓ (fun _ => ok_iterations (fun _ => ok_clear ok_ret n 0) m _) n 0 0

end

/-- The arithmetic of `double` as far as it matters: conversions from integers are numbers; sums and products are results that the
instructions of the processor may have, in any rounding mode. -/
structure DoubleArith (b : Basis (BitVec 64) G) : Prop where
  ofNat : ∀ n, ¬ binary64.IsNaN (b.ofNat n)
  add : ∀ u v, binary64.Yields [u, v] (b.add u v)
  mul : ∀ u v, binary64.Yields [u, v] (b.mul u v)

/-- Variables of type `tiny::optional<double>`. -/
def doubleEnv (G : Type) (nd : Bool) : Env (BitVec 64) G := fun _ => ⟨doubleCfg nd, scalarOps⟩

/-- C90. With `tiny::optional<double>` the program has the result and the effects that `C90_std` states for `std::optional<double>`: it ends
normally (no undefined behaviour, no failing assertion, no exception), no optional is left, nothing is leaked. -/
theorem C90_tiny {b : Basis (BitVec 64) G} (hb : DoubleArith b) (nd : Bool) (modulo n m : Nat) (g : G) :
    let rs := (drawRows b.rng b.ofNat modulo n g).1
    let end_ := runProg (doubleEnv G nd) (tester b modulo n m) (.init g)
    end_.1 = .ok (missing rs, total (b.ofNat 0) b.add b.mul rs m) ∧ (∀ x, Absent x end_.2) ∧
      end_.2.user = (drawRows b.rng b.ofNat modulo n g).2 ∧ ∀ id, leaked end_.2.log id = 0 := by
  intro rs end_
  have hk := C90_keeps (b := b) (D := fun v => Computes (fun _ => False) (.d v)) (fun k => .numD _ (hb.ofNat k))
    (fun u v hu hv => .opD [u, v] _ (by simpa using ⟨hu, hv⟩) (hb.add u v)) (fun u v hu hv => .opD [u, v] _ (by simpa using ⟨hu, hv⟩) (hb.mul u v))
    modulo n m
  obtain ⟨s1, s2, s3⟩ := C90_std b modulo n m g (exclusions (doubleEnv G nd))
  have hst : ∀ (x : Nat) v, Computes (fun _ => False) (.d v) → (doubleEnv G nd x).cfg.Storable v := fun x v hv =>
    (C25_default_inputs (init := fun _ => False) nofun nofun nd).1 v hv
  have key := C85_drop_in_reentrant (Γ := doubleEnv G nd) (g := g) (p := tester b modulo n m) ⟨fun _ => (C22_wf nd).1, fun _ => scalarOps_lawful⟩
    hst hk (ok_tester (fun _ _ => rfl) modulo n m) (Prod.eta _).symm (by
      show (specProg (fun _ => scalarOps) (exclusions (doubleEnv G nd)) [] (tester b modulo n m) (.init g)).1 ≠ _
      rw [s1]; exact nofun)
  obtain ⟨k1, k2, k3⟩ := key
  refine ⟨k1.trans ?_, fun x => ((k2.2 x).1).2 ?_, k2.1.trans s3, k3⟩
  · show SResToRes (specProg (fun _ => scalarOps) (exclusions (doubleEnv G nd)) [] (tester b modulo n m) (.init g)).1 = _
    rw [s1]; rfl
  · show (specProg (fun _ => scalarOps) (exclusions (doubleEnv G nd)) [] (tester b modulo n m) (.init g)).2.vars x = none
    rw [s2]

/-- C90. Hence both halves of the benchmark count and compute the same. -/
theorem C90_same {b : Basis (BitVec 64) G} (hb : DoubleArith b) (nd : Bool) (modulo n m : Nat) (g : G) :
    (runProg (doubleEnv G nd) (tester b modulo n m) (.init g)).1 =
      SResToRes (specProg (fun _ => scalarOps) Re.Limits.none [] (tester b modulo n m) (.init g)).1 := by
  rw [(C90_tiny hb nd modulo n m g).1, (C90_std b modulo n m g Re.Limits.none).1]
  rfl

/-! ### An example -/

/-- Doubles that are not negative integers, rounding towards zero: the representation of `n`, and the integer part. -/
private def enc (n : Nat) : BitVec 64 :=
  if n = 0 then 0 else BitVec.ofNat 64 (min ((1023 + n.log2) * 2 ^ 52 + (n * 2 ^ 52 / 2 ^ n.log2 - 2 ^ 52)) (2047 * 2 ^ 52))
private def dec (v : BitVec 64) : Nat :=
  if v = 0 then 0 else (2 ^ 52 + v.toNat % 2 ^ 52) * 2 ^ (v.toNat / 2 ^ 52) / 2 ^ 1075

/-- With a small linear congruential generator. -/
private def exBasis : Basis (BitVec 64) Nat :=
  ⟨fun g => (g, (1103515245 * g + 12345) % 2 ^ 32), enc, fun u v => enc (dec u + dec v), fun u v => enc (dec u * dec v)⟩

private theorem enc_number (n : Nat) : ¬ binary64.IsNaN (enc n) := by
  have hle : (enc n).toNat ≤ 2047 * 2 ^ 52 := by
    unfold enc
    split
    · decide
    · rw [BitVec.toNat_ofNat]
      exact Nat.le_trans (Nat.mod_le _ _) (Nat.min_le_right _ _)
  rintro ⟨h1, h2⟩
  apply h2
  have e1 : (binary64.exponent (enc n)).toNat = (enc n).toNat / 2 ^ 52 % 2 ^ 11 := by
    simp [Fmt.exponent, binary64, BitVec.extractLsb'_toNat, Nat.shiftRight_eq_div_pow]
  rw [h1] at e1
  have e2 : (2047 : Nat) = (enc n).toNat / 2 ^ 52 % 2 ^ 11 := by
    rw [← e1]; decide
  apply BitVec.eq_of_toNat_eq
  have e3 : (binary64.mantissa (enc n)).toNat = (enc n).toNat % 2 ^ 52 := by
    simp [Fmt.mantissa, binary64, BitVec.extractLsb'_toNat]
  rw [e3]
  show (enc n).toNat % 2 ^ 52 = 0
  omega

private theorem exBasis_double : DoubleArith exBasis :=
  ⟨enc_number, fun _ _ => .number _ (enc_number _), fun _ _ => .number _ (enc_number _)⟩

/-- Three rows, two iterations, seed 42: the random numbers divisible by 3 are missing. The integers up to 2^53 are exact. -/
example := C90_same exBasis_double false 3 3 2 42

example : (drawRows exBasis.rng exBasis.ofNat 3 3 42).1 =
    [⟨none, some (enc 3397979675), some (enc 3263785912)⟩, ⟨some (enc 3148160401), none, none⟩,
      ⟨some (enc 2219150180), some (enc 3043819981), some (enc 3884214914)⟩] ∧
    missing (drawRows exBasis.rng exBasis.ofNat 3 3 42).1 = 3 := by decide +kernel

example : enc 1 = 0x3ff0000000000000 ∧ enc 3 = 0x4008000000000000 ∧ enc (2 ^ 53 + 2) = 0x4340000000000001 ∧ dec (enc 123456789) = 123456789 ∧
    enc (2 ^ 1024) = 0x7ff0000000000000 := by decide +kernel

example : total (enc 0) exBasis.add exBasis.mul (drawRows exBasis.rng enc 3 2 42).1 1 ≠ enc 0 := by decide +kernel

/-- Arithmetic that no processor has: with sums that are the reserved bit pattern, `emplace` fails its assertion, and without assertions the
total differs from the one with `std::optional`. -/
private def badBasis : Basis (BitVec 64) Nat := ⟨fun g => (1, g), BitVec.ofNat 64, fun _ v => if v = 1 then sentinelDouble else v, fun u _ => u⟩
example : (runProg (doubleEnv Nat false) (tester badBasis 3 1 1) (.init 0)).1 = .abort .assertFail ∧
    (runProg (doubleEnv Nat true) (tester badBasis 3 1 1) (.init 0)).1 = .ok (0, 0) ∧
    (specProg (fun _ => scalarOps) Re.Limits.none [] (tester badBasis 3 1 1) (.init 0)).1 = .ok (0, sentinelDouble) := by decide +kernel

end Verif.Props
