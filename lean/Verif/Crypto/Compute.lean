import Verif.Basic.Encoding

/-!
# Field and curve arithmetic on natural numbers, for evaluation by the kernel

The functions here compute with representatives modulo `p`; each comes with a lemma that relates it to
the operation of `ZMod p` or of Mathlib's group of points.  Nothing here models code: it is used to
evaluate closed terms in proofs.
-/

namespace Orchard.Compute

/-- `f n`, but the kernel evaluates `n` first. -/
noncomputable def force {α : Type} (n : ℕ) (f : ℕ → α) : α :=
  Nat.rec (motive := fun _ => α) (f 0) (fun k _ => f (Nat.succ k)) n

theorem force_eq {α : Type} (n : ℕ) (f : ℕ → α) : force n f = f n := by cases n <;> rfl

/-! ### Powers -/

/-- The `fuel` low base-16 digits of `n`, most significant first, in front of `acc`. -/
def hexDigits : ℕ → ℕ → List ℕ → List ℕ
  | 0, _, acc => acc
  | fuel + 1, n, acc => hexDigits fuel (n / 16) (n % 16 :: acc)

/-- `acc ^ (16 ^ length l) * a ^ (number with digits l) % m`. -/
noncomputable def powAux (m a : ℕ) (l : List ℕ) : ℕ → ℕ :=
  List.rec (motive := fun _ => ℕ → ℕ) (fun acc => acc)
    (fun d _ ih acc => ih (Nat.mod (Nat.mul (Nat.pow acc 16) (Nat.pow a d)) m)) l

/-- The number with the given base-16 digits, most significant first. -/
def ofHex (l : List ℕ) (n : ℕ) : ℕ := l.foldl (fun n d => 16 * n + d) n

theorem powAux_cast (m a : ℕ) (l : List ℕ) : ∀ (acc n : ℕ), (acc : ZMod m) = (a : ZMod m) ^ n →
    ((powAux m a l acc : ℕ) : ZMod m) = (a : ZMod m) ^ ofHex l n := by
  induction l with
  | nil => intro acc n h; exact h
  | cons d l ih =>
    intro acc n h
    refine ih _ (16 * n + d) ?_
    show ((acc ^ 16 * a ^ d % m : ℕ) : ZMod m) = _
    rw [ZMod.natCast_mod, Nat.cast_mul, Nat.cast_pow, Nat.cast_pow, h, ← pow_mul, ← pow_add,
      mul_comm n 16]

theorem ofHex_hexDigits (fuel : ℕ) : ∀ (n : ℕ) (acc : List ℕ) (k : ℕ), n < 16 ^ fuel →
    ofHex (hexDigits fuel n acc) k = ofHex acc (16 ^ fuel * k + n) := by
  induction fuel with
  | zero =>
    intro n acc k h
    have : n = 0 := by simpa using h
    subst this
    simp [hexDigits]
  | succ fuel ih =>
    intro n acc k h
    rw [hexDigits, ih _ _ _ (by rw [pow_succ] at h; omega)]
    show ofHex acc (16 * _ + n % 16) = _
    congr 1
    have := Nat.div_add_mod n 16
    rw [pow_succ]
    nlinarith

/-- `a ^ e % m` for `e < 2 ^ 256`. -/
noncomputable def pow (m a e : ℕ) : ℕ := powAux m (Nat.mod a m) (hexDigits 64 e []) 1

theorem pow_cast {m e : ℕ} (a : ℕ) (he : e < 16 ^ 64) :
    ((pow m a e : ℕ) : ZMod m) = (a : ZMod m) ^ e := by
  unfold pow
  rw [powAux_cast m _ _ 1 0 (by simp), ofHex_hexDigits 64 e [] 0 he]
  show ((a % m : ℕ) : ZMod m) ^ _ = _
  rw [ZMod.natCast_mod, mul_zero, zero_add]
  rfl

/-! ### Field operations -/

/-- Subtraction modulo `p`. -/
def sub (a b : ℕ) : ℕ := Nat.mod (Nat.add a (Nat.sub p (Nat.mod b p))) p

/-- Multiplication modulo `p`. -/
def mul (a b : ℕ) : ℕ := Nat.mod (Nat.mul a b) p

/-- Addition modulo `p`. -/
def add (a b : ℕ) : ℕ := Nat.mod (Nat.add a b) p

/-- Inversion modulo `p`. -/
noncomputable def inv (a : ℕ) : ℕ := pow p a (p - 2)

/-- Equality modulo `p`. -/
def eq (a b : ℕ) : Bool := Nat.beq (Nat.mod a p) (Nat.mod b p)

theorem add_cast (a b : ℕ) : ((add a b : ℕ) : Fp) = a + b := by
  show ((((a + b) % p : ℕ)) : Fp) = _
  rw [ZMod.natCast_mod, Nat.cast_add]

theorem mul_cast (a b : ℕ) : ((mul a b : ℕ) : Fp) = a * b := by
  show ((((a * b) % p : ℕ)) : Fp) = _
  rw [ZMod.natCast_mod, Nat.cast_mul]

theorem sub_cast (a b : ℕ) : ((sub a b : ℕ) : Fp) = a - b := by
  show ((((a + (p - b % p)) % p : ℕ)) : Fp) = _
  have h : b % p ≤ p := (Nat.mod_lt _ (by decide +kernel)).le
  rw [ZMod.natCast_mod, Nat.cast_add, Nat.cast_sub h, ZMod.natCast_mod, ZMod.natCast_self, zero_sub,
    sub_eq_add_neg]

theorem inv_cast (a : ℕ) : ((inv a : ℕ) : Fp) = (a : Fp)⁻¹ := by
  unfold inv
  rw [pow_cast (m := p) a (by decide +kernel)]
  by_cases h : (a : Fp) = 0
  · rw [h, inv_zero, zero_pow (by decide +kernel)]
  · refine eq_inv_of_mul_eq_one_left ?_
    rw [← pow_succ, show p - 2 + 1 = p - 1 by decide +kernel]
    exact ZMod.pow_card_sub_one_eq_one h

theorem eq_iff (a b : ℕ) : eq a b = true ↔ (a : Fp) = (b : Fp) := by
  unfold eq
  rw [Nat.beq_eq]
  exact (ZMod.natCast_eq_natCast_iff' a b p).symm

theorem eq_false_iff (a b : ℕ) : eq a b = false ↔ (a : Fp) ≠ (b : Fp) := by
  rw [← Bool.not_eq_true, Ne, eq_iff]

/-- Euler's criterion, checked by the kernel. -/
noncomputable def nonSquare (a : ℕ) : Bool := Nat.beq (pow p a ((p - 1) / 2)) (p - 1)

theorem nonSquare_sound {a : ℕ} (h : nonSquare a = true) (y : Fp) : y ^ 2 ≠ (a : Fp) := by
  intro hy
  have h' : pow p a ((p - 1) / 2) = p - 1 := Nat.eq_of_beq_eq_true h
  have hc : (a : Fp) ^ ((p - 1) / 2) = ((p - 1 : ℕ) : Fp) := by
    rw [← pow_cast (m := p) a (by decide +kernel), h']
  have hne : ((p - 1 : ℕ) : Fp) ≠ 0 := by decide +kernel
  have hn1 : ((p - 1 : ℕ) : Fp) ≠ 1 := by decide +kernel
  rw [← hy, ← pow_mul, show 2 * ((p - 1) / 2) = p - 1 by decide +kernel] at hc
  by_cases h0 : y = 0
  · rw [h0, zero_pow (by decide +kernel)] at hc
    exact hne hc.symm
  · rw [ZMod.pow_card_sub_one_eq_one h0] at hc
    exact hn1 hc.symm

/-! ### Points of a curve `y² = x³ + a x + b` -/

/-- An affine point or the identity (`none`). -/
abbrev Pt := Option (ℕ × ℕ)

/-- `pt` holds the coordinates of `P`. -/
def Rep {W : WeierstrassCurve.Affine Fp} : Pt → W.Point → Prop
  | none, P => P = 0
  | some (x, y), P => ∃ h : W.Nonsingular (x : Fp) (y : Fp), P = .some (x : Fp) (y : Fp) h

/-- The third point, given the slope. -/
noncomputable def addWith (l x₁ y₁ x₂ : ℕ) : Pt :=
  force (sub (mul l l) (Nat.add x₁ x₂)) fun x₃ =>
    force (sub (mul l (sub x₁ x₃)) y₁) fun y₃ => some (x₃, y₃)

/-- Addition of points on the curve with coefficient `a`. -/
noncomputable def addPt (a : ℕ) : Pt → Pt → Pt
  | none, t => t
  | some s, none => some s
  | some (x₁, y₁), some (x₂, y₂) =>
    bif eq x₁ x₂ then
      bif eq (Nat.add y₁ y₂) 0 then none
      else
        force (mul (Nat.add (Nat.mul 3 (mul x₁ x₁)) a) (inv (Nat.mul 2 y₁))) fun l =>
          addWith l x₁ y₁ x₂
    else
      force (mul (sub y₁ y₂) (inv (sub x₁ x₂))) fun l => addWith l x₁ y₁ x₂

open WeierstrassCurve.Affine in
theorem rep_addPt {a : ℕ} {W : WeierstrassCurve.Affine Fp} (h1 : W.a₁ = 0) (h2 : W.a₂ = 0)
    (h3 : W.a₃ = 0) (h4 : W.a₄ = a) {s t : Pt} {P Q : W.Point} (hs : Rep s P) (ht : Rep t Q) :
    Rep (addPt a s t) (P + Q) := by
  rcases s with _ | ⟨x₁, y₁⟩
  · rw [show P = 0 from hs, zero_add]; exact ht
  rcases t with _ | ⟨x₂, y₂⟩
  · rw [show Q = 0 from ht, add_zero]; exact hs
  obtain ⟨n1, rfl⟩ := hs
  obtain ⟨n2, rfl⟩ := ht
  have hneg : ∀ x y : Fp, W.negY x y = -y := by intro x y; simp [negY, h1, h3]
  have key : ∀ l : ℕ, (l : Fp) = W.slope (x₁ : Fp) x₂ y₁ y₂ →
      ∀ hxy : ¬ ((x₁ : Fp) = x₂ ∧ (y₁ : Fp) = W.negY x₂ y₂),
      Rep (addWith l x₁ y₁ x₂) (Point.some (x₁ : Fp) (y₁ : Fp) n1 + Point.some (x₂ : Fp) (y₂ : Fp) n2) := by
    intro l hl hxy
    unfold addWith
    rw [force_eq, force_eq]
    have hX : ((sub (mul l l) (Nat.add x₁ x₂) : ℕ) : Fp) =
        W.addX (x₁ : Fp) x₂ (W.slope (x₁ : Fp) x₂ y₁ y₂) := by
      rw [sub_cast, mul_cast, show Nat.add x₁ x₂ = x₁ + x₂ from rfl, Nat.cast_add, ← hl]
      simp [addX, h1, h2]
      ring
    have hY : ((sub (mul l (sub x₁ (sub (mul l l) (Nat.add x₁ x₂)))) y₁ : ℕ) : Fp) =
        W.addY (x₁ : Fp) x₂ y₁ (W.slope (x₁ : Fp) x₂ y₁ y₂) := by
      rw [sub_cast, mul_cast, sub_cast, hX, addY, negAddY, hneg, ← hl]
      ring
    rw [Point.add_some hxy]
    refine ⟨?_, ?_⟩
    · rw [hX, hY]; exact nonsingular_add n1 n2 hxy
    · simp only [Point.some.injEq]
      exact ⟨hX.symm, hY.symm⟩
  dsimp only [addPt]
  cases hx : eq x₁ x₂ with
  | true =>
    rw [eq_iff] at hx
    rw [cond_true]
    cases hy : eq (Nat.add y₁ y₂) 0 with
    | true =>
      rw [cond_true]
      rw [eq_iff, show Nat.add y₁ y₂ = y₁ + y₂ from rfl, Nat.cast_add, Nat.cast_zero] at hy
      exact Point.add_of_Y_eq hx (by rw [hneg]; exact eq_neg_of_add_eq_zero_left hy)
    | false =>
      rw [cond_false, force_eq]
      rw [eq_false_iff, show Nat.add y₁ y₂ = y₁ + y₂ from rfl, Nat.cast_add, Nat.cast_zero] at hy
      have hyn : (y₁ : Fp) ≠ W.negY x₂ y₂ := by
        rw [hneg]; intro h; exact hy (by rw [h]; ring)
      refine key _ ?_ (fun h => hyn h.2)
      have hyy : (y₁ : Fp) = y₂ := by
        have := Y_eq_of_Y_ne n1.1 n2.1 hx hyn
        exact this
      rw [slope_of_Y_ne hx hyn, mul_cast, inv_cast, hneg, h1, h2, h4, div_eq_mul_inv,
        show Nat.add (Nat.mul 3 (mul x₁ x₁)) a = 3 * mul x₁ x₁ + a from rfl,
        show Nat.mul 2 y₁ = 2 * y₁ from rfl]
      push_cast
      rw [mul_cast]
      congr 1
      · ring
      · congr 1; ring
  | false =>
    rw [eq_false_iff] at hx
    rw [cond_false, force_eq]
    refine key _ ?_ (fun h => hx h.1)
    rw [slope_of_X_ne hx, mul_cast, inv_cast, sub_cast, sub_cast, div_eq_mul_inv]

/-- Coordinates determine the point. -/
theorem rep_unique {W : WeierstrassCurve.Affine Fp} {t : Pt} {P Q : W.Point} (hP : Rep t P) (hQ : Rep t Q) :
    P = Q := by
  rcases t with _ | ⟨x, y⟩
  · exact (show P = 0 from hP).trans (show Q = 0 from hQ).symm
  · obtain ⟨h, rfl⟩ := hP
    obtain ⟨h', rfl⟩ := hQ
    rfl

/-- The coordinates of a point of Pallas. -/
theorem rep_ofXY {x y : ℕ} {P : Point} : Rep (some (x, y)) P ↔
    ∃ h : (y : Fp) ^ 2 = (x : Fp) ^ 3 + 5, P = Point.ofXY x y h := by
  constructor
  · rintro ⟨h, rfl⟩
    exact ⟨(pallas_nonsingular_iff _ _).1 h, rfl⟩
  · rintro ⟨h, rfl⟩
    exact ⟨(pallas_nonsingular_iff _ _).2 h, rfl⟩

theorem rep_add {s t : Pt} {P Q : Point} (hs : Rep s P) (ht : Rep t Q) : Rep (addPt 0 s t) (P + Q) :=
  rep_addPt rfl rfl rfl (by simp [pallas]) hs ht

/-- Negation. -/
def negPt : Pt → Pt
  | none => none
  | some (x, y) => some (x, sub 0 y)

theorem rep_neg {s : Pt} {P : Point} (hs : Rep s P) : Rep (negPt s) (-P) := by
  rcases s with _ | ⟨x, y⟩
  · rw [show P = 0 from hs, neg_zero]; rfl
  · obtain ⟨h, rfl⟩ := rep_ofXY.1 hs
    rw [Point.neg_ofXY]
    have hc : ((sub 0 y : ℕ) : Fp) = -(y : Fp) := by rw [sub_cast]; simp
    refine rep_ofXY.2 ⟨by rw [hc, neg_sq]; exact h, ?_⟩
    rw [Point.ofXY_inj]
    exact ⟨rfl, hc.symm⟩

end Orchard.Compute
