import Mathlib.NumberTheory.LucasPrimality
import Mathlib.Tactic.NormNum.Prime

/-!
# Primality certificates evaluated by the kernel

Generic number theory used to prove that the Pallas moduli are prime.
-/

namespace Orchard.Pratt

/-- `acc * a ^ n % m` by binary exponentiation, structurally recursive on the fuel. -/
def powModAux (m : ℕ) : ℕ → ℕ → ℕ → ℕ → ℕ
  | 0, _, _, acc => acc
  | fuel + 1, a, n, acc =>
    powModAux m fuel (a * a % m) (n / 2) (bif Nat.beq (n % 2) 1 then acc * a % m else acc)

/-- `a ^ n % m` for `n < 2 ^ 256`. -/
def powMod (a n m : ℕ) : ℕ := powModAux m 256 (a % m) n (1 % m)

theorem powModAux_eq (m fuel : ℕ) : ∀ (a n acc : ℕ), n < 2 ^ fuel → acc % m = acc →
    powModAux m fuel a n acc = acc * a ^ n % m := by
  induction fuel with
  | zero =>
    intro a n acc hn hacc
    have : n = 0 := by simpa using hn
    subst this
    simp [powModAux, hacc]
  | succ fuel ih =>
    intro a n acc hn hacc
    have hn2 : n / 2 < 2 ^ fuel := by rw [pow_succ] at hn; omega
    rw [powModAux]
    have h2 : n = 2 * (n / 2) + n % 2 := by omega
    rcases Nat.mod_two_eq_zero_or_one n with h | h
    · rw [h] at h2
      simp only [h]
      rw [show Nat.beq 0 1 = false from rfl]
      simp only [cond_false]
      rw [ih _ _ _ hn2 hacc]
      conv_rhs => rw [h2, add_zero, pow_mul, pow_two]
      rw [Nat.mul_mod, ← Nat.pow_mod, ← Nat.mul_mod]
    · rw [h] at h2
      simp only [h]
      rw [show Nat.beq 1 1 = true from rfl]
      simp only [cond_true]
      rw [ih _ _ _ hn2 (by simp)]
      conv_rhs => rw [h2, pow_add, pow_mul, pow_two, pow_one]
      have : acc * ((a * a) ^ (n / 2) * a) = (acc * a) * (a * a) ^ (n / 2) := by ring
      rw [this, Nat.mul_mod, ← Nat.pow_mod, Nat.mod_mod, ← Nat.mul_mod]

theorem powMod_eq (a n m : ℕ) (hn : n < 2 ^ 256) : powMod a n m = a ^ n % m := by
  rw [powMod, powModAux_eq m 256 _ _ _ hn (by simp)]
  rw [Nat.mul_mod, ← Nat.pow_mod, Nat.mod_mod, ← Nat.mul_mod, one_mul]

/-- Boolean check of a Lucas certificate: witness `a`, prime factors `fs` of `n - 1`. -/
def lucasCheck (n a : ℕ) (fs : List ℕ) : Bool :=
  Nat.blt 1 n && Nat.blt n (2 ^ 256) && Nat.beq fs.prod (n - 1) &&
    Nat.beq (powMod a (n - 1) n) 1 &&
    fs.all (fun r => !(Nat.beq (powMod a ((n - 1) / r) n) 1))

theorem prime_of_lucasCheck (n a : ℕ) (fs : List ℕ) (hfs : ∀ r ∈ fs, r.Prime)
    (h : lucasCheck n a fs = true) : n.Prime := by
  simp only [lucasCheck, Bool.and_eq_true, Nat.blt_eq, Nat.beq_eq, List.all_eq_true,
    Bool.not_eq_true'] at h
  obtain ⟨⟨⟨⟨h1, h2⟩, hprod⟩, hone⟩, hall⟩ := h
  have hmod : 1 % n = 1 := Nat.mod_eq_of_lt h1
  refine lucas_primality n (a : ZMod n) ?_ ?_
  · rw [powMod_eq _ _ _ (by omega)] at hone
    have : ((a ^ (n - 1) : ℕ) : ZMod n) = ((1 : ℕ) : ZMod n) := by
      rw [ZMod.natCast_eq_natCast_iff']; rw [hone, hmod]
    simpa using this
  · intro r hr hdvd heq
    rw [← hprod] at hdvd
    obtain ⟨s, hs, hrs⟩ := (Prime.dvd_prod_iff hr.prime).1 hdvd
    have hrs' : r = s := (Nat.prime_dvd_prime_iff_eq hr (hfs s hs)).1 hrs
    subst hrs'
    have hne := hall r hs
    rw [powMod_eq _ _ _ (lt_of_le_of_lt (Nat.div_le_self _ _) (by omega))] at hne
    have : ((a ^ ((n - 1) / r) : ℕ) : ZMod n) = ((1 : ℕ) : ZMod n) := by
      simpa using heq
    rw [ZMod.natCast_eq_natCast_iff', hmod] at this
    rw [this] at hne
    exact absurd hne (by decide)

end Orchard.Pratt
