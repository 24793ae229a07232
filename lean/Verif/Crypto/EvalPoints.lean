import Verif.Crypto.EvalBlake2b
import Verif.Crypto.EvalHashToCurve

/-!
# Evaluating hashes to the curve in the kernel, with packed messages

Nothing here models code.
-/

namespace Orchard.Compute

open HashToCurve

/-- Reverse the `k` low bytes of `n`, in front of `acc`. -/
noncomputable def revK (k : ℕ) : ℕ → ℕ → ℕ :=
  Nat.rec (motive := fun _ => ℕ → ℕ → ℕ) (fun _ acc => acc)
    (fun _ ih n acc => force (Nat.div n 256) fun n' => force (Nat.add (Nat.mul acc 256) (Nat.mod n 256)) fun acc' =>
      ih n' acc') k

theorem revK_eq (k : ℕ) : ∀ n acc : ℕ, revK k n acc = leNat (leBytes k n).reverse + 256 ^ k * acc := by
  induction k with
  | zero => intro n acc; simp [revK, leBytes, leNat]
  | succ k ih =>
    intro n acc
    have h : revK (k + 1) n acc = force (Nat.div n 256) fun n' =>
      force (Nat.add (Nat.mul acc 256) (Nat.mod n 256)) fun acc' => revK k n' acc' := rfl
    rw [h, force_eq, force_eq, ih]
    rw [leBytes, List.reverse_cons, leNat_append, List.length_reverse, length_leBytes]
    show _ + 256 ^ k * (acc * 256 + n % 256) = _
    have : leNat [UInt8.ofNat n] = n % 256 := by
      simp [leNat]
    rw [this, pow_succ]
    show leNat (leBytes k (n / 256)).reverse + _ = _
    ring

/-- BLAKE2b-512 without personalisation, of a packed message. -/
noncomputable def blakeK (M len : ℕ) : ℕ :=
  Nat.mod (digestK 64 0 0 M len) 13407807929942597099574024998205846127479365820592393377723561443721764030073546976801874298166903427690031858186486050853753882811946569946433649006084096

theorem blakeK_eq (m : List UInt8) (hm : m.length < 2 ^ 64) : leNat (blake m) = blakeK (leNat m) m.length := by
  unfold blake Blake2b.hash
  show leNat (leBytes 64 _) = _
  rw [leNat_leBytes, digestK_eq _ _ _ hm]
  rfl

theorem length_blake (m : List UInt8) : (blake m).length = 64 := Bytes.length_toList _

/-- `hashToField`, from the packed tag `D` and message `M`. -/
noncomputable def hashToFieldK {α : Type} (D dl M ml : ℕ) (k : ℕ → ℕ → α) : α :=
  force (blakeK (256 ^ 128 * (M + 256 ^ ml * (32768 + 16777216 * D))) (128 + ml + 3 + dl)) fun n0 =>
  force (blakeK (n0 + 256 ^ 64 * (1 + 256 * D)) (64 + 1 + dl)) fun n1 =>
  force (blakeK (Nat.xor n0 n1 + 256 ^ 64 * (2 + 256 * D)) (64 + 1 + dl)) fun n2 =>
  force (Nat.mod (revK 64 n1 0) p) fun u => force (Nat.mod (revK 64 n2 0) p) fun v => k u v

theorem leNat_replicate_zero (n : ℕ) : leNat (List.replicate n 0) = 0 := by
  induction n with
  | zero => rfl
  | succ n ih => rw [List.replicate_succ, leNat, ih]; rfl

theorem xor_add_mul (x y a b : ℕ) (hx : x < 256) (hy : y < 256) :
    (x + 256 * a) ^^^ (y + 256 * b) = (x ^^^ y) + 256 * (a ^^^ b) := by
  have h8 : (256 : ℕ) = 2 ^ 8 := by norm_num
  have hxy : x ^^^ y < 2 ^ 8 := Nat.xor_lt_two_pow (h8 ▸ hx) (h8 ▸ hy)
  rw [h8] at hx hy
  apply Nat.eq_of_testBit_eq
  intro i
  rw [h8, Nat.testBit_xor, add_comm x, add_comm y, add_comm (x ^^^ y), Nat.testBit_two_pow_mul_add _ hx,
    Nat.testBit_two_pow_mul_add _ hy, Nat.testBit_two_pow_mul_add _ hxy]
  split <;> rw [Nat.testBit_xor]

theorem leNat_xor : ∀ a b : List UInt8, a.length = b.length →
    leNat (List.zipWith (· ^^^ ·) a b) = leNat a ^^^ leNat b
  | [], [], _ => rfl
  | x :: a, y :: b, h => by
    rw [List.zipWith_cons_cons, leNat, leNat, leNat, leNat_xor a b (by simpa using h),
      xor_add_mul _ _ _ _ (UInt8.toNat_lt x) (UInt8.toNat_lt y), UInt8.toNat_xor]

theorem leNat_reverse_eq {l : List UInt8} (h : l.length = 64) : leNat l.reverse = revK 64 (leNat l) 0 := by
  rw [revK_eq, mul_zero, add_zero, ← h, leBytes_leNat]

theorem leNat_four (z m t d : List UInt8) (hz : leNat z = 0) : leNat (z ++ m ++ t ++ d) =
    256 ^ z.length * (leNat m + 256 ^ m.length * (leNat t + 256 ^ t.length * leNat d)) := by
  simp only [leNat_append, List.length_append, hz, Nat.pow_add]
  ring

theorem hashToFieldK_eq {α : Type} (domain message : List UInt8) (k : ℕ → ℕ → α)
    (hl : (dst domain).length + message.length < 2 ^ 32) :
    hashToFieldK (leNat (dst domain)) (dst domain).length (leNat message) message.length k =
      k (hashToField domain message).1 (hashToField domain message).2 := by
  unfold hashToFieldK
  simp only [force_eq]
  have h0 : blakeK (256 ^ 128 * (leNat message + 256 ^ message.length * (32768 + 16777216 * leNat (dst domain))))
      (128 + message.length + 3 + (dst domain).length) =
      leNat (blake (List.replicate 128 0 ++ message ++ [0, 128, 0] ++ dst domain)) := by
    rw [blakeK_eq _ (by simp only [List.length_append, List.length_replicate, List.length_cons, List.length_nil]; omega)]
    have h3 : leNat [0, 128, 0] = 32768 := by decide
    have e1 : leNat (List.replicate 128 0 ++ message ++ [0, 128, 0] ++ dst domain) =
        256 ^ 128 * (leNat message + 256 ^ message.length * (32768 + 16777216 * leNat (dst domain))) := by
      rw [leNat_four _ _ _ _ (leNat_replicate_zero 128), List.length_replicate, h3,
        show 256 ^ [(0 : UInt8), 128, 0].length = 16777216 by decide]
    have e2 : (List.replicate 128 0 ++ message ++ [0, 128, 0] ++ dst domain).length =
        128 + message.length + 3 + (dst domain).length := by
      simp only [List.length_append, List.length_replicate, List.length_cons, List.length_nil]
    rw [e1, e2]
  rw [h0]
  unfold hashToField expand
  dsimp only
  generalize hb0 : blake (List.replicate 128 0 ++ message ++ [0, 128, 0] ++ dst domain) = b0
  have l0 : b0.length = 64 := by rw [← hb0]; exact length_blake _
  have key : ∀ (l : List UInt8) (b : UInt8) (t : ℕ), b.toNat = t → l.length = 64 →
      blakeK (leNat l + 256 ^ 64 * (t + 256 * leNat (dst domain))) (64 + 1 + (dst domain).length) =
        leNat (blake (l ++ [b] ++ dst domain)) := by
    intro l b t ht h
    rw [blakeK_eq _ (by simp only [List.length_append, List.length_cons, List.length_nil, h]; omega)]
    have e1 : leNat (l ++ [b] ++ dst domain) = leNat l + 256 ^ 64 * (t + 256 * leNat (dst domain)) := by
      rw [leNat_append, leNat_append, List.length_append, h, show [b].length = 1 from rfl, pow_add _ _ 1,
        show leNat [b] = b.toNat by simp [leNat], ht]
      generalize (256 : ℕ) ^ 64 = A
      ring
    have e2 : (l ++ [b] ++ dst domain).length = 64 + 1 + (dst domain).length := by
      simp only [List.length_append, List.length_cons, List.length_nil, h]
    rw [e1, e2]
  rw [key b0 1 1 rfl l0]
  generalize hb1 : blake (b0 ++ [1] ++ dst domain) = b1
  have l1 : b1.length = 64 := by rw [← hb1]; exact length_blake _
  rw [show Nat.xor (leNat b0) (leNat b1) = leNat (List.zipWith (· ^^^ ·) b0 b1) from
    (leNat_xor b0 b1 (l0.trans l1.symm)).symm,
    key (List.zipWith (· ^^^ ·) b0 b1) 2 2 rfl (by rw [List.length_zipWith, l0, l1]; rfl),
    leNat_reverse_eq l1, leNat_reverse_eq (length_blake _)]
  rfl

/-- `hashToCurve`, from the packed tag and message. -/
noncomputable def hashToCurveK (D dl M ml : ℕ) : Option Pt :=
  hashToFieldK D dl M ml fun u0 u1 =>
    match mapToCurve' u0, mapToCurve' u1 with
    | some s, some t => isoMap' (addPt isoA' s t)
    | _, _ => none

theorem rep_hashToCurveK {d m : List UInt8} {D dl M ml : ℕ} {t : Pt} (hD : leNat (dst d) = D)
    (hdl : (dst d).length = dl) (hM : leNat m = M) (hml : m.length = ml) (hl : dl + ml < 2 ^ 32)
    (h : hashToCurveK D dl M ml = some t) : Rep t (hashToCurve d m) := by
  subst hD hdl hM hml
  unfold hashToCurveK at h
  rw [hashToFieldK_eq _ _ _ hl] at h
  refine rep_hashToCurve ?_
  unfold hashToCurve'
  rw [force_eq, force_eq]
  generalize (hashToField d m).1 = u0 at h ⊢
  generalize (hashToField d m).2 = u1 at h ⊢
  generalize mapToCurve' u0 = a at h ⊢
  generalize mapToCurve' u1 = b at h ⊢
  cases a <;> cases b <;> exact h

end Orchard.Compute
