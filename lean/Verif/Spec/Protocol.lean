import Verif.Model.Prims

/-!
# Functions of the protocol specification, written from the primitives alone

Nothing here refers to the model of the crate: only the parameters (`Prims`), the fields, the curve and
the constants are used.  (Protocol specification § 4.2.3, 5.4.1.6, 5.4.1.9, 5.4.2, 5.4.8.4.)
-/

namespace Orchard.Spec.Protocol

/-- `LEOS2IP`: the integer with the given little-endian bytes. -/
def leos2ip : List UInt8 → ℕ
  | [] => 0
  | b :: bs => b.toNat + 256 * leos2ip bs

/-- `PRF^expand_sk(t) = BLAKE2b-512("Zcash_ExpandSeed", sk ‖ t)`, as bytes. -/
def prfExpand (P : Prims) (sk t : List UInt8) : List UInt8 :=
  (P.blake2b512 (ascii "Zcash_ExpandSeed") (sk ++ t)).toList

/-- `ToBase(x) = LEOS2IP_512(x) mod q_P` (the base field). -/
def toBase (x : List UInt8) : Fp := ((leos2ip x : ℕ) : Fp)

/-- `ToScalar(x) = LEOS2IP_512(x) mod r_P` (the scalar field). -/
def toScalar (x : List UInt8) : Fq := ((leos2ip x : ℕ) : Fq)

/-- `I2LEOSP_256(n)`: 32 little-endian bytes. -/
def i2leosp (n : ℕ) : List UInt8 := (List.range 32).map fun i => UInt8.ofNat (n / 256 ^ i % 256)

/-- `I2LEBSP_k(n)`: `k` little-endian bits. -/
def i2lebsp (k n : ℕ) : List Bool := (List.range k).map fun i => n.testBit i

/-- `repr_P`: `I2LEOSP_256(x + 2^255 ỹ)`, and zero for the identity. -/
def reprP : Point → List UInt8
  | .zero => i2leosp 0
  | .some x y _ => i2leosp (x.val + 2 ^ 255 * (y.val % 2))

/-- `Extract_P`. -/
def extract : Point → Fp
  | .zero => 0
  | .some x _ _ => x

/-- Incomplete addition by the chord formula: undefined if an operand is the identity or the
`x` coordinates agree. -/
def IncompleteAdd : Option Point → Option Point → Option Point → Prop
  | some (.some x₁ y₁ _), some (.some x₂ y₂ _), r =>
    (x₁ = x₂ ∧ r = none) ∨ (x₁ ≠ x₂ ∧ ∃ x₃ y₃ h, r = some (.some x₃ y₃ h) ∧
      x₃ * (x₂ - x₁) ^ 2 = (y₂ - y₁) ^ 2 - (x₁ + x₂) * (x₂ - x₁) ^ 2 ∧
      y₃ * (x₂ - x₁) = (y₂ - y₁) * (x₁ - x₃) - y₁ * (x₂ - x₁))
  | _, _, r => r = none

/-- The `i`-th 10-bit piece of a message padded with zero bits. -/
def piece (m : List Bool) (i : ℕ) : ℕ := ∑ j ∈ Finset.range 10, (m.getD (10 * i + j) false).toNat * 2 ^ j

/-- `out` is `SinsemillaHashToPoint` of `m` from the initial point `Q`: there is a sequence of
accumulators `Acc_0 = Q`, `Acc_{i+1} = (Acc_i ⸭ S(m_i)) ⸭ Acc_i`, of length `⌈len/10⌉`, ending in
`out` (`none` is `⊥`). -/
def SinsemillaHashToPoint (P : Prims) (Q : Point) (m : List Bool) (out : Option Point) : Prop :=
  ∃ acc : ℕ → Option Point, acc 0 = some Q ∧ acc ((m.length + 9) / 10) = out ∧
    ∀ i < (m.length + 9) / 10, ∃ t, IncompleteAdd (acc i) (some (P.sinsemillaS (piece m i))) t ∧
      IncompleteAdd t (acc i) (acc (i + 1))

/-- `out = SinsemillaShortCommit_r(m)`: `Extract_P` of hash plus `[r] R`. -/
def SinsemillaShortCommit (P : Prims) (Q R : Point) (m : List Bool) (r : Fq) (out : Option Fp) : Prop :=
  ∃ h, SinsemillaHashToPoint P Q m h ∧ out = h.map fun A => extract (A + r • R)

/-- `out = Commit^ivk_rivk(ak, nk)`. -/
def CommitIvk (P : Prims) (ak nk : Fp) (rivk : Fq) (out : Option Fp) : Prop :=
  SinsemillaShortCommit P Constants.qCommitIvk Constants.commitIvkR
    (i2lebsp 255 ak.val ++ i2lebsp 255 nk.val) rivk out

/-- `DiversifyHash(d)`: `P` if it is not the identity, else the fallback. -/
def diversifyHash (P : Prims) (d : List UInt8) : Point :=
  match P.hashToCurve (ascii "z.cash:Orchard-gd") d with
  | .zero => P.hashToCurve (ascii "z.cash:Orchard-gd") []
  | A => A

/-- The components of the Orchard keys derived from `sk` (§ 4.2.3). -/
structure KeyComponents where
  ask : Fq
  ak : Point
  nk : Fp
  rivk : Fq

/-- `ask = ToScalar(PRF^expand_sk([6]))`, negated if `ak` would have odd `y`; `ak = [ask] G`;
`nk = ToBase(PRF^expand_sk([7]))`; `rivk = ToScalar(PRF^expand_sk([8]))`. -/
def keyComponents (P : Prims) (sk : List UInt8) : KeyComponents :=
  let ask₀ := toScalar (prfExpand P sk [6])
  let ask := match ask₀ • Constants.spendAuthG with
    | .zero => ask₀
    | .some _ y _ => if y.val % 2 = 1 then -ask₀ else ask₀
  ⟨ask, ask • Constants.spendAuthG, toBase (prfExpand P sk [7]), toScalar (prfExpand P sk [8])⟩

/-- `rivk_internal = ToScalar(PRF^expand_rivk([0x83] ‖ ak ‖ nk))`. -/
def rivkInternal (P : Prims) (ak : Point) (nk : Fp) (rivk : Fq) : Fq :=
  toScalar (prfExpand P (i2leosp rivk.val) ([0x83] ++ reprP ak ++ i2leosp nk.val))

/-- `R = PRF^expand_rivk([0x82] ‖ ak ‖ nk)`; `dk` and `ovk` are its halves. -/
def dkOvk (P : Prims) (ak : Point) (nk : Fp) (rivk : Fq) : List UInt8 :=
  prfExpand P (i2leosp rivk.val) ([0x82] ++ reprP ak ++ i2leosp nk.val)

/-- `NUM_2` of NIST SP 800-38G (algorithm 1): the number with the given binary numerals, most
significant first. -/
def num2 (l : List Bool) : ℕ := l.foldl (fun n b => 2 * n + b.toNat) 0

/-- `y = FF1.Encrypt(key, "", x)` of SP 800-38G for radix 2 and 88 numerals (`u = v = 44`), as the Feistel
recurrence: the halves `X_0 ‖ X_1 = x` are extended by ten rounds
`NUM(X_{i+2}) = (NUM(X_i) + F(i, X_{i+1})) mod 2^44`, and `y = X_10 ‖ X_11`. -/
def FF1 (P : Prims) (key : Bytes 32) (x y : List Bool) : Prop :=
  ∃ X : ℕ → List Bool, (∀ i ≤ 11, (X i).length = 44) ∧ X 0 ++ X 1 = x ∧ X 10 ++ X 11 = y ∧
    ∀ i < 10, num2 (X (i + 2)) = (num2 (X i) + P.ff1Round key i (X (i + 1))) % 2 ^ 44

/-- `DiversifyIndex`: the diversifier of an index is `FF1-AES256_dk("", index)`, both as 88-bit
little-endian strings (§ 4.2.3; ZIP 32 "Orchard diversifier derivation"). -/
def IsDiversifier (P : Prims) (dk : Bytes 32) (index d : List UInt8) : Prop :=
  FF1 P dk (i2lebsp 88 (leos2ip index)) (i2lebsp 88 (leos2ip d))

end Orchard.Spec.Protocol
