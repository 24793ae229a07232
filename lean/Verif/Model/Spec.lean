import Verif.Model.Sinsemilla
import Verif.Model.Value

/-!
# Model of `/repo/src/spec.rs`

`NonIdentityPallasPoint`, `NonZeroPallasBase` and `NonZeroPallasScalar` are modelled by the plain
`Point`, `Fp`, `Fq`: the Rust types do not re-check their invariant on every construction
(`ka_orchard_prepared`, `diversify_hash`), so that the invariant holds is a theorem here rather
than part of the type.  Fallible constructors and asserting constructors are explicit functions.
-/

namespace Orchard

/-- `spec.rs:38-42` `NonIdentityPallasPoint::from_bytes`. -/
noncomputable def nonIdentityFromBytes (b : Bytes 32) : Option Point :=
  (Point.fromBytes b).bind fun P => if P = 0 then none else some P

/-- `spec.rs:77-79` `NonZeroPallasBase::from_base`. -/
def nonZeroFromBase (b : Fp) : Option Fp := if b = 0 then none else some b

/-- `spec.rs:69-71` `NonZeroPallasBase::from_bytes`. -/
def nonZeroBaseFromBytes (b : Bytes 32) : Option Fp := (Fp.fromRepr b).bind nonZeroFromBase

/-- `spec.rs:119-121` `NonZeroPallasScalar::from_scalar`. -/
def nonZeroFromScalar (s : Fq) : Option Fq := if s = 0 then none else some s

/-- `spec.rs:115-117` `NonZeroPallasScalar::from_bytes`. -/
def nonZeroScalarFromBytes (b : Bytes 32) : Option Fq := (Fq.fromRepr b).bind nonZeroFromScalar

/-- `spec.rs:177-179` `to_base`. -/
def toBase (x : Bytes 64) : Fp := Fp.fromUniform x

/-- `spec.rs:186-188` `to_scalar`. -/
def toScalar (x : Bytes 64) : Fq := Fq.fromUniform x

/-- `spec.rs:194-196` `mod_r_p`: re-parse the canonical bytes as a scalar; panics if rejected. -/
def modRP (x : Fp) : Outcome Fq := Option.unwrapO (Fq.fromRepr (Fp.toRepr x))

/-- `spec.rs:102-106` `From<NonZeroPallasBase> for NonZeroPallasScalar` (asserts non-zero). -/
def nonZeroScalarOfBase (b : Fp) : Outcome Fq := do
  let s ← modRP b
  assertO (decide (s ≠ 0))
  pure s

/-- `spec.rs:201-215` `commit_ivk`. -/
noncomputable def commitIvk (P : Prims) (ak nk : Fp) (rivk : Fq) : Option Fp :=
  sinsemillaShortCommit P Constants.qCommitIvk Constants.commitIvkR
    (Fp.toLeBits 255 ak ++ Fp.toLeBits 255 nk) rivk

/-- `constants.rs:30` `KEY_DIVERSIFICATION_PERSONALIZATION`. -/
def keyDiversificationPersonalization : List UInt8 := ascii "z.cash:Orchard-gd"

/-- `spec.rs:220-226` `diversify_hash`. -/
def diversifyHash (P : Prims) (d : Bytes 11) : Point :=
  let gd := P.hashToCurve keyDiversificationPersonalization d.toList
  if gd = 0 then P.hashToCurve keyDiversificationPersonalization [] else gd

/-- `spec.rs:233-236` `prf_nf`. -/
def prfNf (P : Prims) (nk rho : Fp) : Fp := P.poseidon nk rho

/-- `spec.rs:254-259` `ka_orchard_prepared`: the multiple.  The code with tables and windows is
`Wnaf.kaOrchardPrepared`; that it computes this is C79. -/
def kaOrchardPrepared (sk : Fq) (b : Point) : Point := sk • b

/-- `spec.rs:241-249` `ka_orchard`. -/
def kaOrchard (sk : Fq) (b : Point) : Point := kaOrchardPrepared sk b

/-- `spec.rs:294-299` `lebs2ip`, for bit strings of any length: panics above 64 bits.
`1 << i` is the `u64` shift; the additions cannot overflow because the bits are distinct. -/
def lebs2ip (bits : List Bool) : Outcome UInt64 := do
  assertO (decide (bits.length ≤ 64))
  pure (bits.zipIdx.foldl (fun acc bi => acc + if bi.1 then (1 : UInt64) <<< (UInt64.ofNat bi.2) else 0) 0)

/-- `spec.rs:307-310` `i2lebsp::<n>`: panics for more than 64 bits. -/
def i2lebsp (n : ℕ) (int : UInt64) : Outcome (List Bool) := do
  assertO (decide (n ≤ 64))
  pure ((List.range n).map fun mask => (int &&& ((1 : UInt64) <<< (UInt64.ofNat mask))) != 0)

/-- `spec.rs:285-287` `lebs2ip_field`. -/
def lebs2ipField (bits : List Bool) : Outcome Fp := do
  let n ← lebs2ip bits
  pure (n.toNat : Fp)

/-- `constants/sinsemilla.rs:64-69` `lebs2ip_k` (a `u32` accumulator). -/
def lebs2ipK (bits : List Bool) : Outcome UInt32 := do
  assertO (decide (bits.length = Constants.K))
  pure (bits.zipIdx.foldl (fun acc bi => acc + if bi.1 then (1 : UInt32) <<< (UInt32.ofNat bi.2) else 0) 0)

/-- `constants/sinsemilla.rs:73-76` `i2lebsp_k` (argument a `usize`, assumed 64 bits). -/
def i2lebspK (int : UInt64) : Outcome (List Bool) := do
  assertO (decide (int.toNat < 2 ^ Constants.K))
  i2lebsp Constants.K int

/-- `zcash_spec::PrfExpand::with`: BLAKE2b-512 with personalisation `Zcash_ExpandSeed` of
`sk ‖ [domain separator] ‖ inputs` (dependency). Re-exported at `spec.rs:19`. -/
def prfExpand (P : Prims) (dst : UInt8) (sk : Bytes 32) (t : List UInt8) : Bytes 64 :=
  P.blake2b512 (ascii "Zcash_ExpandSeed") (sk.toList ++ dst :: t)

end Orchard
