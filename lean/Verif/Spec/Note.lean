import Verif.Model.Spec

/-!
# Specification of note commitments and nullifiers (protocol specification § 3.2, 4.7.3, 4.16, 5.4.8.4)

Written from the protocol specification, not from `Verif/Model/Note.lean`.
-/

namespace Orchard.Spec

/-- `PRF^expand_rseed([dst] ‖ ρ)`. -/
def seedPrf (P : Prims) (dst : UInt8) (rseed : Bytes 32) (rho : Fp) : Bytes 64 :=
  P.blake2b512 (ascii "Zcash_ExpandSeed") (rseed.toList ++ [dst] ++ (Fp.toRepr rho).toList)

/-- `ψ = ToBase(PRF^expand_rseed([9] ‖ ρ))`. -/
def psi (P : Prims) (rseed : Bytes 32) (rho : Fp) : Fp := ((seedPrf P 9 rseed rho).toNat : Fp)

/-- `rcm = ToScalar(PRF^expand_rseed([5] ‖ ρ))`. -/
def rcm (P : Prims) (rseed : Bytes 32) (rho : Fp) : Fq := ((seedPrf P 5 rseed rho).toNat : Fq)

/-- `esk = ToScalar(PRF^expand_rseed([4] ‖ ρ))`. -/
def esk (P : Prims) (rseed : Bytes 32) (rho : Fp) : Fq := ((seedPrf P 4 rseed rho).toNat : Fq)

/-- `repr_P(g_d) ‖ repr_P(pk_d) ‖ I2LEBSP_64(v) ‖ I2LEBSP_255(ρ) ‖ I2LEBSP_255(ψ)`. -/
def noteBits (gd pkd : Point) (v : ℕ) (rho psi : Fp) : List Bool :=
  leBits 256 gd.toBytes.toNat ++ leBits 256 pkd.toBytes.toNat ++ leBits 64 v ++
    leBits 255 rho.val ++ leBits 255 psi.val

/-- `NoteCommit^Orchard_rcm(repr_P(g_d), repr_P(pk_d), v, ρ, ψ)`: hash in the domain
`z.cash:Orchard-NoteCommit-M`, plus `[rcm] R`. -/
noncomputable def noteCommit (P : Prims) (gd pkd : Point) (v : ℕ) (rho psi : Fp) (rcm : Fq) :
    Option Point :=
  match sinsemillaHashToPoint P Constants.qNoteCommit (noteBits gd pkd v rho psi) with
  | none => none
  | some h => some (h + rcm • Constants.noteCommitR)

/-- The commitment of the note with the given components. -/
noncomputable def noteCommitOf (P : Prims) (d : Bytes 11) (pkd : Point) (v : ℕ) (rho : Fp)
    (rseed : Bytes 32) : Option Point :=
  noteCommit P (diversifyHash P d) pkd v rho (psi P rseed rho) (rcm P rseed rho)

/-- `Extract_P(cm + [(PRF^nf_nk(ρ) + ψ) mod q] K)`. -/
noncomputable def deriveNullifier (P : Prims) (nk rho psi : Fp) (cm : Point) : Fp :=
  extractP (cm + (((P.poseidon nk rho + psi).val : ℕ) : Fq) • Constants.nullifierK)

/-- A seed that `Note::new` accepts: non-zero ephemeral secret and defined commitment. -/
def GoodSeed (P : Prims) (d : Bytes 11) (pkd : Point) (v : ℕ) (rho : Fp) (s : Bytes 32) : Prop :=
  esk P s rho ≠ 0 ∧ ∃ cm, noteCommitOf P d pkd v rho s = some cm

end Orchard.Spec
