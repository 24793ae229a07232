import Verif.Model.Note

/-!
# Model of `/repo/src/action.rs` and `TransmittedNoteCiphertext`
-/

namespace Orchard

open RedPallas

/-- `note.rs:296-304` `TransmittedNoteCiphertext`. -/
structure TransmittedNoteCiphertext where
  epkBytes : Bytes 32
  encCiphertext : Bytes 580
  outCiphertext : Bytes 80
  deriving DecidableEq

/-- `action.rs:14-27` `Action<A>`.  The accessors (50-82) are the projections. -/
structure Action (A : Type) where
  nf : Fp
  rk : VerificationKey .spendAuth
  cmx : Fp
  encryptedNote : TransmittedNoteCiphertext
  cvNet : ValueCommitment
  authorization : A

namespace Action

variable {T U E : Type}

/-- `action.rs:31-47` `from_parts`. -/
def fromParts (nf : Fp) (rk : VerificationKey .spendAuth) (cmx : Fp)
    (encryptedNote : TransmittedNoteCiphertext) (cvNet : ValueCommitment) (authorization : T) :
    Action T := ⟨nf, rk, cmx, encryptedNote, cvNet, authorization⟩

/-- `action.rs:70-72` `rho` (`Rho::from_nf_old`, `note.rs:53-55`, keeps the field element). -/
def rho (a : Action T) : Fp := a.nf

/-- `action.rs:85-94` `map`. -/
def map (a : Action T) (step : T → U) : Action U :=
  { nf := a.nf, rk := a.rk, cmx := a.cmx, encryptedNote := a.encryptedNote, cvNet := a.cvNet,
    authorization := step a.authorization }

/-- `action.rs:97-106` `try_map`. -/
def tryMap (a : Action T) (step : T → Except E U) : Except E (Action U) := do
  let authorization ← step a.authorization
  pure { nf := a.nf, rk := a.rk, cmx := a.cmx, encryptedNote := a.encryptedNote, cvNet := a.cvNet,
         authorization := authorization }

end Action

end Orchard
