import Verif.Model.Builder
import Verif.Model.Zip32

/-!
# What errors, proofs and ciphertexts print

The implementations of `Display` for error types and the hand-written ones of `Debug`.  Text is a list of characters.
-/

namespace Orchard.Display

/-- What a formatter writes, for instance at `builder.rs:136-153`. -/
abbrev Text : Type := List Char

/-- A literal, for instance at `value.rs:79`. -/
@[irreducible] def lit (s : String) : Text := s.toList

/-- `value.rs:77-81` `Display for OverflowError`. -/
def overflowError (_ : OverflowError) : Text := lit "Orchard value operation overflowed"

/-- `builder.rs:135-155` `Display for BuildError`; `proofError` is that of `halo2_proofs::plonk::Error`. -/
def buildError (proofError : ProofError → Text) : BuildError → Text
  | .missingSignatures => lit "Required signatures were missing during build"
  | .proof e => lit "Could not create proof: " ++ proofError e
  | .valueSum _ => lit "Overflow occurred during value construction"
  | .invalidExternalSignature => lit "External signature was invalid"
  | .duplicateSignature => lit "Signature valid for more than one input"
  | .bundleTypeNotSatisfiable => lit "Bundle structure did not conform to requested bundle type."
  | .spendsDisabled => lit "Spends are not enabled for the requested bundle type."
  | .outputsDisabled => lit "Spends are not enabled for the requested bundle type."
  | .anchorMismatch => lit "All spends must share the anchor requested for the transaction."

/-- `builder.rs:181-190` `Display for SpendError`. -/
def spendError : SpendError → Text
  | .spendsDisabled => lit "Spends are not enabled for this builder"
  | .anchorMismatch => lit "All anchors must be equal."
  | .fvkMismatch => lit "FullViewingKey does not correspond to the given note"

/-- `builder.rs:198-202` `Display for OutputError`. -/
def outputError (_ : OutputError) : Text := lit "Outputs are not enabled for this builder"

/-- `zip32.rs:28-32` `Display for Error`. -/
def zip32Error (_ : Zip32.Error) : Text := lit "Seed produced invalid spending key."

/-- `{}` and `{:?}` of an unsigned integer: its decimal digits.  For instance `circuit.rs:872`. -/
def decimal (n : ℕ) : Text := Nat.toDigits 10 n

/-- The elements after the first of `{:?}` of a list of bytes, with the closing bracket.  For `note.rs:309`. -/
def debugBytesTail : List UInt8 → Text
  | [] => [']']
  | b :: l => [',', ' '] ++ decimal b.toNat ++ debugBytesTail l

/-- `{:?}` of an array or vector of bytes.  For `note.rs:309`. -/
def debugBytes : List UInt8 → Text
  | [] => ['[', ']']
  | b :: l => ['['] ++ decimal b.toNat ++ debugBytesTail l

/-- The elements of `{:#?}` of a vector of bytes inside one structure, each on its line.  For `circuit.rs:868`. -/
def debugBytesLines : List UInt8 → Text
  | [] => []
  | b :: l => lit "        " ++ decimal b.toNat ++ lit ",\n" ++ debugBytesLines l

/-- `circuit.rs:865-876` `Debug for Proof`; `alternate` is the flag `#` of the format. -/
def debugProof (alternate : Bool) (proof : List UInt8) : Text :=
  if alternate then
    lit "Proof(\n" ++
      (if proof = [] then lit "    [],\n"
        else lit "    [\n" ++ debugBytesLines proof ++ lit "    ],\n") ++ lit ")"
  else lit "Proof(" ++ decimal proof.length ++ lit " bytes)"

/-- A hexadecimal digit of `hex::encode`, `note.rs:310-311`. -/
def hexDigit (n : ℕ) : Char := if n < 10 then Char.ofNat (48 + n) else Char.ofNat (87 + n)

/-- `hex::encode`, `note.rs:310-311`: two lower-case digits for each byte. -/
def hexEncode : List UInt8 → Text
  | [] => []
  | b :: l => hexDigit (b.toNat / 16) :: hexDigit (b.toNat % 16) :: hexEncode l

/-- `note.rs:306-314` `Debug for TransmittedNoteCiphertext`, without the flag `#`; the quotes are those of `{:?}` of a
`String` (hexadecimal digits need no escapes). -/
def debugCiphertext (c : TransmittedNoteCiphertext) : Text :=
  lit "TransmittedNoteCiphertext { epk_bytes: " ++ debugBytes c.epkBytes.val ++
    lit ", enc_ciphertext: \"" ++ hexEncode c.encCiphertext.val ++
    lit "\", out_ciphertext: \"" ++ hexEncode c.outCiphertext.val ++ lit "\" }"

/-- `note_encryption.rs:278-282` `Debug for CompactAction`. -/
def debugCompactAction (_ : CompactAction) : Text := lit "CompactAction"

/-- `f.debug_list().entries(..)`, without the flag `#`, at `bundle.rs:173`. -/
def debugList (l : List Text) : Text := ['['] ++ (l.intersperse [',', ' ']).flatten ++ [']']

/-- `bundle.rs:167-185` `Debug for Bundle`, without the flag `#`; the other arguments are those of the parts. -/
def debugBundle {T A V : Type} (action : Action A → Text) (flags : Flags → Text) (balance : V → Text)
    (anchor : Fp → Text) (authorization : T → Text) (b : Bundle T A V) : Text :=
  lit "Bundle { actions: " ++ debugList (b.actions.map action) ++
    lit ", flags: " ++ flags b.flags ++ lit ", value_balance: " ++ balance b.valueBalance ++
    lit ", anchor: " ++ anchor b.anchor ++ lit ", authorization: " ++ authorization b.authorization ++ lit " }"

end Orchard.Display
