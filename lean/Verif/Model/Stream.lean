import Verif.Model.Builder
import Verif.Model.Tree

/-!
# Keys in streams, and serialised Merkle hashes

`FullViewingKey::read` and `write`, with the loops of the standard library they call, and the `serde` implementations
for `MerkleHashOrchard`.
-/

namespace Orchard

/-- The errors of `keys.rs:394-411`: `io::ErrorKind`, with any other one as a number. -/
inductive IoError | unexpectedEof | writeZero | invalidInput | other (code : ℕ)
  deriving DecidableEq

/-- What one call of `Read::read` gives (`keys.rs:403`): the bytes that have arrived so far, of which the call takes as many
as fit in its buffer; no bytes mean the end of the stream. -/
inductive ReadAnswer | bytes (l : List UInt8) | interrupted | error (e : IoError)
  deriving DecidableEq

/-- `keys.rs:401` the reader: its answers, in order.  After the last one the stream has ended. -/
abbrev Reader : Type := List ReadAnswer

/-- `Read::read_exact` at `keys.rs:403`, as in the standard library: reads until the buffer of `n` bytes is full, goes on
after an interruption, and fails at the end of the stream.  Bytes that did not fit in the buffer stay in the reader. -/
def readExact : Reader → ℕ → Run IoError (List UInt8 × Reader)
  | r, 0 => .ok ([], r)
  | [], _ + 1 => .err .unexpectedEof
  | .interrupted :: r, n + 1 => readExact r (n + 1)
  | .error e :: _, _ + 1 => .err e
  | .bytes [] :: _, _ + 1 => .err .unexpectedEof
  | .bytes (b :: c) :: r, n + 1 =>
    if n < c.length then .ok ((b :: c).take (n + 1), .bytes ((b :: c).drop (n + 1)) :: r)
    else do
      let x ← readExact r (n - c.length)
      pure ((b :: c) ++ x.1, x.2)

/-- What one call of `Write::write` does (`keys.rs:395`): it takes at most that many bytes. -/
inductive WriteAnswer | accept (n : ℕ) | interrupted | error (e : IoError)
  deriving DecidableEq

/-- `keys.rs:394` the writer: its answers, in order.  After the last one it takes all it is given. -/
abbrev Writer : Type := List WriteAnswer

/-- `Write::write_all` at `keys.rs:395`, as in the standard library: the bytes that were written, and the result. -/
def writeAll : Writer → List UInt8 → List UInt8 × Except IoError Writer
  | w, [] => ([], .ok w)
  | [], b :: c => (b :: c, .ok [])
  | .interrupted :: w, b :: c => writeAll w (b :: c)
  | .error e :: _, _ :: _ => ([], .error e)
  | .accept 0 :: _, _ :: _ => ([], .error .writeZero)
  | .accept (n + 1) :: w, b :: c =>
    let x := writeAll w ((b :: c).drop (n + 1))
    ((b :: c).take (n + 1) ++ x.1, x.2)

namespace FullViewingKey

/-- `keys.rs:394-396` `write`. -/
def write (fvk : FullViewingKey) (w : Writer) : List UInt8 × Except IoError Writer := writeAll w fvk.toBytes.toList

/-- `keys.rs:401-411` `read`. -/
noncomputable def read (P : Prims) (r : Reader) : Run IoError (FullViewingKey × Reader) := do
  let x ← readExact r 96
  match Bytes.ofList? 96 x.1 with
  | none => .panic
  | some data =>
    match ← Run.ofOutcome (fromBytes P data) with
    | some fvk => pure (fvk, x.2)
    | none => .err .invalidInput

end FullViewingKey

/-- A data format at `tree.rs:247-260`: how it serialises and deserialises arrays of 32 bytes, and the error of
`Error::custom`. -/
structure SerdeFormat (Data E : Type) where
  ser : Bytes 32 → Except E Data
  de : Data → Except E (Bytes 32)
  custom : E

/-- `tree.rs:246-250` `serialize`. -/
def merkleHashSerialize {Data E : Type} (F : SerdeFormat Data E) (a : Fp) : Except E Data := F.ser (merkleHashToBytes a)

/-- `tree.rs:252-261` `deserialize`. -/
def merkleHashDeserialize {Data E : Type} (F : SerdeFormat Data E) (d : Data) : Except E Fp :=
  match F.de d with
  | .error e => .error e
  | .ok parsed =>
    match merkleHashFromBytes parsed with
    | some a => .ok a
    | none => .error F.custom

end Orchard
