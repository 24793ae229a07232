import Verif.Model.Constants

/-!
# Cryptographic primitives as parameters, and panics

`Prims` collects the primitives the crate imports from other crates and whose internals play no
role in the properties.  All theorems hold for every choice of them.  Nothing is assumed about
them (no collision resistance, no injectivity) unless a theorem says so in its hypotheses.
-/

namespace Orchard

/-- Result of a Rust function that may panic. For instance `keys.rs:562`. -/
inductive Outcome (α : Type) where
  | ret (a : α)
  | panic
  deriving DecidableEq, Repr

namespace Outcome

/-- Sequencing: a panic in the first computation ends it. For instance `keys.rs:562`. -/
def bind {α β : Type} (x : Outcome α) (f : α → Outcome β) : Outcome β :=
  match x with
  | ret a => f a
  | panic => panic

/-- `Outcome` is the panic monad. -/
instance : Monad Outcome where
  pure := ret
  bind := bind

@[simp] theorem pure_eq {α : Type} (a : α) : (pure a : Outcome α) = ret a := rfl
@[simp] theorem ret_bind {α β : Type} (a : α) (f : α → Outcome β) : (ret a >>= f) = f a := rfl
@[simp] theorem panic_bind {α β : Type} (f : α → Outcome β) : (panic >>= f) = panic := rfl
@[simp] theorem ret_map {α β : Type} (a : α) (f : α → β) : (f <$> (ret a : Outcome α)) = ret (f a) :=
  rfl
@[simp] theorem panic_map {α β : Type} (f : α → β) : (f <$> (panic : Outcome α)) = panic := rfl

/-- The monad laws hold for `Outcome`. -/
instance : LawfulMonad Outcome := LawfulMonad.mk'
  (id_map := fun x => by cases x <;> rfl)
  (pure_bind := fun _ _ => rfl)
  (bind_assoc := fun x _ _ => by cases x <;> rfl)

theorem bind_eq_ret {α β : Type} {x : Outcome α} {f : α → Outcome β} {b : β} :
    (x >>= f) = ret b ↔ ∃ a, x = ret a ∧ f a = ret b := by
  cases x <;> simp

end Outcome

/-- `Option::unwrap` / `CtOption::unwrap`. Called for instance at `keys.rs:562`. -/
def Option.unwrapO {α : Type} : Option α → Outcome α
  | some a => .ret a
  | none => .panic

@[simp] theorem Option.unwrapO_some {α : Type} (a : α) : Option.unwrapO (some a) = .ret a := rfl
@[simp] theorem Option.unwrapO_none {α : Type} : Option.unwrapO (none : Option α) = .panic := rfl

/-- `assert!(b)`. Called for instance at `keys.rs:139`. -/
def assertO (b : Bool) : Outcome Unit := if b then .ret () else .panic

@[simp] theorem assertO_true : assertO true = .ret () := rfl
@[simp] theorem assertO_false : assertO false = .panic := rfl

/-- ASCII bytes of a string constant (`b"..."`). For instance `zip32.rs:16-17`. -/
def ascii (s : String) : List UInt8 := s.toUTF8.toList

/-- External primitives.  Called at `zip32.rs:41`, `172`, `keys.rs:901`, `bundle/commitments.rs:14` (BLAKE2b),
`spec.rs:221` (hash to curve), `spec.rs:234` (Poseidon), `tree.rs:227` (Sinsemilla), `keys.rs:482`, `494` (FF1),
`note_encryption.rs:109-250` (ChaCha20 and Poly1305, through `Domain`). -/
structure Prims where
  /-- `blake2b_simd` with 64-byte output: personalisation, message. -/
  blake2b512 : List UInt8 → List UInt8 → Bytes 64
  /-- `blake2b_simd` with 32-byte output: personalisation, message. -/
  blake2b256 : List UInt8 → List UInt8 → Bytes 32
  /-- `pallas::Point::hash_to_curve(domain)(message)`. -/
  hashToCurve : List UInt8 → List UInt8 → Point
  /-- Poseidon `P128Pow5T3` on two elements. -/
  poseidon : Fp → Fp → Fp
  /-- The Sinsemilla table `S(0), ..., S(1023)` (crate `sinsemilla`, `SINSEMILLA_S`). -/
  sinsemillaS : ℕ → Point
  /-- FF1 round function (AES-256 CBC-MAC of tweak, round number and half): key, round, half. -/
  ff1Round : Bytes 32 → ℕ → List Bool → ℕ
  /-- ChaCha20 keystream starting at block 1 with zero nonce: key, byte position. -/
  chacha20 : Bytes 32 → ℕ → UInt8
  /-- Poly1305 tag of `ChaCha20Poly1305` with zero nonce and empty associated data, as a function
  of the key and the ciphertext. -/
  poly1305 : Bytes 32 → List UInt8 → Bytes 16

end Orchard
