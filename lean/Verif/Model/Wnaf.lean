import Verif.Model.Spec

/-!
# Model of prepared scalars and bases (`/repo/src/spec.rs:142-170, 241-259`)

`PreparedNonIdentityBase` and `PreparedNonZeroScalar` wrap `WnafBase` and `WnafScalar` of the `group`
crate.  That crate is not in `/repo`; its functions `wnaf_table`, `LimbBuffer`, `wnaf_form` and
`wnaf_exp` (module `wnaf`, version 0.13) are written down here as that crate defines them.  Numbers of
type `u64` are natural numbers with the truncation of `<<` written out, `i64` digits are integers;
assertions and indexing out of bounds give `panic`.
-/

namespace Orchard.Wnaf

/-- `spec.rs:142` `PREPARED_WINDOW_SIZE`. -/
def PREPARED_WINDOW_SIZE : ℕ := 4

/-- `group::wnaf::wnaf_table`: the odd multiples `base, 3 base, 5 base, …`, `2^(window-1)` of them.
Used at `spec.rs:145-170`. -/
def table (base : Point) (window : ℕ) : List Point :=
  let dbl := base + base
  ((List.range (2 ^ (window - 1))).foldl
    (fun (s : List Point × Point) _ => (s.1 ++ [s.2], s.2 + dbl)) ([], base)).1

/-- `group::wnaf::LimbBuffer`: what is left of the bytes, and two limbs of 64 bits.
Used at `spec.rs:145-170`. -/
structure LimbBuffer where
  buf : List UInt8
  curIdx : ℕ
  curLimb : ℕ
  nextLimb : ℕ

namespace LimbBuffer

/-- `LimbBuffer::increment_limb`: the next limb is read, little-endian; missing bytes count as zero.
Used at `spec.rs:145-170`. -/
def incrementLimb (l : LimbBuffer) : LimbBuffer :=
  match l.buf.length with
  | 0 => { l with curIdx := l.curIdx + 1, curLimb := l.nextLimb, nextLimb := 0 }
  | n + 1 =>
    if n + 1 ≤ 7 then
      { buf := [], curIdx := l.curIdx + 1, curLimb := l.nextLimb,
        nextLimb := leNat (l.buf ++ List.replicate (8 - (n + 1)) 0) }
    else
      { buf := l.buf.drop 8, curIdx := l.curIdx + 1, curLimb := l.nextLimb,
        nextLimb := leNat (l.buf.take 8) }

/-- `LimbBuffer::new`. Used at `spec.rs:145-170`. -/
def new (buf : List UInt8) : LimbBuffer :=
  let ret : LimbBuffer := { buf := buf, curIdx := 0, curLimb := 0, nextLimb := 0 }
  { ret.incrementLimb.incrementLimb with curIdx := 0 }

/-- `LimbBuffer::get`: the limb `idx` and the one after it; panics unless `idx` is the current index or
the one after it. Used at `spec.rs:145-170`. -/
def get (l : LimbBuffer) (idx : ℕ) : Outcome ((ℕ × ℕ) × LimbBuffer) := do
  assertO (decide (idx = l.curIdx ∨ idx = l.curIdx + 1))
  let l := if idx > l.curIdx then l.incrementLimb else l
  pure ((l.curLimb, l.nextLimb), l)

end LimbBuffer

/-- `group::wnaf::wnaf_form`, the bits of the scalar from bit `bitIdx` of the current limb on.
Used at `spec.rs:145-170`. -/
def bitBuf (cur next bitIdx window : ℕ) : ℕ :=
  if bitIdx + window < 64 then cur / 2 ^ bitIdx
  else cur / 2 ^ bitIdx ||| next * 2 ^ (64 - bitIdx) % 2 ^ 64

/-- `group::wnaf::wnaf_form`, the loop: gives the digits it pushes from bit `pos` on.
Used at `spec.rs:145-170`. -/
def formLoop (window : ℕ) (hw : 0 < window) (bitLen : ℕ) (limbs : LimbBuffer) (pos carry : ℕ) :
    Outcome (List ℤ) :=
  if _hp : pos < bitLen then
    match limbs.get (pos / 64) with
    | .panic => .panic
    | .ret ((cur, next), limbs) =>
      let width := 2 ^ window
      let windowVal := carry + (bitBuf cur next (pos % 64) window &&& (width - 1))
      if windowVal % 2 = 0 then do
        let rest ← formLoop window hw bitLen limbs (pos + 1) carry
        pure (0 :: rest)
      else if windowVal < width / 2 then do
        let rest ← formLoop window hw bitLen limbs (pos + window) 0
        pure ((windowVal : ℤ) :: List.replicate (window - 1) 0 ++ rest)
      else do
        let rest ← formLoop window hw bitLen limbs (pos + window) 1
        pure (((windowVal : ℤ) - (width : ℤ)) :: List.replicate (window - 1) 0 ++ rest)
  else pure []
termination_by bitLen - pos

/-- `group::wnaf::wnaf_form`: the digits of a little-endian scalar. Used at `spec.rs:145-170`. -/
def form (c : List UInt8) (window : ℕ) (hw : 0 < window) : Outcome (List ℤ) :=
  formLoop window hw (c.length * 8) (LimbBuffer.new c) 0 0

/-- `group::wnaf::wnaf_exp`, one step of the loop over the digits (from the last to the first).
Used at `spec.rs:145-170`. -/
def expStep (table : List Point) (s : Point × Bool) (n : ℤ) : Outcome (Point × Bool) :=
  let result := if s.2 then s.1 + s.1 else s.1
  if n ≠ 0 then
    if n > 0 then do
      let t ← Option.unwrapO table[(n / 2).toNat]?
      pure (result + t, true)
    else do
      let t ← Option.unwrapO table[((-n) / 2).toNat]?
      pure (result - t, true)
  else pure (result, s.2)

/-- `group::wnaf::wnaf_exp`. Used at `spec.rs:145-170`. -/
def exp (table : List Point) (wnaf : List ℤ) : Outcome Point := do
  let r ← wnaf.reverse.foldlM (expStep table) (0, false)
  pure r.1

/-- `spec.rs:145-151` `PreparedNonIdentityBase` and `new` (`WnafBase::new`). -/
structure PreparedBase where
  table : List Point

/-- `spec.rs:147-151` `PreparedNonIdentityBase::new`. -/
def PreparedBase.new (base : Point) : PreparedBase := ⟨Wnaf.table base PREPARED_WINDOW_SIZE⟩

/-- `spec.rs:154, 166-170` `PreparedNonZeroScalar` and `new` (`WnafScalar::new`). -/
structure PreparedScalar where
  wnaf : List ℤ

/-- `spec.rs:166-170` `PreparedNonZeroScalar::new`. -/
def PreparedScalar.new (scalar : Fq) : Outcome PreparedScalar := do
  let w ← form (Fq.toRepr scalar).toList PREPARED_WINDOW_SIZE (by decide)
  pure ⟨w⟩

/-- `spec.rs:254-259` `ka_orchard_prepared`: `&b.0 * &sk.0` is `wnaf_exp`. -/
def kaOrchardPrepared (sk : PreparedScalar) (b : PreparedBase) : Outcome Point :=
  exp b.table sk.wnaf

/-- `spec.rs:241-249` `ka_orchard`. -/
def kaOrchard (sk : Fq) (b : Point) : Outcome Point := do
  kaOrchardPrepared (← PreparedScalar.new sk) (PreparedBase.new b)

end Orchard.Wnaf
