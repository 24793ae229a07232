import Verif.Model.Tree
import Verif.Props.Keys

/-!
# Properties C48 and C49: canonical 32-byte encodings
-/

namespace Orchard

/-! ### C48: field elements -/

/-- `parse` and `encode` are the canonical little-endian encoding of elements of `ZMod m`: exactly
the encodings of integers below the modulus are accepted, as the element they denote. -/
def Spec.CanonicalField (m : ℕ) {T : Type} (val : T → ZMod m) (parse : Bytes 32 → Option T)
    (encode : T → Bytes 32) : Prop :=
  (∀ b x, parse b = some x ↔ leNat b.toList = (val x).val) ∧
  (∀ b, (∃ x, parse b = some x) ↔ leNat b.toList < m) ∧
  (∀ x, leNat (encode x).toList = (val x).val) ∧
  (∀ x, parse (encode x) = some x) ∧ (∀ b x, parse b = some x → encode x = b)

theorem canonicalField_fp : Spec.CanonicalField p (fun x : Fp => x) Fp.fromRepr Fp.toRepr := by
  refine ⟨?_, ?_, ?_, Fp.fromRepr_toRepr, ?_⟩
  · intro b x
    rw [Fp.fromRepr_eq_some_iff]
    constructor
    · rintro rfl; exact Fp.toNat_toRepr x
    · intro h
      apply Bytes.toNat_injective
      rw [Fp.toNat_toRepr]; exact h
  · intro b
    rw [← Option.isSome_iff_exists, Fp.fromRepr_isSome_iff]; rfl
  · exact Fp.toNat_toRepr
  · intro b x h; exact (Fp.fromRepr_eq_some_iff.1 h).symm

/-- **C48.** `Anchor`, `MerkleHashOrchard`, `Nullifier`, `ExtractedNoteCommitment` and `Rho` parse
exactly the canonical encodings of base field elements, and parsing and serialising are inverse. -/
theorem C48_base_field_types :
    Spec.CanonicalField p (fun x : Fp => x) anchorFromBytes anchorToBytes ∧
    Spec.CanonicalField p (fun x : Fp => x) merkleHashFromBytes merkleHashToBytes ∧
    Spec.CanonicalField p (fun x : Fp => x) nullifierFromBytes nullifierToBytes ∧
    Spec.CanonicalField p (fun x : Fp => x) cmxFromBytes cmxToBytes ∧
    Spec.CanonicalField p (fun x : Fp => x) rhoFromBytes rhoToBytes :=
  ⟨canonicalField_fp, canonicalField_fp, canonicalField_fp, canonicalField_fp, canonicalField_fp⟩

/-- **C48.** `ValueCommitTrapdoor` parses exactly the canonical encodings of scalars (it has no
serialiser in the crate; the encoding used here is that of its scalar). -/
theorem C48_trapdoor :
    Spec.CanonicalField q ValueCommitTrapdoor.inner ValueCommitTrapdoor.fromBytes
      (fun r => Fq.toRepr r.inner) := by
  have h : ∀ b x, ValueCommitTrapdoor.fromBytes b = some x ↔ b = Fq.toRepr x.inner := by
    intro b x
    unfold ValueCommitTrapdoor.fromBytes
    rw [Option.map_eq_some_iff]
    constructor
    · rintro ⟨s, hs, rfl⟩; exact Fq.fromRepr_eq_some_iff.1 hs
    · intro hb; exact ⟨x.inner, Fq.fromRepr_eq_some_iff.2 hb, rfl⟩
  refine ⟨?_, ?_, fun x => Fq.toNat_toRepr _, fun x => (h _ _).2 rfl, fun b x hx => ((h b x).1 hx).symm⟩
  · intro b x
    rw [h]
    constructor
    · rintro rfl; exact Fq.toNat_toRepr _
    · intro hb
      apply Bytes.toNat_injective
      rw [Fq.toNat_toRepr]; exact hb
  · intro b
    have : (∃ x, ValueCommitTrapdoor.fromBytes b = some x) ↔ (Fq.fromRepr b).isSome := by
      rw [← Option.isSome_iff_exists]
      unfold ValueCommitTrapdoor.fromBytes
      simp
    rw [this, Fq.fromRepr_isSome_iff]; rfl

/-- **C48.** Ephemeral secret keys parse exactly the canonical encodings of scalars other than zero. -/
theorem C48_ephemeral_secret_key (b : Bytes 32) (s : Fq) :
    eskFromBytes b = some s ↔ leNat b.toList = s.val ∧ s ≠ 0 := by
  have h : Fq.fromRepr b = some s ↔ leNat b.toList = s.val := by
    rw [Fq.fromRepr_eq_some_iff]
    constructor
    · rintro rfl; exact Fq.toNat_toRepr s
    · intro hb
      apply Bytes.toNat_injective
      rw [Fq.toNat_toRepr]; exact hb
  rw [← h]
  unfold eskFromBytes nonZeroScalarFromBytes nonZeroFromScalar
  cases Fq.fromRepr b with
  | none => simp
  | some t =>
    by_cases ht : t = 0
    · subst ht
      simp only [Option.bind_some, if_pos, Option.some.injEq, reduceCtorEq, false_iff]
      rintro ⟨rfl, h⟩; exact h rfl
    · simp only [Option.bind_some, if_neg ht, Option.some.injEq]
      exact ⟨fun e => ⟨e, e ▸ ht⟩, fun e => e.1⟩

/-- The encoding of the modulus itself is rejected, that of the modulus minus one is accepted. -/
example : nullifierFromBytes (Bytes.ofNat 32 p) = none ∧
    ∃ nf, nullifierFromBytes (Bytes.ofNat 32 (p - 1)) = some nf := by
  have h := C48_base_field_types.2.2.1.2.1
  constructor
  · rw [← Option.not_isSome_iff_eq_none, Option.isSome_iff_exists, h]
    change ¬ (Bytes.ofNat 32 p).toNat < p
    rw [Bytes.toNat_ofNat p_lt_256_pow_32]; exact lt_irrefl _
  · rw [h]
    change (Bytes.ofNat 32 (p - 1)).toNat < p
    rw [Bytes.toNat_ofNat (by decide +kernel)]; decide +kernel

theorem getElem_leBits (n : ℕ) : ∀ (x i : ℕ) (h : i < (leBits n x).length), (leBits n x)[i] = x.testBit i := by
  induction n with
  | zero => intro x i h; simp [leBits] at h
  | succ n ih =>
    intro x i h
    cases i with
    | zero =>
      simp only [leBits, List.getElem_cons_zero, Nat.testBit_zero]
      rfl
    | succ i => simp [leBits, ih, Nat.testBit_succ]

/-- **C48** (note values). Every 64-bit integer is a note value and every string of 8 bytes is the little-endian encoding
of exactly one; the 64 bits are those of the integer, the least significant first. -/
theorem C48_note_values (v : UInt64) (b : Bytes 8) :
    (NoteValue.fromRaw v).inner = v ∧
    leNat (NoteValue.fromRaw v).toBytes.toList = v.toNat ∧
    leNat b.toList = (NoteValue.fromBytes b).inner.toNat ∧
    (NoteValue.fromRaw v).toLeBits = List.ofFn (fun i : Fin 64 => v.toNat.testBit i) ∧
    NoteValue.fromBytes (NoteValue.fromRaw v).toBytes = NoteValue.fromRaw v ∧
    (NoteValue.fromBytes b).toBytes = b := by
  have e : (256 : ℕ) ^ 8 = 2 ^ 64 := by norm_num
  have hv : v.toNat < 256 ^ 8 := by
    have := v.toNat_lt
    omega
  have hb : b.toNat < 2 ^ 64 := by
    have := b.toNat_lt
    omega
  have h2 : (NoteValue.fromRaw v).toBytes.toNat = v.toNat := Bytes.toNat_ofNat hv
  have h3 : (NoteValue.fromBytes b).inner.toNat = b.toNat := UInt64.toNat_ofNat_of_lt' hb
  refine ⟨rfl, h2, h3.symm, ?_, ?_, ?_⟩
  · refine List.ext_getElem (by simp [NoteValue.toLeBits]) fun i h1 _ => ?_
    rw [List.getElem_ofFn]
    exact getElem_leBits _ _ _ _
  · show NoteValue.mk (UInt64.ofNat (NoteValue.fromRaw v).toBytes.toNat) = ⟨v⟩
    rw [h2]; simp
  · apply Bytes.toNat_injective
    show (Bytes.ofNat 8 (NoteValue.fromBytes b).inner.toNat).toNat = _
    rw [h3, Bytes.toNat_ofNat b.toNat_lt]

/-- One million zatoshi. -/
example : (NoteValue.fromRaw 1000000).toBytes.toList = [64, 66, 15, 0, 0, 0, 0, 0] := by decide +kernel

/-! ### C49: curve points -/

/-- `b` is the compressed encoding of the point: `0` for the identity, otherwise the integer `x` in
the low 255 bits and the parity of `y` in the top bit. -/
def Spec.Compressed (b : Bytes 32) : Point → Prop
  | .zero => leNat b.toList = 0
  | .some x y _ => leNat b.toList % 2 ^ 255 = x.val ∧ leNat b.toList / 2 ^ 255 = y.val % 2

theorem compressed_iff {b : Bytes 32} {A : Point} : Spec.Compressed b A ↔ b = A.toBytes := by
  rcases Point.cases_xy A with rfl | ⟨x, y, h, rfl⟩
  · change b.toNat = 0 ↔ _
    rw [Point.toBytes_zero]
    constructor
    · intro hb
      apply Bytes.toNat_injective
      rw [hb, Bytes.toNat_ofNat (by norm_num)]
    · rintro rfl; exact Bytes.toNat_ofNat (by norm_num)
  · change (b.toNat % 2 ^ 255 = x.val ∧ b.toNat / 2 ^ 255 = y.val % 2) ↔ _
    constructor
    · rintro ⟨h1, h2⟩
      apply Bytes.toNat_injective
      rw [Point.toNat_toBytes_ofXY]
      have := Nat.mod_add_div b.toNat (2 ^ 255)
      rw [h1, h2] at this
      exact this.symm
    · rintro rfl
      rw [Point.toNat_toBytes_ofXY]
      exact Point.enc_split x (Point.sgn y)

/-- `parse` and `encode` are the canonical compressed encoding of the points allowed by `ok`. -/
def Spec.CanonicalPoint {T : Type} (pt : T → Point) (ok : Point → Prop)
    (parse : Bytes 32 → Option T) (encode : T → Bytes 32) : Prop :=
  (∀ b t, parse b = some t ↔ Spec.Compressed b (pt t) ∧ ok (pt t)) ∧
  (∀ t, Spec.Compressed (encode t) (pt t)) ∧
  (∀ t, ok (pt t) → parse (encode t) = some t) ∧ (∀ b t, parse b = some t → encode t = b) ∧
  -- non-canonical x, x without a point on the curve, and the identity with sign bit are rejected
  (∀ b, p ≤ leNat b.toList % 2 ^ 255 → parse b = none) ∧
  (∀ b, leNat b.toList ≠ 0 → (¬ ∃ y : Fp, y ^ 2 = ((leNat b.toList % 2 ^ 255 : ℕ) : Fp) ^ 3 + 5) →
    parse b = none) ∧
  parse (Bytes.ofNat 32 (2 ^ 255)) = none

theorem canonicalPoint_of {T : Type} {pt : T → Point} {ok : Point → Prop}
    {parse : Bytes 32 → Option T} {encode : T → Bytes 32}
    (hp : ∀ b t, parse b = some t ↔ b = (pt t).toBytes ∧ ok (pt t))
    (he : ∀ t, encode t = (pt t).toBytes) : Spec.CanonicalPoint pt ok parse encode := by
  have hnone : ∀ b, (∀ A, ¬ Spec.Compressed b A) → parse b = none := by
    intro b hb
    cases h : parse b with
    | none => rfl
    | some t => exact absurd (compressed_iff.2 ((hp b t).1 h).1) (hb _)
  refine ⟨?_, ?_, ?_, ?_, ?_, ?_, ?_⟩
  · intro b t; rw [hp, compressed_iff]
  · intro t; rw [compressed_iff, he]
  · intro t ht; rw [hp]; exact ⟨he t, ht⟩
  · intro b t h; rw [he]; exact ((hp b t).1 h).1.symm
  · intro b hb
    apply hnone
    intro A hA
    rcases Point.cases_xy A with rfl | ⟨x, y, h, rfl⟩
    · have h0 : leNat b.toList = 0 := hA
      rw [h0, Nat.zero_mod] at hb
      exact absurd hb (by decide +kernel)
    · have h0 : leNat b.toList % 2 ^ 255 = x.val := hA.1
      rw [h0] at hb
      exact absurd (ZMod.val_lt x) (not_lt.2 hb)
  · intro b hb hy
    apply hnone
    intro A hA
    rcases Point.cases_xy A with rfl | ⟨x, y, h, rfl⟩
    · exact hb hA
    · have h0 : leNat b.toList % 2 ^ 255 = x.val := hA.1
      apply hy
      refine ⟨y, ?_⟩
      rw [h0, ZMod.natCast_zmod_val]; exact h
  · apply hnone
    intro A hA
    have h1 : leNat (Bytes.ofNat 32 (2 ^ 255)).toList = 2 ^ 255 :=
      Bytes.toNat_ofNat (n := 32) (by norm_num)
    rcases Point.cases_xy A with rfl | ⟨x, y, h, rfl⟩
    · have h0 : leNat (Bytes.ofNat 32 (2 ^ 255)).toList = 0 := hA
      rw [h1] at h0
      exact absurd h0 (by norm_num)
    · have h0 : leNat (Bytes.ofNat 32 (2 ^ 255)).toList % 2 ^ 255 = x.val := hA.1
      rw [h1, Nat.mod_self] at h0
      exact x_ne_zero_of_onCurve h ((ZMod.val_eq_zero x).1 h0.symm)

/-- **C49.** Value commitments and verification keys (of both types) parse exactly the canonical
compressed encodings of Pallas points, including the identity. -/
theorem C49_points (T : RedPallas.SigType) :
    Spec.CanonicalPoint ValueCommitment.inner (fun _ => True) ValueCommitment.fromBytes
      ValueCommitment.toBytes ∧
    Spec.CanonicalPoint (RedPallas.VerificationKey.point (T := T)) (fun _ => True)
      RedPallas.VerificationKey.fromBytes RedPallas.VerificationKey.toBytes := by
  constructor
  · apply canonicalPoint_of
    · intro b t
      unfold ValueCommitment.fromBytes
      rw [Option.map_eq_some_iff]
      simp only [and_true, Point.fromBytes_eq_some_iff]
      constructor
      · rintro ⟨A, h, rfl⟩; exact h
      · intro h; exact ⟨t.inner, h, rfl⟩
    · intro t; rfl
  · apply canonicalPoint_of
    · intro b t
      unfold RedPallas.VerificationKey.fromBytes
      rw [Option.map_eq_some_iff]
      simp only [and_true, Point.fromBytes_eq_some_iff]
      constructor
      · rintro ⟨A, h, rfl⟩; exact h
      · intro h; exact ⟨t.point, h, rfl⟩
    · intro t; rfl

/-- **C49.** Diversified transmission keys and ephemeral public keys parse exactly the canonical
compressed encodings of Pallas points other than the identity. -/
theorem C49_non_identity_points :
    Spec.CanonicalPoint (fun A : Point => A) (fun A => A ≠ 0) pkdFromBytes pkdToBytes ∧
    Spec.CanonicalPoint (fun A : Point => A) (fun A => A ≠ 0) epkFromBytes Point.toBytes :=
  ⟨canonicalPoint_of (fun _ _ => nonIdentityFromBytes_eq_some) (fun _ => rfl),
    canonicalPoint_of (fun _ _ => nonIdentityFromBytes_eq_some) (fun _ => rfl)⟩

/-- The generator round trips as a transmission key; the encoding of the identity is rejected. -/
example : pkdFromBytes (pkdToBytes genG) = some genG ∧ pkdFromBytes (pkdToBytes 0) = none := by
  refine ⟨C49_non_identity_points.1.2.2.1 genG genG_ne_zero, ?_⟩
  cases h : pkdFromBytes (pkdToBytes 0) with
  | none => rfl
  | some A =>
    have h1 := C49_non_identity_points.1.2.2.2.1 _ _ h
    have h2 : A = 0 := Point.toBytes_injective h1
    exact absurd h2 ((C49_non_identity_points.1.1 _ _).1 h).2

end Orchard
