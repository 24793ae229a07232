import Verif.Examples.Prims
import Verif.Lemmas.RedPallas
import Verif.Model.Order
import Verif.Props.Encodings
import Verif.Spec.RedPallas

/-!
# C90: RedPallas signatures
-/

namespace Orchard

open RedPallas

variable (P : Prims)

theorem hStar_eq (R vk : Point) (msg : List UInt8) :
    hStar P (R.toBytes.toList ++ vk.toBytes.toList ++ msg) = Spec.challenge P R vk msg := rfl

theorem validSignature_iff {T : SigType} (vk : VerificationKey T) (msg : List UInt8) (sig : Signature T) :
    vk.verify P msg sig = true ↔ Spec.ValidSignature P (basepoint T) vk.point msg sig := by
  rw [verify_iff]
  unfold Spec.ValidSignature
  refine exists_congr fun R => exists_congr fun S => ?_
  refine and_congr ?_ Iff.rfl
  rw [← Bytes.toList_append]
  exact ⟨fun h => congrArg _ h, fun h => Bytes.toList_injective h⟩

/-- What it means for a signature given by its two halves to be valid. -/
theorem validSignature_halves {T : SigType} (vk : VerificationKey T) (m : List UInt8) (R : Point) (s : Fq) :
    vk.verify P m (R.toBytes.append (Fq.toRepr s)) = true ↔
      s • basepoint T = R + Spec.challenge P R vk.point m • vk.point := by
  constructor
  · intro h
    obtain ⟨R', s', e, h⟩ := verify_iff.1 h
    have hl : ∀ A : Point, A.toBytes.toList.length = 32 := fun A => A.toBytes.2
    have e' := congrArg Bytes.toList e
    rw [Bytes.toList_append, Bytes.toList_append] at e'
    have := List.append_inj e' ((hl R).trans (hl R').symm)
    have hR : R = R' := Point.toBytes_injective (Bytes.toList_injective this.1)
    have hs : s = s' := Fq.toRepr_injective (Bytes.toList_injective this.2)
    subst hR hs
    exact h
  · intro h
    exact verify_iff.2 ⟨R, s, rfl, h⟩

/-- **C90.** Spend authorisation signatures are verified as the specification says, with the base of spend
authorisation keys. -/
theorem C90_verify_spend_auth (vk : VerificationKey .spendAuth) (msg : List UInt8) (sig : Signature .spendAuth) :
    vk.verify P msg sig = true ↔ Spec.ValidSignature P Constants.spendAuthG vk.point msg sig :=
  validSignature_iff P vk msg sig

/-- **C90.** Binding signatures are verified as the specification says, with the base of the randomness of value
commitments. -/
theorem C90_verify_binding (vk : VerificationKey .binding) (msg : List UInt8) (sig : Signature .binding) :
    vk.verify P msg sig = true ↔ Spec.ValidSignature P Constants.valueCommitR vk.point msg sig :=
  validSignature_iff P vk msg sig

/-- **C90.** A signature is made from the nonce `H*(T || vk || M)` of 80 random bytes `T`: the encodings of `[r] B` and
of `r + c sk`. -/
theorem C90_sign {T : SigType} (sk : SigningKey T) (rnd : Bytes 80) (msg : List UInt8) :
    ∃ r : Fq, r = (leNat (P.blake2b512 (ascii "Zcash_RedPallasH")
        (rnd.toList ++ (sk.s • basepoint T).toBytes.toList ++ msg)).toList : ℕ) ∧
      (sk.sign P rnd msg).toList = (r • basepoint T).toBytes.toList ++
        (Fq.toRepr (r + Spec.challenge P (r • basepoint T) (sk.s • basepoint T) msg * sk.s)).toList :=
  ⟨_, rfl, Bytes.toList_append _ _⟩

/-- **C90.** Every signature made with a key is valid under the verification key of that key. -/
theorem C90_correct {T : SigType} (sk : SigningKey T) (rnd : Bytes 80) (msg : List UInt8) :
    Spec.ValidSignature P (basepoint T) (sk.s • basepoint T) msg (sk.sign P rnd msg) :=
  (validSignature_iff P sk.vk msg _).1 (verify_sign P sk rnd msg)

/-- **C90.** Signatures are not malleable in the response: a message, a key and the first half of a valid signature
determine the second half. -/
theorem C90_one_response {T : SigType} (vk : VerificationKey T) (msg : List UInt8) (sig sig' : Signature T)
    (h : vk.verify P msg sig = true) (h' : vk.verify P msg sig' = true)
    (he : sig.toList.take 32 = sig'.toList.take 32) : sig = sig' := by
  obtain ⟨R, S, e, h⟩ := (validSignature_iff P vk msg sig).1 h
  obtain ⟨R', S', e', h'⟩ := (validSignature_iff P vk msg sig').1 h'
  have hl : ∀ A : Point, A.toBytes.toList.length = 32 := fun A => A.toBytes.2
  rw [e, e', List.take_left' (hl R), List.take_left' (hl R')] at he
  have hR : R = R' := Point.toBytes_injective (Bytes.toList_injective he)
  subst hR
  have hS : (S - S') • basepoint T = 0 := by rw [sub_smul, h, h', sub_self]
  rcases smul_eq_zero_iff'.1 hS with h0 | h0
  · rw [sub_eq_zero.1 h0] at e
    exact Bytes.toList_injective (e.trans e'.symm)
  · exact absurd h0 (basepoint_ne_zero T)

/-- **C90.** Special soundness: two signatures with the same first half and different challenges, each valid for its own
message and its own hash function, give the signing key away.  With one hash function this is why nonces must not be used
twice (C77); with two it is the step from a forger that can be rewound to the key. -/
theorem C90_special_soundness (P' : Prims) {T : SigType} (vk : VerificationKey T) (msg msg' : List UInt8) (R : Point)
    (S S' : Fq) (h : vk.verify P msg (R.toBytes.append (Fq.toRepr S)) = true)
    (h' : vk.verify P' msg' (R.toBytes.append (Fq.toRepr S')) = true)
    (hc : Spec.challenge P R vk.point msg ≠ Spec.challenge P' R vk.point msg') :
    vk = SigningKey.vk ⟨(S - S') / (Spec.challenge P R vk.point msg - Spec.challenge P' R vk.point msg')⟩ := by
  have h1 := (validSignature_halves P vk msg R S).1 h
  have h2 := (validSignature_halves P' vk msg' R S').1 h'
  have hd : Spec.challenge P R vk.point msg - Spec.challenge P' R vk.point msg' ≠ 0 := sub_ne_zero.2 hc
  generalize Spec.challenge P R vk.point msg = c at *
  generalize Spec.challenge P' R vk.point msg' = c' at *
  obtain ⟨A⟩ := vk
  unfold SigningKey.vk
  congr 1
  dsimp only at h1 h2 ⊢
  have h3 : (c - c') • A = (S - S') • basepoint T := by
    rw [sub_smul, sub_smul, h1, h2]
    abel
  have h4 : A = (c - c')⁻¹ • ((c - c') • A) := by
    rw [smul_smul, inv_mul_cancel₀ hd, one_smul]
  rw [h4, h3, smul_smul]
  congr 1
  field_simp

/-- **C90.** Two valid signatures with the same first half and different challenges give the signing key away: this is
why nonces must not be used twice (C77). -/
theorem C90_nonce_reuse {T : SigType} (vk : VerificationKey T) (msg msg' : List UInt8) (R : Point) (S S' : Fq)
    (h : vk.verify P msg (R.toBytes.append (Fq.toRepr S)) = true)
    (h' : vk.verify P msg' (R.toBytes.append (Fq.toRepr S')) = true)
    (hc : Spec.challenge P R vk.point msg ≠ Spec.challenge P R vk.point msg') :
    vk = SigningKey.vk ⟨(S - S') / (Spec.challenge P R vk.point msg - Spec.challenge P R vk.point msg')⟩ :=
  C90_special_soundness P P vk msg msg' R S S' h h' hc

/-- **C90.** Signatures can be simulated: for every key, challenge and response there is exactly one first half that
makes them valid, and it is found without the signing key; and if the key is `[sk] B`, exactly one nonce leads to this
signature.  So over a uniform nonce and a uniform challenge a signature is distributed as a simulated one. -/
theorem C90_simulate {T : SigType} (vk : VerificationKey T) (c S : Fq) :
    (∀ (msg : List UInt8) (R : Point), Spec.challenge P R vk.point msg = c →
      (vk.verify P msg (R.toBytes.append (Fq.toRepr S)) = true ↔ R = S • basepoint T - c • vk.point)) ∧
    ∀ sk : SigningKey T, sk.vk = vk →
      ∃! r : Fq, r • basepoint T = S • basepoint T - c • vk.point ∧ r + c * sk.s = S := by
  refine ⟨fun msg R hc => ?_, fun sk hsk => ⟨S - c * sk.s, ⟨?_, by ring⟩, fun r hr => ?_⟩⟩
  · rw [validSignature_halves, hc, eq_sub_iff_add_eq, eq_comm]
  · rw [← hsk]
    change _ = S • basepoint T - c • (sk.s • basepoint T)
    rw [sub_smul, smul_smul]
  · rw [← hr.2]; ring

/-- **C90.** Randomising a key pair gives a key pair, randomisers add up, and the zero randomiser changes nothing; so
signatures made with the randomised key are valid under the randomised verification key. -/
theorem C90_randomize (sk : SigningKey .spendAuth) (vk : VerificationKey .spendAuth) (a b : Fq) :
    (sk.randomize a).vk = sk.vk.randomize a ∧
    (vk.randomize a).point = vk.point + a • Constants.spendAuthG ∧
    (vk.randomize a).randomize b = vk.randomize (a + b) ∧ vk.randomize 0 = vk ∧
    ∀ rnd msg, (sk.vk.randomize a).verify P msg ((sk.randomize a).sign P rnd msg) = true := by
  refine ⟨randomize_vk sk a, rfl, ?_, ?_, fun rnd msg => ?_⟩
  · unfold VerificationKey.randomize
    congr 1
    dsimp only
    rw [add_smul, add_assoc]
  · unfold VerificationKey.randomize
    rw [Orchard.zero_smul, add_zero]
  · rw [← randomize_vk]
    exact verify_sign P _ rnd msg

/-- **C90.** Signing keys parse exactly the canonical encodings of scalars. -/
theorem C90_signing_key (T : SigType) :
    Spec.CanonicalField q (SigningKey.s (T := T)) SigningKey.fromBytes SigningKey.toBytes := by
  have h : ∀ b (x : SigningKey T), SigningKey.fromBytes b = some x ↔ b = Fq.toRepr x.s := by
    intro b x
    unfold SigningKey.fromBytes
    rw [Option.map_eq_some_iff]
    constructor
    · rintro ⟨s, hs, rfl⟩; exact Fq.fromRepr_eq_some_iff.1 hs
    · intro hb; exact ⟨x.s, Fq.fromRepr_eq_some_iff.2 hb, rfl⟩
  refine ⟨?_, ?_, fun x => Fq.toNat_toRepr _, fun x => (h _ _).2 rfl, fun b x hx => ((h b x).1 hx).symm⟩
  · intro b x
    rw [h]
    constructor
    · rintro rfl; exact Fq.toNat_toRepr _
    · intro hb
      apply Bytes.toNat_injective
      rw [Fq.toNat_toRepr]; exact hb
  · intro b
    have : (∃ x : SigningKey T, SigningKey.fromBytes b = some x) ↔ (Fq.fromRepr b).isSome := by
      rw [← Option.isSome_iff_exists]
      unfold SigningKey.fromBytes
      simp
    rw [this, Fq.fromRepr_isSome_iff]; rfl

/-- Primitives whose hash is the length of the message. -/
noncomputable def Examples.lengthHash : Prims := { Examples.P0 with blake2b512 := fun _ m => Bytes.ofNat 64 m.length }

theorem Examples.challenge_lengthHash (R vk : Point) (l : List UInt8) (h : l.length < 2) :
    Spec.challenge Examples.lengthHash R vk l = (64 + l.length : ℕ) := by
  have e : (R.toBytes.toList ++ vk.toBytes.toList ++ l).length = 64 + l.length := by
    rw [List.length_append, List.length_append, Bytes.length_toList, Bytes.length_toList]
  have h' : (Bytes.ofNat 64 (64 + l.length)).toNat = 64 + l.length :=
    Bytes.toNat_ofNat (lt_of_lt_of_le (show 64 + l.length < 66 by omega) (by norm_num))
  unfold Spec.challenge Examples.lengthHash
  dsimp only
  rw [e]
  exact congrArg Nat.cast h'

/-- The hypotheses of `C90_nonce_reuse` and of `C90_special_soundness`: signatures by the key 3 with the nonce 5 on the empty message (challenge 64)
and on a message of one byte (challenge 65). -/
example : ∃ (vk : VerificationKey .spendAuth) (R : Point) (S S' : Fq),
    vk.verify Examples.lengthHash [] (R.toBytes.append (Fq.toRepr S)) = true ∧
    vk.verify Examples.lengthHash [0] (R.toBytes.append (Fq.toRepr S')) = true ∧
    Spec.challenge Examples.lengthHash R vk.point [] ≠ Spec.challenge Examples.lengthHash R vk.point [0] := by
  have hs : ∀ (l : List UInt8), l.length < 2 → (SigningKey.vk (T := .spendAuth) ⟨3⟩).verify Examples.lengthHash l
      (((5 : Fq) • basepoint .spendAuth).toBytes.append (Fq.toRepr (5 + (64 + l.length : ℕ) * 3))) = true := by
    intro l hl
    refine verify_iff.2 ⟨_, _, rfl, ?_⟩
    have : hStar Examples.lengthHash (((5 : Fq) • basepoint .spendAuth).toBytes.toList ++
        (SigningKey.vk (T := .spendAuth) ⟨3⟩).toBytes.toList ++ l) = (64 + l.length : ℕ) :=
      Examples.challenge_lengthHash _ _ l hl
    rw [this]
    unfold SigningKey.vk
    rw [add_smul, mul_smul]
  refine ⟨SigningKey.vk ⟨3⟩, (5 : Fq) • basepoint .spendAuth, 5 + (64 + ([] : List UInt8).length : ℕ) * 3,
    5 + (64 + ([0] : List UInt8).length : ℕ) * 3, hs [] (by simp), hs [0] (by simp), ?_⟩
  rw [Examples.challenge_lengthHash _ _ [] (by simp), Examples.challenge_lengthHash _ _ [0] (by simp)]
  show ((64 : ℕ) : Fq) ≠ ((65 : ℕ) : Fq)
  decide +kernel

/-- Under `P0`, a signature by the key 3: valid (the hypothesis of `C90_one_response`). -/
example : (SigningKey.vk (T := .spendAuth) ⟨3⟩).verify Examples.P0 [1, 2]
    (SigningKey.sign Examples.P0 ⟨3⟩ (Bytes.ofNat 80 7) [1, 2]) = true := verify_sign ..

end Orchard
