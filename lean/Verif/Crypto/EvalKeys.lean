import Verif.Crypto.EvalMerkle
import Verif.Crypto.EvalPoseidon
import Verif.Model.Note

/-!
# Evaluating keys and notes in the kernel

Bytes, field elements and points of the model, with the primitives of Zcash, in terms of numbers.  Nothing here models
code.
-/

namespace Orchard.Compute

open RedPallas

/-! ### Numbers, bytes, field elements -/

theorem fp_toRepr {n : ℕ} {b : Bytes 32} (hn : n < p) (h : b.toNat = n) : Fp.toRepr (n : Fp) = b := by
  apply Bytes.toNat_injective
  rw [Fp.toNat_toRepr, ZMod.val_natCast_of_lt hn, h]

theorem fq_toRepr {n : ℕ} {b : Bytes 32} (hn : n < q) (h : b.toNat = n) : Fq.toRepr (n : Fq) = b := by
  apply Bytes.toNat_injective
  rw [Fq.toNat_toRepr, ZMod.val_natCast_of_lt hn, h]

theorem fp_fromRepr {b : Bytes 32} (h : b.toNat < p) : Fp.fromRepr b = some (b.toNat : Fp) := by
  unfold Fp.fromRepr
  rw [if_pos h]

theorem fp_ne_zero {n : ℕ} (h0 : n ≠ 0) (hn : n < p) : (n : Fp) ≠ 0 := by
  intro h
  have := congrArg ZMod.val h
  rw [ZMod.val_natCast_of_lt hn, ZMod.val_zero] at this
  exact h0 this

theorem fq_ne_zero {n : ℕ} (h0 : n ≠ 0) (hn : n < q) : (n : Fq) ≠ 0 := by
  intro h
  have := congrArg ZMod.val h
  rw [ZMod.val_natCast_of_lt hn, ZMod.val_zero] at this
  exact h0 this

theorem toScalar_nat {b : Bytes 64} {n r : ℕ} (h : b.toNat = n) (hr : n % q = r) : toScalar b = (r : Fq) := by
  subst h hr
  unfold toScalar Fq.fromUniform
  rw [ZMod.natCast_mod]

theorem toBase_nat {b : Bytes 64} {n r : ℕ} (h : b.toNat = n) (hr : n % p = r) : toBase b = (r : Fp) := by
  subst h hr
  unfold toBase Fp.fromUniform
  rw [ZMod.natCast_mod]

theorem nonZeroScalarOfBase_nat {n : ℕ} (h0 : n ≠ 0) (hn : n < p) : nonZeroScalarOfBase (n : Fp) = .ret (n : Fq) := by
  have hq : n < q := hn.trans (by decide +kernel)
  unfold nonZeroScalarOfBase modRP
  have h : Fq.fromRepr (Fp.toRepr (n : Fp)) = some (n : Fq) := by
    unfold Fq.fromRepr
    rw [Fp.toNat_toRepr, ZMod.val_natCast_of_lt hn, if_pos hq]
  rw [h, Option.unwrapO_some, Outcome.ret_bind, decide_eq_true (fq_ne_zero h0 hq), assertO_true, Outcome.ret_bind]
  rfl

theorem modRP_nat {n : ℕ} (hn : n < p) : modRP (n : Fp) = .ret (n : Fq) := by
  have hq : n < q := hn.trans (by decide +kernel)
  unfold modRP
  have h : Fq.fromRepr (Fp.toRepr (n : Fp)) = some (n : Fq) := by
    unfold Fq.fromRepr
    rw [Fp.toNat_toRepr, ZMod.val_natCast_of_lt hn, if_pos hq]
  rw [h, Option.unwrapO_some]

/-! ### PRF^expand -/

theorem zcash_blake2b512 : Prims.zcash.blake2b512 = Blake2b.hash 64 := by
  delta Prims.zcash
  with_reducible rfl

theorem zcash_blake2b256 : Prims.zcash.blake2b256 = Blake2b.hash 32 := by
  delta Prims.zcash
  with_reducible rfl

theorem zcash_hashToCurve : Prims.zcash.hashToCurve = HashToCurve.hashToCurve := by
  delta Prims.zcash
  with_reducible rfl

theorem zcash_poseidon : Prims.zcash.poseidon = Poseidon.hash := by
  delta Prims.zcash
  with_reducible rfl

/-- `PRF^expand` on numbers. -/
noncomputable def prfK (dst sk t tl : ℕ) : ℕ :=
  digestK 64 0x78455f687361635a 0x64656553646e6170 (sk + 256 ^ 32 * (dst + 256 * t)) (33 + tl) % 256 ^ 64

theorem prfExpand_nat {dst : UInt8} {sk : Bytes 32} {t : List UInt8} {S T tl : ℕ} (hS : sk.toNat = S)
    (hT : leNat t = T) (htl : t.length = tl) (hl : tl < 2 ^ 32) :
    (prfExpand Prims.zcash dst sk t).toNat = prfK dst.toNat S T tl := by
  subst hS hT htl
  unfold prfExpand
  rw [zcash_blake2b512]
  show leNat (leBytes 64 _) = _
  have hlen : (sk.toList ++ dst :: t).length = 33 + t.length := by
    rw [List.length_append, Bytes.length_toList, List.length_cons]; omega
  rw [leNat_leBytes, digestK_eq _ _ _ (by rw [hlen]; omega), hlen, leNat_append, Bytes.length_toList, leNat]
  have h0 : leNat ((ascii "Zcash_ExpandSeed").take 8) = 0x78455f687361635a := by decide +kernel
  have h1 : leNat (((ascii "Zcash_ExpandSeed").drop 8).take 8) = 0x64656553646e6170 := by decide +kernel
  rw [h0, h1]
  rfl

/-! ### Points -/

/-- The encoding of a point with the given coordinates. -/
def encK (x y : ℕ) : ℕ := x + 2 ^ 255 * (y % 2)

theorem rep_toNat {x y : ℕ} {A : Point} (hA : Rep (some (x, y)) A) (hx : x < p) (hy : y < p) :
    A.toBytes.toNat = encK x y := by
  obtain ⟨e, rfl⟩ := rep_ofXY.1 hA
  rw [Point.toNat_toBytes_ofXY, ZMod.val_natCast_of_lt hx]
  unfold Point.sgn
  rw [ZMod.val_natCast_of_lt hy]
  rfl

theorem rep_toBytes {x y : ℕ} {A : Point} {b : Bytes 32} (hA : Rep (some (x, y)) A) (hx : x < p) (hy : y < p)
    (h : b.toNat = encK x y) : A.toBytes = b := by
  apply Bytes.toNat_injective
  rw [rep_toNat hA hx hy, h]

theorem encK_lt {x y : ℕ} (hx : x < p) : encK x y < 2 ^ 256 := by
  have := p_lt_two_pow_255
  unfold encK
  have : y % 2 < 2 := Nat.mod_lt _ (by norm_num)
  rw [show (2 : ℕ) ^ 256 = 2 ^ 255 * 2 by rw [← pow_succ]]
  generalize (2 : ℕ) ^ 255 = w at *
  nlinarith

theorem encK_div {x y : ℕ} (hx : x < p) : encK x y / 2 ^ 255 = y % 2 := by
  have := p_lt_two_pow_255
  unfold encK
  rw [Nat.add_mul_div_left _ _ (by positivity), Nat.div_eq_of_lt (hx.trans this), zero_add]

/-- Is this the multiple? -/
noncomputable def mulIs (x y n rx ry : ℕ) : Bool :=
  match mulK x y n (Nat.log2 n) with
  | some r => Nat.beq r.1 rx && Nat.beq r.2 ry
  | none => false

theorem mulIs_sound {x y n rx ry : ℕ} {A : Point} (hA : Rep (some (x, y)) A) (h0 : n ≠ 0)
    (h : mulIs x y n rx ry = true) : Rep (some (rx, ry)) ((n : Fq) • A) := by
  unfold mulIs at h
  generalize hr : mulK x y n (Nat.log2 n) = o at h
  match o, h with
  | some (a, b), h =>
    rw [Bool.and_eq_true] at h
    have ha : a = rx := Nat.eq_of_beq_eq_true h.1
    have hb : b = ry := Nat.eq_of_beq_eq_true h.2
    rw [← ha, ← hb]
    exact mulK_sound hA (Nat.log2_self_le h0) Nat.lt_log2_self hr

/-- Is this the sum? -/
noncomputable def addIs (x₁ y₁ x₂ y₂ rx ry : ℕ) : Bool :=
  match addK x₁ y₁ x₂ y₂ fun a b => some (a, b) with
  | some r => Nat.beq r.1 rx && Nat.beq r.2 ry
  | none => false

theorem addIs_sound {x₁ y₁ x₂ y₂ rx ry : ℕ} {A B : Point} (hA : Rep (some (x₁, y₁)) A) (hB : Rep (some (x₂, y₂)) B)
    (h : addIs x₁ y₁ x₂ y₂ rx ry = true) : Rep (some (rx, ry)) (A + B) := by
  unfold addIs at h
  generalize hr : (addK x₁ y₁ x₂ y₂ fun a b => some (a, b)) = o at h
  match o, h with
  | some (a, b), h =>
    rw [Bool.and_eq_true] at h
    have ha : a = rx := Nat.eq_of_beq_eq_true h.1
    have hb : b = ry := Nat.eq_of_beq_eq_true h.2
    obtain ⟨x, y, h1, h2, -⟩ := addK_sound hA hB hr
    rw [← ha, ← hb, ← h2]
    exact h1

/-- Is this the Sinsemilla hash? -/
noncomputable def sinsemillaIs (k N x y rx ry : ℕ) : Bool :=
  match sinsemillaK k N x y with
  | some r => Nat.beq r.1 rx && Nat.beq r.2 ry
  | none => false

theorem sinsemillaIs_sound {l : List Bool} {k N x y rx ry : ℕ} {Q : Point} (hk : (l.length + 9) / 10 = k)
    (hN : bitsNat l = N) (hQ : Rep (some (x, y)) Q) (h : sinsemillaIs k N x y rx ry = true) :
    ∃ C, sinsemillaHashToPoint Prims.zcash Q l = some C ∧ Rep (some (rx, ry)) C := by
  unfold sinsemillaIs at h
  generalize hr : sinsemillaK k N x y = o at h
  match o, h with
  | some (a, b), h =>
    rw [Bool.and_eq_true] at h
    have ha : a = rx := Nat.eq_of_beq_eq_true h.1
    have hb : b = ry := Nat.eq_of_beq_eq_true h.2
    rw [← ha, ← hb]
    exact sinsemilla_sound hk hN hQ hr

theorem sinsemillaCommit_of_some {P : Prims} {Q R C : Point} {l : List Bool} {r : Fq}
    (h : sinsemillaHashToPoint P Q l = some C) : sinsemillaCommit P Q R l r = some (C + r • R) := by
  unfold sinsemillaCommit
  rw [h, Option.map_some]

/-- Sinsemilla commitment: hash, blinding term, sum. -/
theorem commit_sound {l : List Bool} {k N qx qy hx hy r tx ty mx my cx cy : ℕ} {Q R : Point}
    (hk : (l.length + 9) / 10 = k) (hN : bitsNat l = N) (hQ : Rep (some (qx, qy)) Q) (hR : Rep (some (tx, ty)) R)
    (h1 : sinsemillaIs k N qx qy hx hy = true) (h0 : r ≠ 0) (h2 : mulIs tx ty r mx my = true)
    (h3 : addIs hx hy mx my cx cy = true) :
    ∃ C, sinsemillaCommit Prims.zcash Q R l (r : Fq) = some C ∧ Rep (some (cx, cy)) C := by
  obtain ⟨C, hC, hrep⟩ := sinsemillaIs_sound hk hN hQ h1
  exact ⟨_, sinsemillaCommit_of_some hC, addIs_sound hrep (mulIs_sound hR h0 h2) h3⟩

/-- Is this the hash to the curve? -/
noncomputable def hashIs (D dl M ml rx ry : ℕ) : Bool :=
  match hashToCurveK D dl M ml with
  | some (some r) => Nat.beq r.1 rx && Nat.beq r.2 ry
  | _ => false

theorem hashIs_sound {d m : List UInt8} {D dl M ml rx ry : ℕ} (hD : leNat (HashToCurve.dst d) = D)
    (hdl : (HashToCurve.dst d).length = dl) (hM : leNat m = M) (hml : m.length = ml) (hl : dl + ml < 2 ^ 32)
    (h : hashIs D dl M ml rx ry = true) : Rep (some (rx, ry)) (HashToCurve.hashToCurve d m) := by
  unfold hashIs at h
  generalize hr : hashToCurveK D dl M ml = o at h
  match o, h with
  | some (some (a, b)), h =>
    rw [Bool.and_eq_true] at h
    have ha : a = rx := Nat.eq_of_beq_eq_true h.1
    have hb : b = ry := Nat.eq_of_beq_eq_true h.2
    rw [← ha, ← hb]
    exact rep_hashToCurveK hD hdl hM hml hl hr

theorem rep_ne_zero {x y : ℕ} {A : Point} (h : Rep (some (x, y)) A) : A ≠ 0 := by
  obtain ⟨e, rfl⟩ := rep_ofXY.1 h
  exact Point.ofXY_ne_zero _ _ _

theorem diversifyHash_of_ne {P : Prims} {d : Bytes 11}
    (h : P.hashToCurve keyDiversificationPersonalization d.toList ≠ 0) :
    diversifyHash P d = P.hashToCurve keyDiversificationPersonalization d.toList := by
  unfold diversifyHash
  dsimp only
  rw [if_neg h]

/-- The packed domain separation tag of `diversify_hash`. -/
noncomputable def gdTag : ℕ := leNat (HashToCurve.dst keyDiversificationPersonalization)

theorem diversifyHash_sound {d : Bytes 11} {n x y : ℕ} (hd : d.toNat = n)
    (h : hashIs gdTag (HashToCurve.dst keyDiversificationPersonalization).length n 11 x y = true) :
    Rep (some (x, y)) (diversifyHash Prims.zcash d) := by
  have hl : (HashToCurve.dst keyDiversificationPersonalization).length + 11 < 2 ^ 32 := by decide +kernel
  have hr := hashIs_sound (d := keyDiversificationPersonalization) (m := d.toList) rfl rfl hd
    (Bytes.length_toList d) hl h
  have hz : Prims.zcash.hashToCurve keyDiversificationPersonalization d.toList =
      HashToCurve.hashToCurve keyDiversificationPersonalization d.toList := by
    rw [zcash_hashToCurve]
  rw [← hz] at hr
  rw [diversifyHash_of_ne (rep_ne_zero hr)]
  exact hr

/-! ### The generators -/

theorem rep_spendAuthG : Rep (some (25027635063850382358429654596649554085117301901282348152423547104939793041763,
    12128007492603938773365931378340937928001494939630793217712875072231079427017)) Constants.spendAuthG :=
  rep_ofXY_intro Nat.cast_ofNat Nat.cast_ofNat

theorem rep_nullifierK : Rep (some (17144890976040313974462754624161095328261290075490099718273142830262355741301,
    9661337292872073193100428608853316471968232023361741282759000480983323509196)) Constants.nullifierK :=
  rep_ofXY_intro Nat.cast_ofNat Nat.cast_ofNat

theorem rep_noteCommitR : Rep (some (17502433695644481444785977856966854265310331039772160001849803703443502427667,
    27531606546556235994383748883097777001194017792923801570415255878186539366371)) Constants.noteCommitR :=
  rep_ofXY_intro Nat.cast_ofNat Nat.cast_ofNat

theorem rep_commitIvkR : Rep (some (17022113834174368664964072539940476916905682548990455171271428285673934201112,
    18912017636736613471143674001158885358143653198146604093009134371854861983145)) Constants.commitIvkR :=
  rep_ofXY_intro Nat.cast_ofNat Nat.cast_ofNat

theorem rep_qNoteCommit : Rep (some (10629404576683096409262958701336170057000067777256141967953463442979689100381,
    22898949290933268079297281211505753011910178734473470279111609228438645877859)) Constants.qNoteCommit :=
  rep_ofXY_intro Nat.cast_ofNat Nat.cast_ofNat

theorem rep_qCommitIvk : Rep (some (2593820817260930114322133467408868473290945477826616247349533151445648376562,
    12214744946019415453501880094709511126888074367290315326445800415816181472958)) Constants.qCommitIvk :=
  rep_ofXY_intro Nat.cast_ofNat Nat.cast_ofNat

theorem rep_valueCommitV : Rep (some (21457208314186520936880902219424053485005045883401337627148481900742711001959,
    20379375922573002911833717643813254676246486412159279022689151936901102105230)) Constants.valueCommitV :=
  rep_ofXY_intro Nat.cast_ofNat Nat.cast_ofNat

theorem rep_valueCommitR : Rep (some (3597772235883004661259329170144280297379687592370687591147658848249887611537,
    16317546749781193797530044795837656238506071957562073482938086095508632426954)) Constants.valueCommitR :=
  rep_ofXY_intro Nat.cast_ofNat Nat.cast_ofNat

end Orchard.Compute
