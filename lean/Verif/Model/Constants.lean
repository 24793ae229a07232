import Verif.Basic.Encoding

/-!
# Hard-coded generators

The byte tables are copied from `/repo/src/constants`; the points are the values the Rust
constructors `pallas::Affine::from_xy(from_repr(..).unwrap(), from_repr(..).unwrap()).unwrap()`
return (proved in `Verif/Props/Constants.lean`, property C59).

Several Rust functions recompute these points with `pallas::Point::hash_to_curve` on fixed strings
(`value.rs:312-314`, `nullifier.rs:59`, `CommitDomain::new`), and `reddsa` has its own copy of the two base
points.  The model uses the tabulated points in all these places; property C73 proves that they are the
same points.
-/

namespace Orchard

/-- `pallas::Affine::from_xy(Base::from_repr(x).unwrap(), Base::from_repr(y).unwrap()).unwrap()`
(e.g. `constants/fixed_bases/spend_auth_g.rs:2923-2929`); `none` models the panics. -/
def pointFromTable (t : Bytes 32 × Bytes 32) : Option Point :=
  match Fp.fromRepr t.1, Fp.fromRepr t.2 with
  | some x, some y => if h : y ^ 2 = x ^ 3 + 5 then some (Point.ofXY x y h) else none
  | _, _ => none

/-- Byte array literal. For instance `constants/fixed_bases/spend_auth_g.rs:5-14`. -/
def bytes32 (l : List UInt8) (h : l.length = 32 := by decide) : Bytes 32 := ⟨l, h⟩

namespace Constants

/-- `constants/fixed_bases/spend_auth_g.rs:5-14`. -/
def spendAuthGBytes : Bytes 32 × Bytes 32 :=
  (bytes32 [99, 201, 117, 184, 132, 114, 26, 141, 12, 161, 112, 123, 227, 12, 127, 12, 95, 68, 95, 62, 124, 24, 141, 59, 6, 214, 241, 40, 179, 35, 85, 55],
   bytes32 [201, 59, 12, 123, 129, 62, 227, 76, 216, 189, 5, 192, 254, 20, 201, 223, 251, 36, 214, 254, 252, 188, 16, 123, 219, 102, 26, 223, 127, 53, 208, 26])

/-- `spend_auth_g::generator()`, the spend authorisation base point (`constants/fixed_bases/spend_auth_g.rs:5-14`). -/
def spendAuthG : Point :=
  Point.ofXY
    25027635063850382358429654596649554085117301901282348152423547104939793041763
    12128007492603938773365931378340937928001494939630793217712875072231079427017
    (by decide +kernel)

theorem spendAuthG_ne_zero : spendAuthG ≠ 0 := Point.ofXY_ne_zero _ _ _

/-- `constants/fixed_bases/nullifier_k.rs:5-14`. -/
def nullifierKBytes : Bytes 32 × Bytes 32 :=
  (bytes32 [117, 202, 71, 228, 167, 106, 111, 211, 155, 219, 181, 204, 146, 177, 126, 94, 207, 201, 244, 250, 113, 85, 55, 46, 141, 25, 168, 156, 22, 170, 231, 37],
   bytes32 [204, 1, 224, 26, 226, 220, 184, 45, 51, 180, 193, 193, 158, 164, 224, 95, 117, 255, 8, 32, 68, 115, 4, 136, 132, 51, 26, 27, 133, 31, 92, 21])

/-- `nullifier_k::generator()` (`constants/fixed_bases/nullifier_k.rs:5-14`). -/
def nullifierK : Point :=
  Point.ofXY
    17144890976040313974462754624161095328261290075490099718273142830262355741301
    9661337292872073193100428608853316471968232023361741282759000480983323509196
    (by decide +kernel)

theorem nullifierK_ne_zero : nullifierK ≠ 0 := Point.ofXY_ne_zero _ _ _

/-- `constants/fixed_bases/value_commit_v.rs:6-15`. -/
def valueCommitVBytes : Bytes 32 × Bytes 32 :=
  (bytes32 [103, 67, 249, 58, 110, 189, 167, 42, 140, 124, 90, 43, 127, 163, 4, 254, 50, 178, 155, 79, 112, 106, 168, 247, 66, 15, 61, 142, 122, 89, 112, 47],
   bytes32 [142, 242, 90, 175, 126, 196, 19, 164, 219, 227, 255, 167, 102, 167, 158, 29, 66, 108, 109, 19, 99, 127, 145, 30, 175, 25, 25, 49, 105, 81, 14, 45])

/-- `value_commit_v::generator()` (`constants/fixed_bases/value_commit_v.rs:6-15`). -/
def valueCommitV : Point :=
  Point.ofXY
    21457208314186520936880902219424053485005045883401337627148481900742711001959
    20379375922573002911833717643813254676246486412159279022689151936901102105230
    (by decide +kernel)

theorem valueCommitV_ne_zero : valueCommitV ≠ 0 := Point.ofXY_ne_zero _ _ _

/-- `constants/fixed_bases/value_commit_r.rs:6-15`. -/
def valueCommitRBytes : Bytes 32 × Bytes 32 :=
  (bytes32 [145, 90, 60, 136, 104, 198, 195, 14, 47, 128, 144, 238, 69, 215, 110, 64, 72, 32, 141, 234, 91, 35, 102, 79, 187, 9, 164, 15, 85, 68, 244, 7],
   bytes32 [202, 217, 114, 167, 200, 70, 47, 14, 70, 129, 146, 243, 241, 41, 146, 39, 194, 183, 111, 228, 201, 44, 86, 33, 140, 98, 38, 175, 119, 103, 19, 36])

/-- `value_commit_r::generator()`, also the binding signature base point (`constants/fixed_bases/value_commit_r.rs:6-15`). -/
def valueCommitR : Point :=
  Point.ofXY
    3597772235883004661259329170144280297379687592370687591147658848249887611537
    16317546749781193797530044795837656238506071957562073482938086095508632426954
    (by decide +kernel)

theorem valueCommitR_ne_zero : valueCommitR ≠ 0 := Point.ofXY_ne_zero _ _ _

/-- `constants/fixed_bases/note_commit_r.rs:5-14`. -/
def noteCommitRBytes : Bytes 32 × Bytes 32 :=
  (bytes32 [19, 110, 252, 15, 72, 44, 2, 44, 124, 164, 20, 252, 92, 197, 158, 35, 242, 61, 111, 147, 171, 159, 35, 205, 51, 69, 169, 40, 195, 6, 178, 38],
   bytes32 [227, 55, 207, 34, 198, 83, 65, 195, 246, 220, 224, 35, 120, 192, 199, 121, 198, 225, 102, 35, 47, 26, 84, 169, 76, 192, 109, 104, 75, 86, 222, 60])

/-- `note_commit_r::generator()` (`constants/fixed_bases/note_commit_r.rs:5-14`). -/
def noteCommitR : Point :=
  Point.ofXY
    17502433695644481444785977856966854265310331039772160001849803703443502427667
    27531606546556235994383748883097777001194017792923801570415255878186539366371
    (by decide +kernel)

theorem noteCommitR_ne_zero : noteCommitR ≠ 0 := Point.ofXY_ne_zero _ _ _

/-- `constants/fixed_bases/commit_ivk_r.rs:5-14`. -/
def commitIvkRBytes : Bytes 32 × Bytes 32 :=
  (bytes32 [24, 161, 248, 95, 110, 72, 35, 152, 199, 237, 26, 211, 226, 127, 149, 2, 72, 137, 128, 64, 10, 41, 52, 22, 78, 19, 112, 80, 205, 44, 162, 37],
   bytes32 [169, 221, 127, 227, 179, 147, 231, 63, 199, 166, 88, 27, 251, 66, 68, 107, 148, 87, 75, 40, 196, 144, 200, 194, 235, 250, 162, 102, 153, 210, 207, 41])

/-- `commit_ivk_r::generator()` (`constants/fixed_bases/commit_ivk_r.rs:5-14`). -/
def commitIvkR : Point :=
  Point.ofXY
    17022113834174368664964072539940476916905682548990455171271428285673934201112
    18912017636736613471143674001158885358143653198146604093009134371854861983145
    (by decide +kernel)

theorem commitIvkR_ne_zero : commitIvkR ≠ 0 := Point.ofXY_ne_zero _ _ _

/-- `constants/sinsemilla.rs:29-38`. -/
def qNoteCommitBytes : Bytes 32 × Bytes 32 :=
  (bytes32 [93, 116, 168, 64, 9, 186, 14, 50, 42, 221, 70, 253, 90, 15, 150, 197, 93, 237, 176, 121, 180, 242, 159, 247, 13, 205, 251, 86, 160, 7, 128, 23],
   bytes32 [99, 172, 73, 115, 90, 10, 39, 135, 158, 94, 219, 129, 136, 18, 34, 136, 44, 201, 244, 110, 217, 194, 190, 78, 131, 112, 198, 138, 147, 88, 160, 50])

/-- Sinsemilla `Q` of the note commitment domain (`constants/sinsemilla.rs:29-38`). -/
def qNoteCommit : Point :=
  Point.ofXY
    10629404576683096409262958701336170057000067777256141967953463442979689100381
    22898949290933268079297281211505753011910178734473470279111609228438645877859
    (by decide +kernel)

theorem qNoteCommit_ne_zero : qNoteCommit ≠ 0 := Point.ofXY_ne_zero _ _ _

/-- `constants/sinsemilla.rs:41-50`. -/
def qCommitIvkBytes : Bytes 32 × Bytes 32 :=
  (bytes32 [242, 130, 15, 121, 146, 47, 203, 107, 50, 162, 40, 81, 36, 204, 27, 66, 250, 65, 162, 90, 184, 129, 204, 125, 17, 200, 169, 74, 241, 12, 188, 5],
   bytes32 [190, 222, 173, 207, 206, 229, 90, 190, 241, 165, 109, 201, 29, 53, 196, 70, 75, 5, 222, 32, 70, 7, 89, 239, 230, 190, 26, 212, 246, 76, 1, 27])

/-- Sinsemilla `Q` of the ivk commitment domain (`constants/sinsemilla.rs:41-50`). -/
def qCommitIvk : Point :=
  Point.ofXY
    2593820817260930114322133467408868473290945477826616247349533151445648376562
    12214744946019415453501880094709511126888074367290315326445800415816181472958
    (by decide +kernel)

theorem qCommitIvk_ne_zero : qCommitIvk ≠ 0 := Point.ofXY_ne_zero _ _ _

/-- `constants/sinsemilla.rs:53-62`. -/
def qMerkleCrhBytes : Bytes 32 × Bytes 32 :=
  (bytes32 [160, 198, 41, 127, 249, 199, 185, 248, 112, 16, 141, 192, 85, 185, 190, 201, 153, 14, 137, 239, 90, 54, 15, 160, 185, 24, 168, 99, 150, 210, 22, 22],
   bytes32 [98, 234, 242, 37, 206, 174, 233, 134, 150, 21, 116, 5, 234, 150, 28, 226, 121, 89, 163, 79, 62, 242, 196, 45, 153, 32, 175, 227, 163, 66, 134, 53])

/-- Sinsemilla `Q` of the Merkle hash domain (`constants/sinsemilla.rs:53-62`). -/
def qMerkleCrh : Point :=
  Point.ofXY
    9991206725476878888751475603038274618448000607209514551456795194094072219296
    24209798415301550423396126020228723009317736024280831393239261884225294625378
    (by decide +kernel)

theorem qMerkleCrh_ne_zero : qMerkleCrh ≠ 0 := Point.ofXY_ne_zero _ _ _

/-- `constants/sinsemilla.rs:13-16`. -/
def invTwoPowK : Bytes 32 :=
  bytes32 [1, 0, 192, 196, 160, 229, 70, 82, 221, 165, 74, 202, 85, 7, 62, 34, 0, 0, 0, 0, 0, 0, 0,
    0, 0, 0, 0, 0, 0, 0, 240, 63]

/-- `constants.rs:14`. -/
def T_Q : ℕ := 45560315531506369815346746415080538113

/-- `constants.rs:18`. -/
def T_P : ℕ := 45560315531419706090280762371685220353

/-- `constants/sinsemilla.rs:10`. -/
def K : ℕ := 10

/-- `constants/sinsemilla.rs:20`. -/
def C : ℕ := 253

/-- `constants.rs:10`. -/
def MERKLE_DEPTH : ℕ := 32

end Constants

end Orchard
