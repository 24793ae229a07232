import Verif.Crypto.EvalHashToCurve
import Verif.Model.Prims
import Verif.Model.Spec

/-!
# Helper lemmas for C73: evaluation of `hash_to_curve` on the strings used by the crate
-/

namespace Orchard.Generators

open Compute Constants

/-- A computed point, compared with a tabulated one. -/
theorem hash_eq {d m : List UInt8} {x y : ℕ} (h : hashToCurve' d m = some (some (x, y))) {x' y' : Fp}
    {e : y' ^ 2 = x' ^ 3 + 5} (hx : (x : Fp) = x') (hy : (y : Fp) = y') :
    HashToCurve.hashToCurve d m = Point.ofXY x' y' e := by
  obtain ⟨h1, h2⟩ := rep_ofXY.1 (rep_hashToCurve h)
  rw [h2, Point.ofXY_inj]
  exact ⟨hx, hy⟩

set_option maxRecDepth 100000 in
theorem eval_spendAuthG : hashToCurve' (ascii "z.cash:Orchard") (ascii "G") =
    some (some (25027635063850382358429654596649554085117301901282348152423547104939793041763,
      12128007492603938773365931378340937928001494939630793217712875072231079427017)) := by
  decide +kernel

theorem hash_spendAuthG : HashToCurve.hashToCurve (ascii "z.cash:Orchard") (ascii "G") = spendAuthG :=
  hash_eq eval_spendAuthG Nat.cast_ofNat Nat.cast_ofNat

set_option maxRecDepth 100000 in
theorem eval_nullifierK : hashToCurve' (ascii "z.cash:Orchard") (ascii "K") =
    some (some (17144890976040313974462754624161095328261290075490099718273142830262355741301,
      9661337292872073193100428608853316471968232023361741282759000480983323509196)) := by
  decide +kernel

theorem hash_nullifierK : HashToCurve.hashToCurve (ascii "z.cash:Orchard") (ascii "K") = nullifierK :=
  hash_eq eval_nullifierK Nat.cast_ofNat Nat.cast_ofNat

set_option maxRecDepth 100000 in
theorem eval_valueCommitV : hashToCurve' (ascii "z.cash:Orchard-cv") (ascii "v") =
    some (some (21457208314186520936880902219424053485005045883401337627148481900742711001959,
      20379375922573002911833717643813254676246486412159279022689151936901102105230)) := by
  decide +kernel

theorem hash_valueCommitV : HashToCurve.hashToCurve (ascii "z.cash:Orchard-cv") (ascii "v") = valueCommitV :=
  hash_eq eval_valueCommitV Nat.cast_ofNat Nat.cast_ofNat

set_option maxRecDepth 100000 in
theorem eval_valueCommitR : hashToCurve' (ascii "z.cash:Orchard-cv") (ascii "r") =
    some (some (3597772235883004661259329170144280297379687592370687591147658848249887611537,
      16317546749781193797530044795837656238506071957562073482938086095508632426954)) := by
  decide +kernel

theorem hash_valueCommitR : HashToCurve.hashToCurve (ascii "z.cash:Orchard-cv") (ascii "r") = valueCommitR :=
  hash_eq eval_valueCommitR Nat.cast_ofNat Nat.cast_ofNat

set_option maxRecDepth 100000 in
theorem eval_noteCommitR : hashToCurve' (ascii "z.cash:Orchard-NoteCommit-r") (ascii "") =
    some (some (17502433695644481444785977856966854265310331039772160001849803703443502427667,
      27531606546556235994383748883097777001194017792923801570415255878186539366371)) := by
  decide +kernel

theorem hash_noteCommitR : HashToCurve.hashToCurve (ascii "z.cash:Orchard-NoteCommit-r") (ascii "") = noteCommitR :=
  hash_eq eval_noteCommitR Nat.cast_ofNat Nat.cast_ofNat

set_option maxRecDepth 100000 in
theorem eval_commitIvkR : hashToCurve' (ascii "z.cash:Orchard-CommitIvk-r") (ascii "") =
    some (some (17022113834174368664964072539940476916905682548990455171271428285673934201112,
      18912017636736613471143674001158885358143653198146604093009134371854861983145)) := by
  decide +kernel

theorem hash_commitIvkR : HashToCurve.hashToCurve (ascii "z.cash:Orchard-CommitIvk-r") (ascii "") = commitIvkR :=
  hash_eq eval_commitIvkR Nat.cast_ofNat Nat.cast_ofNat

set_option maxRecDepth 100000 in
theorem eval_qNoteCommit : hashToCurve' (ascii "z.cash:SinsemillaQ") (ascii "z.cash:Orchard-NoteCommit-M") =
    some (some (10629404576683096409262958701336170057000067777256141967953463442979689100381,
      22898949290933268079297281211505753011910178734473470279111609228438645877859)) := by
  decide +kernel

theorem hash_qNoteCommit : HashToCurve.hashToCurve (ascii "z.cash:SinsemillaQ") (ascii "z.cash:Orchard-NoteCommit-M") = qNoteCommit :=
  hash_eq eval_qNoteCommit Nat.cast_ofNat Nat.cast_ofNat

set_option maxRecDepth 100000 in
theorem eval_qCommitIvk : hashToCurve' (ascii "z.cash:SinsemillaQ") (ascii "z.cash:Orchard-CommitIvk-M") =
    some (some (2593820817260930114322133467408868473290945477826616247349533151445648376562,
      12214744946019415453501880094709511126888074367290315326445800415816181472958)) := by
  decide +kernel

theorem hash_qCommitIvk : HashToCurve.hashToCurve (ascii "z.cash:SinsemillaQ") (ascii "z.cash:Orchard-CommitIvk-M") = qCommitIvk :=
  hash_eq eval_qCommitIvk Nat.cast_ofNat Nat.cast_ofNat

set_option maxRecDepth 100000 in
theorem eval_qMerkleCrh : hashToCurve' (ascii "z.cash:SinsemillaQ") (ascii "z.cash:Orchard-MerkleCRH") =
    some (some (9991206725476878888751475603038274618448000607209514551456795194094072219296,
      24209798415301550423396126020228723009317736024280831393239261884225294625378)) := by
  decide +kernel

theorem hash_qMerkleCrh : HashToCurve.hashToCurve (ascii "z.cash:SinsemillaQ") (ascii "z.cash:Orchard-MerkleCRH") = qMerkleCrh :=
  hash_eq eval_qMerkleCrh Nat.cast_ofNat Nat.cast_ofNat

set_option maxRecDepth 100000 in
theorem eval_gd : hashToCurve' keyDiversificationPersonalization [] =
    some (some (10768988237238338371351496677717728370655126853999122676869676565627374112831,
      10721465123032558614345956521513689840994419172943221468098712395363447283645)) := by
  decide +kernel

theorem gd_ne_zero : HashToCurve.hashToCurve keyDiversificationPersonalization [] ≠ 0 := by
  obtain ⟨h1, h2⟩ := rep_ofXY.1 (rep_hashToCurve eval_gd)
  rw [h2]
  exact Point.ofXY_ne_zero _ _ _

end Orchard.Generators
