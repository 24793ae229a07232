import Verif.Crypto.EvalTables
import Verif.Model.FixedBase

/-!
# Helper lemmas for C74: evaluation of the check of the fixed-base tables
-/

namespace Orchard.FixedBase

open Compute Constants

/-- Coordinates of a tabulated point. -/
theorem rep_const {x y : ℕ} {x' y' : Fp} {e : y' ^ 2 = x' ^ 3 + 5} (hx : (x : Fp) = x') (hy : (y : Fp) = y') :
    Rep (some (x, y)) (Point.ofXY x' y' e) := by
  subst hx hy
  exact rep_ofXY.2 ⟨e, rfl⟩

set_option maxRecDepth 100000 in
theorem check_spendAuthG : checkTable Tables.SpendAuthG.z Tables.SpendAuthG.u
    (some (25027635063850382358429654596649554085117301901282348152423547104939793041763,
      12128007492603938773365931378340937928001494939630793217712875072231079427017)) none = true := by
  decide +kernel

theorem fit_spendAuthG : Spec.TablesFit spendAuthG numWindows Tables.SpendAuthG.z Tables.SpendAuthG.u :=
  tablesFit_of_check (rep_const Nat.cast_ofNat Nat.cast_ofNat) (by decide +kernel) check_spendAuthG

set_option maxRecDepth 100000 in
theorem check_nullifierK : checkTable Tables.NullifierK.z Tables.NullifierK.u
    (some (17144890976040313974462754624161095328261290075490099718273142830262355741301,
      9661337292872073193100428608853316471968232023361741282759000480983323509196)) none = true := by
  decide +kernel

theorem fit_nullifierK : Spec.TablesFit nullifierK numWindows Tables.NullifierK.z Tables.NullifierK.u :=
  tablesFit_of_check (rep_const Nat.cast_ofNat Nat.cast_ofNat) (by decide +kernel) check_nullifierK

set_option maxRecDepth 100000 in
theorem check_valueCommitR : checkTable Tables.ValueCommitR.z Tables.ValueCommitR.u
    (some (3597772235883004661259329170144280297379687592370687591147658848249887611537,
      16317546749781193797530044795837656238506071957562073482938086095508632426954)) none = true := by
  decide +kernel

theorem fit_valueCommitR : Spec.TablesFit valueCommitR numWindows Tables.ValueCommitR.z Tables.ValueCommitR.u :=
  tablesFit_of_check (rep_const Nat.cast_ofNat Nat.cast_ofNat) (by decide +kernel) check_valueCommitR

set_option maxRecDepth 100000 in
theorem check_noteCommitR : checkTable Tables.NoteCommitR.z Tables.NoteCommitR.u
    (some (17502433695644481444785977856966854265310331039772160001849803703443502427667,
      27531606546556235994383748883097777001194017792923801570415255878186539366371)) none = true := by
  decide +kernel

theorem fit_noteCommitR : Spec.TablesFit noteCommitR numWindows Tables.NoteCommitR.z Tables.NoteCommitR.u :=
  tablesFit_of_check (rep_const Nat.cast_ofNat Nat.cast_ofNat) (by decide +kernel) check_noteCommitR

set_option maxRecDepth 100000 in
theorem check_commitIvkR : checkTable Tables.CommitIvkR.z Tables.CommitIvkR.u
    (some (17022113834174368664964072539940476916905682548990455171271428285673934201112,
      18912017636736613471143674001158885358143653198146604093009134371854861983145)) none = true := by
  decide +kernel

theorem fit_commitIvkR : Spec.TablesFit commitIvkR numWindows Tables.CommitIvkR.z Tables.CommitIvkR.u :=
  tablesFit_of_check (rep_const Nat.cast_ofNat Nat.cast_ofNat) (by decide +kernel) check_commitIvkR

set_option maxRecDepth 100000 in
theorem check_valueCommitV : checkTable Tables.ValueCommitV.z Tables.ValueCommitV.u
    (some (21457208314186520936880902219424053485005045883401337627148481900742711001959,
      20379375922573002911833717643813254676246486412159279022689151936901102105230)) none = true := by
  decide +kernel

theorem fit_valueCommitV : Spec.TablesFit valueCommitV numWindowsShort Tables.ValueCommitV.z Tables.ValueCommitV.u :=
  tablesFit_of_check (rep_const Nat.cast_ofNat Nat.cast_ofNat) (by decide +kernel) check_valueCommitV

end Orchard.FixedBase
