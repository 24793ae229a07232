import Verif.Examples.Regions
import Verif.Lemmas.Complete
import Verif.Lemmas.FirstGenerator
import Verif.Lemmas.PatchCircuit
import Verif.Props.Gadgets

/-!
# C89: completeness of the circuit down to the pinned gates and lookups

One set of fixed columns (the contents of the verifying key) with which, for every witness on which synthesis
succeeds, there is a table that satisfies the gates and lookups of the pinned constraint system with all regions in
place.  So the hypotheses of C82-C88 can be met together, for every honest action.
-/

namespace Orchard

open Halo2 Layout Regions

/-- **C89.** The constants of the Sinsemilla lookups of the pinned constraint system are the coordinates of the
Sinsemilla generator of the word 0, `hash_to_curve("z.cash:SinsemillaS")(0)`. -/
theorem C89_first_generator : Spec.FirstGenerator Prims.zcash := Generators.firstGenerator_zcash

variable {P : Prims}

/-- **C89** (completeness). There are a floor plan, in which no two writes of synthesis collide, and one assignment of
the fixed columns, with the Sinsemilla table loaded, such that for every witness on which synthesis succeeds some table
has the witness in the cells that synthesis writes, and satisfies the whole constraint system. -/
theorem C89_complete (hP : ∀ x y, P.poseidon x y = Poseidon.hash x y) (hS : Spec.FirstGenerator P) :
    ∃ plan F, Spec.PossiblePlan P plan ∧ Spec.TableLoaded P F ∧
      ∀ (w : Circuit) (k : ActionCircuit.Cells) (i : Instance) (inst : List Fp), i.toHalo2 = .ret inst →
        ActionCircuit.assign P w = some k → ActionCircuit.Synthesize P true k inst →
        ∃ T, Spec.SatisfiesCircuit P plan w inst T F ∧
          ∀ c v, Event.write c v ∈ events P plan (fun row => inst.getD row 0) w → T c = v := by
  refine ⟨plan1, fixed1 P, possible_plan1 P, patchFixed_loaded P _, fun w k i inst hi hk h => ?_⟩
  obtain ⟨T, h1, h2, h3, h4⟩ := circuit_table hP hS hi hk h
  exact ⟨T, ⟨h1, h2, h3, fun a b he => (h4 _ he).2.1, fun a row he => (h4 _ he).2.1⟩,
    fun c v he => (h4 _ he).1⟩

/-- **C89.** The statement with everything defined is a case of the Action statement. -/
theorem C89_defined {i : Instance} {aw : Spec.ActionWitness} (h : Spec.DefinedStatement P i aw) :
    Spec.ActionStatement P i aw where
  gdOld := h.gdOld
  pkdOld := h.pkdOld
  gdNew := h.gdNew
  pkdNew := h.pkdNew
  ak := h.ak
  vOld := h.vOld
  vNew := h.vNew
  cmOld := Or.inl h.cmOld
  merkle := by
    obtain ⟨nodes, ⟨h1, h2, h3, h4⟩, h5⟩ := h.merkle
    refine h5.imp id fun h5 => ⟨h1, h2, nodes, h3, h5, fun l hl => ?_⟩
    obtain ⟨left, right, A, k1, k2, k3⟩ := h4 l hl
    refine ⟨left.val, right.val, val_lt_255 _, val_lt_255 _, ?_, Or.inr ⟨A, k2, k3⟩⟩
    rw [Fp.natCast_val, Fp.natCast_val]
    exact k1
  cvNet := h.cvNet
  nfOld := h.nfOld
  rk := h.rk
  pkd := Or.inr h.pkd
  cmx := Or.inl h.cmx
  enableSpend := h.enableSpend
  enableOutput := h.enableOutput

/-- **C89** (completeness, from the statement). With these fixed columns, every true Action statement with a witness for
which every hash exists, and `rk` other than the identity, has a table that satisfies the whole constraint system. -/
theorem C89_statement (hP : ∀ x y, P.poseidon x y = Poseidon.hash x y) (hS : Spec.FirstGenerator P) :
    ∃ plan F, Spec.PossiblePlan P plan ∧ Spec.TableLoaded P F ∧
      ∀ (i : Instance) (aw : Spec.ActionWitness), Spec.DefinedStatement P i aw → i.rk.point ≠ 0 →
        ∃ w inst T, i.toHalo2 = .ret inst ∧ Spec.SatisfiesCircuit P plan w inst T F := by
  obtain ⟨plan, F, h1, h2, h3⟩ := C89_complete hP hS
  refine ⟨plan, F, h1, h2, fun i aw h hrk => ?_⟩
  obtain ⟨inst, hi, -⟩ := (C27_defined i).2 hrk
  obtain ⟨k, hk, hsyn⟩ := synthesize_of_defined hi h
  obtain ⟨T, hT, -⟩ := h3 _ k i inst hi hk hsyn
  exact ⟨_, inst, T, hi, hT⟩

/-- **C89** (soundness again, C88). A table that satisfies the whole constraint system for the public inputs of an
instance has a witness of the Action statement. -/
theorem C89_sound (hP : ∀ x y, P.poseidon x y = Poseidon.hash x y) {plan : Plan} {w : Circuit} {i : Instance}
    {inst : List Fp} {T : Table} {F : Spec.FixedTable} (hi : i.toHalo2 = .ret inst) (hL : Spec.TableLoaded P F)
    (h : Spec.SatisfiesCircuit P plan w inst T F) : ∃ aw, Spec.ActionStatement P i aw := by
  obtain ⟨aw, haw, -⟩ := C88_action_sound hP plan _ w i inst hi h.gates hL h.selected h.placed h.equal h.inputs
  exact ⟨aw, haw⟩

/-- **C89** (the deployed primitives). -/
theorem C89_zcash : ∃ plan F, Spec.PossiblePlan Prims.zcash plan ∧ Spec.TableLoaded Prims.zcash F ∧
      ∀ (i : Instance) (inst : List Fp), i.toHalo2 = .ret inst →
        ((∃ aw, Spec.DefinedStatement Prims.zcash i aw) →
          ∃ w T, Spec.SatisfiesCircuit Prims.zcash plan w inst T F) ∧
        ((∃ w T, Spec.SatisfiesCircuit Prims.zcash plan w inst T F) →
          ∃ aw, Spec.ActionStatement Prims.zcash i aw) := by
  obtain ⟨plan, F, h1, h2, h3⟩ := C89_statement (P := Prims.zcash) (fun _ _ => rfl) C89_first_generator
  refine ⟨plan, F, h1, h2, fun i inst hi => ⟨fun ⟨aw, h⟩ => ?_, fun ⟨w, T, h⟩ => ?_⟩⟩
  · have hrk : i.rk.point ≠ 0 := fun h0 => by rw [(C27_defined i).1.2 h0] at hi; cases hi
    obtain ⟨w, inst', T, hi', hT⟩ := h3 i aw h hrk
    rw [hi] at hi'
    cases hi'
    exact ⟨w, T, hT⟩
  · exact C89_sound (P := Prims.zcash) (fun _ _ => rfl) hi h2 h

namespace Examples

/-- The hypotheses of `C82`-`C89` are met: the two actions of the bundle of `circuit_P0` (a spend of value 5 and a
dummy) have satisfying tables with the same fixed columns. -/
theorem complete_P0 : ∃ (b : UnauthorizedBundle I64) (plan : Plan) (F : Spec.FixedTable), b.actions.length = 2 ∧
    (∃ c ∈ b.authorization.proof.circuits, c.vOld.inner = 5) ∧ Spec.TableLoaded P0 F ∧
    ∀ (i : ℕ) (a : Action SigningMetadata) (c : Circuit), b.actions[i]? = some a →
      b.authorization.proof.circuits[i]? = some c →
      ∃ inst T, (a.toInstance b.flags b.anchor).toHalo2 = .ret inst ∧ Spec.SatisfiesCircuit P0 plan c inst T F := by
  obtain ⟨b, h1, -, h2, h3⟩ := circuit_P0
  obtain ⟨plan, F, -, k1, k2⟩ := C89_complete (P := P0) (fun _ _ => rfl) firstGenerator_P0
  refine ⟨b, plan, F, h1, h2, k1, fun i a c ha hc => ?_⟩
  obtain ⟨k, inst, hk, hi, hsyn, -⟩ := h3 i a c ha hc
  obtain ⟨T, hT, -⟩ := k2 c k _ inst hi hk hsyn
  exact ⟨inst, T, hi, hT⟩

theorem hash_merkle_P0 (l : ℕ) (a b : Fp) : ∃ h, sinsemillaHashToPoint P0 Constants.qMerkleCrh
    (leBits 10 l ++ leBits 255 a.val ++ leBits 255 b.val) = some h := by
  obtain ⟨h, h1, -⟩ := hash_P0 (Q := Constants.qMerkleCrh)
    (msg := leBits 10 l ++ leBits 255 a.val ++ leBits 255 b.val) (by simp [domainPoints]) (by simp)
  exact ⟨h, h1⟩

theorem noteCommit_some_P0 (gd pkd : Point) (v : ℕ) (rho psi : Fp) (rcm : Fq) :
    ∃ cm, Spec.noteCommit P0 gd pkd v rho psi rcm = some cm := by
  obtain ⟨h, h1, -⟩ := hash_P0 (Q := Constants.qNoteCommit)
    (msg := Spec.noteBits gd pkd v rho psi) (by simp [domainPoints]) (by simp [Spec.length_noteBits])
  exact ⟨_, by unfold Spec.noteCommit; rw [h1]⟩

/-- The hypotheses of `C89_statement` are met: under `P0` there is a true statement about a spend of value 5 at
position 6 and an output of value 3. -/
theorem defined_P0 : ∃ i aw, Spec.DefinedStatement P0 i aw ∧ i.rk.point ≠ 0 ∧ aw.vOld = 5 ∧ aw.vNew = 3 ∧ aw.pos = 6 := by
  obtain ⟨ivk, hivk, hivk0⟩ := commitIvk_P0 (extractP Constants.spendAuthG) 7
  obtain ⟨cmOld, hcmOld⟩ := noteCommit_some_P0 genG (((ivk.val : ℕ) : Fq) • genG) 5 1 2 3
  obtain ⟨cmNew, hcmNew⟩ := noteCommit_some_P0 genG genG 3 (Spec.deriveNullifier P0 7 1 2 cmOld) 4 5
  have hnext : ∀ (l : ℕ) (x : Fp), ∃ y left right h,
      (if 6 / 2 ^ l % 2 = 0 then left = x ∧ right = (1 : Fp) else left = 1 ∧ right = x) ∧
      sinsemillaHashToPoint P0 Constants.qMerkleCrh (leBits 10 l ++ leBits 255 left.val ++ leBits 255 right.val) =
        some h ∧ y = extractP h := by
    intro l x
    by_cases hb : 6 / 2 ^ l % 2 = 0
    · obtain ⟨h, hh⟩ := hash_merkle_P0 l x 1
      exact ⟨_, x, 1, h, by rw [if_pos hb]; exact ⟨rfl, rfl⟩, hh, rfl⟩
    · obtain ⟨h, hh⟩ := hash_merkle_P0 l 1 x
      exact ⟨_, 1, x, h, by rw [if_neg hb]; exact ⟨rfl, rfl⟩, hh, rfl⟩
  choose next left right h hif hh hnext using hnext
  let nodes : ℕ → Fp := fun l => Nat.rec (extractP cmOld) (fun l x => next l x) l
  have hp : ∀ l < 32, (List.replicate 32 (1 : Fp))[l]? = some 1 := fun l hl => by
    rw [List.getElem?_replicate, if_pos hl]
  have hpkd : ((ivk.val : ℕ) : Fq) • genG ≠ 0 := by
    rw [Ne, smul_eq_zero_iff']
    rintro (h | h)
    · have hlt : ivk.val < q := lt_trans (ZMod.val_lt ivk) (by decide +kernel)
      have : ivk.val = 0 := by
        have := congrArg ZMod.val h
        rwa [ZMod.val_natCast_of_lt hlt, ZMod.val_zero] at this
      exact hivk0 ((ZMod.val_eq_zero ivk).1 this)
    · exact genG_ne_zero h
  refine ⟨⟨nodes 32, ⟨(((5 : ℤ) - 3 : ℤ) : Fq) • Constants.valueCommitV + (9 : Fq) • Constants.valueCommitR⟩,
      Spec.deriveNullifier P0 7 1 2 cmOld, ⟨(0 : Fq) • Constants.spendAuthG + Constants.spendAuthG⟩, extractP cmNew,
      true, true⟩,
    ⟨List.replicate 32 1, 6, genG, ((ivk.val : ℕ) : Fq) • genG, 5, 1, 2, 3, cmOld, 0, Constants.spendAuthG, 7, 0, genG,
      genG, 3, 4, 5, 9⟩, ?_, ?_, rfl, rfl, rfl⟩
  · refine ⟨genG_ne_zero, hpkd, genG_ne_zero, genG_ne_zero, Constants.spendAuthG_ne_zero, by norm_num, by norm_num,
      hcmOld, ⟨nodes, ⟨List.length_replicate, by norm_num, rfl, fun l hl => ?_⟩, Or.inr rfl⟩, rfl, rfl, rfl,
      ⟨ivk, hivk, rfl⟩, ⟨cmNew, hcmNew, rfl⟩, Or.inr rfl, Or.inr rfl⟩
    refine ⟨left l (nodes l), right l (nodes l), h l (nodes l), ?_, hh l _, hnext l _⟩
    have := hif l (nodes l)
    dsimp only
    rw [hp l hl]
    split_ifs at this ⊢ with hb
    · exact ⟨this.1, congrArg some this.2.symm⟩
    · exact ⟨congrArg some this.1.symm, this.2⟩
  · show (0 : Fq) • Constants.spendAuthG + Constants.spendAuthG ≠ 0
    rw [Orchard.zero_smul, zero_add]
    exact Constants.spendAuthG_ne_zero

end Examples

end Orchard
