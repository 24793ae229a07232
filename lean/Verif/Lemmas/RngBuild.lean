import Verif.Lemmas.Rng
import Verif.Props.Build

/-! # The draws of a build -/

namespace Orchard

open Drawing RedPallas

variable {E α β : Type}

section
variable (P : Prims) (G : Generator) (fuel : ℕ)

theorem genRangeStep_some {w r v j : ℕ} (hr : 0 < r) (hw : r < 2 ^ w) (h : genRangeStep w r v = some j) :
    Spec.Ranged w r v j := by
  unfold genRangeStep at h
  simp only at h
  split at h
  · rename_i hz
    rw [Option.some.injEq] at h
    subst h
    have hl : Nat.log2 r < w := (Nat.log2_lt hr.ne').2 hw
    have h1 : 2 ^ Nat.log2 r ≤ r := Nat.log2_self_le hr.ne'
    have h2 : r < 2 ^ (Nat.log2 r + 1) := Nat.lt_log2_self
    have e1 : (2 : ℕ) ^ (w - 1) = 2 ^ Nat.log2 r * 2 ^ (w - 1 - Nat.log2 r) := by
      rw [← pow_add]; congr 1; omega
    have e2 : (2 : ℕ) ^ w = 2 ^ (Nat.log2 r + 1) * 2 ^ (w - 1 - Nat.log2 r) := by
      rw [← pow_add]; congr 1; omega
    have hp : 0 < (2 : ℕ) ^ (w - 1 - Nat.log2 r) := by positivity
    have hd := Nat.div_add_mod (v * r) (2 ^ w)
    have hpos : 0 < r * 2 ^ (w - 1 - Nat.log2 r) := Nat.mul_pos hr hp
    refine ⟨w - 1 - Nat.log2 r, ?_, ?_, ?_, ?_⟩
    · rw [e1]; exact Nat.mul_le_mul_right _ h1
    · rw [e2]; exact Nat.mul_lt_mul_of_pos_right h2 hp
    · rw [mul_comm]; omega
    · rw [mul_comm (v * r / 2 ^ w)]; omega
  · simp at h

theorem Ranged.lt {w r v j : ℕ} (hv : v < 2 ^ w) (h : Spec.Ranged w r v j) : j < r := by
  obtain ⟨t, h0, -, h1, -⟩ := h
  by_contra hj
  have h2 : r * 2 ^ w ≤ j * 2 ^ w := Nat.mul_le_mul_right _ (by omega)
  have hr : 0 < r := by
    rcases Nat.eq_zero_or_pos r with rfl | h
    · have : 0 < 2 ^ (w - 1) := by positivity
      omega
    · exact h
  have h3 : v * r < 2 ^ w * r := Nat.mul_lt_mul_of_pos_right hv hr
  rw [mul_comm (2 ^ w)] at h3
  omega

theorem genIndex_run (r k : ℕ) (hr : 0 < r) (hw : r < 2 ^ 64) : match (genIndex G fuel r : Drawing E ℕ) k with
    | .ok (j, k') => ∃ p, k ≤ p ∧ k' = p + 1 ∧ Spec.Chosen G p r j ∧ j < r
    | .err _ => False
    | .panic => False
    | .more => True := by
  unfold genIndex Spec.Chosen
  by_cases h32 : r < 2 ^ 32
  · simp only [if_pos h32]
    have e : ∀ m, (do pure (genRangeStep 32 r (← nextU32 G).toNat) : Drawing E (Option ℕ)) m =
      .ok (genRangeStep 32 r (UInt32.ofNat (G.bytes m 4).toNat).toNat, m + 1) := fun m => rfl
    have := untilSome_inv (body := (do pure (genRangeStep 32 r (← nextU32 G).toNat) : Drawing E (Option ℕ)))
      (fun k o k' h => by
        rw [e] at h
        simp only [Run.ok.injEq, Prod.mk.injEq] at h
        omega) fuel k
    cases hx : untilSome (do pure (genRangeStep 32 r (← nextU32 G).toNat) : Drawing E (Option ℕ)) fuel k with
    | ok q =>
      rw [hx] at this
      obtain ⟨m, h1, h2⟩ := this
      rw [e] at h2
      simp only [Run.ok.injEq, Prod.mk.injEq] at h2
      have h3 := genRangeStep_some hr h32 h2.1
      have hlt := Ranged.lt (UInt32.toNat_lt _) h3
      have h4 := (G.bytes m 4).toNat_lt
      rw [UInt32.toNat_ofNat', Nat.mod_eq_of_lt (by norm_num at h4 ⊢; exact h4)] at h3
      exact ⟨m, h1, h2.2.symm, h3, hlt⟩
    | err e' => rw [hx] at this; obtain ⟨m, h2⟩ := this; cases h2
    | panic => rw [hx] at this; obtain ⟨m, h2⟩ := this; cases h2
    | more => trivial
  · simp only [if_neg h32]
    have e : ∀ m, (do pure (genRangeStep 64 r (← nextU64 G)) : Drawing E (Option ℕ)) m =
      .ok (genRangeStep 64 r (G.bytes m 8).toNat, m + 1) := fun m => rfl
    have := untilSome_inv (body := (do pure (genRangeStep 64 r (← nextU64 G)) : Drawing E (Option ℕ)))
      (fun k o k' h => by
        rw [e] at h
        simp only [Run.ok.injEq, Prod.mk.injEq] at h
        omega) fuel k
    cases hx : untilSome (do pure (genRangeStep 64 r (← nextU64 G)) : Drawing E (Option ℕ)) fuel k with
    | ok q =>
      rw [hx] at this
      obtain ⟨m, h1, h2⟩ := this
      rw [e] at h2
      simp only [Run.ok.injEq, Prod.mk.injEq] at h2
      have h3 := genRangeStep_some hr hw h2.1
      have h4 := (G.bytes m 8).toNat_lt
      exact ⟨m, h1, h2.2.symm, h3, Ranged.lt (by norm_num at h4 ⊢; exact h4) h3⟩
    | err e' => rw [hx] at this; obtain ⟨m, h2⟩ := this; cases h2
    | panic => rw [hx] at this; obtain ⟨m, h2⟩ := this; cases h2
    | more => trivial

/-! ### Composite draws -/

theorem foldlM_ok {ι : Type} (f : β → ι → β) :
    ∀ (is : List ι) (b : β), is.foldlM (fun b i => (Run.ok (f b i) : Run E β)) b = .ok (is.foldl f b)
  | [], _ => rfl
  | i :: is, b => by
    rw [List.foldlM_cons, Run.ok_bind, foldlM_ok f is, List.foldl_cons]

theorem sim_shuffle {γ : Type} (l : List γ) (hl : l.length < 2 ^ 64) :
    Sim (shuffleWith G fuel l : Drawing E (List γ)) (fun d : ℕ → ℕ => .ok (shuffle d l)) fun d _ =>
      Chain (fun i k k' => ∃ p, k ≤ p ∧ k' = p + 1 ∧ Spec.Chosen G p (i + 1) (d i))
        (List.range' 1 (l.length - 1)).reverse := by
  unfold shuffleWith
  refine (Sim.bind (Sim.foldlM (D := ℕ) (key := id)
    (f := fun (v : Array γ) i => (do
      let j ← genIndex G fuel (i + 1)
      pure (v.swapIfInBounds i j) : Drawing E (Array γ)))
    (g := fun v i d => .ok (v.swapIfInBounds i (d % (i + 1))))
    (U := fun i d k k' => ∃ p, k ≤ p ∧ k' = p + 1 ∧ Spec.Chosen G p (i + 1) d) ?_ ?_)
    (D' := Unit) (g := fun v _ => .ok v.toList) (W := fun _ _ _ k k' => k = k') fun v _ => Sim.pure _).relabel
    Prod.fst ?_ ?_
  · rw [List.map_id, List.nodup_reverse]
    exact List.nodup_range'
  · intro i hi v k
    rw [List.mem_reverse, List.mem_range'_1] at hi
    have := genIndex_run (E := E) G fuel (i + 1) k (by omega) (by omega)
    rw [bind_run]
    cases hx : (genIndex G fuel (i + 1) : Drawing E ℕ) k with
    | ok q =>
      rw [hx] at this
      obtain ⟨p, h1, h2, h3, h4⟩ := this
      exact ⟨q.1, by simp only [Nat.mod_eq_of_lt h4], p, h1, h2, h3⟩
    | err e' => rw [hx] at this; exact this.elim
    | panic => rw [hx] at this; exact this.elim
    | more => trivial
  · intro d
    simp only [id]
    rw [foldlM_ok (fun (v : Array γ) i => v.swapIfInBounds i (d.1 i % (i + 1)))]
    rfl
  · rintro d a k k' ⟨_, m, -, h, -, rfl⟩
    exact h

instance : Nonempty MerklePath := ⟨⟨0, List.replicate 32 0, by simp [Constants.MERKLE_DEPTH]⟩⟩

/-- The labelled draws of a dummy spend. -/
abbrev spendLabel (d : Bytes 32 × Point × Bytes 32 × MerklePath) : SpendDummyDraws :=
  ⟨[d.1], d.2.1, [d.2.2.1], d.2.2.2⟩

theorem keyRun_eq (b : Bytes 32) : (Run.ofOutcome (SpendingKey.random P [b]) >>= Run.ofDraws : Run E _) =
    keyRun P b >>= fun sk => .ok (sk, []) := by
  unfold keyRun SpendingKey.random
  cases SpendingKey.fromBytes P b with
  | ret o => cases o <;> rfl
  | panic => rfl

theorem noteRun_eq (recipient : Address) (value : NoteValue) (rho : Fp) (s : Bytes 32) :
    (Run.ofDraws (Note.new P recipient value rho [s]) : Run E _) =
      noteRun P recipient value rho s >>= fun n => .ok (n, []) := by
  unfold noteRun Note.new
  simp only [List.length_cons, List.length_nil, Note.newAux, RandomSeed.random]
  cases RandomSeed.fromBytes P s rho with
  | none => rfl
  | some r =>
    simp only [Option.bind_some]
    cases Note.fromParts P recipient value rho r <;> rfl

theorem dummySpend_eq (d : Bytes 32 × Point × Bytes 32 × MerklePath) :
    (SpendInfo.dummy P (spendLabel d) : Run E SpendInfo) =
      keyRun P d.1 >>= fun sk => Run.ofOutcome (FullViewingKey.ofSk P sk) >>= fun fvk =>
      Run.ofOutcome (fvk.addressAt P (Bytes.ofNat 11 0) .external) >>= fun recipient =>
      noteRun P recipient NoteValue.zero (nullifierDummy d.2.1) d.2.2.1 >>= fun note =>
      .ok ⟨some sk, fvk, .external, note, d.2.2.2⟩ := by
  obtain ⟨b, pt, s, path⟩ := d
  unfold SpendInfo.dummy Note.dummy
  have hk := keyRun_eq (E := E) P b
  cases h1 : SpendingKey.random P [b] with
  | panic =>
    rw [h1] at hk
    cases h2 : (keyRun P b : Run E SpendingKey) <;> rw [h2] at hk <;> cases hk
    rfl
  | ret o =>
    rw [h1] at hk
    cases o with
    | none =>
      cases h2 : (keyRun P b : Run E SpendingKey) <;> rw [h2] at hk <;> cases hk
      rfl
    | some q =>
      cases h2 : (keyRun P b : Run E SpendingKey) <;> rw [h2] at hk <;> cases hk
      rename_i sk
      simp only [Outcome.ret_bind, Run.ok_bind]
      cases h3 : FullViewingKey.ofSk P sk with
      | panic => rfl
      | ret fvk =>
        simp only [Outcome.ret_bind, Run.ofOutcome_ret, Run.ok_bind]
        cases h4 : fvk.addressAt P (Bytes.ofNat 11 0) .external with
        | panic => rfl
        | ret recipient =>
          have hn := noteRun_eq (E := E) P recipient NoteValue.zero (nullifierDummy pt) s
          simp only [Outcome.ret_bind, Run.ofOutcome_ret, Run.ok_bind, Option.getD_none]
          cases h5 : Note.new P recipient NoteValue.zero (nullifierDummy pt) [s] with
          | none =>
            rw [h5] at hn
            cases h6 : (noteRun P recipient NoteValue.zero (nullifierDummy pt) s : Run E Note) <;>
              rw [h6] at hn <;> cases hn
            rfl
          | some q =>
            rw [h5] at hn
            cases h6 : (noteRun P recipient NoteValue.zero (nullifierDummy pt) s : Run E Note) <;>
              rw [h6] at hn <;> cases hn
            rfl

/-- The draws of a dummy spend, at their places. -/
def SpendAt (d : Bytes 32 × Point × Bytes 32 × MerklePath) (k k' : ℕ) : Prop :=
  ∃ p1 p2 p3 p4, k ≤ p1 ∧ p1 + 1 ≤ p2 ∧ p2 + 9 ≤ p3 ∧ p3 + 1 ≤ p4 ∧ p4 + 257 ≤ k' ∧ d.1 = G.bytes p1 32 ∧
    (∃ y h, d.2.1 = Point.ofXY (Spec.wide G p2 : Fp) y h ∧ y.val % 2 = (G.bytes (p2 + 8) 4).toNat % 2) ∧
    d.2.2.1 = G.bytes p3 32 ∧ d.2.2.2.position.toNat = (G.bytes p4 4).toNat ∧
    d.2.2.2.authPath = (List.range 32).map fun l => (Spec.wide G (p4 + 1 + 8 * l) : Fp)

/-- One call of 32 bytes, at its place. -/
def BytesAt (b : Bytes 32) (k k' : ℕ) : Prop := ∃ p, k ≤ p ∧ k' = p + 1 ∧ b = G.bytes p 32

/-- A choice, at its place. -/
def ChoiceAt (i j : ℕ) (k k' : ℕ) : Prop := ∃ p, k ≤ p ∧ k' = p + 1 ∧ Spec.Chosen G p (i + 1) j

/-- A trapdoor, at its place. -/
def RcvAt (r : Fq) (k k' : ℕ) : Prop := r = (Spec.wide G k : Fq) ∧ k' = k + 8

theorem sim_spendDummy : Sim (SpendInfo.drawDummy P G fuel : Drawing E SpendInfo)
    (fun d : ℕ × Point × Bytes 32 × MerklePath => SpendInfo.dummy P (spendLabel (G.bytes d.1 32, d.2)))
    fun d _ => SpendAt G (G.bytes d.1 32, d.2) := by
  unfold SpendInfo.drawDummy Note.drawDummy nullifierDraw
  simp only [bind_assoc, pure_bind]
  have h5 := fun (sk : SpendingKey) (fvk : FullViewingKey) (note : Note) =>
    (sim_path (E := E) G).map fun path => (⟨some sk, fvk, .external, note, path⟩ : SpendInfo)
  have h4 := fun (sk : SpendingKey) (fvk : FullViewingKey) (recipient : Address) (pt : Point) =>
    (sim_note (E := E) P G fuel recipient NoteValue.zero (nullifierDummy pt)).seq (h5 sk fvk)
  have h3 := fun (sk : SpendingKey) (fvk : FullViewingKey) (recipient : Address) =>
    (sim_randomPoint (E := E) G fuel).seq (h4 sk fvk recipient)
  have h2 := fun (sk : SpendingKey) (fvk : FullViewingKey) =>
    Sim.outcome (fvk.addressAt P (Bytes.ofNat 11 0) .external) fun recipient _ => h3 sk fvk recipient
  have h1 := fun (sk : SpendingKey) => Sim.outcome (FullViewingKey.ofSk P sk) fun fvk _ => h2 sk fvk
  refine ((sim_spendingKey P G fuel).seq h1).relabel (fun d => d) ?_ ?_
  · intro d
    exact dummySpend_eq P (G.bytes d.1 32, d.2)
  · rintro d a k k' ⟨m1, ⟨h1, h2⟩, m2, ⟨p2, h4, h5, h6⟩, m3, ⟨p3, h7, h8, h9⟩, h10, h11, h12⟩
    exact ⟨d.1, p2, p3, m3, h1, by omega, by omega, by omega, by omega, rfl, h6, h9, h11, h12⟩

theorem sim_outputDummy : Sim (OutputInfo.drawDummy P G fuel : Drawing E OutputInfo)
    (fun p => OutputInfo.dummy P [G.bytes p 32]) fun p _ => BytesAt G (G.bytes p 32) := by
  have e : ∀ b, (OutputInfo.dummy P [b] : Run E OutputInfo) =
      keyRun P b >>= fun sk => Run.ofOutcome (FullViewingKey.ofSk P sk) >>= fun fvk =>
      Run.ofOutcome (fvk.addressAt P (Bytes.ofNat 11 0) .external) >>= fun recipient =>
      .ok (OutputInfo.new none recipient NoteValue.zero none) := by
    intro b
    unfold OutputInfo.dummy
    have := congrArg (fun z : Run E (SpendingKey × List (Bytes 32)) => z >>= fun x =>
      Run.ofOutcome (FullViewingKey.ofSk P x.1) >>= fun fvk =>
      Run.ofOutcome (fvk.addressAt P (Bytes.ofNat 11 0) .external) >>= fun recipient =>
      .ok (OutputInfo.new none recipient NoteValue.zero none)) (keyRun_eq P b)
    simpa only [bind_assoc, Run.ok_bind, Run.pure_eq] using this
  unfold OutputInfo.drawDummy
  have h2 := fun (fvk : FullViewingKey) => Sim.outcome (E := E) (fvk.addressAt P (Bytes.ofNat 11 0) .external)
    fun recipient _ => Sim.pure (D := Unit) (OutputInfo.new none recipient NoteValue.zero none)
  have h1 := fun (sk : SpendingKey) => Sim.outcome (FullViewingKey.ofSk P sk) fun fvk _ => h2 fvk
  refine ((sim_spendingKey P G fuel).seq h1).relabel (fun d => d.1) ?_ ?_
  · intro d
    exact e (G.bytes d.1 32)
  · rintro d a k k' ⟨m1, ⟨h1, h2⟩, rfl⟩
    exact ⟨d.1, h1, h2, rfl⟩

/-- The labelled draws of an action. -/
abbrev actionLabel (d : Fq × Bytes 32 × Bytes 32 × Bytes 64) : ActionDraws := ⟨d.1, [d.2.1], d.2.2.1, d.2.2.2⟩

/-- The draws of an action, at their places. -/
def ActionAt (a : ActionInfo) (d : Fq × Bytes 32 × Bytes 32 × Bytes 64) (k k' : ℕ) : Prop :=
  ∃ p1 p2 p3, k ≤ p1 ∧ p1 + 8 ≤ p2 ∧ p2 + 1 ≤ p3 ∧ p3 ≤ k' ∧
    d.1 = (Spec.wide G p1 : Fq) ∧ d.2.1 = G.bytes p2 32 ∧
    (a.output.ovk = none → p3 + 2 ≤ k' ∧ d.2.2.1 = G.bytes p3 32 ∧ d.2.2.2 = G.bytes (p3 + 1) 64)

theorem sim_action (a : ActionInfo) : Sim (a.draw P G fuel : Drawing E (Action SigningMetadata × Circuit))
    (fun d => a.build P (actionLabel d)) fun d _ => ActionAt G a d := by
  have key : ∀ (ovk : Option (Bytes 32)), Sim (ovkRandom G ovk : Drawing E (Bytes 32 × Bytes 64)) (fun d => .ok d) fun d _ k k' => k ≤ k' ∧
          (ovk = none → k + 2 ≤ k' ∧ d.1 = G.bytes k 32 ∧ d.2 = G.bytes (k + 1) 64) := by
    intro ovk k
    cases ovk with
    | none => exact ⟨_, rfl, by omega, fun _ => ⟨le_rfl, rfl, rfl⟩⟩
    | some b => exact ⟨_, rfl, le_rfl, fun h => by cases h⟩
  have e : ∀ d : Fq × Bytes 32 × Bytes 32 × Bytes 64, (a.build P (actionLabel d) : Run E _) =
      Run.ofOutcome a.valueSum >>= fun vNet =>
      Run.ofOutcome (Option.unwrapO (ValueCommitment.derive vNet a.rcv)) >>= fun cvNet =>
      Run.ofOutcome (a.spend.note.nullifier P a.spend.fvk) >>= fun nfOld =>
      .ok d.1 >>= fun alpha =>
      noteRun P a.output.recipient a.output.value nfOld d.2.1 >>= fun note =>
      Run.ofOutcome (note.cmx P) >>= fun cmx =>
      .ok d.2.2 >>= fun rnd =>
      Run.ofOutcome (encryptNote P a.output.ovk note a.output.memo cvNet cmx rnd.1 rnd.2) >>= fun encryptedNote =>
      Run.ofOutcome (ActionInfo.mapO (SpendAuthorizingKey.ofSk P) a.spend.dummySk) >>= fun dummyAsk =>
      Run.ofOutcome (Circuit.fromActionContextUnchecked P a.spend note alpha a.rcv) >>= fun circuit =>
      .ok (Action.fromParts nfOld (VerificationKey.randomize a.spend.fvk.ak alpha) cmx encryptedNote cvNet
        { dummyAsk := dummyAsk, parts := { ak := a.spend.fvk.ak, alpha := alpha } }, circuit) := by
    intro d
    unfold ActionInfo.build
    simp only [noteRun_eq, bind_assoc, Run.ok_bind, Run.pure_eq]
  have h8 := fun (cvNet : ValueCommitment) (nfOld : Fp) (alpha : Fq) (note : Note) (cmx : Fp)
      (encryptedNote : TransmittedNoteCiphertext) (dummyAsk : Option SpendAuthorizingKey) =>
    Sim.outcome (E := E) (Circuit.fromActionContextUnchecked P a.spend note alpha a.rcv) fun circuit _ =>
      Sim.pure (D := Unit) (Action.fromParts nfOld (VerificationKey.randomize a.spend.fvk.ak alpha) cmx encryptedNote
        cvNet ({ dummyAsk := dummyAsk, parts := { ak := a.spend.fvk.ak, alpha := alpha } } : SigningMetadata), circuit)
  have h7 := fun (cvNet : ValueCommitment) (nfOld : Fp) (alpha : Fq) (note : Note) (cmx : Fp)
      (encryptedNote : TransmittedNoteCiphertext) =>
    Sim.outcome (ActionInfo.mapO (SpendAuthorizingKey.ofSk P) a.spend.dummySk) fun dummyAsk _ =>
      h8 cvNet nfOld alpha note cmx encryptedNote dummyAsk
  have h6 := fun (cvNet : ValueCommitment) (nfOld : Fp) (alpha : Fq) (note : Note) (cmx : Fp)
      (rnd : Bytes 32 × Bytes 64) =>
    Sim.outcome (encryptNote P a.output.ovk note a.output.memo cvNet cmx rnd.1 rnd.2) fun encryptedNote _ =>
      h7 cvNet nfOld alpha note cmx encryptedNote
  have h5 := fun (cvNet : ValueCommitment) (nfOld : Fp) (alpha : Fq) (note : Note) =>
    Sim.outcome (note.cmx P) fun cmx _ => (key a.output.ovk).seq (h6 cvNet nfOld alpha note cmx)
  have h4 := fun (cvNet : ValueCommitment) (nfOld : Fp) (alpha : Fq) =>
    (sim_note P G fuel a.output.recipient a.output.value nfOld).seq (h5 cvNet nfOld alpha)
  have h3 := fun (cvNet : ValueCommitment) (nfOld : Fp) => (sim_randomScalar G).seq (h4 cvNet nfOld)
  have h2 := fun (cvNet : ValueCommitment) => Sim.outcome (a.spend.note.nullifier P a.spend.fvk) fun nfOld _ =>
    h3 cvNet nfOld
  have h1 := fun (vNet : ValueSum) =>
    Sim.outcome (Option.unwrapO (ValueCommitment.derive vNet a.rcv)) fun cvNet _ => h2 cvNet
  have h0 := Sim.outcome a.valueSum fun vNet _ => h1 vNet
  have hd : a.draw P G fuel = (do
      let vNet ← outcome a.valueSum
      let cvNet ← outcome (Option.unwrapO (ValueCommitment.derive vNet a.rcv))
      let nfOld ← outcome (a.spend.note.nullifier P a.spend.fvk)
      let alpha ← randomScalar G
      let note ← Note.draw P G fuel a.output.recipient a.output.value nfOld
      let cmx ← outcome (note.cmx P)
      let rnd ← ovkRandom G a.output.ovk
      let encryptedNote ← outcome (encryptNote P a.output.ovk note a.output.memo cvNet cmx rnd.1 rnd.2)
      let dummyAsk ← outcome (ActionInfo.mapO (SpendAuthorizingKey.ofSk P) a.spend.dummySk)
      let circuit ← outcome (Circuit.fromActionContextUnchecked P a.spend note alpha a.rcv)
      pure (Action.fromParts nfOld (VerificationKey.randomize a.spend.fvk.ak alpha) cmx encryptedNote cvNet
        { dummyAsk := dummyAsk, parts := { ak := a.spend.fvk.ak, alpha := alpha } }, circuit) :
      Drawing E (Action SigningMetadata × Circuit)) := rfl
  rw [hd]
  refine h0.relabel (fun d => (d.1, d.2.1, d.2.2.1)) ?_ ?_
  · intro d
    exact e _
  · rintro d b k k' ⟨m1, ⟨h1, h2⟩, m2, ⟨p2, h3, h4, h5⟩, m3, ⟨h6, h7⟩, rfl⟩
    exact ⟨k, p2, m2, le_rfl, by omega, by omega, by omega, h1, h5, h7⟩

theorem sim_padded {γ D : Type} [Nonempty D] {dummy : Drawing E γ} {g : D → Run E γ} {U : D → ℕ → ℕ → Prop}
    (h : Sim dummy g fun d _ => U d) (requested : List γ) (n : ℕ) :
    Sim (drawPadded dummy requested n) (fun d : ℕ → D => indexedPadded (fun i => g (d i)) requested n)
      fun d _ => Chain (fun i => U (d i)) (List.range (n - requested.length)) :=
  Sim.map (Sim.mapM (key := id) (by rw [List.map_id]; exact List.nodup_range) fun _ _ => h) _

theorem foldlM_ofOutcome {ι : Type} (f : β → ι → Outcome β) :
    ∀ (is : List ι) (b : β), is.foldlM (fun b i => (Run.ofOutcome (f b i) : Run E β)) b = Run.ofOutcome (is.foldlM f b)
  | [], _ => rfl
  | i :: is, b => by
    rw [List.foldlM_cons, List.foldlM_cons]
    cases f b i with
    | ret c => rw [Run.ofOutcome_ret, Run.ok_bind, Outcome.ret_bind, foldlM_ofOutcome f is]
    | panic => rfl

theorem nodup_map_snd_zipIdx {γ : Type} (l : List γ) (k : ℕ) : ((l.zipIdx k).map Prod.snd).Nodup := by
  rw [List.zipIdx_map_snd]
  exact List.nodup_range'

theorem sim_drawActions (S : List (SpendInfo × ℕ)) (O : List (OutputInfo × ℕ)) (s o : ℕ) :
    Sim (drawActions G S O s o : Drawing E (BundleMetadata × List ActionInfo))
      (fun d : ℕ → Fq => Run.ofOutcome (recordActions S O s o d)) fun d _ =>
      Chain (fun x k k' => d x.2 = (Spec.wide G k : Fq) ∧ k' = k + 8) (S.zip O).zipIdx := by
  unfold drawActions
  refine (Sim.foldlM (D := Fq) (key := Prod.snd)
    (g := fun acc x d => Run.ofOutcome (recordAction s o (fun _ => d) acc x))
    (U := fun _ d k k' => d = (Spec.wide G k : Fq) ∧ k' = k + 8) (nodup_map_snd_zipIdx _ _) ?_).relabel
    id ?_ fun _ _ _ _ h => h
  · intro x _ acc
    refine ((sim_randomScalar G).seq (D' := Unit) (g := fun rcv _ => Run.ofOutcome (recordAction s o (fun _ => rcv) acc x))
      (W := fun _ k k' => k = k') fun rcv => ?_).relabel Prod.fst (fun _ => rfl) ?_
    · intro k
      unfold Drawing.outcome Drawing.lift
      cases recordAction s o (fun _ => rcv) acc x with
      | ret a => exact ⟨(), rfl, rfl⟩
      | panic => exact ⟨(), rfl⟩
    · rintro d a k k' ⟨m, h, rfl⟩
      exact h
  · intro d
    unfold recordActions
    rw [← foldlM_ofOutcome]
    rfl

/-- The labels of all draws of a build; those of keys are the numbers of their calls. -/
abbrev Labels : Type :=
  (ℕ → ℕ × Point × Bytes 32 × MerklePath) × (ℕ → ℕ) × (ℕ → ℕ) × (ℕ → ℕ) × (ℕ → Fq) ×
    (ℕ → Fq × Bytes 32 × Bytes 32 × Bytes 64)

/-- The labelled draws. -/
def Labels.draws (d : Labels) : BuildDraws where
  spendDummy i := spendLabel (G.bytes (d.1 i).1 32, (d.1 i).2)
  outputDummy i := [G.bytes (d.2.1 i) 32]
  spendShuffle := d.2.2.1
  outputShuffle := d.2.2.2.1
  rcv := d.2.2.2.2.1
  action i := actionLabel (d.2.2.2.2.2 i)

end

theorem mapM_zipIdx {α β : Type} {m : Type → Type} [Monad m] [LawfulMonad m] (f : α → m β) :
    ∀ (l : List α) (k : ℕ), (l.zipIdx k).mapM (fun a => f a.1) = l.mapM f
  | [], _ => rfl
  | a :: l, k => by rw [List.zipIdx_cons, List.mapM_cons, List.mapM_cons, mapM_zipIdx f l]

section
variable {V : Type} (P : Prims) (tryFrom : I64 → Option V) (G : Generator) (fuel : ℕ) (anchor : Fp)

/-- The part of `bundleWith` after the plan. -/
noncomputable def finishWith (flags : Flags) (x : BundleMetadata × List ActionInfo) :
    Drawing BuildError (Option (UnauthorizedBundle V × BundleMetadata)) := do
  let bundleMeta := x.1
  let preActions := x.2
  let vb ← lift (planBalance tryFrom preActions)
  let bsk : SigningKey .binding :=
    ⟨(ValueCommitTrapdoor.sum (preActions.map ActionInfo.rcv)).inner⟩
  let built ← preActions.mapM fun a => a.draw P G fuel
  let actions := built.map Prod.fst
  let circuits := built.map Prod.snd
  let balanceCommitment ← outcome
    (Option.unwrapO (ValueCommitment.derive vb.1 ValueCommitTrapdoor.zero))
  let bvk : VerificationKey .binding :=
    ⟨((ValueCommitment.sum (actions.map Action.cvNet)).sub balanceCommitment).inner⟩
  outcome (assertO (decide (bsk.vk = bvk)))
  if h : actions ≠ [] then
    pure (some
      ({ actions := actions, nonempty := h, flags := flags, valueBalance := vb.2,
         anchor := anchor,
         authorization := { proof := { circuits := circuits }, sigs := { bsk := bsk } } },
       bundleMeta))
  else pure none

/-- The part of `bundleWith` after the checks. -/
noncomputable def constructWith (flags : Flags) (spends : List SpendInfo) (outputs : List OutputInfo) (n : ℕ) :
    Drawing BuildError (Option (UnauthorizedBundle V × BundleMetadata)) := do
  let S ← drawPadded (SpendInfo.drawDummy P G fuel) spends n
  let O ← drawPadded (OutputInfo.drawDummy P G fuel) outputs n
  let S ← shuffleWith G fuel S
  let O ← shuffleWith G fuel O
  let x ← drawActions G S O spends.length outputs.length
  finishWith P tryFrom G fuel anchor flags x

theorem bundleWith_eq (ty : BundleType) (spends : List SpendInfo) (outputs : List OutputInfo) :
    bundleWith P tryFrom G fuel anchor ty spends outputs =
      if !ty.flags.spendsEnabled && decide (0 < spends.length) then lift (.err .spendsDisabled)
      else outcome (allMatchAnchor P anchor spends) >>= fun matching =>
        if !matching then lift (.err .anchorMismatch)
        else if !ty.flags.outputsEnabled && decide (0 < outputs.length) then lift (.err .outputsDisabled)
        else match ty.numActions spends.length outputs.length with
          | none => lift (.err .bundleTypeNotSatisfiable)
          | some n => constructWith P tryFrom G fuel anchor ty.flags spends outputs n := rfl

theorem sim_finish (d0 : Labels) (flags : Flags) (x : BundleMetadata × List ActionInfo) :
    Sim (finishWith P tryFrom G fuel anchor flags x)
      (fun d => finish P tryFrom (Labels.draws G (d0.1, d0.2.1, d0.2.2.1, d0.2.2.2.1, d0.2.2.2.2.1, d)) anchor flags x)
      fun d _ => Chain (fun a => ActionAt G a.1 (d a.2)) x.2.zipIdx := by
  have h2 := fun (vb : ValueSum × V) (built : List (Action SigningMetadata × Circuit)) =>
    Sim.outcome (E := BuildError) (Option.unwrapO (ValueCommitment.derive vb.1 ValueCommitTrapdoor.zero)) fun c _ =>
      Sim.outcome (E := BuildError) (D := Unit) (W := fun _ _ k k' => k = k')
        (assertO (decide ((⟨(ValueCommitTrapdoor.sum (x.2.map ActionInfo.rcv)).inner⟩ : SigningKey .binding).vk =
          ⟨((ValueCommitment.sum ((built.map Prod.fst).map Action.cvNet)).sub c).inner⟩)))
        (f := fun _ => if h : built.map Prod.fst ≠ [] then
          pure (some
            (({ actions := built.map Prod.fst, nonempty := h, flags := flags, valueBalance := vb.2,
                anchor := anchor,
                authorization := { proof := { circuits := built.map Prod.snd },
                                   sigs := { bsk := ⟨(ValueCommitTrapdoor.sum (x.2.map ActionInfo.rcv)).inner⟩ } } } :
              UnauthorizedBundle V), x.1))
          else pure none)
        (g := fun _ _ => if h : built.map Prod.fst ≠ [] then
          pure (some
            (({ actions := built.map Prod.fst, nonempty := h, flags := flags, valueBalance := vb.2,
                anchor := anchor,
                authorization := { proof := { circuits := built.map Prod.snd },
                                   sigs := { bsk := ⟨(ValueCommitTrapdoor.sum (x.2.map ActionInfo.rcv)).inner⟩ } } } :
              UnauthorizedBundle V), x.1))
          else pure none) fun _ _ => by
        by_cases h : built.map Prod.fst ≠ []
        · simp only [dif_pos h]; exact Sim.pure _
        · simp only [dif_neg h]; exact Sim.pure _
  have hm : Sim (x.2.mapM fun a => a.draw P G fuel : Drawing BuildError _)
      (fun d : ℕ → Fq × Bytes 32 × Bytes 32 × Bytes 64 => x.2.zipIdx.mapM fun a => a.1.build P (actionLabel (d a.2)))
      fun d _ => Chain (fun a => ActionAt G a.1 (d a.2)) x.2.zipIdx := by
    rw [← mapM_zipIdx (fun a : ActionInfo => (a.draw P G fuel : Drawing BuildError _)) x.2 0]
    exact Sim.mapM (key := Prod.snd) (f := fun a : ActionInfo × ℕ => a.1.draw P G fuel)
      (g := fun a d => a.1.build P (actionLabel d))
      (U := fun a d => ActionAt G a.1 d) (nodup_map_snd_zipIdx _ _) fun a _ => sim_action P G fuel a.1
  have h1 := fun (vb : ValueSum × V) => hm.seq (h2 vb)
  have h0 := Sim.lift (planBalance tryFrom x.2) fun vb _ => h1 vb
  refine Sim.relabel (x := finishWith P tryFrom G fuel anchor flags x) h0 Prod.fst (fun d => rfl) ?_
  rintro d a k k' ⟨m, h, rfl⟩
  exact h

instance : Nonempty Labels :=
  ⟨(fun _ => (default, 0, default, Classical.arbitrary _), fun _ => default, fun i => i, fun i => i, fun _ => 0,
    fun _ => (0, default, default, default))⟩

/-- All draws of a build, at their places. -/
def ConstructAt (flags : Flags) (spends : List SpendInfo) (outputs : List OutputInfo) (n : ℕ) (d : Labels)
    (r : Option (UnauthorizedBundle V × BundleMetadata)) (k k' : ℕ) : Prop :=
  ∃ S O x k1 k2 k3 k4 k5,
    indexedPadded (fun i => (SpendInfo.dummy P ((d.draws G).spendDummy i) : Run BuildError _)) spends n = .ok S ∧
    indexedPadded (fun i => (OutputInfo.dummy P ((d.draws G).outputDummy i) : Run BuildError _)) outputs n = .ok O ∧
    recordActions (shuffle (d.draws G).spendShuffle S) (shuffle (d.draws G).outputShuffle O) spends.length outputs.length
      (d.draws G).rcv = .ret x ∧
    finish P tryFrom (d.draws G) anchor flags x = .ok r ∧
    Chain (fun i => SpendAt G (G.bytes (d.1 i).1 32, (d.1 i).2)) (List.range (n - spends.length)) k k1 ∧
    Chain (fun i => BytesAt G (G.bytes (d.2.1 i) 32)) (List.range (n - outputs.length)) k1 k2 ∧
    Chain (fun i => ChoiceAt G i (d.2.2.1 i)) (List.range' 1 (S.length - 1)).reverse k2 k3 ∧
    Chain (fun i => ChoiceAt G i (d.2.2.2.1 i)) (List.range' 1 (O.length - 1)).reverse k3 k4 ∧
    Chain (fun x => RcvAt G (d.2.2.2.2.1 x.2))
      ((shuffle (d.draws G).spendShuffle S).zip (shuffle (d.draws G).outputShuffle O)).zipIdx k4 k5 ∧
    Chain (fun a => ActionAt G a.1 (d.2.2.2.2.2 a.2)) x.2.zipIdx k5 k'

theorem length_indexedPadded {E γ : Type} {dummy : ℕ → Run E γ} {l : List γ} {n : ℕ} (hn : l.length ≤ n)
    {r : List (γ × ℕ)} (h : indexedPadded dummy l n = .ok r) : r.length = n := by
  obtain ⟨ds, h1, rfl⟩ := (indexedPadded_eq_ok hn).1 h
  have := h1.length_eq
  rw [List.length_range] at this
  rw [List.length_zipIdx, List.length_append]
  omega

theorem sim_construct (flags : Flags) (spends : List SpendInfo) (outputs : List OutputInfo) (n : ℕ)
    (hs : spends.length ≤ n) (ho : outputs.length ≤ n) (hn : n < 2 ^ 64) :
    Sim (constructWith P tryFrom G fuel anchor flags spends outputs n)
      (fun d : Labels => construct P tryFrom (d.draws G) anchor flags spends outputs n)
      (ConstructAt P tryFrom G anchor flags spends outputs n) := by
  have d0 : Labels := Classical.arbitrary _
  have h4 := fun (S : List (SpendInfo × ℕ)) (O : List (OutputInfo × ℕ)) =>
    (sim_drawActions (E := BuildError) G S O spends.length outputs.length).bind fun x _ =>
      sim_finish P tryFrom G fuel anchor d0 flags x
  have h3 := fun (S : List (SpendInfo × ℕ)) (O : List (OutputInfo × ℕ)) (hO : O.length < 2 ^ 64) =>
    (sim_shuffle (E := BuildError) G fuel O hO).bind fun O' _ => h4 S O'
  have h2 := fun (S : List (SpendInfo × ℕ)) (O : List (OutputInfo × ℕ)) (hS : S.length < 2 ^ 64)
      (hO : O.length < 2 ^ 64) =>
    (sim_shuffle (E := BuildError) G fuel S hS).bind fun S' _ => h3 S' O hO
  have h1 := fun (S : List (SpendInfo × ℕ)) (hS : S.length < 2 ^ 64) =>
    (sim_padded (sim_outputDummy (E := BuildError) P G fuel) outputs n).bind fun O hO =>
      h2 S O hS (by obtain ⟨d, hd⟩ := hO; rw [length_indexedPadded ho hd]; exact hn)
  have h0 := (sim_padded (sim_spendDummy (E := BuildError) P G fuel) spends n).bind fun S hS =>
      h1 S (by obtain ⟨d, hd⟩ := hS; rw [length_indexedPadded hs hd]; exact hn)
  refine Sim.relabel (x := constructWith P tryFrom G fuel anchor flags spends outputs n) h0 (fun d => d) ?_ ?_
  · intro d
    rfl
  · rintro d r k k' ⟨S, k1, e1, c1, -, O, k2, e2, c2, -, S', k3, e3, c3, -, O', k4, e4, c4, -, x, k5, e5, c5, e6, c6⟩
    rw [Run.ok.injEq] at e3 e4
    subst e3 e4
    exact ⟨S, O, x, k1, k2, k3, k4, k5, e1, e2, Run.ofOutcome_eq_ok.1 e5, e6, c1, c2, c3, c4, c5, c6⟩

theorem numActions_lt {ty : BundleType} {s o n : ℕ} (h : ty.numActions s o = some n) (hs : s < 2 ^ 64)
    (ho : o < 2 ^ 64) : n < 2 ^ 64 := by
  unfold BundleType.numActions MIN_ACTIONS at h
  cases ty with
  | transactional flags req =>
    simp only at h
    split_ifs at h <;> simp only [Option.some.injEq] at h <;> omega
  | coinbase =>
    simp only at h
    split_ifs at h
    simp only [Option.some.injEq] at h
    omega

theorem sim_bundle (ty : BundleType) (spends : List SpendInfo) (outputs : List OutputInfo)
    (hs : spends.length < 2 ^ 64) (ho : outputs.length < 2 ^ 64) :
    Sim (bundleWith P tryFrom G fuel anchor ty spends outputs)
      (fun d : Labels => bundle P tryFrom (d.draws G) anchor ty spends outputs)
      (fun d r k k' => ∃ n, Checked P anchor ty spends outputs n ∧
        ConstructAt P tryFrom G anchor ty.flags spends outputs n d r k k') := by
  rw [bundleWith_eq]
  simp only [bundle_eq]
  by_cases h1 : (!ty.flags.spendsEnabled && decide (0 < spends.length)) = true
  · simp only [h1, if_true]
    exact Sim.err _ _
  · simp only [h1, if_false, Bool.false_eq_true]
    refine Sim.outcome _ (g := fun matching (d : Labels) => if !matching then .err .anchorMismatch
        else if !ty.flags.outputsEnabled && decide (0 < outputs.length) then .err .outputsDisabled
        else match ty.numActions spends.length outputs.length with
          | none => .err .bundleTypeNotSatisfiable
          | some n => construct P tryFrom (d.draws G) anchor ty.flags spends outputs n) fun matching hmatch => ?_
    cases matching with
    | false =>
      simp only [Bool.not_false, if_true]
      exact Sim.err _ _
    | true =>
      simp only [Bool.not_true, Bool.false_eq_true, if_false]
      by_cases h4 : (!ty.flags.outputsEnabled && decide (0 < outputs.length)) = true
      · simp only [h4, if_true]
        exact Sim.err _ _
      · simp only [h4, if_false, Bool.false_eq_true]
        cases hnum : ty.numActions spends.length outputs.length with
        | none => exact Sim.err _ _
        | some n =>
          obtain ⟨g1, g2⟩ := numActions_ge hnum
          refine (sim_construct P tryFrom G fuel anchor ty.flags spends outputs n g1 g2 ?_).relabel id (fun _ => rfl) ?_
          · exact numActions_lt hnum hs ho
          · intro d r k k' h
            exact ⟨n, ⟨flag_false_iff.1 (by simpa using h1), flag_false_iff.1 (by simpa using h4),
              allMatchAnchor_true hmatch, hnum⟩, h⟩

end

/-! ### Logs -/

/-- The calls of the values of a log come one after the other, none before call `k` and none from call `k'` on. -/
def Ordered : ℕ → List (Spec.Label × ℕ) → ℕ → Prop
  | k, [], k' => k ≤ k'
  | k, (s, p) :: l, k' => k ≤ p ∧ Ordered (p + s.calls) l k'

/-- A log of draws with the given labels. -/
def Logged (G : Generator) (rng : BuildDraws) (L : List Spec.Label) (k k' : ℕ) : Prop :=
  ∃ log : List (Spec.Label × ℕ), log.map Prod.fst = L ∧ Ordered k log k' ∧
    ∀ s p, (s, p) ∈ log → Spec.Reads G rng p s

variable {G : Generator} {rng : BuildDraws}

theorem ordered_append {k m k' : ℕ} {l1 l2 : List (Spec.Label × ℕ)} (h1 : Ordered k l1 m)
    (h2 : Ordered m l2 k') : Ordered k (l1 ++ l2) k' := by
  induction l1 generalizing k with
  | nil =>
    cases l2 with
    | nil => exact le_trans h1 h2
    | cons x l2 => exact ⟨le_trans h1 h2.1, h2.2⟩
  | cons x l1 ih => exact ⟨h1.1, ih h1.2⟩

theorem Logged.nil {k k' : ℕ} (h : k ≤ k') : Logged G rng [] k k' := ⟨[], rfl, h, by simp⟩

theorem Logged.single {s : Spec.Label} {k k' p : ℕ} (h1 : k ≤ p) (h2 : p + s.calls ≤ k') (h3 : Spec.Reads G rng p s) :
    Logged G rng [s] k k' :=
  ⟨[(s, p)], rfl, ⟨h1, h2⟩, by rintro s' p' h; simp only [List.mem_singleton, Prod.mk.injEq] at h; rw [h.1, h.2]; exact h3⟩

theorem Logged.append {L1 L2 : List Spec.Label} {k m k' : ℕ} (h1 : Logged G rng L1 k m) (h2 : Logged G rng L2 m k') :
    Logged G rng (L1 ++ L2) k k' := by
  obtain ⟨l1, rfl, o1, r1⟩ := h1
  obtain ⟨l2, rfl, o2, r2⟩ := h2
  refine ⟨l1 ++ l2, by simp, ordered_append o1 o2, fun s p h => ?_⟩
  rcases List.mem_append.1 h with h | h
  · exact r1 s p h
  · exact r2 s p h

theorem Logged.chain {ι : Type} {R : ι → ℕ → ℕ → Prop} {f : ι → List Spec.Label} :
    ∀ {is : List ι} {k k' : ℕ}, (∀ i ∈ is, ∀ a b, R i a b → Logged G rng (f i) a b) → Chain R is k k' →
      Logged G rng (is.flatMap f) k k'
  | [], _, _, _, h => Logged.nil (le_of_eq h)
  | i :: is, _, _, hi, ⟨m, h1, h2⟩ => by
    rw [List.flatMap_cons]
    exact (hi i (by simp) _ _ h1).append (Logged.chain (fun j hj => hi j (by simp [hj])) h2)

theorem flatMap_zipIdx {γ δ : Type} (f : γ × ℕ → List δ) (g : ℕ → List δ) :
    ∀ (l : List γ) (k : ℕ), (∀ i a, l[i]? = some a → f (a, k + i) = g (k + i)) →
      (l.zipIdx k).flatMap f = (List.range' k l.length).flatMap g
  | [], _, _ => rfl
  | a :: l, k, h => by
    rw [List.zipIdx_cons, List.flatMap_cons, List.length_cons, List.range'_succ, List.flatMap_cons,
      flatMap_zipIdx f g l (k + 1)]
    · rw [show f (a, k) = g k from h 0 a rfl]
    · intro i b hb
      rw [show k + 1 + i = k + (i + 1) by omega]
      exact h (i + 1) b (by simpa using hb)

variable {V : Type} {P : Prims} {tryFrom : I64 → Option V} {fuel : ℕ} {anchor : Fp} {ty : BundleType}
  {spends : List SpendInfo} {outputs : List OutputInfo}

theorem logged_of_construct {d : Labels} {n k k' : ℕ} {b : UnauthorizedBundle V} {m : BundleMetadata}
    (hc : Checked P anchor ty spends outputs n)
    (h : ConstructAt P tryFrom G anchor ty.flags spends outputs n d (some (b, m)) k k') :
    ∃ rows, Spec.Plan P (d.draws G) spends outputs b rows ∧
      Logged G (d.draws G) (Spec.drawOrder b.actions.length spends.length outputs.length
        fun i => rows[i]?.any fun r => r.output.ovk.isNone) k k' := by
  obtain ⟨g1, g2⟩ := numActions_ge hc.num
  obtain ⟨S, O, ⟨m', pre⟩, k1, k2, k3, k4, k5, e1, e2, e3, e4, c1, c2, c3, c4, c5, c6⟩ := h
  have lS := length_indexedPadded g1 e1
  have lO := length_indexedPadded g2 e2
  obtain ⟨dS, f1, rfl⟩ := (indexedPadded_eq_ok g1).1 e1
  obtain ⟨dO, f2, rfl⟩ := (indexedPadded_eq_ok g2).1 e2
  obtain ⟨m'', r1, r2, r3⟩ := recordActions_eq (shuffle (d.draws G).spendShuffle (spends ++ dS).zipIdx)
    (shuffle (d.draws G).outputShuffle (outputs ++ dO).zipIdx) spends.length outputs.length (d.draws G).rcv
  rw [r1, Outcome.ret.injEq, Prod.mk.injEq] at e3
  obtain ⟨rfl, hpre⟩ := e3
  have hp : Planned P (d.draws G) spends outputs n dS dO m'' pre := ⟨f1, f2, hpre.symm, r2, r3⟩
  obtain ⟨-, i, v, -, -, hf⟩ := finish_ok e4
  rcases hf with ⟨-, hf⟩ | ⟨b', rows, hb, -, -, -, he, hsp, hou, hrc, hdr⟩
  · cases hf
  · rw [Option.some.injEq, Prod.mk.injEq] at hb
    obtain ⟨rfl, rfl⟩ := hb
    have hlp := hp.length_pre g1 g2
    have hlr : rows.length = n := by
      have := congrArg List.length hsp
      rwa [List.length_map, List.length_map, hlp] at this
    have hlb : b.actions.length = n := by rw [← he.1.length_eq, hlr]
    refine ⟨rows, plan_of_inv hc hp he hsp hou hrc hdr, ?_⟩
    rw [hlb]
    rw [lS] at c3
    rw [lO] at c4
    unfold Spec.drawOrder
    have l1 : Logged G (d.draws G) ((List.range (n - spends.length)).flatMap
        fun j => [.spendKey j, .spendRho j, .spendSeed j, .spendPath j]) k k1 := by
      refine Logged.chain (fun j _ a b h => ?_) c1
      obtain ⟨p1, p2, p3, p4, h1, h2, h3, h4, h5, v1, v2, v3, v4, v5⟩ := h
      have a1 : Logged G (d.draws G) [.spendKey j] a p2 := Logged.single h1 h2 (congrArg (fun x => [x]) v1)
      have a2 : Logged G (d.draws G) [.spendRho j] p2 p3 := Logged.single le_rfl h3 v2
      have a3 : Logged G (d.draws G) [.spendSeed j] p3 p4 := Logged.single le_rfl h4 (congrArg (fun x => [x]) v3)
      have a4 : Logged G (d.draws G) [.spendPath j] p4 b := Logged.single le_rfl h5 ⟨v4, v5⟩
      exact a1.append (a2.append (a3.append a4))
    have l2 : Logged G (d.draws G) ((List.range (n - outputs.length)).map .outputKey) k1 k2 := by
      rw [List.map_eq_flatMap]
      refine Logged.chain (fun j _ a b h => ?_) c2
      obtain ⟨p, h1, rfl, v⟩ := h
      exact Logged.single h1 le_rfl (congrArg (fun x => [x]) v)
    have l3 : Logged G (d.draws G) ((List.range' 1 (n - 1)).reverse.map .spendChoice) k2 k3 := by
      rw [List.map_eq_flatMap]
      refine Logged.chain (fun j _ a b h => ?_) c3
      obtain ⟨p, h1, rfl, v⟩ := h
      exact Logged.single h1 le_rfl v
    have l4 : Logged G (d.draws G) ((List.range' 1 (n - 1)).reverse.map .outputChoice) k3 k4 := by
      rw [List.map_eq_flatMap]
      refine Logged.chain (fun j _ a b h => ?_) c4
      obtain ⟨p, h1, rfl, v⟩ := h
      exact Logged.single h1 le_rfl v
    have l5 : Logged G (d.draws G) ((List.range n).map .rcv) k4 k5 := by
      have e : (((shuffle (d.draws G).spendShuffle (spends ++ dS).zipIdx).zip
          (shuffle (d.draws G).outputShuffle (outputs ++ dO).zipIdx)).zipIdx.flatMap fun x => [Spec.Label.rcv x.2]) =
          (List.range n).map .rcv := by
        rw [flatMap_zipIdx _ (fun i => [Spec.Label.rcv i]) _ _ (fun _ _ _ => rfl), List.length_zip,
          hp.length_S g1, hp.length_O g2, min_self, List.range_eq_range', List.map_eq_flatMap]
      rw [← e]
      refine Logged.chain (fun x _ a b h => ?_) c5
      obtain ⟨v, rfl⟩ := h
      exact Logged.single le_rfl le_rfl v
    have l6 : Logged G (d.draws G) ((List.range n).flatMap fun i => [.alpha i, .seed i] ++
        if (rows[i]?.any fun r => r.output.ovk.isNone) then [.ock i] else []) k5 k' := by
      have e : (pre.zipIdx.flatMap fun a => [Spec.Label.alpha a.2, .seed a.2] ++
          if a.1.output.ovk.isNone then [.ock a.2] else []) = ((List.range n).flatMap fun i => [.alpha i, .seed i] ++
          if (rows[i]?.any fun r => r.output.ovk.isNone) then [.ock i] else []) := by
        rw [flatMap_zipIdx _ (fun i => [Spec.Label.alpha i, .seed i] ++
          if (rows[i]?.any fun r => r.output.ovk.isNone) then [.ock i] else []), hlp, List.range_eq_range']
        intro i a ha
        have : (rows.map Spec.Row.output)[i]? = some a.output := by rw [hou, List.getElem?_map, ha]; rfl
        rw [List.getElem?_map] at this
        cases hr : rows[i]? with
        | none => rw [hr] at this; cases this
        | some r =>
          rw [hr, Option.map_some, Option.some.injEq] at this
          simp only [zero_add, hr, Option.any_some, this]
      rw [← e]
      refine Logged.chain (fun x _ a b h => ?_) c6
      obtain ⟨p1, p2, p3, h1, h2, h3, h4, v1, v2, v3⟩ := h
      have a1 : Logged G (d.draws G) [.alpha x.2] a p2 := Logged.single h1 h2 v1
      have a2 : Logged G (d.draws G) [.seed x.2] p2 p3 := Logged.single le_rfl h3 (congrArg (fun x => [x]) v2)
      refine (a1.append a2).append ?_
      cases ho : x.1.output.ovk with
      | none =>
        obtain ⟨h5, v⟩ := v3 ho
        exact Logged.single le_rfl h5 v
      | some _ => exact Logged.nil h4
    exact ((((l1.append l2).append l3).append l4).append l5).append l6

end Orchard
