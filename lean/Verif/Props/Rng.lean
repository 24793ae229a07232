import Verif.Lemmas.RngFuel
import Verif.Examples.Builder
import Mathlib.Data.Finset.Card
import Mathlib.Order.Interval.Finset.Nat

/-!
# C97: one generator

`bundleWith` builds with one random number generator, as the code does.  It gives what `bundle` gives with labelled random
values, and every label is made from calls of the generator of its own.  So everything proved about `bundle` for all
labelled values holds for `bundleWith`.
-/

namespace Orchard

open Drawing

variable {V : Type} {P : Prims} {tryFrom : I64 → Option V} {G : Generator} {fuel : ℕ} {anchor : Fp} {ty : BundleType}
  {spends : List SpendInfo} {outputs : List OutputInfo}

/-- **C97** (same results). Whatever the generator returns, a build that ends ends as the build with some labelled random
values: with the same bundle and metadata, with the same error, or with a panic.  All keys of the labelled values are
answers of the generator. -/
theorem C97_refines (hs : spends.length < 2 ^ 64) (ho : outputs.length < 2 ^ 64) (k : ℕ)
    (h : bundleWith P tryFrom G fuel anchor ty spends outputs k ≠ .more) :
    ∃ rng : BuildDraws, (∀ i, ∃ p, (rng.spendDummy i).skDraws = [G.bytes p 32]) ∧
      (∀ i, ∃ p, rng.outputDummy i = [G.bytes p 32]) ∧
      match bundleWith P tryFrom G fuel anchor ty spends outputs k with
      | .ok (r, _) => bundle P tryFrom rng anchor ty spends outputs = .ok r
      | .err e => bundle P tryFrom rng anchor ty spends outputs = .err e
      | .panic => bundle P tryFrom rng anchor ty spends outputs = .panic
      | .more => False := by
  have := sim_bundle P tryFrom G fuel anchor ty spends outputs hs ho k
  have hk : ∀ d : Labels, (∀ i, ∃ p, ((d.draws G).spendDummy i).skDraws = [G.bytes p 32]) ∧
      (∀ i, ∃ p, (d.draws G).outputDummy i = [G.bytes p 32]) :=
    fun d => ⟨fun i => ⟨(d.1 i).1, rfl⟩, fun i => ⟨d.2.1 i, rfl⟩⟩
  cases hx : bundleWith P tryFrom G fuel anchor ty spends outputs k with
  | ok p =>
    rw [hx] at this
    obtain ⟨d, h1, -⟩ := this
    exact ⟨d.draws G, (hk d).1, (hk d).2, h1⟩
  | err e =>
    rw [hx] at this
    obtain ⟨d, h1⟩ := this
    exact ⟨d.draws G, (hk d).1, (hk d).2, h1⟩
  | panic =>
    rw [hx] at this
    obtain ⟨d, h1⟩ := this
    exact ⟨d.draws G, (hk d).1, (hk d).2, h1⟩
  | more => exact absurd hx h

/-- **C97** (builders). The same for `Builder::build`. -/
theorem C97_builder (B : Builder) (hs : B.spends.length < 2 ^ 64) (ho : B.outputs.length < 2 ^ 64) (k : ℕ)
    (h : B.buildWith P tryFrom G fuel k ≠ .more) :
    ∃ rng : BuildDraws,
      match B.buildWith P tryFrom G fuel k with
      | .ok (r, _) => B.build P tryFrom rng = .ok r
      | .err e => B.build P tryFrom rng = .err e
      | .panic => B.build P tryFrom rng = .panic
      | .more => False := by
  obtain ⟨rng, -, -, h1⟩ := C97_refines hs ho k h
  exact ⟨rng, h1⟩

/-- **C97** (no panics). With a generator that never returns a key with `ask = 0` (C30), building does not panic. -/
theorem C97_no_panic (hs : spends.length < 2 ^ 64) (ho : outputs.length < 2 ^ 64)
    (hr : ∀ s ∈ spends, Spec.Requestable P s) (hk : ∀ p, Spec.askScalar P (G.bytes p 32) ≠ 0) (k : ℕ) :
    bundleWith P tryFrom G fuel anchor ty spends outputs k ≠ .panic := by
  intro hx
  obtain ⟨rng, h1, h2, h⟩ := C97_refines (P := P) (tryFrom := tryFrom) (G := G) (fuel := fuel) (anchor := anchor)
    (ty := ty) hs ho k (by rw [hx]; simp)
  rw [hx] at h
  refine C12_no_panic hr ⟨fun i b hb => ?_, fun i b hb => ?_⟩ h
  · obtain ⟨p, hp⟩ := h1 i
    rw [hp, List.mem_singleton] at hb
    rw [hb]; exact hk p
  · obtain ⟨p, hp⟩ := h2 i
    rw [hp, List.mem_singleton] at hb
    rw [hb]; exact hk p

theorem ordered_spec {log : List (Spec.Label × ℕ)} {k k' : ℕ} (h : Ordered k log k') : k ≤ k' ∧
    (∀ x ∈ log, k ≤ x.2 ∧ x.2 + x.1.calls ≤ k') ∧ log.Pairwise fun x y => x.2 + x.1.calls ≤ y.2 := by
  induction log generalizing k with
  | nil => exact ⟨h, by simp, List.Pairwise.nil⟩
  | cons x log ih =>
    obtain ⟨h1, h2⟩ := h
    obtain ⟨i0, i1, i2⟩ := ih h2
    refine ⟨by omega, ?_, List.pairwise_cons.2 ⟨fun y hy => (i1 y hy).1, i2⟩⟩
    intro y hy
    rcases List.mem_cons.1 hy with rfl | hy
    · exact ⟨h1, i0⟩
    · exact ⟨by have := (i1 y hy).1; omega, (i1 y hy).2⟩

/-- **C97** (own calls). When a bundle is built, it is the one built with labelled values `rng`, its actions use these
values as `Spec.Plan` says, and there is a list of all the values with the number of the first call each is made from:

* the values come in the order `Spec.drawOrder`, each once (`C97_each_once`);
* the calls of one value come before the calls of the next, so that no two values share a call;
* each value is made from its calls as `Spec.Reads` says. -/
theorem C97_own_calls (hs : spends.length < 2 ^ 64) (ho : outputs.length < 2 ^ 64) {k k' : ℕ}
    {b : UnauthorizedBundle V} {m : BundleMetadata}
    (h : bundleWith P tryFrom G fuel anchor ty spends outputs k = .ok (some (b, m), k')) :
    ∃ (rng : BuildDraws) (rows : List Spec.Row) (log : List (Spec.Label × ℕ)),
      bundle P tryFrom rng anchor ty spends outputs = .ok (some (b, m)) ∧
      Spec.Plan P rng spends outputs b rows ∧
      log.map Prod.fst = Spec.drawOrder b.actions.length spends.length outputs.length
        (fun i => rows[i]?.any fun r => r.output.ovk.isNone) ∧
      (log.Pairwise fun x y => x.2 + x.1.calls ≤ y.2) ∧
      ∀ x ∈ log, k ≤ x.2 ∧ x.2 + x.1.calls ≤ k' ∧ Spec.Reads G rng x.2 x.1 := by
  obtain ⟨d, h1, n, hc, h2⟩ := (sim_bundle P tryFrom G fuel anchor ty spends outputs hs ho).ok h
  obtain ⟨rows, hp, log, h3, h4, h5⟩ := logged_of_construct hc h2
  obtain ⟨-, h6, h7⟩ := ordered_spec h4
  exact ⟨d.draws G, rows, log, h1, hp, h3, h7, fun x hx => ⟨(h6 x hx).1, (h6 x hx).2, h5 _ _ hx⟩⟩

/-- **C97** (each once). No value is drawn twice. -/
theorem C97_each_once (n s o : ℕ) (sealed : ℕ → Bool) : (Spec.drawOrder n s o sealed).Nodup := by
  unfold Spec.drawOrder
  have inj : ∀ {f : ℕ → Spec.Label}, Function.Injective f → ∀ {l : List ℕ}, l.Nodup → (l.map f).Nodup :=
    fun hf _ hl => hl.map hf
  have hr : ((List.range' 1 (n - 1)).reverse).Nodup := List.nodup_reverse.2 List.nodup_range'
  have h1 : ((List.range (n - s)).flatMap (fun j => [Spec.Label.spendKey j, .spendRho j, .spendSeed j,
      .spendPath j])).Nodup := by
    refine List.nodup_flatMap.2 ⟨fun j _ => by simp, ?_⟩
    refine List.nodup_range.imp fun {i j} hij => ?_
    simp only [Function.onFun, List.disjoint_left]
    simp
    omega
  have h6 : ((List.range n).flatMap (fun i => [Spec.Label.alpha i, .seed i] ++
      if sealed i then [.ock i] else [])).Nodup := by
    refine List.nodup_flatMap.2 ⟨fun j _ => by cases sealed j <;> simp, ?_⟩
    refine List.nodup_range.imp fun {i j} hij => ?_
    simp only [Function.onFun, List.disjoint_left]
    cases sealed i <;> cases sealed j <;> simp <;> omega
  have h2 := inj (fun a b h => by simpa using h : Function.Injective Spec.Label.outputKey)
    (List.nodup_range (n := n - o))
  have h3 := inj (fun a b h => by simpa using h : Function.Injective Spec.Label.spendChoice) hr
  have h4 := inj (fun a b h => by simpa using h : Function.Injective Spec.Label.outputChoice) hr
  have h5 := inj (fun a b h => by simpa using h : Function.Injective Spec.Label.rcv) (List.nodup_range (n := n))
  have hm : ∀ x, x ∈ ((List.range n).flatMap (fun i => [Spec.Label.alpha i, .seed i] ++
      if sealed i then [.ock i] else [])) → ∃ i, x = .alpha i ∨ x = .seed i ∨ x = .ock i := by
    intro x hx
    obtain ⟨i, -, hi⟩ := List.mem_flatMap.1 hx
    refine ⟨i, ?_⟩
    cases hs : sealed i <;> simp [hs] at hi <;> tauto
  refine List.nodup_append'.2 ⟨List.nodup_append'.2 ⟨List.nodup_append'.2 ⟨List.nodup_append'.2
    ⟨List.nodup_append'.2 ⟨h1, h2, ?_⟩, h3, ?_⟩, h4, ?_⟩, h5, ?_⟩, h6, ?_⟩
  · intro x hx hy
    obtain ⟨i, -, rfl⟩ := List.mem_map.1 hy
    simp at hx
  · intro x hx hy
    obtain ⟨i, -, rfl⟩ := List.mem_map.1 hy
    simp at hx
  · intro x hx hy
    obtain ⟨i, -, rfl⟩ := List.mem_map.1 hy
    simp at hx
  · intro x hx hy
    obtain ⟨i, -, rfl⟩ := List.mem_map.1 hy
    simp at hx
  · intro x hx hx6
    obtain ⟨i, hi⟩ := hm x hx6
    rcases hi with rfl | rfl | rfl <;> simp at hx

/-- **C97** (rounds). The bound on the rounds of the loops does not matter: if a build ends with `fuel` rounds, it ends in
the same way with more, with the same calls. -/
theorem C97_rounds {fuel' : ℕ} (hf : fuel ≤ fuel') (k : ℕ)
    (h : bundleWith P tryFrom G fuel anchor ty spends outputs k ≠ .more) :
    bundleWith P tryFrom G fuel' anchor ty spends outputs k = bundleWith P tryFrom G fuel anchor ty spends outputs k :=
  upto_bundle P G hf tryFrom anchor ty spends outputs k h

/-! ### Choices in a range -/

theorem genRangeStep_of_ranged {w r v t j : ℕ} (h1 : 2 ^ (w - 1) ≤ r * 2 ^ t) (h2 : r * 2 ^ t < 2 ^ w)
    (h3 : j * 2 ^ w ≤ v * r) (h4 : v * r < j * 2 ^ w + r * 2 ^ t) : genRangeStep w r v = some j := by
  have hr : 0 < r := by
    rcases Nat.eq_zero_or_pos r with rfl | h
    · have : 0 < 2 ^ (w - 1) := by positivity
      omega
    · exact h
  have hw : 0 < w := by
    rcases Nat.eq_zero_or_pos w with rfl | h
    · simp at h1 h2; omega
    · exact h
  have ht : w - 1 - Nat.log2 r = t := by
    have e1 : 2 ^ Nat.log2 r ≤ r := Nat.log2_self_le hr.ne'
    have e2 : r < 2 ^ (Nat.log2 r + 1) := Nat.lt_log2_self
    have e3 : 2 ^ (Nat.log2 r + t) < 2 ^ w := by
      rw [pow_add]; exact lt_of_le_of_lt (Nat.mul_le_mul_right _ e1) h2
    have e4 : 2 ^ (w - 1) < 2 ^ (Nat.log2 r + 1 + t) := by
      rw [pow_add]; exact lt_of_le_of_lt h1 (Nat.mul_lt_mul_of_pos_right e2 (by positivity))
    have e5 := (Nat.pow_lt_pow_iff_right (by norm_num : 1 < 2)).1 e3
    have e6 := (Nat.pow_lt_pow_iff_right (by norm_num : 1 < 2)).1 e4
    omega
  have hd : v * r / 2 ^ w = j :=
    Nat.div_eq_of_lt_le h3 (by rw [add_mul, one_mul]; omega)
  have hm := Nat.div_add_mod (v * r) (2 ^ w)
  rw [hd, mul_comm (2 ^ w)] at hm
  unfold genRangeStep
  simp only [ht, hd]
  rw [if_pos (by omega)]

/-- **C97** (fair choices). A choice among `r < 2^w` numbers from one uniform number of `w` bits: each of the `r` numbers
stands for the same number `2^t` of draws, nothing outside the range is chosen, and at least half of all draws are
accepted. -/
theorem C97_fair_choice {w r : ℕ} (hr : 0 < r) (hw : r < 2 ^ w) : ∃ t, r * 2 ^ t < 2 ^ w ∧ 2 ^ w ≤ 2 * (r * 2 ^ t) ∧
    (∀ j < r, ((Finset.range (2 ^ w)).filter fun v => genRangeStep w r v = some j).card = 2 ^ t) ∧
    ∀ v < 2 ^ w, ∀ j, genRangeStep w r v = some j → j < r := by
  have hl : Nat.log2 r < w := (Nat.log2_lt hr.ne').2 hw
  have e1 : 2 ^ Nat.log2 r ≤ r := Nat.log2_self_le hr.ne'
  have e2 : r < 2 ^ (Nat.log2 r + 1) := Nat.lt_log2_self
  obtain ⟨t, ht⟩ : ∃ t, w = Nat.log2 r + 1 + t := ⟨w - 1 - Nat.log2 r, by omega⟩
  have hp : 0 < 2 ^ t := by positivity
  have a1 : 2 ^ (w - 1) ≤ r * 2 ^ t := by
    have : w - 1 = Nat.log2 r + t := by omega
    rw [this, pow_add]
    exact Nat.mul_le_mul_right _ e1
  have a2 : r * 2 ^ t < 2 ^ w := by
    rw [ht, pow_add]
    exact Nat.mul_lt_mul_of_pos_right e2 hp
  have a3 : 2 ^ w = 2 * 2 ^ (w - 1) := by
    rw [← pow_succ']; congr 1; omega
  refine ⟨t, a2, by omega, ?_, fun v hv j h => Ranged.lt hv (genRangeStep_some hr hw h)⟩
  intro j hj
  set a := (j * 2 ^ w + (r - 1)) / r with ha
  have b1 : j * 2 ^ w ≤ a * r := by
    have h1 := Nat.div_add_mod (j * 2 ^ w + (r - 1)) r
    have h2 := Nat.mod_lt (j * 2 ^ w + (r - 1)) hr
    rw [← ha, mul_comm r a] at h1
    omega
  have b2 : a * r ≤ j * 2 ^ w + (r - 1) := Nat.div_mul_le_self _ _
  have b3 : (j + 1) * 2 ^ w ≤ r * 2 ^ w := Nat.mul_le_mul_right _ hj
  rw [add_mul, one_mul] at b3
  have key : ((Finset.range (2 ^ w)).filter fun v => genRangeStep w r v = some j) = Finset.Ico a (a + 2 ^ t) := by
    ext v
    rw [Finset.mem_filter, Finset.mem_range, Finset.mem_Ico]
    constructor
    · rintro ⟨hv, h⟩
      obtain ⟨t', c1, c2, c3, c4⟩ := genRangeStep_some hr hw h
      have ht' : t' = t := by
        rcases Nat.lt_trichotomy t' t with hlt | rfl | hlt
        · have : r * 2 ^ t' * 2 ≤ r * 2 ^ t := by
            rw [mul_assoc, ← pow_succ]
            exact Nat.mul_le_mul_left _ (Nat.pow_le_pow_right (by norm_num) hlt)
          omega
        · rfl
        · have : r * 2 ^ t * 2 ≤ r * 2 ^ t' := by
            rw [mul_assoc, ← pow_succ]
            exact Nat.mul_le_mul_left _ (Nat.pow_le_pow_right (by norm_num) hlt)
          omega
      subst ht'
      constructor
      · by_contra hlt
        have : (v + 1) * r ≤ a * r := Nat.mul_le_mul_right _ (by omega)
        rw [add_mul] at this
        omega
      · by_contra hge
        have : (a + 2 ^ t') * r ≤ v * r := Nat.mul_le_mul_right _ (by omega)
        rw [add_mul, mul_comm (2 ^ t')] at this
        omega
    · rintro ⟨h1, h2⟩
      have c1 : a * r ≤ v * r := Nat.mul_le_mul_right _ h1
      have c2 : (v + 1) * r ≤ (a + 2 ^ t) * r := Nat.mul_le_mul_right _ h2
      rw [add_mul, add_mul, mul_comm (2 ^ t)] at c2
      have c3 : v * r < j * 2 ^ w + r * 2 ^ t := by omega
      refine ⟨?_, genRangeStep_of_ranged a1 a2 (by omega) c3⟩
      by_contra hge
      have : 2 ^ w * r ≤ v * r := Nat.mul_le_mul_right _ (by omega)
      rw [mul_comm] at this
      omega
  rw [key, Nat.card_Ico]
  omega

/-- A choice among 3 numbers with 32 bits: each stands for `2^30` draws. -/
example : ((Finset.range (2 ^ 32)).filter fun v => genRangeStep 32 3 v = some 2).card = 2 ^ 30 := by
  obtain ⟨t, h0, h1, h2, -⟩ := C97_fair_choice (w := 32) (r := 3) (by norm_num) (by norm_num)
  rw [h2 2 (by norm_num)]
  have h3 : t < 31 := (Nat.pow_lt_pow_iff_right (by norm_num : 1 < 2)).1 (by omega)
  have h4 : 29 < t := (Nat.pow_lt_pow_iff_right (by norm_num : 1 < 2)).1 (by omega)
  rw [show t = 30 by omega]

/-! ### A build with a generator -/

namespace Examples

/-- A generator: calls for 8 bytes give `2^63`, calls for 32 bytes the number of the call, all others 0. -/
def G0 : Generator where
  bytes k n := Bytes.ofNat n (if n = 8 then 2 ^ 63 else if n = 32 then k else 0)

theorem toNat_G0_8 (k : ℕ) : (G0.bytes k 8).toNat = 2 ^ 63 := Bytes.toNat_ofNat (n := 8) (by norm_num)

theorem toNat_G0_4 (k : ℕ) : (G0.bytes k 4).toNat = 0 := Bytes.toNat_ofNat (n := 4) (by norm_num)

theorem wide_G0 (k : ℕ) : Spec.wide G0 k = ∑ j ∈ Finset.range 8, 2 ^ 63 * (2 ^ 64) ^ j := by
  unfold Spec.wide
  simp only [toNat_G0_8]

theorem pointOfX_G0 (k s : ℕ) : pointOfX (Spec.wide G0 k : Fp) s ≠ none := by
  have hsq : ((9496044238634829818881162841300718542252244343080792116285686224804544825943 : ℕ) : Fp) ^ 2 = (Spec.wide G0 k : Fp) ^ 3 + 5 := by
    have h5 : (5 : Fp) = ((5 : ℕ) : Fp) := by norm_cast
    rw [wide_G0, h5]
    simp only [← Nat.cast_pow, ← Nat.cast_add]
    rw [ZMod.natCast_eq_natCast_iff]
    decide +kernel
  generalize (Spec.wide G0 k : Fp) = x at hsq
  obtain ⟨z, hz⟩ := Point.fpSqrt_complete hsq
  have hz2 := Point.fpSqrt_sound hz
  unfold pointOfX
  rw [hz, Option.bind_some]
  dsimp only
  rw [dif_pos (by split <;> [exact hz2; rw [neg_sq, hz2]])]
  simp

variable {E : Type}

theorem ends_fill (n : ℕ) : Ends (fillBytes G0 n : Drawing E _) := fun k h => by simp [fillBytes] at h

theorem ends_u32 : Ends (nextU32 G0 : Drawing E _) := (ends_fill 4).bind fun _ => Ends.pure _

theorem ends_u64 : Ends (nextU64 G0 : Drawing E _) := (ends_fill 8).bind fun _ => Ends.pure _

theorem ends_u512 : Ends (randomU512 G0 : Drawing E _) := (Ends.mapM (fun _ => ends_u64) _).bind fun _ => Ends.pure _

theorem ends_base : Ends (randomBase G0 : Drawing E _) := ends_u512.bind fun _ => Ends.pure _

theorem ends_scalar : Ends (randomScalar G0 : Drawing E _) := ends_u512.bind fun _ => Ends.pure _

theorem ends_key : Ends (SpendingKey.draw P0 G0 1 : Drawing E _) := by
  refine Ends.untilSome ((ends_fill 32).bind fun _ => Ends.outcome _) (fun k k' h => ?_) one_pos
  simp [bind_run, fillBytes, fromBytes_P0, Drawing.outcome, Drawing.lift] at h

theorem ends_note (a : Address) (v : NoteValue) (rho : Fp) : Ends (Note.draw P0 G0 1 a v rho : Drawing E _) := by
  refine Ends.untilSome (Ends.bind (Ends.untilSome ((ends_fill 32).bind fun _ => Ends.pure _) (fun k k' h => ?_) one_pos)
    fun _ => Ends.pure _) (fun k k' h => ?_) one_pos
  · rw [bind_run] at h
    simp only [fillBytes, Run.ok_bind, pure_run, randomSeed_fromBytes_eq, (goodSeed_P0 a v rho _).1] at h
    simp at h
  · obtain ⟨s, h1⟩ := noteBody_none h
    rw [(fromParts_eq P0 a v rho s _).2 ⟨rfl, (goodSeed_P0 a v rho s).2⟩] at h1
    simp at h1

theorem ends_point : Ends (randomPoint G0 1 : Drawing E _) := by
  refine Ends.untilSome (ends_base.bind fun _ => ends_u32.bind fun _ => Ends.pure _) (fun k k' h => ?_) one_pos
  rw [bind_run] at h
  unfold randomBase at h
  rw [bind_run, randomU512_run] at h
  simp only [Run.ok_bind, pure_run, nextU32, bind_run, fillBytes, Run.ok.injEq, Prod.mk.injEq] at h
  exact pointOfX_G0 _ _ h.1

theorem genRangeStep_zero (w r : ℕ) : genRangeStep w r 0 ≠ none := by
  unfold genRangeStep
  simp

theorem genRangeStep_half {r : ℕ} (hr : 2 ^ 32 ≤ r) : genRangeStep 64 r (2 ^ 63) ≠ none := by
  unfold genRangeStep
  simp only
  rw [if_pos]
  · simp
  have h0 : r ≠ 0 := by omega
  have e1 : 2 ^ Nat.log2 r ≤ r := Nat.log2_self_le h0
  rcases Nat.lt_or_ge 63 (Nat.log2 r) with hl | hl
  · have : 2 ^ 64 ≤ 2 ^ Nat.log2 r := Nat.pow_le_pow_right (by norm_num) hl
    have : 64 - 1 - Nat.log2 r = 0 := by omega
    rw [this]
    omega
  · have e3 : 2 ^ Nat.log2 r * 2 ^ (64 - 1 - Nat.log2 r) = 2 ^ 63 := by
      rw [← pow_add]; congr 1; omega
    have e4 : 2 ^ 63 ≤ r * 2 ^ (64 - 1 - Nat.log2 r) := e3 ▸ Nat.mul_le_mul_right _ e1
    rcases Nat.even_or_odd' r with ⟨c, rfl | rfl⟩
    · have : 2 ^ 63 * (2 * c) % 2 ^ 64 = 0 := by omega
      omega
    · have h1 : 2 ^ 63 * (2 * c + 1) % 2 ^ 64 = 2 ^ 63 := by omega
      have h2 : (2 * c + 1) * 2 ^ (64 - 1 - Nat.log2 (2 * c + 1)) ≠ 2 ^ 63 := by
        intro h
        have : (2 * c + 1) ∣ 2 ^ 63 := ⟨_, h.symm⟩
        obtain ⟨j, -, hj⟩ := (Nat.dvd_prime_pow Nat.prime_two).1 this
        rcases j with _ | j
        · simp at hj; omega
        · rw [pow_succ] at hj; omega
      omega

theorem ends_shuffle {α : Type} (l : List α) : Ends (shuffleWith G0 1 l : Drawing E _) := by
  refine Ends.bind (Ends.foldlM (fun v i => Ends.bind ?_ fun _ => Ends.pure _) _ _) fun _ => Ends.pure _
  unfold genIndex
  split
  · refine Ends.untilSome (ends_u32.bind fun _ => Ends.pure _) (fun k k' h => ?_) one_pos
    simp only [nextU32, bind_run, fillBytes, Run.ok_bind, pure_run, toNat_G0_4, Run.ok.injEq, Prod.mk.injEq] at h
    exact genRangeStep_zero _ _ h.1
  · rename_i hr
    refine Ends.untilSome (ends_u64.bind fun _ => Ends.pure _) (fun k k' h => ?_) one_pos
    simp only [nextU64, bind_run, fillBytes, Run.ok_bind, pure_run, toNat_G0_8, Run.ok.injEq, Prod.mk.injEq] at h
    exact genRangeStep_half (by omega) h.1

/-- With the generator `G0`, every build ends within one round of every loop. -/
theorem ends_bundle {V : Type} (tryFrom : I64 → Option V) (anchor : Fp) (ty : BundleType) (spends : List SpendInfo)
    (outputs : List OutputInfo) : Ends (bundleWith P0 tryFrom G0 1 anchor ty spends outputs) := by
  rw [bundleWith_eq]
  have hS : Ends (SpendInfo.drawDummy P0 G0 1 : Drawing BuildError _) :=
    (ends_key.bind fun _ => (Ends.outcome _).bind fun _ => (Ends.outcome _).bind fun _ =>
      (ends_point.bind fun _ => Ends.pure _).bind fun _ => (ends_note _ _ _).bind fun _ => Ends.pure _).bind fun _ =>
    (ends_u32.bind fun _ => (Ends.mapM (fun _ => ends_base) _).bind fun _ => by
      split
      · exact Ends.pure _
      · exact Ends.lift (by simp)).bind fun _ => Ends.pure _
  have hO : Ends (OutputInfo.drawDummy P0 G0 1 : Drawing BuildError _) :=
    ends_key.bind fun _ => (Ends.outcome _).bind fun _ => (Ends.outcome _).bind fun _ => Ends.pure _
  have hA : ∀ a : ActionInfo, Ends (a.draw P0 G0 1 : Drawing BuildError _) := fun a =>
    (Ends.outcome _).bind fun _ => (Ends.outcome _).bind fun _ => (Ends.outcome _).bind fun _ =>
      ends_scalar.bind fun _ => (ends_note _ _ _).bind fun _ => (Ends.outcome _).bind fun _ =>
        Ends.bind (by
          unfold ovkRandom
          split
          · exact Ends.pure _
          · exact (ends_fill 32).bind fun _ => (ends_fill 64).bind fun _ => Ends.pure _) fun _ =>
        (Ends.outcome _).bind fun _ => (Ends.outcome _).bind fun _ => (Ends.outcome _).bind fun _ => Ends.pure _
  split
  · exact Ends.lift (by simp)
  refine (Ends.outcome _).bind fun matching => ?_
  split
  · exact Ends.lift (by simp)
  split
  · exact Ends.lift (by simp)
  split
  · exact Ends.lift (by simp)
  refine Ends.bind ((Ends.mapM (fun _ => hS) _).bind fun _ => Ends.pure _) fun _ => ?_
  refine Ends.bind ((Ends.mapM (fun _ => hO) _).bind fun _ => Ends.pure _) fun _ => ?_
  refine (ends_shuffle _).bind fun _ => (ends_shuffle _).bind fun _ => ?_
  refine (Ends.foldlM (fun _ _ => ends_scalar.bind fun _ => Ends.outcome _) _ _).bind fun x => ?_
  refine (Ends.lift (planBalance_ne_panic.2)).bind fun vb => (Ends.mapM hA _).bind fun _ => ?_
  refine (Ends.outcome _).bind fun _ => (Ends.outcome _).bind fun _ => ?_
  split
  · exact Ends.pure _
  · exact Ends.pure _

/-- A case for C97: under `P0`, a spend of value 5 and outputs of value 1 and 2 are built with the generator `G0` into a
bundle of two actions. -/
theorem built_G0 (k : ℕ) : ∃ s anchor b m k', s.note.value.inner = 5 ∧ Spec.Requestable P0 s ∧
    bundleWith P0 some G0 1 anchor .DEFAULT [s] [output0 1, output0 2] k = .ok (some (b, m), k') ∧
      b.actions.length = 2 := by
  obtain ⟨s, anchor, h1, h2, h3⟩ := spend_P0 5
  have hv : Spec.totalSpends [s] = 5 := by
    simp only [Spec.totalSpends, List.map_cons, List.map_nil, h1]; decide
  have ho : Spec.totalOutputs [output0 1, output0 2] = 3 := by decide
  have hn : BundleType.DEFAULT.numActions 1 2 = some 2 := by decide
  have hend := ends_bundle some anchor .DEFAULT [s] [output0 1, output0 2] k
  obtain ⟨rng, -, -, h⟩ := C97_refines (P := P0) (tryFrom := some) (G := G0) (fuel := 1) (anchor := anchor) (ty := .DEFAULT)
    (spends := [s]) (outputs := [output0 1, output0 2]) (by simp) (by simp) k hend
  have hr : ∀ s' ∈ [s], Spec.Requestable P0 s' := fun s' hs' => by rw [List.mem_singleton.1 hs']; exact h2
  cases hx : bundleWith P0 some G0 1 anchor .DEFAULT [s] [output0 1, output0 2] k with
  | more => exact absurd hx hend
  | panic => exact absurd hx (C97_no_panic (by simp) (by simp) hr (fun p => by rw [askScalar_P0]; exact one_ne_zero) k)
  | err e =>
    rw [hx] at h
    rcases bundle_err_inv h with ⟨-, h, -⟩ | ⟨-, -, h⟩ | ⟨-, -, -, h, -⟩ | ⟨rfl, -⟩
    · exact absurd h (by decide)
    · obtain ⟨r, e1, e2⟩ := allMatchAnchor_eq (P := P0) (anchor := anchor) (l := [s]) (fun s hs => (hr s hs).2.2.2)
      rw [e2.2 fun s' hs' => by rw [List.mem_singleton.1 hs']; exact Or.inr h3, h] at e1
      simp at e1
    · exact absurd h (by decide)
    · exact absurd h (C11_no_overflow (by rw [hv]; norm_num) (by rw [ho]; norm_num)
        ⟨⟨2, by decide⟩, _, by rw [hv, ho]; norm_num, rfl⟩ _)
  | ok r =>
    obtain ⟨r, k'⟩ := r
    rw [hx] at h
    cases r with
    | none =>
      obtain ⟨n, hc, h⟩ := bundle_ok_inv h
      obtain ⟨g1, g2⟩ := numActions_ge hc.num
      obtain ⟨dS, dO, m, pre, hpl, h⟩ := construct_ok g1 g2 h
      obtain ⟨-, i, v, -, -, ⟨h, -⟩ | ⟨b, rows, h, -⟩⟩ := finish_ok h
      · have := hpl.length_pre g1 g2
        rw [h] at this
        simp only [List.length_nil] at this
        simp at g2
        omega
      · simp at h
    | some x =>
      refine ⟨s, anchor, x.1, x.2, k', by rw [h1], h2, hx, ?_⟩
      have := C05_built _ _ _ _ _ _ _ _ _ h
      simpa [BundleType.numActions, BundleType.DEFAULT, Flags.ENABLED, MIN_ACTIONS] using this.symm

end Examples

end Orchard
