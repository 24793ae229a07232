import Verif.Lemmas.FairBuild
import Verif.Props.Hiding
import Verif.Props.Shuffle
import Verif.Props.Rng

/-!
# C98: random values are drawn fairly

With a generator whose answers are uniform and independent, the probability of a result is the number of answers that give
it.  The theorems count the answers to given calls, whatever the generator `G` answers to all other calls.
-/

namespace Orchard

open Drawing RedPallas

variable {E : Type} {P : Prims}

theorem card_congr_iff {A : Type} {s t : A → Prop} (h : ∀ x, s x ↔ t x) : Nat.card {x // s x} = Nat.card {x // t x} :=
  Nat.card_congr (Equiv.subtypeEquivRight h)

/-! ### Field elements -/

/-- **C98** (random scalars). Of all answers to the eight calls behind a random scalar, `2^512 / q` give each scalar, rounded
down or up. -/
theorem C98_scalar (G : Generator) (k : ℕ) (x : Fq) : Spec.NearlyEven (2 ^ 512) q
    (Nat.card {w : Fin 8 → Bytes 8 // (randomScalar (Spec.answer G k w) : Drawing E Fq) k = .ok (x, k + 8)}) := by
  rw [card_congr_iff (t := fun w => (Spec.wordsNat w : ZMod q) = x) fun w => by
    rw [randomScalar_run, wide_answer]
    simp]
  exact card_words q x

/-- **C98** (random base field elements). Likewise for elements of the base field. -/
theorem C98_base (G : Generator) (k : ℕ) (x : Fp) : Spec.NearlyEven (2 ^ 512) p
    (Nat.card {w : Fin 8 → Bytes 8 // (randomBase (Spec.answer G k w) : Drawing E Fp) k = .ok (x, k + 8)}) := by
  rw [card_congr_iff (t := fun w => (Spec.wordsNat w : ZMod p) = x) fun w => by
    rw [randomBase_run, wide_answer]
    simp]
  exact card_words p x

/-- **C98** (hash values). Of all values of a hash function with 64 bytes, `2^512 / q` are mapped to each scalar and
`2^512 / p` to each element of the base field, rounded down or up. -/
theorem C98_hash : (∀ x, Spec.NearlyEven (2 ^ 512) q (Nat.card {b : Bytes 64 // toScalar b = x})) ∧
    ∀ x, Spec.NearlyEven (2 ^ 512) p (Nat.card {b : Bytes 64 // toBase b = x}) :=
  ⟨fun x => card_bytes64 q x, fun x => card_bytes64 p x⟩

/-- **C98.** The rounding is a negligible part: each element has more than `2^257` draws. -/
theorem C98_bias : 2 ^ 257 < 2 ^ 512 / q ∧ 2 ^ 257 < 2 ^ 512 / p := by
  constructor <;> decide +kernel

/-! ### Commitments -/

/-- **C98** (value commitments). Whatever the value, each point is the commitment for `2^512 / q` answers to the calls
behind the trapdoor, rounded down or up. -/
theorem C98_value_commitment (G : Generator) (k : ℕ) (v : ValueSum)
    (hv : -(2 ^ 64 - 1) ≤ v.inner ∧ v.inner ≤ 2 ^ 64 - 1) (C : Point) : Spec.NearlyEven (2 ^ 512) q
    (Nat.card {w : Fin 8 → Bytes 8 // ∃ rcv k', (randomScalar (Spec.answer G k w) : Drawing E Fq) k = .ok (rcv, k') ∧
      ValueCommitment.derive v ⟨rcv⟩ = some ⟨C⟩}) := by
  obtain ⟨x, hx, hu⟩ := C78_value_commitment v hv C
  rw [← card_congr_iff (s := fun w => (randomScalar (Spec.answer G k w) : Drawing E Fq) k = .ok (x, k + 8))]
  · exact C98_scalar G k x
  intro w
  constructor
  · intro h
    exact ⟨x, _, h, hx⟩
  · rintro ⟨rcv, k', h, h1⟩
    rw [← hu rcv h1]
    rw [randomScalar_run] at h ⊢
    simp only [Run.ok.injEq, Prod.mk.injEq] at h ⊢
    exact ⟨h.1, trivial⟩

/-- **C98** (randomised validating keys). Whatever the key `ak`, each point is `rk` for `2^512 / q` answers to the calls
behind the randomizer, rounded down or up. -/
theorem C98_rk (G : Generator) (k : ℕ) (ak : SpendValidatingKey) (R : Point) : Spec.NearlyEven (2 ^ 512) q
    (Nat.card {w : Fin 8 → Bytes 8 // ∃ alpha k', (randomScalar (Spec.answer G k w) : Drawing E Fq) k = .ok (alpha, k') ∧
      VerificationKey.randomize ak alpha = ⟨R⟩}) := by
  obtain ⟨x, hx, hu⟩ := C78_rk ak R
  rw [← card_congr_iff (s := fun w => (randomScalar (Spec.answer G k w) : Drawing E Fq) k = .ok (x, k + 8))]
  · exact C98_scalar G k x
  intro w
  constructor
  · intro h
    exact ⟨x, _, h, hx⟩
  · rintro ⟨alpha, k', h, h1⟩
    rw [← hu alpha h1]
    rw [randomScalar_run] at h ⊢
    simp only [Run.ok.injEq, Prod.mk.injEq] at h ⊢
    exact ⟨h.1, trivial⟩

/-! ### Keys and seeds -/

theorem card_filter_eq_one {A : Type} [Fintype A] [DecidableEq A] {q : A → Prop} [DecidablePred q] {a : A}
    (h : ∀ x, q x ↔ x = a) : (Finset.univ.filter q).card = 1 := by
  rw [Finset.card_eq_one]
  exact ⟨a, by ext x; simp [h]⟩

theorem fromBytes_bytes {b : Bytes 32} {sk : SpendingKey} (h : SpendingKey.fromBytes P b = .ret (some sk)) : sk.bytes = b := by
  unfold SpendingKey.fromBytes at h
  simp only [Outcome.bind_eq_ret] at h
  obtain ⟨_, -, _, -, h⟩ := h
  split at h
  · cases h
  · simp only [Outcome.pure_eq, Outcome.ret.injEq, Option.some.injEq] at h
    rw [← h]

/-- **C98** (spending keys). Of all answers to `m` calls, as many make `SpendingKey::random` return one acceptable key as
another; each key is possible. -/
theorem C98_spending_key (G : Generator) (k m : ℕ) {sk sk' : SpendingKey}
    (h : SpendingKey.fromBytes P sk.bytes = .ret (some sk)) (h' : SpendingKey.fromBytes P sk'.bytes = .ret (some sk')) :
    Nat.card {w : Fin m → Bytes 32 // ∃ k', (SpendingKey.draw P (Spec.answer G k w) m : Drawing E SpendingKey) k =
      .ok (sk, k') ∧ k' ≤ k + m} =
    Nat.card {w : Fin m → Bytes 32 // ∃ k', (SpendingKey.draw P (Spec.answer G k w) m : Drawing E SpendingKey) k =
      .ok (sk', k') ∧ k' ≤ k + m} ∧
    (1 ≤ m → ∃ w : Fin m → Bytes 32, ∃ k', (SpendingKey.draw P (Spec.answer G k w) m : Drawing E SpendingKey) k =
      .ok (sk, k') ∧ k' ≤ k + m) := by
  classical
  have hrun := fun (w : Fin m → Bytes 32) sk => loop_iff (E := E) (G := Spec.answer G k w) (s := 32)
    (body := (do outcome (SpendingKey.fromBytes P (← fillBytes (Spec.answer G k w) 32))))
    (f := fun b => Run.ofOutcome (SpendingKey.fromBytes P b)) (fun k => by
      rw [bind_run]
      rfl) sk m m k le_rfl
  simp only [answersFrom_answer] at hrun
  unfold SpendingKey.draw
  simp only [hrun]
  refine ⟨?_, fun hm => exists_picks (fun _ : Unit => ending fun b => (Run.ofOutcome (SpendingKey.fromBytes P b) : Run E _)) m
    [((), some sk)] hm (by
      intro x hx
      rw [List.mem_singleton.1 hx]
      exact ⟨sk.bytes, by unfold ending; dsimp only; rw [h]; rfl⟩) ⟨sk.bytes⟩⟩
  have hone : ∀ sk : SpendingKey, SpendingKey.fromBytes P sk.bytes = .ret (some sk) →
      (Finset.univ.filter fun b => ending (fun b => (Run.ofOutcome (SpendingKey.fromBytes P b) : Run E _)) b =
        some (some sk)).card = 1 := fun sk h => card_filter_eq_one (a := sk.bytes) fun b => by
    unfold ending
    dsimp only
    constructor
    · intro hb
      cases hx : SpendingKey.fromBytes P b with
      | panic => rw [hx] at hb; simp [Run.ofOutcome] at hb
      | ret o =>
        rw [hx] at hb
        cases o with
        | none => simp [Run.ofOutcome] at hb
        | some sk2 =>
          simp only [Run.ofOutcome, Option.some.injEq] at hb
          rw [← hb]
          exact (fromBytes_bytes hx).symm
    · rintro rfl
      rw [h]
      rfl
  exact card_picks (fun _ : Unit => ending fun b => (Run.ofOutcome (SpendingKey.fromBytes P b) : Run E _)) m
    [((), some sk, some sk')] (by
      intro x hx
      rw [List.mem_singleton.1 hx]
      simp only
      rw [hone sk h, hone sk' h'])

/-- **C98** (note seeds). Of all answers to `m` calls, as many make `Note::new` return a note with one acceptable seed as
with another; each seed is possible. -/
theorem C98_note_seed (G : Generator) (k m : ℕ) (a : Address) (v : NoteValue) (rho : Fp) {s s' : Bytes 32}
    (h : Spec.GoodSeed P a.d a.pkd v.inner.toNat rho s) (h' : Spec.GoodSeed P a.d a.pkd v.inner.toNat rho s') :
    Nat.card {w : Fin m → Bytes 32 // ∃ k', (Note.draw P (Spec.answer G k w) m a v rho : Drawing E Note) k =
      .ok (⟨a, v, rho, s⟩, k') ∧ k' ≤ k + m} =
    Nat.card {w : Fin m → Bytes 32 // ∃ k', (Note.draw P (Spec.answer G k w) m a v rho : Drawing E Note) k =
      .ok (⟨a, v, rho, s'⟩, k') ∧ k' ≤ k + m} ∧
    (1 ≤ m → ∃ w : Fin m → Bytes 32, ∃ k', (Note.draw P (Spec.answer G k w) m a v rho : Drawing E Note) k =
      .ok (⟨a, v, rho, s⟩, k') ∧ k' ≤ k + m) := by
  classical
  have hrun := fun (w : Fin m → Bytes 32) n => noteLoop_iff (E := E) P (Spec.answer G k w) a v rho n m m le_rfl m k le_rfl
  simp only [answersFrom_answer] at hrun
  unfold Note.draw
  simp only [hrun]
  have hone : ∀ s, Spec.GoodSeed P a.d a.pkd v.inner.toNat rho s →
      (Finset.univ.filter fun b => seedStep P a v rho b = some ⟨a, v, rho, s⟩).card = 1 :=
    fun s h => card_filter_eq_one (a := s) fun b => by
      unfold seedStep
      rw [randomSeed_fromBytes_eq]
      constructor
      · intro hb
        split at hb
        · cases hb
        · rw [Option.bind_some, fromParts_eq] at hb
          have := hb.1
          simp only [Note.mk.injEq, true_and] at this
          exact this.symm
      · rintro rfl
        rw [if_neg h.1, Option.bind_some, fromParts_eq]
        exact ⟨rfl, h.2⟩
  refine ⟨card_picks (fun _ : Unit => seedStep P a v rho) m [((), ⟨a, v, rho, s⟩, ⟨a, v, rho, s'⟩)] (by
    intro x hx
    rw [List.mem_singleton.1 hx]
    simp only
    rw [hone s h, hone s' h']), fun hm => exists_picks (fun _ : Unit => seedStep P a v rho) m [((), ⟨a, v, rho, s⟩)] hm (by
    intro x hx
    rw [List.mem_singleton.1 hx]
    obtain ⟨b, hb⟩ := Finset.card_pos.1 (show 0 < (Finset.univ.filter fun b =>
      seedStep P a v rho b = some ⟨a, v, rho, s⟩).card by rw [hone s h]; norm_num)
    exact ⟨b, (Finset.mem_filter.1 hb).2⟩) ⟨s⟩⟩

/-! ### Shuffles -/

theorem card_choiceStep {i j j' : ℕ} (hi : i + 1 < 2 ^ 32) (hj : j < i + 1) (hj' : j' < i + 1) :
    (Finset.univ.filter fun b => choiceStep i b = some j).card =
      (Finset.univ.filter fun b => choiceStep i b = some j').card ∧
    0 < (Finset.univ.filter fun b => choiceStep i b = some j).card := by
  obtain ⟨t, -, -, h, -⟩ := C97_fair_choice (w := 32) (r := i + 1) (by omega) hi
  have key : ∀ j, (Finset.univ.filter fun b => choiceStep i b = some j).card =
      ((Finset.range (2 ^ 32)).filter fun v => genRangeStep 32 (i + 1) v = some j).card := by
    intro j
    refine Finset.card_bij (fun b _ => b.toNat) (fun b hb => ?_) (fun b _ b' _ e => Bytes.toNat_injective e) fun v hv => ?_
    · rw [Finset.mem_filter] at hb
      have := b.toNat_lt
      rw [Finset.mem_filter, Finset.mem_range]
      exact ⟨by norm_num at this ⊢; exact this, hb.2⟩
    · rw [Finset.mem_filter, Finset.mem_range] at hv
      have e : (Bytes.ofNat 4 v).toNat = v := Bytes.toNat_ofNat (by have := hv.1; norm_num at this ⊢; exact this)
      refine ⟨Bytes.ofNat 4 v, ?_, e⟩
      rw [Finset.mem_filter]
      refine ⟨Finset.mem_univ _, ?_⟩
      unfold choiceStep
      rw [e]
      exact hv.2
  rw [key, key, h j hj, h j' hj']
  exact ⟨rfl, by positivity⟩

/-- **C98** (shuffles). Of all answers to `m` calls, as many shuffle a list of distinct elements into one order as into
another; each order is possible. -/
theorem C98_shuffle {α : Type} (G : Generator) (k m : ℕ) {l l' l'' : List α} (hl : l.Nodup) (h32 : l.length < 2 ^ 32)
    (h' : l'.Perm l) (h'' : l''.Perm l) :
    Nat.card {w : Fin m → Bytes 4 // ∃ k', (shuffleWith (Spec.answer G k w) m l : Drawing E (List α)) k =
      .ok (l', k') ∧ k' ≤ k + m} =
    Nat.card {w : Fin m → Bytes 4 // ∃ k', (shuffleWith (Spec.answer G k w) m l : Drawing E (List α)) k =
      .ok (l'', k') ∧ k' ≤ k + m} ∧
    (l.length - 1 ≤ m → ∃ w : Fin m → Bytes 4, ∃ k', (shuffleWith (Spec.answer G k w) m l : Drawing E (List α)) k =
      .ok (l', k') ∧ k' ≤ k + m) := by
  obtain ⟨c', hc', -⟩ := C76_every_order_once l l' hl h'
  obtain ⟨c'', hc'', -⟩ := C76_every_order_once l l'' hl h''
  simp only [shuffle_iff (E := E) hl h32 c' hc', shuffle_iff (E := E) hl h32 c'' hc'', answersFrom_answer]
  have hat : ∀ (c : Spec.Choices l.length) (i : ℕ), i < l.length → c.at i < i + 1 := fun c i hi => by
    unfold Spec.Choices.at
    rw [dif_pos hi]
    exact (c ⟨i, hi⟩).2
  have := card_picks choiceStep m ((List.range' 1 (l.length - 1)).reverse.map fun i => (i, c'.at i, c''.at i)) (by
    intro x hx
    obtain ⟨i, hi, rfl⟩ := List.mem_map.1 hx
    rw [List.mem_reverse, List.mem_range'_1] at hi
    exact (card_choiceStep (by omega) (hat c' i (by omega)) (hat c'' i (by omega))).1)
  simp only [List.map_map] at this
  have e : (List.range' 1 (l.length - 1)).reverse.map (Prod.fst ∘ fun i => (i, c'.at i, c''.at i)) =
      (List.range' 1 (l.length - 1)).reverse := List.map_id _
  rw [e] at this
  refine ⟨this, fun hm => ?_⟩
  have := exists_picks choiceStep m ((List.range' 1 (l.length - 1)).reverse.map fun i => (i, c'.at i)) (by simpa using hm) (by
    intro x hx
    obtain ⟨i, hi, rfl⟩ := List.mem_map.1 hx
    rw [List.mem_reverse, List.mem_range'_1] at hi
    obtain ⟨b, hb⟩ := Finset.card_pos.1
      (card_choiceStep (by omega) (hat c' i (by omega)) (hat c'' i (by omega))).2
    exact ⟨b, (Finset.mem_filter.1 hb).2⟩) ⟨Bytes.ofNat 4 0⟩
  simp only [List.map_map] at this
  have e : (List.range' 1 (l.length - 1)).reverse.map (Prod.fst ∘ fun i => (i, c'.at i)) =
      (List.range' 1 (l.length - 1)).reverse := List.map_id _
  rw [e] at this
  exact this

/-! ### A whole build -/

theorem card_blinding {n : ℕ} (z : Fin n → Fq × Fq) :
    (2 ^ 512 / q) ^ (2 * n) ≤ Nat.card {u // Spec.blindingOf u = z} ∧
      Nat.card {u // Spec.blindingOf u = z} ≤ (2 ^ 512 / q + 1) ^ (2 * n) := by
  have hc : Nat.card {u // Spec.blindingOf u = z} =
      ∏ i, Nat.card {w : Fin 8 → Bytes 8 // (Spec.wordsNat w : Fq) = (z i).1} *
        Nat.card {w : Fin 8 → Bytes 8 // (Spec.wordsNat w : Fq) = (z i).2} := by
    simp only [← Nat.card_prod]
    rw [← Nat.card_pi]
    refine Nat.card_congr ((Equiv.subtypeEquivRight (q := fun u => ∀ i, (Spec.wordsNat (u i).1 : Fq) = (z i).1 ∧
      (Spec.wordsNat (u i).2 : Fq) = (z i).2) fun u => ?_).trans ?_)
    · constructor
      · rintro rfl i
        exact ⟨rfl, rfl⟩
      · intro h
        funext i
        exact Prod.ext (h i).1 (h i).2
    · exact (Equiv.subtypePiEquivPi (p := fun i (x : (Fin 8 → Bytes 8) × (Fin 8 → Bytes 8)) =>
        (Spec.wordsNat x.1 : Fq) = (z i).1 ∧ (Spec.wordsNat x.2 : Fq) = (z i).2)).trans
        (Equiv.piCongrRight fun i => Equiv.subtypeProdEquivProd
          (p := fun w : Fin 8 → Bytes 8 => (Spec.wordsNat w : Fq) = (z i).1)
          (q := fun w : Fin 8 → Bytes 8 => (Spec.wordsNat w : Fq) = (z i).2))
  have hb : ∀ x : Fq, 2 ^ 512 / q ≤ Nat.card {w : Fin 8 → Bytes 8 // (Spec.wordsNat w : Fq) = x} ∧
      Nat.card {w : Fin 8 → Bytes 8 // (Spec.wordsNat w : Fq) = x} ≤ 2 ^ 512 / q + 1 := fun x => by
    rcases card_words q x with h | h <;> rw [h] <;> omega
  have e : ∀ N : ℕ, N ^ (2 * n) = ∏ _i : Fin n, N * N := fun N => by
    rw [Finset.prod_const, Finset.card_univ, Fintype.card_fin, ← pow_two, ← pow_mul]
  rw [hc, e, e]
  exact ⟨Finset.prod_le_prod' fun i _ => Nat.mul_le_mul (hb _).1 (hb _).1,
    Finset.prod_le_prod' fun i _ => Nat.mul_le_mul (hb _).2 (hb _).2⟩

section

variable {V : Type} {tryFrom : I64 → Option V} {rng : BuildDraws} {anchor : Fp} {ty : BundleType}
  {spends : List SpendInfo} {outputs : List OutputInfo} {b : UnauthorizedBundle V} {m : BundleMetadata}

/-- **C98** (a whole build). Take any request that can be built, with `n` actions.  Of all answers to the calls behind its
trapdoors and randomizers, between `N ^ (2 n)` and `(N + 1) ^ (2 n)` give prescribed values of all `cv_net` and `rk`, where
`N = 2^512 / q` rounded down; whatever is spent and paid, and whatever the values. -/
theorem C98_build (hr : ∀ s ∈ spends, Spec.Requestable P s) (hk : Spec.NoZeroKeys P rng) (he : Spec.EnoughDraws P rng)
    (h : bundle P tryFrom rng anchor ty spends outputs = .ok (some (b, m)))
    (target : List (Point × Point)) (hl : target.length = b.actions.length) :
    let count := Nat.card {u : Fin b.actions.length → (Fin 8 → Bytes 8) × (Fin 8 → Bytes 8) // ∃ b' m',
      bundle P tryFrom (Spec.reblind rng (Spec.blindingOf u)) anchor ty spends outputs = .ok (some (b', m')) ∧
      b'.actions.map Action.nf = b.actions.map Action.nf ∧
      b'.actions.map Spec.blinded = target}
    (2 ^ 512 / q) ^ (2 * b.actions.length) ≤ count ∧ count ≤ (2 ^ 512 / q + 1) ^ (2 * b.actions.length) := by
  intro count
  obtain ⟨z, hz, hu⟩ := C78_build hr hk he h target hl
  have hc : count = Nat.card {u // Spec.blindingOf u = z} := card_congr_iff fun u => by
    constructor
    · intro h
      exact hu _ h
    · rintro rfl
      exact hz
  rw [hc]
  exact card_blinding z

/-- **C98** (two requests). Given two requests that are built into the same number `n` of actions, prescribed values of
`cv_net` and `rk` have the same probability for both, up to a factor of `(1 + 2^-257) ^ (2 n)`. -/
theorem C98_indistinguishable {V' : Type} {tryFrom' : I64 → Option V'} {rng' : BuildDraws} {anchor' : Fp} {ty' : BundleType}
    {spends' : List SpendInfo} {outputs' : List OutputInfo} {b' : UnauthorizedBundle V'} {m' : BundleMetadata}
    (hr : ∀ s ∈ spends, Spec.Requestable P s) (hk : Spec.NoZeroKeys P rng) (he : Spec.EnoughDraws P rng)
    (h : bundle P tryFrom rng anchor ty spends outputs = .ok (some (b, m)))
    (hr' : ∀ s ∈ spends', Spec.Requestable P s) (hk' : Spec.NoZeroKeys P rng') (he' : Spec.EnoughDraws P rng')
    (h' : bundle P tryFrom' rng' anchor' ty' spends' outputs' = .ok (some (b', m')))
    {n : ℕ} (hn : b.actions.length = n) (hn' : b'.actions.length = n) (target : List (Point × Point))
    (hl : target.length = n) :
    (2 ^ 257) ^ (2 * n) * Nat.card {u : Fin n → (Fin 8 → Bytes 8) × (Fin 8 → Bytes 8) // ∃ c x,
      bundle P tryFrom (Spec.reblind rng (Spec.blindingOf u)) anchor ty spends outputs = .ok (some (c, x)) ∧
      c.actions.map Action.nf = b.actions.map Action.nf ∧ c.actions.map Spec.blinded = target} ≤
    (2 ^ 257 + 1) ^ (2 * n) * Nat.card {u : Fin n → (Fin 8 → Bytes 8) × (Fin 8 → Bytes 8) // ∃ c x,
      bundle P tryFrom' (Spec.reblind rng' (Spec.blindingOf u)) anchor' ty' spends' outputs' = .ok (some (c, x)) ∧
      c.actions.map Action.nf = b'.actions.map Action.nf ∧ c.actions.map Spec.blinded = target} := by
  have h1 := (C98_build hr hk he h target (by rw [hl, hn])).2
  have h2 := (C98_build hr' hk' he' h' target (by rw [hl, hn'])).1
  subst hn
  rw [hn'] at h2
  refine (Nat.mul_le_mul_left _ h1).trans (le_trans ?_ (Nat.mul_le_mul_left _ h2))
  rw [← mul_pow, ← mul_pow]
  refine Nat.pow_le_pow_left ?_ _
  have := C98_bias.1
  generalize 2 ^ 512 / q = N at this
  nlinarith

/-- **C98** (a whole build with a generator). A build with a generator that ends with a bundle of `n` actions has a block of
eight calls for each trapdoor and each randomizer, no two of them overlapping.  Let all other calls be answered as they are.
Then of all answers to the calls in these blocks, between `N ^ (2 n)` and `(N + 1) ^ (2 n)` give prescribed values of all
`cv_net` and `rk`, where `N = 2^512 / q` rounded down; whatever is spent and paid, and whatever the values. -/
theorem C98_generator {G : Generator} {fuel : ℕ} (hs : spends.length < 2 ^ 64) (ho : outputs.length < 2 ^ 64)
    (hr : ∀ s ∈ spends, Spec.Requestable P s) (hk : ∀ p, Spec.askScalar P (G.bytes p 32) ≠ 0) {k k' : ℕ}
    (h : bundleWith P tryFrom G fuel anchor ty spends outputs k = .ok (some (b, m), k')) :
    ∃ rcvAt alphaAt : Fin b.actions.length → ℕ,
      (∀ i, k ≤ rcvAt i ∧ rcvAt i + 8 ≤ k' ∧ k ≤ alphaAt i ∧ alphaAt i + 8 ≤ k') ∧
      (∀ i j, i < j → rcvAt i + 8 ≤ rcvAt j ∧ alphaAt i + 8 ≤ alphaAt j) ∧ (∀ i j, rcvAt i + 8 ≤ alphaAt j) ∧
      ∀ target : List (Point × Point), target.length = b.actions.length →
        let count := Nat.card {u : Fin b.actions.length → (Fin 8 → Bytes 8) × (Fin 8 → Bytes 8) // ∃ b' m',
          bundleWith P tryFrom (Spec.blindWith G rcvAt alphaAt u) fuel anchor ty spends outputs k = .ok (some (b', m'), k') ∧
          b'.actions.map Action.nf = b.actions.map Action.nf ∧
          b'.actions.map Spec.blinded = target}
        (2 ^ 512 / q) ^ (2 * b.actions.length) ≤ count ∧ count ≤ (2 ^ 512 / q + 1) ^ (2 * b.actions.length) := by
  obtain ⟨K, pre, ps, n1, n2, l1, q1, q2, l2, e⟩ := bundle_reblind h
  have hps : ∀ i : Fin b.actions.length, i.val < ps.length := fun i => by have := i.2; omega
  have hpre : ∀ i : Fin b.actions.length, i.val < pre.length := fun i => by have := i.2; omega
  let rcvAt : Fin b.actions.length → ℕ := fun i => K + 8 * i
  let alphaAt : Fin b.actions.length → ℕ := fun i => ps[i.val]'(hps i)
  have ra : ∀ i, K + 8 * b.actions.length ≤ alphaAt i ∧ alphaAt i + 8 ≤ k' := fun i => q1 _ (List.getElem_mem _)
  have rr : ∀ i, rcvAt i + 8 ≤ K + 8 * b.actions.length := fun i => by
    have := i.2
    simp only [rcvAt]
    omega
  have rl : ∀ i, K ≤ rcvAt i := fun i => by simp only [rcvAt]; omega
  have mono : ∀ i j, i < j → rcvAt i + 8 ≤ rcvAt j ∧ alphaAt i + 8 ≤ alphaAt j := fun i j hij => by
    refine ⟨?_, List.pairwise_iff_getElem.1 q2 _ _ _ _ hij⟩
    have : i.val < j.val := hij
    simp only [rcvAt]
    omega
  have cross : ∀ i j, rcvAt i + 8 ≤ alphaAt j := fun i j => (rr i).trans (ra j).1
  have dr : ∀ i j, i ≠ j → rcvAt i + 8 ≤ rcvAt j ∨ rcvAt j + 8 ≤ rcvAt i := fun i j hij =>
    (lt_or_gt_of_ne hij).imp (fun h => (mono _ _ h).1) fun h => (mono _ _ h).1
  have da : ∀ i j, i ≠ j → alphaAt i + 8 ≤ alphaAt j ∨ alphaAt j + 8 ≤ alphaAt i := fun i j hij =>
    (lt_or_gt_of_ne hij).imp (fun h => (mono _ _ h).2) fun h => (mono _ _ h).2
  refine ⟨rcvAt, alphaAt, fun i => ⟨l1.trans (rl i), (rr i).trans l2, ?_, (ra i).2⟩, mono, cross, fun target hl => ?_⟩
  · have := (ra i).1; omega
  -- the bundle for all answers
  have run : ∀ u : Fin b.actions.length → (Fin 8 → Bytes 8) × (Fin 8 → Bytes 8), ∃ b' m',
      bundleWith P tryFrom (Spec.blindWith G rcvAt alphaAt u) fuel anchor ty spends outputs k = .ok (some (b', m'), k') ∧
      b'.actions.length = b.actions.length ∧ ∀ (i : Fin b.actions.length) (c c' : Action SigningMetadata),
        b.actions[i.val]? = some c → b'.actions[i.val]? = some c' → c'.nf = c.nf ∧
        (∃ v, NoteValue.sub (pre[i.val]'(hpre i)).spend.note.value (pre[i.val]'(hpre i)).output.value = some v ∧
          ValueCommitment.derive v ⟨(Spec.wordsNat (u i).1 : Fq)⟩ = some c'.cvNet) ∧
        c'.rk = VerificationKey.randomize (pre[i.val]'(hpre i)).spend.fvk.ak (Spec.wordsNat (u i).2 : Fq) := by
    intro u
    rcases e (Spec.blindWith G rcvAt alphaAt u) (fun p s b1 b2 hb => blindWith_other (by
        rintro ⟨h8, ⟨i, hi⟩ | ⟨i, hi⟩⟩
        · have := rr i
          have := rl i
          exact hb ⟨h8, Or.inr (by omega)⟩
        · exact hb ⟨h8, Or.inl ⟨_, List.getElem_mem (hps i), hi⟩⟩)) with hp | ⟨b', m', g1, g2, g3⟩
    · refine absurd hp (C97_no_panic hs ho hr (fun p => ?_) k)
      rw [blindWith_other (by omega)]
      exact hk p
    · refine ⟨b', m', g1, g2, fun i c c' hc hc' => ?_⟩
      have := g3 i.val c c' _ _ hc hc' (by
        rw [retrap_get, List.getElem?_eq_getElem (hpre i)]
        rfl) (List.getElem?_eq_getElem (hps i))
      unfold Reblinded at this
      simp only at this
      rw [← wide_rcv (G := G) (rcvAt := rcvAt) (alphaAt := alphaAt) dr i, ← wide_alpha (G := G) (rcvAt := rcvAt) (alphaAt := alphaAt) da cross i]
      exact this
  -- the blinding values behind the prescribed ones
  have hz : ∀ i : Fin b.actions.length, ∃ z : Fq × Fq,
      (∀ v, NoteValue.sub (pre[i.val]'(hpre i)).spend.note.value (pre[i.val]'(hpre i)).output.value = some v →
        ∀ x, ValueCommitment.derive v ⟨x⟩ = some ⟨(target[i.val]'(by omega)).1⟩ ↔ x = z.1) ∧
      ∀ x, VerificationKey.randomize (pre[i.val]'(hpre i)).spend.fvk.ak x = ⟨(target[i.val]'(by omega)).2⟩ ↔ x = z.2 := by
    intro i
    have u1 := u64_lt (pre[i.val]'(hpre i)).spend.note.value.inner
    have u2 := u64_lt (pre[i.val]'(hpre i)).output.value.inner
    obtain ⟨x, hx, hxu⟩ := C78_value_commitment
      ⟨((pre[i.val]'(hpre i)).spend.note.value.inner.toNat : ℤ) - (pre[i.val]'(hpre i)).output.value.inner.toNat⟩
      (by constructor <;> simp only <;> omega) (target[i.val]'(by omega)).1
    obtain ⟨y, hy, hyu⟩ := C78_rk (pre[i.val]'(hpre i)).spend.fvk.ak (target[i.val]'(by omega)).2
    refine ⟨(x, y), fun v hv x' => ?_, fun y' => ⟨hyu y', fun e => by rw [e]; exact hy⟩⟩
    rw [NoteValue.sub_eq, Option.some.injEq] at hv
    subst hv
    exact ⟨hxu x', fun e => by rw [e]; exact hx⟩
  choose z hz1 hz2 using hz
  intro count
  have hc : count = Nat.card {u // Spec.blindingOf u = z} := card_congr_iff fun u => by
    obtain ⟨b', m', g1, g2, g3⟩ := run u
    constructor
    · rintro ⟨b'', m'', e1, -, e3⟩
      rw [g1, Run.ok.injEq, Prod.mk.injEq, Option.some.injEq, Prod.mk.injEq] at e1
      obtain ⟨⟨rfl, -⟩, -⟩ := e1
      subst e3
      funext i
      have hi : i.val < b'.actions.length := by have := i.2; omega
      obtain ⟨-, ⟨v, hv, hd⟩, hrk⟩ := g3 i _ _ (List.getElem?_eq_getElem i.2) (List.getElem?_eq_getElem hi)
      refine Prod.ext ((hz1 i v hv _).1 ?_) ((hz2 i _).1 ?_)
      · refine hd.trans ?_
        simp [Spec.blinded]
      · refine hrk.symm.trans ?_
        simp [Spec.blinded]
    · rintro rfl
      refine ⟨b', m', g1, List.ext_getElem (by simpa using g2) fun i h1 h2 => ?_,
        List.ext_getElem (by rw [List.length_map, g2, hl]) fun i h1 h2 => ?_⟩
      all_goals
        rw [List.length_map] at h1
        have hi : i < b.actions.length := by omega
        obtain ⟨hnf, ⟨v, hv, hd⟩, hrk⟩ := g3 ⟨i, hi⟩ _ _ (List.getElem?_eq_getElem hi) (List.getElem?_eq_getElem h1)
      · rw [List.getElem_map, List.getElem_map]
        exact hnf
      · rw [List.getElem_map]
        have c1 := (hz1 ⟨i, hi⟩ v hv (Spec.wordsNat (u ⟨i, hi⟩).1 : Fq)).2 rfl
        have c2 := (hz2 ⟨i, hi⟩ (Spec.wordsNat (u ⟨i, hi⟩).2 : Fq)).2 rfl
        rw [hd, Option.some.injEq] at c1
        rw [← hrk] at c2
        exact Prod.ext (congrArg ValueCommitment.inner c1) (congrArg VerificationKey.point c2)
  rw [hc]
  exact card_blinding z

end

namespace Examples

/-- C98: `2^512 / q` of the answers, rounded down or up, give the randomizer 7. -/
example : Spec.NearlyEven (2 ^ 512) q (Nat.card {w : Fin 8 → Bytes 8 //
    (randomScalar (Spec.answer G0 3 w) : Drawing BuildError Fq) 3 = .ok (7, 11)}) := C98_scalar G0 3 7

/-- C98: a shuffle of three elements is as likely to leave them as to turn them around. -/
example : Nat.card {w : Fin 5 → Bytes 4 // ∃ k', (shuffleWith (Spec.answer G0 0 w) 5 ["a", "b", "c"] :
      Drawing BuildError (List String)) 0 = .ok (["a", "b", "c"], k') ∧ k' ≤ 0 + 5} =
    Nat.card {w : Fin 5 → Bytes 4 // ∃ k', (shuffleWith (Spec.answer G0 0 w) 5 ["a", "b", "c"] :
      Drawing BuildError (List String)) 0 = .ok (["c", "b", "a"], k') ∧ k' ≤ 0 + 5} :=
  (C98_shuffle G0 0 5 (by decide) (by decide) (by decide) (by decide)).1

/-- C98: the keys of bytes 5 and 9 are equally likely. -/
example : Nat.card {w : Fin 3 → Bytes 32 // ∃ k', (SpendingKey.draw P0 (Spec.answer G0 0 w) 3 :
      Drawing BuildError SpendingKey) 0 = .ok (⟨Bytes.ofNat 32 5⟩, k') ∧ k' ≤ 0 + 3} =
    Nat.card {w : Fin 3 → Bytes 32 // ∃ k', (SpendingKey.draw P0 (Spec.answer G0 0 w) 3 :
      Drawing BuildError SpendingKey) 0 = .ok (⟨Bytes.ofNat 32 9⟩, k') ∧ k' ≤ 0 + 3} :=
  (C98_spending_key G0 0 3 (fromBytes_P0 _) (fromBytes_P0 _)).1

/-- C98: so are these seeds. -/
example (a : Address) (v : NoteValue) (rho : Fp) : Nat.card {w : Fin 3 → Bytes 32 // ∃ k',
      (Note.draw P0 (Spec.answer G0 0 w) 3 a v rho : Drawing BuildError Note) 0 =
        .ok (⟨a, v, rho, Bytes.ofNat 32 5⟩, k') ∧ k' ≤ 0 + 3} =
    Nat.card {w : Fin 3 → Bytes 32 // ∃ k',
      (Note.draw P0 (Spec.answer G0 0 w) 3 a v rho : Drawing BuildError Note) 0 =
        .ok (⟨a, v, rho, Bytes.ofNat 32 9⟩, k') ∧ k' ≤ 0 + 3} :=
  (C98_note_seed G0 0 3 a v rho (goodSeed_P0 ..) (goodSeed_P0 ..)).1

/-- C98: the commitments and keys of a bundle with two actions that spends 5 zatoshi. -/
example (C R C' R' : Point) : ∃ s anchor rng outs, s.note.value.inner = 5 ∧
    (2 ^ 512 / q) ^ (2 * 2) ≤ Nat.card {u : Fin 2 → (Fin 8 → Bytes 8) × (Fin 8 → Bytes 8) // ∃ b m,
      bundle P0 (some : I64 → Option I64) (Spec.reblind rng (Spec.blindingOf u)) anchor .DEFAULT [s] outs =
        .ok (some (b, m)) ∧ b.actions.map Spec.blinded = [(C, R), (C', R')]} := by
  obtain ⟨s, anchor, h1, h2, h⟩ := built_P0_all
  obtain ⟨b, m, h3, h4⟩ := h (fun _ => 0) (fun _ => 0)
  obtain ⟨rng, hk, he, h3⟩ : ∃ rng, Spec.NoZeroKeys P0 rng ∧ Spec.EnoughDraws P0 rng ∧
      bundle P0 (some : I64 → Option I64) rng anchor .DEFAULT [s] [output0 1, output0 2] = .ok (some (b, m)) :=
    have h := rng_ok (rng := { rng0 path0 with spendShuffle := fun _ => 0, outputShuffle := fun _ => 0 })
      (fun _ => rfl) (fun _ => rfl) (fun _ => rfl) (fun _ => rfl)
    ⟨_, h.1, h.2, h3⟩
  have := (C98_build (by intro s' hs'; rw [List.mem_singleton.1 hs']; exact h2) hk he h3 [(C, R), (C', R')] h4.symm).1
  rw [h4] at this
  refine ⟨s, anchor, rng, [output0 1, output0 2], h1, this.trans ?_⟩
  refine Nat.card_le_card_of_injective (fun u => ⟨u.1, ?_⟩) fun u u' e => ?_
  · obtain ⟨b', m', g1, -, g2⟩ := u.2
    exact ⟨b', m', g1, g2⟩
  · exact Subtype.ext (Subtype.mk.inj e)

/-- C98: likewise when everything is drawn from the generator `G0`. -/
example (C R C' R' : Point) : ∃ s anchor b m k', s.note.value.inner = 5 ∧
    bundleWith P0 some G0 1 anchor .DEFAULT [s] [output0 1, output0 2] 0 = .ok (some (b, m), k') ∧ b.actions.length = 2 ∧
    ∃ rcvAt alphaAt : Fin b.actions.length → ℕ, 0 < Nat.card
      {u : Fin b.actions.length → (Fin 8 → Bytes 8) × (Fin 8 → Bytes 8) // ∃ b' m',
        bundleWith P0 some (Spec.blindWith G0 rcvAt alphaAt u) 1 anchor .DEFAULT [s] [output0 1, output0 2] 0 =
          .ok (some (b', m'), k') ∧ b'.actions.map Action.nf = b.actions.map Action.nf ∧
        b'.actions.map Spec.blinded = [(C, R), (C', R')]} := by
  obtain ⟨s, anchor, b, m, k', h1, h2, h3, h4⟩ := built_G0 0
  obtain ⟨rcvAt, alphaAt, -, -, -, h⟩ := C98_generator (by simp) (by simp)
    (fun s' hs' => by rw [List.mem_singleton.1 hs']; exact h2) (fun p => by rw [askScalar_P0]; exact one_ne_zero) h3
  refine ⟨s, anchor, b, m, k', h1, h3, h4, rcvAt, alphaAt, lt_of_lt_of_le ?_ (h [(C, R), (C', R')] h4.symm).1⟩
  exact pow_pos (lt_trans (by positivity) C98_bias.1) _

end Examples

end Orchard
