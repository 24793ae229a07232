import Verif.Crypto.EvalMul
import Verif.Crypto.SinsemillaTable

/-!
# Evaluating Sinsemilla in the kernel

Nothing here models code.
-/

namespace Orchard.Compute

/-- Hash `k` chunks of the packed message `N`, starting at the given point. -/
noncomputable def sinsemillaK (k : ℕ) : ℕ → ℕ → ℕ → Option (ℕ × ℕ) :=
  Nat.rec (motive := fun _ => ℕ → ℕ → ℕ → Option (ℕ × ℕ)) (fun _ x y => some (x, y))
    (fun _ ih N x y =>
      force (Nat.mod N 1024) fun m => force (sX m) fun sx => force (sY m) fun sy => force (Nat.div N 1024) fun N' =>
        addK x y sx sy fun tx ty => addK tx ty x y fun ux uy => ih N' ux uy) k

theorem bitsNat_take (l : List Bool) (n : ℕ) : bitsNat (l.take n) = bitsNat l % 2 ^ n := by
  by_cases h : n ≤ l.length
  · conv_rhs => rw [← List.take_append_drop n l, bitsNat_append, List.length_take, min_eq_left h]
    have := bitsNat_lt (l.take n)
    rw [List.length_take, min_eq_left h] at this
    rw [Nat.add_mul_mod_self_left, Nat.mod_eq_of_lt this]
  · rw [List.take_of_length_le (by omega)]
    have h1 := bitsNat_lt l
    have h2 : 2 ^ l.length ≤ 2 ^ n := Nat.pow_le_pow_right (by norm_num) (by omega)
    rw [Nat.mod_eq_of_lt (by omega)]

theorem bitsNat_drop (l : List Bool) (n : ℕ) : bitsNat (l.drop n) = bitsNat l / 2 ^ n := by
  by_cases h : n ≤ l.length
  · conv_rhs => rw [← List.take_append_drop n l, bitsNat_append, List.length_take, min_eq_left h]
    have := bitsNat_lt (l.take n)
    rw [List.length_take, min_eq_left h] at this
    rw [Nat.add_mul_div_left _ _ (by positivity), Nat.div_eq_of_lt this, zero_add]
  · rw [List.drop_of_length_le (by omega)]
    have h1 := bitsNat_lt l
    have h2 : 2 ^ l.length ≤ 2 ^ n := Nat.pow_le_pow_right (by norm_num) (by omega)
    rw [Nat.div_eq_of_lt (by omega)]
    rfl

theorem sinsemillaK_succ (k N x y : ℕ) : sinsemillaK (k + 1) N x y =
    addK x y (sX (N % 1024)) (sY (N % 1024)) fun tx ty => addK tx ty x y fun ux uy =>
      sinsemillaK k (N / 1024) ux uy := by
  have h : sinsemillaK (k + 1) N x y =
      force (Nat.mod N 1024) fun m => force (sX m) fun sx => force (sY m) fun sy => force (Nat.div N 1024) fun N' =>
        addK x y sx sy fun tx ty => addK tx ty x y fun ux uy => sinsemillaK k N' ux uy := rfl
  rw [h]
  simp only [force_eq]
  rfl

theorem chunksAux_sound (fuel : ℕ) : ∀ (l : List Bool) (x y : ℕ) (A : Point) (r : ℕ × ℕ), l.length ≤ fuel →
    Rep (some (x, y)) A → sinsemillaK ((l.length + 9) / 10) (bitsNat l) x y = some r →
    ∃ C, (chunksAux fuel l).foldlM (sinsemillaStep Prims.zcash) A = some C ∧ Rep (some r) C := by
  induction fuel with
  | zero =>
    intro l x y A r hl hA h
    have : l = [] := List.length_eq_zero_iff.1 (by omega)
    subst this
    have h' : some (x, y) = some r := h
    rw [← h']
    exact ⟨A, rfl, hA⟩
  | succ fuel ih =>
    intro l x y A r hl hA h
    cases l with
    | nil =>
      have h' : some (x, y) = some r := h
      rw [← h']
      exact ⟨A, rfl, hA⟩
    | cons b l =>
      have hk : ((b :: l).length + 9) / 10 = (((b :: l).drop 10).length + 9) / 10 + 1 := by
        rw [List.length_drop, List.length_cons]; omega
      rw [hk, sinsemillaK_succ] at h
      have hS := rep_sinsemillaS (bitsNat (b :: l) % 1024) (Nat.mod_lt _ (by norm_num))
      obtain ⟨tx, ty, ht, h, i1⟩ := addK_sound hA hS h
      obtain ⟨ux, uy, hu, h, i2⟩ := addK_sound ht hA h
      rw [show bitsNat (b :: l) / 1024 = bitsNat ((b :: l).drop 10) by rw [bitsNat_drop]; norm_num] at h
      obtain ⟨C, hC, hr⟩ := ih ((b :: l).drop 10) ux uy _ r (by rw [List.length_drop]; omega) hu h
      refine ⟨C, ?_, hr⟩
      rw [chunksAux, List.foldlM_cons, bitsNat_take]
      · have hstep : sinsemillaStep Prims.zcash A (bitsNat (b :: l) % 2 ^ 10) =
            some (A + Prims.zcash.sinsemillaS (bitsNat (b :: l) % 1024) + A) := by
          unfold sinsemillaStep
          rw [show (2 : ℕ) ^ 10 = 1024 by norm_num, i1, Option.bind_some, i2]
        rw [hstep]
        exact hC
      · simp

theorem sinsemilla_sound {l : List Bool} {n N x y : ℕ} {Q : Point} {r : ℕ × ℕ} (hn : (l.length + 9) / 10 = n)
    (hN : bitsNat l = N) (hQ : Rep (some (x, y)) Q) (h : sinsemillaK n N x y = some r) :
    ∃ C, sinsemillaHashToPoint Prims.zcash Q l = some C ∧ Rep (some r) C := by
  subst hn hN
  exact chunksAux_sound l.length l x y Q r le_rfl hQ h

end Orchard.Compute
