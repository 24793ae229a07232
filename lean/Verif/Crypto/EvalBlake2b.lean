import Verif.Crypto.Blake2b
import Verif.Crypto.Compute

/-!
# Evaluating BLAKE2b in the kernel

The functions of `Blake2b` in continuation-passing style, so that the kernel evaluates every word as soon
as it is computed.  Messages are natural numbers with a length.  Nothing here models code.
-/

namespace Orchard.Compute

open Blake2b

/-- `add64` with the kernel's own operations. -/
def add64K (a b : ℕ) : ℕ := Nat.mod (Nat.add a b) 18446744073709551616

/-- `rotr` with the kernel's own operations. -/
def rotrK (r s x : ℕ) : ℕ :=
  Nat.lor (Nat.shiftRight x r) (Nat.mod (Nat.shiftLeft x s) 18446744073709551616)

/-- `mix`. -/
noncomputable def mixK {α : Type} (a b c d x y : ℕ) (k : ℕ → ℕ → ℕ → ℕ → α) : α :=
  force (add64K (add64K a b) x) fun a => force (rotrK 32 32 (Nat.xor d a)) fun d =>
  force (add64K c d) fun c => force (rotrK 24 40 (Nat.xor b c)) fun b =>
  force (add64K (add64K a b) y) fun a => force (rotrK 16 48 (Nat.xor d a)) fun d =>
  force (add64K c d) fun c => force (rotrK 63 1 (Nat.xor b c)) fun b => k a b c d

theorem mixK_eq {α : Type} (a b c d x y : ℕ) (k : ℕ → ℕ → ℕ → ℕ → α) :
    mixK a b c d x y k = k (mix ⟨a, b, c, d⟩ x y).a (mix ⟨a, b, c, d⟩ x y).b (mix ⟨a, b, c, d⟩ x y).c
      (mix ⟨a, b, c, d⟩ x y).d := by
  unfold mixK
  simp only [force_eq]
  rfl

/-- A function of the sixteen words of a working vector, column by column. -/
abbrev WorkK (α : Type) := ℕ → ℕ → ℕ → ℕ → ℕ → ℕ → ℕ → ℕ → ℕ → ℕ → ℕ → ℕ → ℕ → ℕ → ℕ → ℕ → α

/-- Apply it. -/
def WorkK.app {α : Type} (k : WorkK α) (w : Work) : α :=
  k w.c0.a w.c0.b w.c0.c w.c0.d w.c1.a w.c1.b w.c1.c w.c1.d w.c2.a w.c2.b w.c2.c w.c2.d
    w.c3.a w.c3.b w.c3.c w.c3.d

/-- `round`. -/
noncomputable def roundK {α : Type} (m : ℕ → ℕ) (k : WorkK α) : WorkK α :=
  fun a0 b0 c0 d0 a1 b1 c1 d1 a2 b2 c2 d2 a3 b3 c3 d3 =>
  mixK a0 b0 c0 d0 (m 0) (m 1) fun a0 b0 c0 d0 =>
  mixK a1 b1 c1 d1 (m 2) (m 3) fun a1 b1 c1 d1 =>
  mixK a2 b2 c2 d2 (m 4) (m 5) fun a2 b2 c2 d2 =>
  mixK a3 b3 c3 d3 (m 6) (m 7) fun a3 b3 c3 d3 =>
  mixK a0 b1 c2 d3 (m 8) (m 9) fun a0 b1 c2 d3 =>
  mixK a1 b2 c3 d0 (m 10) (m 11) fun a1 b2 c3 d0 =>
  mixK a2 b3 c0 d1 (m 12) (m 13) fun a2 b3 c0 d1 =>
  mixK a3 b0 c1 d2 (m 14) (m 15) fun a3 b0 c1 d2 =>
  k a0 b0 c0 d0 a1 b1 c1 d1 a2 b2 c2 d2 a3 b3 c3 d3

theorem roundK_eq {α : Type} (m : ℕ → ℕ) (k : WorkK α) (w : Work) :
    WorkK.app (roundK m k) w = WorkK.app k (Blake2b.round w m) := by
  unfold WorkK.app roundK
  simp only [mixK_eq]
  rfl

/-- `Nat.rec`-free access to the `i`th word of a packed block. -/
def wordK (M i : ℕ) : ℕ := Nat.mod (Nat.shiftRight M (Nat.mul 64 i)) 18446744073709551616

/-- The `i`th hexadecimal digit. -/
def nibK (s i : ℕ) : ℕ := Nat.mod (Nat.shiftRight s (Nat.mul 4 i)) 16

/-- `sigma`, one number per row. -/
def sigmaK : List ℕ :=
  [0xfedcba9876543210, 0x357b20c16df984ae, 0x491763eadf250c8b, 0x8f04a562ebcd1397, 0xd386cb1efa427509,
   0x91ef57d438b0a6c2, 0xb8293670a4def15c, 0xa2684f05931ce7bd, 0x5a417d2c803b9ef6, 0x0dc3e9bf5167482a,
   0xfedcba9876543210, 0x357b20c16df984ae]

/-- The rounds. -/
noncomputable def roundsK {α : Type} (M : ℕ) (k : WorkK α) (l : List ℕ) : WorkK α :=
  List.rec (motive := fun _ => WorkK α) k (fun s _ ih => roundK (fun i => wordK M (nibK s i)) ih) l

theorem roundsK_eq {α : Type} (M : ℕ) (k : WorkK α) (l : List ℕ) : ∀ w : Work,
    WorkK.app (roundsK M k l) w =
      WorkK.app k (l.foldl (fun w s => Blake2b.round w fun i => wordK M (nibK s i)) w) := by
  induction l with
  | nil => intro w; rfl
  | cons s l ih =>
    intro w
    rw [List.foldl_cons, ← ih]
    show WorkK.app (roundK (fun i => wordK M (nibK s i)) (roundsK M k l)) w = _
    rw [roundK_eq]

/-- A function of the eight words of a chaining value. -/
abbrev ChainK (α : Type) := ℕ → ℕ → ℕ → ℕ → ℕ → ℕ → ℕ → ℕ → α

/-- Apply it. -/
def ChainK.app {α : Type} (k : ChainK α) (h : List ℕ) : α :=
  k (h.getD 0 0) (h.getD 1 0) (h.getD 2 0) (h.getD 3 0) (h.getD 4 0) (h.getD 5 0) (h.getD 6 0) (h.getD 7 0)

/-- `compress`, for a counter below `2^64`; `f` is the finalisation word. -/
noncomputable def compressK {α : Type} (M t f : ℕ) (k : ChainK α) : ChainK α :=
  fun h0 h1 h2 h3 h4 h5 h6 h7 =>
  roundsK M (fun a0 b0 c0 d0 a1 b1 c1 d1 a2 b2 c2 d2 a3 b3 c3 d3 =>
    force (Nat.xor (Nat.xor h0 a0) c0) fun h0 => force (Nat.xor (Nat.xor h1 a1) c1) fun h1 =>
    force (Nat.xor (Nat.xor h2 a2) c2) fun h2 => force (Nat.xor (Nat.xor h3 a3) c3) fun h3 =>
    force (Nat.xor (Nat.xor h4 b0) d0) fun h4 => force (Nat.xor (Nat.xor h5 b1) d1) fun h5 =>
    force (Nat.xor (Nat.xor h6 b2) d2) fun h6 => force (Nat.xor (Nat.xor h7 b3) d3) fun h7 =>
    k h0 h1 h2 h3 h4 h5 h6 h7) sigmaK
    h0 h4 0x6a09e667f3bcc908 (Nat.xor 0x510e527fade682d1 t)
    h1 h5 0xbb67ae8584caa73b 0x9b05688c2b3e6c1f
    h2 h6 0x3c6ef372fe94f82b (Nat.xor 0x1f83d9abfb41bd6b f)
    h3 h7 0xa54ff53a5f1d36f1 0x5be0cd19137e2179

theorem round_congr (w : Work) {m m' : ℕ → ℕ} (h : ∀ i < 16, m i = m' i) :
    Blake2b.round w m = Blake2b.round w m' := by
  unfold Blake2b.round
  rw [h 0 (by norm_num), h 1 (by norm_num), h 2 (by norm_num), h 3 (by norm_num), h 4 (by norm_num),
    h 5 (by norm_num), h 6 (by norm_num), h 7 (by norm_num), h 8 (by norm_num), h 9 (by norm_num),
    h 10 (by norm_num), h 11 (by norm_num), h 12 (by norm_num), h 13 (by norm_num), h 14 (by norm_num),
    h 15 (by norm_num)]

theorem foldl_rounds (m : List ℕ) (M : ℕ) (hm : ∀ i < 16, m.getD i 0 = wordK M i) :
    ∀ (l : List (List ℕ)) (l' : List ℕ),
      List.Forall₂ (fun s s' => ∀ i < 16, s.getD i 0 = nibK s' i ∧ nibK s' i < 16) l l' → ∀ w : Work,
      l.foldl (fun w s => Blake2b.round w fun i => m.getD (s.getD i 0) 0) w =
        l'.foldl (fun w s => Blake2b.round w fun i => wordK M (nibK s i)) w := by
  intro l l' h
  induction h with
  | nil => intro w; rfl
  | cons h _ ih =>
    intro w
    rw [List.foldl_cons, List.foldl_cons, ← ih]
    congr 1
    refine round_congr w fun i hi => ?_
    obtain ⟨h1, h2⟩ := h i hi
    rw [h1, hm _ h2]

theorem sigma_sigmaK :
    List.Forall₂ (fun s s' => ∀ i < 16, s.getD i 0 = nibK s' i ∧ nibK s' i < 16) sigma sigmaK := by
  unfold sigma sigmaK
  repeat' first | exact List.Forall₂.nil | refine List.Forall₂.cons ?_ ?_
  all_goals decide +kernel

theorem compressK_eq {α : Type} (k : ChainK α) {h m : List ℕ} {M t : ℕ} {last : Bool} (ht : t < 2 ^ 64)
    (hm : ∀ i < 16, m.getD i 0 = wordK M i) :
    ChainK.app (compressK M t (if last then 2 ^ 64 - 1 else 0) k) h =
      ChainK.app k (compress h m t last) := by
  have key := roundsK_eq M (fun a0 b0 c0 d0 a1 b1 c1 d1 a2 b2 c2 d2 a3 b3 c3 d3 =>
    k (Nat.xor (Nat.xor (h.getD 0 0) a0) c0) (Nat.xor (Nat.xor (h.getD 1 0) a1) c1)
      (Nat.xor (Nat.xor (h.getD 2 0) a2) c2) (Nat.xor (Nat.xor (h.getD 3 0) a3) c3)
      (Nat.xor (Nat.xor (h.getD 4 0) b0) d0) (Nat.xor (Nat.xor (h.getD 5 0) b1) d1)
      (Nat.xor (Nat.xor (h.getD 6 0) b2) d2) (Nat.xor (Nat.xor (h.getD 7 0) b3) d3)) sigmaK
    ⟨⟨h.getD 0 0, h.getD 4 0, iv.getD 0 0, iv.getD 4 0 ^^^ (t % 2 ^ 64)⟩,
      ⟨h.getD 1 0, h.getD 5 0, iv.getD 1 0, iv.getD 5 0 ^^^ (t / 2 ^ 64)⟩,
      ⟨h.getD 2 0, h.getD 6 0, iv.getD 2 0, if last then iv.getD 6 0 ^^^ (2 ^ 64 - 1) else iv.getD 6 0⟩,
      ⟨h.getD 3 0, h.getD 7 0, iv.getD 3 0, iv.getD 7 0⟩⟩
  rw [← foldl_rounds m M hm _ _ sigma_sigmaK] at key
  have hf : (if last then iv.getD 6 0 ^^^ (2 ^ 64 - 1) else iv.getD 6 0) =
      Nat.xor 0x1f83d9abfb41bd6b (if last then 2 ^ 64 - 1 else 0) := by
    cases last <;> decide
  have h5 : iv.getD 5 0 ^^^ (t / 2 ^ 64) = 0x9b05688c2b3e6c1f := by
    rw [Nat.div_eq_of_lt ht]; decide
  rw [hf, h5, Nat.mod_eq_of_lt ht] at key
  refine Eq.trans ?_ (key.trans ?_)
  · unfold ChainK.app compressK
    simp only [force_eq]
    rfl
  · unfold ChainK.app compress
    dsimp only
    rw [hf, h5, Nat.mod_eq_of_lt ht]
    rfl

/-- `blocks`, on a packed message. -/
noncomputable def blocksK {α : Type} (k : ChainK α) (fuel : ℕ) : ℕ → ℕ → ℕ → ChainK α :=
  Nat.rec (motive := fun _ => ℕ → ℕ → ℕ → ChainK α) (fun _ _ _ => k)
    (fun _ ih done M len =>
      bif Nat.ble len 128 then compressK M (Nat.add done len) 18446744073709551615 k
      else fun h0 h1 h2 h3 h4 h5 h6 h7 => force (Nat.add done 128) fun done' =>
        force (Nat.shiftRight M 1024) fun M' => force (Nat.sub len 128) fun len' =>
        compressK M done' 0 (ih done' M' len') h0 h1 h2 h3 h4 h5 h6 h7) fuel

theorem blocksK_succ {α : Type} (k : ChainK α) (fuel done M len : ℕ) :
    blocksK k (fuel + 1) done M len =
      bif Nat.ble len 128 then compressK M (Nat.add done len) 18446744073709551615 k
      else compressK M (Nat.add done 128) 0
        (blocksK k fuel (Nat.add done 128) (Nat.shiftRight M 1024) (Nat.sub len 128)) := by
  have h : blocksK k (fuel + 1) done M len =
      bif Nat.ble len 128 then compressK M (Nat.add done len) 18446744073709551615 k
      else fun h0 h1 h2 h3 h4 h5 h6 h7 => force (Nat.add done 128) fun done' =>
        force (Nat.shiftRight M 1024) fun M' => force (Nat.sub len 128) fun len' =>
        compressK M done' 0 (blocksK k fuel done' M' len') h0 h1 h2 h3 h4 h5 h6 h7 := rfl
  rw [h]
  simp only [force_eq]

theorem leNat_drop (l : List UInt8) (n : ℕ) : leNat (l.drop n) = leNat l / 256 ^ n := by
  by_cases h : n ≤ l.length
  · conv_rhs => rw [← List.take_append_drop n l, leNat_append, List.length_take, min_eq_left h]
    have := leNat_lt (l.take n)
    rw [List.length_take, min_eq_left h] at this
    rw [Nat.add_mul_div_left _ _ (by positivity), Nat.div_eq_of_lt this, zero_add]
  · rw [List.drop_of_length_le (by omega)]
    have h1 := leNat_lt l
    have h2 : 256 ^ l.length ≤ 256 ^ n := Nat.pow_le_pow_right (by norm_num) (by omega)
    rw [Nat.div_eq_of_lt (by omega)]
    rfl

theorem leNat_take (l : List UInt8) (n : ℕ) : leNat (l.take n) = leNat l % 256 ^ n := by
  by_cases h : n ≤ l.length
  · conv_rhs => rw [← List.take_append_drop n l, leNat_append, List.length_take, min_eq_left h]
    have := leNat_lt (l.take n)
    rw [List.length_take, min_eq_left h] at this
    rw [Nat.add_mul_mod_self_left, Nat.mod_eq_of_lt this]
  · rw [List.take_of_length_le (by omega)]
    have h1 := leNat_lt l
    have h2 : 256 ^ l.length ≤ 256 ^ n := Nat.pow_le_pow_right (by norm_num) (by omega)
    rw [Nat.mod_eq_of_lt (by omega)]

theorem words_getD (l : List UInt8) (i : ℕ) (hi : i < 16) : (words l).getD i 0 = wordK (leNat l) i := by
  unfold words wordK
  rw [List.getD_eq_getElem?_getD, List.getElem?_map, List.getElem?_range hi, Option.map_some,
    Option.getD_some, leNat_take, leNat_drop]
  show _ = leNat l >>> (64 * i) % 18446744073709551616
  rw [Nat.shiftRight_eq_div_pow, pow_mul, pow_mul]
  norm_num

theorem words_take_getD (l : List UInt8) (i : ℕ) (hi : i < 16) :
    (words (l.take 128)).getD i 0 = wordK (leNat l) i := by
  unfold words wordK
  rw [List.getD_eq_getElem?_getD, List.getElem?_map, List.getElem?_range hi, Option.map_some,
    Option.getD_some, List.drop_take, List.take_take, min_eq_left (by omega), leNat_take, leNat_drop]
  show _ = leNat l >>> (64 * i) % 18446744073709551616
  rw [Nat.shiftRight_eq_div_pow, pow_mul, pow_mul]
  norm_num

theorem blocksK_eq {α : Type} (k : ChainK α) (fuel : ℕ) : ∀ (h : List ℕ) (done : ℕ) (l : List UInt8),
    done + l.length < 2 ^ 64 →
    ChainK.app (blocksK k fuel done (leNat l) l.length) h = ChainK.app k (blocks fuel h done l) := by
  induction fuel with
  | zero => intro h done l _; rfl
  | succ fuel ih =>
    intro h done l hl
    rw [blocks]
    rw [blocksK_succ, Nat.add_eq, Nat.add_eq, Nat.sub_eq]
    by_cases hb : l.length ≤ 128
    · rw [if_pos hb, Nat.ble_eq_true_of_le hb, cond_true]
      have := compressK_eq (last := true) (h := h) k hl (words_getD l)
      rw [if_pos rfl] at this
      exact this
    · have hb' : Nat.ble l.length 128 = false := by
        rw [← Bool.not_eq_true, Nat.ble_eq]; exact hb
      rw [if_neg hb, hb', cond_false]
      have hs : Nat.shiftRight (leNat l) 1024 = leNat l / 256 ^ 128 :=
        (Nat.shiftRight_eq_div_pow (leNat l) 1024).trans (congrArg (leNat l / ·) (pow_mul 2 8 128))
      have h3 := ih (compress h (words (l.take 128)) (done + 128) false) (done + 128) (l.drop 128)
        (by rw [List.length_drop]; omega)
      have h4 := compressK_eq (last := false) (M := leNat l) (h := h)
        (blocksK k fuel (done + 128) (leNat l / 256 ^ 128) (l.length - 128))
        (show done + 128 < 2 ^ 64 by omega) (words_take_getD l)
      rw [if_neg (by simp)] at h4
      rw [hs, h4, ← h3, leNat_drop, List.length_drop]

/-- `digestNat`, with the personalisation as two words and the message packed. -/
noncomputable def digestK (outLen p0 p1 M len : ℕ) : ℕ :=
  blocksK (fun h0 h1 h2 h3 h4 h5 h6 h7 =>
      h0 + 2 ^ 64 * (h1 + 2 ^ 64 * (h2 + 2 ^ 64 * (h3 + 2 ^ 64 * (h4 + 2 ^ 64 * (h5 + 2 ^ 64 * (h6 + 2 ^ 64 * h7)))))))
    (len / 128 + 1) 0 M len
    (Nat.xor 0x6a09e667f3bcc908 (Nat.add 0x01010000 outLen)) 0xbb67ae8584caa73b 0x3c6ef372fe94f82b
    0xa54ff53a5f1d36f1 0x510e527fade682d1 0x9b05688c2b3e6c1f (Nat.xor 0x1f83d9abfb41bd6b p0)
    (Nat.xor 0x5be0cd19137e2179 p1)

theorem blocks_length (fuel : ℕ) : ∀ (h : List ℕ) (done : ℕ) (m : List UInt8), h.length = 8 →
    (blocks fuel h done m).length = 8 := by
  induction fuel with
  | zero => intro h _ _ hh; exact hh
  | succ fuel ih =>
    intro h done m _
    rw [blocks]
    split
    · rfl
    · exact ih _ _ _ rfl

theorem digestK_eq (outLen : ℕ) (personal m : List UInt8) (hm : m.length < 2 ^ 64) :
    digestNat outLen personal m =
      digestK outLen (leNat (personal.take 8)) (leNat ((personal.drop 8).take 8)) (leNat m) m.length := by
  have key := blocksK_eq (fun h0 h1 h2 h3 h4 h5 h6 h7 =>
      h0 + 2 ^ 64 * (h1 + 2 ^ 64 * (h2 + 2 ^ 64 * (h3 + 2 ^ 64 * (h4 + 2 ^ 64 * (h5 + 2 ^ 64 * (h6 + 2 ^ 64 * h7)))))))
    (m.length / 128 + 1) (init outLen personal) 0 m (by omega)
  have h8 : (digest outLen personal m).length = 8 := blocks_length _ _ _ _ rfl
  unfold digestNat
  have hd : digest outLen personal m = blocks (m.length / 128 + 1) (init outLen personal) 0 m := rfl
  rw [← hd] at key
  generalize digest outLen personal m = l at h8 key ⊢
  match l, h8 with
  | [a, b, c, d, e, f, g, h], _ =>
    unfold ChainK.app at key
    simp only [init, iv, List.getD_cons_zero, List.getD_cons_succ] at key
    unfold digestK
    refine Eq.trans ?_ key.symm
    simp only [List.foldr_cons, List.foldr_nil, mul_zero, add_zero]

end Orchard.Compute
