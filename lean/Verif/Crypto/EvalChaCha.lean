import Verif.Crypto.EvalPoints
import Verif.Crypto.Zcash
import Verif.Model.NoteEncryption

/-!
# Evaluating the authenticated encryption in the kernel

Nothing here models code.
-/

namespace Orchard.Compute

open ChaCha

/-- `m` blocks of keystream from block `c` on, packed. -/
noncomputable def streamK (key m : ℕ) : ℕ → ℕ :=
  Nat.rec (motive := fun _ => ℕ → ℕ) (fun _ => 0) (fun _ ih c => block key c + 256 ^ 64 * ih (c + 1)) m

theorem streamK_succ (key m c : ℕ) : streamK key (m + 1) c = block key c + 256 ^ 64 * streamK key m (c + 1) := rfl

theorem foldr_words_lt (l : List ℕ) (h : ∀ w ∈ l, w < 4294967296) :
    l.foldr (fun w n => w + 4294967296 * n) 0 < 4294967296 ^ l.length := by
  induction l with
  | nil => simp
  | cons a l ih =>
    have h1 := h a (by simp)
    have h2 := ih (fun w hw => h w (by simp [hw]))
    rw [List.foldr_cons, List.length_cons, pow_succ]
    generalize 4294967296 ^ l.length = B at *
    omega

theorem block_lt (key c : ℕ) : block key c < 256 ^ 64 := by
  have hp : (256 : ℕ) ^ 64 = 4294967296 ^ 16 := by
    rw [show (4294967296 : ℕ) = 256 ^ 4 by norm_num, ← pow_mul]
  rw [hp]
  unfold block serialize
  refine lt_of_lt_of_eq (foldr_words_lt _ ?_) rfl
  have h32 : ∀ a b, add32 a b < 4294967296 := fun a b => Nat.mod_lt _ (by norm_num)
  intro w hw
  simp only [List.mem_cons, List.not_mem_nil, or_false] at hw
  rcases hw with h | h | h | h | h | h | h | h | h | h | h | h | h | h | h | h <;> (rw [h]; exact h32 _ _)

theorem streamK_byte (key : ℕ) (m : ℕ) : ∀ c i : ℕ, i < 64 * m →
    streamK key m c / 256 ^ i % 256 = block key (c + i / 64) / 256 ^ (i % 64) % 256 := by
  induction m with
  | zero => intro c i h; omega
  | succ m ih =>
    intro c i h
    rw [streamK_succ]
    by_cases hi : i < 64
    · rw [Nat.div_eq_of_lt hi, Nat.mod_eq_of_lt hi, Nat.add_zero c]
      obtain ⟨j, hj⟩ : ∃ j, 64 = i + (j + 1) := ⟨63 - i, by omega⟩
      rw [show 256 ^ 64 * streamK key m (c + 1) = 256 ^ i * (256 * (256 ^ j * streamK key m (c + 1))) by
        rw [hj, Nat.pow_add, Nat.pow_succ]; ring, Nat.add_mul_div_left _ _ (by positivity), Nat.add_mul_mod_self_left]
    · obtain ⟨j, rfl⟩ : ∃ j, i = 64 + j := ⟨i - 64, by omega⟩
      have h1 : (64 + j) / 64 = 1 + j / 64 := by omega
      have h2 : (64 + j) % 64 = j % 64 := by omega
      have h3 := ih (c + 1) j (by omega)
      rw [h1, h2, ← Nat.add_assoc, ← h3, Nat.pow_add, ← Nat.div_div_eq_div_mul,
        Nat.add_mul_div_left _ _ (by positivity), Nat.div_eq_of_lt (block_lt key c), Nat.zero_add]

theorem leBytes_eq_map (n : ℕ) : ∀ x : ℕ,
    leBytes n x = (List.range n).map fun i => UInt8.ofNat (x / 256 ^ i) := by
  induction n with
  | zero => intro x; rfl
  | succ n ih =>
    intro x
    rw [leBytes, ih, List.range_succ_eq_map, List.map_cons, List.map_map]
    congr 1
    · rw [pow_zero, Nat.div_one]
    · apply List.map_congr_left
      intro i _
      rw [Function.comp_apply, Nat.div_div_eq_div_mul, Nat.succ_eq_add_one, Nat.pow_succ, Nat.mul_comm]

theorem keystream_eq (key m n : ℕ) (h : n ≤ 64 * m) :
    (List.range n).map (keystream key) = leBytes n (streamK key m 1) := by
  rw [leBytes_eq_map]
  apply List.map_congr_left
  intro i hi
  rw [List.mem_range] at hi
  unfold keystream
  apply UInt8.toNat_inj.1
  rw [UInt8.toNat_ofNat', UInt8.toNat_ofNat']
  have := streamK_byte key m 1 i (by omega)
  rw [show (2 : ℕ) ^ 8 = 256 by norm_num, this, Nat.shiftRight_eq_div_pow, pow_mul,
    show (2 : ℕ) ^ 8 = 256 by norm_num]

theorem zcash_chacha20 (key : Bytes 32) (i : ℕ) : Prims.zcash.chacha20 key i = keystream key.toNat i := by
  delta Prims.zcash
  with_reducible rfl

theorem zcash_poly1305 (key : Bytes 32) (ct : List UInt8) :
    Prims.zcash.poly1305 key ct = Bytes.ofNat 16 (tag key.toNat (leNat ct) ct.length) := by
  delta Prims.zcash
  with_reducible rfl

theorem mapIdx_eq_zipWith (f : UInt8 → UInt8 → UInt8) (g : ℕ → UInt8) (l : List UInt8) :
    (l.mapIdx fun i x => f x (g i)) = List.zipWith f l ((List.range l.length).map g) := by
  apply List.ext_getElem
  · simp
  · intro i h1 h2
    simp

theorem xorStream_nat {n : ℕ} {key : Bytes 32} {b : Bytes n} (m : ℕ) {K B : ℕ} (hK : key.toNat = K) (hB : b.toNat = B)
    (hm : n ≤ 64 * m) : (xorStream Prims.zcash key b).toNat = Nat.xor B (streamK K m 1 % 256 ^ n) := by
  subst hK hB
  have h1 : (xorStream Prims.zcash key b).toList = b.toList.mapIdx fun i x => x ^^^ keystream key.toNat i := by
    unfold xorStream
    rw [Bytes.toList_mk]
    simp only [zcash_chacha20]
  show leNat (xorStream Prims.zcash key b).toList = _
  rw [h1, mapIdx_eq_zipWith (· ^^^ ·), Bytes.length_toList, keystream_eq _ m n hm,
    leNat_xor _ _ (by rw [Bytes.length_toList, length_leBytes]), leNat_leBytes]
  rfl

/-- The tag from the two parts of the one-time key. -/
def tagWith (r s ct len : ℕ) : ℕ :=
  (polyStep r ((List.range ((len + 15) / 16)).foldl (fun acc i => polyStep r acc ((ct >>> (128 * i)) % 2 ^ 128)) 0)
    (2 ^ 64 * len) + s) % 2 ^ 128

/-- Authenticated encryption of `n` packed bytes, `n ≤ 64 m`. -/
noncomputable def aeadK (key pt n m : ℕ) : ℕ :=
  force (Nat.xor pt (streamK key m 1 % 256 ^ n)) fun ct => force (polyR key) fun r => force (polyS key) fun s =>
    ct + 256 ^ n * tagWith r s ct n

theorem aeadEncrypt_nat {n : ℕ} {key : Bytes 32} {b : Bytes n} (m : ℕ) {K B : ℕ} (hK : key.toNat = K)
    (hB : b.toNat = B) (hm : n ≤ 64 * m) : (aeadEncrypt Prims.zcash key b).toNat = aeadK K B n m := by
  have hx := xorStream_nat m hK hB hm
  unfold aeadK
  rw [force_eq, force_eq, force_eq, ← hx]
  unfold aeadEncrypt
  dsimp only
  generalize xorStream Prims.zcash key b = ct
  show leNat (ct.toList ++ (Prims.zcash.poly1305 key ct.toList).toList) = _
  rw [leNat_append, zcash_poly1305, Bytes.length_toList, hK]
  show ct.toNat + 256 ^ n * leNat (leBytes 16 (tag K ct.toNat n)) = _
  rw [leNat_leBytes]
  have ht : tag K ct.toNat n = tagWith (polyR K) (polyS K) ct.toNat n := rfl
  have hlt : tagWith (polyR K) (polyS K) ct.toNat n < 256 ^ 16 := by
    unfold tagWith
    exact lt_of_lt_of_eq (Nat.mod_lt _ (by positivity)) (by norm_num)
  rw [ht, Nat.mod_eq_of_lt hlt]

end Orchard.Compute
