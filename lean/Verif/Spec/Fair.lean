import Verif.Spec.Hiding
import Verif.Spec.Rng

/-!
# Specification of fair draws

Probabilities are given by counting: with a generator whose answers are uniform and independent, the probability of a
result is the number of answers that give it, divided by the number of all answers.
-/

namespace Orchard.Spec

/-- The generator `G`, except that its calls `k`, …, `k + m - 1` are answered by `w` if they ask for `s` bytes. -/
def answer (G : Generator) (k : ℕ) {m s : ℕ} (w : Fin m → Bytes s) : Generator where
  bytes p n := if h : k ≤ p ∧ p < k + m ∧ n = s then h.2.2 ▸ w ⟨p - k, by omega⟩ else G.bytes p n

/-- `total` draws spread over `classes` results as evenly as possible: `count` of them give one result. -/
def NearlyEven (total classes count : ℕ) : Prop := count = total / classes ∨ count = total / classes + 1

/-- Eight answers of 8 bytes as one number, least significant first. -/
def wordsNat (w : Fin 8 → Bytes 8) : ℕ := ∑ j, (w j).toNat * (2 ^ 64) ^ (j : ℕ)

/-- The trapdoors and randomizers of `n` actions, made of eight answers each. -/
def blindingOf {n : ℕ} (u : Fin n → (Fin 8 → Bytes 8) × (Fin 8 → Bytes 8)) (i : Fin n) : Fq × Fq :=
  ((wordsNat (u i).1 : Fq), (wordsNat (u i).2 : Fq))

/-- The block of eight calls, among those starting with `start i`, that call `p` belongs to, and its place in the block. -/
def blockOf {n : ℕ} (start : Fin n → ℕ) (p : ℕ) : Option (Fin n × Fin 8) :=
  (List.finRange n).findSome? fun i => if h : start i ≤ p ∧ p < start i + 8 then some (i, ⟨p - start i, by omega⟩) else none

/-- The generator `G`, except that the calls for 8 bytes behind the trapdoors and randomizers of `n` actions are answered by
`u`: the eight calls starting with `rcvAt i` and with `alphaAt i`. -/
def blindWith (G : Generator) {n : ℕ} (rcvAt alphaAt : Fin n → ℕ)
    (u : Fin n → (Fin 8 → Bytes 8) × (Fin 8 → Bytes 8)) : Generator where
  bytes p s := if h : s = 8 then h ▸
      match blockOf rcvAt p, blockOf alphaAt p with
      | some (i, j), _ => (u i).1 j
      | none, some (i, j) => (u i).2 j
      | none, none => G.bytes p 8
    else G.bytes p s

end Orchard.Spec
