import Verif.Model.Builder
import Verif.Model.Rng

/-!
# Specification of the use of the generator

Which random values a build draws, in which order, and how each is computed from the bytes that the calls of the generator
return.  `G.bytes p n` are the `n` bytes that call number `p` returns when asked for `n`.
-/

namespace Orchard.Spec

/-- The number given by eight calls for 8 bytes, starting with call `p`: least significant first. -/
def wide (G : Generator) (p : ℕ) : ℕ := ∑ j ∈ Finset.range 8, (G.bytes (p + j) 8).toNat * (2 ^ 64) ^ j

/-- The random values of a build. -/
inductive Label where
  /-- the spending key of dummy spend `j` -/
  | spendKey (j : ℕ)
  /-- the point whose abscissa is the `ρ` of dummy spend `j` -/
  | spendRho (j : ℕ)
  /-- the seed of the note of dummy spend `j` -/
  | spendSeed (j : ℕ)
  /-- position and siblings of the path of dummy spend `j` -/
  | spendPath (j : ℕ)
  /-- the spending key behind the recipient of dummy output `j` -/
  | outputKey (j : ℕ)
  /-- with which place up to `i` place `i` is exchanged in the shuffle of the spends -/
  | spendChoice (i : ℕ)
  /-- likewise for the outputs -/
  | outputChoice (i : ℕ)
  /-- the trapdoor of the value commitment of action `i` -/
  | rcv (i : ℕ)
  /-- the randomizer of the key of action `i` -/
  | alpha (i : ℕ)
  /-- the seed of the new note of action `i` -/
  | seed (i : ℕ)
  /-- key and plaintext of the outgoing ciphertext of action `i` if it has no outgoing viewing key -/
  | ock (i : ℕ)
  deriving DecidableEq

/-- How many calls of the generator a value takes (the accepted round, if there are several). -/
def Label.calls : Label → ℕ
  | .spendRho _ => 9
  | .spendPath _ => 257
  | .rcv _ => 8
  | .alpha _ => 8
  | .ock _ => 2
  | _ => 1

/-- The values in the order in which they are drawn, for `n` actions, `s` requested spends and `o` requested outputs.
`sealed i` says that action `i` has no outgoing viewing key. -/
def drawOrder (n s o : ℕ) (sealed : ℕ → Bool) : List Label :=
  (List.range (n - s)).flatMap (fun j => [.spendKey j, .spendRho j, .spendSeed j, .spendPath j]) ++
  (List.range (n - o)).map .outputKey ++
  (List.range' 1 (n - 1)).reverse.map .spendChoice ++
  (List.range' 1 (n - 1)).reverse.map .outputChoice ++
  (List.range n).map .rcv ++
  (List.range n).flatMap (fun i => [.alpha i, .seed i] ++ if sealed i then [.ock i] else [])

/-- `j` is the number below `r` that an accepted draw `v` of `w` bits stands for: `v * r = j * 2^w + low` with `low` below
`r * 2^t`, where `r * 2^t` has exactly `w` bits. -/
def Ranged (w r v j : ℕ) : Prop :=
  ∃ t, 2 ^ (w - 1) ≤ r * 2 ^ t ∧ r * 2 ^ t < 2 ^ w ∧ j * 2 ^ w ≤ v * r ∧ v * r < j * 2 ^ w + r * 2 ^ t

/-- The choice of a number below `r`: with 4 bytes if `r` has at most 32 bits, with 8 bytes otherwise. -/
def Chosen (G : Generator) (p r j : ℕ) : Prop :=
  if r < 2 ^ 32 then Ranged 32 r (G.bytes p 4).toNat j else Ranged 64 r (G.bytes p 8).toNat j

/-- The value called `s` is the one made from the calls `p`, `p + 1`, … of the generator. -/
def Reads (G : Generator) (rng : BuildDraws) (p : ℕ) : Label → Prop
  | .spendKey j => (rng.spendDummy j).skDraws = [G.bytes p 32]
  | .spendRho j => ∃ y h, (rng.spendDummy j).rhoPoint = Point.ofXY (wide G p : Fp) y h ∧
      y.val % 2 = (G.bytes (p + 8) 4).toNat % 2
  | .spendSeed j => (rng.spendDummy j).seedDraws = [G.bytes p 32]
  | .spendPath j => (rng.spendDummy j).path.position.toNat = (G.bytes p 4).toNat ∧
      (rng.spendDummy j).path.authPath = (List.range 32).map fun l => (wide G (p + 1 + 8 * l) : Fp)
  | .outputKey j => rng.outputDummy j = [G.bytes p 32]
  | .spendChoice i => Chosen G p (i + 1) (rng.spendShuffle i)
  | .outputChoice i => Chosen G p (i + 1) (rng.outputShuffle i)
  | .rcv i => rng.rcv i = (wide G p : Fq)
  | .alpha i => (rng.action i).alpha = (wide G p : Fq)
  | .seed i => (rng.action i).seedDraws = [G.bytes p 32]
  | .ock i => (rng.action i).rndOck = G.bytes p 32 ∧ (rng.action i).rndOp = G.bytes (p + 1) 64

end Orchard.Spec
