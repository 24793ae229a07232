import Verif.Model.Spec

/-!
# Constant-length arrays from closures

`constants/util.rs`.  The closure may have effects: it is a function into any monad.
-/

namespace Orchard

/-- `constants/util.rs:9-18` `gen_const_array_with_default`: an array of default values, in which one position after
another is overwritten with what the closure returns. -/
def genConstArrayWithDefault {m : Type → Type} [Monad m] {A : Type} (len : ℕ) (default : A) (closure : ℕ → m A) :
    m (List A) :=
  (List.range len).foldlM (fun ret i => do
    let val ← closure i
    pure (ret.set i val)) (List.replicate len default)

/-- `constants/util.rs:3-7` `gen_const_array`. -/
def genConstArray {m : Type → Type} [Monad m] {A : Type} [Inhabited A] (len : ℕ) (closure : ℕ → m A) : m (List A) :=
  genConstArrayWithDefault len default closure

end Orchard
