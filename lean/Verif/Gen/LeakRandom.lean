import Verif.Gen.Leak
import Verif.Gen.Random
import Verif.Gen.LeakScalar
/-!
# Mechanical translation of Scalar::random with leakage

Generated by tools/rust2lean.py; do not edit. Each definition is the translation of the cited Rust
function in the monad `Lk`, which records the leakage; see `Verif.Gen.Leak`. A function that has no
branch, no loop and no computed address, and calls only such functions, is called without leakage.
-/

set_option linter.all false

namespace Ed448.Leak
open Ed448.Model FieldBackend


/-- Translation of `random` with its leakage. /repo/src/field/scalar.rs:338-342 -/
def Scalar.random {σ : Type} (fill_bytes : σ → ℕ → List ℕ × σ) (rng : σ) : Lk ((List ℕ) × σ) :=
  let scalar_bytes : List ℕ := (List.replicate 114 (0 : ℕ))
  let τ1 := fill_bytes rng scalar_bytes.length
  let scalar_bytes := τ1.1
  let rng := τ1.2
  (Scalar.from_bytes_mod_order_wide scalar_bytes).bind fun τ2 =>
  Lk.ret (τ2, rng)

end Ed448.Leak
