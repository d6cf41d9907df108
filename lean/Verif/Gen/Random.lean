import Verif.Gen.Rt
import Verif.Gen.Scalar
/-!
# Mechanical translation of Scalar::random

Generated by tools/rust2lean.py; do not edit. Each definition is the translation of the cited Rust
function; see tools/rust2lean.py for the rules and `Verif.Gen.Rt` for the operations.
-/

set_option linter.all false

namespace Ed448.Gen
open Ed448.Model FieldBackend


/-- Translation of `random`. /repo/src/field/scalar.rs:338-342 -/
def Scalar.random {σ : Type} (fill_bytes : σ → ℕ → List ℕ × σ) (rng : σ) : Option ((List ℕ) × σ) :=
  let scalar_bytes : List ℕ := (List.replicate 114 (0 : ℕ))
  let τ1 := fill_bytes rng scalar_bytes.length
  let scalar_bytes := τ1.1
  let rng := τ1.2
  (Scalar.from_bytes_mod_order_wide scalar_bytes).bind fun τ2 =>
  some (τ2, rng)

end Ed448.Gen
