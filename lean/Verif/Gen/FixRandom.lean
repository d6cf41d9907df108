import Verif.Gen.FixLeak
import Verif.Gen.FixRel
import Verif.Gen.LeakRandom
import Verif.Gen.RelRandom
/-!
# Mechanical translation of Scalar::random of the repaired source

Generated by tools/gen_fix.py; do not edit. These are the translations of the functions
of /repo/src after the patches in repairs/ that differ from those of the source as it is, and of those
that use them. All other names are those of `Ed448.Gen`. The lines cited are those of the
patched files.
-/

set_option linter.all false

namespace Ed448.Gen.Fix
open Ed448.Model FieldBackend

/-- Translation of `random`. Uses a patched function. Patched src/field/scalar.rs:341-345 -/
def Scalar.random {σ : Type} (fill_bytes : σ → ℕ → List ℕ × σ) (rng : σ) : Option ((List ℕ) × σ) :=
  let scalar_bytes : List ℕ := (List.replicate 114 (0 : ℕ))
  let τ1 := fill_bytes rng scalar_bytes.length
  let scalar_bytes := τ1.1
  let rng := τ1.2
  (Scalar.from_bytes_mod_order_wide scalar_bytes).bind fun τ2 =>
  some (τ2, rng)

end Ed448.Gen.Fix

namespace Ed448.Leak.Fix
open Ed448.Model FieldBackend

/-- Translation of `random` with its leakage. Uses a patched function. Patched src/field/scalar.rs:341-345 -/
def Scalar.random {σ : Type} (fill_bytes : σ → ℕ → List ℕ × σ) (rng : σ) : Lk ((List ℕ) × σ) :=
  let scalar_bytes : List ℕ := (List.replicate 114 (0 : ℕ))
  let τ1 := fill_bytes rng scalar_bytes.length
  let scalar_bytes := τ1.1
  let rng := τ1.2
  (Scalar.from_bytes_mod_order_wide scalar_bytes).bind fun τ2 =>
  Lk.ret (τ2, rng)

end Ed448.Leak.Fix

namespace Ed448.Rel.Fix
open Ed448.Model FieldBackend

/-- Translation of `random` in a release build. Uses a patched function. Patched src/field/scalar.rs:341-345 -/
def Scalar.random {σ : Type} (fill_bytes : σ → ℕ → List ℕ × σ) (rng : σ) : Option ((List ℕ) × σ) :=
  let scalar_bytes : List ℕ := (List.replicate 114 (0 : ℕ))
  let τ1 := fill_bytes rng scalar_bytes.length
  let scalar_bytes := τ1.1
  let rng := τ1.2
  (Scalar.from_bytes_mod_order_wide scalar_bytes).bind fun τ2 =>
  some (τ2, rng)

end Ed448.Rel.Fix
