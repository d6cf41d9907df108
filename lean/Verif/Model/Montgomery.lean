import Verif.Model.Field
import Verif.Model.Scalar

/-!
# Model: `/repo/src/curve/montgomery/montgomery.rs`

`MontgomeryPoint` is a newtype around `[u8; 56]`, modelled as `Bytes 56`; `==` on it compares bytes
(lines 53-63).
-/

namespace Ed448.Model
open FieldBackend
variable {F L : Type} [FieldBackend F L]

/-- `ProjectiveMontgomeryPoint`. /repo/src/curve/montgomery/montgomery.rs:66-70 -/
structure ProjMont (F : Type) where
  U : F
  W : F

/-- `LOW_A`, `LOW_B`, `LOW_C` as byte lists. /repo/src/curve/montgomery/montgomery.rs:24-41 -/
def LOW_A : List ℕ := List.replicate 56 0
/-- See `LOW_A`. -/
def LOW_B : List ℕ := 1 :: List.replicate 55 0
/-- See `LOW_A`. -/
def LOW_C : List ℕ :=
  0xfe :: List.replicate 27 0xff ++ 0xfe :: List.replicate 27 0xff

/-- `is_low_order`. /repo/src/curve/montgomery/montgomery.rs:114-116 -/
def isLowOrder (u : Bytes 56) : Bool := u.l == LOW_A || u.l == LOW_B || u.l == LOW_C

/-- `generator`: `u = 5`. /repo/src/curve/montgomery/montgomery.rs:123-130 -/
def montGenerator : Bytes 56 where
  l := 5 :: List.replicate 55 0
  len := by simp
  lt := by intro x hx; simp at hx; omega

/-- `conditional_select`. /repo/src/curve/montgomery/montgomery.rs:140-151 -/
def ProjMont.select (a b : ProjMont F) (c : Bool) : ProjMont F :=
  ⟨FieldBackend.select a.U b.U c, FieldBackend.select a.W b.W c⟩

/-- `identity`. /repo/src/curve/montgomery/montgomery.rs:192-197 -/
def ProjMont.identity : ProjMont F := ⟨one, zero⟩

/-- `to_projective`. /repo/src/curve/montgomery/montgomery.rs:132-137 -/
def montToProjective (u : Bytes 56) : ProjMont F := ⟨fromBytes u, one⟩

/-- `to_affine`. /repo/src/curve/montgomery/montgomery.rs:199-202 -/
def ProjMont.toAffine (self : ProjMont F) : Bytes 56 := toBytes (self.U *ᶠ invert self.W)

/-- `differential_add_and_double`, returning the updated `(P, Q)`.
/repo/src/curve/montgomery/montgomery.rs:153-189 -/
def diffAddDouble (P Q : ProjMont F) (affinePmQ : F) : ProjMont F × ProjMont F :=
  let t0 := P.U +ᶠ P.W
  let t1 := P.U -ᶠ P.W
  let t2 := Q.U +ᶠ Q.W
  let t3 := Q.U -ᶠ Q.W
  let t4 := square t0
  let t5 := square t1
  let t6 := t4 -ᶠ t5
  let t7 := t0 *ᶠ t3
  let t8 := t1 *ᶠ t2
  let t9 := t7 +ᶠ t8
  let t10 := t7 -ᶠ t8
  let t11 := square t9
  let t12 := square t10
  let t13 := A_PLUS_TWO_OVER_FOUR *ᶠ t6
  let t14 := t4 *ᶠ t5
  let t15 := t13 +ᶠ t5
  let t16 := t6 *ᶠ t15
  let t17 := affinePmQ *ᶠ t12
  let t18 := t11
  (⟨t14, t16⟩, ⟨t18, t17⟩)

/-- One ladder iteration on `(x0, x1, swap)`. `conditional_swap(a, b, c)` is subtle's default:
`t = a; a = select(a, b, c); b = select(b, t, c)`.
/repo/src/curve/montgomery/montgomery.rs:86-92 -/
def ladderStep (affineU : F) (st : ProjMont F × ProjMont F × Bool) (bit : Bool) :
    ProjMont F × ProjMont F × Bool :=
  let choice := xor st.2.2 bit
  let x0 := ProjMont.select st.1 st.2.1 choice
  let x1 := ProjMont.select st.2.1 st.1 choice
  let r := diffAddDouble x0 x1 affineU
  (r.1, r.2, bit)

/-- `MontgomeryPoint * Scalar`: 448 ladder steps from the top bit, result `x0`; there is no swap
after the loop. /repo/src/curve/montgomery/montgomery.rs:72-97 -/
def montMulScalar (F : Type) {L : Type} [FieldBackend F L] (u : Bytes 56) (scalar : Scalar) :
    Bytes 56 :=
  let affineU : F := fromBytes u
  (scalar.bits.reverse.foldl (ladderStep affineU)
    (ProjMont.identity, ⟨affineU, one⟩, false)).1.toAffine

/-- `to_edwards` is `todo!()`: it panics. /repo/src/curve/montgomery/montgomery.rs:107-111 -/
def montToEdwards (_u : Bytes 56) (_sign : ℕ) : Option (Option Unit) := none

end Ed448.Model
