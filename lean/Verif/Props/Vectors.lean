import Verif.Props.Backends
import Verif.Props.Protocols
import Verif.Proofs.Fast
import Verif.Model.U32

/-!
# Known answers (C57)

Every unit test of the repository that runs the modelled code, and published test vectors, hold for
the model on every lawful backend. The programs below follow the tests line by line; a result is
computed by the kernel on `Fast` and carried to the other backends by `C47`.
-/

namespace Ed448.Props
open Ed448.Model

-- otherwise `decide` would enumerate all byte strings
attribute [-instance] instFintypeBytes

set_option maxRecDepth 20000
set_option exponentiation.threshold 2000

/-- The bytes spelled by a hexadecimal numeral, in the order written. -/
def hexBytes (n v : ℕ) : Bytes n where
  l := (List.range n).map fun i => v / 256 ^ (n - 1 - i) % 256
  len := by simp
  lt := by
    intro x hx
    obtain ⟨i, -, rfl⟩ := List.mem_map.mp hx
    exact Nat.mod_lt _ (by norm_num)

/-- `hex!(..)` followed by `reverse()`. -/
def hexRev (n v : ℕ) : Bytes n := Arr.ofVal n 256 (by norm_num) v

example : (hexBytes 3 0x0a0b0c).l = [10, 11, 12] ∧ (hexRev 3 0x0a0b0c).l = [12, 11, 10] := by
  decide

/-- A scalar from its limbs. -/
def limbs (l : List ℕ) (h : l.length = 14 := by decide)
    (h' : ∀ x ∈ l, x < 2 ^ 32 := by decide) : Scalar := ⟨l, h, h'⟩

/-- `Scalar::from`. -/
def sc (n : ℕ) (h : n < 2 ^ 32 := by norm_num) : Scalar := Scalar.ofU32 n h

/-- An answer computed on the fast backend holds on every lawful backend. -/
theorem known {F L : Type} [FieldBackend F L] [Lawful F] {α : Type} (e : Prog (.host α))
    {r : Option α} (h : e.eval Fast = r) : e.eval F = r :=
  (C47_programs (F := F) (F' := Fast) e e).1.trans h

/-! ## Tests of /repo/src/field/scalar.rs:436-615 -/

/-- The scalar tests. -/
theorem C57_scalar_tests :
    (sc 5).add (sc 6) = some (sc 11) ∧
    (sc 10).sub (sc 5) = some (sc 5) ∧
    (sc 10).mul (sc 5) = some (sc 50) ∧
    (limbs [0xffb823a3, 0xc96a3c35, 0x7f8ed27d, 0x087b8fb9, 0x1d9ac30a, 0x74d65764, 0xc0be082e,
      0xa8cb0ae8, 0xa8fa552b, 0x2aae8688, 0x2c3dc273, 0x47cf8cac, 0x3b089f07, 0x1e63e807]).mul
      (limbs [0xd8bedc42, 0x686eb329, 0xe416b899, 0x17aa6d9b, 0x1e30b38b, 0x188c6b1a, 0xd099595b,
        0xbc343bcb, 0x1adaa0e7, 0x24e8d499, 0x8e59b308, 0x0a92de2d, 0xcae1cb68, 0x16c5450a]) =
      some (limbs [0xa18d010a, 0x1f5b3197, 0x994c9c2b, 0x6abd26f5, 0x08a3a0e4, 0x36a14920,
        0x74e9335f, 0x07bcd931, 0xf2d89c1e, 0xb9036ff6, 0x203d424b, 0xfccd61b3, 0x4ca389ed,
        0x31e055c1]) ∧
    (limbs [0xcf5fac3d, 0x7e56a34b, 0xf640922b, 0x3fa50692, 0x1370f8b8, 0x6f08f331, 0x8dccc486,
      0x4bb395e0, 0xf22c6951, 0x21cc3078, 0xd2391f9d, 0x930392e5, 0x04b3273b, 0x31620816]).square =
      some (limbs [0x15598f62, 0xb9b1ed71, 0x52fcd042, 0x862a9f10, 0x1e8a309f, 0x9988f8e0,
        0xa22347d7, 0xe9ab2c22, 0x38363f74, 0xfd7c58aa, 0xc49a1433, 0xd9a6c4c3, 0x75d3395e,
        0x0d79f6e3]) ∧
    (sc 8).halve = some (sc 4) ∧ (sc 4).halve = some (sc 2) ∧
    (sc 2).halve = some Scalar.one ∧
    (sc 5).eq (sc 5) = true ∧ (sc 5).eq (sc 10) = false ∧
    Scalar.fromBytes (limbs [0x15598f62, 0xb9b1ed71, 0x52fcd042, 0x862a9f10, 0x1e8a309f,
      0x9988f8e0, 0xa22347d7, 0xe9ab2c22, 0x38363f74, 0xfd7c58aa, 0xc49a1433, 0xd9a6c4c3,
      0x75d3395e, 0x0d79f6e3]).toBytes = limbs [0x15598f62, 0xb9b1ed71, 0x52fcd042, 0x862a9f10,
      0x1e8a309f, 0x9988f8e0, 0xa22347d7, 0xe9ab2c22, 0x38363f74, 0xfd7c58aa, 0xc49a1433,
      0xd9a6c4c3, 0x75d3395e, 0x0d79f6e3] := by
  decide +kernel

/-- `test_basic_inversion`, from the theorem for all scalars. -/
theorem C57_scalar_inversion_test :
    (∀ i, (h : 1 ≤ i ∧ i ≤ 100) →
      ((Scalar.ofU32 i (by omega)).invert.bind fun x => x.mul (Scalar.ofU32 i (by omega))) =
        some Scalar.one) ∧
    Scalar.zero.invert = some Scalar.zero := by
  constructor
  · intro i h
    obtain ⟨r, h1, -, h2, -⟩ := C04_scalar_invert (Scalar.ofU32 i (by omega))
    have hv : (Scalar.ofU32 i (by omega)).val = i := by
      simp [Scalar.ofU32, Arr.val, Nat.ofDigits]
    obtain ⟨m, g1, rfl⟩ := h2 (by
      rw [hv]
      intro hd
      have := Nat.le_of_dvd (by omega) hd
      have : 100 < ell := by rw [ell_lit]; norm_num
      omega)
    rw [h1, Option.bind_some]
    obtain ⟨m', f1, f2, -⟩ := C03_scalar_mul r (Scalar.ofU32 i (by omega))
    obtain ⟨m'', e1, e2, -⟩ := C03_scalar_mul (Scalar.ofU32 i (by omega)) r
    rw [f1]
    rw [g1] at e1
    cases e1
    exact congrArg some (Arr.val_inj (by norm_num) (by rw [f2, e2, Nat.mul_comm]))
  · obtain ⟨r, h1, -, -, h2⟩ := C04_scalar_invert Scalar.zero
    rw [h1, h2 (by decide +kernel)]

/-- `test_from_canonical_bytes`, `test_from_bytes_mod_order_wide`, `test_to_bytes_rfc8032`. -/
theorem C57_scalar_bytes_tests :
    Scalar.fromCanonicalBytes (hexRev 57 (2 ^ 456 - 1)) = some none ∧
    Scalar.fromCanonicalBytes (hexRev 57 0x003fffffffffffffffffffffffffffffffffffffffffffffffffffffff7cca23e9c44edb49aed63690216cc2728dc58f552378c292ab5844f3) = some none ∧
    Scalar.fromCanonicalBytes (hexRev 57 0x003fffffffffffffffffffffffffffffffffffffffffffffffffffffff7cca23e9c44edb49aed63690216cc2728dc58f552378c292ab5844f2) = some (Scalar.zero.sub Scalar.one) ∧
    Scalar.fromBytesModOrderWide (hexRev 114 0x3fffffffffffffffffffffffffffffffffffffffffffffffffffffff7cca23e9c44edb49aed63690216cc2728dc58f552378c292ab5844f3) = some Scalar.zero ∧
    Scalar.fromBytesModOrderWide (hexRev 114 0x3fffffffffffffffffffffffffffffffffffffffffffffffffffffff7cca23e9c44edb49aed63690216cc2728dc58f552378c292ab5844f2) = Scalar.zero.sub Scalar.one ∧
    Scalar.fromBytesModOrderWide (hexRev 114 0x3fffffffffffffffffffffffffffffffffffffffffffffffffffffff7cca23e9c44edb49aed63690216cc2728dc58f552378c292ab5844f4) = some Scalar.one ∧
    some (Scalar.fromBytesModOrderWide (hexRev 114 (2 ^ 912 - 1))) = Scalar.fromCanonicalBytes (hexRev 57 0x002939f823b7292052bcb7e4d070af1a9cc14ba3c47c44ae17cf72c985bb24b6c520e319fb37a63e29800f160787ad1d2e11883fa931e7de81) ∧
    (Scalar.zero.sub Scalar.one).map Scalar.toBytesRfc8032 = some (hexRev 57 0x003fffffffffffffffffffffffffffffffffffffffffffffffffffffff7cca23e9c44edb49aed63690216cc2728dc58f552378c292ab5844f2) := by
  decide +kernel

/-! ## Curve tests -/

section curve
variable {F L : Type} [FieldBackend F L] [Lawful F]

/-- `hex_to_field`. -/
def hexField (v : ℕ) : Prog .fe := .op0 (.feFromBytes (hexRev 56 v))

/-- The point of the paper, (new_x, new_y) in the tests. -/
def newPoint : Prog .edAff :=
  .op2 .edAffMk
    (hexField 0xaaaaaaaaaaaaaaaaaaaaaaaaaaaaaaaaaaaaaaaaaaaaaaaaaaaaaaa955555555555555555555555555555555555555555555555555555555)
    (hexField 0xae05e9634ad7048db359d6205086c2b0036ed7a035884dd7b7e36d728ad8c4b80d6565833a2a3098bbbcb2bed1cda06bdaeafbcdea9386ed)

/-- `gen` in the tests. -/
def newGen : Prog .ed := .op1 .edAffToExtended newPoint

/-- The old base point. -/
def oldGen : Prog .ed :=
  .op1 .edAffToExtended (.op2 .edAffMk
    (hexField 0x4F1970C66BED0DED221D15A622BF36DA9E146570470F1767EA6DE324A3D3A46412AE1AF72AB66511433B80E18B00938E2626A82BC70CC05E)
    (hexField 0x693F46716EB6BC248876203756C9C7624BEA73736CA3984087789C1E05A0C2D73AD3FF1CE67C39C4FDBD132C4ED7C8AD9808795BF230FA14))

/-- `gen.compress().decompress().unwrap()`. -/
def recode (P : Prog .ed) : Prog .ed := .bind (.op1 .edCompress P) fun b => .op0 (.edDecompress b)

/-- An encoding in the tests of decompression. -/
def enc1 : Bytes 57 := hexBytes 57 0x649c6a53b109897d962d033f23d01fd4e1053dddf3746d2ddce9bd66aea38ccfc3df061df03ca399eb806312ab3037c0c31523142956ada780

/-- The encoding of the neutral element. -/
def enc2 : Bytes 57 := hexBytes 57 0x010000000000000000000000000000000000000000000000000000000000000000000000000000000000000000000000000000000000000000

/-- An encoding of a point with torsion. -/
def enc3 : Bytes 57 := hexBytes 57 0x13b6714c7a5f53101bbec88f2f17cd30f42e37fae363a5474efb4197ed6005df5861ae178a0c2c16ad378b7befed0d0904b7ced35e9f674180

/-- Tests of /repo/src/curve/edwards/extended.rs:428-516, in order. -/
theorem C57_edwards_tests :
    (Prog.op2 .edEq (.op1 .twToUntwisted (.op1 .edToTwisted newGen))
      (.op1 .edDouble (.op1 .edDouble newGen))).eval F = some true ∧
    (Prog.op2 .edEq (.op1 .edDouble oldGen) newGen).eval F = some true ∧
    (Prog.op2 .edEq (.op0 .edGenerator) oldGen).eval F = some true ∧
    (Prog.op2 .twEq (.op1 .edToTwisted oldGen) (.op0 .twGenerator)).eval F = some true ∧
    (Prog.op1 .edIsOnCurve newGen).eval F = some true ∧
    (Prog.op2 .edEq newGen (recode newGen)).eval F = some true ∧
    (Prog.op1 .edCompress (.op0 (.edDecompress enc1))).eval F = some enc1 ∧
    (Prog.op2 .feEq (.op1 .edX (.op0 (.edDecompress enc1))) (hexField 0x39c41cea305d737df00de8223a0d5f4d48c8e098e16e9b4b2f38ac353262e119cb5ff2afd6d02464702d9d01c9921243fc572f9c718e2527)).eval F = some true ∧
    (Prog.op2 .feEq (.op1 .edY (.op0 (.edDecompress enc1))) (hexField 0xa7ad5629142315c3c03730ab126380eb99a33cf01d06dfc3cf8ca3ae66bde9dc2d6d74f3dd3d05e1d41fd0233f032d967d8909b1536a9c64)).eval F = some true ∧
    (Prog.op2 .feEq (.op1 .edX (.op0 (.edDecompress enc2))) (hexField 0)).eval F = some true ∧
    (Prog.op2 .feEq (.op1 .edY (.op0 (.edDecompress enc2))) (hexField 1)).eval F = some true ∧
    (Prog.op1 .edIsTorsionFree (.op0 .edGenerator)).eval F = some true ∧
    (Prog.op1 .edIsTorsionFree (.op0 .edIdentity)).eval F = some true ∧
    (Prog.op1 .edIsTorsionFree (.op0 (.edDecompress enc3))).eval F = some false := by
  refine ⟨known _ ?_, known _ ?_, known _ ?_, known _ ?_, known _ ?_, known _ ?_, known _ ?_,
    known _ ?_, known _ ?_, known _ ?_, known _ ?_, known _ ?_, known _ ?_, known _ ?_⟩ <;>
  decide +kernel

/-- `TWISTED_EDWARDS_BASE_POINT`. -/
def tw : Prog .tw := .op0 .twGenerator
/-- Its double. -/
def tw2 : Prog .tw := .op1 .twDouble tw
/-- `a.to_extensible().add_extended(&b)`. -/
def extAdd (a b : Prog .tw) : Prog .ext := .op2 .extAddExtended (.op1 .twToExtensible a) b
/-- `a.to_extensible().add_extended(&b).to_extended()`. -/
def twPlus (a b : Prog .tw) : Prog .tw := .op1 .extToExtended (extAdd a b)
/-- The point of `test_isogeny` in twedwards/extended.rs; it is not on the twisted curve. -/
def offCurve : Prog .tw :=
  .op1 .tAffToExtended (.op2 .tAffMk
    (hexField 0xaaaaaaaaaaaaaaaaaaaaaaaaaaaaaaaaaaaaaaaaaaaaaaaaaaaaaaa955555555555555555555555555555555555555555555555555555555)
    (hexField 0xae05e9634ad7048db359d6205086c2b0036ed7a035884dd7b7e36d728ad8c4b80d6565833a2a3098bbbcb2bed1cda06bdaeafbcdea9386ed))

example : (Prog.op1 .twIsOnCurve offCurve).eval Fast = some false := by decide +kernel

/-- `a.negate().add(&a)` of `test_negation`. -/
def affSum : Prog .tAff := .op2 .tAffAdd (.op1 .tAffNegate (.op1 .twToAffine tw)) (.op1 .twToAffine tw)

/-- The scalar of `test_scalar_mul`. -/
def testScalar : Scalar := limbs [0x6ee372b7, 0xe128ae78, 0x1533427c, 0xad0b7015, 0x307f665e,
  0xde8026c1, 0xb64629d1, 0xab454c66, 0x3fe5bf1a, 0x083f8304, 0x3c003777, 0xdef437f6, 0xee2e1b73,
  0x05ca185a]

/-- Tests of /repo/src/curve/twedwards (extended.rs:184-242, projective.rs:67-75, affine.rs:136-144)
and /repo/src/curve/scalar_mul/variable_base.rs:44-76. -/
theorem C57_twisted_tests :
    (Prog.op1 .twIsOnCurve tw).eval F = some true ∧
    (Prog.op1 .twIsOnCurve (.op1 .edAsTw (.op0 .edGenerator))).eval F = some false ∧
    (Prog.op2 .twEq (.op1 .edToTwisted (.op1 .twToUntwisted offCurve))
      (.op1 .twDouble (.op1 .twDouble offCurve))).eval F = some true ∧
    (Prog.op2 .twEq (twPlus tw tw2) (twPlus tw2 tw)).eval F = some true ∧
    (Prog.op2 .twEq (twPlus (twPlus tw tw2) (.op0 .twIdentity)) (twPlus tw tw2)).eval F =
      some true ∧
    (Prog.op2 .twEq (.op1 .extToExtended (.op2 .extSubExtended (.op1 .twToExtensible tw) tw2))
      (twPlus (.op1 .twNegate tw2) tw)).eval F = some true ∧
    (Prog.op2 .extEq (extAdd tw (.op1 .twNegate tw)) (.op0 .extIdentity)).eval F = some true ∧
    (Prog.op2 .twEq (.op0 .twIdentity) (.op2 .twAdd (.op1 .pnToExtended (.op1 (.pnCondNegate true)
      (.op1 .extToProjectiveNiels (.op1 .twToExtensible tw)))) tw)).eval F = some true ∧
    (Prog.op1 .tAffIsOnCurve (.op1 .twToAffine tw)).eval F = some true ∧
    (Prog.op2 .feEq (.op1 .tAffX affSum) (.op1 .tAffX (.op0 .tAffIdentity))).eval F = some true ∧
    (Prog.op2 .feEq (.op1 .tAffY affSum) (.op1 .tAffY (.op0 .tAffIdentity))).eval F = some true ∧
    (Prog.op2 .twEq (.op1 (.variableBase testScalar) tw)
      (.op1 (.doubleAndAdd testScalar) tw)).eval F = some true ∧
    (Prog.op2 .edEq (.op1 (.edScalarMul testScalar) (.op1 .twToUntwisted tw))
      (.op1 .twToUntwisted (.op1 (.variableBase testScalar) tw))).eval F = some true ∧
    (Prog.op2 .twEq tw (.op1 (.variableBase (sc 1)) tw)).eval F = some true ∧
    (Prog.op2 .twEq (.op1 .extToExtended (.op1 .extDouble (.op2 .extAddExtensible
      (.op1 .twToExtensible tw) (.op1 .twToExtensible tw)))) (.op1 (.variableBase (sc 4)) tw)).eval F =
      some true := by
  refine ⟨known _ ?_, known _ ?_, known _ ?_, known _ ?_, known _ ?_, known _ ?_, known _ ?_,
    known _ ?_, known _ ?_, known _ ?_, known _ ?_, known _ ?_, known _ ?_,
    known _ ?_, known _ ?_⟩ <;>
  decide +kernel

/-- `i` times the base point by repeated addition. -/
def twTimes : ℕ → Prog .tw
  | 0 => .op0 .twIdentity
  | i + 1 => twPlus (twTimes i) tw

/-- `test_lookup`. /repo/src/curve/scalar_mul/window/wnaf/mod.rs:40-53 -/
theorem C57_lookup_test : ∀ i < 8,
    (Prog.op2 .twEq (.op1 .pnToExtended (.op1 (.twLookup i) tw)) (twTimes i)).eval F =
      some true := by
  have : ∀ i < 8, (Prog.op2 .twEq (.op1 .pnToExtended (.op1 (.twLookup i) tw)) (twTimes i)).eval
      Fast = some true := by decide +kernel
  exact fun i hi => known _ (this i hi)

/-- `test_montgomery_edwards`. /repo/src/curve/montgomery/montgomery.rs:211-222 -/
theorem C57_montgomery_test :
    (Prog.bind (.op1 .edToMontgomery (.op0 .edGenerator)) fun u =>
      .op0 (.montMul u (sc 200))).eval F =
    (Prog.op1 .edToMontgomery (.op1 (.edScalarMul (sc 200)) (.op0 .edGenerator))).eval F ∧
    (Prog.op1 .edToMontgomery (.op1 (.edScalarMul (sc 200)) (.op0 .edGenerator))).eval F ≠ none := by
  rw [known (F := F) _ rfl, known (F := F) (.op1 .edToMontgomery _) rfl]
  decide +kernel

/-! ## Tests of /repo/src/decaf/decaf.rs:132-269 -/

/-- The multiples of the base point in `test_vectors_lib_decaf`. -/
def libdecaf : List (Bytes 56) := [
  hexBytes 56 0x0000000000000000000000000000000000000000000000000000000000000000000000000000000000000000000000000000000000000000,
  hexBytes 56 0x6666666666666666666666666666666666666666666666666666666633333333333333333333333333333333333333333333333333333333,
  hexBytes 56 0xc898eb4f87f97c564c6fd61fc7e49689314a1f818ec85eeb3bd5514ac816d38778f69ef347a89fca817e66defdedce178c7cc709b2116e75,
  hexBytes 56 0xa0c09bf2ba7208fda0f4bfe3d0f5b29a543012306d43831b5adc6fe7f8596fa308763db15468323b11cf6e4aeb8c18fe44678f44545a69bc,
  hexBytes 56 0xb46f1836aa287c0a5a5653f0ec5ef9e903f436e21c1570c29ad9e5f596da97eeaf17150ae30bcb3174d04bc2d712c8c7789d7cb4fda138f4,
  hexBytes 56 0x1c5bbecf4741dfaae79db72dface00eaaac502c2060934b6eaaeca6a20bd3da9e0be8777f7d02033d1b15884232281a41fc7f80eed04af5e,
  hexBytes 56 0x86ff0182d40f7f9edb7862515821bd67bfd6165a3c44de95d7df79b8779ccf6460e3c68b70c16aaa280f2d7b3f22d745b97a89906cfc476c,
  hexBytes 56 0x502bcb6842eb06f0e49032bae87c554c031d6d4d2d7694efbf9c468d48220c50f8ca28843364d70cee92d6fe246e61448f9db9808b3b2408,
  hexBytes 56 0x0c9810f1e2ebd389caa789374d78007974ef4d17227316f40e578b336827da3f6b482a4794eb6a3975b971b5e1388f52e91ea2f1bcb0f912,
  hexBytes 56 0x20d41d85a18d5657a29640321563bbd04c2ffbd0a37a7ba43a4f7d263ce26faf4e1f74f9f4b590c69229ae571fe37fa639b5b8eb48bd9a55,
  hexBytes 56 0xe6b4b8f408c7010d0601e7eda0c309a1a42720d6d06b5759fdc4e1efe22d076d6c44d42f508d67be462914d28b8edce32e7094305164af17,
  hexBytes 56 0xbe88bbb86c59c13d8e9d09ab98105f69c2d1dd134dbcd3b0863658f53159db64c0e139d180f3c89b8296d0ae324419c06fa87fc7daaf34c1,
  hexBytes 56 0xa456f9369769e8f08902124a0314c7a06537a06e32411f4f93415950a17badfa7442b6217434a3a05ef45be5f10bd7b2ef8ea00c431edec5,
  hexBytes 56 0x186e452c4466aa4383b4c00210d52e7922dbf9771e8b47e229a9b7b73c8d10fd7ef0b6e41530f91f24a3ed9ab71fa38b98b2fe4746d51d68,
  hexBytes 56 0x4ae7fdcae9453f195a8ead5cbe1a7b9699673b52c40ab27927464887be53237f7f3a21b938d40d0ec9e15b1d5130b13ffed81373a53e2b43,
  hexBytes 56 0x841981c3bfeec3f60cfeca75d9d8dc17f46cf0106f2422b59aec580a58f342272e3a5e575a055ddb051390c54c24c6ecb1e0aceb075f6056]

/-- `i` times the base point by repeated addition. -/
def decafTimes : ℕ → Prog .decaf
  | 0 => .op0 .decafIdentity
  | i + 1 => .op2 .decafAdd (decafTimes i) (.op0 .decafGenerator)

/-- `point.compress().decompress().unwrap()`. -/
def decafRecode (P : Prog .decaf) : Prog .decaf :=
  .bind (.op1 .decafCompress P) fun b => .op0 (.decafDecompress b)

/-- The Decaf tests; besides, each vector decodes to the point. -/
theorem C57_decaf_tests :
    (∀ i < 16, (Prog.op1 .decafCompress (decafTimes i)).eval F = libdecaf[i]?) ∧
    (∀ i < 16, (Prog.op2 .decafEquals (decafRecode (decafTimes i)) (decafTimes i)).eval F =
      some true) ∧
    (Prog.op1 .decafCompress (.op0 .decafIdentity)).eval F = some compressedDecafIdentity ∧
    (Prog.op2 .decafEquals (.op2 .decafAdd (decafRecode (.op1 .twToDecaf tw))
      (decafRecode (.op1 .twToDecaf tw2))) (decafRecode (.op1 .twToDecaf (twPlus tw2 tw)))).eval F =
      some true := by
  have h1 : ∀ i < 16, (Prog.op1 .decafCompress (decafTimes i)).eval Fast = libdecaf[i]? := by
    decide +kernel
  have h2 : ∀ i < 16, (Prog.op2 .decafEquals (decafRecode (decafTimes i)) (decafTimes i)).eval
      Fast = some true := by decide +kernel
  refine ⟨fun i hi => known _ (h1 i hi), fun i hi => known _ (h2 i hi), known _ ?_, known _ ?_⟩ <;>
  decide +kernel

/-! ## RFC 7748 -/


/-- The vectors of RFC 7748, sections 5.2 and 6.2: scalar, u-coordinate, result. The last four are
the Diffie-Hellman exchange. -/
def rfc7748 : List (Bytes 56 × Bytes 56 × Bytes 56) := [
  ((hexBytes 56 0x3d262fddf9ec8e88495266fea19a34d28882acef045104d0d1aae121700a779c984c24f8cdd78fbff44943eba368f54b29259a4f1c600ad3),
   (hexBytes 56 0x06fce640fa3487bfda5f6cf2d5263f8aad88334cbd07437f020f08f9814dc031ddbdc38c19c6da2583fa5429db94ada18aa7a7fb4ef8a086),
   (hexBytes 56 0xce3e4ff95a60dc6697da1db1d85e6afbdf79b50a2412d7546d5f239fe14fbaadeb445fc66a01b0779d98223961111e21766282f73dd96b6f)),
  ((hexBytes 56 0x203d494428b8399352665ddca42f9de8fef600908e0d461cb021f8c538345dd77c3e4806e25f46d3315c44e0a5b4371282dd2c8d5be3095f),
   (hexBytes 56 0x0fbcc2f993cd56d3305b0b7d9e55d4c1a8fb5dbb52f8e9a1e9b6201b165d015894e56c4d3570bee52fe205e28a78b91cdfbde71ce8d157db),
   (hexBytes 56 0x884a02576239ff7a2f2f63b2db6a9ff37047ac13568e1e30fe63c4a7ad1b3ee3a5700df34321d62077e63633c575c1c954514e99da7c179d)),
  ((hexBytes 56 0x0500000000000000000000000000000000000000000000000000000000000000000000000000000000000000000000000000000000000000),
   (hexBytes 56 0x0500000000000000000000000000000000000000000000000000000000000000000000000000000000000000000000000000000000000000),
   (hexBytes 56 0x3f482c8a9f19b01e6c46ee9711d9dc14fd4bf67af30765c2ae2b846a4d23a8cd0db897086239492caf350b51f833868b9bc2b3bca9cf4113)),
  ((hexBytes 56 0x9a8f4925d1519f5775cf46b04b5800d4ee9ee8bae8bc5565d498c28dd9c9baf574a9419744897391006382a6f127ab1d9ac2d8c0a598726b),
   (hexBytes 56 0x0500000000000000000000000000000000000000000000000000000000000000000000000000000000000000000000000000000000000000),
   (hexBytes 56 0x9b08f7cc31b7e3e67d22d5aea121074a273bd2b83de09c63faa73d2c22c5d9bbc836647241d953d40c5b12da88120d53177f80e532c41fa0)),
  ((hexBytes 56 0x1c306a7ac2a0e2e0990b294470cba339e6453772b075811d8fad0d1d6927c120bb5ee8972b0d3e21374c9c921b09d1b0366f10b65173992d),
   (hexBytes 56 0x0500000000000000000000000000000000000000000000000000000000000000000000000000000000000000000000000000000000000000),
   (hexBytes 56 0x3eb7a829b0cd20f5bcfc0b599b6feccf6da4627107bdb0d4f345b43027d8b972fc3e34fb4232a13ca706dcb57aec3dae07bdc1c67bf33609)),
  ((hexBytes 56 0x9a8f4925d1519f5775cf46b04b5800d4ee9ee8bae8bc5565d498c28dd9c9baf574a9419744897391006382a6f127ab1d9ac2d8c0a598726b),
   (hexBytes 56 0x3eb7a829b0cd20f5bcfc0b599b6feccf6da4627107bdb0d4f345b43027d8b972fc3e34fb4232a13ca706dcb57aec3dae07bdc1c67bf33609),
   (hexBytes 56 0x07fff4181ac6cc95ec1c16a94a0f74d12da232ce40a77552281d282bb60c0b56fd2464c335543936521c24403085d59a449a5037514a879d)),
  ((hexBytes 56 0x1c306a7ac2a0e2e0990b294470cba339e6453772b075811d8fad0d1d6927c120bb5ee8972b0d3e21374c9c921b09d1b0366f10b65173992d),
   (hexBytes 56 0x9b08f7cc31b7e3e67d22d5aea121074a273bd2b83de09c63faa73d2c22c5d9bbc836647241d953d40c5b12da88120d53177f80e532c41fa0),
   (hexBytes 56 0x07fff4181ac6cc95ec1c16a94a0f74d12da232ce40a77552281d282bb60c0b56fd2464c335543936521c24403085d59a449a5037514a879d))]

/-- The vectors hold. -/
theorem C57_rfc7748 : ∀ v ∈ rfc7748, (x448 v.1 v.2.1).eval F = some v.2.2 := by
  have h : ∀ v ∈ rfc7748, (x448 v.1 v.2.1).eval Fast = some v.2.2 := by decide +kernel
  exact fun v hv => known _ (h v hv)

/-! ## RFC 8032 -/


/-- The first two vectors of RFC 8032, section 7.4 ("Blank" and "1 octet"): pruned secret, nonce and
challenge digests, then public key and signature. -/
def rfc8032 : List ((Bytes 114 × Bytes 114 × Bytes 114) × Bytes 57 × Bytes 57 × Bytes 57) := [
  (((hexBytes 114 0xe83930a0cea0808ec7ed6667f472a588b411f0545ba4f3ee75025e1d38519cb905c036d81eeed17483f9f56615ceee4fa70501a71fc0bbb700000000000000000000000000000000000000000000000000000000000000000000000000000000000000000000000000000000000000000000),
    (hexBytes 114 0x543ec12780aaf32c89a8e6e68ae9bef72824e112378311a811976ee9a9d7c01025049f279d9a20fee38cfbde90e9cf4ab2c5cad2d7a7ab0d19ddc7bc7729d3fc6d77364e525804cb23a37abd905558778f7e5f98c65d2a6c34dcbe7cffedd22de455854902773f0347e2eb2ba9b79cbfd8d8),
    (hexBytes 114 0x6d0fb27a6c0e46ca6b0789469bdfc1143d07fb1d3f68c57de3acc87375b1955b97cfb23c4472756f9240a32b8569a3676cf0355afc8fa26875f3161a9ed2a6b69ce5753eb8925d71cc660b22e94282dab9b580f21b6860f5b209abe22489346de785dd0734dee55bbf712feb902947f906c4)),
   (hexBytes 57 0x5fd7449b59b461fd2ce787ec616ad46a1da1342485a70e1f8a0ea75d80e96778edf124769b46c7061bd6783df1e50f6cd1fa1abeafe8256180),
   (hexBytes 57 0x533a37f6bbe457251f023c0d88f976ae2dfb504a843e34d2074fd823d41a591f2b233f034f628281f2fd7a22ddd47d7828c59bd0a21bfd3980),
   (hexBytes 57 0xff0d2028d4b18a9df63e006c5d1c2d345b925d8dc00b4104852db99ac5c7cdda8530a113a0f4dbb61149f05a7363268c71d95808ff2e652600)),
  (((hexBytes 114 0x88a95e9035704f23c3797c2c82bac0c61577e0764bfeec45f763dcc6aa955151afde0316048e0e01dc144bc269c3f98f3521ad8fd23afef200000000000000000000000000000000000000000000000000000000000000000000000000000000000000000000000000000000000000000000),
    (hexBytes 114 0x766e43478dd919f909ff39b15103ce7326a61d359f0aaae99c3bb41726e7af3a8bf7ceaa047928e6a43c67cd77a49d1a7f12bca83d0c03ca2687741f026fbf0d2932af9527e52ee8e0c38dd1fce03e11f21cd5731477ba3edae8fe157c2b1115078ccc583cf0c7baf9ef6b199203884b0274),
    (hexBytes 114 0xa1e2cb4e8b7dd00631d36979c28c729b5dfed35ed27ba5c351ea2ec9fbfec332e6f091cf2e1453d9c9536a2b5b96ee16bbba8b52d597b817f1d949834a77046d5e04442877d8c18ff7067ab08e9bbb57013a19555d8227967206ffd4e18ccfc753bc1fb19a07f8a2003019b3ae911634a49f)),
   (hexBytes 57 0x43ba28f430cdff456ae531545f7ecd0ac834a55d9358c0372bfa0c6c6798c0866aea01eb00742802b8438ea4cb82169c235160627b4c3a9480),
   (hexBytes 57 0x26b8f91727bd62897af15e41eb43c377efb9c610d48f2335cb0bd0087810f4352541b143c4b981b7e18f62de8ccdf633fc1bf037ab7cd77980),
   (hexBytes 57 0x5e0dbcc0aae1cbcee1afb2e027df36bc04dcecbf154336c19f0af7e0a6472905e799f1953d2a0ff3348ab21aa4adafd1d234441cf807c03a00))]

theorem rfc8032_sign : ∀ v ∈ rfc8032, (sign448 v.1.1 v.1.2.1 v.1.2.2).eval Fast = some v.2 := by
  decide +kernel

theorem rfc8032_verify :
    ∀ v ∈ rfc8032, (verify448 v.2.1 v.2.2.1 v.2.2.2 v.1.2.2).eval Fast = some true := by
  decide +kernel

/-- Signing gives the published key and signature, and the signature verifies. -/
theorem C57_rfc8032 (v) (hv : v ∈ rfc8032) :
    (sign448 v.1.1 v.1.2.1 v.1.2.2).eval F = some v.2 ∧
    (verify448 v.2.1 v.2.2.1 v.2.2.2 v.1.2.2).eval F = some true :=
  ⟨known _ (rfc8032_sign v hv), known _ (rfc8032_verify v hv)⟩

/-- A wrong challenge does not verify. -/
example : ∀ v ∈ rfc8032, (verify448 v.2.1 v.2.2.1 v.2.2.2 v.1.2.1).eval Fast = some false := by
  decide +kernel

/-- `test_negate` of /repo/src/field/fiat_u64/prime_field.rs:204-208. -/
theorem C57_negate_test :
    (Prog.op1 .feToBytes (.op1 .feNegate (.op0 .feZero))).eval F =
      some (hexBytes 56 0) := known _ (by decide +kernel)

end curve

/-! ## Tests of /repo/src/field/u32/karatsuba.rs:396-455 -/

/-- Product and bytes of the operands. -/
def u32MulBytes (x y : Option U32.Raw) : Option (Bytes 56) := do
  U32.toBytes (← U32.mul (← x) (← y))

/-- Square and bytes of the operand. -/
def u32SquareBytes (x : Option U32.Raw) : Option (Bytes 56) := do
  U32.toBytes (← U32.square (← x))

/-- A field element from its limbs. -/
def fe28 (l : List ℕ) : Option U32.Raw := Arr.ofList? 16 (2 ^ 32) l

/-- The largest operand of `test_karatsuba_square`. -/
def sqOperand : Option U32.Raw := fe28 [
  268396374, 268435455, 268435455, 268435455, 268435455, 268435455, 268435455, 268435455,
  268435454, 268435455, 268435455, 268435455, 268435455, 268435455, 268435455, 268435455]

/-- The tests of multiplication and squaring. -/
theorem C57_karatsuba_tests :
    u32MulBytes (fe28 (5 :: List.replicate 15 0)) (fe28 (210 :: List.replicate 15 0)) =
      (fe28 (1050 :: List.replicate 15 0)).bind U32.toBytes ∧
    u32MulBytes (U32.fromBytes (hexBytes 56 0xf58174d57a3372363c0d9fcfaa3dc18b1eff7e89bf7678636580d17dd84a873b14b9c0e1680bbdc87647f3c382902d2f58d2754b39bca874))
      (U32.fromBytes (hexBytes 56 0x74a8bc394b75d2582f2d9082c3f34776c8bd0b68e1c0b9143b874ad87dd18065637876bf897eff1e8bc13daacf9f0d3c3672337ad57481f5)) =
      some (hexBytes 56 0x11959c2e91786fecff37e58e2b509ef8fb4108c4a7021cbf5a9f18a7ec32657eeddc818180a84cdd9514e66726d3a122dbb39f177a85166c) ∧
    u32SquareBytes (fe28 (5 :: List.replicate 15 0)) =
      (fe28 (25 :: List.replicate 15 0)).bind U32.toBytes ∧
    u32SquareBytes sqOperand = u32MulBytes sqOperand sqOperand ∧
    u32SquareBytes sqOperand ≠ none := by
  decide +kernel

end Ed448.Props
