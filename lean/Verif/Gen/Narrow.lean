import Verif.Gen.U32

/-!
# Multiplication of field elements with narrower words

Generated by tools/gen_narrow.py; do not edit. `Gen.Narrow.karatsuba.mul` is the translation of `mul` in
src/field/u32/karatsuba.rs after replacing i128 by i64. `Gen.Wide.karatsuba.mul ck w` is the translation of the
source as it is, where the signed type has `w` bits and `ck` checks its results.
-/

set_option linter.all false

namespace Ed448.Gen.Narrow
open Ed448.Model FieldBackend

/-- Part 1 of `mul`: lines 18-44. With i64 for i128: src/field/u32/karatsuba.rs:18-44 -/
def karatsuba.mul.part1 (a : List ℕ) (b : List ℕ) : ℤ × (List ℕ) × (List ℕ) × (List ℕ) × ℤ × ℤ × ℤ :=
  let MASK : ℤ := (268435455 : ℤ)
  let c : List ℕ := FieldElement28.zero
  let aa : List ℕ := ([(Rt.waddU 32 (a.getD 0 0) (a.getD 8 0)), (Rt.waddU 32 (a.getD 1 0) (a.getD 9 0)), (Rt.waddU 32 (a.getD 2 0) (a.getD 10 0)), (Rt.waddU 32 (a.getD 3 0) (a.getD 11 0)), (Rt.waddU 32 (a.getD 4 0) (a.getD 12 0)), (Rt.waddU 32 (a.getD 5 0) (a.getD 13 0)), (Rt.waddU 32 (a.getD 6 0) (a.getD 14 0)), (Rt.waddU 32 (a.getD 7 0) (a.getD 15 0))] : List ℕ)
  let bb : List ℕ := ([(Rt.waddU 32 (b.getD 0 0) (b.getD 8 0)), (Rt.waddU 32 (b.getD 1 0) (b.getD 9 0)), (Rt.waddU 32 (b.getD 2 0) (b.getD 10 0)), (Rt.waddU 32 (b.getD 3 0) (b.getD 11 0)), (Rt.waddU 32 (b.getD 4 0) (b.getD 12 0)), (Rt.waddU 32 (b.getD 5 0) (b.getD 13 0)), (Rt.waddU 32 (b.getD 6 0) (b.getD 14 0)), (Rt.waddU 32 (b.getD 7 0) (b.getD 15 0))] : List ℕ)
  let m := fun (a : ℕ) (b : ℕ) =>
  (ckI64 ((a : ℤ) * (b : ℤ))).bind fun τ1 =>
  some τ1
  let τ2 := ((0 : ℤ), (0 : ℤ), (0 : ℤ))
  let z0 : ℤ := τ2.1
  let z1 : ℤ := τ2.2.1
  let z2 : ℤ := τ2.2.2
  (MASK, c, aa, bb, z0, z1, z2)

/-- Part 2 of `mul`: lines 47-79. With i64 for i128: src/field/u32/karatsuba.rs:47-79 -/
def karatsuba.mul.part2 (a : List ℕ) (b : List ℕ) (MASK : ℤ) (c : List ℕ) (aa : List ℕ) (bb : List ℕ) (z0 : ℤ) (z1 : ℤ) (z2 : ℤ) : Option ((List ℕ) × ℤ × ℤ × ℤ) :=
  let m := fun (a : ℕ) (b : ℕ) =>
  (ckI64 ((a : ℤ) * (b : ℤ))).bind fun τ4 =>
  some τ4
  (m (a.getD 0 0) (b.getD 0 0)).bind fun τ5 =>
  let z2 := τ5
  (m (aa.getD 0 0) (bb.getD 0 0)).bind fun τ6 =>
  (ckI64 (τ6 - z2)).bind fun τ7 =>
  let z1 := τ7
  (m (a.getD 8 0) (b.getD 8 0)).bind fun τ8 =>
  (ckI64 (τ8 + z2)).bind fun τ9 =>
  (ckI64 (z0 + τ9)).bind fun τ10 =>
  let z0 := τ10
  (m (aa.getD 7 0) (bb.getD 1 0)).bind fun τ11 =>
  (m (aa.getD 6 0) (bb.getD 2 0)).bind fun τ12 =>
  (ckI64 (τ11 + τ12)).bind fun τ13 =>
  (m (aa.getD 5 0) (bb.getD 3 0)).bind fun τ14 =>
  (ckI64 (τ13 + τ14)).bind fun τ15 =>
  (m (aa.getD 4 0) (bb.getD 4 0)).bind fun τ16 =>
  (ckI64 (τ15 + τ16)).bind fun τ17 =>
  (m (aa.getD 3 0) (bb.getD 5 0)).bind fun τ18 =>
  (ckI64 (τ17 + τ18)).bind fun τ19 =>
  (m (aa.getD 2 0) (bb.getD 6 0)).bind fun τ20 =>
  (ckI64 (τ19 + τ20)).bind fun τ21 =>
  (m (aa.getD 1 0) (bb.getD 7 0)).bind fun τ22 =>
  (ckI64 (τ21 + τ22)).bind fun τ23 =>
  let z2 := τ23
  (m (a.getD 15 0) (b.getD 9 0)).bind fun τ24 =>
  (m (a.getD 14 0) (b.getD 10 0)).bind fun τ25 =>
  (ckI64 (τ24 + τ25)).bind fun τ26 =>
  (m (a.getD 13 0) (b.getD 11 0)).bind fun τ27 =>
  (ckI64 (τ26 + τ27)).bind fun τ28 =>
  (m (a.getD 12 0) (b.getD 12 0)).bind fun τ29 =>
  (ckI64 (τ28 + τ29)).bind fun τ30 =>
  (m (a.getD 11 0) (b.getD 13 0)).bind fun τ31 =>
  (ckI64 (τ30 + τ31)).bind fun τ32 =>
  (m (a.getD 10 0) (b.getD 14 0)).bind fun τ33 =>
  (ckI64 (τ32 + τ33)).bind fun τ34 =>
  (m (a.getD 9 0) (b.getD 15 0)).bind fun τ35 =>
  (ckI64 (τ34 + τ35)).bind fun τ36 =>
  (ckI64 (τ36 + z2)).bind fun τ37 =>
  (ckI64 (z1 + τ37)).bind fun τ38 =>
  let z1 := τ38
  (m (a.getD 7 0) (b.getD 1 0)).bind fun τ39 =>
  (m (a.getD 6 0) (b.getD 2 0)).bind fun τ40 =>
  (ckI64 (τ39 + τ40)).bind fun τ41 =>
  (m (a.getD 5 0) (b.getD 3 0)).bind fun τ42 =>
  (ckI64 (τ41 + τ42)).bind fun τ43 =>
  (m (a.getD 4 0) (b.getD 4 0)).bind fun τ44 =>
  (ckI64 (τ43 + τ44)).bind fun τ45 =>
  (m (a.getD 3 0) (b.getD 5 0)).bind fun τ46 =>
  (ckI64 (τ45 + τ46)).bind fun τ47 =>
  (m (a.getD 2 0) (b.getD 6 0)).bind fun τ48 =>
  (ckI64 (τ47 + τ48)).bind fun τ49 =>
  (m (a.getD 1 0) (b.getD 7 0)).bind fun τ50 =>
  (ckI64 (τ49 + τ50)).bind fun τ51 =>
  (ckI64 (τ51 - z2)).bind fun τ52 =>
  (ckI64 (z0 - τ52)).bind fun τ53 =>
  let z0 := τ53
  let c := (c.set 0 (Rt.asU 32 (Rt.andZ 64 z0 MASK)))
  let c := (c.set 8 (Rt.asU 32 (Rt.andZ 64 z1 MASK)))
  let z0 := (sarZ z0 28)
  let z1 := (sarZ z1 28)
  some (c, z0, z1, z2)

/-- Part 3 of `mul`: lines 82-111. With i64 for i128: src/field/u32/karatsuba.rs:82-111 -/
def karatsuba.mul.part3 (a : List ℕ) (b : List ℕ) (MASK : ℤ) (c : List ℕ) (aa : List ℕ) (bb : List ℕ) (z0 : ℤ) (z1 : ℤ) (z2 : ℤ) : Option ((List ℕ) × ℤ × ℤ × ℤ) :=
  let m := fun (a : ℕ) (b : ℕ) =>
  (ckI64 ((a : ℤ) * (b : ℤ))).bind fun τ55 =>
  some τ55
  (m (a.getD 1 0) (b.getD 0 0)).bind fun τ56 =>
  (m (a.getD 0 0) (b.getD 1 0)).bind fun τ57 =>
  (ckI64 (τ56 + τ57)).bind fun τ58 =>
  let z2 := τ58
  (m (aa.getD 1 0) (bb.getD 0 0)).bind fun τ59 =>
  (m (aa.getD 0 0) (bb.getD 1 0)).bind fun τ60 =>
  (ckI64 (τ59 + τ60)).bind fun τ61 =>
  (ckI64 (τ61 - z2)).bind fun τ62 =>
  (ckI64 (z1 + τ62)).bind fun τ63 =>
  let z1 := τ63
  (m (a.getD 9 0) (b.getD 8 0)).bind fun τ64 =>
  (m (a.getD 8 0) (b.getD 9 0)).bind fun τ65 =>
  (ckI64 (τ64 + τ65)).bind fun τ66 =>
  (ckI64 (τ66 + z2)).bind fun τ67 =>
  (ckI64 (z0 + τ67)).bind fun τ68 =>
  let z0 := τ68
  (m (aa.getD 7 0) (bb.getD 2 0)).bind fun τ69 =>
  (m (aa.getD 6 0) (bb.getD 3 0)).bind fun τ70 =>
  (ckI64 (τ69 + τ70)).bind fun τ71 =>
  (m (aa.getD 5 0) (bb.getD 4 0)).bind fun τ72 =>
  (ckI64 (τ71 + τ72)).bind fun τ73 =>
  (m (aa.getD 4 0) (bb.getD 5 0)).bind fun τ74 =>
  (ckI64 (τ73 + τ74)).bind fun τ75 =>
  (m (aa.getD 3 0) (bb.getD 6 0)).bind fun τ76 =>
  (ckI64 (τ75 + τ76)).bind fun τ77 =>
  (m (aa.getD 2 0) (bb.getD 7 0)).bind fun τ78 =>
  (ckI64 (τ77 + τ78)).bind fun τ79 =>
  let z2 := τ79
  (m (a.getD 15 0) (b.getD 10 0)).bind fun τ80 =>
  (m (a.getD 14 0) (b.getD 11 0)).bind fun τ81 =>
  (ckI64 (τ80 + τ81)).bind fun τ82 =>
  (m (a.getD 13 0) (b.getD 12 0)).bind fun τ83 =>
  (ckI64 (τ82 + τ83)).bind fun τ84 =>
  (m (a.getD 12 0) (b.getD 13 0)).bind fun τ85 =>
  (ckI64 (τ84 + τ85)).bind fun τ86 =>
  (m (a.getD 11 0) (b.getD 14 0)).bind fun τ87 =>
  (ckI64 (τ86 + τ87)).bind fun τ88 =>
  (m (a.getD 10 0) (b.getD 15 0)).bind fun τ89 =>
  (ckI64 (τ88 + τ89)).bind fun τ90 =>
  (ckI64 (τ90 + z2)).bind fun τ91 =>
  (ckI64 (z1 + τ91)).bind fun τ92 =>
  let z1 := τ92
  (m (a.getD 7 0) (b.getD 2 0)).bind fun τ93 =>
  (m (a.getD 6 0) (b.getD 3 0)).bind fun τ94 =>
  (ckI64 (τ93 + τ94)).bind fun τ95 =>
  (m (a.getD 5 0) (b.getD 4 0)).bind fun τ96 =>
  (ckI64 (τ95 + τ96)).bind fun τ97 =>
  (m (a.getD 4 0) (b.getD 5 0)).bind fun τ98 =>
  (ckI64 (τ97 + τ98)).bind fun τ99 =>
  (m (a.getD 3 0) (b.getD 6 0)).bind fun τ100 =>
  (ckI64 (τ99 + τ100)).bind fun τ101 =>
  (m (a.getD 2 0) (b.getD 7 0)).bind fun τ102 =>
  (ckI64 (τ101 + τ102)).bind fun τ103 =>
  (ckI64 (τ103 - z2)).bind fun τ104 =>
  (ckI64 (z0 - τ104)).bind fun τ105 =>
  let z0 := τ105
  let c := (c.set 1 (Rt.asU 32 (Rt.andZ 64 z0 MASK)))
  let c := (c.set 9 (Rt.asU 32 (Rt.andZ 64 z1 MASK)))
  let z0 := (sarZ z0 28)
  let z1 := (sarZ z1 28)
  some (c, z0, z1, z2)

/-- Part 4 of `mul`: lines 114-131. With i64 for i128: src/field/u32/karatsuba.rs:114-131 -/
def karatsuba.mul.part4 (a : List ℕ) (b : List ℕ) (MASK : ℤ) (c : List ℕ) (aa : List ℕ) (bb : List ℕ) (z0 : ℤ) (z1 : ℤ) (z2 : ℤ) : Option ((List ℕ) × ℤ × ℤ × ℤ) :=
  let m := fun (a : ℕ) (b : ℕ) =>
  (ckI64 ((a : ℤ) * (b : ℤ))).bind fun τ107 =>
  some τ107
  (m (a.getD 2 0) (b.getD 0 0)).bind fun τ108 =>
  (m (a.getD 1 0) (b.getD 1 0)).bind fun τ109 =>
  (ckI64 (τ108 + τ109)).bind fun τ110 =>
  (m (a.getD 0 0) (b.getD 2 0)).bind fun τ111 =>
  (ckI64 (τ110 + τ111)).bind fun τ112 =>
  let z2 := τ112
  (m (aa.getD 0 0) (bb.getD 2 0)).bind fun τ113 =>
  (m (aa.getD 1 0) (bb.getD 1 0)).bind fun τ114 =>
  (ckI64 (τ113 + τ114)).bind fun τ115 =>
  (m (aa.getD 2 0) (bb.getD 0 0)).bind fun τ116 =>
  (ckI64 (τ115 + τ116)).bind fun τ117 =>
  (ckI64 (τ117 - z2)).bind fun τ118 =>
  (ckI64 (z1 + τ118)).bind fun τ119 =>
  let z1 := τ119
  (m (a.getD 10 0) (b.getD 8 0)).bind fun τ120 =>
  (m (a.getD 9 0) (b.getD 9 0)).bind fun τ121 =>
  (ckI64 (τ120 + τ121)).bind fun τ122 =>
  (m (a.getD 8 0) (b.getD 10 0)).bind fun τ123 =>
  (ckI64 (τ122 + τ123)).bind fun τ124 =>
  (ckI64 (τ124 + z2)).bind fun τ125 =>
  (ckI64 (z0 + τ125)).bind fun τ126 =>
  let z0 := τ126
  (m (aa.getD 7 0) (bb.getD 3 0)).bind fun τ127 =>
  (m (aa.getD 6 0) (bb.getD 4 0)).bind fun τ128 =>
  (ckI64 (τ127 + τ128)).bind fun τ129 =>
  (m (aa.getD 5 0) (bb.getD 5 0)).bind fun τ130 =>
  (ckI64 (τ129 + τ130)).bind fun τ131 =>
  (m (aa.getD 4 0) (bb.getD 6 0)).bind fun τ132 =>
  (ckI64 (τ131 + τ132)).bind fun τ133 =>
  (m (aa.getD 3 0) (bb.getD 7 0)).bind fun τ134 =>
  (ckI64 (τ133 + τ134)).bind fun τ135 =>
  let z2 := τ135
  (m (a.getD 15 0) (b.getD 11 0)).bind fun τ136 =>
  (m (a.getD 14 0) (b.getD 12 0)).bind fun τ137 =>
  (ckI64 (τ136 + τ137)).bind fun τ138 =>
  (m (a.getD 13 0) (b.getD 13 0)).bind fun τ139 =>
  (ckI64 (τ138 + τ139)).bind fun τ140 =>
  (m (a.getD 12 0) (b.getD 14 0)).bind fun τ141 =>
  (ckI64 (τ140 + τ141)).bind fun τ142 =>
  (m (a.getD 11 0) (b.getD 15 0)).bind fun τ143 =>
  (ckI64 (τ142 + τ143)).bind fun τ144 =>
  (ckI64 (τ144 + z2)).bind fun τ145 =>
  (ckI64 (z1 + τ145)).bind fun τ146 =>
  let z1 := τ146
  (m (a.getD 7 0) (b.getD 3 0)).bind fun τ147 =>
  (m (a.getD 6 0) (b.getD 4 0)).bind fun τ148 =>
  (ckI64 (τ147 + τ148)).bind fun τ149 =>
  (m (a.getD 5 0) (b.getD 5 0)).bind fun τ150 =>
  (ckI64 (τ149 + τ150)).bind fun τ151 =>
  (m (a.getD 4 0) (b.getD 6 0)).bind fun τ152 =>
  (ckI64 (τ151 + τ152)).bind fun τ153 =>
  (m (a.getD 3 0) (b.getD 7 0)).bind fun τ154 =>
  (ckI64 (τ153 + τ154)).bind fun τ155 =>
  (ckI64 (τ155 - z2)).bind fun τ156 =>
  (ckI64 (z0 - τ156)).bind fun τ157 =>
  let z0 := τ157
  let c := (c.set 2 (Rt.asU 32 (Rt.andZ 64 z0 MASK)))
  let c := (c.set 10 (Rt.asU 32 (Rt.andZ 64 z1 MASK)))
  let z0 := (sarZ z0 28)
  let z1 := (sarZ z1 28)
  some (c, z0, z1, z2)

/-- Part 5 of `mul`: lines 134-146. With i64 for i128: src/field/u32/karatsuba.rs:134-146 -/
def karatsuba.mul.part5 (a : List ℕ) (b : List ℕ) (MASK : ℤ) (c : List ℕ) (aa : List ℕ) (bb : List ℕ) (z0 : ℤ) (z1 : ℤ) (z2 : ℤ) : Option ((List ℕ) × ℤ × ℤ × ℤ) :=
  let m := fun (a : ℕ) (b : ℕ) =>
  (ckI64 ((a : ℤ) * (b : ℤ))).bind fun τ159 =>
  some τ159
  (m (a.getD 3 0) (b.getD 0 0)).bind fun τ160 =>
  (m (a.getD 2 0) (b.getD 1 0)).bind fun τ161 =>
  (ckI64 (τ160 + τ161)).bind fun τ162 =>
  (m (a.getD 1 0) (b.getD 2 0)).bind fun τ163 =>
  (ckI64 (τ162 + τ163)).bind fun τ164 =>
  (m (a.getD 0 0) (b.getD 3 0)).bind fun τ165 =>
  (ckI64 (τ164 + τ165)).bind fun τ166 =>
  let z2 := τ166
  (m (aa.getD 3 0) (bb.getD 0 0)).bind fun τ167 =>
  (m (aa.getD 2 0) (bb.getD 1 0)).bind fun τ168 =>
  (ckI64 (τ167 + τ168)).bind fun τ169 =>
  (m (aa.getD 1 0) (bb.getD 2 0)).bind fun τ170 =>
  (ckI64 (τ169 + τ170)).bind fun τ171 =>
  (m (aa.getD 0 0) (bb.getD 3 0)).bind fun τ172 =>
  (ckI64 (τ171 + τ172)).bind fun τ173 =>
  (ckI64 (τ173 - z2)).bind fun τ174 =>
  (ckI64 (z1 + τ174)).bind fun τ175 =>
  let z1 := τ175
  (m (a.getD 11 0) (b.getD 8 0)).bind fun τ176 =>
  (m (a.getD 10 0) (b.getD 9 0)).bind fun τ177 =>
  (ckI64 (τ176 + τ177)).bind fun τ178 =>
  (m (a.getD 9 0) (b.getD 10 0)).bind fun τ179 =>
  (ckI64 (τ178 + τ179)).bind fun τ180 =>
  (m (a.getD 8 0) (b.getD 11 0)).bind fun τ181 =>
  (ckI64 (τ180 + τ181)).bind fun τ182 =>
  (ckI64 (τ182 + z2)).bind fun τ183 =>
  (ckI64 (z0 + τ183)).bind fun τ184 =>
  let z0 := τ184
  (m (aa.getD 7 0) (bb.getD 4 0)).bind fun τ185 =>
  (m (aa.getD 6 0) (bb.getD 5 0)).bind fun τ186 =>
  (ckI64 (τ185 + τ186)).bind fun τ187 =>
  (m (aa.getD 5 0) (bb.getD 6 0)).bind fun τ188 =>
  (ckI64 (τ187 + τ188)).bind fun τ189 =>
  (m (aa.getD 4 0) (bb.getD 7 0)).bind fun τ190 =>
  (ckI64 (τ189 + τ190)).bind fun τ191 =>
  let z2 := τ191
  (m (a.getD 7 0) (b.getD 4 0)).bind fun τ192 =>
  (m (a.getD 6 0) (b.getD 5 0)).bind fun τ193 =>
  (ckI64 (τ192 + τ193)).bind fun τ194 =>
  (m (a.getD 5 0) (b.getD 6 0)).bind fun τ195 =>
  (ckI64 (τ194 + τ195)).bind fun τ196 =>
  (m (a.getD 4 0) (b.getD 7 0)).bind fun τ197 =>
  (ckI64 (τ196 + τ197)).bind fun τ198 =>
  (ckI64 (τ198 - z2)).bind fun τ199 =>
  (ckI64 (z0 - τ199)).bind fun τ200 =>
  let z0 := τ200
  (m (a.getD 15 0) (b.getD 12 0)).bind fun τ201 =>
  (m (a.getD 14 0) (b.getD 13 0)).bind fun τ202 =>
  (ckI64 (τ201 + τ202)).bind fun τ203 =>
  (m (a.getD 13 0) (b.getD 14 0)).bind fun τ204 =>
  (ckI64 (τ203 + τ204)).bind fun τ205 =>
  (m (a.getD 12 0) (b.getD 15 0)).bind fun τ206 =>
  (ckI64 (τ205 + τ206)).bind fun τ207 =>
  (ckI64 (τ207 + z2)).bind fun τ208 =>
  (ckI64 (z1 + τ208)).bind fun τ209 =>
  let z1 := τ209
  let c := (c.set 3 (Rt.asU 32 (Rt.andZ 64 z0 MASK)))
  let c := (c.set 11 (Rt.asU 32 (Rt.andZ 64 z1 MASK)))
  let z0 := (sarZ z0 28)
  let z1 := (sarZ z1 28)
  some (c, z0, z1, z2)

/-- Part 6 of `mul`: lines 149-162. With i64 for i128: src/field/u32/karatsuba.rs:149-162 -/
def karatsuba.mul.part6 (a : List ℕ) (b : List ℕ) (MASK : ℤ) (c : List ℕ) (aa : List ℕ) (bb : List ℕ) (z0 : ℤ) (z1 : ℤ) (z2 : ℤ) : Option ((List ℕ) × ℤ × ℤ × ℤ) :=
  let m := fun (a : ℕ) (b : ℕ) =>
  (ckI64 ((a : ℤ) * (b : ℤ))).bind fun τ211 =>
  some τ211
  (m (a.getD 4 0) (b.getD 0 0)).bind fun τ212 =>
  (m (a.getD 3 0) (b.getD 1 0)).bind fun τ213 =>
  (ckI64 (τ212 + τ213)).bind fun τ214 =>
  (m (a.getD 2 0) (b.getD 2 0)).bind fun τ215 =>
  (ckI64 (τ214 + τ215)).bind fun τ216 =>
  (m (a.getD 1 0) (b.getD 3 0)).bind fun τ217 =>
  (ckI64 (τ216 + τ217)).bind fun τ218 =>
  (m (a.getD 0 0) (b.getD 4 0)).bind fun τ219 =>
  (ckI64 (τ218 + τ219)).bind fun τ220 =>
  let z2 := τ220
  (m (aa.getD 4 0) (bb.getD 0 0)).bind fun τ221 =>
  (m (aa.getD 3 0) (bb.getD 1 0)).bind fun τ222 =>
  (ckI64 (τ221 + τ222)).bind fun τ223 =>
  (m (aa.getD 2 0) (bb.getD 2 0)).bind fun τ224 =>
  (ckI64 (τ223 + τ224)).bind fun τ225 =>
  (m (aa.getD 1 0) (bb.getD 3 0)).bind fun τ226 =>
  (ckI64 (τ225 + τ226)).bind fun τ227 =>
  (m (aa.getD 0 0) (bb.getD 4 0)).bind fun τ228 =>
  (ckI64 (τ227 + τ228)).bind fun τ229 =>
  (ckI64 (τ229 - z2)).bind fun τ230 =>
  (ckI64 (z1 + τ230)).bind fun τ231 =>
  let z1 := τ231
  (m (a.getD 12 0) (b.getD 8 0)).bind fun τ232 =>
  (m (a.getD 11 0) (b.getD 9 0)).bind fun τ233 =>
  (ckI64 (τ232 + τ233)).bind fun τ234 =>
  (m (a.getD 10 0) (b.getD 10 0)).bind fun τ235 =>
  (ckI64 (τ234 + τ235)).bind fun τ236 =>
  (m (a.getD 9 0) (b.getD 11 0)).bind fun τ237 =>
  (ckI64 (τ236 + τ237)).bind fun τ238 =>
  (m (a.getD 8 0) (b.getD 12 0)).bind fun τ239 =>
  (ckI64 (τ238 + τ239)).bind fun τ240 =>
  (ckI64 (τ240 + z2)).bind fun τ241 =>
  (ckI64 (z0 + τ241)).bind fun τ242 =>
  let z0 := τ242
  (m (aa.getD 7 0) (bb.getD 5 0)).bind fun τ243 =>
  (m (aa.getD 6 0) (bb.getD 6 0)).bind fun τ244 =>
  (ckI64 (τ243 + τ244)).bind fun τ245 =>
  (m (aa.getD 5 0) (bb.getD 7 0)).bind fun τ246 =>
  (ckI64 (τ245 + τ246)).bind fun τ247 =>
  let z2 := τ247
  (m (a.getD 15 0) (b.getD 13 0)).bind fun τ248 =>
  (m (a.getD 14 0) (b.getD 14 0)).bind fun τ249 =>
  (ckI64 (τ248 + τ249)).bind fun τ250 =>
  (m (a.getD 13 0) (b.getD 15 0)).bind fun τ251 =>
  (ckI64 (τ250 + τ251)).bind fun τ252 =>
  (ckI64 (τ252 + z2)).bind fun τ253 =>
  (ckI64 (z1 + τ253)).bind fun τ254 =>
  let z1 := τ254
  (m (a.getD 7 0) (b.getD 5 0)).bind fun τ255 =>
  (m (a.getD 6 0) (b.getD 6 0)).bind fun τ256 =>
  (ckI64 (τ255 + τ256)).bind fun τ257 =>
  (m (a.getD 5 0) (b.getD 7 0)).bind fun τ258 =>
  (ckI64 (τ257 + τ258)).bind fun τ259 =>
  (ckI64 (τ259 - z2)).bind fun τ260 =>
  (ckI64 (z0 - τ260)).bind fun τ261 =>
  let z0 := τ261
  let c := (c.set 4 (Rt.asU 32 (Rt.andZ 64 z0 MASK)))
  let c := (c.set 12 (Rt.asU 32 (Rt.andZ 64 z1 MASK)))
  let z0 := (sarZ z0 28)
  let z1 := (sarZ z1 28)
  some (c, z0, z1, z2)

/-- Part 7 of `mul`: lines 165-193. With i64 for i128: src/field/u32/karatsuba.rs:165-193 -/
def karatsuba.mul.part7 (a : List ℕ) (b : List ℕ) (MASK : ℤ) (c : List ℕ) (aa : List ℕ) (bb : List ℕ) (z0 : ℤ) (z1 : ℤ) (z2 : ℤ) : Option ((List ℕ) × ℤ × ℤ × ℤ) :=
  let m := fun (a : ℕ) (b : ℕ) =>
  (ckI64 ((a : ℤ) * (b : ℤ))).bind fun τ263 =>
  some τ263
  (m (a.getD 5 0) (b.getD 0 0)).bind fun τ264 =>
  (m (a.getD 4 0) (b.getD 1 0)).bind fun τ265 =>
  (ckI64 (τ264 + τ265)).bind fun τ266 =>
  (m (a.getD 3 0) (b.getD 2 0)).bind fun τ267 =>
  (ckI64 (τ266 + τ267)).bind fun τ268 =>
  (m (a.getD 2 0) (b.getD 3 0)).bind fun τ269 =>
  (ckI64 (τ268 + τ269)).bind fun τ270 =>
  (m (a.getD 1 0) (b.getD 4 0)).bind fun τ271 =>
  (ckI64 (τ270 + τ271)).bind fun τ272 =>
  (m (a.getD 0 0) (b.getD 5 0)).bind fun τ273 =>
  (ckI64 (τ272 + τ273)).bind fun τ274 =>
  let z2 := τ274
  (m (aa.getD 5 0) (bb.getD 0 0)).bind fun τ275 =>
  (m (aa.getD 4 0) (bb.getD 1 0)).bind fun τ276 =>
  (ckI64 (τ275 + τ276)).bind fun τ277 =>
  (m (aa.getD 3 0) (bb.getD 2 0)).bind fun τ278 =>
  (ckI64 (τ277 + τ278)).bind fun τ279 =>
  (m (aa.getD 2 0) (bb.getD 3 0)).bind fun τ280 =>
  (ckI64 (τ279 + τ280)).bind fun τ281 =>
  (m (aa.getD 1 0) (bb.getD 4 0)).bind fun τ282 =>
  (ckI64 (τ281 + τ282)).bind fun τ283 =>
  (m (aa.getD 0 0) (bb.getD 5 0)).bind fun τ284 =>
  (ckI64 (τ283 + τ284)).bind fun τ285 =>
  (ckI64 (τ285 - z2)).bind fun τ286 =>
  (ckI64 (z1 + τ286)).bind fun τ287 =>
  let z1 := τ287
  (m (a.getD 13 0) (b.getD 8 0)).bind fun τ288 =>
  (m (a.getD 12 0) (b.getD 9 0)).bind fun τ289 =>
  (ckI64 (τ288 + τ289)).bind fun τ290 =>
  (m (a.getD 11 0) (b.getD 10 0)).bind fun τ291 =>
  (ckI64 (τ290 + τ291)).bind fun τ292 =>
  (m (a.getD 10 0) (b.getD 11 0)).bind fun τ293 =>
  (ckI64 (τ292 + τ293)).bind fun τ294 =>
  (m (a.getD 9 0) (b.getD 12 0)).bind fun τ295 =>
  (ckI64 (τ294 + τ295)).bind fun τ296 =>
  (m (a.getD 8 0) (b.getD 13 0)).bind fun τ297 =>
  (ckI64 (τ296 + τ297)).bind fun τ298 =>
  (ckI64 (τ298 + z2)).bind fun τ299 =>
  (ckI64 (z0 + τ299)).bind fun τ300 =>
  let z0 := τ300
  (m (aa.getD 7 0) (bb.getD 6 0)).bind fun τ301 =>
  (m (aa.getD 6 0) (bb.getD 7 0)).bind fun τ302 =>
  (ckI64 (τ301 + τ302)).bind fun τ303 =>
  let z2 := τ303
  (m (a.getD 15 0) (b.getD 14 0)).bind fun τ304 =>
  (m (a.getD 14 0) (b.getD 15 0)).bind fun τ305 =>
  (ckI64 (τ304 + τ305)).bind fun τ306 =>
  (ckI64 (τ306 + z2)).bind fun τ307 =>
  (ckI64 (z1 + τ307)).bind fun τ308 =>
  let z1 := τ308
  (m (a.getD 7 0) (b.getD 6 0)).bind fun τ309 =>
  (m (a.getD 6 0) (b.getD 7 0)).bind fun τ310 =>
  (ckI64 (τ309 + τ310)).bind fun τ311 =>
  (ckI64 (τ311 - z2)).bind fun τ312 =>
  (ckI64 (z0 - τ312)).bind fun τ313 =>
  let z0 := τ313
  let c := (c.set 5 (Rt.asU 32 (Rt.andZ 64 z0 MASK)))
  let c := (c.set 13 (Rt.asU 32 (Rt.andZ 64 z1 MASK)))
  let z0 := (sarZ z0 28)
  let z1 := (sarZ z1 28)
  some (c, z0, z1, z2)

/-- Part 8 of `mul`: lines 197-229. With i64 for i128: src/field/u32/karatsuba.rs:197-229 -/
def karatsuba.mul.part8 (a : List ℕ) (b : List ℕ) (MASK : ℤ) (c : List ℕ) (aa : List ℕ) (bb : List ℕ) (z0 : ℤ) (z1 : ℤ) (z2 : ℤ) : Option ((List ℕ) × ℤ × ℤ × ℤ) :=
  let m := fun (a : ℕ) (b : ℕ) =>
  (ckI64 ((a : ℤ) * (b : ℤ))).bind fun τ315 =>
  some τ315
  (m (a.getD 6 0) (b.getD 0 0)).bind fun τ316 =>
  (m (a.getD 5 0) (b.getD 1 0)).bind fun τ317 =>
  (ckI64 (τ316 + τ317)).bind fun τ318 =>
  (m (a.getD 4 0) (b.getD 2 0)).bind fun τ319 =>
  (ckI64 (τ318 + τ319)).bind fun τ320 =>
  (m (a.getD 3 0) (b.getD 3 0)).bind fun τ321 =>
  (ckI64 (τ320 + τ321)).bind fun τ322 =>
  (m (a.getD 2 0) (b.getD 4 0)).bind fun τ323 =>
  (ckI64 (τ322 + τ323)).bind fun τ324 =>
  (m (a.getD 1 0) (b.getD 5 0)).bind fun τ325 =>
  (ckI64 (τ324 + τ325)).bind fun τ326 =>
  (m (a.getD 0 0) (b.getD 6 0)).bind fun τ327 =>
  (ckI64 (τ326 + τ327)).bind fun τ328 =>
  let z2 := τ328
  (m (aa.getD 6 0) (bb.getD 0 0)).bind fun τ329 =>
  (m (aa.getD 5 0) (bb.getD 1 0)).bind fun τ330 =>
  (ckI64 (τ329 + τ330)).bind fun τ331 =>
  (m (aa.getD 4 0) (bb.getD 2 0)).bind fun τ332 =>
  (ckI64 (τ331 + τ332)).bind fun τ333 =>
  (m (aa.getD 3 0) (bb.getD 3 0)).bind fun τ334 =>
  (ckI64 (τ333 + τ334)).bind fun τ335 =>
  (m (aa.getD 2 0) (bb.getD 4 0)).bind fun τ336 =>
  (ckI64 (τ335 + τ336)).bind fun τ337 =>
  (m (aa.getD 1 0) (bb.getD 5 0)).bind fun τ338 =>
  (ckI64 (τ337 + τ338)).bind fun τ339 =>
  (m (aa.getD 0 0) (bb.getD 6 0)).bind fun τ340 =>
  (ckI64 (τ339 + τ340)).bind fun τ341 =>
  (ckI64 (τ341 - z2)).bind fun τ342 =>
  (ckI64 (z1 + τ342)).bind fun τ343 =>
  let z1 := τ343
  (m (a.getD 14 0) (b.getD 8 0)).bind fun τ344 =>
  (m (a.getD 13 0) (b.getD 9 0)).bind fun τ345 =>
  (ckI64 (τ344 + τ345)).bind fun τ346 =>
  (m (a.getD 12 0) (b.getD 10 0)).bind fun τ347 =>
  (ckI64 (τ346 + τ347)).bind fun τ348 =>
  (m (a.getD 11 0) (b.getD 11 0)).bind fun τ349 =>
  (ckI64 (τ348 + τ349)).bind fun τ350 =>
  (m (a.getD 10 0) (b.getD 12 0)).bind fun τ351 =>
  (ckI64 (τ350 + τ351)).bind fun τ352 =>
  (m (a.getD 9 0) (b.getD 13 0)).bind fun τ353 =>
  (ckI64 (τ352 + τ353)).bind fun τ354 =>
  (m (a.getD 8 0) (b.getD 14 0)).bind fun τ355 =>
  (ckI64 (τ354 + τ355)).bind fun τ356 =>
  (ckI64 (τ356 + z2)).bind fun τ357 =>
  (ckI64 (z0 + τ357)).bind fun τ358 =>
  let z0 := τ358
  (m (aa.getD 7 0) (bb.getD 7 0)).bind fun τ359 =>
  let z2 := τ359
  (m (a.getD 15 0) (b.getD 15 0)).bind fun τ360 =>
  (ckI64 (τ360 + z2)).bind fun τ361 =>
  (ckI64 (z1 + τ361)).bind fun τ362 =>
  let z1 := τ362
  (m (a.getD 7 0) (b.getD 7 0)).bind fun τ363 =>
  (ckI64 (τ363 - z2)).bind fun τ364 =>
  (ckI64 (z0 - τ364)).bind fun τ365 =>
  let z0 := τ365
  let c := (c.set 6 (Rt.asU 32 (Rt.andZ 64 z0 MASK)))
  let c := (c.set 14 (Rt.asU 32 (Rt.andZ 64 z1 MASK)))
  let z0 := (sarZ z0 28)
  let z1 := (sarZ z1 28)
  some (c, z0, z1, z2)

/-- Part 9 of `mul`: lines 232-267. With i64 for i128: src/field/u32/karatsuba.rs:232-267 -/
def karatsuba.mul.part9 (a : List ℕ) (b : List ℕ) (MASK : ℤ) (c : List ℕ) (aa : List ℕ) (bb : List ℕ) (z0 : ℤ) (z1 : ℤ) (z2 : ℤ) : Option ((List ℕ) × ℤ × ℤ × ℤ) :=
  let m := fun (a : ℕ) (b : ℕ) =>
  (ckI64 ((a : ℤ) * (b : ℤ))).bind fun τ367 =>
  some τ367
  (m (a.getD 7 0) (b.getD 0 0)).bind fun τ368 =>
  (m (a.getD 6 0) (b.getD 1 0)).bind fun τ369 =>
  (ckI64 (τ368 + τ369)).bind fun τ370 =>
  (m (a.getD 5 0) (b.getD 2 0)).bind fun τ371 =>
  (ckI64 (τ370 + τ371)).bind fun τ372 =>
  (m (a.getD 4 0) (b.getD 3 0)).bind fun τ373 =>
  (ckI64 (τ372 + τ373)).bind fun τ374 =>
  (m (a.getD 3 0) (b.getD 4 0)).bind fun τ375 =>
  (ckI64 (τ374 + τ375)).bind fun τ376 =>
  (m (a.getD 2 0) (b.getD 5 0)).bind fun τ377 =>
  (ckI64 (τ376 + τ377)).bind fun τ378 =>
  (m (a.getD 1 0) (b.getD 6 0)).bind fun τ379 =>
  (ckI64 (τ378 + τ379)).bind fun τ380 =>
  (m (a.getD 0 0) (b.getD 7 0)).bind fun τ381 =>
  (ckI64 (τ380 + τ381)).bind fun τ382 =>
  let z2 := τ382
  (m (aa.getD 7 0) (bb.getD 0 0)).bind fun τ383 =>
  (m (aa.getD 6 0) (bb.getD 1 0)).bind fun τ384 =>
  (ckI64 (τ383 + τ384)).bind fun τ385 =>
  (m (aa.getD 5 0) (bb.getD 2 0)).bind fun τ386 =>
  (ckI64 (τ385 + τ386)).bind fun τ387 =>
  (m (aa.getD 4 0) (bb.getD 3 0)).bind fun τ388 =>
  (ckI64 (τ387 + τ388)).bind fun τ389 =>
  (m (aa.getD 3 0) (bb.getD 4 0)).bind fun τ390 =>
  (ckI64 (τ389 + τ390)).bind fun τ391 =>
  (m (aa.getD 2 0) (bb.getD 5 0)).bind fun τ392 =>
  (ckI64 (τ391 + τ392)).bind fun τ393 =>
  (m (aa.getD 1 0) (bb.getD 6 0)).bind fun τ394 =>
  (ckI64 (τ393 + τ394)).bind fun τ395 =>
  (m (aa.getD 0 0) (bb.getD 7 0)).bind fun τ396 =>
  (ckI64 (τ395 + τ396)).bind fun τ397 =>
  (ckI64 (τ397 - z2)).bind fun τ398 =>
  (ckI64 (z1 + τ398)).bind fun τ399 =>
  let z1 := τ399
  (m (a.getD 15 0) (b.getD 8 0)).bind fun τ400 =>
  (m (a.getD 14 0) (b.getD 9 0)).bind fun τ401 =>
  (ckI64 (τ400 + τ401)).bind fun τ402 =>
  (m (a.getD 13 0) (b.getD 10 0)).bind fun τ403 =>
  (ckI64 (τ402 + τ403)).bind fun τ404 =>
  (m (a.getD 12 0) (b.getD 11 0)).bind fun τ405 =>
  (ckI64 (τ404 + τ405)).bind fun τ406 =>
  (m (a.getD 11 0) (b.getD 12 0)).bind fun τ407 =>
  (ckI64 (τ406 + τ407)).bind fun τ408 =>
  (m (a.getD 10 0) (b.getD 13 0)).bind fun τ409 =>
  (ckI64 (τ408 + τ409)).bind fun τ410 =>
  (m (a.getD 9 0) (b.getD 14 0)).bind fun τ411 =>
  (ckI64 (τ410 + τ411)).bind fun τ412 =>
  (m (a.getD 8 0) (b.getD 15 0)).bind fun τ413 =>
  (ckI64 (τ412 + τ413)).bind fun τ414 =>
  (ckI64 (τ414 + z2)).bind fun τ415 =>
  (ckI64 (z0 + τ415)).bind fun τ416 =>
  let z0 := τ416
  let z2 := (0 : ℤ)
  (ckI64 (z1 + z2)).bind fun τ417 =>
  let z1 := τ417
  (ckI64 (z0 + z2)).bind fun τ418 =>
  let z0 := τ418
  let c := (c.set 7 (Rt.asU 32 (Rt.andZ 64 z0 MASK)))
  let c := (c.set 15 (Rt.asU 32 (Rt.andZ 64 z1 MASK)))
  let z0 := (sarZ z0 28)
  let z1 := (sarZ z1 28)
  some (c, z0, z1, z2)

/-- Translation of `mul`. With i64 for i128: src/field/u32/karatsuba.rs:17-284 -/
def karatsuba.mul (a : List ℕ) (b : List ℕ) : Option (List ℕ) :=
  let τ3 := karatsuba.mul.part1 a b
  let MASK : ℤ := τ3.1
  let c : List ℕ := τ3.2.1
  let aa : List ℕ := τ3.2.2.1
  let bb : List ℕ := τ3.2.2.2.1
  let z0 : ℤ := τ3.2.2.2.2.1
  let z1 : ℤ := τ3.2.2.2.2.2.1
  let z2 : ℤ := τ3.2.2.2.2.2.2
  (karatsuba.mul.part2 a b MASK c aa bb z0 z1 z2).bind fun τ54 =>
  let c : List ℕ := τ54.1
  let z0 : ℤ := τ54.2.1
  let z1 : ℤ := τ54.2.2.1
  let z2 : ℤ := τ54.2.2.2
  (karatsuba.mul.part3 a b MASK c aa bb z0 z1 z2).bind fun τ106 =>
  let c : List ℕ := τ106.1
  let z0 : ℤ := τ106.2.1
  let z1 : ℤ := τ106.2.2.1
  let z2 : ℤ := τ106.2.2.2
  (karatsuba.mul.part4 a b MASK c aa bb z0 z1 z2).bind fun τ158 =>
  let c : List ℕ := τ158.1
  let z0 : ℤ := τ158.2.1
  let z1 : ℤ := τ158.2.2.1
  let z2 : ℤ := τ158.2.2.2
  (karatsuba.mul.part5 a b MASK c aa bb z0 z1 z2).bind fun τ210 =>
  let c : List ℕ := τ210.1
  let z0 : ℤ := τ210.2.1
  let z1 : ℤ := τ210.2.2.1
  let z2 : ℤ := τ210.2.2.2
  (karatsuba.mul.part6 a b MASK c aa bb z0 z1 z2).bind fun τ262 =>
  let c : List ℕ := τ262.1
  let z0 : ℤ := τ262.2.1
  let z1 : ℤ := τ262.2.2.1
  let z2 : ℤ := τ262.2.2.2
  (karatsuba.mul.part7 a b MASK c aa bb z0 z1 z2).bind fun τ314 =>
  let c : List ℕ := τ314.1
  let z0 : ℤ := τ314.2.1
  let z1 : ℤ := τ314.2.2.1
  let z2 : ℤ := τ314.2.2.2
  (karatsuba.mul.part8 a b MASK c aa bb z0 z1 z2).bind fun τ366 =>
  let c : List ℕ := τ366.1
  let z0 : ℤ := τ366.2.1
  let z1 : ℤ := τ366.2.2.1
  let z2 : ℤ := τ366.2.2.2
  (karatsuba.mul.part9 a b MASK c aa bb z0 z1 z2).bind fun τ419 =>
  let c : List ℕ := τ419.1
  let z0 : ℤ := τ419.2.1
  let z1 : ℤ := τ419.2.2.1
  let z2 : ℤ := τ419.2.2.2
  let m := fun (a : ℕ) (b : ℕ) =>
  (ckI64 ((a : ℤ) * (b : ℤ))).bind fun τ420 =>
  some τ420
  (ckI64 (z1 + ((c.getD 8 0) : ℤ))).bind fun τ421 =>
  (ckI64 (z0 + τ421)).bind fun τ422 =>
  let z0 := τ422
  (ckI64 (z1 + ((c.getD 0 0) : ℤ))).bind fun τ423 =>
  let z1 := τ423
  let c := (c.set 8 (Rt.asU 32 (Rt.andZ 64 z0 MASK)))
  let c := (c.set 0 (Rt.asU 32 (Rt.andZ 64 z1 MASK)))
  let z0 := (sarZ z0 28)
  let z1 := (sarZ z1 28)
  (ckU32 ((c.getD 9 0) + (Rt.asU 32 (Rt.andZ 64 z0 MASK)))).bind fun τ424 =>
  let c := (c.set 9 τ424)
  (ckU32 ((c.getD 1 0) + (Rt.asU 32 (Rt.andZ 64 z1 MASK)))).bind fun τ425 =>
  let c := (c.set 1 τ425)
  some c

end Ed448.Gen.Narrow

namespace Ed448.Gen.Wide
open Ed448.Model FieldBackend

/-- Part 1 of `mul`: lines 18-44. With any signed type: src/field/u32/karatsuba.rs:18-44 -/
def karatsuba.mul.part1 (ck : ℤ → Option ℤ) (w : ℕ) (a : List ℕ) (b : List ℕ) : ℤ × (List ℕ) × (List ℕ) × (List ℕ) × ℤ × ℤ × ℤ :=
  let MASK : ℤ := (268435455 : ℤ)
  let c : List ℕ := FieldElement28.zero
  let aa : List ℕ := ([(Rt.waddU 32 (a.getD 0 0) (a.getD 8 0)), (Rt.waddU 32 (a.getD 1 0) (a.getD 9 0)), (Rt.waddU 32 (a.getD 2 0) (a.getD 10 0)), (Rt.waddU 32 (a.getD 3 0) (a.getD 11 0)), (Rt.waddU 32 (a.getD 4 0) (a.getD 12 0)), (Rt.waddU 32 (a.getD 5 0) (a.getD 13 0)), (Rt.waddU 32 (a.getD 6 0) (a.getD 14 0)), (Rt.waddU 32 (a.getD 7 0) (a.getD 15 0))] : List ℕ)
  let bb : List ℕ := ([(Rt.waddU 32 (b.getD 0 0) (b.getD 8 0)), (Rt.waddU 32 (b.getD 1 0) (b.getD 9 0)), (Rt.waddU 32 (b.getD 2 0) (b.getD 10 0)), (Rt.waddU 32 (b.getD 3 0) (b.getD 11 0)), (Rt.waddU 32 (b.getD 4 0) (b.getD 12 0)), (Rt.waddU 32 (b.getD 5 0) (b.getD 13 0)), (Rt.waddU 32 (b.getD 6 0) (b.getD 14 0)), (Rt.waddU 32 (b.getD 7 0) (b.getD 15 0))] : List ℕ)
  let m := fun (a : ℕ) (b : ℕ) =>
  (ck ((a : ℤ) * (b : ℤ))).bind fun τ1 =>
  some τ1
  let τ2 := ((0 : ℤ), (0 : ℤ), (0 : ℤ))
  let z0 : ℤ := τ2.1
  let z1 : ℤ := τ2.2.1
  let z2 : ℤ := τ2.2.2
  (MASK, c, aa, bb, z0, z1, z2)

/-- Part 2 of `mul`: lines 47-79. With any signed type: src/field/u32/karatsuba.rs:47-79 -/
def karatsuba.mul.part2 (ck : ℤ → Option ℤ) (w : ℕ) (a : List ℕ) (b : List ℕ) (MASK : ℤ) (c : List ℕ) (aa : List ℕ) (bb : List ℕ) (z0 : ℤ) (z1 : ℤ) (z2 : ℤ) : Option ((List ℕ) × ℤ × ℤ × ℤ) :=
  let m := fun (a : ℕ) (b : ℕ) =>
  (ck ((a : ℤ) * (b : ℤ))).bind fun τ4 =>
  some τ4
  (m (a.getD 0 0) (b.getD 0 0)).bind fun τ5 =>
  let z2 := τ5
  (m (aa.getD 0 0) (bb.getD 0 0)).bind fun τ6 =>
  (ck (τ6 - z2)).bind fun τ7 =>
  let z1 := τ7
  (m (a.getD 8 0) (b.getD 8 0)).bind fun τ8 =>
  (ck (τ8 + z2)).bind fun τ9 =>
  (ck (z0 + τ9)).bind fun τ10 =>
  let z0 := τ10
  (m (aa.getD 7 0) (bb.getD 1 0)).bind fun τ11 =>
  (m (aa.getD 6 0) (bb.getD 2 0)).bind fun τ12 =>
  (ck (τ11 + τ12)).bind fun τ13 =>
  (m (aa.getD 5 0) (bb.getD 3 0)).bind fun τ14 =>
  (ck (τ13 + τ14)).bind fun τ15 =>
  (m (aa.getD 4 0) (bb.getD 4 0)).bind fun τ16 =>
  (ck (τ15 + τ16)).bind fun τ17 =>
  (m (aa.getD 3 0) (bb.getD 5 0)).bind fun τ18 =>
  (ck (τ17 + τ18)).bind fun τ19 =>
  (m (aa.getD 2 0) (bb.getD 6 0)).bind fun τ20 =>
  (ck (τ19 + τ20)).bind fun τ21 =>
  (m (aa.getD 1 0) (bb.getD 7 0)).bind fun τ22 =>
  (ck (τ21 + τ22)).bind fun τ23 =>
  let z2 := τ23
  (m (a.getD 15 0) (b.getD 9 0)).bind fun τ24 =>
  (m (a.getD 14 0) (b.getD 10 0)).bind fun τ25 =>
  (ck (τ24 + τ25)).bind fun τ26 =>
  (m (a.getD 13 0) (b.getD 11 0)).bind fun τ27 =>
  (ck (τ26 + τ27)).bind fun τ28 =>
  (m (a.getD 12 0) (b.getD 12 0)).bind fun τ29 =>
  (ck (τ28 + τ29)).bind fun τ30 =>
  (m (a.getD 11 0) (b.getD 13 0)).bind fun τ31 =>
  (ck (τ30 + τ31)).bind fun τ32 =>
  (m (a.getD 10 0) (b.getD 14 0)).bind fun τ33 =>
  (ck (τ32 + τ33)).bind fun τ34 =>
  (m (a.getD 9 0) (b.getD 15 0)).bind fun τ35 =>
  (ck (τ34 + τ35)).bind fun τ36 =>
  (ck (τ36 + z2)).bind fun τ37 =>
  (ck (z1 + τ37)).bind fun τ38 =>
  let z1 := τ38
  (m (a.getD 7 0) (b.getD 1 0)).bind fun τ39 =>
  (m (a.getD 6 0) (b.getD 2 0)).bind fun τ40 =>
  (ck (τ39 + τ40)).bind fun τ41 =>
  (m (a.getD 5 0) (b.getD 3 0)).bind fun τ42 =>
  (ck (τ41 + τ42)).bind fun τ43 =>
  (m (a.getD 4 0) (b.getD 4 0)).bind fun τ44 =>
  (ck (τ43 + τ44)).bind fun τ45 =>
  (m (a.getD 3 0) (b.getD 5 0)).bind fun τ46 =>
  (ck (τ45 + τ46)).bind fun τ47 =>
  (m (a.getD 2 0) (b.getD 6 0)).bind fun τ48 =>
  (ck (τ47 + τ48)).bind fun τ49 =>
  (m (a.getD 1 0) (b.getD 7 0)).bind fun τ50 =>
  (ck (τ49 + τ50)).bind fun τ51 =>
  (ck (τ51 - z2)).bind fun τ52 =>
  (ck (z0 - τ52)).bind fun τ53 =>
  let z0 := τ53
  let c := (c.set 0 (Rt.asU 32 (Rt.andZ w z0 MASK)))
  let c := (c.set 8 (Rt.asU 32 (Rt.andZ w z1 MASK)))
  let z0 := (sarZ z0 28)
  let z1 := (sarZ z1 28)
  some (c, z0, z1, z2)

/-- Part 3 of `mul`: lines 82-111. With any signed type: src/field/u32/karatsuba.rs:82-111 -/
def karatsuba.mul.part3 (ck : ℤ → Option ℤ) (w : ℕ) (a : List ℕ) (b : List ℕ) (MASK : ℤ) (c : List ℕ) (aa : List ℕ) (bb : List ℕ) (z0 : ℤ) (z1 : ℤ) (z2 : ℤ) : Option ((List ℕ) × ℤ × ℤ × ℤ) :=
  let m := fun (a : ℕ) (b : ℕ) =>
  (ck ((a : ℤ) * (b : ℤ))).bind fun τ55 =>
  some τ55
  (m (a.getD 1 0) (b.getD 0 0)).bind fun τ56 =>
  (m (a.getD 0 0) (b.getD 1 0)).bind fun τ57 =>
  (ck (τ56 + τ57)).bind fun τ58 =>
  let z2 := τ58
  (m (aa.getD 1 0) (bb.getD 0 0)).bind fun τ59 =>
  (m (aa.getD 0 0) (bb.getD 1 0)).bind fun τ60 =>
  (ck (τ59 + τ60)).bind fun τ61 =>
  (ck (τ61 - z2)).bind fun τ62 =>
  (ck (z1 + τ62)).bind fun τ63 =>
  let z1 := τ63
  (m (a.getD 9 0) (b.getD 8 0)).bind fun τ64 =>
  (m (a.getD 8 0) (b.getD 9 0)).bind fun τ65 =>
  (ck (τ64 + τ65)).bind fun τ66 =>
  (ck (τ66 + z2)).bind fun τ67 =>
  (ck (z0 + τ67)).bind fun τ68 =>
  let z0 := τ68
  (m (aa.getD 7 0) (bb.getD 2 0)).bind fun τ69 =>
  (m (aa.getD 6 0) (bb.getD 3 0)).bind fun τ70 =>
  (ck (τ69 + τ70)).bind fun τ71 =>
  (m (aa.getD 5 0) (bb.getD 4 0)).bind fun τ72 =>
  (ck (τ71 + τ72)).bind fun τ73 =>
  (m (aa.getD 4 0) (bb.getD 5 0)).bind fun τ74 =>
  (ck (τ73 + τ74)).bind fun τ75 =>
  (m (aa.getD 3 0) (bb.getD 6 0)).bind fun τ76 =>
  (ck (τ75 + τ76)).bind fun τ77 =>
  (m (aa.getD 2 0) (bb.getD 7 0)).bind fun τ78 =>
  (ck (τ77 + τ78)).bind fun τ79 =>
  let z2 := τ79
  (m (a.getD 15 0) (b.getD 10 0)).bind fun τ80 =>
  (m (a.getD 14 0) (b.getD 11 0)).bind fun τ81 =>
  (ck (τ80 + τ81)).bind fun τ82 =>
  (m (a.getD 13 0) (b.getD 12 0)).bind fun τ83 =>
  (ck (τ82 + τ83)).bind fun τ84 =>
  (m (a.getD 12 0) (b.getD 13 0)).bind fun τ85 =>
  (ck (τ84 + τ85)).bind fun τ86 =>
  (m (a.getD 11 0) (b.getD 14 0)).bind fun τ87 =>
  (ck (τ86 + τ87)).bind fun τ88 =>
  (m (a.getD 10 0) (b.getD 15 0)).bind fun τ89 =>
  (ck (τ88 + τ89)).bind fun τ90 =>
  (ck (τ90 + z2)).bind fun τ91 =>
  (ck (z1 + τ91)).bind fun τ92 =>
  let z1 := τ92
  (m (a.getD 7 0) (b.getD 2 0)).bind fun τ93 =>
  (m (a.getD 6 0) (b.getD 3 0)).bind fun τ94 =>
  (ck (τ93 + τ94)).bind fun τ95 =>
  (m (a.getD 5 0) (b.getD 4 0)).bind fun τ96 =>
  (ck (τ95 + τ96)).bind fun τ97 =>
  (m (a.getD 4 0) (b.getD 5 0)).bind fun τ98 =>
  (ck (τ97 + τ98)).bind fun τ99 =>
  (m (a.getD 3 0) (b.getD 6 0)).bind fun τ100 =>
  (ck (τ99 + τ100)).bind fun τ101 =>
  (m (a.getD 2 0) (b.getD 7 0)).bind fun τ102 =>
  (ck (τ101 + τ102)).bind fun τ103 =>
  (ck (τ103 - z2)).bind fun τ104 =>
  (ck (z0 - τ104)).bind fun τ105 =>
  let z0 := τ105
  let c := (c.set 1 (Rt.asU 32 (Rt.andZ w z0 MASK)))
  let c := (c.set 9 (Rt.asU 32 (Rt.andZ w z1 MASK)))
  let z0 := (sarZ z0 28)
  let z1 := (sarZ z1 28)
  some (c, z0, z1, z2)

/-- Part 4 of `mul`: lines 114-131. With any signed type: src/field/u32/karatsuba.rs:114-131 -/
def karatsuba.mul.part4 (ck : ℤ → Option ℤ) (w : ℕ) (a : List ℕ) (b : List ℕ) (MASK : ℤ) (c : List ℕ) (aa : List ℕ) (bb : List ℕ) (z0 : ℤ) (z1 : ℤ) (z2 : ℤ) : Option ((List ℕ) × ℤ × ℤ × ℤ) :=
  let m := fun (a : ℕ) (b : ℕ) =>
  (ck ((a : ℤ) * (b : ℤ))).bind fun τ107 =>
  some τ107
  (m (a.getD 2 0) (b.getD 0 0)).bind fun τ108 =>
  (m (a.getD 1 0) (b.getD 1 0)).bind fun τ109 =>
  (ck (τ108 + τ109)).bind fun τ110 =>
  (m (a.getD 0 0) (b.getD 2 0)).bind fun τ111 =>
  (ck (τ110 + τ111)).bind fun τ112 =>
  let z2 := τ112
  (m (aa.getD 0 0) (bb.getD 2 0)).bind fun τ113 =>
  (m (aa.getD 1 0) (bb.getD 1 0)).bind fun τ114 =>
  (ck (τ113 + τ114)).bind fun τ115 =>
  (m (aa.getD 2 0) (bb.getD 0 0)).bind fun τ116 =>
  (ck (τ115 + τ116)).bind fun τ117 =>
  (ck (τ117 - z2)).bind fun τ118 =>
  (ck (z1 + τ118)).bind fun τ119 =>
  let z1 := τ119
  (m (a.getD 10 0) (b.getD 8 0)).bind fun τ120 =>
  (m (a.getD 9 0) (b.getD 9 0)).bind fun τ121 =>
  (ck (τ120 + τ121)).bind fun τ122 =>
  (m (a.getD 8 0) (b.getD 10 0)).bind fun τ123 =>
  (ck (τ122 + τ123)).bind fun τ124 =>
  (ck (τ124 + z2)).bind fun τ125 =>
  (ck (z0 + τ125)).bind fun τ126 =>
  let z0 := τ126
  (m (aa.getD 7 0) (bb.getD 3 0)).bind fun τ127 =>
  (m (aa.getD 6 0) (bb.getD 4 0)).bind fun τ128 =>
  (ck (τ127 + τ128)).bind fun τ129 =>
  (m (aa.getD 5 0) (bb.getD 5 0)).bind fun τ130 =>
  (ck (τ129 + τ130)).bind fun τ131 =>
  (m (aa.getD 4 0) (bb.getD 6 0)).bind fun τ132 =>
  (ck (τ131 + τ132)).bind fun τ133 =>
  (m (aa.getD 3 0) (bb.getD 7 0)).bind fun τ134 =>
  (ck (τ133 + τ134)).bind fun τ135 =>
  let z2 := τ135
  (m (a.getD 15 0) (b.getD 11 0)).bind fun τ136 =>
  (m (a.getD 14 0) (b.getD 12 0)).bind fun τ137 =>
  (ck (τ136 + τ137)).bind fun τ138 =>
  (m (a.getD 13 0) (b.getD 13 0)).bind fun τ139 =>
  (ck (τ138 + τ139)).bind fun τ140 =>
  (m (a.getD 12 0) (b.getD 14 0)).bind fun τ141 =>
  (ck (τ140 + τ141)).bind fun τ142 =>
  (m (a.getD 11 0) (b.getD 15 0)).bind fun τ143 =>
  (ck (τ142 + τ143)).bind fun τ144 =>
  (ck (τ144 + z2)).bind fun τ145 =>
  (ck (z1 + τ145)).bind fun τ146 =>
  let z1 := τ146
  (m (a.getD 7 0) (b.getD 3 0)).bind fun τ147 =>
  (m (a.getD 6 0) (b.getD 4 0)).bind fun τ148 =>
  (ck (τ147 + τ148)).bind fun τ149 =>
  (m (a.getD 5 0) (b.getD 5 0)).bind fun τ150 =>
  (ck (τ149 + τ150)).bind fun τ151 =>
  (m (a.getD 4 0) (b.getD 6 0)).bind fun τ152 =>
  (ck (τ151 + τ152)).bind fun τ153 =>
  (m (a.getD 3 0) (b.getD 7 0)).bind fun τ154 =>
  (ck (τ153 + τ154)).bind fun τ155 =>
  (ck (τ155 - z2)).bind fun τ156 =>
  (ck (z0 - τ156)).bind fun τ157 =>
  let z0 := τ157
  let c := (c.set 2 (Rt.asU 32 (Rt.andZ w z0 MASK)))
  let c := (c.set 10 (Rt.asU 32 (Rt.andZ w z1 MASK)))
  let z0 := (sarZ z0 28)
  let z1 := (sarZ z1 28)
  some (c, z0, z1, z2)

/-- Part 5 of `mul`: lines 134-146. With any signed type: src/field/u32/karatsuba.rs:134-146 -/
def karatsuba.mul.part5 (ck : ℤ → Option ℤ) (w : ℕ) (a : List ℕ) (b : List ℕ) (MASK : ℤ) (c : List ℕ) (aa : List ℕ) (bb : List ℕ) (z0 : ℤ) (z1 : ℤ) (z2 : ℤ) : Option ((List ℕ) × ℤ × ℤ × ℤ) :=
  let m := fun (a : ℕ) (b : ℕ) =>
  (ck ((a : ℤ) * (b : ℤ))).bind fun τ159 =>
  some τ159
  (m (a.getD 3 0) (b.getD 0 0)).bind fun τ160 =>
  (m (a.getD 2 0) (b.getD 1 0)).bind fun τ161 =>
  (ck (τ160 + τ161)).bind fun τ162 =>
  (m (a.getD 1 0) (b.getD 2 0)).bind fun τ163 =>
  (ck (τ162 + τ163)).bind fun τ164 =>
  (m (a.getD 0 0) (b.getD 3 0)).bind fun τ165 =>
  (ck (τ164 + τ165)).bind fun τ166 =>
  let z2 := τ166
  (m (aa.getD 3 0) (bb.getD 0 0)).bind fun τ167 =>
  (m (aa.getD 2 0) (bb.getD 1 0)).bind fun τ168 =>
  (ck (τ167 + τ168)).bind fun τ169 =>
  (m (aa.getD 1 0) (bb.getD 2 0)).bind fun τ170 =>
  (ck (τ169 + τ170)).bind fun τ171 =>
  (m (aa.getD 0 0) (bb.getD 3 0)).bind fun τ172 =>
  (ck (τ171 + τ172)).bind fun τ173 =>
  (ck (τ173 - z2)).bind fun τ174 =>
  (ck (z1 + τ174)).bind fun τ175 =>
  let z1 := τ175
  (m (a.getD 11 0) (b.getD 8 0)).bind fun τ176 =>
  (m (a.getD 10 0) (b.getD 9 0)).bind fun τ177 =>
  (ck (τ176 + τ177)).bind fun τ178 =>
  (m (a.getD 9 0) (b.getD 10 0)).bind fun τ179 =>
  (ck (τ178 + τ179)).bind fun τ180 =>
  (m (a.getD 8 0) (b.getD 11 0)).bind fun τ181 =>
  (ck (τ180 + τ181)).bind fun τ182 =>
  (ck (τ182 + z2)).bind fun τ183 =>
  (ck (z0 + τ183)).bind fun τ184 =>
  let z0 := τ184
  (m (aa.getD 7 0) (bb.getD 4 0)).bind fun τ185 =>
  (m (aa.getD 6 0) (bb.getD 5 0)).bind fun τ186 =>
  (ck (τ185 + τ186)).bind fun τ187 =>
  (m (aa.getD 5 0) (bb.getD 6 0)).bind fun τ188 =>
  (ck (τ187 + τ188)).bind fun τ189 =>
  (m (aa.getD 4 0) (bb.getD 7 0)).bind fun τ190 =>
  (ck (τ189 + τ190)).bind fun τ191 =>
  let z2 := τ191
  (m (a.getD 7 0) (b.getD 4 0)).bind fun τ192 =>
  (m (a.getD 6 0) (b.getD 5 0)).bind fun τ193 =>
  (ck (τ192 + τ193)).bind fun τ194 =>
  (m (a.getD 5 0) (b.getD 6 0)).bind fun τ195 =>
  (ck (τ194 + τ195)).bind fun τ196 =>
  (m (a.getD 4 0) (b.getD 7 0)).bind fun τ197 =>
  (ck (τ196 + τ197)).bind fun τ198 =>
  (ck (τ198 - z2)).bind fun τ199 =>
  (ck (z0 - τ199)).bind fun τ200 =>
  let z0 := τ200
  (m (a.getD 15 0) (b.getD 12 0)).bind fun τ201 =>
  (m (a.getD 14 0) (b.getD 13 0)).bind fun τ202 =>
  (ck (τ201 + τ202)).bind fun τ203 =>
  (m (a.getD 13 0) (b.getD 14 0)).bind fun τ204 =>
  (ck (τ203 + τ204)).bind fun τ205 =>
  (m (a.getD 12 0) (b.getD 15 0)).bind fun τ206 =>
  (ck (τ205 + τ206)).bind fun τ207 =>
  (ck (τ207 + z2)).bind fun τ208 =>
  (ck (z1 + τ208)).bind fun τ209 =>
  let z1 := τ209
  let c := (c.set 3 (Rt.asU 32 (Rt.andZ w z0 MASK)))
  let c := (c.set 11 (Rt.asU 32 (Rt.andZ w z1 MASK)))
  let z0 := (sarZ z0 28)
  let z1 := (sarZ z1 28)
  some (c, z0, z1, z2)

/-- Part 6 of `mul`: lines 149-162. With any signed type: src/field/u32/karatsuba.rs:149-162 -/
def karatsuba.mul.part6 (ck : ℤ → Option ℤ) (w : ℕ) (a : List ℕ) (b : List ℕ) (MASK : ℤ) (c : List ℕ) (aa : List ℕ) (bb : List ℕ) (z0 : ℤ) (z1 : ℤ) (z2 : ℤ) : Option ((List ℕ) × ℤ × ℤ × ℤ) :=
  let m := fun (a : ℕ) (b : ℕ) =>
  (ck ((a : ℤ) * (b : ℤ))).bind fun τ211 =>
  some τ211
  (m (a.getD 4 0) (b.getD 0 0)).bind fun τ212 =>
  (m (a.getD 3 0) (b.getD 1 0)).bind fun τ213 =>
  (ck (τ212 + τ213)).bind fun τ214 =>
  (m (a.getD 2 0) (b.getD 2 0)).bind fun τ215 =>
  (ck (τ214 + τ215)).bind fun τ216 =>
  (m (a.getD 1 0) (b.getD 3 0)).bind fun τ217 =>
  (ck (τ216 + τ217)).bind fun τ218 =>
  (m (a.getD 0 0) (b.getD 4 0)).bind fun τ219 =>
  (ck (τ218 + τ219)).bind fun τ220 =>
  let z2 := τ220
  (m (aa.getD 4 0) (bb.getD 0 0)).bind fun τ221 =>
  (m (aa.getD 3 0) (bb.getD 1 0)).bind fun τ222 =>
  (ck (τ221 + τ222)).bind fun τ223 =>
  (m (aa.getD 2 0) (bb.getD 2 0)).bind fun τ224 =>
  (ck (τ223 + τ224)).bind fun τ225 =>
  (m (aa.getD 1 0) (bb.getD 3 0)).bind fun τ226 =>
  (ck (τ225 + τ226)).bind fun τ227 =>
  (m (aa.getD 0 0) (bb.getD 4 0)).bind fun τ228 =>
  (ck (τ227 + τ228)).bind fun τ229 =>
  (ck (τ229 - z2)).bind fun τ230 =>
  (ck (z1 + τ230)).bind fun τ231 =>
  let z1 := τ231
  (m (a.getD 12 0) (b.getD 8 0)).bind fun τ232 =>
  (m (a.getD 11 0) (b.getD 9 0)).bind fun τ233 =>
  (ck (τ232 + τ233)).bind fun τ234 =>
  (m (a.getD 10 0) (b.getD 10 0)).bind fun τ235 =>
  (ck (τ234 + τ235)).bind fun τ236 =>
  (m (a.getD 9 0) (b.getD 11 0)).bind fun τ237 =>
  (ck (τ236 + τ237)).bind fun τ238 =>
  (m (a.getD 8 0) (b.getD 12 0)).bind fun τ239 =>
  (ck (τ238 + τ239)).bind fun τ240 =>
  (ck (τ240 + z2)).bind fun τ241 =>
  (ck (z0 + τ241)).bind fun τ242 =>
  let z0 := τ242
  (m (aa.getD 7 0) (bb.getD 5 0)).bind fun τ243 =>
  (m (aa.getD 6 0) (bb.getD 6 0)).bind fun τ244 =>
  (ck (τ243 + τ244)).bind fun τ245 =>
  (m (aa.getD 5 0) (bb.getD 7 0)).bind fun τ246 =>
  (ck (τ245 + τ246)).bind fun τ247 =>
  let z2 := τ247
  (m (a.getD 15 0) (b.getD 13 0)).bind fun τ248 =>
  (m (a.getD 14 0) (b.getD 14 0)).bind fun τ249 =>
  (ck (τ248 + τ249)).bind fun τ250 =>
  (m (a.getD 13 0) (b.getD 15 0)).bind fun τ251 =>
  (ck (τ250 + τ251)).bind fun τ252 =>
  (ck (τ252 + z2)).bind fun τ253 =>
  (ck (z1 + τ253)).bind fun τ254 =>
  let z1 := τ254
  (m (a.getD 7 0) (b.getD 5 0)).bind fun τ255 =>
  (m (a.getD 6 0) (b.getD 6 0)).bind fun τ256 =>
  (ck (τ255 + τ256)).bind fun τ257 =>
  (m (a.getD 5 0) (b.getD 7 0)).bind fun τ258 =>
  (ck (τ257 + τ258)).bind fun τ259 =>
  (ck (τ259 - z2)).bind fun τ260 =>
  (ck (z0 - τ260)).bind fun τ261 =>
  let z0 := τ261
  let c := (c.set 4 (Rt.asU 32 (Rt.andZ w z0 MASK)))
  let c := (c.set 12 (Rt.asU 32 (Rt.andZ w z1 MASK)))
  let z0 := (sarZ z0 28)
  let z1 := (sarZ z1 28)
  some (c, z0, z1, z2)

/-- Part 7 of `mul`: lines 165-193. With any signed type: src/field/u32/karatsuba.rs:165-193 -/
def karatsuba.mul.part7 (ck : ℤ → Option ℤ) (w : ℕ) (a : List ℕ) (b : List ℕ) (MASK : ℤ) (c : List ℕ) (aa : List ℕ) (bb : List ℕ) (z0 : ℤ) (z1 : ℤ) (z2 : ℤ) : Option ((List ℕ) × ℤ × ℤ × ℤ) :=
  let m := fun (a : ℕ) (b : ℕ) =>
  (ck ((a : ℤ) * (b : ℤ))).bind fun τ263 =>
  some τ263
  (m (a.getD 5 0) (b.getD 0 0)).bind fun τ264 =>
  (m (a.getD 4 0) (b.getD 1 0)).bind fun τ265 =>
  (ck (τ264 + τ265)).bind fun τ266 =>
  (m (a.getD 3 0) (b.getD 2 0)).bind fun τ267 =>
  (ck (τ266 + τ267)).bind fun τ268 =>
  (m (a.getD 2 0) (b.getD 3 0)).bind fun τ269 =>
  (ck (τ268 + τ269)).bind fun τ270 =>
  (m (a.getD 1 0) (b.getD 4 0)).bind fun τ271 =>
  (ck (τ270 + τ271)).bind fun τ272 =>
  (m (a.getD 0 0) (b.getD 5 0)).bind fun τ273 =>
  (ck (τ272 + τ273)).bind fun τ274 =>
  let z2 := τ274
  (m (aa.getD 5 0) (bb.getD 0 0)).bind fun τ275 =>
  (m (aa.getD 4 0) (bb.getD 1 0)).bind fun τ276 =>
  (ck (τ275 + τ276)).bind fun τ277 =>
  (m (aa.getD 3 0) (bb.getD 2 0)).bind fun τ278 =>
  (ck (τ277 + τ278)).bind fun τ279 =>
  (m (aa.getD 2 0) (bb.getD 3 0)).bind fun τ280 =>
  (ck (τ279 + τ280)).bind fun τ281 =>
  (m (aa.getD 1 0) (bb.getD 4 0)).bind fun τ282 =>
  (ck (τ281 + τ282)).bind fun τ283 =>
  (m (aa.getD 0 0) (bb.getD 5 0)).bind fun τ284 =>
  (ck (τ283 + τ284)).bind fun τ285 =>
  (ck (τ285 - z2)).bind fun τ286 =>
  (ck (z1 + τ286)).bind fun τ287 =>
  let z1 := τ287
  (m (a.getD 13 0) (b.getD 8 0)).bind fun τ288 =>
  (m (a.getD 12 0) (b.getD 9 0)).bind fun τ289 =>
  (ck (τ288 + τ289)).bind fun τ290 =>
  (m (a.getD 11 0) (b.getD 10 0)).bind fun τ291 =>
  (ck (τ290 + τ291)).bind fun τ292 =>
  (m (a.getD 10 0) (b.getD 11 0)).bind fun τ293 =>
  (ck (τ292 + τ293)).bind fun τ294 =>
  (m (a.getD 9 0) (b.getD 12 0)).bind fun τ295 =>
  (ck (τ294 + τ295)).bind fun τ296 =>
  (m (a.getD 8 0) (b.getD 13 0)).bind fun τ297 =>
  (ck (τ296 + τ297)).bind fun τ298 =>
  (ck (τ298 + z2)).bind fun τ299 =>
  (ck (z0 + τ299)).bind fun τ300 =>
  let z0 := τ300
  (m (aa.getD 7 0) (bb.getD 6 0)).bind fun τ301 =>
  (m (aa.getD 6 0) (bb.getD 7 0)).bind fun τ302 =>
  (ck (τ301 + τ302)).bind fun τ303 =>
  let z2 := τ303
  (m (a.getD 15 0) (b.getD 14 0)).bind fun τ304 =>
  (m (a.getD 14 0) (b.getD 15 0)).bind fun τ305 =>
  (ck (τ304 + τ305)).bind fun τ306 =>
  (ck (τ306 + z2)).bind fun τ307 =>
  (ck (z1 + τ307)).bind fun τ308 =>
  let z1 := τ308
  (m (a.getD 7 0) (b.getD 6 0)).bind fun τ309 =>
  (m (a.getD 6 0) (b.getD 7 0)).bind fun τ310 =>
  (ck (τ309 + τ310)).bind fun τ311 =>
  (ck (τ311 - z2)).bind fun τ312 =>
  (ck (z0 - τ312)).bind fun τ313 =>
  let z0 := τ313
  let c := (c.set 5 (Rt.asU 32 (Rt.andZ w z0 MASK)))
  let c := (c.set 13 (Rt.asU 32 (Rt.andZ w z1 MASK)))
  let z0 := (sarZ z0 28)
  let z1 := (sarZ z1 28)
  some (c, z0, z1, z2)

/-- Part 8 of `mul`: lines 197-229. With any signed type: src/field/u32/karatsuba.rs:197-229 -/
def karatsuba.mul.part8 (ck : ℤ → Option ℤ) (w : ℕ) (a : List ℕ) (b : List ℕ) (MASK : ℤ) (c : List ℕ) (aa : List ℕ) (bb : List ℕ) (z0 : ℤ) (z1 : ℤ) (z2 : ℤ) : Option ((List ℕ) × ℤ × ℤ × ℤ) :=
  let m := fun (a : ℕ) (b : ℕ) =>
  (ck ((a : ℤ) * (b : ℤ))).bind fun τ315 =>
  some τ315
  (m (a.getD 6 0) (b.getD 0 0)).bind fun τ316 =>
  (m (a.getD 5 0) (b.getD 1 0)).bind fun τ317 =>
  (ck (τ316 + τ317)).bind fun τ318 =>
  (m (a.getD 4 0) (b.getD 2 0)).bind fun τ319 =>
  (ck (τ318 + τ319)).bind fun τ320 =>
  (m (a.getD 3 0) (b.getD 3 0)).bind fun τ321 =>
  (ck (τ320 + τ321)).bind fun τ322 =>
  (m (a.getD 2 0) (b.getD 4 0)).bind fun τ323 =>
  (ck (τ322 + τ323)).bind fun τ324 =>
  (m (a.getD 1 0) (b.getD 5 0)).bind fun τ325 =>
  (ck (τ324 + τ325)).bind fun τ326 =>
  (m (a.getD 0 0) (b.getD 6 0)).bind fun τ327 =>
  (ck (τ326 + τ327)).bind fun τ328 =>
  let z2 := τ328
  (m (aa.getD 6 0) (bb.getD 0 0)).bind fun τ329 =>
  (m (aa.getD 5 0) (bb.getD 1 0)).bind fun τ330 =>
  (ck (τ329 + τ330)).bind fun τ331 =>
  (m (aa.getD 4 0) (bb.getD 2 0)).bind fun τ332 =>
  (ck (τ331 + τ332)).bind fun τ333 =>
  (m (aa.getD 3 0) (bb.getD 3 0)).bind fun τ334 =>
  (ck (τ333 + τ334)).bind fun τ335 =>
  (m (aa.getD 2 0) (bb.getD 4 0)).bind fun τ336 =>
  (ck (τ335 + τ336)).bind fun τ337 =>
  (m (aa.getD 1 0) (bb.getD 5 0)).bind fun τ338 =>
  (ck (τ337 + τ338)).bind fun τ339 =>
  (m (aa.getD 0 0) (bb.getD 6 0)).bind fun τ340 =>
  (ck (τ339 + τ340)).bind fun τ341 =>
  (ck (τ341 - z2)).bind fun τ342 =>
  (ck (z1 + τ342)).bind fun τ343 =>
  let z1 := τ343
  (m (a.getD 14 0) (b.getD 8 0)).bind fun τ344 =>
  (m (a.getD 13 0) (b.getD 9 0)).bind fun τ345 =>
  (ck (τ344 + τ345)).bind fun τ346 =>
  (m (a.getD 12 0) (b.getD 10 0)).bind fun τ347 =>
  (ck (τ346 + τ347)).bind fun τ348 =>
  (m (a.getD 11 0) (b.getD 11 0)).bind fun τ349 =>
  (ck (τ348 + τ349)).bind fun τ350 =>
  (m (a.getD 10 0) (b.getD 12 0)).bind fun τ351 =>
  (ck (τ350 + τ351)).bind fun τ352 =>
  (m (a.getD 9 0) (b.getD 13 0)).bind fun τ353 =>
  (ck (τ352 + τ353)).bind fun τ354 =>
  (m (a.getD 8 0) (b.getD 14 0)).bind fun τ355 =>
  (ck (τ354 + τ355)).bind fun τ356 =>
  (ck (τ356 + z2)).bind fun τ357 =>
  (ck (z0 + τ357)).bind fun τ358 =>
  let z0 := τ358
  (m (aa.getD 7 0) (bb.getD 7 0)).bind fun τ359 =>
  let z2 := τ359
  (m (a.getD 15 0) (b.getD 15 0)).bind fun τ360 =>
  (ck (τ360 + z2)).bind fun τ361 =>
  (ck (z1 + τ361)).bind fun τ362 =>
  let z1 := τ362
  (m (a.getD 7 0) (b.getD 7 0)).bind fun τ363 =>
  (ck (τ363 - z2)).bind fun τ364 =>
  (ck (z0 - τ364)).bind fun τ365 =>
  let z0 := τ365
  let c := (c.set 6 (Rt.asU 32 (Rt.andZ w z0 MASK)))
  let c := (c.set 14 (Rt.asU 32 (Rt.andZ w z1 MASK)))
  let z0 := (sarZ z0 28)
  let z1 := (sarZ z1 28)
  some (c, z0, z1, z2)

/-- Part 9 of `mul`: lines 232-267. With any signed type: src/field/u32/karatsuba.rs:232-267 -/
def karatsuba.mul.part9 (ck : ℤ → Option ℤ) (w : ℕ) (a : List ℕ) (b : List ℕ) (MASK : ℤ) (c : List ℕ) (aa : List ℕ) (bb : List ℕ) (z0 : ℤ) (z1 : ℤ) (z2 : ℤ) : Option ((List ℕ) × ℤ × ℤ × ℤ) :=
  let m := fun (a : ℕ) (b : ℕ) =>
  (ck ((a : ℤ) * (b : ℤ))).bind fun τ367 =>
  some τ367
  (m (a.getD 7 0) (b.getD 0 0)).bind fun τ368 =>
  (m (a.getD 6 0) (b.getD 1 0)).bind fun τ369 =>
  (ck (τ368 + τ369)).bind fun τ370 =>
  (m (a.getD 5 0) (b.getD 2 0)).bind fun τ371 =>
  (ck (τ370 + τ371)).bind fun τ372 =>
  (m (a.getD 4 0) (b.getD 3 0)).bind fun τ373 =>
  (ck (τ372 + τ373)).bind fun τ374 =>
  (m (a.getD 3 0) (b.getD 4 0)).bind fun τ375 =>
  (ck (τ374 + τ375)).bind fun τ376 =>
  (m (a.getD 2 0) (b.getD 5 0)).bind fun τ377 =>
  (ck (τ376 + τ377)).bind fun τ378 =>
  (m (a.getD 1 0) (b.getD 6 0)).bind fun τ379 =>
  (ck (τ378 + τ379)).bind fun τ380 =>
  (m (a.getD 0 0) (b.getD 7 0)).bind fun τ381 =>
  (ck (τ380 + τ381)).bind fun τ382 =>
  let z2 := τ382
  (m (aa.getD 7 0) (bb.getD 0 0)).bind fun τ383 =>
  (m (aa.getD 6 0) (bb.getD 1 0)).bind fun τ384 =>
  (ck (τ383 + τ384)).bind fun τ385 =>
  (m (aa.getD 5 0) (bb.getD 2 0)).bind fun τ386 =>
  (ck (τ385 + τ386)).bind fun τ387 =>
  (m (aa.getD 4 0) (bb.getD 3 0)).bind fun τ388 =>
  (ck (τ387 + τ388)).bind fun τ389 =>
  (m (aa.getD 3 0) (bb.getD 4 0)).bind fun τ390 =>
  (ck (τ389 + τ390)).bind fun τ391 =>
  (m (aa.getD 2 0) (bb.getD 5 0)).bind fun τ392 =>
  (ck (τ391 + τ392)).bind fun τ393 =>
  (m (aa.getD 1 0) (bb.getD 6 0)).bind fun τ394 =>
  (ck (τ393 + τ394)).bind fun τ395 =>
  (m (aa.getD 0 0) (bb.getD 7 0)).bind fun τ396 =>
  (ck (τ395 + τ396)).bind fun τ397 =>
  (ck (τ397 - z2)).bind fun τ398 =>
  (ck (z1 + τ398)).bind fun τ399 =>
  let z1 := τ399
  (m (a.getD 15 0) (b.getD 8 0)).bind fun τ400 =>
  (m (a.getD 14 0) (b.getD 9 0)).bind fun τ401 =>
  (ck (τ400 + τ401)).bind fun τ402 =>
  (m (a.getD 13 0) (b.getD 10 0)).bind fun τ403 =>
  (ck (τ402 + τ403)).bind fun τ404 =>
  (m (a.getD 12 0) (b.getD 11 0)).bind fun τ405 =>
  (ck (τ404 + τ405)).bind fun τ406 =>
  (m (a.getD 11 0) (b.getD 12 0)).bind fun τ407 =>
  (ck (τ406 + τ407)).bind fun τ408 =>
  (m (a.getD 10 0) (b.getD 13 0)).bind fun τ409 =>
  (ck (τ408 + τ409)).bind fun τ410 =>
  (m (a.getD 9 0) (b.getD 14 0)).bind fun τ411 =>
  (ck (τ410 + τ411)).bind fun τ412 =>
  (m (a.getD 8 0) (b.getD 15 0)).bind fun τ413 =>
  (ck (τ412 + τ413)).bind fun τ414 =>
  (ck (τ414 + z2)).bind fun τ415 =>
  (ck (z0 + τ415)).bind fun τ416 =>
  let z0 := τ416
  let z2 := (0 : ℤ)
  (ck (z1 + z2)).bind fun τ417 =>
  let z1 := τ417
  (ck (z0 + z2)).bind fun τ418 =>
  let z0 := τ418
  let c := (c.set 7 (Rt.asU 32 (Rt.andZ w z0 MASK)))
  let c := (c.set 15 (Rt.asU 32 (Rt.andZ w z1 MASK)))
  let z0 := (sarZ z0 28)
  let z1 := (sarZ z1 28)
  some (c, z0, z1, z2)

/-- Translation of `mul`. With any signed type: src/field/u32/karatsuba.rs:17-284 -/
def karatsuba.mul (ck : ℤ → Option ℤ) (w : ℕ) (a : List ℕ) (b : List ℕ) : Option (List ℕ) :=
  let τ3 := karatsuba.mul.part1 ck w a b
  let MASK : ℤ := τ3.1
  let c : List ℕ := τ3.2.1
  let aa : List ℕ := τ3.2.2.1
  let bb : List ℕ := τ3.2.2.2.1
  let z0 : ℤ := τ3.2.2.2.2.1
  let z1 : ℤ := τ3.2.2.2.2.2.1
  let z2 : ℤ := τ3.2.2.2.2.2.2
  (karatsuba.mul.part2 ck w a b MASK c aa bb z0 z1 z2).bind fun τ54 =>
  let c : List ℕ := τ54.1
  let z0 : ℤ := τ54.2.1
  let z1 : ℤ := τ54.2.2.1
  let z2 : ℤ := τ54.2.2.2
  (karatsuba.mul.part3 ck w a b MASK c aa bb z0 z1 z2).bind fun τ106 =>
  let c : List ℕ := τ106.1
  let z0 : ℤ := τ106.2.1
  let z1 : ℤ := τ106.2.2.1
  let z2 : ℤ := τ106.2.2.2
  (karatsuba.mul.part4 ck w a b MASK c aa bb z0 z1 z2).bind fun τ158 =>
  let c : List ℕ := τ158.1
  let z0 : ℤ := τ158.2.1
  let z1 : ℤ := τ158.2.2.1
  let z2 : ℤ := τ158.2.2.2
  (karatsuba.mul.part5 ck w a b MASK c aa bb z0 z1 z2).bind fun τ210 =>
  let c : List ℕ := τ210.1
  let z0 : ℤ := τ210.2.1
  let z1 : ℤ := τ210.2.2.1
  let z2 : ℤ := τ210.2.2.2
  (karatsuba.mul.part6 ck w a b MASK c aa bb z0 z1 z2).bind fun τ262 =>
  let c : List ℕ := τ262.1
  let z0 : ℤ := τ262.2.1
  let z1 : ℤ := τ262.2.2.1
  let z2 : ℤ := τ262.2.2.2
  (karatsuba.mul.part7 ck w a b MASK c aa bb z0 z1 z2).bind fun τ314 =>
  let c : List ℕ := τ314.1
  let z0 : ℤ := τ314.2.1
  let z1 : ℤ := τ314.2.2.1
  let z2 : ℤ := τ314.2.2.2
  (karatsuba.mul.part8 ck w a b MASK c aa bb z0 z1 z2).bind fun τ366 =>
  let c : List ℕ := τ366.1
  let z0 : ℤ := τ366.2.1
  let z1 : ℤ := τ366.2.2.1
  let z2 : ℤ := τ366.2.2.2
  (karatsuba.mul.part9 ck w a b MASK c aa bb z0 z1 z2).bind fun τ419 =>
  let c : List ℕ := τ419.1
  let z0 : ℤ := τ419.2.1
  let z1 : ℤ := τ419.2.2.1
  let z2 : ℤ := τ419.2.2.2
  let m := fun (a : ℕ) (b : ℕ) =>
  (ck ((a : ℤ) * (b : ℤ))).bind fun τ420 =>
  some τ420
  (ck (z1 + ((c.getD 8 0) : ℤ))).bind fun τ421 =>
  (ck (z0 + τ421)).bind fun τ422 =>
  let z0 := τ422
  (ck (z1 + ((c.getD 0 0) : ℤ))).bind fun τ423 =>
  let z1 := τ423
  let c := (c.set 8 (Rt.asU 32 (Rt.andZ w z0 MASK)))
  let c := (c.set 0 (Rt.asU 32 (Rt.andZ w z1 MASK)))
  let z0 := (sarZ z0 28)
  let z1 := (sarZ z1 28)
  (ckU32 ((c.getD 9 0) + (Rt.asU 32 (Rt.andZ w z0 MASK)))).bind fun τ424 =>
  let c := (c.set 9 τ424)
  (ckU32 ((c.getD 1 0) + (Rt.asU 32 (Rt.andZ w z1 MASK)))).bind fun τ425 =>
  let c := (c.set 1 τ425)
  some c

end Ed448.Gen.Wide
