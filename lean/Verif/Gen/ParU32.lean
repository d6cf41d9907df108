import Verif.Gen.Ops
import Verif.Gen.U32
/-!
# Mechanical translation of src/field/u32 with a parameter for the arithmetic

Generated by tools/rust2lean.py; do not edit. Each definition is the translation of the cited Rust
function in a release build, with the arithmetic as a parameter; see `Verif.Gen.Ops`.
-/

set_option linter.all false

namespace Ed448.Par
open Ed448.Model FieldBackend


/-- Part 1 of `mul`: lines 18-44. /repo/src/field/u32/karatsuba.rs:18-44 -/
def karatsuba.mul.part1 (o : Ops) (a : List ℕ) (b : List ℕ) : ℤ × (List ℕ) × (List ℕ) × (List ℕ) × ℤ × ℤ × ℤ :=
  let MASK : ℤ := (268435455 : ℤ)
  let c : List ℕ := Gen.FieldElement28.zero
  let aa : List ℕ := ([(o.waddU 32 (a.getD 0 0) (a.getD 8 0)), (o.waddU 32 (a.getD 1 0) (a.getD 9 0)), (o.waddU 32 (a.getD 2 0) (a.getD 10 0)), (o.waddU 32 (a.getD 3 0) (a.getD 11 0)), (o.waddU 32 (a.getD 4 0) (a.getD 12 0)), (o.waddU 32 (a.getD 5 0) (a.getD 13 0)), (o.waddU 32 (a.getD 6 0) (a.getD 14 0)), (o.waddU 32 (a.getD 7 0) (a.getD 15 0))] : List ℕ)
  let bb : List ℕ := ([(o.waddU 32 (b.getD 0 0) (b.getD 8 0)), (o.waddU 32 (b.getD 1 0) (b.getD 9 0)), (o.waddU 32 (b.getD 2 0) (b.getD 10 0)), (o.waddU 32 (b.getD 3 0) (b.getD 11 0)), (o.waddU 32 (b.getD 4 0) (b.getD 12 0)), (o.waddU 32 (b.getD 5 0) (b.getD 13 0)), (o.waddU 32 (b.getD 6 0) (b.getD 14 0)), (o.waddU 32 (b.getD 7 0) (b.getD 15 0))] : List ℕ)
  let m := fun (a : ℕ) (b : ℕ) =>
  (some (o.mulI 128 (o.ext a) (o.ext b))).bind fun τ1 =>
  some τ1
  let τ2 := ((0 : ℤ), (0 : ℤ), (0 : ℤ))
  let z0 : ℤ := τ2.1
  let z1 : ℤ := τ2.2.1
  let z2 : ℤ := τ2.2.2
  (MASK, c, aa, bb, z0, z1, z2)

/-- Part 2 of `mul`: lines 47-79. /repo/src/field/u32/karatsuba.rs:47-79 -/
def karatsuba.mul.part2 (o : Ops) (a : List ℕ) (b : List ℕ) (MASK : ℤ) (c : List ℕ) (aa : List ℕ) (bb : List ℕ) (z0 : ℤ) (z1 : ℤ) (z2 : ℤ) : Option ((List ℕ) × ℤ × ℤ × ℤ) :=
  let m := fun (a : ℕ) (b : ℕ) =>
  (some (o.mulI 128 (o.ext a) (o.ext b))).bind fun τ4 =>
  some τ4
  (m (a.getD 0 0) (b.getD 0 0)).bind fun τ5 =>
  let z2 := τ5
  (m (aa.getD 0 0) (bb.getD 0 0)).bind fun τ6 =>
  (some (o.subI 128 τ6 z2)).bind fun τ7 =>
  let z1 := τ7
  (m (a.getD 8 0) (b.getD 8 0)).bind fun τ8 =>
  (some (o.addI 128 τ8 z2)).bind fun τ9 =>
  (some (o.addI 128 z0 τ9)).bind fun τ10 =>
  let z0 := τ10
  (m (aa.getD 7 0) (bb.getD 1 0)).bind fun τ11 =>
  (m (aa.getD 6 0) (bb.getD 2 0)).bind fun τ12 =>
  (some (o.addI 128 τ11 τ12)).bind fun τ13 =>
  (m (aa.getD 5 0) (bb.getD 3 0)).bind fun τ14 =>
  (some (o.addI 128 τ13 τ14)).bind fun τ15 =>
  (m (aa.getD 4 0) (bb.getD 4 0)).bind fun τ16 =>
  (some (o.addI 128 τ15 τ16)).bind fun τ17 =>
  (m (aa.getD 3 0) (bb.getD 5 0)).bind fun τ18 =>
  (some (o.addI 128 τ17 τ18)).bind fun τ19 =>
  (m (aa.getD 2 0) (bb.getD 6 0)).bind fun τ20 =>
  (some (o.addI 128 τ19 τ20)).bind fun τ21 =>
  (m (aa.getD 1 0) (bb.getD 7 0)).bind fun τ22 =>
  (some (o.addI 128 τ21 τ22)).bind fun τ23 =>
  let z2 := τ23
  (m (a.getD 15 0) (b.getD 9 0)).bind fun τ24 =>
  (m (a.getD 14 0) (b.getD 10 0)).bind fun τ25 =>
  (some (o.addI 128 τ24 τ25)).bind fun τ26 =>
  (m (a.getD 13 0) (b.getD 11 0)).bind fun τ27 =>
  (some (o.addI 128 τ26 τ27)).bind fun τ28 =>
  (m (a.getD 12 0) (b.getD 12 0)).bind fun τ29 =>
  (some (o.addI 128 τ28 τ29)).bind fun τ30 =>
  (m (a.getD 11 0) (b.getD 13 0)).bind fun τ31 =>
  (some (o.addI 128 τ30 τ31)).bind fun τ32 =>
  (m (a.getD 10 0) (b.getD 14 0)).bind fun τ33 =>
  (some (o.addI 128 τ32 τ33)).bind fun τ34 =>
  (m (a.getD 9 0) (b.getD 15 0)).bind fun τ35 =>
  (some (o.addI 128 τ34 τ35)).bind fun τ36 =>
  (some (o.addI 128 τ36 z2)).bind fun τ37 =>
  (some (o.addI 128 z1 τ37)).bind fun τ38 =>
  let z1 := τ38
  (m (a.getD 7 0) (b.getD 1 0)).bind fun τ39 =>
  (m (a.getD 6 0) (b.getD 2 0)).bind fun τ40 =>
  (some (o.addI 128 τ39 τ40)).bind fun τ41 =>
  (m (a.getD 5 0) (b.getD 3 0)).bind fun τ42 =>
  (some (o.addI 128 τ41 τ42)).bind fun τ43 =>
  (m (a.getD 4 0) (b.getD 4 0)).bind fun τ44 =>
  (some (o.addI 128 τ43 τ44)).bind fun τ45 =>
  (m (a.getD 3 0) (b.getD 5 0)).bind fun τ46 =>
  (some (o.addI 128 τ45 τ46)).bind fun τ47 =>
  (m (a.getD 2 0) (b.getD 6 0)).bind fun τ48 =>
  (some (o.addI 128 τ47 τ48)).bind fun τ49 =>
  (m (a.getD 1 0) (b.getD 7 0)).bind fun τ50 =>
  (some (o.addI 128 τ49 τ50)).bind fun τ51 =>
  (some (o.subI 128 τ51 z2)).bind fun τ52 =>
  (some (o.subI 128 z0 τ52)).bind fun τ53 =>
  let z0 := τ53
  let c := (c.set 0 (o.asU 32 (o.andI 128 z0 MASK)))
  let c := (c.set 8 (o.asU 32 (o.andI 128 z1 MASK)))
  let z0 := (o.shrI z0 28)
  let z1 := (o.shrI z1 28)
  some (c, z0, z1, z2)

/-- Part 3 of `mul`: lines 82-111. /repo/src/field/u32/karatsuba.rs:82-111 -/
def karatsuba.mul.part3 (o : Ops) (a : List ℕ) (b : List ℕ) (MASK : ℤ) (c : List ℕ) (aa : List ℕ) (bb : List ℕ) (z0 : ℤ) (z1 : ℤ) (z2 : ℤ) : Option ((List ℕ) × ℤ × ℤ × ℤ) :=
  let m := fun (a : ℕ) (b : ℕ) =>
  (some (o.mulI 128 (o.ext a) (o.ext b))).bind fun τ55 =>
  some τ55
  (m (a.getD 1 0) (b.getD 0 0)).bind fun τ56 =>
  (m (a.getD 0 0) (b.getD 1 0)).bind fun τ57 =>
  (some (o.addI 128 τ56 τ57)).bind fun τ58 =>
  let z2 := τ58
  (m (aa.getD 1 0) (bb.getD 0 0)).bind fun τ59 =>
  (m (aa.getD 0 0) (bb.getD 1 0)).bind fun τ60 =>
  (some (o.addI 128 τ59 τ60)).bind fun τ61 =>
  (some (o.subI 128 τ61 z2)).bind fun τ62 =>
  (some (o.addI 128 z1 τ62)).bind fun τ63 =>
  let z1 := τ63
  (m (a.getD 9 0) (b.getD 8 0)).bind fun τ64 =>
  (m (a.getD 8 0) (b.getD 9 0)).bind fun τ65 =>
  (some (o.addI 128 τ64 τ65)).bind fun τ66 =>
  (some (o.addI 128 τ66 z2)).bind fun τ67 =>
  (some (o.addI 128 z0 τ67)).bind fun τ68 =>
  let z0 := τ68
  (m (aa.getD 7 0) (bb.getD 2 0)).bind fun τ69 =>
  (m (aa.getD 6 0) (bb.getD 3 0)).bind fun τ70 =>
  (some (o.addI 128 τ69 τ70)).bind fun τ71 =>
  (m (aa.getD 5 0) (bb.getD 4 0)).bind fun τ72 =>
  (some (o.addI 128 τ71 τ72)).bind fun τ73 =>
  (m (aa.getD 4 0) (bb.getD 5 0)).bind fun τ74 =>
  (some (o.addI 128 τ73 τ74)).bind fun τ75 =>
  (m (aa.getD 3 0) (bb.getD 6 0)).bind fun τ76 =>
  (some (o.addI 128 τ75 τ76)).bind fun τ77 =>
  (m (aa.getD 2 0) (bb.getD 7 0)).bind fun τ78 =>
  (some (o.addI 128 τ77 τ78)).bind fun τ79 =>
  let z2 := τ79
  (m (a.getD 15 0) (b.getD 10 0)).bind fun τ80 =>
  (m (a.getD 14 0) (b.getD 11 0)).bind fun τ81 =>
  (some (o.addI 128 τ80 τ81)).bind fun τ82 =>
  (m (a.getD 13 0) (b.getD 12 0)).bind fun τ83 =>
  (some (o.addI 128 τ82 τ83)).bind fun τ84 =>
  (m (a.getD 12 0) (b.getD 13 0)).bind fun τ85 =>
  (some (o.addI 128 τ84 τ85)).bind fun τ86 =>
  (m (a.getD 11 0) (b.getD 14 0)).bind fun τ87 =>
  (some (o.addI 128 τ86 τ87)).bind fun τ88 =>
  (m (a.getD 10 0) (b.getD 15 0)).bind fun τ89 =>
  (some (o.addI 128 τ88 τ89)).bind fun τ90 =>
  (some (o.addI 128 τ90 z2)).bind fun τ91 =>
  (some (o.addI 128 z1 τ91)).bind fun τ92 =>
  let z1 := τ92
  (m (a.getD 7 0) (b.getD 2 0)).bind fun τ93 =>
  (m (a.getD 6 0) (b.getD 3 0)).bind fun τ94 =>
  (some (o.addI 128 τ93 τ94)).bind fun τ95 =>
  (m (a.getD 5 0) (b.getD 4 0)).bind fun τ96 =>
  (some (o.addI 128 τ95 τ96)).bind fun τ97 =>
  (m (a.getD 4 0) (b.getD 5 0)).bind fun τ98 =>
  (some (o.addI 128 τ97 τ98)).bind fun τ99 =>
  (m (a.getD 3 0) (b.getD 6 0)).bind fun τ100 =>
  (some (o.addI 128 τ99 τ100)).bind fun τ101 =>
  (m (a.getD 2 0) (b.getD 7 0)).bind fun τ102 =>
  (some (o.addI 128 τ101 τ102)).bind fun τ103 =>
  (some (o.subI 128 τ103 z2)).bind fun τ104 =>
  (some (o.subI 128 z0 τ104)).bind fun τ105 =>
  let z0 := τ105
  let c := (c.set 1 (o.asU 32 (o.andI 128 z0 MASK)))
  let c := (c.set 9 (o.asU 32 (o.andI 128 z1 MASK)))
  let z0 := (o.shrI z0 28)
  let z1 := (o.shrI z1 28)
  some (c, z0, z1, z2)

/-- Part 4 of `mul`: lines 114-131. /repo/src/field/u32/karatsuba.rs:114-131 -/
def karatsuba.mul.part4 (o : Ops) (a : List ℕ) (b : List ℕ) (MASK : ℤ) (c : List ℕ) (aa : List ℕ) (bb : List ℕ) (z0 : ℤ) (z1 : ℤ) (z2 : ℤ) : Option ((List ℕ) × ℤ × ℤ × ℤ) :=
  let m := fun (a : ℕ) (b : ℕ) =>
  (some (o.mulI 128 (o.ext a) (o.ext b))).bind fun τ107 =>
  some τ107
  (m (a.getD 2 0) (b.getD 0 0)).bind fun τ108 =>
  (m (a.getD 1 0) (b.getD 1 0)).bind fun τ109 =>
  (some (o.addI 128 τ108 τ109)).bind fun τ110 =>
  (m (a.getD 0 0) (b.getD 2 0)).bind fun τ111 =>
  (some (o.addI 128 τ110 τ111)).bind fun τ112 =>
  let z2 := τ112
  (m (aa.getD 0 0) (bb.getD 2 0)).bind fun τ113 =>
  (m (aa.getD 1 0) (bb.getD 1 0)).bind fun τ114 =>
  (some (o.addI 128 τ113 τ114)).bind fun τ115 =>
  (m (aa.getD 2 0) (bb.getD 0 0)).bind fun τ116 =>
  (some (o.addI 128 τ115 τ116)).bind fun τ117 =>
  (some (o.subI 128 τ117 z2)).bind fun τ118 =>
  (some (o.addI 128 z1 τ118)).bind fun τ119 =>
  let z1 := τ119
  (m (a.getD 10 0) (b.getD 8 0)).bind fun τ120 =>
  (m (a.getD 9 0) (b.getD 9 0)).bind fun τ121 =>
  (some (o.addI 128 τ120 τ121)).bind fun τ122 =>
  (m (a.getD 8 0) (b.getD 10 0)).bind fun τ123 =>
  (some (o.addI 128 τ122 τ123)).bind fun τ124 =>
  (some (o.addI 128 τ124 z2)).bind fun τ125 =>
  (some (o.addI 128 z0 τ125)).bind fun τ126 =>
  let z0 := τ126
  (m (aa.getD 7 0) (bb.getD 3 0)).bind fun τ127 =>
  (m (aa.getD 6 0) (bb.getD 4 0)).bind fun τ128 =>
  (some (o.addI 128 τ127 τ128)).bind fun τ129 =>
  (m (aa.getD 5 0) (bb.getD 5 0)).bind fun τ130 =>
  (some (o.addI 128 τ129 τ130)).bind fun τ131 =>
  (m (aa.getD 4 0) (bb.getD 6 0)).bind fun τ132 =>
  (some (o.addI 128 τ131 τ132)).bind fun τ133 =>
  (m (aa.getD 3 0) (bb.getD 7 0)).bind fun τ134 =>
  (some (o.addI 128 τ133 τ134)).bind fun τ135 =>
  let z2 := τ135
  (m (a.getD 15 0) (b.getD 11 0)).bind fun τ136 =>
  (m (a.getD 14 0) (b.getD 12 0)).bind fun τ137 =>
  (some (o.addI 128 τ136 τ137)).bind fun τ138 =>
  (m (a.getD 13 0) (b.getD 13 0)).bind fun τ139 =>
  (some (o.addI 128 τ138 τ139)).bind fun τ140 =>
  (m (a.getD 12 0) (b.getD 14 0)).bind fun τ141 =>
  (some (o.addI 128 τ140 τ141)).bind fun τ142 =>
  (m (a.getD 11 0) (b.getD 15 0)).bind fun τ143 =>
  (some (o.addI 128 τ142 τ143)).bind fun τ144 =>
  (some (o.addI 128 τ144 z2)).bind fun τ145 =>
  (some (o.addI 128 z1 τ145)).bind fun τ146 =>
  let z1 := τ146
  (m (a.getD 7 0) (b.getD 3 0)).bind fun τ147 =>
  (m (a.getD 6 0) (b.getD 4 0)).bind fun τ148 =>
  (some (o.addI 128 τ147 τ148)).bind fun τ149 =>
  (m (a.getD 5 0) (b.getD 5 0)).bind fun τ150 =>
  (some (o.addI 128 τ149 τ150)).bind fun τ151 =>
  (m (a.getD 4 0) (b.getD 6 0)).bind fun τ152 =>
  (some (o.addI 128 τ151 τ152)).bind fun τ153 =>
  (m (a.getD 3 0) (b.getD 7 0)).bind fun τ154 =>
  (some (o.addI 128 τ153 τ154)).bind fun τ155 =>
  (some (o.subI 128 τ155 z2)).bind fun τ156 =>
  (some (o.subI 128 z0 τ156)).bind fun τ157 =>
  let z0 := τ157
  let c := (c.set 2 (o.asU 32 (o.andI 128 z0 MASK)))
  let c := (c.set 10 (o.asU 32 (o.andI 128 z1 MASK)))
  let z0 := (o.shrI z0 28)
  let z1 := (o.shrI z1 28)
  some (c, z0, z1, z2)

/-- Part 5 of `mul`: lines 134-146. /repo/src/field/u32/karatsuba.rs:134-146 -/
def karatsuba.mul.part5 (o : Ops) (a : List ℕ) (b : List ℕ) (MASK : ℤ) (c : List ℕ) (aa : List ℕ) (bb : List ℕ) (z0 : ℤ) (z1 : ℤ) (z2 : ℤ) : Option ((List ℕ) × ℤ × ℤ × ℤ) :=
  let m := fun (a : ℕ) (b : ℕ) =>
  (some (o.mulI 128 (o.ext a) (o.ext b))).bind fun τ159 =>
  some τ159
  (m (a.getD 3 0) (b.getD 0 0)).bind fun τ160 =>
  (m (a.getD 2 0) (b.getD 1 0)).bind fun τ161 =>
  (some (o.addI 128 τ160 τ161)).bind fun τ162 =>
  (m (a.getD 1 0) (b.getD 2 0)).bind fun τ163 =>
  (some (o.addI 128 τ162 τ163)).bind fun τ164 =>
  (m (a.getD 0 0) (b.getD 3 0)).bind fun τ165 =>
  (some (o.addI 128 τ164 τ165)).bind fun τ166 =>
  let z2 := τ166
  (m (aa.getD 3 0) (bb.getD 0 0)).bind fun τ167 =>
  (m (aa.getD 2 0) (bb.getD 1 0)).bind fun τ168 =>
  (some (o.addI 128 τ167 τ168)).bind fun τ169 =>
  (m (aa.getD 1 0) (bb.getD 2 0)).bind fun τ170 =>
  (some (o.addI 128 τ169 τ170)).bind fun τ171 =>
  (m (aa.getD 0 0) (bb.getD 3 0)).bind fun τ172 =>
  (some (o.addI 128 τ171 τ172)).bind fun τ173 =>
  (some (o.subI 128 τ173 z2)).bind fun τ174 =>
  (some (o.addI 128 z1 τ174)).bind fun τ175 =>
  let z1 := τ175
  (m (a.getD 11 0) (b.getD 8 0)).bind fun τ176 =>
  (m (a.getD 10 0) (b.getD 9 0)).bind fun τ177 =>
  (some (o.addI 128 τ176 τ177)).bind fun τ178 =>
  (m (a.getD 9 0) (b.getD 10 0)).bind fun τ179 =>
  (some (o.addI 128 τ178 τ179)).bind fun τ180 =>
  (m (a.getD 8 0) (b.getD 11 0)).bind fun τ181 =>
  (some (o.addI 128 τ180 τ181)).bind fun τ182 =>
  (some (o.addI 128 τ182 z2)).bind fun τ183 =>
  (some (o.addI 128 z0 τ183)).bind fun τ184 =>
  let z0 := τ184
  (m (aa.getD 7 0) (bb.getD 4 0)).bind fun τ185 =>
  (m (aa.getD 6 0) (bb.getD 5 0)).bind fun τ186 =>
  (some (o.addI 128 τ185 τ186)).bind fun τ187 =>
  (m (aa.getD 5 0) (bb.getD 6 0)).bind fun τ188 =>
  (some (o.addI 128 τ187 τ188)).bind fun τ189 =>
  (m (aa.getD 4 0) (bb.getD 7 0)).bind fun τ190 =>
  (some (o.addI 128 τ189 τ190)).bind fun τ191 =>
  let z2 := τ191
  (m (a.getD 7 0) (b.getD 4 0)).bind fun τ192 =>
  (m (a.getD 6 0) (b.getD 5 0)).bind fun τ193 =>
  (some (o.addI 128 τ192 τ193)).bind fun τ194 =>
  (m (a.getD 5 0) (b.getD 6 0)).bind fun τ195 =>
  (some (o.addI 128 τ194 τ195)).bind fun τ196 =>
  (m (a.getD 4 0) (b.getD 7 0)).bind fun τ197 =>
  (some (o.addI 128 τ196 τ197)).bind fun τ198 =>
  (some (o.subI 128 τ198 z2)).bind fun τ199 =>
  (some (o.subI 128 z0 τ199)).bind fun τ200 =>
  let z0 := τ200
  (m (a.getD 15 0) (b.getD 12 0)).bind fun τ201 =>
  (m (a.getD 14 0) (b.getD 13 0)).bind fun τ202 =>
  (some (o.addI 128 τ201 τ202)).bind fun τ203 =>
  (m (a.getD 13 0) (b.getD 14 0)).bind fun τ204 =>
  (some (o.addI 128 τ203 τ204)).bind fun τ205 =>
  (m (a.getD 12 0) (b.getD 15 0)).bind fun τ206 =>
  (some (o.addI 128 τ205 τ206)).bind fun τ207 =>
  (some (o.addI 128 τ207 z2)).bind fun τ208 =>
  (some (o.addI 128 z1 τ208)).bind fun τ209 =>
  let z1 := τ209
  let c := (c.set 3 (o.asU 32 (o.andI 128 z0 MASK)))
  let c := (c.set 11 (o.asU 32 (o.andI 128 z1 MASK)))
  let z0 := (o.shrI z0 28)
  let z1 := (o.shrI z1 28)
  some (c, z0, z1, z2)

/-- Part 6 of `mul`: lines 149-162. /repo/src/field/u32/karatsuba.rs:149-162 -/
def karatsuba.mul.part6 (o : Ops) (a : List ℕ) (b : List ℕ) (MASK : ℤ) (c : List ℕ) (aa : List ℕ) (bb : List ℕ) (z0 : ℤ) (z1 : ℤ) (z2 : ℤ) : Option ((List ℕ) × ℤ × ℤ × ℤ) :=
  let m := fun (a : ℕ) (b : ℕ) =>
  (some (o.mulI 128 (o.ext a) (o.ext b))).bind fun τ211 =>
  some τ211
  (m (a.getD 4 0) (b.getD 0 0)).bind fun τ212 =>
  (m (a.getD 3 0) (b.getD 1 0)).bind fun τ213 =>
  (some (o.addI 128 τ212 τ213)).bind fun τ214 =>
  (m (a.getD 2 0) (b.getD 2 0)).bind fun τ215 =>
  (some (o.addI 128 τ214 τ215)).bind fun τ216 =>
  (m (a.getD 1 0) (b.getD 3 0)).bind fun τ217 =>
  (some (o.addI 128 τ216 τ217)).bind fun τ218 =>
  (m (a.getD 0 0) (b.getD 4 0)).bind fun τ219 =>
  (some (o.addI 128 τ218 τ219)).bind fun τ220 =>
  let z2 := τ220
  (m (aa.getD 4 0) (bb.getD 0 0)).bind fun τ221 =>
  (m (aa.getD 3 0) (bb.getD 1 0)).bind fun τ222 =>
  (some (o.addI 128 τ221 τ222)).bind fun τ223 =>
  (m (aa.getD 2 0) (bb.getD 2 0)).bind fun τ224 =>
  (some (o.addI 128 τ223 τ224)).bind fun τ225 =>
  (m (aa.getD 1 0) (bb.getD 3 0)).bind fun τ226 =>
  (some (o.addI 128 τ225 τ226)).bind fun τ227 =>
  (m (aa.getD 0 0) (bb.getD 4 0)).bind fun τ228 =>
  (some (o.addI 128 τ227 τ228)).bind fun τ229 =>
  (some (o.subI 128 τ229 z2)).bind fun τ230 =>
  (some (o.addI 128 z1 τ230)).bind fun τ231 =>
  let z1 := τ231
  (m (a.getD 12 0) (b.getD 8 0)).bind fun τ232 =>
  (m (a.getD 11 0) (b.getD 9 0)).bind fun τ233 =>
  (some (o.addI 128 τ232 τ233)).bind fun τ234 =>
  (m (a.getD 10 0) (b.getD 10 0)).bind fun τ235 =>
  (some (o.addI 128 τ234 τ235)).bind fun τ236 =>
  (m (a.getD 9 0) (b.getD 11 0)).bind fun τ237 =>
  (some (o.addI 128 τ236 τ237)).bind fun τ238 =>
  (m (a.getD 8 0) (b.getD 12 0)).bind fun τ239 =>
  (some (o.addI 128 τ238 τ239)).bind fun τ240 =>
  (some (o.addI 128 τ240 z2)).bind fun τ241 =>
  (some (o.addI 128 z0 τ241)).bind fun τ242 =>
  let z0 := τ242
  (m (aa.getD 7 0) (bb.getD 5 0)).bind fun τ243 =>
  (m (aa.getD 6 0) (bb.getD 6 0)).bind fun τ244 =>
  (some (o.addI 128 τ243 τ244)).bind fun τ245 =>
  (m (aa.getD 5 0) (bb.getD 7 0)).bind fun τ246 =>
  (some (o.addI 128 τ245 τ246)).bind fun τ247 =>
  let z2 := τ247
  (m (a.getD 15 0) (b.getD 13 0)).bind fun τ248 =>
  (m (a.getD 14 0) (b.getD 14 0)).bind fun τ249 =>
  (some (o.addI 128 τ248 τ249)).bind fun τ250 =>
  (m (a.getD 13 0) (b.getD 15 0)).bind fun τ251 =>
  (some (o.addI 128 τ250 τ251)).bind fun τ252 =>
  (some (o.addI 128 τ252 z2)).bind fun τ253 =>
  (some (o.addI 128 z1 τ253)).bind fun τ254 =>
  let z1 := τ254
  (m (a.getD 7 0) (b.getD 5 0)).bind fun τ255 =>
  (m (a.getD 6 0) (b.getD 6 0)).bind fun τ256 =>
  (some (o.addI 128 τ255 τ256)).bind fun τ257 =>
  (m (a.getD 5 0) (b.getD 7 0)).bind fun τ258 =>
  (some (o.addI 128 τ257 τ258)).bind fun τ259 =>
  (some (o.subI 128 τ259 z2)).bind fun τ260 =>
  (some (o.subI 128 z0 τ260)).bind fun τ261 =>
  let z0 := τ261
  let c := (c.set 4 (o.asU 32 (o.andI 128 z0 MASK)))
  let c := (c.set 12 (o.asU 32 (o.andI 128 z1 MASK)))
  let z0 := (o.shrI z0 28)
  let z1 := (o.shrI z1 28)
  some (c, z0, z1, z2)

/-- Part 7 of `mul`: lines 165-193. /repo/src/field/u32/karatsuba.rs:165-193 -/
def karatsuba.mul.part7 (o : Ops) (a : List ℕ) (b : List ℕ) (MASK : ℤ) (c : List ℕ) (aa : List ℕ) (bb : List ℕ) (z0 : ℤ) (z1 : ℤ) (z2 : ℤ) : Option ((List ℕ) × ℤ × ℤ × ℤ) :=
  let m := fun (a : ℕ) (b : ℕ) =>
  (some (o.mulI 128 (o.ext a) (o.ext b))).bind fun τ263 =>
  some τ263
  (m (a.getD 5 0) (b.getD 0 0)).bind fun τ264 =>
  (m (a.getD 4 0) (b.getD 1 0)).bind fun τ265 =>
  (some (o.addI 128 τ264 τ265)).bind fun τ266 =>
  (m (a.getD 3 0) (b.getD 2 0)).bind fun τ267 =>
  (some (o.addI 128 τ266 τ267)).bind fun τ268 =>
  (m (a.getD 2 0) (b.getD 3 0)).bind fun τ269 =>
  (some (o.addI 128 τ268 τ269)).bind fun τ270 =>
  (m (a.getD 1 0) (b.getD 4 0)).bind fun τ271 =>
  (some (o.addI 128 τ270 τ271)).bind fun τ272 =>
  (m (a.getD 0 0) (b.getD 5 0)).bind fun τ273 =>
  (some (o.addI 128 τ272 τ273)).bind fun τ274 =>
  let z2 := τ274
  (m (aa.getD 5 0) (bb.getD 0 0)).bind fun τ275 =>
  (m (aa.getD 4 0) (bb.getD 1 0)).bind fun τ276 =>
  (some (o.addI 128 τ275 τ276)).bind fun τ277 =>
  (m (aa.getD 3 0) (bb.getD 2 0)).bind fun τ278 =>
  (some (o.addI 128 τ277 τ278)).bind fun τ279 =>
  (m (aa.getD 2 0) (bb.getD 3 0)).bind fun τ280 =>
  (some (o.addI 128 τ279 τ280)).bind fun τ281 =>
  (m (aa.getD 1 0) (bb.getD 4 0)).bind fun τ282 =>
  (some (o.addI 128 τ281 τ282)).bind fun τ283 =>
  (m (aa.getD 0 0) (bb.getD 5 0)).bind fun τ284 =>
  (some (o.addI 128 τ283 τ284)).bind fun τ285 =>
  (some (o.subI 128 τ285 z2)).bind fun τ286 =>
  (some (o.addI 128 z1 τ286)).bind fun τ287 =>
  let z1 := τ287
  (m (a.getD 13 0) (b.getD 8 0)).bind fun τ288 =>
  (m (a.getD 12 0) (b.getD 9 0)).bind fun τ289 =>
  (some (o.addI 128 τ288 τ289)).bind fun τ290 =>
  (m (a.getD 11 0) (b.getD 10 0)).bind fun τ291 =>
  (some (o.addI 128 τ290 τ291)).bind fun τ292 =>
  (m (a.getD 10 0) (b.getD 11 0)).bind fun τ293 =>
  (some (o.addI 128 τ292 τ293)).bind fun τ294 =>
  (m (a.getD 9 0) (b.getD 12 0)).bind fun τ295 =>
  (some (o.addI 128 τ294 τ295)).bind fun τ296 =>
  (m (a.getD 8 0) (b.getD 13 0)).bind fun τ297 =>
  (some (o.addI 128 τ296 τ297)).bind fun τ298 =>
  (some (o.addI 128 τ298 z2)).bind fun τ299 =>
  (some (o.addI 128 z0 τ299)).bind fun τ300 =>
  let z0 := τ300
  (m (aa.getD 7 0) (bb.getD 6 0)).bind fun τ301 =>
  (m (aa.getD 6 0) (bb.getD 7 0)).bind fun τ302 =>
  (some (o.addI 128 τ301 τ302)).bind fun τ303 =>
  let z2 := τ303
  (m (a.getD 15 0) (b.getD 14 0)).bind fun τ304 =>
  (m (a.getD 14 0) (b.getD 15 0)).bind fun τ305 =>
  (some (o.addI 128 τ304 τ305)).bind fun τ306 =>
  (some (o.addI 128 τ306 z2)).bind fun τ307 =>
  (some (o.addI 128 z1 τ307)).bind fun τ308 =>
  let z1 := τ308
  (m (a.getD 7 0) (b.getD 6 0)).bind fun τ309 =>
  (m (a.getD 6 0) (b.getD 7 0)).bind fun τ310 =>
  (some (o.addI 128 τ309 τ310)).bind fun τ311 =>
  (some (o.subI 128 τ311 z2)).bind fun τ312 =>
  (some (o.subI 128 z0 τ312)).bind fun τ313 =>
  let z0 := τ313
  let c := (c.set 5 (o.asU 32 (o.andI 128 z0 MASK)))
  let c := (c.set 13 (o.asU 32 (o.andI 128 z1 MASK)))
  let z0 := (o.shrI z0 28)
  let z1 := (o.shrI z1 28)
  some (c, z0, z1, z2)

/-- Part 8 of `mul`: lines 197-229. /repo/src/field/u32/karatsuba.rs:197-229 -/
def karatsuba.mul.part8 (o : Ops) (a : List ℕ) (b : List ℕ) (MASK : ℤ) (c : List ℕ) (aa : List ℕ) (bb : List ℕ) (z0 : ℤ) (z1 : ℤ) (z2 : ℤ) : Option ((List ℕ) × ℤ × ℤ × ℤ) :=
  let m := fun (a : ℕ) (b : ℕ) =>
  (some (o.mulI 128 (o.ext a) (o.ext b))).bind fun τ315 =>
  some τ315
  (m (a.getD 6 0) (b.getD 0 0)).bind fun τ316 =>
  (m (a.getD 5 0) (b.getD 1 0)).bind fun τ317 =>
  (some (o.addI 128 τ316 τ317)).bind fun τ318 =>
  (m (a.getD 4 0) (b.getD 2 0)).bind fun τ319 =>
  (some (o.addI 128 τ318 τ319)).bind fun τ320 =>
  (m (a.getD 3 0) (b.getD 3 0)).bind fun τ321 =>
  (some (o.addI 128 τ320 τ321)).bind fun τ322 =>
  (m (a.getD 2 0) (b.getD 4 0)).bind fun τ323 =>
  (some (o.addI 128 τ322 τ323)).bind fun τ324 =>
  (m (a.getD 1 0) (b.getD 5 0)).bind fun τ325 =>
  (some (o.addI 128 τ324 τ325)).bind fun τ326 =>
  (m (a.getD 0 0) (b.getD 6 0)).bind fun τ327 =>
  (some (o.addI 128 τ326 τ327)).bind fun τ328 =>
  let z2 := τ328
  (m (aa.getD 6 0) (bb.getD 0 0)).bind fun τ329 =>
  (m (aa.getD 5 0) (bb.getD 1 0)).bind fun τ330 =>
  (some (o.addI 128 τ329 τ330)).bind fun τ331 =>
  (m (aa.getD 4 0) (bb.getD 2 0)).bind fun τ332 =>
  (some (o.addI 128 τ331 τ332)).bind fun τ333 =>
  (m (aa.getD 3 0) (bb.getD 3 0)).bind fun τ334 =>
  (some (o.addI 128 τ333 τ334)).bind fun τ335 =>
  (m (aa.getD 2 0) (bb.getD 4 0)).bind fun τ336 =>
  (some (o.addI 128 τ335 τ336)).bind fun τ337 =>
  (m (aa.getD 1 0) (bb.getD 5 0)).bind fun τ338 =>
  (some (o.addI 128 τ337 τ338)).bind fun τ339 =>
  (m (aa.getD 0 0) (bb.getD 6 0)).bind fun τ340 =>
  (some (o.addI 128 τ339 τ340)).bind fun τ341 =>
  (some (o.subI 128 τ341 z2)).bind fun τ342 =>
  (some (o.addI 128 z1 τ342)).bind fun τ343 =>
  let z1 := τ343
  (m (a.getD 14 0) (b.getD 8 0)).bind fun τ344 =>
  (m (a.getD 13 0) (b.getD 9 0)).bind fun τ345 =>
  (some (o.addI 128 τ344 τ345)).bind fun τ346 =>
  (m (a.getD 12 0) (b.getD 10 0)).bind fun τ347 =>
  (some (o.addI 128 τ346 τ347)).bind fun τ348 =>
  (m (a.getD 11 0) (b.getD 11 0)).bind fun τ349 =>
  (some (o.addI 128 τ348 τ349)).bind fun τ350 =>
  (m (a.getD 10 0) (b.getD 12 0)).bind fun τ351 =>
  (some (o.addI 128 τ350 τ351)).bind fun τ352 =>
  (m (a.getD 9 0) (b.getD 13 0)).bind fun τ353 =>
  (some (o.addI 128 τ352 τ353)).bind fun τ354 =>
  (m (a.getD 8 0) (b.getD 14 0)).bind fun τ355 =>
  (some (o.addI 128 τ354 τ355)).bind fun τ356 =>
  (some (o.addI 128 τ356 z2)).bind fun τ357 =>
  (some (o.addI 128 z0 τ357)).bind fun τ358 =>
  let z0 := τ358
  (m (aa.getD 7 0) (bb.getD 7 0)).bind fun τ359 =>
  let z2 := τ359
  (m (a.getD 15 0) (b.getD 15 0)).bind fun τ360 =>
  (some (o.addI 128 τ360 z2)).bind fun τ361 =>
  (some (o.addI 128 z1 τ361)).bind fun τ362 =>
  let z1 := τ362
  (m (a.getD 7 0) (b.getD 7 0)).bind fun τ363 =>
  (some (o.subI 128 τ363 z2)).bind fun τ364 =>
  (some (o.subI 128 z0 τ364)).bind fun τ365 =>
  let z0 := τ365
  let c := (c.set 6 (o.asU 32 (o.andI 128 z0 MASK)))
  let c := (c.set 14 (o.asU 32 (o.andI 128 z1 MASK)))
  let z0 := (o.shrI z0 28)
  let z1 := (o.shrI z1 28)
  some (c, z0, z1, z2)

/-- Part 9 of `mul`: lines 232-267. /repo/src/field/u32/karatsuba.rs:232-267 -/
def karatsuba.mul.part9 (o : Ops) (a : List ℕ) (b : List ℕ) (MASK : ℤ) (c : List ℕ) (aa : List ℕ) (bb : List ℕ) (z0 : ℤ) (z1 : ℤ) (z2 : ℤ) : Option ((List ℕ) × ℤ × ℤ × ℤ) :=
  let m := fun (a : ℕ) (b : ℕ) =>
  (some (o.mulI 128 (o.ext a) (o.ext b))).bind fun τ367 =>
  some τ367
  (m (a.getD 7 0) (b.getD 0 0)).bind fun τ368 =>
  (m (a.getD 6 0) (b.getD 1 0)).bind fun τ369 =>
  (some (o.addI 128 τ368 τ369)).bind fun τ370 =>
  (m (a.getD 5 0) (b.getD 2 0)).bind fun τ371 =>
  (some (o.addI 128 τ370 τ371)).bind fun τ372 =>
  (m (a.getD 4 0) (b.getD 3 0)).bind fun τ373 =>
  (some (o.addI 128 τ372 τ373)).bind fun τ374 =>
  (m (a.getD 3 0) (b.getD 4 0)).bind fun τ375 =>
  (some (o.addI 128 τ374 τ375)).bind fun τ376 =>
  (m (a.getD 2 0) (b.getD 5 0)).bind fun τ377 =>
  (some (o.addI 128 τ376 τ377)).bind fun τ378 =>
  (m (a.getD 1 0) (b.getD 6 0)).bind fun τ379 =>
  (some (o.addI 128 τ378 τ379)).bind fun τ380 =>
  (m (a.getD 0 0) (b.getD 7 0)).bind fun τ381 =>
  (some (o.addI 128 τ380 τ381)).bind fun τ382 =>
  let z2 := τ382
  (m (aa.getD 7 0) (bb.getD 0 0)).bind fun τ383 =>
  (m (aa.getD 6 0) (bb.getD 1 0)).bind fun τ384 =>
  (some (o.addI 128 τ383 τ384)).bind fun τ385 =>
  (m (aa.getD 5 0) (bb.getD 2 0)).bind fun τ386 =>
  (some (o.addI 128 τ385 τ386)).bind fun τ387 =>
  (m (aa.getD 4 0) (bb.getD 3 0)).bind fun τ388 =>
  (some (o.addI 128 τ387 τ388)).bind fun τ389 =>
  (m (aa.getD 3 0) (bb.getD 4 0)).bind fun τ390 =>
  (some (o.addI 128 τ389 τ390)).bind fun τ391 =>
  (m (aa.getD 2 0) (bb.getD 5 0)).bind fun τ392 =>
  (some (o.addI 128 τ391 τ392)).bind fun τ393 =>
  (m (aa.getD 1 0) (bb.getD 6 0)).bind fun τ394 =>
  (some (o.addI 128 τ393 τ394)).bind fun τ395 =>
  (m (aa.getD 0 0) (bb.getD 7 0)).bind fun τ396 =>
  (some (o.addI 128 τ395 τ396)).bind fun τ397 =>
  (some (o.subI 128 τ397 z2)).bind fun τ398 =>
  (some (o.addI 128 z1 τ398)).bind fun τ399 =>
  let z1 := τ399
  (m (a.getD 15 0) (b.getD 8 0)).bind fun τ400 =>
  (m (a.getD 14 0) (b.getD 9 0)).bind fun τ401 =>
  (some (o.addI 128 τ400 τ401)).bind fun τ402 =>
  (m (a.getD 13 0) (b.getD 10 0)).bind fun τ403 =>
  (some (o.addI 128 τ402 τ403)).bind fun τ404 =>
  (m (a.getD 12 0) (b.getD 11 0)).bind fun τ405 =>
  (some (o.addI 128 τ404 τ405)).bind fun τ406 =>
  (m (a.getD 11 0) (b.getD 12 0)).bind fun τ407 =>
  (some (o.addI 128 τ406 τ407)).bind fun τ408 =>
  (m (a.getD 10 0) (b.getD 13 0)).bind fun τ409 =>
  (some (o.addI 128 τ408 τ409)).bind fun τ410 =>
  (m (a.getD 9 0) (b.getD 14 0)).bind fun τ411 =>
  (some (o.addI 128 τ410 τ411)).bind fun τ412 =>
  (m (a.getD 8 0) (b.getD 15 0)).bind fun τ413 =>
  (some (o.addI 128 τ412 τ413)).bind fun τ414 =>
  (some (o.addI 128 τ414 z2)).bind fun τ415 =>
  (some (o.addI 128 z0 τ415)).bind fun τ416 =>
  let z0 := τ416
  let z2 := (0 : ℤ)
  (some (o.addI 128 z1 z2)).bind fun τ417 =>
  let z1 := τ417
  (some (o.addI 128 z0 z2)).bind fun τ418 =>
  let z0 := τ418
  let c := (c.set 7 (o.asU 32 (o.andI 128 z0 MASK)))
  let c := (c.set 15 (o.asU 32 (o.andI 128 z1 MASK)))
  let z0 := (o.shrI z0 28)
  let z1 := (o.shrI z1 28)
  some (c, z0, z1, z2)

/-- Translation of `mul` with a parameter for the arithmetic. /repo/src/field/u32/karatsuba.rs:17-284 -/
def karatsuba.mul (o : Ops) (a : List ℕ) (b : List ℕ) : Option (List ℕ) :=
  let τ3 := karatsuba.mul.part1 o a b
  let MASK : ℤ := τ3.1
  let c : List ℕ := τ3.2.1
  let aa : List ℕ := τ3.2.2.1
  let bb : List ℕ := τ3.2.2.2.1
  let z0 : ℤ := τ3.2.2.2.2.1
  let z1 : ℤ := τ3.2.2.2.2.2.1
  let z2 : ℤ := τ3.2.2.2.2.2.2
  (karatsuba.mul.part2 o a b MASK c aa bb z0 z1 z2).bind fun τ54 =>
  let c : List ℕ := τ54.1
  let z0 : ℤ := τ54.2.1
  let z1 : ℤ := τ54.2.2.1
  let z2 : ℤ := τ54.2.2.2
  (karatsuba.mul.part3 o a b MASK c aa bb z0 z1 z2).bind fun τ106 =>
  let c : List ℕ := τ106.1
  let z0 : ℤ := τ106.2.1
  let z1 : ℤ := τ106.2.2.1
  let z2 : ℤ := τ106.2.2.2
  (karatsuba.mul.part4 o a b MASK c aa bb z0 z1 z2).bind fun τ158 =>
  let c : List ℕ := τ158.1
  let z0 : ℤ := τ158.2.1
  let z1 : ℤ := τ158.2.2.1
  let z2 : ℤ := τ158.2.2.2
  (karatsuba.mul.part5 o a b MASK c aa bb z0 z1 z2).bind fun τ210 =>
  let c : List ℕ := τ210.1
  let z0 : ℤ := τ210.2.1
  let z1 : ℤ := τ210.2.2.1
  let z2 : ℤ := τ210.2.2.2
  (karatsuba.mul.part6 o a b MASK c aa bb z0 z1 z2).bind fun τ262 =>
  let c : List ℕ := τ262.1
  let z0 : ℤ := τ262.2.1
  let z1 : ℤ := τ262.2.2.1
  let z2 : ℤ := τ262.2.2.2
  (karatsuba.mul.part7 o a b MASK c aa bb z0 z1 z2).bind fun τ314 =>
  let c : List ℕ := τ314.1
  let z0 : ℤ := τ314.2.1
  let z1 : ℤ := τ314.2.2.1
  let z2 : ℤ := τ314.2.2.2
  (karatsuba.mul.part8 o a b MASK c aa bb z0 z1 z2).bind fun τ366 =>
  let c : List ℕ := τ366.1
  let z0 : ℤ := τ366.2.1
  let z1 : ℤ := τ366.2.2.1
  let z2 : ℤ := τ366.2.2.2
  (karatsuba.mul.part9 o a b MASK c aa bb z0 z1 z2).bind fun τ419 =>
  let c : List ℕ := τ419.1
  let z0 : ℤ := τ419.2.1
  let z1 : ℤ := τ419.2.2.1
  let z2 : ℤ := τ419.2.2.2
  let m := fun (a : ℕ) (b : ℕ) =>
  (some (o.mulI 128 (o.ext a) (o.ext b))).bind fun τ420 =>
  some τ420
  (some (o.addI 128 z1 (o.ext (c.getD 8 0)))).bind fun τ421 =>
  (some (o.addI 128 z0 τ421)).bind fun τ422 =>
  let z0 := τ422
  (some (o.addI 128 z1 (o.ext (c.getD 0 0)))).bind fun τ423 =>
  let z1 := τ423
  let c := (c.set 8 (o.asU 32 (o.andI 128 z0 MASK)))
  let c := (c.set 0 (o.asU 32 (o.andI 128 z1 MASK)))
  let z0 := (o.shrI z0 28)
  let z1 := (o.shrI z1 28)
  (some (o.addU 32 (c.getD 9 0) (o.asU 32 (o.andI 128 z0 MASK)))).bind fun τ424 =>
  let c := (c.set 9 τ424)
  (some (o.addU 32 (c.getD 1 0) (o.asU 32 (o.andI 128 z1 MASK)))).bind fun τ425 =>
  let c := (c.set 1 τ425)
  some c

/-- Translation of `mul` with a parameter for the arithmetic. /repo/src/field/u32/prime_field.rs:31-33 -/
def FieldElement28.op_mul (o : Ops) (self : List ℕ) (rhs : List ℕ) : Option (List ℕ) :=
  (karatsuba.mul o self rhs).bind fun τ1 =>
  some τ1

/-- Translation of `mul` with a parameter for the arithmetic. /repo/src/field/u32/prime_field.rs:37-39 -/
def FieldElement28.op_mul2 (o : Ops) (self : List ℕ) (rhs : List ℕ) : Option (List ℕ) :=
  (karatsuba.mul o self rhs).bind fun τ1 =>
  some τ1

/-- Translation of `add_no_reduce` with a parameter for the arithmetic. /repo/src/field/u32/prime_field.rs:395-414 -/
def FieldElement28.add_no_reduce (o : Ops) (self : List ℕ) (rhs : List ℕ) : Option (List ℕ) :=
  (some (o.addU 32 (self.getD 0 0) (rhs.getD 0 0))).bind fun τ1 =>
  (some (o.addU 32 (self.getD 1 0) (rhs.getD 1 0))).bind fun τ2 =>
  (some (o.addU 32 (self.getD 2 0) (rhs.getD 2 0))).bind fun τ3 =>
  (some (o.addU 32 (self.getD 3 0) (rhs.getD 3 0))).bind fun τ4 =>
  (some (o.addU 32 (self.getD 4 0) (rhs.getD 4 0))).bind fun τ5 =>
  (some (o.addU 32 (self.getD 5 0) (rhs.getD 5 0))).bind fun τ6 =>
  (some (o.addU 32 (self.getD 6 0) (rhs.getD 6 0))).bind fun τ7 =>
  (some (o.addU 32 (self.getD 7 0) (rhs.getD 7 0))).bind fun τ8 =>
  (some (o.addU 32 (self.getD 8 0) (rhs.getD 8 0))).bind fun τ9 =>
  (some (o.addU 32 (self.getD 9 0) (rhs.getD 9 0))).bind fun τ10 =>
  (some (o.addU 32 (self.getD 10 0) (rhs.getD 10 0))).bind fun τ11 =>
  (some (o.addU 32 (self.getD 11 0) (rhs.getD 11 0))).bind fun τ12 =>
  (some (o.addU 32 (self.getD 12 0) (rhs.getD 12 0))).bind fun τ13 =>
  (some (o.addU 32 (self.getD 13 0) (rhs.getD 13 0))).bind fun τ14 =>
  (some (o.addU 32 (self.getD 14 0) (rhs.getD 14 0))).bind fun τ15 =>
  (some (o.addU 32 (self.getD 15 0) (rhs.getD 15 0))).bind fun τ16 =>
  some ([τ1, τ2, τ3, τ4, τ5, τ6, τ7, τ8, τ9, τ10, τ11, τ12, τ13, τ14, τ15, τ16] : List ℕ)

/-- Translation of `weak_reduce` with a parameter for the arithmetic. /repo/src/field/u32/prime_field.rs:226-249 -/
def FieldElement28.weak_reduce (o : Ops) (self : List ℕ) : Option (List ℕ) :=
  let MASK : ℕ := (268435455 : ℕ)
  let limb16_mod : ℕ := (o.shrU (self.getD 15 0) 28)
  (some (o.addU 32 (self.getD 8 0) limb16_mod)).bind fun τ1 =>
  let self := (self.set 8 τ1)
  (some (o.addU 32 (o.andU (self.getD 15 0) MASK) (o.shrU (self.getD 14 0) 28))).bind fun τ2 =>
  let self := (self.set 15 τ2)
  (some (o.addU 32 (o.andU (self.getD 14 0) MASK) (o.shrU (self.getD 13 0) 28))).bind fun τ3 =>
  let self := (self.set 14 τ3)
  (some (o.addU 32 (o.andU (self.getD 13 0) MASK) (o.shrU (self.getD 12 0) 28))).bind fun τ4 =>
  let self := (self.set 13 τ4)
  (some (o.addU 32 (o.andU (self.getD 12 0) MASK) (o.shrU (self.getD 11 0) 28))).bind fun τ5 =>
  let self := (self.set 12 τ5)
  (some (o.addU 32 (o.andU (self.getD 11 0) MASK) (o.shrU (self.getD 10 0) 28))).bind fun τ6 =>
  let self := (self.set 11 τ6)
  (some (o.addU 32 (o.andU (self.getD 10 0) MASK) (o.shrU (self.getD 9 0) 28))).bind fun τ7 =>
  let self := (self.set 10 τ7)
  (some (o.addU 32 (o.andU (self.getD 9 0) MASK) (o.shrU (self.getD 8 0) 28))).bind fun τ8 =>
  let self := (self.set 9 τ8)
  (some (o.addU 32 (o.andU (self.getD 8 0) MASK) (o.shrU (self.getD 7 0) 28))).bind fun τ9 =>
  let self := (self.set 8 τ9)
  (some (o.addU 32 (o.andU (self.getD 7 0) MASK) (o.shrU (self.getD 6 0) 28))).bind fun τ10 =>
  let self := (self.set 7 τ10)
  (some (o.addU 32 (o.andU (self.getD 6 0) MASK) (o.shrU (self.getD 5 0) 28))).bind fun τ11 =>
  let self := (self.set 6 τ11)
  (some (o.addU 32 (o.andU (self.getD 5 0) MASK) (o.shrU (self.getD 4 0) 28))).bind fun τ12 =>
  let self := (self.set 5 τ12)
  (some (o.addU 32 (o.andU (self.getD 4 0) MASK) (o.shrU (self.getD 3 0) 28))).bind fun τ13 =>
  let self := (self.set 4 τ13)
  (some (o.addU 32 (o.andU (self.getD 3 0) MASK) (o.shrU (self.getD 2 0) 28))).bind fun τ14 =>
  let self := (self.set 3 τ14)
  (some (o.addU 32 (o.andU (self.getD 2 0) MASK) (o.shrU (self.getD 1 0) 28))).bind fun τ15 =>
  let self := (self.set 2 τ15)
  (some (o.addU 32 (o.andU (self.getD 1 0) MASK) (o.shrU (self.getD 0 0) 28))).bind fun τ16 =>
  let self := (self.set 1 τ16)
  (some (o.addU 32 (o.andU (self.getD 0 0) MASK) limb16_mod)).bind fun τ17 =>
  let self := (self.set 0 τ17)
  some (self)

/-- Translation of `add` with a parameter for the arithmetic. /repo/src/field/u32/prime_field.rs:44-48 -/
def FieldElement28.op_add (o : Ops) (self : List ℕ) (rhs : List ℕ) : Option (List ℕ) :=
  (FieldElement28.add_no_reduce o self rhs).bind fun τ1 =>
  let inter_res : List ℕ := τ1
  (FieldElement28.weak_reduce o inter_res).bind fun τ2 =>
  let inter_res := τ2
  some inter_res

/-- Translation of `bias` with a parameter for the arithmetic. /repo/src/field/u32/prime_field.rs:197-224 -/
def FieldElement28.bias (o : Ops) (a : List ℕ) (b : ℕ) : Option (List ℕ) :=
  let MASK : ℕ := (268435455 : ℕ)
  (some (o.mulU 32 b MASK)).bind fun τ1 =>
  let co1 : ℕ := τ1
  (some (o.subU 32 co1 b)).bind fun τ2 =>
  let co2 : ℕ := τ2
  let lo : List ℕ := (List.replicate 4 co1)
  let hi : List ℕ := ([co2, co1, co1, co1] : List ℕ)
  some ([(o.waddU 32 (a.getD 0 0) (lo.getD 0 0)), (o.waddU 32 (a.getD 1 0) (lo.getD 1 0)), (o.waddU 32 (a.getD 2 0) (lo.getD 2 0)), (o.waddU 32 (a.getD 3 0) (lo.getD 3 0)), (o.waddU 32 (a.getD 4 0) (lo.getD 0 0)), (o.waddU 32 (a.getD 5 0) (lo.getD 1 0)), (o.waddU 32 (a.getD 6 0) (lo.getD 2 0)), (o.waddU 32 (a.getD 7 0) (lo.getD 3 0)), (o.waddU 32 (a.getD 8 0) (hi.getD 0 0)), (o.waddU 32 (a.getD 9 0) (hi.getD 1 0)), (o.waddU 32 (a.getD 10 0) (hi.getD 2 0)), (o.waddU 32 (a.getD 11 0) (hi.getD 3 0)), (o.waddU 32 (a.getD 12 0) (lo.getD 0 0)), (o.waddU 32 (a.getD 13 0) (lo.getD 1 0)), (o.waddU 32 (a.getD 14 0) (lo.getD 2 0)), (o.waddU 32 (a.getD 15 0) (lo.getD 3 0))] : List ℕ)

/-- Translation of `sub_no_reduce` with a parameter for the arithmetic. /repo/src/field/u32/prime_field.rs:418-437 -/
def FieldElement28.sub_no_reduce (o : Ops) (self : List ℕ) (rhs : List ℕ) : List ℕ :=
  ([(o.wsubU 32 (self.getD 0 0) (rhs.getD 0 0)), (o.wsubU 32 (self.getD 1 0) (rhs.getD 1 0)), (o.wsubU 32 (self.getD 2 0) (rhs.getD 2 0)), (o.wsubU 32 (self.getD 3 0) (rhs.getD 3 0)), (o.wsubU 32 (self.getD 4 0) (rhs.getD 4 0)), (o.wsubU 32 (self.getD 5 0) (rhs.getD 5 0)), (o.wsubU 32 (self.getD 6 0) (rhs.getD 6 0)), (o.wsubU 32 (self.getD 7 0) (rhs.getD 7 0)), (o.wsubU 32 (self.getD 8 0) (rhs.getD 8 0)), (o.wsubU 32 (self.getD 9 0) (rhs.getD 9 0)), (o.wsubU 32 (self.getD 10 0) (rhs.getD 10 0)), (o.wsubU 32 (self.getD 11 0) (rhs.getD 11 0)), (o.wsubU 32 (self.getD 12 0) (rhs.getD 12 0)), (o.wsubU 32 (self.getD 13 0) (rhs.getD 13 0)), (o.wsubU 32 (self.getD 14 0) (rhs.getD 14 0)), (o.wsubU 32 (self.getD 15 0) (rhs.getD 15 0))] : List ℕ)

/-- Translation of `sub` with a parameter for the arithmetic. /repo/src/field/u32/prime_field.rs:52-57 -/
def FieldElement28.op_sub (o : Ops) (self : List ℕ) (rhs : List ℕ) : Option (List ℕ) :=
  (FieldElement28.bias o self (2 : ℕ)).bind fun τ1 =>
  let self := τ1
  let inter_res : List ℕ := (FieldElement28.sub_no_reduce o self rhs)
  (FieldElement28.weak_reduce o inter_res).bind fun τ2 =>
  let inter_res := τ2
  some inter_res

/-- Translation of `negate` with a parameter for the arithmetic. /repo/src/field/u32/prime_field.rs:192-194 -/
def FieldElement28.negate (o : Ops) (self : List ℕ) : Option (List ℕ) :=
  (FieldElement28.op_sub o Gen.FieldElement28.zero self).bind fun τ1 =>
  some τ1

/-- Translation of `conditional_negate` with a parameter for the arithmetic. /repo/src/field/u32/prime_field.rs:61-64 -/
def FieldElement28.conditional_negate (o : Ops) (self : List ℕ) (choice : Bool) : Option (List ℕ) :=
  (FieldElement28.negate o self).bind fun τ1 =>
  let self_neg : List ℕ := τ1
  let self := (Gen.FieldElement28.conditional_select self self_neg choice)
  some (self)

/-- Translation of `strong_reduce` with a parameter for the arithmetic. /repo/src/field/u32/prime_field.rs:254-391 -/
def FieldElement28.strong_reduce (o : Ops) (self : List ℕ) : Option (List ℕ) :=
  let MASK : ℕ := (268435455 : ℕ)
  (FieldElement28.weak_reduce o self).bind fun τ1 =>
  let self := τ1
  let sub_carry := fun (a : ℕ) (b : ℤ) =>
  let x : ℤ := (o.ext a)
  (some (o.subI 64 x b)).bind fun τ2 =>
  some τ2
  let add_carry := fun (a : ℕ) (b : ℕ) =>
  let x : ℕ := a
  (some (o.addU 64 x b)).bind fun τ3 =>
  some τ3
  let scarry : ℤ := (0 : ℤ)
  (sub_carry (self.getD 0 0) (268435455 : ℤ)).bind fun τ4 =>
  (some (o.addI 64 scarry τ4)).bind fun τ5 =>
  let scarry := τ5
  let self := (self.set 0 (o.andU (o.asU 32 scarry) MASK))
  let scarry := (o.shrI scarry 28)
  (sub_carry (self.getD 1 0) (268435455 : ℤ)).bind fun τ6 =>
  (some (o.addI 64 scarry τ6)).bind fun τ7 =>
  let scarry := τ7
  let self := (self.set 1 (o.andU (o.asU 32 scarry) MASK))
  let scarry := (o.shrI scarry 28)
  (sub_carry (self.getD 2 0) (268435455 : ℤ)).bind fun τ8 =>
  (some (o.addI 64 scarry τ8)).bind fun τ9 =>
  let scarry := τ9
  let self := (self.set 2 (o.andU (o.asU 32 scarry) MASK))
  let scarry := (o.shrI scarry 28)
  (sub_carry (self.getD 3 0) (268435455 : ℤ)).bind fun τ10 =>
  (some (o.addI 64 scarry τ10)).bind fun τ11 =>
  let scarry := τ11
  let self := (self.set 3 (o.andU (o.asU 32 scarry) MASK))
  let scarry := (o.shrI scarry 28)
  (sub_carry (self.getD 4 0) (268435455 : ℤ)).bind fun τ12 =>
  (some (o.addI 64 scarry τ12)).bind fun τ13 =>
  let scarry := τ13
  let self := (self.set 4 (o.andU (o.asU 32 scarry) MASK))
  let scarry := (o.shrI scarry 28)
  (sub_carry (self.getD 5 0) (268435455 : ℤ)).bind fun τ14 =>
  (some (o.addI 64 scarry τ14)).bind fun τ15 =>
  let scarry := τ15
  let self := (self.set 5 (o.andU (o.asU 32 scarry) MASK))
  let scarry := (o.shrI scarry 28)
  (sub_carry (self.getD 6 0) (268435455 : ℤ)).bind fun τ16 =>
  (some (o.addI 64 scarry τ16)).bind fun τ17 =>
  let scarry := τ17
  let self := (self.set 6 (o.andU (o.asU 32 scarry) MASK))
  let scarry := (o.shrI scarry 28)
  (sub_carry (self.getD 7 0) (268435455 : ℤ)).bind fun τ18 =>
  (some (o.addI 64 scarry τ18)).bind fun τ19 =>
  let scarry := τ19
  let self := (self.set 7 (o.andU (o.asU 32 scarry) MASK))
  let scarry := (o.shrI scarry 28)
  (sub_carry (self.getD 8 0) (268435454 : ℤ)).bind fun τ20 =>
  (some (o.addI 64 scarry τ20)).bind fun τ21 =>
  let scarry := τ21
  let self := (self.set 8 (o.andU (o.asU 32 scarry) MASK))
  let scarry := (o.shrI scarry 28)
  (sub_carry (self.getD 9 0) (268435455 : ℤ)).bind fun τ22 =>
  (some (o.addI 64 scarry τ22)).bind fun τ23 =>
  let scarry := τ23
  let self := (self.set 9 (o.andU (o.asU 32 scarry) MASK))
  let scarry := (o.shrI scarry 28)
  (sub_carry (self.getD 10 0) (268435455 : ℤ)).bind fun τ24 =>
  (some (o.addI 64 scarry τ24)).bind fun τ25 =>
  let scarry := τ25
  let self := (self.set 10 (o.andU (o.asU 32 scarry) MASK))
  let scarry := (o.shrI scarry 28)
  (sub_carry (self.getD 11 0) (268435455 : ℤ)).bind fun τ26 =>
  (some (o.addI 64 scarry τ26)).bind fun τ27 =>
  let scarry := τ27
  let self := (self.set 11 (o.andU (o.asU 32 scarry) MASK))
  let scarry := (o.shrI scarry 28)
  (sub_carry (self.getD 12 0) (268435455 : ℤ)).bind fun τ28 =>
  (some (o.addI 64 scarry τ28)).bind fun τ29 =>
  let scarry := τ29
  let self := (self.set 12 (o.andU (o.asU 32 scarry) MASK))
  let scarry := (o.shrI scarry 28)
  (sub_carry (self.getD 13 0) (268435455 : ℤ)).bind fun τ30 =>
  (some (o.addI 64 scarry τ30)).bind fun τ31 =>
  let scarry := τ31
  let self := (self.set 13 (o.andU (o.asU 32 scarry) MASK))
  let scarry := (o.shrI scarry 28)
  (sub_carry (self.getD 14 0) (268435455 : ℤ)).bind fun τ32 =>
  (some (o.addI 64 scarry τ32)).bind fun τ33 =>
  let scarry := τ33
  let self := (self.set 14 (o.andU (o.asU 32 scarry) MASK))
  let scarry := (o.shrI scarry 28)
  (sub_carry (self.getD 15 0) (268435455 : ℤ)).bind fun τ34 =>
  (some (o.addI 64 scarry τ34)).bind fun τ35 =>
  let scarry := τ35
  let self := (self.set 15 (o.andU (o.asU 32 scarry) MASK))
  let scarry := (o.shrI scarry 28)
  let scarry_mask : ℕ := (o.andU (o.asU 32 scarry) MASK)
  let carry : ℕ := (0 : ℕ)
  let m : ℕ := scarry_mask
  (add_carry (self.getD 0 0) m).bind fun τ36 =>
  (some (o.addU 64 carry τ36)).bind fun τ37 =>
  let carry := τ37
  let self := (self.set 0 (o.andU (o.modU 32 carry) MASK))
  let carry := (o.shrU carry 28)
  (add_carry (self.getD 1 0) m).bind fun τ38 =>
  (some (o.addU 64 carry τ38)).bind fun τ39 =>
  let carry := τ39
  let self := (self.set 1 (o.andU (o.modU 32 carry) MASK))
  let carry := (o.shrU carry 28)
  (add_carry (self.getD 2 0) m).bind fun τ40 =>
  (some (o.addU 64 carry τ40)).bind fun τ41 =>
  let carry := τ41
  let self := (self.set 2 (o.andU (o.modU 32 carry) MASK))
  let carry := (o.shrU carry 28)
  (add_carry (self.getD 3 0) m).bind fun τ42 =>
  (some (o.addU 64 carry τ42)).bind fun τ43 =>
  let carry := τ43
  let self := (self.set 3 (o.andU (o.modU 32 carry) MASK))
  let carry := (o.shrU carry 28)
  (add_carry (self.getD 4 0) m).bind fun τ44 =>
  (some (o.addU 64 carry τ44)).bind fun τ45 =>
  let carry := τ45
  let self := (self.set 4 (o.andU (o.modU 32 carry) MASK))
  let carry := (o.shrU carry 28)
  (add_carry (self.getD 5 0) m).bind fun τ46 =>
  (some (o.addU 64 carry τ46)).bind fun τ47 =>
  let carry := τ47
  let self := (self.set 5 (o.andU (o.modU 32 carry) MASK))
  let carry := (o.shrU carry 28)
  (add_carry (self.getD 6 0) m).bind fun τ48 =>
  (some (o.addU 64 carry τ48)).bind fun τ49 =>
  let carry := τ49
  let self := (self.set 6 (o.andU (o.modU 32 carry) MASK))
  let carry := (o.shrU carry 28)
  (add_carry (self.getD 7 0) m).bind fun τ50 =>
  (some (o.addU 64 carry τ50)).bind fun τ51 =>
  let carry := τ51
  let self := (self.set 7 (o.andU (o.modU 32 carry) MASK))
  let carry := (o.shrU carry 28)
  (add_carry (self.getD 8 0) (o.andU m (18446744073709551614 : ℕ))).bind fun τ52 =>
  (some (o.addU 64 carry τ52)).bind fun τ53 =>
  let carry := τ53
  let self := (self.set 8 (o.andU (o.modU 32 carry) MASK))
  let carry := (o.shrU carry 28)
  (add_carry (self.getD 9 0) m).bind fun τ54 =>
  (some (o.addU 64 carry τ54)).bind fun τ55 =>
  let carry := τ55
  let self := (self.set 9 (o.andU (o.modU 32 carry) MASK))
  let carry := (o.shrU carry 28)
  (add_carry (self.getD 10 0) m).bind fun τ56 =>
  (some (o.addU 64 carry τ56)).bind fun τ57 =>
  let carry := τ57
  let self := (self.set 10 (o.andU (o.modU 32 carry) MASK))
  let carry := (o.shrU carry 28)
  (add_carry (self.getD 11 0) m).bind fun τ58 =>
  (some (o.addU 64 carry τ58)).bind fun τ59 =>
  let carry := τ59
  let self := (self.set 11 (o.andU (o.modU 32 carry) MASK))
  let carry := (o.shrU carry 28)
  (add_carry (self.getD 12 0) m).bind fun τ60 =>
  (some (o.addU 64 carry τ60)).bind fun τ61 =>
  let carry := τ61
  let self := (self.set 12 (o.andU (o.modU 32 carry) MASK))
  let carry := (o.shrU carry 28)
  (add_carry (self.getD 13 0) m).bind fun τ62 =>
  (some (o.addU 64 carry τ62)).bind fun τ63 =>
  let carry := τ63
  let self := (self.set 13 (o.andU (o.modU 32 carry) MASK))
  let carry := (o.shrU carry 28)
  (add_carry (self.getD 14 0) m).bind fun τ64 =>
  (some (o.addU 64 carry τ64)).bind fun τ65 =>
  let carry := τ65
  let self := (self.set 14 (o.andU (o.modU 32 carry) MASK))
  let carry := (o.shrU carry 28)
  (add_carry (self.getD 15 0) m).bind fun τ66 =>
  (some (o.addU 64 carry τ66)).bind fun τ67 =>
  let carry := τ67
  let self := (self.set 15 (o.andU (o.modU 32 carry) MASK))
  let carry := (o.shrU carry 28)
  (Gen.Rt.require (decide (carry < (2 : ℕ)))).bind fun τ68 =>
  (some (o.addI 64 (o.toI 64 carry) scarry)).bind fun τ69 =>
  (Gen.Rt.require (τ69 == (0 : ℤ))).bind fun τ70 =>
  some (self)

/-- Translation of `to_bytes` with a parameter for the arithmetic. /repo/src/field/u32/prime_field.rs:166-182 -/
def FieldElement28.to_bytes (o : Ops) (self : List ℕ) : Option (List ℕ) :=
  let limbs : List ℕ := self
  (FieldElement28.strong_reduce o limbs).bind fun τ1 =>
  let limbs := τ1
  let res : List ℕ := (List.replicate 56 (0 : ℕ))
  (List.foldlM (fun (τ2 : (List ℕ)) (i : ℕ) =>
  let res := τ2
  (Rel.wrU 32 ((2 : ℕ) * i)).bind fun τ3 =>
  (Gen.Rt.idx limbs τ3).bind fun τ4 =>
  (Rel.wrU 32 ((2 : ℕ) * i)).bind fun τ5 =>
  (Rel.wrU 32 (τ5 + (1 : ℕ))).bind fun τ6 =>
  (Gen.Rt.idx limbs τ6).bind fun τ7 =>
  (some (o.addU 64 τ4 (o.shlU 64 τ7 28))).bind fun τ8 =>
  let l : ℕ := τ8
  (List.foldlM (fun (τ9 : (List ℕ) × (ℕ)) (j : ℕ) =>
  let res := τ9.1
  let l := τ9.2
  (Rel.wrU 32 ((7 : ℕ) * i)).bind fun τ10 =>
  (Rel.wrU 32 (τ10 + j)).bind fun τ11 =>
  (Gen.Rt.put res τ11 (o.modU 8 l)).bind fun τ12 =>
  let res := τ12
  let l := (o.shrU l 8)
  some (res, l)) (res, l) (Gen.Rt.range (0 : ℕ) (7 : ℕ))).bind fun τ13 =>
  let res := τ13.1
  let l := τ13.2
  some (res)) (res) (Gen.Rt.range (0 : ℕ) (8 : ℕ))).bind fun τ14 =>
  let res := τ14
  some res

/-- Translation of `is_negative` with a parameter for the arithmetic. /repo/src/field/u32/prime_field.rs:123-126 -/
def FieldElement28.is_negative (o : Ops) (self : List ℕ) : Option Bool :=
  (FieldElement28.to_bytes o self).bind fun τ1 =>
  let bytes : List ℕ := τ1
  (Gen.Rt.choice (o.andU (bytes.getD 0 0) (1 : ℕ))).bind fun τ2 =>
  some τ2

/-- Translation of `from_bytes` with a parameter for the arithmetic. /repo/src/field/u32/prime_field.rs:141-163 -/
def FieldElement28.from_bytes (o : Ops) (bytes : List ℕ) : Option (List ℕ) :=
  let load7 := fun (input : List ℕ) =>
  (Gen.Rt.idx input (0 : ℕ)).bind fun τ1 =>
  (Gen.Rt.idx input (1 : ℕ)).bind fun τ2 =>
  (Gen.Rt.idx input (2 : ℕ)).bind fun τ3 =>
  (Gen.Rt.idx input (3 : ℕ)).bind fun τ4 =>
  (Gen.Rt.idx input (4 : ℕ)).bind fun τ5 =>
  (Gen.Rt.idx input (5 : ℕ)).bind fun τ6 =>
  (Gen.Rt.idx input (6 : ℕ)).bind fun τ7 =>
  some (o.orU (o.orU (o.orU (o.orU (o.orU (o.orU τ1 (o.shlU 64 τ2 8)) (o.shlU 64 τ3 16)) (o.shlU 64 τ4 24)) (o.shlU 64 τ5 32)) (o.shlU 64 τ6 40)) (o.shlU 64 τ7 48))
  let MASK : ℕ := (268435455 : ℕ)
  let res : List ℕ := Gen.FieldElement28.zero
  (List.foldlM (fun (τ8 : (List ℕ)) (i : ℕ) =>
  let res := τ8
  (Rel.wrU 32 (i * (7 : ℕ))).bind fun τ9 =>
  (Gen.Rt.sliceFrom bytes τ9).bind fun τ10 =>
  (load7 τ10).bind fun τ11 =>
  let out : ℕ := τ11
  (Rel.wrU 32 ((2 : ℕ) * i)).bind fun τ12 =>
  (Gen.Rt.put res τ12 (o.andU (o.modU 32 out) MASK)).bind fun τ13 =>
  let res := τ13
  (Rel.wrU 32 ((2 : ℕ) * i)).bind fun τ14 =>
  (Rel.wrU 32 (τ14 + (1 : ℕ))).bind fun τ15 =>
  (Gen.Rt.put res τ15 (o.modU 32 (o.shrU out 28))).bind fun τ16 =>
  let res := τ16
  some (res)) (res) (Gen.Rt.range (0 : ℕ) (8 : ℕ))).bind fun τ17 =>
  let res := τ17
  some res

/-- Part 1 of `square`: lines 288-297. /repo/src/field/u32/karatsuba.rs:288-297 -/
def karatsuba.square.part1 (o : Ops) (a : List ℕ) : Option (ℕ × ℕ × ℕ × (List ℕ) × (List ℕ)) :=
  let τ1 := ((0 : ℕ), (0 : ℕ), (0 : ℕ))
  let accum0 : ℕ := τ1.1
  let accum1 : ℕ := τ1.2.1
  let accum2 : ℕ := τ1.2.2
  let c : List ℕ := Gen.FieldElement28.zero
  let widemul := fun (a : ℕ) (b : ℕ) =>
  (some (o.mulU 64 a b)).bind fun τ2 =>
  some τ2
  let aa : List ℕ := (List.replicate 8 (0 : ℕ))
  (List.foldlM (fun (τ3 : (List ℕ)) (i : ℕ) =>
  let aa := τ3
  (Gen.Rt.idx a i).bind fun τ4 =>
  (Rel.wrU 32 (i + (8 : ℕ))).bind fun τ5 =>
  (Gen.Rt.idx a τ5).bind fun τ6 =>
  (some (o.addU 64 τ4 τ6)).bind fun τ7 =>
  (Gen.Rt.put aa i τ7).bind fun τ8 =>
  let aa := τ8
  some (aa)) (aa) (Gen.Rt.range (0 : ℕ) (8 : ℕ))).bind fun τ9 =>
  let aa := τ9
  some (accum0, accum1, accum2, c, aa)

/-- Part 2 of `square`: lines 301-323. /repo/src/field/u32/karatsuba.rs:301-323 -/
def karatsuba.square.part2 (o : Ops) (a : List ℕ) (accum0 : ℕ) (accum1 : ℕ) (accum2 : ℕ) (c : List ℕ) (aa : List ℕ) : Option (ℕ × ℕ × ℕ × (List ℕ)) :=
  let widemul := fun (a : ℕ) (b : ℕ) =>
  (some (o.mulU 64 a b)).bind fun τ11 =>
  some τ11
  let accum2 := (0 : ℕ)
  (widemul (a.getD 0 0) (a.getD 0 0)).bind fun τ12 =>
  let accum2 := (o.waddU 64 accum2 τ12)
  let accum1 := (o.waddU 64 accum1 (o.wmulU 64 (aa.getD 0 0) (aa.getD 0 0)))
  (widemul (a.getD 8 0) (a.getD 8 0)).bind fun τ13 =>
  let accum0 := (o.waddU 64 accum0 τ13)
  let accum1 := (o.wsubU 64 accum1 accum2)
  let accum0 := (o.waddU 64 accum0 accum2)
  let accum2 := (0 : ℕ)
  (List.foldlM (fun (τ14 : (ℕ) × (ℕ) × (ℕ)) (i : ℕ) =>
  let accum2 := τ14.1
  let accum1 := τ14.2.1
  let accum0 := τ14.2.2
  (Gen.Rt.idx aa i).bind fun τ15 =>
  (Rel.wrSub 32 (8 : ℕ) i).bind fun τ16 =>
  (Gen.Rt.idx aa τ16).bind fun τ17 =>
  let accum2 := (o.waddU 64 accum2 (o.shlU 64 (o.wmulU 64 τ15 τ17) 1))
  (Rel.wrU 32 ((8 : ℕ) + i)).bind fun τ18 =>
  (Gen.Rt.idx a τ18).bind fun τ19 =>
  (Rel.wrSub 32 (16 : ℕ) i).bind fun τ20 =>
  (Gen.Rt.idx a τ20).bind fun τ21 =>
  (widemul τ19 τ21).bind fun τ22 =>
  let accum1 := (o.waddU 64 accum1 (o.shlU 64 τ22 1))
  (Gen.Rt.idx a i).bind fun τ23 =>
  (Rel.wrSub 32 (8 : ℕ) i).bind fun τ24 =>
  (Gen.Rt.idx a τ24).bind fun τ25 =>
  (widemul τ23 τ25).bind fun τ26 =>
  let accum0 := (o.wsubU 64 accum0 (o.shlU 64 τ26 1))
  some (accum2, accum1, accum0)) (accum2, accum1, accum0) (Gen.Rt.range (1 : ℕ) (4 : ℕ))).bind fun τ27 =>
  let accum2 := τ27.1
  let accum1 := τ27.2.1
  let accum0 := τ27.2.2
  let accum2 := (o.waddU 64 accum2 (o.wmulU 64 (aa.getD 4 0) (aa.getD 4 0)))
  (widemul (a.getD 12 0) (a.getD 12 0)).bind fun τ28 =>
  let accum1 := (o.waddU 64 (o.waddU 64 accum1 τ28) accum2)
  (widemul (a.getD 4 0) (a.getD 4 0)).bind fun τ29 =>
  let accum0 := (o.waddU 64 (o.wsubU 64 accum0 τ29) accum2)
  let c := (c.set 0 (o.andU (o.modU 32 accum0) Gen.C.karatsuba_MASK))
  let c := (c.set 8 (o.andU (o.modU 32 accum1) Gen.C.karatsuba_MASK))
  let accum0 := (o.shrU accum0 28)
  let accum1 := (o.shrU accum1 28)
  some (accum0, accum1, accum2, c)

/-- Part 3 of `square`: lines 327-363. /repo/src/field/u32/karatsuba.rs:327-363 -/
def karatsuba.square.part3 (o : Ops) (a : List ℕ) (accum0 : ℕ) (accum1 : ℕ) (accum2 : ℕ) (c : List ℕ) (aa : List ℕ) : Option (ℕ × ℕ × ℕ × (List ℕ)) :=
  let widemul := fun (a : ℕ) (b : ℕ) =>
  (some (o.mulU 64 a b)).bind fun τ31 =>
  some τ31
  (List.foldlM (fun (τ32 : (ℕ) × (ℕ) × (ℕ) × (List ℕ)) (j : ℕ) =>
  let accum2 := τ32.1
  let accum1 := τ32.2.1
  let accum0 := τ32.2.2.1
  let c := τ32.2.2.2
  let accum2 := (0 : ℕ)
  (Rel.wrU 32 ((j / (2 : ℕ)) + (1 : ℕ))).bind fun τ33 =>
  (List.foldlM (fun (τ34 : (ℕ) × (ℕ) × (ℕ)) (i : ℕ) =>
  let accum2 := τ34.1
  let accum1 := τ34.2.1
  let accum0 := τ34.2.2
  (Rel.wrSub 32 j i).bind fun τ35 =>
  (if (!(i == τ35)) then
  (Rel.wrSub 32 j i).bind fun τ36 =>
  (Gen.Rt.idx a τ36).bind fun τ37 =>
  (Gen.Rt.idx a i).bind fun τ38 =>
  (widemul τ37 τ38).bind fun τ39 =>
  let accum2 := (o.waddU 64 accum2 (o.shlU 64 τ39 1))
  (Rel.wrSub 32 j i).bind fun τ40 =>
  (Gen.Rt.idx aa τ40).bind fun τ41 =>
  (Gen.Rt.idx aa i).bind fun τ42 =>
  let accum1 := (o.waddU 64 accum1 (o.shlU 64 (o.wmulU 64 τ41 τ42) 1))
  (Rel.wrSub 32 j i).bind fun τ43 =>
  (Rel.wrU 32 ((8 : ℕ) + τ43)).bind fun τ44 =>
  (Gen.Rt.idx a τ44).bind fun τ45 =>
  (Rel.wrU 32 ((8 : ℕ) + i)).bind fun τ46 =>
  (Gen.Rt.idx a τ46).bind fun τ47 =>
  (widemul τ45 τ47).bind fun τ48 =>
  let accum0 := (o.waddU 64 accum0 (o.shlU 64 τ48 1))
  some (accum2, accum1, accum0)
  else
  (Gen.Rt.idx a (j / (2 : ℕ))).bind fun τ49 =>
  (Gen.Rt.idx a (j / (2 : ℕ))).bind fun τ50 =>
  (widemul τ49 τ50).bind fun τ51 =>
  let accum2 := (o.waddU 64 accum2 τ51)
  (Gen.Rt.idx aa (j / (2 : ℕ))).bind fun τ52 =>
  (Gen.Rt.idx aa (j / (2 : ℕ))).bind fun τ53 =>
  let accum1 := (o.waddU 64 accum1 (o.wmulU 64 τ52 τ53))
  (Rel.wrU 32 ((8 : ℕ) + (j / (2 : ℕ)))).bind fun τ54 =>
  (Gen.Rt.idx a τ54).bind fun τ55 =>
  (Rel.wrU 32 ((8 : ℕ) + (j / (2 : ℕ)))).bind fun τ56 =>
  (Gen.Rt.idx a τ56).bind fun τ57 =>
  (widemul τ55 τ57).bind fun τ58 =>
  let accum0 := (o.waddU 64 accum0 τ58)
  some (accum2, accum1, accum0)).bind fun τ59 =>
  let accum2 := τ59.1
  let accum1 := τ59.2.1
  let accum0 := τ59.2.2
  some (accum2, accum1, accum0)) (accum2, accum1, accum0) (Gen.Rt.range (0 : ℕ) τ33)).bind fun τ60 =>
  let accum2 := τ60.1
  let accum1 := τ60.2.1
  let accum0 := τ60.2.2
  let accum1 := (o.wsubU 64 accum1 accum2)
  let accum0 := (o.waddU 64 accum0 accum2)
  let accum2 := (0 : ℕ)
  (Rel.wrSub 32 (8 : ℕ) j).bind fun τ61 =>
  (Rel.wrU 32 ((τ61 / (2 : ℕ)) + (1 : ℕ))).bind fun τ62 =>
  (List.foldlM (fun (τ63 : (ℕ) × (ℕ) × (ℕ)) (i : ℕ) =>
  let accum2 := τ63.1
  let accum1 := τ63.2.1
  let accum0 := τ63.2.2
  (Rel.wrU 32 (j + i)).bind fun τ64 =>
  (Rel.wrSub 32 (8 : ℕ) i).bind fun τ65 =>
  (if (!(τ64 == τ65)) then
  (Rel.wrSub 32 (8 : ℕ) i).bind fun τ66 =>
  (Gen.Rt.idx aa τ66).bind fun τ67 =>
  (Rel.wrU 32 (j + i)).bind fun τ68 =>
  (Gen.Rt.idx aa τ68).bind fun τ69 =>
  let accum2 := (o.waddU 64 accum2 (o.shlU 64 (o.wmulU 64 τ67 τ69) 1))
  (Rel.wrSub 32 (16 : ℕ) i).bind fun τ70 =>
  (Gen.Rt.idx a τ70).bind fun τ71 =>
  (Rel.wrU 32 ((8 : ℕ) + j)).bind fun τ72 =>
  (Rel.wrU 32 (τ72 + i)).bind fun τ73 =>
  (Gen.Rt.idx a τ73).bind fun τ74 =>
  (widemul τ71 τ74).bind fun τ75 =>
  let accum1 := (o.waddU 64 accum1 (o.shlU 64 τ75 1))
  (Rel.wrSub 32 (8 : ℕ) i).bind fun τ76 =>
  (Gen.Rt.idx a τ76).bind fun τ77 =>
  (Rel.wrU 32 (j + i)).bind fun τ78 =>
  (Gen.Rt.idx a τ78).bind fun τ79 =>
  (widemul τ77 τ79).bind fun τ80 =>
  let accum0 := (o.wsubU 64 accum0 (o.shlU 64 τ80 1))
  some (accum2, accum1, accum0)
  else
  (Rel.wrU 32 (j + i)).bind fun τ81 =>
  (Gen.Rt.idx aa τ81).bind fun τ82 =>
  (Rel.wrU 32 (j + i)).bind fun τ83 =>
  (Gen.Rt.idx aa τ83).bind fun τ84 =>
  let accum2 := (o.waddU 64 accum2 (o.wmulU 64 τ82 τ84))
  (Rel.wrU 32 ((8 : ℕ) + j)).bind fun τ85 =>
  (Rel.wrU 32 (τ85 + i)).bind fun τ86 =>
  (Gen.Rt.idx a τ86).bind fun τ87 =>
  (Rel.wrU 32 ((8 : ℕ) + j)).bind fun τ88 =>
  (Rel.wrU 32 (τ88 + i)).bind fun τ89 =>
  (Gen.Rt.idx a τ89).bind fun τ90 =>
  (widemul τ87 τ90).bind fun τ91 =>
  let accum1 := (o.waddU 64 accum1 τ91)
  (Rel.wrU 32 (j + i)).bind fun τ92 =>
  (Gen.Rt.idx a τ92).bind fun τ93 =>
  (Rel.wrU 32 (j + i)).bind fun τ94 =>
  (Gen.Rt.idx a τ94).bind fun τ95 =>
  (widemul τ93 τ95).bind fun τ96 =>
  let accum0 := (o.wsubU 64 accum0 τ96)
  some (accum2, accum1, accum0)).bind fun τ97 =>
  let accum2 := τ97.1
  let accum1 := τ97.2.1
  let accum0 := τ97.2.2
  some (accum2, accum1, accum0)) (accum2, accum1, accum0) (Gen.Rt.range (1 : ℕ) τ62)).bind fun τ98 =>
  let accum2 := τ98.1
  let accum1 := τ98.2.1
  let accum0 := τ98.2.2
  let accum1 := (o.waddU 64 accum1 accum2)
  let accum0 := (o.waddU 64 accum0 accum2)
  (Gen.Rt.put c j (o.andU (o.modU 32 accum0) Gen.C.karatsuba_MASK)).bind fun τ99 =>
  let c := τ99
  (Rel.wrU 32 (j + (8 : ℕ))).bind fun τ100 =>
  (Gen.Rt.put c τ100 (o.andU (o.modU 32 accum1) Gen.C.karatsuba_MASK)).bind fun τ101 =>
  let c := τ101
  let accum0 := (o.shrU accum0 28)
  let accum1 := (o.shrU accum1 28)
  some (accum2, accum1, accum0, c)) (accum2, accum1, accum0, c) (Gen.Rt.range (1 : ℕ) (7 : ℕ))).bind fun τ102 =>
  let accum2 := τ102.1
  let accum1 := τ102.2.1
  let accum0 := τ102.2.2.1
  let c := τ102.2.2.2
  some (accum0, accum1, accum2, c)

/-- Part 4 of `square`: lines 368-379. /repo/src/field/u32/karatsuba.rs:368-379 -/
def karatsuba.square.part4 (o : Ops) (a : List ℕ) (accum0 : ℕ) (accum1 : ℕ) (accum2 : ℕ) (c : List ℕ) (aa : List ℕ) : Option (ℕ × ℕ × ℕ × (List ℕ)) :=
  let widemul := fun (a : ℕ) (b : ℕ) =>
  (some (o.mulU 64 a b)).bind fun τ104 =>
  some τ104
  let accum2 := (0 : ℕ)
  (List.foldlM (fun (τ105 : (ℕ) × (ℕ) × (ℕ)) (i : ℕ) =>
  let accum2 := τ105.1
  let accum1 := τ105.2.1
  let accum0 := τ105.2.2
  (Rel.wrSub 32 (7 : ℕ) i).bind fun τ106 =>
  (Gen.Rt.idx a τ106).bind fun τ107 =>
  (Gen.Rt.idx a i).bind fun τ108 =>
  (widemul τ107 τ108).bind fun τ109 =>
  let accum2 := (o.waddU 64 accum2 (o.shlU 64 τ109 1))
  (Rel.wrSub 32 (7 : ℕ) i).bind fun τ110 =>
  (Gen.Rt.idx aa τ110).bind fun τ111 =>
  (Gen.Rt.idx aa i).bind fun τ112 =>
  let accum1 := (o.waddU 64 accum1 (o.shlU 64 (o.wmulU 64 τ111 τ112) 1))
  (Rel.wrSub 32 (15 : ℕ) i).bind fun τ113 =>
  (Gen.Rt.idx a τ113).bind fun τ114 =>
  (Rel.wrU 32 ((8 : ℕ) + i)).bind fun τ115 =>
  (Gen.Rt.idx a τ115).bind fun τ116 =>
  (widemul τ114 τ116).bind fun τ117 =>
  let accum0 := (o.waddU 64 accum0 (o.shlU 64 τ117 1))
  some (accum2, accum1, accum0)) (accum2, accum1, accum0) (Gen.Rt.range (0 : ℕ) (4 : ℕ))).bind fun τ118 =>
  let accum2 := τ118.1
  let accum1 := τ118.2.1
  let accum0 := τ118.2.2
  let accum1 := (o.wsubU 64 accum1 accum2)
  let accum0 := (o.waddU 64 accum0 accum2)
  let c := (c.set 7 (o.andU (o.modU 32 accum0) Gen.C.karatsuba_MASK))
  let c := (c.set 15 (o.andU (o.modU 32 accum1) Gen.C.karatsuba_MASK))
  let accum0 := (o.shrU accum0 28)
  let accum1 := (o.shrU accum1 28)
  some (accum0, accum1, accum2, c)

/-- Translation of `square` with a parameter for the arithmetic. /repo/src/field/u32/karatsuba.rs:287-394 -/
def karatsuba.square (o : Ops) (a : List ℕ) : Option (List ℕ) :=
  (karatsuba.square.part1 o a).bind fun τ10 =>
  let accum0 : ℕ := τ10.1
  let accum1 : ℕ := τ10.2.1
  let accum2 : ℕ := τ10.2.2.1
  let c : List ℕ := τ10.2.2.2.1
  let aa : List ℕ := τ10.2.2.2.2
  (karatsuba.square.part2 o a accum0 accum1 accum2 c aa).bind fun τ30 =>
  let accum0 : ℕ := τ30.1
  let accum1 : ℕ := τ30.2.1
  let accum2 : ℕ := τ30.2.2.1
  let c : List ℕ := τ30.2.2.2
  (karatsuba.square.part3 o a accum0 accum1 accum2 c aa).bind fun τ103 =>
  let accum0 : ℕ := τ103.1
  let accum1 : ℕ := τ103.2.1
  let accum2 : ℕ := τ103.2.2.1
  let c : List ℕ := τ103.2.2.2
  (karatsuba.square.part4 o a accum0 accum1 accum2 c aa).bind fun τ119 =>
  let accum0 : ℕ := τ119.1
  let accum1 : ℕ := τ119.2.1
  let accum2 : ℕ := τ119.2.2.1
  let c : List ℕ := τ119.2.2.2
  let widemul := fun (a : ℕ) (b : ℕ) =>
  (some (o.mulU 64 a b)).bind fun τ120 =>
  some τ120
  (some (o.addU 64 accum0 accum1)).bind fun τ121 =>
  let accum0 := τ121
  (some (o.addU 64 accum0 (c.getD 8 0))).bind fun τ122 =>
  let accum0 := τ122
  (some (o.addU 64 accum1 (c.getD 0 0))).bind fun τ123 =>
  let accum1 := τ123
  let c := (c.set 8 (o.andU (o.modU 32 accum0) Gen.C.karatsuba_MASK))
  let c := (c.set 0 (o.andU (o.modU 32 accum1) Gen.C.karatsuba_MASK))
  let accum0 := (o.shrU accum0 28)
  let accum1 := (o.shrU accum1 28)
  (some (o.addU 32 (c.getD 9 0) (o.modU 32 accum0))).bind fun τ124 =>
  let c := (c.set 9 τ124)
  (some (o.addU 32 (c.getD 1 0) (o.modU 32 accum1))).bind fun τ125 =>
  let c := (c.set 1 τ125)
  some c

/-- Translation of `square` with a parameter for the arithmetic. /repo/src/field/u32/prime_field.rs:187-189 -/
def FieldElement28.square (o : Ops) (self : List ℕ) : Option (List ℕ) :=
  (karatsuba.square o self).bind fun τ1 =>
  some τ1

end Ed448.Par
