import Verif.Model.U32

/-!
# Model: the constants of the 32-bit backend, `/repo/src/field/u32/constants.rs`
-/

namespace Ed448.Model.U32

/-- `NEG_FOUR_TIMES_TWISTED_D`. /repo/src/field/u32/constants.rs:8-11 -/
def NEG_FOUR_TIMES_TWISTED_D : Raw := lit [
  156327, 268435456, 268435455, 268435455, 268435455, 268435455, 268435455, 268435455,
  268435454, 268435455, 268435455, 268435455, 268435455, 268435455, 268435455, 268435455]

/-- `EDWARDS_D`. /repo/src/field/u32/constants.rs:16-19 -/
def EDWARDS_D : Raw := lit [
  268396374, 268435455, 268435455, 268435455, 268435455, 268435455, 268435455, 268435455,
  268435454, 268435455, 268435455, 268435455, 268435455, 268435455, 268435455, 268435455]

/-- `NEG_EDWARDS_D`. /repo/src/field/u32/constants.rs:22-23 -/
def NEG_EDWARDS_D : Raw := lit [
  39081, 0, 0, 0, 0, 0, 0, 0,
  0, 0, 0, 0, 0, 0, 0, 0]

/-- `TWISTED_D`. /repo/src/field/u32/constants.rs:26-29 -/
def TWISTED_D : Raw := lit [
  268396373, 268435455, 268435455, 268435455, 268435455, 268435455, 268435455, 268435455,
  268435454, 268435455, 268435455, 268435455, 268435455, 268435455, 268435455, 268435455]

/-- `TWO_TIMES_TWISTED_D`. /repo/src/field/u32/constants.rs:32-35 -/
def TWO_TIMES_TWISTED_D : Raw := lit [
  268357291, 268435455, 268435455, 268435455, 268435455, 268435455, 268435455, 268435455,
  268435454, 268435455, 268435455, 268435455, 268435455, 268435455, 268435455, 268435455]

/-- `DECAF_FACTOR`. /repo/src/field/u32/constants.rs:38-41 -/
def DECAF_FACTOR : Raw := lit [
  89597750, 70185204, 13521558, 129985186, 248668211, 256890605, 176396902, 157860171,
  77780864, 193811638, 27768997, 111807007, 225587106, 109297512, 199959799, 36541999]

/-- `A_PLUS_TWO_OVER_FOUR`. /repo/src/field/u32/constants.rs:43-44 -/
def A_PLUS_TWO_OVER_FOUR : Raw := lit [
  39082, 0, 0, 0, 0, 0, 0, 0,
  0, 0, 0, 0, 0, 0, 0, 0]

/-- Coordinate `X` of `GOLDILOCKS_BASE_POINT`. /repo/src/field/u32/constants.rs:48-51 -/
def G_X : Raw := lit [
  118276190, 40534716, 9670182, 135141552, 85017403, 259173222, 68333082, 171784774,
  174973732, 15824510, 73756743, 57518561, 94773951, 248652241, 107736333, 82941708]

/-- Coordinate `Y` of `GOLDILOCKS_BASE_POINT`. /repo/src/field/u32/constants.rs:52-55 -/
def G_Y : Raw := lit [
  36764180, 8885695, 130592152, 20104429, 163904957, 30304195, 121295871, 5901357,
  125344798, 171541512, 175338348, 209069246, 3626697, 38307682, 24032956, 110359655]

/-- Coordinate `Z` of `GOLDILOCKS_BASE_POINT`. /repo/src/field/u32/constants.rs:56-56 -/
def G_Z : Raw := lit [
  1, 0, 0, 0, 0, 0, 0, 0,
  0, 0, 0, 0, 0, 0, 0, 0]

/-- Coordinate `T` of `GOLDILOCKS_BASE_POINT`. /repo/src/field/u32/constants.rs:57-60 -/
def G_T : Raw := lit [
  45061619, 6694120, 103620075, 168286294, 228718479, 151739175, 150043102, 237197013,
  14095975, 138747174, 90839103, 152869968, 221073549, 114093113, 183378460, 209054552]

/-- Coordinate `X` of `TWISTED_EDWARDS_BASE_POINT`. /repo/src/field/u32/constants.rs:65-68 -/
def TG_X : Raw := lit [
  0, 268435456, 268435455, 268435455, 268435455, 268435455, 268435455, 134217727,
  268435454, 268435455, 268435455, 268435455, 268435455, 268435455, 268435455, 134217727]

/-- Coordinate `Y` of `TWISTED_EDWARDS_BASE_POINT`. /repo/src/field/u32/constants.rs:69-72 -/
def TG_Y : Raw := lit [
  266160740, 101161805, 74490312, 12706731, 149232027, 72184820, 68425752, 84169329,
  64300076, 80170041, 105082960, 37781586, 19953866, 222875756, 82854534, 139496929]

/-- Coordinate `Z` of `TWISTED_EDWARDS_BASE_POINT`. /repo/src/field/u32/constants.rs:73-73 -/
def TG_Z : Raw := lit [
  1, 0, 0, 0, 0, 0, 0, 0,
  0, 0, 0, 0, 0, 0, 0, 0]

/-- Coordinate `T` of `TWISTED_EDWARDS_BASE_POINT`. /repo/src/field/u32/constants.rs:74-77 -/
def TG_T : Raw := lit [
  202998021, 238846317, 66379923, 102789507, 54662147, 81652110, 85576069, 171023191,
  104342404, 127188629, 141403663, 236837931, 109226495, 84812757, 24364708, 114517662]

end Ed448.Model.U32
