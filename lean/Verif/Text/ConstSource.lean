import Verif.Text.Syntax

/-!
# The text of source files of the crate

Written by tools/gen_text.py; do not edit. Each text is the cited file, byte for byte.
-/

set_option linter.all false

namespace Ed448.Text.Src

/-- /repo/src/constants.rs:1-18 -/
def constants : ℕ := t! r##"use crate::{decaf::DecafPoint, Scalar};

#[cfg(feature = "u32_backend")]
pub(crate) use crate::field::u32::constants::*;

#[cfg(feature = "fiat_u64_backend")]
pub(crate) use crate::field::fiat_u64::constants::*;

pub(crate) const DECAF_BASEPOINT: DecafPoint = DecafPoint(TWISTED_EDWARDS_BASE_POINT);

/// `BASEPOINT_ORDER` is the order of the Ed448 basepoint, i.e.,
/// $$
/// \ell = 2^\{446\} + 0x8335dc163bb124b65129c96fde933d8d723a70aadc873d6d54a7bb0d.
/// $$
pub(crate) const BASEPOINT_ORDER: Scalar = Scalar([
    0xab5844f3, 0x2378c292, 0x8dc58f55, 0x216cc272, 0xaed63690, 0xc44edb49, 0x7cca23e9, 0xffffffff,
    0xffffffff, 0xffffffff, 0xffffffff, 0xffffffff, 0xffffffff, 0x3fffffff,
]);
"##

/-- /repo/src/field/u32/constants.rs:1-78 -/
def u32Const : ℕ := t! r##"// Move all curve specific constants into this file
// as they will have different representations depending on the backend
use crate::curve::edwards::ExtendedPoint;
use crate::curve::twedwards::extended::ExtendedPoint as TwExtendedPoint;
use crate::field::u32::FieldElement28;

/// -4 * Twisted_D = -4 * (EDWARDS_D-1)
pub const NEG_FOUR_TIMES_TWISTED_D: FieldElement28 = FieldElement28([
    156327, 268435456, 268435455, 268435455, 268435455, 268435455, 268435455, 268435455, 268435454,
    268435455, 268435455, 268435455, 268435455, 268435455, 268435455, 268435455,
]);

// TODO: Differentiate between Twisted edwards d(a=-1) which is -39082 and edwards d(a=1) which is -39081

/// Edwards `d`, equals to -39081
pub const EDWARDS_D: FieldElement28 = FieldElement28([
    268396374, 268435455, 268435455, 268435455, 268435455, 268435455, 268435455, 268435455,
    268435454, 268435455, 268435455, 268435455, 268435455, 268435455, 268435455, 268435455,
]);

/// Neg_Edwards `-d`, equals to 39081
pub const NEG_EDWARDS_D: FieldElement28 =
    FieldElement28([39081, 0, 0, 0, 0, 0, 0, 0, 0, 0, 0, 0, 0, 0, 0, 0]);

/// Twisted Edwards D equals `d-1`, equals to -39082
pub const TWISTED_D: FieldElement28 = FieldElement28([
    268396373, 268435455, 268435455, 268435455, 268435455, 268435455, 268435455, 268435455,
    268435454, 268435455, 268435455, 268435455, 268435455, 268435455, 268435455, 268435455,
]);

/// Twice the Twisted Edwards d which equals to -78164
pub const TWO_TIMES_TWISTED_D: FieldElement28 = FieldElement28([
    268357291, 268435455, 268435455, 268435455, 268435455, 268435455, 268435455, 268435455,
    268435454, 268435455, 268435455, 268435455, 268435455, 268435455, 268435455, 268435455,
]);

/// INVSQRT(a*d_2-1) where d_2 = 39082/39081
pub const DECAF_FACTOR: FieldElement28 = FieldElement28([
    0x05572736, 0x042ef0f4, 0x00ce5296, 0x07bf6aa2, 0x0ed26033, 0x0f4fd6ed, 0x0a839a66, 0x0968c14b,
    0x04a2d780, 0x0b8d54b6, 0x01a7b8a5, 0x06aa0a1f, 0x0d722fa2, 0x0683bf68, 0x0beb24f7, 0x022d962f,
]);
/// 39082 used in the doubling procedure in montgomery ladder
pub const A_PLUS_TWO_OVER_FOUR: FieldElement28 =
    FieldElement28([39082, 0, 0, 0, 0, 0, 0, 0, 0, 0, 0, 0, 0, 0, 0, 0]);

// The basepoint of Ed448-Goldilocks
pub const GOLDILOCKS_BASE_POINT: ExtendedPoint = ExtendedPoint {
    X: FieldElement28([
        118276190, 40534716, 9670182, 135141552, 85017403, 259173222, 68333082, 171784774,
        174973732, 15824510, 73756743, 57518561, 94773951, 248652241, 107736333, 82941708,
    ]),
    Y: FieldElement28([
        36764180, 8885695, 130592152, 20104429, 163904957, 30304195, 121295871, 5901357, 125344798,
        171541512, 175338348, 209069246, 3626697, 38307682, 24032956, 110359655,
    ]),
    Z: FieldElement28([1, 0, 0, 0, 0, 0, 0, 0, 0, 0, 0, 0, 0, 0, 0, 0]),
    T: FieldElement28([
        45061619, 6694120, 103620075, 168286294, 228718479, 151739175, 150043102, 237197013,
        14095975, 138747174, 90839103, 152869968, 221073549, 114093113, 183378460, 209054552,
    ]),
};

// The basepoint of the Twisted Edwards curve which is 2-isogenous to Ed448-Goldilocks
pub const TWISTED_EDWARDS_BASE_POINT: TwExtendedPoint = TwExtendedPoint {
    X: FieldElement28([
        0, 268435456, 268435455, 268435455, 268435455, 268435455, 268435455, 134217727, 268435454,
        268435455, 268435455, 268435455, 268435455, 268435455, 268435455, 134217727,
    ]),
    Y: FieldElement28([
        266160740, 101161805, 74490312, 12706731, 149232027, 72184820, 68425752, 84169329,
        64300076, 80170041, 105082960, 37781586, 19953866, 222875756, 82854534, 139496929,
    ]),
    Z: FieldElement28([1, 0, 0, 0, 0, 0, 0, 0, 0, 0, 0, 0, 0, 0, 0, 0]),
    T: FieldElement28([
        202998021, 238846317, 66379923, 102789507, 54662147, 81652110, 85576069, 171023191,
        104342404, 127188629, 141403663, 236837931, 109226495, 84812757, 24364708, 114517662,
    ]),
};
"##

/-- /repo/src/field/fiat_u64/constants.rs:1-146 -/
def u64Const : ℕ := t! r##"use fiat_crypto::p448_solinas_64::fiat_p448_tight_field_element;

// Move all curve specific constants into this file
// as they will have different representations depending on the backend
use crate::curve::edwards::ExtendedPoint;
use crate::curve::twedwards::extended::ExtendedPoint as TwExtendedPoint;
use crate::field::fiat_u64::FieldElement56;

/// -4 * Twisted_D = -4 * (EDWARDS_D-1)
pub const NEG_FOUR_TIMES_TWISTED_D: FieldElement56 =
    FieldElement56(fiat_p448_tight_field_element([
        156327,
        0,
        0,
        0,
        72057594037927935,
        72057594037927935,
        72057594037927935,
        72057594037927935,
    ]));

/// Edwards `d`, equals to -39081
pub const EDWARDS_D: FieldElement56 = FieldElement56(fiat_p448_tight_field_element([
    144115188075816789,
    144115188075855870,
    144115188075855870,
    144115188075855870,
    144115188075855868,
    144115188075855870,
    144115188075855870,
    144115188075855870,
]));

/// Neg_Edwards `-d`, equals to 39081
pub const NEG_EDWARDS_D: FieldElement56 =
    FieldElement56(fiat_p448_tight_field_element([39081, 0, 0, 0, 0, 0, 0, 0]));

/// Twisted Edwards D equals `d-1`, equals to -39082
pub const TWISTED_D: FieldElement56 = FieldElement56(fiat_p448_tight_field_element([
    144115188075816788,
    144115188075855870,
    144115188075855870,
    144115188075855870,
    144115188075855868,
    144115188075855870,
    144115188075855870,
    144115188075855870,
]));

/// Twice the Twisted Edwards d which equals to -78164
pub const TWO_TIMES_TWISTED_D: FieldElement56 = FieldElement56(fiat_p448_tight_field_element([
    144115188075777706,
    144115188075855870,
    144115188075855870,
    144115188075855870,
    144115188075855868,
    144115188075855870,
    144115188075855870,
    144115188075855870,
]));

/// INVSQRT(a*d_2-1) where d_2 = 39082/39081
pub const DECAF_FACTOR: FieldElement56 = FieldElement56(fiat_p448_tight_field_element([
    0x42ef0f45572736,
    0x7bf6aa20ce5296,
    0xf4fd6eded26033,
    0x968c14ba839a66,
    0xb8d54b64a2d780,
    0x6aa0a1f1a7b8a5,
    0x683bf68d722fa2,
    0x22d962fbeb24f7,
]));

/// 39082 used in the doubling procedure in montgomery ladder
pub const A_PLUS_TWO_OVER_FOUR: FieldElement56 =
    FieldElement56(fiat_p448_tight_field_element([39082, 0, 0, 0, 0, 0, 0, 0]));

/// The basepoint of Ed448-Goldilocks
pub const GOLDILOCKS_BASE_POINT: ExtendedPoint = ExtendedPoint {
    X: FieldElement56(fiat_p448_tight_field_element([
        10880955091566686,
        36276784145337894,
        69571282115576635,
        46113124210880026,
        4247859732800292,
        15440021224255559,
        66747077793030847,
        22264495316135181,
    ])),
    Y: FieldElement56(fiat_p448_tight_field_element([
        2385235625966100,
        5396741696826776,
        8134720567442877,
        1584133578609663,
        46047824121994270,
        56121598560924524,
        10283140089599689,
        29624444337960636,
    ])),
    Z: FieldElement56(fiat_p448_tight_field_element([1, 0, 0, 0, 0, 0, 0, 0])),
    T: FieldElement56(fiat_p448_tight_field_element([
        1796939199780339,
        45174008172060139,
        40732174862907279,
        63672088496536030,
        37244660935497319,
        41035719659624511,
        30626637035688077,
        56117654178374172,
    ])),
};

/// The basepoint of the Twisted Edwards curve which is 2-isogenous to Ed448-Goldilocks
pub const TWISTED_EDWARDS_BASE_POINT: TwExtendedPoint = TwExtendedPoint {
    X: FieldElement56(fiat_p448_tight_field_element([
        0,
        72057594037927936,
        72057594037927935,
        36028797018963967,
        72057594037927934,
        72057594037927935,
        72057594037927935,
        36028797018963967,
    ])),
    Y: FieldElement56(fiat_p448_tight_field_element([
        27155415521118820,
        3410937204744648,
        19376965222209947,
        22594032279754776,
        21520481577673772,
        10141917371396176,
        59827755213158602,
        37445921829569158,
    ])),
    Z: FieldElement56(fiat_p448_tight_field_element([1, 0, 0, 0, 0, 0, 0, 0])),
    T: FieldElement56(fiat_p448_tight_field_element([
        64114820220813573,
        27592348249940115,
        21918321435874307,
        45908688348236165,
        34141937727972228,
        63575698147485199,
        22766751209138687,
        30740600843388580,
    ])),
};
"##

/-- /repo/src/field/fiat_u64/prime_field.rs:1-209 -/
def u64Field : ℕ := t! r##"use fiat_crypto::p448_solinas_64::*;

use std::ops::{Add, Index, IndexMut, Mul, Sub};
use subtle::{Choice, ConditionallyNegatable, ConditionallySelectable};
/// FieldElement56 represents an element in the field
/// q = 2^448 - 2^224 -1
///
/// FieldElement56 is represented using radix 2^56 as 8 u64s. We therefore represent
/// a field element `x` as x_0 + x_1 * 2^{28 * 1} + .... + x_15 * 2^{28 * 15}

// XXX: Check if the Serialisation procedure in FieldElement56 is consistent with FieldElement28

#[derive(Copy, Clone)]
pub struct FieldElement56(pub(crate) fiat_p448_tight_field_element);

impl std::fmt::Debug for FieldElement56 {
    fn fmt(&self, f: &mut std::fmt::Formatter<'_>) -> std::fmt::Result {
        f.debug_tuple("FieldElement56").field(&self.0 .0).finish()
    }
}

////
/// Trait Implementations
///

impl Index<usize> for FieldElement56 {
    type Output = u64;
    fn index(&self, a: usize) -> &Self::Output {
        &self.0[a]
    }
}

impl IndexMut<usize> for FieldElement56 {
    fn index_mut(&mut self, a: usize) -> &mut Self::Output {
        &mut self.0[a]
    }
}
impl Mul<&FieldElement56> for &FieldElement56 {
    type Output = FieldElement56;
    fn mul(self, rhs: &FieldElement56) -> Self::Output {
        let mut result = FieldElement56::zero();
        let mut self_loose = fiat_p448_loose_field_element([0; 8]);
        fiat_p448_relax(&mut self_loose, &self.0);
        let mut rhs_loose = fiat_p448_loose_field_element([0; 8]);
        fiat_p448_relax(&mut rhs_loose, &rhs.0);
        fiat_p448_carry_mul(&mut result.0, &self_loose, &rhs_loose);
        result
    }
}
impl Mul<&FieldElement56> for FieldElement56 {
    type Output = FieldElement56;
    fn mul(self, rhs: &FieldElement56) -> Self::Output {
        &self * rhs
    }
}
impl Mul<FieldElement56> for FieldElement56 {
    type Output = FieldElement56;
    fn mul(self, rhs: FieldElement56) -> Self::Output {
        &self * &rhs
    }
}

impl Add<FieldElement56> for FieldElement56 {
    type Output = FieldElement56;
    fn add(self, rhs: FieldElement56) -> Self::Output {
        let mut result_loose = fiat_p448_loose_field_element([0; 8]);
        fiat_p448_add(&mut result_loose, &self.0, &rhs.0);
        let mut result = FieldElement56::zero();
        fiat_p448_carry(&mut result.0, &result_loose);
        result
    }
}
impl Sub<FieldElement56> for FieldElement56 {
    type Output = FieldElement56;
    fn sub(self, rhs: FieldElement56) -> Self::Output {
        let mut result_loose = fiat_p448_loose_field_element([0; 8]);
        fiat_p448_sub(&mut result_loose, &self.0, &rhs.0);
        let mut result = FieldElement56::zero();
        fiat_p448_carry(&mut result.0, &result_loose);
        result
    }
}

impl ConditionallyNegatable for FieldElement56 {
    fn conditional_negate(&mut self, choice: Choice) {
        let self_neg = self.clone().negate();
        self.conditional_assign(&self_neg, choice);
    }
}

impl ConditionallySelectable for FieldElement56 {
    fn conditional_select(
        a: &FieldElement56,
        b: &FieldElement56,
        choice: Choice,
    ) -> FieldElement56 {
        let mut result = FieldElement56::zero();
        fiat_p448_selectznz(&mut (result.0).0, choice.unwrap_u8(), &(a.0).0, &(b.0).0);
        result
    }
}

impl Default for FieldElement56 {
    fn default() -> FieldElement56 {
        FieldElement56::zero()
    }
}

///
/// Constants
///

impl FieldElement56 {
    pub const fn zero() -> FieldElement56 {
        FieldElement56(fiat_p448_tight_field_element([0; 8]))
    }
    pub const fn one() -> FieldElement56 {
        FieldElement56(fiat_p448_tight_field_element([1, 0, 0, 0, 0, 0, 0, 0]))
    }
    pub fn minus_one() -> FieldElement56 {
        FieldElement56(fiat_p448_tight_field_element([
            144115188075855869,
            144115188075855870,
            144115188075855870,
            144115188075855870,
            144115188075855868,
            144115188075855870,
            144115188075855870,
            144115188075855870,
        ]))
    }
}

///
/// Checks
///
impl FieldElement56 {
    pub fn is_negative(&self) -> Choice {
        let bytes = self.to_bytes();
        (bytes[0] & 1).into()
    }
}

///
/// Serialisation
///
impl FieldElement56 {
    /// Helper function for internally constructing a field element
    pub(crate) const fn from_raw_slice(slice: [u64; 8]) -> FieldElement56 {
        FieldElement56(fiat_p448_tight_field_element(slice))
    }

    /// This does not check if the encoding is canonical (ie if the input is reduced)
    /// We parse in chunks of 56 bytes, the first 28 bytes will contain the i'th limb
    /// and the second 28 bytes will contain the (2i+1)'th limb
    pub(crate) fn from_bytes(bytes: &[u8; 56]) -> FieldElement56 {
        let mut res = FieldElement56::zero();
        fiat_p448_from_bytes(&mut res.0, bytes);
        res
    }

    // We encode the Field element by storing each consecutive into a u64
    pub(crate) fn to_bytes(&self) -> [u8; 56] {
        let mut res = [0u8; 56];
        fiat_p448_to_bytes(&mut res, &self.0);
        res
    }
}

impl FieldElement56 {
    /// Squares a field element
    pub(crate) fn square(&self) -> FieldElement56 {
        let mut self_loose = fiat_p448_loose_field_element([0; 8]);
        fiat_p448_relax(&mut self_loose, &self.0);
        let mut result = FieldElement56::zero();
        fiat_p448_carry_square(&mut result.0, &self_loose);
        result
    }
    /// Negates a field element
    pub(crate) fn negate(&self) -> FieldElement56 {
        let mut result_loose = fiat_p448_loose_field_element([0; 8]);
        fiat_p448_opp(&mut result_loose, &self.0);
        let mut result = FieldElement56::zero();
        fiat_p448_carry(&mut result.0, &result_loose);
        result
    }

    /// Reduces the field element to a canonical representation
    /// This is used when checking equality between two field elements and
    /// when encoding a field element
    pub(crate) fn strong_reduce(&mut self) {
        let mut self_loose = fiat_p448_loose_field_element([0; 8]);
        fiat_p448_relax(&mut self_loose, &self.0);
        fiat_p448_carry(&mut self.0, &self_loose);
    }
}

#[cfg(test)]
mod tests {

    use super::*;

    #[test]
    fn test_negate() {
        let x = FieldElement56::zero();
        let y = x.negate();
        assert_eq!(y.to_bytes(), [0u8; 56]);
    }
}
"##

end Ed448.Text.Src
