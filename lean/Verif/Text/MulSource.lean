import Verif.Text.Syntax

/-!
# The text of source files of the crate

Written by tools/gen_text.py; do not edit. Each text is the cited file, byte for byte.
-/

set_option linter.all false

namespace Ed448.Text.Src

/-- /repo/src/curve/scalar_mul/double_and_add.rs:1-20 -/
def doubleAndAdd : ℕ := t! r##"use crate::curve::twedwards::extended::ExtendedPoint;
use crate::field::Scalar;
use subtle::{Choice, ConditionallySelectable};

/// Traditional double and add algorithm
pub(crate) fn double_and_add(point: &ExtendedPoint, s: &Scalar) -> ExtendedPoint {
    let mut result = ExtendedPoint::identity();

    // NB, we reverse here, so we are going from MSB to LSB
    // XXX: Would be great if subtle had a From<u32> for Choice. But maybe that is not it's purpose?
    for bit in s.bits().into_iter().rev() {
        result = result.double();

        let mut p = ExtendedPoint::identity();
        p.conditional_assign(point, Choice::from(bit as u8));
        result = result.add(&p);
    }

    result
}
"##

/-- /repo/src/curve/scalar_mul/double_base.rs:1-14 -/
def doubleBase : ℕ := t! r##"#![allow(non_snake_case)]

use super::double_and_add;
use crate::constants::TWISTED_EDWARDS_BASE_POINT;
use crate::curve::twedwards::extended::ExtendedPoint;
use crate::field::Scalar;
/// XXX: Really in-efficient way to do double base scala mul
/// Replace it with endomorphism from pornin or use naf form
/// Computes aA + bB where B is the TwistedEdwards basepoint
pub(crate) fn double_base_scalar_mul(a: &Scalar, A: &ExtendedPoint, b: &Scalar) -> ExtendedPoint {
    let part_a = double_and_add(A, a);
    let part_b = double_and_add(&TWISTED_EDWARDS_BASE_POINT, b);
    part_a.add(&part_b)
}
"##

/-- /repo/src/curve/scalar_mul/variable_base.rs:1-77 -/
def variableBase : ℕ := t! r##"#![allow(non_snake_case)]

use super::window::wnaf::LookupTable;
use crate::curve::twedwards::{extended::ExtendedPoint, extensible::ExtensiblePoint};
use crate::field::Scalar;
use subtle::{Choice, ConditionallyNegatable};

pub fn variable_base(point: &ExtendedPoint, s: &Scalar) -> ExtendedPoint {
    let mut result = ExtensiblePoint::identity();

    // Recode Scalar
    let scalar = s.to_radix_16();

    let lookup = LookupTable::from(point);

    for i in (0..113).rev() {
        result = result.double();
        result = result.double();
        result = result.double();
        result = result.double();

        // The mask is the top bit, will be 1 for negative numbers, 0 for positive numbers
        let mask = scalar[i] >> 7;
        let sign = mask & 0x1;
        // Use the mask to get the absolute value of scalar
        let abs_value = ((scalar[i] + mask) ^ mask) as u32;

        let mut neg_P = lookup.select(abs_value);
        neg_P.conditional_negate(Choice::from((sign) as u8));

        result = result.add_projective_niels(&neg_P);
    }

    result.to_extended()
}

#[cfg(test)]
mod test {
    use super::*;
    use crate::constants::TWISTED_EDWARDS_BASE_POINT;
    use crate::curve::scalar_mul::double_and_add;

    #[test]
    fn test_scalar_mul() {
        // XXX: In the future use known multiples from Sage in bytes form?
        let twisted_point = TWISTED_EDWARDS_BASE_POINT;
        let scalar = Scalar([
            0x6ee372b7, 0xe128ae78, 0x1533427c, 0xad0b7015, 0x307f665e, 0xde8026c1, 0xb64629d1,
            0xab454c66, 0x3fe5bf1a, 0x083f8304, 0x3c003777, 0xdef437f6, 0xee2e1b73, 0x05ca185a,
        ]);

        let got = variable_base(&twisted_point, &scalar);

        let got2 = double_and_add(&twisted_point, &scalar);
        assert_eq!(got, got2);

        // Lets see if this is conserved over the isogenies
        let edwards_point = twisted_point.to_untwisted();
        let got_untwisted_point = edwards_point.scalar_mul(&scalar);
        let expected_untwisted_point = got.to_untwisted();
        assert_eq!(got_untwisted_point, expected_untwisted_point);
    }

    #[test]
    fn test_simple_scalar_mul_identities() {
        let x = TWISTED_EDWARDS_BASE_POINT;

        // Test that 1 * P = P
        let exp = variable_base(&x, &Scalar::from(1));
        assert!(x == exp);
        // Test that 2 * (P + P) = 4 * P
        let x_ext = x.to_extensible();
        let expected_two_x = x_ext.add_extensible(&x_ext).double();
        let got = variable_base(&x, &Scalar::from(4));
        assert!(expected_two_x.to_extended() == got);
    }
}
"##

/-- /repo/src/curve/scalar_mul/window/wnaf/mod.rs:1-54 -/
def wnaf : ℕ := t! r##"#![allow(non_snake_case)]

use crate::curve::twedwards::extended::ExtendedPoint;
use crate::curve::twedwards::projective::ProjectiveNielsPoint;
use subtle::{ConditionallySelectable, ConstantTimeEq};

pub struct LookupTable([ProjectiveNielsPoint; 8]);

/// Precomputes odd multiples of the point passed in
impl From<&ExtendedPoint> for LookupTable {
    fn from(point: &ExtendedPoint) -> LookupTable {
        let P = point.to_extensible();

        let mut table = [P.to_projective_niels(); 8];

        for i in 1..8 {
            table[i] = P.add_projective_niels(&table[i - 1]).to_projective_niels();
        }

        LookupTable(table)
    }
}

impl LookupTable {
    /// Selects a projective niels point from a lookup table in constant time
    pub fn select(&self, index: u32) -> ProjectiveNielsPoint {
        let mut result = ProjectiveNielsPoint::identity();

        for i in 1..9 {
            let swap = index.ct_eq(&(i as u32));
            result.conditional_assign(&self.0[i - 1], swap);
        }
        result
    }
}

// XXX: Add back tests to ensure that select works correctly

#[test]
fn test_lookup() {
    let p = ExtendedPoint::generator();
    let points = LookupTable::from(&p);

    let mut expected_point = ExtendedPoint::identity();
    for i in 0..8 {
        let selected_point = points.select(i);
        assert_eq!(selected_point.to_extended(), expected_point);

        expected_point = expected_point
            .to_extensible()
            .add_extended(&p)
            .to_extended();
    }
}
"##

/-- /repo/src/decaf/ops.rs:1-78 -/
def decafOps : ℕ := t! r##"use std::ops::{Add, Mul, Neg, Sub};

use crate::{Scalar, curve::scalar_mul::double_and_add};

use super::DecafPoint;

/// Scalar Mul Operations
impl<'s, 'p> Mul<&'s Scalar> for &'p DecafPoint {
    type Output = DecafPoint;
    fn mul(self, scalar: &'s Scalar) -> DecafPoint {
        // XXX: We can do better than double and add
        DecafPoint(double_and_add(&self.0, &scalar))
    }
}
impl<'p, 's> Mul<&'p DecafPoint> for &'s Scalar {
    type Output = DecafPoint;
    fn mul(self, point: &'p DecafPoint) -> DecafPoint {
        DecafPoint(double_and_add(&point.0,self))
    }
}
impl Mul<DecafPoint> for Scalar {
    type Output = DecafPoint;
    fn mul(self, point: DecafPoint) -> DecafPoint {
        DecafPoint(double_and_add(&point.0,&self))
    }
}
impl Mul<Scalar> for DecafPoint {
    type Output = DecafPoint;
    fn mul(self, scalar : Scalar) -> DecafPoint {
        DecafPoint(double_and_add(&self.0, &scalar))
    }
}

// Point addition 

impl<'a, 'b> Add<&'a DecafPoint> for &'b DecafPoint {
    type Output = DecafPoint;
    fn add(self, other: &'a DecafPoint) -> DecafPoint {
        DecafPoint(self.0.to_extensible().add_extended(&other.0).to_extended())
    }
}
impl Add<DecafPoint> for DecafPoint {
    type Output = DecafPoint;
    fn add(self, other: DecafPoint) -> DecafPoint {
        (&self).add(&other)
    }
}

// Point Subtraction 

impl<'a, 'b> Sub<&'a DecafPoint> for &'b DecafPoint {
    type Output = DecafPoint;
    fn sub(self, other: &'a DecafPoint) -> DecafPoint {
        DecafPoint(self.0.to_extensible().sub_extended(&other.0).to_extended())
    }
}
impl Sub<DecafPoint> for DecafPoint {
    type Output = DecafPoint;
    fn sub(self, other: DecafPoint) -> DecafPoint {
        (&self).sub(&other)
    }
}

// Point Negation 

impl<'b> Neg for &'b DecafPoint {
    type Output = DecafPoint;
    fn neg(self) -> DecafPoint {
        DecafPoint(self.0.negate())
    }
}
impl Neg for DecafPoint {
    type Output = DecafPoint;
    fn neg(self) -> DecafPoint {
        (&self).neg()
    }
}

"##

end Ed448.Text.Src
