#!/usr/bin/env python3
"""Writes lean/Verif/Text/Source.lean ConstSource.lean and MulSource.lean: the source files of the crate that the reader of
`Verif.Text.Syntax` is applied to, copied byte for byte."""
import os

HERE = os.path.dirname(os.path.dirname(os.path.abspath(__file__)))
REPO = os.environ.get("REPO_SRC", "/repo/src")
FILES = [
    ("field", "field/mod.rs"),
    ("edAffine", "curve/edwards/affine.rs"),
    ("edExtended", "curve/edwards/extended.rs"),
    ("twAffine", "curve/twedwards/affine.rs"),
    ("twExtended", "curve/twedwards/extended.rs"),
    ("twExtensible", "curve/twedwards/extensible.rs"),
    ("twProjective", "curve/twedwards/projective.rs"),
    ("montgomery", "curve/montgomery/montgomery.rs"),
    ("decaf", "decaf/decaf.rs"),
    ("ristretto", "ristretto/ristretto.rs"),
    ("scalar", "field/scalar.rs"),
    ("u32Field", "field/u32/prime_field.rs"),
    ("karatsuba", "field/u32/karatsuba.rs"),
]
CONST = [
    ("constants", "constants.rs"),
    ("u32Const", "field/u32/constants.rs"),
    ("u64Const", "field/fiat_u64/constants.rs"),
    ("u64Field", "field/fiat_u64/prime_field.rs"),
]
MUL = [
    ("doubleAndAdd", "curve/scalar_mul/double_and_add.rs"),
    ("doubleBase", "curve/scalar_mul/double_base.rs"),
    ("variableBase", "curve/scalar_mul/variable_base.rs"),
    ("wnaf", "curve/scalar_mul/window/wnaf/mod.rs"),
    ("decafOps", "decaf/ops.rs"),
]

HEAD = """import Verif.Text.Syntax

/-!
# The text of source files of the crate

Written by tools/gen_text.py; do not edit. Each text is the cited file, byte for byte.
-/

set_option linter.all false

namespace Ed448.Text.Src
"""
for target, files in (("Source", FILES), ("ConstSource", CONST), ("MulSource", MUL)):
    out = [HEAD]
    for name, path in files:
        data = open(os.path.join(REPO, path), "rb").read()
        text = data.decode("utf-8")
        assert '"##' not in text and "\r" not in text
        out.append(f'/-- /repo/src/{path}:1-{text.count(chr(10))} -/\n'
                   f'def {name} : ℕ := t! r##"{text}"##\n')
    out.append("end Ed448.Text.Src\n")
    with open(os.path.join(HERE, "lean/Verif/Text/%s.lean" % target), "w", encoding="utf-8") as f:
        f.write("\n".join(out))
