# Formal model of Ed448-Goldilocks in Lean 4

Source modelled: `/repo` (crate-crypto/Ed448-Goldilocks, pinned commit), read as text, never built or run.

## 1. Layout (`/verif/lean/Verif/`)

| Folder | Content |
|---|---|
| `Spec/` | Small, code-independent specification: p, l, d (`Params`); little-endian value of digit strings (`Bytes`); the affine Edwards curve and its group law (`Edwards`, `Curve`); Curve448 as a Mathlib Weierstrass curve and its u-coordinates (`Curve448`); primality certificates (`PowMod`, `Primes`). |
| `Model/` | The code, function by function. Every definition cites file and lines. `Prog` adds a small language of programs over the library, `Ops` the operator traits. |
| `Gen/` | A second, mechanical rendering of the source: `tools/rust2lean.py` translates the Rust text statement by statement (section 6). |
| `Proofs/` | Helper lemmas. `Source*.lean` prove the model equal to the translation. |
| `Text/` | The text of source files, and a reader and interpreter of Rust in Lean (C99 to C103). |
| `Props/` | One file per area with the property theorems (named in `MANIFEST.json`) and, beside each, a concrete witness (`example`) that its hypotheses are met. |

`tools/` writes `properties.jsonl`, `MANIFEST.json` and the import list `lean/Verif.lean`. `seeded/LOG.jsonl` is the mutation log (section 5).

## 2. Modelling decisions

* **Machine integers** are `Nat`/`Int` with explicit casts (`x as u32` is `x % 2^32`, arithmetic shift is floor division). Rust's plain
  `+ - *` on integers panics on overflow in debug builds and wraps in release builds. The model uses *checked* operations
  returning `Option` (`none` = overflow panic), so a theorem `f x = some r` covers both build modes. `wrapping_*` operations wrap.
  `assert!` failures are `none` as well.
* **`Scalar`** is a list of 14 limbs below 2^32; **byte arrays** are lists of bytes with a fixed length, both as subtypes.
  Specification values use Mathlib's `Nat.ofDigits`.
* **Field backends.** The code above `src/field` is written against `FieldElement`, which is one of two backends selected by
  a cargo feature. It is modelled once, generically over a class `FieldBackend F L` listing the operations the code calls
  (`F` = field elements, `L` = operands allowed in a multiplication, i.e. fiat's *loose* elements).
  `Lawful` (with `FieldVal`, in `Proofs/Lawful.lean`) is the specification: a map `val` to `ZMod p` commuting with every operation,
  `to_bytes` being canonical, and the constants having their values. Theorems above the field hold for every lawful backend. Instances:
  * *32-bit backend* `U32.Fe` (`src/field/u32`): modelled limb by limb (Karatsuba multiplication, squaring with wrapping u64, weak and strong
    reduction, bias, codec) and **proved** lawful, including absence of overflow panics. `F` is the subtype of limb vectors within the bound.
  * *64-bit backend* `Fiat.Fe I` (`src/field/fiat_u64`): the wrapper and the constants are modelled; the fiat-crypto functions are an external
    dependency not in the repo, so they are a parameter `I : Impl`: functions with their documented `Contract`, and `RelaxCopies` (`relax` copies its
    argument even outside its documented domain). The second assumption is needed because constants exceed the tight bound; `C48` proves that the
    contract alone does not suffice. A reference implementation shows both are satisfiable.
  * *Ideal* `Fp` and *fast* `Fast` backends, for proofs and kernel evaluation only.
  * *Symbolic* `Sym.Field out` (not lawful): expressions without the choice bits of masked selections, for the data-flow theorems C53.
* **`subtle`** (`Choice`, `ct_eq`, `conditional_select`, `conditional_swap`, `conditional_negate`) is modelled by `Bool`, equality and `if`;
  time is not modelled, but the second translation records what the source shows to an observer (section 7, C68, C69).
* Mutation through `&mut` returns the new value; loops are structural recursion over limbs or folds over the literal index range.
* `todo!()` is an explicit panic value.

## 3. Trusted base

* Lean 4.33.0's kernel. Axioms of every theorem: at most `propext`, `Classical.choice`, `Quot.sound` (checked by `vcheck`). No axiom, `sorry`,
  `native_decide` or `bv_decide` is used; numeric facts (order of the base point, primality) are evaluated by the kernel (`decide +kernel`).
* The reading of the Rust code into `Model/`. Where `Proofs/Source*.lean` proves a model function equal to its mechanical translation, the translator
  (`tools/rust2lean.py`) and the small runtime `Gen/Rt.lean` are trusted instead of the hand reading (section 6).
* For the functions and constants in C99 to C103 neither is trusted, but the Lean reader and interpreter of Rust in `Text/`, and that `tools/gen_text.py` copied the files.
* For the 64-bit backend only: fiat-crypto 0.2 `p448_solinas_64` meets `Contract` and `RelaxCopies` (bounds quoted from its documentation, not in the repo).
* `subtle`, `std`, `rand_core` behave as described above; for `Scalar::random` the RNG is any state with a function that gives as many bytes as asked
  and the next state, and that returns.

* SHAKE256 is not part of the crate: in C58 its outputs are inputs.
* For C78 to C80 and C84: the transcription of the RFCs' algorithms in `Spec/Rfc9496.lean`, `Spec/Rfc8032.lean`, `Spec/Rfc8032Sign.lean` and `Spec/Rfc7748.lean` (from memory of
  the published text, there is no network here). They share no definition with the model, and the theorems would fail for most slips.

Not modelled: timing of the compiled code (section 7 has the leakage model of the source), memory
layout, `benches/`, the flags of `{:?}`. For C94 the formatting rules of `std` (decimal numbers, `Name(..)`,
`Name { .. }`), its hashing of arrays and the derive of `zeroize` are written by hand in `Model/Debug.lean`. The crate's own tests are translated (C75).

## 4. Plan per property

See `properties.jsonl` for the statements. Status is tracked in `MANIFEST.json`.

| Id | Model | Proof |
|---|---|---|
| C01, C02 | ripple add/sub over limb lists, `sub_extra` | induction on limbs: value of digits plus carry; case split on final borrow |
| C03 | `montgomery_multiply` loops | loop invariant `result*2^(32 i) = x_lo*y + m*l`; bound `T < R + l`; the second multiply by R2 makes the result canonical |
| C04 | sliding-window loop | the loop is data-independent: run it on exponents, kernel computes the exponent l-2; Fermat with `l` prime (Pratt certificate) |
| C05, C06, C10 | `halve`, codecs, `bits` | digit-string induction |
| C07 | `from_canonical_bytes` | exact case analysis around l |
| C08, C09 | wide reduction | C03 plus constants R, R2; counting fibres of `n mod l` on `[0,2^912)` |
| C11 | same | false: negation with a concrete witness; `_partial` theorem under the exact guard |
| C12 | same | corollary of C01-C04 |
| C13-C15 | `ExtendedPoint` over a generic backend | relation "represents affine point R"; completeness from d non-square; associativity by polynomial certificate; reachability by induction over API histories |
| C16, C17, C25-C28 | isogenies, twisted extended/extensible/Niels formulas, radix-16, table | twisted points are tracked as images phi(R) of Edwards points; explicit non-vanishing of denominators on the image; phi-hat(phi(R)) = 4R |
| C18, C19 | `is_torsion_free` | kernel evaluates l*G; #E = 4l from: l divides #E, 4 divides #E, no point of order 8, #E <= 2p |
| C20-C23 | `compress`/`decompress` | square-root lemma; C23 is false: negation with witness, exact characterisation instead |
| C24, C29 | `torque`, `Sum` | group law |
| C30-C35 | ladder | x-only arithmetic as an abstract interface, instantiated on the Edwards curve and on Mathlib's Weierstrass group over the algebraic closure. C31/C32 are false for odd scalars (the final conditional swap is missing): negation with witness, theorem that the ladder computes (s + s mod 2)P |
| C36-C43 | Decaf | points are tracked as +-phi(R); decode lifts to the Edwards curve since d is a non-square; C41 from C19 |
| C44, C45 | 32-bit backend | limb-level algebra, bounds, carries |
| C46 | addition chains | exponents computed; Fermat and Euler |
| C47, C48 | backend class, `Prog` | everything observable factors through `ZMod p`: programs over the library evaluate to the same result on all lawful backends. C48 is false from the documentation alone: negation, theorem under `RelaxCopies` |
| C49 | constants | kernel arithmetic; the sign in the documentation comment of `BASEPOINT_ORDER` is proved wrong |
| C50 | `todo!()` | by definition of the panic value (recorded for completeness) |
| C51 | Ristretto `equals` | as Decaf, and on the whole twisted curve |
| C52 | affine Niels form | false: negation with witness, and what is computed |
| C53 | scalar multiplication on `Sym.Field` | timing is a property of compiled code and hardware; the part about the source (same field operations for all scalars) is proved, `_partial` |
| C54-C56 | twisted curve | completeness on the image, exceptional pairs; affine and cached forms |
| C57 | all | kernel evaluation on `Fast`, carried to all lawful backends by C47 |
| C58, C59 | RFC 8032 and RFC 7748 as `Prog`s | from the Edwards and ladder properties |
| C60, C61 | operators, limb access | from C13-C16; digit strings |
| C62, C63 | X448 zero outputs and collisions | Frobenius on Curve448 over the algebraic closure; the curve and its twist have `2p + 2` points together; primality certificate for the twist order (`Spec/Twist`); `8 l P = 0` transported from the Edwards curve by the ladder |
| C64–C67 | The same facts about the mechanical translation | `Proofs/Source*`: translation = model, function by function; then C01–C45, C66 for the field interface |
| C68, C69 | the translation with leakage, `Gen/Leak*` | `Proofs/LeakScalar`, `LeakCurve`: two runs show equal events; `Proofs/LeakErase*`: without events it is the first translation; then C64–C67 for absence of panics |
| C75 | `#[test]` functions of the crate | `Gen/Tests`, `Props/Tests`: the translated tests run to their end on the translated source |
| C76 | release builds | `Gen/Rel*`, `Proofs/RelRef*`, `Props/Release`: third translation, with wrapping arithmetic; it returns what the first returns |
| C77 | repaired source | `repairs/*.patch`, `Gen/Fix*`, `Proofs/FiatFixed`, `Props/Repairs`, `Props/RepairTests`: translation of the patched source; each claim that is false for the source is proved for it |
| C78 | Decaf against RFC 9496 | `Spec/Rfc9496`, `Proofs/Rfc9496`, `Props/Rfc9496`: the RFC's algorithms as written, related to the library's points |
| C79 | Edwards encoding against RFC 8032 | `Spec/Rfc8032`, `Props/Rfc` |
| C80 | ladder and X448 against RFC 7748 | `Spec/Rfc7748`, `Props/Rfc` |
| C81 | signatures | `Props/Signatures`: programs over the library; the equation in logarithms (`dlog`, modulo points of order 4) |
| C82 | Decaf protocols | `Props/DecafProtocols`: programs on strings; each accepted string has one logarithm modulo the order |
| C83 | the repaired source with leakage and with wrapping arithmetic | `Proofs/FixLeak`: the same three facts as for C68, C69, C76; `Props/RepairLeakage` |
| C84 | Ed448, X448, Decaf Diffie–Hellman over the translated functions, four builds, against the RFCs | programs generic in the functions they call (`Api`); one specification `Api.Ok` of these functions, proved for each build; `Spec/Rfc8032Sign`, `Spec/Shake256`; `Props/SourceProtocols`, `Props/Ed448Vectors` |
| C85 | the same programs with leakage | the programs run in the recording monad; C68, C69, C83 |
| C86 | all programs over the translated source | `Prog` with the translated functions as operations, with checks and wrapping; induction on the program |
| C87 | programs with secrets as data are constant time | a language whose programs cannot look at a secret without declaring it; pairs of runs, induction on the program |
| C88 | all forms of the operators, defaults, accessors | the lemmas of `Proofs/Source*`, one per form; the tactics for observations and release builds |
| C89 | `Scalar::random` for any generator | C08; counting residues below 2^912; splitting strings |
| C90 | every program over the repaired source computes what it computes over numbers, points and exponents | a relation between objects of the source and mathematical objects, kept by every call; C76, C77, C78, C79, C80 |
| C91 | every program over the original source, with the departures of four groups of calls described exactly | the same relation; `Scalar.add_spec`, `subExtra_spec`, C71, C72 |
| C92 | how many operations in the field each function performs, on all inputs | translation with leakage over a backend that shows the names of its operations; `Proofs/Cost` |
| C93 | the number of points of the twisted curve, and its two kinds of points | sums of the quadratic character (`Proofs/TwCount`), counting of the images |
| C94 | texts of `Debug`, calls of `Hash`, effect of `Zeroize` | texts can be read from the left: digits end at a sign that is no digit |
| C95 | the curve admits none of the known shortcuts (transfer, anomalous, supersingular, small j) | primes of l-1 from the certificates divide the order of p modulo l |
| C96 | every function of the model is the translated function | lists the equations of `Proofs/Source*.lean` |
| C97 | the claims of the comments and the readme, proved or refuted | from the lemmas of the other properties, on the translated source |
| C98 | bounds of `mul` and `square` in 32-bit words | `tools/gen_narrow.py` writes `Gen/Narrow`: the source with i64 for i128, and `mul` with the signed type as a parameter. `Proofs/MulBounds` bounds every intermediate result in units of the largest product; `Proofs/U32MulLoose` gives the values for larger limbs |
| C99 | text of ten source files | `Text/Source` holds the files byte for byte (as numbers), `Text/Syntax` a lexer and parser, `Text/Interp` an interpreter, `Text/Crate` the table of callees (model functions). `Text/Files` evaluates the parser in the kernel; `Props/SourceText` then runs each function on variables, also in the kernel |
| C100 | texts of src/field/scalar.rs and src/field/u32 | `Text/IntEval` interprets arrays and machine integers over a parameter `Ops` (`Gen/Ops`), the operations; a fourth pass of `tools/rust2lean.py` writes the translation over the same parameter (`Gen/Par*`; `Text/Bridge`: for `Ops.release` it is `Gen/Rel*`). `Text/IntScalar`, `Text/IntField`, `Text/IntInvert` run the texts on arrays of variables in the kernel; as the operations are variables too, the kernel cannot unfold them and only compares structure. `Props/SourceInt` combines this with C76 and C64/C65. A literal without a type takes the type of the other operand; a subexpression changes no variable; a false assertion shows at the end of the function; the constants MODULUS, R, R2 and MASK are copied by hand. |
| C101 | texts of the files of constants | `Text/Const` finds a constant by its name among the tokens of `Text/ConstSource`, parses its expression and takes the numbers out of it; names of structures around the numbers are not looked at. |
| C102 | texts of src/curve/scalar_mul, src/decaf/ops.rs, the multiplications in edwards/extended.rs and montgomery.rs | `Text/MulCrate` runs the texts in the kernel with variables for points, bits and digits and for all operations (`MulOps`). `Props/SourceMul` puts in the formulas of the model (equal to the text by C99), the bits, digits and `div_by_four` that the text of scalar.rs returns (C100), and in stages the results of the texts of the callees. A method is found by its name; where two types have methods of one name (`identity`, `add`, `double`), the table for the file says which one is meant. `conditional_swap` is subtle's. Macro-generated forms of the operators, `+=`, `-=`, `*=` and `Sum` are not read from the text. |
| C103 | `compress` and `decompress` in the text of edwards/extended.rs, `decompress` in that of decaf.rs, `from_canonical_bytes` in that of scalar.rs | `Text/EncCrate` and `Text/EncDecaf` run the texts in the kernel with variables for bytes, field elements and operations (`EncOps`); a run is cut at each early return, and both branches are run. `Props/SourceEnc` puts in the operations of the model. Before the run of `compress`, `Fn.plain` writes `a.x` as a method, `*a.last_mut().unwrap()` as `a[a.len() - 1]`, and separates a loop from a `*` in the next line, which the parser takes for a product. `^` on `Choice` is passed on as the only operator of that type. `Text/EncScalar` runs `from_canonical_bytes` for any `from_bytes`, `sub_extra` and `==`; those put in are the texts of C100, with `==` comparing the bytes of `to_bytes`. |
| C70–C74 | as C11, C23, C31, C35, C52 | `Props/Exact`: the exact behaviour on all inputs where the expected claim fails, and a repaired program proved right |

## 5. Mutation testing

Each mutation edits one model definition in a scratch copy like a realistic bug. The build is repeated, replacing each failing proof by `sorry`, until
everything compiles; then the manifest theorems that depend on a replaced proof are the ones that *failed*, and manifest theorems that mention the
edited definition but still hold are inspected: either their claim is not broken by the edit or they are tightened. One line per attempt is in
`seeded/LOG.jsonl`.

## 6. Mechanical translation

`Model/` is written by hand, in a form that suits proofs. To check it against the text of the source, `tools/rust2lean.py` parses the Rust files and
emits one Lean definition per function (`Gen/Scalar`, `Gen/U32`, `Gen/Curve`; `Gen/Rt` holds the meaning of indexing, casts, shifts, ranges and so on,
written by hand). Rules: `let`, assignment and `&mut` become shadowing `let`; a `for` loop becomes `foldlM` over its index list with the assigned
variables as state; each operation that can panic is an `Option` bound where Rust evaluates it; integer types are inferred by unification as in Rust.
The translator knows nothing about `Model/`. `Proofs/Source*.lean` then prove, for all inputs, that translated function and model function agree,
including when they panic.

Everything is covered except the `Debug` formatters (by hand, `Model/Debug.lean`): 215 functions, among them both backends, the expansions of the
operator macros, `Sum`, `Index`/`IndexMut` and the constants. C64–C67 (`Props/Source.lean`) restate the main properties about the translated functions
alone, with arrays as lists of numbers, so a reader can check them against the Rust text without reading `Model/`.

The curve code is translated over the class `FieldBackend` (the Rust code is generic through a type alias chosen by a feature flag); C66 says that the
two instances of the class are, limb for limb, the translated backends.

The forty `#[test]` functions are translated too (`Gen/Tests`), with strings as lists of byte values. `Props/Tests` proves that each of them returns
(C75). They are not run to find bugs in the crate: they check the translator and `Gen/Rt` against results the authors recorded.

A third pass (`Gen/RelScalar`, `RelU32`, `RelCurve` over `Gen/Release`) replaces the overflow checks by wrapping arithmetic, as in a release build.
`Proofs/RelRef*.lean` (one instance per function, written by `tools/gen_relref.py`) prove that wherever the checked translation returns, the wrapping one
returns the same; with the totality theorems this gives C76. A function without arithmetic that can overflow is shared with the first pass.

**Repaired source.** repairs/ holds one patch for each claim that is false for the crate as it is (C11, C23, C31 with C32, C35, C48, C52).
tools/gen_fix.py applies them to a copy of /repo/src, runs the translator on the copy and writes what differs from `Gen`, and what uses
it, to `Gen/Fix.lean` (functions and constants) and `Gen/FixTests.lean` (tests of the crate),
and with leakage and wrapping arithmetic to `Gen/FixLeak.lean` and `Gen/FixRel.lean`. The patches are not part of the crate;
they show that each refuted claim is met by a small change, and that the change breaks nothing that was right.

## 7. Leakage

`tools/rust2lean.py` translates the source a second time into the monad `Lk` (`Gen/Leak.lean`), which records events: the outcome of each `if`,
`&&` and `||`; the number of iterations of each loop; each array index, slice start and shift amount that is not a literal; for `==` of arrays the
length of the common prefix. Arithmetic, casts and the operations of `subtle` show nothing, and neither do the fiat-crypto functions (assumption).
A panic ends the run; panics are excluded separately (C64–C67). A function without such constructs, calling only such functions, is called through the
first translation.

* `Proofs/LeakLogic.lean`: rules for two runs of programs (`CT`, `CTP`), and for dropping the events (`Er`), with tactics that follow the syntax.
* `Proofs/LeakScalar.lean`, `LeakCurve.lean`: for each function, two runs on any operands show the same events.
* `Proofs/LeakErase.lean`, `LeakEraseCurve.lean`: for each function, dropping the events gives the function of the first translation.
* `Proofs/LeakBackend.lean`: the events of the field interface are those of the translated backends.
* `Props/Leakage.lean`: for each public function one fixed list of events for all inputs, together with the result (C68, C69).
* `Proofs/Cost.lean`, `Props/Cost.lean`: the same translation over a field backend whose operations show their names (`Ev.op`, no event of the
  translated backends); counting these gives the numbers of operations (C92).

Not covered: the compiler, the processor, `Display`/`Debug`, what a random generator shows.
