import Verif.Text.IntScalar
import Verif.Model.Scalar

/-!
# The text of `Scalar::invert`

The text is run with any function for `montgomery_multiply`; the comparison with the loop of the model is
left to the kernel.
-/

set_option linter.all false
set_option maxRecDepth 100000

namespace Ed448.Text

theorem txt_invert (m s : List ℕ → List ℕ → List ℕ) (a : List ℕ) :
    (icall Ast.scalar [t! "Scalar"] (t! "invert") (scalarObjCtx Ast.scalar m s) [.obj a]).bind decW =
      (Model.invLoop (fun x y => some (m x y)) [0, 0, 0, 0, 0, 0, 0, 0, 0, 0, 0, 0, 0, 0]
        (m a R2words)).bind fun r => some (m r [1, 0, 0, 0, 0, 0, 0, 0, 0, 0, 0, 0, 0, 0]) := by
  krfl

end Ed448.Text
