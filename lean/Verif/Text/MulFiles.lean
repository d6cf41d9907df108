import Verif.Text.Parsed
import Verif.Text.MulSource

/-!
# The functions of the source files with scalar multiplications

See `Verif.Text.Files`.
-/

set_option linter.all false
set_option maxRecDepth 100000

namespace Ed448.Text

/-- The functions in `Src.doubleAndAdd`. -/
def Ast.doubleAndAdd : List Fn := parsed% parseFile 20000 Src.doubleAndAdd

theorem doubleAndAdd_eq : parseFile 20000 Src.doubleAndAdd = Ast.doubleAndAdd := by krfl

/-- The functions in `Src.doubleBase`. -/
def Ast.doubleBase : List Fn := parsed% parseFile 20000 Src.doubleBase

theorem doubleBase_eq : parseFile 20000 Src.doubleBase = Ast.doubleBase := by krfl

/-- The functions in `Src.variableBase`. -/
def Ast.variableBase : List Fn := parsed% parseFile 20000 Src.variableBase

theorem variableBase_eq : parseFile 20000 Src.variableBase = Ast.variableBase := by krfl

/-- The functions in `Src.wnaf`. -/
def Ast.wnaf : List Fn := parsed% parseFile 20000 Src.wnaf

theorem wnaf_eq : parseFile 20000 Src.wnaf = Ast.wnaf := by krfl

/-- The functions in `Src.decafOps`. -/
def Ast.decafOps : List Fn := parsed% parseFile 20000 Src.decafOps

theorem decafOps_eq : parseFile 20000 Src.decafOps = Ast.decafOps := by krfl

end Ed448.Text
