import Verif.Text.Parsed

/-!
# The functions of the source files

For each source file the list of its functions, and the proof that the parser returns it.
-/

set_option linter.all false
set_option maxRecDepth 100000

namespace Ed448.Text

/-- The functions in `Src.field`. -/
def Ast.field : List Fn := parsed% parseFile 20000 Src.field

theorem field_eq : parseFile 20000 Src.field = Ast.field := by krfl

/-- The functions in `Src.edAffine`. -/
def Ast.edAffine : List Fn := parsed% parseFile 20000 Src.edAffine

theorem edAffine_eq : parseFile 20000 Src.edAffine = Ast.edAffine := by krfl

/-- The functions in `Src.edExtended`. -/
def Ast.edExtended : List Fn := parsed% parseFile 20000 Src.edExtended

theorem edExtended_eq : parseFile 20000 Src.edExtended = Ast.edExtended := by krfl

/-- The functions in `Src.twAffine`. -/
def Ast.twAffine : List Fn := parsed% parseFile 20000 Src.twAffine

theorem twAffine_eq : parseFile 20000 Src.twAffine = Ast.twAffine := by krfl

/-- The functions in `Src.twExtended`. -/
def Ast.twExtended : List Fn := parsed% parseFile 20000 Src.twExtended

theorem twExtended_eq : parseFile 20000 Src.twExtended = Ast.twExtended := by krfl

/-- The functions in `Src.twExtensible`. -/
def Ast.twExtensible : List Fn := parsed% parseFile 20000 Src.twExtensible

theorem twExtensible_eq : parseFile 20000 Src.twExtensible = Ast.twExtensible := by krfl

/-- The functions in `Src.twProjective`. -/
def Ast.twProjective : List Fn := parsed% parseFile 20000 Src.twProjective

theorem twProjective_eq : parseFile 20000 Src.twProjective = Ast.twProjective := by krfl

/-- The functions in `Src.montgomery`. -/
def Ast.montgomery : List Fn := parsed% parseFile 20000 Src.montgomery

theorem montgomery_eq : parseFile 20000 Src.montgomery = Ast.montgomery := by krfl

/-- The functions in `Src.decaf`. -/
def Ast.decaf : List Fn := parsed% parseFile 20000 Src.decaf

theorem decaf_eq : parseFile 20000 Src.decaf = Ast.decaf := by krfl

/-- The functions in `Src.ristretto`. -/
def Ast.ristretto : List Fn := parsed% parseFile 20000 Src.ristretto

theorem ristretto_eq : parseFile 20000 Src.ristretto = Ast.ristretto := by krfl


/-- The functions in `Src.scalar`. -/
def Ast.scalar : List Fn := parsed% parseFile 20000 Src.scalar

theorem scalar_eq : parseFile 20000 Src.scalar = Ast.scalar := by krfl

/-- The functions in `Src.u32Field`. -/
def Ast.u32Field : List Fn := parsed% parseFile 20000 Src.u32Field

theorem u32Field_eq : parseFile 20000 Src.u32Field = Ast.u32Field := by krfl

/-- The functions in `Src.karatsuba`. -/
def Ast.karatsuba : List Fn := parsed% parseFile 20000 Src.karatsuba

theorem karatsuba_eq : parseFile 20000 Src.karatsuba = Ast.karatsuba := by krfl

end Ed448.Text
