import Verif.Proofs.Cost
import Verif.Props.Leakage

/-!
# Numbers of operations in the field (C92)

The translation of the source with leakage, run with a field backend that shows the name of each of its
operations, gives for each function the number of operations in the field it performs: for all inputs,
any field backend, also for coordinates that are not on the curve.
-/

namespace Ed448.Props
open Ed448.Model Ed448.Leak Ed448.Proofs

/-- On all inputs in `S` the function `f` returns the result of the source `g` and performs the
operations `n`. -/
def Performs {ι α : Type} (S : ι → Prop) (g : ι → Option α) (f : ι → Lk α) (n : Ops) : Prop :=
  ∀ x, S x → ∃ r T, g x = some r ∧ f x = some (r, T) ∧ ops T = n

theorem SameTrace.performs {ι α : Type} {S : ι → Prop} {g : ι → Option α} {f : ι → Lk α} {n : Ops}
    (h : SameTrace S g f) (c : ∀ x, S x → ∀ r, g x = some r → CostIf (· = r) (f x) n) :
    Performs S g f n := by
  obtain ⟨T, h⟩ := h
  intro x hx
  obtain ⟨r, e, e'⟩ := h x hx
  exact ⟨r, T, e, e', c x hx r e r T e' rfl⟩

theorem SameTrace.performs_inst {ι α : Type} {S : ι → Prop} {g : ι → Option α} {f : ι → Lk α} {n : Ops}
    (h : SameTrace S g f) (c : ∀ x, Cost (f x) n) : Performs S g f n :=
  h.performs fun x _ _ _ => CostIf.of_cost (c x)

theorem performs_of {ι α : Type} {S : ι → Prop} {g : ι → α} {f : ι → Lk α} {n : Ops}
    (h : ∀ x, Er (f x) (some (g x))) (c : ∀ x, Cost (f x) n) :
    Performs S (fun x => some (g x)) f n := by
  intro x _
  obtain ⟨⟨r, T⟩, e, e'⟩ := Option.map_eq_some_iff.mp (h x).er
  obtain rfl : r = g x := e'
  exact ⟨_, T, rfl, e, (c x).cost _ _ e⟩

variable {F L : Type} [FieldBackend F L]

attribute [local instance] counting

/-- Inversion takes 13 multiplications and 447 squarings: the 460 products of the comment in the source.
Square roots. -/
theorem C92_field :
    Performs (fun _ : F => True) Gen.Field.invert Leak.Field.invert { mul := 13, square := 447 } ∧
    Performs (fun _ : F => True) Gen.Field.inverse_square_root Leak.Field.inverse_square_root
      { mul := 14, square := 445, toBytes := 2 } ∧
    Performs (fun _ : F × F => True) (fun x => Gen.Field.sqrt_ratio x.1 x.2)
      (fun x => Leak.Field.sqrt_ratio x.1 x.2) { mul := 16, square := 445, toBytes := 4 } ∧
    Performs (fun _ : F × F => True) (fun x => some (Gen.Field.eq x.1 x.2))
      (fun x => Leak.Field.eq x.1 x.2) { toBytes := 2 } :=
  have h := C69_field (F := F)
  ⟨h.1.performs_inst fun _ => inferInstance, h.2.1.performs_inst fun _ => inferInstance,
    h.2.2.1.performs_inst fun _ => inferInstance, h.2.2.2.performs_inst fun _ => inferInstance⟩

/-- The formulas for points. `add_projective_niels` takes the 8 multiplications of its comment. -/
theorem C92_formulas :
    Performs (fun _ : EdPt F × EdPt F => True) (fun x => some (Gen.EdPt.add x.1 x.2))
      (fun x => Leak.EdPt.add x.1 x.2) { mul := 13, add := 4, sub := 4 } ∧
    Performs (fun _ : EdPt F => True) (fun x => some (Gen.EdPt.double x)) Leak.EdPt.double
      { mul := 13, add := 4, sub := 4 } ∧
    Performs (fun _ : TwExt F => True) (fun x => some (Gen.TwExt.double x)) Leak.TwExt.double
      { mul := 3, square := 5, add := 3, sub := 4, negate := 1 } ∧
    Performs (fun _ : TwExt F × PNiels F => True)
      (fun x => some (Gen.TwExt.add_projective_niels x.1 x.2))
      (fun x => Leak.TwExt.add_projective_niels x.1 x.2) { mul := 8, add := 3, sub := 3 } ∧
    Performs (fun _ : TwExt F × ANiels F => True)
      (fun x => some (Gen.TwExt.add_affine_niels x.1 x.2))
      (fun x => Leak.TwExt.add_affine_niels x.1 x.2) { mul := 7, add := 3, sub := 3 } ∧
    Performs (fun _ : TwExt F × TwPt F => True) (fun x => some (Gen.TwExt.add_extended x.1 x.2))
      (fun x => Leak.TwExt.add_extended x.1 x.2) { mul := 10, add := 4, sub := 3 } ∧
    Performs (fun _ : TwPt F × TwPt F => True) (fun x => some (Gen.TwPt.add x.1 x.2))
      (fun x => Leak.TwPt.add x.1 x.2) { mul := 11, add := 4, sub := 3 } ∧
    Performs (fun _ : TwPt F => True) (fun x => some (Gen.TwPt.double x)) Leak.TwPt.double
      { mul := 4, square := 5, add := 3, sub := 4, negate := 1 } ∧
    Performs (fun _ : (ProjMont F × ProjMont F) × F => True)
      (fun x => some (Gen.montgomery.differential_add_and_double x.1.1 x.1.2 x.2))
      (fun x => Leak.montgomery.differential_add_and_double x.1.1 x.1.2 x.2)
      { mul := 6, square := 4, add := 4, sub := 4 } :=
  ⟨performs_of (fun _ => inferInstance) fun _ => inferInstance,
    performs_of (fun _ => inferInstance) fun _ => inferInstance,
    performs_of (fun _ => inferInstance) fun _ => inferInstance,
    performs_of (fun _ => inferInstance) fun _ => inferInstance,
    performs_of (fun _ => inferInstance) fun _ => inferInstance,
    performs_of (fun _ => inferInstance) fun _ => inferInstance,
    performs_of (fun _ => inferInstance) fun _ => inferInstance,
    performs_of (fun _ => inferInstance) fun _ => inferInstance,
    performs_of (fun _ => inferInstance) fun _ => inferInstance⟩

theorem bits_length {s : List ℕ} (hs : W14 s) {x : List Bool} {t : List Ev}
    (e : Leak.Scalar.bits s = some (x, t)) : x.length = 448 := by
  have h : Gen.Scalar.bits s = some x :=
    (inferInstance : Er (Leak.Scalar.bits s) (Gen.Scalar.bits s)).er.symm.trans
      (congrArg Lk.val e)
  have h' := h.symm.trans (Source.bits hs.arr)
  cases h'
  exact Scalar.bits_len hs.arr

theorem double_and_add_cost (P : TwPt F) {s : List ℕ} (hs : W14 s) :
    Cost (Leak.double_and_add.double_and_add P s)
      { mul := 6720, square := 2240, add := 3136, sub := 3136, negate := 448, select := 1792 } := by
  unfold Leak.double_and_add.double_and_add
  refine Cost.of_eq (Cost.bind' Cost.call fun x t e => Cost.bind (Cost.of_eq (n' := Ops.times 448
    { mul := 15, square := 5, add := 7, sub := 7, negate := 1, select := 4 })
    (Cost.fold fun _ _ => by cost) ?_) fun _ => Cost.ret) rfl
  rw [List.length_reverse, bits_length hs e]
  rfl

/-- Scalar multiplication. -/
theorem C92_scalar_mul :
    Performs (fun x : EdPt F × List ℕ => W14 x.2) (fun x => Gen.EdPt.op_mul_Scalar x.1 x.2)
      (fun x => Leak.EdPt.op_mul_Scalar x.1 x.2)
      { mul := 2694, square := 4954, add := 1976, sub := 2307, negate := 565, select := 3971,
        strongReduce := 4 } ∧
    Performs (fun x : TwPt F × List ℕ => W14 x.2) (fun x => Gen.variable_base.variable_base x.1 x.2)
      (fun x => Leak.variable_base.variable_base x.1 x.2)
      { mul := 2559, square := 2260, add := 1958, sub := 2289, negate := 565, select := 3955 } ∧
    Performs (fun x : TwPt F × List ℕ => W14 x.2)
      (fun x => Gen.double_and_add.double_and_add x.1 x.2)
      (fun x => Leak.double_and_add.double_and_add x.1 x.2)
      { mul := 6720, square := 2240, add := 3136, sub := 3136, negate := 448, select := 1792 } ∧
    Performs (fun x : List ℕ × TwPt F × List ℕ => W14 x.1 ∧ W14 x.2.2)
      (fun x => Gen.double_base.double_base_scalar_mul x.1 x.2.1 x.2.2)
      (fun x => Leak.double_base.double_base_scalar_mul x.1 x.2.1 x.2.2)
      { mul := 13451, square := 4480, add := 6276, sub := 6275, negate := 896, select := 3584 } ∧
    Performs (fun x : List ℕ × List ℕ => Words 56 256 x.1 ∧ W14 x.2)
      (fun x => Gen.MontgomeryPoint.op_mul_Scalar (F := F) x.1 x.2)
      (fun x => Leak.MontgomeryPoint.op_mul_Scalar (F := F) x.1 x.2)
      { mul := 2702, square := 2239, add := 1792, sub := 1792, select := 1792, fromBytes := 1,
        toBytes := 1 } ∧
    Performs (fun x : DecafPt F × List ℕ => W14 x.2) (fun x => Gen.DecafPt.op_mul_Scalar x.1 x.2)
      (fun x => Leak.DecafPt.op_mul_Scalar x.1 x.2)
      { mul := 6720, square := 2240, add := 3136, sub := 3136, negate := 448, select := 1792 } := by
  obtain ⟨h1, h2, h3, h4, h5, h6⟩ := C69_scalar_mul (F := F)
  refine ⟨h1.performs_inst fun _ => inferInstance, h2.performs_inst fun _ => inferInstance,
    h3.performs fun x hx _ _ => CostIf.of_cost (double_and_add_cost x.1 hx),
    h4.performs fun x hx _ _ => CostIf.of_cost ?_, h5.performs_inst fun _ => inferInstance,
    h6.performs fun x hx _ _ => CostIf.of_cost ?_⟩
  · unfold Leak.double_base.double_base_scalar_mul
    exact Cost.of_eq (Cost.bind (double_and_add_cost _ hx.1) fun _ =>
      Cost.bind (double_and_add_cost _ hx.2) fun _ => Cost.bind Cost.call fun _ => Cost.ret) rfl
  · unfold Leak.DecafPt.op_mul_Scalar
    exact Cost.of_eq (Cost.bind (double_and_add_cost _ hx) fun _ => Cost.ret) rfl

/-- The maps between the curves, equality, the test for the prime-order subgroup, sums of points. -/
theorem C92_group :
    Performs (fun _ : EdPt F => True) Gen.EdPt.to_twisted Leak.EdPt.to_twisted
      { mul := 48, square := 1347, add := 3, sub := 3, strongReduce := 2 } ∧
    Performs (fun _ : TwPt F => True) Gen.TwPt.to_untwisted Leak.TwPt.to_untwisted
      { mul := 48, square := 1347, add := 3, sub := 3, strongReduce := 2 } ∧
    Performs (fun _ : EdPt F => True) Gen.EdPt.to_montgomery Leak.EdPt.to_montgomery
      { mul := 31, square := 895, sub := 2, strongReduce := 2, toBytes := 1 } ∧
    Performs (fun _ : EdPt F × EdPt F => True) (fun x => some (Gen.EdPt.eq x.1 x.2))
      (fun x => Leak.EdPt.eq x.1 x.2) { mul := 4, toBytes := 4 } ∧
    Performs (fun _ : EdPt F => True) Gen.EdPt.is_torsion_free Leak.EdPt.is_torsion_free
      { mul := 2698, square := 4954, add := 1976, sub := 2307, negate := 565, select := 3971,
        strongReduce := 4, toBytes := 4 } ∧
    Performs (fun _ : DecafPt F × DecafPt F => True) (fun x => some (Gen.DecafPt.op_add x.1 x.2))
      (fun x => Leak.DecafPt.op_add x.1 x.2) { mul := 11, add := 4, sub := 3 } ∧
    Performs (fun _ : DecafPt F × DecafPt F => True) (fun x => some (Gen.DecafPt.op_sub x.1 x.2))
      (fun x => Leak.DecafPt.op_sub x.1 x.2) { mul := 11, add := 3, sub := 4 } ∧
    Performs (fun _ : DecafPt F × DecafPt F => True) (fun x => some (Gen.DecafPt.equals x.1 x.2))
      (fun x => Leak.DecafPt.equals x.1 x.2) { mul := 2, toBytes := 2 } ∧
    (∀ n, Performs (fun l : List (EdPt F) => l.length = n) (fun l => some (Gen.EdPt.sum l))
      Leak.EdPt.sum { mul := n * 13, add := n * 4, sub := n * 4 }) := by
  obtain ⟨-, -, -, -, h5, -, h7, h8, h9, h10, h11, h12, h13, h14⟩ := C69_group (F := F)
  refine ⟨h7.performs_inst fun _ => inferInstance, h8.performs_inst fun _ => inferInstance,
    h9.performs_inst fun _ => inferInstance, h5.performs_inst fun _ => inferInstance,
    h10.performs_inst fun _ => inferInstance, h11.performs_inst fun _ => inferInstance,
    h12.performs_inst fun _ => inferInstance, h13.performs_inst fun _ => inferInstance,
    fun n => (h14 n).performs fun l hl _ _ => ?_⟩
  subst hl
  exact CostIf.of_cost inferInstance

/-- Encoding and decoding. The decoder for points does one multiplication less for a string it
rejects. -/
theorem C92_codec :
    Performs (fun _ : EdPt F => True) Gen.EdPt.compress Leak.EdPt.compress
      { mul := 15, square := 447, strongReduce := 2, toBytes := 2 } ∧
    Performs (fun _ : DecafPt F => True) Gen.DecafPt.compress Leak.DecafPt.compress
      { mul := 23, square := 446, add := 1, sub := 2, negate := 2, select := 2, toBytes := 5 } ∧
    Performs (fun b => Words 57 256 b ∧ ∃ P : EdPt F, Gen.CompressedEdwardsY.decompress b = some (some P))
      (Gen.CompressedEdwardsY.decompress (F := F)) Leak.CompressedEdwardsY.decompress
      { mul := 18, square := 446, sub := 2, negate := 1, select := 1, fromBytes := 1, toBytes := 5 } ∧
    Performs (fun b => Words 57 256 b ∧
        Gen.CompressedEdwardsY.decompress b = some (none : Option (EdPt F)))
      (Gen.CompressedEdwardsY.decompress (F := F)) Leak.CompressedEdwardsY.decompress
      { mul := 17, square := 446, sub := 2, fromBytes := 1, toBytes := 4 } ∧
    Performs (fun b => Words 56 256 b ∧ ∃ P : DecafPt F, Gen.CompressedDecaf.decompress b = some (some P))
      (Gen.CompressedDecaf.decompress (F := F)) Leak.CompressedDecaf.decompress
      { mul := 23, square := 447, add := 3, sub := 1, negate := 1, select := 1, fromBytes := 1,
        toBytes := 6 } := by
  obtain ⟨h1, h2, h3, h4, h5⟩ := C69_codec (F := F)
  refine ⟨h1.performs_inst fun _ => inferInstance, h2.performs_inst fun _ => inferInstance,
    h3.performs ?_, h4.performs ?_, h5.performs ?_⟩
  · rintro b ⟨-, P, e⟩ r e'
    obtain rfl : some P = r := Option.some_inj.1 (e.symm.trans e')
    exact fun a t x y => Leak.decompress_cost a t x (y ▸ rfl)
  · rintro b ⟨-, e⟩ r e'
    obtain rfl : none = r := Option.some_inj.1 (e.symm.trans e')
    exact fun a t x y => Leak.decompress_cost_none a t x (y ▸ rfl)
  · rintro b ⟨-, P, e⟩ r e'
    obtain rfl : some P = r := Option.some_inj.1 (e.symm.trans e')
    exact fun a t x y => Leak.decaf_decompress_cost a t x (y ▸ rfl)

/-- Inverting zero takes as many products as inverting any other element, with every backend. -/
example (x : F) : ∃ r T r' T', Leak.Field.invert (FieldBackend.zero : F) = some (r, T) ∧
    Leak.Field.invert x = some (r', T') ∧ (ops T).products = 460 ∧ (ops T').products = 460 := by
  obtain ⟨r, T, -, h, e⟩ := (C92_field (F := F)).1 FieldBackend.zero trivial
  obtain ⟨r', T', -, h', e'⟩ := (C92_field (F := F)).1 x trivial
  exact ⟨r, T, r', T', h, h', by rw [e]; rfl, by rw [e']; rfl⟩

/-- The numbers are those of the observations: a function that squares twice and multiplies once. -/
example (x : F) : ((Leak.Field.square_n (F := F) x 2).bind fun y =>
      Lk.tell (LeakBackend.mulTr F (FieldBackend.relax x) (FieldBackend.relax y)) (x *ᶠ y)).tr =
    [.op .square, .loop 1, .op .square, .op .mul] := rfl

end Ed448.Props
