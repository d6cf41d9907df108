import Verif.Gen.LeakScalar
import Verif.Gen.LeakU32
import Verif.Gen.LeakFiat
import Verif.Proofs.LeakLogic

/-!
# Observations of the scalar and field operations

The observations of each operation are the same for all operands. `ct` follows the two programs; it
fails at a branch, an index or a shift amount that differs between them.
-/

namespace Ed448.Leak
open Ed448.Model

instance {self₁ self₂ : List ℕ} :
    CTT (Scalar.to_bytes self₁) (Scalar.to_bytes self₂) := ⟨by
  unfold Scalar.to_bytes
  ct⟩

instance {self₁ other₁ self₂ other₂ : List ℕ} :
    CTT (Scalar.ct_eq self₁ other₁) (Scalar.ct_eq self₂ other₂) := ⟨by
  unfold Scalar.ct_eq
  ct⟩

instance {self₁ other₁ self₂ other₂ : List ℕ} :
    CTT (Scalar.eq self₁ other₁) (Scalar.eq self₂ other₂) := ⟨by
  unfold Scalar.eq
  ct⟩

instance {a₁ a₂ : ℕ} :
    CTT (Scalar.from a₁) (Scalar.from a₂) := ⟨by
  unfold Scalar.from
  ct⟩

instance {a₁ b₁ a₂ b₂ : List ℕ} {carry₁ carry₂ : ℕ} :
    CTT (scalar.sub_extra a₁ b₁ carry₁) (scalar.sub_extra a₂ b₂ carry₂) := ⟨by
  unfold scalar.sub_extra
  ct⟩

instance {a₁ b₁ a₂ b₂ : List ℕ} :
    CTT (scalar.add a₁ b₁) (scalar.add a₂ b₂) := ⟨by
  unfold scalar.add
  ct⟩

instance {self₁ rhs₁ self₂ rhs₂ : List ℕ} :
    CTT (Scalar.op_add self₁ rhs₁) (Scalar.op_add self₂ rhs₂) := ⟨by
  unfold Scalar.op_add
  ct⟩

instance {x₁ y₁ x₂ y₂ : List ℕ} :
    CTT (scalar.montgomery_multiply x₁ y₁) (scalar.montgomery_multiply x₂ y₂) := ⟨by
  unfold scalar.montgomery_multiply
  ct⟩

instance {self₁ rhs₁ self₂ rhs₂ : List ℕ} :
    CTT (Scalar.op_mul self₁ rhs₁) (Scalar.op_mul self₂ rhs₂) := ⟨by
  unfold Scalar.op_mul
  ct⟩

instance {self₁ rhs₁ self₂ rhs₂ : List ℕ} :
    CTT (Scalar.op_sub self₁ rhs₁) (Scalar.op_sub self₂ rhs₂) := ⟨by
  unfold Scalar.op_sub
  ct⟩

instance {self₁ self₂ : List ℕ} :
    CTT (Scalar.div_by_four self₁) (Scalar.div_by_four self₂) := ⟨by
  unfold Scalar.div_by_four
  ct⟩

instance {self₁ self₂ : List ℕ} :
    CTT (Scalar.to_radix_16 self₁) (Scalar.to_radix_16 self₂) := ⟨by
  unfold Scalar.to_radix_16
  ct⟩

/-- The number of bits is the same for scalars of the same length. -/
theorem bits_ct {a b : List ℕ} (h : a.length = b.length) :
    CT (fun x y => x.length = y.length) (Scalar.bits a) (Scalar.bits b) := by
  unfold Scalar.bits
  refine CT.bind (R := fun x y => x.length = y.length) ?_ fun _ _ e => CT.ret e
  refine CT.fold₂ h rfl fun i j s t e => ?_
  refine CT.bind (R := fun x y => x.length = y.length) ?_ fun _ _ e => CT.ret e
  refine CT.fold e fun i s t e => ?_
  refine CT.bind_same fun k => CT.ret ?_
  rw [List.length_append, List.length_append, e]
  rfl

instance {bytes₁ bytes₂ : List ℕ} :
    CTT (Scalar.from_bytes bytes₁) (Scalar.from_bytes bytes₂) := ⟨by
  unfold Scalar.from_bytes
  ct⟩

instance {self₁ self₂ : List ℕ} :
    CTT (Scalar.square self₁) (Scalar.square self₂) := ⟨by
  unfold Scalar.square
  ct⟩

/-- The pattern of windows depends on the group order only. -/
instance {a b : List ℕ} : CTT (Scalar.invert a) (Scalar.invert b) := ⟨by
  unfold Scalar.invert
  iterate 2 refine CT.bind_same fun _ => ?_
  iterate 2 refine CT.bind_call fun _ _ => ?_
  iterate 2 refine CT.bind_true (by ct) fun _ _ => ?_
  refine CT.bind_same fun _ => ?_
  refine CT.bind (R := fun s t => s.2 = t.2) ?_ fun s t e => ?_
  · refine CT.fold rfl ?_
    rintro i ⟨r, rt⟩ ⟨r', _⟩ rfl
    refine CT.bind_true ?_ fun _ _ => ?_
    · ct
    iterate 7 refine CT.bind_same fun _ => ?_
    refine CT.bind (R := fun s t => s.2 = t.2) ?_ ?_
    · refine CT.ite ?_ (CT.ret rfl)
      refine CT.bind (R := fun s t => s.2 = t.2) (CT.ite ?_ ?_) ?_
      · iterate 2 refine CT.bind_same fun _ => ?_
        iterate 2 refine CT.bind_call fun _ _ => ?_
        exact CT.ret rfl
      · iterate 2 refine CT.bind_same fun _ => ?_
        refine CT.bind_call fun _ _ => ?_
        exact CT.ret rfl
      · rintro ⟨r, rt⟩ ⟨r', _⟩ rfl
        exact CT.ret rfl
    · rintro ⟨r, rt⟩ ⟨r', _⟩ rfl
      exact CT.ret rfl
  · ct⟩

instance {self₁ self₂ : List ℕ} :
    CTT (Scalar.halve self₁) (Scalar.halve self₂) := ⟨by
  unfold Scalar.halve
  ct⟩

/-- Accepted encodings are decoded with the same observations. -/
theorem from_canonical_bytes_accept {a b : List ℕ} :
    CTP (fun r => r.isSome) (fun r => r.isSome) (Scalar.from_canonical_bytes a)
      (Scalar.from_canonical_bytes b) := by
  unfold Scalar.from_canonical_bytes
  have no : ∀ f : Lk (Option (List ℕ)), Never (fun r => r.isSome = true) (Lk.ite true (Lk.ret none) f) :=
    fun f => Never.bind fun _ => Never.ret (by simp)
  rw [or_bind, or_bind]
  refine CTP.ite_else (no _) (no _) ?_
  rw [ret_bind, ret_bind]
  refine CTP.ite_else (Never.ret (by simp)) (Never.ret (by simp)) ?_
  refine CTP.bind_true (by ct) fun _ _ => ?_
  iterate 3 refine CTP.bind_call fun _ _ => ?_
  simp only [ite_bind, ret_bind]
  exact CTP.ite_then (Never.ret (by simp)) (Never.ret (by simp)) (CTP.of_ct CT.ret_true)

instance {self₁ self₂ : List ℕ} :
    CTT (Scalar.to_bytes_rfc_8032 self₁) (Scalar.to_bytes_rfc_8032 self₂) := ⟨by
  unfold Scalar.to_bytes_rfc_8032
  ct⟩

instance {input₁ input₂ : List ℕ} :
    CTT (Scalar.from_bytes_mod_order_wide input₁) (Scalar.from_bytes_mod_order_wide input₂) := ⟨by
  unfold Scalar.from_bytes_mod_order_wide
  ct⟩

/-! ### The 32-bit field -/

instance {a₁ b₁ a₂ b₂ : List ℕ} :
    CTT (karatsuba.mul a₁ b₁) (karatsuba.mul a₂ b₂) := ⟨by
  unfold karatsuba.mul
  ct⟩

instance {self₁ rhs₁ self₂ rhs₂ : List ℕ} :
    CTT (FieldElement28.op_mul self₁ rhs₁) (FieldElement28.op_mul self₂ rhs₂) := ⟨by
  unfold FieldElement28.op_mul
  ct⟩

instance {self₁ rhs₁ self₂ rhs₂ : List ℕ} :
    CTT (FieldElement28.op_mul2 self₁ rhs₁) (FieldElement28.op_mul2 self₂ rhs₂) := ⟨by
  unfold FieldElement28.op_mul2
  ct⟩

instance {self₁ rhs₁ self₂ rhs₂ : List ℕ} :
    CTT (FieldElement28.add_no_reduce self₁ rhs₁) (FieldElement28.add_no_reduce self₂ rhs₂) := ⟨by
  unfold FieldElement28.add_no_reduce
  ct⟩

instance {self₁ self₂ : List ℕ} :
    CTT (FieldElement28.weak_reduce self₁) (FieldElement28.weak_reduce self₂) := ⟨by
  unfold FieldElement28.weak_reduce
  ct⟩

instance {self₁ rhs₁ self₂ rhs₂ : List ℕ} :
    CTT (FieldElement28.op_add self₁ rhs₁) (FieldElement28.op_add self₂ rhs₂) := ⟨by
  unfold FieldElement28.op_add
  ct⟩

instance {a₁ a₂ : List ℕ} {b₁ b₂ : ℕ} :
    CTT (FieldElement28.bias a₁ b₁) (FieldElement28.bias a₂ b₂) := ⟨by
  unfold FieldElement28.bias
  ct⟩

instance {self₁ rhs₁ self₂ rhs₂ : List ℕ} :
    CTT (FieldElement28.sub_no_reduce self₁ rhs₁) (FieldElement28.sub_no_reduce self₂ rhs₂) := ⟨by
  unfold FieldElement28.sub_no_reduce
  ct⟩

instance {self₁ rhs₁ self₂ rhs₂ : List ℕ} :
    CTT (FieldElement28.op_sub self₁ rhs₁) (FieldElement28.op_sub self₂ rhs₂) := ⟨by
  unfold FieldElement28.op_sub
  ct⟩

instance {self₁ self₂ : List ℕ} :
    CTT (FieldElement28.negate self₁) (FieldElement28.negate self₂) := ⟨by
  unfold FieldElement28.negate
  ct⟩

instance {a₁ b₁ a₂ b₂ : List ℕ} {choice₁ choice₂ : Bool} :
    CTT (FieldElement28.conditional_select a₁ b₁ choice₁)
      (FieldElement28.conditional_select a₂ b₂ choice₂) := ⟨by
  unfold FieldElement28.conditional_select
  ct⟩

instance {self₁ self₂ : List ℕ} {choice₁ choice₂ : Bool} :
    CTT (FieldElement28.conditional_negate self₁ choice₁)
      (FieldElement28.conditional_negate self₂ choice₂) := ⟨by
  unfold FieldElement28.conditional_negate
  ct⟩

instance {self₁ self₂ : List ℕ} :
    CTT (FieldElement28.strong_reduce self₁) (FieldElement28.strong_reduce self₂) := ⟨by
  unfold FieldElement28.strong_reduce
  ct⟩

instance {self₁ self₂ : List ℕ} :
    CTT (FieldElement28.to_bytes self₁) (FieldElement28.to_bytes self₂) := ⟨by
  unfold FieldElement28.to_bytes
  ct⟩

instance {self₁ self₂ : List ℕ} :
    CTT (FieldElement28.is_negative self₁) (FieldElement28.is_negative self₂) := ⟨by
  unfold FieldElement28.is_negative
  ct⟩

instance {slice₁ slice₂ : List ℕ} :
    CTT (FieldElement28.from_raw_slice slice₁) (FieldElement28.from_raw_slice slice₂) := ⟨by
  unfold FieldElement28.from_raw_slice
  ct⟩

instance {bytes₁ bytes₂ : List ℕ} :
    CTT (FieldElement28.from_bytes bytes₁) (FieldElement28.from_bytes bytes₂) := ⟨by
  unfold FieldElement28.from_bytes
  ct⟩

instance {a₁ a₂ : List ℕ} :
    CTT (karatsuba.square.part1 a₁) (karatsuba.square.part1 a₂) := ⟨by
  unfold karatsuba.square.part1
  ct⟩

instance {a₁ c₁ aa₁ a₂ c₂ aa₂ : List ℕ} {accum0₁ accum1₁ accum2₁ accum0₂ accum1₂ accum2₂ : ℕ} :
    CTT (karatsuba.square.part2 a₁ accum0₁ accum1₁ accum2₁ c₁ aa₁)
      (karatsuba.square.part2 a₂ accum0₂ accum1₂ accum2₂ c₂ aa₂) := ⟨by
  unfold karatsuba.square.part2
  ct⟩

instance {a₁ c₁ aa₁ a₂ c₂ aa₂ : List ℕ} {accum0₁ accum1₁ accum2₁ accum0₂ accum1₂ accum2₂ : ℕ} :
    CTT (karatsuba.square.part3 a₁ accum0₁ accum1₁ accum2₁ c₁ aa₁)
      (karatsuba.square.part3 a₂ accum0₂ accum1₂ accum2₂ c₂ aa₂) := ⟨by
  unfold karatsuba.square.part3
  ct⟩

instance {a₁ c₁ aa₁ a₂ c₂ aa₂ : List ℕ} {accum0₁ accum1₁ accum2₁ accum0₂ accum1₂ accum2₂ : ℕ} :
    CTT (karatsuba.square.part4 a₁ accum0₁ accum1₁ accum2₁ c₁ aa₁)
      (karatsuba.square.part4 a₂ accum0₂ accum1₂ accum2₂ c₂ aa₂) := ⟨by
  unfold karatsuba.square.part4
  ct⟩

instance {a₁ a₂ : List ℕ} :
    CTT (karatsuba.square a₁) (karatsuba.square a₂) := ⟨by
  unfold karatsuba.square
  ct⟩

instance {self₁ self₂ : List ℕ} :
    CTT (FieldElement28.square self₁) (FieldElement28.square self₂) := ⟨by
  unfold FieldElement28.square
  ct⟩

/-! ### The 64-bit wrapper -/

instance {fns₁ fns₂ : Model.Fiat.Fns} {self₁ rhs₁ self₂ rhs₂ : List ℕ} :
    CTT (FieldElement56.op_mul fns₁ self₁ rhs₁) (FieldElement56.op_mul fns₂ self₂ rhs₂) := ⟨by
  unfold FieldElement56.op_mul
  ct⟩

instance {fns₁ fns₂ : Model.Fiat.Fns} {self₁ rhs₁ self₂ rhs₂ : List ℕ} :
    CTT (FieldElement56.op_mul2 fns₁ self₁ rhs₁) (FieldElement56.op_mul2 fns₂ self₂ rhs₂) := ⟨by
  unfold FieldElement56.op_mul2
  ct⟩

instance {fns₁ fns₂ : Model.Fiat.Fns} {self₁ rhs₁ self₂ rhs₂ : List ℕ} :
    CTT (FieldElement56.op_mul3 fns₁ self₁ rhs₁) (FieldElement56.op_mul3 fns₂ self₂ rhs₂) := ⟨by
  unfold FieldElement56.op_mul3
  ct⟩

instance {fns₁ fns₂ : Model.Fiat.Fns} {self₁ rhs₁ self₂ rhs₂ : List ℕ} :
    CTT (FieldElement56.op_add fns₁ self₁ rhs₁) (FieldElement56.op_add fns₂ self₂ rhs₂) := ⟨by
  unfold FieldElement56.op_add
  ct⟩

instance {fns₁ fns₂ : Model.Fiat.Fns} {self₁ rhs₁ self₂ rhs₂ : List ℕ} :
    CTT (FieldElement56.op_sub fns₁ self₁ rhs₁) (FieldElement56.op_sub fns₂ self₂ rhs₂) := ⟨by
  unfold FieldElement56.op_sub
  ct⟩

instance {fns₁ fns₂ : Model.Fiat.Fns} {self₁ self₂ : List ℕ} :
    CTT (FieldElement56.negate fns₁ self₁) (FieldElement56.negate fns₂ self₂) := ⟨by
  unfold FieldElement56.negate
  ct⟩

instance {fns₁ fns₂ : Model.Fiat.Fns} {a₁ b₁ a₂ b₂ : List ℕ} {choice₁ choice₂ : Bool} :
    CTT (FieldElement56.conditional_select fns₁ a₁ b₁ choice₁)
      (FieldElement56.conditional_select fns₂ a₂ b₂ choice₂) := ⟨by
  unfold FieldElement56.conditional_select
  ct⟩

instance {fns₁ fns₂ : Model.Fiat.Fns} {self₁ self₂ : List ℕ} {choice₁ choice₂ : Bool} :
    CTT (FieldElement56.conditional_negate fns₁ self₁ choice₁)
      (FieldElement56.conditional_negate fns₂ self₂ choice₂) := ⟨by
  unfold FieldElement56.conditional_negate
  ct⟩

instance {fns₁ fns₂ : Model.Fiat.Fns} {self₁ self₂ : List ℕ} :
    CTT (FieldElement56.to_bytes fns₁ self₁) (FieldElement56.to_bytes fns₂ self₂) := ⟨by
  unfold FieldElement56.to_bytes
  ct⟩

instance {fns₁ fns₂ : Model.Fiat.Fns} {self₁ self₂ : List ℕ} :
    CTT (FieldElement56.is_negative fns₁ self₁) (FieldElement56.is_negative fns₂ self₂) := ⟨by
  unfold FieldElement56.is_negative
  ct⟩

instance {slice₁ slice₂ : List ℕ} :
    CTT (FieldElement56.from_raw_slice slice₁) (FieldElement56.from_raw_slice slice₂) := ⟨by
  unfold FieldElement56.from_raw_slice
  ct⟩

instance {fns₁ fns₂ : Model.Fiat.Fns} {bytes₁ bytes₂ : List ℕ} :
    CTT (FieldElement56.from_bytes fns₁ bytes₁) (FieldElement56.from_bytes fns₂ bytes₂) := ⟨by
  unfold FieldElement56.from_bytes
  ct⟩

instance {fns₁ fns₂ : Model.Fiat.Fns} {self₁ self₂ : List ℕ} :
    CTT (FieldElement56.square fns₁ self₁) (FieldElement56.square fns₂ self₂) := ⟨by
  unfold FieldElement56.square
  ct⟩

instance {fns₁ fns₂ : Model.Fiat.Fns} {self₁ self₂ : List ℕ} :
    CTT (FieldElement56.strong_reduce fns₁ self₁) (FieldElement56.strong_reduce fns₂ self₂) := ⟨by
  unfold FieldElement56.strong_reduce
  ct⟩

end Ed448.Leak
