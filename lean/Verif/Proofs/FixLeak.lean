import Verif.Gen.FixLeak
import Verif.Gen.FixRel
import Verif.Proofs.LeakEraseCurve
import Verif.Proofs.LeakCurve
import Verif.Proofs.RelRefCurve

/-!
# The repaired functions: observations, erasure, release builds

For the functions of `Verif.Gen.FixLeak` and `Verif.Gen.FixRel` the same three facts as for those of
the source as it is: what is observed does not depend on the operands, without the observations the
function is that of `Verif.Gen.Fix`, and the release build returns what the debug build returns.
-/

namespace Ed448.Leak.Fix
open Ed448.Model

set_option maxRecDepth 10000

instance {a b c d : List ℕ} : CTT (scalar.add a b) (scalar.add c d) := ⟨by unfold scalar.add; ct⟩

instance {a b c d : List ℕ} : CTT (Scalar.op_add a b) (Scalar.op_add c d) :=
  ⟨by unfold Scalar.op_add; ct⟩

instance {a b c d : List ℕ} : CTT (Scalar.op_sub a b) (Scalar.op_sub c d) :=
  ⟨by unfold Scalar.op_sub; ct⟩

instance {a b : List ℕ} :
    CTT (Scalar.from_bytes_mod_order_wide a) (Scalar.from_bytes_mod_order_wide b) :=
  ⟨by unfold Scalar.from_bytes_mod_order_wide; ct⟩

instance {a b : List ℕ} : Er (scalar.add a b) (Gen.Fix.scalar.add a b) := by
  unfold scalar.add Gen.Fix.scalar.add; er

instance {a b : List ℕ} : Er (Scalar.op_add a b) (Gen.Fix.Scalar.op_add a b) := by
  unfold Scalar.op_add Gen.Fix.Scalar.op_add; er

instance {a b : List ℕ} : Er (Scalar.op_sub a b) (Gen.Fix.Scalar.op_sub a b) := by
  unfold Scalar.op_sub Gen.Fix.Scalar.op_sub; er

instance {a : List ℕ} :
    Er (Scalar.from_bytes_mod_order_wide a) (Gen.Fix.Scalar.from_bytes_mod_order_wide a) := by
  unfold Scalar.from_bytes_mod_order_wide Gen.Fix.Scalar.from_bytes_mod_order_wide; er

variable {F L : Type} [FieldBackend F L] [LeakBackend F L]

instance {b : List ℕ} : Er (CompressedEdwardsY.decompress (F := F) b)
    (Gen.Fix.CompressedEdwardsY.decompress (F := F) b) := by
  unfold CompressedEdwardsY.decompress Gen.Fix.CompressedEdwardsY.decompress; er

instance {P : TwExt F} {N : ANiels F} : Er (TwExt.add_affine_niels P N)
    (some (Gen.Fix.TwExt.add_affine_niels P N)) := by
  unfold TwExt.add_affine_niels Gen.Fix.TwExt.add_affine_niels; er

instance {P : TwAff F} : Er (TwAff.to_affine_niels P) (some (Gen.Fix.TwAff.to_affine_niels P)) := by
  unfold TwAff.to_affine_niels Gen.Fix.TwAff.to_affine_niels; er

instance {N : ANiels F} : Er (ANiels.to_extended N) (some (Gen.Fix.ANiels.to_extended N)) := by
  unfold ANiels.to_extended Gen.Fix.ANiels.to_extended; er

instance {u s : List ℕ} : Er (MontgomeryPoint.op_mul_Scalar (F := F) u s)
    (Gen.Fix.MontgomeryPoint.op_mul_Scalar (F := F) u s) := by
  unfold MontgomeryPoint.op_mul_Scalar Gen.Fix.MontgomeryPoint.op_mul_Scalar; er

instance {u s : List ℕ} : Er (Scalar.op_mul_MontgomeryPoint (F := F) s u)
    (Gen.Fix.Scalar.op_mul_MontgomeryPoint (F := F) s u) := by
  unfold Scalar.op_mul_MontgomeryPoint Gen.Fix.Scalar.op_mul_MontgomeryPoint; er

instance {u : List ℕ} : Er (MontgomeryPoint.is_low_order (F := F) u)
    (Gen.Fix.MontgomeryPoint.is_low_order (F := F) u) := by
  unfold MontgomeryPoint.is_low_order Gen.Fix.MontgomeryPoint.is_low_order; er

/-- The repaired decoder is the decoder of the source followed by the comparison. -/
theorem decompress_eq (b : List ℕ) : CompressedEdwardsY.decompress (F := F) b =
    (Leak.CompressedEdwardsY.decompress (F := F) b).bind fun o => match o with
      | none => Lk.ret none
      | some P => (EdPt.compress P).bind fun c =>
          Lk.ite (!((Bool.toNat (c == b)) == (1 : ℕ))) (Lk.ret none) (Lk.ret (some P)) := by
  have assoc : ∀ {α β γ : Type} (m : Lk α) (f : α → Lk β) (g : β → Lk γ),
      (m.bind f).bind g = m.bind fun a => (f a).bind g := by
    intro α β γ m f g
    rcases m with _ | ⟨a, t⟩
    · rfl
    · show Option.bind (Option.map (fun q => (q.1, t ++ q.2)) (f a)) (fun p =>
          Option.map (fun q => (q.1, p.2 ++ q.2)) (g p.1)) =
        Option.map (fun q => (q.1, t ++ q.2)) (Option.bind (f a) fun p =>
          Option.map (fun q => (q.1, p.2 ++ q.2)) (g p.1))
      rcases (f a : Option (β × List Ev)) with _ | ⟨c, u⟩
      · rfl
      · show Option.map (fun q => (q.1, (t ++ u) ++ q.2)) (g c) =
          Option.map (fun q => (q.1, t ++ q.2)) (Option.map (fun q => (q.1, u ++ q.2)) (g c))
        rcases (g c : Option (γ × List Ev)) with _ | ⟨e, v⟩
        · rfl
        · simp [List.append_assoc]
  have ite_bind : ∀ {α β : Type} (c : Bool) (x y : Lk α) (g : α → Lk β),
      (Lk.ite c x y).bind g = Lk.ite c (x.bind g) (y.bind g) := by
    intro α β c x y g
    unfold Lk.ite
    rw [assoc]
    cases c <;> rfl
  have ret_bind : ∀ {α β : Type} (a : α) (g : α → Lk β), (Lk.ret a).bind g = g a := by
    intro α β a g
    show Option.map (fun q => (q.1, [] ++ q.2)) (g a) = g a
    rcases (g a : Option (β × List Ev)) with _ | ⟨e, v⟩ <;> rfl
  unfold CompressedEdwardsY.decompress Leak.CompressedEdwardsY.decompress
  simp only [assoc, ite_bind, ret_bind]

variable [CTBackend F L]

instance {P Q : TwExt F} {N M : ANiels F} :
    CTT (TwExt.add_affine_niels P N) (TwExt.add_affine_niels Q M) :=
  ⟨by unfold TwExt.add_affine_niels; ct⟩

instance {P Q : TwAff F} : CTT (TwAff.to_affine_niels P) (TwAff.to_affine_niels Q) :=
  ⟨by unfold TwAff.to_affine_niels; ct⟩

instance {N M : ANiels F} : CTT (ANiels.to_extended N) (ANiels.to_extended M) :=
  ⟨by unfold ANiels.to_extended; ct⟩

theorem ladder_ct {P Q a b : List ℕ} (h : a.length = b.length) :
    CT (fun _ _ => True) (MontgomeryPoint.op_mul_Scalar (F := F) P a)
      (MontgomeryPoint.op_mul_Scalar (F := F) Q b) := by
  unfold MontgomeryPoint.op_mul_Scalar
  refine CT.bind_call fun _ _ => ?_
  refine CT.bind (bits_ct h) fun x y e => ?_
  ct

theorem ladder'_ct {P Q a b : List ℕ} (h : a.length = b.length) :
    CT (fun _ _ => True) (Scalar.op_mul_MontgomeryPoint (F := F) a P)
      (Scalar.op_mul_MontgomeryPoint (F := F) b Q) := by
  unfold Scalar.op_mul_MontgomeryPoint
  exact CT.bind_true (ladder_ct h) fun _ _ => CT.ret_true

end Ed448.Leak.Fix

namespace Ed448.Rel.Fix
open Ed448.Model

set_option maxRecDepth 10000

instance {a b : List ℕ} : Ref (Gen.Fix.scalar.add a b) (scalar.add a b) := by
  unfold Gen.Fix.scalar.add scalar.add; ref

instance {a b : List ℕ} : Ref (Gen.Fix.Scalar.op_add a b) (Scalar.op_add a b) := by
  unfold Gen.Fix.Scalar.op_add Scalar.op_add; ref

instance {a b : List ℕ} : Ref (Gen.Fix.Scalar.op_sub a b) (Scalar.op_sub a b) := by
  unfold Gen.Fix.Scalar.op_sub Scalar.op_sub; ref

instance {a : List ℕ} : Ref (Gen.Fix.Scalar.from_bytes_mod_order_wide a)
    (Scalar.from_bytes_mod_order_wide a) := by
  unfold Gen.Fix.Scalar.from_bytes_mod_order_wide Scalar.from_bytes_mod_order_wide; ref

variable {F L : Type} [FieldBackend F L]

instance {b : List ℕ} : Ref (Gen.Fix.CompressedEdwardsY.decompress (F := F) b)
    (CompressedEdwardsY.decompress (F := F) b) := by
  unfold Gen.Fix.CompressedEdwardsY.decompress CompressedEdwardsY.decompress; ref

instance {u s : List ℕ} : Ref (Gen.Fix.MontgomeryPoint.op_mul_Scalar (F := F) u s)
    (MontgomeryPoint.op_mul_Scalar (F := F) u s) := by
  unfold Gen.Fix.MontgomeryPoint.op_mul_Scalar MontgomeryPoint.op_mul_Scalar; ref

instance {u s : List ℕ} : Ref (Gen.Fix.Scalar.op_mul_MontgomeryPoint (F := F) s u)
    (Scalar.op_mul_MontgomeryPoint (F := F) s u) := by
  unfold Gen.Fix.Scalar.op_mul_MontgomeryPoint Scalar.op_mul_MontgomeryPoint; ref

end Ed448.Rel.Fix
