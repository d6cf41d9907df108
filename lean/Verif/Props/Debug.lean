import Verif.Model.Debug
import Verif.Model.Ops
import Verif.Proofs.U32Instance
import Verif.Proofs.FiatInstance
import Verif.Props.Decaf
import Verif.Proofs.Fast

/-!
# What `{:?}` prints, and hashing (C94)

The text of a scalar, a point or an encoding determines it: no two values print the same, and no text
begins another.  So printing a scalar with `{:?}` gives the secret away, and printing a point shows
its coordinates and not only the element of the group.  Hashing of Montgomery points agrees with `==`.
-/

namespace Ed448.Props
open Ed448.Model
open FieldVal (val)

/-- No two values have the same text, and no text is the beginning of another. -/
def Readable {α : Type} (f : α → List Char) : Prop :=
  ∀ a b r s, f a ++ r = f b ++ s → a = b ∧ r = s

theorem Readable.injective {α : Type} {f : α → List Char} (h : Readable f) : Function.Injective f :=
  fun a b e => (h a b [] [] (by rw [e])).1

theorem digits_end {c c' : Char} {r s : List Char} (hc : c.isDigit = false) (hc' : c'.isDigit = false) :
    ∀ l m : List Char, (∀ x ∈ l, x.isDigit = true) → (∀ x ∈ m, x.isDigit = true) →
      l ++ c :: r = m ++ c' :: s → l = m ∧ c = c' ∧ r = s
  | [], [], _, _, e => by
    rw [List.nil_append, List.nil_append, List.cons.injEq] at e
    exact ⟨rfl, e⟩
  | [], y :: m, _, h, e => by
    rw [List.nil_append, List.cons_append, List.cons.injEq] at e
    have := h y (List.mem_cons_self ..)
    rw [← e.1, hc] at this
    cases this
  | x :: l, [], h, _, e => by
    rw [List.nil_append, List.cons_append, List.cons.injEq] at e
    have := h x (List.mem_cons_self ..)
    rw [e.1, hc'] at this
    cases this
  | x :: l, y :: m, h, h', e => by
    rw [List.cons_append, List.cons_append, List.cons.injEq] at e
    obtain ⟨h1, h2, h3⟩ := digits_end hc hc' l m (fun z hz => h z (List.mem_cons_of_mem _ hz))
      (fun z hz => h' z (List.mem_cons_of_mem _ hz)) e.2
    exact ⟨by rw [e.1, h1], h2, h3⟩

theorem num_digit (n : ℕ) : ∀ x ∈ Fmt.num n, x.isDigit = true := fun _ h =>
  Nat.isDigit_of_mem_toDigits (by norm_num) (by norm_num) h

theorem num_inj {m n : ℕ} (h : Fmt.num m = Fmt.num n) : m = n := by
  have := congrArg (fun l => Nat.ofDigitChars 10 l 0) h
  simpa only [Fmt.num, Nat.ofDigitChars_ten_toDigits] using this

/-- What follows the first number of a list. -/
def listTail (l : List ℕ) (r : List Char) : List Char :=
  match l with
  | [] => ']' :: r
  | x :: l => ',' :: ' ' :: (Fmt.sep ((x :: l).map Fmt.num) ++ ']' :: r)

theorem sep_cons (x : ℕ) (l : List ℕ) (r : List Char) :
    Fmt.sep ((x :: l).map Fmt.num) ++ ']' :: r = Fmt.num x ++ listTail l r := by
  cases l with
  | nil => rfl
  | cons y l => simp [Fmt.sep, listTail]

theorem listTail_head (l : List ℕ) (r : List Char) :
    ∃ c t, listTail l r = c :: t ∧ c.isDigit = false := by
  cases l with
  | nil => exact ⟨_, _, rfl, rfl⟩
  | cons y l => exact ⟨_, _, rfl, rfl⟩

theorem sep_readable : ∀ (l m : List ℕ) (r s : List Char),
    Fmt.sep (l.map Fmt.num) ++ ']' :: r = Fmt.sep (m.map Fmt.num) ++ ']' :: s → l = m ∧ r = s
  | [], [], r, s, e => ⟨rfl, (List.cons.inj e).2⟩
  | [], y :: m, r, s, e => by
    rw [sep_cons] at e
    obtain ⟨c, t, hc, hd⟩ := listTail_head m s
    rw [hc] at e
    have h := digits_end (c := ']') (by rfl) hd [] _ (by simp) (num_digit y) e
    exact absurd h.1.symm Nat.toDigits_ne_nil
  | x :: l, [], r, s, e => by
    rw [sep_cons] at e
    obtain ⟨c, t, hc, hd⟩ := listTail_head l r
    rw [hc] at e
    have h := digits_end (c' := ']') hd (by rfl) _ [] (num_digit x) (by simp) e
    exact absurd h.1 Nat.toDigits_ne_nil
  | x :: l, y :: m, r, s, e => by
    rw [sep_cons, sep_cons] at e
    obtain ⟨c, t, hc, hd⟩ := listTail_head l r
    obtain ⟨c', t', hc', hd'⟩ := listTail_head m s
    have e2 : listTail l r = listTail m s := by
      have h := e
      rw [hc, hc'] at h
      obtain ⟨-, h1, h2⟩ := digits_end hd hd' _ _ (num_digit x) (num_digit y) h
      rw [hc, hc', h1, h2]
    have e1 : x = y := by
      rw [hc, hc'] at e
      exact num_inj (digits_end hd hd' _ _ (num_digit x) (num_digit y) e).1
    match l, m, e2 with
    | [], [], e2 => exact ⟨by rw [e1], (List.cons.inj e2).2⟩
    | [], _ :: _, e2 => exact absurd (List.cons.inj e2).1 (by decide)
    | _ :: _, [], e2 => exact absurd (List.cons.inj e2).1 (by decide)
    | u :: l, v :: m, e2 =>
      obtain ⟨h1, h2⟩ := sep_readable (u :: l) (v :: m) r s
        (List.cons.inj (List.cons.inj e2).2).2
      exact ⟨by rw [e1, h1], h2⟩

theorem list_readable : Readable Fmt.list := by
  intro l m r s e
  refine sep_readable l m r s ?_
  have := (List.cons.inj e).2
  simpa using this

theorem tuple_readable {α : Type} {f : α → List Char} (h : Readable f) (name : List Char) :
    Readable fun a => Fmt.tuple name (f a) := by
  intro a b r s e
  simp only [Fmt.tuple, List.append_assoc, List.cons_append, List.append_cancel_left_eq,
    List.cons.injEq, true_and] at e
  obtain ⟨h1, h2⟩ := h a b _ _ e
  exact ⟨h1, (List.cons.inj h2).2⟩

theorem arr_readable {n B : ℕ} : Readable fun a : Arr n B => Fmt.list a.l := by
  intro a b r s e
  obtain ⟨h1, h2⟩ := list_readable _ _ _ _ e
  exact ⟨Arr.ext h1, h2⟩

/-- A backend whose text determines the element. -/
class ReadableField (F : Type) [DebugField F] : Prop where
  readable : Readable (DebugField.debug : F → List Char)

instance : DebugField U32.Fe := ⟨fun a => U32.debug a.1⟩
instance : ReadableField U32.Fe where
  readable := by
    intro a b r s e
    obtain ⟨h1, h2⟩ := tuple_readable arr_readable _ a.1 b.1 _ _ e
    exact ⟨Subtype.ext h1, h2⟩

instance {I : Fiat.Impl} : DebugField (Fiat.Fe I) := ⟨fun a => Fiat.debug a.a⟩
instance {I : Fiat.Impl} : ReadableField (Fiat.Fe I) where
  readable := by
    intro a b r s e
    obtain ⟨h1, h2⟩ := tuple_readable arr_readable _ a.a b.a _ _ e
    exact ⟨Fiat.Fe.ext h1, h2⟩

theorem coords_readable {F : Type} [DebugField F] [ReadableField F] :
    Readable fun P : F × F × F × F => debugCoords P.1 P.2.1 P.2.2.1 P.2.2.2 := by
  rintro ⟨a, b, c, d⟩ ⟨a', b', c', d'⟩ r s e
  simp only [debugCoords, Fmt.struct, Fmt.sep, Fmt.field, List.append_assoc, List.cons_append,
    List.append_cancel_left_eq, List.cons.injEq, true_and, List.nil_append] at e
  obtain ⟨rfl, e1⟩ := ReadableField.readable _ _ _ _ e
  simp only [List.cons.injEq, true_and] at e1
  obtain ⟨rfl, e2⟩ := ReadableField.readable _ _ _ _ e1
  simp only [List.cons.injEq, true_and] at e2
  obtain ⟨rfl, e3⟩ := ReadableField.readable _ _ _ _ e2
  simp only [List.cons.injEq, true_and] at e3
  obtain ⟨rfl, e4⟩ := ReadableField.readable _ _ _ _ e3
  simp only [List.cons.injEq, true_and] at e4
  exact ⟨rfl, e4⟩

/-- **Printing a scalar gives it away.**  The text determines the limbs of the scalar, so the reduced
number; the same for the byte strings of Montgomery points and of compressed Decaf and Ristretto
elements. -/
theorem C94_secrets : Readable Scalar.debug ∧ Readable debugBytes :=
  ⟨tuple_readable arr_readable _, arr_readable⟩

variable {F L : Type} [DebugField F] [ReadableField F]

/-- **Printing a point shows its coordinates**, for Edwards, twisted and Decaf points. -/
theorem C94_points : Readable (EdPt.debug (F := F)) ∧ Readable (TwPt.debug (F := F)) ∧
    Readable (DecafPt.debug (F := F)) := by
  have hT : Readable (TwPt.debug (F := F)) := by
    rintro ⟨a, b, c, d⟩ ⟨a', b', c', d'⟩ r s e
    obtain ⟨h1, h2⟩ := coords_readable (a, b, c, d) (a', b', c', d') r s e
    cases h1
    exact ⟨rfl, h2⟩
  refine ⟨?_, hT, ?_⟩
  · rintro ⟨a, b, c, d⟩ ⟨a', b', c', d'⟩ r s e
    obtain ⟨h1, h2⟩ := coords_readable (a, b, c, d) (a', b', c', d') r s e
    cases h1
    exact ⟨rfl, h2⟩
  · rintro ⟨P⟩ ⟨Q⟩ r s e
    obtain ⟨h1, h2⟩ := tuple_readable hT "DecafPoint".toList P Q r s e
    exact ⟨by rw [h1], h2⟩

/-- **Equal points can print differently**: the text is that of the coordinates.  The neutral element
with all coordinates negated is equal to the neutral element and prints differently, for Edwards,
twisted and Decaf points. -/
theorem C94_representation [FieldBackend F L] [Lawful F] :
    (∃ P Q : EdPt F, P.eq Q = true ∧ P.debug ≠ Q.debug) ∧
    (∃ P Q : TwPt F, P.eq Q = true ∧ P.debug ≠ Q.debug) ∧
    (∃ P Q : DecafPt F, DecafReach P ∧ DecafReach Q ∧ P.equals Q = true ∧ P.debug ≠ Q.debug) := by
  have hne : (FieldBackend.one : F) ≠ FieldBackend.negate FieldBackend.one := by
    intro h
    have h1 := congrArg val h
    rw [Lawful.val_negate, Lawful.val_one] at h1
    exact two_ne (by linear_combination h1)
  obtain ⟨hE, hT, hD⟩ := C94_points (F := F)
  refine ⟨⟨EdPt.identity, ⟨FieldBackend.zero, FieldBackend.negate FieldBackend.one,
      FieldBackend.negate FieldBackend.one, FieldBackend.zero⟩, ?_, ?_⟩,
    ⟨TwPt.identity, ⟨FieldBackend.zero, FieldBackend.negate FieldBackend.one,
      FieldBackend.negate FieldBackend.one, FieldBackend.zero⟩, ?_, ?_⟩,
    ⟨DecafPt.identity, DecafPt.generator.sub DecafPt.generator, .identity,
      .sub .generator .generator, ?_, ?_⟩⟩
  · simp [EdPt.eq, EdPt.identity]
  · exact fun h => hne (congrArg EdPt.Y (hE.injective h))
  · simp [TwPt.eq, TwPt.identity]
  · exact fun h => hne (congrArg TwPt.Y (hT.injective h))
  · rw [drep_equals drep_identity (drep_sub drep_generator drep_generator), sub_self, sub_self]
    exact Iso.t_zero
  · intro h
    have h1 := congrArg (fun P => val (TwPt.Z P.pt)) (hD.injective h)
    simp [DecafPt.identity, DecafPt.sub, DecafPt.generator, TwPt.identity, TwPt.generator,
      TwPt.toExtensible, TwExt.subExtended, TwExt.toExtended] at h1
    have hT : ((TGx : Fp) * (TGy : Fp)) ^ 4 * (d - 1) ^ 2 = 0 := by linear_combination h1
    rw [mul_eq_zero, pow_eq_zero_iff (by norm_num), pow_eq_zero_iff (by norm_num), mul_eq_zero] at hT
    rcases hT with (h | h) | h
    · exact natCast_ne_of_mod (a := TGx) (b := 0) (by rw [p_lit]; decide +kernel) (by rw [h, Nat.cast_zero])
    · exact natCast_ne_of_mod (a := TGy) (b := 0) (by rw [p_lit]; decide +kernel) (by rw [h, Nat.cast_zero])
    · refine smallNat_ne_zero 39082 (by norm_num) (by norm_num) ?_
      have hd : d = -39081 := rfl
      rw [hd] at h
      push_cast
      linear_combination -h

/-- **The texts of the two backends never agree.** -/
theorem C94_backends (a : U32.Raw) (b : Fiat.Limbs) (r s : List Char) :
    U32.debug a ++ r ≠ Fiat.debug b ++ s := by
  intro h
  have := congrArg (fun l => l[12]?) h
  simp [U32.debug, Fiat.debug, Fmt.tuple] at this

/-- **Hashing agrees with `==`** on Montgomery points: equal points give a hasher the same calls, and
points that give a hasher the same calls are equal. -/
theorem C94_hash (a b : Bytes 56) : montEq a b = true ↔ montHash a = montHash b := by
  unfold montEq montHash
  rw [beq_iff_eq]
  constructor
  · intro h; rw [h]
  · intro h
    simp only [List.cons.injEq, HashCall.bytes.injEq, and_true] at h
    exact h.2

/-- **A wiped Montgomery point** is the string of zeros whatever it was, and the test for low order
recognises it. -/
theorem C94_zeroize (a b : Bytes 56) : (montZeroize a).val = 0 ∧ montZeroize a = montZeroize b ∧
    isLowOrder (montZeroize a) = true := by
  have h : (montZeroize a).l = List.replicate 56 0 := by
    show a.l.map (fun _ => 0) = _
    rw [List.map_const', a.len]
  have h' : (montZeroize b).l = List.replicate 56 0 := by
    show b.l.map (fun _ => 0) = _
    rw [List.map_const', b.len]
  refine ⟨?_, Arr.ext (h.trans h'.symm), ?_⟩
  · unfold Arr.val; rw [h]; decide +kernel
  · unfold isLowOrder; rw [h]; decide +kernel

example : String.ofList (Scalar.debug ⟨[3, 0, 0, 0, 0, 0, 0, 0, 0, 0, 0, 0, 0, 17], rfl, by decide⟩) =
    "Scalar([3, 0, 0, 0, 0, 0, 0, 0, 0, 0, 0, 0, 0, 17])" := by decide +kernel

/-- A backend with a text, for the examples. -/
@[instance_reducible] def ReadableField.ex : DebugField Fast := ⟨fun a => Fmt.num a.1⟩

attribute [local instance] ReadableField.ex in
/-- The neutral element, and the difference of the generator and itself, print differently. -/
example : String.ofList (DecafPt.identity : DecafPt Fast).debug =
      "DecafPoint(ExtendedPoint { X: 0, Y: 1, Z: 1, T: 0 })" ∧
    ((DecafPt.generator : DecafPt Fast).sub DecafPt.generator).debug ≠
      (DecafPt.identity : DecafPt Fast).debug := by decide +kernel

example : String.ofList (debugBytes montGenerator) =
    "[5, " ++ String.join (List.replicate 54 "0, ") ++ "0]" := by decide +kernel

example : String.ofList (U32.debug ⟨[1, 0, 0, 0, 0, 0, 0, 0, 0, 0, 0, 0, 0, 0, 0, 268435456], rfl, by decide⟩) =
    "FieldElement28([1, 0, 0, 0, 0, 0, 0, 0, 0, 0, 0, 0, 0, 0, 0, 268435456])" := by decide +kernel

example : montHash montGenerator = [.len 56, .bytes (5 :: List.replicate 55 0)] := rfl

example : montZeroize montGenerator ≠ montGenerator ∧ isLowOrder montGenerator = false := by
  decide +kernel

end Ed448.Props
