import Verif.Spec.PowMod

/-!
# Primality certificates

Generated Pratt certificates (and one Brillhart–Lehmer–Selfridge certificate for the group order).
Each is checked by the kernel through `pratt` / `bls`.
-/

namespace Ed448.Primes

theorem prime_2 : Nat.Prime 2 := by norm_num

theorem prime_641 : Nat.Prime 641 := by norm_num

theorem prime_18287 : Nat.Prime 18287 := by norm_num

theorem prime_196687 : Nat.Prime 196687 := by norm_num

theorem prime_3 : Nat.Prime 3 := by norm_num

theorem prime_137 : Nat.Prime 137 := by norm_num

theorem prime_223 : Nat.Prime 223 := by norm_num

theorem prime_1466449 :
    Nat.Prime 1466449 :=
  pratt 1466449 7
    [(2, 4), (3, 1), (137, 1), (223, 1)]
    (by simp only [List.forall_mem_cons, List.not_mem_nil, false_imp_iff, implies_true, and_true]; exact ⟨prime_2, prime_3, prime_137, prime_223⟩)
    (by decide +kernel)

theorem prime_5 : Nat.Prime 5 := by norm_num

theorem prime_109 : Nat.Prime 109 := by norm_num

theorem prime_2916841 :
    Nat.Prime 2916841 :=
  pratt 2916841 13
    [(2, 3), (3, 1), (5, 1), (109, 1), (223, 1)]
    (by simp only [List.forall_mem_cons, List.not_mem_nil, false_imp_iff, implies_true, and_true]; exact ⟨prime_2, prime_3, prime_5, prime_109, prime_223⟩)
    (by decide +kernel)

theorem prime_17449 : Nat.Prime 17449 := by norm_num

theorem prime_6700417 :
    Nat.Prime 6700417 :=
  pratt 6700417 5
    [(2, 7), (3, 1), (17449, 1)]
    (by simp only [List.forall_mem_cons, List.not_mem_nil, false_imp_iff, implies_true, and_true]; exact ⟨prime_2, prime_3, prime_17449⟩)
    (by decide +kernel)

theorem prime_7 : Nat.Prime 7 := by norm_num

theorem prime_411743 : Nat.Prime 411743 := by norm_num

theorem prime_151 : Nat.Prime 151 := by norm_num

theorem prime_23 : Nat.Prime 23 := by norm_num

theorem prime_59 : Nat.Prime 59 := by norm_num

theorem prime_593 : Nat.Prime 593 := by norm_num

theorem prime_1609403 :
    Nat.Prime 1609403 :=
  pratt 1609403 2
    [(2, 1), (23, 1), (59, 1), (593, 1)]
    (by simp only [List.forall_mem_cons, List.not_mem_nil, false_imp_iff, implies_true, and_true]; exact ⟨prime_2, prime_23, prime_59, prime_593⟩)
    (by decide +kernel)

theorem prime_3402277943 :
    Nat.Prime 3402277943 :=
  pratt 3402277943 5
    [(2, 1), (7, 1), (151, 1), (1609403, 1)]
    (by simp only [List.forall_mem_cons, List.not_mem_nil, false_imp_iff, implies_true, and_true]; exact ⟨prime_2, prime_7, prime_151, prime_1609403⟩)
    (by decide +kernel)

theorem prime_1469495262398780123809 :
    Nat.Prime 1469495262398780123809 :=
  pratt 1469495262398780123809 17
    [(2, 5), (3, 1), (7, 2), (223, 1), (411743, 1), (3402277943, 1)]
    (by simp only [List.forall_mem_cons, List.not_mem_nil, false_imp_iff, implies_true, and_true]; exact ⟨prime_2, prime_3, prime_7, prime_223, prime_411743, prime_3402277943⟩)
    (by decide +kernel)

theorem prime_2531 : Nat.Prime 2531 := by norm_num

theorem prime_67 : Nat.Prime 67 := by norm_num

theorem prime_197 : Nat.Prime 197 := by norm_num

theorem prime_271 : Nat.Prime 271 := by norm_num

theorem prime_379979 : Nat.Prime 379979 := by norm_num

theorem prime_97859369123353 :
    Nat.Prime 97859369123353 :=
  pratt 97859369123353 5
    [(2, 3), (3, 2), (67, 1), (197, 1), (271, 1), (379979, 1)]
    (by simp only [List.forall_mem_cons, List.not_mem_nil, false_imp_iff, implies_true, and_true]; exact ⟨prime_2, prime_3, prime_67, prime_197, prime_271, prime_379979⟩)
    (by decide +kernel)

theorem prime_167773885276849215533569 :
    Nat.Prime 167773885276849215533569 :=
  pratt 167773885276849215533569 17
    [(2, 9), (3, 3), (7, 2), (2531, 1), (97859369123353, 1)]
    (by simp only [List.forall_mem_cons, List.not_mem_nil, false_imp_iff, implies_true, and_true]; exact ⟨prime_2, prime_3, prime_7, prime_2531, prime_97859369123353⟩)
    (by decide +kernel)

theorem prime_37 : Nat.Prime 37 := by norm_num

theorem prime_13 : Nat.Prime 13 := by norm_num

theorem prime_31 : Nat.Prime 31 := by norm_num

theorem prime_463 : Nat.Prime 463 := by norm_num

theorem prime_217003 : Nat.Prime 217003 := by norm_num

theorem prime_1764234391 :
    Nat.Prime 1764234391 :=
  pratt 1764234391 3
    [(2, 1), (3, 1), (5, 1), (271, 1), (217003, 1)]
    (by simp only [List.forall_mem_cons, List.not_mem_nil, false_imp_iff, implies_true, and_true]; exact ⟨prime_2, prime_3, prime_5, prime_271, prime_217003⟩)
    (by decide +kernel)

theorem prime_34741861125639557 :
    Nat.Prime 34741861125639557 :=
  pratt 34741861125639557 13
    [(2, 2), (7, 3), (31, 1), (463, 1), (1764234391, 1)]
    (by simp only [List.forall_mem_cons, List.not_mem_nil, false_imp_iff, implies_true, and_true]; exact ⟨prime_2, prime_7, prime_31, prime_463, prime_1764234391⟩)
    (by decide +kernel)

theorem prime_36131535570665139281 :
    Nat.Prime 36131535570665139281 :=
  pratt 36131535570665139281 3
    [(2, 4), (5, 1), (13, 1), (34741861125639557, 1)]
    (by simp only [List.forall_mem_cons, List.not_mem_nil, false_imp_iff, implies_true, and_true]; exact ⟨prime_2, prime_5, prime_13, prime_34741861125639557⟩)
    (by decide +kernel)

theorem prime_596242599987116128415063 :
    Nat.Prime 596242599987116128415063 :=
  pratt 596242599987116128415063 5
    [(2, 1), (37, 1), (223, 1), (36131535570665139281, 1)]
    (by simp only [List.forall_mem_cons, List.not_mem_nil, false_imp_iff, implies_true, and_true]; exact ⟨prime_2, prime_37, prime_223, prime_36131535570665139281⟩)
    (by decide +kernel)

theorem prime_443 : Nat.Prime 443 := by norm_num

theorem prime_2963 : Nat.Prime 2963 := by norm_num

theorem prime_36753053 :
    Nat.Prime 36753053 :=
  pratt 36753053 2
    [(2, 2), (7, 1), (443, 1), (2963, 1)]
    (by simp only [List.forall_mem_cons, List.not_mem_nil, false_imp_iff, implies_true, and_true]; exact ⟨prime_2, prime_7, prime_443, prime_2963⟩)
    (by decide +kernel)

theorem prime_2683 : Nat.Prime 2683 := by norm_num

theorem prime_116989 : Nat.Prime 116989 := by norm_num

theorem prime_1255525949 :
    Nat.Prime 1255525949 :=
  pratt 1255525949 2
    [(2, 2), (2683, 1), (116989, 1)]
    (by simp only [List.forall_mem_cons, List.not_mem_nil, false_imp_iff, implies_true, and_true]; exact ⟨prime_2, prime_2683, prime_116989⟩)
    (by decide +kernel)

theorem prime_19 : Nat.Prime 19 := by norm_num

theorem prime_61 : Nat.Prime 61 := by norm_num

theorem prime_6197 : Nat.Prime 6197 := by norm_num

theorem prime_1335912079 :
    Nat.Prime 1335912079 :=
  pratt 1335912079 6
    [(2, 1), (3, 1), (19, 1), (31, 1), (61, 1), (6197, 1)]
    (by simp only [List.forall_mem_cons, List.not_mem_nil, false_imp_iff, implies_true, and_true]; exact ⟨prime_2, prime_3, prime_19, prime_31, prime_61, prime_6197⟩)
    (by decide +kernel)

theorem prime_32061889897 :
    Nat.Prime 32061889897 :=
  pratt 32061889897 10
    [(2, 3), (3, 1), (1335912079, 1)]
    (by simp only [List.forall_mem_cons, List.not_mem_nil, false_imp_iff, implies_true, and_true]; exact ⟨prime_2, prime_3, prime_1335912079⟩)
    (by decide +kernel)

theorem prime_25136521679249 :
    Nat.Prime 25136521679249 :=
  pratt 25136521679249 3
    [(2, 4), (7, 2), (32061889897, 1)]
    (by simp only [List.forall_mem_cons, List.not_mem_nil, false_imp_iff, implies_true, and_true]; exact ⟨prime_2, prime_7, prime_32061889897⟩)
    (by decide +kernel)

theorem prime_37414057161322375957408148834323969 :
    Nat.Prime 37414057161322375957408148834323969 :=
  pratt 37414057161322375957408148834323969 23
    [(2, 9), (3, 2), (7, 1), (36753053, 1), (1255525949, 1), (25136521679249, 1)]
    (by simp only [List.forall_mem_cons, List.not_mem_nil, false_imp_iff, implies_true, and_true]; exact ⟨prime_2, prime_3, prime_7, prime_36753053, prime_1255525949, prime_25136521679249⟩)
    (by decide +kernel)

theorem prime_726838724295606890549323807888004534353641360687318060281490199180612328166730772686396383698676545930088884461843637361053498018365439 :
    Nat.Prime 726838724295606890549323807888004534353641360687318060281490199180612328166730772686396383698676545930088884461843637361053498018365439 :=
  pratt 726838724295606890549323807888004534353641360687318060281490199180612328166730772686396383698676545930088884461843637361053498018365439 7
    [(2, 1), (641, 1), (18287, 1), (196687, 1), (1466449, 1), (2916841, 1), (6700417, 1), (1469495262398780123809, 1), (167773885276849215533569, 1), (596242599987116128415063, 1), (37414057161322375957408148834323969, 1)]
    (by simp only [List.forall_mem_cons, List.not_mem_nil, false_imp_iff, implies_true, and_true]; exact ⟨prime_2, prime_641, prime_18287, prime_196687, prime_1466449, prime_2916841, prime_6700417, prime_1469495262398780123809, prime_167773885276849215533569, prime_596242599987116128415063, prime_37414057161322375957408148834323969⟩)
    (by decide +kernel)

theorem prime_227393 : Nat.Prime 227393 := by norm_num

theorem prime_17 : Nat.Prime 17 := by norm_num

theorem prime_53 : Nat.Prime 53 := by norm_num

theorem prime_167 : Nat.Prime 167 := by norm_num

theorem prime_3009341 :
    Nat.Prime 3009341 :=
  pratt 3009341 2
    [(2, 2), (5, 1), (17, 1), (53, 1), (167, 1)]
    (by simp only [List.forall_mem_cons, List.not_mem_nil, false_imp_iff, implies_true, and_true]; exact ⟨prime_2, prime_5, prime_17, prime_53, prime_167⟩)
    (by decide +kernel)

theorem prime_6577 : Nat.Prime 6577 := by norm_num

theorem prime_16657 : Nat.Prime 16657 := by norm_num

theorem prime_766223 :
    Nat.Prime 766223 :=
  pratt 766223 5
    [(2, 1), (23, 1), (16657, 1)]
    (by simp only [List.forall_mem_cons, List.not_mem_nil, false_imp_iff, implies_true, and_true]; exact ⟨prime_2, prime_23, prime_16657⟩)
    (by decide +kernel)

theorem prime_342682509629 :
    Nat.Prime 342682509629 :=
  pratt 342682509629 2
    [(2, 2), (17, 1), (6577, 1), (766223, 1)]
    (by simp only [List.forall_mem_cons, List.not_mem_nil, false_imp_iff, implies_true, and_true]; exact ⟨prime_2, prime_17, prime_6577, prime_766223⟩)
    (by decide +kernel)

theorem prime_41389 : Nat.Prime 41389 := by norm_num

theorem prime_74551 : Nat.Prime 74551 := by norm_num

theorem prime_894613 :
    Nat.Prime 894613 :=
  pratt 894613 6
    [(2, 2), (3, 1), (74551, 1)]
    (by simp only [List.forall_mem_cons, List.not_mem_nil, false_imp_iff, implies_true, and_true]; exact ⟨prime_2, prime_3, prime_74551⟩)
    (by decide +kernel)

theorem prime_3578453 :
    Nat.Prime 3578453 :=
  pratt 3578453 2
    [(2, 2), (894613, 1)]
    (by simp only [List.forall_mem_cons, List.not_mem_nil, false_imp_iff, implies_true, and_true]; exact ⟨prime_2, prime_894613⟩)
    (by decide +kernel)

theorem prime_7156907 :
    Nat.Prime 7156907 :=
  pratt 7156907 2
    [(2, 1), (3578453, 1)]
    (by simp only [List.forall_mem_cons, List.not_mem_nil, false_imp_iff, implies_true, and_true]; exact ⟨prime_2, prime_3578453⟩)
    (by decide +kernel)

theorem prime_11 : Nat.Prime 11 := by norm_num

theorem prime_991 : Nat.Prime 991 := by norm_num

theorem prime_671065561 :
    Nat.Prime 671065561 :=
  pratt 671065561 7
    [(2, 3), (3, 4), (5, 1), (11, 1), (19, 1), (991, 1)]
    (by simp only [List.forall_mem_cons, List.not_mem_nil, false_imp_iff, implies_true, and_true]; exact ⟨prime_2, prime_3, prime_5, prime_11, prime_19, prime_991⟩)
    (by decide +kernel)

theorem prime_51473 : Nat.Prime 51473 := by norm_num

theorem prime_8464734851 :
    Nat.Prime 8464734851 :=
  pratt 8464734851 2
    [(2, 1), (5, 2), (11, 1), (13, 1), (23, 1), (51473, 1)]
    (by simp only [List.forall_mem_cons, List.not_mem_nil, false_imp_iff, implies_true, and_true]; exact ⟨prime_2, prime_5, prime_11, prime_13, prime_23, prime_51473⟩)
    (by decide +kernel)

theorem prime_6730519843040614479184435237013 :
    Nat.Prime 6730519843040614479184435237013 :=
  pratt 6730519843040614479184435237013 2
    [(2, 2), (41389, 1), (7156907, 1), (671065561, 1), (8464734851, 1)]
    (by simp only [List.forall_mem_cons, List.not_mem_nil, false_imp_iff, implies_true, and_true]; exact ⟨prime_2, prime_41389, prime_7156907, prime_671065561, prime_8464734851⟩)
    (by decide +kernel)

theorem prime_181709681073901722637330951972001133588410340171829515070372549795146003961539585716195755291692375963310293709091662304773755859649779 :
    Nat.Prime 181709681073901722637330951972001133588410340171829515070372549795146003961539585716195755291692375963310293709091662304773755859649779 :=
  bls 181709681073901722637330951972001133588410340171829515070372549795146003961539585716195755291692375963310293709091662304773755859649779 2
    597197186885620004903984790476651841346223650827097659 72945748279488126890579019
    597197186885620004903984790476651841346223650827097658
    [227393, 3009341, 342682509629, 6730519843040614479184435237013]
    (by simp only [List.forall_mem_cons, List.not_mem_nil, false_imp_iff, implies_true, and_true]; exact ⟨prime_227393, prime_3009341, prime_342682509629, prime_6730519843040614479184435237013⟩)
    (by decide +kernel)

end Ed448.Primes
