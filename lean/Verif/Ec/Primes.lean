import Verif.Ec.Pratt
import Mathlib.Tactic.NormNum.Prime

/-!
# The moduli and the group orders of the curves P-192 and P-256 are prime

Certificates for `pratt`, generated by factoring; the kernel checks every one of them.
-/

namespace Verif.Ec

theorem prime_2 : Nat.Prime 2 := by norm_num

theorem prime_59 : Nat.Prime 59 := by norm_num

theorem prime_163 : Nat.Prime 163 := by norm_num

theorem prime_229 : Nat.Prime 229 := by norm_num

theorem prime_149309 : Nat.Prime 149309 := by
  refine pratt _ 2 18 [2, 2, 163, 229]
    (by decide +kernel) (by decide +kernel) ?_ (by decide +kernel) (by decide +kernel) (by decide +kernel)
  simp only [List.mem_cons, List.not_mem_nil, or_false, forall_eq_or_imp, forall_eq]
  exact ⟨prime_2, prime_2, prime_163, prime_229⟩

theorem prime_3 : Nat.Prime 3 := by norm_num

theorem prime_5 : Nat.Prime 5 := by norm_num

theorem prime_11 : Nat.Prime 11 := by norm_num

theorem prime_61 : Nat.Prime 61 := by norm_num

theorem prime_283 : Nat.Prime 283 := by norm_num

theorem prime_379787 : Nat.Prime 379787 := by
  refine pratt _ 2 19 [2, 11, 61, 283]
    (by decide +kernel) (by decide +kernel) ?_ (by decide +kernel) (by decide +kernel) (by decide +kernel)
  simp only [List.mem_cons, List.not_mem_nil, or_false, forall_eq_or_imp, forall_eq]
  exact ⟨prime_2, prime_11, prime_61, prime_283⟩

theorem prime_11393611 : Nat.Prime 11393611 := by
  refine pratt _ 10 24 [2, 3, 5, 379787]
    (by decide +kernel) (by decide +kernel) ?_ (by decide +kernel) (by decide +kernel) (by decide +kernel)
  simp only [List.mem_cons, List.not_mem_nil, or_false, forall_eq_or_imp, forall_eq]
  exact ⟨prime_2, prime_3, prime_5, prime_379787⟩

theorem prime_17 : Nat.Prime 17 := by norm_num

theorem prime_43 : Nat.Prime 43 := by norm_num

theorem prime_619 : Nat.Prime 619 := by norm_num

theorem prime_2477 : Nat.Prime 2477 := by
  refine pratt _ 2 12 [2, 2, 619]
    (by decide +kernel) (by decide +kernel) ?_ (by decide +kernel) (by decide +kernel) (by decide +kernel)
  simp only [List.mem_cons, List.not_mem_nil, or_false, forall_eq_or_imp, forall_eq]
  exact ⟨prime_2, prime_2, prime_619⟩

theorem prime_7 : Nat.Prime 7 := by norm_num

theorem prime_31 : Nat.Prime 31 := by norm_num

theorem prime_54251 : Nat.Prime 54251 := by
  refine pratt _ 2 16 [2, 5, 5, 5, 7, 31]
    (by decide +kernel) (by decide +kernel) ?_ (by decide +kernel) (by decide +kernel) (by decide +kernel)
  simp only [List.mem_cons, List.not_mem_nil, or_false, forall_eq_or_imp, forall_eq]
  exact ⟨prime_2, prime_5, prime_5, prime_5, prime_7, prime_31⟩

theorem prime_19 : Nat.Prime 19 := by norm_num

theorem prime_907 : Nat.Prime 907 := by norm_num

theorem prime_275729 : Nat.Prime 275729 := by
  refine pratt _ 3 19 [2, 2, 2, 2, 19, 907]
    (by decide +kernel) (by decide +kernel) ?_ (by decide +kernel) (by decide +kernel) (by decide +kernel)
  simp only [List.mem_cons, List.not_mem_nil, or_false, forall_eq_or_imp, forall_eq]
  exact ⟨prime_2, prime_2, prime_2, prime_2, prime_19, prime_907⟩

theorem prime_108341181769254293 : Nat.Prime 108341181769254293 := by
  refine pratt _ 2 57 [2, 2, 17, 43, 2477, 54251, 275729]
    (by decide +kernel) (by decide +kernel) ?_ (by decide +kernel) (by decide +kernel) (by decide +kernel)
  simp only [List.mem_cons, List.not_mem_nil, or_false, forall_eq_or_imp, forall_eq]
  exact ⟨prime_2, prime_2, prime_17, prime_43, prime_2477, prime_54251, prime_275729⟩

theorem prime_37 : Nat.Prime 37 := by norm_num

theorem prime_607 : Nat.Prime 607 := by norm_num

theorem prime_191 : Nat.Prime 191 := by norm_num

theorem prime_631 : Nat.Prime 631 := by norm_num

theorem prime_723127 : Nat.Prime 723127 := by
  refine pratt _ 3 20 [2, 3, 191, 631]
    (by decide +kernel) (by decide +kernel) ?_ (by decide +kernel) (by decide +kernel) (by decide +kernel)
  simp only [List.mem_cons, List.not_mem_nil, or_false, forall_eq_or_imp, forall_eq]
  exact ⟨prime_2, prime_3, prime_191, prime_631⟩

theorem prime_41 : Nat.Prime 41 := by norm_num

theorem prime_8413201 : Nat.Prime 8413201 := by
  refine pratt _ 29 24 [2, 2, 2, 2, 3, 3, 3, 5, 5, 19, 41]
    (by decide +kernel) (by decide +kernel) ?_ (by decide +kernel) (by decide +kernel) (by decide +kernel)
  simp only [List.mem_cons, List.not_mem_nil, or_false, forall_eq_or_imp, forall_eq]
  exact ⟨prime_2, prime_2, prime_2, prime_2, prime_3, prime_3, prime_3, prime_5, prime_5, prime_19, prime_41⟩

theorem prime_252396031 : Nat.Prime 252396031 := by
  refine pratt _ 3 28 [2, 3, 5, 8413201]
    (by decide +kernel) (by decide +kernel) ?_ (by decide +kernel) (by decide +kernel) (by decide +kernel)
  simp only [List.mem_cons, List.not_mem_nil, or_false, forall_eq_or_imp, forall_eq]
  exact ⟨prime_2, prime_3, prime_5, prime_8413201⟩

theorem prime_455827231987 : Nat.Prime 455827231987 := by
  refine pratt _ 2 39 [2, 3, 7, 43, 252396031]
    (by decide +kernel) (by decide +kernel) ?_ (by decide +kernel) (by decide +kernel) (by decide +kernel)
  simp only [List.mem_cons, List.not_mem_nil, or_false, forall_eq_or_imp, forall_eq]
  exact ⟨prime_2, prime_3, prime_7, prime_43, prime_252396031⟩

theorem prime_5933177618131140283 : Nat.Prime 5933177618131140283 := by
  refine pratt _ 2 63 [2, 3, 3, 723127, 455827231987]
    (by decide +kernel) (by decide +kernel) ?_ (by decide +kernel) (by decide +kernel) (by decide +kernel)
  simp only [List.mem_cons, List.not_mem_nil, or_false, forall_eq_or_imp, forall_eq]
  exact ⟨prime_2, prime_3, prime_3, prime_723127, prime_455827231987⟩

theorem prime_288626509448065367648032903 : Nat.Prime 288626509448065367648032903 := by
  refine pratt _ 6 88 [2, 3, 19, 19, 37, 607, 5933177618131140283]
    (by decide +kernel) (by decide +kernel) ?_ (by decide +kernel) (by decide +kernel) (by decide +kernel)
  simp only [List.mem_cons, List.not_mem_nil, or_false, forall_eq_or_imp, forall_eq]
  exact ⟨prime_2, prime_3, prime_19, prime_19, prime_37, prime_607, prime_5933177618131140283⟩

theorem prime_p192 : Nat.Prime 6277101735386680763835789423207666416083908700390324961279 := by
  refine pratt _ 11 192 [2, 59, 149309, 11393611, 108341181769254293, 288626509448065367648032903]
    (by decide +kernel) (by decide +kernel) ?_ (by decide +kernel) (by decide +kernel) (by decide +kernel)
  simp only [List.mem_cons, List.not_mem_nil, or_false, forall_eq_or_imp, forall_eq]
  exact ⟨prime_2, prime_59, prime_149309, prime_11393611, prime_108341181769254293, prime_288626509448065367648032903⟩

theorem prime_71 : Nat.Prime 71 := by norm_num

theorem prime_131 : Nat.Prime 131 := by norm_num

theorem prime_373 : Nat.Prime 373 := by norm_num

theorem prime_13 : Nat.Prime 13 := by norm_num

theorem prime_3407 : Nat.Prime 3407 := by
  refine pratt _ 5 12 [2, 13, 131]
    (by decide +kernel) (by decide +kernel) ?_ (by decide +kernel) (by decide +kernel) (by decide +kernel)
  simp only [List.mem_cons, List.not_mem_nil, or_false, forall_eq_or_imp, forall_eq]
  exact ⟨prime_2, prime_13, prime_131⟩

theorem prime_727 : Nat.Prime 727 := by norm_num

theorem prime_17449 : Nat.Prime 17449 := by
  refine pratt _ 14 15 [2, 2, 2, 3, 727]
    (by decide +kernel) (by decide +kernel) ?_ (by decide +kernel) (by decide +kernel) (by decide +kernel)
  simp only [List.mem_cons, List.not_mem_nil, or_false, forall_eq_or_imp, forall_eq]
  exact ⟨prime_2, prime_2, prime_2, prime_3, prime_727⟩

theorem prime_9547 : Nat.Prime 9547 := by
  refine pratt _ 2 14 [2, 3, 37, 43]
    (by decide +kernel) (by decide +kernel) ?_ (by decide +kernel) (by decide +kernel) (by decide +kernel)
  simp only [List.mem_cons, List.not_mem_nil, or_false, forall_eq_or_imp, forall_eq]
  exact ⟨prime_2, prime_3, prime_37, prime_43⟩

theorem prime_38189 : Nat.Prime 38189 := by
  refine pratt _ 2 16 [2, 2, 9547]
    (by decide +kernel) (by decide +kernel) ?_ (by decide +kernel) (by decide +kernel) (by decide +kernel)
  simp only [List.mem_cons, List.not_mem_nil, or_false, forall_eq_or_imp, forall_eq]
  exact ⟨prime_2, prime_2, prime_9547⟩

theorem prime_1201 : Nat.Prime 1201 := by
  refine pratt _ 11 11 [2, 2, 2, 2, 3, 5, 5]
    (by decide +kernel) (by decide +kernel) ?_ (by decide +kernel) (by decide +kernel) (by decide +kernel)
  simp only [List.mem_cons, List.not_mem_nil, or_false, forall_eq_or_imp, forall_eq]
  exact ⟨prime_2, prime_2, prime_2, prime_2, prime_3, prime_5, prime_5⟩

theorem prime_9350987 : Nat.Prime 9350987 := by
  refine pratt _ 2 24 [2, 17, 229, 1201]
    (by decide +kernel) (by decide +kernel) ?_ (by decide +kernel) (by decide +kernel) (by decide +kernel)
  simp only [List.mem_cons, List.not_mem_nil, or_false, forall_eq_or_imp, forall_eq]
  exact ⟨prime_2, prime_17, prime_229, prime_1201⟩

theorem prime_187019741 : Nat.Prime 187019741 := by
  refine pratt _ 2 28 [2, 2, 5, 9350987]
    (by decide +kernel) (by decide +kernel) ?_ (by decide +kernel) (by decide +kernel) (by decide +kernel)
  simp only [List.mem_cons, List.not_mem_nil, or_false, forall_eq_or_imp, forall_eq]
  exact ⟨prime_2, prime_2, prime_5, prime_9350987⟩

theorem prime_29 : Nat.Prime 29 := by norm_num

theorem prime_311 : Nat.Prime 311 := by norm_num

theorem prime_311245691 : Nat.Prime 311245691 := by
  refine pratt _ 2 29 [2, 5, 7, 17, 29, 29, 311]
    (by decide +kernel) (by decide +kernel) ?_ (by decide +kernel) (by decide +kernel) (by decide +kernel)
  simp only [List.mem_cons, List.not_mem_nil, or_false, forall_eq_or_imp, forall_eq]
  exact ⟨prime_2, prime_5, prime_7, prime_17, prime_29, prime_29, prime_311⟩

theorem prime_622491383 : Nat.Prime 622491383 := by
  refine pratt _ 5 30 [2, 311245691]
    (by decide +kernel) (by decide +kernel) ?_ (by decide +kernel) (by decide +kernel) (by decide +kernel)
  simp only [List.mem_cons, List.not_mem_nil, or_false, forall_eq_or_imp, forall_eq]
  exact ⟨prime_2, prime_311245691⟩

theorem prime_263 : Nat.Prime 263 := by norm_num

theorem prime_126241 : Nat.Prime 126241 := by
  refine pratt _ 7 17 [2, 2, 2, 2, 2, 3, 5, 263]
    (by decide +kernel) (by decide +kernel) ?_ (by decide +kernel) (by decide +kernel) (by decide +kernel)
  simp only [List.mem_cons, List.not_mem_nil, or_false, forall_eq_or_imp, forall_eq]
  exact ⟨prime_2, prime_2, prime_2, prime_2, prime_2, prime_3, prime_5, prime_263⟩

theorem prime_337 : Nat.Prime 337 := by norm_num

theorem prime_104471 : Nat.Prime 104471 := by
  refine pratt _ 11 17 [2, 5, 31, 337]
    (by decide +kernel) (by decide +kernel) ?_ (by decide +kernel) (by decide +kernel) (by decide +kernel)
  simp only [List.mem_cons, List.not_mem_nil, or_false, forall_eq_or_imp, forall_eq]
  exact ⟨prime_2, prime_5, prime_31, prime_337⟩

theorem prime_3969899 : Nat.Prime 3969899 := by
  refine pratt _ 2 22 [2, 19, 104471]
    (by decide +kernel) (by decide +kernel) ?_ (by decide +kernel) (by decide +kernel) (by decide +kernel)
  simp only [List.mem_cons, List.not_mem_nil, or_false, forall_eq_or_imp, forall_eq]
  exact ⟨prime_2, prime_19, prime_104471⟩

theorem prime_1002328039319 : Nat.Prime 1002328039319 := by
  refine pratt _ 19 40 [2, 126241, 3969899]
    (by decide +kernel) (by decide +kernel) ?_ (by decide +kernel) (by decide +kernel) (by decide +kernel)
  simp only [List.mem_cons, List.not_mem_nil, or_false, forall_eq_or_imp, forall_eq]
  exact ⟨prime_2, prime_126241, prime_3969899⟩

theorem prime_1297 : Nat.Prime 1297 := by
  refine pratt _ 10 11 [2, 2, 2, 2, 3, 3, 3, 3]
    (by decide +kernel) (by decide +kernel) ?_ (by decide +kernel) (by decide +kernel) (by decide +kernel)
  simp only [List.mem_cons, List.not_mem_nil, or_false, forall_eq_or_imp, forall_eq]
  exact ⟨prime_2, prime_2, prime_2, prime_2, prime_3, prime_3, prime_3, prime_3⟩

theorem prime_97 : Nat.Prime 97 := by norm_num

theorem prime_16879 : Nat.Prime 16879 := by
  refine pratt _ 3 15 [2, 3, 29, 97]
    (by decide +kernel) (by decide +kernel) ?_ (by decide +kernel) (by decide +kernel) (by decide +kernel)
  simp only [List.mem_cons, List.not_mem_nil, or_false, forall_eq_or_imp, forall_eq]
  exact ⟨prime_2, prime_3, prime_29, prime_97⟩

theorem prime_127 : Nat.Prime 127 := by norm_num

theorem prime_151 : Nat.Prime 151 := by norm_num

theorem prime_1511 : Nat.Prime 1511 := by
  refine pratt _ 11 11 [2, 5, 151]
    (by decide +kernel) (by decide +kernel) ?_ (by decide +kernel) (by decide +kernel) (by decide +kernel)
  simp only [List.mem_cons, List.not_mem_nil, or_false, forall_eq_or_imp, forall_eq]
  exact ⟨prime_2, prime_5, prime_151⟩

theorem prime_3023 : Nat.Prime 3023 := by
  refine pratt _ 5 12 [2, 1511]
    (by decide +kernel) (by decide +kernel) ?_ (by decide +kernel) (by decide +kernel) (by decide +kernel)
  simp only [List.mem_cons, List.not_mem_nil, or_false, forall_eq_or_imp, forall_eq]
  exact ⟨prime_2, prime_1511⟩

theorem prime_155317 : Nat.Prime 155317 := by
  refine pratt _ 5 18 [2, 2, 3, 7, 43, 43]
    (by decide +kernel) (by decide +kernel) ?_ (by decide +kernel) (by decide +kernel) (by decide +kernel)
  simp only [List.mem_cons, List.not_mem_nil, or_false, forall_eq_or_imp, forall_eq]
  exact ⟨prime_2, prime_2, prime_3, prime_7, prime_43, prime_43⟩

theorem prime_191039911 : Nat.Prime 191039911 := by
  refine pratt _ 3 28 [2, 3, 5, 41, 155317]
    (by decide +kernel) (by decide +kernel) ?_ (by decide +kernel) (by decide +kernel) (by decide +kernel)
  simp only [List.mem_cons, List.not_mem_nil, or_false, forall_eq_or_imp, forall_eq]
  exact ⟨prime_2, prime_3, prime_5, prime_41, prime_155317⟩

theorem prime_208150935158385979 : Nat.Prime 208150935158385979 := by
  refine pratt _ 2 58 [2, 3, 11, 43, 127, 3023, 191039911]
    (by decide +kernel) (by decide +kernel) ?_ (by decide +kernel) (by decide +kernel) (by decide +kernel)
  simp only [List.mem_cons, List.not_mem_nil, or_false, forall_eq_or_imp, forall_eq]
  exact ⟨prime_2, prime_3, prime_11, prime_43, prime_127, prime_3023, prime_191039911⟩

theorem prime_2624747550333869278416773953 : Nat.Prime 2624747550333869278416773953 := by
  refine pratt _ 7 92 [2, 2, 2, 2, 2, 2, 3, 3, 1297, 16879, 208150935158385979]
    (by decide +kernel) (by decide +kernel) ?_ (by decide +kernel) (by decide +kernel) (by decide +kernel)
  simp only [List.mem_cons, List.not_mem_nil, or_false, forall_eq_or_imp, forall_eq]
  exact ⟨prime_2, prime_2, prime_2, prime_2, prime_2, prime_2, prime_3, prime_3, prime_1297, prime_16879, prime_208150935158385979⟩

theorem prime_n256 : Nat.Prime 115792089210356248762697446949407573529996955224135760342422259061068512044369 := by
  refine pratt _ 7 256 [2, 2, 2, 2, 3, 71, 131, 373, 3407, 17449, 38189, 187019741, 622491383, 1002328039319, 2624747550333869278416773953]
    (by decide +kernel) (by decide +kernel) ?_ (by decide +kernel) (by decide +kernel) (by decide +kernel)
  simp only [List.mem_cons, List.not_mem_nil, or_false, forall_eq_or_imp, forall_eq]
  exact ⟨prime_2, prime_2, prime_2, prime_2, prime_3, prime_71, prime_131, prime_373, prime_3407, prime_17449, prime_38189, prime_187019741, prime_622491383, prime_1002328039319, prime_2624747550333869278416773953⟩

theorem prime_199 : Nat.Prime 199 := by norm_num

theorem prime_2389 : Nat.Prime 2389 := by
  refine pratt _ 2 12 [2, 2, 3, 199]
    (by decide +kernel) (by decide +kernel) ?_ (by decide +kernel) (by decide +kernel) (by decide +kernel)
  simp only [List.mem_cons, List.not_mem_nil, or_false, forall_eq_or_imp, forall_eq]
  exact ⟨prime_2, prime_2, prime_3, prime_199⟩

theorem prime_1889 : Nat.Prime 1889 := by
  refine pratt _ 3 11 [2, 2, 2, 2, 2, 59]
    (by decide +kernel) (by decide +kernel) ?_ (by decide +kernel) (by decide +kernel) (by decide +kernel)
  simp only [List.mem_cons, List.not_mem_nil, or_false, forall_eq_or_imp, forall_eq]
  exact ⟨prime_2, prime_2, prime_2, prime_2, prime_2, prime_59⟩

theorem prime_60449 : Nat.Prime 60449 := by
  refine pratt _ 3 16 [2, 2, 2, 2, 2, 1889]
    (by decide +kernel) (by decide +kernel) ?_ (by decide +kernel) (by decide +kernel) (by decide +kernel)
  simp only [List.mem_cons, List.not_mem_nil, or_false, forall_eq_or_imp, forall_eq]
  exact ⟨prime_2, prime_2, prime_2, prime_2, prime_2, prime_1889⟩

theorem prime_15716741 : Nat.Prime 15716741 := by
  refine pratt _ 2 24 [2, 2, 5, 13, 60449]
    (by decide +kernel) (by decide +kernel) ?_ (by decide +kernel) (by decide +kernel) (by decide +kernel)
  simp only [List.mem_cons, List.not_mem_nil, or_false, forall_eq_or_imp, forall_eq]
  exact ⟨prime_2, prime_2, prime_5, prime_13, prime_60449⟩

theorem prime_239 : Nat.Prime 239 := by norm_num

theorem prime_881 : Nat.Prime 881 := by norm_num

theorem prime_54623 : Nat.Prime 54623 := by
  refine pratt _ 5 16 [2, 31, 881]
    (by decide +kernel) (by decide +kernel) ?_ (by decide +kernel) (by decide +kernel) (by decide +kernel)
  simp only [List.mem_cons, List.not_mem_nil, or_false, forall_eq_or_imp, forall_eq]
  exact ⟨prime_2, prime_31, prime_881⟩

theorem prime_47 : Nat.Prime 47 := by norm_num

theorem prime_1693 : Nat.Prime 1693 := by
  refine pratt _ 2 11 [2, 2, 3, 3, 47]
    (by decide +kernel) (by decide +kernel) ?_ (by decide +kernel) (by decide +kernel) (by decide +kernel)
  simp only [List.mem_cons, List.not_mem_nil, or_false, forall_eq_or_imp, forall_eq]
  exact ⟨prime_2, prime_2, prime_3, prime_3, prime_47⟩

theorem prime_569 : Nat.Prime 569 := by norm_num

theorem prime_6829 : Nat.Prime 6829 := by
  refine pratt _ 2 13 [2, 2, 3, 569]
    (by decide +kernel) (by decide +kernel) ?_ (by decide +kernel) (by decide +kernel) (by decide +kernel)
  simp only [List.mem_cons, List.not_mem_nil, or_false, forall_eq_or_imp, forall_eq]
  exact ⟨prime_2, prime_2, prime_3, prime_569⟩

theorem prime_46245989 : Nat.Prime 46245989 := by
  refine pratt _ 2 26 [2, 2, 1693, 6829]
    (by decide +kernel) (by decide +kernel) ?_ (by decide +kernel) (by decide +kernel) (by decide +kernel)
  simp only [List.mem_cons, List.not_mem_nil, or_false, forall_eq_or_imp, forall_eq]
  exact ⟨prime_2, prime_2, prime_1693, prime_6829⟩

theorem prime_7244839476697597 : Nat.Prime 7244839476697597 := by
  refine pratt _ 2 53 [2, 2, 3, 239, 54623, 46245989]
    (by decide +kernel) (by decide +kernel) ?_ (by decide +kernel) (by decide +kernel) (by decide +kernel)
  simp only [List.mem_cons, List.not_mem_nil, or_false, forall_eq_or_imp, forall_eq]
  exact ⟨prime_2, prime_2, prime_3, prime_239, prime_54623, prime_46245989⟩

theorem prime_9564682313913860059195669 : Nat.Prime 9564682313913860059195669 := by
  refine pratt _ 2 83 [2, 2, 3, 7, 15716741, 7244839476697597]
    (by decide +kernel) (by decide +kernel) ?_ (by decide +kernel) (by decide +kernel) (by decide +kernel)
  simp only [List.mem_cons, List.not_mem_nil, or_false, forall_eq_or_imp, forall_eq]
  exact ⟨prime_2, prime_2, prime_3, prime_7, prime_15716741, prime_7244839476697597⟩

theorem prime_439 : Nat.Prime 439 := by norm_num

theorem prime_53197 : Nat.Prime 53197 := by
  refine pratt _ 2 16 [2, 2, 3, 11, 13, 31]
    (by decide +kernel) (by decide +kernel) ?_ (by decide +kernel) (by decide +kernel) (by decide +kernel)
  simp only [List.mem_cons, List.not_mem_nil, or_false, forall_eq_or_imp, forall_eq]
  exact ⟨prime_2, prime_2, prime_3, prime_11, prime_13, prime_31⟩

theorem prime_51920273 : Nat.Prime 51920273 := by
  refine pratt _ 3 26 [2, 2, 2, 2, 61, 53197]
    (by decide +kernel) (by decide +kernel) ?_ (by decide +kernel) (by decide +kernel) (by decide +kernel)
  simp only [List.mem_cons, List.not_mem_nil, or_false, forall_eq_or_imp, forall_eq]
  exact ⟨prime_2, prime_2, prime_2, prime_2, prime_61, prime_53197⟩

theorem prime_103840547 : Nat.Prime 103840547 := by
  refine pratt _ 2 27 [2, 51920273]
    (by decide +kernel) (by decide +kernel) ?_ (by decide +kernel) (by decide +kernel) (by decide +kernel)
  simp only [List.mem_cons, List.not_mem_nil, or_false, forall_eq_or_imp, forall_eq]
  exact ⟨prime_2, prime_51920273⟩

theorem prime_331 : Nat.Prime 331 := by norm_num

theorem prime_103 : Nat.Prime 103 := by norm_num

theorem prime_1031 : Nat.Prime 1031 := by
  refine pratt _ 14 11 [2, 5, 103]
    (by decide +kernel) (by decide +kernel) ?_ (by decide +kernel) (by decide +kernel) (by decide +kernel)
  simp only [List.mem_cons, List.not_mem_nil, or_false, forall_eq_or_imp, forall_eq]
  exact ⟨prime_2, prime_5, prime_103⟩

theorem prime_2063 : Nat.Prime 2063 := by
  refine pratt _ 5 12 [2, 1031]
    (by decide +kernel) (by decide +kernel) ?_ (by decide +kernel) (by decide +kernel) (by decide +kernel)
  simp only [List.mem_cons, List.not_mem_nil, or_false, forall_eq_or_imp, forall_eq]
  exact ⟨prime_2, prime_1031⟩

theorem prime_4127 : Nat.Prime 4127 := by
  refine pratt _ 5 13 [2, 2063]
    (by decide +kernel) (by decide +kernel) ?_ (by decide +kernel) (by decide +kernel) (by decide +kernel)
  simp only [List.mem_cons, List.not_mem_nil, or_false, forall_eq_or_imp, forall_eq]
  exact ⟨prime_2, prime_2063⟩

theorem prime_547 : Nat.Prime 547 := by norm_num

theorem prime_51419 : Nat.Prime 51419 := by
  refine pratt _ 2 16 [2, 47, 547]
    (by decide +kernel) (by decide +kernel) ?_ (by decide +kernel) (by decide +kernel) (by decide +kernel)
  simp only [List.mem_cons, List.not_mem_nil, or_false, forall_eq_or_imp, forall_eq]
  exact ⟨prime_2, prime_47, prime_547⟩

theorem prime_7532705587894727 : Nat.Prime 7532705587894727 := by
  refine pratt _ 5 53 [2, 29, 43, 43, 331, 4127, 51419]
    (by decide +kernel) (by decide +kernel) ?_ (by decide +kernel) (by decide +kernel) (by decide +kernel)
  simp only [List.mem_cons, List.not_mem_nil, or_false, forall_eq_or_imp, forall_eq]
  exact ⟨prime_2, prime_29, prime_43, prime_43, prime_331, prime_4127, prime_51419⟩

theorem prime_3433859179316188682119986911 : Nat.Prime 3433859179316188682119986911 := by
  refine pratt _ 13 92 [2, 5, 439, 103840547, 7532705587894727]
    (by decide +kernel) (by decide +kernel) ?_ (by decide +kernel) (by decide +kernel) (by decide +kernel)
  simp only [List.mem_cons, List.not_mem_nil, or_false, forall_eq_or_imp, forall_eq]
  exact ⟨prime_2, prime_5, prime_439, prime_103840547, prime_7532705587894727⟩

theorem prime_n192 : Nat.Prime 6277101735386680763835789423176059013767194773182842284081 := by
  refine pratt _ 3 192 [2, 2, 2, 2, 5, 2389, 9564682313913860059195669, 3433859179316188682119986911]
    (by decide +kernel) (by decide +kernel) ?_ (by decide +kernel) (by decide +kernel) (by decide +kernel)
  simp only [List.mem_cons, List.not_mem_nil, or_false, forall_eq_or_imp, forall_eq]
  exact ⟨prime_2, prime_2, prime_2, prime_2, prime_5, prime_2389, prime_9564682313913860059195669, prime_3433859179316188682119986911⟩

theorem prime_257 : Nat.Prime 257 := by norm_num

theorem prime_641 : Nat.Prime 641 := by norm_num

theorem prime_1531 : Nat.Prime 1531 := by
  refine pratt _ 2 11 [2, 3, 3, 5, 17]
    (by decide +kernel) (by decide +kernel) ?_ (by decide +kernel) (by decide +kernel) (by decide +kernel)
  simp only [List.mem_cons, List.not_mem_nil, or_false, forall_eq_or_imp, forall_eq]
  exact ⟨prime_2, prime_3, prime_3, prime_5, prime_17⟩

theorem prime_65537 : Nat.Prime 65537 := by
  refine pratt _ 3 17 [2, 2, 2, 2, 2, 2, 2, 2, 2, 2, 2, 2, 2, 2, 2, 2]
    (by decide +kernel) (by decide +kernel) ?_ (by decide +kernel) (by decide +kernel) (by decide +kernel)
  simp only [List.mem_cons, List.not_mem_nil, or_false, forall_eq_or_imp, forall_eq]
  exact ⟨prime_2, prime_2, prime_2, prime_2, prime_2, prime_2, prime_2, prime_2, prime_2, prime_2, prime_2, prime_2, prime_2, prime_2, prime_2, prime_2⟩

theorem prime_53 : Nat.Prime 53 := by norm_num

theorem prime_661 : Nat.Prime 661 := by norm_num

theorem prime_490463 : Nat.Prime 490463 := by
  refine pratt _ 14 19 [2, 7, 53, 661]
    (by decide +kernel) (by decide +kernel) ?_ (by decide +kernel) (by decide +kernel) (by decide +kernel)
  simp only [List.mem_cons, List.not_mem_nil, or_false, forall_eq_or_imp, forall_eq]
  exact ⟨prime_2, prime_7, prime_53, prime_661⟩

theorem prime_6700417 : Nat.Prime 6700417 := by
  refine pratt _ 5 23 [2, 2, 2, 2, 2, 2, 2, 3, 17449]
    (by decide +kernel) (by decide +kernel) ?_ (by decide +kernel) (by decide +kernel) (by decide +kernel)
  simp only [List.mem_cons, List.not_mem_nil, or_false, forall_eq_or_imp, forall_eq]
  exact ⟨prime_2, prime_2, prime_2, prime_2, prime_2, prime_2, prime_2, prime_3, prime_17449⟩

theorem prime_241 : Nat.Prime 241 := by norm_num

theorem prime_2411 : Nat.Prime 2411 := by
  refine pratt _ 6 12 [2, 5, 241]
    (by decide +kernel) (by decide +kernel) ?_ (by decide +kernel) (by decide +kernel) (by decide +kernel)
  simp only [List.mem_cons, List.not_mem_nil, or_false, forall_eq_or_imp, forall_eq]
  exact ⟨prime_2, prime_5, prime_241⟩

theorem prime_23 : Nat.Prime 23 := by norm_num

theorem prime_107 : Nat.Prime 107 := by norm_num

theorem prime_157 : Nat.Prime 157 := by norm_num

theorem prime_3769 : Nat.Prime 3769 := by
  refine pratt _ 7 12 [2, 2, 2, 3, 157]
    (by decide +kernel) (by decide +kernel) ?_ (by decide +kernel) (by decide +kernel) (by decide +kernel)
  simp only [List.mem_cons, List.not_mem_nil, or_false, forall_eq_or_imp, forall_eq]
  exact ⟨prime_2, prime_2, prime_2, prime_3, prime_157⟩

theorem prime_204061199 : Nat.Prime 204061199 := by
  refine pratt _ 11 28 [2, 11, 23, 107, 3769]
    (by decide +kernel) (by decide +kernel) ?_ (by decide +kernel) (by decide +kernel) (by decide +kernel)
  simp only [List.mem_cons, List.not_mem_nil, or_false, forall_eq_or_imp, forall_eq]
  exact ⟨prime_2, prime_11, prime_23, prime_107, prime_3769⟩

theorem prime_34282281433 : Nat.Prime 34282281433 := by
  refine pratt _ 17 35 [2, 2, 2, 3, 7, 204061199]
    (by decide +kernel) (by decide +kernel) ?_ (by decide +kernel) (by decide +kernel) (by decide +kernel)
  simp only [List.mem_cons, List.not_mem_nil, or_false, forall_eq_or_imp, forall_eq]
  exact ⟨prime_2, prime_2, prime_2, prime_3, prime_7, prime_204061199⟩

theorem prime_173 : Nat.Prime 173 := by norm_num

theorem prime_197 : Nat.Prime 197 := by norm_num

theorem prime_919 : Nat.Prime 919 := by norm_num

theorem prime_3677 : Nat.Prime 3677 := by
  refine pratt _ 2 12 [2, 2, 919]
    (by decide +kernel) (by decide +kernel) ?_ (by decide +kernel) (by decide +kernel) (by decide +kernel)
  simp only [List.mem_cons, List.not_mem_nil, or_false, forall_eq_or_imp, forall_eq]
  exact ⟨prime_2, prime_2, prime_919⟩

theorem prime_66417393611 : Nat.Prime 66417393611 := by
  refine pratt _ 6 36 [2, 5, 53, 173, 197, 3677]
    (by decide +kernel) (by decide +kernel) ?_ (by decide +kernel) (by decide +kernel) (by decide +kernel)
  simp only [List.mem_cons, List.not_mem_nil, or_false, forall_eq_or_imp, forall_eq]
  exact ⟨prime_2, prime_5, prime_53, prime_173, prime_197, prime_3677⟩

theorem prime_11290956913871 : Nat.Prime 11290956913871 := by
  refine pratt _ 13 44 [2, 5, 17, 66417393611]
    (by decide +kernel) (by decide +kernel) ?_ (by decide +kernel) (by decide +kernel) (by decide +kernel)
  simp only [List.mem_cons, List.not_mem_nil, or_false, forall_eq_or_imp, forall_eq]
  exact ⟨prime_2, prime_5, prime_17, prime_66417393611⟩

theorem prime_757 : Nat.Prime 757 := by norm_num

theorem prime_18169 : Nat.Prime 18169 := by
  refine pratt _ 11 15 [2, 2, 2, 3, 757]
    (by decide +kernel) (by decide +kernel) ?_ (by decide +kernel) (by decide +kernel) (by decide +kernel)
  simp only [List.mem_cons, List.not_mem_nil, or_false, forall_eq_or_imp, forall_eq]
  exact ⟨prime_2, prime_2, prime_2, prime_3, prime_757⟩

theorem prime_181 : Nat.Prime 181 := by norm_num

theorem prime_1087 : Nat.Prime 1087 := by
  refine pratt _ 3 11 [2, 3, 181]
    (by decide +kernel) (by decide +kernel) ?_ (by decide +kernel) (by decide +kernel) (by decide +kernel)
  simp only [List.mem_cons, List.not_mem_nil, or_false, forall_eq_or_imp, forall_eq]
  exact ⟨prime_2, prime_3, prime_181⟩

theorem prime_4349 : Nat.Prime 4349 := by
  refine pratt _ 2 13 [2, 2, 1087]
    (by decide +kernel) (by decide +kernel) ?_ (by decide +kernel) (by decide +kernel) (by decide +kernel)
  simp only [List.mem_cons, List.not_mem_nil, or_false, forall_eq_or_imp, forall_eq]
  exact ⟨prime_2, prime_2, prime_1087⟩

theorem prime_78283 : Nat.Prime 78283 := by
  refine pratt _ 3 17 [2, 3, 3, 4349]
    (by decide +kernel) (by decide +kernel) ?_ (by decide +kernel) (by decide +kernel) (by decide +kernel)
  simp only [List.mem_cons, List.not_mem_nil, or_false, forall_eq_or_imp, forall_eq]
  exact ⟨prime_2, prime_3, prime_3, prime_4349⟩

theorem prime_313 : Nat.Prime 313 := by norm_num

theorem prime_704251 : Nat.Prime 704251 := by
  refine pratt _ 2 20 [2, 3, 3, 5, 5, 5, 313]
    (by decide +kernel) (by decide +kernel) ?_ (by decide +kernel) (by decide +kernel) (by decide +kernel)
  simp only [List.mem_cons, List.not_mem_nil, or_false, forall_eq_or_imp, forall_eq]
  exact ⟨prime_2, prime_3, prime_3, prime_5, prime_5, prime_5, prime_313⟩

theorem prime_46076956964474543 : Nat.Prime 46076956964474543 := by
  refine pratt _ 5 56 [2, 23, 18169, 78283, 704251]
    (by decide +kernel) (by decide +kernel) ?_ (by decide +kernel) (by decide +kernel) (by decide +kernel)
  simp only [List.mem_cons, List.not_mem_nil, or_false, forall_eq_or_imp, forall_eq]
  exact ⟨prime_2, prime_23, prime_18169, prime_78283, prime_704251⟩

theorem prime_774023187263532362759620327192479577272145303 : Nat.Prime 774023187263532362759620327192479577272145303 := by
  refine pratt _ 3 150 [2, 3, 3, 2411, 34282281433, 11290956913871, 46076956964474543]
    (by decide +kernel) (by decide +kernel) ?_ (by decide +kernel) (by decide +kernel) (by decide +kernel)
  simp only [List.mem_cons, List.not_mem_nil, or_false, forall_eq_or_imp, forall_eq]
  exact ⟨prime_2, prime_3, prime_3, prime_2411, prime_34282281433, prime_11290956913871, prime_46076956964474543⟩

theorem prime_835945042244614951780389953367877943453916927241 : Nat.Prime 835945042244614951780389953367877943453916927241 := by
  refine pratt _ 11 160 [2, 2, 2, 3, 3, 3, 5, 774023187263532362759620327192479577272145303]
    (by decide +kernel) (by decide +kernel) ?_ (by decide +kernel) (by decide +kernel) (by decide +kernel)
  simp only [List.mem_cons, List.not_mem_nil, or_false, forall_eq_or_imp, forall_eq]
  exact ⟨prime_2, prime_2, prime_2, prime_3, prime_3, prime_3, prime_5, prime_774023187263532362759620327192479577272145303⟩

theorem prime_p256 : Nat.Prime 115792089210356248762697446949407573530086143415290314195533631308867097853951 := by
  refine pratt _ 6 256 [2, 3, 5, 5, 17, 257, 641, 1531, 65537, 490463, 6700417, 835945042244614951780389953367877943453916927241]
    (by decide +kernel) (by decide +kernel) ?_ (by decide +kernel) (by decide +kernel) (by decide +kernel)
  simp only [List.mem_cons, List.not_mem_nil, or_false, forall_eq_or_imp, forall_eq]
  exact ⟨prime_2, prime_3, prime_5, prime_5, prime_17, prime_257, prime_641, prime_1531, prime_65537, prime_490463, prime_6700417, prime_835945042244614951780389953367877943453916927241⟩

end Verif.Ec
