import Verif.Math.Pocklington
import Mathlib.Tactic.NormNum.Prime

/-!
# p and q are prime

Generated by `tools/gen_prime.py`.
-/

set_option exponentiation.threshold 1000

namespace Ed448

theorem prime_6197 : Nat.Prime 6197 := by norm_num

theorem prime_61 : Nat.Prime 61 := by norm_num

theorem prime_1335912079 : Nat.Prime 1335912079 :=
  pocklington (k := 31) (a := 2) (l := [6197, 61])
    (by simp only [List.forall_mem_cons]; exact ⟨prime_6197, prime_61, by simp⟩)
    (by decide) (by decide +kernel) (by decide +kernel)

theorem prime_32061889897 : Nat.Prime 32061889897 :=
  pocklington (k := 35) (a := 2) (l := [1335912079])
    (by simp only [List.forall_mem_cons]; exact ⟨prime_1335912079, by simp⟩)
    (by decide) (by decide +kernel) (by decide +kernel)

theorem prime_25136521679249 : Nat.Prime 25136521679249 :=
  pocklington (k := 45) (a := 2) (l := [32061889897])
    (by simp only [List.forall_mem_cons]; exact ⟨prime_32061889897, by simp⟩)
    (by decide) (by decide +kernel) (by decide +kernel)

theorem prime_116989 : Nat.Prime 116989 := by norm_num

theorem prime_1255525949 : Nat.Prime 1255525949 :=
  pocklington (k := 31) (a := 2) (l := [116989])
    (by simp only [List.forall_mem_cons]; exact ⟨prime_116989, by simp⟩)
    (by decide) (by decide +kernel) (by decide +kernel)

theorem prime_37414057161322375957408148834323969 : Nat.Prime 37414057161322375957408148834323969 :=
  pocklington (k := 115) (a := 3) (l := [25136521679249, 1255525949])
    (by simp only [List.forall_mem_cons]; exact ⟨prime_25136521679249, prime_1255525949, by simp⟩)
    (by decide) (by decide +kernel) (by decide +kernel)

theorem prime_217003 : Nat.Prime 217003 := by norm_num

theorem prime_1764234391 : Nat.Prime 1764234391 :=
  pocklington (k := 31) (a := 2) (l := [217003])
    (by simp only [List.forall_mem_cons]; exact ⟨prime_217003, by simp⟩)
    (by decide) (by decide +kernel) (by decide +kernel)

theorem prime_34741861125639557 : Nat.Prime 34741861125639557 :=
  pocklington (k := 55) (a := 2) (l := [1764234391])
    (by simp only [List.forall_mem_cons]; exact ⟨prime_1764234391, by simp⟩)
    (by decide) (by decide +kernel) (by decide +kernel)

theorem prime_36131535570665139281 : Nat.Prime 36131535570665139281 :=
  pocklington (k := 65) (a := 2) (l := [34741861125639557])
    (by simp only [List.forall_mem_cons]; exact ⟨prime_34741861125639557, by simp⟩)
    (by decide) (by decide +kernel) (by decide +kernel)

theorem prime_596242599987116128415063 : Nat.Prime 596242599987116128415063 :=
  pocklington (k := 79) (a := 3) (l := [36131535570665139281])
    (by simp only [List.forall_mem_cons]; exact ⟨prime_36131535570665139281, by simp⟩)
    (by decide) (by decide +kernel) (by decide +kernel)

theorem prime_379979 : Nat.Prime 379979 := by norm_num

theorem prime_271 : Nat.Prime 271 := by norm_num

theorem prime_97859369123353 : Nat.Prime 97859369123353 :=
  pocklington (k := 47) (a := 2) (l := [379979, 271])
    (by simp only [List.forall_mem_cons]; exact ⟨prime_379979, prime_271, by simp⟩)
    (by decide) (by decide +kernel) (by decide +kernel)

theorem prime_167773885276849215533569 : Nat.Prime 167773885276849215533569 :=
  pocklington (k := 78) (a := 3) (l := [97859369123353])
    (by simp only [List.forall_mem_cons]; exact ⟨prime_97859369123353, by simp⟩)
    (by decide) (by decide +kernel) (by decide +kernel)

theorem prime_p : Nat.Prime (2 ^ 448 - 2 ^ 224 - 1) :=
  pocklington (k := 448) (a := 2) (l := [37414057161322375957408148834323969, 596242599987116128415063, 167773885276849215533569])
    (by simp only [List.forall_mem_cons]; exact ⟨prime_37414057161322375957408148834323969, prime_596242599987116128415063, prime_167773885276849215533569, by simp⟩)
    (by decide) (by decide +kernel) (by decide +kernel)

theorem prime_51473 : Nat.Prime 51473 := by norm_num

theorem prime_23 : Nat.Prime 23 := by norm_num

theorem prime_8464734851 : Nat.Prime 8464734851 :=
  pocklington (k := 33) (a := 2) (l := [51473, 23])
    (by simp only [List.forall_mem_cons]; exact ⟨prime_51473, prime_23, by simp⟩)
    (by decide) (by decide +kernel) (by decide +kernel)

theorem prime_991 : Nat.Prime 991 := by norm_num

theorem prime_19 : Nat.Prime 19 := by norm_num

theorem prime_11 : Nat.Prime 11 := by norm_num

theorem prime_671065561 : Nat.Prime 671065561 :=
  pocklington (k := 30) (a := 2) (l := [991, 19, 11])
    (by simp only [List.forall_mem_cons]; exact ⟨prime_991, prime_19, prime_11, by simp⟩)
    (by decide) (by decide +kernel) (by decide +kernel)

theorem prime_6730519843040614479184435237013 : Nat.Prime 6730519843040614479184435237013 :=
  pocklington (k := 103) (a := 2) (l := [8464734851, 671065561])
    (by simp only [List.forall_mem_cons]; exact ⟨prime_8464734851, prime_671065561, by simp⟩)
    (by decide) (by decide +kernel) (by decide +kernel)

theorem prime_766223 : Nat.Prime 766223 := by norm_num

theorem prime_342682509629 : Nat.Prime 342682509629 :=
  pocklington (k := 39) (a := 2) (l := [766223])
    (by simp only [List.forall_mem_cons]; exact ⟨prime_766223, by simp⟩)
    (by decide) (by decide +kernel) (by decide +kernel)

theorem prime_167 : Nat.Prime 167 := by norm_num

theorem prime_53 : Nat.Prime 53 := by norm_num

theorem prime_3009341 : Nat.Prime 3009341 :=
  pocklington (k := 22) (a := 2) (l := [167, 53])
    (by simp only [List.forall_mem_cons]; exact ⟨prime_167, prime_53, by simp⟩)
    (by decide) (by decide +kernel) (by decide +kernel)

theorem prime_q : Nat.Prime (2 ^ 446 - 13818066809895115352007386748515426880336692474882178609894547503885) :=
  pocklington3 (k := 446) (a := 2) (l := [6730519843040614479184435237013, 342682509629, 3009341])
    (by simp only [List.forall_mem_cons]; exact ⟨prime_6730519843040614479184435237013, prime_342682509629, prime_3009341, by simp⟩)
    (by decide) (by decide +kernel) (by decide +kernel) (by decide +kernel)

end Ed448
