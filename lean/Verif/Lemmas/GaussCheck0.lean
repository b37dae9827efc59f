import Verif.Lemmas.Gauss
/-
Kernel evaluation of the check of the Gauss-Legendre table, part 0 (every row of the table, every moment).
-/
namespace Qugar.GaussTable

theorem ok1 : blockOk scale (10 ^ 47) 1 b1 = true := by rw [← blockOkF_eq]; decide +kernel
theorem ok2 : blockOk scale (10 ^ 47) 2 b2 = true := by rw [← blockOkF_eq]; decide +kernel
theorem ok3 : blockOk scale (10 ^ 47) 3 b3 = true := by rw [← blockOkF_eq]; decide +kernel
theorem ok4 : blockOk scale (10 ^ 47) 4 b4 = true := by rw [← blockOkF_eq]; decide +kernel
theorem ok5 : blockOk scale (10 ^ 47) 5 b5 = true := by rw [← blockOkF_eq]; decide +kernel
theorem ok6 : blockOk scale (10 ^ 47) 6 b6 = true := by rw [← blockOkF_eq]; decide +kernel
theorem ok7 : blockOk scale (10 ^ 47) 7 b7 = true := by rw [← blockOkF_eq]; decide +kernel
theorem ok8 : blockOk scale (10 ^ 47) 8 b8 = true := by rw [← blockOkF_eq]; decide +kernel
theorem ok9 : blockOk scale (10 ^ 47) 9 b9 = true := by rw [← blockOkF_eq]; decide +kernel
theorem ok10 : blockOk scale (10 ^ 47) 10 b10 = true := by rw [← blockOkF_eq]; decide +kernel
theorem ok11 : blockOk scale (10 ^ 47) 11 b11 = true := by rw [← blockOkF_eq]; decide +kernel
theorem ok12 : blockOk scale (10 ^ 47) 12 b12 = true := by rw [← blockOkF_eq]; decide +kernel
theorem ok13 : blockOk scale (10 ^ 47) 13 b13 = true := by rw [← blockOkF_eq]; decide +kernel
theorem ok14 : blockOk scale (10 ^ 47) 14 b14 = true := by rw [← blockOkF_eq]; decide +kernel
theorem ok15 : blockOk scale (10 ^ 47) 15 b15 = true := by rw [← blockOkF_eq]; decide +kernel
theorem ok16 : blockOk scale (10 ^ 47) 16 b16 = true := by rw [← blockOkF_eq]; decide +kernel
theorem ok17 : blockOk scale (10 ^ 47) 17 b17 = true := by rw [← blockOkF_eq]; decide +kernel
theorem ok18 : blockOk scale (10 ^ 47) 18 b18 = true := by rw [← blockOkF_eq]; decide +kernel
theorem ok19 : blockOk scale (10 ^ 47) 19 b19 = true := by rw [← blockOkF_eq]; decide +kernel
theorem ok20 : blockOk scale (10 ^ 47) 20 b20 = true := by rw [← blockOkF_eq]; decide +kernel
theorem ok21 : blockOk scale (10 ^ 47) 21 b21 = true := by rw [← blockOkF_eq]; decide +kernel
theorem ok22 : blockOk scale (10 ^ 47) 22 b22 = true := by rw [← blockOkF_eq]; decide +kernel
theorem ok23 : blockOk scale (10 ^ 47) 23 b23 = true := by rw [← blockOkF_eq]; decide +kernel
theorem ok24 : blockOk scale (10 ^ 47) 24 b24 = true := by rw [← blockOkF_eq]; decide +kernel
theorem ok25 : blockOk scale (10 ^ 47) 25 b25 = true := by rw [← blockOkF_eq]; decide +kernel
theorem ok26 : blockOk scale (10 ^ 47) 26 b26 = true := by rw [← blockOkF_eq]; decide +kernel
theorem ok27 : blockOk scale (10 ^ 47) 27 b27 = true := by rw [← blockOkF_eq]; decide +kernel
theorem ok28 : blockOk scale (10 ^ 47) 28 b28 = true := by rw [← blockOkF_eq]; decide +kernel
theorem ok29 : blockOk scale (10 ^ 47) 29 b29 = true := by rw [← blockOkF_eq]; decide +kernel
theorem ok30 : blockOk scale (10 ^ 47) 30 b30 = true := by rw [← blockOkF_eq]; decide +kernel
theorem ok31 : blockOk scale (10 ^ 47) 31 b31 = true := by rw [← blockOkF_eq]; decide +kernel
theorem ok32 : blockOk scale (10 ^ 47) 32 b32 = true := by rw [← blockOkF_eq]; decide +kernel
theorem ok33 : blockOk scale (10 ^ 47) 33 b33 = true := by rw [← blockOkF_eq]; decide +kernel
theorem ok34 : blockOk scale (10 ^ 47) 34 b34 = true := by rw [← blockOkF_eq]; decide +kernel
theorem ok35 : blockOk scale (10 ^ 47) 35 b35 = true := by rw [← blockOkF_eq]; decide +kernel
theorem ok36 : blockOk scale (10 ^ 47) 36 b36 = true := by rw [← blockOkF_eq]; decide +kernel
theorem ok37 : blockOk scale (10 ^ 47) 37 b37 = true := by rw [← blockOkF_eq]; decide +kernel
theorem ok38 : blockOk scale (10 ^ 47) 38 b38 = true := by rw [← blockOkF_eq]; decide +kernel
theorem ok39 : blockOk scale (10 ^ 47) 39 b39 = true := by rw [← blockOkF_eq]; decide +kernel
theorem ok40 : blockOk scale (10 ^ 47) 40 b40 = true := by rw [← blockOkF_eq]; decide +kernel
theorem ok41 : blockOk scale (10 ^ 47) 41 b41 = true := by rw [← blockOkF_eq]; decide +kernel
theorem ok42 : blockOk scale (10 ^ 47) 42 b42 = true := by rw [← blockOkF_eq]; decide +kernel
theorem ok43 : blockOk scale (10 ^ 47) 43 b43 = true := by rw [← blockOkF_eq]; decide +kernel
theorem ok44 : blockOk scale (10 ^ 47) 44 b44 = true := by rw [← blockOkF_eq]; decide +kernel
theorem ok45 : blockOk scale (10 ^ 47) 45 b45 = true := by rw [← blockOkF_eq]; decide +kernel
theorem ok46 : blockOk scale (10 ^ 47) 46 b46 = true := by rw [← blockOkF_eq]; decide +kernel
theorem ok47 : blockOk scale (10 ^ 47) 47 b47 = true := by rw [← blockOkF_eq]; decide +kernel
theorem ok48 : blockOk scale (10 ^ 47) 48 b48 = true := by rw [← blockOkF_eq]; decide +kernel
theorem ok49 : blockOk scale (10 ^ 47) 49 b49 = true := by rw [← blockOkF_eq]; decide +kernel
theorem ok50 : blockOk scale (10 ^ 47) 50 b50 = true := by rw [← blockOkF_eq]; decide +kernel

theorem check0 : blocksOk (blockOk scale (10 ^ 47)) 1 blocks0 = true := by
  simp only [blocks0, blocksOk, Nat.reduceAdd, Bool.and_true, Bool.and_self,
    ok1, ok2, ok3, ok4, ok5, ok6, ok7, ok8, ok9, ok10, ok11, ok12, ok13, ok14, ok15, ok16,
    ok17, ok18, ok19, ok20, ok21, ok22, ok23, ok24, ok25, ok26, ok27, ok28, ok29, ok30, ok31, ok32,
    ok33, ok34, ok35, ok36, ok37, ok38, ok39, ok40, ok41, ok42, ok43, ok44, ok45, ok46, ok47, ok48, ok49, ok50]
end Qugar.GaussTable
