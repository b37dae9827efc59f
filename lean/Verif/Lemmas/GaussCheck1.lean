import Verif.Lemmas.Gauss
/-
Kernel evaluation of the check of the Gauss-Legendre table, part 1 (every row of the table, every moment).
-/
namespace Qugar.GaussTable

theorem ok51 : blockOk scale (10 ^ 47) 51 b51 = true := by rw [← blockOkF_eq]; decide +kernel
theorem ok52 : blockOk scale (10 ^ 47) 52 b52 = true := by rw [← blockOkF_eq]; decide +kernel
theorem ok53 : blockOk scale (10 ^ 47) 53 b53 = true := by rw [← blockOkF_eq]; decide +kernel
theorem ok54 : blockOk scale (10 ^ 47) 54 b54 = true := by rw [← blockOkF_eq]; decide +kernel
theorem ok55 : blockOk scale (10 ^ 47) 55 b55 = true := by rw [← blockOkF_eq]; decide +kernel
theorem ok56 : blockOk scale (10 ^ 47) 56 b56 = true := by rw [← blockOkF_eq]; decide +kernel
theorem ok57 : blockOk scale (10 ^ 47) 57 b57 = true := by rw [← blockOkF_eq]; decide +kernel
theorem ok58 : blockOk scale (10 ^ 47) 58 b58 = true := by rw [← blockOkF_eq]; decide +kernel
theorem ok59 : blockOk scale (10 ^ 47) 59 b59 = true := by rw [← blockOkF_eq]; decide +kernel
theorem ok60 : blockOk scale (10 ^ 47) 60 b60 = true := by rw [← blockOkF_eq]; decide +kernel
theorem ok61 : blockOk scale (10 ^ 47) 61 b61 = true := by rw [← blockOkF_eq]; decide +kernel
theorem ok62 : blockOk scale (10 ^ 47) 62 b62 = true := by rw [← blockOkF_eq]; decide +kernel
theorem ok63 : blockOk scale (10 ^ 47) 63 b63 = true := by rw [← blockOkF_eq]; decide +kernel
theorem ok64 : blockOk scale (10 ^ 47) 64 b64 = true := by rw [← blockOkF_eq]; decide +kernel
theorem ok65 : blockOk scale (10 ^ 47) 65 b65 = true := by rw [← blockOkF_eq]; decide +kernel
theorem ok66 : blockOk scale (10 ^ 47) 66 b66 = true := by rw [← blockOkF_eq]; decide +kernel
theorem ok67 : blockOk scale (10 ^ 47) 67 b67 = true := by rw [← blockOkF_eq]; decide +kernel
theorem ok68 : blockOk scale (10 ^ 47) 68 b68 = true := by rw [← blockOkF_eq]; decide +kernel
theorem ok69 : blockOk scale (10 ^ 47) 69 b69 = true := by rw [← blockOkF_eq]; decide +kernel
theorem ok70 : blockOk scale (10 ^ 47) 70 b70 = true := by rw [← blockOkF_eq]; decide +kernel

theorem check1 : blocksOk (blockOk scale (10 ^ 47)) 51 blocks1 = true := by
  simp only [blocks1, blocksOk, Nat.reduceAdd, Bool.and_true, Bool.and_self,
    ok51, ok52, ok53, ok54, ok55, ok56, ok57, ok58, ok59, ok60, ok61, ok62,
    ok63, ok64, ok65, ok66, ok67, ok68, ok69, ok70]
end Qugar.GaussTable
