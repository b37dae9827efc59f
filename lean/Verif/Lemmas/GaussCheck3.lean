import Verif.Lemmas.Gauss
/-
Kernel evaluation of the check of the Gauss-Legendre table, part 3 (every row of the table, every moment).
-/
namespace Qugar.GaussTable

theorem ok87 : blockOk scale (10 ^ 47) 87 b87 = true := by rw [← blockOkF_eq]; decide +kernel
theorem ok88 : blockOk scale (10 ^ 47) 88 b88 = true := by rw [← blockOkF_eq]; decide +kernel
theorem ok89 : blockOk scale (10 ^ 47) 89 b89 = true := by rw [← blockOkF_eq]; decide +kernel
theorem ok90 : blockOk scale (10 ^ 47) 90 b90 = true := by rw [← blockOkF_eq]; decide +kernel
theorem ok91 : blockOk scale (10 ^ 47) 91 b91 = true := by rw [← blockOkF_eq]; decide +kernel
theorem ok92 : blockOk scale (10 ^ 47) 92 b92 = true := by rw [← blockOkF_eq]; decide +kernel
theorem ok93 : blockOk scale (10 ^ 47) 93 b93 = true := by rw [← blockOkF_eq]; decide +kernel
theorem ok94 : blockOk scale (10 ^ 47) 94 b94 = true := by rw [← blockOkF_eq]; decide +kernel
theorem ok95 : blockOk scale (10 ^ 47) 95 b95 = true := by rw [← blockOkF_eq]; decide +kernel
theorem ok96 : blockOk scale (10 ^ 47) 96 b96 = true := by rw [← blockOkF_eq]; decide +kernel
theorem ok97 : blockOk scale (10 ^ 47) 97 b97 = true := by rw [← blockOkF_eq]; decide +kernel
theorem ok98 : blockOk scale (10 ^ 47) 98 b98 = true := by rw [← blockOkF_eq]; decide +kernel
theorem ok99 : blockOk scale (10 ^ 47) 99 b99 = true := by rw [← blockOkF_eq]; decide +kernel
theorem ok100 : blockOk scale (10 ^ 47) 100 b100 = true := by rw [← blockOkF_eq]; decide +kernel

theorem check3 : blocksOk (blockOk scale (10 ^ 47)) 87 blocks3 = true := by
  simp only [blocks3, blocksOk, Nat.reduceAdd, Bool.and_true, Bool.and_self,
    ok87, ok88, ok89, ok90, ok91, ok92, ok93, ok94, ok95, ok96, ok97, ok98, ok99, ok100]
end Qugar.GaussTable
