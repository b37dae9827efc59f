import Verif.Lemmas.Gauss
/-
Kernel evaluation of the check of the Gauss-Legendre table, part 2 (every row of the table, every moment).
-/
namespace Qugar.GaussTable

theorem ok71 : blockOk scale (10 ^ 47) 71 b71 = true := by rw [← blockOkF_eq]; decide +kernel
theorem ok72 : blockOk scale (10 ^ 47) 72 b72 = true := by rw [← blockOkF_eq]; decide +kernel
theorem ok73 : blockOk scale (10 ^ 47) 73 b73 = true := by rw [← blockOkF_eq]; decide +kernel
theorem ok74 : blockOk scale (10 ^ 47) 74 b74 = true := by rw [← blockOkF_eq]; decide +kernel
theorem ok75 : blockOk scale (10 ^ 47) 75 b75 = true := by rw [← blockOkF_eq]; decide +kernel
theorem ok76 : blockOk scale (10 ^ 47) 76 b76 = true := by rw [← blockOkF_eq]; decide +kernel
theorem ok77 : blockOk scale (10 ^ 47) 77 b77 = true := by rw [← blockOkF_eq]; decide +kernel
theorem ok78 : blockOk scale (10 ^ 47) 78 b78 = true := by rw [← blockOkF_eq]; decide +kernel
theorem ok79 : blockOk scale (10 ^ 47) 79 b79 = true := by rw [← blockOkF_eq]; decide +kernel
theorem ok80 : blockOk scale (10 ^ 47) 80 b80 = true := by rw [← blockOkF_eq]; decide +kernel
theorem ok81 : blockOk scale (10 ^ 47) 81 b81 = true := by rw [← blockOkF_eq]; decide +kernel
theorem ok82 : blockOk scale (10 ^ 47) 82 b82 = true := by rw [← blockOkF_eq]; decide +kernel
theorem ok83 : blockOk scale (10 ^ 47) 83 b83 = true := by rw [← blockOkF_eq]; decide +kernel
theorem ok84 : blockOk scale (10 ^ 47) 84 b84 = true := by rw [← blockOkF_eq]; decide +kernel
theorem ok85 : blockOk scale (10 ^ 47) 85 b85 = true := by rw [← blockOkF_eq]; decide +kernel
theorem ok86 : blockOk scale (10 ^ 47) 86 b86 = true := by rw [← blockOkF_eq]; decide +kernel

theorem check2 : blocksOk (blockOk scale (10 ^ 47)) 71 blocks2 = true := by
  simp only [blocks2, blocksOk, Nat.reduceAdd, Bool.and_true, Bool.and_self,
    ok71, ok72, ok73, ok74, ok75,
    ok76, ok77, ok78, ok79, ok80, ok81, ok82, ok83, ok84, ok85, ok86]
end Qugar.GaussTable
