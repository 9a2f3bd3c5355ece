import Verif.Proofs.MtSquares.Mt19937x64Data

/-!
# mt19937_64: repeated squaring, written by tools/gen_mt_squares.py
-/

set_option Elab.async false

namespace Boost.Random
namespace Gf2N.Mt19937x64

theorem s25 : chk stp bound c26 100 c25 = true := by decide +kernel
theorem s26 : chk stp bound c27 100 c26 = true := by decide +kernel
theorem s27 : chk stp bound c28 100 c27 = true := by decide +kernel
theorem s28 : chk stp bound c29 100 c28 = true := by decide +kernel
theorem s29 : chk stp bound c30 100 c29 = true := by decide +kernel
theorem s30 : chk stp bound c31 100 c30 = true := by decide +kernel
theorem s31 : chk stp bound c32 100 c31 = true := by decide +kernel
theorem s32 : chk stp bound c33 100 c32 = true := by decide +kernel
theorem s33 : chk stp bound c34 100 c33 = true := by decide +kernel
theorem s34 : chk stp bound c35 100 c34 = true := by decide +kernel
theorem s35 : chk stp bound c36 100 c35 = true := by decide +kernel
theorem s36 : chk stp bound c37 100 c36 = true := by decide +kernel
theorem s37 : chk stp bound c38 100 c37 = true := by decide +kernel
theorem s38 : chk stp bound c39 100 c38 = true := by decide +kernel
theorem s39 : chk stp bound c40 100 c39 = true := by decide +kernel
theorem s40 : chk stp bound c41 100 c40 = true := by decide +kernel
theorem s41 : chk stp bound c42 100 c41 = true := by decide +kernel
theorem s42 : chk stp bound c43 100 c42 = true := by decide +kernel
theorem s43 : chk stp bound c44 100 c43 = true := by decide +kernel
theorem s44 : chk stp bound c45 100 c44 = true := by decide +kernel
theorem s45 : chk stp bound c46 100 c45 = true := by decide +kernel
theorem s46 : chk stp bound c47 100 c46 = true := by decide +kernel
theorem s47 : chk stp bound c48 100 c47 = true := by decide +kernel
theorem s48 : chk stp bound c49 100 c48 = true := by decide +kernel
theorem s49 : chk stp bound c50 100 c49 = true := by decide +kernel

theorem part1 (h : Reach (Spec.mtChar mt19937_64) bound 2500 c25) : Reach (Spec.mtChar mt19937_64) bound 5000 c50 :=
  have h0 : Reach (Spec.mtChar mt19937_64) bound 2600 c26 := h.next squares s25 rfl
  have h1 : Reach (Spec.mtChar mt19937_64) bound 2700 c27 := h0.next squares s26 rfl
  have h2 : Reach (Spec.mtChar mt19937_64) bound 2800 c28 := h1.next squares s27 rfl
  have h3 : Reach (Spec.mtChar mt19937_64) bound 2900 c29 := h2.next squares s28 rfl
  have h4 : Reach (Spec.mtChar mt19937_64) bound 3000 c30 := h3.next squares s29 rfl
  have h5 : Reach (Spec.mtChar mt19937_64) bound 3100 c31 := h4.next squares s30 rfl
  have h6 : Reach (Spec.mtChar mt19937_64) bound 3200 c32 := h5.next squares s31 rfl
  have h7 : Reach (Spec.mtChar mt19937_64) bound 3300 c33 := h6.next squares s32 rfl
  have h8 : Reach (Spec.mtChar mt19937_64) bound 3400 c34 := h7.next squares s33 rfl
  have h9 : Reach (Spec.mtChar mt19937_64) bound 3500 c35 := h8.next squares s34 rfl
  have h10 : Reach (Spec.mtChar mt19937_64) bound 3600 c36 := h9.next squares s35 rfl
  have h11 : Reach (Spec.mtChar mt19937_64) bound 3700 c37 := h10.next squares s36 rfl
  have h12 : Reach (Spec.mtChar mt19937_64) bound 3800 c38 := h11.next squares s37 rfl
  have h13 : Reach (Spec.mtChar mt19937_64) bound 3900 c39 := h12.next squares s38 rfl
  have h14 : Reach (Spec.mtChar mt19937_64) bound 4000 c40 := h13.next squares s39 rfl
  have h15 : Reach (Spec.mtChar mt19937_64) bound 4100 c41 := h14.next squares s40 rfl
  have h16 : Reach (Spec.mtChar mt19937_64) bound 4200 c42 := h15.next squares s41 rfl
  have h17 : Reach (Spec.mtChar mt19937_64) bound 4300 c43 := h16.next squares s42 rfl
  have h18 : Reach (Spec.mtChar mt19937_64) bound 4400 c44 := h17.next squares s43 rfl
  have h19 : Reach (Spec.mtChar mt19937_64) bound 4500 c45 := h18.next squares s44 rfl
  have h20 : Reach (Spec.mtChar mt19937_64) bound 4600 c46 := h19.next squares s45 rfl
  have h21 : Reach (Spec.mtChar mt19937_64) bound 4700 c47 := h20.next squares s46 rfl
  have h22 : Reach (Spec.mtChar mt19937_64) bound 4800 c48 := h21.next squares s47 rfl
  have h23 : Reach (Spec.mtChar mt19937_64) bound 4900 c49 := h22.next squares s48 rfl
  have h : Reach (Spec.mtChar mt19937_64) bound 5000 c50 := h23.next squares s49 rfl
  h

end Gf2N.Mt19937x64
end Boost.Random
