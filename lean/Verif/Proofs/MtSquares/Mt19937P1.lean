import Verif.Proofs.MtSquares.Mt19937Data

/-!
# mt19937: repeated squaring, written by tools/gen_mt_squares.py
-/

set_option Elab.async false

namespace Boost.Random
namespace Gf2N.Mt19937

theorem s25 : chk stp bound c26 200 c25 = true := by decide +kernel
theorem s26 : chk stp bound c27 200 c26 = true := by decide +kernel
theorem s27 : chk stp bound c28 200 c27 = true := by decide +kernel
theorem s28 : chk stp bound c29 200 c28 = true := by decide +kernel
theorem s29 : chk stp bound c30 200 c29 = true := by decide +kernel
theorem s30 : chk stp bound c31 200 c30 = true := by decide +kernel
theorem s31 : chk stp bound c32 200 c31 = true := by decide +kernel
theorem s32 : chk stp bound c33 200 c32 = true := by decide +kernel
theorem s33 : chk stp bound c34 200 c33 = true := by decide +kernel
theorem s34 : chk stp bound c35 200 c34 = true := by decide +kernel
theorem s35 : chk stp bound c36 200 c35 = true := by decide +kernel
theorem s36 : chk stp bound c37 200 c36 = true := by decide +kernel
theorem s37 : chk stp bound c38 200 c37 = true := by decide +kernel
theorem s38 : chk stp bound c39 200 c38 = true := by decide +kernel
theorem s39 : chk stp bound c40 200 c39 = true := by decide +kernel
theorem s40 : chk stp bound c41 200 c40 = true := by decide +kernel
theorem s41 : chk stp bound c42 200 c41 = true := by decide +kernel
theorem s42 : chk stp bound c43 200 c42 = true := by decide +kernel
theorem s43 : chk stp bound c44 200 c43 = true := by decide +kernel
theorem s44 : chk stp bound c45 200 c44 = true := by decide +kernel
theorem s45 : chk stp bound c46 200 c45 = true := by decide +kernel
theorem s46 : chk stp bound c47 200 c46 = true := by decide +kernel
theorem s47 : chk stp bound c48 200 c47 = true := by decide +kernel
theorem s48 : chk stp bound c49 200 c48 = true := by decide +kernel
theorem s49 : chk stp bound c50 200 c49 = true := by decide +kernel

theorem part1 (h : Reach (Spec.mtChar mt19937) bound 5000 c25) : Reach (Spec.mtChar mt19937) bound 10000 c50 :=
  have h0 : Reach (Spec.mtChar mt19937) bound 5200 c26 := h.next squares s25 rfl
  have h1 : Reach (Spec.mtChar mt19937) bound 5400 c27 := h0.next squares s26 rfl
  have h2 : Reach (Spec.mtChar mt19937) bound 5600 c28 := h1.next squares s27 rfl
  have h3 : Reach (Spec.mtChar mt19937) bound 5800 c29 := h2.next squares s28 rfl
  have h4 : Reach (Spec.mtChar mt19937) bound 6000 c30 := h3.next squares s29 rfl
  have h5 : Reach (Spec.mtChar mt19937) bound 6200 c31 := h4.next squares s30 rfl
  have h6 : Reach (Spec.mtChar mt19937) bound 6400 c32 := h5.next squares s31 rfl
  have h7 : Reach (Spec.mtChar mt19937) bound 6600 c33 := h6.next squares s32 rfl
  have h8 : Reach (Spec.mtChar mt19937) bound 6800 c34 := h7.next squares s33 rfl
  have h9 : Reach (Spec.mtChar mt19937) bound 7000 c35 := h8.next squares s34 rfl
  have h10 : Reach (Spec.mtChar mt19937) bound 7200 c36 := h9.next squares s35 rfl
  have h11 : Reach (Spec.mtChar mt19937) bound 7400 c37 := h10.next squares s36 rfl
  have h12 : Reach (Spec.mtChar mt19937) bound 7600 c38 := h11.next squares s37 rfl
  have h13 : Reach (Spec.mtChar mt19937) bound 7800 c39 := h12.next squares s38 rfl
  have h14 : Reach (Spec.mtChar mt19937) bound 8000 c40 := h13.next squares s39 rfl
  have h15 : Reach (Spec.mtChar mt19937) bound 8200 c41 := h14.next squares s40 rfl
  have h16 : Reach (Spec.mtChar mt19937) bound 8400 c42 := h15.next squares s41 rfl
  have h17 : Reach (Spec.mtChar mt19937) bound 8600 c43 := h16.next squares s42 rfl
  have h18 : Reach (Spec.mtChar mt19937) bound 8800 c44 := h17.next squares s43 rfl
  have h19 : Reach (Spec.mtChar mt19937) bound 9000 c45 := h18.next squares s44 rfl
  have h20 : Reach (Spec.mtChar mt19937) bound 9200 c46 := h19.next squares s45 rfl
  have h21 : Reach (Spec.mtChar mt19937) bound 9400 c47 := h20.next squares s46 rfl
  have h22 : Reach (Spec.mtChar mt19937) bound 9600 c48 := h21.next squares s47 rfl
  have h23 : Reach (Spec.mtChar mt19937) bound 9800 c49 := h22.next squares s48 rfl
  have h : Reach (Spec.mtChar mt19937) bound 10000 c50 := h23.next squares s49 rfl
  h

end Gf2N.Mt19937
end Boost.Random
