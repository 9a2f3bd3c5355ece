import Verif.Proofs.MtSquares.Mt11213bData

/-!
# mt11213b: repeated squaring, written by tools/gen_mt_squares.py
-/

set_option Elab.async false

namespace Boost.Random
namespace Gf2N.Mt11213b

theorem s19 : chk stp bound c20 300 c19 = true := by decide +kernel
theorem s20 : chk stp bound c21 300 c20 = true := by decide +kernel
theorem s21 : chk stp bound c22 300 c21 = true := by decide +kernel
theorem s22 : chk stp bound c23 300 c22 = true := by decide +kernel
theorem s23 : chk stp bound c24 300 c23 = true := by decide +kernel
theorem s24 : chk stp bound c25 300 c24 = true := by decide +kernel
theorem s25 : chk stp bound c26 300 c25 = true := by decide +kernel
theorem s26 : chk stp bound c27 300 c26 = true := by decide +kernel
theorem s27 : chk stp bound c28 300 c27 = true := by decide +kernel
theorem s28 : chk stp bound c29 300 c28 = true := by decide +kernel
theorem s29 : chk stp bound c30 300 c29 = true := by decide +kernel
theorem s30 : chk stp bound c31 300 c30 = true := by decide +kernel
theorem s31 : chk stp bound c32 300 c31 = true := by decide +kernel
theorem s32 : chk stp bound c33 300 c32 = true := by decide +kernel
theorem s33 : chk stp bound c34 300 c33 = true := by decide +kernel
theorem s34 : chk stp bound c35 300 c34 = true := by decide +kernel
theorem s35 : chk stp bound c36 300 c35 = true := by decide +kernel
theorem s36 : chk stp bound c37 300 c36 = true := by decide +kernel
theorem s37 : chk stp bound c38 113 c37 = true := by decide +kernel

theorem part1 (h : Reach (Spec.mtChar mt11213b) bound 5700 c19) : Reach (Spec.mtChar mt11213b) bound 11213 c38 :=
  have h0 : Reach (Spec.mtChar mt11213b) bound 6000 c20 := h.next squares s19 rfl
  have h1 : Reach (Spec.mtChar mt11213b) bound 6300 c21 := h0.next squares s20 rfl
  have h2 : Reach (Spec.mtChar mt11213b) bound 6600 c22 := h1.next squares s21 rfl
  have h3 : Reach (Spec.mtChar mt11213b) bound 6900 c23 := h2.next squares s22 rfl
  have h4 : Reach (Spec.mtChar mt11213b) bound 7200 c24 := h3.next squares s23 rfl
  have h5 : Reach (Spec.mtChar mt11213b) bound 7500 c25 := h4.next squares s24 rfl
  have h6 : Reach (Spec.mtChar mt11213b) bound 7800 c26 := h5.next squares s25 rfl
  have h7 : Reach (Spec.mtChar mt11213b) bound 8100 c27 := h6.next squares s26 rfl
  have h8 : Reach (Spec.mtChar mt11213b) bound 8400 c28 := h7.next squares s27 rfl
  have h9 : Reach (Spec.mtChar mt11213b) bound 8700 c29 := h8.next squares s28 rfl
  have h10 : Reach (Spec.mtChar mt11213b) bound 9000 c30 := h9.next squares s29 rfl
  have h11 : Reach (Spec.mtChar mt11213b) bound 9300 c31 := h10.next squares s30 rfl
  have h12 : Reach (Spec.mtChar mt11213b) bound 9600 c32 := h11.next squares s31 rfl
  have h13 : Reach (Spec.mtChar mt11213b) bound 9900 c33 := h12.next squares s32 rfl
  have h14 : Reach (Spec.mtChar mt11213b) bound 10200 c34 := h13.next squares s33 rfl
  have h15 : Reach (Spec.mtChar mt11213b) bound 10500 c35 := h14.next squares s34 rfl
  have h16 : Reach (Spec.mtChar mt11213b) bound 10800 c36 := h15.next squares s35 rfl
  have h17 : Reach (Spec.mtChar mt11213b) bound 11100 c37 := h16.next squares s36 rfl
  have h : Reach (Spec.mtChar mt11213b) bound 11213 c38 := h17.next squares s37 rfl
  h

end Gf2N.Mt11213b
end Boost.Random
