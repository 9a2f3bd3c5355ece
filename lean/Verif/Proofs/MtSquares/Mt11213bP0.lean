import Verif.Proofs.MtSquares.Mt11213bData

/-!
# mt11213b: repeated squaring, written by tools/gen_mt_squares.py
-/

set_option Elab.async false

namespace Boost.Random
namespace Gf2N.Mt11213b

theorem s0 : chk stp bound c1 300 c0 = true := by decide +kernel
theorem s1 : chk stp bound c2 300 c1 = true := by decide +kernel
theorem s2 : chk stp bound c3 300 c2 = true := by decide +kernel
theorem s3 : chk stp bound c4 300 c3 = true := by decide +kernel
theorem s4 : chk stp bound c5 300 c4 = true := by decide +kernel
theorem s5 : chk stp bound c6 300 c5 = true := by decide +kernel
theorem s6 : chk stp bound c7 300 c6 = true := by decide +kernel
theorem s7 : chk stp bound c8 300 c7 = true := by decide +kernel
theorem s8 : chk stp bound c9 300 c8 = true := by decide +kernel
theorem s9 : chk stp bound c10 300 c9 = true := by decide +kernel
theorem s10 : chk stp bound c11 300 c10 = true := by decide +kernel
theorem s11 : chk stp bound c12 300 c11 = true := by decide +kernel
theorem s12 : chk stp bound c13 300 c12 = true := by decide +kernel
theorem s13 : chk stp bound c14 300 c13 = true := by decide +kernel
theorem s14 : chk stp bound c15 300 c14 = true := by decide +kernel
theorem s15 : chk stp bound c16 300 c15 = true := by decide +kernel
theorem s16 : chk stp bound c17 300 c16 = true := by decide +kernel
theorem s17 : chk stp bound c18 300 c17 = true := by decide +kernel
theorem s18 : chk stp bound c19 300 c18 = true := by decide +kernel

theorem part0 (h : Reach (Spec.mtChar mt11213b) bound 0 c0) : Reach (Spec.mtChar mt11213b) bound 5700 c19 :=
  have h0 : Reach (Spec.mtChar mt11213b) bound 300 c1 := h.next squares s0 rfl
  have h1 : Reach (Spec.mtChar mt11213b) bound 600 c2 := h0.next squares s1 rfl
  have h2 : Reach (Spec.mtChar mt11213b) bound 900 c3 := h1.next squares s2 rfl
  have h3 : Reach (Spec.mtChar mt11213b) bound 1200 c4 := h2.next squares s3 rfl
  have h4 : Reach (Spec.mtChar mt11213b) bound 1500 c5 := h3.next squares s4 rfl
  have h5 : Reach (Spec.mtChar mt11213b) bound 1800 c6 := h4.next squares s5 rfl
  have h6 : Reach (Spec.mtChar mt11213b) bound 2100 c7 := h5.next squares s6 rfl
  have h7 : Reach (Spec.mtChar mt11213b) bound 2400 c8 := h6.next squares s7 rfl
  have h8 : Reach (Spec.mtChar mt11213b) bound 2700 c9 := h7.next squares s8 rfl
  have h9 : Reach (Spec.mtChar mt11213b) bound 3000 c10 := h8.next squares s9 rfl
  have h10 : Reach (Spec.mtChar mt11213b) bound 3300 c11 := h9.next squares s10 rfl
  have h11 : Reach (Spec.mtChar mt11213b) bound 3600 c12 := h10.next squares s11 rfl
  have h12 : Reach (Spec.mtChar mt11213b) bound 3900 c13 := h11.next squares s12 rfl
  have h13 : Reach (Spec.mtChar mt11213b) bound 4200 c14 := h12.next squares s13 rfl
  have h14 : Reach (Spec.mtChar mt11213b) bound 4500 c15 := h13.next squares s14 rfl
  have h15 : Reach (Spec.mtChar mt11213b) bound 4800 c16 := h14.next squares s15 rfl
  have h16 : Reach (Spec.mtChar mt11213b) bound 5100 c17 := h15.next squares s16 rfl
  have h17 : Reach (Spec.mtChar mt11213b) bound 5400 c18 := h16.next squares s17 rfl
  have h : Reach (Spec.mtChar mt11213b) bound 5700 c19 := h17.next squares s18 rfl
  h

end Gf2N.Mt11213b
end Boost.Random
