import Verif.Proofs.MtSquares.Mt19937x64Data

/-!
# mt19937_64: repeated squaring, written by tools/gen_mt_squares.py
-/

set_option Elab.async false

namespace Boost.Random
namespace Gf2N.Mt19937x64

theorem s0 : chk stp bound c1 100 c0 = true := by decide +kernel
theorem s1 : chk stp bound c2 100 c1 = true := by decide +kernel
theorem s2 : chk stp bound c3 100 c2 = true := by decide +kernel
theorem s3 : chk stp bound c4 100 c3 = true := by decide +kernel
theorem s4 : chk stp bound c5 100 c4 = true := by decide +kernel
theorem s5 : chk stp bound c6 100 c5 = true := by decide +kernel
theorem s6 : chk stp bound c7 100 c6 = true := by decide +kernel
theorem s7 : chk stp bound c8 100 c7 = true := by decide +kernel
theorem s8 : chk stp bound c9 100 c8 = true := by decide +kernel
theorem s9 : chk stp bound c10 100 c9 = true := by decide +kernel
theorem s10 : chk stp bound c11 100 c10 = true := by decide +kernel
theorem s11 : chk stp bound c12 100 c11 = true := by decide +kernel
theorem s12 : chk stp bound c13 100 c12 = true := by decide +kernel
theorem s13 : chk stp bound c14 100 c13 = true := by decide +kernel
theorem s14 : chk stp bound c15 100 c14 = true := by decide +kernel
theorem s15 : chk stp bound c16 100 c15 = true := by decide +kernel
theorem s16 : chk stp bound c17 100 c16 = true := by decide +kernel
theorem s17 : chk stp bound c18 100 c17 = true := by decide +kernel
theorem s18 : chk stp bound c19 100 c18 = true := by decide +kernel
theorem s19 : chk stp bound c20 100 c19 = true := by decide +kernel
theorem s20 : chk stp bound c21 100 c20 = true := by decide +kernel
theorem s21 : chk stp bound c22 100 c21 = true := by decide +kernel
theorem s22 : chk stp bound c23 100 c22 = true := by decide +kernel
theorem s23 : chk stp bound c24 100 c23 = true := by decide +kernel
theorem s24 : chk stp bound c25 100 c24 = true := by decide +kernel

theorem part0 (h : Reach (Spec.mtChar mt19937_64) bound 0 c0) : Reach (Spec.mtChar mt19937_64) bound 2500 c25 :=
  have h0 : Reach (Spec.mtChar mt19937_64) bound 100 c1 := h.next squares s0 rfl
  have h1 : Reach (Spec.mtChar mt19937_64) bound 200 c2 := h0.next squares s1 rfl
  have h2 : Reach (Spec.mtChar mt19937_64) bound 300 c3 := h1.next squares s2 rfl
  have h3 : Reach (Spec.mtChar mt19937_64) bound 400 c4 := h2.next squares s3 rfl
  have h4 : Reach (Spec.mtChar mt19937_64) bound 500 c5 := h3.next squares s4 rfl
  have h5 : Reach (Spec.mtChar mt19937_64) bound 600 c6 := h4.next squares s5 rfl
  have h6 : Reach (Spec.mtChar mt19937_64) bound 700 c7 := h5.next squares s6 rfl
  have h7 : Reach (Spec.mtChar mt19937_64) bound 800 c8 := h6.next squares s7 rfl
  have h8 : Reach (Spec.mtChar mt19937_64) bound 900 c9 := h7.next squares s8 rfl
  have h9 : Reach (Spec.mtChar mt19937_64) bound 1000 c10 := h8.next squares s9 rfl
  have h10 : Reach (Spec.mtChar mt19937_64) bound 1100 c11 := h9.next squares s10 rfl
  have h11 : Reach (Spec.mtChar mt19937_64) bound 1200 c12 := h10.next squares s11 rfl
  have h12 : Reach (Spec.mtChar mt19937_64) bound 1300 c13 := h11.next squares s12 rfl
  have h13 : Reach (Spec.mtChar mt19937_64) bound 1400 c14 := h12.next squares s13 rfl
  have h14 : Reach (Spec.mtChar mt19937_64) bound 1500 c15 := h13.next squares s14 rfl
  have h15 : Reach (Spec.mtChar mt19937_64) bound 1600 c16 := h14.next squares s15 rfl
  have h16 : Reach (Spec.mtChar mt19937_64) bound 1700 c17 := h15.next squares s16 rfl
  have h17 : Reach (Spec.mtChar mt19937_64) bound 1800 c18 := h16.next squares s17 rfl
  have h18 : Reach (Spec.mtChar mt19937_64) bound 1900 c19 := h17.next squares s18 rfl
  have h19 : Reach (Spec.mtChar mt19937_64) bound 2000 c20 := h18.next squares s19 rfl
  have h20 : Reach (Spec.mtChar mt19937_64) bound 2100 c21 := h19.next squares s20 rfl
  have h21 : Reach (Spec.mtChar mt19937_64) bound 2200 c22 := h20.next squares s21 rfl
  have h22 : Reach (Spec.mtChar mt19937_64) bound 2300 c23 := h21.next squares s22 rfl
  have h23 : Reach (Spec.mtChar mt19937_64) bound 2400 c24 := h22.next squares s23 rfl
  have h : Reach (Spec.mtChar mt19937_64) bound 2500 c25 := h23.next squares s24 rfl
  h

end Gf2N.Mt19937x64
end Boost.Random
