import Verif.Proofs.MtSquares.Mt19937x64Data

/-!
# mt19937_64: repeated squaring, written by tools/gen_mt_squares.py
-/

set_option Elab.async false

namespace Boost.Random
namespace Gf2N.Mt19937x64

theorem s125 : chk stp bound c126 100 c125 = true := by decide +kernel
theorem s126 : chk stp bound c127 100 c126 = true := by decide +kernel
theorem s127 : chk stp bound c128 100 c127 = true := by decide +kernel
theorem s128 : chk stp bound c129 100 c128 = true := by decide +kernel
theorem s129 : chk stp bound c130 100 c129 = true := by decide +kernel
theorem s130 : chk stp bound c131 100 c130 = true := by decide +kernel
theorem s131 : chk stp bound c132 100 c131 = true := by decide +kernel
theorem s132 : chk stp bound c133 100 c132 = true := by decide +kernel
theorem s133 : chk stp bound c134 100 c133 = true := by decide +kernel
theorem s134 : chk stp bound c135 100 c134 = true := by decide +kernel
theorem s135 : chk stp bound c136 100 c135 = true := by decide +kernel
theorem s136 : chk stp bound c137 100 c136 = true := by decide +kernel
theorem s137 : chk stp bound c138 100 c137 = true := by decide +kernel
theorem s138 : chk stp bound c139 100 c138 = true := by decide +kernel
theorem s139 : chk stp bound c140 100 c139 = true := by decide +kernel
theorem s140 : chk stp bound c141 100 c140 = true := by decide +kernel
theorem s141 : chk stp bound c142 100 c141 = true := by decide +kernel
theorem s142 : chk stp bound c143 100 c142 = true := by decide +kernel
theorem s143 : chk stp bound c144 100 c143 = true := by decide +kernel
theorem s144 : chk stp bound c145 100 c144 = true := by decide +kernel
theorem s145 : chk stp bound c146 100 c145 = true := by decide +kernel
theorem s146 : chk stp bound c147 100 c146 = true := by decide +kernel
theorem s147 : chk stp bound c148 100 c147 = true := by decide +kernel
theorem s148 : chk stp bound c149 100 c148 = true := by decide +kernel
theorem s149 : chk stp bound c150 100 c149 = true := by decide +kernel

theorem part5 (h : Reach (Spec.mtChar mt19937_64) bound 12500 c125) : Reach (Spec.mtChar mt19937_64) bound 15000 c150 :=
  have h0 : Reach (Spec.mtChar mt19937_64) bound 12600 c126 := h.next squares s125 rfl
  have h1 : Reach (Spec.mtChar mt19937_64) bound 12700 c127 := h0.next squares s126 rfl
  have h2 : Reach (Spec.mtChar mt19937_64) bound 12800 c128 := h1.next squares s127 rfl
  have h3 : Reach (Spec.mtChar mt19937_64) bound 12900 c129 := h2.next squares s128 rfl
  have h4 : Reach (Spec.mtChar mt19937_64) bound 13000 c130 := h3.next squares s129 rfl
  have h5 : Reach (Spec.mtChar mt19937_64) bound 13100 c131 := h4.next squares s130 rfl
  have h6 : Reach (Spec.mtChar mt19937_64) bound 13200 c132 := h5.next squares s131 rfl
  have h7 : Reach (Spec.mtChar mt19937_64) bound 13300 c133 := h6.next squares s132 rfl
  have h8 : Reach (Spec.mtChar mt19937_64) bound 13400 c134 := h7.next squares s133 rfl
  have h9 : Reach (Spec.mtChar mt19937_64) bound 13500 c135 := h8.next squares s134 rfl
  have h10 : Reach (Spec.mtChar mt19937_64) bound 13600 c136 := h9.next squares s135 rfl
  have h11 : Reach (Spec.mtChar mt19937_64) bound 13700 c137 := h10.next squares s136 rfl
  have h12 : Reach (Spec.mtChar mt19937_64) bound 13800 c138 := h11.next squares s137 rfl
  have h13 : Reach (Spec.mtChar mt19937_64) bound 13900 c139 := h12.next squares s138 rfl
  have h14 : Reach (Spec.mtChar mt19937_64) bound 14000 c140 := h13.next squares s139 rfl
  have h15 : Reach (Spec.mtChar mt19937_64) bound 14100 c141 := h14.next squares s140 rfl
  have h16 : Reach (Spec.mtChar mt19937_64) bound 14200 c142 := h15.next squares s141 rfl
  have h17 : Reach (Spec.mtChar mt19937_64) bound 14300 c143 := h16.next squares s142 rfl
  have h18 : Reach (Spec.mtChar mt19937_64) bound 14400 c144 := h17.next squares s143 rfl
  have h19 : Reach (Spec.mtChar mt19937_64) bound 14500 c145 := h18.next squares s144 rfl
  have h20 : Reach (Spec.mtChar mt19937_64) bound 14600 c146 := h19.next squares s145 rfl
  have h21 : Reach (Spec.mtChar mt19937_64) bound 14700 c147 := h20.next squares s146 rfl
  have h22 : Reach (Spec.mtChar mt19937_64) bound 14800 c148 := h21.next squares s147 rfl
  have h23 : Reach (Spec.mtChar mt19937_64) bound 14900 c149 := h22.next squares s148 rfl
  have h : Reach (Spec.mtChar mt19937_64) bound 15000 c150 := h23.next squares s149 rfl
  h

end Gf2N.Mt19937x64
end Boost.Random
