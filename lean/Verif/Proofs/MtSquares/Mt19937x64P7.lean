import Verif.Proofs.MtSquares.Mt19937x64Data

/-!
# mt19937_64: repeated squaring, written by tools/gen_mt_squares.py
-/

set_option Elab.async false

namespace Boost.Random
namespace Gf2N.Mt19937x64

theorem s175 : chk stp bound c176 100 c175 = true := by decide +kernel
theorem s176 : chk stp bound c177 100 c176 = true := by decide +kernel
theorem s177 : chk stp bound c178 100 c177 = true := by decide +kernel
theorem s178 : chk stp bound c179 100 c178 = true := by decide +kernel
theorem s179 : chk stp bound c180 100 c179 = true := by decide +kernel
theorem s180 : chk stp bound c181 100 c180 = true := by decide +kernel
theorem s181 : chk stp bound c182 100 c181 = true := by decide +kernel
theorem s182 : chk stp bound c183 100 c182 = true := by decide +kernel
theorem s183 : chk stp bound c184 100 c183 = true := by decide +kernel
theorem s184 : chk stp bound c185 100 c184 = true := by decide +kernel
theorem s185 : chk stp bound c186 100 c185 = true := by decide +kernel
theorem s186 : chk stp bound c187 100 c186 = true := by decide +kernel
theorem s187 : chk stp bound c188 100 c187 = true := by decide +kernel
theorem s188 : chk stp bound c189 100 c188 = true := by decide +kernel
theorem s189 : chk stp bound c190 100 c189 = true := by decide +kernel
theorem s190 : chk stp bound c191 100 c190 = true := by decide +kernel
theorem s191 : chk stp bound c192 100 c191 = true := by decide +kernel
theorem s192 : chk stp bound c193 100 c192 = true := by decide +kernel
theorem s193 : chk stp bound c194 100 c193 = true := by decide +kernel
theorem s194 : chk stp bound c195 100 c194 = true := by decide +kernel
theorem s195 : chk stp bound c196 100 c195 = true := by decide +kernel
theorem s196 : chk stp bound c197 100 c196 = true := by decide +kernel
theorem s197 : chk stp bound c198 100 c197 = true := by decide +kernel
theorem s198 : chk stp bound c199 100 c198 = true := by decide +kernel
theorem s199 : chk stp bound c200 37 c199 = true := by decide +kernel

theorem part7 (h : Reach (Spec.mtChar mt19937_64) bound 17500 c175) : Reach (Spec.mtChar mt19937_64) bound 19937 c200 :=
  have h0 : Reach (Spec.mtChar mt19937_64) bound 17600 c176 := h.next squares s175 rfl
  have h1 : Reach (Spec.mtChar mt19937_64) bound 17700 c177 := h0.next squares s176 rfl
  have h2 : Reach (Spec.mtChar mt19937_64) bound 17800 c178 := h1.next squares s177 rfl
  have h3 : Reach (Spec.mtChar mt19937_64) bound 17900 c179 := h2.next squares s178 rfl
  have h4 : Reach (Spec.mtChar mt19937_64) bound 18000 c180 := h3.next squares s179 rfl
  have h5 : Reach (Spec.mtChar mt19937_64) bound 18100 c181 := h4.next squares s180 rfl
  have h6 : Reach (Spec.mtChar mt19937_64) bound 18200 c182 := h5.next squares s181 rfl
  have h7 : Reach (Spec.mtChar mt19937_64) bound 18300 c183 := h6.next squares s182 rfl
  have h8 : Reach (Spec.mtChar mt19937_64) bound 18400 c184 := h7.next squares s183 rfl
  have h9 : Reach (Spec.mtChar mt19937_64) bound 18500 c185 := h8.next squares s184 rfl
  have h10 : Reach (Spec.mtChar mt19937_64) bound 18600 c186 := h9.next squares s185 rfl
  have h11 : Reach (Spec.mtChar mt19937_64) bound 18700 c187 := h10.next squares s186 rfl
  have h12 : Reach (Spec.mtChar mt19937_64) bound 18800 c188 := h11.next squares s187 rfl
  have h13 : Reach (Spec.mtChar mt19937_64) bound 18900 c189 := h12.next squares s188 rfl
  have h14 : Reach (Spec.mtChar mt19937_64) bound 19000 c190 := h13.next squares s189 rfl
  have h15 : Reach (Spec.mtChar mt19937_64) bound 19100 c191 := h14.next squares s190 rfl
  have h16 : Reach (Spec.mtChar mt19937_64) bound 19200 c192 := h15.next squares s191 rfl
  have h17 : Reach (Spec.mtChar mt19937_64) bound 19300 c193 := h16.next squares s192 rfl
  have h18 : Reach (Spec.mtChar mt19937_64) bound 19400 c194 := h17.next squares s193 rfl
  have h19 : Reach (Spec.mtChar mt19937_64) bound 19500 c195 := h18.next squares s194 rfl
  have h20 : Reach (Spec.mtChar mt19937_64) bound 19600 c196 := h19.next squares s195 rfl
  have h21 : Reach (Spec.mtChar mt19937_64) bound 19700 c197 := h20.next squares s196 rfl
  have h22 : Reach (Spec.mtChar mt19937_64) bound 19800 c198 := h21.next squares s197 rfl
  have h23 : Reach (Spec.mtChar mt19937_64) bound 19900 c199 := h22.next squares s198 rfl
  have h : Reach (Spec.mtChar mt19937_64) bound 19937 c200 := h23.next squares s199 rfl
  h

end Gf2N.Mt19937x64
end Boost.Random
