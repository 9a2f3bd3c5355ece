import Verif.Proofs.MtSquares.Mt19937x64Data

/-!
# mt19937_64: repeated squaring, written by tools/gen_mt_squares.py
-/

set_option Elab.async false

namespace Boost.Random
namespace Gf2N.Mt19937x64

theorem s150 : chk stp bound c151 100 c150 = true := by decide +kernel
theorem s151 : chk stp bound c152 100 c151 = true := by decide +kernel
theorem s152 : chk stp bound c153 100 c152 = true := by decide +kernel
theorem s153 : chk stp bound c154 100 c153 = true := by decide +kernel
theorem s154 : chk stp bound c155 100 c154 = true := by decide +kernel
theorem s155 : chk stp bound c156 100 c155 = true := by decide +kernel
theorem s156 : chk stp bound c157 100 c156 = true := by decide +kernel
theorem s157 : chk stp bound c158 100 c157 = true := by decide +kernel
theorem s158 : chk stp bound c159 100 c158 = true := by decide +kernel
theorem s159 : chk stp bound c160 100 c159 = true := by decide +kernel
theorem s160 : chk stp bound c161 100 c160 = true := by decide +kernel
theorem s161 : chk stp bound c162 100 c161 = true := by decide +kernel
theorem s162 : chk stp bound c163 100 c162 = true := by decide +kernel
theorem s163 : chk stp bound c164 100 c163 = true := by decide +kernel
theorem s164 : chk stp bound c165 100 c164 = true := by decide +kernel
theorem s165 : chk stp bound c166 100 c165 = true := by decide +kernel
theorem s166 : chk stp bound c167 100 c166 = true := by decide +kernel
theorem s167 : chk stp bound c168 100 c167 = true := by decide +kernel
theorem s168 : chk stp bound c169 100 c168 = true := by decide +kernel
theorem s169 : chk stp bound c170 100 c169 = true := by decide +kernel
theorem s170 : chk stp bound c171 100 c170 = true := by decide +kernel
theorem s171 : chk stp bound c172 100 c171 = true := by decide +kernel
theorem s172 : chk stp bound c173 100 c172 = true := by decide +kernel
theorem s173 : chk stp bound c174 100 c173 = true := by decide +kernel
theorem s174 : chk stp bound c175 100 c174 = true := by decide +kernel

theorem part6 (h : Reach (Spec.mtChar mt19937_64) bound 15000 c150) : Reach (Spec.mtChar mt19937_64) bound 17500 c175 :=
  have h0 : Reach (Spec.mtChar mt19937_64) bound 15100 c151 := h.next squares s150 rfl
  have h1 : Reach (Spec.mtChar mt19937_64) bound 15200 c152 := h0.next squares s151 rfl
  have h2 : Reach (Spec.mtChar mt19937_64) bound 15300 c153 := h1.next squares s152 rfl
  have h3 : Reach (Spec.mtChar mt19937_64) bound 15400 c154 := h2.next squares s153 rfl
  have h4 : Reach (Spec.mtChar mt19937_64) bound 15500 c155 := h3.next squares s154 rfl
  have h5 : Reach (Spec.mtChar mt19937_64) bound 15600 c156 := h4.next squares s155 rfl
  have h6 : Reach (Spec.mtChar mt19937_64) bound 15700 c157 := h5.next squares s156 rfl
  have h7 : Reach (Spec.mtChar mt19937_64) bound 15800 c158 := h6.next squares s157 rfl
  have h8 : Reach (Spec.mtChar mt19937_64) bound 15900 c159 := h7.next squares s158 rfl
  have h9 : Reach (Spec.mtChar mt19937_64) bound 16000 c160 := h8.next squares s159 rfl
  have h10 : Reach (Spec.mtChar mt19937_64) bound 16100 c161 := h9.next squares s160 rfl
  have h11 : Reach (Spec.mtChar mt19937_64) bound 16200 c162 := h10.next squares s161 rfl
  have h12 : Reach (Spec.mtChar mt19937_64) bound 16300 c163 := h11.next squares s162 rfl
  have h13 : Reach (Spec.mtChar mt19937_64) bound 16400 c164 := h12.next squares s163 rfl
  have h14 : Reach (Spec.mtChar mt19937_64) bound 16500 c165 := h13.next squares s164 rfl
  have h15 : Reach (Spec.mtChar mt19937_64) bound 16600 c166 := h14.next squares s165 rfl
  have h16 : Reach (Spec.mtChar mt19937_64) bound 16700 c167 := h15.next squares s166 rfl
  have h17 : Reach (Spec.mtChar mt19937_64) bound 16800 c168 := h16.next squares s167 rfl
  have h18 : Reach (Spec.mtChar mt19937_64) bound 16900 c169 := h17.next squares s168 rfl
  have h19 : Reach (Spec.mtChar mt19937_64) bound 17000 c170 := h18.next squares s169 rfl
  have h20 : Reach (Spec.mtChar mt19937_64) bound 17100 c171 := h19.next squares s170 rfl
  have h21 : Reach (Spec.mtChar mt19937_64) bound 17200 c172 := h20.next squares s171 rfl
  have h22 : Reach (Spec.mtChar mt19937_64) bound 17300 c173 := h21.next squares s172 rfl
  have h23 : Reach (Spec.mtChar mt19937_64) bound 17400 c174 := h22.next squares s173 rfl
  have h : Reach (Spec.mtChar mt19937_64) bound 17500 c175 := h23.next squares s174 rfl
  h

end Gf2N.Mt19937x64
end Boost.Random
