import Verif.Proofs.MtSquares.Mt19937Data

/-!
# mt19937: repeated squaring, written by tools/gen_mt_squares.py
-/

set_option Elab.async false

namespace Boost.Random
namespace Gf2N.Mt19937

theorem s75 : chk stp bound c76 200 c75 = true := by decide +kernel
theorem s76 : chk stp bound c77 200 c76 = true := by decide +kernel
theorem s77 : chk stp bound c78 200 c77 = true := by decide +kernel
theorem s78 : chk stp bound c79 200 c78 = true := by decide +kernel
theorem s79 : chk stp bound c80 200 c79 = true := by decide +kernel
theorem s80 : chk stp bound c81 200 c80 = true := by decide +kernel
theorem s81 : chk stp bound c82 200 c81 = true := by decide +kernel
theorem s82 : chk stp bound c83 200 c82 = true := by decide +kernel
theorem s83 : chk stp bound c84 200 c83 = true := by decide +kernel
theorem s84 : chk stp bound c85 200 c84 = true := by decide +kernel
theorem s85 : chk stp bound c86 200 c85 = true := by decide +kernel
theorem s86 : chk stp bound c87 200 c86 = true := by decide +kernel
theorem s87 : chk stp bound c88 200 c87 = true := by decide +kernel
theorem s88 : chk stp bound c89 200 c88 = true := by decide +kernel
theorem s89 : chk stp bound c90 200 c89 = true := by decide +kernel
theorem s90 : chk stp bound c91 200 c90 = true := by decide +kernel
theorem s91 : chk stp bound c92 200 c91 = true := by decide +kernel
theorem s92 : chk stp bound c93 200 c92 = true := by decide +kernel
theorem s93 : chk stp bound c94 200 c93 = true := by decide +kernel
theorem s94 : chk stp bound c95 200 c94 = true := by decide +kernel
theorem s95 : chk stp bound c96 200 c95 = true := by decide +kernel
theorem s96 : chk stp bound c97 200 c96 = true := by decide +kernel
theorem s97 : chk stp bound c98 200 c97 = true := by decide +kernel
theorem s98 : chk stp bound c99 200 c98 = true := by decide +kernel
theorem s99 : chk stp bound c100 137 c99 = true := by decide +kernel

theorem part3 (h : Reach (Spec.mtChar mt19937) bound 15000 c75) : Reach (Spec.mtChar mt19937) bound 19937 c100 :=
  have h0 : Reach (Spec.mtChar mt19937) bound 15200 c76 := h.next squares s75 rfl
  have h1 : Reach (Spec.mtChar mt19937) bound 15400 c77 := h0.next squares s76 rfl
  have h2 : Reach (Spec.mtChar mt19937) bound 15600 c78 := h1.next squares s77 rfl
  have h3 : Reach (Spec.mtChar mt19937) bound 15800 c79 := h2.next squares s78 rfl
  have h4 : Reach (Spec.mtChar mt19937) bound 16000 c80 := h3.next squares s79 rfl
  have h5 : Reach (Spec.mtChar mt19937) bound 16200 c81 := h4.next squares s80 rfl
  have h6 : Reach (Spec.mtChar mt19937) bound 16400 c82 := h5.next squares s81 rfl
  have h7 : Reach (Spec.mtChar mt19937) bound 16600 c83 := h6.next squares s82 rfl
  have h8 : Reach (Spec.mtChar mt19937) bound 16800 c84 := h7.next squares s83 rfl
  have h9 : Reach (Spec.mtChar mt19937) bound 17000 c85 := h8.next squares s84 rfl
  have h10 : Reach (Spec.mtChar mt19937) bound 17200 c86 := h9.next squares s85 rfl
  have h11 : Reach (Spec.mtChar mt19937) bound 17400 c87 := h10.next squares s86 rfl
  have h12 : Reach (Spec.mtChar mt19937) bound 17600 c88 := h11.next squares s87 rfl
  have h13 : Reach (Spec.mtChar mt19937) bound 17800 c89 := h12.next squares s88 rfl
  have h14 : Reach (Spec.mtChar mt19937) bound 18000 c90 := h13.next squares s89 rfl
  have h15 : Reach (Spec.mtChar mt19937) bound 18200 c91 := h14.next squares s90 rfl
  have h16 : Reach (Spec.mtChar mt19937) bound 18400 c92 := h15.next squares s91 rfl
  have h17 : Reach (Spec.mtChar mt19937) bound 18600 c93 := h16.next squares s92 rfl
  have h18 : Reach (Spec.mtChar mt19937) bound 18800 c94 := h17.next squares s93 rfl
  have h19 : Reach (Spec.mtChar mt19937) bound 19000 c95 := h18.next squares s94 rfl
  have h20 : Reach (Spec.mtChar mt19937) bound 19200 c96 := h19.next squares s95 rfl
  have h21 : Reach (Spec.mtChar mt19937) bound 19400 c97 := h20.next squares s96 rfl
  have h22 : Reach (Spec.mtChar mt19937) bound 19600 c98 := h21.next squares s97 rfl
  have h23 : Reach (Spec.mtChar mt19937) bound 19800 c99 := h22.next squares s98 rfl
  have h : Reach (Spec.mtChar mt19937) bound 19937 c100 := h23.next squares s99 rfl
  h

end Gf2N.Mt19937
end Boost.Random
