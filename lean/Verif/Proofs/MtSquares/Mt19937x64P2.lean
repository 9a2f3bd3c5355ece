import Verif.Proofs.MtSquares.Mt19937x64Data

/-!
# mt19937_64: repeated squaring, written by tools/gen_mt_squares.py
-/

set_option Elab.async false

namespace Boost.Random
namespace Gf2N.Mt19937x64

theorem s50 : chk stp bound c51 100 c50 = true := by decide +kernel
theorem s51 : chk stp bound c52 100 c51 = true := by decide +kernel
theorem s52 : chk stp bound c53 100 c52 = true := by decide +kernel
theorem s53 : chk stp bound c54 100 c53 = true := by decide +kernel
theorem s54 : chk stp bound c55 100 c54 = true := by decide +kernel
theorem s55 : chk stp bound c56 100 c55 = true := by decide +kernel
theorem s56 : chk stp bound c57 100 c56 = true := by decide +kernel
theorem s57 : chk stp bound c58 100 c57 = true := by decide +kernel
theorem s58 : chk stp bound c59 100 c58 = true := by decide +kernel
theorem s59 : chk stp bound c60 100 c59 = true := by decide +kernel
theorem s60 : chk stp bound c61 100 c60 = true := by decide +kernel
theorem s61 : chk stp bound c62 100 c61 = true := by decide +kernel
theorem s62 : chk stp bound c63 100 c62 = true := by decide +kernel
theorem s63 : chk stp bound c64 100 c63 = true := by decide +kernel
theorem s64 : chk stp bound c65 100 c64 = true := by decide +kernel
theorem s65 : chk stp bound c66 100 c65 = true := by decide +kernel
theorem s66 : chk stp bound c67 100 c66 = true := by decide +kernel
theorem s67 : chk stp bound c68 100 c67 = true := by decide +kernel
theorem s68 : chk stp bound c69 100 c68 = true := by decide +kernel
theorem s69 : chk stp bound c70 100 c69 = true := by decide +kernel
theorem s70 : chk stp bound c71 100 c70 = true := by decide +kernel
theorem s71 : chk stp bound c72 100 c71 = true := by decide +kernel
theorem s72 : chk stp bound c73 100 c72 = true := by decide +kernel
theorem s73 : chk stp bound c74 100 c73 = true := by decide +kernel
theorem s74 : chk stp bound c75 100 c74 = true := by decide +kernel

theorem part2 (h : Reach (Spec.mtChar mt19937_64) bound 5000 c50) : Reach (Spec.mtChar mt19937_64) bound 7500 c75 :=
  have h0 : Reach (Spec.mtChar mt19937_64) bound 5100 c51 := h.next squares s50 rfl
  have h1 : Reach (Spec.mtChar mt19937_64) bound 5200 c52 := h0.next squares s51 rfl
  have h2 : Reach (Spec.mtChar mt19937_64) bound 5300 c53 := h1.next squares s52 rfl
  have h3 : Reach (Spec.mtChar mt19937_64) bound 5400 c54 := h2.next squares s53 rfl
  have h4 : Reach (Spec.mtChar mt19937_64) bound 5500 c55 := h3.next squares s54 rfl
  have h5 : Reach (Spec.mtChar mt19937_64) bound 5600 c56 := h4.next squares s55 rfl
  have h6 : Reach (Spec.mtChar mt19937_64) bound 5700 c57 := h5.next squares s56 rfl
  have h7 : Reach (Spec.mtChar mt19937_64) bound 5800 c58 := h6.next squares s57 rfl
  have h8 : Reach (Spec.mtChar mt19937_64) bound 5900 c59 := h7.next squares s58 rfl
  have h9 : Reach (Spec.mtChar mt19937_64) bound 6000 c60 := h8.next squares s59 rfl
  have h10 : Reach (Spec.mtChar mt19937_64) bound 6100 c61 := h9.next squares s60 rfl
  have h11 : Reach (Spec.mtChar mt19937_64) bound 6200 c62 := h10.next squares s61 rfl
  have h12 : Reach (Spec.mtChar mt19937_64) bound 6300 c63 := h11.next squares s62 rfl
  have h13 : Reach (Spec.mtChar mt19937_64) bound 6400 c64 := h12.next squares s63 rfl
  have h14 : Reach (Spec.mtChar mt19937_64) bound 6500 c65 := h13.next squares s64 rfl
  have h15 : Reach (Spec.mtChar mt19937_64) bound 6600 c66 := h14.next squares s65 rfl
  have h16 : Reach (Spec.mtChar mt19937_64) bound 6700 c67 := h15.next squares s66 rfl
  have h17 : Reach (Spec.mtChar mt19937_64) bound 6800 c68 := h16.next squares s67 rfl
  have h18 : Reach (Spec.mtChar mt19937_64) bound 6900 c69 := h17.next squares s68 rfl
  have h19 : Reach (Spec.mtChar mt19937_64) bound 7000 c70 := h18.next squares s69 rfl
  have h20 : Reach (Spec.mtChar mt19937_64) bound 7100 c71 := h19.next squares s70 rfl
  have h21 : Reach (Spec.mtChar mt19937_64) bound 7200 c72 := h20.next squares s71 rfl
  have h22 : Reach (Spec.mtChar mt19937_64) bound 7300 c73 := h21.next squares s72 rfl
  have h23 : Reach (Spec.mtChar mt19937_64) bound 7400 c74 := h22.next squares s73 rfl
  have h : Reach (Spec.mtChar mt19937_64) bound 7500 c75 := h23.next squares s74 rfl
  h

end Gf2N.Mt19937x64
end Boost.Random
