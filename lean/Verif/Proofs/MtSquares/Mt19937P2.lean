import Verif.Proofs.MtSquares.Mt19937Data

/-!
# mt19937: repeated squaring, written by tools/gen_mt_squares.py
-/

set_option Elab.async false

namespace Boost.Random
namespace Gf2N.Mt19937

theorem s50 : chk stp bound c51 200 c50 = true := by decide +kernel
theorem s51 : chk stp bound c52 200 c51 = true := by decide +kernel
theorem s52 : chk stp bound c53 200 c52 = true := by decide +kernel
theorem s53 : chk stp bound c54 200 c53 = true := by decide +kernel
theorem s54 : chk stp bound c55 200 c54 = true := by decide +kernel
theorem s55 : chk stp bound c56 200 c55 = true := by decide +kernel
theorem s56 : chk stp bound c57 200 c56 = true := by decide +kernel
theorem s57 : chk stp bound c58 200 c57 = true := by decide +kernel
theorem s58 : chk stp bound c59 200 c58 = true := by decide +kernel
theorem s59 : chk stp bound c60 200 c59 = true := by decide +kernel
theorem s60 : chk stp bound c61 200 c60 = true := by decide +kernel
theorem s61 : chk stp bound c62 200 c61 = true := by decide +kernel
theorem s62 : chk stp bound c63 200 c62 = true := by decide +kernel
theorem s63 : chk stp bound c64 200 c63 = true := by decide +kernel
theorem s64 : chk stp bound c65 200 c64 = true := by decide +kernel
theorem s65 : chk stp bound c66 200 c65 = true := by decide +kernel
theorem s66 : chk stp bound c67 200 c66 = true := by decide +kernel
theorem s67 : chk stp bound c68 200 c67 = true := by decide +kernel
theorem s68 : chk stp bound c69 200 c68 = true := by decide +kernel
theorem s69 : chk stp bound c70 200 c69 = true := by decide +kernel
theorem s70 : chk stp bound c71 200 c70 = true := by decide +kernel
theorem s71 : chk stp bound c72 200 c71 = true := by decide +kernel
theorem s72 : chk stp bound c73 200 c72 = true := by decide +kernel
theorem s73 : chk stp bound c74 200 c73 = true := by decide +kernel
theorem s74 : chk stp bound c75 200 c74 = true := by decide +kernel

theorem part2 (h : Reach (Spec.mtChar mt19937) bound 10000 c50) : Reach (Spec.mtChar mt19937) bound 15000 c75 :=
  have h0 : Reach (Spec.mtChar mt19937) bound 10200 c51 := h.next squares s50 rfl
  have h1 : Reach (Spec.mtChar mt19937) bound 10400 c52 := h0.next squares s51 rfl
  have h2 : Reach (Spec.mtChar mt19937) bound 10600 c53 := h1.next squares s52 rfl
  have h3 : Reach (Spec.mtChar mt19937) bound 10800 c54 := h2.next squares s53 rfl
  have h4 : Reach (Spec.mtChar mt19937) bound 11000 c55 := h3.next squares s54 rfl
  have h5 : Reach (Spec.mtChar mt19937) bound 11200 c56 := h4.next squares s55 rfl
  have h6 : Reach (Spec.mtChar mt19937) bound 11400 c57 := h5.next squares s56 rfl
  have h7 : Reach (Spec.mtChar mt19937) bound 11600 c58 := h6.next squares s57 rfl
  have h8 : Reach (Spec.mtChar mt19937) bound 11800 c59 := h7.next squares s58 rfl
  have h9 : Reach (Spec.mtChar mt19937) bound 12000 c60 := h8.next squares s59 rfl
  have h10 : Reach (Spec.mtChar mt19937) bound 12200 c61 := h9.next squares s60 rfl
  have h11 : Reach (Spec.mtChar mt19937) bound 12400 c62 := h10.next squares s61 rfl
  have h12 : Reach (Spec.mtChar mt19937) bound 12600 c63 := h11.next squares s62 rfl
  have h13 : Reach (Spec.mtChar mt19937) bound 12800 c64 := h12.next squares s63 rfl
  have h14 : Reach (Spec.mtChar mt19937) bound 13000 c65 := h13.next squares s64 rfl
  have h15 : Reach (Spec.mtChar mt19937) bound 13200 c66 := h14.next squares s65 rfl
  have h16 : Reach (Spec.mtChar mt19937) bound 13400 c67 := h15.next squares s66 rfl
  have h17 : Reach (Spec.mtChar mt19937) bound 13600 c68 := h16.next squares s67 rfl
  have h18 : Reach (Spec.mtChar mt19937) bound 13800 c69 := h17.next squares s68 rfl
  have h19 : Reach (Spec.mtChar mt19937) bound 14000 c70 := h18.next squares s69 rfl
  have h20 : Reach (Spec.mtChar mt19937) bound 14200 c71 := h19.next squares s70 rfl
  have h21 : Reach (Spec.mtChar mt19937) bound 14400 c72 := h20.next squares s71 rfl
  have h22 : Reach (Spec.mtChar mt19937) bound 14600 c73 := h21.next squares s72 rfl
  have h23 : Reach (Spec.mtChar mt19937) bound 14800 c74 := h22.next squares s73 rfl
  have h : Reach (Spec.mtChar mt19937) bound 15000 c75 := h23.next squares s74 rfl
  h

end Gf2N.Mt19937
end Boost.Random
