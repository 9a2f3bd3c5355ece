import Verif.Proofs.MtSquares.Mt19937x64Data

/-!
# mt19937_64: repeated squaring, written by tools/gen_mt_squares.py
-/

set_option Elab.async false

namespace Boost.Random
namespace Gf2N.Mt19937x64

theorem s100 : chk stp bound c101 100 c100 = true := by decide +kernel
theorem s101 : chk stp bound c102 100 c101 = true := by decide +kernel
theorem s102 : chk stp bound c103 100 c102 = true := by decide +kernel
theorem s103 : chk stp bound c104 100 c103 = true := by decide +kernel
theorem s104 : chk stp bound c105 100 c104 = true := by decide +kernel
theorem s105 : chk stp bound c106 100 c105 = true := by decide +kernel
theorem s106 : chk stp bound c107 100 c106 = true := by decide +kernel
theorem s107 : chk stp bound c108 100 c107 = true := by decide +kernel
theorem s108 : chk stp bound c109 100 c108 = true := by decide +kernel
theorem s109 : chk stp bound c110 100 c109 = true := by decide +kernel
theorem s110 : chk stp bound c111 100 c110 = true := by decide +kernel
theorem s111 : chk stp bound c112 100 c111 = true := by decide +kernel
theorem s112 : chk stp bound c113 100 c112 = true := by decide +kernel
theorem s113 : chk stp bound c114 100 c113 = true := by decide +kernel
theorem s114 : chk stp bound c115 100 c114 = true := by decide +kernel
theorem s115 : chk stp bound c116 100 c115 = true := by decide +kernel
theorem s116 : chk stp bound c117 100 c116 = true := by decide +kernel
theorem s117 : chk stp bound c118 100 c117 = true := by decide +kernel
theorem s118 : chk stp bound c119 100 c118 = true := by decide +kernel
theorem s119 : chk stp bound c120 100 c119 = true := by decide +kernel
theorem s120 : chk stp bound c121 100 c120 = true := by decide +kernel
theorem s121 : chk stp bound c122 100 c121 = true := by decide +kernel
theorem s122 : chk stp bound c123 100 c122 = true := by decide +kernel
theorem s123 : chk stp bound c124 100 c123 = true := by decide +kernel
theorem s124 : chk stp bound c125 100 c124 = true := by decide +kernel

theorem part4 (h : Reach (Spec.mtChar mt19937_64) bound 10000 c100) : Reach (Spec.mtChar mt19937_64) bound 12500 c125 :=
  have h0 : Reach (Spec.mtChar mt19937_64) bound 10100 c101 := h.next squares s100 rfl
  have h1 : Reach (Spec.mtChar mt19937_64) bound 10200 c102 := h0.next squares s101 rfl
  have h2 : Reach (Spec.mtChar mt19937_64) bound 10300 c103 := h1.next squares s102 rfl
  have h3 : Reach (Spec.mtChar mt19937_64) bound 10400 c104 := h2.next squares s103 rfl
  have h4 : Reach (Spec.mtChar mt19937_64) bound 10500 c105 := h3.next squares s104 rfl
  have h5 : Reach (Spec.mtChar mt19937_64) bound 10600 c106 := h4.next squares s105 rfl
  have h6 : Reach (Spec.mtChar mt19937_64) bound 10700 c107 := h5.next squares s106 rfl
  have h7 : Reach (Spec.mtChar mt19937_64) bound 10800 c108 := h6.next squares s107 rfl
  have h8 : Reach (Spec.mtChar mt19937_64) bound 10900 c109 := h7.next squares s108 rfl
  have h9 : Reach (Spec.mtChar mt19937_64) bound 11000 c110 := h8.next squares s109 rfl
  have h10 : Reach (Spec.mtChar mt19937_64) bound 11100 c111 := h9.next squares s110 rfl
  have h11 : Reach (Spec.mtChar mt19937_64) bound 11200 c112 := h10.next squares s111 rfl
  have h12 : Reach (Spec.mtChar mt19937_64) bound 11300 c113 := h11.next squares s112 rfl
  have h13 : Reach (Spec.mtChar mt19937_64) bound 11400 c114 := h12.next squares s113 rfl
  have h14 : Reach (Spec.mtChar mt19937_64) bound 11500 c115 := h13.next squares s114 rfl
  have h15 : Reach (Spec.mtChar mt19937_64) bound 11600 c116 := h14.next squares s115 rfl
  have h16 : Reach (Spec.mtChar mt19937_64) bound 11700 c117 := h15.next squares s116 rfl
  have h17 : Reach (Spec.mtChar mt19937_64) bound 11800 c118 := h16.next squares s117 rfl
  have h18 : Reach (Spec.mtChar mt19937_64) bound 11900 c119 := h17.next squares s118 rfl
  have h19 : Reach (Spec.mtChar mt19937_64) bound 12000 c120 := h18.next squares s119 rfl
  have h20 : Reach (Spec.mtChar mt19937_64) bound 12100 c121 := h19.next squares s120 rfl
  have h21 : Reach (Spec.mtChar mt19937_64) bound 12200 c122 := h20.next squares s121 rfl
  have h22 : Reach (Spec.mtChar mt19937_64) bound 12300 c123 := h21.next squares s122 rfl
  have h23 : Reach (Spec.mtChar mt19937_64) bound 12400 c124 := h22.next squares s123 rfl
  have h : Reach (Spec.mtChar mt19937_64) bound 12500 c125 := h23.next squares s124 rfl
  h

end Gf2N.Mt19937x64
end Boost.Random
