import Verif.Proofs.AffineLog
import Mathlib.Analysis.Real.Pi.Bounds

/-!
# The hat of algorithm PTRD on rectangles

With `δ = 1 / sqrt μ` and `p = 1 / (1/2 - |u|)`, the conditions on the hat are inequalities between functions of `δ` and `p` that are analytic also for `δ = 0`.
Here they are proved for rectangles of `δ` and `p`, by affine arithmetic.
-/

namespace Boost.Random.PtrdBox

open Boost.Random.Affine

/-! ## The functions -/

noncomputable def B (δ : ℝ) : ℝ := 253 / 100 + 931 / 1000 * δ
noncomputable def A (δ : ℝ) : ℝ := 628199 / 10000000 - 3588327 / 100000000 * δ
noncomputable def IA (δ : ℝ) : ℝ := 11239 / 10000 + 11328 / 10000 * (δ * (253 / 100 - 2469 / 1000 * δ)⁻¹)
noncomputable def VR (δ : ℝ) : ℝ := 9277 / 10000 - 36224 / 10000 * (δ * (253 / 100 - 1069 / 1000 * δ)⁻¹)
/-- The distance of the point from the centre, over `sqrt μ`. -/
noncomputable def M (p δ : ℝ) : ℝ := A δ * (p - 2) + (1 / 2 * B δ - B δ * p⁻¹)
/-- The slope, over `sqrt μ`. -/
noncomputable def SL (p δ : ℝ) : ℝ := A δ * (p * p) + B δ

/-- For `k = μ + t sqrt μ` and `y = k / μ - 1`, the number `μ ((1 + y) log (1 + y) - y) + log (1 + y) / 2`. -/
noncomputable def G (t δ : ℝ) : ℝ :=
  let i := (t * δ + 2)⁻¹
  let z := t * i * δ
  t * (t * i) + t * (t * i) * (z * rest z + z * rest z * z) + (z + z * z * (z * rest z))

/-- The number `1 / k`. -/
noncomputable def K (t δ : ℝ) : ℝ := δ * δ * (t * δ + 1)⁻¹

noncomputable def HV (t δ X : ℝ) : ℝ := -Real.log X + Real.log (2 * Real.pi) / 2 + G t δ + 1 / 12 * K t δ - K t δ ^ 3 / 360
noncomputable def LV (t δ Y : ℝ) : ℝ := -Real.log Y - Real.log (2 * Real.pi) / 2 - (G t δ + 1 / 12 * K t δ)

/-! ## Their forms -/

def one : Af := Af.const (nat_lit 1) (nat_lit 1)
def two : Af := Af.const (nat_lit 2) (nat_lit 1)

/-- Half the logarithm of `2 π`. -/
def halfLog : Af := ⟨⟨nat_lit 1010383602470, nat_lit 0⟩, ⟨nat_lit 0, nat_lit 0⟩, ⟨nat_lit 0, nat_lit 0⟩, nat_lit 2000⟩

def fB (d : Af) : Af := (Af.const (nat_lit 253) (nat_lit 100)).add (d.scale (nat_lit 931) (nat_lit 1000))
def fA (d : Af) : Af := (Af.const (nat_lit 628199) (nat_lit 10000000)).sub (d.scale (nat_lit 3588327) (nat_lit 100000000))

def fIA (d : Af) (f : Af → Bool) : Bool :=
  ((Af.const (nat_lit 253) (nat_lit 100)).sub (d.scale (nat_lit 2469) (nat_lit 1000))).force fun x => x.inv fun i =>
    (d.mul i).force fun q => ((Af.const (nat_lit 11239) (nat_lit 10000)).add (q.scale (nat_lit 11328) (nat_lit 10000))).force f

def fVR (d : Af) (f : Af → Bool) : Bool :=
  ((Af.const (nat_lit 253) (nat_lit 100)).sub (d.scale (nat_lit 1069) (nat_lit 1000))).force fun x => x.inv fun i =>
    (d.mul i).force fun q => ((Af.const (nat_lit 9277) (nat_lit 10000)).sub (q.scale (nat_lit 36224) (nat_lit 10000))).force f

def fM (a b p : Af) (f : Af → Bool) : Bool :=
  p.inv fun i => (p.sub two).force fun p2 => (b.mul i).force fun x => ((a.mul p2).add ((b.scale (nat_lit 1) (nat_lit 2)).sub x)).force f

def fSL (a b p : Af) (f : Af → Bool) : Bool :=
  (p.mul p).force fun q => ((a.mul q).add b).force f

def fG (d y t : Af) (N : Nat) (f : Af → Bool) : Bool :=
  (y.add two).force fun s => s.inv fun i => (t.mul i).force fun ζ => (ζ.mul d).force fun z => (z.mul z).force fun w => w.rest N fun R =>
    (z.mul R).force fun zR => (t.mul ζ).force fun E => (zR.add (zR.mul z)).force fun q =>
      ((E.add (E.mul q)).add (z.add (w.mul zR))).force f

def fK (d y : Af) (f : Af → Bool) : Bool :=
  (y.add one).force fun s => s.inv fun i => (d.mul d).force fun q => (q.mul i).force f

/-- The number is greater than `x / S`. -/
def above (v : Af) (x : Nat) : Bool := Nat.ble (Nat.succ (Nat.add (Nat.add v.c.n v.rho) x)) v.c.p

def hatTest (d t y X : Af) (N : Nat) : Bool :=
  fG d y t N fun g => fK d y fun k => X.negLog fun l => (((l.add halfLog).add g).add (k.scale (nat_lit 1) (nat_lit 12))).force fun v =>
    force (Nat.add k.c.mag k.rho) fun m => above v (Nat.succ (Nat.div (Nat.mul (Nat.mul m m) m) (Nat.mul (nat_lit 360) (Nat.mul S S))))

def lowTest (d t y Y : Af) (N : Nat) : Bool :=
  fG d y t N fun g => fK d y fun k => Y.negLog fun l => ((l.sub halfLog).sub (g.add (k.scale (nat_lit 1) (nat_lit 12)))).force fun v => above v (nat_lit 0)

section
variable {ξ η : ℝ} {d t y X a b p v : Af} {δ t' y' X' p' v' : ℝ}

theorem one_holds : one.Holds ξ η 1 := const_holds (by norm_num) (by norm_num)
theorem two_holds : two.Holds ξ η 2 := const_holds (by norm_num) (by norm_num)

theorem two_pi : |Real.log (2 * Real.pi) / 2 * S - 1010383602470| ≤ 2000 := by
  have hS := S_pos
  have h1 := Real.pi_gt_d20
  have h2 := Real.pi_lt_d20
  have n1 := negLog_le (c := 6908435304717) (by norm_num)
  have n2 := negLog_le (c := 174992710549) (by norm_num)
  have v1 : (negLog 6908435304717).val = -2020767205474 := by
    have : negLog 6908435304717 = ⟨0, 2020767205474⟩ := by decide +kernel
    rw [this]; norm_num [Sg.val]
  have v2 : (negLog 174992710549).val = 2020767204065 := by
    have : negLog 174992710549 = ⟨2286370153497, 265602949432⟩ := by decide +kernel
    rw [this]; norm_num [Sg.val]
  have p1 : Real.log (2 * Real.pi) ≤ Real.log (((6908435304717 : Nat) : ℝ) / S) :=
    Real.log_le_log (by positivity) (by unfold S; norm_num; linarith)
  have p2 : -Real.log (2 * Real.pi) ≤ Real.log (((174992710549 : Nat) : ℝ) / S) := by
    rw [← Real.log_inv]
    refine Real.log_le_log (by positivity) ?_
    rw [inv_le_comm₀ (by positivity) (by unfold S; norm_num)]
    unfold S; norm_num; linarith
  rw [abs_le]
  constructor <;> nlinarith

theorem halfLog_holds : halfLog.Holds ξ η (Real.log (2 * Real.pi) / 2) := by
  have := two_pi
  unfold Af.Holds halfLog Sg.val
  simpa using this

theorem force_true {f : Af → Bool} (h : a.force f = true) : f a.norm = true := by rwa [Af.force_eq] at h

variable (hξ : |ξ| ≤ 1) (hη : |η| ≤ 1)
include hξ hη

theorem fB_holds (hd : d.Holds ξ η δ) : (fB d).Holds ξ η (B δ) :=
  (const_holds (by norm_num) (by norm_num)).add (hd.scale hξ hη (by norm_num) (by norm_num))

theorem fA_holds (hd : d.Holds ξ η δ) : (fA d).Holds ξ η (A δ) :=
  (const_holds (by norm_num) (by norm_num)).sub (hd.scale hξ hη (by norm_num) (by norm_num))

theorem fIA_holds (hd : d.Holds ξ η δ) {f : Af → Bool} (h : fIA d f = true) : ∃ b : Af, b.Holds ξ η (IA δ) ∧ f b = true := by
  have h1 := ((const_holds (n := 253) (d := 100) (by norm_num) (by norm_num)).sub (hd.scale hξ hη (n := 2469) (d := 1000) (by norm_num) (by norm_num))).norm
    (x := 253 / 100 - 2469 / 1000 * δ)
  obtain ⟨_, i, hi, h⟩ := h1.inv hξ hη (force_true h)
  refine ⟨_, ?_, force_true (force_true h)⟩
  exact ((const_holds (by norm_num) (by norm_num)).add ((hd.mul hξ hη hi).norm.scale hξ hη (by norm_num) (by norm_num))).norm

theorem fVR_holds (hd : d.Holds ξ η δ) {f : Af → Bool} (h : fVR d f = true) : ∃ b : Af, b.Holds ξ η (VR δ) ∧ f b = true := by
  have h1 := ((const_holds (n := 253) (d := 100) (by norm_num) (by norm_num)).sub (hd.scale hξ hη (n := 1069) (d := 1000) (by norm_num) (by norm_num))).norm
    (x := 253 / 100 - 1069 / 1000 * δ)
  obtain ⟨_, i, hi, h⟩ := h1.inv hξ hη (force_true h)
  refine ⟨_, ?_, force_true (force_true h)⟩
  exact ((const_holds (by norm_num) (by norm_num)).sub ((hd.mul hξ hη hi).norm.scale hξ hη (by norm_num) (by norm_num))).norm

theorem fM_holds (ha : a.Holds ξ η (A δ)) (hb : b.Holds ξ η (B δ)) (hp : p.Holds ξ η p') {f : Af → Bool} (h : fM a b p f = true) :
    ∃ m : Af, m.Holds ξ η (M p' δ) ∧ f m = true := by
  obtain ⟨_, i, hi, h⟩ := hp.inv hξ hη h
  refine ⟨_, ?_, force_true (force_true (force_true h))⟩
  exact ((ha.mul hξ hη (hp.sub two_holds).norm).add ((hb.scale hξ hη (by norm_num) (by norm_num)).sub (hb.mul hξ hη hi).norm)).norm

theorem fSL_holds (ha : a.Holds ξ η (A δ)) (hb : b.Holds ξ η (B δ)) (hp : p.Holds ξ η p') {f : Af → Bool} (h : fSL a b p f = true) :
    ∃ m : Af, m.Holds ξ η (SL p' δ) ∧ f m = true :=
  ⟨_, ((ha.mul hξ hη (hp.mul hξ hη hp).norm).add hb).norm, force_true (force_true h)⟩

theorem fG_holds (hd : d.Holds ξ η δ) (ht : t.Holds ξ η t') (hy : y.Holds ξ η (t' * δ)) {N : Nat} {f : Af → Bool} (h : fG d y t N f = true) :
    ∃ g : Af, g.Holds ξ η (G t' δ) ∧ f g = true := by
  have h := force_true h
  obtain ⟨_, i, hi, h⟩ := (hy.add two_holds).norm.inv hξ hη h
  have hζ := (ht.mul hξ hη hi).norm
  have hz := (hζ.mul hξ hη hd).norm
  have hw := (hz.mul hξ hη hz).norm
  have hw' := hw
  rw [← sq] at hw
  have h := force_true h
  have h := force_true h
  have h := force_true h
  obtain ⟨_, R, hR, h⟩ := hw.rest hξ hη h
  have hzR := (hz.mul hξ hη hR).norm
  have hE := (ht.mul hξ hη hζ).norm
  have hq := (hzR.add (hzR.mul hξ hη hz)).norm
  have h := force_true h
  have h := force_true h
  have h := force_true h
  exact ⟨_, ((hE.add (hE.mul hξ hη hq)).add (hz.add (hw'.mul hξ hη hzR))).norm, force_true h⟩

theorem fK_holds (hd : d.Holds ξ η δ) (hy : y.Holds ξ η (t' * δ)) {f : Af → Bool} (h : fK d y f = true) :
    0 < t' * δ + 1 ∧ ∃ k : Af, k.Holds ξ η (K t' δ) ∧ f k = true := by
  have h := force_true h
  obtain ⟨h0, i, hi, h⟩ := (hy.add one_holds).norm.inv hξ hη h
  have h := force_true h
  exact ⟨h0, _, ((hd.mul hξ hη hd).norm.mul hξ hη hi).norm, force_true h⟩

theorem above_lt (hv : v.Holds ξ η v') {x : Nat} (h : above v x = true) : (x : ℝ) < v' * S := by
  have h1 := Nat.le_of_ble_eq_true h
  have h2 := (abs_le.1 (hv.dist hξ hη)).1
  unfold Sg.val at h2
  simp only [Nat.add_eq, Nat.succ_eq_add_one] at h1
  have h3 : ((v.c.n + v.rho + x + 1 : Nat) : ℝ) ≤ v.c.p := by exact_mod_cast h1
  push_cast at h3
  linarith

theorem hatTest_pos (hd : d.Holds ξ η δ) (ht : t.Holds ξ η t') (hy : y.Holds ξ η (t' * δ)) (hX : X.Holds ξ η X') (hX0 : 0 < X') {N : Nat} (h : hatTest d t y X N = true) :
    0 < t' * δ + 1 ∧ 0 < HV t' δ X' := by
  have hS := S_pos
  obtain ⟨g, hg, h⟩ := fG_holds hξ hη hd ht hy h
  obtain ⟨h0, k, hk, h⟩ := fK_holds hξ hη hd hy h
  obtain ⟨l, w, hw, hl, h⟩ := hX.negLog hξ hη hX0 h
  have h := force_true h
  rw [force_eq] at h
  have hv := (((hl.add halfLog_holds).add hg).add (hk.scale hξ hη (n := 1) (d := 12) (by norm_num) (q := 1 / 12) (by norm_num))).norm
  have h1 := above_lt hξ hη hv h
  refine ⟨h0, ?_⟩
  have hk0 : 0 ≤ K t' δ := by unfold K; exact mul_nonneg (mul_self_nonneg _) (inv_nonneg.2 h0.le)
  have hkm : K t' δ * S ≤ (k.c.mag + k.rho : Nat) := by
    have := (abs_le.1 (hk.dist hξ hη)).2
    have h2 := (abs_le.1 k.c.abs_val).2
    rw [Nat.cast_add]
    linarith
  simp only [Nat.add_eq, Nat.mul_eq, div_raw, Nat.succ_eq_add_one] at h1
  generalize k.c.mag + k.rho = m at h1 hkm
  obtain ⟨_, h2⟩ := div_floor (m * m * m) (360 * (S * S)) (by have := S_pos'; positivity)
  push_cast at h1 h2
  have h3 : K t' δ ^ 3 / 360 * S ≤ m * m * m / (360 * (S * S)) := by
    rw [le_div_iff₀ (by positivity)]
    have h4 := pow_le_pow_left₀ (by positivity) hkm 3
    calc _ = (K t' δ * S) ^ 3 := by ring
      _ ≤ _ := h4
      _ = _ := by ring
  have h5 : 0 < (w + Real.log (2 * Real.pi) / 2 + G t' δ + 1 / 12 * K t' δ - K t' δ ^ 3 / 360) * S := by linarith
  have h6 := (mul_pos_iff_of_pos_right hS).1 h5
  unfold HV
  linarith

theorem lowTest_pos (hd : d.Holds ξ η δ) (ht : t.Holds ξ η t') (hy : y.Holds ξ η (t' * δ)) (hX : X.Holds ξ η X') (hX0 : 0 < X') {N : Nat} (h : lowTest d t y X N = true) :
    0 < t' * δ + 1 ∧ 0 < LV t' δ X' := by
  have hS := S_pos
  obtain ⟨g, hg, h⟩ := fG_holds hξ hη hd ht hy h
  obtain ⟨h0, k, hk, h⟩ := fK_holds hξ hη hd hy h
  obtain ⟨l, w, hw, hl, h⟩ := hX.negLog hξ hη hX0 h
  have hv := ((hl.sub halfLog_holds).sub (hg.add (hk.scale hξ hη (n := 1) (d := 12) (by norm_num) (q := 1 / 12) (by norm_num)))).norm
  have h1 := above_lt hξ hη hv (force_true h)
  refine ⟨h0, ?_⟩
  rw [Nat.cast_zero] at h1
  have h6 := (mul_pos_iff_of_pos_right hS).1 h1
  unfold LV
  linarith

end

/-! ## The tests of a rectangle -/

/-- The numbers between `lo / S` and `hi / S`. -/
def pForm (lo hi : Nat) : Af := ⟨⟨Nat.add lo (Nat.div (Nat.succ (Nat.sub hi lo)) (nat_lit 2)), nat_lit 0⟩, ⟨Nat.div (Nat.succ (Nat.sub hi lo)) (nat_lit 2), nat_lit 0⟩, ⟨nat_lit 0, nat_lit 0⟩, nat_lit 0⟩
def dForm (lo hi : Nat) : Af := ⟨⟨Nat.add lo (Nat.div (Nat.succ (Nat.sub hi lo)) (nat_lit 2)), nat_lit 0⟩, ⟨nat_lit 0, nat_lit 0⟩, ⟨Nat.div (Nat.succ (Nat.sub hi lo)) (nat_lit 2), nat_lit 0⟩, nat_lit 0⟩

def base (dlo dhi plo phi : Nat) (f : Af → Af → Af → Af → Af → Bool) : Bool :=
  (dForm dlo dhi).force fun d => (pForm plo phi).force fun p => (fA d).force fun a => (fB d).force fun b => fIA d fun ia => f d p a b ia

/-- The middle of the hat, with the number `p - 0.555` of `t = (p - 0.555) δ`. -/
def midBox (dlo dhi plo phi N : Nat) : Bool := base dlo dhi plo phi fun d p a b ia => fVR d fun vr =>
  ((a.scale (nat_lit 4) (nat_lit 1)).add b).force fun sl => sl.inv fun isl => (ia.mul vr).force fun iv => (iv.mul isl).force fun Y =>
    ((p.mul d).sub (d.scale (nat_lit 555) (nat_lit 1000))).force fun t => (t.mul d).force fun y => lowTest d t y Y N

def lowRBox (dlo dhi plo phi N : Nat) : Bool := base dlo dhi plo phi fun d p a b ia => fVR d fun vr => fM a b p fun m => fSL a b p fun sl =>
  sl.inv fun isl => (ia.mul vr).force fun iv => (iv.mul isl).force fun Y =>
    (m.add (d.scale (nat_lit 445) (nat_lit 1000))).force fun t => (t.mul d).force fun y => lowTest d t y Y N

def lowLBox (dlo dhi plo phi N : Nat) : Bool := base dlo dhi plo phi fun d p a b ia => fVR d fun vr => fM a b p fun m => fSL a b p fun sl =>
  sl.inv fun isl => (ia.mul vr).force fun iv => (iv.mul isl).force fun Y =>
    (m.add (d.scale (nat_lit 555) (nat_lit 1000))).neg.force fun t => (t.mul d).force fun y => lowTest d t y Y N

def hatRBox (dlo dhi plo phi N : Nat) : Bool := base dlo dhi plo phi fun d p a b ia => fM a b p fun m => fSL a b p fun sl =>
  ia.inv fun ii => (sl.mul ii).force fun X => (m.sub (d.scale (nat_lit 555) (nat_lit 1000))).force fun t => (t.mul d).force fun y => hatTest d t y X N

def triRBox (dlo dhi plo phi N : Nat) : Bool := base dlo dhi plo phi fun d p a b ia => fM a b p fun m => fSL a b p fun sl =>
  ia.inv fun ii => (sl.mul ii).force fun X => (X.mul p).force fun X =>
    (m.sub (d.scale (nat_lit 555) (nat_lit 1000))).force fun t => (t.mul d).force fun y => hatTest d t y X N

/-- Nothing is tested if `t δ` is at most `-9/10`. -/
def hatLBox (dlo dhi plo phi N : Nat) : Bool := base dlo dhi plo phi fun d p a b ia => fM a b p fun m => ((d.scale (nat_lit 445) (nat_lit 1000)).sub m).force fun t =>
  (t.mul d).force fun y => cond (Nat.ble (Nat.add (Nat.mul (nat_lit 10) (Nat.add y.c.p y.rho)) (Nat.mul (nat_lit 9) S)) (Nat.mul (nat_lit 10) y.c.n)) true
    (fSL a b p fun sl => ia.inv fun ii => (sl.mul ii).force fun X => hatTest d t y X N)

theorem interval_coord {lo hi : Nat} {x : ℝ} (h1 : (lo : ℝ) ≤ x * S) (h2 : x * S ≤ hi) :
    ∃ ξ : ℝ, |ξ| ≤ 1 ∧ x * S = ((lo + (hi - lo + 1) / 2 : Nat) : ℝ) + ((hi - lo + 1) / 2 : Nat) * ξ := by
  have hle : lo ≤ hi := by exact_mod_cast h1.trans h2
  generalize hh : (hi - lo + 1) / 2 = h
  have h3 : hi ≤ lo + 2 * h := by omega
  have h3' : (hi : ℝ) ≤ lo + 2 * h := by exact_mod_cast h3
  rcases Nat.eq_zero_or_pos h with h0 | h0
  · subst h0
    refine ⟨0, by norm_num, ?_⟩
    push_cast at h3' ⊢
    linarith
  · have h0' : (0 : ℝ) < h := by exact_mod_cast h0
    refine ⟨(x * S - (lo + h : Nat)) / h, ?_, ?_⟩
    · rw [abs_div, abs_of_pos h0', div_le_one h0', abs_le]
      push_cast
      constructor <;> linarith
    · rw [mul_div_cancel₀ _ h0'.ne']; ring

theorem base_true {dlo dhi plo phi : Nat} {f : Af → Af → Af → Af → Af → Bool} (h : base dlo dhi plo phi f = true) {δ p' : ℝ} (d1 : (dlo : ℝ) ≤ δ * S) (d2 : δ * S ≤ dhi)
    (p1 : (plo : ℝ) ≤ p' * S) (p2 : p' * S ≤ phi) : ∃ ξ η : ℝ, |ξ| ≤ 1 ∧ |η| ≤ 1 ∧ ∃ d p a b ia : Af, d.Holds ξ η δ ∧ p.Holds ξ η p' ∧ a.Holds ξ η (A δ) ∧ b.Holds ξ η (B δ) ∧
      ia.Holds ξ η (IA δ) ∧ f d p a b ia = true := by
  obtain ⟨η, hη, e1⟩ := interval_coord d1 d2
  obtain ⟨ξ, hξ, e2⟩ := interval_coord p1 p2
  have hd : (dForm dlo dhi).Holds ξ η δ := by
    unfold Af.Holds dForm Sg.val
    simp only [Nat.add_eq, div_raw, Nat.succ_eq_add_one, Nat.sub_eq]
    rw [e1]; simp
  have hp : (pForm plo phi).Holds ξ η p' := by
    unfold Af.Holds pForm Sg.val
    simp only [Nat.add_eq, div_raw, Nat.succ_eq_add_one, Nat.sub_eq]
    rw [e2]; simp
  have h := force_true (force_true (force_true (force_true h)))
  have ha := (fA_holds hξ hη hd.norm).norm
  have hb := (fB_holds hξ hη hd.norm).norm
  obtain ⟨ia, hia, h⟩ := fIA_holds hξ hη hd.norm h
  exact ⟨ξ, η, hξ, hη, _, _, _, _, ia, hd.norm, hp.norm, ha, hb, hia, h⟩

section
variable {dlo dhi plo phi N : Nat} {δ p : ℝ} (d1 : (dlo : ℝ) ≤ δ * S) (d2 : δ * S ≤ dhi) (p1 : (plo : ℝ) ≤ p * S) (p2 : p * S ≤ phi)
include d1 d2 p1 p2

theorem midBox_pos (h : midBox dlo dhi plo phi N = true) (hv : 0 < VR δ) (hi : 0 < IA δ) :
    0 < (p * δ - 555 / 1000 * δ) * δ + 1 ∧ 0 < LV (p * δ - 555 / 1000 * δ) δ (IA δ * VR δ * (4 * A δ + B δ)⁻¹) := by
  obtain ⟨ξ, η, hξ, hη, d, q, a, b, ia, hd, hq, ha, hb, hia, h⟩ := base_true h d1 d2 p1 p2
  obtain ⟨vr, hvr, h⟩ := fVR_holds hξ hη hd h
  obtain ⟨hs, isl, hisl, h⟩ := ((ha.scale hξ hη (n := 4) (d := 1) (by norm_num) (q := 4) (by norm_num)).add hb).norm.inv hξ hη (force_true h)
  have ht := ((hq.mul hξ hη hd).sub (hd.scale hξ hη (n := 555) (d := 1000) (by norm_num) (q := 555 / 1000) (by norm_num))).norm
  exact lowTest_pos hξ hη hd ht (ht.mul hξ hη hd).norm (((hia.mul hξ hη hvr).norm.mul hξ hη hisl).norm) (by positivity) (force_true (force_true (force_true (force_true h))))

theorem lowRBox_pos (h : lowRBox dlo dhi plo phi N = true) (hv : 0 < VR δ) (hi : 0 < IA δ) :
    0 < (M p δ + 445 / 1000 * δ) * δ + 1 ∧ 0 < LV (M p δ + 445 / 1000 * δ) δ (IA δ * VR δ * (SL p δ)⁻¹) := by
  obtain ⟨ξ, η, hξ, hη, d, q, a, b, ia, hd, hq, ha, hb, hia, h⟩ := base_true h d1 d2 p1 p2
  obtain ⟨vr, hvr, h⟩ := fVR_holds hξ hη hd h
  obtain ⟨m, hm, h⟩ := fM_holds hξ hη ha hb hq h
  obtain ⟨sl, hsl, h⟩ := fSL_holds hξ hη ha hb hq h
  obtain ⟨hs, isl, hisl, h⟩ := hsl.inv hξ hη h
  have ht := (hm.add (hd.scale hξ hη (n := 445) (d := 1000) (by norm_num) (q := 445 / 1000) (by norm_num))).norm
  exact lowTest_pos hξ hη hd ht (ht.mul hξ hη hd).norm (((hia.mul hξ hη hvr).norm.mul hξ hη hisl).norm) (by positivity) (force_true (force_true (force_true (force_true h))))

theorem lowLBox_pos (h : lowLBox dlo dhi plo phi N = true) (hv : 0 < VR δ) (hi : 0 < IA δ) :
    0 < (-(M p δ + 555 / 1000 * δ)) * δ + 1 ∧ 0 < LV (-(M p δ + 555 / 1000 * δ)) δ (IA δ * VR δ * (SL p δ)⁻¹) := by
  obtain ⟨ξ, η, hξ, hη, d, q, a, b, ia, hd, hq, ha, hb, hia, h⟩ := base_true h d1 d2 p1 p2
  obtain ⟨vr, hvr, h⟩ := fVR_holds hξ hη hd h
  obtain ⟨m, hm, h⟩ := fM_holds hξ hη ha hb hq h
  obtain ⟨sl, hsl, h⟩ := fSL_holds hξ hη ha hb hq h
  obtain ⟨hs, isl, hisl, h⟩ := hsl.inv hξ hη h
  have ht := (hm.add (hd.scale hξ hη (n := 555) (d := 1000) (by norm_num) (q := 555 / 1000) (by norm_num))).neg.norm
  exact lowTest_pos hξ hη hd ht (ht.mul hξ hη hd).norm (((hia.mul hξ hη hvr).norm.mul hξ hη hisl).norm) (by positivity) (force_true (force_true (force_true (force_true h))))

theorem hatRBox_pos (h : hatRBox dlo dhi plo phi N = true) (hs : 0 < SL p δ) : 0 < HV (M p δ - 555 / 1000 * δ) δ (SL p δ * (IA δ)⁻¹) := by
  obtain ⟨ξ, η, hξ, hη, d, q, a, b, ia, hd, hq, ha, hb, hia, h⟩ := base_true h d1 d2 p1 p2
  obtain ⟨m, hm, h⟩ := fM_holds hξ hη ha hb hq h
  obtain ⟨sl, hsl, h⟩ := fSL_holds hξ hη ha hb hq h
  obtain ⟨hi, ii, hii, h⟩ := hia.inv hξ hη h
  have ht := (hm.sub (hd.scale hξ hη (n := 555) (d := 1000) (by norm_num) (q := 555 / 1000) (by norm_num))).norm
  exact (hatTest_pos hξ hη hd ht (ht.mul hξ hη hd).norm (hsl.mul hξ hη hii).norm (by positivity) (force_true (force_true (force_true h)))).2

theorem triRBox_pos (h : triRBox dlo dhi plo phi N = true) (hs : 0 < SL p δ) (hp : 0 < p) : 0 < HV (M p δ - 555 / 1000 * δ) δ (SL p δ * (IA δ)⁻¹ * p) := by
  obtain ⟨ξ, η, hξ, hη, d, q, a, b, ia, hd, hq, ha, hb, hia, h⟩ := base_true h d1 d2 p1 p2
  obtain ⟨m, hm, h⟩ := fM_holds hξ hη ha hb hq h
  obtain ⟨sl, hsl, h⟩ := fSL_holds hξ hη ha hb hq h
  obtain ⟨hi, ii, hii, h⟩ := hia.inv hξ hη h
  have ht := (hm.sub (hd.scale hξ hη (n := 555) (d := 1000) (by norm_num) (q := 555 / 1000) (by norm_num))).norm
  exact (hatTest_pos hξ hη hd ht (ht.mul hξ hη hd).norm ((hsl.mul hξ hη hii).norm.mul hξ hη hq).norm (by positivity) (force_true (force_true (force_true (force_true h))))).2

theorem hatLBox_pos (h : hatLBox dlo dhi plo phi N = true) (hs : 0 < SL p δ) (hy : -(9 / 10) < (445 / 1000 * δ - M p δ) * δ) : 0 < HV (445 / 1000 * δ - M p δ) δ (SL p δ * (IA δ)⁻¹) := by
  obtain ⟨ξ, η, hξ, hη, d, q, a, b, ia, hd, hq, ha, hb, hia, h⟩ := base_true h d1 d2 p1 p2
  obtain ⟨m, hm, h⟩ := fM_holds hξ hη ha hb hq h
  have ht := ((hd.scale hξ hη (n := 445) (d := 1000) (by norm_num) (q := 445 / 1000) (by norm_num)).sub hm).norm
  have hty := (ht.mul hξ hη hd).norm
  have h := force_true (force_true h)
  cases hb' : Nat.ble (Nat.add (Nat.mul (nat_lit 10) (Nat.add ((((d.scale (nat_lit 445) (nat_lit 1000)).sub m).norm.mul d).norm).c.p
      ((((d.scale (nat_lit 445) (nat_lit 1000)).sub m).norm.mul d).norm).rho)) (Nat.mul (nat_lit 9) S))
      (Nat.mul (nat_lit 10) ((((d.scale (nat_lit 445) (nat_lit 1000)).sub m).norm.mul d).norm).c.n) with
  | true =>
    exfalso
    have h1 := Nat.le_of_ble_eq_true hb'
    have h2 := (abs_le.1 (hty.dist hξ hη)).2
    have hS := S_pos
    generalize (((d.scale (nat_lit 445) (nat_lit 1000)).sub m).norm.mul d).norm = Y at h1 h2
    simp only [Nat.add_eq, Nat.mul_eq] at h1
    have h3 : ((10 * (Y.c.p + Y.rho) + 9 * S : Nat) : ℝ) ≤ ((10 * Y.c.n : Nat) : ℝ) := by exact_mod_cast h1
    push_cast at h3
    unfold Sg.val at h2
    nlinarith
  | false =>
    rw [hb', cond_false] at h
    obtain ⟨sl, hsl, h⟩ := fSL_holds hξ hη ha hb hq h
    obtain ⟨hi, ii, hii, h⟩ := hia.inv hξ hη h
    exact (hatTest_pos hξ hη hd ht hty (hsl.mul hξ hη hii).norm (by positivity) (force_true h)).2

end

/-! ## The tests of a strip -/

/-- All rectangles of a strip, from `plo` on up to at least `phi`. -/
def strip (box : Nat → Nat → Nat → Nat → Nat → Bool) (dlo dhi phi plo : Nat) (l : List (Nat × Nat)) : Bool :=
  List.rec (motive := fun _ => Nat → Bool) (fun plo => Nat.ble phi plo) (fun x _ ih plo => cond (box dlo dhi plo x.1 x.2) (ih x.1) false) l plo

theorem strip_true {box : Nat → Nat → Nat → Nat → Nat → Bool} {dlo dhi phi : Nat} : ∀ {l : List (Nat × Nat)} {plo : Nat}, strip box dlo dhi phi plo l = true →
    ∀ {p : ℝ}, (plo : ℝ) ≤ p * S → p * S < phi → ∃ lo hi N : Nat, (lo : ℝ) ≤ p * S ∧ p * S ≤ hi ∧ box dlo dhi lo hi N = true
  | [], plo, h, p, h1, h2 => by
    have h3 : phi ≤ plo := Nat.le_of_ble_eq_true h
    have h4 : (phi : ℝ) ≤ plo := by exact_mod_cast h3
    linarith
  | x :: l, plo, h, p, h1, h2 => by
    change cond (box dlo dhi plo x.1 x.2) (strip box dlo dhi phi x.1 l) false = true at h
    cases hb : box dlo dhi plo x.1 x.2 with
    | false => rw [hb] at h; exact absurd h (by simp)
    | true =>
      rw [hb, cond_true] at h
      rcases le_total (p * S) x.1 with h3 | h3
      · exact ⟨plo, x.1, x.2, h1, h3, hb⟩
      · exact strip_true h h3 h2

/-- All `δ` between `dlo / S` and `dhi / S`, with all `p` between `plo / S` and `phi / S`, lie in tested rectangles. -/
def Cov (box : Nat → Nat → Nat → Nat → Nat → Bool) (phi plo dlo dhi : Nat) : Prop :=
  ∀ δ p : ℝ, (dlo : ℝ) ≤ δ * S → δ * S ≤ dhi → (plo : ℝ) ≤ p * S → p * S < phi →
    ∃ dl dh lo hi N : Nat, (dl : ℝ) ≤ δ * S ∧ δ * S ≤ dh ∧ (lo : ℝ) ≤ p * S ∧ p * S ≤ hi ∧ box dl dh lo hi N = true

theorem Cov.of_strip {box : Nat → Nat → Nat → Nat → Nat → Bool} {dlo dhi phi plo : Nat} {l : List (Nat × Nat)} (h : strip box dlo dhi phi plo l = true) : Cov box phi plo dlo dhi :=
  fun _ _ d1 d2 p1 p2 =>
    let ⟨lo, hi, N, h1, h2, h3⟩ := strip_true h p1 p2
    ⟨dlo, dhi, lo, hi, N, d1, d2, h1, h2, h3⟩

theorem Cov.join {box : Nat → Nat → Nat → Nat → Nat → Bool} {phi plo a b c : Nat} (h1 : Cov box phi plo b c) (h2 : Cov box phi plo a b) : Cov box phi plo a c :=
  fun δ p d1 d2 => (le_total (b : ℝ) (δ * S)).elim (fun h => h1 δ p h d2) (fun h => h2 δ p d1 h)

end Boost.Random.PtrdBox
