import Verif.Model.Jet
import Mathlib.Analysis.Calculus.FDeriv.Mul
import Mathlib.Analysis.Calculus.FDeriv.Add
import Mathlib.Analysis.SpecialFunctions.Trigonometric.Deriv
import Mathlib.Topology.Algebra.Order.Floor
import Mathlib.Tactic.Ring
import Mathlib.Tactic.FieldSimp
import Mathlib.Tactic.FinCases

/-! # Dual numbers compute derivatives (C104) -/

namespace Ndt

noncomputable section

/-- The linear map with the given coefficients. -/
def linOf {n : ℕ} (c : Fin n → ℝ) : (Fin n → ℝ) →L[ℝ] ℝ := ∑ k, c k • ContinuousLinearMap.proj k

theorem linOf_apply {n : ℕ} (c u : Fin n → ℝ) : linOf c u = ∑ k, c k * u k := by
  simp [linOf]

theorem linOf_add {n : ℕ} (c d : Fin n → ℝ) : linOf (c + d) = linOf c + linOf d := by
  ext u; simp [linOf_apply, add_mul, Finset.sum_add_distrib]

theorem linOf_sub {n : ℕ} (c d : Fin n → ℝ) : linOf (c - d) = linOf c - linOf d := by
  ext u; simp [linOf_apply, sub_mul, Finset.sum_sub_distrib]

theorem linOf_neg {n : ℕ} (c : Fin n → ℝ) : linOf (-c) = -linOf c := by
  ext u; simp [linOf_apply]

theorem linOf_smul {n : ℕ} (r : ℝ) (c : Fin n → ℝ) : linOf (r • c) = r • linOf c := by
  ext u; simp [linOf_apply, Finset.mul_sum, mul_assoc]

theorem linOf_zero {n : ℕ} : linOf (0 : Fin n → ℝ) = 0 := by
  ext u; simp [linOf_apply]

theorem linOf_single {n : ℕ} (k : Fin n) : linOf (Pi.single k 1) = ContinuousLinearMap.proj k := by
  ext u
  rw [linOf_apply]
  simp [Pi.single_apply]

/-- The dual number is the value and the derivative of `f` at `q`. -/
structure Jet.Is {n : ℕ} (j : Jet n) (f : (Fin n → ℝ) → ℝ) (q : Fin n → ℝ) : Prop where
  val : j.a = f q
  der : HasFDerivAt f (linOf j.v) q

namespace Jet.Is

variable {n : ℕ} {f g : (Fin n → ℝ) → ℝ} {q : Fin n → ℝ} {j k : Jet n}

theorem const (c : ℝ) : (Jet.const c : Jet n).Is (fun _ => c) q :=
  ⟨rfl, by rw [show (Jet.const c : Jet n).v = 0 from rfl, linOf_zero]; exact hasFDerivAt_const c q⟩

theorem var (i : Fin n) : (Jet.var (q i) i : Jet n).Is (fun q => q i) q :=
  ⟨rfl, by
    rw [show (Jet.var (q i) i : Jet n).v = Pi.single i 1 from rfl, linOf_single]
    exact hasFDerivAt_apply i q⟩

theorem add (hj : j.Is f q) (hk : k.Is g q) : (j + k).Is (fun q => f q + g q) q :=
  ⟨by rw [show (j + k).a = j.a + k.a from rfl, hj.val, hk.val], by
    rw [show (j + k).v = j.v + k.v from rfl, linOf_add]; exact hj.der.add hk.der⟩

theorem sub (hj : j.Is f q) (hk : k.Is g q) : (j - k).Is (fun q => f q - g q) q :=
  ⟨by rw [show (j - k).a = j.a - k.a from rfl, hj.val, hk.val], by
    rw [show (j - k).v = j.v - k.v from rfl, linOf_sub]; exact hj.der.sub hk.der⟩

theorem neg (hj : j.Is f q) : (-j).Is (fun q => -f q) q :=
  ⟨by rw [show (-j).a = -j.a from rfl, hj.val], by
    rw [show (-j).v = -j.v from rfl, linOf_neg]; exact hj.der.neg⟩

theorem mul (hj : j.Is f q) (hk : k.Is g q) : (j * k).Is (fun q => f q * g q) q :=
  ⟨by rw [show (j * k).a = j.a * k.a from rfl, hj.val, hk.val], by
    rw [show (j * k).v = j.a • k.v + k.a • j.v from rfl, linOf_add, linOf_smul, linOf_smul, hj.val, hk.val]
    exact hj.der.mul hk.der⟩

theorem cos (hj : j.Is f q) : (Jet.cos j).Is (fun q => Real.cos (f q)) q :=
  ⟨by rw [show (Jet.cos j).a = Real.cos j.a from rfl, hj.val], by
    rw [show (Jet.cos j).v = (-Real.sin j.a) • j.v from rfl, linOf_smul, hj.val]; exact hj.der.cos⟩

theorem sin (hj : j.Is f q) : (Jet.sin j).Is (fun q => Real.sin (f q)) q :=
  ⟨by rw [show (Jet.sin j).a = Real.sin j.a from rfl, hj.val], by
    rw [show (Jet.sin j).v = Real.cos j.a • j.v from rfl, linOf_smul, hj.val]; exact hj.der.sin⟩

theorem div (hj : j.Is f q) (hk : k.Is g q) (h0 : g q ≠ 0) : (j / k).Is (fun q => f q / g q) q := by
  have e : (fun q => f q / g q) = fun q => f q * (g q)⁻¹ := by funext q; rw [div_eq_mul_inv]
  have hi : HasFDerivAt (fun q => (g q)⁻¹) (-((g q ^ 2)⁻¹) • linOf k.v) q := (hasDerivAt_inv h0).comp_hasFDerivAt q hk.der
  refine ⟨?_, ?_⟩
  · show j.a * (1 / k.a) = f q / g q
    rw [hj.val, hk.val]
    ring
  · show HasFDerivAt _ (linOf ((1 / k.a) • (j.v - (j.a * (1 / k.a)) • k.v))) q
    rw [e, linOf_smul, linOf_sub, linOf_smul, hj.val, hk.val]
    have e2 : (1 / g q) • (linOf j.v - (f q * (1 / g q)) • linOf k.v) =
        f q • (-((g q ^ 2)⁻¹) • linOf k.v) + (g q)⁻¹ • linOf j.v := by
      ext v
      simp only [ContinuousLinearMap.add_apply, ContinuousLinearMap.sub_apply, ContinuousLinearMap.smul_apply, smul_eq_mul]
      field_simp
      ring
    rw [e2]
    exact hj.der.mul hi

end Jet.Is

/-- Away from its jumps the normalised angle has the same derivative as the angle. -/
theorem Jet.Is.normalizeAngle {n : ℕ} {f : (Fin n → ℝ) → ℝ} {q : Fin n → ℝ} {j : Jet n} (hj : j.Is f q)
    (hjump : ∀ m : ℤ, f q ≠ (2 * m + 1) * Real.pi) :
    (Jet.normalizeAngle j).Is (fun q => ceresNormalizeAngle (f q)) q := by
  have hp : (0 : ℝ) < 2 * Real.pi := by positivity
  have hfl : (Jet.floor ((j + Jet.const Real.pi) / Jet.const (2 * Real.pi)) : Jet n) =
      Jet.const ⌊(f q + Real.pi) / (2 * Real.pi)⌋ := by
    unfold Jet.floor
    have : ((j + Jet.const Real.pi) / Jet.const (2 * Real.pi) : Jet n).a =
        (j.a + Real.pi) * (1 / (2 * Real.pi)) := rfl
    rw [this, hj.val, mul_one_div]
  have hev : (fun q' => ceresNormalizeAngle (f q')) =ᶠ[nhds q]
      fun q' => f q' - 2 * Real.pi * ((⌊(f q + Real.pi) / (2 * Real.pi)⌋ : ℤ) : ℝ) := by
    have hc : ContinuousAt (fun q' => (f q' + Real.pi) / (2 * Real.pi)) q :=
      (hj.der.continuousAt.add continuousAt_const).div_const _
    have hne : ∀ m : ℤ, (f q + Real.pi) / (2 * Real.pi) ≠ m := by
      intro m hm
      apply hjump (m - 1)
      rw [div_eq_iff hp.ne'] at hm
      push_cast
      linarith
    have hlo : ((⌊(f q + Real.pi) / (2 * Real.pi)⌋ : ℤ) : ℝ) < (f q + Real.pi) / (2 * Real.pi) :=
      lt_of_le_of_ne (Int.floor_le _) (hne _).symm
    have hhi := Int.lt_floor_add_one ((f q + Real.pi) / (2 * Real.pi))
    filter_upwards [hc.eventually (isOpen_Ioo.mem_nhds ⟨hlo, hhi⟩)] with q' hq'
    unfold ceresNormalizeAngle
    have : ⌊(f q' + Real.pi) / (2 * Real.pi)⌋ = ⌊(f q + Real.pi) / (2 * Real.pi)⌋ := by
      rw [Int.floor_eq_iff]
      exact ⟨hq'.1.le, hq'.2⟩
    rw [this]
  have hform := hj.sub ((Jet.Is.const (n := n) (q := q) (2 * Real.pi)).mul
    (Jet.Is.const (n := n) (q := q) ((⌊(f q + Real.pi) / (2 * Real.pi)⌋ : ℤ) : ℝ)))
  have hres : (Jet.normalizeAngle j).Is
      (fun q' => f q' - 2 * Real.pi * ((⌊(f q + Real.pi) / (2 * Real.pi)⌋ : ℤ) : ℝ)) q := by
    unfold Jet.normalizeAngle
    simp only [hfl]
    exact hform
  exact ⟨hres.val.trans (by unfold ceresNormalizeAngle; rfl), hres.der.congr_of_eventuallyEq hev⟩

end

end Ndt
