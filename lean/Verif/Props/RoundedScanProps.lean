import Verif.Proof.RoundedScan
import Verif.Proof.Rounded
import Verif.Proof.RoundedDemo
import Verif.Props.RoundedEndsProps

/-! # Property C133: barycenters in double precision -/

namespace Ndt

noncomputable section

open Spec Rounded

/-- **C133** The barycenter computed in double precision is the pose moved to the centroid of the points, within `5e-16` of their distance for
every point. `P` bounds the coordinates of the points and `T` the position. -/
theorem c133_barycenter {rd co si : ℝ → ℝ} (hrd : RoundsToNearest rd) (hcs : Accurate co si) (pose : Pose2d) (points : List Point) {P T : ℝ}
    (hP : 1e-9 ≤ P) (hn : points.length ≤ 2 ^ 40) (hp : ∀ p ∈ points, |p.x| ≤ P ∧ |p.y| ≤ P) (hx : |pose.x| ≤ T) (hy : |pose.y| ≤ T) :
    |(Rounded.barycenter rd co si pose points).x - (Spec.barycenter pose points).x| ≤ (5e-16 * points.length + 2.5e-15) * P + 1.3e-16 * T ∧
    |(Rounded.barycenter rd co si pose points).y - (Spec.barycenter pose points).y| ≤ (5e-16 * points.length + 2.5e-15) * P + 1.3e-16 * T ∧
    (Rounded.barycenter rd co si pose points).theta = pose.theta ∧ (points = [] → Rounded.barycenter rd co si pose points = pose) := by
  have hT : 0 ≤ T := (abs_nonneg _).trans hx
  by_cases h0 : points = []
  · subst h0
    simp only [Rounded.barycenter, Spec.barycenter, List.isEmpty_nil, Bool.not_true, Bool.false_eq_true, if_false, if_true, sub_self, abs_zero,
      List.length_nil, Nat.cast_zero, mul_zero, zero_add, implies_true, and_true]
    have : 0 ≤ 2.5e-15 * P + 1.3e-16 * T := by linarith
    exact ⟨this, this⟩
  have hb : Rounded.barycenter rd co si pose points =
      { pose with x := rd (pose.x + rd ((sumTurned rd (co pose.theta) (si pose.theta) points).x / rd points.length))
                  y := rd (pose.y + rd ((sumTurned rd (co pose.theta) (si pose.theta) points).y / rd points.length)) } := by
    unfold Rounded.barycenter
    rw [if_pos (by simpa [List.isEmpty_iff] using h0)]
  have hn0 : (points.length : ℝ) ≠ 0 := by simpa using h0
  obtain ⟨c1, s1, c2, s2⟩ := lib_near hcs (a := pose.theta) (h := pose.theta) (H := 0) (by simp)
  rw [zero_add] at c1 s1
  obtain ⟨e1, e2⟩ := sumTurned_x rd (co pose.theta) (si pose.theta) points
  have two : ∀ a b : ℝ, |a| ≤ 1 → |b| ≤ 1 → ∀ p ∈ points, |a * p.x + b * p.y| ≤ 2 * P := by
    intro a b ha hb p hpp
    have h1 : |a * p.x| ≤ 1 * P := by rw [abs_mul]; exact mul_le_mul ha (hp p hpp).1 (abs_nonneg _) zero_le_one
    have h2 : |b * p.y| ≤ 1 * P := by rw [abs_mul]; exact mul_le_mul hb (hp p hpp).2 (abs_nonneg _) zero_le_one
    have := abs_add_le (a * p.x) (b * p.y)
    linarith
  refine ⟨?_, ?_, by rw [hb], fun h => absurd h h0⟩
  · have h := centre_near hrd points (fun p => rd (rd (co pose.theta * p.x) - rd (si pose.theta * p.y)))
      (fun p => Real.cos pose.theta * p.x + -Real.sin pose.theta * p.y) (x := pose.x) hP h0 hn (fun p hpp => ?_)
      (two _ _ (Real.abs_cos_le_one _) (by rw [abs_neg]; exact Real.abs_sin_le_one _)) hx
    · rw [hb, Spec.barycenter, if_neg h0]
      dsimp only
      rw [e1]
      rw [sum_lin] at h
      refine le_of_eq_of_le ?_ h
      congr 2
      simp only [move, centroid]
      field_simp
      ring
    · rw [neg_mul, ← sub_eq_add_neg]
      exact turned_sub_near hrd c2 s2 (Real.abs_cos_le_one _) (Real.abs_sin_le_one _) c1 s1 (hp p hpp).1 (hp p hpp).2
  · have h := centre_near hrd points (fun p => rd (rd (si pose.theta * p.x) + rd (co pose.theta * p.y)))
      (fun p => Real.sin pose.theta * p.x + Real.cos pose.theta * p.y) (x := pose.y) hP h0 hn (fun p hpp =>
        turned_near hrd s2 c2 (Real.abs_sin_le_one _) (Real.abs_cos_le_one _) s1 c1 (hp p hpp).1 (hp p hpp).2)
      (two _ _ (Real.abs_sin_le_one _) (Real.abs_cos_le_one _)) hy
    rw [hb, Spec.barycenter, if_neg h0]
    dsimp only
    rw [e2]
    rw [sum_lin] at h
    refine le_of_eq_of_le ?_ h
    congr 2
    simp only [move, centroid]
    field_simp
    ring

/-- **C133** A barycenter does not leave the strip its points lie in by more than rounding: `f` and `g` are the extent of the moved points in
x, and the same holds in y. -/
theorem c133_between {rd co si : ℝ → ℝ} (hrd : RoundsToNearest rd) (hcs : Accurate co si) (pose : Pose2d) (points : List Point) {P T f g : ℝ}
    (hP : 1e-9 ≤ P) (h0 : points ≠ []) (hn : points.length ≤ 2 ^ 40) (hp : ∀ p ∈ points, |p.x| ≤ P ∧ |p.y| ≤ P) (hx : |pose.x| ≤ T)
    (hy : |pose.y| ≤ T) :
    ((∀ p ∈ points, f ≤ (move pose p).x ∧ (move pose p).x ≤ g) →
      f - ((5e-16 * points.length + 2.5e-15) * P + 1.3e-16 * T) ≤ (Rounded.barycenter rd co si pose points).x ∧
      (Rounded.barycenter rd co si pose points).x ≤ g + ((5e-16 * points.length + 2.5e-15) * P + 1.3e-16 * T)) ∧
    ((∀ p ∈ points, f ≤ (move pose p).y ∧ (move pose p).y ≤ g) →
      f - ((5e-16 * points.length + 2.5e-15) * P + 1.3e-16 * T) ≤ (Rounded.barycenter rd co si pose points).y ∧
      (Rounded.barycenter rd co si pose points).y ≤ g + ((5e-16 * points.length + 2.5e-15) * P + 1.3e-16 * T)) := by
  obtain ⟨e1, e2, -, -⟩ := c133_barycenter hrd hcs pose points hP hn hp hx hy
  have hpos : (0 : ℝ) < points.length := by exact_mod_cast List.length_pos_iff.mpr h0
  have key : ∀ (a b t : ℝ), (∀ p ∈ points, f ≤ t + (a * p.x + b * p.y) ∧ t + (a * p.x + b * p.y) ≤ g) →
      f ≤ t + (a * sumX points + b * sumY points) / points.length ∧ t + (a * sumX points + b * sumY points) / points.length ≤ g := by
    intro a b t h
    rw [← sum_lin]
    have l1 : ∀ ps : List Point, (∀ p ∈ ps, f ≤ t + (a * p.x + b * p.y) ∧ t + (a * p.x + b * p.y) ≤ g) →
        (f - t) * ps.length ≤ (ps.map fun p => a * p.x + b * p.y).sum ∧ (ps.map fun p => a * p.x + b * p.y).sum ≤ (g - t) * ps.length := by
      intro ps
      induction ps with
      | nil => simp
      | cons p ps ih =>
        intro h
        have h1 := ih fun q hq => h q (List.mem_cons_of_mem _ hq)
        have h2 := h p (List.mem_cons_self ..)
        simp only [List.map_cons, List.sum_cons, List.length_cons, Nat.cast_succ]
        constructor <;> linarith [h1.1, h1.2, h2.1, h2.2]
    obtain ⟨h1, h2⟩ := l1 points h
    have h3 := (le_div_iff₀ hpos).mpr h1
    have h4 := (div_le_iff₀ hpos).mpr h2
    constructor <;> linarith
  have hbx : (Spec.barycenter pose points).x =
      pose.x + (Real.cos pose.theta * sumX points + -Real.sin pose.theta * sumY points) / points.length := by
    rw [Spec.barycenter, if_neg h0]
    simp only [move, centroid]
    field_simp
    ring
  have hby : (Spec.barycenter pose points).y =
      pose.y + (Real.sin pose.theta * sumX points + Real.cos pose.theta * sumY points) / points.length := by
    rw [Spec.barycenter, if_neg h0]
    simp only [move, centroid]
    field_simp
    ring
  constructor
  · intro h
    have := key (Real.cos pose.theta) (-Real.sin pose.theta) pose.x fun p hpp => by
      have := h p hpp
      simp only [move] at this
      constructor <;> linarith [this.1, this.2]
    rw [← hbx] at this
    obtain ⟨b1, b2⟩ := abs_le.mp e1
    constructor <;> linarith [this.1, this.2]
  · intro h
    have := key (Real.sin pose.theta) (Real.cos pose.theta) pose.y fun p hpp => by
      have := h p hpp
      simp only [move] at this
      constructor <;> linarith [this.1, this.2]
    rw [← hby] at this
    obtain ⟨b1, b2⟩ := abs_le.mp e2
    constructor <;> linarith [this.1, this.2]

/-- **C133** It can leave it by that: three returns from one spot, ten centimetres ahead of a robot at the origin, have their barycenter a little
further away. -/
theorem c133_one_spot :
    ∃ p : Point, IsDouble p.x ∧ |p.x - 0.1| ≤ 1e-16 ∧ p.y = 0 ∧
      p.x < (Rounded.barycenter rnd Demo.cosR Demo.sinR Pose2d.zero [p, p, p]).x := by
  have hz : rnd 0 = 0 := rnd_zero
  have hc : Demo.cosR 0 = 1 := by unfold Demo.cosR; rw [Real.cos_zero]; exact rnd_rounds.exact isDouble_one
  have hs : Demo.sinR 0 = 0 := by unfold Demo.sinR; rw [Real.sin_zero]; exact hz
  have h1 : rnd (3602879701896397 / 2 ^ 55) = 3602879701896397 / 2 ^ 55 := by
    rw [rnd_eval' (x := 3602879701896397 / 2 ^ 55) (k := 7205759403792794) 56 (by norm_num) (by left; constructor <;> norm_num)
      (by left; constructor <;> norm_num)]
    norm_num
  have h2 : rnd (3602879701896397 / 2 ^ 55 + 3602879701896397 / 2 ^ 55) = 3602879701896397 / 2 ^ 54 := by
    rw [rnd_eval' (x := 3602879701896397 / 2 ^ 55 + 3602879701896397 / 2 ^ 55) (k := 7205759403792794) 55 (by norm_num)
      (by left; constructor <;> norm_num) (by left; constructor <;> norm_num)]
    norm_num
  have h3 : rnd (3602879701896397 / 2 ^ 54 + 3602879701896397 / 2 ^ 55) = 1351079888211149 / 2 ^ 52 := by
    rw [rnd_eval' (x := 3602879701896397 / 2 ^ 54 + 3602879701896397 / 2 ^ 55) (k := 5404319552844596) 54 (by norm_num)
      (by left; constructor <;> norm_num) (by right; exact ⟨Or.inl (by norm_num), by decide⟩)]
    norm_num
  have h4 : rnd (1351079888211149 / 2 ^ 52 / 3) = 7205759403792795 / 2 ^ 56 := by
    rw [rnd_eval' (x := 1351079888211149 / 2 ^ 52 / 3) (k := 7205759403792795) 56 (by norm_num) (by left; constructor <;> norm_num)
      (by left; constructor <;> norm_num)]
    norm_num
  have h5 : rnd (7205759403792795 / 2 ^ 56) = 7205759403792795 / 2 ^ 56 := by rw [← h4]; exact rnd_rounds.exact (isDouble_rnd _)
  have h6 : rnd 3 = 3 := by exact_mod_cast rnd_rounds.exact (isDouble_nat (n := 3) (by norm_num))
  refine ⟨⟨3602879701896397 / 2 ^ 55, 0⟩, ?_, by norm_num, rfl, ?_⟩
  · rw [← h1]; exact isDouble_rnd _
  · simp only [Rounded.barycenter, sumTurned, Pose2d.zero, Point.zero, hc, hs, List.isEmpty_cons, Bool.not_false, if_true, List.foldl_cons,
      List.foldl_nil, one_mul, zero_mul, hz, sub_zero, zero_add, h1, h2, h3, List.length_cons, List.length_nil, Nat.cast_ofNat,
      Nat.reduceAdd, h6, h4, h5]
    norm_num

/-- Non-vacuous: two points ahead of a robot that looks along y. -/
example : |(Rounded.barycenter rnd Demo.cosR Demo.sinR ⟨1, 2, Real.pi / 2⟩ [⟨3, 0⟩, ⟨5, 0⟩]).y - 6| ≤ 1e-13 := by
  have := (c133_barycenter rnd_rounds accurate_demo ⟨1, 2, Real.pi / 2⟩ [⟨3, 0⟩, ⟨5, 0⟩] (P := 5) (T := 2) (by norm_num) (by norm_num)
    (by intro p hp; fin_cases hp <;> norm_num) (by norm_num) (by norm_num)).2.1
  have e : (Spec.barycenter ⟨1, 2, Real.pi / 2⟩ [⟨3, 0⟩, ⟨5, 0⟩]).y = 6 := by
    simp [Spec.barycenter, move, centroid, sumX, sumY]
    norm_num
  rw [e] at this
  norm_num at this ⊢
  linarith

end

end Ndt
