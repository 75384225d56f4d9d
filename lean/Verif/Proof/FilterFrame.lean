import Verif.Spec.FilterFrame
import Verif.Props.FilterProps

/-! # The particle filter seen from another frame: lemmas -/

namespace Ndt

noncomputable section

open Spec Real

namespace FilterFrame

theorem wmean_forall₂ {R : Pose2d → Pose2d → Prop} {ps qs : List Pose2d} (h : List.Forall₂ R ps qs) (v : List ℝ)
    {a b : Pose2d → ℝ} (hab : ∀ p q, R p q → b q = a p) : wmean v qs b = wmean v ps a := by
  unfold wmean
  induction h generalizing v with
  | nil => simp
  | cons h1 _ ih =>
    cases v with
    | nil => rfl
    | cons w v => simp only [List.zip_cons_cons, List.map_cons, List.sum_cons, hab _ _ h1, ih v]

theorem cos_same {a b : ℝ} (h : ∃ n : ℤ, a = b + n * (2 * π)) : cos a = cos b := by
  obtain ⟨n, rfl⟩ := h; exact cos_add_int_mul_two_pi b n

theorem sin_same {a b : ℝ} (h : ∃ n : ℤ, a = b + n * (2 * π)) : sin a = sin b := by
  obtain ⟨n, rfl⟩ := h; exact sin_add_int_mul_two_pi b n

/-- Moving particles with the same draws keeps them the same. -/
theorem sampleOne_seen (m : MotionModel) (nrm : MotionModel.Draws) (k : ℕ) (dx dy dth : ℝ) {T p q : Pose2d}
    (h : SamePose q (compose T p)) :
    SamePose (m.sampleOne nrm k dx dy dth q) (compose T (m.sampleOne nrm k dx dy dth p)) := by
  obtain ⟨hx, hy, n, ht⟩ := h
  unfold MotionModel.sampleOne
  simp only [compose] at hx hy ht ⊢
  generalize nrm k _ _ = r1
  generalize nrm (k + 1) _ _ = t
  generalize nrm (k + 2) _ _ = r2
  have e : q.theta + r1 = (T.theta + (p.theta + r1)) + n * (2 * π) := by rw [ht]; ring
  refine ⟨?_, ?_, ?_⟩
  · show q.x + t * cos (q.theta + r1) = _
    rw [e, cos_add_int_mul_two_pi, cos_add T.theta, hx]; ring
  · show q.y + t * sin (q.theta + r1) = _
    rw [e, sin_add_int_mul_two_pi, sin_add T.theta, hy]; ring
  · obtain ⟨a, ha⟩ := normalizeAngle_congr (q.theta + r1 + r2)
    obtain ⟨b, hb⟩ := normalizeAngle_congr (p.theta + r1 + r2)
    refine ⟨a - b + n, ?_⟩
    show normalizeAngle (q.theta + r1 + r2) = T.theta + normalizeAngle (p.theta + r1 + r2) + _
    rw [ha, hb, e]; push_cast; ring

theorem forall₂_mapIdx {R : Pose2d → Pose2d → Prop} {ps qs : List Pose2d} (h : List.Forall₂ R ps qs) :
    ∀ {a b : ℕ → Pose2d → Pose2d} (_ : ∀ i p q, R p q → R (a i p) (b i q)), List.Forall₂ R (ps.mapIdx a) (qs.mapIdx b) := by
  induction h with
  | nil => intros; exact .nil
  | cons h1 _ ih =>
    intro a b hab
    rw [List.mapIdx_cons, List.mapIdx_cons]
    exact .cons (hab _ _ _ h1) (ih fun i p q hr => hab (i + 1) p q hr)

theorem mapM_forall₂ {R : Pose2d → Pose2d → Prop} {ps qs : List Pose2d} (h : List.Forall₂ R ps qs)
    {a b : Pose2d → Res Fl} (hab : ∀ p q, R p q → b q = a p) : qs.mapM b = ps.mapM a := by
  induction h with
  | nil => rfl
  | cons h1 _ ih => rw [List.mapM_cons, List.mapM_cons, hab _ _ h1, ih]

/-- Both filters compute their statistics. -/
theorem updateStatistics_seen {T : Pose2d} {f g f' : Filter} (h : SeenFrom T f g) (hf : f.updateStatistics = .ok f') :
    ∃ g', g.updateStatistics = .ok g' ∧ SeenFrom T f' g' := by
  obtain ⟨e1, -, -, e2, e3, e4, -⟩ := Filter.updateStatistics_ok hf
  have hl := h.particles.length_eq
  obtain ⟨g', hg'⟩ := Filter.updateStatistics_total (f := g) (by rw [← hl, h.weights]; exact e4)
  obtain ⟨d1, -, -, d2, d3, -, -⟩ := Filter.updateStatistics_ok hg'
  exact ⟨g', hg', by rw [d1, e1, h.motion], by rw [d3, e3, h.weights], by rw [d2, e2]; exact h.particles⟩

theorem step_seen {T : Pose2d} {f g f' : Filter} {a b : Filter.Op} (h : SeenFrom T f g) (hab : SameOp T a b)
    (hf : f.step a = .ok f') : ∃ g', g.step b = .ok g' ∧ SeenFrom T f' g' := by
  cases hab with
  | update nrm dx dy dth =>
    refine updateStatistics_seen (f := { f with particles := f.motion.sample nrm dx dy dth f.particles })
      (g := { g with particles := g.motion.sample nrm dx dy dth g.particles }) ⟨h.motion, h.weights, ?_⟩ hf
    show List.Forall₂ _ (f.motion.sample nrm dx dy dth f.particles) (g.motion.sample nrm dx dy dth g.particles)
    rw [h.motion]
    exact forall₂_mapIdx h.particles fun i p q hr => sampleOne_seen _ _ _ _ _ _ hr
  | measure sa sb hs =>
    simp only [Filter.step, Filter.measure] at hf ⊢
    rw [mapM_forall₂ h.particles hs]
    cases hm : f.particles.mapM sa with
    | error e => rw [hm] at hf; cases hf
    | ok ws =>
      rw [hm] at hf
      simp only [Res.ok_bind] at hf ⊢
      rw [h.weights, ← h.particles.length_eq]
      split at hf
      · cases hf
      · rename_i hc
        rw [if_neg hc]
        exact updateStatistics_seen (f := { f with weights := ws ++ f.weights.drop f.particles.length })
          (g := { g with weights := ws ++ f.weights.drop f.particles.length }) ⟨h.motion, rfl, h.particles⟩ hf

/-- The weighted mean of a sum of three. -/
theorem wmean_three {v : List ℝ} {ps : List Pose2d} (hl : v.length = ps.length) (hs : v.sum = 1) (f g : Pose2d → ℝ)
    (a b c : ℝ) : wmean v ps (fun p => a * f p + b * g p + c) = a * wmean v ps f + b * wmean v ps g + c := by
  have e : (fun p => a * f p + b * g p + c) = fun p => 1 * (a * f p + b * g p) + 1 * c := by funext p; ring
  rw [e, wmean_linear v ps (fun p => a * f p + b * g p) (fun _ => c), wmean_linear, wmean_const v ps hl, hs]
  ring

/-- The direction of the weighted sum of headings that lie in an arc of less than half a turn is in that arc. -/
theorem mean_in_arc {v : List ℝ} {ps : List Pose2d} (hl : v.length = ps.length) (hv : ∀ x ∈ v, 0 ≤ x) (hs : v.sum = 1)
    {h phi : ℝ} (hh : h < π / 2) (hf : FacingWithin h phi ps) {r t : ℝ} (hr : 0 ≤ r)
    (hc : r * cos t = wmean v ps (fun p => cos p.theta)) (hsn : r * sin t = wmean v ps (fun p => sin p.theta)) :
    angularDistance phi t ≤ h := by
  have hin : ∀ p ∈ ps, ∃ d, |d| ≤ h ∧ cos (p.theta - phi) = cos d ∧ sin (p.theta - phi) = sin d := fun p hp =>
    ⟨normalizeAngle (p.theta - phi), hf p hp, (cos_normalizeAngle _).symm, (sin_normalizeAngle _).symm⟩
  have h0 : 0 ≤ h := by
    cases ps with
    | nil =>
      have : v = [] := List.eq_nil_of_length_eq_zero hl
      rw [this] at hs; simp at hs
    | cons p ps => exact (abs_nonneg _).trans (hf p (List.mem_cons_self))
  have key : ∀ a b : ℝ, wmean v ps (fun p => a * cos p.theta + b * sin p.theta) = r * (a * cos t + b * sin t) := by
    intro a b; rw [wmean_linear, ← hc, ← hsn]; ring
  have kc : cos h ≤ r * cos (t - phi) := by
    have e := key (cos phi) (sin phi)
    have : wmean v ps (fun _ => cos h) ≤ wmean v ps (fun p => cos phi * cos p.theta + sin phi * sin p.theta) := by
      refine wmean_mono v ps hv _ _ fun p hp => ?_
      obtain ⟨d, hd, hcd, -⟩ := hin p hp
      rw [cos_sub] at hcd
      have : cos h ≤ cos d := by
        rw [← cos_abs d]
        exact cos_le_cos_of_nonneg_of_le_pi (abs_nonneg _) (by linarith [pi_pos]) hd
      linarith
    rw [wmean_const v ps hl, hs, e] at this
    rw [cos_sub]; linarith
  have k1 : r * sin (t - phi - h) ≤ 0 := by
    have e := key (-sin (phi + h)) (cos (phi + h))
    have : wmean v ps (fun p => -sin (phi + h) * cos p.theta + cos (phi + h) * sin p.theta) ≤ wmean v ps (fun _ => 0) := by
      refine wmean_mono v ps hv _ _ fun p hp => ?_
      obtain ⟨d, hd, hcd, hsd⟩ := hin p hp
      rw [abs_le] at hd
      have e2 : -sin (phi + h) * cos p.theta + cos (phi + h) * sin p.theta = sin (d - h) := by
        rw [sin_sub, ← hcd, ← hsd, sin_sub, cos_sub, sin_add, cos_add]; ring
      rw [e2]
      exact sin_nonpos_of_nonpos_of_neg_pi_le (by linarith) (by linarith)
    rw [wmean_const v ps hl, e] at this
    have e3 : sin (t - phi - h) = -sin (phi + h) * cos t + cos (phi + h) * sin t := by
      rw [sub_sub, sin_sub]; ring
    rw [e3]; linarith
  have k2 : 0 ≤ r * sin (t - phi + h) := by
    have e := key (-sin (phi - h)) (cos (phi - h))
    have : wmean v ps (fun _ => 0) ≤ wmean v ps (fun p => -sin (phi - h) * cos p.theta + cos (phi - h) * sin p.theta) := by
      refine wmean_mono v ps hv _ _ fun p hp => ?_
      obtain ⟨d, hd, hcd, hsd⟩ := hin p hp
      rw [abs_le] at hd
      have e2 : -sin (phi - h) * cos p.theta + cos (phi - h) * sin p.theta = sin (d + h) := by
        rw [sin_add, ← hcd, ← hsd, sin_sub, cos_sub, sin_sub, cos_sub]; ring
      rw [e2]
      exact sin_nonneg_of_nonneg_of_le_pi (by linarith) (by linarith)
    rw [wmean_const v ps hl, e] at this
    have e3 : sin (t - phi + h) = -sin (phi - h) * cos t + cos (phi - h) * sin t := by
      have : t - phi + h = t - (phi - h) := by ring
      rw [this, sin_sub]; ring
    rw [e3]; linarith
  have hch : 0 < cos h := cos_pos_of_mem_Ioo ⟨by linarith [pi_pos], hh⟩
  have hr0 : 0 < r := by
    rcases hr.lt_or_eq with h | h
    · exact h
    · rw [← h] at kc; linarith
  have hdm := normalizeAngle_mem (t - phi)
  have hcd : 0 < cos (normalizeAngle (t - phi)) := by
    rw [cos_normalizeAngle]
    by_contra hneg
    have := mul_nonpos_of_nonneg_of_nonpos hr (not_lt.mp hneg)
    linarith
  have s1 : sin (normalizeAngle (t - phi) - h) ≤ 0 := by
    have e : sin (normalizeAngle (t - phi) - h) = sin (t - phi - h) := by
      rw [sin_sub, sin_normalizeAngle, cos_normalizeAngle, ← sin_sub]
    rw [e]
    by_contra hneg
    linarith [mul_pos hr0 (not_le.mp hneg)]
  have s2 : 0 ≤ sin (normalizeAngle (t - phi) + h) := by
    have e : sin (normalizeAngle (t - phi) + h) = sin (t - phi + h) := by
      rw [sin_add, sin_normalizeAngle, cos_normalizeAngle, ← sin_add]
    rw [e]
    by_contra hneg
    linarith [mul_neg_of_pos_of_neg hr0 (not_le.mp hneg)]
  unfold angularDistance
  set d := normalizeAngle (t - phi) with hd
  have hb : -(π / 2) < d ∧ d < π / 2 := by
    constructor
    · by_contra hneg
      have := cos_nonpos_of_pi_div_two_le_of_le (x := -d) (by linarith) (by linarith)
      rw [cos_neg] at this; linarith
    · by_contra hneg
      have := cos_nonpos_of_pi_div_two_le_of_le (x := d) (by linarith) (by linarith)
      linarith
  rw [abs_le]
  constructor
  · by_contra hneg
    have := sin_neg_of_neg_of_neg_pi_lt (x := d + h) (by linarith) (by linarith [hb.1])
    linarith
  · by_contra hneg
    have := sin_pos_of_pos_of_lt_pi (x := d - h) (by linarith) (by linarith [hb.2])
    linarith

/-- The mean heading turns with the frame. -/
theorem mean_turned {T : Pose2d} {ps qs : List Pose2d} (h : List.Forall₂ (fun p q => SamePose q (compose T p)) ps qs)
    (v : List ℝ) (hd : ¬ NoDirection v ps) :
    ∃ n : ℤ, atan2 (wmean v qs fun p => sin p.theta) (wmean v qs fun p => cos p.theta) =
      T.theta + atan2 (wmean v ps fun p => sin p.theta) (wmean v ps fun p => cos p.theta) + n * (2 * π) := by
  have hcos : wmean v qs (fun p => cos p.theta) =
      cos T.theta * wmean v ps (fun p => cos p.theta) + -sin T.theta * wmean v ps (fun p => sin p.theta) := by
    rw [← wmean_linear]
    refine wmean_forall₂ h v fun p q hr => ?_
    rw [cos_same hr.2.2]; simp only [compose, cos_add]; ring
  have hsin : wmean v qs (fun p => sin p.theta) =
      sin T.theta * wmean v ps (fun p => cos p.theta) + cos T.theta * wmean v ps (fun p => sin p.theta) := by
    rw [← wmean_linear]
    refine wmean_forall₂ h v fun p q hr => ?_
    rw [sin_same hr.2.2]; simp only [compose, sin_add]
  rw [hcos, hsin]
  set C := wmean v ps fun p => cos p.theta with hC
  set S := wmean v ps fun p => sin p.theta with hS
  have h1 := hypot_mul_cos_atan2 C S
  have h2 := hypot_mul_sin_atan2 C S
  have hr : 0 < hypot C S := by
    rcases (hypot_nonneg C S).lt_or_eq with h | h
    · exact h
    · rw [← h] at h1 h2
      exact absurd ⟨(show C = 0 by rw [← h1]; ring), (show S = 0 by rw [← h2]; ring)⟩ hd
  set t := atan2 S C
  have e1 : cos T.theta * C + -sin T.theta * S = hypot C S * cos (T.theta + t) := by
    rw [cos_add]
    linear_combination (-cos T.theta) * h1 + sin T.theta * h2
  have e2 : sin T.theta * C + cos T.theta * S = hypot C S * sin (T.theta + t) := by
    rw [sin_add]
    linear_combination (-sin T.theta) * h1 - cos T.theta * h2
  rw [e1, e2, atan2_polar hr]
  exact normalizeAngle_congr _

end FilterFrame

end

end Ndt
