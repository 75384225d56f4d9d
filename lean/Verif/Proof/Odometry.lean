import Verif.Proof.Exec
import Verif.Props.MapperProps

/-! # Helper lemmas: executions in which the loop closure thread finds nothing -/

namespace Ndt

noncomputable section

open Spec Mapper

/-- The loop closure thread has found nothing in its present round. -/
def LoopQuiet : Loop → Prop
  | .asleep | .counting => True
  | .picking r | .deciding r => r.newMatches = false
  | .candidates q | .matching q _ => q.round.newMatches = false
  | .pushing .. | .optimising => False

/-- What the other threads leave alone while nothing is found. -/
def SameView (s s' : Sys) : Prop :=
  s'.heap = s.heap ∧ s'.epoch = s.epoch ∧ s'.spin = s.spin ∧ s'.prevOdom = s.prevOdom ∧ s'.prevRobot = s.prevRobot ∧
  s'.enable = s.enable ∧ s'.initialized = s.initialized

theorem SameView.refl (s : Sys) : SameView s s := ⟨rfl, rfl, rfl, rfl, rfl, rfl, rfl⟩

theorem SameView.scans {s s' : Sys} (h : SameView s s') : s'.scans = s.scans := by
  unfold Sys.scans; rw [h.1, h.2.1]

attribute [local irreducible] afterAttempt in
/-- The loop closure thread goes on finding nothing. -/
theorem quiet_step {p : Params} {s s' : Sys} {e : Event} (hq : LoopQuiet s.loop) (ha : FindsNothing s e)
    (ht : Trans p s e s') : LoopQuiet s'.loop := by
  cases ht with
  | laserIgnored msg mount odom odomEnd hi =>
    obtain ⟨r, l, g, m, e, -⟩ := setup_cases p msg mount s
    rw [e]; exact hq
  | laserScan msg mount odom odomEnd points hi hgo hinit ht =>
    obtain ⟨r, l, g, m, e, -⟩ := setup_cases p msg mount s
    rw [e]; exact hq
  | configureFlags action bag hi hl =>
    obtain ⟨en, ini, e, -⟩ := configureMapping_frame action s
    rw [e]; exact hq
  | load action bag g hi hl hg =>
    obtain ⟨en, ini, e, -⟩ := configureMapping_frame action s
    rw [e]; exact hq
  | loopWake hi he => trivial
  | loopShort hi hn => trivial
  | loopCount hi hn => exact rfl
  | loopPick visit r scan near hi hn hs hv hf => rw [hi] at hq; exact hq
  | loopLeave visit r hi hn => rw [hi] at hq; exact hq
  | loopNext q hi hr => rw [hi] at hq; exact hq
  | loopSkip q i rest cand hi hr hc hp => rw [hi] at hq; exact hq
  | loopCandidate q i rest cand hi hr hc hg => rw [hi] at hq; exact hq
  | loopAccept score correction cov q cand scan candidate hi hf hs h1 h2 => exact absurd ⟨hf, hs⟩ (ha _ _ _ rfl)
  | loopReject score correction cov q cand hi hs =>
    rw [hi] at hq
    rcases afterAttempt_cases q s with ⟨-, e⟩ | ⟨-, e⟩ <;> (rw [e]; exact hq)
  | loopPush q c hi => rw [hi] at hq; exact hq.elim
  | loopDecide r hi =>
    rw [hi] at hq
    have : ¬ shouldOptimise p r s := fun h => by
      have h1 := h.1
      have h2 : r.newMatches = false := hq
      rw [h2] at h1; cases h1
    show LoopQuiet (if _ then _ else _)
    rw [if_neg this]; trivial
  | loopOptimise ceres b solver scans hi ho => rw [hi] at hq; exact hq.elim
  | pubTf hi =>
    obtain ⟨x, e⟩ := pubTf_frame s
    rw [e]; exact hq
  | _ => exact hq

attribute [local irreducible] afterAttempt in
/-- Steps of the other threads. -/
theorem others_step {p : Params} {s s' : Sys} {e : Event} (hq : LoopQuiet s.loop) (ha : FindsNothing s e)
    (he : IsLoopWork e ∨ IsPubWork e) (ht : Trans p s e s') : SameView s s' := by
  cases ht with
  | stutter => exact .refl s
  | loopAccept score correction cov q cand scan candidate hi hf hs h1 h2 => exact absurd ⟨hf, hs⟩ (ha _ _ _ rfl)
  | loopReject score correction cov q cand hi hs =>
    obtain ⟨n, l, e⟩ := afterAttempt_frame q s
    rw [e]; exact ⟨rfl, rfl, rfl, rfl, rfl, rfl, rfl⟩
  | loopPush q c hi => rw [hi] at hq; exact hq.elim
  | loopOptimise ceres b solver scans hi ho => rw [hi] at hq; exact hq.elim
  | pubTf hi =>
    obtain ⟨x, e⟩ := pubTf_frame s
    rw [e]; exact ⟨rfl, rfl, rfl, rfl, rfl, rfl, rfl⟩
  | _ => first
    | exact ⟨rfl, rfl, rfl, rfl, rfl, rfl, rfl⟩
    | (simp [IsLoopWork, IsPubWork] at he)

theorem mapToOdom_iff (r o : Pose2d) (T : Iso) : mapToOdom r o = T ↔ toEigen r = T.mul (toEigen o) := by
  have h1 := Real.sin_sq_add_cos_sq o.theta
  unfold mapToOdom Iso.mul Iso.inverse toEigen
  generalize Real.cos o.theta = c at *
  generalize Real.sin o.theta = s at *
  generalize Real.cos r.theta = c' at *
  generalize Real.sin r.theta = s' at *
  constructor
  · intro h
    subst h
    ext <;> simp only
    · linear_combination -c' * h1
    · linear_combination s' * h1
    · linear_combination -s' * h1
    · linear_combination -c' * h1
    · ring
    · ring
  · intro h
    obtain ⟨a, b, cc, d, e, f⟩ := T
    simp only [Iso.mk.injEq] at h ⊢
    obtain ⟨e1, e2, e3, e4, e5, e6⟩ := h
    refine ⟨?_, ?_, ?_, ?_, ?_, ?_⟩
    · linear_combination c * e1 - s * e2 + a * h1
    · linear_combination s * e1 + c * e2 + b * h1
    · linear_combination c * e3 - s * e4 + cc * h1
    · linear_combination s * e3 + c * e4 + d * h1
    · linear_combination e5 + (-c * o.x - s * o.y) * e1 + (s * o.x - c * o.y) * e2 - (a * o.x + b * o.y) * h1
    · linear_combination e6 + (-c * o.x - s * o.y) * e3 + (s * o.x - c * o.y) * e4 - (cc * o.x + d * o.y) * h1

/-- A prediction keeps the transform. -/
theorem predict_rel {prevOdom prevRobot : Pose2d} {T : Iso} (h : mapToOdom prevRobot prevOdom = T) (odom : Pose2d) :
    toEigen (predict prevOdom prevRobot odom) = T.mul (toEigen odom) := by
  rw [← mapToOdom_iff, c52_prediction_keeps_transform, h]

theorem addCorrection_zero (p : Pose2d) : addCorrection Pose2d.zero p = p := by
  simp [addCorrection, Pose2d.zero]

end

end Ndt
