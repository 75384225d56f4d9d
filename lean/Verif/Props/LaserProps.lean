import Verif.Spec.Laser
import Verif.Proof.Angles
import Mathlib.Tactic.FieldSimp
import Mathlib.Tactic.NormNum
import Mathlib.Tactic.LinearCombination
import Mathlib.Analysis.Real.Pi.Bounds

/-! # Laser messages (C47–C49) -/

namespace Ndt

noncomputable section

open Spec Laser

/-! ## C47 Which beams become points -/

theorem skip_fin {limit x : ℝ} : skip (.fin limit) (.fin x) ↔ limit < x := by
  unfold skip
  simp [Fl.isNan]

theorem not_valid_skip {limit : ℝ} {r : Fl} (hn : r ≠ .ninf) : skip (.fin limit) r ↔ ¬ Valid limit r := by
  cases r with
  | nan => simp [skip, Fl.isNan, Valid]
  | pinf =>
    have : skip (.fin limit) .pinf := Or.inr trivial
    simp [this, Valid]
  | ninf => exact absurd rfl hn
  | fin x => rw [skip_fin]; simp [Valid]

/-- One beam of the specification. -/
def validBeam (limit : ℝ) (ri : Fl × ℕ) : Option (ℕ × ℝ) := match ri.1 with
  | .fin x => if x ≤ limit then some (ri.2, x) else none
  | _ => none

theorem validBeams_eq (limit : ℝ) (ranges : List Fl) : validBeams limit ranges = ranges.zipIdx.filterMap (validBeam limit) := rfl

theorem validBeam_skip {limit : ℝ} {r : Fl} {i : ℕ} (hn : r ≠ .ninf) (h : skip (.fin limit) r) :
    validBeam limit (r, i) = none := by
  cases r with
  | nan => rfl
  | pinf => rfl
  | ninf => rfl
  | fin x =>
    rw [skip_fin] at h
    unfold validBeam
    simp only
    rw [if_neg (by linarith)]

theorem validBeam_keep {limit : ℝ} {r : Fl} {i : ℕ} (hn : r ≠ .ninf) (h : ¬ skip (.fin limit) r) :
    ∃ x, r = .fin x ∧ validBeam limit (r, i) = some (i, x) := by
  rw [not_valid_skip hn, not_not] at h
  obtain ⟨x, hx, rfl⟩ := h
  exact ⟨x, rfl, if_pos hx⟩

theorem forwardLoop_eq (msg : LaserMsg) (limit : ℝ) (lt t : Pose2d) (rs : List Fl) : ∀ i, (∀ r ∈ rs, r ≠ .ninf) →
    forwardLoop msg (.fin limit) lt t i rs =
      ((rs.zipIdx i).filterMap (validBeam limit)).map fun b => forwardPoint msg lt t b.1 (.fin b.2) := by
  induction rs with
  | nil => intro i _; rfl
  | cons r rs ih =>
    intro i hn
    have hr := hn r (by simp)
    have ih' := ih (i + 1) fun q hq => hn q (by simp [hq])
    unfold forwardLoop
    rw [List.zipIdx_cons, List.filterMap_cons]
    by_cases h : skip (.fin limit) r
    · rw [if_pos h, validBeam_skip hr h]
      exact ih'
    · rw [if_neg h]
      obtain ⟨x, rfl, e⟩ := validBeam_keep (i := i) hr h
      rw [e, ih']
      rfl

/-- C47 (partial: the normal mounting, and no range of minus infinity): exactly the beams with a number not above the limit
become points, in the order of the beams. -/
theorem c47_forward_beams_partial (msg : LaserMsg) (limit : ℝ) (lt a b : Pose2d) (hn : ∀ r ∈ msg.ranges, r ≠ .ninf) :
    points msg (.fin limit) false lt a b = .ok ((validBeams limit msg.ranges).map fun q =>
      forwardPoint msg lt (translation a b) q.1 (.fin q.2)) := by
  unfold points
  simp only [Bool.false_eq_true, ↓reduceIte]
  rw [forwardLoop_eq _ _ _ _ _ _ hn]
  rfl

theorem invertedLoop_eq (msg : LaserMsg) (limit : ℝ) (lt t : Pose2d) (hn : ∀ r ∈ msg.ranges, r ≠ .ninf) (n : ℕ) :
    n < msg.ranges.length → invertedLoop msg (.fin limit) lt t n =
      .ok ((((validBeams limit (msg.ranges.take (n + 1))).filter fun b => 0 < b.1).reverse).map fun b =>
        invertedPoint msg lt t b.1 (.fin b.2)) := by
  induction n with
  | zero =>
    intro h
    have : (validBeams limit (msg.ranges.take 1)).filter (fun b => decide (0 < b.1)) = [] := by
      obtain ⟨r, rs, e⟩ : ∃ r rs, msg.ranges = r :: rs := by
        cases hr : msg.ranges with
        | nil => rw [hr] at h; cases h
        | cons r rs => exact ⟨r, rs, rfl⟩
      rw [e, validBeams_eq]
      simp only [List.take_succ_cons, List.take_zero, List.zipIdx_cons, List.zipIdx_nil, List.filterMap_cons, List.filterMap_nil]
      cases hb : validBeam limit (r, 0) with
      | none => rfl
      | some b =>
        have : b.1 = 0 := by
          unfold validBeam at hb
          simp only at hb
          split at hb
          · split at hb
            · cases hb; rfl
            · cases hb
          · cases hb
        simp [this]
    rw [zero_add, this]
    rfl
  | succ n ih =>
    intro h
    have ih' := ih (by omega)
    have hr : msg.ranges[n + 1]? = some msg.ranges[n + 1] := List.getElem?_eq_getElem h
    have htake : msg.ranges.take (n + 1 + 1) = msg.ranges.take (n + 1) ++ [msg.ranges[n + 1]] := by
      rw [List.take_succ_eq_append_getElem h]
    have hsplit : validBeams limit (msg.ranges.take (n + 1 + 1)) = validBeams limit (msg.ranges.take (n + 1)) ++
        (validBeam limit (msg.ranges[n + 1], n + 1)).toList := by
      rw [htake, validBeams_eq, validBeams_eq, List.zipIdx_append, List.filterMap_append]
      congr 1
      rw [List.length_take, min_eq_left (by omega), List.zipIdx_singleton, List.filterMap_cons, zero_add]
      cases validBeam limit (msg.ranges[n + 1], n + 1) <;> rfl
    unfold invertedLoop
    rw [hr]
    simp only
    rw [ih', Res.ok_bind, hsplit]
    have hnin : msg.ranges[n + 1] ≠ .ninf := hn _ (List.getElem_mem h)
    by_cases hs : skip (.fin limit) msg.ranges[n + 1]
    · rw [if_pos hs, validBeam_skip hnin hs]
      simp
    · rw [if_neg hs]
      obtain ⟨x, ex, e⟩ := validBeam_keep (i := n + 1) hnin hs
      rw [e, ex]
      simp

/-- C47 (partial): with an inverted mounting the points are those of the valid beams other than the first, in reverse
order. -/
theorem c47_inverted_beams_partial (msg : LaserMsg) (limit : ℝ) (lt a b : Pose2d) (hn : ∀ r ∈ msg.ranges, r ≠ .ninf)
    (h0 : msg.ranges ≠ []) :
    points msg (.fin limit) true lt a b = .ok ((((validBeams limit msg.ranges).filter fun q => 0 < q.1).reverse).map fun q =>
      invertedPoint msg lt (translation a b) q.1 (.fin q.2)) := by
  have hl : 0 < msg.ranges.length := List.length_pos_iff.mpr h0
  unfold points
  simp only [↓reduceIte]
  rw [if_neg (by omega), invertedLoop_eq _ _ _ _ hn _ (by omega), Nat.sub_add_cancel (by omega), List.take_length]

/-- C47 is violated: with an inverted mounting the first beam is dropped. -/
theorem c47_inverted_first_beam_dropped (a b lt : Pose2d) :
    points ⟨0, 1, .fin 10, [.fin 1]⟩ (.fin 10) true lt a b = .ok [] ∧ validBeams 10 [.fin 1] = [(0, 1)] := by
  constructor
  · rw [c47_inverted_beams_partial _ _ _ _ _ (by simp) (by simp)]
    simp [validBeams]
  · simp [validBeams]

/-- C47 is violated: an empty message from an inverted laser is read out of bounds. -/
theorem c47_inverted_empty_message_out_of_bounds (lt a b : Pose2d) (limit : Fl) :
    points ⟨0, 1, .fin 10, []⟩ limit true lt a b = .error .outOfBounds := by
  unfold points
  simp only [↓reduceIte, List.length_nil]
  rw [show (2 ^ 64 - 1 : ℕ) = (2 ^ 64 - 2) + 1 by norm_num]
  unfold invertedLoop
  simp

/-- C47 is violated: a beam of minus infinity (REP 117: too close to measure) becomes a point. -/
theorem c47_minus_infinity_becomes_a_point (lt : Pose2d) :
    ∃ p, points ⟨0, 1, .fin 10, [.ninf]⟩ (.fin 10) false lt lt lt = .ok [p] ∧ ¬ Valid 10 .ninf := by
  have hs : ¬ skip (.fin 10) .ninf := by
    unfold skip
    rintro (h | h)
    · exact h
    · exact h
  refine ⟨forwardPoint ⟨0, 1, .fin 10, [.ninf]⟩ lt (translation lt lt) 0 .ninf, ?_, ?_⟩
  · unfold points forwardLoop
    simp only [Bool.false_eq_true, ↓reduceIte]
    rw [if_neg hs]
    rfl
  · rintro ⟨x, _, h⟩
    cases h

/-- The limit is taken from the first message if it is negative, and kept if not. -/
theorem c47_range_limit (limit m : ℝ) (msg : LaserMsg) (hm : msg.rangeMax = .fin m) :
    latchRangeMax (.fin limit) msg = .fin (if limit < 0 then m else limit) := by
  unfold latchRangeMax
  rw [hm]
  by_cases h : limit < 0
  · rw [if_pos (show (Fl.fin limit < .fin 0) from h), if_pos h]
  · rw [if_neg (show ¬ (Fl.fin limit < .fin 0) from h), if_neg h]

/-- Example: NaN, too long and usable beams. -/
example : validBeams 10 [.nan, .fin 3, .pinf, .fin 11, .fin 10] = [(1, 3), (4, 10)] := by
  have h1 : (3 : ℝ) ≤ 10 := by norm_num
  have h2 : ¬ (11 : ℝ) ≤ 10 := by norm_num
  simp [validBeams_eq, List.zipIdx_cons, List.filterMap_cons, validBeam, h1, h2]

/-! ## C48 Projection -/

theorem project_fin (lt : Pose2d) (angle r : ℝ) : IsPoint (project lt angle (.fin r)) (move lt (polar angle r)) := by
  unfold IsPoint project move polar
  simp only [Fl.fin_mul, Fl.fin_sub, Fl.fin_add]
  congr 2 <;> ring

theorem shift_fin (m : Pose2d) {f : FPoint} {p : Point} (h : IsPoint f p) : IsPoint (shift m f) (move m p) := by
  unfold IsPoint at *
  subst h
  unfold shift move
  simp only [Fl.fin_mul, Fl.fin_sub, Fl.fin_add]
  congr 2 <;> ring

/-- C48: without motion a beam becomes the polar point moved by the mounting. -/
theorem c48_projection_at_rest (msg : LaserMsg) (lt a : Pose2d) (i : ℕ) (r : ℝ) :
    IsPoint (forwardPoint msg lt (translation a a) i (.fin r))
      (move lt (polar (msg.angleMin + i * msg.angleIncrement) r)) := by
  have := shift_fin ⟨0, 0, 0⟩ (project_fin lt (msg.angleMin + i * msg.angleIncrement) r)
  unfold forwardPoint translation perMeas
  simp only [sub_self, zero_div, zero_mul]
  convert this using 1
  unfold move
  simp

/-- C48: the same for an inverted laser, mirrored. -/
theorem c48_projection_at_rest_inverted (msg : LaserMsg) (lt a : Pose2d) (i : ℕ) (r : ℝ) :
    IsPoint (invertedPoint msg lt (translation a a) i (.fin r))
      (move lt (polar (-(msg.angleMin + i * msg.angleIncrement)) r)) := by
  have := shift_fin ⟨0, 0, 0⟩ (project_fin lt (-(msg.angleMin + i * msg.angleIncrement)) r)
  unfold invertedPoint translation perMeas
  simp only [sub_self, zero_div, zero_mul]
  convert this using 1
  unfold move
  simp

/-- C48: the point is as far from the laser as was measured. -/
theorem c48_distance_from_laser (lt : Pose2d) (angle r : ℝ) :
    Spec.dist (move lt (polar angle r)) ⟨lt.x, lt.y⟩ = |r| := by
  unfold Spec.dist move polar
  rw [← Real.sqrt_sq_eq_abs]
  congr 1
  have h1 := Real.sin_sq_add_cos_sq lt.theta
  have h2 := Real.sin_sq_add_cos_sq angle
  simp only
  linear_combination r ^ 2 * h2 + r ^ 2 * (Real.sin angle ^ 2 + Real.cos angle ^ 2) * h1 - 0 * h2

/-! ## C49 Motion compensation -/

/-- The point of a beam before compensation. -/
def rawPoint (msg : LaserMsg) (lt : Pose2d) (i : ℕ) (r : ℝ) : Point :=
  move lt (polar (msg.angleMin + i * msg.angleIncrement) r)

theorem forwardPoint_fin (msg : LaserMsg) (lt a b : Pose2d) (i : ℕ) (r : ℝ) (hn : msg.ranges ≠ []) :
    IsPoint (forwardPoint msg lt (translation a b) i (.fin r))
      (move ⟨(i / msg.ranges.length : ℝ) * (b.x - a.x), (i / msg.ranges.length : ℝ) * (b.y - a.y),
        (i / msg.ranges.length : ℝ) * (b.theta - a.theta)⟩ (rawPoint msg lt i r)) := by
  have := shift_fin ⟨(i / msg.ranges.length : ℝ) * (b.x - a.x), (i / msg.ranges.length : ℝ) * (b.y - a.y),
        (i / msg.ranges.length : ℝ) * (b.theta - a.theta)⟩
    (project_fin lt (msg.angleMin + i * msg.angleIncrement) r)
  have hpos : (msg.ranges.length : ℝ) ≠ 0 := by
    simpa using hn
  unfold forwardPoint translation perMeas rawPoint
  simp only
  have e : ∀ x : ℝ, x / msg.ranges.length * i = (i / msg.ranges.length : ℝ) * x := by
    intro x; field_simp
  rw [e, e, e]
  exact this

/-- The law of the compensation: the heading change is right if the difference of the headings was not wrapped; the
translation is applied as it is in the odometry frame instead of being turned into the frame of the robot. -/
theorem c49_compensation_law (msg : LaserMsg) (lt a b : Pose2d) (i : ℕ) (r : ℝ) (hn : msg.ranges ≠ [])
    (hw : -Real.pi < b.theta - a.theta ∧ b.theta - a.theta ≤ Real.pi) :
    ∃ p, IsPoint (forwardPoint msg lt (translation a b) i (.fin r)) p ∧
      move ⟨0, 0, a.theta⟩ ⟨p.x - (i / msg.ranges.length : ℝ) * (b.x - a.x), p.y - (i / msg.ranges.length : ℝ) * (b.y - a.y)⟩ =
        ⟨(move (between a b (i / msg.ranges.length)) (rawPoint msg lt i r)).x - a.x - (i / msg.ranges.length : ℝ) * (b.x - a.x),
         (move (between a b (i / msg.ranges.length)) (rawPoint msg lt i r)).y - a.y - (i / msg.ranges.length : ℝ) * (b.y - a.y)⟩ := by
  refine ⟨_, forwardPoint_fin msg lt a b i r hn, ?_⟩
  unfold between shortestAngularDistance
  rw [normalizeAngle_of_mem hw]
  unfold move
  simp only [Real.cos_add, Real.sin_add]
  ext <;> simp only <;> ring

/-- C49 (partial: the heading in the odometry frame is zero up to full turns, or the robot turned on the spot; the headings
were not wrapped; the share of the movement of beam `i` of `n` is taken to be `i/n`): the compensated point is
the one seen from the robot at the start of the scan. -/
theorem c49_compensation_partial (msg : LaserMsg) (lt a b : Pose2d) (i : ℕ) (r : ℝ) (hn : msg.ranges ≠ [])
    (hw : -Real.pi < b.theta - a.theta ∧ b.theta - a.theta ≤ Real.pi)
    (hd : Real.cos a.theta = 1 ∨ (b.x = a.x ∧ b.y = a.y)) :
    ∃ p, IsPoint (forwardPoint msg lt (translation a b) i (.fin r)) p ∧
      move a p = move (between a b (i / msg.ranges.length)) (rawPoint msg lt i r) := by
  obtain ⟨p, hp, e⟩ := c49_compensation_law msg lt a b i r hn hw
  refine ⟨p, hp, ?_⟩
  have e1 := congrArg Point.x e
  have e2 := congrArg Point.y e
  unfold move at e1 e2
  simp only at e1 e2
  rcases hd with hc | ⟨hx, hy⟩
  · have hs : Real.sin a.theta = 0 := by
      have := Real.sin_sq_add_cos_sq a.theta
      rw [hc] at this
      nlinarith
    rw [hc, hs] at e1 e2
    unfold move
    simp only [hc, hs]
    ext
    · simp only; linarith
    · simp only; linarith
  · rw [hx, hy] at e1 e2
    unfold move
    ext
    · simp only; linarith
    · simp only; linarith

/-- C49 is violated when driving at a heading: robot at heading pi/2 in the odometry frame, driving one metre ahead during
the scan (along y); the second of two beams, of zero length, is put half a metre to the left instead of ahead. -/
theorem c49_heading_ignored :
    IsPoint (forwardPoint ⟨0, 0, .fin 10, [.fin 0, .fin 0]⟩ ⟨0, 0, 0⟩
      (translation ⟨0, 0, Real.pi / 2⟩ ⟨0, 1, Real.pi / 2⟩) 1 (.fin 0)) ⟨0, 1 / 2⟩ ∧
    move ⟨0, 0, Real.pi / 2⟩ ⟨1 / 2, 0⟩ =
      move (between ⟨0, 0, Real.pi / 2⟩ ⟨0, 1, Real.pi / 2⟩ (1 / 2)) ⟨0, 0⟩ := by
  constructor
  · have := forwardPoint_fin ⟨0, 0, .fin 10, [.fin 0, .fin 0]⟩ ⟨0, 0, 0⟩ ⟨0, 0, Real.pi / 2⟩ ⟨0, 1, Real.pi / 2⟩ 1 0 (by simp)
    convert this using 1
    unfold rawPoint move polar
    norm_num
  · unfold move between
    norm_num

/-- C49 is violated when turning across ±pi: turning from 3 to -3 (0.28 rad to the left) during the scan is compensated as a
turn of 6 rad to the right: a beam ahead, half way through, is rotated by -3 rad. -/
theorem c49_wrapped_heading :
    IsPoint (forwardPoint ⟨0, 0, .fin 10, [.fin 1, .fin 1]⟩ ⟨0, 0, 0⟩
      (translation ⟨0, 0, 3⟩ ⟨0, 0, -3⟩) 1 (.fin 1)) ⟨Real.cos 3, -Real.sin 3⟩ ∧
    shortestAngularDistance 3 (-3) = 2 * Real.pi - 6 := by
  constructor
  · have := forwardPoint_fin ⟨0, 0, .fin 10, [.fin 1, .fin 1]⟩ ⟨0, 0, 0⟩ ⟨0, 0, 3⟩ ⟨0, 0, -3⟩ 1 1 (by simp)
    convert this using 1
    unfold rawPoint move polar
    norm_num
  · unfold shortestAngularDistance
    have h3 := Real.pi_gt_three
    have h4 : Real.pi < 3.15 := Real.pi_lt_d2
    rw [normalizeAngle_eq_of_congr (a := -3 - 3) (b := 2 * Real.pi - 6) (-1) (by push_cast; ring)]
    exact normalizeAngle_of_mem ⟨by linarith, by linarith⟩

/-- The end pose is looked up for the time of the last beam, but the movement is divided by the number of beams: the
last of `n` beams gets only the share `(n-1)/n`. -/
theorem c49_last_beam_share (n : ℕ) (hn : 0 < n) (t : Pose2d) :
    (perMeas t n).x * ((n - 1 : ℕ) : ℝ) = t.x * (1 - 1 / n) := by
  have : (n : ℝ) ≠ 0 := by positivity
  unfold perMeas
  rw [Nat.cast_sub (by omega)]
  push_cast
  field_simp

/-- With an inverted mounting the time runs backwards: beam `i` gets the share `(n-i)/n` of the movement, although beams
are measured in the order of the message. The law for the position of the sensor itself (a beam of zero length). -/
theorem c49_inverted_time_reversed (msg : LaserMsg) (a b : Pose2d) (i : ℕ) (hn : msg.ranges ≠ []) :
    IsPoint (invertedPoint msg ⟨0, 0, 0⟩ (translation a b) i (.fin 0))
      ⟨(1 - i / msg.ranges.length) * (b.x - a.x), (1 - i / msg.ranges.length) * (b.y - a.y)⟩ := by
  have hpos : (msg.ranges.length : ℝ) ≠ 0 := by simpa using hn
  unfold invertedPoint translation perMeas IsPoint shift project
  simp only [Fl.fin_mul, Fl.fin_sub, Fl.fin_add]
  congr 2 <;> · simp; field_simp

/-- Example: the hypotheses of `c49_compensation_partial`. -/
example : (-Real.pi < (1 / 10 : ℝ) - 0 ∧ (1 / 10 : ℝ) - 0 ≤ Real.pi) ∧ Real.cos 0 = 1 := by
  have := Real.pi_gt_three
  refine ⟨⟨by linarith, by linarith⟩, Real.cos_zero⟩

end

end Ndt
