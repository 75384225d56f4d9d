import Verif.Props.RoomProps

/-! # Property C159: a displaced scan is put back where it belongs -/

namespace Ndt

open Spec

noncomputable section

/-- Two places of a scan that are on a line for two headings, not opposite ones, are the same. -/
theorem one_heading {a b h ux uy vx vy : ℝ} (hn : 0 < a ^ 2 + b ^ 2) {T D : ℝ} (hD : Real.sin D ≠ 0) {p q : Point}
    (w1 : a * (ux + Real.cos T * p.x - Real.sin T * p.y) + b * (uy + Real.sin T * p.x + Real.cos T * p.y) = h)
    (w2 : a * (ux + Real.cos T * q.x - Real.sin T * q.y) + b * (uy + Real.sin T * q.x + Real.cos T * q.y) = h)
    (e1 : a * (vx + (Real.cos T * Real.cos D - Real.sin T * Real.sin D) * p.x - (Real.sin T * Real.cos D + Real.cos T * Real.sin D) * p.y) +
      b * (vy + (Real.sin T * Real.cos D + Real.cos T * Real.sin D) * p.x + (Real.cos T * Real.cos D - Real.sin T * Real.sin D) * p.y) = h)
    (e2 : a * (vx + (Real.cos T * Real.cos D - Real.sin T * Real.sin D) * q.x - (Real.sin T * Real.cos D + Real.cos T * Real.sin D) * q.y) +
      b * (vy + (Real.sin T * Real.cos D + Real.cos T * Real.sin D) * q.x + (Real.cos T * Real.cos D - Real.sin T * Real.sin D) * q.y) = h) :
    p = q := by
  have cs := Real.sin_sq_add_cos_sq T
  have ex : ∃ x, x = p.x - q.x := ⟨_, rfl⟩
  have ey : ∃ y, y = p.y - q.y := ⟨_, rfl⟩
  obtain ⟨x, hx⟩ := ex
  obtain ⟨y, hy⟩ := ey
  have v1 : a * (x * Real.cos T - y * Real.sin T) + b * (x * Real.sin T + y * Real.cos T) = 0 := by
    rw [hx, hy]; linear_combination w1 - w2
  have v2 : b * (x * Real.cos T - y * Real.sin T) - a * (x * Real.sin T + y * Real.cos T) = 0 := by
    have : (b * (x * Real.cos T - y * Real.sin T) - a * (x * Real.sin T + y * Real.cos T)) * Real.sin D = 0 := by
      rw [hx, hy]
      linear_combination e1 - e2 - Real.cos D * (w1 - w2)
    exact (mul_eq_zero.mp this).resolve_right hD
  have kx : (a ^ 2 + b ^ 2) * (x * Real.cos T - y * Real.sin T) = 0 := by linear_combination a * v1 + b * v2
  have ky : (a ^ 2 + b ^ 2) * (x * Real.sin T + y * Real.cos T) = 0 := by linear_combination b * v1 - a * v2
  have kx := (mul_eq_zero.mp kx).resolve_left hn.ne'
  have ky := (mul_eq_zero.mp ky).resolve_left hn.ne'
  have gx : x = 0 := by linear_combination Real.cos T * kx + Real.sin T * ky - x * cs
  have gy : y = 0 := by linear_combination Real.cos T * ky - Real.sin T * kx - y * cs
  ext
  · linarith
  · linarith

/-- **C159** A scan taken at `place` and believed to be taken elsewhere, off by an offset `t` of the window, is put back: `t` is the correction, with the
perfect score -1, and the corrected pose is `place`. It must fit the map at `place` and see two places of a wall and one of another wall, not parallel to the
first, which do not get into squares of other walls for any offset of the window. -/
theorem c159_put_back {mt : Matcher} {scans : List Scan} {mt' : Matcher} {g : NdtGrid}
    (hm : GoodMap mt scans mt' g) {wall : ℤ × ℤ → Line}
    (hwall : WallsOf g.originX g.originY g.cellSize (mapPoints (scans.map .addScan)) wall)
    (hl : 0 < mt'.linearRes) (ha : 0 < mt'.angularRes) (hpi : mt'.angularSize < Real.pi / 2)
    (scan : Scan) (hn : scan.points.length < 2 ^ 64)
    (hnear : ∀ o, InWindow mt'.linearSize mt'.linearRes mt'.angularSize mt'.angularRes o → NearAt mt' g scan o)
    {place t : Pose2d} (ht : InWindow mt'.linearSize mt'.linearRes mt'.angularSize mt'.angularRes t)
    (hplace : offset scan.pose t = place)
    (hfits : ∀ p ∈ samples scan.points (beamCount mt'.laserMaxBeams scan.points.length),
      (wall (square g.originX g.originY g.cellSize (move place p))).has (move place p) ∧
      InExtents g.originX g.originY g.cellSize g.sizeX g.sizeY (move place p) ∧
      5 ≤ (inSquare g.originX g.originY g.cellSize (square g.originX g.originY g.cellSize (move place p)) (mapPoints (scans.map .addScan))).length)
    {w w' : Line} (hw : w.a * w'.b ≠ w.b * w'.a) {p q s : Point}
    (hp : p ∈ samples scan.points (beamCount mt'.laserMaxBeams scan.points.length))
    (hq : q ∈ samples scan.points (beamCount mt'.laserMaxBeams scan.points.length))
    (hs : s ∈ samples scan.points (beamCount mt'.laserMaxBeams scan.points.length)) (hpq : p ≠ q)
    (hstay : ∀ o, InWindow mt'.linearSize mt'.linearRes mt'.angularSize mt'.angularRes o →
      wall (square g.originX g.originY g.cellSize (move (offset scan.pose o) p)) = w ∧
      wall (square g.originX g.originY g.cellSize (move (offset scan.pose o) q)) = w ∧
      wall (square g.originX g.originY g.cellSize (move (offset scan.pose o) s)) = w')
    (pose : Pose2d) (cov : Mat3F) :
    ∃ r, mt'.matchScan scan pose cov = .ok r ∧ r.pose = t ∧ offset scan.pose r.pose = place ∧ r.score = .fin (-1) := by
  suffices h : ∃ r, mt'.matchScan scan pose cov = .ok r ∧ r.pose = t ∧ r.score = .fin (-1) by
    obtain ⟨r, h1, h2, h3⟩ := h
    exact ⟨r, h1, h2, by rw [h2, hplace], h3⟩
  refine c158_first_of_the_perfect hm hwall hl ha scan hn hnear (List.ne_nil_of_mem hp) ht (by rw [hplace]; exact hfits) ?_ pose cov
  intro o ho hearly
  by_contra hall
  push Not at hall
  obtain ⟨z1, z2, z3⟩ := hstay _ ht
  obtain ⟨o1, o2, o3⟩ := hstay o ho
  have e1 := hall p hp
  have e2 := hall q hq
  have e3 := hall s hs
  have w1 := (hfits p hp).1
  have w2 := (hfits q hq).1
  have w3 := (hfits s hs).1
  rw [← hplace] at w1 w2 w3
  rw [o1] at e1
  rw [o2] at e2
  rw [o3] at e3
  rw [z1] at w1
  rw [z2] at w2
  rw [z3] at w3
  obtain ⟨a, b, h⟩ := w
  obtain ⟨a', b', h'⟩ := w'
  simp only [Line.has] at e1 e2 e3 w1 w2 w3 hw
  obtain ⟨-, -, k3, eth, -⟩ := id ho
  obtain ⟨-, -, j3, fth, lth⟩ := id ht
  by_cases hth : o.theta = t.theta
  · simp only [move, offset, hth] at e1 e3 w1 w3
    have f1 : a * (o.x - t.x) + b * (o.y - t.y) = 0 := by linarith
    have f2 : a' * (o.x - t.x) + b' * (o.y - t.y) = 0 := by linarith
    have hd : a * b' - b * a' ≠ 0 := sub_ne_zero.mpr hw
    have gx : (a * b' - b * a') * (o.x - t.x) = 0 := by linear_combination b' * f1 - b * f2
    have gy : (a * b' - b * a') * (o.y - t.y) = 0 := by linear_combination a * f2 - a' * f1
    have gx := sub_eq_zero.mp ((mul_eq_zero.mp gx).resolve_left hd)
    have gy := sub_eq_zero.mp ((mul_eq_zero.mp gy).resolve_left hd)
    unfold Earlier at hearly
    simp only [hth, gx, gy, lt_irrefl, and_false, or_false] at hearly
  · have hth' : o.theta - t.theta < 0 := by
      rcases hearly with h1 | ⟨h1, -⟩
      · linarith
      · exact absurd h1 hth
    have hsin : Real.sin (o.theta - t.theta) < 0 := by
      apply Real.sin_neg_of_neg_of_neg_pi_lt hth'
      have : 0 ≤ k3 * mt'.angularRes := by positivity
      rw [eth]; linarith
    apply hpq
    generalize hT : scan.pose.theta + t.theta = T
    generalize hD : o.theta - t.theta = D at hsin
    have hO : scan.pose.theta + o.theta = T + D := by rw [← hT, ← hD]; ring
    simp only [move, offset, hT, hO, Real.cos_add, Real.sin_add] at e1 e2 w1 w2
    have hn : 0 < a ^ 2 + b ^ 2 := by
      by_cases ha0 : a = 0
      · have hb0 : b ≠ 0 := by
          rintro rfl
          rw [ha0] at hw
          simp at hw
        positivity
      · positivity
    exact one_heading hn hsin.ne w1 w2 e1 e2

/-- The scan of the corner, taken at the origin but believed to be taken 2 cm and 1 cm away and turned by 0.02. -/
def strayScan : Scan := { cornerRoomScan with pose := ⟨2 / 100, 1 / 100, -(2 / 100)⟩ }

/-- **C159** (with the default parameters) It is put back by matching it against the map of the corner. -/
theorem c159_corner_put_back : ∃ mt', Matcher.addScans { defaultMatcher with rangeMax := 10 } [cornerRoomScan] = .ok mt' ∧
    ∀ pose cov, ∃ r, mt'.matchScan strayScan pose cov = .ok r ∧ r.pose = ⟨-(2 / 100), -(1 / 100), 2 / 100⟩ ∧
      offset strayScan.pose r.pose = Pose2d.zero ∧ r.score = .fin (-1) := by
  obtain ⟨g, hm, e1, e2, e0, e3, e4⟩ := cornerRoom_goodMap
  refine ⟨_, hm.ok, ?_⟩
  intro pose cov
  have hS : samples strayScan.points (beamCount 100 strayScan.points.length) = cornerRoomPts :=
    (c12_samples_are_points _ _).2.2 (by simp [strayScan, cornerRoomScan, cornerRoomPts])
  have hbox : ∀ o, InWindow defaultMatcher.linearSize defaultMatcher.linearRes defaultMatcher.angularSize defaultMatcher.angularRes o →
      (-(3 / 100) ≤ 2 / 100 + o.x ∧ 2 / 100 + o.x ≤ 7 / 100) ∧ (-(4 / 100) ≤ 1 / 100 + o.y ∧ 1 / 100 + o.y ≤ 6 / 100) ∧
      -(12 / 100) ≤ -(2 / 100) + o.theta ∧ -(2 / 100) + o.theta ≤ 8 / 100 := by
    rintro ⟨dx, dy, dth⟩ ⟨⟨k1, a1, l1⟩, ⟨k2, a2, l2⟩, ⟨k3, a3, l3⟩⟩
    have b1 : (0 : ℝ) ≤ k1 := Nat.cast_nonneg _
    have b2 : (0 : ℝ) ≤ k2 := Nat.cast_nonneg _
    have b3 : (0 : ℝ) ≤ k3 := Nat.cast_nonneg _
    norm_num [defaultMatcher] at a1 a2 a3 l1 l2 l3 ⊢
    refine ⟨⟨?_, ?_⟩, ⟨?_, ?_⟩, ?_, ?_⟩ <;> linarith
  have hturn : ∀ th : ℝ, -(12 / 100) ≤ th → th ≤ 8 / 100 →
      (99 / 100 ≤ Real.cos th ∧ Real.cos th ≤ 1) ∧ -(12 / 100) ≤ Real.sin th ∧ Real.sin th ≤ 12 / 100 := by
    intro th h1 h2
    have a := Real.one_sub_sq_div_two_le_cos (x := th)
    have b := Real.abs_sin_le_abs (x := th)
    have c : |th| ≤ 12 / 100 := abs_le.mpr ⟨h1, by linarith⟩
    have d := abs_le.mp (b.trans c)
    exact ⟨⟨by nlinarith, Real.cos_le_one _⟩, d.1, d.2⟩
  refine c159_put_back hm (wall := cornerRoomWall) ?_ (by norm_num [defaultMatcher]) (by norm_num [defaultMatcher])
    (by have := Real.two_le_pi; norm_num [defaultMatcher]; linarith) strayScan (by simp [strayScan, cornerRoomScan, cornerRoomPts])
    ?_ (place := Pose2d.zero) ?_ (by simp [offset, strayScan, Pose2d.zero]) ?_ (w := ⟨0, 1, 1 / 10⟩) (w' := ⟨1, 0, 3 / 8⟩) (by norm_num)
    (p := ⟨1 / 10, 1 / 10⟩) (q := ⟨13 / 100, 1 / 10⟩) (s := ⟨3 / 8, 27 / 200⟩) ?_ ?_ ?_ (by norm_num) ?_ pose cov
  · rw [e0, e1, e2, cornerRoom_points]
    refine ⟨?_, fun p hp => (cornerRoom_fits hp).1⟩
    intro k
    unfold cornerRoomWall
    split <;> simp
  · intro o ho
    show ∀ p ∈ samples strayScan.points (beamCount 100 strayScan.points.length), _
    rw [hS, e0, e1, e2]
    intro p hp
    obtain ⟨⟨-, x2⟩, ⟨-, y2⟩, t1, t2⟩ := hbox o ho
    obtain ⟨⟨c1, c2⟩, s1, s2⟩ := hturn _ t1 t2
    obtain ⟨-, -, ⟨p1, p2⟩, p3, p4⟩ := cornerRoom_fits hp
    apply cornerRoom_near
    simp only [move, offset, strayScan]
    constructor <;> nlinarith
  · refine ⟨⟨6, by norm_num [defaultMatcher], by norm_num [defaultMatcher]⟩,
      ⟨8, by norm_num [defaultMatcher], by norm_num [defaultMatcher]⟩,
      ⟨48, by norm_num [defaultMatcher], by norm_num [defaultMatcher]⟩⟩
  · show ∀ p ∈ samples strayScan.points (beamCount 100 strayScan.points.length), _
    rw [hS, e0, e1, e2, e3, e4, cornerRoom_points]
    intro p hp
    have em : move Pose2d.zero p = p := cornerRoom_move p
    rw [em]
    obtain ⟨w, k, ⟨p1, p2⟩, p3, p4⟩ := cornerRoom_fits hp
    refine ⟨w, ?_, cornerRoom_five k⟩
    unfold InExtents
    refine ⟨?_, ?_, ?_, ?_⟩ <;> norm_num <;> linarith
  · show _ ∈ samples strayScan.points (beamCount 100 strayScan.points.length)
    rw [hS]; simp [cornerRoomPts]
  · show _ ∈ samples strayScan.points (beamCount 100 strayScan.points.length)
    rw [hS]; simp [cornerRoomPts]
  · show _ ∈ samples strayScan.points (beamCount 100 strayScan.points.length)
    rw [hS]; simp [cornerRoomPts]
  · intro o ho
    rw [e0, e1, e2]
    obtain ⟨⟨x1, x2⟩, ⟨y1, y2⟩, t1, t2⟩ := hbox o ho
    obtain ⟨⟨c1, c2⟩, s1, s2⟩ := hturn _ t1 t2
    rw [cornerRoom_left, cornerRoom_left, cornerRoom_right]
    · simp [cornerRoomWall]
    all_goals
      simp only [move, offset, strayScan]
      refine ⟨?_, ?_, ?_, ?_⟩ <;> linarith

end

end Ndt
