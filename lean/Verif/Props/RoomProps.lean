import Verif.Spec.Room
import Verif.Props.AnyWallProps

/-! # Property C158: what holds a scan in a room -/

namespace Ndt

open Spec

noncomputable section

/-- **C158** In a map in which the points of every square are on a line, a point on the line of its square scores 1, if the square has points enough, and a
point off the line of its square less. -/
theorem c158_score_of_a_point {mt : Matcher} {scans : List Scan} {mt' : Matcher} {g : NdtGrid}
    (hm : GoodMap mt scans mt' g) {wall : ℤ × ℤ → Line}
    (hwall : WallsOf g.originX g.originY g.cellSize (mapPoints (scans.map .addScan)) wall)
    (p : Point) (hp : Near g.originX g.originY g.cellSize p) :
    (5 ≤ (inSquare g.originX g.originY g.cellSize (square g.originX g.originY g.cellSize p)
        (mapPoints (scans.map .addScan))).length →
      InExtents g.originX g.originY g.cellSize g.sizeX g.sizeY p → (wall (square g.originX g.originY g.cellSize p)).has p →
        g.likelihood p = .ok (.fin 1)) ∧
    (¬ (wall (square g.originX g.originY g.cellSize p)).has p → ∃ v < 1, g.likelihood p = .ok (.fin v)) := by
  obtain ⟨sx, sy, hx, hy, hc, hsm, hg, hsx, hsy⟩ := hm.params
  rw [hsx, hsy]
  have hon : ∀ q ∈ inSquare g.originX g.originY g.cellSize (square g.originX g.originY g.cellSize p)
      (mapPoints (scans.map .addScan)), (wall (square g.originX g.originY g.cellSize p)).has q := by
    intro q hq
    simp only [inSquare, List.mem_filter, decide_eq_true_eq] at hq
    rw [← hq.2]
    exact hwall.on q hq.1
  constructor
  · intro h5 hin e
    have hs := (hm.nodeg (square g.originX g.originY g.cellSize p)).resolve_left (by omega)
    rw [likelihood_gauss hc hx hy hsm _ hm.near hg p hp hin h5 hs, (gauss_line (hwall.line _) h5 hs hon p).1 e]
  · intro e
    by_cases hin : InExtents g.originX g.originY g.cellSize (cols sx g.cellSize) (cols sy g.cellSize) p
    · by_cases h5 : 5 ≤ (inSquare g.originX g.originY g.cellSize (square g.originX g.originY g.cellSize p)
          (mapPoints (scans.map .addScan))).length
      · have hs := (hm.nodeg (square g.originX g.originY g.cellSize p)).resolve_left (by omega)
        exact ⟨_, (gauss_line (hwall.line _) h5 hs hon p).2 e, likelihood_gauss hc hx hy hsm _ hm.near hg p hp hin h5 hs⟩
      · exact ⟨0, one_pos, (c09_point_likelihood_support hc hx hy hsm _ hm.near hg p hp hin).2 (by omega)⟩
    · obtain ⟨v, hv, -, -, h0⟩ := c09_point_likelihood_bounded hc hx hy hsm _ hm.near hm.nodeg hg p hp
      exact ⟨v, by rw [h0 hin]; exact one_pos, hv⟩

/-- **C158** So matching against such a map returns the first offset of the search at which every beam is on the line of its square, if there is one, with the
perfect score -1. -/
theorem c158_first_of_the_perfect {mt : Matcher} {scans : List Scan} {mt' : Matcher} {g : NdtGrid}
    (hm : GoodMap mt scans mt' g) {wall : ℤ × ℤ → Line}
    (hwall : WallsOf g.originX g.originY g.cellSize (mapPoints (scans.map .addScan)) wall)
    (hl : 0 < mt'.linearRes) (ha : 0 < mt'.angularRes)
    (scan : Scan) (hn : scan.points.length < 2 ^ 64)
    (hnear : ∀ o, InWindow mt'.linearSize mt'.linearRes mt'.angularSize mt'.angularRes o → NearAt mt' g scan o)
    (hne : samples scan.points (beamCount mt'.laserMaxBeams scan.points.length) ≠ [])
    {t : Pose2d} (htw : InWindow mt'.linearSize mt'.linearRes mt'.angularSize mt'.angularRes t)
    (hfits : ∀ p ∈ samples scan.points (beamCount mt'.laserMaxBeams scan.points.length),
      (wall (square g.originX g.originY g.cellSize (move (offset scan.pose t) p))).has (move (offset scan.pose t) p) ∧
      InExtents g.originX g.originY g.cellSize g.sizeX g.sizeY (move (offset scan.pose t) p) ∧
      5 ≤ (inSquare g.originX g.originY g.cellSize
        (square g.originX g.originY g.cellSize (move (offset scan.pose t) p))
        (mapPoints (scans.map .addScan))).length)
    (hfirst : ∀ o, InWindow mt'.linearSize mt'.linearRes mt'.angularSize mt'.angularRes o → Earlier o t →
      ∃ p ∈ samples scan.points (beamCount mt'.laserMaxBeams scan.points.length),
        ¬ (wall (square g.originX g.originY g.cellSize (move (offset scan.pose o) p))).has (move (offset scan.pose o) p))
    (pose : Pose2d) (cov : Mat3F) :
    ∃ r, mt'.matchScan scan pose cov = .ok r ∧ r.pose = t ∧ r.score = .fin (-1) := by
  set S := samples scan.points (beamCount mt'.laserMaxBeams scan.points.length) with hS
  have hSlen : S.length = beamCount mt'.laserMaxBeams scan.points.length := (c12_samples_are_points _ _).1
  -- values of the points
  have hval : ∀ p, ∃ v : ℝ, Near g.originX g.originY g.cellSize p → g.likelihood p = .ok (.fin v) ∧ v ≤ 1 := by
    intro p
    by_cases hp : Near g.originX g.originY g.cellSize p
    · obtain ⟨sx, sy, hx, hy, hc, hsm, hg, -, -⟩ := hm.params
      obtain ⟨v, hv, -, h1, -⟩ := c09_point_likelihood_bounded hc hx hy hsm _ hm.near hm.nodeg hg p hp
      exact ⟨v, fun _ => ⟨hv, h1⟩⟩
    · exact ⟨0, fun h => absurd h hp⟩
  choose f hf using hval
  have hcand : ∀ o, InWindow mt'.linearSize mt'.linearRes mt'.angularSize mt'.angularRes o →
      candidate mt' g scan o = .ok (.fin ((S.map (move (offset scan.pose o))).map f).sum) := by
    intro o ho
    apply likelihoodPoints_sum
    intro p hp
    obtain ⟨q, hq, rfl⟩ := List.mem_map.mp hp
    exact (hf _ (hnear o ho q hq)).1
  have hle1 : ∀ o, InWindow mt'.linearSize mt'.linearRes mt'.angularSize mt'.angularRes o →
      ∀ p ∈ S.map (move (offset scan.pose o)), f p ≤ 1 := by
    intro o ho p hp
    obtain ⟨q, hq, rfl⟩ := List.mem_map.mp hp
    exact (hf _ (hnear o ho q hq)).2
  have htv : candidate mt' g scan t = .ok (.fin (S.length : ℕ)) := by
    unfold candidate
    rw [← hS, likelihoodPoints_sum g (fun _ => 1)]
    · simp [Function.comp_def]
    · intro p hp
      obtain ⟨q, hq, rfl⟩ := List.mem_map.mp hp
      exact (c158_score_of_a_point hm hwall _ (hnear t htw q hq)).1 (hfits q hq).2.2 (hfits q hq).2.1 (hfits q hq).1
  have hSpos : 0 < S.length := List.length_pos_iff.mpr hne
  have hSpos' : (0 : ℝ) < (S.length : ℕ) := by exact_mod_cast hSpos
  -- an offset with a point off the wall is worse
  have hworse : ∀ o, InWindow mt'.linearSize mt'.linearRes mt'.angularSize mt'.angularRes o →
      (∃ q ∈ S, ¬ (wall (square g.originX g.originY g.cellSize (move (offset scan.pose o) q))).has (move (offset scan.pose o) q)) → candidate mt' g scan o ≠ .ok (.fin (S.length : ℕ)) := by
    rintro o ho ⟨q, hq, hoff⟩ he
    rw [hcand o ho] at he
    have hlt : f (move (offset scan.pose o) q) < 1 := by
      obtain ⟨v, hv, e⟩ := (c158_score_of_a_point hm hwall _ (hnear o ho q hq)).2 hoff
      rw [(hf _ (hnear o ho q hq)).1] at e
      cases e
      exact hv
    have := sum_lt_length f _ (hle1 o ho) _ (List.mem_map_of_mem hq) hlt
    rw [List.length_map] at this
    injection he with he
    injection he with he
    rw [he] at this
    exact lt_irrefl _ this
  obtain ⟨r, hr⟩ := c13_match_defined hm.ndt hl ha scan hn pose cov (fun o ho => ⟨_, hcand o ho⟩)
  refine ⟨r, hr, ?_⟩
  obtain ⟨best, e1, h2, h3⟩ := c13_match_returns_best_candidate hm.ndt hl ha scan hn pose cov hr
  obtain ⟨x, hx, hnb⟩ := h2 t htw
  rw [htv] at hx
  cases hx
  rw [Fl.fin_neg] at hnb
  -- the best value is that of the target
  have hbest : best = .fin (-(S.length : ℕ)) ∧ candidate mt' g scan r.pose = .ok (.fin (S.length : ℕ)) ∧
      InWindow mt'.linearSize mt'.linearRes mt'.angularSize mt'.angularRes r.pose := by
    rcases h3 with ⟨e, -⟩ | ⟨-, hw, y, hy, e⟩
    · rw [e] at hnb
      exact absurd (show (-(S.length : ℕ) : ℝ) < 0 by linarith) hnb
    · rw [hcand _ hw] at hy
      cases hy
      have h1 := sum_le_length f _ (hle1 _ hw)
      rw [List.length_map] at h1
      rw [e, Fl.fin_neg] at hnb
      have h2 : ¬ (-(S.length : ℕ) : ℝ) < -((S.map (move (offset scan.pose r.pose))).map f).sum := hnb
      have h3 : ((S.map (move (offset scan.pose r.pose))).map f).sum = (S.length : ℕ) := by
        apply le_antisymm h1
        linarith
      rw [hcand _ hw, e, Fl.fin_neg, h3]
      exact ⟨rfl, rfl, hw⟩
  obtain ⟨eb, ev, hrw⟩ := hbest
  have hscore : r.score = .fin (-1) := by
    rw [e1, eb, ← hSlen, Fl.fin_div hSpos'.ne']
    congr 1
    field_simp
  refine ⟨?_, hscore⟩
  obtain ⟨pre, post, hp, v, hv, -, hpre⟩ := c123_first_of_the_best hm.ndt hl ha scan hn pose cov hr
    (by rw [hscore]; show (-1 : ℝ) < 0; norm_num)
  rw [ev] at hv
  cases hv
  have hmem := (mem_window _ _ _ _ hl ha t).mpr htw
  have hpw := window_pairwise mt'.linearSize mt'.linearRes mt'.angularSize mt'.angularRes hl ha
  rw [hp] at hmem hpw
  rcases List.mem_append.mp hmem with hmem | hmem
  · exact absurd htv (hpre t hmem)
  rcases List.mem_cons.mp hmem with hmem | hmem
  · exact hmem.symm
  exfalso
  have hearly : Earlier r.pose t := (List.pairwise_cons.mp (List.pairwise_append.mp hpw).2.1).1 t hmem
  exact hworse r.pose hrw (hfirst r.pose hrw hearly) ev

/-- **C158** A scan that sees two places of a wall and one of another wall, not parallel to the first, stays where it is if it fits the map there: the
correction is zero, with the perfect score -1. Whatever the offset, those three places must not get into squares of other walls. -/
theorem c158_two_walls_hold {mt : Matcher} {scans : List Scan} {mt' : Matcher} {g : NdtGrid}
    (hm : GoodMap mt scans mt' g) {wall : ℤ × ℤ → Line}
    (hwall : WallsOf g.originX g.originY g.cellSize (mapPoints (scans.map .addScan)) wall)
    (hl : 0 < mt'.linearRes) (ha : 0 < mt'.angularRes) (hpi : mt'.angularSize < Real.pi)
    (scan : Scan) (hn : scan.points.length < 2 ^ 64)
    (hnear : ∀ o, InWindow mt'.linearSize mt'.linearRes mt'.angularSize mt'.angularRes o → NearAt mt' g scan o)
    (hzero : InWindow mt'.linearSize mt'.linearRes mt'.angularSize mt'.angularRes Pose2d.zero)
    (hfits : ∀ p ∈ samples scan.points (beamCount mt'.laserMaxBeams scan.points.length),
      (wall (square g.originX g.originY g.cellSize (move scan.pose p))).has (move scan.pose p) ∧
      InExtents g.originX g.originY g.cellSize g.sizeX g.sizeY (move scan.pose p) ∧
      5 ≤ (inSquare g.originX g.originY g.cellSize (square g.originX g.originY g.cellSize (move scan.pose p)) (mapPoints (scans.map .addScan))).length)
    {w w' : Line} (hw : w.a * w'.b ≠ w.b * w'.a) {p q s : Point}
    (hp : p ∈ samples scan.points (beamCount mt'.laserMaxBeams scan.points.length))
    (hq : q ∈ samples scan.points (beamCount mt'.laserMaxBeams scan.points.length))
    (hs : s ∈ samples scan.points (beamCount mt'.laserMaxBeams scan.points.length)) (hpq : move scan.pose p ≠ move scan.pose q)
    (hstay : ∀ o, InWindow mt'.linearSize mt'.linearRes mt'.angularSize mt'.angularRes o →
      wall (square g.originX g.originY g.cellSize (move (offset scan.pose o) p)) = w ∧
      wall (square g.originX g.originY g.cellSize (move (offset scan.pose o) q)) = w ∧
      wall (square g.originX g.originY g.cellSize (move (offset scan.pose o) s)) = w')
    (pose : Pose2d) (cov : Mat3F) :
    ∃ r, mt'.matchScan scan pose cov = .ok r ∧ r.pose = Pose2d.zero ∧ r.score = .fin (-1) := by
  have e : offset scan.pose Pose2d.zero = scan.pose := by
    simp [offset, Pose2d.zero]
  refine c158_first_of_the_perfect hm hwall hl ha scan hn hnear (List.ne_nil_of_mem hp) hzero (by rw [e]; exact hfits) ?_ pose cov
  intro o ho hearly
  by_contra hall
  push Not at hall
  obtain ⟨z1, z2, z3⟩ := hstay _ hzero
  obtain ⟨o1, o2, o3⟩ := hstay o ho
  have e1 := hall p hp
  have e2 := hall q hq
  have e3 := hall s hs
  have w1 := (hfits p hp).1
  have w2 := (hfits q hq).1
  have w3 := (hfits s hs).1
  rw [e] at z1 z2 z3
  rw [o1] at e1
  rw [o2] at e2
  rw [o3] at e3
  rw [z1] at w1
  rw [z2] at w2
  rw [z3] at w3
  obtain ⟨a, b, h⟩ := w
  obtain ⟨a', b', h'⟩ := w'
  simp only [Line.has] at e1 e2 e3 w1 w2 w3 hw
  obtain ⟨-, -, k3, eth, lth⟩ := id ho
  by_cases hth : o.theta = 0
  · simp only [move, offset, hth, add_zero] at e1 e3 w1 w3
    have f1 : a * o.x + b * o.y = 0 := by linarith
    have f2 : a' * o.x + b' * o.y = 0 := by linarith
    have hd : a * b' - b * a' ≠ 0 := sub_ne_zero.mpr hw
    have gx : (a * b' - b * a') * o.x = 0 := by linear_combination b' * f1 - b * f2
    have gy : (a * b' - b * a') * o.y = 0 := by linear_combination a * f2 - a' * f1
    have gx := (mul_eq_zero.mp gx).resolve_left hd
    have gy := (mul_eq_zero.mp gy).resolve_left hd
    unfold Earlier Pose2d.zero at hearly
    simp only [hth, gx, gy, lt_irrefl, and_false, or_false] at hearly
  · have hth' : o.theta < 0 := by
      rcases hearly with h1 | ⟨h1, -⟩
      · exact h1
      · exact absurd h1 hth
    have hsin : Real.sin o.theta < 0 := by
      apply Real.sin_neg_of_neg_of_neg_pi_lt hth'
      have : 0 ≤ k3 * mt'.angularRes := by positivity
      rw [eth]; linarith
    apply hpq
    have key : b * ((move scan.pose p).x - (move scan.pose q).x) - a * ((move scan.pose p).y - (move scan.pose q).y) = 0 := by
      have : (b * ((move scan.pose p).x - (move scan.pose q).x) - a * ((move scan.pose p).y - (move scan.pose q).y)) * Real.sin o.theta = 0 := by
        simp only [move, offset, Real.cos_add, Real.sin_add] at e1 e2 w1 w2 ⊢
        linear_combination e1 - e2 - Real.cos o.theta * (w1 - w2)
      exact (mul_eq_zero.mp this).resolve_right hsin.ne
    have hn : 0 < a ^ 2 + b ^ 2 := by
      by_contra hh
      have ha0 : a = 0 := by nlinarith [sq_nonneg a, sq_nonneg b]
      have hb0 : b = 0 := by nlinarith [sq_nonneg a, sq_nonneg b]
      rw [ha0, hb0] at hw
      simp at hw
    have kx : (a ^ 2 + b ^ 2) * ((move scan.pose p).x - (move scan.pose q).x) = 0 := by linear_combination a * (w1 - w2) + b * key
    have ky : (a ^ 2 + b ^ 2) * ((move scan.pose p).y - (move scan.pose q).y) = 0 := by linear_combination b * (w1 - w2) - a * key
    have kx := (mul_eq_zero.mp kx).resolve_left hn.ne'
    have ky := (mul_eq_zero.mp ky).resolve_left hn.ne'
    ext
    · linarith
    · linarith

/-- Five points of the wall `y = 0.1` and five of the wall `x = 0.375`: the corner of a room. -/
def cornerRoomPts : List Point :=
  [⟨1 / 10, 1 / 10⟩, ⟨13 / 100, 1 / 10⟩, ⟨16 / 100, 1 / 10⟩, ⟨19 / 100, 1 / 10⟩, ⟨22 / 100, 1 / 10⟩,
    ⟨3 / 8, 9 / 40⟩, ⟨3 / 8, 39 / 200⟩, ⟨3 / 8, 33 / 200⟩, ⟨3 / 8, 27 / 200⟩, ⟨3 / 8, 21 / 200⟩]

/-- A scan of the corner from the origin. -/
def cornerRoomScan : Scan := ⟨0, true, ⟨0, 0, 0⟩, Pose2d.zero, cornerRoomPts⟩

/-- The wall of each square of 25 cm: `y = 0.1` in one, `x = 0.375` in the others. -/
def cornerRoomWall (k : ℤ × ℤ) : Line := if k = (40, 40) then ⟨0, 1, 1 / 10⟩ else ⟨1, 0, 3 / 8⟩

theorem cornerRoom_move (p : Point) : move cornerRoomScan.pose p = p := by ext <;> simp [move, cornerRoomScan]

theorem cornerRoom_points : mapPoints ([cornerRoomScan].map .addScan) = cornerRoomPts := by
  rw [slant_points]
  have : (move cornerRoomScan.pose : Point → Point) = id := funext cornerRoom_move
  rw [this, List.map_id]
  rfl

theorem cornerRoom_left {p : Point} (h : 0 ≤ p.x ∧ p.x < 1 / 4 ∧ 0 ≤ p.y ∧ p.y < 1 / 4) : square (-10) (-10) (1 / 4) p = (40, 40) := by
  obtain ⟨h1, h2, h3, h4⟩ := h
  simp only [square, Prod.mk.injEq, Int.floor_eq_iff]
  refine ⟨⟨?_, ?_⟩, ?_, ?_⟩ <;> norm_num <;> linarith

theorem cornerRoom_right {p : Point} (h : 1 / 4 ≤ p.x ∧ p.x < 1 / 2 ∧ 0 ≤ p.y ∧ p.y < 1 / 4) : square (-10) (-10) (1 / 4) p = (41, 40) := by
  obtain ⟨h1, h2, h3, h4⟩ := h
  simp only [square, Prod.mk.injEq, Int.floor_eq_iff]
  refine ⟨⟨?_, ?_⟩, ?_, ?_⟩ <;> norm_num <;> linarith

/-- The squares of the points. -/
theorem cornerRoom_squares : cornerRoomPts.map (square (-10) (-10) (1 / 4)) =
    [(40, 40), (40, 40), (40, 40), (40, 40), (40, 40), (41, 40), (41, 40), (41, 40), (41, 40), (41, 40)] := by
  simp only [cornerRoomPts, List.map_cons, List.map_nil]
  rw [cornerRoom_left (p := ⟨1 / 10, 1 / 10⟩) (by norm_num), cornerRoom_left (p := ⟨13 / 100, 1 / 10⟩) (by norm_num),
    cornerRoom_left (p := ⟨16 / 100, 1 / 10⟩) (by norm_num), cornerRoom_left (p := ⟨19 / 100, 1 / 10⟩) (by norm_num),
    cornerRoom_left (p := ⟨22 / 100, 1 / 10⟩) (by norm_num), cornerRoom_right (p := ⟨3 / 8, 9 / 40⟩) (by norm_num),
    cornerRoom_right (p := ⟨3 / 8, 39 / 200⟩) (by norm_num), cornerRoom_right (p := ⟨3 / 8, 33 / 200⟩) (by norm_num),
    cornerRoom_right (p := ⟨3 / 8, 27 / 200⟩) (by norm_num), cornerRoom_right (p := ⟨3 / 8, 21 / 200⟩) (by norm_num)]

/-- Each point has a square with points enough, is on its wall and inside the map. -/
theorem cornerRoom_fits {p : Point} (hp : p ∈ cornerRoomPts) :
    (cornerRoomWall (square (-10) (-10) (1 / 4) p)).has p ∧
    (square (-10) (-10) (1 / 4) p = (40, 40) ∨ square (-10) (-10) (1 / 4) p = (41, 40)) ∧
    (0 ≤ p.x ∧ p.x ≤ 1 / 2) ∧ 0 ≤ p.y ∧ p.y ≤ 1 / 4 := by
  simp only [cornerRoomPts, List.mem_cons, List.not_mem_nil, or_false] at hp
  rcases hp with rfl | rfl | rfl | rfl | rfl | rfl | rfl | rfl | rfl | rfl
  iterate 5
    · rw [cornerRoom_left (by norm_num)]
      norm_num [cornerRoomWall, Line.has]
  iterate 5
    · rw [cornerRoom_right (by norm_num)]
      norm_num [cornerRoomWall, Line.has]

theorem cornerRoom_count (k : ℤ × ℤ) : (inSquare (-10) (-10) (1 / 4) k cornerRoomPts).length =
    (cornerRoomPts.map (square (-10) (-10) (1 / 4))).countP (fun j => decide (j = k)) := by
  rw [List.countP_map, inSquare, ← List.countP_eq_length_filter]
  rfl

theorem cornerRoom_five {k : ℤ × ℤ} (hk : k = (40, 40) ∨ k = (41, 40)) : 5 ≤ (inSquare (-10) (-10) (1 / 4) k cornerRoomPts).length := by
  rw [cornerRoom_count, cornerRoom_squares]
  rcases hk with rfl | rfl <;> decide

theorem cornerRoom_near {p : Point} (h : p.x ≤ 2 ∧ p.y ≤ 2) : Near (-10) (-10) (1 / 4) p := by
  constructor <;> norm_num <;> linarith [h.1, h.2]

/-- The map of the scan. -/
theorem cornerRoom_goodMap : ∃ g, GoodMap { defaultMatcher with rangeMax := 10 } [cornerRoomScan]
    { { defaultMatcher with rangeMax := 10 } with ndt := some g } g ∧ g.originX = -10 ∧ g.originY = -10 ∧
    g.cellSize = 1 / 4 ∧ g.sizeX = 81 ∧ g.sizeY = 81 := by
  have hnear : ∀ p ∈ mapPoints ([cornerRoomScan].map .addScan), Near (-10) (-10) (1 / 4) p := by
    rw [cornerRoom_points]
    intro p hp
    obtain ⟨-, -, ⟨-, h1⟩, -, h2⟩ := cornerRoom_fits hp
    exact cornerRoom_near ⟨by linarith, by linarith⟩
  have hsm : cols 20 (1 / 4) * cols 20 (1 / 4) ≤ 2 ^ 31 := by rw [piece_cols]; norm_num
  obtain ⟨g0, hg0, hw, e0, e1, e2, e3, e4, -⟩ := NdtGrid.new_wf (c := 1 / 4) (sx := 20) (sy := 20) (ox := -10)
    (oy := -10) (by norm_num) (by norm_num) (by norm_num) hsm
  obtain ⟨g, hg, geo, -⟩ := NdtGrid.run_spec ([cornerRoomScan].map .addScan ++ [.compute]) hw (by
    rw [e0, e1, e2, mapPoints_append]
    simpa [mapPoints] using hnear)
  have hbox : Matcher.bbox 10 [cornerRoomScan] = ⟨-10, 10, -10, 10⟩ := by
    have h1 := dblMax_nonneg
    have h2 := dblMin_le_one
    simp only [Matcher.bbox, List.foldl_cons, List.foldl_nil, Scan.getPose, cornerRoomScan, Pose2d.zero, zero_sub, zero_add]
    rw [min_eq_left (by linarith), max_eq_left (by linarith)]
  have hres : defaultMatcher.resolution = 1 / 4 := by norm_num [defaultMatcher]
  have hok : Matcher.addScans { defaultMatcher with rangeMax := 10 } [cornerRoomScan] =
      .ok { { defaultMatcher with rangeMax := 10 } with ndt := some g } := by
    rw [addScans_eq]
    simp only [hbox, hres]
    have h8 : (10 : ℝ) - -10 = 20 := by norm_num
    rw [h8, hg0]
    simp only [Res.ok_bind]
    rw [hg]
    rfl
  refine ⟨g, ⟨by simp only [hres]; norm_num, by norm_num, by simp, hok, rfl, ?_, ?_, ?_⟩, ?_, ?_, ?_, ?_, ?_⟩
  · rw [geo.sizeX, geo.sizeY]; exact hw.small
  · rw [geo.originX, geo.originY, geo.cellSize, e0, e1, e2]; exact hnear
  · rw [geo.originX, geo.originY, geo.cellSize, e0, e1, e2, cornerRoom_points]
    intro k
    by_cases hk : k = (40, 40) ∨ k = (41, 40)
    · right
      rintro ⟨q, hq⟩
      have hin : ∀ p ∈ cornerRoomPts, square (-10) (-10) (1 / 4) p = k → p = q := by
        intro p hp e
        exact hq p (List.mem_filter.mpr ⟨hp, decide_eq_true e⟩)
      rcases hk with rfl | rfl
      · have a1 := hin ⟨1 / 10, 1 / 10⟩ (by simp [cornerRoomPts]) (cornerRoom_left (by norm_num))
        have a2 := hin ⟨13 / 100, 1 / 10⟩ (by simp [cornerRoomPts]) (cornerRoom_left (by norm_num))
        have := congrArg Point.x (a1.trans a2.symm)
        norm_num at this
      · have a1 := hin ⟨3 / 8, 9 / 40⟩ (by simp [cornerRoomPts]) (cornerRoom_right (by norm_num))
        have a2 := hin ⟨3 / 8, 39 / 200⟩ (by simp [cornerRoomPts]) (cornerRoom_right (by norm_num))
        have := congrArg Point.y (a1.trans a2.symm)
        norm_num at this
    · left
      have : inSquare (-10) (-10) (1 / 4) k cornerRoomPts = [] := by
        unfold inSquare
        rw [List.filter_eq_nil_iff]
        intro p hp h
        rw [← of_decide_eq_true h] at hk
        exact hk (cornerRoom_fits hp).2.1
      rw [this]; simp
  · rw [geo.originX, e1]
  · rw [geo.originY, e2]
  · rw [geo.cellSize, e0]
  · rw [geo.sizeX, e3, piece_cols]
  · rw [geo.sizeY, e4, piece_cols]

/-- A rotation by at most 0.1. -/
theorem cornerRoom_turn {th : ℝ} (h1 : -(1 / 10) ≤ th) (h2 : th ≤ 1 / 10) :
    (199 / 200 ≤ Real.cos th ∧ Real.cos th ≤ 1) ∧ -(1 / 10) ≤ Real.sin th ∧ Real.sin th ≤ 1 / 10 := by
  have a := Real.one_sub_sq_div_two_le_cos (x := th)
  have b := Real.abs_sin_le_abs (x := th)
  have c : |th| ≤ 1 / 10 := abs_le.mpr ⟨h1, h2⟩
  have d := abs_le.mp (b.trans c)
  exact ⟨⟨by nlinarith, Real.cos_le_one _⟩, d.1, d.2⟩

/-- **C158** (with the default parameters) The scan of the corner matched against its own map stays where it is. -/
theorem c158_corner_stays : ∃ mt', Matcher.addScans { defaultMatcher with rangeMax := 10 } [cornerRoomScan] = .ok mt' ∧
    ∀ pose cov, ∃ r, mt'.matchScan cornerRoomScan pose cov = .ok r ∧ r.pose = Pose2d.zero ∧ r.score = .fin (-1) := by
  obtain ⟨g, hm, e1, e2, e0, e3, e4⟩ := cornerRoom_goodMap
  refine ⟨_, hm.ok, ?_⟩
  intro pose cov
  have hS : samples cornerRoomScan.points (beamCount 100 cornerRoomScan.points.length) = cornerRoomPts :=
    (c12_samples_are_points _ _).2.2 (by simp [cornerRoomScan, cornerRoomPts])
  have hbox : ∀ o, InWindow defaultMatcher.linearSize defaultMatcher.linearRes defaultMatcher.angularSize defaultMatcher.angularRes o →
      (-(1 / 20) ≤ o.x ∧ o.x ≤ 1 / 20) ∧ (-(1 / 20) ≤ o.y ∧ o.y ≤ 1 / 20) ∧ -(1 / 10) ≤ o.theta ∧ o.theta ≤ 1 / 10 := by
    rintro ⟨dx, dy, dth⟩ ⟨⟨k1, a1, l1⟩, ⟨k2, a2, l2⟩, ⟨k3, a3, l3⟩⟩
    have b1 : (0 : ℝ) ≤ k1 := Nat.cast_nonneg _
    have b2 : (0 : ℝ) ≤ k2 := Nat.cast_nonneg _
    have b3 : (0 : ℝ) ≤ k3 := Nat.cast_nonneg _
    norm_num [defaultMatcher] at a1 a2 a3 l1 l2 l3 ⊢
    refine ⟨⟨?_, ?_⟩, ⟨?_, ?_⟩, ?_, ?_⟩ <;> linarith
  refine c158_two_walls_hold hm (wall := cornerRoomWall) ?_ (by norm_num [defaultMatcher]) (by norm_num [defaultMatcher])
    (by have := Real.two_le_pi; norm_num [defaultMatcher]; linarith) cornerRoomScan (by simp [cornerRoomScan, cornerRoomPts])
    ?_ ?_ ?_ (w := ⟨0, 1, 1 / 10⟩) (w' := ⟨1, 0, 3 / 8⟩) (by norm_num) (p := ⟨1 / 10, 1 / 10⟩) (q := ⟨13 / 100, 1 / 10⟩)
    (s := ⟨3 / 8, 27 / 200⟩) ?_ ?_ ?_ ?_ ?_ pose cov
  · rw [e0, e1, e2, cornerRoom_points]
    refine ⟨?_, fun p hp => (cornerRoom_fits hp).1⟩
    intro k
    unfold cornerRoomWall
    split <;> simp
  · intro o ho
    show ∀ p ∈ samples cornerRoomScan.points (beamCount 100 cornerRoomScan.points.length), _
    rw [hS, e0, e1, e2]
    intro p hp
    obtain ⟨⟨-, x2⟩, ⟨-, y2⟩, t1, t2⟩ := hbox o ho
    obtain ⟨⟨c1, c2⟩, s1, s2⟩ := cornerRoom_turn t1 t2
    obtain ⟨-, -, ⟨p1, p2⟩, p3, p4⟩ := cornerRoom_fits hp
    apply cornerRoom_near
    simp only [move, offset, cornerRoomScan, Pose2d.zero, zero_add]
    constructor <;> nlinarith
  · refine ⟨⟨10, by norm_num [defaultMatcher, Pose2d.zero], by norm_num [defaultMatcher, Pose2d.zero]⟩,
      ⟨10, by norm_num [defaultMatcher, Pose2d.zero], by norm_num [defaultMatcher, Pose2d.zero]⟩,
      ⟨40, by norm_num [defaultMatcher, Pose2d.zero], by norm_num [defaultMatcher, Pose2d.zero]⟩⟩
  · show ∀ p ∈ samples cornerRoomScan.points (beamCount 100 cornerRoomScan.points.length), _
    rw [hS, e0, e1, e2, e3, e4, cornerRoom_points]
    intro p hp
    rw [cornerRoom_move]
    obtain ⟨w, k, ⟨p1, p2⟩, p3, p4⟩ := cornerRoom_fits hp
    refine ⟨w, ?_, cornerRoom_five k⟩
    unfold InExtents
    refine ⟨?_, ?_, ?_, ?_⟩ <;> norm_num <;> linarith
  · show _ ∈ samples cornerRoomScan.points (beamCount 100 cornerRoomScan.points.length)
    rw [hS]; simp [cornerRoomPts]
  · show _ ∈ samples cornerRoomScan.points (beamCount 100 cornerRoomScan.points.length)
    rw [hS]; simp [cornerRoomPts]
  · show _ ∈ samples cornerRoomScan.points (beamCount 100 cornerRoomScan.points.length)
    rw [hS]; simp [cornerRoomPts]
  · rw [cornerRoom_move, cornerRoom_move]
    norm_num
  · intro o ho
    rw [e0, e1, e2]
    obtain ⟨⟨x1, x2⟩, ⟨y1, y2⟩, t1, t2⟩ := hbox o ho
    obtain ⟨⟨c1, c2⟩, s1, s2⟩ := cornerRoom_turn t1 t2
    rw [cornerRoom_left, cornerRoom_left, cornerRoom_right]
    · simp [cornerRoomWall]
    all_goals
      simp only [move, offset, cornerRoomScan, Pose2d.zero, zero_add]
      refine ⟨?_, ?_, ?_, ?_⟩ <;> linarith

end

end Ndt
