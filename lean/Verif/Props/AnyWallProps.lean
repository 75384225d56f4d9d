import Verif.Proof.AnyWall
import Verif.Props.WallProps

/-! # Property C157: what holds a scan along a wall of any direction -/

namespace Ndt

open Spec

noncomputable section

/-- **C157** A map of a straight wall `a x + b y = h`, of any direction, gives no hold along the wall: wherever the wall fills a square, a point on
the wall scores 1, whatever its place along the wall; a point off the wall scores less. -/
theorem c157_wall_gives_no_hold {mt : Matcher} {scans : List Scan} {mt' : Matcher} {g : NdtGrid}
    (hm : GoodMap mt scans mt' g) {a b h : ℝ} (hab : a ≠ 0 ∨ b ≠ 0)
    (hwall : ∀ p ∈ mapPoints (scans.map .addScan), a * p.x + b * p.y = h)
    (p : Point) (hp : Near g.originX g.originY g.cellSize p) :
    (5 ≤ (inSquare g.originX g.originY g.cellSize (square g.originX g.originY g.cellSize p)
        (mapPoints (scans.map .addScan))).length →
      InExtents g.originX g.originY g.cellSize g.sizeX g.sizeY p → a * p.x + b * p.y = h →
        g.likelihood p = .ok (.fin 1)) ∧
    (a * p.x + b * p.y ≠ h → ∃ v < 1, g.likelihood p = .ok (.fin v)) := by
  obtain ⟨sx, sy, hx, hy, hc, hsm, hg, hsx, hsy⟩ := hm.params
  rw [hsx, hsy]
  have hon : ∀ q ∈ inSquare g.originX g.originY g.cellSize (square g.originX g.originY g.cellSize p)
      (mapPoints (scans.map .addScan)), a * q.x + b * q.y = h := by
    intro q hq
    simp only [inSquare, List.mem_filter] at hq
    exact hwall q hq.1
  constructor
  · intro h5 hin e
    have hs := (hm.nodeg (square g.originX g.originY g.cellSize p)).resolve_left (by omega)
    rw [likelihood_gauss hc hx hy hsm _ hm.near hg p hp hin h5 hs, (gauss_line hab h5 hs hon p).1 e]
  · intro e
    by_cases hin : InExtents g.originX g.originY g.cellSize (cols sx g.cellSize) (cols sy g.cellSize) p
    · by_cases h5 : 5 ≤ (inSquare g.originX g.originY g.cellSize (square g.originX g.originY g.cellSize p)
          (mapPoints (scans.map .addScan))).length
      · have hs := (hm.nodeg (square g.originX g.originY g.cellSize p)).resolve_left (by omega)
        exact ⟨_, (gauss_line hab h5 hs hon p).2 e, likelihood_gauss hc hx hy hsm _ hm.near hg p hp hin h5 hs⟩
      · exact ⟨0, one_pos, (c09_point_likelihood_support hc hx hy hsm _ hm.near hg p hp hin).2 (by omega)⟩
    · obtain ⟨v, hv, -, -, h0⟩ := c09_point_likelihood_bounded hc hx hy hsm _ hm.near hm.nodeg hg p hp
      exact ⟨v, by rw [h0 hin]; exact one_pos, hv⟩

/-- **C157** (where it fails) A scan of at least two places on a straight wall of any direction, matched against a map of that wall, is pushed to the first
offset `t` of the search that keeps it on the wall, if the wall goes on until there: the correction is `t`, with the perfect score -1. -/
theorem c157_first_along_the_wall {mt : Matcher} {scans : List Scan} {mt' : Matcher} {g : NdtGrid}
    (hm : GoodMap mt scans mt' g) {a b h : ℝ} (hab : a ≠ 0 ∨ b ≠ 0)
    (hwall : ∀ p ∈ mapPoints (scans.map .addScan), a * p.x + b * p.y = h)
    (hl : 0 < mt'.linearRes) (ha : 0 < mt'.angularRes)
    (hpi : mt'.angularSize < Real.pi)
    (scan : Scan) (hn : scan.points.length < 2 ^ 64)
    (hnear : ∀ o, InWindow mt'.linearSize mt'.linearRes mt'.angularSize mt'.angularRes o → NearAt mt' g scan o)
    (hscan : ∀ p ∈ samples scan.points (beamCount mt'.laserMaxBeams scan.points.length), a * (move scan.pose p).x + b * (move scan.pose p).y = h)
    (htwo : ∃ p ∈ samples scan.points (beamCount mt'.laserMaxBeams scan.points.length),
      ∃ q ∈ samples scan.points (beamCount mt'.laserMaxBeams scan.points.length),
        move scan.pose p ≠ move scan.pose q)
    {t : Pose2d} (htw : InWindow mt'.linearSize mt'.linearRes mt'.angularSize mt'.angularRes t) (hturn : t.theta = 0) (halong : a * t.x + b * t.y = 0)
    (hfirst : ∀ o, InWindow mt'.linearSize mt'.linearRes mt'.angularSize mt'.angularRes o → o.theta = 0 → a * o.x + b * o.y = 0 → ¬ Earlier o t)
    (hgoes : ∀ p ∈ samples scan.points (beamCount mt'.laserMaxBeams scan.points.length),
      InExtents g.originX g.originY g.cellSize g.sizeX g.sizeY (move (offset scan.pose t) p) ∧
      5 ≤ (inSquare g.originX g.originY g.cellSize
        (square g.originX g.originY g.cellSize (move (offset scan.pose t) p))
        (mapPoints (scans.map .addScan))).length)
    (pose : Pose2d) (cov : Mat3F) :
    ∃ r, mt'.matchScan scan pose cov = .ok r ∧ r.pose = t ∧ r.score = .fin (-1) := by
  set S := samples scan.points (beamCount mt'.laserMaxBeams scan.points.length) with hS
  have hSlen : S.length = beamCount mt'.laserMaxBeams scan.points.length := (c12_samples_are_points _ _).1
  -- values of the points
  have hval : ∀ p, ∃ v : ℝ, Near g.originX g.originY g.cellSize p → g.likelihood p = .ok (.fin v) ∧ v ≤ 1 := by
    intro p
    by_cases hp : Near g.originX g.originY g.cellSize p
    · obtain ⟨sx, sy, hx, hy, hc, hsm, hg, -, -⟩ := hm.params
      obtain ⟨v, hv, -, h1, -⟩ := c09_point_likelihood_bounded hc hx hy hsm _ hm.near hm.nodeg hg p hp
      exact ⟨v, fun _ => ⟨hv, h1⟩⟩
    · exact ⟨0, fun h => absurd h hp⟩
  choose f hf using hval
  have hcand : ∀ o, InWindow mt'.linearSize mt'.linearRes mt'.angularSize mt'.angularRes o →
      candidate mt' g scan o = .ok (.fin ((S.map (move (offset scan.pose o))).map f).sum) := by
    intro o ho
    apply likelihoodPoints_sum
    intro p hp
    obtain ⟨q, hq, rfl⟩ := List.mem_map.mp hp
    exact (hf _ (hnear o ho q hq)).1
  have hle1 : ∀ o, InWindow mt'.linearSize mt'.linearRes mt'.angularSize mt'.angularRes o →
      ∀ p ∈ S.map (move (offset scan.pose o)), f p ≤ 1 := by
    intro o ho p hp
    obtain ⟨q, hq, rfl⟩ := List.mem_map.mp hp
    exact (hf _ (hnear o ho q hq)).2
  have htv : candidate mt' g scan t = .ok (.fin (S.length : ℕ)) := by
    unfold candidate
    rw [← hS, likelihoodPoints_sum g (fun _ => 1)]
    · simp [Function.comp_def]
    · intro p hp
      obtain ⟨q, hq, rfl⟩ := List.mem_map.mp hp
      apply (c157_wall_gives_no_hold hm hab hwall _ (hnear t htw q hq)).1 (hgoes q hq).2 (hgoes q hq).1
      have := hscan q hq
      simp only [move, offset, hturn, add_zero] at this ⊢
      linarith
  have hSpos : 0 < S.length := by
    obtain ⟨p, hp, -⟩ := htwo
    exact List.length_pos_of_mem hp
  have hSpos' : (0 : ℝ) < (S.length : ℕ) := by exact_mod_cast hSpos
  -- an offset with a point off the wall is worse
  have hworse : ∀ o, InWindow mt'.linearSize mt'.linearRes mt'.angularSize mt'.angularRes o →
      (∃ q ∈ S, a * (move (offset scan.pose o) q).x + b * (move (offset scan.pose o) q).y ≠ h) → candidate mt' g scan o ≠ .ok (.fin (S.length : ℕ)) := by
    rintro o ho ⟨q, hq, hoff⟩ he
    rw [hcand o ho] at he
    have hlt : f (move (offset scan.pose o) q) < 1 := by
      obtain ⟨v, hv, e⟩ := (c157_wall_gives_no_hold hm hab hwall _ (hnear o ho q hq)).2 hoff
      rw [(hf _ (hnear o ho q hq)).1] at e
      cases e
      exact hv
    have := sum_lt_length f _ (hle1 o ho) _ (List.mem_map_of_mem hq) hlt
    rw [List.length_map] at this
    injection he with he
    injection he with he
    rw [he] at this
    exact lt_irrefl _ this
  obtain ⟨r, hr⟩ := c13_match_defined hm.ndt hl ha scan hn pose cov (fun o ho => ⟨_, hcand o ho⟩)
  refine ⟨r, hr, ?_⟩
  obtain ⟨best, e1, h2, h3⟩ := c13_match_returns_best_candidate hm.ndt hl ha scan hn pose cov hr
  obtain ⟨x, hx, hnb⟩ := h2 t htw
  rw [htv] at hx
  cases hx
  rw [Fl.fin_neg] at hnb
  -- the best value is that of the target
  have hbest : best = .fin (-(S.length : ℕ)) ∧ candidate mt' g scan r.pose = .ok (.fin (S.length : ℕ)) ∧
      InWindow mt'.linearSize mt'.linearRes mt'.angularSize mt'.angularRes r.pose := by
    rcases h3 with ⟨e, -⟩ | ⟨-, hw, y, hy, e⟩
    · rw [e] at hnb
      exact absurd (show (-(S.length : ℕ) : ℝ) < 0 by linarith) hnb
    · rw [hcand _ hw] at hy
      cases hy
      have h1 := sum_le_length f _ (hle1 _ hw)
      rw [List.length_map] at h1
      rw [e, Fl.fin_neg] at hnb
      have h2 : ¬ (-(S.length : ℕ) : ℝ) < -((S.map (move (offset scan.pose r.pose))).map f).sum := hnb
      have h3 : ((S.map (move (offset scan.pose r.pose))).map f).sum = (S.length : ℕ) := by
        apply le_antisymm h1
        linarith
      rw [hcand _ hw, e, Fl.fin_neg, h3]
      exact ⟨rfl, rfl, hw⟩
  obtain ⟨eb, ev, hrw⟩ := hbest
  have hscore : r.score = .fin (-1) := by
    rw [e1, eb, ← hSlen, Fl.fin_div hSpos'.ne']
    congr 1
    field_simp
  refine ⟨?_, hscore⟩
  obtain ⟨pre, post, hp, v, hv, -, hpre⟩ := c123_first_of_the_best hm.ndt hl ha scan hn pose cov hr
    (by rw [hscore]; show (-1 : ℝ) < 0; norm_num)
  rw [ev] at hv
  cases hv
  have hmem := (mem_window _ _ _ _ hl ha t).mpr htw
  have hpw := window_pairwise mt'.linearSize mt'.linearRes mt'.angularSize mt'.angularRes hl ha
  rw [hp] at hmem hpw
  rcases List.mem_append.mp hmem with hmem | hmem
  · exact absurd htv (hpre t hmem)
  rcases List.mem_cons.mp hmem with hmem | hmem
  · exact hmem.symm
  exfalso
  have hearly : Earlier r.pose t := (List.pairwise_cons.mp (List.pairwise_append.mp hpw).2.1).1 t hmem
  apply hworse r.pose hrw _ ev
  obtain ⟨-, -, k3, eth, lth⟩ := id hrw
  by_cases hth : r.pose.theta = 0
  · obtain ⟨p, hpS, -⟩ := htwo
    refine ⟨p, hpS, fun e => hfirst r.pose hrw hth ?_ hearly⟩
    have w := hscan p hpS
    simp only [move, offset, hth, add_zero] at w e
    linarith
  · -- turned: two places on the wall cannot both stay on it
    have hth' : r.pose.theta < 0 := by
      rcases hearly with h1 | ⟨h1, -⟩
      · rwa [hturn] at h1
      · exact absurd (h1.trans hturn) hth
    obtain ⟨p, hpS, q, hqS, hne⟩ := htwo
    by_contra hall
    push Not at hall
    have e1 := hall p hpS
    have e2 := hall q hqS
    have w1 := hscan p hpS
    have w2 := hscan q hqS
    have hsin : Real.sin r.pose.theta < 0 := by
      apply Real.sin_neg_of_neg_of_neg_pi_lt hth'
      have : 0 ≤ k3 * mt'.angularRes := by positivity
      rw [eth]; linarith
    apply hne
    have key : b * ((move scan.pose p).x - (move scan.pose q).x) - a * ((move scan.pose p).y - (move scan.pose q).y) = 0 := by
      have : (b * ((move scan.pose p).x - (move scan.pose q).x) - a * ((move scan.pose p).y - (move scan.pose q).y)) * Real.sin r.pose.theta = 0 := by
        simp only [move, offset, Real.cos_add, Real.sin_add] at e1 e2 w1 w2 ⊢
        linear_combination e1 - e2 - Real.cos r.pose.theta * (w1 - w2)
      exact (mul_eq_zero.mp this).resolve_right hsin.ne
    have hn : 0 < a ^ 2 + b ^ 2 := by
      rcases hab with h | h <;> positivity
    have kx : (a ^ 2 + b ^ 2) * ((move scan.pose p).x - (move scan.pose q).x) = 0 := by linear_combination a * (w1 - w2) + b * key
    have ky : (a ^ 2 + b ^ 2) * ((move scan.pose p).y - (move scan.pose q).y) = 0 := by linear_combination b * (w1 - w2) - a * key
    have kx := (mul_eq_zero.mp kx).resolve_left hn.ne'
    have ky := (mul_eq_zero.mp ky).resolve_left hn.ne'
    ext
    · linarith
    · linarith

/-- **C157** (what holds) If the direction of the wall is such that no offset of the window other than zero keeps the scan on the wall, the scan stays where
it is. -/
theorem c157_held_partial {mt : Matcher} {scans : List Scan} {mt' : Matcher} {g : NdtGrid}
    (hm : GoodMap mt scans mt' g) {a b h : ℝ} (hab : a ≠ 0 ∨ b ≠ 0)
    (hwall : ∀ p ∈ mapPoints (scans.map .addScan), a * p.x + b * p.y = h)
    (hl : 0 < mt'.linearRes) (ha : 0 < mt'.angularRes) (hpi : mt'.angularSize < Real.pi) (scan : Scan) (hn : scan.points.length < 2 ^ 64)
    (hnear : ∀ o, InWindow mt'.linearSize mt'.linearRes mt'.angularSize mt'.angularRes o → NearAt mt' g scan o)
    (hscan : ∀ p ∈ samples scan.points (beamCount mt'.laserMaxBeams scan.points.length), a * (move scan.pose p).x + b * (move scan.pose p).y = h)
    (htwo : ∃ p ∈ samples scan.points (beamCount mt'.laserMaxBeams scan.points.length),
      ∃ q ∈ samples scan.points (beamCount mt'.laserMaxBeams scan.points.length), move scan.pose p ≠ move scan.pose q)
    (hzero : InWindow mt'.linearSize mt'.linearRes mt'.angularSize mt'.angularRes Pose2d.zero)
    (honly : ∀ o, InWindow mt'.linearSize mt'.linearRes mt'.angularSize mt'.angularRes o → o.theta = 0 → a * o.x + b * o.y = 0 → o = Pose2d.zero)
    (hgoes : ∀ p ∈ samples scan.points (beamCount mt'.laserMaxBeams scan.points.length),
      InExtents g.originX g.originY g.cellSize g.sizeX g.sizeY (move scan.pose p) ∧
      5 ≤ (inSquare g.originX g.originY g.cellSize (square g.originX g.originY g.cellSize (move scan.pose p)) (mapPoints (scans.map .addScan))).length)
    (pose : Pose2d) (cov : Mat3F) :
    ∃ r, mt'.matchScan scan pose cov = .ok r ∧ r.pose = Pose2d.zero ∧ r.score = .fin (-1) := by
  have e : offset scan.pose Pose2d.zero = scan.pose := by
    simp [offset, Pose2d.zero]
  refine c157_first_along_the_wall hm hab hwall hl ha hpi scan hn hnear hscan htwo hzero rfl (by simp [Pose2d.zero]) ?_ (by rw [e]; exact hgoes) pose cov
  intro o ho h1 h2 h3
  rw [honly o ho h1 h2] at h3
  rcases h3 with h3 | ⟨-, h3 | ⟨-, h3⟩⟩ <;> exact lt_irrefl _ h3

/-- Such a direction, with the default parameters: a wall that falls by one centimetre a metre. -/
theorem slope_holds (o : Pose2d) (ho : InWindow defaultMatcher.linearSize defaultMatcher.linearRes defaultMatcher.angularSize defaultMatcher.angularRes o)
    (ht : o.theta = 0) (h : 1 * o.x + 100 * o.y = 0) : o = Pose2d.zero := by
  obtain ⟨⟨k1, e1, l1⟩, ⟨k2, e2, l2⟩, -⟩ := ho
  have d1 : o.x = -0.05 + k1 * 0.005 := e1
  have d2 : o.y = -0.05 + k2 * 0.005 := e2
  have d3 : o.x < 0.05 := l1
  rw [d1, d2] at h
  rw [d1] at d3
  norm_num at h d3
  have f1 : (k1 : ℝ) < 20 := by linarith
  have f2 : (k1 : ℝ) + 100 * k2 = 1010 := by linarith
  have g1 : k1 < 20 := by exact_mod_cast f1
  have g2 : k1 + 100 * k2 = 1010 := by exact_mod_cast f2
  obtain ⟨rfl, rfl⟩ : k1 = 10 ∧ k2 = 10 := by omega
  norm_num at d1 d2
  ext
  · exact d1
  · exact d2
  · exact ht

/-- **C157** (where it fails) A scan of a wall parallel to the y axis is pushed by `(0, -linear_size, 0)`. -/
theorem c157_pushed_down_the_wall {mt : Matcher} {scans : List Scan} {mt' : Matcher} {g : NdtGrid}
    (hm : GoodMap mt scans mt' g) {h : ℝ} (hwall : ∀ p ∈ mapPoints (scans.map .addScan), p.x = h)
    (hl : 0 < mt'.linearRes) (ha : 0 < mt'.angularRes) (nl na : ℕ) (hnl : 0 < nl) (hna : 0 < na)
    (hls : mt'.linearSize = nl * mt'.linearRes) (has : mt'.angularSize = na * mt'.angularRes)
    (hpi : mt'.angularSize < Real.pi)
    (scan : Scan) (hn : scan.points.length < 2 ^ 64)
    (hnear : ∀ o, InWindow mt'.linearSize mt'.linearRes mt'.angularSize mt'.angularRes o → NearAt mt' g scan o)
    (hscan : ∀ p ∈ samples scan.points (beamCount mt'.laserMaxBeams scan.points.length), (move scan.pose p).x = h)
    (htwo : ∃ p ∈ samples scan.points (beamCount mt'.laserMaxBeams scan.points.length),
      ∃ q ∈ samples scan.points (beamCount mt'.laserMaxBeams scan.points.length), move scan.pose p ≠ move scan.pose q)
    (hgoes : ∀ p ∈ samples scan.points (beamCount mt'.laserMaxBeams scan.points.length),
      InExtents g.originX g.originY g.cellSize g.sizeX g.sizeY (move (offset scan.pose ⟨0, -mt'.linearSize, 0⟩) p) ∧
      5 ≤ (inSquare g.originX g.originY g.cellSize
        (square g.originX g.originY g.cellSize (move (offset scan.pose ⟨0, -mt'.linearSize, 0⟩) p))
        (mapPoints (scans.map .addScan))).length)
    (pose : Pose2d) (cov : Mat3F) :
    ∃ r, mt'.matchScan scan pose cov = .ok r ∧ r.pose = ⟨0, -mt'.linearSize, 0⟩ ∧ r.score = .fin (-1) := by
  have hnl' : (0 : ℝ) < nl := by exact_mod_cast hnl
  have hna' : (0 : ℝ) < na := by exact_mod_cast hna
  refine c157_first_along_the_wall hm (a := 1) (b := 0) (h := h) (Or.inl one_ne_zero) (by simpa using hwall) hl ha hpi scan hn hnear (by simpa using hscan) htwo
    (t := ⟨0, -mt'.linearSize, 0⟩) ?_ rfl (by simp) ?_ hgoes pose cov
  · refine ⟨⟨nl, by simp only [hls]; ring, ?_⟩, ⟨0, by simp, ?_⟩, ⟨na, by simp only [has]; ring, ?_⟩⟩
    · show 0 < mt'.linearSize
      rw [hls]; positivity
    · show -mt'.linearSize < mt'.linearSize
      rw [hls]; have : 0 < nl * mt'.linearRes := by positivity
      linarith
    · show 0 < mt'.angularSize
      rw [has]; positivity
  · rintro ⟨dx, dy, dth⟩ ⟨-, ⟨k2, l2, -⟩, -⟩ e e2 (h | ⟨-, h | ⟨-, h⟩⟩)
    · simp only at e h
      linarith
    · simp only at e2 h
      linarith
    · have : 0 ≤ (k2 : ℝ) * mt'.linearRes := by positivity
      simp only at l2 h
      linarith

/-! ### A wall met with the default parameters -/

/-- A point of the line `a x + b y = h` in a square. -/
def OnLine (a b h : ℝ) (q : Point) : Prop := a * q.x + b * q.y = h ∧ (1 / 10 ≤ q.x ∧ q.x ≤ 18 / 100) ∧ 9 / 100 ≤ q.y ∧ q.y ≤ 18 / 100

theorem slant_square {a b c : ℝ} {q : Point} (h : OnLine a b c q) : square (-10) (-10) (1 / 4) q = (40, 40) := by
  obtain ⟨-, ⟨h1, h2⟩, h3, h4⟩ := h
  simp only [square, Prod.mk.injEq, Int.floor_eq_iff]
  refine ⟨⟨?_, ?_⟩, ?_, ?_⟩ <;> norm_num <;> linarith

/-- A scan from the origin of at least five places on the piece. -/
structure SeesLine (a b h : ℝ) (s : Scan) : Prop where
  x : s.pose.x = 0
  y : s.pose.y = 0
  on : ∀ p ∈ s.points, OnLine a b h (move s.pose p)
  five : 5 ≤ s.points.length
  few : s.points.length ≤ 100
  two : ∃ p ∈ s.points, ∃ q ∈ s.points, move s.pose p ≠ move s.pose q

theorem slant_bbox {a b h : ℝ} (s : Scan) (hs : SeesLine a b h s) : Matcher.bbox 10 [s] = ⟨-10, 10, -10, 10⟩ := by
  have h1 := dblMax_nonneg
  have h2 := dblMin_le_one
  simp only [Matcher.bbox, List.foldl_cons, List.foldl_nil, Scan.getPose, hs.x, hs.y, zero_sub, zero_add]
  rw [min_eq_left (by linarith), max_eq_left (by linarith)]

theorem slant_points (s : Scan) : mapPoints ([s].map .addScan) = s.points.map (move s.pose) := by
  simp [mapPoints]

theorem slant_near {a b h : ℝ} {s : Scan} (hs : SeesLine a b h s) :
    ∀ p ∈ mapPoints ([s].map .addScan), Near (-10) (-10) (1 / 4) p := by
  rw [slant_points]
  intro p hp
  obtain ⟨q, hq, rfl⟩ := List.mem_map.mp hp
  obtain ⟨-, ⟨h1, h2⟩, h3, h4⟩ := hs.on q hq
  constructor <;> norm_num <;> linarith

theorem slant_inSquare {a b h : ℝ} {s : Scan} (hs : SeesLine a b h s) :
    inSquare (-10) (-10) (1 / 4) (40, 40) (s.points.map (move s.pose)) = s.points.map (move s.pose) := by
  unfold inSquare
  rw [List.filter_eq_self]
  intro p hp
  obtain ⟨q, hq, rfl⟩ := List.mem_map.mp hp
  exact decide_eq_true (slant_square (hs.on q hq))

/-- The map of such a scan. -/
theorem slant_goodMap {a b h : ℝ} (mt : Matcher) (hres : mt.resolution = 1 / 4) (hR : mt.rangeMax = 10) (s : Scan)
    (hs : SeesLine a b h s) : ∃ g, GoodMap mt [s] { mt with ndt := some g } g ∧ g.originX = -10 ∧ g.originY = -10 ∧
    g.cellSize = 1 / 4 ∧ g.sizeX = 81 ∧ g.sizeY = 81 := by
  have hsm : cols 20 (1 / 4) * cols 20 (1 / 4) ≤ 2 ^ 31 := by rw [piece_cols]; norm_num
  obtain ⟨g0, hg0, hw, e0, e1, e2, e3, e4, -⟩ := NdtGrid.new_wf (c := 1 / 4) (sx := 20) (sy := 20) (ox := -10)
    (oy := -10) (by norm_num) (by norm_num) (by norm_num) hsm
  obtain ⟨g, hg, geo, -⟩ := NdtGrid.run_spec ([s].map .addScan ++ [.compute]) hw (by
    rw [e0, e1, e2, mapPoints_append]
    simpa [mapPoints] using slant_near hs)
  have hok : mt.addScans [s] = .ok { mt with ndt := some g } := by
    rw [addScans_eq, hR, slant_bbox s hs, hres]
    simp only
    have h8 : (10 : ℝ) - -10 = 20 := by norm_num
    rw [h8, hg0]
    simp only [Res.ok_bind]
    rw [hg]
    rfl
  refine ⟨g, ⟨by rw [hres]; norm_num, by rw [hR]; norm_num, by simp, hok, rfl, ?_, ?_, ?_⟩, ?_, ?_, ?_, ?_, ?_⟩
  · rw [geo.sizeX, geo.sizeY]; exact hw.small
  · rw [geo.originX, geo.originY, geo.cellSize, e0, e1, e2]; exact slant_near hs
  · rw [geo.originX, geo.originY, geo.cellSize, e0, e1, e2, slant_points]
    intro k
    by_cases hk : k = (40, 40)
    · right
      rw [hk, slant_inSquare hs]
      rintro ⟨q, hq⟩
      obtain ⟨a, ha, b, hb, hne⟩ := hs.two
      rw [hq _ (List.mem_map_of_mem ha), hq _ (List.mem_map_of_mem hb)] at hne
      exact hne rfl
    · left
      have : inSquare (-10) (-10) (1 / 4) k (s.points.map (move s.pose)) = [] := by
        unfold inSquare
        rw [List.filter_eq_nil_iff]
        intro p hp
        obtain ⟨q, hq, rfl⟩ := List.mem_map.mp hp
        simp only [slant_square (hs.on q hq), decide_eq_true_eq]
        exact fun h => hk h.symm
      rw [this]; simp
  · rw [geo.originX, e1]
  · rw [geo.originY, e2]
  · rw [geo.cellSize, e0]
  · rw [geo.sizeX, e3, piece_cols]
  · rw [geo.sizeY, e4, piece_cols]

/-- Two scans of the piece, from the origin but with any headings, matched with the default parameters: the second one
is pushed by 5 cm in x and in y. -/
theorem slant_pushed (s1 s2 : Scan) (h1 : SeesLine 1 (-1) 0 s1) (h2 : SeesLine 1 (-1) 0 s2) :
    ∃ mt', Matcher.addScans { defaultMatcher with rangeMax := 10 } [s1] = .ok mt' ∧
    ∀ pose cov, ∃ r, mt'.matchScan s2 pose cov = .ok r ∧ r.pose = ⟨-0.05, -0.05, 0⟩ ∧ r.score = .fin (-1) := by
  obtain ⟨g, hm, e1, e2, e0, e3, e4⟩ := slant_goodMap { defaultMatcher with rangeMax := 10 }
    (by norm_num [defaultMatcher]) rfl s1 h1
  refine ⟨_, hm.ok, ?_⟩
  intro pose cov
  have hS : samples s2.points (beamCount 100 s2.points.length) = s2.points := (c12_samples_are_points _ _).2.2 h2.few
  have hmv : ∀ p, move (offset s2.pose ⟨-0.05, -0.05, 0⟩) p = ⟨(move s2.pose p).x - 1 / 20, (move s2.pose p).y - 1 / 20⟩ := by
    intro p
    ext
    · simp only [move, offset, add_zero]; ring
    · simp only [move, offset, add_zero]; ring
  have hnorm : ∀ p ∈ s2.points, p.x ^ 2 + p.y ^ 2 ≤ 1 := by
    intro p hp
    obtain ⟨-, ⟨a1, a2⟩, a3, a4⟩ := h2.on p hp
    have e : p.x ^ 2 + p.y ^ 2 = (move s2.pose p).x ^ 2 + (move s2.pose p).y ^ 2 := by
      simp only [move, h2.x, h2.y, zero_add]
      have := Real.sin_sq_add_cos_sq s2.pose.theta
      linear_combination -(p.x ^ 2 + p.y ^ 2) * this
    rw [e]
    nlinarith
  refine c157_first_along_the_wall hm (a := 1) (b := -1) (h := 0) (Or.inl one_ne_zero) ?_ (by norm_num [defaultMatcher]) (by norm_num [defaultMatcher])
    (by have := Real.two_le_pi; norm_num [defaultMatcher]; linarith) s2 (lt_of_le_of_lt h2.few (by norm_num))
    ?_ ?_ ?_ (t := ⟨-0.05, -0.05, 0⟩) ?_ rfl (by norm_num) ?_ ?_ pose cov
  · rw [slant_points]
    intro p hp
    obtain ⟨q, hq, rfl⟩ := List.mem_map.mp hp
    have := (h1.on q hq).1
    linarith
  · rintro ⟨dx, dy, dth⟩ ⟨⟨-, -, l1⟩, ⟨-, -, l2⟩, -⟩
    show ∀ p ∈ samples s2.points (beamCount 100 s2.points.length), _
    rw [hS, e0, e1, e2]
    intro p hp
    simp only [defaultMatcher] at l1 l2
    have hn := hnorm p hp
    generalize hth : s2.pose.theta + dth = th
    have c := Real.sin_sq_add_cos_sq th
    have b1 : p.x * Real.cos th - p.y * Real.sin th ≤ 1 := by
      nlinarith [sq_nonneg (p.x * Real.sin th + p.y * Real.cos th), sq_nonneg (p.x * Real.cos th - p.y * Real.sin th - 1)]
    have b2 : p.x * Real.sin th + p.y * Real.cos th ≤ 1 := by
      nlinarith [sq_nonneg (p.x * Real.cos th - p.y * Real.sin th), sq_nonneg (p.x * Real.sin th + p.y * Real.cos th - 1)]
    constructor
    · simp only [move, offset, h2.x, zero_add, hth]
      norm_num at l1 l2 ⊢
      linarith
    · simp only [move, offset, h2.y, zero_add, hth]
      norm_num at l1 l2 ⊢
      linarith
  · show ∀ p ∈ samples s2.points (beamCount 100 s2.points.length), _
    rw [hS]
    intro p hp
    have := (h2.on p hp).1
    linarith
  · show ∃ p ∈ samples s2.points (beamCount 100 s2.points.length),
      ∃ q ∈ samples s2.points (beamCount 100 s2.points.length), _
    rw [hS]
    exact h2.two
  · refine ⟨⟨0, by norm_num [defaultMatcher], by norm_num [defaultMatcher]⟩, ⟨0, by norm_num [defaultMatcher], by norm_num [defaultMatcher]⟩,
      ⟨40, by norm_num [defaultMatcher], by norm_num [defaultMatcher]⟩⟩
  · rintro ⟨dx, dy, dth⟩ ⟨⟨k1, l1, -⟩, ⟨k2, l2, -⟩, -⟩ e _ (h | ⟨-, h | ⟨-, h⟩⟩)
    · simp only at e h
      linarith
    · have : (0 : ℝ) ≤ k1 := Nat.cast_nonneg _
      norm_num [defaultMatcher] at l1 h
      linarith
    · have : (0 : ℝ) ≤ k2 := Nat.cast_nonneg _
      norm_num [defaultMatcher] at l2 h
      linarith
  · show ∀ p ∈ samples s2.points (beamCount 100 s2.points.length), _
    rw [hS, e0, e1, e2, e3, e4, slant_points]
    intro p hp
    show InExtents _ _ _ _ _ (move (offset s2.pose ⟨-0.05, -0.05, 0⟩) p) ∧ 5 ≤ (inSquare _ _ _
      (square _ _ _ (move (offset s2.pose ⟨-0.05, -0.05, 0⟩) p)) _).length
    rw [hmv]
    obtain ⟨-, ⟨a1, a2⟩, a3, a4⟩ := h2.on p hp
    have hsq : square (-10) (-10) (1 / 4) ⟨(move s2.pose p).x - 1 / 20, (move s2.pose p).y - 1 / 20⟩ = (40, 40) := by
      simp only [square, Prod.mk.injEq, Int.floor_eq_iff]
      refine ⟨⟨?_, ?_⟩, ?_, ?_⟩ <;> norm_num <;> linarith
    rw [hsq, slant_inSquare h1]
    refine ⟨?_, by rw [List.length_map]; exact h1.five⟩
    unfold InExtents
    refine ⟨?_, ?_, ?_, ?_⟩ <;> norm_num <;> linarith

/-- Two scans of a wall parallel to the y axis: the second one is pushed by 5 cm. -/
theorem down_pushed (s1 s2 : Scan) (h1 : SeesLine 1 0 (1 / 10) s1) (h2 : SeesLine 1 0 (1 / 10) s2) :
    ∃ mt', Matcher.addScans { defaultMatcher with rangeMax := 10 } [s1] = .ok mt' ∧
    ∀ pose cov, ∃ r, mt'.matchScan s2 pose cov = .ok r ∧ r.pose = ⟨0, -0.05, 0⟩ ∧ r.score = .fin (-1) := by
  obtain ⟨g, hm, e1, e2, e0, e3, e4⟩ := slant_goodMap { defaultMatcher with rangeMax := 10 }
    (by norm_num [defaultMatcher]) rfl s1 h1
  refine ⟨_, hm.ok, ?_⟩
  intro pose cov
  have hS : samples s2.points (beamCount 100 s2.points.length) = s2.points := (c12_samples_are_points _ _).2.2 h2.few
  have hmv : ∀ p, move (offset s2.pose ⟨0, -0.05, 0⟩) p = ⟨(move s2.pose p).x, (move s2.pose p).y - 1 / 20⟩ := by
    intro p
    ext
    · simp only [move, offset, add_zero]
    · simp only [move, offset, add_zero]; ring
  have hnorm : ∀ p ∈ s2.points, p.x ^ 2 + p.y ^ 2 ≤ 1 := by
    intro p hp
    obtain ⟨-, ⟨a1, a2⟩, a3, a4⟩ := h2.on p hp
    have e : p.x ^ 2 + p.y ^ 2 = (move s2.pose p).x ^ 2 + (move s2.pose p).y ^ 2 := by
      simp only [move, h2.x, h2.y, zero_add]
      have := Real.sin_sq_add_cos_sq s2.pose.theta
      linear_combination -(p.x ^ 2 + p.y ^ 2) * this
    rw [e]
    nlinarith
  refine c157_pushed_down_the_wall hm (h := 1 / 10) ?_ (by norm_num [defaultMatcher]) (by norm_num [defaultMatcher])
    10 40 (by norm_num) (by norm_num) (by norm_num [defaultMatcher]) (by norm_num [defaultMatcher])
    (by have := Real.two_le_pi; norm_num [defaultMatcher]; linarith) s2 (lt_of_le_of_lt h2.few (by norm_num))
    ?_ ?_ ?_ ?_ pose cov
  · rw [slant_points]
    intro p hp
    obtain ⟨q, hq, rfl⟩ := List.mem_map.mp hp
    have := (h1.on q hq).1
    linarith
  · rintro ⟨dx, dy, dth⟩ ⟨⟨-, -, l1⟩, ⟨-, -, l2⟩, -⟩
    show ∀ p ∈ samples s2.points (beamCount 100 s2.points.length), _
    rw [hS, e0, e1, e2]
    intro p hp
    simp only [defaultMatcher] at l1 l2
    have hn := hnorm p hp
    generalize hth : s2.pose.theta + dth = th
    have c := Real.sin_sq_add_cos_sq th
    have b1 : p.x * Real.cos th - p.y * Real.sin th ≤ 1 := by
      nlinarith [sq_nonneg (p.x * Real.sin th + p.y * Real.cos th), sq_nonneg (p.x * Real.cos th - p.y * Real.sin th - 1)]
    have b2 : p.x * Real.sin th + p.y * Real.cos th ≤ 1 := by
      nlinarith [sq_nonneg (p.x * Real.cos th - p.y * Real.sin th), sq_nonneg (p.x * Real.sin th + p.y * Real.cos th - 1)]
    constructor
    · simp only [move, offset, h2.x, zero_add, hth]
      norm_num at l1 l2 ⊢
      linarith
    · simp only [move, offset, h2.y, zero_add, hth]
      norm_num at l1 l2 ⊢
      linarith
  · show ∀ p ∈ samples s2.points (beamCount 100 s2.points.length), _
    rw [hS]
    intro p hp
    have := (h2.on p hp).1
    linarith
  · show ∃ p ∈ samples s2.points (beamCount 100 s2.points.length),
      ∃ q ∈ samples s2.points (beamCount 100 s2.points.length), _
    rw [hS]
    exact h2.two
  · show ∀ p ∈ samples s2.points (beamCount 100 s2.points.length), _
    rw [hS, e0, e1, e2, e3, e4, slant_points]
    intro p hp
    show InExtents _ _ _ _ _ (move (offset s2.pose ⟨0, -0.05, 0⟩) p) ∧ 5 ≤ (inSquare _ _ _
      (square _ _ _ (move (offset s2.pose ⟨0, -0.05, 0⟩) p)) _).length
    rw [hmv]
    obtain ⟨-, ⟨a1, a2⟩, a3, a4⟩ := h2.on p hp
    have hsq : square (-10) (-10) (1 / 4) ⟨(move s2.pose p).x, (move s2.pose p).y - 1 / 20⟩ = (40, 40) := by
      simp only [square, Prod.mk.injEq, Int.floor_eq_iff]
      refine ⟨⟨?_, ?_⟩, ?_, ?_⟩ <;> norm_num <;> linarith
    rw [hsq, slant_inSquare h1]
    refine ⟨?_, by rw [List.length_map]; exact h1.five⟩
    unfold InExtents
    refine ⟨?_, ?_, ?_, ?_⟩ <;> norm_num <;> linarith

/-- Two scans of a wall that falls by one centimetre a metre: the second one stays where it is. -/
theorem slope_held (s1 s2 : Scan) (h1 : SeesLine 1 100 10.1 s1) (h2 : SeesLine 1 100 10.1 s2) :
    ∃ mt', Matcher.addScans { defaultMatcher with rangeMax := 10 } [s1] = .ok mt' ∧
    ∀ pose cov, ∃ r, mt'.matchScan s2 pose cov = .ok r ∧ r.pose = Pose2d.zero ∧ r.score = .fin (-1) := by
  obtain ⟨g, hm, e1, e2, e0, e3, e4⟩ := slant_goodMap { defaultMatcher with rangeMax := 10 }
    (by norm_num [defaultMatcher]) rfl s1 h1
  refine ⟨_, hm.ok, ?_⟩
  intro pose cov
  have hS : samples s2.points (beamCount 100 s2.points.length) = s2.points := (c12_samples_are_points _ _).2.2 h2.few
  have hnorm : ∀ p ∈ s2.points, p.x ^ 2 + p.y ^ 2 ≤ 1 := by
    intro p hp
    obtain ⟨-, ⟨a1, a2⟩, a3, a4⟩ := h2.on p hp
    have e : p.x ^ 2 + p.y ^ 2 = (move s2.pose p).x ^ 2 + (move s2.pose p).y ^ 2 := by
      simp only [move, h2.x, h2.y, zero_add]
      have := Real.sin_sq_add_cos_sq s2.pose.theta
      linear_combination -(p.x ^ 2 + p.y ^ 2) * this
    rw [e]
    nlinarith
  refine c157_held_partial hm (a := 1) (b := 100) (h := 10.1) (Or.inl one_ne_zero) ?_ (by norm_num [defaultMatcher]) (by norm_num [defaultMatcher])
    (by have := Real.two_le_pi; norm_num [defaultMatcher]; linarith) s2 (lt_of_le_of_lt h2.few (by norm_num))
    ?_ ?_ ?_ ?_ (fun o ho ht h => slope_holds o ho ht h) ?_ pose cov
  · rw [slant_points]
    intro p hp
    obtain ⟨q, hq, rfl⟩ := List.mem_map.mp hp
    have := (h1.on q hq).1
    linarith
  · rintro ⟨dx, dy, dth⟩ ⟨⟨-, -, l1⟩, ⟨-, -, l2⟩, -⟩
    show ∀ p ∈ samples s2.points (beamCount 100 s2.points.length), _
    rw [hS, e0, e1, e2]
    intro p hp
    simp only [defaultMatcher] at l1 l2
    have hn := hnorm p hp
    generalize hth : s2.pose.theta + dth = th
    have c := Real.sin_sq_add_cos_sq th
    have b1 : p.x * Real.cos th - p.y * Real.sin th ≤ 1 := by
      nlinarith [sq_nonneg (p.x * Real.sin th + p.y * Real.cos th), sq_nonneg (p.x * Real.cos th - p.y * Real.sin th - 1)]
    have b2 : p.x * Real.sin th + p.y * Real.cos th ≤ 1 := by
      nlinarith [sq_nonneg (p.x * Real.cos th - p.y * Real.sin th), sq_nonneg (p.x * Real.sin th + p.y * Real.cos th - 1)]
    constructor
    · simp only [move, offset, h2.x, zero_add, hth]
      norm_num at l1 l2 ⊢
      linarith
    · simp only [move, offset, h2.y, zero_add, hth]
      norm_num at l1 l2 ⊢
      linarith
  · show ∀ p ∈ samples s2.points (beamCount 100 s2.points.length), _
    rw [hS]
    intro p hp
    have := (h2.on p hp).1
    linarith
  · show ∃ p ∈ samples s2.points (beamCount 100 s2.points.length),
      ∃ q ∈ samples s2.points (beamCount 100 s2.points.length), _
    rw [hS]
    exact h2.two
  · refine ⟨⟨10, by norm_num [defaultMatcher, Pose2d.zero], by norm_num [defaultMatcher, Pose2d.zero]⟩,
      ⟨10, by norm_num [defaultMatcher, Pose2d.zero], by norm_num [defaultMatcher, Pose2d.zero]⟩,
      ⟨40, by norm_num [defaultMatcher, Pose2d.zero], by norm_num [defaultMatcher, Pose2d.zero]⟩⟩
  · show ∀ p ∈ samples s2.points (beamCount 100 s2.points.length), _
    rw [hS, e0, e1, e2, e3, e4, slant_points]
    intro p hp
    rw [slant_square (h2.on p hp), slant_inSquare h1]
    obtain ⟨-, ⟨a1, a2⟩, a3, a4⟩ := h2.on p hp
    refine ⟨?_, by rw [List.length_map]; exact h1.five⟩
    unfold InExtents
    refine ⟨?_, ?_, ?_, ?_⟩ <;> norm_num <;> linarith

/-- Five points of the wall `y = x`. -/
def slantPts : List Point :=
  [⟨1 / 10, 1 / 10⟩, ⟨12 / 100, 12 / 100⟩, ⟨14 / 100, 14 / 100⟩, ⟨16 / 100, 16 / 100⟩, ⟨18 / 100, 18 / 100⟩]

/-- A scan of the wall from the origin. -/
def slantScan : Scan := ⟨0, true, ⟨0, 0, 0⟩, Pose2d.zero, slantPts⟩

theorem slantScan_sees : SeesLine 1 (-1) 0 slantScan where
  x := rfl
  y := rfl
  on := by
    intro p hp
    have e : move slantScan.pose p = p := by ext <;> simp [move, slantScan]
    rw [e]
    simp only [slantScan, slantPts, List.mem_cons, List.not_mem_nil, or_false] at hp
    rcases hp with rfl | rfl | rfl | rfl | rfl <;> unfold OnLine <;> norm_num
  five := by simp [slantScan, slantPts]
  few := by simp [slantScan, slantPts]
  two := by
    refine ⟨⟨1 / 10, 1 / 10⟩, by simp [slantScan, slantPts], ⟨12 / 100, 12 / 100⟩, by simp [slantScan, slantPts], ?_⟩
    norm_num [move, slantScan]

/-- **C157** (where it fails, with the default parameters) A scan of a wall at 45 degrees matched against the map made of that very scan: the
correction is 5 cm in x and in y. -/
theorem c157_own_map_pushes : ∃ mt', Matcher.addScans { defaultMatcher with rangeMax := 10 } [slantScan] = .ok mt' ∧
    ∀ pose cov, ∃ r, mt'.matchScan slantScan pose cov = .ok r ∧ r.pose = ⟨-0.05, -0.05, 0⟩ ∧ r.score = .fin (-1) :=
  slant_pushed slantScan slantScan slantScan_sees slantScan_sees

/-- The hypotheses of `c157_held_partial`: five points of the wall that falls by one centimetre a metre. -/
def slopePts : List Point :=
  [⟨1 / 10, 1 / 10⟩, ⟨12 / 100, 998 / 10000⟩, ⟨14 / 100, 996 / 10000⟩, ⟨16 / 100, 994 / 10000⟩, ⟨18 / 100, 992 / 10000⟩]

/-- A scan of them from the origin. -/
def slopeScan : Scan := ⟨0, true, ⟨0, 0, 0⟩, Pose2d.zero, slopePts⟩

theorem slopeScan_sees : SeesLine 1 100 10.1 slopeScan where
  x := rfl
  y := rfl
  on := by
    intro p hp
    have e : move slopeScan.pose p = p := by ext <;> simp [move, slopeScan]
    rw [e]
    simp only [slopeScan, slopePts, List.mem_cons, List.not_mem_nil, or_false] at hp
    rcases hp with rfl | rfl | rfl | rfl | rfl <;> unfold OnLine <;> norm_num
  five := by simp [slopeScan, slopePts]
  few := by simp [slopeScan, slopePts]
  two := by
    refine ⟨⟨1 / 10, 1 / 10⟩, by simp [slopeScan, slopePts], ⟨12 / 100, 998 / 10000⟩, by simp [slopeScan, slopePts], ?_⟩
    norm_num [move, slopeScan]

example : ∃ mt', Matcher.addScans { defaultMatcher with rangeMax := 10 } [slopeScan] = .ok mt' ∧
    ∀ pose cov, ∃ r, mt'.matchScan slopeScan pose cov = .ok r ∧ r.pose = Pose2d.zero ∧ r.score = .fin (-1) :=
  slope_held slopeScan slopeScan slopeScan_sees slopeScan_sees

/-- A scan from the origin of five points of a wall parallel to the y axis. -/
def uprightScan : Scan := ⟨0, true, ⟨0, 0, 0⟩, Pose2d.zero, slantPts.map fun p => ⟨1 / 10, p.y⟩⟩

/-- The hypotheses of `c157_pushed_down_the_wall`: such a scan against its own map. -/
example : ∃ mt', Matcher.addScans { defaultMatcher with rangeMax := 10 } [uprightScan] = .ok mt' ∧
    ∀ pose cov, ∃ r, mt'.matchScan uprightScan pose cov = .ok r ∧ r.pose = ⟨0, -0.05, 0⟩ ∧ r.score = .fin (-1) := by
  have h : SeesLine 1 0 (1 / 10) uprightScan := by
    refine ⟨rfl, rfl, ?_, by simp [uprightScan, slantPts], by simp [uprightScan, slantPts], ?_⟩
    · intro p hp
      have e : move uprightScan.pose p = p := by ext <;> simp [move, uprightScan]
      rw [e]
      simp only [uprightScan, slantPts, List.map_cons, List.map_nil, List.mem_cons, List.not_mem_nil, or_false] at hp
      rcases hp with rfl | rfl | rfl | rfl | rfl <;> unfold OnLine <;> norm_num
    · refine ⟨⟨1 / 10, 1 / 10⟩, by simp [uprightScan, slantPts], ⟨1 / 10, 12 / 100⟩, by simp [uprightScan, slantPts], ?_⟩
      norm_num [move, uprightScan]
  exact down_pushed uprightScan uprightScan h h

end

end Ndt
