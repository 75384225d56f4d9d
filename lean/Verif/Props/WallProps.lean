import Verif.Proof.Wall
import Verif.Proof.DemoNode

/-! # C123: a scan that fits stays where it is -/

namespace Ndt

open Spec

noncomputable section

/-- **C123** Among equally good offsets the first of the search is taken: every offset searched earlier has another
value than the one written to `pose`. -/
theorem c123_first_of_the_best {mt : Matcher} {g : NdtGrid} (hg : mt.ndt = some g)
    (hl : 0 < mt.linearRes) (ha : 0 < mt.angularRes) (scan : Scan) (hn : scan.points.length < 2 ^ 64)
    (pose : Pose2d) (cov : Mat3F) {r : Matcher.MatchResult} (h : mt.matchScan scan pose cov = .ok r)
    (hb : r.score < .fin 0) :
    ∃ pre post, window mt.linearSize mt.linearRes mt.angularSize mt.angularRes = pre ++ r.pose :: post ∧
      ∃ v, candidate mt g scan r.pose = .ok v ∧
        r.score = -v / .fin (beamCount mt.laserMaxBeams scan.points.length : ℕ) ∧
        ∀ o ∈ pre, candidate mt g scan o ≠ .ok v := by
  unfold Matcher.matchScan at h
  rw [hg] at h
  simp only [Scan.getPoints, Scan.getPose, if_neg (not_endless hl ha)] at h
  rw [search_eq mt hl ha g _ _ (min_le_right _ _) hn] at h
  set a0 : Matcher.SearchAcc :=
    { best := .fin 0, pose := pose, k := fun _ _ => .fin 0, u := fun _ => .fin 0, s := .fin 0 } with ha0
  have hev := foldlM_eval (window mt.linearSize mt.linearRes mt.angularSize mt.angularRes)
    (candLik g (samples scan.points (min mt.laserMaxBeams scan.points.length)) scan.pose)
    (fun a o v => accUpd a o (-v)) a0
  cases hs : (window mt.linearSize mt.linearRes mt.angularSize mt.angularRes).foldlM
      (fun a o => do
        let v ← candLik g (samples scan.points (min mt.laserMaxBeams scan.points.length)) scan.pose o
        (pure (accUpd a o (-v)) : Res _)) a0 with
  | error e => rw [hs] at h; cases h
  | ok a =>
    rw [hs] at h
    cases h
    have hok := hev.2 a hs
    classical
    let w : Pose2d → Fl := fun o =>
      if ho : ∃ v, candLik g (samples scan.points (min mt.laserMaxBeams scan.points.length)) scan.pose o = .ok v
      then ho.choose else .nan
    have hw : ∀ o ∈ window mt.linearSize mt.linearRes mt.angularSize mt.angularRes,
        candLik g (samples scan.points (min mt.laserMaxBeams scan.points.length)) scan.pose o = .ok (w o) := by
      intro o ho
      have hex := hok o ho
      simp only [w, dif_pos hex]
      exact hex.choose_spec
    have hfold := hev.1 w hw
    rw [hs] at hfold
    have ea : a = List.foldl (fun s x => accUpd s x (-(w x))) a0
        (window mt.linearSize mt.linearRes mt.angularSize mt.angularRes) := by injection hfold
    have hfirst := foldl_first (window mt.linearSize mt.linearRes mt.angularSize mt.angularRes)
      (fun o => -(w o)) a0
    have hbest := (foldl_best (window mt.linearSize mt.linearRes mt.angularSize mt.angularRes)
      (fun o => -(w o)) a0).2.2
    simp only at hfirst hbest
    rw [← ea] at hfirst hbest
    have hlt : a.best < a0.best := by
      rcases hbest with ⟨e, -⟩ | ⟨e, -⟩
      · exfalso
        rw [show a0.best = .fin 0 from rfl] at e
        change a.best / .fin _ < .fin 0 at hb
        rw [e] at hb
        by_cases hz : ((min mt.laserMaxBeams scan.points.length : ℕ) : ℝ) = 0
        · rw [hz] at hb
          have : (Fl.fin 0 / Fl.fin 0 : Fl) = .nan := by
            simp [HDiv.hDiv, Div.div, Fl.div]
          rw [this] at hb
          exact Fl.nan_lt _ hb
        · rw [Fl.fin_div hz, zero_div] at hb
          exact Fl.not_lt_self _ hb
      · exact e
    obtain ⟨pre, post, hp, hne⟩ := hfirst hlt
    have hmem : a.pose ∈ window mt.linearSize mt.linearRes mt.angularSize mt.angularRes := by
      rw [hp]; simp
    have eb : a.best = -(w a.pose) := by
      rcases hbest with ⟨e, -⟩ | ⟨-, -, e⟩
      · rw [e] at hlt; exact absurd hlt (Fl.not_lt_self _)
      · exact e
    refine ⟨pre, post, hp, w a.pose, hw _ hmem, by rw [← eb]; rfl, ?_⟩
    intro o ho he
    have h1 := hw o (by rw [hp]; simp [ho])
    unfold candidate at he
    change candLik _ _ _ _ = _ at he
    rw [show beamCount mt.laserMaxBeams scan.points.length = min mt.laserMaxBeams scan.points.length from rfl,
      h1] at he
    apply hne o ho
    rw [eb]
    injection he with he
    rw [he]

/-- **C123** The part that holds: if one offset is strictly better than all others of the window, it is the one
returned - in particular a scan that fits strictly best where it is stays there. -/
theorem c123_strictly_best_is_taken_partial {mt : Matcher} {g : NdtGrid} (hg : mt.ndt = some g)
    (hl : 0 < mt.linearRes) (ha : 0 < mt.angularRes) (scan : Scan) (hn : scan.points.length < 2 ^ 64)
    (pose : Pose2d) (cov : Mat3F) {r : Matcher.MatchResult} (h : mt.matchScan scan pose cov = .ok r)
    (o : Pose2d) (ho : InWindow mt.linearSize mt.linearRes mt.angularSize mt.angularRes o) (v : ℝ) (hv0 : 0 < v)
    (hv : candidate mt g scan o = .ok (.fin v))
    (hlt : ∀ o', InWindow mt.linearSize mt.linearRes mt.angularSize mt.angularRes o' → o' ≠ o →
      ∃ v' < v, candidate mt g scan o' = .ok (.fin v')) :
    r.pose = o := by
  obtain ⟨best, -, h2, h3⟩ := c13_match_returns_best_candidate hg hl ha scan hn pose cov h
  obtain ⟨x, hx, hnb⟩ := h2 o ho
  rw [hv] at hx
  cases hx
  rw [Fl.fin_neg] at hnb
  rcases h3 with ⟨e, -⟩ | ⟨-, hw, y, hy, e⟩
  · rw [e] at hnb
    exact absurd (show (-v : ℝ) < 0 by linarith) hnb
  · by_contra hne
    obtain ⟨v', hv', hc⟩ := hlt r.pose hw hne
    rw [hy] at hc
    cases hc
    rw [e, Fl.fin_neg] at hnb
    exact hnb (show (-v : ℝ) < -v' by linarith)

/-- **C123** A map of a straight wall gives no hold along the wall: wherever the wall fills a square, a point on
the wall scores 1, whatever its place along the wall; a point off the wall scores less. -/
theorem c123_wall_gives_no_hold {mt : Matcher} {scans : List Scan} {mt' : Matcher} {g : NdtGrid}
    (hm : GoodMap mt scans mt' g) {h : ℝ} (hwall : ∀ p ∈ mapPoints (scans.map .addScan), p.y = h)
    (p : Point) (hp : Near g.originX g.originY g.cellSize p) :
    (5 ≤ (inSquare g.originX g.originY g.cellSize (square g.originX g.originY g.cellSize p)
        (mapPoints (scans.map .addScan))).length →
      InExtents g.originX g.originY g.cellSize g.sizeX g.sizeY p → p.y = h → g.likelihood p = .ok (.fin 1)) ∧
    (p.y ≠ h → ∃ v < 1, g.likelihood p = .ok (.fin v)) := by
  obtain ⟨sx, sy, hx, hy, hc, hsm, hg, hsx, hsy⟩ := hm.params
  rw [hsx, hsy]
  have hon : ∀ q ∈ inSquare g.originX g.originY g.cellSize (square g.originX g.originY g.cellSize p)
      (mapPoints (scans.map .addScan)), q.y = h := by
    intro q hq
    simp only [inSquare, List.mem_filter] at hq
    exact hwall q hq.1
  constructor
  · intro h5 hin e
    have hs := (hm.nodeg (square g.originX g.originY g.cellSize p)).resolve_left (by omega)
    rw [likelihood_gauss hc hx hy hsm _ hm.near hg p hp hin h5 hs, (gauss_wall h5 hs hon p).1 e]
  · intro e
    by_cases hin : InExtents g.originX g.originY g.cellSize (cols sx g.cellSize) (cols sy g.cellSize) p
    · by_cases h5 : 5 ≤ (inSquare g.originX g.originY g.cellSize (square g.originX g.originY g.cellSize p)
          (mapPoints (scans.map .addScan))).length
      · have hs := (hm.nodeg (square g.originX g.originY g.cellSize p)).resolve_left (by omega)
        exact ⟨_, (gauss_wall h5 hs hon p).2 e, likelihood_gauss hc hx hy hsm _ hm.near hg p hp hin h5 hs⟩
      · exact ⟨0, one_pos, (c09_point_likelihood_support hc hx hy hsm _ hm.near hg p hp hin).2 (by omega)⟩
    · obtain ⟨v, hv, -, -, h0⟩ := c09_point_likelihood_bounded hc hx hy hsm _ hm.near hm.nodeg hg p hp
      exact ⟨v, by rw [h0 hin]; exact one_pos, hv⟩

/-- **C123** (refuted) A scan of a straight wall, matched against a map of that wall, is pushed along the wall by the
whole search window: the correction returned is `(-linear_size, 0, 0)` with the perfect score -1, although the scan
fits as well where it is. For every wall parallel to the x axis, every map of it and every scan of at least two
distinct places on it, whatever the parameters of the search, as long as the wall goes on for `linear_size`. -/
theorem c123_pushed_along_the_wall {mt : Matcher} {scans : List Scan} {mt' : Matcher} {g : NdtGrid}
    (hm : GoodMap mt scans mt' g) {h : ℝ} (hwall : ∀ p ∈ mapPoints (scans.map .addScan), p.y = h)
    (hl : 0 < mt'.linearRes) (ha : 0 < mt'.angularRes) (nl na : ℕ) (hnl : 0 < nl) (hna : 0 < na)
    (hls : mt'.linearSize = nl * mt'.linearRes) (has : mt'.angularSize = na * mt'.angularRes)
    (hpi : mt'.angularSize < Real.pi)
    (scan : Scan) (hn : scan.points.length < 2 ^ 64)
    (hnear : ∀ o, InWindow mt'.linearSize mt'.linearRes mt'.angularSize mt'.angularRes o → NearAt mt' g scan o)
    (hscan : ∀ p ∈ samples scan.points (beamCount mt'.laserMaxBeams scan.points.length), (move scan.pose p).y = h)
    (htwo : ∃ p ∈ samples scan.points (beamCount mt'.laserMaxBeams scan.points.length),
      ∃ q ∈ samples scan.points (beamCount mt'.laserMaxBeams scan.points.length),
        (move scan.pose p).x ≠ (move scan.pose q).x)
    (hgoes : ∀ p ∈ samples scan.points (beamCount mt'.laserMaxBeams scan.points.length),
      InExtents g.originX g.originY g.cellSize g.sizeX g.sizeY (move (offset scan.pose ⟨-mt'.linearSize, 0, 0⟩) p) ∧
      5 ≤ (inSquare g.originX g.originY g.cellSize
        (square g.originX g.originY g.cellSize (move (offset scan.pose ⟨-mt'.linearSize, 0, 0⟩) p))
        (mapPoints (scans.map .addScan))).length)
    (pose : Pose2d) (cov : Mat3F) :
    ∃ r, mt'.matchScan scan pose cov = .ok r ∧ r.pose = ⟨-mt'.linearSize, 0, 0⟩ ∧ r.score = .fin (-1) := by
  set S := samples scan.points (beamCount mt'.laserMaxBeams scan.points.length) with hS
  have hnl' : (0 : ℝ) < nl := by exact_mod_cast hnl
  have hna' : (0 : ℝ) < na := by exact_mod_cast hna
  have hSlen : S.length = beamCount mt'.laserMaxBeams scan.points.length := (c12_samples_are_points _ _).1
  -- values of the points
  have hval : ∀ p, ∃ v : ℝ, Near g.originX g.originY g.cellSize p → g.likelihood p = .ok (.fin v) ∧ v ≤ 1 := by
    intro p
    by_cases hp : Near g.originX g.originY g.cellSize p
    · obtain ⟨sx, sy, hx, hy, hc, hsm, hg, -, -⟩ := hm.params
      obtain ⟨v, hv, -, h1, -⟩ := c09_point_likelihood_bounded hc hx hy hsm _ hm.near hm.nodeg hg p hp
      exact ⟨v, fun _ => ⟨hv, h1⟩⟩
    · exact ⟨0, fun h => absurd h hp⟩
  choose f hf using hval
  have hcand : ∀ o, InWindow mt'.linearSize mt'.linearRes mt'.angularSize mt'.angularRes o →
      candidate mt' g scan o = .ok (.fin ((S.map (move (offset scan.pose o))).map f).sum) := by
    intro o ho
    apply likelihoodPoints_sum
    intro p hp
    obtain ⟨q, hq, rfl⟩ := List.mem_map.mp hp
    exact (hf _ (hnear o ho q hq)).1
  have hle1 : ∀ o, InWindow mt'.linearSize mt'.linearRes mt'.angularSize mt'.angularRes o →
      ∀ p ∈ S.map (move (offset scan.pose o)), f p ≤ 1 := by
    intro o ho p hp
    obtain ⟨q, hq, rfl⟩ := List.mem_map.mp hp
    exact (hf _ (hnear o ho q hq)).2
  -- the target
  set t : Pose2d := ⟨-mt'.linearSize, 0, 0⟩ with ht
  have htw : InWindow mt'.linearSize mt'.linearRes mt'.angularSize mt'.angularRes t := by
    refine ⟨⟨0, by simp [ht], ?_⟩, ⟨nl, by simp only [ht, hls]; ring, ?_⟩, ⟨na, by simp only [ht, has]; ring, ?_⟩⟩
    · show -mt'.linearSize < mt'.linearSize
      rw [hls]; have : 0 < nl * mt'.linearRes := by positivity
      linarith
    · show 0 < mt'.linearSize
      rw [hls]; positivity
    · show 0 < mt'.angularSize
      rw [has]; positivity
  have htv : candidate mt' g scan t = .ok (.fin (S.length : ℕ)) := by
    unfold candidate
    rw [← hS, likelihoodPoints_sum g (fun _ => 1)]
    · simp [Function.comp_def]
    · intro p hp
      obtain ⟨q, hq, rfl⟩ := List.mem_map.mp hp
      apply (c123_wall_gives_no_hold hm hwall _ (hnear t htw q hq)).1 (hgoes q hq).2 (hgoes q hq).1
      have := hscan q hq
      simp only [move, offset, ht, add_zero] at this ⊢
      exact this
  have hSpos : 0 < S.length := by
    obtain ⟨p, hp, -⟩ := htwo
    exact List.length_pos_of_mem hp
  have hSpos' : (0 : ℝ) < (S.length : ℕ) := by exact_mod_cast hSpos
  -- an offset with a point off the wall is worse
  have hworse : ∀ o, InWindow mt'.linearSize mt'.linearRes mt'.angularSize mt'.angularRes o →
      (∃ q ∈ S, (move (offset scan.pose o) q).y ≠ h) → candidate mt' g scan o ≠ .ok (.fin (S.length : ℕ)) := by
    rintro o ho ⟨q, hq, hoff⟩ he
    rw [hcand o ho] at he
    have hlt : f (move (offset scan.pose o) q) < 1 := by
      obtain ⟨v, hv, e⟩ := (c123_wall_gives_no_hold hm hwall _ (hnear o ho q hq)).2 hoff
      rw [(hf _ (hnear o ho q hq)).1] at e
      cases e
      exact hv
    have := sum_lt_length f _ (hle1 o ho) _ (List.mem_map_of_mem hq) hlt
    rw [List.length_map] at this
    injection he with he
    injection he with he
    rw [he] at this
    exact lt_irrefl _ this
  obtain ⟨r, hr⟩ := c13_match_defined hm.ndt hl ha scan hn pose cov (fun o ho => ⟨_, hcand o ho⟩)
  refine ⟨r, hr, ?_⟩
  obtain ⟨best, e1, h2, h3⟩ := c13_match_returns_best_candidate hm.ndt hl ha scan hn pose cov hr
  obtain ⟨x, hx, hnb⟩ := h2 t htw
  rw [htv] at hx
  cases hx
  rw [Fl.fin_neg] at hnb
  -- the best value is that of the target
  have hbest : best = .fin (-(S.length : ℕ)) ∧ candidate mt' g scan r.pose = .ok (.fin (S.length : ℕ)) ∧
      InWindow mt'.linearSize mt'.linearRes mt'.angularSize mt'.angularRes r.pose := by
    rcases h3 with ⟨e, -⟩ | ⟨-, hw, y, hy, e⟩
    · rw [e] at hnb
      exact absurd (show (-(S.length : ℕ) : ℝ) < 0 by linarith) hnb
    · rw [hcand _ hw] at hy
      cases hy
      have h1 := sum_le_length f _ (hle1 _ hw)
      rw [List.length_map] at h1
      rw [e, Fl.fin_neg] at hnb
      have h2 : ¬ (-(S.length : ℕ) : ℝ) < -((S.map (move (offset scan.pose r.pose))).map f).sum := hnb
      have h3 : ((S.map (move (offset scan.pose r.pose))).map f).sum = (S.length : ℕ) := by
        apply le_antisymm h1
        linarith
      rw [hcand _ hw, e, Fl.fin_neg, h3]
      exact ⟨rfl, rfl, hw⟩
  obtain ⟨eb, ev, hrw⟩ := hbest
  have hscore : r.score = .fin (-1) := by
    rw [e1, eb, ← hSlen, Fl.fin_div hSpos'.ne']
    congr 1
    field_simp
  refine ⟨?_, hscore⟩
  obtain ⟨pre, post, hp, v, hv, -, hpre⟩ := c123_first_of_the_best hm.ndt hl ha scan hn pose cov hr
    (by rw [hscore]; show (-1 : ℝ) < 0; norm_num)
  rw [ev] at hv
  cases hv
  have hmem := (mem_window _ _ _ _ hl ha t).mpr htw
  have hpw := window_pairwise mt'.linearSize mt'.linearRes mt'.angularSize mt'.angularRes hl ha
  rw [hp] at hmem hpw
  rcases List.mem_append.mp hmem with hmem | hmem
  · exact absurd htv (hpre t hmem)
  rcases List.mem_cons.mp hmem with hmem | hmem
  · exact hmem.symm
  exfalso
  have hearly : Earlier r.pose t := (List.pairwise_cons.mp (List.pairwise_append.mp hpw).2.1).1 t hmem
  apply hworse r.pose hrw _ ev
  obtain ⟨⟨k1, ex, -⟩, -, k3, eth, lth⟩ := hrw
  rcases hearly with hth | ⟨hth, hx | ⟨hx, hy⟩⟩
  · -- turned: two places on the wall cannot both stay on it
    obtain ⟨p, hpS, q, hqS, hne⟩ := htwo
    by_contra hall
    push Not at hall
    have e1 := hall p hpS
    have e2 := hall q hqS
    have w1 := hscan p hpS
    have w2 := hscan q hqS
    have hsin : Real.sin r.pose.theta < 0 := by
      apply Real.sin_neg_of_neg_of_neg_pi_lt hth
      have : 0 ≤ k3 * mt'.angularRes := by positivity
      rw [eth]; linarith
    simp only [move, offset, Real.cos_add, Real.sin_add] at e1 e2 w1 w2 hne
    have key : ((p.x - q.x) * Real.cos scan.pose.theta - (p.y - q.y) * Real.sin scan.pose.theta) *
        Real.sin r.pose.theta = 0 := by
      have d1 : (p.x - q.x) * Real.sin scan.pose.theta + (p.y - q.y) * Real.cos scan.pose.theta = 0 := by linarith
      have d2 : (p.x - q.x) * (Real.sin scan.pose.theta * Real.cos r.pose.theta +
          Real.cos scan.pose.theta * Real.sin r.pose.theta) + (p.y - q.y) * (Real.cos scan.pose.theta *
          Real.cos r.pose.theta - Real.sin scan.pose.theta * Real.sin r.pose.theta) = 0 := by linarith
      linear_combination d2 - Real.cos r.pose.theta * d1
    rcases mul_eq_zero.mp key with h0 | h0
    · apply hne; linarith
    · exact hsin.ne h0
  · -- further left than the window
    exfalso
    have : 0 ≤ k1 * mt'.linearRes := by positivity
    rw [ex] at hx
    simp only [ht] at hx
    linarith
  · obtain ⟨p, hpS, -⟩ := htwo
    refine ⟨p, hpS, ?_⟩
    have w := hscan p hpS
    simp only [move, offset] at w ⊢
    rw [hth]
    simp only [ht, add_zero] at hy ⊢
    intro e
    linarith

/-! ### A wall met with the default parameters -/

/-- A piece of the wall `y = 1/10`. -/
def OnPiece (q : Point) : Prop := q.y = 1 / 10 ∧ 1 / 10 ≤ q.x ∧ q.x ≤ 18 / 100

theorem piece_square {q : Point} (h : OnPiece q) : square (-10) (-10) (1 / 4) q = (40, 40) := by
  obtain ⟨h1, h2, h3⟩ := h
  simp only [square, Prod.mk.injEq, Int.floor_eq_iff]
  rw [h1]
  refine ⟨⟨?_, ?_⟩, ?_, ?_⟩ <;> norm_num <;> linarith

/-- A scan from the origin of at least five places on the piece. -/
structure SeesPiece (s : Scan) : Prop where
  x : s.pose.x = 0
  y : s.pose.y = 0
  on : ∀ p ∈ s.points, OnPiece (move s.pose p)
  five : 5 ≤ s.points.length
  few : s.points.length ≤ 100
  two : ∃ p ∈ s.points, ∃ q ∈ s.points, (move s.pose p).x ≠ (move s.pose q).x

theorem piece_bbox (s : Scan) (hs : SeesPiece s) : Matcher.bbox 10 [s] = ⟨-10, 10, -10, 10⟩ := by
  have h1 := dblMax_nonneg
  have h2 := dblMin_le_one
  simp only [Matcher.bbox, List.foldl_cons, List.foldl_nil, Scan.getPose, hs.x, hs.y, zero_sub, zero_add]
  rw [min_eq_left (by linarith), max_eq_left (by linarith)]

theorem piece_cols : cols 20 (1 / 4) = 81 := by
  have : ⌊(20 : ℝ) / (1 / 4)⌋ = 80 := by rw [Int.floor_eq_iff]; norm_num
  simp only [cols, this]; rfl

theorem piece_points (s : Scan) : mapPoints ([s].map .addScan) = s.points.map (move s.pose) := by
  simp [mapPoints]

theorem piece_near {s : Scan} (hs : SeesPiece s) :
    ∀ p ∈ mapPoints ([s].map .addScan), Near (-10) (-10) (1 / 4) p := by
  rw [piece_points]
  intro p hp
  obtain ⟨q, hq, rfl⟩ := List.mem_map.mp hp
  obtain ⟨h1, h2, h3⟩ := hs.on q hq
  constructor <;> norm_num <;> linarith

theorem piece_inSquare {s : Scan} (hs : SeesPiece s) :
    inSquare (-10) (-10) (1 / 4) (40, 40) (s.points.map (move s.pose)) = s.points.map (move s.pose) := by
  unfold inSquare
  rw [List.filter_eq_self]
  intro p hp
  obtain ⟨q, hq, rfl⟩ := List.mem_map.mp hp
  exact decide_eq_true (piece_square (hs.on q hq))

/-- The map of such a scan. -/
theorem piece_goodMap (mt : Matcher) (hres : mt.resolution = 1 / 4) (hR : mt.rangeMax = 10) (s : Scan)
    (hs : SeesPiece s) : ∃ g, GoodMap mt [s] { mt with ndt := some g } g ∧ g.originX = -10 ∧ g.originY = -10 ∧
    g.cellSize = 1 / 4 ∧ g.sizeX = 81 ∧ g.sizeY = 81 := by
  have hsm : cols 20 (1 / 4) * cols 20 (1 / 4) ≤ 2 ^ 31 := by rw [piece_cols]; norm_num
  obtain ⟨g0, hg0, hw, e0, e1, e2, e3, e4, -⟩ := NdtGrid.new_wf (c := 1 / 4) (sx := 20) (sy := 20) (ox := -10)
    (oy := -10) (by norm_num) (by norm_num) (by norm_num) hsm
  obtain ⟨g, hg, geo, -⟩ := NdtGrid.run_spec ([s].map .addScan ++ [.compute]) hw (by
    rw [e0, e1, e2, mapPoints_append]
    simpa [mapPoints] using piece_near hs)
  have hok : mt.addScans [s] = .ok { mt with ndt := some g } := by
    rw [addScans_eq, hR, piece_bbox s hs, hres]
    simp only
    have h8 : (10 : ℝ) - -10 = 20 := by norm_num
    rw [h8, hg0]
    simp only [Res.ok_bind]
    rw [hg]
    rfl
  refine ⟨g, ⟨by rw [hres]; norm_num, by rw [hR]; norm_num, by simp, hok, rfl, ?_, ?_, ?_⟩, ?_, ?_, ?_, ?_, ?_⟩
  · rw [geo.sizeX, geo.sizeY]; exact hw.small
  · rw [geo.originX, geo.originY, geo.cellSize, e0, e1, e2]; exact piece_near hs
  · rw [geo.originX, geo.originY, geo.cellSize, e0, e1, e2, piece_points]
    intro k
    by_cases hk : k = (40, 40)
    · right
      rw [hk, piece_inSquare hs]
      rintro ⟨q, hq⟩
      obtain ⟨a, ha, b, hb, hne⟩ := hs.two
      rw [hq _ (List.mem_map_of_mem ha), hq _ (List.mem_map_of_mem hb)] at hne
      exact hne rfl
    · left
      have : inSquare (-10) (-10) (1 / 4) k (s.points.map (move s.pose)) = [] := by
        unfold inSquare
        rw [List.filter_eq_nil_iff]
        intro p hp
        obtain ⟨q, hq, rfl⟩ := List.mem_map.mp hp
        simp only [piece_square (hs.on q hq), decide_eq_true_eq]
        exact fun h => hk h.symm
      rw [this]; simp
  · rw [geo.originX, e1]
  · rw [geo.originY, e2]
  · rw [geo.cellSize, e0]
  · rw [geo.sizeX, e3, piece_cols]
  · rw [geo.sizeY, e4, piece_cols]

/-- Two scans of the piece, from the origin but with any headings, matched with the default parameters: the second one
is pushed by 5 cm. -/
theorem piece_pushed (s1 s2 : Scan) (h1 : SeesPiece s1) (h2 : SeesPiece s2) :
    ∃ mt', Matcher.addScans { defaultMatcher with rangeMax := 10 } [s1] = .ok mt' ∧
    ∀ pose cov, ∃ r, mt'.matchScan s2 pose cov = .ok r ∧ r.pose = ⟨-0.05, 0, 0⟩ ∧ r.score = .fin (-1) := by
  obtain ⟨g, hm, e1, e2, e0, e3, e4⟩ := piece_goodMap { defaultMatcher with rangeMax := 10 }
    (by norm_num [defaultMatcher]) rfl s1 h1
  refine ⟨_, hm.ok, ?_⟩
  intro pose cov
  have hS : samples s2.points (beamCount 100 s2.points.length) = s2.points := (c12_samples_are_points _ _).2.2 h2.few
  have hmv : ∀ p, move (offset s2.pose ⟨-0.05, 0, 0⟩) p = ⟨(move s2.pose p).x - 1 / 20, (move s2.pose p).y⟩ := by
    intro p
    ext
    · simp only [move, offset, add_zero]; ring
    · simp only [move, offset, add_zero]
  have hnorm : ∀ p ∈ s2.points, p.x ^ 2 + p.y ^ 2 ≤ 1 := by
    intro p hp
    obtain ⟨a1, a2, a3⟩ := h2.on p hp
    have e : p.x ^ 2 + p.y ^ 2 = (move s2.pose p).x ^ 2 + (move s2.pose p).y ^ 2 := by
      simp only [move, h2.x, h2.y, zero_add]
      have := Real.sin_sq_add_cos_sq s2.pose.theta
      linear_combination -(p.x ^ 2 + p.y ^ 2) * this
    rw [e, a1]
    nlinarith
  refine c123_pushed_along_the_wall hm (h := 1 / 10) ?_ (by norm_num [defaultMatcher]) (by norm_num [defaultMatcher])
    10 40 (by norm_num) (by norm_num) (by norm_num [defaultMatcher]) (by norm_num [defaultMatcher])
    (by have := Real.two_le_pi; norm_num [defaultMatcher]; linarith) s2 (lt_of_le_of_lt h2.few (by norm_num))
    ?_ ?_ ?_ ?_ pose cov
  · rw [piece_points]
    intro p hp
    obtain ⟨q, hq, rfl⟩ := List.mem_map.mp hp
    exact (h1.on q hq).1
  · rintro ⟨dx, dy, dth⟩ ⟨⟨-, -, l1⟩, ⟨-, -, l2⟩, -⟩
    show ∀ p ∈ samples s2.points (beamCount 100 s2.points.length), _
    rw [hS, e0, e1, e2]
    intro p hp
    simp only [defaultMatcher] at l1 l2
    have hn := hnorm p hp
    generalize hth : s2.pose.theta + dth = th
    have c := Real.sin_sq_add_cos_sq th
    have b1 : p.x * Real.cos th - p.y * Real.sin th ≤ 1 := by
      nlinarith [sq_nonneg (p.x * Real.sin th + p.y * Real.cos th), sq_nonneg (p.x * Real.cos th - p.y * Real.sin th - 1)]
    have b2 : p.x * Real.sin th + p.y * Real.cos th ≤ 1 := by
      nlinarith [sq_nonneg (p.x * Real.cos th - p.y * Real.sin th), sq_nonneg (p.x * Real.sin th + p.y * Real.cos th - 1)]
    constructor
    · simp only [move, offset, h2.x, zero_add, hth]
      norm_num at l1 l2 ⊢
      linarith
    · simp only [move, offset, h2.y, zero_add, hth]
      norm_num at l1 l2 ⊢
      linarith
  · show ∀ p ∈ samples s2.points (beamCount 100 s2.points.length), _
    rw [hS]
    exact fun p hp => (h2.on p hp).1
  · show ∃ p ∈ samples s2.points (beamCount 100 s2.points.length),
      ∃ q ∈ samples s2.points (beamCount 100 s2.points.length), _
    rw [hS]
    exact h2.two
  · show ∀ p ∈ samples s2.points (beamCount 100 s2.points.length), _
    rw [hS, e0, e1, e2, e3, e4, piece_points]
    intro p hp
    show InExtents _ _ _ _ _ (move (offset s2.pose ⟨-0.05, 0, 0⟩) p) ∧ 5 ≤ (inSquare _ _ _
      (square _ _ _ (move (offset s2.pose ⟨-0.05, 0, 0⟩) p)) _).length
    rw [hmv]
    obtain ⟨a1, a2, a3⟩ := h2.on p hp
    have hsq : square (-10) (-10) (1 / 4) ⟨(move s2.pose p).x - 1 / 20, (move s2.pose p).y⟩ = (40, 40) := by
      simp only [square, Prod.mk.injEq, Int.floor_eq_iff]
      rw [a1]
      refine ⟨⟨?_, ?_⟩, ?_, ?_⟩ <;> norm_num <;> linarith
    rw [hsq, piece_inSquare h1]
    refine ⟨?_, by rw [List.length_map]; exact h1.five⟩
    unfold InExtents
    rw [a1]
    refine ⟨?_, ?_, ?_, ?_⟩ <;> norm_num <;> linarith

/-- Five points of the wall `y = 1/10`. -/
def wallPts : List Point :=
  [⟨1 / 10, 1 / 10⟩, ⟨12 / 100, 1 / 10⟩, ⟨14 / 100, 1 / 10⟩, ⟨16 / 100, 1 / 10⟩, ⟨18 / 100, 1 / 10⟩]

/-- A scan of the wall from the origin. -/
def wallScan : Scan := ⟨0, true, ⟨0, 0, 0⟩, Pose2d.zero, wallPts⟩

theorem wallScan_sees : SeesPiece wallScan where
  x := rfl
  y := rfl
  on := by
    intro p hp
    have e : move wallScan.pose p = p := by ext <;> simp [move, wallScan]
    rw [e]
    simp only [wallScan, wallPts, List.mem_cons, List.not_mem_nil, or_false] at hp
    rcases hp with rfl | rfl | rfl | rfl | rfl <;> unfold OnPiece <;> norm_num
  five := by simp [wallScan, wallPts]
  few := by simp [wallScan, wallPts]
  two := by
    refine ⟨⟨1 / 10, 1 / 10⟩, by simp [wallScan, wallPts], ⟨12 / 100, 1 / 10⟩, by simp [wallScan, wallPts], ?_⟩
    norm_num [move, wallScan]

/-- **C123** (refuted, with the default parameters) A scan matched against the map made of that very scan: the
correction is 5 cm along the wall. -/
theorem c123_own_map_pushes : ∃ mt', Matcher.addScans { defaultMatcher with rangeMax := 10 } [wallScan] = .ok mt' ∧
    ∀ pose cov, ∃ r, mt'.matchScan wallScan pose cov = .ok r ∧ r.pose = ⟨-0.05, 0, 0⟩ ∧ r.score = .fin (-1) :=
  piece_pushed wallScan wallScan wallScan_sees wallScan_sees

/-! ### A scan with a hold -/

/-- A search of the eight offsets with components -1/10 and 0 (and -1 and 0 for the heading). -/
def holdMatcher : Matcher :=
  { resolution := 10, angularRes := 1, angularSize := 1, linearRes := 1 / 10, linearSize := 1 / 10,
    laserMaxBeams := 100, rangeMax := 4, ndt := none }

/-- A scan of one point, 1 m ahead, that falls on the mean of the map's points. -/
def holdScan : Scan := ⟨1, true, ⟨0, 4 / 5, 0⟩, Pose2d.zero, [⟨1, 0⟩]⟩

theorem hold_goodMap : ∃ mt' g, GoodMap holdMatcher [demoMapScan] mt' g ∧ g.originX = -4 ∧ g.originY = -4 ∧
    g.cellSize = 10 ∧ mt' = { holdMatcher with ndt := some g } := by
  obtain ⟨mt1, g, hm, e1, e2, e0, emt⟩ := demo_goodMap
  have hok := hm.ok
  rw [addScans_eq] at hok
  cases hg' : (NdtGrid.new demoMatcher.resolution
      ((Matcher.bbox demoMatcher.rangeMax [demoMapScan]).maxX - (Matcher.bbox demoMatcher.rangeMax [demoMapScan]).minX)
      ((Matcher.bbox demoMatcher.rangeMax [demoMapScan]).maxY - (Matcher.bbox demoMatcher.rangeMax [demoMapScan]).minY)
      (Matcher.bbox demoMatcher.rangeMax [demoMapScan]).minX
      (Matcher.bbox demoMatcher.rangeMax [demoMapScan]).minY >>=
      fun g => g.run ([demoMapScan].map .addScan ++ [.compute])) with
  | error e => rw [hg'] at hok; cases hok
  | ok g' =>
  rw [hg'] at hok
  have e : (Except.ok { demoMatcher with ndt := some g' } : Res Matcher) = .ok mt1 := hok
  have : g' = g := by
    rw [emt] at e
    injection e with e
    injection e with _ _ _ _ _ _ _ e
    injection e
  subst this
  refine ⟨{ holdMatcher with ndt := some g' }, g', ⟨by norm_num [holdMatcher], by norm_num [holdMatcher], hm.ne, ?_,
    rfl, hm.small, hm.near, hm.nodeg⟩, e1, e2, e0, rfl⟩
  rw [addScans_eq]
  rw [show holdMatcher.rangeMax = demoMatcher.rangeMax from rfl,
    show holdMatcher.resolution = demoMatcher.resolution from rfl, hg']
  rfl

/-- The hypotheses of `c123_strictly_best_is_taken_partial` hold for a point on the mean of a square whose points do
not lie on one line: it stays, among eight offsets. -/
example : ∃ mt', holdMatcher.addScans [demoMapScan] = .ok mt' ∧
    ∀ pose cov, ∃ r, mt'.matchScan holdScan pose cov = .ok r ∧ r.pose = ⟨0, 0, 0⟩ := by
  obtain ⟨mt', g, hm, e1, e2, e0, emt⟩ := hold_goodMap
  have hls : mt'.linearSize = 1 / 10 := by rw [emt]; rfl
  have has : mt'.angularSize = 1 := by rw [emt]; rfl
  have hlr : mt'.linearRes = 1 / 10 := by rw [emt]; rfl
  have har : mt'.angularRes = 1 := by rw [emt]; rfl
  have hS : samples holdScan.points (beamCount mt'.laserMaxBeams holdScan.points.length) = [⟨1, 0⟩] := by
    rw [emt]; simp [samples, holdScan, beamCount, sampleIdx, holdMatcher]
  have a1 : avg (·.x) samplePts = 1 := by norm_num [avg, samplePts]
  have a2 : avg (·.y) samplePts = 4 / 5 := by norm_num [avg, samplePts]
  have v1 : sampleCov (·.x) (·.x) samplePts = 3 / 2 := by
    unfold sampleCov; rw [a1]; norm_num [samplePts]
  have v2 : sampleCov (·.x) (·.y) samplePts = 3 / 4 := by
    unfold sampleCov; rw [a1, a2]; norm_num [samplePts]
  have v3 : sampleCov (·.y) (·.y) samplePts = 7 / 10 := by
    unfold sampleCov; rw [a2]; norm_num [samplePts]
  obtain ⟨sx, sy, hx, hy, hc, hsm, hg, hsx, hsy⟩ := hm.params
  have hlik : ∀ p : Point, |p.x| ≤ 3 → |p.y| ≤ 3 →
      g.likelihood p = .ok (.fin (gauss ⟨1, 4 / 5⟩ (3 / 2) (3 / 4) (7 / 10) p)) := by
    intro p hpx hpy
    rw [abs_le] at hpx hpy
    have hsq : square (-4) (-4) 10 p = (0, 0) := by
      simp only [square, Prod.mk.injEq, Int.floor_eq_iff]
      norm_num
      refine ⟨⟨by linarith, by linarith⟩, by linarith, by linarith⟩
    have hin : InExtents g.originX g.originY g.cellSize (cols sx g.cellSize) (cols sy g.cellSize) p := by
      rw [e0, e1, e2]
      have h1 : (1 : ℝ) ≤ cols sx 10 := by exact_mod_cast Nat.succ_le_succ (Nat.zero_le _)
      have h2 : (1 : ℝ) ≤ cols sy 10 := by exact_mod_cast Nat.succ_le_succ (Nat.zero_le _)
      refine ⟨?_, ?_, ?_, ?_⟩ <;> linarith
    have hnear : Near g.originX g.originY g.cellSize p := by
      rw [e0, e1, e2]
      constructor <;> norm_num <;> linarith
    have := likelihood_gauss hc hx hy hsm _ hm.near hg p hnear hin
    rw [e0, e1, e2, hsq, demo_points, demo_inSquare] at this
    simp only [a1, a2, v1, v2, v3] at this
    exact this (by simp [samplePts]) samplePts_not_allSame
  have hdet := limitedDet_pos (a := 3 / 2) (b := 3 / 4) (d := 7 / 10) (by norm_num)
  have hcand : ∀ o : Pose2d, |o.x| ≤ 1 → |o.y| ≤ 1 → candidate mt' g holdScan o =
      .ok (.fin (gauss ⟨1, 4 / 5⟩ (3 / 2) (3 / 4) (7 / 10) ⟨o.x + Real.cos o.theta, 4 / 5 + o.y + Real.sin o.theta⟩)) := by
    intro o hox hoy
    unfold candidate
    rw [hS]
    have hmv : move (offset holdScan.pose o) ⟨1, 0⟩ = ⟨o.x + Real.cos o.theta, 4 / 5 + o.y + Real.sin o.theta⟩ := by
      ext <;> simp [move, offset, holdScan]
    have c1 := Real.neg_one_le_cos o.theta
    have c2 := Real.cos_le_one o.theta
    have s1 := Real.neg_one_le_sin o.theta
    have s2 := Real.sin_le_one o.theta
    rw [abs_le] at hox hoy
    have := likelihoodPoints_sum g (gauss ⟨1, 4 / 5⟩ (3 / 2) (3 / 4) (7 / 10))
      ([⟨1, 0⟩].map (move (offset holdScan.pose o))) (fun p hp => by
        simp only [List.map_cons, List.map_nil, hmv, List.mem_singleton] at hp
        subst hp
        apply hlik <;> rw [abs_le] <;> constructor <;> simp only <;> linarith)
    rw [this]
    simp [hmv]
  refine ⟨mt', hm.ok, ?_⟩
  intro pose cov
  have hl : 0 < mt'.linearRes := by rw [hlr]; norm_num
  have ha : 0 < mt'.angularRes := by rw [har]; norm_num
  have hsmall : ∀ o, InWindow mt'.linearSize mt'.linearRes mt'.angularSize mt'.angularRes o →
      (|o.x| ≤ 1 ∧ |o.y| ≤ 1) ∧ o.x ≤ 0 ∧ o.y ≤ 0 ∧ (o.theta = -1 ∨ o.theta = 0) := by
    rintro o ⟨⟨k1, ex, lx⟩, ⟨k2, ey, ly⟩, k3, et, lt⟩
    rw [hls] at lx ly
    rw [hls, hlr] at ex ey
    rw [has] at lt
    rw [has, har] at et
    have b1 : k1 < 2 := by
      have : (k1 : ℝ) < 2 := by linarith
      exact_mod_cast this
    have b2 : k2 < 2 := by
      have : (k2 : ℝ) < 2 := by linarith
      exact_mod_cast this
    have b3 : k3 < 2 := by
      have : (k3 : ℝ) < 2 := by linarith
      exact_mod_cast this
    have p1 : (0 : ℝ) ≤ k1 := Nat.cast_nonneg _
    have p2 : (0 : ℝ) ≤ k2 := Nat.cast_nonneg _
    have q1 : (k1 : ℝ) ≤ 1 := by exact_mod_cast Nat.lt_succ_iff.mp b1
    have q2 : (k2 : ℝ) ≤ 1 := by exact_mod_cast Nat.lt_succ_iff.mp b2
    refine ⟨⟨?_, ?_⟩, by linarith, by linarith, ?_⟩
    · rw [abs_le]; constructor <;> linarith
    · rw [abs_le]; constructor <;> linarith
    · rcases (by omega : k3 = 0 ∨ k3 = 1) with rfl | rfl
      · left; rw [et]; norm_num
      · right; rw [et]; norm_num
  obtain ⟨r, hr⟩ := c13_match_defined hm.ndt hl ha holdScan (by simp [holdScan]) pose cov
    (fun o ho => ⟨_, hcand o (hsmall o ho).1.1 (hsmall o ho).1.2⟩)
  refine ⟨r, hr, ?_⟩
  refine c123_strictly_best_is_taken_partial hm.ndt hl ha holdScan (by simp [holdScan]) pose cov hr ⟨0, 0, 0⟩ ?_ 1
    one_pos ?_ ?_
  · refine ⟨⟨1, ?_, ?_⟩, ⟨1, ?_, ?_⟩, ⟨1, ?_, ?_⟩⟩ <;> simp [hls, hlr, has, har]
  · rw [hcand _ (by simp) (by simp)]
    simp [gauss]
  · intro o ho hne
    obtain ⟨⟨b1, b2⟩, lx, ly, hth⟩ := hsmall o ho
    refine ⟨_, ?_, hcand o b1 b2⟩
    have hpd : ∀ u v : ℝ, (u ≠ 0 ∨ v ≠ 0) → 0 < u ^ 2 * (7 / 10) - 2 * u * v * (3 / 4) + v ^ 2 * (3 / 2) := by
      intro u v huv
      have : u ^ 2 * (7 / 10) - 2 * u * v * (3 / 4) + v ^ 2 * (3 / 2) =
          (3 / 2) * (v - u / 2) ^ 2 + (13 / 40) * u ^ 2 := by ring
      rw [this]
      by_cases hu : u = 0
      · have hv : v ≠ 0 := huv.resolve_left (by simp [hu])
        rw [hu]
        have : 0 < v ^ 2 := by positivity
        nlinarith
      · have : 0 < u ^ 2 := by positivity
        have := sq_nonneg (v - u / 2)
        nlinarith
    have hoff : o.x + Real.cos o.theta - 1 ≠ 0 ∨ 4 / 5 + o.y + Real.sin o.theta - 4 / 5 ≠ 0 := by
      rcases hth with h | h
      · left
        rw [h, Real.cos_neg]
        have h1 := Real.cos_lt_cos_of_nonneg_of_le_pi le_rfl (by have := Real.two_le_pi; linarith) one_pos
        rw [Real.cos_zero] at h1
        intro e
        linarith
      · rw [h, Real.cos_zero, Real.sin_zero]
        by_contra hcon
        push Not at hcon
        apply hne
        obtain ⟨x, y, th⟩ := o
        simp only at hcon h
        rw [Pose2d.mk.injEq]
        exact ⟨by linarith [hcon.1], by linarith [hcon.2], h⟩
    unfold gauss
    rw [Real.exp_lt_one_iff]
    have := div_pos (hpd _ _ hoff) hdet
    simp only
    linarith

end

end Ndt
