import Verif.Spec.World
import Verif.Props.OdometryProps
import Verif.Props.MountProps
import Verif.Props.RolesProps
import Verif.Props.RayNearProps

/-! # Invariants of a mapper in a world that stands still -/

namespace Ndt

noncomputable section

open Spec Mapper

theorem finitePoints_map {ps : List FPoint} {out : List Point} (h : finitePoints ps = .ok out) :
    ∀ q ∈ out, ∃ f ∈ ps, IsPoint f q := by
  induction ps generalizing out with
  | nil => cases h; simp
  | cons f ps ih =>
    rcases f with ⟨_ | _ | _ | x, _ | _ | _ | y⟩ <;> try (cases h; done)
    unfold finitePoints at h
    obtain ⟨rest, hr, h⟩ := bind_ok h
    injection h with h
    subst h
    intro q hq
    rcases List.mem_cons.mp hq with rfl | hq
    · exact ⟨_, List.mem_cons_self, rfl⟩
    · obtain ⟨f, hf, hp⟩ := ih hr q hq
      exact ⟨f, List.mem_cons_of_mem _ hf, hp⟩

theorem isPoint_unique {f : FPoint} {p q : Point} (h1 : IsPoint f p) (h2 : IsPoint f q) : p = q := by
  unfold IsPoint at *
  rw [h1] at h2
  injection h2 with a b
  injection a with a
  injection b with b
  ext
  · exact a
  · exact b

theorem mem_validBeams {limit : ℝ} {rs : List Fl} {q : ℕ × ℝ} (h : q ∈ validBeams limit rs) :
    rs[q.1]? = some (.fin q.2) ∧ q.2 ≤ limit := by
  unfold validBeams at h
  obtain ⟨⟨r, j⟩, hr, hv⟩ := List.mem_filterMap.mp h
  rcases r with _ | _ | _ | x <;> simp only at hv <;> try (cases hv; done)
  split at hv
  · rename_i hx
    injection hv with hv
    subst hv
    have := List.mem_zipIdx' hr
    exact ⟨by rw [List.getElem?_eq_getElem this.1, ← this.2], hx⟩
  · cases hv

/-- Every point made of a message of a robot that stands still is one of an obstacle. -/
theorem points_true {W : Set Point} {lt : Pose2d} {inverted : Bool} {limit : ℝ} {o : Pose2d} {msg : LaserMsg}
    (hn : ∀ r ∈ msg.ranges, r ≠ .ninf) (ht : TrueBeams W lt inverted limit o msg) {fps : List FPoint} {ps : List Point}
    (h1 : Laser.points msg (.fin limit) inverted lt o o = .ok fps) (h2 : finitePoints fps = .ok ps) :
    ∀ q ∈ ps, move o q ∈ W := by
  intro q hq
  obtain ⟨f, hf, hp⟩ := finitePoints_map h2 q hq
  cases inverted with
  | false =>
    rw [c47_forward_beams_partial _ _ _ _ _ hn] at h1
    injection h1 with h1
    rw [← h1] at hf
    obtain ⟨b, hb, rfl⟩ := List.mem_map.mp hf
    obtain ⟨k1, k2⟩ := mem_validBeams hb
    rw [isPoint_unique hp (c48_projection_at_rest msg lt o b.1 b.2)]
    exact ht b.1 b.2 k1 k2
  | true =>
    by_cases h0 : msg.ranges = []
    · exfalso
      unfold Laser.points at h1
      simp only [↓reduceIte, h0, List.length_nil] at h1
      rw [show (2 ^ 64 - 1 : ℕ) = (2 ^ 64 - 2) + 1 by norm_num] at h1
      unfold Laser.invertedLoop at h1
      simp [h0] at h1
    · rw [c47_inverted_beams_partial _ _ _ _ _ hn h0] at h1
      injection h1 with h1
      rw [← h1] at hf
      obtain ⟨b, hb, rfl⟩ := List.mem_map.mp hf
      obtain ⟨k1, k2⟩ := mem_validBeams (List.mem_filter.mp (List.mem_reverse.mp hb)).1
      rw [isPoint_unique hp (c48_projection_at_rest_inverted msg lt o b.1 b.2)]
      exact ht b.1 b.2 k1 k2

/-- What a scan made of a message is made of. -/
theorem laser_made {p : Params} {s s' : Sys} {msg : LaserMsg} {mount : Option (Pose2d × Bool)} {odom odomEnd : Option Pose2d}
    (hi : s.spin = .idle) (hst : step p s (.laser msg mount odom odomEnd) = .ok s') {scan : Scan}
    (hm : ScanMade s'.spin = some scan) :
    ∃ o oe q fps, odom = some o ∧ odomEnd = some oe ∧ s'.laser = some q ∧
      Laser.points msg s'.rangeMax q.2 q.1 o oe = .ok fps ∧ finitePoints fps = .ok scan.points := by
  unfold step at hst
  rw [hi] at hst
  simp only at hst
  unfold laserCallback at hst
  obtain ⟨r, l, g, lm, e, -, -, -, -⟩ := setup_cases p msg mount s
  dsimp only at hst
  rw [e] at hst
  have no : Except.ok { s with rangeMax := r, laser := l, globalM := g, localM := lm } = (.ok s' : Res Sys) → False := by
    intro h
    injection h with h
    rw [← h] at hm
    simp [hi, ScanMade] at hm
  by_cases h1 : (!(laserSetup p msg mount s).2) = true
  · rw [if_pos h1] at hst; exact (no hst).elim
  rw [if_neg h1] at hst
  by_cases h2 : (!s.initialized) = true
  · rw [if_pos h2] at hst; exact (no hst).elim
  rw [if_neg h2] at hst
  cases odom with
  | none => exact (no hst).elim
  | some o =>
    dsimp only at hst
    split at hst
    · exact (no hst).elim
    cases odomEnd with
    | none => exact (no hst).elim
    | some oe =>
      rcases l with _ | q
      · exact (no hst).elim
      · obtain ⟨fpts, hf, hst⟩ := bind_ok hst
        obtain ⟨pts, hp, hst⟩ := bind_ok hst
        injection hst with hst
        subst hst
        refine ⟨o, oe, q, fpts, rfl, rfl, rfl, hf, ?_⟩
        rw [hp]
        revert hm
        dsimp only
        have : ∀ (c1 c2 c3 : Prop) [Decidable c1] [Decidable c2] [Decidable c3] (x : Scan) (o : Pose2d),
            ScanMade (if c1 then .filter x o else if c2 then (if c3 then .append x o else .window x o) else .localise x o) =
              some x := by
          intro c1 c2 c3 _ _ _ x o
          split_ifs <;> rfl
        rw [this]
        intro hm
        injection hm with hm
        rw [← hm]; rfl

/-- The place of the executor holds a scan that shows obstacles. -/
def SpinShows (W : Set Point) (T : Iso) : Spin → Prop
  | .window scan _ | .matching scan _ | .constraint _ scan _ | .append scan _ => Shows W T scan
  | _ => True

/-- Everything in the map is an obstacle. -/
structure Ideal (W : Set Point) (lt : Pose2d) (inverted : Bool) (limit : ℝ) (T : Iso) (s : Sys) : Prop where
  laser : s.laser = none ∨ s.laser = some (lt, inverted)
  range : s.rangeMax = .fin limit ∨ s.rangeMax < .fin 0
  scans : ∀ x ∈ s.scans, Shows W T x
  place : SpinShows W T s.spin

theorem latch_range {limit : ℝ} {r : Fl} (hr : r = .fin limit ∨ r < .fin 0) {msg : LaserMsg}
    (hm : msg.rangeMax = .fin limit) : Laser.latchRangeMax r msg = .fin limit := by
  unfold Laser.latchRangeMax
  by_cases h : r < .fin 0
  · rw [if_pos h, hm]
  · rw [if_neg h]
    exact hr.resolve_right h

theorem setup_ideal {p : Params} {lt : Pose2d} {inverted : Bool} {limit : ℝ} {s : Sys}
    (hl : s.laser = none ∨ s.laser = some (lt, inverted)) (hr : s.rangeMax = .fin limit ∨ s.rangeMax < .fin 0)
    {msg : LaserMsg} {mount : Option (Pose2d × Bool)} (hm : mount = none ∨ mount = some (lt, inverted))
    (hx : msg.rangeMax = .fin limit) :
    ((laserSetup p msg mount s).1.laser = none ∨ (laserSetup p msg mount s).1.laser = some (lt, inverted)) ∧
    (laserSetup p msg mount s).1.rangeMax = .fin limit := by
  have := latch_range hr hx
  unfold laserSetup
  rcases hl with i | i
  · rw [i]
    rcases hm with hm | hm <;> rw [hm]
    · exact ⟨Or.inl (by simp [i]), this⟩
    · exact ⟨Or.inr rfl, this⟩
  · rw [i]
    exact ⟨Or.inr (by simp [i]), this⟩

/-- The world is ideal and nothing but odometry decides where scans go. -/
def InWorld (W : Set Point) (lt : Pose2d) (inverted : Bool) (limit : ℝ) (s : Sys) (e : Event) : Prop :=
  OdometryOnly s e ∧ Honest W lt inverted limit e

attribute [local irreducible] afterAttempt in
theorem world_prefix {p : Params} {s s' : Sys} {e : Event} (hq : LoopQuiet s.loop) (ha : OdometryOnly s e)
    (hst : step p s e = .ok s') : s.scans <+: s'.scans := by
  by_cases ho : IsLoopWork e ∨ IsPubWork e
  · rw [(others_step hq ha.1 ho (step_trans hst)).scans]
  · have h1 := (c120_executor (fun h => ho (Or.inl h)) (fun h => ho (Or.inr h)) hst).1 s.epoch le_rfl
    have he : s'.epoch = s.epoch := by
      cases step_trans hst with
      | laserIgnored msg mount odom odomEnd hi =>
        obtain ⟨r, l, g, m, e, -⟩ := setup_cases p msg mount s
        rw [e]
      | laserScan msg mount odom odomEnd points hi hgo hinit ht =>
        obtain ⟨r, l, g, m, e, -⟩ := setup_cases p msg mount s
        rw [e]
      | configureFlags action bag hi hl =>
        obtain ⟨en, ini, e, -⟩ := configureMapping_frame action s
        rw [e]
      | load action bag g hi hl hg => exact absurd ⟨action, bag, rfl, hl⟩ ha.2.2.2
      | _ => first
        | rfl
        | exact absurd (by simp [IsLoopWork, IsPubWork]) ho
    unfold Sys.scans
    rw [he]; exact h1

attribute [local irreducible] afterAttempt in
theorem ideal_step {p : Params} (hf : p.useFilter = false) {W : Set Point} {lt : Pose2d} {inverted : Bool} {limit : ℝ}
    {T : Iso} {received used : List Pose2d} {s s' : Sys} {e : Event} (h : Track T received used s)
    (hw : Ideal W lt inverted limit T s) (ha : InWorld W lt inverted limit s e) (hst : step p s e = .ok s') :
    ∃ T' used', Track T' (received ++ odometry [e]) used' s' ∧ Ideal W lt inverted limit T' s' ∧
      (s.scans ≠ [] → T' = T) := by
  obtain ⟨T', used', h', hT, -⟩ := track_step hf h ha.1 (step_trans hst)
  refine ⟨T', used', h', ?_, fun hs => hT (Or.inl hs)⟩
  have hsh : ∀ x ∈ s.scans, Shows W T' x := by
    intro x hx
    rw [hT (Or.inl (List.ne_nil_of_mem hx))]
    exact hw.scans x hx
  have hsp : SpinShows W T' s.spin := by
    by_cases hi : s.spin = .idle
    · rw [hi]; trivial
    · rw [hT (Or.inr hi)]; exact hw.place
  have hpl := h'.place
  by_cases ho : IsLoopWork e ∨ IsPubWork e
  · have hv := others_step h.quiet ha.1.1 ho (step_trans hst)
    have hr : s'.laser = s.laser ∧ s'.rangeMax = s.rangeMax := by
      rcases ho with ho | ho
      · obtain ⟨-, -, k, -⟩ := c120_loop_closure ho hst
        exact ⟨k.2.2.2.2.1, k.2.2.2.2.2.1⟩
      · obtain ⟨-, -, -, k, -⟩ := c120_publisher ho hst
        exact ⟨k.2.2.2.2.1, k.2.2.2.2.2.1⟩
    exact ⟨by rw [hr.1]; exact hw.laser, by rw [hr.2]; exact hw.range, by rw [hv.scans]; exact hsh,
      by rw [hv.2.2.1]; exact hsp⟩
  cases step_trans hst with
  | stutter => exact ⟨hw.laser, hw.range, hsh, hsp⟩
  | laserIgnored msg mount odom odomEnd hi =>
    obtain ⟨k1, k2⟩ := setup_ideal (p := p) hw.laser hw.range ha.2.1 ha.2.2.1
    obtain ⟨r, l, g, m, e, -⟩ := setup_cases p msg mount s
    refine ⟨k1, Or.inl k2, ?_, ?_⟩
    · rw [e]; exact hsh
    · rw [e]; exact hsp
  | laserScan msg mount odom odomEnd points hi hgo hinit ht =>
    obtain ⟨k1, k2⟩ := setup_ideal (p := p) hw.laser hw.range ha.2.1 ha.2.2.1
    obtain ⟨r, l, g, m, e, -⟩ := setup_cases p msg mount s
    refine ⟨k1, Or.inl k2, ?_, ?_⟩
    · rw [e]; exact hsh
    · have hmade : ∀ scan, ScanMade (branch p s (((Scan.new s.scans.length).setPose (firstPose s odom)).setPoints points) odom) =
          some scan → Placed T' odom scan.pose → Shows W T' scan := by
        intro scan hm hpd
        obtain ⟨o, oe, q, fps, e1, e2, e3, e4, e5⟩ := laser_made hi hst hm
        injection e1 with e1
        injection e2 with e2
        subst e1 e2
        obtain ⟨k3, k4⟩ := ha.2.2.2.2 _ rfl
        have hoe : odomEnd = odom := by
          rcases k3 with k3 | k3
          · cases k3
          · injection k3
        subst hoe
        have hq : q = (lt, inverted) := by
          rcases k1 with k1 | k1
          · rw [show (laserSetup p msg mount s).1.laser = some q from e3] at k1; cases k1
          · rw [show (laserSetup p msg mount s).1.laser = some q from e3] at k1; exact Option.some.inj k1
        subst hq
        rw [show _ = Fl.fin limit from k2] at e4
        intro q hq
        exact ⟨_, points_true ha.2.2.2.1 k4 e4 e5 q hq, placed_move hpd q⟩
      dsimp only at hpl ⊢
      revert hpl hmade
      unfold branch
      rw [if_neg (by simp [hf])]
      split_ifs
      · exact fun hpl hm => hm _ rfl hpl.2.1
      · exact fun hpl hm => hm _ rfl hpl.2.1
      · exact fun _ _ => trivial
  | filtered mean scan odom hi => exact ⟨hw.laser, hw.range, hsh, trivial⟩
  | addWindow scan odom w hi hl hw' => rw [hi] at hsp; exact ⟨hw.laser, hw.range, hsh, hsp⟩
  | localMatched score correction cov scan back odom hi hb =>
    rw [hi] at hsp
    have hc : correction = Pose2d.zero := ha.1.2.1
    subst hc
    refine ⟨hw.laser, hw.range, hsh, ?_⟩
    show Shows W T' (scan.setPose (addCorrection Pose2d.zero scan.getPose))
    rw [addCorrection_zero]
    exact hsp
  | pushConstraint c scan odom hi => rw [hi] at hsp; exact ⟨hw.laser, hw.range, hsh, hsp⟩
  | pushScan scan odom hi =>
    rw [hi] at hsp
    refine ⟨hw.laser, hw.range, ?_, trivial⟩
    intro x hx
    have hs' : x ∈ s.scans ++ [scan] := by simpa [Sys.scans] using hx
    rcases List.mem_append.mp hs' with hx | hx
    · exact hsh x hx
    · rw [List.mem_singleton.mp hx]; exact hsp
  | globalMatched correction scan odom hi => exact ⟨hw.laser, hw.range, hsh, trivial⟩
  | finishScan robot odom hi => exact ⟨hw.laser, hw.range, hsh, trivial⟩
  | announce a odom scan hi hs => exact ⟨hw.laser, hw.range, hsh, trivial⟩
  | poseKept m odom visit hi he => exact absurd rfl (ha.1.2.2.1 _ _ _)
  | poseScan m odom visit near i rest hi he hn hf hnear hv hfind => exact absurd rfl (ha.1.2.2.1 _ _ _)
  | setRobot robot odom hi => exact ⟨hw.laser, hw.range, hsh, trivial⟩
  | setOdom odom hi => exact ⟨hw.laser, hw.range, hsh, trivial⟩
  | configureFlags action bag hi hl =>
    obtain ⟨en, ini, e, -⟩ := configureMapping_frame action s
    rw [e]; exact ⟨hw.laser, hw.range, hsh, hsp⟩
  | load action bag g hi hl hg => exact absurd ⟨action, bag, rfl, hl⟩ ha.1.2.2.2
  | _ => exact absurd (by simp [IsLoopWork, IsPubWork]) ho

/-- The grid object and what it was last asked for. -/
def GridKnows (p : Params) (s : Sys) : Prop :=
  s.grid.resolution = p.resolution ∧ s.grid.occThresh = p.occThresh ∧
  ∃ prev, prev <+: s.scans ∧ s.grid.numScans = prev.length ∧ CoversPoints s.grid prev ∧
    (∀ k : ℕ, Within (k * p.resolution) s.scans → OccGrid.Bounded k s.grid) ∧
    ∀ m, s.lastGrid = some m → s.grid.render prev = .ok m

theorem within_prefix {r : ℝ} {a b : List Scan} (h : a <+: b) (hb : Within r b) : Within r a := by
  intro q hq
  apply hb
  unfold measured at *
  obtain ⟨x, hx, hq⟩ := List.mem_flatMap.mp hq
  exact List.mem_flatMap.mpr ⟨x, h.subset hx, hq⟩

attribute [local irreducible] afterAttempt in
theorem gridKnows_step {p : Params} (hr : 0 < p.resolution) {s s' : Sys} {e : Event} (h : GridKnows p s)
    (hpre : s.scans <+: s'.scans) (hst : step p s e = .ok s') : GridKnows p s' := by
  obtain ⟨g1, g2, prev, g3, g4, g5, g6, g7⟩ := h
  have same : s'.grid = s.grid → s'.lastGrid = s.lastGrid → GridKnows p s' := by
    intro e1 e2
    unfold GridKnows
    rw [e1, e2]
    exact ⟨g1, g2, prev, g3.trans hpre, g4, g5, fun k hk => g6 k (within_prefix hpre hk), g7⟩
  by_cases hl : IsLoopWork e
  · obtain ⟨-, -, -, k⟩ := c120_loop_closure hl hst
    exact same k.1 k.2.1
  by_cases hp : IsPubWork e
  · cases step_trans hst with
    | pubGrid grid msg hi hg =>
      rw [OccGrid.getMsg_eq] at hg
      cases hm : (s.grid.refreshed s.scans).render s.scans with
      | error e => rw [hm] at hg; cases hg
      | ok m' =>
        rw [hm] at hg
        injection hg with hg
        have e1 : grid = s.grid.refreshed s.scans := (congrArg Prod.fst hg).symm
        have e2 : msg = m' := (congrArg Prod.snd hg).symm
        subst e1 e2
        obtain ⟨c1, c2, c3, c4⟩ := OccGrid.refreshed_covers (g1 ▸ hr) g4 g5 g3
        refine ⟨c3.trans g1, c4.2.1.trans g2, s.scans, List.prefix_refl _, c2, c1, ?_, ?_⟩
        · intro k hk
          apply OccGrid.bounded_refreshed (g1 ▸ hr) (g6 k hk)
          rw [g1]; exact hk
        · intro m hm'
          injection hm' with hm'
          rw [← hm']; exact hm
    | pubTf hi =>
      obtain ⟨x, e⟩ := pubTf_frame s
      apply same <;> rw [e]
    | _ => first
      | exact same rfl rfl
      | exact absurd hp id
  · obtain ⟨-, -, -, k⟩ := c120_executor hl hp hst
    exact same k.1 k.2.1

/-- Everything known about a mapper in an ideal world. -/
theorem world_exec {p : Params} (hf : p.useFilter = false) (hr : 0 < p.resolution) {W : Set Point} {lt : Pose2d}
    {inverted : Bool} {limit : ℝ} (hx : p.rangeMax = .fin limit ∨ p.rangeMax < .fin 0) {enable : Bool}
    {s t : Sys} {es : List Event} (hs : Mapper.start p enable none = .ok s) (h : Exec p (InWorld W lt inverted limit) s es t) :
    ∃ T used, Track T (odometry es) used t ∧ Ideal W lt inverted limit T t ∧ GridKnows p t := by
  induction h with
  | nil =>
    obtain ⟨T, h1⟩ := track_start hs
    refine ⟨T, [], by simpa [odometry] using h1, ?_⟩
    rcases start_cases hs with ⟨-, e⟩ | ⟨bag, g, h, -⟩
    · subst e
      refine ⟨⟨Or.inl rfl, hx, ?_, trivial⟩, rfl, rfl, [], List.nil_prefix, rfl, ?_, ?_, ?_⟩
      · simp [startWith, Sys.scans, Graph.new]
      · intro q hq; cases hq
      · intro k _
        have : (0 : ℝ) ≤ k * p.resolution := by positivity
        show OccGrid.Bounded k (OccGrid.new p.resolution p.occThresh)
        unfold OccGrid.Bounded OccGrid.new
        simp only
        refine ⟨⟨by linarith, le_rfl⟩, ⟨le_rfl, this⟩, ⟨by linarith, le_rfl⟩, le_rfl, this⟩
      · intro m hm; cases hm
    · cases h
  | @snoc es u u' e _ ha hst ih =>
    obtain ⟨T, used, h1, h2, h3⟩ := ih
    obtain ⟨T', used', k1, k2, -⟩ := ideal_step hf h1 h2 ha hst
    refine ⟨T', used', ?_, k2, gridKnows_step hr h3 (world_prefix h1.quiet ha.1 hst) hst⟩
    have : odometry (es ++ [e]) = odometry es ++ odometry [e] := by simp [odometry, List.filterMap_append]
    rw [this]; exact k1

end

end Ndt
