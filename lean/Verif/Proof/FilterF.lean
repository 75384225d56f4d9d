import Verif.Model.FilterF
import Verif.Props.MotionProps
import Verif.Proof.Filter

/-! # Particles that are numbers, and particles that are not (C105) -/

namespace Ndt

noncomputable section

theorem Fl.sqrt_fin {a : ℝ} (h : 0 ≤ a) : Fl.sqrt (.fin a) = .fin (Real.sqrt a) := if_neg (not_lt.mpr h)

theorem Fl.sqrt_neg {a : ℝ} (h : a < 0) : Fl.sqrt (.fin a) = .nan := if_pos h

theorem Fl.nan_add' (a : Fl) : Fl.nan + a = .nan := by cases a <;> rfl

theorem Fl.add_nan' (a : Fl) : a + Fl.nan = .nan := by cases a <;> rfl

theorem Fl.nan_mul' (a : Fl) : Fl.nan * a = .nan := by cases a <;> rfl

theorem Fl.nan_div' (a : Fl) : Fl.nan / a = .nan := by cases a <;> rfl

/-- A filter with particles of numbers as one whose particles may be anything. -/
def Filter.toF (f : Filter) : FilterF :=
  ⟨f.motion, f.minP, f.maxP, f.particles.map Pose2d.toF, f.weights, f.mean, f.cov, f.kd⟩

namespace FilterF

theorem accum_toF (ws : List Fl) (ps : List Pose2d) (f : PoseF → Fl) (g : Pose2d → ℝ)
    (h : ∀ p, f (Pose2d.toF p) = .fin (g p)) : accum ws (ps.map Pose2d.toF) f = Filter.accum ws ps g := by
  unfold accum Filter.accum
  rw [List.zip_map_right, List.foldl_map]
  simp only [Prod.map_fst, Prod.map_snd, id_eq, h]

theorem accum2_toF (a : Fl) (ws : List Fl) (ps : List Pose2d) (f g : PoseF → Fl) (f' g' : Pose2d → Fl)
    (hf : ∀ p, f (Pose2d.toF p) = f' p) (hg : ∀ p, g (Pose2d.toF p) = g' p) :
    accum2 a ws (ps.map Pose2d.toF) f g = Filter.accum2 a ws ps f' g' := by
  unfold accum2 Filter.accum2
  rw [List.zip_map_right, List.foldl_map]
  simp only [Prod.map_fst, Prod.map_snd, id_eq, hf, hg]

theorem updateStatistics_toF (f : Filter) : f.toF.updateStatistics = f.updateStatistics.map Filter.toF := by
  unfold updateStatistics Filter.updateStatistics
  simp only [Filter.toF, List.length_map]
  have e1 := fun ws => accum_toF ws f.particles (·.x) (·.x) fun _ => rfl
  have e2 := fun ws => accum_toF ws f.particles (·.y) (·.y) fun _ => rfl
  have e3 := fun ws => accum_toF ws f.particles (fun p => p.theta.cos) (fun p => Real.cos p.theta) fun _ => rfl
  have e4 := fun ws => accum_toF ws f.particles (fun p => p.theta.sin) (fun p => Real.sin p.theta) fun _ => rfl
  have e5 := fun a ws => accum2_toF a ws f.particles (·.x) (·.x) (fun p => .fin p.x) (fun p => .fin p.x)
    (fun _ => rfl) fun _ => rfl
  have e6 := fun a ws => accum2_toF a ws f.particles (·.x) (·.y) (fun p => .fin p.x) (fun p => .fin p.y)
    (fun _ => rfl) fun _ => rfl
  have e7 := fun a ws => accum2_toF a ws f.particles (·.y) (·.y) (fun p => .fin p.y) (fun p => .fin p.y)
    (fun _ => rfl) fun _ => rfl
  have e8 := fun a ws (t : Fl) => accum2_toF a ws f.particles (fun p => normalizeAngleF (t - p.theta))
    (fun p => normalizeAngleF (t - p.theta)) (fun p => normalizeAngleF (t - .fin p.theta))
    (fun p => normalizeAngleF (t - .fin p.theta)) (fun _ => rfl) fun _ => rfl
  simp only [e1, e2, e3, e4, e5, e6, e7, e8]
  split <;> rfl

theorem initMsg_toF (f : Filter) (nrm : MotionModel.Draws) (pose : Pose2d) {vx vy vth : ℝ} (hx : 0 ≤ vx) (hy : 0 ≤ vy)
    (ht : 0 ≤ vth) : f.toF.initMsg nrm pose vx vy vth =
      (f.init nrm pose.x pose.y pose.theta (Real.sqrt vx) (Real.sqrt vy) (Real.sqrt vth)).map Filter.toF := by
  unfold initMsg init Filter.init
  rw [Fl.sqrt_fin hx, Fl.sqrt_fin hy, Fl.sqrt_fin ht, ← updateStatistics_toF]
  congr 1
  unfold Filter.toF
  simp only [List.length_mapIdx, List.length_map]
  congr 1
  simp only [List.mapIdx_eq_zipIdx_map, List.map_map, List.zipIdx_map]
  rfl

theorem sampleOneF_toF {m : MotionModel} {dx dy dth : ℝ} (h1 : 0 ≤ m.radRot1 dx dy dth)
    (h2 : 0 ≤ m.radTrans dx dy dth) (h3 : 0 ≤ m.radRot2 dx dy dth) (nrm : MotionModel.Draws) (k : ℕ) (p : Pose2d) :
    m.sampleOneF nrm k dx dy dth p.toF = (m.sampleOne nrm k dx dy dth p).toF := by
  unfold MotionModel.sampleOneF
  rw [Fl.sqrt_fin h1, Fl.sqrt_fin h2, Fl.sqrt_fin h3]
  rfl

theorem update_toF (f : Filter) (nrm : MotionModel.Draws) {dx dy dth : ℝ} (h1 : 0 ≤ f.motion.radRot1 dx dy dth)
    (h2 : 0 ≤ f.motion.radTrans dx dy dth) (h3 : 0 ≤ f.motion.radRot2 dx dy dth) :
    f.toF.update nrm dx dy dth = (f.update nrm dx dy dth).map Filter.toF := by
  unfold update Filter.update
  rw [← updateStatistics_toF]
  congr 1
  unfold Filter.toF MotionModel.sampleF MotionModel.sample
  congr 1
  simp only [List.mapIdx_eq_zipIdx_map, List.map_map, List.zipIdx_map]
  apply List.map_congr_left
  intro a _
  exact sampleOneF_toF h1 h2 h3 nrm _ _

theorem scorePointsF_toF (mt : Matcher) (points : List Point) (p : Pose2d) :
    mt.scorePointsF points p.toF = mt.scorePoints points p := by
  unfold Matcher.scorePointsF Matcher.scorePoints
  cases mt.ndt with
  | none => rfl
  | some g => rfl

theorem measure_toF (f : Filter) (score : PoseF → Res Fl) (score' : Pose2d → Res Fl)
    (h : ∀ p, score (Pose2d.toF p) = score' p) : f.toF.measure score = (f.measure score').map Filter.toF := by
  unfold measure Filter.measure
  have : f.toF.particles.mapM score = f.particles.mapM score' := by
    show (f.particles.map Pose2d.toF).mapM score = _
    rw [List.mapM_map]
    congr 1
    funext p
    exact h p
  rw [this]
  cases f.particles.mapM score' with
  | error e => rfl
  | ok ws =>
    show (if f.weights.length < (f.particles.map Pose2d.toF).length then _ else _) =
      Except.map Filter.toF (if f.weights.length < f.particles.length then _ else _)
    rw [List.length_map]
    split
    · rfl
    · rw [← updateStatistics_toF]
      simp only [Filter.toF, List.length_map]

theorem insertF_toF (t : KdTree) (p : Pose2d) (w : Fl) : t.insertF p.toF w = t.insert p w := rfl

theorem resampleLoop_toF (f : Filter) (err z : ℝ) (draw : ℕ → ℕ) (n : ℕ) : ∀ (rs : List Pose2d) (ws : List Fl)
    (kd : KdTree) (mx : ℕ), f.maxP - rs.length = n →
    resampleLoop f.toF err z draw (rs.map Pose2d.toF) ws kd mx =
      (Filter.resampleLoop f err z draw rs ws kd mx).map fun r => (r.1.map Pose2d.toF, r.2) := by
  induction n using Nat.strong_induction_on with
  | _ n ih =>
    intro rs ws kd mx hn
    rw [resampleLoop, Filter.resampleLoop]
    simp only [List.length_map]
    have hmin : f.toF.minP = f.minP := rfl
    have hmax : f.toF.maxP = f.maxP := rfl
    have hw : f.toF.weights = f.weights := rfl
    have hp : f.toF.particles[draw rs.length]? = (f.particles[draw rs.length]?).map Pose2d.toF := by
      show (f.particles.map Pose2d.toF)[draw rs.length]? = _
      rw [List.getElem?_map]
    rw [hmin, hmax, hw, hp]
    by_cases hlt : rs.length < max f.minP mx
    · rw [if_pos hlt, if_pos hlt]
      cases hx : f.particles[draw rs.length]? with
      | none => rfl
      | some x =>
        cases hwx : f.weights[draw rs.length]? with
        | none => rfl
        | some w =>
          simp only [Option.map_some, insertF_toF]
          cases hk : kd.insert x w with
          | error e => rfl
          | ok kd' =>
            simp only
            cases hs : (if 1 < kd'.getLeafCount then Filter.kldSize err z kd'.getLeafCount else Except.ok mx) with
            | error e => rfl
            | ok mx' =>
              simp only
              by_cases hm : f.maxP ≤ rs.length + 1
              · rw [dif_pos hm, dif_pos hm]
                simp [Except.map]
              · rw [dif_neg hm, dif_neg hm]
                have := ih (f.maxP - (rs ++ [x]).length) (by simp; omega) (rs ++ [x]) (ws ++ [w]) kd' mx' rfl
                rw [← this]
                simp
    · rw [if_neg hlt, if_neg hlt]
      rfl

theorem resample_toF (f : Filter) (err z : ℝ) (draw : ℕ → ℕ) :
    f.toF.resample err z draw = (f.resample err z draw).map Filter.toF := by
  unfold resample Filter.resample
  have := resampleLoop_toF f err z draw _ [] [] f.kd.clear f.maxP rfl
  simp only [List.map_nil] at this
  rw [show f.toF.kd = f.kd from rfl, show f.toF.maxP = f.maxP from rfl, this]
  cases Filter.resampleLoop f err z draw [] [] f.kd.clear f.maxP with
  | error e => rfl
  | ok r =>
    exact updateStatistics_toF { f with particles := r.1, weights := r.2.1, kd := r.2.2 }

/-- Some coordinate is NaN. -/
def _root_.Ndt.PoseF.Bad (p : PoseF) : Prop := p.x = .nan ∨ p.y = .nan ∨ p.theta = .nan

/-- No particle is a pose, and there is one. -/
structure Broken (f : FilterF) : Prop where
  some : f.particles ≠ []
  bad : ∀ p ∈ f.particles, p.Bad

theorem updateStatistics_particles {f f' : FilterF} (h : f.updateStatistics = .ok f') :
    f'.particles = f.particles ∧ f'.maxP = f.maxP ∧ f'.minP = f.minP ∧ f'.motion = f.motion ∧
      f'.weights.length = f.weights.length := by
  unfold updateStatistics at h
  simp only at h
  split at h
  · cases h
  · injection h with h
    subst h
    exact ⟨rfl, rfl, rfl, rfl, by simp⟩

theorem updateStatistics_ok {f : FilterF} (h : f.particles.length ≤ f.weights.length) :
    ∃ f', f.updateStatistics = .ok f' := by
  unfold updateStatistics
  simp only [List.length_map]
  rw [if_neg (by omega)]
  exact ⟨_, rfl⟩

theorem sampleOneF_bad {p : PoseF} (hp : p.Bad) (m : MotionModel) (nrm : MotionModel.Draws) (k : ℕ) (dx dy dth : ℝ) :
    (m.sampleOneF nrm k dx dy dth p).Bad := by
  unfold MotionModel.sampleOneF
  rcases hp with h | h | h
  · left; simp only [h, Fl.nan_add']
  · right; left; simp only [h, Fl.nan_add']
  · right; right; simp only [h, Fl.nan_add']; rfl

theorem Broken.update {f f' : FilterF} (hb : f.Broken) {nrm : MotionModel.Draws} {dx dy dth : ℝ}
    (h : f.update nrm dx dy dth = .ok f') : f'.Broken ∧ f'.maxP = f.maxP ∧
      f'.particles.length = f.particles.length ∧ f'.weights.length = f.weights.length := by
  unfold FilterF.update at h
  have hp := updateStatistics_particles h
  simp only at hp
  refine ⟨⟨?_, ?_⟩, hp.2.1, ?_, hp.2.2.2.2⟩
  · rw [hp.1]
    unfold MotionModel.sampleF
    intro hc
    exact hb.some (by simpa using hc)
  · rw [hp.1]
    intro p hpm
    unfold MotionModel.sampleF at hpm
    rw [List.mem_mapIdx] at hpm
    obtain ⟨i, hi, rfl⟩ := hpm
    exact sampleOneF_bad (hb.bad _ (List.getElem_mem hi)) _ _ _ _ _ _
  · rw [hp.1]; simp [MotionModel.sampleF]

theorem mapM_length {α : Type} (score : α → Res Fl) : ∀ (l : List α) (ws : List Fl), l.mapM score = .ok ws →
    ws.length = l.length := by
  intro l
  induction l with
  | nil => intro ws h; cases h; rfl
  | cons a l ih =>
    intro ws h
    rw [List.mapM_cons] at h
    cases ha : score a with
    | error e => rw [ha] at h; cases h
    | ok w =>
      rw [ha] at h
      cases hl : l.mapM score with
      | error e => rw [hl] at h; cases h
      | ok ws' =>
        rw [hl] at h
        cases h
        simp [ih _ hl]

theorem Broken.measure {f f' : FilterF} (hb : f.Broken) {score : PoseF → Res Fl} (h : f.measure score = .ok f') :
    f'.Broken ∧ f'.maxP = f.maxP ∧ f'.particles.length = f.particles.length ∧
      f'.weights.length = f.weights.length := by
  unfold FilterF.measure at h
  cases hm : f.particles.mapM score with
  | error e => rw [hm] at h; cases h
  | ok ws =>
    rw [hm] at h
    change (if _ then _ else _) = _ at h
    split at h
    · cases h
    · have hp := updateStatistics_particles h
      simp only at hp
      have hl := mapM_length _ _ _ hm
      refine ⟨⟨by rw [hp.1]; exact hb.some, by rw [hp.1]; exact hb.bad⟩, hp.2.1, by rw [hp.1], ?_⟩
      rw [hp.2.2.2.2]
      simp
      omega

/-- A draw from a broken filter cannot be put into the tree. -/
theorem keyOfF_bad {p : PoseF} (hp : p.Bad) (t : KdTree) : t.keyOfF p = .error .conversion := by
  have hconv : ∀ a e, toI32F a = .error e → e = .conversion := by
    intro a e h
    unfold toI32F at h
    split at h
    · unfold toI32 at h
      split at h <;> cases h
      rfl
    · cases h; rfl
  have hn : ∀ a : Fl, toI32F (Fl.nan / a) = .error .conversion := fun a => by rw [Fl.nan_div']; rfl
  unfold KdTree.keyOfF
  cases h1 : toI32F (p.x / .fin (t.cellSize 0)) with
  | error e => rw [hconv _ _ h1]; rfl
  | ok a =>
    cases h2 : toI32F (p.y / .fin (t.cellSize 1)) with
    | error e => rw [hconv _ _ h2]; rfl
    | ok b =>
      cases h3 : toI32F (p.theta / .fin (t.cellSize 2)) with
      | error e => rw [hconv _ _ h3]; rfl
      | ok c =>
        exfalso
        rcases hp with h | h | h
        · rw [h, hn] at h1; cases h1
        · rw [h, hn] at h2; cases h2
        · rw [h, hn] at h3; cases h3

theorem Broken.resample {f : FilterF} (hb : f.Broken) (hm : 0 < f.maxP) (hw : f.particles.length ≤ f.weights.length)
    (err z : ℝ) {draw : ℕ → ℕ} (hd : draw 0 < f.particles.length) :
    f.resample err z draw = .error .conversion := by
  unfold FilterF.resample
  have : resampleLoop f err z draw [] [] f.kd.clear f.maxP = .error .conversion := by
    rw [resampleLoop]
    rw [if_pos (by simp; omega)]
    simp only [List.length_nil]
    rw [List.getElem?_eq_getElem hd, List.getElem?_eq_getElem (lt_of_lt_of_le hd hw)]
    have hi : ∀ (t : KdTree) (w : Fl), t.insertF f.particles[draw 0] w = .error .conversion := by
      intro t w
      unfold KdTree.insertF
      rw [keyOfF_bad (hb.bad _ (List.getElem_mem hd))]
      rfl
    simp only [hi]
  rw [this]

end FilterF

end

end Ndt
