import Verif.Props.SolverProps
import Verif.Props.GraphStateProps
import Verif.Props.EndsProps
import Verif.Spec.Agree

/-! # Helper lemmas: optimising a map that agrees with its constraints -/

namespace Ndt

noncomputable section

open Spec Solver Real

theorem Spec.SamePlace.refl (a : Pose2d) : SamePlace a a := ⟨rfl, rfl, 0, by simp⟩

theorem Spec.SamePlace.symm {a b : Pose2d} (h : SamePlace a b) : SamePlace b a := by
  obtain ⟨h1, h2, n, h3⟩ := h
  exact ⟨h1.symm, h2.symm, -n, by rw [h3]; push_cast; ring⟩

theorem Spec.SamePlace.trans {a b c : Pose2d} (h : SamePlace a b) (h' : SamePlace b c) : SamePlace a c := by
  obtain ⟨h1, h2, n, h3⟩ := h
  obtain ⟨g1, g2, m, g3⟩ := h'
  exact ⟨g1.trans h1, g2.trans h2, n + m, by rw [g3, h3]; push_cast; ring⟩

theorem Spec.SamePlace.compose {a b : Pose2d} (h : SamePlace a b) (t : Pose2d) : SamePlace (compose a t) (Spec.compose b t) := by
  obtain ⟨h1, h2, n, h3⟩ := h
  refine ⟨?_, ?_, n, ?_⟩ <;> simp only [Spec.compose, h1, h2, h3, cos_add_int_mul_two_pi, sin_add_int_mul_two_pi]
  ring

theorem Spec.Leads.move {t a b a' b' : Pose2d} (h : Leads t a b) (ha : SamePlace a a') (hb : SamePlace b b') : Leads t a' b' :=
  (ha.compose t).symm.trans (SamePlace.trans h hb)

/-- Where a motion leads is determined. -/
theorem Spec.Leads.unique {t a b a' b' : Pose2d} (h : Leads t a b) (h' : Leads t a' b') (ha : SamePlace a a') : SamePlace b b' :=
  (SamePlace.symm h).trans ((ha.compose t).trans h')

theorem ceres_zero_iff (a : ℝ) : ceresNormalizeAngle a = 0 ↔ ∃ n : ℤ, a = n * (2 * π) := by
  constructor
  · intro h
    obtain ⟨-, n, hn⟩ := c30_normalize_angle_correct a
    exact ⟨-n, by rw [h] at hn; push_cast; linarith⟩
  · rintro ⟨n, rfl⟩
    refine c30_normalised_angle_unique (c30_normalize_angle_correct _) ⟨⟨by linarith [pi_pos], pi_pos⟩, -n, ?_⟩
    push_cast; ring

theorem leads_iff (t a b : Pose2d) : Leads t a b ↔ ∀ i, poseError t a b i = 0 := by
  have hs := sin_sq_add_cos_sq a.theta
  constructor
  · rintro ⟨h1, h2, n, h3⟩ i
    simp only [compose] at h1 h2 h3
    fin_cases i
    · show cos a.theta * (b.x - a.x) + sin a.theta * (b.y - a.y) - t.x = 0
      rw [h1, h2]; linear_combination t.x * hs
    · show -sin a.theta * (b.x - a.x) + cos a.theta * (b.y - a.y) - t.y = 0
      rw [h1, h2]; linear_combination t.y * hs
    · exact (ceres_zero_iff _).mpr ⟨n, by rw [h3]; ring⟩
  · intro h
    have e0 : cos a.theta * (b.x - a.x) + sin a.theta * (b.y - a.y) - t.x = 0 := h 0
    have e1 : -sin a.theta * (b.x - a.x) + cos a.theta * (b.y - a.y) - t.y = 0 := h 1
    obtain ⟨n, hn⟩ := (ceres_zero_iff _).mp (h 2)
    refine ⟨?_, ?_, n, ?_⟩
    · show b.x = a.x + cos a.theta * t.x - sin a.theta * t.y
      linear_combination cos a.theta * e0 - sin a.theta * e1 - (b.x - a.x) * hs
    · show b.y = a.y + sin a.theta * t.x + cos a.theta * t.y
      linear_combination sin a.theta * e0 + cos a.theta * e1 - (b.y - a.y) * hs
    · show b.theta = a.theta + t.theta + _
      linarith

theorem leads_fresh (a b : Scan) (cov : Mat3) : Leads (makeConstraint a b cov).transform a.pose b.pose :=
  (leads_iff _ _ _).mpr (poseError_fresh a b cov)

/-- Squares that sum up to nothing are nothing. -/
theorem sum_normSq_zero (rs : List (Fin 3 → ℝ)) (h : (rs.map normSq).sum ≤ 0) : ∀ r ∈ rs, ∀ i, r i = 0 := by
  have hn : ∀ r : Fin 3 → ℝ, 0 ≤ normSq r := fun r => by unfold normSq; positivity
  have hsum : ∀ l : List (Fin 3 → ℝ), 0 ≤ (l.map normSq).sum := by
    intro l
    induction l with
    | nil => simp
    | cons r l ih => simp only [List.map_cons, List.sum_cons]; linarith [hn r]
  induction rs with
  | nil => simp
  | cons r rs ih =>
    simp only [List.map_cons, List.sum_cons] at h
    intro x hx i
    rcases List.mem_cons.mp hx with rfl | hx
    · have h0 : normSq x = 0 := le_antisymm (by linarith [hsum rs]) (hn x)
      unfold normSq at h0
      have h0' := sq_nonneg (x 0)
      have h1' := sq_nonneg (x 1)
      have h2' := sq_nonneg (x 2)
      have e0 : x 0 ^ 2 = 0 := by linarith
      have e1 : x 1 ^ 2 = 0 := by linarith
      have e2 : x 2 ^ 2 = 0 := by linarith
      fin_cases i
      · exact pow_eq_zero_iff two_ne_zero |>.mp e0
      · exact pow_eq_zero_iff two_ne_zero |>.mp e1
      · exact pow_eq_zero_iff two_ne_zero |>.mp e2
    · exact ih (by linarith [hn r]) x hx i

/-- A residual of nothing is an error of nothing. -/
theorem residual_zero {m : Mat3} {inf : Matrix (Fin 3) (Fin 3) ℝ} (h : IsReal m inf) (hp : inf.PosDef) (t a b : Pose2d)
    (r : Fin 3 → ℝ) (hr : IsRealVec (residual (matrixL m) t a b) r) : (∀ i, r i = 0) ↔ Leads t a b := by
  rw [leads_iff]
  obtain ⟨L, h1, -, h3, h4⟩ := c34_weight_is_cholesky_factor h hp
  have hr' := residual_real h1 t a b
  have e : r = L.mulVec (poseError t a b) := by
    funext i
    have a1 := hr i
    have a2 := hr' i
    rw [a1] at a2
    exact Fl.fin.inj a2
  have z01 := h3 0 1 (by decide)
  have z02 := h3 0 2 (by decide)
  have z12 := h3 1 2 (by decide)
  constructor
  · intro hz
    have q0 := hz 0
    have q1 := hz 1
    have q2 := hz 2
    rw [e] at q0 q1 q2
    simp only [Matrix.mulVec, dotProduct, Fin.sum_univ_three, z01, z02, z12, zero_mul, add_zero] at q0 q1 q2
    have e0 : poseError t a b 0 = 0 := (mul_eq_zero.mp q0).resolve_left (h4 0).ne'
    rw [e0, mul_zero, zero_add] at q1
    have e1 : poseError t a b 1 = 0 := (mul_eq_zero.mp q1).resolve_left (h4 1).ne'
    rw [e0, e1, mul_zero, mul_zero, zero_add, zero_add] at q2
    have e2 : poseError t a b 2 = 0 := (mul_eq_zero.mp q2).resolve_left (h4 2).ne'
    intro i
    fin_cases i
    · exact e0
    · exact e1
    · exact e2
  · intro hz i
    rw [e]
    have : poseError t a b = 0 := funext hz
    rw [this, Matrix.mulVec_zero]
    rfl

/-- A block of the problem is that of a constraint. -/
theorem block_of {scans : List Scan} {cs : List Constraint} {bs : List ResidualBlock} (h : cs.map (blockOf scans) = bs.map some) :
    (∀ c ∈ cs, ∃ a b : Scan, scans[c.begin_]? = some a ∧ scans[c.end_]? = some b ∧
      (⟨c.transform, matrixL c.information, key a, key b⟩ : ResidualBlock) ∈ bs) ∧
    ∀ blk ∈ bs, ∃ c ∈ cs, ∃ a b : Scan, scans[c.begin_]? = some a ∧ scans[c.end_]? = some b ∧
      blk = ⟨c.transform, matrixL c.information, key a, key b⟩ := by
  have unf : ∀ c blk, blockOf scans c = some blk → ∃ a b : Scan, scans[c.begin_]? = some a ∧ scans[c.end_]? = some b ∧
      blk = ⟨c.transform, matrixL c.information, key a, key b⟩ := by
    intro c blk hb
    unfold blockOf at hb
    split at hb
    · rename_i a b ha hb'
      injection hb with hb
      exact ⟨a, b, ha, hb', hb.symm⟩
    · cases hb
  constructor
  · intro c hc
    have : blockOf scans c ∈ bs.map some := by rw [← h]; exact List.mem_map.mpr ⟨c, hc, rfl⟩
    obtain ⟨blk, h1, h2⟩ := List.mem_map.mp this
    obtain ⟨a, b, ha, hb, e⟩ := unf c blk h2.symm
    exact ⟨a, b, ha, hb, e ▸ h1⟩
  · intro blk hb
    have : some blk ∈ cs.map (blockOf scans) := by rw [h]; exact List.mem_map.mpr ⟨blk, hb, rfl⟩
    obtain ⟨c, hc, h2⟩ := List.mem_map.mp this
    exact ⟨c, hc, unf c blk h2⟩

theorem forall₂_const {α β : Type} {R : α → β → Prop} (b : β) : ∀ l : List α, (∀ a ∈ l, R a b) →
    List.Forall₂ R l (l.map fun _ => b)
  | [], _ => .nil
  | a :: l, h => .cons (h a (by simp)) (forall₂_const b l fun x hx => h x (by simp [hx]))

theorem forall₂_mem {α β : Type} {R : α → β → Prop} {l : List α} {m : List β} (h : List.Forall₂ R l m) {a : α}
    (ha : a ∈ l) : ∃ b ∈ m, R a b := by
  induction h with
  | nil => simp at ha
  | cons h1 _ ih =>
    rcases List.mem_cons.mp ha with rfl | ha
    · exact ⟨_, by simp, h1⟩
    · obtain ⟨b, hb, hr⟩ := ih ha
      exact ⟨b, by simp [hb], hr⟩

/-- Optimising a map that agrees with its constraints gives a map that agrees with its constraints. -/
theorem optimize_agrees {ceres : Solver → Outcome} (hc : NotWorse ceres) {s s' : Solver} {cs : List Constraint}
    {scans scans' : List Scan} {r : Bool} (hd : (scans.map key).Nodup)
    (hsync : InSync s (cs.take s.numConstraints) scans) (hsure : ∀ c ∈ cs, Sure c)
    (hag : Agrees cs scans) (h : s.optimize ceres cs scans = .ok (r, s', scans')) : Agrees cs scans' := by
  unfold optimize at h
  split at h
  · cases h; exact hag
  · rename_i first rest
    cases h1 : s.prepare cs (first :: rest) first with
    | error e => rw [h1] at h; cases h
    | ok s1 =>
      rw [h1] at h
      simp only [Res.ok_bind] at h
      obtain ⟨bs, hbs, hn, hblk, -, -, -⟩ := prepare_ok h1
      have hall : cs.map (blockOf (first :: rest)) = s1.blocks.map some := by
        rw [hblk, List.map_append, ← hbs, ← hsync.1, ← List.map_append, List.take_append_drop]
      obtain ⟨hb1, hb2⟩ := block_of hall
      have hnode : ∀ {i : ℕ} {x : Scan}, (first :: rest)[i]? = some x → s1.nodes (key x) = some x.pose := by
        intro i x hx
        rw [hn]
        exact setNodes_pose _ _ hd (List.mem_of_getElem? hx)
      split at h
      · rename_i hu
        cases h
        have hcost : CostIs s1.blocks s1.nodes 0 := by
          refine ⟨s1.blocks.map fun _ => (fun _ => 0 : Fin 3 → ℝ), forall₂_const _ _ ?_, ?_⟩
          · intro blk hblk
            obtain ⟨c, hcm, a, b, ha, hb, e⟩ := hb2 blk hblk
            obtain ⟨a', b', ha', hb', hl⟩ := hag c hcm
            rw [ha] at ha'; rw [hb] at hb'
            cases ha'; cases hb'
            obtain ⟨inf, hi, hp⟩ := hsure c hcm
            rw [e]
            refine ⟨a.pose, b.pose, hnode ha, hnode hb, ?_⟩
            obtain ⟨L, h1, -, -, -⟩ := c34_weight_is_cholesky_factor hi hp
            have hr := residual_real h1 c.transform a.pose b.pose
            have hz := (residual_zero hi hp _ _ _ _ hr).mpr hl
            intro i
            rw [← hz i]
            exact hr i
          · rw [List.map_map]
            symm
            apply List.sum_eq_zero
            intro x hx
            obtain ⟨_, -, rfl⟩ := List.mem_map.mp hx
            simp [normSq]
        obtain ⟨c', hc', rs, hrs, e⟩ := hc s1 0 hu hcost
        have hz := sum_normSq_zero rs (by rw [← e]; exact hc')
        intro c hcm
        obtain ⟨a, b, ha, hb, hm⟩ := hb1 c hcm
        obtain ⟨rv, hrv, pa, pb, hpa, hpb, hres⟩ := forall₂_mem hrs hm
        obtain ⟨inf, hi, hp⟩ := hsure c hcm
        refine ⟨a.setPose pa, b.setPose pb, ?_, ?_, (residual_zero hi hp _ _ _ _ hres).mp (hz rv hrv)⟩
        · unfold writeBack
          rw [List.getElem?_map, ha]
          simp only at hpa
          simp [hpa]
        · unfold writeBack
          rw [List.getElem?_map, hb]
          simp only at hpb
          simp [hpb]
      · cases h; exact hag

theorem agrees_places {cs : List Constraint} {a b : List Scan} (hlen : b.length = a.length) (ha : Agrees cs a)
    (hb : Agrees cs b) (h0 : (b[0]?).map (·.pose) = (a[0]?).map (·.pose)) (hl : LinkedBack a.length cs) : SamePlaces a b := by
  refine ⟨hlen, fun i => ?_⟩
  induction i using Nat.strong_induction_on with
  | _ i ih =>
    intro x y hx hy
    rcases Nat.eq_zero_or_pos i with rfl | hi
    · rw [hx, hy] at h0
      simp only [Option.map_some, Option.some.injEq] at h0
      rw [h0]; exact SamePlace.refl _
    · obtain ⟨c, hc, he, hbeg⟩ := hl i hi (List.getElem?_eq_some_iff.mp hx).1
      obtain ⟨a1, a2, e1, e2, l1⟩ := ha c hc
      obtain ⟨b1, b2, f1, f2, l2⟩ := hb c hc
      rw [he, hx] at e2
      rw [he, hy] at f2
      cases e2; cases f2
      exact l1.unique l2 (ih _ hbeg _ _ e1 f1)

theorem optimize_places {ceres : Solver → Outcome} (hc : NotWorse ceres) {s s' : Solver} {cs : List Constraint}
    {scans scans' : List Scan} {r : Bool} (hd : (scans.map key).Nodup)
    (hsync : InSync s (cs.take s.numConstraints) scans) (hsure : ∀ c ∈ cs, Sure c)
    (hag : Agrees cs scans) (hl : LinkedBack scans.length cs) (h : s.optimize ceres cs scans = .ok (r, s', scans')) :
    SamePlaces scans scans' :=
  agrees_places (optimize_same h).length hag (optimize_agrees hc hd hsync hsure hag h)
    (c37_first_scan_fixed ceres hd h) hl

end

end Ndt
