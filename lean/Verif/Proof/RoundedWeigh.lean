import Verif.Model.RoundedWeigh
import Verif.Spec.RoundedWeigh
import Verif.Proof.RoundedMatcher
import Verif.Proof.RoundedFilter
import Verif.Proof.RoundedEnds
import Verif.Props.RoundedCellProps

/-! # Helper lemmas: weighing the particles in double precision -/

namespace Ndt

theorem rneInt_tie (x : ℝ) : |(rneInt x : ℝ) - x| < 1 / 2 ∨ (|(rneInt x : ℝ) - x| = 1 / 2 ∧ Even (rneInt x)) := by
  have e : x = ⌊x⌋ + Int.fract x := (Int.floor_add_fract x).symm
  have h0 := Int.fract_nonneg x
  have h1 := Int.fract_lt_one x
  unfold rneInt
  split
  · left
    rename_i h
    rw [abs_sub_comm, abs_of_nonneg (by linarith)]
    linarith
  · split
    · left
      rename_i h
      push_cast
      rw [abs_of_nonneg (by linarith)]
      linarith
    · rename_i h2 h3
      have h4 : Int.fract x = 1 / 2 := le_antisymm (not_lt.mp h3) (not_lt.mp h2)
      right
      split
      · rename_i h5
        refine ⟨?_, h5⟩
        rw [abs_sub_comm, abs_of_nonneg (by linarith)]
        linarith
      · rename_i h5
        refine ⟨?_, Int.even_add_one.mpr h5⟩
        push_cast
        rw [abs_of_nonneg (by linarith)]
        linarith

/-- Rounding to nearest with ties to even does not depend on the sign. -/
theorem rnd_neg (x : ℝ) : rnd (-x) = -rnd x := by
  have e : ulpExp (-x) = ulpExp x := by unfold ulpExp; rw [abs_neg]
  unfold rnd
  rw [e, neg_div]
  have : rneInt (-(x / 2 ^ ulpExp x)) = -rneInt (x / 2 ^ ulpExp x) := by
    refine rneInt_eq ?_
    have h := rneInt_tie (x / 2 ^ ulpExp x)
    have e2 : ((-rneInt (x / 2 ^ ulpExp x) : ℤ) : ℝ) - -(x / 2 ^ ulpExp x) = -((rneInt (x / 2 ^ ulpExp x) : ℝ) - x / 2 ^ ulpExp x) := by
      push_cast
      ring
    rw [e2, abs_neg]
    rcases h with h | ⟨h, he⟩
    · exact Or.inl h
    · exact Or.inr ⟨h, he.neg⟩
  rw [this]
  push_cast
  ring

namespace Rounded

open Spec

noncomputable section

variable {rd co si : ℝ → ℝ} {es : Mat2 ℝ → ℝ × ℝ}

theorem spread_likelihood (hr : RoundsToNearest rd)
    (he : ∀ a b d, 0 < Spec.eigMax a b d → Spec.eigMax a b d / 2 ≤ max (es ⟨a, b, b, d⟩).1 (es ⟨a, b, b, d⟩).2)
    {mt mt' : Matcher} {scans : List Scan} (hm : addScans rd co si es mt scans = .ok mt') {g : NdtGrid} (hg : mt'.ndt = some g)
    (hres : 0 < mt.resolution) (hres2 : mt.resolution ≤ 2 ^ 30) (hox : |g.originX| ≤ 2 ^ 60) (hoy : |g.originY| ≤ 2 ^ 60)
    {B : ℝ} (hB : 2⁻¹ ^ 100 ≤ B) (hB2 : B ≤ 2 ^ 100) (hsq : WellSpread rd co si g scans B) :
    ∀ p v, likelihood rd g p = .ok v → Upto 1 v := by
  obtain ⟨g', e, gc, hcell⟩ := addScans_cells hm
  subst e
  cases Option.some.inj hg
  refine likelihood_upto hr (by rw [gc]; exact hres) (by rw [gc]; exact hres2) hox hoy ?_
  intro i c hc p px py
  rw [hcell i c hc]
  rcases Nat.lt_or_ge (Spec.pointsIn rd co si g scans i).length 5 with hn | hn
  · have e : (cellOf rd es (Spec.pointsIn rd co si g scans i)).n = (Spec.pointsIn rd co si g scans i).length := by
      have e2 : (cellOf rd es (Spec.pointsIn rd co si g scans i)).n =
          ((Spec.pointsIn rd co si g scans i).foldl (addPoint rd) Cell.new).n := by
        unfold cellOf compute
        split <;> rfl
      rw [e2]
      exact fold_n hr _ (by omega)
    refine ⟨0, ?_, le_rfl, zero_le_one⟩
    unfold score
    rw [if_pos]
    rw [e]
    exact_mod_cast hn
  · obtain ⟨h1, h2, h3⟩ := hsq i hn
    exact c98_score_at_most_one_partial hr B hB hB2 _ h1 hn h2 h3 es he p px py

/-- A score, also a number of double precision. -/
def ScoreD (v : Fl) : Prop := ∃ x, v = .fin x ∧ IsDouble x ∧ -1 ≤ x ∧ x ≤ 0

theorem scorePoints_range (hr : RoundsToNearest rd) {mt : Matcher} {g : NdtGrid} (hg : mt.ndt = some g)
    (hlik : ∀ p v, likelihood rd g p = .ok v → Upto 1 v) {points : List Point} (hp : points ≠ []) (hp2 : points.length < 2 ^ 53)
    (hb : 0 < mt.laserMaxBeams) {pose : Pose2d} {v : Fl} (h : scorePoints rd co si mt points pose = .ok v) : ScoreD v := by
  have hm0 : 0 < min mt.laserMaxBeams points.length := lt_min hb (List.length_pos_iff.mpr hp)
  have hm1 : min mt.laserMaxBeams points.length < 2 ^ 53 := lt_of_le_of_lt (min_le_right _ _) hp2
  generalize hm : min mt.laserMaxBeams points.length = m at hm0 hm1
  have key : ∀ (l : List ℕ) (n : ℕ) (a w : Fl), n + l.length < 2 ^ 53 → Upto n (-a) →
      l.foldlM (fun score i => do
        let p ← beam rd points m i
        let w ← likelihood rd g (mapPoint rd co si pose p)
        (pure (Fl.rounded rd (score + -w)) : Res Fl)) a = .ok w → Upto (n + l.length : ℕ) (-w) := by
    intro l
    induction l with
    | nil =>
      intro n a w _ ha h
      cases h
      simpa using ha
    | cons i l ih =>
      intro n a w hn ha h
      rw [List.foldlM_cons] at h
      cases h1 : beam rd points m i with
      | error e => rw [h1] at h; cases h
      | ok p =>
        rw [h1] at h
        simp only [Res.ok_bind] at h
        cases h2 : likelihood rd g (mapPoint rd co si pose p) with
        | error e => rw [h2] at h; cases h
        | ok u =>
          rw [h2] at h
          simp only [Res.ok_bind, Res.pure_eq] at h
          rw [List.length_cons] at hn ⊢
          obtain ⟨x, hx, x0, x1⟩ := ha
          obtain ⟨y, rfl, y0, y1⟩ := hlik _ u h2
          have ea : a = .fin (-x) := by
            cases a with
            | nan => cases hx
            | pinf => cases hx
            | ninf => cases hx
            | fin a => cases hx; rw [neg_neg]
          subst ea
          have := ih (n + 1) _ w (by omega) ⟨-rd (-x + -y), rfl, ?_, ?_⟩ h
          · rwa [Nat.add_right_comm, Nat.add_assoc] at this
          · have := hr.le_of_le isDouble_zero (x := -x + -y) (by linarith)
            linarith
          · have := hr.ge_of_ge (isDouble_neg (isDouble_nat (n := n + 1) (by omega))) (x := -x + -y) (by push_cast; linarith)
            linarith
  unfold scorePoints at h
  rw [hg] at h
  simp only [hm] at h
  cases h1 : (List.range m).foldlM (fun score i => do
        let p ← beam rd points m i
        let w ← likelihood rd g (mapPoint rd co si pose p)
        (pure (Fl.rounded rd (score + -w)) : Res Fl)) (Fl.fin 0) with
  | error e => rw [h1] at h; cases h
  | ok w =>
    rw [h1] at h
    cases h
    have k := key (List.range m) 0 (.fin 0) w (by simpa using hm1) ⟨0, by simp, le_rfl, by simp⟩ h1
    obtain ⟨x, hx, x0, x1⟩ := k
    rw [Nat.zero_add, List.length_range] at x1
    have ew : w = .fin (-x) := by
      cases w with
      | nan => cases hx
      | pinf => cases hx
      | ninf => cases hx
      | fin a => cases hx; rw [neg_neg]
    subst ew
    have hmr : (0 : ℝ) < m := by exact_mod_cast hm0
    rw [hr.exact (isDouble_nat hm1), Fl.fin_div hmr.ne', Fl.rounded_fin]
    refine ⟨_, rfl, hr.isDouble _, ?_, ?_⟩
    · refine hr.ge_of_ge (isDouble_neg isDouble_one) ?_
      rw [le_div_iff₀ hmr]
      linarith
    · exact hr.le_of_le isDouble_zero (div_nonpos_of_nonpos_of_nonneg (by linarith) hmr.le)

/-! ### Weights -/

theorem sumScores_aux (hr : RoundsToNearest rd) : ∀ (ws : List Fl) (s : ℝ), IsDouble s → s ≤ 0 → (∀ w ∈ ws, ScoreD w) →
    ∃ t, ws.foldl (fun s w => Fl.rounded rd (s + w)) (.fin s) = .fin t ∧ IsDouble t ∧ t ≤ s ∧ ∀ x, .fin x ∈ ws → t ≤ x := by
  intro ws
  induction ws with
  | nil => intro s hs _ _; exact ⟨s, rfl, hs, le_rfl, fun x hx => (List.not_mem_nil hx).elim⟩
  | cons w ws ih =>
    intro s hs s0 h
    obtain ⟨x, rfl, xd, x1, x0⟩ := h w List.mem_cons_self
    have a1 : rd (s + x) ≤ s := hr.le_of_le hs (by linarith)
    have a2 : rd (s + x) ≤ x := hr.le_of_le xd (by linarith)
    obtain ⟨t, h1, h2, h3, h4⟩ := ih (rd (s + x)) (hr.isDouble _) (a1.trans s0) fun w hw => h w (List.mem_cons_of_mem _ hw)
    refine ⟨t, h1, h2, h3.trans a1, fun y hy => ?_⟩
    rcases List.mem_cons.mp hy with hy | hy
    · cases hy
      exact h3.trans a2
    · exact h4 y hy

theorem sumScores_zero (hr : RoundsToNearest rd) : ∀ ws : List Fl, (∀ w ∈ ws, w = .fin 0) → sumScores rd ws = .fin 0 := by
  intro ws h
  unfold sumScores
  induction ws with
  | nil => rfl
  | cons w ws ih =>
    rw [List.foldl_cons, h w List.mem_cons_self, Fl.fin_add, add_zero, Fl.rounded_fin, hr.exact isDouble_zero]
    exact ih fun w hw => h w (List.mem_cons_of_mem _ hw)

theorem shares_range (hr : RoundsToNearest rd) {ws : List Fl} (h : ∀ w ∈ ws, ScoreD w) (hne : ∃ w ∈ ws, w ≠ .fin 0) :
    ∀ w ∈ shares rd ws, IsShare w := by
  obtain ⟨t, h1, -, -, h4⟩ := sumScores_aux hr ws 0 isDouble_zero le_rfl h
  have h1' : sumScores rd ws = .fin t := h1
  obtain ⟨w0, hw0, hn⟩ := hne
  obtain ⟨x0, rfl, -, -, hx0⟩ := h w0 hw0
  have ht : t < 0 := by
    have := h4 x0 hw0
    refine lt_of_le_of_lt this (lt_of_le_of_ne hx0 ?_)
    rintro rfl
    exact hn rfl
  intro w hw
  obtain ⟨v, hv, rfl⟩ := List.mem_map.mp hw
  obtain ⟨x, rfl, -, -, hx⟩ := h v hv
  rw [h1', Fl.fin_div ht.ne, Fl.rounded_fin]
  refine ⟨_, rfl, hr.nonneg (div_nonneg_of_nonpos hx ht.le), hr.le_of_le isDouble_one ?_⟩
  rw [div_le_one_of_neg ht]
  exact h4 x hv

theorem shares_nan {ws : List Fl} (h : sumScores rd ws = .nan) : ∀ w ∈ shares rd ws, w = .nan := by
  intro w hw
  obtain ⟨v, hv, rfl⟩ := List.mem_map.mp hw
  rw [h, Fl.div_nan]
  rfl

theorem rounded_nan : Fl.rounded rd .nan = .nan := rfl

theorem meanOf_nan (f : Pose2d → ℝ) : ∀ (ws : List Fl) (ps : List Pose2d), ws.length ≤ ps.length → Fl.nan ∈ ws → meanOf rd f ws ps = .nan := by
  have stay : ∀ (l : List (Fl × Pose2d)), l.foldl (fun s a => Fl.rounded rd (s + Fl.rounded rd (a.1 * .fin (f a.2)))) .nan = .nan := by
    intro l
    induction l with
    | nil => rfl
    | cons a l ih => rw [List.foldl_cons, Fl.nan_add, rounded_nan, ih]
  have key : ∀ (ws : List Fl) (ps : List Pose2d) (s : Fl), ws.length ≤ ps.length → Fl.nan ∈ ws →
      (ws.zip ps).foldl (fun s a => Fl.rounded rd (s + Fl.rounded rd (a.1 * .fin (f a.2)))) s = .nan := by
    intro ws
    induction ws with
    | nil => intro ps s _ h; exact (List.not_mem_nil h).elim
    | cons w ws ih =>
      intro ps s hl hm
      cases ps with
      | nil => simp at hl
      | cons p ps =>
        rw [List.zip_cons_cons, List.foldl_cons]
        rcases List.mem_cons.mp hm with rfl | hm
        · rw [Fl.nan_mul, rounded_nan, Fl.add_nan, rounded_nan, stay]
        · exact ih ps _ (by simpa using hl) hm
  intro ws ps hl hm
  exact key ws ps _ hl hm

/-- A sum with a term of minus infinity is minus infinity or NaN, if there is no term of plus infinity. -/
theorem sumScores_ninf {ws : List Fl} (h : Fl.ninf ∈ ws) : sumScores rd ws = .ninf ∨ sumScores rd ws = .nan := by
  have stay : ∀ (l : List Fl) (s : Fl), s = .ninf ∨ s = .nan → l.foldl (fun s w => Fl.rounded rd (s + w)) s = .ninf ∨
      l.foldl (fun s w => Fl.rounded rd (s + w)) s = .nan := by
    intro l
    induction l with
    | nil => intro s h; exact h
    | cons w l ih =>
      intro s hs
      rw [List.foldl_cons]
      refine ih _ ?_
      rcases hs with rfl | rfl
      · cases w
        · exact Or.inr rfl
        · exact Or.inr rfl
        · exact Or.inl rfl
        · exact Or.inl rfl
      · rw [Fl.nan_add]
        exact Or.inr rfl
  have key : ∀ (l : List Fl) (s : Fl), Fl.ninf ∈ l → l.foldl (fun s w => Fl.rounded rd (s + w)) s = .ninf ∨
      l.foldl (fun s w => Fl.rounded rd (s + w)) s = .nan := by
    intro l
    induction l with
    | nil => intro s h; exact (List.not_mem_nil h).elim
    | cons w l ih =>
      intro s h
      rcases List.mem_cons.mp h with rfl | h
      · rw [List.foldl_cons]
        refine stay l _ ?_
        cases s
        · exact Or.inr rfl
        · exact Or.inr rfl
        · exact Or.inl rfl
        · exact Or.inl rfl
      · rw [List.foldl_cons]
        exact ih _ h
  exact key ws _ h

theorem shares_of_ninf {ws : List Fl} (h : Fl.ninf ∈ ws) : Fl.nan ∈ shares rd ws := by
  refine List.mem_map.mpr ⟨_, h, ?_⟩
  rcases sumScores_ninf (rd := rd) h with e | e <;> rw [e]
  · rfl
  · rw [Fl.div_nan]; rfl

/-! ### Scores as weights of the opposite sign -/

theorem sumScores_neg (hodd : ∀ x, rd (-x) = -rd x) (l : List (ℝ × Pose2d)) :
    sumScores rd (l.map fun a => .fin (-a.1)) = .fin (-sumWeights rd l) := by
  unfold sumScores sumWeights
  rw [List.foldl_map]
  have key : ∀ (l : List (ℝ × Pose2d)) (s : ℝ), l.foldl (fun s a => Fl.rounded rd (s + .fin (-a.1))) (.fin (-s)) =
      .fin (-l.foldl (fun s a => rd (s + a.1)) s) := by
    intro l
    induction l with
    | nil => intro s; rfl
    | cons a l ih =>
      intro s
      rw [List.foldl_cons, List.foldl_cons, Fl.fin_add, Fl.rounded_fin, ← neg_add, hodd, ih]
  have := key l 0
  rwa [neg_zero] at this

theorem shares_neg (hodd : ∀ x, rd (-x) = -rd x) {l : List (ℝ × Pose2d)} (hs : sumWeights rd l ≠ 0) :
    shares rd (l.map fun a => .fin (-a.1)) = (normalised rd l).map fun a => .fin a.1 := by
  unfold shares normalised
  rw [sumScores_neg hodd, List.map_map, List.map_map]
  refine List.map_congr_left fun a _ => ?_
  simp only [Function.comp]
  rw [Fl.fin_div (neg_ne_zero.mpr hs), Fl.rounded_fin, neg_div_neg_eq]

theorem meanOf_eq (f : Pose2d → ℝ) (l : List (ℝ × Pose2d)) :
    meanOf rd f (l.map fun a => .fin a.1) (l.map (·.2)) = .fin (accumMean rd f l) := by
  unfold meanOf accumMean
  have key : ∀ (l : List (ℝ × Pose2d)) (s : ℝ), ((l.map fun a => Fl.fin a.1).zip (l.map (·.2))).foldl
      (fun s a => Fl.rounded rd (s + Fl.rounded rd (a.1 * .fin (f a.2)))) (.fin s) =
        .fin (l.foldl (fun s a => rd (s + rd (a.1 * f a.2))) s) := by
    intro l
    induction l with
    | nil => intro s; rfl
    | cons a l ih =>
      intro s
      rw [List.map_cons, List.map_cons, List.zip_cons_cons, List.foldl_cons, List.foldl_cons, Fl.fin_mul, Fl.rounded_fin, Fl.fin_add,
        Fl.rounded_fin, ih]
  exact key l 0

theorem measure_ok {mt : Matcher} {points : List Point} {ps : List Pose2d} {r : Weighed} (h : measure rd co si mt points ps = .ok r) :
    ∃ scores, ps.mapM (scorePoints rd co si mt points) = .ok scores ∧ r = ⟨shares rd scores, meanOf rd (·.x) (shares rd scores) ps,
      meanOf rd (·.y) (shares rd scores) ps⟩ := by
  unfold measure at h
  cases h1 : ps.mapM (scorePoints rd co si mt points) with
  | error e => rw [h1] at h; cases h
  | ok scores =>
    rw [h1] at h
    cases h
    exact ⟨scores, rfl, rfl⟩

theorem mapM_mem {α β : Type} {f : α → Res β} : ∀ {l : List α} {r : List β}, l.mapM f = .ok r → ∀ b ∈ r, ∃ a ∈ l, f a = .ok b := by
  intro l
  induction l with
  | nil => intro r h; cases h; intro b hb; exact (List.not_mem_nil hb).elim
  | cons a l ih =>
    intro r h b hb
    rw [List.mapM_cons] at h
    cases h1 : f a with
    | error e => rw [h1] at h; cases h
    | ok b' =>
      rw [h1] at h
      simp only [Res.ok_bind] at h
      cases h2 : l.mapM f with
      | error e => rw [h2] at h; cases h
      | ok r' =>
        rw [h2] at h
        cases h
        rcases List.mem_cons.mp hb with rfl | hb
        · exact ⟨a, List.mem_cons_self, h1⟩
        · obtain ⟨a', ha, hf⟩ := ih h2 b hb
          exact ⟨a', List.mem_cons_of_mem _ ha, hf⟩

theorem mapM_mem' {α β : Type} {f : α → Res β} : ∀ {l : List α} {r : List β}, l.mapM f = .ok r → ∀ a ∈ l, ∃ b ∈ r, f a = .ok b := by
  intro l
  induction l with
  | nil => intro r _ a ha; exact (List.not_mem_nil ha).elim
  | cons a l ih =>
    intro r h a' ha
    rw [List.mapM_cons] at h
    cases h1 : f a with
    | error e => rw [h1] at h; cases h
    | ok b' =>
      rw [h1] at h
      simp only [Res.ok_bind] at h
      cases h2 : l.mapM f with
      | error e => rw [h2] at h; cases h
      | ok r' =>
        rw [h2] at h
        cases h
        rcases List.mem_cons.mp ha with rfl | ha
        · exact ⟨b', List.mem_cons_self, h1⟩
        · obtain ⟨b, hb, hf⟩ := ih h2 a' ha
          exact ⟨b, List.mem_cons_of_mem _ hb, hf⟩

end

end Rounded

end Ndt
