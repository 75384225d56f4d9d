import Verif.Spec.RoundedCov
import Verif.Proof.RoundedMatcher
import Verif.Proof.RoundedFilter

/-! # Lemmas about the covariance of matching in double precision -/

namespace Ndt.Rounded

noncomputable section

open Spec

variable {rd co si : ℝ → ℝ}

theorem foldlM_folds {α β γ : Type} (f : α → β → Res α) (g : α → γ → α) (C : β → List γ) (l : List β)
    (hf : ∀ x ∈ l, ∀ a b, f a x = .ok b → b = (C x).foldl g a) (a b : α) (h : l.foldlM f a = .ok b) : b = (l.flatMap C).foldl g a := by
  induction l generalizing a with
  | nil => cases h; rfl
  | cons x l ih =>
    rw [List.foldlM_cons] at h
    cases h1 : f a x with
    | error e => rw [h1] at h; cases h
    | ok a' =>
      rw [h1] at h
      rw [List.flatMap_cons, List.foldl_append, ← hf x List.mem_cons_self a a' h1]
      exact ih (fun y hy => hf y (List.mem_cons_of_mem _ hy)) a' h

/-- What is done with an offset of likelihood `w o`. -/
def visit (rd : ℝ → ℝ) (w : Pose2d → ℝ) (a : Matcher.SearchAcc) (o : Pose2d) : Matcher.SearchAcc := update rd o.theta o.x o.y (-.fin (w o)) a

theorem search_folds {mt : Matcher} {g : NdtGrid} {points : List Point} {m : ℕ} {pose : Pose2d} {a b : Matcher.SearchAcc} {A B : ℕ}
    (hAB : SearchSize rd mt A B) {w : Pose2d → ℝ} (hw : ∀ o ∈ offsets rd mt A B, likelihoodAt rd co si g points m pose o = .ok (.fin (w o)))
    (h : search rd co si mt g points m pose a = .ok b) : b = (offsets rd mt A B).foldl (visit rd w) a := by
  unfold search at h
  cases h1 : searchVals rd mt.angularSize mt.angularRes with
  | error e => rw [h1] at h; cases h
  | ok dths =>
    obtain ⟨A', rfl, hA⟩ := searchVals_eq_map h1
    have eA : A' = A := by
      rcases lt_trichotomy A' A with hlt | he | hlt
      · have := (hA A').mpr ((hAB.1 A').mp hlt); omega
      · exact he
      · have := (hAB.1 A).mpr ((hA A).mp hlt); omega
    subst eA
    rw [h1] at h
    simp only [Res.ok_bind] at h
    rw [List.foldlM_map] at h
    cases h2 : searchVals rd mt.linearSize mt.linearRes with
    | error e =>
      rcases Nat.eq_zero_or_pos A' with hA0 | hA0
      · subst hA0
        cases h
        rfl
      · obtain ⟨a1, b1, e1⟩ := foldlM_each _ _ _ _ h 0 (List.mem_range.mpr hA0)
        rw [h2] at e1
        cases ho : outerPoints rd co si points m pose (searchVal rd mt.angularSize mt.angularRes 0) with
        | error e => rw [ho] at e1; cases e1
        | ok outer => rw [ho] at e1; cases e1
    | ok ds =>
      obtain ⟨B', rfl, hB⟩ := searchVals_eq_map h2
      have eB : B' = B := by
        rcases lt_trichotomy B' B with hlt | he | hlt
        · have := (hB B').mpr ((hAB.2 B').mp hlt); omega
        · exact he
        · have := (hAB.2 B).mpr ((hB B).mp hlt); omega
      subst eB
      rw [h2] at h
      simp only [Res.ok_bind, List.foldlM_map] at h
      unfold offsets
      refine foldlM_folds _ _ _ _ ?_ a b h
      intro i hi a b hab
      cases ho : outerPoints rd co si points m pose (searchVal rd mt.angularSize mt.angularRes i) with
      | error e => rw [ho] at hab; cases hab
      | ok outer =>
        rw [ho] at hab
        simp only [Res.ok_bind] at hab
        refine foldlM_folds _ _ _ _ ?_ a b hab
        intro j hj a b hab
        have hone : (List.range B').map (fun k => offsetOf rd mt i j k) = (List.range B').flatMap fun k => [offsetOf rd mt i j k] := by
          rw [← List.map_eq_flatMap]
        rw [hone]
        refine foldlM_folds _ _ _ _ ?_ a b hab
        intro k hk a b hab
        have hm : offsetOf rd mt i j k ∈ offsets rd mt A' B' :=
          List.mem_flatMap.mpr ⟨i, hi, List.mem_flatMap.mpr ⟨j, hj, List.mem_map.mpr ⟨k, hk, rfl⟩⟩⟩
        have hv := hw _ hm
        unfold likelihoodAt offsetOf at hv
        simp only [ho, Res.ok_bind] at hv
        rw [hv] at hab
        cases hab
        rfl

/-! ### The sums -/

/-- A term of the second moments. -/
def kTerm (rd : ℝ → ℝ) (i j : Fin 3) (w : ℝ) (o : Pose2d) : ℝ := rd (rd (offsetCoord i o * offsetCoord j o) * -w)

/-- A term of the first moments. -/
def uTerm (rd : ℝ → ℝ) (i : Fin 3) (w : ℝ) (o : Pose2d) : ℝ := rd (offsetCoord i o * -w)

theorem visits_sums (w : Pose2d → ℝ) (L : List Pose2d) : ∀ (a : Matcher.SearchAcc) (K : Fin 3 → Fin 3 → ℝ) (U : Fin 3 → ℝ) (S : ℝ),
    (∀ i j, a.k i j = .fin (K i j)) → (∀ i, a.u i = .fin (U i)) → a.s = .fin S →
    (∀ i j, (L.foldl (visit rd w) a).k i j = .fin (L.foldl (fun s o => rd (s + kTerm rd i j (w o) o)) (K i j))) ∧
    (∀ i, (L.foldl (visit rd w) a).u i = .fin (L.foldl (fun s o => rd (s + uTerm rd i (w o) o)) (U i))) ∧
    (L.foldl (visit rd w) a).s = .fin (L.foldl (fun s o => rd (s + -w o)) S) := by
  induction L with
  | nil => intro a K U S hk hu hs; exact ⟨hk, hu, hs⟩
  | cons o L ih =>
    intro a K U S hk hu hs
    simp only [List.foldl_cons]
    refine ih _ (fun i j => rd (K i j + kTerm rd i j (w o) o)) (fun i => rd (U i + uTerm rd i (w o) o)) (rd (S + -w o)) ?_ ?_ ?_
    · intro i j
      simp only [visit, update, hk, Fl.fin_neg, Fl.fin_mul, Fl.rounded_fin, Fl.fin_add]
      rfl
    · intro i
      simp only [visit, update, hu, Fl.fin_neg, Fl.fin_mul, Fl.rounded_fin, Fl.fin_add]
      rfl
    · simp only [visit, update, hs, Fl.fin_neg, Fl.fin_add, Fl.rounded_fin]

/-- The sums that the search ends with. -/
structure Sums (rd : ℝ → ℝ) (w : Pose2d → ℝ) (L : List Pose2d) (k : Fin 3 → Fin 3 → ℝ) (u : Fin 3 → ℝ) (s : ℝ) : Prop where
  k : ∀ i j, k i j = L.foldl (fun s o => rd (s + kTerm rd i j (w o) o)) 0
  u : ∀ i, u i = L.foldl (fun s o => rd (s + uTerm rd i (w o) o)) 0
  s : s = L.foldl (fun s o => rd (s + -w o)) 0

theorem matchScan_sums {mt : Matcher} {g : NdtGrid} (hg : mt.ndt = some g) {A B : ℕ} (hAB : SearchSize rd mt A B) {scan : Scan} {pose : Pose2d}
    {cov : Mat3F} {r : Matcher.MatchResult} (h : matchScan rd co si mt scan pose cov = .ok r) {w : Pose2d → ℝ}
    (hw : ∀ o ∈ offsets rd mt A B, likelihoodAt rd co si g scan.points (min mt.laserMaxBeams scan.points.length) scan.pose o = .ok (.fin (w o))) :
    ∃ k u s, Sums rd w (offsets rd mt A B) k u s ∧ ∀ i j, r.covariance i j = Fl.rounded rd
      (Fl.rounded rd (Fl.rounded rd (.fin 1 / .fin s) * .fin (k i j)) +
        Fl.rounded rd (Fl.rounded rd (Fl.rounded rd (.fin 1 / .fin (rd (s * s))) * .fin (u i)) * .fin (u j))) := by
  unfold matchScan at h
  rw [hg] at h
  simp only at h
  cases hs : search rd co si mt g scan.getPoints (min mt.laserMaxBeams scan.getPoints.length) scan.getPose
        { best := .fin 0, pose, k := fun _ _ => .fin 0, u := fun _ => .fin 0, s := .fin 0 } with
  | error e => rw [hs] at h; cases h
  | ok a =>
    rw [hs] at h
    cases h
    have e := search_folds hAB hw hs
    obtain ⟨h1, h2, h3⟩ := visits_sums (rd := rd) w (offsets rd mt A B)
      { best := .fin 0, pose, k := fun _ _ => .fin 0, u := fun _ => .fin 0, s := .fin 0 } (fun _ _ => 0) (fun _ => 0) 0
      (fun _ _ => rfl) (fun _ => rfl) rfl
    rw [← e] at h1 h2 h3
    refine ⟨_, _, _, ⟨fun _ _ => rfl, fun _ => rfl, rfl⟩, fun i j => ?_⟩
    simp only [h1, h2, h3, Fl.fin_mul, Fl.rounded_fin]

/-! ### Accuracy of one operation, in units of `e` -/

section

variable (hr : RoundsToNearest rd) {e : ℝ} (he : 2⁻¹ ^ 52 ≤ e) (he2 : e ≤ 2⁻¹ ^ 12)

include hr he he2 in
theorem near_mul {a A b B α β c d : ℝ} (hA : |A| ≤ α) (hB : |B| ≤ β) (ha : |a - A| ≤ c * e * α) (hb : |b - B| ≤ d * e * β)
    (hc0 : 0 ≤ c) (hd0 : 0 ≤ d) (hc : c ≤ 40) (hd : d ≤ 40) (hαβ : 2⁻¹ ^ 190 ≤ α * β) :
    |A * B| ≤ α * β ∧ |rd (a * b) - A * B| ≤ (c + d + 2) * e * (α * β) := by
  have hα : 0 ≤ α := (abs_nonneg _).trans hA
  have hβ : 0 ≤ β := (abs_nonneg _).trans hB
  have he0 : 0 < e := lt_of_lt_of_le (by positivity) he
  have hP : 0 < α * β := lt_of_lt_of_le (by positivity) hαβ
  have hAB : |A * B| ≤ α * β := by
    rw [abs_mul]
    exact mul_le_mul hA hB (abs_nonneg _) hα
  refine ⟨hAB, ?_⟩
  have hce : c * e ≤ 40 * 2⁻¹ ^ 12 := mul_le_mul hc he2 he0.le (by norm_num)
  have hde : d * e ≤ 40 * 2⁻¹ ^ 12 := mul_le_mul hd he2 he0.le (by norm_num)
  have h1 : |a * b - A * B| ≤ (c + d + 1) * e * (α * β) := by
    have e1 : a * b - A * B = (a - A) * B + A * (b - B) + (a - A) * (b - B) := by ring
    rw [e1]
    have t1 : |(a - A) * B| ≤ c * e * α * β := by
      rw [abs_mul]; exact mul_le_mul ha hB (abs_nonneg _) (by positivity)
    have t2 : |A * (b - B)| ≤ α * (d * e * β) := by
      rw [abs_mul]; exact mul_le_mul hA hb (abs_nonneg _) hα
    have t3 : |(a - A) * (b - B)| ≤ c * e * α * (d * e * β) := by
      rw [abs_mul]; exact mul_le_mul ha hb (abs_nonneg _) (by positivity)
    have t4 : c * e * α * (d * e * β) ≤ 1 * e * (α * β) := by
      have : c * e * d ≤ 1 := by
        have := mul_le_mul hce hd hd0 (by norm_num)
        norm_num at this
        linarith
      have := mul_le_mul_of_nonneg_right this (mul_nonneg he0.le hP.le)
      nlinarith
    have := abs_add_le ((a - A) * B + A * (b - B)) ((a - A) * (b - B))
    have := abs_add_le ((a - A) * B) (A * (b - B))
    nlinarith
  have h2 : |a * b| ≤ 3 / 2 * (α * β) := by
    have t := abs_sub_abs_le_abs_sub (a * b) (A * B)
    have t2 : (c + d + 1) * e * (α * β) ≤ 1 / 2 * (α * β) := by
      refine mul_le_mul_of_nonneg_right ?_ hP.le
      norm_num at hce hde he2 ⊢
      linarith
    linarith
  have h3 := rd_err hr h2
  have h4 := abs_sub_le (rd (a * b)) (a * b) (A * B)
  have h6 : (2⁻¹ : ℝ) ^ 250 ≤ 2⁻¹ ^ 60 * (α * β) := by
    have := mul_le_mul_of_nonneg_left hαβ (by positivity : (0 : ℝ) ≤ 2⁻¹ ^ 60)
    refine le_trans (le_of_eq ?_) this
    rw [← pow_add]
  have h7 := mul_le_mul_of_nonneg_right he hP.le
  have h8 : (2⁻¹ : ℝ) ^ 53 * (3 / 2 * (α * β)) + 2⁻¹ ^ 250 ≤ e * (α * β) := by
    norm_num at h6 h7 ⊢
    linarith
  have h9 : (c + d + 2) * e * (α * β) = (c + d + 1) * e * (α * β) + e * (α * β) := by ring
  linarith

include hr he he2 in
theorem near_inv {b B β c : ℝ} (hB : |B| = β) (hb : |b - B| ≤ c * e * β) (hc0 : 0 ≤ c) (hc : c ≤ 20) (hβ : 0 < β) (hβ2 : β ≤ 2 ^ 190) :
    b ≠ 0 ∧ |1 / B| = 1 / β ∧ |rd (1 / b) - 1 / B| ≤ (c + 2) * e * (1 / β) := by
  have he0 : 0 < e := lt_of_lt_of_le (by positivity) he
  have hce : c * e ≤ 20 * 2⁻¹ ^ 12 := mul_le_mul hc he2 he0.le (by norm_num)
  have hB0 : B ≠ 0 := by
    intro h; rw [h, abs_zero] at hB; linarith
  have hb1 : 99 / 100 * β ≤ |b| := by
    have t := abs_sub_abs_le_abs_sub B b
    rw [abs_sub_comm] at t
    have := mul_le_mul_of_nonneg_right hce hβ.le
    norm_num at this ⊢
    linarith
  have hb0 : b ≠ 0 := by
    intro h; rw [h, abs_zero] at hb1
    norm_num at hb1
    linarith
  have hbp : 0 < |b| := abs_pos.mpr hb0
  have hi : |1 / B| = 1 / β := by rw [abs_div, abs_one, hB]
  refine ⟨hb0, hi, ?_⟩
  have h1 : |1 / b - 1 / B| ≤ (c + 1 / 2) * e * (1 / β) := by
    have e1 : 1 / b - 1 / B = -(b - B) / (b * B) := by field_simp; ring
    rw [e1, abs_div, abs_neg, abs_mul, hB, div_le_iff₀ (by positivity)]
    refine hb.trans ?_
    have : (c + 1 / 2) * e * (1 / β) * (|b| * β) = (c + 1 / 2) * e * |b| := by field_simp
    rw [this]
    have h2 := mul_le_mul_of_nonneg_left hb1 (by positivity : (0 : ℝ) ≤ (c + 1 / 2) * e)
    have h4 : 0 < e * β := by positivity
    have h3 : 0 ≤ (20 - c) * (e * β) := mul_nonneg (by linarith) (by positivity)
    norm_num at h2 ⊢
    nlinarith
  have hip : 0 < 1 / β := by positivity
  have h2 : |1 / b| ≤ 3 / 2 * (1 / β) := by
    have t := abs_sub_abs_le_abs_sub (1 / b) (1 / B)
    rw [hi] at t
    have t2 : (c + 1 / 2) * e * (1 / β) ≤ 1 / 2 * (1 / β) := by
      refine mul_le_mul_of_nonneg_right ?_ hip.le
      norm_num at hce he2 ⊢
      linarith
    linarith
  have h3 := rd_err hr h2
  have h4 := abs_sub_le (rd (1 / b)) (1 / b) (1 / B)
  have h6 : (2⁻¹ : ℝ) ^ 250 ≤ 2⁻¹ ^ 60 * (1 / β) := by
    have : (2⁻¹ : ℝ) ^ 190 ≤ 1 / β := by
      rw [le_div_iff₀ hβ]
      have := mul_le_mul_of_nonneg_left hβ2 (by positivity : (0 : ℝ) ≤ 2⁻¹ ^ 190)
      refine this.trans (le_of_eq ?_)
      rw [← mul_pow]; norm_num
    have := mul_le_mul_of_nonneg_left this (by positivity : (0 : ℝ) ≤ 2⁻¹ ^ 60)
    refine le_trans (le_of_eq ?_) this
    rw [← pow_add]
  have h7 := mul_le_mul_of_nonneg_right he hip.le
  have h8 : (2⁻¹ : ℝ) ^ 53 * (3 / 2 * (1 / β)) + 2⁻¹ ^ 250 ≤ e * (1 / β) := by
    norm_num at h6 h7 ⊢
    linarith
  have h9 : (c + 2) * e * (1 / β) = (c + 1 / 2) * e * (1 / β) + e * (1 / β) + 1 / 2 * (e * (1 / β)) := by ring
  have h10 : 0 < e * (1 / β) := by positivity
  linarith

end

end

end Ndt.Rounded
