import Verif.Proof.RoundedGrid
import Verif.Proof.Double

/-! # The occupancy grid in double precision (C126) -/

namespace Ndt

noncomputable section

open Spec

/-- **C126** Drawing in double precision. Whatever the roundings and the library's sine and cosine: as long as scans are only
appended and not moved, have points on all sides and are within `R` cells of the origin, no call of `getMsg` is undefined, and
every message is a drawing of its scans: all squares on the rays belong to the message, the rays run between squares that hold
the sensor and the point up to a fiftieth of a square, and the values are decided by the counts. -/
theorem c126_messages_are_drawings {rd : ℝ → ℝ} (h : RoundsToNearest rd) (co si : ℝ → ℝ) {res : ℝ} (hr : 2⁻¹ ^ 1000 ≤ res)
    (thresh : ℝ) {R : ℕ} {calls : List (List Scan)} (hch : List.IsChain (· <+: ·) calls)
    (hall : ∀ scans ∈ calls, R + scans.length ≤ 22000 ∧ ComputedWithin rd co si (R * res) scans ∧
      ∀ s ∈ scans, ComputedSurrounded rd co si s) :
    ∃ ms, computedHistory rd co si (OccGrid.new res thresh) calls = .ok ms ∧
      List.Forall₂ (fun scans m => m.resolution = res ∧ (m.width ≤ 45000 ∧ m.height ≤ 45000) ∧ Drawn rd co si thresh scans m) calls ms := by
  have key : ∀ (calls : List (List Scan)) (old : List Scan) (g : OccGrid), List.IsChain (· <+: ·) (old :: calls) →
      (∀ scans ∈ calls, R + scans.length ≤ 22000 ∧ ComputedWithin rd co si (R * res) scans ∧
        ∀ s ∈ scans, ComputedSurrounded rd co si s) →
      Rounded.Tracks rd co si res R old g → g.occThresh = thresh →
      ∃ ms, computedHistory rd co si g calls = .ok ms ∧
        List.Forall₂ (fun scans m => m.resolution = res ∧ (m.width ≤ 45000 ∧ m.height ≤ 45000) ∧ Drawn rd co si thresh scans m) calls ms := by
    intro calls
    induction calls with
    | nil => intro old g _ _ _ _; exact ⟨[], rfl, List.Forall₂.nil⟩
    | cons scans calls ih =>
      intro old g hch hall ht hth
      rw [List.isChain_cons] at hch
      obtain ⟨h1, h2, h3⟩ := hall scans List.mem_cons_self
      obtain ⟨g', m, e1, e2, e3, e4, ez, e5⟩ := ht.getMsg h hr (hch.1 scans rfl) h1 h2 h3
      obtain ⟨ms, f1, f2⟩ := ih scans g' hch.2 (fun s hs => hall s (List.mem_cons_of_mem _ hs)) e2 (e3.trans hth)
      refine ⟨m :: ms, ?_, List.Forall₂.cons ⟨e4, ez, hth ▸ e5⟩ f2⟩
      unfold computedHistory
      rw [e1, Res.ok_bind]
      simp only [f1, Res.ok_bind]
  refine key calls [] _ ?_ hall Rounded.tracks_new rfl
  rw [List.isChain_cons]
  exact ⟨fun y _ => List.nil_prefix, hch⟩

/-- **C126** A square called occupied was really hit in more than that share of the rays that touched it; a square is unknown
exactly if no ray touched it. -/
theorem c126_occupied_was_hit {rd : ℝ → ℝ} (h : RoundsToNearest rd) {thresh : ℝ} (ht : IsDouble thresh) (hits empties : ℕ) :
    (Rounded.cellValue rd thresh hits empties = 100 → thresh * (hits + empties) < hits) ∧
    (Rounded.cellValue rd thresh hits empties = -1 ↔ hits = 0 ∧ empties = 0) := by
  rw [Rounded.cellValue_cases]
  constructor
  · intro hv
    by_cases h0 : hits = 0 ∧ empties = 0
    · rw [if_pos h0] at hv; norm_num at hv
    · rw [if_neg h0] at hv
      by_cases hlt : thresh < rd ((hits : ℝ) / (hits + empties : ℕ))
      · have hpos : (0 : ℝ) < ((hits + empties : ℕ) : ℝ) := by
          have : 0 < hits + empties := by omega
          exact_mod_cast this
        have : thresh < (hits : ℝ) / (hits + empties : ℕ) := by
          by_contra hc
          have := h.mono (not_lt.mp hc)
          rw [h.exact ht] at this
          linarith
        rw [lt_div_iff₀ hpos] at this
        push_cast at this
        exact this
      · rw [if_neg hlt] at hv; norm_num at hv
  · by_cases h0 : hits = 0 ∧ empties = 0
    · rw [if_pos h0]; simp [h0]
    · rw [if_neg h0]
      constructor
      · intro hv
        split at hv <;> norm_num at hv
      · intro hc; exact absurd hc h0

/-- A scan in the middle of four points, with exact sine and cosine of its heading. -/
def middleScan : Scan := { Scan.new 0 with pose := ⟨1, 0, 0⟩, points := [⟨2, 0⟩, ⟨-2, 0⟩, ⟨0, 2⟩, ⟨0, -2⟩] }

/-- The computed places of its points are exact. -/
theorem middleScan_place (x y : ℤ) (hx : |x| ≤ 2) (hy : |y| ≤ 2) :
    Rounded.mapPoint rnd Real.cos Real.sin ⟨1, 0, 0⟩ ⟨x, y⟩ = ⟨1 + x, y⟩ := by
  have e : ∀ n : ℤ, |n| < 2 ^ 53 → rnd n = n := fun n hn => rnd_rounds.exact (isDouble_int hn)
  obtain ⟨x1, x2⟩ := abs_le.mp hx
  obtain ⟨y1, y2⟩ := abs_le.mp hy
  have ex := e x (abs_lt.mpr ⟨by omega, by omega⟩)
  have ey := e y (abs_lt.mpr ⟨by omega, by omega⟩)
  have e0 : rnd 0 = 0 := rnd_zero
  have ex1 : rnd (1 + x) = 1 + x := by
    have := e (1 + x) (abs_lt.mpr ⟨by omega, by omega⟩)
    push_cast at this
    exact this
  unfold Rounded.mapPoint Rounded.turnX Rounded.turnY
  simp only [Real.cos_zero, Real.sin_zero, mul_one, mul_zero, e0, ex, ey, sub_zero, zero_add, ex1]

theorem middleScan_good : ComputedSurrounded rnd Real.cos Real.sin middleScan ∧
    ∀ p ∈ middleScan.points, |(Rounded.mapPoint rnd Real.cos Real.sin middleScan.pose p).x| ≤ 3 ∧
      |(Rounded.mapPoint rnd Real.cos Real.sin middleScan.pose p).y| ≤ 3 := by
  have m1 := middleScan_place 2 0 (by norm_num) (by norm_num)
  have m2 := middleScan_place (-2) 0 (by norm_num) (by norm_num)
  have m3 := middleScan_place 0 2 (by norm_num) (by norm_num)
  have m4 := middleScan_place 0 (-2) (by norm_num) (by norm_num)
  push_cast at m1 m2 m3 m4
  unfold ComputedSurrounded middleScan
  simp only [List.mem_cons, List.not_mem_nil, or_false, forall_eq_or_imp, forall_eq, exists_eq_or_imp, exists_eq_left,
    m1, m2, m3, m4]
  norm_num

/-- Example: the hypotheses of `c126_messages_are_drawings` with IEEE-754 rounding, three calls. -/
theorem middleScan_calls : List.IsChain (· <+: ·) [[], [middleScan], [middleScan, middleScan]] ∧
    ∀ scans ∈ [[], [middleScan], [middleScan, middleScan]], 10000 + scans.length ≤ 22000 ∧
      ComputedWithin rnd Real.cos Real.sin ((10000 : ℕ) * rnd 0.05) scans ∧
      ∀ s ∈ scans, ComputedSurrounded rnd Real.cos Real.sin s := by
  have hres : (0.04 : ℝ) ≤ rnd 0.05 := by
    have := abs_le.mp (rnd_rounds.error 0.05)
    have := this.1
    have h2 := Rounded.halfMin_le (k := 100) (by norm_num)
    rw [abs_of_pos (by norm_num)] at this
    norm_num at this h2 ⊢
    linarith
  have hw : ∀ q ∈ measured [middleScan, middleScan], |(Rounded.mapPoint rnd Real.cos Real.sin q.1 q.2).x| ≤ (10000 : ℕ) * rnd 0.05 ∧
      |(Rounded.mapPoint rnd Real.cos Real.sin q.1 q.2).y| ≤ (10000 : ℕ) * rnd 0.05 := by
    intro q hq
    obtain ⟨s, hs, hq⟩ := List.mem_flatMap.mp hq
    have : s = middleScan := by simpa using hs
    subst this
    obtain ⟨p, hp, rfl⟩ := List.mem_map.mp hq
    obtain ⟨h1, h2⟩ := middleScan_good.2 p hp
    have : (3 : ℝ) ≤ (10000 : ℕ) * rnd 0.05 := by
      push_cast
      norm_num at hres ⊢
      linarith
    exact ⟨h1.trans this, h2.trans this⟩
  refine ⟨by simp, ?_⟩
  intro scans hs
  simp only [List.mem_cons, List.not_mem_nil, or_false] at hs
  rcases hs with rfl | rfl | rfl
  · exact ⟨by norm_num, fun q hq => absurd hq List.not_mem_nil, fun s hs => absurd hs List.not_mem_nil⟩
  · refine ⟨by norm_num, fun q hq => hw q ?_, fun s hs => ?_⟩
    · unfold measured at hq ⊢
      rw [List.flatMap_cons]
      exact List.mem_append_left _ (by simpa using hq)
    · rw [List.mem_singleton] at hs
      rw [hs]; exact middleScan_good.1
  · refine ⟨by norm_num, hw, fun s hs => ?_⟩
    have : s = middleScan := by simpa using hs
    rw [this]; exact middleScan_good.1

end

end Ndt
