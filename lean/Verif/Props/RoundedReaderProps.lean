import Verif.Spec.RoundedReader
import Verif.Props.RoundedGridProps
import Verif.Props.RoundedWorldProps
import Verif.Props.GridProps
import Verif.Props.SingleProps

/-! # Property C146: where a reader of the occupancy grid sees what was measured -/

namespace Ndt

open Real Rounded Spec

noncomputable section

/-- The resolution as a float. -/
theorem float_resolution {rf : ℝ → ℝ} (hrf : RoundsToFloat rf) {res : ℝ} (hr : 2⁻¹ ^ 20 ≤ res) : |rf res - res| ≤ 5.97e-8 * res := by
  have h1 := hrf.error res
  have h2 := halfMinF_le
  have h0 : 0 < res := lt_of_lt_of_le (by positivity) hr
  rw [abs_of_pos h0] at h1
  norm_num at h1 h2 hr ⊢
  linarith

/-- One axis: the middle of a square `j` beside that of a coordinate. -/
theorem shown_axis {rf res o p : ℝ} {k e : ℤ} {j : ℝ} (h0 : 0 < res) (hrf : |rf - res| ≤ 5.97e-8 * res) (hk0 : 0 ≤ k) (hk : k ≤ 45000)
    (hj : |(k : ℝ) - e| ≤ j) (h1 : o + (e - 1 / 50) * res ≤ p) (h2 : p ≤ o + (e + 1 + 1 / 50) * res) :
    |o + (k + 1 / 2) * rf - p| ≤ (j + 0.523) * res := by
  have k0 : (0 : ℝ) ≤ k := by exact_mod_cast hk0
  have k1 : (k : ℝ) ≤ 45000 := by exact_mod_cast hk
  have e1 : |((k : ℝ) + 1 / 2) * (rf - res)| ≤ 45000.5 * (5.97e-8 * res) := by
    rw [abs_mul, abs_of_nonneg (by linarith)]
    exact mul_le_mul (by norm_num; linarith) hrf (abs_nonneg _) (by norm_num)
  have e2 : |((k : ℝ) - e) * res| ≤ j * res := by
    rw [abs_mul, abs_of_pos h0]
    exact mul_le_mul_of_nonneg_right hj h0.le
  have e1' := abs_le.mp e1
  have e2' := abs_le.mp e2
  obtain ⟨a1, a2⟩ := e1'
  obtain ⟨b1, b2⟩ := e2'
  norm_num at a1 a2 ⊢
  rw [abs_le]
  constructor <;> nlinarith

/-- The square counted as hit by a measurement, as a reader sees it. -/
theorem shown_near {rf : ℝ → ℝ} (hrf : RoundsToFloat rf) {m : GridMsg} (hr : 2⁻¹ ^ 20 ≤ m.resolution) (hw : m.width ≤ 45000) (hh : m.height ≤ 45000)
    {p : Point} {s e : GCell} {t : List GCell × GCell} (hp : NearlyIn m p e) (ht : Traced s e t) (hin : CellIn m t.2) :
    ShownNear (published rf m) t.2 p (1.523 * m.resolution) (0.523 * m.resolution) ∧
    (¬ EndsEarly s e → ShownNear (published rf m) t.2 p (0.523 * m.resolution) (0.523 * m.resolution)) := by
  have h0 : 0 < m.resolution := lt_of_lt_of_le (by positivity) hr
  have hf := float_resolution hrf hr
  have hc := c44_hit_cell_partial s e t ht
  obtain ⟨⟨i1, i2⟩, i3, i4⟩ := hin
  obtain ⟨⟨p1, p2⟩, p3, p4⟩ := hp
  have y : |(shownAt (published rf m) t.2).y - p.y| ≤ 0.523 * m.resolution := by
    have : t.2.2 = e.2 := by
      rw [hc]; split_ifs <;> rfl
    have := shown_axis (k := t.2.2) (e := e.2) (j := 0) h0 hf i3 (by omega) (by rw [this]; simp) p3 p4
    simpa [shownAt, middle, published] using this
  refine ⟨⟨?_, y⟩, fun hn => ⟨?_, y⟩⟩
  · have hj : |((t.2.1 : ℤ) : ℝ) - e.1| ≤ 1 := by
      have : |t.2.1 - e.1| ≤ 1 := by
        rw [hc]
        split_ifs with hcase
        · simp only
          rcases Int.sign_trichotomy (e.1 - s.1) with h | h | h <;> rw [h] <;> simp
        · simp
      exact_mod_cast this
    have := shown_axis (k := t.2.1) (e := e.1) (j := 1) h0 hf i1 (by omega) hj p1 p2
    norm_num at this ⊢
    simpa [shownAt, middle, published] using this
  · have : t.2 = e := by rw [hc]; exact if_neg hn
    have := shown_axis (k := t.2.1) (e := e.1) (j := 0) h0 hf i1 (by omega) (by rw [this]; simp) p1 p2
    simpa [shownAt, middle, published] using this

/-- **C146** Every square that is called occupied is, where a reader of the message sees it, next to a measured point: within 0.523 squares along y and
1.523 along x, or 0.523 both ways if the ray is not of the kind that ends a square early (C44). The resolution in the message is a float; that is
in the 0.523 for maps of up to 45000 squares a side. -/
theorem c146_occupied_is_measured {rd rf co si : ℝ → ℝ} (hrd : RoundsToNearest rd) (hrf : RoundsToFloat rf) {thresh : ℝ} (ht : 0 ≤ thresh)
    {scans : List Scan} {m : GridMsg} (hm : Drawn rd co si thresh scans m) (hr : 2⁻¹ ^ 20 ≤ m.resolution) (hw : m.width ≤ 45000)
    (hh : m.height ≤ 45000) {x y : ℕ} (hx : x < m.width) (hy : y < m.height) (hocc : m.data[x + y * m.width]? = some 100) :
    ∃ q ∈ measured scans, ∃ s e, NearlyIn m ⟨q.1.x, q.1.y⟩ s ∧ NearlyIn m (mapPoint rd co si q.1 q.2) e ∧
      ShownNear (published rf m) (x, y) (mapPoint rd co si q.1 q.2) (1.523 * m.resolution) (0.523 * m.resolution) ∧
      (¬ EndsEarly s e → ShownNear (published rf m) (x, y) (mapPoint rd co si q.1 q.2) (0.523 * m.resolution) (0.523 * m.resolution)) := by
  obtain ⟨-, ts, hts, hin, hv⟩ := hm
  have hv := hv x y hx hy
  rw [hocc] at hv
  have hpos : 0 < ts.countP fun t => t.2 = ((x : ℤ), (y : ℤ)) := by
    by_contra h0
    have h0' : (ts.countP fun t => t.2 = ((x : ℤ), (y : ℤ))) = 0 := by omega
    simp only [h0'] at hv
    have e0 : rd 0 = 0 := hrd.exact isDouble_zero
    simp only [Nat.cast_zero, zero_div, e0, Option.some.injEq, not_lt.mpr ht, if_false] at hv
    split_ifs at hv <;> norm_num at hv
  obtain ⟨t, htm, he⟩ := List.countP_pos_iff.mp hpos
  have he' : t.2 = ((x : ℤ), (y : ℤ)) := by simpa using he
  obtain ⟨i, hi, rfl⟩ := List.getElem_of_mem htm
  have hlen := hts.length_eq
  have hi' : i < (measured scans).length := by omega
  obtain ⟨s, e, h1, h2, h3⟩ := List.Forall₂.get hts hi' hi
  simp only [List.get_eq_getElem] at h1 h2 h3
  have hc := hin _ htm _ (List.mem_append_right _ (List.mem_singleton.mpr rfl))
  have := shown_near hrf hr hw hh h2 h3 hc
  rw [he'] at this
  exact ⟨_, List.getElem_mem hi', s, e, h1, h2, this.1, this.2⟩

/-- **C146** For every measurement there is a square of the message that near, and it is not unknown. -/
theorem c146_measured_is_known {rd rf co si : ℝ → ℝ} (hrf : RoundsToFloat rf) {thresh : ℝ} {scans : List Scan} {m : GridMsg}
    (hm : Drawn rd co si thresh scans m) (hr : 2⁻¹ ^ 20 ≤ m.resolution) (hw : m.width ≤ 45000) (hh : m.height ≤ 45000) :
    ∀ q ∈ measured scans, ∃ x y : ℕ, x < m.width ∧ y < m.height ∧
      ShownNear (published rf m) (x, y) (mapPoint rd co si q.1 q.2) (1.523 * m.resolution) (0.523 * m.resolution) ∧
      (m.data[x + y * m.width]? = some 100 ∨ m.data[x + y * m.width]? = some 0) := by
  intro q hq
  obtain ⟨-, ts, hts, hin, hv⟩ := hm
  obtain ⟨i, hi, rfl⟩ := List.getElem_of_mem hq
  have hi' : i < ts.length := by have := hts.length_eq; omega
  obtain ⟨s, e, h1, h2, h3⟩ := List.Forall₂.get hts hi hi'
  simp only [List.get_eq_getElem] at h1 h2 h3
  have hc := hin _ (List.getElem_mem hi') _ (List.mem_append_right _ (List.mem_singleton.mpr rfl))
  have near := (shown_near hrf hr hw hh h2 h3 hc).1
  obtain ⟨⟨c1, c2⟩, c3, c4⟩ := hc
  obtain ⟨x, hx⟩ := Int.eq_ofNat_of_zero_le c1
  obtain ⟨y, hy⟩ := Int.eq_ofNat_of_zero_le c3
  have hxy : ts[i].2 = ((x : ℤ), (y : ℤ)) := Prod.ext hx hy
  rw [hxy] at near
  have hxw : x < m.width := by omega
  have hyh : y < m.height := by omega
  refine ⟨x, y, hxw, hyh, near, ?_⟩
  rw [hv x y hxw hyh]
  have hpos : 0 < ts.countP fun t => t.2 = ((x : ℤ), (y : ℤ)) :=
    List.countP_pos_iff.mpr ⟨ts[i], List.getElem_mem hi', by simpa using hxy⟩
  simp only [Option.some.injEq]
  rw [if_neg (by omega)]
  split_ifs <;> simp

/-- **C146** All messages of a grid in use, from a robot for which C145 holds: a square that is called occupied is, where a reader sees it, within
0.523 squares and 1.21 mm of an obstacle along y, and 1.523 squares and 1.21 mm along x. -/
theorem c146_occupied_is_an_obstacle {rd rf co si : ℝ → ℝ} (hrd : RoundsToNearest rd) (hrf : RoundsToFloat rf) {res : ℝ} (hr : 2⁻¹ ^ 20 ≤ res)
    {thresh : ℝ} (ht : 0 ≤ thresh) {R : ℕ} {calls : List (List Scan)} (hch : List.IsChain (· <+: ·) calls)
    (hall : ∀ scans ∈ calls, R + scans.length ≤ 22000 ∧ ComputedWithin rd co si (R * res) scans ∧ ∀ s ∈ scans, ComputedSurrounded rd co si s)
    (odom0 robot0 : Pose2d) (Obstacle : Point → Prop)
    (hworld : ∀ scans ∈ calls, ∀ q ∈ measured scans, ∃ w, Obstacle w ∧ |(mapPoint rd co si q.1 q.2).x - (placeInMap odom0 robot0 w).x| ≤ 0.00121 ∧
      |(mapPoint rd co si q.1 q.2).y - (placeInMap odom0 robot0 w).y| ≤ 0.00121) :
    ∃ ms, computedHistory rd co si (OccGrid.new res thresh) calls = .ok ms ∧ ms.length = calls.length ∧
      ∀ m ∈ ms, ∀ x y : ℕ, x < m.width → y < m.height → m.data[x + y * m.width]? = some 100 →
        ∃ w, Obstacle w ∧ ShownNear (published rf m) (x, y) (placeInMap odom0 robot0 w) (1.523 * res + 0.00121) (0.523 * res + 0.00121) := by
  have h1000 : (2⁻¹ : ℝ) ^ 1000 ≤ 2⁻¹ ^ 20 := pow_le_pow_of_le_one (by norm_num) (by norm_num) (by norm_num)
  obtain ⟨ms, h1, h2⟩ := c126_messages_are_drawings hrd co si (h1000.trans hr) thresh hch hall
  refine ⟨ms, h1, h2.length_eq.symm, ?_⟩
  intro m hm x y hx hy hocc
  obtain ⟨i, hi, rfl⟩ := List.getElem_of_mem hm
  have hi' : i < calls.length := by have := h2.length_eq; omega
  obtain ⟨e1, ⟨e2, e3⟩, e4⟩ := List.Forall₂.get h2 hi' hi
  simp only [List.get_eq_getElem] at e1 e2 e3 e4
  obtain ⟨q, hq, -, -, -, -, n, -⟩ := c146_occupied_is_measured hrd hrf ht e4 (by rw [e1]; exact hr) e2 e3 hx hy hocc
  obtain ⟨w, w1, w2, w3⟩ := hworld _ (List.getElem_mem hi') q hq
  rw [e1] at n
  exact ⟨w, w1, (abs_sub_le _ _ _).trans (add_le_add n.1 w2), (abs_sub_le _ _ _).trans (add_le_add n.2 w3)⟩

/-- Example: three messages in use, at 5 cm, of a robot amid four obstacles. -/
example : ∃ ms, computedHistory rnd cos sin (OccGrid.new (rnd 0.05) 0.25) [[], [middleScan], [middleScan, middleScan]] = .ok ms ∧ ms.length = 3 ∧
    ∀ m ∈ ms, ∀ x y : ℕ, x < m.width → y < m.height → m.data[x + y * m.width]? = some 100 →
      ∃ w : Point, w ∈ [(⟨3, 0⟩ : Point), ⟨-1, 0⟩, ⟨1, 2⟩, ⟨1, -2⟩] ∧
        ShownNear (published rndF m) (x, y) (placeInMap ⟨0, 0, 0⟩ ⟨0, 0, 0⟩ w) (1.523 * rnd 0.05 + 0.00121) (0.523 * rnd 0.05 + 0.00121) := by
  refine c146_occupied_is_an_obstacle rnd_rounds rndF_rounds ?_ (by norm_num) middleScan_calls.1 middleScan_calls.2 ⟨0, 0, 0⟩ ⟨0, 0, 0⟩
    (fun w => w ∈ [(⟨3, 0⟩ : Point), ⟨-1, 0⟩, ⟨1, 2⟩, ⟨1, -2⟩]) ?_
  · have := abs_le.mp (rnd_rounds.error 0.05)
    have := this.1
    have h2 := Rounded.halfMin_le (k := 100) (by norm_num)
    rw [abs_of_pos (by norm_num)] at this
    norm_num at this h2 ⊢
    linarith
  · intro scans hs q hq
    have hq' : q.1 = ⟨1, 0, 0⟩ ∧ q.2 ∈ [(⟨2, 0⟩ : Point), ⟨-2, 0⟩, ⟨0, 2⟩, ⟨0, -2⟩] := by
      obtain ⟨s, hss, hq⟩ := List.mem_flatMap.mp hq
      have : s = middleScan := by
        simp only [List.mem_cons, List.not_mem_nil, or_false] at hs
        rcases hs with rfl | rfl | rfl <;> simpa using hss
      subst this
      obtain ⟨p, hp, rfl⟩ := List.mem_map.mp hq
      exact ⟨rfl, hp⟩
    obtain ⟨p, u⟩ := q
    obtain ⟨rfl, hu⟩ := hq'
    have m1 := middleScan_place 2 0 (by norm_num) (by norm_num)
    have m2 := middleScan_place (-2) 0 (by norm_num) (by norm_num)
    have m3 := middleScan_place 0 2 (by norm_num) (by norm_num)
    have m4 := middleScan_place 0 (-2) (by norm_num) (by norm_num)
    simp only [List.mem_cons, List.not_mem_nil, or_false] at hu
    rcases hu with rfl | rfl | rfl | rfl
    · refine ⟨⟨3, 0⟩, by simp, ?_⟩; norm_num at m1; rw [m1]; norm_num [placeInMap]
    · refine ⟨⟨-1, 0⟩, by simp, ?_⟩; norm_num at m2; rw [m2]; norm_num [placeInMap]
    · refine ⟨⟨1, 2⟩, by simp, ?_⟩; norm_num at m3; rw [m3]; norm_num [placeInMap]
    · refine ⟨⟨1, -2⟩, by simp, ?_⟩; norm_num at m4; rw [m4]; norm_num [placeInMap]

end

end Ndt
