import Verif.Model.Rounded
import Verif.Proof.Double
import Verif.Proof.Matcher

/-! # Lemmas about indices in double precision -/

namespace Ndt.Rounded

open Spec

noncomputable section

variable {rd : ℝ → ℝ}

theorem halfMin_le {k : ℕ} (hk : k ≤ 1075) : halfMin ≤ 2⁻¹ ^ k := by
  unfold halfMin
  exact pow_le_pow_of_le_one (by norm_num) (by norm_num) hk

/-- The expression under the conversion in `beamIndex`. -/
def beamPos (rd : ℝ → ℝ) (n m i : ℕ) : ℝ := rd (i * rd ((n : ℝ) / m))

theorem beamIndex_def (h : RoundsToNearest rd) {n m i : ℕ} (hn : n < 2 ^ 53) (hm : m ≤ n) (hi : i ≤ m) :
    beamIndex rd n m i = toU64F (.fin (beamPos rd n m i)) := by
  unfold beamIndex beamPos
  rw [h.exact (isDouble_nat hn), h.exact (isDouble_nat (by omega : m < 2 ^ 53)),
    h.exact (isDouble_nat (by omega : i < 2 ^ 53))]

theorem step_ge_one (h : RoundsToNearest rd) {n m : ℕ} (hm : 0 < m) (hmn : m ≤ n) : 1 ≤ rd ((n : ℝ) / m) := by
  apply h.ge_of_ge isDouble_one
  rw [le_div_iff₀ (by exact_mod_cast hm)]
  rw [one_mul]
  exact_mod_cast hmn

theorem beamPos_nonneg (h : RoundsToNearest rd) {n m i : ℕ} : 0 ≤ beamPos rd n m i := by
  apply h.nonneg
  have : 0 ≤ rd ((n : ℝ) / m) := h.nonneg (by positivity)
  positivity

theorem beamPos_lt (h : RoundsToNearest rd) {n m i : ℕ} (hn : n ≤ 2 ^ 51) (hmn : m ≤ n) (hi : i < m) :
    beamPos rd n m i < n := by
  have hm : 0 < m := by omega
  have hm' : (0 : ℝ) < m := by exact_mod_cast hm
  have hnR : (n : ℝ) ≤ 2 ^ 51 := by exact_mod_cast hn
  have hmR : (m : ℝ) ≤ n := by exact_mod_cast hmn
  have hiR : (i : ℝ) + 1 ≤ m := by exact_mod_cast hi
  have he := h.error ((n : ℝ) / m)
  rw [abs_of_nonneg (by positivity : (0 : ℝ) ≤ (n : ℝ) / m)] at he
  have hs := (abs_le.mp he).2
  set q := (n : ℝ) / m with hq
  have hqm : q * m = n := by rw [hq]; field_simp
  have hq1 : 1 ≤ q := by rw [hq, le_div_iff₀ hm']; linarith
  have ht := halfMin_le (k := 53) (by norm_num)
  have h0 := halfMin_pos
  have key : (i : ℝ) * rd q ≤ n - 1 / 2 := by
    have a1 : (i : ℝ) * rd q ≤ (m - 1) * (q + 2⁻¹ ^ 53 * q + halfMin) := by
      have b1 : rd q ≤ q + 2⁻¹ ^ 53 * q + halfMin := by linarith
      have b2 : 0 ≤ q + 2⁻¹ ^ 53 * q + halfMin := add_nonneg (by positivity) h0.le
      calc (i : ℝ) * rd q ≤ i * (q + 2⁻¹ ^ 53 * q + halfMin) := mul_le_mul_of_nonneg_left b1 (by positivity)
        _ ≤ (m - 1) * (q + 2⁻¹ ^ 53 * q + halfMin) := mul_le_mul_of_nonneg_right (by linarith) b2
    have e : (m - 1) * (q + 2⁻¹ ^ 53 * q + halfMin) =
        q * m - q + 2⁻¹ ^ 53 * (q * m) - 2⁻¹ ^ 53 * q + (m - 1) * halfMin := by ring
    rw [e, hqm] at a1
    have a2 : (2⁻¹ : ℝ) ^ 53 * n ≤ 2⁻¹ ^ 53 * 2 ^ 51 := mul_le_mul_of_nonneg_left hnR (by positivity)
    have a3 : (m - 1 : ℝ) * halfMin ≤ 2 ^ 51 * 2⁻¹ ^ 53 :=
      mul_le_mul (by linarith) ht h0.le (by positivity)
    have e2 : (2⁻¹ : ℝ) ^ 53 * 2 ^ 51 = 1 / 4 := by norm_num
    have e3 : (2 : ℝ) ^ 51 * 2⁻¹ ^ 53 = 1 / 4 := by norm_num
    rw [e2] at a2
    rw [e3] at a3
    have a4 : (0 : ℝ) ≤ 2⁻¹ ^ 53 * q := by positivity
    linarith
  have hd : IsDouble ((n : ℝ) - 1 / 2) := by
    refine ⟨2 * n - 1, -1, ?_, by norm_num, ?_⟩
    · rw [abs_lt]; constructor <;> omega
    · push_cast; rw [zpow_neg_one]; ring
  have := h.le_of_le hd key
  show rd _ < _
  linarith

/-- Consecutive beams are at least one index apart. -/
theorem beamPos_succ (h : RoundsToNearest rd) {n m i : ℕ} (hn : n ≤ 2 ^ 51) (hmn : m ≤ n) (hi : i + 1 < m) :
    (⌊beamPos rd n m i⌋ : ℝ) + 1 ≤ beamPos rd n m (i + 1) := by
  have hm : 0 < m := by omega
  have hlt := beamPos_lt h hn hmn hi
  have hlt0 := beamPos_lt h hn hmn (by omega : i < m)
  have h0 := beamPos_nonneg h (n := n) (m := m) (i := i)
  have hs := step_ge_one h hm hmn
  have hnR : (n : ℝ) ≤ 2 ^ 51 := by exact_mod_cast hn
  set s := rd ((n : ℝ) / m) with hsdef
  have hmul : beamPos rd n m (i + 1) = rd (i * s + s) := by
    unfold beamPos; congr 1; push_cast; rw [← hsdef]; ring
  have hpos : beamPos rd n m i = rd (i * s) := rfl
  rw [hmul] at hlt ⊢
  rw [hpos] at h0 hlt0 ⊢
  set a := (i : ℝ) * s with ha
  set k := ⌊rd a⌋ with hk
  have hk0 : 0 ≤ k := Int.floor_nonneg.mpr h0
  have hkle : (k : ℝ) ≤ rd a := Int.floor_le _
  have hkn : (k : ℝ) + 1 ≤ 2 ^ 52 := by
    have : (k : ℝ) < n := lt_of_le_of_lt hkle hlt0
    have e : (2 : ℝ) ^ 52 = 2 * 2 ^ 51 := by norm_num
    have : (1 : ℝ) ≤ 2 ^ 51 := by norm_num
    linarith
  have hkd : IsDouble ((k : ℝ) + 1) := by
    have : k + 1 ≤ 2 ^ 52 := by exact_mod_cast hkn
    have := isDouble_int (n := k + 1) (by rw [abs_of_nonneg (by omega)]; omega)
    push_cast at this
    exact this
  have hkd0 : IsDouble (k : ℝ) := by
    have : k + 1 ≤ 2 ^ 52 := by exact_mod_cast hkn
    exact isDouble_int (by rw [abs_of_nonneg (by omega)]; omega)
  by_contra hcon
  push Not at hcon
  have hak : a < k := by
    by_contra hge
    push Not at hge
    have := h.ge_of_ge hkd (by linarith : (k : ℝ) + 1 ≤ a + s)
    linarith
  have hsum : a + s < k + 1 := by
    by_contra hge
    push Not at hge
    have := h.ge_of_ge hkd hge
    linarith
  set r := rd (a + s) with hr
  have hr1 : 1 ≤ r := by
    apply h.ge_of_ge isDouble_one
    have : 0 ≤ a := by rw [ha]; have : 0 ≤ s := by linarith
                       positivity
    linarith
  have hrd : IsDouble (r - 1) := isDouble_sub_one (h.isDouble _) hr1 (by
    have e : (2 : ℝ) ^ 53 = 2 * 2 ^ 52 := by norm_num
    have : (0 : ℝ) < 2 ^ 52 := by norm_num
    linarith)
  have n1 := h.nearest a _ hrd
  have n2 := h.nearest (a + s) _ hkd
  rw [abs_of_pos (by linarith : 0 < rd a - a)] at n1
  rw [abs_of_pos (by linarith : 0 < (k : ℝ) + 1 - (a + s))] at n2
  have m2 := (abs_le.mp n2).1
  have m1 : rd a - a ≤ a - (r - 1) := by
    rcases abs_cases (r - 1 - a) with ⟨e, _⟩ | ⟨e, _⟩
    · rw [e] at n1; linarith
    · rw [e] at n1; linarith
  have n3 := h.nearest (a + s) _ hkd
  -- the sum is not nearer to `k + 1` than to `r`
  have hs1 : s ≤ 1 := by
    rcases abs_cases (r - (a + s)) with ⟨e, he⟩ | ⟨e, he⟩
    · -- `r` above the sum
      linarith
    · rw [e] at n2; linarith
  have hs1 : s = 1 := le_antisymm hs1 hs
  have hai : a = i := by rw [ha, hs1, mul_one]
  have : rd a = a := by
    rw [hai]
    apply h.exact
    apply isDouble_nat
    omega
  linarith

theorem beamIndex_ok (h : RoundsToNearest rd) {n m i : ℕ} (hn : n ≤ 2 ^ 51) (hmn : m ≤ n) (hi : i < m) :
    beamIndex rd n m i = .ok ⌊beamPos rd n m i⌋.toNat := by
  rw [beamIndex_def h (by omega) hmn hi.le]
  apply toU64_of_nonneg (beamPos_nonneg h)
  have h1 := beamPos_lt h hn hmn hi
  have h2 : (n : ℝ) ≤ 2 ^ 51 := by exact_mod_cast hn
  have h3 : (2 : ℝ) ^ 51 < 2 ^ 64 := by norm_num
  linarith

theorem size_gt (h : RoundsToNearest rd) {q : ℝ} (h0 : 0 ≤ q) (h1 : q < 2 ^ 52) : (⌊q⌋ : ℝ) + 1 ≤ rd (q + 1) := by
  have hf := Int.floor_le q
  have hf0 : 0 ≤ ⌊q⌋ := Int.floor_nonneg.mpr h0
  have hf1 : ⌊q⌋ < 2 ^ 52 := by rw [Int.floor_lt]; exact_mod_cast h1
  have hd := isDouble_int (n := ⌊q⌋ + 1) (by rw [abs_of_nonneg (by omega)]; omega)
  push_cast at hd
  exact h.ge_of_ge hd (by linarith)

theorem newGrid_ok {c sx sy ox oy : ℝ} {g : NdtGrid} (hc : 0 < c) (h : newGrid rd c sx sy ox oy = .ok g) :
    toU64 (rd (rd (sx / c) + 1)) = .ok g.sizeX ∧ toU64 (rd (rd (sy / c) + 1)) = .ok g.sizeY ∧
      g.cellSize = c ∧ g.originX = ox ∧ g.originY = oy ∧ g.cells.length = g.sizeX * g.sizeY % 2 ^ 64 := by
  unfold newGrid at h
  rw [Fl.fin_div hc.ne', Fl.fin_div hc.ne'] at h
  simp only [Fl.rounded_fin, Fl.fin_add] at h
  change (toU64 (rd (rd (sx / c) + 1)) >>= fun a => toU64 (rd (rd (sy / c) + 1)) >>= fun b => _) = _ at h
  cases h1 : toU64 (rd (rd (sx / c) + 1)) with
  | error e => rw [h1] at h; cases h
  | ok a =>
    cases h2 : toU64 (rd (rd (sy / c) + 1)) with
    | error e => rw [h1, h2] at h; cases h
    | ok b =>
      rw [h1, h2] at h
      simp only [Res.ok_bind, Res.pure_eq, Except.ok.injEq] at h
      subst h
      exact ⟨rfl, rfl, rfl, rfl, rfl, by simp only [List.length_replicate]⟩

/-- One axis: a coordinate between the corner and the far end gets a column of the grid. -/
theorem axis_ok (h : RoundsToNearest rd) {c o hi x : ℝ} {n : ℕ} (hc : 0 < c) (hox : o ≤ x) (hx : x ≤ hi)
    (hn : toU64 (rd (rd (rd (hi - o) / c) + 1)) = .ok n) (hn31 : n ≤ 2 ^ 31) :
    ∃ k, toU32F (Fl.rounded rd (.fin (rd (x - o)) / .fin c)) = .ok k ∧ k < n := by
  have hS : 0 ≤ rd (hi - o) := h.nonneg (by linarith)
  set q := rd (rd (hi - o) / c) with hq
  have hq0 : 0 ≤ q := h.nonneg (by positivity)
  have hn' := toU64_ok (h.nonneg (by linarith)) hn
  have hqle : q ≤ rd (q + 1) := h.ge_of_ge (h.isDouble _) (by linarith)
  have hfl : rd (q + 1) < n + 1 := by
    have h1 := Int.lt_floor_add_one (rd (q + 1))
    have h2 : 0 ≤ ⌊rd (q + 1)⌋ := Int.floor_nonneg.mpr (by linarith)
    have h3 : ((n : ℤ)) = ⌊rd (q + 1)⌋ := by rw [hn']; exact Int.toNat_of_nonneg h2
    have h4 : ((n : ℝ)) = ((⌊rd (q + 1)⌋ : ℤ) : ℝ) := by rw [← h3]; push_cast; rfl
    rw [h4]; exact h1
  have hnR : (n : ℝ) ≤ 2 ^ 31 := by exact_mod_cast hn31
  have hq52 : q < 2 ^ 52 := by
    have : (2 : ℝ) ^ 31 + 1 < 2 ^ 52 := by norm_num
    linarith
  have hgt := size_gt h hq0 hq52
  have hx0 : 0 ≤ rd (rd (x - o) / c) := h.nonneg (div_nonneg (h.nonneg (by linarith)) hc.le)
  have hxq : rd (rd (x - o) / c) ≤ q := h.mono (div_le_div_of_nonneg_right (h.mono (by linarith)) hc.le)
  have hkn : ⌊rd (rd (x - o) / c)⌋ < (n : ℤ) := by
    have h1 : ⌊rd (rd (x - o) / c)⌋ ≤ ⌊q⌋ := Int.floor_le_floor hxq
    have h2 : ⌊q⌋ + 1 ≤ ⌊rd (q + 1)⌋ := by
      rw [Int.le_floor]; push_cast; exact hgt
    have h3 : ((n : ℤ)) = ⌊rd (q + 1)⌋ := by
      rw [hn']; exact Int.toNat_of_nonneg (Int.floor_nonneg.mpr (by linarith))
    omega
  refine ⟨⌊rd (rd (x - o) / c)⌋.toNat, ?_, ?_⟩
  · rw [Fl.fin_div hc.ne', Fl.rounded_fin]
    apply toU32_of_nonneg hx0
    have : (2 : ℝ) ^ 31 + 1 < 2 ^ 32 := by norm_num
    linarith
  · have := Int.floor_nonneg.mpr hx0
    omega

theorem bbox_bounds (R : ℝ) (scans : List Scan) (b : BBox) :
    let f := scans.foldl (fun (b : BBox) (s : Scan) =>
      ({ minX := min (rd (s.getPose.x - R)) b.minX, maxX := max (rd (s.getPose.x + R)) b.maxX,
         minY := min (rd (s.getPose.y - R)) b.minY, maxY := max (rd (s.getPose.y + R)) b.maxY } : BBox)) b
    (f.minX ≤ b.minX ∧ b.maxX ≤ f.maxX ∧ f.minY ≤ b.minY ∧ b.maxY ≤ f.maxY) ∧
    ∀ s ∈ scans, f.minX ≤ rd (s.pose.x - R) ∧ rd (s.pose.x + R) ≤ f.maxX ∧
      f.minY ≤ rd (s.pose.y - R) ∧ rd (s.pose.y + R) ≤ f.maxY := by
  induction scans generalizing b with
  | nil => simp
  | cons s ss ih =>
    intro f
    obtain ⟨⟨i1, i2, i3, i4⟩, i5⟩ := ih ⟨min (rd (s.getPose.x - R)) b.minX,
      max (rd (s.getPose.x + R)) b.maxX, min (rd (s.getPose.y - R)) b.minY, max (rd (s.getPose.y + R)) b.maxY⟩
    refine ⟨⟨i1.trans (min_le_right _ _), (le_max_right _ _).trans i2, i3.trans (min_le_right _ _),
      (le_max_right _ _).trans i4⟩, ?_⟩
    intro t ht
    rcases List.mem_cons.mp ht with rfl | ht
    · exact ⟨i1.trans (min_le_left _ _), (le_max_left _ _).trans i2, i3.trans (min_le_left _ _),
        (le_max_left _ _).trans i4⟩
    · exact i5 t ht

/-! ### Search loops -/

theorem searchVal_double (h : RoundsToNearest rd) {size res : ℝ} (hs : IsDouble size) (n : ℕ) :
    IsDouble (searchVal rd size res n) := by
  cases n with
  | zero => exact isDouble_neg hs
  | succ n => exact h.isDouble _

theorem searchVal_mono (h : RoundsToNearest rd) {size res : ℝ} (hs : IsDouble size) (hr : 0 ≤ res) (n : ℕ) :
    searchVal rd size res n ≤ searchVal rd size res (n + 1) :=
  h.ge_of_ge (searchVal_double h hs n) (by linarith)

theorem searchVal_ge (h : RoundsToNearest rd) {size res : ℝ} (hs : IsDouble size) (hr : 0 ≤ res) (n : ℕ) :
    -size ≤ searchVal rd size res n := by
  induction n with
  | zero => exact le_rfl
  | succ n ih => exact ih.trans (searchVal_mono h hs hr n)

/-- Each round of the loop moves on by at least half of the resolution. -/
theorem searchVal_step (h : RoundsToNearest rd) {size res : ℝ} (hs : IsDouble size) (h0 : 0 < size)
    (hr : 2⁻¹ ^ 51 * size ≤ res) (hr2 : 2⁻¹ ^ 1000 ≤ res) {n : ℕ} (hlt : searchVal rd size res (n + 1) < size) :
    searchVal rd size res n + res / 2 ≤ searchVal rd size res (n + 1) := by
  have hres : 0 < res := lt_of_lt_of_le (by positivity) hr2
  have hge := searchVal_ge h hs hres.le n
  have hlt2 : searchVal rd size res n + res < size := by
    by_contra hc
    push Not at hc
    have := h.ge_of_ge hs hc
    exact absurd hlt (not_lt.mpr this)
  have he := h.error (searchVal rd size res n + res)
  have habs : |searchVal rd size res n + res| ≤ size := abs_le.mpr ⟨by linarith, hlt2.le⟩
  have h1 : (2⁻¹ : ℝ) ^ 53 * |searchVal rd size res n + res| ≤ res / 4 := by
    have a := mul_le_mul_of_nonneg_left habs (by positivity : (0 : ℝ) ≤ 2⁻¹ ^ 53)
    have e : (2⁻¹ : ℝ) ^ 53 * size = 2⁻¹ ^ 51 * size / 4 := by ring
    rw [e] at a
    linarith
  have h2 : halfMin ≤ res / 4 := by
    have a := halfMin_le (k := 1002) (by norm_num)
    have e : (2⁻¹ : ℝ) ^ 1002 = 2⁻¹ ^ 1000 / 4 := by
      rw [pow_add (2⁻¹ : ℝ) 1000 2, div_eq_mul_inv]
      congr 1
      norm_num
    rw [e] at a
    exact a.trans (div_le_div_of_nonneg_right hr2 (by norm_num))
  have h3 := (abs_le.mp he).1
  show _ ≤ rd _
  linarith

theorem searchVal_progress (h : RoundsToNearest rd) {size res : ℝ} (hs : IsDouble size) (h0 : 0 < size)
    (hr : 2⁻¹ ^ 51 * size ≤ res) (hr2 : 2⁻¹ ^ 1000 ≤ res) {n : ℕ} (hv : Visits rd size res n) :
    -size + n * (res / 2) ≤ searchVal rd size res n := by
  induction n with
  | zero => simp [searchVal]
  | succ n ih =>
    have := searchVal_step h hs h0 hr hr2 (hv (n + 1) le_rfl)
    have ih := ih fun i hi => hv i (by omega)
    push_cast
    linarith

theorem searchVal_stuck (h : RoundsToNearest rd) {size res : ℝ} (hs : IsDouble size)
    (hr : |res| < 2⁻¹ ^ 55 * |size|) (n : ℕ) : searchVal rd size res n = -size := by
  induction n with
  | zero => rfl
  | succ n ih =>
    show rd _ = _
    rw [ih]
    exact h.absorbs (isDouble_neg hs) (by rwa [abs_neg])

/-- How to compute a rounding. -/
theorem rnd_eval {x : ℝ} {k e : ℤ} (he : -1074 ≤ e) (h1 : 2 ^ 52 * 2 ^ e ≤ |x|) (h2 : |x| < 2 ^ 53 * 2 ^ e)
    (hk : rneInt (x / 2 ^ e) = k) : rnd x = k * 2 ^ e := by
  have hlog : Int.log 2 |x| = e + 52 := by
    have hx : 0 < |x| := lt_of_lt_of_le (by positivity) h1
    apply le_antisymm
    · have : Int.log 2 |x| < e + 53 := by
        rw [← Int.lt_zpow_iff_log_lt (by norm_num) hx]
        have : ((2 : ℕ) : ℝ) ^ (e + 53) = 2 ^ 53 * 2 ^ e := by
          push_cast
          rw [zpow_add₀ (by norm_num), mul_comm]
          norm_num
        rw [this]; exact h2
      omega
    · rw [← Int.zpow_le_iff_le_log (by norm_num) hx]
      have : ((2 : ℕ) : ℝ) ^ (e + 52) = 2 ^ 52 * 2 ^ e := by
        push_cast
        rw [zpow_add₀ (by norm_num), mul_comm]
        norm_num
      rw [this]; exact h1
  have hu : ulpExp x = e := by
    unfold ulpExp
    rw [hlog, max_eq_left (by omega)]
    ring
  unfold rnd
  rw [hu, hk]

/-- How to compute a rounding, for numbers below one. -/
theorem rnd_eval' {x : ℝ} {k : ℤ} (m : ℕ) (hm : m ≤ 1074)
    (hx : (2 ^ 52 ≤ x * 2 ^ m ∧ x * 2 ^ m < 2 ^ 53) ∨ (2 ^ 52 ≤ -x * 2 ^ m ∧ -x * 2 ^ m < 2 ^ 53))
    (hk : (-(1 / 2) < (k : ℝ) - x * 2 ^ m ∧ (k : ℝ) - x * 2 ^ m < 1 / 2) ∨
      (((k : ℝ) - x * 2 ^ m = 1 / 2 ∨ (k : ℝ) - x * 2 ^ m = -(1 / 2)) ∧ Even k)) : rnd x = k / 2 ^ m := by
  have hp : (0 : ℝ) < 2 ^ m := by positivity
  have hz : (2 : ℝ) ^ (-(m : ℤ)) = (2 ^ m)⁻¹ := by rw [zpow_neg, zpow_natCast]
  have hxd : x / 2 ^ (-(m : ℤ)) = x * 2 ^ m := by rw [hz, div_inv_eq_mul]
  have habs : 2 ^ 52 ≤ |x| * 2 ^ m ∧ |x| * 2 ^ m < 2 ^ 53 := by
    rcases hx with h | h
    · have : 0 < x := by
        by_contra hc
        push Not at hc
        have : x * 2 ^ m ≤ 0 := mul_nonpos_of_nonpos_of_nonneg hc hp.le
        have : (0 : ℝ) < 2 ^ 52 := by positivity
        linarith [h.1]
      rwa [abs_of_pos this]
    · have : x < 0 := by
        by_contra hc
        push Not at hc
        have : 0 ≤ x * 2 ^ m := mul_nonneg hc hp.le
        have : (0 : ℝ) < 2 ^ 52 := by positivity
        linarith [h.1]
      rwa [abs_of_neg this]
  have := rnd_eval (x := x) (k := k) (e := -(m : ℤ)) (by omega)
    (by rw [hz, ← div_eq_mul_inv, div_le_iff₀ hp]; exact habs.1)
    (by rw [hz, ← div_eq_mul_inv, lt_div_iff₀ hp]; exact habs.2)
    (by
      rw [hxd]
      apply rneInt_eq
      rcases hk with h | ⟨h | h, he⟩
      · exact Or.inl (abs_lt.mpr h)
      · exact Or.inr ⟨by rw [h]; norm_num, he⟩
      · exact Or.inr ⟨by rw [h]; norm_num, he⟩)
  rw [this, hz, div_eq_mul_inv]

/-! ### Grid bounds -/

/-- The size of rounding errors, in units of `res`. -/
theorem unit_err (h : RoundsToNearest rd) {res : ℝ} (hr : 2⁻¹ ^ 1000 ≤ res) {y : ℝ} (hy : |y| ≤ 2 ^ 33) :
    ∃ δ, |δ| ≤ 2⁻¹ ^ 19 ∧ rd (y * res) = (y + δ) * res := by
  have hres : 0 < res := lt_of_lt_of_le (by positivity) hr
  refine ⟨rd (y * res) / res - y, ?_, by field_simp; ring⟩
  have he := h.error (y * res)
  have e : rd (y * res) / res - y = (rd (y * res) - y * res) / res := by field_simp
  rw [e, abs_div, abs_of_pos hres, div_le_iff₀ hres]
  refine he.trans ?_
  rw [abs_mul, abs_of_pos hres]
  have h1 : (2⁻¹ : ℝ) ^ 53 * (|y| * res) ≤ 2⁻¹ ^ 53 * (2 ^ 33 * res) :=
    mul_le_mul_of_nonneg_left (mul_le_mul_of_nonneg_right hy hres.le) (by positivity)
  have h2 : halfMin ≤ 2⁻¹ ^ 20 * res := by
    have a := halfMin_le (k := 1020) (by norm_num)
    have e : (2⁻¹ : ℝ) ^ 1020 = 2⁻¹ ^ 20 * 2⁻¹ ^ 1000 := by rw [← pow_add]
    rw [e] at a
    exact a.trans (mul_le_mul_of_nonneg_left hr (by positivity))
  have e1 : (2⁻¹ : ℝ) ^ 53 * (2 ^ 33 * res) = 2⁻¹ ^ 20 * res := by ring
  have e2 : (2⁻¹ : ℝ) ^ 19 * res = 2⁻¹ ^ 20 * res + 2⁻¹ ^ 20 * res := by ring
  rw [e1] at h1
  rw [e2]
  exact add_le_add h1 h2

theorem one_err (h : RoundsToNearest rd) {y : ℝ} (hy : |y| ≤ 2 ^ 33) : ∃ δ, |δ| ≤ 2⁻¹ ^ 19 ∧ rd y = y + δ := by
  obtain ⟨δ, h1, h2⟩ := unit_err h (res := 1) (pow_le_one₀ (by norm_num) (by norm_num)) hy
  exact ⟨δ, h1, by simpa using h2⟩

theorem foldl_min (xs : List ℝ) (b : ℝ) :
    let m := xs.foldl (fun lo x => min x lo) b
    m ≤ b ∧ (∀ x ∈ xs, m ≤ x) ∧ (m = b ∨ m ∈ xs) := by
  induction xs generalizing b with
  | nil => simp
  | cons y ys ih =>
    obtain ⟨h1, h2, h3⟩ := ih (min y b)
    refine ⟨h1.trans (min_le_right _ _), ?_, ?_⟩
    · intro x hx
      rcases List.mem_cons.mp hx with rfl | hx
      · exact h1.trans (min_le_left _ _)
      · exact h2 x hx
    · rcases h3 with h3 | h3
      · rcases min_choice y b with h | h
        · right; rw [List.foldl_cons, h3, h]; exact List.mem_cons_self
        · left; rw [List.foldl_cons, h3, h]
      · right; exact List.mem_cons_of_mem _ h3

theorem foldl_max (xs : List ℝ) (b : ℝ) :
    let m := xs.foldl (fun hi x => max x hi) b
    b ≤ m ∧ (∀ x ∈ xs, x ≤ m) ∧ (m = b ∨ m ∈ xs) := by
  induction xs generalizing b with
  | nil => simp
  | cons y ys ih =>
    obtain ⟨h1, h2, h3⟩ := ih (max y b)
    refine ⟨(le_max_right _ _).trans h1, ?_, ?_⟩
    · intro x hx
      rcases List.mem_cons.mp hx with rfl | hx
      · exact (le_max_left _ _).trans h1
      · exact h2 x hx
    · rcases h3 with h3 | h3
      · rcases max_choice y b with h | h
        · right; rw [List.foldl_cons, h3, h]; exact List.mem_cons_self
        · left; rw [List.foldl_cons, h3, h]
      · right; exact List.mem_cons_of_mem _ h3

/-- An aligned bound divided by the resolution is close to its number. -/
theorem aligned_quot (h : RoundsToNearest rd) {res : ℝ} (hr : 2⁻¹ ^ 1000 ≤ res) {a : ℤ} (ha : |a| ≤ 2 ^ 30) :
    |rd (rd (a * res) / res) - a| < 1 / 2 := by
  have hres : 0 < res := lt_of_lt_of_le (by positivity) hr
  have haR : |(a : ℝ)| ≤ 2 ^ 30 := by exact_mod_cast ha
  obtain ⟨δ, h1, h2⟩ := unit_err h hr (y := a) (haR.trans (by norm_num))
  have e : rd (a * res) / res = a + δ := by rw [h2]; field_simp
  have hs : (2⁻¹ : ℝ) ^ 19 ≤ 1 / 8 := by norm_num
  obtain ⟨δ', h3, h4⟩ := one_err h (y := a + δ) (by
    refine (abs_add_le _ _).trans ?_
    have : (2 : ℝ) ^ 30 + 1 / 8 ≤ 2 ^ 33 := by norm_num
    linarith)
  rw [e, h4]
  have := abs_add_le δ δ'
  have e2 : (a : ℝ) + δ + δ' - a = δ + δ' := by ring
  rw [e2]
  linarith

/-- What is known of the bounds after a number of updates: they are multiples of the resolution (rounded), and the
quotients of all points are between them. -/
def AxisInv (rd : ℝ → ℝ) (res : ℝ) (R : ℕ) (xss : List (List ℝ)) (b : ℝ × ℝ) : Prop :=
  ∃ a c : ℤ, a ≤ 0 ∧ 0 ≤ c ∧ -(R + 1 + xss.length) ≤ a ∧ c ≤ R + 1 + xss.length ∧
    b = (rd (a * res), rd (c * res)) ∧
    ∀ xs ∈ xss, ∀ x ∈ xs, (a : ℝ) ≤ rd (x / res) ∧ rd (x / res) ≤ c

theorem axisInv (h : RoundsToNearest rd) {res : ℝ} (hr : 2⁻¹ ^ 1000 ≤ res) {R : ℕ} (hR : R ≤ 2 ^ 27)
    (xss : List (List ℝ)) (hx : ∀ xs ∈ xss, ∀ x ∈ xs, |x| ≤ R * res) (hn : xss.length ≤ 2 ^ 27) :
    AxisInv rd res R xss (axisAfter rd res xss) := by
  have hres : 0 < res := lt_of_lt_of_le (by positivity) hr
  induction xss using List.reverseRecOn with
  | nil =>
    refine ⟨0, 0, le_rfl, le_rfl, by simp, by simp; omega, ?_, by simp⟩
    show ((0 : ℝ), (0 : ℝ)) = _
    rw [Int.cast_zero, zero_mul, h.exact isDouble_zero]
  | append_singleton xss ys ih =>
    have hlen : (xss ++ [ys]).length = xss.length + 1 := by simp
    rw [hlen] at hn
    obtain ⟨a, c, ha0, hc0, ha, hc, hb, hcov⟩ := ih (fun xs hxs => hx xs (List.mem_append_left _ hxs)) (by omega)
    have hys := hx ys (by simp)
    have hstep : axisAfter rd res (xss ++ [ys]) = updateAxis rd res (axisAfter rd res xss) ys := by
      unfold axisAfter; rw [List.foldl_append]; rfl
    rw [hstep, hb]
    have haq := abs_lt.mp (aligned_quot h hr (a := a) (abs_le.mpr ⟨by omega, by omega⟩))
    have hcq := abs_lt.mp (aligned_quot h hr (a := c) (abs_le.mpr ⟨by omega, by omega⟩))
    obtain ⟨m1, m2, m3⟩ := foldl_min ys (rd (a * res))
    obtain ⟨M1, M2, M3⟩ := foldl_max ys (rd (c * res))
    set m := ys.foldl (fun lo x => min x lo) (rd (a * res)) with hm
    set M := ys.foldl (fun hi x => max x hi) (rd (c * res)) with hM
    have hquot : ∀ x : ℝ, |x| ≤ R * res → |rd (x / res)| ≤ R + 1 / 2 := by
      intro x hxx
      have h1 : |x / res| ≤ R := by
        rw [abs_div, abs_of_pos hres, div_le_iff₀ hres]; exact hxx
      have hRR : (R : ℝ) ≤ 2 ^ 27 := by exact_mod_cast hR
      obtain ⟨δ, h2, h3⟩ := one_err h (h1.trans (hRR.trans (by norm_num)))
      rw [h3]
      have h4 := abs_add_le (x / res) δ
      have hs : (2⁻¹ : ℝ) ^ 19 ≤ 1 / 2 := by norm_num
      linarith
    refine ⟨⌊rd (m / res)⌋, ⌈rd (M / res)⌉, ?_, ?_, ?_, ?_, ?_, ?_⟩
    · have h1 : rd (m / res) ≤ rd (rd (a * res) / res) := h.mono (div_le_div_of_nonneg_right m1 hres.le)
      have h2 : ⌊rd (m / res)⌋ < a + 1 := by
        rw [Int.floor_lt]; push_cast; linarith
      omega
    · have h1 : rd (rd (c * res) / res) ≤ rd (M / res) := h.mono (div_le_div_of_nonneg_right M1 hres.le)
      have h2 : c - 1 < ⌈rd (M / res)⌉ := by
        rw [Int.lt_ceil]; push_cast; linarith
      omega
    · rw [hlen]
      rcases m3 with e | e
      · have : a - 1 ≤ ⌊rd (m / res)⌋ := by
          rw [e, Int.le_floor]; push_cast; linarith
        push_cast
        omega
      · have h1 := (abs_le.mp (hquot m (hys m e))).1
        have : -((R : ℤ) + 1) ≤ ⌊rd (m / res)⌋ := by
          rw [Int.le_floor]; push_cast; linarith
        push_cast
        omega
    · rw [hlen]
      rcases M3 with e | e
      · have : ⌈rd (M / res)⌉ ≤ c + 1 := by
          rw [e, Int.ceil_le]; push_cast; linarith
        push_cast
        omega
      · have h1 := (abs_le.mp (hquot M (hys M e))).2
        have : ⌈rd (M / res)⌉ ≤ (R : ℤ) + 1 := by
          rw [Int.ceil_le]; push_cast; linarith
        push_cast
        omega
    · rfl
    · intro xs hxs x hxx
      rcases List.mem_append.mp hxs with hxs | hxs
      · obtain ⟨c1, c2⟩ := hcov xs hxs x hxx
        have h1 : rd (m / res) ≤ rd (rd (a * res) / res) := h.mono (div_le_div_of_nonneg_right m1 hres.le)
        have h2 : ⌊rd (m / res)⌋ < a + 1 := by
          rw [Int.floor_lt]; push_cast; linarith
        have h3 : rd (rd (c * res) / res) ≤ rd (M / res) := h.mono (div_le_div_of_nonneg_right M1 hres.le)
        have h4 : c - 1 < ⌈rd (M / res)⌉ := by
          rw [Int.lt_ceil]; push_cast; linarith
        have h5 : ((⌊rd (m / res)⌋ : ℤ) : ℝ) ≤ a := by exact_mod_cast (by omega : ⌊rd (m / res)⌋ ≤ a)
        have h6 : (c : ℝ) ≤ ((⌈rd (M / res)⌉ : ℤ) : ℝ) := by exact_mod_cast (by omega : c ≤ ⌈rd (M / res)⌉)
        exact ⟨h5.trans c1, c2.trans h6⟩
      · rw [List.mem_singleton] at hxs
        subst hxs
        have h1 : rd (m / res) ≤ rd (x / res) := h.mono (div_le_div_of_nonneg_right (m2 x hxx) hres.le)
        have h2 : rd (x / res) ≤ rd (M / res) := h.mono (div_le_div_of_nonneg_right (M2 x hxx) hres.le)
        exact ⟨(Int.floor_le _).trans h1, h2.trans (Int.le_ceil _)⟩

/-- A coordinate lies in a column (or row), up to a fiftieth of its width. -/
def Near50 (res origin x : ℝ) (k : ℤ) : Prop := origin + (k - 1 / 50) * res ≤ x ∧ x ≤ origin + (k + 1 + 1 / 50) * res

/-- A coordinate between the bounds gets a column (or row) of the grid. -/
theorem axis_cell (h : RoundsToNearest rd) {res : ℝ} (hr : 2⁻¹ ^ 1000 ≤ res) {a c : ℤ} (ha0 : a ≤ 0) (hc0 : 0 ≤ c)
    (ha : -2 ^ 29 ≤ a) (hc : c ≤ 2 ^ 29) {x : ℝ} (hxR : |x| ≤ 2 ^ 27 * res) (x1 : (a : ℝ) ≤ rd (x / res))
    (x2 : rd (x / res) ≤ c) :
    ∃ (w : ℕ) (k : ℤ), gridSize rd res (rd (a * res)) (rd (c * res)) = .ok w ∧
      gridCell rd res (gridOrigin rd res (rd (a * res))) x = .ok k ∧ 0 ≤ k ∧ k < w ∧ w ≤ c - a + 11 ∧
      Near50 res (gridOrigin rd res (rd (a * res))) x k := by
  have hres : 0 < res := lt_of_lt_of_le (by positivity) hr
  have aR : -(2 ^ 29 : ℝ) ≤ a := by
    have : -(2 ^ 29 : ℤ) ≤ a := by omega
    exact_mod_cast this
  have cR : (c : ℝ) ≤ 2 ^ 29 := by
    have : c ≤ 2 ^ 29 := by omega
    exact_mod_cast this
  have a0R : (a : ℝ) ≤ 0 := by exact_mod_cast ha0
  have c0R : (0 : ℝ) ≤ c := by exact_mod_cast hc0
  have hX : |x / res| ≤ 2 ^ 27 := by
    rw [abs_div, abs_of_pos hres, div_le_iff₀ hres]; exact hxR
  obtain ⟨X1, X2⟩ := abs_le.mp hX
  set X := x / res with hXdef
  have hxe : x = X * res := by rw [hXdef]; field_simp
  have hE : (2⁻¹ : ℝ) ^ 19 ≤ 1 / 100 := by norm_num
  have p27 : (2 : ℝ) ^ 27 = 134217728 := by norm_num
  have p29 : (2 : ℝ) ^ 29 = 536870912 := by norm_num
  have p33 : (2 : ℝ) ^ 33 = 8589934592 := by norm_num
  rw [p27] at X1 X2
  rw [p29] at aR cR
  -- one rounding after the other
  have round : ∀ y : ℝ, -8589934592 ≤ y → y ≤ 8589934592 → ∃ δ, -(1 / 100) ≤ δ ∧ δ ≤ 1 / 100 ∧ rd (y * res) = (y + δ) * res := by
    intro y h1 h2
    obtain ⟨δ, d1, d2⟩ := unit_err h hr (y := y) (by rw [p33]; exact abs_le.mpr ⟨h1, h2⟩)
    obtain ⟨d3, d4⟩ := abs_le.mp (d1.trans hE)
    exact ⟨δ, d3, d4, d2⟩
  have round1 : ∀ y : ℝ, -8589934592 ≤ y → y ≤ 8589934592 → ∃ δ, -(1 / 100) ≤ δ ∧ δ ≤ 1 / 100 ∧ rd y = y + δ := by
    intro y h1 h2
    obtain ⟨δ, d1, d2⟩ := one_err h (y := y) (by rw [p33]; exact abs_le.mpr ⟨h1, h2⟩)
    obtain ⟨d3, d4⟩ := abs_le.mp (d1.trans hE)
    exact ⟨δ, d3, d4, d2⟩
  obtain ⟨e0, e0l, e0u, e0e⟩ := round1 X (by linarith) (by linarith)
  rw [e0e] at x1 x2
  obtain ⟨e1, e1l, e1u, e1e⟩ := round a (by linarith) (by linarith)
  obtain ⟨e2, e2l, e2u, e2e⟩ := round c (by linarith) (by linarith)
  obtain ⟨e3, e3l, e3u, e3e⟩ := round 5 (by norm_num) (by norm_num)
  have hpad : pad rd res = (5 + e3) * res := e3e
  -- the corner
  obtain ⟨e4, e4l, e4u, e4e⟩ := round (a + e1 - (5 + e3)) (by linarith) (by linarith)
  have horig : gridOrigin rd res (rd (a * res)) = (a + e1 - (5 + e3) + e4) * res := by
    unfold gridOrigin
    rw [hpad, e1e, ← e4e]; congr 1; ring
  -- the cell
  obtain ⟨e5, e5l, e5u, e5e⟩ := round (X - (a + e1 - (5 + e3) + e4)) (by linarith) (by linarith)
  obtain ⟨e6, e6l, e6u, e6e⟩ := round1 (X - (a + e1 - (5 + e3) + e4) + e5) (by linarith) (by linarith)
  have hcell : rd (rd (x - gridOrigin rd res (rd (a * res))) / res) = X - (a + e1 - (5 + e3) + e4) + e5 + e6 := by
    rw [horig, ← e6e]
    congr 1
    have : x - (a + e1 - (5 + e3) + e4) * res = (X - (a + e1 - (5 + e3) + e4)) * res := by
      rw [sub_mul, ← hxe]
    rw [this, e5e]
    field_simp
  -- the size
  obtain ⟨e7, e7l, e7u, e7e⟩ := round (c + e2 - (a + e1)) (by linarith) (by linarith)
  obtain ⟨e8, e8l, e8u, e8e⟩ := round (2 * (5 + e3)) (by linarith) (by linarith)
  obtain ⟨e9, e9l, e9u, e9e⟩ := round (c + e2 - (a + e1) + e7 + (2 * (5 + e3) + e8)) (by linarith) (by linarith)
  obtain ⟨f0, f0l, f0u, f0e⟩ := round1 (c + e2 - (a + e1) + e7 + (2 * (5 + e3) + e8) + e9) (by linarith) (by linarith)
  have hsize : rd (rd (rd (rd (c * res) - rd (a * res)) + rd (2 * pad rd res)) / res) =
      c + e2 - (a + e1) + e7 + (2 * (5 + e3) + e8) + e9 + f0 := by
    rw [← f0e, hpad, e1e, e2e]
    have s1 : (c + e2) * res - (a + e1) * res = (c + e2 - (a + e1)) * res := by ring
    have s2 : 2 * ((5 + e3) * res) = (2 * (5 + e3)) * res := by ring
    rw [s1, s2, e7e, e8e, ← add_mul, e9e]
    congr 1
    field_simp
  set W := c + e2 - (a + e1) + e7 + (2 * (5 + e3) + e8) + e9 + f0 with hW
  set C := X - (a + e1 - (5 + e3) + e4) + e5 + e6 with hC
  have hC0 : 0 ≤ C := by rw [hC]; linarith
  have hCW : C + 1 ≤ W := by rw [hC, hW]; linarith
  have hWle : W ≤ 1073741900 := by rw [hW]; linarith
  refine ⟨⌊W⌋.toNat, ⌊C⌋, ?_, ?_, Int.floor_nonneg.mpr hC0, ?_, ?_, ?_⟩
  · unfold gridSize
    rw [hsize]
    exact toU32_of_nonneg (by linarith) (by linarith)
  · unfold gridCell
    rw [hcell]
    show toI32 C = _
    unfold toI32
    rw [truncZ_of_nonneg hC0, if_pos]
    refine ⟨?_, ?_⟩
    · have := Int.floor_nonneg.mpr hC0
      omega
    · rw [Int.floor_lt]; push_cast; linarith
  · have h1 : 0 ≤ ⌊W⌋ := Int.floor_nonneg.mpr (by linarith)
    have h2 : ⌊C⌋ + 1 ≤ ⌊W⌋ := by
      rw [Int.le_floor]; push_cast
      have := Int.floor_le C
      linarith
    omega
  · have h1 : 0 ≤ ⌊W⌋ := Int.floor_nonneg.mpr (by linarith)
    have h2 : ⌊W⌋ < c - a + 12 := by
      rw [Int.floor_lt]; push_cast; rw [hW]; linarith
    omega
  · have h1 := Int.floor_le C
    have h2 := Int.lt_floor_add_one C
    rw [Near50, horig]
    have d1 : (a + e1 - (5 + e3) + e4 + (⌊C⌋ - 1 / 50)) * res ≤ X * res :=
      mul_le_mul_of_nonneg_right (by rw [hC] at h1 ⊢; linarith) hres.le
    have d2 : X * res ≤ (a + e1 - (5 + e3) + e4 + (⌊C⌋ + 1 + 1 / 50)) * res :=
      mul_le_mul_of_nonneg_right (by rw [hC] at h2 ⊢; linarith) hres.le
    constructor <;> linarith

end

end Ndt.Rounded
