import Verif.Spec.Matcher
import Verif.Proof.NdtGrid
import Mathlib.Algebra.Order.Floor.Semifield

/-! # Lemmas for C11-C18 -/

namespace Ndt

noncomputable section

open Spec

/-! ### `Fl` order and algebra -/

theorem Fl.lt_trans' {a b c : Fl} (h1 : a < b) (h2 : b < c) : a < c := by
  cases a <;> cases b <;> cases c <;>
    first
    | exact absurd h1 (Fl.nan_lt _)
    | exact absurd h1 (Fl.lt_nan _)
    | exact absurd h2 (Fl.lt_nan _)
    | exact h1.elim
    | exact h2.elim
    | trivial
    | exact lt_trans (α := ℝ) h1 h2

theorem Fl.neg_add' (a b : Fl) : -(a + b) = -a + -b := by
  cases a <;> cases b <;> first | rfl | (simp only [Fl.fin_add, Fl.fin_neg]; congr 1; ring)

/-! ### Monadic folds -/

theorem mapM_ok {α β : Type} (l : List α) (f : α → Res β) (g : α → β) (h : ∀ a ∈ l, f a = .ok (g a)) :
    l.mapM f = .ok (l.map g) := by
  induction l with
  | nil => rfl
  | cons a l ih =>
    rw [List.mapM_cons, h a (by simp), Res.ok_bind, ih (fun b hb => h b (by simp [hb]))]
    rfl

theorem foldlM_flatMap' {α β σ : Type} (l : List α) (f : α → List β) (g : σ → β → Res σ) (a : σ) :
    (l.flatMap f).foldlM g a = l.foldlM (fun a x => (f x).foldlM g a) a := by
  induction l generalizing a with
  | nil => rfl
  | cons x l ih =>
    rw [List.flatMap_cons, List.foldlM_append, List.foldlM_cons]
    congr 1
    funext b
    exact ih b

theorem foldlM_congr' {α σ : Type} (l : List α) (g h : σ → α → Res σ) (a : σ)
    (he : ∀ b, ∀ x ∈ l, g b x = h b x) : l.foldlM g a = l.foldlM h a := by
  induction l generalizing a with
  | nil => rfl
  | cons x l ih =>
    rw [List.foldlM_cons, List.foldlM_cons, he a x (by simp)]
    congr 1
    funext b
    exact ih b (fun c y hy => he c y (by simp [hy]))

/-- A fold whose step first evaluates something that may fault. -/
theorem foldlM_eval {α β σ : Type} (l : List α) (f : α → Res β) (upd : σ → α → β → σ) (a : σ) :
    (∀ w : α → β, (∀ x ∈ l, f x = .ok (w x)) →
      l.foldlM (fun s x => do let v ← f x; (pure (upd s x v) : Res σ)) a =
        .ok (l.foldl (fun s x => upd s x (w x)) a)) ∧
    (∀ a', l.foldlM (fun s x => do let v ← f x; (pure (upd s x v) : Res σ)) a = .ok a' →
      ∀ x ∈ l, ∃ v, f x = .ok v) := by
  induction l generalizing a with
  | nil => exact ⟨fun w _ => rfl, fun a' _ x hx => by simp at hx⟩
  | cons y l ih =>
    constructor
    · intro w hw
      rw [List.foldlM_cons, hw y (by simp)]
      exact (ih (upd a y (w y))).1 w (fun x hx => hw x (by simp [hx]))
    · intro a' h
      rw [List.foldlM_cons] at h
      cases hv : f y with
      | error e => rw [hv] at h; cases h
      | ok v =>
        rw [hv] at h
        have := (ih (upd a y v)).2 a' h
        intro x hx
        rcases List.mem_cons.mp hx with rfl | hx
        · exact ⟨v, hv⟩
        · exact this x hx

/-! ### Beams -/

theorem sampleIdx_lt {n m i : ℕ} (him : i < m) (hn : 0 < n) : sampleIdx n m i < n := by
  unfold sampleIdx
  rw [Nat.div_lt_iff_lt_mul (by omega), Nat.mul_comm n m]
  exact Nat.mul_lt_mul_of_pos_right him hn

theorem sampleIdx_strictMono {n m i j : ℕ} (hm : 0 < m) (hmn : m ≤ n) (h : i < j) :
    sampleIdx n m i < sampleIdx n m j := by
  have step : sampleIdx n m i + 1 ≤ sampleIdx n m (i + 1) := by
    unfold sampleIdx
    rw [← Nat.add_div_right _ hm]
    apply Nat.div_le_div_right
    nlinarith
  have mono : sampleIdx n m (i + 1) ≤ sampleIdx n m j := by
    unfold sampleIdx
    exact Nat.div_le_div_right (Nat.mul_le_mul_right _ h)
  omega

theorem beamIndex_eq {n m i : ℕ} (him : i < m) (hmn : m ≤ n) (hn : n < 2 ^ 64) :
    Matcher.beamIndex n m i = .ok (sampleIdx n m i) := by
  have hm : (0 : ℝ) < m := by exact_mod_cast (by omega : 0 < m)
  unfold Matcher.beamIndex
  rw [Fl.fin_div hm.ne', Fl.fin_mul]
  have e : (i : ℝ) * ((n : ℝ) / m) = ((i * n : ℕ) : ℝ) / (m : ℕ) := by push_cast; ring
  rw [e]
  have hlt := sampleIdx_lt him (by omega : 0 < n)
  show toU64 _ = _
  have h0 : (0 : ℝ) ≤ ((i * n : ℕ) : ℝ) / (m : ℕ) := by positivity
  have hfl : ⌊((i * n : ℕ) : ℝ) / (m : ℕ)⌋.toNat = sampleIdx n m i := by
    rw [Int.floor_toNat, Nat.floor_div_eq_div]; rfl
  rw [toU64_of_nonneg h0, hfl]
  rw [div_lt_iff₀ hm]
  have h1 : i * n < m * n := Nat.mul_lt_mul_of_pos_right him (by omega)
  have h2 : m * n < 2 ^ 64 * m := by rw [Nat.mul_comm]; exact Nat.mul_lt_mul_of_pos_right hn (by omega)
  have h3 : i * n < 2 ^ 64 * m := lt_trans h1 h2
  exact_mod_cast h3

/-- The `i`-th sample, for use in proofs. -/
def sampleAt (ps : List Point) (m i : ℕ) : Point := ps.getD (sampleIdx ps.length m i) Point.zero

theorem getElem?_sample {ps : List Point} {m i : ℕ} (him : i < m) (hmn : m ≤ ps.length) :
    ps[sampleIdx ps.length m i]? = some (sampleAt ps m i) := by
  have h := sampleIdx_lt him (by omega : 0 < ps.length)
  unfold sampleAt
  rw [List.getElem?_eq_getElem h]; simp [List.getD, h]

theorem samples_eq {ps : List Point} {m : ℕ} (hmn : m ≤ ps.length) :
    samples ps m = (List.range m).map (sampleAt ps m) := by
  unfold samples
  have : ∀ l : List ℕ, (∀ i ∈ l, i < m) →
      l.filterMap (fun i => ps[sampleIdx ps.length m i]?) = l.map (sampleAt ps m) := by
    intro l
    induction l with
    | nil => intro _; rfl
    | cons i l ih =>
      intro h
      rw [List.filterMap_cons, getElem?_sample (h i (by simp)) hmn, List.map_cons,
        ih (fun j hj => h j (by simp [hj]))]
  exact this _ (fun i hi => List.mem_range.mp hi)

theorem beam_eq {ps : List Point} {m i : ℕ} (him : i < m) (hmn : m ≤ ps.length) (hn : ps.length < 2 ^ 64) :
    Matcher.beam ps m i = .ok (sampleAt ps m i) := by
  unfold Matcher.beam
  rw [beamIndex_eq him hmn hn]
  simp only [Res.ok_bind, getElem?_sample him hmn]
  rfl

theorem outerPoints_eq {ps : List Point} {m : ℕ} (hmn : m ≤ ps.length) (hn : ps.length < 2 ^ 64)
    (pose : Pose2d) (dth : ℝ) :
    Matcher.outerPoints ps m pose dth =
      .ok ((samples ps m).map (move ⟨pose.x, pose.y, pose.theta + dth⟩)) := by
  unfold Matcher.outerPoints
  rw [mapM_ok _ _ (fun i => move ⟨pose.x, pose.y, pose.theta + dth⟩ (sampleAt ps m i))]
  · rw [samples_eq hmn, List.map_map]; rfl
  · intro i hi
    rw [beam_eq (List.mem_range.mp hi) hmn hn]
    simp only [Res.ok_bind, Res.pure_eq]
    congr 1
    ext <;> simp only [move] <;> ring

/-! ### The search grid -/

theorem loopFrom_eq (size res : ℝ) (hres : 0 < res) (fuel : ℕ) (d : ℝ) (hd : d + fuel * res < size + res) :
    Matcher.loopFrom size res fuel d = (List.range fuel).map fun k : ℕ => d + k * res := by
  induction fuel generalizing d with
  | zero => rfl
  | succ fuel ih =>
    push_cast at hd
    have h0 : (0 : ℝ) ≤ fuel * res := by positivity
    rw [Matcher.loopFrom, if_pos (by linarith), ih _ (by linarith), List.range_succ_eq_map, List.map_cons,
      List.map_map]
    congr 1
    · simp
    · apply List.map_congr_left
      intro k _
      simp only [Function.comp, Nat.cast_succ]
      ring

theorem searchVals_eq (size res : ℝ) (hres : 0 < res) : Matcher.searchVals size res = gridVals size res := by
  unfold Matcher.searchVals gridVals
  by_cases h : 2 * size / res ≤ 0
  · rw [Nat.ceil_eq_zero.mpr h]; rfl
  · apply loopFrom_eq _ _ hres
    have hlt := Nat.ceil_lt_add_one (le_of_lt (not_le.mp h))
    have := mul_lt_mul_of_pos_right hlt hres
    have e : (2 * size / res + 1) * res = 2 * size + res := by field_simp
    rw [e] at this
    linarith

/-- The bound on the number of iterations in the model never ends the loop: one more round would not run. -/
theorem loopFrom_complete (size res : ℝ) (hres : 0 < res) (extra : ℕ) :
    Matcher.loopFrom size res (⌈2 * size / res⌉₊ + extra) (-size) = Matcher.searchVals size res := by
  unfold Matcher.searchVals
  have key : ∀ (fuel : ℕ) (d : ℝ), size ≤ d + fuel * res →
      Matcher.loopFrom size res (fuel + extra) d = Matcher.loopFrom size res fuel d := by
    intro fuel
    induction fuel with
    | zero =>
      intro d hd
      simp only [Nat.cast_zero, zero_mul, add_zero] at hd
      cases extra with
      | zero => rfl
      | succ e => simp [Matcher.loopFrom, not_lt.mpr hd]
    | succ fuel ih =>
      intro d hd
      push_cast at hd
      rw [Nat.add_right_comm, Matcher.loopFrom, Matcher.loopFrom, ih (d + res) (by linarith)]
  apply key
  have := mul_le_mul_of_nonneg_right (Nat.le_ceil (2 * size / res)) hres.le
  rw [div_mul_cancel₀ _ hres.ne'] at this
  linarith

theorem mem_gridVals (size res : ℝ) (hres : 0 < res) (d : ℝ) : d ∈ gridVals size res ↔ OnGrid size res d := by
  unfold gridVals OnGrid
  simp only [List.mem_map, List.mem_range]
  constructor
  · rintro ⟨k, hk, rfl⟩
    refine ⟨k, rfl, ?_⟩
    have : (k : ℝ) < 2 * size / res := Nat.lt_ceil.mp hk
    rw [lt_div_iff₀ hres] at this
    linarith
  · rintro ⟨k, rfl, hlt⟩
    refine ⟨k, ?_, rfl⟩
    rw [Nat.lt_ceil, lt_div_iff₀ hres]
    linarith

theorem mem_window (ls lr as ar : ℝ) (hl : 0 < lr) (ha : 0 < ar) (o : Pose2d) :
    o ∈ window ls lr as ar ↔ InWindow ls lr as ar o := by
  unfold window InWindow
  simp only [List.mem_flatMap, List.mem_map, mem_gridVals _ _ hl, mem_gridVals _ _ ha]
  constructor
  · rintro ⟨dth, h1, dx, h2, dy, h3, rfl⟩
    exact ⟨h2, h3, h1⟩
  · rintro ⟨h2, h3, h1⟩
    exact ⟨o.theta, h1, o.x, h2, o.y, h3, rfl⟩

/-! ### The search as one fold over the window -/

/-- The accumulator after a candidate with score `sc`. -/
def accUpd (a : Matcher.SearchAcc) (o : Pose2d) (sc : Fl) : Matcher.SearchAcc :=
  { best := if sc < a.best then sc else a.best
    pose := if sc < a.best then o else a.pose
    k := fun i j => a.k i j + Fl.fin ((![o.x, o.y, o.theta] : Fin 3 → ℝ) i * (![o.x, o.y, o.theta] : Fin 3 → ℝ) j) * sc
    u := fun i => a.u i + Fl.fin ((![o.x, o.y, o.theta] : Fin 3 → ℝ) i) * sc
    s := a.s + sc }

/-- The value of one candidate. -/
def candLik (g : NdtGrid) (beams : List Point) (pose o : Pose2d) : Res Fl :=
  g.likelihoodPoints (beams.map (move (offset pose o)))

theorem not_endless {mt : Matcher} (hl : 0 < mt.linearRes) (ha : 0 < mt.angularRes) : ¬ mt.Endless := by
  rintro ⟨-, h | ⟨-, h⟩⟩ <;> linarith

theorem search_eq (mt : Matcher) (hl : 0 < mt.linearRes) (ha : 0 < mt.angularRes) (g : NdtGrid)
    (ps : List Point) (m : ℕ) (hmn : m ≤ ps.length) (hn : ps.length < 2 ^ 64) (pose : Pose2d)
    (a : Matcher.SearchAcc) :
    mt.search g ps m pose a =
      (window mt.linearSize mt.linearRes mt.angularSize mt.angularRes).foldlM
        (fun a o => do let v ← candLik g (samples ps m) pose o; (pure (accUpd a o (-v)) : Res _)) a := by
  unfold Matcher.search window
  rw [searchVals_eq _ _ hl, searchVals_eq _ _ ha, foldlM_flatMap']
  apply foldlM_congr'
  intro b dth _
  rw [outerPoints_eq hmn hn, foldlM_flatMap']
  simp only [Res.ok_bind]
  apply foldlM_congr'
  intro b dx _
  rw [List.foldlM_map]
  apply foldlM_congr'
  intro b dy _
  unfold Matcher.searchBody candLik
  have e : List.map (fun p : Point => ({ x := p.x + dx, y := p.y + dy } : Point))
      ((samples ps m).map (move ⟨pose.x, pose.y, pose.theta + dth⟩)) =
      (samples ps m).map (move (offset pose ⟨dx, dy, dth⟩)) := by
    rw [List.map_map]
    apply List.map_congr_left
    intro p _
    ext <;> simp only [Function.comp, move, offset] <;> ring
  rw [e]
  rfl

/-- What is known about the best candidate after a fold. -/
theorem foldl_best (l : List Pose2d) (w : Pose2d → Fl) (a : Matcher.SearchAcc) :
    let r := l.foldl (fun a o => accUpd a o (w o)) a
    (r.best = a.best ∨ r.best < a.best) ∧
    (∀ o ∈ l, ¬ (w o < r.best)) ∧
    ((r.best = a.best ∧ r.pose = a.pose) ∨ (r.best < a.best ∧ r.pose ∈ l ∧ r.best = w r.pose)) := by
  induction l generalizing a with
  | nil => exact ⟨Or.inl rfl, fun o ho => by simp at ho, Or.inl ⟨rfl, rfl⟩⟩
  | cons o l ih =>
    obtain ⟨h1, h2, h3⟩ := ih (accUpd a o (w o))
    simp only [List.foldl_cons]
    by_cases hlt : w o < a.best
    · have eb : (accUpd a o (w o)).best = w o := if_pos hlt
      have ep : (accUpd a o (w o)).pose = o := if_pos hlt
      rw [eb] at h1 h3
      rw [ep] at h3
      refine ⟨Or.inr ?_, ?_, Or.inr ?_⟩
      · rcases h1 with h1 | h1
        · rw [h1]; exact hlt
        · exact Fl.lt_trans' h1 hlt
      · intro q hq
        rcases List.mem_cons.mp hq with rfl | hq
        · rcases h1 with h1 | h1
          · rw [h1]
            intro hh
            cases hw : w q with
            | nan => rw [hw] at hh; exact absurd hh (Fl.nan_lt _)
            | pinf => rw [hw] at hh; exact hh.elim
            | ninf => rw [hw] at hh; exact hh.elim
            | fin x => rw [hw] at hh; exact absurd hh (lt_irrefl x)
          · intro hh
            have := Fl.lt_trans' hh h1
            cases hw : w q with
            | nan => rw [hw] at this; exact absurd this (Fl.nan_lt _)
            | pinf => rw [hw] at this; exact this.elim
            | ninf => rw [hw] at this; exact this.elim
            | fin x => rw [hw] at this; exact absurd this (lt_irrefl x)
        · exact h2 q hq
      · rcases h3 with ⟨e1, e2⟩ | ⟨e1, e2, e3⟩
        · refine ⟨by rw [e1]; exact hlt, ?_, ?_⟩
          · rw [e2]; simp
          · rw [e1, e2]
        · exact ⟨Fl.lt_trans' e1 hlt, List.mem_cons_of_mem _ e2, e3⟩
    · have eb : (accUpd a o (w o)).best = a.best := if_neg hlt
      have ep : (accUpd a o (w o)).pose = a.pose := if_neg hlt
      rw [eb] at h1 h3
      rw [ep] at h3
      refine ⟨h1, ?_, ?_⟩
      · intro q hq
        rcases List.mem_cons.mp hq with rfl | hq
        · rcases h1 with h1 | h1
          · rw [h1]; exact hlt
          · intro hh; exact hlt (Fl.lt_trans' hh h1)
        · exact h2 q hq
      · rcases h3 with h3 | ⟨e1, e2, e3⟩
        · exact Or.inl h3
        · exact Or.inr ⟨e1, List.mem_cons_of_mem _ e2, e3⟩

/-- The sums accumulated for the covariance, when all scores are numbers. -/
theorem foldl_sums (l : List Pose2d) (w : Pose2d → ℝ) (a : Matcher.SearchAcc) (k0 : Fin 3 → Fin 3 → ℝ)
    (u0 : Fin 3 → ℝ) (s0 : ℝ) (hk : ∀ i j, a.k i j = .fin (k0 i j)) (hu : ∀ i, a.u i = .fin (u0 i))
    (hs : a.s = .fin s0) :
    let r := l.foldl (fun a o => accUpd a o (.fin (w o))) a
    (∀ i j, r.k i j = .fin (k0 i j + (l.map fun o =>
      (![o.x, o.y, o.theta] : Fin 3 → ℝ) i * (![o.x, o.y, o.theta] : Fin 3 → ℝ) j * w o).sum)) ∧
    (∀ i, r.u i = .fin (u0 i + (l.map fun o => (![o.x, o.y, o.theta] : Fin 3 → ℝ) i * w o).sum)) ∧
    r.s = .fin (s0 + (l.map w).sum) := by
  induction l generalizing a k0 u0 s0 with
  | nil => simp [hk, hu, hs]
  | cons o l ih =>
    have := ih (accUpd a o (.fin (w o)))
      (fun i j => k0 i j + (![o.x, o.y, o.theta] : Fin 3 → ℝ) i * (![o.x, o.y, o.theta] : Fin 3 → ℝ) j * w o)
      (fun i => u0 i + (![o.x, o.y, o.theta] : Fin 3 → ℝ) i * w o) (s0 + w o)
      (fun i j => by simp only [accUpd, hk, Fl.fin_mul, Fl.fin_add])
      (fun i => by simp only [accUpd, hu, Fl.fin_mul, Fl.fin_add])
      (by simp only [accUpd, hs, Fl.fin_add])
    obtain ⟨h1, h2, h3⟩ := this
    simp only [List.foldl_cons, List.map_cons, List.sum_cons]
    refine ⟨fun i j => ?_, fun i => ?_, ?_⟩
    · rw [h1, add_assoc]
    · rw [h2, add_assoc]
    · rw [h3, add_assoc]

/-! ### Scoring -/

theorem foldlM_neg (g : NdtGrid) (f : ℕ → Point) (l : List ℕ) (a : Fl) :
    l.foldlM (fun score i => do let v ← g.likelihood (f i); (pure (score + -v) : Res Fl)) (-a) =
      ((l.map f).foldlM (fun score p => do let v ← g.likelihood p; (pure (score + v) : Res Fl)) a) >>=
        fun v => .ok (-v) := by
  induction l generalizing a with
  | nil => rfl
  | cons i l ih =>
    rw [List.map_cons, List.foldlM_cons, List.foldlM_cons]
    cases h : g.likelihood (f i) with
    | error e => rfl
    | ok v =>
      simp only [Res.ok_bind, Res.pure_eq]
      rw [← Fl.neg_add']
      exact ih (a + v)

theorem scorePoints_eq (mt : Matcher) (g : NdtGrid) (hg : mt.ndt = some g) (ps : List Point)
    (hn : ps.length < 2 ^ 64) (pose : Pose2d) :
    mt.scorePoints ps pose =
      (g.likelihoodPoints ((samples ps (min mt.laserMaxBeams ps.length)).map (move pose)) >>=
        fun v => .ok (-v / .fin (min mt.laserMaxBeams ps.length : ℕ))) := by
  unfold Matcher.scorePoints
  rw [hg]
  have hmn : min mt.laserMaxBeams ps.length ≤ ps.length := min_le_right _ _
  simp only
  generalize min mt.laserMaxBeams ps.length = m at *
  rw [foldlM_congr' (List.range m) _
    (fun score i => do let v ← g.likelihood (move pose (sampleAt ps m i)); (pure (score + -v) : Res Fl))]
  · have hz : (Fl.fin 0) = -(Fl.fin 0) := by rw [Fl.fin_neg, neg_zero]
    rw [hz, foldlM_neg, samples_eq hmn, List.map_map]
    unfold NdtGrid.likelihoodPoints
    have hm : (List.range m).map (fun i => move pose (sampleAt ps m i)) =
        (List.range m).map (move pose ∘ sampleAt ps m) := rfl
    rw [hm]
    cases (List.map (move pose ∘ sampleAt ps m) (List.range m)).foldlM
        (fun score p => do let v ← g.likelihood p; (pure (score + v) : Res Fl)) (Fl.fin 0) <;> rfl
  · intro b i hi
    rw [beam_eq (List.mem_range.mp hi) hmn hn]
    simp only [Res.ok_bind, apply_eq_move]

/-! ### addScans -/

theorem addScans_eq (mt : Matcher) (scans : List Scan) :
    let b := Matcher.bbox mt.rangeMax scans
    mt.addScans scans =
      ((NdtGrid.new mt.resolution (b.maxX - b.minX) (b.maxY - b.minY) b.minX b.minY >>=
        fun g => g.run (scans.map .addScan ++ [.compute])) >>= fun g => .ok { mt with ndt := some g }) := by
  intro b
  unfold Matcher.addScans
  simp only
  cases NdtGrid.new mt.resolution (b.maxX - b.minX) (b.maxY - b.minY) b.minX b.minY with
  | error e => rfl
  | ok g =>
    simp only [Res.ok_bind]
    unfold NdtGrid.run
    rw [List.foldlM_append, List.foldlM_map]
    have : (fun (x : NdtGrid) y => x.step (NdtOp.addScan y)) = NdtGrid.addScan := rfl
    rw [this]
    cases scans.foldlM NdtGrid.addScan g <;> rfl

theorem bbox_bounds (r : ℝ) (scans : List Scan) (b0 : BBox) (s : Scan) (hs : s ∈ scans) :
    let b := scans.foldl (fun b s =>
      ({ minX := min (s.getPose.x - r) b.minX, maxX := max (s.getPose.x + r) b.maxX,
         minY := min (s.getPose.y - r) b.minY, maxY := max (s.getPose.y + r) b.maxY } : BBox)) b0
    b.minX ≤ s.pose.x - r ∧ s.pose.x + r ≤ b.maxX ∧ b.minY ≤ s.pose.y - r ∧ s.pose.y + r ≤ b.maxY := by
  have mono : ∀ (l : List Scan) (b0 : BBox),
      let b := l.foldl (fun b s =>
        ({ minX := min (s.getPose.x - r) b.minX, maxX := max (s.getPose.x + r) b.maxX,
           minY := min (s.getPose.y - r) b.minY, maxY := max (s.getPose.y + r) b.maxY } : BBox)) b0
      b.minX ≤ b0.minX ∧ b0.maxX ≤ b.maxX ∧ b.minY ≤ b0.minY ∧ b0.maxY ≤ b.maxY := by
    intro l
    induction l with
    | nil => intro b0; exact ⟨le_rfl, le_rfl, le_rfl, le_rfl⟩
    | cons t l ih =>
      intro b0
      obtain ⟨h1, h2, h3, h4⟩ := ih
        { minX := min (t.getPose.x - r) b0.minX, maxX := max (t.getPose.x + r) b0.maxX,
          minY := min (t.getPose.y - r) b0.minY, maxY := max (t.getPose.y + r) b0.maxY }
      exact ⟨h1.trans (min_le_right _ _), (le_max_right _ _).trans h2, h3.trans (min_le_right _ _),
        (le_max_right _ _).trans h4⟩
  induction scans generalizing b0 with
  | nil => simp at hs
  | cons t l ih =>
    rcases List.mem_cons.mp hs with rfl | hs
    · obtain ⟨h1, h2, h3, h4⟩ := mono l
        { minX := min (s.getPose.x - r) b0.minX, maxX := max (s.getPose.x + r) b0.maxX,
          minY := min (s.getPose.y - r) b0.minY, maxY := max (s.getPose.y + r) b0.maxY }
      exact ⟨h1.trans (min_le_left _ _), (le_max_left _ _).trans h2, h3.trans (min_le_left _ _),
        (le_max_left _ _).trans h4⟩
    · exact ih _ hs

theorem NdtGrid.addMapPoint_geom {g g' : NdtGrid} {p : Point} (h : g.addMapPoint p = .ok g') :
    g.SameGeom g' := by
  unfold addMapPoint at h
  cases hi : g.getIndex p with
  | error e => rw [hi] at h; cases h
  | ok i =>
    rw [hi] at h
    simp only [Res.ok_bind] at h
    split at h
    · split at h
      · cases h; exact ⟨rfl, rfl, rfl, rfl, rfl, by simp⟩
      · cases h
    · cases h; exact SameGeom.refl g

theorem NdtGrid.addPoints_geom (f : Point → Point) (ps : List Point) {g g' : NdtGrid}
    (h : ps.foldlM (fun g p => g.addMapPoint (f p)) g = .ok g') : g.SameGeom g' := by
  induction ps generalizing g with
  | nil => cases h; exact SameGeom.refl _
  | cons p ps ih =>
    rw [List.foldlM_cons] at h
    cases h1 : g.addMapPoint (f p) with
    | error e => rw [h1] at h; cases h
    | ok g1 => rw [h1] at h; exact (addMapPoint_geom h1).trans (ih h)

theorem NdtGrid.run_geom (ops : List NdtOp) {g g' : NdtGrid} (h : g.run ops = .ok g') : g.SameGeom g' := by
  induction ops generalizing g with
  | nil => cases h; exact SameGeom.refl _
  | cons op ops ih =>
    unfold run at h
    rw [List.foldlM_cons] at h
    cases h1 : g.step op with
    | error e => rw [h1] at h; cases h
    | ok g1 =>
      rw [h1] at h
      refine SameGeom.trans ?_ (ih h)
      cases op with
      | addScan s => exact addPoints_geom _ _ h1
      | compute => cases h1; exact ⟨rfl, rfl, rfl, rfl, rfl, by simp [compute]⟩

theorem toU64_ok {x : ℝ} {n : ℕ} (h0 : 0 ≤ x) (h : toU64 x = .ok n) : n = ⌊x⌋.toNat := by
  unfold toU64 at h
  split at h
  · cases h; rw [truncZ_of_nonneg h0]
  · cases h

/-- What a successful construction says about the sizes. -/
theorem NdtGrid.new_ok {c sx sy ox oy : ℝ} {g : NdtGrid} (hc : 0 < c) (hx : 0 ≤ sx) (hy : 0 ≤ sy)
    (h : NdtGrid.new c sx sy ox oy = .ok g) :
    g.cellSize = c ∧ g.originX = ox ∧ g.originY = oy ∧ g.sizeX = cols sx c ∧ g.sizeY = cols sy c := by
  have key : ∀ (s : ℝ) (n : ℕ), 0 ≤ s → toU64F (Fl.fin s / Fl.fin c + Fl.fin 1) = .ok n → n = cols s c := by
    intro s n hs hn
    have h0 : 0 ≤ s / c := div_nonneg hs hc.le
    rw [Fl.fin_div hc.ne', Fl.fin_add] at hn
    have := toU64_ok (x := s / c + 1) (by linarith) hn
    rw [this, Int.floor_add_one]
    have := Int.floor_nonneg.mpr h0
    unfold cols
    omega
  unfold NdtGrid.new at h
  cases h1 : toU64F (Fl.fin sx / Fl.fin c + Fl.fin 1) with
  | error e => rw [h1] at h; cases h
  | ok a =>
    cases h2 : toU64F (Fl.fin sy / Fl.fin c + Fl.fin 1) with
    | error e => rw [h1, h2] at h; cases h
    | ok b =>
      rw [h1, h2] at h
      cases h
      exact ⟨rfl, rfl, rfl, key sx a hx h1, key sy b hy h2⟩

theorem near_of_inExtents {ox oy c : ℝ} (hc : 0 < c) {nx ny : ℕ} (h : nx * ny ≤ 2 ^ 31) (hx : 0 < nx)
    (hy : 0 < ny) {p : Point} (hp : InExtents ox oy c nx ny p) : Near ox oy c p := by
  obtain ⟨-, h1, -, h2⟩ := hp
  have b1 : (nx : ℝ) ≤ 2 ^ 31 := by exact_mod_cast le_trans (Nat.le_mul_of_pos_right _ hy) h
  have b2 : (ny : ℝ) ≤ 2 ^ 31 := by exact_mod_cast le_trans (Nat.le_mul_of_pos_left _ hx) h
  have c1 := mul_le_mul_of_nonneg_right b1 hc.le
  have c2 := mul_le_mul_of_nonneg_right b2 hc.le
  constructor <;> nlinarith

/-- Decomposition of a successful `addScans`. -/
theorem addScans_ok {mt mt' : Matcher} {scans : List Scan} (h : mt.addScans scans = .ok mt') :
    let b := Matcher.bbox mt.rangeMax scans
    ∃ g0 g, NdtGrid.new mt.resolution (b.maxX - b.minX) (b.maxY - b.minY) b.minX b.minY = .ok g0 ∧
      g0.run (scans.map .addScan ++ [.compute]) = .ok g ∧ mt' = { mt with ndt := some g } ∧ g0.SameGeom g := by
  intro b
  rw [addScans_eq] at h
  cases h0 : NdtGrid.new mt.resolution (b.maxX - b.minX) (b.maxY - b.minY) b.minX b.minY with
  | error e => rw [h0] at h; cases h
  | ok g0 =>
    rw [h0] at h
    simp only [Res.ok_bind] at h
    cases h1 : g0.run (scans.map .addScan ++ [.compute]) with
    | error e => rw [h1] at h; cases h
    | ok g =>
      rw [h1] at h
      cases h
      exact ⟨g0, g, rfl, h1, rfl, NdtGrid.run_geom _ h1⟩

end

end Ndt
