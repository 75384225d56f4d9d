import Verif.Spec.RoundedMatcher
import Verif.Proof.Matcher
import Verif.Proof.RoundedScore

/-! # Helper lemmas: matching in double precision -/

namespace Ndt.Rounded

open Spec

noncomputable section

variable {rd co si : ℝ → ℝ} {es : Mat2 ℝ → ℝ × ℝ}

/-! ### The best of the offsets -/

/-- From `a` to `b` the offsets `pos` with the numbers `L` have been tried, in that order; their scores are `w`. -/
structure Improved (pos : ℕ × ℕ × ℕ → Pose2d) (w : ℕ × ℕ × ℕ → Fl) (L : List (ℕ × ℕ × ℕ)) (a b : Matcher.SearchAcc) : Prop where
  le : b.best = a.best ∨ b.best < a.best
  least : ∀ t ∈ L, ¬ (w t < b.best)
  src : (b.best = a.best ∧ b.pose = a.pose) ∨ (b.best < a.best ∧ ∃ l1 t l2, L = l1 ++ t :: l2 ∧ b.pose = pos t ∧
    b.best = w t ∧ ∀ t' ∈ l1, w t' ≠ w t)

theorem lt_irrefl' (a : Fl) : ¬ (a < a) := by
  intro h
  cases a with
  | nan => exact absurd h (Fl.nan_lt _)
  | pinf => exact h.elim
  | ninf => exact h.elim
  | fin x => exact absurd h (lt_irrefl x)

theorem Improved.refl (pos : ℕ × ℕ × ℕ → Pose2d) (w : ℕ × ℕ × ℕ → Fl) (a : Matcher.SearchAcc) : Improved pos w [] a a :=
  ⟨Or.inl rfl, fun _ h => (List.not_mem_nil h).elim, Or.inl ⟨rfl, rfl⟩⟩

theorem Improved.trans {pos : ℕ × ℕ × ℕ → Pose2d} {w : ℕ × ℕ × ℕ → Fl} {L M : List (ℕ × ℕ × ℕ)} {a b c : Matcher.SearchAcc}
    (h1 : Improved pos w L a b) (h2 : Improved pos w M b c) : Improved pos w (L ++ M) a c := by
  have hle : ∀ t ∈ L, ¬ (w t < c.best) := by
    intro t ht hlt
    rcases h2.le with e | e
    · rw [e] at hlt; exact h1.least t ht hlt
    · exact h1.least t ht (Fl.lt_trans' hlt e)
  refine ⟨?_, ?_, ?_⟩
  · rcases h1.le with e1 | e1 <;> rcases h2.le with e2 | e2
    · exact Or.inl (e2.trans e1)
    · rw [e1] at e2; exact Or.inr e2
    · rw [e2]; exact Or.inr e1
    · exact Or.inr (Fl.lt_trans' e2 e1)
  · intro t ht
    rcases List.mem_append.mp ht with h | h
    · exact hle t h
    · exact h2.least t h
  · rcases h2.src with ⟨e1, e2⟩ | ⟨e1, l1, t, l2, rfl, e2, e3, e4⟩
    · rcases h1.src with ⟨f1, f2⟩ | ⟨f1, l1, t, l2, rfl, f2, f3, f4⟩
      · exact Or.inl ⟨e1.trans f1, e2.trans f2⟩
      · right
        rw [e1, e2]
        exact ⟨f1, l1, t, l2 ++ M, by simp, f2, f3, f4⟩
    · right
      refine ⟨?_, L ++ l1, t, l2, by simp, e2, e3, ?_⟩
      · rcases h1.le with f | f
        · rw [← f]; exact e1
        · exact Fl.lt_trans' e1 f
      · intro t' ht'
        rcases List.mem_append.mp ht' with h | h
        · intro hw
          have := h1.least t' h
          rw [hw, ← e3] at this
          exact this e1
        · exact e4 t' h

theorem improved_update {pos : ℕ × ℕ × ℕ → Pose2d} {w : ℕ × ℕ × ℕ → Fl} {t : ℕ × ℕ × ℕ} {dth dx dy : ℝ} {v : Fl}
    (hp : pos t = ⟨dx, dy, dth⟩) (hw : w t = v) (a : Matcher.SearchAcc) :
    Improved pos w [t] a (update rd dth dx dy v a) := by
  by_cases h : v < a.best
  · have e1 : (update rd dth dx dy v a).best = v := if_pos h
    have e2 : (update rd dth dx dy v a).pose = ⟨dx, dy, dth⟩ := if_pos h
    refine ⟨Or.inr (by rw [e1]; exact h), ?_, Or.inr ⟨by rw [e1]; exact h, [], t, [], rfl, e2.trans hp.symm, e1.trans hw.symm, ?_⟩⟩
    · intro t' ht'
      rw [List.mem_singleton.mp ht', e1, hw]
      exact lt_irrefl' _
    · intro t' ht'; cases ht'
  · have e1 : (update rd dth dx dy v a).best = a.best := if_neg h
    have e2 : (update rd dth dx dy v a).pose = a.pose := if_neg h
    refine ⟨Or.inl e1, ?_, Or.inl ⟨e1, e2⟩⟩
    intro t' ht'
    rw [List.mem_singleton.mp ht', e1, hw]
    exact h

theorem foldlM_improved {pos : ℕ × ℕ × ℕ → Pose2d} {w : ℕ × ℕ × ℕ → Fl} {β : Type}
    (f : Matcher.SearchAcc → β → Res Matcher.SearchAcc) (C : β → List (ℕ × ℕ × ℕ)) (l : List β)
    (hf : ∀ x ∈ l, ∀ a b, f a x = .ok b → Improved pos w (C x) a b) (a b : Matcher.SearchAcc) (h : l.foldlM f a = .ok b) :
    Improved pos w (l.flatMap C) a b := by
  induction l generalizing a with
  | nil =>
    cases h
    exact Improved.refl pos w _
  | cons x l ih =>
    rw [List.foldlM_cons] at h
    cases h1 : f a x with
    | error e => rw [h1] at h; cases h
    | ok a' =>
      rw [h1] at h
      rw [List.flatMap_cons]
      exact (hf x List.mem_cons_self a a' h1).trans (ih (fun y hy => hf y (List.mem_cons_of_mem _ hy)) a' h)

theorem foldlM_each {α β : Type} (f : α → β → Res α) (l : List β) (a b : α) (h : l.foldlM f a = .ok b) :
    ∀ x ∈ l, ∃ a' b', f a' x = .ok b' := by
  induction l generalizing a with
  | nil => intro x hx; cases hx
  | cons y l ih =>
    rw [List.foldlM_cons] at h
    cases h1 : f a y with
    | error e => rw [h1] at h; cases h
    | ok a' =>
      rw [h1] at h
      intro x hx
      rcases List.mem_cons.mp hx with rfl | hx
      · exact ⟨a, a', h1⟩
      · exact ih a' h x hx

/-! ### The values of the loops -/

theorem visits_mono {size res : ℝ} {n m : ℕ} (h : m ≤ n) (hv : Visits rd size res n) : Visits rd size res m :=
  fun i hi => hv i (hi.trans h)

theorem searchVals_eq_map {size res : ℝ} {l : List ℝ} (h : searchVals rd size res = .ok l) :
    ∃ N, l = (List.range N).map (searchVal rd size res) ∧ ∀ n, n < N ↔ Visits rd size res n := by
  classical
  unfold searchVals at h
  split at h
  · rename_i hex
    cases h
    refine ⟨_, rfl, fun n => ⟨fun hn => by have := Nat.find_min hex hn; tauto, fun hv => ?_⟩⟩
    by_contra hc
    push Not at hc
    exact Nat.find_spec hex (visits_mono hc hv)
  · cases h

theorem searchVals_ok {size res : ℝ} {n : ℕ} (h : ¬ Visits rd size res n) : ∃ l, searchVals rd size res = .ok l := by
  unfold searchVals
  rw [dif_pos ⟨n, h⟩]
  exact ⟨_, rfl⟩

/-! ### The search -/

/-- The numbers of the offsets, in the order of the loops. -/
def triples (A B : ℕ) : List (ℕ × ℕ × ℕ) :=
  (List.range A).flatMap fun i => (List.range B).flatMap fun j => (List.range B).flatMap fun k => [(i, j, k)]

theorem mem_triples {A B : ℕ} {t : ℕ × ℕ × ℕ} : t ∈ triples A B ↔ t.1 < A ∧ t.2.1 < B ∧ t.2.2 < B := by
  obtain ⟨i, j, k⟩ := t
  simp only [triples, List.mem_flatMap, List.mem_range, List.mem_singleton, Prod.mk.injEq]
  constructor
  · rintro ⟨i', hi, j', hj, k', hk, rfl, rfl, rfl⟩
    exact ⟨hi, hj, hk⟩
  · rintro ⟨hi, hj, hk⟩
    exact ⟨i, hi, j, hj, k, hk, rfl, rfl, rfl⟩

theorem triples_sorted (A B : ℕ) : (triples A B).Pairwise Before := by
  unfold triples
  rw [List.pairwise_flatMap]
  refine ⟨fun i _ => ?_, ?_⟩
  · rw [List.pairwise_flatMap]
    refine ⟨fun j _ => ?_, ?_⟩
    · rw [List.pairwise_flatMap]
      refine ⟨fun k _ => List.pairwise_singleton _ _, ?_⟩
      refine List.Pairwise.imp ?_ List.pairwise_lt_range
      intro k k' hk x hx y hy
      rw [List.mem_singleton.mp hx, List.mem_singleton.mp hy]
      exact Or.inr ⟨rfl, Or.inr ⟨rfl, hk⟩⟩
    · refine List.Pairwise.imp ?_ List.pairwise_lt_range
      intro j j' hj x hx y hy
      simp only [List.mem_flatMap, List.mem_singleton] at hx hy
      obtain ⟨k, -, rfl⟩ := hx
      obtain ⟨k', -, rfl⟩ := hy
      exact Or.inr ⟨rfl, Or.inl hj⟩
  · refine List.Pairwise.imp ?_ List.pairwise_lt_range
    intro i i' hi x hx y hy
    simp only [List.mem_flatMap, List.mem_singleton] at hx hy
    obtain ⟨j, -, k, -, rfl⟩ := hx
    obtain ⟨j', -, k', -, rfl⟩ := hy
    exact Or.inl hi

theorem before_asymm {t t' : ℕ × ℕ × ℕ} (h : Before t t') : ¬ Before t' t := by
  unfold Before at *
  omega

/-- The value of a computation that succeeds. -/
def valueOf : Res Fl → Fl
  | .ok v => v
  | .error _ => .fin 0

theorem search_improved {mt : Matcher} {g : NdtGrid} {points : List Point} {m : ℕ} {pose : Pose2d} {a b : Matcher.SearchAcc}
    (h : search rd co si mt g points m pose a = .ok b) :
    (∀ i j k, Tried rd mt i j k → ∃ v, likelihoodAt rd co si g points m pose (offsetOf rd mt i j k) = .ok v) ∧
    ∃ A B, (∀ i, i < A ↔ Visits rd mt.angularSize mt.angularRes i) ∧
      (0 < A → ∀ j, j < B ↔ Visits rd mt.linearSize mt.linearRes j) ∧
      Improved (fun t => offsetOf rd mt t.1 t.2.1 t.2.2)
        (fun t => -valueOf (likelihoodAt rd co si g points m pose (offsetOf rd mt t.1 t.2.1 t.2.2))) (triples A B) a b := by
  unfold search at h
  cases h1 : searchVals rd mt.angularSize mt.angularRes with
  | error e => rw [h1] at h; cases h
  | ok dths =>
    obtain ⟨A, rfl, hA⟩ := searchVals_eq_map h1
    rw [h1] at h
    simp only [Res.ok_bind] at h
    rw [List.foldlM_map] at h
    cases h2 : searchVals rd mt.linearSize mt.linearRes with
    | error e =>
      rcases Nat.eq_zero_or_pos A with hA0 | hA0
      · subst hA0
        cases h
        refine ⟨fun i j k t => absurd ((hA i).mpr t.1) (by omega), 0, 0, hA, fun h => absurd h (by omega), ?_⟩
        exact Improved.refl _ _ _
      · obtain ⟨a1, b1, e1⟩ := foldlM_each _ _ _ _ h 0 (List.mem_range.mpr hA0)
        rw [h2] at e1
        cases ho : outerPoints rd co si points m pose (searchVal rd mt.angularSize mt.angularRes 0) with
        | error e => rw [ho] at e1; cases e1
        | ok outer => rw [ho] at e1; cases e1
    | ok ds =>
      obtain ⟨B, rfl, hB⟩ := searchVals_eq_map h2
      rw [h2] at h
      simp only [Res.ok_bind, List.foldlM_map] at h
      constructor
      · rintro i j k ⟨t1, t2, t3⟩
        obtain ⟨a1, b1, e1⟩ := foldlM_each _ _ _ _ h i (List.mem_range.mpr ((hA i).mpr t1))
        cases ho : outerPoints rd co si points m pose (searchVal rd mt.angularSize mt.angularRes i) with
        | error e => rw [ho] at e1; cases e1
        | ok outer =>
          rw [ho] at e1
          simp only [Res.ok_bind] at e1
          obtain ⟨a2, b2, e2⟩ := foldlM_each _ _ _ _ e1 j (List.mem_range.mpr ((hB j).mpr t2))
          obtain ⟨a3, b3, e3⟩ := foldlM_each _ _ _ _ e2 k (List.mem_range.mpr ((hB k).mpr t3))
          cases hv : shiftedScore rd g outer (searchVal rd mt.linearSize mt.linearRes j)
              (searchVal rd mt.linearSize mt.linearRes k) with
          | error e => rw [hv] at e3; cases e3
          | ok v =>
            refine ⟨v, ?_⟩
            unfold likelihoodAt offsetOf
            simp only [ho, Res.ok_bind]
            exact hv
      · refine ⟨A, B, hA, fun _ => hB, ?_⟩
        unfold triples
        refine foldlM_improved _ _ _ ?_ a b h
        intro i _ a b hab
        cases ho : outerPoints rd co si points m pose (searchVal rd mt.angularSize mt.angularRes i) with
        | error e => rw [ho] at hab; cases hab
        | ok outer =>
          rw [ho] at hab
          simp only [Res.ok_bind] at hab
          refine foldlM_improved _ _ _ ?_ a b hab
          intro j _ a b hab
          refine foldlM_improved _ _ _ ?_ a b hab
          intro k _ a b hab
          cases hv : shiftedScore rd g outer (searchVal rd mt.linearSize mt.linearRes j)
              (searchVal rd mt.linearSize mt.linearRes k) with
          | error e => rw [hv] at hab; cases hab
          | ok v =>
            rw [hv] at hab
            cases hab
            refine improved_update rfl ?_ a
            unfold likelihoodAt offsetOf
            simp only [ho, Res.ok_bind, hv]
            rfl

theorem matchScan_ok {mt : Matcher} {g : NdtGrid} (hg : mt.ndt = some g) {scan : Scan} {pose : Pose2d} {cov : Mat3F}
    {r : Matcher.MatchResult} (h : matchScan rd co si mt scan pose cov = .ok r) :
    ∃ a, search rd co si mt g scan.points (min mt.laserMaxBeams scan.points.length) scan.pose
        { best := .fin 0, pose, k := fun _ _ => .fin 0, u := fun _ => .fin 0, s := .fin 0 } = .ok a ∧
      r.score = Fl.rounded rd (a.best / .fin (rd (min mt.laserMaxBeams scan.points.length : ℕ))) ∧ r.pose = a.pose := by
  unfold matchScan at h
  rw [hg] at h
  simp only at h
  cases hs : search rd co si mt g scan.getPoints (min mt.laserMaxBeams scan.getPoints.length) scan.getPose
        { best := .fin 0, pose, k := fun _ _ => .fin 0, u := fun _ => .fin 0, s := .fin 0 } with
  | error e => rw [hs] at h; cases h
  | ok a =>
    rw [hs] at h
    cases h
    exact ⟨a, hs, rfl, rfl⟩

/-! ### The squares of a map -/

/-- Everything but the contents of the squares. -/
structure SameFrame (g g' : NdtGrid) : Prop where
  cellSize : g'.cellSize = g.cellSize
  sizeX : g'.sizeX = g.sizeX
  sizeY : g'.sizeY = g.sizeY
  originX : g'.originX = g.originX
  originY : g'.originY = g.originY

theorem SameFrame.getIndex {g g' : NdtGrid} (h : SameFrame g g') (x y : ℝ) : getIndex rd g' x y = getIndex rd g x y := by
  unfold Rounded.getIndex
  rw [h.cellSize, h.sizeX, h.sizeY, h.originX, h.originY]

theorem SameFrame.trans {g g' g'' : NdtGrid} (h : SameFrame g g') (h' : SameFrame g' g'') : SameFrame g g'' :=
  ⟨h'.1.trans h.1, h'.2.trans h.2, h'.3.trans h.3, h'.4.trans h.4, h'.5.trans h.5⟩

theorem addMapPoint_cells {g g' : NdtGrid} {p : Point} (h : addMapPoint rd g p = .ok g') :
    SameFrame g g' ∧ ∀ i : ℕ, g'.cells[i]? = (g.cells[i]?).map fun c =>
      if getIndex rd g p.x p.y = .ok (i : ℤ) then addPoint rd c p else c := by
  unfold addMapPoint at h
  cases hi : getIndex rd g p.x p.y with
  | error e => rw [hi] at h; cases h
  | ok k =>
    rw [hi] at h
    simp only [Res.ok_bind] at h
    split at h
    · rename_i h0
      split at h
      · cases h
        refine ⟨⟨rfl, rfl, rfl, rfl, rfl⟩, fun i => ?_⟩
        rw [List.getElem?_modify]
        have e : ((.ok k : Res ℤ) = .ok (i : ℤ)) ↔ k.toNat = i := by
          rw [Except.ok.injEq]
          omega
        simp only [e]
        rfl
      · cases h
    · rename_i h0
      cases h
      refine ⟨⟨rfl, rfl, rfl, rfl, rfl⟩, fun i => ?_⟩
      have : ∀ c : Cell, (if (.ok k : Res ℤ) = .ok (i : ℤ) then addPoint rd c p else c) = c := by
        intro c
        refine if_neg fun hh => h0 ?_
        rw [Except.ok.injEq] at hh
        omega
      simp only [this]
      simp

theorem addMapPoints_cells {ps : List Point} {g g' : NdtGrid} (h : ps.foldlM (addMapPoint rd) g = .ok g') :
    SameFrame g g' ∧ ∀ i : ℕ, g'.cells[i]? = (g.cells[i]?).map fun c =>
      (ps.filter fun p => decide (getIndex rd g p.x p.y = .ok (i : ℤ))).foldl (addPoint rd) c := by
  induction ps generalizing g with
  | nil =>
    cases h
    exact ⟨⟨rfl, rfl, rfl, rfl, rfl⟩, fun i => by simp⟩
  | cons p ps ih =>
    rw [List.foldlM_cons] at h
    cases h1 : addMapPoint rd g p with
    | error e => rw [h1] at h; cases h
    | ok g1 =>
      rw [h1] at h
      obtain ⟨f1, c1⟩ := addMapPoint_cells h1
      obtain ⟨f2, c2⟩ := ih h
      refine ⟨f1.trans f2, fun i => ?_⟩
      rw [c2, c1, Option.map_map]
      simp only [f1.getIndex]
      by_cases hp : getIndex rd g p.x p.y = .ok (i : ℤ)
      · simp [hp, Function.comp_def]
      · simp [hp, Function.comp_def]

theorem addScans_fold {scans : List Scan} {g : NdtGrid} :
    scans.foldlM (addScan rd co si) g =
      (scans.flatMap fun s => s.points.map (mapPoint rd co si s.pose)).foldlM (addMapPoint rd) g := by
  induction scans generalizing g with
  | nil => rfl
  | cons s scans ih =>
    rw [List.foldlM_cons, List.flatMap_cons, List.foldlM_append, List.foldlM_map]
    unfold addScan
    refine congrArg _ ?_
    funext g'
    exact ih

/-- After `addScans` every square is the cell of the points that fall into it. -/
theorem addScans_cells {mt mt' : Matcher} {scans : List Scan} (h : addScans rd co si es mt scans = .ok mt') :
    ∃ g, mt' = { mt with ndt := some g } ∧ g.cellSize = mt.resolution ∧
      ∀ (i : ℕ) (c : Cell), g.cells[i]? = some c → c = cellOf rd es (pointsIn rd co si g scans i) := by
  unfold addScans at h
  cases h0 : mapGrid rd mt.resolution mt.rangeMax scans with
  | error e => rw [h0] at h; cases h
  | ok g0 =>
    rw [h0] at h
    simp only [Res.ok_bind] at h
    cases h1 : scans.foldlM (addScan rd co si) g0 with
    | error e => rw [h1] at h; cases h
    | ok g1 =>
      rw [h1] at h
      simp only [Res.ok_bind] at h
      cases h
      rw [addScans_fold] at h1
      obtain ⟨f, c1⟩ := addMapPoints_cells h1
      obtain ⟨hc, hnew⟩ : g0.cellSize = mt.resolution ∧ ∀ (i : ℕ) (c : Cell), g0.cells[i]? = some c → c = Cell.new := by
        unfold mapGrid newGrid at h0
        simp only at h0
        generalize toU64F (Fl.rounded rd (Fl.rounded rd _ + Fl.fin 1)) = a at h0
        cases a with
        | error e => cases h0
        | ok sx =>
          simp only [Res.ok_bind] at h0
          generalize toU64F (Fl.rounded rd (Fl.rounded rd _ + Fl.fin 1)) = b at h0
          cases b with
          | error e => cases h0
          | ok sy =>
            cases h0
            refine ⟨rfl, fun i c hc => ?_⟩
            rw [List.getElem?_replicate] at hc
            split at hc
            · cases hc; rfl
            · cases hc
      refine ⟨_, rfl, f.cellSize.trans hc, ?_⟩
      intro i c hic
      have f2 : SameFrame g1 (computeAll rd es g1) := ⟨rfl, rfl, rfl, rfl, rfl⟩
      unfold computeAll at hic
      simp only [List.getElem?_map, c1] at hic
      cases hg : g0.cells[i]? with
      | none => rw [hg] at hic; cases hic
      | some c0 =>
        rw [hg, hnew i c0 hg] at hic
        simp only [Option.map_some, Option.some.injEq] at hic
        rw [← hic]
        unfold cellOf pointsIn
        simp only [(f.trans f2).getIndex]

/-! ### Scores -/

/-- A number from zero to `n`. -/
def Upto (n : ℝ) (v : Fl) : Prop := ∃ x, v = .fin x ∧ 0 ≤ x ∧ x ≤ n

theorem likelihoodPoints_upto (hr : RoundsToNearest rd) {g : NdtGrid} {ps : List Point} {v : Fl}
    (hg : ∀ p v, likelihood rd g p = .ok v → Upto 1 v) (hn : ps.length < 2 ^ 53) (h : likelihoodPoints rd g ps = .ok v) :
    Upto ps.length v := by
  have key : ∀ (ps : List Point) (n : ℕ) (a : Fl), n + ps.length < 2 ^ 53 → Upto n a →
      ps.foldlM (fun sum p => do let w ← likelihood rd g p; (pure (Fl.rounded rd (sum + w)) : Res Fl)) a = .ok v →
      Upto (n + ps.length : ℕ) v := by
    intro ps
    induction ps with
    | nil =>
      intro n a _ ha h
      cases h
      simpa using ha
    | cons p ps ih =>
      intro n a hn ha h
      rw [List.foldlM_cons] at h
      cases h1 : likelihood rd g p with
      | error e => rw [h1] at h; cases h
      | ok w =>
        rw [h1] at h
        simp only [Res.ok_bind, Res.pure_eq] at h
        rw [List.length_cons] at hn ⊢
        obtain ⟨x, rfl, x0, x1⟩ := ha
        obtain ⟨y, rfl, y0, y1⟩ := hg p w h1
        have := ih (n + 1) _ (by omega) ⟨rd (x + y), rfl, hr.nonneg (by linarith),
          hr.le_of_le (isDouble_nat (by omega)) (by push_cast; linarith)⟩ h
        rwa [Nat.add_right_comm, Nat.add_assoc] at this
  have := key ps 0 (.fin 0) (by omega) ⟨0, rfl, le_rfl, by simp⟩ h
  simpa using this

theorem mapM_length {α β : Type} (f : α → Res β) (l : List α) : ∀ {r : List β}, l.mapM f = .ok r → r.length = l.length := by
  induction l with
  | nil => intro r h; cases h; rfl
  | cons a l ih =>
    intro r h
    rw [List.mapM_cons] at h
    cases h1 : f a with
    | error e => rw [h1] at h; cases h
    | ok b =>
      rw [h1] at h
      simp only [Res.ok_bind] at h
      cases h2 : l.mapM f with
      | error e => rw [h2] at h; cases h
      | ok r' =>
        rw [h2] at h
        cases h
        simp [ih h2]

theorem likelihoodAt_upto (hr : RoundsToNearest rd) {g : NdtGrid} {points : List Point} {m : ℕ} {pose o : Pose2d} {v : Fl}
    (hg : ∀ p v, likelihood rd g p = .ok v → Upto 1 v) (hn : m < 2 ^ 53)
    (h : likelihoodAt rd co si g points m pose o = .ok v) : Upto m v := by
  unfold likelihoodAt at h
  cases ho : outerPoints rd co si points m pose o.theta with
  | error e => rw [ho] at h; cases h
  | ok outer =>
    rw [ho] at h
    simp only [Res.ok_bind] at h
    have hl : outer.length = m := by
      have := mapM_length _ _ ho
      simpa using this
    have := likelihoodPoints_upto hr hg (by simpa [hl] using hn) h
    simpa [hl] using this

theorem addMapPoints_ok {ps : List Point} {g : NdtGrid}
    (h : ∀ p ∈ ps, ∃ i : ℤ, getIndex rd g p.x p.y = .ok i ∧ (0 ≤ i → i.toNat < g.cells.length)) :
    ∃ g', ps.foldlM (addMapPoint rd) g = .ok g' := by
  induction ps generalizing g with
  | nil => exact ⟨g, rfl⟩
  | cons p ps ih =>
    obtain ⟨i, hi, hb⟩ := h p List.mem_cons_self
    have h1 : ∃ g1, addMapPoint rd g p = .ok g1 ∧ g1.cells.length = g.cells.length := by
      unfold addMapPoint
      rw [hi]
      simp only [Res.ok_bind]
      by_cases h0 : 0 ≤ i
      · rw [if_pos h0, if_pos (hb h0)]
        exact ⟨_, rfl, by simp⟩
      · rw [if_neg h0]
        exact ⟨_, rfl, rfl⟩
    obtain ⟨g1, h1, hl⟩ := h1
    rw [List.foldlM_cons, h1, Res.ok_bind]
    refine ih fun q hq => ?_
    obtain ⟨i, hi, hb⟩ := h q (List.mem_cons_of_mem _ hq)
    exact ⟨i, by rw [(addMapPoint_cells h1).1.getIndex]; exact hi, by rw [hl]; exact hb⟩

theorem axis_bound (hr : RoundsToNearest rd) {x o c : ℝ} {k : ℕ} (hc : 0 < c) (hc2 : c ≤ 2 ^ 30) (ho : |o| ≤ 2 ^ 60) (hox : o ≤ x)
    (h : toU32F (Fl.rounded rd (.fin (rd (x - o)) / .fin c)) = .ok k) : |x| ≤ 2 ^ 100 := by
  rw [Fl.fin_div hc.ne', Fl.rounded_fin] at h
  change toU32 (rd (rd (x - o) / c)) = .ok k at h
  have hlt : rd (rd (x - o) / c) < 2 ^ 32 := by
    unfold toU32 at h
    split at h
    · rename_i hh
      have h0 : 0 ≤ rd (rd (x - o) / c) := hr.nonneg (div_nonneg (hr.nonneg (by linarith)) hc.le)
      rw [truncZ_of_nonneg h0] at hh
      have h2 : ⌊rd (rd (x - o) / c)⌋ < (2 ^ 32 : ℤ) := hh.2
      have := Int.floor_lt.mp h2
      norm_num at this ⊢
      exact this
    · cases h
  have h1 : rd (x - o) / c < 2 ^ 32 := by
    by_contra hh
    push Not at hh
    linarith [hr.ge_of_ge (isDouble_two_pow 32) hh]
  have h2 : rd (x - o) < 2 ^ 62 := by
    rw [div_lt_iff₀ hc] at h1
    refine h1.trans_le ?_
    calc (2 : ℝ) ^ 32 * c ≤ 2 ^ 32 * 2 ^ 30 := by gcongr
      _ = 2 ^ 62 := by norm_num
  have h3 : x - o < 2 ^ 62 := by
    by_contra hh
    push Not at hh
    linarith [hr.ge_of_ge (isDouble_two_pow 62) hh]
  obtain ⟨o1, o2⟩ := abs_le.mp ho
  rw [abs_le]
  constructor <;> norm_num at * <;> linarith

/-- The likelihood of a point is a number from zero to one if that holds in every square for the points near it. -/
theorem likelihood_upto (hr : RoundsToNearest rd) {g : NdtGrid} (hc : 0 < g.cellSize) (hc2 : g.cellSize ≤ 2 ^ 30)
    (hx : |g.originX| ≤ 2 ^ 60) (hy : |g.originY| ≤ 2 ^ 60)
    (hg : ∀ (i : ℕ) (c : Cell), g.cells[i]? = some c → ∀ p : Point, |p.x| ≤ 2 ^ 100 → |p.y| ≤ 2 ^ 100 → Upto 1 (score rd c p))
    (p : Point) (v : Fl) (h : likelihood rd g p = .ok v) : Upto 1 v := by
  unfold likelihood at h
  cases hi : getIndex rd g p.x p.y with
  | error e => rw [hi] at h; cases h
  | ok i =>
    rw [hi] at h
    simp only [Res.ok_bind] at h
    split at h
    · rename_i h0
      cases hcell : g.cells[i.toNat]? with
      | none => rw [hcell] at h; cases h
      | some c =>
        rw [hcell] at h
        cases h
        unfold getIndex at hi
        split at hi
        · cases hi; omega
        · rename_i hin
          push Not at hin
          cases e1 : toU32F (Fl.rounded rd (.fin (rd (p.x - g.originX)) / .fin g.cellSize)) with
          | error e => rw [e1] at hi; cases hi
          | ok gx =>
            cases e2 : toU32F (Fl.rounded rd (.fin (rd (p.y - g.originY)) / .fin g.cellSize)) with
            | error e => rw [e1, e2] at hi; cases hi
            | ok gy => exact hg _ c hcell p (axis_bound hr hc hc2 hx hin.1 e1) (axis_bound hr hc hc2 hy hin.2 e2)
    · cases h
      exact ⟨0, rfl, le_rfl, zero_le_one⟩

end

end Ndt.Rounded
