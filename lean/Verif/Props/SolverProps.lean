import Verif.Props.CostProps

/-! # C35-C37: the incremental pose-graph optimisation -/

namespace Ndt

noncomputable section

open Spec

namespace Solver

theorem setNodes_append (n : ℤ → Option Pose2d) (l : List Scan) (s : Scan) :
    setNodes n (l ++ [s]) = fun k => if k = key s then some s.getPose else setNodes n l k := by
  unfold setNodes
  rw [List.foldl_append]
  rfl

/-- A key that no scan has is left alone. -/
theorem setNodes_other (n : ℤ → Option Pose2d) (l : List Scan) (k : ℤ) (h : ∀ s ∈ l, key s ≠ k) :
    setNodes n l k = n k := by
  induction l using List.reverseRecOn with
  | nil => rfl
  | append_singleton l s ih =>
    rw [setNodes_append]
    simp only
    rw [if_neg (fun e => h s (by simp) e.symm)]
    exact ih fun s' hs' => h s' (by simp [hs'])

/-- Every scan's key is present. -/
theorem setNodes_isSome (n : ℤ → Option Pose2d) (l : List Scan) {s : Scan} (hs : s ∈ l) :
    ∃ p, setNodes n l (key s) = some p := by
  induction l using List.reverseRecOn with
  | nil => simp at hs
  | append_singleton l s' ih =>
    rw [setNodes_append]
    by_cases e : key s = key s'
    · exact ⟨_, by simp only; rw [if_pos e]⟩
    · have hl : s ∈ l := by
        rcases List.mem_append.mp hs with h | h
        · exact h
        · simp at h; subst h; exact absurd rfl e
      obtain ⟨p, hp⟩ := ih hl
      exact ⟨p, by simp only; rw [if_neg e]; exact hp⟩

/-- With distinct keys every node holds the pose of its scan. -/
theorem setNodes_pose (n : ℤ → Option Pose2d) (l : List Scan) (hd : (l.map key).Nodup) {s : Scan} (hs : s ∈ l) :
    setNodes n l (key s) = some s.pose := by
  induction l using List.reverseRecOn with
  | nil => simp at hs
  | append_singleton l s' ih =>
    rw [setNodes_append]
    rw [List.map_append, List.nodup_append] at hd
    rcases List.mem_append.mp hs with h | h
    · have hne : key s ≠ key s' := hd.2.2 _ (List.mem_map.mpr ⟨s, h, rfl⟩) _ (by simp)
      simp only
      rw [if_neg hne]
      exact ih hd.1 h
    · simp at h
      subst h
      simp [Scan.getPose]

/-- The block a constraint becomes, looked up in the scans. -/
def blockOf (scans : List Scan) (c : Constraint) : Option ResidualBlock :=
  match scans[c.begin_]?, scans[c.end_]? with
  | some b, some e => some ⟨c.transform, matrixL c.information, key b, key e⟩
  | _, _ => none

theorem addConstraint_ok {s s' : Solver} {scans : List Scan} {c : Constraint}
    (h : s.addConstraint scans c = .ok s') :
    ∃ b, blockOf scans c = some b ∧ s' = { s with blocks := s.blocks ++ [b] } := by
  unfold addConstraint at h
  unfold blockOf
  split at h
  · rename_i b e hb he
    rw [hb, he]
    split at h
    · cases h
    · cases h
      exact ⟨_, rfl, rfl⟩
  · cases h

theorem addAll_ok {scans : List Scan} (cs : List Constraint) : ∀ {s s' : Solver},
    cs.foldlM (fun s c => addConstraint s scans c) s = .ok s' →
    ∃ bs, cs.map (blockOf scans) = bs.map some ∧ s' = { s with blocks := s.blocks ++ bs } := by
  induction cs with
  | nil =>
    intro s s' h
    cases h
    exact ⟨[], rfl, by simp⟩
  | cons c cs ih =>
    intro s s' h
    rw [List.foldlM_cons] at h
    cases h1 : s.addConstraint scans c with
    | error e => rw [h1] at h; cases h
    | ok s1 =>
      rw [h1] at h
      obtain ⟨b, hb, rfl⟩ := addConstraint_ok h1
      obtain ⟨bs, hbs, rfl⟩ := ih h
      exact ⟨b :: bs, by simp [hb, hbs], by simp⟩

theorem prepare_ok {s s' : Solver} {cs : List Constraint} {scans : List Scan} {first : Scan}
    (h : s.prepare cs scans first = .ok s') :
    ∃ bs, (cs.drop s.numConstraints).map (blockOf scans) = bs.map some ∧
      s'.nodes = setNodes s.nodes scans ∧ s'.blocks = s.blocks ++ bs ∧
      s'.constants = key first :: s.constants ∧ s'.numConstraints = cs.length ∧ s'.inProblem (key first) := by
  unfold prepare at h
  simp only at h
  cases h1 : (cs.drop s.numConstraints).foldlM (fun s c => addConstraint s scans c)
      { s with nodes := setNodes s.nodes scans } with
  | error e => rw [h1] at h; cases h
  | ok s1 =>
    rw [h1] at h
    obtain ⟨bs, hbs, rfl⟩ := addAll_ok _ h1
    simp only [Res.ok_bind] at h
    split at h
    · rename_i hp
      cases h
      exact ⟨bs, hbs, rfl, rfl, rfl, rfl, hp⟩
    · cases h

end Solver

open Solver

/-! ### C35 -/

/-- **C35** If `optimize` returns false no scan has changed at all. -/
theorem c35_failure_changes_nothing (ceres : Solver → Outcome) {s s' : Solver} {cs : List Constraint}
    {scans scans' : List Scan} (h : s.optimize ceres cs scans = .ok (false, s', scans')) : scans' = scans := by
  unfold optimize at h
  split at h
  · cases h; rfl
  · cases h1 : s.prepare cs _ _ with
    | error e => rw [h1] at h; cases h
    | ok s1 =>
      rw [h1] at h
      simp only [Res.ok_bind] at h
      split at h
      · cases h
      · cases h; rfl

/-- **C35** If `optimize` returns true then the solver's solution was usable and every scan has the pose that the
solver holds for its id; ids and points are kept. -/
theorem c35_success_takes_solver_poses (ceres : Solver → Outcome) {s s' : Solver} {cs : List Constraint}
    {scans scans' : List Scan} (h : s.optimize ceres cs scans = .ok (true, s', scans')) :
    scans'.length = scans.length ∧
    ∀ (i : ℕ) (a b : Scan), scans[i]? = some a → scans'[i]? = some b →
      b.id = a.id ∧ b.points = a.points ∧ s'.nodes (wrapI32 a.id) = some b.pose := by
  unfold optimize at h
  split at h
  · cases h
  · rename_i first rest
    cases h1 : s.prepare cs (first :: rest) first with
    | error e => rw [h1] at h; cases h
    | ok s1 =>
      rw [h1] at h
      simp only [Res.ok_bind] at h
      split at h
      · cases h
        obtain ⟨bs, -, hn, -⟩ := prepare_ok h1
        refine ⟨by simp [writeBack], ?_⟩
        intro i a b ha hb
        have hmem : a ∈ first :: rest := List.mem_of_getElem? ha
        obtain ⟨p, hp⟩ := setNodes_isSome s.nodes _ hmem
        have hk : (s1.solved (ceres s1)).nodes (key a) =
            some (if key a ∈ s1.constants ∨ ¬ s1.inProblem (key a) then p else (ceres s1).value (key a)) := by
          simp only [solved]
          rw [hn, hp]
          rfl
        simp only [writeBack, List.getElem?_map, ha, Option.map_some] at hb
        rw [hk] at hb
        injection hb with hb
        rw [← hb]
        exact ⟨rfl, rfl, hk⟩
      · cases h

/-! ### C36 -/

/-- A history of calls on a graph that only grows: constraints are appended, scans are appended and keep their
ids (their poses may change). -/
def GrowingCalls : List (List Constraint × List Scan) → Prop
  | [] => True
  | [_] => True
  | a :: b :: rest => (∃ extra, b.1 = a.1 ++ extra) ∧
      (∃ extra : List ℕ, b.2.map (·.id) = a.2.map (·.id) ++ extra) ∧ GrowingCalls (b :: rest)

/-- A fresh solver optimising again and again. -/
def optimizeAll (ceres : Solver → Outcome) (s : Solver) : List (List Constraint × List Scan) → Res Solver
  | [] => .ok s
  | (cs, scans) :: rest => do
      let r ← s.optimize ceres cs scans
      optimizeAll ceres r.2.1 rest

theorem blockOf_ids {a b : List Scan} {extra : List ℕ} (h : b.map (·.id) = a.map (·.id) ++ extra)
    {c : Constraint} {blk : ResidualBlock} (hb : blockOf a c = some blk) : blockOf b c = some blk := by
  have key' : ∀ (i : ℕ) (x : Scan), a[i]? = some x → ∃ y, b[i]? = some y ∧ key y = key x := by
    intro i x hx
    have h1 : (b.map (·.id))[i]? = some x.id := by
      rw [h]
      rw [List.getElem?_append_left (by
        rw [List.length_map]
        exact (List.getElem?_eq_some_iff.mp hx).1), List.getElem?_map, hx]
      rfl
    rw [List.getElem?_map] at h1
    cases hy : b[i]? with
    | none => rw [hy] at h1; cases h1
    | some y =>
      rw [hy] at h1
      injection h1 with h1
      refine ⟨y, rfl, ?_⟩
      unfold key Scan.getId
      have h1' : y.id = x.id := h1
      rw [h1']
  unfold blockOf at hb
  split at hb
  · rename_i x y hx hy
    obtain ⟨x', hx', ex⟩ := key' _ _ hx
    obtain ⟨y', hy', ey⟩ := key' _ _ hy
    unfold blockOf
    rw [hx', hy']
    simp only
    rw [ex, ey]
    exact hb
  · cases hb

/-- Invariant: the blocks are those of the constraints of the last call, and the count agrees. -/
def InSync (s : Solver) (cs : List Constraint) (scans : List Scan) : Prop :=
  cs.map (blockOf scans) = s.blocks.map some ∧ s.numConstraints = cs.length

theorem inSync_optimize (ceres : Solver → Outcome) {s s' : Solver} {cs extra : List Constraint} {a b b' : List Scan}
    {ids : List ℕ} {r : Bool} (hne : b ≠ []) (hids : b.map (·.id) = a.map (·.id) ++ ids) (hs : InSync s cs a)
    (h : s.optimize ceres (cs ++ extra) b = .ok (r, s', b')) : InSync s' (cs ++ extra) b := by
  unfold optimize at h
  split at h
  · exact absurd rfl hne
  · rename_i first rest
    cases h1 : s.prepare (cs ++ extra) (first :: rest) first with
    | error e => rw [h1] at h; cases h
    | ok s1 =>
      rw [h1] at h
      obtain ⟨bs, hbs, -, hblk, -, hnum, -⟩ := prepare_ok h1
      have hsync : InSync s1 (cs ++ extra) (first :: rest) := by
        refine ⟨?_, hnum⟩
        rw [hs.2, List.drop_left] at hbs
        rw [List.map_append, hbs, hblk, List.map_append]
        congr 1
        rw [← hs.1]
        apply List.map_congr_left
        intro c hc
        have : blockOf a c ∈ s.blocks.map some := by
          rw [← hs.1]; exact List.mem_map.mpr ⟨c, hc, rfl⟩
        obtain ⟨blk, -, hb⟩ := List.mem_map.mp this
        rw [← hb]
        exact blockOf_ids hids hb.symm
      simp only [Res.ok_bind] at h
      split at h
      · cases h; exact hsync
      · cases h; exact hsync

/-- **C36** After any sequence of `optimize` calls on a growing, non-empty graph (without undefined behaviour or
abort), the residual blocks of the problem are the constraints of the last call in order, each once, attached to the
nodes of the two scans it names and carrying its transform and the factor of its information. -/
theorem c36_each_constraint_once (ceres : Solver → Outcome) (calls : List (List Constraint × List Scan))
    (hgrow : GrowingCalls calls) (hne : ∀ c ∈ calls, c.2 ≠ []) {s : Solver}
    (h : optimizeAll ceres Solver.new calls = .ok s) {last : List Constraint × List Scan}
    (hlast : calls.getLast? = some last) :
    s.blocks.length = last.1.length ∧
    ∀ (i : ℕ) (c : Constraint), last.1[i]? = some c → ∃ a b : Scan,
      last.2[c.begin_]? = some a ∧ last.2[c.end_]? = some b ∧
      s.blocks[i]? = some ⟨c.transform, matrixL c.information, wrapI32 a.id, wrapI32 b.id⟩ := by
  -- reduce to the invariant
  suffices hs : InSync s last.1 last.2 by
    constructor
    · have := congrArg List.length hs.1
      simpa using this.symm
    · intro i c hc
      have h1 : (last.1.map (blockOf last.2))[i]? = some (blockOf last.2 c) := by
        rw [List.getElem?_map, hc]; rfl
      rw [hs.1, List.getElem?_map] at h1
      cases hb : s.blocks[i]? with
      | none => rw [hb] at h1; cases h1
      | some blk =>
        rw [hb] at h1
        injection h1 with h1
        have h2 := h1.symm
        unfold blockOf at h2
        split at h2
        · rename_i x y hx hy
          refine ⟨x, y, hx, hy, ?_⟩
          rw [← h2]; rfl
        · cases h2
  -- generalise over the starting state
  have gen : ∀ (calls : List (List Constraint × List Scan)) (s0 : Solver) (cs0 : List Constraint) (a0 : List Scan),
      InSync s0 cs0 a0 → GrowingCalls ((cs0, a0) :: calls) → (∀ c ∈ calls, c.2 ≠ []) →
      ∀ s, optimizeAll ceres s0 calls = .ok s → ∀ last, ((cs0, a0) :: calls).getLast? = some last →
      InSync s last.1 last.2 := by
    intro calls
    induction calls with
    | nil =>
      intro s0 cs0 a0 hsync _ _ s h last hl
      cases h
      simp at hl
      subst hl
      exact hsync
    | cons c calls ih =>
      intro s0 cs0 a0 hsync hg hne s h last hl
      obtain ⟨⟨extra, hex⟩, ⟨ids, hids⟩, hg'⟩ := hg
      unfold optimizeAll at h
      cases h1 : s0.optimize ceres c.1 c.2 with
      | error e => rw [show s0.optimize ceres c.1 c.2 = _ from h1] at h; cases h
      | ok r =>
        rw [show s0.optimize ceres c.1 c.2 = _ from h1] at h
        simp only [Res.ok_bind] at h
        have h1' := h1
        rw [hex] at h1'
        have hs' := inSync_optimize ceres (hne c (by simp)) hids hsync h1'
        rw [← hex] at hs'
        rw [List.getLast?_cons_cons] at hl
        exact ih r.2.1 c.1 c.2 hs' hg' (fun c hc => hne c (by simp [hc])) s h last hl
  cases calls with
  | nil => simp at hlast
  | cons c calls =>
    have hg : GrowingCalls (([], []) :: c :: calls) := ⟨⟨c.1, by simp⟩, ⟨_, by simp; rfl⟩, hgrow⟩
    exact gen (c :: calls) Solver.new [] [] ⟨rfl, rfl⟩ hg hne s h last (by rw [List.getLast?_cons_cons]; exact hlast)

/-! ### C37 -/

/-- **C37** The problem handed to the optimiser starts from the current pose of every scan (scans with distinct
keys). -/
theorem c37_optimises_from_current_poses {s s' : Solver} {cs : List Constraint} {scans : List Scan} {first : Scan}
    (hd : (scans.map fun x => wrapI32 x.id).Nodup) (h : s.prepare cs scans first = .ok s') :
    ∀ x ∈ scans, s'.nodes (wrapI32 x.id) = some x.pose := by
  intro x hx
  obtain ⟨bs, -, hn, -⟩ := prepare_ok h
  rw [hn]
  exact setNodes_pose s.nodes scans hd hx

/-- **C37** `optimize` never changes the first scan's pose (scans with distinct keys). -/
theorem c37_first_scan_fixed (ceres : Solver → Outcome) {s s' : Solver} {cs : List Constraint}
    {scans scans' : List Scan} {r : Bool} (hd : (scans.map fun x => wrapI32 x.id).Nodup)
    (h : s.optimize ceres cs scans = .ok (r, s', scans')) :
    (scans'[0]?).map (·.pose) = (scans[0]?).map (·.pose) := by
  cases r with
  | false => rw [c35_failure_changes_nothing ceres h]
  | true =>
    obtain ⟨hlen, hall⟩ := c35_success_takes_solver_poses ceres h
    unfold optimize at h
    split at h
    · cases h
    · rename_i first rest
      cases h1 : s.prepare cs (first :: rest) first with
      | error e => rw [h1] at h; cases h
      | ok s1 =>
        rw [h1] at h
        simp only [Res.ok_bind] at h
        split at h
        · cases h
          obtain ⟨bs, -, hn, -, hc, -⟩ := prepare_ok h1
          have hp := c37_optimises_from_current_poses hd h1 first (by simp)
          have h0 : ((s1.solved (ceres s1)).writeBack (first :: rest))[0]? =
              some (match (s1.solved (ceres s1)).nodes (key first) with
                | some p => first.setPose p
                | none => first) := by
            simp only [writeBack, List.map_cons, List.getElem?_cons_zero]
            cases (s1.solved (ceres s1)).nodes (key first) <;> rfl
          obtain ⟨-, -, hnode⟩ := hall 0 first _ (by simp) h0
          have hnode' : (s1.solved (ceres s1)).nodes (wrapI32 first.id) = some first.pose := by
            simp only [solved]
            rw [hp]
            simp only [Option.map_some]
            rw [if_pos (Or.inl (by rw [hc]; exact List.mem_cons_self))]
          rw [h0]
          rw [hnode'] at hnode
          injection hnode with hnode
          simp only [Option.map_some, List.getElem?_cons_zero]
          rw [← hnode]
        · cases h

/-- **C37** Scan ids below 2^31 that are distinct give distinct keys. -/
theorem c37_distinct_ids_distinct_keys (scans : List Scan) (hd : (scans.map (·.id)).Nodup)
    (hlt : ∀ x ∈ scans, x.id < 2 ^ 31) : (scans.map fun x => wrapI32 x.id).Nodup := by
  have e : (scans.map fun x => wrapI32 x.id) = (scans.map (·.id)).map (fun n : ℕ => (n : ℤ)) := by
    rw [List.map_map]
    apply List.map_congr_left
    intro x hx
    exact wrapI32_of_lt (hlt x hx)
  rw [e]
  exact hd.map (fun a b h => by exact_mod_cast h)

/-- **C37** (limit) A first scan that no constraint touches makes the solver abort the process: a graph without
constraints cannot be optimised. -/
theorem c37_unconstrained_first_scan_aborts (ceres : Solver → Outcome) (a : Scan) (rest : List Scan) :
    Solver.new.optimize ceres [] (a :: rest) = .error .abort := by
  unfold optimize prepare
  simp only [List.drop_nil, List.foldlM_nil, Res.pure_eq, Res.ok_bind]
  rw [if_neg]
  · rfl
  · rintro ⟨b, hb, -⟩
    simp [Solver.new] at hb

/-- **C36** When a call is free of undefined behaviour and aborts: the new constraints join existing scans with
different keys, and some block touches the first scan. -/
theorem c36_optimize_defined (ceres : Solver → Outcome) (s : Solver) (cs : List Constraint) (first : Scan)
    (rest : List Scan)
    (hc : ∀ c ∈ cs.drop s.numConstraints, ∃ a b, (first :: rest)[c.begin_]? = some a ∧
      (first :: rest)[c.end_]? = some b ∧ key a ≠ key b)
    (hf : s.inProblem (key first) ∨ ∃ c ∈ cs.drop s.numConstraints, c.begin_ = 0 ∨ c.end_ = 0) :
    ∃ r, s.optimize ceres cs (first :: rest) = .ok r := by
  have hall : ∀ (l : List Constraint), (∀ c ∈ l, ∃ a b, (first :: rest)[c.begin_]? = some a ∧
      (first :: rest)[c.end_]? = some b ∧ key a ≠ key b) → ∀ s0 : Solver,
      ∃ s1, l.foldlM (fun s c => addConstraint s (first :: rest) c) s0 = .ok s1 := by
    intro l
    induction l with
    | nil => intro _ s0; exact ⟨s0, rfl⟩
    | cons c l ih =>
      intro h s0
      obtain ⟨a, b, ha, hb, hne⟩ := h c (by simp)
      obtain ⟨s1, hs1⟩ := ih (fun c hc => h c (by simp [hc]))
        { s0 with blocks := s0.blocks ++ [⟨c.transform, matrixL c.information, key a, key b⟩] }
      refine ⟨s1, ?_⟩
      rw [List.foldlM_cons]
      have : addConstraint s0 (first :: rest) c =
          .ok { s0 with blocks := s0.blocks ++ [⟨c.transform, matrixL c.information, key a, key b⟩] } := by
        unfold addConstraint
        rw [ha, hb]
        simp only
        rw [if_neg hne]
      rw [this]
      exact hs1
  obtain ⟨s1, hs1⟩ := hall _ hc { s with nodes := setNodes s.nodes (first :: rest) }
  obtain ⟨bs, hbs, e1⟩ := addAll_ok _ hs1
  have hin : ({ s1 with numConstraints := cs.length } : Solver).inProblem (key first) := by
    rcases hf with ⟨b, hb, hk⟩ | ⟨c, hcm, h0⟩
    · refine ⟨b, ?_, hk⟩
      rw [e1]
      exact List.mem_append_left _ hb
    · obtain ⟨a, b, ha, hb, -⟩ := hc c hcm
      have hblk : blockOf (first :: rest) c = some ⟨c.transform, matrixL c.information, key a, key b⟩ := by
        unfold blockOf
        rw [ha, hb]
      have hmem : some ⟨c.transform, matrixL c.information, key a, key b⟩ ∈ bs.map some := by
        rw [← hbs, ← hblk]
        exact List.mem_map.mpr ⟨c, hcm, rfl⟩
      obtain ⟨blk, hb1, hb2⟩ := List.mem_map.mp hmem
      injection hb2 with hb2
      refine ⟨blk, ?_, ?_⟩
      · rw [e1]
        exact List.mem_append_right _ hb1
      · rw [hb2]
        rcases h0 with h0 | h0
        · left
          rw [h0] at ha
          simp at ha
          rw [ha]
        · right
          rw [h0] at hb
          simp at hb
          rw [hb]
  unfold optimize prepare
  simp only
  rw [hs1]
  simp only [Res.ok_bind]
  rw [if_pos hin]
  simp only [Res.ok_bind]
  split
  · exact ⟨_, rfl⟩
  · exact ⟨_, rfl⟩

/-- Two scans a metre apart and the constraint between them: the hypotheses of C35-C37 are met, and an optimiser that
succeeds returns both scans. -/
example : ∃ s' scans', Solver.new.optimize (fun _ => ⟨true, fun _ => ⟨5, 6, 7⟩⟩)
      [makeConstraint (Scan.new 0) ((Scan.new 1).setPose ⟨1, 0, 0⟩) fun _ _ => .fin 1]
      [Scan.new 0, (Scan.new 1).setPose ⟨1, 0, 0⟩] = .ok (true, s', scans') ∧ scans'.length = 2 ∧
    (scans'[0]?).map (·.pose) = some ⟨0, 0, 0⟩ := by
  have k0 : key (Scan.new 0) = 0 := wrapI32_of_lt (n := 0) (by norm_num)
  have k1 : key ((Scan.new 1).setPose ⟨1, 0, 0⟩) = 1 := wrapI32_of_lt (n := 1) (by norm_num)
  obtain ⟨⟨r, s', scans'⟩, h⟩ := c36_optimize_defined (fun _ => ⟨true, fun _ => ⟨5, 6, 7⟩⟩) Solver.new
    [makeConstraint (Scan.new 0) ((Scan.new 1).setPose ⟨1, 0, 0⟩) fun _ _ => .fin 1]
    (Scan.new 0) [(Scan.new 1).setPose ⟨1, 0, 0⟩]
    (by
      intro c hc
      simp only [Solver.new, List.drop_zero, List.mem_singleton] at hc
      subst hc
      exact ⟨_, _, rfl, rfl, by rw [k0, k1]; norm_num⟩)
    (Or.inr ⟨_, List.mem_singleton.mpr rfl, Or.inl rfl⟩)
  have hr : r = true := by
    cases r with
    | true => rfl
    | false =>
      unfold optimize at h
      simp only at h
      cases h1 : Solver.new.prepare [makeConstraint (Scan.new 0) ((Scan.new 1).setPose ⟨1, 0, 0⟩) fun _ _ => .fin 1]
          [Scan.new 0, (Scan.new 1).setPose ⟨1, 0, 0⟩] (Scan.new 0) with
      | error e => rw [h1] at h; cases h
      | ok s1 => rw [h1] at h; cases h
  subst hr
  refine ⟨s', scans', h, (c35_success_takes_solver_poses _ h).1, ?_⟩
  rw [c37_first_scan_fixed _ (by
    show [wrapI32 0, wrapI32 1].Nodup
    rw [wrapI32_of_lt (by norm_num), wrapI32_of_lt (by norm_num)]
    norm_num) h]
  rfl

end

end Ndt
