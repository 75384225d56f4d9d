import Verif.Model.Graph
import Verif.Model.KdTree
import Verif.Model.Solver
import Mathlib.Analysis.SpecialFunctions.Trigonometric.Bounds
import Mathlib.Tactic.Linarith
import Mathlib.Tactic.NormNum

/-!
# test/graph_tests.cpp, test/ceres_solver_tests.cpp and the tree of test/particle_tests.cpp, run on the model

The statistical expectations of test/particle_tests.cpp are about random draws, which are arbitrary inputs of the model.
-/

namespace Ndt.UnitTests

noncomputable section

/-- test/graph_tests.cpp:43-56. -/
def scan0 : Scan := ((Scan.new 0).setPoints [⟨2, 3⟩, ⟨3, 3⟩, ⟨4, 4⟩]).setPose ⟨0, 1, 0⟩

/-- test/graph_tests.cpp:63-74. -/
def scan1 : Scan := ((Scan.new 1).setPoints [⟨1, 1.5⟩, ⟨2, 1.5⟩, ⟨3, 2.5⟩]).setPose ⟨1, 2.5, 0.05⟩

/-- test/graph_tests.cpp:99-111. -/
def scan2 : Scan := ((Scan.new 2).setPoints [⟨1, 1.5⟩, ⟨2, 1.5⟩, ⟨3, 2.5⟩]).setPose ⟨1, 2.3, 0.05⟩

/-- test/graph_tests.cpp:83-94. -/
def constraint01 : Constraint :=
  ⟨0, 1, ⟨1, 1.5, 0⟩, !![.fin 100, .fin 0, .fin 0; .fin 0, .fin 100, .fin 0; .fin 0, .fin 0, .fin 20], true⟩

/-- test/graph_tests.cpp:41-95. -/
def graph : Graph := { Graph.new true with scans := [scan0, scan1], constraints := [constraint01] }

/-- test/graph_tests.cpp:59-61. -/
theorem test_barycenter_0 : scan0.getBarycenterPose.2 = ⟨3, 10 / 3 + 1, 0⟩ := by
  simp only [scan0, Scan.getBarycenterPose, Scan.setPose, Scan.setPoints, Scan.new, Scan.update, Scan.centerLoop,
    Point.zero, Real.cos_zero, Real.sin_zero]
  norm_num

/-- test/graph_tests.cpp:77-81. -/
theorem test_barycenter_1 : scan1.getBarycenterPose.2 =
    ⟨Real.cos 0.05 * 2 - Real.sin 0.05 * (5.5 / 3) + 1, Real.sin 0.05 * 2 + Real.cos 0.05 * (5.5 / 3) + 2.5, 0.05⟩ := by
  simp only [scan1, Scan.getBarycenterPose, Scan.setPose, Scan.setPoints, Scan.new, Scan.update, Scan.centerLoop, Point.zero]
  norm_num
  constructor <;> ring

/-- test/graph_tests.cpp:113-116. -/
theorem test_barycenter_2 : scan2.getBarycenterPose.2 =
    ⟨Real.cos 0.05 * 2 - Real.sin 0.05 * (5.5 / 3) + 1, Real.sin 0.05 * 2 + Real.cos 0.05 * (5.5 / 3) + 2.3, 0.05⟩ := by
  simp only [scan2, Scan.getBarycenterPose, Scan.setPose, Scan.setPoints, Scan.new, Scan.update, Scan.centerLoop, Point.zero]
  norm_num
  constructor <;> ring

/-- test/graph_tests.cpp:118-121: both scans are found, the first one is nearer. -/
theorem test_find_nearest (visit : List ℕ) (hv : visit = [0, 1] ∨ visit = [1, 0]) :
    graph.findNearest visit scan2 10 (-1) = .ok [0, 1] := by
  have c1 := Real.cos_le_one 0.05
  have c2 := Real.one_sub_sq_div_two_le_cos (x := 0.05)
  have s1 : Real.sin 0.05 < 0.05 := Real.sin_lt (by norm_num)
  have s2 : 0.05 - 0.05 ^ 3 / 6 ≤ Real.sin 0.05 := by
    have := Real.sin_gt_sub_cube (x := 0.05) (by norm_num)
    linarith
  have d0 : Graph.sqDist (Graph.refPose true scan2) (Graph.refPose true scan0) < 0.03 := by
    unfold Graph.refPose Graph.sqDist
    rw [if_pos rfl, if_pos rfl, test_barycenter_0, test_barycenter_2]
    dsimp only
    norm_num at c2 s1 s2 ⊢
    nlinarith
  have d1 : Graph.sqDist (Graph.refPose true scan2) (Graph.refPose true scan1) = 0.04 := by
    unfold Graph.refPose Graph.sqDist
    rw [if_pos rfl, if_pos rfl, test_barycenter_1, test_barycenter_2]
    dsimp only
    norm_num
  have d10 : Graph.sqDist (Graph.refPose true scan2) (Graph.refPose true scan0) < 10 := by linarith
  unfold Graph.findNearest
  rw [if_neg (by norm_num)]
  have e0 : graph.scans[0]? = some scan0 := rfl
  have e1 : graph.scans[1]? = some scan1 := rfl
  have eb : graph.useBarycenter = true := rfl
  dsimp only
  rcases hv with rfl | rfl
  · simp only [eb, List.filter_cons, List.filter_nil, e0, e1, d1, d10]
    norm_num [List.mergeSort, List.MergeSort.Internal.splitInTwo, List.merge, e0, e1, d1]
    linarith
  · simp only [eb, List.filter_cons, List.filter_nil, e0, e1, d1, d10]
    norm_num [List.mergeSort, List.MergeSort.Internal.splitInTwo, List.merge, e0, e1, d1]
    linarith

/-- test/graph_tests.cpp:124-143. -/
theorem test_read_write : ∃ g, Graph.load true graph.save = .ok g ∧ g.scans.length = 2 ∧
    (∀ s ∈ g.scans, s.getPoints.length = 3) ∧ g.constraints = [constraint01] := by
  refine ⟨_, rfl, rfl, ?_, ?_⟩
  · intro s hs
    simp only [Graph.new, List.mem_append, List.mem_singleton, List.not_mem_nil, false_or] at hs
    rcases hs with rfl | rfl <;> rfl
  · show [_] = [_]
    congr 1
    have : (fun i j : Fin 3 => Graph.packInformation constraint01.information (i.val * 3 + j.val)) =
        constraint01.information := by
      funext i j
      fin_cases i <;> fin_cases j <;> rfl
    show (⟨_, _, _, _, _⟩ : Constraint) = _
    unfold Graph.constraintToMsg
    dsimp only
    rw [this]
    rfl

/-- test/ceres_solver_tests.cpp:32-41. -/
theorem test_solver (ceres : Solver → Solver.Outcome) (s : Solver) : s.optimize ceres [] [] = .ok (false, s, []) := rfl

theorem conv_0 {c : ℝ} (hc : c ≠ 0) : toI32F (.fin 0 / .fin c) = .ok 0 := by
  rw [Fl.fin_div hc, zero_div]
  show toI32 0 = _
  norm_num [toI32, truncZ]

theorem conv_1 : toI32F (.fin 0.75 / .fin 0.5) = .ok 1 := by
  rw [Fl.fin_div (by norm_num)]
  have : truncZ (0.75 / 0.5) = 1 := by
    unfold truncZ
    rw [if_pos (by norm_num), Int.floor_eq_iff]
    norm_num
  show toI32 _ = _
  rw [toI32, this]
  rfl

theorem conv_m1 : toI32F (.fin (-0.75) / .fin 0.5) = .ok (-1) := by
  rw [Fl.fin_div (by norm_num)]
  have : truncZ (-0.75 / 0.5) = -1 := by
    unfold truncZ
    rw [if_neg (by norm_num), Int.ceil_eq_iff]
    norm_num
  show toI32 _ = _
  rw [toI32, this]
  rfl

/-- The tree of the test with a given root. -/
def treeWith (n : ℕ) (r : Option KdNode) : KdTree := ⟨![0.5, 0.5, 0.25], n, r⟩

/-- test/particle_tests.cpp:48-76. The first split is at 1/2 in x, the second at -1/2, the third at 1/2 in y. -/
theorem test_kd_tree : ∃ t1 t2 t3 t4 t5,
    (KdTree.new 0.5 0.5 0.25).getLeafCount = 0 ∧
    (KdTree.new 0.5 0.5 0.25).insert ⟨0, 0, 0⟩ (.fin 1) = .ok t1 ∧ t1.getLeafCount = 1 ∧
    t1.insert ⟨0, 0, 0⟩ (.fin 1) = .ok t2 ∧ t2.getLeafCount = 1 ∧
    t2.insert ⟨0.75, 0, 0⟩ (.fin 1) = .ok t3 ∧ t3.getLeafCount = 2 ∧
    t3.insert ⟨-0.75, 0, 0⟩ (.fin 1) = .ok t4 ∧ t4.getLeafCount = 3 ∧
    t4.insert ⟨0.75, 0.75, 0⟩ (.fin 1) = .ok t5 ∧ t5.getLeafCount = 4 := by
  have k0 : ∀ n r, (treeWith n r).keyOf ⟨0, 0, 0⟩ = .ok ![0, 0, 0] := by
    intro n r
    simp only [KdTree.keyOf, treeWith, Matrix.cons_val]
    rw [conv_0 (by norm_num), conv_0 (by norm_num)]; rfl
  have k1 : ∀ n r, (treeWith n r).keyOf ⟨0.75, 0, 0⟩ = .ok ![1, 0, 0] := by
    intro n r
    simp only [KdTree.keyOf, treeWith, Matrix.cons_val]
    rw [conv_1, conv_0 (by norm_num), conv_0 (by norm_num)]; rfl
  have k2 : ∀ n r, (treeWith n r).keyOf ⟨-0.75, 0, 0⟩ = .ok ![-1, 0, 0] := by
    intro n r
    simp only [KdTree.keyOf, treeWith, Matrix.cons_val]
    rw [conv_m1, conv_0 (by norm_num), conv_0 (by norm_num)]; rfl
  have k3 : ∀ n r, (treeWith n r).keyOf ⟨0.75, 0.75, 0⟩ = .ok ![1, 1, 0] := by
    intro n r
    simp only [KdTree.keyOf, treeWith, Matrix.cons_val]
    rw [conv_1, conv_0 (by norm_num)]; rfl
  let a : KdNode := .leaf ![0, 0, 0] (.fin 2)
  let b : KdNode := .leaf ![1, 0, 0] (.fin 1)
  let c : KdNode := .leaf ![-1, 0, 0] (.fin 1)
  let d : KdNode := .leaf ![1, 1, 0] (.fin 1)
  have p1 : KdNode.pivotAxis ![0, 0, 0] ![1, 0, 0] = .ok (some 0) := rfl
  have p2 : KdNode.pivotAxis ![0, 0, 0] ![-1, 0, 0] = .ok (some 0) := rfl
  have p3 : KdNode.pivotAxis ![1, 0, 0] ![1, 1, 0] = .ok (some 1) := rfl
  refine ⟨treeWith 1 (some (.leaf ![0, 0, 0] (.fin 1))), treeWith 1 (some a), treeWith 2 (some (.inner 0 (1 / 2) a b)),
    treeWith 3 (some (.inner 0 (1 / 2) (.inner 0 (-1 / 2) c a) b)),
    treeWith 4 (some (.inner 0 (1 / 2) (.inner 0 (-1 / 2) c a) (.inner 1 (1 / 2) b d))),
    rfl, ?_, rfl, ?_, rfl, ?_, rfl, ?_, rfl, ?_, rfl⟩
  · show (treeWith 0 none).insert _ _ = _
    unfold KdTree.insert
    rw [k0]; rfl
  · unfold KdTree.insert
    rw [k0]
    norm_num [treeWith, KdNode.insert, a]
  · unfold KdTree.insert
    rw [k1]
    norm_num [treeWith, KdNode.insert, a, b, p1, int32]
  · unfold KdTree.insert
    rw [k2]
    norm_num [treeWith, KdNode.insert, a, b, c, p2, int32]
  · unfold KdTree.insert
    rw [k3]
    norm_num [treeWith, KdNode.insert, a, b, c, d, p3, int32]

end

end Ndt.UnitTests
