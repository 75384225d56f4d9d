import Verif.Model.Mapper
import Verif.Spec.Geometry

/-! # Specification of the mapper: executions, and what graphs should look like -/

namespace Ndt.Spec

noncomputable section

/-- An execution from `s` by the listed events, each of which was allowed (`A`) in the state it happened in, without
running into undefined behaviour. -/
inductive Exec (p : Params) (A : Sys → Event → Prop) (s : Sys) : List Event → Sys → Prop
  | nil : Exec p A s [] s
  | snoc {es : List Event} {t t' : Sys} {e : Event} : Exec p A s es t → A t e → Mapper.step p t e = .ok t' →
      Exec p A s (es ++ [e]) t'

/-- No restriction. -/
def Any : Sys → Event → Prop := fun _ _ => True

/-- An execution together with the number of its steps that are of a certain kind. -/
inductive Counted (p : Params) (A : Sys → Event → Prop) (P : Sys → Event → Prop) (s : Sys) : List Event → Sys → ℕ → Prop
  | nil : Counted p A P s [] s 0
  | hit {es : List Event} {t t' : Sys} {e : Event} {n : ℕ} : Counted p A P s es t n → A t e → P t e →
      Mapper.step p t e = .ok t' → Counted p A P s (es ++ [e]) t' (n + 1)
  | miss {es : List Event} {t t' : Sys} {e : Event} {n : ℕ} : Counted p A P s es t n → A t e → ¬ P t e →
      Mapper.step p t e = .ok t' → Counted p A P s (es ++ [e]) t' n

/-- The loop closure thread matches its scan against a candidate. -/
def MatchAttempt (s : Sys) (e : Event) : Prop :=
  (∃ score correction cov, e = .loopMatched score correction cov) ∧ ∃ q cand, s.loop = .matching q cand

/-- The loop closure thread takes the next scan. -/
def TakesScan (s : Sys) (e : Event) : Prop := (∃ visit, e = .loopPick visit) ∧ ∃ r, s.loop = .picking r

/-- States that can be reached when the map given at the start and all maps loaded later are good (`W`), by allowed
events. -/
def Reach (p : Params) (W : Graph → Prop) (A : Sys → Event → Prop) (s : Sys) : Prop :=
  ∃ enable file s0 es, Mapper.start p enable file = .ok s0 ∧
    (∀ bag, file = some bag → ∀ g, Graph.load p.useBarycenter bag = .ok g → W g) ∧
    Exec p (fun s e => A s e ∧ ∀ action bag, e = .configure action bag → ∀ g, Graph.load p.useBarycenter bag = .ok g → W g)
      s0 es s

/-- The event asks for a map to be loaded. -/
def Loads (e : Event) : Prop := ∃ action bag, e = .configure action bag ∧ action &&& 4#32 ≠ 0#32

/-- The event asks for mapping to be enabled. -/
def Enables (e : Event) : Prop := ∃ action bag, e = .configure action bag ∧ action &&& 1#32 ≠ 0#32

/-- The map is the same: scans (with their poses) and constraints. -/
def SameMap (s t : Sys) : Prop := t.scans = s.scans ∧ t.constraints = s.constraints

/-- Work of the executor thread on a laser message. -/
def IsLaserWork : Event → Prop
  | .laser .. | .filtered .. | .addWindow | .localMatched .. | .pushConstraint | .pushScan | .globalMatched .. |
    .finishScan => True
  | _ => False

/-- Work of the publishing thread. -/
def IsPubWork : Event → Prop
  | .pubCheck | .pubClear | .pubGrid | .pubGraph | .pubTf => True
  | _ => False

/-- The publishing thread takes its next step. -/
def PubStep (s : Sys) (e : Event) : Prop :=
  match s.pub with
  | .check => e = .pubCheck
  | .clear => e = .pubClear
  | .grid => e = .pubGrid
  | .graph => e = .pubGraph
  | .tf => e = .pubTf

/-- The last published grid of `t` shows the scans that the graph had at a moment of the execution from `s` to `t`. -/
def GridSince (p : Params) (A : Sys → Event → Prop) (s : Sys) (es : List Event) (t : Sys) : Prop :=
  ∃ es1 es2 u grid msg, es = es1 ++ es2 ∧ Exec p A s es1 u ∧ Exec p A u es2 t ∧ u.grid.getMsg u.scans = .ok (grid, msg) ∧
    t.lastGrid = some msg

/-- The same of the published markers. -/
def MarkersSince (p : Params) (A : Sys → Event → Prop) (s : Sys) (es : List Event) (t : Sys) : Prop :=
  ∃ es1 es2 u msg, es = es1 ++ es2 ∧ Exec p A s es1 u ∧ Exec p A u es2 t ∧ (u.graph p).getMsg [] = .ok msg ∧
    t.lastMarkers = some msg

/-- The graph of `t` is that of `s`, possibly with poses moved and scans and constraints added. -/
def Extends (s t : Sys) : Prop :=
  (s.scans.map fun x => (x.id, x.points)) <+: (t.scans.map fun x => (x.id, x.points)) ∧ s.constraints <+: t.constraints

/-- Work of the loop closure thread. -/
def IsLoopWork : Event → Prop
  | .loopWake | .loopCount | .loopPick .. | .loopCandidate | .loopMatched .. | .loopPush | .loopDecide |
    .loopOptimise .. => True
  | _ => False

/-- The loop closure thread takes the next step of a round (`visit`, the order in which a tree is walked, being one of
its points). -/
def LoopStep (p : Params) (s : Sys) (e : Event) : Prop :=
  match s.loop with
  | .asleep => False
  | .counting => e = .loopCount
  | .picking r => ∃ visit, e = .loopPick visit ∧
      (s.processed < r.n → visit.Perm (List.range (s.processed - p.rollingDepth)))
  | .candidates _ => e = .loopCandidate
  | .matching _ _ => ∃ score correction cov, e = .loopMatched score correction cov
  | .pushing _ _ => e = .loopPush
  | .deciding _ => e = .loopDecide
  | .optimising => ∃ ceres, e = .loopOptimise ceres

/-- The executor thread takes the next step of a callback. -/
def CallbackStep (s : Sys) (e : Event) : Prop :=
  match s.spin with
  | .idle => False
  | .filter _ _ => ∃ mean, e = .filtered mean
  | .window _ _ => e = .addWindow
  | .matching _ _ => ∃ score correction cov, e = .localMatched score correction cov
  | .constraint _ _ _ => e = .pushConstraint
  | .append _ _ => e = .pushScan
  | .localise _ _ => ∃ correction, e = .globalMatched correction
  | .finish _ _ | .announce _ _ => e = .finishScan
  | .poseRobot _ _ => e = .setRobot
  | .poseOdom _ => e = .setOdom

/-- At a moment of the execution `P` held. -/
def Sometime (p : Params) (A : Sys → Event → Prop) (s : Sys) (es : List Event) (P : Sys → Prop) : Prop :=
  ∃ es1 es2 u, es = es1 ++ es2 ∧ Exec p A s es1 u ∧ P u

/-- The i-th scan has id i. -/
def IdsAreIndices (scans : List Scan) : Prop := ∀ (i : ℕ) (s : Scan), scans[i]? = some s → s.id = i

/-- Every scan but the first is the end of a constraint that begins at an earlier scan. -/
def LinkedBack (n : ℕ) (constraints : List Constraint) : Prop :=
  ∀ j, 0 < j → j < n → ∃ c ∈ constraints, c.end_ = j ∧ c.begin_ < j

/-- Two indices are joined by a chain of constraints. -/
def Joined (constraints : List Constraint) : ℕ → ℕ → Prop :=
  Relation.EqvGen fun a b => ∃ c ∈ constraints, c.begin_ = a ∧ c.end_ = b

/-- The ends of all constraints are scans of the graph. -/
def EndsValid (n : ℕ) (constraints : List Constraint) : Prop := ∀ c ∈ constraints, c.begin_ < n ∧ c.end_ < n

/-- Every switchable constraint (loop closure) joins a scan to one more than `depth` earlier. -/
def LoopsFar (depth : ℕ) (constraints : List Constraint) : Prop :=
  ∀ c ∈ constraints, c.switchable = true → c.begin_ + depth < c.end_

/-- The last `k` scans (all if there are fewer). -/
def lastScans (k : ℕ) (scans : List Scan) : List Scan := scans.drop (scans.length - k)

/-- The robot has moved by `d` or turned by `r`, whichever way round one measures the turn. -/
def Travelled (d r : ℝ) (a b : Pose2d) : Prop :=
  d ≤ dist ⟨a.x, a.y⟩ ⟨b.x, b.y⟩ ∨ ∀ k : ℤ, r ≤ |b.theta - a.theta + k * (2 * Real.pi)|

/-- The two planar transforms are rigid motions that agree. -/
def SameMotion (t : Iso) (p : Pose2d) : Prop := ∀ q, t.apply q = move p q

/-- The loop closure thread finds nothing: a match it makes is not accepted. -/
def FindsNothing (s : Sys) (e : Event) : Prop :=
  ∀ score correction cov, e = .loopMatched score correction cov → ¬ (score.isFinite ∧ score < s.typical)

/-- The scan matcher has nothing to correct. -/
def CorrectsNothing : Event → Prop
  | .localMatched _ correction _ => correction = Pose2d.zero
  | .globalMatched correction => correction = Pose2d.zero
  | _ => True

/-- The odometry poses that came with the laser messages of an execution, in order. -/
def odometry (es : List Event) : List Pose2d :=
  es.filterMap fun
    | .laser _ _ odom _ => odom
    | _ => none

/-- Equal as poses: headings may differ by full turns. -/
def SamePose (a b : Pose2d) : Prop := a.x = b.x ∧ a.y = b.y ∧ ∃ n : ℤ, a.theta = b.theta + n * (2 * Real.pi)

end

end Ndt.Spec
