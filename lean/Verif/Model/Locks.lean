import Mathlib.Data.List.Basic
import Mathlib.Logic.Function.Basic

/-!
# The mutexes of the mapper node (src/ndt_mapper.cpp)

Control flow of the three threads as far as the two mutexes are concerned. A place is a point of the program; `act` is what
the thread does there and `next` where it can go on afterwards (every branch is possible). `std::lock_guard` releases at the
end of its scope, also on `return` and `continue`; `std::unique_lock` in addition where the code says so. Everything else,
however long it takes, is `work`. What the critical sections do is modelled in Model/Mapper.
-/

namespace Ndt.Locks

/-- include/ndt_2d/ndt_mapper.hpp:123,125 `graph_mutex_` and `prev_pose_mutex_`. -/
inductive Mutex where
  | graph
  | prevPose
  deriving DecidableEq

/-- The executor (which runs one callback at a time), the loop closure thread and the publishing thread
(src/ndt_mapper.cpp:141-142). -/
inductive Thread where
  | spin
  | loop
  | pub
  deriving DecidableEq

inductive Act where
  | work
  | acquire (m : Mutex)
  | release (m : Mutex)
  deriving DecidableEq

/-- Places; the numbers are lines of src/ndt_mapper.cpp (src/ndt_mapper.cpp:155-745). -/
inductive Place where
  -- executor
  /-- between callbacks -/
  | idle
  /-- configure: 159-170 -/
  | configureFlags
  /-- configure: 175 or 183 -/
  | configureLock
  | configureWork
  /-- 179 or 185, end of scope -/
  | configureUnlock
  /-- poseCallback: 188-231 -/
  | poseWork
  /-- 234 -/
  | poseLock
  | poseInside
  /-- 245, return -/
  | poseReturn
  /-- 256, end of scope -/
  | poseUnlock
  /-- 259-261 -/
  | poseWrite
  /-- laserCallback: 267-489, 496-527, 549-561 -/
  | laserWork
  /-- 528 -/
  | constraintLock
  | constraintPush
  /-- 530, end of scope -/
  | constraintUnlock
  /-- 537 -/
  | scanLock
  | scanPush
  /-- 539, end of scope -/
  | scanUnlock
  /-- 491, 542 or 563 -/
  | prevLock
  | prevWrite
  /-- 494, 546 or 566, end of scope -/
  | prevUnlock
  -- loop closure thread
  /-- 573-579 -/
  | sleep
  /-- 584 -/
  | countLock
  | countRead
  /-- 586, end of scope -/
  | countUnlock
  /-- 588-608 -/
  | round
  /-- 613 -/
  | pickLock
  | pickRead
  /-- 616, end of scope -/
  | pickUnlock
  /-- 619-620, 670 -/
  | candidates
  /-- 623 -/
  | candidateLock
  | candidateRead
  /-- 625, continue -/
  | candidateSkip
  /-- 638 -/
  | candidateUnlock
  /-- 640-659 -/
  | matching
  /-- 660 -/
  | pushLock
  | pushInside
  /-- 670-671, end of scope -/
  | pushUnlock
  /-- 676 -/
  | decide
  /-- 679 -/
  | optimiseLock
  | optimiseInside
  /-- 683, end of scope -/
  | optimiseUnlock
  -- publishing thread
  /-- 691-700 -/
  | check
  /-- 702 -/
  | gridLock
  | gridInside
  /-- 704, end of scope -/
  | gridUnlock
  /-- 705-708 -/
  | gridPublish
  /-- 710 -/
  | graphLock
  | graphInside
  /-- 712, end of scope -/
  | graphUnlock
  /-- 713 and 717 -/
  | graphPublish
  /-- 720 -/
  | tfLock
  | tfRead
  /-- 729 -/
  | tfUnlock
  /-- 731-743 -/
  | tfSend
  deriving DecidableEq

/-- What happens at a place (src/ndt_mapper.cpp:155-745). -/
def Place.act : Place → Act
  | .configureLock | .poseLock | .constraintLock | .scanLock | .countLock | .pickLock | .candidateLock | .pushLock |
    .optimiseLock | .gridLock | .graphLock => .acquire .graph
  | .configureUnlock | .poseReturn | .poseUnlock | .constraintUnlock | .scanUnlock | .countUnlock | .pickUnlock |
    .candidateSkip | .candidateUnlock | .pushUnlock | .optimiseUnlock | .gridUnlock | .graphUnlock => .release .graph
  | .prevLock | .tfLock => .acquire .prevPose
  | .prevUnlock | .tfUnlock => .release .prevPose
  | _ => .work

/-- Where the thread can go from a place (src/ndt_mapper.cpp:155-745). -/
def Place.next : Place → List Place
  | .idle => [.idle, .configureFlags, .poseWork, .laserWork]
  | .configureFlags => [.idle, .configureLock]
  | .configureLock => [.configureWork]
  | .configureWork => [.configureUnlock]
  | .configureUnlock => [.idle]
  | .poseWork => [.idle, .poseLock, .poseWrite]
  | .poseLock => [.poseInside]
  | .poseInside => [.poseReturn, .poseUnlock]
  | .poseReturn => [.idle]
  | .poseUnlock => [.poseWrite]
  | .poseWrite => [.idle]
  | .laserWork => [.idle, .constraintLock, .scanLock, .prevLock]
  | .constraintLock => [.constraintPush]
  | .constraintPush => [.constraintUnlock]
  | .constraintUnlock => [.scanLock]
  | .scanLock => [.scanPush]
  | .scanPush => [.scanUnlock]
  | .scanUnlock => [.prevLock]
  | .prevLock => [.prevWrite]
  | .prevWrite => [.prevUnlock]
  | .prevUnlock => [.idle]
  | .sleep => [.sleep, .countLock]
  | .countLock => [.countRead]
  | .countRead => [.countUnlock]
  | .countUnlock => [.round]
  | .round => [.sleep, .pickLock, .decide]
  | .pickLock => [.pickRead]
  | .pickRead => [.pickUnlock]
  | .pickUnlock => [.candidates]
  | .candidates => [.candidateLock, .round]
  | .candidateLock => [.candidateRead]
  | .candidateRead => [.candidateSkip, .candidateUnlock]
  | .candidateSkip => [.candidates]
  | .candidateUnlock => [.matching]
  | .matching => [.candidates, .pushLock]
  | .pushLock => [.pushInside]
  | .pushInside => [.pushUnlock]
  | .pushUnlock => [.candidates]
  | .decide => [.sleep, .optimiseLock]
  | .optimiseLock => [.optimiseInside]
  | .optimiseInside => [.optimiseUnlock]
  | .optimiseUnlock => [.sleep]
  | .check => [.gridLock, .graphPublish]
  | .gridLock => [.gridInside]
  | .gridInside => [.gridUnlock]
  | .gridUnlock => [.gridPublish]
  | .gridPublish => [.graphLock]
  | .graphLock => [.graphInside]
  | .graphInside => [.graphUnlock]
  | .graphUnlock => [.graphPublish]
  | .graphPublish => [.tfLock, .check]
  | .tfLock => [.tfRead]
  | .tfRead => [.tfUnlock]
  | .tfUnlock => [.tfSend]
  | .tfSend => [.check]

/-- Where the threads are and who owns the mutexes (include/ndt_2d/ndt_mapper.hpp:69-134). -/
structure State where
  place : Thread → Place
  owner : Mutex → Option Thread

/-- src/ndt_mapper.cpp:141-142 all three threads run, nothing is locked. -/
def initial : State :=
  ⟨fun | .spin => .idle | .loop => .sleep | .pub => .check, fun _ => none⟩

/-- What a thread does next: locking waits for the mutex to be free; locking a mutex one owns and unlocking one that
one does not own are undefined (std::mutex, used from src/ndt_mapper.cpp:175). -/
inductive Outcome where
  | ok (s : State)
  | waits
  | undefined

/-- One step of thread `t` that goes on to `q` (src/ndt_mapper.cpp:155-745). -/
def step (s : State) (t : Thread) (q : Place) : Outcome :=
  match (s.place t).act with
  | .work => .ok { s with place := Function.update s.place t q }
  | .acquire m =>
      match s.owner m with
      | none => .ok ⟨Function.update s.place t q, Function.update s.owner m (some t)⟩
      | some u => if u = t then .undefined else .waits
  | .release m =>
      if s.owner m = some t then .ok ⟨Function.update s.place t q, Function.update s.owner m none⟩ else .undefined

/-- States that can be reached (src/ndt_mapper.cpp:141-142). -/
inductive Reachable : State → Prop
  | initial : Reachable initial
  | step {s s' : State} {t : Thread} {q : Place} : Reachable s → q ∈ (s.place t).next → step s t q = .ok s' → Reachable s'

/-- The members more than one thread uses (include/ndt_2d/ndt_mapper.hpp:69-134); `scans` and `constraints` are the vectors of
the graph, `scanData` what the pointers in `scans` lead to. `local_scan_matcher_`, `filter_` and
`prev_odom_pose_is_initialized_` are used by the executor only, `solver_`, `global_scans_processed_` and
`optimization_last_` by the loop closure thread, `grid_` by the publishing thread. -/
inductive Member where
  | enableMapping
  | mapUpdateAvailable
  | prevPoses
  | graphPointer
  | scans
  | scanData
  | constraints
  | typicalResponse
  | globalMatcher
  deriving DecidableEq

inductive Access where
  | reads
  | writes
  deriving DecidableEq

/-- What is done to the members at a place, on some branch. A barycenter is computed on demand (src/scan.cpp:55-59), so
that searching writes to scans; replacing the graph destroys the vectors of the old one. -/
def Place.accesses : Place → List (Member × Access)
  | .configureFlags => [(.enableMapping, .writes)]
  | .configureWork => [(.graphPointer, .writes), (.scans, .writes), (.constraints, .writes), (.scanData, .reads),
      (.mapUpdateAvailable, .writes)]
  | .poseWork => [(.enableMapping, .reads)]
  | .poseInside => [(.graphPointer, .reads), (.scans, .writes), (.scanData, .writes), (.constraints, .writes)]
  | .poseWrite => [(.prevPoses, .writes)]
  | .laserWork => [(.enableMapping, .reads), (.globalMatcher, .writes), (.graphPointer, .reads), (.scans, .reads),
      (.scanData, .reads), (.prevPoses, .reads), (.typicalResponse, .writes)]
  | .constraintPush => [(.graphPointer, .reads), (.constraints, .writes)]
  | .scanPush => [(.graphPointer, .reads), (.scans, .writes)]
  | .prevWrite => [(.prevPoses, .writes), (.scanData, .reads), (.mapUpdateAvailable, .writes)]
  | .sleep => [(.enableMapping, .reads)]
  | .countRead => [(.graphPointer, .reads), (.scans, .reads)]
  | .pickRead => [(.graphPointer, .reads), (.scans, .reads), (.scanData, .writes)]
  | .candidateRead => [(.graphPointer, .reads), (.scans, .reads), (.scanData, .reads), (.globalMatcher, .writes)]
  | .matching => [(.globalMatcher, .reads), (.typicalResponse, .reads), (.scanData, .writes)]
  | .pushInside => [(.graphPointer, .reads), (.constraints, .writes), (.mapUpdateAvailable, .writes)]
  | .optimiseInside => [(.graphPointer, .reads), (.constraints, .reads), (.scans, .reads), (.scanData, .writes),
      (.mapUpdateAvailable, .writes)]
  | .check => [(.mapUpdateAvailable, .writes)]
  | .gridInside => [(.graphPointer, .reads), (.scans, .reads), (.scanData, .reads)]
  | .graphInside => [(.graphPointer, .reads), (.scans, .reads), (.scanData, .reads), (.constraints, .reads)]
  | .graphPublish => [(.graphPointer, .reads), (.scans, .reads)]
  | .tfRead => [(.prevPoses, .reads)]
  | _ => []

end Ndt.Locks
