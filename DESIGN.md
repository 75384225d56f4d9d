# Design: a Lean 4 model of ndt_2d

`properties.jsonl` lists the properties (C01...). `MANIFEST.json` maps each to the theorems that prove it, prove part of
it, or refute it. `seeded/LOG.jsonl` records the wrong programs the theorems were tested against. This file says what is
modelled, how, what has to be trusted, and what was found.

## 1. Trusted base

* The kernel of Lean 4.33.0. Every property theorem depends on `propext`, `Classical.choice` and `Quot.sound` only.
  `Verif/Audit.lean` is part of the build and fails it if a theorem named `Ndt.cNN_*` depends on any other axiom. There is
  no axiom of our own, no `sorry`, no `native_decide`, no `bv_decide`.
* Mathlib definitions used in statements: `ℝ`, `Real.cos/sin/exp/sqrt/log/pi`, `Complex.arg` (for `atan2`),
  `Int.floor/ceil`, `List`, `Finset` sums, `Matrix`.
* The reading of /repo. Nothing ties the model to the C++ but the citation `file:lines` on each definition of
  `Verif/Model`. The code was neither built nor run.
* The number model (section 2), the models of the libraries (section 3) and the thread model (section 4).
* The specifications in `Verif/Spec`. They are small, do not mention the model's helper functions, and are meant to be
  read.

## 2. Number model

* `double` is modelled by exact real numbers. **Rounding, overflow by magnitude, signed zero and single precision
  (`float` in `normal_distribution<float>` and in `LaserScan`) are not modelled** in the main model. Properties
  which are known to be sensitive to it say so; `Verif/Model/Rounded` (section 6) treats index and bounds computations,
  and `Verif/Model/RoundedCell` cell statistics and scores,
  and `Verif/Model/RoundedPose` poses predicted from odometry,
  and `Verif/Model/RoundedFilter` the statistics of the filter, and `Verif/Model/RoundedPoints` points and constraints, and `Verif/Model/RoundedGrid` the whole occupancy grid, and `Verif/Model/RoundedMatcher` the map and the search of the scan matcher, and `Verif/Model/RoundedWeigh` the weighing of particles, and `Verif/Model/RoundedSolver` the residuals, and `Verif/Model/RoundedScan` barycenters, and `Verif/Model/RoundedMotion` the motion model, and `Verif/Model/RoundedTransform` the published transform, and `Verif/Model/RoundedResample` resampling, and `Verif/Model/RoundedTravel` minimum travel and headings in messages, and `Verif/Model/RoundedControl` the control of the filter and the end of a scan, and `Verif/Model/RoundedTrack` corrected poses, and `Verif/Model/RoundedTypical` the typical response, and `Verif/Model/RoundedInformation` the information and the weight of a constraint, under rounding (C79-C81, C98, C114, C115, C121, C126, C128-C133, C136-C156): every operation is followed by a rounding `rd`, theorems hold for every rounding to nearest of
  which IEEE-754 `rnd` is one. `Verif/Model/Single` treats the two computations in `float` in the same way, with a rounding
  `rf` to single precision and the rest in real numbers (C112, C113). There, too, overflow to infinity is left out, and products and sums are assumed not to be
  fused by the compiler.
* Where the code can produce a NaN or an infinity from finite input (division by zero, inverse of a singular matrix) or
  receives one (laser ranges), the type `Fl` is used: `nan | pinf | ninf | fin r` with the IEEE-754 rules for special
  values and exact arithmetic on finite ones. There is one zero; as a divisor it acts as +0.
* Conversions `double -> int / unsigned / size_t` truncate and are *undefined behaviour* when the value does not fit:
  `toI32`, `toU32`, `toU64` return `none`, which the model turns into a `Fault`.
* `Fault` lists the ways a run leaves the defined world: `conversion`, `outOfBounds`, `nullPointer`, `iterator`,
  `overflow` (signed), `abort` (a failed check inside Ceres or of the code), `exception` (leaves the callback and ends the
  process), `hang` (a loop that does not end), `unmodelled`. `Res α` is `Except Fault α`. A statement of the form "`... = .ok
  x` implies P" says nothing about faulting runs; properties about safety are stated as absence of faults.
* Unsigned subtraction wraps modulo 2^64 where the code relies on it; `int` indices wrap or overflow where the code
  narrows. Other integers are unbounded.

## 3. Libraries, modelled by their documented behaviour

* `angles::normalize_angle`, `shortest_angular_distance`: the formulas of the ROS package (with `fmod`).
* `toMsg`: on planar quaternions. `tf2::getYaw`: on planar quaternions in `Model/Angles`, on all in `Model/Orientation`
  (of its branch for orientations within 0.26 degrees of straight up or down it is only proved that straight up it is half a turn off).
  `std::hypot`, `std::atan2` (= `Complex.arg`); in the rounded models within 2^-52 of the length and 2^-50 of the angle (C131, C138).
* Eigen: exact linear algebra, except in `Model/RoundedTransform` and `Model/RoundedInformation`, which have the operations of Eigen 3.4 one by one (the latter with both orders in which three numbers may be added); `EigenSolver` of a symmetric 2x2 matrix returns the two eigenvalues in either order;
  `inverse()` is the adjugate times 1/det, so a singular matrix gives infinities and NaNs; `LLT` gives the lower factor.
* nanoflann: the exact k nearest by squared distance below the radius argument, nearest first; points are visited in an
  arbitrary order (an oracle) which decides between equal distances.
* rosbag2: messages of a topic come back in write order; the interleaving of the two topics is arbitrary.
  Opening a missing bag for reading, or an existing one for writing, throws (C89).
* Ceres: `Solve` may propose any values for the blocks that are not constant and any verdict; adding a residual for a
  missing block or fixing an unknown block aborts. Derivatives come from dual numbers with the operations of ceres/jet.h;
  `floor` has derivative zero (C104). Only C111 asks more of it: what it calls usable costs no more than what it was given.
* rclcpp: `Duration::from_seconds` multiplies by 10^9 and converts to `int64_t`; `Time` throws for negative seconds and for
  sums that do not fit; `declare_parameter<int>` cuts to 32 bits.
* `std::normal_distribution` with a deviation of zero or NaN, which the standard forbids, gives the mean or NaN, as libstdc++ does when it is
  built without its assertions; `Model/Draws` has the node built with them (C134).
* `std::discrete_distribution` is an oracle for the filter (any index); `Model/Discrete` has it as libstdc++ has it: sum, division, partial sums, last
  sum set to one, bisection (C135, in double precision C136). With it the draws become a function of uniform numbers in [0, 1).
* Random draws, TF lookups, messages, parameters, the clock and the scheduler are inputs. Theorems hold for all of them.

## 4. Threads

`Model/Mapper` is a transition system. `Sys` holds the members of `ndt_mapper.hpp`, the place of each of the three
threads, and what was last published. `step` performs one atomic piece: each critical section of a mutex is one piece,
and code outside of them is cut wherever another thread could see or change something that matters. `Spec.Exec` is an
arbitrary sequence of steps without a fault, `Spec.Reach` is reachability from a start with or without a map file.

* Memory is sequentially consistent. The code has data races (C69 lists and exhibits them), so this is an assumption;
  what the compiler may do with a racing program is outside of the model.
* Pointers: `graph_` is a heap of scan lists indexed by an *epoch* (each load makes a new one); a `ScanPtr` is epoch and
  index. A thread that keeps a pointer over a load keeps the old scan alive, as `shared_ptr` does.
* After the laser callback has pushed its scan, the pose stored in `prev_robot_pose_` is read through the pointer
  (`Spin.announce`), because loop closure may have moved the scan meanwhile.
* The grid and marker messages are those computed at the moment the publisher holds the lock.
* `Model/Locks` has the control flow of the threads around the two mutexes, for deadlock and mutual exclusion (C65);
  `Model/Shutdown` the loops of the threads and the destructor (C71).
* `Model/Mapper` takes results of matching, filtering and optimising from outside. `Model/Node` replaces the first two by the
  models of `scan_matcher_ndt.cpp` and `particle_filter.cpp`; `Node.refines` shows each of its runs to be one of
  the mapper, so mapper theorems carry over.
* Time is not modelled: the 1 s and 250 ms periods, time stamps and transform timeouts.

## 5. Simplifications

* Points of a scan are finite in `Mapper` (a laser range of minus infinity gives `unmodelled`, see C47).
* Logging, publisher QoS, header stamps and frames other than "map" in messages are left out.
* `double` members of messages are exact; `float` values of laser messages are taken as their real values.
* In `Model/Mapper` a request to load comes with the messages of the file, and saving does nothing. `Model/Files` adds the
  files; a full disk or a damaged file is not modelled.
* Parameters keep their start value. `int` parameters stored in `size_t` are natural numbers below 2^31 in theorems that
  need it.
* The poses and the mounting given to `Model/Mapper` are planar; `Model/Orientation` computes them from the messages.
* Particles of `Model/Filter` are numbers; square roots of negative variances and noise are 0 there. `Model/Node` reports
  such a variance or noise as `unmodelled`. `Model/FilterF` has what the code does; C105 shows it equal to `Model/Filter` when
  nothing is negative.
* A search with a step of zero or less is a `hang` (`Matcher.Endless`); the published grid with a resolution of zero is a
  conversion of NaN. `x / 0` of the real numbers of Lean is not used in their place.
* Plugin loading is taken to succeed.

## 6. Modules

| module | models |
|---|---|
| `Base/Fl` | number model, conversions, faults |
| `Model/Geometry`, `Angles` | point.hpp, pose_2d.hpp, conversions.hpp, angles |
| `Model/Scan` | scan.hpp, scan.cpp |
| `Model/Cell`, `NdtGrid` | ndt_model.hpp, ndt_model.cpp |
| `Model/Matcher` | scan_matcher_ndt.hpp/.cpp |
| `Model/KdTree` | kd_tree.hpp |
| `Model/Motion`, `Filter` | motion_model.cpp, particle_filter.cpp |
| `Model/FilterF` | motion_model.cpp, particle_filter.cpp, `scorePoints`: particles that may be NaN |
| `Model/Constraint`, `Solver` | constraint.cpp, ceres_solver_pose.hpp, ceres_solver.cpp |
| `Model/Jet` | ceres_solver_pose.hpp on dual numbers |
| `Model/Graph` | graph.hpp, graph.cpp |
| `Model/OccupancyGrid` | occupancy_grid.cpp |
| `Model/Laser` | ndt_mapper.cpp:366-453 |
| `Model/Mapper` | ndt_mapper.cpp: constructor, callbacks, threads |
| `Model/Node` | ndt_mapper.cpp with its matchers and its filter |
| `Model/Files` | ndt_mapper.cpp: `configure` and the constructor with files by name |
| `Model/Scripts` | scripts/*.py, srv/Configure.srv (on `Model/Files`) |
| `Model/Orientation` | conversions.hpp: `fromMsg`; ndt_mapper.cpp: mounting of the laser from the transform |
| `Model/Timing` | ndt_mapper.cpp: times at which the poses of a scan are looked up |
| `Model/Parameters` | ndt_mapper.cpp, particle_filter.cpp: integer parameters |
| `Model/Locks`, `Shutdown` | ndt_mapper.cpp: mutexes, thread loops and destructor |
| `Base/Single`, `Model/Single` | rounding to single precision; angles of beams, poses and motions drawn by the filter |
| `Model/RoundedPose` | normalised angles and poses predicted from odometry in double precision |
| `Model/RoundedPoints` | points of scans and messages, and constraints, in double precision |
| `Model/RoundedFilter` | weights, mean and covariance of the filter in double precision |
| `Base/Double`, `Model/Rounded` | rounding to nearest; beam indices, search loops, map cells and grid bounds in double precision |
| `Model/RoundedCell` | `Cell::addPoint`, `compute` and `score` in double precision |
| `Model/RoundedGrid` | the occupancy grid, from scans to messages, in double precision |
| `Model/RoundedMatcher` | the NDT map and `matchScan` in double precision |
| `Model/RoundedWeigh` | `scorePoints` and `measure` in double precision |
| `Model/RoundedSolver` | residuals of constraints in double precision |
| `Model/RoundedScan` | barycenters in double precision |
| `Model/RoundedMotion` | the motion model in double precision |
| `Model/RoundedTransform` | the transform from map to odometry and its quaternion in double precision |
| `Model/RoundedResample` | bins, the KLD bound and the sampling loop in double precision |
| `Model/RoundedTravel` | minimum travel, `tf2::getYaw` and the quaternions of particles in double precision |
| `Model/RoundedControl` | the control of the filter and the time of the end of a scan in double precision |
| `Model/RoundedTrack` | poses predicted from odometry and corrected by matching in double precision |
| `Model/RoundedTypical` | the typical response in double precision |
| `Model/RoundedInformation` | `Matrix3d::inverse` and `LLT` in double precision |
| `Model/Draws` | the normal distributions of the filter, and the node that checks them |
| `Model/Discrete` | the discrete distribution that `resample` draws from |
| `Spec/*` | independent specifications used in statements |
| `Proof/*` | helper lemmas, demo states used as witnesses |
| `Props/*` | the property theorems and, beside each, a concrete case of its hypotheses |
| `UnitTests/*` | the package's unit tests, run on the model |
| `Audit` | axioms of every property theorem |

## 7. How properties are stated and proved

* A property the code satisfies: theorem `cNN_*` for all inputs or all executions, `proved`.
* A property the code violates: a theorem that negates it with a concrete witness, the exact law where there is one,
  and what does hold, with suffix `_partial`; the claim is `partial` and its note says what is missing and why.
* Data structures: refinement to a batch or set specification by induction over operation lists (C01-C10, C19-C27).
* Matcher: optimality and bounds over the candidate list with NaN-aware comparison (C11-C18, C75, C76);
  which of several equally good candidates is taken, from the order of the search (C123, C157, C158, C159), and what that does to a node
  with exact sensors (C124: a run of the whole node, and a refinement to the ideal world of C122) or with an odometry that
  drifts (C160, C161: induction over the stops of a localising and of a mapping node; C162: both, with the file between them; C163: with messages between the stops; C164, C165, C166: whatever the publishing thread and, when localising or with a short map, the loop closure thread do meanwhile). Only beams with five
  points of the map within one square count for a score, so an accepted loop closure means overlap (C125);
  and scans tied by a loop are near each other, by an invariant on the list of candidates (C127).
* Graph and solver: exact algebra (C30-C34), oracle for Ceres (C35-C37), messages (C38, C41), nearest search (C39, C40).
* Maps without anything to correct: the cost is zero exactly for maps that agree with their constraints, and the links back to
  the fixed first scan leave one such map (C111).
* Single precision: the proofs about roundings to nearest are those for doubles with other widths; errors of sequences of motions
  by induction, with the error of the heading multiplied by the length of the motion (C112, C113). Dead reckoning in doubles is
  bounded in the same way; the functions of the C library are any that are accurate to `2^-52` (C114).
  For the filter a sum of n rounded terms is off by n roundings of the sum of their absolute values (C115).
  The mean heading is the direction of a vector whose components are such sums; a turn is at most the tangent of itself (C131).
  For points the errors of a rotation and a shift are added up, once per stage (C121).
* Filter: the mean heading by projecting the sum of the heading vectors on the ends of the arc (C116); two filters in two frames
  by a relation between their particles that every operation keeps (C117).
* Jacobians: a dual number is a value with its Fréchet derivative, operation by operation (C104).
* Grid: the code's own integer line algorithm with its error invariant (C42-C46); the same invariant bounds how far the
  cells are from the line, in cells and in metres (C118).
* Mapper: `Mapper.Trans` lists the possible transitions (`step_trans` proves the list complete); invariants are proved once
  per transition and lifted to `Spec.Exec` and `Spec.Reach` (C50-C64, C66-C68, C70, C72, C73, C77, C78, C109, C110, C119, C120, C122). Refutations are runs
  constructed step by step.
* Node: invariants that tie the matchers to the scans the mapper says they hold, and the filter to a history of its operations
  (C58, C74-C76, C82-C84).
* Progress: C85 (mapping) and C86 (localising, with or without the filter) put the invariants together. `Spec/Progress` says
  what an ordinary input and a bounded node are; every fault the model can report is excluded by one of the invariants, for
  every next input.
* Two runs compared: maps of the same scans in another order or elsewhere (C99, C100) are compared square by square.
* Termination: a number that every step of a thread decreases and no step of another thread increases (C87).

## 8. Findings

Faults and surprises of the code found while proving, all stated as theorems:

| property | finding |
|---|---|
| C05 | five or more copies of one point in a square make its score NaN |
| C06 | far or NaN points are undefined conversions; grids beyond 2^31 cells wrap the index |
| C16 | the outer product of the mean is added, not subtracted, in the match covariance |
| C18, C58 | a scan without points scores 0/0; the typical response is then NaN for ever and loop closure stops |
| C22 | a measurement that scores zero everywhere makes all weights NaN |
| C24 | the heading variance is never reset and adds up |
| C26 | resampled particles keep their old weights |
| C34 | residuals are weighted by L instead of its transpose |
| C40 | the squared distance is compared with the limit in metres |
| C42, C46 | positions of scans are not part of the grid bounds; moved scans and smaller loaded maps are not covered |
| C44 | for |dy| < |dx| <= 2|dy| the hit is recorded in the neighbouring cell |
| C47 | an inverted laser loses its first beam; an empty message from one is read out of bounds |
| C49 | motion compensation does not turn the translation into the robot frame and does not normalise the heading |
| C57 | the rolling window has ten scans whatever the depth; short graphs with small depth leave the vector; every depth other than ten fails on some drive |
| C60 | a search limit of 0 wraps to 2^64-1 |
| C61, C67 | counters, solver and grid survive a load |
| C62, C73 | loop closure runs in filter mode and after disabling; the global matcher is not rebuilt |
| C63, C68 | constraint before scan; a map loaded during a round gets constraints of the old one, or an index out of range |
| C66 | with a map at start the loop closure thread dereferences a null matcher before the first laser message |
| C69, C70 | data races; a torn transform while an initial pose is set |
| C71 | the destructor waits for a shutdown of the process |
| C72 | the scan after the candidate is left out of its region |
| C74 | localising in an empty map is undefined behaviour |
| C76 | without overlap the covariance is NaN, and so is every residual of that constraint |
| C77 | loop closure moves the newest scan but not the pose the next scan starts from |
| C80 | in doubles the default search makes 21 rounds instead of 20 and never tries the uncorrected position |
| C81 | in doubles aligned grid bounds move outwards by a cell without new data |
| C82 | in filter mode with an empty map a standing robot is moved to the origin |
| C83 | a scan without a usable beam makes the filter's mean and so the robot's pose NaN |
| C89 | loading a name without a bag, or saving under a name that is taken, ends the node |
| C90 | a laser tilted by more than 2.3 degrees is treated as inverted: its scans are mirrored |
| C92 | the end time of a laser message without beams is an undefined conversion |
| C93 | resampling raises the expected weight of the best particle, without a measurement (C26 in expectation) |
| C94 | negative integer parameters become enormous: rolling_depth -1 switches loop closure off |
| C95 | a pose given while mapping adds a scan and a constraint that are not published until something else is |
| C96 | a mapping node takes a pose only within 3.16 m of a scan; with an empty map it can not be localised at all |
| C97 | disable_mapping.py followed by enable_mapping.py does not continue the mapping |
| C98 | in doubles five points with the same y = 5.3 have a negative variance, and a point beside them an infinite score |
| C101 | to the left of or below the origin a map reaches to the origin: its box starts from `numeric_limits<double>::min()`, a positive number |
| C102 | `range_min` is not read: zero ranges become points at the laser, and five of them alone in a square switch matching off there |
| C103 | the range limit counts from the laser, the box of a map from the robot: with a laser ahead of the middle the longest beams are lost |
| C104 | the heading residual jumps at half turns; there Ceres is still given a Jacobian |
| C105 | an initial pose with a negative variance makes all particles NaN; the next scan is undefined behaviour |
| C106 | real parameters are not checked: with a search step of zero the node maps its first scan and never ends with the second |
| C107 | a cloud of particles in one bin takes the most particles, not the fewest |
| C108 | the bins at zero are twice as large as the others; headings at half a turn are far apart |
| C109 | the transform is published though the robot has no place in the map yet: the identity, or that of the map given up |
| C110 | every message is read with the mounting and the largest range of the first |
| C113 | poses are drawn in single precision: at a northing of 4194304.25 m every particle is a quarter of a metre off |
| C115 | in doubles three particles at x = 0.1 have a negative variance |
| C117 | the number of particles drawn depends on the frame (see C108); so does the mean of headings that cancel out |
| C118 | the line algorithm tests its error after it has changed it: on flat rays cells up to 1.5 cells aside of the line are counted as empty, and a measured obstacle that no other beam enters can be shown as free |
| C119 | a loop closed in a round with too few scans for the optimiser is forgotten: the optimiser runs only after another one |
| C123 | a square of points on one line has no information along the line, and the first of equal offsets is taken: along a straight wall parallel to the x axis a scan is pushed by `-search_linear_size` (5 cm) with a perfect score |
| C124 | so the node with default parameters misplaces a robot with exact odometry and an exact laser: turning on the spot before a wall moves it by 5 cm in the map |
| C127 | a map loaded while the loop closure thread works through its candidates: the scan of the old map is tied to a scan of the new one, at any distance |
| C128 | in doubles five points with y = 5.3 make a map in which a scan is matched with the score minus infinity and a covariance of NaN; after that the typical response is minus infinity and no loop closure is ever accepted |
| C129 | with an angular resolution of the search of zero (or below 2^-55 of the window) `matchScan` never returns, also in doubles |
| C130 | in doubles, a particle with an infinite score (C128) makes the mean position of the filter NaN; and a wall 2 m ahead seen by a particle 6.25 cm nearer to it has a likelihood that underflows to zero: alone, its weight and the mean position are NaN |
| C132 | `NormalizeAngle` of the largest double below `M_PI` is less than -pi, against its comment (harmless) |
| C134 | a robot that turned on the spot, or an initial pose with a variance of zero, makes a `std::normal_distribution` with deviation zero, which the standard forbids: built with the assertions of libstdc++ the node ends |
| C135 | a scan that says nothing makes all weights NaN, for which the first particle is drawn every time: all particles become copies of it (with the assertions of libstdc++ the node ends); a uniform number of zero draws the first particle even if it has no weight |
| C136 | the rounded shares of the weights 0.2, 0.4, 0.3, 0.1, 0 add up to less than one: the largest double below one draws the last particle, which has no weight |
| C156 | the column and row of a point are converted to `unsigned int` before they are compared with the size of the map: undefined for a point 2^32 squares or more to the right of the map or above it, which an initial pose may put there |
| C157 | C123 for walls of any direction: a scan is pushed along every wall along which the window has an offset, parallel to the y axis or at 45 degrees for example |
| C29 | the fifth noise coefficient is not used |

## 9. Tests of the theorems

`seeded/LOG.jsonl` has a line per wrong program: the definition edited, the edit, the claim it breaks, theorems that fail
by themselves (`theorems_failed`), lemmas that fail, and theorems that rest on failing lemmas. For many faults of the mapper
the list of transitions was adapted as well, so that the failure is that of an invariant and not of the bookkeeping
(`helper_lemmas_adapted`). Failing proofs are replaced one by one and the build goes on, so the list is of everything that
fails by itself and not only of what fails first. Where nothing failed but a lemma that restates the code line by line the
outcome is `inconclusive`, and the attempt was repeated with that lemma adapted. Where the claim says "none expected" the edit was meant not to violate anything.

`UnitTests/*` goes the other way: the expectations of the package's own unit tests (test/*.cpp), except the statistical ones,
are proved of the model. They are a check of the reading of the code.

## 10. Not covered

Wall clock behaviour, the effect of data races beyond sequential consistency, accumulated rounding error of poses moved by loop closure or the optimiser (odometry and corrections: C114, C147),
convergence or quality of the optimiser, statistics of the random draws (they are arbitrary inputs; only C93 weighs them by their chances), ROS middleware.
