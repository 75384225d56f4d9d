import Verif.Model.Mapper
import Mathlib.Algebra.Order.Floor.Ring

/-!
# Times of a laser message (src/ndt_mapper.cpp:326-383)

`Model/Mapper` takes the poses at the start and at the end of a scan from outside. Here they are looked up at the times the
callback computes; the transform buffer is a function from times to poses.
-/

namespace Ndt

noncomputable section

/-- builtin_interfaces Time (src/ndt_mapper.cpp:328, 370). -/
structure Stamp where
  sec : ℤ
  nanosec : ℕ

/-- `time_increment` and the stamp of a laser message (src/ndt_mapper.cpp:369-372). -/
structure LaserTimes where
  stamp : Stamp
  increment : ℝ

namespace Timing

/-- The nanoseconds of a stamp (src/ndt_mapper.cpp:328). -/
def nanoseconds (t : Stamp) : ℤ := t.sec * 10 ^ 9 + t.nanosec

/-- The constructor of `rclcpp::Time` from a message throws for negative seconds (src/ndt_mapper.cpp:370). -/
def time (t : Stamp) : Res ℤ := if t.sec < 0 then .error .exception else .ok (nanoseconds t)

/-- `rclcpp::Duration::from_seconds`: times 10^9, converted to `int64_t`, undefined outside of its range
(src/ndt_mapper.cpp:371). -/
def fromSeconds (s : ℝ) : Res ℤ :=
  let v := s * 10 ^ 9
  if -2 ^ 63 - 1 < v ∧ v < 2 ^ 63 then .ok (if 0 ≤ v then ⌊v⌋ else ⌈v⌉) else .error .conversion

/-- `rclcpp::Time + rclcpp::Duration` throws if the sum does not fit (src/ndt_mapper.cpp:370). -/
def add (t d : ℤ) : Res ℤ := if -2 ^ 63 ≤ t + d ∧ t + d < 2 ^ 63 then .ok (t + d) else .error .exception

/-- src/ndt_mapper.cpp:370-372: the time of the end of the scan. `ranges.size() - 1` wraps around for an empty message. -/
def endTime (times : LaserTimes) (n : ℕ) : Res ℤ := do
  let t ← time times.stamp
  let d ← fromSeconds ((if n = 0 then 2 ^ 64 - 1 else (n : ℝ) - 1) * times.increment)
  add t d

/-- Whether the callback gets to line 368 (src/ndt_mapper.cpp:270-365). -/
def reaches (p : Params) (msg : LaserMsg) (mount : Option (Pose2d × Bool)) (odom : Option Pose2d) (s : Sys) : Prop :=
  let r := Mapper.laserSetup p msg mount s
  r.2 = true ∧ r.1.initialized = true ∧ ∃ o, odom = some o ∧ ¬ (r.1.scans ≠ [] ∧ Mapper.tooLittle p r.1 o)

instance (p : Params) (msg : LaserMsg) (mount : Option (Pose2d × Bool)) (odom : Option Pose2d) (s : Sys) :
    Decidable (reaches p msg mount odom s) := Classical.propDecidable _

/-- src/ndt_mapper.cpp:267-455 `laserCallback` with its lookups at lines 333 and 376. -/
def laserCallback (p : Params) (msg : LaserMsg) (times : LaserTimes) (mount : Option (Pose2d × Bool)) (tf : ℤ → Option Pose2d)
    (s : Sys) : Res Sys :=
  let odom := tf (nanoseconds times.stamp)
  if reaches p msg mount odom s then do
    let e ← endTime times msg.ranges.length
    Mapper.laserCallback p msg mount odom (tf e) s
  else Mapper.laserCallback p msg mount odom none s

end Timing

end

end Ndt
