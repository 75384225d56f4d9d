import Mathlib.Tactic.Common

/-!
# Ending the mapper (src/ndt_mapper.cpp:141-153, 569-571, 687-689)

The two threads of the mapper loop while `rclcpp::ok()`, that is, until the process is told to shut down. The destructor
waits for both. What the threads do in a round is left out (each round ends: Props/LockProps); the destructor is
called by whoever owns the node.
-/

namespace Ndt.Shutdown

/-- Where the destructor is (src/ndt_mapper.cpp:145-153). -/
inductive Destructor where
  /-- not called -/
  | alive
  /-- src/ndt_mapper.cpp:148 -/
  | joinPublisher
  /-- src/ndt_mapper.cpp:149 -/
  | joinLoop
  /-- src/ndt_mapper.cpp:151-153 -/
  | done
  deriving DecidableEq

/-- A thread: at the condition of its loop, in the body, or finished. -/
inductive Thread where
  | condition
  | body
  | finished
  deriving DecidableEq

/-- `ok` is `rclcpp::ok()` (src/ndt_mapper.cpp:145-153). -/
structure State where
  ok : Bool
  publisher : Thread
  loop : Thread
  destructor : Destructor

/-- src/ndt_mapper.cpp:141-142: both threads are started by the constructor. -/
def State.start : State := ⟨true, .condition, .condition, .alive⟩

/-- src/ndt_mapper.cpp:571, 689: one step of a thread. -/
def Thread.step (ok : Bool) : Thread → Thread
  | .condition => if ok then .body else .finished
  | .body => .condition
  | .finished => .finished

/-- What can happen (src/ndt_mapper.cpp:145-153). -/
inductive Event where
  /-- SIGINT or `rclcpp::shutdown()` -/
  | shutdown
  /-- the owner drops the node, e.g. a component container unloads it -/
  | destroy
  | publisher
  | loop
  /-- the destructor goes on if the thread it waits for has finished -/
  | join

/-- One step (src/ndt_mapper.cpp:145-153, 571, 689). -/
def step (s : State) : Event → State
  | .shutdown => { s with ok := false }
  | .destroy => if s.destructor = .alive then { s with destructor := .joinPublisher } else s
  | .publisher => { s with publisher := s.publisher.step s.ok }
  | .loop => { s with loop := s.loop.step s.ok }
  | .join => match s.destructor with
      | .joinPublisher => if s.publisher = .finished then { s with destructor := .joinLoop } else s
      | .joinLoop => if s.loop = .finished then { s with destructor := .done } else s
      | _ => s

/-- A history (src/ndt_mapper.cpp:145-153). -/
def run (s : State) (es : List Event) : State := es.foldl step s

end Ndt.Shutdown
