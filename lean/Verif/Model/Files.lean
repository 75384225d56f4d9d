import Verif.Model.Mapper

/-!
# The node and the bag files it reads and writes (src/ndt_mapper.cpp:106-116, 155-186, src/graph.cpp:49-165)

`Model/Mapper` takes the content of a file from outside. Here files are kept by name. `rosbag2_cpp::Reader::open` throws when
there is no such bag and `rosbag2_cpp::Writer::open` when there is one already; neither is caught, so both end the
node (`exception`).
-/

namespace Ndt

noncomputable section

/-- Bag files by name: the messages as a reader returns them (src/graph.cpp:49-105). -/
abbrev Disk := String → Option (List BagMsg)

/-- The mapper and its files (src/ndt_mapper.cpp:155-186). -/
structure Station where
  sys : Sys
  disk : Disk

/-- What can happen next: a request to `configure` with its file name, or anything else. `read` is the order in which a
reader will return the messages, should the request write a file (src/ndt_mapper.cpp:155-745). -/
inductive Happening where
  | mapper (e : Event)
  | request (action : BitVec 32) (name : String) (read : List BagMsg)

namespace Station

/-- src/graph.cpp:107-111, 162: the messages are in the file, and a reader will return them in the order `read`. -/
def store (disk : Disk) (name : String) (read : List BagMsg) : Disk := fun n => if n = name then some read else disk n

/-- A reader returns the messages of each topic in the order they were written (src/graph.cpp:58-61). -/
def Returns (read written : List BagMsg) : Prop :=
  (read.filter fun m => m.topic = "scans") = (written.filter fun m => m.topic = "scans") ∧
  (read.filter fun m => ¬ m.topic = "scans") = (written.filter fun m => ¬ m.topic = "scans")

instance (read written : List BagMsg) : Decidable (Returns read written) := Classical.propDecidable _

/-- src/ndt_mapper.cpp:155-186 `configure` with files. An order of reading that is none of the file written cannot happen. -/
def request (p : Params) (action : BitVec 32) (name : String) (read : List BagMsg) (w : Station) : Res Station :=
  if action &&& 4#32 ≠ 0#32 then
    match w.disk name with
    | none => .error .exception
    | some bag => do
        let s ← Mapper.configure p action bag w.sys
        .ok { w with sys := s }
  else do
    let s ← Mapper.configure p action [] w.sys
    if action &&& 8#32 ≠ 0#32 then
      match w.disk name with
      | some _ => .error .exception
      | none =>
          if Returns read (s.graph p).save then .ok ⟨s, store w.disk name read⟩
          else .ok w
    else .ok { w with sys := s }

/-- One atomic piece of work (src/ndt_mapper.cpp:155-745). -/
def step (p : Params) (w : Station) : Happening → Res Station
  | .mapper (.configure _ _) => .ok w
  | .mapper e => do
      let s ← Mapper.step p w.sys e
      .ok { w with sys := s }
  | .request action name read => match w.sys.spin with
      | .idle => request p action name read w
      | _ => .ok w

/-- src/ndt_mapper.cpp:106-116: the constructor with parameter `map_file`; an empty name is no file. -/
def start (p : Params) (enable : Bool) (mapFile : String) (disk : Disk) : Res Station :=
  if mapFile = "" then do
    let s ← Mapper.start p enable none
    .ok ⟨s, disk⟩
  else
    match disk mapFile with
    | none => .error .exception
    | some bag => do
        let s ← Mapper.start p enable (some bag)
        .ok ⟨s, disk⟩

end Station

end

end Ndt
