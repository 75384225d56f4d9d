import Verif.Model.Files

/-!
# The command line scripts (scripts/enable_mapping.py, disable_mapping.py, load_map.py, save_map.py)

A script waits for the service, sends one request and waits for the answer. `args` are the words after the name of the
script; a script that needs a file name and gets none ends with an exception before it sends anything. The numbers of the actions
are those of srv/Configure.srv.
-/

namespace Ndt

/-- The scripts (scripts/). -/
inductive Script where
  | enableMapping
  | disableMapping
  | loadMap
  | saveMap

/-- srv/Configure.srv:1-4 the constants of the request. -/
def Configure.ENABLE_MAPPING : BitVec 32 := 1#32
/-- srv/Configure.srv:1-4. -/
def Configure.DISABLE_MAPPING : BitVec 32 := 2#32
/-- srv/Configure.srv:1-4. -/
def Configure.LOAD_FROM_FILE : BitVec 32 := 4#32
/-- srv/Configure.srv:1-4. -/
def Configure.SAVE_TO_FILE : BitVec 32 := 8#32

/-- The request a script sends: action and file name (scripts/enable_mapping.py:18-19, disable_mapping.py:18-19,
load_map.py:20-22, save_map.py:20-22). -/
def Script.request (args : List String) : Script → Option (BitVec 32 × String)
  | .enableMapping => some (Configure.ENABLE_MAPPING, "")
  | .disableMapping => some (Configure.DISABLE_MAPPING, "")
  | .loadMap => args.head?.map fun f => (Configure.LOAD_FROM_FILE, f)
  | .saveMap => args.head?.map fun f => (Configure.SAVE_TO_FILE, f)

noncomputable section

/-- A script run while the node is idle; `read` as in `Station.request` (scripts/, src/ndt_mapper.cpp:155-186). -/
def Station.script (p : Params) (sc : Script) (args : List String) (read : List BagMsg) (w : Station) : Res Station :=
  match sc.request args with
  | none => .ok w
  | some (action, name) => w.step p (.request action name read)

end

end Ndt
