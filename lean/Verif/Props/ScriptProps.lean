import Verif.Model.Scripts
import Verif.Props.FilesProps

/-! # C97 The scripts do what they are called -/

namespace Ndt

noncomputable section

open Spec Mapper

/-- **C97** enable_mapping.py switches mapping on and changes nothing else. -/
theorem c97_enable_mapping (p : Params) (w : Station) (args : List String) (read : List BagMsg) (hi : w.sys.spin = .idle) :
    w.script p .enableMapping args read = .ok { w with sys := { w.sys with enable := true } } := by
  simp [Station.script, Script.request, Station.step, hi, Station.request, Configure.ENABLE_MAPPING, configure, configureMapping,
    configureFile]

/-- **C97** disable_mapping.py switches mapping off, takes the robot for lost, and changes nothing else. -/
theorem c97_disable_mapping (p : Params) (w : Station) (args : List String) (read : List BagMsg) (hi : w.sys.spin = .idle) :
    w.script p .disableMapping args read = .ok { w with sys := { w.sys with enable := false, initialized := false } } := by
  simp [Station.script, Script.request, Station.step, hi, Station.request, Configure.DISABLE_MAPPING, configure,
    configureMapping, configureFile]

/-- **C97** save_map.py writes the map of the node into the file and changes nothing else, if there is no such file yet. -/
theorem c97_save_map (p : Params) (w : Station) (file : String) (args : List String) (read : List BagMsg)
    (hi : w.sys.spin = .idle) (hd : w.disk file = none) (hr : Interleaving read (w.sys.graph p).save) :
    ∃ v, w.script p .saveMap (file :: args) read = .ok v ∧ v.sys = w.sys ∧ v.disk file = some read ∧
      ∀ other, other ≠ file → v.disk other = w.disk other := by
  have hc : configure p 8#32 [] w.sys = .ok w.sys := by
    simp [configure, configureMapping, configureFile]
  refine ⟨⟨w.sys, Station.store w.disk file read⟩, ?_, rfl, by simp [Station.store], fun o ho => by simp [Station.store, ho]⟩
  have : w.script p .saveMap (file :: args) read = Station.request p 8#32 file read w := by
    simp [Station.script, Script.request, Station.step, hi, Configure.SAVE_TO_FILE]
  rw [this]
  unfold Station.request
  rw [if_neg (by decide), hc, Res.ok_bind, if_pos (by decide), hd]
  exact if_pos hr

/-- **C97** load_map.py replaces the map of the node by that of the file, which stays, and takes the robot for lost. -/
theorem c97_load_map (p : Params) (w : Station) (file : String) (args : List String) (read bag : List BagMsg) (g : Graph)
    (hi : w.sys.spin = .idle) (hd : w.disk file = some bag) (hg : Graph.load p.useBarycenter bag = .ok g) :
    ∃ v, w.script p .loadMap (file :: args) read = .ok v ∧ v.sys.scans = g.scans ∧ v.sys.constraints = g.constraints ∧
      v.sys.update = true ∧ v.sys.initialized = false ∧ v.sys.enable = w.sys.enable ∧ v.disk = w.disk := by
  have : w.script p .loadMap (file :: args) read = Station.request p 4#32 file read w := by
    simp [Station.script, Script.request, Station.step, hi, Configure.LOAD_FROM_FILE]
  rw [this]
  unfold Station.request
  rw [if_pos (by decide), hd]
  simp only [configure, configureFile, configureMapping]
  rw [if_pos (by decide), hg]
  refine ⟨_, rfl, ?_, rfl, rfl, rfl, rfl, rfl⟩
  simp [Sys.scans]

/-- **C97** Without a file name the last two send nothing. -/
theorem c97_no_file_name (p : Params) (w : Station) (read : List BagMsg) :
    w.script p .loadMap [] read = .ok w ∧ w.script p .saveMap [] read = .ok w := ⟨rfl, rfl⟩

/-- **C97** What save_map.py saved load_map.py brings back, whatever scripts were run and whatever the node did in between. -/
theorem c97_save_then_load (p : Params) (w w1 v v1 : Station) (hs : List Happening) (file : String) (args args' : List String)
    (read read' : List BagMsg) (hi : w.sys.spin = .idle) (hr : Interleaving read (w.sys.graph p).save)
    (hsave : w.script p .saveMap (file :: args) read = .ok w1) (hex : StationExec p w1 hs v) (hv : v.sys.spin = .idle)
    (hload : v.script p .loadMap (file :: args') read' = .ok v1)
    (h64 : ∀ c ∈ w.sys.constraints, c.begin_ < 2 ^ 64 ∧ c.end_ < 2 ^ 64) : SameData v1.sys w.sys :=
  c88_saved_map_comes_back p w w1 v v1 hs file Configure.SAVE_TO_FILE Configure.LOAD_FROM_FILE read read' hi
    (by unfold AsksToSave; decide) hr hsave hex hv (by decide) hload h64

/-- **C97** (refuted for disable and enable) Running disable_mapping.py and then enable_mapping.py does not continue the mapping:
the robot is lost and no laser message changes the map until a pose is given. -/
theorem c97_disable_enable_does_not_resume (p : Params) (w : Station) (hi : w.sys.spin = .idle) : ∃ v1 v2,
    w.script p .disableMapping [] [] = .ok v1 ∧ v1.script p .enableMapping [] [] = .ok v2 ∧ v2.sys.enable = true ∧
    v2.sys.initialized = false ∧ SameMap w.sys v2.sys ∧
    ∀ msg mount odom odomEnd t, step p v2.sys (.laser msg mount odom odomEnd) = .ok t →
      SameMap w.sys t ∧ t.initialized = false := by
  refine ⟨_, _, c97_disable_mapping p w [] [] hi, c97_enable_mapping p _ [] [] hi, rfl, rfl, ⟨rfl, rfl⟩, ?_⟩
  intro msg mount odom odomEnd t ht
  cases step_trans ht with
  | stutter => exact ⟨⟨rfl, rfl⟩, rfl⟩
  | laserIgnored =>
    obtain ⟨r, l, g, m, e, -⟩ := setup_cases p msg mount { w.sys with enable := true, initialized := false }
    rw [e]; exact ⟨⟨rfl, rfl⟩, rfl⟩
  | laserScan _ _ _ _ points hi hgo hinit ht => cases hinit

/-- Example: the small map is saved by one script and loaded by the other. -/
example : ∃ w v v1 : Station, ∃ read, w.sys.spin = .idle ∧ w.sys.scans.length = 2 ∧
    w.script (demoParams 10 3) .saveMap ["map"] read = .ok v ∧ v.disk "map" = some read ∧
    v.script (demoParams 10 3) .loadMap ["map"] [] = .ok v1 := by
  let w : Station := ⟨demoLoaded (demoParams 10 3) true, fun _ => none⟩
  have hr : Interleaving (w.sys.graph (demoParams 10 3)).save (w.sys.graph (demoParams 10 3)).save := ⟨rfl, rfl⟩
  obtain ⟨v, h1, h2, h3, -⟩ := c97_save_map (demoParams 10 3) w "map" [] _ rfl rfl hr
  have hc : ∀ c ∈ w.sys.constraints, c.begin_ < 2 ^ 64 ∧ c.end_ < 2 ^ 64 := by
    intro c hc
    simp [w, demoLoaded, startWith, demoMap] at hc
    rw [hc]
    simp [demoLink]
  obtain ⟨g, hg, -⟩ := c38_save_load_lossless (w.sys.graph (demoParams 10 3)) (demoParams 10 3).useBarycenter _ hr hc
  obtain ⟨v1, h4, -⟩ := c97_load_map (demoParams 10 3) v "map" [] [] _ g (by rw [h2]; rfl) h3 hg
  exact ⟨w, v, v1, _, rfl, by simp [w, demoLoaded, startWith, Sys.scans, demoMap], h1, h3, h4⟩

end

end Ndt
