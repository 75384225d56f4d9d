import Verif.Proof.Files
import Verif.Props.GraphProps
import Verif.Proof.DemoLoop

/-! # Map files (C88, C89) -/

namespace Ndt

noncomputable section

open Spec

/-! ## C88 A saved map comes back -/

/-- **C88** A file is never changed: what is in it stays, whatever happens. -/
theorem c88_files_stay (p : Params) (w v : Station) (hs : List Happening) (h : StationExec p w hs v) (name : String)
    (bag : List BagMsg) (hd : w.disk name = some bag) : v.disk name = some bag := by
  induction h with
  | nil => exact hd
  | snoc _ hst ih => exact Station.step_disk hst name bag ih

/-- **C88** A map that was saved comes back: whatever happened since (mapping, other maps loaded, other files written), a
request to load the file gives the scans and constraints of the moment it was saved, in whatever order the reader
returns them. -/
theorem c88_saved_map_comes_back (p : Params) (w w1 v v1 : Station) (hs : List Happening) (name : String)
    (action action' : BitVec 32) (read read' : List BagMsg) (hi : w.sys.spin = .idle) (ha : AsksToSave action)
    (hr : Interleaving read (w.sys.graph p).save) (hsave : Station.step p w (.request action name read) = .ok w1)
    (hex : StationExec p w1 hs v) (hv : v.sys.spin = .idle) (hl : action' &&& 4#32 ≠ 0#32)
    (hload : Station.step p v (.request action' name read') = .ok v1)
    (h64 : ∀ c ∈ w.sys.constraints, c.begin_ < 2 ^ 64 ∧ c.end_ < 2 ^ 64) : SameData v1.sys w.sys := by
  obtain ⟨h1, -, -⟩ := Station.saved hi ha hsave hr
  have h2 := c88_files_stay p w1 v hs hex name read h1
  obtain ⟨bag, g, hb, hg, hsc, hcs, -, -⟩ := Station.loaded hv hl hload
  rw [h2] at hb
  injection hb with hb
  subst hb
  obtain ⟨g', hg', -, hc', hs'⟩ := c38_save_load_lossless (w.sys.graph p) p.useBarycenter read hr h64
  rw [hg] at hg'
  injection hg' with hg'
  subst hg'
  exact ⟨by rw [hsc]; exact hs', by rw [hcs]; exact hc'⟩

/-- **C88** The same when the node is started anew with the file, whatever its parameters are then. -/
theorem c88_restart_with_saved_map (p p' : Params) (w w1 v v1 : Station) (hs : List Happening) (name : String) (enable : Bool)
    (action : BitVec 32) (read : List BagMsg) (hi : w.sys.spin = .idle) (ha : AsksToSave action)
    (hr : Interleaving read (w.sys.graph p).save) (hsave : Station.step p w (.request action name read) = .ok w1)
    (hex : StationExec p w1 hs v) (hn : name ≠ "") (hload : Station.start p' enable name v.disk = .ok v1)
    (h64 : ∀ c ∈ w.sys.constraints, c.begin_ < 2 ^ 64 ∧ c.end_ < 2 ^ 64) : SameData v1.sys w.sys := by
  obtain ⟨h1, -, -⟩ := Station.saved hi ha hsave hr
  have h2 := c88_files_stay p w1 v hs hex name read h1
  unfold Station.start at hload
  rw [if_neg hn, h2] at hload
  obtain ⟨s, h3, h4⟩ := Mapper.bind_ok hload
  injection h4 with h4
  subst h4
  obtain ⟨g, hg, h5⟩ := Mapper.bind_ok h3
  injection h5 with h5
  subst h5
  obtain ⟨g', hg', -, hc', hs'⟩ := c38_save_load_lossless (w.sys.graph p) p'.useBarycenter read hr h64
  rw [hg] at hg'
  injection hg' with hg'
  subst hg'
  exact ⟨hs', hc'⟩

/-- **C88** Saving leaves the map alone. -/
theorem c88_saving_leaves_the_map (p : Params) (w w' : Station) (action : BitVec 32) (name : String) (read : List BagMsg)
    (ha : action &&& 4#32 = 0#32) (hst : Station.step p w (.request action name read) = .ok w') : SameMap w.sys w'.sys := by
  have hm : SameMap w.sys (Mapper.configureMapping action w.sys) := by
    obtain ⟨en, ini, e, -⟩ := configureMapping_frame action w.sys
    rw [e]; exact ⟨rfl, rfl⟩
  unfold Station.step at hst
  dsimp only at hst
  split at hst
  · rcases Station.request_cases hst with ⟨b, h, -⟩ | ⟨-, -, e, -⟩ | ⟨-, -, e, -⟩ | ⟨-, -, e⟩
    · exact absurd ha h
    · rw [e]; exact hm
    · rw [e]; exact hm
    · rw [e]; exact ⟨rfl, rfl⟩
  · injection hst with hst
    rw [← hst]; exact ⟨rfl, rfl⟩

/-- **C88** A request with both flags loads and saves nothing. -/
theorem c88_load_goes_first (p : Params) (w w' : Station) (action : BitVec 32) (name : String) (read : List BagMsg)
    (ha : action &&& 4#32 ≠ 0#32) (hst : Station.step p w (.request action name read) = .ok w') : w'.disk = w.disk := by
  unfold Station.step at hst
  dsimp only at hst
  split at hst
  · rcases Station.request_cases hst with ⟨b, -, -, -, e⟩ | ⟨h, -⟩ | ⟨h, -⟩ | ⟨h, -⟩
    · exact e
    · exact absurd h.2 ha
    · exact absurd h ha
    · exact absurd h.2 ha
  · injection hst with hst
    rw [← hst]

/-- **C88** What the node does with files is what the mapper of the other theorems does when it is given their contents: every
execution with files is an execution of the mapper. -/
theorem c88_refines (p : Params) (w v : Station) (hs : List Happening) (h : StationExec p w hs v) :
    ∃ es, Exec p Any w.sys es v.sys := by
  induction h with
  | nil => exact ⟨[], .nil⟩
  | snoc _ hst ih =>
    obtain ⟨es, ih⟩ := ih
    rcases Station.refines_step hst with h | ⟨e, h, -⟩
    · exact ⟨es, h ▸ ih⟩
    · exact ⟨es ++ [e], .snoc ih trivial h⟩

/-- Example: the small map is saved (flag 8), disabling mapping leaves the file, and loading it (flag 4) brings the map
back. -/
example : ∃ w w1 v v1 : Station, ∃ read, w.sys.spin = .idle ∧ w.sys.scans.length = 2 ∧ AsksToSave 8#32 ∧
    Interleaving read (w.sys.graph (demoParams 10 3)).save ∧
    Station.step (demoParams 10 3) w (.request 8#32 "map" read) = .ok w1 ∧
    StationExec (demoParams 10 3) w1 [.request 2#32 "" []] v ∧ v.sys.spin = .idle ∧
    Station.step (demoParams 10 3) v (.request 4#32 "map" []) = .ok v1 ∧
    (∀ c ∈ w.sys.constraints, c.begin_ < 2 ^ 64 ∧ c.end_ < 2 ^ 64) := by
  let p := demoParams 10 3
  let w : Station := ⟨demoLoaded p true, fun _ => none⟩
  have hc : ∀ c ∈ w.sys.constraints, c.begin_ < 2 ^ 64 ∧ c.end_ < 2 ^ 64 := by
    intro c hc
    simp [w, demoLoaded, Mapper.startWith, demoMap] at hc
    subst hc
    simp [demoLink]
  let read := (w.sys.graph p).save
  have hr : Interleaving read (w.sys.graph p).save := ⟨rfl, rfl⟩
  let w1 : Station := ⟨w.sys, Station.store w.disk "map" read⟩
  have e1 : Station.step p w (.request 8#32 "map" read) = .ok w1 := by
    show Station.request p 8#32 "map" read w = _
    unfold Station.request
    rw [if_neg (by decide)]
    show (if Station.Returns read (w.sys.graph p).save then _ else _) = _
    rw [if_pos (show Station.Returns read (w.sys.graph p).save from hr)]
    rfl
  let v : Station := ⟨{ w.sys with enable := false, initialized := false }, w1.disk⟩
  have e2 : Station.step p w1 (.request 2#32 "" []) = .ok v := rfl
  obtain ⟨g, hg, -⟩ := c38_save_load_lossless (w.sys.graph p) p.useBarycenter read hr hc
  have e3 : ∃ v1, Station.step p v (.request 4#32 "map" []) = .ok v1 := by
    refine ⟨⟨{ v.sys with epoch := 1, heap := fun e => if e = 1 then g.scans else v.sys.heap e,
                          constraints := g.constraints, update := true, initialized := false }, v.disk⟩, ?_⟩
    show Station.request p 4#32 "map" [] v = _
    unfold Station.request
    rw [if_pos (by decide)]
    show (Mapper.configure p 4#32 read v.sys >>= _) = _
    unfold Mapper.configure Mapper.configureFile
    rw [if_pos (by decide), hg]
    rfl
  obtain ⟨v1, e3⟩ := e3
  exact ⟨w, w1, v, v1, read, rfl, rfl, ⟨by decide, by decide⟩, hr, e1, .snoc (hs := []) .nil e2, rfl, e3, hc⟩

/-! ## C89 A request never ends the node -/

/-- **C89** (refuted) A map cannot be saved under a name that is taken: the request ends the node. In particular not under
the name it was loaded from, nor twice under one name. -/
theorem c89_no_saving_over (p : Params) (w : Station) (action : BitVec 32) (name : String) (read bag : List BagMsg)
    (hi : w.sys.spin = .idle) (ha : AsksToSave action) (hd : w.disk name = some bag) :
    Station.step p w (.request action name read) = .error .exception := by
  unfold Station.step
  rw [hi]
  dsimp only
  unfold Station.request
  rw [if_neg (by simp [ha.2])]
  have hc : Mapper.configure p action [] w.sys = .ok (Mapper.configureMapping action w.sys) := by
    unfold Mapper.configure Mapper.configureFile
    rw [if_neg (by simp [ha.2])]
  rw [hc, Res.ok_bind, if_pos ha.1, hd]

/-- **C89** (refuted) A mistyped file name ends the node. -/
theorem c89_missing_file_ends (p : Params) (w : Station) (action : BitVec 32) (name : String) (read : List BagMsg)
    (hi : w.sys.spin = .idle) (ha : action &&& 4#32 ≠ 0#32) (hd : w.disk name = none) :
    Station.step p w (.request action name read) = .error .exception := by
  unfold Station.step
  rw [hi]
  dsimp only
  unfold Station.request
  rw [if_pos ha, hd]

/-- **C89** (refuted) A request to save right after one that succeeded, with the same name, ends the node. -/
theorem c89_saving_twice_ends (p : Params) (w w1 : Station) (action : BitVec 32) (name : String) (read read' : List BagMsg)
    (hi : w.sys.spin = .idle) (ha : AsksToSave action) (hr : Interleaving read (w.sys.graph p).save)
    (hsave : Station.step p w (.request action name read) = .ok w1) :
    Station.step p w1 (.request action name read') = .error .exception := by
  obtain ⟨h1, h2, -⟩ := Station.saved hi ha hsave hr
  refine c89_no_saving_over p w1 action name read' read ?_ ha h1
  rw [h2]
  obtain ⟨en, ini, e, -⟩ := configureMapping_frame action w.sys
  rw [e]; exact hi

/-- **C89** (what holds) A request to load a file that exists and whose messages are of the type their topic says, or to save
under a name that is free, or to do neither, is always carried out. -/
theorem c89_requests_partial (p : Params) (w : Station) (action : BitVec 32) (name : String) (read : List BagMsg)
    (hl : action &&& 4#32 ≠ 0#32 → ∃ bag, w.disk name = some bag ∧ TypedBag bag)
    (hs : AsksToSave action → w.disk name = none) : ∃ w', Station.step p w (.request action name read) = .ok w' := by
  unfold Station.step
  dsimp only
  split
  · unfold Station.request
    by_cases h4 : action &&& 4#32 ≠ 0#32
    · obtain ⟨bag, hd, ht⟩ := hl h4
      obtain ⟨g, hg⟩ := typed_loads ht (Graph.new p.useBarycenter)
      rw [if_pos h4, hd]
      dsimp only
      unfold Mapper.configure Mapper.configureFile
      rw [if_pos h4]
      unfold Graph.load
      rw [hg]
      exact ⟨_, rfl⟩
    · rw [if_neg h4]
      have hc : Mapper.configure p action [] w.sys = .ok (Mapper.configureMapping action w.sys) := by
        unfold Mapper.configure Mapper.configureFile
        rw [if_neg h4]
      rw [hc, Res.ok_bind]
      by_cases h8 : action &&& 8#32 ≠ 0#32
      · rw [if_pos h8, hs ⟨h8, by simpa using h4⟩]
        dsimp only
        split <;> exact ⟨_, rfl⟩
      · rw [if_neg h8]
        exact ⟨_, rfl⟩
  · exact ⟨_, rfl⟩

/-- **C89** Files the node writes are such files. -/
theorem c89_own_files_are_typed_partial (g : Graph) (read : List BagMsg) (h : Interleaving read g.save) : TypedBag read := by
  have hw : TypedBag g.save := by
    intro m hm
    unfold Graph.save at hm
    rcases List.mem_append.mp hm with hm | hm
    · obtain ⟨s, -, rfl⟩ := List.mem_map.mp hm
      exact ⟨fun _ => ⟨_, rfl⟩, fun h => absurd rfl h⟩
    · obtain ⟨c, -, rfl⟩ := List.mem_map.mp hm
      exact ⟨fun h => absurd (show ("constraints" : String) = "scans" from h) (by decide), fun _ => ⟨_, rfl⟩⟩
  intro m hm
  apply hw
  by_cases ht : m.topic = "scans"
  · have : m ∈ read.filter fun m => m.topic = "scans" := List.mem_filter.mpr ⟨hm, by simpa using ht⟩
    rw [h.1] at this
    exact (List.mem_filter.mp this).1
  · have : m ∈ read.filter fun m => ¬ m.topic = "scans" := List.mem_filter.mpr ⟨hm, by simpa using ht⟩
    rw [h.2] at this
    exact (List.mem_filter.mp this).1

/-- Example: the name "map" is taken, so that a request to save under it ends the node, and one to load it does not; "nap" is
free. -/
example : let w : Station := ⟨demoLoaded (demoParams 10 3) true, fun n => if n = "map" then some demoBag else none⟩
    w.sys.spin = .idle ∧ AsksToSave 8#32 ∧ w.disk "map" = some demoBag ∧ w.disk "nap" = none ∧ TypedBag demoBag := by
  refine ⟨rfl, ⟨by decide, by decide⟩, rfl, rfl, ?_⟩
  intro m hm
  simp only [demoBag, List.mem_cons, List.not_mem_nil, or_false] at hm
  rcases hm with rfl | rfl | rfl
  · exact ⟨fun _ => ⟨_, rfl⟩, fun h => absurd rfl h⟩
  · exact ⟨fun _ => ⟨_, rfl⟩, fun h => absurd rfl h⟩
  · exact ⟨fun h => absurd h (by decide), fun _ => ⟨_, rfl⟩⟩

end

end Ndt
