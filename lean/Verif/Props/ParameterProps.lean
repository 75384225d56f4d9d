import Verif.Model.Parameters
import Verif.Proof.Exec
import Verif.Proof.Demo
import Mathlib.Tactic.Linarith
import Mathlib.Tactic.NormNum

/-! # C94: integer parameters -/

namespace Ndt

noncomputable section

open Spec Mapper

/-- C94, what holds: a number from 0 to 2^31 - 1 is taken as it is. Missing: other numbers, which are not refused. -/
theorem c94_taken_as_given_partial {v : ℤ} (h0 : 0 ≤ v) (h1 : v < 2 ^ 31) : (Parameters.toSize v : ℤ) = v := by
  unfold Parameters.toSize Parameters.toInt
  rw [if_pos (by omega)]
  omega

/-- C94 is refuted: a negative number becomes an enormous one. -/
theorem c94_negative_is_enormous {v : ℤ} (h0 : -2 ^ 31 ≤ v) (h1 : v < 0) : (Parameters.toSize v : ℤ) = 2 ^ 64 + v := by
  unfold Parameters.toSize Parameters.toInt
  rw [if_neg (by omega)]
  omega

/-- C94 is refuted: a number beyond 31 bits becomes another one: 2^32 + 10 is taken as 10. -/
theorem c94_long_is_cut : Parameters.toSize (2 ^ 32 + 10) = 10 := by
  decide

/-- C94, exactly: the number given is used if and only if it is from 0 to 2^31 - 1. -/
theorem c94_as_given_iff {v : ℤ} (h : v < 2 ^ 63) : (Parameters.toSize v : ℤ) = v ↔ 0 ≤ v ∧ v < 2 ^ 31 := by
  unfold Parameters.toSize Parameters.toInt
  split <;> omega

/-- C94 Every integer parameter from 0 to 2^31 - 1 becomes the member of its own name, and nothing else changes. -/
theorem c94_each_is_used_for_what_it_is (p : Params) (m : MotionModel) (i : IntParams)
    (h : ∀ v ∈ [i.rollingDepth, i.searchLimit, i.nodeLimit, i.minParticles, i.maxParticles], 0 ≤ v ∧ v < 2 ^ 31) :
    Parameters.mapper p i = { p with
      rollingDepth := i.rollingDepth.toNat, searchLimit := i.searchLimit.toNat, nodeLimit := i.nodeLimit.toNat } ∧
    Parameters.filter m i = Filter.new m i.minParticles.toNat i.maxParticles.toNat := by
  have key : ∀ v : ℤ, 0 ≤ v ∧ v < 2 ^ 31 → Parameters.toSize v = v.toNat := by
    intro v hv
    have := c94_taken_as_given_partial hv.1 hv.2
    omega
  simp only [List.forall_mem_cons] at h
  obtain ⟨h1, h2, h3, h4, h5, -⟩ := h
  constructor
  · unfold Parameters.mapper
    rw [key _ h1, key _ h2, key _ h3]
  · unfold Parameters.filter
    rw [key _ h4, key _ h5, if_neg (by omega)]

/-- The defaults of the code (src/ndt_mapper.cpp:63-91) are of this kind. -/
example : ∀ v ∈ [(10 : ℤ), 3, 25, 100, 500], 0 ≤ v ∧ v < 2 ^ 31 := by decide

/-- The loop closure thread is idle. -/
def LoopIdle (s : Sys) : Prop := s.loop = .asleep ∨ s.loop = .counting

theorem start_idle {p : Params} {enable : Bool} {file : Option (List BagMsg)} {s : Sys}
    (h : Mapper.start p enable file = .ok s) : s.loop = .asleep := by
  unfold Mapper.start at h
  cases file with
  | none => injection h with h; rw [← h]; rfl
  | some bag =>
    simp only at h
    cases hg : Graph.load p.useBarycenter bag with
    | error e => rw [hg] at h; cases h
    | ok g => rw [hg] at h; injection h with h; rw [← h]; rfl

theorem setup_loop (p : Params) (msg : LaserMsg) (mount : Option (Pose2d × Bool)) (s : Sys) :
    (laserSetup p msg mount s).1.loop = s.loop := by
  unfold laserSetup
  simp only
  split
  · rfl
  · split <;> rfl

theorem configure_loop (action : BitVec 32) (s : Sys) : (configureMapping action s).loop = s.loop := by
  unfold configureMapping
  split
  · rfl
  · split <;> rfl

/-- C94: with a negative rolling depth loop closure never gets to work, in any execution with fewer than 2^63 scans. -/
theorem c94_negative_depth_never_closes {p : Params} {i : IntParams} (h0 : -2 ^ 31 ≤ i.rollingDepth) (h1 : i.rollingDepth < 0)
    {enable : Bool} {file : Option (List BagMsg)} {s t : Sys} {es : List Event}
    (hs : Mapper.start (Parameters.mapper p i) enable file = .ok s)
    (he : Exec (Parameters.mapper p i) (fun s _ => s.scans.length < 2 ^ 63) s es t) : LoopIdle t := by
  have hd : (Parameters.mapper p i).rollingDepth = Parameters.toSize i.rollingDepth := rfl
  have hbig := c94_negative_is_enormous h0 h1
  refine Exec.inv (I := LoopIdle) ?_ he (Or.inl (start_idle hs))
  intro s e s' hI ha ht
  unfold LoopIdle at *
  cases ht with
  | loopCount hi hn => rw [hd] at hn; omega
  | laserIgnored => rw [setup_loop]; exact hI
  | laserScan => show (laserSetup _ _ _ s).1.loop = _ ∨ (laserSetup _ _ _ s).1.loop = _; rw [setup_loop]; exact hI
  | configureFlags => rw [configure_loop]; exact hI
  | load => show (configureMapping _ s).loop = _ ∨ (configureMapping _ s).loop = _; rw [configure_loop]; exact hI
  | loopWake => exact Or.inr rfl
  | loopShort => exact Or.inl rfl
  | loopPick visit r scan near hi => rcases hI with h | h <;> rw [hi] at h <;> cases h
  | loopLeave visit r hi => rcases hI with h | h <;> rw [hi] at h <;> cases h
  | loopNext q hi => rcases hI with h | h <;> rw [hi] at h <;> cases h
  | loopSkip q i rest cand hi => rcases hI with h | h <;> rw [hi] at h <;> cases h
  | loopCandidate q i rest cand hi => rcases hI with h | h <;> rw [hi] at h <;> cases h
  | loopAccept score correction cov q cand scan candidate hi => rcases hI with h | h <;> rw [hi] at h <;> cases h
  | loopReject score correction cov q cand hi => rcases hI with h | h <;> rw [hi] at h <;> cases h
  | loopPush q c hi => rcases hI with h | h <;> rw [hi] at h <;> cases h
  | loopDecide r hi => rcases hI with h | h <;> rw [hi] at h <;> cases h
  | loopOptimise ceres b solver scans hi => rcases hI with h | h <;> rw [hi] at h <;> cases h
  | pubTf => unfold pubTf; split <;> exact hI
  | _ => exact hI

/-- C94: with an optimisation limit of -1 the graph is never optimised. -/
theorem c94_negative_limit_never_optimises (p : Params) (i : IntParams) (h : i.nodeLimit = -1) (r : Round) (s : Sys) :
    ¬ shouldOptimise (Parameters.mapper p i) r s := by
  rintro ⟨-, hlt⟩
  have hb := c94_negative_is_enormous (v := i.nodeLimit) (by omega) (by omega)
  have : (Parameters.mapper p i).nodeLimit = Parameters.toSize i.nodeLimit := rfl
  rw [this] at hlt
  omega

/-- C94: with a negative number of particles the node ends as it starts. -/
theorem c94_negative_particles_end (m : MotionModel) (i : IntParams)
    (h : (-2 ^ 31 ≤ i.minParticles ∧ i.minParticles < 0) ∨ (-2 ^ 31 ≤ i.maxParticles ∧ i.maxParticles < 0)) :
    Parameters.filter m i = .error .exception := by
  unfold Parameters.filter
  rw [if_pos]
  rcases h with h | h
  · right
    have := c94_negative_is_enormous h.1 h.2
    omega
  · left
    have := c94_negative_is_enormous h.1 h.2
    omega

/-- C94: with the default numbers the filter is made with these. -/
example (m : MotionModel) : Parameters.filter m ⟨10, 3, 25, 100, 500⟩ = Filter.new m 100 500 := by
  unfold Parameters.filter
  have e1 : Parameters.toSize 100 = 100 := by
    have := c94_taken_as_given_partial (v := 100) (by norm_num) (by norm_num)
    exact_mod_cast this
  have e2 : Parameters.toSize 500 = 500 := by
    have := c94_taken_as_given_partial (v := 500) (by norm_num) (by norm_num)
    exact_mod_cast this
  simp only [e1, e2]
  rw [if_neg (by norm_num)]

/-- A mapper with a rolling depth of -1 gets a first scan; loop closure wakes up, counts and goes back to sleep. -/
example : ∃ s t, Mapper.start (Parameters.mapper (demoParams 10 25) ⟨-1, 3, 25, 100, 500⟩) true none = .ok s ∧
    Exec (Parameters.mapper (demoParams 10 25) ⟨-1, 3, 25, 100, 500⟩) (fun s _ => s.scans.length < 2 ^ 63) s
      [.loopWake, .loopCount] t ∧ t.loop = .asleep := by
  have hd : (Parameters.mapper (demoParams 10 25) ⟨-1, 3, 25, 100, 500⟩).rollingDepth = 2 ^ 64 - 1 := by
    show Parameters.toSize (-1) = _
    have := c94_negative_is_enormous (v := -1) (by norm_num) (by norm_num)
    omega
  generalize Parameters.mapper (demoParams 10 25) ⟨-1, 3, 25, 100, 500⟩ = p at hd ⊢
  refine ⟨demoStart p true, demoStart p true, rfl, ?_, rfl⟩
  have h1 : Mapper.step p (demoStart p true) .loopWake = .ok { demoStart p true with loop := .counting } := rfl
  have h2 : Mapper.step p { demoStart p true with loop := .counting } .loopCount = .ok (demoStart p true) := by
    show Except.ok (loopCount p _) = _
    unfold loopCount
    rw [if_pos (by rw [hd]; simp [Sys.scans, demoStart, startWith, Graph.new])]
    rfl
  exact .snoc (es := [.loopWake]) (.snoc (es := []) .nil (by simp [Sys.scans, demoStart, startWith, Graph.new]) h1)
    (by simp [Sys.scans, demoStart, startWith, Graph.new]) h2

end

end Ndt
