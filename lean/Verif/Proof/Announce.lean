import Verif.Spec.Announce
import Verif.Proof.Publish
import Verif.Proof.Frame

/-! # Helper lemmas: changes are announced and what is announced is published -/

namespace Ndt

noncomputable section

open Spec Mapper

/-- What a step does, as far as the published map is concerned. -/
inductive ShowTrans (p : Params) (s : Sys) (s' : Sys) : Prop
  | told (h : s'.update = true)
  | telling (h : Announcing s')
  | frame (h1 : SameMap s s') (h2 : s'.pub = s.pub) (h3 : s'.grid = s.grid) (h4 : s'.lastGrid = s.lastGrid)
      (h5 : s'.lastMarkers = s.lastMarkers) (h6 : s.update = true → s'.update = true) (h7 : Announcing s → Announcing s')
  | check (h : s.pub = .check) (h1 : s' = { s with pub := if s.update then .clear else .tf })
  | clear (h : s.pub = .clear) (h1 : s' = { s with update := false, pub := .grid })
  | grid (h : s.pub = .grid) (grid : OccGrid) (msg : GridMsg) (hg : s.grid.getMsg s.scans = .ok (grid, msg))
      (h1 : s' = { s with grid := grid, lastGrid := some msg, pub := .graph })
  | graph (h : s.pub = .graph) (msg : List Graph.Marker) (hg : (s.graph p).getMsg [] = .ok msg)
      (h1 : s' = { s with lastMarkers := some msg, pub := .tf })
  | tf (h : s.pub = .tf) (x : Option Iso) (h1 : s' = { s with lastTf := x, pub := .check })

theorem not_pending_idle {s : Sys} (hi : s.spin = .idle) (h : Announcing s) : ∃ q c, s.loop = .pushing q c := by
  rcases h with ⟨_, _, h⟩ | ⟨_, _, h⟩ | h
  · rw [hi] at h; cases h
  · rw [hi] at h; cases h
  · exact h

theorem show_trans {p : Params} {s s' : Sys} {e : Event} (hp : ¬ PoseWhileMapping p s e) (ht : Trans p s e s') :
    ShowTrans p s s' := by
  -- a step of the executor away from a place without announcement
  have spinAway : ∀ {s' : Sys}, SameMap s s' → s'.pub = s.pub → s'.grid = s.grid → s'.lastGrid = s.lastGrid →
      s'.lastMarkers = s.lastMarkers → (s.update = true → s'.update = true) → s'.loop = s.loop →
      (∀ scan odom, s.spin ≠ .append scan odom) → (∀ a odom, s.spin ≠ .announce a odom) → ShowTrans p s s' := by
    intro s' h1 h2 h3 h4 h5 h6 hl ha hb
    refine .frame h1 h2 h3 h4 h5 h6 ?_
    rintro (⟨a, b, h⟩ | ⟨a, b, h⟩ | ⟨q, c, h⟩)
    · exact absurd h (ha a b)
    · exact absurd h (hb a b)
    · exact Or.inr (Or.inr ⟨q, c, hl.trans h⟩)
  -- a step of the loop closure thread from a place without announcement
  have loopAway : ∀ {s' : Sys}, SameMap s s' → s'.pub = s.pub → s'.grid = s.grid → s'.lastGrid = s.lastGrid →
      s'.lastMarkers = s.lastMarkers → (s.update = true → s'.update = true) → s'.spin = s.spin →
      (∀ q c, s.loop ≠ .pushing q c) → ShowTrans p s s' := by
    intro s' h1 h2 h3 h4 h5 h6 hl ha
    refine .frame h1 h2 h3 h4 h5 h6 ?_
    rintro (⟨a, b, h⟩ | ⟨a, b, h⟩ | ⟨q, c, h⟩)
    · exact Or.inl ⟨a, b, hl.trans h⟩
    · exact Or.inr (Or.inl ⟨a, b, hl.trans h⟩)
    · exact absurd h (ha q c)
  cases ht with
  | stutter => exact .frame ⟨rfl, rfl⟩ rfl rfl rfl rfl id id
  | laserIgnored msg mount odom odomEnd hi =>
    obtain ⟨r, l, g, m, e, -⟩ := setup_cases p msg mount s
    rw [e]
    exact spinAway ⟨rfl, rfl⟩ rfl rfl rfl rfl id rfl (by simp [hi]) (by simp [hi])
  | laserScan msg mount odom odomEnd points hi hgo hinit ht =>
    obtain ⟨r, l, g, m, e, -⟩ := setup_cases p msg mount s
    rw [e]
    exact spinAway ⟨rfl, rfl⟩ rfl rfl rfl rfl id rfl (by simp [hi]) (by simp [hi])
  | pushConstraint c scan odom hi => exact .telling (Or.inl ⟨_, _, rfl⟩)
  | pushScan scan odom hi => exact .telling (Or.inr (Or.inl ⟨_, _, rfl⟩))
  | announce a odom scan hi hs => exact .told rfl
  | poseScan m odom visit near i rest hi he hn hf hnear hv hfind => exact absurd ⟨⟨_, _, _, rfl⟩, he, hf⟩ hp
  | configureFlags action bag hi hl =>
    obtain ⟨en, ini, e, -⟩ := configureMapping_frame action s
    rw [e]
    exact spinAway ⟨rfl, rfl⟩ rfl rfl rfl rfl id rfl (by simp [hi]) (by simp [hi])
  | load action bag g hi hl hg => exact .told rfl
  | loopNext q hi hr => exact loopAway ⟨rfl, rfl⟩ rfl rfl rfl rfl id rfl (by simp [hi])
  | loopAccept score correction cov q cand scan candidate hi hf hs h1 h2 => exact .telling (Or.inr (Or.inr ⟨_, _, rfl⟩))
  | loopReject score correction cov q cand hi hs =>
    obtain ⟨n, l, e⟩ := afterAttempt_frame q s
    rw [e]
    exact loopAway ⟨rfl, rfl⟩ rfl rfl rfl rfl id rfl (by simp [hi])
  | loopPush q c hi =>
    obtain ⟨n, l, e⟩ := afterAttempt_frame q { s with constraints := s.constraints ++ [c], update := true }
    rw [e]; exact .told rfl
  | loopOptimise ceres b solver scans hi ho => exact .told rfl
  | pubCheck hi => exact .check hi rfl
  | pubClear hi => exact .clear hi rfl
  | pubGrid grid msg hi hg => exact .grid hi grid msg hg rfl
  | pubGraph msg hi hg => exact .graph hi msg hg rfl
  | pubTf hi =>
    obtain ⟨x, e⟩ := pubTf_frame s
    rw [e]; exact .tf hi x rfl
  | _ => first
    | exact spinAway ⟨rfl, rfl⟩ rfl rfl rfl rfl id rfl (by simp [*]) (by simp [*])
    | exact loopAway ⟨rfl, rfl⟩ rfl rfl rfl rfl id rfl (by simp [*])

/-- A callback that is to add or to announce its scan stays where it is unless it takes its next step. -/
theorem append_stays {p : Params} {s s' : Sys} {e : Event} {scan : Scan} {odom : Pose2d} (hs : s.spin = .append scan odom)
    (he : e ≠ .pushScan) (ht : Trans p s e s') : s'.spin = .append scan odom := by
  cases ht with
  | pushScan scan odom hi => exact absurd rfl he
  | loopReject score correction cov q cand hi h =>
    obtain ⟨n, l, e⟩ := afterAttempt_frame q s
    rw [e]; exact hs
  | loopPush q c hi =>
    obtain ⟨n, l, e⟩ := afterAttempt_frame q { s with constraints := s.constraints ++ [c], update := true }
    rw [e]; exact hs
  | pubTf hi =>
    obtain ⟨x, e⟩ := pubTf_frame s
    rw [e]; exact hs
  | _ => first
    | exact hs
    | (simp_all; done)

theorem announce_stays {p : Params} {s s' : Sys} {e : Event} {a : Ptr} {odom : Pose2d} (hs : s.spin = .announce a odom)
    (he : e ≠ .finishScan) (ht : Trans p s e s') : s'.spin = .announce a odom := by
  cases ht with
  | loopReject score correction cov q cand hi h =>
    obtain ⟨n, l, e⟩ := afterAttempt_frame q s
    rw [e]; exact hs
  | loopPush q c hi =>
    obtain ⟨n, l, e⟩ := afterAttempt_frame q { s with constraints := s.constraints ++ [c], update := true }
    rw [e]; exact hs
  | pubTf hi =>
    obtain ⟨x, e⟩ := pubTf_frame s
    rw [e]; exact hs
  | _ => first
    | exact hs
    | (simp_all; done)

theorem pushing_stays {p : Params} {s s' : Sys} {e : Event} {q : Search} {c : Constraint} (hs : s.loop = .pushing q c)
    (he : e ≠ .loopPush) (ht : Trans p s e s') : s'.loop = .pushing q c := by
  cases ht with
  | laserIgnored msg mount odom odomEnd hi =>
    obtain ⟨r, l, g, m, e, -⟩ := setup_cases p msg mount s
    rw [e]; exact hs
  | laserScan msg mount odom odomEnd points hi hgo hinit ht =>
    obtain ⟨r, l, g, m, e, -⟩ := setup_cases p msg mount s
    rw [e]; exact hs
  | configureFlags action bag hi hl =>
    obtain ⟨en, ini, e, -⟩ := configureMapping_frame action s
    rw [e]; exact hs
  | load action bag g hi hl hg =>
    obtain ⟨en, ini, e, -⟩ := configureMapping_frame action s
    rw [e]; exact hs
  | pubTf hi =>
    obtain ⟨x, e⟩ := pubTf_frame s
    rw [e]; exact hs
  | loopReject score correction cov q cand hi h => cases hs.symm.trans hi
  | loopPush q c hi => exact absurd rfl he
  | _ => first
    | exact hs
    | (cases hs.symm.trans ‹s.loop = _›; done)

/-- What holds between announcement and publication. -/
def ShowInv (p : Params) (s : Sys) : Prop :=
  s.update = true ∨ Announcing s ∨ s.pub = .grid ∨ EmptyMap s ∨ (GridShown s ∧ (s.pub = .graph ∨ MarkersShown p s))

theorem showInv_step {p : Params} {s s' : Sys} (h : ShowInv p s) (ht : ShowTrans p s s') : ShowInv p s' := by
  cases ht with
  | told h => exact Or.inl h
  | telling h => exact Or.inr (Or.inl h)
  | frame h1 h2 h3 h4 h5 h6 h7 =>
    obtain ⟨m1, m2⟩ := h1
    rcases h with h | h | h | h | ⟨h, h'⟩
    · exact Or.inl (h6 h)
    · exact Or.inr (Or.inl (h7 h))
    · exact Or.inr (Or.inr (Or.inl (h2.trans h)))
    · exact Or.inr (Or.inr (Or.inr (Or.inl ⟨m1.trans h.1, m2.trans h.2⟩)))
    · refine Or.inr (Or.inr (Or.inr (Or.inr ⟨?_, ?_⟩)))
      · obtain ⟨b, m, e1, e2⟩ := h
        exact ⟨b, m, by rw [m1, h3]; exact e1, h4.trans e2⟩
      · rcases h' with h' | ⟨m, e1, e2⟩
        · exact Or.inl (h2.trans h')
        · refine Or.inr ⟨m, ?_, h5.trans e2⟩
          have : s'.graph p = s.graph p := by simp only [Sys.graph, m1, m2]
          rw [this]; exact e1
  | check hc h1 =>
    subst h1
    rcases h with h | h | h | h | ⟨h, h'⟩
    · exact Or.inl h
    · exact Or.inr (Or.inl h)
    · rw [hc] at h; cases h
    · exact Or.inr (Or.inr (Or.inr (Or.inl h)))
    · rcases h' with h' | h'
      · rw [hc] at h'; cases h'
      · exact Or.inr (Or.inr (Or.inr (Or.inr ⟨h, Or.inr h'⟩)))
  | clear hc h1 => subst h1; exact Or.inr (Or.inr (Or.inl rfl))
  | grid hc grid msg hg h1 =>
    subst h1
    exact Or.inr (Or.inr (Or.inr (Or.inr ⟨⟨s.grid, msg, hg, rfl⟩, Or.inl rfl⟩)))
  | graph hc msg hg h1 =>
    subst h1
    rcases h with h | h | h | h | ⟨h, h'⟩
    · exact Or.inl h
    · exact Or.inr (Or.inl h)
    · rw [hc] at h; cases h
    · exact Or.inr (Or.inr (Or.inr (Or.inl h)))
    · exact Or.inr (Or.inr (Or.inr (Or.inr ⟨h, Or.inr ⟨msg, hg, rfl⟩⟩)))
  | tf hc x h1 =>
    subst h1
    rcases h with h | h | h | h | ⟨h, h'⟩
    · exact Or.inl h
    · exact Or.inr (Or.inl h)
    · rw [hc] at h; cases h
    · exact Or.inr (Or.inr (Or.inr (Or.inl h)))
    · rcases h' with h' | h'
      · rw [hc] at h'; cases h'
      · exact Or.inr (Or.inr (Or.inr (Or.inr ⟨h, Or.inr h'⟩)))

theorem showInv_start {p : Params} {enable : Bool} {file : Option (List BagMsg)} {s : Sys}
    (h : Mapper.start p enable file = .ok s) : ShowInv p s := by
  unfold Mapper.start at h
  split at h
  · cases h
    exact Or.inr (Or.inr (Or.inr (Or.inl ⟨rfl, rfl⟩)))
  · obtain ⟨g, hg, h⟩ := bind_ok h
    cases h
    exact Or.inl rfl

end

end Ndt
