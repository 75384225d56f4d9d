import Verif.Spec.Mapper

/-! # Events in which loops are closed -/

namespace Ndt.Spec

noncomputable section

/-- A loop is closed: the loop closure thread accepts a match. -/
def Closes (s : Sys) (e : Event) : Prop :=
  ∃ score correction cov q cand, e = .loopMatched score correction cov ∧ s.loop = .matching q cand ∧ score.isFinite ∧
    score < s.typical

/-- The loop closure thread ends its round with the decision whether to optimise. -/
def Decides (s : Sys) (e : Event) : Prop := e = .loopDecide ∧ ∃ r, s.loop = .deciding r

end

end Ndt.Spec
