import Verif.Spec.TTMean
/-
Mean and variance of the distribution whose density is a polygonal line.
-/

set_option autoImplicit false

namespace TNS.Spec
noncomputable section

/-- Integral of `φ` against the polygonal line through the points of a table, segment by segment. -/
def moment (φ : ℝ → ℝ) (l : List (ℝ × ℝ)) : ℝ :=
  (List.zipWith (fun p q => ∫ x in p.1..q.1, φ x * (p.2 + (q.2 - p.2) * ((x - p.1) / (q.1 - p.1))))
    l l.tail).sum

/-- Variance of the distribution whose density is proportional to the polygonal line. -/
def tableVariance (l : List (ℝ × ℝ)) : ℝ := moment (fun x => (x - tableMean l) ^ 2) l / area l

/-- The distribution of the table has mean `μ` and standard deviation `s`, up to a third of a percent of `s` and
one percent of `s`. -/
structure HasMoments (l : List (ℝ × ℝ)) (μ s : ℝ) : Prop where
  mean : |tableMean l - μ| ≤ s / 300
  deviation : |Real.sqrt (tableVariance l) - s| ≤ s / 100

end
end TNS.Spec
