import Verif.Pipeline.Spec
/-!
# Vocabulary for the comparison of the two tables `process_file` writes
-/

namespace Verif.Pipeline

open Classical in
/-- The proportion of the molecules with the property. -/
noncomputable def share {N : ℕ} (p : Fin N → Prop) : ℝ := ((Finset.univ.filter p).card : ℝ) / N

end Verif.Pipeline
