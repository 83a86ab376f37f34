import Verif.Model.UpdaterStatus
import Verif.Spec.Sensitivity

/-! What is expected from the status files of updaters. -/

namespace N2P2

open Classical in
/-- Mean of absolute values over `s`. There is none if `s` is empty. -/
noncomputable def meanMagnitude {ι : Type} (s : Finset ι) (f : ι → ℝ) : Option ℝ :=
  if s = ∅ then none else some ((∑ i ∈ s, |f i|) / s.card)

/-- Columns of a status file in epoch `e`. -/
noncomputable def StatusUpdater.row (F : FloatText) (e : ℕ) : StatusUpdater → List Str
  | @StatusUpdater.kalman N M k K =>
    [natText e, natText k.numUpdates, F.print (meanMagnitude Finset.univ fun i : Fin N => k.P i i),
      F.print (meanMagnitude Finset.univ.offDiag fun p : Fin N × Fin N => k.P p.1 p.2),
      F.print (meanMagnitude Finset.univ fun p : Fin N × Fin N => (k.P p.1 p.2 - k.P p.2 p.1) / 2),
      F.print (meanMagnitude Finset.univ fun p : Fin N × Fin M => K p.1 p.2), F.print (some k.q)] ++
    match k.type with
    | .STANDARD => [F.print (some k.eta)]
    | .FADINGMEMORY => [F.print (some k.lambda), F.print (some (k.numUpdates * k.gamma))]
  | @StatusUpdater.descent N u => [natText e, F.print (some u.eta)] ++
    match u.type with
    | .FIXED => []
    | .ADAM => [F.print (some u.beta1t), F.print (some u.beta2t),
      F.print (meanMagnitude Finset.univ fun i : Fin N => u.m i), F.print (meanMagnitude Finset.univ fun i : Fin N => u.v i)]

end N2P2
