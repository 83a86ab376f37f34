import Verif.Model.Updater
import Verif.Model.Histogram
import Verif.Model.Sensitivity

/-! Status files of weight updaters. -/

namespace N2P2

/-- The updaters which report: a Kalman filter with its last gain matrix (KalmanFilter.cpp:66-68: zero at
first), or gradient descent. -/
inductive StatusUpdater
  | kalman {N M : ℕ} (k : KalmanFilter N) (K : Matrix (Fin N) (Fin M) ℝ)
  | descent {N : ℕ} (u : GradientDescent N)

/-- A division by an integer; `none` if the result is not finite. -/
noncomputable def cQuotient (x : ℝ) (n : ℕ) : Option ℝ := if n = 0 then none else some (x / n)

/-- KalmanFilter.cpp:243-266 `status`. -/
noncomputable def kalmanStatus (F : FloatText) {N M : ℕ} (k : KalmanFilter N) (K : Matrix (Fin N) (Fin M) ℝ)
    (epoch : ℕ) : Str :=
  let pasym := (cQuotient (∑ i, ∑ j, |k.P i j - k.P j i|) (N * N)).map fun x => 0.5 * x
  let pdiag := ∑ i, |k.P i i|
  let poffdiag := cQuotient ((∑ i, ∑ j, |k.P i j|) - pdiag) (N * (N - 1))
  let kmean := cQuotient (∑ i, ∑ j, |K i j|) (N * M)
  fieldLine (padLeft 10 (natText epoch))
    ([padLeft 10 (natText k.numUpdates), padLeft 16 (F.print (cQuotient pdiag N)), padLeft 16 (F.print poffdiag),
      padLeft 16 (F.print pasym), padLeft 16 (F.print kmean), padLeft 16 (F.print (some k.q))] ++
    match k.type with
    | .STANDARD => [padLeft 16 (F.print (some k.eta))]
    | .FADINGMEMORY => [padLeft 16 (F.print (some k.lambda)), padLeft 16 (F.print (some (k.numUpdates * k.gamma)))])

/-- GradientDescent.cpp:144-165 `status`. -/
noncomputable def descentStatus (F : FloatText) {N : ℕ} (u : GradientDescent N) (epoch : ℕ) : Str :=
  fieldLine (padLeft 10 (natText epoch)) (padLeft 16 (F.print (some u.eta)) ::
    match u.type with
    | .FIXED => []
    | .ADAM => [padLeft 16 (F.print (some u.beta1t)), padLeft 16 (F.print (some u.beta2t)),
      padLeft 16 (F.print (cQuotient (∑ i, |u.m i|) N)), padLeft 16 (F.print (cQuotient (∑ i, |u.v i|) N))])

/-- Columns common to both types of Kalman filters, KalmanFilter.cpp:276-300. -/
def kalmanColumns : List (ℕ × Str × Str) :=
  [(10, "epoch".toList, "Training epoch.".toList), (10, "nupdates".toList, "Number of updates performed.".toList),
    (16, "Pdiag".toList, "Mean of absolute diagonal values of error covariance matrix P.".toList),
    (16, "Poffdiag".toList, "Mean of absolute off-diagonal values of error covariance matrix P.".toList),
    (16, "Pasym".toList, "Asymmetry of P, i.e. mean of absolute values of asymmetric part 0.5*(P - P^T).".toList),
    (16, "Kmean".toList, "Mean of abolute compontents of Kalman gain matrix K.".toList),
    (16, "q".toList, "Magnitude of process noise (= diagonal entries of Q).".toList)]

/-- `createFileHeader` for sizes, names and descriptions of columns. -/
def columnsHeader (title : Str) (cs : List (ℕ × Str × Str)) : Option (List Str) :=
  createFileHeader [title] (cs.map fun c => c.1) (cs.map fun c => c.2.1) (cs.map fun c => c.2.2) '#'

/-- KalmanFilter.cpp:268-319 and GradientDescent.cpp:167-200 `statusHeader`. -/
def StatusUpdater.header : StatusUpdater → Option (List Str)
  | .kalman k _ => columnsHeader "Kalman filter status report.".toList (kalmanColumns ++
    match k.type with
    | .STANDARD => [(16, "eta".toList, "Learning rate.".toList)]
    | .FADINGMEMORY => [(16, "lambda".toList, "Forgetting factor for fading memory KF.".toList),
      (16, "kgamma".toList, "Forgetting gain k * gamma(k).".toList)])
  | .descent u => columnsHeader "Gradient descent status report.".toList
    ([(10, "epoch".toList, "Training epoch.".toList), (16, "eta".toList, "Step size.".toList)] ++
    match u.type with
    | .FIXED => []
    | .ADAM => [(16, "beta1t".toList, "Decay rate 1 to the power of t.".toList),
      (16, "beta2t".toList, "Decay rate 2 to the power of t.".toList),
      (16, "mag_m".toList, "Mean of absolute first momentum (m).".toList),
      (16, "mag_v".toList, "Mean of absolute second momentum (v).".toList)])

/-- The status line. -/
noncomputable def StatusUpdater.status (F : FloatText) (epoch : ℕ) : StatusUpdater → Str
  | .kalman k K => kalmanStatus F k K epoch
  | .descent u => descentStatus F u epoch

/-- Training.cpp:1975-1999: the name of the file, with number 0 if there is one updater for all elements and
else the atomic number. `stage` is used by potentials with two stages. -/
def updaterName (stage : Option ℕ) (Z : ℕ) : Str :=
  "updater.".toList ++ zeroPadded 3 Z ++ ".out".toList ++
    match stage with
    | none => []
    | some s => ".stage-".toList ++ natText s

/-- Training.cpp:2000-2008: the report of one updater. -/
noncomputable def writeStatus (F : FloatText) (append : Bool) (stage : Option ℕ) (epoch : ℕ) (fs : Files)
    (p : ℕ × StatusUpdater) : Option Files := do
  let name := updaterName stage p.1
  let text ← if append then some ((fs name).getD []) else p.2.header.map List.flatten
  some (fs.write name (text ++ p.2.status F epoch))

/-- Training.cpp:1972-2012 `writeUpdaterStatus`. `us` are the updaters with the numbers in their file names. -/
noncomputable def writeUpdaterStatus (F : FloatText) (append : Bool) (stage : Option ℕ) (epoch : ℕ)
    (us : List (ℕ × StatusUpdater)) (fs : Files) : Option Files :=
  us.foldlM (writeStatus F append stage epoch) fs

/-- Training.cpp:2172 and 2234: reports before the first epoch and after each of them. `H e` are the updaters
after epoch `e`. -/
noncomputable def statusOfEpochs (F : FloatText) (stage : Option ℕ) (H : ℕ → List (ℕ × StatusUpdater)) :
    ℕ → Files → Option Files
  | 0, fs => writeUpdaterStatus F false stage 0 (H 0) fs
  | e + 1, fs => do
    let fs ← statusOfEpochs F stage H e fs
    writeUpdaterStatus F true stage (e + 1) (H (e + 1)) fs

end N2P2
