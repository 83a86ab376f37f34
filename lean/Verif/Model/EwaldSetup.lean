import Mathlib.Analysis.SpecialFunctions.Pow.Real
import Verif.Model.Kspace

/-! Choice of the parameters of the Ewald summation: EwaldSetup.cpp, IEwaldTrunc.h, EwaldTruncJackson.cpp,
EwaldTruncKolafaFixR.cpp, EwaldTruncKolafaOptEta.cpp, and how `Mode::setupElectrostatics` uses them.
Volumes are positive, arguments of keywords are numbers (`atof`) here. What is printed is left out. -/

namespace N2P2

/-- IEwaldTrunc.h:12-20 `EwaldGlobalSettings`. -/
structure EwaldSettings where
  precision : ℝ
  maxCharge : ℝ
  maxQSigma : ℝ
  fourPiEps : ℝ

/-- EwaldSetup.h:29-34 `EWALDTruncMethod`. -/
inductive TruncMethod
  | jacksonCatlow
  | kolafaPerram
  deriving DecidableEq

/-- The class `truncImpl` points to. -/
inductive TruncClass
  | jackson
  | kolafaFixR
  | kolafaOptEta
  deriving DecidableEq

/-- The object `truncImpl` points to: its class and the members which are kept from one structure to the
next (EwaldTruncJackson.h, EwaldTruncKolafaFixR.h, EwaldTruncKolafaOptEta.h). All other members are
overwritten before they are used. -/
structure TruncImpl where
  cls : TruncClass
  volume : ℝ
  numAtoms : ℕ
  published : Bool

/-- EwaldSetup.h `EwaldSetup`; `truncImpl = none` is the null pointer. -/
structure EwaldSetup where
  params : EwaldParameters
  truncMethod : TruncMethod
  sett : EwaldSettings
  truncImpl : Option TruncImpl

/-- How a function ends which does not return: an exception, a null pointer which is dereferenced, a loop
which never ends, or results which are not numbers. -/
inductive EwaldError
  | arguments
  | precisionNotPositive
  | precisionRequired
  | undefinedMethod
  | jacksonPrecision
  | etaNotPositive
  | zeroCutoff
  | badPrecision
  | nullPointer
  | endless
  | notANumber
  deriving DecidableEq

/-- EwaldSetup.cpp:29-34, IEwaldTrunc.h:12-20, 37-46. -/
noncomputable def EwaldSetup.init : EwaldSetup :=
  { params := ⟨0, 0, 0⟩
    truncMethod := .jacksonCatlow
    sett := ⟨1 / 10 ^ 6, 1, 1, 1⟩
    truncImpl := none }

/-- A new object of a class: the initial values of the members. -/
def TruncImpl.new (c : TruncClass) : TruncImpl := ⟨c, 0, 0, false⟩

/-- EwaldSetup.cpp:38-48, the check of the number of arguments. -/
def argConsistent (m : TruncMethod) (n : ℕ) : Prop :=
  match m with
  | .jacksonCatlow => n = 1
  | .kolafaPerram => 1 ≤ n ∧ n ≤ 3

instance (m : TruncMethod) (n : ℕ) : Decidable (argConsistent m n) := by
  unfold argConsistent; cases m <;> infer_instance

/-- EwaldSetup.cpp:54-71, after the precision has been checked. -/
def EwaldSetup.readRest (E : EwaldSetup) (args : List ℝ) : EwaldSetup :=
  match E.truncMethod, args with
  | .jacksonCatlow, _ => { E with truncImpl := some (TruncImpl.new .jackson) }
  | .kolafaPerram, [_, q] =>
    { E with
      sett := { E.sett with maxCharge := q }
      truncImpl := some (TruncImpl.new .kolafaOptEta) }
  | .kolafaPerram, [_, q, r] =>
    { E with
      sett := { E.sett with maxCharge := q }
      params := { E.params with rCut := r }
      truncImpl := some (TruncImpl.new .kolafaFixR) }
  | .kolafaPerram, _ => E

open Classical in
/-- EwaldSetup.cpp:36-72 `readFromArgs`. -/
noncomputable def EwaldSetup.readFromArgs (E : EwaldSetup) (args : List ℝ) :
    Except EwaldError EwaldSetup :=
  if ¬ argConsistent E.truncMethod args.length then .error .arguments
  else if args.headD 0 ≤ 0 then .error .precisionNotPositive
  else .ok ({ E with sett := { E.sett with precision := args.headD 0 } }.readRest args)

/-- IEwaldTrunc.h:51-56 `toPhysicalUnits`. -/
noncomputable def EwaldParameters.toPhysicalUnits (p : EwaldParameters) (convLength : ℝ) :
    EwaldParameters :=
  ⟨p.eta / convLength, p.rCut / convLength, p.kCut * convLength⟩

/-- IEwaldTrunc.h:57-60 `toNormalizedUnits`. -/
noncomputable def EwaldParameters.toNormalizedUnits (p : EwaldParameters) (convLength : ℝ) :
    EwaldParameters :=
  p.toPhysicalUnits (1 / convLength)

/-- EwaldSetup.cpp:74-86 `toNormalizedUnits`. -/
noncomputable def EwaldSetup.toNormalizedUnits (E : EwaldSetup) (convEnergy convLength : ℝ) :
    EwaldSetup :=
  if E.truncMethod = .kolafaPerram then
    { E with
      sett :=
        { E.sett with
          precision := E.sett.precision * (convEnergy / convLength)
          fourPiEps := E.sett.fourPiEps / (convLength * convEnergy) }
      params := E.params.toNormalizedUnits convLength }
  else E

/-- Mode.cpp:430-443, the largest width of the charges: from 0 on over all entries of `fixed_gausswidth`. -/
noncomputable def maxWidth (normalize : Bool) (convLength : ℝ) (widths : List ℝ) : ℝ :=
  widths.foldl (fun m w => max (if normalize then w * convLength else w) m) 0

/-- Mode.cpp:451-462, the method; `text` is the value of `ewald_truncation_error_method`, if there is one. -/
def EwaldSetup.chooseMethod (E : EwaldSetup) (text : Option Str) : EwaldSetup :=
  match text with
  | some t =>
    if t = "0".toList then { E with truncMethod := .jacksonCatlow }
    else if t = "1".toList then { E with truncMethod := .kolafaPerram }
    else E
  | none => { E with truncMethod := .jacksonCatlow }

/-- Mode.cpp:429-443 and 451-476, the part of `setupElectrostatics` which sets up the Ewald summation.
`args`: the arguments of `ewald_prec`, if there is such a line. -/
noncomputable def EwaldSetup.setup (E : EwaldSetup) (normalize : Bool) (convEnergy convLength : ℝ)
    (widths : List ℝ) (method : Option Str) (args : Option (List ℝ)) : Except EwaldError EwaldSetup :=
  match args with
  | some a =>
    match (E.chooseMethod method).readFromArgs a with
    | .error e => .error e
    | .ok F =>
      let F := { F with sett := { F.sett with maxQSigma := maxWidth normalize convLength widths } }
      .ok (if normalize then F.toNormalizedUnits convEnergy convLength else F)
  | none =>
    if (E.chooseMethod method).truncMethod = .kolafaPerram then .error .precisionRequired
    else .ok (E.chooseMethod method)

/-! ### Loops -/

/-- `while (c(s)) s = b(s);`, `none` if the loop never ends. -/
noncomputable def whileLoop {σ : Type} (c : σ → Prop) (b : σ → σ) (s : σ) : Option σ :=
  (whileCount fun n => c (b^[n] s)).map fun n => b^[n] s

/-- The variables of the two Newton iterations. -/
structure NewtonState where
  x : ℝ
  relX : ℝ
  relY : ℝ

/-- `constexpr acceptError` in EwaldTruncKolafaFixR.cpp and EwaldTruncKolafaOptEta.cpp. -/
noncomputable def acceptError : ℝ := 1 / 10 ^ 10

/-- The condition of the loops, EwaldTruncKolafaFixR.cpp:69, EwaldTruncKolafaOptEta.cpp:87. -/
def NewtonState.goesOn (st : NewtonState) : Prop := acceptError < st.relX ∨ acceptError < st.relY

/-! ### Jackson and Catlow -/

/-- EwaldTruncJackson.cpp:42-46. -/
noncomputable def jacksonEta (V : ℝ) : ℝ := 1 / √(2 * Real.pi) * V ^ (1 / 3 : ℝ)

/-- EwaldTruncJackson.cpp:48-52. -/
noncomputable def jacksonRCut (eta prec : ℝ) : ℝ := √(-2 * Real.log prec) * eta

/-- EwaldTruncJackson.cpp:54-58. -/
noncomputable def jacksonKCut (eta prec : ℝ) : ℝ := √(-2 * Real.log prec) / eta

open Classical in
/-- EwaldTruncJackson.cpp:22-32, the part after the comparison of the volumes. -/
noncomputable def jacksonParameters (S : EwaldSettings) (V : ℝ) (p : EwaldParameters) :
    EwaldParameters × Option EwaldError :=
  if 1 ≤ S.precision then (p, some .jacksonPrecision)
  else if jacksonEta V ≤ 0 then ({ p with eta := jacksonEta V }, some .etaNotPositive)
  else
    (⟨jacksonEta V, jacksonRCut (jacksonEta V) S.precision, jacksonKCut (jacksonEta V) S.precision⟩, none)

/-! ### Kolafa and Perram, given cutoff in real space -/

/-- EwaldTruncKolafaFixR.cpp:88-91 `calculateC`. -/
noncomputable def fixRC (S : EwaldSettings) (V : ℝ) (N : ℕ) : ℝ :=
  2 * S.maxCharge ^ 2 * √(N / V) / S.fourPiEps

/-- EwaldTruncKolafaFixR.cpp:52. -/
noncomputable def fixRX (C rCut prec : ℝ) : ℝ := √(rCut / 2) * prec / C

/-- EwaldTruncKolafaFixR.cpp:56. -/
noncomputable def fixREta (C rCut prec : ℝ) : ℝ := rCut / √(-2 * Real.log (fixRX C rCut prec))

/-- EwaldTruncKolafaFixR.cpp:65. -/
noncomputable def fixRY (C eta prec : ℝ) : ℝ := eta * prec / (√2 * C)

/-- EwaldTruncKolafaFixR.cpp:72-73. -/
noncomputable def kCutNext (eta y k : ℝ) : ℝ :=
  k - 2 * k / (1 + 2 * (k * eta) ^ 2) * (-1 + √k * Real.exp ((k * eta) ^ 2 / 2) * y)

open Classical in
/-- EwaldTruncKolafaFixR.cpp:71-83, the body of the loop. -/
noncomputable def kCutBody (eta y : ℝ) (st : NewtonState) : NewtonState :=
  if kCutNext eta y st.x ≤ 0 then { st with x := st.x / 2 }
  else
    { x := kCutNext eta y st.x
      relX := |(kCutNext eta y st.x - st.x) / kCutNext eta y st.x|
      relY := |(1 / √(kCutNext eta y st.x) * Real.exp (-(kCutNext eta y st.x * eta) ^ 2 / 2) - y) / y| }

/-- EwaldTruncKolafaFixR.cpp:59-86 `calculateKCut`. -/
noncomputable def fixRKCut (C eta prec : ℝ) : Option ℝ :=
  (whileLoop NewtonState.goesOn (kCutBody eta (fixRY C eta prec)) ⟨1 / eta, 1, 1⟩).map (·.x)

open Classical in
/-- EwaldTruncKolafaFixR.cpp:26-33, the part after the comparison of volume and number of atoms. With
`C = 0` the quotient in line 52 is infinite, the root of a negative cutoff is not a number. -/
noncomputable def fixRParameters (S : EwaldSettings) (V : ℝ) (N : ℕ) (p : EwaldParameters) :
    EwaldParameters × Option EwaldError :=
  if p.rCut = 0 then (p, some .zeroCutoff)
  else if p.rCut < 0 then (p, some .notANumber)
  else if fixRC S V N = 0 ∨ 1 ≤ fixRX (fixRC S V N) p.rCut S.precision then (p, some .badPrecision)
  else
    match fixRKCut (fixRC S V N) (fixREta (fixRC S V N) p.rCut S.precision) S.precision with
    | none => ({ p with eta := fixREta (fixRC S V N) p.rCut S.precision }, some .endless)
    | some k => (⟨fixREta (fixRC S V N) p.rCut S.precision, p.rCut, k⟩, none)

/-! ### Kolafa and Perram, optimal width -/

/-- EwaldTruncKolafaOptEta.cpp:14. -/
noncomputable def trOverTk : ℝ := 3.676

/-- EwaldTruncKolafaOptEta.cpp:105-108 `calculateC`. -/
noncomputable def optC (S : EwaldSettings) (V : ℝ) (N : ℕ) : ℝ :=
  2 ^ (3 / 4 : ℝ) * S.maxCharge ^ 2 * √(N / V) / S.fourPiEps

/-- EwaldTruncKolafaOptEta.cpp:89-90. -/
noncomputable def sStep (y s : ℝ) : ℝ :=
  2 * s / (4 * s ^ 2 + 1) * (1 - √s / Real.exp (-s ^ 2) * y)

open Classical in
/-- EwaldTruncKolafaOptEta.cpp:89-101, the body of the loop. -/
noncomputable def sBody (y : ℝ) (st : NewtonState) : NewtonState :=
  if st.x ≤ -sStep y st.x then { st with x := st.x / 2 }
  else
    { x := st.x + sStep y st.x
      relY := |(Real.exp (-(st.x + sStep y st.x) ^ 2) / √(st.x + sStep y st.x) - y) / y|
      relX := |sStep y st.x / (st.x + sStep y st.x)| }

open Classical in
/-- EwaldTruncKolafaOptEta.cpp:77-103 `calculateS`. -/
noncomputable def calculateS (prec C eta s : ℝ) : Option ℝ :=
  (whileLoop NewtonState.goesOn (sBody (prec / C * √(eta / 2)))
    ⟨if s ≤ 0 then 1 / 2 else s, 1, 1⟩).map (·.x)

/-- EwaldTruncKolafaOptEta.cpp:51-52. -/
noncomputable def optEta0 (V : ℝ) : ℝ := (1 / trOverTk * V ^ 2 / (2 * Real.pi) ^ 3) ^ (1 / 6 : ℝ)

/-- EwaldTruncKolafaOptEta.cpp:63. -/
noncomputable def nextEta (eta0 s : ℝ) : ℝ := eta0 * (1 + 1 / (2 * s ^ 2)) ^ (1 / 6 : ℝ)

/-- The variables of the loop in `EwaldTruncKolafaOptEta::calculateEta`. -/
structure EtaState where
  eta : ℝ
  s : ℝ
  relError : ℝ

/-- EwaldTruncKolafaOptEta.cpp:61-64, the body of the loop; `none`: `calculateS` does not return. -/
noncomputable def etaBody (prec C eta0 : ℝ) (st : Option EtaState) : Option EtaState :=
  st.bind fun st => (calculateS prec C st.eta st.s).map fun s =>
    ⟨nextEta eta0 s, s, |st.eta - nextEta eta0 s| / nextEta eta0 s⟩

/-- EwaldTruncKolafaOptEta.cpp:59. -/
def etaGoesOn (st : Option EtaState) : Prop := ∃ t, st = some t ∧ acceptError < t.relError

/-- EwaldTruncKolafaOptEta.cpp:46-66 `calculateEta`. -/
noncomputable def calculateEta (prec C V : ℝ) : Option EtaState :=
  (whileLoop etaGoesOn (etaBody prec C (optEta0 V)) (some ⟨optEta0 V, 1, 1⟩)).join

open Classical in
/-- EwaldTruncKolafaOptEta.cpp:26-37, the part after the comparison of volume and number of atoms. With
`C = 0` the results are not numbers. -/
noncomputable def optEtaParameters (S : EwaldSettings) (V : ℝ) (N : ℕ) (p : EwaldParameters) :
    EwaldParameters × Option EwaldError :=
  if optC S V N = 0 then (p, some .notANumber)
  else
    match calculateEta S.precision (optC S V N) V with
    | none => (p, some .endless)
    | some t =>
      (⟨max t.eta S.maxQSigma, √2 * max t.eta S.maxQSigma * t.s, √2 * t.s / max t.eta S.maxQSigma⟩, none)

/-! ### All methods -/

/-- EwaldTruncJackson.cpp:17-18 (only the volume is compared), EwaldTruncKolafaFixR.cpp:19-20,
EwaldTruncKolafaOptEta.cpp:22-23: is the structure different from the previous one? -/
def TruncImpl.newCutoffs (t : TruncImpl) (V : ℝ) (N : ℕ) : Prop :=
  match t.cls with
  | .jackson => V ≠ t.volume
  | _ => V ≠ t.volume ∨ N ≠ t.numAtoms

/-- The parameters of a new structure. -/
noncomputable def newParameters (c : TruncClass) (S : EwaldSettings) (V : ℝ) (N : ℕ)
    (p : EwaldParameters) : EwaldParameters × Option EwaldError :=
  match c with
  | .jackson => jacksonParameters S V p
  | .kolafaFixR => fixRParameters S V N p
  | .kolafaOptEta => optEtaParameters S V N p

open Classical in
/-- EwaldSetup.cpp:88-94 `calculateParameters`: the object afterwards and the error, if there is one.
Volume and number of atoms are stored before the parameters are calculated. -/
noncomputable def EwaldSetup.calculateParameters (E : EwaldSetup) (V : ℝ) (N : ℕ) :
    EwaldSetup × Option EwaldError :=
  match E.truncImpl with
  | none => (E, some .undefinedMethod)
  | some t =>
    if t.newCutoffs V N then
      ({ E with
          params := (newParameters t.cls E.sett V N E.params).1
          truncImpl := some ⟨t.cls, V, N, false⟩ },
        (newParameters t.cls E.sett V N E.params).2)
    else (E, none)

/-- EwaldSetup.cpp:95-122 `logEwaldCutoffs`: the parameters printed (converted to other units), if
they are printed. -/
noncomputable def EwaldSetup.logEwaldCutoffs (E : EwaldSetup) (lengthConversion : ℝ) :
    Except EwaldError (EwaldSetup × Option EwaldParameters) :=
  match E.truncImpl with
  | none => .error .nullPointer
  | some t =>
    .ok ({ E with truncImpl := some { t with published := true } },
      if t.published then none else some (E.params.toPhysicalUnits lengthConversion))

end N2P2
