import Verif.Lemmas.Config
import Verif.Lemmas.Run
import Verif.Spec.Config
import Verif.Props.Load

set_option autoImplicit false
set_option linter.unusedSectionVars false

/-! # Properties of the configuration: C123 (ranges), C124 (validated is prepared), C125 (missing inputs), C126 (first pass) -/

namespace Verif.Props
open Verif Verif.Model Verif.Spec Fl

variable {K : Type} [Field K] [LinearOrder K] [IsStrictOrderedRing K]

/-! ## A configuration: inputs/SimplifiedSynthetic.cnf -/

/-- A number in the file. -/
def rNum (q : ℚ) : Raw ℚ := { str := some "", flt := some (fin q), int := if q.den = 1 then some q.num else none, bool := none }
/-- A text in the file. -/
def rTxt (s : String) : Raw ℚ := { str := some s, flt := none, int := none, bool := none }

/-- inputs/SimplifiedSynthetic.cnf. -/
def simpleTable : List ((String × String) × Raw ℚ) :=
  [(("", "ModelName"), rTxt "Hurunui hapua")] ++
  [("RiverFlow", "shotnoise"), ("WaveConditions", "WaveDataRotated.csv"), ("SeaLevel", "harmonic")].map
    (fun e => (("BoundaryConditions", e.1), rTxt e.2)) ++
  ([("MeanDaysBetweenEvents", 15), ("MeanEventIncrease", 100), ("FastDecayRate", 3/10), ("SlowDecayRate", 15/1000), ("FastFlowProp", 85/100),
    ("RisingLimbTime", 1), ("HydrographDt", 60), ("RandomSeed", 1)] : List (String × ℚ)).map
    (fun e => (("BoundaryConditions/ShotnoiseHydrographParameters", e.1), rNum e.2)) ++
  ([("MeanSeaLevel", 0), ("TidalRange", 144/100), ("SeaLevelDt", 30)] : List (String × ℚ)).map
    (fun e => (("BoundaryConditions/HarmonicTideParameters", e.1), rNum e.2)) ++
  ([("ShorelineLengthLeft", 2000), ("ShorelineLengthRight", 700), ("BeachWidth", 40)] : List (String × ℚ)).map
    (fun e => (("SpatialInputs", e.1), rNum e.2)) ++
  ([("OutletWidth", 35), ("OutletBed", -1), ("LagoonBed", -1), ("BarrierElev", 35/10)] : List (String × ℚ)).map
    (fun e => (("InitialConditions", e.1), rNum e.2)) ++
  [("StartTime", "1 Sep 2000"), ("EndTime", "1 Jan 2018")].map (fun e => (("Time", e.1), rTxt e.2)) ++
  ([("HydDt", 5), ("MorDtMin", 15), ("MorDtMax", 3840)] : List (String × ℚ)).map (fun e => (("Time", e.1), rNum e.2)) ++
  ([("Kcoef", 17/1000), ("RhoSed", 2650), ("RhoSea", 1025), ("RhoRiv", 1000), ("VoidRatio", 4/10), ("Gravity", 981/100), ("GammaRatio", 5/10),
    ("WaveDataDepth", 10), ("ClosureDepth", 5), ("BeachSlope", 13/100), ("RiverSlope", 3/1000), ("GrainSize", 18/1000),
    ("CritShieldsStress", 495/10000), ("MPM_coef", 397/100), ("MPM_exp", 15/10), ("UpstreamLength", 1000), ("RiverWidth", 100),
    ("RoughnessManning", 4/100), ("GrainRoughness", 35/1000), ("WidthDepthRatio", 30), ("BackshoreElev", 10), ("MaxOutletElev", -2),
    ("OT_coef", 15/100000), ("OT_exp", 2), ("BeachTopElev", 2), ("SpitWidth", 10), ("TargetBarHeight", 55/10), ("TargetBarWidth", 90),
    ("MinOutletWidth", 1), ("OutletSedSpreadDist", 100), ("OutletBankEroFac", 5/10), ("BarrierPermeability", 1/1000)] :
    List (String × ℚ)).map (fun e => (("PhysicalParameters", e.1), rNum e.2)) ++
  ([("Dx", 20), ("Beta", 0), ("Theta", 7/10), ("Psi", 4/10), ("ErrTol", 1/1000), ("MaxIt", 30), ("WarnTol", 1/10), ("MaxMorChange", 1/10)] :
    List (String × ℚ)).map (fun e => (("NumericalParameters", e.1), rNum e.2)) ++
  ([("OutInt", 10800), ("TsOutInt", 900), ("LogInt", 3600), ("PlotInt", 0)] : List (String × ℚ)).map
    (fun e => (("OutputOptions", e.1), rNum e.2))

/-- The file as a function of section and key. -/
def simpleFile : String → String → Option (Raw ℚ) := fun s k => (simpleTable.find? fun e => e.1 == (s, k)).map (·.2)

/-- The file with one value changed or left out. -/
def setKey {α : Type} (file : String → String → Option α) (s k : String) (r : Option α) : String → String → Option α :=
  fun s' k' => if s' = s ∧ k' = k then r else file s' k'

/-- `pd.to_datetime` on the dates of the file. -/
def simpleDate : String → Option ℤ := fun t =>
  if t = "1 Sep 2000" then some 967766400000000000 else if t = "1 Jan 2018" then some 1514764800000000000 else none

/-- A rational stand-in for `x**1.5`; what matters here is where it is zero. -/
def simplePow : ℚ → ℚ := fun x => x

/-! ## C123 -/

/-- nan in the file. -/
def rNan : Raw K := { str := some "nan", flt := some nan, int := none, bool := none }

/-- C123 refuted: with Dx, the spacing of the transects, given as nan the example configuration is accepted. -/
theorem C123_refuted : ∃ v, validate (setKey simpleFile "NumericalParameters" "Dx" (some rNan)) = .ok v ∧
    v "NumericalParameters" "Dx" = .flt nan := by
  have h : okAnd (validate (setKey simpleFile "NumericalParameters" "Dx" (some rNan)))
    (fun v => decide (v "NumericalParameters" "Dx" = .flt nan)) = true := by decide +kernel
  obtain ⟨v, hv, hp⟩ := okAnd_iff.mp h
  exact ⟨v, hv, of_decide_eq_true hp⟩

/-- C123 refuted, in general: any number of any accepted configuration can be replaced by nan without being noticed. -/
theorem C123_refuted_general {file : String → String → Option (Raw K)} {v : Conf K} (h : validate file = .ok v) {s k : String}
    {mn mx : Option ℚ} {d : Option (Option ℚ)} (hs : specOf s k = some (.float mn mx d)) :
    ∃ v', validate (setKey file s k (some rNan)) = .ok v' ∧ v' s k = .flt nan := by
  have hall : (configspec.all fun e => (e.2.2.run (setKey file s k (some rNan) e.1 e.2.1)).isSome) = true := by
    unfold validate at h
    split at h
    · rename_i ha
      rw [List.all_eq_true] at ha ⊢
      rintro ⟨s', k', c⟩ he
      by_cases hk : s' = s ∧ k' = k
      · obtain ⟨rfl, rfl⟩ := hk
        have : ∀ e ∈ configspec, specOf e.1 e.2.1 = some e.2.2 := by decide +kernel
        have hc := this _ he
        simp only at hc
        rw [hs] at hc
        cases hc
        simp [setKey, Check.run, Check.ofRaw, rNan, inBounds_nan]
      · simp only [setKey, if_neg hk]
        exact ha _ he
    · cases h
  refine ⟨_, by unfold validate; rw [if_pos hall], ?_⟩
  simp [hs, setKey, Check.run, Check.ofRaw, rNan, inBounds_nan]

/-- The minimum of a key in configspec.cnf is at least `b`. -/
def minIs (b : ℚ) (e : String × String) : Bool :=
  match specOf e.1 e.2 with
  | some (.float (some m) _ _) => decide (b ≤ m)
  | _ => false

/-- The maximum of a key in configspec.cnf is at most `b`. -/
def maxIs (b : ℚ) (s k : String) : Bool :=
  match specOf s k with
  | some (.float _ (some m) _) => decide (m ≤ b)
  | _ => false

theorem minIs_get {file : String → String → Option (Raw K)} {v : Conf K} (h : validate file = .ok v) {b : ℚ} {e : String × String}
    (hm : minIs b e = true) {x : K} (hx : v e.1 e.2 = .flt (fin x)) : (b : K) ≤ x := by
  unfold minIs at hm
  split at hm
  · rename_i m mx d hs
    rcases float_get h hs with ⟨a, _⟩ | ⟨y, a, hb⟩
    · rw [a] at hx; cases hx
    · rw [a] at hx
      injection hx with hx
      subst hx
      have h1 := (inBounds_iff.mp hb).1 m rfl
      have h2 : (b : K) ≤ (m : K) := by exact_mod_cast of_decide_eq_true hm
      exact h2.trans h1
  · cases hm

theorem maxIs_get {file : String → String → Option (Raw K)} {v : Conf K} (h : validate file = .ok v) {b : ℚ} {s k : String}
    (hm : maxIs b s k = true) {x : K} (hx : v s k = .flt (fin x)) : x ≤ (b : K) := by
  unfold maxIs at hm
  split at hm
  · rename_i mn m d hs
    rcases float_get h hs with ⟨a, _⟩ | ⟨y, a, hb⟩
    · rw [a] at hx; cases hx
    · rw [a] at hx
      injection hx with hx
      subst hx
      have h1 := (inBounds_iff.mp hb).2 m rfl
      have h2 : (m : K) ≤ (b : K) := by exact_mod_cast of_decide_eq_true hm
      exact h1.trans h2
  · cases hm

/-- C123, partial: in a configuration that passes the validation every number that is finite lies in its range.  (Missing: nan
and, where there is no maximum, infinity pass.) -/
theorem C123_partial {file : String → String → Option (Raw K)} {v : Conf K} (h : validate file = .ok v) :
    (∀ e ∈ nonNegative, ∀ x, v e.1 e.2 = .flt (fin x) → 0 ≤ x) ∧ (∀ e ∈ atLeastOne, ∀ x, v e.1 e.2 = .flt (fin x) → 1 ≤ x) ∧
    (∀ e ∈ atMost, ∀ x, v e.1 e.2.1 = .flt (fin x) → x ≤ (e.2.2 : K)) := by
  have h0 : ∀ e ∈ nonNegative, minIs 0 e = true := by decide +kernel
  have h1 : ∀ e ∈ atLeastOne, minIs 1 e = true := by decide +kernel
  have h2 : ∀ e ∈ atMost, maxIs e.2.2 e.1 e.2.1 = true := by decide +kernel
  refine ⟨fun e he x hx => ?_, fun e he x hx => ?_, fun e he x hx => maxIs_get h (h2 e he) hx⟩
  · exact_mod_cast minIs_get h (h0 e he) hx
  · exact_mod_cast minIs_get h (h1 e he) hx

/-- A required number of configspec.cnf. -/
def reqFloat (e : String × String) : Bool :=
  match specOf e.1 e.2 with
  | some (.float _ _ none) => true
  | _ => false

/-- A number of configspec.cnf that always has a value. -/
def hasFloat (e : String × String) : Bool :=
  match specOf e.1 e.2 with
  | some (.float _ _ (some none)) => false
  | some (.float _ _ _) => true
  | _ => false

/-- A required text of configspec.cnf. -/
def reqText (e : String × String) : Bool :=
  match specOf e.1 e.2 with
  | some (.string none) => true
  | _ => false

/-- A number of configspec.cnf, with or without a default. -/
def isFloat (e : String × String) : Bool :=
  match specOf e.1 e.2 with
  | some (.float _ _ _) => true
  | _ => false

theorem hasFloat_get {file : String → String → Option (Raw K)} {v : Conf K} (h : validate file = .ok v) {e : String × String}
    (hm : hasFloat e = true) : ∃ x, v e.1 e.2 = .flt x := by
  unfold hasFloat at hm
  split at hm
  · cases hm
  · rename_i mn mx d hd hs
    rcases float_get h hs with ⟨_, _, a⟩ | ⟨y, a, _⟩
    · exact absurd a hd
    · exact ⟨y, a⟩
  · cases hm

theorem isFloat_get {file : String → String → Option (Raw K)} {v : Conf K} (h : validate file = .ok v) {e : String × String}
    (hm : isFloat e = true) (hn : v e.1 e.2 ≠ .none) : ∃ x, v e.1 e.2 = .flt x := by
  unfold isFloat at hm
  split at hm
  · rename_i mn mx d hs
    rcases float_get h hs with ⟨a, _⟩ | ⟨y, a, _⟩
    · exact absurd a hn
    · exact ⟨y, a⟩
  · cases hm

/-- C123: every number and every text that has no default is in the file and is read as a number or a text. -/
theorem C123_required {file : String → String → Option (Raw K)} {v : Conf K} (h : validate file = .ok v) :
    (∀ e ∈ required, file e.1 e.2 ≠ none ∧ ∃ x, v e.1 e.2 = .flt x) ∧
    (∀ e ∈ requiredText, file e.1 e.2 ≠ none ∧ ∃ t, v e.1 e.2 = .str t) := by
  have h0 : ∀ e ∈ required, reqFloat e = true := by decide +kernel
  have h1 : ∀ e ∈ requiredText, reqText e = true := by decide +kernel
  constructor
  · intro e he
    have hm := h0 e he
    unfold reqFloat at hm
    split at hm
    · rename_i mn mx hs
      have hg := validate_get h hs
      refine ⟨fun hf => ?_, ?_⟩
      · rw [hf] at hg; cases hg
      · rcases float_get h hs with ⟨_, _, a⟩ | ⟨y, a, _⟩
        · cases a
        · exact ⟨y, a⟩
    · cases hm
  · intro e he
    have hm := h1 e he
    unfold reqText at hm
    split at hm
    · rename_i hs
      have hg := validate_get h hs
      refine ⟨fun hf => ?_, ?_⟩
      · rw [hf] at hg; cases hg
      · rcases string_get h hs with ⟨_, _, a⟩ | ⟨y, a⟩
        · cases a
        · exact ⟨y, a⟩
    · cases hm

/-- The example configuration passes, and one without Dx or with a void ratio above one does not. -/
example : (okAnd (validate simpleFile) fun v => decide (v "PhysicalParameters" "VoidRatio" = .flt (fin (4/10))) &&
      decide (v "PhysicalParameters" "ShorelineErosionRate" = .flt (fin 0)) && decide (v "HotStart" "HotStartTime" = .none)) = true ∧
    (okAnd (validate (setKey simpleFile "NumericalParameters" "Dx" none)) fun _ => true) = false ∧
    (okAnd (validate (setKey simpleFile "PhysicalParameters" "VoidRatio" (some (rNum (11/10))))) fun _ => true) = false := by
  decide +kernel

/-! ## C124 -/

/-- All numbers are finite. -/
def FiniteConf (v : Conf K) : Prop := ∀ s k x, v s k = .flt x → ∃ y, x = fin y

/-- The key has a value. -/
def Given (v : Conf K) (s k : String) : Prop := v s k ≠ .none

/-- A hot start is asked for. -/
def Hot (v : Conf K) : Prop := v "HotStart" "InitialConditionsNetCDF" ≠ .none
/-- A surveyed shoreline is given. -/
def RealShore (v : Conf K) : Prop := v "SpatialInputs" "Shoreline" ≠ .none
/-- The synthetic hydrograph is asked for. -/
def Shotnoise (v : Conf K) : Prop := ∃ t, v "BoundaryConditions" "RiverFlow" = .str t ∧ t.toLower = "shotnoise"
/-- The synthetic tide is asked for. -/
def Harmonic (v : Conf K) : Prop := ∃ t, v "BoundaryConditions" "SeaLevel" = .str t ∧ t.toLower = "harmonic"
/-- The dates are understood. -/
def Dated (date : String → Option ℤ) (v : Conf K) : Prop :=
  ∀ k ∈ ["StartTime", "EndTime"], ∀ t, v "Time" k = .str t → date t ≠ none

/-- No divisor in the derived quantities is zero. -/
structure Divisible (v : Conf K) : Prop where
  density : v "PhysicalParameters" "RhoSed" ≠ v "PhysicalParameters" "RhoSea"
  gravity : v "PhysicalParameters" "Gravity" ≠ .flt (fin 0)
  void : v "PhysicalParameters" "VoidRatio" ≠ .flt (fin 1)
  sea : v "PhysicalParameters" "RhoSea" ≠ .flt (fin 0)
  gamma : v "PhysicalParameters" "GammaRatio" ≠ .flt (fin 0)
  width : v "PhysicalParameters" "TargetBarWidth" ≠ v "PhysicalParameters" "SpitWidth"
  slope : ¬ Hot v → v "PhysicalParameters" "RiverSlope" ≠ .flt (fin 0)
  dx : ¬ Hot v → v "NumericalParameters" "Dx" ≠ .flt (fin 0)

theorem ok_bind' {ε α β : Type} (a : α) (f : α → Except ε β) : (Except.ok a >>= f) = f a := rfl
theorem err_bind' {ε α β : Type} (e : ε) (f : α → Except ε β) : ((Except.error e : Except ε α) >>= f) = .error e := rfl

theorem fnum {file : String → String → Option (Raw K)} {v : Conf K} (h : validate file = .ok v) (hf : FiniteConf v) (s k : String)
    (hm : hasFloat (s, k) = true) : ∃ x, v s k = .flt (fin x) := by
  obtain ⟨x, hx⟩ := hasFloat_get h hm
  obtain ⟨y, rfl⟩ := hf _ _ _ hx
  exact ⟨y, hx⟩

theorem fopt {file : String → String → Option (Raw K)} {v : Conf K} (h : validate file = .ok v) (hf : FiniteConf v) (s k : String)
    (hm : isFloat (s, k) = true) (hg : Given v s k) : ∃ x, v s k = .flt (fin x) := by
  obtain ⟨x, hx⟩ := isFloat_get h hm hg
  obtain ⟨y, rfl⟩ := hf _ _ _ hx
  exact ⟨y, hx⟩

theorem ftext {file : String → String → Option (Raw K)} {v : Conf K} (h : validate file = .ok v) (s k : String)
    (hm : (match specOf s k with | some (.string _) => true | _ => false) = true) (hg : Given v s k) : ∃ t, v s k = .str t := by
  split at hm
  · rename_i d hs
    rcases string_get h hs with ⟨a, _⟩ | ⟨t, a⟩
    · exact absurd a hg
    · exact ⟨t, a⟩
  · cases hm

theorem timePars_ok [FloorRing K] {date : String → Option ℤ} {file : String → String → Option (Raw K)} {v : Conf K}
    (h : validate file = .ok v) (hf : FiniteConf v) (hd : Dated date v) : ∃ tp, timePars date v = .ok tp := by
  obtain ⟨t0, e0⟩ := ((C123_required h).2 ("Time", "StartTime") (by decide +kernel)).2
  obtain ⟨t1, e1⟩ := ((C123_required h).2 ("Time", "EndTime") (by decide +kernel)).2
  obtain ⟨a, ea⟩ := fnum h hf "Time" "HydDt" (by decide +kernel)
  obtain ⟨b, eb⟩ := fnum h hf "Time" "MorDtMin" (by decide +kernel)
  obtain ⟨c, ec⟩ := fnum h hf "Time" "MorDtMax" (by decide +kernel)
  obtain ⟨d0, hd0⟩ := Option.ne_none_iff_exists'.mp (hd "StartTime" (by simp) t0 e0)
  obtain ⟨d1, hd1⟩ := Option.ne_none_iff_exists'.mp (hd "EndTime" (by simp) t1 e1)
  unfold timePars
  simp only [text_ok.mpr e0, text_ok.mpr e1, num_ok.mpr ea, num_ok.mpr eb, num_ok.mpr ec, ok_bind', hd0, hd1]
  exact ⟨_, rfl⟩

theorem lstPars_eq {pow15 : K → K} {v : Conf K} {rs ra g vd kc ga : K} (h1 : v "PhysicalParameters" "RhoSed" = .flt (fin rs))
    (h2 : v "PhysicalParameters" "RhoSea" = .flt (fin ra)) (h3 : v "PhysicalParameters" "Gravity" = .flt (fin g))
    (h4 : v "PhysicalParameters" "VoidRatio" = .flt (fin vd)) (h5 : v "PhysicalParameters" "Kcoef" = .flt (fin kc))
    (h6 : v "PhysicalParameters" "GammaRatio" = .flt (fin ga)) :
    lstPars pow15 v = if (rs - ra) * g * (1 - vd) = 0 ∨ ra * pow15 g * (ga * ga) = 0 then .error (.py .zeroDiv)
      else .ok (kc / ((rs - ra) * g * (1 - vd)), 8 / (ra * pow15 g * (ga * ga))) := by
  unfold lstPars
  simp only [num_ok.mpr h1, num_ok.mpr h2, num_ok.mpr h3, num_ok.mpr h4, num_ok.mpr h5, num_ok.mpr h6, ok_bind']
  by_cases c1 : (rs - ra) * g * (1 - vd) = 0
  · rw [if_pos c1, if_pos (Or.inl c1)]; rfl
  · rw [if_neg c1]
    by_cases c2 : ra * pow15 g * (ga * ga) = 0
    · rw [if_pos (Or.inr c2)]
      show (if ra * pow15 g * (ga * ga) = 0 then _ else _) = _
      rw [if_pos c2]; rfl
    · have hn : ¬ ((rs - ra) * g * (1 - vd) = 0 ∨ ra * pow15 g * (ga * ga) = 0) := by tauto
      rw [if_neg hn]
      show (if ra * pow15 g * (ga * ga) = 0 then _ else _) = _
      rw [if_neg c2]; rfl

theorem barPars_eq {v : Conf K} {h b w s : K} (h1 : v "PhysicalParameters" "TargetBarHeight" = .flt (fin h))
    (h2 : v "PhysicalParameters" "BeachTopElev" = .flt (fin b)) (h3 : v "PhysicalParameters" "TargetBarWidth" = .flt (fin w))
    (h4 : v "PhysicalParameters" "SpitWidth" = .flt (fin s)) : barPars v = liftPy (barRat h b w s) := by
  unfold barPars
  simp only [num_ok.mpr h1, num_ok.mpr h2, num_ok.mpr h3, num_ok.mpr h4, ok_bind']

theorem riverPars_eq [FloorRing K] {v : Conf K} {b s u d : K} (h1 : v "InitialConditions" "LagoonBed" = .flt (fin b))
    (h2 : v "PhysicalParameters" "RiverSlope" = .flt (fin s)) (h3 : v "PhysicalParameters" "UpstreamLength" = .flt (fin u))
    (h4 : v "NumericalParameters" "Dx" = .flt (fin d)) : riverPars v = liftPy (riverElev b s u d) := by
  unfold riverPars
  simp only [num_ok.mpr h1, num_ok.mpr h2, num_ok.mpr h3, num_ok.mpr h4, ok_bind']

theorem riverElev_eq [FloorRing K] (b s u d : K) :
    (s = 0 ∨ d = 0 → riverElev b s u d = .error .zeroDiv) ∧ (s ≠ 0 → d ≠ 0 → ∃ r, riverElev b s u d = .ok r) := by
  unfold riverElev arange
  constructor
  · intro h
    rw [if_pos (mul_eq_zero.mpr h)]; rfl
  · intro h1 h2
    rw [if_neg (mul_ne_zero h1 h2)]
    exact ⟨_, rfl⟩

theorem given_assert {v : Conf K} {s k : String} (h : Given v s k) : liftPy (pyAssert (decide (v s k ≠ .none))) = .ok () := by
  rw [liftPy_ok, pyAssert_ok]
  exact decide_eq_true h

theorem straightShore_ok [FloorRing K] {file : String → String → Option (Raw K)} {v : Conf K}
    (h : validate file = .ok v) (hf : FiniteConf v) (h1 : Given v "SpatialInputs" "ShorelineLengthLeft")
    (h2 : Given v "SpatialInputs" "ShorelineLengthRight") (h3 : Given v "SpatialInputs" "BeachWidth")
    (hs : v "PhysicalParameters" "RiverSlope" ≠ .flt (fin 0)) (hd : v "NumericalParameters" "Dx" ≠ .flt (fin 0)) :
    ∃ s, straightShore v = .ok s := by
  obtain ⟨x1, e1⟩ := fopt h hf "SpatialInputs" "ShorelineLengthLeft" (by decide +kernel) h1
  obtain ⟨x2, e2⟩ := fopt h hf "SpatialInputs" "ShorelineLengthRight" (by decide +kernel) h2
  obtain ⟨x3, e3⟩ := fopt h hf "SpatialInputs" "BeachWidth" (by decide +kernel) h3
  obtain ⟨x4, e4⟩ := fnum h hf "NumericalParameters" "Dx" (by decide +kernel)
  obtain ⟨x5, e5⟩ := fnum h hf "PhysicalParameters" "SpitWidth" (by decide +kernel)
  obtain ⟨x6, e6⟩ := fnum h hf "PhysicalParameters" "RiverWidth" (by decide +kernel)
  obtain ⟨x7, e7⟩ := fnum h hf "InitialConditions" "OutletWidth" (by decide +kernel)
  obtain ⟨x8, e8⟩ := fnum h hf "InitialConditions" "OutletBed" (by decide +kernel)
  obtain ⟨x9, e9⟩ := fnum h hf "InitialConditions" "LagoonBed" (by decide +kernel)
  obtain ⟨x10, e10⟩ := fnum h hf "InitialConditions" "BarrierElev" (by decide +kernel)
  obtain ⟨x11, e11⟩ := fnum h hf "PhysicalParameters" "RiverSlope" (by decide +kernel)
  obtain ⟨x12, e12⟩ := fnum h hf "PhysicalParameters" "UpstreamLength" (by decide +kernel)
  have hs' : x11 ≠ 0 := by rintro rfl; exact hs e11
  have hd' : x4 ≠ 0 := by rintro rfl; exact hd e4
  unfold straightShore
  simp only [given_assert h1, given_assert h2, given_assert h3, num_ok.mpr e1, num_ok.mpr e2, num_ok.mpr e3, num_ok.mpr e4,
    num_ok.mpr e5, num_ok.mpr e6, num_ok.mpr e7, num_ok.mpr e8, num_ok.mpr e9, num_ok.mpr e10, num_ok.mpr e11, num_ok.mpr e12, ok_bind']
  unfold defaultLoad defaultRows arange
  obtain ⟨r, hr⟩ := (riverElev_eq x9 x11 x12 x4).2 hs' hd'
  simp only [hr, if_neg hd', ok_bind']
  exact ⟨_, rfl⟩

theorem flowSource_ok [FloorRing K] {file : String → String → Option (Raw K)} {v : Conf K} (h : validate file = .ok v) (hf : FiniteConf v)
    (hc : Shotnoise v → ∀ k ∈ ["MeanDaysBetweenEvents", "MeanEventIncrease", "FastDecayRate", "SlowDecayRate", "FastFlowProp",
      "RisingLimbTime"], Given v "BoundaryConditions/ShotnoiseHydrographParameters" k) : ∃ s, flowSource v = .ok s := by
  obtain ⟨t, et⟩ := ((C123_required h).2 ("BoundaryConditions", "RiverFlow") (by decide +kernel)).2
  unfold flowSource
  simp only [text_ok.mpr et, ok_bind']
  by_cases hl : t.toLower = "shotnoise"
  · have hg := hc ⟨t, et, hl⟩
    have g1 := hg "MeanDaysBetweenEvents" (by simp)
    have g6 := hg "RisingLimbTime" (by simp)
    obtain ⟨x0, e0⟩ := fnum h hf "BoundaryConditions/ShotnoiseHydrographParameters" "HydrographDt" (by decide +kernel)
    obtain ⟨x1, e1⟩ := fopt h hf "BoundaryConditions/ShotnoiseHydrographParameters" "MeanDaysBetweenEvents" (by decide +kernel) g1
    obtain ⟨x2, e2⟩ := fopt h hf "BoundaryConditions/ShotnoiseHydrographParameters" "MeanEventIncrease" (by decide +kernel) (hg _ (by simp))
    obtain ⟨x3, e3⟩ := fopt h hf "BoundaryConditions/ShotnoiseHydrographParameters" "FastDecayRate" (by decide +kernel) (hg _ (by simp))
    obtain ⟨x4, e4⟩ := fopt h hf "BoundaryConditions/ShotnoiseHydrographParameters" "SlowDecayRate" (by decide +kernel) (hg _ (by simp))
    obtain ⟨x5, e5⟩ := fopt h hf "BoundaryConditions/ShotnoiseHydrographParameters" "FastFlowProp" (by decide +kernel) (hg _ (by simp))
    obtain ⟨x6, e6⟩ := fopt h hf "BoundaryConditions/ShotnoiseHydrographParameters" "RisingLimbTime" (by decide +kernel) g6
    simp only [if_pos hl, if_neg g1, if_neg g6, num_ok.mpr e0, num_ok.mpr e1, num_ok.mpr e2, num_ok.mpr e3, num_ok.mpr e4, num_ok.mpr e5,
      num_ok.mpr e6, ok_bind']
    exact ⟨_, rfl⟩
  · rw [if_neg hl]; exact ⟨_, rfl⟩

theorem seaSource_ok [FloorRing K] {file : String → String → Option (Raw K)} {v : Conf K} (h : validate file = .ok v) (hf : FiniteConf v)
    (hc : Harmonic v → Given v "BoundaryConditions/HarmonicTideParameters" "TidalRange") : ∃ s, seaSource v = .ok s := by
  obtain ⟨t, et⟩ := ((C123_required h).2 ("BoundaryConditions", "SeaLevel") (by decide +kernel)).2
  unfold seaSource
  simp only [text_ok.mpr et, ok_bind']
  by_cases hl : t.toLower = "harmonic"
  · obtain ⟨x0, e0⟩ := fnum h hf "BoundaryConditions/HarmonicTideParameters" "SeaLevelDt" (by decide +kernel)
    obtain ⟨x1, e1⟩ := fnum h hf "BoundaryConditions/HarmonicTideParameters" "MeanSeaLevel" (by decide +kernel)
    obtain ⟨x2, e2⟩ := fopt h hf "BoundaryConditions/HarmonicTideParameters" "TidalRange" (by decide +kernel) (hc ⟨t, et, hl⟩)
    simp only [if_pos hl, num_ok.mpr e0, num_ok.mpr e1, num_ok.mpr e2, ok_bind']
    exact ⟨_, rfl⟩
  · rw [if_neg hl]; exact ⟨_, rfl⟩

theorem outOpts_ok [FloorRing K] {file : String → String → Option (Raw K)} {v : Conf K} (h : validate file = .ok v) (hf : FiniteConf v) :
    ∃ s, outOpts v = .ok s := by
  obtain ⟨x0, e0⟩ := fnum h hf "OutputOptions" "OutInt" (by decide +kernel)
  obtain ⟨x1, e1⟩ := fnum h hf "OutputOptions" "TsOutInt" (by decide +kernel)
  obtain ⟨x2, e2⟩ := fnum h hf "OutputOptions" "LogInt" (by decide +kernel)
  obtain ⟨x3, e3⟩ := fnum h hf "OutputOptions" "PlotInt" (by decide +kernel)
  unfold outOpts
  simp only [num_ok.mpr e0, num_ok.mpr e1, num_ok.mpr e2, num_ok.mpr e3, ok_bind']
  exact ⟨_, rfl⟩

/-- The choice of the initial state succeeds exactly if the river bed can be laid out. -/
theorem shoreSource_ok [FloorRing K] {file : String → String → Option (Raw K)} {v : Conf K} (h : validate file = .ok v) (hf : FiniteConf v)
    (hc : Complete (Given v) (Hot v) (RealShore v) (Shotnoise v) (Harmonic v)) :
    ((¬ Hot v → v "PhysicalParameters" "RiverSlope" ≠ .flt (fin 0) ∧ v "NumericalParameters" "Dx" ≠ .flt (fin 0)) →
      ∃ s, shoreSource v = .ok s) ∧
    (¬ (¬ Hot v → v "PhysicalParameters" "RiverSlope" ≠ .flt (fin 0) ∧ v "NumericalParameters" "Dx" ≠ .flt (fin 0)) →
      shoreSource v = .error (.py .zeroDiv)) := by
  obtain ⟨x1, e1⟩ := fnum h hf "InitialConditions" "LagoonBed" (by decide +kernel)
  obtain ⟨x2, e2⟩ := fnum h hf "PhysicalParameters" "RiverSlope" (by decide +kernel)
  obtain ⟨x3, e3⟩ := fnum h hf "PhysicalParameters" "UpstreamLength" (by decide +kernel)
  obtain ⟨x4, e4⟩ := fnum h hf "NumericalParameters" "Dx" (by decide +kernel)
  unfold shoreSource
  by_cases hh : Hot v
  · refine ⟨fun _ => ?_, fun hn => absurd (fun hx => absurd hh hx) hn⟩
    obtain ⟨f, ef⟩ := ftext h "HotStart" "InitialConditionsNetCDF" (by decide +kernel) hh
    obtain ⟨t, et⟩ := ftext h "HotStart" "HotStartTime" (by decide +kernel) (hc.hotTime hh)
    rw [if_pos (show v "HotStart" "InitialConditionsNetCDF" ≠ .none from hh)]
    simp only [text_ok.mpr ef, text_ok.mpr et, ok_bind']
    exact ⟨_, rfl⟩
  · rw [if_neg (show ¬ v "HotStart" "InitialConditionsNetCDF" ≠ .none from hh)]
    simp only [riverPars_eq e1 e2 e3 e4]
    constructor
    · intro hg
      obtain ⟨g1, g2⟩ := hg hh
      obtain ⟨r, hr⟩ := (riverElev_eq x1 x2 x3 x4).2 (by rintro rfl; exact g1 e2) (by rintro rfl; exact g2 e4)
      rw [hr]
      simp only [liftPy, ok_bind']
      by_cases hr : RealShore v
      · rw [if_neg (show ¬ v "SpatialInputs" "Shoreline" = .none from hr)]
        obtain ⟨c1, c2, c3, c4⟩ := hc.shapes hh hr
        obtain ⟨t0, f0⟩ := ftext h "SpatialInputs" "Shoreline" (by decide +kernel) hr
        obtain ⟨t1, f1⟩ := ftext h "SpatialInputs" "RiverLocation" (by decide +kernel) c1
        obtain ⟨t2, f2⟩ := ftext h "SpatialInputs" "BarrierBackshore" (by decide +kernel) c2
        obtain ⟨t3, f3⟩ := ftext h "SpatialInputs" "CliffToe" (by decide +kernel) c3
        obtain ⟨t4, f4⟩ := ftext h "SpatialInputs" "OutletLocation" (by decide +kernel) c4
        simp only [text_ok.mpr f0, text_ok.mpr f1, text_ok.mpr f2, text_ok.mpr f3, text_ok.mpr f4, ok_bind']
        exact ⟨_, rfl⟩
      · rw [if_pos (show v "SpatialInputs" "Shoreline" = .none from not_not.mp hr)]
        obtain ⟨c1, c2, c3⟩ := hc.straight hh hr
        exact straightShore_ok h hf c1 c2 c3 g1 g2
    · intro hn
      have hz : x2 = 0 ∨ x4 = 0 := by
        by_contra hx
        push Not at hx
        refine hn (fun _ => ⟨fun he => hx.1 ?_, fun he => hx.2 ?_⟩)
        · rw [e2] at he; simpa using he
        · rw [e4] at he; simpa using he
      rw [(riverElev_eq x1 x2 x3 x4).1 hz]
      rfl

/-- C124, partial: a validated configuration with finite numbers, readable dates and everything that its options need is prepared
without error exactly if no divisor of the derived quantities is zero; otherwise a ZeroDivisionError is raised.  (Missing: the
validation should refuse such values.) -/
theorem C124_partial [FloorRing K] {date : String → Option ℤ} {pow15 : K → K} (hp : ∀ x, 0 ≤ x → (pow15 x = 0 ↔ x = 0))
    {file : String → String → Option (Raw K)} {v : Conf K} (h : validate file = .ok v) (hf : FiniteConf v) (hd : Dated date v)
    (hc : Complete (Given v) (Hot v) (RealShore v) (Shotnoise v) (Harmonic v)) :
    (Divisible v → ∃ p, prepare date pow15 v = .ok p) ∧ (¬ Divisible v → prepare date pow15 v = .error (.py .zeroDiv)) := by
  obtain ⟨tp, htp⟩ := timePars_ok h hf hd
  obtain ⟨rs, e1⟩ := fnum h hf "PhysicalParameters" "RhoSed" (by decide +kernel)
  obtain ⟨ra, e2⟩ := fnum h hf "PhysicalParameters" "RhoSea" (by decide +kernel)
  obtain ⟨g, e3⟩ := fnum h hf "PhysicalParameters" "Gravity" (by decide +kernel)
  obtain ⟨vd, e4⟩ := fnum h hf "PhysicalParameters" "VoidRatio" (by decide +kernel)
  obtain ⟨kc, e5⟩ := fnum h hf "PhysicalParameters" "Kcoef" (by decide +kernel)
  obtain ⟨ga, e6⟩ := fnum h hf "PhysicalParameters" "GammaRatio" (by decide +kernel)
  obtain ⟨th, e7⟩ := fnum h hf "PhysicalParameters" "TargetBarHeight" (by decide +kernel)
  obtain ⟨bt, e8⟩ := fnum h hf "PhysicalParameters" "BeachTopElev" (by decide +kernel)
  obtain ⟨tw, e9⟩ := fnum h hf "PhysicalParameters" "TargetBarWidth" (by decide +kernel)
  obtain ⟨sw, e10⟩ := fnum h hf "PhysicalParameters" "SpitWidth" (by decide +kernel)
  obtain ⟨fl, hfl⟩ := flowSource_ok h hf hc.flow
  obtain ⟨sl, hsl⟩ := seaSource_ok h hf hc.sea
  obtain ⟨oo, hoo⟩ := outOpts_ok h hf
  obtain ⟨w, ew⟩ := ((C123_required h).2 ("BoundaryConditions", "WaveConditions") (by decide +kernel)).2
  have hg : 0 ≤ g := (C123_partial h).1 ("PhysicalParameters", "Gravity") (by decide +kernel) g e3
  obtain ⟨hs1, hs2⟩ := shoreSource_ok h hf hc
  unfold prepare
  simp only [htp, ok_bind', lstPars_eq e1 e2 e3 e4 e5 e6, barPars_eq e7 e8 e9 e10]
  constructor
  · intro hD
    have n1 : rs - ra ≠ 0 := by
      intro hx; apply hD.density; rw [e1, e2, sub_eq_zero.mp hx]
    have n2 : g ≠ 0 := by rintro rfl; exact hD.gravity e3
    have n3 : 1 - vd ≠ 0 := by
      intro hx; apply hD.void; rw [e4, ← sub_eq_zero.mp hx]
    have n4 : ra ≠ 0 := by rintro rfl; exact hD.sea e2
    have n5 : ga ≠ 0 := by rintro rfl; exact hD.gamma e6
    have n6 : tw ≠ sw := by rintro rfl; exact hD.width (e9.trans e10.symm)
    have n7 : pow15 g ≠ 0 := fun hx => n2 ((hp g hg).mp hx)
    have hn : ¬ ((rs - ra) * g * (1 - vd) = 0 ∨ ra * pow15 g * (ga * ga) = 0) := by
      simp [n1, n2, n3, n4, n5, n7]
    obtain ⟨⟨sl', it⟩, hb⟩ := (C63_distinct th bt tw sw).1 n6
    obtain ⟨sh, hsh⟩ := hs1 (fun hh => ⟨hD.slope hh, hD.dx hh⟩)
    rw [if_neg hn, hb]
    simp only [liftPy, ok_bind', hsh, hfl, hsl, hoo, text_ok.mpr ew]
    exact ⟨_, rfl⟩
  · intro hD
    by_cases hn : (rs - ra) * g * (1 - vd) = 0 ∨ ra * pow15 g * (ga * ga) = 0
    · rw [if_pos hn]; rfl
    · rw [if_neg hn]
      simp only [ok_bind']
      by_cases hw : tw = sw
      · rw [(C63_distinct th bt tw sw).2 hw]; rfl
      · obtain ⟨⟨sl', it⟩, hb⟩ := (C63_distinct th bt tw sw).1 hw
        rw [hb]
        simp only [liftPy, ok_bind']
        rw [hs2]
        · rfl
        · intro hx
          apply hD
          push Not at hn
          obtain ⟨m1, m2⟩ := hn
          refine ⟨?_, ?_, ?_, ?_, ?_, ?_, fun hh => (hx hh).1, fun hh => (hx hh).2⟩
          · rw [e1, e2]; intro he; injection he with he; injection he with he; exact m1 (by rw [he]; ring)
          · rw [e3]; intro he; injection he with he; injection he with he; exact m1 (by rw [he]; ring)
          · rw [e4]; intro he; injection he with he; injection he with he; exact m1 (by rw [he]; ring)
          · rw [e2]; intro he; injection he with he; injection he with he; exact m2 (by rw [he]; ring)
          · rw [e6]; intro he; injection he with he; injection he with he; exact m2 (by rw [he]; ring)
          · rw [e9, e10]; intro he; injection he with he; injection he with he; exact hw he

/-- The hypothesis of C124 on `x**1.5` holds for real numbers. -/
example : ∀ x : ℝ, 0 ≤ x → (x ^ (3 / 2 : ℝ) = 0 ↔ x = 0) := fun x hx => by
  rw [Real.rpow_eq_zero hx (by norm_num)]

/-- Reading and preparing a configuration of the examples. -/
def simpleRun (file : String → String → Option (Raw ℚ)) : Except LoadErr (Prepared ℚ) := do
  let v ← validate file
  prepare simpleDate simplePow v

/-- How `simpleRun` fails; none if it does not. -/
def failure (file : String → String → Option (Raw ℚ)) : Option LoadErr :=
  match simpleRun file with
  | .ok _ => none
  | .error e => some e

/-- C124 refuted: values that the validation accepts and that end in a ZeroDivisionError. -/
theorem C124_refuted :
    failure (setKey simpleFile "PhysicalParameters" "VoidRatio" (some (rNum 1))) = some (.py .zeroDiv) ∧
    failure (setKey simpleFile "PhysicalParameters" "Gravity" (some (rNum 0))) = some (.py .zeroDiv) ∧
    failure (setKey simpleFile "PhysicalParameters" "RhoSed" (some (rNum 1025))) = some (.py .zeroDiv) ∧
    failure (setKey simpleFile "PhysicalParameters" "TargetBarWidth" (some (rNum 10))) = some (.py .zeroDiv) ∧
    failure (setKey simpleFile "PhysicalParameters" "RiverSlope" (some (rNum 0))) = some (.py .zeroDiv) ∧
    failure (setKey simpleFile "NumericalParameters" "Dx" (some (rNum 0))) = some (.py .zeroDiv) := by
  decide +kernel

/-- A finite number, or no number. -/
def finVal : Val K → Bool
  | .flt (.fin _) => true
  | .flt _ => false
  | _ => true

theorem finite_of_check {file : String → String → Option (Raw K)} {v : Conf K} (h : validate file = .ok v)
    (hc : ∀ e ∈ configspec, finVal ((e.2.2.run (file e.1 e.2.1)).getD .none) = true) : FiniteConf v := by
  intro s k x hx
  rcases hs : specOf s k with _ | c
  · unfold validate at h
    split at h
    · have hv := Except.ok.inj h
      rw [← hv] at hx
      simp [hs] at hx
    · cases h
  · have h1 := hc _ (specOf_mem hs)
    simp only at h1
    rw [validate_get h hs, Option.getD_some, hx] at h1
    rcases x with _ | _ | _ | y
    · cases h1
    · cases h1
    · cases h1
    · exact ⟨y, rfl⟩

/-- The example configuration meets the hypotheses of C124 and is prepared. -/
example : ∃ v p, validate simpleFile = .ok v ∧ FiniteConf v ∧ Dated simpleDate v ∧
    Complete (Given v) (Hot v) (RealShore v) (Shotnoise v) (Harmonic v) ∧ Divisible v ∧ prepare simpleDate simplePow v = .ok p ∧
    p.tp.MorDtMin = 15000000000 ∧ p.BarRatSlope = 35/800 ∧ p.oo.OutInt = 10800000000000 := by
  have h : okAnd (validate simpleFile) (fun v =>
      okAnd (prepare simpleDate simplePow v) (fun p => decide (p.tp.MorDtMin = 15000000000 ∧ p.BarRatSlope = 35/800 ∧
        p.oo.OutInt = 10800000000000)) &&
      decide (v "Time" "StartTime" = .str "1 Sep 2000" ∧ v "Time" "EndTime" = .str "1 Jan 2018" ∧
        v "HotStart" "InitialConditionsNetCDF" = .none ∧ v "SpatialInputs" "Shoreline" = .none ∧
        v "SpatialInputs" "ShorelineLengthLeft" ≠ .none ∧ v "SpatialInputs" "ShorelineLengthRight" ≠ .none ∧
        v "SpatialInputs" "BeachWidth" ≠ .none ∧ v "BoundaryConditions/HarmonicTideParameters" "TidalRange" ≠ .none ∧
        (∀ k ∈ ["MeanDaysBetweenEvents", "MeanEventIncrease", "FastDecayRate", "SlowDecayRate", "FastFlowProp", "RisingLimbTime"],
          v "BoundaryConditions/ShotnoiseHydrographParameters" k ≠ .none))) = true := by decide +kernel
  obtain ⟨v, hv, hp⟩ := okAnd_iff.mp h
  rw [Bool.and_eq_true] at hp
  obtain ⟨p1, p2⟩ := hp
  obtain ⟨p, hp, p3⟩ := okAnd_iff.mp p1
  obtain ⟨q1, q2, q3, q4, q5, q6, q7, q8, q9⟩ := of_decide_eq_true p2
  have hf : FiniteConf v := finite_of_check hv (by decide +kernel)
  have hd : Dated simpleDate v := by
    intro k hk t ht
    simp only [List.mem_cons, List.not_mem_nil, or_false] at hk
    rcases hk with rfl | rfl
    · rw [q1] at ht; cases ht; decide
    · rw [q2] at ht; cases ht; decide
  have hc : Complete (Given v) (Hot v) (RealShore v) (Shotnoise v) (Harmonic v) :=
    ⟨fun hh => absurd q3 hh, fun _ _ => ⟨q5, q6, q7⟩, fun _ hr => absurd q4 hr, fun _ => q9, fun _ => q8⟩
  refine ⟨v, p, hv, hf, hd, hc, ?_, hp, of_decide_eq_true p3⟩
  by_contra hn
  rw [(C124_partial (pow15 := simplePow) (fun x _ => Iff.rfl) hv hf hd hc).2 hn] at hp
  cases hp

/-! ## C125 -/

/-- C125 refuted: with an input left out that the chosen options need, the failure is neither a ConfigError nor one of the
assertions that name the missing key. -/
theorem C125_refuted :
    failure (setKey simpleFile "BoundaryConditions/ShotnoiseHydrographParameters" "MeanDaysBetweenEvents" none) = some (.py .value) ∧
    failure (setKey simpleFile "BoundaryConditions/ShotnoiseHydrographParameters" "SlowDecayRate" none) = some (.py .type) ∧
    failure (setKey simpleFile "BoundaryConditions/HarmonicTideParameters" "TidalRange" none) = some (.py .type) ∧
    failure (setKey simpleFile "SpatialInputs" "Shoreline" (some (rTxt "Shoreline.shp"))) = some (.py .type) ∧
    failure (setKey simpleFile "HotStart" "InitialConditionsNetCDF" (some (rTxt "old.nc"))) = some (.py .type) := by
  decide +kernel

theorem given_of_num {v : Conf K} {s k : String} {x : K} (h : v.num s k = .ok x) : Given v s k := by
  rw [num_ok] at h
  unfold Given
  rw [h]
  exact fun hx => by cases hx

theorem given_of_text {v : Conf K} {s k t : String} (h : v.text s k = .ok t) : Given v s k := by
  rw [text_ok] at h
  unfold Given
  rw [h]
  exact fun hx => by cases hx

/-- C125, partial: a configuration that lacks an input that its options need is never prepared.  (Missing: it should be refused
with an error that names the input.) -/
theorem C125_partial [FloorRing K] {date : String → Option ℤ} {pow15 : K → K} {v : Conf K} {p : Prepared K}
    (h : prepare date pow15 v = .ok p) : Complete (Given v) (Hot v) (RealShore v) (Shotnoise v) (Harmonic v) := by
  unfold prepare at h
  simp only [bind_ok, pure_ok] at h
  obtain ⟨tp, _, ⟨k2, br⟩, _, ⟨sl, it⟩, _, sh, hsh, fl, hfl, w, _, se, hse, oo, _, _⟩ := h
  refine ⟨fun hh => ?_, fun hh hr => ?_, fun hh hr => ?_, fun ⟨t, et, hl⟩ => ?_, fun ⟨t, et, hl⟩ => ?_⟩
  · unfold shoreSource at hsh
    rw [if_pos (show v "HotStart" "InitialConditionsNetCDF" ≠ .none from hh)] at hsh
    simp only [bind_ok] at hsh
    obtain ⟨_, _, _, h2, _⟩ := hsh
    exact given_of_text h2
  · unfold shoreSource at hsh
    rw [if_neg (show ¬ v "HotStart" "InitialConditionsNetCDF" ≠ .none from hh),
      if_pos (show v "SpatialInputs" "Shoreline" = .none from not_not.mp hr)] at hsh
    simp only [bind_ok] at hsh
    obtain ⟨_, _, hsh⟩ := hsh
    unfold straightShore at hsh
    simp only [bind_ok] at hsh
    obtain ⟨_, _, _, _, _, _, _, h1, _, h2, _, h3, _⟩ := hsh
    exact ⟨given_of_num h1, given_of_num h2, given_of_num h3⟩
  · unfold shoreSource at hsh
    rw [if_neg (show ¬ v "HotStart" "InitialConditionsNetCDF" ≠ .none from hh),
      if_neg (show ¬ v "SpatialInputs" "Shoreline" = .none from hr)] at hsh
    simp only [bind_ok] at hsh
    obtain ⟨_, _, _, _, _, h1, _, h2, _, h3, _, h4, _⟩ := hsh
    exact ⟨given_of_text h1, given_of_text h2, given_of_text h3, given_of_text h4⟩
  · unfold flowSource at hfl
    simp only [text_ok.mpr et, ok_bind', if_pos hl] at hfl
    rw [bind_ok] at hfl
    obtain ⟨_, _, hfl⟩ := hfl
    by_cases g1 : v "BoundaryConditions/ShotnoiseHydrographParameters" "MeanDaysBetweenEvents" = .none
    · rw [if_pos g1] at hfl; cases hfl
    by_cases g2 : v "BoundaryConditions/ShotnoiseHydrographParameters" "RisingLimbTime" = .none
    · rw [if_neg g1, bind_ok] at hfl
      obtain ⟨_, _, hfl⟩ := hfl
      rw [if_pos g2] at hfl; cases hfl
    simp only [if_neg g1, if_neg g2, bind_ok] at hfl
    obtain ⟨_, h1, _, h2, _, h3, _, h4, _, h5, _, h6, _⟩ := hfl
    intro k hk
    simp only [List.mem_cons, List.not_mem_nil, or_false] at hk
    rcases hk with rfl | rfl | rfl | rfl | rfl | rfl
    · exact given_of_num h1
    · exact given_of_num h3
    · exact given_of_num h4
    · exact given_of_num h6
    · exact given_of_num h5
    · exact given_of_num h2
  · unfold seaSource at hse
    simp only [text_ok.mpr et, ok_bind', if_pos hl, bind_ok] at hse
    obtain ⟨_, _, _, _, _, h1, _⟩ := hse
    exact given_of_num h1

/-- C125: the straight shoreline.  A validated configuration without a hot start and without a shoreline, lacking one of the three
lengths, fails with the assertion. -/
theorem C125_straight_partial [FloorRing K] {date : String → Option ℤ} {pow15 : K → K} (hp : ∀ x, 0 ≤ x → (pow15 x = 0 ↔ x = 0))
    {file : String → String → Option (Raw K)} {v : Conf K} (h : validate file = .ok v) (hf : FiniteConf v) (hd : Dated date v)
    (hD : Divisible v) (hh : ¬ Hot v) (hr : ¬ RealShore v)
    (hm : ¬ (Given v "SpatialInputs" "ShorelineLengthLeft" ∧ Given v "SpatialInputs" "ShorelineLengthRight" ∧
      Given v "SpatialInputs" "BeachWidth")) : prepare date pow15 v = .error (.py .assertion) := by
  obtain ⟨tp, htp⟩ := timePars_ok h hf hd
  obtain ⟨rs, e1⟩ := fnum h hf "PhysicalParameters" "RhoSed" (by decide +kernel)
  obtain ⟨ra, e2⟩ := fnum h hf "PhysicalParameters" "RhoSea" (by decide +kernel)
  obtain ⟨g, e3⟩ := fnum h hf "PhysicalParameters" "Gravity" (by decide +kernel)
  obtain ⟨vd, e4⟩ := fnum h hf "PhysicalParameters" "VoidRatio" (by decide +kernel)
  obtain ⟨kc, e5⟩ := fnum h hf "PhysicalParameters" "Kcoef" (by decide +kernel)
  obtain ⟨ga, e6⟩ := fnum h hf "PhysicalParameters" "GammaRatio" (by decide +kernel)
  obtain ⟨th, e7⟩ := fnum h hf "PhysicalParameters" "TargetBarHeight" (by decide +kernel)
  obtain ⟨bt, e8⟩ := fnum h hf "PhysicalParameters" "BeachTopElev" (by decide +kernel)
  obtain ⟨tw, e9⟩ := fnum h hf "PhysicalParameters" "TargetBarWidth" (by decide +kernel)
  obtain ⟨sw, e10⟩ := fnum h hf "PhysicalParameters" "SpitWidth" (by decide +kernel)
  obtain ⟨x1, f1⟩ := fnum h hf "InitialConditions" "LagoonBed" (by decide +kernel)
  obtain ⟨x2, f2⟩ := fnum h hf "PhysicalParameters" "RiverSlope" (by decide +kernel)
  obtain ⟨x3, f3⟩ := fnum h hf "PhysicalParameters" "UpstreamLength" (by decide +kernel)
  obtain ⟨x4, f4⟩ := fnum h hf "NumericalParameters" "Dx" (by decide +kernel)
  have hg : 0 ≤ g := (C123_partial h).1 ("PhysicalParameters", "Gravity") (by decide +kernel) g e3
  have n1 : rs - ra ≠ 0 := by
    intro hx; apply hD.density; rw [e1, e2, sub_eq_zero.mp hx]
  have n2 : g ≠ 0 := by rintro rfl; exact hD.gravity e3
  have n3 : 1 - vd ≠ 0 := by
    intro hx; apply hD.void; rw [e4, ← sub_eq_zero.mp hx]
  have n4 : ra ≠ 0 := by rintro rfl; exact hD.sea e2
  have n5 : ga ≠ 0 := by rintro rfl; exact hD.gamma e6
  have n6 : tw ≠ sw := by rintro rfl; exact hD.width (e9.trans e10.symm)
  have n7 : pow15 g ≠ 0 := fun hx => n2 ((hp g hg).mp hx)
  have hn : ¬ ((rs - ra) * g * (1 - vd) = 0 ∨ ra * pow15 g * (ga * ga) = 0) := by
    simp [n1, n2, n3, n4, n5, n7]
  obtain ⟨⟨sl', it⟩, hb⟩ := (C63_distinct th bt tw sw).1 n6
  obtain ⟨r, hrv⟩ := (riverElev_eq x1 x2 x3 x4).2 (by rintro rfl; exact hD.slope hh f2) (by rintro rfl; exact hD.dx hh f4)
  have hstr : straightShore v = .error (.py .assertion) := by
    have hmiss : ∀ k, ¬ Given v "SpatialInputs" k →
        liftPy (pyAssert (decide (v "SpatialInputs" k ≠ .none))) = .error (.py .assertion) := by
      intro k hk
      have : decide (v "SpatialInputs" k ≠ .none) = false := decide_eq_false hk
      rw [this]; rfl
    unfold straightShore
    by_cases g1 : Given v "SpatialInputs" "ShorelineLengthLeft"
    · simp only [given_assert g1, ok_bind']
      by_cases g2 : Given v "SpatialInputs" "ShorelineLengthRight"
      · simp only [given_assert g2, ok_bind']
        have g3 : ¬ Given v "SpatialInputs" "BeachWidth" := fun g3 => hm ⟨g1, g2, g3⟩
        simp only [hmiss _ g3, err_bind']
      · simp only [hmiss _ g2, err_bind']
    · simp only [hmiss _ g1, err_bind']
  unfold prepare shoreSource
  simp only [htp, ok_bind', lstPars_eq e1 e2 e3 e4 e5 e6, barPars_eq e7 e8 e9 e10, riverPars_eq f1 f2 f3 f4]
  rw [if_neg hn, hb, if_neg (show ¬ v "HotStart" "InitialConditionsNetCDF" ≠ .none from hh),
      if_pos (show v "SpatialInputs" "Shoreline" = .none from not_not.mp hr), hrv, hstr]
  rfl

/-- The example configuration without the beach width. -/
example : failure (setKey simpleFile "SpatialInputs" "BeachWidth" none) = some (.py .assertion) := by decide +kernel

/-! ## C126 -/

/-- C126 refuted: a smallest morphological timestep of one second and a hydraulic timestep of five pass the validation and are
prepared. -/
theorem C126_refuted : ∃ v p, validate (setKey simpleFile "Time" "MorDtMin" (some (rNum 1))) = .ok v ∧
    prepare simpleDate simplePow v = .ok p ∧ p.tp.StartTime < p.tp.EndTime ∧ p.tp.MorDtMin < p.tp.HydDt := by
  have h : okAnd (validate (setKey simpleFile "Time" "MorDtMin" (some (rNum 1)))) (fun v =>
      okAnd (prepare simpleDate simplePow v) (fun p => decide (p.tp.StartTime < p.tp.EndTime ∧ p.tp.MorDtMin < p.tp.HydDt))) = true := by
    decide +kernel
  obtain ⟨v, hv, hp⟩ := okAnd_iff.mp h
  obtain ⟨p, hp, hq⟩ := okAnd_iff.mp hp
  exact ⟨v, p, hv, hp, of_decide_eq_true hq⟩

/-- C126 refuted, in general: if MorDtMin is below HydDt, or HydDt is zero, the first pass of every run fails, whatever the data. -/
theorem C126_refuted_general [FloorRing K] {e : Env K} {ld : LoadOut K} {s0 : CoreSt K} (h0 : initial e ld = .ok s0)
    (hmin : 0 ≤ e.tp.MorDtMin) (hdt : e.tp.MorDtMin < e.tp.HydDt ∨ e.tp.HydDt = 0) (q : PassOut K × CoreSt K) : pass e s0 ≠ .ok q := by
  intro hp
  obtain ⟨p, s'⟩ := q
  obtain ⟨_, d0, _⟩ := initial_inv h0
  obtain ⟨⟨fl, sl, hc⟩, _⟩ := pass_inv hp
  have hw := hc.window
  unfold hydTimes at hw
  split at hw
  · cases hw
  · rename_i hz
    have hlt : e.tp.MorDtMin < e.tp.HydDt := hdt.resolve_right hz
    rw [d0, Int.ediv_eq_zero_of_lt hmin hlt] at hw
    simp only [Int.toNat_zero, List.range_zero, List.map_nil] at hw
    exact pass_empty hp (ok_inj.mp hw).symm

/-- C126, partial: the first window of the hydraulics has times in it exactly if HydDt is positive and MorDtMin at least as
long.  (Missing: nothing in the validation asks for it.) -/
theorem C126_partial (t : ℤ) {dt hyd : ℤ} (hd : 0 ≤ dt) (hh : 0 ≤ hyd) :
    (∃ w, hydTimes t dt hyd = .ok w ∧ w ≠ []) ↔ 0 < hyd ∧ hyd ≤ dt := by
  unfold hydTimes
  constructor
  · rintro ⟨w, h, hw⟩
    split at h
    · cases h
    · rename_i hz
      have hp : 0 < hyd := by omega
      refine ⟨hp, ?_⟩
      by_contra hlt
      rw [Int.ediv_eq_zero_of_lt hd (by omega)] at h
      exact hw (ok_inj.mp h).symm
  · rintro ⟨hp, hle⟩
    rw [if_neg hp.ne']
    refine ⟨_, rfl, ?_⟩
    have : 1 ≤ dt / hyd := by rw [Int.le_ediv_iff_mul_le hp]; omega
    intro hx
    have hl := congrArg List.length hx
    simp at hl
    omega

end Verif.Props
