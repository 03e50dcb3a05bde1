import Verif.Props.LoaderStart

set_option autoImplicit false
set_option linter.unusedSectionVars false

/-! # C127 for loaded models: everything handed to `main` is what the configuration states -/

namespace Verif.Props
open Verif Verif.Model Verif.Spec Fl

variable {K : Type} [Field K] [LinearOrder K] [IsStrictOrderedRing K] [FloorRing K]

theorem trim_sublist {α : Type} {ts ts' : List (ℤ × α)} {S E stop : ℤ} (h : trimSeries ts S E stop = .ok ts') : ts'.Sublist ts := by
  unfold trimSeries at h
  simp only [bind_ok, pure_ok] at h
  obtain ⟨_, _, _, _, _, _, rfl⟩ := h
  generalize keepTimes (ts.map (·.1)) S stop = ks
  clear * -
  induction ks generalizing ts with
  | nil => simp
  | cons k ks ih =>
    cases ts with
    | nil => simp
    | cons r ts =>
      rw [List.zip_cons_cons]
      cases k with
      | true => simp only [List.filterMap_cons, if_true]; exact (ih (ts := ts)).cons_cons r
      | false => simp only [List.filterMap_cons, Bool.false_eq_true, if_false]; exact (ih (ts := ts)).cons r

/-- C127: a model that loads is a prepared one, so all that is said there about times, coefficients and choices holds for it. -/
theorem C127_loaded {w : Sources K} {dir stem : String} {v : Conf K} {l : Loaded K} (h : loadModel w dir stem v = .ok l) :
    ∃ p, prepare w.date w.pow15 v = .ok p ∧ l.tp = { p.tp with StartTime := l.tp.StartTime } ∧ l.oo = p.oo ∧ l.pp.K2coef = p.K2coef ∧
      l.pp.BreakerCoef = p.BreakerCoef ∧ l.pp.BarRatSlope = p.BarRatSlope ∧ l.pp.BarRatInt = p.BarRatInt ∧
      ∀ ld, p.shore = .straight ld → l.ld = ld ∧ l.norm = 0 := by
  obtain ⟨tp, k2, br, sl, it, ac, fl, ws, se, h1, h2, h3, h4, h5, h6, h7, h8, h9, h10, e, h11, h12, h13, h14, h15⟩ := load_inv h
  unfold initialState at h7
  unfold flowSeries at h8
  unfold waveSeries at h9
  unfold seaSeries at h10
  rw [bind_ok] at h7 h8 h9 h10
  obtain ⟨src, g7, h7⟩ := h7
  obtain ⟨fs, g8, h8⟩ := h8
  obtain ⟨nm, g9, h9⟩ := h9
  obtain ⟨ss, g10, h10⟩ := h10
  unfold physPars at h4
  simp only [bind_ok, pure_ok] at h4
  obtain ⟨_, _, _, _, _, _, _, _, _, _, _, _, _, _, _, _, _, _, _, _, _, _, _, _, _, _, _, _, _, _, _, _, _, _, _, _, _, _, _, _, _, _, _, _, _, _, _, _, h4⟩ := h4
  refine ⟨⟨tp, k2, br, sl, it, src, fs, nm, ss, l.oo⟩, ?_, ?_, rfl, ?_, ?_, ?_, ?_, ?_⟩
  · unfold prepare
    simp only [bind_ok, pure_ok]
    exact ⟨tp, h1, _, h2, _, h3, src, g7, fs, g8, nm, g9, ss, g10, l.oo, h15, rfl⟩
  · rw [e]
  · rw [← h4]
  · rw [← h4]
  · rw [← h4]
  · rw [← h4]
  · rintro ld rfl
    simp only [pure_ok, Prod.mk.injEq] at h7
    exact ⟨h7.1.symm, h7.2.1.symm⟩

/-- C127, parameters: each is the number that the configuration gives under its name. -/
theorem C127_parameters {w : Sources K} {dir stem : String} {v : Conf K} {l : Loaded K} (h : loadModel w dir stem v = .ok l) :
    (Num v "PhysicalParameters" "Gravity" l.pp.Gravity ∧ Num v "PhysicalParameters" "RhoRiv" l.pp.RhoRiv ∧
     Num v "PhysicalParameters" "RhoSed" l.pp.RhoSed ∧ Num v "PhysicalParameters" "GrainSize" l.pp.GrainSize ∧
     Num v "PhysicalParameters" "CritShieldsStress" l.pp.CritShieldsStress ∧ Num v "PhysicalParameters" "VoidRatio" l.pp.VoidRatio ∧
     Num v "PhysicalParameters" "RoughnessManning" l.pp.RoughnessManning ∧ Num v "PhysicalParameters" "GrainRoughness" l.pp.GrainRoughness ∧
     Num v "PhysicalParameters" "MPM_coef" l.pp.MPM_coef ∧ Num v "PhysicalParameters" "MPM_exp" l.pp.MPM_exp ∧
     Num v "PhysicalParameters" "WaveDataDepth" l.pp.WaveDataDepth ∧ Num v "PhysicalParameters" "OT_coef" l.pp.OT_coef ∧
     Num v "PhysicalParameters" "OT_exp" l.pp.OT_exp) ∧
    (Num v "PhysicalParameters" "ClosureDepth" l.pp.ClosureDepth ∧ Num v "PhysicalParameters" "BackshoreElev" l.pp.BackshoreElev ∧
     Num v "PhysicalParameters" "MaxOutletElev" l.pp.MaxOutletElev ∧ Num v "PhysicalParameters" "MinOutletWidth" l.pp.MinOutletWidth ∧
     Num v "PhysicalParameters" "RiverWidth" l.pp.RiverWidth ∧ Num v "PhysicalParameters" "SpitWidth" l.pp.SpitWidth ∧
     Num v "PhysicalParameters" "OutletBankEroFac" l.pp.OutletBankEroFac ∧ Num v "PhysicalParameters" "OutletSedSpreadDist" l.pp.OutletSedSpreadDist ∧
     Num v "PhysicalParameters" "WidthDepthRatio" l.pp.WidthDepthRatio ∧ Num v "PhysicalParameters" "BeachTopElev" l.pp.BeachTopElev ∧
     Num v "PhysicalParameters" "ShorelineErosionRate" l.pp.ShorelineErosionRate) ∧
    Num v "NumericalParameters" "Dx" l.Dx ∧ Num v "NumericalParameters" "MaxMorChange" l.MaxMorChange := by
  obtain ⟨tp, k2, br, sl, it, ac, fl, ws, se, _, _, _, h4, h5, h6, _⟩ := load_inv h
  unfold physPars at h4
  simp only [bind_ok, pure_ok, num_ok] at h4 h5 h6
  obtain ⟨_, a1, _, a2, _, a3, _, a4, _, a5, _, a6, _, a7, _, a8, _, a9, _, a10, _, a11, _, a12, _, a13, _, a14, _, a15, _, a16, _, a17, _, a18, _, a19,
    _, a20, _, a21, _, a22, _, a23, _, a24, e⟩ := h4
  rw [← e]
  exact ⟨⟨a1, a2, a3, a4, a5, a6, a7, a8, a9, a10, a11, a12, a13⟩, ⟨a14, a15, a16, a17, a18, a19, a20, a21, a22, a23, a24⟩, h5, h6⟩

/-- C127, forcing: the records of a loaded model are records of the named files, or of the synthetic series made with the given numbers. -/
theorem C127_forcing {w : Sources K} {dir stem : String} {v : Conf K} {l : Loaded K} (h : loadModel w dir stem v = .ok l) :
    (¬ Shotnoise v → ∃ t s, v "BoundaryConditions" "RiverFlow" = .str t ∧ w.flow (joinPath dir t) = .ok s ∧ l.flow.Sublist s) ∧
    (¬ Harmonic v → ∃ t s, v "BoundaryConditions" "SeaLevel" = .str t ∧ w.sea (joinPath dir t) = .ok s ∧ l.sea.Sublist s) ∧
    (∃ t s, v "BoundaryConditions" "WaveConditions" = .str t ∧ w.waves (joinPath dir t) = .ok s ∧
      l.waves.Sublist (s.map fun r => (r.1, { r.2 with EDir_h := w.turn l.norm r.2.EDir_h }))) ∧
    (Shotnoise v → ∃ a s, w.shot a = .ok s ∧ l.flow.Sublist s ∧ a.stop = l.tp.EndTime ∧
      (∀ t, v "BoundaryConditions/ShotnoiseHydrographParameters" "HydrographStart" = .str t → w.date t = some a.start) ∧
      (v "BoundaryConditions/ShotnoiseHydrographParameters" "HydrographStart" = .none → ∃ t, v "Time" "StartTime" = .str t ∧ w.date t = some a.start) ∧
      a.seed = v "BoundaryConditions/ShotnoiseHydrographParameters" "RandomSeed" ∧
      (∃ x, Num v "BoundaryConditions/ShotnoiseHydrographParameters" "HydrographDt" x ∧ Lasts (60 * 10 ^ 9) x a.dt) ∧
      (∃ x, Num v "BoundaryConditions/ShotnoiseHydrographParameters" "MeanDaysBetweenEvents" x ∧ Lasts (86400 * 10 ^ 9) x a.meanTime) ∧
      (∃ x, Num v "BoundaryConditions/ShotnoiseHydrographParameters" "RisingLimbTime" x ∧ Lasts (86400 * 10 ^ 9) x a.rise) ∧
      Num v "BoundaryConditions/ShotnoiseHydrographParameters" "MeanEventIncrease" a.meanInc ∧
      Num v "BoundaryConditions/ShotnoiseHydrographParameters" "FastDecayRate" a.decay1 ∧
      Num v "BoundaryConditions/ShotnoiseHydrographParameters" "FastFlowProp" a.prop1 ∧
      Num v "BoundaryConditions/ShotnoiseHydrographParameters" "SlowDecayRate" a.decay2) ∧
    (Harmonic v → ∃ S d m r s, w.tide S l.tp.EndTime d m r = .ok s ∧ l.sea.Sublist s ∧
      (∃ t, v "Time" "StartTime" = .str t ∧ w.date t = some S) ∧
      (∃ x, Num v "BoundaryConditions/HarmonicTideParameters" "SeaLevelDt" x ∧ Lasts (60 * 10 ^ 9) x d) ∧
      Num v "BoundaryConditions/HarmonicTideParameters" "MeanSeaLevel" m ∧ Num v "BoundaryConditions/HarmonicTideParameters" "TidalRange" r) := by
  obtain ⟨tp, k2, br, sl, it, ac, fl, ws, se, h1, h2, h3, h4, h5, h6, h7, h8, h9, h10, e, h11, h12, h13, h14, h15⟩ := load_inv h
  obtain ⟨p, hp, etp, _⟩ := C127_loaded h
  have hst := prepare_stages hp
  obtain ⟨hS, _⟩ := C127_times hp
  obtain ⟨_, c2, c3, c4, c5⟩ := C127_boundary hp
  have htp : p.tp = tp := Except.ok.inj (hst.tp.symm.trans h1)
  have hE : l.tp.EndTime = tp.EndTime := by rw [e]
  unfold flowSeries at h8
  unfold seaSeries at h10
  rw [hst.flow, ok_bind'] at h8
  rw [hst.sea, ok_bind'] at h10
  refine ⟨fun hn => ?_, fun hn => ?_, ?_, fun hs => ?_, fun hs => ?_⟩
  · obtain ⟨t, ht, ef⟩ := c2 hn
    rw [ef] at h8
    exact ⟨t, fl, ht, liftPy_ok.mp h8, trim_sublist h11⟩
  · obtain ⟨t, ht, ef⟩ := c3 hn
    rw [ef] at h10
    exact ⟨t, se, ht, liftPy_ok.mp h10, trim_sublist h13⟩
  · unfold waveSeries at h9
    simp only [bind_ok, pure_ok, liftPy_ok] at h9
    obtain ⟨t, ht, s, hs, rfl⟩ := h9
    exact ⟨t, s, text_ok.mp ht, hs, trim_sublist h12⟩
  · obtain ⟨dt, mt, rise, x0, x1, x2, inc, d1, p1, d2, ef, l0, l1, l2, n0, n1, n2, n3, n4, n5, n6⟩ := c4 hs
    rw [ef] at h8
    simp only [bind_ok, liftPy_ok] at h8
    obtain ⟨st, hst', h8⟩ := h8
    refine ⟨_, fl, h8, trim_sublist h11, hE.symm, ?_, ?_, rfl, ⟨x0, n0, l0⟩, ⟨x1, n1, l1⟩, ⟨x2, n2, l2⟩, n3, n4, n5, n6⟩
    · intro t ht
      rw [ht] at hst'
      exact parse_ok.mp hst'
    · intro hn
      rw [hn] at hst'
      have := Except.ok.inj hst'
      rw [htp] at hS
      subst this
      exact hS
  · obtain ⟨dt, x0, m, r, ef, l0, n0, n1, n2⟩ := c5 hs
    rw [ef] at h10
    rw [htp] at hS
    exact ⟨tp.StartTime, dt, m, r, se, by rw [hE]; exact liftPy_ok.mp h10, trim_sublist h13, hS, ⟨x0, n0, l0⟩, n1, n2⟩

/-- C127, output files: each has the configured name, or the default one if none is configured. -/
theorem C127_files {w : Sources K} {dir stem : String} {v : Conf K} {l : Loaded K} (h : loadModel w dir stem v = .ok l) :
    (v "OutputOptions" "OutFile" = .none → l.OutFile = stem ++ "_outputs.nc") ∧
    (v "OutputOptions" "OutFile" ≠ .none → v "OutputOptions" "OutFile" = .str l.OutFile) ∧
    (v "OutputOptions" "TsOutFile" = .none → l.TsOutFile = stem ++ "_TSoutputs.nc") ∧
    (v "OutputOptions" "TsOutFile" ≠ .none → v "OutputOptions" "TsOutFile" = .str l.TsOutFile) := by
  obtain ⟨tp, k2, br, sl, it, ac, fl, ws, se, _, _, _, _, _, _, _, _, _, _, _, _, _, _, h14, _⟩ := load_inv h
  unfold outFiles at h14
  simp only [bind_ok, pure_ok, Prod.mk.injEq] at h14
  obtain ⟨a, ha, b, hb, rfl, rfl⟩ := h14
  refine ⟨fun e => ?_, fun e => ?_, fun e => ?_, fun e => ?_⟩
  · rw [if_pos e] at ha; exact (Except.ok.inj ha).symm
  · rw [if_neg e] at ha; exact text_ok.mp ha
  · rw [if_pos e] at hb; exact (Except.ok.inj hb).symm
  · rw [if_neg e] at hb; exact text_ok.mp hb

/-- File names are relative to the directory of the configuration, unless they are absolute. -/
example : joinPath "in" "flow.csv" = "in/flow.csv" ∧ joinPath "in/" "flow.csv" = "in/flow.csv" ∧ joinPath "in" "/data/flow.csv" = "/data/flow.csv" ∧
    joinPath "" "flow.csv" = "flow.csv" := by decide +kernel

/-- The example configuration loads, with a synthetic hydrograph and a harmonic tide. -/
example : ∃ v l, validate simpleFile = .ok v ∧ loadModel (ldWorld 0) "in" "run" v = .ok l ∧ Shotnoise v ∧ Harmonic v ∧ l.pp.ClosureDepth = 5 := by
  obtain ⟨⟨v, l⟩, h1, g1⟩ := okAnd_iff.mp (show okAnd (do
      let v ← validate simpleFile
      let l ← loadModel (ldWorld 0) "in" "run" v
      return (v, l)) (fun p => decide (p.1 "BoundaryConditions" "RiverFlow" = .str "shotnoise" ∧ p.1 "BoundaryConditions" "SeaLevel" = .str "harmonic" ∧
        p.2.pp.ClosureDepth = 5)) = true by decide +kernel)
  simp only [bind_ok, pure_ok, Prod.mk.injEq] at h1
  obtain ⟨_, a1, _, a2, rfl, rfl⟩ := h1
  obtain ⟨c1, c2, c3⟩ := of_decide_eq_true g1
  exact ⟨_, _, a1, a2, ⟨_, c1, by decide +kernel⟩, ⟨_, c2, by decide +kernel⟩, c3⟩

end Verif.Props
