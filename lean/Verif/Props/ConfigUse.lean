import Verif.Props.Config

set_option autoImplicit false
set_option linter.unusedSectionVars false

/-! # C127: the prepared model is the one that the configuration describes -/

namespace Verif.Props
open Verif Verif.Model Verif.Spec Fl

variable {K : Type} [Field K] [LinearOrder K] [IsStrictOrderedRing K] [FloorRing K]

/-- The configuration gives the number `x`. -/
def Num (v : Conf K) (s k : String) (x : K) : Prop := v s k = .flt (fin x)

/-- `n` nanoseconds is `x` times a unit of `u` nanoseconds, up to less than one nanosecond. -/
def Lasts (u x : K) (n : ℤ) : Prop := (n : K) ≤ x * u ∧ x * u < n + 1

theorem timedelta_lasts (u x : K) : Lasts u x (timedelta u x) := ⟨Int.floor_le _, Int.lt_floor_add_one _⟩

theorem num_eq {v : Conf K} {s k : String} {x y : K} (h : v.num s k = .ok y) (hx : Num v s k x) : y = x := by
  rw [num_ok] at h
  unfold Num at hx
  rw [h] at hx
  injection hx with hx
  injection hx

/-- The stages of the preparation. -/
structure Stages (date : String → Option ℤ) (pow15 : K → K) (v : Conf K) (p : Prepared K) : Prop where
  tp : timePars date v = .ok p.tp
  lst : lstPars pow15 v = .ok (p.K2coef, p.BreakerCoef)
  bar : barPars v = .ok (p.BarRatSlope, p.BarRatInt)
  shore : shoreSource v = .ok p.shore
  flow : flowSource v = .ok p.flow
  wave : v.text "BoundaryConditions" "WaveConditions" = .ok p.wave
  sea : seaSource v = .ok p.sea
  oo : outOpts v = .ok p.oo

theorem prepare_stages {date : String → Option ℤ} {pow15 : K → K} {v : Conf K} {p : Prepared K} (h : prepare date pow15 v = .ok p) :
    Stages date pow15 v p := by
  unfold prepare at h
  simp only [bind_ok, pure_ok] at h
  obtain ⟨tp, h1, ⟨k2, br⟩, h2, ⟨sl, it⟩, h3, sh, h4, fl, h5, w, h6, se, h7, oo, h8, rfl⟩ := h
  exact ⟨h1, h2, h3, h4, h5, h6, h7, h8⟩

/-- C127, times: the period and all timesteps and output intervals are those of the file. -/
theorem C127_times {date : String → Option ℤ} {pow15 : K → K} {v : Conf K} {p : Prepared K} (h : prepare date pow15 v = .ok p) :
    (∃ t, v "Time" "StartTime" = .str t ∧ date t = some p.tp.StartTime) ∧ (∃ t, v "Time" "EndTime" = .str t ∧ date t = some p.tp.EndTime) ∧
    (∀ x, Num v "Time" "HydDt" x → Lasts (10 ^ 9) x p.tp.HydDt) ∧ (∀ x, Num v "Time" "MorDtMin" x → Lasts (10 ^ 9) x p.tp.MorDtMin) ∧
    (∀ x, Num v "Time" "MorDtMax" x → Lasts (10 ^ 9) x p.tp.MorDtMax) ∧
    (∀ x, Num v "OutputOptions" "OutInt" x → Lasts (10 ^ 9) x p.oo.OutInt) ∧
    (∀ x, Num v "OutputOptions" "TsOutInt" x → Lasts (10 ^ 9) x p.oo.TsOutInt) ∧
    (∀ x, Num v "OutputOptions" "LogInt" x → Lasts (10 ^ 9) x p.oo.LogInt) ∧
    (∀ x, Num v "OutputOptions" "PlotInt" x → Lasts (10 ^ 9) x p.oo.PlotInt) := by
  have hs := prepare_stages h
  have h1 := hs.tp
  have h2 := hs.oo
  have hu : (10 : K) ^ 9 = 1000000000 := by norm_num
  unfold timePars at h1
  unfold outOpts at h2
  simp only [bind_ok, pure_ok] at h1 h2
  obtain ⟨t0, ⟨s0, a0, b0⟩, t1, ⟨s1, a1, b1⟩, hyd, a2, lo, a3, hi, a4, e⟩ := h1
  obtain ⟨o1, c1, o2, c2, o3, c3, o4, c4, e'⟩ := h2
  rw [← e, ← e', hu]
  refine ⟨⟨s0, text_ok.mp a0, ?_⟩, ⟨s1, text_ok.mp a1, ?_⟩, fun x hx => ?_, fun x hx => ?_, fun x hx => ?_, fun x hx => ?_, fun x hx => ?_,
    fun x hx => ?_, fun x hx => ?_⟩
  · rcases hd : date s0 with _ | t
    · rw [hd] at b0; cases b0
    · rw [hd] at b0; simp only [pure_ok] at b0; rw [b0]
  · rcases hd : date s1 with _ | t
    · rw [hd] at b1; cases b1
    · rw [hd] at b1; simp only [pure_ok] at b1; rw [b1]
  · rw [num_eq a2 hx]; exact timedelta_lasts _ _
  · rw [num_eq a3 hx]; exact timedelta_lasts _ _
  · rw [num_eq a4 hx]; exact timedelta_lasts _ _
  · rw [num_eq c1 hx]; exact timedelta_lasts _ _
  · rw [num_eq c2 hx]; exact timedelta_lasts _ _
  · rw [num_eq c3 hx]; exact timedelta_lasts _ _
  · rw [num_eq c4 hx]; exact timedelta_lasts _ _

/-- C127, derived quantities: the coefficient of the CERC formula for the submerged weight of the sediment with its voids, the
coefficient of the breaker height, and the line of target barrier heights through both given points. -/
theorem C127_derived {date : String → Option ℤ} {pow15 : K → K} {v : Conf K} {p : Prepared K} (h : prepare date pow15 v = .ok p)
    {kc rs ra g vd ga th bt tw sw : K} (h1 : Num v "PhysicalParameters" "Kcoef" kc) (h2 : Num v "PhysicalParameters" "RhoSed" rs)
    (h3 : Num v "PhysicalParameters" "RhoSea" ra) (h4 : Num v "PhysicalParameters" "Gravity" g) (h5 : Num v "PhysicalParameters" "VoidRatio" vd)
    (h6 : Num v "PhysicalParameters" "GammaRatio" ga) (h7 : Num v "PhysicalParameters" "TargetBarHeight" th)
    (h8 : Num v "PhysicalParameters" "BeachTopElev" bt) (h9 : Num v "PhysicalParameters" "TargetBarWidth" tw)
    (h10 : Num v "PhysicalParameters" "SpitWidth" sw) :
    p.K2coef * ((rs - ra) * g * (1 - vd)) = kc ∧ p.BreakerCoef * (ra * pow15 g * ga ^ 2) = 8 ∧
    p.BarRatSlope * sw + p.BarRatInt = bt ∧ p.BarRatSlope * tw + p.BarRatInt = th := by
  have hs := prepare_stages h
  have hl := hs.lst
  rw [lstPars_eq h2 h3 h4 h5 h1 h6] at hl
  have hb := hs.bar
  rw [barPars_eq h7 h8 h9 h10, liftPy_ok] at hb
  split at hl
  · cases hl
  · rename_i hn
    push Not at hn
    obtain ⟨e1, e2⟩ := Prod.mk.inj (Except.ok.inj hl)
    refine ⟨?_, ?_, C63_line hb⟩
    · rw [← e1, div_mul_cancel₀ _ hn.1]
    · rw [← e2, pow_two, div_mul_cancel₀ _ hn.2]

/-- C127, choice of the initial state: a hot start from the named file at the named time, the surveyed lines from the named files,
or the straight shoreline. -/
theorem C127_choice {date : String → Option ℤ} {pow15 : K → K} {v : Conf K} {p : Prepared K} (h : prepare date pow15 v = .ok p) :
    (Hot v → ∃ f t, v "HotStart" "InitialConditionsNetCDF" = .str f ∧ v "HotStart" "HotStartTime" = .str t ∧ p.shore = .hot f t) ∧
    (¬ Hot v → RealShore v → ∃ a b c d e, v "SpatialInputs" "Shoreline" = .str a ∧ v "SpatialInputs" "RiverLocation" = .str b ∧
      v "SpatialInputs" "BarrierBackshore" = .str c ∧ v "SpatialInputs" "CliffToe" = .str d ∧ v "SpatialInputs" "OutletLocation" = .str e ∧
      p.shore = .real a b c d e) ∧
    (¬ Hot v → ¬ RealShore v → ∃ ld, p.shore = .straight ld) := by
  have hsh := (prepare_stages h).shore
  unfold shoreSource at hsh
  refine ⟨fun hh => ?_, fun hh hr => ?_, fun hh hr => ?_⟩
  · rw [if_pos (show v "HotStart" "InitialConditionsNetCDF" ≠ .none from hh)] at hsh
    simp only [bind_ok, pure_ok] at hsh
    obtain ⟨f, h1, t, h2, h3⟩ := hsh
    exact ⟨f, t, text_ok.mp h1, text_ok.mp h2, h3.symm⟩
  · rw [if_neg (show ¬ v "HotStart" "InitialConditionsNetCDF" ≠ .none from hh),
      if_neg (show ¬ v "SpatialInputs" "Shoreline" = .none from hr)] at hsh
    simp only [bind_ok, pure_ok] at hsh
    obtain ⟨_, _, a, h1, b, h2, c, h3, d, h4, e, h5, h6⟩ := hsh
    exact ⟨a, b, c, d, e, text_ok.mp h1, text_ok.mp h2, text_ok.mp h3, text_ok.mp h4, text_ok.mp h5, h6.symm⟩
  · rw [if_neg (show ¬ v "HotStart" "InitialConditionsNetCDF" ≠ .none from hh),
      if_pos (show v "SpatialInputs" "Shoreline" = .none from not_not.mp hr)] at hsh
    simp only [bind_ok] at hsh
    obtain ⟨_, _, hsh⟩ := hsh
    unfold straightShore at hsh
    simp only [bind_ok, pure_ok] at hsh
    obtain ⟨_, _, _, _, _, _, _, _, _, _, _, _, _, _, _, _, _, _, _, _, _, _, _, _, _, _, _, _, _, _, ld, _, e⟩ := hsh
    exact ⟨ld, e.symm⟩

/-- C127, straight shoreline: it extends over the given lengths at the given spacing, the beach has the given width, the crest and
the lagoon the given levels, the outlet the given width and bed, the lagoon in line with the river the width of the river. -/
theorem C127_straight {date : String → Option ℤ} {pow15 : K → K} {v : Conf K} {p : Prepared K} (h : prepare date pow15 v = .ok p)
    {ld : LoadOut K} (hsh : p.shore = .straight ld) {L R b dx sw wr ow ob lb be : K}
    (h1 : Num v "SpatialInputs" "ShorelineLengthLeft" L) (h2 : Num v "SpatialInputs" "ShorelineLengthRight" R)
    (h3 : Num v "SpatialInputs" "BeachWidth" b) (h4 : Num v "NumericalParameters" "Dx" dx) (h5 : Num v "PhysicalParameters" "SpitWidth" sw)
    (h6 : Num v "PhysicalParameters" "RiverWidth" wr) (h7 : Num v "InitialConditions" "OutletWidth" ow)
    (h8 : Num v "InitialConditions" "OutletBed" ob) (h9 : Num v "InitialConditions" "LagoonBed" lb)
    (h10 : Num v "InitialConditions" "BarrierElev" be) (hd : 0 < dx) (hL : 0 ≤ L) (hR : 0 ≤ R) :
    ld.Closed = false ∧ ld.EndWidth = fin ow ∧ ld.EndElev = fin ob ∧ ld.EndX0 = fin 0 ∧ ld.EndX1 = fin 0 ∧
    (∀ (i : ℕ) (r r' : Transect K), ld.rows[i]? = some r → ld.rows[i + 1]? = some r' → r'.x - r.x = dx) ∧
    (∃ r, ld.rows.head? = some r ∧ r.x ≤ -L ∧ -L < r.x + dx) ∧ (∃ r, ld.rows.getLast? = some r ∧ R ≤ r.x ∧ r.x < R + dx) ∧
    (∀ r ∈ ld.rows, r.y0 = fin 0 ∧ r.z0 = fin be ∧ r.z3 = fin lb) ∧
    (∀ r ∈ ld.rows, r.x ≠ 0 → r.y1 = nan ∧ r.y2 = nan ∧ r.y3 = fin (-b) ∧ r.y4 = fin (-b)) ∧
    (∀ r ∈ ld.rows, r.x = 0 → ∃ y1 y2 y3 y4 : K, r.y1 = fin y1 ∧ r.y2 = fin y2 ∧ r.y3 = fin y3 ∧ r.y4 = fin y4 ∧ y1 = -sw ∧ y1 - y2 = ow ∧
      y2 - y3 = 1 / 1000 ∧ y2 - y4 = wr ∧ r.z2 = fin be ∧ ∃ z, r.z1 = fin z ∧ z - ob = lb - z) := by
  have hs := (prepare_stages h).shore
  rw [hsh] at hs
  unfold shoreSource at hs
  by_cases hh : v "HotStart" "InitialConditionsNetCDF" ≠ .none
  · rw [if_pos hh] at hs
    simp only [bind_ok, pure_ok] at hs
    obtain ⟨_, _, _, _, hs⟩ := hs
    cases hs
  rw [if_neg hh] at hs
  by_cases hr : v "SpatialInputs" "Shoreline" = .none
  swap
  · rw [if_neg hr] at hs
    simp only [bind_ok, pure_ok] at hs
    obtain ⟨_, _, _, _, _, _, _, _, _, _, _, _, hs⟩ := hs
    cases hs
  rw [if_pos hr] at hs
  simp only [bind_ok] at hs
  obtain ⟨_, _, hs⟩ := hs
  unfold straightShore at hs
  simp only [bind_ok, pure_ok] at hs
  obtain ⟨_, _, _, _, _, _, x1, e1, x2, e2, x3, e3, x4, e4, x5, e5, x6, e6, x7, e7, x8, e8, x9, e9, x10, e10, sl, _, up, _, ld', hld, e⟩ := hs
  injection e with e
  subst e
  rw [liftPy_ok, num_eq e1 h1, num_eq e2 h2, num_eq e3 h3, num_eq e4 h4, num_eq e5 h5, num_eq e6 h6, num_eq e7 h7, num_eq e8 h8,
    num_eq e9 h9, num_eq e10 h10] at hld
  unfold defaultLoad at hld
  simp only [bind_ok, pure_ok] at hld
  obtain ⟨riv, _, rows, hrows, rfl⟩ := hld
  obtain ⟨rows', hr', a1, a2, a3, _⟩ := C62_transects (c := ⟨L, R, b, dx, sw, wr, ow, ob, lb, be⟩) hd hL hR
  rw [hrows] at hr'
  cases hr'
  have hmem : ∀ r ∈ rows, ∃ x, r = defaultRow ⟨L, R, b, dx, sw, wr, ow, ob, lb, be⟩ x := by
    unfold defaultRows at hrows
    simp only [if_neg hd.ne', bind_ok, pure_ok] at hrows
    obtain ⟨xs, _, rfl⟩ := hrows
    intro r hr
    obtain ⟨x, _, rfl⟩ := List.mem_map.mp hr
    exact ⟨x, rfl⟩
  refine ⟨rfl, rfl, rfl, rfl, rfl, a1, a2, a3, ?_, ?_, ?_⟩
  · intro r hr
    obtain ⟨x, rfl⟩ := hmem r hr
    unfold defaultRow
    split <;> exact ⟨rfl, rfl, rfl⟩
  · intro r hr
    obtain ⟨x, rfl⟩ := hmem r hr
    unfold defaultRow
    split
    · rename_i hx; intro hn; exact absurd hx hn
    · intro _; exact ⟨rfl, rfl, rfl, rfl⟩
  · intro r hr
    obtain ⟨x, rfl⟩ := hmem r hr
    unfold defaultRow
    split
    · intro _
      exact ⟨_, _, _, _, rfl, rfl, rfl, rfl, rfl, by ring, by ring, by ring, rfl, _, rfl, by ring⟩
    · rename_i hx; intro hn; exact absurd hn hx

/-- C127, boundary conditions: read from the named files, or synthetic with the numbers given. -/
theorem C127_boundary {date : String → Option ℤ} {pow15 : K → K} {v : Conf K} {p : Prepared K} (h : prepare date pow15 v = .ok p) :
    v "BoundaryConditions" "WaveConditions" = .str p.wave ∧
    (¬ Shotnoise v → ∃ t, v "BoundaryConditions" "RiverFlow" = .str t ∧ p.flow = .file t) ∧
    (¬ Harmonic v → ∃ t, v "BoundaryConditions" "SeaLevel" = .str t ∧ p.sea = .file t) ∧
    (Shotnoise v → ∃ dt mt rise : ℤ, ∃ x0 x1 x2 inc d1 p1 d2 : K, p.flow = .shotnoise dt mt inc d1 p1 d2 rise ∧
      Lasts (60 * 10 ^ 9) x0 dt ∧ Lasts (86400 * 10 ^ 9) x1 mt ∧ Lasts (86400 * 10 ^ 9) x2 rise ∧
      Num v "BoundaryConditions/ShotnoiseHydrographParameters" "HydrographDt" x0 ∧
      Num v "BoundaryConditions/ShotnoiseHydrographParameters" "MeanDaysBetweenEvents" x1 ∧
      Num v "BoundaryConditions/ShotnoiseHydrographParameters" "RisingLimbTime" x2 ∧
      Num v "BoundaryConditions/ShotnoiseHydrographParameters" "MeanEventIncrease" inc ∧
      Num v "BoundaryConditions/ShotnoiseHydrographParameters" "FastDecayRate" d1 ∧
      Num v "BoundaryConditions/ShotnoiseHydrographParameters" "FastFlowProp" p1 ∧
      Num v "BoundaryConditions/ShotnoiseHydrographParameters" "SlowDecayRate" d2) ∧
    (Harmonic v → ∃ dt : ℤ, ∃ x0 mean range : K, p.sea = .harmonic dt mean range ∧ Lasts (60 * 10 ^ 9) x0 dt ∧
      Num v "BoundaryConditions/HarmonicTideParameters" "SeaLevelDt" x0 ∧
      Num v "BoundaryConditions/HarmonicTideParameters" "MeanSeaLevel" mean ∧
      Num v "BoundaryConditions/HarmonicTideParameters" "TidalRange" range) := by
  have hst := prepare_stages h
  have hfl := hst.flow
  have hse := hst.sea
  have u1 : (60 : K) * 10 ^ 9 = 60000000000 := by norm_num
  have u2 : (86400 : K) * 10 ^ 9 = 86400000000000 := by norm_num
  unfold flowSource at hfl
  unfold seaSource at hse
  rw [bind_ok] at hfl hse
  obtain ⟨t, ht, hfl⟩ := hfl
  obtain ⟨u, hu, hse⟩ := hse
  rw [text_ok] at ht hu
  refine ⟨text_ok.mp hst.wave, fun hn => ?_, fun hn => ?_, fun ⟨t', ht', hl⟩ => ?_, fun ⟨u', hu', hl⟩ => ?_⟩
  · rw [if_neg (fun hl => hn ⟨t, ht, hl⟩), pure_ok] at hfl
    exact ⟨t, ht, hfl.symm⟩
  · rw [if_neg (fun hl => hn ⟨u, hu, hl⟩), pure_ok] at hse
    exact ⟨u, hu, hse.symm⟩
  · rw [ht] at ht'
    injection ht' with ht'
    subst ht'
    rw [if_pos hl, bind_ok] at hfl
    obtain ⟨x0, h0, hfl⟩ := hfl
    by_cases g1 : v "BoundaryConditions/ShotnoiseHydrographParameters" "MeanDaysBetweenEvents" = .none
    · rw [if_pos g1] at hfl; cases hfl
    by_cases g2 : v "BoundaryConditions/ShotnoiseHydrographParameters" "RisingLimbTime" = .none
    · rw [if_neg g1, bind_ok] at hfl
      obtain ⟨_, _, hfl⟩ := hfl
      rw [if_pos g2] at hfl; cases hfl
    simp only [if_neg g1, if_neg g2, bind_ok, pure_ok] at hfl
    obtain ⟨x1, h1, x2, h2, inc, h3, d1, h4, p1, h5, d2, h6, e⟩ := hfl
    rw [u1, u2]
    exact ⟨_, _, _, x0, x1, x2, inc, d1, p1, d2, e.symm, timedelta_lasts _ _, timedelta_lasts _ _, timedelta_lasts _ _, num_ok.mp h0, num_ok.mp h1,
      num_ok.mp h2, num_ok.mp h3, num_ok.mp h4, num_ok.mp h5, num_ok.mp h6⟩
  · rw [hu] at hu'
    injection hu' with hu'
    subst hu'
    rw [if_pos hl] at hse
    simp only [bind_ok, pure_ok] at hse
    obtain ⟨x0, h0, m, h1, r, h2, e⟩ := hse
    rw [u1]
    exact ⟨_, x0, m, r, e.symm, timedelta_lasts _ _, num_ok.mp h0, num_ok.mp h1, num_ok.mp h2⟩

/-- The example configuration, prepared: 136 transects from -2000 m to 700 m, 50 river sections, an event every 15 days. -/
example : okAnd (simpleRun simpleFile) (fun p =>
    decide (p.tp = ⟨967766400000000000, 1514764800000000000, 5000000000, 15000000000, 3840000000000⟩ ∧ p.BarRatSlope = 7/160 ∧
      p.wave = "WaveDataRotated.csv" ∧ p.sea = .harmonic 1800000000000 0 (36/25) ∧
      p.flow = .shotnoise 3600000000000 1296000000000000 100 (3/10) (17/20) (3/200) 86400000000000) &&
    (match p.shore with
     | .straight ld => decide (ld.rows.length = 136 ∧ ld.RiverElev.length = 50 ∧ ld.EndWidth = fin 35)
     | _ => false)) = true := by
  decide +kernel

end Verif.Props
