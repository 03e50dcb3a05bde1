import Verif.Lemmas.Loader
import Verif.Lemmas.Out
import Verif.Props.ConfigUse
import Verif.Props.Series
import Verif.Props.Out
import Verif.Props.Synth

set_option autoImplicit false
set_option linter.unusedSectionVars false

/-! # Properties of `loadModel`: C135 (start of the simulation), C136 (continued runs), C137 (coverage) -/

namespace Verif.Props
open Verif Verif.Model Verif.Spec Fl

variable {K : Type} [Field K] [LinearOrder K] [IsStrictOrderedRing K] [FloorRing K]

/-- The configuration asks for the continuation of an earlier run. -/
def Continued (v : Conf K) : Prop := Hot v ∧ v "HotStart" "ContinueSimulation" = .bool true

theorem parse_ok {date : String → Option ℤ} {t : String} {x : ℤ} : parseDate date t = .ok x ↔ date t = some x := by
  unfold parseDate
  cases date t <;> simp

theorem state_hot {w : Sources K} {dir : String} {v : Conf K} {ld : LoadOut K} {norm : K} {actual : Option ℤ} (hh : Hot v)
    (h : initialState w dir v = .ok (ld, norm, actual)) :
    ∃ f t nc want dx a, v "HotStart" "InitialConditionsNetCDF" = .str f ∧ v "HotStart" "HotStartTime" = .str t ∧
      w.nc (joinPath dir f) = .ok (nc, norm) ∧ w.date t = some want ∧ v.num "NumericalParameters" "Dx" = .ok dx ∧
      hotStart nc want dx = .ok (ld, a) ∧ actual = some a := by
  unfold initialState at h
  rw [bind_ok] at h
  obtain ⟨src, hs, h⟩ := h
  unfold shoreSource at hs
  rw [if_pos (show v "HotStart" "InitialConditionsNetCDF" ≠ .none from hh)] at hs
  simp only [bind_ok, pure_ok] at hs
  obtain ⟨f, hf, t, ht, rfl⟩ := hs
  simp only [bind_ok, pure_ok, liftPy_ok, parse_ok] at h
  obtain ⟨⟨nc, nm⟩, h1, want, h2, dx, h3, ⟨ld', a⟩, h4, e⟩ := h
  simp only [Prod.mk.injEq] at e
  obtain ⟨rfl, rfl, rfl⟩ := e
  exact ⟨f, t, nc, want, dx, a, text_ok.mp hf, text_ok.mp ht, h1, h2, h3, h4, rfl⟩

theorem state_cold {w : Sources K} {dir : String} {v : Conf K} {ld : LoadOut K} {norm : K} {actual : Option ℤ} (hh : ¬ Hot v)
    (h : initialState w dir v = .ok (ld, norm, actual)) : actual = none := by
  unfold initialState at h
  rw [bind_ok] at h
  obtain ⟨src, hs, h⟩ := h
  cases src with
  | straight ld' => simp only [pure_ok] at h; obtain ⟨_, e⟩ := Prod.mk.inj h; exact (Prod.mk.inj e).2.symm
  | real a b c d e =>
    simp only [bind_ok, pure_ok, liftPy_ok] at h
    obtain ⟨⟨_, _⟩, _, h⟩ := h
    obtain ⟨_, e⟩ := Prod.mk.inj h; exact (Prod.mk.inj e).2.symm
  | hot f t =>
    unfold shoreSource at hs
    rw [if_neg (show ¬ v "HotStart" "InitialConditionsNetCDF" ≠ .none from hh)] at hs
    rw [bind_ok] at hs
    obtain ⟨_, _, hs⟩ := hs
    split at hs
    · unfold straightShore at hs
      simp only [bind_ok, pure_ok] at hs
      obtain ⟨_, _, _, _, _, _, _, _, _, _, _, _, _, _, _, _, _, _, _, _, _, _, _, _, _, _, _, _, _, _, ld, _, e⟩ := hs
      cases e
    · simp only [bind_ok, pure_ok] at hs
      obtain ⟨_, _, _, _, _, _, _, _, _, _, e⟩ := hs
      cases e

/-! ## C135 -/

theorem closest_spec {times : List ℤ} {t : ℤ} {ix : List ℕ} {a : ℤ} (h : closestTimeIx times t = .ok (ix, a)) : Closest times t a := by
  obtain ⟨h1, ⟨i, hi, ha⟩, _⟩ := closest_inv h
  obtain ⟨s, hs, hmin⟩ := (h1 i).mp (List.mem_of_getElem? hi)
  rw [ha] at hs
  obtain rfl := Option.some.inj hs
  refine ⟨List.mem_of_getElem? ha, fun s hs => ?_⟩
  have := hmin s hs
  rw [Int.abs_eq_natAbs, Int.abs_eq_natAbs]
  exact_mod_cast this

theorem hot_closest {f : NcFile K} {t a : ℤ} {dx : K} {ld : LoadOut K} (h : hotStart f t dx = .ok (ld, a)) : Closest f.times t a := by
  unfold hotStart at h
  simp only [bind_ok, pure_ok] at h
  obtain ⟨⟨ix, a'⟩, h1, r, _, _, _, _, _, _, _, e⟩ := h
  obtain ⟨_, rfl⟩ := Prod.mk.inj e
  exact closest_spec h1

/-- **C135**: the simulation ends at the configured EndTime and begins at the configured StartTime, except that a continued run begins
at the time of the record that its initial state comes from, one of those of the file closest to HotStartTime. -/
theorem C135_start {w : Sources K} {dir stem : String} {v : Conf K} {l : Loaded K} (h : loadModel w dir stem v = .ok l) :
    (∃ t, v "Time" "EndTime" = .str t ∧ w.date t = some l.tp.EndTime) ∧
    (¬ Continued v → ∃ t, v "Time" "StartTime" = .str t ∧ w.date t = some l.tp.StartTime) ∧
    (Continued v → ∃ f nc t want, v "HotStart" "InitialConditionsNetCDF" = .str f ∧ w.nc (joinPath dir f) = .ok (nc, l.norm) ∧
      v "HotStart" "HotStartTime" = .str t ∧ w.date t = some want ∧ Closest nc.times want l.tp.StartTime ∧
      hotStart nc want l.Dx = .ok (l.ld, l.tp.StartTime)) := by
  obtain ⟨tp, k2, br, sl, it, ac, fl, ws, se, h1, h2, h3, h4, h5, h6, h7, h8, h9, h10, e, _⟩ := load_inv h
  unfold timePars at h1
  simp only [bind_ok, pure_ok] at h1
  obtain ⟨t0, ⟨s0, hs0, g0⟩, t1, ⟨s1, hs1, g1⟩, _, _, _, _, _, _, rfl⟩ := h1
  rw [e]
  refine ⟨⟨s1, text_ok.mp hs1, ?_⟩, fun hn => ⟨s0, text_ok.mp hs0, ?_⟩, fun hc => ?_⟩
  · split at g1
    · rename_i x hx; rw [hx]; exact congrArg some (Except.ok.inj g1)
    · cases g1
  · have hst : startTime v t0 ac = t0 := by
      by_cases hh : Hot v
      · unfold startTime
        cases ac with
        | none => rfl
        | some a => exact if_neg (fun hc => hn ⟨hh, hc⟩)
      · rw [state_cold hh h7]; rfl
    simp only [hst]
    split at g0
    · rename_i x hx; rw [hx]; exact congrArg some (Except.ok.inj g0)
    · cases g0
  · obtain ⟨f, t, nc, want, dx, a, g1, g2, g3, g4, g5, g6, rfl⟩ := state_hot hc.1 h7
    have hst : startTime v t0 (some a) = a := if_pos hc.2
    simp only [hst]
    rw [h5] at g5
    obtain rfl := Except.ok.inj g5
    exact ⟨f, nc, t, want, g1, g3, g2, g4, hot_closest g6, g6⟩

/-! ## The series before trimming -/

theorem nonneg_dt {file : String → String → Option (Raw K)} {v : Conf K} (h : validate file = .ok v) {s k : String} (hm : minIs 0 (s, k) = true)
    {x u : K} (hu : 0 ≤ u) (hx : v.num s k = .ok x) : 0 ≤ timedelta u x := by
  have h0 := minIs_get h hm (num_ok.mp hx)
  rw [Rat.cast_zero] at h0
  exact Int.floor_nonneg.mpr (mul_nonneg h0 hu)

theorem sea_inTime {file : String → String → Option (Raw K)} {w : Sources K} (hw : TidyData w) {dir : String} {v : Conf K} {tp : TimePars}
    {s : Series K} (hv : validate file = .ok v) (h : seaSeries w dir v tp = .ok s) : InTime s := by
  unfold seaSeries at h
  rw [bind_ok] at h
  obtain ⟨src, hs, h⟩ := h
  unfold seaSource at hs
  rw [bind_ok] at hs
  obtain ⟨t, _, hs⟩ := hs
  split at hs
  · simp only [bind_ok, pure_ok] at hs
    obtain ⟨x, hx, m, _, r, _, rfl⟩ := hs
    exact hw.tide _ _ _ _ _ _ (nonneg_dt hv (by decide +kernel) (by norm_num) hx) (liftPy_ok.mp h)
  · simp only [pure_ok] at hs
    subst hs
    exact hw.sea _ _ (liftPy_ok.mp h)

theorem flow_inTime {file : String → String → Option (Raw K)} {w : Sources K} (hw : TidyData w) {dir : String} {v : Conf K} {tp : TimePars}
    {s : Series K} (hv : validate file = .ok v) (h : flowSeries w dir v tp = .ok s) : InTime s := by
  unfold flowSeries at h
  rw [bind_ok] at h
  obtain ⟨src, hs, h⟩ := h
  unfold flowSource at hs
  rw [bind_ok] at hs
  obtain ⟨t, _, hs⟩ := hs
  by_cases ht : t.toLower = "shotnoise"
  · rw [if_pos ht, bind_ok] at hs
    obtain ⟨x, hx, hs⟩ := hs
    by_cases g1 : v "BoundaryConditions/ShotnoiseHydrographParameters" "MeanDaysBetweenEvents" = .none
    · rw [if_pos g1] at hs; cases hs
    by_cases g2 : v "BoundaryConditions/ShotnoiseHydrographParameters" "RisingLimbTime" = .none
    · rw [if_neg g1, bind_ok] at hs
      obtain ⟨_, _, hs⟩ := hs
      rw [if_pos g2] at hs; cases hs
    simp only [if_neg g1, if_neg g2, bind_ok, pure_ok] at hs
    obtain ⟨x1, h1, x2, h2, inc, h3, d1, h4, p1, h5, d2, h6, rfl⟩ := hs
    simp only [bind_ok, liftPy_ok] at h
    obtain ⟨st, _, h⟩ := h
    exact hw.shot _ _ (nonneg_dt hv (by decide +kernel) (by norm_num) hx) h
  · rw [if_neg ht, pure_ok] at hs
    subst hs
    exact hw.flow _ _ (liftPy_ok.mp h)

theorem wave_inTime {w : Sources K} (hw : TidyData w) {dir : String} {v : Conf K} {norm : K} {s : List (ℤ × Wave K)}
    (h : waveSeries w dir v norm = .ok s) : InTime s := by
  unfold waveSeries at h
  simp only [bind_ok, pure_ok, liftPy_ok] at h
  obtain ⟨n, _, ws, h1, rfl⟩ := h
  exact InTime.map (g := fun a : Wave K => { a with EDir_h := w.turn norm a.EDir_h }) (hw.waves _ _ h1)

theorem waves_eq {ws ws' : List (ℤ × Wave K)} {t : ℤ} (h : ∀ f : Wave K → Fl K, interpolateAt (waveCol ws f) [t] = interpolateAt (waveCol ws' f) [t]) :
    wavesAt ws t = wavesAt ws' t := by
  unfold wavesAt
  simp only [h]

/-! ## C137 -/

/-- The flow, the sea level and the waves are defined at the time `t`. -/
def ForcedAt (l : Loaded K) (t : ℤ) : Prop :=
  (∃ q, interpolateAt l.flow [t] = .ok [q]) ∧ (∃ z, interpolateAt l.sea [t] = .ok [z]) ∧ ∃ w, wavesAt l.waves t = .ok w

theorem trimmed_at {ts ts' : Series K} {S E stop t : ℤ} (hs : InTime ts) (h : trimSeries ts S E stop = .ok ts') (hSE : S < E)
    (hst : E ≤ stop) (h0 : S ≤ t) (h1 : t ≤ E) : ∃ x, interpolateAt ts' [t] = .ok [x] := by
  rw [C59_partial hs (trim_two h hSE) h (by simp) (by simp) (by intro u hu; rw [List.mem_singleton] at hu; subst hu; exact ⟨h0, h1.trans hst⟩)]
  obtain ⟨⟨a, ha, g1⟩, b, hb, g2⟩ := trim_ends h
  obtain ⟨out, ho, hl⟩ := interpolate_total hs (req := [t]) (by simp) (by simp) (by
    intro u hu; rw [List.mem_singleton] at hu; subst hu; exact ⟨⟨a, ha, g1.trans h0⟩, b, hb, h1.trans g2⟩)
  match out, hl with
  | [x], _ => exact ⟨x, ho⟩

/-- **C137** (partial: the records are in order of time, and the simulation has a positive length): a model that loads has a flow, a sea
level and waves at every time of the simulation. -/
theorem C137_partial {file : String → String → Option (Raw K)} {w : Sources K} (hw : TidyData w) {dir stem : String} {v : Conf K} {l : Loaded K}
    (hv : validate file = .ok v) (h : loadModel w dir stem v = .ok l) (hSE : l.tp.StartTime < l.tp.EndTime) {t : ℤ}
    (h0 : l.tp.StartTime ≤ t) (h1 : t ≤ l.tp.EndTime) : ForcedAt l t := by
  obtain ⟨tp, k2, br, sl, it, ac, fl, ws, se, g1, _, _, _, _, _, _, h8, h9, h10, e, h11, h12, h13, _⟩ := load_inv h
  have hmor : 0 ≤ l.tp.MorDtMax := by
    unfold timePars at g1
    simp only [bind_ok, pure_ok] at g1
    obtain ⟨_, _, _, _, _, _, _, _, x, hx, rfl⟩ := g1
    rw [e]
    exact nonneg_dt hv (by decide +kernel) (by norm_num) hx
  have hst : l.tp.EndTime ≤ l.tp.EndTime + l.tp.MorDtMax := by omega
  refine ⟨trimmed_at (flow_inTime hw hv h8) h11 hSE hst h0 h1, trimmed_at (sea_inTime hw hv h10) h13 hSE hst h0 h1, ?_⟩
  have hcol : ∀ f : Wave K → Fl K, ∃ x, interpolateAt (waveCol l.waves f) [t] = .ok [x] := fun f =>
    trimmed_at (InTime.map (g := f) (wave_inTime hw h9)) (trim_map f h12) hSE hst h0 h1
  unfold wavesAt
  obtain ⟨a, ha⟩ := hcol (·.EDir_h)
  obtain ⟨b, hb⟩ := hcol (·.WavePower)
  obtain ⟨c, hc⟩ := hcol (·.WavePeriod)
  obtain ⟨d, hd⟩ := hcol (·.Wlen_h)
  obtain ⟨g, hg⟩ := hcol (·.Hsig_Offshore)
  exact ⟨⟨a, b, c, d, g⟩, by rw [ha, hb, hc, hd, hg]; rfl⟩

/-- Every series, from files or generated, consists of numbers. -/
structure Numbers (w : Sources K) : Prop where
  flow : ∀ f s, w.flow f = .ok s → ∀ r ∈ s, ∃ x, r.2 = fin x
  sea : ∀ f s, w.sea f = .ok s → ∀ r ∈ s, ∃ x, r.2 = fin x
  shot : ∀ a s, w.shot a = .ok s → ∀ r ∈ s, ∃ x, r.2 = fin x
  tide : ∀ S E d m r s, w.tide S E d m r = .ok s → ∀ r ∈ s, ∃ x, r.2 = fin x

theorem flow_numbers {w : Sources K} (hw : Numbers w) {dir : String} {v : Conf K} {tp : TimePars} {s : Series K}
    (h : flowSeries w dir v tp = .ok s) : ∀ r ∈ s, ∃ x, r.2 = fin x := by
  unfold flowSeries at h
  rw [bind_ok] at h
  obtain ⟨src, hs, h⟩ := h
  cases src with
  | file n => exact hw.flow _ _ (liftPy_ok.mp h)
  | shotnoise _ _ _ _ _ _ _ =>
    simp only [bind_ok, liftPy_ok] at h
    obtain ⟨_, _, h⟩ := h
    exact hw.shot _ _ h

theorem sea_numbers {w : Sources K} (hw : Numbers w) {dir : String} {v : Conf K} {tp : TimePars} {s : Series K}
    (h : seaSeries w dir v tp = .ok s) : ∀ r ∈ s, ∃ x, r.2 = fin x := by
  unfold seaSeries at h
  rw [bind_ok] at h
  obtain ⟨src, hs, h⟩ := h
  cases src with
  | file n => exact hw.sea _ _ (liftPy_ok.mp h)
  | harmonic _ _ _ => exact hw.tide _ _ _ _ _ _ (liftPy_ok.mp h)

theorem as_numbers {ts : Series K} (h : ∀ r ∈ ts, ∃ x, r.2 = fin x) : ∃ xs : List (ℤ × K), ts = finSeries xs := by
  induction ts with
  | nil => exact ⟨[], rfl⟩
  | cons a ts ih =>
    obtain ⟨x, hx⟩ := h a (by simp)
    obtain ⟨xs, rfl⟩ := ih (fun r hr => h r (List.mem_cons_of_mem _ hr))
    exact ⟨(a.1, x) :: xs, by unfold finSeries; rw [List.map_cons, ← hx]⟩

/-- **C137**, values (partial, as above): where the series consist of numbers, the flow and the sea level at every time of the simulation lie
on the straight line between the records before and after it (those of the whole series, before it is trimmed). -/
theorem C137_values_partial {file : String → String → Option (Raw K)} {w : Sources K} (hw : TidyData w) (hn : Numbers w) {dir stem : String}
    {v : Conf K} {l : Loaded K} (hv : validate file = .ok v) (h : loadModel w dir stem v = .ok l) (hSE : l.tp.StartTime < l.tp.EndTime) :
    ∃ fl se : List (ℤ × K), ∃ tp, timePars w.date v = .ok tp ∧ flowSeries w dir v tp = .ok (finSeries fl) ∧ seaSeries w dir v tp = .ok (finSeries se) ∧
      ∀ t, l.tp.StartTime ≤ t → t ≤ l.tp.EndTime → ∃ q z : K, interpolateAt l.flow [t] = .ok [fin q] ∧ LinearAt fl t q ∧
        interpolateAt l.sea [t] = .ok [fin z] ∧ LinearAt se t z := by
  obtain ⟨tp, k2, br, sl, it, ac, fl, ws, se, g1, _, _, _, _, _, _, h8, h9, h10, e, h11, h12, h13, _⟩ := load_inv h
  have hmor : 0 ≤ l.tp.MorDtMax := by
    have g1 := g1
    unfold timePars at g1
    simp only [bind_ok, pure_ok] at g1
    obtain ⟨_, _, _, _, _, _, _, _, x, hx, rfl⟩ := g1
    rw [e]
    exact nonneg_dt hv (by decide +kernel) (by norm_num) hx
  obtain ⟨xs, rfl⟩ := as_numbers (flow_numbers hn h8)
  obtain ⟨zs, rfl⟩ := as_numbers (sea_numbers hn h10)
  have key : ∀ {xs : List (ℤ × K)} {ts' : Series K} {t : ℤ}, InTime (finSeries xs) →
      trimSeries (finSeries xs) l.tp.StartTime l.tp.EndTime (l.tp.EndTime + l.tp.MorDtMax) = .ok ts' → l.tp.StartTime ≤ t → t ≤ l.tp.EndTime →
      ∃ q : K, interpolateAt ts' [t] = .ok [fin q] ∧ LinearAt xs t q := by
    intro xs ts' t hi ht h0 h1
    rw [C59_partial hi (trim_two ht hSE) ht (by simp) (by simp)
      (by intro u hu; rw [List.mem_singleton] at hu; subst hu; exact ⟨h0, by omega⟩)]
    obtain ⟨⟨a, ha, ga⟩, b, hb, gb⟩ := trim_ends ht
    obtain ⟨x, hx, _⟩ := mem_finSeries.mp ha
    obtain ⟨y, hy, _⟩ := mem_finSeries.mp hb
    obtain ⟨vs, h2, h3⟩ := C52_linear (ts := xs) (by
        unfold finSeries InTime at hi
        rw [List.pairwise_map] at hi
        exact hi) (req := [t]) (by simp) (by simp) (by
        intro u hu; rw [List.mem_singleton] at hu; subst hu
        exact ⟨⟨_, hx, ga.trans h0⟩, _, hy, h1.trans gb⟩)
    cases h3 with
    | cons hh ht =>
      cases ht
      exact ⟨_, h2, hh⟩
  refine ⟨xs, zs, tp, g1, h8, h10, fun t h0 h1 => ?_⟩
  obtain ⟨q, a1, a2⟩ := key (flow_inTime hw hv h8) h11 h0 h1
  obtain ⟨z, b1, b2⟩ := key (sea_inTime hw hv h10) h13 h0 h1
  exact ⟨q, z, a1, a2, b1, b2⟩

/-- The synthetic series are in order of time. -/
theorem synth_tidy {w : Sources ℝ} (hf : ∀ f s, w.flow f = .ok s → InTime s) (hw : ∀ f s, w.waves f = .ok s → InTime s)
    (hs : ∀ f s, w.sea f = .ok s → InTime s) (toNs : ℝ → ℤ) (mid : ℤ → ℤ) (draws : Val ℝ → List (ℝ × ℝ)) : TidyData (synthSources w toNs mid draws) := by
  refine ⟨hf, hw, hs, ?_, ?_⟩
  · intro a s hd h
    change shotNoise _ _ _ _ = .ok s at h
    obtain ⟨st, _, h2⟩ := bind_ok.mp h
    have h2 := pure_ok.mp h2
    rw [← h2]
    apply List.Pairwise.filter
    unfold resampleMean
    cases st.ts with
    | nil => exact List.Pairwise.nil
    | cons b rest =>
      simp only
      rw [List.pairwise_map]
      rcases hd.lt_or_eq with hd | hd
      · refine List.pairwise_lt_range.imp ?_
        intro i j hij
        have : ((b.1 - mid a.start) / a.dt + (i : ℤ)) * a.dt < ((b.1 - mid a.start) / a.dt + (j : ℤ)) * a.dt := mul_lt_mul_of_pos_right (by omega) hd
        simp only
        omega
      · simp [← hd]
  · intro S E d m r s hd h
    change harmonicTide _ _ _ _ _ = .ok s at h
    unfold harmonicTide dateRange at h
    by_cases c1 : d = 0
    · rw [if_pos c1] at h; cases h
    rw [if_neg c1] at h
    by_cases c2 : E < S
    · rw [if_pos c2] at h
      have := Except.ok.inj h
      subst this; exact List.Pairwise.nil
    · rw [if_neg c2] at h
      have := Except.ok.inj h
      subst this
      rw [List.map_map]
      unfold InTime
      rw [List.pairwise_map]
      refine List.pairwise_lt_range.imp ?_
      intro i j hij
      have hd' : 0 < d := lt_of_le_of_ne hd (Ne.symm c1)
      have : (i : ℤ) * d < j * d := mul_lt_mul_of_pos_right (by exact_mod_cast hij) hd'
      simp only [Function.comp_apply]
      omega

/-! ## C136 -/

section continued
variable {w w' : Sources K} {v v' : Conf K} {dir : String}

theorem same_times (hw : SameData w w') (hv : SameButHot v v') : timePars w'.date v' = timePars w.date v := by
  have e : ∀ k, v' "Time" k = v "Time" k := fun k => hv _ k (by decide)
  simp only [timePars, Conf.text, Conf.num, e, hw.date]

theorem same_sea (hw : SameData w w') (hv : SameButHot v v') (tp : TimePars) : seaSeries w' dir v' tp = seaSeries w dir v tp := by
  have e1 : ∀ k, v' "BoundaryConditions" k = v "BoundaryConditions" k := fun k => hv _ k (by decide)
  have e2 : ∀ k, v' "BoundaryConditions/HarmonicTideParameters" k = v "BoundaryConditions/HarmonicTideParameters" k := fun k => hv _ k (by decide)
  simp only [seaSeries, seaSource, Conf.text, Conf.num, e1, e2, hw.sea, hw.tide]

theorem same_waves (hw : SameData w w') (hv : SameButHot v v') (norm : K) : waveSeries w' dir v' norm = waveSeries w dir v norm := by
  have e1 : ∀ k, v' "BoundaryConditions" k = v "BoundaryConditions" k := fun k => hv _ k (by decide)
  simp only [waveSeries, Conf.text, e1, hw.waves, hw.turn]

theorem same_flow (hw : SameData w w') (hv : SameButHot v v') (tp : TimePars)
    (hseed : Shotnoise v → Given v "BoundaryConditions/ShotnoiseHydrographParameters" "RandomSeed") :
    flowSeries w' dir v' tp = flowSeries w dir v tp := by
  have e1 : ∀ k, v' "BoundaryConditions" k = v "BoundaryConditions" k := fun k => hv _ k (by decide)
  have e2 : ∀ k, v' "BoundaryConditions/ShotnoiseHydrographParameters" k = v "BoundaryConditions/ShotnoiseHydrographParameters" k :=
    fun k => hv _ k (by decide)
  have hsrc : flowSource v' = flowSource v := by simp only [flowSource, Conf.text, Conf.num, e1, e2]
  unfold flowSeries
  rw [hsrc]
  cases hf : flowSource v with
  | error e => rfl
  | ok src =>
    cases src with
    | file name => simp only [ok_bind', hw.flow]
    | shotnoise dt mt inc d1 p1 d2 rise =>
      have hs : Shotnoise v := by
        unfold flowSource at hf
        rw [bind_ok] at hf
        obtain ⟨t, ht, hf⟩ := hf
        by_cases hl : t.toLower = "shotnoise"
        · exact ⟨t, text_ok.mp ht, hl⟩
        · rw [if_neg hl, pure_ok] at hf; cases hf
      simp only [ok_bind', e2, hw.date]
      congr 1
      funext st
      exact congrArg liftPy (hw.shot _ (hseed hs))

/-- **C136** (partial: the records are in order of time, a random hydrograph has a seed, the continued run begins before the end): a
continued run sees the same flow, sea level and waves as the simulation it continues, at every time that both cover. -/
theorem C136_partial {file : String → String → Option (Raw K)} (ht : TidyData w) (hw : SameData w w') (hvv : SameButHot v v')
    (hv : validate file = .ok v) {stem stem' : String} {l l' : Loaded K} (h : loadModel w dir stem v = .ok l) (h' : loadModel w' dir stem' v' = .ok l')
    (hn : l'.norm = l.norm) (hseed : Shotnoise v → Given v "BoundaryConditions/ShotnoiseHydrographParameters" "RandomSeed")
    (hS : l.tp.StartTime < l.tp.EndTime) (hS' : l'.tp.StartTime < l'.tp.EndTime) :
    l'.tp.EndTime = l.tp.EndTime ∧ ∀ req : List ℤ, req ≠ [] → req.Pairwise (· ≤ ·) →
      (∀ t ∈ req, l.tp.StartTime ≤ t ∧ l'.tp.StartTime ≤ t ∧ t ≤ l.tp.EndTime + l.tp.MorDtMax) →
      interpolateAt l'.flow req = interpolateAt l.flow req ∧ interpolateAt l'.sea req = interpolateAt l.sea req ∧
      ∀ t ∈ req, wavesAt l'.waves t = wavesAt l.waves t := by
  obtain ⟨tp, k2, br, sl, it, ac, fl, ws, se, g1, _, _, _, _, _, _, g8, g9, g10, e, g11, g12, g13, _⟩ := load_inv h
  obtain ⟨tp', _, _, _, _, ac', fl', ws', se', j1, _, _, _, _, _, _, j8, j9, j10, e', j11, j12, j13, _⟩ := load_inv h'
  rw [same_times hw hvv, g1] at j1
  obtain rfl := Except.ok.inj j1
  rw [same_flow hw hvv _ hseed, g8] at j8
  obtain rfl := Except.ok.inj j8
  rw [same_sea hw hvv, g10] at j10
  obtain rfl := Except.ok.inj j10
  rw [hn, same_waves hw hvv, g9] at j9
  obtain rfl := Except.ok.inj j9
  have hE : l'.tp.EndTime = l.tp.EndTime := by rw [e, e']
  have hM : l'.tp.MorDtMax = l.tp.MorDtMax := by rw [e, e']
  refine ⟨hE, fun req hne hr hin => ?_⟩
  have key : ∀ {ts a b : Series K}, InTime ts → trimSeries ts l.tp.StartTime l.tp.EndTime (l.tp.EndTime + l.tp.MorDtMax) = .ok a →
      trimSeries ts l'.tp.StartTime l'.tp.EndTime (l'.tp.EndTime + l'.tp.MorDtMax) = .ok b → ∀ r : List ℤ, r ≠ [] → r.Pairwise (· ≤ ·) →
      (∀ t ∈ r, l.tp.StartTime ≤ t ∧ l'.tp.StartTime ≤ t ∧ t ≤ l.tp.EndTime + l.tp.MorDtMax) → interpolateAt b r = interpolateAt a r := by
    intro ts a b hts ha hb r hne hr hin
    rw [C59_partial hts (trim_two ha hS) ha hne hr (fun t ht => ⟨(hin t ht).1, (hin t ht).2.2⟩),
      C59_partial hts (trim_two hb hS') hb hne hr (fun t ht => ⟨(hin t ht).2.1, by rw [hE, hM]; exact (hin t ht).2.2⟩)]
  refine ⟨key (flow_inTime ht hv g8) g11 j11 req hne hr hin, key (sea_inTime ht hv g10) g13 j13 req hne hr hin, fun t htr => ?_⟩
  apply waves_eq
  intro f
  exact key (InTime.map (g := f) (wave_inTime ht g9)) (trim_map f g12) (trim_map f j12) [t] (by simp) (by simp)
    (by intro u hu; rw [List.mem_singleton] at hu; subst hu; exact hin _ htr)

end continued

/-- C136 refuted, in general: with the synthetic tide, which begins at the configured StartTime, no simulation that loads begins earlier:
a run cannot be continued from a record before StartTime. -/
theorem C136_refuted_general {w : Sources ℝ} {toNs : ℝ → ℤ} {mid : ℤ → ℤ} {draws : Val ℝ → List (ℝ × ℝ)} {dir stem : String} {v : Conf ℝ}
    {l : Loaded ℝ} (hh : Harmonic v) (h : loadModel (synthSources w toNs mid draws) dir stem v = .ok l) {t : String} {S : ℤ}
    (ht : v "Time" "StartTime" = .str t) (hS : w.date t = some S) : S ≤ l.tp.StartTime := by
  obtain ⟨tp, k2, br, sl, it, ac, fl, ws, se, g1, _, _, _, _, _, _, _, _, g10, e, _, _, g13, _⟩ := load_inv h
  have htp : tp.StartTime = S := by
    unfold timePars at g1
    simp only [bind_ok, pure_ok] at g1
    obtain ⟨t0, ⟨s0, hs0, g0⟩, _, _, _, _, _, _, _, _, rfl⟩ := g1
    rw [text_ok, ht] at hs0
    injection hs0 with hs0
    subst hs0
    have : (synthSources w toNs mid draws).date t = some S := hS
    rw [this] at g0
    exact (Except.ok.inj g0).symm
  unfold seaSeries at g10
  rw [bind_ok] at g10
  obtain ⟨src, hs, g10⟩ := g10
  unfold seaSource at hs
  rw [bind_ok] at hs
  obtain ⟨u, hu, hs⟩ := hs
  obtain ⟨u', hu', hl⟩ := hh
  rw [text_ok, hu'] at hu
  injection hu with hu
  subst hu
  rw [if_pos hl] at hs
  simp only [bind_ok, pure_ok] at hs
  obtain ⟨x, _, m, _, r, _, rfl⟩ := hs
  have g := liftPy_ok.mp g10
  change harmonicTide _ _ _ _ _ = .ok se at g
  have hhead : ∀ a, se[0]? = some a → a.1 = S := by
    intro a ha
    unfold harmonicTide dateRange at g
    by_cases c1 : timedelta 60000000000 x = 0
    · rw [if_pos c1] at g; cases g
    by_cases c2 : tp.EndTime < tp.StartTime
    · rw [if_neg c1, if_pos c2] at g
      have := Except.ok.inj g
      subst this; cases ha
    · rw [if_neg c1, if_neg c2] at g
      have := Except.ok.inj g
      subst this
      rw [List.map_map, List.getElem?_map] at ha
      cases hr : (List.range ((tp.EndTime - tp.StartTime) / timedelta 60000000000 x + 1).toNat)[0]? with
      | none => rw [hr] at ha; cases ha
      | some i =>
        rw [hr] at ha
        have hi : i = 0 := by
          obtain ⟨hlt, hi⟩ := List.getElem?_eq_some_iff.mp hr
          rw [List.getElem_range] at hi
          exact hi.symm
        subst hi
        have := Option.some.inj ha
        rw [← this, ← htp]
        simp
  unfold trimSeries at g13
  simp only [bind_ok, pyAssert_ok, ixGet_ok, pure_ok, Bool.and_eq_true, decide_eq_true_eq] at g13
  obtain ⟨a, ha, b, _, _, ⟨h1, _⟩, _⟩ := g13
  rw [← hhead a ha]
  exact h1

/-! ## Examples -/

/-- Dates of the examples, in nanoseconds. -/
def ldDate : String → Option ℤ := fun t =>
  if t = "1 Sep 2000" then some 3 else if t = "1 Jan 2018" then some 3600000000003 else if t = "early" then some 1
  else if t = "late" then some 4 else none

/-- The file of an earlier run, with records at the times 0 and 5. -/
def ldNc : Except PyErr (NcFile ℚ × ℚ) := do
  let f ← writeAll exact (emptyFile exact [10, 20] [fin 1]) [ouSnap 0, ouSnap 5]
  return (f, 0)

/-- A rational stand-in for the data: a tide that stays at its mean, floods of a given size, constant waves. -/
def ldWorld (flood : ℚ) : Sources ℚ :=
  { date := ldDate, pow15 := simplePow, nc := fun f => if f = "in/earlier.nc" then ldNc else .error .other
    lines := fun _ _ _ _ _ => .error .other
    flow := fun _ => .error .other
    waves := fun _ => .ok [(-10, ⟨fin 0, fin 1, fin 2, fin 3, fin 4⟩), (7200000000000, ⟨fin 0, fin 1, fin 2, fin 3, fin 5⟩)]
    sea := fun _ => .error .other
    turn := fun n d => d - fin n
    shot := fun a =>
      if a.stop < a.start then .ok []
      else .ok ((a.start, fin 10) :: (if a.stop < a.start + 1000000000000 then []
        else [(a.start + 1000000000000, if a.seed = .none then fin flood else fin 30)]) ++ [(a.stop + 1, fin 10)])
    tide := fun S E d m _ => do return (← dateRange S E d).map fun t => (t, fin m) }

/-- The example configuration as a continued run from the record closest to `t`. -/
def ldFile (t : String) (cont : Bool) : String → String → Option (Raw ℚ) :=
  setKey (setKey (setKey (setKey simpleFile "NumericalParameters" "Dx" (some (rNum 10))) "HotStart" "InitialConditionsNetCDF" (some (rTxt "earlier.nc")))
    "HotStart" "HotStartTime" (some (rTxt t))) "HotStart" "ContinueSimulation" (some { str := some "", flt := none, int := none, bool := some cont })

/-- Validation and loading. -/
def ldRun (flood : ℚ) (file : String → String → Option (Raw ℚ)) : Except LoadErr (Loaded ℚ) := do
  let v ← validate file
  loadModel (ldWorld flood) "in" "run" v

/-- A run continued from the record at 5, one that starts from that record at the configured time, and a cold start. -/
example : okAnd (ldRun 0 (ldFile "late" true)) (fun l => decide (l.tp.StartTime = 5 ∧ l.tp.EndTime = 3600000000003)) = true ∧
    okAnd (ldRun 0 (ldFile "late" false)) (fun l => decide (l.tp.StartTime = 3)) = true ∧
    okAnd (ldRun 0 simpleFile) (fun l => decide (l.tp.StartTime = 3 ∧ l.flow.length = 3 ∧ l.sea.length = 3)) = true := by
  refine ⟨?_, ?_, ?_⟩ <;> decide +kernel

/-- How loading fails; none if it does not. -/
def ldFails (x : Except LoadErr (Loaded ℚ)) : Option LoadErr :=
  match x with
  | .ok _ => none
  | .error e => some e

/-- C136 refuted: from the record at 0, before the configured start at 3, the run cannot be continued (the tide does not cover it), although
the same record is accepted as initial state of a run that starts at 3. -/
theorem C136_refuted : ldFails (ldRun 0 (ldFile "early" true)) = some (.py .assertion) ∧ ldFails (ldRun 0 (ldFile "early" false)) = none := by
  constructor <;> decide +kernel

/-- C136 refuted, random hydrograph: without a seed another flood is drawn for the continued run. -/
theorem C136_refuted_seed : ∃ l l', SameData (ldWorld 30) (ldWorld 50) ∧
    ldRun 30 (setKey simpleFile "BoundaryConditions/ShotnoiseHydrographParameters" "RandomSeed" none) = .ok l ∧
    ldRun 50 (setKey (ldFile "late" true) "BoundaryConditions/ShotnoiseHydrographParameters" "RandomSeed" none) = .ok l' ∧
    interpolateAt l.flow [1000000000003] = .ok [fin 30] ∧ interpolateAt l'.flow [1000000000003] = .ok [fin 50] := by
  have hw : SameData (ldWorld 30) (ldWorld 50) := ⟨rfl, rfl, rfl, rfl, rfl, rfl, fun a ha => by simp [ldWorld, ha]⟩
  obtain ⟨l, h1, g1⟩ := okAnd_iff.mp (show okAnd (ldRun 30 (setKey simpleFile "BoundaryConditions/ShotnoiseHydrographParameters" "RandomSeed" none))
    (fun l => decide (interpolateAt l.flow [1000000000003] = .ok [fin 30])) = true by decide +kernel)
  obtain ⟨l', h2, g2⟩ := okAnd_iff.mp (show okAnd (ldRun 50 (setKey (ldFile "late" true) "BoundaryConditions/ShotnoiseHydrographParameters" "RandomSeed" none))
    (fun l => decide (interpolateAt l.flow [1000000000003] = .ok [fin 50])) = true by decide +kernel)
  exact ⟨l, l', hw, h1, h2, of_decide_eq_true g1, of_decide_eq_true g2⟩

/-- The data of the examples meet the assumptions. -/
theorem ld_tidy (q : ℚ) : TidyData (ldWorld q) := by
  refine ⟨?_, ?_, ?_, ?_, ?_⟩
  · intro f s h; cases h
  · intro f s h
    have := Except.ok.inj h
    subst this
    simp [InTime]
  · intro f s h; cases h
  · intro a s _ h
    change (if a.stop < a.start then _ else _) = _ at h
    by_cases c1 : a.stop < a.start
    · rw [if_pos c1] at h
      have := Except.ok.inj h
      subst this; exact List.Pairwise.nil
    · rw [if_neg c1] at h
      have := Except.ok.inj h
      subst this
      by_cases c2 : a.stop < a.start + 1000000000000
      · rw [if_pos c2]
        simp [InTime]
        omega
      · rw [if_neg c2]
        simp [InTime]
        omega
  · intro S E d m r s hd h
    change (dateRange S E d >>= _) = _ at h
    unfold dateRange at h
    by_cases c1 : d = 0
    · rw [if_pos c1] at h; cases h
    rw [if_neg c1] at h
    by_cases c2 : E < S
    · rw [if_pos c2] at h
      have := Except.ok.inj h
      subst this; exact List.Pairwise.nil
    · rw [if_neg c2] at h
      have := Except.ok.inj h
      subst this
      rw [List.map_map]
      unfold InTime
      rw [List.pairwise_map]
      refine List.pairwise_lt_range.imp ?_
      intro i j hij
      have hd' : 0 < d := lt_of_le_of_ne hd (Ne.symm c1)
      have : (i : ℤ) * d < (j : ℤ) * d := mul_lt_mul_of_pos_right (by omega) hd'
      simp only [Function.comp]
      omega

/-- C137 refuted: with the configured start as end, a simulation of no length, the configuration loads; but the tide, a single record,
has been trimmed away. -/
theorem C137_refuted : ∃ l, ldRun 0 (setKey simpleFile "Time" "EndTime" (some (rTxt "1 Sep 2000"))) = .ok l ∧ l.tp.StartTime = 3 ∧ l.tp.EndTime = 3 ∧
    interpolateAt l.sea [3] = .error .index := by
  obtain ⟨l, h1, g1⟩ := okAnd_iff.mp (show okAnd (ldRun 0 (setKey simpleFile "Time" "EndTime" (some (rTxt "1 Sep 2000"))))
    (fun l => decide (l.tp.StartTime = 3 ∧ l.tp.EndTime = 3 ∧ interpolateAt l.sea [3] = .error .index)) = true by decide +kernel)
  exact ⟨l, h1, of_decide_eq_true g1⟩

/-- The data of the examples with a flow file in which two records are exchanged. -/
def ldMixed : Sources ℚ := { ldWorld 0 with flow := fun _ => .ok [(0, fin 10), (200, fin 30), (100, fin 20), (7200000000000, fin 10)] }

/-- C137 refuted, order: flow records out of order are accepted, and the flow between them is nan. -/
theorem C137_refuted_order : ∃ v l, validate (setKey simpleFile "BoundaryConditions" "RiverFlow" (some (rTxt "flow.csv"))) = .ok v ∧
    loadModel ldMixed "in" "run" v = .ok l ∧ l.tp.StartTime ≤ 150 ∧ 150 ≤ l.tp.EndTime ∧ interpolateAt l.flow [150] = .ok [nan] := by
  obtain ⟨l, h1, g1⟩ := okAnd_iff.mp (show okAnd (do
      let v ← validate (setKey simpleFile "BoundaryConditions" "RiverFlow" (some (rTxt "flow.csv")))
      loadModel ldMixed "in" "run" v) (fun l => decide (l.tp.StartTime ≤ 150 ∧ 150 ≤ l.tp.EndTime ∧ interpolateAt l.flow [150] = .ok [nan])) = true by
    decide +kernel)
  rw [bind_ok] at h1
  obtain ⟨v, hv, h1⟩ := h1
  exact ⟨v, l, hv, h1, of_decide_eq_true g1⟩

/-- Files that agree outside of the section on hot starts. -/
theorem same_but_hot {file file' : String → String → Option (Raw K)} {v v' : Conf K} (h : validate file = .ok v) (h' : validate file' = .ok v')
    (hs : ∀ s k, s ≠ "HotStart" → file' s k = file s k) : SameButHot v v' := by
  intro s k hk
  unfold validate at h h'
  split at h
  swap
  · cases h
  split at h'
  swap
  · cases h'
  have e := Except.ok.inj h
  have e' := Except.ok.inj h'
  subst e e'
  simp only [hs s k hk]

/-- A simulation, and the same continued from its record at 5. -/
example : ∃ (file : String → String → Option (Raw ℚ)) (v v' : Conf ℚ) (l l' : Loaded ℚ), TidyData (ldWorld 0) ∧ SameData (ldWorld 0) (ldWorld 7) ∧
    SameButHot v v' ∧ validate file = .ok v ∧ loadModel (ldWorld 0) "in" "run" v = .ok l ∧ loadModel (ldWorld 7) "in" "again" v' = .ok l' ∧
    Continued v' ∧ l.tp.StartTime = 3 ∧ l'.tp.StartTime = 5 ∧ interpolateAt l'.flow [1000000000003] = .ok [fin 30] := by
  obtain ⟨⟨v, l⟩, h1, g1⟩ := okAnd_iff.mp (show okAnd (do
      let v ← validate (setKey simpleFile "NumericalParameters" "Dx" (some (rNum 10)))
      let l ← loadModel (ldWorld 0) "in" "run" v
      return (v, l)) (fun p => decide (p.2.tp.StartTime = 3)) = true by decide +kernel)
  obtain ⟨⟨v', l'⟩, h2, g2⟩ := okAnd_iff.mp (show okAnd (do
      let v ← validate (ldFile "late" true)
      let l ← loadModel (ldWorld 7) "in" "again" v
      return (v, l)) (fun p => decide (p.2.tp.StartTime = 5 ∧ interpolateAt p.2.flow [1000000000003] = .ok [fin 30] ∧
        p.1 "HotStart" "InitialConditionsNetCDF" ≠ .none ∧ p.1 "HotStart" "ContinueSimulation" = .bool true)) = true by decide +kernel)
  simp only [bind_ok, pure_ok, Prod.mk.injEq] at h1 h2
  obtain ⟨_, a1, _, a2, rfl, rfl⟩ := h1
  obtain ⟨_, b1, _, b2, rfl, rfl⟩ := h2
  obtain ⟨c1, c2, c3, c4⟩ := of_decide_eq_true g2
  refine ⟨_, _, _, _, _, ld_tidy 0, ⟨rfl, rfl, rfl, rfl, rfl, rfl, fun a ha => by simp [ldWorld, ha]⟩,
    same_but_hot a1 b1 fun s k hs => ?_, a1, a2, b2, ⟨c3, c4⟩, of_decide_eq_true g1, c1, c2⟩
  unfold ldFile setKey
  simp [hs]

end Verif.Props
