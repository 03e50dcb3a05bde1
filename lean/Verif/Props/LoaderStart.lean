import Verif.Props.Loader
import Verif.Props.Runs
import Verif.Props.Load
import Verif.Props.Coast

set_option autoImplicit false
set_option linter.unusedSectionVars false

/-! # Properties of the start of a loaded model: C138 (output files), C139 (start), C140 (coefficients of longshore transport) -/

namespace Verif.Props
open Verif Verif.Model Verif.Spec Fl

variable {K : Type} [Field K] [LinearOrder K] [IsStrictOrderedRing K] [FloorRing K]

/-! ## C138 -/

/-- **C138**, names: without names in the configuration the two files have different names. -/
theorem C138_default {w : Sources K} {dir stem : String} {v : Conf K} {l : Loaded K} (h : loadModel w dir stem v = .ok l)
    (h1 : v "OutputOptions" "OutFile" = .none) (h2 : v "OutputOptions" "TsOutFile" = .none) : l.OutFile ≠ l.TsOutFile := by
  obtain ⟨tp, k2, br, sl, it, ac, fl, ws, se, _, _, _, _, _, _, _, _, _, _, _, _, _, _, h14, _⟩ := load_inv h
  unfold outFiles at h14
  rw [if_pos h1, if_pos h2] at h14
  have e := Except.ok.inj h14
  obtain ⟨e1, e2⟩ := Prod.mk.inj e
  rw [← e1, ← e2]
  intro hc
  have := congrArg String.length hc
  simp only [String.length_append] at this
  have g1 : ("_outputs.nc" : String).length = 11 := by decide +kernel
  have g2 : ("_TSoutputs.nc" : String).length = 13 := by decide +kernel
  omega

theorem newFile_inv {disk d : String → Option (DiskFile K)} {name reply : String} {ow : Bool} {f : DiskFile K}
    (h : newFile disk name ow reply f = .ok d) : d = fun n => if n = name then some f else disk n := by
  unfold newFile at h
  split at h
  · exact (Except.ok.inj h).symm
  · cases h

/-- **C138** (partial: the names are different): when the main loop begins, one file holds the initial record and the other the first
record of the time series; no other file has changed. -/
theorem C138_partial {st : Storage K} {disk d : String → Option (DiskFile K)} {l : Loaded K} {ow : Bool} {r1 r2 : String} {s : Snapshot K}
    (hn : l.OutFile ≠ l.TsOutFile) (h : createOutputs st disk l ow r1 r2 s = .ok d) :
    (∃ f, writeCurrent st (emptyFile st (l.ld.rows.map (·.x)) l.ld.RiverElev) s = .ok f ∧ d l.OutFile = some (.out f)) ∧
    d l.TsOutFile = some (.ts 1) ∧ ∀ n, n ≠ l.OutFile → n ≠ l.TsOutFile → d n = disk n := by
  unfold createOutputs at h
  simp only [bind_ok] at h
  obtain ⟨d1, h1, d2, h2, d3, h3, h4⟩ := h
  have e1 := newFile_inv h1
  have e3 := newFile_inv h3
  have g1 : d1 l.OutFile = some (.out (emptyFile st (l.ld.rows.map (·.x)) l.ld.RiverElev)) := by rw [e1]; simp
  have g3 : d3 l.TsOutFile = some (.ts 0) := by rw [e3]; simp
  unfold appendOut at h2
  rw [g1] at h2
  simp only [bind_ok, pure_ok] at h2
  obtain ⟨f, hf, e2⟩ := h2
  unfold appendTs at h4
  rw [g3] at h4
  have e4 := Except.ok.inj h4
  refine ⟨⟨f, hf, ?_⟩, ?_, ?_⟩
  · rw [← e4, e3, ← e2]; simp [hn]
  · rw [← e4]; simp
  · intro n a b
    rw [← e4, e3, ← e2, e1]; simp [a, b]

/-- **C138**, creation: it succeeds where overwriting is allowed, or there are no such files (and the record fits the file). -/
theorem C138_creates {st : Storage K} {disk : String → Option (DiskFile K)} {l : Loaded K} {ow : Bool} {r1 r2 : String} {s : Snapshot K}
    (hn : l.OutFile ≠ l.TsOutFile) (ho : ow = true ∨ (disk l.OutFile).isNone = true ∧ (disk l.TsOutFile).isNone = true) {f : NcFile K}
    (hf : writeCurrent st (emptyFile st (l.ld.rows.map (·.x)) l.ld.RiverElev) s = .ok f) :
    ∃ d, createOutputs st disk l ow r1 r2 s = .ok d := by
  have key : ∀ (dk : String → Option (DiskFile K)) name r g, (ow = true ∨ (dk name).isNone = true) →
      newFile dk name ow r g = .ok fun n => if n = name then some g else dk n := by
    intro dk name r g hh
    unfold newFile guardFile
    cases hd : dk name with
    | none => rfl
    | some x =>
      rcases hh with rfl | hh
      · rfl
      · rw [hd] at hh; cases hh
  have a1 := key disk l.OutFile r1 (.out (emptyFile st (l.ld.rows.map (·.x)) l.ld.RiverElev)) (ho.imp id (·.1))
  have a2 : ∃ d2, appendOut st (fun n => if n = l.OutFile then some (.out (emptyFile st (l.ld.rows.map (·.x)) l.ld.RiverElev)) else disk n) l.OutFile s = .ok d2 ∧
      ∀ n, n ≠ l.OutFile → d2 n = disk n := by
    unfold appendOut
    simp only [if_true, hf]
    exact ⟨_, rfl, fun n hn => by simp [hn]⟩
  obtain ⟨d2, a2, b2⟩ := a2
  have a3 := key d2 l.TsOutFile r2 (.ts 0) (ho.imp id fun h => by rw [b2 _ hn.symm]; exact h.2)
  have a4 : ∃ d, appendTs (fun n => if n = l.TsOutFile then some (.ts 0) else d2 n) l.TsOutFile = .ok d := by
    unfold appendTs
    simp only [if_true]
    exact ⟨_, rfl⟩
  obtain ⟨d, a4⟩ := a4
  exact ⟨d, bind_ok.mpr ⟨_, a1, bind_ok.mpr ⟨_, a2, bind_ok.mpr ⟨_, a3, a4⟩⟩⟩⟩

/-- C138 refuted, in general: with equal names the file of the time series replaces the one with the initial record (if overwriting is
allowed or confirmed), and the next attempt to write a record fails; otherwise the simulation does not start. -/
theorem C138_refuted_general {st : Storage K} {disk : String → Option (DiskFile K)} {l : Loaded K} {ow : Bool} {r1 r2 : String} {s : Snapshot K}
    (hn : l.OutFile = l.TsOutFile) :
    (∀ d, createOutputs st disk l ow r1 r2 s = .ok d → d l.OutFile = some (.ts 1) ∧ ∀ s', appendOut st d l.OutFile s' = .error .index) ∧
    (ow = false → r2 ∉ ["Y", "y", "Yes", "yes", "YES"] → ∀ d, createOutputs st disk l ow r1 r2 s ≠ .ok d) := by
  constructor
  · intro d h
    unfold createOutputs at h
    simp only [bind_ok] at h
    obtain ⟨d1, h1, d2, h2, d3, h3, h4⟩ := h
    have e3 := newFile_inv h3
    have g3 : d3 l.TsOutFile = some (.ts 0) := by rw [e3]; simp
    unfold appendTs at h4
    rw [g3] at h4
    have e4 := Except.ok.inj h4
    have g : d l.OutFile = some (.ts 1) := by rw [hn, ← e4]; simp
    refine ⟨g, fun s' => ?_⟩
    unfold appendOut
    rw [g]
  · intro ho hr d h
    unfold createOutputs at h
    simp only [bind_ok] at h
    obtain ⟨d1, h1, d2, h2, d3, h3, h4⟩ := h
    have e1 := newFile_inv h1
    have g1 : d1 l.OutFile = some (.out (emptyFile st (l.ld.rows.map (·.x)) l.ld.RiverElev)) := by rw [e1]; simp
    unfold appendOut at h2
    rw [g1] at h2
    simp only [bind_ok, pure_ok] at h2
    obtain ⟨f, hf, e2⟩ := h2
    unfold newFile guardFile at h3
    rw [← hn, ← e2, ho] at h3
    simp only [if_true] at h3
    simp [List.contains_iff_mem, hr] at h3

/-- C138 refuted: a configuration with equal names is accepted. -/
theorem C138_refuted : ∃ l, ldRun 0 (setKey (setKey simpleFile "OutputOptions" "OutFile" (some (rTxt "out.nc"))) "OutputOptions" "TsOutFile"
    (some (rTxt "out.nc"))) = .ok l ∧ l.OutFile = l.TsOutFile := by
  obtain ⟨l, h1, g1⟩ := okAnd_iff.mp (show okAnd (ldRun 0 (setKey (setKey simpleFile "OutputOptions" "OutFile" (some (rTxt "out.nc"))) "OutputOptions"
    "TsOutFile" (some (rTxt "out.nc")))) (fun l => decide (l.OutFile = l.TsOutFile)) = true by decide +kernel)
  exact ⟨l, h1, of_decide_eq_true g1⟩

/-- With default names both files are created. -/
example : ∃ (l : Loaded ℚ) (s : Snapshot ℚ) (d : String → Option (DiskFile ℚ)), ldRun 0 (ldFile "late" true) = .ok l ∧ l.OutFile = "run_outputs.nc" ∧
    l.TsOutFile = "run_TSoutputs.nc" ∧ createOutputs exact (fun _ => none) l false "" "" s = .ok d := by
  obtain ⟨l, h1, g1⟩ := okAnd_iff.mp (show okAnd (ldRun 0 (ldFile "late" true)) (fun l => decide (l.OutFile = "run_outputs.nc" ∧
    l.TsOutFile = "run_TSoutputs.nc") && okAnd (writeCurrent exact (emptyFile exact (l.ld.rows.map (·.x)) l.ld.RiverElev) (ouSnap 0)) fun _ => true) = true by
    decide +kernel)
  rw [Bool.and_eq_true] at g1
  obtain ⟨e1, e2⟩ := of_decide_eq_true g1.1
  obtain ⟨f, hf, _⟩ := okAnd_iff.mp g1.2
  obtain ⟨d, hd⟩ := C138_creates (disk := fun _ => none) (ow := false) (r1 := "") (r2 := "") (by rw [e1, e2]; decide) (.inr ⟨rfl, rfl⟩) hf
  exact ⟨l, ouSnap 0, d, h1, e1, e2, hd⟩

/-! ## C139 -/

/-- A number of the configuration that cannot be negative. -/
theorem conf_nonneg {file : String → String → Option (Raw K)} {v : Conf K} (h : validate file = .ok v) {s k : String} (hm : minIs 0 (s, k) = true)
    {x : K} (hx : v.num s k = .ok x) : 0 ≤ x := by
  have h0 := minIs_get h hm (num_ok.mp hx)
  rwa [Rat.cast_zero] at h0

/-- The straight shoreline of a loaded model. -/
theorem straight_inv {w : Sources K} {dir : String} {v : Conf K} {ld : LoadOut K} {norm : K} {actual : Option ℤ} (hh : ¬ Hot v) (hr : ¬ RealShore v)
    (h : initialState w dir v = .ok (ld, norm, actual)) :
    ∃ c slope up, defaultLoad c slope up = .ok ld ∧ actual = none ∧ v.num "SpatialInputs" "ShorelineLengthLeft" = .ok c.ShorelineLengthLeft ∧
      v.num "SpatialInputs" "ShorelineLengthRight" = .ok c.ShorelineLengthRight ∧ v.num "NumericalParameters" "Dx" = .ok c.Dx ∧
      v.num "PhysicalParameters" "RiverWidth" = .ok c.RiverWidth ∧ v.num "InitialConditions" "OutletWidth" = .ok c.OutletWidth := by
  unfold initialState at h
  rw [bind_ok] at h
  obtain ⟨src, hs, h⟩ := h
  unfold shoreSource at hs
  rw [if_neg (show ¬ v "HotStart" "InitialConditionsNetCDF" ≠ .none from hh), bind_ok] at hs
  obtain ⟨_, _, hs⟩ := hs
  rw [if_pos (show v "SpatialInputs" "Shoreline" = .none from not_not.mp hr)] at hs
  unfold straightShore at hs
  simp only [bind_ok, pure_ok, liftPy_ok] at hs
  obtain ⟨_, _, _, _, _, _, x1, e1, x2, e2, x3, e3, x4, e4, x5, e5, x6, e6, x7, e7, x8, e8, x9, e9, x10, e10, sl, _, up, _, ld', hld, rfl⟩ := hs
  simp only [pure_ok, Prod.mk.injEq] at h
  obtain ⟨rfl, rfl, rfl⟩ := h
  exact ⟨_, sl, up, hld, rfl, e1, e2, e4, e6, e7⟩

/-- The start of a simulation fails only where assembling the channel or the steady solver fails. -/
theorem initial_total {e : Env K} (hP : PartsLen e.parts) {ld : LoadOut K} (hl : LoadSized ld) {q z : Fl K} {w : Wave K}
    (hq : interpolateAt e.flow [e.tp.StartTime] = .ok [q]) (hz : interpolateAt e.sea [e.tp.StartTime] = .ok [z])
    (hw : wavesAt e.waves e.tp.StartTime = .ok w) {c : ChanOut K} (hc : assembleChannel e.pp (firstChan ld e.Dx) = .ok c) :
    (∃ s0, initial e ld = .ok s0 ∧ s0.Closed = c.closed) ∨ ∃ er, e.parts.steady c q z = .error er ∧ initial e ld = .error er := by
  have hk : ChanOk ld.rows.length ld.RiverElev.length c := by
    have := assemble_ok hc (by simp [firstChan, hl.rwl]) (by simp [firstChan, hl.rv]) (.inr hl.ed) (.inr hl.ev)
    simpa only [firstChan] using this
  have hpos : 0 < c.flag.length := by
    have := hk.count
    have := List.length_pos_iff.mpr hk.ne
    omega
  have hlast : ∀ l : List (Fl K), l.length = c.flag.length → ∃ x, pyGet l (-1) = .ok x := by
    intro l hl
    obtain ⟨x, hx⟩ : ∃ x, l.getLast? = some x := by
      cases h : l.getLast? with
      | none => rw [List.getLast?_eq_none_iff] at h; rw [h] at hl; simp at hl; omega
      | some x => exact ⟨x, rfl⟩
    exact ⟨x, pyGet_last.mpr hx⟩
  have h1 : ∀ l : List (Fl K), l.length = c.flag.length → (maskSel c.flag (· == 1) l).length = c.online.length := by
    intro l hl
    rw [maskSel_length _ _ _ hl.symm]
    have hf := hk.flag
    cases hcl : c.closed <;> rw [hcl] at hf <;> rw [hf] <;> simp [List.filter_append, List.filter_replicate]
  have h2 : c.closed = false → ∀ l : List (Fl K), l.length = c.flag.length → (maskSel c.flag (· == 2) l).length = c.outlet.length := by
    intro hcl l hl
    rw [maskSel_length _ _ _ hl.symm]
    have hf := hk.flag
    rw [hcl] at hf; rw [hf]; simp [List.filter_append, List.filter_replicate]
  obtain ⟨cw, hcw⟩ := hlast c.width hk.len.width
  by_cases hcold : ld.LagoonVel.all (· ==? fin 0) = true
  · cases hs : e.parts.steady c q z with
    | error er =>
      right
      refine ⟨er, rfl, ?_⟩
      unfold initial
      simp only [hq, hz, hw, hc, ok_bind', hcold, if_true, hs, ixGet, List.getElem?_cons_zero]
      rfl
    | ok dv =>
      obtain ⟨dep, vel⟩ := dv
      left
      obtain ⟨l1, l2⟩ := hP.steady _ _ _ _ _ _ hk.len hs
      obtain ⟨hyd, hh⟩ := store_total dep vel c.online c.outlet c.flag (ld.rows.map (·.z3)) c.closed hk.ne hk.nodup
        (fun i hi => by rw [List.length_map]; exact hk.bound i hi) (h1 _ l1) (h1 _ l2)
        (fun hcl => ⟨fun i hi => by rw [List.length_map]; exact hk.obound i hi, h2 hcl _ l1, h2 hcl _ l2⟩)
      obtain ⟨d, hd⟩ := hlast dep l1
      obtain ⟨v, hv⟩ := hlast vel l2
      exact ⟨_, bind_ok.mpr ⟨_, hq, bind_ok.mpr ⟨_, hz, bind_ok.mpr ⟨_, hw, bind_ok.mpr ⟨_, hc, bind_ok.mpr ⟨_, rfl, bind_ok.mpr ⟨_, rfl,
        bind_ok.mpr ⟨_, (if_pos hcold).trans hs, bind_ok.mpr ⟨_, (if_pos hcold).trans hh, bind_ok.mpr ⟨_, hd, bind_ok.mpr ⟨_, hv,
        bind_ok.mpr ⟨_, hcw, rfl⟩⟩⟩⟩⟩⟩⟩⟩⟩⟩⟩, rfl⟩
  · left
    obtain ⟨d, hd⟩ := hlast c.dep hk.len.dep
    obtain ⟨v, hv⟩ := hlast c.vel hk.len.vel
    exact ⟨_, bind_ok.mpr ⟨_, hq, bind_ok.mpr ⟨_, hz, bind_ok.mpr ⟨_, hw, bind_ok.mpr ⟨_, hc, bind_ok.mpr ⟨_, rfl, bind_ok.mpr ⟨_, rfl,
      bind_ok.mpr ⟨_, if_neg hcold, bind_ok.mpr ⟨_, if_neg hcold, bind_ok.mpr ⟨_, hd, bind_ok.mpr ⟨_, hv,
      bind_ok.mpr ⟨_, hcw, rfl⟩⟩⟩⟩⟩⟩⟩⟩⟩⟩⟩, rfl⟩

/-- The river width of the loaded parameters is that of the configuration, and so on. -/
theorem phys_widths {v : Conf K} {k2 br sl it : K} {pp : PhysPars K} (h : physPars v k2 br sl it = .ok pp) :
    v.num "PhysicalParameters" "RiverWidth" = .ok pp.RiverWidth ∧ v.num "PhysicalParameters" "MinOutletWidth" = .ok pp.MinOutletWidth ∧
    pp.K2coef = k2 ∧ pp.BreakerCoef = br := by
  unfold physPars at h
  simp only [bind_ok, pure_ok] at h
  obtain ⟨_, _, _, _, _, _, _, _, _, _, _, _, _, _, _, _, _, _, _, _, _, _, _, _, _, _, _, _, _, _, _, _, _, g1, _, g2, _, _, _, _, _, _, _, _, _, _, _, _, rfl⟩ := h
  exact ⟨g2, g1, rfl, rfl⟩

/-- **C139** (partial: the records are in order of time, the simulation has a positive length, the outlet is wider than the smallest outlet,
and the river is wider than it by at least 1 mm): a model with straight shoreline that loads starts with an open outlet, unless the
steady solver fails. -/
theorem C139_partial {file : String → String → Option (Raw K)} {w : Sources K} (hw : TidyData w) {dir stem : String} {v : Conf K} {l : Loaded K}
    (hv : validate file = .ok v) (h : loadModel w dir stem v = .ok l) (hh : ¬ Hot v) (hr : ¬ RealShore v) (hSE : l.tp.StartTime < l.tp.EndTime)
    {ow : K} (hw1 : v.num "InitialConditions" "OutletWidth" = .ok ow) (ho : l.pp.MinOutletWidth < ow)
    (hm : l.pp.MinOutletWidth ≤ l.pp.RiverWidth - 1 / 1000) (hm0 : 0 < l.pp.RiverWidth - 1 / 1000)
    {parts : Parts K} (hP : PartsLen parts) (j1 j2 : ℕ → ℕ → Bool) :
    (∃ s0, initial (l.env parts j1 j2) l.ld = .ok s0 ∧ s0.Closed = false) ∨
    ∃ c q z er, parts.steady c q z = .error er ∧ initial (l.env parts j1 j2) l.ld = .error er := by
  obtain ⟨⟨q, hq⟩, ⟨z, hz⟩, wv, hwv⟩ := C137_partial hw hv h hSE le_rfl hSE.le
  obtain ⟨tp, k2, br, sl, it, ac, fl, ws, se, _, _, _, h4, h5, _, h7, _, _, _, _, _, _, _, _, _⟩ := load_inv h
  obtain ⟨c, slope, up, hld, _, g1, g2, g3, g4, g5⟩ := straight_inv hh hr h7
  obtain ⟨p1, p2, _, _⟩ := phys_widths h4
  have e1 : l.Dx = c.Dx := Except.ok.inj (h5.symm.trans g3)
  have e2 : l.pp.RiverWidth = c.RiverWidth := Except.ok.inj (p1.symm.trans g4)
  have e3 : ow = c.OutletWidth := Except.ok.inj (hw1.symm.trans g5)
  have hd0 : 0 ≤ c.Dx := conf_nonneg hv (by decide +kernel) g3
  have hd : 0 < c.Dx := by
    rcases hd0.lt_or_eq with hd | hd
    · exact hd
    · unfold defaultLoad at hld
      simp only [bind_ok] at hld
      obtain ⟨_, _, rows, hrows, _⟩ := hld
      unfold defaultRows at hrows
      rw [if_pos hd.symm] at hrows
      cases hrows
  obtain ⟨ch, _, _, hc, hcl, _⟩ := C62_partial hd (conf_nonneg hv (by decide +kernel) g1) (conf_nonneg hv (by decide +kernel) g2) hld e2
    (conf_nonneg hv (by decide +kernel) p2) (by rw [← e3]; exact ho) (by rw [← e2]; exact hm) (by rw [← e2]; exact hm0)
  rw [← e1] at hc
  rcases initial_total (e := l.env parts j1 j2) hP (C91_default_load hld) hq hz hwv hc with ⟨s0, a, b⟩ | ⟨er, a, b⟩
  · exact .inl ⟨s0, a, b.trans hcl⟩
  · exact .inr ⟨ch, q, z, er, a, b⟩

/-- C139 refuted, in general: with a river not wider by 1 mm than the smallest outlet, no model with straight shoreline starts, although
its outlet is wide enough. -/
theorem C139_refuted_general {file : String → String → Option (Raw K)} {w : Sources K} {dir stem : String} {v : Conf K} {l : Loaded K}
    (hv : validate file = .ok v) (h : loadModel w dir stem v = .ok l) (hh : ¬ Hot v) (hr : ¬ RealShore v)
    {ow : K} (hw1 : v.num "InitialConditions" "OutletWidth" = .ok ow) (ho : l.pp.MinOutletWidth < ow)
    (hm : l.pp.RiverWidth - 1 / 1000 < l.pp.MinOutletWidth) (parts : Parts K) (j1 j2 : ℕ → ℕ → Bool) (s0 : CoreSt K) :
    initial (l.env parts j1 j2) l.ld ≠ .ok s0 := by
  obtain ⟨tp, k2, br, sl, it, ac, fl, ws, se, _, _, _, h4, h5, _, h7, _, _, _, _, _, _, _, _, _⟩ := load_inv h
  obtain ⟨c, slope, up, hld, _, g1, g2, g3, g4, g5⟩ := straight_inv hh hr h7
  obtain ⟨p1, p2, _, _⟩ := phys_widths h4
  have e1 : l.Dx = c.Dx := Except.ok.inj (h5.symm.trans g3)
  have e2 : l.pp.RiverWidth = c.RiverWidth := Except.ok.inj (p1.symm.trans g4)
  have e3 : ow = c.OutletWidth := Except.ok.inj (hw1.symm.trans g5)
  have hd0 : 0 ≤ c.Dx := conf_nonneg hv (by decide +kernel) g3
  have hd : 0 < c.Dx := by
    rcases hd0.lt_or_eq with hd | hd
    · exact hd
    · unfold defaultLoad at hld
      simp only [bind_ok] at hld
      obtain ⟨_, _, rows, hrows, _⟩ := hld
      unfold defaultRows at hrows
      rw [if_pos hd.symm] at hrows
      cases hrows
  have hc := C62_refuted_general (pp := l.pp) hd (conf_nonneg hv (by decide +kernel) g1) (conf_nonneg hv (by decide +kernel) g2) hld
    (by rw [← e3]; exact ho) (.inl (by rw [← e2]; exact hm))
  intro hi
  unfold initial at hi
  simp only [bind_ok] at hi
  obtain ⟨_, _, _, _, _, _, ch, hch, _⟩ := hi
  change assembleChannel l.pp (firstChan l.ld l.Dx) = .ok ch at hch
  rw [e1, hc] at hch
  cases hch

/-- C139 refuted: a river 20 m wide, an outlet 35 m wide, smallest width 20 m. -/
theorem C139_refuted : ∃ v l, validate (setKey (setKey simpleFile "PhysicalParameters" "RiverWidth" (some (rNum 20))) "PhysicalParameters" "MinOutletWidth"
    (some (rNum 20))) = .ok v ∧ loadModel (ldWorld 0) "in" "run" v = .ok l ∧ l.tp.StartTime < l.tp.EndTime ∧
    ∀ parts j1 j2 s0, initial (l.env parts j1 j2) l.ld ≠ .ok s0 := by
  obtain ⟨⟨v, l⟩, h1, g1⟩ := okAnd_iff.mp (show okAnd (do
      let v ← validate (setKey (setKey simpleFile "PhysicalParameters" "RiverWidth" (some (rNum 20))) "PhysicalParameters" "MinOutletWidth" (some (rNum 20)))
      let l ← loadModel (ldWorld 0) "in" "run" v
      return (v, l)) (fun p => decide (p.2.tp.StartTime < p.2.tp.EndTime ∧ p.2.pp.MinOutletWidth < 35 ∧ p.2.pp.RiverWidth - 1 / 1000 < p.2.pp.MinOutletWidth ∧
        p.1 "InitialConditions" "OutletWidth" = .flt (fin 35) ∧ p.1 "HotStart" "InitialConditionsNetCDF" = .none ∧
        p.1 "SpatialInputs" "Shoreline" = .none)) = true by decide +kernel)
  simp only [bind_ok, pure_ok, Prod.mk.injEq] at h1
  obtain ⟨_, a1, _, a2, rfl, rfl⟩ := h1
  obtain ⟨c1, c2, c3, c4, c5, c6⟩ := of_decide_eq_true g1
  exact ⟨_, _, a1, a2, c1, C139_refuted_general a1 a2 (not_not.mpr c5) (not_not.mpr c6) (num_ok.mpr c4) c2 c3⟩

/-- The example configuration starts. -/
example : ∃ l s0, ldRun 0 simpleFile = .ok l ∧ initial (l.env coEnv.parts (fun _ _ => false) (fun _ _ => false)) l.ld = .ok s0 ∧ s0.Closed = false := by
  obtain ⟨⟨v, l⟩, h1, g1⟩ := okAnd_iff.mp (show okAnd (do
      let v ← validate simpleFile
      let l ← loadModel (ldWorld 0) "in" "run" v
      return (v, l)) (fun p => decide (p.2.tp.StartTime < p.2.tp.EndTime ∧ p.2.pp.MinOutletWidth < 35 ∧ p.2.pp.MinOutletWidth ≤ p.2.pp.RiverWidth - 1 / 1000 ∧
        0 < p.2.pp.RiverWidth - 1 / 1000 ∧ p.1 "InitialConditions" "OutletWidth" = .flt (fin 35) ∧
        p.1 "HotStart" "InitialConditionsNetCDF" = .none ∧ p.1 "SpatialInputs" "Shoreline" = .none)) = true by decide +kernel)
  simp only [bind_ok, pure_ok, Prod.mk.injEq] at h1
  obtain ⟨_, a1, _, a2, rfl, rfl⟩ := h1
  obtain ⟨c1, c2, c3, c3', c4, c5, c6⟩ := of_decide_eq_true g1
  rcases C139_partial (ld_tidy 0) a1 a2 (not_not.mpr c5) (not_not.mpr c6) c1 (num_ok.mpr c4) c2 c3 c3' coParts_len (fun _ _ => false) (fun _ _ => false)
    with ⟨s0, b1, b2⟩ | ⟨_, _, _, _, b1, _⟩
  · exact ⟨_, s0, bind_ok.mpr ⟨_, a1, a2⟩, b1, b2⟩
  · cases b1

/-! ## C140 -/

/-- The coefficients of a loaded model. -/
theorem lst_inv {file : String → String → Option (Raw K)} {w : Sources K} (hp : ∀ x, 0 < x → 0 < w.pow15 x) {dir stem : String} {v : Conf K}
    {l : Loaded K} (hv : validate file = .ok v) (h : loadModel w dir stem v = .ok l) {rs ra kc : K}
    (h1 : v.num "PhysicalParameters" "RhoSed" = .ok rs) (h2 : v.num "PhysicalParameters" "RhoSea" = .ok ra)
    (h3 : v.num "PhysicalParameters" "Kcoef" = .ok kc) :
    ∃ c, 0 < c ∧ rs - ra ≠ 0 ∧ l.pp.K2coef = kc / ((rs - ra) * c) ∧ 0 < l.pp.BreakerCoef := by
  obtain ⟨tp, k2, br, sl, it, ac, fl, ws, se, _, g, _, h4, _, _, _, _, _, _, _, _, _, _, _, _⟩ := load_inv h
  obtain ⟨_, _, e1, e2⟩ := phys_widths h4
  unfold lstPars at g
  simp only [h1, h2, h3, ok_bind'] at g
  simp only [bind_ok] at g
  obtain ⟨gr, hg, vd, hvd, g⟩ := g
  by_cases c1 : (rs - ra) * gr * (1 - vd) = 0
  · rw [if_pos c1] at g; cases g
  rw [if_neg c1, bind_ok] at g
  obtain ⟨gm, hgm, g⟩ := g
  by_cases c2 : ra * w.pow15 gr * (gm * gm) = 0
  · rw [if_pos c2] at g; cases g
  rw [if_neg c2, pure_ok, Prod.mk.injEq] at g
  have z1 : 0 ≤ gr := conf_nonneg hv (by decide +kernel) hg
  have z2 : 0 ≤ ra := conf_nonneg hv (by decide +kernel) h2
  have z3 : vd ≤ 1 := by
    have := maxIs_get hv (b := 1) (by decide +kernel) (num_ok.mp hvd)
    rwa [Rat.cast_one] at this
  have n1 : rs - ra ≠ 0 := fun e => c1 (by rw [e]; ring)
  have n2 : gr ≠ 0 := fun e => c1 (by rw [e]; ring)
  have n3 : 1 - vd ≠ 0 := fun e => c1 (by rw [e]; ring)
  have n4 : ra ≠ 0 := fun e => c2 (by rw [e]; ring)
  have n5 : gm ≠ 0 := fun e => c2 (by rw [e]; ring)
  have p1 : 0 < gr := lt_of_le_of_ne z1 (Ne.symm n2)
  have p2 : 0 < 1 - vd := lt_of_le_of_ne (sub_nonneg.mpr z3) (Ne.symm n3)
  have p3 : 0 < ra := lt_of_le_of_ne z2 (Ne.symm n4)
  refine ⟨gr * (1 - vd), mul_pos p1 p2, n1, ?_, ?_⟩
  · rw [e1, ← g.1, mul_assoc]
  · rw [e2, ← g.2]
    exact div_pos (by norm_num) (mul_pos (mul_pos p3 (hp _ p1)) (mul_self_pos.mpr n5))

/-- **C140** (partial: the sediment is denser than sea water): in every loaded model the coefficient of longshore transport is not negative,
and positive if Kcoef is; the coefficient of the breaker depth is always positive. -/
theorem C140_partial {file : String → String → Option (Raw K)} {w : Sources K} (hp : ∀ x, 0 < x → 0 < w.pow15 x) {dir stem : String} {v : Conf K}
    {l : Loaded K} (hv : validate file = .ok v) (h : loadModel w dir stem v = .ok l) {rs ra kc : K}
    (h1 : v.num "PhysicalParameters" "RhoSed" = .ok rs) (h2 : v.num "PhysicalParameters" "RhoSea" = .ok ra)
    (h3 : v.num "PhysicalParameters" "Kcoef" = .ok kc) :
    0 < l.pp.BreakerCoef ∧ (ra < rs → 0 ≤ l.pp.K2coef ∧ (0 < kc → 0 < l.pp.K2coef)) := by
  obtain ⟨c, hc, hn, e, hb⟩ := lst_inv hp hv h h1 h2 h3
  refine ⟨hb, fun hd => ?_⟩
  have hpos : 0 < (rs - ra) * c := mul_pos (sub_pos.mpr hd) hc
  rw [e]
  exact ⟨div_nonneg (conf_nonneg hv (by decide +kernel) h3) hpos.le, fun hk => div_pos hk hpos⟩

/-- C140 refuted, in general: sediment lighter than sea water is accepted, and the coefficient is negative. -/
theorem C140_refuted_general {file : String → String → Option (Raw K)} {w : Sources K} (hp : ∀ x, 0 < x → 0 < w.pow15 x) {dir stem : String} {v : Conf K}
    {l : Loaded K} (hv : validate file = .ok v) (h : loadModel w dir stem v = .ok l) {rs ra kc : K}
    (h1 : v.num "PhysicalParameters" "RhoSed" = .ok rs) (h2 : v.num "PhysicalParameters" "RhoSea" = .ok ra)
    (h3 : v.num "PhysicalParameters" "Kcoef" = .ok kc) (hd : rs < ra) (hk : 0 < kc) : l.pp.K2coef < 0 := by
  obtain ⟨c, hc, hn, e, hb⟩ := lst_inv hp hv h h1 h2 h3
  rw [e]
  exact div_neg_of_pos_of_neg hk (mul_neg_of_neg_of_pos (sub_neg.mpr hd) hc)

/-- C140 refuted: the example with sediment of density 1000. -/
theorem C140_refuted : ∃ l, ldRun 0 (setKey simpleFile "PhysicalParameters" "RhoSed" (some (rNum 1000))) = .ok l ∧ l.pp.K2coef < 0 := by
  obtain ⟨l, h1, g1⟩ := okAnd_iff.mp (show okAnd (ldRun 0 (setKey simpleFile "PhysicalParameters" "RhoSed" (some (rNum 1000))))
    (fun l => decide (l.pp.K2coef < 0)) = true by decide +kernel)
  exact ⟨l, h1, of_decide_eq_true g1⟩

/-- The example as given. -/
example : okAnd (ldRun 0 simpleFile) (fun l => decide (0 < l.pp.K2coef ∧ 0 < l.pp.BreakerCoef)) = true := by decide +kernel

open Real in
/-- **C140**, direction (partial, as above): in a loaded model waves from the left move sediment to the right, and waves from the right to the
left. -/
theorem C140_direction_partial {file : String → String → Option (Raw ℝ)} {w : Sources ℝ} {toNs : ℝ → ℤ} {mid : ℤ → ℤ} {draws : Val ℝ → List (ℝ × ℝ)}
    {dir stem : String} {v : Conf ℝ} {l : Loaded ℝ} (hv : validate file = .ok v) (h : loadModel (synthSources w toNs mid draws) dir stem v = .ok l)
    {rs ra kc : ℝ} (h1 : v.num "PhysicalParameters" "RhoSed" = .ok rs) (h2 : v.num "PhysicalParameters" "RhoSea" = .ok ra)
    (h3 : v.num "PhysicalParameters" "Kcoef" = .ok kc) (hd : ra < rs) (hk : 0 < kc) (hD : 0 < l.Dx) (hg : 0 < l.pp.Gravity)
    (hdep : 0 < l.pp.WaveDataDepth) {power period len θ : ℝ} (hpo : 0 < power) (hpe : 0 < period) (hle : 0 < len) (ys : List ℝ) (i : ℕ) (ya yb : ℝ)
    (ha : ys[i]? = some ya) (hb : ys[i+1]? = some yb) (hsea : |waveAngle l.Dx θ ya yb| < π / 2)
    (hr : Waves.Refracts ⟨l.pp.Gravity, l.pp.BreakerCoef, l.pp.K2coef, l.pp.WaveDataDepth, power, period, len, θ⟩ (waveAngle l.Dx θ ya yb)) :
    ∃ q, (longShoreTransport (ys.map fin) (fin l.Dx) (fin power) (fin period) (fin len) (fin θ) l.pp)[i]? = some (fin q) ∧
      (0 < q ↔ waveAngle l.Dx θ ya yb < 0) ∧ (q < 0 ↔ 0 < waveAngle l.Dx θ ya yb) := by
  obtain ⟨b1, b2⟩ := C140_partial (w := synthSources w toNs mid draws) (fun x hx => Real.rpow_pos_of_pos hx _) hv h h1 h2 h3
  obtain ⟨q, e, _, e1, e2⟩ := C05_direction ⟨l.pp.Gravity, l.pp.BreakerCoef, l.pp.K2coef, l.pp.WaveDataDepth, power, period, len, θ⟩
    ⟨hg, b1, (b2 hd).2 hk, hdep, hpo, hpe, hle⟩ l.pp ⟨rfl, rfl, rfl, rfl⟩ ys l.Dx hD i ya yb ha hb hsea hr
  exact ⟨q, e, e1, e2⟩

open Real in
/-- C140 refuted, direction: in a loaded model with sediment lighter than sea water the transport goes against the waves, everywhere. -/
theorem C140_refuted_direction {file : String → String → Option (Raw ℝ)} {w : Sources ℝ} {toNs : ℝ → ℤ} {mid : ℤ → ℤ} {draws : Val ℝ → List (ℝ × ℝ)}
    {dir stem : String} {v : Conf ℝ} {l : Loaded ℝ} (hv : validate file = .ok v) (h : loadModel (synthSources w toNs mid draws) dir stem v = .ok l)
    {rs ra kc : ℝ} (h1 : v.num "PhysicalParameters" "RhoSed" = .ok rs) (h2 : v.num "PhysicalParameters" "RhoSea" = .ok ra)
    (h3 : v.num "PhysicalParameters" "Kcoef" = .ok kc) (hd : rs < ra) (hk : 0 < kc) (hD : 0 < l.Dx) (hg : 0 < l.pp.Gravity)
    (hdep : 0 < l.pp.WaveDataDepth) {power period len θ : ℝ} (hpo : 0 < power) (hpe : 0 < period) (hle : 0 < len) (ys : List ℝ) (i : ℕ) (ya yb : ℝ)
    (ha : ys[i]? = some ya) (hb : ys[i+1]? = some yb) (hsea : |waveAngle l.Dx θ ya yb| < π / 2)
    (hr : Waves.Refracts ⟨l.pp.Gravity, l.pp.BreakerCoef, -l.pp.K2coef, l.pp.WaveDataDepth, power, period, len, θ⟩ (waveAngle l.Dx θ ya yb)) :
    ∃ q, (longShoreTransport (ys.map fin) (fin l.Dx) (fin power) (fin period) (fin len) (fin θ) l.pp)[i]? = some (fin q) ∧
      (0 < q ↔ 0 < waveAngle l.Dx θ ya yb) ∧ (q < 0 ↔ waveAngle l.Dx θ ya yb < 0) := by
  have hp : ∀ x : ℝ, 0 < x → 0 < (synthSources w toNs mid draws).pow15 x := fun x hx => Real.rpow_pos_of_pos hx _
  obtain ⟨b1, _⟩ := C140_partial hp hv h h1 h2 h3
  have b2 := C140_refuted_general hp hv h h1 h2 h3 hd hk
  obtain ⟨q, e, _, e1, e2⟩ := C05_direction ⟨l.pp.Gravity, l.pp.BreakerCoef, -l.pp.K2coef, l.pp.WaveDataDepth, power, period, len, θ⟩
    ⟨hg, b1, neg_pos.mpr b2, hdep, hpo, hpe, hle⟩ { l.pp with K2coef := (-1) * l.pp.K2coef } ⟨rfl, rfl, by simp, rfl⟩ ys l.Dx hD i ya yb ha hb hsea hr
  unfold lst at e
  rw [C08_proportional, List.getElem?_map] at e
  obtain ⟨x, hx, e⟩ := Option.map_eq_some_iff.mp e
  have hx' : x = fin (-q) := by
    cases x with
    | fin y =>
      rw [mul_fin, fin.injEq] at e
      rw [← e]; simp
    | nan => simp at e
    | pinf =>
      change infOfSign (-1 : ℝ) = fin q at e
      simp [infOfSign] at e
      split at e <;> cases e
    | ninf =>
      change infOfSign (-(-1) : ℝ) = fin q at e
      simp [infOfSign] at e
  refine ⟨-q, by rw [hx, hx'], ?_, ?_⟩
  · rw [neg_pos]; exact e2
  · rw [neg_lt_zero]; exact e1

end Verif.Props
