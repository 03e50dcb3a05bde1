import Verif.Lemmas.DatumParts
import Verif.Lemmas.DatumMerge
import Verif.Props.Core

set_option autoImplicit false
set_option linter.unusedSectionVars false

/-! # C134: the vertical datum -/

namespace Verif.Props
open Verif Fl Model Spec

variable {K : Type} [Field K] [LinearOrder K] [IsStrictOrderedRing K]

/-- C134: if all levels (of the initial condition, the parameters and the sea) are higher by `d`, the state before the loop is
the same with all levels higher by `d`; exceptions are raised alike. -/
theorem C134_initial [FloorRing K] {e : Env K} {d : K} {p' : Parts K} (he : Lifted d e.parts p') (ld : LoadOut K) :
    (∀ s0, initial e ld = .ok s0 → initial (liftEnv d p' e) (liftLoad d ld) = .ok (liftSt d s0)) ∧
    (∀ x, initial e ld = .error x → initial (liftEnv d p' e) (liftLoad d ld) = .error x) := by
  rw [initial_lf d e he ld]
  constructor
  · intro s0 h
    rw [h]
    rfl
  · intro x h
    rw [h]
    rfl

/-- C134, the part that holds: if in no pass of the run a channel merges with the lagoon, no water level is the number that
marks transects without water and no crest is below it, then the run can be made with all levels higher by `d`, and all its
states, passes and records are the same with all levels higher by `d`.  (Missing: passes in which a channel merges with the
lagoon, see `C134_refuted_general`, and crests below the mark, see `C134_refuted_mark`.) -/
theorem C134_runs_partial [FloorRing K] {e : Env K} {d : K} {p' : Parts K} (he : Lifted d e.parts p') {s0 s : CoreSt K}
    {tr : List (CoreSt K × PassOut K × CoreSt K)} (h : Run e s0 tr s) (ha : ∀ r ∈ tr, Above d r.1 r.2.1)
    (hm : ∀ r ∈ tr, NoMerge e.pp (e.junk1 r.1.passes) (morIn e r.1 r.2.1.chan r.2.1.dep r.2.1.hyd r.2.1.bed r.2.1.LST r.2.1.CST r.2.1.owp)) :
    Run (liftEnv d p' e) (liftSt d s0) (tr.map (fun r => (liftSt d r.1, liftPass d r.2.1, liftSt d r.2.2))) (liftSt d s) :=
  run_lf d e he h (fun r hr => ⟨(ha r hr).lagoon, (ha r hr).outlet, (ha r hr).crest, hm r hr⟩)

/-- C134, in terms of what is observed: the condition about merging holds in every pass with a closed lagoon in which there is
no breach and no transect loses its channel. -/
theorem C134_closed_partial [FloorRing K] {e : Env K} {d : K} {p' : Parts K} (he : Lifted d e.parts p') {s0 s : CoreSt K}
    {tr : List (CoreSt K × PassOut K × CoreSt K)} (h : Run e s0 tr s) (ha : ∀ r ∈ tr, Above d r.1 r.2.1) (hk : ∀ r ∈ tr, KeepsRelics r.1 r.2.1) :
    Run (liftEnv d p' e) (liftSt d s0) (tr.map (fun r => (liftSt d r.1, liftPass d r.2.1, liftSt d r.2.2))) (liftSt d s) := by
  refine C134_runs_partial he h ha ?_
  clear ha he
  induction h with
  | start => intro r hr; cases hr
  | pass h ht hpass ih =>
    intro r hr
    rcases List.mem_append.mp hr with hr | hr
    · exact ih (fun r hr => hk r (List.mem_append_left _ hr)) r hr
    · have hk := hk r (List.mem_append_right _ hr)
      obtain rfl := List.mem_singleton.mp hr
      obtain ⟨⟨_, _, hc⟩, _⟩ := pass_inv hpass
      exact noMerge_closed e.pp hk.closed hc.mor hk.breach hk.kept

/-- C134: the modelled functions of riv.py and coast.py work with any datum. -/
theorem C134_real_parts (d : ℝ) (pp : PhysPars ℝ) (np : NumPars) (Dx : ℝ) (HydDt : ℤ) (solver : Solver) :
    Lifted d (realParts pp np Dx HydDt solver) (realParts (liftPars d pp) np Dx HydDt solver) :=
  realParts_lifted d pp np Dx HydDt solver

/-- The stand-ins of the sample runs. -/
theorem coParts_lifted (d : ℚ) : Lifted d coParts coParts where
  unsteady _ _ := rfl
  steady c q w := by
    show Except.ok ((c.elev.map (sh d)).map _, (c.elev.map (sh d)).map _) = Except.ok _
    rw [List.map_map]
    rfl
  bedload := rfl
  lst := rfl
  runup := rfl
  overtop r s rows := by
    show Except.ok ((rows.map (liftT d)).map _, (rows.map (liftT d)).map _) = Except.ok _
    rw [List.map_map, List.map_map]
    rfl

/-- `Above` as a computation. -/
def aboveB (d : ℚ) (s : CoreSt ℚ) (p : PassOut ℚ) : Bool :=
  p.hyd.LagoonWL.all (fun v => decide (v ≠ dryMark)) && (s.rows.zip p.hyd.OutletDep).all (fun x => decide (x.2 + x.1.z1 ≠ dryMark)) &&
    p.mor.rows.all (fun r => !(r.z0 <? dryMark) && !(sh d r.z0 <? dryMark))

theorem above_of {d : ℚ} {s : CoreSt ℚ} {p : PassOut ℚ} (h : aboveB d s p = true) : Above d s p := by
  unfold aboveB at h
  simp only [Bool.and_eq_true, List.all_eq_true, decide_eq_true_eq, Bool.not_eq_true'] at h
  obtain ⟨⟨h1, h2⟩, h3⟩ := h
  refine ⟨h1, fun i r v hr hv => h2 (r, v) ?_, h3⟩
  exact List.mem_of_getElem? (List.getElem?_zip_eq_some.mpr ⟨hr, hv⟩)

/-- No transect meets the condition of mor.py 449, as a computation. -/
def freeB (e : Env ℚ) (s : CoreSt ℚ) (p : PassOut ℚ) : Bool :=
  let a := morIn e s p.chan p.dep p.hyd p.bed p.LST p.CST p.owp
  okAnd (forceStage e.pp a) (fun x => okAnd (repairStage e.pp a.Closed a.Dx x.2.2) (fun s1 =>
    (List.range s1.cells.length).all (fun i => (s1.cells[i]?).all (fun c => !lagoonHit (e.junk1 s.passes) i c))))

theorem free_of {e : Env ℚ} {s : CoreSt ℚ} {p : PassOut ℚ} (h : freeB e s p = true) :
    NoMerge e.pp (e.junk1 s.passes) (morIn e s p.chan p.dep p.hyd p.bed p.LST p.CST p.owp) := by
  intro dt X0 s0 s1 h0 h1 i c hc
  obtain ⟨x, hx, h⟩ := okAnd_iff.mp h
  rw [h0] at hx
  cases hx
  obtain ⟨y, hy, h⟩ := okAnd_iff.mp h
  rw [h1] at hy
  cases hy
  have hi : i < s1.cells.length := (List.getElem?_eq_some_iff.mp hc).1
  have := List.all_eq_true.mp h i (List.mem_range.mpr hi)
  rw [hc] at this
  simpa using this

/-- `KeepsRelics` as a computation. -/
def relicsB (s : CoreSt ℚ) (p : PassOut ℚ) : Bool :=
  p.chan.closed && !p.mor.Breach && (s.rows.zip p.mor.rows).all (fun x => !x.2.y1.isnan || x.1.y1.isnan)

theorem relics_of {s : CoreSt ℚ} {p : PassOut ℚ} (h : relicsB s p = true) : KeepsRelics s p := by
  unfold relicsB at h
  simp only [Bool.and_eq_true, List.all_eq_true, Bool.not_eq_true'] at h
  obtain ⟨⟨h1, h2⟩, h3⟩ := h
  refine ⟨h1, h2, fun i r r' hr hr' hn => ?_⟩
  have := h3 (r, r') (List.mem_of_getElem? (List.getElem?_zip_eq_some.mpr ⟨hr, hr'⟩))
  simp only [hn] at this
  exact (isnan_iff _).mp (by simpa using this)

/-- The example run with all levels 100 m higher: three passes, an open outlet, the crests 100 m higher at the end. -/
example : ∃ (s0 s : CoreSt ℚ) (tr : List (CoreSt ℚ × PassOut ℚ × CoreSt ℚ)), initial (liftEnv 100 coParts coEnv) (liftLoad 100 coLoad) = .ok s0 ∧
    Run (liftEnv 100 coParts coEnv) s0 tr s ∧ tr.length = 3 ∧ s.Closed = false ∧ (s.rows.map (·.z0)).head? = some (fin 104) := by
  have h : okAnd (initial coEnv coLoad) (fun s0 => okAnd (trace coEnv s0 3) (fun x =>
      x.1.all (fun r => aboveB 100 r.1 r.2.1 && freeB coEnv r.1 r.2.1) && (!x.2.Closed && decide ((x.2.rows.map (·.z0)).head? = some (fin 4))))) = true := by decide +kernel
  obtain ⟨s0, h0, h⟩ := okAnd_iff.mp h
  obtain ⟨⟨tr, s⟩, h1, h⟩ := okAnd_iff.mp h
  simp only [Bool.and_eq_true, List.all_eq_true, decide_eq_true_eq, Bool.not_eq_true'] at h
  obtain ⟨ha, hc, hz⟩ := h
  obtain ⟨hrun, hl⟩ := trace_run h1
  refine ⟨_, _, _, (C134_initial (coParts_lifted 100) coLoad).1 s0 h0,
    C134_runs_partial (coParts_lifted 100) hrun (fun r hr => above_of (ha r hr).1) (fun r hr => free_of (ha r hr).2), ?_, hc, ?_⟩
  · rw [List.length_map, hl]
  · have : ((liftSt 100 s).rows.map (·.z0)).head? = (((s.rows.map (·.z0)).head?).map (sh 100)) := by
      show ((s.rows.map (liftT 100)).map _).head? = _
      rw [List.map_map, List.head?_map, List.head?_map, Option.map_map]
      rfl
    rw [this, hz]
    decide +kernel

/-- A closed lagoon with a relic channel. -/
def coShut : LoadOut ℚ := { coLoad with Closed := true, EndX0 := nan, EndX1 := nan }

/-- Two passes with a closed lagoon and a relic channel, with all levels 100 m higher. -/
example : ∃ (s0 s : CoreSt ℚ) (tr : List (CoreSt ℚ × PassOut ℚ × CoreSt ℚ)), initial (liftEnv 100 coParts coEnv) (liftLoad 100 coShut) = .ok s0 ∧
    Run (liftEnv 100 coParts coEnv) s0 tr s ∧ tr.length = 2 ∧ s.Closed = true := by
  have h : okAnd (initial coEnv coShut) (fun s0 => okAnd (trace coEnv s0 2) (fun x =>
      x.1.all (fun r => aboveB 100 r.1 r.2.1 && relicsB r.1 r.2.1) && x.2.Closed)) = true := by decide +kernel
  obtain ⟨s0, h0, h⟩ := okAnd_iff.mp h
  obtain ⟨⟨tr, s⟩, h1, h⟩ := okAnd_iff.mp h
  simp only [Bool.and_eq_true, List.all_eq_true] at h
  obtain ⟨ha, hc⟩ := h
  obtain ⟨hrun, hl⟩ := trace_run h1
  refine ⟨_, _, _, (C134_initial (coParts_lifted 100) coShut).1 s0 h0,
    C134_closed_partial (coParts_lifted 100) hrun (fun r hr => above_of (ha r hr).1) (fun r hr => relics_of (ha r hr).2), ?_, hc⟩
  rw [List.length_map, hl]

/-- C134 is false in general: where a channel that overlaps the lagoon merges with it (`y2 < y3`; mor.py 455), the bed level of
the lagoon is not higher by `d` when all levels were. -/
theorem C134_refuted_general (d : K) (hd : d ≠ 0) (c : Cell K) {y1 y2 y3 y4 z1 z3 : K} (h1 : c.t.y1 = fin y1) (h2 : c.t.y2 = fin y2) (h3 : c.t.y3 = fin y3)
    (h4 : c.t.y4 = fin y4) (h5 : c.t.z1 = fin z1) (h6 : c.t.z3 = fin z3) (hw : y4 < y1) (ho : y2 < y3) :
    (mergeLagoonCell { c with t := liftT d c.t }).t.z3 ≠ sh d (mergeLagoonCell c).t.z3 := by
  have hne : y1 - y4 ≠ 0 := (sub_pos.mpr hw).ne'
  simp only [mergeLagoonCell, liftT, h1, h2, h3, h4, h5, h6, sh, add_fin, sub_fin, mul_fin, div_fin _ _ hne, ne_eq, Fl.fin.injEq]
  intro h
  have h' := congrArg (· * (y1 - y4)) h
  simp only [add_mul, div_mul_cancel₀ _ hne] at h'
  have : d * (y3 - y2) = 0 := by linear_combination h'
  rcases mul_eq_zero.mp this with h | h
  · exact hd h
  · exact absurd (sub_eq_zero.mp h).symm ho.ne

example : (mergeLagoonCell { t := liftT 10 (⟨30, fin 100, fin 24, fin 19, fin 20, fin 0, fin 4, fin (-1), fin 3, fin (-1)⟩ : Transect ℚ), sfh := fin 0, cw := fin 0, bh := fin 0, op := true, lo := true, wl := fin 0 }).t.z3 = fin (75/8) := by
  decide +kernel

/-- The example coast with a relic channel that overlaps the lagoon by 1 m. -/
def coRelic : LoadOut ℚ :=
  { coLoad with rows := coLoad.rows.set 7 ⟨30, fin 100, fin 24, fin 19, fin 20, fin 0, fin 4, fin (-1), fin 3, fin (-1)⟩ }

/-- C134 is false as stated: with all levels 10 m higher, the bed of the lagoon at 30 m is 10 5/12 m higher after the first pass. -/
theorem C134_refuted : ∃ (s0 s1 s1' : CoreSt ℚ) (p p' : PassOut ℚ), initial coEnv coRelic = .ok s0 ∧ pass coEnv s0 = .ok (p, s1) ∧
    pass (liftEnv 10 coParts coEnv) (liftSt 10 s0) = .ok (p', s1') ∧ (s1.rows[7]?).map (·.z3) = some (fin (-25/24 : ℚ)) ∧
    (s1'.rows[7]?).map (·.z3) = some (fin (75/8)) ∧ s1' ≠ liftSt 10 s1 := by
  have h : okAnd (initial coEnv coRelic) (fun s0 => okAnd (pass coEnv s0) (fun x => okAnd (pass (liftEnv 10 coParts coEnv) (liftSt 10 s0)) (fun y =>
      decide ((x.2.rows[7]?).map (·.z3) = some (fin (-25/24 : ℚ))) && decide ((y.2.rows[7]?).map (·.z3) = some (fin (75/8)))))) = true := by decide +kernel
  obtain ⟨s0, h0, h⟩ := okAnd_iff.mp h
  obtain ⟨⟨p, s1⟩, h1, h⟩ := okAnd_iff.mp h
  obtain ⟨⟨p', s1'⟩, h2, h⟩ := okAnd_iff.mp h
  simp only [Bool.and_eq_true, decide_eq_true_eq] at h
  obtain ⟨ha, hb⟩ := h
  refine ⟨s0, s1, s1', p, p', h0, h1, h2, ha, hb, ?_⟩
  rintro rfl
  have : ((liftSt 10 s1).rows[7]?).map (·.z3) = ((s1.rows[7]?).map (·.z3)).map (sh 10) := by
    show (((s1.rows.map (liftT 10))[7]?).map _) = _
    rw [List.getElem?_map, Option.map_map, Option.map_map]
    rfl
  rw [this, ha] at hb
  exact absurd hb (by decide +kernel)

/-- The example coast without lagoon at 40 m. -/
def coFilled : LoadOut ℚ := { coLoad with rows := coLoad.rows.set 8 { brRow 40 with y3 := fin 0 } }

/-- C134 is also false because of the number that marks transects without water: with all levels 20 km lower the first pass,
which otherwise succeeds, raises IndexError. -/
theorem C134_refuted_mark : ∃ (s0 s1 : CoreSt ℚ) (p : PassOut ℚ), initial coEnv coFilled = .ok s0 ∧ pass coEnv s0 = .ok (p, s1) ∧
    pass (liftEnv (-20000) coParts coEnv) (liftSt (-20000) s0) = .error .index := by
  have h : okAnd (initial coEnv coFilled) (fun s0 => okAnd (pass coEnv s0) (fun _ =>
      match pass (liftEnv (-20000) coParts coEnv) (liftSt (-20000) s0) with | .error .index => true | _ => false)) = true := by decide +kernel
  obtain ⟨s0, h0, h⟩ := okAnd_iff.mp h
  obtain ⟨⟨p, s1⟩, h1, h⟩ := okAnd_iff.mp h
  refine ⟨s0, s1, p, h0, h1, ?_⟩
  split at h
  · assumption
  · cases h

end Verif.Props
