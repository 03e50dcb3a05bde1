import Verif.Lemmas.Ends
import Verif.Lemmas.Regular
import Verif.Lemmas.Run
import Verif.Props.MorDt
import Verif.Props.CoreSample
import Verif.Props.MorStep
import Verif.Spec.Ends

set_option autoImplicit false
set_option linter.unusedSectionVars false

/-! # C144: the ends of the coast retreat at the configured rate

At its two ends the model has no neighbours to exchange sediment with; ShorelineErosionRate (metres per year) is
imposed there instead. -/

namespace Verif.Props
open Verif Verif.Model Fl Verif.Spec

variable {K : Type} [Field K] [LinearOrder K] [IsStrictOrderedRing K]

/-- C144, one step, partial.  At an end of the coast with a wide barrier and no channel the shoreline moves in a
completed step with regular arguments (finite, no width or height divided by is zero) as far as ShorelineErosionRate gives for `MorDt.seconds`, whatever the waves, the river and the outlet do
elsewhere; the outlet, if open, is not at the first transect.
Missing: narrow barriers and channels at the ends; and `MorDt.seconds` is not the length of the step, see below. -/
theorem C144_partial (pp : PhysPars K) (j1 j2 : ℕ → Bool) (a : MorIn K) (o : MorOut K) (h : updateMorphology pp j1 j2 a = .ok o)
    (hB : 0 ≤ a.MaxMorChange) (hs : a.rows.Pairwise (fun r s => r.x < s.x)) (hn : 3 ≤ a.rows.length)
    (hreg : Regular pp a)
    (hE : |pp.ShorelineErosionRate| * (secs o.MorDt : K) ≤ 31557600 * a.MaxMorChange)
    (hopen : a.Closed = false → ∃ e r, a.EndX1 = fin e ∧ a.rows[1]? = some r ∧ r.x ≤ e)
    (i : ℕ) (hi : i = 0 ∨ i + 1 = a.rows.length) (r : Transect K) (hr : a.rows[i]? = some r) (y : K) (hw : WideBarrier a.MaxMorChange r y) :
    ∃ r', o.rows[i]? = some r' ∧ r'.y0 = fin (retreated pp.ShorelineErosionRate y (secs o.MorDt)) := by
  obtain ⟨h0, h1, h2, y3, y4, h3, h4, w3, w4⟩ := hw
  obtain ⟨r', hr', e⟩ := update_end h hB hs hn (fun _ _ _ _ _ hp hall => regular_finite hreg hp hall) hE hopen hi hr h0 h1 h2 h3 h4 w3 w4
  refine ⟨r', hr', e.trans ?_⟩
  unfold retreated
  congr 2
  rw [show (36525 / 100 * 24 * 60 * 60 : K) = 31557600 by norm_num]
  ring

/-- The arguments of the morphological step made in a pass. -/
def stepIn (e : Env K) (x : CoreSt K × PassOut K × CoreSt K) : MorIn K :=
  morIn e x.1 x.2.1.chan x.2.1.dep x.2.1.hyd x.2.1.bed x.2.1.LST x.2.1.CST x.2.1.owp

variable [FloorRing K]

/-- C144, whole runs, partial.  If MorDtMin is a whole number of seconds, MorDtMax is that times a power of two and less
than a day, and in every pass the barrier at the end of the coast is wide and the arguments of the step are regular, then as long as
the end of the simulation is not reached the shoreline there is where it started less ShorelineErosionRate times the
time simulated.  Missing: the last step, which is cut off after the morphology was changed. -/
theorem C144_partial_run {e : Env K} {ld : LoadOut K} {s0 s : CoreSt K} {tr : List (CoreSt K × PassOut K × CoreSt K)} (m j : ℕ) (hm : 0 < m)
    (hj : m * 2 ^ j < 86400) (hmin : e.tp.MorDtMin = Verif.Model.sec m) (hmax : e.tp.MorDtMax = Verif.Model.sec (m * 2 ^ j))
    (h0 : initial e ld = .ok s0) (h : Run e s0 tr s) (hend : s.time < e.tp.EndTime) (hB : 0 ≤ e.MaxMorChange)
    (hE : |e.pp.ShorelineErosionRate| * 86400 ≤ 31557600 * e.MaxMorChange)
    (hs : ld.rows.Pairwise (fun r s => r.x < s.x)) (hn : 3 ≤ ld.rows.length) (i : ℕ) (hi : i = 0 ∨ i + 1 = ld.rows.length)
    (hwide : ∀ x ∈ tr, ∃ r y, x.1.rows[i]? = some r ∧ WideBarrier e.MaxMorChange r y)
    (hopen : ∀ x ∈ tr, x.2.1.chan.closed = false → ∃ z r, x.1.EndX1 = fin z ∧ x.1.rows[1]? = some r ∧ r.x ≤ z)
    (hreg : ∀ x ∈ tr, Regular e.pp (stepIn e x))
    (y : K) (r : Transect K) (hr : ld.rows[i]? = some r) (hy : r.y0 = fin y) :
    ∃ r', s.rows[i]? = some r' ∧ r'.y0 = fin (retreated e.pp.ShorelineErosionRate y (((s.time - e.tp.StartTime : ℤ) : K) / 1000000000)) := by
  obtain ⟨t0, d0, _, _, rows0, _⟩ := initial_inv h0
  have hmin0 : 0 ≤ e.tp.MorDtMin := by rw [hmin]; unfold Verif.Model.sec; omega
  have hT : ∀ {tr' : List (CoreSt K × PassOut K × CoreSt K)} {s' : CoreSt K}, e.tp.StartTime ≤ e.tp.EndTime → Run e s0 tr' s' → TimeInv e s' :=
    fun hse hr => hr.timeInv (TimeInv.initial h0 hse hmin0)
  suffices key : (∃ k ≤ j, s.dt = Verif.Model.sec (m * 2 ^ k)) ∧ s.rows.map (·.x) = ld.rows.map (·.x) ∧
      ∃ r', s.rows[i]? = some r' ∧ r'.y0 = fin (retreated e.pp.ShorelineErosionRate y (((s.time - e.tp.StartTime : ℤ) : K) / 1000000000)) from key.2.2
  have hse : e.tp.StartTime ≤ e.tp.EndTime := by
    have : ∀ {tr' : List (CoreSt K × PassOut K × CoreSt K)} {s' : CoreSt K}, Run e s0 tr' s' → s'.time = e.tp.StartTime ∨ e.tp.StartTime ≤ e.tp.EndTime := by
      intro tr' s' hr'
      induction hr' with
      | start => exact Or.inl t0
      | @pass tr s s' p hr hle hp ih => rcases ih with ih | ih <;> right <;> omega
    rcases this h with hh | hh <;> omega
  induction h with
  | start =>
    refine ⟨⟨0, Nat.zero_le _, by rw [d0, hmin]; simp⟩, by rw [rows0], r, by rw [rows0]; exact hr, ?_⟩
    rw [hy, t0]
    unfold retreated
    simp
  | @pass tr s s' p hrun hle hp ih =>
    have hmem : ∀ x ∈ tr, x ∈ tr ++ [(s, p, s')] := fun x hx => List.mem_append_left _ hx
    have hlast : (s, p, s') ∈ tr ++ [(s, p, s')] := by simp
    have hmono := ((hT hse hrun).step hp).2
    obtain ⟨⟨k, hk, hdt⟩, hx, r1, hr1, hy1⟩ := ih (by omega) (fun x hx => hwide x (hmem x hx)) (fun x hx => hopen x (hmem x hx)) (fun x hx => hreg x (hmem x hx))
    obtain ⟨⟨fl, sl, hc⟩, ha⟩ := pass_inv hp
    obtain ⟨k', hk', hdt'⟩ := C32_whole e.pp _ _ _ _ m j k hm hk hj (by exact hmin) (by exact hmax) (by exact hdt) hc.mor
    have hstep : stepOf e s p = p.mor.MorDt := by
      have h1 := ha.time
      unfold stepOf at h1 ⊢
      split
      · next hlt => rw [if_pos hlt] at h1; omega
      · rfl
    have hlt : m * 2 ^ k' < 86400 := lt_of_le_of_lt (Nat.mul_le_mul_left _ (Nat.pow_le_pow_right (by norm_num) hk')) hj
    have hsec : secs p.mor.MorDt = ((m * 2 ^ k' : ℕ) : ℤ) := by rw [hdt']; exact secs_sec hlt
    have hxs : s'.rows.map (·.x) = ld.rows.map (·.x) := by
      rw [ha.rows, C72_positions hc.mor]; exact hx
    have hlen : s.rows.length = ld.rows.length := by simpa using congrArg List.length hx
    obtain ⟨rw', yw, hrw, hw⟩ := hwide _ hlast
    have hrw : s.rows[i]? = some rw' := hrw
    rw [hr1] at hrw
    cases hrw
    have hyw : yw = retreated e.pp.ShorelineErosionRate y (((s.time - e.tp.StartTime : ℤ) : K) / 1000000000) := by
      have := hw.1
      rw [hy1] at this
      exact (Fl.fin.inj this).symm
    obtain ⟨r', hr', e'⟩ := C144_partial e.pp _ _ _ _ hc.mor hB (by
        show s.rows.Pairwise (fun r s => r.x < s.x)
        have : (s.rows.map (·.x)).Pairwise (· < ·) := by rw [hx, List.pairwise_map]; exact hs
        rw [List.pairwise_map] at this
        exact this) (by show 3 ≤ s.rows.length; omega) (hreg _ hlast) (by
        refine le_trans (mul_le_mul_of_nonneg_left ?_ (abs_nonneg _)) hE
        rw [hsec]
        have : ((m * 2 ^ k' : ℕ) : K) ≤ ((86400 : ℕ) : K) := Nat.cast_le.mpr hlt.le
        exact_mod_cast this) (hopen _ hlast) i (by show i = 0 ∨ i + 1 = s.rows.length; omega) r1 hr1 yw hw
    refine ⟨⟨k', hk', by rw [ha.dt, hstep, hdt']⟩, hxs, r', by rw [ha.rows]; exact hr', e'.trans ?_⟩
    rw [hyw, ha.time, hstep, hsec, hdt']
    unfold retreated Verif.Model.sec
    congr 1
    push_cast
    field_simp
    ring

/-- The sample parameters with the coast retreating by 50 m in a year. -/
def enPP : PhysPars ℚ := { moPP with ShorelineErosionRate := 50 }

/-- Concrete cases: the samples with an open outlet and with a closed lagoon meet the hypotheses at both ends. -/
example : WideBarrier brIn.MaxMorChange (brRow (-40)) 100 ∧ WideBarrier brIn.MaxMorChange (brRow 40) 100 := by
  constructor <;> exact ⟨rfl, rfl, rfl, 20, 0, rfl, rfl, by norm_num [brIn, moIn], by norm_num [brIn, moIn]⟩
example : brIn.rows[0]? = some (brRow (-40)) ∧ brIn.rows[8]? = some (brRow 40) ∧ 8 + 1 = brIn.rows.length := by decide +kernel
example : (brIn.rows.Pairwise (fun r s => r.x < s.x)) ∧ brIn.EndX1 = fin 24 ∧ ∃ r ∈ brIn.rows[1]?, r.x ≤ 24 := by decide +kernel
example : okAnd (updateMorphology enPP cleanMem cleanMem brIn) (fun o => decide (|enPP.ShorelineErosionRate| * (secs o.MorDt : ℚ) ≤ 31557600 * brIn.MaxMorChange) &&
    (match o.rows[0]?, o.rows[8]? with
      | some r, some q => r.y0 == fin (retreated 50 100 (secs o.MorDt : ℚ)) && q.y0 == r.y0 && !(r.y0 == fin 100)
      | _, _ => false)) = true := by decide +kernel
example : Regular enPP brIn := by decide +kernel

/-- The sample run with a retreating coast. -/
def enEnv : Env ℚ := { coEnv with pp := enPP }

/-- Concrete case for runs: after the first pass, at 120 s, the coast has retreated as configured. -/
example : okAnd (initial enEnv coLoad) (fun s0 => okAnd (trace enEnv s0 1) (fun x => decide (x.2.time = 120 * sec) &&
    (match x.2.rows[0]? with | some r => r.y0 == fin (retreated 50 100 120) | none => false))) = true := by decide +kernel
example : okAnd (initial enEnv coLoad) (fun s0 => okAnd (trace enEnv s0 1) (fun x => x.1.all (fun y => decide (Regular enEnv.pp (stepIn enEnv y))))) = true := by
  decide +kernel
example : enEnv.tp.MorDtMin = Verif.Model.sec 30 ∧ enEnv.tp.MorDtMax = Verif.Model.sec (30 * 2 ^ 2) ∧ enEnv.tp.EndTime = 150 * sec ∧
    |enEnv.pp.ShorelineErosionRate| * 86400 ≤ 31557600 * enEnv.MaxMorChange := by decide +kernel

/-- C144 is false of the code at the end of a run: the last step is cut off at EndTime after the morphology was changed for
the whole step.  In the sample run of 150 s the coast has retreated as far as in 240 s. -/
theorem C144_refuted : ∃ (s0 : CoreSt ℚ) (tr : List (CoreSt ℚ × PassOut ℚ × CoreSt ℚ)) (s : CoreSt ℚ) (r : Transect ℚ),
    initial enEnv coLoad = .ok s0 ∧ Run enEnv s0 tr s ∧ enEnv.tp.StartTime = 0 ∧ s.time = 150 * sec ∧ s.rows[0]? = some r ∧
    r.y0 = fin (retreated 50 100 240) ∧ r.y0 ≠ fin (retreated 50 100 150) := by
  have h : okAnd (initial enEnv coLoad) (fun s0 => okAnd (trace enEnv s0 2) (fun x => decide (x.2.time = 150 * sec) &&
      (match x.2.rows[0]? with | some r => r.y0 == fin (retreated 50 100 240) | none => false))) = true := by decide +kernel
  obtain ⟨s0, h0, h⟩ := okAnd_iff.mp h
  obtain ⟨⟨tr, s⟩, h1, h⟩ := okAnd_iff.mp h
  simp only [Bool.and_eq_true, decide_eq_true_eq] at h
  obtain ⟨h2, h⟩ := h
  split at h
  · next r hr =>
    have h := eq_of_beq h
    exact ⟨s0, tr, s, r, h0, (trace_run h1).1, rfl, h2, hr, h, by rw [h]; decide +kernel⟩
  · cases h

/-- And false of steps of a day or more, whose whole days are ignored: under the hypotheses of `C144_partial` a completed
step of any number of whole days does not move the ends of the coast at all. -/
theorem C144_refuted_days (pp : PhysPars K) (j1 j2 : ℕ → Bool) (a : MorIn K) (o : MorOut K) (h : updateMorphology pp j1 j2 a = .ok o)
    (hB : 0 ≤ a.MaxMorChange) (hs : a.rows.Pairwise (fun r s => r.x < s.x)) (hn : 3 ≤ a.rows.length)
    (hreg : Regular pp a)
    (days : ℤ) (hdays : o.MorDt = days * (86400 * 1000000000))
    (hopen : a.Closed = false → ∃ e r, a.EndX1 = fin e ∧ a.rows[1]? = some r ∧ r.x ≤ e)
    (i : ℕ) (hi : i = 0 ∨ i + 1 = a.rows.length) (r : Transect K) (hr : a.rows[i]? = some r) (y : K) (hw : WideBarrier a.MaxMorChange r y) :
    ∃ r', o.rows[i]? = some r' ∧ r'.y0 = r.y0 := by
  have h0 : secs o.MorDt = 0 := by unfold secs; omega
  obtain ⟨r', h1, h2⟩ := C144_partial pp j1 j2 a o h hB hs hn hreg (by rw [h0]; simp; linarith) hopen i hi r hr y hw
  refine ⟨r', h1, ?_⟩
  rw [h2, h0, hw.1]
  unfold retreated
  simp

/-- Such a step completes. -/
example : okAnd (updateMorphology enPP cleanMem cleanMem { brIn with MorDt := 86400 * sec, MorDtMin := 86400 * sec, MorDtMax := 86400 * sec })
    (fun o => decide (o.MorDt = 86400 * sec) && decide (o.rows[0]? = some (brRow (-40)))) = true := by decide +kernel

/-- The sample with a first transect whose barrier is narrower than the retreat in a step. -/
def enNarrow : MorIn ℚ := { brIn with rows := brIn.rows.set 0 { brRow (-40) with y3 := fin (100 - 1/10000), y4 := fin (100 - 1/10000) } }

/-- And false where the barrier at the end is narrow: pushed against the cliff it stays seaward of where the rate
would put it. -/
theorem C144_refuted_narrow : ∃ o r, updateMorphology enPP cleanMem cleanMem enNarrow = .ok o ∧ o.MorDt = 240 * sec ∧ o.rows[0]? = some r ∧
    (fin (retreated 50 100 240) <? r.y0) = true := by
  have : okAnd (updateMorphology enPP cleanMem cleanMem enNarrow) (fun o => decide (o.MorDt = 240 * sec) &&
      (match o.rows[0]? with | some r => fin (retreated 50 100 240) <? r.y0 | none => false)) = true := by decide +kernel
  obtain ⟨o, ho, h⟩ := okAnd_iff.mp this
  simp only [Bool.and_eq_true, decide_eq_true_eq] at h
  obtain ⟨h1, h⟩ := h
  split at h
  · next r hr => exact ⟨o, r, ho, h1, hr, h⟩
  · cases h

end Verif.Props
