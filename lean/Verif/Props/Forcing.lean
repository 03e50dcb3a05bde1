import Verif.Props.Runs
import Verif.Props.Series

set_option autoImplicit false
set_option linter.unusedSectionVars false

/-! # C128: the forcing in a record is that of its time -/

namespace Verif.Props
open Verif Verif.Model Verif.Spec Fl

variable {K : Type} [Field K] [LinearOrder K] [IsStrictOrderedRing K] [FloorRing K]

/-- All numbers of a forcing series, in order of time: `ts`. -/
def Gives (s : Series K) (ts : List (ℤ × K)) : Prop := s = finSeries ts ∧ Increasing ts

/-- What an output record and a time series record have in common. -/
structure Forced (K : Type) where
  time : ℤ
  flow : Fl K
  sea : Fl K
  height : Fl K
  dir : Fl K

def ofSnap (r : Snapshot K) : Forced K := ⟨r.time, r.RivFlow, r.SeaLevel, r.Hs_offshore, r.EDir_h⟩
def ofTs (r : TsRec K) : Forced K := ⟨r.time, r.RivFlow, r.SeaLevel, r.Hs_offshore, r.EDir_h⟩

/-- `f` holds the river flow and the sea level at time `t` and the waves at time `u`. -/
def HoldsAt (e : Env K) (f : Forced K) (t u : ℤ) : Prop :=
  (∀ ts, Gives e.flow ts → ∃ v, f.flow = fin v ∧ LinearAt ts t v) ∧
  (∀ ts, Gives e.sea ts → ∃ v, f.sea = fin v ∧ LinearAt ts t v) ∧
  (∀ ts, Gives (waveCol e.waves (·.Hsig_Offshore)) ts → ∃ v, f.height = fin v ∧ LinearAt ts u v) ∧
  (∀ ts, Gives (waveCol e.waves (·.EDir_h)) ts → ∃ v, f.dir = fin v ∧ LinearAt ts u v)

theorem interp_inside {ts : List (ℤ × K)} {req : List ℤ} (hr : req.Pairwise (· ≤ ·)) {out : List (Fl K)}
    (h : interpolateAt (finSeries ts) req = .ok out) : req ≠ [] ∧ ∀ t ∈ req, Inside ts t := by
  have hn : ¬ (req = [] ∨ (∃ t ∈ req, ∀ a ∈ finSeries ts, t < a.1) ∨ (∃ t ∈ req, ∀ a ∈ finSeries ts, a.1 < t)) := by
    intro hc
    rw [C53_outside _ hr hc] at h
    cases h
  push Not at hn
  obtain ⟨h0, h1, h2⟩ := hn
  refine ⟨h0, fun t ht => ⟨?_, ?_⟩⟩
  · obtain ⟨a, ha, hl⟩ := h1 t ht
    obtain ⟨v, hv, _⟩ := mem_finSeries.mp ha
    exact ⟨_, hv, hl⟩
  · obtain ⟨a, ha, hl⟩ := h2 t ht
    obtain ⟨v, hv, _⟩ := mem_finSeries.mp ha
    exact ⟨_, hv, hl⟩

/-- The value for the last requested time. -/
theorem interp_last {s : Series K} {ts : List (ℤ × K)} (hg : Gives s ts) {req : List ℤ} (hr : req.Pairwise (· ≤ ·)) {out : List (Fl K)}
    (h : interpolateAt s req = .ok out) {t : ℤ} (ht : req.getLast? = some t) {q : Fl K} (hq : out.getLast? = some q) :
    ∃ v, q = fin v ∧ LinearAt ts t v := by
  obtain ⟨rfl, hi⟩ := hg
  obtain ⟨h0, h1⟩ := interp_inside hr h
  obtain ⟨vs, hv, hF⟩ := C52_linear hi h0 hr h1
  rw [hv] at h
  cases h
  rw [List.getLast?_eq_getElem?] at ht hq
  rw [List.getElem?_map, List.length_map] at hq
  obtain ⟨v, hv', rfl⟩ := Option.map_eq_some_iff.mp hq
  refine ⟨v, rfl, ?_⟩
  obtain ⟨l1, rfl⟩ := List.getElem?_eq_some_iff.mp ht
  obtain ⟨l2, e2⟩ := List.getElem?_eq_some_iff.mp hv'
  have := hF.get l1 (hF.length_eq ▸ l1)
  rw [← e2]
  simp only [List.get_eq_getElem] at this
  convert this using 2
  rw [hF.length_eq]

/-- The value for a single time. -/
theorem interp_one {s : Series K} {ts : List (ℤ × K)} (hg : Gives s ts) {t : ℤ} {q : Fl K}
    (h : (do let x ← interpolateAt s [t]; ixGet x 0) = .ok q) : ∃ v, q = fin v ∧ LinearAt ts t v := by
  rw [bind_ok] at h
  obtain ⟨out, h1, h2⟩ := h
  obtain ⟨h0, hin⟩ := interp_inside (by simp) (hg.1 ▸ h1)
  obtain ⟨vs, hv, hF⟩ := C52_linear hg.2 h0 (by simp) hin
  rw [hg.1, hv] at h1
  cases h1
  cases hF with
  | cons hv' ht =>
    cases ht
    rw [ixGet_ok] at h2
    simp only [List.map_cons, List.getElem?_cons_zero, Option.some.injEq] at h2
    exact ⟨_, h2.symm, hv'⟩

theorem waves_inv {ws : List (ℤ × Wave K)} {t : ℤ} {w : Wave K} (h : wavesAt ws t = .ok w) :
    (do let x ← interpolateAt (waveCol ws (·.Hsig_Offshore)) [t]; ixGet x 0) = .ok w.Hsig_Offshore ∧
    (do let x ← interpolateAt (waveCol ws (·.EDir_h)) [t]; ixGet x 0) = .ok w.EDir_h := by
  unfold wavesAt at h
  simp only [bind_ok, pure_ok] at h
  obtain ⟨a1, h1, b1, g1, a2, h2, b2, g2, a3, h3, b3, g3, a4, h4, b4, g4, a5, h5, b5, g5, rfl⟩ := h
  exact ⟨bind_ok.mpr ⟨_, h5, g5⟩, bind_ok.mpr ⟨_, h1, g1⟩⟩

/-- C128 at the start: both initial records hold the forcing at StartTime. -/
theorem C128_start {e : Env K} {ld : LoadOut K} {s0 : CoreSt K} (h : initial e ld = .ok s0) :
    (∀ r ∈ s0.outs, r.time = e.tp.StartTime ∧ HoldsAt e (ofSnap r) r.time r.time) ∧
    (∀ r ∈ s0.ts, r.time = e.tp.StartTime ∧ HoldsAt e (ofTs r) r.time r.time) := by
  unfold initial at h
  simp only [bind_ok, pure_ok] at h
  obtain ⟨fl, hfl, sl, hsl, w, hw, c, _, q, hq, sq, hsq, ⟨dep, vel⟩, _, hyd, _, d, _, v, _, cw, _, rfl⟩ := h
  obtain ⟨w1, w2⟩ := waves_inv hw
  have hh : ∀ f : Forced K, f.flow = q → f.sea = sq → f.height = w.Hsig_Offshore → f.dir = w.EDir_h →
      HoldsAt e f e.tp.StartTime e.tp.StartTime := by
    intro f e1 e2 e3 e4
    refine ⟨fun ts hg => ?_, fun ts hg => ?_, fun ts hg => ?_, fun ts hg => ?_⟩
    · rw [e1]; exact interp_one hg (bind_ok.mpr ⟨_, hfl, hq⟩)
    · rw [e2]; exact interp_one hg (bind_ok.mpr ⟨_, hsl, hsq⟩)
    · rw [e3]; exact interp_one hg w1
    · rw [e4]; exact interp_one hg w2
  refine ⟨fun r hr => ?_, fun r hr => ?_⟩ <;> rw [List.mem_singleton] at hr <;> subst hr <;>
    exact ⟨rfl, hh _ rfl rfl rfl rfl⟩

theorem window_last {e : Env K} {s s' : CoreSt K} {p : PassOut K} (hd : 0 ≤ s.dt) (hh : 0 < e.tp.HydDt) (h : pass e s = .ok (p, s')) :
    p.window.getLast? = some (s.time + (s.dt - s.dt % e.tp.HydDt)) ∧ p.window.Pairwise (· ≤ ·) := by
  obtain ⟨h1, h2⟩ := window_length hd hh h
  have hne := pass_empty h
  constructor
  · have hpos : 0 < p.window.length := List.length_pos_iff.mpr hne
    rw [List.getLast?_eq_getElem?, List.getElem?_eq_getElem (by omega)]
    congr 1
    rw [h2 _ _ (List.getElem?_eq_getElem (by omega)), Int.emod_def]
    have : ((p.window.length - 1 : ℕ) : ℤ) + 1 = s.dt / e.tp.HydDt := by omega
    rw [this]
    ring
  · rw [List.pairwise_iff_getElem]
    intro i j hi hj hij
    rw [h2 _ _ (List.getElem?_eq_getElem hi), h2 _ _ (List.getElem?_eq_getElem hj)]
    have : (i : ℤ) + 1 ≤ j + 1 := by omega
    nlinarith

/-- What a pass puts in its records. -/
theorem forced_pass {e : Env K} {s s' : CoreSt K} {p : PassOut K} (hd : 0 ≤ s.dt) (hh : 0 < e.tp.HydDt) (h : pass e s = .ok (p, s'))
    (f : Forced K) (e1 : f.flow = p.flow) (e2 : f.sea = p.sea) (e3 : f.height = p.wave.Hsig_Offshore) (e4 : f.dir = p.wave.EDir_h) :
    HoldsAt e f (s.time + (s.dt - s.dt % e.tp.HydDt)) s.time := by
  obtain ⟨⟨fl, sl, hc⟩, _⟩ := pass_inv h
  obtain ⟨w1, w2⟩ := waves_inv hc.wave
  obtain ⟨hl, hp⟩ := window_last hd hh h
  refine ⟨fun ts hg => ?_, fun ts hg => ?_, fun ts hg => ?_, fun ts hg => ?_⟩
  · rw [e1]; exact interp_last hg hp hc.flow hl hc.flowLast
  · rw [e2]; exact interp_last hg hp hc.sea hl hc.seaLast
  · rw [e3]; exact interp_one hg w1
  · rw [e4]; exact interp_one hg w2

/-- C128, partial: a record written in a pass holds the river flow and the sea level at the time at which the hydraulics of the pass
ended (the step planned before the pass, rounded down to whole hydraulic steps), and the waves at the time at which the pass began.
(Missing: that those times are that of the record.) -/
theorem C128_partial {e : Env K} {s s' : CoreSt K} {p : PassOut K} (hd : 0 ≤ s.dt) (hh : 0 < e.tp.HydDt) (h : pass e s = .ok (p, s')) :
    (∀ r, s'.outs = s.outs ++ [r] → r.time = s'.time ∧ HoldsAt e (ofSnap r) (s.time + (s.dt - s.dt % e.tp.HydDt)) s.time) ∧
    (∀ r, s'.ts = s.ts ++ [r] → r.time = s'.time ∧ HoldsAt e (ofTs r) (s.time + (s.dt - s.dt % e.tp.HydDt)) s.time) := by
  have a := (pass_inv h).2
  constructor
  · intro r hr
    rcases a.outs with ⟨_, h2, _⟩ | ⟨_, _, bl, h2, _⟩
    · rw [h2] at hr
      have := congrArg List.length hr
      simp at this
    · rw [h2] at hr
      have hr' : snapshot s p s'.time bl = r := by simpa using hr
      subst hr'
      exact ⟨rfl, forced_pass hd hh h _ rfl rfl rfl rfl⟩
  · intro r hr
    rcases a.ts with ⟨_, h2, _⟩ | ⟨_, _, r', h2, h3⟩
    · rw [h2] at hr
      have := congrArg List.length hr
      simp at this
    · rw [h2] at hr
      have hr' : r' = r := by simpa using hr
      subst hr'
      unfold tsRecord at h3
      simp only [bind_ok, pure_ok] at h3
      obtain ⟨_, _, _, _, _, _, _, _, rfl⟩ := h3
      exact ⟨rfl, forced_pass hd hh h _ rfl rfl rfl rfl⟩

/-- C128, partial, for steps that stay the same: if the step is a whole number of hydraulic steps, is kept by the pass and does not
reach beyond EndTime, river flow and sea level in the records are those at their time. -/
theorem C128_kept_partial {e : Env K} {s s' : CoreSt K} {p : PassOut K} (hd : 0 ≤ s.dt) (hh : 0 < e.tp.HydDt) (h : pass e s = .ok (p, s'))
    (hdvd : e.tp.HydDt ∣ s.dt) (hm : p.mor.MorDt = s.dt) (hend : s.time + s.dt ≤ e.tp.EndTime) :
    (∀ r, s'.outs = s.outs ++ [r] → HoldsAt e (ofSnap r) r.time s.time) ∧ (∀ r, s'.ts = s.ts ++ [r] → HoldsAt e (ofTs r) r.time s.time) := by
  have ht : s.time + (s.dt - s.dt % e.tp.HydDt) = s'.time := by
    rw [(pass_inv h).2.time, Int.emod_eq_zero_of_dvd hdvd, sub_zero]
    unfold stepOf
    rw [if_neg (by omega), hm]
  obtain ⟨a, b⟩ := C128_partial hd hh h
  refine ⟨fun r hr => ?_, fun r hr => ?_⟩
  · obtain ⟨h1, h2⟩ := a r hr
    rw [h1, ← ht]; exact h2
  · obtain ⟨h1, h2⟩ := b r hr
    rw [h1, ← ht]; exact h2

theorem linear_line {ts : List (ℤ × K)} {a b : K} (hl : ∀ x ∈ ts, x.2 = a + b * x.1) {t : ℤ} {v : K} (h : LinearAt ts t v) : v = a + b * t := by
  rcases h with h | ⟨i, t1, t2, v1, v2, h1, h2, l1, l2, hv⟩
  · exact hl _ h
  · have e1 := hl _ (List.mem_of_getElem? h1)
    have e2 := hl _ (List.mem_of_getElem? h2)
    simp only at e1 e2
    rw [e1, e2] at hv
    have hne : (t2 : K) - t1 ≠ 0 := by
      have : (t1 : K) < t2 := by exact_mod_cast l1.trans l2
      exact ne_of_gt (by linarith)
    have : (v - (a + b * t)) * ((t2 : K) - t1) = 0 := by linear_combination hv
    rcases mul_eq_zero.mp this with h | h
    · linarith
    · exact absurd h hne

/-- C128 refuted, in general: while the wave height rises or falls steadily, no record written by a pass that advances the clock has
the wave height of its time. -/
theorem C128_refuted_general {e : Env K} {s s' : CoreSt K} {p : PassOut K} (hd : 0 ≤ s.dt) (hh : 0 < e.tp.HydDt) (h : pass e s = .ok (p, s'))
    (hadv : s.time < s'.time) {ts : List (ℤ × K)} (hg : Gives (waveCol e.waves (·.Hsig_Offshore)) ts) {a b : K} (hb : b ≠ 0)
    (hl : ∀ x ∈ ts, x.2 = a + b * x.1) :
    (∀ r, s'.outs = s.outs ++ [r] → ∀ v, LinearAt ts r.time v → r.Hs_offshore ≠ fin v) ∧
    (∀ r, s'.ts = s.ts ++ [r] → ∀ v, LinearAt ts r.time v → r.Hs_offshore ≠ fin v) := by
  have key : ∀ (f : Forced K), f.time = s'.time → HoldsAt e f (s.time + (s.dt - s.dt % e.tp.HydDt)) s.time →
      ∀ v, LinearAt ts f.time v → f.height ≠ fin v := by
    intro f ht hf v hv he
    obtain ⟨w, hw, lw⟩ := hf.2.2.1 ts hg
    rw [he] at hw
    cases hw
    have e1 := linear_line hl lw
    have e2 := linear_line hl hv
    rw [e1, ht] at e2
    have : b * ((s'.time : K) - s.time) = 0 := by linear_combination -e2
    have hlt : (s.time : K) < s'.time := by exact_mod_cast hadv
    rcases mul_eq_zero.mp this with h | h
    · exact hb h
    · linarith
  obtain ⟨c, d⟩ := C128_partial hd hh h
  exact ⟨fun r hr => key (ofSnap r) (c r hr).1 (c r hr).2, fun r hr => key (ofTs r) (d r hr).1 (d r hr).2⟩

/-- The rising river of C97 with rising waves. -/
def coStorm : Env ℚ :=
  { coRise with waves := [(0, coWave), (1000 * sec, ⟨fin 0, fin 0, fin 0, fin 0, fin 10⟩)] }

/-- C128 refuted: the first record written after the start, for 120 s, has the river flow of 30 s and the wave height of 0 s. -/
theorem C128_refuted : ∃ (s0 s1 : CoreSt ℚ) (p : PassOut ℚ) (r : Snapshot ℚ) (tf th : List (ℤ × ℚ)), initial coStorm coLoad = .ok s0 ∧
    pass coStorm s0 = .ok (p, s1) ∧ s1.outs = s0.outs ++ [r] ∧ Gives coStorm.flow tf ∧ Gives (waveCol coStorm.waves (·.Hsig_Offshore)) th ∧
    r.time = 120 * sec ∧ r.RivFlow = fin 80 ∧ LinearAt tf r.time 170 ∧ r.Hs_offshore = fin 0 ∧ LinearAt th r.time (6/5) := by
  have h : okAnd (initial coStorm coLoad) (fun s0 => okAnd (pass coStorm s0) (fun x =>
      decide (x.1.flow = fin 80 ∧ x.1.wave.Hsig_Offshore = fin 0 ∧ x.2.time = 120 * sec ∧ s0.outTime ≤ x.2.time))) = true := by
    decide +kernel
  obtain ⟨s0, h0, h⟩ := okAnd_iff.mp h
  obtain ⟨⟨p, s1⟩, h1, h⟩ := okAnd_iff.mp h
  obtain ⟨a, b, c, d⟩ := of_decide_eq_true h
  simp only at a b c d
  rcases (pass_inv h1).2.outs with ⟨h2, _⟩ | ⟨_, _, bl, h2, _⟩
  · omega
  · have ht : (snapshot s0 p s1.time bl).time = 120 * sec := c
    refine ⟨s0, s1, p, _, [(0, 50), (2000 * sec, 2050)], [(0, 0), (1000 * sec, 10)], h0, h1, h2, ⟨rfl, by simp [Increasing, sec]⟩,
      ⟨rfl, by simp [Increasing, sec]⟩, c, a, ?_, b, ?_⟩
    · rw [ht]
      exact .inr ⟨0, 0, 2000 * sec, 50, 2050, rfl, rfl, by norm_num [sec], by norm_num [sec], by norm_num [sec]⟩
    · rw [ht]
      exact .inr ⟨0, 0, 1000 * sec, 0, 10, rfl, rfl, by norm_num [sec], by norm_num [sec], by norm_num [sec]⟩

/-- The hypotheses of the general theorems are met by that run. -/
example : ∃ (s0 s1 : CoreSt ℚ) (p : PassOut ℚ), pass coStorm s0 = .ok (p, s1) ∧ 0 ≤ s0.dt ∧ 0 < coStorm.tp.HydDt ∧ s0.time < s1.time ∧
    ∃ ts, Gives (waveCol coStorm.waves (·.Hsig_Offshore)) ts ∧ ∀ x ∈ ts, x.2 = 0 + (1 / (100 * sec) : ℚ) * x.1 := by
  have h : okAnd (initial coStorm coLoad) (fun s0 => okAnd (pass coStorm s0) (fun x => decide (0 ≤ s0.dt ∧ s0.time < x.2.time))) = true := by
    decide +kernel
  obtain ⟨s0, h0, h⟩ := okAnd_iff.mp h
  obtain ⟨⟨p, s1⟩, h1, h⟩ := okAnd_iff.mp h
  obtain ⟨a, b⟩ := of_decide_eq_true h
  refine ⟨s0, s1, p, h1, a, by decide, b, [(0, 0), (1000 * sec, 10)], ⟨rfl, by simp [Increasing, sec]⟩, ?_⟩
  intro x hx
  simp only [List.mem_cons, List.not_mem_nil, or_false] at hx
  rcases hx with rfl | rfl <;> norm_num [sec]

/-- A step that is kept (C128_kept_partial): with MorDtMax = MorDtMin. -/
example : ∃ (s0 s1 : CoreSt ℚ) (p : PassOut ℚ), pass { coStorm with tp := { coStorm.tp with MorDtMax := 30 * sec } } s0 = .ok (p, s1) ∧ 0 ≤ s0.dt ∧
    (10 * sec) ∣ s0.dt ∧ p.mor.MorDt = s0.dt ∧ s0.time + s0.dt ≤ coStorm.tp.EndTime ∧ s1.ts.length = 2 := by
  have h : okAnd (initial { coStorm with tp := { coStorm.tp with MorDtMax := 30 * sec } } coLoad) (fun s0 =>
      okAnd (pass { coStorm with tp := { coStorm.tp with MorDtMax := 30 * sec } } s0) (fun x =>
        decide (0 ≤ s0.dt ∧ (10 * sec) ∣ s0.dt ∧ x.1.mor.MorDt = s0.dt ∧ s0.time + s0.dt ≤ coStorm.tp.EndTime ∧ x.2.ts.length = 2))) = true := by
    decide +kernel
  obtain ⟨s0, h0, h⟩ := okAnd_iff.mp h
  obtain ⟨⟨p, s1⟩, h1, h⟩ := okAnd_iff.mp h
  obtain ⟨a, b, c, d, f⟩ := of_decide_eq_true h
  exact ⟨s0, s1, p, h1, a, b, c, d, f⟩

end Verif.Props
