import Verif.Props.Forcing
import Verif.Spec.Range

set_option autoImplicit false
set_option linter.unusedSectionVars false

/-! # C199: the forcing stays within the range of the data -/

namespace Verif.Props
open Verif Verif.Model Verif.Spec Fl

variable {K : Type} [Field K] [LinearOrder K] [IsStrictOrderedRing K] [FloorRing K]

/-- A value on the straight line between records is between them. -/
theorem linear_within {ts : List (ℤ × K)} {lo hi : K} (hb : GivenWithin lo hi ts) {t : ℤ} {v : K} (h : LinearAt ts t v) : lo ≤ v ∧ v ≤ hi := by
  rcases h with h | ⟨i, t1, t2, v1, v2, h1, h2, h3, h4, h5⟩
  · exact hb _ h
  · obtain ⟨a1, a2⟩ := hb _ (List.mem_of_getElem? h1)
    obtain ⟨b1, b2⟩ := hb _ (List.mem_of_getElem? h2)
    simp only at a1 a2 b1 b2
    have c1 : (0 : K) < (t : K) - t1 := by rw [sub_pos]; exact_mod_cast h3
    have c2 : (0 : K) < (t2 : K) - t := by rw [sub_pos]; exact_mod_cast h4
    have c3 : (0 : K) < (t2 : K) - t1 := by linarith
    constructor
    · by_contra hc
      push Not at hc
      have k1 := mul_nonneg (sub_nonneg.mpr a1) c2.le
      have k2 := mul_nonneg (sub_nonneg.mpr b1) c1.le
      have k3 := mul_pos (sub_pos.mpr hc) c3
      nlinarith
    · by_contra hc
      push Not at hc
      have k1 := mul_nonneg (sub_nonneg.mpr a2) c2.le
      have k2 := mul_nonneg (sub_nonneg.mpr b2) c1.le
      have k3 := mul_pos (sub_pos.mpr hc) c3
      nlinarith

/-- Every value that is interpolated for a request in order of time. -/
theorem interp_within {s : Series K} {ts : List (ℤ × K)} (hg : Gives s ts) {lo hi : K} (hb : GivenWithin lo hi ts) {req : List ℤ} (hr : req.Pairwise (· ≤ ·))
    {out : List (Fl K)} (h : interpolateAt s req = .ok out) : ∀ v ∈ out, Within2 lo hi v := by
  obtain ⟨rfl, hi'⟩ := hg
  obtain ⟨h0, h1⟩ := interp_inside hr h
  obtain ⟨vs, hv, hF⟩ := C52_linear hi' h0 hr h1
  rw [hv] at h
  cases h
  intro v hv
  obtain ⟨x, hx, rfl⟩ := List.mem_map.mp hv
  obtain ⟨k, hk, rfl⟩ := List.mem_iff_getElem.mp hx
  have := hF.get (hF.length_eq ▸ hk) hk
  exact ⟨_, rfl, linear_within hb this⟩

/-- The data of a simulation and their ranges. -/
structure Ranges (e : Env K) (q0 q1 z0 z1 h0 h1 d0 d1 : K) (fl se hs ds : List (ℤ × K)) : Prop where
  flow : Gives e.flow fl
  sea : Gives e.sea se
  height : Gives (waveCol e.waves (·.Hsig_Offshore)) hs
  dir : Gives (waveCol e.waves (·.EDir_h)) ds
  flowIn : GivenWithin q0 q1 fl
  seaIn : GivenWithin z0 z1 se
  heightIn : GivenWithin h0 h1 hs
  dirIn : GivenWithin d0 d1 ds

theorem holds_within {e : Env K} {q0 q1 z0 z1 h0 h1 d0 d1 : K} {fl se hs ds : List (ℤ × K)} (R : Ranges e q0 q1 z0 z1 h0 h1 d0 d1 fl se hs ds)
    {f : Forced K} {t u : ℤ} (h : HoldsAt e f t u) : Within2 q0 q1 f.flow ∧ Within2 z0 z1 f.sea ∧ Within2 h0 h1 f.height ∧ Within2 d0 d1 f.dir := by
  obtain ⟨a, b, c, d⟩ := h
  obtain ⟨v1, e1, l1⟩ := a _ R.flow
  obtain ⟨v2, e2, l2⟩ := b _ R.sea
  obtain ⟨v3, e3, l3⟩ := c _ R.height
  obtain ⟨v4, e4, l4⟩ := d _ R.dir
  exact ⟨⟨v1, e1, linear_within R.flowIn l1⟩, ⟨v2, e2, linear_within R.seaIn l2⟩, ⟨v3, e3, linear_within R.heightIn l3⟩, ⟨v4, e4, linear_within R.dirIn l4⟩⟩

/-- C199 for the records: in every record of a run, in both files, flow, sea level, wave height and wave direction are numbers within the ranges of the given data. -/
theorem C199_records {e : Env K} {ld : LoadOut K} {s0 s : CoreSt K} {tr : List (CoreSt K × PassOut K × CoreSt K)} (hse : e.tp.StartTime ≤ e.tp.EndTime)
    (hmin : 0 ≤ e.tp.MorDtMin) (hh : 0 < e.tp.HydDt) (hi : initial e ld = .ok s0) (h : Run e s0 tr s)
    {q0 q1 z0 z1 h0 h1 d0 d1 : K} {fl se hs ds : List (ℤ × K)} (R : Ranges e q0 q1 z0 z1 h0 h1 d0 d1 fl se hs ds) :
    (∀ r ∈ s.outs, Within2 q0 q1 r.RivFlow ∧ Within2 z0 z1 r.SeaLevel ∧ Within2 h0 h1 r.Hs_offshore ∧ Within2 d0 d1 r.EDir_h) ∧
    (∀ r ∈ s.ts, Within2 q0 q1 r.RivFlow ∧ Within2 z0 z1 r.SeaLevel ∧ Within2 h0 h1 r.Hs_offshore ∧ Within2 d0 d1 r.EDir_h) := by
  suffices (∀ r ∈ s.outs, ∃ t u, HoldsAt e (ofSnap r) t u) ∧ (∀ r ∈ s.ts, ∃ t u, HoldsAt e (ofTs r) t u) by
    refine ⟨fun r hr => ?_, fun r hr => ?_⟩
    · obtain ⟨t, u, k⟩ := this.1 r hr
      exact holds_within R k
    · obtain ⟨t, u, k⟩ := this.2 r hr
      exact holds_within R k
  have hi0 := TimeInv.initial hi hse hmin
  induction h with
  | start =>
    obtain ⟨a, b⟩ := C128_start hi
    exact ⟨fun r hr => ⟨_, _, (a r hr).2⟩, fun r hr => ⟨_, _, (b r hr).2⟩⟩
  | @pass tr s s' p hr _ hp ih =>
    have hd := (hr.timeInv hi0).dt
    obtain ⟨a, b⟩ := C128_partial hd hh hp
    obtain ⟨_, ha⟩ := pass_inv hp
    refine ⟨fun r hm => ?_, fun r hm => ?_⟩
    · rcases ha.outs with ⟨_, e1, _⟩ | ⟨_, _, bl, e1, _⟩
      · exact ih.1 r (e1 ▸ hm)
      · rw [e1] at hm
        rcases List.mem_append.mp hm with hm | hm
        · exact ih.1 r hm
        · rw [List.mem_singleton] at hm
          subst hm
          exact ⟨_, _, (a _ e1).2⟩
    · rcases ha.ts with ⟨_, e1, _⟩ | ⟨_, _, r', e1, _⟩
      · exact ih.2 r (e1 ▸ hm)
      · rw [e1] at hm
        rcases List.mem_append.mp hm with hm | hm
        · exact ih.2 r hm
        · rw [List.mem_singleton] at hm
          subst hm
          exact ⟨_, _, (b _ e1).2⟩

/-- C199 for the computation: in every pass of a run all flows and sea levels for which the flow is computed, and the waves, are within the ranges of the given
data. -/
theorem C199_passes {e : Env K} {ld : LoadOut K} {s0 s : CoreSt K} {tr : List (CoreSt K × PassOut K × CoreSt K)} (hse : e.tp.StartTime ≤ e.tp.EndTime)
    (hmin : 0 ≤ e.tp.MorDtMin) (hh : 0 < e.tp.HydDt) (hi : initial e ld = .ok s0) (h : Run e s0 tr s)
    {q0 q1 z0 z1 h0 h1 d0 d1 : K} {fl se hs ds : List (ℤ × K)} (R : Ranges e q0 q1 z0 z1 h0 h1 d0 d1 fl se hs ds) :
    ∀ x ∈ tr, (∃ qs zs, interpolateAt e.flow x.2.1.window = .ok qs ∧ interpolateAt e.sea x.2.1.window = .ok zs ∧
        hydraulics e x.2.1.chan qs zs = .ok (x.2.1.dep, x.2.1.vel) ∧ (∀ q ∈ qs, Within2 q0 q1 q) ∧ ∀ z ∈ zs, Within2 z0 z1 z) ∧
      Within2 h0 h1 x.2.1.wave.Hsig_Offshore ∧ Within2 d0 d1 x.2.1.wave.EDir_h := by
  intro x hx
  obtain ⟨_, hp, tr', hr⟩ := h.trace_inv hx
  have hd := (hr.timeInv (TimeInv.initial hi hse hmin)).dt
  obtain ⟨⟨qs, zs, hc⟩, _⟩ := pass_inv hp
  obtain ⟨_, hw⟩ := window_last hd hh hp
  obtain ⟨w1, w2⟩ := waves_inv hc.wave
  obtain ⟨v3, e3, l3⟩ := interp_one R.height w1
  obtain ⟨v4, e4, l4⟩ := interp_one R.dir w2
  exact ⟨⟨qs, zs, hc.flow, hc.sea, hc.hydro, interp_within R.flow R.flowIn hw hc.flow, interp_within R.sea R.seaIn hw hc.sea⟩,
    ⟨v3, e3, linear_within R.heightIn l3⟩, ⟨v4, e4, linear_within R.dirIn l4⟩⟩

/-- Concrete case: the rising river of C97 with rising waves; two passes, with flows strictly between the given ones. -/
example : ∃ s0 s tr, coStorm.tp.StartTime ≤ coStorm.tp.EndTime ∧ 0 ≤ coStorm.tp.MorDtMin ∧ 0 < coStorm.tp.HydDt ∧ initial coStorm coLoad = .ok s0 ∧
    Run coStorm s0 tr s ∧ tr.length = 2 ∧ (∃ se ds z0 z1 d0 d1, Ranges coStorm 50 2050 z0 z1 0 10 d0 d1 [(0, 50), (2000 * sec, 2050)] se [(0, 0), (1000 * sec, 10)] ds) ∧
    ∃ r ∈ s.outs, r.RivFlow = fin 80 := by
  have h : okAnd (initial coStorm coLoad) (fun s0 => okAnd (trace coStorm s0 2) (fun x => decide (∃ r ∈ x.2.outs, r.RivFlow = fin 80))) = true := by decide +kernel
  obtain ⟨s0, h0, h⟩ := okAnd_iff.mp h
  obtain ⟨⟨tr, s⟩, h1, h⟩ := okAnd_iff.mp h
  obtain ⟨r, l⟩ := trace_run h1
  refine ⟨s0, s, tr, by decide +kernel, by decide +kernel, by decide +kernel, h0, r, l, ?_, of_decide_eq_true h⟩
  refine ⟨[(0, 0), (1000 * sec, 0)], [(0, 0), (1000 * sec, 0)], 0, 0, 0, 0, ?_⟩
  constructor <;> first | exact ⟨rfl, by simp [Increasing, sec]⟩ | (intro a ha; fin_cases ha <;> norm_num)

end Verif.Props
