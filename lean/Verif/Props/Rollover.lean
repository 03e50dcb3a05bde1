import Verif.Props.Barrier
import Verif.Props.Coast
import Verif.Props.CoreSample

set_option autoImplicit false
set_option linter.unusedSectionVars false

/-! # C189: where a barrier is built up and where it rolls over -/

namespace Verif.Props
open Verif Verif.Model Verif.Spec Fl

/-- A barrier without a channel from the sea at `y` to the lagoon at `y3`, with its crest at `z0` and the cliff at `y4`, is washed over: there is
a lagoon behind it, and it is higher than the target for its width (of at least 1 mm). -/
def TooHigh {K : Type} [Field K] [LinearOrder K] (pp : PhysPars K) (y y3 y4 z0 : K) : Prop :=
  y4 < y3 ∧ max (y - y3) (1/1000) * pp.BarRatSlope + pp.BarRatInt < z0

/-- What C189 asks of the overtopping of the waves: barriers without a channel are washed over by that rule. -/
def FollowsRule {K : Type} [Field K] [LinearOrder K] (pp : PhysPars K) (P : Parts K) : Prop :=
  ∀ (ru sl : Fl K) (rows : List (Transect K)) (cst : List (Fl K)) (ow : List Bool), P.overtop ru sl rows = .ok (cst, ow) →
    ∀ (i : ℕ) (t : Transect K) (y y3 y4 z0 : K), rows[i]? = some t → t.y0 = fin y → t.y1 = nan → t.y3 = fin y3 → t.y4 = fin y4 → t.z0 = fin z0 →
      ∃ o, ow[i]? = some o ∧ (o = true ↔ TooHigh pp y y3 y4 z0)

/-- The overtopping of the code is so. -/
theorem C189_real_parts (pp : PhysPars ℝ) (np : NumPars) (Dx : ℝ) (HydDt : ℤ) (solver : Solver) : FollowsRule pp (realParts pp np Dx HydDt solver) := by
  intro ru sl rows cst ow h i t y y3 y4 z0 hi h0 h1 h3 h4 hz
  have e : ow = _ := (overtopping_ok _ _ _ _ _ _ h).2
  refine ⟨overwashProp pp t, ?_, C11_no_outlet pp t y y3 y4 z0 h1 h0 h3 h4 hz⟩
  rw [e, List.getElem?_map, hi]
  rfl

variable {K : Type} [Field K] [LinearOrder K] [IsStrictOrderedRing K] [FloorRing K]

/-- What the step hands to the morphology. -/
def given (e : Env K) (s : CoreSt K) (p : PassOut K) : MorIn K := morIn e s p.chan p.dep p.hyd p.bed p.LST p.CST p.owp

/-- C189: in a completed step, a barrier away from the outlet over which waves carry `v` per second, unless it is breached there, rolls over if it is too
high for its width: its crest stays, and where the river does not flow behind it its back moves by the volume over its height.  Otherwise it is built up:
its crest rises by the volume over its width, and where the river does not flow behind it its back stays.  A record of the step says which. -/
theorem C189_step {e : Env K} (hR : FollowsRule e.pp e.parts) {s s1 : CoreSt K} {p : PassOut K} (hp : pass e s = .ok (p, s1)) (i : ℕ) (r : Transect K)
    (y y3 y4 z0 z3 v w : K) (h4 : r.y4 = fin y4) (W : Washed e.pp (given e s p) p.mor i r y y3 z0 z3 v w) :
    (TooHigh e.pp y y3 y4 z0 → w = 1 ∧ (BreachedAt p.mor r.x ∨ ∃ r', s1.rows[i]? = some r' ∧ r'.z0 = fin z0 ∧
      (i ∉ p.chan.online → r'.y3 = fin (y3 - v / (z0 - z3) * (secs p.mor.MorDt : K))))) ∧
    (¬ TooHigh e.pp y y3 y4 z0 → w = 0 ∧ (BreachedAt p.mor r.x ∨ ∃ r', s1.rows[i]? = some r' ∧ r'.z0 = fin (z0 + v / (y - y3) * (secs p.mor.MorDt : K)) ∧
      (i ∉ p.chan.online → r'.y3 = fin y3))) ∧
    (∀ rec, s1.outs = s.outs ++ [rec] → rec.OverwashProp[i]? = some (fin w) ∧ rec.CST[i]? = some (fin v)) := by
  obtain ⟨⟨fl, sl, hc⟩, ha⟩ := pass_inv hp
  obtain ⟨h0, h1, h2, h3, hz0, hz3, w3, _⟩ := W.barrier
  obtain ⟨o, ho, hrule⟩ := hR _ _ _ _ _ hc.cst i r y y3 y4 z0 W.row h0 h1 h3 h4 hz0
  have hpart := W.part
  have hw : w = if o then 1 else 0 := by
    simp only [given, morIn, boolFl, List.getElem?_map, ho, Option.map_some, Option.some.injEq] at hpart
    cases o <;> simp at hpart ⊢ <;> exact hpart.symm
  have hmor := C151_barrier e.pp _ _ _ _ hc.mor i r y y3 z0 z3 v w W
  rw [ha.rows]
  refine ⟨fun hH => ?_, fun hH => ?_, fun rec hrec => ?_⟩
  · have : w = 1 := by rw [hw, hrule.mpr hH]; rfl
    subst this
    refine ⟨rfl, hmor.imp_right ?_⟩
    rintro ⟨r', hr', -, -, -, k1, k2⟩
    refine ⟨r', hr', ?_, fun hi => ?_⟩
    · rw [k1]; unfold crestRise; simp
    · rw [(k2 hi).1]; unfold backShift; simp
  · have ho' : o = false := by
      cases o with
      | false => rfl
      | true => exact absurd (hrule.mp rfl) hH
    have : w = 0 := by rw [hw, ho']; rfl
    subst this
    refine ⟨rfl, hmor.imp_right ?_⟩
    rintro ⟨r', hr', -, -, -, k1, k2⟩
    refine ⟨r', hr', ?_, fun hi => ?_⟩
    · rw [k1]; unfold crestRise; simp
    · rw [(k2 hi).1]; unfold backShift; simp
  · rcases ha.outs with ⟨_, h5, _⟩ | ⟨_, _, bl, h5, _⟩
    · rw [h5] at hrec
      have := congrArg List.length hrec
      simp at this
    · rw [h5] at hrec
      have hr' : snapshot s p s1.time bl = rec := by simpa using hrec
      subst hr'
      exact ⟨hpart, W.waves⟩

/-- The sample run with waves that carry 1/2000 m2/s over every barrier, and a target height of a fortieth of the width and `b`. -/
def roEnv (b : ℚ) : Env ℚ :=
  { coEnv with
    pp := { moPP with BarRatSlope := 1/40, BarRatInt := b }
    parts := { coParts with overtop := fun _ _ rows => .ok (rows.map (fun _ => fin (1/2000)), rows.map (overwashProp { moPP with BarRatSlope := 1/40, BarRatInt := b })) }
    oo := { coEnv.oo with OutInt := 30 * sec } }

theorem ro_rule (b : ℚ) : FollowsRule (roEnv b).pp (roEnv b).parts := by
  intro ru sl rows cst ow h i t y y3 y4 z0 hi h0 h1 h3 h4 hz
  simp only [roEnv, Except.ok.injEq, Prod.mk.injEq] at h
  refine ⟨overwashProp (roEnv b).pp t, ?_, C11_no_outlet (roEnv b).pp t y y3 y4 z0 h1 h0 h3 h4 hz⟩
  rw [← h.2, List.getElem?_map, hi]
  rfl

/-- The first step of that run meets the hypotheses at the transect to the right of the outlet: there is no breach, and a record is written. -/
theorem ro_meets (b : ℚ) (w : ℚ) (hok : okAnd (initial (roEnv b) coLoad) (fun s0 => okAnd (pass (roEnv b) s0) (fun x =>
      decide (Regular (roEnv b).pp (given (roEnv b) s0 x.1) ∧ s0.rows = brIn.rows ∧ secs x.1.mor.MorDt = 120 ∧ s0.EndX1 = fin 24 ∧
        (given (roEnv b) s0 x.1).outlet = [6] ∧ x.1.CST[7]? = some (fin (1/2000)) ∧ (given (roEnv b) s0 x.1).OverwashProp[7]? = some (fin w) ∧
        x.2.outs.length = s0.outs.length + 1 ∧ x.1.mor.Breach = false ∧ 7 ∉ x.1.chan.online))) = true) (hw : w = 0 ∨ w = 1) :
    ∃ s0 s1 p, initial (roEnv b) coLoad = .ok s0 ∧ pass (roEnv b) s0 = .ok (p, s1) ∧ s1.outs.length = s0.outs.length + 1 ∧ p.mor.Breach = false ∧
      7 ∉ p.chan.online ∧ Washed (roEnv b).pp (given (roEnv b) s0 p) p.mor 7 (brRow 30) 100 20 4 (-1) (1/2000) w := by
  obtain ⟨s0, h0, h⟩ := okAnd_iff.mp hok
  obtain ⟨⟨p, s1⟩, h1, h⟩ := okAnd_iff.mp h
  obtain ⟨k1, k2, k3, k4, k5, k6, k7, k8, k9, k10⟩ := of_decide_eq_true h
  have hrows : (given (roEnv b) s0 p).rows = brIn.rows := k2
  have hend : (given (roEnv b) s0 p).EndX1 = fin 24 := k4
  have hlim : (given (roEnv b) s0 p).MaxMorChange = 1/4 := rfl
  refine ⟨s0, s1, p, h0, h1, k8, k9, k10, ⟨by rw [hlim]; norm_num, k1, by rw [hrows]; decide +kernel, by rw [hrows]; decide +kernel,
    ⟨rfl, rfl, rfl, rfl, rfl, rfl, by rw [hlim]; norm_num, 0, rfl, by rw [hlim]; norm_num⟩, ?_, ?_, k6, k7, ?_, ?_⟩⟩
  · intro _
    refine ⟨24, brRow (-30), brRow 30, hend, by rw [hrows]; rfl, by rw [hrows]; rfl, by rw [hlim]; norm_num [brRow], by rw [hlim]; norm_num [brRow],
      Or.inl ⟨by rw [hlim]; norm_num [brRow], ?_⟩⟩
    rw [k5, hrows]
    decide +kernel
  · intro _ e he q _ hh
    have h1 : (brRow 30).x = 30 := rfl
    rw [hend] at he
    cases he
    rw [h1] at hh
    norm_num at hh
  · rw [k3, hlim]
    rcases hw with rfl | rfl <;> norm_num [crestRise, abs_of_pos]
  · rw [k3, hlim]
    rcases hw with rfl | rfl <;> norm_num [backShift, abs_of_pos]

/-- A barrier 80 m wide and 4 m high with a target of 3 m rolls over; with a target of 5 m it is built up. -/
example : TooHigh (roEnv 1).pp 100 20 0 4 ∧ ∃ s0 s1 p, initial (roEnv 1) coLoad = .ok s0 ∧ pass (roEnv 1) s0 = .ok (p, s1) ∧
    s1.outs.length = s0.outs.length + 1 ∧ p.mor.Breach = false ∧ 7 ∉ p.chan.online ∧
    Washed (roEnv 1).pp (given (roEnv 1) s0 p) p.mor 7 (brRow 30) 100 20 4 (-1) (1/2000) 1 :=
  ⟨by constructor <;> norm_num [roEnv], ro_meets 1 1 (by decide +kernel) (Or.inr rfl)⟩

example : ¬ TooHigh (roEnv 3).pp 100 20 0 4 ∧ ∃ s0 s1 p, initial (roEnv 3) coLoad = .ok s0 ∧ pass (roEnv 3) s0 = .ok (p, s1) ∧
    s1.outs.length = s0.outs.length + 1 ∧ p.mor.Breach = false ∧ 7 ∉ p.chan.online ∧
    Washed (roEnv 3).pp (given (roEnv 3) s0 p) p.mor 7 (brRow 30) 100 20 4 (-1) (1/2000) 0 :=
  ⟨by rintro ⟨-, h⟩; norm_num [roEnv] at h, ro_meets 3 0 (by decide +kernel) (Or.inl rfl)⟩

end Verif.Props
