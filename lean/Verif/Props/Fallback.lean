import Verif.Spec.Through
import Verif.Props.BdyFig
import Verif.Props.CoreSample
import Verif.Props.Preissmann

set_option autoImplicit false
set_option linter.unusedSectionVars false

/-! # C188: what the river does in a step -/

namespace Verif.Props
open Verif Verif.Model Verif.Spec Fl

/-- Every velocity of the steady solution is that of the flow through its section. -/
theorem solveSteady_all {p : SteadyPars} {dx z B d v : List (Fl ℝ)} (hB : B.length = z.length) (h : solveSteady p dx z B = .ok (d, v)) :
    d.length = z.length ∧ v.length = z.length ∧ ∀ i < z.length, ∃ b dep, B[i]? = some b ∧ d[i]? = some dep ∧ v[i]? = some (steadyVel p b dep) := by
  unfold solveSteady at h
  simp only [bind_ok, pure_ok, pyGet_last] at h
  obtain ⟨zN, hz, BN, hBN, s, hs, he⟩ := h
  cases he
  have hpos : 0 < z.length := List.length_pos_iff.mpr (by rintro rfl; cases hz)
  have key : ∀ (k : ℕ) (b r : SteadyArr), k ≤ z.length - 1 →
      (b.dep.length = z.length ∧ b.vel.length = z.length ∧ ∀ i < z.length, k ≤ i → ∃ w dep, B[i]? = some w ∧ b.dep[i]? = some dep ∧ b.vel[i]? = some (steadyVel p w dep)) →
      (List.range k).reverse.foldlM (steadyStep p dx z B) b = .ok r →
      (r.dep.length = z.length ∧ r.vel.length = z.length ∧ ∀ i < z.length, ∃ w dep, B[i]? = some w ∧ r.dep[i]? = some dep ∧ r.vel[i]? = some (steadyVel p w dep)) := by
    intro k
    induction k with
    | zero =>
      intro b r _ hb hr
      simp only [List.range_zero, List.reverse_nil, List.foldlM_nil, pure_ok] at hr
      subst hr
      exact ⟨hb.1, hb.2.1, fun i hi => hb.2.2 i hi (Nat.zero_le _)⟩
    | succ k ih =>
      intro b r hk hb hr
      rw [List.range_succ, List.reverse_append] at hr
      simp only [List.reverse_singleton, List.singleton_append, List.foldlM_cons, bind_ok] at hr
      obtain ⟨c, h1, h2⟩ := hr
      refine ih c r (by omega) ?_ h2
      unfold steadyStep at h1
      simp only [bind_ok, pure_ok] at h1
      obtain ⟨dxi, _, zi, _, Bi, hBi, _, _, _, _, _, _, _, _, dep, _, rfl⟩ := h1
      obtain ⟨l1, l2, g⟩ := hb
      refine ⟨by simpa using l1, by simpa using l2, ?_⟩
      intro i hi hki
      rcases Nat.eq_or_lt_of_le hki with rfl | hlt
      · refine ⟨Bi, dep, ixGet_ok.mp hBi, ?_, ?_⟩
        · simp only; rw [List.getElem?_set_self (by omega)]
        · simp only; rw [List.getElem?_set_self (by omega)]
      · simp only
        rw [List.getElem?_set_ne (by omega), List.getElem?_set_ne (by omega)]
        exact g i hi hlt
  refine key (z.length - 1) _ s le_rfl ⟨by simp, by simp, ?_⟩ hs
  intro i hi hki
  have : i = z.length - 1 := by omega
  subst this
  refine ⟨BN, (fin p.DsWL - zN).npmax (critDep p BN), ?_, ?_, ?_⟩
  · rw [List.getLast?_eq_getElem?, hB] at hBN; exact hBN
  · simp only; rw [List.getElem?_set_self (by simpa using hpos)]
  · simp only; rw [List.getElem?_set_self (by simpa using hpos)]

/-- The steady solution carries its flow. -/
theorem solveSteady_carries {p : SteadyPars} {dx z B d v : List (Fl ℝ)} (hB : B.length = z.length) (h : solveSteady p dx z B = .ok (d, v)) :
    Carries B d v p.Q := by
  obtain ⟨l1, l2, g⟩ := solveSteady_all hB h
  refine ⟨by rw [l1, hB], by rw [l2, hB], ?_⟩
  intro i b d v hb hd hv
  have hi : i < z.length := hB ▸ (List.getElem?_eq_some_iff.mp hb).1
  obtain ⟨b', d', g1, g2, g3⟩ := g i hi
  rw [hb] at g1
  rw [hd] at g2
  cases g1
  cases g2
  rw [hv] at g3
  simp only [Option.some.injEq] at g3
  unfold steadyVel at g3
  rw [mul_fin] at g3
  by_cases hbd : b * d = 0
  · exfalso
    have : (fin p.Q / fin (b * d) : Fl ℝ) = infOfSign p.Q := by
      show Fl.div _ _ = _
      simp [Fl.div, hbd]
    rw [this] at g3
    unfold infOfSign at g3
    split at g3
    · cases g3
    · split at g3 <;> cases g3
  · have : (fin p.Q / fin (b * d) : Fl ℝ) = fin (p.Q / (b * d)) := by
      show Fl.div _ _ = _
      simp only [Fl.div]
      rw [if_neg hbd]
    rw [this] at g3
    cases g3
    rw [← mul_div_assoc, mul_div_cancel_left₀ _ hbd]

theorem finOf_eq {a : Fl ℝ} {x : ℝ} (h : finOf a = .ok x) : a = fin x := by
  cases a with
  | fin y => unfold finOf at h; rw [ok_inj.mp h]
  | nan => cases h
  | pinf => cases h
  | ninf => cases h

/-- What C188 asks of the steady solver: it takes a flow and a level that are numbers, and carries that flow through every section. -/
def SteadyCarries {K : Type} [Field K] [LinearOrder K] (P : Parts K) : Prop :=
  ∀ (c : ChanOut K) (a b : Fl K) (d v : List (Fl K)), c.width.length = c.elev.length → P.steady c a b = .ok (d, v) →
    ∃ q w : K, a = fin q ∧ b = fin w ∧ Carries c.width d v q

/-- What C188 asks of the unsteady solver: in a channel described by numbers, its depths are positive and its velocities numbers. -/
def UnsteadyGood {K : Type} [Field K] [LinearOrder K] (P : Parts K) : Prop :=
  ∀ (c : ChanOut K) (bdy hv : List (Fl K × Fl K)), (∀ l ∈ [c.dx, c.elev, c.width, c.lagArea, c.lagLen, c.dep, c.vel], ∀ a ∈ l, ∃ x : K, a = fin x) →
    P.unsteady c bdy = .ok hv → ∀ x ∈ hv, ∃ d v : K, x = (fin d, fin v) ∧ 0 < d ∧ v ≠ 0

/-- The steady solver of the code is so. -/
theorem C188_real_steady (pp : PhysPars ℝ) (np : NumPars) (Dx : ℝ) (HydDt : ℤ) (solver : Solver) :
    SteadyCarries (realParts pp np Dx HydDt solver) := by
  intro c a b d v hlen h
  simp only [realParts, bind_ok] at h
  obtain ⟨q, hq, w, hw, h⟩ := h
  exact ⟨q, w, finOf_eq hq, finOf_eq hw, solveSteady_carries hlen h⟩

theorem exists_map_fin {l : List (Fl ℝ)} (h : ∀ a ∈ l, ∃ x : ℝ, a = fin x) : ∃ xs : List ℝ, l = xs.map fin := by
  induction l with
  | nil => exact ⟨[], rfl⟩
  | cons a l ih =>
    obtain ⟨x, rfl⟩ := h a (by simp)
    obtain ⟨xs, rfl⟩ := ih (fun b hb => h b (by simp [hb]))
    exact ⟨x :: xs, rfl⟩

/-- The unsteady solver of the code is so, provided the solver of the linear system returns numbers. -/
theorem C188_real_unsteady (pp : PhysPars ℝ) (np : NumPars) (Dx : ℝ) (HydDt : ℤ) (solver : Solver)
    (hsolver : ∀ band err d, solver band err = .ok d → ∀ x ∈ d, ∃ r : ℝ, x = fin r) : UnsteadyGood (realParts pp np Dx HydDt solver) := by
  intro c bdy hv hn h
  simp only [realParts, bind_ok] at h
  obtain ⟨b, hb, h⟩ := h
  obtain ⟨dx, h1⟩ := exists_map_fin (hn c.dx (by simp))
  obtain ⟨z, h2⟩ := exists_map_fin (hn c.elev (by simp))
  obtain ⟨B, h3⟩ := exists_map_fin (hn c.width (by simp))
  obtain ⟨A, h4⟩ := exists_map_fin (hn c.lagArea (by simp))
  obtain ⟨L, h5⟩ := exists_map_fin (hn c.lagLen (by simp))
  obtain ⟨d, h6⟩ := exists_map_fin (hn c.dep (by simp))
  obtain ⟨v, h7⟩ := exists_map_fin (hn c.vel (by simp))
  rw [h1, h2, h3, h4, h5, h6, h7] at h
  let P : PrePars := ⟨pp.Gravity, pp.RoughnessManning, np.BarrierPermeability, np.Theta, np.Beta, np.ErrTol, np.MaxIt, (secs HydDt : ℝ)⟩
  refine C19_positive P c.closed solver hsolver dx
    (List.zipWith (fun (zb : ℝ × ℝ) (r : (ℝ × ℝ) × (ℝ × ℝ)) => ({ z := zb.1, B := zb.2, LagArea := r.1.1, LagLen := r.1.2, h := r.2.1, V := r.2.2 } : ChanNode ℝ))
      (z.zip B) ((A.zip L).zip (d.zip v))) b hv ?_
  unfold preissmann
  rw [← h]
  congr 1
  rw [List.map_zipWith]
  simp only [List.zip_map, List.zipWith_map]
  rfl

variable {K : Type} [Field K] [LinearOrder K] [IsStrictOrderedRing K] [FloorRing K]

/-- C188, if the unsteady solution fails: whatever it raises, the channel carries the inflow of the end of the step, the one that is
reported, through every section. -/
theorem C188_fallback {e : Env K} (hP : PartsLen e.parts) (hS : SteadyCarries e.parts) {ld : LoadOut K} (hl : LoadSized ld) {s0 s s1 : CoreSt K}
    {p : PassOut K} {tr : List (CoreSt K × PassOut K × CoreSt K)} (h0 : initial e ld = .ok s0) (h : Run e s0 tr s) (hp : pass e s = .ok (p, s1))
    (fl sl : List (Fl K)) (hfl : interpolateAt e.flow p.window = .ok fl) (hsl : interpolateAt e.sea p.window = .ok sl)
    (err : PyErr) (hfail : e.parts.unsteady p.chan (fl.zip sl) = .error err) :
    ∃ q w : K, fl.getLast? = some (fin q) ∧ sl.getLast? = some (fin w) ∧ p.flow = fin q ∧ p.sea = fin w ∧
      e.parts.steady p.chan (fin q) (fin w) = .ok (p.dep, p.vel) ∧ Carries p.chan.width p.dep p.vel q := by
  have hsz := (run_sized hP hl h0 h).1
  have hp' := hp
  unfold Verif.Model.pass at hp'
  simp only [bind_ok, pure_ok] at hp'
  obtain ⟨p1, hcomp, s2, _, he⟩ := hp'
  cases he
  have hlen := (compute_ok hP hsz hcomp).chan.len
  obtain ⟨⟨fl', sl', hc⟩, ha⟩ := pass_inv hp
  have e1 := hc.flow
  have e2 := hc.sea
  rw [hfl] at e1
  rw [hsl] at e2
  cases e1
  cases e2
  have hh := hc.hydro
  unfold hydraulics at hh
  rw [hfail] at hh
  simp only [bind_ok, pyGet_last] at hh
  obtain ⟨q', hq', w', hw', hst⟩ := hh
  rw [hc.flowLast] at hq'
  rw [hc.seaLast] at hw'
  cases hq'
  cases hw'
  obtain ⟨q, w, hq, hw, hcar⟩ := hS _ _ _ _ _ (by rw [hlen.width, hlen.elev]) hst
  rw [hq, hw] at hst
  exact ⟨q, w, by rw [hc.flowLast, hq], by rw [hc.seaLast, hw], hq, hw, hst, hcar⟩

/-- C188, otherwise: the depths and velocities of the step are the unsteady solution for the flows and levels at the hydraulic times; in a
channel described by numbers every depth is positive and every velocity a number other than 0. -/
theorem C188_unsteady {e : Env K} (hU : UnsteadyGood e.parts) {s s1 : CoreSt K} {p : PassOut K} (hp : pass e s = .ok (p, s1))
    (fl sl : List (Fl K)) (hfl : interpolateAt e.flow p.window = .ok fl) (hsl : interpolateAt e.sea p.window = .ok sl)
    (hv : List (Fl K × Fl K)) (hok : e.parts.unsteady p.chan (fl.zip sl) = .ok hv) :
    p.dep.zip p.vel = hv ∧ p.dep.length = hv.length ∧ p.vel.length = hv.length ∧
    ((∀ l ∈ [p.chan.dx, p.chan.elev, p.chan.width, p.chan.lagArea, p.chan.lagLen, p.chan.dep, p.chan.vel], ∀ a ∈ l, ∃ x : K, a = fin x) →
      (∀ a ∈ p.dep, ∃ d : K, a = fin d ∧ 0 < d) ∧ (∀ a ∈ p.vel, ∃ v : K, a = fin v ∧ v ≠ 0)) := by
  obtain ⟨⟨fl', sl', hc⟩, ha⟩ := pass_inv hp
  have e1 := hc.flow
  have e2 := hc.sea
  rw [hfl] at e1
  rw [hsl] at e2
  cases e1
  cases e2
  have hh := hc.hydro
  unfold hydraulics at hh
  rw [hok] at hh
  simp only [Except.ok.injEq, Prod.mk.injEq] at hh
  obtain ⟨hd, hvv⟩ := hh
  rw [← hd, ← hvv]
  refine ⟨?_, by simp, by simp, ?_⟩
  · rw [List.zip_map']
    exact List.map_id _
  intro hn
  have hg := hU _ _ _ hn hok
  constructor
  · intro a ha
    obtain ⟨x, hx, rfl⟩ := List.mem_map.mp ha
    obtain ⟨d, v, rfl, h1, -⟩ := hg x hx
    exact ⟨d, rfl, h1⟩
  · intro a ha
    obtain ⟨x, hx, rfl⟩ := List.mem_map.mp ha
    obtain ⟨d, v, rfl, -, h1⟩ := hg x hx
    exact ⟨v, rfl, h1⟩

/-- The sample channel with a flow that rises, carried at a depth of 1 m by the steady solver; the unsteady solver always fails. -/
def fbEnv : Env ℚ := { coEnv with
  parts := { coParts with steady := fun c a b => match a, b with
    | fin q, fin _ => .ok (c.width.map (fun _ => fin 1), c.width.map (fun x => fin q / x))
    | _, _ => .error .other }
  flow := [(0, fin 50), (1000 * sec, fin 100)] }

theorem fb_carries : SteadyCarries fbEnv.parts := by
  intro c a b d v hlen h
  simp only [fbEnv] at h
  split at h
  · rename_i q w
    refine ⟨q, w, rfl, rfl, ?_⟩
    simp only [Except.ok.injEq, Prod.mk.injEq] at h
    obtain ⟨rfl, rfl⟩ := h
    refine ⟨by simp, by simp, ?_⟩
    intro i b d v hb hd hv
    simp only [List.getElem?_map, hb, Option.map_some, Option.some.injEq] at hd hv
    cases hd
    by_cases h0 : b = 0
    · subst h0
      exfalso
      have : (fin q / fin 0 : Fl ℚ) = infOfSign q := by
        show Fl.div _ _ = _
        simp [Fl.div]
      rw [this] at hv
      unfold infOfSign at hv
      split at hv
      · cases hv
      · split at hv <;> cases hv
    · have : (fin q / fin b : Fl ℚ) = fin (q / b) := by
        show Fl.div _ _ = _
        simp only [Fl.div]
        rw [if_neg h0]
      rw [this] at hv
      cases hv
      rw [mul_one, ← mul_div_assoc, mul_div_cancel_left₀ _ h0]
  · cases h

/-- The hypotheses of C188_fallback are met, with a flow of 51.5 m3/s after the first 30 s. -/
example : PartsLen fbEnv.parts ∧ SteadyCarries fbEnv.parts ∧ LoadSized coLoad ∧ ∃ s0 s1 p fl sl, initial fbEnv coLoad = .ok s0 ∧ Run fbEnv s0 [] s0 ∧
    pass fbEnv s0 = .ok (p, s1) ∧ interpolateAt fbEnv.flow p.window = .ok fl ∧ interpolateAt fbEnv.sea p.window = .ok sl ∧
    fbEnv.parts.unsteady p.chan (fl.zip sl) = .error .other ∧ fl = [fin (101/2), fin 51, fin (103/2)] ∧ p.flow = fin (103/2) := by
  have h : okAnd (initial fbEnv coLoad) (fun s0 => okAnd (pass fbEnv s0) (fun x => okAnd (interpolateAt fbEnv.flow x.1.window) (fun fl =>
      okAnd (interpolateAt fbEnv.sea x.1.window) (fun _ => decide (fl = [fin (101/2), fin 51, fin (103/2)] ∧ x.1.flow = fin (103/2)))))) = true := by
    decide +kernel
  obtain ⟨s0, h0, h⟩ := okAnd_iff.mp h
  obtain ⟨⟨p, s1⟩, h1, h⟩ := okAnd_iff.mp h
  obtain ⟨fl, h2, h⟩ := okAnd_iff.mp h
  obtain ⟨sl, h3, h⟩ := okAnd_iff.mp h
  obtain ⟨h4, h5⟩ := of_decide_eq_true h
  refine ⟨⟨coParts_len.unsteady, ?_, coParts_len.lst, coParts_len.overtop⟩, fb_carries, coLoad_sized, s0, s1, p, fl, sl, h0, .start, h1, h2, h3, rfl, h4, h5⟩
  intro c N q w d v hc hs
  simp only [fbEnv] at hs
  split at hs
  · simp only [Except.ok.injEq, Prod.mk.injEq] at hs
    obtain ⟨rfl, rfl⟩ := hs
    simp [hc.width]
  · cases hs

/-- The sample channel with an unsteady solver that returns depths of 2 m and velocities of -1 m/s. -/
def ubEnv : Env ℚ := { coEnv with parts := { coParts with unsteady := fun c _ => .ok (c.width.map (fun _ => (fin 2, fin (-1)))) } }

/-- The hypotheses of C188_unsteady are met, in a channel described by numbers. -/
example : UnsteadyGood ubEnv.parts ∧ ∃ s0 s1 p fl sl hv, initial ubEnv coLoad = .ok s0 ∧ pass ubEnv s0 = .ok (p, s1) ∧
    interpolateAt ubEnv.flow p.window = .ok fl ∧ interpolateAt ubEnv.sea p.window = .ok sl ∧ ubEnv.parts.unsteady p.chan (fl.zip sl) = .ok hv ∧
    (∀ l ∈ [p.chan.dx, p.chan.elev, p.chan.width, p.chan.lagArea, p.chan.lagLen, p.chan.dep, p.chan.vel], ∀ a ∈ l, ∃ x : ℚ, a = fin x) := by
  have h : okAnd (initial ubEnv coLoad) (fun s0 => okAnd (pass ubEnv s0) (fun x => okAnd (interpolateAt ubEnv.flow x.1.window) (fun _ =>
      okAnd (interpolateAt ubEnv.sea x.1.window) (fun _ => decide (∀ l ∈ [x.1.chan.dx, x.1.chan.elev, x.1.chan.width, x.1.chan.lagArea, x.1.chan.lagLen,
        x.1.chan.dep, x.1.chan.vel], ∀ a ∈ l, (match a with | fin _ => true | _ => false) = true))))) = true := by
    decide +kernel
  obtain ⟨s0, h0, h⟩ := okAnd_iff.mp h
  obtain ⟨⟨p, s1⟩, h1, h⟩ := okAnd_iff.mp h
  obtain ⟨fl, h2, h⟩ := okAnd_iff.mp h
  obtain ⟨sl, h3, h⟩ := okAnd_iff.mp h
  have h4 := of_decide_eq_true h
  refine ⟨?_, s0, s1, p, fl, sl, _, h0, h1, h2, h3, rfl, ?_⟩
  · intro c bdy hv _ hs x hx
    simp only [ubEnv, Except.ok.injEq] at hs
    subst hs
    obtain ⟨_, _, rfl⟩ := List.mem_map.mp hx
    exact ⟨2, -1, rfl, by norm_num, by norm_num⟩
  · intro l hl a ha
    have := h4 l hl a ha
    cases a with
    | fin x => exact ⟨x, rfl⟩
    | nan => cases this
    | pinf => cases this
    | ninf => cases this

end Verif.Props
