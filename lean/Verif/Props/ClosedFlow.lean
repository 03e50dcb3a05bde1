import Verif.Props.Fallback
import Verif.Props.Runs
import Verif.Props.WaterBalance
import Verif.Props.Coast
import Verif.Lemmas.SolverLen

set_option autoImplicit false
set_option linter.unusedSectionVars false

/-! # C193: the outflow reported for a closed lagoon -/

namespace Verif.Props
open Verif Verif.Model Verif.Spec Fl

variable {K : Type} [Field K] [LinearOrder K] [IsStrictOrderedRing K] [FloorRing K]

/-- The line of the time series that a step writes. -/
theorem ts_line {e : Env K} {s s1 : CoreSt K} {p : PassOut K} (hp : pass e s = .ok (p, s1)) {t : TsRec K} (ht : s1.ts = s.ts ++ [t]) :
    t.RivFlow = p.flow ∧ t.Closed = p.chan.closed ∧
      ∃ d v w, p.dep.getLast? = some d ∧ p.vel.getLast? = some v ∧ p.chan.width.getLast? = some w ∧ t.LagOutflow = d * v * w := by
  obtain ⟨⟨fl, sl, hc⟩, ha⟩ := pass_inv hp
  rcases ha.ts with ⟨_, h3, _⟩ | ⟨_, _, t', h3, hts⟩
  · rw [h3] at ht
    have := congrArg List.length ht
    simp at this
  rw [h3] at ht
  have ht' : t' = t := by simpa using ht
  subst ht'
  unfold tsRecord at hts
  simp only [bind_ok, pure_ok, pyGet_last] at hts
  obtain ⟨d, hd, v, hv, w, hw, b, hb, rfl⟩ := hts
  exact ⟨rfl, rfl, d, v, w, hd, hv, hw, rfl⟩

/-- C193 is false whenever the unsteady solution of a closed step fails: the outflow reported is the whole inflow (wherever depth,
velocity and width of the last section are numbers). -/
theorem C193_refuted_fallback {e : Env K} (hP : PartsLen e.parts) (hS : SteadyCarries e.parts) {ld : LoadOut K} (hl : LoadSized ld) {s0 s s1 : CoreSt K}
    {p : PassOut K} {tr : List (CoreSt K × PassOut K × CoreSt K)} (h0 : initial e ld = .ok s0) (h : Run e s0 tr s) (hp : pass e s = .ok (p, s1))
    {t : TsRec K} (ht : s1.ts = s.ts ++ [t]) (_ : t.Closed = true)
    (fl sl : List (Fl K)) (hfl : interpolateAt e.flow p.window = .ok fl) (hsl : interpolateAt e.sea p.window = .ok sl)
    (err : PyErr) (hfail : e.parts.unsteady p.chan (fl.zip sl) = .error err)
    (d v w : K) (hd : p.dep.getLast? = some (fin d)) (hv : p.vel.getLast? = some (fin v)) (hw : p.chan.width.getLast? = some (fin w)) :
    t.LagOutflow = t.RivFlow := by
  obtain ⟨q, sea, _, _, hq, _, _, hcar⟩ := C188_fallback hP hS hl h0 h hp fl sl hfl hsl err hfail
  obtain ⟨h1, _, d', v', w', hd', hv', hw', hout⟩ := ts_line hp ht
  rw [hd] at hd'; rw [hv] at hv'; rw [hw] at hw'
  cases hd'; cases hv'; cases hw'
  rw [hout, h1, hq, mul_fin, mul_fin]
  obtain ⟨l1, l2, g⟩ := hcar
  rw [List.getLast?_eq_getElem?] at hd hv hw
  rw [l1] at hd
  rw [l2] at hv
  rw [← g _ w d v hw hd hv]
  congr 1; ring

/-- C193 is false of the first line too: a cold start with the outlet closed reports the inflow as outflow. -/
theorem C193_refuted_start {e : Env K} (hS : SteadyCarries e.parts) {ld : LoadOut K} {s0 : CoreSt K} (h0 : initial e ld = .ok s0)
    (hcold : ∀ a ∈ ld.LagoonVel, a = fin 0) : ∃ t : TsRec K, s0.ts = [t] ∧ t.Closed = s0.Closed ∧
      ∃ d v w : Fl K, t.LagOutflow = d * v * w ∧ ((∃ x, d = fin x) → (∃ x, v = fin x) → (∃ x, w = fin x) → t.LagOutflow = t.RivFlow) := by
  have hi := h0
  unfold initial at h0
  simp only [bind_ok, pure_ok] at h0
  obtain ⟨fl, _, sl, _, w, _, c, hc, q, _, sq, _, ⟨dep, vel⟩, hst, hyd, _, d, hd, v, hv, cw, hw, rfl⟩ := h0
  refine ⟨_, rfl, rfl, d, v, cw, rfl, ?_⟩
  rintro ⟨d, rfl⟩ ⟨v, rfl⟩ ⟨cw, rfl⟩
  have hcold' : (ld.LagoonVel.all (· ==? fin 0)) = true := by
    rw [List.all_eq_true]
    intro a ha
    rw [hcold a ha]; simp
  rw [hcold', if_pos rfl] at hst
  obtain ⟨X0, r0, ow, C1, st1, st, onRows, outRows, H⟩ := assemble_inv hc
  have hlen : c.width.length = c.elev.length := by
    have hg := H.geom
    unfold chanGeom at hg
    simp only [Prod.mk.injEq] at hg
    obtain ⟨_, _, helev, hwid, _, _⟩ := hg
    rw [helev, hwid]
    cases hcl : c.closed with
    | true => simp
    | false =>
      obtain ⟨h1, h2, h3⟩ := H.lens.2 hcl
      simp [h1, h2]
  obtain ⟨q', w', hq, _, l1, l2, g⟩ := hS _ _ _ _ _ hlen hst
  rw [pyGet_last] at hd hv hw
  rw [List.getLast?_eq_getElem?] at hd hv hw
  rw [l1] at hd
  rw [l2] at hv
  show (fin d * fin v * fin cw : Fl K) = q
  rw [hq, mul_fin, mul_fin, ← g _ cw d v hw hd hv]
  congr 1; ring

/-- C193 is false in every step whose unsteady solution succeeds in a channel described by numbers: the outflow reported is never
nothing, as velocities of exactly 0 are replaced. -/
theorem C193_refuted_unsteady {e : Env K} (hU : UnsteadyGood e.parts) {s s1 : CoreSt K} {p : PassOut K} (hp : pass e s = .ok (p, s1))
    {t : TsRec K} (ht : s1.ts = s.ts ++ [t])
    (fl sl : List (Fl K)) (hfl : interpolateAt e.flow p.window = .ok fl) (hsl : interpolateAt e.sea p.window = .ok sl)
    (hv : List (Fl K × Fl K)) (hok : e.parts.unsteady p.chan (fl.zip sl) = .ok hv)
    (hn : ∀ l ∈ [p.chan.dx, p.chan.elev, p.chan.width, p.chan.lagArea, p.chan.lagLen, p.chan.dep, p.chan.vel], ∀ a ∈ l, ∃ x : K, a = fin x) :
    ∃ x : K, t.LagOutflow = fin x ∧ x ≠ 0 := by
  obtain ⟨_, _, _, hg⟩ := C188_unsteady hU hp fl sl hfl hsl hv hok
  obtain ⟨g1, g2⟩ := hg hn
  obtain ⟨h1, _, d', v', w', hd', hv', hw', hout⟩ := ts_line hp ht
  obtain ⟨d, rfl, hd⟩ := g1 _ (List.mem_of_getLast? hd')
  obtain ⟨v, rfl, hv⟩ := g2 _ (List.mem_of_getLast? hv')
  obtain ⟨w, rfl⟩ := hn p.chan.width (by simp) _ (List.mem_of_getLast? hw')
  obtain ⟨⟨fl', sl', hc⟩, _⟩ := pass_inv hp
  obtain ⟨X0, r0, ow, C1, st1, st, onRows, outRows, H⟩ := assemble_inv hc.chan
  have hwp := H.width0 _ (List.mem_of_getLast? hw')
  simp at hwp
  refine ⟨d * v * w, by rw [hout, mul_fin, mul_fin], ?_⟩
  exact mul_ne_zero (mul_ne_zero hd.ne' hv) hwp.ne'

/-- What the partial claim asks of the unsteady solver, where `good` tells that a call goes well: the flow out of the last section of a
closed channel is at most `tol ^ 2` per unit of width. -/
def ClosedTight (P : Parts K) (good : ChanOut K → List (Fl K × Fl K) → Prop) (tol : K) : Prop :=
  ∀ (c : ChanOut K) (bdy hv : List (Fl K × Fl K)), c.closed = true → good c bdy → P.unsteady c bdy = .ok hv →
    ∃ d v : K, hv.getLast? = some (fin d, fin v) ∧ |d * v| ≤ tol ^ 2

/-- C193, partial: in a step with a closed outlet whose unsteady solution goes well, the outflow reported is at most the width of the last section
times the square of the error tolerance, in either direction.  Missing: exactly nothing (`C193_refuted_unsteady`), and steps whose unsteady solution fails
(`C193_refuted_fallback`) or does not go well. -/
theorem C193_partial {e : Env K} {good : ChanOut K → List (Fl K × Fl K) → Prop} {tol : K} (hT : ClosedTight e.parts good tol)
    {s s1 : CoreSt K} {p : PassOut K} (hp : pass e s = .ok (p, s1))
    {t : TsRec K} (ht : s1.ts = s.ts ++ [t]) (hcl : t.Closed = true)
    (fl sl : List (Fl K)) (hfl : interpolateAt e.flow p.window = .ok fl) (hsl : interpolateAt e.sea p.window = .ok sl)
    (hv : List (Fl K × Fl K)) (hok : e.parts.unsteady p.chan (fl.zip sl) = .ok hv) (hgood : good p.chan (fl.zip sl))
    (w : K) (hw : p.chan.width.getLast? = some (fin w)) :
    ∃ x : K, t.LagOutflow = fin x ∧ |x| ≤ w * tol ^ 2 := by
  obtain ⟨h1, hcl', d', v', w', hd', hv', hw', hout⟩ := ts_line hp ht
  rw [hw] at hw'; cases hw'
  obtain ⟨d, v, hlast, hb⟩ := hT p.chan _ hv (by rw [← hcl', hcl]) hgood hok
  obtain ⟨⟨fl', sl', hc⟩, _⟩ := pass_inv hp
  have e1 := hc.flow
  have e2 := hc.sea
  rw [hfl] at e1
  rw [hsl] at e2
  cases e1
  cases e2
  have hh := hc.hydro
  unfold hydraulics at hh
  rw [hok] at hh
  simp only [Except.ok.injEq, Prod.mk.injEq] at hh
  rw [← hh.1, List.getLast?_map, hlast] at hd'
  rw [← hh.2, List.getLast?_map, hlast] at hv'
  cases hd'; cases hv'
  obtain ⟨X0, r0, ow, C1, st1, st, onRows, outRows, H⟩ := assemble_inv hc.chan
  have hwp := H.width0 _ (List.mem_of_getLast? hw)
  simp at hwp
  refine ⟨d * v * w, by rw [hout, mul_fin, mul_fin], ?_⟩
  rw [abs_mul, abs_of_pos hwp, mul_comm]
  exact mul_le_mul_of_nonneg_left hb hwp.le

/-! ## The unsteady solver of the code -/

/-- A call of the unsteady solver that goes well: the channel `n`, `dx` consists of at least two sections described by numbers, with positive
widths, distances, depths, and velocities other than 0; flow and sea level are given as numbers for at least one timestep; every timestep converges;
and no depth or velocity of the result has been reset to its lower limit. -/
structure GoesWell (pp : PhysPars ℝ) (np : NumPars) (Dx : ℝ) (HydDt : ℤ) (solver : Solver) (c : ChanOut ℝ) (bdy : List (Fl ℝ × Fl ℝ))
    (N : ℕ) (n : ℕ → ChanNode ℝ) (dx : ℕ → ℝ) (b : List (ℝ × ℝ)) : Prop where
  two : 2 ≤ N
  dxs : c.dx = (List.range (N-1)).map (fun k => fin (dx k))
  elev : c.elev = (List.range N).map (fun k => fin (n k).z)
  width : c.width = (List.range N).map (fun k => fin (n k).B)
  area : c.lagArea = (List.range N).map (fun k => fin (n k).LagArea)
  len : c.lagLen = (List.range N).map (fun k => fin (n k).LagLen)
  dep : c.dep = (List.range N).map (fun k => fin (n k).h)
  vel : c.vel = (List.range N).map (fun k => fin (n k).V)
  given : bdy = b.map (fun x => (fin x.1, fin x.2))
  some : b ≠ []
  dxPos : ∀ r < N - 1, 0 < dx r
  widthPos : ∀ k < N, 0 < (n k).B
  depPos : ∀ k < N, 0 < (n k).h
  velNe : ∀ k < N, (n k).V ≠ 0
  conv : Converges ⟨pp.Gravity, pp.RoughnessManning, np.BarrierPermeability, np.Theta, np.Beta, np.ErrTol, np.MaxIt, (secs HydDt : ℝ)⟩
    c.closed solver c.dx ((List.range N).map (fun k => finNode (n k))) b
  free : ∀ hv, (realParts pp np Dx HydDt solver).unsteady c bdy = .ok hv → ∀ x ∈ hv, x.1 ≠ fin 0.0001 ∧ x.2 ≠ fin 0.0001

theorem finOf_pairs (b : List (ℝ × ℝ)) :
    (b.map (fun x => ((fin x.1 : Fl ℝ), (fin x.2 : Fl ℝ)))).mapM (fun x => (do return (← finOf x.1, ← finOf x.2) : Except PyErr (ℝ × ℝ))) = .ok b := by
  induction b with
  | nil => rfl
  | cons x b ih =>
    rw [List.map_cons, List.mapM_cons, ih]
    rfl

theorem converges_onlySize {p : PrePars} {Closed : Bool} {solver : Solver} {dx : List (Fl ℝ)} {nodes : List (ChanNode (Fl ℝ))} {bdy : List (ℝ × ℝ)}
    (hdx : dx.length + 1 = nodes.length) :
    Converges p Closed (onlySize (2 * nodes.length) solver) dx nodes bdy ↔ Converges p Closed solver dx nodes bdy := by
  constructor
  · rintro ⟨ns, rs, nN, s, w, h1, h2, h3, h4⟩
    rw [fold_onlySize p Closed solver dx rs _ _ nodes.length bdy _ ⟨preInit_len hdx h1, fun c hc => by cases hc⟩] at h3
    exact ⟨ns, rs, nN, s, w, h1, h2, h3, h4⟩
  · rintro ⟨ns, rs, nN, s, w, h1, h2, h3, h4⟩
    rw [← fold_onlySize p Closed solver dx rs _ _ nodes.length bdy _ ⟨preInit_len hdx h1, fun c hc => by cases hc⟩] at h3
    exact ⟨ns, rs, nN, s, w, h1, h2, h3, h4⟩

/-- C150 for whole calls, with a solver of linear systems of any size: it answers right, for as many unknowns as the right-hand side has entries. -/
theorem C150_call_any (p : PrePars) (hMax : 0 < p.MaxIt) (N : ℕ) (hN : 2 ≤ N) (c : ℕ → ChanNode ℝ) (dx : ℕ → ℝ) (hdx : ∀ r < N - 1, 0 < dx r)
    (hB0 : 0 ≤ (c 0).B) (hBN : 0 ≤ (c (N-1)).B) (hh : ∀ k < N, 0 < (c k).h) (hV : ∀ k < N, (c k).V ≠ 0) (solver : Solver)
    (hexact : ∀ band err d, solver band err = .ok d → SolvesBand err.length band err d) (hsing : ∀ band err, solver band err ≠ .singular)
    (Closed : Bool) (bdy : List (ℝ × ℝ)) (out : List (Fl ℝ × Fl ℝ))
    (hcall : solveFullPreissmann p Closed solver ((List.range (N-1)).map (fun r => fin (dx r))) ((List.range N).map (fun k => finNode (c k))) bdy = .ok out)
    (hconv : Converges p Closed solver ((List.range (N-1)).map (fun r => fin (dx r))) ((List.range N).map (fun k => finNode (c k))) bdy) :
    ∃ h V : ℕ → ℕ → ℝ, h 0 = (fun k => (c k).h) ∧ V 0 = (fun k => (c k).V) ∧
      out = (List.range N).map (fun k => (fin (h bdy.length k), fin (V bdy.length k))) ∧
      ∀ i b, bdy[i]? = some b → (∀ k < N, h (i+1) k ≠ 0.0001 ∧ V (i+1) k ≠ 0.0001) →
        StepBalance (basinOf N c dx) p.dt p.Theta p.P p.Tol Closed b.1 b.2 (seaBefore ((c (N-1)).z + (c (N-1)).h) bdy i) (h i) (V i) (h (i+1)) (V (i+1)) := by
  have hlen : ((List.range (N-1)).map (fun r => (fin (dx r) : Fl ℝ))).length + 1 = ((List.range N).map (fun k => finNode (c k))).length := by
    simp; omega
  have hl2 : ((List.range N).map (fun k => finNode (c k))).length = N := by simp
  rw [← preissmann_onlySize _ _ _ _ _ _ hlen, hl2] at hcall
  rw [← converges_onlySize hlen, hl2] at hconv
  refine C150_call p hMax N hN c dx hdx hB0 hBN hh hV (onlySize (2*N) solver) ?_ ?_ Closed bdy out hcall hconv
  · intro band err d h
    unfold onlySize at h
    split at h
    · rename_i e
      rw [← e]
      exact hexact _ _ _ h
    · cases h
  · intro band err h
    unfold onlySize at h
    split at h
    · exact hsing _ _ h
    · cases h

/-- The unsteady solver of the code meets the demand of `C193_partial`, with any solver of the linear system that answers right and finds no matrix
singular. -/
theorem C193_real (pp : PhysPars ℝ) (np : NumPars) (Dx : ℝ) (HydDt : ℤ) (solver : Solver) (hMax : 0 < np.MaxIt)
    (hexact : ∀ band err d, solver band err = .ok d → SolvesBand err.length band err d) (hsing : ∀ band err, solver band err ≠ .singular) :
    ClosedTight (realParts pp np Dx HydDt solver) (fun c bdy => ∃ N n dx b, GoesWell pp np Dx HydDt solver c bdy N n dx b) np.ErrTol := by
  rintro c bdy hv hcl ⟨N, n, dx, b, g⟩ h
  have hfree := g.free hv h
  simp only [realParts, bind_ok] at h
  obtain ⟨b', hb', h⟩ := h
  rw [g.given, finOf_pairs] at hb'
  cases hb'
  have hnodes : List.zipWith (fun (zb : Fl ℝ × Fl ℝ) (r : (Fl ℝ × Fl ℝ) × (Fl ℝ × Fl ℝ)) =>
      ({ z := zb.1, B := zb.2, LagArea := r.1.1, LagLen := r.1.2, h := r.2.1, V := r.2.2 } : ChanNode (Fl ℝ)))
      (c.elev.zip c.width) ((c.lagArea.zip c.lagLen).zip (c.dep.zip c.vel)) = (List.range N).map (fun k => finNode (n k)) := by
    rw [g.elev, g.width, g.area, g.len, g.dep, g.vel]
    simp only [List.zip_map', List.zipWith_map, List.zipWith_self]
    rfl
  rw [hnodes] at h
  have hc := g.conv
  rw [g.dxs] at h hc
  rw [hcl] at h hc
  obtain ⟨hh, V, _, _, hout, hbal⟩ := C150_call_any _ hMax N g.two n dx g.dxPos (g.widthPos 0 (by have := g.two; omega)).le
    (g.widthPos (N-1) (by have := g.two; omega)).le g.depPos g.velNe solver hexact hsing true b hv h hc
  have hN := g.two
  have hlen : 0 < b.length := List.length_pos_iff.mpr g.some
  have hlast := hbal (b.length - 1) _ (List.getElem?_eq_getElem (show b.length - 1 < b.length by omega)) (by
    intro k hk
    rw [show b.length - 1 + 1 = b.length by omega]
    have := hfree (fin (hh b.length k), fin (V b.length k)) (by rw [hout]; exact List.mem_map.mpr ⟨k, List.mem_range.mpr hk, rfl⟩)
    exact ⟨fun e => this.1 (by rw [e]), fun e => this.2 (by rw [e])⟩)
  rw [show b.length - 1 + 1 = b.length by omega] at hlast
  obtain ⟨out, h1, h2, _⟩ := hlast.balance
  rw [h2 rfl] at h1
  refine ⟨hh b.length (N-1), V b.length (N-1), ?_, ?_⟩
  · rw [hout, List.getLast?_map, List.getLast?_range, if_neg (by omega)]
    rfl
  · have hB := g.widthPos (N-1) (by omega)
    have e : Basin.flow (basinOf N n dx) (hh b.length) (V b.length) (N-1) = (n (N-1)).B * (hh b.length (N-1) * V b.length (N-1)) := by
      unfold Basin.flow basinOf; ring
    change |0 - Basin.flow (basinOf N n dx) (hh b.length) (V b.length) (N-1)| ≤ (n (N-1)).B * np.ErrTol ^ 2 at h1
    rw [e, zero_sub, abs_neg, abs_mul, abs_of_pos hB] at h1
    exact le_of_mul_le_mul_left h1 hB

/-! ## Concrete cases -/

/-- The sample lagoon, closed. -/
def coBarred : LoadOut ℚ := { coLoad with Closed := true }

theorem coBarred_sized : LoadSized coBarred := by constructor <;> decide +kernel

theorem fb_len : PartsLen fbEnv.parts := by
  refine ⟨coParts_len.unsteady, ?_, coParts_len.lst, coParts_len.overtop⟩
  intro c N q w d v hc hs
  simp only [fbEnv] at hs
  split at hs
  · simp only [Except.ok.injEq, Prod.mk.injEq] at hs
    obtain ⟨rfl, rfl⟩ := hs
    simp [hc.width]
  · cases hs

/-- The hypotheses of C193_refuted_fallback are met: an outflow of 51.5 m³/s through a closed outlet. -/
example : PartsLen fbEnv.parts ∧ SteadyCarries fbEnv.parts ∧ LoadSized coBarred ∧ ∃ s0 s1 p fl sl t d v w, initial fbEnv coBarred = .ok s0 ∧ Run fbEnv s0 [] s0 ∧
    pass fbEnv s0 = .ok (p, s1) ∧ s1.ts = s0.ts ++ [t] ∧ t.Closed = true ∧ interpolateAt fbEnv.flow p.window = .ok fl ∧ interpolateAt fbEnv.sea p.window = .ok sl ∧
    fbEnv.parts.unsteady p.chan (fl.zip sl) = .error .other ∧ p.dep.getLast? = some (fin d) ∧ p.vel.getLast? = some (fin v) ∧
    p.chan.width.getLast? = some (fin w) ∧ t.LagOutflow = fin (103/2) := by
  have h : okAnd (initial fbEnv coBarred) (fun s0 => okAnd (pass fbEnv s0) (fun x => okAnd (interpolateAt fbEnv.flow x.1.window) (fun _ =>
      okAnd (interpolateAt fbEnv.sea x.1.window) (fun _ => match x.2.ts.getLast? with
        | none => false
        | some t => decide (x.2.ts = s0.ts ++ [t] ∧ t.Closed = true ∧ x.1.dep.getLast? = some (fin 1) ∧ x.1.vel.getLast? = some (fin (103/40)) ∧
            x.1.chan.width.getLast? = some (fin 20) ∧ t.LagOutflow = fin (103/2)))))) = true := by
    decide +kernel
  obtain ⟨s0, h0, h⟩ := okAnd_iff.mp h
  obtain ⟨⟨p, s1⟩, h1, h⟩ := okAnd_iff.mp h
  obtain ⟨fl, h2, h⟩ := okAnd_iff.mp h
  obtain ⟨sl, h3, h⟩ := okAnd_iff.mp h
  cases ht : s1.ts.getLast? with
  | none => simp only [ht] at h; cases h
  | some t =>
    simp only [ht] at h
    obtain ⟨h4, h5, h6, h7, h8, h9⟩ := of_decide_eq_true h
    exact ⟨fb_len, fb_carries, coBarred_sized, s0, s1, p, fl, sl, t, _, _, _, h0, .start, h1, h4, h5, h2, h3, rfl, h6, h7, h8, h9⟩

/-- The hypotheses of C193_refuted_start are met by a closed lagoon, with an inflow of 50 m³/s. -/
example : SteadyCarries fbEnv.parts ∧ (∀ a ∈ coBarred.LagoonVel, a = fin 0) ∧ ∃ s0, initial fbEnv coBarred = .ok s0 ∧ s0.Closed = true ∧
    s0.ts.map (fun t => (t.Closed, t.LagOutflow, t.RivFlow)) = [(true, fin 50, fin 50)] := by
  refine ⟨fb_carries, by decide +kernel, ?_⟩
  have h : okAnd (initial fbEnv coBarred) (fun s0 => decide (s0.Closed = true ∧
    s0.ts.map (fun t => (t.Closed, t.LagOutflow, t.RivFlow)) = [(true, fin 50, fin 50)])) = true := by decide +kernel
  obtain ⟨s0, h0, h⟩ := okAnd_iff.mp h
  obtain ⟨h1, h2⟩ := of_decide_eq_true h
  exact ⟨s0, h0, h1, h2⟩

/-- The sample channel with an unsteady solver that returns depths of 1 m and velocities of 1 mm/s. -/
def stillEnv : Env ℚ := { coEnv with parts := { coParts with unsteady := fun c _ => .ok (c.width.map (fun _ => (fin 1, fin (1/1000)))) } }

/-- The hypotheses of C193_partial are met, with a tolerance of 0.1, and so are those of C193_refuted_unsteady: an outflow of 0.02 m³/s. -/
example : ClosedTight stillEnv.parts (fun c _ => c.width ≠ []) (1/10) ∧ UnsteadyGood stillEnv.parts ∧ ∃ s0 s1 p fl sl t hv, initial stillEnv coBarred = .ok s0 ∧
    pass stillEnv s0 = .ok (p, s1) ∧ s1.ts = s0.ts ++ [t] ∧ t.Closed = true ∧
    interpolateAt stillEnv.flow p.window = .ok fl ∧ interpolateAt stillEnv.sea p.window = .ok sl ∧ stillEnv.parts.unsteady p.chan (fl.zip sl) = .ok hv ∧
    p.chan.width ≠ [] ∧ p.chan.width.getLast? = some (fin 20) ∧ t.LagOutflow = fin (1/50) ∧
    (∀ l ∈ [p.chan.dx, p.chan.elev, p.chan.width, p.chan.lagArea, p.chan.lagLen, p.chan.dep, p.chan.vel], ∀ a ∈ l, ∃ x : ℚ, a = fin x) := by
  have h : okAnd (initial stillEnv coBarred) (fun s0 => okAnd (pass stillEnv s0) (fun x => okAnd (interpolateAt stillEnv.flow x.1.window) (fun _ =>
      okAnd (interpolateAt stillEnv.sea x.1.window) (fun _ => match x.2.ts.getLast? with
        | none => false
        | some t => decide (x.2.ts = s0.ts ++ [t] ∧ t.Closed = true ∧ x.1.chan.width ≠ [] ∧
            x.1.chan.width.getLast? = some (fin 20) ∧ t.LagOutflow = fin (1/50) ∧ (∀ l ∈ [x.1.chan.dx, x.1.chan.elev, x.1.chan.width, x.1.chan.lagArea, x.1.chan.lagLen,
        x.1.chan.dep, x.1.chan.vel], ∀ a ∈ l, (match a with | fin _ => true | _ => false) = true)))))) = true := by
    decide +kernel
  obtain ⟨s0, h0, h⟩ := okAnd_iff.mp h
  obtain ⟨⟨p, s1⟩, h1, h⟩ := okAnd_iff.mp h
  obtain ⟨fl, h2, h⟩ := okAnd_iff.mp h
  obtain ⟨sl, h3, h⟩ := okAnd_iff.mp h
  cases ht : s1.ts.getLast? with
  | none => simp only [ht] at h; cases h
  | some t =>
    simp only [ht] at h
    obtain ⟨h4, h5, h6, h7, h8, h9⟩ := of_decide_eq_true h
    refine ⟨?_, ?_, s0, s1, p, fl, sl, t, _, h0, h1, h4, h5, h2, h3, rfl, h6, h7, h8, ?_⟩
    · intro c bdy hv _ hne hs
      simp only [stillEnv, Except.ok.injEq] at hs
      subst hs
      refine ⟨1, 1/1000, ?_, by rw [abs_of_pos] <;> norm_num⟩
      rw [List.getLast?_map, List.getLast?_eq_some_getLast hne]
      rfl
    · intro c bdy hv _ hs x hx
      simp only [stillEnv, Except.ok.injEq] at hs
      subst hs
      obtain ⟨_, _, rfl⟩ := List.mem_map.mp hx
      exact ⟨1, 1/1000, rfl, by norm_num, by norm_num⟩
    · intro l hl a ha
      have := h9 l hl a ha
      cases a with
      | fin x => exact ⟨x, rfl⟩
      | nan => cases this
      | pinf => cases this
      | ninf => cases this

/-- The parameters of the closed basin of C150: a gravity of 10 m/s², no friction. -/
noncomputable def tenPars : PhysPars ℝ := { demoPars with Gravity := 10, RoughnessManning := 0 }

/-- The solver of that basin, refusing systems of other sizes. -/
noncomputable def fillAny : Solver := onlySize 4 fillSolver

/-- That basin as a channel given to the unsteady solver. -/
noncomputable def fillChan : ChanOut ℝ :=
  { dx := [fin 1], elev := [fin 0, fin 0], width := [fin 1, fin 1], lagArea := [fin 0, fin 0], lagLen := [fin 0, fin 0], dep := [fin 1, fin 1], vel := [fin 1, fin 1],
    online := [], outlet := [], flag := [], closed := true }

/-- The hypotheses of C193_real are met, and a call that goes well exists. -/
example : (∀ band err d, fillAny band err = .ok d → SolvesBand err.length band err d) ∧ (∀ band err, fillAny band err ≠ .singular) ∧
    GoesWell tenPars ⟨1, 1, 0, 3, 5, 0, 0⟩ 1 sec fillAny fillChan [(fin 1, fin 0)] 2 plainChan (fun _ => 1) [(1, 0)] ∧
    ∃ hv, (realParts tenPars ⟨1, 1, 0, 3, 5, 0, 0⟩ 1 sec fillAny).unsteady fillChan [(fin 1, fin 0)] = .ok hv := by
  have hsec : ((secs sec : ℤ) : ℝ) = 1 := by norm_num [secs, sec]
  have hl : (((List.range (2-1)).map (fun _ => fin (1:ℝ))).length + 1 = ((List.range 2).map (fun k => finNode (plainChan k))).length) := rfl
  have hp : ∀ hsec : ((secs sec : ℤ) : ℝ) = 1, (⟨10, 0, 0, 1, 1, 3, 5, ((secs sec : ℤ) : ℝ)⟩ : PrePars) = fillPars := by
    intro h; rw [h]; rfl
  have hcall : (realParts tenPars ⟨1, 1, 0, 3, 5, 0, 0⟩ 1 sec fillAny).unsteady fillChan [(fin 1, fin 0)] =
      .ok [(fin (67/36), fin (5/36)), (fin (77/36), fin (-41/36))] := by
    have := fill_call.1
    rw [← preissmann_onlySize _ _ _ _ _ _ hl] at this
    rw [← this, ← hp hsec]
    rfl
  refine ⟨?_, ?_, ?_, _, hcall⟩
  · intro band err d h
    unfold fillAny onlySize at h
    split at h
    · rename_i e
      rw [e]
      unfold fillSolver at h
      split at h
      · rename_i hs; cases h; exact hs
      · cases h
    · cases h
  · intro band err h
    unfold fillAny onlySize at h
    split at h
    · unfold fillSolver at h
      split at h <;> cases h
    · cases h
  · refine ⟨le_rfl, rfl, rfl, rfl, rfl, rfl, rfl, rfl, rfl, by simp, by intros; norm_num, by intros; norm_num [plainChan], by intros; norm_num [plainChan],
      by intros; norm_num [plainChan], ?_, ?_⟩
    · have := fill_call.2
      rw [← converges_onlySize hl, ← hp hsec] at this
      exact this
    · intro hv h
      rw [hcall] at h
      cases h
      intro x hx
      simp only [List.mem_cons, List.not_mem_nil, or_false] at hx
      rcases hx with rfl | rfl <;> refine ⟨?_, ?_⟩ <;> (intro e; injection e with e; norm_num at e)

end Verif.Props
