import Verif.Model.BdyFig
import Verif.Props.Forcing

set_option autoImplicit false
set_option linter.unusedSectionVars false

/-! # C133: the live figure of boundary conditions shows what the time series file records -/

namespace Verif.Props
open Verif Verif.Model Verif.Spec Fl

variable {K : Type} [Field K] [LinearOrder K] [IsStrictOrderedRing K] [FloorRing K]

/-- The figure and the time series file say the same. -/
def SameAs (q : BdyPt K) (r : TsRec K) : Prop := q.time = r.time ∧ q.Qin = r.RivFlow ∧ q.Qout = r.LagOutflow ∧ q.SeaLevel = r.SeaLevel

/-- What is known of the table during a run. -/
structure TableInv (e : Env K) (s0 s : CoreSt K) (tr : List (CoreSt K × PassOut K × CoreSt K)) (pts : List (BdyPt K)) : Prop where
  sorted : pts.Pairwise (fun a b => a.time ≤ b.time)
  le : ∀ q ∈ pts, q.time ≤ s.time
  first : ∃ r, s0.ts = [r] ∧ pts.head? = some (bdyFirst r)
  rest : ∀ q ∈ pts.tail, ∃ x ∈ tr, q.time = x.2.2.time ∧ bdyNext x.2.1 x.2.2.time = .ok q

theorem table_inv {e : Env K} {ld : LoadOut K} {s0 s : CoreSt K} {tr : List (CoreSt K × PassOut K × CoreSt K)} (h0 : initial e ld = .ok s0)
    (hse : e.tp.StartTime ≤ e.tp.EndTime) (hmin : 0 ≤ e.tp.MorDtMin) (h : Run e s0 tr s) :
    ∀ {pts : List (BdyPt K)}, bdyTable e s0 tr = .ok pts → TableInv e s0 s tr pts := by
  have hi := TimeInv.initial h0 hse hmin
  obtain ⟨t0, _, _, _, _, _, ⟨r0, hr0, hrt⟩, _⟩ := initial_inv h0
  induction h with
  | start =>
    intro pts hp
    unfold bdyTable at hp
    rw [List.foldlM_nil, pure_ok, hr0] at hp
    subst hp
    refine ⟨by simp, ?_, ⟨r0, hr0, rfl⟩, by simp⟩
    intro q hq
    simp only [List.take_one, List.head?_cons, Option.toList_some, List.map_cons, List.map_nil, List.mem_singleton] at hq
    rw [hq]
    show r0.time ≤ _
    rw [hrt, t0]
  | @pass tr s s' p hr hle hp ih =>
    intro pts hpts
    unfold bdyTable at hpts
    rw [List.foldlM_append, bind_ok] at hpts
    obtain ⟨pts0, h1, h2⟩ := hpts
    have i := ih h1
    have hle' := ((hr.timeInv hi).step hp).2
    simp only [List.foldlM_cons, List.foldlM_nil, bind_ok, pure_ok] at h2
    obtain ⟨pts1, h2, rfl⟩ := h2
    have hrest : ∀ q ∈ pts0.tail, ∃ x ∈ tr ++ [(s, p, s')], q.time = x.2.2.time ∧ bdyNext x.2.1 x.2.2.time = .ok q := by
      intro q hq
      obtain ⟨x, hx, h⟩ := i.rest q hq
      exact ⟨x, List.mem_append_left _ hx, h⟩
    unfold bdyStep at h2
    split at h2
    · simp only [bind_ok, pure_ok] at h2
      obtain ⟨q, hq, rfl⟩ := h2
      have hqt : q.time = s'.time := by
        unfold bdyNext at hq
        simp only [bind_ok, pure_ok] at hq
        obtain ⟨_, _, _, _, _, _, rfl⟩ := hq
        rfl
      obtain ⟨r, hr1, hf⟩ := i.first
      have hne : pts0 ≠ [] := by rintro rfl; cases hf
      refine ⟨?_, ?_, ⟨r, hr1, ?_⟩, ?_⟩
      · rw [List.pairwise_append]
        refine ⟨i.sorted, by simp, ?_⟩
        intro a ha b hb
        rw [List.mem_singleton] at hb
        rw [hb, hqt]
        exact (i.le a ha).trans hle'
      · intro a ha
        rcases List.mem_append.mp ha with h | h
        · exact (i.le a h).trans hle'
        · rw [List.mem_singleton.mp h, hqt]
      · rw [List.head?_append, hf]; rfl
      · intro a ha
        rw [List.tail_append_of_ne_nil hne] at ha
        rcases List.mem_append.mp ha with h | h
        · exact hrest a h
        · rw [List.mem_singleton.mp h]
          exact ⟨(s, p, s'), by simp, hqt, hq⟩
    · cases h2
      exact ⟨i.sorted, fun a ha => (i.le a ha).trans hle', i.first, hrest⟩

/-- C133, partial: in every run, each point after the first was added in a pass, and holds what the time series file has for that
pass if a record was written.  The first point is that of the first record, except that the inflow is shown as outflow: it is the
same if and only if the recorded outflow is the inflow.  The points are in order of time and the time axis covers all of them.
(Missing: the outflow at the start.) -/
theorem C133_partial {e : Env K} {ld : LoadOut K} {s0 s : CoreSt K} {tr : List (CoreSt K × PassOut K × CoreSt K)} (h0 : initial e ld = .ok s0)
    (hse : e.tp.StartTime ≤ e.tp.EndTime) (hmin : 0 ≤ e.tp.MorDtMin) (h : Run e s0 tr s) {pts : List (BdyPt K)} (hp : bdyTable e s0 tr = .ok pts) :
    (∀ q ∈ pts.tail, ∃ x ∈ tr, q.time = x.2.2.time ∧ q.Qin = x.2.1.flow ∧ q.SeaLevel = x.2.1.sea ∧
      ∀ r, x.2.2.ts = x.1.ts ++ [r] → SameAs q r) ∧
    (∃ q r, pts.head? = some q ∧ s0.ts = [r] ∧ q.time = e.tp.StartTime ∧ (SameAs q r ↔ r.LagOutflow = r.RivFlow)) ∧
    pts.Pairwise (fun a b => a.time ≤ b.time) ∧ ∃ lo hi, bdyAxis pts = .ok (lo, hi) ∧ ∀ q ∈ pts, lo ≤ q.time ∧ q.time ≤ hi := by
  have i := table_inv h0 hse hmin h hp
  have hpass : ∀ x ∈ tr, pass e x.1 = .ok (x.2.1, x.2.2) := by
    clear i hp
    induction h with
    | start => intro x hx; cases hx
    | @pass tr s s' p hr hle hp ih =>
      intro x hx
      rcases List.mem_append.mp hx with h | h
      · exact ih x h
      · rw [List.mem_singleton.mp h]; exact hp
  refine ⟨?_, ?_, i.sorted, ?_⟩
  · intro q hq
    obtain ⟨x, hx, ht, hn⟩ := i.rest q hq
    unfold bdyNext at hn
    simp only [bind_ok, pure_ok] at hn
    obtain ⟨d, hd, v, hv, w, hw, rfl⟩ := hn
    refine ⟨x, hx, rfl, rfl, rfl, ?_⟩
    intro r hr
    rcases (pass_inv (hpass x hx)).2.ts with ⟨_, h2, _⟩ | ⟨_, _, r', h2, h3⟩
    · rw [h2] at hr
      have := congrArg List.length hr
      simp at this
    · rw [h2] at hr
      have hr' : r' = r := by simpa using hr
      subst hr'
      unfold tsRecord at h3
      simp only [bind_ok, pure_ok] at h3
      obtain ⟨d', hd', v', hv', w', hw', _, _, rfl⟩ := h3
      rw [hd] at hd'; rw [hv] at hv'; rw [hw] at hw'
      cases hd'; cases hv'; cases hw'
      exact ⟨rfl, rfl, rfl, rfl⟩
  · obtain ⟨r, hr, hf⟩ := i.first
    obtain ⟨_, _, _, _, _, _, ⟨r0, hr0, hrt⟩, _⟩ := initial_inv h0
    rw [hr] at hr0
    cases hr0
    exact ⟨_, r, hf, hr, hrt, ⟨fun h => h.2.2.1.symm, fun h => ⟨rfl, rfl, h.symm, rfl⟩⟩⟩
  · obtain ⟨r, hr, hf⟩ := i.first
    have hs := i.sorted
    cases pts with
    | nil => cases hf
    | cons a l =>
      obtain ⟨b, hb⟩ : ∃ b, (a :: l).getLast? = some b := ⟨_, List.getLast?_eq_some_getLast (by simp)⟩
      refine ⟨a.time, b.time, ?_, ?_⟩
      · unfold bdyAxis
        simp only [bind_ok, pure_ok, ixGet_ok, pyGet_last]
        exact ⟨a, rfl, b, hb, rfl⟩
      · intro q hq
        constructor
        · rcases List.mem_cons.mp hq with rfl | h
          · exact le_rfl
          · exact (List.pairwise_cons.mp hs).1 q h
        · obtain ⟨l', hl⟩ := List.getLast?_eq_some_iff.mp hb
          rw [hl] at hs hq
          rcases List.mem_append.mp hq with h | h
          · exact (List.pairwise_append.mp hs).2.2 q h b (by simp)
          · rw [List.mem_singleton.mp h]

theorem mul_fin_inv {a b : Fl K} {x : K} (h : a * b = fin x) : ∃ u v, a = fin u ∧ b = fin v := by
  have hinf : ∀ (y : K), infOfSign y ≠ fin x := by
    intro y
    unfold infOfSign
    split_ifs <;> simp
  cases a with
  | nan => cases h
  | fin u =>
    cases b with
    | nan => cases h
    | fin v => exact ⟨u, v, rfl, rfl⟩
    | pinf => exact absurd h (hinf _)
    | ninf => exact absurd h (hinf _)
  | pinf =>
    cases b with
    | nan => cases h
    | fin v => exact absurd h (hinf _)
    | pinf => cases h
    | ninf => cases h
  | ninf =>
    cases b with
    | nan => cases h
    | fin v => exact absurd h (hinf _)
    | pinf => cases h
    | ninf => cases h

theorem foldlM_inv_mem {α β : Type} (P : β → Prop) (f : β → α → Except PyErr β) : ∀ (l : List α), (∀ b, ∀ a ∈ l, ∀ r, P b → f b a = .ok r → P r) →
    ∀ b r, P b → l.foldlM f b = .ok r → P r := by
  intro l
  induction l with
  | nil => intro _ b r hb h; simp only [List.foldlM_nil, pure_ok] at h; exact h ▸ hb
  | cons a l ih =>
    intro hf b r hb h
    simp only [List.foldlM_cons, bind_ok] at h
    obtain ⟨c, h1, h2⟩ := h
    exact ih (fun b a' ha => hf b a' (by simp [ha])) c r (hf b a (by simp) c hb h1) h2

/-- The steady solution at the downstream end. -/
theorem solveSteady_last {p : SteadyPars} {dx z B d v : List (Fl ℝ)} (h : solveSteady p dx z B = .ok (d, v)) :
    ∃ b dep, B.getLast? = some b ∧ d.getLast? = some dep ∧ v.getLast? = some (steadyVel p b dep) := by
  unfold solveSteady at h
  simp only [bind_ok, pure_ok, pyGet_last] at h
  obtain ⟨zN, hz, BN, hB, s, hs, he⟩ := h
  cases he
  have hpos : 0 < z.length := List.length_pos_iff.mpr (by rintro rfl; cases hz)
  have key := foldlM_inv_mem (fun s : SteadyArr => s.dep.length = z.length ∧ s.vel.length = z.length ∧
    s.dep[z.length - 1]? = some (npmax (fin p.DsWL - zN) (critDep p BN)) ∧
    s.vel[z.length - 1]? = some (steadyVel p BN (npmax (fin p.DsWL - zN) (critDep p BN)))) _ _ ?_ _ _ ?_ hs
  · obtain ⟨l1, l2, k1, k2⟩ := key
    refine ⟨BN, npmax (fin p.DsWL - zN) (critDep p BN), hB, ?_, ?_⟩
    · rw [List.getLast?_eq_getElem?, l1]; exact k1
    · rw [List.getLast?_eq_getElem?, l2]; exact k2
  · intro b i hi r hb hr
    have hi' : i < z.length - 1 := by simpa using hi
    unfold steadyStep at hr
    simp only [bind_ok, pure_ok] at hr
    obtain ⟨_, _, _, _, _, _, _, _, _, _, _, _, _, _, _, _, rfl⟩ := hr
    obtain ⟨l1, l2, k1, k2⟩ := hb
    refine ⟨by simpa using l1, by simpa using l2, ?_, ?_⟩
    · simp only
      rw [List.getElem?_set_ne (by omega)]; exact k1
    · simp only
      rw [List.getElem?_set_ne (by omega)]; exact k2
  · refine ⟨by simp, by simp, ?_, ?_⟩
    · simp only
      rw [List.getElem?_set_self (by simpa using hpos)]
    · simp only
      rw [List.getElem?_set_self (by simpa using hpos)]

/-- C133 for a start from rest with the solvers of riv.py: the recorded outflow, if it is a number, is the inflow, so the first point is
right too. -/
theorem C133_cold_partial {e : Env ℝ} {ld : LoadOut ℝ} {s0 : CoreSt ℝ} {np : NumPars} {solver : Solver} (h0 : initial e ld = .ok s0)
    (hp : e.parts = realParts e.pp np e.Dx e.tp.HydDt solver) (hc : ∀ v ∈ ld.LagoonVel, v = fin 0) :
    ∀ r ∈ s0.ts, ∀ x, r.LagOutflow = fin x → SameAs (bdyFirst r) r := by
  intro r hr x hx
  unfold initial at h0
  simp only [bind_ok, pure_ok, pyGet_last] at h0
  obtain ⟨fl, _, sl, _, w, _, c, _, q, hq, sq, _, ⟨dep, vel⟩, hst, hyd, _, d, hd, v, hv, cw, hcw, rfl⟩ := h0
  rw [List.mem_singleton] at hr
  subst hr
  have hcold : ld.LagoonVel.all (· ==? fin 0) = true := by
    rw [List.all_eq_true]
    intro v hv
    rw [hc v hv]
    simp [Fl.beq]
  rw [if_pos hcold, hp] at hst
  simp only [realParts, bind_ok] at hst
  obtain ⟨q', hq', w', hw', hst⟩ := hst
  obtain ⟨b, dp, hb, hdp, hvp⟩ := solveSteady_last hst
  simp only at hd hv hx
  rw [hdp] at hd; rw [hvp] at hv; rw [hb] at hcw
  cases hd; cases hv; cases hcw
  have hqq : q = fin q' := by
    cases q with
    | fin y => unfold finOf at hq'; rw [ok_inj.mp hq']
    | nan => cases hq'
    | pinf => cases hq'
    | ninf => cases hq'
  obtain ⟨uv, wf, e1, e2⟩ := mul_fin_inv hx
  obtain ⟨df, vf, e3, e4⟩ := mul_fin_inv e1
  refine ⟨rfl, rfl, ?_, rfl⟩
  show q = _
  rw [hqq]
  simp only
  rw [hx]
  rw [e4, e3, e2, mul_fin, mul_fin] at hx
  unfold steadyVel at e4
  rw [e2, e3, mul_fin] at e4
  simp only at e4
  have hne : wf * df ≠ 0 := by
    intro h0
    rw [h0] at e4
    change (if (0 : ℝ) = 0 then infOfSign q' else fin (q' / 0)) = fin vf at e4
    rw [if_pos rfl] at e4
    unfold infOfSign at e4
    split_ifs at e4
  rw [div_fin _ _ hne] at e4
  injection e4 with e4
  injection hx with hx
  have h1 : wf ≠ 0 := left_ne_zero_of_mul hne
  have h2 : df ≠ 0 := right_ne_zero_of_mul hne
  rw [← hx, ← e4]
  congr 1
  field_simp

/-- The example with plots every 60 s, started from a record of moving water. -/
def coPlot : Env ℚ := { coEnv with oo := { coEnv.oo with PlotInt := 60 * sec } }
def coMoving : LoadOut ℚ := { coLoad with LagoonVel := List.replicate 9 (fin 1) }

/-- C133 refuted: the figure starts with an outflow equal to the inflow of 50, the time series file with the outflow, which is 0. -/
theorem C133_refuted : ∃ (s0 s1 : CoreSt ℚ) (p : PassOut ℚ) (q : BdyPt ℚ) (r : TsRec ℚ) (pts : List (BdyPt ℚ)), initial coPlot coMoving = .ok s0 ∧
    pass coPlot s0 = .ok (p, s1) ∧ Run coPlot s0 [(s0, p, s1)] s1 ∧ bdyTable coPlot s0 [(s0, p, s1)] = .ok pts ∧ pts.length = 2 ∧
    pts.head? = some q ∧ s0.ts = [r] ∧ q.time = r.time ∧ q.Qout = fin 50 ∧ r.LagOutflow = fin 0 := by
  have h : okAnd (initial coPlot coMoving) (fun s0 => okAnd (pass coPlot s0) (fun x => okAnd (bdyTable coPlot s0 [(s0, x.1, x.2)]) (fun pts =>
      match pts, s0.ts with
      | [q, _], [r] => decide (q.time = r.time ∧ q.Qout = fin 50 ∧ r.LagOutflow = fin 0 ∧ s0.time ≤ coPlot.tp.EndTime)
      | _, _ => false))) = true := by
    decide +kernel
  obtain ⟨s0, h0, h⟩ := okAnd_iff.mp h
  obtain ⟨⟨p, s1⟩, h1, h⟩ := okAnd_iff.mp h
  obtain ⟨pts, h2, h⟩ := okAnd_iff.mp h
  split at h
  · rename_i q q' r heq
    obtain ⟨a, b, c, d⟩ := of_decide_eq_true h
    exact ⟨s0, s1, p, q, r, _, h0, h1, Run.pass .start d h1, h2, rfl, rfl, heq, a, b, c⟩
  · cases h

end Verif.Props
