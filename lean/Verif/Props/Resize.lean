import Verif.Lemmas.Resize
import Verif.Lemmas.EndKeep
import Verif.Props.Barrier
import Verif.Props.River

set_option autoImplicit false
set_option linter.unusedSectionVars false

/-! # C179: a scale model of the coast changes like the coast

The claim: for a model of the coast with all lengths and heights `L` times those of nature a morphological step gives the
outcome in nature with all lengths and heights times `L`. It is false: where the shoreline gets to the cliff, the lagoon or the
outlet channel, the step leaves a gap of 1 mm or 0.1 mm, whatever the size of the coast. -/

namespace Verif.Props
open Verif Fl Verif.Model Verif.Spec

variable {K : Type} [Field K] [LinearOrder K] [IsStrictOrderedRing K]

section
variable {L : K} (hL : 0 < L) {pp : PhysPars K} {j1 j2 k1 k2 : ℕ → Bool} {a : MorIn K} {o o' : MorOut K}
  (h : updateMorphology pp j1 j2 a = .ok o) (h' : updateMorphology (resizePars L pp) k1 k2 (resizeIn L a) = .ok o')

include hL in
theorem stage_sz {dt dt' : ℤ} {X X' : ℕ} {s s' : MorSt K} (g : forceStage pp a = .ok (dt, X, s)) (g' : forceStage (resizePars L pp) (resizeIn L a) = .ok (dt', X', s')) :
    dt' = dt ∧ X' = X ∧ blankSt s' = ssz L s := by
  have e := force_sz L hL pp a
  rw [g, g'] at e
  simp only [Except.map, Except.ok.injEq, Prod.mk.injEq] at e
  exact e

include hL h h' in
/-- C179, timestep and river: a scale model takes the timesteps of the coast, and the bed of its river changes alike. -/
theorem C179_river : o'.MorDt = o.MorDt ∧ o'.RiverElev = o.RiverElev.map (resized L) := by
  obtain ⟨X, s, g, e⟩ := update_riv h
  obtain ⟨X', s', g', e'⟩ := update_riv h'
  obtain ⟨e1, _, e3⟩ := stage_sz hL g g'
  refine ⟨e1, ?_⟩
  rw [e, e', resized_eq]
  exact congrArg MorSt.riv e3

include hL h h' in
/-- C179, width and bed of the outlet: they change alike in steps without a breach. -/
theorem C179_outlet_partial (hb : o.Breach = false) (hb' : o'.Breach = false) : o'.EndWidth = resized L o.EndWidth ∧ o'.EndElev = resized L o.EndElev := by
  obtain ⟨X, s, g, e1, e2⟩ := update_ends h hb
  obtain ⟨X', s', g', e1', e2'⟩ := update_ends h' hb'
  obtain ⟨_, _, e3⟩ := stage_sz hL g g'
  rw [e1, e2, e1', e2', resized_eq]
  exact ⟨congrArg MorSt.endW e3, congrArg MorSt.endZ e3⟩
end

/-! ## The conditions hold for the scale model -/

theorem isNumber_sz (L : K) {v : Fl K} (h : IsNumber v) : IsNumber (resized L v) := by
  cases v <;> exact h

section
variable {L : K} (hL : 0 < L)
include hL

theorem apart_sz {u v : Fl K} (h : Apart u v) : Apart (resized L u) (resized L v) := by
  cases u <;> cases v <;> first | exact h | exact fun e => h (mul_left_cancel₀ hL.ne' e)

theorem apart_fin_sz {u : Fl K} {x : K} (h : Apart u (fin x)) : Apart (resized L u) (fin (L * x)) := apart_sz hL h
theorem apart_fin_sz' {u : Fl K} {x : K} (h : Apart (fin x) u) : Apart (fin (L * x)) (resized L u) := apart_sz hL h

omit hL in
theorem nan_sz (u : Fl K) : (resized L u).isnan = u.isnan := by cases u <;> rfl

theorem regular_sz {pp : PhysPars K} {a : MorIn K} (h : Regular pp a) : Regular (resizePars L pp) (resizeIn L a) := by
  obtain ⟨h1, h2, h3, h4, h5, h6, h7, h8, h9⟩ := h
  have nums : ∀ (q : K) (l : List (Fl K)), (∀ v ∈ l, IsNumber v) → ∀ v ∈ l.map (resized q), IsNumber v := by
    intro q l hl v hv
    obtain ⟨u, hu, rfl⟩ := List.mem_map.mp hv
    exact isNumber_sz q (hl u hu)
  have get : ∀ (i : ℕ) (r : Transect K), r ∈ (resizeIn L a).rows[i]? → ∃ s ∈ a.rows[i]?, r = resizeRow L s := by
    intro i r hr
    rw [show (resizeIn L a).rows = a.rows.map (resizeRow L) from rfl, List.getElem?_map] at hr
    cases hs : a.rows[i]? with
    | none => rw [hs] at hr; cases hr
    | some s => rw [hs] at hr; exact ⟨s, rfl, (Option.some.inj hr).symm⟩
  refine ⟨mul_ne_zero hL.ne' h1, mul_ne_zero hL.ne' h2, nums _ _ h3, nums _ _ h4, nums _ _ h5, h6, ?_, ?_, ?_⟩
  · intro r hr
    obtain ⟨s, hs, rfl⟩ := List.mem_map.mp hr
    obtain ⟨b1, b2, b3⟩ := h7 s hs
    refine ⟨isNumber_sz L b1, ?_, ?_⟩
    · show Apart (resized L s.z0) (fin (-(L * pp.ClosureDepth)))
      rw [← mul_neg]
      exact apart_fin_sz hL b2
    · show if (resized L s.y1).isnan then _ else _
      rw [nan_sz]
      split at b3 <;> rename_i hn
      · rw [if_pos hn]; exact ⟨isNumber_sz L b3.1, apart_sz hL b3.2⟩
      · rw [if_neg hn]; exact ⟨isNumber_sz L b3.1, apart_sz hL b3.2⟩
  · intro i hi r hr
    obtain ⟨s, hs, rfl⟩ := get i r hr
    obtain ⟨b1, b2, b3⟩ := h8 i hi s hs
    refine ⟨apart_sz hL b1, ?_, apart_fin_sz' hL b3⟩
    show Apart (if (resized L s.y1).isnan then resized L s.z0 else resized L s.z2) (resized L s.z3)
    rw [nan_sz]
    split at b2 <;> rename_i hn
    · rw [if_pos hn]; exact apart_sz hL b2
    · rw [if_neg hn]; exact apart_sz hL b2
  · intro hc
    obtain ⟨c1, c2, c3, c4, c5, c6⟩ := h9 hc
    refine ⟨fun i hi r hr => ?_, isNumber_sz L c2, ?_, apart_fin_sz hL c4, mul_ne_zero hL.ne' c5, mul_ne_zero hL.ne' c6⟩
    · obtain ⟨s, hs, rfl⟩ := get i r hr
      obtain ⟨b1, b2, b3⟩ := c1 i hi s hs
      exact ⟨apart_sz hL b1, apart_sz hL b2, apart_sz hL b3⟩
    · have := apart_fin_sz hL c3
      rwa [mul_zero] at this

theorem beyond_sz {a : MorIn K} {r : Transect K} (h : BeyondOutlet a r) : BeyondOutlet (resizeIn L a) (resizeRow L r) := by
  intro hc
  obtain ⟨e, p, q, he, hp, hq, k1, k2, k3⟩ := h hc
  have hrows : (resizeIn L a).rows = a.rows.map (resizeRow L) := rfl
  refine ⟨L * e, resizeRow L p, resizeRow L q, ?_, ?_, ?_, ?_, ?_, ?_⟩
  · show resized L a.EndX1 = _
    rw [he]; rfl
  · rw [hrows, List.getElem?_map, hp]; rfl
  · rw [hrows, List.length_map, List.getElem?_map, hq]; rfl
  · show L * p.x + L * a.MaxMorChange ≤ L * e
    rw [← mul_add]; exact mul_le_mul_of_nonneg_left k1 hL.le
  · show L * e + L * a.MaxMorChange ≤ L * q.x
    rw [← mul_add]; exact mul_le_mul_of_nonneg_left k2 hL.le
  · have get : ∀ (j : ℕ) (d : Transect K), d ∈ (resizeIn L a).rows[j]? → ∃ s ∈ a.rows[j]?, d = resizeRow L s := by
      intro i r hr
      rw [hrows, List.getElem?_map] at hr
      cases hs : a.rows[i]? with
      | none => rw [hs] at hr; cases hr
      | some s => rw [hs] at hr; exact ⟨s, rfl, (Option.some.inj hr).symm⟩
    rcases k3 with ⟨k4, k5⟩ | ⟨k4, k5⟩
    · refine Or.inl ⟨?_, fun j hj d hd => ?_⟩
      · show L * e + L * a.MaxMorChange < L * r.x
        rw [← mul_add]; exact mul_lt_mul_of_pos_left k4 hL
      · obtain ⟨s, hs, rfl⟩ := get j d hd
        exact mul_le_mul_of_nonneg_left (k5 j hj s hs) hL.le
    · refine Or.inr ⟨?_, fun j hj d hd => ?_⟩
      · show L * r.x + L * a.MaxMorChange < L * e
        rw [← mul_add]; exact mul_lt_mul_of_pos_left k4 hL
      · obtain ⟨s, hs, rfl⟩ := get j d hd
        exact mul_le_mul_of_nonneg_left (k5 j hj s hs) hL.le

theorem notAtEnd_sz {a : MorIn K} {i : ℕ} {r : Transect K} (h : NotAtEnd a i r) : NotAtEnd (resizeIn L a) i (resizeRow L r) := by
  intro hc e' he q' hq ⟨k1, k2⟩
  rw [show (resizeIn L a).rows = a.rows.map (resizeRow L) from rfl, List.getElem?_map] at hq
  cases hs : a.rows[i + 1]? with
  | none => rw [hs] at hq; cases hq
  | some q =>
    rw [hs] at hq
    obtain rfl := Option.some.inj hq
    have he : resized L a.EndX1 = fin e' := he
    cases hE : a.EndX1 with
    | fin e =>
      rw [hE] at he
      have he : L * e = e' := by injection he
      subst he
      exact h hc e hE q hs ⟨le_of_mul_le_mul_left k1 hL, lt_of_mul_lt_mul_left k2 hL.le⟩
    | _ => rw [hE] at he; cases he

theorem sorted_sz {a : MorIn K} (h : a.rows.Pairwise (fun r s => r.x < s.x)) : (resizeIn L a).rows.Pairwise (fun r s => r.x < s.x) := by
  show (a.rows.map (resizeRow L)).Pairwise _
  rw [List.pairwise_map]
  exact h.imp (fun hx => mul_lt_mul_of_pos_left hx hL)
end

/-- Before the repairs lagoon and cliff have moved by no more than `MaxMorChange`. -/
theorem stage_near {pp : PhysPars K} {a : MorIn K} (hB : 0 ≤ a.MaxMorChange) (hreg : Regular pp a) {i : ℕ} {r : Transect K} (hr : a.rows[i]? = some r)
    (hnear : ∀ X0 rb cells' R, precalc pp a = .ok (a.rows.mapIdx (mkCell pp a), X0, rb) →
      allRates pp a rb (a.rows.mapIdx (mkCell pp a)) = .ok (R, cells') → cells'[i]? = some (mkCell pp a i r))
    {y3 y4 : K} (h3 : r.y3 = fin y3) (h4 : r.y4 = fin y4) {dt : ℤ} {X : ℕ} {s : MorSt K} (g : forceStage pp a = .ok (dt, X, s)) {c : Cell K} (hc : s.cells[i]? = some c) :
    ∃ w3 w4, c.t.y3 = fin w3 ∧ c.t.y4 = fin w4 ∧ |w3 - y3| ≤ a.MaxMorChange ∧ |w4 - y4| ≤ a.MaxMorChange := by
  obtain ⟨rb, cells', R, R', rate, hp, hall, hrt, hdt, hl, ha⟩ := force_inv g
  have hF := regular_finite hreg hp hall
  have hm : (a.rows.mapIdx (mkCell pp a)).length = a.rows.length := by simp
  obtain ⟨hlen, hlen', _⟩ := allRates_len hm hall
  obtain ⟨hsm, hcl⟩ := limit_small hB hF hrt hl
  have hil := (List.getElem?_eq_some_iff.mp hr).1
  have hcell := hnear X rb cells' R hp hall
  simp only [Rates.cols, List.mem_cons, List.not_mem_nil, or_false, forall_eq_or_imp, forall_eq] at hsm
  obtain ⟨_, _, _, s3, s4, _⟩ := hsm
  have l3 : R'.y3.length = a.rows.length := by
    have := congrArg (fun l => l[3]?) hcl
    simp only [Rates.cols, List.map_cons, List.getElem?_cons_succ, List.getElem?_cons_zero, Option.some.injEq] at this
    rw [this]; exact hlen.2.2.2.1
  have l4 : R'.y4.length = a.rows.length := by
    have := congrArg (fun l => l[4]?) hcl
    simp only [Rates.cols, List.map_cons, List.getElem?_cons_succ, List.getElem?_cons_zero, Option.some.injEq] at this
    rw [this]; exact hlen.2.2.2.2.1
  have hs0 : (0 : K) ≤ (secs dt : K) := by exact_mod_cast secs_nonneg dt
  obtain ⟨x3, hx3, b3⟩ := s3 _ (List.getElem_mem (l := R'.y3) (n := i) (by omega))
  obtain ⟨x4, hx4, b4⟩ := s4 _ (List.getElem_mem (l := R'.y4) (n := i) (by omega))
  have hcc : c = moveCell R' (fin (secs dt : K)) i (mkCell pp a i r) := by
    unfold applyRates at ha
    simp only at ha
    split at ha
    · cases ha
    · cases ha
      simp only [List.getElem?_mapIdx, hcell, Option.map_some, Option.some.injEq] at hc
      exact hc.symm
  subst hcc
  refine ⟨y3 + x3 * (secs dt : K), y4 + x4 * (secs dt : K), ?_, ?_, ?_, ?_⟩
  · show r.y3 + (R'.y3[i]?).getD nan * fin (secs dt : K) = _
    rw [List.getElem?_eq_getElem (by omega), Option.getD_some, hx3, h3, mul_fin, add_fin]
  · show r.y4 + (R'.y4[i]?).getD nan * fin (secs dt : K) = _
    rw [List.getElem?_eq_getElem (by omega), Option.getD_some, hx4, h4, mul_fin, add_fin]
  · rw [add_sub_cancel_left, abs_mul, abs_of_nonneg hs0]; exact b3
  · rw [add_sub_cancel_left, abs_mul, abs_of_nonneg hs0]; exact b4

/-! ## A barrier -/

section
variable {L : K} (hL : 0 < L) {pp : PhysPars K} {j1 j2 k1 k2 : ℕ → Bool} {a : MorIn K} {o o' : MorOut K}
  (h : updateMorphology pp j1 j2 a = .ok o) (h' : updateMorphology (resizePars L pp) k1 k2 (resizeIn L a) = .ok o')

include hL h h' in
/-- C179, a barrier: where there is no outlet channel and the shoreline is more than twice `MaxMorChange` from lagoon and cliff, a
transect beyond the outlet that is not breached changes alike. In line with the river also the lagoon must be wide enough. -/
theorem C179_barrier_partial (hB : 0 ≤ a.MaxMorChange) (hreg : Regular pp a) (hsort : a.rows.Pairwise (fun r s => r.x < s.x)) {i : ℕ} {r : Transect K}
    (hr : a.rows[i]? = some r) {y y3 z0 z3 : K} (hw : PlainBarrier a.MaxMorChange r y y3 z0 z3) (hbey : BeyondOutlet a r) (hend : NotAtEnd a i r)
    (hx : r.x ≠ 0 ∨ ∃ y4, r.y4 = fin y4 ∧ pp.MinOutletWidth + 2 * a.MaxMorChange ≤ y3 - y4)
    (nb : ¬ BreachedAt o r.x) (nb' : ¬ BreachedAt o' (L * r.x)) : o'.rows[i]? = (o.rows[i]?).map (resizeRow L) := by
  obtain ⟨h0, h1, h2, h3, _, _, w3, y4, h4, w4⟩ := hw
  have hr' : (resizeIn L a).rows[i]? = some (resizeRow L r) := by
    show (a.rows.map (resizeRow L))[i]? = _
    rw [List.getElem?_map, hr]; rfl
  have m3 : 2 * (resizeIn L a).MaxMorChange < L * y - L * y3 := by
    show 2 * (L * a.MaxMorChange) < _
    nlinarith
  have m4 : 2 * (resizeIn L a).MaxMorChange < L * y - L * y4 := by
    show 2 * (L * a.MaxMorChange) < _
    nlinarith
  have hB' : 0 ≤ (resizeIn L a).MaxMorChange := mul_nonneg hL.le hB
  obtain ⟨X, s, rb, cells, R, R', rate, g, hc, _, _, _, _, n3, n4, res⟩ := update_plain0 h hB hreg hr hbey (barrier_near hB hsort hr hbey hend) h0 h1 h2 h3 h4 w3 w4
  obtain ⟨X', s', rb', cells', S, S', rate', g', hc', _, _, _, _, _, _, res'⟩ := update_plain0 h' hB' (regular_sz hL hreg) hr' (beyond_sz hL hbey)
    (barrier_near hB' (sorted_sz hL hsort) hr' (beyond_sz hL hbey) (notAtEnd_sz hL hend))
    (y := L * y) (y3 := L * y3) (y4 := L * y4) (by show resized L r.y0 = _; rw [h0]; rfl) (by show resized L r.y1 = _; rw [h1]; rfl) (by show resized L r.y2 = _; rw [h2]; rfl)
    (by show resized L r.y3 = _; rw [h3]; rfl) (by show resized L r.y4 = _; rw [h4]; rfl) m3 m4
  obtain ⟨e1, _, e3⟩ := stage_sz hL g g'
  set c := moveCell R' (fin (secs o.MorDt : K)) i (mkCell pp a i r) with hcd
  set c' := moveCell S' (fin (secs o'.MorDt : K)) i (mkCell (resizePars L pp) (resizeIn L a) i (resizeRow L r)) with hcd'
  have ht : c'.t = resizeRow L c.t := by
    have e4 := congrArg (fun t : MorSt K => t.cells[i]?) e3
    simp only [blankSt, ssz, List.getElem?_map, hc, hc', Option.map_some, Option.some.injEq] at e4
    exact congrArg Cell.t e4
  rcases res with res | ⟨q, q1, q2, q3⟩
  · exact absurd res nb
  rcases res' with res' | ⟨q', q1', q2', q3'⟩
  · exact absurd res' nb'
  -- the lagoon in line with the river
  have hkeep : r.x ≠ 0 ∨ ((c.t.y3 - c.t.y4) <? fin pp.MinOutletWidth) = false := by
    rcases hx with hx | ⟨y4', hy4, hroom⟩
    · exact Or.inl hx
    · right
      rw [h4] at hy4
      cases hy4
      obtain ⟨w3', w4', c3, c4, b3, b4⟩ := stage_near hB hreg hr (barrier_near hB hsort hr hbey hend) h3 h4 g hc
      rw [c3, c4, sub_fin, blt_fin, decide_eq_false_iff_not, not_lt]
      have := neg_abs_le (w3' - y3)
      have := le_abs_self (w4' - y4)
      linarith
  have hkeep' : (resizeRow L r).x ≠ 0 ∨ ((c'.t.y3 - c'.t.y4) <? fin (resizePars L pp).MinOutletWidth) = false := by
    rcases hkeep with hk | hk
    · exact Or.inl (mul_ne_zero hL.ne' hk)
    · right
      rw [ht, row_sz]
      show (sc L c.t.y3 - sc L c.t.y4 <? sc L (fin pp.MinOutletWidth)) = false
      rw [← sc_sub, sc_blt L hL, hk]
  have eq : q = c.t := by
    have e := q3 hkeep
    cases hq : q
    cases hct : c.t
    rw [hq, hct] at q2 e
    simp only [Transect.mk.injEq] at q2 e ⊢
    tauto
  have eq' : q' = c'.t := by
    have e := q3' hkeep'
    cases hq : q'
    cases hct : c'.t
    rw [hq, hct] at q2' e
    simp only [Transect.mk.injEq] at q2' e ⊢
    tauto
  rw [q1, q1', eq, eq', ht]
  rfl

include hL h h' in
/-- C179, a closed lagoon: a coast without outlet channel, the shoreline everywhere more than twice `MaxMorChange` from lagoon and
cliff and the lagoon in line with the river wide enough, changes alike in steps without a breach. -/
theorem C179_closed_partial (hC : a.Closed = true) (hB : 0 ≤ a.MaxMorChange) (hreg : Regular pp a) (hsort : a.rows.Pairwise (fun r s => r.x < s.x))
    (hrow : ∀ r ∈ a.rows, ∃ y y3 z0 z3, PlainBarrier a.MaxMorChange r y y3 z0 z3 ∧
      (r.x ≠ 0 ∨ ∃ y4, r.y4 = fin y4 ∧ pp.MinOutletWidth + 2 * a.MaxMorChange ≤ y3 - y4))
    (nb : o.Breach = false) (nb' : o'.Breach = false) : o'.rows = o.rows.map (resizeRow L) := by
  have hx := C72_positions h
  have hx' := C72_positions h'
  have hlen : o.rows.length = a.rows.length := by simpa using congrArg List.length hx
  have hlen' : o'.rows.length = a.rows.length := by
    have := congrArg List.length hx'
    simpa [resizeIn] using this
  apply List.ext_getElem?
  intro i
  rw [List.getElem?_map]
  cases hr : a.rows[i]? with
  | none =>
    rw [List.getElem?_eq_none_iff] at hr
    rw [List.getElem?_eq_none (by omega), List.getElem?_eq_none (by omega)]
    rfl
  | some r =>
    obtain ⟨y, y3, z0, z3, hw, hroom⟩ := hrow r (List.mem_of_getElem? hr)
    exact C179_barrier_partial hL h h' hB hreg hsort hr hw (fun hc => absurd (hC.symm.trans hc) (by decide)) (fun hc => absurd (hC.symm.trans hc) (by decide)) hroom
      (fun b => by have := b.1; rw [nb] at this; cases this) (fun b => by have := b.1; rw [nb'] at this; cases this)
end

/-! ## The claim as stated is false -/

/-- The parameters of the sample, the outlet at least 30 m wide. -/
def rzPP : PhysPars ℚ := { moPP with MinOutletWidth := 30 }

/-- C179 refuted: where the lagoon in line with the river (20 m) is narrower than the outlet may be (30 m), the cliff is set back to
1 mm behind the width needed, in nature as in a model of twice the size. -/
theorem C179_refuted : ¬ ∀ (L : ℚ) (pp : PhysPars ℚ) (j1 j2 : ℕ → Bool) (a : MorIn ℚ) (o o' : MorOut ℚ), 0 < L → updateMorphology pp j1 j2 a = .ok o →
    updateMorphology (resizePars L pp) j1 j2 (resizeIn L a) = .ok o' → o'.rows = o.rows.map (resizeRow L) := by
  intro hall
  obtain ⟨o, ho, h1⟩ := okAnd_iff.mp (show okAnd (updateMorphology rzPP cleanMem cleanMem brIn) (fun o => (o.rows.map (·.y4))[4]? == some (fin (20 - 30 - 1/1000 : ℚ))) = true by decide +kernel)
  obtain ⟨o', ho', h2⟩ := okAnd_iff.mp (show okAnd (updateMorphology (resizePars 2 rzPP) cleanMem cleanMem (resizeIn 2 brIn))
    (fun o => (o.rows.map (·.y4))[4]? == some (fin (40 - 60 - 1/1000 : ℚ))) = true by decide +kernel)
  have e := hall 2 rzPP cleanMem cleanMem brIn o o' (by norm_num) ho ho'
  rw [e, List.map_map] at h2
  simp only [List.getElem?_map, beq_iff_eq, Option.map_eq_some_iff] at h1 h2
  obtain ⟨r, hr, e1⟩ := h1
  obtain ⟨r', hr', e2⟩ := h2
  rw [hr] at hr'
  cases hr'
  have e2 : resized 2 r.y4 = _ := e2
  rw [e1] at e2
  have e2 : (2 : ℚ) * (20 - 30 - 1/1000) = 40 - 60 - 1/1000 := by injection e2
  norm_num at e2

/-! ## Concrete cases -/

/-- A closed lagoon of which a model of a third of the size is made: the hypotheses hold, and shoreline, crest and lagoon move. -/
example : baIn.Closed = true ∧ 0 ≤ baIn.MaxMorChange ∧ Regular moPP baIn ∧ baIn.rows.Pairwise (fun r s => r.x < s.x) := by decide +kernel

example : ∀ r ∈ baIn.rows, ∃ y y3 z0 z3, PlainBarrier baIn.MaxMorChange r y y3 z0 z3 ∧
    (r.x ≠ 0 ∨ ∃ y4, r.y4 = fin y4 ∧ moPP.MinOutletWidth + 2 * baIn.MaxMorChange ≤ y3 - y4) := by
  intro r hr
  refine ⟨100, 20, 4, -1, ?_⟩
  have key : r.y0 = fin 100 ∧ r.y1 = nan ∧ r.y2 = nan ∧ r.y3 = fin 20 ∧ r.z0 = fin 4 ∧ r.z3 = fin (-1) ∧ r.y4 = fin 0 := by
    revert r
    decide +kernel
  obtain ⟨k0, k1, k2, k3, k4, k5, k6⟩ := key
  have hm : baIn.MaxMorChange = 1/4 := rfl
  have hw : moPP.MinOutletWidth + 2 * (1/4) ≤ 20 - 0 := by decide +kernel
  refine ⟨⟨k0, k1, k2, k3, k4, k5, by rw [hm]; norm_num, 0, k6, by rw [hm]; norm_num⟩, Or.inr ⟨0, k6, by rw [hm]; exact hw⟩⟩

example : okAnd (updateMorphology moPP cleanMem cleanMem baIn) (fun o => okAnd (updateMorphology (resizePars (1/3) moPP) cleanMem cleanMem (resizeIn (1/3) baIn)) (fun o' =>
    !o.Breach && !o'.Breach && decide (o'.rows = o.rows.map (resizeRow (1/3))) && (o.rows.any fun r => !(r.z0 == fin 4) && !(r.y3 == fin 20)) &&
      (o.rows.any fun r => !(r.y0 == fin 100)))) = true := by decide +kernel

/-- The same with an open outlet, for the transect right of it; width and bed of the outlet change. -/
example : okAnd (updateMorphology moPP cleanMem cleanMem boIn) (fun o => okAnd (updateMorphology (resizePars (1/3) moPP) cleanMem cleanMem (resizeIn (1/3) boIn)) (fun o' =>
    !o.Breach && !o'.Breach && decide (o'.rows[7]? = (o.rows[7]?).map (resizeRow (1/3))) && !decide (o.rows[7]? = boIn.rows[7]?) &&
      !decide (o.EndWidth = boIn.EndWidth) && !decide (o.EndElev = boIn.EndElev))) = true := by decide +kernel

/-- A river whose bed rises. -/
example : okAnd (updateMorphology moPP cleanMem cleanMem rvIn) (fun o => okAnd (updateMorphology (resizePars 3 moPP) cleanMem cleanMem (resizeIn 3 rvIn)) (fun o' =>
    decide (o'.RiverElev = o.RiverElev.map (resized 3)) && !decide (o.RiverElev = rvIn.RiverElev))) = true := by decide +kernel

end Verif.Props
