import Verif.Lemmas.Spit
import Verif.Spec.Barrier
import Verif.Props.MorShore

set_option autoImplicit false
set_option linter.unusedSectionVars false

/-! # The rates at a transect of the outlet channel, and the step they make -/

namespace Verif.Model
open Verif Fl Verif.Spec List Verif.Props

variable {K : Type} [Field K] [LinearOrder K] [IsStrictOrderedRing K]

/-- mor.py 152 moves the shoreline of the transect left of the outlet end; nothing else is changed while rates are computed. -/
theorem cells_shift {pp : PhysPars K} {a : MorIn K} {hs ls cs : ℕ → K} (B : Beach pp a hs ls cs) (hc : a.Closed = false) {rb : ℕ} (hrb : rb ≠ 0) {R : Rates K}
    {cells' : List (Cell K)} (hall : allRates pp a rb (a.rows.mapIdx (mkCell pp a)) = .ok (R, cells')) {i : ℕ} (hi1 : i + 1 < a.rows.length) {r : Transect K}
    (hr : a.rows[i]? = some r) {y : K} (h0 : r.y0 = fin y) :
    ∃ d : K, cells'[i]? = some { mkCell pp a i r with t := { r with y0 := fin (y + d) } } ∧ |d| ≤ |ls i| / (hs i * a.Dx) ∧ (i + 1 ≠ rb ∨ 0 ≤ ls i → d = 0) := by
  have hpn : prevIx (a.rows.mapIdx (mkCell pp a)).length rb = rb - 1 := by unfold prevIx; rw [if_neg hrb]
  have hpl : prevIx a.LST.length rb = rb - 1 := by unfold prevIx; rw [if_neg hrb]
  have hm : (a.rows.mapIdx (mkCell pp a)).length = a.rows.length := by simp
  have hp : 0 < hs i * a.Dx := mul_pos (B.pos i) B.dx
  have same : cells'[i]? = some (mkCell pp a i r) → ∃ d : K, cells'[i]? = some { mkCell pp a i r with t := { r with y0 := fin (y + d) } } ∧ |d| ≤ |ls i| / (hs i * a.Dx) ∧ (i + 1 ≠ rb ∨ 0 ≤ ls i → d = 0) := by
    intro h
    refine ⟨0, ?_, by rw [abs_zero]; positivity, fun _ => rfl⟩
    rw [h, add_zero, ← h0]
    rfl
  have row : (a.rows.mapIdx (mkCell pp a))[i]? = some (mkCell pp a i r) := by rw [List.getElem?_mapIdx, hr]; rfl
  by_cases hi : i = rb - 1
  · have hli : a.LST[prevIx a.LST.length rb]? = some (fin (ls i)) := by rw [hpl, ← hi]; exact B.lst i hi1
    rcases lt_or_ge 0 (ls i) with hl | hl
    · refine same ?_
      rw [(allRates_len hm hall).2.2 (Or.inr ⟨fin (ls i), hli, by simpa using hl⟩), row]
    · refine ⟨ls i / (hs i * a.Dx), ?_, by rw [abs_div, abs_of_pos hp], fun h => ?_⟩
      swap
      · have : ls i = 0 := le_antisymm hl (h.resolve_left (not_not.mpr (by omega)))
        rw [this, zero_div]
      unfold allRates at hall
      simp only [bind_ok] at hall
      obtain ⟨R1, g1, ⟨R2, c2⟩, g2, R3, g3, hall⟩ := hall
      cases hall
      unfold lstRates at g2
      simp only [bind_ok] at g2
      obtain ⟨y0, _, g2⟩ := g2
      rw [if_neg (by rw [hc]; simp)] at g2
      simp only [bind_ok, ixGet_ok] at g2
      obtain ⟨l, hl', g2⟩ := g2
      rw [hli] at hl'
      cases hl'
      rw [if_neg (by simpa using hl)] at g2
      simp only [bind_ok, ixGet_ok, pure_ok] at g2
      obtain ⟨cc, hcc, g2⟩ := g2
      cases g2
      obtain ⟨c, hc1, hc2, hc3⟩ := B.cell (i := i) (by omega)
      rw [hpn, ← hi, row] at hcc
      cases hcc
      rw [row] at hc1
      cases hc1
      rw [hpn, ← hi, List.getElem?_modify, row]
      have e : (fin (y + ls i / (hs i * a.Dx)) : Fl K) = r.y0 + fin (ls i) / ((mkCell pp a i r).sfh * fin a.Dx) := by
        rw [hc2, h0, mul_fin, div_fin _ _ hp.ne', add_fin]
      rw [e, Option.map_eq_map, Option.map_some, if_pos rfl]
      rfl
  · refine same ?_
    rw [allRates_cells hall (fun _ => by rw [hpn]; exact hi), row]

/-- What the rates at a transect with a channel are made of, `R1` being those due to the river. -/
theorem chan_rates {pp : PhysPars K} {a : MorIn K} {rb : ℕ} {cells' : List (Cell K)} {R R1 : Rates K}
    (h : allRates pp a rb (a.rows.mapIdx (mkCell pp a)) = .ok (R, cells')) (hR1 : riverRates pp a (a.rows.mapIdx (mkCell pp a)) = .ok R1)
    {i : ℕ} {r : Transect K} (hr : a.rows[i]? = some r) {y0 y1 z0 z1 q v3 o s u : K} (h0 : r.y0 = fin y0) (h1 : r.y1 = fin y1)
    (hz0 : r.z0 = fin z0) (hz1 : r.z1 = fin z1)
    (ho : a.OverwashProp[i]? = some (fin o)) (hs : a.CST[i]? = some (fin s)) (hw : y0 ≠ y1) (hb : z0 ≠ z1)
    (hcell : cells'[i]? = some { mkCell pp a i r with t := { r with y0 := fin u } }) (hq : R1.y1[i]? = some (fin q)) (h3 : R1.y3[i]? = some (fin v3)) :
    R.z0[i]? = some (fin ((1 - o) * s / (y0 - y1))) ∧ R.y1[i]? = some (fin (q - o * s / (z0 - z1))) ∧ R.y2 = R1.y2 ∧ R.y3[i]? = some (fin v3) ∧
      R.y4 = R1.y4 ∧ R.z1 = R1.z1 ∧ R.z3 = R1.z3 := by
  have hil := (List.getElem?_eq_some_iff.mp hr).1
  have hm : (a.rows.mapIdx (mkCell pp a)).length = a.rows.length := by simp
  unfold allRates at h
  simp only [bind_ok] at h
  obtain ⟨R1', g1, ⟨R2, c2⟩, g2, R3, g3, h⟩ := h
  have hz : R1'.z0[i]? = some (fin 0) := by
    have hz : (List.replicate a.rows.length (fin (0 : K)))[i]? = some (fin 0) := by
      rw [List.getElem?_replicate, if_pos hil]
    unfold riverRates at g1
    simp only [bind_ok] at g1
    obtain ⟨ss, _, rows, _, z, e1, y, e2, w, e3, g1⟩ := g1
    split at g1
    · cases g1; exact hz
    · simp only [bind_ok] at g1
      obtain ⟨_, _, _, _, _, _, _, _, _, _, _, _, g1⟩ := g1
      cases g1; exact hz
  rw [hR1] at g1
  cases g1
  obtain ⟨rfl, rfl⟩ : R3 = R ∧ c2 = cells' := by cases h; exact ⟨rfl, rfl⟩
  have k2 : R2.z0 = R1.z0 ∧ R2.y1 = R1.y1 ∧ R2.y2 = R1.y2 ∧ R2.y3 = R1.y3 ∧ R2.y4 = R1.y4 ∧ R2.z1 = R1.z1 ∧ R2.z3 = R1.z3 := by
    unfold lstRates at g2
    simp only [bind_ok] at g2
    obtain ⟨_, _, g2⟩ := g2
    split at g2
    · cases g2; exact ⟨rfl, rfl, rfl, rfl, rfl, rfl, rfl⟩
    · simp only [bind_ok] at g2
      obtain ⟨_, _, g2⟩ := g2
      split at g2 <;>
      · simp only [bind_ok, pure_ok] at g2
        obtain ⟨_, _, g2⟩ := g2
        cases g2; exact ⟨rfl, rfl, rfl, rfl, rfl, rfl, rfl⟩
  obtain ⟨m1, m2, m3, m4, m5, m6, m7⟩ := k2
  have hop : (mkCell pp a i r).op = true := by show (!r.y1.isnan) = true; rw [h1]; rfl
  have hcw : (mkCell pp a i r).cw = fin (y0 - y1) := by
    show (if (!r.y1.isnan) = true then r.y0 - r.y1 else _) = _
    rw [h1]
    simp [Fl.isnan, h0]
  have hbh : (mkCell pp a i r).bh = fin (z0 - z1) := by
    show (if (!r.y1.isnan) = true then r.z0 - r.z1 else _) = _
    rw [h1]
    simp [Fl.isnan, hz0, hz1]
  unfold cstRates at g3
  dsimp only at g3
  split at g3
  · cases g3
  · cases g3
    refine ⟨?_, ?_, m3, ?_, m5, m6, m7⟩
    · simp only [getElem?_mapIdx, getElem?_zip_eq_some, Option.map_eq_some_iff, Prod.exists]
      refine ⟨fin 0, _, ⟨by rw [m1]; exact hz, hcell⟩, ?_⟩
      show fin 0 + (fin 1 - (a.OverwashProp[i]?).getD nan) * (a.CST[i]?).getD nan / (mkCell pp a i r).cw = _
      rw [hs, ho, hcw]
      simp only [Option.getD_some, sub_fin, mul_fin, div_fin _ _ (sub_ne_zero.mpr hw), add_fin, zero_add]
    · simp only [getElem?_mapIdx, getElem?_zip_eq_some, Option.map_eq_some_iff, Prod.exists]
      refine ⟨fin q, _, ⟨by rw [m2]; exact hq, hcell⟩, ?_⟩
      show (if (mkCell pp a i r).op = true then fin q - (a.OverwashProp[i]?).getD nan * (a.CST[i]?).getD nan / (mkCell pp a i r).bh else _) = _
      rw [hs, ho, hbh, hop]
      simp only [Option.getD_some, if_true, mul_fin, div_fin _ _ (sub_ne_zero.mpr hb), sub_fin]
    · simp only [getElem?_mapIdx, getElem?_zip_eq_some, Option.map_eq_some_iff, Prod.exists]
      refine ⟨fin v3, _, ⟨by rw [m4]; exact h3, hcell⟩, ?_⟩
      show (if (mkCell pp a i r).op = true then fin v3 else _) = _
      rw [hop, if_pos rfl]

/-- The river changes the lagoon only where it flows through it. -/
theorem off_rates {pp : PhysPars K} {a : MorIn K} {cells : List (Cell K)} {R1 : Rates K} (h : riverRates pp a cells = .ok R1) {i : ℕ}
    (hil : i < a.rows.length) (hi : i ∉ a.online) : R1.y3[i]? = some (fin 0) ∧ R1.y4[i]? = some (fin 0) ∧ R1.z3[i]? = some (fin 0) := by
  have hz : (List.replicate a.rows.length (fin (0 : K)))[i]? = some (fin 0) := by
    rw [List.getElem?_replicate, if_pos hil]
  have other : ∀ {ss : List (Sec K)} {rs : List (Transect K)} {f : Sec K → Transect K → Fl K} {l : List (Fl K)},
      addCol (List.replicate a.rows.length (fin 0)) a.online ss rs f = .ok l → l[i]? = some (fin 0) := by
    intro ss rs f l hh
    unfold addCol at hh
    split at hh
    · cases hh
    · rw [scatter_other hh i hi, hz]
  unfold riverRates at h
  simp only [bind_ok] at h
  obtain ⟨ss, _, rows, _, z, e1, y, e2, w, e3, h⟩ := h
  split at h
  · cases h
    exact ⟨other e2, other e3, other e1⟩
  · simp only [bind_ok] at h
    obtain ⟨_, _, _, _, _, _, _, _, _, _, _, _, h⟩ := h
    cases h
    exact ⟨other e2, other e3, other e1⟩

/-- All columns through the limiter. -/
theorem limit_cols {R R' : Rates K} {v : Fl K} {lim : K} {dtMin dt : ℤ} (h : limitRates v lim dtMin dt R = .ok R') :
    R' = R ∨ (0 < secs dt ∧ R'.y0 = R.y0.map (clip (lim / (secs dt : K))) ∧ R'.y1 = R.y1.map (clip (lim / (secs dt : K))) ∧
      R'.y2 = R.y2.map (clip (lim / (secs dt : K))) ∧
      R'.y3 = R.y3.map (clip (lim / (secs dt : K))) ∧ R'.y4 = R.y4.map (clip (lim / (secs dt : K))) ∧
      R'.z0 = R.z0.map (clip (lim / (secs dt : K))) ∧ R'.z1 = R.z1.map (clip (lim / (secs dt : K))) ∧ R'.z3 = R.z3.map (clip (lim / (secs dt : K)))) := by
  unfold limitRates at h
  split at h
  · simp only [bind_ok] at h
    obtain ⟨_, _, h⟩ := h
    split at h
    · cases h
    · next hne =>
      cases h
      exact Or.inr ⟨lt_of_le_of_ne (secs_nonneg dt) (Ne.symm hne), rfl, rfl, rfl, rfl, rfl, rfl, rfl, rfl⟩
  · cases h; exact Or.inl rfl

/-- Forcing of an open lagoon with a wide outlet channel: the channel remains safe, its end has not passed a transect, and its transects
move with their rates. -/
theorem force_open {pp : PhysPars K} {a : MorIn K} {dt : ℤ} {X0 : ℕ} {st : MorSt K} (h : forceStage pp a = .ok (dt, X0, st)) {hs ls cs : ℕ → K} (B : Beach pp a hs ls cs)
    (hB : 0 ≤ a.MaxMorChange) (hreg : Regular pp a) (hC : a.Closed = false) (hsort : a.rows.Pairwise (fun r s => r.x < s.x)) {ss : ℕ → SpitShape K}
    (hsh : ∀ j ∈ a.outlet, j + 1 < a.rows.length ∧ ∃ r, a.rows[j]? = some r ∧ HasSpit r (ss j) ∧ WideSpit a.MaxMorChange (|ls j| / (hs j * a.Dx)) (ss j))
    (hend : EndBetween a) {i : ℕ} {r : Transect K} (hi : i ∈ a.outlet) (hr : a.rows[i]? = some r) :
    st.ix = a.outlet ∧ (∀ j ∈ st.ix, ∃ c, st.cells[j]? = some c ∧ SafeT c.t) ∧ EndStays st ∧ st.cells.Pairwise (fun c d => c.t.x < d.t.x) ∧
    ∃ rb cells' R R' rate d, precalc pp a = .ok (a.rows.mapIdx (mkCell pp a), X0, rb) ∧ allRates pp a rb (a.rows.mapIdx (mkCell pp a)) = .ok (R, cells') ∧
      limitRates rate a.MaxMorChange a.MorDtMin dt R = .ok R' ∧ (∀ l ∈ R'.cols, ∀ r ∈ l, Small a.MaxMorChange (secs dt : K) r) ∧ rb ≠ 0 ∧
      cells'[i]? = some { mkCell pp a i r with t := { r with y0 := fin ((ss i).y0 + d) } } ∧ (i + 1 ≠ rb ∨ 0 ≤ ls i → d = 0) ∧
      st.cells[i]? = some (moveCell R' (fin (secs dt : K)) i { mkCell pp a i r with t := { r with y0 := fin ((ss i).y0 + d) } }) := by
  obtain ⟨rb, cells', R, R', rate, hp, hall, hrt, hdt, hl, ha⟩ := force_inv h
  have hF := regular_finite hreg hp hall
  have hm : (a.rows.mapIdx (mkCell pp a)).length = a.rows.length := by simp
  obtain ⟨hlen, hlen', _⟩ := allRates_len hm hall
  obtain ⟨hsm, hcl⟩ := limit_small hB hF hrt hl
  obtain ⟨l, p, q, e, hlast, l1, l2, hp1, hq1, he, k1, k2⟩ := hend
  have hs0 : (0 : K) ≤ (secs dt : K) := by exact_mod_cast secs_nonneg dt
  -- the end is not left of the first transect
  have hrb : rb ≠ 0 := by
    rintro rfl
    obtain ⟨⟨f, hf, hfx⟩, _⟩ := firstIx_ok.mp ((precalc_rb hp).2.1 hC)
    rw [he] at hfx
    simp only [blt_fin, decide_eq_true_eq] at hfx
    obtain ⟨h1, rfl⟩ := List.getElem?_eq_some_iff.mp hf
    obtain ⟨h2, rfl⟩ := List.getElem?_eq_some_iff.mp hp1
    have := List.pairwise_iff_getElem.mp hsort 0 (l - 1) h1 h2 (by omega)
    linarith
  have hsm' := hsm
  simp only [Rates.cols, List.mem_cons, List.not_mem_nil, or_false, forall_eq_or_imp, forall_eq] at hsm
  obtain ⟨s0, s1, s2, s3, s4, _, _, _, _, _, _, sx⟩ := hsm
  simp only [Rates.cols, List.map_cons, List.map_nil, List.cons.injEq, and_true] at hcl
  obtain ⟨q0, q1, q2, q3, q4, _, q6, _⟩ := hcl
  obtain ⟨p0, p1, p2, p3, p4, _, p6, _⟩ := hlen
  have one : ∀ (l : List (Fl K)) (j : ℕ), j < a.rows.length → (∀ v ∈ l, Small a.MaxMorChange (secs dt : K) v) → l.length = a.rows.length → ∀ (v : Fl K) (u : K), v = fin u →
      ∃ u', v + (l[j]?).getD nan * fin (secs dt : K) = fin u' ∧ |u' - u| ≤ a.MaxMorChange := by
    intro l j hj hs hl v u hv
    obtain ⟨x, hx, b⟩ := hs _ (List.getElem_mem (l := l) (n := j) (by omega))
    refine ⟨u + x * (secs dt : K), ?_, ?_⟩
    · rw [List.getElem?_eq_getElem (by omega), Option.getD_some, hx, hv, mul_fin, add_fin]
    · rw [add_sub_cancel_left, abs_mul, abs_of_nonneg hs0]; exact b
  unfold applyRates at ha
  simp only at ha
  split at ha
  · cases ha
  · cases ha
    have hx : (cells'.mapIdx (moveCell R' (fin (secs dt : K)))).map (fun c : Cell K => c.t.x) = a.rows.map (fun r : Transect K => r.x) := by
      have e := allRates_x hall
      refine List.ext_getElem? (fun j => ?_)
      have e := congrArg (fun l => l[j]?) e
      simp only [getElem?_map, getElem?_mapIdx, Option.map_map] at e ⊢
      exact e
    have hxof : ∀ (j : ℕ) q, a.rows[j]? = some q → ∃ d, (cells'.mapIdx (moveCell R' (fin (secs dt : K))))[j]? = some d ∧ d.t.x = q.x := by
      intro j q hq
      have e := congrArg (fun l => l[j]?) hx
      simp only [getElem?_map, hq, Option.map_some] at e
      exact Option.map_eq_some_iff.mp e
    refine ⟨rfl, ?_, ?_, ?_, ?_⟩
    · intro j hj
      obtain ⟨hj1, rj, hrj, ⟨h0, h1, h2, h3, h4, _⟩, w1, w2, w3, w4⟩ := hsh j hj
      obtain ⟨d, hd, hd', _⟩ := cells_shift B hC hrb hall hj1 hrj h0
      have hjl : j < a.rows.length := by omega
      obtain ⟨u0, f0, b0⟩ := one R'.y0 j hjl s0 (q0.trans p0) (fin ((ss j).y0 + d)) _ rfl
      obtain ⟨u1, f1, b1⟩ := one R'.y1 j hjl s1 (q1.trans p1) _ _ h1
      obtain ⟨u2, f2, b2⟩ := one R'.y2 j hjl s2 (q2.trans p2) _ _ h2
      obtain ⟨u3, f3, b3⟩ := one R'.y3 j hjl s3 (q3.trans p3) _ _ h3
      obtain ⟨u4, f4, b4⟩ := one R'.y4 j hjl s4 (q4.trans p4) _ _ h4
      have D0 := abs_le.mp b0
      have D1 := abs_le.mp b1
      have D2 := abs_le.mp b2
      have D3 := abs_le.mp b3
      have D4 := abs_le.mp b4
      have Dd := abs_le.mp hd'
      refine ⟨moveCell R' (fin (secs dt : K)) j { mkCell pp a j rj with t := { rj with y0 := fin ((ss j).y0 + d) } }, ?_, u0, u1, u2, u3, u4, f0, f1, f2, f3, f4,
        by linarith, by linarith, by linarith, by linarith⟩
      rw [List.getElem?_mapIdx, hd]
      rfl
    · obtain ⟨xe, hxe, be⟩ := sx
      have be1 : xe * (secs dt : K) ≤ a.MaxMorChange := (mul_le_mul_of_nonneg_right (le_abs_self xe) hs0).trans be
      have be2 : -(a.MaxMorChange) ≤ xe * (secs dt : K) := by
        have := mul_le_mul_of_nonneg_right (neg_abs_le xe) hs0
        linarith
      obtain ⟨p', hp', ep⟩ := hxof _ _ hp1
      obtain ⟨q', hq', eq'⟩ := hxof _ _ hq1
      refine ⟨l, p', q', e + xe * (secs dt : K), hlast, l1, ?_, hp', hq', ?_, ?_, ?_⟩
      · rw [List.length_mapIdx, hlen']; exact l2
      · show (if a.Closed = true then a.EndX1 else a.EndX1 + R'.endX * fin (secs dt : K)) = _
        rw [if_neg (by rw [hC]; simp), he, hxe, mul_fin, add_fin]
      · rw [ep]; linarith
      · rw [eq']; linarith
    · have : ((cells'.mapIdx (moveCell R' (fin (secs dt : K)))).map (fun c : Cell K => c.t.x)).Pairwise (· < ·) := by
        rw [hx, List.pairwise_map]
        exact hsort
      rw [List.pairwise_map] at this
      exact this
    · obtain ⟨hi1, ri, hri, ⟨h0, _⟩, _⟩ := hsh i hi
      rw [hr] at hri
      cases hri
      obtain ⟨d, hd, hd', hd0⟩ := cells_shift B hC hrb hall hi1 hr h0
      refine ⟨rb, cells', R, R', rate, d, hp, hall, hl, hsm', hrb, hd, hd0, ?_⟩
      rw [List.getElem?_mapIdx, hd]
      rfl

end Verif.Model
