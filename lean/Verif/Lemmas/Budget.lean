import Verif.Lemmas.Ends
import Verif.Lemmas.Regular
import Verif.Spec.Budget

set_option autoImplicit false
set_option linter.unusedSectionVars false

/-! # The shoreline of a transect away from the outlet through a step -/

namespace Verif.Model
open Verif Fl Verif.Spec List

variable {K : Type} [Field K] [LinearOrder K] [IsStrictOrderedRing K]

/-- Elongation does not get to transect `c`. -/
def Beyond (st : MorSt K) (c : Cell K) : Prop :=
  ∃ e, st.e1 = fin e ∧ ((e < c.t.x ∧ ∀ j ∈ st.ix, ∀ d, st.cells[j]? = some d → d.t.x ≤ c.t.x) ∨
    (c.t.x < e ∧ ∀ j ∈ st.ix, ∀ d, st.cells[j]? = some d → c.t.x ≤ d.t.x))

theorem elongate_far {pp : PhysPars K} {C : Bool} {st st' : MorSt K} (h : elongate pp C st = .ok st') {i : ℕ} {c : Cell K} (hc : st.cells[i]? = some c)
    (hb : C = false → Beyond st c) : st'.cells[i]? = some c := by
  have ext : ∀ (m : Transect K → Bool) (s : MorSt K), m c.t = false → extendChan pp st m = .ok s → s.cells[i]? = some c := by
    intro m s hm hx
    unfold extendChan at hx
    split at hx
    · cases hx
    · cases hx
      simp only [getElem?_map, hc, Option.map_some, hm]
      rfl
  unfold elongate at h
  split at h
  · simp only [pure_ok] at h; subst h; exact hc
  · next hC =>
    obtain ⟨e, he1, hside⟩ := hb (by simpa using hC)
    simp only [bind_ok, ixGet_ok, pyGet_last] at h
    obtain ⟨last, hlast, cl, hcl, h⟩ := h
    have hmem : last ∈ st.ix := List.mem_of_getLast? hlast
    split at h
    · simp only [bind_ok] at h
      obtain ⟨_, _, h⟩ := h
      split at h
      · refine ext _ _ ?_ h
        rw [he1]
        simp only [blt_fin, ble_fin, Bool.and_eq_false_iff, decide_eq_false_iff_not, not_lt, not_le]
        rcases hside with ⟨h1, h2⟩ | ⟨h1, h2⟩
        · exact Or.inr h1
        · exact Or.inl (h2 last hmem cl hcl)
      · simp only [pure_ok] at h; subst h; exact hc
    · simp only [bind_ok] at h
      obtain ⟨_, _, h⟩ := h
      split at h
      · refine ext _ _ ?_ h
        rw [he1]
        simp only [blt_fin, ble_fin, Bool.and_eq_false_iff, decide_eq_false_iff_not, not_lt, not_le]
        rcases hside with ⟨h1, h2⟩ | ⟨h1, h2⟩
        · exact Or.inl (h2 last hmem cl hcl)
        · exact Or.inr h1
      · simp only [pure_ok] at h; subst h; exact hc

/-- An outlet ending inside the domain stays there. -/
def Inside (st : MorSt K) : Prop :=
  ∃ e p q, st.e1 = fin e ∧ st.cells[1]? = some p ∧ st.cells[st.cells.length - 2]? = some q ∧ p.t.x ≤ e ∧ e ≤ q.t.x

theorem edge_far {st st' : MorSt K} (h : edgeCheck st = .ok st') (hi : Inside st) : st'.e1 = st.e1 := by
  obtain ⟨e, p, q, he, hp, hq, h1, h2⟩ := hi
  unfold edgeCheck at h
  simp only [bind_ok, pure_ok, ixGet_ok] at h
  obtain ⟨l, hl, r, hr, rfl⟩ := h
  have h2' : 2 ≤ st.cells.length := by
    have := (List.getElem?_eq_some_iff.mp hp).1; omega
  have hr' : st.cells[st.cells.length - 2]? = some r := by
    unfold pyGet at hr
    rw [if_neg (by norm_num), if_pos (by omega), ixGet_ok] at hr
    have : ((st.cells.length : ℤ) + -2).toNat = st.cells.length - 2 := by omega
    rw [this] at hr
    exact hr
  rw [hp] at hl; cases hl
  rw [hq] at hr'; cases hr'
  have k1 : ((fin e : Fl K) <? fin p.t.x) = false := by simpa using h1
  have k2 : ((fin q.t.x : Fl K) <? fin e) = false := by simpa using h2
  simp only [he, k1, k2, Bool.false_eq_true, if_false]

/-- The repairs do not move the shoreline of a free transect beyond the outlet and away from the cliff. -/
theorem repair_far {pp : PhysPars K} {C : Bool} {Dx : K} {st st' : MorSt K} (h : repairStage pp C Dx st = .ok st') {i : ℕ} {c : Cell K}
    (hc : st.cells[i]? = some c) (hf : Free c) (h4 : (c.t.y0 ≤? c.t.y4) = false) (hb : C = false → Inside st ∧ Beyond st c) :
    ∃ c', st'.cells[i]? = some c' ∧ (c'.t.y0 = nan ∨ (c'.t.y0 = c.t.y0 ∧ Free c')) := by
  unfold repairStage at h
  simp only [bind_ok] at h
  obtain ⟨s1, h1, cs, h2, s3, h3', s4, h4', s5, h5, s6, h6, h7⟩ := h
  have T := keepShore_trunc (K := K)
  have t := T.trans
  have e1 : s1.cells = st.cells ∧ s1.ix = st.ix := by
    unfold edgeCheck at h1
    simp only [bind_ok, pure_ok] at h1
    obtain ⟨_, _, _, _, rfl⟩ := h1
    exact ⟨rfl, rfl⟩
  have hcl : (s1.cells.map (cliffCell pp))[i]? = some c := by
    rw [e1.1, getElem?_map, hc, Option.map_some]
    unfold cliffCell
    simp only [h4]
    rfl
  obtain ⟨c2, hc2, r2⟩ := forall₂_get (overwash_rel T h2) hcl
  have X := sameX_repair pp (K := K)
  have gx : Forall₂ SameX st.cells cs := by
    rw [← e1.1]
    exact forall₂_trans X.trans (forall₂_map' X.cliff _) (overwash_rel X.toTruncRel h2)
  have hc3 : s3.cells[i]? = some c2 := by
    refine elongate_far h3' hc2 ?_
    intro hC
    obtain ⟨hin, e, he, hside⟩ := hb hC
    have hx2 : c2.t.x = c.t.x := by
      obtain ⟨d, hd, hx⟩ := forall₂_get gx hc
      rw [hc2] at hd; cases hd; exact hx
    have hback : ∀ (j : ℕ) d, cs[j]? = some d → ∃ d', st.cells[j]? = some d' ∧ d.t.x = d'.t.x := by
      intro j d hd
      have hjl := (List.getElem?_eq_some_iff.mp hd).1
      have hj : st.cells[j]? = some (st.cells[j]'(by rw [gx.length_eq]; exact hjl)) := List.getElem?_eq_getElem _
      obtain ⟨d2, hd2, hx⟩ := forall₂_get gx hj
      rw [hd] at hd2; cases hd2
      exact ⟨_, hj, hx⟩
    refine ⟨e, (edge_far h1 hin).trans he, ?_⟩
    rcases hside with ⟨k1, k2⟩ | ⟨k1, k2⟩
    · refine Or.inl ⟨by rw [hx2]; exact k1, fun j hj d hd => ?_⟩
      obtain ⟨d', hd', hx⟩ := hback j d hd
      rw [hx, hx2]
      exact k2 j (e1.2 ▸ hj) d' hd'
    · refine Or.inr ⟨by rw [hx2]; exact k1, fun j hj d hd => ?_⟩
      obtain ⟨d', hd', hx⟩ := hback j d hd
      rw [hx, hx2]
      exact k2 j (e1.2 ▸ hj) d' hd'
  have g4 : Forall₂ KeepShore s3.cells s4.cells := by
    unfold seaPrevent at h4'
    split at h4'
    · simp only [pure_ok] at h4'; subst h4'; exact forall₂_rfl keepShore_refl _
    · simp only [bind_ok] at h4'
      obtain ⟨_, _, _, _, h⟩ := h4'
      split at h
      · simp only [pure_ok] at h; exact modify_shore keepShore_seaPrevent h
      · simp only [pure_ok] at h; subst h; exact forall₂_rfl keepShore_refl _
  have g7 : Forall₂ KeepShore s6.cells st'.cells := by
    unfold lagoonPrevent at h7
    split at h7
    · simp only [pure_ok] at h7; subst h7; exact forall₂_rfl keepShore_refl _
    · simp only [bind_ok] at h7
      obtain ⟨_, _, _, _, h⟩ := h7
      split at h
      · simp only [pure_ok] at h; exact modify_shore (keepShore_lagoonPrevent pp) h
      · simp only [pure_ok] at h; subst h; exact forall₂_rfl keepShore_refl _
  obtain ⟨c', hc', r'⟩ := forall₂_get (forall₂_trans t g4 (forall₂_trans t (lagoonTrunc_rel T.toStageRel h5) (forall₂_trans t (seaTrunc_rel T.toStageRel h6) g7))) hc3
  exact ⟨c', hc', (t _ _ _ r2 r').2 hf⟩

theorem allRates_x {pp : PhysPars K} {a : MorIn K} {rb : ℕ} {cells cells' : List (Cell K)} {R : Rates K}
    (hall : allRates pp a rb cells = .ok (R, cells')) : cells'.map (·.t.x) = cells.map (·.t.x) := by
  unfold allRates at hall
  simp only [bind_ok] at hall
  obtain ⟨R1, g1, ⟨R2, c2⟩, g2, R3, g3, hall⟩ := hall
  cases hall
  unfold lstRates at g2
  simp only [bind_ok] at g2
  obtain ⟨y0, _, g2⟩ := g2
  split at g2
  · cases g2; rfl
  · simp only [bind_ok] at g2
    obtain ⟨l, _, g2⟩ := g2
    split at g2
    · simp only [bind_ok, pure_ok] at g2
      obtain ⟨_, _, g2⟩ := g2
      cases g2; rfl
    · simp only [bind_ok, pure_ok] at g2
      obtain ⟨_, _, g2⟩ := g2
      cases g2
      apply List.ext_getElem?
      intro k
      simp only [List.getElem?_map, List.getElem?_modify]
      cases cells[k]? with
      | none => rfl
      | some c => simp only [Option.map_some]; split <;> rfl

theorem force_far {pp : PhysPars K} {a : MorIn K} {dt : ℤ} {X0 : ℕ} {st : MorSt K} (h : forceStage pp a = .ok (dt, X0, st))
    (hB : 0 ≤ a.MaxMorChange) (hreg : Regular pp a) {i : ℕ} {r : Transect K} (hr : a.rows[i]? = some r) {x : K}
    (hrate : ∀ rb R cells', precalc pp a = .ok (a.rows.mapIdx (mkCell pp a), X0, rb) → allRates pp a rb (a.rows.mapIdx (mkCell pp a)) = .ok (R, cells') →
      R.y0[i]? = some (fin x) ∧ cells'[i]? = some (mkCell pp a i r))
    (hx : |x| * (secs dt : K) ≤ a.MaxMorChange) (hbey : BeyondOutlet a r)
    {y y3 y4 : K} (h0 : r.y0 = fin y) (h1 : r.y1 = nan) (h2 : r.y2 = nan)
    (h3 : r.y3 = fin y3) (h4 : r.y4 = fin y4) (hw3 : 2 * a.MaxMorChange < y - y3) (hw4 : 2 * a.MaxMorChange < y - y4) :
    ∃ c, st.cells[i]? = some c ∧ c.t.y0 = fin (y + x * (secs dt : K)) ∧ Free c ∧ (c.t.y0 ≤? c.t.y4) = false ∧
      (a.Closed = false → Inside st ∧ Beyond st c) := by
  obtain ⟨rb, cells', R, R', rate, hp, hall, hrt, hdt, hl, ha⟩ := force_inv h
  have hF := regular_finite hreg hp hall
  have hm : (a.rows.mapIdx (mkCell pp a)).length = a.rows.length := by simp
  obtain ⟨hlen, hlen', _⟩ := allRates_len hm hall
  obtain ⟨hsm, hcl⟩ := limit_small hB hF hrt hl
  have hil := (List.getElem?_eq_some_iff.mp hr).1
  obtain ⟨hr0, hcell⟩ := hrate rb R cells' hp hall
  have hy0 := limit_keeps hl hr0 hx
  simp only [Rates.cols, List.mem_cons, List.not_mem_nil, or_false, forall_eq_or_imp, forall_eq] at hsm
  obtain ⟨_, _, _, s3, s4, _, _, _, _, _, _, sx⟩ := hsm
  have l3 : R'.y3.length = a.rows.length := by
    have := congrArg (fun l => l[3]?) hcl
    simp only [Rates.cols, List.map_cons, List.getElem?_cons_succ, List.getElem?_cons_zero, Option.some.injEq] at this
    rw [this]; exact hlen.2.2.2.1
  have l4 : R'.y4.length = a.rows.length := by
    have := congrArg (fun l => l[4]?) hcl
    simp only [Rates.cols, List.map_cons, List.getElem?_cons_succ, List.getElem?_cons_zero, Option.some.injEq] at this
    rw [this]; exact hlen.2.2.2.2.1
  have hs0 : (0 : K) ≤ (secs dt : K) := by exact_mod_cast secs_nonneg dt
  obtain ⟨x3, hx3, b3⟩ := s3 _ (List.getElem_mem (l := R'.y3) (n := i) (by omega))
  obtain ⟨x4, hx4, b4⟩ := s4 _ (List.getElem_mem (l := R'.y4) (n := i) (by omega))
  obtain ⟨xe, hxe, be⟩ := sx
  unfold applyRates at ha
  simp only at ha
  split at ha
  · cases ha
  · cases ha
    have c0 : (moveCell R' (fin (secs dt : K)) i (mkCell pp a i r)).t.y0 = fin (y + x * (secs dt : K)) := by
      show r.y0 + (R'.y0[i]?).getD nan * fin (secs dt : K) = _
      rw [hy0, h0, Option.getD_some, mul_fin, add_fin]
    have c3 : (moveCell R' (fin (secs dt : K)) i (mkCell pp a i r)).t.y3 = fin (y3 + x3 * (secs dt : K)) := by
      show r.y3 + (R'.y3[i]?).getD nan * fin (secs dt : K) = _
      rw [List.getElem?_eq_getElem (by omega), Option.getD_some, hx3, h3, mul_fin, add_fin]
    have c4 : (moveCell R' (fin (secs dt : K)) i (mkCell pp a i r)).t.y4 = fin (y4 + x4 * (secs dt : K)) := by
      show r.y4 + (R'.y4[i]?).getD nan * fin (secs dt : K) = _
      rw [List.getElem?_eq_getElem (by omega), Option.getD_some, hx4, h4, mul_fin, add_fin]
    have d0 : -(a.MaxMorChange) ≤ x * (secs dt : K) := by
      have := mul_le_mul_of_nonneg_right (neg_abs_le x) hs0
      linarith
    have d3 : x3 * (secs dt : K) ≤ a.MaxMorChange := (mul_le_mul_of_nonneg_right (le_abs_self x3) hs0).trans b3
    have d4 : x4 * (secs dt : K) ≤ a.MaxMorChange := (mul_le_mul_of_nonneg_right (le_abs_self x4) hs0).trans b4
    have hxs : ∀ j : ℕ, ((cells'.mapIdx (moveCell R' (fin (secs dt : K))))[j]?).map (fun c : Cell K => c.t.x) = (a.rows[j]?).map (fun r : Transect K => r.x) := by
      intro j
      have e := congrArg (fun l => l[j]?) (allRates_x hall)
      simp only [getElem?_map, getElem?_mapIdx] at e ⊢
      cases hA : cells'[j]? with
      | none =>
        rw [hA] at e
        cases hB : a.rows[j]? with
        | none => rfl
        | some q => rw [hB] at e; cases e
      | some d =>
        rw [hA] at e
        cases hB : a.rows[j]? with
        | none => rw [hB] at e; cases e
        | some q =>
          rw [hB] at e
          simp only [Option.map_some, Option.some.injEq] at e ⊢
          exact e
    have hxof : ∀ (j : ℕ) q, a.rows[j]? = some q → ∃ d, (cells'.mapIdx (moveCell R' (fin (secs dt : K))))[j]? = some d ∧ d.t.x = q.x := by
      intro j q hq
      have := hxs j
      rw [hq, Option.map_some] at this
      exact Option.map_eq_some_iff.mp this
    have hxof' : ∀ (j : ℕ) d, (cells'.mapIdx (moveCell R' (fin (secs dt : K))))[j]? = some d → ∃ q, a.rows[j]? = some q ∧ q.x = d.t.x := by
      intro j d hd
      have := hxs j
      rw [hd, Option.map_some] at this
      exact Option.map_eq_some_iff.mp this.symm
    refine ⟨_, by rw [List.getElem?_mapIdx, hcell]; rfl, c0, ⟨?_, ?_, ?_⟩, ?_, ?_⟩
    · show r.y1 + _ = nan
      rw [h1, nan_add']
    · show r.y2 + _ = nan
      rw [h2, nan_add']
    · rw [c0, c3]
      simp only [ble_fin, decide_eq_false_iff_not, not_le]
      linarith
    · rw [c0, c4]
      simp only [ble_fin, decide_eq_false_iff_not, not_le]
      linarith
    · intro hC
      obtain ⟨e, p, q, he, hp1, hq1, k1, k2, k3⟩ := hbey hC
      have be1 : xe * (secs dt : K) ≤ a.MaxMorChange := (mul_le_mul_of_nonneg_right (le_abs_self xe) hs0).trans be
      have be2 : -(a.MaxMorChange) ≤ xe * (secs dt : K) := by
        have := mul_le_mul_of_nonneg_right (neg_abs_le xe) hs0
        linarith
      have he1 : (if a.Closed = true then a.EndX1 else a.EndX1 + R'.endX * fin (secs dt : K)) = fin (e + xe * (secs dt : K)) := by
        rw [if_neg (by rw [hC]; simp), he, hxe, mul_fin, add_fin]
      obtain ⟨p', hp', ep⟩ := hxof _ _ hp1
      obtain ⟨q', hq', eq'⟩ := hxof _ _ hq1
      refine ⟨⟨_, p', q', he1, hp', ?_, ?_, ?_⟩, _, he1, ?_⟩
      · rw [List.length_mapIdx, hlen']; exact hq'
      · rw [ep]; linarith
      · rw [eq']; linarith
      · show (_ < r.x ∧ _) ∨ (r.x < _ ∧ _)
        rcases k3 with ⟨k4, k5⟩ | ⟨k4, k5⟩
        · refine Or.inl ⟨by linarith, fun j hj d hd => ?_⟩
          obtain ⟨u, hu, ux⟩ := hxof' j d hd
          rw [← ux]; exact k5 j hj u hu
        · refine Or.inr ⟨by linarith, fun j hj d hd => ?_⟩
          obtain ⟨u, hu, ux⟩ := hxof' j d hd
          rw [← ux]; exact k5 j hj u hu

/-- The shoreline of a transect with a wide barrier beyond the outlet moves by its rate. -/
theorem update_far {pp : PhysPars K} {j1 j2 : ℕ → Bool} {a : MorIn K} {o : MorOut K} (h : updateMorphology pp j1 j2 a = .ok o)
    (hB : 0 ≤ a.MaxMorChange) (hreg : Regular pp a) {i : ℕ} {r : Transect K} (hr : a.rows[i]? = some r) {x : K}
    (hrate : ∀ X0 rb R cells', precalc pp a = .ok (a.rows.mapIdx (mkCell pp a), X0, rb) → allRates pp a rb (a.rows.mapIdx (mkCell pp a)) = .ok (R, cells') →
      R.y0[i]? = some (fin x) ∧ cells'[i]? = some (mkCell pp a i r))
    (hx : |x| * (secs o.MorDt : K) ≤ a.MaxMorChange) (hbey : BeyondOutlet a r)
    {y y3 y4 : K} (h0 : r.y0 = fin y) (h1 : r.y1 = nan) (h2 : r.y2 = nan)
    (h3 : r.y3 = fin y3) (h4 : r.y4 = fin y4) (hw3 : 2 * a.MaxMorChange < y - y3) (hw4 : 2 * a.MaxMorChange < y - y4) :
    ∃ r', o.rows[i]? = some r' ∧ r'.y0 = fin (y + x * (secs o.MorDt : K)) := by
  obtain ⟨X0, s0, s1, s2, s3, g0, g1, g2, g3, e, _⟩ := update_inv h
  obtain ⟨c, hc, f4, f5, f6, f7⟩ := force_far g0 hB hreg hr (hrate X0) hx hbey h0 h1 h2 h3 h4 hw3 hw4
  obtain ⟨c1, hc1, q1⟩ := repair_far g1 hc f5 f6 f7
  have q2 : ∃ c2, s2.cells[i]? = some c2 ∧ (c2.t.y0 = nan ∨ c2.t.y0 = c.t.y0) := by
    rcases q1 with q | ⟨q, qf⟩
    · obtain ⟨c2, hc2, r2⟩ := breach_nan g2 hc1 q
      exact ⟨c2, hc2, Or.inl r2⟩
    · obtain ⟨c2, hc2, r2⟩ := breach_shore g2 hc1 qf
      rw [q] at r2
      exact ⟨c2, hc2, r2⟩
  obtain ⟨c2, hc2, q2⟩ := q2
  unfold finishStage at g3
  simp only [bind_ok, pure_ok, pyAssert_ok] at g3
  obtain ⟨_, hnan, _, _, _, _, rfl⟩ := g3
  obtain ⟨c3, hc3, r3⟩ := forall₂_get (forall₂_modify' (R := fun c c' : Cell K => c'.t.y0 = c.t.y0) (fun _ => rfl)
    (fun c => by unfold keepCell; split <;> rfl) s2.cells X0 (f := keepCell pp)) hc2
  refine ⟨c3.t, by rw [e, List.getElem?_map, hc3]; rfl, ?_⟩
  have hn3 := List.all_eq_true.mp hnan c3 (List.mem_of_getElem? hc3)
  rcases q2 with q | q
  · rw [r3, q] at hn3; cases hn3
  · rw [r3, q, f4]

end Verif.Model
