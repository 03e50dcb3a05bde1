import Verif.Lemmas.SpitStep
import Verif.Props.Total

set_option autoImplicit false
set_option linter.unusedSectionVars false

/-! # C155: the spit and the outlet channel gain what they are given

C35 is about rates; here a transect of the outlet channel is followed through a whole step with all repairs and breaches. -/

namespace Verif.Props
open Verif Verif.Model Fl Verif.Spec

variable {K : Type} [Field K] [LinearOrder K] [IsStrictOrderedRing K]

/-- The outlet of C155: an open lagoon with regular arguments, `nr + 1` river sections with bedload `bs`, longshore transport `ls`, cross-shore transport `cs`, the
part `ws` of it going over the crest, and shapes `ss` of the transects with the outlet channel.  There spit, channel and inner barrier are wide (the spit also by what mor.py 152
may take from it at once), the channel bed lies below both crests and, where the river also flows through the lagoon, the lagoon has a width and
lies below the inner crest and the cliff top; in line with the river it cannot get narrower than an outlet within one step. -/
structure OpenOutlet (pp : PhysPars K) (a : MorIn K) (bs : List K) (nr : ℕ) (hs ls cs ws : ℕ → K) (ss : ℕ → SpitShape K) : Prop where
  opened : a.Closed = false
  regular : Regular pp a
  lim : 0 ≤ a.MaxMorChange
  sorted : a.rows.Pairwise (fun r s => r.x < s.x)
  chan : ChannelArrays a bs nr
  reaches : bs ≠ []
  river : 0 < pp.RiverWidth
  beach : Beach pp a hs ls cs
  part : ∀ i, i < a.rows.length → a.OverwashProp[i]? = some (fin (ws i))
  inside : ∀ i ∈ a.outlet, 0 < i ∧ i + 1 < a.rows.length
  shape : ∀ i ∈ a.outlet, ∃ r, a.rows[i]? = some r ∧ HasSpit r (ss i) ∧ WideSpit a.MaxMorChange (|ls i| / (hs i * a.Dx)) (ss i) ∧
    (ss i).z1 < (ss i).z0 ∧ (ss i).z1 < (ss i).z2 ∧ (r.x = 0 → pp.MinOutletWidth + 2 * a.MaxMorChange ≤ (ss i).y3 - (ss i).y4)
  ends : EndBetween a
  lagoon : ∀ i ∈ a.outlet, i ∈ a.online → (ss i).y4 < (ss i).y3 ∧ (ss i).z3 < (ss i).z2 ∧ (ss i).z3 < pp.BackshoreElev

/-- The rate at which the shoreline of a beach near an open outlet moves. -/
theorem beach_rate {pp : PhysPars K} {a : MorIn K} {hs ls cs : ℕ → K} (B : Beach pp a hs ls cs) (hsort : a.rows.Pairwise (fun r s => r.x < s.x))
    (hc : a.Closed = false) {e b : K} (he : a.EndX1 = fin e) (hb : a.Bedload.getLast? = some (fin b)) {X0 rb : ℕ} {R : Rates K} {cells' : List (Cell K)}
    (hpre : precalc pp a = .ok (a.rows.mapIdx (mkCell pp a), X0, rb)) (hrb : rb ≠ 0) (hall : allRates pp a rb (a.rows.mapIdx (mkCell pp a)) = .ok (R, cells'))
    {i : ℕ} (hi0 : 0 < i) (hi1 : i + 1 < a.rows.length) {r p q : Transect K} (hr : a.rows[i]? = some r) (hp : a.rows[i - 1]? = some p) (hq : a.rows[i + 1]? = some q)
    (hlq : ¬ (r.x ≤ e ∧ e < q.x ∧ ls i < 0)) :
    R.y0[i]? = some (fin (beachGain (deltaShare b a.Dx pp.OutletSedSpreadDist (r.x - e)) p.x r.x q.x e (ls (i - 1)) (ls i) (a.Dx * cs i) / (hs i * a.Dx))) ∧ (i + 1 ≠ rb ∨ 0 ≤ ls i) := by
  obtain ⟨⟨f, hf, hfx⟩, hbef⟩ := firstIx_ok.mp ((precalc_rb hpre).2.1 hc)
  rw [he] at hfx
  simp only [blt_fin, decide_eq_true_eq] at hfx
  have hbef' : ∀ (j : ℕ), j < rb → ∀ d, a.rows[j]? = some d → d.x ≤ e := by
    intro j hj d hd
    have := hbef j hj d hd
    rw [he] at this
    simpa using this
  have hxlt : ∀ (j k : ℕ) (u v : Transect K), a.rows[j]? = some u → a.rows[k]? = some v → j < k → u.x < v.x := by
    intro j k u v hu hv hjk
    obtain ⟨h1, rfl⟩ := List.getElem?_eq_some_iff.mp hu
    obtain ⟨h2, rfl⟩ := List.getElem?_eq_some_iff.mp hv
    exact List.pairwise_iff_getElem.mp hsort j k h1 h2 hjk
  have haft : ∀ (j : ℕ), rb ≤ j → ∀ d, a.rows[j]? = some d → e < d.x := by
    intro j hj d hd
    rcases Nat.eq_or_lt_of_le hj with rfl | hj
    · rw [hf] at hd; cases hd; exact hfx
    · exact hfx.trans (hxlt rb j f d hf hd hj)
  have hrbl := (List.getElem?_eq_some_iff.mp hf).1
  have hpi : prevIx a.LST.length rb = rb - 1 := by unfold prevIx; rw [if_neg hrb]
  have hL : a.LST[prevIx a.LST.length rb]? = some (fin (ls (rb - 1))) := by rw [hpi]; exact B.lst _ (by omega)
  have hmouth : (i = rb ∧ 0 < ls (rb - 1)) ↔ (p.x ≤ e ∧ e < r.x ∧ 0 < ls (i - 1)) := by
    constructor
    · rintro ⟨rfl, hl⟩
      exact ⟨hbef' (i - 1) (by omega) p hp, haft i le_rfl r hr, hl⟩
    · rintro ⟨k1, k2, k3⟩
      have : i = rb := by
        by_contra hne
        rcases Nat.lt_or_gt_of_ne hne with hlt | hgt
        · have := hbef' i hlt r hr; linarith
        · have := haft (i - 1) (by omega) p hp; linarith
      subst this
      exact ⟨rfl, k3⟩
  have hside : i + 1 ≠ rb ∨ 0 ≤ ls i := by
    by_contra hh
    rw [not_or, not_not, not_le] at hh
    exact hlq ⟨hbef' i (by omega) r hr, haft (i + 1) (by omega) q hq, hh.2⟩
  refine ⟨?_, hside⟩
  rw [open_rate B hc hb he hL hall hi0 hi1 hr]
  have := B.dx
  have := B.pos i
  congr 2
  unfold beachGain deltaShare hat
  rw [if_neg hlq]
  by_cases hm' : i = rb ∧ 0 < ls (rb - 1)
  · rw [if_pos hm', if_pos (hmouth.mp hm')]
    have e1 : ls (rb - 1) = ls (i - 1) := by rw [hm'.1]
    rw [e1]
    field_simp
    ring
  · rw [if_neg hm', if_neg (fun hh => hm' (hmouth.mpr hh))]
    field_simp
    ring

/-- A transect of the outlet channel through a step. -/
theorem spit_step {pp : PhysPars K} {j1 j2 : ℕ → Bool} {a : MorIn K} {o : MorOut K} (h : updateMorphology pp j1 j2 a = .ok o)
    {bs : List K} {nr : ℕ} {hs ls cs ws : ℕ → K} {ss : ℕ → SpitShape K} (C : OpenOutlet pp a bs nr hs ls cs ws ss)
    {i : ℕ} (hi : i ∈ a.outlet) {r : Transect K} (hr : a.rows[i]? = some r) :
    BreachedAt o r.x ∨ ∃ r' s', o.rows[i]? = some r' ∧ HasSpit r' s' ∧ s'.z2 = (ss i).z2 ∧
      (ChannelMoved a.MaxMorChange (ss i) s' →
        channelGain a.Dx (ss i) s' = (settles bs (nr + a.online.length) a.outlet i + a.Dx * (ws i * cs i)) * (secs o.MorDt : K)) ∧
      (∀ p q e, a.rows[i - 1]? = some p → a.rows[i + 1]? = some q → a.EndX1 = fin e → ¬ (r.x ≤ e ∧ e < q.x ∧ ls i < 0) →
        SpitMoved a.MaxMorChange (ss i) s' → s'.z2 < s'.z0 →
        spitGain pp.ClosureDepth pp.BackshoreElev a.Dx (ss i) s' =
          (beachGain (deltaShare (bs.getLast C.reaches) a.Dx pp.OutletSedSpreadDist (r.x - e)) p.x r.x q.x e (ls (i - 1)) (ls i) 0 +
            settles bs (nr + a.online.length) a.outlet i + settles bs nr a.online i) * (secs o.MorDt : K)) := by
  obtain ⟨hi0, hi1⟩ := C.inside i hi
  obtain ⟨r1, hr1, ⟨h0, h1, h2, h3, h4, hz0, hz1, hz2, hz3⟩, ⟨w1, w2, w3, w4⟩, b1, b2, hmin⟩ := C.shape i hi
  rw [hr] at hr1
  cases hr1
  have B := C.beach
  have hlim := C.lim
  have hsh : ∀ j ∈ a.outlet, j + 1 < a.rows.length ∧ ∃ r, a.rows[j]? = some r ∧ HasSpit r (ss j) ∧ WideSpit a.MaxMorChange (|ls j| / (hs j * a.Dx)) (ss j) := by
    intro j hj
    obtain ⟨r, q1, q2, q3, _⟩ := C.shape j hj
    exact ⟨(C.inside j hj).2, r, q1, q2, q3⟩
  obtain ⟨X0, s0, s1, s2, s3, g0, g1, g2, g3, e, eX0, eX1, _⟩ := update_inv h
  obtain ⟨fix, fsafe, fend, fsort, rb, cells', R, R', rate, d, hp, hall, hl, hsm, hrb, hcell, hd0, hc⟩ := force_open g0 B hlim C.regular C.opened C.sorted hsh C.ends hi hr
  set t := (secs o.MorDt : K) with ht
  have ht0 : (0 : K) ≤ t := by rw [ht]; exact_mod_cast secs_nonneg o.MorDt
  set c := moveCell R' (fin t) i { mkCell pp a i r with t := { r with y0 := fin ((ss i).y0 + d) } } with hcdef
  have hcx : c.t.x = r.x := rfl
  have hsT : SafeT c.t := by
    obtain ⟨c', hc', hs'⟩ := fsafe i (by rw [fix]; exact hi)
    rw [hc] at hc'
    cases hc'
    exact hs'
  rw [C.opened] at g1
  obtain ⟨⟨c1, hc1, k1⟩, _⟩ := repair_open g1 fsafe fend fsort (by rw [fix]; exact hi) hc
  obtain ⟨c2, hc2, k2⟩ := breach_crest g2 hc1 (by rw [k1]; exact hsT)
  rw [k1] at k2
  have hX0 : ∀ r', a.rows[X0]? = some r' → r'.x = 0 := by
    intro r' hr'
    obtain ⟨⟨q, hq, hq1⟩, _⟩ := firstIx_ok.mp (precalc_rb hp).1
    rw [hr'] at hq
    cases hq
    simpa using hq1
  unfold finishStage at g3
  simp only [bind_ok, pure_ok, pyAssert_ok] at g3
  obtain ⟨_, _, _, _, _, _, rfl⟩ := g3
  rcases k2 with k2 | ⟨kB, k3, k4⟩
  swap
  · rw [hcx] at k3 k4
    exact Or.inl ⟨kB, eX0.trans k3, eX1.trans k4⟩
  have hne : (ss i).y0 ≠ (ss i).y1 := by
    have : 0 ≤ |ls i| / (hs i * a.Dx) := div_nonneg (abs_nonneg _) (mul_pos (B.pos i) B.dx).le
    intro he
    rw [he] at w1
    linarith
  have hm : (a.rows.mapIdx (mkCell pp a)).length = a.rows.length := by simp
  have hcols := limit_cols hl
  -- rates before the limiter
  obtain ⟨R1, vs, hR1, v1, v2, _, _, _, v5, v6, _⟩ := C35_conserves pp a (a.rows.mapIdx (mkCell pp a)) bs nr C.chan C.reaches B.dx C.river
  have hk : a.outlet[a.outlet.idxOf i]? = some i := by
    rw [List.getElem?_eq_getElem (List.idxOf_lt_length_of_mem hi), List.getElem_idxOf]
  have hkl := List.idxOf_lt_length_of_mem hi
  rw [C.opened] at v1
  simp only [Bool.false_eq_true, if_false] at v1
  obtain ⟨p1, q1, t1, v, ez1, ey1, ey2, ev, eg, _⟩ := v6 C.opened _ i r _ _ _ _ _ hk hr h1 h2 hz0 hz1 hz2 (by linarith) b1 b2
  have eg' : gain p1 ((ss i).y1 - (ss i).y2) q1 ((ss i).z0 - (ss i).z1) t1 ((ss i).z2 - (ss i).z1) a.Dx = settles bs (nr + a.online.length) a.outlet i := by
    rw [eg]
    unfold settles
    rw [if_pos hi]
    rw [v2 _ (by rw [v1]; omega)] at ev
    exact (Option.some.inj ev).symm
  obtain ⟨p3, q3, t3, kz3, ky3, ky4, kgain⟩ : ∃ p q s, R1.z3[i]? = some (fin p) ∧ R1.y3[i]? = some (fin q) ∧ R1.y4[i]? = some (fin (-s)) ∧
      gain p ((ss i).y3 - (ss i).y4) q ((ss i).z2 - (ss i).z3) s (pp.BackshoreElev - (ss i).z3) a.Dx = settles bs nr a.online i := by
    by_cases hon : i ∈ a.online
    · obtain ⟨c1, c2, c3⟩ := C.lagoon i hi hon
      have hk' : a.online[a.online.idxOf i]? = some i := by
        rw [List.getElem?_eq_getElem (List.idxOf_lt_length_of_mem hon), List.getElem_idxOf]
      have hkl' := List.idxOf_lt_length_of_mem hon
      obtain ⟨p, q, s, v, e1, e2, e3, e4, e5, _⟩ := v5 _ i r _ _ _ _ hk' hr h3 h4 hz3 (by rw [if_neg (by rw [h1]; simp [Fl.isnan])]; exact hz2) c1 c2 c3
      refine ⟨p, q, s, e1, e2, e3, ?_⟩
      rw [e5]
      unfold settles
      rw [if_pos hon]
      rw [v2 _ (by rw [v1]; omega)] at e4
      exact (Option.some.inj e4).symm
    · obtain ⟨e1, e2, e3⟩ := off_rates hR1 (by omega : i < a.rows.length) hon
      refine ⟨0, 0, 0, e3, e1, by rw [neg_zero]; exact e2, ?_⟩
      unfold settles gain
      rw [if_neg hon]
      ring
  have hcs := B.cst i (by omega)
  have hws := C.part i (by omega)
  obtain ⟨rz0, ry1, ry2, ry3, ry4, rz1, rz3⟩ := chan_rates hall hR1 hr h0 h1 hz0 hz1 hws hcs hne b1.ne' hcell ey1 ky3
  have ry2' : R.y2[i]? = some (fin (-t1)) := by rw [ry2]; exact ey2
  have ry4' : R.y4[i]? = some (fin (-t3)) := by rw [ry4]; exact ky4
  have rz1' : R.z1[i]? = some (fin p1) := by rw [rz1]; exact ez1
  have rz3' : R.z3[i]? = some (fin p3) := by rw [rz3]; exact kz3
  -- rates after the limiter
  obtain ⟨x1, a1, f1⟩ := clip_free (l' := R'.y1) (lim := a.MaxMorChange) (dt := o.MorDt) (hcols.imp (congrArg Rates.y1) (fun g => ⟨g.1, g.2.2.1⟩)) ry1
  obtain ⟨x2, a2, f2⟩ := clip_free (l' := R'.y2) (lim := a.MaxMorChange) (dt := o.MorDt) (hcols.imp (congrArg Rates.y2) (fun g => ⟨g.1, g.2.2.2.1⟩)) ry2'
  obtain ⟨x3, a3, f3⟩ := clip_free (l' := R'.y3) (lim := a.MaxMorChange) (dt := o.MorDt) (hcols.imp (congrArg Rates.y3) (fun g => ⟨g.1, g.2.2.2.2.1⟩)) ry3
  obtain ⟨x4, a4, f4⟩ := clip_free (l' := R'.y4) (lim := a.MaxMorChange) (dt := o.MorDt) (hcols.imp (congrArg Rates.y4) (fun g => ⟨g.1, g.2.2.2.2.2.1⟩)) ry4'
  obtain ⟨u0, d0, n0⟩ := clip_free (l' := R'.z0) (lim := a.MaxMorChange) (dt := o.MorDt) (hcols.imp (congrArg Rates.z0) (fun g => ⟨g.1, g.2.2.2.2.2.2.1⟩)) rz0
  obtain ⟨u1, d1, n1⟩ := clip_free (l' := R'.z1) (lim := a.MaxMorChange) (dt := o.MorDt) (hcols.imp (congrArg Rates.z1) (fun g => ⟨g.1, g.2.2.2.2.2.2.2.1⟩)) rz1'
  obtain ⟨u3, d3, n3⟩ := clip_free (l' := R'.z3) (lim := a.MaxMorChange) (dt := o.MorDt) (hcols.imp (congrArg Rates.z3) (fun g => ⟨g.1, g.2.2.2.2.2.2.2.2⟩)) rz3'
  have hsm' := hsm
  simp only [Rates.cols, List.mem_cons, List.not_mem_nil, or_false, forall_eq_or_imp, forall_eq] at hsm'
  obtain ⟨sm0, _, _, sm3, sm4, _⟩ := hsm'
  have hl0 : R'.y0.length = a.rows.length := by
    have := (allRates_len hm hall).1.1
    rcases hcols with rfl | g
    · exact this
    · rw [g.2.1, List.length_map]; exact this
  obtain ⟨x0, a0, _⟩ := sm0 _ (List.getElem_mem (l := R'.y0) (n := i) (by omega))
  have a0 : R'.y0[i]? = some (fin x0) := by rw [List.getElem?_eq_getElem (by omega), a0]
  have m0 : c.t.y0 = fin ((ss i).y0 + d + x0 * t) := by
    show fin ((ss i).y0 + d) + (R'.y0[i]?).getD nan * _ = _
    rw [a0, Option.getD_some, mul_fin, add_fin]
  have m1 : c.t.y1 = fin ((ss i).y1 + x1 * t) := by
    show r.y1 + (R'.y1[i]?).getD nan * _ = _
    rw [a1, h1, Option.getD_some, mul_fin, add_fin]
  have m2 : c.t.y2 = fin ((ss i).y2 + x2 * t) := by
    show r.y2 + (R'.y2[i]?).getD nan * _ = _
    rw [a2, h2, Option.getD_some, mul_fin, add_fin]
  have m3 : c.t.y3 = fin ((ss i).y3 + x3 * t) := by
    show r.y3 + (R'.y3[i]?).getD nan * _ = _
    rw [a3, h3, Option.getD_some, mul_fin, add_fin]
  have m4 : c.t.y4 = fin ((ss i).y4 + x4 * t) := by
    show r.y4 + (R'.y4[i]?).getD nan * _ = _
    rw [a4, h4, Option.getD_some, mul_fin, add_fin]
  have l0 : c.t.z0 = fin ((ss i).z0 + u0 * t) := by
    show r.z0 + (R'.z0[i]?).getD nan * _ = _
    rw [d0, hz0, Option.getD_some, mul_fin, add_fin]
  have l1 : c.t.z1 = fin ((ss i).z1 + u1 * t) := by
    show r.z1 + (R'.z1[i]?).getD nan * _ = _
    rw [d1, hz1, Option.getD_some, mul_fin, add_fin]
  have l2 : c.t.z2 = fin (ss i).z2 := hz2
  have l3 : c.t.z3 = fin ((ss i).z3 + u3 * t) := by
    show r.z3 + (R'.z3[i]?).getD nan * _ = _
    rw [d3, hz3, Option.getD_some, mul_fin, add_fin]
  -- the crest
  obtain ⟨zc, hzc, hrow, hzc'⟩ : ∃ zc : K, c2.t.z0 = fin zc ∧ c2.t = { c.t with z0 := fin zc } ∧ ((ss i).z2 < zc → zc = (ss i).z0 + u0 * t) := by
    rcases k2 with k2 | k2
    · exact ⟨_, by rw [k2]; exact l0, by rw [k2, ← l0], fun _ => rfl⟩
    · have em : npmax c.t.z0 c.t.z2 = fin (max ((ss i).z0 + u0 * t) (ss i).z2) := by rw [l0, l2, npmax_fin]
      rw [em] at k2
      refine ⟨_, by rw [k2], k2, fun hh => ?_⟩
      rcases le_total ((ss i).z0 + u0 * t) (ss i).z2 with g | g
      · rw [max_eq_right g] at hh
        exact absurd hh (lt_irrefl _)
      · exact max_eq_left g
  -- in line with the river
  have hkeep : (s2.cells.modify X0 (keepCell pp))[i]? = some c2 := by
    rw [List.getElem?_modify, hc2, Option.map_eq_map, Option.map_some]
    by_cases hx : X0 = i
    · rw [if_pos hx]
      unfold keepCell
      rw [if_neg]
      have e3 : c2.t.y3 = c.t.y3 := by rw [hrow]
      have e4 : c2.t.y4 = c.t.y4 := by rw [hrow]
      rw [e3, e4, m3, m4]
      simp only [sub_fin, blt_fin, decide_eq_true_eq, not_lt]
      obtain ⟨_, q3, b3⟩ := sm3 _ (List.mem_of_getElem? a3)
      obtain ⟨_, q4, b4⟩ := sm4 _ (List.mem_of_getElem? a4)
      cases q3
      cases q4
      have := hmin (hX0 r (by rw [hx]; exact hr))
      have d3 : -(a.MaxMorChange) ≤ x3 * t := by
        have := mul_le_mul_of_nonneg_right (neg_abs_le x3) ht0
        linarith
      have d4 : x4 * t ≤ a.MaxMorChange := (mul_le_mul_of_nonneg_right (le_abs_self x4) ht0).trans b4
      linarith
    · rw [if_neg hx]
  have hb : 0 < (ss i).z0 - (ss i).z1 := by linarith
  have hD := B.dx.ne'
  have hchan : ChannelMoved a.MaxMorChange (ss i) ⟨(ss i).y0 + d + x0 * t, (ss i).y1 + x1 * t, (ss i).y2 + x2 * t, (ss i).y3 + x3 * t, (ss i).y4 + x4 * t,
      zc, (ss i).z1 + u1 * t, (ss i).z2, (ss i).z3 + u3 * t⟩ → channelGain a.Dx (ss i) ⟨(ss i).y0 + d + x0 * t, (ss i).y1 + x1 * t, (ss i).y2 + x2 * t,
        (ss i).y3 + x3 * t, (ss i).y4 + x4 * t, zc, (ss i).z1 + u1 * t, (ss i).z2, (ss i).z3 + u3 * t⟩ =
          (settles bs (nr + a.online.length) a.outlet i + a.Dx * (ws i * cs i)) * t := by
    rintro ⟨e1, e2, e3⟩
    simp only [add_sub_cancel_left] at e1 e2 e3
    rw [← eg']
    unfold channelGain gain
    simp only [add_sub_cancel_left]
    rw [f1 e1, f2 e2, n1 e3]
    have := hb.ne'
    field_simp
    ring
  refine Or.inr ⟨c2.t, ⟨(ss i).y0 + d + x0 * t, (ss i).y1 + x1 * t, (ss i).y2 + x2 * t, (ss i).y3 + x3 * t, (ss i).y4 + x4 * t,
      zc, (ss i).z1 + u1 * t, (ss i).z2, (ss i).z3 + u3 * t⟩, ?_, ?_, rfl, hchan, ?_⟩
  · rw [e, List.getElem?_map, hkeep]; rfl
  · rw [hrow]
    exact ⟨m0, m1, m2, m3, m4, rfl, l1, l2, l3⟩
  · rintro p q e' hp' hq' he' hlq ⟨hmv, e0, e3, e4, ez0, ez3⟩ hlow
    have hbl : a.Bedload.getLast? = some (fin (bs.getLast C.reaches)) := by
      rw [C.chan.bed, List.getLast?_map, List.getLast?_eq_some_getLast C.reaches]; rfl
    obtain ⟨ry0, hne1⟩ := beach_rate B C.sorted C.opened he' hbl hp hrb hall hi0 hi1 hr hp' hq' hlq
    obtain ⟨x0', a0', f0⟩ := clip_free (l' := R'.y0) (lim := a.MaxMorChange) (dt := o.MorDt) (hcols.imp (congrArg Rates.y0) (fun g => ⟨g.1, g.2.1⟩)) ry0
    rw [a0] at a0'
    cases a0'
    have hd := hd0 hne1
    subst hd
    have hz' := hzc' hlow
    subst hz'
    unfold spitGain
    rw [hchan hmv, ← kgain]
    unfold gain
    simp only [add_zero, add_sub_cancel_left] at e0 e3 e4 ez0 ez3 ⊢
    rw [f0 e0, f3 e3, f4 e4, n0 ez0, n3 ez3]
    have hh : (ss i).z0 + pp.ClosureDepth = hs i := by
      have := B.height i r hr
      rw [hz0] at this
      injection this with this
      rw [this]; ring
    rw [hh]
    have := B.pos i
    have := sub_ne_zero.mpr hne
    unfold beachGain
    generalize (if p.x ≤ e' ∧ e' < r.x ∧ 0 < ls (i - 1) then 0 else ls (i - 1)) = A
    generalize (if r.x ≤ e' ∧ e' < q.x ∧ ls i < 0 then 0 else ls i) = A'
    field_simp
    ring

/-- C155 for the channel: after a completed step each transect of the outlet channel still has its channel, unless it is breached; if its bed and banks have moved
by less than MaxMorChange, bed and banks together have gained the bedload that reaches this section less the bedload that leaves it, and what the waves carry over
the spit. -/
theorem C155_channel (pp : PhysPars K) (j1 j2 : ℕ → Bool) (a : MorIn K) (o : MorOut K) (h : updateMorphology pp j1 j2 a = .ok o)
    (bs : List K) (nr : ℕ) (hs ls cs ws : ℕ → K) (ss : ℕ → SpitShape K) (C : OpenOutlet pp a bs nr hs ls cs ws ss)
    (k i : ℕ) (hi : a.outlet[k]? = some i) (r : Transect K) (hr : a.rows[i]? = some r) :
    BreachedAt o r.x ∨ ∃ r' s', o.rows[i]? = some r' ∧ HasSpit r' s' ∧ s'.z2 = (ss i).z2 ∧ (ChannelMoved a.MaxMorChange (ss i) s' →
      channelGain a.Dx (ss i) s' = (bs.getD (nr + a.online.length + k) 0 - bs.getD (nr + a.online.length + k + 1) 0 + a.Dx * (ws i * cs i)) * (secs o.MorDt : K)) := by
  have hk : a.outlet.idxOf i = k := by
    obtain ⟨hk, rfl⟩ := List.getElem?_eq_some_iff.mp hi
    exact C.chan.outNodup.idxOf_getElem k hk
  have hm := List.mem_of_getElem? hi
  rcases spit_step h C hm hr with hb | ⟨r', s', k1, k2, k3, k4, _⟩
  · exact Or.inl hb
  · refine Or.inr ⟨r', s', k1, k2, k3, fun hh => ?_⟩
    rw [k4 hh]
    unfold settles
    rw [if_pos hm, hk]

/-- C155, partial: the whole strip.  If nothing has moved by as much as MaxMorChange and the spit is still higher than the inner
barrier, then beach, crest, channel and the lagoon behind together have gained what longshore transport and delta bring to the beach less what it takes,
and the bedload that settles in the channel and in the lagoon.
Missing: a spit lower than the inner barrier, for which it is false, see below, and transport to the left at the end of the outlet (see C146). -/
theorem C155_partial (pp : PhysPars K) (j1 j2 : ℕ → Bool) (a : MorIn K) (o : MorOut K) (h : updateMorphology pp j1 j2 a = .ok o)
    (bs : List K) (nr : ℕ) (hs ls cs ws : ℕ → K) (ss : ℕ → SpitShape K) (C : OpenOutlet pp a bs nr hs ls cs ws ss)
    (i : ℕ) (hi : i ∈ a.outlet) (r p q : Transect K) (hr : a.rows[i]? = some r) (hp : a.rows[i - 1]? = some p) (hq : a.rows[i + 1]? = some q)
    (e : K) (he : a.EndX1 = fin e) (haway : ¬ (r.x ≤ e ∧ e < q.x ∧ ls i < 0)) :
    BreachedAt o r.x ∨ ∃ r' s', o.rows[i]? = some r' ∧ HasSpit r' s' ∧ (SpitMoved a.MaxMorChange (ss i) s' → s'.z2 < s'.z0 →
      spitGain pp.ClosureDepth pp.BackshoreElev a.Dx (ss i) s' =
        (beachGain (deltaShare (bs.getLast C.reaches) a.Dx pp.OutletSedSpreadDist (r.x - e)) p.x r.x q.x e (ls (i - 1)) (ls i) 0 +
          settles bs (nr + a.online.length) a.outlet i + settles bs nr a.online i) * (secs o.MorDt : K)) := by
  rcases spit_step h C hi hr with hb | ⟨r', s', k1, k2, _, _, k5⟩
  · exact Or.inl hb
  · exact Or.inr ⟨r', s', k1, k2, k5 p q e hp hq he haway⟩

/-- An outlet channel across two transects, the first of which also has the lagoon, with waves washing over the spit. -/
def spIn : MorIn ℚ :=
  { brIn with
    rows := [-40, -30, -20, -10, 0, 10, 20, 30, 40].map (fun x => if x = 10 then { brRow 20 with x := 10 } else brRow x)
    EndX0 := fin 10, online := [4, 5], outlet := [5, 6]
    ChanWidth := [fin 70, fin 70, fin 20, fin 20, fin 5, fin 5, fin 6, fin 6], ChanDep := List.replicate 8 (fin 1)
    ChanFlag := [0, 0, 1, 1, 2, 2, 3, 4]
    Bedload := [fin (1/100), fin (1/100), fin (1/200), fin (3/400), fin (1/200), fin (1/250), fin (1/200)]
    LST := [fin (8/100), fin (7/100), fin (6/100), fin (5/100), fin (4/100), fin (3/100), fin (2/100), fin (1/100)]
    CST := List.replicate 9 (fin (1/2000)), OverwashProp := List.replicate 9 (fin (1/4)) }

def spShape : SpitShape ℚ := ⟨100, 60, 55, 20, 0, 4, 0, 3, -1⟩

/-- Concrete case for C155. -/
theorem spIn_outlet : OpenOutlet moPP spIn [1/100, 1/100, 1/200, 3/400, 1/200, 1/250, 1/200] 1 (fun _ => 14) (fun i => (8 - (i : ℚ)) / 100) (fun _ => 1/2000)
    (fun _ => 1/4) (fun _ => spShape) where
  opened := rfl
  regular := by decide +kernel
  lim := by norm_num [spIn, brIn, moIn]
  sorted := by decide +kernel
  chan := ⟨by decide +kernel, by decide +kernel, by decide +kernel, by decide +kernel, by decide +kernel, by decide +kernel, by decide +kernel,
    by decide +kernel, by decide +kernel⟩
  reaches := by simp
  river := by decide +kernel
  beach := by
    have h9 : spIn.rows.length = 9 := by decide +kernel
    refine ⟨?_, ?_, ?_, by decide +kernel, ?_, by norm_num [spIn, brIn, moIn], by norm_num [moPP, chPP]⟩
    · intro i r hr
      have : ∀ i < 9, ∀ r ∈ spIn.rows[i]?, r.z0 = fin (4 : ℚ) := by decide +kernel
      rw [this i (List.getElem?_eq_some_iff.mp hr).1 r hr]
      norm_num [moPP]
    · intro i
      norm_num
    · intro i hi
      have : ∀ i : ℕ, i < 8 → spIn.LST[i]? = some (fin ((8 - (i : ℚ)) / 100)) := by decide +kernel
      exact this i (by omega)
    · intro i hi
      have : ∀ i < 9, spIn.CST[i]? = some (fin (1/2000 : ℚ)) := by decide +kernel
      exact this i (by omega)
  part := by
    intro i hi
    have : ∀ i < 9, spIn.OverwashProp[i]? = some (fin (1/4 : ℚ)) := by decide +kernel
    have h9 : spIn.rows.length = 9 := by decide +kernel
    exact this i (by omega)
  inside := by decide +kernel
  shape := by
    intro i hi
    have hi : i = 5 ∨ i = 6 := by simpa [spIn, brIn, moIn] using hi
    rcases hi with rfl | rfl
    · refine ⟨({ brRow 20 with x := 10 }), by decide +kernel, ⟨rfl, rfl, rfl, rfl, rfl, rfl, rfl, rfl, rfl⟩, ⟨?_, ?_, ?_, ?_⟩, ?_, ?_, fun h => ?_⟩ <;>
        first | (norm_num [spShape, spIn, brIn, moIn]; done) | (norm_num [abs_div, spShape, spIn, brIn, moIn]; done) | exact absurd h (by decide)
    · refine ⟨brRow 20, by decide +kernel, ⟨rfl, rfl, rfl, rfl, rfl, rfl, rfl, rfl, rfl⟩, ⟨?_, ?_, ?_, ?_⟩, ?_, ?_, fun h => ?_⟩ <;>
        first | (norm_num [spShape, spIn, brIn, moIn]; done) | (norm_num [abs_div, spShape, spIn, brIn, moIn]; done) | exact absurd h (by decide)
  ends := ⟨6, { brRow 20 with x := 10 }, brRow 30, 24, by decide +kernel, by norm_num, by decide +kernel, by decide +kernel, by decide +kernel, rfl,
    by norm_num [brRow, spIn, brIn, moIn], by norm_num [brRow, spIn, brIn, moIn]⟩
  lagoon := by
    intro i hi _
    have hi : i = 5 ∨ i = 6 := by simpa [spIn, brIn, moIn] using hi
    rcases hi with rfl | rfl <;> norm_num [spShape, moPP, chPP]

/-- The step completes without a breach; at both transects bed and spit move, by less than MaxMorChange, and the spit stays the higher barrier. -/
example : okAnd (updateMorphology moPP cleanMem cleanMem spIn) (fun o => decide (secs o.MorDt = 240) && !o.Breach &&
    decide ((o.rows[5]?).map (fun r : Transect ℚ => [r.y0, r.y1, r.y2, r.y3, r.y4, r.z0, r.z1, r.z2, r.z3]) =
      some [fin (700069/7000), fin (23997/400), fin 55, fin (8003/400), fin (-3/700), fin (16009/4000), fin (3/250), fin 3, fin (-1)]) &&
    decide ((o.rows[6]?).map (fun r : Transect ℚ => [r.y1, r.y2, r.z1]) = some [fin (23997/400), fin 55, fin (3/625)])) = true := by decide +kernel

/-- The same with an inner barrier a little higher than the spit at the first transect. -/
def spHigh : MorIn ℚ := { spIn with rows := spIn.rows.set 5 { brRow 20 with x := 10, z2 := fin (41/10) } }

def spHighShape (i : ℕ) : SpitShape ℚ := if i = 5 then { spShape with z2 := 41/10 } else spShape

theorem spHigh_outlet : OpenOutlet moPP spHigh [1/100, 1/100, 1/200, 3/400, 1/200, 1/250, 1/200] 1 (fun _ => 14) (fun i => (8 - (i : ℚ)) / 100) (fun _ => 1/2000)
    (fun _ => 1/4) spHighShape where
  opened := rfl
  regular := by decide +kernel
  lim := by norm_num [spHigh, spIn, brIn, moIn]
  sorted := by decide +kernel
  chan := ⟨by decide +kernel, by decide +kernel, by decide +kernel, by decide +kernel, by decide +kernel, by decide +kernel, by decide +kernel,
    by decide +kernel, by decide +kernel⟩
  reaches := by simp
  river := by decide +kernel
  beach := by
    have h9 : spHigh.rows.length = 9 := by decide +kernel
    refine ⟨?_, ?_, ?_, by decide +kernel, ?_, by norm_num [spHigh, spIn, brIn, moIn], by norm_num [moPP, chPP]⟩
    · intro i r hr
      have : ∀ i < 9, ∀ r ∈ spHigh.rows[i]?, r.z0 = fin (4 : ℚ) := by decide +kernel
      rw [this i (List.getElem?_eq_some_iff.mp hr).1 r hr]
      norm_num [moPP]
    · intro i
      norm_num
    · intro i hi
      have : ∀ i : ℕ, i < 8 → spHigh.LST[i]? = some (fin ((8 - (i : ℚ)) / 100)) := by decide +kernel
      exact this i (by omega)
    · intro i hi
      have : ∀ i < 9, spHigh.CST[i]? = some (fin (1/2000 : ℚ)) := by decide +kernel
      exact this i (by omega)
  part := by
    intro i hi
    have : ∀ i < 9, spHigh.OverwashProp[i]? = some (fin (1/4 : ℚ)) := by decide +kernel
    have h9 : spHigh.rows.length = 9 := by decide +kernel
    exact this i (by omega)
  inside := by decide +kernel
  shape := by
    intro i hi
    have hi : i = 5 ∨ i = 6 := by simpa [spHigh, spIn, brIn, moIn] using hi
    rcases hi with rfl | rfl
    · refine ⟨({ brRow 20 with x := 10, z2 := fin (41/10) }), by decide +kernel, ⟨rfl, rfl, rfl, rfl, rfl, rfl, rfl, rfl, rfl⟩, ⟨?_, ?_, ?_, ?_⟩, ?_, ?_, fun h => ?_⟩ <;>
        first | (norm_num [spShape, spHighShape, spHigh, spIn, brIn, moIn]; done) | (norm_num [abs_div, spShape, spHighShape, spHigh, spIn, brIn, moIn]; done) | exact absurd h (by decide)
    · refine ⟨brRow 20, by decide +kernel, ⟨rfl, rfl, rfl, rfl, rfl, rfl, rfl, rfl, rfl⟩, ⟨?_, ?_, ?_, ?_⟩, ?_, ?_, fun h => ?_⟩ <;>
        first | (norm_num [spShape, spHighShape, spHigh, spIn, brIn, moIn]; done) | (norm_num [abs_div, spShape, spHighShape, spHigh, spIn, brIn, moIn]; done) | exact absurd h (by decide)
  ends := ⟨6, { brRow 20 with x := 10, z2 := fin (41/10) }, brRow 30, 24, by decide +kernel, by norm_num, by decide +kernel, by decide +kernel, by decide +kernel, rfl,
    by norm_num [brRow, spHigh, spIn, brIn, moIn], by norm_num [brRow, spHigh, spIn, brIn, moIn]⟩
  lagoon := by
    intro i hi _
    have hi : i = 5 ∨ i = 6 := by simpa [spHigh, spIn, brIn, moIn] using hi
    rcases hi with rfl | rfl <;> norm_num [spShape, spHighShape, moPP, chPP]

/-- C155 is false of the code where the spit is lower than the inner barrier: the check for overtopping (mor.py 601-602) raises the spit to the height of
the inner barrier.  Here the strip gains more than 41 cubic metres in 240 s while it is given less than 3, although nothing moves by as much as MaxMorChange. -/
theorem C155_refuted : OpenOutlet moPP spHigh [1/100, 1/100, 1/200, 3/400, 1/200, 1/250, 1/200] 1 (fun _ => 14) (fun i => (8 - (i : ℚ)) / 100) (fun _ => 1/2000)
    (fun _ => 1/4) spHighShape ∧ 5 ∈ spHigh.outlet ∧ spHigh.EndX1 = fin 24 ∧
    ∃ r p q o r' s', spHigh.rows[5]? = some r ∧ spHigh.rows[4]? = some p ∧ spHigh.rows[6]? = some q ∧ ¬ (r.x ≤ 24 ∧ 24 < q.x) ∧
      updateMorphology moPP cleanMem cleanMem spHigh = .ok o ∧ o.Breach = false ∧ o.rows[5]? = some r' ∧ HasSpit r' s' ∧ SpitMoved spHigh.MaxMorChange (spHighShape 5) s' ∧
      (beachGain (deltaShare (1/200) spHigh.Dx moPP.OutletSedSpreadDist (r.x - 24)) p.x r.x q.x 24 (4/100) (3/100) 0 +
          settles [1/100, 1/100, 1/200, 3/400, 1/200, 1/250, 1/200] (1 + spHigh.online.length) spHigh.outlet 5 +
          settles [1/100, 1/100, 1/200, 3/400, 1/200, 1/250, 1/200] 1 spHigh.online 5) * (secs o.MorDt : ℚ) < 3 ∧
      41 < spitGain moPP.ClosureDepth moPP.BackshoreElev spHigh.Dx (spHighShape 5) s' := by
  refine ⟨spHigh_outlet, by decide +kernel, rfl, { brRow 20 with x := 10, z2 := fin (41/10) }, brRow 0, brRow 20, ?_⟩
  have hw : okAnd (updateMorphology moPP cleanMem cleanMem spHigh) (fun o => decide (secs o.MorDt = 240) && !o.Breach &&
    decide ((o.rows[5]?).map (fun r : Transect ℚ => [r.y0, r.y1, r.y2, r.y3, r.y4, r.z0, r.z1, r.z2, r.z3]) =
      some [fin (700069/7000), fin (23997/400), fin 55, fin (3401/170), fin (-3/700), fin (41/10), fin (3/250), fin (41/10), fin (-1)])) = true := by decide +kernel
  obtain ⟨o, ho, hp⟩ := okAnd_iff.mp hw
  simp only [Bool.and_eq_true, decide_eq_true_eq, Bool.not_eq_true', Option.map_eq_some_iff, List.cons.injEq, and_true] at hp
  obtain ⟨⟨ht, hb⟩, r', hr', h⟩ := hp
  refine ⟨o, r', ⟨700069/7000, 23997/400, 55, 3401/170, -3/700, 41/10, 3/250, 41/10, -1⟩, by decide +kernel, by decide +kernel, by decide +kernel,
    by norm_num [brRow], ho, hb, hr', h, ?_, ?_, by decide +kernel⟩
  · unfold SpitMoved ChannelMoved
    decide +kernel
  · rw [ht]
    decide +kernel

end Verif.Props
