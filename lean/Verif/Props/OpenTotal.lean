import Verif.Props.Spit
import Verif.Lemmas.EndKeep
import Verif.Spec.OpenTotal

set_option autoImplicit false
set_option linter.unusedSectionVars false

/-! # C156: sediment on an open coast

C152 with an open outlet: the transects of the outlet channel are those of C155, the others are as in C152, and there is the end of the outlet, which takes the
longshore transport that reaches it. -/

namespace Verif.Props
open Verif Verif.Model Fl Verif.Spec

variable {K : Type} [Field K] [LinearOrder K] [IsStrictOrderedRing K]

/-- The coast of C156: an outlet as in C155 whose end, of width `w` at level `z`, lies below the beach top; between the two ends of the coast all transects without an outlet channel
have shapes `ps`, without any channel, wide, and beyond the outlet; no transport to the left at the end of the outlet. -/
structure OpenCoast (pp : PhysPars K) (a : MorIn K) (bs : List K) (nr : ℕ) (hs ls cs ws : ℕ → K) (ss : ℕ → SpitShape K) (ps : ℕ → Shape K) (w z : K) : Prop
    extends OpenOutlet pp a bs nr hs ls cs ws ss where
  plain : ∀ i, 0 < i → i + 1 < a.rows.length → i ∉ a.outlet → ∃ r, a.rows[i]? = some r ∧ HasShape r (ps i) ∧ BeyondOutlet a r ∧
    2 * a.MaxMorChange < (ps i).y0 - (ps i).y3 ∧ 2 * a.MaxMorChange < (ps i).y0 - (ps i).y4 ∧
    (r.x = 0 → pp.MinOutletWidth + 2 * a.MaxMorChange ≤ (ps i).y3 - (ps i).y4)
  insideOn : ∀ i ∈ a.online, 0 < i ∧ i + 1 < a.rows.length
  lagoonPlain : ∀ i ∈ a.online, i ∉ a.outlet → (ps i).y4 < (ps i).y3 ∧ (ps i).z3 < (ps i).z0 ∧ (ps i).z3 < pp.BackshoreElev
  right : RightwardAtEnd a ls
  endWidth : a.EndWidth = fin w
  endElev : a.EndElev = fin z
  endWide : 0 < w
  endLow : z < pp.BeachTopElev
  spit : 0 < pp.SpitWidth

/-- The transect right of the outlet end. -/
theorem mouth_ix {pp : PhysPars K} {a : MorIn K} {X0 rb : ℕ} {cells : List (Cell K)} (hpre : precalc pp a = .ok (cells, X0, rb)) (hc : a.Closed = false)
    (hlim : 0 ≤ a.MaxMorChange) (hsort : a.rows.Pairwise (fun r s => r.x < s.x)) (hend : EndBetween a) {e : K} (he : a.EndX1 = fin e) :
    0 < rb ∧ rb + 1 < a.rows.length ∧ (∀ (j : ℕ) d, j < rb → a.rows[j]? = some d → d.x ≤ e) ∧ (∀ (j : ℕ) d, rb ≤ j → a.rows[j]? = some d → e < d.x) := by
  obtain ⟨⟨f, hf, hfx⟩, hbef⟩ := firstIx_ok.mp ((precalc_rb hpre).2.1 hc)
  rw [he] at hfx
  simp only [blt_fin, decide_eq_true_eq] at hfx
  have hxlt : ∀ (j k : ℕ) (u v : Transect K), a.rows[j]? = some u → a.rows[k]? = some v → j < k → u.x < v.x := by
    intro j k u v hu hv hjk
    obtain ⟨h1, rfl⟩ := List.getElem?_eq_some_iff.mp hu
    obtain ⟨h2, rfl⟩ := List.getElem?_eq_some_iff.mp hv
    exact List.pairwise_iff_getElem.mp hsort j k h1 h2 hjk
  have haft : ∀ (j : ℕ) d, rb ≤ j → a.rows[j]? = some d → e < d.x := by
    intro j d hj hd
    rcases Nat.eq_or_lt_of_le hj with rfl | hj
    · rw [hf] at hd; cases hd; exact hfx
    · exact hfx.trans (hxlt rb j f d hf hd hj)
  have hbef' : ∀ (j : ℕ) d, j < rb → a.rows[j]? = some d → d.x ≤ e := by
    intro j d hj hd
    have := hbef j hj d hd
    rw [he] at this
    simpa using this
  obtain ⟨l, p, q, e', _, l1, l2, hp, hq, he', k1, k2⟩ := hend
  rw [he] at he'
  cases he'
  refine ⟨?_, ?_, hbef', haft⟩
  · by_contra hn
    have h1 := haft (l - 1) p (by omega) hp
    linarith
  · by_contra hn
    have h1 := hbef' (l + 1) q (by omega) hq
    linarith

/-- A transect without a channel of an open coast through a step. -/
theorem open_strip {pp : PhysPars K} {j1 j2 : ℕ → Bool} {a : MorIn K} {o : MorOut K} (h : updateMorphology pp j1 j2 a = .ok o)
    {bs : List K} {nr : ℕ} {hs ls cs ws : ℕ → K} {ss : ℕ → SpitShape K} {ps : ℕ → Shape K} {w z : K} (C : OpenCoast pp a bs nr hs ls cs ws ss ps w z)
    {i : ℕ} (hi0 : 0 < i) (hi1 : i + 1 < a.rows.length) (hout : i ∉ a.outlet) {r p' q' : Transect K} (hr : a.rows[i]? = some r) (hp' : a.rows[i - 1]? = some p')
    (hq' : a.rows[i + 1]? = some q') {e : K} (he : a.EndX1 = fin e) :
    BreachedAt o r.x ∨ ∃ r' s', o.rows[i]? = some r' ∧ HasShape r' s' ∧ (MovedLess a.MaxMorChange (ps i) s' →
      stripGain pp.ClosureDepth pp.BackshoreElev a.Dx (ps i) s' =
        (beachGain (deltaShare (bs.getLast C.reaches) a.Dx pp.OutletSedSpreadDist (r.x - e)) p'.x r.x q'.x e (ls (i - 1)) (ls i) 0 + settles bs nr a.online i) *
          (secs o.MorDt : K)) := by
  obtain ⟨r1, hr1, ⟨h0, h1, h2, h3, h4, hz0, hz3⟩, hbey, w3, w4, hmin⟩ := C.plain i hi0 hi1 hout
  rw [hr] at hr1
  cases hr1
  have B := C.beach
  have hne : (ps i).y0 ≠ (ps i).y3 := by
    have := C.lim
    intro he
    rw [he] at w3
    linarith
  have hb : (ps i).z0 ≠ (ps i).z3 := by
    have := (C.regular.2.2.2.2.2.2.1 r (List.mem_of_getElem? hr)).2.2
    rw [if_pos (by rw [h1]; rfl), hz0, hz3] at this
    exact this.2
  have hnot : ¬ (r.x ≤ e ∧ e < q'.x ∧ ls i < 0) := fun hh => absurd (C.right i r q' e hr hq' he hh.1 hh.2.1) (not_le.mpr hh.2.2)
  have hnear : ∀ X0 rb cells' R, precalc pp a = .ok (a.rows.mapIdx (mkCell pp a), X0, rb) →
      allRates pp a rb (a.rows.mapIdx (mkCell pp a)) = .ok (R, cells') → cells'[i]? = some (mkCell pp a i r) := by
    intro X0 rb cells' R hpre hall
    obtain ⟨m1, m2, m3, m4⟩ := mouth_ix hpre C.opened C.lim C.sorted C.ends he
    obtain ⟨d, hd, _, hd0⟩ := cells_shift B C.opened (by omega) hall hi1 hr h0
    have : d = 0 := by
      refine hd0 ?_
      by_cases hh : i + 1 = rb
      · exact Or.inr (C.right i r q' e hr hq' he (m3 i r (by omega) hr) (m4 (i + 1) q' (by omega) hq'))
      · exact Or.inl hh
    rw [hd, this, add_zero, ← h0]
    rfl
  obtain ⟨X0, rb, cells', R, R', rate, hpre, hall, hcell, hl, m3, m4, hres⟩ := update_plain h C.lim C.regular hr hbey hnear h0 h1 h2 h3 h4 w3 w4
  rcases hres with hres | ⟨r', hr', hrow, hr4⟩
  · exact Or.inl hres
  have hm : (a.rows.mapIdx (mkCell pp a)).length = a.rows.length := by simp
  have hlim := limit_all hl
  have hsec : (0 : K) ≤ (secs o.MorDt : K) := by exact_mod_cast secs_nonneg o.MorDt
  -- rates before the limiter
  obtain ⟨R1, vs, hR1, v1, v2, _, _, _, v5, _⟩ := C35_conserves pp a (a.rows.mapIdx (mkCell pp a)) bs nr C.chan C.reaches B.dx C.river
  rw [C.opened] at v1
  simp only [Bool.false_eq_true, if_false] at v1
  have hcs := B.cst i (by omega)
  have hws := C.part i (by omega)
  obtain ⟨k0, koff⟩ := plain_rates hall hr h0 h1 h3 hz0 hz3 hws hcs hne hb hcell
  obtain ⟨p, q, s, kz3, ky3, ky4, kgain⟩ : ∃ p q s, R.z3[i]? = some (fin p) ∧ R.y3[i]? = some (fin (q - ws i * cs i / ((ps i).z0 - (ps i).z3))) ∧
      R.y4[i]? = some (fin (-s)) ∧
      gain p ((ps i).y3 - (ps i).y4) q ((ps i).z0 - (ps i).z3) s (pp.BackshoreElev - (ps i).z3) a.Dx = settles bs nr a.online i := by
    by_cases hi : i ∈ a.online
    · obtain ⟨b1, b2, b3⟩ := C.lagoonPlain i hi hout
      have hk : a.online[a.online.idxOf i]? = some i := by
        rw [List.getElem?_eq_getElem (List.idxOf_lt_length_of_mem hi), List.getElem_idxOf]
      obtain ⟨p, q, s, v, e1, e2, e3, e4, e5, _⟩ := v5 _ i r _ _ _ _ hk hr h3 h4 hz3 (by rw [if_pos (by rw [h1]; rfl)]; exact hz0) b1 b2 b3
      obtain ⟨g1, g2, g3⟩ := plain_rates_on hall hR1 h1 hz0 hz3 hws hcs hb hcell e2
      refine ⟨p, q, s, by rw [g3]; exact e1, g1, by rw [g2]; exact e3, ?_⟩
      rw [e5]
      unfold settles
      rw [if_pos hi]
      have hlt := List.idxOf_lt_length_of_mem hi
      rw [v2 _ (by rw [v1]; omega)] at e4
      exact (Option.some.inj e4).symm
    · obtain ⟨g1, g2, g3⟩ := koff hi
      refine ⟨0, 0, 0, g3, by rw [zero_sub]; exact g1, by rw [neg_zero]; exact g2, ?_⟩
      unfold settles gain
      rw [if_neg hi]
      ring
  have hh : (ps i).z0 + pp.ClosureDepth = hs i := by
    have := B.height i r hr
    rw [hz0] at this
    injection this with this
    rw [this]; ring
  have hbl : a.Bedload.getLast? = some (fin (bs.getLast C.reaches)) := by
    rw [C.chan.bed, List.getLast?_map, List.getLast?_eq_some_getLast C.reaches]; rfl
  have hrb0 := (mouth_ix hpre C.opened C.lim C.sorted C.ends he).1
  obtain ⟨ky0, _⟩ := beach_rate B C.sorted C.opened he hbl hpre (by omega) hall hi0 hi1 hr hp' hq' hnot
  -- rates after the limiter
  obtain ⟨x0, a0, f0⟩ := clip_free (l' := R'.y0) (lim := a.MaxMorChange) (dt := o.MorDt) (hlim.imp (congrArg Rates.y0) (fun g => ⟨g.1, g.2.1⟩)) ky0
  obtain ⟨x3, a3, f3⟩ := clip_free (l' := R'.y3) (lim := a.MaxMorChange) (dt := o.MorDt) (hlim.imp (congrArg Rates.y3) (fun g => ⟨g.1, g.2.2.1⟩)) ky3
  obtain ⟨x4, a4, f4⟩ := clip_free (l' := R'.y4) (lim := a.MaxMorChange) (dt := o.MorDt) (hlim.imp (congrArg Rates.y4) (fun g => ⟨g.1, g.2.2.2.1⟩)) ky4
  obtain ⟨u0, c0, g0⟩ := clip_free (l' := R'.z0) (lim := a.MaxMorChange) (dt := o.MorDt) (hlim.imp (congrArg Rates.z0) (fun g => ⟨g.1, g.2.2.2.2.1⟩)) k0
  obtain ⟨u3, c3, g3⟩ := clip_free (l' := R'.z3) (lim := a.MaxMorChange) (dt := o.MorDt) (hlim.imp (congrArg Rates.z3) (fun g => ⟨g.1, g.2.2.2.2.2⟩)) kz3
  set t := (secs o.MorDt : K) with ht
  have n3 : (moveCell R' (fin t) i (mkCell pp a i r)).t.y3 = fin ((ps i).y3 + x3 * t) := by
    show r.y3 + (R'.y3[i]?).getD nan * _ = _
    rw [a3, h3, Option.getD_some, mul_fin, add_fin]
  have n4 : (moveCell R' (fin t) i (mkCell pp a i r)).t.y4 = fin ((ps i).y4 + x4 * t) := by
    show r.y4 + (R'.y4[i]?).getD nan * _ = _
    rw [a4, h4, Option.getD_some, mul_fin, add_fin]
  simp only [Transect.mk.injEq] at hrow
  obtain ⟨_, ey0, ey1, ey2, ey3, _, ez0, _, _, ez3⟩ := hrow
  have ey4 : r'.y4 = fin ((ps i).y4 + x4 * t) := by
    rw [← n4]
    refine hr4 ?_
    by_cases hx : r.x = 0
    · refine Or.inr ?_
      rw [n3, n4]
      simp only [sub_fin, blt_fin, decide_eq_false_iff_not, not_lt]
      obtain ⟨_, q3, b3⟩ := m3 _ (List.mem_of_getElem? a3)
      obtain ⟨_, q4, b4⟩ := m4 _ (List.mem_of_getElem? a4)
      cases q3
      cases q4
      have := hmin hx
      have d3 : -(a.MaxMorChange) ≤ x3 * t := by
        have := mul_le_mul_of_nonneg_right (neg_abs_le x3) hsec
        linarith
      have d4 : x4 * t ≤ a.MaxMorChange := (mul_le_mul_of_nonneg_right (le_abs_self x4) hsec).trans b4
      linarith
    · exact Or.inl hx
  refine Or.inr ⟨r', ⟨(ps i).y0 + x0 * t, (ps i).y3 + x3 * t, (ps i).y4 + x4 * t, (ps i).z0 + u0 * t, (ps i).z3 + u3 * t⟩, hr',
    ⟨ey0.trans ?_, ey1.trans ?_, ey2.trans ?_, ey3.trans n3, ey4, ez0.trans ?_, ez3.trans ?_⟩, ?_⟩
  · show r.y0 + (R'.y0[i]?).getD nan * _ = _
    rw [a0, h0, Option.getD_some, mul_fin, add_fin]
  · show r.y1 + _ = nan
    rw [h1, nan_add']
  · show r.y2 + _ = nan
    rw [h2, nan_add']
  · show r.z0 + (R'.z0[i]?).getD nan * _ = _
    rw [c0, hz0, Option.getD_some, mul_fin, add_fin]
  · show r.z3 + (R'.z3[i]?).getD nan * _ = _
    rw [c3, hz3, Option.getD_some, mul_fin, add_fin]
  · rintro ⟨b0, b3, b4, e0, e3⟩
    simp only [add_sub_cancel_left] at b0 b3 b4 e0 e3
    rw [← kgain]
    unfold stripGain gain
    simp only [add_sub_cancel_left]
    rw [f0 b0, f3 b3, f4 b4, g0 e0, g3 e3, hh]
    have := B.dx.ne'
    have := (B.pos i).ne'
    have := sub_ne_zero.mpr hne
    have := sub_ne_zero.mpr hb
    unfold beachGain
    generalize (if p'.x ≤ e ∧ e < r.x ∧ 0 < ls (i - 1) then 0 else ls (i - 1)) = A
    generalize (if r.x ≤ e ∧ e < q'.x ∧ ls i < 0 then 0 else ls i) = A'
    field_simp
    ring


/-- The end of the outlet through a step without a breach. -/
theorem end_step {pp : PhysPars K} {j1 j2 : ℕ → Bool} {a : MorIn K} {o : MorOut K} (h : updateMorphology pp j1 j2 a = .ok o) (hB : o.Breach = false)
    {bs : List K} {nr : ℕ} {hs ls cs ws : ℕ → K} {ss : ℕ → SpitShape K} {ps : ℕ → Shape K} {w z : K} (C : OpenCoast pp a bs nr hs ls cs ws ss ps w z)
    {e : K} (he : a.EndX1 = fin e) :
    ∃ (m : ℕ) (w' z' : K), 0 < m ∧ m + 1 < a.rows.length ∧ (∀ (j : ℕ) d, j < m → a.rows[j]? = some d → d.x ≤ e) ∧ (∀ (j : ℕ) d, m ≤ j → a.rows[j]? = some d → e < d.x) ∧
      o.EndWidth = fin w' ∧ o.EndElev = fin z' ∧ (|w' - w| < a.MaxMorChange → |z' - z| < a.MaxMorChange →
        endGain a.Dx pp.BeachTopElev pp.SpitWidth w z w' z' =
          (bs.getD (nr + a.online.length + a.outlet.length) 0 - bs.getD (nr + a.online.length + a.outlet.length + 1) 0 + ls (m - 1)) * (secs o.MorDt : K)) := by
  obtain ⟨X0, s0, g0, ew, ez⟩ := update_ends h hB
  obtain ⟨rb, cells', R, R', rate, hpre, hall, hrt, hdt, hl, ha⟩ := force_inv g0
  obtain ⟨m1, m2, m3, m4⟩ := mouth_ix hpre C.opened C.lim C.sorted C.ends he
  have B := C.beach
  obtain ⟨R1, vs, hR1, v1, v2, _, _, _, _, _, v7⟩ := C35_conserves pp a (a.rows.mapIdx (mkCell pp a)) bs nr C.chan C.reaches B.dx C.river
  rw [C.opened] at v1
  simp only [Bool.false_eq_true, if_false] at v1
  obtain ⟨p, q, v, k1, k2, k3, k4, _⟩ := v7 C.opened w z C.endWidth C.endElev C.endWide C.endLow C.spit
  rw [v2 _ (by rw [v1]; omega)] at k3
  have k3 := Option.some.inj k3
  have hpi : prevIx a.LST.length rb = rb - 1 := by unfold prevIx; rw [if_neg (by omega)]
  have hL : a.LST[prevIx a.LST.length rb]? = some (fin (ls (rb - 1))) := by rw [hpi]; exact B.lst _ (by omega)
  have hl0 : 0 ≤ ls (rb - 1) := by
    have hp := List.getElem?_eq_getElem (l := a.rows) (i := rb - 1) (by omega)
    have hq := List.getElem?_eq_getElem (l := a.rows) (i := rb) (by omega)
    refine C.right (rb - 1) _ _ e hp (by rw [Nat.sub_add_cancel m1]; exact hq) he (m3 _ _ (by omega) hp) (m4 _ _ le_rfl hq)
  obtain ⟨n1, n2⟩ := mouth_rates hall hR1 C.opened hL hl0 C.endElev C.endLow C.spit k2 k1
  have hlim := limit_ends hl
  obtain ⟨x, a1, f1⟩ := clip_free_one (v' := R'.endW) (lim := a.MaxMorChange) (dt := o.MorDt) (hlim.imp (congrArg Rates.endW) (fun g => ⟨g.1, g.2.1⟩)) n1
  obtain ⟨y, a2, f2⟩ := clip_free_one (v' := R'.endZ) (lim := a.MaxMorChange) (dt := o.MorDt) (hlim.imp (congrArg Rates.endZ) (fun g => ⟨g.1, by
    rw [g.2.2, n2]; unfold pyClip clip; simp only [pymax_fin, pymin_fin, npmax_fin, npmin_fin]⟩)) n2
  refine ⟨rb, w + x * (secs o.MorDt : K), z + y * (secs o.MorDt : K), m1, m2, m3, m4, ?_, ?_, fun b1 b2 => ?_⟩
  · unfold applyRates at ha
    simp only at ha
    split at ha
    · cases ha
    · cases ha
      rw [ew]
      show (if a.Closed = true then a.EndWidth else a.EndWidth + R'.endW * fin (secs o.MorDt : K)) = _
      rw [if_neg (by rw [C.opened]; simp), C.endWidth, a1, mul_fin, add_fin]
  · unfold applyRates at ha
    simp only at ha
    split at ha
    · cases ha
    · cases ha
      rw [ez]
      show (if a.Closed = true then a.EndElev else a.EndElev + R'.endZ * fin (secs o.MorDt : K)) = _
      rw [if_neg (by rw [C.opened]; simp), C.endElev, a2, mul_fin, add_fin]
  · simp only [add_sub_cancel_left] at b1 b2
    unfold endGain
    simp only [add_sub_cancel_left]
    rw [f1 b1, f2 b2, k3, ← k4]
    have h1 : pp.BeachTopElev - z ≠ 0 := (sub_pos.mpr C.endLow).ne'
    have h2 := C.spit.ne'
    field_simp
    ring

/-- The bedload that stays at consecutive reaches. -/
theorem settles_telescope {bs : List K} {nr n : ℕ} {online : List ℕ} (hn : online.Nodup) (hi : ∀ i ∈ online, 0 < i ∧ i + 1 < n) :
    ∑ i ∈ Finset.Ico 1 (n - 1), settles bs nr online i = bs.getD nr 0 - bs.getD (nr + online.length) 0 := by
  have e1 : ∑ i ∈ Finset.Ico 1 (n - 1), settles bs nr online i = ∑ i ∈ online.toFinset, settles bs nr online i := by
    refine (Finset.sum_subset ?_ ?_).symm
    · intro i h
      obtain ⟨h1, h2⟩ := hi i (List.mem_toFinset.mp h)
      rw [Finset.mem_Ico]
      omega
    · intro i _ h
      unfold settles
      rw [if_neg (fun hm => h (List.mem_toFinset.mpr hm))]
  have e2 : online.map (settles bs nr online) = (List.range online.length).map (fun k => bs.getD (nr + k) 0 - bs.getD (nr + k + 1) 0) := by
    refine List.ext_getElem (by simp) ?_
    intro k h1 h2
    have hk : k < online.length := by simpa using h1
    rw [List.getElem_map, List.getElem_map, List.getElem_range]
    unfold settles
    rw [if_pos (List.getElem_mem hk), hn.idxOf_getElem k hk]
  have e3 : ((List.range online.length).map (fun k => bs.getD (nr + k) 0 - bs.getD (nr + k + 1) 0)).sum =
      ∑ k ∈ Finset.range online.length, (bs.getD (nr + k) 0 - bs.getD (nr + (k + 1)) 0) := rfl
  rw [e1, List.sum_toFinset _ hn, e2, e3, Finset.sum_range_sub' (fun k => bs.getD (nr + k) 0), add_zero]

/-- Longshore transport over all beaches: what reaches the end of the outlet is missing. -/
theorem beach_sum {n m : ℕ} {ls xs ds : ℕ → K} {e : K} (h0 : 0 < m) (h1 : m + 1 < n) (hbef : ∀ j, j < m → xs j ≤ e) (haft : ∀ j, m ≤ j → j < n → e < xs j)
    (hl : 0 ≤ ls (m - 1)) :
    ∑ i ∈ Finset.Ico 1 (n - 1), beachGain (ds i) (xs (i - 1)) (xs i) (xs (i + 1)) e (ls (i - 1)) (ls i) 0 =
      ∑ i ∈ Finset.Ico 1 (n - 1), ds i + ls 0 - ls (n - 2) - ls (m - 1) := by
  have key : ∀ i ∈ Finset.Ico 1 (n - 1), beachGain (ds i) (xs (i - 1)) (xs i) (xs (i + 1)) e (ls (i - 1)) (ls i) 0 =
      ds i + (ls (i - 1) - ls i) - (if i = m then ls (m - 1) else 0) := by
    intro i hi
    rw [Finset.mem_Ico] at hi
    unfold beachGain
    have hlq : ¬ (xs i ≤ e ∧ e < xs (i + 1) ∧ ls i < 0) := by
      rintro ⟨k1, k2, k3⟩
      have : i = m - 1 := by
        by_contra hne
        rcases Nat.lt_or_ge i m with hlt | hge
        · have := hbef (i + 1) (by omega); linarith
        · have := haft i hge (by omega); linarith
      rw [this] at k3
      linarith
    rw [if_neg hlq]
    by_cases him : i = m
    · subst him
      rw [if_pos rfl]
      rcases hl.lt_or_eq with hl | hl
      · rw [if_pos ⟨hbef (i - 1) (by omega), haft i le_rfl (by omega), hl⟩]
        ring
      · rw [← hl, ite_self]
        ring
    · have : ¬ (xs (i - 1) ≤ e ∧ e < xs i ∧ 0 < ls (i - 1)) := by
        rintro ⟨k1, k2, _⟩
        rcases Nat.lt_or_ge i m with hlt | hge
        · have := hbef i hlt; linarith
        · have := haft (i - 1) (by omega) (by omega); linarith
      rw [if_neg this, if_neg him]
      ring
  rw [Finset.sum_congr rfl key, Finset.sum_sub_distrib, Finset.sum_add_distrib, Finset.sum_ite_eq' (Finset.Ico 1 (n - 1)) m,
    if_pos (Finset.mem_Ico.mpr ⟨h0, by omega⟩)]
  have e2 : ∑ i ∈ Finset.Ico 1 (n - 1), (ls (i - 1) - ls i) = ls 0 - ls (n - 2) := by
    rw [Finset.sum_Ico_eq_sum_range]
    have : ∀ k ∈ Finset.range (n - 1 - 1), ls (1 + k - 1) - ls (1 + k) = ls k - ls (k + 1) := by
      intro k _
      rw [Nat.add_sub_cancel_left, Nat.add_comm]
    rw [Finset.sum_congr rfl this, Finset.sum_range_sub' ls]
    congr 2
  rw [e2]
  ring

/-- C156, partial: the whole coast between its two ends, with the river and the end of the outlet.  Unless there is a breach, if nothing has moved by as much as MaxMorChange, no
section of the river is limited by it and every spit is still higher than the barrier behind it, all of it together has gained the bedload that enters at the top of
the river and what longshore transport brings across the first segment less what it takes across the last, less the part of the bedload leaving the outlet
that the delta does not spread to these transects.
Missing: transport to the left at the end of the outlet (C146) and spits lower than the barrier behind (C155), for which it is false, and a
delta that spreads all it gets, see below. -/
theorem C156_partial (pp : PhysPars K) (j1 j2 : ℕ → Bool) (a : MorIn K) (o : MorOut K) (h : updateMorphology pp j1 j2 a = .ok o)
    (bs : List K) (nr : ℕ) (hs ls cs ws : ℕ → K) (ss : ℕ → SpitShape K) (ps : ℕ → Shape K) (w z : K) (C : OpenCoast pp a bs nr hs ls cs ws ss ps w z)
    (hB : o.Breach = false) (hz : ∀ z ∈ a.RiverElev, IsNumber z)
    (hriv : ∀ k, k < nr → |bs.getD k 0 - bs.getD (k + 1) 0| * (secs o.MorDt : K) ≤ a.MaxMorChange * (pp.RiverWidth * a.Dx))
    (xs : ℕ → K) (hx : ∀ (i : ℕ) r, a.rows[i]? = some r → r.x = xs i) (e : K) (he : a.EndX1 = fin e) :
    ∃ (ss' : ℕ → SpitShape K) (ps' : ℕ → Shape K) (w' z' : K), (∀ i ∈ a.outlet, ∃ r', o.rows[i]? = some r' ∧ HasSpit r' (ss' i)) ∧
      (∀ i, 0 < i → i + 1 < a.rows.length → i ∉ a.outlet → ∃ r', o.rows[i]? = some r' ∧ HasShape r' (ps' i)) ∧ o.EndWidth = fin w' ∧ o.EndElev = fin z' ∧
      ((∀ i ∈ a.outlet, SpitMoved a.MaxMorChange (ss i) (ss' i) ∧ (ss' i).z2 < (ss' i).z0) →
        (∀ i, 0 < i → i + 1 < a.rows.length → i ∉ a.outlet → MovedLess a.MaxMorChange (ps i) (ps' i)) →
        |w' - w| < a.MaxMorChange → |z' - z| < a.MaxMorChange →
        ∑ i ∈ Finset.Ico 1 (a.rows.length - 1), (if i ∈ a.outlet then spitGain pp.ClosureDepth pp.BackshoreElev a.Dx (ss i) (ss' i)
            else stripGain pp.ClosureDepth pp.BackshoreElev a.Dx (ps i) (ps' i)) +
          endGain a.Dx pp.BeachTopElev pp.SpitWidth w z w' z' + (bedVolume pp.RiverWidth a.Dx o.RiverElev - bedVolume pp.RiverWidth a.Dx a.RiverElev) =
        (bs.getD 0 0 + ls 0 - ls (a.rows.length - 2) -
          (bs.getLast C.reaches - ∑ i ∈ Finset.Ico 1 (a.rows.length - 1), deltaShare (bs.getLast C.reaches) a.Dx pp.OutletSedSpreadDist (xs i - e))) * (secs o.MorDt : K)) := by
  have hBr : ∀ x, ¬ BreachedAt o x := fun x hb => by rw [hb.1] at hB; cases hB
  have row : ∀ i, i < a.rows.length → ∃ r, a.rows[i]? = some r ∧ r.x = xs i := by
    intro i hi
    have := List.getElem?_eq_getElem (l := a.rows) (i := i) hi
    exact ⟨_, this, hx i _ this⟩
  have key1 : ∀ i, ∃ s', i ∈ a.outlet → (∃ r', o.rows[i]? = some r' ∧ HasSpit r' s') ∧ (SpitMoved a.MaxMorChange (ss i) s' → s'.z2 < s'.z0 →
      spitGain pp.ClosureDepth pp.BackshoreElev a.Dx (ss i) s' =
        (beachGain (deltaShare (bs.getLast C.reaches) a.Dx pp.OutletSedSpreadDist (xs i - e)) (xs (i - 1)) (xs i) (xs (i + 1)) e (ls (i - 1)) (ls i) 0 +
          settles bs (nr + a.online.length) a.outlet i + settles bs nr a.online i) * (secs o.MorDt : K)) := by
    intro i
    by_cases hi : i ∈ a.outlet
    · obtain ⟨h0, h1⟩ := C.inside i hi
      obtain ⟨r, hr, er⟩ := row i (by omega)
      obtain ⟨p, hp, ep⟩ := row (i - 1) (by omega)
      obtain ⟨q, hq, eq⟩ := row (i + 1) (by omega)
      rcases C155_partial pp j1 j2 a o h bs nr hs ls cs ws ss C.toOpenOutlet i hi r p q hr hp hq e he
        (fun hh => absurd (C.right i r q e hr hq he hh.1 hh.2.1) (not_le.mpr hh.2.2)) with hb | ⟨r', s', k1, k2, k3⟩
      · exact absurd hb (hBr _)
      · refine ⟨s', fun _ => ⟨⟨r', k1, k2⟩, ?_⟩⟩
        rw [er, ep, eq] at k3
        exact k3
    · exact ⟨ss i, fun hh => absurd hh hi⟩
  have key2 : ∀ i, ∃ s', 0 < i → i + 1 < a.rows.length → i ∉ a.outlet → (∃ r', o.rows[i]? = some r' ∧ HasShape r' s') ∧ (MovedLess a.MaxMorChange (ps i) s' →
      stripGain pp.ClosureDepth pp.BackshoreElev a.Dx (ps i) s' =
        (beachGain (deltaShare (bs.getLast C.reaches) a.Dx pp.OutletSedSpreadDist (xs i - e)) (xs (i - 1)) (xs i) (xs (i + 1)) e (ls (i - 1)) (ls i) 0 +
          settles bs nr a.online i) * (secs o.MorDt : K)) := by
    intro i
    by_cases hi : 0 < i ∧ i + 1 < a.rows.length ∧ i ∉ a.outlet
    · obtain ⟨h0, h1, h2⟩ := hi
      obtain ⟨r, hr, er⟩ := row i (by omega)
      obtain ⟨p, hp, ep⟩ := row (i - 1) (by omega)
      obtain ⟨q, hq, eq⟩ := row (i + 1) (by omega)
      rcases open_strip h C h0 h1 h2 hr hp hq he with hb | ⟨r', s', k1, k2, k3⟩
      · exact absurd hb (hBr _)
      · refine ⟨s', fun _ _ _ => ⟨⟨r', k1, k2⟩, ?_⟩⟩
        rw [er, ep, eq] at k3
        exact k3
    · exact ⟨ps i, fun h0 h1 h2 => absurd ⟨h0, h1, h2⟩ hi⟩
  choose ss' hss using key1
  choose ps' hps using key2
  obtain ⟨m, w', z', m1, m2, m3, m4, ew, ez, hend⟩ := end_step h hB C he
  refine ⟨ss', ps', w', z', fun i hi => (hss i hi).1, fun i h0 h1 h2 => (hps i h0 h1 h2).1, ew, ez, fun g1 g2 g3 g4 => ?_⟩
  obtain ⟨_, hr⟩ := C147_total pp j1 j2 a o h bs nr C.chan C.reaches C.beach.dx C.river C.lim C.regular hz hriv
  rw [hend g3 g4, hr]
  have hl0 : 0 ≤ ls (m - 1) := by
    have hp := List.getElem?_eq_getElem (l := a.rows) (i := m - 1) (by omega)
    have hq := List.getElem?_eq_getElem (l := a.rows) (i := m) (by omega)
    exact C.right (m - 1) _ _ e hp (by rw [Nat.sub_add_cancel m1]; exact hq) he (m3 _ _ (by omega) hp) (m4 _ _ le_rfl hq)
  have hsum := beach_sum (n := a.rows.length) (m := m) (ls := ls) (xs := xs) (e := e) (ds := fun i => deltaShare (bs.getLast C.reaches) a.Dx pp.OutletSedSpreadDist (xs i - e)) m1 m2
    (fun j hj => by obtain ⟨d, hd, ed⟩ := row j (by omega); rw [← ed]; exact m3 j d hj hd)
    (fun j hj hjn => by obtain ⟨d, hd, ed⟩ := row j hjn; rw [← ed]; exact m4 j d hj hd) hl0
  have e1 : ∑ i ∈ Finset.Ico 1 (a.rows.length - 1), (if i ∈ a.outlet then spitGain pp.ClosureDepth pp.BackshoreElev a.Dx (ss i) (ss' i)
            else stripGain pp.ClosureDepth pp.BackshoreElev a.Dx (ps i) (ps' i)) =
      (∑ i ∈ Finset.Ico 1 (a.rows.length - 1),
          beachGain (deltaShare (bs.getLast C.reaches) a.Dx pp.OutletSedSpreadDist (xs i - e)) (xs (i - 1)) (xs i) (xs (i + 1)) e (ls (i - 1)) (ls i) 0 +
        ∑ i ∈ Finset.Ico 1 (a.rows.length - 1), settles bs (nr + a.online.length) a.outlet i + ∑ i ∈ Finset.Ico 1 (a.rows.length - 1), settles bs nr a.online i) *
          (secs o.MorDt : K) := by
    rw [← Finset.sum_add_distrib, ← Finset.sum_add_distrib, Finset.sum_mul]
    refine Finset.sum_congr rfl (fun i hi => ?_)
    rw [Finset.mem_Ico] at hi
    by_cases ho : i ∈ a.outlet
    · rw [if_pos ho]
      exact (hss i ho).2 (g1 i ho).1 (g1 i ho).2
    · rw [if_neg ho, (hps i (by omega) (by omega) ho).2 (g2 i (by omega) (by omega) ho)]
      have : settles bs (nr + a.online.length) a.outlet i = 0 := by unfold settles; rw [if_neg ho]
      rw [this, add_zero]
  have hlast : bs.getD (nr + a.online.length + a.outlet.length + 1) 0 = bs.getLast C.reaches := by
    have h1 := C.chan.reaches
    rw [C.chan.flag] at h1
    simp only [C.opened, Bool.false_eq_true, if_false, List.length_cons, List.length_append, List.length_replicate, List.length_nil] at h1
    rw [List.getLast_eq_getElem, List.getD_eq_getElem?_getD, List.getElem?_eq_getElem (by omega), Option.getD_some]
    congr 1
    omega
  rw [e1, hsum, settles_telescope C.chan.outNodup C.inside, settles_telescope C.chan.onNodup C.insideOn, hlast]
  ring

/-- C156, partial, with a delta that spreads all it gets: on a grid of spacing Dx, with an OutletSedSpreadDist of some whole number of grid steps, and the delta between the two
ends of the coast, nothing is made or lost. -/
theorem C156_partial_delta (pp : PhysPars K) (j1 j2 : ℕ → Bool) (a : MorIn K) (o : MorOut K) (h : updateMorphology pp j1 j2 a = .ok o)
    (bs : List K) (nr : ℕ) (hs ls cs ws : ℕ → K) (ss : ℕ → SpitShape K) (ps : ℕ → Shape K) (w z : K) (C : OpenCoast pp a bs nr hs ls cs ws ss ps w z)
    (hB : o.Breach = false) (hz : ∀ z ∈ a.RiverElev, IsNumber z)
    (hriv : ∀ k, k < nr → |bs.getD k 0 - bs.getD (k + 1) 0| * (secs o.MorDt : K) ≤ a.MaxMorChange * (pp.RiverWidth * a.Dx))
    (x0 e : K) (hx : ∀ (i : ℕ) r, a.rows[i]? = some r → r.x = x0 + i * a.Dx) (he : a.EndX1 = fin e)
    (m : ℕ) (hm : 0 < m) (hS : pp.OutletSedSpreadDist = m * a.Dx) (hlo : x0 + m * a.Dx ≤ e) (hhi : e + m * a.Dx ≤ x0 + (a.rows.length - 1 : ℕ) * a.Dx) :
    ∃ (ss' : ℕ → SpitShape K) (ps' : ℕ → Shape K) (w' z' : K), (∀ i ∈ a.outlet, ∃ r', o.rows[i]? = some r' ∧ HasSpit r' (ss' i)) ∧
      (∀ i, 0 < i → i + 1 < a.rows.length → i ∉ a.outlet → ∃ r', o.rows[i]? = some r' ∧ HasShape r' (ps' i)) ∧ o.EndWidth = fin w' ∧ o.EndElev = fin z' ∧
      ((∀ i ∈ a.outlet, SpitMoved a.MaxMorChange (ss i) (ss' i) ∧ (ss' i).z2 < (ss' i).z0) →
        (∀ i, 0 < i → i + 1 < a.rows.length → i ∉ a.outlet → MovedLess a.MaxMorChange (ps i) (ps' i)) →
        |w' - w| < a.MaxMorChange → |z' - z| < a.MaxMorChange →
        ∑ i ∈ Finset.Ico 1 (a.rows.length - 1), (if i ∈ a.outlet then spitGain pp.ClosureDepth pp.BackshoreElev a.Dx (ss i) (ss' i)
            else stripGain pp.ClosureDepth pp.BackshoreElev a.Dx (ps i) (ps' i)) +
          endGain a.Dx pp.BeachTopElev pp.SpitWidth w z w' z' + (bedVolume pp.RiverWidth a.Dx o.RiverElev - bedVolume pp.RiverWidth a.Dx a.RiverElev) =
        (bs.getD 0 0 + ls 0 - ls (a.rows.length - 2)) * (secs o.MorDt : K)) := by
  obtain ⟨ss', ps', w', z', k1, k2, k3, k4, k5⟩ := C156_partial pp j1 j2 a o h bs nr hs ls cs ws ss ps w z C hB hz hriv (fun i => x0 + i * a.Dx) hx e he
  refine ⟨ss', ps', w', z', k1, k2, k3, k4, fun g1 g2 g3 g4 => ?_⟩
  rw [k5 g1 g2 g3 g4]
  have hD := C.beach.dx
  have hm' : (0 : K) < m := by exact_mod_cast hm
  have hmD : 0 < (m : K) * a.Dx := by positivity
  have hn2 : 2 ≤ a.rows.length := by
    by_contra hcon
    have : a.rows.length - 1 = 0 := by omega
    rw [this] at hhi
    push_cast at hhi
    linarith
  generalize bs.getLast C.reaches = b
  suffices hb : ∑ i ∈ Finset.Ico 1 (a.rows.length - 1), deltaShare b a.Dx pp.OutletSedSpreadDist (x0 + (i : K) * a.Dx - e) = b by rw [hb]; ring
  have e1 : ∀ i : ℕ, deltaShare b a.Dx pp.OutletSedSpreadDist (x0 + i * a.Dx - e) = b * (1 / (m : K) * max (1 - |(i : K) - (e - x0) / a.Dx| / m) 0) := by
    intro i
    unfold deltaShare
    rw [hS]
    have : |x0 + i * a.Dx - e| / (m * a.Dx) = |(i : K) - (e - x0) / a.Dx| / m := by
      have : x0 + i * a.Dx - e = ((i : K) - (e - x0) / a.Dx) * a.Dx := by field_simp; ring
      rw [this, abs_mul, abs_of_pos hD]; field_simp
    rw [this]
    congr 2
    field_simp
  have hcast : (a.rows.length : K) = ((a.rows.length - 1 : ℕ) : K) + 1 := by
    have : a.rows.length = (a.rows.length - 1) + 1 := by omega
    exact_mod_cast congrArg (Nat.cast : ℕ → K) this
  have hlo' : (m : K) ≤ (e - x0) / a.Dx := by rw [le_div_iff₀ hD]; linarith
  have hhi' : (e - x0) / a.Dx + m ≤ ((a.rows.length - 1 : ℕ) : K) := by
    rw [← sub_nonneg]
    have : ((a.rows.length - 1 : ℕ) : K) - ((e - x0) / a.Dx + m) = (x0 + (a.rows.length - 1 : ℕ) * a.Dx - (e + m * a.Dx)) / a.Dx := by field_simp; ring
    rw [this]
    exact div_nonneg (by linarith) hD.le
  have hsum := hat_sum (K := K) m a.rows.length hm ((e - x0) / a.Dx) hlo' (by rw [hcast]; linarith)
  have hz0 : 1 / (m : K) * max (1 - |((0 : ℕ) : K) - (e - x0) / a.Dx| / m) 0 = 0 := by
    rw [max_eq_right, mul_zero]
    rw [Nat.cast_zero, zero_sub, abs_neg, abs_of_nonneg (hm'.le.trans hlo'), sub_nonpos, le_div_iff₀ hm']
    linarith
  have hzn : 1 / (m : K) * max (1 - |((a.rows.length - 1 : ℕ) : K) - (e - x0) / a.Dx| / m) 0 = 0 := by
    rw [max_eq_right, mul_zero]
    rw [abs_of_nonneg (by linarith), sub_nonpos, le_div_iff₀ hm']
    linarith
  have hsplit : Finset.range a.rows.length = Finset.range ((a.rows.length - 1) + 1) := by congr 1; omega
  rw [hsplit, Finset.sum_range_succ, hzn, add_zero, Finset.range_eq_Ico, Finset.sum_eq_sum_Ico_succ_bot (by omega), hz0, zero_add] at hsum
  rw [Finset.sum_congr rfl (fun i _ => e1 i), ← Finset.mul_sum, hsum, mul_one]

/-- The parameters of the samples with another spreading distance of the delta. -/
def spPP (S : ℚ) : PhysPars ℚ := { moPP with OutletSedSpreadDist := S }

/-- The bedload of the sample. -/
def spBed : List ℚ := [1/100, 1/100, 1/200, 3/400, 1/200, 1/250, 1/200]

/-- Concrete case for C156: the coast of C155. -/
theorem spIn_coast (S : ℚ) (hS : 0 < S) : OpenCoast (spPP S) spIn spBed 1 (fun _ => 14) (fun i => (8 - (i : ℚ)) / 100) (fun _ => 1/2000)
    (fun _ => 1/4) (fun _ => spShape) (fun _ => baShape) 6 (-1) where
  opened := rfl
  regular := by
    obtain ⟨h1, h2, h3, h4, h5, h6, h7, h8, h9⟩ := spIn_outlet.regular
    refine ⟨h1, h2, h3, h4, h5, h6, h7, h8, fun h => ?_⟩
    obtain ⟨k1, k2, k3, k4, k5, _⟩ := h9 h
    exact ⟨k1, k2, k3, k4, k5, hS.ne'⟩
  lim := spIn_outlet.lim
  sorted := spIn_outlet.sorted
  chan := spIn_outlet.chan
  reaches := spIn_outlet.reaches
  river := spIn_outlet.river
  beach := ⟨spIn_outlet.beach.height, spIn_outlet.beach.pos, spIn_outlet.beach.lst, spIn_outlet.beach.lstLen, spIn_outlet.beach.cst, spIn_outlet.beach.dx, hS⟩
  part := spIn_outlet.part
  inside := spIn_outlet.inside
  shape := spIn_outlet.shape
  ends := spIn_outlet.ends
  lagoon := spIn_outlet.lagoon
  plain := by
    intro i h0 hi hout
    have h9 : spIn.rows.length = 9 := by decide +kernel
    have hcase : i ≤ 4 ∨ i = 7 := by
      have h5 : i ≠ 5 := fun hh => hout (by rw [hh]; decide +kernel)
      have h6 : i ≠ 6 := fun hh => hout (by rw [hh]; decide +kernel)
      omega
    have hrow : spIn.rows[i]? = some { brRow 0 with x := (-40 + 10 * (i : ℚ)) } := by
      have : ∀ i : ℕ, i < 8 → (i ≤ 4 ∨ i = 7) → spIn.rows[i]? = some { brRow 0 with x := (-40 + 10 * (i : ℚ)) } := by decide +kernel
      exact this i (by omega) hcase
    refine ⟨_, hrow, ⟨rfl, rfl, rfl, rfl, rfl, rfl, rfl⟩, fun _ => ?_, ?_, ?_, fun _ => ?_⟩
    · refine ⟨24, brRow (-30), brRow 30, rfl, by decide +kernel, by decide +kernel, by norm_num [brRow, spIn, brIn, moIn], by norm_num [brRow, spIn, brIn, moIn], ?_⟩
      rcases hcase with hc | rfl
      · refine Or.inr ⟨?_, ?_⟩
        · have : (i : ℚ) ≤ 4 := by exact_mod_cast hc
          have hl : spIn.MaxMorChange = 1/4 := rfl
          rw [hl]
          show (-40 + 10 * (i : ℚ)) + 1/4 < 24
          linarith
        · have : ∀ i : ℕ, i < 5 → ∀ j ∈ spIn.outlet, ∀ d ∈ spIn.rows[j]?, (-40 + 10 * (i : ℚ)) ≤ d.x := by decide +kernel
          exact this i (by omega)
      · refine Or.inl ⟨?_, ?_⟩
        · norm_num [brRow, spIn, brIn, moIn]
        · decide +kernel
    · norm_num [baShape, spIn, brIn, moIn]
    · norm_num [baShape, spIn, brIn, moIn]
    · norm_num [baShape, spIn, brIn, moIn, moPP, chPP, spPP]
  insideOn := by decide +kernel
  lagoonPlain := by
    intro i _ _
    norm_num [baShape, moPP, chPP, spPP]
  right := by
    intro i r q e hr hq _ _ _
    have h9 : spIn.rows.length = 9 := by decide +kernel
    have := (List.getElem?_eq_some_iff.mp hr).1
    have : (i : ℚ) ≤ 8 := by exact_mod_cast (by omega : i ≤ 8)
    exact div_nonneg (by linarith) (by norm_num)
  endWidth := rfl
  endElev := rfl
  endWide := by norm_num
  endLow := by norm_num [moPP, chPP, spPP]
  spit := by norm_num [moPP, chPP, spPP]

/-- A number, or 0. -/
def flVal : Fl ℚ → ℚ
  | fin x => x
  | _ => 0

/-- The shapes of a transect after a step. -/
def spitOf (o : MorOut ℚ) (i : ℕ) : SpitShape ℚ :=
  match o.rows[i]? with
  | some r => ⟨flVal r.y0, flVal r.y1, flVal r.y2, flVal r.y3, flVal r.y4, flVal r.z0, flVal r.z1, flVal r.z2, flVal r.z3⟩
  | none => spShape

def stripOf (o : MorOut ℚ) (i : ℕ) : Shape ℚ :=
  match o.rows[i]? with
  | some r => ⟨flVal r.y0, flVal r.y3, flVal r.y4, flVal r.z0, flVal r.z3⟩
  | none => baShape

/-- What the coast of the sample has gained in a step. -/
def spTotal (S : ℚ) (o : MorOut ℚ) : ℚ :=
  ∑ i ∈ Finset.Ico 1 8, (if i ∈ spIn.outlet then spitGain (spPP S).ClosureDepth (spPP S).BackshoreElev spIn.Dx spShape (spitOf o i)
      else stripGain (spPP S).ClosureDepth (spPP S).BackshoreElev spIn.Dx baShape (stripOf o i)) +
    endGain spIn.Dx (spPP S).BeachTopElev (spPP S).SpitWidth 6 (-1) (flVal o.EndWidth) (flVal o.EndElev) +
    (bedVolume (spPP S).RiverWidth spIn.Dx o.RiverElev - bedVolume (spPP S).RiverWidth spIn.Dx spIn.RiverElev)

instance (lim : ℚ) (s s' : SpitShape ℚ) : Decidable (SpitMoved lim s s') := by unfold SpitMoved ChannelMoved; infer_instance
instance (lim : ℚ) (s s' : Shape ℚ) : Decidable (MovedLess lim s s') := by unfold MovedLess; infer_instance
instance (r : Transect ℚ) (s : SpitShape ℚ) : Decidable (HasSpit r s) := by unfold HasSpit; infer_instance
instance (r : Transect ℚ) (s : Shape ℚ) : Decidable (HasShape r s) := by unfold HasShape; infer_instance

/-- After the step the shapes are those of `spitOf` and `stripOf`, nothing has moved by as much as MaxMorChange, and the spits are the higher barriers. -/
def spGood (o : MorOut ℚ) : Bool :=
  !o.Breach && decide (secs o.MorDt = 240) && spIn.outlet.all (fun i => match o.rows[i]? with | some r => decide (HasSpit r (spitOf o i)) | none => false) &&
    [1, 2, 3, 4, 7].all (fun i => match o.rows[i]? with | some r => decide (HasShape r (stripOf o i)) | none => false) &&
    decide (o.EndWidth = fin (flVal o.EndWidth)) && decide (o.EndElev = fin (flVal o.EndElev)) &&
    spIn.outlet.all (fun i => decide (SpitMoved spIn.MaxMorChange spShape (spitOf o i)) && decide ((spitOf o i).z2 < (spitOf o i).z0)) &&
    [1, 2, 3, 4, 7].all (fun i => decide (MovedLess spIn.MaxMorChange baShape (stripOf o i))) &&
    decide (|flVal o.EndWidth - 6| < spIn.MaxMorChange) && decide (|flVal o.EndElev - (-1)| < spIn.MaxMorChange)

/-- The step completes, nothing moves by as much as MaxMorChange, the end of the outlet gets narrower, and the coast gains what comes in: 0.01 of bedload and 0.08 of longshore
transport less 0.01, in 240 s. -/
example : okAnd (updateMorphology (spPP 10) cleanMem cleanMem spIn) (fun o => spGood o && decide (flVal o.EndWidth < 6) && decide (spTotal 10 o = 8/100 * 240)) = true := by decide +kernel

/-- The other hypotheses of C156_partial_delta for this case. -/
example : (∀ z ∈ spIn.RiverElev, IsNumber z) ∧ (∀ k, k < 1 → |spBed.getD k 0 - spBed.getD (k + 1) 0| * 240 ≤ spIn.MaxMorChange * ((spPP 10).RiverWidth * spIn.Dx)) ∧
    (∀ (i : ℕ), i < 9 → ∀ r ∈ spIn.rows[i]?, r.x = -40 + i * spIn.Dx) ∧ spIn.EndX1 = fin 24 ∧ (spPP 10).OutletSedSpreadDist = (1 : ℕ) * spIn.Dx ∧
    -40 + (1 : ℕ) * spIn.Dx ≤ 24 ∧ 24 + (1 : ℕ) * spIn.Dx ≤ -40 + (spIn.rows.length - 1 : ℕ) * spIn.Dx := by decide +kernel

/-- C156 is false of the code when the spreading distance of the delta is not a whole number of grid steps: the kernel (mor.py 131-132) then does not sum to one over
the transects, here at 15 m for transects 10 m apart, although the delta ends inside the domain and nothing moves by as much as MaxMorChange. -/
theorem C156_refuted : OpenCoast (spPP 15) spIn spBed 1 (fun _ => 14) (fun i => (8 - (i : ℚ)) / 100) (fun _ => 1/2000)
    (fun _ => 1/4) (fun _ => spShape) (fun _ => baShape) 6 (-1) ∧ (-40 + (spPP 15).OutletSedSpreadDist ≤ 24 ∧ 24 + (spPP 15).OutletSedSpreadDist ≤ 40) ∧
    ∃ o, updateMorphology (spPP 15) cleanMem cleanMem spIn = .ok o ∧ spGood o = true ∧ spTotal 15 o ≠ 8/100 * (secs o.MorDt : ℚ) := by
  refine ⟨spIn_coast 15 (by norm_num), by decide +kernel, ?_⟩
  have hw : okAnd (updateMorphology (spPP 15) cleanMem cleanMem spIn) (fun o => spGood o && decide (spTotal 15 o ≠ 8/100 * (secs o.MorDt : ℚ))) = true := by decide +kernel
  obtain ⟨o, ho, hp⟩ := okAnd_iff.mp hw
  rw [Bool.and_eq_true, decide_eq_true_eq] at hp
  exact ⟨o, ho, hp⟩

end Verif.Props
