import Verif.Props.Barrier
import Verif.Props.River
import Verif.Spec.Total

set_option autoImplicit false
set_option linter.unusedSectionVars false

/-! # C152: sediment is neither made nor lost behind a closed barrier -/

namespace Verif.Props
open Verif Verif.Model Fl Verif.Spec

variable {K : Type} [Field K] [LinearOrder K] [IsStrictOrderedRing K]

/-- The coast of C152: a closed lagoon with regular arguments, `nr + 1` river sections with bedload `bs`, longshore transport `ls`, cross-shore transport `cs`
and shapes `ss` of the transects, all without a channel and, between the two ends, wide; the lagoon where the river flows through it has a width and lies below
crest and cliff top, and in line with the river it cannot get narrower than an outlet within one step. -/
structure ClosedCoast (pp : PhysPars K) (a : MorIn K) (bs : List K) (nr : ℕ) (ls cs ws : ℕ → K) (ss : ℕ → Shape K) : Prop where
  closed : a.Closed = true
  regular : Regular pp a
  lim : 0 ≤ a.MaxMorChange
  sorted : a.rows.Pairwise (fun r s => r.x < s.x)
  chan : ChannelArrays a bs nr
  reaches : bs ≠ []
  river : 0 < pp.RiverWidth
  beach : Beach pp a (fun i => (ss i).z0 + pp.ClosureDepth) ls cs
  part : ∀ i, i < a.rows.length → a.OverwashProp[i]? = some (fin (ws i))
  inside : ∀ i ∈ a.online, 0 < i ∧ i + 1 < a.rows.length
  shape : ∀ i, 0 < i → i + 1 < a.rows.length → ∃ r, a.rows[i]? = some r ∧ HasShape r (ss i) ∧
    2 * a.MaxMorChange < (ss i).y0 - (ss i).y3 ∧ 2 * a.MaxMorChange < (ss i).y0 - (ss i).y4 ∧
    (r.x = 0 → pp.MinOutletWidth + 2 * a.MaxMorChange ≤ (ss i).y3 - (ss i).y4)
  lagoon : ∀ i ∈ a.online, (ss i).y4 < (ss i).y3 ∧ (ss i).z3 < (ss i).z0 ∧ (ss i).z3 < pp.BackshoreElev

/-- C152, one transect of a closed lagoon: after a completed step it has a shape again, unless it has been breached; if nothing has moved by as much as
MaxMorChange, beach, crest, back of the barrier, cliff and lagoon bed together have gained what longshore transport and bedload have
brought less what they have taken. -/
theorem C152_transect (pp : PhysPars K) (j1 j2 : ℕ → Bool) (a : MorIn K) (o : MorOut K) (h : updateMorphology pp j1 j2 a = .ok o)
    (bs : List K) (nr : ℕ) (ls cs ws : ℕ → K) (ss : ℕ → Shape K) (C : ClosedCoast pp a bs nr ls cs ws ss)
    (i : ℕ) (hi0 : 0 < i) (hi1 : i + 1 < a.rows.length) (r : Transect K) (hr : a.rows[i]? = some r) :
    BreachedAt o r.x ∨ ∃ r' s', o.rows[i]? = some r' ∧ HasShape r' s' ∧ (MovedLess a.MaxMorChange (ss i) s' →
      stripGain pp.ClosureDepth pp.BackshoreElev a.Dx (ss i) s' = (ls (i - 1) - ls i + settles bs nr a.online i) * (secs o.MorDt : K)) := by
  obtain ⟨r1, hr1, ⟨h0, h1, h2, h3, h4, hz0, hz3⟩, w3, w4, hmin⟩ := C.shape i hi0 hi1
  rw [hr] at hr1
  cases hr1
  have B := C.beach
  have hbey : BeyondOutlet a r := fun hf => by rw [C.closed] at hf; cases hf
  have hend : NotAtEnd a i r := fun hf => by rw [C.closed] at hf; cases hf
  have hne : (ss i).y0 ≠ (ss i).y3 := by
    have := C.lim
    intro he
    rw [he] at w3
    linarith
  have hb : (ss i).z0 ≠ (ss i).z3 := by
    have := (C.regular.2.2.2.2.2.2.1 r (List.mem_of_getElem? hr)).2.2
    rw [if_pos (by rw [h1]; rfl), hz0, hz3] at this
    exact this.2
  obtain ⟨_, rb, cells', R, R', rate, _, hall, hcell, hl, m3, m4, hres⟩ := update_plain h C.lim C.regular hr hbey (barrier_near C.lim C.sorted hr hbey hend) h0 h1 h2 h3 h4 w3 w4
  rcases hres with hres | ⟨r', hr', hrow, hr4⟩
  · exact Or.inl hres
  have hm : (a.rows.mapIdx (mkCell pp a)).length = a.rows.length := by simp
  have hlim := limit_all hl
  have hsec : (0 : K) ≤ (secs o.MorDt : K) := by exact_mod_cast secs_nonneg o.MorDt
  -- rates before the limiter
  obtain ⟨R1, vs, hR1, v1, v2, _, _, _, v5, _⟩ := C35_conserves pp a (a.rows.mapIdx (mkCell pp a)) bs nr C.chan C.reaches B.dx C.river
  have hcs := B.cst i (by omega)
  have hws := C.part i (by omega)
  obtain ⟨k0, koff⟩ := plain_rates hall hr h0 h1 h3 hz0 hz3 hws hcs hne hb hcell
  obtain ⟨p, q, s, kz3, ky3, ky4, kgain⟩ : ∃ p q s, R.z3[i]? = some (fin p) ∧ R.y3[i]? = some (fin (q - ws i * cs i / ((ss i).z0 - (ss i).z3))) ∧
      R.y4[i]? = some (fin (-s)) ∧
      gain p ((ss i).y3 - (ss i).y4) q ((ss i).z0 - (ss i).z3) s (pp.BackshoreElev - (ss i).z3) a.Dx = settles bs nr a.online i := by
    by_cases hi : i ∈ a.online
    · obtain ⟨b1, b2, b3⟩ := C.lagoon i hi
      have hk : a.online[a.online.idxOf i]? = some i := by
        rw [List.getElem?_eq_getElem (List.idxOf_lt_length_of_mem hi), List.getElem_idxOf]
      obtain ⟨p, q, s, v, e1, e2, e3, e4, e5, _⟩ := v5 _ i r _ _ _ _ hk hr h3 h4 hz3 (by rw [if_pos (by rw [h1]; rfl)]; exact hz0) b1 b2 b3
      obtain ⟨g1, g2, g3⟩ := plain_rates_on hall hR1 h1 hz0 hz3 hws hcs hb hcell e2
      refine ⟨p, q, s, by rw [g3]; exact e1, g1, by rw [g2]; exact e3, ?_⟩
      rw [e5]
      unfold settles
      rw [if_pos hi]
      have hlt := List.idxOf_lt_length_of_mem hi
      rw [v2 _ (by rw [v1]; omega)] at e4
      exact (Option.some.inj e4).symm
    · obtain ⟨g1, g2, g3⟩ := koff hi
      refine ⟨0, 0, 0, g3, by rw [zero_sub]; exact g1, by rw [neg_zero]; exact g2, ?_⟩
      unfold settles gain
      rw [if_neg hi]
      ring
  have ky0 : R.y0[i]? = some (fin ((ls (i - 1) - ls i - a.Dx * cs i) / (((ss i).z0 + pp.ClosureDepth) * a.Dx))) := by
    obtain ⟨c, hc1, hc2, _⟩ := B.cell (i := i) (by omega)
    have := allRates_y0 hm hall B.spread B.dx hi0 (by rw [hm]; exact hi1) hc1 hc2 (B.pos i) (B.lst (i-1) (by omega)) (B.lst i hi1) hcs
      (b := 0) (e := 0) (L := 0) (by rw [C.closed]; intro h; cases h)
    rw [this]
    simp only [C.closed, delivered, mouthLoss, if_true]
    have := B.dx
    have := B.pos i
    congr 2
    simp only [Bool.true_eq_false, false_and, if_false]
    field_simp
    ring
  -- rates after the limiter
  obtain ⟨x0, a0, f0⟩ := clip_free (l' := R'.y0) (lim := a.MaxMorChange) (dt := o.MorDt) (hlim.imp (congrArg Rates.y0) (fun g => ⟨g.1, g.2.1⟩)) ky0
  obtain ⟨x3, a3, f3⟩ := clip_free (l' := R'.y3) (lim := a.MaxMorChange) (dt := o.MorDt) (hlim.imp (congrArg Rates.y3) (fun g => ⟨g.1, g.2.2.1⟩)) ky3
  obtain ⟨x4, a4, f4⟩ := clip_free (l' := R'.y4) (lim := a.MaxMorChange) (dt := o.MorDt) (hlim.imp (congrArg Rates.y4) (fun g => ⟨g.1, g.2.2.2.1⟩)) ky4
  obtain ⟨u0, c0, g0⟩ := clip_free (l' := R'.z0) (lim := a.MaxMorChange) (dt := o.MorDt) (hlim.imp (congrArg Rates.z0) (fun g => ⟨g.1, g.2.2.2.2.1⟩)) k0
  obtain ⟨u3, c3, g3⟩ := clip_free (l' := R'.z3) (lim := a.MaxMorChange) (dt := o.MorDt) (hlim.imp (congrArg Rates.z3) (fun g => ⟨g.1, g.2.2.2.2.2⟩)) kz3
  set t := (secs o.MorDt : K) with ht
  have n3 : (moveCell R' (fin t) i (mkCell pp a i r)).t.y3 = fin ((ss i).y3 + x3 * t) := by
    show r.y3 + (R'.y3[i]?).getD nan * _ = _
    rw [a3, h3, Option.getD_some, mul_fin, add_fin]
  have n4 : (moveCell R' (fin t) i (mkCell pp a i r)).t.y4 = fin ((ss i).y4 + x4 * t) := by
    show r.y4 + (R'.y4[i]?).getD nan * _ = _
    rw [a4, h4, Option.getD_some, mul_fin, add_fin]
  simp only [Transect.mk.injEq] at hrow
  obtain ⟨_, ey0, ey1, ey2, ey3, _, ez0, _, _, ez3⟩ := hrow
  have ey4 : r'.y4 = fin ((ss i).y4 + x4 * t) := by
    rw [← n4]
    refine hr4 ?_
    by_cases hx : r.x = 0
    · refine Or.inr ?_
      rw [n3, n4]
      simp only [sub_fin, blt_fin, decide_eq_false_iff_not, not_lt]
      obtain ⟨_, q3, b3⟩ := m3 _ (List.mem_of_getElem? a3)
      obtain ⟨_, q4, b4⟩ := m4 _ (List.mem_of_getElem? a4)
      cases q3
      cases q4
      have := hmin hx
      have d3 : -(a.MaxMorChange) ≤ x3 * t := by
        have := mul_le_mul_of_nonneg_right (neg_abs_le x3) hsec
        linarith
      have d4 : x4 * t ≤ a.MaxMorChange := (mul_le_mul_of_nonneg_right (le_abs_self x4) hsec).trans b4
      linarith
    · exact Or.inl hx
  refine Or.inr ⟨r', ⟨(ss i).y0 + x0 * t, (ss i).y3 + x3 * t, (ss i).y4 + x4 * t, (ss i).z0 + u0 * t, (ss i).z3 + u3 * t⟩, hr',
    ⟨ey0.trans ?_, ey1.trans ?_, ey2.trans ?_, ey3.trans n3, ey4, ez0.trans ?_, ez3.trans ?_⟩, ?_⟩
  · show r.y0 + (R'.y0[i]?).getD nan * _ = _
    rw [a0, h0, Option.getD_some, mul_fin, add_fin]
  · show r.y1 + _ = nan
    rw [h1, nan_add']
  · show r.y2 + _ = nan
    rw [h2, nan_add']
  · show r.z0 + (R'.z0[i]?).getD nan * _ = _
    rw [c0, hz0, Option.getD_some, mul_fin, add_fin]
  · show r.z3 + (R'.z3[i]?).getD nan * _ = _
    rw [c3, hz3, Option.getD_some, mul_fin, add_fin]
  · rintro ⟨b0, b3, b4, e0, e3⟩
    simp only [add_sub_cancel_left] at b0 b3 b4 e0 e3
    rw [← kgain]
    unfold stripGain gain
    simp only [add_sub_cancel_left]
    rw [f0 b0, f3 b3, f4 b4, g0 e0, g3 e3]
    have := B.dx.ne'
    have := (B.pos i).ne'
    have := sub_ne_zero.mpr hne
    have := sub_ne_zero.mpr hb
    field_simp
    ring

/-- All the bedload that reaches the lagoon settles at its transects. -/
theorem settles_sum {bs : List K} {nr n : ℕ} {online : List ℕ} (hn : online.Nodup) (hi : ∀ i ∈ online, 0 < i ∧ i + 1 < n)
    (hb : bs.length ≤ nr + online.length) : ∑ i ∈ Finset.Ico 1 (n - 1), settles bs nr online i = bs.getD nr 0 := by
  have e1 : ∑ i ∈ Finset.Ico 1 (n - 1), settles bs nr online i = ∑ i ∈ online.toFinset, settles bs nr online i := by
    refine (Finset.sum_subset ?_ ?_).symm
    · intro i h
      obtain ⟨h1, h2⟩ := hi i (List.mem_toFinset.mp h)
      rw [Finset.mem_Ico]
      omega
    · intro i _ h
      unfold settles
      rw [if_neg (fun hm => h (List.mem_toFinset.mpr hm))]
  have e2 : online.map (settles bs nr online) = (List.range online.length).map (fun k => bs.getD (nr + k) 0 - bs.getD (nr + k + 1) 0) := by
    refine List.ext_getElem (by simp) ?_
    intro k h1 h2
    have hk : k < online.length := by simpa using h1
    rw [List.getElem_map, List.getElem_map, List.getElem_range]
    unfold settles
    rw [if_pos (List.getElem_mem hk), hn.idxOf_getElem k hk]
  have e3 : ((List.range online.length).map (fun k => bs.getD (nr + k) 0 - bs.getD (nr + k + 1) 0)).sum =
      ∑ k ∈ Finset.range online.length, (bs.getD (nr + k) 0 - bs.getD (nr + (k + 1)) 0) := rfl
  rw [e1, List.sum_toFinset _ hn, e2, e3, Finset.sum_range_sub' (fun k => bs.getD (nr + k) 0), add_zero,
    List.getD_eq_getElem?_getD, List.getD_eq_getElem?_getD, List.getElem?_eq_none (i := nr + online.length) hb, Option.getD_none, sub_zero]

/-- C152, the whole coast between its two ends, with the river: unless there is a breach, and if nothing on the coast has moved by
as much as MaxMorChange and no section of the river is limited by it, all of it together has gained the bedload that enters at the top of the river and what
longshore transport brings across the first segment less what it takes across the last. -/
theorem C152_total (pp : PhysPars K) (j1 j2 : ℕ → Bool) (a : MorIn K) (o : MorOut K) (h : updateMorphology pp j1 j2 a = .ok o)
    (bs : List K) (nr : ℕ) (ls cs ws : ℕ → K) (ss : ℕ → Shape K) (C : ClosedCoast pp a bs nr ls cs ws ss) (hn : 3 ≤ a.rows.length)
    (hB : o.Breach = false) (hz : ∀ z ∈ a.RiverElev, IsNumber z)
    (hs : ∀ k, k < nr → |bs.getD k 0 - bs.getD (k + 1) 0| * (secs o.MorDt : K) ≤ a.MaxMorChange * (pp.RiverWidth * a.Dx)) :
    ∃ ss' : ℕ → Shape K, (∀ i, 0 < i → i + 1 < a.rows.length → ∃ r', o.rows[i]? = some r' ∧ HasShape r' (ss' i)) ∧
      ((∀ i, 0 < i → i + 1 < a.rows.length → MovedLess a.MaxMorChange (ss i) (ss' i)) →
        ∑ i ∈ Finset.Ico 1 (a.rows.length - 1), stripGain pp.ClosureDepth pp.BackshoreElev a.Dx (ss i) (ss' i) +
          (bedVolume pp.RiverWidth a.Dx o.RiverElev - bedVolume pp.RiverWidth a.Dx a.RiverElev) =
        (bs.getD 0 0 + ls 0 - ls (a.rows.length - 2)) * (secs o.MorDt : K)) := by
  have key : ∀ i, ∃ s', 0 < i → i + 1 < a.rows.length → (∃ r', o.rows[i]? = some r' ∧ HasShape r' s') ∧ (MovedLess a.MaxMorChange (ss i) s' →
      stripGain pp.ClosureDepth pp.BackshoreElev a.Dx (ss i) s' = (ls (i - 1) - ls i + settles bs nr a.online i) * (secs o.MorDt : K)) := by
    intro i
    by_cases hi : 0 < i ∧ i + 1 < a.rows.length
    · obtain ⟨r, hr, _⟩ := C.shape i hi.1 hi.2
      rcases C152_transect pp j1 j2 a o h bs nr ls cs ws ss C i hi.1 hi.2 r hr with hb | ⟨r', s', k1, k2, k3⟩
      · rw [hb.1] at hB; cases hB
      · exact ⟨s', fun _ _ => ⟨⟨r', k1, k2⟩, k3⟩⟩
    · exact ⟨ss i, fun h0 h1 => absurd ⟨h0, h1⟩ hi⟩
  choose ss' hss using key
  refine ⟨ss', fun i h0 h1 => (hss i h0 h1).1, fun hmv => ?_⟩
  obtain ⟨_, hriv⟩ := C147_total pp j1 j2 a o h bs nr C.chan C.reaches C.beach.dx C.river C.lim C.regular hz hs
  have e1 : ∑ i ∈ Finset.Ico 1 (a.rows.length - 1), stripGain pp.ClosureDepth pp.BackshoreElev a.Dx (ss i) (ss' i) =
      (∑ i ∈ Finset.Ico 1 (a.rows.length - 1), (ls (i - 1) - ls i) + ∑ i ∈ Finset.Ico 1 (a.rows.length - 1), settles bs nr a.online i) * (secs o.MorDt : K) := by
    rw [← Finset.sum_add_distrib, Finset.sum_mul]
    refine Finset.sum_congr rfl (fun i hi => ?_)
    rw [Finset.mem_Ico] at hi
    exact (hss i (by omega) (by omega)).2 (hmv i (by omega) (by omega))
  have e2 : ∑ i ∈ Finset.Ico 1 (a.rows.length - 1), (ls (i - 1) - ls i) = ls 0 - ls (a.rows.length - 2) := by
    rw [Finset.sum_Ico_eq_sum_range]
    have : ∀ k ∈ Finset.range (a.rows.length - 1 - 1), ls (1 + k - 1) - ls (1 + k) = ls k - ls (k + 1) := by
      intro k _
      rw [Nat.add_sub_cancel_left, Nat.add_comm]
    rw [Finset.sum_congr rfl this, Finset.sum_range_sub' ls]
    congr 2
  have e3 : ∑ i ∈ Finset.Ico 1 (a.rows.length - 1), settles bs nr a.online i = bs.getD nr 0 := by
    refine settles_sum C.chan.onNodup C.inside ?_
    have h1 := C.chan.reaches
    rw [C.chan.flag] at h1
    simp only [C.closed, if_true, List.append_nil, List.length_cons, List.length_append, List.length_replicate] at h1
    omega
  rw [e1, e2, e3, hriv]
  ring

/-- Concrete case: the closed lagoon of C151 with a river, bedload and longshore transport. -/
def baShape : Shape ℚ := ⟨100, 20, 0, 4, -1⟩

theorem baIn_coast : ClosedCoast moPP baIn [1/100, 1/100, 1/200] 1 (fun i => (8 - (i : ℚ)) / 100) (fun _ => 1/2000) (fun _ => 1/4) (fun _ => baShape) where
  closed := rfl
  regular := by decide +kernel
  lim := by norm_num [baIn, buIn, brIn, moIn]
  sorted := by decide +kernel
  chan := ⟨by decide +kernel, by decide +kernel, by decide +kernel, by decide +kernel, by decide +kernel, by decide +kernel, by decide +kernel,
    by decide +kernel, by decide +kernel⟩
  reaches := by simp
  river := by decide +kernel
  beach := by
    refine ⟨?_, ?_, ?_, by decide +kernel, ?_, by norm_num [baIn, buIn, brIn, moIn], by norm_num [moPP, chPP]⟩
    · intro i r hr
      have : ∀ i < 9, ∀ r ∈ baIn.rows[i]?, r.z0 = fin (4 : ℚ) := by decide +kernel
      rw [this i (List.getElem?_eq_some_iff.mp hr).1 r hr]
      norm_num [baShape]
    · intro i
      norm_num [baShape, moPP, chPP]
    · intro i hi
      have : ∀ i : ℕ, i < 8 → baIn.LST[i]? = some (fin ((8 - (i : ℚ)) / 100)) := by decide +kernel
      have h9 : baIn.rows.length = 9 := by decide +kernel
      exact this i (by omega)
    · intro i hi
      have : ∀ i < 9, baIn.CST[i]? = some (fin (1/2000 : ℚ)) := by decide +kernel
      have h9 : baIn.rows.length = 9 := by decide +kernel
      exact this i (by omega)
  part := by
    intro i hi
    have : ∀ i < 9, baIn.OverwashProp[i]? = some (fin (1/4 : ℚ)) := by decide +kernel
    have h9 : baIn.rows.length = 9 := by decide +kernel
    exact this i (by omega)
  inside := by decide +kernel
  shape := by
    intro i h0 hi
    have : ∀ i : ℕ, i < 9 → 0 < i → i + 1 < 9 → baIn.rows[i]? = some { brRow 0 with x := (-40 + 10 * (i : ℚ)) } := by decide +kernel
    have h9 : baIn.rows.length = 9 := by decide +kernel
    refine ⟨_, this i (by omega) h0 (by omega), ⟨rfl, rfl, rfl, rfl, rfl, rfl, rfl⟩, ?_, ?_, fun _ => ?_⟩
    · norm_num [baShape, baIn, buIn, brIn, moIn]
    · norm_num [baShape, baIn, buIn, brIn, moIn]
    · norm_num [baShape, baIn, buIn, brIn, moIn, moPP, chPP]
  lagoon := by
    intro i _
    norm_num [baShape, moPP, chPP]

/-- The step completes without a breach, everything moves by less than MaxMorChange, and the lagoon bed and its banks do move. -/
example : okAnd (updateMorphology moPP cleanMem cleanMem baIn) (fun o => decide (secs o.MorDt = 240) && !o.Breach &&
    [1, 2, 3, 4, 5, 6, 7].all (fun i => match o.rows[i]? with
      | some r => (r.y0 - fin 100).abs <? fin baIn.MaxMorChange && (r.y3 - fin 20).abs <? fin baIn.MaxMorChange && r.y4.abs <? fin baIn.MaxMorChange &&
        (r.z0 - fin 4).abs <? fin baIn.MaxMorChange && (r.z3 - fin (-1)).abs <? fin baIn.MaxMorChange
      | none => false) &&
    [4, 5].all (fun i => match o.rows[i]? with | some r => !(r.z3 == fin (-1 : ℚ)) | none => false)) = true := by decide +kernel

end Verif.Props
