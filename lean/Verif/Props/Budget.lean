import Verif.Lemmas.Budget
import Verif.Props.MorShore
import Verif.Props.Ends

set_option autoImplicit false
set_option linter.unusedSectionVars false

/-! # C146: a beach gains what it is given

C36 to C38 are about rates; here the shoreline is followed through a whole step with all repairs and breaches. -/

namespace Verif.Props
open Verif Verif.Model Fl Verif.Spec

variable {K : Type} [Field K] [LinearOrder K] [IsStrictOrderedRing K]

/-- What the rates make of the shoreline of one transect, as volumes. -/
theorem budget_step {pp : PhysPars K} {j1 j2 : ℕ → Bool} {a : MorIn K} {o : MorOut K} (h : updateMorphology pp j1 j2 a = .ok o) {hs ls cs : ℕ → K}
    (B : Beach pp a hs ls cs) (hB : 0 ≤ a.MaxMorChange) (hreg : Regular pp a) {i : ℕ} {r : Transect K} (hr : a.rows[i]? = some r)
    {y : K} (hw : WideBarrier a.MaxMorChange r y) (hbey : BeyondOutlet a r) {gain : K}
    (hrate : ∀ X0 rb R cells', precalc pp a = .ok (a.rows.mapIdx (mkCell pp a), X0, rb) → allRates pp a rb (a.rows.mapIdx (mkCell pp a)) = .ok (R, cells') →
      R.y0[i]? = some (fin (gain / (hs i * a.Dx))) ∧ cells'[i]? = some (mkCell pp a i r))
    (hx : |gain| * (secs o.MorDt : K) ≤ a.MaxMorChange * hs i * a.Dx) :
    ∃ r' y', o.rows[i]? = some r' ∧ r'.y0 = fin y' ∧ (y' - y) * hs i * a.Dx = gain * (secs o.MorDt : K) := by
  obtain ⟨h0, h1, h2, y3, y4, h3, h4, w3, w4⟩ := hw
  have hp : 0 < hs i * a.Dx := mul_pos (B.pos i) B.dx
  obtain ⟨r', hr', e⟩ := update_far h hB hreg hr hrate (by
    rw [abs_div, abs_of_pos hp, div_mul_eq_mul_div, div_le_iff₀ hp]
    linarith) hbey h0 h1 h2 h3 h4 w3 w4
  refine ⟨r', _, hr', e, ?_⟩
  have := B.dx
  have := B.pos i
  field_simp
  ring

/-- C146, closed lagoon, partial.  At every transect but the two ends, with a wide barrier and without a channel, the volume
of the beach (shoreline times shoreface height times spacing) changes in a completed step by what longshore transport
brings in less what it takes out less what the waves carry over the barrier, times `MorDt.seconds`, as long as that is within MaxMorChange.
Missing: narrow barriers and channels, and whole days of a step (see C144). -/
theorem C146_partial_closed (pp : PhysPars K) (j1 j2 : ℕ → Bool) (a : MorIn K) (o : MorOut K) (h : updateMorphology pp j1 j2 a = .ok o) (hs ls cs : ℕ → K)
    (B : Beach pp a hs ls cs) (hB : 0 ≤ a.MaxMorChange) (hreg : Regular pp a) (hc : a.Closed = true)
    (i : ℕ) (hi0 : 0 < i) (hi1 : i + 1 < a.rows.length) (r : Transect K) (hr : a.rows[i]? = some r)
    (y : K) (hw : WideBarrier a.MaxMorChange r y)
    (hx : |ls (i - 1) - ls i - a.Dx * cs i| * (secs o.MorDt : K) ≤ a.MaxMorChange * hs i * a.Dx) :
    ∃ r' y', o.rows[i]? = some r' ∧ r'.y0 = fin y' ∧ (y' - y) * hs i * a.Dx = (ls (i - 1) - ls i - a.Dx * cs i) * (secs o.MorDt : K) := by
  refine budget_step h B hB hreg hr hw (fun hf => by rw [hc] at hf; cases hf) ?_ hx
  intro X0 rb R cells' hp hall
  have hm : (a.rows.mapIdx (mkCell pp a)).length = a.rows.length := by simp
  obtain ⟨c, hc1, hc2, _⟩ := B.cell (i := i) (by omega)
  have := allRates_y0 hm hall B.spread B.dx hi0 (by rw [hm]; exact hi1) hc1 hc2 (B.pos i) (B.lst (i-1) (by omega)) (B.lst i hi1) (B.cst i (by omega))
    (b := 0) (e := 0) (L := 0) (by rw [hc]; intro h; cases h)
  refine ⟨?_, ?_⟩
  · rw [this]
    simp only [hc, delivered, mouthLoss, if_true]
    have := B.dx
    have := B.pos i
    congr 2
    simp only [Bool.true_eq_false, false_and, if_false]
    field_simp
    ring
  · rw [(allRates_len hm hall).2.2 (Or.inl hc), List.getElem?_mapIdx, hr]; rfl

/-- C146 for the whole beach of a closed lagoon, partial: if all transects between the two ends are as above, the volume of
the beach changes by what longshore transport brings across the first segment less what it takes across the last, less
all that the waves carry over the barrier. -/
theorem C146_partial_total (pp : PhysPars K) (j1 j2 : ℕ → Bool) (a : MorIn K) (o : MorOut K) (h : updateMorphology pp j1 j2 a = .ok o) (hs ls cs ys : ℕ → K)
    (B : Beach pp a hs ls cs) (hB : 0 ≤ a.MaxMorChange) (hreg : Regular pp a) (hc : a.Closed = true) (hn : 3 ≤ a.rows.length)
    (hw : ∀ i, 0 < i → i + 1 < a.rows.length → ∃ r, a.rows[i]? = some r ∧ WideBarrier a.MaxMorChange r (ys i) ∧
      |ls (i - 1) - ls i - a.Dx * cs i| * (secs o.MorDt : K) ≤ a.MaxMorChange * hs i * a.Dx) :
    ∃ ys' : ℕ → K, (∀ i, 0 < i → i + 1 < a.rows.length → ∃ r', o.rows[i]? = some r' ∧ r'.y0 = fin (ys' i)) ∧
      ∑ i ∈ Finset.range (a.rows.length - 2), (ys' (i + 1) - ys (i + 1)) * hs (i + 1) * a.Dx =
        (ls 0 - ls (a.rows.length - 2) - a.Dx * ∑ i ∈ Finset.range (a.rows.length - 2), cs (i + 1)) * (secs o.MorDt : K) := by
  have key : ∀ i, ∃ y', 0 < i → i + 1 < a.rows.length → (∃ r', o.rows[i]? = some r' ∧ r'.y0 = fin y') ∧
      (y' - ys i) * hs i * a.Dx = (ls (i - 1) - ls i - a.Dx * cs i) * (secs o.MorDt : K) := by
    intro i
    by_cases hi : 0 < i ∧ i + 1 < a.rows.length
    · obtain ⟨r, hr, w1, w2⟩ := hw i hi.1 hi.2
      obtain ⟨r', y', k1, k2, k3⟩ := C146_partial_closed pp j1 j2 a o h hs ls cs B hB hreg hc i hi.1 hi.2 r hr (ys i) w1 w2
      exact ⟨y', fun _ _ => ⟨⟨r', k1, k2⟩, k3⟩⟩
    · exact ⟨0, fun h0 h1 => absurd ⟨h0, h1⟩ hi⟩
  choose ys' hys using key
  refine ⟨ys', fun i h0 h1 => (hys i h0 h1).1, ?_⟩
  have : ∀ i ∈ Finset.range (a.rows.length - 2), (ys' (i + 1) - ys (i + 1)) * hs (i + 1) * a.Dx =
      (ls i - ls (i + 1)) * (secs o.MorDt : K) - a.Dx * (secs o.MorDt : K) * cs (i + 1) := by
    intro i hi
    rw [Finset.mem_range] at hi
    rw [(hys (i + 1) (by omega) (by omega)).2]
    simp only [Nat.add_sub_cancel]
    ring
  rw [Finset.sum_congr rfl this, Finset.sum_sub_distrib, ← Finset.sum_mul, ← Finset.mul_sum, Finset.sum_range_sub']
  ring

/-- C146, open lagoon, partial.  Beyond the outlet a beach also gets its share of the delta; what longshore
transport would bring across the end of the outlet is lost to the outlet.
Missing: transport to the left at the end of the outlet, for which it is false, see below. -/
theorem C146_partial_open (pp : PhysPars K) (j1 j2 : ℕ → Bool) (a : MorIn K) (o : MorOut K) (h : updateMorphology pp j1 j2 a = .ok o) (hs ls cs : ℕ → K)
    (B : Beach pp a hs ls cs) (hB : 0 ≤ a.MaxMorChange) (hreg : Regular pp a) (hsort : a.rows.Pairwise (fun r s => r.x < s.x)) (hc : a.Closed = false)
    (e b : K) (he : a.EndX1 = fin e) (hb : a.Bedload.getLast? = some (fin b))
    (i : ℕ) (hi0 : 0 < i) (hi1 : i + 1 < a.rows.length) (r p q : Transect K) (hr : a.rows[i]? = some r) (hp : a.rows[i - 1]? = some p) (hq : a.rows[i + 1]? = some q)
    (y : K) (hw : WideBarrier a.MaxMorChange r y) (hbey : BeyondOutlet a r) (hdir : r.x ≤ e → e < q.x → 0 ≤ ls i)
    (gain : K) (hg : gain = beachGain (deltaShare b a.Dx pp.OutletSedSpreadDist (r.x - e)) p.x r.x q.x e (ls (i - 1)) (ls i) (a.Dx * cs i))
    (hx : |gain| * (secs o.MorDt : K) ≤ a.MaxMorChange * hs i * a.Dx) :
    ∃ r' y', o.rows[i]? = some r' ∧ r'.y0 = fin y' ∧ (y' - y) * hs i * a.Dx = gain * (secs o.MorDt : K) := by
  refine budget_step h B hB hreg hr hw hbey ?_ hx
  intro X0 rb R cells' hpre hall
  have hm : (a.rows.mapIdx (mkCell pp a)).length = a.rows.length := by simp
  have hrb := firstIx_ok.mp ((precalc_rb hpre).2.1 hc)
  obtain ⟨⟨f, hf, hfx⟩, hbef⟩ := hrb
  rw [he] at hfx
  simp only [blt_fin, decide_eq_true_eq] at hfx
  have hbef' : ∀ (j : ℕ), j < rb → ∀ d, a.rows[j]? = some d → d.x ≤ e := by
    intro j hj d hd
    have := hbef j hj d hd
    rw [he] at this
    simpa using this
  have hxlt : ∀ (j k : ℕ) (u v : Transect K), a.rows[j]? = some u → a.rows[k]? = some v → j < k → u.x < v.x := by
    intro j k u v hu hv hjk
    obtain ⟨h1, rfl⟩ := List.getElem?_eq_some_iff.mp hu
    obtain ⟨h2, rfl⟩ := List.getElem?_eq_some_iff.mp hv
    exact List.pairwise_iff_getElem.mp hsort j k h1 h2 hjk
  have haft : ∀ (j : ℕ), rb ≤ j → ∀ d, a.rows[j]? = some d → e < d.x := by
    intro j hj d hd
    rcases Nat.eq_or_lt_of_le hj with rfl | hj
    · rw [hf] at hd; cases hd; exact hfx
    · exact hfx.trans (hxlt rb j f d hf hd hj)
  have hrbl := (List.getElem?_eq_some_iff.mp hf).1
  have hpos : 0 < rb := by
    obtain ⟨e', p', q', he', hp', hq', k1, _⟩ := hbey hc
    rw [he] at he'; cases he'
    by_contra hh
    have := haft 1 (by omega) p' hp'
    linarith
  have hpi : prevIx a.LST.length rb = rb - 1 := by unfold prevIx; rw [if_neg (by omega)]
  have hpn : prevIx (a.rows.mapIdx (mkCell pp a)).length rb = rb - 1 := by unfold prevIx; rw [if_neg (by omega)]
  have hL : a.LST[prevIx a.LST.length rb]? = some (fin (ls (rb - 1))) := by rw [hpi]; exact B.lst _ (by omega)
  have hmouth : (i = rb ∧ 0 < ls (rb - 1)) ↔ (p.x ≤ e ∧ e < r.x ∧ 0 < ls (i - 1)) := by
    constructor
    · rintro ⟨rfl, hl⟩
      exact ⟨hbef' (i - 1) (by omega) p hp, haft i le_rfl r hr, hl⟩
    · rintro ⟨k1, k2, k3⟩
      have : i = rb := by
        by_contra hne
        rcases Nat.lt_or_gt_of_ne hne with hlt | hgt
        · have := hbef' i hlt r hr; linarith
        · have := haft (i - 1) (by omega) p hp; linarith
      subst this
      exact ⟨rfl, k3⟩
  refine ⟨?_, ?_⟩
  · rw [open_rate B hc hb he hL hall hi0 hi1 hr, hg]
    have := B.dx
    have := B.pos i
    congr 2
    have hlq : ¬ (r.x ≤ e ∧ e < q.x ∧ ls i < 0) := fun hh => absurd (hdir hh.1 hh.2.1) (not_le.mpr hh.2.2)
    unfold beachGain deltaShare hat
    rw [if_neg hlq]
    by_cases hm' : i = rb ∧ 0 < ls (rb - 1)
    · rw [if_pos hm', if_pos (hmouth.mp hm')]
      have e1 : ls (rb - 1) = ls (i - 1) := by rw [hm'.1]
      rw [e1]
      field_simp
      ring
    · rw [if_neg hm', if_neg (fun hh => hm' (hmouth.mpr hh))]
      field_simp
      ring
  · by_cases hi : i = rb - 1
    · have hl : 0 ≤ ls i := hdir (hbef' i (by omega) r hr) (haft (i + 1) (by omega) q hq)
      have hli : a.LST[prevIx a.LST.length rb]? = some (fin (ls i)) := by rw [hpi, ← hi]; exact B.lst i hi1
      rcases hl.lt_or_eq with hl | hl
      · rw [(allRates_len hm hall).2.2 (Or.inr ⟨fin (ls i), hli, by simpa using hl⟩), List.getElem?_mapIdx, hr]
        rfl
      · have hcell : cells'[i]? = some { mkCell pp a i r with t := { r with y0 := r.y0 + fin 0 } } := by
          unfold allRates at hall
          simp only [bind_ok] at hall
          obtain ⟨R1, g1, ⟨R2, c2⟩, g2, R3, g3, hall⟩ := hall
          cases hall
          unfold lstRates at g2
          simp only [bind_ok] at g2
          obtain ⟨y0, _, g2⟩ := g2
          rw [if_neg (by rw [hc]; simp)] at g2
          simp only [bind_ok, ixGet_ok] at g2
          obtain ⟨l, hl', g2⟩ := g2
          rw [hli] at hl'
          cases hl'
          rw [if_neg (by simp [← hl])] at g2
          simp only [bind_ok, ixGet_ok, pure_ok] at g2
          obtain ⟨cc, hcc, g2⟩ := g2
          cases g2
          obtain ⟨c, hc1, hc2, hc3⟩ := B.cell (i := i) (by omega)
          rw [hpn, ← hi, hc1] at hcc
          cases hcc
          have hne : hs i * a.Dx ≠ 0 := (mul_pos (B.pos i) B.dx).ne'
          rw [hpn, ← hi, List.getElem?_modify, hc1]
          have ec : cc = mkCell pp a i r := by
            rw [List.getElem?_mapIdx, hr] at hc1
            exact (Option.some.inj hc1).symm
          simp only [Option.map_some, if_true, hc2, ← hl, mul_fin, div_fin _ _ hne, zero_div]
          rw [ec]
          rfl
        rw [hcell, hw.1]
        have e0 : (fin y + fin 0 : Fl K) = r.y0 := by rw [add_fin, add_zero, hw.1]
        rw [e0]
        rfl
    · rw [allRates_cells hall (fun _ => by rw [hpn]; exact hi), List.getElem?_mapIdx, hr]
      rfl

/-- The sample with an open outlet as a beach. -/
theorem brIn_beach : Beach moPP brIn (fun _ => 14) (fun _ => 1/100) (fun _ => 0) where
  height i r hr := by
    have : ∀ i < 9, ∀ r ∈ brIn.rows[i]?, r.z0 = fin (4 : ℚ) := by decide +kernel
    rw [this i (List.getElem?_eq_some_iff.mp hr).1 r hr]
    norm_num [moPP]
  pos _ := by norm_num
  lst i hi := by
    have : ∀ i < 8, brIn.LST[i]? = some (fin (1/100 : ℚ)) := by decide +kernel
    have h9 : brIn.rows.length = 9 := by decide +kernel
    exact this i (by omega)
  lstLen := by decide +kernel
  cst i hi := by
    have : ∀ i < 9, brIn.CST[i]? = some (fin (0 : ℚ)) := by decide +kernel
    have h9 : brIn.rows.length = 9 := by decide +kernel
    exact this i (by omega)
  dx := by norm_num [brIn, moIn]
  spread := by norm_num [moPP, chPP]

/-- Concrete case: the first transect right of the outlet meets the hypotheses (it gains 7/4000 from the delta, loses
1/100 to the right and gets nothing from the left). -/
example : BeyondOutlet brIn (brRow 30) := fun _ => ⟨24, brRow (-30), brRow 30, rfl, rfl, rfl, by norm_num [brRow, brIn, moIn],
  by norm_num [brRow, brIn, moIn], Or.inl ⟨by norm_num [brRow, brIn, moIn], by decide +kernel⟩⟩
example : brIn.rows[7]? = some (brRow 30) ∧ brIn.rows[6]? = some (brRow 20) ∧ brIn.rows[8]? = some (brRow 40) := by decide +kernel
example : WideBarrier brIn.MaxMorChange (brRow 30) 100 := ⟨rfl, rfl, rfl, 20, 0, rfl, rfl, by norm_num [brIn, moIn], by norm_num [brIn, moIn]⟩
example : okAnd (updateMorphology moPP cleanMem cleanMem brIn) (fun o => decide (secs o.MorDt = 240) && (match o.rows[7]? with
    | some r => r.y0 == fin (100 + beachGain (deltaShare (1/200) 10 20 6) 20 30 40 24 (1/100) (1/100) 0 * 240 / 140 : ℚ) && !(r.y0 == fin 100)
    | none => false)) = true := by decide +kernel

/-- A closed lagoon behind a barrier without a channel, with transport decreasing along the coast and waves washing over. -/
def buIn : MorIn ℚ :=
  { brIn with
    rows := [-40, -30, -20, -10, 0, 10, 20, 30, 40].map (fun x => { brRow 0 with x := x })
    Closed := true, EndX0 := nan, EndX1 := nan, online := [4, 5], outlet := []
    ChanWidth := [fin 70, fin 70, fin 20, fin 20], ChanDep := List.replicate 4 (fin 1), ChanFlag := [0, 0, 1, 1]
    Bedload := [fin (1/100), fin (1/100), fin (1/200)]
    LST := [fin (8/100), fin (7/100), fin (6/100), fin (5/100), fin (4/100), fin (3/100), fin (2/100), fin (1/100)]
    CST := List.replicate 9 (fin (1/2000)) }

/-- Concrete case: the step completes, its arguments are regular, and the beach gains (8/100 - 1/100 - 10 * 7/2000) * 240. -/
example : Regular moPP buIn := by decide +kernel
example : okAnd (updateMorphology moPP cleanMem cleanMem buIn) (fun o => decide (secs o.MorDt = 240) &&
    ([1, 2, 3, 4, 5, 6, 7].foldl (fun s i => match o.rows[i]? with | some r => s + (r.y0 - fin 100) * fin 140 | none => nan) (fin (0 : ℚ)) ==
      fin ((8/100 - 1/100 - 10 * (7/2000)) * 240))) = true := by decide +kernel

/-- The sample with the outlet on the left and longshore transport to the left. -/
def buLeft : MorIn ℚ :=
  { brIn with
    rows := [-40, -30, -20, -10, 0, 10, 20, 30, 40].map (fun x => { brRow (-x) with x := x })
    EndX0 := fin (-15), EndX1 := fin (-24), online := [4, 3], outlet := [2], LST := List.replicate 8 (fin (-1/100)) }

/-- C146 is false of the code for transport to the left at the end of the outlet: what the outlet takes is taken off the beach
once instead of every second (mor.py 152), so that beaches and outlet together gain sediment.  In the mirror image of the sample above
the first transect left of the outlet gains 41/100 cubic metres in 240 s instead of losing 198/100. -/
theorem C146_refuted : BeyondOutlet buLeft { brRow 30 with x := -30 } ∧ WideBarrier buLeft.MaxMorChange { brRow 30 with x := -30 } 100 ∧ Regular moPP buLeft ∧
    buLeft.rows[1]? = some { brRow 30 with x := -30 } ∧
    beachGain (deltaShare (1/200) 10 20 (-6)) (-40) (-30) (-20) (-24 : ℚ) (-1/100) (-1/100) 0 * 240 = -198/100 ∧
    ∃ o r, updateMorphology moPP cleanMem cleanMem buLeft = .ok o ∧ secs o.MorDt = 240 ∧ o.rows[1]? = some r ∧ r.y0 = fin (100 + 41/100 / 140 : ℚ) := by
  refine ⟨fun _ => ⟨-24, { brRow 30 with x := -30 }, { brRow (-30) with x := 30 }, rfl, rfl, rfl, by norm_num [buLeft, brIn, moIn], by norm_num [buLeft, brIn, moIn],
    Or.inr ⟨by norm_num [buLeft, brIn, moIn], by decide +kernel⟩⟩,
    ⟨rfl, rfl, rfl, 20, 0, rfl, rfl, by norm_num [buLeft, brIn, moIn], by norm_num [buLeft, brIn, moIn]⟩, by decide +kernel, by decide +kernel, by decide +kernel, ?_⟩
  have : okAnd (updateMorphology moPP cleanMem cleanMem buLeft) (fun o => decide (secs o.MorDt = 240) &&
      (match o.rows[1]? with | some r => r.y0 == fin (100 + 41/100 / 140 : ℚ) | none => false)) = true := by decide +kernel
  obtain ⟨o, ho, h⟩ := okAnd_iff.mp this
  simp only [Bool.and_eq_true, decide_eq_true_eq] at h
  obtain ⟨h1, h⟩ := h
  split at h
  · next r hr => exact ⟨o, r, ho, h1, hr, eq_of_beq h⟩
  · cases h

end Verif.Props
