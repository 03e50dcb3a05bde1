import Verif.Lemmas.LoadReal
import Verif.Props.Load

set_option autoImplicit false
set_option linter.unusedSectionVars false

/-! # C83-C90: the initial state from real-world spatial inputs -/

namespace Verif.Props
open Verif Verif.Model Verif.Spec Fl

/-! ## C83: origin -/

/-- C83, partial: for a baseline that does not run exactly east-west, the origin is finite and on the baseline, and the
river inflow is at model position X = 0.  (Missing: a baseline of slope zero, for which loading fails.) -/
theorem C83_partial {m b : ℝ} (p : ℝ × ℝ) (hm : m ≠ 0) : ∃ ox oy : ℝ, baseOrigin m b p = (fin ox, fin oy) ∧ oy = m * ox + b ∧
    (real2mod p.1 p.2 (ox, oy) (baseNormal m b p)).1 = 0 := by
  obtain ⟨ox, h1, h2⟩ := baseOrigin_eq (b := b) p hm
  refine ⟨ox, m * ox + b, h1, rfl, ?_⟩
  rw [real2mod_eq]
  obtain ⟨t1, t2⟩ := baseNormal_trig m b p
  by_cases hc : m * p.1 + b > 0
  · obtain ⟨e1, e2⟩ := t1 hc
    simp only [e1, e2]
    field_simp
    linarith
  · obtain ⟨e1, e2⟩ := t2 hc
    simp only [e1, e2]
    field_simp
    linarith

/-- A coast running north-east with the river at (3, 5). -/
example : baseOrigin (1 : ℚ) 2 (3, 5) = (fin 3, fin 5) := by decide +kernel

/-- C83 refuted: a baseline running exactly east-west makes the origin nan, and loading fails whatever the other inputs. -/
theorem C83_refuted_general (c : RealCfg ℝ) (sl len b : ℝ) (p : ℝ × ℝ) (shore cliff lagoon outlet : List (ℝ × ℝ)) :
    ∃ e, realLoad c sl len (0, b) p shore cliff lagoon outlet = .error e := by
  unfold realLoad
  rw [baseOrigin_flat]
  simp only
  cases hr : riverElev c.LagoonBed sl len c.Dx with
  | error e => exact ⟨e, rfl⟩
  | ok r =>
    by_cases hl : shore.length < 2
    · exact ⟨.value, by rw [if_pos hl]; rfl⟩
    · exact ⟨.assertion, by rw [if_neg hl]; rfl⟩

/-- C83 refuted: two shoreline points due east of each other, river 100 m inland. -/
theorem C83_refuted : ∃ e, realLoad { Dx := 10, SpitWidth := 5, OutletWidth := 6, OutletBed := 0, LagoonBed := -1, BarrierElev := 3 }
    (1 / 100) 100 (0, 0) (0, 100) [(-500, 0), (500, 0)] [(-600, 60), (600, 60)] [(-100, 40), (100, 40)] [(5, 35), (38, 5)] = .error e :=
  C83_refuted_general _ _ _ _ _ _ _ _ _

/-! ## C84: which side the sea is on -/

/-- C84, baseline: every point of the baseline has model position Y = 0. -/
theorem C84_baseline {m b : ℝ} (p : ℝ × ℝ) (hm : m ≠ 0) {ox oy : ℝ} (h : baseOrigin m b p = (fin ox, fin oy)) (x : ℝ) :
    (real2mod x (m * x + b) (ox, oy) (baseNormal m b p)).2 = 0 := by
  obtain ⟨ox', h1, h2⟩ := baseOrigin_eq (b := b) p hm
  rw [h1, Prod.mk.injEq, fin.injEq, fin.injEq] at h
  obtain ⟨rfl, rfl⟩ := h
  rw [real2mod_eq]
  obtain ⟨t1, t2⟩ := baseNormal_trig m b p
  by_cases hc : m * p.1 + b > 0
  · obtain ⟨e1, e2⟩ := t1 hc
    simp only [e1, e2]
    field_simp
    ring
  · obtain ⟨e1, e2⟩ := t2 hc
    simp only [e1, e2]
    field_simp
    ring

/-- C84, partial: the river inflow is on the landward side of the baseline exactly if it lies north of it and the baseline
has positive northing in line (north-south) with the inflow, or south of it and the northing is not positive.  (Missing:
other positions; the code compares the baseline's northing with zero instead of with the river's northing.) -/
theorem C84_partial {m b : ℝ} (p : ℝ × ℝ) (hm : m ≠ 0) {ox oy : ℝ} (h : baseOrigin m b p = (fin ox, fin oy)) :
    (real2mod p.1 p.2 (ox, oy) (baseNormal m b p)).2 ≤ 0 ↔
      ((m * p.1 + b > 0 ∧ m * p.1 + b ≤ p.2) ∨ (m * p.1 + b ≤ 0 ∧ p.2 ≤ m * p.1 + b)) := by
  obtain ⟨ox', h1, h2⟩ := baseOrigin_eq (b := b) p hm
  rw [h1, Prod.mk.injEq, fin.injEq, fin.injEq] at h
  obtain ⟨rfl, rfl⟩ := h
  rw [real2mod_eq]
  have hs : 0 < Real.sqrt (1 + m ^ 2) := Real.sqrt_pos.mpr (by positivity)
  obtain ⟨t1, t2⟩ := baseNormal_trig m b p
  by_cases hc : m * p.1 + b > 0
  · obtain ⟨e1, e2⟩ := t1 hc
    simp only [e1, e2]
    have : (p.1 - ox') * (m / Real.sqrt (1 + m ^ 2)) + (p.2 - (m * ox' + b)) * (-1 / Real.sqrt (1 + m ^ 2)) =
        (m * p.1 + b - p.2) / Real.sqrt (1 + m ^ 2) := by field_simp; ring
    rw [this, div_le_iff₀ hs, zero_mul]
    constructor
    · intro h; exact Or.inl ⟨hc, by linarith⟩
    · rintro (h | h)
      · linarith [h.2]
      · exact absurd h.1 (not_le.mpr hc)
  · obtain ⟨e1, e2⟩ := t2 hc
    simp only [e1, e2]
    have : (p.1 - ox') * (-m / Real.sqrt (1 + m ^ 2)) + (p.2 - (m * ox' + b)) * (1 / Real.sqrt (1 + m ^ 2)) =
        (p.2 - (m * p.1 + b)) / Real.sqrt (1 + m ^ 2) := by field_simp; ring
    rw [this, div_le_iff₀ hs, zero_mul]
    constructor
    · intro h; exact Or.inr ⟨not_lt.mp hc, by linarith⟩
    · rintro (h | h)
      · exact absurd h.1 hc
      · linarith [h.2]

/-- C84 refuted: the baseline y = x + 10 with the river at (0, 0): the river is on the seaward side of the model. -/
theorem C84_refuted : ∃ ox oy : ℝ, baseOrigin 1 10 (0, 0) = (fin ox, fin oy) ∧
    0 < (real2mod 0 0 (ox, oy) (baseNormal 1 10 (0, 0))).2 := by
  obtain ⟨ox, oy, h, _, _⟩ := C83_partial (b := 10) (0, 0) (one_ne_zero)
  refine ⟨ox, oy, h, ?_⟩
  by_contra hcon
  have := (C84_partial (0, 0) one_ne_zero h).mp (not_lt.mp hcon)
  norm_num at this

section grid
variable {K : Type} [Field K] [LinearOrder K] [IsStrictOrderedRing K] [FloorRing K]

/-! ## Sample inputs (model coordinates): straight coast, cliff, a lagoon of 40 m, an outlet to the right -/

def rlCfg : RealCfg ℚ := { Dx := 10, SpitWidth := 5, OutletWidth := 6, OutletBed := 0, LagoonBed := -1, BarrierElev := 3 }
def rlShore : List (ℚ × ℚ) := [(55, 0), (-35, 0)]
def rlCliff : List (ℚ × ℚ) := [(-100, -60), (100, -60)]
def rlLagoon : List (ℚ × ℚ) := [(-15, -40), (25, -40)]
def rlOutlet : List (ℚ × ℚ) := [(5, -35), (38, -5)]

/-- The sample loads: nine transects, three of them with a channel. -/
example : okAnd (realLoadMod rlCfg (1 / 100) 100 rlShore rlCliff rlLagoon rlOutlet)
    (fun ld => decide (ld.rows.map (·.x) = [-30, -20, -10, 0, 10, 20, 30, 40, 50] ∧
      ld.rows.map (fun t => !t.y1.isnan) = [false, false, false, false, true, true, true, false, false] ∧
      ld.rows.map (·.z1) = [nan, nan, nan, nan, fin (-1), fin (-2/3), fin (-1/3), nan, nan] ∧
      ld.EndX0 = fin 10 ∧ ld.EndX1 = fin 35)) = true := by decide +kernel

/-- The same with the outlet drawn from sea to lagoon and running to the left. -/
example : okAnd (realLoadMod rlCfg (1 / 100) 100 rlShore rlCliff rlLagoon [(-18, -5), (15, -35)])
    (fun ld => decide (ld.rows.map (fun t => !t.y1.isnan) = [false, false, true, true, true, false, false, false, false] ∧
      ld.rows.map (·.z1) = [nan, nan, fin (-1/3), fin (-2/3), fin (-1), nan, nan, nan, nan] ∧
      ld.EndX0 = fin 10 ∧ ld.EndX1 = fin (-15))) = true := by decide +kernel

/-! ## C85: transects -/

/-- C85: the transects are exactly the multiples of `Dx` covered by the shoreline, in order; each shoreline position lies on
the shoreline polyline. -/
theorem C85_transects {c : RealCfg K} {sl len : K} {shore cliff lagoon outlet : List (K × K)} {ld : LoadOut K} (hd : 0 < c.Dx)
    (h : realLoadMod c sl len shore cliff lagoon outlet = .ok ld) :
    ∃ shore' first last, (shore' = shore ∨ shore' = shore.reverse) ∧ shore'[0]? = some first ∧ shore'.getLast? = some last ∧
      (∀ x, x ∈ ld.rows.map (·.x) ↔ (∃ k : ℤ, x = (k : K) * c.Dx) ∧ first.1 ≤ x ∧ x < last.1) ∧
      (∀ (i : ℕ) (r r' : Transect K), ld.rows[i]? = some r → ld.rows[i + 1]? = some r' → r'.x = r.x + c.Dx) ∧
      (∀ r ∈ ld.rows, ∃ y, r.y0 = fin y ∧ OnPolyline shore' r.x y) := by
  obtain ⟨shore', xs, lagExt, outExt, outlet', raw, masked, toR, e0, e1, hI⟩ := realLoadMod_inv hd h
  obtain ⟨a, b, ha, hb, hm, hs⟩ := realX_inv hd hI.hxs
  have hrow : ∀ (i : ℕ) (r : Transect K), ld.rows[i]? = some r → xs[i]? = some r.x ∧ ∃ y, r.y0 = fin y ∧ OnPolyline shore' r.x y := by
    intro i r hr
    obtain ⟨t0, h1, _, rfl⟩ := hI.final hd hr
    obtain ⟨_, _, _, x, a, b, d, r, hx, _, hR, ht⟩ := hI.masked_row h1
    rcases ht with rfl | ⟨_, _, rfl⟩
    · exact ⟨by rw [hx, ← hR.hx], a, hR.h0, by rw [hR.hx]; exact hR.hshore⟩
    · exact ⟨by rw [hx, ← hR.hx]; rfl, a, hR.h0, by show OnPolyline shore' r.x a; rw [hR.hx]; exact hR.hshore⟩
  have hlen : ld.rows.length = xs.length := by
    rw [hI.hrows, List.length_map, assignBeds_length]
    have h2 := hI.hraw.length_eq
    rcases realEnds_inv hI.hends with ⟨hm, _⟩ | ⟨_, hm, _⟩ <;> rw [hm, List.length_map, h2]
  have hxs : ld.rows.map (·.x) = xs := by
    apply List.ext_getElem?
    intro i
    rw [List.getElem?_map]
    by_cases hi : i < ld.rows.length
    · rw [List.getElem?_eq_getElem hi, (hrow i _ (List.getElem?_eq_getElem hi)).1]; rfl
    · rw [List.getElem?_eq_none (by omega), List.getElem?_eq_none (by omega)]; rfl
  refine ⟨shore', a, b, (orderShore_inv hI.hsh).1, ha, hb, ?_, ?_, ?_⟩
  · intro x; rw [hxs]; exact hm x
  · intro i r r' hr hr'
    exact hs i _ _ (hrow i r hr).1 (hrow (i + 1) r' hr').1
  · intro r hr
    obtain ⟨i, hi⟩ := List.mem_iff_getElem?.mp hr
    exact (hrow i r hi).2

/-- C85, river: a shoreline that extends to both sides of the river has a transect in line with the river. -/
theorem C85_river {c : RealCfg K} {sl len : K} {shore cliff lagoon outlet : List (K × K)} {ld : LoadOut K} (hd : 0 < c.Dx)
    (h : realLoadMod c sl len shore cliff lagoon outlet = .ok ld) (hl : ∃ p ∈ shore, p.1 ≤ 0) (hr : ∃ p ∈ shore, 0 < p.1) :
    ∃ r ∈ ld.rows, r.x = 0 := by
  obtain ⟨shore', xs, lagExt, outExt, outlet', raw, masked, toR, e0, e1, hI⟩ := realLoadMod_inv hd h
  obtain ⟨s', a, b, hs, ha, hb, hm, _⟩ := C85_transects hd h
  have hinc := (orderShore_inv hI.hsh).2.2
  have hor := (orderShore_inv hI.hsh).1
  -- the ordered shoreline is unique up to reversal, its first point is the least
  obtain ⟨a', b', ha', hb', hm', _⟩ := realX_inv hd hI.hxs
  have hmem : ∀ p, p ∈ shore ↔ p ∈ shore' := by
    intro p; rcases hor with e | e <;> simp [e]
  have mono : ∀ (l : List (K × K)), (∀ s ∈ segments l, s.1.1 < s.2.1) → ∀ p ∈ l, (∀ q, l[0]? = some q → q.1 ≤ p.1) ∧
      (∀ q, l.getLast? = some q → p.1 ≤ q.1) := by
    intro l
    induction l with
    | nil => intro _ p hp; simp at hp
    | cons u l ih =>
      cases l with
      | nil => intro _ p hp; simp at hp; subst hp; simp
      | cons v l =>
        intro hseg p hp
        have huv : u.1 < v.1 := hseg (u, v) (by simp [segments])
        have ih' := ih (fun s hs => hseg s (by
          have : segments (u :: v :: l) = (u, v) :: segments (v :: l) := rfl
          rw [this]; simp [hs]))
        rcases List.mem_cons.mp hp with rfl | hp
        · refine ⟨by simp, ?_⟩
          intro q hq
          have := (ih' v (by simp)).2 q (by simpa using hq)
          linarith
        · obtain ⟨i1, i2⟩ := ih' p hp
          refine ⟨?_, ?_⟩
          · intro q hq
            simp at hq; subst hq
            have := i1 v (by simp)
            linarith
          · intro q hq; exact i2 q (by simpa using hq)
  obtain ⟨p, hp, hp0⟩ := hl
  obtain ⟨q, hq, hq0⟩ := hr
  have h1 := (mono shore' hinc p ((hmem p).mp hp)).1 a' ha'
  have h2 := (mono shore' hinc q ((hmem q).mp hq)).2 b' hb'
  have h0 : (0 : K) ∈ xs := (hm' 0).mpr ⟨⟨0, by simp⟩, by linarith, by linarith⟩
  -- the positions of the rows are `xs`
  obtain ⟨i, hi⟩ := List.mem_iff_getElem?.mp h0
  have hlen : ld.rows.length = xs.length := by
    rw [hI.hrows, List.length_map, assignBeds_length]
    have h2 := hI.hraw.length_eq
    rcases realEnds_inv hI.hends with ⟨hm, _⟩ | ⟨_, hm, _⟩ <;> rw [hm, List.length_map, h2]
  have hil : i < ld.rows.length := by rw [hlen]; exact (List.getElem?_eq_some_iff.mp hi).1
  have hr := List.getElem?_eq_getElem hil
  obtain ⟨t0, k1, _, k2⟩ := hI.final hd hr
  obtain ⟨_, _, _, x, a2, b2, d2, r2, hx, _, hR, ht⟩ := hI.masked_row k1
  refine ⟨ld.rows[i], List.getElem_mem hil, ?_⟩
  rw [hi] at hx
  cases hx
  rw [k2]
  rcases ht with rfl | ⟨_, _, rfl⟩ <;> exact hR.hx

/-! ## C86: cliff and lagoon -/

/-- C86: on every transect the cliff is the most seaward crossing of the cliff line; within the extent of the lagoon polyline
the lagoon edge is its most seaward crossing, elsewhere there is no lagoon (edge on the cliff).  For the single transect of
a straight outlet the lagoon edge may be moved landward. -/
theorem C86_lines {c : RealCfg K} {sl len : K} {shore cliff lagoon outlet : List (K × K)} {ld : LoadOut K} (hd : 0 < c.Dx)
    (h : realLoadMod c sl len shore cliff lagoon outlet = .ok ld) :
    ∃ lo hi, (∀ p ∈ lagoon, lo ≤ p.1 ∧ p.1 ≤ hi) ∧ (∃ p ∈ lagoon, p.1 = lo) ∧ (∃ p ∈ lagoon, p.1 = hi) ∧
      ∀ r ∈ ld.rows, ∃ d b b', r.y4 = fin d ∧ HighestCrossing cliff r.x d ∧ r.y3 = fin b' ∧
        (if lo < r.x ∧ r.x < hi then HighestCrossing lagoon r.x b else b = d) ∧ b' ≤ b ∧ (fin r.x ≠ ld.EndX0 → b' = b) := by
  obtain ⟨shore', xs, lagExt, outExt, outlet', raw, masked, toR, e0, e1, hI⟩ := realLoadMod_inv hd h
  have hext : (∀ p ∈ lagoon, lagExt.1 ≤ p.1 ∧ p.1 ≤ lagExt.2) ∧ (∃ p ∈ lagoon, p.1 = lagExt.1) ∧ (∃ p ∈ lagoon, p.1 = lagExt.2) := by
    have he := hI.hle
    cases lagoon with
    | nil => cases he
    | cons p r =>
      unfold extent at he
      rw [ok_inj] at he
      subst he
      have e1 : r.foldl (fun a q => min a q.1) p.1 = (r.map (·.1)).foldl min p.1 := by rw [List.foldl_map]
      have e2 : r.foldl (fun a q => max a q.1) p.1 = (r.map (·.1)).foldl max p.1 := by rw [List.foldl_map]
      simp only [e1, e2]
      obtain ⟨a1, a2, a3⟩ := foldl_min_mem (r.map (·.1)) p.1
      obtain ⟨b1, b2, b3⟩ := foldl_max_mem (r.map (·.1)) p.1
      refine ⟨?_, ?_, ?_⟩
      · intro q hq
        rcases List.mem_cons.mp hq with rfl | hq
        · exact ⟨a2, b2⟩
        · exact ⟨a3 _ (List.mem_map_of_mem hq), b3 _ (List.mem_map_of_mem hq)⟩
      · rcases a1 with a1 | a1
        · exact ⟨p, by simp, a1.symm⟩
        · obtain ⟨q, hq, he⟩ := List.mem_map.mp a1
          exact ⟨q, by simp [hq], he⟩
      · rcases b1 with b1 | b1
        · exact ⟨p, by simp, b1.symm⟩
        · obtain ⟨q, hq, he⟩ := List.mem_map.mp b1
          exact ⟨q, by simp [hq], he⟩
  refine ⟨lagExt.1, lagExt.2, hext.1, hext.2.1, hext.2.2, ?_⟩
  intro r hr
  obtain ⟨i, hi⟩ := List.mem_iff_getElem?.mp hr
  obtain ⟨t0, k1, _, k2⟩ := hI.final hd hi
  obtain ⟨_, _, _, x, a, b, d, r2, hx, _, hR, ht⟩ := hI.masked_row k1
  have hR' := hR.hlagoon
  have hR'' := hR.hcliff
  rw [← hR.hx] at hR' hR''
  rcases ht with rfl | ⟨_, hxe, rfl⟩
  · subst k2
    exact ⟨d, b, b, hR.h4, hR'', hR.h3, hR', le_refl _, fun _ => rfl⟩
  · subst k2
    rw [straightRow_fin hR.h0 hR.h3]
    refine ⟨d, b, _, hR.h4, hR'', rfl, hR', min_le_right _ _, ?_⟩
    intro hne
    rw [hI.he0] at hne
    exact absurd (by rw [← hxe, ← hR.hx]) hne

/-- C86, coverage: if the cliff line does not cross some transect inside the shoreline, loading fails. -/
theorem C86_cover {c : RealCfg K} {sl len : K} {shore cliff lagoon outlet : List (K × K)} {ld : LoadOut K} (hd : 0 < c.Dx)
    (h : realLoadMod c sl len shore cliff lagoon outlet = .ok ld) : ∀ r ∈ ld.rows, ∃ p ∈ cliff, ∃ q ∈ cliff, p.1 < r.x ∧ r.x ≤ q.1 := by
  obtain ⟨_, _, _, _, _, hall⟩ := C86_lines hd h
  intro r hr
  obtain ⟨d, _, _, _, ⟨⟨s, hs, hst, _⟩, _⟩, _⟩ := hall r hr
  have h1 : s.1 ∈ cliff := (List.of_mem_zip hs).1
  have h2 : s.2 ∈ cliff := List.mem_of_mem_tail (List.of_mem_zip hs).2
  rcases hst with ⟨x1, x2⟩ | ⟨x1, x2⟩
  · exact ⟨_, h1, _, h2, x1, x2⟩
  · exact ⟨_, h2, _, h1, x1, x2⟩

/-- A cliff line that ends before the last transect. -/
example : realLoadMod rlCfg (1 / 100) 100 rlShore [(-100, -60), (45, -60)] rlLagoon rlOutlet = .error .value := by decide +kernel

/-! ## C87: order of the features -/

/-- C87, partial: at every channel transect the channel has the configured width, and either it lies strictly between the
lagoon edge and the shoreline, or it is the straight outlet: at least a spit width behind the shoreline, and at most 1 mm
landward of the lagoon edge.  (Missing: shoreline, lagoon edge and cliff are not compared with each other, and the straight
outlet may overlap the lagoon edge; see the refutations.) -/
theorem C87_partial {c : RealCfg K} {sl len : K} {shore cliff lagoon outlet : List (K × K)} {ld : LoadOut K} (hd : 0 < c.Dx)
    (h : realLoadMod c sl len shore cliff lagoon outlet = .ok ld) : ∀ r ∈ ld.rows, r.y1 ≠ nan →
      ∃ y0 y1 y2 y3, r.y0 = fin y0 ∧ r.y1 = fin y1 ∧ r.y2 = fin y2 ∧ r.y3 = fin y3 ∧ y1 - y2 = c.OutletWidth ∧
        ((y1 < y0 ∧ y3 < y2) ∨ (y1 ≤ y0 - c.SpitWidth ∧ y3 ≤ y2 + 1 / 1000)) := by
  obtain ⟨shore', xs, lagExt, outExt, outlet', raw, masked, toR, e0, e1, hI⟩ := realLoadMod_inv hd h
  intro r hr hne
  obtain ⟨i, hi⟩ := List.mem_iff_getElem?.mp hr
  obtain ⟨t0, k1, _, k2⟩ := hI.final hd hi
  obtain ⟨_, _, _, x, a, b, d, r2, hx, _, hR, ht⟩ := hI.masked_row k1
  subst k2
  rcases ht with rfl | ⟨_, hxe, rfl⟩
  · rcases hR.hchan with ⟨v, _, _, _, h1, h2, h3, h4⟩ | ⟨h1, _⟩
    · exact ⟨_, _, _, _, hR.h0, h1, h2, hR.h3, by ring, Or.inl ⟨h4, h3⟩⟩
    · exact absurd h1 hne
  · rw [straightRow_fin hR.h0 hR.h3]
    exact ⟨a, _, _, _, hR.h0, rfl, rfl, rfl, by ring, Or.inr ⟨min_le_left _ _, min_le_left _ _⟩⟩

/-- C87 refuted: a lagoon edge seaward of the shoreline is accepted. -/
theorem C87_refuted_lagoon : ∃ ld, realLoadMod rlCfg (1 / 100) 100 rlShore rlCliff [(-15, 10), (25, 10)] [(26, -35), (38, -5)] = .ok ld ∧
    ∃ r ∈ ld.rows, r.y0 = fin 0 ∧ r.y3 = fin 10 := by
  have := okAnd_iff.mp (show okAnd (realLoadMod rlCfg (1 / 100) 100 rlShore rlCliff [(-15, 10), (25, 10)] [(26, -35), (38, -5)])
    (fun ld => decide (∃ r ∈ ld.rows, r.y0 = fin 0 ∧ r.y3 = fin 10)) = true by decide +kernel)
  obtain ⟨ld, h1, h2⟩ := this
  exact ⟨ld, h1, by simpa using h2⟩

/-- C87 refuted: a lagoon edge landward of the cliff is accepted. -/
theorem C87_refuted_cliff : ∃ ld, realLoadMod rlCfg (1 / 100) 100 rlShore rlCliff [(-15, -80), (25, -80)] rlOutlet = .ok ld ∧
    ∃ r ∈ ld.rows, r.y3 = fin (-80) ∧ r.y4 = fin (-60) := by
  have := okAnd_iff.mp (show okAnd (realLoadMod rlCfg (1 / 100) 100 rlShore rlCliff [(-15, -80), (25, -80)] rlOutlet)
    (fun ld => decide (∃ r ∈ ld.rows, r.y3 = fin (-80) ∧ r.y4 = fin (-60))) = true by decide +kernel)
  obtain ⟨ld, h1, h2⟩ := this
  exact ⟨ld, h1, by simpa using h2⟩

/-- C87 refuted: the straight outlet's channel edge ends up 1 mm landward of the lagoon edge. -/
theorem C87_refuted_straight : ∃ ld, realLoadMod rlCfg (1 / 100) 100 rlShore rlCliff [(-25, -8), (25, -8)] [(3, -35), (7, 5)] = .ok ld ∧
    ∃ r ∈ ld.rows, r.y2 = fin (-11) ∧ r.y3 = fin (-11 + 1 / 1000) := by
  have := okAnd_iff.mp (show okAnd (realLoadMod rlCfg (1 / 100) 100 rlShore rlCliff [(-25, -8), (25, -8)] [(3, -35), (7, 5)])
    (fun ld => decide (∃ r ∈ ld.rows, r.y2 = fin (-11) ∧ r.y3 = fin (-11 + 1 / 1000))) = true by decide +kernel)
  obtain ⟨ld, h1, h2⟩ := this
  exact ⟨ld, h1, by simpa using h2⟩

/-! ## C88: ends and bed levels of the outlet channel -/

/-- C88, ends: the upstream end is at the first channel transect in flow direction and the downstream end half a cell beyond
the last one. -/
theorem C88_ends {c : RealCfg K} {sl len : K} {shore cliff lagoon outlet : List (K × K)} {ld : LoadOut K} (hd : 0 < c.Dx)
    (h : realLoadMod c sl len shore cliff lagoon outlet = .ok ld) :
    ∃ e0 e1, ld.EndX0 = fin e0 ∧ ld.EndX1 = fin e1 ∧ (∃ r ∈ ld.rows, r.y1 ≠ nan ∧ r.x = e0) ∧
      (∃ r ∈ ld.rows, r.y1 ≠ nan ∧ r.x = (if e0 < e1 then e1 - c.Dx / 2 else e1 + c.Dx / 2)) ∧
      (∀ r ∈ ld.rows, r.y1 ≠ nan → if e0 < e1 then e0 ≤ r.x ∧ r.x ≤ e1 - c.Dx / 2 else e1 + c.Dx / 2 ≤ r.x ∧ r.x ≤ e0) := by
  obtain ⟨shore', xs, lagExt, outExt, outlet', raw, masked, toR, e0, e1, hI⟩ := realLoadMod_inv hd h
  have hlen : ld.rows.length = masked.length := by rw [hI.hrows, List.length_map, assignBeds_length]
  -- channel rows of the result are the masked ones
  have hfor : ∀ r ∈ ld.rows, r.y1 ≠ nan → ∃ t0, (t0, true) ∈ masked ∧ t0.x = r.x := by
    intro r hr hne
    obtain ⟨i, hi⟩ := List.mem_iff_getElem?.mp hr
    obtain ⟨t0, k1, k3, k2⟩ := hI.final hd hi
    have : hasChan r = true := by unfold hasChan; rw [(not_isnan_iff _).mpr hne]; rfl
    rw [k3] at this
    rw [this] at k1
    exact ⟨t0, List.mem_of_getElem? k1, by rw [k2]⟩
  have hbak : ∀ t0, (t0, true) ∈ masked → ∃ r ∈ ld.rows, r.y1 ≠ nan ∧ r.x = t0.x := by
    intro t0 ht
    obtain ⟨i, hi⟩ := List.mem_iff_getElem?.mp ht
    have hil : i < ld.rows.length := by rw [hlen]; exact (List.getElem?_eq_some_iff.mp hi).1
    obtain ⟨t1, k1, k3, k2⟩ := hI.final hd (List.getElem?_eq_getElem hil)
    rw [hi] at k1
    simp only [Option.some.injEq, Prod.mk.injEq] at k1
    obtain ⟨rfl, k4⟩ := k1
    refine ⟨_, List.getElem_mem hil, ?_, by rw [k2]⟩
    rw [← not_isnan_iff]
    rw [← k4] at k3
    unfold hasChan at k3
    simpa using k3
  refine ⟨e0, e1, hI.he0, hI.he1, ?_⟩
  have htr := hI.toR_iff hd
  rcases realEnds_inv hI.hends with ⟨hm, lo, hi, ⟨tl, hl1, hl2, rfl⟩, ⟨th, hh1, hh2, rfl⟩, hb, he⟩ | ⟨_, hm, hone, he⟩
  · have ml : ∀ t ∈ raw, hasChan t = true → (t, true) ∈ masked := by
      intro t ht hc
      rw [hm, List.mem_map]
      exact ⟨t, ht, by rw [hc]⟩
    have mb : ∀ t, (t, true) ∈ masked → tl.x ≤ t.x ∧ t.x ≤ th.x := by
      intro t ht
      rw [hm, List.mem_map] at ht
      obtain ⟨u, hu, e⟩ := ht
      rw [Prod.mk.injEq] at e
      obtain ⟨rfl, hc⟩ := e
      exact hb _ hu hc
    have hL := hbak tl (ml tl hl1 hl2)
    have hH := hbak th (ml th hh1 hh2)
    by_cases hlt : e0 < e1
    · rw [decide_eq_true hlt] at htr
      rw [htr, if_pos rfl] at he
      obtain ⟨rfl, rfl⟩ := he
      refine ⟨hL, ?_, ?_⟩
      · obtain ⟨r, h1, h2, h3⟩ := hH
        exact ⟨r, h1, h2, by rw [if_pos hlt, h3]; ring⟩
      · intro r hr hne
        obtain ⟨t0, h1, h2⟩ := hfor r hr hne
        have := mb t0 h1
        rw [if_pos hlt, ← h2]
        exact ⟨this.1, by linarith [this.2]⟩
    · rw [decide_eq_false hlt] at htr
      rw [htr] at he
      simp only [Bool.false_eq_true, if_false] at he
      obtain ⟨rfl, rfl⟩ := he
      refine ⟨hH, ?_, ?_⟩
      · obtain ⟨r, h1, h2, h3⟩ := hL
        exact ⟨r, h1, h2, by rw [if_neg hlt, h3]; ring⟩
      · intro r hr hne
        obtain ⟨t0, h1, h2⟩ := hfor r hr hne
        have := mb t0 h1
        rw [if_neg hlt, ← h2]
        exact ⟨by linarith [this.1], this.2⟩
  · obtain ⟨t, ht⟩ := List.length_eq_one_iff.mp hone
    have htm : t ∈ raw ∧ t.x = e0 := by
      have : t ∈ raw.filter (fun t => decide (t.x = e0)) := by rw [ht]; simp
      rw [List.mem_filter, decide_eq_true_eq] at this
      exact this
    have hE := hbak (straightRow c t) (by
      rw [hm, List.mem_map]
      exact ⟨t, htm.1, by rw [if_pos htm.2]⟩)
    have hE' : ∃ r ∈ ld.rows, r.y1 ≠ nan ∧ r.x = e0 := by
      obtain ⟨r, h1, h2, h3⟩ := hE
      exact ⟨r, h1, h2, by rw [h3]; exact htm.2⟩
    have mb : ∀ t, (t, true) ∈ masked → t.x = e0 := by
      intro t ht
      rw [hm, List.mem_map] at ht
      obtain ⟨u, hu, e⟩ := ht
      by_cases hu' : u.x = e0
      · rw [if_pos hu', Prod.mk.injEq] at e
        obtain ⟨rfl, _⟩ := e
        exact hu'
      · rw [if_neg hu'] at e
        simp at e
    refine ⟨hE', ?_, ?_⟩
    · obtain ⟨r, h1, h2, h3⟩ := hE'
      refine ⟨r, h1, h2, ?_⟩
      by_cases hlt : e0 < e1
      · rw [decide_eq_true hlt] at htr
        rw [htr, if_pos rfl] at he
        rw [if_pos hlt, h3, he.2]; ring
      · rw [decide_eq_false hlt] at htr
        rw [htr] at he
        simp only [Bool.false_eq_true, if_false] at he
        rw [if_neg hlt, h3, he.2]; ring
    · intro r hr hne
      obtain ⟨t0, h1, h2⟩ := hfor r hr hne
      have h3 := mb t0 h1
      by_cases hlt : e0 < e1
      · rw [decide_eq_true hlt] at htr
        rw [htr, if_pos rfl] at he
        rw [if_pos hlt, ← h2, h3, he.2]
        exact ⟨le_refl _, by linarith⟩
      · rw [decide_eq_false hlt] at htr
        rw [htr] at he
        simp only [Bool.false_eq_true, if_false] at he
        rw [if_neg hlt, ← h2, h3, he.2]
        exact ⟨by linarith, le_refl _⟩

/-- C88, levels: the channel bed falls linearly in flow direction from the lagoon bed at the upstream end towards the
configured bed at the downstream end; crests and lagoon bed are as configured; other transects have no channel levels. -/
theorem C88_levels {c : RealCfg K} {sl len : K} {shore cliff lagoon outlet : List (K × K)} {ld : LoadOut K} (hd : 0 < c.Dx)
    (h : realLoadMod c sl len shore cliff lagoon outlet = .ok ld) :
    ld.EndElev = fin c.OutletBed ∧ ld.EndWidth = fin c.OutletWidth ∧ ld.Closed = false ∧
    ∀ (k : ℕ) (r : Transect K), ld.rows[k]? = some r → r.z0 = fin c.BarrierElev ∧ r.z3 = fin c.LagoonBed ∧
      (r.y1 = nan → r.z1 = nan ∧ r.z2 = nan) ∧
      (r.y1 ≠ nan → r.z2 = fin c.BarrierElev ∧ ∃ j : ℕ,
        j = (if ld.EndX0 <? ld.EndX1 then (ld.rows.take k).countP (fun t => !t.y1.isnan) else (ld.rows.drop (k + 1)).countP (fun t => !t.y1.isnan)) ∧
        r.z1 = fin (c.LagoonBed + (j : K) * ((c.OutletBed - c.LagoonBed) / (ld.rows.countP (fun t => !t.y1.isnan) : K)))) := by
  obtain ⟨shore', xs, lagExt, outExt, outlet', raw, masked, toR, e0, e1, hI⟩ := realLoadMod_inv hd h
  refine ⟨hI.hez, hI.hew, hI.hcl, ?_⟩
  intro k r hr
  obtain ⟨t0, k1, k3, k2⟩ := hI.final hd hr
  refine ⟨by rw [k2], by rw [k2], ?_, ?_⟩
  · intro hn
    have : hasChan t0 = false := by rw [← k3]; unfold hasChan; rw [hn]; rfl
    rw [this] at k2
    rw [k2]; exact ⟨rfl, rfl⟩
  · intro hn
    have : hasChan t0 = true := by rw [← k3]; unfold hasChan; rw [(not_isnan_iff _).mpr hn]; rfl
    rw [this, if_pos rfl, if_pos rfl] at k2
    refine ⟨by rw [k2], _, rfl, ?_⟩
    rw [hI.he0, hI.he1]
    conv_lhs => rw [k2]
    by_cases hlt : e0 < e1
    · simp only [if_pos hlt, blt_fin, decide_eq_true hlt, if_true]; rfl
    · simp only [if_neg hlt, blt_fin, decide_eq_false hlt, Bool.false_eq_true, if_false]; rfl

/-! ## C89: no gaps -/

/-- C89, partial: a transect between the two ends of the outlet that has no channel is one where the channel does not fit
between lagoon edge and shoreline.  (Missing: there, the code leaves a gap.) -/
theorem C89_partial {c : RealCfg K} {sl len : K} {shore cliff lagoon outlet : List (K × K)} {ld : LoadOut K} (hd : 0 < c.Dx)
    (h : realLoadMod c sl len shore cliff lagoon outlet = .ok ld) {e0 e1 : K} (h0 : ld.EndX0 = fin e0) (h1 : ld.EndX1 = fin e1) :
    ∃ outlet', (outlet' = outlet ∨ outlet' = outlet.reverse) ∧ ∀ r ∈ ld.rows, InOutlet e0 e1 r.x → r.y1 = nan →
      ∃ y0 y3 v, r.y0 = fin y0 ∧ r.y3 = fin y3 ∧ intersectPolyline outlet' r.x = [fin v] ∧
        (v - c.OutletWidth / 2 ≤ y3 ∨ y0 ≤ v + c.OutletWidth / 2) := by
  obtain ⟨shore', xs, lagExt, outExt, outlet', raw, masked, toR, f0, f1, hI⟩ := realLoadMod_inv hd h
  rw [hI.he0, fin.injEq] at h0
  rw [hI.he1, fin.injEq] at h1
  subst h0; subst h1
  refine ⟨outlet', ?_, ?_⟩
  · have := hI.hol
    unfold orderOutlet at this
    simp only [bind_ok, pure_ok] at this
    obtain ⟨_, _, _, _, he⟩ := this
    rw [← he]
    split <;> simp
  intro r hr hin hnan
  obtain ⟨i, hi⟩ := List.mem_iff_getElem?.mp hr
  obtain ⟨t0, k1, k3, k2⟩ := hI.final hd hi
  obtain ⟨_, _, _, x, a, b, d, r2, hx, hraw, hR, ht⟩ := hI.masked_row k1
  have hc0 : hasChan t0 = false := by rw [← k3]; unfold hasChan; rw [hnan]; rfl
  have hx0 : r.x = x := by
    rw [k2]; rcases ht with rfl | ⟨_, _, rfl⟩ <;> exact hR.hx
  have htr := hI.toR_iff hd
  rcases ht with rfl | ⟨_, _, rfl⟩
  swap
  · rw [straightRow_fin hR.h0 hR.h3] at hc0
    simp [hasChan] at hc0
  have hy0 : r.y0 = fin a := by rw [k2]; exact hR.h0
  have hy3 : r.y3 = fin b := by rw [k2]; exact hR.h3
  have hout : outExt.1 < x ∧ x < outExt.2 ∨ f0 = x := by
    rcases realEnds_inv hI.hends with ⟨hm, lo, hi', ⟨tl, hl1, hl2, rfl⟩, ⟨th, hh1, hh2, rfl⟩, hb, he⟩ | ⟨_, hm, hone, he⟩
    · have ext : ∀ t ∈ raw, hasChan t = true → outExt.1 < t.x ∧ t.x < outExt.2 := by
        intro t ht hc
        obtain ⟨j, hj⟩ := List.mem_iff_getElem?.mp ht
        obtain ⟨x', a', b', d', _, hR'⟩ := hI.raw_row hj
        rcases hR'.hchan with ⟨v, g1, g2, _⟩ | ⟨g1, _⟩
        · rw [hR'.hx]; exact ⟨g1, g2⟩
        · simp [hasChan, g1] at hc
      have eL := ext tl hl1 hl2
      have eH := ext th hh1 hh2
      have hlh := (hb tl hl1 hl2).2
      -- a grid position at most half a cell beyond the last one is not beyond it
      obtain ⟨sa, sb, _, _, hmem, _⟩ := realX_inv hd hI.hxs
      have grid : ∀ (j : ℕ) (t : Transect K), raw[j]? = some t → ∃ z : ℤ, t.x = (z : K) * c.Dx := by
        intro j t hj
        obtain ⟨x', a', b', d', hx', hR'⟩ := hI.raw_row hj
        rw [hR'.hx]
        exact ((hmem x').mp (List.mem_of_getElem? hx')).1
      obtain ⟨jl, hjl⟩ := List.mem_iff_getElem?.mp hl1
      obtain ⟨jh, hjh⟩ := List.mem_iff_getElem?.mp hh1
      obtain ⟨zl, hzl⟩ := grid jl tl hjl
      obtain ⟨zh, hzh⟩ := grid jh th hjh
      obtain ⟨zx, hzx⟩ := grid i t0 (by rcases hm ▸ k1 with _; exact (by
        have := k1
        rw [hm, List.getElem?_map, Option.map_eq_some_iff] at this
        obtain ⟨u, hu, e⟩ := this
        rw [Prod.mk.injEq] at e
        rw [hu, e.1]))
      rw [hR.hx] at hzx
      unfold InOutlet at hin
      rw [hx0] at hin
      left
      cases toR
      · simp only [Bool.false_eq_true, if_false] at he
        obtain ⟨rfl, rfl⟩ := he
        rw [min_eq_right (by linarith), max_eq_left (by linarith)] at hin
        refine ⟨lt_of_lt_of_le eL.1 ?_, lt_of_le_of_lt hin.2 eH.2⟩
        rw [hzl, hzx] at hin ⊢
        have hz : zl ≤ zx := by
          by_contra hcon
          have h3 : (zx : K) + 1 ≤ (zl : K) := by exact_mod_cast Int.add_one_le_iff.mpr (not_le.mp hcon)
          nlinarith [hin.1]
        have : (zl : K) ≤ (zx : K) := by exact_mod_cast hz
        nlinarith
      · simp only [if_true] at he
        obtain ⟨rfl, rfl⟩ := he
        rw [min_eq_left (by linarith), max_eq_right (by linarith)] at hin
        refine ⟨lt_of_lt_of_le eL.1 hin.1, lt_of_le_of_lt ?_ eH.2⟩
        rw [hzh, hzx] at hin ⊢
        have hz : zx ≤ zh := by
          by_contra hcon
          have h3 : (zh : K) + 1 ≤ (zx : K) := by exact_mod_cast Int.add_one_le_iff.mpr (not_le.mp hcon)
          nlinarith [hin.2]
        have : (zx : K) ≤ (zh : K) := by exact_mod_cast hz
        nlinarith
    · right
      -- straight outlet: the only grid position within half a cell of the upstream end is that end
      obtain ⟨sa, sb, _, _, hmem, _⟩ := realX_inv hd hI.hxs
      obtain ⟨zx, hzx⟩ := ((hmem x).mp (List.mem_of_getElem? hx)).1
      unfold InOutlet at hin
      rw [hx0] at hin
      have : ∃ z : ℤ, f0 = (z : K) * c.Dx ∧ |f0 - f1| = c.Dx / 2 := by
        cases toR
        · simp only [Bool.false_eq_true, if_false] at he
          refine ⟨⌊meanY outlet' / c.Dx⌋ + 1, by rw [he.1]; push_cast; ring, ?_⟩
          rw [he.2, show f0 - (f0 - c.Dx / 2) = c.Dx / 2 by ring, abs_of_pos (by linarith)]
        · simp only [if_true] at he
          refine ⟨⌊meanY outlet' / c.Dx⌋, by rw [he.1]; ring, ?_⟩
          rw [he.2, show f0 - (f0 + c.Dx / 2) = -(c.Dx / 2) by ring, abs_neg, abs_of_pos (by linarith)]
      obtain ⟨z, hz, hab⟩ := this
      have hdist : |x - f0| ≤ c.Dx / 2 := by
        rw [← hab, abs_le]
        rcases le_total f0 f1 with hle | hle
        · rw [min_eq_left hle, max_eq_right hle] at hin
          rw [abs_of_nonpos (by linarith)]
          constructor <;> linarith
        · rw [min_eq_right hle, max_eq_left hle] at hin
          rw [abs_of_nonneg (by linarith)]
          constructor <;> linarith
      rw [hz, hzx] at hdist ⊢
      have : zx = z := by
        by_contra hne
        rcases lt_or_gt_of_ne hne with hlt | hlt
        · have h3 : (zx : K) + 1 ≤ (z : K) := by exact_mod_cast Int.add_one_le_iff.mpr hlt
          have := (abs_le.mp hdist).1
          nlinarith
        · have h3 : (z : K) + 1 ≤ (zx : K) := by exact_mod_cast Int.add_one_le_iff.mpr hlt
          have := (abs_le.mp hdist).2
          nlinarith
      rw [this]
  rcases hout with hout | hout
  · rcases hR.hchan with ⟨v, _, _, _, g1, _⟩ | ⟨_, _, g3⟩
    · simp [hasChan, g1] at hc0
    · obtain ⟨v, g4, g5⟩ := g3 hout.1 hout.2
      refine ⟨a, b, v, hy0, hy3, by rw [hx0]; exact g4, ?_⟩
      by_contra hcon
      rw [not_or, not_le, not_le] at hcon
      exact g5 hcon
  · -- the upstream end has a channel
    exfalso
    obtain ⟨f0', _, hf0, _, ⟨r', hr', hne, hxr⟩, _⟩ := C88_ends hd h
    rw [hI.he0, fin.injEq] at hf0
    subst hf0
    obtain ⟨i', hi'⟩ := List.mem_iff_getElem?.mp hr'
    -- rows have distinct positions
    obtain ⟨_, _, _, _, _, _, _, hsp, _⟩ := C85_transects hd h
    have mono : ∀ (n i : ℕ) (u v : Transect K), ld.rows[i]? = some u → ld.rows[i + n]? = some v → v.x = u.x + (n : K) * c.Dx := by
      intro n
      induction n with
      | zero => intro i u v hu hv; rw [Nat.add_zero, hu] at hv; cases hv; simp
      | succ n ih =>
        intro i u v hu hv
        have hlt : i + n < ld.rows.length := by
          have := (List.getElem?_eq_some_iff.mp hv).1; omega
        have hw := List.getElem?_eq_getElem hlt
        rw [hsp (i + n) _ v hw (by rw [← hv]; congr 1), ih i u _ hu hw]
        push_cast; ring
    have : i = i' := by
      rcases lt_trichotomy i i' with hlt | rfl | hlt
      · have := mono (i' - i) i r r' hi (by rw [← hi']; congr 1; omega)
        rw [hxr, hx0, hout] at this
        have hp : 0 < ((i' - i : ℕ) : K) * c.Dx := mul_pos (by exact_mod_cast (by omega : 0 < i' - i)) hd
        linarith
      · rfl
      · have := mono (i - i') i' r' r hi' (by rw [← hi]; congr 1; omega)
        rw [hxr, hx0, hout] at this
        have hp : 0 < ((i - i' : ℕ) : K) * c.Dx := mul_pos (by exact_mod_cast (by omega : 0 < i - i')) hd
        linarith
    subst this
    rw [hi] at hi'
    cases hi'
    exact hne hnan

/-- C89 refuted: an embayment of the shoreline at X = 20 leaves a gap in the outlet from 10 to 35. -/
theorem C89_refuted : ∃ ld, realLoadMod rlCfg (1 / 100) 100 [(-35, 0), (15, 0), (20, -25), (25, 0), (55, 0)] rlCliff rlLagoon rlOutlet = .ok ld ∧
    ld.EndX0 = fin 10 ∧ ld.EndX1 = fin 35 ∧ ∃ r ∈ ld.rows, r.x = 20 ∧ r.y1 = nan := by
  have := okAnd_iff.mp (show okAnd (realLoadMod rlCfg (1 / 100) 100 [(-35, 0), (15, 0), (20, -25), (25, 0), (55, 0)] rlCliff rlLagoon rlOutlet)
    (fun ld => decide (ld.EndX0 = fin 10 ∧ ld.EndX1 = fin 35 ∧ ∃ r ∈ ld.rows, r.x = 20 ∧ r.y1 = nan)) = true by decide +kernel)
  obtain ⟨ld, h1, h2⟩ := this
  exact ⟨ld, h1, by simpa using h2⟩

/-- C89, consequence: a gap makes the first `assembleChannel` take the outlet as closed, although the loaded state says it is
open. -/
theorem C89_gap_closes {pp : PhysPars K} {ld : LoadOut K} {Dx e0 e1 : K} (h0 : ld.EndX0 = fin e0) (h1 : ld.EndX1 = fin e1)
    (hm : 0 ≤ pp.MinOutletWidth) (hcl : ld.Closed = false) (hgap : ∃ r ∈ ld.rows, InOutlet e0 e1 r.x ∧ r.y1 = nan) :
    ∃ w, outletStage pp (firstChan ld Dx) = .ok ([], w, true) := by
  obtain ⟨r, hr, hin, hn⟩ := hgap
  obtain ⟨i, hi⟩ := List.mem_iff_getElem?.mp hr
  have hix : i ∈ outletIx ld.rows (fin e0) (fin e1) := by
    unfold InOutlet at hin
    unfold outletIx
    by_cases hlt : e0 < e1
    · rw [min_eq_left hlt.le, max_eq_right hlt.le] at hin
      simp only [blt_fin, decide_eq_true hlt, if_true, mem_whereIx]
      exact ⟨r, hi, by simpa using hin⟩
    · rw [min_eq_right (not_lt.mp hlt), max_eq_left (not_lt.mp hlt)] at hin
      simp only [blt_fin, decide_eq_false hlt, Bool.false_eq_true, if_false, List.mem_reverse, mem_whereIx]
      exact ⟨r, hi, by simpa using hin⟩
  have hrange : ∀ j ∈ outletIx ld.rows (fin e0) (fin e1), j < ld.rows.length := by
    intro j hj
    unfold outletIx at hj
    split at hj
    · obtain ⟨a, ha, _⟩ := mem_whereIx.mp hj
      exact (List.getElem?_eq_some_iff.mp ha).1
    · rw [List.mem_reverse] at hj
      obtain ⟨a, ha, _⟩ := mem_whereIx.mp hj
      exact (List.getElem?_eq_some_iff.mp ha).1
  obtain ⟨g, hg⟩ := gather_range hrange
  have hmem : r ∈ g := by
    obtain ⟨a, ha, hag⟩ := gather_mem hg hix
    rw [hi] at ha
    cases ha
    exact hag
  refine ⟨g.map outWidth, ?_⟩
  unfold outletStage
  have q1 : (firstChan ld Dx).Closed = false := hcl
  have q2 : (firstChan ld Dx).rows = ld.rows := rfl
  have q3 : (firstChan ld Dx).EndX0 = fin e0 := h0
  have q4 : (firstChan ld Dx).EndX1 = fin e1 := h1
  rw [q1, q2, q3, q4]
  simp only [Bool.false_eq_true, if_false]
  rw [hg]
  have hw : (g.map outWidth).any (· ≤? fin pp.MinOutletWidth) = true := by
    rw [List.any_eq_true]
    refine ⟨outWidth r, List.mem_map_of_mem hmem, ?_⟩
    unfold outWidth
    simp [hn, hm]
  show (if ((g.map outWidth).any (· ≤? fin pp.MinOutletWidth) || _) = true then _ else _) = _
  rw [hw, Bool.true_or, if_pos rfl]
  rfl

/-! ## C90: the straight outlet -/

/-- C90, partial: when no transect got a channel from the outlet polyline, exactly one transect, at the upstream end, has a
channel, of the configured width.  (Missing: that transect is next to where the outlet was drawn.) -/
theorem C90_partial {c : RealCfg K} {sl len : K} {shore cliff lagoon outlet : List (K × K)} {ld : LoadOut K} (hd : 0 < c.Dx)
    (h : realLoadMod c sl len shore cliff lagoon outlet = .ok ld) {lo hi : K} (hlo : ∀ p ∈ outlet, lo ≤ p.1 ∧ p.1 ≤ hi)
    (hno : ∀ k : ℤ, ¬ (lo < (k : K) * c.Dx ∧ (k : K) * c.Dx < hi)) :
    ∃ e0, ld.EndX0 = fin e0 ∧ ∃ k : ℤ, e0 = (k : K) * c.Dx ∧ (∃ r ∈ ld.rows, r.x = e0 ∧ r.y1 ≠ nan) ∧
      (∀ r ∈ ld.rows, r.y1 ≠ nan → r.x = e0 ∧ ∃ y1 y2, r.y1 = fin y1 ∧ r.y2 = fin y2 ∧ y1 - y2 = c.OutletWidth) ∧
      (k = ⌊meanY outlet / c.Dx⌋ ∨ k = ⌊meanY outlet / c.Dx⌋ + 1) := by
  obtain ⟨shore', xs, lagExt, outExt, outlet', raw, masked, toR, f0, f1, hI⟩ := realLoadMod_inv hd h
  obtain ⟨sa, sb, _, _, hmem, _⟩ := realX_inv hd hI.hxs
  have hext : lo ≤ outExt.1 ∧ outExt.2 ≤ hi := by
    have he := hI.hoe
    cases outlet with
    | nil => cases he
    | cons p r =>
      unfold extent at he
      rw [ok_inj] at he
      subst he
      have e1 : r.foldl (fun a q => min a q.1) p.1 = (r.map (·.1)).foldl min p.1 := by rw [List.foldl_map]
      have e2 : r.foldl (fun a q => max a q.1) p.1 = (r.map (·.1)).foldl max p.1 := by rw [List.foldl_map]
      simp only [e1, e2]
      constructor
      · rcases (foldl_min_mem (r.map (·.1)) p.1).1 with a1 | a1
        · rw [a1]; exact (hlo p (by simp)).1
        · obtain ⟨q, hq, he⟩ := List.mem_map.mp a1
          rw [← he]; exact (hlo q (by simp [hq])).1
      · rcases (foldl_max_mem (r.map (·.1)) p.1).1 with a1 | a1
        · rw [a1]; exact (hlo p (by simp)).2
        · obtain ⟨q, hq, he⟩ := List.mem_map.mp a1
          rw [← he]; exact (hlo q (by simp [hq])).2
  have hmean : meanY outlet' = meanY outlet := by
    have := hI.hol
    unfold orderOutlet at this
    simp only [bind_ok, pure_ok] at this
    obtain ⟨_, _, _, _, he⟩ := this
    rw [← he]
    split
    · unfold meanY; rw [List.map_reverse, List.sum_reverse, List.length_reverse]
    · rfl
  have hnone : ∀ t ∈ raw, t.y1 = nan := by
    intro t ht
    obtain ⟨j, hj⟩ := List.mem_iff_getElem?.mp ht
    obtain ⟨x, a, b, d, hx, hR⟩ := hI.raw_row hj
    rcases hR.hchan with ⟨v, g1, g2, _⟩ | ⟨g1, _⟩
    · obtain ⟨z, hz⟩ := ((hmem x).mp (List.mem_of_getElem? hx)).1
      exact absurd ⟨by rw [← hz]; linarith [hext.1], by rw [← hz]; linarith [hext.2]⟩ (hno z)
    · exact g1
  obtain ⟨e0, e1, h0, _, hE, _, _⟩ := C88_ends hd h
  rcases realEnds_inv hI.hends with ⟨_, _, _, ⟨t, ht, hc, _⟩, _⟩ | ⟨_, hm, hone, he⟩
  · simp [hasChan, hnone t ht] at hc
  refine ⟨e0, h0, ?_⟩
  have h0' := h0
  rw [hI.he0, fin.injEq] at h0'
  subst h0'
  have hrest : ∀ r ∈ ld.rows, r.y1 ≠ nan → r.x = f0 ∧ ∃ y1 y2, r.y1 = fin y1 ∧ r.y2 = fin y2 ∧ y1 - y2 = c.OutletWidth := by
    intro r hr hne
    obtain ⟨_, y1, y2, _, _, g1, g2, _, g3, _⟩ := C87_partial hd h r hr hne
    refine ⟨?_, y1, y2, g1, g2, g3⟩
    obtain ⟨i, hi⟩ := List.mem_iff_getElem?.mp hr
    obtain ⟨t0, k1, k3, k2⟩ := hI.final hd hi
    obtain ⟨_, _, _, x, a, b, d, r2, hx, hraw, hR, ht⟩ := hI.masked_row k1
    rcases ht with rfl | ⟨_, hxe, rfl⟩
    · have : r.y1 = nan := by
        have h5 := hnone t0 (List.mem_of_getElem? hraw)
        rw [k2]; exact h5
      exact absurd this hne
    · rw [k2]
      show r2.x = f0
      rw [hR.hx, hxe]
  have hE' : ∃ r ∈ ld.rows, r.x = f0 ∧ r.y1 ≠ nan := by
    obtain ⟨r, g1, g2, g3⟩ := hE; exact ⟨r, g1, g3, g2⟩
  rw [hmean] at he
  cases toR
  · simp only [Bool.false_eq_true, if_false] at he
    exact ⟨⌊meanY outlet / c.Dx⌋ + 1, by rw [he.1]; push_cast; ring, hE', hrest, Or.inr rfl⟩
  · simp only [if_true] at he
    exact ⟨⌊meanY outlet / c.Dx⌋, by rw [he.1]; ring, hE', hrest, Or.inl rfl⟩

/-- C90 refuted: a straight outlet drawn between X = 3 and X = 7 is put at X = -20, because the mean of the Y coordinates is
used instead of the X coordinates. -/
theorem C90_refuted : ∃ ld, realLoadMod rlCfg (1 / 100) 100 rlShore rlCliff rlLagoon [(3, -35), (7, 5)] = .ok ld ∧
    ld.EndX0 = fin (-20) ∧ ∀ r ∈ ld.rows, r.y1 ≠ nan → r.x = -20 := by
  have := okAnd_iff.mp (show okAnd (realLoadMod rlCfg (1 / 100) 100 rlShore rlCliff rlLagoon [(3, -35), (7, 5)])
    (fun ld => decide (ld.EndX0 = fin (-20) ∧ ∀ r ∈ ld.rows, r.y1 ≠ nan → r.x = -20)) = true by decide +kernel)
  obtain ⟨ld, h1, h2⟩ := this
  exact ⟨ld, h1, by simpa using h2⟩

end grid
end Verif.Props
