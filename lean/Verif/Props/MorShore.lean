import Verif.Lemmas.MorShore
import Verif.Props.MorSample

set_option autoImplicit false
set_option linter.unusedSectionVars false

/-! # Properties C36-C38: sediment balance of the shoreline -/

namespace Verif.Props
open Verif Verif.Model Verif.Spec Fl

variable {K : Type} [Field K] [LinearOrder K] [IsStrictOrderedRing K]

/-- The beach: shoreface heights (closure depth plus crest level), longshore transport between successive transects
and cross-shore transport of each transect, all defined. -/
structure Beach (pp : PhysPars K) (a : MorIn K) (hs ls cs : ℕ → K) : Prop where
  height : ∀ (i : ℕ) r, a.rows[i]? = some r → r.z0 = fin (hs i - pp.ClosureDepth)
  pos : ∀ i, 0 < hs i
  lst : ∀ i, i + 1 < a.rows.length → a.LST[i]? = some (fin (ls i))
  lstLen : a.LST.length + 1 = a.rows.length
  cst : ∀ i, i < a.rows.length → a.CST[i]? = some (fin (cs i))
  dx : 0 < a.Dx
  spread : 0 < pp.OutletSedSpreadDist

/-- The same step without longshore transport. -/
def noLST (a : MorIn K) : MorIn K := { a with LST := a.LST.map (fun _ => fin 0) }

/-- The same step without bedload. -/
def noBedload (a : MorIn K) : MorIn K := { a with Bedload := a.Bedload.map (fun _ => fin 0) }

theorem Beach.cell {pp : PhysPars K} {a : MorIn K} {hs ls cs : ℕ → K} (B : Beach pp a hs ls cs) {i : ℕ} (hi : i < a.rows.length) :
    ∃ c, (a.rows.mapIdx (mkCell pp a))[i]? = some c ∧ c.sfh = fin (hs i) ∧ a.rows[i]? = some c.t := by
  refine ⟨mkCell pp a i a.rows[i], ?_, ?_, ?_⟩
  · rw [List.getElem?_mapIdx, List.getElem?_eq_getElem hi]; rfl
  · simp only [mkCell, B.height i _ (List.getElem?_eq_getElem hi), add_fin]; congr 1; ring
  · rw [List.getElem?_eq_getElem hi]; rfl

theorem Beach.noLST {pp : PhysPars K} {a : MorIn K} {hs ls cs : ℕ → K} (B : Beach pp a hs ls cs) : Beach pp (noLST a) hs (fun _ => 0) cs := by
  refine ⟨B.height, B.pos, ?_, ?_, B.cst, B.dx, B.spread⟩
  · intro i hi
    show (a.LST.map _)[i]? = _
    rw [List.getElem?_map, B.lst i hi]; rfl
  · show (a.LST.map _).length + 1 = _
    rw [List.length_map]; exact B.lstLen

/-- C36: closed outlet.  Longshore transport changes nothing but the shoreline rates; at every interior transect it adds
exactly the difference between transport in and transport out, at the two end transects nothing, and so in total
over the interior the transport in at the first segment minus the transport out at the last. -/
theorem C36_conserves (pp : PhysPars K) (a : MorIn K) (hs ls cs : ℕ → K) (B : Beach pp a hs ls cs) (hc : a.Closed = true) (rb : ℕ)
    (R R0 : Rates K) (cells cells0 : List (Cell K)) (hn : 3 ≤ a.rows.length)
    (h : allRates pp a rb (a.rows.mapIdx (mkCell pp a)) = .ok (R, cells))
    (h0 : allRates pp (noLST a) rb (a.rows.mapIdx (mkCell pp a)) = .ok (R0, cells0)) :
    cells = a.rows.mapIdx (mkCell pp a) ∧ { R with y0 := R0.y0 } = R0 ∧
    ∃ ys ys0 : ℕ → K, (∀ i, i < a.rows.length → R.y0[i]? = some (fin (ys i)) ∧ R0.y0[i]? = some (fin (ys0 i))) ∧
      (∀ i, 0 < i → i + 1 < a.rows.length → (ys i - ys0 i) * hs i * a.Dx = ls (i - 1) - ls i) ∧
      ys 0 = ys0 0 ∧ ys (a.rows.length - 1) = ys0 (a.rows.length - 1) ∧
      ∑ i ∈ Finset.range (a.rows.length - 2), (ys (i + 1) - ys0 (i + 1)) * hs (i + 1) * a.Dx = ls 0 - ls (a.rows.length - 2) := by
  have hlen : (a.rows.mapIdx (mkCell pp a)).length = a.rows.length := by simp
  have B0 := B.noLST
  set n := a.rows.length with hn'
  let Y : (ℕ → K) → ℕ → K := fun l i => if 0 < i ∧ i + 1 < n then (l (i-1) - l i) / (hs i * a.Dx) - cs i / hs i else -pp.ShorelineErosionRate / 31557600
  have key : ∀ (a' : MorIn K) (l : ℕ → K) (R' : Rates K) (c' : List (Cell K)), Beach pp a' hs l cs → a'.rows = a.rows → a'.Closed = true → a'.Dx = a.Dx →
      allRates pp a' rb (a.rows.mapIdx (mkCell pp a)) = .ok (R', c') → ∀ i, i < n → R'.y0[i]? = some (fin (Y l i)) := by
    intro a' l R' c' B' er ec ed h' i hi
    by_cases hint : 0 < i ∧ i + 1 < n
    · obtain ⟨c, hc1, hc2, _⟩ := B.cell hi
      have := allRates_y0 (by rw [er]; exact hlen) h' B'.spread B'.dx hint.1 (by rw [hlen]; exact hint.2) hc1 hc2 (B.pos i)
        (B'.lst (i-1) (by rw [er]; omega)) (B'.lst i (by rw [er]; omega)) (B'.cst i (by rw [er]; omega)) (b := 0) (e := 0) (L := 0)
        (by rw [ec]; intro h; cases h)
      rw [this]
      simp only [Y, hint, and_self, if_true, ec, delivered, mouthLoss, ed]
      congr 4; simp
    · rw [allRates_ends (by rw [er]; exact hlen) h' (by rw [hlen]; exact hi) (by rw [hlen]; omega)]
      simp only [Y, if_neg hint]
  have k1 := key a ls R cells B rfl hc rfl h
  have k0 := key (noLST a) (fun _ => 0) R0 cells0 B0 rfl hc rfl h0
  have loc : ∀ i, 0 < i → i + 1 < n → (Y ls i - Y (fun _ => 0) i) * hs i * a.Dx = ls (i - 1) - ls i := by
    intro i h1 h2
    simp only [Y, h1, h2, and_self, if_true]
    have := B.pos i
    have := B.dx
    field_simp
    ring
  have endp : ∀ l l' i, ¬ (0 < i ∧ i + 1 < n) → Y l i = Y l' i := by
    intro l l' i hi
    simp only [Y, if_neg hi]
  refine ⟨?_, ?_, Y ls, Y (fun _ => 0), fun i hi => ⟨k1 i hi, k0 i hi⟩, loc, endp ls (fun _ => 0) 0 (by omega), endp ls (fun _ => 0) (n-1) (by omega), ?_⟩
  · exact (allRates_len hlen h).2.2 (Or.inl hc)
  · unfold allRates at h h0
    simp only [bind_ok, pure_ok] at h h0
    obtain ⟨R1, g1, ⟨R2, c2⟩, g2, R3, g3, he⟩ := h
    obtain ⟨R1', g1', ⟨R2', c2'⟩, g2', R3', g3', he'⟩ := h0
    cases he; cases he'
    have e1 : R1 = R1' := ok_inj.mp (g1.symm.trans g1')
    subst e1
    unfold lstRates at g2 g2'
    simp only [bind_ok] at g2 g2'
    obtain ⟨y, hy, g2⟩ := g2
    obtain ⟨y', hy', g2'⟩ := g2'
    rw [hc] at g2
    have hc' : (noLST a).Closed = true := hc
    rw [hc'] at g2'
    cases g2; cases g2'
    unfold cstRates at g3 g3'
    simp only at g3 g3'
    split at g3
    · cases g3
    · split at g3'
      · cases g3'
      · cases g3; cases g3'
        rfl
  · have : ∀ i ∈ Finset.range (n-2), (Y ls (i + 1) - Y (fun _ => 0) (i + 1)) * hs (i + 1) * a.Dx = ls i - ls (i+1) := by
      intro i hi
      rw [Finset.mem_range] at hi
      exact loc (i+1) (by omega) (by omega)
    rw [Finset.sum_congr rfl this, Finset.sum_range_sub']

/-- Shoreface volume rate of a transect: what longshore transport adds with an open outlet. -/
theorem open_rate {pp : PhysPars K} {a : MorIn K} {hs ls cs : ℕ → K} (B : Beach pp a hs ls cs) (hc : a.Closed = false) {rb : ℕ} {R : Rates K}
    {cells : List (Cell K)} {b e L : K} (hb : a.Bedload.getLast? = some (fin b)) (he : a.EndX1 = fin e) (hL : a.LST[prevIx a.LST.length rb]? = some (fin L))
    (h : allRates pp a rb (a.rows.mapIdx (mkCell pp a)) = .ok (R, cells)) {i : ℕ} (h0 : 0 < i) (h1 : i + 1 < a.rows.length) {r : Transect K} (hr : a.rows[i]? = some r) :
    R.y0[i]? = some (fin ((b * hat a.Dx pp.OutletSedSpreadDist (r.x - e) + ls (i-1) - ls i - (if i = rb ∧ 0 < L then L else 0)) / (hs i * a.Dx) - cs i / hs i)) := by
  have hlen : (a.rows.mapIdx (mkCell pp a)).length = a.rows.length := by simp
  obtain ⟨c, hc1, hc2, hc3⟩ := B.cell (i := i) (by omega)
  rw [hc3] at hr; cases hr
  have := allRates_y0 hlen h B.spread B.dx h0 (by rw [hlen]; exact h1) hc1 hc2 (B.pos i)
        (B.lst (i-1) (by omega)) (B.lst i h1) (B.cst i (by omega)) (fun _ => ⟨hb, he, hL⟩)
  rw [this, hc]
  simp [delivered, mouthLoss]

theorem sub_zero_sub (x : Fl K) (q : K) : x - fin (0 : K) - fin q = x - fin q := by
  cases x with
  | fin y => simp
  | nan => rfl
  | ninf => rfl
  | pinf => rfl

/-- What longshore transport does at an open mouth, for transport `L` in either direction: the volume
rates added to the interior transects, the narrowing of the outlet end and the transects moved at once. -/
theorem mouth (pp : PhysPars K) (a : MorIn K) (hs ls cs : ℕ → K) (B : Beach pp a hs ls cs) (hc : a.Closed = false) (x0 rb : ℕ)
    (R R0 : Rates K) (cells cells' cells0 : List (Cell K)) {e z b : K} (he : a.EndX1 = fin e) (hz : a.EndElev = fin z) (hzt : z < pp.BeachTopElev) (hsp : 0 < pp.SpitWidth)
    (hb : a.Bedload.getLast? = some (fin b)) (hp : precalc pp a = .ok (cells, x0, rb)) (hrb : 0 < rb) (hrbn : rb + 1 < a.rows.length)
    (h : allRates pp a rb cells = .ok (R, cells')) (h0 : allRates pp (noLST a) rb cells = .ok (R0, cells0)) :
    cells = a.rows.mapIdx (mkCell pp a) ∧
    (∃ r r', a.rows[rb - 1]? = some r ∧ a.rows[rb]? = some r' ∧ r.x ≤ e ∧ e < r'.x) ∧
    (∃ q, R.endW = R0.endW - fin q ∧ q * (pp.BeachTopElev - z) * pp.SpitWidth = |ls (rb - 1)|) ∧
    (∃ ys ys0 : ℕ → K, (∀ i, 0 < i → i + 1 < a.rows.length → R.y0[i]? = some (fin (ys i)) ∧ R0.y0[i]? = some (fin (ys0 i)) ∧
      (ys i - ys0 i) * hs i * a.Dx = ls (i - 1) - ls i - (if i = rb ∧ 0 < ls (rb - 1) then ls (rb - 1) else 0))) ∧
    (0 < ls (rb - 1) → cells' = cells) ∧
    (¬ 0 < ls (rb - 1) → ∃ c, cells[rb - 1]? = some c ∧ cells' = cells.modify (rb - 1)
        (fun c' => { c' with t := { c'.t with y0 := c'.t.y0 + fin (ls (rb - 1) / (hs (rb - 1) * a.Dx)) } })) := by
  obtain ⟨_, p2, _⟩ := precalc_rb hp
  have p2 := firstIx_ok.mp (p2 hc)
  have ecells : cells = a.rows.mapIdx (mkCell pp a) := by
    unfold precalc at hp
    simp only [bind_ok] at hp
    obtain ⟨_, _, _, _, hp⟩ := hp
    split at hp
    · cases hp
    · split at hp
      · cases hp
      · simp only [bind_ok, pure_ok] at hp
        obtain ⟨_, _, _, _, hp⟩ := hp
        cases hp; rfl
  have hlen : cells.length = a.rows.length := by rw [ecells]; simp
  have hpi : prevIx a.LST.length rb = rb - 1 := by unfold prevIx; rw [if_neg (by omega)]
  have hpn : prevIx cells.length rb = rb - 1 := by unfold prevIx; rw [if_neg (by omega)]
  have hL : a.LST[prevIx a.LST.length rb]? = some (fin (ls (rb - 1))) := by rw [hpi]; exact B.lst _ (by omega)
  have hL0 : (noLST a).LST[prevIx (noLST a).LST.length rb]? = some (fin 0) := by
    have : (noLST a).LST.length = a.LST.length := by simp [noLST]
    rw [this, hpi]; exact B.noLST.lst _ (by show rb - 1 + 1 < a.rows.length; omega)
  have hd : (pp.BeachTopElev - z) * pp.SpitWidth ≠ 0 := by
    have : 0 < pp.BeachTopElev - z := by linarith
    positivity
  obtain ⟨R1, g1, g2, _, g3, g4⟩ := allRates_end h hc hz hd hL
  obtain ⟨R1', k1, k2, _, _, _⟩ := allRates_end h0 hc hz hd hL0
  have e1 : R1 = R1' := ok_inj.mp (g1.symm.trans k1)
  refine ⟨ecells, ?_, ?_, ?_, ?_, ?_⟩
  · obtain ⟨⟨r', hr', hx⟩, hlt⟩ := p2
    have hr : a.rows[rb-1]? = some a.rows[rb-1] := List.getElem?_eq_getElem (by omega)
    have hx2 := hlt (rb-1) (by omega) _ hr
    rw [he] at hx hx2
    refine ⟨_, r', hr, hr', ?_, ?_⟩
    · simpa using hx2
    · simpa using hx
  · refine ⟨|ls (rb-1)| / ((pp.BeachTopElev - z) * pp.SpitWidth), ?_, ?_⟩
    · rw [g2, k2, e1]
      simp only [abs_zero, zero_div]
      exact (sub_zero_sub _ _).symm
    · rw [mul_assoc, div_mul_cancel₀ _ hd]
  · rw [ecells] at h h0
    refine ⟨fun i => (b * hat a.Dx pp.OutletSedSpreadDist ((a.rows[i]?.map (·.x)).getD 0 - e) + ls (i-1) - ls i - (if i = rb ∧ 0 < ls (rb-1) then ls (rb-1) else 0)) / (hs i * a.Dx) - cs i / hs i,
      fun i => (b * hat a.Dx pp.OutletSedSpreadDist ((a.rows[i]?.map (·.x)).getD 0 - e) + 0 - 0 - 0) / (hs i * a.Dx) - cs i / hs i, ?_⟩
    intro i i0 i1
    have hr : a.rows[i]? = some a.rows[i] := List.getElem?_eq_getElem (by omega)
    refine ⟨?_, ?_, ?_⟩
    · rw [open_rate B hc hb he hL h i0 i1 hr]; simp only [hr, Option.map_some, Option.getD_some]
    · have := open_rate B.noLST hc hb he hL0 h0 i0 i1 hr
      rw [this]; simp only [hr, Option.map_some, Option.getD_some, lt_irrefl, and_false, if_false]; rfl
    · have := B.pos i
      have := B.dx
      field_simp
      ring
  · exact g3
  · intro hn
    obtain ⟨c, q1, q2⟩ := g4 hn
    rw [hpn] at q1 q2
    refine ⟨c, q1, ?_⟩
    obtain ⟨c', q3, q4, _⟩ := B.cell (i := rb-1) (by omega)
    rw [← ecells, q1] at q3; cases q3
    have h1 := B.pos (rb-1)
    have h2 := B.dx
    rw [q2, q4]
    simp only [mul_fin, div_fin _ _ (by positivity : hs (rb-1) * a.Dx ≠ 0)]

/-- C37, the direction that holds (left to right, `L > 0`): the transect `rb` beyond the mouth does not get the transport `L` arriving
there, every other interior transect gets transport in minus transport out, and the outlet end
narrows at exactly the volume rate `L`; nothing else is moved.  Missing: transport from right to left,
refuted below, and a mouth in the first or last segment. -/
theorem C37_partial (pp : PhysPars K) (a : MorIn K) (hs ls cs : ℕ → K) (B : Beach pp a hs ls cs) (hc : a.Closed = false) (x0 rb : ℕ)
    (R R0 : Rates K) (cells cells' cells0 : List (Cell K)) {e z b : K} (he : a.EndX1 = fin e) (hz : a.EndElev = fin z) (hzt : z < pp.BeachTopElev) (hsp : 0 < pp.SpitWidth)
    (hb : a.Bedload.getLast? = some (fin b)) (hp : precalc pp a = .ok (cells, x0, rb)) (hrb : 0 < rb) (hrbn : rb + 1 < a.rows.length)
    (h : allRates pp a rb cells = .ok (R, cells')) (h0 : allRates pp (noLST a) rb cells = .ok (R0, cells0)) (hL : 0 < ls (rb - 1)) :
    (∃ r r', a.rows[rb - 1]? = some r ∧ a.rows[rb]? = some r' ∧ r.x ≤ e ∧ e < r'.x) ∧ cells' = cells ∧
    (∃ q, R.endW = R0.endW - fin q ∧ q * (pp.BeachTopElev - z) * pp.SpitWidth = ls (rb - 1)) ∧
    (∃ ys ys0 : ℕ → K, ∀ i, 0 < i → i + 1 < a.rows.length → R.y0[i]? = some (fin (ys i)) ∧ R0.y0[i]? = some (fin (ys0 i)) ∧
      (ys i - ys0 i) * hs i * a.Dx = ls (i - 1) - ls i - (if i = rb then ls (rb - 1) else 0)) := by
  obtain ⟨_, q1, ⟨q, q2, q3⟩, ⟨ys, ys0, q4⟩, q5, _⟩ := mouth pp a hs ls cs B hc x0 rb R R0 cells cells' cells0 he hz hzt hsp hb hp hrb hrbn h h0
  refine ⟨q1, q5 hL, ⟨q, q2, by rw [q3, abs_of_pos hL]⟩, ys, ys0, fun i i0 i1 => ?_⟩
  have := q4 i i0 i1
  simpa [hL] using this

/-- C37 fails for every transport from right to left: the outlet end narrows at the volume rate `-L`, but nothing is taken
off the beach at any rate; instead the transect left of the mouth is set back once by `L/(h Dx)`, whatever the length of the step. -/
theorem C37_refuted_general (pp : PhysPars K) (a : MorIn K) (hs ls cs : ℕ → K) (B : Beach pp a hs ls cs) (hc : a.Closed = false) (x0 rb : ℕ)
    (R R0 : Rates K) (cells cells' cells0 : List (Cell K)) {e z b : K} (he : a.EndX1 = fin e) (hz : a.EndElev = fin z) (hzt : z < pp.BeachTopElev) (hsp : 0 < pp.SpitWidth)
    (hb : a.Bedload.getLast? = some (fin b)) (hp : precalc pp a = .ok (cells, x0, rb)) (hrb : 0 < rb) (hrbn : rb + 1 < a.rows.length)
    (h : allRates pp a rb cells = .ok (R, cells')) (h0 : allRates pp (noLST a) rb cells = .ok (R0, cells0)) (hL : ls (rb - 1) < 0) :
    (∃ q, R.endW = R0.endW - fin q ∧ q * (pp.BeachTopElev - z) * pp.SpitWidth = -ls (rb - 1)) ∧
    (∃ ys ys0 : ℕ → K, ∀ i, 0 < i → i + 1 < a.rows.length → R.y0[i]? = some (fin (ys i)) ∧ R0.y0[i]? = some (fin (ys0 i)) ∧
      (ys i - ys0 i) * hs i * a.Dx = ls (i - 1) - ls i) ∧
    ∃ c, cells[rb - 1]? = some c ∧ cells' = cells.modify (rb - 1)
        (fun c' => { c' with t := { c'.t with y0 := c'.t.y0 + fin (ls (rb - 1) / (hs (rb - 1) * a.Dx)) } }) := by
  obtain ⟨_, q1, ⟨q, q2, q3⟩, ⟨ys, ys0, q4⟩, _, q5⟩ := mouth pp a hs ls cs B hc x0 rb R R0 cells cells' cells0 he hz hzt hsp hb hp hrb hrbn h h0
  refine ⟨⟨q, q2, by rw [q3, abs_of_neg hL]⟩, ⟨ys, ys0, fun i i0 i1 => ?_⟩, q5 hL.not_gt⟩
  have := q4 i i0 i1
  simpa [hL.not_gt] using this

/-- Shoreface volume in front of the crest line of the transects (closure depth plus crest level `hs`). -/
def beachVolume (Dx : ℚ) (hs : List ℚ) (cells : List (Cell ℚ)) : Fl ℚ :=
  (List.zipWith (fun h (c : Cell ℚ) => c.t.y0 * fin h * fin Dx) hs cells).foldl (· + ·) (fin 0)

/-- One step from right to left in `moIn`, with uniform transport. -/
def moRtoL : MorIn ℚ := { moIn with LST := List.replicate 6 (fin (-1/100)) }

/-- Closure depth plus crest level of the sample transects. -/
def moHeights : List ℚ := moIn.rows.map (fun r => match r.z0 with | fin z => z + 10 | _ => 0)

/-- C37 is false as stated: in `moRtoL` (uniform transport of 0.01 from right to left) compared with no longshore transport, the same
step narrows the outlet end by a volume of 0.01 per second of step, but takes only 0.01 in total off the beach. -/
theorem C37_refuted : ∃ (dt : ℤ) (X0 : ℕ) (st st0 : MorSt ℚ) (V V0 w w0 : ℚ),
    forceStage moPP moRtoL = .ok (dt, X0, st) ∧ forceStage moPP (noLST moRtoL) = .ok (dt, X0, st0) ∧ secs dt = 240 ∧
    beachVolume 10 moHeights st.cells = fin V ∧ beachVolume 10 moHeights st0.cells = fin V0 ∧ st.endW = fin w ∧ st0.endW = fin w0 ∧
    (w0 - w) * (moPP.BeachTopElev - (-1)) * moPP.SpitWidth = 240 * (1 / 100) ∧ V0 - V = 1 / 100 := by
  obtain ⟨⟨dt, X0, st⟩, h, p⟩ := ok_witness (x := forceStage moPP moRtoL) (fun o : ℤ × ℕ × MorSt ℚ => o.1 = 240000000000 ∧ o.2.1 = 3 ∧
    beachVolume 10 moHeights o.2.2.cells = fin (1960013/20) ∧ o.2.2.endW = fin (597/100)) (by decide +kernel)
  obtain ⟨⟨dt0, X00, st0⟩, h0, p0⟩ := ok_witness (x := forceStage moPP (noLST moRtoL)) (fun o : ℤ × ℕ × MorSt ℚ => o.1 = 240000000000 ∧ o.2.1 = 3 ∧
    beachVolume 10 moHeights o.2.2.cells = fin (4900033/50) ∧ o.2.2.endW = fin 6) (by decide +kernel)
  obtain ⟨rfl, rfl, p3, p4⟩ := p
  obtain ⟨rfl, rfl, q3, q4⟩ := p0
  exact ⟨_, _, st, st0, _, _, _, _, h, h0, by decide, p3, q3, p4, q4, by norm_num [moPP, chPP], by norm_num⟩

/-! ## C38 -/

/-- Sum of a shifted sequence. -/
theorem sum_shift (f : ℕ → K) (n m : ℕ) :
    ∑ i ∈ Finset.range n, f (i + m) - ∑ i ∈ Finset.range n, f i = ∑ i ∈ Finset.range m, (f (n + i) - f i) := by
  have h1 := Finset.sum_range_add f n m
  have h2 := Finset.sum_range_add f m n
  rw [Nat.add_comm m n] at h2
  simp only [Nat.add_comm m] at h2
  rw [Finset.sum_sub_distrib]
  linarith

/-- The triangular kernel of half-width `m` grid steps sums to one over a grid containing it. -/
theorem hat_sum (m n : ℕ) (hm : 0 < m) (t : K) (h0 : (m : K) ≤ t) (h1 : t + m + 1 ≤ n) :
    ∑ i ∈ Finset.range n, 1 / (m : K) * max (1 - |(i : K) - t| / m) 0 = 1 := by
  have hm' : (0 : K) < m := by exact_mod_cast hm
  let r : ℕ → K := fun i => max ((i : K) - t) 0
  let r' : ℕ → K := fun i => max ((i : K) - m - t) 0
  have e : ∀ i : ℕ, 1 / (m : K) * max (1 - |(i : K) - t| / m) 0 = 1 / (m : K) / m * ((r (i + m) - r i) - (r i - r' i)) := by
    intro i
    have : (m : K) * max (1 - |(i : K) - t| / m) 0 = (r (i + m) - r i) - (r i - r' i) := by
      simp only [r, r']
      push_cast
      have e1 : (m : K) * max (1 - |(i : K) - t| / m) 0 = max (m - |(i : K) - t|) 0 := by
        rw [mul_max_of_nonneg _ _ hm'.le]; congr 1
        · field_simp
        · simp
      rw [e1]
      rcases abs_cases ((i : K) - t) with ⟨a1, a2⟩ | ⟨a1, a2⟩ <;> rw [a1] <;>
        rcases max_cases ((m : K) - ((i : K) - t)) 0 with ⟨b1, b2⟩ | ⟨b1, b2⟩ <;>
        rcases max_cases ((m : K) - -((i : K) - t)) 0 with ⟨c1, c2⟩ | ⟨c1, c2⟩ <;>
        rcases max_cases ((i : K) + m - t) 0 with ⟨d1, d2⟩ | ⟨d1, d2⟩ <;>
        rcases max_cases ((i : K) - t) 0 with ⟨e1, e2⟩ | ⟨e1, e2⟩ <;>
        rcases max_cases ((i : K) - m - t) 0 with ⟨f1, f2⟩ | ⟨f1, f2⟩ <;>
        simp only [b1, c1, d1, e1, f1] <;> linarith
    rw [← this]; field_simp
  rw [Finset.sum_congr rfl (fun i _ => e i), ← Finset.mul_sum, Finset.sum_sub_distrib, Finset.sum_sub_distrib, Finset.sum_sub_distrib]
  have s1 := sum_shift r n m
  have s2 := sum_shift r' n m
  have er : ∀ i, r' (i + m) = r i := by intro i; simp only [r, r']; push_cast; congr 1; ring
  rw [Finset.sum_congr rfl (fun i _ => er i)] at s2
  rw [s1, s2, ← Finset.sum_sub_distrib]
  have : ∀ i ∈ Finset.range m, (r (n + i) - r i) - (r' (n + i) - r' i) = (m : K) := by
    intro i hi
    rw [Finset.mem_range] at hi
    have hi' : (i : K) + 1 ≤ m := by exact_mod_cast hi
    have hi0 : (0 : K) ≤ i := Nat.cast_nonneg i
    simp only [r, r']
    push_cast
    rw [max_eq_left (by linarith), max_eq_right (by linarith), max_eq_left (by linarith), max_eq_right (by linarith)]
    ring
  rw [Finset.sum_congr rfl this, Finset.sum_const, Finset.card_range, nsmul_eq_mul]
  field_simp

/-- C38, the part that holds: on a regular grid with the spreading distance a whole number `m` of transect spacings and the kernel inside the domain,
bedload changes the shoreline rates by a total volume rate equal to the bedload leaving the
outlet.  Missing: other spreading distances, refuted below. -/
theorem C38_partial (pp : PhysPars K) (a : MorIn K) (hs ls cs : ℕ → K) (B : Beach pp a hs ls cs) (hc : a.Closed = false) (rb : ℕ)
    (R R0 : Rates K) (cells cells0 : List (Cell K)) {e b x0 L : K} (he : a.EndX1 = fin e) (hb : a.Bedload.getLast? = some (fin b))
    (hL : a.LST[prevIx a.LST.length rb]? = some (fin L)) (m : ℕ) (hm : 0 < m) (hS : pp.OutletSedSpreadDist = m * a.Dx)
    (hx : ∀ (i : ℕ) r, a.rows[i]? = some r → r.x = x0 + i * a.Dx) (hlo : x0 + m * a.Dx ≤ e) (hhi : e + m * a.Dx ≤ x0 + (a.rows.length - 1 : ℕ) * a.Dx)
    (h : allRates pp a rb (a.rows.mapIdx (mkCell pp a)) = .ok (R, cells))
    (h0 : allRates pp (noBedload a) rb (a.rows.mapIdx (mkCell pp a)) = .ok (R0, cells0)) :
    ∃ ys ys0 : ℕ → K, (∀ i, 0 < i → i + 1 < a.rows.length → R.y0[i]? = some (fin (ys i)) ∧ R0.y0[i]? = some (fin (ys0 i))) ∧
      R.y0[0]? = R0.y0[0]? ∧ R.y0[a.rows.length - 1]? = R0.y0[a.rows.length - 1]? ∧
      ∑ i ∈ Finset.range (a.rows.length - 2), (ys (i + 1) - ys0 (i + 1)) * hs (i + 1) * a.Dx = b := by
  have hlen : (a.rows.mapIdx (mkCell pp a)).length = a.rows.length := by simp
  have B0 : Beach pp (noBedload a) hs ls cs := ⟨B.height, B.pos, B.lst, B.lstLen, B.cst, B.dx, B.spread⟩
  have hb0 : (noBedload a).Bedload.getLast? = some (fin 0) := by
    show (a.Bedload.map _).getLast? = _
    rw [List.getLast?_map, hb]; rfl
  have hD := B.dx
  have hmD : 0 < (m : K) * a.Dx := by have : (0 : K) < m := by exact_mod_cast hm
                                      positivity
  have hn2 : 2 ≤ a.rows.length := by
    by_contra hcon
    have : a.rows.length - 1 = 0 := by omega
    rw [this] at hhi
    push_cast at hhi
    linarith
  refine ⟨fun i => (b * hat a.Dx pp.OutletSedSpreadDist (x0 + i * a.Dx - e) + ls (i-1) - ls i - (if i = rb ∧ 0 < L then L else 0)) / (hs i * a.Dx) - cs i / hs i,
    fun i => (0 * hat a.Dx pp.OutletSedSpreadDist (x0 + i * a.Dx - e) + ls (i-1) - ls i - (if i = rb ∧ 0 < L then L else 0)) / (hs i * a.Dx) - cs i / hs i, ?_, ?_, ?_, ?_⟩
  · intro i i0 i1
    have hr : a.rows[i]? = some a.rows[i] := List.getElem?_eq_getElem (by omega)
    refine ⟨?_, ?_⟩
    · rw [open_rate B hc hb he hL h i0 i1 hr, hx i _ hr]
    · have := open_rate B0 hc hb0 he hL h0 i0 i1 hr
      rw [this, hx i _ hr]; rfl
  · rw [allRates_ends hlen h (by omega) (Or.inl rfl), allRates_ends (a := noBedload a) hlen h0 (by omega) (Or.inl rfl)]
  · rw [allRates_ends hlen h (by omega) (Or.inr (by omega)), allRates_ends (a := noBedload a) hlen h0 (by omega) (Or.inr (by omega))]
  · have e1 : ∀ i : ℕ, hat a.Dx pp.OutletSedSpreadDist (x0 + i * a.Dx - e) = 1 / (m : K) * max (1 - |(i : K) - (e - x0) / a.Dx| / m) 0 := by
      intro i
      have hm' : (m : K) ≠ 0 := by exact_mod_cast hm.ne'
      unfold hat
      rw [hS]
      have : |x0 + i * a.Dx - e| / (m * a.Dx) = |(i : K) - (e - x0) / a.Dx| / m := by
        have : x0 + i * a.Dx - e = ((i : K) - (e - x0) / a.Dx) * a.Dx := by field_simp; ring
        rw [this, abs_mul, abs_of_pos hD]; field_simp
      rw [this]
      congr 1
      field_simp
    have hsum := hat_sum (K := K) m a.rows.length hm ((e - x0) / a.Dx) (by rw [le_div_iff₀ hD]; linarith) (by
      have : (a.rows.length : K) = (a.rows.length - 1 : ℕ) + 1 := by
        have : a.rows.length = (a.rows.length - 1) + 1 := by omega
        exact_mod_cast this
      rw [this]
      have : (e - x0) / a.Dx ≤ (a.rows.length - 1 : ℕ) - m := by
        rw [div_le_iff₀ hD]; linarith
      linarith)
    -- the kernel vanishes at the two ends
    obtain ⟨k, hk⟩ : ∃ k, a.rows.length = k + 2 := ⟨a.rows.length - 2, by omega⟩
    have z0 : hat a.Dx pp.OutletSedSpreadDist (x0 + (0 : ℕ) * a.Dx - e) = 0 := by
      unfold hat
      rw [hS, max_eq_right, mul_zero]
      rw [sub_nonpos, le_div_iff₀ hmD, one_mul]
      have := neg_le_abs (x0 + (0 : ℕ) * a.Dx - e)
      push_cast at this ⊢
      linarith
    have z1 : hat a.Dx pp.OutletSedSpreadDist (x0 + (k + 1 : ℕ) * a.Dx - e) = 0 := by
      unfold hat
      rw [hS, max_eq_right, mul_zero]
      rw [sub_nonpos, le_div_iff₀ hmD, one_mul]
      have := le_abs_self (x0 + (k + 1 : ℕ) * a.Dx - e)
      have e2 : a.rows.length - 1 = k + 1 := by omega
      rw [e2] at hhi
      linarith
    rw [hk] at hsum ⊢
    rw [Finset.sum_congr rfl (fun i _ => (e1 i).symm), Finset.sum_range_succ, Finset.sum_range_succ', z0, z1] at hsum
    have : ∀ i ∈ Finset.range (k + 2 - 2), ((b * hat a.Dx pp.OutletSedSpreadDist (x0 + (i + 1 : ℕ) * a.Dx - e) + ls (i+1-1) - ls (i+1) - (if i+1 = rb ∧ 0 < L then L else 0)) / (hs (i+1) * a.Dx) - cs (i+1) / hs (i+1) -
        ((0 * hat a.Dx pp.OutletSedSpreadDist (x0 + (i + 1 : ℕ) * a.Dx - e) + ls (i+1-1) - ls (i+1) - (if i+1 = rb ∧ 0 < L then L else 0)) / (hs (i+1) * a.Dx) - cs (i+1) / hs (i+1))) * hs (i+1) * a.Dx
        = b * hat a.Dx pp.OutletSedSpreadDist (x0 + (i + 1 : ℕ) * a.Dx - e) := by
      intro i _
      have := B.pos (i+1)
      field_simp
      ring
    rw [Finset.sum_congr rfl this, ← Finset.mul_sum]
    simp only [Nat.add_sub_cancel] at hsum ⊢
    rw [add_zero, add_zero] at hsum
    rw [hsum, mul_one]

/-- Total volume rate at which the shoreline rates build the shoreface. -/
def shoreGain (Dx : ℚ) (hs : List ℚ) (R : Rates ℚ) : Fl ℚ :=
  (List.zipWith (fun h r => r * fin h * fin Dx) hs R.y0).foldl (· + ·) (fin 0)

/-- Mouth in the middle of the seven transects, no longshore transport. -/
def moMid : MorIn ℚ := noLST { moIn with EndX1 := fin 0 }

/-- C38 is false as stated: with a spreading distance of one and a half transect spacings the shore gets 10/9 of the
outlet bedload (with two spacings, exactly the bedload of 1/200). -/
theorem C38_refuted :
    (∃ R cells, allRates { moPP with OutletSedSpreadDist := 15 } moMid 4 (moMid.rows.mapIdx (mkCell moPP moMid)) = .ok (R, cells) ∧
      shoreGain 10 moHeights R = fin (10 / 9 * (1 / 200))) ∧
    (∃ R cells, allRates { moPP with OutletSedSpreadDist := 20 } moMid 4 (moMid.rows.mapIdx (mkCell moPP moMid)) = .ok (R, cells) ∧
      shoreGain 10 moHeights R = fin (1 / 200)) := by
  constructor
  · obtain ⟨⟨R, c⟩, h, p⟩ := ok_witness (x := allRates { moPP with OutletSedSpreadDist := 15 } moMid 4 (moMid.rows.mapIdx (mkCell moPP moMid)))
      (fun o : Rates ℚ × List (Cell ℚ) => shoreGain 10 moHeights o.1 = fin (10 / 9 * (1 / 200))) (by decide +kernel)
    exact ⟨R, c, h, p⟩
  · obtain ⟨⟨R, c⟩, h, p⟩ := ok_witness (x := allRates { moPP with OutletSedSpreadDist := 20 } moMid 4 (moMid.rows.mapIdx (mkCell moPP moMid)))
      (fun o : Rates ℚ × List (Cell ℚ) => shoreGain 10 moHeights o.1 = fin (1 / 200)) (by decide +kernel)
    exact ⟨R, c, h, p⟩

/-! Concrete cases. -/

/-- Uneven longshore transport on the closed sample. -/
def moUneven : MorIn ℚ := { moClosed with LST := [fin 1, fin 2, fin 0, fin (-1), fin 3, fin 5].map (fun v => v * fin (1/100)) }

/-- C36: the shoreface gains 1/100 - 5/100 in total. -/
example : okAnd (allRates moPP moUneven 0 (moUneven.rows.mapIdx (mkCell moPP moUneven))) (fun o => shoreGain 10 moHeights o.1 == fin (-4/100)) = true ∧
    okAnd (allRates moPP (noLST moUneven) 0 (moUneven.rows.mapIdx (mkCell moPP moUneven))) (fun o => shoreGain 10 moHeights o.1 == fin 0) = true := by
  constructor <;> decide +kernel

/-- C37: transport to the right past a mouth between transects 3 and 4: transect 4 gets 0 - 1/100 instead of 1/100 - 1/100. -/
example : okAnd (precalc moPP { moIn with EndX1 := fin 5 }) (fun o => o.2.2 == 4) = true ∧
    okAnd (allRates moPP { moIn with EndX1 := fin 5 } 4 (moIn.rows.mapIdx (mkCell moPP moIn))) (fun o => shoreGain 10 moHeights o.1 == fin (1/200 - 1/100)) = true ∧
    okAnd (allRates moPP (noLST { moIn with EndX1 := fin 5 }) 4 (moIn.rows.mapIdx (mkCell moPP moIn))) (fun o => shoreGain 10 moHeights o.1 == fin (1/200)) = true := by
  refine ⟨?_, ?_, ?_⟩ <;> decide +kernel

/-- C36-C38: the sample beach is a `Beach`. -/
example : Beach moPP moIn (fun _ => 14) (fun _ => 1/100) (fun _ => 0) := by
  refine ⟨?_, fun _ => by norm_num, ?_, by decide +kernel, ?_, by decide +kernel, by decide +kernel⟩
  · have : ∀ r ∈ moIn.rows, r.z0 = fin (14 - moPP.ClosureDepth) := by decide +kernel
    intro i r h; exact this r (List.mem_of_getElem? h)
  · have : ∀ i < 6, moIn.LST[i]? = some (fin (1/100)) := by decide +kernel
    intro i h; exact this i (by have : moIn.rows.length = 7 := by decide +kernel
                                omega)
  · have : ∀ i < 7, moIn.CST[i]? = some (fin 0) := by decide +kernel
    intro i h; exact this i (by have : moIn.rows.length = 7 := by decide +kernel
                                omega)

end Verif.Props
