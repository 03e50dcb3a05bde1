import Verif.Lemmas.Load
import Verif.Spec.Load
import Verif.Props.Channel

set_option autoImplicit false
set_option linter.unusedSectionVars false

/-! # C60-C63: the initial state -/

namespace Verif.Props
open Verif Verif.Model Verif.Spec Fl

variable {K : Type} [Field K] [LinearOrder K] [IsStrictOrderedRing K] [FloorRing K]

/-! ## C60 -/

/-- C60: wave directions are in `[-π, π)` and differ from the bearing minus the direction of the shore normal by whole turns. -/
theorem C60_direction (bearing norm : ℝ) : ∃ d : ℝ, waveDir (fin bearing) norm = fin d ∧ -Real.pi ≤ d ∧ d < Real.pi ∧
    ∃ k : ℤ, d = bearing * (Real.pi / 180) - norm + k * (2 * Real.pi) := by
  have hp : (0 : ℝ) < 2 * Real.pi := by have := Real.pi_pos; linarith
  have hd : waveDir (fin bearing) norm = fin (bearing * (Real.pi / 180) - norm + Real.pi -
      2 * Real.pi * (⌊(bearing * (Real.pi / 180) - norm + Real.pi) / (2 * Real.pi)⌋ : ℝ) - Real.pi) := by
    unfold waveDir
    simp only [mul_fin, sub_fin, add_fin, flMod, if_neg (ne_of_gt hp)]
  refine ⟨_, hd, ?_, ?_, -⌊(bearing * (Real.pi / 180) - norm + Real.pi) / (2 * Real.pi)⌋, by push_cast; ring⟩
  · have h := Int.floor_le ((bearing * (Real.pi / 180) - norm + Real.pi) / (2 * Real.pi))
    rw [le_div_iff₀ hp] at h
    linarith
  · have h := Int.lt_floor_add_one ((bearing * (Real.pi / 180) - norm + Real.pi) / (2 * Real.pi))
    rw [div_lt_iff₀ hp] at h
    linarith

/-- These two conditions leave a single value. -/
theorem C60_unique {x d d' : ℝ} (h1 : -Real.pi ≤ d) (h2 : d < Real.pi) (h3 : -Real.pi ≤ d') (h4 : d' < Real.pi)
    (h5 : ∃ k : ℤ, d = x + k * (2 * Real.pi)) (h6 : ∃ k : ℤ, d' = x + k * (2 * Real.pi)) : d = d' := by
  obtain ⟨k, rfl⟩ := h5
  obtain ⟨j, rfl⟩ := h6
  have hp := Real.pi_pos
  have h7 : ((k - j : ℤ) : ℝ) * (2 * Real.pi) < 1 * (2 * Real.pi) := by push_cast; linarith
  have h8 : (-1 : ℝ) * (2 * Real.pi) < ((k - j : ℤ) : ℝ) * (2 * Real.pi) := by push_cast; linarith
  have h9 := lt_of_mul_lt_mul_right h7 (by linarith)
  have h10 := lt_of_mul_lt_mul_right h8 (by linarith)
  have : k - j = 0 := by
    have a : k - j < 1 := by exact_mod_cast h9
    have b : -1 < k - j := by exact_mod_cast h10
    omega
  rw [show k = j by omega]

/-- A missing wave direction stays missing. -/
theorem C60_missing (norm : ℝ) : waveDir nan norm = nan := by simp [waveDir, flMod]

/-- Waves from bearing 350 on a shore facing north come from 10 degrees to the left. -/
example : waveDir (fin 350) 0 = fin (-(Real.pi / 18)) := by
  obtain ⟨d, h, h1, h2, h3⟩ := C60_direction 350 0
  rw [h, C60_unique h1 h2 (d' := -(Real.pi / 18)) (by linarith [Real.pi_pos]) (by linarith [Real.pi_pos]) h3 ⟨-1, by push_cast; ring⟩]

/-! ## C61 -/

/-- C61: the initial river bed. -/
theorem C61_profile {zb slope len dx : K} (hs : 0 < slope) (hd : 0 < dx) (hl : 0 < len) : ∃ l : List K,
    riverElev zb slope len dx = .ok (l.map fin) ∧ l.getLast? = some zb ∧ FallsBy (slope * dx) l ∧ StepsToCover l.length dx len := by
  obtain ⟨xs, n, hx, hlen, hget, h1, h2⟩ := arange_ok (a := zb) (b := zb + slope * len) (mul_pos hs hd)
  refine ⟨xs.reverse, bind_ok.mpr ⟨xs, hx, rfl⟩, ?_, ?_, ?_, ?_⟩
  · have hn : 0 < n := by
      rcases Nat.eq_zero_or_pos n with h | h
      · rw [h] at h1; push_cast at h1; have := mul_pos hs hl; linarith
      · exact h
    rw [List.getLast?_reverse, List.head?_eq_getElem?, hget]
    exact ⟨hn, by push_cast; ring⟩
  · intro i a b ha hb
    have hi : i + 1 < xs.length := by
      have := (List.getElem?_eq_some_iff.mp hb).1
      simpa using this
    rw [List.getElem?_reverse (by omega), hget] at ha
    rw [List.getElem?_reverse (by omega), hget] at hb
    rw [ha.2, hb.2, show xs.length - 1 - i = (xs.length - 1 - (i + 1)) + 1 by omega]
    push_cast; ring
  · rw [List.length_reverse, hlen]
    have h3 : slope * len ≤ slope * ((n : K) * dx) := by linarith
    exact le_of_mul_le_mul_left h3 hs
  · intro k hk
    rw [List.length_reverse, hlen]
    refine h2 k ?_
    have := mul_le_mul_of_nonneg_left hk hs.le
    linarith

/-- A zero slope or spacing is an error. -/
theorem C61_zero {zb slope len dx : K} (h : slope * dx = 0) : riverElev zb slope len dx = .error .zeroDiv := by
  unfold riverElev arange
  rw [if_pos h]
  rfl

/-- Four sections for 100 m at 30 m. -/
example : riverElev (-1 : ℚ) (1 / 100) 100 30 = .ok [fin (-1 / 10), fin (-4 / 10), fin (-7 / 10), fin (-1)] := by decide +kernel

/-! ## C62 -/

/-- C62, shape: the transects are equally spaced, cover the requested lengths, and exactly one is in line with the river. -/
theorem C62_transects {c : ShoreCfg K} (hd : 0 < c.Dx) (hL : 0 ≤ c.ShorelineLengthLeft) (hR : 0 ≤ c.ShorelineLengthRight) :
    ∃ rows, defaultRows c = .ok rows ∧
      (∀ (i : ℕ) (r r' : Transect K), rows[i]? = some r → rows[i + 1]? = some r' → r'.x - r.x = c.Dx) ∧
      (∃ r, rows.head? = some r ∧ r.x ≤ -c.ShorelineLengthLeft ∧ -c.ShorelineLengthLeft < r.x + c.Dx) ∧
      (∃ r, rows.getLast? = some r ∧ c.ShorelineLengthRight ≤ r.x ∧ r.x < c.ShorelineLengthRight + c.Dx) ∧
      ∃! i : ℕ, ∃ r, rows[i]? = some r ∧ r.x = 0 := by
  obtain ⟨rows, m, h, hr, h1, h2, h3, h4⟩ := defaultRows_ok hd hL hR
  have hx : ∀ (i : ℕ) (r : Transect K), rows[i]? = some r → r.x = ((i : K) - m) * c.Dx := by
    intro i r hi
    rw [hr.all i r hi]
    unfold defaultRow
    split <;> rfl
  have hpos := hr.lt
  refine ⟨rows, h, ?_, ?_, ?_, m, ⟨_, hr.row, by simp [defaultRow]⟩, ?_⟩
  · intro i r r' hi hi'
    rw [hx _ _ hi, hx _ _ hi']; push_cast; ring
  · obtain ⟨r, hr0⟩ : ∃ r, rows[0]? = some r := ⟨_, List.getElem?_eq_getElem (by omega)⟩
    refine ⟨r, by rw [List.head?_eq_getElem?]; exact hr0, ?_⟩
    rw [hx _ _ hr0]
    push_cast
    constructor <;> linarith
  · obtain ⟨r, hr0⟩ : ∃ r, rows[rows.length - 1]? = some r := ⟨_, List.getElem?_eq_getElem (by omega)⟩
    refine ⟨r, by rw [List.getLast?_eq_getElem?]; exact hr0, ?_⟩
    rw [hx _ _ hr0, Nat.cast_sub (by omega)]
    push_cast
    constructor <;> linarith
  · rintro i ⟨r, hi, h0⟩
    exact hr.other hd hi h0

/-- A river 5 m wide and an outlet 10 m wide; 35 m of shoreline to the left, 20 m to the right. -/
def smallCfg : ShoreCfg ℚ :=
  { ShorelineLengthLeft := 35, ShorelineLengthRight := 20, BeachWidth := 40, Dx := 10, SpitWidth := 10, RiverWidth := 5, OutletWidth := 10,
    OutletBed := 0, LagoonBed := -1, BarrierElev := 3 }

/-- Seven transects. -/
example : okAnd (defaultRows smallCfg) (fun rows => decide (rows.map (·.x) = [-40, -30, -20, -10, 0, 10, 20])) = true := by decide +kernel

/-- C62 refuted, in general: the lagoon of the default shoreline is 1 mm narrower than the river; when that is less than the smallest
outlet width, the first `assembleChannel` raises IndexError (AssertionError if the river is at most 1 mm wide) however wide the outlet. -/
theorem C62_refuted_general {c : ShoreCfg K} {slope len : K} {ld : LoadOut K} {pp : PhysPars K} (hd : 0 < c.Dx)
    (hL : 0 ≤ c.ShorelineLengthLeft) (hR : 0 ≤ c.ShorelineLengthRight) (h : defaultLoad c slope len = .ok ld)
    (ho : pp.MinOutletWidth < c.OutletWidth) (hw : c.RiverWidth - 1 / 1000 < pp.MinOutletWidth ∨ c.RiverWidth - 1 / 1000 ≤ 0) :
    assembleChannel pp (firstChan ld c.Dx) = .error (if 0 < c.RiverWidth - 1 / 1000 then .index else .assertion) := by
  obtain ⟨m, riv, hl⟩ := defaultLoad_inv hd hL hR h
  exact hl.narrow hd ho hw

/-- C62 refuted: the outlet is 10 m wide and the smallest outlet width 5 m, but the first `assembleChannel` raises IndexError. -/
theorem C62_refuted : ∃ ld, defaultLoad smallCfg (1 / 100) 100 = .ok ld ∧ (5 : ℚ) < smallCfg.OutletWidth ∧
    assembleChannel { chPP with MinOutletWidth := 5, RiverWidth := 5 } (firstChan ld smallCfg.Dx) = .error .index := by
  obtain ⟨ld, h, _⟩ := okAnd_iff.mp (show okAnd (defaultLoad smallCfg (1 / 100) 100) (fun _ => true) = true by decide +kernel)
  have := C62_refuted_general (pp := { chPP with MinOutletWidth := 5, RiverWidth := 5 }) (by decide +kernel) (by decide +kernel)
    (by decide +kernel) h (by decide +kernel) (by decide +kernel)
  rw [if_pos (by decide +kernel)] at this
  exact ⟨ld, h, by decide +kernel, this⟩

/-- C62, partial: with a river at least 1 mm wider than the smallest outlet width (and wider than 1 mm) the first
`assembleChannel` returns an open channel with one lagoon section and one outlet section, in line with the river.  (Missing:
narrower rivers, for which it fails.) -/
theorem C62_partial {c : ShoreCfg K} {slope len : K} {ld : LoadOut K} {pp : PhysPars K} (hd : 0 < c.Dx)
    (hL : 0 ≤ c.ShorelineLengthLeft) (hR : 0 ≤ c.ShorelineLengthRight) (h : defaultLoad c slope len = .ok ld)
    (hrw : pp.RiverWidth = c.RiverWidth) (hm : 0 ≤ pp.MinOutletWidth) (ho : pp.MinOutletWidth < c.OutletWidth)
    (hw : pp.MinOutletWidth ≤ c.RiverWidth - 1 / 1000) (hw0 : 0 < c.RiverWidth - 1 / 1000) :
    ∃ out m r, assembleChannel pp (firstChan ld c.Dx) = .ok out ∧ out.closed = false ∧ out.online = [m] ∧ out.outlet = [m] ∧
      ld.rows[m]? = some r ∧ r.x = 0 := by
  obtain ⟨m, riv, hl⟩ := defaultLoad_inv hd hL hR h
  obtain ⟨out, h1, h2, h3, h4⟩ := hl.assemble hd hrw hm ho hw hw0
  exact ⟨out, m, _, h1, h2, h3, h4, hl.rows.row, by simp [defaultRow]⟩

/-- With a smallest outlet width of 4.999 m the same shoreline is accepted. -/
example : okAnd ((defaultLoad smallCfg (1 / 100) 100) >>= fun ld => assembleChannel { chPP with MinOutletWidth := 4999 / 1000, RiverWidth := 5 } (firstChan ld 10))
    (fun c => decide (c.closed = false ∧ c.online = [4] ∧ c.outlet = [4] ∧ c.width.length = 14)) = true := by decide +kernel

/-- Loading succeeds for positive slope and spacing. -/
theorem C62_loads {c : ShoreCfg K} {slope len : K} (hd : 0 < c.Dx) (hs : 0 < slope) (hL : 0 ≤ c.ShorelineLengthLeft)
    (hR : 0 ≤ c.ShorelineLengthRight) : ∃ ld, defaultLoad c slope len = .ok ld := by
  obtain ⟨rows, m, h, _⟩ := defaultRows_ok hd hL hR
  obtain ⟨xs, n, hx, _⟩ := arange_ok (a := c.LagoonBed) (b := c.LagoonBed + slope * len) (mul_pos hs hd)
  exact ⟨_, bind_ok.mpr ⟨_, bind_ok.mpr ⟨_, hx, rfl⟩, bind_ok.mpr ⟨_, h, rfl⟩⟩⟩

/-! ## C63 -/

/-- C63: the target line passes through both points. -/
theorem C63_line {H B W S slope int : K} (h : barRat H B W S = .ok (slope, int)) : slope * S + int = B ∧ slope * W + int = H := by
  unfold barRat at h
  split at h
  · cases h
  · rename_i hne
    have h := ok_inj.mp h
    simp only [Prod.mk.injEq] at h
    obtain ⟨rfl, rfl⟩ := h
    constructor
    · ring
    · field_simp; ring

/-- C63: it is found exactly for distinct widths; equal widths are an error. -/
theorem C63_distinct (H B W S : K) : (W ≠ S → ∃ r, barRat H B W S = .ok r) ∧ (W = S → barRat H B W S = .error .zeroDiv) := by
  unfold barRat
  constructor
  · intro h
    rw [if_neg (sub_ne_zero.mpr h)]
    exact ⟨_, rfl⟩
  · rintro rfl
    simp

example : barRat (4 : ℚ) 2 40 10 = .ok (1 / 15, 4 / 3) := by decide +kernel

end Verif.Props
