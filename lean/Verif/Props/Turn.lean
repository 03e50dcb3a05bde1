import Verif.Props.Load
import Verif.Props.Loader
import Verif.Spec.Turn

set_option autoImplicit false
set_option linter.unusedSectionVars false

/-! # C154: the direction of the waves between two records -/

namespace Verif.Props
open Verif Verif.Model Verif.Spec Fl

/-- A straight-line mean of two angles within one turn of each other goes the short way iff they are at most half a turn apart. -/
theorem short_iff {d1 d2 s : ℝ} (h1 : -Real.pi ≤ d1) (h2 : d1 < Real.pi) (h3 : -Real.pi ≤ d2) (h4 : d2 < Real.pi) (s0 : 0 < s) (s1 : s < 1) :
    ShortWay d1 d2 s (d1 + s * (d2 - d1)) ↔ |d2 - d1| ≤ Real.pi := by
  have hp := Real.pi_pos
  constructor
  · rintro ⟨δ, hδ, ⟨k, hk⟩, j, hj⟩
    have e1 : d2 - d1 = δ + k * (2 * Real.pi) := by linarith
    have e2 : (s * k) * (2 * Real.pi) = j * (2 * Real.pi) := by
      have : s * (d2 - d1) = s * δ + j * (2 * Real.pi) := by linarith
      rw [e1] at this
      linarith
    have e3 : s * k = j := mul_right_cancel₀ (by positivity) e2
    have hk1 : (k : ℝ) * (2 * Real.pi) < 2 * (2 * Real.pi) := by
      have := (abs_le.mp hδ).1; linarith
    have hk2 : (-2 : ℝ) * (2 * Real.pi) < k * (2 * Real.pi) := by
      have := (abs_le.mp hδ).2; linarith
    have a1 : (k : ℝ) < 2 := lt_of_mul_lt_mul_right hk1 (by positivity)
    have a2 : (-2 : ℝ) < k := lt_of_mul_lt_mul_right hk2 (by positivity)
    have b1 : k < 2 := by exact_mod_cast a1
    have b2 : -2 < k := by exact_mod_cast a2
    have hk0 : k = 0 := by
      rcases (show k = -1 ∨ k = 0 ∨ k = 1 by omega) with h | h | h
      · exfalso
        subst h
        push_cast at e3
        have c1 : (j : ℝ) < 0 := by linarith
        have c2 : (-1 : ℝ) < j := by linarith
        have d1 : j < 0 := by exact_mod_cast c1
        have d2 : -1 < j := by exact_mod_cast c2
        omega
      · exact h
      · exfalso
        subst h
        push_cast at e3
        have c1 : (0 : ℝ) < j := by linarith
        have c2 : (j : ℝ) < 1 := by linarith
        have d1 : 0 < j := by exact_mod_cast c1
        have d2 : j < 1 := by exact_mod_cast c2
        omega
    subst hk0
    rw [e1]
    simpa using hδ
  · intro h
    exact ⟨d2 - d1, h, ⟨0, by push_cast; ring⟩, 0, by push_cast; ring⟩

/-- **C154** (partial: exactly those pairs of records whose directions, as loaded, are at most half a turn apart).  For waves read from a
file in order of time, with a bearing in every record, the direction at a time `t` between two consecutive records is the one reached by
turning the shorter way from the one to the other iff the loaded directions, which lie between -π and π, are at most π apart.
(Missing: the other pairs, for which the claim is false.) -/
theorem C154_partial {w : Sources ℝ} {toNs : ℝ → ℤ} {mid : ℤ → ℤ} {draws : Val ℝ → List (ℝ × ℝ)} {dir : String} {v : Conf ℝ} {norm : ℝ}
    {ws' : List (ℤ × Wave ℝ)} (h : waveSeries (synthSources w toNs mid draws) dir v norm = .ok ws') :
    ∃ (name : String) (ws : List (ℤ × Wave ℝ)), v "BoundaryConditions" "WaveConditions" = .str name ∧ w.waves (joinPath dir name) = .ok ws ∧
      ((∀ r ∈ ws, ∃ b, r.2.EDir_h = fin b) → ws.Pairwise (fun a b => a.1 < b.1) →
      ∀ (i : ℕ) (r1 r2 : ℤ × Wave ℝ) (b1 b2 : ℝ) (t : ℤ), ws[i]? = some r1 → ws[i + 1]? = some r2 → r1.2.EDir_h = fin b1 → r2.2.EDir_h = fin b2 →
        r1.1 < t → t < r2.1 → ∃ d1 d2 d : ℝ, ws'[i]?.map (·.2.EDir_h) = some (fin d1) ∧ ws'[i + 1]?.map (·.2.EDir_h) = some (fin d2) ∧
          SameDir d1 (b1 * (Real.pi / 180) - norm) ∧ SameDir d2 (b2 * (Real.pi / 180) - norm) ∧
          interpolateAt (waveCol ws' (·.EDir_h)) [t] = .ok [fin d] ∧
          (ShortWay (b1 * (Real.pi / 180) - norm) (b2 * (Real.pi / 180) - norm) (((t : ℝ) - r1.1) / ((r2.1 : ℝ) - r1.1)) d ↔ |d2 - d1| ≤ Real.pi)) := by
  unfold waveSeries at h
  simp only [bind_ok, pure_ok, liftPy_ok] at h
  obtain ⟨name, hn, ws, hw, rfl⟩ := h
  refine ⟨name, ws, text_ok.mp hn, hw, ?_⟩
  intro hb hs i r1 r2 b1 b2 t g1 g2 e1 e2 k1 k2
  obtain ⟨d1, hd1, p1, q1, m1⟩ := C60_direction b1 norm
  obtain ⟨d2, hd2, p2, q2, m2⟩ := C60_direction b2 norm
  -- the loaded directions as numbers
  obtain ⟨ds, hds⟩ : ∃ ds : List (ℤ × ℝ), waveCol (ws.map fun r => (r.1, { r.2 with EDir_h := waveDir r.2.EDir_h norm })) (·.EDir_h) = finSeries ds := by
    apply as_numbers
    intro r hr
    unfold waveCol at hr
    rw [List.map_map] at hr
    obtain ⟨x, hx, rfl⟩ := List.mem_map.mp hr
    obtain ⟨b, hb⟩ := hb x hx
    obtain ⟨d, hd, _⟩ := C60_direction b norm
    exact ⟨d, by simp only [Function.comp, hb, hd]⟩
  have hget : ∀ (j : ℕ) (r : ℤ × Wave ℝ) (d : ℝ), ws[j]? = some r → waveDir r.2.EDir_h norm = fin d → ds[j]? = some (r.1, d) := by
    intro j r d hr hd
    have h1 : (finSeries ds)[j]? = some (r.1, fin d) := by
      rw [← hds]
      unfold waveCol
      rw [List.getElem?_map, List.getElem?_map, hr]
      simp only [Option.map_some, hd]
    unfold finSeries at h1
    rw [List.getElem?_map, Option.map_eq_some_iff] at h1
    obtain ⟨x, hx, he⟩ := h1
    rw [hx]
    obtain ⟨a1, a2⟩ := Prod.mk.inj he
    have a3 : x.2 = d := Fl.fin.inj a2
    rw [← a1, ← a3]
  have hinc : Increasing ds := by
    have : ((finSeries ds).map (·.1)).Pairwise (· < ·) := by
      rw [← hds]
      unfold waveCol
      simp only [List.map_map]
      rw [List.pairwise_map]
      exact hs
    rw [finSeries_keys, List.pairwise_map] at this
    exact this
  have c1 := hget i r1 d1 g1 (by rw [e1]; exact hd1)
  have c2 := hget (i + 1) r2 d2 g2 (by rw [e2]; exact hd2)
  obtain ⟨vs, hvs, hF⟩ := C52_linear hinc (req := [t]) (by simp) (by simp) (by
    intro u hu
    rw [List.mem_singleton] at hu
    subst hu
    exact ⟨⟨_, List.mem_of_getElem? c1, k1.le⟩, _, List.mem_of_getElem? c2, k2.le⟩)
  obtain ⟨d, rfl, hl⟩ : ∃ d, vs = [d] ∧ LinearAt ds t d := by
    cases hF with
    | cons h1 h2 => cases h2; exact ⟨_, rfl, h1⟩
  have l1 : (r1.1 : ℝ) < t := by exact_mod_cast k1
  have l2 : (t : ℝ) < r2.1 := by exact_mod_cast k2
  have hpos : (0 : ℝ) < (r2.1 : ℝ) - r1.1 := by linarith
  have hd : d = d1 + ((t : ℝ) - r1.1) / ((r2.1 : ℝ) - r1.1) * (d2 - d1) := by
    refine linearAt_unique hinc hl (.inr ⟨i, r1.1, r2.1, d1, d2, c1, c2, k1, k2, ?_⟩)
    field_simp
    ring
  refine ⟨d1, d2, d, ?_, ?_, m1, m2, ?_, ?_⟩
  · rw [List.getElem?_map, g1]
    simp only [Option.map_some, e1]
    exact congrArg some hd1
  · rw [List.getElem?_map, g2]
    simp only [Option.map_some, e2]
    exact congrArg some hd2
  · change interpolateAt (waveCol (ws.map fun r => (r.1, { r.2 with EDir_h := waveDir r.2.EDir_h norm })) (·.EDir_h)) [t] = _
    rw [hds, hvs]
    rfl
  · have s0 : 0 < ((t : ℝ) - r1.1) / ((r2.1 : ℝ) - r1.1) := div_pos (by linarith) hpos
    have s1 : ((t : ℝ) - r1.1) / ((r2.1 : ℝ) - r1.1) < 1 := (div_lt_one hpos).mpr (by linarith)
    rw [hd, ← short_iff p1 q1 p2 q2 s0 s1]
    obtain ⟨x1, hx1⟩ := m1
    obtain ⟨x2, hx2⟩ := m2
    constructor
    · rintro ⟨δ, h0, ⟨k, hk⟩, j, hj⟩
      refine ⟨δ, h0, ⟨k + x2 - x1, ?_⟩, j - x1, ?_⟩
      · rw [hx2, hx1, hk]; push_cast; ring
      · rw [hj, hx1]; push_cast; ring
    · rintro ⟨δ, h0, ⟨k, hk⟩, j, hj⟩
      refine ⟨δ, h0, ⟨k - x2 + x1, ?_⟩, j + x1, ?_⟩
      · push_cast; linarith
      · rw [hj, hx1]; push_cast; ring

/-- Waves that come from the sea in both records turn the shorter way in between. -/
theorem C154_onshore {d1 d2 s : ℝ} (h1 : |d1| ≤ Real.pi / 2) (h2 : |d2| ≤ Real.pi / 2) (s0 : 0 < s) (s1 : s < 1) :
    ShortWay d1 d2 s (d1 + s * (d2 - d1)) := by
  have a := abs_le.mp h1
  have b := abs_le.mp h2
  have hp := Real.pi_pos
  refine (short_iff (by linarith) (by linarith) (by linarith) (by linarith) s0 s1).mpr (abs_le.mpr ⟨by linarith, by linarith⟩)

/-- A file with two records, 4 ns apart, of the bearings given. -/
def turnWaves (b1 b2 : ℝ) : List (ℤ × Wave ℝ) :=
  [(0, ⟨fin b1, fin 10, fin 8, fin 50, fin 1⟩), (4, ⟨fin b2, fin 10, fin 8, fin 50, fin 1⟩)]

def turnSources (b1 b2 : ℝ) : Sources ℝ where
  date _ := none
  pow15 x := x
  nc _ := .error .other
  lines _ _ _ _ _ := .error .other
  flow _ := .error .other
  waves _ := .ok (turnWaves b1 b2)
  sea _ := .error .other
  turn _ d := d
  shot _ := .error .other
  tide _ _ _ _ _ := .error .other

/-- What is loaded from it, on a shore that faces north. -/
theorem turn_load (b1 b2 : ℝ) : ∃ ws', waveSeries (synthSources (turnSources b1 b2) (fun _ => 0) id (fun _ => [])) "" (fun _ _ => .str "waves.csv") 0 = .ok ws' ∧
    waveCol ws' (·.EDir_h) = [(0, waveDir (fin b1) 0), (4, waveDir (fin b2) 0)] := ⟨_, rfl, rfl⟩

/-- The hypotheses hold of that file, and the records are apart. -/
example (b1 b2 : ℝ) : (∀ r ∈ turnWaves b1 b2, ∃ b, r.2.EDir_h = fin b) ∧ (turnWaves b1 b2).Pairwise (fun a b => a.1 < b.1) := by
  constructor
  · intro r hr
    simp only [turnWaves, List.mem_cons, List.not_mem_nil, or_false] at hr
    rcases hr with rfl | rfl
    · exact ⟨b1, rfl⟩
    · exact ⟨b2, rfl⟩
  · simp [turnWaves]

theorem turn_value {b : ℝ} {d : ℝ} (h1 : -Real.pi ≤ d) (h2 : d < Real.pi) (h : ∃ k : ℤ, d = b * (Real.pi / 180) - 0 + k * (2 * Real.pi)) :
    waveDir (fin b) 0 = fin d := by
  obtain ⟨d', h', g1, g2, g3⟩ := C60_direction b 0
  rw [h', C60_unique g1 g2 h1 h2 g3 h]

/-- **C154** is false: waves that travel out to sea, first to one side of the shore normal (bearing 170) and then to the other (bearing
190), come in from the sea in between: a quarter of the way the direction is that of bearing 85, and the waves reach the shore. -/
theorem C154_refuted : ∃ ws', waveSeries (synthSources (turnSources 170 190) (fun _ => 0) id (fun _ => [])) "" (fun _ _ => .str "waves.csv") 0 = .ok ws' ∧
    ∃ d1 d2 d : ℝ, waveCol ws' (·.EDir_h) = [(0, fin d1), (4, fin d2)] ∧ interpolateAt (waveCol ws' (·.EDir_h)) [1] = .ok [fin d] ∧
      Real.pi / 2 < |d1| ∧ Real.pi / 2 < |d2| ∧ |d| < Real.pi / 2 ∧ ¬ ShortWay d1 d2 (1 / 4) d := by
  have hp := Real.pi_pos
  obtain ⟨ws', h, hc⟩ := turn_load 170 190
  have v1 : waveDir (fin 170) 0 = fin (17 * Real.pi / 18) :=
    turn_value (by linarith) (by linarith) ⟨0, by push_cast; ring⟩
  have v2 : waveDir (fin 190) 0 = fin (-(17 * Real.pi / 18)) :=
    turn_value (by linarith) (by linarith) ⟨-1, by push_cast; ring⟩
  rw [v1, v2] at hc
  refine ⟨ws', h, 17 * Real.pi / 18, -(17 * Real.pi / 18), 17 * Real.pi / 36, hc, ?_, ?_, ?_, ?_, ?_⟩
  · have hinc : Increasing [((0 : ℤ), 17 * Real.pi / 18), (4, -(17 * Real.pi / 18))] := by simp [Increasing]
    obtain ⟨vs, hvs, hF⟩ := C52_linear hinc (req := [1]) (by simp) (by simp) (by
      intro u hu
      rw [List.mem_singleton] at hu
      subst hu
      exact ⟨⟨(0, 17 * Real.pi / 18), by simp, by norm_num⟩, (4, -(17 * Real.pi / 18)), by simp, by norm_num⟩)
    cases hF with
    | cons h1 h2 =>
      cases h2
      have : LinearAt [((0 : ℤ), 17 * Real.pi / 18), (4, -(17 * Real.pi / 18))] 1 (17 * Real.pi / 36) :=
        .inr ⟨0, 0, 4, _, _, rfl, rfl, by norm_num, by norm_num, by push_cast; ring⟩
      rw [linearAt_unique hinc h1 this] at hvs
      rw [hc]
      exact hvs
  · rw [abs_of_pos (by positivity)]; linarith
  · rw [abs_neg, abs_of_pos (by positivity)]; linarith
  · rw [abs_of_pos (by positivity)]; linarith
  · have e : 17 * Real.pi / 36 = 17 * Real.pi / 18 + 1 / 4 * (-(17 * Real.pi / 18) - 17 * Real.pi / 18) := by ring
    rw [e, short_iff (by linarith) (by linarith) (by linarith) (by linarith) (by norm_num) (by norm_num), abs_of_neg (by linarith)]
    linarith

end Verif.Props
