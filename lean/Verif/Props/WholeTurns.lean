import Verif.Props.Load
import Verif.Props.Loader
import Verif.Props.Turn

set_option autoImplicit false
set_option linter.unusedSectionVars false

/-! # C216: whole turns in the bearings of a wave file -/

namespace Verif.Spec
open Verif Verif.Model Fl

/-- Two bearings in degrees, the same or a whole number of turns apart.  (A missing or infinite one is only the same as itself.) -/
def SameBearing (a b : Fl ℝ) : Prop := a = b ∨ ∃ (x : ℝ) (k : ℤ), a = fin x ∧ b = fin (x + 360 * k)

/-- Two wave records that agree but for whole turns. -/
def SameRecord (r r' : ℤ × Wave ℝ) : Prop :=
  r.1 = r'.1 ∧ SameBearing r.2.EDir_h r'.2.EDir_h ∧ r.2.WavePower = r'.2.WavePower ∧ r.2.WavePeriod = r'.2.WavePeriod ∧
    r.2.Wlen_h = r'.2.Wlen_h ∧ r.2.Hsig_Offshore = r'.2.Hsig_Offshore

end Verif.Spec

namespace Verif.Props
open Verif Verif.Model Verif.Spec Fl

/-- **C216**: two bearings give the same direction relative to the shore normal exactly if they are a whole number of turns apart. -/
theorem C216_bearing (b b' norm : ℝ) : waveDir (fin b) norm = waveDir (fin b') norm ↔ ∃ k : ℤ, b' = b + 360 * k := by
  obtain ⟨d, hd, p1, q1, k, hk⟩ := C60_direction b norm
  obtain ⟨d', hd', p2, q2, k', hk'⟩ := C60_direction b' norm
  have hp := Real.pi_pos
  rw [hd, hd']
  constructor
  · intro h
    have e : d = d' := Fl.fin.inj h
    refine ⟨k - k', ?_⟩
    have e2 : (b' - (b + 360 * ((k - k' : ℤ) : ℝ))) * Real.pi = 0 := by
      push_cast
      have : b * (Real.pi / 180) - norm + k * (2 * Real.pi) = b' * (Real.pi / 180) - norm + k' * (2 * Real.pi) := by rw [← hk, ← hk', e]
      linarith
    rcases mul_eq_zero.mp e2 with h0 | h0
    · linarith
    · exact absurd h0 hp.ne'
  · rintro ⟨j, rfl⟩
    rw [C60_unique p1 q1 p2 q2 ⟨k, hk⟩ ⟨k' + j, by rw [hk']; push_cast; ring⟩]

theorem same_turn {a b : Fl ℝ} (h : SameBearing a b) (norm : ℝ) : waveDir a norm = waveDir b norm := by
  rcases h with rfl | ⟨x, k, rfl, rfl⟩
  · rfl
  · exact (C216_bearing _ _ _).mpr ⟨k, rfl⟩

/-- **C216**: `loadModel` gives the same model, or fails in the same way, from wave files that agree but for whole turns in the bearings of
any of their records. -/
theorem C216_load {w : Sources ℝ} {f f' : String → Except PyErr (List (ℤ × Wave ℝ))}
    (h : ∀ name, f name = f' name ∨ ∃ ws ws', f name = .ok ws ∧ f' name = .ok ws' ∧ List.Forall₂ SameRecord ws ws')
    (toNs : ℝ → ℤ) (mid : ℤ → ℤ) (draws : Val ℝ → List (ℝ × ℝ)) (dir stem : String) (v : Conf ℝ) :
    loadModel (synthSources { w with waves := f } toNs mid draws) dir stem v =
      loadModel (synthSources { w with waves := f' } toNs mid draws) dir stem v := by
  have key : ∀ norm, waveSeries (synthSources { w with waves := f } toNs mid draws) dir v norm =
      waveSeries (synthSources { w with waves := f' } toNs mid draws) dir v norm := by
    intro norm
    unfold waveSeries
    cases v.text "BoundaryConditions" "WaveConditions" with
    | error e => rfl
    | ok name =>
      change (liftPy (f (joinPath dir name)) >>= _) = (liftPy (f' (joinPath dir name)) >>= _)
      rcases h (joinPath dir name) with e | ⟨ws, ws', e1, e2, hf⟩
      · rw [e]; rfl
      · rw [e1, e2]
        change Except.ok (ws.map fun r => (r.1, { r.2 with EDir_h := waveDir r.2.EDir_h norm })) =
          Except.ok (ws'.map fun r => (r.1, { r.2 with EDir_h := waveDir r.2.EDir_h norm }))
        congr 1
        clear e1 e2
        induction hf with
        | nil => rfl
        | @cons r r' l l' hr _ ih =>
          obtain ⟨t, ⟨a1, a2, a3, a4, a5⟩⟩ := r
          obtain ⟨t', ⟨b1, b2, b3, b4, b5⟩⟩ := r'
          obtain ⟨g1, g2, g3, g4, g5, g6⟩ := hr
          simp only at g1 g2 g3 g4 g5 g6
          subst g1 g3 g4 g5 g6
          rw [List.map_cons, List.map_cons, ih, same_turn g2]
  unfold loadModel
  simp only [key]
  rfl

/-- Records with bearings 350 and 20 instead of -10 and 740 agree but for whole turns. -/
example : List.Forall₂ SameRecord (turnWaves 350 20) (turnWaves (-10) 740) := by
  unfold turnWaves
  refine .cons ⟨rfl, Or.inr ⟨350, -1, rfl, by norm_num⟩, rfl, rfl, rfl, rfl⟩ (.cons ⟨rfl, Or.inr ⟨20, 2, rfl, by norm_num⟩, rfl, rfl, rfl, rfl⟩ .nil)

/-- Both are loaded as 10 degrees to the one side and 20 degrees to the other. -/
example : waveDir (fin (-10)) 0 = fin (-(Real.pi / 18)) ∧ waveDir (fin 740) 0 = fin (Real.pi / 9) ∧ waveDir (fin 350) 0 = waveDir (fin (-10)) 0 ∧
    waveDir (fin 20) 0 = waveDir (fin 740) 0 := by
  have hp := Real.pi_pos
  exact ⟨turn_value (by linarith) (by linarith) ⟨0, by push_cast; ring⟩, turn_value (by linarith) (by linarith) ⟨-2, by push_cast; ring⟩,
    (C216_bearing _ _ _).mpr ⟨-1, by norm_num⟩, (C216_bearing _ _ _).mpr ⟨2, by norm_num⟩⟩

/-- A quarter turn is not lost. -/
example : waveDir (fin 350) 0 ≠ waveDir (fin 80) 0 := by
  intro h
  obtain ⟨k, hk⟩ := (C216_bearing _ _ _).mp h
  have h1 : (k : ℝ) < 0 := by linarith
  have h2 : (-1 : ℝ) < k := by linarith
  have h3 : k < 0 := by exact_mod_cast h1
  have h4 : -1 < k := by exact_mod_cast h2
  omega

end Verif.Props
