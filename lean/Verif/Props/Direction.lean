import Verif.Props.Smooth
import Verif.Props.Angle

set_option autoImplicit false
set_option linter.unusedSectionVars false

/-! # C212: what the longshore transport tells about the direction of the waves -/

namespace Verif.Props
open Verif Verif.Model Verif.Spec Fl Real

/-- C212 as stated: waves from two directions give the same longshore transport along every coast exactly if the directions are the same up to whole turns. -/
def C212_stated : Prop := ∀ (w : Waves) (P : PhysPars ℝ), w.Valid → Describes w P → (∀ a, w.Refracts a) → ∀ d d' : ℝ,
  (∀ (ys : List ℝ) (dx : ℝ), 0 < dx → lst ys dx (fromDir w d) P = lst ys dx (fromDir w d') P) ↔ ∃ k : ℤ, d' = d + k * (2 * π)

theorem seg_half (Dx WP T L : Fl ℝ) (P : PhysPars ℝ) (d : ℝ) (ya yb : Fl ℝ) : lstSeg Dx WP T L (fin (d + π)) P ya yb = lstSeg Dx WP T L (fin d) P ya yb := by
  have key : ∀ x : Fl ℝ, npSin (fin (d + π) - npArctan x) = -npSin (fin d - npArctan x) ∧ npCos (fin (d + π) - npArctan x) = -npCos (fin d - npArctan x) := by
    intro x
    have h : ∀ b : ℝ, npSin (fin (d + π) - fin b) = -npSin (fin d - fin b) ∧ npCos (fin (d + π) - fin b) = -npCos (fin d - fin b) := by
      intro b
      have e : d + π - b = d - b + π := by ring
      simp only [sub_fin, npSin_fin, npCos_fin, neg_fin, e, sin_add_pi, cos_add_pi, and_self]
    cases x with
    | nan => exact ⟨rfl, rfl⟩
    | pinf => exact h _
    | ninf => exact h _
    | fin b => exact h _
  unfold lstSeg localEDir
  simp only [(key _).1, (key _).2, Fl_neg_mul, Fl_mul_neg, npArcsin_neg, npSin_neg, Fl_neg_neg]

/-- C212, the part that holds, first half: directions half a turn apart, and so directions any number of half turns apart, give the same transport along every coast, whatever the waves and the parameters. -/
theorem C212_partial_same (ys : List (Fl ℝ)) (Dx WP T L : Fl ℝ) (P : PhysPars ℝ) (d : ℝ) (k : ℤ) :
    longShoreTransport ys Dx WP T L (fin (d + k * π)) P = longShoreTransport ys Dx WP T L (fin d) P := by
  have step : ∀ d : ℝ, longShoreTransport ys Dx WP T L (fin (d + π)) P = longShoreTransport ys Dx WP T L (fin d) P := by
    intro d
    rw [longShoreTransport_eq, longShoreTransport_eq]
    exact List.map_congr_left (fun p _ => seg_half Dx WP T L P d p.1 p.2)
  induction k using Int.induction_on with
  | zero => simp
  | succ n ih =>
    rw [← ih, ← step (d + ((n : ℤ) : ℝ) * π)]
    congr 2
    push_cast
    ring
  | pred n ih =>
    rw [← ih, ← step (d + ((-(n : ℤ) - 1 : ℤ) : ℝ) * π)]
    congr 2
    push_cast
    ring

/-- C212, the part that holds, second half: the transport along one bent coast, a flat segment next to one at 45 degrees, tells the direction of the waves up to half turns. -/
theorem C212_partial_tells (w : Waves) (P : PhysPars ℝ) (hv : w.Valid) (hP : Describes w P) (hr : ∀ a, w.Refracts a) (dx : ℝ) (hdx : 0 < dx) (y d d' : ℝ)
    (h : lst [y, y, y - dx] dx (fromDir w d) P = lst [y, y, y - dx] dx (fromDir w d') P) : ∃ k : ℤ, d' = d + k * π := by
  have get := fun (e : ℝ) (i : ℕ) (ya yb : ℝ) ha hb => lst_seg (fromDir w e) hv P hP [y, y, y - dx] dx hdx i ya yb ha hb (hr _)
  have a1 := get d 0 y y rfl rfl
  have a2 := get d 1 y (y - dx) rfl rfl
  have b1 := get d' 0 y y rfl rfl
  have b2 := get d' 1 y (y - dx) rfl rfl
  rw [h] at a1 a2
  have e1 := Fl.fin.inj (Option.some.inj (a1.symm.trans b1))
  have e2 := Fl.fin.inj (Option.some.inj (a2.symm.trans b2))
  have hd : 0 < w.drift := drift_pos w hv
  have q0 : (y - y) / dx = 0 := by simp
  have q1 : (y - (y - dx)) / dx = 1 := by rw [sub_sub_cancel]; exact div_self hdx.ne'
  have s : ∀ e ya yb, segRate (fromDir w e) dx ya yb = -(w.drift * sin (2 * (e - arctan ((ya - yb) / dx))) / 2) := fun _ _ _ => rfl
  simp only [s, q0, q1, arctan_zero, arctan_one, sub_zero] at e1 e2
  have f1 : sin (2 * d) = sin (2 * d') := by
    refine mul_left_cancel₀ hd.ne' ?_
    linarith
  have f2 : cos (2 * d) = cos (2 * d') := by
    have g : ∀ e : ℝ, sin (2 * (e - π / 4)) = -cos (2 * e) := by
      intro e
      rw [show 2 * (e - π / 4) = 2 * e - π / 2 by ring, sin_sub_pi_div_two]
    rw [g, g] at e2
    refine mul_left_cancel₀ hd.ne' ?_
    linarith
  have f3 : cos (2 * d' - 2 * d) = 1 := by
    rw [cos_sub, f1, f2]
    nlinarith [sin_sq_add_cos_sq (2 * d')]
  obtain ⟨k, hk⟩ := (cos_eq_one_iff _).mp f3
  exact ⟨k, by linarith⟩

/-- C212, the part that holds: waves from two directions give the same transport along every coast exactly if the directions are the same up to half turns. -/
theorem C212_partial (w : Waves) (P : PhysPars ℝ) (hv : w.Valid) (hP : Describes w P) (hr : ∀ a, w.Refracts a) (d d' : ℝ) :
    (∀ (ys : List ℝ) (dx : ℝ), 0 < dx → lst ys dx (fromDir w d) P = lst ys dx (fromDir w d') P) ↔ ∃ k : ℤ, d' = d + k * π := by
  constructor
  · intro h
    exact C212_partial_tells w P hv hP hr 1 one_pos 0 d d' (h _ 1 one_pos)
  · rintro ⟨k, rfl⟩ ys dx -
    exact (C212_partial_same (ys.map fin) (fin dx) (fin w.power) (fin w.period) (fin w.length) P d k).symm

/-- C212 is false: waves that travel from the land to the sea act as waves that travel the opposite way (the code sets the power of the former to zero, but in an array that it does not use; see C07). -/
theorem C212_refuted : ¬ C212_stated := by
  intro h
  obtain ⟨k, hk⟩ := (h (demoWaves 0) demoPars (demo_valid 0) (demo_describes 0) (demo_refracts 0) (π/6) (π/6 + π)).mp
    ((C212_partial (demoWaves 0) demoPars (demo_valid 0) (demo_describes 0) (demo_refracts 0) (π/6) (π/6 + π)).mpr ⟨1, by simp⟩)
  have h1 : π * (1 - 2 * k) = 0 := by linarith
  rcases mul_eq_zero.mp h1 with h2 | h2
  · exact pi_ne_zero h2
  · have h3 : (1 : ℤ) - 2 * k = 0 := by exact_mod_cast h2
    omega

/-- Concrete case: waves 30 degrees from the shore-normal, from the sea and from the land, move the same sediment, and some, along a straight coast; waves at 60 degrees from the sea do not act the same on every coast. -/
example : (∃ q : ℝ, q ≠ 0 ∧ lst [0, 0] 1 (fromDir (demoWaves 0) (π/6)) demoPars = [fin q] ∧ lst [0, 0] 1 (fromDir (demoWaves 0) (π/6 + π)) demoPars = [fin q]) ∧
    ¬ ∀ (ys : List ℝ) (dx : ℝ), 0 < dx → lst ys dx (fromDir (demoWaves 0) (π/6)) demoPars = lst ys dx (fromDir (demoWaves 0) (π/3)) demoPars := by
  constructor
  · have g := lst_seg (fromDir (demoWaves 0) (π/6)) (demo_valid 0) demoPars (demo_describes 0) [0, 0] 1 one_pos 0 0 0 rfl rfl (demo_refracts 0 _)
    have e : lst [0, 0] 1 (fromDir (demoWaves 0) (π/6 + π)) demoPars = lst [0, 0] 1 (fromDir (demoWaves 0) (π/6)) demoPars :=
      ((C212_partial (demoWaves 0) demoPars (demo_valid 0) (demo_describes 0) (demo_refracts 0) (π/6) (π/6 + π)).mpr ⟨1, by simp⟩ _ _ one_pos).symm
    have hl : (lst [0, 0] 1 (fromDir (demoWaves 0) (π/6)) demoPars).length = 1 := by
      rw [lst, longShoreTransport_eq]; rfl
    rw [e]
    generalize lst [0, 0] 1 (fromDir (demoWaves 0) (π/6)) demoPars = L at *
    match L, hl with
    | [x], _ =>
      simp only [List.getElem?_cons_zero, Option.some.injEq] at g
      subst g
      refine ⟨_, ?_, rfl, rfl⟩
      have hd : 0 < (fromDir (demoWaves 0) (π/6)).drift := drift_pos _ (demo_valid 0)
      have hs : 0 < sin (2 * waveAngle 1 (fromDir (demoWaves 0) (π/6)).dir 0 0) := by
        simp only [waveAngle, fromDir, sub_self, zero_div, arctan_zero, sub_zero]
        exact sin_pos_of_pos_of_lt_pi (by have := pi_pos; linarith) (by have := pi_pos; linarith)
      have := mul_pos hd hs
      unfold segRate
      intro h0
      linarith
  · intro h
    obtain ⟨k, hk⟩ := (C212_partial (demoWaves 0) demoPars (demo_valid 0) (demo_describes 0) (demo_refracts 0) (π/6) (π/3)).mp h
    have h1 : π * (1 - 6 * k) = 0 := by linarith
    rcases mul_eq_zero.mp h1 with h2 | h2
    · exact pi_ne_zero h2
    · have h3 : (1 : ℤ) - 6 * k = 0 := by exact_mod_cast h2
      omega

end Verif.Props
