import Verif.Model.Core
import Verif.Props.MorSample

set_option autoImplicit false

/-! # A concrete run of the loop, with simple stand-ins for the functions that need real arithmetic -/

namespace Verif.Props
open Verif Verif.Model Fl

/-- Unsteady hydraulics that fail, steady hydraulics with unit depth and velocity, no sediment transport. -/
def coParts : Parts ℚ where
  unsteady _ _ := .error .other
  steady c _ _ := .ok (c.elev.map (fun _ => fin 1), c.elev.map (fun _ => fin 1))
  bedload B _ _ := .ok (B.tail.map (fun _ => fin 0))
  lst y0 _ := y0.tail.map (fun _ => fin 0)
  runup _ := fin 0
  overtop _ _ rows := .ok (rows.map (fun _ => fin 0), rows.map (fun _ => false))

def coWave : Wave ℚ := ⟨fin 0, fin 0, fin 0, fin 0, fin 0⟩

/-- One second in nanoseconds. -/
def sec : ℤ := 1000000000

/-- Start 0 s, end 150 s, hydraulic step 10 s, morphological step 30 s to 120 s; output every 60 s, time series every 30 s. -/
def coEnv : Env ℚ :=
  { pp := moPP, parts := coParts, Dx := 10, MaxMorChange := 1/4
    tp := ⟨0, 150 * sec, 10 * sec, 30 * sec, 120 * sec⟩
    oo := ⟨60 * sec, 30 * sec, 60 * sec, 0⟩
    flow := [(0, fin 50), (1000 * sec, fin 50)], sea := [(0, fin 0), (1000 * sec, fin 0)]
    waves := [(0, coWave), (1000 * sec, coWave)], junk1 := fun _ _ => true, junk2 := fun _ _ => true }

def coLoad : LoadOut ℚ :=
  { rows := brIn.rows, RiverElev := [fin 1, fin 0], EndX0 := fin 15, EndX1 := fin 24, EndWidth := fin 6, EndElev := fin (-1)
    RiverWL := [fin 2, fin 1], RiverVel := [fin 0, fin 0], LagoonWL := List.replicate 9 (fin 1), LagoonVel := List.replicate 9 (fin 0)
    OutletDep := List.replicate 9 (fin 1), OutletVel := List.replicate 9 (fin 0), EndDep := [fin 1, fin 1], EndVel := [fin 0, fin 0], Closed := false }

/-- The state after `n` passes. -/
def after (e : Env ℚ) (ld : LoadOut ℚ) : ℕ → Except PyErr (CoreSt ℚ)
  | 0 => initial e ld
  | n + 1 => do
    let s ← after e ld n
    let (_, s') ← pass e s
    return s'

/-- The states and passes of a run with `n` passes, all of them made while the loop condition holds. -/
def trace (e : Env ℚ) (s : CoreSt ℚ) : ℕ → Except PyErr (List (CoreSt ℚ × PassOut ℚ × CoreSt ℚ) × CoreSt ℚ)
  | 0 => .ok ([], s)
  | n + 1 => do
    let (tr, s') ← trace e s n
    if s'.time ≤ e.tp.EndTime then
      let (p, s'') ← pass e s'
      return (tr ++ [(s', p, s'')], s'')
    else .error .other

theorem trace_run {e : Env ℚ} {s0 : CoreSt ℚ} : ∀ {n : ℕ} {tr : List (CoreSt ℚ × PassOut ℚ × CoreSt ℚ)} {s : CoreSt ℚ},
    trace e s0 n = .ok (tr, s) → Run e s0 tr s ∧ tr.length = n := by
  intro n
  induction n with
  | zero => intro tr s h; cases h; exact ⟨.start, rfl⟩
  | succ n ih =>
    intro tr s h
    unfold trace at h
    obtain ⟨⟨tr', s'⟩, h1, h2⟩ := bind_ok.mp h
    simp only at h2
    split at h2
    · next hle =>
      obtain ⟨⟨p, s''⟩, h3, h4⟩ := bind_ok.mp h2
      simp only [pure_ok, Prod.mk.injEq] at h4
      obtain ⟨rfl, rfl⟩ := h4
      obtain ⟨r, hl⟩ := ih h1
      exact ⟨.pass r hle h3, by simp [hl]⟩
    · cases h2

end Verif.Props
