import Verif.Lemmas.ClosedEnd
import Verif.Lemmas.Core
import Verif.Props.CoreSample
import Verif.Props.Channel
import Verif.Spec.Side

set_option autoImplicit false
set_option linter.unusedSectionVars false

/-! # C200: a closed lagoon stays on its side of the river -/

namespace Verif.Props
open Verif Verif.Model Verif.Spec Fl

variable {K : Type} [Field K] [LinearOrder K] [IsStrictOrderedRing K] [FloorRing K]

/-- To the right if the inner end of the outlet is at or right of the river, to the left if it is left of it or not known. -/
theorem online_way {pp : PhysPars K} {a : ChanIn K} {out : ChanOut K} (h : assembleChannel pp a = .ok out) :
    ((fin 0 ≤? a.EndX0) = true → RunsRight out.online) ∧ ((fin 0 ≤? a.EndX0) = false → RunsLeft out.online) := by
  obtain ⟨i0, r0, _, _, _, hk, _⟩ := C26_contiguous pp a out h
  refine ⟨fun h0 k i j hi hj => ?_, fun h0 k i j hi hj => ?_⟩
  · have h1 := (hk k i hi).1 h0
    have h2 := (hk (k + 1) j hj).1 h0
    omega
  · have h1 := (hk k i hi).2 h0
    have h2 := (hk (k + 1) j hj).2 h0
    omega

/-- C200, the part that holds, for two passes: if the outlet is closed when the first one begins, or was closed in its channel, and no breach occurs, the lagoon is on the
same side of the river in both, provided that it was to the left in the first, or that the relic channel is still connected after it.
Missing: a lagoon to the right whose relic channel is cut off, refuted below. -/
theorem C200_partial {e : Env K} {s s1 s2 : CoreSt K} {p p' : PassOut K} (hp : pass e s = .ok (p, s1)) (hp' : pass e s1 = .ok (p', s2))
    (hc : p.chan.closed = true) (ho : p.chan.outlet = []) (hB : p.mor.Breach = false) (hk : (fin 0 ≤? s.EndX0) = false ∨ s1.EndX0 ≠ nan) :
    SameWay p.chan.online p'.chan.online := by
  obtain ⟨⟨_, _, hc1⟩, ha⟩ := pass_inv hp
  obtain ⟨⟨_, _, hc2⟩, _⟩ := pass_inv hp'
  have k : s1.EndX0 = s.EndX0 ∨ s1.EndX0 = nan := by
    rw [ha.endX0]
    exact closed_inner hc1.mor hc ho hB
  obtain ⟨a1, a2⟩ := online_way hc1.chan
  obtain ⟨b1, b2⟩ := online_way hc2.chan
  have e1 : (chanIn e s).EndX0 = s.EndX0 := rfl
  have e2 : (chanIn e s1).EndX0 = s1.EndX0 := rfl
  rw [e1] at a1 a2
  rw [e2] at b1 b2
  cases hs : (fin 0 ≤? s.EndX0) with
  | true =>
    rcases k with k | k
    · rw [k] at b1
      exact Or.inl ⟨a1 hs, b1 hs⟩
    · rcases hk with hk | hk
      · rw [hs] at hk; cases hk
      · exact absurd k hk
  | false =>
    refine Or.inr ⟨a2 hs, b2 ?_⟩
    rcases k with k | k
    · rw [k]; exact hs
    · rw [k]; rfl

/-- A lagoon that is closed when a pass begins has no outlet channel in it. -/
theorem closed_before {e : Env K} {s s1 : CoreSt K} {p : PassOut K} (hp : pass e s = .ok (p, s1)) (hC : s.Closed = true) :
    p.chan.closed = true ∧ p.chan.outlet = [] := by
  obtain ⟨⟨_, _, hc⟩, _⟩ := pass_inv hp
  obtain ⟨X0, r0, w, C1, t1, t, onRows, outRows, H⟩ := assemble_inv hc.chan
  rcases outlet_inv H.outlet with ⟨_, h2, h3⟩ | ⟨h1, _⟩
  · refine ⟨?_, h2⟩
    obtain ⟨_, rows1, _, _, _, _, _, hcut⟩ := cut_inv H.cut
    rcases hcut with ⟨_, hh, _⟩ | ⟨_, _, hh, _⟩
    · rw [hh, h3]
    · exact hh
  · have e1 : (chanIn e s).Closed = s.Closed := rfl
    rw [e1, hC] at h1
    cases h1

/-- What a run that begins with a closed lagoon and has no breach does to the inner end of the outlet. -/
theorem closed_run {e : Env K} {s0 s : CoreSt K} {tr : List (CoreSt K × PassOut K × CoreSt K)} (h : Run e s0 tr s) (h0 : s0.Closed = true)
    (hB : ∀ x ∈ tr, x.2.1.mor.Breach = false) : s.Closed = true ∧ (s.EndX0 = s0.EndX0 ∨ s.EndX0 = nan) := by
  induction h with
  | start => exact ⟨h0, Or.inl rfl⟩
  | @pass tr s s' p _ _ hp ih =>
    obtain ⟨i1, i2⟩ := ih (fun x hx => hB x (by simp [hx]))
    have hb : p.mor.Breach = false := hB (s, p, s') (by simp)
    obtain ⟨c1, c2⟩ := closed_before hp i1
    obtain ⟨⟨_, _, hc1⟩, ha⟩ := pass_inv hp
    refine ⟨by rw [ha.closed, hb, c1]; rfl, ?_⟩
    rcases closed_inner hc1.mor c1 c2 hb with k | k
    · have k' : p.mor.EndX0 = s.EndX0 := k
      rw [ha.endX0, k']; exact i2
    · rw [ha.endX0]; exact Or.inr k

/-- C200 for whole runs, to the left: as long as no breach occurs, a closed lagoon whose outlet was left of the river, or is not known, is computed to the left of the
river in every pass. -/
theorem C200_left_partial {e : Env K} {s0 s : CoreSt K} {tr : List (CoreSt K × PassOut K × CoreSt K)} (h : Run e s0 tr s) (h0 : s0.Closed = true)
    (hB : ∀ x ∈ tr, x.2.1.mor.Breach = false) (hx : (fin 0 ≤? s0.EndX0) = false) : ∀ x ∈ tr, RunsLeft x.2.1.chan.online := by
  induction h with
  | start => simp
  | @pass tr s s' p hr _ hp ih =>
    have hB' : ∀ x ∈ tr, x.2.1.mor.Breach = false := fun x hx => hB x (by simp [hx])
    intro x hm
    rcases List.mem_append.mp hm with hm | hm
    · exact ih hB' x hm
    · rw [List.mem_singleton] at hm
      subst hm
      obtain ⟨⟨_, _, hc⟩, _⟩ := pass_inv hp
      refine (online_way hc.chan).2 ?_
      show (fin 0 ≤? s.EndX0) = false
      rcases (closed_run hr h0 hB').2 with k | k
      · rw [k]; exact hx
      · rw [k]; rfl

/-- C200 for whole runs, to the right: as long as no breach occurs, a closed lagoon whose outlet was at or right of the river is computed to the right of the river in
every pass that begins with the relic channel still connected. -/
theorem C200_right_partial {e : Env K} {s0 s : CoreSt K} {tr : List (CoreSt K × PassOut K × CoreSt K)} (h : Run e s0 tr s) (h0 : s0.Closed = true)
    (hB : ∀ x ∈ tr, x.2.1.mor.Breach = false) (hx : (fin 0 ≤? s0.EndX0) = true) : ∀ x ∈ tr, x.1.EndX0 ≠ nan → RunsRight x.2.1.chan.online := by
  induction h with
  | start => simp
  | @pass tr s s' p hr _ hp ih =>
    have hB' : ∀ x ∈ tr, x.2.1.mor.Breach = false := fun x hx => hB x (by simp [hx])
    intro x hm hn
    rcases List.mem_append.mp hm with hm | hm
    · exact ih hB' x hm hn
    · rw [List.mem_singleton] at hm
      subst hm
      obtain ⟨⟨_, _, hc⟩, _⟩ := pass_inv hp
      refine (online_way hc.chan).1 ?_
      show (fin 0 ≤? s.EndX0) = true
      rcases (closed_run hr h0 hB').2 with k | k
      · rw [k]; exact hx
      · exact absurd k hn

/-! ## Witnesses -/

/-- The sample coast with a channel `w` m wide on the transect at `x`, where the outlet is. -/
def csLoad (x w : ℚ) (c : Bool) : LoadOut ℚ :=
  { coLoad with
    EndX0 := fin x, EndX1 := fin (x + 4), Closed := c
    rows := coLoad.rows.map (fun r => if r.x = x then { r with y1 := r.y0 - fin 40, y2 := r.y0 - fin 40 - fin w, z1 := fin 0, z2 := fin 4 } else { r with y1 := nan, y2 := nan }) }

/-- C200 is false of the code: an outlet 20 m right of the river whose channel has become narrower than MinOutletWidth is closed when the simulation begins.  In the first
pass the lagoon is computed from the river to the right, as far as it goes.  The relic channel is not connected, and so in the second pass, and from then on, the lagoon
is computed from the river to the left instead. -/
theorem C200_refuted : ∃ s0 s tr, initial coEnv (csLoad 20 (1/2) false) = .ok s0 ∧ Run coEnv s0 tr s ∧
    (∀ x ∈ tr, x.2.1.chan.closed = true ∧ x.2.1.chan.outlet = [] ∧ x.2.1.mor.Breach = false) ∧
    tr.map (fun x => x.2.1.chan.online) = [[4, 5, 6, 7, 8], [4, 3, 2, 1, 0], [4, 3, 2, 1, 0]] ∧ ¬ SameWay [4, 5, 6, 7, 8] [4, 3, 2, 1, 0] := by
  have h : okAnd (initial coEnv (csLoad 20 (1/2) false)) (fun s0 => okAnd (trace coEnv s0 3) (fun x => decide (
      (∀ y ∈ x.1, y.2.1.chan.closed = true ∧ y.2.1.chan.outlet = [] ∧ y.2.1.mor.Breach = false) ∧
      x.1.map (fun y => y.2.1.chan.online) = [[4, 5, 6, 7, 8], [4, 3, 2, 1, 0], [4, 3, 2, 1, 0]]))) = true := by decide +kernel
  obtain ⟨s0, h0, h⟩ := okAnd_iff.mp h
  obtain ⟨⟨tr, s⟩, h1, h⟩ := okAnd_iff.mp h
  obtain ⟨k1, k2⟩ := of_decide_eq_true h
  refine ⟨s0, s, tr, h0, (trace_run h1).1, k1, k2, ?_⟩
  rintro (⟨_, hr⟩ | ⟨hl, _⟩)
  · have := hr 0 4 3 rfl rfl
    omega
  · have := hl 0 4 5 rfl rfl
    omega

/-- Concrete case for `C200_partial` and `C200_right_partial`: with a channel 5 m wide the lagoon stays to the right of the river. -/
example : ∃ s0 s tr, initial coEnv (csLoad 20 5 true) = .ok s0 ∧ Run coEnv s0 tr s ∧ s0.Closed = true ∧ (fin 0 ≤? s0.EndX0) = true ∧
    (∀ x ∈ tr, x.2.1.mor.Breach = false ∧ x.2.1.chan.outlet = [] ∧ x.1.EndX0 ≠ nan) ∧ tr.map (fun x => x.2.1.chan.online) = [[4, 5, 6, 7, 8], [4, 5, 6, 7, 8], [4, 5, 6, 7, 8]] := by
  have h : okAnd (initial coEnv (csLoad 20 5 true)) (fun s0 => okAnd (trace coEnv s0 3) (fun x => decide (s0.Closed = true ∧ (fin 0 ≤? s0.EndX0) = true ∧
      (∀ y ∈ x.1, y.2.1.mor.Breach = false ∧ y.2.1.chan.outlet = [] ∧ y.1.EndX0 ≠ nan) ∧
      x.1.map (fun y => y.2.1.chan.online) = [[4, 5, 6, 7, 8], [4, 5, 6, 7, 8], [4, 5, 6, 7, 8]]))) = true := by decide +kernel
  obtain ⟨s0, h0, h⟩ := okAnd_iff.mp h
  obtain ⟨⟨tr, s⟩, h1, h⟩ := okAnd_iff.mp h
  obtain ⟨k1, k2, k3, k4⟩ := of_decide_eq_true h
  exact ⟨s0, s, tr, h0, (trace_run h1).1, k1, k2, k3, k4⟩

/-- Concrete case for `C200_left_partial`: an outlet left of the river; the lagoon stays to the left although the relic channel is cut off. -/
example : ∃ s0 s tr, initial coEnv (csLoad (-20) (1/2) true) = .ok s0 ∧ Run coEnv s0 tr s ∧ s0.Closed = true ∧ (fin 0 ≤? s0.EndX0) = false ∧
    (∀ x ∈ tr, x.2.1.mor.Breach = false) ∧ s.EndX0 = nan ∧ tr.map (fun x => x.2.1.chan.online) = [[4, 3, 2, 1, 0], [4, 3, 2, 1, 0]] := by
  have h : okAnd (initial coEnv (csLoad (-20) (1/2) true)) (fun s0 => okAnd (trace coEnv s0 2) (fun x => decide (s0.Closed = true ∧ (fin 0 ≤? s0.EndX0) = false ∧
      (∀ y ∈ x.1, y.2.1.mor.Breach = false) ∧ x.2.EndX0 = nan ∧ x.1.map (fun y => y.2.1.chan.online) = [[4, 3, 2, 1, 0], [4, 3, 2, 1, 0]]))) = true := by decide +kernel
  obtain ⟨s0, h0, h⟩ := okAnd_iff.mp h
  obtain ⟨⟨tr, s⟩, h1, h⟩ := okAnd_iff.mp h
  obtain ⟨k1, k2, k3, k4, k5⟩ := of_decide_eq_true h
  exact ⟨s0, s, tr, h0, (trace_run h1).1, k1, k2, k3, k4, k5⟩

end Verif.Props
