import Verif.Props.Runs
import Verif.Props.Series
import Verif.Spec.Redundant

set_option autoImplicit false
set_option linter.unusedSectionVars false

/-! # C153: records that add nothing -/

namespace Verif.Props
open Verif Verif.Model Verif.Spec Fl

variable {K : Type} [Field K] [LinearOrder K] [IsStrictOrderedRing K]

/-- The only column of a series of numbers. -/
abbrev one : Unit → K → K := fun _ x => x

theorem add_increasing {l1 l2 : List (ℤ × K)} {a c b : ℤ × K} (h : Increasing (l1 ++ a :: b :: l2)) (h1 : a.1 < c.1) (h2 : c.1 < b.1) :
    Increasing (l1 ++ a :: c :: b :: l2) := by
  unfold Increasing at h ⊢
  simp only [List.pairwise_append, List.pairwise_cons, List.mem_cons] at h ⊢
  obtain ⟨p1, ⟨p2, p3, p4⟩, p5⟩ := h
  refine ⟨p1, ⟨?_, ?_, p3, p4⟩, ?_⟩
  · rintro x (rfl | rfl | hx)
    · exact h1
    · exact h1.trans h2
    · exact p2 x (.inr hx)
  · rintro x (rfl | hx)
    · exact h2
    · exact h2.trans (p3 x hx)
  · rintro x hx y (rfl | rfl | rfl | hy)
    · exact p5 x hx _ (.inl rfl)
    · exact (p5 x hx _ (.inl rfl)).trans h1
    · exact p5 x hx _ (.inr (.inl rfl))
    · exact p5 x hx y (.inr (.inr hy))

theorem add_inside {l1 l2 : List (ℤ × K)} {a c b : ℤ × K} (h1 : a.1 < c.1) (h2 : c.1 < b.1) (t : ℤ) :
    Inside (l1 ++ a :: c :: b :: l2) t ↔ Inside (l1 ++ a :: b :: l2) t := by
  unfold Inside
  simp only [List.mem_append, List.mem_cons]
  constructor
  · rintro ⟨⟨x, hx, e1⟩, y, hy, e2⟩
    constructor
    · rcases hx with hx | rfl | rfl | hx
      · exact ⟨x, .inl hx, e1⟩
      · exact ⟨x, .inr (.inl rfl), e1⟩
      · exact ⟨a, .inr (.inl rfl), h1.le.trans e1⟩
      · exact ⟨x, .inr (.inr hx), e1⟩
    · rcases hy with hy | rfl | rfl | hy
      · exact ⟨y, .inl hy, e2⟩
      · exact ⟨y, .inr (.inl rfl), e2⟩
      · exact ⟨b, .inr (.inr (.inl rfl)), e2.trans h2.le⟩
      · exact ⟨y, .inr (.inr hy), e2⟩
  · rintro ⟨⟨x, hx, e1⟩, y, hy, e2⟩
    have key : ∀ z : ℤ × K, (z ∈ l1 ∨ z = a ∨ z = b ∨ z ∈ l2) → z ∈ l1 ∨ z = a ∨ z = c ∨ z = b ∨ z ∈ l2 := by
      rintro z (h | h | h)
      · exact .inl h
      · exact .inr (.inl h)
      · exact .inr (.inr (.inr h))
    exact ⟨⟨x, key x hx, e1⟩, y, key y hy, e2⟩

/-- A value on the line through the records stays on it. -/
theorem add_linear {l1 l2 : List (ℤ × K)} {a c b : ℤ × K} (hc : Straight one a c b) {t : ℤ} {v : K}
    (h : LinearAt (l1 ++ a :: b :: l2) t v) : LinearAt (l1 ++ a :: c :: b :: l2) t v := by
  obtain ⟨h1, h2, hl⟩ := hc
  have hl : (c.2 - a.2) * ((b.1 : K) - a.1) = (b.2 - a.2) * ((c.1 : K) - a.1) := hl ()
  rcases h with h | ⟨i, t1, t2, v1, v2, g1, g2, k1, k2, e⟩
  · left
    simp only [List.mem_append, List.mem_cons] at h ⊢
    rcases h with h | h | h
    · exact .inl h
    · exact .inr (.inl h)
    · exact .inr (.inr (.inr h))
  · rcases Nat.lt_trichotomy i l1.length with hi | hi | hi
    · refine .inr ⟨i, t1, t2, v1, v2, ?_, ?_, k1, k2, e⟩
      · rw [List.getElem?_append_left hi] at g1 ⊢; exact g1
      · rcases Nat.lt_or_ge (i + 1) l1.length with hj | hj
        · rw [List.getElem?_append_left hj] at g2 ⊢; exact g2
        · have : i + 1 - l1.length = 0 := by omega
          rw [List.getElem?_append_right hj, this] at g2 ⊢; exact g2
    · subst hi
      rw [List.getElem?_append_right le_rfl, Nat.sub_self] at g1
      rw [List.getElem?_append_right (by omega), Nat.add_sub_cancel_left] at g2
      simp only [List.getElem?_cons_zero, List.getElem?_cons_succ, Option.some.injEq] at g1 g2
      subst g1 g2
      obtain ⟨tc, vc⟩ := c
      dsimp only at h1 h2 hl
      have q1 : (t1 : K) < tc := by exact_mod_cast h1
      have q2 : (tc : K) < t2 := by exact_mod_cast h2
      have hne : (t2 : K) - t1 ≠ 0 := by intro h; linarith
      have g0 : ∀ (k : ℕ) x, ((t1, v1) :: (tc, vc) :: (t2, v2) :: l2)[k]? = some x →
          (l1 ++ (t1, v1) :: (tc, vc) :: (t2, v2) :: l2)[l1.length + k]? = some x := by
        intro k x hx
        rw [List.getElem?_append_right (by omega), Nat.add_sub_cancel_left]
        exact hx
      rcases lt_trichotomy t tc with ht | ht | ht
      · refine .inr ⟨l1.length, t1, tc, v1, vc, g0 0 _ rfl, g0 1 _ rfl, k1, ht, ?_⟩
        apply mul_right_cancel₀ hne
        linear_combination ((tc : K) - t1) * e - ((t : K) - t1) * hl
      · subst ht
        have : v = vc := by
          have := mul_right_cancel₀ hne (e.trans hl.symm)
          linarith
        subst this
        exact .inl (by simp)
      · refine .inr ⟨l1.length + 1, tc, t2, vc, v2, g0 1 _ rfl, g0 2 _ rfl, ht, k2, ?_⟩
        apply mul_right_cancel₀ hne
        linear_combination ((t2 : K) - tc) * e - ((t2 : K) - t) * hl
    · refine .inr ⟨i + 1, t1, t2, v1, v2, ?_, ?_, k1, k2, e⟩
      · obtain ⟨k, rfl⟩ := Nat.exists_eq_add_of_lt hi
        rw [List.getElem?_append_right (by omega), show l1.length + k + 1 - l1.length = k + 1 by omega] at g1
        rw [List.getElem?_append_right (by omega), show l1.length + k + 1 + 1 - l1.length = k + 2 by omega]
        exact g1
      · obtain ⟨k, rfl⟩ := Nat.exists_eq_add_of_lt hi
        rw [List.getElem?_append_right (by omega), show l1.length + k + 1 + 1 - l1.length = k + 2 by omega] at g2
        rw [List.getElem?_append_right (by omega), show l1.length + k + 1 + 1 + 1 - l1.length = k + 3 by omega]
        exact g2

theorem refined_line {ts ts' : List (ℤ × K)} (hs : Increasing ts) (h : Refined one ts ts') :
    Increasing ts' ∧ (∀ t, Inside ts' t ↔ Inside ts t) ∧ ∀ t v, LinearAt ts t v → LinearAt ts' t v := by
  induction h with
  | same => exact ⟨hs, fun _ => Iff.rfl, fun _ _ h => h⟩
  | add _ hc ih =>
    obtain ⟨i1, i2, i3⟩ := ih
    exact ⟨add_increasing i1 hc.1 hc.2.1, fun t => (add_inside hc.1 hc.2.1 t).trans (i2 t), fun t v h => add_linear hc (i3 t v h)⟩

/-- **C153** (series): records added on the straight lines between the others change no answer of `interpolate_at`, nor the error that it
raises, for any request in order of time. -/
theorem C153_series {ts ts' : List (ℤ × K)} (hs : Increasing ts) (h : Refined one ts ts') {req : List ℤ} (hr : req.Pairwise (· ≤ ·)) :
    interpolateAt (finSeries ts') req = interpolateAt (finSeries ts) req := by
  obtain ⟨hs', hin, hl⟩ := refined_line hs h
  by_cases hne : req = []
  · subst hne; rfl
  by_cases hi : ∀ t ∈ req, Inside ts t
  · obtain ⟨vs, h1, f1⟩ := interpolate_linear hs hne hr hi
    obtain ⟨ws, h2, f2⟩ := interpolate_linear hs' hne hr (fun t ht => (hin t).mpr (hi t ht))
    have : ws = vs := by
      clear h1 h2 hi hr hne
      induction f1 generalizing ws with
      | nil => cases f2; rfl
      | cons ha _ ih =>
        cases f2 with
        | cons hb hf => rw [linearAt_unique hs' (hl _ _ ha) hb, ih _ hf]
    rw [h1, h2, this]
  · push Not at hi
    obtain ⟨t, ht, hn⟩ := hi
    have out : ∀ us : List (ℤ × K), ¬ Inside us t → interpolateAt (finSeries us) req = .error .index := by
      intro us hu
      refine C53_outside _ hr (.inr ?_)
      by_cases g : ∃ a ∈ us, a.1 ≤ t
      · refine .inr ⟨t, ht, ?_⟩
        intro a ha
        obtain ⟨v, hv, _⟩ := mem_finSeries.mp ha
        by_contra hc
        exact hu ⟨g, _, hv, not_lt.mp hc⟩
      · refine .inl ⟨t, ht, ?_⟩
        intro a ha
        obtain ⟨v, hv, _⟩ := mem_finSeries.mp ha
        by_contra hc
        exact g ⟨_, hv, not_lt.mp hc⟩
    rw [out ts hn, out ts' (fun h => hn ((hin t).mp h))]

/-! ## Simulations -/

/-- A wave record made of five numbers. -/
def wave5 (f : Fin 5 → K) : Wave K :=
  { EDir_h := fin (f 0), WavePower := fin (f 1), WavePeriod := fin (f 2), Wlen_h := fin (f 3), Hsig_Offshore := fin (f 4) }

/-- A wave series from its numbers. -/
def waves5 (ws : List (ℤ × (Fin 5 → K))) : List (ℤ × Wave K) := ws.map fun r => (r.1, wave5 r.2)

/-- The five columns. -/
abbrev five : Fin 5 → (Fin 5 → K) → K := fun i f => f i

theorem refined_col {ws ws' : List (ℤ × (Fin 5 → K))} (h : Refined five ws ws') (i : Fin 5) :
    Refined one (ws.map fun r => (r.1, r.2 i)) (ws'.map fun r => (r.1, r.2 i)) := by
  induction h with
  | same => exact .same
  | add _ hc ih =>
    simp only [List.map_append, List.map_cons] at ih ⊢
    exact .add ih ⟨hc.1, hc.2.1, fun _ => hc.2.2 i⟩

theorem waves_refined {ws ws' : List (ℤ × (Fin 5 → K))} (hs : ws.Pairwise (fun a b => a.1 < b.1)) (h : Refined five ws ws') (t : ℤ) :
    wavesAt (waves5 ws') t = wavesAt (waves5 ws) t := by
  have key : ∀ i : Fin 5, interpolateAt (finSeries (ws'.map fun r => (r.1, r.2 i))) [t] = interpolateAt (finSeries (ws.map fun r => (r.1, r.2 i))) [t] :=
    fun i => C153_series (ts := ws.map fun r => (r.1, r.2 i)) (List.pairwise_map.mpr hs) (refined_col h i) (by simp)
  have e : ∀ (us : List (ℤ × (Fin 5 → K))) (i : Fin 5) (g : Wave K → Fl K), (∀ f, g (wave5 f) = fin (f i)) →
      waveCol (waves5 us) g = finSeries (us.map fun r => (r.1, r.2 i)) := by
    intro us i g hg
    unfold waveCol waves5 finSeries
    rw [List.map_map, List.map_map]
    exact List.map_congr_left (fun r _ => by simp only [Function.comp, hg])
  unfold wavesAt
  rw [e ws' 0 (·.EDir_h) (fun _ => rfl), e ws' 1 (·.WavePower) (fun _ => rfl), e ws' 2 (·.WavePeriod) (fun _ => rfl),
    e ws' 3 (·.Wlen_h) (fun _ => rfl), e ws' 4 (·.Hsig_Offshore) (fun _ => rfl),
    e ws 0 (·.EDir_h) (fun _ => rfl), e ws 1 (·.WavePower) (fun _ => rfl), e ws 2 (·.WavePeriod) (fun _ => rfl),
    e ws 3 (·.Wlen_h) (fun _ => rfl), e ws 4 (·.Hsig_Offshore) (fun _ => rfl)]
  simp only [key]

theorem hydTimes_sorted {t dt hyd : ℤ} {w : List ℤ} (hp : 0 < hyd) (h : hydTimes t dt hyd = .ok w) : w.Pairwise (· ≤ ·) := by
  unfold hydTimes at h
  rw [if_neg hp.ne'] at h
  cases h
  rw [List.pairwise_map]
  refine List.pairwise_lt_range.imp ?_
  intro a b hab
  have : ((a : ℤ) + 1) * hyd ≤ ((b : ℤ) + 1) * hyd := mul_le_mul_of_nonneg_right (by omega) hp.le
  omega

variable [FloorRing K]

/-- **C153** (simulations): the initial state, every pass and so every run, with all the records that it writes, are the same when
records are added to the series of flow, sea level and waves, each on the straight line between its neighbours.  That includes the
errors: a run that fails in one case fails in the other. -/
theorem C153_run (e : Env K) (hp : 0 < e.tp.HydDt) {fl fl' se se' : List (ℤ × K)} {ws ws' : List (ℤ × (Fin 5 → K))}
    (h1 : Increasing fl) (h2 : Increasing se) (h3 : ws.Pairwise (fun a b => a.1 < b.1))
    (r1 : Refined one fl fl') (r2 : Refined one se se') (r3 : Refined five ws ws') :
    (∀ ld, initial (withForcing e (finSeries fl') (finSeries se') (waves5 ws')) ld =
      initial (withForcing e (finSeries fl) (finSeries se) (waves5 ws)) ld) ∧
    (∀ s, pass (withForcing e (finSeries fl') (finSeries se') (waves5 ws')) s =
      pass (withForcing e (finSeries fl) (finSeries se) (waves5 ws)) s) ∧
    (∀ s0 tr s, Run (withForcing e (finSeries fl') (finSeries se') (waves5 ws')) s0 tr s ↔
      Run (withForcing e (finSeries fl) (finSeries se) (waves5 ws)) s0 tr s) := by
  have hw := waves_refined h3 r3
  have hi : ∀ ld, initial (withForcing e (finSeries fl') (finSeries se') (waves5 ws')) ld =
      initial (withForcing e (finSeries fl) (finSeries se) (waves5 ws)) ld := by
    intro ld
    unfold initial
    simp only [withForcing]
    rw [C153_series h1 r1 (by simp), C153_series h2 r2 (by simp), hw]
  have hpass : ∀ s, pass (withForcing e (finSeries fl') (finSeries se') (waves5 ws')) s =
      pass (withForcing e (finSeries fl) (finSeries se) (waves5 ws)) s := by
    intro s
    have hc : compute (withForcing e (finSeries fl') (finSeries se') (waves5 ws')) s =
        compute (withForcing e (finSeries fl) (finSeries se) (waves5 ws)) s := by
      have oe : ∀ {A B : Type} (a : PyErr) (g : A → Except PyErr B), ((Except.error a : Except PyErr A) >>= g) = .error a := fun _ _ => rfl
      have ob : ∀ {A B : Type} (a : A) (g : A → Except PyErr B), (Except.ok a >>= g) = g a := fun _ _ => rfl
      have hh : ∀ f s w c x y, hydraulics (withForcing e f s w) c x y = hydraulics e c x y := fun _ _ _ _ _ _ => rfl
      have hm : ∀ f g w c dep hyd bed L C o, morIn (withForcing e f g w) s c dep hyd bed L C o = morIn e s c dep hyd bed L C o :=
        fun _ _ _ _ _ _ _ _ _ _ => rfl
      have hc : ∀ f g w, chanIn (withForcing e f g w) s = chanIn e s := fun _ _ _ => rfl
      unfold compute
      simp only [hh, hm, hc]
      simp only [withForcing, hw]
      cases hy : hydTimes s.time s.dt e.tp.HydDt with
      | error err => simp only [oe]
      | ok win =>
        have hsort := hydTimes_sorted hp hy
        simp only [ob, C153_series h1 r1 hsort, C153_series h2 r2 hsort]
    unfold Verif.Model.pass
    rw [hc]
    rfl
  refine ⟨hi, hpass, ?_⟩
  intro s0 tr s
  constructor
  · intro h
    induction h with
    | start => exact .start
    | pass _ ht hp ih => exact .pass ih ht (by rw [← hpass]; exact hp)
  · intro h
    induction h with
    | start => exact .start
    | pass _ ht hp ih => exact .pass ih ht (by rw [hpass]; exact hp)

/-- A flood that rises from 50 to 90 m³/s in 1000 s, with two added records, a falling sea with one, and waves that turn and grow with
one; the simulation of two passes is the same with and without them. -/
example :
    let fl : List (ℤ × ℚ) := [(0, 50), (1000 * sec, 90), (2000 * sec, 60)]
    let fl' : List (ℤ × ℚ) := [(0, 50), (200 * sec, 58), (400 * sec, 66), (1000 * sec, 90), (2000 * sec, 60)]
    let se : List (ℤ × ℚ) := [(0, 1), (1000 * sec, 0)]
    let se' : List (ℤ × ℚ) := [(0, 1), (250 * sec, 3/4), (1000 * sec, 0)]
    let ws : List (ℤ × (Fin 5 → ℚ)) := [(0, ![0, 10, 8, 50, 1]), (1000 * sec, ![1, 20, 10, 60, 2])]
    let ws' : List (ℤ × (Fin 5 → ℚ)) := [(0, ![0, 10, 8, 50, 1]), (500 * sec, ![1/2, 15, 9, 55, 3/2]), (1000 * sec, ![1, 20, 10, 60, 2])]
    (0 < coEnv.tp.HydDt ∧ Increasing fl ∧ Increasing se ∧ ws.Pairwise (fun a b => a.1 < b.1) ∧
      Refined one fl fl' ∧ Refined one se se' ∧ Refined five ws ws') ∧
    ∃ s0 tr s, initial (withForcing coEnv (finSeries fl) (finSeries se) (waves5 ws)) coLoad = .ok s0 ∧
      Run (withForcing coEnv (finSeries fl) (finSeries se) (waves5 ws)) s0 tr s ∧ tr.length = 2 ∧
      tr.map (fun x => (x.2.1.flow, x.2.1.sea, x.2.1.wave.EDir_h)) = [(fin (256/5), fin (97/100), fin 0), (fin (298/5), fin (19/25), fin (3/25))] := by
  intro fl fl' se se' ws ws'
  constructor
  · refine ⟨by decide, by unfold Increasing; decide, by unfold Increasing; decide, by decide, ?_, ?_, ?_⟩
    · have h1 : Refined one fl [(0, 50), (400 * sec, 66), (1000 * sec, 90), (2000 * sec, 60)] :=
        .add (l1 := []) (l2 := [(2000 * sec, 60)]) (a := (0, 50)) (c := (400 * sec, 66)) (b := (1000 * sec, 90)) .same
          ⟨by decide, by decide, fun _ => by norm_num [sec]⟩
      exact .add (l1 := []) (l2 := [(1000 * sec, 90), (2000 * sec, 60)]) (a := (0, 50)) (c := (200 * sec, 58)) (b := (400 * sec, 66)) h1
          ⟨by decide, by decide, fun _ => by norm_num [sec]⟩
    · exact .add (l1 := []) (l2 := []) (a := (0, 1)) (c := (250 * sec, 3/4)) (b := (1000 * sec, 0)) .same
          ⟨by decide, by decide, fun _ => by norm_num [sec]⟩
    · refine .add (l1 := []) (l2 := []) (a := (0, ![0, 10, 8, 50, 1])) (c := (500 * sec, ![1/2, 15, 9, 55, 3/2])) (b := (1000 * sec, ![1, 20, 10, 60, 2])) .same
          ⟨by decide, by decide, ?_⟩
      intro i
      fin_cases i <;> norm_num [sec, five]
  · have h : okAnd (initial (withForcing coEnv (finSeries fl) (finSeries se) (waves5 ws)) coLoad) (fun s0 =>
        okAnd (trace (withForcing coEnv (finSeries fl) (finSeries se) (waves5 ws)) s0 2) (fun x =>
          x.1.map (fun x => (x.2.1.flow, x.2.1.sea, x.2.1.wave.EDir_h)) == [(fin (256/5), fin (97/100), fin 0), (fin (298/5), fin (19/25), fin (3/25))])) = true := by
      decide +kernel
    obtain ⟨s0, h0, h⟩ := okAnd_iff.mp h
    obtain ⟨⟨tr, s⟩, h1, h⟩ := okAnd_iff.mp h
    exact ⟨s0, tr, s, h0, (trace_run h1).1, (trace_run h1).2, eq_of_beq h⟩

end Verif.Props
