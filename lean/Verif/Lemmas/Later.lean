import Verif.Lemmas.Moved

set_option autoImplicit false
set_option linter.unusedSectionVars false

/-! # Whole runs with all dates later by the same time -/

namespace Verif.Model
open Verif Fl Spec List

variable {K : Type} [Field K] [LinearOrder K] [IsStrictOrderedRing K]

theorem interpScan_later (c x0 : K) (f0 : Fl K) (l : List (K × Fl K)) (x : K) :
    interpScan (x0 + c) f0 (l.map (fun r => (r.1 + c, r.2))) (x + c) = interpScan x0 f0 l x := by
  induction l generalizing x0 f0 with
  | nil => rfl
  | cons r l ih =>
    obtain ⟨x1, f1⟩ := r
    simp only [map_cons, interpScan, add_lt_add_iff_right, add_le_add_iff_right, add_sub_add_right_eq_sub, ih]

theorem fillAt_later (τ : ℤ) (l : Series K) (t : ℤ) : fillAt (laterS τ l) (t + τ) = fillAt l t := by
  cases l with
  | nil => rfl
  | cons r l =>
    obtain ⟨t0, v0⟩ := r
    simp only [laterS, map_cons, fillAt, add_lt_add_iff_right]
    split
    · rfl
    · refine Eq.trans ?_ (interpScan_later (τ : K) _ _ _ _)
      simp only [map_map, Function.comp_def, Int.cast_add]

theorem interpTime_later (τ : ℤ) (l : Series K) : interpTime (laterS τ l) = laterS τ (interpTime l) := by
  unfold interpTime
  have hf : (laterS τ l).filter (fun r => !r.2.isnan) = laterS τ (l.filter (fun r => !r.2.isnan)) := by
    unfold laterS
    rw [filter_map]
    rfl
  simp only [hf]
  unfold laterS
  rw [map_map, map_map]
  apply map_congr_left
  intro r _
  simp only [Function.comp_def]
  split
  · congr 1
    exact fillAt_later τ _ _
  · rfl

theorem lookup_later {α : Type} (τ : ℤ) (l : List (ℤ × α)) (t : ℤ) : (laterS τ l).lookup (t + τ) = l.lookup t := by
  induction l with
  | nil => rfl
  | cons r l ih =>
    unfold laterS at *
    obtain ⟨t0, v⟩ := r
    simp only [map_cons, lookup, ih]
    have : (t + τ == t0 + τ) = (t == t0) := by
      rw [Bool.eq_iff_iff, beq_iff_eq, beq_iff_eq, add_left_inj]
    rw [this]

theorem fst_later {α : Type} (τ : ℤ) (l : List (ℤ × α)) : (laterS τ l).map Prod.fst = (l.map Prod.fst).map (· + τ) := by
  unfold laterS
  rw [map_map, map_map]
  rfl

theorem orderedInsert_later (τ : ℤ) (a : ℤ × Fl K) (l : Series K) :
    (laterS τ l).orderedInsert (fun a b => a.1 ≤ b.1) (a.1 + τ, a.2) = laterS τ (l.orderedInsert (fun a b => a.1 ≤ b.1) a) := by
  induction l with
  | nil => rfl
  | cons r l ih =>
    unfold laterS at *
    simp only [map_cons, orderedInsert, add_le_add_iff_right]
    split
    · rfl
    · rw [ih]; rfl

theorem sort_later (τ : ℤ) (l : Series K) :
    (laterS τ l).insertionSort (fun a b => a.1 ≤ b.1) = laterS τ (l.insertionSort (fun a b => a.1 ≤ b.1)) := by
  induction l with
  | nil => rfl
  | cons r l ih =>
    show ((laterS τ l).insertionSort _).orderedInsert _ _ = laterS τ ((l.insertionSort _).orderedInsert _ _)
    rw [ih, orderedInsert_later]

theorem requestRows_later (τ : ℤ) (sel : Series K) (req : List ℤ) :
    requestRows (laterS τ sel) (req.map (· + τ)) = (requestRows sel req).map (laterS τ) := by
  have hinj : Function.Injective (fun t : ℤ => t + τ) := fun a b h => by simpa using h
  unfold requestRows
  have h1 : ((laterS τ sel).map (·.1)).Nodup ↔ (sel.map (·.1)).Nodup := by
    rw [show (laterS τ sel).map (·.1) = _ from fst_later τ sel, nodup_map_iff hinj]
  by_cases h : (sel.map (·.1)).Nodup
  · rw [if_pos h, if_pos (h1.mpr h)]
    show Except.ok _ = Except.ok _
    congr 1
    rw [← sort_later]
    congr 1
    unfold laterS at *
    rw [map_append]
    congr 1
    have h2 : (req.map (· + τ)).filter (fun t => decide (t ∉ (sel.map (fun r => (r.1 + τ, r.2))).map Prod.fst)) =
        (req.filter (fun t => decide (t ∉ sel.map Prod.fst))).map (· + τ) := by
      rw [filter_map]
      congr 1
      apply filter_congr
      intro t _
      have := fst_later τ sel
      unfold laterS at this
      rw [this]
      simp only [Function.comp_def]
      simp only [mem_map_of_injective hinj]
    rw [h2, dedup_map_of_injective hinj, map_map, map_map]
    rfl
  · rw [if_neg h, if_neg (fun h' => h (h1.mp h'))]
    rfl

theorem interpolateAt_later (τ : ℤ) (ts : Series K) (req : List ℤ) : interpolateAt (laterS τ ts) (req.map (· + τ)) = interpolateAt ts req := by
  unfold interpolateAt
  refine bind_cong (ixGet_map _ _ _) (fun r0 => ?_)
  refine bind_cong' ?_ (fun fromIx => ?_)
  · unfold laterS
    rw [lastIx_map]
    simp only [add_le_add_iff_right]
  refine bind_cong (pyGet_map _ _ _) (fun rN => ?_)
  refine bind_cong' ?_ (fun toIx => ?_)
  · unfold laterS
    rw [firstIx_map]
    simp only [add_le_add_iff_right]
  refine bind_cong (g := laterS τ) ?_ (fun rows => ?_)
  · rw [← requestRows_later]
    unfold laterS
    rw [map_drop, map_take]
  simp only [interpTime_later, mapM_map, lookup_later, Function.comp_def]

theorem wavesAt_later (τ : ℤ) (ws : List (ℤ × Wave K)) (t : ℤ) : wavesAt (laterS τ ws) (t + τ) = wavesAt ws t := by
  have hc : ∀ f : Wave K → Fl K, interpolateAt (waveCol (laterS τ ws) f) [t + τ] = interpolateAt (waveCol ws f) [t] := by
    intro f
    refine Eq.trans ?_ (interpolateAt_later τ _ _)
    congr 1
    unfold waveCol laterS
    rw [map_map, map_map]
    rfl
  unfold wavesAt
  simp only [hc]

theorem hydTimes_later (τ t dt h : ℤ) : hydTimes (t + τ) dt h = (hydTimes t dt h).map (List.map (· + τ)) := by
  unfold hydTimes
  split
  · rfl
  · show Except.ok _ = Except.ok _
    congr 1
    rw [map_map]
    apply map_congr_left
    intro k _
    simp only [Function.comp_def]
    ring

variable [FloorRing K] (e : Env K) (τ : ℤ)

theorem compute_later (s : CoreSt K) : compute (laterEnv τ e) (laterSt τ s) = (compute e s).map (laterPass τ) := by
  unfold compute
  refine bind_same rfl (fun c => ?_)
  refine bind_mv (hydTimes_later τ _ _ _) (fun win => ?_)
  refine bind_same (interpolateAt_later τ e.flow win) (fun flow => ?_)
  refine bind_same (interpolateAt_later τ e.sea win) (fun sea => ?_)
  refine bind_same rfl (fun dv => ?_)
  refine bind_same rfl (fun hyd => ?_)
  refine bind_same rfl (fun bed => ?_)
  refine bind_same rfl (fun _ => ?_)
  refine bind_same (wavesAt_later τ e.waves s.time) (fun w => ?_)
  refine bind_same rfl (fun q => ?_)
  refine bind_same rfl (fun sl => ?_)
  refine bind_same rfl (fun r => ?_)
  exact bind_same rfl (fun m => rfl)

theorem advance_later (s : CoreSt K) (p : PassOut K) : advance (laterEnv τ e) (laterSt τ s) (laterPass τ p) = (advance e s p).map (laterSt τ) := by
  unfold advance
  have h1 : (laterEnv τ e).tp.EndTime - (laterSt τ s).time = e.tp.EndTime - s.time := add_sub_add_right_eq_sub _ _ _
  have h2 : ∀ dt, (laterSt τ s).time + dt = s.time + dt + τ := fun dt => by
    show s.time + τ + dt = _
    ring
  have h3 : ∀ t, ((laterSt τ s).outTime ≤ t + τ) = (s.outTime ≤ t) := fun t => propext (add_le_add_iff_right τ)
  have h4 : ∀ t, ((laterSt τ s).plotTime ≤ t + τ) = (s.plotTime ≤ t) := fun t => propext (add_le_add_iff_right τ)
  have h5 : ∀ t, ((laterSt τ s).tsTime ≤ t + τ) = (s.tsTime ≤ t) := fun t => propext (add_le_add_iff_right τ)
  simp only [h1, h2, h3, h4, h5, show (laterEnv τ e).oo = e.oo from rfl, show (laterPass τ p).mor = p.mor from rfl]
  refine bind_same rfl (fun bl => ?_)
  refine bind_mv (g := List.map (fun r : TsRec K => { r with time := r.time + τ })) ?_ (fun ts => ?_)
  · by_cases h : s.tsTime ≤ s.time + if e.tp.EndTime - s.time < p.mor.MorDt then e.tp.EndTime - s.time else p.mor.MorDt
    · rw [if_pos (decide_eq_true h), if_pos (decide_eq_true h)]
      refine bind_mv (g := fun r : TsRec K => { r with time := r.time + τ }) ?_ (fun r => ?_)
      · unfold tsRecord
        refine bind_same rfl (fun d => bind_same rfl (fun v => bind_same rfl (fun w => bind_same rfl (fun b => rfl))))
      · show Except.ok _ = Except.ok _
        rw [map_append]
        rfl
    · rw [if_neg (fun h' => h (of_decide_eq_true h')), if_neg (fun h' => h (of_decide_eq_true h'))]
      rfl
  · show Except.ok _ = Except.ok _
    unfold laterSt
    congr 1
    simp only [apply_ite (fun t : ℤ => t + τ), add_right_comm _ τ, apply_ite (List.map (fun r : Snapshot K => { r with time := r.time + τ })), map_append]
    rfl

theorem pass_later (s : CoreSt K) : pass (laterEnv τ e) (laterSt τ s) = (pass e s).map (fun r => (laterPass τ r.1, laterSt τ r.2)) := by
  unfold Verif.Model.pass
  refine bind_mv (compute_later e τ s) (fun p => ?_)
  exact bind_mv (advance_later e τ s p) (fun s' => rfl)

theorem initial_later (ld : LoadOut K) : initial (laterEnv τ e) ld = (initial e ld).map (laterSt τ) := by
  unfold initial
  refine bind_same (interpolateAt_later τ e.flow [e.tp.StartTime]) (fun flow => ?_)
  refine bind_same (interpolateAt_later τ e.sea [e.tp.StartTime]) (fun sea => ?_)
  refine bind_same (wavesAt_later τ e.waves e.tp.StartTime) (fun w => ?_)
  refine bind_same rfl (fun c => bind_same rfl (fun q => bind_same rfl (fun sl => bind_same rfl (fun dv => ?_))))
  refine bind_same rfl (fun hyd => bind_same rfl (fun d => bind_same rfl (fun v => bind_same rfl (fun cw => ?_))))
  show Except.ok _ = Except.ok _
  unfold laterSt
  congr 1
  have h : ∀ x : ℤ, (laterEnv τ e).tp.StartTime + x = e.tp.StartTime + x + τ := fun x => add_right_comm _ τ x
  simp only [h]
  rfl

/-- A trace with all times later. -/
def laterTr (tr : List (CoreSt K × PassOut K × CoreSt K)) : List (CoreSt K × PassOut K × CoreSt K) :=
  tr.map (fun r => (laterSt τ r.1, laterPass τ r.2.1, laterSt τ r.2.2))

theorem run_later {s0 s : CoreSt K} {tr : List (CoreSt K × PassOut K × CoreSt K)} (h : Run e s0 tr s) :
    Run (laterEnv τ e) (laterSt τ s0) (laterTr τ tr) (laterSt τ s) := by
  induction h with
  | start => exact Run.start
  | pass h ht hp ih =>
    unfold laterTr at *
    rw [map_append]
    refine Run.pass ih ((add_le_add_iff_right τ).mpr ht) ?_
    rw [pass_later e τ, hp]
    rfl

end Verif.Model
