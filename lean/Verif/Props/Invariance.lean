import Verif.Lemmas.MovedRun
import Verif.Lemmas.Later
import Verif.Props.Core

set_option autoImplicit false
set_option linter.unusedSectionVars false

/-! # Properties of whole runs under a change of the origin of the Y axis or of the calendar -/

namespace Verif.Props
open Verif Fl Model Spec

variable {K : Type} [Field K] [LinearOrder K] [IsStrictOrderedRing K]

/-! ## C116: the origin of the Y axis does not matter -/

theorem sh_back (d : K) (y : Fl K) : sh (-d) (sh d y) = y := by
  cases y <;> first | rfl | simp [sh]

theorem moveT_back (d : K) (t : Transect K) : moveT (-d) (moveT d t) = t := by
  cases t; simp [moveT, sh_back]

theorem moveRows_back (d : K) (l : List (Transect K)) : moveRows (-d) (moveRows d l) = l := by
  unfold moveRows
  rw [List.map_map]
  exact (List.map_congr_left (fun t _ => moveT_back d t)).trans (List.map_id _)

theorem moveSnap_back (d : K) (s : Snapshot K) : moveSnap (-d) (moveSnap d s) = s := by
  simp [moveSnap, moveRows_back]

theorem moveSt_back (d : K) (s : CoreSt K) : moveSt (-d) (moveSt d s) = s := by
  have : (s.outs.map (moveSnap d)).map (moveSnap (-d)) = s.outs := by
    rw [List.map_map]
    exact (List.map_congr_left (fun t _ => moveSnap_back d t)).trans (List.map_id _)
  simp [moveSt, moveRows_back, this]

theorem moveSt_forth (d : K) (s : CoreSt K) : moveSt d (moveSt (-d) s) = s := by
  simpa using moveSt_back (-d) s

theorem moveLoad_back (d : K) (l : LoadOut K) : moveLoad (-d) (moveLoad d l) = l := by
  simp [moveLoad, moveRows_back]

theorem movePass_back (d : K) (p : PassOut K) : movePass (-d) (movePass d p) = p := by
  simp [movePass, moveMor, moveRows_back]

theorem moveTr_back (d : K) (tr : List (CoreSt K × PassOut K × CoreSt K)) : moveTr (-d) (moveTr d tr) = tr := by
  unfold moveTr
  rw [List.map_map]
  refine (List.map_congr_left (fun r _ => ?_)).trans (List.map_id _)
  simp [moveSt_back, movePass_back]

/-- C116: if all Y coordinates of the initial condition are increased by `d`, the state before the loop is the same with all
Y coordinates increased by `d`. -/
theorem C116_initial [FloorRing K] (e : Env K) (d : K) {ld : LoadOut K} {s0 : CoreSt K} (h : initial e ld = .ok s0) :
    initial e (moveLoad d ld) = .ok (moveSt d s0) := by
  rw [initial_mv, h]
  rfl

/-- C116: the runs from that state are exactly the runs without the change with all Y coordinates, also those in the
records, increased by `d`; nothing else is different in any pass. -/
theorem C116_runs [FloorRing K] {e : Env K} (he : NoOrigin e.parts) (d : K) (s0 s' : CoreSt K) (tr' : List (CoreSt K × PassOut K × CoreSt K)) :
    Run e (moveSt d s0) tr' s' ↔
      ∃ tr s, Run e s0 tr s ∧ tr' = tr.map (fun r => (moveSt d r.1, movePass d r.2.1, moveSt d r.2.2)) ∧ s' = moveSt d s := by
  constructor
  · intro h
    have h' := run_mv (-d) e he h
    rw [moveSt_back] at h'
    refine ⟨_, _, h', ?_, (moveSt_forth d s').symm⟩
    have := moveTr_back (-d) tr'
    rw [neg_neg] at this
    exact this.symm
  · rintro ⟨tr, s, h, rfl, rfl⟩
    exact run_mv d e he h

/-- C116: exceptions are raised alike, before the loop and in any pass. -/
theorem C116_errors [FloorRing K] {e : Env K} (he : NoOrigin e.parts) (d : K) (ld : LoadOut K) (s : CoreSt K) (x : PyErr) :
    (initial e (moveLoad d ld) = .error x ↔ initial e ld = .error x) ∧ (Model.pass e (moveSt d s) = .error x ↔ Model.pass e s = .error x) := by
  rw [initial_mv, pass_mv d e he]
  constructor
  · cases initial e ld <;> simp [Except.map]
  · cases Model.pass e s <;> simp [Except.map]

/-- C116: the modelled functions of coast.py do not depend on the origin of the Y axis. -/
theorem C116_real_parts (pp : PhysPars ℝ) (np : NumPars) (Dx : ℝ) (HydDt : ℤ) (solver : Solver) : NoOrigin (realParts pp np Dx HydDt solver) where
  lst := by
    intro d y w
    show longShoreTransport _ _ _ _ _ _ _ = longShoreTransport _ _ _ _ _ _ _
    unfold longShoreTransport
    have : ((y.map (sh d)).dropLast.zip (y.map (sh d)).tail).map (fun p => localEDir (fin Dx) w.EDir_h p.1 p.2) =
        (y.dropLast.zip y.tail).map (fun p => localEDir (fin Dx) w.EDir_h p.1 p.2) := by
      rw [← List.map_dropLast, ← List.map_tail, List.zip_map, List.map_map]
      apply List.map_congr_left
      intro p _
      simp only [Function.comp_def, Prod.map, localEDir, sh_sub_sh]
    simp only [this]
  overtop := by
    intro d r sl rows
    show overtopping _ _ _ _ = overtopping _ _ _ _
    unfold overtopping moveRows
    rw [map_same (f := moveT d) (g' := cstTot r sl pp) (fun t => rfl), map_same (f := moveT d) (g' := overwashProp pp) (fun t => ?_)]
    simp only [overwashProp, moveT, sh_sub_sh, sh_isnan, sh_ble]

theorem coParts_noOrigin : NoOrigin coParts where
  lst := by
    intro d y w
    show (y.map (sh d)).tail.map _ = y.tail.map _
    rw [← List.map_tail, List.map_map]
    rfl
  overtop := by
    intro d r sl rows
    show Except.ok ((moveRows d rows).map _, (moveRows d rows).map _) = Except.ok (rows.map _, rows.map _)
    unfold moveRows
    rw [List.map_map, List.map_map]
    rfl

/-- The example run made on a coast moved by 1000 m: three passes, the same times, shoreline 1000 m further. -/
example : ∃ (s0 s : CoreSt ℚ) (tr : List (CoreSt ℚ × PassOut ℚ × CoreSt ℚ)), initial coEnv (moveLoad 1000 coLoad) = .ok s0 ∧ Run coEnv s0 tr s ∧
    tr.map (fun x => x.1.time) = [0, 120 * sec, 150 * sec] ∧ (s0.rows.map (·.y0)).head? = ((coLoad.rows.map (·.y0)).head?).map (sh 1000) := by
  obtain ⟨s0, tr, s, h0, h, ht, _⟩ := co_run
  refine ⟨moveSt 1000 s0, moveSt 1000 s, _, C116_initial coEnv 1000 h0, (C116_runs coParts_noOrigin 1000 s0 _ _).mpr ⟨tr, s, h, rfl, rfl⟩, ?_, ?_⟩
  · rw [List.map_map]
    exact ht
  · have h2 : okAnd (initial coEnv coLoad) (fun s0 => decide (s0.rows = coLoad.rows)) = true := by decide +kernel
    obtain ⟨s1, h1, h2⟩ := okAnd_iff.mp h2
    rw [h0] at h1
    cases h1
    have h3 := of_decide_eq_true h2
    show ((moveRows 1000 s0.rows).map (·.y0)).head? = _
    rw [h3]
    decide +kernel

/-! ## C117: the calendar does not matter -/

theorem laterS_back {α : Type} (τ : ℤ) (l : List (ℤ × α)) : laterS (-τ) (laterS τ l) = l := by
  unfold laterS
  rw [List.map_map]
  refine (List.map_congr_left (fun r _ => ?_)).trans (List.map_id _)
  simp

theorem laterEnv_back (τ : ℤ) (e : Env K) : laterEnv (-τ) (laterEnv τ e) = e := by
  simp [laterEnv, laterS_back]

theorem laterSt_back (τ : ℤ) (s : CoreSt K) : laterSt (-τ) (laterSt τ s) = s := by
  simp [laterSt, List.map_map, Function.comp_def]

theorem laterSt_forth (τ : ℤ) (s : CoreSt K) : laterSt τ (laterSt (-τ) s) = s := by
  simpa using laterSt_back (-τ) s

theorem laterPass_back (τ : ℤ) (p : PassOut K) : laterPass (-τ) (laterPass τ p) = p := by
  simp [laterPass, List.map_map, Function.comp_def]

theorem laterTr_back (τ : ℤ) (tr : List (CoreSt K × PassOut K × CoreSt K)) : laterTr (-τ) (laterTr τ tr) = tr := by
  unfold laterTr
  rw [List.map_map]
  refine (List.map_congr_left (fun r _ => ?_)).trans (List.map_id _)
  simp [laterSt_back, laterPass_back]

/-- C117: with start, end and all forcing later by `τ`, the state before the loop is the same with later clocks and records. -/
theorem C117_initial [FloorRing K] (e : Env K) (τ : ℤ) {ld : LoadOut K} {s0 : CoreSt K} (h : initial e ld = .ok s0) :
    initial (laterEnv τ e) ld = .ok (laterSt τ s0) := by
  rw [initial_later, h]
  rfl

/-- C117: the runs from that state are exactly the runs without the change with the clocks and the times of the records
later by `τ`; nothing else is different in any pass. -/
theorem C117_runs [FloorRing K] (e : Env K) (τ : ℤ) (s0 s' : CoreSt K) (tr' : List (CoreSt K × PassOut K × CoreSt K)) :
    Run (laterEnv τ e) (laterSt τ s0) tr' s' ↔
      ∃ tr s, Run e s0 tr s ∧ tr' = tr.map (fun r => (laterSt τ r.1, laterPass τ r.2.1, laterSt τ r.2.2)) ∧ s' = laterSt τ s := by
  constructor
  · intro h
    have h' := run_later _ (-τ) h
    rw [laterSt_back, laterEnv_back] at h'
    refine ⟨_, _, h', ?_, (laterSt_forth τ s').symm⟩
    have := laterTr_back (-τ) tr'
    rw [neg_neg] at this
    exact this.symm
  · rintro ⟨tr, s, h, rfl, rfl⟩
    exact run_later e τ h

/-- C117: exceptions are raised alike, before the loop and in any pass. -/
theorem C117_errors [FloorRing K] (e : Env K) (τ : ℤ) (ld : LoadOut K) (s : CoreSt K) (x : PyErr) :
    (initial (laterEnv τ e) ld = .error x ↔ initial e ld = .error x) ∧
      (Model.pass (laterEnv τ e) (laterSt τ s) = .error x ↔ Model.pass e s = .error x) := by
  rw [initial_later, pass_later e τ]
  constructor
  · cases initial e ld <;> simp [Except.map]
  · cases Model.pass e s <;> simp [Except.map]

/-- The example run made a year later. -/
example : ∃ (s0 s : CoreSt ℚ) (tr : List (CoreSt ℚ × PassOut ℚ × CoreSt ℚ)), initial (laterEnv (31536000 * sec) coEnv) coLoad = .ok s0 ∧
    Run (laterEnv (31536000 * sec) coEnv) s0 tr s ∧ tr.length = 3 ∧ s.time = 31536150 * sec := by
  obtain ⟨s0, tr, s, h0, h, ht, hs, _⟩ := co_run
  refine ⟨_, laterSt (31536000 * sec) s, _, C117_initial coEnv (31536000 * sec) h0, (C117_runs coEnv (31536000 * sec) s0 _ _).mpr ⟨tr, s, h, rfl, rfl⟩, ?_, ?_⟩
  · rw [List.length_map]
    have := congrArg List.length ht
    simpa using this
  · show s.time + _ = _
    rw [hs]
    decide

end Verif.Props
