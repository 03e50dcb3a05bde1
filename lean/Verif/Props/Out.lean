import Verif.Lemmas.Out
import Verif.Props.MorSample

set_option autoImplicit false
set_option linter.unusedSectionVars false

/-! # C68-C71: output files -/

namespace Verif.Props
open Verif Verif.Model Verif.Spec Fl

variable {K : Type} [Field K] [LinearOrder K] [IsStrictOrderedRing K]

/-! ## C68 -/

/-- A record of two transects and one river section. -/
def ouSnap (t : ℤ) : Snapshot ℚ :=
  { time := t, SeaLevel := fin 0, RivFlow := fin 50, Hs_offshore := fin 1, EDir_h := fin (1/2), rows := [brRow 10, brRow 20],
    LagoonWL := [fin 1, fin 1], LagoonVel := [fin 1, fin 1], LagoonBedload := [fin 0, fin 0], OutletDep := [nan, fin 1],
    OutletVel := [nan, fin 1], OutletBedload := [nan, fin 0], LST := [fin 1], CST := [fin 0, fin 0], OverwashProp := [fin 0, fin 0],
    RiverElev := [fin 1], RiverDep := [fin 1], RiverVel := [fin 1], RiverBedload := [fin 0], EndX0 := fin 20, EndX1 := fin 20,
    EndElev := fin (-1), EndWidth := fin 6, EndDep := [fin 1, fin 1], EndVel := [fin 1, fin 1], EndBedload := [fin 0, fin 0], Closed := false }

/-- Exact storage. -/
def exact : Storage K := ⟨id, id⟩

def ouFile : NcFile ℚ := emptyFile exact [10, 20] [fin 1]

/-- C68 refuted: a wave direction of 1/2 is read back as 0. -/
theorem C68_refuted : ∃ f r, writeCurrent exact ouFile (ouSnap 0) = .ok f ∧ readTimestep f 0 = .ok r ∧ (ouSnap 0).EDir_h = fin (1/2) ∧ r.EDir_h = fin 0 := by
  have h : okAnd (do let f ← writeCurrent exact ouFile (ouSnap 0); readTimestep f 0) (fun r => decide (r.EDir_h = fin 0)) = true := by decide +kernel
  obtain ⟨r, hr, h⟩ := okAnd_iff.mp h
  obtain ⟨f, hf, hr⟩ := bind_ok.mp hr
  exact ⟨f, r, hf, hr, rfl, of_decide_eq_true h⟩

/-- C68 refuted, in general: the wave direction read is always 0. -/
theorem C68_refuted_general {f : NcFile K} {i : ℕ} {r : ReadOut K} (h : readTimestep f i = .ok r) : r.EDir_h = fin 0 := by
  unfold readTimestep at h
  repeat' (obtain ⟨_, _, h⟩ := bind_ok.mp h)
  cases h
  rfl

/-- C68, partial: the record just written can be read, and apart from the wave direction it is what was written, up to
storage precision. -/
theorem C68_partial {st : Storage K} {f f' : NcFile K} {s : Snapshot K} (hx : f.x = s.rows.map (fun t => st.num t.x))
    (h : writeCurrent st f s = .ok f') : ∃ r, readTimestep f' f.times.length = .ok r ∧ ReadBack st.num st.time s r := by
  obtain ⟨as, ha, _, _, hfx, ht, hd, _⟩ := write_inv h
  obtain ⟨hs, d0, v0, d1, v1, e1, e2, e3, e4, rfl⟩ := assignments_inv ha
  have hv : ∀ (v : Var) (l : List (Fl K)), v ≠ .outlet_closed → (assigned s d0 v0 d1 v1).lookup v = some l →
      readVar f' v f.times.length = .ok (l.map (roundFl st.num)) := by
    intro v l hne hl
    rw [readVar_new ht hd hl, Storage.var, if_neg hne, val_round]
  have hc : readVar f' .outlet_closed f.times.length = .ok [if s.Closed then fin 1 else fin 0] := by
    rw [readVar_new ht hd (show _ = some _ from rfl)]; rfl
  have hz := zipRows_ok (val := roundFl st.num) (hfx.trans hx)
  have htime : ixGet f'.times f.times.length = .ok (st.time s.time) := by
    rw [ixGet_ok, ht, List.getElem?_append_right (le_refl _)]
    simp
  unfold readTimestep
  rw [hv .sea_level _ (by decide) rfl, hv .river_flow _ (by decide) rfl, hv .hs_offshore _ (by decide) rfl, hv .wave_dir _ (by decide) rfl,
    hv .shoreline_y _ (by decide) rfl, hv .outlet_bank1_y _ (by decide) rfl, hv .outlet_bank2_y _ (by decide) rfl, hv .lagoon_y _ (by decide) rfl,
    hv .cliff_y _ (by decide) rfl, hv .barrier_crest_z _ (by decide) rfl, hv .outlet_bed_z _ (by decide) rfl,
    hv .inner_barrier_crest_z _ (by decide) rfl, hv .lagoon_bed_z _ (by decide) rfl, hv .lagoon_wl _ (by decide) rfl, hv .lagoon_vel _ (by decide) rfl,
    hv .outlet_wl _ (by decide) rfl, hv .outlet_vel _ (by decide) rfl, hv .outlet_end_x _ (by decide) rfl, hv .outlet_end_width _ (by decide) rfl,
    hv .outlet_end_z _ (by decide) rfl, hv .outlet_end_vel _ (by decide) rfl, hv .outlet_end_wl _ (by decide) rfl, hv .dummy_xs_dep _ (by decide) rfl,
    hv .dummy_xs_vel _ (by decide) rfl, hv .lst _ (by decide) rfl, hv .cst _ (by decide) rfl, hv .river_bed_z _ (by decide) rfl,
    hv .river_wl _ (by decide) rfl, hv .river_vel _ (by decide) rfl, hc, htime]
  have ob : ∀ {A B : Type} (a : A) (g : A → Except PyErr B), (Except.ok a >>= g) = g a := fun _ _ => rfl
  have i0 : ∀ {A : Type} (a : A) (l : List A), ixGet (a :: l) 0 = .ok a := fun _ _ => rfl
  have i1 : ∀ {A : Type} (a b : A) (l : List A), ixGet (a :: b :: l) 1 = .ok b := fun _ _ _ => rfl
  simp only [ob, List.map_cons, List.map_nil, i0, i1, hz]
  refine ⟨_, rfl, ?_⟩
  refine ⟨rfl, rfl, rfl, rfl, rfl, rfl, rfl, ?_, rfl, rfl, rfl, rfl, rfl, by rw [e2]; rfl, by rw [e1]; rfl, by rw [e3]; rfl, by rw [e4]; rfl,
    ?_, ?_, ?_, rfl, ?_, rfl⟩
  · show List.map _ (List.zipWith _ _ (List.map _ _)) = _
    rw [List.zipWith_map_right, List.map_zipWith]
  · show List.map _ (List.map _ (List.map _ _)) = _
    rw [List.map_map, List.map_map]; rfl
  · show List.map _ (List.map _ (List.map _ _)) = _
    rw [List.map_map, List.map_map]; rfl
  · cases s.Closed <;> simp
  · show List.map _ (List.zipWith _ _ _) = _
    rw [List.map_zipWith]

/-- C68: the records written before are unchanged. -/
theorem C68_earlier {st : Storage K} {f f' : NcFile K} {s : Snapshot K} (h : writeCurrent st f s = .ok f') (i : ℕ) (hi : i < f.times.length) :
    readTimestep f' i = readTimestep f i := read_earlier h hi

/-- Writing several records one after the other. -/
def writeAll (st : Storage K) (f : NcFile K) : List (Snapshot K) → Except PyErr (NcFile K)
  | [] => .ok f
  | s :: ss => do writeAll st (← writeCurrent st f s) ss

/-- C68, partial: after any number of records has been written to a new file, each of them can be read back. -/
theorem C68_all_partial {st : Storage K} {xs : List K} {re : List (Fl K)} {ss : List (Snapshot K)} {f : NcFile K}
    (hx : ∀ s ∈ ss, s.rows.map (·.x) = xs) (h : writeAll st (emptyFile st xs re) ss = .ok f) :
    f.times.length = ss.length ∧ ∀ i s, ss[i]? = some s → ∃ r, readTimestep f i = .ok r ∧ ReadBack st.num st.time s r := by
  suffices key : ∀ (ss : List (Snapshot K)) (g f : NcFile K), (∀ s ∈ ss, g.x = s.rows.map (fun t => st.num t.x)) → writeAll st g ss = .ok f →
      f.times.length = g.times.length + ss.length ∧ (∀ i, i < g.times.length → readTimestep f i = readTimestep g i) ∧
      ∀ i s, ss[i]? = some s → ∃ r, readTimestep f (g.times.length + i) = .ok r ∧ ReadBack st.num st.time s r by
    obtain ⟨a, _, c⟩ := key ss _ f (fun s hs => by rw [emptyFile, ← hx s hs, List.map_map]; rfl) h
    refine ⟨by simpa [emptyFile] using a, fun i s hs => ?_⟩
    have := c i s hs
    simpa [emptyFile] using this
  clear hx h
  intro ss
  induction ss with
  | nil =>
    intro g f _ h
    cases h
    exact ⟨by simp, fun _ _ => rfl, fun i s hs => by simp at hs⟩
  | cons s ss ih =>
    intro g f hx h
    obtain ⟨g', h1, h2⟩ := bind_ok.mp h
    obtain ⟨_, _, _, _, hgx, ht, _, _⟩ := write_inv h1
    have hl : g'.times.length = g.times.length + 1 := by rw [ht]; simp
    obtain ⟨a, b, c⟩ := ih g' f (fun s' hs' => by rw [hgx]; exact hx s' (List.mem_cons_of_mem _ hs')) h2
    refine ⟨by rw [a, hl, List.length_cons]; omega, fun i hi => by rw [b i (by omega), C68_earlier h1 i hi], ?_⟩
    intro i s' hs'
    cases i with
    | zero =>
      simp only [List.getElem?_cons_zero, Option.some.injEq] at hs'
      subst hs'
      obtain ⟨r, hr, hb⟩ := C68_partial (hx s (List.mem_cons_self ..)) h1
      exact ⟨r, by rw [Nat.add_zero, b _ (by omega)]; exact hr, hb⟩
    | succ i =>
      simp only [List.getElem?_cons_succ] at hs'
      obtain ⟨r, hr, hb⟩ := c i s' hs'
      exact ⟨r, by rw [show g.times.length + (i + 1) = g'.times.length + i by omega]; exact hr, hb⟩

/-- Two records written to a new file. -/
example : ∃ f, writeAll exact (emptyFile exact [10, 20] [fin 1]) [ouSnap 0, ouSnap 5] = .ok f ∧ ∀ s ∈ [ouSnap 0, ouSnap 5], s.rows.map (·.x) = [10, 20] := by
  have h : okAnd (writeAll exact (emptyFile exact [10, 20] [fin 1]) [ouSnap 0, ouSnap 5]) (fun _ => true) = true := by decide +kernel
  obtain ⟨f, hf, _⟩ := okAnd_iff.mp h
  exact ⟨f, hf, by decide +kernel⟩

theorem writeAll_inv {st : Storage K} {ss : List (Snapshot K)} {g f : NcFile K} (h : writeAll st g ss = .ok f) :
    f.x = g.x ∧ ∀ s ∈ ss, SizesOk g.nx g.nr s := by
  induction ss generalizing g with
  | nil => cases h; exact ⟨rfl, fun s hs => by cases hs⟩
  | cons s ss ih =>
    obtain ⟨g', h1, h2⟩ := bind_ok.mp h
    obtain ⟨as, ha, hnx, hnr, hgx, _⟩ := write_inv h1
    obtain ⟨a, b⟩ := ih h2
    refine ⟨a.trans hgx, ?_⟩
    intro s' hs'
    rcases List.mem_cons.mp hs' with rfl | hs'
    · exact (assignments_inv ha).1
    · have := b s' hs'
      rwa [hnx, hnr] at this

/-- C68, partial: with exact storage, a hot start from the record of `s` (the only one closest to the requested time) rebuilds the
state, provided depths can be recovered from levels (both finite or both missing) and the spacing is the configured
one. -/
theorem C68_hotstart_partial {xs : List K} {re : List (Fl K)} {ss : List (Snapshot K)} {f : NcFile K} {i : ℕ} {s : Snapshot K} {t a : ℤ} {Dx x0 x1 : K}
    (hx : ∀ s ∈ ss, s.rows.map (·.x) = xs) (h : writeAll exact (emptyFile exact xs re) ss = .ok f) (hs : ss[i]? = some s)
    (hc : closestTimeIx f.times t = .ok ([i], a)) (hx0 : xs[0]? = some x0) (hx1 : xs[1]? = some x1) (hdx : x1 - x0 = Dx)
    (hriv : ∀ (k : ℕ) (z d : Fl K), s.RiverElev[k]? = some z → s.RiverDep[k]? = some d → Recoverable z d)
    (hout : ∀ (k : ℕ) (r : Transect K) (d : Fl K), s.rows[k]? = some r → s.OutletDep[k]? = some d → Recoverable r.z1 d)
    (hend : ∀ d, s.EndDep[0]? = some d → Recoverable s.EndElev d) (hd2 : s.EndDep.length = 2) (hv2 : s.EndVel.length = 2) :
    ∃ ld, hotStart f t Dx = .ok (ld, a) ∧ Restored s ld := by
  obtain ⟨_, hall⟩ := C68_all_partial hx h
  obtain ⟨r, hr, hb⟩ := hall i s hs
  obtain ⟨hfx, hsz⟩ := writeAll_inv h
  have hfx0 : f.x = xs := by rw [hfx]; simp [emptyFile, exact]
  replace hsz := hsz s (List.mem_of_getElem? hs)
  have hrow : r.rows = s.rows := by
    rw [hb.rows]
    show s.rows.map (roundRow id (roundFl id)) = _
    conv_rhs => rw [← List.map_id s.rows]
    exact List.map_congr_left (fun t _ => roundRow_id t)
  have hid : ∀ l : List (Fl K), l.map (roundFl (exact (K := K)).num) = l := by
    intro l
    conv_rhs => rw [← List.map_id l]
    exact List.map_congr_left (fun t _ => round_id t)
  have hid1 : ∀ b : Fl K, roundFl (exact (K := K)).num b = b := fun b => round_id b
  unfold hotStart
  refine ⟨_, bind_ok.mpr ⟨_, hc, bind_ok.mpr ⟨r, hr, bind_ok.mpr ⟨x0, ixGet_ok.mpr (by rw [hfx0]; exact hx0), bind_ok.mpr ⟨x1, ixGet_ok.mpr (by rw [hfx0]; exact hx1),
    bind_ok.mpr ⟨(), pyAssert_ok.mpr (decide_eq_true hdx), rfl⟩⟩⟩⟩⟩, ?_⟩
  obtain ⟨d0, d1, hD⟩ := List.length_eq_two.mp hd2
  obtain ⟨v0, v1, hV⟩ := List.length_eq_two.mp hv2
  have q1 := hb.endVel
  have q2 := hb.endWL
  have q3 := hb.dumDep
  have q4 := hb.dumVel
  rw [hD] at q2 q3
  rw [hV] at q1 q4
  simp only [List.getElem?_cons_zero, List.getElem?_cons_succ, Option.map_some, Option.some.injEq, hid1] at q1 q2 q3 q4
  have qz := hb.endZ
  rw [hid1] at qz
  refine ⟨hrow, by rw [hb.rivZ, hid], by rw [hb.endX0, hid1], by rw [hb.endX1, hid1], by rw [hb.endW, hid1], qz, by rw [hb.rivVel, hid], ?_,
    by rw [hb.lagWL, hid], by rw [hb.lagVel, hid], ?_, by rw [hb.outVel, hid], ?_, ?_, hb.closed⟩
  · rw [hb.rivWL, hb.rivZ]
    exact zip_recover (by rw [hsz.rd, hsz.re]) hriv
  · rw [hb.outWL, hrow]
    have := zip_recover (zs := s.rows.map (·.z1)) (ds := s.OutletDep) (by rw [List.length_map, hsz.od, hsz.rows]) (by
      intro k z d hz hd
      rw [List.getElem?_map] at hz
      obtain ⟨q, hq, rfl⟩ := Option.map_eq_some_iff.mp hz
      exact hout k q d hq hd)
    have h2 : List.zipWith (fun z d => roundFl id (z + d)) (s.rows.map (·.z1)) s.OutletDep =
        List.zipWith (fun d (t : Transect K) => roundFl id (d + t.z1)) s.OutletDep s.rows := by
      rw [List.zipWith_map_left, List.zipWith_comm]
      congr 1
      funext d t
      rw [fl_add_comm]
    rw [h2, show (s.rows.map (·.z1)).map (roundFl id) = s.rows.map (·.z1) from hid _] at this
    rw [List.zipWith_map_right] at this
    exact this
  · show [r.EndWL - r.EndElev, r.DummyDep] = s.EndDep
    rw [hD, ← q3, ← q2, qz]
    rcases hend d0 (by rw [hD]; rfl) with ⟨x, y, e1, e2⟩ | ⟨e1, e2⟩
    · rw [e1, e2, add_fin, sub_fin]
      congr 2; ring
    · rw [e1, e2]; rfl
  · show [r.EndVel, r.DummyVel] = s.EndVel
    rw [hV, q1, q4]

/-- A hot start at 4 from the two records above uses the second one. -/
example : ∃ f ld, writeAll exact (emptyFile exact [10, 20] [fin 1]) [ouSnap 0, ouSnap 5] = .ok f ∧ closestTimeIx f.times 4 = .ok ([1], 5) ∧
    hotStart f 4 10 = .ok (ld, 5) ∧ Restored (ouSnap 5) ld := by
  have h : okAnd (writeAll exact (emptyFile exact [10, 20] [fin 1]) [ouSnap 0, ouSnap 5]) (fun f =>
    decide (closestTimeIx f.times 4 = .ok ([1], 5))) = true := by decide +kernel
  obtain ⟨f, hf, hc⟩ := okAnd_iff.mp h
  rw [decide_eq_true_eq] at hc
  obtain ⟨ld, h1, h2⟩ := C68_hotstart_partial (i := 1) (s := ouSnap 5) (Dx := 10) (x0 := 10) (x1 := 20) (by decide +kernel) hf rfl hc rfl rfl (by norm_num)
    (by
      intro k z d hz hd
      match k, hz, hd with
      | 0, hz, hd => cases hz; cases hd; exact .inl ⟨_, _, rfl, rfl⟩
      | k + 1, hz, hd => cases hz)
    (by
      intro k r d hr hd
      match k, hr, hd with
      | 0, hr, hd => cases hr; cases hd; exact .inr ⟨by decide +kernel, rfl⟩
      | 1, hr, hd => cases hr; cases hd; exact .inl ⟨0, 1, by decide +kernel, rfl⟩
      | k + 2, hr, hd => cases hr)
    (by intro d hd; cases hd; exact .inl ⟨_, _, rfl, rfl⟩) rfl rfl
  exact ⟨f, ld, hf, hc, h1, h2⟩

/-! ## C69 -/

/-- C69 refuted: `outlet_end_bedload` is declared and never written. -/
theorem C69_refuted {st : Storage K} {f f' : NcFile K} {s : Snapshot K} (h : writeCurrent st f s = .ok f') :
    Var.outlet_end_bedload ∈ declaredVars ∧ f'.data .outlet_end_bedload f.times.length = none := by
  obtain ⟨as, ha, _, _, _, _, hd, _⟩ := write_inv h
  obtain ⟨_, d0, v0, d1, v1, _, _, _, _, rfl⟩ := assignments_inv ha
  exact ⟨by decide, by rw [hd]; rfl⟩

/-- C69, partial: every other declared variable is written at every record. -/
theorem C69_partial {st : Storage K} {f f' : NcFile K} {s : Snapshot K} (h : writeCurrent st f s = .ok f') (v : Var)
    (hv : v ∈ declaredVars) (hne : v ≠ .outlet_end_bedload) : ∃ l, f'.data v f.times.length = some l := by
  obtain ⟨as, ha, _, _, _, _, hd, _⟩ := write_inv h
  obtain ⟨_, d0, v0, d1, v1, _, _, _, _, rfl⟩ := assignments_inv ha
  rw [hd]
  cases v <;> first | exact absurd rfl hne | exact ⟨_, rfl⟩

/-- C69, the other way: whatever a record stores is stored under a name that `newOutFile` declares,
and every name is declared once (a second `createVariable` of a name, or a write to a name that does
not exist, would raise). -/
theorem C69_declared {st : Storage K} {f f' : NcFile K} {s : Snapshot K} (_ : writeCurrent st f s = .ok f') (v : Var) (l : List (Fl K))
    (_ : f'.data v f.times.length = some l) : v ∈ declaredVars ∧ declaredVars.Nodup := by
  refine ⟨?_, by decide⟩
  cases v <;> decide

example : ∃ f', writeCurrent exact ouFile (ouSnap 0) = .ok f' ∧ f'.data .outlet_end_bedload 0 = none := by
  obtain ⟨f, r, hf, _⟩ := C68_refuted
  exact ⟨f, hf, (C69_refuted hf).2⟩

/-! ## C70 -/

/-- C70 refuted: two records equally far from the requested time. -/
theorem C70_refuted : closestTimeIx [0, 10] 5 = .ok ([0, 1], 0) := by decide +kernel

/-- C70 refuted, in general: all records at the smallest distance are returned, so with two of them the result is not a single
index, and reading with it fails. -/
theorem C70_refuted_general {f : NcFile K} {t : ℤ} {ix : List ℕ} {a : ℤ} (h : closestTimeIx f.times t = .ok (ix, a)) {i j : ℕ} {s s' : ℤ}
    (hij : i ≠ j) (hi : f.times[i]? = some s) (hj : f.times[j]? = some s') (hs : ∀ u ∈ f.times, (s - t).natAbs ≤ (u - t).natAbs)
    (hs' : (s' - t).natAbs = (s - t).natAbs) : 2 ≤ ix.length ∧ readIxs f ix = .error .value := by
  obtain ⟨h1, _, _⟩ := closest_inv h
  have m1 := (h1 i).mpr ⟨s, hi, hs⟩
  have m2 := (h1 j).mpr ⟨s', hj, fun u hu => hs' ▸ hs u hu⟩
  match ix, m1, m2 with
  | [k], m1, m2 =>
    rw [List.mem_singleton] at m1 m2
    omega
  | k :: l :: ks, _, _ => exact ⟨by simp, rfl⟩

/-- C70, partial: a file with records always gives at least one index, no record is closer to the requested time than those
returned, the time returned is that of the first of them, and there is a single index if there is a single closest
record.  (Missing: ties.) -/
theorem C70_partial {times : List ℤ} (t : ℤ) (hn : times ≠ []) : ∃ ix a, closestTimeIx times t = .ok (ix, a) ∧
    (∃ i, ix[0]? = some i ∧ times[i]? = some a) ∧
    (∀ i ∈ ix, ∃ s, times[i]? = some s ∧ ∀ u ∈ times, (s - t).natAbs ≤ (u - t).natAbs) ∧
    ∀ (i : ℕ) (s : ℤ), times[i]? = some s → (∀ (j : ℕ) (u : ℤ), times[j]? = some u → j ≠ i → (s - t).natAbs < (u - t).natAbs) → ix = [i] ∧ a = s := by
  obtain ⟨ix, a, h⟩ := closest_ok t hn
  obtain ⟨h1, h2, h3⟩ := closest_inv h
  refine ⟨ix, a, h, h2, fun i hi => (h1 i).mp hi, ?_⟩
  intro i s hi hu
  have hall : ∀ k ∈ ix, k = i := by
    intro k hk
    by_contra hki
    obtain ⟨u, hu1, hu2⟩ := (h1 k).mp hk
    have := hu k u hu1 hki
    have := hu2 s (List.mem_of_getElem? hi)
    omega
  obtain ⟨k, hk, hka⟩ := h2
  cases ix with
  | nil => cases hk
  | cons b bs =>
    have hb := hall b (by simp)
    subst hb
    simp only [List.getElem?_cons_zero, Option.some.injEq] at hk
    subst hk
    rw [hi] at hka
    refine ⟨?_, (Option.some.inj hka).symm⟩
    cases bs with
    | nil => rfl
    | cons c cs =>
      have hc := hall c (by simp)
      have := (List.pairwise_cons.mp h3).1 c (by simp)
      omega

/-- A request with a single closest record. -/
example : closestTimeIx [0, 10, 20] 12 = .ok ([1], 10) := by decide +kernel

/-- An empty file is an error. -/
theorem C70_empty (t : ℤ) : closestTimeIx [] t = .error .value := rfl

/-! ## C71 -/

/-- The replies taken as a yes. -/
def yes : List String := ["Y", "y", "Yes", "yes", "YES"]

/-- C71: an existing file is replaced only if overwriting was requested or the user agreed; otherwise it is left as it was and
the call fails. -/
theorem C71_protected (st : Storage K) (f : NcFile K) (ow : Bool) (reply : String) (xs : List K) (re : List (Fl K)) :
    (ow = true ∨ reply ∈ yes → newOutFile st (some f) ow reply xs re = (.ok (), some (emptyFile st xs re))) ∧
    (¬ (ow = true ∨ reply ∈ yes) → newOutFile st (some f) ow reply xs re = (.error .other, some f)) := by
  have hc : (["Y", "y", "Yes", "yes", "YES"].contains reply = true) ↔ reply ∈ yes := by rw [List.contains_iff_mem]; rfl
  unfold newOutFile guardFile
  cases ow with
  | true => simp
  | false =>
    simp only [Bool.not_false, if_true, Bool.false_eq_true, false_or]
    constructor
    · intro h; rw [if_pos (hc.mpr h)]
    · intro h; rw [if_neg (fun h' => h (hc.mp h'))]

/-- C71: without an existing file a new one is made, whatever the flag. -/
theorem C71_new (st : Storage K) (ow : Bool) (reply : String) (xs : List K) (re : List (Fl K)) :
    newOutFile st none ow reply xs re = (.ok (), some (emptyFile st xs re)) := rfl

/-- C71: the same rule guards the time series file (`newTsOutFile` has the same lines). -/
theorem C71_guard {F : Type} (f : F) (ow : Bool) (reply : String) :
    (guardFile (some f) ow reply).2 = some f ∧ (guardFile (some f) ow reply).1 = .error .other ∨ ow = true ∨ reply ∈ yes := by
  have hc : (["Y", "y", "Yes", "yes", "YES"].contains reply = true) ↔ reply ∈ yes := by rw [List.contains_iff_mem]; rfl
  by_cases h : ow = true ∨ reply ∈ yes
  · exact .inr h
  · left
    push Not at h
    unfold guardFile
    simp only [Bool.not_eq_true] at h
    rw [h.1]
    simp only [Bool.not_false, if_true]
    rw [if_neg (fun h' => h.2 (hc.mp h'))]
    exact ⟨rfl, rfl⟩

example : "no" ∉ yes := by decide

end Verif.Props
