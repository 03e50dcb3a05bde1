import Verif.Spec.Out
import Verif.Lemmas.Py
import Verif.Lemmas.Series

set_option autoImplicit false
set_option linter.unusedSectionVars false

namespace Verif.Model
open Verif Verif.Spec Fl

variable {K : Type} [Field K] [LinearOrder K] [IsStrictOrderedRing K]

theorem sized_ok {n : ℕ} {l l' : List (Fl K)} : sized n l = .ok l' ↔ l.length = n ∧ l = l' := by
  unfold sized
  split
  · next h => simp [h]
  · next h => simp [h]

theorem val_round (st : Storage K) : st.val = roundFl st.num := by
  funext a
  cases a <;> rfl

/-- The sizes a record must have. -/
structure SizesOk (nx nr : ℕ) (s : Snapshot K) : Prop where
  rows : s.rows.length = nx
  lwl : s.LagoonWL.length = nx
  lv : s.LagoonVel.length = nx
  lb : s.LagoonBedload.length = nx
  od : s.OutletDep.length = nx
  ov : s.OutletVel.length = nx
  ob : s.OutletBedload.length = nx
  cst : s.CST.length = nx
  op : s.OverwashProp.length = nx
  lst : s.LST.length = nx - 1
  re : s.RiverElev.length = nr
  rd : s.RiverDep.length = nr
  rv : s.RiverVel.length = nr
  rb : s.RiverBedload.length = nr

/-- The list of assignments. -/
def assigned (s : Snapshot K) (d0 v0 d1 v1 : Fl K) : List (Var × List (Fl K)) :=
  [(.sea_level, [s.SeaLevel]), (.river_flow, [s.RivFlow]), (.hs_offshore, [s.Hs_offshore]), (.wave_dir, [s.EDir_h]),
    (.shoreline_y, s.rows.map (·.y0)), (.outlet_bank1_y, s.rows.map (·.y1)), (.outlet_bank2_y, s.rows.map (·.y2)),
    (.lagoon_y, s.rows.map (·.y3)), (.cliff_y, s.rows.map (·.y4)),
    (.barrier_crest_z, s.rows.map (·.z0)), (.outlet_bed_z, s.rows.map (·.z1)), (.inner_barrier_crest_z, s.rows.map (·.z2)),
    (.lagoon_bed_z, s.rows.map (·.z3)),
    (.lagoon_wl, s.LagoonWL), (.lagoon_vel, s.LagoonVel), (.lagoon_bedload, s.LagoonBedload),
    (.outlet_wl, List.zipWith (· + ·) s.OutletDep (s.rows.map (·.z1))), (.outlet_vel, s.OutletVel),
    (.outlet_bedload, s.OutletBedload), (.cst, s.CST.map (· * fin 3600)), (.overwash_proportion, s.OverwashProp),
    (.lst, s.LST.map (· * fin 3600)),
    (.river_bed_z, s.RiverElev), (.river_wl, List.zipWith (· + ·) s.RiverElev s.RiverDep), (.river_vel, s.RiverVel),
    (.river_bedload, s.RiverBedload),
    (.outlet_end_x, [s.EndX0, s.EndX1]), (.outlet_end_width, [s.EndWidth]), (.outlet_end_z, [s.EndElev]),
    (.outlet_end_wl, [s.EndElev + d0]), (.outlet_end_vel, [v0]), (.dummy_xs_dep, [d1]), (.dummy_xs_vel, [v1]),
    (.outlet_closed, [if s.Closed then fin 1 else fin 0])]

theorem assignments_inv {nx nr : ℕ} {s : Snapshot K} {as : List (Var × List (Fl K))} (h : assignments nx nr s = .ok as) :
    SizesOk nx nr s ∧ ∃ d0 v0 d1 v1, s.EndDep[0]? = some d0 ∧ s.EndVel[0]? = some v0 ∧ s.EndDep[1]? = some d1 ∧ s.EndVel[1]? = some v1 ∧
      as = assigned s d0 v0 d1 v1 := by
  unfold assignments at h
  simp only [bind_ok, pure_ok, sized_ok, ixGet_ok, List.length_map] at h
  obtain ⟨_, ⟨a0, rfl⟩, _, ⟨_, rfl⟩, _, ⟨_, rfl⟩, _, ⟨_, rfl⟩, _, ⟨_, rfl⟩, _, ⟨_, rfl⟩, _, ⟨_, rfl⟩, _, ⟨_, rfl⟩, _, ⟨_, rfl⟩, _, ⟨a1, rfl⟩, _, ⟨a2, rfl⟩,
    _, ⟨a3, rfl⟩, _, ⟨a4, rfl⟩, _, ⟨a5, rfl⟩, _, ⟨a6, rfl⟩, _, ⟨a7, rfl⟩, _, ⟨a8, rfl⟩, _, ⟨a9, rfl⟩, _, ⟨a10, rfl⟩, _, ⟨a11, rfl⟩, _, ⟨a12, rfl⟩, _, ⟨a13, rfl⟩,
    d0, hd0, v0, hv0, d1, hd1, v1, hv1, rfl⟩ := h
  exact ⟨⟨a0, a1, a2, a3, a4, a5, a6, a7, a8, a9, a10, a11, a12, a13⟩, d0, v0, d1, v1, hd0, hv0, hd1, hv1, rfl⟩

theorem assignments_forward {nx nr : ℕ} {s : Snapshot K} {d0 v0 d1 v1 : Fl K} (h : SizesOk nx nr s) (hd0 : s.EndDep[0]? = some d0)
    (hv0 : s.EndVel[0]? = some v0) (hd1 : s.EndDep[1]? = some d1) (hv1 : s.EndVel[1]? = some v1) :
    assignments nx nr s = .ok (assigned s d0 v0 d1 v1) := by
  unfold assignments
  simp only [bind_ok, pure_ok, sized_ok, ixGet_ok, List.length_map]
  exact ⟨_, ⟨h.rows, rfl⟩, _, ⟨h.rows, rfl⟩, _, ⟨h.rows, rfl⟩, _, ⟨h.rows, rfl⟩, _, ⟨h.rows, rfl⟩, _, ⟨h.rows, rfl⟩, _, ⟨h.rows, rfl⟩,
    _, ⟨h.rows, rfl⟩, _, ⟨h.rows, rfl⟩, _, ⟨h.lwl, rfl⟩, _, ⟨h.lv, rfl⟩, _, ⟨h.lb, rfl⟩, _, ⟨h.od, rfl⟩, _, ⟨h.ov, rfl⟩, _, ⟨h.ob, rfl⟩,
    _, ⟨h.cst, rfl⟩, _, ⟨h.op, rfl⟩, _, ⟨h.lst, rfl⟩, _, ⟨h.re, rfl⟩, _, ⟨h.rd, rfl⟩, _, ⟨h.rv, rfl⟩, _, ⟨h.rb, rfl⟩, _, hd0, _, hv0, _, hd1, _, hv1, rfl⟩

/-- What `writeCurrent` does. -/
theorem write_inv {st : Storage K} {f f' : NcFile K} {s : Snapshot K} (h : writeCurrent st f s = .ok f') :
    ∃ as, assignments f.nx f.nr s = .ok as ∧ f'.nx = f.nx ∧ f'.nr = f.nr ∧ f'.x = f.x ∧ f'.times = f.times ++ [st.time s.time] ∧
      (∀ v, f'.data v f.times.length = (as.lookup v).map (st.var v)) ∧ ∀ v i, i ≠ f.times.length → f'.data v i = f.data v i := by
  unfold writeCurrent at h
  simp only [bind_ok, pure_ok] at h
  obtain ⟨as, ha, rfl⟩ := h
  exact ⟨as, ha, rfl, rfl, rfl, rfl, fun v => by simp, fun v i hi => by simp [hi]⟩

theorem readVar_earlier {st : Storage K} {f f' : NcFile K} {s : Snapshot K} (h : writeCurrent st f s = .ok f') {i : ℕ} (hi : i < f.times.length)
    (v : Var) : readVar f' v i = readVar f v i := by
  obtain ⟨as, _, _, _, _, ht, _, hd⟩ := write_inv h
  unfold readVar
  rw [ht, List.length_append, List.length_singleton, if_pos hi, if_pos (by omega), hd v i (by omega)]

theorem read_earlier {st : Storage K} {f f' : NcFile K} {s : Snapshot K} (h : writeCurrent st f s = .ok f') {i : ℕ} (hi : i < f.times.length) :
    readTimestep f' i = readTimestep f i := by
  obtain ⟨as, _, _, _, hx, ht, _, hd⟩ := write_inv h
  have hix : ixGet f'.times i = ixGet f.times i := by
    unfold ixGet
    rw [ht, List.getElem?_append_left hi]
  unfold readTimestep
  simp only [readVar_earlier h hi, hix, hx]

theorem readVar_new {st : Storage K} {f f' : NcFile K} {s : Snapshot K} {as : List (Var × List (Fl K))} (ht : f'.times = f.times ++ [st.time s.time])
    (hd : ∀ v, f'.data v f.times.length = (as.lookup v).map (st.var v)) {v : Var} {l : List (Fl K)} (hl : as.lookup v = some l) :
    readVar f' v f.times.length = .ok (st.var v l) := by
  unfold readVar
  rw [ht, List.length_append, List.length_singleton, if_pos (by omega), hd v, hl]
  rfl

theorem mapM_range_ok {B : Type} {n : ℕ} {g : ℕ → Except PyErr B} {l : List B} (hn : l.length = n)
    (h : ∀ i b, l[i]? = some b → g i = .ok b) : (List.range n).mapM g = .ok l := by
  have : List.Forall₂ (fun i b => g i = .ok b) (List.range n) l := by
    rw [List.forall₂_iff_get]
    refine ⟨by simp [hn], ?_⟩
    intro i h1 h2
    simp only [List.get_eq_getElem, List.getElem_range]
    exact h i _ (List.getElem?_eq_getElem h2)
  clear hn h
  generalize List.range n = r at this ⊢
  induction this with
  | nil => rfl
  | cons hh _ ih =>
    rw [List.mapM_cons]
    exact bind_ok.mpr ⟨_, hh, bind_ok.mpr ⟨_, ih, rfl⟩⟩

theorem zipRows_ok {num : K → K} {val : Fl K → Fl K} {xs : List K} {rows : List (Transect K)} (hx : xs = rows.map (fun t => num t.x)) :
    zipRows xs ((rows.map (·.y0)).map val) ((rows.map (·.y1)).map val) ((rows.map (·.y2)).map val) ((rows.map (·.y3)).map val)
      ((rows.map (·.y4)).map val) ((rows.map (·.z0)).map val) ((rows.map (·.z1)).map val) ((rows.map (·.z2)).map val)
      ((rows.map (·.z3)).map val) = .ok (rows.map (roundRow num val)) := by
  unfold zipRows
  apply mapM_range_ok
  · simp [hx]
  · intro i b hb
    rw [List.getElem?_map] at hb
    obtain ⟨t, ht, rfl⟩ := Option.map_eq_some_iff.mp hb
    simp only [bind_ok, pure_ok, ixGet_ok, hx, List.getElem?_map, ht, Option.map_some, Option.some.injEq, exists_eq_left']
    rfl

theorem foldl_min_nat (t : List ℕ) : ∀ x : ℕ, t.foldl min x ∈ x :: t ∧ ∀ b ∈ x :: t, t.foldl min x ≤ b := by
  induction t with
  | nil => intro x; simp
  | cons a t ih =>
    intro x
    obtain ⟨h1, h2⟩ := ih (min x a)
    simp only [List.foldl_cons]
    constructor
    · rcases List.mem_cons.mp h1 with h | h
      · rw [h]
        rcases min_choice x a with h | h <;> rw [h] <;> simp
      · exact List.mem_cons_of_mem _ (List.mem_cons_of_mem _ h)
    · intro b hb
      have h0 := h2 (min x a) (List.mem_cons_self ..)
      rcases List.mem_cons.mp hb with rfl | hb
      · exact h0.trans (min_le_left _ _)
      · rcases List.mem_cons.mp hb with rfl | hb
        · exact h0.trans (min_le_right _ _)
        · exact h2 b (List.mem_cons_of_mem _ hb)

/-- `closestTimeIx` returns exactly the indices of the records at the smallest distance, and the time of the first. -/
theorem closest_inv {times : List ℤ} {t : ℤ} {ix : List ℕ} {a : ℤ} (h : closestTimeIx times t = .ok (ix, a)) :
    (∀ i, i ∈ ix ↔ ∃ s, times[i]? = some s ∧ ∀ s' ∈ times, (s - t).natAbs ≤ (s' - t).natAbs) ∧
    (∃ i, ix[0]? = some i ∧ times[i]? = some a) ∧ ix.Pairwise (· < ·) := by
  unfold closestTimeIx at h
  split at h
  · cases h
  · next d ds hd =>
    simp only [bind_ok, pure_ok, ixGet_ok] at h
    obtain ⟨i0, h0, a0, ha, he⟩ := h
    obtain ⟨m1, m2⟩ := foldl_min_nat ds d
    generalize ds.foldl min d = m at *
    rw [← hd] at m1 m2
    cases he
    refine ⟨?_, ⟨i0, h0, ha⟩, whereIx_sorted _ _⟩
    intro i
    rw [mem_whereIx]
    constructor
    · rintro ⟨s, hs, hp⟩
      rw [decide_eq_true_eq] at hp
      exact ⟨s, hs, fun s' hs' => hp ▸ m2 _ (List.mem_map_of_mem hs')⟩
    · rintro ⟨s, hs, hp⟩
      refine ⟨s, hs, decide_eq_true ?_⟩
      obtain ⟨s', hs', e'⟩ := List.mem_map.mp m1
      have h1 := hp s' hs'
      have h2 := m2 _ (List.mem_map_of_mem (f := fun s => (s - t).natAbs) (List.mem_of_getElem? hs))
      omega

/-- And it always returns for a file with records. -/
theorem closest_ok {times : List ℤ} (t : ℤ) (hn : times ≠ []) : ∃ ix a, closestTimeIx times t = .ok (ix, a) := by
  unfold closestTimeIx
  split
  · next h => exact absurd (List.map_eq_nil_iff.mp h) hn
  · next d ds hd =>
    obtain ⟨m1, m2⟩ := foldl_min_nat ds d
    generalize ds.foldl min d = m at *
    rw [← hd] at m1
    obtain ⟨s', hs', e'⟩ := List.mem_map.mp m1
    obtain ⟨k, hk, hks⟩ := List.getElem_of_mem hs'
    have hmem : k ∈ whereIx (fun s => decide ((s - t).natAbs = m)) times :=
      mem_whereIx.mpr ⟨s', by rw [List.getElem?_eq_getElem hk, hks], decide_eq_true e'⟩
    cases hw : whereIx (fun s => decide ((s - t).natAbs = m)) times with
    | nil => rw [hw] at hmem; cases hmem
    | cons i is =>
      obtain ⟨s, hs, _⟩ := mem_whereIx.mp (show i ∈ whereIx (fun s => decide ((s - t).natAbs = m)) times by rw [hw]; simp)
      refine ⟨i :: is, s, ?_⟩
      simp only [hw]
      exact bind_ok.mpr ⟨i, rfl, bind_ok.mpr ⟨s, ixGet_ok.mpr hs, rfl⟩⟩

theorem zip_recover {zs ds : List (Fl K)} (hl : ds.length = zs.length)
    (h : ∀ (i : ℕ) (z d : Fl K), zs[i]? = some z → ds[i]? = some d → Recoverable z d) :
    List.zipWith (· - ·) (List.zipWith (fun z d => roundFl id (z + d)) zs ds) (zs.map (roundFl id)) = ds := by
  induction zs generalizing ds with
  | nil => cases ds with
    | nil => rfl
    | cons _ _ => cases hl
  | cons z zs ih =>
    cases ds with
    | nil => cases hl
    | cons d ds =>
      simp only [List.zipWith_cons_cons, List.map_cons, List.cons.injEq]
      refine ⟨?_, ih (by simpa using hl) (fun i z' d' hz hd => h (i + 1) z' d' (by simpa using hz) (by simpa using hd))⟩
      rcases h 0 z d rfl rfl with ⟨a, b, rfl, rfl⟩ | ⟨rfl, rfl⟩
      · show fin (a + b) - fin a = fin b
        rw [sub_fin]; congr 1; ring
      · rfl

theorem fl_add_comm (a b : Fl K) : a + b = b + a := by
  cases a <;> cases b <;> first | rfl | (simp only [add_fin, add_comm])

theorem round_id (a : Fl K) : roundFl id a = a := by cases a <;> rfl

theorem roundRow_id (t : Transect K) : roundRow id (roundFl id) t = t := by
  unfold roundRow
  simp only [round_id, id]

end Verif.Model
