import Verif.Lemmas.Channel
import Verif.Spec.Channel

set_option autoImplicit false
set_option linter.unusedSectionVars false

namespace Verif.Model
open Verif Fl Verif.Spec

variable {K : Type} [Field K] [LinearOrder K] [IsStrictOrderedRing K]

/-- Transects in increasing order. -/
def SortedX (rows : List (Transect K)) : Prop := rows.Pairwise (fun r s => r.x < s.x)

theorem SortedX.lt {rows : List (Transect K)} (h : SortedX rows) {i j : ℕ} {r q : Transect K}
    (hi : rows[i]? = some r) (hj : rows[j]? = some q) : r.x < q.x ↔ i < j := by
  obtain ⟨h1, rfl⟩ := List.getElem?_eq_some_iff.mp hi
  obtain ⟨h2, rfl⟩ := List.getElem?_eq_some_iff.mp hj
  constructor
  · intro hx
    rcases lt_trichotomy i j with h3 | h3 | h3
    · exact h3
    · subst h3; exact absurd hx (lt_irrefl _)
    · exact absurd hx (not_lt.mpr (le_of_lt (List.pairwise_iff_getElem.mp h j i h2 h1 h3)))
  · intro hx
    exact List.pairwise_iff_getElem.mp h i j h1 h2 hx

theorem SortedX.le {rows : List (Transect K)} (h : SortedX rows) {i j : ℕ} {r q : Transect K}
    (hi : rows[i]? = some r) (hj : rows[j]? = some q) : r.x ≤ q.x ↔ i ≤ j := by
  rw [← not_lt, h.lt hj hi, not_lt]

theorem x0_row {rows : List (Transect K)} {X0 : ℕ} (h : firstIx (fun r : Transect K => fin r.x ==? fin 0) rows = .ok X0) :
    ∃ r, rows[X0]? = some r ∧ r.x = 0 := by
  obtain ⟨⟨r, hr, hp⟩, _⟩ := firstIx_ok.mp h
  exact ⟨r, hr, by simpa using hp⟩

/-- Membership of the open online reach. -/
theorem lagoon_open_mem {a : ChanIn K} {X0 : ℕ} {s : LagStage K} {e0 : K} (hs : SortedX a.rows)
    (hx : firstIx (fun r : Transect K => fin r.x ==? fin 0) a.rows = .ok X0) (he : a.EndX0 = fin e0)
    (h : lagoonStage a X0 false = .ok s) (i : ℕ) : i ∈ s.online ↔ ∃ r, a.rows[i]? = some r ∧ OnReach e0 r.x := by
  obtain ⟨q, hq, hq0⟩ := x0_row hx
  unfold lagoonStage at h
  rw [he] at h
  simp only [beq_fin, blt_fin, decide_eq_true_eq, Bool.false_eq_true, if_false] at h
  unfold OnReach
  split at h
  · rename_i h0
    subst h0
    rw [pure_ok] at h; subst h
    simp only [List.mem_singleton]
    constructor
    · rintro rfl; exact ⟨q, hq, Or.inl hq0⟩
    · rintro ⟨r, hr, h1⟩
      have hr0 : r.x = 0 := by
        rcases h1 with h1 | ⟨h1, h2⟩ | ⟨h1, h2⟩
        · exact h1
        · exact absurd h1 (not_le.mpr h2)
        · exact absurd h2 (not_le.mpr h1)
      have a1 := (hs.le hr hq).mp (by rw [hr0, hq0])
      have a2 := (hs.le hq hr).mp (by rw [hr0, hq0])
      omega
  · split at h
    · rename_i h1
      simp only [bind_ok, pure_ok] at h
      obtain ⟨l, hl, rfl⟩ := h
      obtain ⟨⟨b, hb, hbe⟩, hmax⟩ := lastIx_ok.mp hl
      have hbe : b.x < e0 := by simpa using hbe
      simp only [mem_arangeUp]
      constructor
      · rintro ⟨h2, h3⟩
        have hlen := (List.getElem?_eq_some_iff.mp hb).1
        have hi : a.rows[i]? = some (a.rows[i]'(by omega)) := List.getElem?_eq_getElem _
        refine ⟨_, hi, Or.inr (Or.inl ⟨?_, ?_⟩)⟩
        · rw [← hq0]; exact (hs.le hq hi).mpr h2
        · exact lt_of_le_of_lt ((hs.le hi hb).mpr (by omega)) hbe
      · rintro ⟨r, hr, h2⟩
        have h2' : 0 ≤ r.x ∧ r.x < e0 := by
          rcases h2 with h2 | h2 | ⟨h2, h3⟩
          · rw [h2]; exact ⟨le_refl _, h1⟩
          · exact h2
          · exact absurd (lt_of_lt_of_le h2 h3) (not_lt.mpr (le_of_lt h1))
        refine ⟨(hs.le hq hr).mp (by rw [hq0]; exact h2'.1), ?_⟩
        by_contra hc
        have := hmax i (by omega) r hr
        simp [not_le.mpr h2'.2] at this
    · rename_i h0 h1
      have h1 : e0 < 0 := lt_of_le_of_ne (not_lt.mp h1) h0
      simp only [bind_ok, pure_ok] at h
      obtain ⟨l, hl, rfl⟩ := h
      obtain ⟨⟨b, hb, hbe⟩, hmin⟩ := firstIx_ok.mp hl
      have hbe : e0 < b.x := by simpa using hbe
      simp only [mem_arangeDown]
      constructor
      · rintro ⟨h2, h3⟩
        have hlen := (List.getElem?_eq_some_iff.mp hq).1
        have hi : a.rows[i]? = some (a.rows[i]'(by omega)) := List.getElem?_eq_getElem _
        refine ⟨_, hi, Or.inr (Or.inr ⟨?_, ?_⟩)⟩
        · exact lt_of_lt_of_le hbe ((hs.le hb hi).mpr h2)
        · rw [← hq0]; exact (hs.le hi hq).mpr h3
      · rintro ⟨r, hr, h2⟩
        have h2' : e0 < r.x ∧ r.x ≤ 0 := by
          rcases h2 with h2 | ⟨h2, h3⟩ | h2
          · rw [h2]; exact ⟨h1, le_refl _⟩
          · exact absurd (lt_of_le_of_lt h2 h3) (not_lt.mpr (le_of_lt h1))
          · exact h2
        refine ⟨?_, (hs.le hr hq).mp (by rw [hq0]; exact h2'.2)⟩
        by_contra hc
        have := hmin i (by omega) r hr
        simp at this
        exact absurd h2'.1 (not_lt.mpr this)

/-- Membership of the outlet. -/
theorem outletIx_mem (rows : List (Transect K)) (e0 e1 : K) (i : ℕ) :
    i ∈ outletIx rows (fin e0) (fin e1) ↔ ∃ r, rows[i]? = some r ∧ InOutlet e0 e1 r.x := by
  unfold outletIx InOutlet
  simp only [blt_fin, decide_eq_true_eq]
  split
  · rename_i h
    rw [mem_whereIx]
    simp [min_eq_left (le_of_lt h), max_eq_right (le_of_lt h)]
  · rename_i h
    rw [List.mem_reverse, mem_whereIx]
    simp [min_eq_right (not_lt.mp h), max_eq_left (not_lt.mp h)]

theorem outWidth_le (r : Transect K) (m : K) (hm : 0 ≤ m) : (outWidth r ≤? fin m) = !(fin m <? r.y1 - r.y2) := by
  unfold outWidth
  cases h : r.y1 - r.y2 <;> simp [isnan, Fl.ble, Fl.blt, hm]
  rw [← decide_not, decide_eq_decide, not_lt]

theorem outletIx_nodup (rows : List (Transect K)) (e0 e1 : Fl K) : (outletIx rows e0 e1).Nodup := by
  unfold outletIx
  split
  · exact (whereIx_sorted _ _).imp (fun h => by omega)
  · rw [List.nodup_reverse]
    exact (whereIx_sorted _ _).imp (fun h => by omega)

end Verif.Model

namespace Verif.Model
open Verif Fl Verif.Spec
variable {K : Type} [Field K] [LinearOrder K] [IsStrictOrderedRing K]

theorem padEnd_length (l : List (Fl K)) (h : l.length = 1 ∨ l.length = 2) : (padEnd l).length = 2 := by
  unfold padEnd
  rcases h with h | h <;> simp [h]

theorem mapM_length {α β : Type} {f : α → Except PyErr β} {l : List α} {r : List β} (h : l.mapM f = .ok r) : r.length = l.length := by
  induction l generalizing r with
  | nil => rw [List.mapM_nil, pure_ok] at h; subst h; rfl
  | cons a l ih =>
    rw [List.mapM_cons] at h
    simp only [bind_ok, pure_ok] at h
    obtain ⟨b, _, t, ht, rfl⟩ := h
    simp [ih ht]

theorem fillNan_length {l v : List (Fl K)} {f : ℕ → Fl K → Fl K} {r : List (Fl K)} (h : fillNan l v f = .ok r) : r.length = l.length := by
  unfold fillNan at h
  split at h
  · simpa using mapM_length h
  · cases h; rfl

theorem fillNan_id {l v : List (Fl K)} {f : ℕ → Fl K → Fl K} (h : ∀ x ∈ l, x.isnan = false) : fillNan l v f = .ok l := by
  unfold fillNan
  rw [if_neg (by simpa using h)]

/-- Lengths in the assembled channel. -/
theorem Assembled.lens [FloorRing K] {pp : PhysPars K} {a : ChanIn K} {out : ChanOut K} {X0 r0 w C1 s1 s onRows outRows}
    (h : Assembled pp a out X0 r0 w C1 s1 s onRows outRows) :
    onRows.length = s.online.length ∧ (out.closed = false → w.length = out.outlet.length ∧ outRows.length = out.outlet.length ∧ out.outlet ≠ []) := by
  refine ⟨gather_length h.hon, fun hc => ?_⟩
  have h1 := (h.closed_of hc).1
  have h2 := h.hout
  rw [hc] at h2
  simp only [Bool.false_eq_true, if_false] at h2
  rcases outlet_inv h.outlet with ⟨_, _, h3⟩ | ⟨_, rs, h3, h4, h5⟩
  · rw [h1] at h3; cases h3
  · rcases h5 with ⟨h5, _⟩ | ⟨_, h5, h6, _⟩
    · rw [h1] at h5; cases h5
    · refine ⟨?_, gather_length h2, h6⟩
      rw [h4, List.length_map, gather_length h3, h5]

/-- Depth and velocity of the channel before gaps are filled. -/
theorem chanHyd_inv {a : ChanIn K} {online outlet : List ℕ} {C : Bool} {onRows : List (Transect K)} {dep vel : List (Fl K)}
    (h : chanHyd a online outlet C onRows = .ok (dep, vel)) :
    ∃ wl lv, gather a.LagoonWL online = .ok wl ∧ gather a.LagoonVel online = .ok lv ∧
      ∃ d0 v0 : List (Fl K), fillNan d0 d0 (fun _ q => q) = .ok dep ∧
      fillNan v0 (List.zipWith (· * ·) dep v0) (fun i q => q / (dep[i]?).getD nan) = .ok vel ∧
      (C = true → d0 = a.RivDep ++ List.zipWith (fun w (r : Transect K) => w - r.z3) wl onRows ∧
        v0 = (a.RivVel ++ lv).set ((a.RivVel ++ lv).length - 1) (fin 0)) ∧
      (C = false → ∃ od ov, gather a.OutletDep outlet = .ok od ∧ gather a.OutletVel outlet = .ok ov ∧
        d0 = a.RivDep ++ List.zipWith (fun w (r : Transect K) => w - r.z3) wl onRows ++ od ++ padEnd a.EndDep ∧
        v0 = a.RivVel ++ lv ++ ov ++ padEnd a.EndVel) := by
  unfold chanHyd at h
  simp only [bind_ok] at h
  obtain ⟨wl, h1, lv, h2, ⟨d0, v0⟩, h3, dep', h4, vel', h5, h6⟩ := h
  rw [pure_ok] at h6
  cases h6
  refine ⟨wl, lv, h1, h2, d0, v0, h4, h5, ?_, ?_⟩
  · rintro rfl
    simp only [if_true, pure_ok] at h3
    cases h3
    exact ⟨rfl, rfl⟩
  · rintro rfl
    simp only [Bool.false_eq_true, if_false, bind_ok, pure_ok] at h3
    obtain ⟨od, h7, ov, h8, h9⟩ := h3
    cases h9
    exact ⟨od, ov, h7, h8, rfl, rfl⟩

theorem chanHyd_mk {a : ChanIn K} {online outlet : List ℕ} {C : Bool} {onRows : List (Transect K)} {dep vel wl lv d0 v0 : List (Fl K)}
    (h1 : gather a.LagoonWL online = .ok wl) (h2 : gather a.LagoonVel online = .ok lv)
    (h3 : fillNan d0 d0 (fun _ q => q) = .ok dep)
    (h4 : fillNan v0 (List.zipWith (· * ·) dep v0) (fun i q => q / (dep[i]?).getD nan) = .ok vel)
    (h5 : C = true → d0 = a.RivDep ++ List.zipWith (fun w (r : Transect K) => w - r.z3) wl onRows ∧
        v0 = (a.RivVel ++ lv).set ((a.RivVel ++ lv).length - 1) (fin 0))
    (h6 : C = false → ∃ od ov, gather a.OutletDep outlet = .ok od ∧ gather a.OutletVel outlet = .ok ov ∧
        d0 = a.RivDep ++ List.zipWith (fun w (r : Transect K) => w - r.z3) wl onRows ++ od ++ padEnd a.EndDep ∧
        v0 = a.RivVel ++ lv ++ ov ++ padEnd a.EndVel) :
    chanHyd a online outlet C onRows = .ok (dep, vel) := by
  unfold chanHyd
  simp only [bind_ok]
  refine ⟨wl, h1, lv, h2, (d0, v0), ?_, dep, h3, vel, h4, rfl⟩
  cases C with
  | true =>
    obtain ⟨rfl, rfl⟩ := h5 rfl
    simp only [if_true, pure_ok]
  | false =>
    obtain ⟨od, ov, h7, h8, rfl, rfl⟩ := h6 rfl
    simp only [Bool.false_eq_true, if_false, bind_ok, pure_ok]
    exact ⟨od, h7, ov, h8, rfl⟩

/-- Lengths of the hydraulic columns. -/
theorem Assembled.hydLen [FloorRing K] {pp : PhysPars K} {a : ChanIn K} {out : ChanOut K} {X0 r0 w C1 s1 s onRows outRows}
    (h : Assembled pp a out X0 r0 w C1 s1 s onRows outRows) (hd : a.RivDep.length = a.RiverElev.length)
    (hv : a.RivVel.length = a.RiverElev.length) (hed : a.EndDep.length = 1 ∨ a.EndDep.length = 2)
    (hev : a.EndVel.length = 1 ∨ a.EndVel.length = 2) :
    out.dep.length = a.RiverElev.length + out.online.length + (if out.closed then 0 else out.outlet.length + 2) ∧
    out.vel.length = a.RiverElev.length + out.online.length + (if out.closed then 0 else out.outlet.length + 2) := by
  obtain ⟨wl, lv, h1, h2, d0, v0, h3, h4, h5, h6⟩ := chanHyd_inv h.hyd
  rw [fillNan_length h3, fillNan_length h4, h.online]
  have l1 := gather_length h1
  have l2 := gather_length h2
  have l3 := h.lens.1
  cases hc : out.closed with
  | true =>
    obtain ⟨rfl, rfl⟩ := h5 hc
    simp [hd, hv, l1, l2, l3]
  | false =>
    obtain ⟨od, ov, h7, h8, rfl, rfl⟩ := h6 hc
    have l4 := gather_length h7
    have l5 := gather_length h8
    simp [hd, hv, l1, l2, l3, l4, l5, padEnd_length _ hed, padEnd_length _ hev]
    omega

end Verif.Model
