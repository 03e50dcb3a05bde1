import Verif.Lemmas.MorDt
import Verif.Lemmas.ChannelStore
import Verif.Spec.Mor

set_option autoImplicit false
set_option linter.unusedSectionVars false

/-! # Lemmas on the limiter and the application of the rates -/

namespace Verif.Model
open Verif Fl Verif.Spec

variable {K : Type} [Field K] [LinearOrder K] [IsStrictOrderedRing K]

/-- All rates, column by column. -/
def Rates.cols (R : Rates K) : List (List (Fl K)) :=
  [R.y0, R.y1, R.y2, R.y3, R.y4, R.z0, R.z1, R.z3, R.riv, [R.endW], [R.endZ], [R.endX]]

/-- Every rate is a number. -/
def Rates.Finite (R : Rates K) : Prop := ∀ l ∈ R.cols, ∀ v ∈ l, ∃ x : K, v = fin x

theorem foldl_npmax (t : List K) (x : K) :
    ∃ m, (t.map (fin : K → Fl K)).foldl npmax (fin x) = fin m ∧ x ≤ m ∧ ∀ y ∈ t, y ≤ m := by
  induction t generalizing x with
  | nil => exact ⟨x, rfl, le_refl _, by simp⟩
  | cons a t ih =>
    obtain ⟨m, h1, h2, h3⟩ := ih (max x a)
    refine ⟨m, by simpa using h1, le_trans (le_max_left _ _) h2, ?_⟩
    intro y hy
    rcases List.mem_cons.mp hy with rfl | hy
    · exact le_trans (le_max_right _ _) h2
    · exact h3 y hy

theorem fin_list {l : List (Fl K)} (h : ∀ v ∈ l, ∃ x : K, v = fin x) : ∃ xs : List K, l = xs.map fin := by
  induction l with
  | nil => exact ⟨[], rfl⟩
  | cons a l ih =>
    obtain ⟨x, rfl⟩ := h a (by simp)
    obtain ⟨xs, rfl⟩ := ih (fun v hv => h v (List.mem_cons_of_mem _ hv))
    exact ⟨x :: xs, rfl⟩

theorem maxAbs_fin {l : List (Fl K)} {v : Fl K} (hf : ∀ v ∈ l, ∃ x : K, v = fin x) (h : maxAbs l = .ok v) :
    ∃ m, v = fin m ∧ 0 ≤ m ∧ ∀ x, fin x ∈ l → |x| ≤ m := by
  obtain ⟨xs, rfl⟩ := fin_list hf
  cases xs with
  | nil => cases h
  | cons a t =>
    unfold maxAbs at h
    simp only [List.map_cons, abs_fin, List.map_map] at h
    have e : List.map (Fl.abs ∘ fin) t = (t.map (fun x => |x|)).map (fin : K → Fl K) := by
      rw [List.map_map]; rfl
    rw [e] at h
    obtain ⟨m, h1, h2, h3⟩ := foldl_npmax (t.map (fun x => |x|)) |a|
    rw [h1] at h
    cases h
    refine ⟨m, rfl, le_trans (abs_nonneg _) h2, ?_⟩
    intro x hx
    rcases List.mem_cons.mp hx with h | h
    · cases h; exact h2
    · obtain ⟨y, hy, e⟩ := List.mem_map.mp h
      cases e
      exact h3 _ (List.mem_map.mpr ⟨x, hy, rfl⟩)

/-- The largest rate bounds every rate. -/
theorem maxRate_fin {R : Rates K} {v : Fl K} (hf : R.Finite) (h : maxRate R = .ok v) :
    ∃ m, v = fin m ∧ ∀ l ∈ R.cols, ∀ x, fin x ∈ l → |x| ≤ m := by
  unfold maxRate at h
  simp only [bind_ok, pure_ok] at h
  obtain ⟨v1, h1, v2, h2, v3, h3, rfl⟩ := h
  have F : ∀ l ∈ R.cols, ∀ v ∈ l, ∃ x : K, v = fin x := hf
  simp only [Rates.cols, List.mem_cons, List.not_mem_nil, or_false, forall_eq_or_imp, forall_eq] at F
  obtain ⟨f0, f1, f2, f3, f4, fz0, fz1, fz3, fr, fw, fz, fx⟩ := F
  obtain ⟨m1, rfl, p1, q1⟩ := maxAbs_fin fr h1
  obtain ⟨m2, rfl, p2, q2⟩ := maxAbs_fin (by
    intro v hv
    simp only [List.mem_append] at hv
    rcases hv with (((hv | hv) | hv) | hv) | hv
    · exact f0 v hv
    · exact f1 v hv
    · exact f2 v hv
    · exact f3 v hv
    · exact f4 v hv) h2
  obtain ⟨m3, rfl, p3, q3⟩ := maxAbs_fin (by
    intro v hv
    simp only [List.mem_append, List.mem_map] at hv
    rcases hv with ((hv | hv) | ⟨_, _, rfl⟩) | hv
    · exact fz0 v hv
    · exact fz1 v hv
    · exact ⟨0, rfl⟩
    · exact fz3 v hv) h3
  obtain ⟨w, hw⟩ := fw
  obtain ⟨z, hz⟩ := fz
  obtain ⟨x', hx⟩ := fx
  rw [hw, hz, hx]
  simp only [abs_fin, pymax_fin]
  refine ⟨_, rfl, ?_⟩
  have hb : ∀ l ∈ R.cols, ∀ x, fin x ∈ l → |x| ≤ m1 ∨ |x| ≤ m2 ∨ |x| ≤ m3 ∨ |x| ≤ |w| ∨ |x| ≤ |z| ∨ |x| ≤ |x'| := by
    intro l hl x hx'
    simp only [Rates.cols, List.mem_cons, List.not_mem_nil, or_false] at hl
    rcases hl with rfl | rfl | rfl | rfl | rfl | rfl | rfl | rfl | rfl | rfl | rfl | rfl
    · exact Or.inr (Or.inl (q2 x (by simp [hx'])))
    · exact Or.inr (Or.inl (q2 x (by simp [hx'])))
    · exact Or.inr (Or.inl (q2 x (by simp [hx'])))
    · exact Or.inr (Or.inl (q2 x (by simp [hx'])))
    · exact Or.inr (Or.inl (q2 x (by simp [hx'])))
    · exact Or.inr (Or.inr (Or.inl (q3 x (by simp [hx']))))
    · exact Or.inr (Or.inr (Or.inl (q3 x (by simp [hx']))))
    · exact Or.inr (Or.inr (Or.inl (q3 x (by simp [hx']))))
    · exact Or.inl (q1 x hx')
    · rw [hw] at hx'; simp at hx'; subst hx'; simp
    · rw [hz] at hx'; simp at hx'; subst hx'; simp
    · rw [hx] at hx'; simp at hx'; subst hx'; simp
  intro l hl x hx'
  simp only [le_max_iff]
  rcases hb l hl x hx' with h | h | h | h | h | h <;> simp [h]

/-- `v` is a rate moving things by at most `B` in `s` seconds. -/
def Small (B s : K) (v : Fl K) : Prop := ∃ x, v = fin x ∧ |x| * s ≤ B

theorem secs_nonneg (dt : ℤ) : 0 ≤ secs dt := Int.emod_nonneg _ (by norm_num)

theorem abs_clip {L x : K} (h : 0 ≤ L) : |min (max x (-L)) L| ≤ L := by
  rw [abs_le]
  constructor
  · exact le_min (le_max_right _ _) (by linarith)
  · exact min_le_right _ _

theorem clip_small {L s B : K} (hL : 0 ≤ L) (hs : 0 ≤ s) (e : L * s = B) {v : Fl K} (h : ∃ x : K, v = fin x) : Small B s (clip L v) := by
  obtain ⟨x, rfl⟩ := h
  refine ⟨min (max x (-L)) L, by simp [clip], ?_⟩
  rw [← e]
  exact mul_le_mul_of_nonneg_right (abs_clip hL) hs

theorem pyClip_small {L s B : K} (hL : 0 ≤ L) (hs : 0 ≤ s) (e : L * s = B) {v : Fl K} (h : ∃ x : K, v = fin x) : Small B s (pyClip L v) := by
  obtain ⟨x, rfl⟩ := h
  refine ⟨min (max x (-L)) L, by simp [pyClip], ?_⟩
  rw [← e]
  exact mul_le_mul_of_nonneg_right (abs_clip hL) hs

/-- After the limiter no rate moves anything by more than the limit, and the number of rates is the same. -/
theorem limit_small {R R' : Rates K} {v : Fl K} {lim : K} {dtMin dt : ℤ} (hlim : 0 ≤ lim) (hf : R.Finite) (hm : maxRate R = .ok v)
    (h : limitRates v lim dtMin dt R = .ok R') :
    (∀ l ∈ R'.cols, ∀ r ∈ l, Small lim (secs dt : K) r) ∧ R'.cols.map List.length = R.cols.map List.length := by
  obtain ⟨m, rfl, hb⟩ := maxRate_fin hf hm
  have hs : (0 : K) ≤ (secs dt : K) := by exact_mod_cast secs_nonneg dt
  unfold limitRates at h
  split at h
  · simp only [bind_ok, pyAssert_ok] at h
    obtain ⟨_, _, h⟩ := h
    split at h
    · cases h
    · rename_i hne
      have hpos : (0 : K) < (secs dt : K) := by
        have : 0 < secs dt := lt_of_le_of_ne (secs_nonneg dt) (Ne.symm hne)
        exact_mod_cast this
      have hL : 0 ≤ lim / (secs dt : K) := div_nonneg hlim hs
      have e : lim / (secs dt : K) * (secs dt : K) = lim := div_mul_cancel₀ _ (ne_of_gt hpos)
      cases h
      have F : ∀ l ∈ R.cols, ∀ v ∈ l, ∃ x : K, v = fin x := hf
      simp only [Rates.cols, List.mem_cons, List.not_mem_nil, or_false, forall_eq_or_imp, forall_eq] at F
      obtain ⟨f0, f1, f2, f3, f4, fz0, fz1, fz3, fr, fw, fz, fx⟩ := F
      have hc : ∀ l : List (Fl K), (∀ v ∈ l, ∃ x : K, v = fin x) → ∀ v ∈ l.map (clip (lim / (secs dt : K))), Small lim (secs dt : K) v := by
        intro l hl v hv
        obtain ⟨u, hu, rfl⟩ := List.mem_map.mp hv
        exact clip_small hL hs e (hl u hu)
      refine ⟨?_, by simp [Rates.cols]⟩
      simp only [Rates.cols, List.mem_cons, List.not_mem_nil, or_false, forall_eq_or_imp, forall_eq]
      exact ⟨hc _ f0, hc _ f1, hc _ f2, hc _ f3, hc _ f4, hc _ fz0, hc _ fz1, hc _ fz3, hc _ fr, clip_small hL hs e fw,
        pyClip_small hL hs e fz, pyClip_small hL hs e fx⟩
  · rename_i hn
    cases h
    refine ⟨?_, rfl⟩
    intro l hl r hr
    obtain ⟨x, rfl⟩ := hf l hl r hr
    refine ⟨x, rfl, ?_⟩
    simp only [mul_fin, blt_fin, decide_eq_true_eq, not_lt] at hn
    exact le_trans (mul_le_mul_of_nonneg_right (hb l hl x hr) hs) hn

theorem moved_add {m s : K} (hs : 0 ≤ s) {a r : Fl K} (ha : Plain a) (hr : Small m s r) : Moved m a (a + r * fin s) := by
  obtain ⟨x, rfl, hx⟩ := hr
  rcases ha with rfl | ⟨y, rfl⟩
  · left; simp
  · right
    refine ⟨y, y + x * s, rfl, by simp, ?_⟩
    have : y + x * s - y = x * s := by ring
    rw [this, abs_mul, abs_of_nonneg hs]
    exact hx

theorem moved_refl {m : K} (hm : 0 ≤ m) {a : Fl K} (ha : Plain a) : Moved m a a := by
  rcases ha with rfl | ⟨y, rfl⟩
  · exact Or.inl ⟨rfl, rfl⟩
  · exact Or.inr ⟨y, y, rfl, rfl, by simpa using hm⟩

/-- Lengths of the columns computed by the river stage. -/
theorem addCol_length {l l' : List (Fl K)} {ixs : List ℕ} {ss : List (Sec K)} {rs : List (Transect K)} {f : Sec K → Transect K → Fl K}
    (h : addCol l ixs ss rs f = .ok l') : l'.length = l.length := by
  unfold addCol at h
  split at h
  · cases h
  · generalize List.zipWith f ss rs = vs at h
    clear * - h
    induction ixs generalizing l vs with
    | nil => cases vs with
      | nil => unfold scatter at h; cases h; rfl
      | cons => unfold scatter at h; cases h
    | cons i ixs ih => cases vs with
      | nil => unfold scatter at h; cases h
      | cons v vs =>
        unfold scatter at h
        simp only [bind_ok, ixGet_ok] at h
        obtain ⟨_, _, h⟩ := h
        have := ih _ h
        simpa using this

/-- One rate per transect in every column. -/
def Rates.Len (n : ℕ) (R : Rates K) : Prop :=
  R.y0.length = n ∧ R.y1.length = n ∧ R.y2.length = n ∧ R.y3.length = n ∧ R.y4.length = n ∧ R.z0.length = n ∧ R.z1.length = n ∧
    R.z3.length = n

theorem riverRates_len {pp : PhysPars K} {a : MorIn K} {cells : List (Cell K)} {R : Rates K} (hc : cells.length = a.rows.length)
    (h : riverRates pp a cells = .ok R) : R.Len a.rows.length := by
  unfold riverRates at h
  simp only [bind_ok] at h
  obtain ⟨ss, _, onRows, _, z3, h3, y3, h4, y4, h5, h⟩ := h
  have e3 := addCol_length h3
  have e4 := addCol_length h4
  have e5 := addCol_length h5
  simp only [List.length_replicate] at e3 e4 e5
  split at h
  · cases h
    simp [Rates.Len, e3, e4, e5]
  · simp only [bind_ok] at h
    obtain ⟨outRows, _, z1, h6, y1, h7, y2, h8, e, _, bl, _, h⟩ := h
    have e6 := addCol_length h6
    have e7 := addCol_length h7
    have e8 := addCol_length h8
    simp only [List.length_replicate] at e6 e7 e8
    cases h
    simp [Rates.Len, e3, e4, e5, e6, e7, e8, hc]

/-- Whether line 152 (which moves the shoreline directly) is skipped. -/
def noDirect (a : MorIn K) (rb : ℕ) : Prop := a.Closed = true ∨ ∃ l, a.LST[prevIx a.LST.length rb]? = some l ∧ (fin 0 <? l) = true

theorem lstRates_len {pp : PhysPars K} {a : MorIn K} {rb n : ℕ} {cells cells' : List (Cell K)} {R R' : Rates K}
    (hc : cells.length = n) (hR : R.Len n) (h : lstRates pp a rb cells R = .ok (R', cells')) :
    R'.Len n ∧ cells'.length = n ∧ (noDirect a rb → cells' = cells) := by
  obtain ⟨l0, l1, l2, l3, l4, l5, l6, l7⟩ := hR
  unfold lstRates at h
  simp only [bind_ok] at h
  obtain ⟨y0, hy, h⟩ := h
  have hy0 : y0.length = n := by
    unfold lstInterior at hy
    simp only at hy
    split at hy
    · cases hy
    · cases hy
      simp [l0, hc]
  split at h
  · cases h
    exact ⟨⟨hy0, l1, l2, l3, l4, l5, l6, l7⟩, hc, fun _ => rfl⟩
  · rename_i hcl
    simp only [bind_ok, ixGet_ok] at h
    obtain ⟨l, hl, h⟩ := h
    split at h
    · simp only [bind_ok, ixGet_ok] at h
      obtain ⟨c, _, h⟩ := h
      cases h
      exact ⟨⟨by simp [hy0], l1, l2, l3, l4, l5, l6, l7⟩, hc, fun _ => rfl⟩
    · rename_i hneg
      simp only [bind_ok, ixGet_ok] at h
      obtain ⟨c, _, h⟩ := h
      cases h
      refine ⟨⟨hy0, l1, l2, l3, l4, l5, l6, l7⟩, by simp [hc], ?_⟩
      rintro (h | ⟨l', hl', hp⟩)
      · exact absurd h hcl
      · rw [hl] at hl'; cases hl'
        exact absurd hp hneg

theorem cstRates_len {pp : PhysPars K} {a : MorIn K} {n : ℕ} {cells : List (Cell K)} {R R' : Rates K}
    (hc : cells.length = n) (hR : R.Len n) (h : cstRates pp a cells R = .ok R') : R'.Len n := by
  obtain ⟨l0, l1, l2, l3, l4, l5, l6, l7⟩ := hR
  unfold cstRates at h
  simp only at h
  split at h
  · cases h
  · cases h
    simp [Rates.Len, l0, l1, l2, l3, l4, l5, l6, l7, hc]

theorem allRates_len {pp : PhysPars K} {a : MorIn K} {rb : ℕ} {cells cells' : List (Cell K)} {R : Rates K}
    (hc : cells.length = a.rows.length) (h : allRates pp a rb cells = .ok (R, cells')) :
    R.Len a.rows.length ∧ cells'.length = a.rows.length ∧ (noDirect a rb → cells' = cells) := by
  unfold allRates at h
  simp only [bind_ok] at h
  obtain ⟨R1, h1, ⟨R2, c2⟩, h2, R3, h3, h⟩ := h
  cases h
  have g1 := riverRates_len hc h1
  obtain ⟨g2, g3, g4⟩ := lstRates_len hc g1 h2
  exact ⟨cstRates_len g3 g2 h3, g3, g4⟩

/-- What the first half of the function computes. -/
theorem force_inv {pp : PhysPars K} {a : MorIn K} {dt : ℤ} {X0 : ℕ} {st : MorSt K} (h : forceStage pp a = .ok (dt, X0, st)) :
    ∃ (rb : ℕ) (cells' : List (Cell K)) (R R' : Rates K) (rate : Fl K),
      precalc pp a = .ok (a.rows.mapIdx (mkCell pp a), X0, rb) ∧ allRates pp a rb (a.rows.mapIdx (mkCell pp a)) = .ok (R, cells') ∧
      maxRate R = .ok rate ∧ adaptDt rate a.MaxMorChange a.MorDtMin a.MorDtMax a.MorDt = .ok dt ∧
      limitRates rate a.MaxMorChange a.MorDtMin dt R = .ok R' ∧ applyRates a dt R' cells' = .ok st := by
  unfold forceStage at h
  simp only [bind_ok, pure_ok] at h
  obtain ⟨⟨cells, x, rb⟩, hp, ⟨R, cells'⟩, hall, rate, hr, dt', hd, R', hl, st', ha, he⟩ := h
  cases he
  have e : cells = a.rows.mapIdx (mkCell pp a) := by
    unfold precalc at hp
    simp only [bind_ok] at hp
    obtain ⟨_, _, _, _, hp⟩ := hp
    split at hp
    · cases hp
    · split at hp
      · cases hp
      · simp only [bind_ok, pure_ok] at hp
        obtain ⟨_, _, _, _, hp⟩ := hp
        cases hp; rfl
  subst e
  exact ⟨rb, cells', R, R', rate, hp, hall, hr, hd, hl, ha⟩

theorem precalc_rb {pp : PhysPars K} {a : MorIn K} {cells : List (Cell K)} {X0 rb : ℕ} (h : precalc pp a = .ok (cells, X0, rb)) :
    firstIx (fun r : Transect K => fin r.x ==? fin 0) a.rows = .ok X0 ∧
      (a.Closed = false → firstIx (fun r : Transect K => a.EndX1 <? fin r.x) a.rows = .ok rb) ∧
      ∀ c ∈ cells, (fin 0 <? c.cw) = true := by
  unfold precalc at h
  simp only [bind_ok] at h
  obtain ⟨_, h1, _, h2, hp⟩ := h
  split at hp
  · cases hp
  · split at hp
    · cases hp
    · simp only [bind_ok, pure_ok, pyAssert_ok] at hp
      obtain ⟨_, _, _, hw, hp⟩ := hp
      cases hp
      refine ⟨h1, fun hc => ?_, fun c hc => ?_⟩
      · rw [hc] at h2; exact h2
      · exact List.all_eq_true.mp hw c hc

/-- The rates applied: everything moves by at most the limit. -/
theorem apply_small {a : MorIn K} {dt : ℤ} {R : Rates K} {cells : List (Cell K)} {st : MorSt K} {B : K} (hB : 0 ≤ B)
    (h : applyRates a dt R cells = .ok st) (hR : R.Len cells.length) (hs : ∀ l ∈ R.cols, ∀ r ∈ l, Small B (secs dt : K) r)
    (hriv : ∀ z ∈ a.RiverElev, Plain z) (hx : Plain a.EndX1) (hw : Plain a.EndWidth) (hz : Plain a.EndElev) :
    (∀ (i : ℕ) c, cells[i]? = some c → Plain c.t.y0 → Plain c.t.y1 → Plain c.t.y2 → Plain c.t.y3 → Plain c.t.y4 →
      Plain c.t.z0 → Plain c.t.z1 → Plain c.t.z3 → ∃ c', st.cells[i]? = some c' ∧ c'.t.x = c.t.x ∧
        Moved B c.t.y0 c'.t.y0 ∧ Moved B c.t.y1 c'.t.y1 ∧ Moved B c.t.y2 c'.t.y2 ∧ Moved B c.t.y3 c'.t.y3 ∧ Moved B c.t.y4 c'.t.y4 ∧
        Moved B c.t.z0 c'.t.z0 ∧ Moved B c.t.z1 c'.t.z1 ∧ c'.t.z2 = c.t.z2 ∧ Moved B c.t.z3 c'.t.z3) ∧
    (∀ (i : ℕ) z, a.RiverElev[i]? = some z → ∃ z', st.riv[i]? = some z' ∧ Moved B z z') ∧
    Moved B a.EndX1 st.e1 ∧ Moved B a.EndWidth st.endW ∧ Moved B a.EndElev st.endZ := by
  have hs0 : (0 : K) ≤ (secs dt : K) := by exact_mod_cast secs_nonneg dt
  simp only [Rates.cols, List.mem_cons, List.not_mem_nil, or_false, forall_eq_or_imp, forall_eq] at hs
  obtain ⟨s0, s1, s2, s3, s4, sz0, sz1, sz3, sr, sw, sz, sx⟩ := hs
  obtain ⟨l0, l1, l2, l3, l4, l5, l6, l7⟩ := hR
  unfold applyRates at h
  simp only at h
  split at h
  · cases h
  · rename_i hlen
    push Not at hlen
    cases h
    refine ⟨?_, ?_, ?_, ?_, ?_⟩
    · intro i c hc p0 p1 p2 p3 p4 q0 q1 q3
      have hi := (List.getElem?_eq_some_iff.mp hc).1
      have key : ∀ (l : List (Fl K)) (v : Fl K), l.length = cells.length → (∀ r ∈ l, Small B (secs dt : K) r) → Plain v →
          Moved B v (v + (l[i]?).getD nan * fin (secs dt : K)) := by
        intro l v hl hsm hv
        rw [List.getElem?_eq_getElem (by omega)]
        exact moved_add hs0 hv (hsm _ (List.getElem_mem _))
      refine ⟨moveCell R (fin (secs dt : K)) i c, by rw [List.getElem?_mapIdx, hc]; rfl, rfl, ?_⟩
      exact ⟨key _ _ l0 s0 p0, key _ _ l1 s1 p1, key _ _ l2 s2 p2, key _ _ l3 s3 p3, key _ _ l4 s4 p4, key _ _ l5 sz0 q0,
        key _ _ l6 sz1 q1, rfl, key _ _ l7 sz3 q3⟩
    · intro i z hz'
      have hz1 := hriv z (List.mem_of_getElem? hz')
      cases hre : a.RiverElev with
      | nil => rw [hre] at hz'; simp at hz'
      | cons z0 zs =>
        rw [hre] at hz' hlen
        cases i with
        | zero =>
          simp at hz'
          subst hz'
          exact ⟨z0, by simp, moved_refl hB hz1⟩
        | succ i =>
          simp at hz'
          have hi := (List.getElem?_eq_some_iff.mp hz').1
          have hi2 : i < R.riv.length := by simp at hlen; omega
          refine ⟨z + R.riv[i] * fin (secs dt : K), ?_, moved_add hs0 hz1 (sr _ (List.getElem_mem _))⟩
          simp [List.getElem?_zipWith, hz', List.getElem?_eq_getElem hi2]
    · cases a.Closed with
      | true => exact moved_refl hB hx
      | false => exact moved_add hs0 hx sx
    · cases a.Closed with
      | true => exact moved_refl hB hw
      | false => exact moved_add hs0 hw sw
    · cases a.Closed with
      | true => exact moved_refl hB hz
      | false => exact moved_add hs0 hz sz

end Verif.Model
