import Verif.Lemmas.MorRel

set_option autoImplicit false
set_option linter.unusedSectionVars false

/-! # The toe of the cliff through a step -/

namespace Verif.Model
open Verif Fl List

variable {K : Type} [Field K] [LinearOrder K] [IsStrictOrderedRing K]

/-- Not a positive number. -/
def NotPos (v : Fl K) : Prop := v.isnan = true ∨ (v ≤? fin 0) = true

/-- The second place is not seaward of the first one (or there is none). -/
def Back (y y' : Fl K) : Prop := y'.isnan = true ∨ (y' ≤? y) = true

/-- The cliff has not moved towards the sea. -/
def CliffBack (c c' : Cell K) : Prop := Back c.t.y4 c'.t.y4

theorem back_refl (y : Fl K) : Back y y := by
  unfold Back
  cases y <;> first | exact Or.inl rfl | exact Or.inr rfl | exact Or.inr (by simp)

theorem ble_trans {a b c : Fl K} (h1 : (a ≤? b) = true) (h2 : (b ≤? c) = true) : (a ≤? c) = true := by
  cases a with
  | nan => rw [nan_ble] at h1; cases h1
  | ninf => cases c <;> first | rfl | (cases b <;> cases h2)
  | pinf => cases b <;> first | exact h2 | cases h1
  | fin x =>
    cases b with
    | nan => cases h1
    | ninf => cases h1
    | pinf => cases c <;> first | rfl | cases h2
    | fin y =>
      cases c with
      | fin z =>
        simp only [ble_fin, decide_eq_true_eq] at h1 h2 ⊢
        exact h1.trans h2
      | nan => cases h2
      | ninf => cases h2
      | pinf => rfl

theorem back_trans {a b c : Fl K} (h1 : Back a b) (h2 : Back b c) : Back a c := by
  rcases h2 with h | h
  · exact Or.inl h
  · rcases h1 with h' | h'
    · rw [isnan_iff] at h'
      rw [h', ble_nan] at h
      cases h
    · exact Or.inr (ble_trans h h')

theorem back_of_eq {a b : Fl K} (h : b = a) : Back a b := h ▸ back_refl a

theorem back_add {a r : Fl K} {s : K} (hs : 0 ≤ s) (h : NotPos r) : Back a (a + r * fin s) := by
  unfold NotPos at h
  unfold Back
  cases r with
  | nan => left; cases a <;> rfl
  | pinf => rcases h with h | h <;> cases h
  | ninf =>
    rcases hs.eq_or_lt with rfl | hs
    · left
      have : (ninf * fin 0 : Fl K) = nan := by show infOfSign (-(0 : K)) = nan; unfold infOfSign; simp
      rw [this]
      cases a <;> rfl
    · have : (ninf * fin s : Fl K) = ninf := by show infOfSign (-s) = ninf; unfold infOfSign; simp [hs.ne', hs.not_gt]
      rw [this]
      cases a <;> first | exact Or.inl rfl | exact Or.inr rfl
  | fin x =>
    rcases h with h | h
    · cases h
    · simp only [ble_fin, decide_eq_true_eq] at h
      rw [mul_fin]
      cases a with
      | fin y =>
        right
        simp only [add_fin, ble_fin, decide_eq_true_eq]
        have := mul_nonpos_of_nonpos_of_nonneg h hs
        linarith
      | nan => left; rfl
      | pinf => right; rfl
      | ninf => right; rfl

/-! ## The rates -/

theorem notPos_add {a b : Fl K} (ha : NotPos a) (hb : NotPos b) : NotPos (a + b) := by
  unfold NotPos at *
  cases a <;> cases b <;> first
    | exact Or.inl rfl
    | exact Or.inr rfl
    | (rcases ha with h | h <;> cases h)
    | (rcases hb with h | h <;> cases h)
    | skip
  right
  simp at ha hb ⊢
  linarith

theorem notPos_zero : NotPos (fin 0 : Fl K) := Or.inr (by simp)

theorem notPos_clip (L : K) {r : Fl K} (h : NotPos r) : NotPos (clip L r) := by
  unfold NotPos at *
  unfold clip
  cases r with
  | nan => left; rfl
  | pinf => rcases h with h | h <;> cases h
  | ninf =>
    right
    have : npmax (ninf : Fl K) (fin (-L)) = fin (-L) := rfl
    rw [this, npmin_fin]
    simp only [ble_fin, decide_eq_true_eq]
    rcases le_total 0 L with hL | hL
    · exact (min_le_left _ _).trans (by linarith)
    · exact (min_le_right _ _).trans hL
  | fin x =>
    right
    simp at h
    rw [npmax_fin, npmin_fin]
    simp only [ble_fin, decide_eq_true_eq]
    rcases le_total 0 L with hL | hL
    · exact (min_le_left _ _).trans (max_le h (by linarith))
    · exact (min_le_right _ _).trans hL

theorem scatter_notPos : ∀ {l : List (Fl K)} {ix : List ℕ} {vs l' : List (Fl K)}, (∀ x ∈ l, NotPos x) → (∀ v ∈ vs, NotPos v) →
    scatter (fun old v => old + v) l ix vs = .ok l' → ∀ x ∈ l', NotPos x
  | l, [], [], l', h1, _, h => by cases h; exact h1
  | l, [], _ :: _, l', _, _, h => by cases h
  | l, _ :: _, [], l', _, _, h => by cases h
  | l, i :: ix, v :: vs, l', h1, h2, h => by
    simp only [scatter, bind_ok, ixGet_ok] at h
    obtain ⟨old, ho, h⟩ := h
    refine scatter_notPos ?_ (fun w hw => h2 w (List.mem_cons_of_mem _ hw)) h
    intro x hx
    rcases List.mem_or_eq_of_mem_set hx with hx | rfl
    · exact h1 x hx
    · exact notPos_add (h1 _ (List.mem_of_getElem? ho)) (h2 v (by simp))

theorem pinf_div {y : K} (h : 0 ≤ y) : (pinf / fin y : Fl K) = pinf := by
  show (if 0 ≤ y then pinf else ninf) = pinf
  simp [h]

/-- Erosion of the banks is not negative. -/
theorem bankEro_cases (s : Sec K) : s.bankEro = nan ∨ s.bankEro = pinf ∨ ∃ x, 0 ≤ x ∧ s.bankEro = fin x := by
  have he : s.ero = nan ∨ s.ero = pinf ∨ ∃ x, 0 ≤ x ∧ s.ero = fin x := by
    unfold Sec.ero
    cases s.dvol with
    | nan => left; rfl
    | ninf => right; left; rfl
    | pinf => right; right; exact ⟨0, le_rfl, by show -(fin (0 : K)) = fin 0; simp⟩
    | fin x => right; right; exact ⟨-(min x 0), by simp, by simp⟩
  unfold Sec.bankEro
  rcases he with h | h | ⟨x, hx, h⟩ <;> rw [h] <;> split
  · left; rfl
  · left; rfl
  · left; show infOfSign (0 : K) = nan; simp [infOfSign]
  · right; left; show infOfSign (1 : K) = pinf; simp [infOfSign]
  · right; right; exact ⟨0, le_rfl, by simp⟩
  · right; right; exact ⟨x, hx, by simp⟩

/-- The cliff retreats by erosion, if the bed is lower than the backshore. -/
theorem notPos_bank (s : Sec K) {B d : K} (hd : 0 < d) {z : Fl K} (hz : (fin B ≤? z) = false) :
    NotPos (-(s.bankEro / fin 2 / ((fin B - z) * fin d))) := by
  have h2 : s.bankEro / fin 2 = nan ∨ s.bankEro / fin 2 = pinf ∨ ∃ x, 0 ≤ x ∧ s.bankEro / fin 2 = fin x := by
    rcases bankEro_cases s with h | h | ⟨x, hx, h⟩ <;> rw [h]
    · left; rfl
    · right; left; exact pinf_div (by norm_num)
    · right; right; exact ⟨x / 2, by positivity, by simp [div_fin]⟩
  unfold NotPos
  have hden : (fin B - z) * fin d = nan ∨ (fin B - z) * fin d = pinf ∨ ∃ y, 0 < y ∧ (fin B - z) * fin d = fin y := by
    cases z with
    | nan => left; rfl
    | pinf => cases hz
    | ninf => right; left; show infOfSign d = pinf; simp [infOfSign, hd, hd.ne']
    | fin y =>
      simp at hz
      right; right
      exact ⟨(B - y) * d, mul_pos (by linarith) hd, by simp⟩
  rcases h2 with h | h | ⟨x, hx, h⟩ <;> rw [h] <;> rcases hden with g | g | ⟨y, hy, g⟩ <;> rw [g]
  · left; rfl
  · left; rfl
  · left; rfl
  · left; rfl
  · left; rfl
  · right
    rw [pinf_div hy.le]; rfl
  · left; rfl
  · right
    have : (fin x / pinf : Fl K) = fin 0 := rfl
    rw [this]; simp
  · right
    rw [div_fin _ _ hy.ne']
    simp only [neg_fin, ble_fin, decide_eq_true_eq]
    have := div_nonneg hx hy.le
    linarith

theorem addCol_notPos {l l' : List (Fl K)} {ixs : List ℕ} {ss : List (Sec K)} {rs : List (Transect K)} {f : Sec K → Transect K → Fl K}
    (h1 : ∀ x ∈ l, NotPos x) (h2 : ∀ s, ∀ r ∈ rs, NotPos (f s r)) (h : addCol l ixs ss rs f = .ok l') : ∀ x ∈ l', NotPos x := by
  unfold addCol at h
  split at h
  · cases h
  · refine scatter_notPos h1 ?_ h
    intro v hv
    obtain ⟨k, hk⟩ := List.mem_iff_getElem?.mp hv
    rw [List.getElem?_zipWith] at hk
    cases hs : ss[k]? with
    | none => rw [hs] at hk; cases hk
    | some s =>
      cases hr : rs[k]? with
      | none => rw [hs, hr] at hk; cases hk
      | some r =>
        rw [hs, hr] at hk
        cases hk
        exact h2 s r (List.mem_of_getElem? hr)

theorem river_notPos {pp : PhysPars K} {a : MorIn K} {cells : List (Cell K)} {R : Rates K} (hd : 0 < a.Dx)
    (hz : ∀ i ∈ a.online, ∀ r, a.rows[i]? = some r → (fin pp.BackshoreElev ≤? r.z3) = false) (h : riverRates pp a cells = .ok R) :
    ∀ x ∈ R.y4, NotPos x := by
  have hzero : ∀ x ∈ List.replicate a.rows.length (fin (0 : K)), NotPos x := fun x hx => (List.eq_of_mem_replicate hx) ▸ notPos_zero
  unfold riverRates at h
  simp only [bind_ok] at h
  obtain ⟨ss, _, onRows, hon, z3, _, y3, _, y4, hy4, h⟩ := h
  have key : ∀ x ∈ y4, NotPos x := by
    refine addCol_notPos hzero ?_ hy4
    intro s r hr
    obtain ⟨k, hk⟩ := List.mem_iff_getElem?.mp hr
    have hk' := gather_getElem? hon k
    rw [hk] at hk'
    cases hi : a.online[k]? with
    | none => rw [hi] at hk'; cases hk'
    | some i =>
      rw [hi] at hk'
      exact notPos_bank s hd (hz i (List.mem_of_getElem? hi) r hk'.symm)
  split at h
  · cases h; exact key
  · simp only [bind_ok, pure_ok] at h
    obtain ⟨_, _, _, _, _, _, _, _, _, _, _, _, rfl⟩ := h
    exact key

theorem all_notPos {pp : PhysPars K} {a : MorIn K} {rb : ℕ} {cells cells' : List (Cell K)} {R : Rates K} (hd : 0 < a.Dx)
    (hz : ∀ i ∈ a.online, ∀ r, a.rows[i]? = some r → (fin pp.BackshoreElev ≤? r.z3) = false) (h : allRates pp a rb cells = .ok (R, cells')) :
    (∀ x ∈ R.y4, NotPos x) ∧ cells'.map (fun c => (c.t.y4, c.t.z0, c.sfh)) = cells.map (fun c => (c.t.y4, c.t.z0, c.sfh)) := by
  unfold allRates at h
  simp only [bind_ok] at h
  obtain ⟨R1, h1, ⟨R2, c2⟩, h2, R3, h3, h⟩ := h
  cases h
  have k1 := river_notPos hd hz h1
  have k2 : R2.y4 = R1.y4 ∧ c2.map (fun c => (c.t.y4, c.t.z0, c.sfh)) = cells.map (fun c => (c.t.y4, c.t.z0, c.sfh)) := by
    unfold lstRates at h2
    simp only [bind_ok] at h2
    obtain ⟨y0, _, h2⟩ := h2
    split at h2
    · cases h2; exact ⟨rfl, rfl⟩
    · simp only [bind_ok] at h2
      obtain ⟨l, _, h2⟩ := h2
      split at h2
      · simp only [bind_ok, pure_ok] at h2
        obtain ⟨_, _, h2⟩ := h2
        cases h2; exact ⟨rfl, rfl⟩
      · simp only [bind_ok, pure_ok] at h2
        obtain ⟨_, _, h2⟩ := h2
        cases h2
        refine ⟨rfl, ?_⟩
        apply List.ext_getElem?
        intro i
        simp only [List.getElem?_map, List.getElem?_modify]
        cases cells[i]? with
        | none => rfl
        | some c => simp only [Option.map_some]; split <;> rfl
  have k3 : R.y4 = R2.y4 := by
    unfold cstRates at h3
    dsimp only at h3
    split at h3
    · cases h3
    · cases h3; rfl
  rw [k3, k2.1]
  exact ⟨k1, k2.2⟩

theorem limit_notPos {R R' : Rates K} {v : Fl K} {lim : K} {dtMin dt : ℤ} (h : limitRates v lim dtMin dt R = .ok R') (hp : ∀ x ∈ R.y4, NotPos x) :
    ∀ x ∈ R'.y4, NotPos x := by
  unfold limitRates at h
  split at h
  · simp only [bind_ok] at h
    obtain ⟨_, _, h⟩ := h
    split at h
    · cases h
    · cases h
      intro x hx
      obtain ⟨y, hy, rfl⟩ := List.mem_map.mp hx
      exact notPos_clip _ (hp y hy)
  · cases h; exact hp

/-- A crest that leaves room for the cliff to fall. -/
def Room (pp : PhysPars K) (c : Cell K) : Prop := ∃ z h, c.t.z0 = fin z ∧ c.sfh = fin h ∧ 0 < h ∧ z < pp.BackshoreElev + h

/-- The rates applied: cliffs retreat, crests leave room. -/
theorem force_back {pp : PhysPars K} {a : MorIn K} {dt : ℤ} {X0 : ℕ} {st : MorSt K} (h : forceStage pp a = .ok (dt, X0, st)) (hd : 0 < a.Dx)
    (hB : 0 ≤ a.MaxMorChange) (hroom : a.MaxMorChange < pp.BackshoreElev + pp.ClosureDepth)
    (hcrest : ∀ r ∈ a.rows, ∃ z, r.z0 = fin z ∧ 0 < pp.ClosureDepth + z)
    (hz : ∀ i ∈ a.online, ∀ r, a.rows[i]? = some r → (fin pp.BackshoreElev ≤? r.z3) = false)
    (hfin : ∀ rb cells R cells', precalc pp a = .ok (cells, X0, rb) → allRates pp a rb cells = .ok (R, cells') → R.Finite) :
    st.cells.length = a.rows.length ∧ ∀ (i : ℕ) r, a.rows[i]? = some r → ∃ c, st.cells[i]? = some c ∧ Back r.y4 c.t.y4 ∧ Room pp c := by
  obtain ⟨rb, cells', R, R', rate, hp, hall, hr, hdt, hl, ha⟩ := force_inv h
  have hF := hfin _ _ _ _ hp hall
  obtain ⟨hlen, hlen', _⟩ := allRates_len (by simp) hall
  obtain ⟨hn, hkeep⟩ := all_notPos hd hz hall
  have hn' := limit_notPos hl hn
  obtain ⟨hs, hc⟩ := limit_small hB hF hr hl
  simp only [Rates.cols, List.mem_cons, List.not_mem_nil, or_false, forall_eq_or_imp, forall_eq] at hs
  obtain ⟨_, _, _, _, s4, sz0, _⟩ := hs
  have l4 : R'.y4.length = a.rows.length := by
    have := congrArg (fun l => l[4]?) hc
    simp only [Rates.cols, List.map_cons, List.getElem?_cons_succ, List.getElem?_cons_zero, Option.some.injEq] at this
    rw [this]; exact hlen.2.2.2.2.1
  have lz0 : R'.z0.length = a.rows.length := by
    have := congrArg (fun l => l[5]?) hc
    simp only [Rates.cols, List.map_cons, List.getElem?_cons_succ, List.getElem?_cons_zero, Option.some.injEq] at this
    rw [this]; exact hlen.2.2.2.2.2.1
  have hs0 : (0 : K) ≤ (secs dt : K) := by exact_mod_cast secs_nonneg dt
  unfold applyRates at ha
  simp only at ha
  split at ha
  · cases ha
  · cases ha
    refine ⟨by simp [hlen'], fun i r hi => ?_⟩
    have hil := (List.getElem?_eq_some_iff.mp hi).1
    have hci : cells'[i]? = some (cells'[i]'(by omega)) := List.getElem?_eq_getElem (by omega)
    generalize cells'[i]'(by omega) = c at hci
    have hk := congrArg (fun l => l[i]?) hkeep
    simp only [List.getElem?_map, hci, List.getElem?_mapIdx, hi, Option.map_some, Option.some.injEq, Prod.mk.injEq] at hk
    obtain ⟨k1, k2, k3⟩ := hk
    refine ⟨_, by rw [List.getElem?_mapIdx, hci]; rfl, ?_, ?_⟩
    · have e : (moveCell R' (fin (secs dt : K)) i c).t.y4 = c.t.y4 + (R'.y4[i]?).getD nan * fin (secs dt : K) := rfl
      rw [e, k1, List.getElem?_eq_getElem (by omega)]
      exact back_add hs0 (hn' _ (List.getElem_mem _))
    · obtain ⟨z, hz0, hpos⟩ := hcrest r (List.mem_of_getElem? hi)
      obtain ⟨x, hx, hsm⟩ := sz0 _ (List.getElem_mem (l := R'.z0) (n := i) (by omega))
      have e1 : (moveCell R' (fin (secs dt : K)) i c).t.z0 = fin (z + x * (secs dt : K)) := by
        show c.t.z0 + (R'.z0[i]?).getD nan * fin (secs dt : K) = _
        rw [k2, List.getElem?_eq_getElem (by omega), Option.getD_some, hx, show (mkCell pp a i r).t.z0 = r.z0 from rfl, hz0]
        simp
      have e2 : (moveCell R' (fin (secs dt : K)) i c).sfh = fin (pp.ClosureDepth + z) := by
        show c.sfh = _
        rw [k3]
        show fin pp.ClosureDepth + r.z0 = _
        rw [hz0]; simp
      refine ⟨_, _, e1, e2, hpos, ?_⟩
      have : x * (secs dt : K) ≤ |x| * (secs dt : K) := mul_le_mul_of_nonneg_right (le_abs_self x) hs0
      linarith

/-! ## The repairs -/

theorem cliff_back {pp : PhysPars K} {c : Cell K} (h : Room pp c) : CliffBack c (cliffCell pp c) := by
  obtain ⟨z, hh, h1, h2, h3, h4⟩ := h
  unfold CliffBack cliffCell
  dsimp only
  split
  · next hle =>
    have hden : fin 1 + (fin pp.BackshoreElev - c.t.z0) / c.sfh = fin (1 + (pp.BackshoreElev - z) / hh) := by
      rw [h1, h2, sub_fin, div_fin _ _ h3.ne', add_fin]
    have hpos : 0 < 1 + (pp.BackshoreElev - z) / hh := by
      have : 1 + (pp.BackshoreElev - z) / hh = (hh + (pp.BackshoreElev - z)) / hh := by field_simp
      rw [this]
      exact div_pos (by linarith) h3
    rw [hden]
    show Back c.t.y4 (c.t.y4 - ((c.t.y4 - c.t.y0) + fin (1 / 1000)) / fin (1 + (pp.BackshoreElev - z) / hh))
    cases hy4 : c.t.y4 with
    | nan => left; rfl
    | ninf =>
      rw [hy4] at hle
      cases hy0 : c.t.y0 with
      | ninf => left; rfl
      | nan => left; rfl
      | pinf => rw [hy0] at hle; cases hle
      | fin y => rw [hy0] at hle; cases hle
    | pinf =>
      cases hy0 : c.t.y0 with
      | nan => left; rfl
      | pinf => left; rfl
      | ninf =>
        left
        show (pinf - pinf / fin _ : Fl K).isnan = true
        rw [pinf_div hpos.le]; rfl
      | fin y =>
        left
        show (pinf - pinf / fin _ : Fl K).isnan = true
        rw [pinf_div hpos.le]; rfl
    | fin y4 =>
      rw [hy4] at hle
      cases hy0 : c.t.y0 with
      | nan => left; rfl
      | pinf => rw [hy0] at hle; cases hle
      | ninf =>
        right
        show ((fin y4 - pinf / fin _ : Fl K) ≤? fin y4) = true
        rw [pinf_div hpos.le]; rfl
      | fin y0 =>
        rw [hy0] at hle
        simp only [ble_fin, decide_eq_true_eq] at hle
        right
        rw [sub_fin, add_fin, div_fin _ _ hpos.ne', sub_fin]
        simp only [ble_fin, decide_eq_true_eq]
        have : 0 ≤ (y4 - y0 + 1 / 1000) / (1 + (pp.BackshoreElev - z) / hh) := div_nonneg (by linarith) hpos.le
        linarith
  · exact back_refl _

theorem back_chan (pp : PhysPars K) : ChanRel pp (CliffBack (K := K)) where
  refl _ := back_refl _
  trans _ _ _ h1 h2 := back_trans h1 h2
  setOp _ _ := back_refl _
  extend _ := back_refl _
  elong _ _ := back_refl _
  seaPrevent _ := back_refl _

theorem back_trunc : TruncRel (CliffBack (K := K)) where
  refl _ := back_refl _
  trans _ _ _ h1 h2 := back_trans h1 h2
  overwash c := by
    apply back_of_eq
    unfold overwashCell; dsimp only; split_ifs <;> rfl
  setOp _ _ := back_refl _
  extend _ := back_refl _

theorem back_breach (pp : PhysPars K) : BreachRel pp (CliffBack (K := K)) where
  refl _ := back_refl _
  trans _ _ _ h1 h2 := back_trans h1 h2
  mergeLagoon _ := back_refl _
  setWl _ _ := back_refl _
  mergeShore _ := back_refl _
  restore _ _ := back_refl _
  crest c := by apply back_of_eq; unfold crestCell; split <;> rfl
  breach w z c := by
    unfold CliffBack breachCell
    dsimp only
    split
    · next h =>
      generalize pymin (c.t.y0 - fin pp.SpitWidth) ((c.t.y0 + c.t.y3) / fin 2 + w / fin 2) - w = y2 at h
      refine back_trans (b := y2) (Or.inr h) ?_
      cases y2 with
      | nan => exact Or.inl rfl
      | pinf => exact Or.inr rfl
      | ninf => exact Or.inr rfl
      | fin y => right; simp
    · exact back_refl _

theorem keep_back (pp : PhysPars K) (c : Cell K) : CliffBack c (keepCell pp c) := by
  unfold CliffBack keepCell
  split
  · next h =>
    show Back c.t.y4 (c.t.y3 - fin pp.MinOutletWidth - fin (1 / 1000))
    cases h3 : c.t.y3 with
    | nan => left; rfl
    | pinf =>
      rw [h3] at h
      cases h4 : c.t.y4 with
      | fin y => rw [h4] at h; cases h
      | nan => rw [h4] at h; cases h
      | pinf => rw [h4] at h; cases h
      | ninf => rw [h4] at h; cases h
    | ninf =>
      rw [h3] at h
      cases h4 : c.t.y4 with
      | nan => rw [h4] at h; cases h
      | ninf => right; rfl
      | pinf => right; rfl
      | fin y => right; rfl
    | fin y3 =>
      rw [h3] at h
      cases h4 : c.t.y4 with
      | nan => rw [h4] at h; cases h
      | ninf => rw [h4] at h; cases h
      | pinf => right; rfl
      | fin y4 =>
        rw [h4] at h
        simp only [sub_fin, blt_fin, decide_eq_true_eq] at h
        right
        simp only [sub_fin, ble_fin, decide_eq_true_eq]
        linarith
  · exact back_refl _

/-- All cliffs have retreated, except possibly the one at transect `k`. -/
def BackBut (k : Option ℕ) (l l' : List (Cell K)) : Prop :=
  l'.length = l.length ∧ ∀ (i : ℕ) c c', some i ≠ k → l[i]? = some c → l'[i]? = some c' → CliffBack c c'

theorem backBut_of {l l' : List (Cell K)} (h : Forall₂ CliffBack l l') : BackBut none l l' := by
  refine ⟨h.length_eq.symm, fun i c c' _ hc hc' => ?_⟩
  obtain ⟨d, hd, hr⟩ := forall₂_get h hc
  rw [hd] at hc'
  cases hc'
  exact hr

theorem repair_back {pp : PhysPars K} {C : Bool} {Dx : K} {st st' : MorSt K} (h : repairStage pp C Dx st = .ok st') (hr : ∀ c ∈ st.cells, Room pp c) :
    ∃ k, BackBut k st.cells st'.cells ∧ (C = true → k = none) := by
  unfold repairStage at h
  simp only [bind_ok] at h
  obtain ⟨s1, h1, cs, h2, s3, h3, s4, h4, s5, h5, s6, h6, h7⟩ := h
  have H := back_chan pp
  have t := H.trans
  have e1 : s1.cells = st.cells := by
    unfold edgeCheck at h1
    simp only [bind_ok, pure_ok] at h1
    obtain ⟨_, _, _, _, rfl⟩ := h1
    rfl
  have g1 : Forall₂ CliffBack s1.cells (s1.cells.map (cliffCell pp)) := by
    rw [forall₂_map_right_iff]
    exact forall₂_same.mpr (fun c hc => cliff_back (hr c (e1 ▸ hc)))
  have g : Forall₂ CliffBack st.cells s6.cells := by
    rw [← e1]
    exact forall₂_trans t g1 (forall₂_trans t (overwash_rel back_trunc h2) (forall₂_trans t (elongate_rel H h3) (forall₂_trans t (seaPrevent_rel H h4)
      (forall₂_trans t (lagoonTrunc_rel H.toStageRel h5) (seaTrunc_rel H.toStageRel h6)))))
  unfold lagoonPrevent at h7
  split at h7
  · simp only [pure_ok] at h7
    subst h7
    exact ⟨none, backBut_of g, fun _ => rfl⟩
  · next hC =>
    simp only [bind_ok] at h7
    obtain ⟨i, _, c, _, h7⟩ := h7
    split at h7
    · simp only [pure_ok] at h7
      subst h7
      refine ⟨some i, ⟨by simp [g.length_eq], fun j d d' hj hd hd' => ?_⟩, fun hc => absurd hc hC⟩
      obtain ⟨e, he, hre⟩ := forall₂_get g hd
      rw [getElem?_modify, he] at hd'
      have : i ≠ j := fun hij => hj (by rw [hij])
      simp [this] at hd'
      exact hd' ▸ hre
    · simp only [pure_ok] at h7
      subst h7
      exact ⟨none, backBut_of g, fun _ => rfl⟩

theorem update_back {pp : PhysPars K} {j1 j2 : ℕ → Bool} {a : MorIn K} {o : MorOut K} (h : updateMorphology pp j1 j2 a = .ok o) (hd : 0 < a.Dx)
    (hB : 0 ≤ a.MaxMorChange) (hroom : a.MaxMorChange < pp.BackshoreElev + pp.ClosureDepth)
    (hcrest : ∀ r ∈ a.rows, ∃ z, r.z0 = fin z ∧ 0 < pp.ClosureDepth + z)
    (hz : ∀ i ∈ a.online, ∀ r, a.rows[i]? = some r → (fin pp.BackshoreElev ≤? r.z3) = false)
    (hfin : ∀ X0 rb cells R cells', precalc pp a = .ok (cells, X0, rb) → allRates pp a rb cells = .ok (R, cells') → R.Finite) :
    ∃ k : Option ℕ, (a.Closed = true → k = none) ∧ ∀ (i : ℕ) r r', some i ≠ k → a.rows[i]? = some r → o.rows[i]? = some r' → (r'.y4 ≤? r.y4) = true := by
  obtain ⟨X0, s0, s1, s2, s3, h0, h1, h2, h3, e, _⟩ := update_inv h
  obtain ⟨hl, hf⟩ := force_back h0 hd hB hroom hcrest hz (hfin X0)
  have hr : ∀ c ∈ s0.cells, Room pp c := by
    intro c hc
    obtain ⟨i, hi⟩ := List.mem_iff_getElem?.mp hc
    have hil := (List.getElem?_eq_some_iff.mp hi).1
    obtain ⟨c', hc', _, hR⟩ := hf i _ (List.getElem?_eq_getElem (hl ▸ hil))
    rw [hi] at hc'
    cases hc'
    exact hR
  obtain ⟨k, ⟨hkl, hk⟩, hkc⟩ := repair_back h1 hr
  have g2 := breach_rel (back_breach pp) h2
  unfold finishStage at h3
  simp only [bind_ok, pure_ok, pyAssert_ok] at h3
  obtain ⟨_, _, _, _, _, hnan, rfl⟩ := h3
  have g3 : Forall₂ CliffBack s2.cells (s2.cells.modify X0 (keepCell pp)) := forall₂_modify' (fun _ => back_refl _) (keep_back pp) _ _
  refine ⟨k, hkc, fun i r r' hik hi hi' => ?_⟩
  obtain ⟨c0, hc0, hb0, _⟩ := hf i r hi
  have hil := (List.getElem?_eq_some_iff.mp hc0).1
  have hc1 : s1.cells[i]? = some (s1.cells[i]'(by omega)) := List.getElem?_eq_getElem (by omega)
  have hb1 := hk i c0 _ hik hc0 hc1
  obtain ⟨c2, hc2, hb2⟩ := forall₂_get g2 hc1
  obtain ⟨c3, hc3, hb3⟩ := forall₂_get g3 hc2
  rw [e, List.getElem?_map, hc3] at hi'
  cases hi'
  have hb := back_trans hb0 (back_trans hb1 (back_trans hb2 hb3))
  rcases hb with hn | hb
  · have := List.all_eq_true.mp hnan c3 (List.mem_of_getElem? hc3)
    rw [hn] at this
    cases this
  · exact hb

end Verif.Model
