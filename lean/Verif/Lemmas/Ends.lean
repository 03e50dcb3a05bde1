import Verif.Lemmas.MorRel
import Verif.Lemmas.MorShore

set_option autoImplicit false
set_option linter.unusedSectionVars false

/-! # The shoreline at the two ends of the model through a step -/

namespace Verif.Model
open Verif Fl List

variable {K : Type} [Field K] [LinearOrder K] [IsStrictOrderedRing K]

theorem nan_add' (v : Fl K) : nan + v = nan := by cases v <;> rfl
theorem nan_sub' (v : Fl K) : nan - v = nan := by cases v <;> rfl
theorem sub_nan' (v : Fl K) : v - nan = nan := by cases v <;> rfl
theorem add_nan' (v : Fl K) : v + nan = nan := by cases v <;> rfl
theorem nan_mul' (v : Fl K) : nan * v = nan := by cases v <;> rfl
theorem nan_div' (v : Fl K) : nan / v = nan := by cases v <;> rfl

/-- A transect without a channel whose shoreline is seaward of the lagoon. -/
def Free (c : Cell K) : Prop := c.t.y1 = nan ∧ c.t.y2 = nan ∧ (c.t.y0 ≤? c.t.y3) = false

/-- The shoreline of a free transect has not moved (or is lost). -/
def KeepShore (c c' : Cell K) : Prop :=
  (c.t.y0 = nan → c'.t.y0 = nan) ∧ (Free c → c'.t.y0 = nan ∨ (c'.t.y0 = c.t.y0 ∧ Free c'))

theorem keepShore_refl (c : Cell K) : KeepShore c c := ⟨fun h => h, fun h => Or.inr ⟨rfl, h⟩⟩

theorem keepShore_trans (a b c : Cell K) (h1 : KeepShore a b) (h2 : KeepShore b c) : KeepShore a c := by
  refine ⟨fun h => h2.1 (h1.1 h), fun h => ?_⟩
  rcases h1.2 h with hn | ⟨e, hf⟩
  · exact Or.inl (h2.1 hn)
  · rcases h2.2 hf with hn | ⟨e', hf'⟩
    · exact Or.inl hn
    · exact Or.inr ⟨e'.trans e, hf'⟩

theorem keepShore_trunc : TruncRel (KeepShore (K := K)) where
  refl := keepShore_refl
  trans := keepShore_trans
  overwash c := by
    refine ⟨fun h => ?_, fun h => Or.inr ?_⟩
    · unfold overwashCell; dsimp only; split_ifs <;> exact h
    · have : negWidth c = false := by simp [negWidth, h.1]
      unfold overwashCell
      rw [this]
      exact ⟨rfl, h⟩
  setOp c b := ⟨fun h => h, fun h => Or.inr ⟨rfl, h⟩⟩
  extend c := ⟨fun h => h, fun h => Or.inr ⟨rfl, rfl, rfl, by
    show (c.t.y0 ≤? c.t.y1) = false
    rw [h.1]; simp⟩⟩

theorem keepShore_seaPrevent (c : Cell K) : KeepShore c (seaPreventCell c) :=
  ⟨fun h => h, fun h => Or.inr ⟨rfl, by simp only [seaPreventCell, h.1, nan_sub'], by simp only [seaPreventCell, h.2.1, nan_sub'], h.2.2⟩⟩

theorem keepShore_lagoonPrevent (pp : PhysPars K) (c : Cell K) : KeepShore c (lagoonPreventCell pp c) := by
  refine ⟨fun h => ?_, fun h => Or.inr ?_⟩
  · unfold lagoonPreventCell; dsimp only; split <;> exact h
  · unfold lagoonPreventCell
    dsimp only
    rw [h.2.1, nan_sub', nan_blt]
    exact ⟨rfl, h.1, rfl, by show (c.t.y0 ≤? nan) = false; simp⟩

theorem keepShore_merge (pp : PhysPars K) : MergeRel pp (KeepShore (K := K)) where
  refl := keepShore_refl
  trans := keepShore_trans
  mergeLagoon c := ⟨fun h => h, fun h => Or.inr ⟨rfl, rfl, rfl, by
    show (c.t.y0 ≤? (c.t.y3 + (c.t.y1 - c.t.y2))) = false
    rw [h.1, nan_sub', add_nan']; simp⟩⟩
  setWl c w := ⟨fun h => h, fun h => Or.inr ⟨rfl, h⟩⟩
  mergeShore c := by
    refine ⟨fun h => ?_, fun h => Or.inl ?_⟩
    · show c.t.y0 - (c.t.y1 - c.t.y2) * (c.t.z2 - c.t.z1) / (c.t.z2 + fin pp.ClosureDepth) = nan
      rw [h, nan_sub']
    · show c.t.y0 - (c.t.y1 - c.t.y2) * (c.t.z2 - c.t.z1) / (c.t.z2 + fin pp.ClosureDepth) = nan
      rw [h.1, nan_sub', nan_mul', nan_div', sub_nan']
  restore c he := by
    unfold eroded at he
    rw [Bool.and_eq_true] at he
    refine ⟨fun h => ?_, fun h => ?_⟩
    · rw [h, nan_ble] at he; cases he.1
    · rw [h.2.2] at he; cases he.1
  crest c := by
    unfold crestCell
    split
    · exact ⟨fun h => h, fun h => Or.inr ⟨rfl, h⟩⟩
    · exact keepShore_refl c

theorem create_shore {pp : PhysPars K} {conn : Option (ℤ × ℤ)} {b : Option ℕ} {st st' : MorSt K} (h : createBreach pp conn b st = .ok st') :
    Forall₂ (fun c c' : Cell K => c'.t.y0 = c.t.y0) st.cells st'.cells := by
  have hr : ∀ l : List (Cell K), Forall₂ (fun c c' : Cell K => c'.t.y0 = c.t.y0) l l := fun l => forall₂_same.mpr (fun _ _ => rfl)
  unfold createBreach at h
  split at h
  · simp only [pure_ok] at h; cases h; exact hr _
  · simp only [bind_ok] at h
    obtain ⟨c, _, h⟩ := h
    split at h
    · simp only [pure_ok] at h; cases h; exact hr _
    · simp only [pure_ok] at h; cases h
      exact forall₂_modify' (R := fun c c' : Cell K => c'.t.y0 = c.t.y0) (fun _ => rfl) (f := breachCell pp _ _) (fun _ => rfl) _ _

theorem breach_keeps {pp : PhysPars K} {j1 j2 : ℕ → Bool} {C B : Bool} {X0 : ℕ} {st st' : MorSt K} (h : breachStage pp j1 j2 C X0 st = .ok (B, st'))
    {i : ℕ} {c : Cell K} (hc : st.cells[i]? = some c) :
    ∃ c', st'.cells[i]? = some c' ∧ (c.t.y0 = nan → c'.t.y0 = nan) ∧ (Free c → c'.t.y0 = nan ∨ c'.t.y0 = c.t.y0) := by
  unfold breachStage at h
  simp only [bind_ok] at h
  obtain ⟨⟨conn, t1⟩, g1, ⟨b2, t2⟩, g2, ⟨b3, t3⟩, g3, ⟨b4, t4⟩, g4, t5, g5, g6⟩ := h
  simp only [pure_ok] at g6
  cases g6
  have H := keepShore_merge pp
  have t := H.trans
  have e0 : Forall₂ KeepShore st.cells (mergeLagoon j1 st.cells) := by
    apply forall₂_mapIdx'
    intro i c; split
    · exact H.mergeLagoon _
    · exact H.refl _
  have g := forall₂_trans t e0 (forall₂_trans t (connected_rel H g1) (forall₂_trans t (mergeShore_rel H g2) (forall₂_trans t (erosion_rel H g3) (overtop_rel H g4))))
  obtain ⟨c1, hc1, r1⟩ := forall₂_get g hc
  obtain ⟨c2, hc2, r2⟩ := forall₂_get (create_shore g5) hc1
  refine ⟨c2, hc2, fun hn => r2.trans (r1.1 hn), fun hf => ?_⟩
  rcases r1.2 hf with hn | ⟨e, _⟩
  · exact Or.inl (r2.trans hn)
  · exact Or.inr (r2.trans e)

/-- Breaches do not move the shoreline of a free transect. -/
theorem breach_shore {pp : PhysPars K} {j1 j2 : ℕ → Bool} {C B : Bool} {X0 : ℕ} {st st' : MorSt K} (h : breachStage pp j1 j2 C X0 st = .ok (B, st'))
    {i : ℕ} {c : Cell K} (hc : st.cells[i]? = some c) (hf : Free c) : ∃ c', st'.cells[i]? = some c' ∧ (c'.t.y0 = nan ∨ c'.t.y0 = c.t.y0) := by
  obtain ⟨c1, hc1, r1⟩ := breach_keeps h hc
  exact ⟨c1, hc1, r1.2 hf⟩

theorem breach_nan {pp : PhysPars K} {j1 j2 : ℕ → Bool} {C B : Bool} {X0 : ℕ} {st st' : MorSt K} (h : breachStage pp j1 j2 C X0 st = .ok (B, st'))
    {i : ℕ} {c : Cell K} (hc : st.cells[i]? = some c) (hf : c.t.y0 = nan) : ∃ c', st'.cells[i]? = some c' ∧ c'.t.y0 = nan := by
  obtain ⟨c1, hc1, r1⟩ := breach_keeps h hc
  exact ⟨c1, hc1, r1.1 hf⟩

/-! ## The repairs -/

/-- One of the two ends of a list of length `n`. -/
def IsEnd (n i : ℕ) : Prop := i = 0 ∨ i + 1 = n

theorem elongate_end {pp : PhysPars K} {C : Bool} {st st' : MorSt K} (h : elongate pp C st = .ok st') {n : ℕ} (hn : st.cells.length = n)
    (hs : st.cells.Pairwise (fun a b => a.t.x < b.t.x)) {i : ℕ} (hi : IsEnd n i) {c : Cell K} (hc : st.cells[i]? = some c)
    (he : C = false → ∃ e : K, st.e1 = fin e ∧ (i = 0 → c.t.x < e) ∧ (i + 1 = n → e < c.t.x)) : st'.cells[i]? = some c := by
  have hlt : ∀ (j k : ℕ) (a b : Cell K), st.cells[j]? = some a → st.cells[k]? = some b → j < k → a.t.x < b.t.x := by
    intro j k a b ha hb hjk
    obtain ⟨h1, rfl⟩ := List.getElem?_eq_some_iff.mp ha
    obtain ⟨h2, rfl⟩ := List.getElem?_eq_some_iff.mp hb
    exact List.pairwise_iff_getElem.mp hs j k h1 h2 hjk
  have hle0 : ∀ (k : ℕ) (b : Cell K), i = 0 → st.cells[k]? = some b → c.t.x ≤ b.t.x := by
    intro k b h0 hb
    rcases Nat.eq_zero_or_pos k with rfl | hk
    · subst h0; rw [hc] at hb; cases hb; exact le_rfl
    · exact (hlt i k c b hc hb (by omega)).le
  have hle1 : ∀ (k : ℕ) (b : Cell K), i + 1 = n → st.cells[k]? = some b → b.t.x ≤ c.t.x := by
    intro k b h1 hb
    have hk := (List.getElem?_eq_some_iff.mp hb).1
    rcases (show k = i ∨ k < i by omega) with rfl | hk
    · rw [hc] at hb; cases hb; exact le_rfl
    · exact (hlt k i b c hb hc hk).le
  have ext : ∀ (m : Transect K → Bool) (s : MorSt K), m c.t = false → extendChan pp st m = .ok s → s.cells[i]? = some c := by
    intro m s hm hx
    unfold extendChan at hx
    split at hx
    · cases hx
    · cases hx
      simp only [getElem?_map, hc, Option.map_some, hm]
      rfl
  unfold elongate at h
  split at h
  · simp only [pure_ok] at h; subst h; exact hc
  · next hC =>
    obtain ⟨e, he1, hl, hr⟩ := he (by simpa using hC)
    simp only [bind_ok, ixGet_ok] at h
    obtain ⟨last, _, cl, hcl, h⟩ := h
    split at h
    · simp only [bind_ok] at h
      obtain ⟨_, _, h⟩ := h
      split at h
      · refine ext _ _ ?_ h
        rw [he1]
        simp only [blt_fin, ble_fin, Bool.and_eq_false_iff, decide_eq_false_iff_not, not_lt, not_le]
        rcases hi with h0 | h1
        · exact Or.inl (hle0 last cl h0 hcl)
        · exact Or.inr (hr h1)
      · simp only [pure_ok] at h; subst h; exact hc
    · simp only [bind_ok] at h
      obtain ⟨_, _, h⟩ := h
      split at h
      · refine ext _ _ ?_ h
        rw [he1]
        simp only [blt_fin, ble_fin, Bool.and_eq_false_iff, decide_eq_false_iff_not, not_lt, not_le]
        rcases hi with h0 | h1
        · exact Or.inr (hl h0)
        · exact Or.inl (hle1 last cl h1 hcl)
      · simp only [pure_ok] at h; subst h; exact hc

theorem modify_shore {st st' : MorSt K} {f : Cell K → Cell K} (hf : ∀ c, KeepShore c (f c)) {k : ℕ} (h : { st with cells := st.cells.modify k f } = st') :
    Forall₂ KeepShore st.cells st'.cells := by
  subst h
  exact forall₂_modify' keepShore_refl hf _ _

theorem edge_end {st st' : MorSt K} (h : edgeCheck st = .ok st') {e : K} (he : st.e1 = fin e) {n : ℕ} (hn : st.cells.length = n) (h3 : 3 ≤ n)
    (hs : st.cells.Pairwise (fun a b => a.t.x < b.t.x)) :
    st'.cells = st.cells ∧ ∃ e' : K, st'.e1 = fin e' ∧ ∀ (i : ℕ) c, st.cells[i]? = some c → (i = 0 → c.t.x < e') ∧ (i + 1 = n → e' < c.t.x) := by
  have hlt : ∀ (j k : ℕ) (a b : Cell K), st.cells[j]? = some a → st.cells[k]? = some b → j < k → a.t.x < b.t.x := by
    intro j k a b ha hb hjk
    obtain ⟨h1, rfl⟩ := List.getElem?_eq_some_iff.mp ha
    obtain ⟨h2, rfl⟩ := List.getElem?_eq_some_iff.mp hb
    exact List.pairwise_iff_getElem.mp hs j k h1 h2 hjk
  unfold edgeCheck at h
  simp only [bind_ok, pure_ok, ixGet_ok] at h
  obtain ⟨l, hl, r, hr, rfl⟩ := h
  have hr' : st.cells[n - 2]? = some r := by
    unfold pyGet at hr
    rw [if_neg (by norm_num), if_pos (by omega), ixGet_ok] at hr
    have : ((st.cells.length : ℤ) + -2).toNat = n - 2 := by omega
    rw [this] at hr
    exact hr
  refine ⟨rfl, ?_⟩
  have hlr : l.t.x ≤ r.t.x := by
    rcases (show 1 = n - 2 ∨ 1 < n - 2 by omega) with h1 | h1
    · rw [← h1, hl] at hr'; cases hr'; exact le_rfl
    · exact (hlt 1 (n - 2) l r hl hr' h1).le
  have key : ∃ e' : K, (if fin r.t.x <? (if st.e1 <? fin l.t.x then fin l.t.x else st.e1) then fin l.t.x
      else (if st.e1 <? fin l.t.x then fin l.t.x else st.e1)) = fin e' ∧ l.t.x ≤ e' ∧ e' ≤ r.t.x := by
    rw [he]
    simp only [blt_fin, decide_eq_true_eq]
    split
    · rw [if_neg (by simpa using hlr)]
      exact ⟨_, rfl, le_rfl, hlr⟩
    · next h1 =>
      simp only [blt_fin, decide_eq_true_eq]
      split
      · exact ⟨_, rfl, le_rfl, hlr⟩
      · next h2 => exact ⟨_, rfl, not_lt.mp h1, not_lt.mp h2⟩
  obtain ⟨e', k1, k2, k3⟩ := key
  refine ⟨e', k1, fun i c hc => ⟨fun h0 => ?_, fun h1 => ?_⟩⟩
  · exact (hlt i 1 c l hc hl (by omega)).trans_le k2
  · exact k3.trans_lt (hlt (n - 2) i r c hr' hc (by omega))

theorem pairwise_x {l l' : List (Cell K)} (h : Forall₂ SameX l l') (hs : l.Pairwise (fun a b => a.t.x < b.t.x)) :
    l'.Pairwise (fun a b => a.t.x < b.t.x) := by
  rw [List.pairwise_iff_getElem] at hs ⊢
  intro i j hi hj hij
  obtain ⟨hl, hg⟩ := forall₂_iff_get.mp h
  have h1 := hg i (hl ▸ hi) hi
  have h2 := hg j (hl ▸ hj) hj
  simp only [get_eq_getElem, SameX] at h1 h2
  rw [h1, h2]
  exact hs i j (hl ▸ hi) (hl ▸ hj) hij

/-- The repairs do not move the shoreline at a free end away from the cliff. -/
theorem repair_shore {pp : PhysPars K} {C : Bool} {Dx : K} {st st' : MorSt K} (h : repairStage pp C Dx st = .ok st') {n : ℕ} (hn : st.cells.length = n)
    (h3 : 3 ≤ n) (hs : st.cells.Pairwise (fun a b => a.t.x < b.t.x)) (he : C = false → ∃ e : K, st.e1 = fin e) {i : ℕ} (hi : IsEnd n i) {c : Cell K}
    (hc : st.cells[i]? = some c) (hf : Free c) (h4 : (c.t.y0 ≤? c.t.y4) = false) :
    ∃ c', st'.cells[i]? = some c' ∧ (c'.t.y0 = nan ∨ (c'.t.y0 = c.t.y0 ∧ Free c')) := by
  unfold repairStage at h
  simp only [bind_ok] at h
  obtain ⟨s1, h1, cs, h2, s3, h3', s4, h4', s5, h5, s6, h6, h7⟩ := h
  have T := keepShore_trunc (K := K)
  have t := T.trans
  have e1 : s1.cells = st.cells := by
    unfold edgeCheck at h1
    simp only [bind_ok, pure_ok] at h1
    obtain ⟨_, _, _, _, rfl⟩ := h1
    rfl
  have hcl : (s1.cells.map (cliffCell pp))[i]? = some c := by
    rw [e1, getElem?_map, hc, Option.map_some]
    unfold cliffCell
    simp only [h4]
    rfl
  obtain ⟨c2, hc2, r2⟩ := forall₂_get (overwash_rel T h2) hcl
  have X := sameX_repair pp (K := K)
  have gx : Forall₂ SameX st.cells cs := by
    rw [← e1]
    exact forall₂_trans X.trans (forall₂_map' X.cliff _) (overwash_rel X.toTruncRel h2)
  have hc3 : s3.cells[i]? = some c2 := by
    refine elongate_end h3' (n := n) (by rw [← hn]; exact gx.length_eq.symm) (pairwise_x gx hs) hi hc2 ?_
    intro hC
    obtain ⟨e, he⟩ := he hC
    obtain ⟨_, e', k1, k2⟩ := edge_end h1 he hn h3 hs
    obtain ⟨k3, k4⟩ := k2 i c hc
    obtain ⟨d, hd, hx⟩ := forall₂_get gx hc
    rw [hc2] at hd
    cases hd
    unfold SameX at hx
    rw [hx]
    exact ⟨e', k1, k3, k4⟩
  have g4 : Forall₂ KeepShore s3.cells s4.cells := by
    unfold seaPrevent at h4'
    split at h4'
    · simp only [pure_ok] at h4'; subst h4'; exact forall₂_rfl keepShore_refl _
    · simp only [bind_ok] at h4'
      obtain ⟨_, _, _, _, h⟩ := h4'
      split at h
      · simp only [pure_ok] at h; exact modify_shore keepShore_seaPrevent h
      · simp only [pure_ok] at h; subst h; exact forall₂_rfl keepShore_refl _
  have g7 : Forall₂ KeepShore s6.cells st'.cells := by
    unfold lagoonPrevent at h7
    split at h7
    · simp only [pure_ok] at h7; subst h7; exact forall₂_rfl keepShore_refl _
    · simp only [bind_ok] at h7
      obtain ⟨_, _, _, _, h⟩ := h7
      split at h
      · simp only [pure_ok] at h; exact modify_shore (keepShore_lagoonPrevent pp) h
      · simp only [pure_ok] at h; subst h; exact forall₂_rfl keepShore_refl _
  obtain ⟨c', hc', r'⟩ := forall₂_get (forall₂_trans t g4 (forall₂_trans t (lagoonTrunc_rel T.toStageRel h5) (forall₂_trans t (seaTrunc_rel T.toStageRel h6) g7))) hc3
  exact ⟨c', hc', (t _ _ _ r2 r').2 hf⟩

/-! ## The rates -/

/-- What longshore transport does to the transects themselves. -/
theorem allRates_cells {pp : PhysPars K} {a : MorIn K} {rb : ℕ} {cells cells' : List (Cell K)} {R : Rates K}
    (h : allRates pp a rb cells = .ok (R, cells')) {i : ℕ} (hi : a.Closed = false → i ≠ prevIx cells.length rb) : cells'[i]? = cells[i]? := by
  unfold allRates at h
  simp only [bind_ok] at h
  obtain ⟨R1, h1, ⟨R2, c2⟩, h2, R3, h3, h⟩ := h
  cases h
  unfold lstRates at h2
  simp only [bind_ok] at h2
  obtain ⟨y0, _, h2⟩ := h2
  split at h2
  · cases h2; rfl
  · next hC =>
    simp only [bind_ok] at h2
    obtain ⟨l, _, h2⟩ := h2
    split at h2
    · simp only [bind_ok, pure_ok] at h2
      obtain ⟨_, _, h2⟩ := h2
      cases h2; rfl
    · simp only [bind_ok, pure_ok] at h2
      obtain ⟨_, _, h2⟩ := h2
      cases h2
      have := hi (by simpa using hC)
      rw [getElem?_modify]
      cases cells[i]? with
      | none => rfl
      | some c => simp [Ne.symm this]

/-- The limiter leaves a rate within the limit as it is. -/
theorem limit_keeps {R R' : Rates K} {v : Fl K} {lim : K} {dtMin dt : ℤ} (h : limitRates v lim dtMin dt R = .ok R') {i : ℕ} {x : K}
    (hx : R.y0[i]? = some (fin x)) (hs : |x| * (secs dt : K) ≤ lim) : R'.y0[i]? = some (fin x) := by
  unfold limitRates at h
  split at h
  · simp only [bind_ok] at h
    obtain ⟨_, _, h⟩ := h
    split at h
    · cases h
    · next hne =>
      cases h
      have hpos : (0 : K) < (secs dt : K) := by
        have : 0 < secs dt := lt_of_le_of_ne (secs_nonneg dt) (Ne.symm hne)
        exact_mod_cast this
      have hL := abs_le.mp ((le_div_iff₀ hpos).mpr hs)
      simp only [getElem?_map, hx, Option.map_some, clip, npmax_fin, npmin_fin]
      rw [max_eq_left hL.1, min_eq_left hL.2]
  · cases h; exact hx

theorem force_end {pp : PhysPars K} {a : MorIn K} {dt : ℤ} {X0 : ℕ} {st : MorSt K} (h : forceStage pp a = .ok (dt, X0, st))
    (hB : 0 ≤ a.MaxMorChange) (hs : a.rows.Pairwise (fun r s => r.x < s.x))
    (hfin : ∀ rb cells R cells', precalc pp a = .ok (cells, X0, rb) → allRates pp a rb cells = .ok (R, cells') → R.Finite)
    (hE : |pp.ShorelineErosionRate| * (secs dt : K) ≤ 31557600 * a.MaxMorChange)
    (hopen : a.Closed = false → ∃ e r, a.EndX1 = fin e ∧ a.rows[1]? = some r ∧ r.x ≤ e)
    {i : ℕ} (hi : IsEnd a.rows.length i) {r : Transect K} (hr : a.rows[i]? = some r) {y y3 y4 : K} (h0 : r.y0 = fin y) (h1 : r.y1 = nan) (h2 : r.y2 = nan)
    (h3 : r.y3 = fin y3) (h4 : r.y4 = fin y4) (hw3 : 2 * a.MaxMorChange < y - y3) (hw4 : 2 * a.MaxMorChange < y - y4) :
    st.cells.length = a.rows.length ∧ st.cells.Pairwise (fun a b => a.t.x < b.t.x) ∧ (a.Closed = false → ∃ e : K, st.e1 = fin e) ∧
    ∃ c, st.cells[i]? = some c ∧ c.t.y0 = fin (y - pp.ShorelineErosionRate / 31557600 * (secs dt : K)) ∧ Free c ∧ (c.t.y0 ≤? c.t.y4) = false := by
  obtain ⟨rb, cells', R, R', rate, hp, hall, hrt, hdt, hl, ha⟩ := force_inv h
  have hF := hfin _ _ _ _ hp hall
  have hm : (a.rows.mapIdx (mkCell pp a)).length = a.rows.length := by simp
  obtain ⟨hlen, hlen', _⟩ := allRates_len hm hall
  obtain ⟨hsm, hcl⟩ := limit_small hB hF hrt hl
  have hil := (List.getElem?_eq_some_iff.mp hr).1
  have hE' : |(-pp.ShorelineErosionRate / 31557600 : K)| * (secs dt : K) ≤ a.MaxMorChange := by
    rw [abs_div, abs_neg, abs_of_pos (by norm_num : (0 : K) < 31557600), div_mul_eq_mul_div, div_le_iff₀ (by norm_num)]
    linarith
  have hy0 := limit_keeps hl (allRates_ends hm hall (by rw [hm]; exact hil) (by rw [hm]; exact hi)) hE'
  have hcell : cells'[i]? = some (mkCell pp a i r) := by
    rw [allRates_cells hall ?_, getElem?_mapIdx, hr]
    · rfl
    · intro hC
      obtain ⟨e, r1, he, hr1, hx1⟩ := hopen hC
      have hrb : firstIx (fun r : Transect K => a.EndX1 <? fin r.x) a.rows = .ok rb := by
        unfold precalc at hp
        simp only [bind_ok] at hp
        obtain ⟨_, _, rb', hrb, hp⟩ := hp
        rw [hC] at hrb
        simp only [Bool.false_eq_true, if_false] at hrb
        split at hp
        · cases hp
        · split at hp
          · cases hp
          · simp only [bind_ok, pure_ok] at hp
            obtain ⟨_, _, _, _, hp⟩ := hp
            cases hp
            exact hrb
      rw [firstIx_ok] at hrb
      obtain ⟨⟨q, hq, hqx⟩, hbef⟩ := hrb
      have hrbl := (List.getElem?_eq_some_iff.mp hq).1
      rw [he] at hqx
      simp only [blt_fin, decide_eq_true_eq] at hqx
      have hxlt : ∀ (j k : ℕ) (u v : Transect K), a.rows[j]? = some u → a.rows[k]? = some v → j < k → u.x < v.x := by
        intro j k u v hu hv hjk
        obtain ⟨h1, rfl⟩ := List.getElem?_eq_some_iff.mp hu
        obtain ⟨h2, rfl⟩ := List.getElem?_eq_some_iff.mp hv
        exact List.pairwise_iff_getElem.mp hs j k h1 h2 hjk
      have h2le : 2 ≤ rb := by
        by_contra hlt
        rcases (show rb = 0 ∨ rb = 1 by omega) with rfl | rfl
        · have := hxlt 0 1 q r1 hq hr1 (by omega)
          exact absurd hqx (by linarith)
        · rw [hr1] at hq
          cases hq
          exact absurd hqx (by linarith)
      have : prevIx (a.rows.mapIdx (mkCell pp a)).length rb = rb - 1 := by
        unfold prevIx; rw [if_neg (by omega)]
      rw [this]
      rcases hi with h | h <;> omega
  simp only [Rates.cols, List.mem_cons, List.not_mem_nil, or_false, forall_eq_or_imp, forall_eq] at hsm
  obtain ⟨_, _, _, s3, s4, _, _, _, _, _, _, sx⟩ := hsm
  have l3 : R'.y3.length = a.rows.length := by
    have := congrArg (fun l => l[3]?) hcl
    simp only [Rates.cols, List.map_cons, List.getElem?_cons_succ, List.getElem?_cons_zero, Option.some.injEq] at this
    rw [this]; exact hlen.2.2.2.1
  have l4 : R'.y4.length = a.rows.length := by
    have := congrArg (fun l => l[4]?) hcl
    simp only [Rates.cols, List.map_cons, List.getElem?_cons_succ, List.getElem?_cons_zero, Option.some.injEq] at this
    rw [this]; exact hlen.2.2.2.2.1
  have hs0 : (0 : K) ≤ (secs dt : K) := by exact_mod_cast secs_nonneg dt
  have hxs : cells'.map (·.t.x) = a.rows.map (·.x) := by
    apply List.ext_getElem?
    intro j
    unfold allRates at hall
    simp only [bind_ok] at hall
    obtain ⟨R1, g1, ⟨R2, c2⟩, g2, R3, g3, hall⟩ := hall
    cases hall
    have : c2.map (·.t.x) = (a.rows.mapIdx (mkCell pp a)).map (·.t.x) := by
      unfold lstRates at g2
      simp only [bind_ok] at g2
      obtain ⟨y0, _, g2⟩ := g2
      split at g2
      · cases g2; rfl
      · simp only [bind_ok] at g2
        obtain ⟨l, _, g2⟩ := g2
        split at g2
        · simp only [bind_ok, pure_ok] at g2
          obtain ⟨_, _, g2⟩ := g2
          cases g2; rfl
        · simp only [bind_ok, pure_ok] at g2
          obtain ⟨_, _, g2⟩ := g2
          cases g2
          apply List.ext_getElem?
          intro k
          simp only [List.getElem?_map, List.getElem?_modify]
          cases (a.rows.mapIdx (mkCell pp a))[k]? with
          | none => rfl
          | some c => simp only [Option.map_some]; split <;> rfl
    rw [this]
    simp only [getElem?_map, getElem?_mapIdx]
    cases a.rows[j]? <;> rfl
  obtain ⟨x3, hx3, b3⟩ := s3 _ (List.getElem_mem (l := R'.y3) (n := i) (by omega))
  obtain ⟨x4, hx4, b4⟩ := s4 _ (List.getElem_mem (l := R'.y4) (n := i) (by omega))
  obtain ⟨xe, hxe, _⟩ := sx
  unfold applyRates at ha
  simp only at ha
  split at ha
  · cases ha
  · cases ha
    have c0 : (moveCell R' (fin (secs dt : K)) i (mkCell pp a i r)).t.y0 = fin (y - pp.ShorelineErosionRate / 31557600 * (secs dt : K)) := by
      show r.y0 + (R'.y0[i]?).getD nan * fin (secs dt : K) = _
      rw [hy0, h0, Option.getD_some, mul_fin, add_fin]
      congr 1; ring
    have c3 : (moveCell R' (fin (secs dt : K)) i (mkCell pp a i r)).t.y3 = fin (y3 + x3 * (secs dt : K)) := by
      show r.y3 + (R'.y3[i]?).getD nan * fin (secs dt : K) = _
      rw [List.getElem?_eq_getElem (by omega), Option.getD_some, hx3, h3, mul_fin, add_fin]
    have c4 : (moveCell R' (fin (secs dt : K)) i (mkCell pp a i r)).t.y4 = fin (y4 + x4 * (secs dt : K)) := by
      show r.y4 + (R'.y4[i]?).getD nan * fin (secs dt : K) = _
      rw [List.getElem?_eq_getElem (by omega), Option.getD_some, hx4, h4, mul_fin, add_fin]
    have d0 : pp.ShorelineErosionRate / 31557600 * (secs dt : K) ≤ a.MaxMorChange := by
      refine le_trans ?_ hE'
      refine mul_le_mul_of_nonneg_right ?_ hs0
      rw [neg_div, abs_neg]
      exact le_abs_self _
    have d3 : x3 * (secs dt : K) ≤ a.MaxMorChange := (mul_le_mul_of_nonneg_right (le_abs_self x3) hs0).trans b3
    have d4 : x4 * (secs dt : K) ≤ a.MaxMorChange := (mul_le_mul_of_nonneg_right (le_abs_self x4) hs0).trans b4
    refine ⟨by simp [hlen'], ?_, ?_, _, by rw [List.getElem?_mapIdx, hcell]; rfl, c0, ⟨?_, ?_, ?_⟩, ?_⟩
    · have hx2 : (cells'.mapIdx (moveCell R' (fin (secs dt : K)))).map (·.t.x) = a.rows.map (·.x) := by
        rw [← hxs]
        apply List.ext_getElem?
        intro j
        simp only [getElem?_map, getElem?_mapIdx]
        cases cells'[j]? <;> rfl
      have : ((cells'.mapIdx (moveCell R' (fin (secs dt : K)))).map (·.t.x)).Pairwise (· < ·) := by
        rw [hx2, pairwise_map]; exact hs
      rw [pairwise_map] at this
      exact this
    · intro hC
      obtain ⟨e, _, he, _⟩ := hopen hC
      refine ⟨e + xe * (secs dt : K), ?_⟩
      simp only [hC, Bool.false_eq_true, if_false, he, hxe, mul_fin, add_fin]
    · show r.y1 + _ = nan
      rw [h1, nan_add']
    · show r.y2 + _ = nan
      rw [h2, nan_add']
    · rw [c0, c3]
      simp only [ble_fin, decide_eq_false_iff_not, not_le]
      linarith
    · rw [c0, c4]
      simp only [ble_fin, decide_eq_false_iff_not, not_le]
      linarith

/-- The shoreline at an end of the model after a step. -/
theorem update_end {pp : PhysPars K} {j1 j2 : ℕ → Bool} {a : MorIn K} {o : MorOut K} (h : updateMorphology pp j1 j2 a = .ok o)
    (hB : 0 ≤ a.MaxMorChange) (hs : a.rows.Pairwise (fun r s => r.x < s.x)) (hn : 3 ≤ a.rows.length)
    (hfin : ∀ X0 rb cells R cells', precalc pp a = .ok (cells, X0, rb) → allRates pp a rb cells = .ok (R, cells') → R.Finite)
    (hE : |pp.ShorelineErosionRate| * (secs o.MorDt : K) ≤ 31557600 * a.MaxMorChange)
    (hopen : a.Closed = false → ∃ e r, a.EndX1 = fin e ∧ a.rows[1]? = some r ∧ r.x ≤ e)
    {i : ℕ} (hi : IsEnd a.rows.length i) {r : Transect K} (hr : a.rows[i]? = some r) {y y3 y4 : K} (h0 : r.y0 = fin y) (h1 : r.y1 = nan) (h2 : r.y2 = nan)
    (h3 : r.y3 = fin y3) (h4 : r.y4 = fin y4) (hw3 : 2 * a.MaxMorChange < y - y3) (hw4 : 2 * a.MaxMorChange < y - y4) :
    ∃ r', o.rows[i]? = some r' ∧ r'.y0 = fin (y - pp.ShorelineErosionRate / 31557600 * (secs o.MorDt : K)) := by
  obtain ⟨X0, s0, s1, s2, s3, g0, g1, g2, g3, e, _⟩ := update_inv h
  obtain ⟨f1, f2, f3, c, hc, f4, f5, f6⟩ := force_end g0 hB hs (hfin X0) hE hopen hi hr h0 h1 h2 h3 h4 hw3 hw4
  obtain ⟨c1, hc1, q1⟩ := repair_shore g1 f1 hn f2 f3 hi hc f5 f6
  have q2 : ∃ c2, s2.cells[i]? = some c2 ∧ (c2.t.y0 = nan ∨ c2.t.y0 = c.t.y0) := by
    rcases q1 with q | ⟨q, qf⟩
    · obtain ⟨c2, hc2, r2⟩ := breach_nan g2 hc1 q
      exact ⟨c2, hc2, Or.inl r2⟩
    · obtain ⟨c2, hc2, r2⟩ := breach_shore g2 hc1 qf
      rw [q] at r2
      exact ⟨c2, hc2, r2⟩
  obtain ⟨c2, hc2, q2⟩ := q2
  unfold finishStage at g3
  simp only [bind_ok, pure_ok, pyAssert_ok] at g3
  obtain ⟨_, hnan, _, _, _, _, rfl⟩ := g3
  obtain ⟨c3, hc3, r3⟩ := forall₂_get (forall₂_modify' (R := fun c c' : Cell K => c'.t.y0 = c.t.y0) (fun _ => rfl)
    (fun c => by unfold keepCell; split <;> rfl) s2.cells X0 (f := keepCell pp)) hc2
  refine ⟨c3.t, by rw [e, List.getElem?_map, hc3]; rfl, ?_⟩
  have hn3 := List.all_eq_true.mp hnan c3 (List.mem_of_getElem? hc3)
  rcases q2 with q | q
  · rw [r3, q] at hn3; cases hn3
  · rw [r3, q, f4]

end Verif.Model
