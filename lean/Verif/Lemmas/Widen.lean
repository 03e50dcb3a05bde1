import Verif.Lemmas.Plain
import Verif.Lemmas.MorRiver
import Verif.Spec.Widen

set_option autoImplicit false
set_option linter.unusedSectionVars false

/-! # Lemmas for C201: which sections erode their bed -/

namespace Verif.Model
open Verif Fl Verif.Spec List

variable {K : Type} [Field K] [LinearOrder K] [IsStrictOrderedRing K]

/-- Which sections are too wide. -/
theorem sections_wide {pp : PhysPars K} {a : MorIn K} {ss : List (Sec K)} (h : sections pp a = .ok ss) {j : ℕ} {s : Sec K} {w d : Fl K}
    (hs : ss[j]? = some s) (hw : a.ChanWidth[j + 1]? = some w) (hd : a.ChanDep[j + 1]? = some d) : s.wide = (fin pp.WidthDepthRatio <? (w / d)) := by
  have key : ∀ {D W P : List (Fl K)} {F : List ℕ},
      (zipWith (fun d (p : Bool × ℕ) => (⟨d, p.1, p.2⟩ : Sec K)) D ((zipWith (fun w d => fin pp.WidthDepthRatio <? (w / d)) W P).zip F))[j]? = some s →
      (∀ u, W[j]? = some u → u = w) → (∀ u, P[j]? = some u → u = d) → s.wide = (fin pp.WidthDepthRatio <? (w / d)) := by
    intro D W P F h1 h2 h3
    rw [getElem?_zipWith] at h1
    split at h1
    · next x p _ hp =>
      cases h1
      rw [getElem?_zip_eq_some, getElem?_zipWith] at hp
      obtain ⟨hp, _⟩ := hp
      split at hp
      · next u v hu hv => rw [← Option.some.inj hp, h2 u hu, h3 v hv]
      · cases hp
    · cases h1
  have hcut : ∀ {l : List (Fl K)} {v u : Fl K}, l[j + 1]? = some v → l.tail.dropLast[j]? = some u → u = v := by
    intro l v u hv hu
    rw [getElem?_dropLast] at hu
    split at hu
    · rw [getElem?_tail, hv] at hu; exact (Option.some.inj hu).symm
    · cases hu
  unfold sections at h
  cases hc : a.Closed <;> simp only [hc, if_true, Bool.false_eq_true, if_false] at h <;> split at h
  · cases h
  · rw [← ok_inj.mp h] at hs
    exact key hs (fun u hu => hcut hw hu) (fun u hu => hcut hd hu)
  · cases h
  · rw [← ok_inj.mp h] at hs
    exact key hs (fun u hu => by rw [getElem?_tail, hw] at hu; exact (Option.some.inj hu).symm)
      (fun u hu => by rw [getElem?_tail, hd] at hu; exact (Option.some.inj hu).symm)

/-- The rates of a section answer to what it is given. -/
theorem section_answers {s : Sec K} {v : K} (h : s.dvol = fin v) {ratio w d : K} (hd : 0 < d) (hw : s.wide = (fin ratio <? (fin w / fin d)))
    {b H1 H2 Dx : K} (hb : 0 < b) (h1 : 0 < H1) (h2 : 0 < H2) (hD : 0 < Dx) :
    ∃ p q r : K, (s.bedDep - s.bedEro) / (fin b * fin Dx) = fin p ∧ s.bankEro / fin 2 / (fin H1 * fin Dx) = fin q ∧
      s.bankEro / fin 2 / (fin H2 * fin Dx) = fin r ∧ Answers ratio w d v p q ∧ Answers ratio w d v p r := by
  rw [div_fin _ _ hd.ne', blt_fin] at hw
  have hwD : b * Dx ≠ 0 := by positivity
  have hD1 : H1 * Dx ≠ 0 := by positivity
  have hD2 : H2 * Dx ≠ 0 := by positivity
  have key : ∀ H : K, 0 < H → (s.wide = true → Answers ratio w d v (v / (b * Dx)) 0) ∧
      (s.wide = false → Answers ratio w d v (max v 0 / (b * Dx)) (-(min v 0) / 2 / (H * Dx))) := by
    intro H hH
    have hbD : 0 < b * Dx := by positivity
    have hHD : 0 < H * Dx := by positivity
    constructor
    · intro hwide
      rw [hw, decide_eq_true_eq, lt_div_iff₀ hd] at hwide
      exact ⟨fun hv => ⟨div_pos hv hbD, rfl⟩, fun hv => ⟨by rw [hv, zero_div], rfl⟩, fun hv _ => ⟨div_neg_of_neg_of_pos hv hbD, rfl⟩,
        fun _ hn => absurd hwide (not_lt.mpr hn)⟩
    · intro hwide
      rw [hw, decide_eq_false_iff_not, lt_div_iff₀ hd] at hwide
      refine ⟨fun hv => ?_, fun hv => ?_, fun _ hn => absurd hn hwide, fun hv _ => ?_⟩
      · rw [max_eq_left hv.le, min_eq_right hv.le]
        exact ⟨div_pos hv hbD, by simp⟩
      · rw [hv]; simp
      · rw [max_eq_right hv.le, min_eq_left hv.le, zero_div]
        exact ⟨rfl, div_pos (div_pos (neg_pos.mpr hv) two_pos) hHD⟩
  have hsum : max v 0 - -(min v 0) = v := by
    rcases le_total v 0 with hv | hv
    · rw [max_eq_right hv, min_eq_left hv]; ring
    · rw [max_eq_left hv, min_eq_right hv]; ring
  cases hx : s.wide with
  | true =>
    refine ⟨v / (b * Dx), 0, 0, ?_, ?_, ?_, (key H1 h1).1 hx, (key H2 h2).1 hx⟩
    · unfold Sec.bedEro
      rw [bedDep_fin h, ero_fin h, hx]
      simp only [if_true, mul_fin, mul_one, sub_fin, hsum, div_fin _ _ hwD]
    · unfold Sec.bankEro
      rw [ero_fin h, hx]
      simp [hD1]
    · unfold Sec.bankEro
      rw [ero_fin h, hx]
      simp [hD2]
  | false =>
    refine ⟨max v 0 / (b * Dx), -(min v 0) / 2 / (H1 * Dx), -(min v 0) / 2 / (H2 * Dx), ?_, ?_, ?_, (key H1 h1).2 hx, (key H2 h2).2 hx⟩
    · unfold Sec.bedEro
      rw [bedDep_fin h, ero_fin h, hx]
      simp [div_fin _ _ hwD]
    · unfold Sec.bankEro
      rw [ero_fin h, hx]
      simp [hD1]
    · unfold Sec.bankEro
      rw [ero_fin h, hx]
      simp [hD2]

/-- The limiter keeps the answer. -/
theorem clip_sign {l l' : List (Fl K)} {lim : K} {dt : ℤ} (hlim : 0 < lim) (h : l' = l ∨ (0 < secs dt ∧ l' = l.map (clip (lim / (secs dt : K))))) {i : ℕ} {x : K}
    (hx : l[i]? = some (fin x)) : ∃ x', l'[i]? = some (fin x') ∧ (0 < x → 0 < x') ∧ (x < 0 → x' < 0) ∧ (x = 0 → x' = 0) := by
  rcases h with rfl | ⟨hs, rfl⟩
  · exact ⟨x, hx, id, id, id⟩
  · have hs' : (0 : K) < (secs dt : K) := by exact_mod_cast hs
    have hL : 0 < lim / (secs dt : K) := div_pos hlim hs'
    refine ⟨min (max x (-(lim / (secs dt : K)))) (lim / (secs dt : K)), ?_, fun h => ?_, fun h => ?_, fun h => ?_⟩
    · rw [getElem?_map, hx, Option.map_some]
      simp only [clip, npmax_fin, npmin_fin]
    · exact lt_min (lt_max_of_lt_left h) hL
    · exact lt_of_le_of_lt (min_le_left _ _) (max_lt h (by linarith))
    · subst h
      rw [max_eq_left (by linarith), min_eq_left hL.le]

/-- An answer survives anything that keeps signs. -/
theorem answers_keep {ratio w d v p q p' q' t : K} (h : Answers ratio w d v p q) (ht : 0 < t) (hp : (0 < p → 0 < p') ∧ (p < 0 → p' < 0) ∧ (p = 0 → p' = 0))
    (hq : (0 < q → 0 < q') ∧ (q = 0 → q' = 0)) : Answers ratio w d v (p' * t) (q' * t) := by
  obtain ⟨a1, a2, a3, a4⟩ := h
  refine ⟨fun g => ⟨mul_pos (hp.1 (a1 g).1) ht, by rw [hq.2 (a1 g).2, zero_mul]⟩, fun g => ⟨by rw [hp.2.2 (a2 g).1, zero_mul], by rw [hq.2 (a2 g).2, zero_mul]⟩,
    fun g g' => ⟨mul_neg_of_neg_of_pos (hp.2.1 (a3 g g').1) ht, by rw [hq.2 (a3 g g').2, zero_mul]⟩,
    fun g g' => ⟨by rw [hp.2.2 (a4 g g').1, zero_mul], mul_pos (hq.1 (a4 g g').2) ht⟩⟩

/-- The rates of the lagoon at transect `i`, the `k`-th the river flows through. -/
theorem lagoon_answers {pp : PhysPars K} {a : MorIn K} {cells : List (Cell K)} {R : Rates K} (h : riverRates pp a cells = .ok R) {bs : List K} {nr : ℕ}
    (hflag : a.ChanFlag = 0 :: secFlags a.Closed nr a.online.length a.outlet.length ++ (if a.Closed then [] else [4]))
    (hbed : a.Bedload = bs.map fin) (hlen : bs.length + 1 = a.ChanFlag.length)
    (hwl : a.ChanWidth.length = a.ChanFlag.length) (hdl : a.ChanDep.length = a.ChanFlag.length) (hnd : a.online.Nodup)
    {k i : ℕ} {r : Transect K} {w d y3 y4 z0 z3 : K} (hk : a.online[k]? = some i) (hr : a.rows[i]? = some r)
    (hw : a.ChanWidth[nr + k + 1]? = some (fin w)) (hd : a.ChanDep[nr + k + 1]? = some (fin d)) (hd0 : 0 < d) (h1 : r.y1 = nan) (h3 : r.y3 = fin y3) (h4 : r.y4 = fin y4)
    (hz0 : r.z0 = fin z0) (hz3 : r.z3 = fin z3) (hb : y4 < y3) (hz : z3 < z0) (hB : z3 < pp.BackshoreElev) (hD : 0 < a.Dx) :
    ∃ p q s, R.z3[i]? = some (fin p) ∧ R.y3[i]? = some (fin q) ∧ R.y4[i]? = some (fin (-s)) ∧
      Answers pp.WidthDepthRatio w d (bs.getD (nr + k) 0 - bs.getD (nr + k + 1) 0) p q ∧ Answers pp.WidthDepthRatio w d (bs.getD (nr + k) 0 - bs.getD (nr + k + 1) 0) p s := by
  obtain ⟨ss, g1, g2, g3⟩ := sections_ok pp a bs nr a.online.length a.outlet.length hflag hbed hlen hwl hdl
  obtain ⟨_, _, b3, b4, _⟩ := sec_blocks g2
  have hkl := (List.getElem?_eq_some_iff.mp hk).1
  have hsl : nr + k < ss.length := by
    have := congrArg List.length g2
    unfold secFlags at this
    simp only [length_map, length_append, length_replicate] at this
    omega
  have hs : ss[nr + k]? = some ss[nr + k] := getElem?_eq_getElem hsl
  generalize ss[nr + k] = s at hs
  have hwide := sections_wide g1 hs hw hd
  have hdv : s.dvol = fin (bs.getD (nr + k) 0 - bs.getD (nr + k + 1) 0) := by
    have := congrArg (fun l => l[nr + k]?) g3
    simp only [getElem?_map, hs, Option.map_some] at this
    have hnl : nr + k < (netIn (if a.Closed = true then bs ++ [0] else bs)).length := by
      have := congrArg List.length g3
      simp only [length_map] at this
      omega
    rw [netIn_length] at hnl
    generalize hc : (if a.Closed = true then bs ++ [0] else bs) = c at this hnl
    have hget : ∀ m, m < c.length → c[m]? = some (bs.getD m 0) := by
      intro m hm
      rw [← hc] at hm ⊢
      split at hm
      · next hcl =>
        rw [if_pos hcl]
        rw [getElem?_append, List.getD_eq_getElem?_getD]
        split
        · next hlt => rw [getElem?_eq_getElem hlt]; rfl
        · next hge =>
          rw [length_append, length_singleton] at hm
          rw [getElem?_eq_none (by omega : bs.length ≤ m), show m - bs.length = 0 by omega]
          rfl
      · next hcl =>
        rw [if_neg hcl, List.getD_eq_getElem?_getD, getElem?_eq_getElem hm]; rfl
    rw [netIn_getElem? c (nr + k) (hget _ (by omega)) (hget _ (by omega)), Option.map_some] at this
    exact Option.some.inj this
  obtain ⟨p, q, t, e1, e2, e3, e4, e5⟩ := section_answers hdv hd0 hwide (sub_pos.mpr hb) (sub_pos.mpr hz) (sub_pos.mpr hB) hD
  unfold riverRates at h
  simp only [bind_ok] at h
  obtain ⟨ss', hss, onRows, hon, z3', hz3', y3', hy3', y4', hy4', h⟩ := h
  rw [g1] at hss
  cases hss
  have hsk : (ss.filter (·.flag == 1))[k]? = some s := by rw [b3 k hkl]; exact hs
  have k1 := addCol_at hz3' hnd hon hk hsk hr
  have k2 := addCol_at hy3' hnd hon hk hsk hr
  have k3 := addCol_at hy4' hnd hon hk hsk hr
  have f1 : z3'[i]? = some (fin p) := by
    rw [k1, h3, h4, sub_fin, e1]; simp
  have f2 : y3'[i]? = some (fin q) := by
    rw [k2]
    unfold lagBank
    rw [if_pos (by rw [h1]; rfl), hz0, hz3, sub_fin, e2]; simp
  have f3 : y4'[i]? = some (fin (-t)) := by
    rw [k3, hz3, sub_fin, e3]; simp
  refine ⟨p, q, t, ?_, ?_, ?_, e4, e5⟩
  all_goals
    split at h
    · cases h; assumption
    · simp only [bind_ok, pure_ok] at h
      obtain ⟨_, _, _, _, _, _, _, _, _, _, _, _, rfl⟩ := h
      assumption

end Verif.Model
