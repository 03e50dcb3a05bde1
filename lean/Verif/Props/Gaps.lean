import Verif.Spec.Gaps
import Verif.Lemmas.FillLast
import Verif.Lemmas.RiverKeep
import Verif.Props.Channel

set_option autoImplicit false
set_option linter.unusedSectionVars false

/-! # C190: gaps in the hydraulics of a channel are filled from the neighbouring sections -/

namespace Verif.Props
open Verif Verif.Model Verif.Spec Fl

variable {K : Type} [Field K] [LinearOrder K] [IsStrictOrderedRing K]

/-- The three cases of interpolation at a position that is not one of the points. -/
theorem scan_cases (rest : List (K × Fl K)) : ∀ (p : K × Fl K) (x : K), (p :: rest).Pairwise (fun a b => a.1 < b.1) → (∀ q ∈ p :: rest, q.1 ≠ x) →
    (∃ l1 l2 a b, p :: rest = l1 ++ a :: b :: l2 ∧ a.1 < x ∧ x < b.1 ∧ interpScan p.1 p.2 rest x = (b.2 - a.2) / fin (b.1 - a.1) * fin (x - a.1) + a.2) ∨
    (x < p.1 ∧ interpScan p.1 p.2 rest x = p.2) ∨
    (∃ l1 a, p :: rest = l1 ++ [a] ∧ a.1 < x ∧ interpScan p.1 p.2 rest x = a.2) := by
  induction rest with
  | nil =>
    intro p x _ hne
    rcases lt_or_gt_of_ne (hne p (by simp)) with h | h
    · exact Or.inr (Or.inr ⟨[], p, rfl, h, rfl⟩)
    · exact Or.inr (Or.inl ⟨h, rfl⟩)
  | cons q rest ih =>
    intro p x hs hne
    simp only [interpScan]
    by_cases hq : x < q.1
    · rw [if_pos hq]
      rcases lt_or_gt_of_ne (hne p (by simp)) with h | h
      · rw [if_neg (not_le.mpr h)]
        exact Or.inl ⟨[], rest, p, q, rfl, h, hq, rfl⟩
      · rw [if_pos h.le]
        exact Or.inr (Or.inl ⟨h, rfl⟩)
    · rw [if_neg hq]
      rcases ih q x (List.pairwise_cons.mp hs).2 (fun r hr => hne r (by simp only [List.mem_cons] at hr ⊢; exact Or.inr hr)) with
        ⟨l1, l2, a, b, e, h1, h2, h3⟩ | ⟨h1, _⟩ | ⟨l1, a, e, h1, h2⟩
      · exact Or.inl ⟨p :: l1, l2, a, b, by rw [e]; rfl, h1, h2, h3⟩
      · exact absurd h1 hq
      · exact Or.inr (Or.inr ⟨p :: l1, a, by rw [e]; rfl, h1, h2⟩)

theorem known_sorted (l v : List (Fl K)) : (known l v).Pairwise (fun a b => a.1 < b.1) := by
  unfold known
  rw [List.pairwise_filterMap]
  refine (List.pairwise_lt_range.filter _).imp ?_
  intro i j hij a ha b hb
  obtain ⟨_, _, rfl⟩ := Option.map_eq_some_iff.mp ha
  obtain ⟨_, _, rfl⟩ := Option.map_eq_some_iff.mp hb
  show ((i : ℕ) : K) < (j : ℕ)
  exact_mod_cast hij

theorem mem_known {l v : List (Fl K)} {p : K × Fl K} : p ∈ known l v ↔ ∃ i : ℕ, (∃ c, l[i]? = some c ∧ c ≠ nan) ∧ v[i]? = some p.2 ∧ p.1 = (i : K) := by
  unfold known
  rw [List.mem_filterMap]
  constructor
  · rintro ⟨i, hi, h⟩
    obtain ⟨w, hw, rfl⟩ := Option.map_eq_some_iff.mp h
    have h2 := (List.mem_filter.mp hi).2
    rw [Option.any_eq_true] at h2
    obtain ⟨c, hc, hn⟩ := h2
    refine ⟨i, ⟨c, hc, ?_⟩, hw, rfl⟩
    rintro rfl
    simp at hn
  · rintro ⟨i, ⟨c, hc, hn⟩, hv, hp⟩
    refine ⟨i, List.mem_filter.mpr ⟨List.mem_range.mpr (List.getElem?_eq_some_iff.mp hc).1, ?_⟩, ?_⟩
    · rw [Option.any_eq_true]
      refine ⟨c, hc, ?_⟩
      cases c <;> simp_all
    · rw [hv]
      show some ((i : K), p.2) = some p
      rw [← hp]

/-- Filling the gaps of an array of numbers and gaps. -/
theorem fillNan_spec {l v r : List (Fl K)} {f : ℕ → Fl K → Fl K} (hlv : v.length = l.length) (h : fillNan l v f = .ok r)
    (hv : ∀ (i : ℕ) (c : Fl K), l[i]? = some c → c ≠ nan → ∃ a : K, v[i]? = some (fin a)) (k : ℕ) (c : Fl K) (hk : l[k]? = some c) :
    (c ≠ nan → r[k]? = some c) ∧ (c = nan → ∃ x, Between l v k x ∧ r[k]? = some (f k (fin x))) := by
  unfold fillNan at h
  split at h
  · rename_i hany
    have hkl : k < l.length := (List.getElem?_eq_some_iff.mp hk).1
    have hz : ((List.range l.length).zip l)[k]? = some (k, c) := by
      rw [List.getElem?_zip_eq_some]
      exact ⟨by rw [List.getElem?_range hkl], hk⟩
    obtain ⟨b, hb, hr⟩ := mapM_get h hz
    constructor
    · intro hc
      have : c.isnan = false := by cases c <;> simp_all
      simp only [this, Bool.false_eq_true, if_false, pure_ok] at hb
      rw [hr, hb]
    · rintro rfl
      simp only [isnan_nan, if_true, bind_ok, pure_ok] at hb
      obtain ⟨q, hq, rfl⟩ := hb
      change npInterp (known l v) (k : K) = .ok q at hq
      have hne : ∀ p ∈ known l v, p.1 ≠ (k : K) := by
        intro p hp he
        obtain ⟨i, ⟨c, hc, hn⟩, _, e⟩ := mem_known.mp hp
        rw [e] at he
        have : i = k := by exact_mod_cast he
        subst this
        rw [hk] at hc
        cases hc
        exact hn rfl
      have hkn : ∀ p ∈ known l v, ∃ (i : ℕ) (a : K), p = ((i : K), fin a) ∧ Known l v i a := by
        intro p hp
        obtain ⟨i, ⟨c, hc, hn⟩, e1, e⟩ := mem_known.mp hp
        obtain ⟨a, ha⟩ := hv i c hc hn
        rw [ha] at e1
        exact ⟨i, a, Prod.ext e (Option.some.inj e1).symm, ⟨c, hc, hn⟩, ha⟩
      have hmiss : ∀ m < l.length, (∀ p ∈ known l v, p.1 ≠ (m : K)) → Missing l m := by
        intro m hm hp
        obtain ⟨c, hc⟩ : ∃ c, l[m]? = some c := ⟨_, List.getElem?_eq_getElem hm⟩
        by_cases hn : c = nan
        · subst hn; exact hc
        · obtain ⟨a, ha⟩ := hv m c hc hn
          exact absurd rfl (hp ((m : K), fin a) (mem_known.mpr ⟨m, ⟨c, hc, hn⟩, ha, rfl⟩))
      have hsort := known_sorted l v
      cases hkk : known l v with
      | nil => rw [hkk] at hq; cases hq
      | cons p rest =>
        rw [hkk] at hq hsort hne
        simp only [npInterp, ok_inj] at hq
        subst hq
        rcases scan_cases rest p (k : K) hsort hne with ⟨l1, l2, a, b, e, h1, h2, h3⟩ | ⟨h1, h3⟩ | ⟨l1, a, e, h1, h3⟩
        · rw [e] at hsort
          rw [e] at hkk
          obtain ⟨i, x, rfl, hi⟩ := hkn a (by rw [hkk]; simp)
          obtain ⟨j, y, rfl, hj⟩ := hkn b (by rw [hkk]; simp)
          simp only at h1 h2
          have hik : i < k := by exact_mod_cast h1
          have hkj : k < j := by exact_mod_cast h2
          have hij : ((j : K) - i) ≠ 0 := by
            have : (i : K) < j := by exact_mod_cast hik.trans hkj
            exact (sub_pos.mpr this).ne'
          have hdiv : (fin (y - x) / fin ((j : K) - i) : Fl K) = fin ((y - x) / ((j : K) - i)) := by
            show Fl.div _ _ = _
            simp only [Fl.div]
            rw [if_neg hij]
          simp only [sub_fin, hdiv, mul_fin, add_fin] at h3
          refine ⟨_, Or.inl ⟨i, j, x, y, hik, hkj, hi, hj, ?_, ?_⟩, by rw [hr, h3]⟩
          · intro m him hmj
            have hjl : j < l.length := by
              obtain ⟨⟨c, hc, _⟩, _⟩ := hj
              exact (List.getElem?_eq_some_iff.mp hc).1
            refine hmiss m (by omega) (fun p hp he => ?_)
            rw [hkk] at hp
            rw [List.pairwise_append] at hsort
            obtain ⟨_, s2, s3⟩ := hsort
            rw [List.pairwise_cons] at s2
            obtain ⟨s4, s5⟩ := s2
            rw [List.pairwise_cons] at s5
            have c1 : (i : K) < m := by exact_mod_cast him
            have c2 : (m : K) < j := by exact_mod_cast hmj
            rcases List.mem_append.mp hp with hp | hp
            · have := s3 p hp _ (List.mem_cons_self ..)
              simp only [he] at this
              exact absurd (this.trans c1) (lt_irrefl _)
            · rcases List.mem_cons.mp hp with rfl | hp
              · simp only at he
                rw [he] at c1
                exact absurd c1 (lt_irrefl _)
              · rcases List.mem_cons.mp hp with rfl | hp
                · simp only at he
                  rw [he] at c2
                  exact absurd c2 (lt_irrefl _)
                · have := s5.1 p hp
                  simp only [he] at this
                  exact absurd (this.trans c2) (lt_irrefl _)
          · field_simp
            ring
        · obtain ⟨j, y, rfl, hj⟩ := hkn p (by rw [hkk]; simp)
          simp only at h1 h3
          refine ⟨y, Or.inr (Or.inl ⟨j, by exact_mod_cast h1, hj, ?_⟩), by rw [hr, h3]⟩
          intro m hm
          have hjl : j < l.length := by
            obtain ⟨⟨c, hc, _⟩, _⟩ := hj
            exact (List.getElem?_eq_some_iff.mp hc).1
          refine hmiss m (by omega) (fun p hp he => ?_)
          rw [hkk] at hp
          have c2 : (m : K) < j := by exact_mod_cast hm
          rcases List.mem_cons.mp hp with rfl | hp
          · simp only at he
            rw [he] at c2
            exact absurd c2 (lt_irrefl _)
          · have := (List.pairwise_cons.mp hsort).1 p hp
            simp only [he] at this
            exact absurd (this.trans c2) (lt_irrefl _)
        · rw [e] at hsort
          rw [e] at hkk
          obtain ⟨i, x, rfl, hi⟩ := hkn a (by rw [hkk]; simp)
          simp only at h1 h3
          refine ⟨x, Or.inr (Or.inr ⟨i, by exact_mod_cast h1, hi, ?_⟩), by rw [hr, h3]⟩
          intro m hm hml
          refine hmiss m hml (fun p hp he => ?_)
          rw [hkk] at hp
          have c1 : (i : K) < m := by exact_mod_cast hm
          rcases List.mem_append.mp hp with hp | hp
          · have := (List.pairwise_append.mp hsort).2.2 p hp _ (List.mem_singleton_self _)
            simp only [he] at this
            exact absurd (this.trans c1) (lt_irrefl _)
          · rw [List.mem_singleton] at hp
            subst hp
            simp only at he
            rw [he] at c1
            exact absurd c1 (lt_irrefl _)
  · rename_i hany
    cases h
    refine ⟨fun _ => hk, ?_⟩
    rintro rfl
    exfalso
    apply hany
    rw [List.any_eq_true]
    exact ⟨nan, List.mem_of_getElem? hk, rfl⟩

/-- Reading entries that are there. -/
theorem gather_entry {l : List (Fl K)} {ix : List ℕ} {r : List (Fl K)} (h : gather l ix = .ok r) : r = ix.map (entry l) := by
  rw [gather_ok] at h
  have := congrArg (List.map (fun o : Option (Fl K) => o.getD nan)) h
  simp only [List.map_map, Function.comp_def, Option.getD_some, List.map_id'] at this
  exact this.symm

theorem gather_z3 {l : List (Transect K)} {ix : List ℕ} {r : List (Transect K)} (h : gather l ix = .ok r) :
    r.map (·.z3) = ix.map (entry (l.map (·.z3))) := by
  rw [gather_ok] at h
  have := congrArg (List.map (fun o : Option (Transect K) => (o.map (·.z3)).getD nan)) h
  simp only [List.map_map, Function.comp_def, Option.map_some, Option.getD_some] at this
  rw [← this]
  apply List.map_congr_left
  intro i _
  simp [entry]

theorem set_last {l : List (Fl K)} (h : l ≠ []) (x : Fl K) : l.set (l.length - 1) x = l.dropLast ++ [x] := by
  obtain ⟨l', b, rfl⟩ : ∃ l' b, l = l' ++ [b] := ⟨_, _, (List.dropLast_append_getLast h).symm⟩
  simp

variable [FloorRing K]

/-- The stored hydraulics are what the model starts from. -/
theorem stored_of_assemble {pp : PhysPars K} {a : ChanIn K} {c : ChanOut K} (h : assembleChannel pp a = .ok c) :
    fillNan (storedDep a c.online c.outlet c.closed) (storedDep a c.online c.outlet c.closed) (fun _ q => q) = .ok c.dep ∧
    fillNan (storedVel a c.online c.outlet c.closed) (List.zipWith (· * ·) c.dep (storedVel a c.online c.outlet c.closed))
      (fun i q => q / (c.dep[i]?).getD nan) = .ok c.vel := by
  obtain ⟨X0, r0, ow, C1, st1, st, onRows, outRows, H⟩ := assemble_inv h
  obtain ⟨wl, lv, h1, h2, d0, v0, h3, h4, h5, h6⟩ := chanHyd_inv H.hyd
  have hon := H.hon
  rw [← H.online] at hon h1 h2
  have hne : c.online ≠ [] := by rw [H.online]; obtain ⟨_, _, _, hs, _⟩ := cut_inv H.cut; exact hs
  have hz : List.zipWith (fun w (r : Transect K) => w - r.z3) wl onRows = c.online.map (fun i => entry a.LagoonWL i - entry (a.rows.map (·.z3)) i) := by
    have : List.zipWith (fun w (r : Transect K) => w - r.z3) wl onRows = List.zipWith (fun w z => w - z) wl (onRows.map (·.z3)) := by
      rw [List.zipWith_map_right]
    rw [this, gather_z3 hon, gather_entry h1, List.zipWith_map, List.zipWith_self]
  have hlv := gather_entry h2
  have e1 : d0 = storedDep a c.online c.outlet c.closed := by
    unfold storedDep
    cases hc : c.closed with
    | true => rw [(h5 hc).1, hz]; simp
    | false =>
      obtain ⟨od, ov, g1, g2, g3, g4⟩ := h6 hc
      rw [g3, hz, gather_entry g1]
      simp [twoEnds, padEnd]
  have e2 : v0 = storedVel a c.online c.outlet c.closed := by
    unfold storedVel
    cases hc : c.closed with
    | true =>
      rw [(h5 hc).2, set_last, hlv]
      · rfl
      · rw [hlv]; simp [hne]
    | false =>
      obtain ⟨od, ov, g1, g2, g3, g4⟩ := h6 hc
      rw [g4, hlv, gather_entry g2]
      rfl
  rw [← e1, ← e2]
  exact ⟨h3, h4⟩

/-- C190, the hydraulics of the assembled channel: what is stored is used; where no depth is stored it is on the straight line between the nearest
sections with a depth, and where no velocity is stored, depth times velocity is on the straight line between the nearest sections with a velocity. -/
theorem C190_filled {pp : PhysPars K} {a : ChanIn K} {c : ChanOut K} (h : assembleChannel pp a = .ok c)
    (hd : ∀ x ∈ storedDep a c.online c.outlet c.closed, x = nan ∨ ∃ d : K, x = fin d)
    (hv : ∀ x ∈ storedVel a c.online c.outlet c.closed, x = nan ∨ ∃ v : K, x = fin v)
    (hl : (storedVel a c.online c.outlet c.closed).length = (storedDep a c.online c.outlet c.closed).length) :
    (∀ (k : ℕ) (d : K), (storedDep a c.online c.outlet c.closed)[k]? = some (fin d) → c.dep[k]? = some (fin d)) ∧
    (∀ (k : ℕ) (v : K), (storedVel a c.online c.outlet c.closed)[k]? = some (fin v) → c.vel[k]? = some (fin v)) ∧
    (∀ k, Missing (storedDep a c.online c.outlet c.closed) k →
      ∃ d, c.dep[k]? = some (fin d) ∧ Between (storedDep a c.online c.outlet c.closed) (storedDep a c.online c.outlet c.closed) k d) ∧
    (∀ (k : ℕ) (d : K), Missing (storedVel a c.online c.outlet c.closed) k → c.dep[k]? = some (fin d) → d ≠ 0 →
      ∃ v, c.vel[k]? = some (fin v) ∧ Between (storedVel a c.online c.outlet c.closed) (List.zipWith (· * ·) c.dep c.vel) k (d * v)) := by
  obtain ⟨f1, f2⟩ := stored_of_assemble h
  generalize storedDep a c.online c.outlet c.closed = D at *
  generalize storedVel a c.online c.outlet c.closed = V at *
  have hD := fillNan_length f1
  have hV := fillNan_length f2
  have p1 := fun k x hk => fillNan_spec rfl f1 (fun i b hb hn => by
    rcases hd b (List.mem_of_getElem? hb) with rfl | ⟨d, rfl⟩
    · exact absurd rfl hn
    · exact ⟨d, hb⟩) k x hk
  have hfin : ∀ k < D.length, ∃ d : K, c.dep[k]? = some (fin d) := by
    intro k hk
    obtain ⟨x, hx⟩ : ∃ x, D[k]? = some x := ⟨_, List.getElem?_eq_getElem hk⟩
    rcases hd x (List.mem_of_getElem? hx) with rfl | ⟨d, rfl⟩
    · obtain ⟨d, _, h2⟩ := (p1 k nan hx).2 rfl
      exact ⟨d, h2⟩
    · exact ⟨d, (p1 k _ hx).1 (by simp)⟩
  have p2 := fun k x hk => fillNan_spec (v := List.zipWith (· * ·) c.dep V) (by simp [hD, hl]) f2 (fun i b hb hn => by
    rcases hv b (List.mem_of_getElem? hb) with rfl | ⟨v, rfl⟩
    · exact absurd rfl hn
    · obtain ⟨d, hd'⟩ := hfin i (by rw [← hl]; exact (List.getElem?_eq_some_iff.mp hb).1)
      exact ⟨d * v, by rw [List.getElem?_zipWith, hd', hb]; simp⟩) k x hk
  refine ⟨fun k d hk => (p1 k _ hk).1 (by simp), fun k v hk => (p2 k _ hk).1 (by simp), fun k hk => ?_, fun k d hk hdk hd0 => ?_⟩
  · obtain ⟨d, g1, g2⟩ := (p1 k nan hk).2 rfl
    exact ⟨d, g2, g1⟩
  · obtain ⟨x, g1, g2⟩ := (p2 k nan hk).2 rfl
    have hdiv : (fin x / fin d : Fl K) = fin (x / d) := by
      show Fl.div _ _ = _
      simp only [Fl.div]
      rw [if_neg hd0]
    rw [hdk, Option.getD_some, hdiv] at g2
    refine ⟨x / d, g2, ?_⟩
    rw [mul_div_cancel₀ x hd0]
    have hK : ∀ i q, Known V (List.zipWith (· * ·) c.dep V) i q → Known V (List.zipWith (· * ·) c.dep c.vel) i q := by
      rintro i q ⟨⟨b, hb, hn⟩, hq⟩
      refine ⟨⟨b, hb, hn⟩, ?_⟩
      rw [List.getElem?_zipWith, (p2 i b hb).1 hn]
      rw [List.getElem?_zipWith, hb] at hq
      exact hq
    rcases g1 with ⟨i, j, q1, q2, m1, m2, m3, m4, m5, m6⟩ | ⟨j, m1, m2, m3⟩ | ⟨i, m1, m2, m3⟩
    · exact Or.inl ⟨i, j, q1, q2, m1, m2, hK _ _ m3, hK _ _ m4, m5, m6⟩
    · exact Or.inr (Or.inl ⟨j, m1, hK _ _ m2, m3⟩)
    · exact Or.inr (Or.inr ⟨i, m1, hK _ _ m2, m3⟩)

/-- What lies between values in a range is in the range. -/
theorem between_range {l v : List (Fl K)} {k : ℕ} {x lo hi : K} (h : Between l v k x) (hr : ∀ i a, Known l v i a → lo ≤ a ∧ a ≤ hi) : lo ≤ x ∧ x ≤ hi := by
  rcases h with ⟨i, j, a, b, hik, hkj, ha, hb, _, e⟩ | ⟨j, _, hj, _⟩ | ⟨i, _, hi, _⟩
  · obtain ⟨a1, a2⟩ := hr i a ha
    obtain ⟨b1, b2⟩ := hr j b hb
    have c1 : (i : K) < k := by exact_mod_cast hik
    have c2 : (k : K) < j := by exact_mod_cast hkj
    have hpos : (0 : K) < (j : K) - i := by linarith
    have e' : x * ((j : K) - i) = a * ((j : K) - k) + b * ((k : K) - i) := by linear_combination e
    have d1 : 0 ≤ (j : K) - k := by linarith
    have d2 : 0 ≤ (k : K) - i := by linarith
    constructor
    · refine le_of_mul_le_mul_right ?_ hpos
      have := mul_le_mul_of_nonneg_right a1 d1
      have := mul_le_mul_of_nonneg_right b1 d2
      linarith
    · refine le_of_mul_le_mul_right ?_ hpos
      have := mul_le_mul_of_nonneg_right a2 d1
      have := mul_le_mul_of_nonneg_right b2 d2
      linarith
  · exact hr j x hj
  · exact hr i x hi

/-- C190, no depth of the assembled channel is outside the range of the stored ones; in particular all are positive if those are. -/
theorem C190_range {pp : PhysPars K} {a : ChanIn K} {c : ChanOut K} (h : assembleChannel pp a = .ok c)
    (hd : ∀ x ∈ storedDep a c.online c.outlet c.closed, x = nan ∨ ∃ d : K, x = fin d) (lo hi : K)
    (hr : ∀ d : K, fin d ∈ storedDep a c.online c.outlet c.closed → lo ≤ d ∧ d ≤ hi) :
    ∀ x ∈ c.dep, ∃ d : K, x = fin d ∧ lo ≤ d ∧ d ≤ hi := by
  obtain ⟨f1, _⟩ := stored_of_assemble h
  generalize storedDep a c.online c.outlet c.closed = D at *
  have hD := fillNan_length f1
  intro x hx
  obtain ⟨k, hk⟩ := List.mem_iff_getElem?.mp hx
  obtain ⟨y, hy⟩ : ∃ y, D[k]? = some y := ⟨_, List.getElem?_eq_getElem (hD ▸ (List.getElem?_eq_some_iff.mp hk).1)⟩
  have p1 := fillNan_spec rfl f1 (fun i b hb hn => by
    rcases hd b (List.mem_of_getElem? hb) with rfl | ⟨d, rfl⟩
    · exact absurd rfl hn
    · exact ⟨d, hb⟩) k y hy
  rcases hd y (List.mem_of_getElem? hy) with rfl | ⟨d, rfl⟩
  · obtain ⟨d, g1, g2⟩ := p1.2 rfl
    rw [hk] at g2
    cases g2
    exact ⟨d, rfl, between_range g1 (fun i q hq => hr q (List.mem_of_getElem? hq.2))⟩
  · have g2 := p1.1 (by simp)
    rw [hk] at g2
    cases g2
    exact ⟨d, rfl, hr d (List.mem_of_getElem? hy)⟩

/-- Concrete case: the sample channel, where nothing is stored for the outlet channel and for the second end section. -/
example : ∃ c, assembleChannel chPP chIn = .ok c ∧ (∀ x ∈ storedDep chIn c.online c.outlet c.closed, x = nan ∨ ∃ d : ℚ, x = fin d) ∧
    (∀ x ∈ storedVel chIn c.online c.outlet c.closed, x = nan ∨ ∃ d : ℚ, x = fin d) ∧
    (storedVel chIn c.online c.outlet c.closed).length = (storedDep chIn c.online c.outlet c.closed).length ∧
    Missing (storedDep chIn c.online c.outlet c.closed) 4 ∧ Missing (storedVel chIn c.online c.outlet c.closed) 6 ∧
    c.dep[4]? = some (fin (3/2)) ∧ c.vel[4]? = some (fin 1) := by
  have h : okAnd (assembleChannel chPP chIn) (fun c => decide (storedDep chIn c.online c.outlet c.closed = [fin 1, fin 1, fin 2, fin 2, nan, fin 1, nan] ∧
      storedVel chIn c.online c.outlet c.closed = [fin 1, fin 1, fin 1, fin 1, nan, fin 1, nan] ∧ c.dep[4]? = some (fin (3/2)) ∧ c.vel[4]? = some (fin 1))) = true := by
    decide +kernel
  obtain ⟨c, h0, h⟩ := okAnd_iff.mp h
  obtain ⟨h1, h2, h3, h4⟩ := of_decide_eq_true h
  refine ⟨c, h0, ?_, ?_, by rw [h1, h2]; rfl, by rw [h1]; rfl, by rw [h2]; rfl, h3, h4⟩
  · rw [h1]; simp
  · rw [h2]; simp

end Verif.Props
