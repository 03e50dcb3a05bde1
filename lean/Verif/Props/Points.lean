import Verif.Props.Drawn

set_option autoImplicit false
set_option linter.unusedSectionVars false

/-! # C159: points added on the drawn lines -/

namespace Verif.Props
open Verif Verif.Model Verif.Spec Fl

section grid
variable {K : Type} [Field K] [LinearOrder K] [IsStrictOrderedRing K]

theorem intersect_cons (p q : K × K) (r : List (K × K)) (x : K) :
    intersectPolyline (p :: q :: r) x = (if Straddles x (p, q) then [crossY x (p, q)] else []) ++ intersectPolyline (q :: r) x := by
  rw [intersectPolyline_eq, intersectPolyline_eq]
  unfold segments
  simp only [List.tail_cons, List.zip_cons_cons, List.filter_cons, decide_eq_true_eq]
  by_cases h : Straddles x (p, q)
  · rw [if_pos h, if_pos h]; rfl
  · rw [if_neg h, if_neg h]; rfl

theorem crossY_fin (x : K) {p q : K × K} (h : q.1 - p.1 ≠ 0) : crossY x (p, q) = fin (p.2 + (x - p.1) * (q.2 - p.2) / (q.1 - p.1)) := by
  unfold crossY
  simp only [sub_fin, mul_fin, add_fin, div_fin _ _ h]

/-- An added point changes no crossing. -/
theorem intersect_added {l l' : List (K × K)} (h : PointAdded l l') (x : K) : intersectPolyline l' x = intersectPolyline l x := by
  induction h with
  | here p q r t h0 h1 =>
    rw [intersect_cons, intersect_cons, intersect_cons, ← List.append_assoc]
    congr 1
    have hb : ∀ y, (p.1 < y ∧ y ≤ q.1) ∨ (q.1 < y ∧ y ≤ p.1) ∨ (y ≤ p.1 ∧ y ≤ q.1) ∨ (p.1 < y ∧ q.1 < y) := by
      intro y
      rcases lt_or_ge p.1 y with h | h <;> rcases lt_or_ge q.1 y with h' | h' <;> simp [h, h']
    have h2 : 0 ≤ 1 - t := sub_nonneg.mpr h1
    have em : (1 - t) * p.1 + t * q.1 - p.1 = t * (q.1 - p.1) := by ring
    have em' : q.1 - ((1 - t) * p.1 + t * q.1) = (1 - t) * (q.1 - p.1) := by ring
    rcases hb x with ⟨a, b⟩ | ⟨a, b⟩ | ⟨a, b⟩ | ⟨a, b⟩
    · have hd : q.1 - p.1 ≠ 0 := by intro hh; linarith
      rw [if_pos (show Straddles x (p, q) from Or.inl ⟨a, b⟩)]
      rcases lt_or_ge ((1 - t) * p.1 + t * q.1) x with hm | hm
      · have ht : 1 - t ≠ 0 := by intro hh; obtain rfl : t = 1 := (by linarith); linarith
        rw [if_neg (show ¬ Straddles x (p, _) from fun hh => by
              rcases hh with ⟨_, hh⟩ | ⟨_, hh⟩
              · exact absurd hh (not_le.mpr hm)
              · exact absurd hh (not_le.mpr a)),
          if_pos (show Straddles x (_, q) from Or.inl ⟨hm, b⟩), List.nil_append, crossY_fin x hd, crossY_fin x (by rw [em']; exact mul_ne_zero ht hd)]
        congr 2
        rw [em']
        field_simp
        ring
      · have ht : t ≠ 0 := by rintro rfl; linarith
        rw [if_pos (show Straddles x (p, _) from Or.inl ⟨a, hm⟩),
          if_neg (show ¬ Straddles x (_, q) from fun hh => by
              rcases hh with ⟨hh, _⟩ | ⟨hh, _⟩
              · exact absurd hm (not_le.mpr hh)
              · exact absurd b (not_le.mpr hh)), List.append_nil, crossY_fin x hd, crossY_fin x (by rw [em]; exact mul_ne_zero ht hd)]
        congr 2
        rw [em]
        field_simp
        ring
    · have hd : q.1 - p.1 ≠ 0 := by intro hh; linarith
      rw [if_pos (show Straddles x (p, q) from Or.inr ⟨a, b⟩)]
      rcases lt_or_ge ((1 - t) * p.1 + t * q.1) x with hm | hm
      · have ht : t ≠ 0 := by rintro rfl; linarith
        rw [if_pos (show Straddles x (p, _) from Or.inr ⟨hm, b⟩),
          if_neg (show ¬ Straddles x (_, q) from fun hh => by
              rcases hh with ⟨_, hh⟩ | ⟨_, hh⟩
              · exact absurd hh (not_le.mpr a)
              · exact absurd hh (not_le.mpr hm)), List.append_nil, crossY_fin x hd, crossY_fin x (by rw [em]; exact mul_ne_zero ht hd)]
        congr 2
        rw [em]
        field_simp
        ring
      · have ht : 1 - t ≠ 0 := by intro hh; obtain rfl : t = 1 := (by linarith); linarith
        rw [if_neg (show ¬ Straddles x (p, _) from fun hh => by
              rcases hh with ⟨hh, _⟩ | ⟨hh, _⟩
              · exact absurd b (not_le.mpr hh)
              · exact absurd hm (not_le.mpr hh)),
          if_pos (show Straddles x (_, q) from Or.inr ⟨a, hm⟩), List.nil_append, crossY_fin x hd, crossY_fin x (by rw [em']; exact mul_ne_zero ht hd)]
        congr 2
        rw [em']
        field_simp
        ring
    · have hm : x ≤ (1 - t) * p.1 + t * q.1 := by nlinarith [mul_le_mul_of_nonneg_left a h2, mul_le_mul_of_nonneg_left b h0]
      have n1 : ¬ Straddles x (p, ((1 - t) * p.1 + t * q.1, (1 - t) * p.2 + t * q.2)) := by rintro (⟨hh, _⟩ | ⟨hh, _⟩) <;> simp only at hh <;> linarith
      have n2 : ¬ Straddles x (((1 - t) * p.1 + t * q.1, (1 - t) * p.2 + t * q.2), q) := by rintro (⟨hh, _⟩ | ⟨hh, _⟩) <;> simp only at hh <;> linarith
      have n3 : ¬ Straddles x (p, q) := by rintro (⟨hh, _⟩ | ⟨hh, _⟩) <;> simp only at hh <;> linarith
      rw [if_neg n1, if_neg n2, if_neg n3]
      rfl
    · have hm : (1 - t) * p.1 + t * q.1 < x := by
        rcases h0.lt_or_eq with h | h
        · nlinarith [mul_le_mul_of_nonneg_left a.le h2, mul_lt_mul_of_pos_left b h]
        · rw [← h]; linarith
      have n1 : ¬ Straddles x (p, ((1 - t) * p.1 + t * q.1, (1 - t) * p.2 + t * q.2)) := by rintro (⟨_, hh⟩ | ⟨_, hh⟩) <;> simp only at hh <;> linarith
      have n2 : ¬ Straddles x (((1 - t) * p.1 + t * q.1, (1 - t) * p.2 + t * q.2), q) := by rintro (⟨_, hh⟩ | ⟨_, hh⟩) <;> simp only at hh <;> linarith
      have n3 : ¬ Straddles x (p, q) := by rintro (⟨_, hh⟩ | ⟨_, hh⟩) <;> simp only at hh <;> linarith
      rw [if_neg n1, if_neg n2, if_neg n3]
      rfl
  | later p h ih =>
    cases h with
    | here a b r t h0 h1 => rw [intersect_cons, intersect_cons p a, ih]
    | later a h => rw [intersect_cons, intersect_cons p a, ih]

theorem mem_added {l l' : List (K × K)} (h : PointAdded l l') : ∀ q ∈ l, q ∈ l' := by
  induction h with
  | here p q r t h0 h1 => intro a ha; simp only [List.mem_cons] at ha ⊢; tauto
  | later p h ih =>
    intro a ha
    rcases List.mem_cons.mp ha with rfl | ha
    · simp
    · exact List.mem_cons_of_mem _ (ih a ha)

theorem between_added {l l' : List (K × K)} (h : PointAdded l l') : ∀ q ∈ l', ∃ a ∈ l, ∃ b ∈ l, a.1 ≤ q.1 ∧ q.1 ≤ b.1 := by
  induction h with
  | here p q r t h0 h1 =>
    intro a ha
    rcases List.mem_cons.mp ha with rfl | ha
    · exact ⟨a, by simp, a, by simp, le_rfl, le_rfl⟩
    rcases List.mem_cons.mp ha with rfl | ha
    · rcases le_total p.1 q.1 with h | h
      · exact ⟨p, by simp, q, by simp, by simp only; nlinarith, by simp only; nlinarith⟩
      · exact ⟨q, by simp, p, by simp, by simp only; nlinarith, by simp only; nlinarith⟩
    · exact ⟨a, List.mem_cons_of_mem _ ha, a, List.mem_cons_of_mem _ ha, le_rfl, le_rfl⟩
  | later p h ih =>
    intro a ha
    rcases List.mem_cons.mp ha with rfl | ha
    · exact ⟨a, by simp, a, by simp, le_rfl, le_rfl⟩
    · obtain ⟨u, hu, v, hv, h1, h2⟩ := ih a ha
      exact ⟨u, List.mem_cons_of_mem _ hu, v, List.mem_cons_of_mem _ hv, h1, h2⟩

/-- An added point does not change the extent. -/
theorem extent_added {l l' : List (K × K)} (h : PointAdded l l') : extent l' = extent l := by
  have hin := mem_added h
  have hbtw := between_added h
  have hne : l ≠ [] ∧ l' ≠ [] := by cases h <;> simp
  cases h1 : extent l with
  | error e => cases l with
    | nil => exact absurd rfl hne.1
    | cons a r => cases h1
  | ok v => cases h2 : extent l' with
    | error e => cases l' with
      | nil => exact absurd rfl hne.2
      | cons a r => cases h2
    | ok w =>
      obtain ⟨a1, ⟨q1, m1, a2⟩, q2, m2, a3⟩ := extent_spec h1
      obtain ⟨b1, ⟨q3, m3, b2⟩, q4, m4, b3⟩ := extent_spec h2
      obtain ⟨u, hu, _, _, k1, _⟩ := hbtw q3 m3
      obtain ⟨_, _, z, hz, _, k2⟩ := hbtw q4 m4
      have e1 : w.1 = v.1 := le_antisymm (by rw [a2]; exact (b1 q1 (hin _ m1)).1) (by rw [b2]; exact (a1 u hu).1.trans k1)
      have e2 : w.2 = v.2 := le_antisymm (by rw [b3]; exact k2.trans (a1 z hz).2) (by rw [a3]; exact (b1 q2 (hin _ m2)).2)
      rw [Prod.ext e1 e2]

/-- First and last point stay. -/
theorem ends_added {l l' : List (K × K)} (h : PointAdded l l') : l'.head? = l.head? ∧ l'.getLast? = l.getLast? := by
  induction h with
  | here p q r t h0 h1 => exact ⟨rfl, by simp [List.getLast?_cons_cons]⟩
  | later p h ih => cases h with
    | here => exact ⟨rfl, by simp [List.getLast?_cons_cons]⟩
    | later a h => exact ⟨rfl, by simpa [List.getLast?_cons_cons] using ih.2⟩

/-- The same for any number of points. -/
theorem points_added {l l' : List (K × K)} (h : PointsAdded l l') : (∀ x, intersectPolyline l' x = intersectPolyline l x) ∧ extent l' = extent l ∧
    l'.head? = l.head? ∧ l'.getLast? = l.getLast? := by
  induction h with
  | refl => exact ⟨fun _ => rfl, rfl, rfl, rfl⟩
  | tail _ h ih =>
    obtain ⟨h1, h2, h3, h4⟩ := ih
    obtain ⟨k1, k2⟩ := ends_added h
    exact ⟨fun x => (intersect_added h x).trans (h1 x), (extent_added h).trans h2, k1.trans h3, k2.trans h4⟩

theorem ixGet_head {α : Type} (l : List α) : ixGet l 0 = (match l.head? with | some a => .ok a | none => .error .index) := by
  cases l <;> rfl

theorem pyGet_lastEq {α : Type} (l : List α) : pyGet l (-1) = (match l.getLast? with | some a => .ok a | none => .error .index) := by
  cases h : l.getLast? with
  | some a => exact pyGet_last.mpr h
  | none =>
    rw [List.getLast?_eq_none_iff] at h
    subst h
    rfl

/-- Points added on the outlet before it is put in order. -/
theorem orderOutlet_added {l l' m : List (K × K)} (h : PointsAdded l l') (ho : orderOutlet l = .ok m) : ∃ m', orderOutlet l' = .ok m' ∧
    (∀ x, intersectPolyline m' x = intersectPolyline m x) ∧ m'.head? = m.head? ∧ m'.getLast? = m.getLast? := by
  obtain ⟨h1, _, h3, h4⟩ := points_added h
  unfold orderOutlet at ho ⊢
  rw [ixGet_head, pyGet_lastEq] at ho ⊢
  rw [h3, h4]
  cases ha : l.head? with
  | none => rw [ha] at ho; cases ho
  | some a => cases hb : l.getLast? with
    | none => rw [ha, hb] at ho; cases ho
    | some b =>
      rw [ha, hb] at ho
      simp only [bind, Except.bind, pure, Except.pure, Except.ok.injEq] at ho ⊢
      by_cases hc : a.2 > b.2
      · rw [if_pos hc] at ho ⊢
        subst ho
        refine ⟨_, rfl, fun x => by rw [intersect_reverse, intersect_reverse, h1], ?_, ?_⟩
        · rw [List.head?_reverse, List.head?_reverse, h4]
        · rw [List.getLast?_reverse, List.getLast?_reverse, h3]
      · rw [if_neg hc] at ho ⊢
        subst ho
        exact ⟨_, rfl, h1, h3, h4⟩

theorem assignBeds_y1 (crest : K) : ∀ (m : List (Transect K × Bool)) (bs : List K), (assignBeds crest m bs).map (·.y1) = m.map (·.1.y1) := by
  intro m
  induction m with
  | nil => intro bs; rfl
  | cons a r ih =>
    intro bs
    obtain ⟨t, b⟩ := a
    cases b with
    | false => simp only [assignBeds, List.map_cons, ih]
    | true => cases bs with
      | nil => simp only [assignBeds, List.map_cons, ih]
      | cons v bs => simp only [assignBeds, List.map_cons, ih]

variable [FloorRing K]

/-- Without a channel where it was drawn, the outlet gets a single transect. -/
theorem straight_single {c : RealCfg K} {outlet : List (K × K)} {toR : Bool} {rows : List (Transect K)} {m : List (Transect K × Bool)} {e0 e1 : K}
    (h : realEnds c outlet toR rows = .ok (m, e0, e1)) (hn : ((rows.map (fun t => (t, !t.y1.isnan))).filter (·.2)).map (fun p => p.1.x) = []) :
    (m.filter (fun p => !p.1.y1.isnan)).length ≤ 1 := by
  have hall : ∀ t ∈ rows, t.y1.isnan = true := by
    intro t ht
    by_contra hc
    rw [List.map_eq_nil_iff, List.filter_eq_nil_iff] at hn
    exact hn (t, !t.y1.isnan) (List.mem_map.mpr ⟨t, ht, rfl⟩) (by simpa using hc)
  unfold realEnds at h
  simp only at h
  rw [hn] at h
  simp only [bind_ok, pure_ok] at h
  obtain ⟨_, ha, h⟩ := h
  have ha := pyAssert_ok.mp ha
  rw [beq_iff_eq] at ha
  cases h
  rw [List.filter_map, List.length_map, ← ha, ← List.countP_eq_length_filter, ← List.countP_eq_length_filter]
  refine List.countP_mono_left fun t ht hp => ?_
  simp only [Function.comp_apply] at hp
  rw [decide_eq_true_eq]
  by_contra hx
  rw [if_neg hx] at hp
  simp only [hall t ht] at hp
  cases hp

/-- The transects of the loaded coast that the outlet channel crosses. -/
def channelRows (rows : List (Transect K)) : List (Transect K) := rows.filter (fun t => !t.y1.isnan)

theorem filter_y1_length (l : List (Transect K)) : (channelRows l).length = ((l.map (·.y1)).filter (fun y => !y.isnan)).length := by
  unfold channelRows
  rw [List.filter_map, List.length_map]
  rfl

theorem ends_masked {c : RealCfg K} {outlet outlet' : List (K × K)} {toR : Bool} {rows : List (Transect K)}
    (hn : ((rows.map (fun t => (t, !t.y1.isnan))).filter (·.2)).map (fun p => p.1.x) ≠ []) : realEnds c outlet' toR rows = realEnds c outlet toR rows := by
  unfold realEnds
  simp only
  cases hh : ((rows.map (fun t => (t, !t.y1.isnan))).filter (·.2)).map (fun p => p.1.x) with
  | nil => exact absurd hh hn
  | cons x xs => rfl

/-- Points added on cliff, lagoon and outlet, when the loaded coast has an outlet channel across two transects or more. -/
theorem added_rows (c : RealCfg K) {shore cliff lagoon outlet cliff' lagoon' outlet' : List (K × K)} (h2 : PointsAdded cliff cliff') (h3 : PointsAdded lagoon lagoon')
    (h4 : PointsAdded outlet outlet') {r : List (Transect K) × K × K} (hr : realRows c shore cliff lagoon outlet = .ok r) (hc : 2 ≤ (channelRows r.1).length) :
    realRows c shore cliff' lagoon' outlet' = .ok r := by
  obtain ⟨c1, -, -, -⟩ := points_added h2
  obtain ⟨l1, l2, -, -⟩ := points_added h3
  obtain ⟨-, o2, -, -⟩ := points_added h4
  unfold realRows at hr ⊢
  rw [l2, o2]
  simp only [bind_ok] at hr
  obtain ⟨sh, hs, xs, hx, le, hl, xN, hN, x0, h0, u, ha, oe, ho, out, hout, rows, hrows, oa, hoa, ob, hob, ⟨m, e0, e1⟩, hm, hfin⟩ := hr
  obtain ⟨out', hout', oi, oh, ol⟩ := orderOutlet_added h4 hout
  have hrow : realRow c sh cliff' lagoon' out' le oe = realRow c sh cliff lagoon out le oe := by
    funext x
    unfold realRow
    rw [c1, l1, oi]
  have hoa' : ixGet out' 0 = .ok oa := by rw [ixGet_head, oh, ← ixGet_head]; exact hoa
  have hob' : pyGet out' (-1) = .ok ob := by rw [pyGet_lastEq, ol, ← pyGet_lastEq]; exact hob
  have hmask : ((rows.map (fun t => (t, !t.y1.isnan))).filter (·.2)).map (fun p => p.1.x) ≠ [] := by
    intro hn
    have h1 := straight_single hm hn
    cases hfin
    rw [filter_y1_length] at hc
    simp only [List.map_map] at hc
    have : (fun t : Transect K => t.y1) ∘ (fun t : Transect K => { t with z0 := fin c.BarrierElev, z3 := fin c.LagoonBed }) = (fun t => t.y1) := rfl
    rw [this, assignBeds_y1, List.filter_map, List.length_map] at hc
    exact absurd (le_trans hc h1) (by norm_num)
  simp only [hs, hx, hl, hN, h0, ha, ho, hout', hrow, hrows, hoa', hob', ends_masked (outlet := out) (outlet' := out') hmask, hm, bind, Except.bind]
  exact hfin

/-- Points added on cliff and lagoon only: the same, exceptions included. -/
theorem added_sides (c : RealCfg K) {cliff lagoon cliff' lagoon' : List (K × K)} (shore outlet : List (K × K)) (h2 : PointsAdded cliff cliff')
    (h3 : PointsAdded lagoon lagoon') : realRows c shore cliff' lagoon' outlet = realRows c shore cliff lagoon outlet := by
  obtain ⟨c1, -, -, -⟩ := points_added h2
  obtain ⟨l1, l2, -, -⟩ := points_added h3
  have hrow : ∀ sh out le oe, realRow c sh cliff' lagoon' out le oe = realRow c sh cliff lagoon out le oe := by
    intro sh out le oe
    funext x
    unfold realRow
    rw [c1, l1]
  unfold realRows
  rw [l2]
  simp only [hrow]

end grid

theorem pointAdded_map (o : ℝ × ℝ) (s : ℝ) {l l' : List (ℝ × ℝ)} (h : PointAdded l l') :
    PointAdded (l.map (fun q => real2mod q.1 q.2 o s)) (l'.map (fun q => real2mod q.1 q.2 o s)) := by
  induction h with
  | here p q r t h0 h1 =>
    have e : real2mod ((1 - t) * p.1 + t * q.1) ((1 - t) * p.2 + t * q.2) o s =
        ((1 - t) * (real2mod p.1 p.2 o s).1 + t * (real2mod q.1 q.2 o s).1, (1 - t) * (real2mod p.1 p.2 o s).2 + t * (real2mod q.1 q.2 o s).2) := by
      simp only [real2mod_eq]
      exact Prod.ext (by ring) (by ring)
    simp only [List.map_cons]
    rw [e]
    exact PointAdded.here _ _ _ t h0 h1
  | later p _ ih => exact PointAdded.later _ ih

theorem pointsAdded_map (o : ℝ × ℝ) (s : ℝ) {l l' : List (ℝ × ℝ)} (h : PointsAdded l l') :
    PointsAdded (l.map (fun q => real2mod q.1 q.2 o s)) (l'.map (fun q => real2mod q.1 q.2 o s)) := by
  induction h with
  | refl => exact Relation.ReflTransGen.refl
  | tail _ h ih => exact Relation.ReflTransGen.tail ih (pointAdded_map o s h)

/-- C159, partial: points added on the lines of cliff and lagoon, anywhere between the points that are there, change nothing in the model, exceptions included.
Missing: points on the shoreline, and on the outlet where the channel crosses fewer than two transects (`C159_partial_outlet` for the others); for both it is false. -/
theorem C159_partial (c : RealCfg ℝ) (slope len : ℝ) (f p : ℝ × ℝ) (shore cliff lagoon outlet cliff' lagoon' : List (ℝ × ℝ)) (h2 : PointsAdded cliff cliff')
    (h3 : PointsAdded lagoon lagoon') : realLoad c slope len f p shore cliff' lagoon' outlet = realLoad c slope len f p shore cliff lagoon outlet := by
  unfold realLoad
  split
  · unfold realLoadMod
    simp only [added_sides c _ _ (pointsAdded_map _ _ h2) (pointsAdded_map _ _ h3)]
  · rfl

/-- C159, partial: points added on the outlet line as well change nothing either, if in the model of the coast the outlet channel crosses two transects or more. -/
theorem C159_partial_outlet (c : RealCfg ℝ) (slope len : ℝ) (f p : ℝ × ℝ) (shore cliff lagoon outlet cliff' lagoon' outlet' : List (ℝ × ℝ)) (h2 : PointsAdded cliff cliff')
    (h3 : PointsAdded lagoon lagoon') (h4 : PointsAdded outlet outlet') (r : LoadOut ℝ × (ℝ × ℝ) × ℝ) (hr : realLoad c slope len f p shore cliff lagoon outlet = .ok r)
    (hc : 2 ≤ (r.1.rows.filter (fun t => !t.y1.isnan)).length) : realLoad c slope len f p shore cliff' lagoon' outlet' = .ok r := by
  unfold realLoad at hr ⊢
  split at hr
  · rename_i ox oy ho
    unfold realLoadMod at hr ⊢
    simp only [bind_ok] at hr
    obtain ⟨ld, ⟨riv, hriv, ⟨rows, e0, e1⟩, hrows, hld⟩, hfin⟩ := hr
    cases hld
    cases hfin
    have := added_rows c (pointsAdded_map (ox, oy) (baseNormal f.1 f.2 p) h2) (pointsAdded_map (ox, oy) (baseNormal f.1 f.2 p) h3)
      (pointsAdded_map (ox, oy) (baseNormal f.1 f.2 p) h4) hrows hc
    simp only [hriv, this, bind, Except.bind, pure, Except.pure]
  · simp only [bind_ok] at hr
    obtain ⟨_, _, hr⟩ := hr
    split_ifs at hr

/-- The sample of C85 to C90: its channel crosses more than one transect, and a point in the middle may be added to each line. -/
example : PointAdded rlCliff [(-100, -60), (0, -60), (100, -60)] ∧ PointAdded rlLagoon [(-15, -40), (5, -40), (25, -40)] ∧
    PointAdded rlOutlet [(5, -35), (43 / 2, -20), (38, -5)] ∧
    okAnd (realLoadMod rlCfg (1 / 100) 100 rlShore rlCliff rlLagoon rlOutlet) (fun ld => decide (2 ≤ (ld.rows.filter (fun t => !t.y1.isnan)).length)) = true := by
  refine ⟨?_, ?_, ?_, by decide +kernel⟩
  · have := PointAdded.here ((-100, -60) : ℚ × ℚ) (100, -60) [] (1 / 2) (by norm_num) (by norm_num)
    norm_num at this
    exact this
  · have := PointAdded.here ((-15, -40) : ℚ × ℚ) (25, -40) [] (1 / 2) (by norm_num) (by norm_num)
    norm_num at this
    exact this
  · have := PointAdded.here ((5, -35) : ℚ × ℚ) (38, -5) [] (1 / 2) (by norm_num) (by norm_num)
    norm_num at this
    exact this

/-- C159 is false of the code for an outlet line that crosses no transect: loadmod.py 523 and 526 put the channel where the mean of the points of the line is, so a point added on the
line moves it to another transect. -/
theorem C159_refuted_outlet : ∃ (outlet outlet' : List (ℚ × ℚ)) (ld ld' : LoadOut ℚ), PointAdded outlet outlet' ∧
    realLoadMod rlCfg (1 / 100) 100 rlShore rlCliff rlLagoon outlet = .ok ld ∧ realLoadMod rlCfg (1 / 100) 100 rlShore rlCliff rlLagoon outlet' = .ok ld' ∧
    ld.EndX0 = fin (-20) ∧ ld'.EndX0 = fin (-30) := by
  have h1 : okAnd (realLoadMod rlCfg (1 / 100) 100 rlShore rlCliff rlLagoon [(12, -30), (18, -10)]) (fun ld => decide (ld.EndX0 = fin (-20))) = true := by
    decide +kernel
  have h2 : okAnd (realLoadMod rlCfg (1 / 100) 100 rlShore rlCliff rlLagoon [(12, -30), (27 / 2, -25), (18, -10)]) (fun ld => decide (ld.EndX0 = fin (-30))) = true := by
    decide +kernel
  obtain ⟨a, ha, pa⟩ := okAnd_iff.mp h1
  obtain ⟨b, hb, pb⟩ := okAnd_iff.mp h2
  rw [decide_eq_true_eq] at pa pb
  refine ⟨_, _, a, b, ?_, ha, hb, pa, pb⟩
  have := PointAdded.here ((12, -30) : ℚ × ℚ) (18, -10) [] (1 / 4) (by norm_num) (by norm_num)
  norm_num at this
  exact this

theorem baseNormal_slope (m b : ℝ) (p : ℝ × ℝ) : Real.sin (baseNormal m b p) = -m * Real.cos (baseNormal m b p) ∧ Real.cos (baseNormal m b p) ≠ 0 := by
  have hs : Real.sqrt (1 + m ^ 2) ≠ 0 := (Real.sqrt_pos.mpr (by positivity)).ne'
  obtain ⟨a1, a2⟩ := baseNormal_trig m b p
  by_cases h : m * p.1 + b > 0
  · rw [(a1 h).1, (a1 h).2]
    exact ⟨by ring, div_ne_zero (by norm_num) hs⟩
  · rw [(a2 h).1, (a2 h).2]
    exact ⟨by ring, div_ne_zero (by norm_num) hs⟩

/-- C159 is false of the code for the shoreline: the baseline is fitted to its points, so a point added on it turns the axes of the model (loadmod.py 430). -/
theorem C159_refuted_shoreline : ∃ (shore shore' : List (ℝ × ℝ)) (f f' : ℝ × ℝ), PointAdded shore shore' ∧ BestLine shore f ∧ BestLine shore' f' ∧
    ∀ p, baseNormal f'.1 f'.2 p ≠ baseNormal f.1 f.2 p := by
  refine ⟨[(0, 0), (1, 0), (3, 3)], [(0, 0), (1, 0), (2, 3 / 2), (3, 3)], (15 / 14, -3 / 7), (21 / 20, -9 / 20), ?_, ?_, ?_, ?_⟩
  · have := PointAdded.later ((0, 0) : ℝ × ℝ) (PointAdded.here ((1, 0) : ℝ × ℝ) (3, 3) [] (1 / 2) (by norm_num) (by norm_num))
    norm_num at this
    exact this
  · rintro ⟨a, b⟩ hg
    simp only [misfit, List.map_cons, List.map_nil, List.sum_cons, List.sum_nil]
    by_cases h : a = 15 / 14
    · have hb : b + 3 / 7 ≠ 0 := fun h0 => hg (Prod.ext h (by simp only; linarith))
      have := pow_pos (abs_pos.mpr hb) 2
      rw [sq_abs] at this
      subst h
      nlinarith
    · have := pow_pos (abs_pos.mpr (sub_ne_zero.mpr h)) 2
      rw [sq_abs] at this
      nlinarith [sq_nonneg (b + 3 / 7 + (4 / 3) * (a - 15 / 14))]
  · rintro ⟨a, b⟩ hg
    simp only [misfit, List.map_cons, List.map_nil, List.sum_cons, List.sum_nil]
    by_cases h : a = 21 / 20
    · have hb : b + 9 / 20 ≠ 0 := fun h0 => hg (Prod.ext h (by simp only; linarith))
      have := pow_pos (abs_pos.mpr hb) 2
      rw [sq_abs] at this
      subst h
      nlinarith
    · have := pow_pos (abs_pos.mpr (sub_ne_zero.mpr h)) 2
      rw [sq_abs] at this
      nlinarith [sq_nonneg (b + 9 / 20 + (3 / 2) * (a - 21 / 20))]
  · intro p hh
    obtain ⟨a1, a2⟩ := baseNormal_slope (15 / 14) (-3 / 7) p
    obtain ⟨b1, -⟩ := baseNormal_slope (21 / 20) (-9 / 20) p
    simp only at hh
    rw [hh, a1] at b1
    have := mul_right_cancel₀ a2 b1
    norm_num at this

end Verif.Props
