import Verif.Lemmas.Channel
import Verif.Lemmas.ChannelReach
import Verif.Model.Figures

set_option autoImplicit false
set_option linter.unusedSectionVars false

/-! # Filling gaps of an array whose last but one entry is known -/

namespace Verif.Model
open Verif Fl

variable {K : Type} [Field K] [LinearOrder K] [IsStrictOrderedRing K]

theorem mapM_map {α β : Type} {f : α → Except PyErr β} {g : α → β} {L : List α} (h : ∀ a ∈ L, f a = .ok (g a)) : L.mapM f = .ok (L.map g) := by
  induction L with
  | nil => rfl
  | cons a t ih =>
    rw [List.mapM_cons]
    exact bind_ok.mpr ⟨_, h a (by simp), bind_ok.mpr ⟨_, ih (fun b hb => h b (List.mem_cons_of_mem _ hb)), rfl⟩⟩

/-- Interpolation at a position before a point does not depend on what comes after that point. -/
theorem interpScan_before (rest : List (K × Fl K)) (x0 : K) (f0 : Fl K) {b : K} {v : Fl K} (extra : List (K × Fl K)) {x : K} (h : x < b) :
    interpScan x0 f0 (rest ++ (b, v) :: extra) x = interpScan x0 f0 (rest ++ [(b, v)]) x := by
  induction rest generalizing x0 f0 with
  | nil => simp [interpScan, h]
  | cons p t ih => simp only [List.cons_append, interpScan, ih]

/-- Interpolation beyond all points gives the last value. -/
theorem interpScan_after (rest : List (K × Fl K)) (x0 : K) (f0 : Fl K) {b : K} {v : Fl K} {x : K} (h : ∀ p ∈ rest, p.1 ≤ x) (hb : b ≤ x) :
    interpScan x0 f0 (rest ++ [(b, v)]) x = v := by
  induction rest generalizing x0 f0 with
  | nil => simp [interpScan, hb]
  | cons p t ih =>
    simp only [List.cons_append, interpScan]
    rw [if_neg (not_lt.mpr (h p (by simp)))]
    exact ih _ _ (fun q hq => h q (List.mem_cons_of_mem _ hq))

/-- The known points of an array. -/
def known (l vals : List (Fl K)) : List (K × Fl K) :=
  ((List.range l.length).filter (fun i => (l[i]?).any (fun a => !a.isnan))).filterMap (fun (i : ℕ) => (vals[i]?).map (fun v => ((i : K), v)))

theorem known_append {l w : List (Fl K)} (hw : w.length = l.length) (a va : Fl K) :
    known (l ++ [a]) (w ++ [va]) = known l w ++ (if a.isnan then [] else [((l.length : K), va)]) := by
  unfold known
  rw [List.length_append, List.length_singleton, List.range_succ, List.filter_append, List.filterMap_append]
  congr 1
  · have h1 : (List.range l.length).filter (fun i => ((l ++ [a])[i]?).any (fun a => !a.isnan)) =
        (List.range l.length).filter (fun i => (l[i]?).any (fun a => !a.isnan)) := by
      apply List.filter_congr
      intro i hi
      rw [List.getElem?_append_left (List.mem_range.mp hi)]
    rw [h1]
    apply List.filterMap_congr
    intro i hi
    have := List.mem_range.mp (List.mem_filter.mp hi).1
    rw [List.getElem?_append_left (by omega)]
  · have h1 : (l ++ [a])[l.length]? = some a := by simp
    have h2 : (w ++ [va])[l.length]? = some va := by rw [← hw]; simp
    cases ha : a.isnan with
    | true => simp [ha]
    | false => simp [ha, h2]

theorem known_lt (l w : List (Fl K)) : ∀ p ∈ known l w, p.1 < (l.length : K) := by
  intro p hp
  unfold known at hp
  obtain ⟨i, hi, h⟩ := List.mem_filterMap.mp hp
  have := List.mem_range.mp (List.mem_filter.mp hi).1
  obtain ⟨v, _, rfl⟩ := Option.map_eq_some_iff.mp h
  change ((i : ℕ) : K) < _
  exact_mod_cast this

/-- Interpolation between the points `pts`, of which there is at least one. -/
def scanOf (pts : List (K × Fl K)) (x : K) : Fl K :=
  match pts with
  | [] => nan
  | p :: rest => interpScan p.1 p.2 rest x

theorem npInterp_scan {pts : List (K × Fl K)} (h : pts ≠ []) (x : K) : npInterp pts x = .ok (scanOf pts x) := by
  cases pts with
  | nil => exact absurd rfl h
  | cons p t => rfl

/-- Filling the gaps of an array whose last but one entry is known: neither the entries before nor that entry depend on the last one. -/
theorem fillNan_last {l w : List (Fl K)} (hw : w.length = l.length) {d : Fl K} (hd : d.isnan = false) (wd x wx : Fl K) (f : ℕ → Fl K → Fl K) :
    fillNan (l ++ [d, x]) (w ++ [wd, wx]) f = .ok (((List.range l.length).zip l).map (fun p =>
      if p.2.isnan then f p.1 (scanOf (known l w ++ [((l.length : K), wd)]) (p.1 : K)) else p.2) ++
      [d, if x.isnan then f (l.length + 1) wd else x]) := by
  have e1 : l ++ [d, x] = (l ++ [d]) ++ [x] := by simp
  have e2 : w ++ [wd, wx] = (w ++ [wd]) ++ [wx] := by simp
  have hk : known (l ++ [d, x]) (w ++ [wd, wx]) = known l w ++ ((l.length : K), wd) :: (if x.isnan then [] else [(((l.length + 1 : ℕ) : K), wx)]) := by
    rw [e1, e2, known_append (by simp [hw]), known_append hw, hd]
    simp
  have hzip : (List.range (l ++ [d, x]).length).zip (l ++ [d, x]) = (List.range l.length).zip l ++ [(l.length, d), (l.length + 1, x)] := by
    rw [show (l ++ [d, x]).length = l.length + 1 + 1 by simp, List.range_succ, List.range_succ, List.append_assoc, List.zip_append (by simp)]
    rfl
  unfold fillNan
  split
  · change ((List.range (l ++ [d, x]).length).zip (l ++ [d, x])).mapM _ = _
    rw [hzip]
    have hmap := mapM_map (L := (List.range l.length).zip l ++ [(l.length, d), (l.length + 1, x)])
      (f := fun (p : ℕ × Fl K) => if p.2.isnan then do return f p.1 (← npInterp (known (l ++ [d, x]) (w ++ [wd, wx])) (p.1 : K)) else return p.2)
      (g := fun (p : ℕ × Fl K) => if p.2.isnan then f p.1 (scanOf (known (l ++ [d, x]) (w ++ [wd, wx])) (p.1 : K)) else p.2) (by
        intro p _
        split
        · rw [npInterp_scan (by rw [hk]; simp)]; rfl
        · rfl)
    refine Eq.trans hmap ?_
    rw [List.map_append]
    congr 2
    · apply List.map_congr_left
      intro p hp
      split
      · congr 1
        have hlt : p.1 < l.length := List.mem_range.mp (List.of_mem_zip hp).1
        have hlt' : (p.1 : K) < (l.length : K) := by exact_mod_cast hlt
        rw [hk]
        cases known l w with
        | nil =>
          have h2 : (p.1 : K) < ((l.length + 1 : ℕ) : K) := by exact_mod_cast Nat.lt_succ_of_lt hlt
          simp only [List.nil_append, scanOf]
          cases x.isnan with
          | true => rfl
          | false =>
            simp only [Bool.false_eq_true, if_false, interpScan]
            rw [if_pos h2, if_pos hlt'.le]
        | cons q t =>
          simp only [List.cons_append, scanOf]
          exact interpScan_before t q.1 q.2 _ hlt'
      · rfl
    · simp only [List.map_cons, List.map_nil, hd]
      cases hx : x.isnan with
      | false => simp
      | true =>
        simp only [if_true]
        congr 3
        rw [hk, hx]
        have hle : (l.length : K) ≤ ((l.length + 1 : ℕ) : K) := by exact_mod_cast Nat.le_succ _
        have hall := known_lt l w
        cases hkn : known l w with
        | nil => rfl
        | cons q t =>
          simp only [List.cons_append, scanOf, if_true]
          refine interpScan_after t q.1 q.2 (fun p hp => ?_) hle
          exact (hall p (by rw [hkn]; exact List.mem_cons_of_mem _ hp)).le.trans hle
  · next hn =>
    rw [Bool.not_eq_true, List.any_eq_false] at hn
    have hx : x.isnan = false := by simpa using hn x (by simp)
    rw [hx]
    congr 2
    have hz : ((List.range l.length).zip l).map (fun p => if p.2.isnan then f p.1 (scanOf (known l w ++ [((l.length : K), wd)]) (p.1 : K)) else p.2) =
        ((List.range l.length).zip l).map Prod.snd := by
      apply List.map_congr_left
      intro p hp
      have := hn p.2 (List.mem_append_left _ (List.of_mem_zip hp).2)
      simp [this]
    rw [hz, List.map_snd_zip (by simp)]

/-- Depths and velocities of an open channel with and without those of the dummy section. -/
theorem hyd_last {D V dep vel : List (Fl K)} {d v : K} {x y : Fl K} (hl : D.length = V.length) (hd : d ≠ 0)
    (h1 : fillNan (D ++ [fin d, x]) (D ++ [fin d, x]) (fun _ q => q) = .ok dep)
    (h2 : fillNan (V ++ [fin v, y]) (List.zipWith (· * ·) dep (V ++ [fin v, y])) (fun i q => q / (dep[i]?).getD nan) = .ok vel) :
    ∃ dep' vel', fillNan (D ++ [fin d, nan]) (D ++ [fin d, nan]) (fun _ q => q) = .ok dep' ∧
      fillNan (V ++ [fin v, nan]) (List.zipWith (· * ·) dep' (V ++ [fin v, nan])) (fun i q => q / (dep'[i]?).getD nan) = .ok vel' ∧
      dep' = dep.dropLast ++ [fin d] ∧ vel' = vel.dropLast ++ [fin v] := by
  rw [fillNan_last rfl rfl] at h1
  generalize hP : ((List.range D.length).zip D).map (fun p =>
      if p.2.isnan then (fun (_ : ℕ) q => q) p.1 (scanOf (known D D ++ [((D.length : K), fin d)]) (p.1 : K)) else p.2) = P at h1
  have hPl : P.length = V.length := by rw [← hP]; simp [hl]
  have hz : ∀ a b : Fl K, List.zipWith (· * ·) (P ++ [fin d, a]) (V ++ [fin v, b]) = List.zipWith (· * ·) P V ++ [fin d * fin v, a * b] := by
    intro a b
    rw [List.zipWith_append hPl]
    rfl
  have hzl : (List.zipWith (· * ·) P V).length = V.length := by simp [hPl]
  have e1 : fillNan (D ++ [fin d, nan]) (D ++ [fin d, nan]) (fun _ q => q) = .ok (P ++ [fin d, fin d]) := by
    rw [fillNan_last rfl rfl, hP]
    rfl
  refine ⟨_, _, e1, ?_, ?_, rfl⟩
  · cases h1
    rw [hz, fillNan_last hzl rfl] at h2 ⊢
    cases h2
    have hlast : (fin d * fin v) / ((P ++ [fin d, fin d])[V.length + 1]?).getD nan = fin v := by
      rw [← hPl, List.getElem?_append_right (by omega)]
      have : P.length + 1 - P.length = 1 := by omega
      rw [this]
      change (fin d * fin v) / fin d = fin v
      rw [mul_fin, div_fin _ _ hd, mul_div_cancel_left₀ _ hd]
    congr 1
    rw [List.dropLast_append_of_ne_nil (by simp), show ∀ a b : Fl K, [a, b].dropLast = [a] from fun _ _ => rfl, List.append_assoc]
    congr 1
    · apply List.map_congr_left
      intro p hp
      have hlt : p.1 < V.length := List.mem_range.mp (List.of_mem_zip hp).1
      rw [List.getElem?_append_left (by omega), List.getElem?_append_left (by omega)]
    · change [fin v, _] = [fin v, fin v]
      rw [hlast]
      rfl
  · cases h1
    rw [List.dropLast_append_of_ne_nil (by simp)]
    simp

/-- The channel assembled without the depth and velocity of the dummy section: everything else is the same, and in an open channel the dummy
section gets the depth and velocity of the outlet end. -/
theorem assemble_noDummy [FloorRing K] {pp : PhysPars K} {a : ChanIn K} {c : ChanOut K} {d v : K} {x y : Fl K} (hl : a.RivDep.length = a.RivVel.length)
    (hed : a.EndDep = [fin d, x]) (hev : a.EndVel = [fin v, y]) (hd : d ≠ 0) (h : assembleChannel pp a = .ok c) :
    assembleChannel pp { a with EndDep := [fin d], EndVel := [fin v] } =
      .ok (if c.closed = true then c else { c with dep := c.dep.dropLast ++ [fin d], vel := c.vel.dropLast ++ [fin v] }) := by
  obtain ⟨X0, r0, w, C1, s1, s, onRows, outRows, H⟩ := assemble_inv h
  obtain ⟨wl, lv, h1, h2, d0, v0, h3, h4, h5, h6⟩ := chanHyd_inv H.hyd
  by_cases hc : c.closed = true
  · rw [if_pos hc]
    have hy : chanHyd { a with EndDep := [fin d], EndVel := [fin v] } s.online c.outlet c.closed onRows = .ok (c.dep, c.vel) :=
      chanHyd_mk h1 h2 h3 h4 h5 (fun hf => by rw [hc] at hf; cases hf)
    exact Assembled.mk_ok (X0 := X0) (r0 := r0) (w := w) (C1 := C1) (s1 := s1) (s := s) (onRows := onRows) (outRows := outRows)
      ⟨H.x0, H.outlet, H.hr0, H.w0, H.nonan, H.lag, H.cut, H.online, H.hon, H.hout, H.geom, hy, H.width0, H.widthN, H.elevN, H.velN, H.depN, H.count⟩
  · rw [if_neg hc]
    rw [Bool.not_eq_true] at hc
    obtain ⟨od, ov, h7, h8, e1, e2⟩ := h6 hc
    have p1 : padEnd a.EndDep = [fin d, x] := by rw [hed]; rfl
    have p2 : padEnd a.EndVel = [fin v, y] := by rw [hev]; rfl
    rw [p1] at e1
    rw [p2] at e2
    subst e1 e2
    have l1 := gather_length h1
    have l2 := gather_length h2
    have l3 := gather_length H.hon
    have l4 := gather_length h7
    have l5 := gather_length h8
    obtain ⟨dep', vel', g1, g2, g3, g4⟩ := hyd_last (by simp [hl]; omega) hd h3 h4
    have hy : chanHyd { a with EndDep := [fin d], EndVel := [fin v] } s.online c.outlet c.closed onRows = .ok (dep', vel') :=
      chanHyd_mk h1 h2 g1 g2 (fun ht => by rw [hc] at ht; cases ht) (fun _ => ⟨od, ov, h7, h8, rfl, rfl⟩)
    subst g3 g4
    have key : Assembled pp { a with EndDep := [fin d], EndVel := [fin v] } { c with dep := c.dep.dropLast ++ [fin d], vel := c.vel.dropLast ++ [fin v] }
        X0 r0 w C1 s1 s onRows outRows := by
      refine ⟨H.x0, H.outlet, H.hr0, H.w0, H.nonan, H.lag, H.cut, H.online, H.hon, H.hout, H.geom, hy, H.width0, H.widthN, H.elevN, ?_, ?_, H.count⟩
      · intro z hz
        rcases List.mem_append.mp hz with hz | hz
        · exact H.velN z (List.dropLast_subset _ hz)
        · rw [List.mem_singleton.mp hz]; rfl
      · intro z hz
        rcases List.mem_append.mp hz with hz | hz
        · exact H.depN z (List.dropLast_subset _ hz)
        · rw [List.mem_singleton.mp hz]; rfl
    exact key.mk_ok

/-- Without water at the outlet end the dummy section gets no velocity, and an open channel is not assembled. -/
theorem assemble_dry [FloorRing K] {pp : PhysPars K} {a : ChanIn K} {v : Fl K} (hl : a.RivDep.length = a.RivVel.length)
    (hed : a.EndDep = [fin 0]) (hev : a.EndVel = [v]) (hv : v.isnan = false) {c : ChanOut K} (h : assembleChannel pp a = .ok c) : c.closed = true := by
  obtain ⟨X0, r0, w, C1, s1, s, onRows, outRows, H⟩ := assemble_inv h
  obtain ⟨wl, lv, h1, h2, d0, v0, h3, h4, h5, h6⟩ := chanHyd_inv H.hyd
  by_contra hc
  rw [Bool.not_eq_true] at hc
  obtain ⟨od, ov, h7, h8, e1, e2⟩ := h6 hc
  have p1 : padEnd a.EndDep = [fin 0, nan] := by rw [hed]; rfl
  have p2 : padEnd a.EndVel = [v, nan] := by rw [hev]; rfl
  rw [p1] at e1
  rw [p2] at e2
  have l1 := gather_length h1
  have l2 := gather_length h2
  have l3 := gather_length H.hon
  have l4 := gather_length h7
  have l5 := gather_length h8
  rw [e1, fillNan_last rfl rfl] at h3
  generalize hP : List.map _ _ = P at h3
  have hPl : P.length = (a.RivVel ++ lv ++ ov).length := by rw [← hP]; simp [hl]; omega
  have h3' : P ++ [fin 0, fin 0] = c.dep := Except.ok.inj h3
  rw [e2, ← h3', List.zipWith_append hPl, show List.zipWith (· * ·) [fin 0, fin 0] [v, nan] = [fin 0 * v, fin 0 * nan] from rfl,
    fillNan_last (by simp only [List.length_zipWith]; omega) hv] at h4
  have hlast : (fin 0 * v) / ((P ++ [fin 0, fin 0])[(a.RivVel ++ lv ++ ov).length + 1]?).getD nan = nan := by
    rw [← hPl, List.getElem?_append_right (by omega)]
    have : P.length + 1 - P.length = 1 := by omega
    rw [this]
    change (fin 0 * v) / fin 0 = nan
    cases v with
    | nan => rfl
    | ninf =>
      have h0 : (fin 0 * ninf : Fl K) = nan := by change infOfSign (-(0 : K)) = nan; simp [infOfSign]
      rw [h0]; rfl
    | pinf =>
      have h0 : (fin 0 * pinf : Fl K) = nan := by change infOfSign (0 : K) = nan; simp [infOfSign]
      rw [h0]; rfl
    | fin v =>
      rw [mul_fin, zero_mul]
      change (if (0 : K) = 0 then infOfSign 0 else fin (0 / 0)) = nan
      simp [infOfSign]
  have := H.velN nan (by
    rw [← Except.ok.inj h4]
    apply List.mem_append_right
    rw [hlast]
    simp [Fl.isnan])
  cases this

end Verif.Model
