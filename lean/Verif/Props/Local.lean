import Verif.Lemmas.Local
import Verif.Props.MorStep
import Verif.Props.Relic
import Verif.Props.Budget
import Verif.Model.Core

set_option autoImplicit false
set_option linter.unusedSectionVars false

/-! # C174: in a closed lagoon what happens far away does not reach a transect -/

namespace Verif.Props
open Verif Fl Verif.Model Verif.Spec List

section
variable {K : Type} [Field K] [LinearOrder K] [IsStrictOrderedRing K]

/-- C174: two closed lagoons which agree at a transect and in the transport on its sides are the same there after a step of the
same length, whatever the rest of the coast does, unless the barrier breaches right there. -/
theorem C174_step (pp : PhysPars K) (j1 j2 : ℕ → Bool) (i : ℕ) (a a' : MorIn K) (o o' : MorOut K) (hs : SameHere i a a') (hB : 0 ≤ a.MaxMorChange)
    (hreg : Regular pp a) (hreg' : Regular pp a') (h : updateMorphology pp j1 j2 a = .ok o) (h' : updateMorphology pp j1 j2 a' = .ok o')
    (hdt : o'.MorDt = o.MorDt) (hno : ∀ r, a.rows[i]? = some r → ¬ BreachAt o r.x ∧ ¬ BreachAt o' r.x) : o'.rows[i]? = o.rows[i]? := by
  obtain ⟨X0, s0, s1, s2, s3, h0, h1, h2, h3, er, _, e1, _⟩ := update_inv h
  obtain ⟨X0', s0', s1', s2', s3', h0', h1', h2', h3', er', _, e1', _⟩ := update_inv h'
  rw [hs.closed.1] at h1 h2
  rw [hs.closed.2] at h1' h2'
  rw [hdt] at h0'
  cases hr : a.rows[i]? with
  | none =>
    have l1 : o.rows.length = a.rows.length := by simpa using congrArg length (C72_positions h)
    have l2 : o'.rows.length = a'.rows.length := by simpa using congrArg length (C72_positions h')
    have hn : a'.rows.length = a.rows.length := by simpa using congrArg length hs.grid
    rw [List.getElem?_eq_none_iff] at hr
    rw [getElem?_eq_none (by omega), getElem?_eq_none (by omega)]
  | some r =>
    obtain ⟨hX, hi, hi', c, c', hc, hc', hd, hx, ho, hy⟩ := force_same hs hB hreg hreg' h0 h0' hr
    subst hX
    obtain ⟨n1, n2⟩ := hno r hr
    have ho' : c'.op = !c'.t.y1.isnan := by obtain ⟨w, rfl⟩ := hd; exact ho
    have hy' : c'.t.y1 = nan ∨ IsNumber c'.t.y1 := by obtain ⟨w, rfl⟩ := hd; exact hy
    have hx' : c'.t.x = r.x := by obtain ⟨w, rfl⟩ := hd; exact hx
    obtain ⟨d, hd1, hd2⟩ := closed_one h1 h2 h3 (by rw [hi]; exact hs.noOutlet.1) hc ho hy
      (by rintro ⟨p, q⟩; exact n1 ⟨p, by rw [e1, q, hx]⟩)
    obtain ⟨d', hd1', hd2'⟩ := closed_one h1' h2' h3' (by rw [hi']; exact hs.noOutlet.2) hc' ho' hy'
      (by rintro ⟨p, q⟩; exact n2 ⟨p, by rw [e1', q, hx']⟩)
    have hm := mergeOne_dry pp j1 j2 i (repairOne_dry pp hd)
    have key : SameDry d d' := by
      refine sameDry_trans (sameDry_symm hd2) (sameDry_trans ?_ hd2')
      split
      · exact keep_dry pp hm
      · exact hm
    rw [er, er', getElem?_map, getElem?_map, hd1, hd1', Option.map_some, Option.map_some, key.t]

theorem pairs_at {α : Type} {l l' : List α} {k : ℕ} (hl : l'.length = l.length) (h : l'[k]? = l[k]?) (h' : l'[k+1]? = l[k+1]?) :
    (l'.dropLast.zip l'.tail)[k]? = (l.dropLast.zip l.tail)[k]? := by
  rw [zip_eq_zipWith, zip_eq_zipWith, getElem?_zipWith, getElem?_zipWith, getElem?_tail, getElem?_tail, h', getElem?_dropLast, getElem?_dropLast, hl, h]

/-- C174: disturbances travel along the coast of a closed lagoon by no more than one transect per step.  Two histories of `n` steps under the same
seas and river, with the same timesteps, which start with the same `n` transects on both sides of transect `i`, and no breach there, are the same at
transect `i` at the end. -/
theorem C174_reach (pp : PhysPars K) (j1 j2 : ℕ → Bool) (F : ℕ → Sea K) (n i : ℕ) (a a' : ℕ → MorIn K) (o o' : ℕ → MorOut K)
    (H : ClosedHistory pp j1 j2 F n a o) (H' : ClosedHistory pp j1 j2 F n a' o')
    (hgrid : (a' 0).rows.map (·.x) = (a 0).rows.map (·.x)) (hriv : ∀ k < n, SameRiver (a k) (a' k))
    (hdx : ∀ k < n, (a' k).Dx = (a k).Dx ∧ (a' k).MaxMorChange = (a k).MaxMorChange) (hdt : ∀ k < n, (o' k).MorDt = (o k).MorDt)
    (hsame : ∀ m, Nearby n i m → (a' 0).rows[m]? = (a 0).rows[m]?)
    (hno : ∀ k < n, ∀ m, Nearby n i m → ∀ r, (a 0).rows[m]? = some r → ¬ BreachAt (o k) r.x ∧ ¬ BreachAt (o' k) r.x) :
    (a' n).rows[i]? = (a n).rows[i]? := by
  have key : ∀ k ≤ n, (a k).rows.map (·.x) = (a 0).rows.map (·.x) ∧ (a' k).rows.map (·.x) = (a 0).rows.map (·.x) ∧
      ∀ m, Nearby (n - k) i m → (a' k).rows[m]? = (a k).rows[m]? := by
    intro k
    induction k with
    | zero => intro _; exact ⟨rfl, hgrid, hsame⟩
    | succ k ih =>
      intro hk
      obtain ⟨g, g', ihm⟩ := ih (by omega)
      have hkn : k < n := by omega
      have p := C72_positions (H.step k hkn)
      have p' := C72_positions (H'.step k hkn)
      refine ⟨by rw [H.next k hkn, p, g], by rw [H'.next k hkn, p', g'], ?_⟩
      intro m hm
      have hlen : (a' k).rows.length = (a k).rows.length := by simpa using congrArg length (g'.trans g.symm)
      have near : ∀ q, q = m ∨ q = m + 1 ∨ q + 1 = m → (a' k).rows[q]? = (a k).rows[q]? := by
        intro q hq
        apply ihm
        unfold Nearby at hm ⊢
        omega
      rw [H.next k hkn, H'.next k hkn]
      refine C174_step pp j1 j2 m (a k) (a' k) (o k) (o' k) ?_ (H.limit k hkn) (H.regular k hkn) (H'.regular k hkn) (H.step k hkn) (H'.step k hkn)
        (hdt k hkn) ?_
      · refine ⟨⟨H.closed k hkn, H'.closed k hkn⟩, ⟨H.noOutlet k hkn, H'.noOutlet k hkn⟩, g'.trans g.symm, (hdx k hkn).1, (hdx k hkn).2,
          near m (Or.inl rfl), ?_, ?_, hriv k hkn⟩
        · intro q hq
          have e := pairs_at (l := (a k).rows.map (·.y0)) (l' := (a' k).rows.map (·.y0)) (k := q) (by simpa using hlen)
            (by rw [getElem?_map, getElem?_map, near q (by omega)]) (by rw [getElem?_map, getElem?_map, near (q + 1) (by omega)])
          rw [(H.forced k hkn).drift, (H'.forced k hkn).drift, getElem?_map, getElem?_map, e]
        · rw [(H.forced k hkn).over, (H'.forced k hkn).over, (H.forced k hkn).wash, (H'.forced k hkn).wash]
          simp only [getElem?_map, near m (Or.inl rfl), and_self]
      · intro r hr
        have hx : ((a 0).rows.map (·.x))[m]? = some r.x := by rw [← g, getElem?_map, hr]; rfl
        rw [getElem?_map] at hx
        obtain ⟨r0, hr0, e0⟩ := Option.map_eq_some_iff.mp hx
        have := hno k hkn m (by unfold Nearby at hm ⊢; omega) r0 hr0
        rw [← e0]
        exact this
  exact (key n le_rfl).2.2 i (by unfold Nearby; omega)

end

/-- The forcing of the model itself, longshore transport and overtopping, is of that kind. -/
theorem C174_sea (pp : PhysPars ℝ) (power period length dir runup level : Fl ℝ) (a : MorIn ℝ) (flags : List Bool)
    (h1 : a.LST = longShoreTransport (a.rows.map (·.y0)) (fin a.Dx) power period length dir pp)
    (h2 : overtopping runup level a.rows pp = .ok (a.CST, flags)) (h3 : a.OverwashProp = boolFl flags) :
    ∃ f : Sea ℝ, ForcedBy f a ∧ ∀ a' : MorIn ℝ, ∀ flags', a'.Dx = a.Dx → a'.LST = longShoreTransport (a'.rows.map (·.y0)) (fin a'.Dx) power period length dir pp →
      overtopping runup level a'.rows pp = .ok (a'.CST, flags') → a'.OverwashProp = boolFl flags' → ForcedBy f a' := by
  let f : Sea ℝ := ⟨fun y y' => (-(fin pp.K2coef)) * power * npCos (localEDir (fin a.Dx) dir y y') *
      npSin (npArcsin (npSin (localEDir (fin a.Dx) dir y y') * celerityRatio power period length pp)),
    cstTot runup level pp, fun t => if overwashProp pp t then fin 1 else fin 0⟩
  have key : ∀ a' : MorIn ℝ, ∀ flags', a'.Dx = a.Dx → a'.LST = longShoreTransport (a'.rows.map (·.y0)) (fin a'.Dx) power period length dir pp →
      overtopping runup level a'.rows pp = .ok (a'.CST, flags') → a'.OverwashProp = boolFl flags' → ForcedBy f a' := by
    intro a' flags' hd k1 k2 k3
    unfold overtopping at k2
    simp only [bind_ok, pure_ok] at k2
    obtain ⟨_, _, k2⟩ := k2
    obtain ⟨k4, k5⟩ := Prod.mk.inj k2
    refine ⟨?_, k4.symm, ?_⟩
    · rw [k1, hd]
      unfold longShoreTransport
      dsimp only
      rw [map_map]
      rfl
    · rw [k3, ← k5]
      unfold boolFl
      rw [map_map]
      rfl
  exact ⟨f, key a flags rfl h1 h2 h3, key⟩

/-- Concrete case for `C174_step`: the sample with a relic channel at 20 m, and the same with less sediment coming from the left, at 10 m and 20 m (sixth and seventh transect). -/
def rlFar : MorIn ℚ :=
  { rlIn with LST := [fin (-1/100), fin (1/50), fin (1/100), fin (1/100), fin (1/100), fin (1/100), fin (1/100), fin (1/100)], EndX1 := nan, RiverElev := [fin 2, fin 1]
              LagoonWL := List.replicate 9 (fin 0) }

example : SameHere 5 rlIn rlFar := by
  refine ⟨⟨rfl, rfl⟩, ⟨by decide, by decide⟩, rfl, rfl, rfl, rfl, ?_, ⟨rfl, rfl⟩, rfl, rfl, rfl, rfl, rfl⟩
  rintro k (rfl | h)
  · rfl
  · obtain rfl : k = 4 := by omega
    rfl
example : okAnd (updateMorphology moPP cleanMem cleanMem rlIn) (fun o => okAnd (updateMorphology moPP cleanMem cleanMem rlFar) (fun o' =>
    decide (o.MorDt = o'.MorDt ∧ o.Breach = false ∧ o'.Breach = false ∧ Regular moPP rlIn ∧ Regular moPP rlFar ∧ o.rows[5]? = o'.rows[5]? ∧
      o.rows[5]? ≠ rlIn.rows[5]? ∧ o.rows[1]? ≠ o'.rows[1]?))) = true := by
  decide +kernel

/-- Concrete case for `C174_reach`: two steps of the sample under a sea that moves sediment from where the shoreline sticks out, with and without a bulge at -40 m. -/
def rlSea : Sea ℚ := ⟨fun y y' => (y - y') / fin 1000, fun _ => fin 0, fun _ => fin 0⟩

def rlForced (rows : List (Transect ℚ)) : MorIn ℚ :=
  { rlIn with rows := rows, LST := ((rows.map (·.y0)).dropLast.zip (rows.map (·.y0)).tail).map (fun p => rlSea.drift p.1 p.2)
              CST := rows.map rlSea.over, OverwashProp := rows.map rlSea.wash }

def rlOut (a : MorIn ℚ) : MorOut ℚ :=
  match updateMorphology moPP cleanMem cleanMem a with | .ok o => o | .error _ => ⟨0, false, [], nan, nan, nan, nan, []⟩

def rlHist (rows : List (Transect ℚ)) : ℕ → MorIn ℚ
  | 0 => rlForced rows
  | k + 1 => rlForced (rlOut (rlHist rows k)).rows

def rlStart (y : ℚ) : List (Transect ℚ) := { brRow (-40) with y0 := fin y } :: rlIn.rows.tail

theorem rl_steps (y : ℚ) (h1 : okAnd (updateMorphology moPP cleanMem cleanMem (rlHist (rlStart y) 0)) (fun _ => true) = true)
    (h2 : okAnd (updateMorphology moPP cleanMem cleanMem (rlHist (rlStart y) 1)) (fun _ => true) = true)
    (h3 : Regular moPP (rlHist (rlStart y) 0)) (h4 : Regular moPP (rlHist (rlStart y) 1)) :
    ClosedHistory moPP cleanMem cleanMem (fun _ => rlSea) 2 (rlHist (rlStart y)) (fun k => rlOut (rlHist (rlStart y) k)) := by
  have e : ∀ k, ∃ rows, rlHist (rlStart y) k = rlForced rows := by
    intro k; cases k with
    | zero => exact ⟨_, rfl⟩
    | succ k => exact ⟨_, rfl⟩
  have st : ∀ a, okAnd (updateMorphology moPP cleanMem cleanMem a) (fun _ => true) = true → updateMorphology moPP cleanMem cleanMem a = .ok (rlOut a) := by
    intro a h
    obtain ⟨o, ho, _⟩ := okAnd_iff.mp h
    unfold rlOut
    rw [ho]
  refine ⟨?_, fun k _ => rfl, ?_, ?_, ?_, ?_, ?_⟩
  · intro k hk; obtain rfl | rfl : k = 0 ∨ k = 1 := by omega
    · exact st _ h1
    · exact st _ h2
  · intro k _; obtain ⟨rows, hr⟩ := e k; rw [hr]; exact ⟨rfl, rfl, rfl⟩
  · intro k _; obtain ⟨rows, hr⟩ := e k; rw [hr]; rfl
  · intro k _; obtain ⟨rows, hr⟩ := e k; rw [hr]; exact Nat.zero_le 1
  · intro k hk; obtain rfl | rfl : k = 0 ∨ k = 1 := by omega
    · exact h3
    · exact h4
  · intro k _; obtain ⟨rows, hr⟩ := e k; rw [hr]; show (0:ℚ) ≤ 1/4; norm_num

example : ClosedHistory moPP cleanMem cleanMem (fun _ => rlSea) 2 (rlHist (rlStart 100)) (fun k => rlOut (rlHist (rlStart 100) k)) :=
  rl_steps 100 (by decide +kernel) (by decide +kernel) (by decide +kernel) (by decide +kernel)
example : ClosedHistory moPP cleanMem cleanMem (fun _ => rlSea) 2 (rlHist (rlStart 105)) (fun k => rlOut (rlHist (rlStart 105) k)) :=
  rl_steps 105 (by decide +kernel) (by decide +kernel) (by decide +kernel) (by decide +kernel)
example : (∀ k < 2, (rlOut (rlHist (rlStart 105) k)).MorDt = (rlOut (rlHist (rlStart 100) k)).MorDt ∧ (rlOut (rlHist (rlStart 105) k)).Breach = false ∧
    (rlOut (rlHist (rlStart 100) k)).Breach = false) ∧ (∀ m < 9, 0 < m → (rlStart 105)[m]? = (rlStart 100)[m]?) ∧
    (rlHist (rlStart 105) 2).rows[1]? ≠ (rlHist (rlStart 100) 2).rows[1]? ∧ (rlHist (rlStart 105) 2).rows[2]? ≠ (rlHist (rlStart 100) 2).rows[2]? ∧
    (rlHist (rlStart 105) 2).rows[3]? = (rlHist (rlStart 100) 2).rows[3]? := by decide +kernel

end Verif.Props
