import Verif.Lemmas.MorBreach
import Verif.Lemmas.MorRel

set_option autoImplicit false
set_option linter.unusedSectionVars false

/-! # Where the features of a transect are after a step -/

namespace Verif.Model
open Verif Fl

variable {K : Type} [Field K] [LinearOrder K] [IsStrictOrderedRing K]

/-- Same transect. -/
def SameT (c c' : Cell K) : Prop := c'.t = c.t

theorem walk_t {pp : PhysPars K} {d : ℤ} : ∀ {f : ℕ} {c : ℤ} {cells : List (Cell K)} {r : ℤ × List (Cell K)},
    walk pp d f c cells = .ok r → List.Forall₂ SameT cells r.2 := by
  intro f
  induction f with
  | zero => intro c cells r h; cases h
  | succ f ih =>
    intro c cells r h
    unfold walk at h
    split at h
    · cases h
    · simp only [bind_ok] at h
      obtain ⟨nxt, _, h⟩ := h
      split at h
      · split at h
        · cases h
        · simp only [bind_ok] at h
          obtain ⟨cur, _, h⟩ := h
          refine forall₂_trans (fun _ _ _ h1 h2 => h2.trans h1) ?_ (ih h)
          exact forall₂_modify' (R := SameT) (fun _ => rfl) (f := fun x => { x with wl := cur.wl }) (fun c => rfl) _ _
      · simp only [pure_ok] at h
        subst h
        exact forall₂_rfl (R := SameT) (fun _ => rfl) _

theorem connected_t {pp : PhysPars K} {C : Bool} {X0 : ℕ} {st st' : MorSt K} {conn : Option (ℤ × ℤ)} (h : connected pp C X0 st = .ok (conn, st')) :
    List.Forall₂ SameT st.cells st'.cells := by
  unfold connected at h
  simp only [bind_ok] at h
  obtain ⟨⟨mm, e0⟩, _, h⟩ := h
  cases mm with
  | none =>
    simp only [bind_ok, pure_ok] at h
    obtain ⟨_, _, h⟩ := h
    cases h
    exact forall₂_rfl (R := SameT) (fun _ => rfl) _
  | some p =>
    obtain ⟨lo, hi⟩ := p
    simp only [bind_ok, pure_ok] at h
    obtain ⟨⟨l1, c1⟩, h1, ⟨l2, c2⟩, h2, _, _, h⟩ := h
    cases h
    exact forall₂_trans (fun _ _ _ h1 h2 => h2.trans h1) (walk_t h1) (walk_t h2)

theorem forall₂_get' {R : Cell K → Cell K → Prop} {cs cs' : List (Cell K)} (h : List.Forall₂ R cs cs') {i : ℕ} {c' : Cell K} (hc : cs'[i]? = some c') :
    ∃ c, cs[i]? = some c ∧ R c c' := by
  have hl := h.length_eq
  have hi : i < cs.length := by rw [hl]; exact (List.getElem?_eq_some_iff.mp hc).1
  obtain ⟨c1, h1, h2⟩ := forall₂_get h (List.getElem?_eq_getElem hi)
  rw [hc] at h1
  cases h1
  exact ⟨_, List.getElem?_eq_getElem hi, h2⟩

/-- A channel is clear of sea and lagoon. -/
def Clear (t : Transect K) : Prop := t.y1.isnan = false → (t.y1 <? t.y0) = true ∧ (t.y3 <? t.y2) = true

/-- Merging with the lagoon leaves only channels clear of it. -/
theorem mergeLagoon_clear {junk : ℕ → Bool} {cells : List (Cell K)} {i : ℕ} {c : Cell K} (h : (mergeLagoon junk cells)[i]? = some c) :
    c.t.y1.isnan = false → (c.t.y3 <? c.t.y2) = true := by
  unfold mergeLagoon at h
  rw [List.getElem?_mapIdx] at h
  obtain ⟨c0, _, rfl⟩ := Option.map_eq_some_iff.mp h
  split
  · intro hn; simp [mergeLagoonCell] at hn
  · rename_i hh
    intro hn
    unfold lagoonHit notGreater at hh
    rw [hn] at hh
    simpa using hh

theorem mergeShore_clear {pp : PhysPars K} {junk : ℕ → Bool} {C : Bool} {conn : Option (ℤ × ℤ)} {st st' : MorSt K} {b : Option ℕ}
    (h : mergeShore pp junk C conn st = .ok (b, st')) (h0 : ∀ (i : ℕ) (c : Cell K), st.cells[i]? = some c → c.t.y1.isnan = false → (c.t.y3 <? c.t.y2) = true)
    {i : ℕ} {c : Cell K} (hc : st'.cells[i]? = some c) : Clear c.t := by
  rw [mergeShore_inv h] at hc
  simp only [List.getElem?_map] at hc
  obtain ⟨⟨c0, hb⟩, hz, rfl⟩ := Option.map_eq_some_iff.mp hc
  have hz' := List.getElem?_zip_eq_some.mp hz
  obtain ⟨hc0, hb0⟩ := hz'
  rw [List.getElem?_mapIdx, hc0] at hb0
  simp only [Option.map_some, Option.some.injEq] at hb0
  dsimp only
  split
  · intro hn; simp [mergeShoreCell] at hn
  · rename_i hh
    intro hn
    refine ⟨?_, h0 i c0 hc0 hn⟩
    rw [← hb0] at hh
    unfold shoreHit notGreater at hh
    rw [hn] at hh
    simpa using hh

/-- The cells after the check for erosion. -/
theorem erosion_cells {C : Bool} {X0 : ℕ} {b b' : Option ℕ} {st st' : MorSt K} (h : erosionBreach C X0 b st = .ok (b', st')) {i : ℕ} {c' : Cell K}
    (hc : st'.cells[i]? = some c') : ∃ c, st.cells[i]? = some c ∧
      ((c' = c ∧ eroded c.t = false) ∨ (c' = c ∧ eroded c.t = true ∧ b = none ∧ b' = some i) ∨ (c' = restoreCell c ∧ eroded c.t = true)) := by
  have hmem : ∀ {j : ℕ} {c : Cell K}, st.cells[j]? = some c → (j ∈ whereIx (fun c : Cell K => eroded c.t) st.cells ↔ eroded c.t = true) := by
    intro j c hj
    rw [mem_whereIx]
    constructor
    · rintro ⟨c1, h1, h2⟩
      rw [hj] at h1; cases h1; exact h2
    · intro he; exact ⟨c, hj, he⟩
  unfold erosionBreach at h
  simp only at h
  split at h
  · rename_i he
    simp only [pure_ok] at h; cases h
    refine ⟨c', hc, Or.inl ⟨rfl, ?_⟩⟩
    by_contra hcon
    have := (hmem hc).mpr (by simpa using hcon)
    rw [List.isEmpty_iff.mp he] at this
    simp at this
  · simp only [bind_ok, pure_ok] at h
    obtain ⟨⟨b1, rest⟩, hd, h⟩ := h
    obtain ⟨rfl, rfl⟩ := Prod.mk.inj h
    unfold modifyIf at hc
    rw [List.getElem?_mapIdx] at hc
    obtain ⟨c, hc0, rfl⟩ := Option.map_eq_some_iff.mp hc
    refine ⟨c, hc0, ?_⟩
    unfold erosionDecide at hd
    have hsub : rest = whereIx (fun c : Cell K => eroded c.t) st.cells ∨
        (b = none ∧ ∃ k, b1 = some k ∧ rest = (whereIx (fun c : Cell K => eroded c.t) st.cells).filter (· != k)) := by
      split at hd
      · cases hd; exact Or.inl rfl
      · simp only at hd
        split at hd
        · simp only [bind_ok, pure_ok] at hd
          obtain ⟨k, _, hd⟩ := hd
          cases hd
          exact Or.inr ⟨rfl, k, rfl, rfl⟩
        · cases hd; exact Or.inl rfl
    by_cases hin : i ∈ rest
    · right; right
      rw [if_pos (by simpa using hin)]
      refine ⟨rfl, (hmem hc0).mp ?_⟩
      rcases hsub with e | ⟨_, k, _, e⟩
      · rw [← e]; exact hin
      · rw [e] at hin; exact (List.mem_filter.mp hin).1
    · rw [if_neg (by simpa using hin)]
      by_cases he : eroded c.t = true
      · right; left
        have hi := (hmem hc0).mpr he
        rcases hsub with e | ⟨hb, k, hk, e⟩
        · rw [e] at hin; exact absurd hi hin
        · rw [e, List.mem_filter] at hin
          have : i = k := by
            by_contra hne
            exact hin ⟨hi, by simpa using hne⟩
          exact ⟨rfl, he, hb, by rw [hk, this]⟩
      · left
        exact ⟨rfl, by simpa using he⟩

theorem overtop_some {pp : PhysPars K} {C : Bool} {X0 k : ℕ} {conn : Option (ℤ × ℤ)} {b' : Option ℕ} {st st' : MorSt K}
    (h : overtopBreach pp C X0 conn (some k) st = .ok (b', st')) : b' = some k := by
  unfold overtopBreach at h
  simp only [bind_ok] at h
  obtain ⟨_, _, h⟩ := h
  simp only [Option.isSome_some, Bool.true_or, if_true, pure_ok] at h
  cases h; rfl

/-- What the second half of a step makes of a transect. -/
theorem breach_track {pp : PhysPars K} {j1 j2 : ℕ → Bool} {C B : Bool} {X0 : ℕ} {st st' : MorSt K} (h : breachStage pp j1 j2 C X0 st = .ok (B, st'))
    {i : ℕ} {c' : Cell K} (hc : st'.cells[i]? = some c') :
    (∃ c, Clear c.t ∧ eroded c.t = false ∧ c' = crestCell c) ∨ (∃ c, Clear c.t ∧ eroded c.t = true ∧ c' = crestCell (restoreCell c)) ∨
    (B = true ∧ ∃ c e z, st'.endW = pymax e (fin (2 * pp.MinOutletWidth)) ∧ c' = breachCell pp st'.endW z c) ∨
    (B = true ∧ i < 2 ∧ ∃ c, Clear c.t ∧ c' = crestCell c) := by
  unfold breachStage at h
  simp only [bind_ok] at h
  obtain ⟨⟨conn, t1⟩, g1, ⟨b2, t2⟩, g2, ⟨b3, t3⟩, g3, ⟨b4, t4⟩, g4, t5, g5, g6⟩ := h
  simp only [pure_ok] at g6
  obtain ⟨rfl, rfl⟩ := Prod.mk.inj g6
  have k1 : ∀ (i : ℕ) (c : Cell K), t1.cells[i]? = some c → c.t.y1.isnan = false → (c.t.y3 <? c.t.y2) = true := by
    intro i c h1
    obtain ⟨c0, h0, e⟩ := forall₂_get' (connected_t g1) h1
    have := mergeLagoon_clear h0
    rw [← (show c.t = c0.t from e)] at this
    exact this
  have k2 : ∀ {i : ℕ} {c : Cell K}, t2.cells[i]? = some c → Clear c.t := fun h2 => mergeShore_clear g2 k1 h2
  have k4 : t4.cells = t3.cells.map crestCell := by rw [overtop_cells g4]
  have key : ∀ {c4 : Cell K}, t4.cells[i]? = some c4 → (∃ c, Clear c.t ∧ eroded c.t = false ∧ c4 = crestCell c) ∨
      (∃ c, Clear c.t ∧ eroded c.t = true ∧ c4 = crestCell (restoreCell c)) ∨ (b4 = some i ∧ ∃ c, Clear c.t ∧ c4 = crestCell c) := by
    intro c4 h4
    rw [k4, List.getElem?_map] at h4
    obtain ⟨c3, h3, rfl⟩ := Option.map_eq_some_iff.mp h4
    obtain ⟨c, h2, hor⟩ := erosion_cells g3 h3
    rcases hor with ⟨rfl, he⟩ | ⟨rfl, he, hb, hb'⟩ | ⟨rfl, he⟩
    · exact Or.inl ⟨_, k2 h2, he, rfl⟩
    · right; right
      refine ⟨?_, _, k2 h2, rfl⟩
      subst hb'
      exact overtop_some g4
    · exact Or.inr (Or.inl ⟨_, k2 h2, he, rfl⟩)
  unfold createBreach at g5
  cases b4 with
  | none =>
    simp only [pure_ok] at g5
    subst g5
    rcases key hc with k | k | ⟨k, _⟩
    · exact Or.inl k
    · exact Or.inr (Or.inl k)
    · cases k
  | some k =>
    simp only [bind_ok, ixGet_ok] at g5
    obtain ⟨c0, hc0, g5⟩ := g5
    by_cases hb : inBools conn t4.cells.length k = true
    · rw [if_pos hb] at g5
      simp only [pure_ok] at g5
      subst g5
      rcases key hc with h | h | ⟨h1, h2⟩
      · exact Or.inl h
      · exact Or.inr (Or.inl h)
      · right; right; right
        refine ⟨rfl, ?_, h2⟩
        cases h1
        unfold inBools at hb
        obtain ⟨j, _, hj⟩ := List.any_eq_true.mp hb
        split at hj <;> simp at hj <;> omega
    · rw [if_neg hb] at g5
      simp only [pure_ok] at g5
      subst g5
      simp only [List.getElem?_modify] at hc
      by_cases e : k = i
      · subst e
        rw [hc0] at hc
        simp only [if_true, Option.map_eq_map, Option.map_some, Option.some.injEq] at hc
        right; right; left
        exact ⟨rfl, c0, _, _, rfl, hc.symm⟩
      · have hc' : t4.cells[i]? = some c' := by simpa [e] using hc
        rcases key hc' with h | h | ⟨h1, _⟩
        · exact Or.inl h
        · exact Or.inr (Or.inl h)
        · cases h1; exact absurd rfl e

end Verif.Model
