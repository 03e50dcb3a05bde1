import Verif.Model.Channel

set_option autoImplicit false

/-! # Specification: the hydraulics with which a channel starts, and how gaps in them are filled -/

namespace Verif.Spec
open Verif Verif.Model Fl

variable {K : Type} [Field K] [LinearOrder K]

/-- Entry `i` of `l` is present, and the value `v` there is `a`. -/
def Known (l v : List (Fl K)) (i : ℕ) (a : K) : Prop := (∃ c, l[i]? = some c ∧ c ≠ nan) ∧ v[i]? = some (fin a)

/-- Entry `m` of `l` is missing. -/
def Missing (l : List (Fl K)) (m : ℕ) : Prop := l[m]? = some nan

/-- `x` is what a straight line through the values `v` at the nearest sections on either side where `l` is present has at section `k`; the
nearest value if `l` is present only on one side. -/
def Between (l v : List (Fl K)) (k : ℕ) (x : K) : Prop :=
  (∃ (i j : ℕ) (a b : K), i < k ∧ k < j ∧ Known l v i a ∧ Known l v j b ∧ (∀ m, i < m → m < j → Missing l m) ∧
    (x - a) * ((j : K) - i) = (b - a) * ((k : K) - i)) ∨
  (∃ j : ℕ, k < j ∧ Known l v j x ∧ ∀ m, m < j → Missing l m) ∨
  (∃ i : ℕ, i < k ∧ Known l v i x ∧ ∀ m, i < m → m < l.length → Missing l m)

/-- An entry of an array, missing if there is none. -/
def entry (l : List (Fl K)) (i : ℕ) : Fl K := (l[i]?).getD nan

/-- Two end sections, the second missing if only one is stored. -/
def twoEnds (l : List (Fl K)) : List (Fl K) := if l.length = 1 then l ++ [nan] else l

/-- Depths stored for the sections of the channel: river, lagoon level above its bed, outlet channel, outlet end. -/
def storedDep (a : ChanIn K) (online outlet : List ℕ) (closed : Bool) : List (Fl K) :=
  a.RivDep ++ online.map (fun i => entry a.LagoonWL i - entry (a.rows.map (·.z3)) i) ++
    (if closed then [] else outlet.map (entry a.OutletDep) ++ twoEnds a.EndDep)

/-- Velocities stored for the sections of the channel; the last one of a closed lagoon is 0. -/
def storedVel (a : ChanIn K) (online outlet : List ℕ) (closed : Bool) : List (Fl K) :=
  if closed then (a.RivVel ++ online.map (entry a.LagoonVel)).dropLast ++ [fin 0]
  else a.RivVel ++ online.map (entry a.LagoonVel) ++ outlet.map (entry a.OutletVel) ++ twoEnds a.EndVel

end Verif.Spec
