import Verif.Model.Loader

set_option autoImplicit false

/-! # Specification: the loaded model

What is assumed of the data, and what two configurations of the same simulation have in common. -/

namespace Verif.Spec
open Verif Verif.Model

variable {K : Type}

/-- Records in order of time, none twice. -/
def InTime {α : Type} (ts : List (ℤ × α)) : Prop := ts.Pairwise (fun a b => a.1 < b.1)

/-- All series, from files or generated, are in order of time. -/
structure TidyData (w : Sources K) : Prop where
  flow : ∀ f s, w.flow f = .ok s → InTime s
  waves : ∀ f s, w.waves f = .ok s → InTime s
  sea : ∀ f s, w.sea f = .ok s → InTime s
  shot : ∀ a s, 0 ≤ a.dt → w.shot a = .ok s → InTime s
  tide : ∀ S E d m r s, 0 ≤ d → w.tide S E d m r = .ok s → InTime s

/-- The same data, except for the files of earlier runs, and for random numbers drawn without a seed. -/
structure SameData (w w' : Sources K) : Prop where
  date : w'.date = w.date
  flow : w'.flow = w.flow
  waves : w'.waves = w.waves
  sea : w'.sea = w.sea
  turn : w'.turn = w.turn
  tide : w'.tide = w.tide
  shot : ∀ a, a.seed ≠ .none → w'.shot a = w.shot a

/-- Configurations that differ at most in the section on hot starts. -/
def SameButHot (v v' : Conf K) : Prop := ∀ s k, s ≠ "HotStart" → v' s k = v s k

/-- The record `a` is one of `times` closest to the time `t` asked for. -/
def Closest (times : List ℤ) (t a : ℤ) : Prop := a ∈ times ∧ ∀ s ∈ times, |a - t| ≤ |s - t|

end Verif.Spec
