import Mathlib.Data.List.Forall2
import Mathlib.Order.Defs.LinearOrder

/-! Tracks made of fixes read from several files. -/

namespace Shipgrav.Spec

/-- `r` is in `fixes` and no earlier fix has its time. -/
def IsFirst {α κ : Type} (time : α → κ) (fixes : List α) (r : α) : Prop :=
  ∃ pre post, fixes = pre ++ r :: post ∧ ∀ x ∈ pre, time x ≠ time r

/-- `out` lists, in strictly increasing order of time, the first fix of every time that occurs in `fixes`. -/
def IsTrack {α κ : Type} [LT κ] (time : α → κ) (fixes out : List α) : Prop :=
  out.Pairwise (fun a b => time a < time b) ∧ ∀ r, r ∈ out ↔ IsFirst time fixes r

/-- `l` is `fixes` with every fix replaced by the first one having its time. -/
def FirstOfTime {α κ : Type} (time : α → κ) (fixes l : List α) : Prop :=
  List.Forall₂ (fun a b => time b = time a ∧ IsFirst time fixes b) fixes l

/-- `kept` is every `d`-th element of `l`, starting with the first. -/
def EveryNth {α : Type} (d : ℕ) (l kept : List α) : Prop := ∀ i : ℕ, kept[i]? = l[i * d]?

end Shipgrav.Spec
