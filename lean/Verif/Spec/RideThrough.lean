import Mathlib.Algebra.Order.Field.Basic

/-!
# Specification vocabulary for ride-through (independent of timers and flags)

A voltage history is a list of samples `(time, voltage)` in chronological order.
-/

namespace PvDer
namespace RT

variable {K : Type} [Field K] [LinearOrder K]

/-- There are two samples `a`, `b` below the threshold, more than `tThr` apart, with no sample above the threshold in between. -/
def Exceeds (thr tThr : K) (h : List (K × K)) : Prop :=
  ∃ p q r a b, h = p ++ a :: q ++ b :: r ∧ a.2 < thr ∧ b.2 < thr ∧ (∀ x ∈ q, x.2 ≤ thr) ∧ b.1 - a.1 > tThr

/-- At time `τ` the voltage was below the threshold and it has not been above it since. -/
def LowSince (thr : K) (h : List (K × K)) (τ : K) : Prop :=
  ∃ p q a, h = p ++ a :: q ∧ a.1 = τ ∧ a.2 < thr ∧ ∀ x ∈ q, x.2 ≤ thr

/-- Mirror image: two samples above the threshold, more than `tThr` apart, with no sample below it in between. -/
def ExceedsHigh (thr tThr : K) (h : List (K × K)) : Prop :=
  ∃ p q r a b, h = p ++ a :: q ++ b :: r ∧ a.2 > thr ∧ b.2 > thr ∧ (∀ x ∈ q, x.2 ≥ thr) ∧ b.1 - a.1 > tThr

/-- Mirror image of `LowSince`. -/
def HighSince (thr : K) (h : List (K × K)) (τ : K) : Prop :=
  ∃ p q a, h = p ++ a :: q ∧ a.1 = τ ∧ a.2 > thr ∧ ∀ x ∈ q, x.2 ≥ thr

/-- Evaluation times are strictly increasing. -/
def Increasing (h : List (K × K)) : Prop := h.Pairwise (fun a b => a.1 < b.1)

/-- The samples at which the ride-through logic is active. -/
def after (tStable : K) (h : List (K × K)) : List (K × K) := h.filter (fun x => x.1 > tStable)

end RT
end PvDer

namespace PvDer
namespace RT

variable {K : Type} [LinearOrder K]

/-- The samples whose time is beyond `lock` and beyond every earlier sample (the only ones the logic looks at). -/
def records (lock : K) : List (K × K) → List (K × K)
  | [] => []
  | x :: xs => if x.1 > lock then x :: records x.1 xs else records lock xs

end RT
end PvDer
