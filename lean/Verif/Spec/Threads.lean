import Verif.Model.YearCache

/-! # What the callers of `LunarYear.fromYear` see -/

namespace YearCache

/-- the argument of the latest call of thread `t` (events are listed latest first) -/
def lastCall (t : ℕ) : List Event → Option Arg
  | [] => none
  | .call u a :: es => if u = t then some a else lastCall t es
  | _ :: es => lastCall t es

/-- every object returned is the one for the integer its thread last asked for -/
def WellAnswered (A : Astro) (trace : List Event) : Prop :=
  ∀ t o es, (.ret t o :: es) <:+ trace → ∃ y, lastCall t es = some (.int y) ∧ o = LunarYear.make A y

/-- a call has failed -/
def Failed (trace : List Event) : Prop := ∃ t, Event.raise t ∈ trace

/-- the thread is between `acquire` and `release` -/
def PC.inside : PC → Prop
  | .testNone _ | .testYear _ | .build _ | .store _ | .read | .release _ => True
  | _ => False

/-- the thread has called `fromYear` and has not got an answer -/
def PC.calling : PC → Prop
  | .idle => False
  | _ => True

/-- no thread is calling `fromYear` with a bad argument -/
def Good (trace : List Event) : Prop := ∀ t, Event.call t .bad ∉ trace

end YearCache
