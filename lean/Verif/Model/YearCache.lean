import Verif.Model.LunarYear

/-! # `LunarYear.fromYear`: the one-entry cache and its lock

`lunar_python/LunarYear.py` 42-51 as a transition system.  Any number of threads call `fromYear` any
number of times; between two steps of one thread the others may take any number of steps.  The steps are
the reads and writes of the class attribute `__CACHE_YEAR` and the two lock operations. -/

namespace YearCache

/-- what `fromYear` is called with: an integer, or something for which the constructor raises (`"2024" - 4`
in `lunar_python/LunarYear.py` 29 is a `TypeError`) -/
inductive Arg
  | int (y : ℤ)
  | bad
  deriving DecidableEq, Repr

/-- where a thread is in `lunar_python/LunarYear.py` 42-51 -/
inductive PC
  /-- not inside `fromYear` -/
  | idle
  /-- line 44 `acquire` -/
  | acquire (a : Arg)
  /-- line 45 `__CACHE_YEAR is None` -/
  | testNone (a : Arg)
  /-- line 45 `__CACHE_YEAR.getYear() != lunar_year` -/
  | testYear (a : Arg)
  /-- line 46 `y = LunarYear(lunar_year)` -/
  | build (a : Arg)
  /-- line 47 `__CACHE_YEAR = y` -/
  | store (o : LunarYear)
  /-- line 49 `y = __CACHE_YEAR` -/
  | read
  /-- line 50 `release` -/
  | release (o : LunarYear)
  /-- line 51 `return y` -/
  | ret (o : LunarYear)
  deriving DecidableEq, Repr

/-- observable events: thread `t` calls `fromYear`, gets an object back, or gets an exception -/
inductive Event
  | call (t : ℕ) (a : Arg)
  | ret (t : ℕ) (o : LunarYear)
  | raise (t : ℕ)
  deriving DecidableEq, Repr

/-- the class attributes (`lunar_python/LunarYear.py` 23, 25), the position of every thread, and the events
so far, latest first -/
structure State where
  cache : Option LunarYear
  locked : Bool
  pc : ℕ → PC
  trace : List Event

/-- the state after import of the module (`lunar_python/LunarYear.py` 23, 25) -/
def init : State := { cache := none, locked := false, pc := fun _ => .idle, trace := [] }

/-- thread `t` moves to `p` -/
def State.goto (s : State) (t : ℕ) (p : PC) : State := { s with pc := Function.update s.pc t p }

/-- one step of thread `t`, `lunar_python/LunarYear.py` 42-51 -/
inductive Step (A : Astro) : State → State → Prop
  /-- a thread enters `fromYear` -/
  | call (s : State) (t : ℕ) (a : Arg) (h : s.pc t = .idle) :
      Step A s { s.goto t (.acquire a) with trace := .call t a :: s.trace }
  /-- line 44: `acquire` waits until the lock is free -/
  | acquire (s : State) (t : ℕ) (a : Arg) (h : s.pc t = .acquire a) (hl : s.locked = false) :
      Step A s { s.goto t (.testNone a) with locked := true }
  /-- line 45, first test true -/
  | noneYes (s : State) (t : ℕ) (a : Arg) (h : s.pc t = .testNone a) (hc : s.cache = none) :
      Step A s (s.goto t (.build a))
  /-- line 45, first test false -/
  | noneNo (s : State) (t : ℕ) (a : Arg) (c : LunarYear) (h : s.pc t = .testNone a) (hc : s.cache = some c) :
      Step A s (s.goto t (.testYear a))
  /-- line 45, second test true -/
  | yearYes (s : State) (t : ℕ) (a : Arg) (c : LunarYear) (h : s.pc t = .testYear a) (hc : s.cache = some c)
      (hy : a ≠ .int c.year) : Step A s (s.goto t (.build a))
  /-- line 45, second test false -/
  | yearNo (s : State) (t : ℕ) (a : Arg) (c : LunarYear) (h : s.pc t = .testYear a) (hc : s.cache = some c)
      (hy : a = .int c.year) : Step A s (s.goto t .read)
  /-- line 46: the constructor returns -/
  | build (s : State) (t : ℕ) (y : ℤ) (h : s.pc t = .build (.int y)) :
      Step A s (s.goto t (.store (LunarYear.make A y)))
  /-- line 46: the constructor raises; lines 47-51 are skipped and there is no `finally` -/
  | raise (s : State) (t : ℕ) (h : s.pc t = .build .bad) :
      Step A s { s.goto t .idle with trace := .raise t :: s.trace }
  /-- line 47 -/
  | store (s : State) (t : ℕ) (o : LunarYear) (h : s.pc t = .store o) :
      Step A s { s.goto t (.release o) with cache := some o }
  /-- line 49 -/
  | read (s : State) (t : ℕ) (c : LunarYear) (h : s.pc t = .read) (hc : s.cache = some c) :
      Step A s (s.goto t (.release c))
  /-- line 50 -/
  | release (s : State) (t : ℕ) (o : LunarYear) (h : s.pc t = .release o) :
      Step A s { s.goto t (.ret o) with locked := false }
  /-- line 51 -/
  | ret (s : State) (t : ℕ) (o : LunarYear) (h : s.pc t = .ret o) :
      Step A s { s.goto t .idle with trace := .ret t o :: s.trace }

/-- executions -/
abbrev Steps (A : Astro) : State → State → Prop := Relation.ReflTransGen (Step A)

end YearCache
