import Verif.Model.Basic

/-!
# Statistics and stopwatch

`/repo/src/utils/statistics.cpp` and `/repo/src/utils/stop-watch.cpp`.  The maps from names to records are functions; the
clock readings are arguments of the calls.  Output (`report`, `report_all`, messages) is not modelled; `int` counters do
not overflow.
-/

namespace Tsid

/-! ## Statistics -/

/-- `Statistics::QuantityData`: `/repo/include/tsid/utils/statistics.hpp`. -/
structure Quantity (K : Type) where
  total : K
  min : K
  max : K
  last : K
  stops : Nat
deriving DecidableEq

/-- `Statistics`: members `active` and `records_of`. -/
structure Stats (K : Type) where
  active : Bool
  records : String → Option (Quantity K)

namespace Stats
variable {K : Type} [Field K] [LinearOrder K]

/-- `QuantityData()`. -/
def blank : Quantity K := ⟨0, 0, 0, 0, 0⟩

/-- Constructor: `statistics.cpp` 17-19. -/
def new : Stats K := ⟨true, fun _ => none⟩

/-- Change of one record. -/
def setRec (s : Stats K) (n : String) (q : Quantity K) : Stats K :=
  { s with records := fun m => if m = n then some q else s.records m }

/-- `store`: `statistics.cpp` 27-46, the update of the record. -/
def update (q : Quantity K) (v : K) : Quantity K :=
  { stops := q.stops + 1
    last := v
    max := if q.max ≤ v then v else q.max
    min := if v ≤ q.min ∨ q.min = 0 then v else q.min
    total := q.total + v }

/-- The calls a user can make. -/
inductive Op (K : Type) where
  | store (name : String) (value : K)
  | reset (name : String)
  | resetAll
  | turnOn
  | turnOff

/-- One call: `store` 27-46, `reset` 69-83, `reset_all` 48-56, `turn_on` 85-88, `turn_off` 90-93 of `statistics.cpp`. -/
def step (s : Stats K) : Op K → Res (Stats K) Unit
  | .store n v =>
    if s.active = true then .ok (s.setRec n (update ((s.records n).getD blank) v)) () else .ok s ()
  | .reset n =>
    if s.active = true then
      match s.records n with
      | none => .throw s
      | some _ => .ok (s.setRec n blank) ()
    else .ok s ()
  | .resetAll =>
    if s.active = true then .ok { s with records := fun n => (s.records n).map fun _ => blank } () else .ok s ()
  | .turnOn => .ok { s with active := true } ()
  | .turnOff => .ok { s with active := false } ()

/-- A getter of one record throws if there is none: `statistics.cpp` 124-172. -/
def get {α : Type} (s : Stats K) (n : String) (f : Quantity K → α) : Res (Stats K) α :=
  match s.records n with
  | none => .throw s
  | some q => .ok s (f q)

/-- `get_total`. -/
def getTotal (s : Stats K) (n : String) : Res (Stats K) K := s.get n fun q => q.total

/-- `get_average`; without values the quotient is NaN in `long double`. -/
def getAverage (s : Stats K) (n : String) : Res (Stats K) K := s.get n fun q => q.total / q.stops

/-- `get_min`. -/
def getMin (s : Stats K) (n : String) : Res (Stats K) K := s.get n fun q => q.min

/-- `get_max`. -/
def getMax (s : Stats K) (n : String) : Res (Stats K) K := s.get n fun q => q.max

/-- `get_last`. -/
def getLast (s : Stats K) (n : String) : Res (Stats K) K := s.get n fun q => q.last

end Stats

/-! ## Stopwatch -/

/-- `StopwatchMode`: `/repo/include/tsid/utils/stop-watch.hpp`. -/
inductive ClockMode where
  | none
  | cpu
  | real
deriving DecidableEq

/-- `Stopwatch::PerformanceData`; `paused` is never read. -/
structure Perf (K : Type) where
  start : K
  total : K
  min : K
  max : K
  last : K
  paused : Bool
  stops : Nat
deriving DecidableEq

/-- `Stopwatch`: members `active`, `mode` and `records_of`. -/
structure Watch (K : Type) where
  active : Bool
  mode : ClockMode
  records : String → Option (Perf K)

namespace Watch
variable {K : Type} [Field K] [LinearOrder K]

/-- `PerformanceData()`. -/
def blank : Perf K := ⟨0, 0, 0, 0, 0, false, 0⟩

/-- Constructor: `stop-watch.cpp` 48-50. -/
def new (mode : ClockMode) : Watch K := ⟨true, mode, fun _ => Option.none⟩

/-- Change of one record. -/
def setRec (s : Watch K) (n : String) (p : Perf K) : Watch K :=
  { s with records := fun m => if m = n then some p else s.records m }

/-- A reading of the clocks: `ticks` is what `clock()` returns, `seconds` what `gettimeofday` yields. -/
structure Reading (K : Type) where
  ticks : K
  seconds : K

/-- `take_time()`: `stop-watch.cpp` 60-100; throws in mode `NONE`. -/
def takeTime (mode : ClockMode) (r : Reading K) : Option K :=
  match mode with
  | .none => Option.none
  | .cpu => some r.ticks
  | .real => some r.seconds

/-- `stop`, the update of the record: `stop-watch.cpp` 133-148; `perSec` is `CLOCKS_PER_SEC`. -/
def lap (mode : ClockMode) (perSec : K) (p : Perf K) (t : K) : Perf K :=
  let l := if mode = .cpu then (t - p.start) / perSec else t - p.start
  { p with
    stops := p.stops + 1
    last := l
    max := if p.max ≤ l then l else p.max
    min := if l ≤ p.min ∨ p.min = 0 then l else p.min
    total := p.total + l }

/-- The calls a user can make, with the clock readings they take. -/
inductive Op (K : Type) where
  | start (name : String) (r : Reading K)
  | stop (name : String) (r : Reading K)
  | pause (name : String) (r : Reading K)
  | reset (name : String)
  | resetAll
  | setMode (m : ClockMode)
  | turnOn
  | turnOff

/-- One call: `start` 102-118, `stop` 120-149, `pause` 151-170, `reset_all` 172-180, `reset` 206-222, `set_mode` 54,
`turn_on` 224-227, `turn_off` 229-232 of `stop-watch.cpp`. -/
def step (perSec : K) (s : Watch K) : Op K → Res (Watch K) Unit
  | .start n r =>
    if s.active = true then
      let p := (s.records n).getD blank
      match takeTime s.mode r with
      | some t => .ok (s.setRec n { p with start := t, paused := false }) ()
      | Option.none => .throw (s.setRec n p)
    else .ok s ()
  | .stop n r =>
    if s.active = true then
      match takeTime s.mode r, s.records n with
      | some t, some p => if p.start = 0 then .ok s () else .ok (s.setRec n (lap s.mode perSec p t)) ()
      | _, _ => .throw s
    else .ok s ()
  | .pause n r =>
    if s.active = true then
      match s.records n with
      | some p =>
        if p.start = 0 then .ok s ()
        else
          let l := r.ticks - p.start
          .ok (s.setRec n { p with last := p.last + l, total := p.total + l }) ()
      | Option.none => .throw s
    else .ok s ()
  | .reset n =>
    if s.active = true then
      match s.records n with
      | some _ => .ok (s.setRec n blank) ()
      | Option.none => .throw s
    else .ok s ()
  | .resetAll =>
    if s.active = true then .ok { s with records := fun n => (s.records n).map fun _ => blank } () else .ok s ()
  | .setMode m => .ok { s with mode := m } ()
  | .turnOn => .ok { s with active := true } ()
  | .turnOff => .ok { s with active := false } ()

/-- A getter of one record throws if there is none: `stop-watch.cpp` 276-324. -/
def get {α : Type} (s : Watch K) (n : String) (f : Perf K → α) : Res (Watch K) α :=
  match s.records n with
  | Option.none => .throw s
  | some p => .ok s (f p)

/-- `get_total_time`. -/
def getTotal (s : Watch K) (n : String) : Res (Watch K) K := s.get n fun p => p.total

/-- `get_average_time`. -/
def getAverage (s : Watch K) (n : String) : Res (Watch K) K := s.get n fun p => p.total / p.stops

/-- `get_min_time`. -/
def getMin (s : Watch K) (n : String) : Res (Watch K) K := s.get n fun p => p.min

/-- `get_max_time`. -/
def getMax (s : Watch K) (n : String) : Res (Watch K) K := s.get n fun p => p.max

/-- `get_last_time`. -/
def getLast (s : Watch K) (n : String) : Res (Watch K) K := s.get n fun p => p.last

/-- `get_time_so_far`: `stop-watch.cpp` 263-274. -/
def getSoFar (perSec : K) (s : Watch K) (n : String) (r : Reading K) : Res (Watch K) K :=
  match s.records n, takeTime s.mode r with
  | some p, some t => .ok s (if s.mode = .cpu then (t - p.start) / perSec else t - p.start)
  | _, _ => .throw s

end Watch

end Tsid
