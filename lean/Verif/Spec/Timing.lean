import Verif.Model.Timing

/-!
# What statistics and stopwatch should report

Ledgers that keep every value, respectively every lap.
-/

namespace Tsid.Spec

variable {K : Type} [Field K] [LinearOrder K]

/-- All values stored for every name while active since the last reset; `none` for names never stored. -/
structure Ledger (K : Type) where
  active : Bool
  values : String → Option (List K)

/-- Nothing stored. -/
def Ledger.fresh : Ledger K := ⟨true, fun _ => none⟩

/-- The ledger after one call. -/
def Ledger.after (g : Ledger K) : Stats.Op K → Ledger K
  | .store n v =>
    if g.active = true then
      { g with values := fun m => if m = n then some ((g.values n).getD [] ++ [v]) else g.values m }
    else g
  | .reset n =>
    if g.active = true then
      { g with values := fun m => if m = n then (g.values n).map (fun _ => []) else g.values m }
    else g
  | .resetAll => if g.active = true then { g with values := fun m => (g.values m).map fun _ => [] } else g
  | .turnOn => { g with active := true }
  | .turnOff => { g with active := false }

/-- The ledger after a history. -/
def Ledger.afterAll (g : Ledger K) : List (Stats.Op K) → Ledger K
  | [] => g
  | o :: os => afterAll (g.after o) os

/-- One activity: by which clock and when it was started last since the last reset, and the laps since then: the time
from the latest start to each stop. -/
structure Activity (K : Type) where
  started : Option (ClockMode × K)
  laps : List K

/-- All activities, `none` for names never started; and the clock in use. -/
structure Laps (K : Type) where
  active : Bool
  mode : ClockMode
  acts : String → Option (Activity K)

/-- Nothing started. -/
def Laps.fresh (mode : ClockMode) : Laps K := ⟨true, mode, fun _ => none⟩

/-- The time in seconds, according to the clock of the mode. -/
def seconds (perSec : K) (mode : ClockMode) (r : Watch.Reading K) : K :=
  if mode = .cpu then r.ticks / perSec else r.seconds

/-- The laps after one call; `pause` is excluded by `Plain`. -/
def Laps.after (perSec : K) (g : Laps K) : Watch.Op K → Laps K
  | .start n r =>
    if g.active = true then
      { g with acts := fun m =>
          if m = n then some ⟨some (g.mode, seconds perSec g.mode r), ((g.acts n).map Activity.laps).getD []⟩
          else g.acts m }
    else g
  | .stop n r =>
    if g.active = true then
      { g with acts := fun m =>
          if m = n then (g.acts n).map fun a =>
            match a.started with
            | some (c, t) => ⟨some (c, t), a.laps ++ [seconds perSec c r - t]⟩
            | none => a
          else g.acts m }
    else g
  | .reset n =>
    if g.active = true then
      { g with acts := fun m => if m = n then (g.acts n).map (fun _ => ⟨none, []⟩) else g.acts m }
    else g
  | .resetAll => if g.active = true then { g with acts := fun m => (g.acts m).map fun _ => ⟨none, []⟩ } else g
  | .turnOn => { g with active := true }
  | .turnOff => { g with active := false }
  | .pause _ _ => g
  | .setMode m => { g with mode := m }

/-- The laps after a history. -/
def Laps.afterAll (perSec : K) (g : Laps K) : List (Watch.Op K) → Laps K
  | [] => g
  | o :: os => afterAll perSec (g.after perSec o) os

/-- Calls other than `pause`; while the stopwatch is on, activities are started and stopped only with a clock, they do
not start at time zero of it, and they are stopped by the clock that started them. -/
def Plain (perSec : K) (g : Laps K) : Watch.Op K → Prop
  | .start _ r => g.active = true → g.mode ≠ .none ∧ seconds perSec g.mode r ≠ 0
  | .stop n _ => g.active = true → g.mode ≠ .none ∧ ∀ a c t, g.acts n = some a → a.started = some (c, t) → c = g.mode
  | .pause _ _ => False
  | _ => True

/-- Every call of the history is plain when it is made. -/
def PlainRun (perSec : K) (g : Laps K) : List (Watch.Op K) → Prop
  | [] => True
  | o :: os => Plain perSec g o ∧ PlainRun perSec (g.after perSec o) os

end Tsid.Spec
