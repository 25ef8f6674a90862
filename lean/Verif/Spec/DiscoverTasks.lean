import Verif.Model.DiscoverTasks
/-!
# What is promised about the course of a search
-/

namespace Kasa.DiscoverTasks
open Discover

section
variable (d : Deps) (o : Options) (packets : Int)

/-- The state after the first events of an endless schedule. -/
def stateAt (evs : Nat → Ev) : Nat → Sys
  | 0 => {}
  | n + 1 => step d o packets (stateAt evs n) (evs n)

/-- Nobody waits forever: the transport becomes ready, the tasks get to run again and again, a running callback ends, and so does the
closing of a device. -/
structure Fair (evs : Nat → Ev) : Prop where
  ready : ∃ n, evs n = .connected
  search : ∀ n, ∃ m, n ≤ m ∧ evs m = .searchRuns
  main : ∀ n, ∃ m, n ≤ m ∧ evs m = .mainRuns
  callbacks : ∀ host n, (host, none) ∈ (stateAt d o packets evs n).callbacks → ∃ m r, n ≤ m ∧ evs m = .callbackEnds host r
  closes : ∀ n e closed ip left size, (stateAt d o packets evs n).main = .closing e closed ip left size →
    ∃ m r, n ≤ m ∧ evs m = .closeEnds r

/-- The datagrams that arrive before the call is over. -/
def arrived (s : Sys) : List Ev → List Datagram
  | [] => []
  | ev :: evs =>
    (match ev with
    | .datagram dg => if s.main.ended then [] else [dg]
    | _ => []) ++ arrived (step d o packets s ev) evs

/-- The call is still waiting for answers. -/
def Searching (s : Sys) : Prop := s.main = .starting ∨ s.main = .searching

/-- Closing devices succeeds and is not interrupted. -/
def ClosesWell (s : Sys) : List Ev → Prop
  | [] => True
  | ev :: evs =>
    (match ev with
    | .closeEnds (.error _) => False
    | .cancelCaller => ∀ e closed ip left n, s.main ≠ .closing e closed ip left n
    | _ => True) ∧ ClosesWell (step d o packets s ev) evs

end
end Kasa.DiscoverTasks
