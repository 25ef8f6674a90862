import Verif.Spec.CliCommands
import Verif.Spec.Cli
/-!
# Specification of the output of the command line tool with `--json`
-/

namespace Kasa.CliCommand.Spec

open Cli (Event)

/-- What a command wrote by itself with `--json`: what it prints directly and its questions, which go to the standard
output, too. -/
def written : List Act → List Output
  | [] => []
  | .print :: l | .ask :: l => .text :: written l
  | _ :: l => written l

/-- The standard output of a run, given what the command wrote by itself. -/
def stdout (command : List Output) : List Event → List Output
  | [] => []
  | .text :: l => .text :: stdout command l
  | .document :: l => .document :: stdout command l
  | .command _ _ :: l => command ++ stdout command l
  | _ :: l => stdout command l

/-- The commands which write directly, and those which ask the user. -/
def Talks (f : Facts) : Command → Bool
  | .logs | .scheduleList _ | .records | .recordsList | .consumables | .consumablesReset _ => true
  | .factoryReset | .updateCredentials _ _ => true
  | .timeSync z skip | .timeSet _ z skip => !skip && f.isIot && z ≠ none
  | _ => false

end Kasa.CliCommand.Spec
