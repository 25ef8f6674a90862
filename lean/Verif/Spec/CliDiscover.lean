import Verif.Model.CliDiscover
import Verif.Spec.Redact
/-!
# Specification: what `discover` prints
-/

namespace Kasa.CliDiscoverSpec
open CliDiscover

/-- All callbacks are over. -/
def AllOver (s : Sys) : Prop := ∀ t ∈ s.tasks, t.2 = .over

/-- The pieces, each in one piece, one after the other, in some order. -/
def Whole (pieces : List Piece) (lines : Lines) : Prop := ∃ order : List Piece, order.Perm pieces ∧ lines = order.flatMap Piece.lines

/-- Some of the pieces are whole, in some order, at most one more has begun, and the others are missing. -/
def SoFar (pieces : List Piece) (lines : Lines) : Prop :=
  ∃ (done rest : List Piece) (begun : Lines), lines = done.flatMap Piece.lines ++ begun ∧
    ((done ++ rest).Perm pieces ∧ begun = [] ∨ ∃ p more, (done ++ p :: rest).Perm pieces ∧ p.lines = begun ++ more)

/-- The column of a line at which the text begins, and its width. -/
def At (line : String) (column : Nat) (text : String) : Prop :=
  ∃ before after : String, line = before ++ text ++ after ∧ before.length = column

end Kasa.CliDiscoverSpec
