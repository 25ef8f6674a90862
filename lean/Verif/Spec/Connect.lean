import Verif.Model.Connect
/-!
# Connections: what a history of events says

Only the vocabulary of events is taken from the model.
-/

namespace Kasa.ConnectSpec

open Connect Config Factory

/-- The event is a use of protocol `id`: a query, an update or a report about it. -/
inductive Uses (id : Nat) : Event → Prop where
  | asked (ok) : Uses id (.asked id ok)
  | updated (c ok) : Uses id (.updated id c ok)
  | attempt (ok) : Uses id (.attempt id ok)

/-- In the history, protocol `id` is closed and never used afterwards. -/
def ClosedForGood (id : Nat) (h : List Event) : Prop :=
  ∃ a b, h = a ++ .closed id :: b ∧ ∀ e ∈ b, ¬ Uses id e

/-- A protocol of these classes was created for a connection with that HTTPS setting and that login version. -/
def Created (id : Nat) (p : Proto) (t : Transport) (https : Bool) (version : Option Int) (h : List Event) : Prop :=
  ∃ c, Event.created id c p t ∈ h ∧ c.connectionType.https = https ∧ c.connectionType.loginVersion = version

end Kasa.ConnectSpec
