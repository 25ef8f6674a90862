import Verif.Model.HttpSessions
/-!
# What is promised about HTTP sessions and cookies

Everything here is read off the history of events and the configuration alone.
-/

namespace Kasa.HttpSessions

/-- The value an answer gives to a cookie: that of its last `Set-Cookie` header with this name. -/
def sent (cookies : List (String × String)) (name : String) : Option String :=
  (cookies.reverse.find? fun c => c.1 == name).map Prod.snd

/-- The cookies of the answer to the last request of the client, if its head is here. -/
def lastAnswer (c : Nat) (h : List Ev) : Option (List (String × String)) :=
  h.foldl (fun a e => match e with
    | .start d => if d = c then none else a
    | .head d cs => if d = c then some cs else a
    | _ => a) none

/-- The two clients were given the same session. -/
def Shares (cfg : Nat → Config) (c d : Nat) : Prop :=
  c ≠ d ∧ ∃ i, (cfg c).httpClient = some (.session i) ∧ (cfg d).httpClient = some (.session i)

/-- The user gave the client a session. -/
def Given (cfg : Nat → Config) (c : Nat) : Prop := ∃ i, (cfg c).httpClient = some (.session i)

/-- Since the head of the last answer of `c`, no client that shares its session has begun a request. -/
def Undisturbed (cfg : Nat → Config) (c : Nat) (h : List Ev) : Prop :=
  ∀ h₁ cs h₂, h = h₁ ++ .head c cs :: h₂ → (∀ cs', Ev.head c cs' ∉ h₂) → ∀ d, Shares cfg c d → Ev.start d ∉ h₂

/-- The client posts nothing in this history. -/
def Silent (c : Nat) (h : List Ev) : Prop := Ev.start c ∉ h

/-- The number of sessions made by the client that are open. -/
def openOf (c : Nat) (w : World) : Nat :=
  ((List.range w.next).filter fun i => (w.session i).maker == some c && !(w.session i).closed).length

/-- The sessions that the user gave are ones the user made. -/
def Known (cfg : Nat → Config) (users : Nat) : Prop := ∀ c i, (cfg c).httpClient = some (.session i) → i < users

end Kasa.HttpSessions
