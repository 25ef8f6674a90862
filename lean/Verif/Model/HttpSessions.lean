/-!
# The HTTP sessions of the transports

Models which `aiohttp.ClientSession` an `HttpClient` uses, the cookies of that session, and its end (kasa/httpclient.py:37-57, 89-113,
164-177).  Any number of clients run on the event loop, some of them with a session given by the user and possibly shared
(`DeviceConfig.http_client`, deviceconfig.py:164-168).  A history is a list of events; what happens between two events is not interrupted,
because the code has no `await` there.

Of aiohttp's sessions only this is kept: a closed session ends its requests with an error, and `CookieJar(unsafe=True)` keeps for every host
the cookies of the answers of that host.  Paths, domains and lifetimes of cookies are left out.  The content of the requests is modelled in
`Model/HttpClient.lean`.
-/

namespace Kasa.HttpSessions

/-- What the user may have put into `DeviceConfig.http_client` (deviceconfig.py:164-168). -/
inductive Passed where
  /-- an `aiohttp.ClientSession` -/
  | session (id : Nat)
  /-- an object of another class -/
  | other
  deriving DecidableEq

/-- The part of `DeviceConfig` that matters here. -/
structure Config where
  host : String
  httpClient : Option Passed

/-- The cookies of a session, by host and name. -/
abbrev Jar := String → String → Option String

/-- `CookieJar.clear()` -/
def Jar.empty : Jar := fun _ _ => none

/-- aiohttp stores the `Set-Cookie` headers of an answer of `host`, in their order. -/
def Jar.update (j : Jar) (host : String) (cs : List (String × String)) : Jar :=
  cs.foldl (fun j c h n => if h = host ∧ n = c.1 then some c.2 else j h n) j

/-- An `aiohttp.ClientSession`: who made it (`none`: the user), whether it was closed, its cookie jar. -/
structure Session where
  maker : Option Nat
  closed : Bool := false
  jar : Jar := Jar.empty

/-- A request that was sent and whose answer is not complete: the session, and whether the head of the answer is here. -/
structure Flight where
  session : Nat
  heard : Bool := false
  deriving DecidableEq

/-- The variables of an `HttpClient` (httpclient.py:37-45), and the result of its last `get_cookie`. -/
structure Client where
  own : Option Nat := none
  flight : Option Flight := none
  got : Option String := none

/-- All sessions made so far (numbers below `next`) and all clients. -/
structure World where
  session : Nat → Session
  next : Nat
  client : Nat → Client

/-- The world in the beginning: the user's sessions have the numbers below `users`. -/
def World.init (users : Nat) : World where
  session _ := { maker := none }
  next := users
  client _ := {}

/-- Changes one session. -/
def World.setSession (w : World) (i : Nat) (s : Session) : World :=
  { w with session := fun j => if j = i then s else w.session j }

/-- Changes one client. -/
def World.setClient (w : World) (c : Nat) (s : Client) : World :=
  { w with client := fun d => if d = c then s else w.client d }

section
variable (cfg : Nat → Config)

/-- `HttpClient.client` (httpclient.py:47-57): the user's session if there is one, or the own one, which is made when it is needed. -/
def client (c : Nat) (w : World) : Nat × World :=
  match (cfg c).httpClient with
  | some (.session i) => (i, w)
  | _ =>
    match (w.client c).own with
    | some i => (i, w)
    | none =>
      (w.next, { (w.setSession w.next { maker := some c }).setClient c { w.client c with own := some w.next } with next := w.next + 1 })

/-- `HttpClient.post` until the request is sent (httpclient.py:89-113): the cookies of the session are dropped, then the request goes out. -/
def start (c : Nat) (w : World) : World :=
  let (i, w) := client cfg c w
  let w := w.setSession i { w.session i with jar := Jar.empty }
  let (i, w) := client cfg c w
  w.setClient c { w.client c with flight := some { session := i } }

/-- `HttpClient.get_cookie` (httpclient.py:164-170), for the address of the last request. -/
def getCookie (c : Nat) (name : String) (w : World) : Option String × World :=
  let (i, w) := client cfg c w
  ((w.session i).jar (cfg c).host name, w)

/-- `HttpClient.close` (httpclient.py:172-177): only the own session is closed. -/
def close (c : Nat) (w : World) : World :=
  match (w.client c).own with
  | none => w
  | some i =>
    let w := w.setClient c { w.client c with own := none }
    w.setSession i { w.session i with closed := true }

/-- What happens. -/
inductive Ev where
  /-- a transport posts a request -/
  | start (c : Nat)
  /-- the head of the answer arrives, with its cookies -/
  | head (c : Nat) (cookies : List (String × String))
  /-- the body has been read, `post` returns, and the transport asks for a cookie (klaptransport.py:323-330, aestransport.py:336-346) -/
  | done (c : Nat) (cookie : String)
  /-- the request fails: `post` raises -/
  | fails (c : Nat)
  /-- the transport is closed (klaptransport.py:405-408 and the like) -/
  | close (c : Nat)
  /-- the user closes a session of theirs -/
  | userCloses (i : Nat)
  deriving DecidableEq

/-- One event; `none` if it cannot happen: a client has one request at a time (the transports are used under the lock of the protocol,
`Model/QueryLock.lean`), and nothing arrives over a closed session. -/
def step (w : World) : Ev → Option World
  | .start c =>
    match (w.client c).flight with
    | some _ => none
    | none => some (start cfg c w)
  | .head c cookies =>
    match (w.client c).flight with
    | some ⟨i, false⟩ =>
      if (w.session i).closed then none
      else
        let w := w.setSession i { w.session i with jar := (w.session i).jar.update (cfg c).host cookies }
        some (w.setClient c { w.client c with flight := some ⟨i, true⟩ })
    | _ => none
  | .done c name =>
    match (w.client c).flight with
    | some ⟨i, true⟩ =>
      if (w.session i).closed then none
      else
        let w := w.setClient c { w.client c with flight := none }
        let (r, w) := getCookie cfg c name w
        some (w.setClient c { w.client c with got := r })
    | _ => none
  | .fails c =>
    match (w.client c).flight with
    | some _ => some (w.setClient c { w.client c with flight := none })
    | none => none
  | .close c => some (close c w)
  | .userCloses i =>
    match (w.session i).maker with
    | none => some (w.setSession i { w.session i with closed := true })
    | some _ => none

/-- A history, if it can happen. -/
def run (w : World) : List Ev → Option World
  | [] => some w
  | e :: es => (step cfg w e).bind fun w => run w es

end

end Kasa.HttpSessions
