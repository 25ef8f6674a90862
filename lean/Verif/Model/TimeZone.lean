import Verif.Py.Ops
/-!
# Time zones and the clocks of devices

Models kasa/iot/iottimezone.py and the time modules (kasa/iot/modules/time.py, kasa/smart/modules/time.py,
kasa/smartcam/modules/time.py).  Loading a zone by name (kasa/cachedzoneinfo.py) is the identity on names: that the time
zone database has the 110 names of the table is assumed.  Instants, offsets and wall clock times are in microseconds.
-/

namespace Kasa.Time

/-- A `tzinfo`: a `ZoneInfo` with its key, or any other one, with its `utcoffset` and its `tzname`. -/
inductive Tz where
  | zone (key : String)
  | other (offset : Int) (name : Option String)
  deriving DecidableEq, Repr

/-- `TIMEZONE_INDEX` (iottimezone.py:74-185): the keys are 0, 1, 2, ... in order. -/
def table : List String :=
  ["Etc/GMT+12", "Pacific/Samoa", "US/Hawaii", "US/Alaska", "Mexico/BajaNorte", "Etc/GMT+8", "PST8PDT", "US/Arizona",
   "America/Mazatlan", "MST", "MST7MDT", "Mexico/General", "Etc/GMT+6", "CST6CDT", "America/Monterrey",
   "Canada/Saskatchewan", "America/Bogota", "Etc/GMT+5", "EST", "America/Indiana/Indianapolis", "America/Caracas",
   "America/Asuncion", "Etc/GMT+4", "Canada/Atlantic", "America/Cuiaba", "Brazil/West", "America/Santiago",
   "Canada/Newfoundland", "America/Sao_Paulo", "America/Argentina/Buenos_Aires", "America/Cayenne",
   "America/Miquelon", "America/Montevideo", "Chile/Continental", "Etc/GMT+2", "Atlantic/Azores",
   "Atlantic/Cape_Verde", "Africa/Casablanca", "UCT", "GB", "Africa/Monrovia", "Europe/Amsterdam", "Europe/Belgrade",
   "Europe/Brussels", "Europe/Sarajevo", "Africa/Lagos", "Africa/Windhoek", "Asia/Amman", "Europe/Athens",
   "Asia/Beirut", "Africa/Cairo", "Asia/Damascus", "EET", "Africa/Harare", "Europe/Helsinki", "Asia/Istanbul",
   "Asia/Jerusalem", "Europe/Kaliningrad", "Africa/Tripoli", "Asia/Baghdad", "Asia/Kuwait", "Europe/Minsk",
   "Europe/Moscow", "Africa/Nairobi", "Asia/Tehran", "Asia/Muscat", "Asia/Baku", "Europe/Samara", "Indian/Mauritius",
   "Asia/Tbilisi", "Asia/Yerevan", "Asia/Kabul", "Asia/Ashgabat", "Asia/Yekaterinburg", "Asia/Karachi",
   "Asia/Kolkata", "Asia/Colombo", "Asia/Kathmandu", "Asia/Almaty", "Asia/Dhaka", "Asia/Novosibirsk", "Asia/Rangoon",
   "Asia/Bangkok", "Asia/Krasnoyarsk", "Asia/Chongqing", "Asia/Irkutsk", "Asia/Singapore", "Australia/Perth",
   "Asia/Taipei", "Asia/Ulaanbaatar", "Asia/Tokyo", "Asia/Seoul", "Asia/Yakutsk", "Australia/Adelaide",
   "Australia/Darwin", "Australia/Brisbane", "Australia/Canberra", "Pacific/Guam", "Australia/Hobart",
   "Antarctica/DumontDUrville", "Asia/Magadan", "Asia/Srednekolymsk", "Etc/GMT-11", "Asia/Anadyr",
   "Pacific/Auckland", "Etc/GMT-12", "Pacific/Fiji", "Etc/GMT-13", "Pacific/Apia", "Etc/GMT-14"]

/-- `get_timezone` (iottimezone.py:15-24). -/
def getTimezone (index : Int) : Except Exc String :=
  if index > 109 then .ok "Etc/UTC"
  else if index < 0 then .error (.other "KeyError")
  else
    match table[index.toNat]? with
    | some name => .ok name
    | none => .error (.other "KeyError")

/-- `rev = {val: key for key, val in TIMEZONE_INDEX.items()}` (iottimezone.py:31). -/
def rev : Dict String Int := (table.zipIdx).foldl (fun d p => d.set p.1 (p.2 : Int)) []

/-- `_is_same_timezone(tzone, await get_timezone(i))` (iottimezone.py:36); `same` is `_is_same_timezone` (59-71), which
compares the offsets at noon on 365 days of the current year. -/
def matchesIndex (same : Tz → String → Bool) (tz : Tz) (i : Nat) : Bool :=
  match getTimezone i with
  | .ok name => same tz name
  | .error _ => false

/-- `get_timezone_index` (iottimezone.py:27-38).  The `raise` of line 38 mentions `name`, which has a value only if the
zone is a `ZoneInfo`. -/
def getTimezoneIndex (same : Tz → String → Bool) (tz : Tz) : Except Exc Int :=
  let search : Except Exc Int :=
    match (List.range 110).find? (matchesIndex same tz) with
    | some i => .ok i
    | none =>
      match tz with
      | .zone _ => .error (.other "ValueError")
      | .other _ _ => .error (.other "UnboundLocalError")
  match tz with
  | .zone key =>
    match Dict.get? rev key with
    | some i => .ok i
    | none => search
  | .other _ _ => search

/-- One round of the loop of `get_matching_timezones` (iottimezone.py:50-55). -/
def addMatch (same : Tz → String → Bool) (tz : Tz) (found : List String) (i : Nat) : List String :=
  match getTimezone i with
  | .ok name => if same tz name && !found.contains name then found ++ [name] else found
  | .error _ => found

/-- `get_matching_timezones` (iottimezone.py:41-56). -/
def matching (same : Tz → String → Bool) (tz : Tz) : List String :=
  (List.range 110).foldl (addMatch same tz)
    (match tz with
     | .zone key => if table.contains key then [key] else []
     | .other _ _ => [])

/-! ## Legacy devices -/

/-- Year to second of a `datetime` (microseconds are never sent or read). -/
structure Wall where
  year : Int
  month : Int
  day : Int
  hour : Int
  minute : Int
  second : Int
  deriving DecidableEq, Repr

/-- The number of days of a month, as in Python's `datetime`. -/
def daysIn (year month : Int) : Int :=
  if month = 2 then
    if year % 4 = 0 ∧ (year % 100 ≠ 0 ∨ year % 400 = 0) then 29 else 28
  else if month = 4 ∨ month = 6 ∨ month = 9 ∨ month = 11 then 30 else 31

/-- The values `datetime(...)` accepts; others are a `ValueError`. -/
def Wall.valid (w : Wall) : Bool :=
  decide (1 ≤ w.year ∧ w.year ≤ 9999 ∧ 1 ≤ w.month ∧ w.month ≤ 12 ∧ 1 ≤ w.day ∧ w.day ≤ daysIn w.year w.month ∧
    0 ≤ w.hour ∧ w.hour ≤ 23 ∧ 0 ≤ w.minute ∧ w.minute ≤ 59 ∧ 0 ≤ w.second ∧ w.second ≤ 59)

/-- `res[key]` as an argument of `datetime` (iot/modules/time.py:34-41). -/
def field (res : Json) (key : String) : Except Exc Int := do
  match ← Ops.item res key with
  | .num n => .ok n
  | .bool b => .ok (if b then 1 else 0)
  | _ => .error (.other "TypeError")

/-- `Time.time` (iot/modules/time.py:30-43), the wall clock part; `data` is the module's data. -/
def legacyTime (data : Json) : Except Exc Wall := do
  let res ← Ops.item data "get_time"
  let year ← field res "year"
  let month ← field res "month"
  let day ← field res "mday"
  let hour ← field res "hour"
  let minute ← field res "min"
  let second ← field res "sec"
  let w : Wall := ⟨year, month, day, hour, minute, second⟩
  if w.valid then .ok w else .error (.other "ValueError")

/-- `await get_timezone(res.get("index"))` for whatever the device reports (iot/modules/time.py:28): comparing `None` or
text with a number is a `TypeError`. -/
def zoneOf (index : Option Json) : Except Exc Tz :=
  match index with
  | some (.num i) => (getTimezone i).map .zone
  | some (.bool b) => (getTimezone (if b then 1 else 0)).map .zone
  | _ => .error (.other "TypeError")

/-- `Time._post_update_hook` (iot/modules/time.py:25-28): the zone after an update. -/
def legacyZone (data : Json) (old : Tz) : Except Exc Tz := do
  match ← Ops.getOpt data "get_timezone" with
  | some res =>
    if res.truthy then do zoneOf (← Ops.getOpt res "index") else .ok old
  | none => .ok old

/-- The parameters of `set_time` (iot/modules/time.py:68-75). -/
def wallParams (w : Wall) : Dict String Json :=
  [("year", .num w.year), ("month", .num w.month), ("mday", .num w.day), ("hour", .num w.hour), ("min", .num w.minute),
   ("sec", .num w.second)]

/-- `self.data.get("get_timezone", {}).get("index", -1)` (iot/modules/time.py:78). -/
def currentIndex (data : Json) : Except Exc Json := do
  Ops.getOr (← Ops.getOr data "get_timezone" (.obj [])) "index" (.num (-1))

/-- Which command is sent (iot/modules/time.py:76-85): method and parameters.  An index reported as a boolean or a
float is not compared as a number here. -/
def legacyCommand (same : Tz → String → Bool) (data : Json) (w : Wall) (tz : Option Tz) :
    Except Exc (String × Dict String Json) :=
  match tz with
  | none => .ok ("set_time", wallParams w)
  | some t => do
    let index ← getTimezoneIndex same t
    let current ← currentIndex data
    if current ≠ .num (-1) ∧ current ≠ .num index then
      .ok ("set_timezone", Dict.set (wallParams w) "index" (.num index))
    else .ok ("set_time", wallParams w)

/-! ## SMART devices -/

/-- A `datetime`: with a zone, the instant and the zone; without, the wall clock time. -/
inductive Moment where
  | aware (utc : Int) (tz : Tz)
  | naive (wall : Int)
  deriving DecidableEq, Repr

/-- What Python's `zoneinfo` knows: which names there are, the offset of a zone at an instant, and the instant of a wall
clock time. -/
structure Zones where
  known : String → Bool
  offset : String → Int → Int
  instant : String → Int → Int

def second : Int := 1000000
def minute : Int := 60 * second

/-- `tz.utcoffset` at an instant. -/
def Zones.at_ (z : Zones) (tz : Tz) (utc : Int) : Int :=
  match tz with
  | .zone key => z.offset key utc
  | .other off _ => off

/-- `dt.replace(tzinfo=tz).timestamp()`, the instant of a wall clock time. -/
def Zones.resolve (z : Zones) (tz : Tz) (wall : Int) : Int :=
  match tz with
  | .zone key => z.instant key wall
  | .other off _ => wall - off

/-- The instant and the offset of what is to be set (smart/modules/time.py:67-72). -/
def instantOf (z : Zones) (deviceZone : Tz) : Moment → Int × Int
  | .aware utc tz => (utc, z.at_ tz utc)
  | .naive wall => (z.resolve deviceZone wall, wall - z.resolve deviceZone wall)

/-- The region that is sent, if any (smart/modules/time.py:79-83). -/
def regionOf : Moment → Option String
  | .aware _ (.zone key) => if key = "" then none else some key
  | .aware _ (.other _ (some name)) => if name = "" then none else some name
  | .aware _ (.other _ none) => none
  | .naive _ => none

/-- The parameters of `set_device_time` (smart/modules/time.py:65-84): `int` drops the fraction. -/
def smartCommand (z : Zones) (deviceZone : Tz) (m : Moment) : Dict String Json :=
  let p := instantOf z deviceZone m
  let base : Dict String Json := [("timestamp", .num (p.1.tdiv second)), ("time_diff", .num (p.2.tdiv minute))]
  match regionOf m with
  | some r => Dict.set base "region" (.str r)
  | none => base

/-- `timezone(td, ...)` (smart/modules/time.py:45, 49): offsets of a day or more are refused. -/
def fixedZone (offset : Int) (name : Option String) : Except Exc Tz :=
  if offset < 1440 * minute ∧ -(1440 * minute) < offset then .ok (.other offset name) else .error (.other "ValueError")

/-- `Time._post_update_hook` (smart/modules/time.py:37-50).  `tzname` of a `timezone(td)` without a name is not spelled
out.  Simplified: a region that is not text, or that `ZoneInfo` refuses as a path, is not modelled. -/
def smartZone (z : Zones) (data : Dict String Json) : Except Exc Tz :=
  match Dict.get? data "time_diff" with
  | some (.num diff) =>
    match Dict.get? data "region" with
    | some (.str r) =>
      if r = "" then fixedZone (diff * minute) none
      else if z.known r then .ok (.zone r)
      else fixedZone (diff * minute) (some r)
    | _ => fixedZone (diff * minute) none
  | _ => .error (.other "TypeError")

/-- `Time.time` (smart/modules/time.py:57-63): the instant. -/
def smartTime (data : Dict String Json) : Except Exc Int :=
  match Dict.get? data "timestamp" with
  | some (.num t) => .ok (t * second)
  | _ => .error (.other "TypeError")

/-! ## Cameras -/

/-- The commands of a camera's `set_time` (smartcam/modules/time.py:77-92): the seconds and the local time that are
sent, and the zone, if it is a `ZoneInfo`.  The local time is `datetime.fromtimestamp(timestamp)`, which is in the zone
of the computer (`host`); its text form is not spelled out. -/
def cameraCommands (z : Zones) (host deviceZone : Tz) (m : Moment) : (Int × Int) × Option String :=
  let t := match m with
    | .aware utc _ => utc
    | .naive wall => z.resolve deviceZone wall
  ((t.tdiv second, t + z.at_ host t),
   match m with
   | .aware _ (.zone key) => some key
   | _ => none)

end Kasa.Time
