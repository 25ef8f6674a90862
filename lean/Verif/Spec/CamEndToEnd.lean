import Verif.Spec.AesEndToEnd
import Verif.Spec.SslAes
import Verif.Spec.EndToEnd
import Verif.Model.SmartCamProtocol
/-!
# Specification: a camera's program reached with the camera transport over an unreliable network
-/

namespace Kasa.CamEndToEnd
open SslAes SslAesSpec
open EndToEnd (Program)
open AesEndToEnd (Fate)

/-- A camera: the user names it knows, the hash of the password it was given, and whether it does the secure login. -/
structure Device where
  knows : String → Bool
  stored : Bytes
  secure : Bool

/-- Everything that happens by itself: what becomes of the exchanges, before which of them the device loses its sessions (by a
restart), the nonces of both sides, the tokens and first sequence numbers the device hands out, how it refuses requests and probes for
names it does not know, whether it answers an encrypted request in plain text, and whether it takes plain requests in a secure
session. -/
structure Chance where
  fate : Nat → Fate
  restart : Nat → Bool
  localNonce : Nat → String
  remoteNonce : Nat → String
  token : Nat → Json
  start : Nat → Int
  refusal : Nat → Int × Json
  denial : Nat → Int × Json
  plainly : Nat → Bool
  lenient : Nat → Bool

structure Chance.Fair (x : Chance) : Prop where
  fate : ∀ n, (x.fate n).Fair
  refusal : ∀ n, (x.refusal n).1 = 200 → AesSpec.successful (x.refusal n).2 = false
  denial : ∀ n, (x.denial n).1 = 200 → (x.denial n).2.get? "error_code" ≠ some (.num (-40413))

/-- A secure session as the device knows it. -/
structure Session where
  token : Json
  key : Key
  cnonce : Bytes
  next : Int

/-- The device: the nonces of a secure login that has begun, the secure session, the token of a less secure login, the state of its
program; and the number of things that have happened by chance so far. -/
structure World (α : Type) where
  pending : Option (Bytes × String)
  session : Option Session
  plain : Option Json
  state : α
  count : Nat

/-- The transport with the encodings the code uses. -/
def config (lib : JsonText.Lib) (creds stored : Option (String × String)) (defaults : String × String) : Config where
  creds := creds
  stored := stored
  defaults := defaults
  encode := utf8
  wrap ct := utf8 (JsonText.dumps lib (.obj [("method", .str "securePassthrough"),
    ("params", .obj [("request", .str (String.ofList (B64.encode ct)))])]))
  unb64 := AesEndToEnd.unb64
  decode := fromUtf8
  loads := JsonText.loads

section
variable {α : Type} (c : BlockCipher) (h : Hashes) (d : Device) (cfg : Config) (lib : JsonText.Lib) (p : Program α) (x : Chance)

/-- The offer of a secure login, with the device's nonce and its proof that it knows the password. -/
def offer (cnonce : Bytes) (snonce : String) : Json :=
  .obj [("error_code", .num (-40413)), ("result", .obj [("data", .obj [("code", .num (-40413)), ("encrypt_type", .arr [.str "3"]),
    ("nonce", .str snonce), ("device_confirm", .str ((fromUtf8 (proof h cnonce (utf8 snonce) d.stored)).getD ""))])])]

/-- The offer of a less secure login. -/
def lessOffer : Json :=
  .obj [("error_code", .num (-40401)), ("result", .obj [("data", .obj [("code", .num (-40401)), ("encrypt_type", .arr [.str "1", .str "2"])])])]

/-- How the device answers within a session. -/
def sealed (key : Key) (v : Json) : Int × Json :=
  (200, .obj [("error_code", .num 0), ("result", .obj [("response",
    .str (String.ofList (B64.encode (Crypto.encrypt c key.key key.iv (utf8 (JsonText.dumps lib v))))))])])

/-- An answer that cannot be taken for an encrypted one. -/
def unmistakable (v : Json) : Bool := (AesSpec.result v "response").isNone

/-- What the device does with a request that reaches it. -/
def handle (url : Url) (body : Body) (tag : Option Tag) (w : World α) : (Int × Json) × World α :=
  match body with
  | .probe user cnonce =>
    if d.knows user = false then (x.denial w.count, w)
    else if d.secure then
      ((200, offer h d cnonce (x.remoteNonce w.count)), { w with pending := some (cnonce, x.remoteNonce w.count) })
    else ((200, lessOffer), w)
  | .digestLogin user cnonce dig =>
    match w.pending with
    | none => (x.refusal w.count, w)
    | some (n, snonce) =>
      if cnonce = n ∧ user.any d.knows = true ∧ dig = digest h n (utf8 snonce) d.stored then
        ((200, .obj [("error_code", .num 0), ("result", .obj [("stok", x.token w.count), ("start_seq", .num (x.start w.count))])]),
          { w with
            pending := none
            session := some ⟨x.token w.count, sessionKey h cfg n (utf8 snonce) d.stored, n, x.start w.count⟩ })
      else (x.refusal w.count, { w with pending := none })
  | .md5Login user hash =>
    if d.secure = false ∧ d.knows user = true ∧ hash = d.stored then
      ((200, .obj [("error_code", .num 0), ("result", .obj [("stok", x.token w.count)])]), { w with plain := some (x.token w.count) })
    else (x.refusal w.count, w)
  | .passthrough ct =>
    match w.session, tag with
    | some ses, some t =>
      if url = .token ses.token ∧ ses.next ≤ t.seq ∧ t.tag = tagOf h cfg ses.cnonce d.stored (cfg.wrap ct) t.seq then
        match ((Crypto.decrypt c ses.key.key ses.key.iv ct).bind fromUtf8).bind JsonText.loads with
        | none => (x.refusal w.count, w)
        | some j =>
          (if x.plainly w.count && unmistakable (p.run j w.state).1 then (200, (p.run j w.state).1)
            else sealed c lib ses.key (p.run j w.state).1,
            { w with state := (p.run j w.state).2, session := some { ses with next := t.seq + 1 } })
      else (x.refusal w.count, w)
    | _, _ => (x.refusal w.count, w)
  | .plain text =>
    match url, (fromUtf8 text).bind JsonText.loads with
    | .token t, some j =>
      if w.plain = some t ∨ x.lenient w.count = true ∧ w.session.map Session.token = some t then
        ((200, (p.run j w.state).1), { w with state := (p.run j w.state).2 })
      else (x.refusal w.count, w)
    | _, _ => (x.refusal w.count, w)

/-- The device after losing its sessions. -/
def World.restarted (w : World α) : World α := { w with pending := none, session := none, plain := none }

/-- An exchange over the network. -/
def exchange (url : Url) (body : Body) (tag : Option Tag) (w : World α) : Except Exc (Int × Json) × World α :=
  let w : World α := if x.restart w.count then w.restarted else w
  match x.fate w.count with
  | .fine =>
    let r := handle c h d cfg lib p x url body tag w
    (.ok r.1, { r.2 with count := w.count + 1 })
  | .lost instead => (instead, { w with count := w.count + 1 })
  | .unanswered instead =>
    let r := handle c h d cfg lib p x url body tag w
    (instead, { r.2 with count := w.count + 1 })

/-- The environment of a transport that talks to such a device. -/
def network : Env (World α) where
  post url body tag w := exchange c h d cfg lib p x url body tag w
  nonce w := (utf8 (x.localNonce w.count), { w with count := w.count + 1 })

end

/-- A request, or a reset of the transport. -/
inductive Op where
  | send (j : Json)
  | reset

/-- A history on one transport object: the requests with their outcomes, and the state in the end. -/
def history {α : Type} (c : BlockCipher) (h : Hashes) (env : Env (World α)) (cfg : Config) (lib : JsonText.Lib) :
    List Op → St (World α) → List (Json × Except Exc Json) × St (World α)
  | [], s => ([], s)
  | .reset :: ops, s => history c h env cfg lib ops (reset s).2
  | .send j :: ops, s =>
    let r := SslAes.send c h env cfg (utf8 (JsonText.dumps lib j)) s
    let rest := history c h env cfg lib ops r.2
    ((j, r.1) :: rest.1, rest.2)

/-- A new transport. -/
def start {α : Type} (cfg : Config) (w : World α) : St (World α) := { username := cfg.username, world := w }

/-! ## Camera queries over such a network -/

/-- The camera transport as the protocol uses it; `time` is the clock the requests are stamped with. -/
def camTransport {α : Type} (c : BlockCipher) (h : Hashes) (env : Env (World α)) (cfg : Config) (lib : JsonText.Lib) (uuid : String)
    (time : Nat → Int) : Smart.Transport (St (World α)) where
  send w s := SslAes.send c h env cfg (utf8 (JsonText.dumps lib (SmartText.wireJson uuid (time s.world.count) w))) s
  reset s := reset s

/-- A new protocol object with a new transport. -/
def fresh {α : Type} (cfg : Config) (batchSize : Nat) (w : World α) : Smart.St (St (World α)) := ⟨batchSize, start cfg w, []⟩

/-- Camera queries, with their retry counts, one after the other. -/
def queries {σ : Type} (t : Smart.Transport σ) (qs : List (Smart.Query × Int)) (s : Smart.St σ) : Smart.St σ :=
  qs.foldl (fun s q => (SmartCam.query t q.1 q.2 s).2) s

/-- The request `r`, on its own or as a batch of one, puts the program into state `f a`, from whatever state `a`, and asking twice is no
different from asking once; it is answered with success and `v`, which is no list in pages. -/
structure Sets {α : Type} (p : Program α) (uuid : String) (r : Smart.Request) (f : α → α) (v : Json) : Prop where
  state : ∀ j a, EndToEnd.Message uuid (.single r) j ∨ EndToEnd.Message uuid (.multi [r]) j → (p.run j a).2 = f a
  idem : ∀ a, f (f a) = f a
  single : ∀ j a, EndToEnd.Message uuid (.single r) j → SmartSpec.Carries (p.run j a).1 (0, some v)
  batch : ∀ j a, EndToEnd.Message uuid (.multi [r]) j → ∃ item res, SmartSpec.Carries (p.run j a).1 (0, some res) ∧
    res.get? "responses" = some (.arr [item]) ∧ item.get? "method" = some (.str r.method) ∧ SmartSpec.Carries item (0, some v)
  unpaged : v.get? "start_index" = none

/-- A method that is sent like any other one: not the name of a way of asking, and not one that is never batched. -/
def Plain (m : String) : Prop := m ∉ ["", "get", "set", "do", "multipleRequest", "getConnectStatus", "scanApList"]

end Kasa.CamEndToEnd
