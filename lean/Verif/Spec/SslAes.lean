import Verif.Model.SslAes
import Verif.Spec.Aes
/-!
# Specification of the camera transport's traffic, as an observer of the network sees it

The observer knows the user's password.
-/

namespace Kasa.SslAesSpec
open SslAes
open AesSpec (successful refused result)

/-- The password of the user: of the credentials given, else the stored one, else the default one. -/
def password (cfg : Config) : String :=
  match cfg.creds, cfg.stored with
  | some x, _ => x.2
  | none, some x => if x.2 = "" then cfg.defaults.2 else x.2
  | none, none => cfg.defaults.2

/-- Upper case hexadecimal SHA-256 and MD5. -/
def sha (h : Hashes) (b : Bytes) : Bytes := hexUpper (h.sha256 b)
def md5 (h : Hashes) (b : Bytes) : Bytes := hexUpper (h.md5 b)

/-- The device's proof that it knows the hashed password. -/
def proof (h : Hashes) (cnonce snonce hash : Bytes) : Bytes := sha h (cnonce ++ hash ++ snonce) ++ snonce ++ cnonce

/-- The client's proof that it knows the hashed password. -/
def digest (h : Hashes) (cnonce snonce hash : Bytes) : Bytes := sha h (hash ++ cnonce ++ snonce) ++ cnonce ++ snonce

/-- The keys both sides derive. -/
def sessionKey (h : Hashes) (cfg : Config) (cnonce snonce hash : Bytes) : Key :=
  ⟨(h.sha256 (cfg.encode "lsk" ++ cnonce ++ snonce ++ sha h (cnonce ++ hash ++ snonce))).take 16,
   (h.sha256 (cfg.encode "ivb" ++ cnonce ++ snonce ++ sha h (cnonce ++ hash ++ snonce))).take 16⟩

/-- The tag of a request with a sequence number. -/
def tagOf (h : Hashes) (cfg : Config) (cnonce hash text : Bytes) (seq : Int) : Bytes :=
  sha h (sha h (hash ++ cnonce) ++ text ++ cfg.encode (toString seq))

/-- `resp["result"]["data"][k]`. -/
def datum (resp : Json) (k : String) : Option Json := (result resp "data").bind fun d => d.get? k

/-- The device's nonce, and the hash of the password that its answer to a probe proves it knows. -/
def proven (h : Hashes) (cfg : Config) (cnonce : Bytes) (resp : Json) : Option (Bytes × Bytes) :=
  match datum resp "nonce", datum resp "device_confirm" with
  | some (.str n), some (.str p) =>
    if cfg.encode p = proof h cnonce (cfg.encode n) (sha h (cfg.encode (password cfg))) then
      some (cfg.encode n, sha h (cfg.encode (password cfg)))
    else if cfg.encode p = proof h cnonce (cfg.encode n) (md5 h (cfg.encode (password cfg))) then
      some (cfg.encode n, md5 h (cfg.encode (password cfg)))
    else none
  | _, _ => none

/-- A session after the secure login: address, number of the next request, and what both sides derived. -/
structure Secure where
  token : Json
  next : Json
  cnonce : Bytes
  hash : Bytes
  key : Key
  deriving DecidableEq

/-- How the device was logged into. -/
inductive Mode where
  | plain (token : Json)
  | secure (s : Secure)

/-- What the observer remembers. -/
structure Obs where
  /-- the last answered probe: user name, nonce, answer -/
  probe : Option (String × Bytes × Json) := none
  /-- the login in use, unless it was reset or refused since -/
  mode : Option Mode := none
  /-- a less secure login has succeeded at some time -/
  everPlain : Bool := false

/-- The session after a request was sent: its number is used up. -/
def Mode.used : Mode → Mode
  | .plain t => .plain t
  | .secure s => .secure { s with next := match s.next with | .num n => .num (n + 1) | x => x }

/-- What a successful answer to the secure login starts. -/
def started (h : Hashes) (cfg : Config) (o : Obs) (resp : Json) : Option Mode :=
  match o.probe with
  | some (_, cnonce, offer) =>
    match proven h cfg cnonce offer, result resp "start_seq", result resp "stok" with
    | some (snonce, hash), some n, some t => some (.secure ⟨t, n, cnonce, hash, sessionKey h cfg cnonce snonce hash⟩)
    | _, _, _ => none
  | none => none

/-- What an answer to the less secure login starts. -/
def plainStarted (o : Obs) (resp : Json) : Obs :=
  if successful resp then
    match result resp "stok" with
    | some t => if t.truthy then { o with mode := some (.plain t), everPlain := true } else o
    | none => o
  else o

/-- How an event changes what the observer remembers. -/
def see (h : Hashes) (cfg : Config) (o : Obs) : Ev → Obs
  | .post _ (.probe u n) _ outcome =>
    match outcome with
    | .ok (200, resp) => { o with probe := some (u, n, resp) }
    | _ => o
  | .post _ (.digestLogin _ _ _) _ outcome =>
    match outcome with
    | .ok (200, resp) => if successful resp then { o with mode := started h cfg o resp } else o
    | _ => o
  | .post _ (.md5Login _ _) _ outcome =>
    match outcome with
    | .ok (200, resp) => plainStarted o resp
    | _ => o
  | .post _ (.passthrough _) _ outcome =>
    match outcome with
    | .ok (200, resp) => if refused resp then { o with mode := none } else { o with mode := o.mode.map .used }
    | _ => { o with mode := o.mode.map .used }
  | .post _ (.plain _) _ outcome =>
    match outcome with
    | .ok (200, resp) => if refused resp then { o with mode := none } else o
    | _ => o
  | .reset => { o with mode := none }

/-- What the observer remembers after a history. -/
def observe (h : Hashes) (cfg : Config) (log : List Ev) : Obs := log.foldl (see h cfg) {}

/-- An encrypted request: with the key of the session, to its address, and tagged with the session's next number. -/
def Encrypted (c : BlockCipher) (h : Hashes) (cfg : Config) (asked : Bytes → Prop) (m : Secure) (url : Url) (body : Body)
    (tag : Option Tag) : Prop :=
  ∃ n ciphertext message, m.next = .num n ∧ url = .token m.token ∧ body = .passthrough ciphertext ∧
    tag = some ⟨n, tagOf h cfg m.cnonce m.hash (cfg.wrap ciphertext) n⟩ ∧
    Crypto.decrypt c m.key.key m.key.iv ciphertext = some message ∧ asked message

/-- The address of a session. -/
def Mode.address : Mode → Json
  | .plain t => t
  | .secure s => s.token

/-- A request as the transport sends it: encrypted in a secure session if no less secure login has ever succeeded;
otherwise unencrypted. -/
def RequestAllowed (c : BlockCipher) (h : Hashes) (cfg : Config) (asked : Bytes → Prop) (o : Obs) (url : Url) (body : Body)
    (tag : Option Tag) : Prop :=
  (o.everPlain = false ∧ ∃ m, o.mode = some (.secure m) ∧ Encrypted c h cfg asked m url body tag) ∨
  (o.everPlain = true ∧ ∃ m message, o.mode = some m ∧ url = .token m.address ∧ body = .plain message ∧ tag = none ∧
    asked message)

/-- The digest of the password is only sent after the device has proved, in its answer to the last probe, that it knows
the password, and has offered the secure login (error code -40413). -/
def DigestAllowed (h : Hashes) (cfg : Config) (o : Obs) (nonce dig : Bytes) : Prop :=
  ∃ user resp snonce hash, o.probe = some (user, nonce, resp) ∧ resp.get? "error_code" = some (.num (-40413)) ∧
    proven h cfg nonce resp = some (snonce, hash) ∧ dig = digest h nonce snonce hash

/-- The device does not offer the secure login: it answered the probe with error code -40401 and a list of login types
that is not exactly `["3"]`. -/
def AsksForLess (resp : Json) : Prop :=
  resp.get? "error_code" = some (.num (-40401)) ∧
    ∃ t, datum resp "encrypt_type" = some t ∧ t.truthy = true ∧ t ≠ .arr [.str "3"]

/-- The MD5 hash of the user's (or the default) password is only sent when the device's answer to the last probe, for the
same user name, asked for it. -/
def Md5Allowed (h : Hashes) (cfg : Config) (o : Obs) (user : String) (hash : Bytes) : Prop :=
  ∃ nonce resp, o.probe = some (user, nonce, resp) ∧ AsksForLess resp ∧
    (hash = md5 h (cfg.encode (password cfg)) ∨ hash = md5 h (cfg.encode cfg.defaults.2))

/-- What the observer accepts of a post. -/
def Allowed (c : BlockCipher) (h : Hashes) (cfg : Config) (asked : Bytes → Prop) (o : Obs) (url : Url) (body : Body)
    (tag : Option Tag) : Prop :=
  match body with
  | .probe _ _ => url = .app
  | .digestLogin _ nonce dig => url = .app ∧ DigestAllowed h cfg o nonce dig
  | .md5Login user hash => url = .app ∧ Md5Allowed h cfg o user hash
  | .passthrough _ | .plain _ => RequestAllowed c h cfg asked o url body tag

/-- The observer accepts every post in the history. -/
def Accepted (c : BlockCipher) (h : Hashes) (cfg : Config) (asked : Bytes → Prop) (log : List Ev) : Prop :=
  ∀ before url body tag outcome after, log = before ++ .post url body tag outcome :: after →
    Allowed c h cfg asked (observe h cfg before) url body tag

end Kasa.SslAesSpec
