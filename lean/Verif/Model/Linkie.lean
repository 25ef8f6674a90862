import Verif.Model.Xor
import Verif.Model.Exceptions
import Verif.Py.Monad
import Verif.Py.Json
import Verif.Py.Text
/-!
# The transport of Kasa cameras

Models `LinkieTransportV2` (kasa/transports/linkietransport.py:26-145).  The HTTP client, the creation of the TLS context
and the device are an environment with an arbitrary state.  Headers, addresses and logging are omitted.
-/

namespace Kasa.Linkie
open PyM

/-- The bytes of an ASCII text. -/
def ascii (text : List Char) : Bytes := text.map fun c => UInt8.ofNat c.toNat

/-- Bytes as the characters that a byte-wise reader sees. -/
def chars (b : Bytes) : List Char := b.map fun x => Char.ofNat x.toNat

/-- Upper-case hexadecimal digit, as in `'%{:02X}'.format(byte)` of `urllib.parse`. -/
def hexDigit (n : Nat) : Char := "0123456789ABCDEF".toList.getD n '0'

/-- What `quote(…, safe="!~*'()")` leaves as it is: letters, digits, `_.-~` and the safe characters
(linkietransport.py:75). -/
def kept (c : Char) : Bool := c.isAlphanum || "_.-~!*'()".toList.contains c

/-- `quote` of one ASCII character. -/
def quoteChar (c : Char) : List Char :=
  if kept c then [c] else ['%', hexDigit (c.toNat / 16), hexDigit (c.toNat % 16)]

/-- `quote(b64_cmd, safe="!~*'()")` (linkietransport.py:75) of an ASCII text. -/
def quote (text : List Char) : List Char := text.flatMap quoteChar

/-- The body of the request (linkietransport.py:73-80); `none` is the `struct.error` of `XorEncryption.encrypt`. -/
def body (request : String) : Option Bytes :=
  (Xor.encrypt (utf8 request)).map fun c => ascii ("content=".toList ++ quote (B64.encode (c.drop 4)))

/-- The environment: the TLS context, the HTTP exchange (status and body of the answer, or an exception), and the JSON
parser. -/
structure Env (σ : Type) where
  context : σ → Except Exc Unit × σ
  post : Bytes → σ → Except Exc (Int × Bytes) × σ
  loads : String → Option Json
  loadsBytes : Bytes → Option Json

/-- The environment's state, whether the TLS context was made, and the bodies posted so far. -/
structure St (σ : Type) where
  world : σ
  context : Bool := false
  posted : List Bytes := []

section
variable {σ : Type} (env : Env σ)

/-- Making the TLS context in an executor (linkietransport.py:134-137). -/
def makeContext : PyM (St σ) Unit := fun s =>
  match env.context s.world with
  | (.ok (), w) => (.ok (), { s with world := w, context := true })
  | (.error e, w) => (.error e, { s with world := w })

/-- `_get_ssl_context` (linkietransport.py:132-138). -/
def getContext : PyM (St σ) Unit := do
  if (← getS).context then pure () else makeContext env

/-- `self._http_client.post(...)` (linkietransport.py:77-82). -/
def post (b : Bytes) : PyM (St σ) (Int × Bytes) := fun s =>
  ((env.post b s.world).1, { s with world := (env.post b s.world).2, posted := s.posted ++ [b] })

/-- `json_loads(XorEncryption.decrypt(base64.b64decode(response)))` (linkietransport.py:95-97); `none` is any of the
exceptions that may arise. -/
def readAnswer (response : Bytes) : Option Json := do
  let c ← B64.decode (chars response)
  let text ← fromUtf8 (Xor.decrypt c)
  env.loads text

/-- The exchange and the reading of the answer (linkietransport.py:77-111). -/
def exchange (b : Bytes) : PyM (St σ) Json := do
  let r ← post env b
  if r.1 ≠ 200 then raise .kasa
  else
    match readAnswer env r.2 with
    | some payload => pure payload
    | none =>
      match env.loadsBytes r.2 with
      | some _ => raise .kasa
      | none => raise .kasa

/-- `_execute_send` (linkietransport.py:69-111). -/
def executeSend (request : String) : PyM (St σ) Json :=
  match body request with
  | none => raise (.other "struct.error")
  | some b => do
    getContext env
    exchange env b

/-- `send` (linkietransport.py:123-130); `reset` does nothing (linkietransport.py:117-121). -/
def send (request : String) : PyM (St σ) Json :=
  tryExcept (executeSend env request) fun ex => if ex.isException then raise (.retryable none) else raise ex

end
end Kasa.Linkie
