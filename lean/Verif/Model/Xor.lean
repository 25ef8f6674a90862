import Verif.Py.Bytes
/-!
# The legacy autokey cipher and the framing of the legacy TCP protocol

Models `kasa/transports/xortransport.py`: `XorEncryption` (193-232) and the stream handling of
`XorTransport._execute_send` (75-93).  Strings are modelled by their UTF-8 bytes.
-/

namespace Kasa.Xor

/-- `XorEncryption.INITIALIZATION_VECTOR` (xortransport.py:196). -/
def initializationVector : UInt8 := 171

/-- Loop of `XorEncryption._xor_payload` (xortransport.py:198-203), `key` is the loop variable. -/
def xorPayloadFrom (key : UInt8) : Bytes → Bytes
  | [] => []
  | b :: bs =>
    let key' := key ^^^ b
    key' :: xorPayloadFrom key' bs

/-- `XorEncryption._xor_payload` (xortransport.py:198-203). -/
def xorPayload (p : Bytes) : Bytes := xorPayloadFrom initializationVector p

/-- `XorEncryption.encrypt` (xortransport.py:205-215) on the encoded request; `none` is the
`struct.error` of `pack` for a payload whose length does not fit 32 bits. -/
def encrypt (p : Bytes) : Option Bytes :=
  match packU32 p.length with
  | none => none
  | some header => some (header ++ xorPayload p)

/-- Loop of `XorEncryption._xor_encrypted_payload` (xortransport.py:217-223). -/
def xorEncryptedPayloadFrom (key : UInt8) : Bytes → Bytes
  | [] => []
  | c :: cs => (key ^^^ c) :: xorEncryptedPayloadFrom c cs

/-- `XorEncryption.decrypt` (xortransport.py:225-232), before the UTF-8 decoding. -/
def decrypt (c : Bytes) : Bytes := xorEncryptedPayloadFrom initializationVector c

/-! ## Reading from the stream -/

/-- An `asyncio.StreamReader`: bytes already buffered, and the segments that will still arrive before the
end of the stream.  (The class is from the Python standard library; only `readexactly` is used.) -/
structure Reader where
  buffer : Bytes
  segments : List Bytes

/-- `StreamReader.readexactly(n)` as used at xortransport.py:84,87: wait for segments until `n` bytes are
buffered; `none` is `IncompleteReadError` (the stream ended first). -/
def readExactly (n : Nat) (buffer : Bytes) : List Bytes → Option (Bytes × Reader)
  | [] => if n ≤ buffer.length then some (buffer.take n, ⟨buffer.drop n, []⟩) else none
  | s :: rest =>
    if n ≤ buffer.length then some (buffer.take n, ⟨buffer.drop n, s :: rest⟩)
    else readExactly n (buffer ++ s) rest

/-- `XorTransport.BLOCK_SIZE` (xortransport.py:40). -/
def blockSize : Nat := 4

/-- The reading half of `XorTransport._execute_send` (xortransport.py:84-88): read the 4-byte length, read
that many bytes, decrypt. -/
def readMessage (r : Reader) : Option (Bytes × Reader) :=
  match readExactly blockSize r.buffer r.segments with
  | none => none
  | some (packedBlockSize, r1) =>
    let length := beValue packedBlockSize
    match readExactly length r1.buffer r1.segments with
    | none => none
    | some (buf, r2) => some (decrypt buf, r2)

/-- `k` successive calls of `readMessage`, as `k` successive requests on one connection do. -/
def readMessages : Nat → Reader → Option (List Bytes × Reader)
  | 0, r => some ([], r)
  | k + 1, r =>
    match readMessage r with
    | none => none
    | some (m, r') =>
      match readMessages k r' with
      | none => none
      | some (ms, r'') => some (m :: ms, r'')

end Kasa.Xor
