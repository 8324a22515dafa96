import Verif.C.Float

/-!
# Model of `python-server/server.py`, the Python diagnostic server

Python integers are exact, Python floats IEEE binary64; dividing an integer by a float is one rounding (integers below
`2^53` convert exactly).
-/

namespace Verif.Python

/-- What `bytes.strip()` removes: the ASCII white space characters space, `\t`, `\n`, `\r`, `\v`, `\f`. -/
def isSpace (b : UInt8) : Bool := b = 32 || (9 ≤ b && b ≤ 13)

/-- `bytes.strip()`. -/
def strip (b : List UInt8) : List UInt8 := ((b.dropWhile isSpace).reverse.dropWhile isSpace).reverse

/-- A signed field of `struct.unpack`: little-endian two's complement of `bs`. -/
def signedLE (bs : List UInt8) : ℤ :=
  let n := bs.foldr (fun b acc => (b.toNat : ℤ) + 256 * acc) 0
  if n < 256 ^ bs.length / 2 then n else n - 256 ^ bs.length

/-- An unsigned field. -/
def unsignedLE (bs : List UInt8) : ℤ := bs.foldr (fun b acc => (b.toNat : ℤ) + 256 * acc) 0

/-- `server.py:26-32` the dictionary `message`; `time` is the raw number of microseconds that is handed (divided by 10^6) to
`datetime.fromtimestamp`. -/
structure Message where
  length_bytes : ℤ
  type : ℤ
  time : ℤ
  ra_h : ℚ
  dec_deg : ℚ
  deriving DecidableEq, Repr

/-- What a connection leads to. -/
inductive Outcome where
  /-- the decoded message is printed -/
  | decoded (m : Message)
  /-- `message too short for decoding` -/
  | tooShort
  /-- `struct.error`: the handler fails (the server reports it and goes on with the next connection) -/
  | structError
  /-- `datetime.fromtimestamp` rejects the time: the handler fails -/
  | timeError
  deriving DecidableEq, Repr

/-- `server.py:15-35` `MyTCPHandler.handle`.  `received` is what the client sent when `recv` returned (the handler reads once
and the connection is closed afterwards); `timeOk` says which times `datetime.fromtimestamp` accepts. -/
def handle (timeOk : ℤ → Bool) (received : List UInt8) : Outcome :=
  let data := strip (received.take 1024)
  if data.length ≥ 20 then
    if data.length = 20 then
      let time := signedLE ((data.drop 4).take 8)
      if timeOk time then
        .decoded {
          length_bytes := signedLE (data.take 2)
          type := signedLE ((data.drop 2).take 2)
          time := time
          ra_h := rnd b64 ((unsignedLE ((data.drop 12).take 4) : ℚ) / rnd b64 (2147483648 / 12))
          dec_deg := rnd b64 ((signedLE ((data.drop 16).take 4) : ℚ) / rnd b64 (1073741824 / 90)) }
      else .timeError
    else .structError
  else .tooShort

end Verif.Python
