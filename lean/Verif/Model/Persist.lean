import Verif.C.Basic

/-!
# Model of `lib/persistency/src/persistency.cpp`

The flash file system is a map from names to contents.  What can go wrong in it is an input of each call: whether `open` succeeds and
how many bytes `read`/`write` transfer.  A power failure can happen after every effect on the flash: the model lists these states.
-/

namespace Verif.Persist

/-- SPIFFS: the content of each existing file. -/
abbrev FS := String → Option (List UInt8)

/-- The file `name` now has this content. -/
def FS.set (fs : FS) (name : String) (content : List UInt8) : FS := fun n => if n = name then some content else fs n

/-- What the file system does in one call: `open` succeeds, number of bytes transferred. -/
structure Io where
  opens : Bool
  moved : Nat

/-- `persistency.cpp:8-25` `readBinaryData(data, length, filename)`: result and the memory at `data`.  A file that does not exist cannot be
opened for reading; at most `length` bytes are read. -/
def readBinaryData (fs : FS) (io : Io) (data : List UInt8) (length : Nat) (name : String) : C (Bool × List UInt8) :=
  match fs name with
  | none => .ok (false, data)
  | some content =>
    if io.opens && decide (content.length ≥ length) then do
      let bytes := min io.moved length
      let data' ← storeSeq data 0 (content.take bytes)
      return (decide (bytes = length), data')
    else .ok (false, data)

/-- `persistency.cpp:27-45` `writeBinaryData(data, length, filename)`: result and the successive contents of the flash, the last one being
the final one.  Opening with `FILE_WRITE` (`"w"`) truncates the file; bytes are then appended one after another. -/
def writeBinaryData (fs : FS) (io : Io) (data : List UInt8) (length : Nat) (name : String) : C (Bool × List FS) :=
  if data.length < length then .error (.ub .oobRead)
  else if io.opens then
    let bytes := min io.moved length
    .ok (decide (bytes = length), fs :: (List.range (bytes + 1)).map fun k => fs.set name (data.take k))
  else .ok (false, [fs])

/-- The flash when the call returns. -/
def final (fs : FS) (states : List FS) : FS := states.getLast?.getD fs

end Verif.Persist
