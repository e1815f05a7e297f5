import Verif.Model.Hex

/-!
# Model of the text form of an Ethereum address, primitives/claims/src/lib.rs L94-123
-/

namespace Verif

/-- `Serialize for EthereumAddress`, primitives/claims/src/lib.rs L94-102: the string handed to the serializer. -/
def ethAddrToText (a : Arr 20) : Bytes := [48, 120] ++ hexEncode a.val

/-- Result of `Deserialize for EthereumAddress`, primitives/claims/src/lib.rs L104-125: an address, a reported error,
or a Rust panic. -/
inductive EthText where
  | address (a : Arr 20)
  | invalid
  | panic
  deriving DecidableEq

/-- `Deserialize for EthereumAddress`, primitives/claims/src/lib.rs L104-123, on the string obtained from the
deserializer. `len` and slicing count bytes; slicing at 2 behind "0x" is at a character boundary.
`copy_from_slice` (L120) panics if the lengths differ. -/
def ethAddrOfText (s : Bytes) : EthText :=
  let offset := if [48, 120].isPrefixOf s then 2 else 0
  let s := s.drop offset
  if s.length ≠ 40 then .invalid
  else
    match rustcFromHex s with
    | none => .invalid
    | some raw => if h : raw.length = 20 then .address ⟨raw, h⟩ else .panic

end Verif
