import Verif.Base

/-!
# Model of primitives/common/src/lib.rs
-/

namespace Verif

/-- `EnclaveFingerprint = H256`, primitives/common/src/lib.rs L39. -/
abbrev Fingerprint := H256
/-- `ShardIdentifier = H256`, primitives/common/src/lib.rs L40. -/
abbrev ShardId := H256

/-- `sp_runtime::MultiSigner` (external): the three key types. -/
inductive MultiSigner where
  | ed25519 (k : Arr 32)
  | sr25519 (k : Arr 32)
  | ecdsa (k : Arr 33)
  deriving DecidableEq

/-- `AnySigner`, primitives/common/src/lib.rs L58-67. `Opaque` holds a `BoundedVec<u8, 66>`; the bound is
enforced where the value is built (`opaqueTryFrom`), so the payload here is plain bytes. -/
inductive AnySigner where
  | opaque (b : Bytes)
  | known (s : MultiSigner)
  deriving DecidableEq

/-- `OpaqueSigner::try_from(vec)`: `BoundedVec<u8, ConstU32<66>>`, primitives/common/src/lib.rs L38. -/
def opaqueTryFrom (b : Bytes) : Option Bytes := if b.length ≤ 66 then some b else none

/-- `From<[u8; 32]> for AnySigner`, primitives/common/src/lib.rs L69-78. `none` is the `expect` panic. -/
def AnySigner.from32 (k : Arr 32) : Option AnySigner :=
  (opaqueTryFrom (k.val ++ List.replicate 34 0)).map .opaque

/-- `From<[u8; 64]> for AnySigner`, primitives/common/src/lib.rs L80-87. `none` is the `expect` panic. -/
def AnySigner.from64 (k : Arr 64) : Option AnySigner :=
  (opaqueTryFrom (k.val ++ List.replicate 2 0)).map .opaque

end Verif
