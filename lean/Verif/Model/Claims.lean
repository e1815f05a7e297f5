import Verif.Model.State

/-!
# Model of claims/src/lib.rs and primitives/claims/src/lib.rs
-/

namespace Verif

/-- Bytes of an ASCII literal (`b"..."`, e.g. claims/src/lib.rs L454). -/
def asciiBytes (s : String) : Bytes := s.toList.map fun c => UInt8.ofNat c.toNat

/-- `StatementKind::to_text`, primitives/claims/src/lib.rs L74-85 (`\` at the end of a line removes the line
break and the following white space). -/
def StatementKind.toText : StatementKind → Bytes
  | .regular => asciiBytes ("I hereby agree to the terms of the statement whose SHA-256 multihash is " ++
      "Qmc1XYqT6S39WNp2UeiRUrZichUWUPpGEThDE6dAb3f6Ny. (This may be found at the URL: " ++
      "https://statement.polkadot.network/regular.html)")
  | .saft => asciiBytes ("I hereby agree to the terms of the statement whose SHA-256 multihash is " ++
      "QmXEkMahfhHJPzT3RjkXiZVFi77ZeVeuxtAjhojGRNYckz. (This may be found at the URL: " ++
      "https://statement.polkadot.network/saft.html)")

/-- The calls of pallet claims, claims/src/lib.rs L215, L248, L296, L337, L350. -/
inductive ClaimsCall where
  | claim (dest : AccountId) (sig : EthSig)
  | mintClaim (who : EthAddr) (value : Nat) (vesting : Option VestingInfo) (statement : Option StatementKind)
  | claimAttest (dest : AccountId) (sig : EthSig) (statement : Bytes)
  | attest (statement : Bytes)
  | moveClaim (old new : EthAddr) (preclaim : Option AccountId)
  deriving DecidableEq

namespace Claims

/-- `push_nibble`, claims/src/lib.rs L436. -/
def nibble (n : UInt8) : UInt8 := if n < 10 then 48 + n else 97 - 10 + n

/-- `to_ascii_hex`, claims/src/lib.rs L434-442. -/
def toAsciiHex : Bytes → Bytes
  | [] => []
  | b :: bs => nibble (b / 16) :: nibble (b % 16) :: toAsciiHex bs

/-- The loop of `ethereum_signable_message`, claims/src/lib.rs L449-453: decimal digits, least significant
first; nothing for zero. The first argument bounds the number of iterations. -/
def revDigits : Nat → Nat → Bytes
  | 0, _ => []
  | fuel + 1, l => if l = 0 then [] else UInt8.ofNat (48 + l % 10) :: revDigits fuel (l / 10)

/-- `b"\x19Ethereum Signed Message:\n"`, claims/src/lib.rs L454. -/
def messageHeader : Bytes := 0x19 :: (asciiBytes "Ethereum Signed Message:" ++ [10])

/-- `ethereum_signable_message`, claims/src/lib.rs L446-460. -/
def ethereumSignableMessage (c : Cfg) (what extra : Bytes) : Bytes :=
  let l := c.claimsPrefix.length + what.length + extra.length
  messageHeader ++ (revDigits l l).reverse ++ c.claimsPrefix ++ what ++ extra

/-- `eth_recover`, claims/src/lib.rs L464-470: the last 20 bytes of the hash of the recovered key. -/
def ethRecover (c : Cfg) (sig : EthSig) (what extra : Bytes) : Option EthAddr :=
  let msg := c.keccak (ethereumSignableMessage c what extra)
  (c.ecRecover sig msg).map fun pk => ⟨(c.keccak pk.val).val.drop 12, by simp [(c.keccak pk.val).property]⟩

/-- `process_claim`, claims/src/lib.rs L472-502. -/
def processClaim (c : Cfg) (s : Chain) (signer : EthAddr) (dest : AccountId) : Except Err Chain := do
  let due ← okOr (s.cl.claims signer) .signerHasNoClaim
  ensure (decide (due ≤ s.cl.total)) .potUnderflow
  let newTotal := s.cl.total - due
  let vesting := s.cl.vesting signer
  ensure (!(vesting.isSome && (s.bal.vestingBalance s.block dest).isSome)) .vestedBalanceExists
  let bal := s.bal.depositCreating c.ed c.balMax dest due
  let bal ←
    match vesting with
    | some v => mapErr (fun _ => .panic) (bal.addVesting c.maxSchedules s.block dest v)
    | none => pure bal
  .ok { s with
    bal := bal
    cl := { s.cl with
      total := newTotal
      claims := upd s.cl.claims signer none
      vesting := upd s.cl.vesting signer none
      signing := upd s.cl.signing signer none
      events := .claimed dest signer due :: s.cl.events } }

/-- `claim`, claims/src/lib.rs L215-229. -/
def claim (c : Cfg) (s : Chain) (o : Origin) (dest : AccountId) (sig : EthSig) : Except Err Chain := do
  ensureNone o
  let signer ← okOr (ethRecover c sig (toAsciiHex dest.val) []) .invalidEthereumSignature
  ensure (s.cl.signing signer).isNone .invalidStatement
  processClaim c s signer dest

/-- `mint_claim`, claims/src/lib.rs L248-266. -/
def mintClaim (c : Cfg) (s : Chain) (o : Origin) (who : EthAddr) (value : Nat) (vesting : Option VestingInfo)
    (statement : Option StatementKind) : Except Err Chain := do
  ensureRoot o
  let total ← plainAdd c c.balMax s.cl.total value
  .ok { s with cl := { s.cl with
    total := total
    claims := upd s.cl.claims who (some value)
    vesting := match vesting with
      | some v => upd s.cl.vesting who (some v)
      | none => s.cl.vesting
    signing := match statement with
      | some k => upd s.cl.signing who (some k)
      | none => s.cl.signing } }

/-- `claim_attest`, claims/src/lib.rs L296-312. -/
def claimAttest (c : Cfg) (s : Chain) (o : Origin) (dest : AccountId) (sig : EthSig) (statement : Bytes) :
    Except Err Chain := do
  ensureNone o
  let signer ← okOr (ethRecover c sig (toAsciiHex dest.val) statement) .invalidEthereumSignature
  ensure ((s.cl.signing signer).all fun k => k.toText == statement) .invalidStatement
  processClaim c s signer dest

/-- `attest`, claims/src/lib.rs L337-346. -/
def attest (c : Cfg) (s : Chain) (o : Origin) (statement : Bytes) : Except Err Chain := do
  let who ← ensureSigned o
  let signer ← okOr (s.cl.preclaims who) .senderHasNoClaim
  ensure ((s.cl.signing signer).all fun k => k.toText == statement) .invalidStatement
  let s ← processClaim c s signer who
  .ok { s with cl := { s.cl with preclaims := upd s.cl.preclaims who none } }

/-- `if let Some(c) = Map::take(old) { Map::insert(new, c) }`, claims/src/lib.rs L358-368. -/
def moveEntry {V : Type} (m : EthAddr → Option V) (old new : EthAddr) : EthAddr → Option V :=
  match m old with
  | some v => upd (upd m old none) new (some v)
  | none => m

/-- `move_claim`, claims/src/lib.rs L350-378. -/
def moveClaim (c : Cfg) (s : Chain) (o : Origin) (old new : EthAddr) (preclaim : Option AccountId) :
    Except Err Chain := do
  ensure (c.moveClaimOrigin o || decide (o = .root)) .badOrigin
  .ok { s with cl := { s.cl with
    claims := moveEntry s.cl.claims old new
    vesting := moveEntry s.cl.vesting old new
    signing := moveEntry s.cl.signing old new
    preclaims := match preclaim with
      | some p => if s.cl.preclaims p = some old then upd s.cl.preclaims p (some new) else s.cl.preclaims
      | none => s.cl.preclaims } }

/-- Dispatch of the pallet's calls, claims/src/lib.rs L187-379. -/
def dispatch (c : Cfg) (s : Chain) (o : Origin) : ClaimsCall → Except Err Chain
  | .claim dest sig => claim c s o dest sig
  | .mintClaim who value vesting statement => mintClaim c s o who value vesting statement
  | .claimAttest dest sig statement => claimAttest c s o dest sig statement
  | .attest statement => attest c s o statement
  | .moveClaim old new preclaim => moveClaim c s o old new preclaim

/-- `InvalidTransaction` (external) as used in claims/src/lib.rs L406-419, L586-590: `Call`, or `Custom` with
the number of a `ValidityError` (primitives/claims/src/lib.rs L33-42). -/
inductive Invalid where
  | call
  | custom (n : Nat)
  deriving DecidableEq

/-- `ValidTransaction` (external) as built in claims/src/lib.rs L422-428, L593. -/
structure ValidTransaction where
  priority : Nat
  requires : List Bytes
  provides : List Bytes
  longevity : Nat
  propagate : Bool
  deriving DecidableEq

/-- `ValidityError` numbers, primitives/claims/src/lib.rs L33-42. -/
def invalidEthereumSignatureCode : Nat := 0
/-- primitives/claims/src/lib.rs L37. -/
def signerHasNoClaimCode : Nat := 1
/-- primitives/claims/src/lib.rs L41. -/
def invalidStatementCode : Nat := 3

/-- `("claims", signer).encode()`, claims/src/lib.rs L425: SCALE of a 6 byte string (compact length 6 is
the byte 24) and of 20 bytes. -/
def providesTag (signer : EthAddr) : Bytes := 24 :: asciiBytes "claims" ++ signer.val

/-- `validate_unsigned`, claims/src/lib.rs L385-429. -/
def validateUnsigned (c : Cfg) (s : Chain) (call : ClaimsCall) : Except Invalid ValidTransaction := do
  let (maybeSigner, maybeStatement) ←
    match call with
    | .claim account sig => pure (ethRecover c sig (toAsciiHex account.val) [], (none : Option Bytes))
    | .claimAttest account sig statement =>
      pure (ethRecover c sig (toAsciiHex account.val) statement, some statement)
    | _ => .error .call
  let signer ← okOr maybeSigner (.custom invalidEthereumSignatureCode)
  ensure (s.cl.claims signer).isSome (.custom signerHasNoClaimCode)
  match s.cl.signing signer with
  | none => ensure maybeStatement.isNone (.custom invalidStatementCode)
  | some k => ensure (decide (some k.toText = maybeStatement)) (.custom invalidStatementCode)
  .ok { priority := 100, requires := [], provides := [providesTag signer], longevity := 2 ^ 64 - 1,
        propagate := true }

/-- `PrevalidateAttests::validate`, claims/src/lib.rs L577-594 (`pre_dispatch`, L564-572, is the same).
Calls of other pallets are accepted without a check, as the other calls of this pallet. -/
def prevalidate (s : Chain) (who : AccountId) (call : ClaimsCall) : Except Invalid ValidTransaction := do
  match call with
  | .attest statement => do
    let signer ← okOr (s.cl.preclaims who) (.custom signerHasNoClaimCode)
    match s.cl.signing signer with
    | some k => ensure (statement == k.toText) (.custom invalidStatementCode)
    | none => pure ()
  | _ => pure ()
  .ok { priority := 0, requires := [], provides := [], longevity := 2 ^ 64 - 1, propagate := true }

/-- One entry of `GenesisConfig::claims`, claims/src/lib.rs L146-147. -/
structure GenesisClaim where
  addr : EthAddr
  value : Nat
  preclaim : Option AccountId
  statement : Option StatementKind

/-- `GenesisConfig::build`, claims/src/lib.rs L151-182. The sum is a fold with plain `+`. -/
def genesis (c : Cfg) (claims : List GenesisClaim) (vesting : List (EthAddr × VestingInfo)) :
    Except Err ClaimsSt := do
  let total ← claims.foldlM (fun acc g => plainAdd c c.balMax acc g.value) 0
  .ok {
    claims := claims.foldl (fun m g => upd m g.addr (some g.value)) fun _ => none
    total := total
    vesting := vesting.foldl (fun m g => upd m g.1 (some g.2)) fun _ => none
    signing := claims.foldl (fun m g => match g.statement with
      | some k => upd m g.addr (some k)
      | none => m) fun _ => none
    preclaims := claims.foldl (fun m g => match g.preclaim with
      | some a => upd m a (some g.addr)
      | none => m) fun _ => none
    events := [] }

end Claims

end Verif
