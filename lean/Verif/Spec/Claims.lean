import Verif.Model.Runtime

/-!
# Specification vocabulary for claims
-/

namespace Verif

/-! ### The message signed on the Ethereum side -/

/-- A hexadecimal digit. -/
def hexDigit (n : Nat) : UInt8 := (asciiBytes "0123456789abcdef")[n]?.getD 0

/-- Lower case hexadecimal text. -/
def hexOf (b : Bytes) : Bytes := b.flatMap fun x => [hexDigit (x.toNat / 16), hexDigit (x.toNat % 16)]

/-- Decimal text, without leading zeros. -/
def decimal (n : Nat) : Bytes := (Nat.toDigits 10 n).map fun ch => UInt8.ofNat ch.toNat

/-- What `personal_sign` signs: header, decimal length, payload. -/
def personalMessage (payload : Bytes) : Bytes :=
  0x19 :: asciiBytes "Ethereum Signed Message:\n" ++ decimal payload.length ++ payload

/-- The text an Ethereum user signs for a claim: prefix, account in hex, statement. -/
def claimPayload (pre : Bytes) (dest : AccountId) (statement : Bytes) : Bytes := pre ++ hexOf dest.val ++ statement

/-- The signature over the claim message was made by the key of the Ethereum address. -/
def SignedBy (c : Cfg) (g : EthAddr) (sig : EthSig) (dest : AccountId) (statement : Bytes) : Prop :=
  ∃ pk, c.ecRecover sig (c.keccak (personalMessage (claimPayload c.claimsPrefix dest statement))) = some pk ∧
    g.val = (c.keccak pk.val).val.drop 12

/-- The text a claimant has to agree to. -/
def StatementKind.statement : StatementKind → Bytes
  | .regular => asciiBytes ("I hereby agree to the terms of the statement whose SHA-256 multihash is " ++
      "Qmc1XYqT6S39WNp2UeiRUrZichUWUPpGEThDE6dAb3f6Ny. (This may be found at the URL: " ++
      "https://statement.polkadot.network/regular.html)")
  | .saft => asciiBytes ("I hereby agree to the terms of the statement whose SHA-256 multihash is " ++
      "QmXEkMahfhHJPzT3RjkXiZVFi77ZeVeuxtAjhojGRNYckz. (This may be found at the URL: " ++
      "https://statement.polkadot.network/saft.html)")

/-! ### Accounting -/

/-- Sum of the open claims of the listed addresses. -/
def openClaims (m : EthAddr → Option Nat) (l : List EthAddr) : Nat := (l.map fun a => (m a).getD 0).sum

/-- Amount of a payment event. -/
def ClEvent.amount : ClEvent → Nat
  | .claimed _ _ n => n

/-- Address of a payment event. -/
def ClEvent.addr : ClEvent → EthAddr
  | .claimed _ g _ => g

/-- Everything paid out so far, as announced by events. -/
def paidOut (s : Chain) : Nat := (s.cl.events.map ClEvent.amount).sum

/-- The payments for one address, newest first. -/
def paymentsTo (s : Chain) (g : EthAddr) : List ClEvent := s.cl.events.filter fun e => e.addr = g

/-- Amount minted by an operation. -/
def Op.minted : Op → Nat
  | .ext _ (.claims (.mintClaim _ v _ _)) => v
  | _ => 0

/-- Everything minted in a history. -/
def mintedIn (acc : List (Chain × Op)) : Nat := (acc.map fun p => p.2.minted).sum

/-- No overflow of the recorded total: the sums fit into the balance type. -/
def Fits (c : Cfg) (total : Nat) (acc : List (Chain × Op)) : Prop := total + mintedIn acc ≤ c.balMax

/-- The open claims of any addresses are covered by the recorded total. -/
def Solvent (s : Chain) : Prop := ∀ l : List EthAddr, l.Nodup → openClaims s.cl.claims l ≤ s.cl.total

/-- The recorded total is exactly the sum of all open claims, of which there are finitely many. -/
def Exact (s : Chain) : Prop :=
  (∃ l : List EthAddr, ∀ a, s.cl.claims a ≠ none → a ∈ l) ∧
  ∀ l : List EthAddr, l.Nodup → (∀ a, s.cl.claims a ≠ none → a ∈ l) → openClaims s.cl.claims l = s.cl.total

/-- Address that an operation gives a new claim. -/
def Op.givesClaimTo : Op → Option EthAddr
  | .ext _ (.claims (.mintClaim who _ _ _)) => some who
  | .ext _ (.claims (.moveClaim _ new _)) => some new
  | _ => none

/-- The operation does not overwrite an open claim. -/
def NoOverwrite (p : Chain × Op) : Prop :=
  match p.2 with
  | .ext _ (.claims (.mintClaim who _ _ _)) => p.1.cl.claims who = none
  | .ext _ (.claims (.moveClaim old new _)) => old = new ∨ p.1.cl.claims old = none ∨ p.1.cl.claims new = none
  | _ => True

end Verif
