import Verif.Conformance.Bridge
import Verif.Conformance.Crypto
import Verif.Model.EthAddress
import Verif.Model.Fees

/-!
# The tests of claims/src/lib.rs on the model, with the real hash function and real signatures

The secret keys are those of the tests (claims/src/lib.rs L746-761: the Keccak hashes of the names). Addresses and
signatures below were made from them with an independent implementation of secp256k1. In the tests an account is a
`u64`, here it is 32 bytes, the number in little endian.
-/

namespace Verif.Conf.Claims

/-- `<[u8; n]>::try_from(l).unwrap_or_default()`. -/
def toArr (n : Nat) (l : Bytes) : Arr n := if h : l.length = n then ⟨l, h⟩ else Arr.zero n

/-- An account from its number. -/
def acc (n : Nat) : AccountId := toArr 32 (leBytes 32 n)

/-- The mock runtime, claims/src/lib.rs L667-744. -/
def c : Cfg := { mockCfg with
  balMax := 2 ^ 64 - 1
  claimsPrefix := asciiBytes "Pay RUSTs to the TEST account:"
  moveClaimOrigin := fun o => o = .signed (acc 6)
  keccak := fun l => toArr 32 (keccak256 l)
  ecRecover := fun sig h => (secp256k1.recover (ofBe h.val) sig.val).map (toArr 64) }

def aliceEth : EthAddr := toArr 20 (beBytes 20 0xbf0b5a4099f0bf6c8bc4252ebec548bae95602ea)
def bobEth : EthAddr := toArr 20 (beBytes 20 0x4dba461ca9342f4a6cf942abd7eacf8ae259108c)
def daveEth : EthAddr := toArr 20 (beBytes 20 0x159df268b1f1ee85e3ab80d75fd174606912b848)
def eveEth : EthAddr := toArr 20 (beBytes 20 0x3e760639888b75cefefacc5f399501b7c8106237)
def frankEth : EthAddr := toArr 20 (beBytes 20 0xe94b9d512b840564349dee9fe6d741e5bad54b6a)
def alice42 : EthSig := toArr 65 (beBytes 65
  0x8a26b997e4f1ec35e620411733b546ac32e9b9f743ca1360f9932c56f7603ecc644b7695eb6984d5e866fdb729416acf7be46ef76b5758612728a9f92c41021101)
def bob42 : EthSig := toArr 65 (beBytes 65
  0x368eec109ec53defdcf49bee666a892626a34e1a550872b5eaef742ad2b2f2c811c7ea8bdaf7051a4b472bdd0072865064789241e4cbea035a0b248375aef61c01)
def bob42R : EthSig := toArr 65 (beBytes 65
  0x5a31a586755a375c91cac721b3e65957b70ed1856d4016c3e2489adb330500287dc0c50d3ca6d7fc4789f086412e5daa98bb18075e2200f800c9e2d04f3ec34101)
def dave42 : EthSig := toArr 65 (beBytes 65
  0xfbd880054752162a619b901e6c4bee774a03fa7fc0af09906c84d5e9c3288fa36a6ef162d1f5e18d6d257765fbe4d2fa08b3167c7ade10a0943cb623b11e33ba01)
def eve42 : EthSig := toArr 65 (beBytes 65
  0xe5b2282a34c6fec79e315f11df80e84181ddcab72ed6379fa8f50871eeb8bdcf695e77f43f35fb57e336826431f7c55ef887758307ea3afd4f3faf664f6e1ca600)
def frank42 : EthSig := toArr 65 (beBytes 65
  0x1b3c0381ec48ae5cd8ded6477215ceddc18da32741bb2c5a14f184c7e2ba08aa20319f7960d93f7bdb4274a9962fb4a41ea5dd5fc2b2605720772bbf4b0ad64301)
def dave42S : EthSig := toArr 65 (beBytes 65
  0xe594e659e6e5ea066cb3e52f6873643dbb1ba7b412174b711f04898424939cb9328f14292ccf2f75fef8099ba1e12e3f2560b714804aab26470b539d540ff2fa01)
def dave42R : EthSig := toArr 65 (beBytes 65
  0x6bf9f2d60eb3b0f225a7144bd6ae4b0a50604c692fe8642ce0dfd901feec0f0a3c0163eb17c04adc5f2c8a5d024631478427553faaf49c062c1d77c2b20fcb5901)
def bob69 : EthSig := toArr 65 (beBytes 65
  0xb445597746f95195ceda24d6f60996e94d6bea46acde0e59056da30ae4a294c7686ed58a01fade5ef9d6150712402df2b6350cf0059ec279c7aa952676d48d2600)
def bob69R : EthSig := toArr 65 (beBytes 65
  0xfd9668fa00c7c458b0e1af73866683d9fb63fe9aa2e2dc26b321c58abb3a553a171fab90e1c89738eab94b3ebc4f6a1a6651e48f9c6f6367bf623999f398346000)
def alice69 : EthSig := toArr 65 (beBytes 65
  0x30f41ef4d91fff7e641540d7b3aa9638584bd526009da027426e26a12502ff9d46637575fef983ef6c024e28e2208de0e32c7fc08f5cc25c3d7a5ce1e6c5694801)
def alice1 : EthSig := toArr 65 (beBytes 65
  0x55d377aef2be32ff9bf39c35120fcbe3673d13a0835a53c3232a18ec76c25af62584199bd6b9df7609fb10fcbee9b04a301c75476ffc57120e8e8f14648503db00)
def bob1 : EthSig := toArr 65 (beBytes 65
  0x2b4cb80244f0d8c2dda9ea0e41607d6af9e414e70a818dcdc38e420d41e48ae66142157a905a2eb27932b3ed2371381bcdf79d9a3e5269e5c990cc881d314f7300)
def dave1R : EthSig := toArr 65 (beBytes 65
  0xd0943ec1adea9cbe6b06fbaaecd468dae57444e572fe7567cf0ca8ee9ffa09d976af545b03d306feda5d3780f37795afe63b6d59d8e031c11a295aca7ab3a0ba01)
def bob1R : EthSig := toArr 65 (beBytes 65
  0x4b3197a05ab5b314e2f7eed8a8f3e172737a978ee6bfd76e2a1ec316dacd18964d8257e375ae7682d0c5384321dbdba4588a27c2f46bf95a0aa0d2c9e2f8c66301)
def dave1S : EthSig := toArr 65 (beBytes 65
  0x8eeb6eca4df17fbb34de0858eae24d8ec02839bda0bcb8cd167a636b1ea71f6f5cc2718d7dcefdb763362cf36e00a4b94e675ffa2844b276cdfe29651b7a871400)

def regular : Bytes := StatementKind.regular.toText
def saft : Bytes := StatementKind.saft.toText

/-- `new_test_ext`, claims/src/lib.rs L765-783. -/
def ext : Option Chain :=
  match Claims.genesis c [⟨aliceEth, 100, none, none⟩, ⟨daveEth, 200, none, some .regular⟩,
      ⟨eveEth, 300, some (acc 42), some .saft⟩, ⟨frankEth, 400, some (acc 43), none⟩] [(aliceEth, ⟨50, 10, 1⟩)] with
  | .ok cl => some (genesis ⟨fun _ => 0, fun _ _ => 0, fun _ => [], 0⟩ true true cl)
  | .error _ => none

/-- The test passes from the genesis state. -/
def test (l : List Step) : Bool := match ext with
  | some s => play s l
  | none => false

def totalClaims : Nat := 100 + 200 + 300 + 400
def total (n : Nat) : Step := check fun s => s.cl.total = n
def bal (a n : Nat) : Step := check fun s => s.bal.free (acc a) = n
def vested (a : Nat) (v : Option Nat) : Step := check fun s => s.bal.vestingBalance s.block (acc a) = v
def call (o : Origin) (k : ClaimsCall) : Op := .ext o (.claims k)
def claim (a : Nat) (s : EthSig) : Op := call .none (.claim (acc a) s)
def claimAttest (a : Nat) (s : EthSig) (t : Bytes) : Op := call .none (.claimAttest (acc a) s t)
def attest (a : Nat) (t : Bytes) : Op := call (.signed (acc a)) (.attest t)
def mint (o : Origin) (v : Option VestingInfo) (k : Option StatementKind) : Op := call o (.mintClaim bobEth 200 v k)
def move (a : Nat) (old new : EthAddr) (p : Option Nat) : Op :=
  call (.signed (acc a)) (.moveClaim old new (p.map acc))

/-- The addresses belong to the keys of the tests: `eth(&alice())` with `keccak_256(b"Alice")` as secret key. -/
example : ((secp256k1.mul2 secp256k1.g secp256k1.g (ofBe (keccak256 (asciiBytes "Alice"))) 0).map fun q =>
    (keccak256 (beBytes 32 q.1 ++ beBytes 32 q.2)).drop 12) = some aliceEth.val := by decide +kernel

/-- `basic_setup_works`, claims/src/lib.rs L790-800. -/
example : test [total totalClaims, check fun s => s.cl.claims aliceEth = some 100,
    check fun s => s.cl.claims daveEth = some 200, check fun s => s.cl.claims eveEth = some 300,
    check fun s => s.cl.claims frankEth = some 400, check fun s => s.cl.claims (Arr.zero 20) = none,
    check fun s => s.cl.vesting aliceEth = some ⟨50, 10, 1⟩] = true := by decide +kernel

/-- `serde_works`, claims/src/lib.rs L803-809. -/
example : ethAddrToText (toArr 20 (beBytes 20 0x0123456789abcdef0123456789abcdef01234567)) =
    asciiBytes "0x0123456789abcdef0123456789abcdef01234567" := by decide +kernel
example : ethAddrOfText (asciiBytes "0x0123456789abcdef0123456789abcdef01234567") =
    .address (toArr 20 (beBytes 20 0x0123456789abcdef0123456789abcdef01234567)) := by decide +kernel

/-- `claiming_works`, claims/src/lib.rs L812-824. -/
example : test [bal 42 0, ok c (claim 42 alice42), bal 42 100, vested 42 (some 50), total (totalClaims - 100)] =
    true := by decide +kernel

/-- `basic_claim_moving_works`, claims/src/lib.rs L827-857. -/
example : test [bal 42 0, noop c (move 1 aliceEth bobEth none) .badOrigin, ok c (move 6 aliceEth bobEth none),
    noop c (claim 42 alice42) .signerHasNoClaim, ok c (claim 42 bob42), bal 42 100, vested 42 (some 50),
    total (totalClaims - 100)] = true := by decide +kernel

/-- `claim_attest_moving_works`, claims/src/lib.rs L860-877. -/
example : test [ok c (move 6 daveEth bobEth none), ok c (claimAttest 42 bob42R regular), bal 42 200] = true := by
  decide +kernel

/-- `attest_moving_works`, claims/src/lib.rs L880-894. -/
example : test [ok c (move 6 eveEth bobEth (some 42)), ok c (attest 42 saft), bal 42 300] = true := by
  decide +kernel

/-- `claiming_does_not_bypass_signing`, claims/src/lib.rs L897-926. -/
example : test [ok c (claim 42 alice42), noop c (claim 42 dave42) .invalidStatement,
    noop c (claim 42 eve42) .invalidStatement, ok c (claim 42 frank42)] = true := by decide +kernel

/-- `attest_claiming_works`, claims/src/lib.rs L929-970. -/
example : test [bal 42 0, noop c (claimAttest 42 dave42S saft) .invalidStatement,
    noop c (claimAttest 42 dave42S regular) .signerHasNoClaim, ok c (claimAttest 42 dave42R regular), bal 42 200,
    total (totalClaims - 200), noop c (claimAttest 42 dave42R regular) .signerHasNoClaim] = true := by
  decide +kernel

/-- `attesting_works`, claims/src/lib.rs L973-994. -/
example : test [bal 42 0, noop c (attest 69 saft) .senderHasNoClaim, noop c (attest 42 regular) .invalidStatement,
    ok c (attest 42 saft), bal 42 300, total (totalClaims - 300)] = true := by decide +kernel

/-- `claim_cannot_clobber_preclaim`, claims/src/lib.rs L997-1015. -/
example : test [bal 42 0, ok c (claim 42 alice42), bal 42 100, ok c (attest 42 saft), bal 42 (100 + 300),
    total (totalClaims - 400)] = true := by decide +kernel

/-- `PrevalidateAttests::validate(who, attest(t))` gives `ValidTransaction::default()`. -/
def valid (who : Nat) (t : Bytes) : Step := check fun s =>
  match Claims.prevalidate s (acc who) (.attest t) with
  | .ok v => v = ⟨0, [], [], 2 ^ 64 - 1, true⟩
  | .error _ => false
/-- It is an error. -/
def invalid (who : Nat) (t : Bytes) : Step := check fun s => !(Claims.prevalidate s (acc who) (.attest t)).isOk

/-- `valid_attest_transactions_are_free`, claims/src/lib.rs L1018-1029. -/
example : test [valid 42 saft] = true ∧ Call.declaredFree (.claims (.attest saft)) = true := by decide +kernel

/-- `invalid_attest_transactions_are_recognized`, claims/src/lib.rs L1032-1048. -/
example : test [invalid 42 regular, invalid 69 saft] = true := by decide +kernel

/-- `cannot_bypass_attest_claiming`, claims/src/lib.rs L1051-1058. -/
example : test [bal 42 0, noop c (claim 42 dave42) .invalidStatement] = true := by decide +kernel

/-- `add_claim_works`, claims/src/lib.rs L1061-1087. -/
example : test [noop c (mint (.signed (acc 42)) none none) .badOrigin, bal 42 0,
    noop c (claim 69 bob69) .signerHasNoClaim, ok c (mint .root none none), total (totalClaims + 200),
    ok c (claim 69 bob69), bal 69 200, vested 69 none, total totalClaims] = true := by decide +kernel

/-- `add_claim_with_vesting_works`, claims/src/lib.rs L1090-1137. -/
example : test [noop c (mint (.signed (acc 42)) (some ⟨50, 10, 1⟩) none) .badOrigin, bal 42 0,
    noop c (claim 69 bob69) .signerHasNoClaim, ok c (mint .root (some ⟨50, 10, 1⟩) none), ok c (claim 69 bob69),
    bal 69 200, vested 69 (some 50),
    noop c (.ext (.signed (acc 69)) (.balTransfer (acc 80) 180)) (.bal .frozen)] = true := by decide +kernel

/-- `add_claim_with_statement_works`, claims/src/lib.rs L1140-1182. -/
example : test [noop c (mint (.signed (acc 42)) none (some .regular)) .badOrigin, bal 42 0,
    noop c (claimAttest 69 bob69R regular) .signerHasNoClaim, ok c (mint .root none (some .regular)),
    noop c (claimAttest 69 bob69R []) .signerHasNoClaim, ok c (claimAttest 69 bob69R regular), bal 69 200] =
    true := by decide +kernel

/-- `origin_signed_claiming_fail`, claims/src/lib.rs L1185-1197. -/
example : test [bal 42 0, noop c (call (.signed (acc 42)) (.claim (acc 42) alice42)) .badOrigin] = true := by
  decide +kernel

/-- `double_claiming_doesnt_work`, claims/src/lib.rs L1200-1217. -/
example : test [bal 42 0, ok c (claim 42 alice42), noop c (claim 42 alice42) .signerHasNoClaim] = true := by
  decide +kernel

/-- `claiming_while_vested_doesnt_work`, claims/src/lib.rs L1220-1258. -/
example : test [setFree (acc 69) 1, ok c (.addVesting (acc 69) ⟨totalClaims, 100, 10⟩), setFree (acc 69) totalClaims,
    bal 69 totalClaims, ok c (mint .root (some ⟨50, 10, 1⟩) none), total (totalClaims + 200),
    noop c (claim 69 bob69) .vestedBalanceExists] = true := by decide +kernel

/-- `non_sender_sig_doesnt_work`, claims/src/lib.rs L1261-1273. -/
example : test [bal 42 0, noop c (claim 42 alice69) .signerHasNoClaim] = true := by decide +kernel

/-- `non_claimant_doesnt_work`, claims/src/lib.rs L1276-1288. -/
example : test [bal 42 0, noop c (claim 42 bob69) .signerHasNoClaim] = true := by decide +kernel

/-- `real_eth_sig_works`, claims/src/lib.rs L1291-1300: the signature and the address are those of the test. -/
example : Claims.ethRecover c (toArr 65 (beBytes 65
      0x444023e89b67e67c0562ed0305d252a5dd12b2af5ac51d6d3cb69a0b486bc4b3191401802dc29d26d586221f7256cd3329fe82174bdf659baea149a40e1c495d1c))
    (Claims.toAsciiHex [42, 0, 0, 0, 0, 0, 0, 0]) [] =
    some (toArr 20 (beBytes 20 0x6d31165d5d932d571f3b44695653b46dcc327e84)) := by decide +kernel

/-- `validate_unsigned(call)` succeeds with the tag of an address, or fails with a code. -/
def unsignedOk (k : ClaimsCall) (a : EthAddr) : Step := check fun s =>
  match Claims.validateUnsigned c s k with
  | .ok v => v = ⟨100, [], [Claims.providesTag a], 2 ^ 64 - 1, true⟩
  | .error _ => false
def unsignedErr (k : ClaimsCall) (code : Nat) : Step := check fun s =>
  match Claims.validateUnsigned c s k with
  | .ok _ => false
  | .error e => e = .custom code

/-- `validate_unsigned_works`, claims/src/lib.rs L1303-1402. -/
example : test [unsignedOk (.claim (acc 1) alice1) aliceEth, unsignedErr (.claim (acc 0) (Arr.zero 65)) 0,
    unsignedErr (.claim (acc 1) bob1) 1, unsignedOk (.claimAttest (acc 1) dave1R regular) daveEth,
    unsignedErr (.claimAttest (acc 1) (Arr.zero 65) regular) 0, unsignedErr (.claimAttest (acc 1) bob1R regular) 1,
    unsignedErr (.claimAttest (acc 1) dave1S regular) 1, unsignedErr (.claimAttest (acc 1) dave1S saft) 3] =
    true := by decide +kernel

end Verif.Conf.Claims
