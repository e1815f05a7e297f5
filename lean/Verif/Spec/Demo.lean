import Verif.Model.Runtime

/-!
# A concrete configuration, used only in the examples and counterexamples
-/

namespace Verif.Demo

/-- Everything cryptographic answers "no". -/
def ext : Ext where
  sha256 := fun _ => []
  certParses := fun _ => false
  dcapChainValid := fun _ _ _ => false
  iasCertValid := fun _ _ => false
  certVerifySig := fun _ _ _ _ => false
  p256Verify := fun _ _ _ => false
  x509Extensions := fun _ => none
  base64 := fun _ => none
  json := fun _ => none
  parseTime := fun _ => none
  parseDate := fun _ => none

/-- Configuration: existential deposit 10, unlock period 1000, u128 balances, u64 times. -/
def cfg : Cfg where
  ed := 10
  balMax := 2 ^ 128 - 1
  momentMax := 2 ^ 64 - 1
  blockMax := 2 ^ 32 - 1
  overflowChecks := false
  unlockPeriod := 1000
  momentsPerDay := 86400000
  maxRenewal := 172800000
  maxWhitelisted := 10
  maxBlob := 4096
  claimsPrefix := [80, 97, 121]
  moveClaimOrigin := fun o => o = .custom 1
  maxSchedules := 28
  assetOrigin := fun o => o = .root
  swapOrigin := fun o => o = .root
  shellParaId := 2223
  ksmParaId := 2015
  ownParaId := 2015
  keccak := fun b => Arr.fill 32 (UInt8.ofNat b.length)
  ecRecover := fun _ _ => some (Arr.zero 64)
  sendXcm := fun _ _ _ => .ok (Arr.zero 32)
  ext := ext

def alice : AccountId := Arr.fill 32 1
def bob : AccountId := Arr.fill 32 2
def carol : AccountId := Arr.fill 32 3

/-- Alice has 1000, Bob 500, nobody else anything. -/
def bal : Balances where
  free := fun a => if a = alice then 1000 else if a = bob then 500 else 0
  lock := fun _ _ => 0
  schedules := fun _ => []
  issuance := 1500

def noClaims : ClaimsSt where
  claims := fun _ => none
  total := 0
  vesting := fun _ => none
  signing := fun _ => none
  preclaims := fun _ => none
  events := []

/-- The chain starts at time 5000 in block 7; skipping attestation is allowed. -/
def start : Chain := { genesis bal false true noClaims with now := 5000, block := 7 }

end Verif.Demo
