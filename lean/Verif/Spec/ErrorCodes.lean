import Verif.Spec.Refusal
import Verif.Spec.ScaleEvents

/-!
# Specification: the codes of refusals

The errors of each pallet in the order in which they are declared, the codes of the framework, and which errors each
call can report.
-/

namespace Verif

/-- The pallets. -/
inductive Pallet where
  | td | tx | br | sc | orc | cl | ar | xt

/-- The index of the pallet in the runtime. -/
def Pallet.number (ix : Scale.PalletIndex) : Pallet → UInt8
  | .td => ix.td
  | .tx => ix.tx
  | .br => ix.br
  | .sc => ix.sc
  | .orc => ix.orc
  | .cl => ix.cl
  | .ar => ix.ar
  | .xt => ix.xt

/-- The declared errors; `none` where no call uses the error. -/
def declared : Pallet → List (Option Err)
  | .td => [some .alreadyBonded, some .insufficientBond, some .insufficientUnbond, some .noBond, some .pendingUnlock,
      some .notUnlocking, none]
  | .tx => [none, some .senderIsNotAttestedEnclave, none, some .remoteAttestationIsTooOld, some .sgxModeIsNotAllowed,
      some .enclaveIsNotRegistered, some .enclaveUrlIsTooLong, some .raProofIsTooLong, none, some .collateralIsInvalid,
      some .unregisterActiveEnclaveIsNotAllowed, some .skippingAttestationIsNotAllowed, some .missingTcbInfoForFmspc,
      some .tcbInfoIsOutdated, none] ++
      [SgxError.caVerificationFailed, .certificateChainIsInvalid, .certificateChainIsTooShort, .cpuSvnDecodingError,
        .cpuSvnLengthMismatch, .cpuSvnOidIsMissing, .dcapKeyTypeMismatch, .dcapQuoteDecodingError, .dcapQuoteIsTooLong,
        .dcapQuoteVersionMismatch, .derEncodingError, .enclaveIdentityDecodingError, .enclaveIdentitySignatureIsInvalid,
        .fmspcDecodingError, .fmspcLengthMismatch, .fmspcOidIsMissing, .intelExtensionAmbiguity,
        .intelExtensionCertificateDecodingError, .isvEnclaveReportSignatureIsInvalid, .keyLengthIsInvalid,
        .leafCertificateParsingError, .netscapeDecodingError, .netscapeDerError, .pceSvnDecodingError,
        .pceSvnLengthMismatch, .pceSvnOidIsMissing, .pckCertFormatMismatch, .publicKeyIsInvalid, .qeHasRejectedEnclave,
        .qeReportHashMismatch, .quoteBodyDecodingError, .quoteBodyIsInvalid, .quoteBodyMissing, .quoteStatusMissing,
        .rsaSignatureIsInvalid, .sgxReportParsingError, .tcbInfoIsInvalid, .timestampIsInvalid,
        .timestampIsMissing].map fun e => some (Err.sgx e)
  | .br => [some .wrongFingerprintForShard, some .tooManyTopics, some .dataTooLong, some .tooManyEnclaves, none,
      some .shardNotFound]
  | .sc => [some .finalizationCandidateIsOutdated, some .ancestorNumberMismatch, some .ancestorHashMismatch,
      some .ancestorMissing]
  | .orc => [some .fingerprintWhitelistOverflow, some .fingerprintNotWhitelisted, some .fingerprintAlreadyWhitelisted,
      some .tradingPairStringTooLong, some .oracleDataNameStringTooLong, some .dataSourceStringTooLong,
      some .oracleBlobTooBig]
  | .cl => [some .invalidEthereumSignature, some .signerHasNoClaim, some .senderHasNoClaim, some .potUnderflow,
      some .invalidStatement, some .vestedBalanceExists]
  | .ar => [some .assetAlreadyRegistered, some .assetDoesNotExist, some .assetIsNotRegistered, some .wrongLocation]
  | .xt => [some .invalidSwapIds, some .swapIdsEqual, some .unreachableDest, some .transport, some .unroutable,
      some .destinationUnsupported, some .feesNotMet, some .xcmSendError]

/-- The code of an error of a pallet: 3, the pallet, the position of the error, three zeros. -/
def moduleCode (ix : Scale.PalletIndex) (p : Pallet) (i : Nat) : Bytes := [3, p.number ix, UInt8.ofNat i, 0, 0, 0]

/-- The codes of the framework. -/
def frameworkCodes : List (Err × Bytes) :=
  [(.other, [0]), (.badOrigin, [2]), (.bal .fundsUnavailable, [7, 0]), (.bal .belowMinimum, [7, 2]),
   (.bal .frozen, [7, 5]), (.bal .overflow, [8, 1])]

/-- The bytes say that this is the error. -/
def Says (ix : Scale.PalletIndex) (b : Bytes) (e : Err) : Prop :=
  (∃ p i, (declared p)[i]? = some (some e) ∧ b = moduleCode ix p i) ∨ (e, b) ∈ frameworkCodes

/-! ### The errors of each call -/

/-- Errors of transfers. -/
def payErrors : List Err := [.bal .fundsUnavailable, .bal .frozen, .bal .overflow, .bal .belowMinimum]

/-- Errors of calls of enclaves. -/
def enclaveErrors : List Err := [.badOrigin, .enclaveIsNotRegistered, .wrongFingerprintForShard, .tooManyEnclaves]

/-- Errors of the verification of certificate chains. -/
def chainErrors : List Err :=
  [.sgx .certificateChainIsTooShort, .sgx .leafCertificateParsingError, .sgx .certificateChainIsInvalid]

/-- Errors of payments of claims. -/
def claimErrors : List Err := [.signerHasNoClaim, .potUnderflow, .vestedBalanceExists]

/-- The errors that a call can report. -/
def mayReport : Call → List Err
  | .bond _ => [.badOrigin, .alreadyBonded, .insufficientBond]
  | .bondExtra _ => [.badOrigin, .pendingUnlock, .insufficientBond, .noBond]
  | .unbond _ => [.badOrigin, .pendingUnlock, .insufficientUnbond, .noBond]
  | .updateOther _ => [.badOrigin, .noBond]
  | .withdrawUnbonded => [.badOrigin, .notUnlocking, .pendingUnlock]
  | .registerSgxEnclave _ _ m => [.badOrigin, .raProofIsTooLong, .enclaveUrlIsTooLong] ++
      match m with
      | .ias => [.sgx .netscapeDecodingError, .sgx .netscapeDerError, .sgx .rsaSignatureIsInvalid,
          .sgx .caVerificationFailed, .sgx .sgxReportParsingError, .sgx .timestampIsMissing, .sgx .timestampIsInvalid,
          .sgx .quoteStatusMissing, .sgx .quoteBodyMissing, .sgx .quoteBodyDecodingError, .sgx .quoteBodyIsInvalid,
          .other, .remoteAttestationIsTooOld, .senderIsNotAttestedEnclave, .sgxModeIsNotAllowed]
      | .dcap _ => chainErrors ++ [.sgx .dcapQuoteDecodingError, .sgx .dcapQuoteVersionMismatch,
          .sgx .dcapKeyTypeMismatch, .sgx .pckCertFormatMismatch, .sgx .qeHasRejectedEnclave,
          .sgx .intelExtensionCertificateDecodingError, .sgx .intelExtensionAmbiguity, .sgx .fmspcOidIsMissing,
          .sgx .fmspcLengthMismatch, .sgx .cpuSvnOidIsMissing, .sgx .cpuSvnLengthMismatch, .sgx .pceSvnOidIsMissing,
          .sgx .pceSvnDecodingError, .sgx .pceSvnLengthMismatch, .sgx .qeReportHashMismatch,
          .sgx .isvEnclaveReportSignatureIsInvalid, .sgx .rsaSignatureIsInvalid, .sgx .dcapQuoteIsTooLong,
          .senderIsNotAttestedEnclave, .missingTcbInfoForFmspc, .tcbInfoIsOutdated, .sgxModeIsNotAllowed]
      | .skip _ => [.skippingAttestationIsNotAllowed]
  | .unregisterSovereignEnclave _ | .unregisterProxiedEnclave _ =>
      [.badOrigin, .enclaveIsNotRegistered, .unregisterActiveEnclaveIsNotAllowed]
  | .registerQuotingEnclave _ _ _ => .badOrigin :: chainErrors ++ [.sgx .keyLengthIsInvalid,
      .sgx .enclaveIdentitySignatureIsInvalid, .sgx .enclaveIdentityDecodingError, .collateralIsInvalid]
  | .registerTcbInfo _ _ _ => .badOrigin :: chainErrors ++ [.sgx .keyLengthIsInvalid, .sgx .rsaSignatureIsInvalid,
      .sgx .tcbInfoIsInvalid, .collateralIsInvalid]
  | .setSecurityFlags _ _ | .invoke _ _ => [.badOrigin]
  | .confirmProcessedParentchainBlock _ _ _ _ => enclaveErrors
  | .shieldFunds _ _ _ | .balTransfer _ _ => .badOrigin :: payErrors
  | .unshieldFunds _ _ _ _ => enclaveErrors ++ payErrors
  | .publishHash _ _ _ => [.badOrigin, .enclaveIsNotRegistered, .tooManyEnclaves, .tooManyTopics, .dataTooLong]
  | .updateShardConfig _ _ _ => enclaveErrors
  | .purgeEnclave _ _ => [.badOrigin, .shardNotFound]
  | .confirmImportedSidechainBlock _ _ _ => enclaveErrors ++
      [.ancestorMissing, .finalizationCandidateIsOutdated, .ancestorNumberMismatch, .ancestorHashMismatch]
  | .addToWhitelist _ _ =>
      [.badOrigin, .dataSourceStringTooLong, .fingerprintAlreadyWhitelisted, .fingerprintWhitelistOverflow]
  | .removeFromWhitelist _ _ => [.badOrigin, .fingerprintNotWhitelisted]
  | .updateOracle _ _ _ => [.badOrigin, .enclaveIsNotRegistered, .fingerprintNotWhitelisted,
      .oracleDataNameStringTooLong, .dataSourceStringTooLong, .oracleBlobTooBig]
  | .updateExchangeRate _ _ _ =>
      [.badOrigin, .enclaveIsNotRegistered, .tradingPairStringTooLong, .fingerprintNotWhitelisted]
  | .claims (.claim _ _) | .claims (.claimAttest _ _ _) =>
      [.badOrigin, .invalidEthereumSignature, .invalidStatement] ++ claimErrors
  | .claims (.attest _) => [.badOrigin, .senderHasNoClaim, .invalidStatement] ++ claimErrors
  | .claims (.mintClaim _ _ _ _) | .claims (.moveClaim _ _ _) => [.badOrigin]
  | .registerReserveAsset _ _ => [.badOrigin, .assetDoesNotExist, .assetAlreadyRegistered, .wrongLocation]
  | .unregisterReserveAsset _ => [.badOrigin, .assetIsNotRegistered]
  | .sendSwapUmp _ _ _ _ => [.badOrigin, .swapIdsEqual, .invalidSwapIds, .unreachableDest, .transport, .unroutable,
      .destinationUnsupported, .feesNotMet, .xcmSendError]

end Verif
