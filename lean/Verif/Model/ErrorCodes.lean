import Verif.Model.ScaleEvents

/-!
# What the caller sees of a refusal

The `Error` enums of the pallets in the order of the source, and the bytes of the `DispatchError` that ends up in the
`ExtrinsicFailed` event of a refused call.
-/

namespace Verif

namespace Codes

/-- `Error`, teerdays/src/lib.rs L138-153. -/
inductive Td where
  | alreadyBonded | insufficientBond | insufficientUnbond | noBond | pendingUnlock | notUnlocking | badState

/-- `Error`, teerex/src/lib.rs L100-172. -/
inductive Tx where
  | enclaveSignerDecodeError | senderIsNotAttestedEnclave | remoteAttestationVerificationFailed
  | remoteAttestationIsTooOld | sgxModeIsNotAllowed | enclaveIsNotRegistered | enclaveUrlIsTooLong | raProofIsTooLong
  | emptyEnclaveRegistry | collateralIsInvalid | unregisterActiveEnclaveIsNotAllowed | skippingAttestationIsNotAllowed
  | missingTcbInfoForFmspc | tcbInfoIsOutdated
  | otherSgxVerifyError (e : SgxError)
  | caVerificationFailed | certificateChainIsInvalid | certificateChainIsTooShort | cpuSvnDecodingError
  | cpuSvnLengthMismatch | cpuSvnOidIsMissing | dcapKeyTypeMismatch | dcapQuoteDecodingError | dcapQuoteIsTooLong
  | dcapQuoteVersionMismatch | derEncodingError | enclaveIdentityDecodingError | enclaveIdentitySignatureIsInvalid
  | fmspcDecodingError | fmspcLengthMismatch | fmspcOidIsMissing | intelExtensionAmbiguity
  | intelExtensionCertificateDecodingError | isvEnclaveReportSignatureIsInvalid | keyLengthIsInvalid
  | leafCertificateParsingError | netscapeDecodingError | netscapeDerError | pceSvnDecodingError
  | pceSvnLengthMismatch | pceSvnOidIsMissing | pckCertFormatMismatch | publicKeyIsInvalid | qeHasRejectedEnclave
  | qeReportHashMismatch | quoteBodyDecodingError | quoteBodyIsInvalid | quoteBodyMissing | quoteStatusMissing
  | rsaSignatureIsInvalid | sgxReportParsingError | tcbInfoIsInvalid | timestampIsInvalid | timestampIsMissing

/-- `Error`, enclave-bridge/src/lib.rs L114-127. -/
inductive Br where
  | wrongFingerprintForShard | tooManyTopics | dataTooLong | tooManyEnclaves | enclaveNotFoundInShardStatus | shardNotFound

/-- `Error`, sidechain/src/lib.rs L70-81. -/
inductive Sc where
  | finalizationCandidateIsOutdated | ancestorNumberMismatch | ancestorHashMismatch | ancestorMissing

/-- `Error`, teeracle/src/lib.rs L126-141. -/
inductive Orc where
  | fingerprintWhitelistOverflow | fingerprintNotWhitelisted | fingerprintAlreadyWhitelisted
  | tradingPairStringTooLong | oracleDataNameStringTooLong | dataSourceStringTooLong | oracleBlobTooBig

/-- `Error`, claims/src/lib.rs L101-115. -/
inductive Cl where
  | invalidEthereumSignature | signerHasNoClaim | senderHasNoClaim | potUnderflow | invalidStatement
  | vestedBalanceExists

/-- `Error`, asset-registry/src/lib.rs L83-92. -/
inductive Ar where
  | assetAlreadyRegistered | assetDoesNotExist | assetIsNotRegistered | wrongLocation

/-- `Error`, xcm-transactor/src/lib.rs L72-92. -/
inductive Xt where
  | invalidSwapIds | swapIdsEqual | unreachable | transport | unroutable | destinationUnsupported | feesNotMet
  | xcmSendError

/-- `From<sgx_verify::Error>`, teerex/src/lib.rs L174-222. A panic is not an error of the library. -/
def Tx.ofSgx : SgxError → Option Tx
  | .panic => none
  | .caVerificationFailed => some .caVerificationFailed
  | .certificateChainIsInvalid => some .certificateChainIsInvalid
  | .certificateChainIsTooShort => some .certificateChainIsTooShort
  | .cpuSvnDecodingError => some .cpuSvnDecodingError
  | .cpuSvnLengthMismatch => some .cpuSvnLengthMismatch
  | .cpuSvnOidIsMissing => some .cpuSvnOidIsMissing
  | .dcapKeyTypeMismatch => some .dcapKeyTypeMismatch
  | .dcapQuoteDecodingError => some .dcapQuoteDecodingError
  | .dcapQuoteIsTooLong => some .dcapQuoteIsTooLong
  | .dcapQuoteVersionMismatch => some .dcapQuoteVersionMismatch
  | .derEncodingError => some .derEncodingError
  | .enclaveIdentityDecodingError => some .enclaveIdentityDecodingError
  | .enclaveIdentitySignatureIsInvalid => some .enclaveIdentitySignatureIsInvalid
  | .fmspcDecodingError => some .fmspcDecodingError
  | .fmspcLengthMismatch => some .fmspcLengthMismatch
  | .fmspcOidIsMissing => some .fmspcOidIsMissing
  | .intelExtensionAmbiguity => some .intelExtensionAmbiguity
  | .intelExtensionCertificateDecodingError => some .intelExtensionCertificateDecodingError
  | .isvEnclaveReportSignatureIsInvalid => some .isvEnclaveReportSignatureIsInvalid
  | .keyLengthIsInvalid => some .keyLengthIsInvalid
  | .leafCertificateParsingError => some .leafCertificateParsingError
  | .netscapeDecodingError => some .netscapeDecodingError
  | .netscapeDerError => some .netscapeDerError
  | .pceSvnDecodingError => some .pceSvnDecodingError
  | .pceSvnLengthMismatch => some .pceSvnLengthMismatch
  | .pceSvnOidIsMissing => some .pceSvnOidIsMissing
  | .pckCertFormatMismatch => some .pckCertFormatMismatch
  | .publicKeyIsInvalid => some .publicKeyIsInvalid
  | .qeHasRejectedEnclave => some .qeHasRejectedEnclave
  | .qeReportHashMismatch => some .qeReportHashMismatch
  | .quoteBodyDecodingError => some .quoteBodyDecodingError
  | .quoteBodyIsInvalid => some .quoteBodyIsInvalid
  | .quoteBodyMissing => some .quoteBodyMissing
  | .quoteStatusMissing => some .quoteStatusMissing
  | .rsaSignatureIsInvalid => some .rsaSignatureIsInvalid
  | .sgxReportParsingError => some .sgxReportParsingError
  | .tcbInfoIsInvalid => some .tcbInfoIsInvalid
  | .timestampIsInvalid => some .timestampIsInvalid
  | .timestampIsMissing => some .timestampIsMissing

/-- `RuntimeError` (external, generated from the pallets of the runtime), as far as the pallets of /repo go. -/
inductive Module where
  /-- teerdays/src/lib.rs L138-153 -/
  | td (e : Td)
  /-- teerex/src/lib.rs L100-172 -/
  | tx (e : Tx)
  /-- enclave-bridge/src/lib.rs L114-127 -/
  | br (e : Br)
  /-- sidechain/src/lib.rs L70-81 -/
  | sc (e : Sc)
  /-- teeracle/src/lib.rs L126-141 -/
  | orc (e : Orc)
  /-- claims/src/lib.rs L101-115 -/
  | cl (e : Cl)
  /-- asset-registry/src/lib.rs L83-92 -/
  | ar (e : Ar)
  /-- xcm-transactor/src/lib.rs L72-92 -/
  | xt (e : Xt)

/-- The derived encoding of an `Error` (the enums cited at `Td` to `Xt`): the position of the variant in the source,
then its field, if any (teerex/src/lib.rs L132; `sgx_verify::Error`, teerex/sgx-verify/src/lib.rs L67-108, derives its
encoding too; the panic at position 0 of `SgxError` is not in the source). -/
def Module.encode : Module → Bytes
  | .td e => [UInt8.ofNat e.ctorIdx]
  | .tx (.otherSgxVerifyError e) => [14, UInt8.ofNat (e.ctorIdx - 1)]
  | .tx e => [UInt8.ofNat e.ctorIdx]
  | .br e => [UInt8.ofNat e.ctorIdx]
  | .sc e => [UInt8.ofNat e.ctorIdx]
  | .orc e => [UInt8.ofNat e.ctorIdx]
  | .cl e => [UInt8.ofNat e.ctorIdx]
  | .ar e => [UInt8.ofNat e.ctorIdx]
  | .xt e => [UInt8.ofNat e.ctorIdx]

/-- The index of the pallet (`construct_runtime`, external). -/
def Module.index (ix : Scale.PalletIndex) : Module → UInt8
  | .td _ => ix.td
  | .tx _ => ix.tx
  | .br _ => ix.br
  | .sc _ => ix.sc
  | .orc _ => ix.orc
  | .cl _ => ix.cl
  | .ar _ => ix.ar
  | .xt _ => ix.xt

/-- `DispatchError` (external, sp-runtime), as far as it occurs. -/
inductive DispatchError where
  | other
  | badOrigin
  | module (index : UInt8) (error : Bytes)
  | token (e : UInt8)
  | arithmetic (e : UInt8)

/-- Encoding of `DispatchError` (external): the text of `Other` is skipped; a module error is its pallet and four
bytes. -/
def DispatchError.encode : DispatchError → Bytes
  | .other => [0]
  | .badOrigin => [2]
  | .module i e => 3 :: i :: e
  | .token e => [7, e]
  | .arithmetic e => [8, e]

/-- `From<Error<T>> for DispatchError` (external, generated by the pallet macro): the encoding of the error, filled up
with zeros to `MAX_MODULE_ERROR_ENCODED_SIZE`. -/
def Module.toDispatch (ix : Scale.PalletIndex) (m : Module) : DispatchError :=
  .module (m.index ix) (m.encode ++ List.replicate (4 - m.encode.length) 0)

/-- The error of the source for an error of the model. -/
inductive Source where
  /-- An error of one of the pallets. -/
  | pallet (m : Module)
  /-- An error of the framework. -/
  | dispatch (d : DispatchError)
  /-- No error: the runtime panics. -/
  | panic

/-- Which error of the source an error of the model stands for: the enums at `Td` to `Xt` by name; the text of
teerex/src/lib.rs L643; errors of the currency and of pallet_vesting (external: `TokenError` and `ArithmeticError`, by
position; an error of pallet_vesting ends in a panic, claims/src/lib.rs L489-490, and is given its own number here). -/
def sourceOf (vesting : UInt8) : Err → Source
  | .badOrigin => .dispatch .badOrigin
  | .panic => .panic
  | .other => .dispatch .other
  | .bal .fundsUnavailable => .dispatch (.token 0)
  | .bal .belowMinimum => .dispatch (.token 2)
  | .bal .frozen => .dispatch (.token 5)
  | .bal .overflow => .dispatch (.arithmetic 1)
  | .bal .atMaxVestingSchedules => .dispatch (.module vesting [1, 0, 0, 0])
  | .bal .invalidScheduleParams => .dispatch (.module vesting [4, 0, 0, 0])
  | .sgx e => match Tx.ofSgx e with
    | none => .panic
    | some m => .pallet (.tx m)
  | .alreadyBonded => .pallet (.td .alreadyBonded)
  | .insufficientBond => .pallet (.td .insufficientBond)
  | .insufficientUnbond => .pallet (.td .insufficientUnbond)
  | .noBond => .pallet (.td .noBond)
  | .pendingUnlock => .pallet (.td .pendingUnlock)
  | .notUnlocking => .pallet (.td .notUnlocking)
  | .senderIsNotAttestedEnclave => .pallet (.tx .senderIsNotAttestedEnclave)
  | .remoteAttestationIsTooOld => .pallet (.tx .remoteAttestationIsTooOld)
  | .sgxModeIsNotAllowed => .pallet (.tx .sgxModeIsNotAllowed)
  | .enclaveIsNotRegistered => .pallet (.tx .enclaveIsNotRegistered)
  | .enclaveUrlIsTooLong => .pallet (.tx .enclaveUrlIsTooLong)
  | .raProofIsTooLong => .pallet (.tx .raProofIsTooLong)
  | .collateralIsInvalid => .pallet (.tx .collateralIsInvalid)
  | .unregisterActiveEnclaveIsNotAllowed => .pallet (.tx .unregisterActiveEnclaveIsNotAllowed)
  | .skippingAttestationIsNotAllowed => .pallet (.tx .skippingAttestationIsNotAllowed)
  | .missingTcbInfoForFmspc => .pallet (.tx .missingTcbInfoForFmspc)
  | .tcbInfoIsOutdated => .pallet (.tx .tcbInfoIsOutdated)
  | .wrongFingerprintForShard => .pallet (.br .wrongFingerprintForShard)
  | .tooManyTopics => .pallet (.br .tooManyTopics)
  | .dataTooLong => .pallet (.br .dataTooLong)
  | .tooManyEnclaves => .pallet (.br .tooManyEnclaves)
  | .shardNotFound => .pallet (.br .shardNotFound)
  | .finalizationCandidateIsOutdated => .pallet (.sc .finalizationCandidateIsOutdated)
  | .ancestorNumberMismatch => .pallet (.sc .ancestorNumberMismatch)
  | .ancestorHashMismatch => .pallet (.sc .ancestorHashMismatch)
  | .ancestorMissing => .pallet (.sc .ancestorMissing)
  | .fingerprintWhitelistOverflow => .pallet (.orc .fingerprintWhitelistOverflow)
  | .fingerprintNotWhitelisted => .pallet (.orc .fingerprintNotWhitelisted)
  | .fingerprintAlreadyWhitelisted => .pallet (.orc .fingerprintAlreadyWhitelisted)
  | .tradingPairStringTooLong => .pallet (.orc .tradingPairStringTooLong)
  | .oracleDataNameStringTooLong => .pallet (.orc .oracleDataNameStringTooLong)
  | .dataSourceStringTooLong => .pallet (.orc .dataSourceStringTooLong)
  | .oracleBlobTooBig => .pallet (.orc .oracleBlobTooBig)
  | .invalidEthereumSignature => .pallet (.cl .invalidEthereumSignature)
  | .signerHasNoClaim => .pallet (.cl .signerHasNoClaim)
  | .senderHasNoClaim => .pallet (.cl .senderHasNoClaim)
  | .potUnderflow => .pallet (.cl .potUnderflow)
  | .invalidStatement => .pallet (.cl .invalidStatement)
  | .vestedBalanceExists => .pallet (.cl .vestedBalanceExists)
  | .assetAlreadyRegistered => .pallet (.ar .assetAlreadyRegistered)
  | .assetDoesNotExist => .pallet (.ar .assetDoesNotExist)
  | .assetIsNotRegistered => .pallet (.ar .assetIsNotRegistered)
  | .wrongLocation => .pallet (.ar .wrongLocation)
  | .invalidSwapIds => .pallet (.xt .invalidSwapIds)
  | .swapIdsEqual => .pallet (.xt .swapIdsEqual)
  | .unreachableDest => .pallet (.xt .unreachable)
  | .transport => .pallet (.xt .transport)
  | .unroutable => .pallet (.xt .unroutable)
  | .destinationUnsupported => .pallet (.xt .destinationUnsupported)
  | .feesNotMet => .pallet (.xt .feesNotMet)
  | .xcmSendError => .pallet (.xt .xcmSendError)

/-- The bytes of the `DispatchError` of a refused call (frame_system, external); nothing after a panic. -/
def receipt (ix : Scale.PalletIndex) (vesting : UInt8) (e : Err) : Option Bytes :=
  match sourceOf vesting e with
  | .pallet m => some (m.toDispatch ix).encode
  | .dispatch d => some d.encode
  | .panic => none

end Codes
end Verif
