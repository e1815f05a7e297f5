import Verif.Base
import Verif.Model.AssetRegistry
import Verif.Model.Balances
import Verif.Model.Base64
import Verif.Model.Claims
import Verif.Model.Collateral
import Verif.Model.CommonPrimitives
import Verif.Model.DateText
import Verif.Model.EnclaveBridge
import Verif.Model.EnclaveInfo
import Verif.Model.EphemeralKey
import Verif.Model.ErrorCodes
import Verif.Model.EthAddress
import Verif.Model.Fees
import Verif.Model.Hex
import Verif.Model.Json
import Verif.Model.JsonText
import Verif.Model.Migrations
import Verif.Model.RawMigrations
import Verif.Model.Runtime
import Verif.Model.Scale
import Verif.Model.ScaleEvents
import Verif.Model.ScaleXcm
import Verif.Model.SgxVerify
import Verif.Model.Sidechain
import Verif.Model.State
import Verif.Model.Teeracle
import Verif.Model.Teerdays
import Verif.Model.Teerex
import Verif.Model.TeerexPrimitives
import Verif.Model.Trie
import Verif.Model.Weights
import Verif.Model.XcmPrimitives
import Verif.Model.XcmTransactor
import Verif.Model.XcmTypes
import Verif.Spec.Accept
import Verif.Spec.Base64
import Verif.Spec.Bridge
import Verif.Spec.Build
import Verif.Spec.Calendar
import Verif.Spec.Claims
import Verif.Spec.Collateral
import Verif.Spec.Demo
import Verif.Spec.DemoBridge
import Verif.Spec.DemoSgx
import Verif.Spec.Der
import Verif.Spec.Effect
import Verif.Spec.EphemeralKey
import Verif.Spec.ErrorCodes
import Verif.Spec.Escapes
import Verif.Spec.Events
import Verif.Spec.Frame
import Verif.Spec.Growth
import Verif.Spec.Hinder
import Verif.Spec.History
import Verif.Spec.JsonText
import Verif.Spec.LastCollateral
import Verif.Spec.LastWrite
import Verif.Spec.Ledger
import Verif.Spec.Locality
import Verif.Spec.Money
import Verif.Spec.News
import Verif.Spec.Outsider
import Verif.Spec.PckCert
import Verif.Spec.Quote
import Verif.Spec.QuoteParts
import Verif.Spec.RawMigrations
import Verif.Spec.RawStorage
import Verif.Spec.Reach
import Verif.Spec.Reads
import Verif.Spec.Refusal
import Verif.Spec.Renewal
import Verif.Spec.Retry
import Verif.Spec.RootLimits
import Verif.Spec.Scale
import Verif.Spec.ScaleEvents
import Verif.Spec.ScaleXcm
import Verif.Spec.Shard
import Verif.Spec.Sidechain
import Verif.Spec.StorageMap
import Verif.Spec.Succession
import Verif.Spec.Takeover
import Verif.Spec.Teeracle
import Verif.Spec.Teerdays
import Verif.Spec.Teerex
import Verif.Spec.Timeline
import Verif.Spec.Trust
import Verif.Spec.Upgrade
import Verif.Spec.Weights
import Verif.Spec.Xcm
import Verif.Proofs.Balances
import Verif.Proofs.Base64
import Verif.Proofs.BridgeInv
import Verif.Proofs.Calendar
import Verif.Proofs.ClaimsInv
import Verif.Proofs.Currency
import Verif.Proofs.Der
import Verif.Proofs.Escapes
import Verif.Proofs.Frame
import Verif.Proofs.Hex
import Verif.Proofs.IasReport
import Verif.Proofs.InvBridge
import Verif.Proofs.InvRest
import Verif.Proofs.InvTeerex
import Verif.Proofs.Inversion
import Verif.Proofs.Issuance
import Verif.Proofs.Json
import Verif.Proofs.JsonText
import Verif.Proofs.Ledger
import Verif.Proofs.PckCert
import Verif.Proofs.Pem
import Verif.Proofs.PemSplit
import Verif.Proofs.Quote
import Verif.Proofs.Refusal
import Verif.Proofs.Scale
import Verif.Proofs.Teerdays
import Verif.Proofs.TeerdaysInv
import Verif.Proofs.TeerexInv
import Verif.Proofs.Utf8
import Verif.Proofs.Verify
import Verif.Props.Accept
import Verif.Props.Armour
import Verif.Props.Bridge
import Verif.Props.Build
import Verif.Props.Claims
import Verif.Props.ClaimsFate
import Verif.Props.Confirmations
import Verif.Props.Effect
import Verif.Props.EnclaveInfo
import Verif.Props.Encoding
import Verif.Props.EphemeralKey
import Verif.Props.ErrorCodes
import Verif.Props.Escapes
import Verif.Props.Events
import Verif.Props.Fees
import Verif.Props.Frame
import Verif.Props.Growth
import Verif.Props.Hinder
import Verif.Props.History
import Verif.Props.LastActivity
import Verif.Props.LastCollateral
import Verif.Props.LastRegistration
import Verif.Props.LastWrite
import Verif.Props.Ledger
import Verif.Props.Lifecycle
import Verif.Props.Limits
import Verif.Props.LimitsLast
import Verif.Props.LimitsMore
import Verif.Props.Locality
import Verif.Props.Migrations
import Verif.Props.Networks
import Verif.Props.News
import Verif.Props.Outsider
import Verif.Props.PckCert
import Verif.Props.Platform
import Verif.Props.Pool
import Verif.Props.Primitives
import Verif.Props.Published
import Verif.Props.QuotingEnclave
import Verif.Props.RawMigrations
import Verif.Props.RawStorage
import Verif.Props.Reach
import Verif.Props.Reads
import Verif.Props.Reasons
import Verif.Props.Refusal
import Verif.Props.Renewal
import Verif.Props.Retry
import Verif.Props.RootLimits
import Verif.Props.Scale
import Verif.Props.ScaleEvents
import Verif.Props.ScaleRun
import Verif.Props.ScaleXcm
import Verif.Props.Sgx
import Verif.Props.Sharp
import Verif.Props.Sidechain
import Verif.Props.StorageMap
import Verif.Props.Succession
import Verif.Props.Takeover
import Verif.Props.Teeracle
import Verif.Props.Teerdays
import Verif.Props.TeerdaysAge
import Verif.Props.TeerdaysExit
import Verif.Props.TeerdaysTotal
import Verif.Props.Teerex
import Verif.Props.Texts
import Verif.Props.Timeline
import Verif.Props.Trust
import Verif.Props.Upgrades
import Verif.Props.Vesting
import Verif.Props.Weights
import Verif.Props.Xcm
import Verif.Conformance.AssetRegistry
import Verif.Conformance.Basic
import Verif.Conformance.Bridge
import Verif.Conformance.Claims
import Verif.Conformance.Crypto
import Verif.Conformance.Dcap
import Verif.Conformance.DcapData
import Verif.Conformance.External
import Verif.Conformance.Ias
import Verif.Conformance.IasData
import Verif.Conformance.Migrations
import Verif.Conformance.Sidechain
import Verif.Conformance.Teeracle
import Verif.Conformance.Teerdays
import Verif.Axioms
