import Verif.Concrete.Bip32
import Verif.Concrete.Bip32Lawful
import Verif.Concrete.Ecdsa
import Verif.Concrete.EcdsaArith
import Verif.Concrete.EcdsaCurve
import Verif.Concrete.EcdsaLawful
import Verif.Concrete.EcdsaOrder
import Verif.Concrete.EcdsaRecover
import Verif.Concrete.FastPbkdf
import Verif.Concrete.FastPbkdfDef
import Verif.Concrete.Ripemd
import Verif.Concrete.Seed
import Verif.Concrete.Seed0
import Verif.Concrete.Seed1
import Verif.Concrete.Seed2
import Verif.Concrete.Seed3
import Verif.Concrete.SeedBase
import Verif.Concrete.Sha2
import Verif.Concrete.ToySecp
import Verif.Concrete.Words
import Verif.Concrete.WordsLawful
import Verif.Model.Api
import Verif.Model.ApiValue
import Verif.Model.Auth
import Verif.Model.B58
import Verif.Model.Basic
import Verif.Model.Builder
import Verif.Model.C32
import Verif.Model.Clarity
import Verif.Model.CodecCost
import Verif.Model.Condition
import Verif.Model.Cost
import Verif.Model.CrateError
import Verif.Model.Debug
import Verif.Model.Derive
import Verif.Model.ErrorText
import Verif.Model.FeeOrder
import Verif.Model.Hash
import Verif.Model.HashValue
import Verif.Model.Hex
import Verif.Model.HexIter
import Verif.Model.InPlace
import Verif.Model.JsonRead
import Verif.Model.JsonText
import Verif.Model.Macro
import Verif.Model.Mnemonic
import Verif.Model.Network
import Verif.Model.Open
import Verif.Model.Orders
import Verif.Model.Payload
import Verif.Model.Release
import Verif.Model.Rpc
import Verif.Model.RpcJson
import Verif.Model.Target32
import Verif.Model.Transaction
import Verif.Model.Unwritten
import Verif.Model.Wallet
import Verif.Proofs.Address
import Verif.Proofs.B58
import Verif.Proofs.Basic
import Verif.Proofs.C32
import Verif.Proofs.C32Check
import Verif.Proofs.CVDecEq
import Verif.Proofs.Canonical
import Verif.Proofs.Clarity
import Verif.Proofs.ClarityDecode
import Verif.Proofs.ClarityDecodeErr
import Verif.Proofs.ClarityErrors
import Verif.Proofs.ClarityMain
import Verif.Proofs.ClarityPanic
import Verif.Proofs.ClarityTrunc
import Verif.Proofs.CodecCost
import Verif.Proofs.Condition
import Verif.Proofs.Cost
import Verif.Proofs.CrateError
import Verif.Proofs.CutShort
import Verif.Proofs.Debug
import Verif.Proofs.Depth
import Verif.Proofs.Derive
import Verif.Proofs.Display
import Verif.Proofs.ErrorText
import Verif.Proofs.Failures
import Verif.Proofs.FailuresRpc
import Verif.Proofs.FailuresTx
import Verif.Proofs.FeeOrder
import Verif.Proofs.Flow
import Verif.Proofs.HashFunctions
import Verif.Proofs.HashValue
import Verif.Proofs.Hex
import Verif.Proofs.HexIter
import Verif.Proofs.JsonBody
import Verif.Proofs.JsonRead
import Verif.Proofs.JsonText
import Verif.Proofs.Literal
import Verif.Proofs.Macro
import Verif.Proofs.Mixed
import Verif.Proofs.Mnemonic
import Verif.Proofs.Num
import Verif.Proofs.Open
import Verif.Proofs.Orders
import Verif.Proofs.Panics
import Verif.Proofs.Payload
import Verif.Proofs.PayloadErrors
import Verif.Proofs.Release
import Verif.Proofs.Returns
import Verif.Proofs.ReturnsTx
import Verif.Proofs.Rpc
import Verif.Proofs.Schedule
import Verif.Proofs.Signer
import Verif.Proofs.Signing
import Verif.Proofs.Target32
import Verif.Proofs.Transaction
import Verif.Proofs.TransactionErrors
import Verif.Proofs.TxLemmas
import Verif.Proofs.Verify
import Verif.Proofs.WalletEq
import Verif.Props.Address
import Verif.Props.Admission
import Verif.Props.B58
import Verif.Props.Binding
import Verif.Props.Bip32
import Verif.Props.Builder
import Verif.Props.C32
import Verif.Props.Canonical
import Verif.Props.Clarity
import Verif.Props.ClarityErrors
import Verif.Props.ClarityText
import Verif.Props.ClarityValue
import Verif.Props.CodecCost
import Verif.Props.Condition
import Verif.Props.CrateError
import Verif.Props.Derive
import Verif.Props.EcdsaVerify
import Verif.Props.EndToEnd
import Verif.Props.Enforce
import Verif.Props.Equality
import Verif.Props.ErrorText
import Verif.Props.Failures
import Verif.Props.FeeOrder
import Verif.Props.Hash
import Verif.Props.HashFunctions
import Verif.Props.HashValue
import Verif.Props.Hex
import Verif.Props.HexIter
import Verif.Props.InPlace
import Verif.Props.JsonRead
import Verif.Props.JsonText
import Verif.Props.Macro
import Verif.Props.Mixed
import Verif.Props.Mnemonic
import Verif.Props.Names
import Verif.Props.Node
import Verif.Props.Open
import Verif.Props.OpenBinding
import Verif.Props.Order
import Verif.Props.Orders
import Verif.Props.Panics
import Verif.Props.Payload
import Verif.Props.Payments
import Verif.Props.ReadOnly
import Verif.Props.Reader
import Verif.Props.Relay
import Verif.Props.Release
import Verif.Props.Resources
import Verif.Props.Returns
import Verif.Props.Rfc6979
import Verif.Props.Rpc
import Verif.Props.RpcErrors
import Verif.Props.RpcJson
import Verif.Props.Schedule
import Verif.Props.Secp256k1
import Verif.Props.Separate
import Verif.Props.SeveralKeysFee
import Verif.Props.Signing
import Verif.Props.SponsorFee
import Verif.Props.SponsorMembers
import Verif.Props.Sponsored
import Verif.Props.StructAnswer
import Verif.Props.Target32
import Verif.Props.Transaction
import Verif.Props.TransactionErrors
import Verif.Props.TxId
import Verif.Props.Types
import Verif.Props.Unreported
import Verif.Props.Verify
import Verif.Props.Wallet
import Verif.Props.WalletAddress
import Verif.Props.WalletCases
import Verif.Props.WalletEq
import Verif.Spec.Address
import Verif.Spec.AddressText
import Verif.Spec.Admission
import Verif.Spec.Assoc
import Verif.Spec.B58
import Verif.Spec.Binding
import Verif.Spec.Bip32
import Verif.Spec.Box
import Verif.Spec.C32
import Verif.Spec.Canonical
import Verif.Spec.Clarity
import Verif.Spec.ClarityErrors
import Verif.Spec.ClarityLiteral
import Verif.Spec.ClarityText
import Verif.Spec.Condition
import Verif.Spec.ConditionText
import Verif.Spec.CrateError
import Verif.Spec.CutShort
import Verif.Spec.Derive
import Verif.Spec.Ecdsa
import Verif.Spec.EndToEnd
import Verif.Spec.Enforce
import Verif.Spec.ErrorText
import Verif.Spec.Failures
import Verif.Spec.FeeOrder
import Verif.Spec.HashFunctions
import Verif.Spec.Hex
import Verif.Spec.InPlace
import Verif.Spec.JsonBody
import Verif.Spec.JsonRead
import Verif.Spec.JsonText
import Verif.Spec.Macro
import Verif.Spec.Mixed
import Verif.Spec.Mnemonic
import Verif.Spec.Names
import Verif.Spec.Node
import Verif.Spec.Num
import Verif.Spec.Open
import Verif.Spec.Orders
import Verif.Spec.Panics
import Verif.Spec.Payload
import Verif.Spec.Payments
import Verif.Spec.ReadOnly
import Verif.Spec.Relay
import Verif.Spec.Release
import Verif.Spec.Resources
import Verif.Spec.Returns
import Verif.Spec.Rfc6979
import Verif.Spec.Rpc
import Verif.Spec.Schedule
import Verif.Spec.Secp
import Verif.Spec.Separate
import Verif.Spec.Signing
import Verif.Spec.SponsorMembers
import Verif.Spec.Sponsored
import Verif.Spec.StructAnswer
import Verif.Spec.Transaction
import Verif.Spec.TransactionErrors
import Verif.Spec.Twin
import Verif.Spec.TxId
import Verif.Spec.Types
import Verif.Spec.Verify
import Verif.Spec.Wallet
import Verif.Vectors
import Verif.VectorsDerive
import Verif.VectorsSigned
import Verif.VectorsWallet
import Verif.VectorsWallet0
import Verif.VectorsWallet1
