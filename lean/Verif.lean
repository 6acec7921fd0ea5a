import Verif.Prime
import Verif.Basic
import Verif.Scalar
import Verif.Group
import Verif.Merlin
import Verif.Model.Errors
import Verif.Model.Amacs
import Verif.Model.Parameters
import Verif.Model.Memory
import Verif.Model.Proofs
import Verif.Model.Bincode
import Verif.Model.Credential
import Verif.Model.Issuer
import Verif.Model.User
import Verif.Model.PhoneNumber
import Verif.Model.Signal
import Verif.Toy
import Verif.Lemmas.Bytes
import Verif.Lemmas.Bincode
import Verif.Props.CodecBasic
import Verif.Props.CodecComposite
import Verif.Props.CodecTables
import Verif.Lemmas.Phone
import Verif.Lemmas.Uniform
import Verif.Props.Phone
import Verif.Props.Mac
import Verif.Props.Commit
import Verif.Props.Nizk
import Verif.Props.NizkQuery
import Verif.Lemmas.Protocol
import Verif.Props.Issuance
import Verif.Props.Show
import Verif.Props.Soundness
import Verif.Props.NizkWi
import Verif.Props.Unlinkable
import Verif.Props.Params
import Verif.Props.Erase
import Verif.Props.Errors
import Verif.Props.History
import Verif.Model.Ffi
import Verif.Model.Print
import Verif.Model.Width
import Verif.Lemmas.Ffi
import Verif.Props.FfiPanic
import Verif.Props.FfiArgs
import Verif.Props.FfiBuffers
import Verif.Props.FfiChain
import Verif.Model.Wasm
import Verif.Model.Glue
import Verif.Props.Wasm
import Verif.Props.Glue
import Verif.Model.Swift
import Verif.Props.Swift
import Verif.Props.Unforge
import Verif.Model.Serde
import Verif.Props.ProofRng
import Verif.Props.Draws
import Verif.Props.BlindIssuance
import Verif.Props.Serde
import Verif.Props.PresentAgm
import Verif.Props.Persist
import Verif.Curve.Field
import Verif.Curve.Edwards
import Verif.Curve.Compute
import Verif.Curve.Order
import Verif.Curve.Encode
import Verif.Curve.Ristretto255
import Verif.Curve.EncodeNat
import Verif.Curve.Pt
import Verif.Concrete.Strobe
import Verif.Concrete.ChaCha
import Verif.Vectors.Data
import Verif.Vectors.Keys
import Verif.Vectors.Issue
import Verif.Vectors.Verify
import Verif.Props.Group255
import Verif.Props.Hunt
import Verif.Model.Conversions
import Verif.Props.Conversions
import Verif.Props.Faithful
import Verif.Props.Reveal
import Verif.Lemmas.Forking
import Verif.Props.Knowledge
import Verif.Lemmas.Simulation
import Verif.Lemmas.Bias
import Verif.Props.ZeroKnowledge
import Verif.Props.Simulatable
import Verif.Props.Attack
import Verif.Props.Replay
import Verif.Props.Reseed
import Verif.Props.Reduction
import Verif.Props.Intruder
import Verif.Props.Watching
import Verif.Props.Deputy
import Verif.Props.Echo
import Verif.Props.Onlooker
import Verif.Props.Spy
import Verif.Props.Setup
import Verif.Props.Sketch
import Verif.Props.Applicant
import Verif.Props.Agent
import Verif.Props.Generic
import Verif.Model.BuildTest
import Verif.Props.BuildTest
import Verif.Model.Tests
import Verif.Props.Tests
import Verif.Props.Tagging
import Verif.Props.Coins
import Verif.Lemmas.Program
import Verif.Props.Code
import Verif.Props.Forge
import Verif.Props.Ddh
import Verif.Props.Shared
import Verif.Props.Equality
import Verif.Props.Print
import Verif.Props.Width
import Verif.Props.Theft
import Verif.Props.Gang
import Verif.Props.Heist
import Verif.Props.Mint
import Verif.Props.Bystander
import Verif.Props.Coiner
import Verif.Vectors.Attack
import Verif.Props.Consortium
import Verif.Props.Syndicate
import Verif.Props.Guild
import Verif.Props.Cartel
import Verif.Props.Texts
import Verif.Props.Crowd
import Verif.Props.Denial
import Verif.Props.Recall
