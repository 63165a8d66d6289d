import Verif.Base
import Verif.Lemmas.Beacon
import Verif.Lemmas.Bytes
import Verif.Lemmas.Codec
import Verif.Lemmas.Command
import Verif.Lemmas.Contained
import Verif.Lemmas.Frame
import Verif.Lemmas.FrameWrite
import Verif.Lemmas.Gts
import Verif.Lemmas.Header
import Verif.Lemmas.HeaderProps
import Verif.Lemmas.HeaderVerdict
import Verif.Lemmas.Holds
import Verif.Lemmas.Quiz
import Verif.Lemmas.Reader
import Verif.Lemmas.ReaderS
import Verif.Lemmas.Receive
import Verif.Lemmas.ReceiveChecks
import Verif.Lemmas.Secure
import Verif.Lemmas.SecureHistory
import Verif.Lemmas.SecureWrite
import Verif.Lemmas.Steps
import Verif.Lemmas.Stores
import Verif.Lemmas.Superframe
import Verif.Lemmas.Unsecure
import Verif.Lemmas.Writer
import Verif.Model.Address
import Verif.Model.Arith
import Verif.Model.AuxSec
import Verif.Model.Beacon
import Verif.Model.Ccm
import Verif.Model.Command
import Verif.Model.Debug
import Verif.Model.Enums
import Verif.Model.Frame
import Verif.Model.Hash
import Verif.Model.Header
import Verif.Model.Security
import Verif.Model.Serde
import Verif.Model.Steps
import Verif.Model.Stores
import Verif.Props.Accounts
import Verif.Props.Adaptive
import Verif.Props.AnyApp
import Verif.Props.Application
import Verif.Props.Arith
import Verif.Props.Beacon
import Verif.Props.Ccm
import Verif.Props.CcmRfc
import Verif.Props.Channel
import Verif.Props.Cipher
import Verif.Props.Collision
import Verif.Props.Command
import Verif.Props.Copies
import Verif.Props.Counting
import Verif.Props.Debug
import Verif.Props.Decode
import Verif.Props.DecodeFrame
import Verif.Props.DeviceList
import Verif.Props.EnumMacro
import Verif.Props.Enums
import Verif.Props.Equality
import Verif.Props.ErrorLists
import Verif.Props.Everyone
import Verif.Props.Fields
import Verif.Props.Forgery
import Verif.Props.Frame
import Verif.Props.Guessing
import Verif.Props.Hash
import Verif.Props.Header
import Verif.Props.Held
import Verif.Props.History
import Verif.Props.Hosts
import Verif.Props.Interactive
import Verif.Props.Life
import Verif.Props.LostKeys
import Verif.Props.Network
import Verif.Props.Node
import Verif.Props.PermPlay
import Verif.Props.Permute
import Verif.Props.RealCipher
import Verif.Props.Receiver
import Verif.Props.Relay
import Verif.Props.Residue
import Verif.Props.Restart
import Verif.Props.Secrecy
import Verif.Props.SecrecyBound
import Verif.Props.SecureRead
import Verif.Props.SecureWrite
import Verif.Props.Serde
import Verif.Props.ShutOut
import Verif.Props.ShutReal
import Verif.Props.Small
import Verif.Props.Steps
import Verif.Props.Stores
import Verif.Props.Stream
import Verif.Props.Talk
import Verif.Props.Total
import Verif.Props.Trial
import Verif.Props.Unforgeable
import Verif.Props.Writers
import Verif.Spec.Accounts
import Verif.Spec.AnyAppSpec
import Verif.Spec.ArithSpec
import Verif.Spec.BeaconSpec
import Verif.Spec.CcmSpec
import Verif.Spec.ChanceSpec
import Verif.Spec.ChannelSpec
import Verif.Spec.CommandSpec
import Verif.Spec.DebugSpec
import Verif.Spec.EnumSpec
import Verif.Spec.ErrorLists
import Verif.Spec.ErrorSpec
import Verif.Spec.EverySpec
import Verif.Spec.FrameSpec
import Verif.Spec.GuessSpec
import Verif.Spec.HashSpec
import Verif.Spec.HeaderSpec
import Verif.Spec.HistorySpec
import Verif.Spec.HostSpec
import Verif.Spec.Layout
import Verif.Spec.LifeSpec
import Verif.Spec.LostSpec
import Verif.Spec.NetworkSpec
import Verif.Spec.NodeSpec
import Verif.Spec.OnWire
import Verif.Spec.PermSpec
import Verif.Spec.PlaySpec
import Verif.Spec.QuizSpec
import Verif.Spec.ReceiveSpec
import Verif.Spec.RelaySpec
import Verif.Spec.RestartSpec
import Verif.Spec.SecrecySpec
import Verif.Spec.SecuritySpec
import Verif.Spec.SerdeSpec
import Verif.Spec.ShutRealSpec
import Verif.Spec.ShutSpec
import Verif.Spec.StepSpec
import Verif.Spec.StoreSpec
import Verif.Spec.StreamSpec
import Verif.Spec.TableSpec
import Verif.Spec.TalkSpec
import Verif.Spec.TotalSpec
import Verif.Spec.TrialSpec
import Verif.Spec.WriterSpec
import Verif.Tests.Aes
import Verif.Tests.Codec
import Verif.Tests.Rfc3610
import Verif.Tests.Security
import Verif.Witness.Codec
import Verif.Witness.Debug
import Verif.Witness.Games
import Verif.Witness.Guessing
import Verif.Witness.Life
import Verif.Witness.LostKeys
import Verif.Witness.RealCipher
import Verif.Witness.RealShutOut
import Verif.Witness.Runs
import Verif.Witness.Samples
import Verif.Witness.Securing
import Verif.Witness.Serde
import Verif.Witness.ShutOut
import Verif.Witness.Stores
import Verif.Witness.Systems
import Verif.Witness.Talk
